import Verif.Props.NlpIpopt

/-! C165: what SNOPT sees of a problem and hands back; several SNOPT solvers side by side. -/

namespace CT.NlpSolver

open CT.Nlp

variable {α D : Type}

/-! ### Solvers side by side -/

/-- The solvers in existence, latest first. -/
def owners (l : List Nat) : List PoolCall → List Nat
  | [] => l
  | .create o :: h => owners (o :: l) h
  | .destroy o :: h => owners (l.filter (· ≠ o)) h

/-- Only solvers that do not exist are created. -/
def Sensible (l : List Nat) : List PoolCall → Prop
  | [] => True
  | .create o :: h => o ∉ l ∧ Sensible (o :: l) h
  | .destroy o :: h => Sensible (l.filter (· ≠ o)) h

/-- The largest number of solvers in existence at the same time. -/
def peak (l : List Nat) : List PoolCall → Nat
  | [] => l.length
  | .create o :: h => max l.length (peak (o :: l) h)
  | .destroy o :: h => max l.length (peak (l.filter (· ≠ o)) h)

/-- Pool and live memories agree. -/
structure Pool.Inv (p : Pool) : Prop where
  slot : ∀ o i, (o, i) ∈ p.live ↔ p.slots[i]? = some (some o)
  nodup : (p.live.map (·.1)).Nodup

theorem Pool.Inv.eq_idx {p : Pool} (h : p.Inv) {o i j : Nat} (hi : (o, i) ∈ p.live) (hj : (o, j) ∈ p.live) : i = j := by
  have := List.inj_on_of_nodup_map h.nodup hi hj rfl
  simpa using this

theorem findIdx_spec {β : Type} [BEq β] [LawfulBEq β] (l : List β) (a : β) :
    (l.findIdx (· == a) = l.length ∧ a ∉ l) ∨ (l.findIdx (· == a) < l.length ∧ l[l.findIdx (· == a)]? = some a) := by
  by_cases h : a ∈ l
  · right
    have hlt : l.findIdx (· == a) < l.length := List.findIdx_lt_length_of_exists ⟨a, h, by simp⟩
    refine ⟨hlt, ?_⟩
    rw [List.getElem?_eq_getElem hlt]
    have := List.findIdx_getElem (w := hlt)
    simpa using this
  · left
    refine ⟨?_, h⟩
    rw [List.findIdx_eq_length]
    intro x hx
    simp only [beq_eq_false_iff_ne, ne_eq]
    rintro rfl
    exact h hx

theorem Pool.Inv.alloc {p : Pool} (h : p.Inv) {o : Nat} (ho : o ∉ p.live.map (·.1)) : (p.alloc o).Inv := by
  have hns : ∀ i : Nat, p.slots[i]? ≠ some (some o) := by
    intro i hi
    exact ho (List.mem_map.2 ⟨(o, i), (h.slot o i).2 hi, rfl⟩)
  rcases findIdx_spec p.slots none with ⟨hl, hn⟩ | ⟨hlt, hat⟩
  · have e : p.alloc o = { slots := p.slots ++ [some o], live := (o, p.slots.length) :: p.live } := by
      simp only [Pool.alloc, hl, if_true]
    rw [e]
    refine ⟨fun o' i => ?_, by simpa using ⟨by simpa using ho, h.nodup⟩⟩
    simp only [List.mem_cons, Prod.mk.injEq]
    rcases Nat.lt_trichotomy i p.slots.length with hi | hi | hi
    · rw [List.getElem?_append_left hi, ← h.slot]
      constructor
      · rintro (⟨-, rfl⟩ | hm)
        · omega
        · exact hm
      · exact Or.inr
    · subst hi
      rw [List.getElem?_append_right (le_refl _)]
      simp only [Nat.sub_self, List.getElem?_cons_zero, Option.some.injEq]
      constructor
      · rintro (⟨rfl, -⟩ | hm)
        · rfl
        · have := (h.slot _ _).1 hm
          simp at this
      · rintro rfl; exact Or.inl (by simp)
    · rw [List.getElem?_eq_none (by simp; omega)]
      constructor
      · rintro (⟨-, rfl⟩ | hm)
        · omega
        · have := (h.slot _ _).1 hm
          rw [List.getElem?_eq_none (by omega)] at this
          simp at this
      · intro e; simp at e
  · have hne : p.slots.findIdx (· == none) ≠ p.slots.length := by omega
    have e : p.alloc o = { slots := p.slots.set (p.slots.findIdx (· == none)) (some o),
                           live := (o, p.slots.findIdx (· == none)) :: p.live } := by
      simp only [Pool.alloc, hne, if_false]
    rw [e]
    refine ⟨fun o' i => ?_, by simpa using ⟨by simpa using ho, h.nodup⟩⟩
    simp only [List.mem_cons, Prod.mk.injEq, List.getElem?_set]
    by_cases hi : p.slots.findIdx (· == none) = i
    · subst hi
      simp only [if_true, hlt, Option.some.injEq]
      constructor
      · rintro (⟨rfl, -⟩ | hm)
        · rfl
        · have := (h.slot _ _).1 hm
          rw [hat] at this
          simp at this
      · rintro rfl; exact Or.inl (by simp)
    · rw [if_neg hi, ← h.slot]
      constructor
      · rintro (⟨-, rfl⟩ | hm)
        · exact absurd rfl hi
        · exact hm
      · exact Or.inr

theorem Pool.Inv.free {p : Pool} (h : p.Inv) (o : Nat) : (p.free o).Inv := by
  have hnd : ((p.live.filter (·.1 ≠ o)).map (·.1)).Nodup :=
    h.nodup.sublist (List.Sublist.map _ List.filter_sublist)
  rcases findIdx_spec p.slots (some o) with ⟨hl, hn⟩ | ⟨hlt, hat⟩
  · have e : p.free o = { p with live := p.live.filter (·.1 ≠ o) } := by simp only [Pool.free, hl, if_true]
    rw [e]
    refine ⟨fun o' i => ?_, hnd⟩
    simp only [List.mem_filter, decide_eq_true_eq, h.slot]
    constructor
    · exact fun x => x.1
    · intro hi
      refine ⟨hi, ?_⟩
      rintro rfl
      exact hn (List.mem_of_getElem? hi)
  · have hne : p.slots.findIdx (· == some o) ≠ p.slots.length := by omega
    have e : p.free o = { slots := p.slots.set (p.slots.findIdx (· == some o)) none,
                          live := p.live.filter (·.1 ≠ o) } := by
      simp only [Pool.free, hne, if_false]
    rw [e]
    refine ⟨fun o' i => ?_, hnd⟩
    simp only [List.mem_filter, decide_eq_true_eq, List.getElem?_set, h.slot]
    by_cases hi : p.slots.findIdx (· == some o) = i
    · subst hi
      simp only [if_true, hlt, hat, Option.some.injEq, reduceCtorEq, iff_false, not_and, not_not]
      exact fun e => e.symm
    · rw [if_neg hi]
      constructor
      · exact fun x => x.1
      · intro hs
        refine ⟨hs, ?_⟩
        rintro rfl
        exact hi (h.eq_idx ((h.slot _ _).2 hat) ((h.slot _ _).2 hs))

theorem alloc_live (p : Pool) (o : Nat) : (p.alloc o).live.map (·.1) = o :: p.live.map (·.1) := by
  unfold Pool.alloc
  simp only
  split <;> simp

theorem free_live (p : Pool) (o : Nat) : (p.free o).live.map (·.1) = (p.live.map (·.1)).filter (· ≠ o) := by
  have : (p.free o).live = p.live.filter (·.1 ≠ o) := by unfold Pool.free; simp only; split <;> rfl
  rw [this, List.filter_map]
  rfl

theorem pool_inv (h : List PoolCall) (p : Pool) (hp : p.Inv) (hs : Sensible (p.live.map (·.1)) h) :
    (h.foldl Pool.step p).Inv ∧ (h.foldl Pool.step p).live.map (·.1) = owners (p.live.map (·.1)) h := by
  induction h generalizing p with
  | nil => exact ⟨hp, rfl⟩
  | cons c h ih =>
    cases c with
    | create o =>
      obtain ⟨ho, hs⟩ := hs
      have := ih (p.alloc o) (hp.alloc ho) (by rw [alloc_live]; exact hs)
      rw [alloc_live] at this
      exact this
    | destroy o =>
      have := ih (p.free o) (hp.free o) (by rw [free_live]; exact hs)
      rw [free_live] at this
      exact this

theorem empty_inv : Pool.Inv { slots := [], live := [] } := ⟨by simp, by simp⟩

/-- C165, solvers side by side: after every history of creating and destroying SNOPT solvers, the index each existing
solver was given leads the static callback to that solver, and to no other. -/
theorem C165_callback (h : List PoolCall) (hs : Sensible [] h) :
    (∀ o, o ∈ owners [] h ↔ ∃ i, (o, i) ∈ (Pool.after h).live) ∧
    (∀ o i, (o, i) ∈ (Pool.after h).live → (Pool.after h).lookup i = .ok o) ∧
    ∀ o o' i, (o, i) ∈ (Pool.after h).live → (o', i) ∈ (Pool.after h).live → o = o' := by
  obtain ⟨hi, ho⟩ : (Pool.after h).Inv ∧ (Pool.after h).live.map (·.1) = owners [] h := pool_inv h _ empty_inv hs
  have hl : ∀ o i, (o, i) ∈ (Pool.after h).live → (Pool.after h).lookup i = .ok o := by
    intro o i hm
    rw [Pool.lookup, (hi.slot o i).1 hm]
  refine ⟨fun o => ?_, hl, fun o o' i h1 h2 => ?_⟩
  · have : owners [] h = (Pool.after h).live.map (·.1) := ho.symm
    rw [this, List.mem_map]
    constructor
    · rintro ⟨⟨o', i⟩, hm, rfl⟩; exact ⟨i, hm⟩
    · rintro ⟨i, hm⟩; exact ⟨(o, i), hm, rfl⟩
  · have := hl o i h1
    rw [hl o' i h2] at this
    simpa using this.symm

/-- C165, indices stay valid: an index given to a solver leads to it as long as it exists, whatever is created or
destroyed besides. -/
theorem C165_callback_stable (h h' : List PoolCall) (hs : Sensible [] (h ++ h')) (o i : Nat)
    (hm : (o, i) ∈ (Pool.after h).live) (hd : PoolCall.destroy o ∉ h') : (Pool.after (h ++ h')).lookup i = .ok o := by
  have split : ∀ (h : List PoolCall) (l : List Nat), Sensible l (h ++ h') → Sensible l h ∧ Sensible (owners l h) h' := by
    intro h
    induction h with
    | nil => intro l hl; exact ⟨trivial, hl⟩
    | cons c h ih =>
      intro l hl
      cases c with
      | create o => exact ⟨⟨hl.1, (ih _ hl.2).1⟩, (ih _ hl.2).2⟩
      | destroy o => exact ih _ hl
  obtain ⟨hs1, hs2⟩ := split h [] hs
  obtain ⟨hi, ho⟩ : (Pool.after h).Inv ∧ (Pool.after h).live.map (·.1) = owners [] h := pool_inv h _ empty_inv hs1
  have key : ∀ (h' : List PoolCall) (p : Pool), p.Inv → Sensible (p.live.map (·.1)) h' → (o, i) ∈ p.live →
      PoolCall.destroy o ∉ h' → (o, i) ∈ (h'.foldl Pool.step p).live := by
    intro h'
    induction h' with
    | nil => intro p _ _ hm _; exact hm
    | cons c h' ih =>
      intro p hp hs hm hd
      have hd' : PoolCall.destroy o ∉ h' := fun x => hd (by simp [x])
      cases c with
      | create o' =>
        refine ih (p.alloc o') (hp.alloc hs.1) (by rw [alloc_live]; exact hs.2) ?_ hd'
        unfold Pool.alloc
        simp only
        split <;> simp [hm]
      | destroy o' =>
        refine ih (p.free o') (hp.free o') (by rw [free_live]; exact hs) ?_ hd'
        have hne : o ≠ o' := by rintro rfl; exact hd (by simp)
        unfold Pool.free
        simp only
        split <;> simp [hm, hne]
  have hs2' : Sensible ((Pool.after h).live.map (·.1)) h' := by
    have : (Pool.after h).live.map (·.1) = owners [] h := ho
    rw [this]; exact hs2
  have h2 := key h' (Pool.after h) hi hs2' hm hd
  obtain ⟨hi2, -⟩ := pool_inv h' (Pool.after h) hi hs2'
  have e : Pool.after (h ++ h') = h'.foldl Pool.step (Pool.after h) := by simp [Pool.after, List.foldl_append]
  rw [e, Pool.lookup, (hi2.slot o i).1 h2]

/-- C165, the pool does not grow: it never has more slots than there were solvers at the same time. -/
theorem C165_pool_size (h : List PoolCall) (hs : Sensible [] h) : (Pool.after h).slots.length ≤ peak [] h := by
  have key : ∀ (h : List PoolCall) (p : Pool) (n : Nat), p.Inv → Sensible (p.live.map (·.1)) h → p.slots.length ≤ n →
      (h.foldl Pool.step p).slots.length ≤ max n (peak (p.live.map (·.1)) h) := by
    intro h
    induction h with
    | nil => intro p n _ _ hn; exact le_trans hn (le_max_left _ _)
    | cons c h ih =>
      intro p n hp hs hn
      cases c with
      | create o =>
        have hsz : (p.alloc o).slots.length ≤ max n (p.live.length + 1) := by
          rcases findIdx_spec p.slots none with ⟨hl, hnone⟩ | ⟨hlt, -⟩
          · have e : (p.alloc o).slots = p.slots ++ [some o] := by simp only [Pool.alloc, hl, if_true]
            have hle : p.slots.length ≤ p.live.length := by
              have hsub : List.range p.slots.length ⊆ p.live.map (·.2) := by
                intro i hi
                have hi' : i < p.slots.length := List.mem_range.1 hi
                have hget : p.slots[i]? = some p.slots[i] := List.getElem?_eq_getElem hi'
                cases hv : p.slots[i] with
                | none => exact absurd (hv ▸ List.getElem_mem hi') hnone
                | some o' =>
                  rw [hv] at hget
                  exact List.mem_map.2 ⟨(o', i), (hp.slot o' i).2 hget, rfl⟩
              have := (List.subperm_of_subset List.nodup_range hsub).length_le
              simpa using this
            rw [e]
            simp only [List.length_append, List.length_cons, List.length_nil]
            omega
          · have hne : p.slots.findIdx (· == none) ≠ p.slots.length := by omega
            have e : (p.alloc o).slots = p.slots.set (p.slots.findIdx (· == none)) (some o) := by
              simp only [Pool.alloc, hne, if_false]
            rw [e, List.length_set]
            omega
        have := ih (p.alloc o) _ (hp.alloc hs.1) (by rw [alloc_live]; exact hs.2) hsz
        rw [alloc_live] at this
        have hpk : p.live.length + 1 ≤ peak (o :: p.live.map (·.1)) h := by
          cases h with
          | nil => simp [peak]
          | cons c h => cases c <;> simp [peak]
        simp only [List.foldl_cons, Pool.step, peak]
        omega
      | destroy o =>
        have hsz : (p.free o).slots.length ≤ n := by
          unfold Pool.free
          simp only
          split
          · exact hn
          · simpa using hn
        have := ih (p.free o) n (hp.free o) (by rw [free_live]; exact hs) hsz
        rw [free_live] at this
        simp only [List.foldl_cons, Pool.step, peak]
        omega
  have := key h { slots := [], live := [] } 0 empty_inv hs (le_refl _)
  simpa [Pool.after] using this

example : Sensible [] [.create 1, .create 2, .destroy 1, .create 3] ∧
    (2, 1) ∈ (Pool.after [.create 1, .create 2]).live ∧ PoolCall.destroy 2 ∉ [PoolCall.destroy 1, .create 3] ∧
    (Pool.after [.create 1, .create 2, .destroy 1, .create 3]).slots = [some 3, some 2] := by
  refine ⟨by simp [Sensible], by decide, by simp, by decide⟩

/-! ### What SNOPT is given -/

/-- Gradient entries stand in the first row. -/
theorem dense_gradient [AddCommMonoid α] (g : List α) (k j : Nat) :
    dense (List.replicate g.length 0) (List.range' k g.length) g 0 j = if k ≤ j then g.getD (j - k) 0 else 0 := by
  induction g generalizing k with
  | nil => simp [dense]
  | cons a g ih =>
    have h := dense_append (r := [0]) (c := [k]) (v := [a]) (r' := List.replicate g.length 0)
      (c' := List.range' (k + 1) g.length) (v' := g) rfl rfl 0 j
    have e : dense (List.replicate (a :: g).length 0) (List.range' k (a :: g).length) (a :: g) 0 j =
        dense ([0] ++ List.replicate g.length 0) ([k] ++ List.range' (k + 1) g.length) ([a] ++ g) 0 j := by
      simp [List.replicate_succ, List.range'_succ]
    rw [e, h, ih]
    rcases Nat.lt_trichotomy k j with hkj | hkj | hkj
    · obtain ⟨t, rfl⟩ : ∃ t, j = k + 1 + t := ⟨j - (k + 1), by omega⟩
      have h1 : k + 1 + t - k = t + 1 := by omega
      have h2 : k ≤ k + 1 + t := by omega
      have h3 : ¬ k = k + 1 + t := by omega
      simp [dense, h1, h2, h3]
    · subst hkj
      simp [dense]
    · have h1 : ¬ k + 1 ≤ j := by omega
      have h2 : ¬ k ≤ j := by omega
      have h3 : ¬ k = j := by omega
      simp [dense, h1, h2, h3]

/-- The variables of a problem of `n` variables and `m` constraints have the right sizes. -/
structure OptVec.Sized (v : OptVec α) (n m : Nat) : Prop where
  x : v.x.length = n
  xLb : v.xLb.length = n
  xUb : v.xUb.length = n
  xMul : v.xMul.length = n
  xState : v.xState.length = n
  zMul : v.zMul.length = m + 1
  zState : v.zState.length = m + 1

/-- C165, layout: a solver configured for a problem hands SNOPT the guess, the bounds, and multipliers and states of the
last solution; row 0 is the objective, unbounded, and the rows behind are the constraints with their bounds. Each callback
is answered at the point asked about: `F` is the cost followed by the constraints, and pattern and `G` together stand for
the gradient in row 0 and the stacked Jacobians of the constraints below, for the same rows. -/
theorem C165_layout [AddCommMonoid α] (lowest max : α) (p : Prob α D) (n m nnz : Nat) (hw : p.Wf m nnz)
    (hgrad : ∀ x, x.length = n → (p.grad x (p.update x)).length = n) (a : Snopt) (st0 : State α D)
    (h0 : st0.vars.x.length = n) (set : SnoptSettings) (st : State α D) (hst : st.vars.Sized n m) (g : List α)
    (hg : st.vars.xInit = some g) (hgl : g.length = n) :
    ∃ arr, fillMemory lowest max (a.configure p st0 set) p st = .ok arr ∧ arr.x = g ∧ arr.xlow = st.vars.xLb ∧
      arr.xupp = st.vars.xUb ∧ arr.xmul = st.vars.xMul ∧ arr.xstate = st.vars.xState ∧ arr.Fmul = st.vars.zMul ∧
      arr.Fstate = st.vars.zState ∧ arr.F.length = m + 1 ∧ arr.Flow.length = m + 1 ∧ arr.Fupp.length = m + 1 ∧
      arr.iG.length = n + nnz ∧ arr.jG.length = n + nnz ∧
      arr.Flow[0]? = some lowest ∧ arr.Fupp[0]? = some max ∧
      (∀ (k : Nat) (hk : k < (st.cons p).length) (i : Nat), i < (st.cons p)[k].size →
        arr.Flow[1 + (offset (st.cons p) k + i)]? = (st.cons p)[k].lb[i]? ∧
        arr.Fupp[1 + (offset (st.cons p) k + i)]? = (st.cons p)[k].ub[i]?) ∧
      ∀ (s : State α D) (q : SnoptQuery α), q.x.length = n → q.F.length = m + 1 → q.G.length = n + nnz →
        q.needF > 0 → q.needG > 0 →
        ∃ s' F G, snoptAnswer p s q = .ok (s', F, G) ∧ s'.vars.x = q.x ∧ s'.data = p.update q.x ∧
          F.length = m + 1 ∧ G.length = n + nnz ∧ F[0]? = some (p.cost q.x (p.update q.x)) ∧
          (∀ j, dense arr.iG arr.jG G 0 j = (p.grad q.x (p.update q.x)).getD j 0) ∧
          ∀ (k : Nat) (hk : k < (p.at q.x).length) (i : Nat), i < (p.at q.x)[k].size →
            F[1 + (offset (p.at q.x) k + i)]? = (p.at q.x)[k].eval[i]? ∧
            ∀ j, dense arr.iG arr.jG G (1 + (offset (p.at q.x) k + i)) j =
              dense (p.at q.x)[k].rows (p.at q.x)[k].cols (p.at q.x)[k].jac i j := by
  have hc : ∀ s : State α D, constraintsCount (s.cons p) = m := fun s => hw.count _ _
  have hn : ∀ s : State α D, nonZerosCount (s.cons p) = nnz := fun s => hw.nonZeros _ _
  have rep : ∀ k : Nat, (List.replicate k (0 : α)).length = k := fun k => by simp
  have repN : ∀ k : Nat, (List.replicate k (0 : Nat)).length = k := fun k => by simp
  obtain ⟨v, l, u, -, hb, -, hll, hul, hval⟩ := C44_values (st.cons p) (hw.con _ _) (List.replicate m 0)
    (List.replicate m 0) (List.replicate m 0) (by rw [rep, hc]) (by rw [rep, hc]) (by rw [rep, hc])
  obtain ⟨w, rs, js, -, hpat, -, hrl, hjl, -, -⟩ := C44_jacobian (st.cons p) (hw.con _ _) (List.replicate nnz 0)
    (List.replicate nnz 0) (List.replicate nnz 0) (by rw [rep, hn]) (by rw [repN, hn]) (by rw [repN, hn])
  refine ⟨{ x := g, xlow := st.vars.xLb, xupp := st.vars.xUb, xmul := st.vars.xMul, xstate := st.vars.xState,
            F := List.replicate (m + 1) 0, Flow := lowest :: l, Fupp := max :: u, Fmul := st.vars.zMul,
            Fstate := st.vars.zState, iG := List.replicate n 0 ++ rs.map (· + 1), jG := List.range n ++ js },
    ?_, rfl, rfl, rfl, rfl, rfl, rfl, rfl, ?_, ?_, ?_, ?_, ?_, rfl, rfl, ?_, ?_⟩
  · simp [fillMemory, Snopt.configure, h0, hc, hn, OptVec.getInitialGuess, hg, copyOut, hgl,
      OptVec.getVariableBounds, hst.xLb, hst.xUb, OptVec.getOptimizationMultState, hst.xMul, hst.xState, hb,
      OptVec.getConstraintsMultState, hst.zMul, hst.zState, hpat, Res.ok_bind, Res.pure_eq]
  · simp
  · simp [hll, hc]
  · simp [hul, hc]
  · simp [hrl, hn]
  · simp [hjl, hn]
  · intro k hk i hi
    have := hval k hk i hi
    rw [Nat.add_comm 1]
    simpa using this.2
  · intro s q hx hF hG hnF hnG
    set s1 := s.extract p q.x true with hs1
    have hx1 : s1.vars.x = q.x := by simp [hs1, State.extract, OptVec.setOptimizationVars]
    have hd1 : s1.data = p.update q.x := by simp [hs1, State.extract]
    have hcs : s1.cons p = p.at q.x := by simp [State.cons, Prob.at, hx1, hd1]
    have hca : constraintsCount (p.at q.x) = m := hw.count _ _
    have hna : nonZerosCount (p.at q.x) = nnz := hw.nonZeros _ _
    obtain ⟨v', l', u', hv', -, hvl', -, -, hval'⟩ := C44_values (p.at q.x) (hw.con _ _) (q.F.drop 1)
      (List.replicate m 0) (List.replicate m 0) (by rw [hca, List.length_drop, hF]; omega) (by rw [rep, hca])
      (by rw [rep, hca])
    obtain ⟨w', rs', js', hw', hpat', hwl', -, -, hd', -⟩ := C44_jacobian (p.at q.x) (hw.con _ _) (q.G.drop n)
      (List.replicate nnz 0) (List.replicate nnz 0) (by rw [hna, List.length_drop, hG]; omega) (by rw [repN, hna])
      (by rw [repN, hna])
    have hpp : getSparsityPattern (p.at q.x) (List.replicate nnz 0) (List.replicate nnz 0) =
        getSparsityPattern (st.cons p) (List.replicate nnz 0) (List.replicate nnz 0) :=
      patternLoop_congr (hw.pattern _ _ _ _) _ _ _ _
    rw [hpp, hpat] at hpat'
    simp only [Res.ok.injEq, Prod.mk.injEq] at hpat'
    obtain ⟨rfl, rfl⟩ := hpat'
    have hgr : (p.grad q.x (p.update q.x)).length = n := hgrad _ hx
    have hFne : q.F ≠ [] := by intro e; rw [e] at hF; simp at hF
    refine ⟨s1, p.cost q.x (p.update q.x) :: v', p.grad q.x (p.update q.x) ++ w', ?_, hx1, hd1, ?_, ?_, rfl, ?_, ?_⟩
    · have hlen : ¬ q.G.length < n := by omega
      rw [List.drop_one] at hv'
      simp [snoptAnswer, snoptF, snoptG, ← hs1, hcs, hx1, hd1, hnF, hnG, hFne, hv', hx, hlen, copyOut, hgr, hw', Res.ok_bind,
        Res.pure_eq]
    · simp [hvl', hca]
    · simp [hgr, hwl', hna]
    · intro j
      rw [dense_append (by simp) (by simp [hgr])]
      have h1 := dense_gradient (p.grad q.x (p.update q.x)) 0 j
      rw [hgr, ← List.range_eq_range'] at h1
      rw [h1, dense_zero (by simp)]
      simp
    · intro k hk i hi
      refine ⟨?_, fun j => ?_⟩
      · rw [Nat.add_comm 1]
        simpa using (hval' k hk i hi).1
      · rw [dense_append (by simp) (by simp [hgr]), dense_zero (by simp), zero_add,
          dense_shift rs js w' 1 (offset (p.at q.x) k + i) j]
        exact hd' k hk i j hi

/-- C165, what is not asked for: values or derivatives SNOPT does not need are left as they are, while the point is taken
over in any case. -/
theorem C165_not_needed [AddCommMonoid α] (p : Prob α D) (s : State α D) (q : SnoptQuery α) (hF : q.needF ≤ 0)
    (hG : q.needG ≤ 0) :
    ∃ s', snoptAnswer p s q = .ok (s', q.F, q.G) ∧ s'.vars.x = q.x ∧ s'.data = p.update q.x := by
  refine ⟨s.extract p q.x true, ?_, by simp [State.extract, OptVec.setOptimizationVars], by simp [State.extract]⟩
  have h1 : ¬ q.needF > 0 := by omega
  have h2 : ¬ q.needG > 0 := by omega
  simp [snoptAnswer, snoptF, snoptG, h1, h2, Res.ok_bind, Res.pure_eq]

/-! ### Solves -/

theorem snoptAnswers_last [AddCommMonoid α] (p : Prob α D) (qs : List (SnoptQuery α)) (s s' : State α D)
    (as : List (List α × List α)) (h : snoptAnswers p s qs = .ok (s', as)) :
    (∀ q, qs.getLast? = some q → s'.vars.x = q.x ∧ s'.data = p.update q.x) ∧ (qs = [] → s' = s) := by
  induction qs generalizing s as with
  | nil =>
    simp only [snoptAnswers, Res.ok.injEq, Prod.mk.injEq] at h
    exact ⟨by simp, fun _ => h.1.symm⟩
  | cons q qs ih =>
    simp only [snoptAnswers] at h
    obtain ⟨⟨s1, F, G⟩, h1, h⟩ := Res.bind_eq_ok.1 h
    obtain ⟨⟨s2, as'⟩, h2, h⟩ := Res.bind_eq_ok.1 h
    simp only [Res.pure_eq, Res.ok.injEq, Prod.mk.injEq] at h
    obtain ⟨rfl, -⟩ := h
    obtain ⟨ih1, ih2⟩ := ih s1 as' h2
    have hs1 : s1 = s.extract p q.x true := by
      simp only [snoptAnswer] at h1
      obtain ⟨F', -, h1⟩ := Res.bind_eq_ok.1 h1
      obtain ⟨G', -, h1⟩ := Res.bind_eq_ok.1 h1
      simp only [Res.pure_eq, Res.ok.injEq, Prod.mk.injEq] at h1
      exact h1.1.symm
    refine ⟨fun q' hq' => ?_, by simp⟩
    cases qs with
    | nil =>
      simp at hq'
      subst hq'
      rw [ih2 rfl, hs1]
      simp [State.extract, OptVec.setOptimizationVars]
    | cons q2 qs => exact ih1 q' (by simpa using hq')

/-- C165, results: if SNOPT finds an optimum or stops at an iteration limit (status 1, 31, 32), the problem holds the
variables, multipliers and states SNOPT returned. Missing from the full property is that the caller learns about failures,
see `C165_failure_violated`. -/
theorem C165_stored_partial [AddCommMonoid α] (lowest max : α) (solver : Bool → Options → Arrays α → SnoptRun α)
    (p : Prob α D) (a a' : Snopt) (s s' : State α D) (b : Bool) (arr : Arrays α)
    (harr : fillMemory lowest max a p s = .ok arr) (h : snoptSolve lowest max solver p a s = .ok (a', s', b))
    (hst : (solver a.warm a.opts arr).status = 1 ∨ (solver a.warm a.opts arr).status = 31 ∨
      (solver a.warm a.opts arr).status = 32) :
    let r := (solver a.warm a.opts arr).solution
    s'.vars.x = r.x ∧ s'.vars.xMul = r.xmul ∧ s'.vars.xState = r.xstate ∧ s'.vars.zMul = r.Fmul ∧
      s'.vars.zState = r.Fstate ∧ b = true := by
  unfold snoptSolve at h
  by_cases hi : a.initialized
  · simp only [hi, Bool.not_true, Bool.false_eq_true, if_false, harr, Res.ok_bind] at h
    obtain ⟨⟨s1, as⟩, -, h⟩ := Res.bind_eq_ok.1 h
    simp only [hst, if_true, Res.pure_eq, Res.ok.injEq, Prod.mk.injEq] at h
    obtain ⟨-, rfl, rfl⟩ := h
    exact ⟨rfl, rfl, rfl, rfl, rfl, rfl⟩
  · simp [hi] at h

/-- C165 fails for failures: `solve` returns true whatever SNOPT reports, and after a failure (any status but 1, 31, 32)
the variables of the problem are the last point SNOPT tried. -/
theorem C165_failure_violated [AddCommMonoid α] (lowest max : α) (solver : Bool → Options → Arrays α → SnoptRun α)
    (p : Prob α D) (a a' : Snopt) (s s' : State α D) (b : Bool) (arr : Arrays α)
    (harr : fillMemory lowest max a p s = .ok arr) (h : snoptSolve lowest max solver p a s = .ok (a', s', b))
    (hst : ¬((solver a.warm a.opts arr).status = 1 ∨ (solver a.warm a.opts arr).status = 31 ∨
      (solver a.warm a.opts arr).status = 32)) :
    b = true ∧ ∀ q, (solver a.warm a.opts arr).queries.getLast? = some q → s'.vars.x = q.x := by
  unfold snoptSolve at h
  by_cases hi : a.initialized
  · simp only [hi, Bool.not_true, Bool.false_eq_true, if_false, harr, Res.ok_bind] at h
    obtain ⟨⟨s1, as⟩, h1, h⟩ := Res.bind_eq_ok.1 h
    simp only [hst, if_false, Res.pure_eq, Res.ok.injEq, Prod.mk.injEq] at h
    obtain ⟨-, rfl, rfl⟩ := h
    exact ⟨rfl, fun q hq => ((snoptAnswers_last p _ s s1 as h1).1 q hq).1⟩
  · simp [hi] at h

/-- C165 fails for warm starts: preparing one does not change any of the arrays SNOPT starts from. The states of variables
and constraints it sets are overwritten by those stored in the problem, and the starting point is the initial guess. -/
theorem C165_warm_start_violated [AddCommMonoid α] (lowest max : α) (p : Prob α D) (a : Snopt) (s : State α D) (k : Nat) :
    fillMemory lowest max (a.prepareWarmStart k) p s = fillMemory lowest max a p s ∧
    ∀ arr, fillMemory lowest max (a.prepareWarmStart k) p s = .ok arr →
      some arr.x = s.vars.xInit ∧ arr.xstate = s.vars.xState ∧ arr.Fstate = s.vars.zState := by
  refine ⟨rfl, fun arr h => ?_⟩
  unfold fillMemory at h
  simp only at h
  split at h
  · simp at h
  · obtain ⟨x, hx, h⟩ := Res.bind_eq_ok.1 h
    obtain ⟨⟨xl, xu⟩, -, h⟩ := Res.bind_eq_ok.1 h
    obtain ⟨⟨xm, xs⟩, hxs, h⟩ := Res.bind_eq_ok.1 h
    obtain ⟨⟨gl, gu⟩, -, h⟩ := Res.bind_eq_ok.1 h
    obtain ⟨⟨fm, fs⟩, hfs, h⟩ := Res.bind_eq_ok.1 h
    obtain ⟨⟨r, c⟩, -, h⟩ := Res.bind_eq_ok.1 h
    simp only [Res.pure_eq, Res.ok.injEq] at h
    subst h
    have cp : ∀ {β : Type} {n : Nat} {v w : List β}, copyOut n v = .ok w → w = v := by
      intro β n v w e
      unfold copyOut at e
      split at e
      · simpa using e.symm
      · simp at e
    refine ⟨?_, ?_, ?_⟩
    · unfold OptVec.getInitialGuess at hx
      split at hx
      · simp at hx
      · rename_i g hg
        rw [hg, cp hx]
    · unfold OptVec.getOptimizationMultState at hxs
      obtain ⟨_, -, hxs⟩ := Res.bind_eq_ok.1 hxs
      obtain ⟨s', h2, hxs⟩ := Res.bind_eq_ok.1 hxs
      simp only [Res.pure_eq, Res.ok.injEq, Prod.mk.injEq] at hxs
      rw [← hxs.2, cp h2]
    · unfold OptVec.getConstraintsMultState at hfs
      obtain ⟨_, -, hfs⟩ := Res.bind_eq_ok.1 hfs
      obtain ⟨s', h2, hfs⟩ := Res.bind_eq_ok.1 hfs
      simp only [Res.pure_eq, Res.ok.injEq, Prod.mk.injEq] at hfs
      rw [← hfs.2, cp h2]

/-- C165 fails for problems that never sized their constraint multipliers, as the inverse kinematics problem does not: a
configured SNOPT solver copies from empty vectors. -/
theorem C165_unsized_violated [AddCommMonoid α] (lowest max : α) (solver : Bool → Options → Arrays α → SnoptRun α)
    (p : Prob α D) (n m nnz : Nat) (hw : p.Wf m nnz) (a : Snopt) (set : SnoptSettings) (d : D) (g : List α)
    (hgl : g.length = n) :
    let s : State α D := { vars := (OptVec.new lowest max n).setInitialGuess g, data := d }
    snoptSolve lowest max solver p (a.configure p s set) s = .ub := by
  intro s
  have hc : constraintsCount (s.cons p) = m := hw.count _ _
  have hn : nonZerosCount (s.cons p) = nnz := hw.nonZeros _ _
  obtain ⟨v, l, u, -, hb, -⟩ := C44_values (s.cons p) (hw.con _ _) (List.replicate m 0) (List.replicate m 0)
    (List.replicate m 0) (by simp [hc]) (by simp [hc]) (by simp [hc])
  have hx : s.vars.x.length = n := hgl
  have h1 : s.vars.xInit = some g := rfl
  have h2 : s.vars.xLb.length = n := by simp [s, OptVec.new, OptVec.setInitialGuess]
  have h3 : s.vars.xUb.length = n := by simp [s, OptVec.new, OptVec.setInitialGuess]
  have h4 : s.vars.xMul.length = n := by simp [s, OptVec.new, OptVec.setInitialGuess]
  have h5 : s.vars.xState.length = n := by simp [s, OptVec.new, OptVec.setInitialGuess]
  have h6 : s.vars.zMul = [] := rfl
  clear_value s
  simp [snoptSolve, Snopt.configure, fillMemory, hc, hn, hx, hb, OptVec.getInitialGuess, OptVec.getVariableBounds,
    OptVec.getOptimizationMultState, OptVec.getConstraintsMultState, copyOut, hgl, h1, h2, h3, h4, h5, h6, Res.ok_bind,
    Res.pure_eq]

/-! ### Example -/

/-- A problem object sized as the multiple shooting problem does. -/
def exState : State Int Int where
  vars := ((OptVec.new (-100) 100 1).resizeConstraintVars 1).setInitialGuess [3]
  data := 9

/-- A run that tries 4 and fails with status 13. -/
def exFail : SnoptRun Int where
  queries := [{ x := [2], needF := 1, needG := 1, F := [0, 0], G := [0, 0] },
              { x := [4], needF := 1, needG := 0, F := [0, 0], G := [0, 0] }]
  solution := { x := [2], xmul := [0], xstate := [0], Fmul := [0, 0], Fstate := [0, 0] }
  status := 13

example : exState.vars.Sized 1 1 ∧ exState.vars.xInit = some [3] ∧
    (∀ x, x.length = 1 → (exProb.grad x (exProb.update x)).length = 1) :=
  ⟨⟨rfl, rfl, rfl, rfl, rfl, rfl, rfl⟩, rfl, fun _ _ => rfl⟩

/-- The failing run: the call returns true with the variables at 4. -/
example : ∃ arr a' s', fillMemory (-100) 100 ((Snopt.new {}).configure exProb exState {}) exProb exState = .ok arr ∧
    snoptSolve (-100) 100 (fun _ _ _ => exFail) exProb ((Snopt.new {}).configure exProb exState {}) exState =
      .ok (a', s', true) ∧ s'.vars.x = [4] := ⟨_, _, _, rfl, rfl, rfl⟩

/-- A run that succeeds. -/
example : ∃ arr a' s', fillMemory (-100) 100 ((Snopt.new {}).configure exProb exState {}) exProb exState = .ok arr ∧
    snoptSolve (-100) 100 (fun _ _ _ => { exFail with status := 1 }) exProb
      ((Snopt.new {}).configure exProb exState {}) exState = .ok (a', s', true) ∧ s'.vars.x = [2] :=
  ⟨_, _, _, rfl, rfl, rfl⟩

end CT.NlpSolver
