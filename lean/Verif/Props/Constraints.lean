import Verif.Model.Constraints
import Mathlib.Algebra.Order.Ring.Rat
import Mathlib.Algebra.Order.Group.MinMax
import Mathlib.Algebra.BigOperators.Ring.Finset
import Mathlib.Data.List.FinRange
import Mathlib.Tactic.Linarith
import Mathlib.Tactic.Ring
import Mathlib.Tactic.Abel

/-! # Properties C32-C35: constraint terms and containers -/

namespace CT.Constraints

/-! ## C32 -/

section C32
variable {K : Type} [AddCommGroup K] [LinearOrder K] [IsOrderedAddMonoid K]

/-- What a user expects of the reported violation `e` of a value `v` with bounds `lb ≤ ub`. -/
def SignedDistance (v lb ub e : K) : Prop :=
  (e = 0 ↔ lb ≤ v ∧ v ≤ ub) ∧ (ub < v → e = v - ub) ∧ (v < lb → e = v - lb) ∧ (lb ≤ v - e ∧ v - e ≤ ub)

/-- C32 for one component. -/
theorem C32_component (v lb ub : K) (h : lb ≤ ub) : SignedDistance v lb ub (totalViolation v lb ub) := by
  unfold SignedDistance totalViolation
  rcases lt_or_ge v lb with h1 | h1
  · have h2 : v - lb < 0 := sub_neg.mpr h1
    have h3 : v - ub ≤ 0 := sub_nonpos.mpr (h1.le.trans h)
    rw [min_eq_left h2.le, max_eq_right h3, add_zero]
    refine ⟨⟨fun e => absurd e h2.ne, fun e => absurd e.1 (not_le.mpr h1)⟩, fun e => absurd (h1.trans_le h) (not_lt.mpr e.le), fun _ => rfl, ?_⟩
    rw [sub_sub_cancel]; exact ⟨le_refl _, h⟩
  · have h2 : 0 ≤ v - lb := sub_nonneg.mpr h1
    rw [min_eq_right h2, zero_add]
    rcases lt_or_ge ub v with h3 | h3
    · have h4 : 0 < v - ub := sub_pos.mpr h3
      rw [max_eq_left h4.le]
      refine ⟨⟨fun e => absurd e h4.ne', fun e => absurd e.2 (not_le.mpr h3)⟩, fun _ => rfl, fun e => absurd h1 (not_le.mpr e), ?_⟩
      rw [sub_sub_cancel]; exact ⟨h, le_refl _⟩
    · have h4 : v - ub ≤ 0 := sub_nonpos.mpr h3
      rw [max_eq_right h4]
      refine ⟨⟨fun _ => ⟨h1, h3⟩, fun _ => rfl⟩, fun e => absurd h3 (not_le.mpr e), fun e => absurd h1 (not_le.mpr e), ?_⟩
      rw [sub_zero]; exact ⟨h1, h3⟩

/-- C32 for a vector of constraint values: with matching sizes the violations are reported, the total is the
sum of the one-sided ones, has one entry per constraint, and each entry is the signed distance. -/
theorem C32_vector (v lb ub : List K) (hl : lb.length = v.length) (hu : ub.length = v.length)
    (hb : ∀ i (h : i < v.length), lb[i]'(hl ▸ h) ≤ ub[i]'(hu ▸ h)) :
    ∃ up lo tot, violations v lb ub = Res.ok (up, lo, tot) ∧
      tot.length = v.length ∧ up.length = v.length ∧ lo.length = v.length ∧
      (∀ i (h : i < v.length) (ht : i < tot.length), SignedDistance v[i] (lb[i]'(hl ▸ h)) (ub[i]'(hu ▸ h)) tot[i]) ∧
      (∀ i (hu' : i < up.length) (hl' : i < lo.length) (ht : i < tot.length), tot[i] = lo[i] + up[i]) ∧
      ((∀ e ∈ tot, e = 0) ↔ ∀ i (h : i < v.length), lb[i]'(hl ▸ h) ≤ v[i] ∧ v[i] ≤ ub[i]'(hu ▸ h)) := by
  refine ⟨_, _, _, by simp only [violations, hl, hu, and_self, if_true]; rfl, by simp [hl, hu], by simp [hu], by simp [hl], ?_, ?_, ?_⟩
  · intro i h ht
    simp only [List.getElem_zipWith, List.getElem_zip]
    exact C32_component _ _ _ (hb i h)
  · intro i _ _ ht
    simp [totalViolation, lowerViolation, upperViolation]
  · constructor
    · intro h i hi
      refine (C32_component _ _ _ (hb i hi)).1.1 (h _ ?_)
      have hlen : i < (List.zipWith (fun x (b : K × K) => totalViolation x b.1 b.2) v (lb.zip ub)).length := by
        simp [hl, hu, hi]
      have := List.getElem_mem hlen
      simpa using this
    · intro h e he
      obtain ⟨i, hi, rfl⟩ := List.getElem_of_mem he
      have hv : i < v.length := by simp at hi; omega
      simp only [List.getElem_zipWith, List.getElem_zip]
      exact (C32_component _ _ _ (hb i hv)).1.2 (h i hv)

end C32

example : violations [(3 : ℚ), 0, -2] [0, 0, -1] [1, 0, 5] = .ok ([2, 0, 0], [0, 0, -1], [2, 0, -1]) := by
  decide +kernel

/-! ## Segments -/

section Segments
variable {P K : Type} {α : Type}

theorem foldl_size (f : Term P K → Nat) (ts : List (Term P K)) (a : Nat) :
    ts.foldl (fun a t => a + f t) a = a + (ts.map f).sum := by
  induction ts generalizing a with
  | nil => simp
  | cons t ts ih => simp [ih]; omega

theorem fillSegments_spec (dim : Term P K → Nat) (val : Term P K → List α) (skip : Bool) (ts : List (Term P K))
    (hv : ∀ t ∈ ts, (val t).length = dim t) (pre rest : List α) (hr : rest.length = (ts.map dim).sum) :
    fillSegments dim val skip ts pre.length (pre ++ rest) = Res.ok (pre ++ ts.flatMap val) := by
  induction ts generalizing pre rest with
  | nil => simp only [List.map_nil, List.sum_nil] at hr; simp [fillSegments, List.length_eq_zero_iff.mp hr]
  | cons t ts ih =>
      have h1 := hv t (by simp)
      simp only [List.map_cons, List.sum_cons] at hr
      unfold fillSegments
      split
      · rename_i h
        have : val t = [] := List.length_eq_zero_iff.mp (h1.trans h.2)
        rw [ih (fun t ht => hv t (by simp [ht])) pre rest (by omega)]
        simp [this]
      · have h2 : setSegment (pre ++ rest) pre.length (dim t) (val t)
            = Res.ok ((pre ++ val t) ++ rest.drop (dim t)) := by
          unfold setSegment
          rw [if_pos ⟨by simp; omega, h1⟩]
          simp [List.drop_append]
        rw [h2]
        have h3 := ih (fun t ht => hv t (by simp [ht])) (pre ++ val t) (rest.drop (dim t)) (by simp; omega)
        simp only [List.length_append, h1] at h3
        simp only [Res.ok_bind, h3]
        simp

theorem fill_all (dim : Term P K → Nat) (val : Term P K → List α) (skip : Bool) (ts : List (Term P K))
    (hv : ∀ t ∈ ts, (val t).length = dim t) (buf : List α) (hr : buf.length = (ts.map dim).sum) :
    fillSegments dim val skip ts 0 buf = Res.ok (ts.flatMap val) := by
  simpa using fillSegments_spec dim val skip ts hv [] buf hr

end Segments

/-! ## C33 -/

section C33
variable {P K : Type} [Zero K]

/-- A term whose vectors and matrices have the sizes it announces (`n`, `m`: state and control dimension). -/
structure Term.Wf (n m : Nat) (t : Term P K) : Prop where
  eval : ∀ p, (t.eval p).length = t.size
  lb : t.lb.length = t.size
  ub : t.ub.length = t.size
  jacX : ∀ p, (t.jacX p).length = t.size ∧ ∀ r ∈ t.jacX p, r.length = n
  jacU : ∀ p, (t.jacU p).length = t.size ∧ ∀ r ∈ t.jacU p, r.length = m
  sparseX : ∀ p, (t.sparseX p).length = t.nnzX
  sparseU : ∀ p, (t.sparseU p).length = t.nnzU
  patX : t.patX.length = t.nnzX ∧ ∀ q ∈ t.patX, q.1 < t.size ∧ q.2 < n
  patU : t.patU.length = t.nnzU ∧ ∀ q ∈ t.patU, q.1 < t.size ∧ q.2 < m

/-- Specification: the intermediate terms added in a history, in order. -/
def addedIntermediate : List (Op P K) → List (Term P K)
  | [] => []
  | .addIntermediate t :: ops => t :: addedIntermediate ops
  | _ :: ops => addedIntermediate ops
/-- Specification: the terminal terms added in a history, in order. -/
def addedTerminal : List (Op P K) → List (Term P K)
  | [] => []
  | .addTerminal t :: ops => t :: addedTerminal ops
  | _ :: ops => addedTerminal ops

/-- Specification: the history contains an initialisation with no later addition of an intermediate term. -/
def ReadyIntermediate (ops : List (Op P K)) : Prop :=
  ∃ a b, ops = a ++ .initialize :: b ∧ ∀ t, .addIntermediate t ∉ b
/-- Specification: the same for terminal terms. -/
def ReadyTerminal (ops : List (Op P K)) : Prop :=
  ∃ a b, ops = a ++ .initialize :: b ∧ ∀ t, .addTerminal t ∉ b

/-- Specification: the point set last (`p₀` if none). -/
def currentPoint (p₀ : P) : List (Op P K) → P
  | [] => p₀
  | .setPoint p :: ops => currentPoint p ops
  | _ :: ops => currentPoint p₀ ops

/-- Invariant of one half: `ts` the terms, `r` whether ready. -/
structure Half.Inv (n m : Nat) (h : Half P K) (ts : List (Term P K)) (r : Prop) : Prop where
  terms : h.terms = ts
  wf : ∀ t ∈ ts, t.Wf n m
  flag : h.initialized = true ↔ r
  lenE : h.evalBuf.length ≤ (ts.map (·.size)).sum
  lenL : h.lb.length ≤ (ts.map (·.size)).sum
  lenU : h.ub.length ≤ (ts.map (·.size)).sum
  lenX : h.denseXBuf.length ≤ (ts.map (·.size)).sum
  lenV : h.denseUBuf.length ≤ (ts.map (·.size)).sum
  lenSX : h.sparseXBuf.length ≤ (ts.map (·.nnzX)).sum
  lenSU : h.sparseUBuf.length ≤ (ts.map (·.nnzU)).sum
  ready : r → h.evalBuf.length = (ts.map (·.size)).sum ∧ h.lb = ts.flatMap (·.lb) ∧ h.ub = ts.flatMap (·.ub) ∧
    h.denseXBuf.length = (ts.map (·.size)).sum ∧ h.denseUBuf.length = (ts.map (·.size)).sum ∧
    h.sparseXBuf.length = (ts.map (·.nnzX)).sum ∧ h.sparseUBuf.length = (ts.map (·.nnzU)).sum

theorem Half.Inv.congr {n m : Nat} {h : Half P K} {ts : List (Term P K)} {r r' : Prop} (H : h.Inv n m ts r) (e : r ↔ r') :
    h.Inv n m ts r' := by
  rw [← propext e]; exact H

theorem Half.Inv.empty (n m : Nat) : (Half.empty : Half P K).Inv n m [] False := by
  constructor <;> simp [Half.empty]

theorem Half.Inv.add {n m : Nat} {h : Half P K} {ts : List (Term P K)} {r : Prop} (H : h.Inv n m ts r) (t : Term P K)
    (ht : t.Wf n m) : (h.add t).Inv n m (ts ++ [t]) False := by
  have := H.lenE; have := H.lenL; have := H.lenU; have := H.lenX; have := H.lenV; have := H.lenSX; have := H.lenSU
  constructor <;> (try simp only [Half.add, List.map_append, List.sum_append]) <;>
    first
    | exact False.elim
    | omega
    | skip
  · rw [H.terms]
  · intro t' h'
    rcases List.mem_append.mp h' with h' | h'
    · exact H.wf t' h'
    · rw [List.mem_singleton.mp h']; exact ht
  · simp

theorem wf_sum_zero {n m : Nat} {ts : List (Term P K)} (hw : ∀ t ∈ ts, t.Wf n m) (h : (ts.map (·.size)).sum = 0) :
    (ts.map (·.nnzX)).sum = 0 ∧ (ts.map (·.nnzU)).sum = 0 ∧ ts.flatMap (·.lb) = [] ∧ ts.flatMap (·.ub) = [] := by
  induction ts with
  | nil => simp
  | cons t ts ih =>
      simp only [List.map_cons, List.sum_cons] at h ⊢
      have hs : t.size = 0 := by omega
      obtain ⟨a, b, c, d⟩ := ih (fun t ht => hw t (by simp [ht])) (by omega)
      have hwt := hw t (by simp)
      have e1 : t.patX = [] := List.eq_nil_iff_forall_not_mem.mpr (fun q hq => by have := (hwt.patX.2 q hq).1; omega)
      have e2 : t.patU = [] := List.eq_nil_iff_forall_not_mem.mpr (fun q hq => by have := (hwt.patU.2 q hq).1; omega)
      have h1 := hwt.patX.1
      have h2 := hwt.patU.1
      rw [e1, List.length_nil] at h1
      rw [e2, List.length_nil] at h2
      have h3 : t.lb = [] := List.length_eq_zero_iff.mp (hwt.lb.trans hs)
      have h4 : t.ub = [] := List.length_eq_zero_iff.mp (hwt.ub.trans hs)
      refine ⟨by omega, by omega, ?_, ?_⟩
      · rw [List.flatMap_cons, h3, c]; rfl
      · rw [List.flatMap_cons, h4, d]; rfl

theorem flatMap_length (f : Term P K → List K) (g : Term P K → Nat) (ts : List (Term P K)) (h : ∀ t ∈ ts, (f t).length = g t) :
    (ts.flatMap f).length = (ts.map g).sum := by
  induction ts with
  | nil => rfl
  | cons t ts ih =>
      rw [List.flatMap_cons, List.length_append, h t (by simp), ih (fun t ht => h t (by simp [ht]))]
      simp

theorem Half.Inv.initialize {n m : Nat} {h : Half P K} {ts : List (Term P K)} {r : Prop} (H : h.Inv n m ts r) :
    ∃ h', h.initialize n m = Res.ok h' ∧ h'.Inv n m ts True := by
  have hc : h.count = (ts.map (·.size)).sum := by
    simp only [Half.count, foldl_size, H.terms, Nat.zero_add]
  have hx : h.nnzX = (ts.map (·.nnzX)).sum := by
    simp only [Half.nnzX, foldl_size, H.terms, Nat.zero_add]
  have hu : h.nnzU = (ts.map (·.nnzU)).sum := by
    simp only [Half.nnzU, foldl_size, H.terms, Nat.zero_add]
  by_cases h0 : 0 < h.count
  · have hl := fill_all (α := K) (fun t => t.size) (fun t => t.lb) false ts (fun t ht => (H.wf t ht).lb)
      (List.replicate h.count 0) (by simp [hc])
    have hub := fill_all (α := K) (fun t => t.size) (fun t => t.ub) false ts (fun t ht => (H.wf t ht).ub)
      (List.replicate h.count 0) (by simp [hc])
    refine ⟨{ h with
      evalBuf := List.replicate h.count 0, sparseXBuf := List.replicate h.nnzX 0, sparseUBuf := List.replicate h.nnzU 0,
      denseXBuf := List.replicate h.count (List.replicate n 0),
      denseUBuf := List.replicate h.count (List.replicate m 0), lb := ts.flatMap (·.lb), ub := ts.flatMap (·.ub), initialized := true }, ?_, ?_⟩
    · simp only [Half.initialize, h0, if_true, H.terms, hl, hub, Res.ok_bind, Res.pure_eq]
    · have e1 := flatMap_length (·.lb) (·.size) ts (fun t ht => (H.wf t ht).lb)
      have e2 := flatMap_length (·.ub) (·.size) ts (fun t ht => (H.wf t ht).ub)
      constructor <;> (try simp [H.terms, hc, hx, hu, -List.length_flatMap]) <;> first | exact H.wf | exact e1.le | exact e2.le
  · have z : (ts.map (·.size)).sum = 0 := by omega
    obtain ⟨a, b, c, d⟩ := wf_sum_zero H.wf z
    have := H.lenE; have hL := H.lenL; have hU := H.lenU; have := H.lenX; have := H.lenV; have := H.lenSX; have := H.lenSU
    refine ⟨{ h with initialized := true }, by simp [Half.initialize, h0], ?_⟩
    rw [z] at hL hU
    have e1 : h.lb = [] := List.length_eq_zero_iff.mp (by omega)
    have e2 : h.ub = [] := List.length_eq_zero_iff.mp (by omega)
    constructor <;> first | exact H.terms | exact H.wf | assumption | skip
    · simp
    · exact H.lenL
    · exact H.lenU
    · intro _
      dsimp only
      refine ⟨by omega, by rw [c]; exact e1, by rw [d]; exact e2, by omega, by omega, by omega, by omega⟩

theorem Half.Inv.evaluate {n m : Nat} {h : Half P K} {ts : List (Term P K)} {r : Prop} (H : h.Inv n m ts r) (hr : r) (p : P) :
    h.evaluate p = Res.ok (ts.flatMap (·.eval p)) := by
  unfold Half.evaluate
  rw [H.terms]
  exact fill_all _ _ _ ts (fun t ht => (H.wf t ht).eval p) _ (H.ready hr).1

theorem Half.Inv.evaluate_store {n m : Nat} {h : Half P K} {ts : List (Term P K)} {r : Prop} (H : h.Inv n m ts r) (p : P) :
    ({ h with evalBuf := ts.flatMap (·.eval p) } : Half P K).Inv n m ts r := by
  have e := flatMap_length (·.eval p) (·.size) ts (fun t ht => (H.wf t ht).eval p)
  exact ⟨H.terms, H.wf, H.flag, e.le, H.lenL, H.lenU, H.lenX, H.lenV, H.lenSX, H.lenSU, fun hr => ⟨e, (H.ready hr).2⟩⟩

theorem ready_append_iff {Op' : Type} (init o : Op') (isAdd : Op' → Prop) (ops : List Op') :
    (∃ a b, ops ++ [o] = a ++ init :: b ∧ ∀ x ∈ b, ¬ isAdd x) ↔
      o = init ∨ (¬ isAdd o ∧ ∃ a b, ops = a ++ init :: b ∧ ∀ x ∈ b, ¬ isAdd x) := by
  constructor
  · rintro ⟨a, b, h, hb⟩
    rcases List.eq_nil_or_concat b with rfl | ⟨b', x, rfl⟩
    · left
      have := congrArg List.getLast? h
      simpa using this
    · right
      rw [List.concat_eq_append, ← List.cons_append, ← List.append_assoc] at h
      obtain ⟨h1, h2⟩ := List.append_inj' h rfl
      simp only [List.cons.injEq, and_true] at h2
      refine ⟨h2 ▸ hb x (by simp), a, b', h1, fun y hy => hb y (by simp [hy])⟩
  · rintro (rfl | ⟨h, a, b, rfl, hb⟩)
    · exact ⟨ops, [], rfl, by simp⟩
    · refine ⟨a, b ++ [o], by simp, ?_⟩
      intro x hx
      rcases List.mem_append.mp hx with hx | hx
      · exact hb x hx
      · rw [List.mem_singleton.mp hx]; exact h

theorem readyI_snoc (ops : List (Op P K)) (o : Op P K) :
    ReadyIntermediate (ops ++ [o]) ↔ o = .initialize ∨ ((∀ t, o ≠ .addIntermediate t) ∧ ReadyIntermediate ops) := by
  have := ready_append_iff (Op.initialize : Op P K) o (fun x => ∃ t, x = .addIntermediate t) ops
  unfold ReadyIntermediate
  have e : ∀ b : List (Op P K), (∀ x ∈ b, ¬ ∃ t, x = Op.addIntermediate t) ↔ ∀ t, Op.addIntermediate t ∉ b := fun b =>
    ⟨fun h t ht => h _ ht ⟨t, rfl⟩, fun h x hx ⟨t, e⟩ => h t (e ▸ hx)⟩
  simp only [e] at this
  simp only [not_exists] at this
  exact this

theorem readyT_snoc (ops : List (Op P K)) (o : Op P K) :
    ReadyTerminal (ops ++ [o]) ↔ o = .initialize ∨ ((∀ t, o ≠ .addTerminal t) ∧ ReadyTerminal ops) := by
  have := ready_append_iff (Op.initialize : Op P K) o (fun x => ∃ t, x = .addTerminal t) ops
  unfold ReadyTerminal
  have e : ∀ b : List (Op P K), (∀ x ∈ b, ¬ ∃ t, x = Op.addTerminal t) ↔ ∀ t, Op.addTerminal t ∉ b := fun b =>
    ⟨fun h t ht => h _ ht ⟨t, rfl⟩, fun h x hx ⟨t, e⟩ => h t (e ▸ hx)⟩
  simp only [e] at this
  simp only [not_exists] at this
  exact this

theorem added_append (a b : List (Op P K)) :
    addedIntermediate (a ++ b) = addedIntermediate a ++ addedIntermediate b ∧
    addedTerminal (a ++ b) = addedTerminal a ++ addedTerminal b := by
  induction a with
  | nil => exact ⟨rfl, rfl⟩
  | cons o a ih => cases o <;> simp [addedIntermediate, addedTerminal, ih.1, ih.2]

theorem point_snoc (p₀ : P) (a : List (Op P K)) (o : Op P K) :
    currentPoint p₀ (a ++ [o]) = match o with | .setPoint p => p | _ => currentPoint p₀ a := by
  induction a generalizing p₀ with
  | nil => cases o <;> rfl
  | cons x a ih => cases x <;> simp only [List.cons_append, currentPoint, ih]

/-- Terms occurring in a history. -/
def opTerms : Op P K → List (Term P K)
  | .addIntermediate t => [t]
  | .addTerminal t => [t]
  | _ => []

theorem run_inv (n m : Nat) (p₀ : P) (ops : List (Op P K)) (hw : ∀ o ∈ ops, ∀ t ∈ opTerms o, t.Wf n m) :
    ∃ c, (Container.new p₀).run n m ops = Res.ok c ∧
      c.inter.Inv n m (addedIntermediate ops) (ReadyIntermediate ops) ∧
      c.term.Inv n m (addedTerminal ops) (ReadyTerminal ops) ∧ c.point = currentPoint p₀ ops := by
  induction ops using List.reverseRecOn with
  | nil =>
      refine ⟨Container.new p₀, rfl, (Half.Inv.empty n m).congr ?_, (Half.Inv.empty n m).congr ?_, rfl⟩ <;>
        simp [ReadyIntermediate, ReadyTerminal]
  | append_singleton ops o ih =>
      obtain ⟨c, hc, hi, ht, hp⟩ := ih (fun o ho => hw o (by simp [ho]))
      have hrun : (Container.new p₀).run n m (ops ++ [o]) = c.step n m o := by
        unfold Container.run at hc ⊢
        rw [List.foldlM_append, hc]
        simp only [Res.ok_bind, List.foldlM_cons, List.foldlM_nil]
        cases c.step n m o <;> rfl
      rw [hrun, (added_append ops [o]).1, (added_append ops [o]).2, point_snoc]
      have hwo := hw o (by simp)
      cases o with
      | addIntermediate t =>
          refine ⟨_, rfl, (hi.add t (hwo t (by simp [opTerms]))).congr ?_, ?_, hp⟩
          · rw [readyI_snoc]; simp
          · simp only [addedTerminal, List.append_nil]
            exact ht.congr (by rw [readyT_snoc]; simp)
      | addTerminal t =>
          refine ⟨_, rfl, ?_, (ht.add t (hwo t (by simp [opTerms]))).congr ?_, hp⟩
          · simp only [addedIntermediate, List.append_nil]
            exact hi.congr (by rw [readyI_snoc]; simp)
          · rw [readyT_snoc]; simp
      | «initialize» =>
          obtain ⟨i', e1, h1⟩ := hi.initialize
          obtain ⟨t', e2, h2⟩ := ht.initialize
          refine ⟨{ c with inter := i', term := t' }, ?_, ?_, ?_, hp⟩
          · simp only [Container.step, e1, e2, Res.ok_bind, Res.pure_eq]
          · simp only [addedIntermediate, List.append_nil]
            exact h1.congr (by rw [readyI_snoc]; simp)
          · simp only [addedTerminal, List.append_nil]
            exact h2.congr (by rw [readyT_snoc]; simp)
      | setPoint p =>
          refine ⟨_, rfl, ?_, ?_, rfl⟩
          · simp only [addedIntermediate, List.append_nil]
            exact hi.congr (by rw [readyI_snoc]; simp)
          · simp only [addedTerminal, List.append_nil]
            exact ht.congr (by rw [readyT_snoc]; simp)
      | evaluateIntermediate =>
          have a1 : ReadyIntermediate ops ↔ ReadyIntermediate (ops ++ [Op.evaluateIntermediate]) := by
            rw [readyI_snoc]; simp
          have a2 : ReadyTerminal ops ↔ ReadyTerminal (ops ++ [Op.evaluateIntermediate]) := by
            rw [readyT_snoc]; simp
          simp only [addedIntermediate, addedTerminal, List.append_nil]
          by_cases hf : c.inter.initialized = true
          · refine ⟨{ c with inter := { c.inter with evalBuf := (addedIntermediate ops).flatMap (·.eval c.point) } }, ?_, (hi.evaluate_store c.point).congr a1, ht.congr a2, hp⟩
            simp [Container.step, hf, hi.evaluate (hi.flag.1 hf)]
          · exact ⟨c, by simp [Container.step, hf], hi.congr a1, ht.congr a2, hp⟩
      | evaluateTerminal =>
          have a1 : ReadyIntermediate ops ↔ ReadyIntermediate (ops ++ [Op.evaluateTerminal]) := by
            rw [readyI_snoc]; simp
          have a2 : ReadyTerminal ops ↔ ReadyTerminal (ops ++ [Op.evaluateTerminal]) := by
            rw [readyT_snoc]; simp
          simp only [addedIntermediate, addedTerminal, List.append_nil]
          by_cases hf : c.term.initialized = true
          · refine ⟨{ c with term := { c.term with evalBuf := (addedTerminal ops).flatMap (·.eval c.point) } }, ?_, hi.congr a1, (ht.evaluate_store c.point).congr a2, hp⟩
            simp [Container.step, hf, ht.evaluate (ht.flag.1 hf)]
          · exact ⟨c, by simp [Container.step, hf], hi.congr a1, ht.congr a2, hp⟩

theorem guarded_inv {α : Type} {n m : Nat} {h : Half P K} {ts : List (Term P K)} {r : Prop} (H : h.Inv n m ts r) (q : Res α) :
    (r → guarded h.initialized q = q) ∧ (¬ r → guarded h.initialized q = Res.exc) := by
  unfold guarded
  constructor
  · intro hr; simp [H.flag.2 hr]
  · intro hr
    have : h.initialized = false := by
      cases hf : h.initialized with
      | false => rfl
      | true => exact absurd (H.flag.1 hf) hr
    simp [this]

/-- C33: along every history of calls, evaluation yields the concatenation of the evaluations of the added terms, in
order and at the point set last, if the container was initialised after the last addition, and is reported as an
error otherwise; the counts are the sums of the sizes; after initialisation the bounds are the terms' bounds in
the same order. -/
theorem C33_history (n m : Nat) (p₀ : P) (ops : List (Op P K)) (hw : ∀ o ∈ ops, ∀ t ∈ opTerms o, t.Wf n m) :
    ∃ c, (Container.new p₀).run n m ops = Res.ok c ∧
      (ReadyIntermediate ops →
        c.evaluateIntermediate = Res.ok ((addedIntermediate ops).flatMap (·.eval (currentPoint p₀ ops))) ∧
        c.inter.lb = (addedIntermediate ops).flatMap (·.lb) ∧ c.inter.ub = (addedIntermediate ops).flatMap (·.ub)) ∧
      (¬ ReadyIntermediate ops → c.evaluateIntermediate = Res.exc) ∧
      c.inter.count = ((addedIntermediate ops).map (·.size)).sum ∧
      (ReadyTerminal ops →
        c.evaluateTerminal = Res.ok ((addedTerminal ops).flatMap (·.eval (currentPoint p₀ ops))) ∧
        c.term.lb = (addedTerminal ops).flatMap (·.lb) ∧ c.term.ub = (addedTerminal ops).flatMap (·.ub)) ∧
      (¬ ReadyTerminal ops → c.evaluateTerminal = Res.exc) ∧
      c.term.count = ((addedTerminal ops).map (·.size)).sum := by
  obtain ⟨c, hc, hi, ht, hp⟩ := run_inv n m p₀ ops hw
  refine ⟨c, hc, ?_, ?_, ?_, ?_, ?_, ?_⟩
  · intro hr
    refine ⟨?_, (hi.ready hr).2.1, (hi.ready hr).2.2.1⟩
    unfold Container.evaluateIntermediate
    rw [(guarded_inv hi _).1 hr, hi.evaluate hr, hp]
  · exact (guarded_inv hi _).2
  · simp only [Half.count, foldl_size, hi.terms, Nat.zero_add]
  · intro hr
    refine ⟨?_, (ht.ready hr).2.1, (ht.ready hr).2.2.1⟩
    unfold Container.evaluateTerminal
    rw [(guarded_inv ht _).1 hr, ht.evaluate hr, hp]
  · exact (guarded_inv ht _).2
  · simp only [Half.count, foldl_size, ht.terms, Nat.zero_add]

end C33

section C32c
variable {P K : Type} [AddCommGroup K] [LinearOrder K] [IsOrderedAddMonoid K]

theorem forall2_flatMap (ts : List (Term P K)) (h : ∀ t ∈ ts, List.Forall₂ (· ≤ ·) t.lb t.ub) :
    List.Forall₂ (· ≤ ·) (ts.flatMap (·.lb)) (ts.flatMap (·.ub)) := by
  induction ts with
  | nil => exact List.Forall₂.nil
  | cons t ts ih =>
      rw [List.flatMap_cons, List.flatMap_cons]
      exact List.rel_append (h t (by simp)) (ih (fun t ht => h t (by simp [ht])))

/-- C32 for the container: along every history after which the intermediate terms are ready, the reported total
violation consists of one signed distance per constraint, for the stacked values at the current point, and is zero
exactly if all of them are within their bounds. -/
theorem C32_container (n m : Nat) (p₀ : P) (ops : List (Op P K)) (hw : ∀ o ∈ ops, ∀ t ∈ opTerms o, t.Wf n m)
    (hr : ReadyIntermediate ops) (hb : ∀ t ∈ addedIntermediate ops, List.Forall₂ (· ≤ ·) t.lb t.ub) :
    ∃ c up lo tot, (Container.new p₀).run n m ops = Res.ok c ∧ c.violationsIntermediate = Res.ok (up, lo, tot) ∧
      let v := (addedIntermediate ops).flatMap (·.eval (currentPoint p₀ ops))
      let l := (addedIntermediate ops).flatMap (·.lb)
      let u := (addedIntermediate ops).flatMap (·.ub)
      tot.length = v.length ∧
      (∀ i (h1 : i < v.length) (h2 : i < l.length) (h3 : i < u.length) (h4 : i < tot.length), SignedDistance v[i] l[i] u[i] tot[i]) ∧
      ((∀ e ∈ tot, e = 0) ↔ ∀ i (h1 : i < v.length) (h2 : i < l.length) (h3 : i < u.length), l[i] ≤ v[i] ∧ v[i] ≤ u[i]) := by
  obtain ⟨c, hc, hi, ht, hp⟩ := run_inv n m p₀ ops hw
  obtain ⟨c', hc', h1, -⟩ := C33_history n m p₀ ops hw
  have : c' = c := Res.ok.inj (hc'.symm.trans hc)
  subst this
  obtain ⟨he, hl, hu⟩ := h1 hr
  have lv := flatMap_length (·.eval (currentPoint p₀ ops)) (·.size) (addedIntermediate ops) (fun t ht => (hi.wf t ht).eval _)
  have ll := flatMap_length (·.lb) (·.size) (addedIntermediate ops) (fun t ht => (hi.wf t ht).lb)
  have lu := flatMap_length (·.ub) (·.size) (addedIntermediate ops) (fun t ht => (hi.wf t ht).ub)
  have hf := forall2_flatMap _ hb
  obtain ⟨up, lo, tot, e, a1, -, -, a2, -, a3⟩ := C32_vector ((addedIntermediate ops).flatMap (·.eval (currentPoint p₀ ops)))
    ((addedIntermediate ops).flatMap (·.lb)) ((addedIntermediate ops).flatMap (·.ub)) (ll.trans lv.symm) (lu.trans lv.symm)
    (fun i h => (List.forall₂_iff_get.mp hf).2 i (by rw [ll, ← lv]; exact h) (by rw [lu, ← lv]; exact h))
  refine ⟨c', up, lo, tot, hc, ?_, a1, fun i h1 _ _ h4 => a2 i h1 h4, a3.trans ?_⟩
  · simp only [Container.violationsIntermediate, he, Res.ok_bind, hl, hu, e]
  · exact ⟨fun h i h1 _ _ => h i h1, fun h i h1 => h i h1 (by rw [ll, ← lv]; exact h1) (by rw [lu, ← lv]; exact h1)⟩

end C32c

section C33
variable {P K : Type} [Zero K]

/-- Stacked dense state Jacobian of a list of terms. -/
def stackX (ts : List (Term P K)) (p : P) : List (List K) := ts.flatMap (·.jacX p)
/-- Stacked dense input Jacobian of a list of terms. -/
def stackU (ts : List (Term P K)) (p : P) : List (List K) := ts.flatMap (·.jacU p)

theorem Half.Inv.jac {n m : Nat} {h : Half P K} {ts : List (Term P K)} {r : Prop} (H : h.Inv n m ts r) (hr : r) (p : P) :
    h.denseX p = Res.ok (stackX ts p) ∧ h.denseU p = Res.ok (stackU ts p) ∧
    h.sparseX p = Res.ok (ts.flatMap (·.sparseX p)) ∧ h.sparseU p = Res.ok (ts.flatMap (·.sparseU p)) := by
  obtain ⟨_, _, _, h1, h2, h3, h4⟩ := H.ready hr
  unfold Half.denseX Half.denseU Half.sparseX Half.sparseU
  rw [H.terms]
  exact ⟨fill_all _ _ _ ts (fun t ht => ((H.wf t ht).jacX p).1) _ h1, fill_all _ _ _ ts (fun t ht => ((H.wf t ht).jacU p).1) _ h2,
    fill_all _ _ _ ts (fun t ht => (H.wf t ht).sparseX p) _ h3, fill_all _ _ _ ts (fun t ht => (H.wf t ht).sparseU p) _ h4⟩

/-- C33 for the derivatives: every Jacobian query except the terminal state ones behaves like evaluation (stacked in
order when ready, an error otherwise); the terminal state Jacobians do so when *both* kinds are ready. -/
theorem C33_jacobians_partial (n m : Nat) (p₀ : P) (ops : List (Op P K)) (hw : ∀ o ∈ ops, ∀ t ∈ opTerms o, t.Wf n m) :
    ∃ c, (Container.new p₀).run n m ops = Res.ok c ∧
      (ReadyIntermediate ops →
        c.jacobianStateIntermediate = Res.ok (stackX (addedIntermediate ops) (currentPoint p₀ ops)) ∧
        c.jacobianInputIntermediate = Res.ok (stackU (addedIntermediate ops) (currentPoint p₀ ops))) ∧
      (¬ ReadyIntermediate ops → c.jacobianStateIntermediate = Res.exc ∧ c.jacobianInputIntermediate = Res.exc ∧
        c.jacobianStateSparseIntermediate = Res.exc ∧ c.jacobianInputSparseIntermediate = Res.exc) ∧
      (ReadyTerminal ops →
        c.jacobianInputTerminal = Res.ok (stackU (addedTerminal ops) (currentPoint p₀ ops))) ∧
      (¬ ReadyTerminal ops → c.jacobianInputTerminal = Res.exc ∧ c.jacobianInputSparseTerminal = Res.exc) ∧
      (ReadyIntermediate ops → ReadyTerminal ops →
        c.jacobianStateTerminal = Res.ok (stackX (addedTerminal ops) (currentPoint p₀ ops))) := by
  obtain ⟨c, hc, hi, ht, hp⟩ := run_inv n m p₀ ops hw
  refine ⟨c, hc, ?_, ?_, ?_, ?_, ?_⟩
  · intro hr
    rw [Container.jacobianStateIntermediate, Container.jacobianInputIntermediate, (guarded_inv hi _).1 hr,
      (guarded_inv hi _).1 hr, (hi.jac hr _).1, (hi.jac hr _).2.1, hp]
    exact ⟨rfl, rfl⟩
  · intro hr
    exact ⟨(guarded_inv hi _).2 hr, (guarded_inv hi _).2 hr, (guarded_inv hi _).2 hr, (guarded_inv hi _).2 hr⟩
  · intro hr
    rw [Container.jacobianInputTerminal, (guarded_inv ht _).1 hr, (ht.jac hr _).2.1, hp]
  · intro hr
    exact ⟨(guarded_inv ht _).2 hr, (guarded_inv ht _).2 hr⟩
  · intro hr hr'
    rw [Container.jacobianStateTerminal, (guarded_inv hi _).1 hr, (ht.jac hr' _).1, hp]

end C33

/-- A term of size one over a one-dimensional state and control: `x ∈ [0, 2]`. -/
def unitTerm : Term (ℚ × ℚ) ℚ := ⟨1, fun p => [p.1], [0], [2], fun _ => [[1]], 1, fun _ => [1], [(0, 0)], fun _ => [[0]], 0, fun _ => [], []⟩

/-- C33 fails for the terminal state Jacobians: a terminal term added after initialisation is not reported
(out-of-bounds write instead), and adding an *intermediate* term makes the up-to-date terminal ones unusable. -/
theorem C33_terminal_jacobian_violated :
    (unitTerm.Wf 1 1) ∧
    (∃ c, (Container.new (0, 0)).run 1 1 [Op.initialize, Op.addTerminal unitTerm] = Res.ok c ∧
      c.evaluateTerminal = .exc ∧ c.jacobianStateTerminal = .ub ∧ c.jacobianStateSparseTerminal = .ub) ∧
    (∃ c, (Container.new (0, 0)).run 1 1 [Op.addTerminal unitTerm, Op.initialize, Op.addIntermediate unitTerm] = Res.ok c ∧
      c.evaluateTerminal = .ok [0] ∧ c.jacobianStateTerminal = .exc ∧ c.jacobianStateSparseTerminal = .exc) := by
  refine ⟨?_, ⟨_, rfl, rfl, rfl, rfl⟩, ⟨_, rfl, rfl, rfl, rfl⟩⟩
  constructor <;> simp [unitTerm]

example : ReadyIntermediate [Op.addIntermediate unitTerm, Op.initialize, Op.setPoint (5, 1)] :=
  ⟨[Op.addIntermediate unitTerm], [Op.setPoint (5, 1)], rfl, by simp⟩

example : ∃ c, (Container.new (0, 0)).run 1 1
    [Op.addIntermediate unitTerm, Op.addIntermediate unitTerm, Op.initialize, Op.setPoint (5, 1)] = .ok c ∧
    c.evaluateIntermediate = .ok [5, 5] ∧ c.inter.count = 2 ∧ c.inter.ub = [2, 2] ∧ c.violationsIntermediate = .ok ([3, 3], [0, 0], [3, 3]) := by
  refine ⟨_, rfl, rfl, rfl, rfl, ?_⟩
  decide +kernel

/-! ## C34 -/

section C34
variable {K : Type}

/-- Specification of a sparse matrix: entry `(i, j)` of the matrix with the values `vals` at the positions `pat`
(values at equal positions add up, as with triplets). -/
def scatter [AddCommMonoid K] : List (Nat × Nat) → List K → Nat → Nat → K
  | q :: pat, v :: vals, i, j => (if q = (i, j) then v else 0) + scatter pat vals i j
  | _, _, _, _ => 0

/-- Entry `(i, j)` of a matrix given by rows; zero outside. -/
def entry [Zero K] (J : List (List K)) (i j : Nat) : K := ((J[i]?).bind (·[j]?)).getD 0

variable [AddCommMonoid K]

theorem scatter_append (p1 p2 : List (Nat × Nat)) (v1 v2 : List K) (h : p1.length = v1.length) (i j : Nat) :
    scatter (p1 ++ p2) (v1 ++ v2) i j = scatter p1 v1 i j + scatter p2 v2 i j := by
  induction p1 generalizing v1 with
  | nil => cases v1 with
    | nil => simp [scatter]
    | cons => simp at h
  | cons q p1 ih => cases v1 with
    | nil => simp at h
    | cons v v1 =>
        simp only [List.cons_append, scatter]
        rw [ih v1 (by simpa using h), add_assoc]

theorem scatter_shift (pat : List (Nat × Nat)) (vals : List K) (off i j : Nat) :
    scatter (pat.map (fun q => (q.1 + off, q.2))) vals (i + off) j = scatter pat vals i j := by
  induction pat generalizing vals with
  | nil => simp [scatter]
  | cons q pat ih => cases vals with
    | nil => simp [scatter]
    | cons v vals =>
        simp only [List.map_cons, scatter, ih]
        congr 1
        have : ((q.1 + off, q.2) = (i + off, j)) ↔ q = (i, j) := by
          rw [Prod.ext_iff, Prod.ext_iff]; simp
        simp only [this]

theorem scatter_zero (pat : List (Nat × Nat)) (vals : List K) (i j : Nat) (h : ∀ q ∈ pat, q ≠ (i, j)) :
    scatter pat vals i j = 0 := by
  induction pat generalizing vals with
  | nil => simp [scatter]
  | cons q pat ih => cases vals with
    | nil => simp [scatter]
    | cons v vals =>
        simp only [scatter]
        rw [if_neg (h q (by simp)), ih vals (fun q hq => h q (by simp [hq])), add_zero]

variable {P : Type}

theorem patternLoop_spec (nnz : Term P K → Nat) (pat : Term P K → List (Nat × Nat)) (ts : List (Term P K))
    (hp : ∀ t ∈ ts, (pat t).length = nnz t) (off : Nat) (acc : List (Nat × Nat)) :
    ∃ q, patternLoop nnz pat ts off acc = Res.ok (acc ++ q) ∧ q.length = (ts.map nnz).sum ∧
      patternLoop nnz pat ts 0 [] = Res.ok (q.map (fun q => (q.1 - off, q.2))) ∧ ∀ x ∈ q, off ≤ x.1 := by
  induction ts generalizing off acc with
  | nil => exact ⟨[], by simp [patternLoop], rfl, rfl, by simp⟩
  | cons t ts ih =>
      have ht := hp t (by simp)
      have ih' := ih (fun t ht => hp t (by simp [ht]))
      have key : ∀ off acc, patternLoop nnz pat (t :: ts) off acc
          = patternLoop nnz pat ts (off + t.size) (acc ++ (pat t).map (fun q => (q.1 + off, q.2))) := by
        intro off acc
        rw [patternLoop]
        split
        · rfl
        · have : pat t = [] := List.length_eq_zero_iff.mp (by omega)
          simp [this]
      obtain ⟨q, h1, h2, h3, h4⟩ := ih' (off + t.size) (acc ++ (pat t).map (fun q => (q.1 + off, q.2)))
      obtain ⟨q', g1, g2, g3, g4⟩ := ih' (0 + t.size) ([] ++ (pat t).map (fun q => (q.1 + 0, q.2)))
      refine ⟨(pat t).map (fun q => (q.1 + off, q.2)) ++ q, ?_, ?_, ?_, ?_⟩
      · rw [key, h1, List.append_assoc]
      · simp [ht, h2]
      · rw [key, g1]
        congr 1
        simp only [List.nil_append, List.map_append, List.map_map]
        congr 1
        · apply List.map_congr_left; intro x _; simp
        · have e := Res.ok.inj (h3.symm.trans g3)
          apply List.ext_getElem
          · have := congrArg List.length e; simpa using this.symm
          · intro k hk hk'
            have hk2 : k < q.length := by simpa using hk'
            have hq := congrArg (fun l : List (Nat × Nat) => l[k]?) e
            simp only [List.getElem?_map, List.getElem?_eq_getElem hk, List.getElem?_eq_getElem hk2, Option.map_some, Option.some.injEq, Prod.mk.injEq] at hq
            have b1 := h4 _ (List.getElem_mem hk2)
            have b2 := g4 _ (List.getElem_mem hk)
            simp only [List.getElem_map]
            ext
            · simp only; omega
            · exact hq.2.symm
      · intro x hx
        rcases List.mem_append.mp hx with hx | hx
        · obtain ⟨y, _, rfl⟩ := List.mem_map.mp hx; simp
        · have := h4 x hx; omega

/-- A term whose sparse state Jacobian describes its dense one. -/
def Term.AgreesX (t : Term P K) : Prop := ∀ p i j, scatter t.patX (t.sparseX p) i j = entry (t.jacX p) i j
/-- A term whose sparse input Jacobian describes its dense one. -/
def Term.AgreesU (t : Term P K) : Prop := ∀ p i j, scatter t.patU (t.sparseU p) i j = entry (t.jacU p) i j

theorem stack_scatter (nnz : Term P K → Nat) (pat : Term P K → List (Nat × Nat)) (vals : Term P K → List K)
    (jac : Term P K → List (List K)) (ts : List (Term P K))
    (hl : ∀ t ∈ ts, (pat t).length = nnz t) (hv : ∀ t ∈ ts, (vals t).length = nnz t)
    (hj : ∀ t ∈ ts, (jac t).length = t.size) (hr : ∀ t ∈ ts, ∀ q ∈ pat t, q.1 < t.size)
    (ha : ∀ t ∈ ts, ∀ i j, scatter (pat t) (vals t) i j = entry (jac t) i j) :
    ∃ q, patternLoop nnz pat ts 0 [] = Res.ok q ∧ q.length = (ts.map nnz).sum ∧
      ∀ i j, scatter q (ts.flatMap vals) i j = entry (ts.flatMap jac) i j := by
  induction ts with
  | nil => exact ⟨[], rfl, rfl, fun i j => by simp [scatter, entry]⟩
  | cons t ts ih =>
      obtain ⟨q, h1, h2, h3⟩ := ih (fun t ht => hl t (by simp [ht])) (fun t ht => hv t (by simp [ht]))
        (fun t ht => hj t (by simp [ht])) (fun t ht => hr t (by simp [ht])) (fun t ht => ha t (by simp [ht]))
      have ht := hl t (by simp)
      have key : patternLoop nnz pat (t :: ts) 0 []
          = patternLoop nnz pat ts (0 + t.size) ([] ++ (pat t).map (fun q => (q.1 + 0, q.2))) := by
        rw [patternLoop]
        split
        · simp only [ht, if_true]
        · have : pat t = [] := List.length_eq_zero_iff.mp (by omega)
          simp [this]
      obtain ⟨q', g1, g2, g3, g4⟩ := patternLoop_spec nnz pat ts (fun t ht => hl t (by simp [ht])) (0 + t.size)
        ([] ++ (pat t).map (fun q => (q.1 + 0, q.2)))
      have e : q' = q.map (fun x => (x.1 + t.size, x.2)) := by
        have := Res.ok.inj (h1.symm.trans g3)
        rw [this, List.map_map]
        symm
        calc _ = q'.map id := by
              apply List.map_congr_left
              intro x hx
              have := g4 x hx
              ext
              · simp; omega
              · rfl
          _ = q' := by simp
      refine ⟨pat t ++ q', by rw [key, g1]; simp, by simp [ht, g2], ?_⟩
      intro i j
      rw [List.flatMap_cons, List.flatMap_cons, scatter_append _ _ _ _ (by rw [ht, hv t (by simp)])]
      rcases Nat.lt_or_ge i t.size with hi | hi
      · rw [ha t (by simp), scatter_zero q', add_zero]
        · unfold entry
          rw [List.getElem?_append_left (by rw [hj t (by simp)]; exact hi)]
        · intro x hx hxe
          have := g4 x hx
          rw [hxe] at this
          simp only at this
          omega
      · obtain ⟨k, rfl⟩ : ∃ k, i = k + t.size := ⟨i - t.size, by omega⟩
        rw [e, scatter_shift, h3, scatter_zero (pat t), zero_add]
        · unfold entry
          rw [List.getElem?_append_right (by rw [hj t (by simp)]; exact hi), hj t (by simp), Nat.add_sub_cancel]
        · intro x hx hxe
          have := hr t (by simp) x hx
          rw [hxe] at this
          simp only at this
          omega

/-- C34 for containers: along every history, when ready, the sparse values of the container scattered at its pattern
are the dense Jacobian of the container (states and inputs, intermediate and terminal), provided this holds for
each added term. -/
theorem C34_container (n m : Nat) (p₀ : P) (ops : List (Op P K)) (hw : ∀ o ∈ ops, ∀ t ∈ opTerms o, t.Wf n m)
    (ha : ∀ o ∈ ops, ∀ t ∈ opTerms o, t.AgreesX ∧ t.AgreesU) :
    ∃ c, (Container.new p₀).run n m ops = Res.ok c ∧
      (ReadyIntermediate ops →
        (∃ vals pat D, c.jacobianStateSparseIntermediate = Res.ok vals ∧ c.sparsityPatternStateIntermediate = Res.ok pat ∧
          c.jacobianStateIntermediate = Res.ok D ∧ pat.length = vals.length ∧ ∀ i j, scatter pat vals i j = entry D i j) ∧
        (∃ vals pat D, c.jacobianInputSparseIntermediate = Res.ok vals ∧ c.sparsityPatternInputIntermediate = Res.ok pat ∧
          c.jacobianInputIntermediate = Res.ok D ∧ pat.length = vals.length ∧ ∀ i j, scatter pat vals i j = entry D i j)) ∧
      (ReadyTerminal ops →
        (ReadyIntermediate ops →
          ∃ vals pat D, c.jacobianStateSparseTerminal = Res.ok vals ∧ c.sparsityPatternStateTerminal = Res.ok pat ∧
          c.jacobianStateTerminal = Res.ok D ∧ pat.length = vals.length ∧ ∀ i j, scatter pat vals i j = entry D i j) ∧
        (∃ vals pat D, c.jacobianInputSparseTerminal = Res.ok vals ∧ c.sparsityPatternInputTerminal = Res.ok pat ∧
          c.jacobianInputTerminal = Res.ok D ∧ pat.length = vals.length ∧ ∀ i j, scatter pat vals i j = entry D i j)) := by
  obtain ⟨c, hc, hi, ht, hp⟩ := run_inv n m p₀ ops hw
  have memI : ∀ ops : List (Op P K), (∀ o ∈ ops, ∀ t ∈ opTerms o, t.AgreesX ∧ t.AgreesU) →
      (∀ t ∈ addedIntermediate ops, t.AgreesX ∧ t.AgreesU) ∧ ∀ t ∈ addedTerminal ops, t.AgreesX ∧ t.AgreesU := by
    intro ops h
    induction ops with
    | nil => simp [addedIntermediate, addedTerminal]
    | cons o ops ih =>
        obtain ⟨h1, h2⟩ := ih (fun o ho => h o (List.mem_cons_of_mem _ ho))
        have ho := h o List.mem_cons_self
        cases o with
        | addIntermediate t =>
            refine ⟨fun t' ht' => ?_, h2⟩
            rcases List.mem_cons.mp ht' with e | ht'
            · exact ho t' (List.mem_singleton.mpr e)
            · exact h1 t' ht'
        | addTerminal t =>
            refine ⟨h1, fun t' ht' => ?_⟩
            rcases List.mem_cons.mp ht' with e | ht'
            · exact ho t' (List.mem_singleton.mpr e)
            · exact h2 t' ht'
        | _ => exact ⟨h1, h2⟩
  obtain ⟨aI, aT⟩ := memI ops ha
  have sX : ∀ {h : Half P K} {ts r}, h.Inv n m ts r → (∀ t ∈ ts, t.AgreesX ∧ t.AgreesU) → ∀ p,
      ∃ pat, h.patternX = Res.ok pat ∧ pat.length = (ts.flatMap (·.sparseX p)).length ∧
        ∀ i j, scatter pat (ts.flatMap (·.sparseX p)) i j = entry (stackX ts p) i j := by
    intro h ts r H a p
    unfold Half.patternX
    rw [H.terms]
    obtain ⟨q, e1, e2, e3⟩ := stack_scatter (·.nnzX) (·.patX) (·.sparseX p) (·.jacX p) ts (fun t ht => (H.wf t ht).patX.1)
      (fun t ht => (H.wf t ht).sparseX p) (fun t ht => ((H.wf t ht).jacX p).1) (fun t ht q hq => ((H.wf t ht).patX.2 q hq).1)
      (fun t ht i j => (a t ht).1 p i j)
    exact ⟨q, e1, by rw [e2, flatMap_length _ (·.nnzX) ts (fun t ht => (H.wf t ht).sparseX p)], e3⟩
  have sU : ∀ {h : Half P K} {ts r}, h.Inv n m ts r → (∀ t ∈ ts, t.AgreesX ∧ t.AgreesU) → ∀ p,
      ∃ pat, h.patternU = Res.ok pat ∧ pat.length = (ts.flatMap (·.sparseU p)).length ∧
        ∀ i j, scatter pat (ts.flatMap (·.sparseU p)) i j = entry (stackU ts p) i j := by
    intro h ts r H a p
    unfold Half.patternU
    rw [H.terms]
    obtain ⟨q, e1, e2, e3⟩ := stack_scatter (·.nnzU) (·.patU) (·.sparseU p) (·.jacU p) ts (fun t ht => (H.wf t ht).patU.1)
      (fun t ht => (H.wf t ht).sparseU p) (fun t ht => ((H.wf t ht).jacU p).1) (fun t ht q hq => ((H.wf t ht).patU.2 q hq).1)
      (fun t ht i j => (a t ht).2 p i j)
    exact ⟨q, e1, by rw [e2, flatMap_length _ (·.nnzU) ts (fun t ht => (H.wf t ht).sparseU p)], e3⟩
  refine ⟨c, hc, fun hr => ⟨?_, ?_⟩, fun hr => ⟨fun hr' => ?_, ?_⟩⟩
  · obtain ⟨q, e1, e2, e3⟩ := sX hi aI c.point
    exact ⟨_, q, _, ((guarded_inv hi _).1 hr).trans (hi.jac hr _).2.2.1, ((guarded_inv hi _).1 hr).trans e1,
      ((guarded_inv hi _).1 hr).trans (hi.jac hr _).1, e2, e3⟩
  · obtain ⟨q, e1, e2, e3⟩ := sU hi aI c.point
    exact ⟨_, q, _, ((guarded_inv hi _).1 hr).trans (hi.jac hr _).2.2.2, ((guarded_inv hi _).1 hr).trans e1,
      ((guarded_inv hi _).1 hr).trans (hi.jac hr _).2.1, e2, e3⟩
  · obtain ⟨q, e1, e2, e3⟩ := sX ht aT c.point
    exact ⟨_, q, _, ((guarded_inv hi _).1 hr').trans (ht.jac hr _).2.2.1, ((guarded_inv ht _).1 hr).trans e1,
      ((guarded_inv hi _).1 hr').trans (ht.jac hr _).1, e2, e3⟩
  · obtain ⟨q, e1, e2, e3⟩ := sU ht aT c.point
    exact ⟨_, q, _, ((guarded_inv ht _).1 hr).trans (ht.jac hr _).2.2.2, ((guarded_inv ht _).1 hr).trans e1,
      ((guarded_inv ht _).1 hr).trans (ht.jac hr _).2.1, e2, e3⟩

/-! ### Default terms -/

theorem scatter_row (cols r i j : Nat) (f : Nat → K) :
    scatter ((List.range cols).map (fun c => (r, c))) ((List.range cols).map f) i j = if i = r ∧ j < cols then f j else 0 := by
  induction cols with
  | zero => simp [scatter]
  | succ k ih =>
      rw [List.range_succ, List.map_append, List.map_append, scatter_append _ _ _ _ (by simp), ih]
      simp only [List.map_cons, List.map_nil, scatter, add_zero, Prod.mk.injEq]
      by_cases h1 : r = i
      · subst h1
        by_cases h2 : k = j
        · subst h2; simp
        · by_cases h3 : j < k
          · simp [h2, h3, Nat.lt_succ_of_lt h3]
          · have : ¬ j < k + 1 := by omega
            simp [h2, h3, this]
      · simp [h1, Ne.symm h1]

theorem scatter_col (rows i j : Nat) (f : Nat → K) :
    scatter ((List.range rows).map (fun r => (r, 0))) ((List.range rows).map f) i j = if j = 0 ∧ i < rows then f i else 0 := by
  induction rows with
  | zero => simp [scatter]
  | succ k ih =>
      rw [List.range_succ, List.map_append, List.map_append, scatter_append _ _ _ _ (by simp), ih]
      simp only [List.map_cons, List.map_nil, scatter, add_zero, Prod.mk.injEq]
      by_cases h1 : j = 0
      · subst h1
        by_cases h2 : k = i
        · subst h2; simp
        · by_cases h3 : i < k
          · simp [h2, h3, Nat.lt_succ_of_lt h3]
          · have : ¬ i < k + 1 := by omega
            simp [h2, h3, this]
      · simp [h1, Ne.symm h1]

/-- A matrix given by `rows` rows of `cols` entries. -/
def IsMatrix (rows cols : Nat) (J : List (List K)) : Prop := J.length = rows ∧ ∀ r ∈ J, r.length = cols

theorem entry_outside {rows cols : Nat} {J : List (List K)} (h : IsMatrix rows cols J) (i j : Nat) (hij : ¬ (i < rows ∧ j < cols)) :
    entry J i j = 0 := by
  unfold entry
  by_cases hi : i < J.length
  · rw [List.getElem?_eq_getElem hi]
    have := h.2 _ (List.getElem_mem hi)
    have hj : J[i].length ≤ j := by
      have : i < rows := h.1 ▸ hi
      omega
    simp [List.getElem?_eq_none hj]
  · simp [List.getElem?_eq_none (not_lt.mp hi)]

/-- C34 for terms that rely on the default sparse Jacobian and pattern: they agree with the dense Jacobian if the
constraint is scalar or the differentiation variable is one-dimensional. Missing: all other dimensions, where
the claim is false (`C34_default_violated`). -/
theorem C34_default_partial (rows cols : Nat) (J : List (List K)) (hJ : IsMatrix rows cols J) (h : rows ≤ 1 ∨ cols ≤ 1) (i j : Nat) :
    scatter (genBlockIndices rows cols) (flattenDense rows cols J) i j = entry J i j := by
  have zero : rows = 0 ∨ cols = 0 → scatter (genBlockIndices rows cols) (flattenDense rows cols J) i j = entry J i j := by
    intro h0
    rw [entry_outside hJ i j (by omega), scatter_zero]
    intro q hq
    simp only [genBlockIndices, List.mem_flatMap, List.mem_map, List.mem_range] at hq
    obtain ⟨_, _, _, _, _⟩ := hq
    omega
  rcases h with h | h
  · rcases Nat.le_one_iff_eq_zero_or_eq_one.mp h with h | h
    · exact zero (Or.inl h)
    · subst h
      have e1 : genBlockIndices 1 cols = (List.range cols).map (fun c => (0, c)) := by
        simp only [genBlockIndices, List.range_one, List.flatMap_cons, List.flatMap_nil, List.append_nil]
      have e2 : flattenDense 1 cols J = (List.range cols).map (fun c => entry J 0 c) := by
        simp only [flattenDense, List.range_one, List.map_cons, List.map_nil]
        rw [List.map_eq_flatMap]; rfl
      rw [e1, e2, scatter_row]
      split
      · rename_i h; rw [h.1]
      · rw [entry_outside hJ]; omega
  · rcases Nat.le_one_iff_eq_zero_or_eq_one.mp h with h | h
    · exact zero (Or.inr h)
    · subst h
      have e1 : genBlockIndices rows 1 = (List.range rows).map (fun r => (r, 0)) := by
        simp only [genBlockIndices, List.range_one, List.map_cons, List.map_nil]
        rw [List.map_eq_flatMap]
      have e2 : flattenDense rows 1 J = (List.range rows).map (fun r => entry J r 0) := by
        simp only [flattenDense, entry, List.range_one, List.flatMap_cons, List.flatMap_nil, List.append_nil]
      rw [e1, e2, scatter_col]
      split
      · rename_i h; rw [h.1]
      · rw [entry_outside hJ]; omega

end C34

/-- C34 fails for the default implementation whenever the Jacobian has at least two rows and two columns: the values
are listed column by column, the pattern row by row. -/
theorem C34_default_violated (rows cols : Nat) (hr : 2 ≤ rows) (hc : 2 ≤ cols) :
    ∃ J : List (List ℚ), IsMatrix rows cols J ∧
      ∃ i j, i < rows ∧ j < cols ∧ scatter (genBlockIndices rows cols) (flattenDense rows cols J) i j ≠ entry J i j := by
  obtain ⟨a, rfl⟩ : ∃ a, rows = a + 2 := ⟨rows - 2, by omega⟩
  obtain ⟨b, rfl⟩ : ∃ b, cols = b + 2 := ⟨cols - 2, by omega⟩
  let f : Nat → Nat → ℚ := fun r c => if r = 1 ∧ c = 0 then 1 else 0
  let J : List (List ℚ) := (List.range (a + 2)).map (fun r => (List.range (b + 2)).map (f r))
  have hJ : IsMatrix (a + 2) (b + 2) J := ⟨by simp [J], by simp [J]⟩
  have hent : ∀ r c, r < a + 2 → c < b + 2 → ((J[r]?).bind (·[c]?)).getD 0 = f r c := by
    intro r c hr hc
    simp [J, hr, hc]
  have hflat : flattenDense (a + 2) (b + 2) J =
      (List.range (b + 2)).flatMap (fun c => (List.range (a + 2)).map (fun r => f r c)) := by
    unfold flattenDense
    apply List.flatMap_congr
    intro c hc
    apply List.map_congr_left
    intro r hr
    exact hent r c (List.mem_range.mp hr) (List.mem_range.mp hc)
  have hr2 : ∀ k, List.range (k + 2) = 0 :: 1 :: (List.range k).map (· + 2) := by
    intro k
    rw [List.range_succ_eq_map, List.range_succ_eq_map]
    simp
  have zeros : ∀ (vals : List ℚ) (pat : List (Nat × Nat)) (i j : Nat), (∀ v ∈ vals, v = 0) → scatter pat vals i j = 0 := by
    intro vals
    induction vals with
    | nil => intro pat i j _; cases pat <;> rfl
    | cons v vals ih =>
        intro pat i j h
        cases pat with
        | nil => rfl
        | cons q pat =>
            simp only [scatter]
            rw [ih pat i j (fun v hv => h v (by simp [hv])), h v (by simp)]
            simp
  refine ⟨J, hJ, 0, 1, by omega, by omega, ?_⟩
  rw [hflat]
  have hv : ∃ rest : List ℚ, (List.range (b + 2)).flatMap (fun c => (List.range (a + 2)).map (fun r => f r c)) = 0 :: 1 :: rest ∧
      ∀ v ∈ rest, v = 0 := by
    rw [hr2 b, List.flatMap_cons, hr2 a]
    simp only [List.map_cons, List.cons_append]
    refine ⟨_, rfl, ?_⟩
    intro v hv
    rcases List.mem_append.mp hv with h | h
    · simp only [List.map_map, List.mem_map, Function.comp] at h
      obtain ⟨r, _, rfl⟩ := h
      simp [f]
    · simp only [List.mem_flatMap] at h
      obtain ⟨c, hc, hv⟩ := h
      have hc0 : c ≠ 0 := by
        rcases List.mem_cons.mp hc with h | h
        · omega
        · obtain ⟨k, _, rfl⟩ := List.mem_map.mp h; omega
      have : ∀ r, f r c = 0 := fun r => by simp [f, hc0]
      simp only [this, List.mem_cons, List.mem_map] at hv
      rcases hv with h | h | ⟨_, _, h⟩
      · exact h
      · exact h
      · exact h.symm
  obtain ⟨rest, e, hz⟩ := hv
  have hp : ∃ rest', genBlockIndices (a + 2) (b + 2) = (0, 0) :: (0, 1) :: rest' := by
    unfold genBlockIndices
    rw [hr2 a, List.flatMap_cons, hr2 b]
    exact ⟨_, rfl⟩
  obtain ⟨rest', e'⟩ := hp
  rw [e, e']
  have hE : entry J 0 1 = 0 := hent 0 1 (by omega) (by omega)
  rw [hE]
  simp [scatter, zeros rest rest' 0 1 hz]
example : scatter (genBlockIndices 1 3) (flattenDense 1 3 [[(7 : ℚ), 8, 9]]) 0 2 = 9 := by decide +kernel

example : unitTerm.AgreesX ∧ unitTerm.AgreesU := by
  constructor
  · intro p i j
    rcases i with _ | i <;> rcases j with _ | j <;> simp [unitTerm, scatter, entry]
  · intro p i j
    rcases i with _ | i <;> rcases j with _ | j <;> simp [unitTerm, scatter, entry]

/-! ## C35 -/

section C35
variable {K : Type}

/-- Specification: the components selected by a 0/1 vector, in increasing order. -/
def selected (D : Nat) (sp : List Int) : List (Fin D) := (List.finRange D).filter (fun i => sp[i.val]? = some 1)

/-- The positions of the ones, counted from `i`. -/
def ones : List Int → Nat → List Nat
  | [], _ => []
  | s :: sp, i => if s = 1 then i :: ones sp (i + 1) else ones sp (i + 1)

theorem ones_snoc (sp : List Int) (s : Int) (i : Nat) :
    ones (sp ++ [s]) i = ones sp i ++ if s = 1 then [i + sp.length] else [] := by
  induction sp generalizing i with
  | nil => simp [ones]
  | cons x sp ih =>
      simp only [List.cons_append, ones, ih, List.length_cons]
      have : i + 1 + sp.length = i + (sp.length + 1) := by omega
      split <;> simp [this]

theorem ones_eq_filter (sp : List Int) : ones sp 0 = (List.range sp.length).filter (fun i => sp[i]? = some 1) := by
  induction sp using List.reverseRecOn with
  | nil => rfl
  | append_singleton sp s ih =>
      rw [ones_snoc, ih, List.length_append, List.length_singleton, List.range_succ, List.filter_append]
      congr 1
      · apply List.filter_congr
        intro x hx
        rw [List.getElem?_append_left (List.mem_range.mp hx)]
      · by_cases hs : s = 1 <;> simp [hs, List.filter_cons]

theorem ones_eq_selected {D : Nat} (sp : List Int) (h : sp.length = D) : ones sp 0 = (selected D sp).map (·.val) := by
  rw [ones_eq_filter, h, selected]
  have : List.range D = (List.finRange D).map (·.val) := by
    apply List.ext_getElem <;> simp
  rw [this, List.filter_map]
  rfl

theorem sumInt_ones (sp : List Int) (h : ∀ s ∈ sp, s = 0 ∨ s = 1) (i : Nat) (a : Int) :
    sp.foldl (· + ·) a = a + (ones sp i).length := by
  induction sp generalizing i a with
  | nil => simp [ones]
  | cons s sp ih =>
      have hs := h s (by simp)
      simp only [List.foldl_cons]
      rw [ih (fun s hs => h s (by simp [hs])) (i + 1)]
      rcases hs with rfl | rfl <;> simp [ones]
      omega

theorem fillRows_spec [One K] (n : Nat) (sp : List Int) (i count : Nat) (mat : Nat → Nat → K) (h : count + (ones sp i).length ≤ n) :
    ∃ M, fillRows n sp i count mat = Res.ok M ∧
      ∀ r c, M r c = if count ≤ r ∧ (ones sp i)[r - count]? = some c then 1 else mat r c := by
  induction sp generalizing i count mat with
  | nil => exact ⟨mat, rfl, fun r c => by simp [ones]⟩
  | cons s sp ih =>
      unfold fillRows
      by_cases hs : s = 1
      · simp only [ones, hs, if_true, List.length_cons] at h ⊢
        rw [if_pos (by omega)]
        obtain ⟨M, e, hM⟩ := ih (i + 1) (count + 1) (setEntry mat count i 1) (by omega)
        refine ⟨M, e, fun r c => ?_⟩
        rw [hM]
        unfold setEntry
        rcases Nat.lt_trichotomy r count with hr | hr | hr
        · have h1 : ¬ count + 1 ≤ r := by omega
          have h2 : ¬ count ≤ r := by omega
          have h3 : ¬ r = count := by omega
          simp [h1, h2, h3]
        · subst hr
          have h1 : ¬ r + 1 ≤ r := by omega
          simp only [h1, false_and, if_false, le_refl, true_and, Nat.sub_self, List.getElem?_cons_zero, Option.some.injEq]
          simp only [eq_comm]
        · have h1 : count + 1 ≤ r := by omega
          have h2 : count ≤ r := by omega
          have h3 : ¬ r = count := by omega
          have h4 : r - count = (r - (count + 1)) + 1 := by omega
          simp [h1, h2, h3, h4]
      · simp only [ones, hs, if_false] at h ⊢
        exact ih (i + 1) count mat h

theorem sparseDiag_eq (sp : List Int) : genSparseDiagonalIndices sp = (ones sp 0).map (fun i => (i, i)) := by
  unfold genSparseDiagonalIndices
  suffices h : ∀ i, (sp.zipIdx i).filterMap (fun p : Int × Nat => if p.1 = 1 then some (p.2, p.2) else none) = (ones sp i).map (fun i => (i, i)) from h 0
  induction sp with
  | nil => intro i; rfl
  | cons s sp ih =>
      intro i
      rw [List.zipIdx_cons, List.filterMap_cons]
      by_cases hs : s = 1 <;> simp [hs, ones, ih]

variable [LinearOrder K]

theorem sanityCheck_iff (n : Nat) (lb ub : List K) :
    sanityCheck n lb ub = true ↔ lb.length = n ∧ ub.length = n ∧ ∀ i (h1 : i < lb.length) (h2 : i < ub.length), lb[i] ≤ ub[i] := by
  unfold sanityCheck
  simp only [Bool.and_eq_true, decide_eq_true_eq, List.all_eq_true, List.mem_range]
  constructor
  · rintro ⟨⟨h1, h2⟩, h⟩
    refine ⟨h1, h2, fun i hi hi' => ?_⟩
    have := h i (h1 ▸ hi)
    rw [List.getElem?_eq_getElem hi, List.getElem?_eq_getElem hi'] at this
    simpa using this
  · rintro ⟨h1, h2, h⟩
    refine ⟨⟨h1, h2⟩, fun i hi => ?_⟩
    have hi1 : i < lb.length := by omega
    have hi2 : i < ub.length := by omega
    rw [List.getElem?_eq_getElem hi1, List.getElem?_eq_getElem hi2]
    simpa using h i hi1 hi2

end C35

section C35b
variable {K : Type} [Field K] [LinearOrder K]

/-- Bounds a user may ask for on `n` components: matching sizes and no empty interval. -/
def Consistent (n : Nat) (lb ub : List K) : Prop :=
  lb.length = n ∧ ub.length = n ∧ ∀ i (h1 : i < lb.length) (h2 : i < ub.length), lb[i] ≤ ub[i]

/-- The selection matrix of a list of components: row `r` picks component `sel[r]`. -/
def selectionEntry {D : Nat} (sel : List (Fin D)) (r c : Nat) : K := if (sel.map (·.val))[r]? = some c then 1 else 0

/-- What a user expects of an accepted box on the components `sel` of a vector of dimension `D`. The columns of the pattern
come in the order of the bounds. -/
def Box.Selects {D : Nat} (b : Box K) (sel : List (Fin D)) (lb ub : List K) : Prop :=
  b.constrSize = sel.length ∧ b.lb = lb ∧ b.ub = ub ∧
  (∀ x : Fin D → K, b.evaluate x = sel.map x) ∧
  (∀ r c, r < sel.length → b.J r c = selectionEntry sel r c) ∧
  ∃ pat, b.pattern = Res.ok pat ∧ pat.length = b.sparseJac.length ∧ (∀ q ∈ pat, q.1 < b.constrSize ∧ q.2 < D) ∧
    (∀ r c, scatter pat b.sparseJac r c = selectionEntry sel r c) ∧ pat.map (·.2) = sel.map (·.val)

theorem selects_of {D : Nat} (b : Box K) (sel : List (Fin D)) (hn : b.constrSize = sel.length)
    (hsp : ones b.sparsity 0 = sel.map (·.val))
    (hJ : ∀ r c, r < sel.length → c < D → b.J r c = selectionEntry sel r c)
    (hJ' : ∀ r c, r < sel.length → b.J r c = selectionEntry sel r c) : b.Selects sel b.lb b.ub := by
  refine ⟨hn, rfl, rfl, ?_, hJ', ?_⟩
  · intro x
    unfold Box.evaluate
    apply List.ext_getElem
    · simp [hn]
    · intro r h1 h2
      have hr : r < sel.length := by simpa using h2
      simp only [List.getElem_map, List.getElem_range]
      rw [Finset.sum_eq_single sel[r]]
      · rw [hJ r _ hr (sel[r]).isLt]
        simp [selectionEntry, hr]
      · intro c _ hc
        rw [hJ r c hr c.isLt]
        have : ¬ (sel[r]).val = c.val := fun h => hc (Fin.ext h.symm)
        simp [selectionEntry, hr, this]
      · intro h; exact absurd (Finset.mem_univ _) h
  · have hd : genSparseDiagonalIndices b.sparsity = (sel.map (·.val)).map (fun i => (i, i)) := by
      rw [sparseDiag_eq, hsp]
    have hpat : b.pattern = Res.ok (sel.zipIdx.map (fun p => (p.2, p.1.val))) := by
      unfold Box.pattern
      rw [hd]
      simp only [List.length_map, hn, le_refl, if_true]
      congr 1
      apply List.ext_getElem
      · simp
      · intro k h1 h2
        have : k < sel.length := by simpa using h2
        simp [this]
    refine ⟨_, hpat, by simp [Box.sparseJac, hn], ?_, ?_, ?_⟩
    · intro q hq
      obtain ⟨p, hp, rfl⟩ := List.mem_map.mp hq
      have := List.snd_lt_of_mem_zipIdx hp
      exact ⟨by rw [hn]; simpa using this, p.1.isLt⟩
    · intro r c
      unfold Box.sparseJac
      rw [hn]
      clear hpat hd hJ hJ' hsp hn
      induction sel using List.reverseRecOn with
      | nil => simp [scatter, selectionEntry]
      | append_singleton sel s ih =>
          rw [List.zipIdx_append, List.map_append, List.length_append, List.replicate_add, scatter_append _ _ _ _ (by simp), ih]
          unfold selectionEntry
          rw [List.map_append]
          rcases Nat.lt_trichotomy r sel.length with hr | hr | hr
          · have : ¬ sel.length = r := by omega
            rw [List.getElem?_append_left (by simpa using hr)]
            simp [scatter, this]
          · subst hr
            simp [scatter]
          · have : ¬ sel.length = r := by omega
            rw [List.getElem?_eq_none (by simp; omega), List.getElem?_eq_none (by simp; omega)]
            simp [scatter, this]
    · apply List.ext_getElem
      · simp
      · intro k h1 h2; simp

/-- C35: a box built from a 0/1 vector of the right length is accepted exactly for consistent bounds on the selected
components; it then evaluates to exactly those components in order, and its sparse Jacobian at its pattern is the
selection matrix. -/
theorem C35_sparse (D : Nat) (lb ub : List K) (sp : List Int) (hlen : sp.length = D) (h01 : ∀ s ∈ sp, s = 0 ∨ s = 1) :
    (¬ Consistent (selected D sp).length lb ub → Box.sparse D lb ub sp = Res.exc) ∧
    (Consistent (selected D sp).length lb ub → ∃ b, Box.sparse D lb ub sp = Res.ok b ∧ b.Selects (selected D sp) lb ub) := by
  have hs : (sumInt sp).toNat = (selected D sp).length := by
    unfold sumInt
    rw [sumInt_ones sp h01 0 0, ones_eq_selected sp hlen]
    simp
  have hpre : sp.length = D ∧ ∀ s ∈ sp, s = 0 ∨ s = 1 := ⟨hlen, h01⟩
  constructor
  · intro h
    have : ¬ sanityCheck (selected D sp).length lb ub = true := fun e => h ((sanityCheck_iff _ _ _).1 e)
    unfold Box.sparse
    rw [if_neg (not_not.mpr hpre)]
    simp only [hs, this]
    rfl
  · intro h
    have hsc : sanityCheck (selected D sp).length lb ub = true := (sanityCheck_iff _ _ _).2 h
    have ho : ones sp 0 = (selected D sp).map (·.val) := ones_eq_selected sp hlen
    obtain ⟨M, hM, hM'⟩ := fillRows_spec (K := K) (selected D sp).length sp 0 0 (fun _ _ => 0) (by rw [ho]; simp)
    refine ⟨⟨(selected D sp).length, lb, ub, sp, M⟩, ?_, ?_⟩
    · unfold Box.sparse
      rw [if_neg (not_not.mpr hpre)]
      simp only [hs, hsc, if_true, hM, Res.ok_bind, Res.pure_eq]
    · have hJ : ∀ r c, M r c = selectionEntry (selected D sp) r c := by
        intro r c
        rw [hM', ho]
        simp [selectionEntry]
      exact selects_of _ _ rfl ho (fun r c _ _ => hJ r c) (fun r c _ => hJ r c)

/-- C35: the dense constructor is accepted exactly for consistent bounds and then selects every component. -/
theorem C35_dense (D : Nat) (lb ub : List K) :
    (¬ Consistent D lb ub → Box.dense D lb ub = Res.exc) ∧
    (Consistent D lb ub → ∃ b, Box.dense D lb ub = Res.ok b ∧ b.Selects (List.finRange D) lb ub) := by
  constructor
  · intro h
    have : ¬ sanityCheck D lb ub = true := fun e => h ((sanityCheck_iff _ _ _).1 e)
    simp [Box.dense, this]
  · intro h
    have hsc : sanityCheck D lb ub = true := (sanityCheck_iff _ _ _).2 h
    refine ⟨⟨D, lb, ub, List.replicate D 1, fun i j => if i = j then 1 else 0⟩, by simp [Box.dense, hsc], ?_⟩
    have hJ : ∀ r c, r < (List.finRange D).length → (if r = c then (1 : K) else 0) = selectionEntry (List.finRange D) r c := by
      intro r c hr
      have hr' : r < D := by simpa using hr
      simp [selectionEntry, hr']
    refine selects_of _ _ (by simp) ?_ (fun r c h _ => hJ r c h) hJ
    rw [ones_eq_selected (D := D) _ (by simp), selected, List.filter_eq_self.mpr]
    intro a _
    simp

/-- C34 for box terms: the sparse Jacobians of an accepted box on the state or on the control agree with the dense
ones. -/
theorem C34_box {n m D : Nat} (b : Box K) (sel : List (Fin D)) (lb ub : List K) (h : b.Selects sel lb ub) :
    ∃ pat, b.pattern = Res.ok pat ∧
      (D = n → (b.stateTerm pat : Term ((Fin n → K) × (Fin m → K) × K) K).AgreesX ∧
        (b.stateTerm pat : Term ((Fin n → K) × (Fin m → K) × K) K).AgreesU) ∧
      (D = m → (b.inputTerm pat : Term ((Fin n → K) × (Fin m → K) × K) K).AgreesX ∧
        (b.inputTerm pat : Term ((Fin n → K) × (Fin m → K) × K) K).AgreesU) := by
  obtain ⟨hn, -, -, -, hJ, pat, hp, -, hb, hs, -⟩ := h
  have hzero : ∀ r c i j : Nat, entry (List.replicate r (List.replicate c (0 : K))) i j = 0 := by
    intro r c i j
    unfold entry
    by_cases hi : i < r
    · by_cases hj : j < c <;> simp [hi, hj, List.getElem?_replicate]
    · simp [hi, List.getElem?_replicate]
  have hdense : ∀ i j, entry ((List.range b.constrSize).map (fun r => (List.range D).map (b.J r))) i j = selectionEntry sel i j := by
    intro i j
    by_cases hi : i < b.constrSize
    · by_cases hj : j < D
      · have : entry ((List.range b.constrSize).map (fun r => (List.range D).map (b.J r))) i j = b.J i j := by
          simp [entry, hi, hj]
        rw [this, hJ i j (hn ▸ hi)]
      · have h1 : entry ((List.range b.constrSize).map (fun r => (List.range D).map (b.J r))) i j = 0 := by
          simp [entry, hi, hj]
        have hi' : i < sel.length := hn ▸ hi
        have : ¬ (sel[i]).val = j := by have := (sel[i]).isLt; omega
        rw [h1]
        simp [selectionEntry, hi', this]
    · have h1 : entry ((List.range b.constrSize).map (fun r => (List.range D).map (b.J r))) i j = 0 := by
        simp [entry, hi]
      have hi' : ¬ i < sel.length := hn ▸ hi
      rw [h1]
      simp [selectionEntry, List.getElem?_eq_none (not_lt.mp hi')]
  refine ⟨pat, hp, ?_, ?_⟩
  · rintro rfl
    refine ⟨fun p i j => ?_, fun p i j => ?_⟩
    · simp only [Box.stateTerm]; rw [hs, hdense]
    · simp only [Box.stateTerm]; rw [hzero]; simp [scatter]
  · rintro rfl
    refine ⟨fun p i j => ?_, fun p i j => ?_⟩
    · simp only [Box.inputTerm]; rw [hzero]; simp [scatter]
    · simp only [Box.inputTerm]; rw [hs, hdense]

/-- C34 for the terminal-state constraint. -/
theorem C34_terminal {n m : Nat} (xf : Fin n → K) :
    (terminalTerm xf : Term ((Fin n → K) × (Fin m → K) × K) K).AgreesX ∧
    (terminalTerm xf : Term ((Fin n → K) × (Fin m → K) × K) K).AgreesU := by
  constructor
  · intro p i j
    simp only [terminalTerm]
    have h1 : ∀ k : Nat, scatter (genDiagonalIndices k) (List.replicate k (1 : K)) i j = if i = j ∧ i < k then 1 else 0 := by
      intro k
      induction k with
      | zero => simp [genDiagonalIndices, scatter]
      | succ k ih =>
          have e : genDiagonalIndices (k + 1) = genDiagonalIndices k ++ [(k, k)] := by
            simp [genDiagonalIndices, List.range_succ]
          rw [e, List.replicate_succ', scatter_append _ _ _ _ (by simp [genDiagonalIndices]), ih]
          simp only [scatter, add_zero, Prod.mk.injEq]
          by_cases h : i = j
          · subst h
            by_cases h2 : k = i
            · subst h2; simp
            · by_cases h3 : i < k
              · simp [h2, h3, Nat.lt_succ_of_lt h3]
              · have : ¬ i < k + 1 := by omega
                simp [h2, h3, this]
          · have : ¬ (k = i ∧ k = j) := fun ⟨a, b⟩ => h (a.symm.trans b)
            simp [h, this]
    rw [h1]
    unfold entry
    by_cases hi : i < n
    · by_cases hj : j < n
      · simp [hi, hj]
      · have : ¬ i = j := by omega
        simp [hi, hj, this]
    · simp [hi]
  · intro p i j
    simp only [terminalTerm]
    unfold entry
    by_cases hi : i < n
    · by_cases hj : j < m <;> simp [hi, hj, List.getElem?_replicate, scatter]
    · simp [hi, List.getElem?_replicate, scatter]

/-- C35 for the terms a container holds: made from an accepted box on the state (control), the term announces consistent
sizes, evaluates to the selected components of the state (control) whatever the other arguments, and has the given bounds. -/
theorem C35_terms {n m D : Nat} (b : Box K) (sel : List (Fin D)) (lb ub : List K) (h : b.Selects sel lb ub)
    (hc : Consistent sel.length lb ub) (pat : List (Nat × Nat)) (hp : b.pattern = Res.ok pat) :
    (∀ e : D = n, let t := (b.stateTerm pat : Term ((Fin n → K) × (Fin m → K) × K) K)
      t.Wf n m ∧ t.lb = lb ∧ t.ub = ub ∧ ∀ x u s, t.eval (x, u, s) = sel.map (fun i => x (e ▸ i))) ∧
    (∀ e : D = m, let t := (b.inputTerm pat : Term ((Fin n → K) × (Fin m → K) × K) K)
      t.Wf n m ∧ t.lb = lb ∧ t.ub = ub ∧ ∀ x u s, t.eval (x, u, s) = sel.map (fun i => u (e ▸ i))) := by
  obtain ⟨hn, h1, h2, h3, hJ, pat', hp', hpl, hb, hs, -⟩ := h
  obtain rfl : pat' = pat := by rw [hp'] at hp; exact Res.ok.inj hp
  have hlen : b.lb.length = b.constrSize ∧ b.ub.length = b.constrSize := by
    rw [h1, h2, hn]; exact ⟨hc.1, hc.2.1⟩
  have hpl' : pat'.length = b.constrSize := by rw [hpl]; simp [Box.sparseJac]
  constructor
  · rintro rfl
    refine ⟨⟨?_, hlen.1, hlen.2, ?_, ?_, ?_, ?_, ⟨hpl', hb⟩, ⟨rfl, by simp [Box.stateTerm]⟩⟩, h1, h2, fun x u s => h3 x⟩
    · intro p; simp [Box.stateTerm, Box.evaluate]
    · intro p; simp [Box.stateTerm]
    · intro p; simp [Box.stateTerm]
    · intro p; simp [Box.stateTerm, Box.sparseJac]
    · intro p; simp [Box.stateTerm]
  · rintro rfl
    refine ⟨⟨?_, hlen.1, hlen.2, ?_, ?_, ?_, ?_, ⟨rfl, by simp [Box.inputTerm]⟩, ⟨hpl', hb⟩⟩, h1, h2, fun x u s => h3 u⟩
    · intro p; simp [Box.inputTerm, Box.evaluate]
    · intro p; simp [Box.inputTerm]
    · intro p; simp [Box.inputTerm]
    · intro p; simp [Box.inputTerm]
    · intro p; simp [Box.inputTerm, Box.sparseJac]

/-- C35 for the terminal-state term: it has one entry per state, the difference to the target, and is satisfied exactly
when the state equals the target. -/
theorem C35_terminal_state {n m : Nat} (xf : Fin n → K) :
    let t := (terminalTerm xf : Term ((Fin n → K) × (Fin m → K) × K) K)
    t.Wf n m ∧ ∀ x u s, t.eval (x, u, s) = (List.finRange n).map (fun i => x i - xf i) ∧
      (List.Forall₂ (· ≤ ·) t.lb (t.eval (x, u, s)) ∧ List.Forall₂ (· ≤ ·) (t.eval (x, u, s)) t.ub ↔ x = xf) := by
  intro t
  have hev : ∀ x u s, t.eval (x, u, s) = (List.finRange n).map (fun i => x i - xf i) := by
    intro x u s
    simp [t, terminalTerm, List.ofFn_eq_map]
  refine ⟨⟨?_, ?_, ?_, ?_, ?_, ?_, ?_, ?_, ?_⟩, fun x u s => ⟨hev x u s, ?_⟩⟩
  · intro p; simp [t, terminalTerm]
  · simp [t, terminalTerm]
  · simp [t, terminalTerm]
  · intro p; simp [t, terminalTerm]
  · intro p; simp [t, terminalTerm]
  · intro p; simp [t, terminalTerm]
  · intro p; simp [t, terminalTerm]
  · simp [t, terminalTerm, genDiagonalIndices]
  · simp [t, terminalTerm]
  · have hl : t.lb = (List.finRange n).map (fun _ => (0 : K)) := by simp [t, terminalTerm, List.map_const']
    have hu : t.ub = (List.finRange n).map (fun _ => (0 : K)) := by simp [t, terminalTerm, List.map_const']
    rw [hev, hl, hu]
    simp only [List.forall₂_map_left_iff, List.forall₂_map_right_iff, List.forall₂_same, List.mem_finRange, forall_const]
    constructor
    · rintro ⟨ha, hb⟩
      funext i
      exact sub_eq_zero.1 (le_antisymm (hb i) (ha i))
    · rintro rfl
      simp

end C35b

example : Consistent (selected 3 [1, 0, 1]).length [(0 : ℚ), 1] [2, 1] := by
  refine ⟨rfl, rfl, ?_⟩
  intro i h1 _
  have : i < 2 := h1
  rcases i with _ | _ | i
  · norm_num
  · norm_num
  · omega

example : (selected 3 [1, 0, 1]).map (·.val) = [0, 2] := by decide

end CT.Constraints
