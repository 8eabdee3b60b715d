import Verif.Model.Hpipm
import Mathlib.Tactic.Linarith
import Mathlib.Data.List.Nodup

/-! # C104: the quadratic program handed to HPIPM -/

namespace CT.Hpipm

variable {K M : Type}

/-! ### Specification -/

section Spec
variable [Ring K] [LinearOrder K]

/-- The value respects the bounds; bounds beyond 10⁹ count as absent. -/
def Within (l h z : K) : Prop := (-1000000000 ≤ l → l ≤ z) ∧ (h ≤ 1000000000 → z ≤ h)

/-- The vector `z` respects the box constraints of a stage. -/
def Box.Admits (b : Box K) (z : Nat → K) : Prop :=
  ∀ (j : Nat) (c : Nat) (l h : K), j < b.count → b.I[j]? = some c → b.lb[j]? = some l → b.ub[j]? = some h →
    Within l h (z c)

/-- Scalar product of a row and a vector. -/
def row : List K → (Nat → K) → K
  | [], _ => 0
  | a :: r, z => a * z 0 + row r (fun i => z (i + 1))

/-- State and control respect the general constraints of a stage. -/
def Gen.Admits (g : Gen K) (x u : Nat → K) : Prop :=
  ∀ (j : Nat) (c d : List K) (l h : K), j < g.count → g.C[j]? = some c → g.D[j]? = some d → g.lb[j]? = some l →
    g.ub[j]? = some h → Within l h (row c x + row d u)

/-- Deviations that satisfy the constraints of the problem: input boxes before the last stage, state boxes after the first
(the first state is given), general constraints everywhere. -/
def Buf.Admits (B : Buf K M) (x u : Nat → Nat → K) : Prop :=
  (∀ i < B.N, (B.box .u i).Admits (u i)) ∧ (∀ i, 1 ≤ i → i ≤ B.N → (B.box .x i).Admits (x i)) ∧
    ∀ i ≤ B.N, (B.gen i).Admits (x i) (u i)

/-- The arrays have the sizes the counts say. -/
structure Buf.WF (n m : Nat) (B : Buf K M) : Prop where
  pos : 0 < B.N
  boxU : ∀ i < B.N, (B.box .u i).count ≤ (B.box .u i).I.length ∧ (B.box .u i).count ≤ (B.box .u i).lb.length ∧
    (B.box .u i).count ≤ (B.box .u i).ub.length
  boxX : ∀ i, 1 ≤ i → i ≤ B.N → (B.box .x i).count ≤ (B.box .x i).I.length ∧
    (B.box .x i).count ≤ (B.box .x i).lb.length ∧ (B.box .x i).count ≤ (B.box .x i).ub.length
  gen : ∀ i ≤ B.N, (B.gen i).C.length = (B.gen i).count ∧ (B.gen i).D.length = (B.gen i).count ∧
    (B.gen i).lb.length = (B.gen i).count ∧ (B.gen i).ub.length = (B.gen i).count
  cols : ∀ i ≤ B.N, (∀ c ∈ (B.gen i).C, c.length = n) ∧ ∀ d ∈ (B.gen i).D, d.length = m

/-- A bound of the quadratic program counts if its mask says so. -/
def Masked (lm hm : Bool) (l h z : K) : Prop := (lm = true → l ≤ z) ∧ (hm = true → z ≤ h)

def QpBox.Admits (q : QpBox K) (z : Nat → K) : Prop :=
  ∀ (j : Nat) (c : Nat) (l h : K) (lm hm : Bool), q.I[j]? = some c → q.lb[j]? = some l → q.ub[j]? = some h →
    q.lbm[j]? = some lm → q.ubm[j]? = some hm → Masked lm hm l h (z c)

/-- General constraints of the quadratic program; only the columns of variables that exist at the stage are used. -/
def QpGen.Admits (q : QpGen K) (nx nu : Nat) (x u : Nat → K) : Prop :=
  ∀ (j : Nat) (c d : List K) (l h : K) (lm hm : Bool), q.C[j]? = some c → q.D[j]? = some d → q.lb[j]? = some l →
    q.ub[j]? = some h → q.lbm[j]? = some lm → q.ubm[j]? = some hm →
    Masked lm hm l h (row (c.take nx) x + row (d.take nu) u)

/-- Feasible points of the quadratic program. -/
def Qp.Admits (q : Qp K M) (x u : Nat → Nat → K) : Prop :=
  ∀ i ≤ q.dims.N, (∀ b, (q.box .u)[i]? = some b → b.Admits (u i)) ∧ (∀ b, (q.box .x)[i]? = some b → b.Admits (x i)) ∧
    ∀ g, q.gen[i]? = some g → g.Admits (q.dims.nx i) (q.dims.nu i) (x i) (u i)

/-- The quadratic program is the problem: the same number of stages; every state but the first and every control but one
for the last stage is a variable, with no bounds on inputs at the last stage; the same costs and dynamics; and the same
feasible deviations from a fixed first state. -/
structure Represents (n m : Nat) (q : Qp K M) (B : Buf K M) : Prop where
  stages : q.dims.N = B.N
  nx : ∀ i ≤ B.N, q.dims.nx i = if i = 0 then 0 else n
  nu : ∀ i ≤ B.N, q.dims.nu i = if i = B.N then 0 else m
  noInput : q.dims.nbu B.N = 0
  data : ∀ f : Fld, q.data f = (List.range (f.stages B.N)).map (B.data f)
  boxes : (q.box .u).length = B.N + 1 ∧ (q.box .x).length = B.N + 1 ∧ q.gen.length = B.N + 1
  feasible : ∀ x u, x 0 = 0 → u B.N = 0 → (q.Admits x u ↔ B.Admits x u)

end Spec

/-! ### Masks -/

/-- Bounds that are not absent are kept. -/
def Kept (absent : K → Bool) (l l' : List K) : Prop :=
  l'.length = l.length ∧ ∀ (j : Nat) (a : K), l[j]? = some a → absent a = false → l'[j]? = some a

theorem Kept.refl (absent : K → Bool) (l : List K) : Kept absent l l := ⟨rfl, fun _ _ h _ => h⟩

/-- The masks of the first `n` bounds. -/
def pat (absent : K → Bool) (n : Nat) (l : List K) : List Bool := (l.take n).map (fun a => !absent a)

theorem mask_spec [Zero K] (absent : K → Bool) : ∀ (n : Nat) (l : List K), n ≤ l.length →
    ∃ l', mask absent n l = .ok (l', pat absent n l) ∧ Kept absent l l'
  | 0, l, _ => ⟨l, by simp [mask, pat], Kept.refl _ _⟩
  | n + 1, [], h => by simp at h
  | n + 1, a :: l, h => by
    obtain ⟨l', h1, h2, h3⟩ := mask_spec absent n l (by simpa using h)
    cases ha : absent a with
    | true =>
      refine ⟨0 :: l', by simp [mask, h1, ha, pat, Res.ok_bind, Res.pure_eq], by simp [h2], fun j b hj hb => ?_⟩
      cases j with
      | zero => simp only [List.getElem?_cons_zero, Option.some.injEq] at hj; subst hj; simp [ha] at hb
      | succ j => simpa using h3 j b (by simpa using hj) hb
    | false =>
      refine ⟨a :: l', by simp [mask, h1, ha, pat, Res.ok_bind, Res.pure_eq], by simp [h2], fun j b hj hb => ?_⟩
      cases j with
      | zero => simpa using hj
      | succ j => simpa using h3 j b (by simpa using hj) hb

theorem pat_length (absent : K → Bool) (n : Nat) (l : List K) (h : n ≤ l.length) : (pat absent n l).length = n := by
  simp [pat, h]

theorem pat_get (absent : K → Bool) {n : Nat} {l : List K} {j : Nat} {a : K} (hj : j < n) (h : l[j]? = some a) :
    (pat absent n l)[j]? = some (!absent a) := by
  simp [pat, hj, h]

section Sem
variable [Ring K] [LinearOrder K]

/-- Masked copies of bounds mean the same as the bounds. -/
theorem masked_iff {n : Nat} {lb ub lb' ub' : List K} (hl : Kept absentLb lb lb') (hu : Kept absentUb ub ub')
    {j : Nat} {l h l' h' : K} (hj : j < n) (h1 : lb[j]? = some l) (h2 : ub[j]? = some h) (h3 : lb'[j]? = some l')
    (h4 : ub'[j]? = some h') {lm hm : Bool} (h5 : (pat absentLb n lb)[j]? = some lm)
    (h6 : (pat absentUb n ub)[j]? = some hm) (z : K) : Masked lm hm l' h' z ↔ Within l h z := by
  rw [pat_get _ hj h1, Option.some.injEq] at h5
  rw [pat_get _ hj h2, Option.some.injEq] at h6
  subst h5 h6
  have e1 : -1000000000 ≤ l → l' = l := fun e => by
    have := hl.2 j l h1 (by simpa [absentLb] using e)
    rw [this] at h3; exact (Option.some.inj h3).symm
  have e2 : h ≤ 1000000000 → h' = h := fun e => by
    have := hu.2 j h h2 (by simpa [absentUb] using e)
    rw [this] at h4; exact (Option.some.inj h4).symm
  constructor
  · rintro ⟨a, b⟩
    exact ⟨fun e => by have := a (by simpa [absentLb] using e); rwa [e1 e] at this,
      fun e => by have := b (by simpa [absentUb] using e); rwa [e2 e] at this⟩
  · rintro ⟨a, b⟩
    refine ⟨fun e => ?_, fun e => ?_⟩
    · have e' : -1000000000 ≤ l := by simpa [absentLb] using e
      rw [e1 e']; exact a e'
    · have e' : h ≤ 1000000000 := by simpa [absentUb] using e
      rw [e2 e']; exact b e'

theorem get_of_lt {α : Type} {l : List α} {j : Nat} (h : j < l.length) : ∃ a, l[j]? = some a :=
  ⟨l[j], List.getElem?_eq_getElem h⟩

theorem take_get {α : Type} {l : List α} {n j : Nat} {a : α} (h : (l.take n)[j]? = some a) : j < n ∧ l[j]? = some a := by
  rw [List.getElem?_take] at h
  split at h
  · exact ⟨by assumption, h⟩
  · cases h

theorem qpBox_iff {b b' : Box K} (hc : b'.I = b.I) (hl : Kept absentLb b.lb b'.lb) (hu : Kept absentUb b.ub b'.ub)
    (w : b.count ≤ b.I.length ∧ b.count ≤ b.lb.length ∧ b.count ≤ b.ub.length) (z : Nat → K) :
    (QpBox.mk (b'.I.take b.count) (b'.lb.take b.count) (b'.ub.take b.count) (pat absentLb b.count b.lb)
      (pat absentUb b.count b.ub)).Admits z ↔ b.Admits z := by
  constructor
  · intro H j c l h hj h1 h2 h3
    obtain ⟨l', e1⟩ := get_of_lt (l := b'.lb) (j := j) (by rw [hl.1]; omega)
    obtain ⟨h', e2⟩ := get_of_lt (l := b'.ub) (j := j) (by rw [hu.1]; omega)
    have := H j c l' h' _ _ (by simp [hj, hc, h1]) (by simp [hj, e1]) (by simp [hj, e2]) (pat_get _ hj h2) (pat_get _ hj h3)
    exact (masked_iff hl hu hj h2 h3 e1 e2 (pat_get _ hj h2) (pat_get _ hj h3) _).1 this
  · intro H j c l' h' lm hm h1 h2 h3 h4 h5
    obtain ⟨hj, h1⟩ := take_get h1
    obtain ⟨-, h2⟩ := take_get h2
    obtain ⟨-, h3⟩ := take_get h3
    obtain ⟨l, e1⟩ := get_of_lt (l := b.lb) (j := j) (by omega)
    obtain ⟨h, e2⟩ := get_of_lt (l := b.ub) (j := j) (by omega)
    exact (masked_iff hl hu hj e1 e2 h2 h3 h4 h5 _).2 (H j c l h hj (by rw [← hc]; exact h1) e1 e2)

theorem row_zero : ∀ (r : List K), row r (fun _ => 0) = 0
  | [] => rfl
  | a :: r => by rw [row, row_zero r]; simp

theorem row_take {r : List K} {n k : Nat} {z : Nat → K} (hr : r.length = n) (h : k = n ∨ (k = 0 ∧ z = 0)) :
    row (r.take k) z = row r z := by
  rcases h with rfl | ⟨rfl, rfl⟩
  · rw [List.take_of_length_le (le_of_eq hr)]
  · rw [List.take_zero]
    exact (row_zero r).symm

theorem qpGen_iff {g : Gen K} {lb ub : List K} (hl : Kept absentLb g.lb lb) (hu : Kept absentUb g.ub ub)
    (w : g.C.length = g.count ∧ g.D.length = g.count ∧ g.lb.length = g.count ∧ g.ub.length = g.count) {n m nx nu : Nat}
    (cols : (∀ c ∈ g.C, c.length = n) ∧ ∀ d ∈ g.D, d.length = m) {x u : Nat → K} (hx : nx = n ∨ (nx = 0 ∧ x = 0))
    (hu' : nu = m ∨ (nu = 0 ∧ u = 0)) :
    (QpGen.mk (g.C.take g.count) (g.D.take g.count) (lb.take g.count) (ub.take g.count) (pat absentLb g.count g.lb)
      (pat absentUb g.count g.ub)).Admits nx nu x u ↔ g.Admits x u := by
  have key : ∀ {j : Nat} {c d : List K}, g.C[j]? = some c → g.D[j]? = some d →
      row (c.take nx) x + row (d.take nu) u = row c x + row d u := by
    intro j c d h1 h2
    rw [row_take (cols.1 c (List.mem_of_getElem? h1)) hx, row_take (cols.2 d (List.mem_of_getElem? h2)) hu']
  constructor
  · intro H j c d l h hj h1 h2 h3 h4
    obtain ⟨l', e1⟩ := get_of_lt (l := lb) (j := j) (by rw [hl.1]; omega)
    obtain ⟨h', e2⟩ := get_of_lt (l := ub) (j := j) (by rw [hu.1]; omega)
    have := H j c d l' h' _ _ (by simp [hj, h1]) (by simp [hj, h2]) (by simp [hj, e1]) (by simp [hj, e2]) (pat_get _ hj h3)
      (pat_get _ hj h4)
    rw [key h1 h2] at this
    exact (masked_iff hl hu hj h3 h4 e1 e2 (pat_get _ hj h3) (pat_get _ hj h4) _).1 this
  · intro H j c d l' h' lm hm h1 h2 h3 h4 h5 h6
    obtain ⟨hj, h1⟩ := take_get h1
    obtain ⟨-, h2⟩ := take_get h2
    obtain ⟨-, h3⟩ := take_get h3
    obtain ⟨-, h4⟩ := take_get h4
    obtain ⟨l, e1⟩ := get_of_lt (l := g.lb) (j := j) (by omega)
    obtain ⟨h, e2⟩ := get_of_lt (l := g.ub) (j := j) (by omega)
    rw [key h1 h2]
    exact (masked_iff hl hu hj e1 e2 h3 h4 h5 h6 _).2 (H j c d l h hj h1 h2 e1 e2)

end Sem

/-! ### The loops -/

section Loops
variable [Ring K] [LinearOrder K]

theorem get_put (h : Heap K M) (id : Nat) (B : Buf K M) : (h.put id B).get id = .ok B := by
  simp [Heap.get, Heap.put]

theorem put_put (h : Heap K M) (id : Nat) (B B' : Buf K M) : (h.put id B).put id B' = h.put id B' := by
  funext j; simp only [Heap.put]; split <;> rfl

theorem put_self {h : Heap K M} {id : Nat} {B : Buf K M} (e : h id = some B) : h.put id B = h := by
  funext j; simp only [Heap.put]; split
  · subst j; exact e.symm
  · rfl

theorem get_some {h : Heap K M} {id : Nat} {B : Buf K M} (e : h id = some B) : h.get id = .ok B := by
  simp [Heap.get, e]

/-- Same box up to bounds that are absent. -/
structure KeptBox (b b' : Box K) : Prop where
  count : b'.count = b.count
  I : b'.I = b.I
  lb : Kept absentLb b.lb b'.lb
  ub : Kept absentUb b.ub b'.ub

theorem KeptBox.refl (b : Box K) : KeptBox b b := ⟨rfl, rfl, Kept.refl _ _, Kept.refl _ _⟩

/-- The table has right pointers and masks for the box `b` of stage `i`. -/
def Right (t : BoxTab) (id i : Nat) (b : Box K) : Prop :=
  b.count = 0 ∨ (t.p i = some ⟨id, i⟩ ∧ t.lbm i = pat absentLb b.count b.lb ∧ t.ubm i = pat absentUb b.count b.ub)

/-- Result of a box loop over the stages `is`. -/
structure BoxDone (k : Kind) (id : Nat) (t : BoxTab) (B : Buf K M) (is : List Nat) (t' : BoxTab) (B' : Buf K M) :
    Prop where
  size : t'.size = t.size
  other : ∀ i, i ∉ is → t'.n i = t.n i ∧ t'.p i = t.p i ∧ t'.lbm i = t.lbm i ∧ t'.ubm i = t.ubm i
  n : ∀ i ∈ is, t'.n i = (B.box k i).count
  right : ∀ i ∈ is, Right t' id i (B.box k i)
  N : B'.N = B.N
  gen : B'.gen = B.gen
  data : B'.data = B.data
  boxOther : ∀ k' i, ¬(k' = k ∧ i ∈ is) → B'.box k' i = B.box k' i
  box : ∀ i ∈ is, KeptBox (B.box k i) (B'.box k i)

theorem boxLoop (k : Kind) (id : Nat) : ∀ (is : List Nat), is.Nodup → ∀ (t : BoxTab) (h : Heap K M) (c : Bool)
    (B : Buf K M), h id = some B →
    (∀ i ∈ is, (B.box k i).count ≤ (B.box k i).lb.length ∧ (B.box k i).count ≤ (B.box k i).ub.length) →
    (∀ i ∈ is, t.n i = (B.box k i).count → Right t id i (B.box k i)) →
    ∃ t' B' c', is.foldlM (boxStep k id) (t, h, c) = .ok (t', h.put id B', c') ∧ BoxDone k id t B is t' B' ∧
      (c' = false → c = false ∧ t'.n = t.n)
  | [], _, t, h, c, B, hB, _, _ =>
    ⟨t, B, c, by rw [put_self hB]; rfl, ⟨rfl, fun _ _ => ⟨rfl, rfl, rfl, rfl⟩, by simp, by simp, rfl, rfl, rfl,
      fun _ _ _ => rfl, by simp⟩, fun e => ⟨e, rfl⟩⟩
  | i :: is, nd, t, h, c, B, hB, w, sy => by
    have hi : i ∉ is := (List.nodup_cons.1 nd).1
    have nd' := (List.nodup_cons.1 nd).2
    by_cases e : t.n i = (B.box k i).count
    · obtain ⟨t', B', c', a1, a2, a3⟩ := boxLoop k id is nd' t h c B hB (fun j hj => w j (List.mem_cons_of_mem _ hj))
        (fun j hj => sy j (List.mem_cons_of_mem _ hj))
      refine ⟨t', B', c', ?_, ?_, a3⟩
      · rw [List.foldlM_cons]
        simp only [boxStep, get_some hB, Res.ok_bind, if_pos e, Res.pure_eq]
        exact a1
      · refine ⟨a2.size, fun j hj => a2.other j fun q => hj (List.mem_cons_of_mem _ q), fun j hj => ?_, fun j hj => ?_,
          a2.N, a2.gen, a2.data, fun k' j hj => a2.boxOther k' j fun q => hj ⟨q.1, List.mem_cons_of_mem _ q.2⟩,
          fun j hj => ?_⟩
        · rcases List.mem_cons.1 hj with rfl | hj
          · rw [(a2.other j hi).1, e]
          · exact a2.n j hj
        · rcases List.mem_cons.1 hj with rfl | hj
          · obtain ⟨-, b1, b2, b3⟩ := a2.other j hi
            have := sy j List.mem_cons_self e
            unfold Right at this ⊢
            rw [b1, b2, b3]; exact this
          · exact a2.right j hj
        · rcases List.mem_cons.1 hj with rfl | hj
          · rw [a2.boxOther k j fun q => hi q.2]; exact KeptBox.refl _
          · exact a2.box j hj
    · obtain ⟨w1, w2⟩ := w i List.mem_cons_self
      obtain ⟨l, m1, m2⟩ := mask_spec absentLb _ _ w1
      obtain ⟨u, m3, m4⟩ := mask_spec absentUb _ _ w2
      let t1 : BoxTab := { t with n := upd t.n i (B.box k i).count, p := upd t.p i (some ⟨id, i⟩), lbm := upd t.lbm i (pat absentLb (B.box k i).count (B.box k i).lb), ubm := upd t.ubm i (pat absentUb (B.box k i).count (B.box k i).ub) }
      let B1 : Buf K M := { B with box := fun k' j => if k' = k ∧ j = i then { B.box k i with lb := l, ub := u } else B.box k' j }
      have hB1 : ∀ j ∈ is, B1.box k j = B.box k j := fun j hj => by
        have : j ≠ i := fun q => hi (q ▸ hj)
        simp [B1, this]
      have ht1 : ∀ j, j ≠ i → t1.n j = t.n j ∧ t1.p j = t.p j ∧ t1.lbm j = t.lbm j ∧ t1.ubm j = t.ubm j := fun j hj => by
        simp [t1, upd, hj]
      obtain ⟨t', B', c', a1, a2, a3⟩ := boxLoop k id is nd' t1 (h.put id B1) true B1 (by simp [Heap.put])
        (fun j hj => by rw [hB1 j hj]; exact w j (List.mem_cons_of_mem _ hj))
        (fun j hj q => by
          have hj' : j ≠ i := fun q => hi (q ▸ hj)
          rw [hB1 j hj] at q ⊢
          obtain ⟨b0, b1, b2, b3⟩ := ht1 j hj'
          have := sy j (List.mem_cons_of_mem _ hj) (by rw [← b0]; exact q)
          unfold Right at this ⊢
          rw [b1, b2, b3]; exact this)
      rw [put_put] at a1
      refine ⟨t', B', c', ?_, ?_, fun q => by have := (a3 q).1; cases this⟩
      · rw [List.foldlM_cons]
        simp only [boxStep, get_some hB, Res.ok_bind, if_neg e, m1, m3, Res.pure_eq]
        exact a1
      · refine ⟨a2.size, fun j hj => ?_, fun j hj => ?_, fun j hj => ?_, a2.N, a2.gen, a2.data, fun k' j hj => ?_,
          fun j hj => ?_⟩
        · have h1 : j ∉ is := fun q => hj (List.mem_cons_of_mem _ q)
          have h2 : j ≠ i := fun q => hj (q ▸ List.mem_cons_self)
          obtain ⟨c0, c1, c2, c3⟩ := a2.other j h1
          obtain ⟨b0, b1, b2, b3⟩ := ht1 j h2
          exact ⟨c0.trans b0, c1.trans b1, c2.trans b2, c3.trans b3⟩
        · rcases List.mem_cons.1 hj with rfl | hj
          · rw [(a2.other j hi).1]; simp [t1, upd]
          · rw [a2.n j hj, hB1 j hj]
        · rcases List.mem_cons.1 hj with rfl | hj
          · obtain ⟨-, b1, b2, b3⟩ := a2.other j hi
            right
            rw [b1, b2, b3]
            simp [t1, upd]
          · have := a2.right j hj
            rw [hB1 j hj] at this
            exact this
        · rw [a2.boxOther k' j fun q => hj ⟨q.1, List.mem_cons_of_mem _ q.2⟩]
          have : ¬(k' = k ∧ j = i) := fun q => hj ⟨q.1, q.2 ▸ List.mem_cons_self⟩
          simp only [B1, if_neg this]
        · rcases List.mem_cons.1 hj with rfl | hj
          · rw [a2.boxOther k j fun q => hi q.2]
            simp only [B1, and_self, if_true]
            exact ⟨rfl, rfl, m2, m4⟩
          · have := a2.box j hj
            rw [hB1 j hj] at this
            exact this

/-- Result of the loop over the general constraints of the stages `is`, none of which is zero. -/
structure GenDone (id : Nat) (t : GenTab K) (B : Buf K M) (is : List Nat) (t' : GenTab K) (B' : Buf K M) : Prop where
  size : t'.size = t.size
  other : ∀ i, i ∉ is → t'.n i = t.n i ∧ t'.p i = t.p i ∧ t'.lbm i = t.lbm i ∧ t'.ubm i = t.ubm i
  zero : t'.lb0 = t.lb0 ∧ t'.ub0 = t.ub0
  n : ∀ i ∈ is, t'.n i = (B.gen i).count
  right : ∀ i ∈ is, t'.p i = some ⟨id, i⟩ ∧ t'.lbm i = pat absentLb (B.gen i).count (B.gen i).lb ∧
    t'.ubm i = pat absentUb (B.gen i).count (B.gen i).ub
  N : B'.N = B.N
  box : B'.box = B.box
  data : B'.data = B.data
  genOther : ∀ i, i ∉ is → B'.gen i = B.gen i
  gen : ∀ i ∈ is, (B'.gen i).C = (B.gen i).C ∧ (B'.gen i).D = (B.gen i).D ∧ (B'.gen i).count = (B.gen i).count ∧
    Kept absentLb (B.gen i).lb (B'.gen i).lb ∧ Kept absentUb (B.gen i).ub (B'.gen i).ub

theorem sized_of {g : Gen K}
    (w : g.C.length = g.count ∧ g.D.length = g.count ∧ g.lb.length = g.count ∧ g.ub.length = g.count) :
    g.sized = true := by
  simp [Gen.sized, w]

theorem genLoop (id : Nat) : ∀ (is : List Nat), is.Nodup → 0 ∉ is → ∀ (t : GenTab K) (h : Heap K M) (c : Bool)
    (B : Buf K M), h id = some B →
    (∀ i ∈ is, (B.gen i).C.length = (B.gen i).count ∧ (B.gen i).D.length = (B.gen i).count ∧
      (B.gen i).lb.length = (B.gen i).count ∧ (B.gen i).ub.length = (B.gen i).count) →
    ∃ t' B' c', is.foldlM (genStep id) (t, h, c) = .ok (t', h.put id B', c') ∧ GenDone id t B is t' B' ∧
      (c' = false → c = false ∧ t'.n = t.n)
  | [], _, _, t, h, c, B, hB, _ =>
    ⟨t, B, c, by rw [put_self hB]; rfl, ⟨rfl, fun _ _ => ⟨rfl, rfl, rfl, rfl⟩, ⟨rfl, rfl⟩, by simp, by simp, rfl, rfl,
      rfl, fun _ _ => rfl, by simp⟩, fun e => ⟨e, rfl⟩⟩
  | i :: is, nd, nz, t, h, c, B, hB, w => by
    have hi : i ∉ is := (List.nodup_cons.1 nd).1
    have nd' := (List.nodup_cons.1 nd).2
    have hi0 : i ≠ 0 := fun q => nz (q ▸ List.mem_cons_self)
    have wi := w i List.mem_cons_self
    obtain ⟨l, m1, m2⟩ := mask_spec absentLb (B.gen i).count (B.gen i).lb (le_of_eq wi.2.2.1.symm)
    obtain ⟨u, m3, m4⟩ := mask_spec absentUb (B.gen i).count (B.gen i).ub (le_of_eq wi.2.2.2.symm)
    let t1 : GenTab K := { t with n := upd t.n i (B.gen i).count, p := upd t.p i (some ⟨id, i⟩), lbm := upd t.lbm i (pat absentLb (B.gen i).count (B.gen i).lb), ubm := upd t.ubm i (pat absentUb (B.gen i).count (B.gen i).ub) }
    let B1 : Buf K M := { B with gen := upd B.gen i { B.gen i with lb := l, ub := u } }
    have hB1 : ∀ j, j ≠ i → B1.gen j = B.gen j := fun j hj => by simp [B1, upd, hj]
    have ht1 : ∀ j, j ≠ i → t1.n j = t.n j ∧ t1.p j = t.p j ∧ t1.lbm j = t.lbm j ∧ t1.ubm j = t.ubm j := fun j hj => by
      simp [t1, upd, hj]
    have hne : ∀ j ∈ is, j ≠ i := fun j hj q => hi (q ▸ hj)
    obtain ⟨t', B', c', a1, a2, a3⟩ := genLoop id is nd' (fun q => nz (List.mem_cons_of_mem _ q)) t1 (h.put id B1)
      (c || decide (t.n i ≠ (B.gen i).count)) B1 (by simp [Heap.put])
      (fun j hj => by rw [hB1 j (hne j hj)]; exact w j (List.mem_cons_of_mem _ hj))
    rw [put_put] at a1
    refine ⟨t', B', c', ?_, ?_, fun q => ?_⟩
    · rw [List.foldlM_cons]
      simp only [genStep, get_some hB, Res.ok_bind, sized_of wi, if_true, if_neg hi0, m1, m3, Res.pure_eq]
      exact a1
    · refine ⟨a2.size, fun j hj => ?_, a2.zero, fun j hj => ?_, fun j hj => ?_, a2.N, a2.box, a2.data, fun j hj => ?_,
        fun j hj => ?_⟩
      · have h1 : j ∉ is := fun q => hj (List.mem_cons_of_mem _ q)
        have h2 : j ≠ i := fun q => hj (q ▸ List.mem_cons_self)
        obtain ⟨c0, c1, c2, c3⟩ := a2.other j h1
        obtain ⟨b0, b1, b2, b3⟩ := ht1 j h2
        exact ⟨c0.trans b0, c1.trans b1, c2.trans b2, c3.trans b3⟩
      · rcases List.mem_cons.1 hj with rfl | hj
        · rw [(a2.other j hi).1]; simp [t1, upd]
        · rw [a2.n j hj, hB1 j (hne j hj)]
      · rcases List.mem_cons.1 hj with rfl | hj
        · obtain ⟨-, b1, b2, b3⟩ := a2.other j hi
          rw [b1, b2, b3]
          simp [t1, upd]
        · have := a2.right j hj
          rw [hB1 j (hne j hj)] at this
          exact this
      · rw [a2.genOther j fun q => hj (List.mem_cons_of_mem _ q)]
        exact hB1 j fun q => hj (q ▸ List.mem_cons_self)
      · rcases List.mem_cons.1 hj with rfl | hj
        · rw [a2.genOther j hi]
          simp only [B1, upd, if_true]
          exact ⟨trivial, trivial, trivial, m2, m4⟩
        · have := a2.gen j hj
          rw [hB1 j (hne j hj)] at this
          exact this
    · obtain ⟨q1, q2⟩ := a3 q
      simp only [Bool.or_eq_false_iff, decide_eq_false_iff_not, not_not] at q1
      refine ⟨q1.1, ?_⟩
      rw [q2]
      funext j
      by_cases hj : j = i
      · subst hj; simp [t1, upd, q1.2]
      · exact (ht1 j hj).1

theorem resize_spec (t : BoxTab) (N : Nat) : (t.resize N).1.size = N + 1 ∧
    (∀ i < N + 1, i < t.size → (t.resize N).1.n i = t.n i ∧ (t.resize N).1.p i = t.p i ∧
      (t.resize N).1.lbm i = t.lbm i ∧ (t.resize N).1.ubm i = t.ubm i) ∧
    (∀ i < N + 1, ¬ i < t.size → (t.resize N).1.n i = 0) ∧
    ((t.resize N).2 = false → (t.resize N).1 = t ∧ t.size = N + 1) := by
  unfold BoxTab.resize
  by_cases e : t.size = N + 1
  · simp only [if_pos e]
    exact ⟨e, fun _ _ _ => ⟨trivial, trivial, trivial, trivial⟩, fun i h1 h2 => by omega, fun _ => ⟨trivial, e⟩⟩
  · simp only [if_neg e]
    refine ⟨trivial, fun i h1 h2 => by simp [h1, h2], fun i h1 h2 => by simp [h2], fun h => by cases h⟩

omit [Ring K] [LinearOrder K] in
theorem resize_spec' (t : GenTab K) (N : Nat) : (t.resize N).1.size = N + 1 ∧
    ((t.resize N).2 = false → (t.resize N).1 = t ∧ t.size = N + 1) := by
  unfold GenTab.resize
  by_cases e : t.size = N + 1
  · simp only [if_pos e]
    exact ⟨e, fun _ => ⟨trivial, e⟩⟩
  · simp only [if_neg e]
    exact ⟨trivial, fun h => by cases h⟩

/-- The table is up to date for the stage, or its count differs so that it will be brought up to date. -/
def Sync (t : BoxTab) (id i : Nat) (b : Box K) : Prop := i < t.size → t.n i = b.count → Right t id i b

theorem resize_sync {t : BoxTab} {N id i : Nat} {b : Box K} (h : Sync t id i b) (hi : i < N + 1)
    (e : (t.resize N).1.n i = b.count) : Right (t.resize N).1 id i b := by
  obtain ⟨-, r2, r3, -⟩ := resize_spec t N
  by_cases hs : i < t.size
  · obtain ⟨e0, e1, e2, e3⟩ := r2 i hi hs
    have := h hs (by rw [← e0]; exact e)
    unfold Right at this ⊢
    rw [e1, e2, e3]; exact this
  · left; rw [← e]; exact r3 i hi hs

theorem configureInput_spec {n m : Nat} (t : BoxTab) {h : Heap K M} {id : Nat} {B : Buf K M} (hB : h id = some B)
    (w : B.WF n m) (hs : ∀ i < B.N, Sync t id i (B.box .u i)) (hN : B.N < t.size → t.n B.N = 0) :
    ∃ t' B' c', configureInput t h id = .ok (t', h.put id B', c') ∧
      BoxDone .u id (t.resize B.N).1 B (List.range B.N) t' B' ∧ t'.size = B.N + 1 ∧ t'.n B.N = 0 ∧
      (c' = false → t'.n = t.n) := by
  obtain ⟨r1, r2, r3, r4⟩ := resize_spec t B.N
  obtain ⟨t', B', c', a1, a2, a3⟩ := boxLoop .u id (List.range B.N) List.nodup_range (t.resize B.N).1 h (t.resize B.N).2 B
    hB (fun i hi => (w.boxU i (List.mem_range.1 hi)).2)
    (fun i hi e => resize_sync (hs i (List.mem_range.1 hi)) (by have := List.mem_range.1 hi; omega) e)
  refine ⟨t', B', c', ?_, a2, a2.size.trans r1, ?_, fun e => ?_⟩
  · simp only [configureInput, get_some hB, Res.ok_bind]
    exact a1
  · rw [(a2.other B.N (by simp)).1]
    by_cases hs : B.N < t.size
    · rw [(r2 B.N (by omega) hs).1, hN hs]
    · exact r3 B.N (by omega) hs
  · rw [(a3 e).2, (r4 (a3 e).1).1]

theorem configureState_spec (t : BoxTab) {h : Heap K M} {id : Nat} {B : Buf K M} (hB : h id = some B)
    (w : ∀ i, 1 ≤ i → i ≤ B.N → (B.box .x i).count ≤ (B.box .x i).lb.length ∧ (B.box .x i).count ≤ (B.box .x i).ub.length)
    (hs : ∀ i, 1 ≤ i → i ≤ B.N → Sync t id i (B.box .x i)) (h0 : t.n 0 = 0) :
    ∃ t' B' c', configureState t h id = .ok (t', h.put id B', c') ∧
      BoxDone .x id { (t.resize B.N).1 with n := upd (t.resize B.N).1.n 0 0 } B (List.range' 1 B.N) t' B' ∧
      t'.size = B.N + 1 ∧ t'.n 0 = 0 ∧ (c' = false → t'.n = t.n) := by
  obtain ⟨r1, r2, r3, r4⟩ := resize_spec t B.N
  have mem : ∀ i ∈ List.range' 1 B.N, 1 ≤ i ∧ i ≤ B.N := fun i hi => by
    have := List.mem_range'_1.1 hi; omega
  obtain ⟨t', B', c', a1, a2, a3⟩ := boxLoop .x id (List.range' 1 B.N) List.nodup_range'
    { (t.resize B.N).1 with n := upd (t.resize B.N).1.n 0 0 } h (t.resize B.N).2 B
    hB (fun i hi => w i (mem i hi).1 (mem i hi).2)
    (fun i hi e => by
      obtain ⟨m1, m2⟩ := mem i hi
      have hi0 : i ≠ 0 := by omega
      simp only [upd, if_neg hi0] at e
      exact resize_sync (hs i m1 m2) (by omega) e)
  refine ⟨t', B', c', ?_, a2, a2.size.trans r1, ?_, fun e => ?_⟩
  · simp only [configureState, get_some hB, Res.ok_bind]
    exact a1
  · rw [(a2.other 0 (by simp)).1]; simp [upd]
  · rw [(a3 e).2, (r4 (a3 e).1).1]
    funext i
    by_cases hi : i = 0
    · subst hi; simp [upd, h0]
    · simp [upd, hi]

theorem configureGeneral_spec (t : GenTab K) {h : Heap K M} {id : Nat} {B : Buf K M} (hB : h id = some B)
    (w : ∀ i ≤ B.N, (B.gen i).C.length = (B.gen i).count ∧ (B.gen i).D.length = (B.gen i).count ∧
      (B.gen i).lb.length = (B.gen i).count ∧ (B.gen i).ub.length = (B.gen i).count) :
    ∃ t' B' c', configureGeneral t h id = .ok (t', h.put id B', c') ∧ t'.size = B.N + 1 ∧ B'.N = B.N ∧ B'.box = B.box ∧
      B'.data = B.data ∧ (∀ i ≤ B.N, t'.n i = (B.gen i).count ∧ t'.p i = some ⟨id, i⟩ ∧
        t'.lbm i = pat absentLb (B.gen i).count (B.gen i).lb ∧ t'.ubm i = pat absentUb (B.gen i).count (B.gen i).ub ∧
        (B'.gen i).C = (B.gen i).C ∧ (B'.gen i).D = (B.gen i).D ∧
        Kept absentLb (B.gen i).lb (if i = 0 then t'.lb0 else (B'.gen i).lb) ∧
        Kept absentUb (B.gen i).ub (if i = 0 then t'.ub0 else (B'.gen i).ub)) ∧
      (c' = false → t'.n = t.n) := by
  obtain ⟨r1, r4⟩ := resize_spec' t B.N
  have w0 := w 0 (Nat.zero_le _)
  obtain ⟨l, m1, m2⟩ := mask_spec absentLb (B.gen 0).count (B.gen 0).lb (le_of_eq w0.2.2.1.symm)
  obtain ⟨u, m3, m4⟩ := mask_spec absentUb (B.gen 0).count (B.gen 0).ub (le_of_eq w0.2.2.2.symm)
  let tr := (t.resize B.N).1
  let t1 : GenTab K := { tr with n := upd tr.n 0 (B.gen 0).count, p := upd tr.p 0 (some ⟨id, 0⟩), lbm := upd tr.lbm 0 (pat absentLb (B.gen 0).count (B.gen 0).lb), ubm := upd tr.ubm 0 (pat absentUb (B.gen 0).count (B.gen 0).ub), lb0 := l, ub0 := u }
  obtain ⟨t', B', c', a1, a2, a3⟩ := genLoop id (List.range' 1 B.N) List.nodup_range' (by simp) t1 h
    ((t.resize B.N).2 || decide (tr.n 0 ≠ (B.gen 0).count)) B hB
    (fun i hi => w i (by have := List.mem_range'_1.1 hi; omega))
  refine ⟨t', B', c', ?_, a2.size.trans r1, a2.N, a2.box, a2.data, fun i hi => ?_, fun e => ?_⟩
  · have hr : List.range (B.N + 1) = 0 :: List.range' 1 B.N := by
      rw [List.range_eq_range', List.range'_succ]
    simp only [configureGeneral, get_some hB, Res.ok_bind, hr]
    rw [List.foldlM_cons]
    simp only [genStep, get_some hB, Res.ok_bind, sized_of w0, if_true, m1, m3, Res.pure_eq]
    exact a1
  · by_cases hi0 : i = 0
    · subst hi0
      obtain ⟨b0, b1, b2, b3⟩ := a2.other 0 (by simp)
      rw [b0, b1, b2, b3, a2.genOther 0 (by simp), if_pos rfl, if_pos rfl, a2.zero.1, a2.zero.2]
      refine ⟨by simp [t1, upd], by simp [t1, upd], by simp [t1, upd], by simp [t1, upd], rfl, rfl, m2, m4⟩
    · have hm : i ∈ List.range' 1 B.N := List.mem_range'_1.2 (by omega)
      obtain ⟨g1, g2, -, g3, g4⟩ := a2.gen i hm
      obtain ⟨q1, q2, q3⟩ := a2.right i hm
      rw [if_neg hi0, if_neg hi0]
      exact ⟨a2.n i hm, q1, q2, q3, g1, g2, g3, g4⟩
  · obtain ⟨q1, q2⟩ := a3 e
    simp only [Bool.or_eq_false_iff, decide_eq_false_iff_not, not_not] at q1
    rw [q2]
    have ht := (r4 q1.1).1
    funext j
    by_cases hj : j = 0
    · subst hj
      have := q1.2
      simp only [tr] at this
      rw [ht] at this
      simp [t1, upd, this]
    · simp only [t1, upd, if_neg hj, tr]
      rw [ht]

/-! ### The copy made by HPIPM -/

theorem mapM_exists {α β : Type} {f : α → Res β} {P : α → β → Prop} : ∀ (l : List α),
    (∀ a ∈ l, ∃ b, f a = .ok b ∧ P a b) → ∃ bs, l.mapM f = .ok bs ∧ bs.length = l.length ∧
      ∀ (j : Nat) (a : α) (b : β), l[j]? = some a → bs[j]? = some b → P a b
  | [], _ => ⟨[], rfl, rfl, by simp⟩
  | a :: l, h => by
    obtain ⟨b, h1, h2⟩ := h a List.mem_cons_self
    obtain ⟨bs, h3, h4, h5⟩ := mapM_exists l (fun c hc => h c (List.mem_cons_of_mem _ hc))
    refine ⟨b :: bs, by simp [List.mapM_cons, h1, h3, Res.ok_bind, Res.pure_eq], by simp [h4], fun j c d hc hd => ?_⟩
    cases j with
    | zero => simp at hc hd; subst hc hd; exact h2
    | succ j => exact h5 j c d (by simpa using hc) (by simpa using hd)

theorem mapM_range {β : Type} {f : Nat → Res β} {P : Nat → β → Prop} (k : Nat)
    (h : ∀ i < k, ∃ b, f i = .ok b ∧ P i b) : ∃ bs, (List.range k).mapM f = .ok bs ∧ bs.length = k ∧
      ∀ i b, bs[i]? = some b → P i b := by
  obtain ⟨bs, h1, h2, h3⟩ := mapM_exists (P := P) (List.range k) (fun a ha => h a (List.mem_range.1 ha))
  rw [List.length_range] at h2
  refine ⟨bs, h1, h2, fun i b hb => h3 i i b ?_ hb⟩
  have : i < k := by rw [← h2]; exact (List.getElem?_eq_some_iff.1 hb).1
  simp [this]

theorem snapBox_spec {h : Heap K M} {id : Nat} {B : Buf K M} (hB : h id = some B) (k : Kind) {t : BoxTab} {i : Nat}
    {b : Box K} (hr : Right t id i b) (hk : KeptBox b (B.box k i))
    (w : b.count ≤ b.I.length ∧ b.count ≤ b.lb.length ∧ b.count ≤ b.ub.length) :
    ∃ q, snapBox h k t b.count i = .ok q ∧ ∀ z, q.Admits z ↔ b.Admits z := by
  by_cases e : b.count = 0
  · refine ⟨⟨[], [], [], [], []⟩, by simp [snapBox, e], fun z => ⟨fun _ j c l u hj => by omega, fun _ j c l u lm hm hc => ?_⟩⟩
    simp at hc
  · rcases hr with hr | ⟨h1, h2, h3⟩
    · exact absurd hr e
    · refine ⟨_, ?_, qpBox_iff hk.I hk.lb hk.ub w⟩
      have p1 := pat_length absentLb _ _ w.2.1
      have p2 := pat_length absentUb _ _ w.2.2
      simp only [snapBox, if_neg e, h1, deref, get_some hB, Res.ok_bind, Res.pure_eq, h2, h3]
      rw [if_neg]
      · rw [List.take_of_length_le (le_of_eq p1), List.take_of_length_le (le_of_eq p2)]
      · rw [p1, p2, hk.I, hk.lb.1, hk.ub.1]; omega

theorem snapGen_spec {h : Heap K M} {id : Nat} {B : Buf K M} (hB : h id = some B) {t : GenTab K} {i : Nat} {g : Gen K}
    (hp : t.p i = some ⟨id, i⟩) (h2 : t.lbm i = pat absentLb g.count g.lb) (h3 : t.ubm i = pat absentUb g.count g.ub)
    (hC : (B.gen i).C = g.C) (hD : (B.gen i).D = g.D) (hl : Kept absentLb g.lb (if i = 0 then t.lb0 else (B.gen i).lb))
    (hu : Kept absentUb g.ub (if i = 0 then t.ub0 else (B.gen i).ub))
    (w : g.C.length = g.count ∧ g.D.length = g.count ∧ g.lb.length = g.count ∧ g.ub.length = g.count) {n m : Nat}
    (cols : (∀ c ∈ g.C, c.length = n) ∧ ∀ d ∈ g.D, d.length = m) :
    ∃ q, snapGen h t g.count i = .ok q ∧ ∀ (nx nu : Nat) (x u : Nat → K), (nx = n ∨ (nx = 0 ∧ x = 0)) →
      (nu = m ∨ (nu = 0 ∧ u = 0)) → (q.Admits nx nu x u ↔ g.Admits x u) := by
  by_cases e : g.count = 0
  · refine ⟨⟨[], [], [], [], [], []⟩, by simp [snapGen, e], fun nx nu x u _ _ => ⟨fun _ j c d l h hj => by omega,
      fun _ j c d l h lm hm hc => ?_⟩⟩
    simp at hc
  · refine ⟨_, ?_, fun nx nu x u hx hu' => qpGen_iff hl hu w cols hx hu'⟩
    have p1 := pat_length absentLb g.count g.lb (le_of_eq w.2.2.1.symm)
    have p2 := pat_length absentUb g.count g.ub (le_of_eq w.2.2.2.symm)
    simp only [snapGen, if_neg e, hp, deref, get_some hB, Res.ok_bind, Res.pure_eq, h2, h3, hC, hD]
    rw [if_neg]
    · rw [List.take_of_length_le (le_of_eq p1), List.take_of_length_le (le_of_eq p2)]
    · rw [p1, p2, hl.1, hu.1]; omega

theorem mapM_map {β : Type} {f : Nat → Res β} {F : Nat → β} (k : Nat) (h : ∀ i < k, f i = .ok (F i)) :
    (List.range k).mapM f = .ok ((List.range k).map F) := by
  obtain ⟨bs, h1, h2, h3⟩ := mapM_range (P := fun i b => b = F i) k (fun i hi => ⟨F i, h i hi, rfl⟩)
  rw [h1]
  congr 1
  refine List.ext_getElem? fun i => ?_
  by_cases hi : i < k
  · obtain ⟨b, hb⟩ := get_of_lt (l := bs) (j := i) (by omega)
    rw [hb, h3 i b hb]; simp [hi]
  · rw [List.getElem?_eq_none (by omega), List.getElem?_eq_none (by simp; omega)]

theorem snapData_spec (s : Iface K M) {h : Heap K M} {id : Nat} {B B' : Buf K M} (hB : h id = some B') (e : B'.data = B.data)
    (f : Fld) (i : Nat) (hi : i < f.stages B.N) :
    snapData (setupCostAndDynamics s B id) h f i = .ok (B.data f i) := by
  have hp : (setupCostAndDynamics s B id).hp f i = some ⟨id, i⟩ := by simp [setupCostAndDynamics, hi]
  have hd : (do
      let b ← deref h ((setupCostAndDynamics s B id).hp f i)
      pure (b.1.data f b.2) : Res M) = .ok (B.data f i) := by
    simp only [hp, deref, get_some hB, Res.ok_bind, Res.pure_eq, e]
  unfold snapData
  by_cases h0 : i = 0
  · subst h0
    rw [if_pos rfl]
    cases f <;> first | exact hd | rfl
  · rw [if_neg h0]; exact hd

/-- Between calls: nothing set yet, or the dimensions of the allocation are those in the tables. -/
def Inv (n m : Nat) (s : Iface K M) : Prop :=
  s.bx.n 0 = 0 ∧ ((s.N = none ∧ s.nuSize = 0) ∨ ∃ N, s.N = some N ∧ s.nuSize = N + 1 ∧
    (∀ i ≤ N, s.nu i = if i = N then 0 else m) ∧ (∀ i ≤ N, s.nx i = if i = 0 then 0 else n) ∧
    s.dims = some ⟨N, s.nx, s.nu, s.bx.n, s.bu.n, s.g.n⟩)

/-- After the problem `B` in block `id` has been set: the tables are right for it. -/
structure Ready (s : Iface K M) (id : Nat) (B : Buf K M) : Prop where
  sizes : s.bu.size = B.N + 1 ∧ s.bx.size = B.N + 1
  input : ∀ i < B.N, s.bu.n i = (B.box .u i).count ∧ Right s.bu id i (B.box .u i)
  last : s.bu.n B.N = 0
  state : ∀ i, 1 ≤ i → i ≤ B.N → s.bx.n i = (B.box .x i).count ∧ Right s.bx id i (B.box .x i)

theorem changeProblemSize_dims {n m : Nat} {s : Iface K M} (inv : Inv n m s) {h : Heap K M} {id : Nat} {B : Buf K M}
    (hB : h id = some B) (hN0 : 0 < B.N) {u x : BoxTab × Heap K M × Bool} {g : GenTab K × Heap K M × Bool}
    (hu : configureInput s.bu h id = .ok u) (hx : configureState s.bx u.2.1 id = .ok x)
    (hg : configureGeneral s.g x.2.1 id = .ok g) (cu : u.2.2 = false → u.1.n = s.bu.n) (cx : x.2.2 = false → x.1.n = s.bx.n)
    (cg : g.2.2 = false → g.1.n = s.g.n) (x0 : x.1.n 0 = 0) :
    ∃ s1 c, changeProblemSize n m s h id = .ok (s1, g.2.1, c) ∧ s1.N = some B.N ∧ s1.bu = u.1 ∧ s1.bx = x.1 ∧ s1.g = g.1 ∧
      s1.nuSize = B.N + 1 ∧ (∀ i ≤ B.N, s1.nu i = if i = B.N then 0 else m) ∧
      (∀ i ≤ B.N, s1.nx i = if i = 0 then 0 else n) ∧
      (c = false → s1.dims = some ⟨B.N, s1.nx, s1.nu, s1.bx.n, s1.bu.n, s1.g.n⟩) := by
  simp only [changeProblemSize, get_some hB, Res.ok_bind, hu, hx, hg]
  by_cases e : (!decide (s.N ≠ some B.N) && !(u.2.2 || x.2.2 || g.2.2)) = true
  · rw [if_pos e]
    simp only [Bool.and_eq_true, Bool.not_eq_true', decide_eq_false_iff_not, not_not, Bool.or_eq_false_iff] at e
    obtain ⟨e1, ⟨e2, e3⟩, e4⟩ := e
    obtain ⟨i0, i1 | ⟨N, j1, j2, j3, j4, j5⟩⟩ := inv
    · rw [i1.1] at e1; cases e1
    · rw [j1, Option.some.injEq] at e1
      subst e1
      refine ⟨_, false, rfl, rfl, rfl, rfl, rfl, j2, j3, j4, fun _ => ?_⟩
      simp only [j5, cu e2, cx e3, cg e4]
  · rw [if_neg e, if_neg (by omega)]
    refine ⟨_, true, rfl, rfl, rfl, rfl, rfl, rfl, fun i hi => ?_, fun i hi => ?_, fun q => by cases q⟩
    · simp only [upd]
      by_cases q : i = B.N
      · simp [q]
      · rw [if_neg q, if_neg q]
        obtain ⟨i0, i1 | ⟨N, j1, j2, j3, j4, j5⟩⟩ := inv
        · rw [i1.2, if_neg (by omega)]
        · split_ifs with q2
          · rw [j2] at q2; rw [j3 i (by omega), if_neg (by omega)]
          · rfl
    · simp only [upd]
      by_cases q : i = 0
      · simp [q]
      · rw [if_neg q, if_neg q]
        obtain ⟨i0, i1 | ⟨N, j1, j2, j3, j4, j5⟩⟩ := inv
        · rw [i1.2, if_neg (by omega)]
        · split_ifs with q2
          · rw [j2] at q2; rw [j4 i (by omega), if_neg q]
          · rfl

/-- Setting a problem for which the tables are in order. -/
theorem setProblem_spec {n m : Nat} {s : Iface K M} (inv : Inv n m s) {h : Heap K M} {id : Nat} {B : Buf K M}
    (hB : h id = some B) (w : B.WF n m) (hu : ∀ i < B.N, Sync s.bu id i (B.box .u i))
    (hx : ∀ i, 1 ≤ i → i ≤ B.N → Sync s.bx id i (B.box .x i)) (hN : B.N < s.bu.size → s.bu.n B.N = 0) :
    ∃ s' B' q, setProblem n m s h id = .ok (s', h.put id B') ∧ s'.qp = some q ∧ Represents n m q B ∧ Inv n m s' ∧
      Ready s' id B := by
  obtain ⟨tu, B1, c1, a1, a2, a3, a4, a5⟩ := configureInput_spec s.bu hB w hu hN
  have hB1 : (h.put id B1) id = some B1 := by simp [Heap.put]
  have x1 : ∀ i, B1.box .x i = B.box .x i := fun i => a2.boxOther .x i (by simp)
  obtain ⟨tx, B2, c2, b1, b2, b3, b4, b5⟩ := configureState_spec s.bx hB1
    (fun i h1 h2 => by rw [a2.N] at h2; rw [x1]; exact (w.boxX i h1 h2).2)
    (fun i h1 h2 => by rw [a2.N] at h2; rw [x1]; exact hx i h1 h2) inv.1
  rw [put_put] at b1
  have hB2 : (h.put id B2) id = some B2 := by simp [Heap.put]
  have g2 : B2.gen = B.gen := b2.gen.trans a2.gen
  have N2 : B2.N = B.N := b2.N.trans a2.N
  obtain ⟨tg, B3, c3, d1, d2, d3, d4, d5, d6, d7⟩ := configureGeneral_spec s.g hB2
    (fun i hi => by rw [g2]; rw [N2] at hi; exact w.gen i hi)
  rw [put_put] at d1
  have hB3 : (h.put id B3) id = some B3 := by simp [Heap.put]
  obtain ⟨s1, c, e1, e2, e3, e4, e5, e6, e7, e8, e9⟩ := changeProblemSize_dims inv hB w.pos a1 b1 d1 a5 b5 d7 b4
  have N3 : B3.N = B.N := d3.trans N2
  have D3 : B3.data = B.data := d5.trans (b2.data.trans a2.data)
  let s2 := setupCostAndDynamics s1 B3 id
  let d : Dims := ⟨B.N, s1.nx, s1.nu, tx.n, tu.n, tg.n⟩
  rw [a2.N] at b2 b3
  rw [N2, g2] at d6
  rw [N2] at d2
  -- boxes
  obtain ⟨bu, u1, u2, u3⟩ := mapM_range (f := fun i => snapBox (h.put id B3) Kind.u tu (tu.n i) i)
    (P := fun i q => ∀ z, q.Admits z ↔ (i < B.N → (B.box .u i).Admits z)) (B.N + 1) (fun i hi => by
      by_cases e : i < B.N
      · have hm := List.mem_range.2 e
        have hk : KeptBox (B.box .u i) (B3.box .u i) := by
          rw [d4, b2.boxOther .u i (by simp)]; exact a2.box i hm
        obtain ⟨q, q1, q2⟩ := snapBox_spec hB3 .u (a2.right i hm) hk (w.boxU i e)
        exact ⟨q, by rw [a2.n i hm]; exact q1, fun z => by rw [q2]; exact ⟨fun k _ => k, fun k => k e⟩⟩
      · obtain rfl : i = B.N := by omega
        refine ⟨⟨[], [], [], [], []⟩, by simp [snapBox, a4], fun z => ⟨fun _ k => absurd k e, fun _ j c l hh lm hm hc => ?_⟩⟩
        simp at hc)
  obtain ⟨bx, v1, v2, v3⟩ := mapM_range (f := fun i => snapBox (h.put id B3) Kind.x tx (tx.n i) i)
    (P := fun i q => ∀ z, q.Admits z ↔ (1 ≤ i → (B.box .x i).Admits z)) (B.N + 1) (fun i hi => by
      by_cases e : 1 ≤ i
      · have hm : i ∈ List.range' 1 B.N := List.mem_range'_1.2 (by omega)
        have hk : KeptBox (B.box .x i) (B3.box .x i) := by
          rw [d4, ← x1]; exact b2.box i hm
        have hr := b2.right i hm
        have hn := b2.n i hm
        rw [x1] at hr hn
        obtain ⟨q, q1, q2⟩ := snapBox_spec hB3 .x hr hk (w.boxX i e (by omega))
        exact ⟨q, by rw [hn]; exact q1, fun z => by rw [q2]; exact ⟨fun k _ => k, fun k => k e⟩⟩
      · obtain rfl : i = 0 := by omega
        refine ⟨⟨[], [], [], [], []⟩, by simp [snapBox, b4], fun z => ⟨fun _ k => absurd k e, fun _ j c l hh lm hm hc => ?_⟩⟩
        simp at hc)
  obtain ⟨gs, w1, w2, w3⟩ := mapM_range (f := fun i => snapGen (h.put id B3) tg (tg.n i) i)
    (P := fun i q => ∀ (nx nu : Nat) (x u : Nat → K), (nx = n ∨ (nx = 0 ∧ x = 0)) → (nu = m ∨ (nu = 0 ∧ u = 0)) →
      (q.Admits nx nu x u ↔ (B.gen i).Admits x u)) (B.N + 1) (fun i hi => by
      obtain ⟨f1, f2, f3, f4, f5, f6, f7, f8⟩ := d6 i (by omega)
      rw [f1]
      exact snapGen_spec hB3 f2 f3 f4 f5 f6 f7 f8 (w.gen i (by omega)) (w.cols i (by omega)))
  have hd : ∀ f : Fld, (List.range (f.stages B.N)).mapM (snapData s2 (h.put id B3) f)
      = .ok ((List.range (f.stages B.N)).map (B.data f)) := fun f =>
    mapM_map _ fun i hi => by
      have := snapData_spec s1 (B := B3) hB3 rfl f i (by rw [N3]; exact hi)
      rw [D3] at this
      exact this
  let q : Qp K M := ⟨d, fun k => match k with | .u => bu | .x => bx, gs,
    fun f => (List.range (f.stages B.N)).map (B.data f)⟩
  have hset : setAll s2 (h.put id B3) d = .ok q := by
    have E1 : s2.bu = tu := e3
    have E2 : s2.bx = tx := e4
    have E3 : s2.g = tg := e5
    simp only [setAll, E1, E2, E3, d]
    rw [u1, Res.ok_bind, v1, Res.ok_bind, w1, Res.ok_bind]
    simp only [hd, Res.ok_bind, Res.pure_eq, q]
    congr 2
    funext f
    cases f <;> rfl
  refine ⟨{ s2 with dims := some d, qp := some q }, B3, q, ?_, rfl, ?_, ?_, ?_⟩
  rotate_left
  · -- Represents
    refine ⟨rfl, e8, e7, a4, fun f => rfl, ⟨u2, v2, w2⟩, fun x u hx0 huN => ?_⟩
    have gx : ∀ i ≤ B.N, s1.nx i = n ∨ (s1.nx i = 0 ∧ x i = 0) := fun i hi => by
      rw [e8 i hi]; by_cases q : i = 0
      · subst q; exact Or.inr ⟨if_pos rfl, hx0⟩
      · exact Or.inl (if_neg q)
    have gu : ∀ i ≤ B.N, s1.nu i = m ∨ (s1.nu i = 0 ∧ u i = 0) := fun i hi => by
      rw [e7 i hi]; by_cases q : i = B.N
      · subst q; exact Or.inr ⟨if_pos rfl, huN⟩
      · exact Or.inl (if_neg q)
    constructor
    · intro H
      refine ⟨fun i hi => ?_, fun i h1 h2 => ?_, fun i hi => ?_⟩
      · obtain ⟨b, hb⟩ := get_of_lt (l := bu) (j := i) (by omega)
        exact (u3 i b hb _).1 ((H i (show i ≤ B.N by omega)).1 b hb) hi
      · obtain ⟨b, hb⟩ := get_of_lt (l := bx) (j := i) (by omega)
        exact (v3 i b hb _).1 ((H i h2).2.1 b hb) h1
      · obtain ⟨g, hg⟩ := get_of_lt (l := gs) (j := i) (by omega)
        exact (w3 i g hg _ _ _ _ (gx i hi) (gu i hi)).1 ((H i hi).2.2 g hg)
    · rintro ⟨H1, H2, H3⟩ i hi
      have hi' : i ≤ B.N := hi
      refine ⟨fun b hb => (u3 i b hb _).2 fun q => H1 i q, fun b hb => (v3 i b hb _).2 fun q => H2 i q hi', fun g hg => ?_⟩
      exact (w3 i g hg _ _ _ _ (gx i hi') (gu i hi')).2 (H3 i hi')
  · -- Inv
    refine ⟨by show s1.bx.n 0 = 0; rw [e4]; exact b4, Or.inr ⟨B.N, e2, e6, e7, e8, ?_⟩⟩
    show some d = some ⟨B.N, s1.nx, s1.nu, s1.bx.n, s1.bu.n, s1.g.n⟩
    rw [e3, e4, e5]
  · -- Ready
    refine ⟨⟨by show s1.bu.size = _; rw [e3]; exact a3, by show s1.bx.size = _; rw [e4]; exact b3⟩, fun i hi => ?_,
      by show s1.bu.n _ = 0; rw [e3]; exact a4, fun i h1 h2 => ?_⟩
    · show s1.bu.n i = _ ∧ Right s1.bu id i _
      rw [e3]
      exact ⟨a2.n i (List.mem_range.2 hi), a2.right i (List.mem_range.2 hi)⟩
    · show s1.bx.n i = _ ∧ Right s1.bx id i _
      rw [e4]
      have hm : i ∈ List.range' 1 B.N := List.mem_range'_1.2 (by omega)
      have hr := b2.right i hm
      have hn := b2.n i hm
      rw [x1] at hr hn
      exact ⟨hn, hr⟩
  · -- the call
    simp only [setProblem, e1, Res.ok_bind, get_put]
    rw [show setupCostAndDynamics s1 B3 id = s2 from rfl]
    cases c with
    | true =>
      have hd1 : (⟨B3.N, s2.nx, s2.nu, s2.bx.n, s2.bu.n, s2.g.n⟩ : Dims) = d := by
        show (⟨B3.N, s1.nx, s1.nu, s1.bx.n, s1.bu.n, s1.g.n⟩ : Dims) = _
        rw [e3, e4, e5, N3]
      simp only [if_true, Res.ok_bind, hd1, hset, Res.pure_eq]
    | false =>
      have hd1 : s2.dims = some d := by
        show s1.dims = _
        rw [e9 rfl, e3, e4, e5]
      simp only [Bool.false_eq_true, if_false, hd1, Res.ok_bind, hset, Res.pure_eq]

end Loops

/-! ### C104 -/

section C104
variable [Ring K] [LinearOrder K]

/-- C104, first problem: a new interface hands HPIPM the problem it is given. -/
theorem C104_first {n m : Nat} {h : Heap K M} {id : Nat} {B : Buf K M} (hB : h id = some B) (w : B.WF n m) :
    ∃ s' h' q, setProblem n m Iface.new h id = .ok (s', h') ∧ s'.qp = some q ∧ Represents n m q B := by
  obtain ⟨s', B', q, h1, h2, h3, -, -⟩ := setProblem_spec (n := n) (m := m) (s := Iface.new)
    ⟨rfl, Or.inl ⟨rfl, rfl⟩⟩ hB w (fun i _ hi => by simp [Iface.new, BoxTab.empty] at hi)
    (fun i _ _ hi => by simp [Iface.new, BoxTab.empty] at hi) (fun hi => by simp [Iface.new, BoxTab.empty] at hi)
  exact ⟨s', _, q, h1, h2, h3⟩

/-- The later contents `B'` of the arrays of a problem: no fewer stages, and wherever the number of box constraints of a
stage is the same as before, the same bounds are absent. -/
structure Refilled (B B' : Buf K M) : Prop where
  stages : B.N ≤ B'.N
  boxes : ∀ k i, i ≤ B.N → (B.box k i).count = (B'.box k i).count →
    pat absentLb (B.box k i).count (B.box k i).lb = pat absentLb (B'.box k i).count (B'.box k i).lb ∧
    pat absentUb (B.box k i).count (B.box k i).ub = pat absentUb (B'.box k i).count (B'.box k i).ub

/-- The caller writes the contents of the arrays and sets the problem, several times. -/
def iterate (n m : Nat) (id : Nat) : List (Buf K M) → Iface K M → Heap K M → Res (Iface K M × Heap K M)
  | [], s, h => .ok (s, h)
  | B :: Bs, s, h => do
      let r ← setProblem n m s (h.put id B) id
      iterate n m id Bs r.1 r.2

theorem Ready.sync {s : Iface K M} {id : Nat} {B B' : Buf K M} (r : Ready s id B) (hB : Refilled B B') :
    (∀ i < B'.N, Sync s.bu id i (B'.box .u i)) ∧ (∀ i, 1 ≤ i → i ≤ B'.N → Sync s.bx id i (B'.box .x i)) ∧
      (B'.N < s.bu.size → s.bu.n B'.N = 0) := by
  have := hB.stages
  refine ⟨fun i hi hs e => ?_, fun i h1 h2 hs e => ?_, fun hs => ?_⟩
  · rw [r.sizes.1] at hs
    by_cases q : i < B.N
    · obtain ⟨r1, r2⟩ := r.input i q
      have hc : (B.box .u i).count = (B'.box .u i).count := by rw [← r1, e]
      obtain ⟨b1, b2⟩ := hB.boxes .u i q.le hc
      rcases r2 with r2 | ⟨r2, r3, r4⟩
      · exact Or.inl (by omega)
      · exact Or.inr ⟨r2, by rw [r3, b1], by rw [r4, b2]⟩
    · obtain rfl : i = B.N := by omega
      exact Or.inl (by rw [← e, r.last])
  · rw [r.sizes.2] at hs
    obtain ⟨r1, r2⟩ := r.state i h1 (by omega)
    have hc : (B.box .x i).count = (B'.box .x i).count := by rw [← r1, e]
    obtain ⟨b1, b2⟩ := hB.boxes .x i (by omega) hc
    rcases r2 with r2 | ⟨r2, r3, r4⟩
    · exact Or.inl (by omega)
    · exact Or.inr ⟨r2, by rw [r3, b1], by rw [r4, b2]⟩
  · rw [r.sizes.1] at hs
    obtain h : B'.N = B.N := by omega
    rw [h]; exact r.last

/-- C104 over any number of iterations on the same problem object: whenever it is filled again, with constraints of the same
or another number at every stage and no bound appearing or disappearing where the number stays, HPIPM is handed the
problem as filled last.  Missing from the full statement: other problem objects, fewer stages, bounds that appear or
disappear, and setting a problem again without filling it (see the violations). -/
theorem C104_iterations_partial {n m : Nat} (id : Nat) (h : Heap K M) (B : Buf K M) (Bs : List (Buf K M))
    (w : ∀ b ∈ B :: Bs, b.WF n m) (ch : List.IsChain Refilled (B :: Bs)) :
    ∃ s h' q, iterate n m id (B :: Bs) Iface.new h = .ok (s, h') ∧ s.qp = some q ∧
      Represents n m q ((B :: Bs).getLast (by simp)) := by
  have key : ∀ (Bs : List (Buf K M)) (B : Buf K M) (s : Iface K M) (h : Heap K M) (q : Qp K M), Inv n m s → Ready s id B →
      s.qp = some q → Represents n m q B → (∀ b ∈ B :: Bs, b.WF n m) → List.IsChain Refilled (B :: Bs) →
      ∃ s' h' q, iterate n m id Bs s h = .ok (s', h') ∧ s'.qp = some q ∧
        Represents n m q ((B :: Bs).getLast (by simp)) := by
    intro Bs
    induction Bs with
    | nil => intro B s h q _ _ hq hr _ _; exact ⟨s, h, q, rfl, hq, hr⟩
    | cons B' Bs ih =>
      intro B s h q inv rd hq hr w ch
      obtain ⟨c1, c2⟩ := List.isChain_cons_cons.1 ch
      obtain ⟨y1, y2, y3⟩ := rd.sync c1
      obtain ⟨s', B2, q', a1, a2, a3, a4, a5⟩ := setProblem_spec inv (h := h.put id B') (id := id) (B := B')
        (by simp [Heap.put]) (w B' (by simp)) y1 y2 y3
      obtain ⟨s'', h'', q'', b1, b2, b3⟩ := ih B' s' ((h.put id B').put id B2) q' a4 a5 a2 a3
        (fun b hb => w b (List.mem_cons_of_mem _ hb)) c2
      refine ⟨s'', h'', q'', ?_, b2, ?_⟩
      · simp only [iterate, a1, Res.ok_bind]; exact b1
      · rw [List.getLast_cons (by simp)]; exact b3
  obtain ⟨s', B', q, h1, h2, h3, h4, h5⟩ := setProblem_spec (n := n) (m := m) (s := Iface.new) (h := h.put id B) (id := id)
    (B := B) ⟨rfl, Or.inl ⟨rfl, rfl⟩⟩ (by simp [Heap.put]) (w B (by simp))
    (fun i _ hi => by simp [Iface.new, BoxTab.empty] at hi)
    (fun i _ _ hi => by simp [Iface.new, BoxTab.empty] at hi) (fun hi => by simp [Iface.new, BoxTab.empty] at hi)
  obtain ⟨s'', h'', q'', b1, b2, b3⟩ := key Bs B s' ((h.put id B).put id B') q h4 h5 h2 h3 w ch
  exact ⟨s'', h'', q'', by simp only [iterate, h1, Res.ok_bind]; exact b1, b2, b3⟩

end C104

/-! ### Where the full statement fails -/

section Violations

def noBox : Box Int := ⟨0, [0], [0], [0]⟩
def noGen : Gen Int := ⟨0, [], [], [], []⟩

/-- A problem with one state, one control, `N` stages, the same input box and the same general constraint at every
stage. -/
def prob (N : Nat) (u : Box Int) (g : Gen Int) : Buf Int Unit :=
  ⟨N, fun k _ => match k with | .u => u | .x => noBox, fun _ => g, fun _ _ => ()⟩

/-- Input bounds. -/
def input (l h : Int) : Box Int := ⟨1, [0], [l], [h]⟩

theorem prob_wf {N : Nat} (hN : 0 < N) (l h : Int) : (prob N (input l h) noGen).WF 1 1 :=
  ⟨hN, fun _ _ => ⟨le_rfl, le_rfl, le_rfl⟩, fun _ _ _ => ⟨Nat.zero_le _, Nat.zero_le _, Nat.zero_le _⟩,
    fun _ _ => ⟨rfl, rfl, rfl, rfl⟩, fun _ _ => ⟨fun c hc => by simp [prob, noGen] at hc, fun c hc => by simp [prob, noGen] at hc⟩⟩

/-- Input boxes and general constraints of the quadratic program. -/
def view (q : Qp Int Unit) : List (QpBox Int) × List (QpGen Int) := (q.box .u, q.gen)

/-- Two problems set one after the other; `change` is what happens to the memory in between. -/
def two (h : Heap Int Unit) (id : Nat) (change : Heap Int Unit → Heap Int Unit) (id' : Nat) :
    Res (Iface Int Unit × Heap Int Unit) := do
  let r ← setProblem 1 1 Iface.new h id
  setProblem 1 1 r.1 (change r.2) id'

theorem two_view {h : Heap Int Unit} {id id' : Nat} {change : Heap Int Unit → Heap Int Unit}
    {v : List (QpBox Int) × List (QpGen Int)}
    (e : (two h id change id').bind (fun r => Res.ok (r.1.qp.map view)) = .ok (some v)) :
    ∃ s h' q, two h id change id' = .ok (s, h') ∧ s.qp = some q ∧ view q = v := by
  cases hr : two h id change id' with
  | ok r =>
    rw [hr] at e
    simp only [Res.bind, Res.ok.injEq, Option.map_eq_some_iff] at e
    obtain ⟨q, h1, h2⟩ := e
    exact ⟨r.1, r.2, q, rfl, h1, h2⟩
  | exc => rw [hr] at e; cases e
  | ub => rw [hr] at e; cases e

/-- Block 0 and block 1. -/
def mem (a b : Buf Int Unit) : Heap Int Unit := fun j => if j = 0 then some a else if j = 1 then some b else none

theorem input_zero {N : Nat} {l h : Int} {x u : Nat → Nat → Int} (H : ∀ i < N, l ≤ u i 0 ∧ u i 0 ≤ h) :
    (prob N (input l h) noGen).Admits x u := by
  refine ⟨fun i hi j c l' h' hj h1 h2 h3 => ?_, fun i h1 h2 j c l h hj => by simp [prob, noBox] at hj,
    fun i hi j c d l h hj => by simp [prob, noGen] at hj⟩
  have : j = 0 := by simp only [prob, input] at hj; omega
  subst this
  simp only [prob, input, List.getElem?_cons_zero, Option.some.injEq] at h1 h2 h3
  subst h1 h2 h3
  exact ⟨fun _ => (H i hi).1, fun _ => (H i hi).2⟩

/-- C104 fails for a second problem object with as many constraints: the bounds of the first one are used. -/
theorem C104_second_problem_violated : ∃ s h q, two (mem (prob 1 (input (-1) 1) noGen) (prob 1 (input (-5) 5) noGen)) 0
    (fun h => h) 1 = .ok (s, h) ∧ s.qp = some q ∧ (prob 1 (input (-5) 5) noGen).WF 1 1 ∧
      ¬ Represents 1 1 q (prob 1 (input (-5) 5) noGen) := by
  obtain ⟨s, h, q, h1, h2, h3⟩ := two_view (h := mem (prob 1 (input (-1) 1) noGen) (prob 1 (input (-5) 5) noGen)) (id := 0)
    (id' := 1) (change := fun h => h)
    (v := ([⟨[0], [-1], [1], [true], [true]⟩, ⟨[], [], [], [], []⟩], [⟨[], [], [], [], [], []⟩, ⟨[], [], [], [], [], []⟩]))
    (by decide +kernel)
  refine ⟨s, h, q, h1, h2, prob_wf Nat.one_pos _ _, fun R => ?_⟩
  have hu : q.box .u = [⟨[0], [-1], [1], [true], [true]⟩, ⟨[], [], [], [], []⟩] := congrArg Prod.fst h3
  have hq := (R.feasible (fun _ _ => 0) (fun i _ => if i = 0 then 3 else 0) rfl rfl).2 (input_zero fun i hi => by
    obtain rfl : i = 0 := by omega
    decide)
  have := (hq 0 (Nat.zero_le _)).1 _ (by rw [hu]; rfl) 0 0 (-1) 1 true true rfl rfl rfl rfl rfl
  exact absurd (this.2 rfl) (by decide)

/-- C104 fails if a bound that was absent becomes finite: it stays masked. -/
theorem C104_appearing_bound_violated : ∃ s h q, two (mem (prob 1 (input (-1000000000000) 1) noGen) (prob 1 noBox noGen)) 0
    (fun h => h.put 0 (prob 1 (input (-2) 1) noGen)) 0 = .ok (s, h) ∧ s.qp = some q ∧
      ¬ Represents 1 1 q (prob 1 (input (-2) 1) noGen) := by
  obtain ⟨s, h, q, h1, h2, h3⟩ := two_view (h := mem (prob 1 (input (-1000000000000) 1) noGen) (prob 1 noBox noGen)) (id := 0)
    (id' := 0) (change := fun h => h.put 0 (prob 1 (input (-2) 1) noGen))
    (v := ([⟨[0], [-2], [1], [false], [true]⟩, ⟨[], [], [], [], []⟩], [⟨[], [], [], [], [], []⟩, ⟨[], [], [], [], [], []⟩]))
    (by decide +kernel)
  refine ⟨s, h, q, h1, h2, fun R => ?_⟩
  have hu : q.box .u = [⟨[0], [-2], [1], [false], [true]⟩, ⟨[], [], [], [], []⟩] := congrArg Prod.fst h3
  have hg : q.gen = [⟨[], [], [], [], [], []⟩, ⟨[], [], [], [], [], []⟩] := congrArg Prod.snd h3
  have hN : q.dims.N = 1 := R.stages
  have h0 := (R.feasible (fun _ _ => 0) (fun _ _ => 0) rfl rfl).2 (input_zero fun i hi => ⟨by show (-2 : Int) ≤ 0; decide, by show (0 : Int) ≤ 1; decide⟩)
  have hB := (R.feasible (fun _ _ => 0) (fun i _ => if i = 0 then -3 else 0) rfl rfl).1 (by
    intro i hi
    refine ⟨fun b hb j c l h lm hm h1 h2 h3 h4 h5 => ?_, (h0 i hi).2.1, fun g hg' j c d l h lm hm h1 => ?_⟩
    · rw [hu] at hb
      match i, hb with
      | 0, hb =>
        simp only [List.getElem?_cons_zero, Option.some.injEq] at hb
        subst hb
        match j, h1 with
        | 0, h1 =>
          simp only [List.getElem?_cons_zero, Option.some.injEq] at h2 h3 h4 h5
          subst h2 h3 h4 h5
          exact ⟨fun e => (by cases e), fun _ => by show (-3 : Int) ≤ 1; decide⟩
      | 1, hb =>
        simp only [List.getElem?_cons_succ, List.getElem?_cons_zero, Option.some.injEq] at hb
        subst hb
        simp at h1
    · rw [hg] at hg'
      match i, hg' with
      | 0, hg' =>
        simp only [List.getElem?_cons_zero, Option.some.injEq] at hg'
        subst hg'
        simp at h1
      | 1, hg' =>
        simp only [List.getElem?_cons_succ, List.getElem?_cons_zero, Option.some.injEq] at hg'
        subst hg'
        simp at h1)
  exact absurd ((hB.1 0 Nat.one_pos 0 0 (-2) 1 Nat.one_pos rfl rfl rfl).1 (by decide)) (by decide)

/-- The general constraint that the state is not negative. -/
def nonneg : Gen Int := ⟨1, [[1]], [[0]], [0], [1000000000000]⟩

/-- C104 fails if a problem is set twice: the absent upper bound was replaced by zero in the problem and counts as a
bound the second time, after stage zero. -/
theorem C104_twice_violated : ∃ s h q, two (mem (prob 1 noBox nonneg) (prob 1 noBox noGen)) 0 (fun h => h) 0 = .ok (s, h) ∧
    s.qp = some q ∧ ¬ Represents 1 1 q (prob 1 noBox nonneg) := by
  obtain ⟨s, h, q, h1, h2, h3⟩ := two_view (h := mem (prob 1 noBox nonneg) (prob 1 noBox noGen)) (id := 0)
    (id' := 0) (change := fun h => h) (v := ([⟨[], [], [], [], []⟩, ⟨[], [], [], [], []⟩],
      [⟨[[1]], [[0]], [0], [0], [true], [false]⟩, ⟨[[1]], [[0]], [0], [0], [true], [true]⟩])) (by decide +kernel)
  refine ⟨s, h, q, h1, h2, fun R => ?_⟩
  have hg : q.gen = [⟨[[1]], [[0]], [0], [0], [true], [false]⟩, ⟨[[1]], [[0]], [0], [0], [true], [true]⟩] :=
    congrArg Prod.snd h3
  have hN : q.dims.N = 1 := R.stages
  have hq := (R.feasible (fun i _ => i) (fun _ _ => 0) rfl rfl).2 (by
    refine ⟨fun i hi j c l h hj => by simp [prob, noBox] at hj, fun i h1 h2 j c l h hj => by
      simp [prob, noBox] at hj, fun i hi j c d l h hj h1 h2 h3 h4 => ?_⟩
    have : j = 0 := by simp only [prob, nonneg] at hj; omega
    subst this
    simp only [prob, nonneg, List.getElem?_cons_zero, Option.some.injEq] at h1 h2 h3 h4
    subst h1 h2 h3 h4
    refine ⟨fun _ => ?_, fun e => absurd e (by decide)⟩
    simp [row])
  have h1 := (hq 1 (by omega)).2.2 _ (by rw [hg]; rfl) 0 [1] [0] 0 0 true true rfl rfl rfl rfl rfl rfl
  have hx : q.dims.nx 1 = 1 := R.nx 1 (by simp [prob])
  have hu : q.dims.nu 1 = 0 := R.nu 1 (by simp [prob])
  rw [hx, hu] at h1
  exact absurd (h1.2 rfl) (by decide)

/-- C104 fails for fewer stages than before: the last stage, which has no input, keeps the input bounds of the stage that
was there. -/
theorem C104_fewer_stages_violated : ∃ s h q, two (mem (prob 2 (input (-1) 1) noGen) (prob 1 noBox noGen)) 0
    (fun h => h.put 0 (prob 1 (input (-1) 1) noGen)) 0 = .ok (s, h) ∧ s.qp = some q ∧ q.dims.nu 1 = 0 ∧ q.dims.nbu 1 = 1 ∧
      ¬ Represents 1 1 q (prob 1 (input (-1) 1) noGen) := by
  have e : (two (mem (prob 2 (input (-1) 1) noGen) (prob 1 noBox noGen)) 0
      (fun h => h.put 0 (prob 1 (input (-1) 1) noGen)) 0).bind
      (fun r => Res.ok (r.1.qp.map (fun q => (q.dims.nu 1, q.dims.nbu 1)))) = .ok (some (0, 1)) := by decide +kernel
  cases hr : two (mem (prob 2 (input (-1) 1) noGen) (prob 1 noBox noGen)) 0
      (fun h => h.put 0 (prob 1 (input (-1) 1) noGen)) 0 with
  | ok r =>
    rw [hr] at e
    simp only [Res.bind, Res.ok.injEq, Option.map_eq_some_iff] at e
    obtain ⟨q, h1, h2⟩ := e
    simp only [Prod.mk.injEq] at h2
    exact ⟨r.1, r.2, q, rfl, h1, h2.1, h2.2, fun R => by
      have := R.noInput
      simp only [prob] at this
      omega⟩
  | exc => rw [hr] at e; cases e
  | ub => rw [hr] at e; cases e

/-- C104 fails if the arrays of the problem move because it gets more stages: HPIPM is given pointers to where they
were. -/
theorem C104_moved_violated : two (mem (prob 1 (input (-1) 1) noGen) (prob 1 noBox noGen)) 0
    (fun h => h.move 0 2 (prob 2 (input (-1) 1) noGen)) 2 = .ub := by
  have e : (two (mem (prob 1 (input (-1) 1) noGen) (prob 1 noBox noGen)) 0
      (fun h => h.move 0 2 (prob 2 (input (-1) 1) noGen)) 2).bind (fun r => Res.ok (r.1.qp.map view)) = .ub := by
    decide +kernel
  cases hr : two (mem (prob 1 (input (-1) 1) noGen) (prob 1 noBox noGen)) 0
      (fun h => h.move 0 2 (prob 2 (input (-1) 1) noGen)) 2 with
  | ok r => rw [hr] at e; cases e
  | exc => rw [hr] at e; cases e
  | ub => rfl

/-- Three fillings of the same problem: other bounds, then a third stage; the hypotheses of the theorem hold. -/
example : (∀ b ∈ [prob 1 (input (-1) 1) noGen, prob 1 (input (-3) 2) noGen, prob 2 (input (-4) 2) noGen], b.WF 1 1) ∧
    List.IsChain Refilled [prob 1 (input (-1) 1) noGen, prob 1 (input (-3) 2) noGen, prob 2 (input (-4) 2) noGen] := by
  refine ⟨fun b hb => ?_, ?_⟩
  · simp only [List.mem_cons, List.not_mem_nil, or_false] at hb
    rcases hb with rfl | rfl | rfl
    · exact prob_wf Nat.one_pos _ _
    · exact prob_wf Nat.one_pos _ _
    · exact prob_wf Nat.two_pos _ _
  · refine .cons_cons ⟨by decide, fun k i _ _ => ?_⟩ (.cons_cons ⟨by decide, fun k i _ _ => ?_⟩ (.singleton _))
    · cases k <;> simp [prob, input, noBox, pat, absentLb, absentUb]
    · cases k <;> simp [prob, input, noBox, pat, absentLb, absentUb]

/-- A problem with an absent and a present bound in a new interface. -/
example : (prob 3 (input (-1000000000000) 1) noGen).WF 1 1 := prob_wf (by decide) _ _

end Violations
end CT.Hpipm
