import Verif.Props.JsimFactorBase

/-!
# The inverse from the factor, for matrices of any size
-/

namespace CT.JsimFactor

open CT Finset

/-- An entry of one of the three members. -/
abbrev Cell := Fin 3 × ℕ × ℕ

/-- The value of an entry. -/
def Fact.get (x : Fact) (c : Cell) : ℝ :=
  match c.1 with
  | 0 => x.L c.2.1 c.2.2
  | 1 => x.Linv c.2.1 c.2.2
  | 2 => x.inverse c.2.1 c.2.2

/-- The entry that a statement writes. -/
def Stmt.target : Stmt → Cell
  | .sqrt a b _ _ => (0, a, b)
  | .div a b _ _ _ _ => (0, a, b)
  | .sub a b _ _ _ _ _ _ => (0, a, b)
  | .recip a b _ _ => (1, a, b)
  | .back a b _ _ _ => (1, a, b)
  | .prod a b _ => (2, a, b)
  | .copy a b _ _ => (2, a, b)

/-- The entries that a statement reads. -/
def Stmt.reads : Stmt → List Cell
  | .sqrt _ _ c d => [(0, c, d)]
  | .div _ _ c d e f => [(0, c, d), (0, e, f)]
  | .sub _ _ c d e f g h => [(0, c, d), (0, e, f), (0, g, h)]
  | .recip _ _ c d => [(0, c, d)]
  | .back _ _ c d l => (1, c, d) :: l.flatMap fun t => [(1, t.1, t.2.1), (0, t.2.2.1, t.2.2.2)]
  | .prod _ _ l => l.flatMap fun t => [(1, t.1, t.2.1), (1, t.2.2.1, t.2.2.2)]
  | .copy _ _ c d => [(2, c, d)]

theorem get_act_ne (x : Fact) (s : Stmt) {c : Cell} (h : c ≠ s.target) : (s.act x).get c = x.get c := by
  obtain ⟨t, a, b⟩ := c
  have key : ∀ (A : Arr) (a' b' : ℕ) (v : ℝ), ¬ (a = a' ∧ b = b') → put A a' b' v a b = A a b := by
    intro A a' b' v h
    simp [put, h]
  cases s <;> fin_cases t <;> simp [Stmt.target, Stmt.act, Fact.get] at h ⊢ <;> first
    | (refine key _ _ _ _ ?_; simpa using h)
    | rfl

/-- Two states that agree on what a statement reads get the same value. -/
theorem get_act_target (x y : Fact) (s : Stmt) (h : ∀ c ∈ s.reads, x.get c = y.get c) :
    (s.act x).get s.target = (s.act y).get s.target := by
  cases s with
  | sqrt a b c d =>
    have h1 : x.L c d = y.L c d := h (0, c, d) (by simp [Stmt.reads])
    simp [Stmt.act, Fact.get, Stmt.target, put, h1]
  | div a b c d e f =>
    have h1 : x.L c d = y.L c d := h (0, c, d) (by simp [Stmt.reads])
    have h2 : x.L e f = y.L e f := h (0, e, f) (by simp [Stmt.reads])
    simp [Stmt.act, Fact.get, Stmt.target, put, h1, h2]
  | sub a b c d e f g i =>
    have h1 : x.L c d = y.L c d := h (0, c, d) (by simp [Stmt.reads])
    have h2 : x.L e f = y.L e f := h (0, e, f) (by simp [Stmt.reads])
    have h3 : x.L g i = y.L g i := h (0, g, i) (by simp [Stmt.reads])
    simp [Stmt.act, Fact.get, Stmt.target, put, h1, h2, h3]
  | recip a b c d =>
    have h1 : x.L c d = y.L c d := h (0, c, d) (by simp [Stmt.reads])
    simp [Stmt.act, Fact.get, Stmt.target, put, h1]
  | back a b c d l =>
    have h1 : x.Linv c d = y.Linv c d := h (1, c, d) (by simp [Stmt.reads])
    have h2 : (l.map fun t => x.Linv t.1 t.2.1 * x.L t.2.2.1 t.2.2.2)
        = l.map fun t => y.Linv t.1 t.2.1 * y.L t.2.2.1 t.2.2.2 := by
      refine List.map_congr_left fun t ht => ?_
      have h3 : x.Linv t.1 t.2.1 = y.Linv t.1 t.2.1 := h (1, t.1, t.2.1) (by
        simp only [Stmt.reads, List.mem_cons, List.mem_flatMap]; exact .inr ⟨t, ht, .inl rfl⟩)
      have h4 : x.L t.2.2.1 t.2.2.2 = y.L t.2.2.1 t.2.2.2 := h (0, t.2.2.1, t.2.2.2) (by
        simp only [Stmt.reads, List.mem_cons, List.mem_flatMap]; exact .inr ⟨t, ht, .inr (.inl rfl)⟩)
      rw [h3, h4]
    simp only [Stmt.act, Fact.get, Stmt.target, put, h1, h2, and_self, if_true]
  | prod a b l =>
    have h2 : (l.map fun t => x.Linv t.1 t.2.1 * x.Linv t.2.2.1 t.2.2.2)
        = l.map fun t => y.Linv t.1 t.2.1 * y.Linv t.2.2.1 t.2.2.2 := by
      refine List.map_congr_left fun t ht => ?_
      have h3 : x.Linv t.1 t.2.1 = y.Linv t.1 t.2.1 := h (1, t.1, t.2.1) (by
        simp only [Stmt.reads, List.mem_cons, List.mem_flatMap]; exact ⟨t, ht, .inl rfl⟩)
      have h4 : x.Linv t.2.2.1 t.2.2.2 = y.Linv t.2.2.1 t.2.2.2 := h (1, t.2.2.1, t.2.2.2) (by
        simp only [Stmt.reads, List.mem_cons, List.mem_flatMap]; exact ⟨t, ht, .inr (.inl rfl)⟩)
      rw [h3, h4]
    simp only [Stmt.act, Fact.get, Stmt.target, put, h2, and_self, if_true]
  | copy a b c d =>
    have h1 : x.inverse c d = y.inverse c d := h (2, c, d) (by simp [Stmt.reads])
    simp [Stmt.act, Fact.get, Stmt.target, put, h1]

theorem acts_frame (p : List Stmt) (x : Fact) {c : Cell} (h : ∀ s ∈ p, c ≠ s.target) :
    (acts p x).get c = x.get c := by
  induction p generalizing x with
  | nil => rfl
  | cons s p ih =>
    have h1 := ih (s.act x) (fun t ht => h t (by simp [ht]))
    exact h1.trans (get_act_ne x s (h s (by simp)))

/-- Every entry is written at most once and not read before. -/
def once : List Stmt → Bool
  | [] => true
  | s :: p => !s.reads.contains s.target && p.all (fun t => t.target != s.target && !s.reads.contains t.target) && once p

/-- In such a sequence the value of every written entry fits the final values of the entries it was computed
from. -/
theorem acts_once {p : List Stmt} (h : once p = true) (x : Fact) {s : Stmt} (hs : s ∈ p) :
    (acts p x).get s.target = (s.act (acts p x)).get s.target := by
  induction p generalizing x with
  | nil => simp at hs
  | cons t p ih =>
    simp only [once, Bool.and_eq_true, Bool.not_eq_true', List.all_eq_true, bne_iff_ne, ne_eq,
      List.contains_eq_mem, decide_eq_false_iff_not] at h
    obtain ⟨⟨h1, h2⟩, h3⟩ := h
    rcases List.mem_cons.mp hs with rfl | hs
    · have h4 : (acts (s :: p) x).get s.target = (s.act x).get s.target :=
        acts_frame p (s.act x) (fun t ht e => (h2 t ht).1 e.symm)
      rw [h4]
      refine get_act_target _ _ _ fun c hc => ?_
      have h5 : (acts (s :: p) x).get c = (s.act x).get c :=
        acts_frame p (s.act x) (fun t ht e => (h2 t ht).2 (e ▸ hc))
      rw [h5, get_act_ne x s (fun e => h1 (e ▸ hc))]
    · exact ih h3 (t.act x) hs

/-- What the statements of `computeLInverse` and `computeInverse` have to contain. -/
structure Complete (n : ℕ) (pL p : List Stmt) : Prop where
  once : once (pL ++ p) = true
  noL : ∀ s ∈ pL ++ p, s.target.1 ≠ 0
  recip : ∀ i < n, Stmt.recip i i i i ∈ pL
  back : ∀ i < n, ∀ j < i, Stmt.back i j j j ((List.range (i - j)).map fun m => (i, j + 1 + m, j + 1 + m, j)) ∈ pL
  prod : ∀ i < n, ∀ j < i + 1, Stmt.prod i j ((List.range (j + 1)).map fun m => (i, m, j, m)) ∈ p
  copy : ∀ i < n, ∀ j < i, Stmt.copy j i i j ∈ p

theorem list_sum_range (f : ℕ → ℝ) (n : ℕ) : ((List.range n).map f).sum = ∑ m ∈ range n, f m := by
  induction n with
  | zero => rfl
  | succ n ih => rw [List.range_succ, List.map_append, List.sum_append, ih, sum_range_succ]; simp

theorem complete_values {n : ℕ} {pL p : List Stmt} (h : Complete n pL p) (x : Fact) :
    (acts (pL ++ p) x).L = x.L
    ∧ (∀ i < n, (acts (pL ++ p) x).Linv i i = 1 / x.L i i)
    ∧ (∀ i < n, ∀ j < i, (acts (pL ++ p) x).Linv i j
        = -(acts (pL ++ p) x).Linv j j * ∑ m ∈ range (i - j), (acts (pL ++ p) x).Linv i (j + 1 + m) * x.L (j + 1 + m) j)
    ∧ (∀ i < n, ∀ j ≤ i, (acts (pL ++ p) x).inverse i j
        = ∑ m ∈ range (j + 1), (acts (pL ++ p) x).Linv i m * (acts (pL ++ p) x).Linv j m)
    ∧ (∀ i < n, ∀ j < i, (acts (pL ++ p) x).inverse j i = (acts (pL ++ p) x).inverse i j) := by
  have hL : (acts (pL ++ p) x).L = x.L := by
    funext i j
    exact acts_frame (pL ++ p) x (c := (0, i, j)) (fun s hs e => h.noL s hs (by rw [← e]))
  set y := acts (pL ++ p) x with hy
  refine ⟨hL, fun i hi => ?_, fun i hi j hj => ?_, fun i hi j hj => ?_, fun i hi j hj => ?_⟩
  · have h1 := acts_once h.once x (List.mem_append_left p (h.recip i hi))
    rw [← hy] at h1
    rw [← hL]
    simpa [Stmt.target, Fact.get, Stmt.act, put] using h1
  · have h1 := acts_once h.once x (List.mem_append_left p (h.back i hi j hj))
    rw [← hy] at h1
    rw [← hL, ← list_sum_range]
    simpa [Stmt.target, Fact.get, Stmt.act, put, List.map_map, Function.comp_def] using h1
  · have h1 := acts_once h.once x (List.mem_append_right pL (h.prod i hi j (by omega)))
    rw [← hy] at h1
    rw [← list_sum_range]
    simpa [Stmt.target, Fact.get, Stmt.act, put, List.map_map, Function.comp_def] using h1
  · have h1 := acts_once h.once x (List.mem_append_right pL (h.copy i hi j hj))
    rw [← hy] at h1
    simpa [Stmt.target, Fact.get, Stmt.act, put] using h1

/-- The lower triangle as a matrix. -/
def lowMat (n : ℕ) (A : Arr) : Matrix (Fin n) (Fin n) ℝ := fun i j => low A i j

theorem lowMat_inv {n : ℕ} (A B : Arr) (hd : ∀ i < n, A i i ≠ 0) (h1 : ∀ i < n, B i i = 1 / A i i)
    (h2 : ∀ i < n, ∀ j < i, B i j = -B j j * ∑ m ∈ range (i - j), B i (j + 1 + m) * A (j + 1 + m) j) :
    lowMat n B * lowMat n A = 1 := by
  ext ⟨i, hi⟩ ⟨j, hj⟩
  rw [Matrix.mul_apply]
  have h3 : ∑ m : Fin n, lowMat n B ⟨i, hi⟩ m * lowMat n A m ⟨j, hj⟩ = ∑ m ∈ range n, low B i m * low A m j := by
    rw [← Fin.sum_univ_eq_sum_range (fun m => low B i m * low A m j) n]
    rfl
  rw [h3]
  rcases lt_trichotomy i j with h | h | h
  · rw [Matrix.one_apply_ne (by simp; omega)]
    refine sum_eq_zero fun m _ => ?_
    by_cases hm : m ≤ i
    · simp [low, show ¬ j ≤ m by omega]
    · simp [low, hm]
  · subst h
    rw [Matrix.one_apply_eq, sum_eq_single i]
    · simp [low, h1 i hi, hd i hi]
    · intro m _ hm
      by_cases hmi : m ≤ i
      · simp [low, show ¬ i ≤ m by omega]
      · simp [low, hmi]
    · intro h; simp [hi] at h
  · rw [Matrix.one_apply_ne (by simp; omega)]
    have h4 : ∑ m ∈ range n, low B i m * low A m j = ∑ m ∈ Ico j (i + 1), B i m * A m j := by
      refine (sum_subset_zero_on_sdiff (fun m hm => ?_) (fun m hm => ?_) (fun m hm => ?_)).symm
      · simp at hm ⊢; omega
      · have h5 := (mem_sdiff.mp hm).2
        simp only [mem_Ico, not_and_or, not_le, not_lt] at h5
        rcases h5 with h5 | h5
        · simp [low, show ¬ j ≤ m by omega]
        · simp [low, show ¬ m ≤ i by omega]
      · have h5 := mem_Ico.mp hm
        simp [low, h5.1, show m ≤ i by omega]
    rw [h4, sum_eq_sum_Ico_succ_bot (by omega), sum_Ico_eq_sum_range, h2 i hi j h, h1 j hj,
      show i + 1 - (j + 1) = i - j by omega]
    have h6 := hd j hj
    field_simp
    ring

/-- `computeL` and `computeInverse` for a symmetric positive definite matrix of any size. -/
theorem factor_correct {n : ℕ} {p pL pI : List Stmt} (hp : p = ltl n) (hin : ∀ s ∈ p ++ (pL ++ pI), s.indices.all (· < n) = true)
    (hc : Complete n pL pI) (H : Matrix (Fin n) (Fin n) ℝ) (hs : H.transpose = H)
    (hpd : ∀ x : Fin n → ℝ, x ≠ 0 → 0 < dotProduct x (H.mulVec x)) (x : Fact) :
    ∃ y w, computeL p H x = .ok y ∧ computeInverse n pL pI y = .ok w
      ∧ (∀ i j, i < j → mat n y.L i j = 0) ∧ (∀ i, 0 < mat n y.L i i)
      ∧ (mat n y.L).transpose * mat n y.L = H
      ∧ mat n w.L = mat n y.L ∧ H * mat n w.inverse = 1 := by
  have hy : computeL p H x = .ok (acts p { x with L := lower H }) :=
    run_eq (fun s h => hin s (List.mem_append_left _ h)) _
  set y := acts p { x with L := lower H } with hyd
  have hw : computeInverse n pL pI y = .ok (acts (pL ++ pI) y) := by
    rw [computeInverse, run_eq (fun s h => hin s (List.mem_append_right _ (List.mem_append_left _ h))), acts_append]
    exact run_eq (fun s h => hin s (List.mem_append_right _ (List.mem_append_right _ h))) _
  have hL : y.L = rounds n (lower H) := by rw [hyd, hp, acts_ltl]
  have hsym : ∀ i j : Fin n, sym (lower H) i j = H i j := by
    intro i j
    have h1 : H j i = H i j := congrFun (congrFun hs i) j
    unfold sym lower
    by_cases h : (j : ℕ) ≤ i
    · simp [h]
    · have h2 : (i : ℕ) ≤ j := by omega
      simp [h, h2, h1]
  have hpos : Pos n (lower H) := by
    intro v ⟨i, hi, hv⟩
    have h1 := hpd (fun k => v k) (fun h => hv (by simpa using congrFun h ⟨i, hi⟩))
    have h2 : dotProduct (fun k : Fin n => v k) (H.mulVec fun k : Fin n => v k)
        = ∑ a ∈ range n, ∑ b ∈ range n, sym (lower H) a b * v a * v b := by
      rw [← Fin.sum_univ_eq_sum_range (fun a => ∑ b ∈ range n, sym (lower H) a b * v a * v b) n]
      refine sum_congr rfl fun a _ => ?_
      rw [← Fin.sum_univ_eq_sum_range (fun b => sym (lower H) a b * v a * v b) n, Matrix.mulVec, dotProduct, mul_sum]
      refine sum_congr rfl fun b _ => ?_
      rw [hsym]
      ring
    rwa [h2] at h1
  obtain ⟨hdiag, hfac⟩ := rounds_factor n (lower H) hpos
  rw [← hL] at hdiag hfac
  have hlow : mat n y.L = lowMat n y.L := by
    ext i j
    by_cases h : (j : ℕ) ≤ i
    · simp [mat, lowMat, low, h]
    · have h1 : y.L i j = 0 := by
        rw [hL, rounds_frame n _ (by omega)]
        simp [lower, h]
      simp [mat, lowMat, low, h, h1]
  have hfac2 : (mat n y.L).transpose * mat n y.L = H := by
    ext i j
    rw [hlow, Matrix.mul_apply, ← hsym i j, ← hfac i i.2 j j.2,
      ← Fin.sum_univ_eq_sum_range (fun m => low y.L m i * low y.L m j) n]
    rfl
  obtain ⟨hwL, hw1, hw2, hw3, hw4⟩ := complete_values hc y
  set w := acts (pL ++ pI) y with hwd
  have hinv : lowMat n w.Linv * lowMat n y.L = 1 :=
    lowMat_inv y.L w.Linv (fun i hi => (hdiag i hi).ne') hw1 (fun i hi j hj => hw2 i hi j hj)
  have hI : mat n w.inverse = lowMat n w.Linv * (lowMat n w.Linv).transpose := by
    have hle : ∀ i j : Fin n, (j : ℕ) ≤ i → mat n w.inverse i j = (lowMat n w.Linv * (lowMat n w.Linv).transpose) i j := by
      intro i j h
      rw [Matrix.mul_apply]
      have h3 : ∑ m : Fin n, lowMat n w.Linv i m * (lowMat n w.Linv).transpose m j
          = ∑ m ∈ range n, low w.Linv i m * low w.Linv j m := by
        rw [← Fin.sum_univ_eq_sum_range (fun m => low w.Linv i m * low w.Linv j m) n]
        rfl
      rw [h3, mat, hw3 i i.2 j h]
      refine sum_subset_zero_on_sdiff (fun m hm => ?_) (fun m hm => ?_) (fun m hm => ?_)
      · have := mem_range.mp hm
        exact mem_range.mpr (by omega)
      · have h5 := (mem_sdiff.mp hm).2
        simp only [mem_range, not_lt] at h5
        simp [low, show ¬ m ≤ (j : ℕ) by omega]
      · have := mem_range.mp hm
        simp [low, show m ≤ (j : ℕ) by omega, show m ≤ (i : ℕ) by omega]
    ext i j
    by_cases h : (j : ℕ) ≤ i
    · exact hle i j h
    · have h1 : mat n w.inverse i j = mat n w.inverse j i := hw4 j j.2 i (by omega)
      rw [h1, hle j i (by omega), Matrix.mul_apply, Matrix.mul_apply]
      exact sum_congr rfl fun m _ => mul_comm _ _
  refine ⟨y, w, hy, hw, ?_, fun i => hdiag i i.2, hfac2, by rw [hwL], ?_⟩
  · intro i j hij
    rw [hlow, lowMat, low, if_neg (by have : (i : ℕ) < j := hij; omega)]
  · have h1 : lowMat n y.L * lowMat n w.Linv = 1 := mul_eq_one_comm.mp hinv
    have h2 : (lowMat n y.L).transpose * (lowMat n w.Linv).transpose = 1 := by
      rw [← Matrix.transpose_mul, hinv, Matrix.transpose_one]
    rw [← hfac2, hI, hlow, Matrix.mul_assoc, ← Matrix.mul_assoc (lowMat n y.L), h1, Matrix.one_mul, h2]

end CT.JsimFactor
