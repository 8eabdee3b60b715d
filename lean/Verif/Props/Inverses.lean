import Verif.Proof.Inverses
import Mathlib.LinearAlgebra.Matrix.Determinant.Basic
import Mathlib.LinearAlgebra.Matrix.Block
import Mathlib.Analysis.Matrix.PosDef
import Mathlib.Data.Real.StarOrdered
import Mathlib.LinearAlgebra.Matrix.Notation
import Mathlib.Tactic.NormNum

/-! # Property C22: LU and LDLT solvers -/

namespace CT.Inverses

variable {K : Type} [Field K]

/-- The leading `n × m` part of a storage as a matrix. -/
def toMat (n m : ℕ) (f : Mat K) : Matrix (Fin n) (Fin m) K := Matrix.of fun i j => f (i, j)

/-- Specification: lower triangular factor stored in `LU` (diagonal included). -/
def lower (n : ℕ) (LU : Mat K) : Matrix (Fin n) (Fin n) K :=
  Matrix.of fun i j => if j ≤ i then LU (i, j) else 0

/-- Specification: unit upper triangular factor stored in `LU`. -/
def upper (n : ℕ) (LU : Mat K) : Matrix (Fin n) (Fin n) K :=
  Matrix.of fun i j => if i < j then LU (i, j) else if i = j then 1 else 0

theorem lu_factors (n r : ℕ) (hr : r ≤ n) (A LU0 : Mat K)
    (hp : ∀ k, k + 1 < r → lu n A LU0 (k, k) ≠ 0) :
    toMat r r A = lower r (lu n A LU0) * upper r (lu n A LU0) := by
  ext ⟨i, hi⟩ ⟨j, hj⟩
  rw [Matrix.mul_apply]
  simp only [toMat, lower, upper, Matrix.of_apply, Fin.mk_le_mk, Fin.le_def, Fin.lt_def, Fin.ext_iff]
  set LU := lu n A LU0 with hLU
  rcases Nat.le_total j i with h | h
  · have hl := lu_lower n A LU0 i j h (by omega)
    rw [← hLU, luL, accum_eq] at hl
    have := sum_fin_lower r j hj (fun p => (if p ≤ i then LU (i, p) else 0) *
      (if p < j then LU (p, j) else if p = j then 1 else 0))
      (fun p hp => by rw [if_neg (show ¬ p < j by omega), if_neg (show ¬ p = j by omega), mul_zero])
    rw [this, if_pos h, if_neg (lt_irrefl j), if_pos rfl, mul_one]
    rw [hl, eq_comm, add_comm, sub_add_eq_add_sub, sub_eq_iff_eq_add]
    congr 1
    refine Finset.sum_congr rfl (fun p hp => ?_)
    have := (Finset.mem_Ico.1 hp).2
    rw [if_pos (by omega), if_pos (by omega)]
  · rcases Nat.eq_or_lt_of_le h with h' | h'
    · subst h'
      have hl := lu_lower n A LU0 i i le_rfl (by omega)
      rw [← hLU, luL, accum_eq] at hl
      have := sum_fin_lower r i hj (fun p => (if p ≤ i then LU (i, p) else 0) *
        (if p < i then LU (p, i) else if p = i then 1 else 0))
        (fun p hp => by rw [if_neg (show ¬ p ≤ i by omega), zero_mul])
      rw [this, if_pos le_rfl, if_neg (lt_irrefl i), if_pos rfl, mul_one]
      rw [hl, eq_comm, add_comm, sub_add_eq_add_sub, sub_eq_iff_eq_add]
      congr 1
      refine Finset.sum_congr rfl (fun p hp => ?_)
      have := (Finset.mem_Ico.1 hp).2
      rw [if_pos (by omega), if_pos (by omega)]
    · have hu := lu_upper n A LU0 i j h' (by omega)
      rw [← hLU, luU, accum_eq] at hu
      have hp' := hp i (by omega)
      rw [eq_div_iff hp'] at hu
      have := sum_fin_lower r i hi (fun p => (if p ≤ i then LU (i, p) else 0) *
        (if p < j then LU (p, j) else if p = j then 1 else 0))
        (fun p hp => by rw [if_neg (show ¬ p ≤ i by omega), zero_mul])
      rw [this, if_pos le_rfl, if_pos h', mul_comm (LU (i, i)), hu, eq_comm, add_comm,
        sub_add_eq_add_sub, sub_eq_iff_eq_add]
      congr 1
      refine Finset.sum_congr rfl (fun p hp => ?_)
      have := (Finset.mem_Ico.1 hp).2
      rw [if_pos (by omega), if_pos (by omega)]

/-- C22, LU factors: when no pivot but possibly the last vanishes, the computed factors multiply back
to `A`, for every size and whatever the initial contents of the storage. -/
theorem C22_lu_factors (n : ℕ) (A LU0 : Mat K) (hp : ∀ k, k + 1 < n → lu n A LU0 (k, k) ≠ 0) :
    toMat n n A = lower n (lu n A LU0) * upper n (lu n A LU0) :=
  lu_factors n n le_rfl A LU0 hp

theorem lower_det (n : ℕ) (LU : Mat K) : (lower n LU).det = ∏ i : Fin n, LU (i, i) := by
  rw [Matrix.det_of_lowerTriangular]
  · simp [lower]
  · intro i j hij
    simp only [lower, Matrix.of_apply]
    rw [if_neg]
    simpa using hij

theorem upper_det (n : ℕ) (LU : Mat K) : (upper n LU).det = 1 := by
  rw [Matrix.det_of_upperTriangular]
  · simp [upper]
  · intro i j hij
    simp only [upper, Matrix.of_apply]
    rw [if_neg (by simpa using hij.le), if_neg (by rintro rfl; simp at hij)]

/-- C22, pivots: the computed pivots are all non-zero exactly when all leading principal minors of
`A` are. -/
theorem C22_lu_pivots (n : ℕ) (A LU0 : Mat K) :
    (∀ k < n, lu n A LU0 (k, k) ≠ 0) ↔ ∀ k < n, (toMat (k + 1) (k + 1) A).det ≠ 0 := by
  have key : ∀ k, k < n → (∀ p < k, lu n A LU0 (p, p) ≠ 0) →
      (toMat (k + 1) (k + 1) A).det = (∏ p : Fin k, lu n A LU0 (p, p)) * lu n A LU0 (k, k) := by
    intro k hk hp
    rw [lu_factors n (k + 1) (by omega) A LU0 (fun p hpk => hp p (by omega)), Matrix.det_mul,
      lower_det, upper_det, mul_one, Fin.prod_univ_castSucc]
    simp
  constructor
  · intro h k hk
    rw [key k hk (fun p hp => h p (by omega))]
    refine mul_ne_zero (Finset.prod_ne_zero_iff.2 (fun p _ => h p (by omega))) (h k hk)
  · intro h k hk
    induction k using Nat.strong_induction_on with
    | _ k ih =>
        have := h k hk
        rw [key k hk (fun p hp => ih p hp (by omega))] at this
        exact right_ne_zero_of_mul this

theorem solveLU_spec (n m : ℕ) (LU b : Mat K) (y0 : ℕ → K) (x0 : Mat K)
    (hp : ∀ k < n, LU (k, k) ≠ 0) (j : ℕ) (hj : j < m) :
    ∃ y : ℕ → K, (∀ i < n, LU (i, i) * y i = b (i, j) - ∑ k ∈ Finset.Ico 0 i, LU (i, k) * y k) ∧
      ∀ i < n, (solveLU n m LU b y0 x0).2 (i, j) =
        y i - ∑ k ∈ Finset.Ico (i + 1) n, LU (i, k) * (solveLU n m LU b y0 x0).2 (k, j) := by
  unfold solveLU
  refine columns_spec m _ (fun j x => ∃ y : ℕ → K,
    (∀ i < n, LU (i, i) * y i = b (i, j) - ∑ k ∈ Finset.Ico 0 i, LU (i, k) * y k) ∧
      ∀ i < n, x (i, j) = y i - ∑ k ∈ Finset.Ico (i + 1) n, LU (i, k) * x (k, j)) ?_ ?_ (y0, x0) j hj
  · intro s j
    dsimp only
    set y := (List.range n).foldl (fun y i => Function.update y i
      ((b (i, j) - accum 0 i (fun k => LU (i, k) * y k)) / LU (i, i))) s.1 with hy
    have hyi : ∀ i < n, LU (i, i) * y i = b (i, j) - ∑ k ∈ Finset.Ico 0 i, LU (i, k) * y k := by
      intro i hi
      have := forward_spec n (fun i y => (b (i, j) - accum 0 i (fun k => LU (i, k) * y k)) / LU (i, i))
        (by
          intro i q hq σ v
          dsimp only
          congr 2
          apply accum_congr
          intro p _ hp
          rw [Function.update_of_ne (by omega)]) s.1 i hi
      rw [← hy] at this
      rw [this, accum_eq, mul_div_cancel₀ _ (hp i hi)]
    have hx := backward_spec n j (fun i x => y i - accum (i + 1) n (fun k => LU (i, k) * x (k, j)))
      (by
        intro i q hq σ v
        dsimp only
        congr 1
        apply accum_congr
        intro p hp _
        rw [Function.update_of_ne (by simp; omega)]) s.2
    refine ⟨⟨y, hyi, ?_⟩, hx.2⟩
    intro i hi
    rw [hx.1 i hi, accum_eq]
  · rintro j x x' hxx ⟨y, h1, h2⟩
    refine ⟨y, h1, fun i hi => ?_⟩
    rw [← hxx i, h2 i hi]
    congr 1
    exact Finset.sum_congr rfl (fun k _ => by rw [hxx k])

/-- C22, LU solver: if all leading principal minors of `A` are non-zero, `LUsolve` returns the
solution of `A X = B`, for every size, every number of right-hand sides and whatever the initial
contents of the allocated storage. -/
theorem C22_lu_solve (n m : ℕ) (A B LU0 : Mat K) (y0 : ℕ → K) (X0 : Mat K)
    (hA : ∀ k < n, (toMat (k + 1) (k + 1) A).det ≠ 0) :
    toMat n n A * toMat n m (LUsolve n m A B LU0 y0 X0) = toMat n m B := by
  have hp := (C22_lu_pivots n A LU0).2 hA
  rw [C22_lu_factors n A LU0 (fun k hk => hp k (by omega))]
  rw [Matrix.mul_assoc]
  unfold LUsolve
  set LU := lu n A LU0
  set X := (solveLU n m LU B y0 X0).2 with hX
  choose! y hy hx using fun j (hj : j < m) => solveLU_spec n m LU B y0 X0 hp j hj
  have e1 : upper n LU * toMat n m X = Matrix.of (fun (i : Fin n) (j : Fin m) => y j i) := by
    ext ⟨i, hi⟩ ⟨j, hj⟩
    rw [Matrix.mul_apply]
    simp only [upper, toMat, Matrix.of_apply, Fin.lt_def, Fin.ext_iff]
    have := sum_fin_upper n i hi (fun p => (if i < p then LU (i, p) else if i = p then 1 else 0) * X (p, j))
      (fun p hp => by rw [if_neg (by omega), if_neg (by omega), zero_mul])
    rw [this, if_neg (lt_irrefl i), if_pos rfl, one_mul, hX, hx j hj i hi, sub_add, sub_eq_self, sub_eq_zero]
    refine Finset.sum_congr rfl (fun p hp => ?_)
    have := (Finset.mem_Ico.1 hp).1
    rw [if_pos (by omega)]
  rw [e1]
  ext ⟨i, hi⟩ ⟨j, hj⟩
  rw [Matrix.mul_apply]
  simp only [lower, toMat, Matrix.of_apply, Fin.le_def]
  have := sum_fin_lower n i hi (fun p => (if p ≤ i then LU (i, p) else 0) * y j p)
    (fun p hp => by rw [if_neg (by omega), zero_mul])
  rw [this, if_pos le_rfl, hy j hj i hi, add_comm, sub_add_eq_add_sub, sub_eq_iff_eq_add]
  congr 1
  refine Finset.sum_congr rfl (fun p hp => ?_)
  have := (Finset.mem_Ico.1 hp).2
  rw [if_pos (by omega)]

/-! ### LDLT -/

/-- Specification: unit lower triangular matrix stored below the diagonal of `L`. -/
def unitLower (n : ℕ) (L : Mat K) : Matrix (Fin n) (Fin n) K :=
  Matrix.of fun i j => if j < i then L (i, j) else if i = j then 1 else 0

theorem ldlt_factors (n r : ℕ) (hr : r ≤ n) (A : Mat K) (hsym : ∀ i < n, ∀ j < n, A (i, j) = A (j, i)) (d0 : ℕ → K)
    (hp : ∀ k, k + 1 < r → (ldlt n A d0).2 k ≠ 0) :
    toMat r r A = unitLower r (ldlt n A d0).1 *
      (Matrix.diagonal (fun i : Fin r => (ldlt n A d0).2 i) * (unitLower r (ldlt n A d0).1).transpose) := by
  obtain ⟨h1, h2, -⟩ := ldlt_spec n A d0
  set L := (ldlt n A d0).1
  set d := (ldlt n A d0).2
  have main : ∀ i < r, ∀ j ≤ i, A (i, j) = ∑ p : Fin r,
      (if (p : ℕ) < i then L (i, p) else if i = p then 1 else 0) *
        (d p * (if (p : ℕ) < j then L (j, p) else if j = p then 1 else 0)) := by
    intro i hi j hj
    have := sum_fin_lower r j (by omega) (fun p => (if p < i then L (i, p) else if i = p then 1 else 0) *
        (d p * (if p < j then L (j, p) else if j = p then 1 else 0)))
      (fun p hp => by
        rw [if_neg (show ¬ p < j by omega), if_neg (show ¬ j = p by omega), mul_zero, mul_zero])
    rw [this, if_neg (lt_irrefl j), if_pos rfl, mul_one]
    have hs : ∑ p ∈ Finset.Ico 0 j, (if p < i then L (i, p) else if i = p then 1 else 0) *
        (d p * (if p < j then L (j, p) else if j = p then 1 else 0)) =
        ∑ p ∈ Finset.Ico 0 j, L (i, p) * L (j, p) * d p := by
      refine Finset.sum_congr rfl (fun p hp => ?_)
      have := (Finset.mem_Ico.1 hp).2
      rw [if_pos (by omega), if_pos (by omega)]
      ring
    rw [hs]
    rcases Nat.eq_or_lt_of_le hj with h | h
    · subst h
      rw [if_neg (lt_irrefl _), if_pos rfl, one_mul, h1 j (by omega)]
      ring
    · rw [if_pos h, h2 j (by omega) i h (by omega)]
      have := hp j (by omega)
      field_simp
      ring
  ext ⟨i, hi⟩ ⟨j, hj⟩
  rw [Matrix.mul_apply]
  simp only [Matrix.diagonal_mul, Matrix.transpose_apply, toMat, unitLower, Matrix.of_apply, Fin.lt_def,
    Fin.ext_iff]
  rcases Nat.le_total j i with h | h
  · rw [main i hi j h]
  · rw [hsym i (by omega) j (by omega), main j hj i h]
    refine Finset.sum_congr rfl (fun p _ => ?_)
    ring

/-- C22, LDLT factors: for symmetric `A` with non-zero pivots (except possibly the last) the computed
factors multiply back to `A`; the computed `L` is unit lower triangular. -/
theorem C22_ldlt_factors (n : ℕ) (A : Mat K) (hsym : ∀ i < n, ∀ j < n, A (i, j) = A (j, i)) (d0 : ℕ → K)
    (hp : ∀ k, k + 1 < n → (ldlt n A d0).2 k ≠ 0) :
    toMat n n A = toMat n n (ldlt n A d0).1 *
      (Matrix.diagonal (fun i : Fin n => (ldlt n A d0).2 i) * (toMat n n (ldlt n A d0).1).transpose) ∧
    (∀ i j, i ≤ j → (ldlt n A d0).1 (i, j) = if i = j then 1 else 0) := by
  have h3 := (ldlt_spec n A d0).2.2
  have e : unitLower n (ldlt n A d0).1 = toMat n n (ldlt n A d0).1 := by
    ext i j
    simp only [unitLower, toMat, Matrix.of_apply]
    split
    · rfl
    · rw [h3 (i, j) (by simp at *; omega)]
      simp [Fin.ext_iff]
  rw [← e]
  exact ⟨ldlt_factors n n le_rfl A hsym d0 hp, fun i j hij => h3 (i, j) hij⟩

theorem unitLower_det (n : ℕ) (L : Mat K) : (unitLower n L).det = 1 := by
  rw [Matrix.det_of_lowerTriangular]
  · simp [unitLower]
  · intro i j hij
    simp only [unitLower, Matrix.of_apply]
    have h : i < j := by simpa using hij
    rw [if_neg (by simp; exact h.le), if_neg (by rintro rfl; exact lt_irrefl _ h)]

/-- C22, LDLT pivots: for symmetric `A` the computed pivots are all non-zero exactly when all leading
principal minors are. -/
theorem C22_ldlt_pivots (n : ℕ) (A : Mat K) (hsym : ∀ i < n, ∀ j < n, A (i, j) = A (j, i)) (d0 : ℕ → K) :
    (∀ k < n, (ldlt n A d0).2 k ≠ 0) ↔ ∀ k < n, (toMat (k + 1) (k + 1) A).det ≠ 0 := by
  have key : ∀ k, k < n → (∀ p < k, (ldlt n A d0).2 p ≠ 0) →
      (toMat (k + 1) (k + 1) A).det = (∏ p : Fin k, (ldlt n A d0).2 p) * (ldlt n A d0).2 k := by
    intro k hk hp
    rw [ldlt_factors n (k + 1) (by omega) A hsym d0 (fun p hpk => hp p (by omega)), Matrix.det_mul,
      Matrix.det_mul, Matrix.det_transpose, unitLower_det, Matrix.det_diagonal, mul_one, one_mul,
      Fin.prod_univ_castSucc]
    simp
  constructor
  · intro h k hk
    rw [key k hk (fun p hp => h p (by omega))]
    refine mul_ne_zero (Finset.prod_ne_zero_iff.2 (fun p _ => h p (by omega))) (h k hk)
  · intro h k hk
    induction k using Nat.strong_induction_on with
    | _ k ih =>
        have := h k hk
        rw [key k hk (fun p hp => ih p hp (by omega))] at this
        exact right_ne_zero_of_mul this

theorem solveLDLT_spec (n m : ℕ) (L : Mat K) (d : ℕ → K) (b : Mat K) (y0 : ℕ → K) (x0 : Mat K)
    (j : ℕ) (hj : j < m) :
    ∃ y : ℕ → K, (∀ i < n, y i = b (i, j) - ∑ k ∈ Finset.Ico 0 i, L (i, k) * y k) ∧
      ∀ i < n, (solveLDLT n m L d b y0 x0).2 (i, j) =
        y i / d i - ∑ k ∈ Finset.Ico (i + 1) n, L (k, i) * (solveLDLT n m L d b y0 x0).2 (k, j) := by
  unfold solveLDLT
  refine columns_spec m _ (fun j x => ∃ y : ℕ → K,
    (∀ i < n, y i = b (i, j) - ∑ k ∈ Finset.Ico 0 i, L (i, k) * y k) ∧
      ∀ i < n, x (i, j) = y i / d i - ∑ k ∈ Finset.Ico (i + 1) n, L (k, i) * x (k, j)) ?_ ?_ (y0, x0) j hj
  · intro s j
    dsimp only
    set y := (List.range n).foldl (fun y i => Function.update y i
      (b (i, j) - accum 0 i (fun k => L (i, k) * y k))) s.1 with hy
    have hyi : ∀ i < n, y i = b (i, j) - ∑ k ∈ Finset.Ico 0 i, L (i, k) * y k := by
      intro i hi
      have := forward_spec n (fun i y => b (i, j) - accum 0 i (fun k => L (i, k) * y k))
        (by
          intro i q hq σ v
          dsimp only
          congr 1
          apply accum_congr
          intro p _ hp
          rw [Function.update_of_ne (by omega)]) s.1 i hi
      rw [← hy] at this
      rw [this, accum_eq]
    have hx := backward_spec n j (fun i x => y i / d i - accum (i + 1) n (fun k => L (k, i) * x (k, j)))
      (by
        intro i q hq σ v
        dsimp only
        congr 1
        apply accum_congr
        intro p hp _
        rw [Function.update_of_ne (by simp; omega)]) s.2
    refine ⟨⟨y, hyi, ?_⟩, hx.2⟩
    intro i hi
    rw [hx.1 i hi, accum_eq]
  · rintro j x x' hxx ⟨y, h1, h2⟩
    refine ⟨y, h1, fun i hi => ?_⟩
    rw [← hxx i, h2 i hi]
    congr 1
    exact Finset.sum_congr rfl (fun k _ => by rw [hxx k])

/-- C22, LDLT solver: for symmetric `A` with non-zero leading principal minors, `LDLTsolve` returns
the solution of `A X = B`. -/
theorem C22_ldlt_solve (n m : ℕ) (A B : Mat K) (d0 y0 : ℕ → K) (X0 : Mat K)
    (hsym : ∀ i < n, ∀ j < n, A (i, j) = A (j, i))
    (hA : ∀ k < n, (toMat (k + 1) (k + 1) A).det ≠ 0) :
    toMat n n A * toMat n m (LDLTsolve n m A B d0 y0 X0) = toMat n m B := by
  have hp := (C22_ldlt_pivots n A hsym d0).2 hA
  rw [ldlt_factors n n le_rfl A hsym d0 (fun k hk => hp k (by omega))]
  rw [Matrix.mul_assoc, Matrix.mul_assoc]
  unfold LDLTsolve
  dsimp only
  set L := (ldlt n A d0).1
  set d := (ldlt n A d0).2
  set X := (solveLDLT n m L d B y0 X0).2 with hX
  choose! y hy hx using fun j (hj : j < m) => solveLDLT_spec n m L d B y0 X0 j hj
  have e1 : Matrix.diagonal (fun i : Fin n => d i) * ((unitLower n L).transpose * toMat n m X) =
      Matrix.of (fun (i : Fin n) (j : Fin m) => y j i) := by
    ext ⟨i, hi⟩ ⟨j, hj⟩
    rw [Matrix.diagonal_mul, Matrix.mul_apply]
    simp only [unitLower, toMat, Matrix.of_apply, Matrix.transpose_apply, Fin.lt_def, Fin.ext_iff]
    have := sum_fin_upper n i hi (fun p => (if i < p then L (p, i) else if p = i then 1 else 0) * X (p, j))
      (fun p hp => by rw [if_neg (by omega), if_neg (by omega), zero_mul])
    rw [this, if_neg (lt_irrefl i), if_pos rfl, one_mul, hX, hx j hj i hi]
    have hs : ∑ p ∈ Finset.Ico (i + 1) n, (if i < p then L (p, i) else if p = i then 1 else 0) *
        (solveLDLT n m L d B y0 X0).2 (p, j) =
        ∑ p ∈ Finset.Ico (i + 1) n, L (p, i) * (solveLDLT n m L d B y0 X0).2 (p, j) := by
      refine Finset.sum_congr rfl (fun p hp => ?_)
      have := (Finset.mem_Ico.1 hp).1
      rw [if_pos (by omega)]
    rw [hs, sub_add_cancel, mul_div_cancel₀ _ (hp i hi)]
  rw [e1]
  ext ⟨i, hi⟩ ⟨j, hj⟩
  rw [Matrix.mul_apply]
  simp only [unitLower, toMat, Matrix.of_apply, Fin.lt_def, Fin.ext_iff]
  have := sum_fin_lower n i hi (fun p => (if p < i then L (i, p) else if i = p then 1 else 0) * y j p)
    (fun p hp => by rw [if_neg (by omega), if_neg (by omega), zero_mul])
  rw [this, if_neg (lt_irrefl i), if_pos rfl, one_mul, hy j hj i hi, add_comm, sub_add_eq_add_sub,
    sub_eq_iff_eq_add]
  congr 1
  refine Finset.sum_congr rfl (fun p hp => ?_)
  have := (Finset.mem_Ico.1 hp).2
  rw [if_pos (by omega)]

/-- C22, positive definite matrices: both solvers solve every real system with a positive definite
matrix, the documented field of application. -/
theorem C22_posdef_solve (n m : ℕ) (A B LU0 : Mat ℝ) (d0 y0 : ℕ → ℝ) (X0 : Mat ℝ)
    (hA : (toMat n n A).PosDef) :
    toMat n n A * toMat n m (LUsolve n m A B LU0 y0 X0) = toMat n m B ∧
    toMat n n A * toMat n m (LDLTsolve n m A B d0 y0 X0) = toMat n m B := by
  have hdet : ∀ k < n, (toMat (k + 1) (k + 1) A).det ≠ 0 := by
    intro k hk
    have h := hA.submatrix (e := Fin.castLE (show k + 1 ≤ n by omega)) (Fin.castLE_injective _)
    exact h.det_pos.ne'
  refine ⟨C22_lu_solve n m A B LU0 y0 X0 hdet, C22_ldlt_solve n m A B d0 y0 X0 ?_ hdet⟩
  intro i hi j hj
  have := hA.1.apply ⟨j, hj⟩ ⟨i, hi⟩
  simpa [toMat] using this

/-- Non-vacuous: the identity is positive definite, and a non-symmetric matrix with non-zero leading
minors. -/
example : (toMat 3 3 (fun p => if p.1 = p.2 then 1 else 0) : Matrix (Fin 3) (Fin 3) ℝ).PosDef := by
  have : (toMat 3 3 (fun p => if p.1 = p.2 then 1 else 0) : Matrix (Fin 3) (Fin 3) ℝ) = 1 := by
    ext i j; simp [toMat, Matrix.one_apply, Fin.ext_iff]
  rw [this]; exact Matrix.PosDef.one

example : LUsolve 2 1 (fun p => if p = (0, 0) then 2 else if p = (0, 1) then 1 else if p = (1, 0) then 4 else 5)
    (fun p => if p = (0, 0) then 3 else 9) (fun _ => 7) (fun _ => 7) (fun _ => 7) (1, 0) = (1 : ℚ) := by
  decide +kernel

end CT.Inverses
