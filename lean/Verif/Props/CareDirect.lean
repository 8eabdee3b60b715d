import Verif.Model.Care
import Verif.Props.CareOptimal
import Mathlib.LinearAlgebra.Matrix.Block
import Mathlib.Tactic.FinCases

/-!
# C173: the continuous-time regulator with the direct Riccati solver
-/

set_option linter.unusedSectionVars false

namespace CT.Care

open Matrix Filter Topology CT.LinOde CT.Lqr Polynomial

variable {n m : ℕ} {Q A : Matrix (Fin n) (Fin n) ℝ} {B : Matrix (Fin n) (Fin m) ℝ} {R : Matrix (Fin m) (Fin m) ℝ}

/-! ### What the numerical libraries promise -/

/-- A diagonal block of a real Schur form. -/
inductive Block (N : ℕ) where
  | one (i : Fin N)
  | two (i j : Fin N)

/-- The diagonal blocks from index `i` on: a nonzero entry below the diagonal joins two rows. -/
noncomputable def blocks {N : ℕ} (T : Matrix (Fin N) (Fin N) ℝ) (i : ℕ) : List (Block N) :=
  if h : i < N then
    if h1 : i + 1 < N then
      if T ⟨i + 1, h1⟩ ⟨i, h⟩ = 0 then .one ⟨i, h⟩ :: blocks T (i + 1)
      else .two ⟨i, h⟩ ⟨i + 1, h1⟩ :: blocks T (i + 2)
    else [.one ⟨i, h⟩]
  else []
termination_by N - i

/-- Characteristic polynomial of a block. -/
noncomputable def Block.poly {N : ℕ} (T : Matrix (Fin N) (Fin N) ℝ) : Block N → ℝ[X]
  | .one i => X - C (T i i)
  | .two i j => (X - C (T i i)) * (X - C (T j j)) - C (T i j * T j i)

/-- A block of two rows stands for a pair of complex eigenvalues. -/
def Block.Pair {N : ℕ} (T : Matrix (Fin N) (Fin N) ℝ) : Block N → Prop
  | .one _ => True
  | .two i j => ((T i i - T j j) / 2) ^ 2 + T i j * T j i < 0

/-- A block is selected if one of its rows is. -/
def Block.selected {N : ℕ} (sel : Fin N → Bool) : Block N → Bool
  | .one i => sel i
  | .two i j => sel i || sel j

/-- `Eigen::RealSchur`: `M = U T Uᵀ` with orthogonal `U`; blocks of two rows belong to complex eigenvalues.  Entries
below the diagonal of `T` are zero or at least `10⁻¹²` in magnitude. -/
structure SchurOk {N : ℕ} (M U T : Matrix (Fin N) (Fin N) ℝ) : Prop where
  orth : Uᵀ * U = 1
  eq : M = U * T * Uᵀ
  pairs : ∀ b ∈ blocks T 0, b.Pair T
  gap : ∀ (i : ℕ) (h : i + 1 < N), T ⟨i + 1, h⟩ ⟨i, by omega⟩ = 0 ∨ 1e-12 ≤ |T ⟨i + 1, h⟩ ⟨i, by omega⟩|

/-- LAPACK's `dtrsen` with `INFO = 0`: the same matrix in another basis; the eigenvalues of the selected blocks are those
of the leading block of `MS` rows, the others those of the remaining block. -/
structure ReorderOk {N : ℕ} (sel : Fin N → Bool) (U T : Matrix (Fin N) (Fin N) ℝ) (r : Reordered N) : Prop where
  info : r.INFO = 0
  orth : r.Uᵀ * r.U = 1
  eq : U * T * Uᵀ = r.U * r.T * r.Uᵀ
  le : r.MS ≤ N
  tri : ∀ i j : Fin N, r.MS ≤ i.val → j.val < r.MS → r.T i j = 0
  lead : (toSquareBlockProp r.T fun i => i.val < r.MS).charpoly =
    (((blocks T 0).filter fun b => b.selected sel).map (Block.poly T)).prod
  trail : (toSquareBlockProp r.T fun i => ¬ i.val < r.MS).charpoly =
    (((blocks T 0).filter fun b => !b.selected sel).map (Block.poly T)).prod

/-! ### The selection -/

theorem selectFrom_lt {N : ℕ} (T : Matrix (Fin N) (Fin N) ℝ) (i : ℕ) (sel : Fin N → Bool) (k : Fin N)
    (hk : k.val < i) : selectFrom T i sel k = sel k := by
  fun_induction selectFrom T i sel with
  | case1 i sel h h1 hs ih =>
    rw [ih (by omega), Function.update_of_ne]
    intro e; rw [e] at hk; simp at hk
  | case2 i sel h h1 hs s ih =>
    rw [ih (by omega), Function.update_of_ne, Function.update_of_ne]
    · intro e; rw [e] at hk; simp at hk
    · intro e; rw [e] at hk; simp at hk
  | case3 i sel h h1 =>
    rw [Function.update_of_ne]
    intro e; rw [e] at hk; simp at hk
  | case4 => rfl

/-- Roots of a block. -/
theorem root_one {N : ℕ} {T : Matrix (Fin N) (Fin N) ℝ} {i : Fin N} {μ : ℂ}
    (h : (((Block.one i).poly T).map Complex.ofRealHom).IsRoot μ) : μ.re = T i i := by
  simp only [Block.poly, Polynomial.map_sub, map_X, map_C, IsRoot.def, eval_sub, eval_X, eval_C] at h
  rw [sub_eq_zero.1 h]
  simp

theorem root_two {N : ℕ} {T : Matrix (Fin N) (Fin N) ℝ} {i j : Fin N} {μ : ℂ} (hp : (Block.two i j).Pair T)
    (h : (((Block.two i j).poly T).map Complex.ofRealHom).IsRoot μ) : μ.re = (T i i + T j j) / 2 := by
  simp only [Block.poly, Polynomial.map_sub, Polynomial.map_mul, map_X, map_C, IsRoot.def, eval_sub, eval_mul, eval_X,
    eval_C] at h
  have hr := congrArg Complex.re h
  have hi := congrArg Complex.im h
  simp at hr hi
  have hp' : ((T i i - T j j) / 2) ^ 2 + T i j * T j i < 0 := hp
  by_cases h0 : μ.im = 0
  · rw [h0] at hr
    nlinarith [sq_nonneg (μ.re - (T i i + T j j) / 2)]
  · have : μ.im * (2 * μ.re - T i i - T j j) = 0 := by linarith
    rcases mul_eq_zero.1 this with h1 | h1
    · exact absurd h1 h0
    · linarith

/-- The code selects exactly the blocks of eigenvalues with negative real part. -/
theorem selects {N : ℕ} (T : Matrix (Fin N) (Fin N) ℝ)
    (gap : ∀ (i : ℕ) (h : i + 1 < N), T ⟨i + 1, h⟩ ⟨i, by omega⟩ = 0 ∨ 1e-12 ≤ |T ⟨i + 1, h⟩ ⟨i, by omega⟩|)
    (i : ℕ) (sel : Fin N → Bool) : ∀ b ∈ blocks T i, b.Pair T →
      ∀ μ : ℂ, ((b.poly T).map Complex.ofRealHom).IsRoot μ → (b.selected (selectFrom T i sel) = true ↔ μ.re < 0) := by
  fun_induction selectFrom T i sel with
  | case1 i sel h h1 hs ih =>
    have h0 : T ⟨i + 1, h1⟩ ⟨i, h⟩ = 0 := by
      rcases gap i h1 with h2 | h2
      · exact h2
      · exact absurd hs (not_lt.2 h2)
    rw [blocks, dif_pos h, dif_pos h1, if_pos h0]
    intro b hb hp μ hμ
    rcases List.mem_cons.1 hb with rfl | hb
    · rw [root_one hμ, Block.selected, selectFrom_lt _ _ _ _ (by simp)]
      simp
    · exact ih b hb hp μ hμ
  | case2 i sel h h1 hs s ih =>
    have h0 : T ⟨i + 1, h1⟩ ⟨i, h⟩ ≠ 0 := by
      intro h2
      apply hs
      rw [h2]; norm_num
    rw [blocks, dif_pos h, dif_pos h1, if_neg h0]
    intro b hb hp μ hμ
    rcases List.mem_cons.1 hb with rfl | hb
    · rw [root_two hp hμ, Block.selected, selectFrom_lt _ _ _ _ (by simp), selectFrom_lt _ _ _ _ (by simp)]
      simp [s, Function.update]
    · exact ih b hb hp μ hμ
  | case3 i sel h h1 =>
    rw [blocks, dif_pos h, dif_neg h1]
    intro b hb hp μ hμ
    rw [List.mem_singleton.1 hb] at hμ ⊢
    rw [root_one hμ, Block.selected]
    simp
  | case4 i sel h =>
    rw [blocks, dif_neg h]
    simp

theorem root_prod {l : List ℝ[X]} {μ : ℂ} (h : ((l.prod).map Complex.ofRealHom).IsRoot μ) :
    ∃ p ∈ l, (p.map Complex.ofRealHom).IsRoot μ := by
  induction l with
  | nil => simp at h
  | cons p l ih =>
    rw [List.prod_cons, Polynomial.map_mul, IsRoot.def, eval_mul, mul_eq_zero] at h
    rcases h with h | h
    · exact ⟨p, List.mem_cons_self, h⟩
    · obtain ⟨q, hq, hr⟩ := ih h
      exact ⟨q, List.mem_cons_of_mem _ hq, hr⟩

section
variable {N : ℕ} {M U T : Matrix (Fin N) (Fin N) ℝ} {junk : Fin N → Bool} {r : Reordered N}

theorem lead_hurwitz (hs : SchurOk M U T) (hr : ReorderOk (selectFrom T 0 junk) U T r) :
    Hurwitz (toSquareBlockProp r.T fun i => i.val < r.MS) := by
  rw [hurwitz_iff]
  intro μ hμ
  rw [hr.lead] at hμ
  obtain ⟨p, hp, hμ⟩ := root_prod hμ
  obtain ⟨b, hb, rfl⟩ := List.mem_map.1 hp
  obtain ⟨hb, hsel⟩ := List.mem_filter.1 hb
  exact (selects T hs.gap 0 junk b hb (hs.pairs b hb) μ hμ).1 hsel

theorem trail_nonneg (hs : SchurOk M U T) (hr : ReorderOk (selectFrom T 0 junk) U T r) {μ : ℂ}
    (hμ : ((toSquareBlockProp r.T fun i => ¬ i.val < r.MS).charpoly.map Complex.ofRealHom).IsRoot μ) : 0 ≤ μ.re := by
  rw [hr.trail] at hμ
  obtain ⟨p, hp, hμ⟩ := root_prod hμ
  obtain ⟨b, hb, rfl⟩ := List.mem_map.1 hp
  obtain ⟨hb, hsel⟩ := List.mem_filter.1 hb
  by_contra hneg
  have := (selects T hs.gap 0 junk b hb (hs.pairs b hb) μ hμ).2 (not_le.1 hneg)
  rw [this] at hsel
  simp at hsel

end

/-! ### The leading Schur vectors -/

/-- The Schur vectors with rows as in the Hamiltonian matrix. -/
def rows (U : Matrix (Fin (n + n)) (Fin (n + n)) ℝ) : Matrix (Fin n ⊕ Fin n) (Fin (n + n)) ℝ :=
  U.submatrix finSumFinEquiv id

section
variable {M : Matrix (Fin n ⊕ Fin n) (Fin n ⊕ Fin n) ℝ} {U T : Matrix (Fin (n + n)) (Fin (n + n)) ℝ}
  {junk : Fin (n + n) → Bool} {r : Reordered (n + n)}

theorem rows_orth (hr : r.Uᵀ * r.U = 1) : (rows r.U)ᵀ * rows r.U = 1 := by
  rw [rows, transpose_submatrix, submatrix_mul_equiv, hr]
  simp

theorem rows_orth' (hr : r.Uᵀ * r.U = 1) : rows r.U * (rows r.U)ᵀ = 1 := by
  have h : r.U * r.Uᵀ = 1 := mul_eq_one_comm.1 hr
  ext i j
  have := congrFun (congrFun h (finSumFinEquiv i)) (finSumFinEquiv j)
  simp only [rows, mul_apply, transpose_apply, submatrix_apply, id] at this ⊢
  rw [this]
  simp [one_apply]

theorem rows_eq (hs : SchurOk (reindex finSumFinEquiv finSumFinEquiv M) U T)
    (hr : ReorderOk (selectFrom T 0 junk) U T r) : M * rows r.U = rows r.U * r.T := by
  have h : reindex finSumFinEquiv finSumFinEquiv M * r.U = r.U * r.T := by
    rw [hs.eq, hr.eq, Matrix.mul_assoc (r.U * r.T), hr.orth, Matrix.mul_one]
  have hM : M = (reindex finSumFinEquiv finSumFinEquiv M).submatrix finSumFinEquiv finSumFinEquiv := by
    ext i j; simp
  rw [hM]
  rw [rows, submatrix_mul_equiv, h]
  ext i j
  simp [mul_apply]

theorem rows_left (hs : SchurOk (reindex finSumFinEquiv finSumFinEquiv M) U T)
    (hr : ReorderOk (selectFrom T 0 junk) U T r) : (rows r.U)ᵀ * M = r.T * (rows r.U)ᵀ := by
  calc (rows r.U)ᵀ * M = (rows r.U)ᵀ * (M * rows r.U) * (rows r.U)ᵀ := by
        rw [← Matrix.mul_assoc, Matrix.mul_assoc ((rows r.U)ᵀ * M), rows_orth' hr.orth, Matrix.mul_one]
    _ = (rows r.U)ᵀ * rows r.U * r.T * (rows r.U)ᵀ := by rw [rows_eq hs hr]; simp only [Matrix.mul_assoc]
    _ = r.T * (rows r.U)ᵀ := by rw [rows_orth hr.orth, Matrix.one_mul]

/-- Columns in a set. -/
def cols (U : Matrix (Fin (n + n)) (Fin (n + n)) ℝ) (p : Fin (n + n) → Prop) :
    Matrix (Fin n ⊕ Fin n) {i // p i} ℝ := (rows U).submatrix id Subtype.val

theorem cols_orth (hr : r.Uᵀ * r.U = 1) (p : Fin (n + n) → Prop) [DecidablePred p] :
    (cols r.U p)ᵀ * cols r.U p = 1 := by
  have h := rows_orth hr
  ext i j
  have := congrFun (congrFun h i.val) j.val
  simp only [cols, mul_apply, transpose_apply, submatrix_apply, id] at this ⊢
  rw [this]
  simp [one_apply, Subtype.ext_iff]

theorem lead_eq (hs : SchurOk (reindex finSumFinEquiv finSumFinEquiv M) U T)
    (hr : ReorderOk (selectFrom T 0 junk) U T r) :
    M * cols r.U (fun i => i.val < r.MS) = cols r.U (fun i => i.val < r.MS) *
      toSquareBlockProp r.T fun i => i.val < r.MS := by
  have h := rows_eq hs hr
  ext i j
  have := congrFun (congrFun h i) j.val
  simp only [cols, mul_apply, submatrix_apply, id, toSquareBlockProp_def, of_apply] at this ⊢
  rw [this, ← Fintype.sum_subtype_add_sum_subtype (fun k : Fin (n + n) => k.val < r.MS)]
  rw [add_eq_left]
  exact Finset.sum_eq_zero fun k _ => by rw [hr.tri k.val j.val (not_lt.1 k.2) j.2, mul_zero]

theorem trail_eq (hs : SchurOk (reindex finSumFinEquiv finSumFinEquiv M) U T)
    (hr : ReorderOk (selectFrom T 0 junk) U T r) :
    (cols r.U fun i => ¬ i.val < r.MS)ᵀ * M = (toSquareBlockProp r.T fun i => ¬ i.val < r.MS) *
      (cols r.U fun i => ¬ i.val < r.MS)ᵀ := by
  have h := rows_left hs hr
  ext i j
  have := congrFun (congrFun h i.val) j
  simp only [cols, mul_apply, submatrix_apply, id, toSquareBlockProp_def, of_apply, transpose_apply] at this ⊢
  rw [this, ← Fintype.sum_subtype_add_sum_subtype (fun k : Fin (n + n) => k.val < r.MS)]
  rw [add_eq_right]
  exact Finset.sum_eq_zero fun k _ => by rw [hr.tri i.val k.val (not_lt.1 i.2) k.2, zero_mul]

end

section
variable {U T : Matrix (Fin (n + n)) (Fin (n + n)) ℝ} {junk : Fin (n + n) → Bool} {r : Reordered (n + n)}

theorem trail_hurwitz (hQ : Psd Q) (hR : Pd R) (hst : Stabilisable A B) (hd : Detectable A Q)
    (hs : SchurOk (reindex finSumFinEquiv finSumFinEquiv (hamiltonian Q A B R⁻¹)) U T)
    (hr : ReorderOk (selectFrom T 0 junk) U T r) :
    Hurwitz (-(toSquareBlockProp r.T fun i => ¬ i.val < r.MS)) := by
  set T2 := toSquareBlockProp r.T fun i => ¬ i.val < r.MS with hT2
  intro ν v hv e
  have e' : cx T2 *ᵥ v = (-ν) • v := by
    have e1 : cx (-T2) = -cx T2 := by ext; simp
    have e2 : -cx T2 *ᵥ v = ν • v := by rw [← e1]; exact e
    rw [neg_smul, ← e2, neg_mulVec, neg_neg]
  have hroot : (T2.charpoly.map Complex.ofRealHom).IsRoot (-ν) := (root_iff _).2 ⟨v, hv, e'⟩
  have hge := trail_nonneg hs hr hroot
  rcases hge.lt_or_eq with hlt | heq
  · simp at hlt; exact hlt
  · exfalso
    have htr := charpoly_transpose T2
    rw [← htr] at hroot
    obtain ⟨z, hz, ez⟩ := (root_iff _).1 hroot
    set V2 := cols r.U fun i => ¬ i.val < r.MS with hV2
    have h1 : (hamiltonian Q A B R⁻¹)ᵀ * V2 = V2 * T2ᵀ := by
      have := congrArg transpose (trail_eq hs hr)
      simpa [transpose_mul] using this
    have h2 : cx (hamiltonian Q A B R⁻¹)ᵀ *ᵥ (cx V2 *ᵥ z) = (-ν) • (cx V2 *ᵥ z) := by
      rw [mulVec_mulVec, ← cx_mul, h1, cx_mul, ← mulVec_mulVec]
      rw [show cx T2ᵀ *ᵥ z = (-ν) • z from ez, mulVec_smul]
    have h3 : cx V2 *ᵥ z ≠ 0 := by
      intro h0
      apply hz
      have h4 : cx (V2ᵀ * V2) *ᵥ z = z := by
        rw [cols_orth hr.orth]; simp
      rw [cx_mul, ← mulVec_mulVec, h0, mulVec_zero] at h4
      exact h4.symm
    have h5 : ((hamiltonian Q A B R⁻¹)ᵀ.charpoly.map Complex.ofRealHom).IsRoot (-ν) := (root_iff _).2 ⟨_, h3, h2⟩
    rw [charpoly_transpose] at h5
    obtain ⟨w, hw, ew⟩ := (root_iff _).1 h5
    exact hw (ham_no_imag hQ hR hst hd heq.symm ew)

/-- Exactly half of the eigenvalues are selected. -/
theorem ms_eq (hQ : Psd Q) (hR : Pd R) (hst : Stabilisable A B) (hd : Detectable A Q)
    (hs : SchurOk (reindex finSumFinEquiv finSumFinEquiv (hamiltonian Q A B R⁻¹)) U T)
    (hr : ReorderOk (selectFrom T 0 junk) U T r) : r.MS = n := by
  have h1 := isotropic_card (cols_orth hr.orth fun i => i.val < r.MS)
    (stable_isotropic hQ.1 hR.1 (lead_hurwitz hs hr) (lead_eq hs hr))
  have h2 := isotropic_card (cols_orth hr.orth fun i => ¬ i.val < r.MS)
    (antistable_isotropic hQ.1 hR.1 (trail_hurwitz hQ hR hst hd hs hr) (trail_eq hs hr))
  have h3 := Fintype.card_subtype_compl fun i : Fin (n + n) => i.val < r.MS
  have h4 : Fintype.card {i : Fin (n + n) // i.val < r.MS} = r.MS := by
    rw [Fintype.card_subtype]
    exact Fin.card_filter_val_lt.trans (min_eq_right hr.le)
  rw [h3, h4, Fintype.card_fin] at h2
  rw [h4] at h1
  omega

/-- The leading columns. -/
def leadEquiv (h : r.MS = n) : Fin n ≃ {i : Fin (n + n) // i.val < r.MS} where
  toFun i := ⟨Fin.castAdd n i, by simp [h]⟩
  invFun i := ⟨i.val, by have := i.2; omega⟩
  left_inv i := by simp
  right_inv i := by ext; simp

theorem lead_cols (h : r.MS = n) :
    fromRows (reindex finSumFinEquiv.symm finSumFinEquiv.symm r.U).toBlocks₁₁
      (reindex finSumFinEquiv.symm finSumFinEquiv.symm r.U).toBlocks₂₁ =
      (cols r.U fun i => i.val < r.MS).submatrix id (leadEquiv h) := by
  ext i j
  cases i <;> simp [cols, rows, toBlocks₁₁, toBlocks₂₁, leadEquiv]

/-- What the direct solver gives for a stabilisable and detectable system. -/
theorem direct_solution (hQ : Psd Q) (hR : Pd R) (hst : Stabilisable A B) (hd : Detectable A Q)
    (hs : SchurOk (reindex finSumFinEquiv finSumFinEquiv (hamiltonian Q A B R⁻¹)) U T)
    (hr : ReorderOk (selectFrom T 0 junk) U T r) :
    let P := solveSchurDirect (reindex finSumFinEquiv.symm finSumFinEquiv.symm r.U)
    Psd P ∧ SolvesCARE Q A B R P ∧ Hurwitz (A - B * lqrGain R⁻¹ B P) := by
  have hms := ms_eq hQ hR hst hd hs hr
  set U1 := (reindex finSumFinEquiv.symm finSumFinEquiv.symm r.U).toBlocks₁₁ with hU1
  set U2 := (reindex finSumFinEquiv.symm finSumFinEquiv.symm r.U).toBlocks₂₁ with hU2
  have hl : fromRows U1 U2 = (cols r.U fun i => i.val < r.MS).submatrix id (leadEquiv hms) := lead_cols hms
  set T1 := (toSquareBlockProp r.T fun i => i.val < r.MS).submatrix (leadEquiv hms) (leadEquiv hms) with hT1
  have hT : Hurwitz T1 := (hurwitz_reindex (leadEquiv hms).symm _).2 (lead_hurwitz hs hr)
  have h1 : hamiltonian Q A B R⁻¹ * fromRows U1 U2 = fromRows U1 U2 * T1 := by
    rw [hl, hT1, submatrix_mul_equiv, ← lead_eq hs hr]
    ext i j
    simp [mul_apply]
  have h2 : (fromRows U1 U2)ᵀ * fromRows U1 U2 = 1 := by
    have h3 := cols_orth hr.orth fun i => i.val < r.MS
    rw [hl]
    ext i j
    have := congrFun (congrFun h3 (leadEquiv hms i)) (leadEquiv hms j)
    simp only [mul_apply, transpose_apply, submatrix_apply, id] at this ⊢
    rw [this]
    simp [one_apply]
  exact stable_solution hQ hR hT h1 (upper_isUnit hQ hR hst hT h1 h2)

end

/-! ### The property -/

theorem exists_solves (M : Matrix (Fin n) (Fin n) ℝ) (x0 : Fin n → ℝ) : ∃ x, x 0 = x0 ∧ Solves M x := by
  let L : (Fin n → ℝ) →L[ℝ] (Fin n → ℝ) := LinearMap.toContinuousLinearMap M.mulVecLin
  refine ⟨fun t => NormedSpace.exp (t • L) x0, by simp, fun t => ?_⟩
  have h := (hasDerivAt_exp_smul_const' L t).clm_apply (hasDerivAt_const t x0)
  refine h.congr_deriv ?_
  simp [L]

/-- The stabilising solution is the only positive semi-definite one. -/
theorem care_unique (hQ : Psd Q) (hR : Pd R) (hd : Detectable A Q) {P P' : Matrix (Fin n) (Fin n) ℝ} (h1 : Psd P)
    (h2 : SolvesCARE Q A B R P) (h3 : Hurwitz (A - B * lqrGain R⁻¹ B P)) (hP' : Psd P')
    (hc' : SolvesCARE Q A B R P') : P' = P := by
  have hform : ∀ x0, x0 ⬝ᵥ (P' *ᵥ x0) = x0 ⬝ᵥ (P *ᵥ x0) := by
    intro x0
    apply le_antisymm
    · -- the stabilising feedback costs at least the other value
      obtain ⟨x, hx0, hx⟩ := exists_solves (A - B * lqrGain R⁻¹ B P) x0
      have hm : Motion A B x fun t => -(lqrGain R⁻¹ B P *ᵥ x t) := fun t => by
        have := hx t
        rw [sub_mulVec, ← mulVec_mulVec] at this
        simpa [mulVec_neg, sub_eq_add_neg] using this
      have hcont : Continuous fun t => -(lqrGain R⁻¹ B P *ᵥ x t) :=
        (Continuous.matrix_mulVec continuous_const hm.continuous).neg
      have hlim := feedback_cost hR h1 h2 h3 hm fun t => rfl
      have hxt := h3.tendsto hx
      have hlow := (tendsto_form P' hxt hxt).const_sub (x 0 ⬝ᵥ (P' *ᵥ x 0))
      rw [sub_zero] at hlow
      rw [← hx0]
      refine le_of_tendsto_of_tendsto hlow hlim ?_
      filter_upwards [eventually_ge_atTop 0] with S hS
      rw [cost_eq hR hP'.1 hc' hm hcont S]
      have := penalty_nonneg hR (w := fun t => -(lqrGain R⁻¹ B P *ᵥ x t) + lqrGain R⁻¹ B P' *ᵥ x t) hS
      linarith
    · obtain ⟨x, hx0, hx⟩ := exists_solves (A - B * lqrGain R⁻¹ B P') x0
      have hm : Motion A B x fun t => -(lqrGain R⁻¹ B P' *ᵥ x t) := fun t => by
        have := hx t
        rw [sub_mulVec, ← mulVec_mulVec] at this
        simpa [mulVec_neg, sub_eq_add_neg] using this
      have hcont : Continuous fun t => -(lqrGain R⁻¹ B P' *ᵥ x t) :=
        (Continuous.matrix_mulVec continuous_const hm.continuous).neg
      rw [← hx0]
      refine value_le hQ hR hd h1 h2 hm hcont fun S hS => ?_
      rw [cost_eq hR hP'.1 hc' hm hcont S]
      have := hP'.2 (x S)
      simp
      linarith
  have hz : Psd (P' - P) := ⟨by rw [transpose_sub, hP'.1, h1.1], fun v => by
    rw [sub_mulVec, dotProduct_sub, hform v, sub_self]⟩
  have : ∀ v, (P' - P) *ᵥ v = 0 := fun v => psd_ker hz (by rw [sub_mulVec, dotProduct_sub, hform v, sub_self])
  have h0 : P' - P = 0 := by
    ext i j
    have := congrFun (this (Pi.single j 1)) i
    simpa using this
  exact sub_eq_zero.1 h0

/-- C173, Riccati equation: if the system is stabilisable and detectable and the libraries deliver what they promise, the
direct solver reports success and returns the only symmetric positive semi-definite solution of the algebraic Riccati
equation. -/
theorem C173_riccati (hQ : Psd Q) (hR : Pd R) (hst : Stabilisable A B) (hd : Detectable A Q) (flag : Bool)
    (hflag : flag = true → R.IsDiag ∧ ∀ i, R i i ≠ 0) (schur : SchurFn (n + n)) (dtrsen : ReorderFn (n + n))
    (junk : Fin (n + n) → Bool) (U T : Matrix (Fin (n + n)) (Fin (n + n)) ℝ)
    (hsch : schur (reindex finSumFinEquiv finSumFinEquiv (hamiltonian Q A B (rInverse flag R))) = some (U, T))
    (hs : SchurOk (reindex finSumFinEquiv finSumFinEquiv (hamiltonian Q A B (rInverse flag R))) U T)
    (hr : ReorderOk (selectFrom T 0 junk) U T (dtrsen (selectFrom T 0 junk) U T)) :
    ∃ P, careDirect schur dtrsen junk (hamiltonian Q A B (rInverse flag R)) = .ok (true, P) ∧ Psd P ∧
      SolvesCARE Q A B R P ∧ ∀ P', Psd P' → SolvesCARE Q A B R P' → P' = P := by
  rw [rInverse_eq flag R hflag] at hsch hs ⊢
  obtain ⟨h1, h2, h3⟩ := direct_solution hQ hR hst hd hs hr
  exact ⟨_, by rw [careDirect, hsch]; simp [hr.info], h1, h2, fun P' hP' hc' => care_unique hQ hR hd h1 h2 h3 hP' hc'⟩

/-- Specification: with the feedback `u = -K x` every motion comes to rest; the total cost of a motion under the
feedback is the least total cost of any motion from the same state, and no other continuous input attains it. -/
def OptimalFeedback (Q : Matrix (Fin n) (Fin n) ℝ) (R : Matrix (Fin m) (Fin m) ℝ) (A : Matrix (Fin n) (Fin n) ℝ)
    (B : Matrix (Fin n) (Fin m) ℝ) (K : Matrix (Fin m) (Fin n) ℝ) : Prop :=
  (∀ x u, Motion A B x u → (∀ t, u t = -(K *ᵥ x t)) → Tendsto x atTop (𝓝 0)) ∧
  ∀ x0 : Fin n → ℝ, ∃ c : ℝ,
    (∃ x u, Motion A B x u ∧ x 0 = x0 ∧ ∀ t, u t = -(K *ᵥ x t)) ∧
    (∀ x u, Motion A B x u → x 0 = x0 → (∀ t, u t = -(K *ᵥ x t)) → Tendsto (cost Q R x u) atTop (𝓝 c)) ∧
    ∀ x u, Motion A B x u → Continuous u → x 0 = x0 → ∀ C, (∀ S, 0 ≤ S → cost Q R x u S ≤ C) →
      c ≤ C ∧ (C = c → ∀ t, 0 ≤ t → u t = -(K *ᵥ x t))

theorem motion_tendsto {K : Matrix (Fin m) (Fin n) ℝ} (h : Hurwitz (A - B * K)) {x : ℝ → Fin n → ℝ}
    {u : ℝ → Fin m → ℝ} (hm : Motion A B x u) (hu : ∀ t, u t = -(K *ᵥ x t)) : Tendsto x atTop (𝓝 0) := by
  refine h.tendsto fun t => ?_
  have := hm t
  rw [hu t] at this
  rw [sub_mulVec, ← mulVec_mulVec]
  simpa [mulVec_neg, sub_eq_add_neg] using this

theorem optimal_feedback (hQ : Psd Q) (hR : Pd R) (hd : Detectable A Q) {P : Matrix (Fin n) (Fin n) ℝ} (h1 : Psd P)
    (h2 : SolvesCARE Q A B R P) (h3 : Hurwitz (A - B * lqrGain R⁻¹ B P)) :
    OptimalFeedback Q R A B (lqrGain R⁻¹ B P) := by
  refine ⟨fun x u hm hu => motion_tendsto h3 hm hu, fun x0 => ⟨x0 ⬝ᵥ (P *ᵥ x0), ?_,
    fun x u hm hx hu => by rw [← hx]; exact feedback_cost hR h1 h2 h3 hm hu,
    fun x u hm hu hx C hC => ⟨by rw [← hx]; exact value_le hQ hR hd h1 h2 hm hu hC, fun hCc t ht => ?_⟩⟩⟩
  · obtain ⟨x, hx0, hx⟩ := exists_solves (A - B * lqrGain R⁻¹ B P) x0
    refine ⟨x, fun t => -(lqrGain R⁻¹ B P *ᵥ x t), fun t => ?_, hx0, fun t => rfl⟩
    have := hx t
    rw [sub_mulVec, ← mulVec_mulVec] at this
    simpa [mulVec_neg, sub_eq_add_neg] using this
  · refine attained_only hQ hR hd h1 h2 hm hu (fun S hS => ?_) ht
    rw [hx, ← hCc]; exact hC S hS

/-- C173, feedback: under the same conditions `LQR::compute` reports success; with its feedback every motion comes to
rest; the total cost of a motion under the feedback is the least total cost of any motion from the same state, and no
other continuous input attains it. -/
theorem C173_feedback (hQ : Psd Q) (hR : Pd R) (hst : Stabilisable A B) (hd : Detectable A Q) (flag : Bool)
    (hflag : flag = true → R.IsDiag ∧ ∀ i, R i i ≠ 0) (schur : SchurFn (n + n)) (dtrsen : ReorderFn (n + n))
    (junk : Fin (n + n) → Bool) (U T : Matrix (Fin (n + n)) (Fin (n + n)) ℝ)
    (hsch : schur (reindex finSumFinEquiv finSumFinEquiv (hamiltonian Q A B (rInverse flag R))) = some (U, T))
    (hs : SchurOk (reindex finSumFinEquiv finSumFinEquiv (hamiltonian Q A B (rInverse flag R))) U T)
    (hr : ReorderOk (selectFrom T 0 junk) U T (dtrsen (selectFrom T 0 junk) U T)) :
    ∃ K, lqrCompute schur dtrsen junk Q R A B flag = .ok (true, K) ∧ OptimalFeedback Q R A B K := by
  have hRi := rInverse_eq flag R hflag
  rw [hRi] at hsch hs
  obtain ⟨h1, h2, h3⟩ := direct_solution hQ hR hst hd hs hr
  exact ⟨_, by rw [lqrCompute, hRi, careDirect, hsch]; simp [hr.info], optimal_feedback hQ hR hd h1 h2 h3⟩

/-! ### A case that meets the conditions, and one that does not -/

theorem blocks_two {T : Matrix (Fin 2) (Fin 2) ℝ} (h : T 1 0 = 0) : blocks T 0 = [.one 0, .one 1] := by
  rw [blocks, dif_pos (by omega), dif_pos (by omega), if_pos (by exact h), blocks, dif_pos (by omega), dif_neg (by omega)]
  rfl

theorem select_two {T : Matrix (Fin 2) (Fin 2) ℝ} (h : T 1 0 = 0) (junk : Fin 2 → Bool) :
    selectFrom T 0 junk = fun k => decide (T k k < 0) := by
  rw [selectFrom, dif_pos (by omega), dif_pos (by omega), if_pos (by
    have : T ⟨0 + 1, by omega⟩ ⟨0, by omega⟩ = 0 := h
    rw [this]; norm_num), selectFrom, dif_pos (by omega), dif_neg (by omega)]
  funext k
  fin_cases k
  · rw [Function.update_of_ne (by simp)]; simp
  · simp

/-- The integrator `ẋ = u` with weights `16/9` and `1`: Schur form of its Hamiltonian matrix. -/
noncomputable def exU : Matrix (Fin 2) (Fin 2) ℝ := Matrix.of ![![3 / 5, -4 / 5], ![4 / 5, 3 / 5]]
noncomputable def exT : Matrix (Fin 2) (Fin 2) ℝ := Matrix.of ![![-4 / 3, 7 / 9], ![0, 4 / 3]]
noncomputable def exM : Matrix (Fin 2) (Fin 2) ℝ := Matrix.of ![![0, -1], ![-16 / 9, 0]]

theorem ex_ham : reindex finSumFinEquiv finSumFinEquiv
    (hamiltonian (n := 1) (m := 1) ((16 / 9 : ℝ) • 1) 0 1 (rInverse true 1)) = exM := by
  have e0 : (finSumFinEquiv (m := 1) (n := 1)).symm 0 = Sum.inl 0 := by decide
  have e1 : (finSumFinEquiv (m := 1) (n := 1)).symm 1 = Sum.inr 0 := by decide
  ext i j
  rw [reindex_apply, submatrix_apply]
  fin_cases i <;> fin_cases j <;>
    simp only [Fin.zero_eta, Fin.mk_one, Fin.isValue, e0, e1] <;>
    norm_num [hamiltonian, exM, rInverse]

theorem charpoly_unique {ι : Type} [Fintype ι] [DecidableEq ι] [Unique ι] (M : Matrix ι ι ℝ) :
    M.charpoly = X - C (M default default) := by
  rw [Matrix.charpoly, det_unique, charmatrix_apply_eq]

theorem ex_schur : SchurOk exM exU exT where
  orth := by
    ext i j
    fin_cases i <;> fin_cases j <;> norm_num [exU, mul_apply, Fin.sum_univ_two]
  eq := by
    ext i j
    fin_cases i <;> fin_cases j <;> norm_num [exU, exM, exT, mul_apply, Fin.sum_univ_two]
  pairs := by
    rw [blocks_two (by simp [exT])]
    simp [Block.Pair]
  gap := fun i h => by
    obtain rfl : i = 0 := by omega
    left
    exact (by simp [exT] : exT 1 0 = 0)

theorem ex_reorder (junk : Fin 2 → Bool) : ReorderOk (selectFrom exT 0 junk) exU exT ⟨exU, exT, 1, 0⟩ where
  info := rfl
  orth := ex_schur.orth
  eq := rfl
  le := by decide
  tri := fun i j hi hj => by
    fin_cases i
    · simp at hi
    · fin_cases j
      · simp [exT]
      · simp at hj
  lead := by
    let _ : Unique {i : Fin 2 // i.val < 1} := ⟨⟨⟨0, by decide⟩⟩, fun ⟨i, hi⟩ => Subtype.ext (Fin.ext (by
      have := hi; simp at this ⊢; omega))⟩
    rw [blocks_two (by simp [exT]), select_two (by simp [exT])]
    refine (charpoly_unique _).trans ?_
    have h0 : exT 0 0 < 0 := by norm_num [exT]
    have h1 : ¬ exT 1 1 < 0 := by norm_num [exT]
    simp [Block.selected, Block.poly, h0, h1, toSquareBlockProp]
    rfl
  trail := by
    let _ : Unique {i : Fin 2 // ¬ i.val < 1} := ⟨⟨⟨1, by decide⟩⟩, fun ⟨i, hi⟩ => Subtype.ext (Fin.ext (by
      have := hi; have := i.2; show i.val = 1; omega))⟩
    rw [blocks_two (by simp [exT]), select_two (by simp [exT])]
    refine (charpoly_unique _).trans ?_
    have h0 : exT 0 0 < 0 := by norm_num [exT]
    have h1 : ¬ exT 1 1 < 0 := by norm_num [exT]
    simp [Block.selected, Block.poly, h0, h1, toSquareBlockProp]
    rfl

theorem hurwitz_scalar {M : Matrix (Fin 1) (Fin 1) ℝ} (ha : M 0 0 < 0) : Hurwitz M := by
  intro μ v hv e
  have hv0 : v 0 ≠ 0 := fun h => hv (by ext i; fin_cases i; simpa using h)
  have := congrFun e 0
  simp only [mulVec, dotProduct, Fin.sum_univ_one, map_apply, Pi.smul_apply, smul_eq_mul] at this
  rw [← mul_right_cancel₀ hv0 this]
  simpa using ha

theorem pd_scalar {a : ℝ} (ha : 0 < a) : Pd (a • (1 : Matrix (Fin 1) (Fin 1) ℝ)) := by
  refine ⟨by simp, fun v hv => ?_⟩
  have hv0 : v 0 ≠ 0 := fun h => hv (by ext i; fin_cases i; simpa using h)
  simp only [smul_mulVec, one_mulVec, dotProduct, Fin.sum_univ_one, Pi.smul_apply, smul_eq_mul]
  have := mul_self_pos.2 hv0
  nlinarith

/-- All conditions hold for the integrator. -/
example (junk : Fin (1 + 1) → Bool) : ∃ (schur : SchurFn (1 + 1)) (dtrsen : ReorderFn (1 + 1))
    (U T : Matrix (Fin (1 + 1)) (Fin (1 + 1)) ℝ),
    Psd ((16 / 9 : ℝ) • (1 : Matrix (Fin 1) (Fin 1) ℝ)) ∧ Pd (1 : Matrix (Fin 1) (Fin 1) ℝ) ∧
    Stabilisable (0 : Matrix (Fin 1) (Fin 1) ℝ) (1 : Matrix (Fin 1) (Fin 1) ℝ) ∧
    Detectable (0 : Matrix (Fin 1) (Fin 1) ℝ) ((16 / 9 : ℝ) • (1 : Matrix (Fin 1) (Fin 1) ℝ)) ∧
    (true = true → (1 : Matrix (Fin 1) (Fin 1) ℝ).IsDiag ∧ ∀ i, (1 : Matrix (Fin 1) (Fin 1) ℝ) i i ≠ 0) ∧
    schur (reindex finSumFinEquiv finSumFinEquiv
      (hamiltonian (n := 1) (m := 1) ((16 / 9 : ℝ) • 1) 0 1 (rInverse true 1))) = some (U, T) ∧
    SchurOk (reindex finSumFinEquiv finSumFinEquiv
      (hamiltonian (n := 1) (m := 1) ((16 / 9 : ℝ) • 1) 0 1 (rInverse true 1))) U T ∧
    ReorderOk (selectFrom T 0 junk) U T (dtrsen (selectFrom T 0 junk) U T) :=
  ⟨fun _ => some (exU, exT), fun _ _ _ => ⟨exU, exT, 1, 0⟩, exU, exT, (pd_scalar (by norm_num)).psd,
    by simpa using pd_scalar (a := 1) one_pos,
    ⟨-1, hurwitz_scalar (by simp)⟩, ⟨-1, hurwitz_scalar (by simp)⟩, fun _ => ⟨isDiag_one, fun i => by simp⟩, rfl,
    by rw [ex_ham]; exact ex_schur, ex_reorder junk⟩

/-- C173 fails without the conditions, silently: success is reported for a system that no feedback stabilises and that
stays where it is under the returned one.  Neither the number of stable eigenvalues nor the block that is inverted is
checked. -/
theorem C173_unstabilisable_violated : ∃ (schur : SchurFn (1 + 1)) (dtrsen : ReorderFn (1 + 1))
    (U T : Matrix (Fin (1 + 1)) (Fin (1 + 1)) ℝ),
    schur (reindex finSumFinEquiv finSumFinEquiv (hamiltonian (n := 1) (m := 1) 0 0 0 (rInverse true 1))) = some (U, T) ∧
    SchurOk (reindex finSumFinEquiv finSumFinEquiv (hamiltonian (n := 1) (m := 1) 0 0 0 (rInverse true 1))) U T ∧
    (∀ junk, ReorderOk (selectFrom T 0 junk) U T (dtrsen (selectFrom T 0 junk) U T)) ∧
    ¬ Stabilisable (0 : Matrix (Fin 1) (Fin 1) ℝ) (0 : Matrix (Fin 1) (Fin 1) ℝ) ∧
    ∀ junk, ∃ K, lqrCompute schur dtrsen junk (0 : Matrix (Fin 1) (Fin 1) ℝ) (1 : Matrix (Fin 1) (Fin 1) ℝ) 0 0 true =
        .ok (true, K) ∧
      ∃ x u, Motion (0 : Matrix (Fin 1) (Fin 1) ℝ) (0 : Matrix (Fin 1) (Fin 1) ℝ) x u ∧ (∀ t, u t = -(K *ᵥ x t)) ∧
        ¬ Tendsto x atTop (𝓝 0) := by
  have hM : reindex finSumFinEquiv finSumFinEquiv
      (hamiltonian (n := 1) (m := 1) 0 0 0 (rInverse true 1)) = (0 : Matrix (Fin 2) (Fin 2) ℝ) := by
    ext i j
    simp [hamiltonian]
  refine ⟨fun _ => some (1, 0), fun _ _ _ => ⟨1, 0, 0, 0⟩, 1, 0, rfl, ?_, fun junk => ?_, ?_, fun junk => ?_⟩
  · rw [hM]
    exact ⟨by simp, by simp, by rw [blocks_two rfl]; simp [Block.Pair], fun i h => Or.inl rfl⟩
  · refine ⟨rfl, by simp, rfl, by simp, fun i j _ hj => rfl, ?_, ?_⟩
    · rw [blocks_two rfl, select_two rfl]
      have : IsEmpty {i : Fin (1 + 1) // i.val < 0} := ⟨fun i => absurd i.2 (by omega)⟩
      simp [Block.selected]
    · rw [blocks_two rfl, select_two rfl]
      have hc : Fintype.card {i : Fin (1 + 1) // ¬ i.val < 0} = 2 := by decide
      have h0 : (toSquareBlockProp (0 : Matrix (Fin (1 + 1)) (Fin (1 + 1)) ℝ) fun i => ¬ i.val < 0) = 0 := rfl
      rw [h0, charpoly_zero, hc]
      simp [Block.selected, Block.poly]
      ring
  · rintro ⟨K, hK⟩
    have := hK 0 (fun _ => 1) (fun h => by simpa using congrFun h 0) (by simp)
    simp at this
  · refine ⟨_, rfl, fun _ => 1, fun _ => _, fun t => ?_, fun t => rfl, fun h => ?_⟩
    · refine (hasDerivAt_const t 1).congr_deriv ?_
      simp
    · have := tendsto_nhds_unique h (tendsto_const_nhds)
      simpa using congrFun this 0

end CT.Care
