import Verif.Props.Lqr
import Verif.Props.LinearOde
import Mathlib.LinearAlgebra.Matrix.PosDef
import Mathlib.Analysis.Matrix.Order
import Mathlib.LinearAlgebra.Matrix.Rank
import Mathlib.LinearAlgebra.Matrix.Charpoly.Basic

/-!
# The stable subspace of the Hamiltonian matrix

Classical facts for C173: for stabilisable and detectable systems a basis of the stable invariant subspace gives the
stabilising solution of the Riccati equation.
-/

set_option linter.unusedSectionVars false

namespace CT.Care

open Matrix Filter Topology CT.LinOde CT.Lqr

variable {n m : ℕ} {ι κ : Type*} [Fintype ι] [DecidableEq ι] [Fintype κ] [DecidableEq κ]

/-- A state feedback exists that brings every state to rest. -/
def Stabilisable (A : Matrix (Fin n) (Fin n) ℝ) (B : Matrix (Fin n) (Fin m) ℝ) : Prop := ∃ K, Hurwitz (A + B * K)

/-- An observer of the state cost exists whose error comes to rest. -/
def Detectable (A Q : Matrix (Fin n) (Fin n) ℝ) : Prop := ∃ L : Matrix (Fin n) (Fin n) ℝ, Hurwitz (A + L * Q)

/-! ### Eigenvalues and the characteristic polynomial -/

theorem root_iff {T : Matrix ι ι ℝ} (μ : ℂ) : (T.charpoly.map Complex.ofRealHom).IsRoot μ ↔
    ∃ v ≠ 0, T.map Complex.ofReal *ᵥ v = μ • v := by
  rw [← Matrix.charpoly_map, Polynomial.IsRoot, Matrix.eval_charpoly, ← Matrix.exists_mulVec_eq_zero_iff]
  refine exists_congr fun v => and_congr_right fun _ => ?_
  rw [sub_mulVec, sub_eq_zero, eq_comm]
  have : (Matrix.scalar ι μ) *ᵥ v = μ • v := by ext i; simp [Matrix.scalar, mulVec_diagonal]
  rw [this]
  rfl

theorem hurwitz_iff {T : Matrix ι ι ℝ} :
    Hurwitz T ↔ ∀ μ : ℂ, (T.charpoly.map Complex.ofRealHom).IsRoot μ → μ.re < 0 := by
  constructor
  · intro h μ hμ
    obtain ⟨v, hv, e⟩ := (root_iff μ).1 hμ
    exact h μ v hv e
  · intro h μ v hv e
    exact h μ ((root_iff μ).2 ⟨v, hv, e⟩)

theorem hurwitz_congr {T : Matrix ι ι ℝ} {T' : Matrix κ κ ℝ} (h : T.charpoly = T'.charpoly) :
    Hurwitz T ↔ Hurwitz T' := by rw [hurwitz_iff, hurwitz_iff, h]

theorem hurwitz_transpose {T : Matrix ι ι ℝ} : Hurwitz Tᵀ ↔ Hurwitz T := hurwitz_congr (charpoly_transpose T)

theorem hurwitz_reindex (e : ι ≃ κ) (T : Matrix ι ι ℝ) : Hurwitz (reindex e e T) ↔ Hurwitz T :=
  hurwitz_congr (charpoly_reindex e T)

theorem hurwitz_similar {T S U V : Matrix ι ι ℝ} (hT : Hurwitz T) (h : S * U = U * T) (hV : V * U = 1) :
    Hurwitz S := by
  have hU : U * V = 1 := mul_eq_one_comm.1 hV
  intro μ v hv e
  refine hT μ (V.map Complex.ofReal *ᵥ v) ?_ ?_
  · intro h0
    apply hv
    have : (U * V).map Complex.ofReal *ᵥ v = 0 := by
      rw [show (U * V).map Complex.ofReal = U.map Complex.ofReal * V.map Complex.ofReal from
        Matrix.map_mul (f := Complex.ofRealHom), ← mulVec_mulVec, h0, mulVec_zero]
    rw [hU] at this
    simpa using this
  · have h2 : T * V = V * S := by
      calc T * V = V * U * T * V := by rw [hV, Matrix.one_mul]
        _ = V * (S * U) * V := by rw [h]; simp only [Matrix.mul_assoc]
        _ = V * S * (U * V) := by simp only [Matrix.mul_assoc]
        _ = V * S := by rw [hU, Matrix.mul_one]
    have h3 : T.map Complex.ofReal * V.map Complex.ofReal = V.map Complex.ofReal * S.map Complex.ofReal := by
      have := congrArg (fun X => X.map Complex.ofRealHom) h2
      simp only [Matrix.map_mul] at this
      exact this
    rw [mulVec_mulVec, h3, ← mulVec_mulVec, e, mulVec_smul]

/-! ### Complex vectors and real forms -/

/-- The complex matrix with the same entries. -/
abbrev cx (M : Matrix ι κ ℝ) : Matrix ι κ ℂ := M.map Complex.ofReal

theorem cx_mul {l : Type*} [Fintype l] (M : Matrix ι κ ℝ) (N : Matrix κ l ℝ) : cx (M * N) = cx M * cx N :=
  Matrix.map_mul (f := Complex.ofRealHom)

theorem cx_add (M N : Matrix ι κ ℝ) : cx (M + N) = cx M + cx N := by ext; simp

theorem cx_re (M : Matrix ι κ ℝ) (v : κ → ℂ) : (fun i => ((cx M *ᵥ v) i).re) = M *ᵥ fun i => (v i).re := by
  ext i; simp [mulVec, dotProduct]

theorem cx_im (M : Matrix ι κ ℝ) (v : κ → ℂ) : (fun i => ((cx M *ᵥ v) i).im) = M *ᵥ fun i => (v i).im := by
  ext i; simp [mulVec, dotProduct]

theorem cx_zero {M : Matrix ι κ ℝ} {v : κ → ℂ} (hr : M *ᵥ (fun i => (v i).re) = 0)
    (hi : M *ᵥ (fun i => (v i).im) = 0) : cx M *ᵥ v = 0 := by
  rw [← cx_re] at hr
  rw [← cx_im] at hi
  ext i
  exact Complex.ext (congrFun hr i) (congrFun hi i)

theorem cx_form_re (M : Matrix ι ι ℝ) (v : ι → ℂ) : (star v ⬝ᵥ (cx M *ᵥ v)).re =
    (fun i => (v i).re) ⬝ᵥ (M *ᵥ fun i => (v i).re) + (fun i => (v i).im) ⬝ᵥ (M *ᵥ fun i => (v i).im) := by
  rw [← cx_re, ← cx_im]
  simp only [dotProduct, Complex.re_sum, ← Finset.sum_add_distrib]
  refine Finset.sum_congr rfl fun i _ => ?_
  simp

theorem psd_pos {k : ℕ} {M : Matrix (Fin k) (Fin k) ℝ} (h : Psd M) : M.PosSemidef :=
  Matrix.PosSemidef.of_dotProduct_mulVec_nonneg (by rw [IsHermitian, conjTranspose_eq_transpose_of_trivial]; exact h.1)
    fun x => by simpa using h.2 x

theorem psd_ker {k : ℕ} {M : Matrix (Fin k) (Fin k) ℝ} (h : Psd M) {v : Fin k → ℝ} (hv : v ⬝ᵥ (M *ᵥ v) = 0) :
    M *ᵥ v = 0 :=
  ((psd_pos h).dotProduct_mulVec_zero_iff v).1 (by simpa using hv)

theorem cx_psd_ker {k : ℕ} {M : Matrix (Fin k) (Fin k) ℝ} (h : Psd M) {v : Fin k → ℂ}
    (hv : (star v ⬝ᵥ (cx M *ᵥ v)).re = 0) : cx M *ᵥ v = 0 := by
  rw [cx_form_re] at hv
  have h1 := h.2 fun i => (v i).re
  have h2 := h.2 fun i => (v i).im
  exact cx_zero (psd_ker h (by linarith)) (psd_ker h (by linarith))

/-! ### The Hamiltonian matrix -/

variable {Q A : Matrix (Fin n) (Fin n) ℝ} {B : Matrix (Fin n) (Fin m) ℝ} {R : Matrix (Fin m) (Fin m) ℝ}

theorem rinv_pd (hR : Pd R) : Pd R⁻¹ := by
  have hs : (R⁻¹)ᵀ = R⁻¹ := by rw [transpose_nonsing_inv, hR.1]
  refine ⟨hs, fun v hv => ?_⟩
  have hu := hR.isUnit
  have h0 : R⁻¹ *ᵥ v ≠ 0 := fun h => hv (by
    have := congrArg (R *ᵥ ·) h
    simpa [mulVec_mulVec, Matrix.mul_nonsing_inv _ hu] using this)
  have := hR.2 _ h0
  rw [mulVec_mulVec, Matrix.mul_nonsing_inv _ hu, one_mulVec, dotProduct_comm] at this
  exact this

theorem s_psd (hR : Pd R) : Psd (B * R⁻¹ * Bᵀ) := by
  have h := rinv_pd hR
  refine ⟨by simp [transpose_mul, h.1, Matrix.mul_assoc], fun v => ?_⟩
  have := h.psd.2 (Bᵀ *ᵥ v)
  rw [← vecMul_transpose, transpose_transpose, ← dotProduct_mulVec, ← mulVec_transpose] at this
  simpa [mulVec_mulVec, Matrix.mul_assoc] using this

theorem s_ker (hR : Pd R) {v : Fin n → ℝ} (hv : (B * R⁻¹ * Bᵀ) *ᵥ v = 0) : Bᵀ *ᵥ v = 0 := by
  by_contra hne
  have h := (rinv_pd hR).2 _ hne
  rw [← vecMul_transpose, transpose_transpose, ← dotProduct_mulVec] at h
  have e : v ⬝ᵥ (B *ᵥ (R⁻¹ *ᵥ (v ᵥ* B))) = v ⬝ᵥ ((B * R⁻¹ * Bᵀ) *ᵥ v) := by
    rw [← mulVec_transpose]; simp [mulVec_mulVec, Matrix.mul_assoc]
  rw [e, hv, dotProduct_zero] at h
  exact lt_irrefl _ h

theorem cx_s_ker (hR : Pd R) {v : Fin n → ℂ} (hv : cx (B * R⁻¹ * Bᵀ) *ᵥ v = 0) : cx Bᵀ *ᵥ v = 0 := by
  have hr := cx_re (B * R⁻¹ * Bᵀ) v
  have hi := cx_im (B * R⁻¹ * Bᵀ) v
  rw [hv] at hr hi
  exact cx_zero (s_ker hR hr.symm) (s_ker hR hi.symm)

/-- Hautus test for stabilisability. -/
theorem Stabilisable.hautus (h : Stabilisable A B) {μ : ℂ} {y : Fin n → ℂ} (hy : y ≠ 0)
    (e : cx Aᵀ *ᵥ y = μ • y) (hB : cx Bᵀ *ᵥ y = 0) : μ.re < 0 := by
  obtain ⟨K, hK⟩ := h
  refine hurwitz_transpose.2 hK μ y hy ?_
  have : cx (A + B * K)ᵀ = cx Aᵀ + cx Kᵀ * cx Bᵀ := by
    rw [transpose_add, transpose_mul, cx_add, cx_mul]
  change cx (A + B * K)ᵀ *ᵥ y = _
  rw [this, add_mulVec, ← mulVec_mulVec, hB, mulVec_zero, add_zero, e]

/-- Hautus test for detectability. -/
theorem Detectable.hautus (h : Detectable A Q) {μ : ℂ} {x : Fin n → ℂ} (hx : x ≠ 0)
    (e : cx A *ᵥ x = μ • x) (hQ : cx Q *ᵥ x = 0) : μ.re < 0 := by
  obtain ⟨L, hL⟩ := h
  refine hL μ x hx ?_
  change cx (A + L * Q) *ᵥ x = _
  rw [cx_add, cx_mul, add_mulVec, ← mulVec_mulVec, hQ, mulVec_zero, add_zero, e]

theorem star_cx (M : Matrix ι κ ℝ) (v : κ → ℂ) : star (cx M *ᵥ v) = cx M *ᵥ star v := by
  ext i
  simp [mulVec, dotProduct]

theorem cx_transpose (M : Matrix ι κ ℝ) : cx Mᵀ = (cx M)ᵀ := rfl

/-- The Hamiltonian matrix has no eigenvalue on the imaginary axis. -/
theorem ham_no_imag (hQ : Psd Q) (hR : Pd R) (hs : Stabilisable A B) (hd : Detectable A Q) {μ : ℂ}
    (hμ : μ.re = 0) {v : Fin n ⊕ Fin n → ℂ} (e : cx (hamiltonian Q A B R⁻¹) *ᵥ v = μ • v) : v = 0 := by
  set x : Fin n → ℂ := v ∘ Sum.inl with hx
  set y : Fin n → ℂ := v ∘ Sum.inr with hy
  have hv : v = Sum.elim x y := by ext i; cases i <;> rfl
  have ham : cx (hamiltonian Q A B R⁻¹) = fromBlocks (cx A) (-cx (B * R⁻¹ * Bᵀ)) (-cx Q) (-cx Aᵀ) := by
    ext i j
    cases i <;> cases j <;> simp [hamiltonian]
  rw [ham, hv, fromBlocks_mulVec] at e
  have e1 : cx A *ᵥ x - cx (B * R⁻¹ * Bᵀ) *ᵥ y = μ • x := by
    ext i
    have := congrFun e (Sum.inl i)
    simpa [neg_mulVec, sub_eq_add_neg, Function.comp_def] using this
  have e2 : -(cx Q *ᵥ x) - cx Aᵀ *ᵥ y = μ • y := by
    ext i
    have := congrFun e (Sum.inr i)
    simpa [neg_mulVec, sub_eq_add_neg, Function.comp_def] using this
  have f1 : star y ⬝ᵥ (cx A *ᵥ x) - star y ⬝ᵥ (cx (B * R⁻¹ * Bᵀ) *ᵥ y) = μ * (star y ⬝ᵥ x) := by
    rw [← dotProduct_sub, e1, dotProduct_smul, smul_eq_mul]
  have f2 : -(star x ⬝ᵥ (cx Q *ᵥ x)) - star y ⬝ᵥ (cx A *ᵥ x) = star μ * (star y ⬝ᵥ x) := by
    have := congrArg (fun w => star w ⬝ᵥ x) e2
    simp only [star_sub, star_neg, star_cx, star_smul, sub_dotProduct, neg_dotProduct, smul_dotProduct,
      smul_eq_mul] at this
    rw [← this]
    congr 1
    · rw [dotProduct_mulVec, ← mulVec_transpose, ← cx_transpose, hQ.1]
    · rw [dotProduct_mulVec, ← mulVec_transpose, ← cx_transpose]
  have hsum : (star y ⬝ᵥ (cx (B * R⁻¹ * Bᵀ) *ᵥ y)).re + (star x ⬝ᵥ (cx Q *ᵥ x)).re = 0 := by
    have h3 : μ + star μ = 0 := by
      apply Complex.ext <;> simp [hμ]
    have h4 : -(star y ⬝ᵥ (cx (B * R⁻¹ * Bᵀ) *ᵥ y)) - star x ⬝ᵥ (cx Q *ᵥ x) = 0 := by
      have := congrArg₂ (· + ·) f1 f2
      simp only [← add_mul, h3, zero_mul] at this
      linear_combination this
    have := congrArg Complex.re h4
    simp at this
    linarith
  have p1 : 0 ≤ (star y ⬝ᵥ (cx (B * R⁻¹ * Bᵀ) *ᵥ y)).re := by
    rw [cx_form_re]; exact add_nonneg ((s_psd hR).2 _) ((s_psd hR).2 _)
  have p2 : 0 ≤ (star x ⬝ᵥ (cx Q *ᵥ x)).re := by
    rw [cx_form_re]; exact add_nonneg (hQ.2 _) (hQ.2 _)
  have hS := cx_psd_ker (s_psd (B := B) hR) (v := y) (by linarith)
  have hQx := cx_psd_ker hQ (v := x) (by linarith)
  rw [hS, sub_zero] at e1
  rw [hQx, neg_zero, zero_sub] at e2
  have hx0 : x = 0 := by
    by_contra hne
    exact absurd (hd.hautus hne e1 hQx) (by rw [hμ]; exact lt_irrefl _)
  have hy0 : y = 0 := by
    by_contra hne
    have := hs.hautus (μ := -μ) hne (by rw [neg_smul, ← e2, neg_neg]) (cx_s_ker hR hS)
    simp [hμ] at this
  rw [hv, hx0, hy0]
  ext i; cases i <;> rfl

/-- The symplectic form. -/
def Om (n : ℕ) : Matrix (Fin n ⊕ Fin n) (Fin n ⊕ Fin n) ℝ := fromBlocks 0 1 (-1) 0

theorem Om_ham (hQ : Qᵀ = Q) (hR : Rᵀ = R) :
    (hamiltonian Q A B R⁻¹)ᵀ * Om n + Om n * hamiltonian Q A B R⁻¹ = 0 := by
  have hi : (R⁻¹)ᵀ = R⁻¹ := by rw [transpose_nonsing_inv, hR]
  simp only [Om, hamiltonian, fromBlocks_transpose, fromBlocks_multiply, fromBlocks_add]
  simp only [transpose_neg, transpose_transpose, transpose_mul, hi, hQ]
  rw [← fromBlocks_zero]
  congr 1 <;> simp [Matrix.mul_assoc]

theorem Om_tr : (Om n)ᵀ * Om n = 1 := by
  simp [Om, fromBlocks_transpose, fromBlocks_multiply]

theorem Om_sq : (Om n) * Om n = -1 := by
  rw [← fromBlocks_one, fromBlocks_neg]
  simp [Om, fromBlocks_multiply]

/-- An orthonormal family on which the symplectic form vanishes has at most `n` members. -/
theorem isotropic_card {V : Matrix (Fin n ⊕ Fin n) κ ℝ} (hV : Vᵀ * V = 1) (h : Vᵀ * Om n * V = 0) :
    Fintype.card κ ≤ n := by
  let G : Matrix (Fin n ⊕ Fin n) (κ ⊕ κ) ℝ := fromCols V (Om n * V)
  have hG : Gᵀ * G = 1 := by
    have h2 : (Om n * V)ᵀ * V = 0 := by
      have := congrArg transpose h
      simpa [transpose_mul, Matrix.mul_assoc] using this
    have h3 : (Om n * V)ᵀ * (Om n * V) = 1 := by
      rw [transpose_mul, Matrix.mul_assoc, ← Matrix.mul_assoc (Om n)ᵀ, Om_tr, Matrix.one_mul, hV]
    rw [transpose_fromCols, fromRows_mul_fromCols, hV, h2, h3, ← Matrix.mul_assoc, h, fromBlocks_one]
  have h1 : (1 : Matrix (κ ⊕ κ) (κ ⊕ κ) ℝ).rank ≤ G.rank := by
    rw [← hG]; exact rank_mul_le_right _ _
  have h2 := G.rank_le_card_height
  rw [rank_one] at h1
  simp at h1 h2
  omega

/-- An orthonormal basis of a stable invariant subspace: the symplectic form vanishes on it. -/
theorem stable_isotropic (hQ : Qᵀ = Q) (hR : Rᵀ = R) {V : Matrix (Fin n ⊕ Fin n) κ ℝ} {T : Matrix κ κ ℝ}
    (hT : Hurwitz T) (h : hamiltonian Q A B R⁻¹ * V = V * T) : Vᵀ * Om n * V = 0 := by
  refine hT.sylvester hT ?_
  have h' : Tᵀ * Vᵀ = Vᵀ * (hamiltonian Q A B R⁻¹)ᵀ := by rw [← transpose_mul, ← transpose_mul, h]
  calc Tᵀ * (Vᵀ * Om n * V) + Vᵀ * Om n * V * T
      = Tᵀ * Vᵀ * Om n * V + Vᵀ * Om n * (V * T) := by simp only [Matrix.mul_assoc]
    _ = Vᵀ * ((hamiltonian Q A B R⁻¹)ᵀ * Om n + Om n * hamiltonian Q A B R⁻¹) * V := by
        rw [h', ← h]; simp only [Matrix.mul_add, Matrix.add_mul, Matrix.mul_assoc]
    _ = 0 := by rw [Om_ham hQ hR, Matrix.mul_zero, Matrix.zero_mul]

/-- Left invariant subspaces with eigenvalues of positive real part. -/
theorem antistable_isotropic (hQ : Qᵀ = Q) (hR : Rᵀ = R) {V : Matrix (Fin n ⊕ Fin n) κ ℝ} {T : Matrix κ κ ℝ}
    (hT : Hurwitz (-T)) (h : Vᵀ * hamiltonian Q A B R⁻¹ = T * Vᵀ) : Vᵀ * Om n * V = 0 := by
  have hT' : Hurwitz (-Tᵀ) := by rw [← transpose_neg]; exact hurwitz_transpose.2 hT
  refine hT'.sylvester hT' ?_
  have h' : V * Tᵀ = (hamiltonian Q A B R⁻¹)ᵀ * V := by
    have := congrArg transpose h
    simpa [transpose_mul] using this.symm
  have hJ : hamiltonian Q A B R⁻¹ * Om n + Om n * (hamiltonian Q A B R⁻¹)ᵀ = 0 := by
    have := congrArg (fun X => Om n * X * Om n) (Om_ham (A := A) (B := B) hQ hR)
    simp only [Matrix.mul_add, Matrix.add_mul, Matrix.mul_zero, Matrix.zero_mul] at this
    rw [← Matrix.mul_assoc (Om n), Matrix.mul_assoc (Om n * _) (Om n) (Om n), Om_sq, ← Matrix.mul_assoc (Om n) (Om n), Om_sq] at this
    have h2 := congrArg (fun X => -X) this
    simpa [add_comm] using h2
  calc (-Tᵀ)ᵀ * (Vᵀ * Om n * V) + Vᵀ * Om n * V * -Tᵀ
      = -(T * Vᵀ * Om n * V + Vᵀ * Om n * (V * Tᵀ)) := by
        simp only [transpose_neg, transpose_transpose, Matrix.neg_mul, Matrix.mul_neg, Matrix.mul_assoc, neg_add]
    _ = -(Vᵀ * (hamiltonian Q A B R⁻¹ * Om n + Om n * (hamiltonian Q A B R⁻¹)ᵀ) * V) := by
        rw [h', ← h]; simp only [Matrix.mul_add, Matrix.add_mul, Matrix.mul_assoc]
    _ = 0 := by rw [hJ, Matrix.mul_zero, Matrix.zero_mul, neg_zero]

/-- The upper half of a basis of the stable subspace is invertible. -/
theorem upper_isUnit (hQ : Psd Q) (hR : Pd R) (hs : Stabilisable A B) {U1 U2 T : Matrix (Fin n) (Fin n) ℝ}
    (hT : Hurwitz T) (h : hamiltonian Q A B R⁻¹ * fromRows U1 U2 = fromRows U1 U2 * T)
    (hV : (fromRows U1 U2)ᵀ * fromRows U1 U2 = 1) : IsUnit U1.det := by
  have hiso := stable_isotropic hQ.1 hR.1 hT h
  have hsym : U1ᵀ * U2 = U2ᵀ * U1 := by
    rw [transpose_fromRows, Om, fromCols_mul_fromBlocks, fromCols_mul_fromRows] at hiso
    simp only [Matrix.mul_zero, zero_add, Matrix.mul_one, add_zero, Matrix.mul_neg, Matrix.neg_mul] at hiso
    exact (sub_eq_zero.1 (by rw [sub_eq_add_neg, add_comm]; exact hiso))
  have hh := h
  rw [hamiltonian, fromBlocks_mul_fromRows, fromRows_mul] at hh
  obtain ⟨h1, h2⟩ := fromRows_inj.eq_iff.1 hh
  by_contra hdet
  -- the complex kernel of the upper half
  let K : Submodule ℂ (Fin n → ℂ) := LinearMap.ker (cx U1).mulVecLin
  have hinvB : ∀ v ∈ K, cx Bᵀ *ᵥ (cx U2 *ᵥ v) = 0 ∧ (cx T).mulVecLin v ∈ K := by
    intro v hv
    have hv' : cx U1 *ᵥ v = 0 := by simpa [K] using hv
    have e1 : -(cx (B * R⁻¹ * Bᵀ) *ᵥ (cx U2 *ᵥ v)) = cx U1 *ᵥ (cx T *ᵥ v) := by
      have := congrArg (fun X => cx X *ᵥ v) h1
      simp only [cx_add, cx_mul, add_mulVec, ← mulVec_mulVec, hv', mulVec_zero, zero_add, Matrix.neg_mul] at this
      rw [mulVec_mulVec v (cx U1), ← cx_mul, ← h1]
      rw [cx_add, add_mulVec, cx_mul A, ← mulVec_mulVec, hv', mulVec_zero, zero_add, Matrix.neg_mul]
      rw [show cx (-(B * R⁻¹ * Bᵀ * U2)) = -(cx (B * R⁻¹ * Bᵀ) * cx U2) by rw [← cx_mul]; ext; simp]
      rw [neg_mulVec, mulVec_mulVec]
    have e2 : star (cx U2 *ᵥ v) ⬝ᵥ (cx U1 *ᵥ (cx T *ᵥ v)) = 0 := by
      have : star (cx U2 *ᵥ v) ⬝ᵥ (cx U1 *ᵥ (cx T *ᵥ v)) = star (cx U1 *ᵥ v) ⬝ᵥ (cx U2 *ᵥ (cx T *ᵥ v)) := by
        have g : ∀ (M N : Matrix (Fin n) (Fin n) ℝ) (a b : Fin n → ℂ),
            (cx M *ᵥ a) ⬝ᵥ (cx N *ᵥ b) = a ⬝ᵥ (cx (Mᵀ * N) *ᵥ b) := by
          intro M N a b
          rw [cx_mul, ← mulVec_mulVec, dotProduct_mulVec a, cx_transpose, vecMul_transpose]
        rw [star_cx, star_cx, g, g, hsym]
      rw [this, hv', star_zero, zero_dotProduct]
    rw [← e1, dotProduct_neg, neg_eq_zero] at e2
    have hS := cx_psd_ker (s_psd (B := B) hR) (by rw [e2]; rfl)
    refine ⟨cx_s_ker hR hS, ?_⟩
    rw [hS, neg_zero] at e1
    simpa [K] using e1.symm
  have hK : K ≠ ⊥ := by
    intro hb
    apply hdet
    have hinj : Function.Injective (cx U1).mulVecLin := LinearMap.ker_eq_bot.1 hb
    have : IsUnit (cx U1).det := by
      rw [← Matrix.isUnit_iff_isUnit_det, ← Matrix.mulVec_injective_iff_isUnit]
      exact hinj
    have hd : (cx U1).det = ((U1.det : ℝ) : ℂ) := (RingHom.map_det Complex.ofRealHom U1).symm
    rw [hd, isUnit_iff_ne_zero] at this
    exact isUnit_iff_ne_zero.2 fun h0 => this (by simp [h0])
  have : Nontrivial K := Submodule.nontrivial_iff_ne_bot.2 hK
  let f : Module.End ℂ K := (cx T).mulVecLin.restrict fun v hv => (hinvB v hv).2
  obtain ⟨μ, hμ⟩ := Module.End.exists_eigenvalue f
  obtain ⟨w, hw⟩ := hμ.exists_hasEigenvector
  have hw0 : (w : Fin n → ℂ) ≠ 0 := fun h0 => hw.2 (Subtype.ext h0)
  have hTw : cx T *ᵥ (w : Fin n → ℂ) = μ • (w : Fin n → ℂ) := by
    have := congrArg Subtype.val hw.apply_eq_smul
    simpa [f] using this
  have hre := hT μ _ hw0 hTw
  have hU1w : cx U1 *ᵥ (w : Fin n → ℂ) = 0 := LinearMap.mem_ker.1 w.2
  have hBw := (hinvB w w.2).1
  have hAw : cx Aᵀ *ᵥ (cx U2 *ᵥ (w : Fin n → ℂ)) = (-μ) • (cx U2 *ᵥ (w : Fin n → ℂ)) := by
    have e : cx (-Q * U1 + -Aᵀ * U2) *ᵥ (w : Fin n → ℂ) = cx (U2 * T) *ᵥ (w : Fin n → ℂ) := by rw [h2]
    rw [cx_add, cx_mul, cx_mul, cx_mul, add_mulVec, ← mulVec_mulVec, ← mulVec_mulVec, ← mulVec_mulVec, hU1w,
      mulVec_zero, zero_add, hTw, mulVec_smul] at e
    rw [neg_smul, ← e, show cx (-Aᵀ) = -cx Aᵀ by ext; simp, neg_mulVec, neg_neg]
  have hU2w : cx U2 *ᵥ (w : Fin n → ℂ) ≠ 0 := by
    intro h0
    apply hw0
    have e : cx ((fromRows U1 U2)ᵀ * fromRows U1 U2) *ᵥ (w : Fin n → ℂ) = w := by
      rw [hV]; simp
    rw [transpose_fromRows, fromCols_mul_fromRows, cx_add, cx_mul, cx_mul, add_mulVec, ← mulVec_mulVec,
      ← mulVec_mulVec, hU1w, h0] at e
    simpa using e.symm
  have := hs.hautus hU2w hAw hBw
  simp at this
  linarith

/-- What the leading block of a basis of the stable subspace gives. -/
theorem stable_solution (hQ : Psd Q) (hR : Pd R) {U1 U2 T : Matrix (Fin n) (Fin n) ℝ}
    (hT : Hurwitz T) (h : hamiltonian Q A B R⁻¹ * fromRows U1 U2 = fromRows U1 U2 * T) (hU : IsUnit U1.det) :
    Psd (U2 * U1⁻¹) ∧ SolvesCARE Q A B R (U2 * U1⁻¹) ∧ Hurwitz (A - B * lqrGain R⁻¹ B (U2 * U1⁻¹)) := by
  set P := U2 * U1⁻¹ with hP
  have e1 : U1 * U1⁻¹ = 1 := Matrix.mul_nonsing_inv _ hU
  have e2 : U1⁻¹ * U1 = 1 := Matrix.nonsing_inv_mul _ hU
  have hiso := stable_isotropic hQ.1 hR.1 hT h
  have hsym : U1ᵀ * U2 = U2ᵀ * U1 := by
    rw [transpose_fromRows, Om, fromCols_mul_fromBlocks, fromCols_mul_fromRows] at hiso
    simp only [Matrix.mul_zero, zero_add, Matrix.mul_one, add_zero, Matrix.mul_neg, Matrix.neg_mul] at hiso
    exact (sub_eq_zero.1 (by rw [sub_eq_add_neg, add_comm]; exact hiso))
  have hPs : Pᵀ = P := by
    have e3 : (U1⁻¹)ᵀ * U1ᵀ = 1 := by rw [← transpose_mul, e1, transpose_one]
    calc Pᵀ = (U1⁻¹)ᵀ * U2ᵀ := by rw [hP, transpose_mul]
      _ = (U1⁻¹)ᵀ * (U2ᵀ * U1) * U1⁻¹ := by simp only [Matrix.mul_assoc, e1, Matrix.mul_one]
      _ = (U1⁻¹)ᵀ * U1ᵀ * (U2 * U1⁻¹) := by rw [← hsym]; simp only [Matrix.mul_assoc]
      _ = P := by rw [e3, Matrix.one_mul]
  have hcare : SolvesCARE Q A B R P := by
    have h3 := C40_schur Q A B R false (by simp) (fromBlocks U1 0 U2 0) T (by simpa [rInverse] using h)
      (by simpa using hU)
    simpa [solveSchurDirect] using h3
  have hh := h
  rw [hamiltonian, fromBlocks_mul_fromRows, fromRows_mul] at hh
  obtain ⟨h1, h2⟩ := fromRows_inj.eq_iff.1 hh
  have hcl : (A - B * lqrGain R⁻¹ B P) * U1 = U1 * T := by
    rw [← h1, lqrGain, Matrix.sub_mul, sub_eq_add_neg, Matrix.neg_mul, hP]
    congr 2
    simp only [Matrix.mul_assoc, e2, Matrix.mul_one]
  have hH := hurwitz_similar hT hcl e2
  refine ⟨⟨hPs, hH.nonneg (G := Q + P * B * R⁻¹ * Bᵀ * P) ?_ ?_⟩, hcare, hH⟩
  · have hRi : (R⁻¹)ᵀ = R⁻¹ := by rw [transpose_nonsing_inv, hR.1]
    have hc : Aᵀ * P + P * A - P * B * R⁻¹ * Bᵀ * P + Q = 0 := hcare
    have e : (A - B * lqrGain R⁻¹ B P)ᵀ * P + P * (A - B * lqrGain R⁻¹ B P) =
        (Aᵀ * P + P * A - P * B * R⁻¹ * Bᵀ * P + Q) - (Q + P * B * R⁻¹ * Bᵀ * P) := by
      simp only [lqrGain, transpose_sub, transpose_mul, transpose_transpose, hRi, hPs, Matrix.sub_mul, Matrix.mul_sub,
        Matrix.mul_assoc]
      abel
    rw [e, hc, zero_sub]
  · intro x
    rw [add_mulVec, dotProduct_add]
    refine add_nonneg (hQ.2 x) ?_
    have := (s_psd (B := B) hR).2 (P *ᵥ x)
    have e : P * B * R⁻¹ * Bᵀ * P = Pᵀ * (B * R⁻¹ * Bᵀ * P) := by rw [hPs]; simp only [Matrix.mul_assoc]
    clear_value P
    rw [e, ← mulVec_mulVec, dotProduct_mulVec x Pᵀ, vecMul_transpose, ← mulVec_mulVec]
    exact this

end CT.Care
