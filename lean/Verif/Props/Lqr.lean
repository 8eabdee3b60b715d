import Verif.Model.Lqr
import Verif.Props.Riccati
import Mathlib.Tactic.NormNum
import Mathlib.LinearAlgebra.Matrix.IsDiag

/-! # C40, C41: algebraic and dynamic Riccati equations -/

namespace CT.Lqr

open Matrix CT.Riccati

variable {n m : Nat}

/-! ### C40 -/

/-- `P` solves the continuous-time algebraic Riccati equation `AᵀP + PA − P B R⁻¹ Bᵀ P + Q = 0`. -/
def SolvesCARE (Q A : Matrix (Fin n) (Fin n) ℝ) (B : Matrix (Fin n) (Fin m) ℝ) (R : Matrix (Fin m) (Fin m) ℝ)
    (P : Matrix (Fin n) (Fin n) ℝ) : Prop :=
  Aᵀ * P + P * A - P * B * R⁻¹ * Bᵀ * P + Q = 0

/-- The inverse of the control weight is right when the caller's claim that it is diagonal is. -/
theorem rInverse_eq (flag : Bool) (R : Matrix (Fin m) (Fin m) ℝ)
    (h : flag = true → R.IsDiag ∧ ∀ i, R i i ≠ 0) : rInverse flag R = R⁻¹ := by
  cases flag with
  | false => rfl
  | true =>
    obtain ⟨hd, hne⟩ := h rfl
    simp only [rInverse, if_true]
    refine (inv_eq_left_inv ?_).symm
    conv_lhs => rw [← hd.diagonal_diag]
    rw [diagonal_mul_diagonal, ← diagonal_one]
    congr 1
    funext i
    simp [hne i]

theorem signStep_commute {M W : Matrix (Fin n ⊕ Fin n) (Fin n ⊕ Fin n) ℝ} (h : M * W = W * M) :
    M * signStep W = signStep W * M := by
  have hinv : M * W⁻¹ = W⁻¹ * M := by
    by_cases hd : IsUnit W.det
    · calc M * W⁻¹ = W⁻¹ * W * (M * W⁻¹) := by rw [Matrix.nonsing_inv_mul _ hd, Matrix.one_mul]
        _ = W⁻¹ * (W * M) * W⁻¹ := by simp only [Matrix.mul_assoc]
        _ = W⁻¹ * M * (W * W⁻¹) := by rw [← h]; simp only [Matrix.mul_assoc]
        _ = W⁻¹ * M := by rw [Matrix.mul_nonsing_inv _ hd, Matrix.mul_one]
    · rw [Matrix.nonsing_inv_apply_not_isUnit _ hd]; simp
  simp only [signStep, Matrix.mul_sub, Matrix.sub_mul, Matrix.mul_smul, Matrix.smul_mul, h, hinv]

theorem signLoop_commute {approx} (fuel : Nat) {M W W' : Matrix (Fin n ⊕ Fin n) (Fin n ⊕ Fin n) ℝ}
    (h : M * W = W * M) (e : signLoop approx fuel W = some W') : M * W' = W' * M := by
  induction fuel generalizing W with
  | zero => simp [signLoop] at e
  | succ f ih =>
    rw [signLoop] at e
    split at e
    · obtain rfl := Option.some.inj e
      exact signStep_commute h
    · exact ih (signStep_commute h) e

/-- Riccati equation from an invariant subspace of the Hamiltonian spanned by `[1; P]`. -/
theorem care_of_invariant {Q A : Matrix (Fin n) (Fin n) ℝ} {B : Matrix (Fin n) (Fin m) ℝ}
    {R : Matrix (Fin m) (Fin m) ℝ} {P : Matrix (Fin n) (Fin n) ℝ}
    (h : -Q - Aᵀ * P = P * (A - B * R⁻¹ * Bᵀ * P)) : SolvesCARE Q A B R P := by
  unfold SolvesCARE
  have : P * (A - B * R⁻¹ * Bᵀ * P) = P * A - P * B * R⁻¹ * Bᵀ * P := by
    rw [Matrix.mul_sub]; simp only [Matrix.mul_assoc]
  rw [this] at h
  have e : Aᵀ * P + P * A - P * B * R⁻¹ * Bᵀ * P + Q
      = (P * A - P * B * R⁻¹ * Bᵀ * P) - (-Q - Aᵀ * P) := by abel
  rw [e, h, sub_self]

/-- C40, iterative solver: whenever the loop ends with success, the last linear system has been solved exactly
and determines its solution, the returned matrix solves the Riccati equation. -/
theorem C40_iterative (Q A : Matrix (Fin n) (Fin n) ℝ) (B : Matrix (Fin n) (Fin m) ℝ)
    (R : Matrix (Fin m) (Fin m) ℝ) (flag : Bool) (hflag : flag = true → R.IsDiag ∧ ∀ i, R i i ≠ 0)
    (approx) (lu) (maxIt : Nat) (P : Matrix (Fin n) (Fin n) ℝ)
    (hres : solveSchurIterative approx lu maxIt (hamiltonian Q A B (rInverse flag R)) = some P)
    (hexact : ∀ W, signLoop approx (maxIt + 1) (hamiltonian Q A B (rInverse flag R)) = some W →
      fromRows W.toBlocks₁₂ (W.toBlocks₂₂ + 1) *
          lu (fromRows W.toBlocks₁₂ (W.toBlocks₂₂ + 1)) (-fromRows (W.toBlocks₁₁ + 1) W.toBlocks₂₁)
        = -fromRows (W.toBlocks₁₁ + 1) W.toBlocks₂₁ ∧
      ∃ T, T * fromRows W.toBlocks₁₂ (W.toBlocks₂₂ + 1) = (1 : Matrix (Fin n) (Fin n) ℝ)) :
    SolvesCARE Q A B R P := by
  rw [rInverse_eq flag R hflag] at hres hexact
  set M := hamiltonian Q A B R⁻¹ with hM
  obtain ⟨W, hW, hP⟩ := Option.map_eq_some_iff.1 hres
  obtain ⟨hsol, T, hT⟩ := hexact W hW
  have hcomm : M * W = W * M := signLoop_commute _ rfl hW
  dsimp only at hP
  rw [hP] at hsol
  set U := fromRows W.toBlocks₁₂ (W.toBlocks₂₂ + 1) with hU
  set V := fromRows (W.toBlocks₁₁ + 1) W.toBlocks₂₁ with hV
  -- (W + 1) [X; Y] = V X + U Y
  have hmul : ∀ X Y : Matrix (Fin n) (Fin n) ℝ, (W + 1) * fromRows X Y = V * X + U * Y := by
    intro X Y
    have hW1 : W + 1 = fromBlocks (W.toBlocks₁₁ + 1) W.toBlocks₁₂ W.toBlocks₂₁ (W.toBlocks₂₂ + 1) := by
      conv_lhs => rw [← fromBlocks_toBlocks W, ← fromBlocks_one, fromBlocks_add]
      simp
    rw [hW1, fromBlocks_mul_fromRows, hU, hV, fromRows_mul, fromRows_mul]
    ext i j
    cases i <;> simp
  have hker : (W + 1) * fromRows (1 : Matrix (Fin n) (Fin n) ℝ) P = 0 := by
    rw [hmul, Matrix.mul_one, hsol, add_neg_cancel]
  have hME : M * fromRows (1 : Matrix (Fin n) (Fin n) ℝ) P
      = fromRows (A - B * R⁻¹ * Bᵀ * P) (-Q - Aᵀ * P) := by
    rw [hM, hamiltonian, fromBlocks_mul_fromRows]
    simp [sub_eq_add_neg]
  have h0 : (W + 1) * (M * fromRows (1 : Matrix (Fin n) (Fin n) ℝ) P) = 0 := by
    have : (W + 1) * M = M * (W + 1) := by rw [Matrix.add_mul, Matrix.mul_add, hcomm]; simp
    rw [← Matrix.mul_assoc, this, Matrix.mul_assoc, hker, Matrix.mul_zero]
  rw [hME, hmul] at h0
  have hVU : V = -(U * P) := by rw [hsol, neg_neg]
  have h1 : U * ((-Q - Aᵀ * P) - P * (A - B * R⁻¹ * Bᵀ * P)) = 0 := by
    rw [Matrix.mul_sub, ← Matrix.mul_assoc U P, ← h0, hVU, Matrix.neg_mul]
    abel
  have h2 : (-Q - Aᵀ * P) - P * (A - B * R⁻¹ * Bᵀ * P) = 0 := by
    have := congrArg (fun Z => T * Z) h1
    simpa [← Matrix.mul_assoc, hT] using this
  exact care_of_invariant (sub_eq_zero.1 h2)

/-- The scalar integrator with unit weights: the hypotheses of `C40_iterative` hold and the returned matrix is
the stabilising solution 1. -/
example : ∃ (approx : Matrix (Fin 1 ⊕ Fin 1) (Fin 1 ⊕ Fin 1) ℝ → Matrix (Fin 1 ⊕ Fin 1) (Fin 1 ⊕ Fin 1) ℝ → Bool)
    (lu : Matrix (Fin 1 ⊕ Fin 1) (Fin 1) ℝ → Matrix (Fin 1 ⊕ Fin 1) (Fin 1) ℝ → Matrix (Fin 1) (Fin 1) ℝ),
    solveSchurIterative approx lu 10 (hamiltonian 1 0 (1 : Matrix (Fin 1) (Fin 1) ℝ) (rInverse false 1)) = some 1 ∧
    (∀ W, signLoop approx 11 (hamiltonian 1 0 (1 : Matrix (Fin 1) (Fin 1) ℝ) (rInverse false 1)) = some W →
      fromRows W.toBlocks₁₂ (W.toBlocks₂₂ + 1) *
          lu (fromRows W.toBlocks₁₂ (W.toBlocks₂₂ + 1)) (-fromRows (W.toBlocks₁₁ + 1) W.toBlocks₂₁)
        = -fromRows (W.toBlocks₁₁ + 1) W.toBlocks₂₁ ∧
      ∃ T, T * fromRows W.toBlocks₁₂ (W.toBlocks₂₂ + 1) = (1 : Matrix (Fin 1) (Fin 1) ℝ)) := by
  classical
  let M : Matrix (Fin 1 ⊕ Fin 1) (Fin 1 ⊕ Fin 1) ℝ := fromBlocks 0 (-1) (-1) 0
  have hM : hamiltonian 1 0 (1 : Matrix (Fin 1) (Fin 1) ℝ) (rInverse false 1) = M := by
    simp [hamiltonian, rInverse, M]
  have hMM : M * M = 1 := by
    simp only [M, fromBlocks_multiply]
    simp
  have hstep : signStep M = M := by
    rw [signStep, inv_eq_left_inv hMM]; simp
  have hloop : signLoop (fun a b => decide (a = b)) 11 M = some M := by
    rw [signLoop, hstep]; simp
  refine ⟨fun a b => decide (a = b), fun _ _ => 1, ?_, ?_⟩
  · rw [hM, solveSchurIterative, hloop]; rfl
  · intro W hW
    rw [hM, hloop] at hW
    obtain rfl := Option.some.inj hW
    refine ⟨?_, fromCols (-1) 0, ?_⟩
    · ext i j
      cases i <;> simp [M]
    · rw [fromCols_mul_fromRows]
      simp [M]

/-- C40, Schur solver: if the leading Schur vectors span an invariant subspace of the Hamiltonian and their
upper half is invertible, the returned matrix solves the Riccati equation. -/
theorem C40_schur (Q A : Matrix (Fin n) (Fin n) ℝ) (B : Matrix (Fin n) (Fin m) ℝ)
    (R : Matrix (Fin m) (Fin m) ℝ) (flag : Bool) (hflag : flag = true → R.IsDiag ∧ ∀ i, R i i ≠ 0)
    (U : Matrix (Fin n ⊕ Fin n) (Fin n ⊕ Fin n) ℝ) (T : Matrix (Fin n) (Fin n) ℝ)
    (hinv : hamiltonian Q A B (rInverse flag R) * fromRows U.toBlocks₁₁ U.toBlocks₂₁
      = fromRows U.toBlocks₁₁ U.toBlocks₂₁ * T)
    (hU : IsUnit U.toBlocks₁₁.det) : SolvesCARE Q A B R (solveSchurDirect U) := by
  rw [rInverse_eq flag R hflag, hamiltonian, fromBlocks_mul_fromRows, fromRows_mul] at hinv
  obtain ⟨h1, h2⟩ := fromRows_inj.eq_iff.1 hinv
  set U1 := U.toBlocks₁₁
  set U2 := U.toBlocks₂₁
  apply care_of_invariant
  rw [solveSchurDirect]
  have e1 : U1 * U1⁻¹ = 1 := Matrix.mul_nonsing_inv _ hU
  have e2 : U1⁻¹ * U1 = 1 := Matrix.nonsing_inv_mul _ hU
  have h2' : -Q - Aᵀ * (U2 * U1⁻¹) = U2 * T * U1⁻¹ := by
    rw [← h2, Matrix.add_mul, Matrix.neg_mul, Matrix.neg_mul, Matrix.neg_mul, Matrix.neg_mul, Matrix.mul_assoc Q, e1,
      Matrix.mul_one, Matrix.mul_assoc Aᵀ, sub_eq_add_neg]
  have h1' : A - B * R⁻¹ * Bᵀ * (U2 * U1⁻¹) = U1 * T * U1⁻¹ := by
    rw [← h1, Matrix.add_mul, Matrix.neg_mul, Matrix.neg_mul, Matrix.mul_assoc A, e1, Matrix.mul_one,
      Matrix.mul_assoc (B * R⁻¹ * Bᵀ), sub_eq_add_neg]
  rw [h2', h1']
  calc U2 * T * U1⁻¹ = U2 * (U1⁻¹ * U1) * T * U1⁻¹ := by rw [e2, Matrix.mul_one]
    _ = U2 * U1⁻¹ * (U1 * T * U1⁻¹) := by simp only [Matrix.mul_assoc]

/-- C40, gain: with a symmetric solution and a symmetric invertible control weight, the gain returned by
`LQR::compute` satisfies the Hamilton-Jacobi-Bellman identity for the cost `∫ xᵀQx + uᵀRu`: running cost plus
rate of change of `xᵀPx` is the penalty for deviating from `u = −Kx`. -/
theorem C40_gain (Q A : Matrix (Fin n) (Fin n) ℝ) (B : Matrix (Fin n) (Fin m) ℝ)
    (R : Matrix (Fin m) (Fin m) ℝ) (P : Matrix (Fin n) (Fin n) ℝ) (h : SolvesCARE Q A B R P)
    (hP : Pᵀ = P) (hR : Rᵀ = R) (hRu : IsUnit R.det) (x : Fin n → ℝ) (u : Fin m → ℝ) :
    x ⬝ᵥ (Q *ᵥ x) + u ⬝ᵥ (R *ᵥ u) + 2 * (x ⬝ᵥ (P *ᵥ (A *ᵥ x + B *ᵥ u)))
      = (u + lqrGain R⁻¹ B P *ᵥ x) ⬝ᵥ (R *ᵥ (u + lqrGain R⁻¹ B P *ᵥ x)) := by
  set K := lqrGain R⁻¹ B P with hK
  have hRK : R * K = Bᵀ * P := by
    rw [hK, lqrGain, ← Matrix.mul_assoc, Matrix.mul_nonsing_inv _ hRu, Matrix.one_mul]
  have hKRK : (K *ᵥ x) ⬝ᵥ (R *ᵥ (K *ᵥ x)) = x ⬝ᵥ ((P * B * R⁻¹ * Bᵀ * P) *ᵥ x) := by
    have hRi : (R⁻¹)ᵀ = R⁻¹ := by rw [transpose_nonsing_inv, hR]
    have : P * B * R⁻¹ * Bᵀ * P = Kᵀ * (R * K) := by
      rw [hRK, hK, lqrGain, transpose_mul, transpose_mul, transpose_transpose, hP, hRi]
      simp only [Matrix.mul_assoc]
    rw [this, ← mulVec_mulVec, ← mulVec_mulVec, dot_tr]
  have hcare : x ⬝ᵥ (Q *ᵥ x) = x ⬝ᵥ ((P * B * R⁻¹ * Bᵀ * P) *ᵥ x) - 2 * (x ⬝ᵥ (P *ᵥ (A *ᵥ x))) := by
    have h' := congrArg (fun M => x ⬝ᵥ (M *ᵥ x)) h
    simp only [add_mulVec, sub_mulVec, dotProduct_add, dotProduct_sub, zero_mulVec, dotProduct_zero] at h'
    rw [← mulVec_mulVec x Aᵀ P, dot_tr, ← mulVec_mulVec x P A, bil_sym hP (A *ᵥ x) x] at h'
    linarith
  have hcross : u ⬝ᵥ (R *ᵥ (K *ᵥ x)) = x ⬝ᵥ (P *ᵥ (B *ᵥ u)) := by
    rw [mulVec_mulVec, hRK, ← mulVec_mulVec, dot_tr, bil_sym hP]
  simp only [mulVec_add, dotProduct_add, add_dotProduct]
  rw [bil_sym hR (K *ᵥ x) u, hKRK, hcross, hcare]
  ring

/-- The scalar integrator meets the hypotheses of `C40_gain`. -/
example : SolvesCARE (1 : Matrix (Fin 1) (Fin 1) ℝ) 0 (1 : Matrix (Fin 1) (Fin 1) ℝ) 1 1 := by
  simp [SolvesCARE]

/-! ### C41 -/

/-- Symmetric positive semi-definite. -/
def Psd {k : Nat} (M : Matrix (Fin k) (Fin k) ℝ) : Prop := Mᵀ = M ∧ ∀ v : Fin k → ℝ, 0 ≤ v ⬝ᵥ (M *ᵥ v)

/-- Symmetric positive definite. -/
def Pd {k : Nat} (M : Matrix (Fin k) (Fin k) ℝ) : Prop := Mᵀ = M ∧ ∀ v : Fin k → ℝ, v ≠ 0 → 0 < v ⬝ᵥ (M *ᵥ v)

theorem Pd.psd {k : Nat} {M : Matrix (Fin k) (Fin k) ℝ} (h : Pd M) : Psd M := by
  refine ⟨h.1, fun v => ?_⟩
  by_cases hv : v = 0
  · simp [hv]
  · exact (h.2 v hv).le

theorem Pd.isUnit {k : Nat} {M : Matrix (Fin k) (Fin k) ℝ} (h : Pd M) : IsUnit M.det := by
  have : M.PosDef := by
    refine PosDef.of_dotProduct_mulVec_pos ?_ fun v hv => ?_
    · rw [IsHermitian, conjTranspose_eq_transpose_of_trivial, h.1]
    · simpa using h.2 v hv
  exact this.det_pos.ne'.isUnit

/-- `P` solves the discrete-time algebraic Riccati equation. -/
def SolvesDARE (Q : Matrix (Fin n) (Fin n) ℝ) (R : Matrix (Fin m) (Fin m) ℝ) (A : Matrix (Fin n) (Fin n) ℝ)
    (B : Matrix (Fin n) (Fin m) ℝ) (P : Matrix (Fin n) (Fin n) ℝ) : Prop :=
  P = Q + Aᵀ * P * A - Aᵀ * P * B * (R + Bᵀ * P * B)⁻¹ * Bᵀ * P * A

theorem curv_sym {R : Matrix (Fin m) (Fin m) ℝ} {B : Matrix (Fin n) (Fin m) ℝ} {P : Matrix (Fin n) (Fin n) ℝ}
    (hR : Rᵀ = R) (hP : Pᵀ = P) : (R + Bᵀ * P * B)ᵀ = R + Bᵀ * P * B := by
  simp [transpose_add, transpose_mul, hR, hP, Matrix.mul_assoc]

theorem curv_form (R : Matrix (Fin m) (Fin m) ℝ) (B : Matrix (Fin n) (Fin m) ℝ) (P : Matrix (Fin n) (Fin n) ℝ)
    (v : Fin m → ℝ) : v ⬝ᵥ ((R + Bᵀ * P * B) *ᵥ v) = v ⬝ᵥ (R *ᵥ v) + (B *ᵥ v) ⬝ᵥ (P *ᵥ (B *ᵥ v)) := by
  rw [add_mulVec, dotProduct_add, Matrix.mul_assoc, ← mulVec_mulVec, ← mulVec_mulVec, dot_tr]

theorem curv_pd {R : Matrix (Fin m) (Fin m) ℝ} {B : Matrix (Fin n) (Fin m) ℝ} {P : Matrix (Fin n) (Fin n) ℝ}
    (hR : Pd R) (hP : Psd P) : Pd (R + Bᵀ * P * B) := by
  refine ⟨curv_sym hR.1 hP.1, fun v hv => ?_⟩
  rw [curv_form]
  have := hR.2 v hv
  have := hP.2 (B *ᵥ v)
  linarith

/-- One step of dynamic programming with the plain recursion. -/
theorem naive_bellman {Q : Matrix (Fin n) (Fin n) ℝ} {R : Matrix (Fin m) (Fin m) ℝ} {A : Matrix (Fin n) (Fin n) ℝ}
    {B : Matrix (Fin n) (Fin m) ℝ} {P : Matrix (Fin n) (Fin n) ℝ} (hR : Rᵀ = R) (hP : Pᵀ = P)
    (hH : IsUnit (R + Bᵀ * P * B).det) (x : Fin n → ℝ) (u : Fin m → ℝ) :
    x ⬝ᵥ (Q *ᵥ x) + u ⬝ᵥ (R *ᵥ u) + (A *ᵥ x + B *ᵥ u) ⬝ᵥ (P *ᵥ (A *ᵥ x + B *ᵥ u))
      = x ⬝ᵥ ((iterateNaive Q R A B P).1 *ᵥ x)
        + (u - (iterateNaive Q R A B P).2 *ᵥ x) ⬝ᵥ
          ((R + Bᵀ * P * B) *ᵥ (u - (iterateNaive Q R A B P).2 *ᵥ x)) := by
  have hHs := curv_sym (B := B) hR hP
  set K := (iterateNaive Q R A B P).2 with hK
  have hHK : (R + Bᵀ * P * B) * K = -(Bᵀ * P * A) := by
    rw [hK]
    simp only [iterateNaive]
    generalize R + Bᵀ * P * B = H at hH
    have e : H * (H⁻¹ * Bᵀ * P * A) = (H * H⁻¹) * (Bᵀ * P * A) := by simp only [Matrix.mul_assoc]
    rw [Matrix.mul_smul, e, Matrix.mul_nonsing_inv _ hH, Matrix.one_mul, neg_one_smul]
  have hP' : x ⬝ᵥ ((iterateNaive Q R A B P).1 *ᵥ x)
      = x ⬝ᵥ (Q *ᵥ x) + (A *ᵥ x) ⬝ᵥ (P *ᵥ (A *ᵥ x)) - (K *ᵥ x) ⬝ᵥ ((R + Bᵀ * P * B) *ᵥ (K *ᵥ x)) := by
    have h1 : (iterateNaive Q R A B P).1 = (1 / 2 : ℝ) •
        ((Q + Aᵀ * P * A - Kᵀ * (R + Bᵀ * P * B) * K) + (Q + Aᵀ * P * A - Kᵀ * (R + Bᵀ * P * B) * K)ᵀ) := rfl
    have h2 : ∀ M : Matrix (Fin n) (Fin n) ℝ,
        x ⬝ᵥ (((1 / 2 : ℝ) • (M + Mᵀ)) *ᵥ x) = x ⬝ᵥ (M *ᵥ x) := by
      intro M
      rw [smul_mulVec, add_mulVec, dotProduct_smul, dotProduct_add, dot_tr, dotProduct_comm (M *ᵥ x), smul_eq_mul]
      ring
    rw [h1, h2, sub_mulVec, add_mulVec, dotProduct_sub, dotProduct_add, Matrix.mul_assoc, ← mulVec_mulVec,
      ← mulVec_mulVec, dot_tr, Matrix.mul_assoc, ← mulVec_mulVec, ← mulVec_mulVec, dot_tr]
  have hcross : u ⬝ᵥ ((R + Bᵀ * P * B) *ᵥ (K *ᵥ x)) = -((B *ᵥ u) ⬝ᵥ (P *ᵥ (A *ᵥ x))) := by
    rw [mulVec_mulVec, hHK, neg_mulVec, dotProduct_neg, Matrix.mul_assoc, ← mulVec_mulVec, ← mulVec_mulVec, dot_tr]
  have hquad := curv_form R B P u
  rw [hP']
  simp only [mulVec_sub, mulVec_add, dotProduct_sub, sub_dotProduct, dotProduct_add, add_dotProduct]
  rw [bil_sym hHs (K *ᵥ x) u, hcross, hquad, bil_sym hP (A *ᵥ x) (B *ᵥ u)]
  ring

theorem naive_psd {Q : Matrix (Fin n) (Fin n) ℝ} {R : Matrix (Fin m) (Fin m) ℝ} {A : Matrix (Fin n) (Fin n) ℝ}
    {B : Matrix (Fin n) (Fin m) ℝ} {P : Matrix (Fin n) (Fin n) ℝ} (hQ : Psd Q) (hR : Pd R) (hP : Psd P) :
    Psd (iterateNaive Q R A B P).1 := by
  constructor
  · have h : ∀ M : Matrix (Fin n) (Fin n) ℝ, ((1 / 2 : ℝ) • (M + Mᵀ))ᵀ = (1 / 2 : ℝ) • (M + Mᵀ) := by
      intro M
      rw [transpose_smul, transpose_add, transpose_transpose, add_comm]
    exact h _
  · intro x
    have h := naive_bellman (Q := Q) (A := A) hR.1 hP.1 (curv_pd (B := B) hR hP).isUnit x
      ((iterateNaive Q R A B P).2 *ᵥ x)
    rw [sub_self, mulVec_zero, dotProduct_zero, add_zero] at h
    rw [← h]
    have h1 := hQ.2 x
    have h2 := hR.psd.2 ((iterateNaive Q R A B P).2 *ᵥ x)
    have h3 := hP.2 (A *ᵥ x + B *ᵥ ((iterateNaive Q R A B P).2 *ᵥ x))
    linarith

/-- C41, one step of the plain recursion: the new matrix is symmetric positive semi-definite, its quadratic form
is the least value of stage cost plus cost-to-go of the next state, attained at `u = Kx` only. -/
theorem C41_naive_step (Q : Matrix (Fin n) (Fin n) ℝ) (R : Matrix (Fin m) (Fin m) ℝ) (A : Matrix (Fin n) (Fin n) ℝ)
    (B : Matrix (Fin n) (Fin m) ℝ) (P : Matrix (Fin n) (Fin n) ℝ) (hQ : Psd Q) (hR : Pd R) (hP : Psd P)
    (x : Fin n → ℝ) :
    Psd (iterateNaive Q R A B P).1 ∧
    ∀ u, x ⬝ᵥ ((iterateNaive Q R A B P).1 *ᵥ x)
        ≤ x ⬝ᵥ (Q *ᵥ x) + u ⬝ᵥ (R *ᵥ u) + (A *ᵥ x + B *ᵥ u) ⬝ᵥ (P *ᵥ (A *ᵥ x + B *ᵥ u)) ∧
      (x ⬝ᵥ ((iterateNaive Q R A B P).1 *ᵥ x)
        = x ⬝ᵥ (Q *ᵥ x) + u ⬝ᵥ (R *ᵥ u) + (A *ᵥ x + B *ᵥ u) ⬝ᵥ (P *ᵥ (A *ᵥ x + B *ᵥ u)) ↔
        u = (iterateNaive Q R A B P).2 *ᵥ x) := by
  refine ⟨naive_psd hQ hR hP, fun u => ?_⟩
  have hpd := curv_pd (B := B) hR hP
  rw [naive_bellman (Q := Q) (A := A) hR.1 hP.1 hpd.isUnit x u]
  refine ⟨by have := hpd.psd.2 (u - (iterateNaive Q R A B P).2 *ᵥ x); linarith, fun h => ?_, fun h => ?_⟩
  · by_contra hne
    have := hpd.2 _ (sub_ne_zero.2 hne)
    linarith
  · rw [h, sub_self]; simp

/-- The control weight the robust recursion works with. -/
def regularised (eps : ℝ) (R : Matrix (Fin m) (Fin m) ℝ) : Matrix (Fin m) (Fin m) ℝ := R + eps • 1

theorem regularised_pd {eps : ℝ} (he : 0 < eps) {R : Matrix (Fin m) (Fin m) ℝ} (hR : Psd R) :
    Pd (regularised eps R) := by
  refine ⟨by simp [regularised, transpose_add, hR.1], fun v hv => ?_⟩
  rw [regularised, add_mulVec, smul_mulVec, one_mulVec, dotProduct_add, dotProduct_smul, smul_eq_mul]
  have h1 := hR.2 v
  have h2 : 0 < v ⬝ᵥ v := by
    have h0 : 0 ≤ v ⬝ᵥ v := by
      simp only [dotProduct]
      exact Finset.sum_nonneg fun i _ => mul_self_nonneg _
    exact lt_of_le_of_ne h0 fun h => hv (dotProduct_self_eq_zero.1 h.symm)
  have := mul_pos he h2
  linarith

/-- C41, what the robust recursion computes: exactly the plain recursion for the weight `R + eps I`. -/
theorem C41_robust_is_regularised {eig} (heig : EigenSolver eig) {eps : ℝ} (he : 0 < eps)
    (Q : Matrix (Fin n) (Fin n) ℝ) (R : Matrix (Fin m) (Fin m) ℝ) (A : Matrix (Fin n) (Fin n) ℝ)
    (B : Matrix (Fin n) (Fin m) ℝ) (P : Matrix (Fin n) (Fin n) ℝ) (hR : Psd R) (hP : Psd P) :
    iterateRobust eig eps Q R A B P = iterateNaive Q (regularised eps R) A B P := by
  have hHs := curv_sym (B := B) hR.1 hP.1
  have hH1 : (1 / 2 : ℝ) • ((R + Bᵀ * P * B) + (R + Bᵀ * P * B)ᵀ) = R + Bᵀ * P * B := by
    rw [hHs, ← two_smul ℝ, smul_smul]; norm_num
  have hnn : ∀ v : Fin m → ℝ, 0 ≤ v ⬝ᵥ ((R + Bᵀ * P * B) *ᵥ v) := by
    intro v
    rw [curv_form]
    exact add_nonneg (hR.2 v) (hP.2 _)
  have hreg : regularised eps R + Bᵀ * P * B = (R + Bᵀ * P * B) + eps • 1 := by
    rw [regularised]; abel
  simp only [iterateRobust, iterateNaive, hH1, hreg]
  generalize R + Bᵀ * P * B = H at hHs hnn
  obtain ⟨hV, hD⟩ := heig H hHs
  set V := (eig H).1
  set lam := (eig H).2
  have hV' : Vᵀ * V = 1 := mul_eq_one_comm.1 hV
  have hlam : ∀ i, 0 ≤ lam i := by
    intro i
    have hvH : (V *ᵥ Pi.single i 1) ⬝ᵥ (H *ᵥ (V *ᵥ Pi.single i (1 : ℝ))) = lam i := by
      have : (V *ᵥ Pi.single i 1) ⬝ᵥ (H *ᵥ (V *ᵥ Pi.single i (1 : ℝ)))
          = Pi.single i 1 ⬝ᵥ ((Vᵀ * (V * diagonal lam * Vᵀ) * V) *ᵥ (Pi.single i (1 : ℝ))) := by
        rw [hD, ← mulVec_mulVec, ← mulVec_mulVec, dotProduct_mulVec (Pi.single i 1), vecMul_transpose]
      rw [this]
      have e : Vᵀ * (V * diagonal lam * Vᵀ) * V = diagonal lam := by
        rw [← Matrix.mul_assoc, ← Matrix.mul_assoc, hV', Matrix.one_mul, Matrix.mul_assoc, hV', Matrix.mul_one]
      rw [e]
      simp
    rw [← hvH]
    exact hnn _
  have hmax : ∀ i, max (lam i) 0 + eps = lam i + eps := fun i => by rw [max_eq_left (hlam i)]
  simp only [hmax]
  have hsum : V * diagonal (fun i => lam i + eps) * Vᵀ = H + eps • 1 := by
    have : diagonal (fun i => lam i + eps) = diagonal lam + eps • (1 : Matrix (Fin m) (Fin m) ℝ) := by
      rw [← diagonal_one, ← diagonal_smul, diagonal_add]
      congr 1
      funext i
      simp
    rw [this, Matrix.mul_add, Matrix.add_mul, hD, Matrix.mul_smul, Matrix.smul_mul, Matrix.mul_one, hV]
  have hinv : V * diagonal (fun i => (lam i + eps)⁻¹) * Vᵀ = (H + eps • 1)⁻¹ := by
    refine (inv_eq_left_inv ?_).symm
    rw [← hsum]
    calc V * diagonal (fun i => (lam i + eps)⁻¹) * Vᵀ * (V * diagonal (fun i => lam i + eps) * Vᵀ)
        = V * diagonal (fun i => (lam i + eps)⁻¹) * (Vᵀ * V) * diagonal (fun i => lam i + eps) * Vᵀ := by
          simp only [Matrix.mul_assoc]
      _ = V * (diagonal (fun i => (lam i + eps)⁻¹) * diagonal (fun i => lam i + eps)) * Vᵀ := by
          rw [hV', Matrix.mul_one]; simp only [Matrix.mul_assoc]
      _ = 1 := by
          rw [diagonal_mul_diagonal]
          have : (fun i => (lam i + eps)⁻¹ * (lam i + eps)) = fun _ => 1 := by
            funext i
            exact inv_mul_cancel₀ (add_pos_of_nonneg_of_pos (hlam i) he).ne'
          rw [this, diagonal_one, Matrix.mul_one, hV]
  rw [hsum, hinv]
  simp only [Matrix.mul_assoc]

/-- Cost over the last `j` of `N` stages under the time-varying feedback law `π` (a control sequence is the
special case of a law that ignores the state). -/
noncomputable def policyCost (Q : Nat → Matrix (Fin n) (Fin n) ℝ) (R : Nat → Matrix (Fin m) (Fin m) ℝ)
    (A : Nat → Matrix (Fin n) (Fin n) ℝ) (B : Nat → Matrix (Fin n) (Fin m) ℝ) (PN : Matrix (Fin n) (Fin n) ℝ)
    (N : Nat) (π : Nat → (Fin n → ℝ) → (Fin m → ℝ)) : Nat → (Fin n → ℝ) → ℝ
  | 0, x => x ⬝ᵥ (PN *ᵥ x)
  | j + 1, x =>
    let k := N - (j + 1)
    x ⬝ᵥ (Q k *ᵥ x) + π k x ⬝ᵥ (R k *ᵥ π k x) + policyCost Q R A B PN N π j (A k *ᵥ x + B k *ᵥ π k x)

theorem fhP_psd {eig} (heig : EigenSolver eig) {eps : ℝ} (he : 0 < eps) (Q R A B) (PN : Matrix (Fin n) (Fin n) ℝ)
    (hQ : ∀ k, Psd (Q k)) (hR : ∀ k, Psd (R k)) (hPN : Psd PN) (N j : Nat) :
    Psd (fhP (m := m) eig eps Q R A B PN N j) := by
  induction j with
  | zero => exact hPN
  | succ j ih =>
    rw [fhP, C41_robust_is_regularised heig he _ _ _ _ _ (hR _) ih]
    exact naive_psd (hQ _) (regularised_pd he (hR _)) ih

/-- C41, finite horizon: every matrix of the recursion is symmetric positive semi-definite, the quadratic form
it defines is the cost of the remaining stages under the stored gains, and no other feedback law or control
sequence costs less — for the control weights `R + eps I`. -/
theorem C41_finite_horizon_partial {eig} (heig : EigenSolver eig) {eps : ℝ} (he : 0 < eps)
    (Q : Nat → Matrix (Fin n) (Fin n) ℝ) (R : Nat → Matrix (Fin m) (Fin m) ℝ)
    (A : Nat → Matrix (Fin n) (Fin n) ℝ) (B : Nat → Matrix (Fin n) (Fin m) ℝ) (PN : Matrix (Fin n) (Fin n) ℝ)
    (hQ : ∀ k, Psd (Q k)) (hR : ∀ k, Psd (R k)) (hPN : Psd PN) (N j : Nat) (hj : j ≤ N) (x : Fin n → ℝ) :
    Psd (fhP eig eps Q R A B PN N j) ∧
    x ⬝ᵥ (fhP eig eps Q R A B PN N j *ᵥ x)
      = policyCost Q (fun k => regularised eps (R k)) A B PN N (fun k x => fhK eig eps Q R A B PN N k *ᵥ x) j x ∧
    ∀ π, x ⬝ᵥ (fhP eig eps Q R A B PN N j *ᵥ x)
      ≤ policyCost Q (fun k => regularised eps (R k)) A B PN N π j x := by
  refine ⟨fhP_psd heig he Q R A B PN hQ hR hPN N j, ?_, ?_⟩
  · induction j generalizing x with
    | zero => rfl
    | succ j ih =>
      have hP := fhP_psd heig he Q R A B PN hQ hR hPN N j
      have hpd := regularised_pd he (hR (N - (j + 1)))
      have hidx : N - (N - (j + 1) + 1) = j := by omega
      rw [policyCost]
      rw [← ih (by omega), fhK, hidx, fhP, C41_robust_is_regularised heig he _ _ _ _ _ (hR _) hP,
        naive_bellman hpd.1 hP.1 (curv_pd hpd hP).isUnit]
      simp
  · intro π
    induction j generalizing x with
    | zero => exact le_rfl
    | succ j ih =>
      have hP := fhP_psd heig he Q R A B PN hQ hR hPN N j
      have hpd := regularised_pd he (hR (N - (j + 1)))
      rw [policyCost, fhP, C41_robust_is_regularised heig he _ _ _ _ _ (hR _) hP]
      have h1 := ih (by omega) (A (N - (j + 1)) *ᵥ x + B (N - (j + 1)) *ᵥ π (N - (j + 1)) x)
      have h2 := naive_bellman (Q := Q (N - (j + 1))) (A := A (N - (j + 1))) (B := B (N - (j + 1))) hpd.1 hP.1
        (curv_pd hpd hP).isUnit x (π (N - (j + 1)) x)
      have h3 := (curv_pd (B := B (N - (j + 1))) hpd hP).psd.2
        (π (N - (j + 1)) x - (iterateNaive (Q (N - (j + 1))) (regularised eps (R (N - (j + 1)))) (A (N - (j + 1)))
          (B (N - (j + 1))) (fhP eig eps Q R A B PN N j)).2 *ᵥ x)
      linarith

/-- An exact eigenvalue solver for one input. -/
def eig1 (H : Matrix (Fin 1) (Fin 1) ℝ) : Matrix (Fin 1) (Fin 1) ℝ × (Fin 1 → ℝ) := (1, fun i => H i i)

theorem eig1_ok : EigenSolver eig1 := by
  intro H _
  refine ⟨by simp [eig1], ?_⟩
  ext i j
  fin_cases i; fin_cases j
  simp [eig1]

theorem psd_one {k : Nat} : Psd (1 : Matrix (Fin k) (Fin k) ℝ) := by
  refine ⟨by simp, fun v => ?_⟩
  rw [one_mulVec]
  simp only [dotProduct]
  exact Finset.sum_nonneg fun i _ => mul_self_nonneg _

/-- The hypotheses of the finite-horizon theorem hold for a scalar system. -/
example : EigenSolver eig1 ∧ Psd (1 : Matrix (Fin 1) (Fin 1) ℝ) := ⟨eig1_ok, psd_one⟩

/-- The gains are not optimal for the weights the user gave: with unit weights and `x⁺ = x + u`, one stage,
another gain costs strictly less. -/
theorem C41_weights_violated (eps : ℝ) (he : 0 < eps) :
    ∃ (Q R A B : Nat → Matrix (Fin 1) (Fin 1) ℝ) (PN : Matrix (Fin 1) (Fin 1) ℝ) (x : Fin 1 → ℝ) (π : Nat → (Fin 1 → ℝ) → (Fin 1 → ℝ)),
      (∀ k, Psd (Q k)) ∧ (∀ k, Pd (R k)) ∧ Psd PN ∧
      policyCost Q R A B PN 1 π 1 x
        < policyCost Q R A B PN 1 (fun k x => fhK eig1 eps Q R A B PN 1 k *ᵥ x) 1 x := by
  have hpd : Pd (1 : Matrix (Fin 1) (Fin 1) ℝ) := by
    refine ⟨by simp, fun v hv => ?_⟩
    rw [one_mulVec]
    exact lt_of_le_of_ne (by simpa using psd_one.2 v) fun h => hv (dotProduct_self_eq_zero.1 h.symm)
  refine ⟨fun _ => 1, fun _ => 1, fun _ => 1, fun _ => 1, 1, fun _ => 1, fun _ x => (-1 / 2 : ℝ) • x,
    fun _ => psd_one, fun _ => hpd, psd_one, ?_⟩
  have hK : fhK eig1 eps (fun _ => 1) (fun _ => 1) (fun _ => 1) (fun _ => 1) (1 : Matrix (Fin 1) (Fin 1) ℝ) 1 0
      = (-(2 + eps)⁻¹ : ℝ) • (1 : Matrix (Fin 1) (Fin 1) ℝ) := by
    ext i j
    fin_cases i; fin_cases j
    simp [fhK, fhP, iterateRobust, eig1]
    norm_num
  have h2 : (0 : ℝ) < 2 + eps := by linarith
  simp only [policyCost, hK, smul_mulVec, one_mulVec]
  simp [dotProduct]
  have hk : (2 + eps)⁻¹ < 1 / 2 := by
    rw [inv_eq_one_div]
    exact one_div_lt_one_div_of_lt (by norm_num) (by linarith)
  nlinarith [sq_pos_of_pos (sub_pos.2 hk)]

/-- C41, steady state: a fixed point of the recursion solves the algebraic equation for the regularised
weight. -/
theorem C41_fixed_point_partial {eig} (heig : EigenSolver eig) {eps : ℝ} (he : 0 < eps)
    (Q : Matrix (Fin n) (Fin n) ℝ) (R : Matrix (Fin m) (Fin m) ℝ) (A : Matrix (Fin n) (Fin n) ℝ)
    (B : Matrix (Fin n) (Fin m) ℝ) (P : Matrix (Fin n) (Fin n) ℝ) (hQ : Qᵀ = Q) (hR : Psd R) (hP : Psd P)
    (hfix : (iterateRobust eig eps Q R A B P).1 = P) : SolvesDARE Q (regularised eps R) A B P := by
  rw [C41_robust_is_regularised heig he _ _ _ _ _ hR hP] at hfix
  have hpd := regularised_pd he hR
  have hHs := curv_sym (B := B) hpd.1 hP.1
  have hHu := (curv_pd (B := B) hpd hP).isUnit
  unfold SolvesDARE
  simp only [iterateNaive] at hfix
  set H := regularised eps R + Bᵀ * P * B with hH
  have hKK : ((-1 : ℝ) • (H⁻¹ * Bᵀ * P * A))ᵀ * H * ((-1 : ℝ) • (H⁻¹ * Bᵀ * P * A))
      = Aᵀ * P * B * H⁻¹ * Bᵀ * P * A := by
    have hHi : (H⁻¹)ᵀ = H⁻¹ := by rw [transpose_nonsing_inv, hHs]
    simp only [neg_one_smul, transpose_neg, transpose_mul, hHi, transpose_transpose, hP.1, Matrix.neg_mul,
      Matrix.mul_neg, neg_neg]
    have : H * (H⁻¹ * (Bᵀ * (P * A))) = Bᵀ * (P * A) := by
      rw [← Matrix.mul_assoc, Matrix.mul_nonsing_inv _ hHu, Matrix.one_mul]
    simp only [Matrix.mul_assoc, this]
  rw [hKK] at hfix
  have hs : (Q + Aᵀ * P * A - Aᵀ * P * B * H⁻¹ * Bᵀ * P * A)ᵀ
      = Q + Aᵀ * P * A - Aᵀ * P * B * H⁻¹ * Bᵀ * P * A := by
    have hHi : (H⁻¹)ᵀ = H⁻¹ := by rw [transpose_nonsing_inv, hHs]
    simp only [transpose_sub, transpose_add, transpose_mul, transpose_transpose, hQ, hP.1, hHi, Matrix.mul_assoc]
  rw [hs, ← two_smul ℝ, smul_smul] at hfix
  norm_num at hfix
  exact hfix.symm

/-- … and need not solve it for the weight the user gave, however small `eps` is. -/
theorem C41_fixed_point_violated (eps : ℝ) (he : 0 < eps) :
    ∃ Q : Matrix (Fin 1) (Fin 1) ℝ, Psd Q ∧ (iterateRobust eig1 eps Q 1 1 (1 : Matrix (Fin 1) (Fin 1) ℝ) 1).1 = 1 ∧
      ¬ SolvesDARE Q 1 1 (1 : Matrix (Fin 1) (Fin 1) ℝ) 1 := by
  have h2 : (0 : ℝ) < 2 + eps := by linarith
  refine ⟨(2 + eps)⁻¹ • 1, ⟨by simp, fun v => ?_⟩, ?_, ?_⟩
  · rw [smul_mulVec, dotProduct_smul]
    exact smul_nonneg (inv_pos.2 h2).le (psd_one.2 v)
  · rw [C41_robust_is_regularised eig1_ok he _ _ _ _ _ psd_one psd_one]
    have hH : (regularised eps (1 : Matrix (Fin 1) (Fin 1) ℝ) + (1 : Matrix (Fin 1) (Fin 1) ℝ)ᵀ * 1 * 1)
        = (2 + eps) • 1 := by
      rw [regularised]; ext i j; fin_cases i; fin_cases j; simp; ring
    have hHi : ((2 + eps) • (1 : Matrix (Fin 1) (Fin 1) ℝ))⁻¹ = (2 + eps)⁻¹ • 1 := by
      apply inv_eq_left_inv
      rw [Matrix.smul_mul, Matrix.mul_smul, smul_smul, Matrix.mul_one, inv_mul_cancel₀ h2.ne', one_smul]
    simp only [iterateNaive, hH, hHi]
    ext i j; fin_cases i; fin_cases j
    simp
    field_simp
    ring
  · intro h
    have hH : ((1 : Matrix (Fin 1) (Fin 1) ℝ) + (1 : Matrix (Fin 1) (Fin 1) ℝ)ᵀ * 1 * 1) = (2 : ℝ) • 1 := by
      ext i j; fin_cases i; fin_cases j; simp; norm_num
    have hHi : ((2 : ℝ) • (1 : Matrix (Fin 1) (Fin 1) ℝ))⁻¹ = (2 : ℝ)⁻¹ • 1 := by
      apply inv_eq_left_inv
      rw [Matrix.smul_mul, Matrix.mul_smul, smul_smul, Matrix.mul_one, inv_mul_cancel₀ (by norm_num), one_smul]
    have h' := congrFun (congrFun h 0) 0
    rw [hH, hHi] at h'
    simp at h'
    have hk : (2 + eps)⁻¹ < 2⁻¹ := inv_strictAnti₀ (by norm_num) (by linarith)
    linarith

/-! #### The steady-state iteration -/

theorem dareLoop_spec (step) (norm) (eps : ℝ) (it : Nat) (P : Matrix (Fin n) (Fin n) ℝ) (K : Matrix (Fin m) (Fin n) ℝ)
    (diff : ℝ) :
    dareLoop step norm eps it P K diff = (P, K, diff) ∨
    ∃ i, i < it ∧ dareLoop step norm eps it P K diff
      = ((step ((fun X => (step X).1)^[i] P)).1, (step ((fun X => (step X).1)^[i] P)).2,
        norm ((step ((fun X => (step X).1)^[i] P)).1 - (fun X => (step X).1)^[i] P)) := by
  induction it generalizing P K diff with
  | zero => exact Or.inl rfl
  | succ it ih =>
    rw [dareLoop]
    split
    · rcases ih (step P).1 (step P).2 (norm ((step P).1 - P)) with h | ⟨i, hi, h⟩
      · exact Or.inr ⟨0, by omega, h⟩
      · exact Or.inr ⟨i + 1, by omega, by rw [h]; simp only [Function.iterate_succ, Function.comp]⟩
    · exact Or.inl rfl

/-- C41, steady state: for a tolerance of at most one, a result is the image under the recursion of an iterate
that differs from it by less than the tolerance, the gain belongs to the same step, and the result is symmetric
positive semi-definite. -/
theorem C41_dare_partial {eig} (heig : EigenSolver eig) {epsH : ℝ} (heH : 0 < epsH)
    (Q : Matrix (Fin n) (Fin n) ℝ) (R : Matrix (Fin m) (Fin m) ℝ) (A : Matrix (Fin n) (Fin n) ℝ)
    (B : Matrix (Fin n) (Fin m) ℝ) (hQ : Psd Q) (hR : Psd R) (norm) (eps : ℝ) (he : eps ≤ 1) (maxIter : Nat)
    (P0 : Matrix (Fin n) (Fin n) ℝ) (hP0 : Psd P0) (K0 : Matrix (Fin m) (Fin n) ℝ) (P K)
    (h : dare (iterateRobust eig epsH Q R A B) norm eps maxIter P0 K0 = .ok (P, K)) :
    Psd P ∧ ∃ P', Psd P' ∧ norm (P - P') < eps ∧ iterateNaive Q (regularised epsH R) A B P' = (P, K) := by
  have hit : ∀ i, Psd ((fun X => (iterateRobust eig epsH Q R A B X).1)^[i] P0) := by
    intro i
    induction i with
    | zero => exact hP0
    | succ i ih =>
      rw [Function.iterate_succ', Function.comp, C41_robust_is_regularised heig heH _ _ _ _ _ hR ih]
      exact naive_psd hQ (regularised_pd heH hR) ih
  rw [dare] at h
  split at h
  · simp at h
  · rename_i hlt
    rw [not_le] at hlt
    rcases dareLoop_spec (iterateRobust eig epsH Q R A B) norm eps maxIter P0 K0 1 with h1 | ⟨i, _, h1⟩
    · rw [h1] at hlt
      exact absurd hlt (not_lt.2 he)
    · rw [h1] at h hlt
      obtain ⟨h2, h3⟩ := Prod.mk.inj (Res.ok.inj h)
      dsimp only at h2 h3 hlt
      have hi := hit i
      set P' := (fun X => (iterateRobust eig epsH Q R A B X).1)^[i] P0
      rw [C41_robust_is_regularised heig heH _ _ _ _ _ hR hi] at h2 h3 hlt
      rw [h2] at hlt
      refine ⟨?_, P', hi, hlt, Prod.ext h2 h3⟩
      rw [← h2]
      exact naive_psd hQ (regularised_pd heH hR) hi

/-- A run that ends: the fixed point of `C41_fixed_point_violated` as initial guess. -/
example : ∃ Q : Matrix (Fin 1) (Fin 1) ℝ, Psd Q ∧
    (dare (iterateRobust eig1 (1 / 100000) Q 1 1 (1 : Matrix (Fin 1) (Fin 1) ℝ)) (fun M => |M 0 0|) (1 / 1000) 10 1 0).isOk
      = true := by
  obtain ⟨Q, hQ, hfix, _⟩ := C41_fixed_point_violated (1 / 100000) (by norm_num)
  refine ⟨Q, hQ, ?_⟩
  have hl : ∀ it (K : Matrix (Fin 1) (Fin 1) ℝ), dareLoop (iterateRobust eig1 (1 / 100000) Q 1 1 (1 : Matrix (Fin 1) (Fin 1) ℝ))
      (fun M => |M 0 0|) (1 / 1000) it 1 K 0 = (1, K, 0) := by
    intro it K
    cases it with
    | zero => rfl
    | succ it => rw [dareLoop, if_neg (by norm_num)]
  have h1 : dareLoop (iterateRobust eig1 (1 / 100000) Q 1 1 (1 : Matrix (Fin 1) (Fin 1) ℝ))
      (fun M => |M 0 0|) (1 / 1000) 10 1 0 1
      = (1, (iterateRobust eig1 (1 / 100000) Q 1 1 (1 : Matrix (Fin 1) (Fin 1) ℝ) 1).2, 0) := by
    have hpos : (1 : ℝ) / 1000 ≤ 1 := by norm_num
    rw [dareLoop, if_pos hpos, hfix, sub_self]
    simp only [Matrix.zero_apply, abs_zero, hl]
  have hneg : ¬ (1 : ℝ) / 1000 ≤ 0 := by norm_num
  rw [dare, h1, if_neg hneg]
  rfl

/-- A tolerance above one makes the solver return the initial guess and leave the caller's gain variable as it
was, whatever the system. -/
theorem C41_large_tolerance_violated (step : Matrix (Fin n) (Fin n) ℝ → Matrix (Fin n) (Fin n) ℝ × Matrix (Fin m) (Fin n) ℝ)
    (norm : Matrix (Fin n) (Fin n) ℝ → ℝ) (eps : ℝ) (he : 1 < eps) (maxIter : Nat)
    (P : Matrix (Fin n) (Fin n) ℝ) (K : Matrix (Fin m) (Fin n) ℝ) :
    dare step norm eps maxIter P K = .ok (P, K) := by
  have h : dareLoop step norm eps maxIter P K 1 = (P, K, 1) := by
    cases maxIter with
    | zero => rfl
    | succ it => rw [dareLoop, if_neg (not_le.2 he)]
  rw [dare, h]
  simp [not_le.2 he]

end CT.Lqr
