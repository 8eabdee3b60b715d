import Verif.Model.Sensitivity
import Mathlib.Analysis.SpecialFunctions.Exponential
import Mathlib.Analysis.Calculus.MeanValue
import Mathlib.Analysis.Calculus.Deriv.Prod
import Mathlib.Analysis.Calculus.Deriv.Add
import Mathlib.Analysis.Calculus.Deriv.Mul
import Mathlib.Analysis.Normed.Module.FiniteDimension
import Mathlib.LinearAlgebra.Matrix.Notation
import Mathlib.Tactic.Ring
import Mathlib.Tactic.NormNum

/-! # Property C72: matrix-exponential discretisation is exact -/

namespace CT.Sens
open Matrix

variable {ι κ : Type} [Fintype ι] [DecidableEq ι] [Fintype κ] [DecidableEq κ]

section
attribute [local instance] Matrix.linftyOpNormedRing Matrix.linftyOpNormedAlgebra
  Matrix.linftyOpNormedAddCommGroup Matrix.linftyOpNormedSpace

theorem hasDerivAt_exp_entry (A : Matrix ι ι ℝ) (t : ℝ) (i j : ι) :
    HasDerivAt (fun t : ℝ => NormedSpace.exp (t • A) i j) ((NormedSpace.exp (t • A) * A) i j) t := by
  have h := hasDerivAt_exp_smul_const (𝕂 := ℝ) A t
  let L : Matrix ι ι ℝ →ₗ[ℝ] ℝ := Matrix.entryLinearMap ℝ ℝ i j
  have h2 := (LinearMap.toContinuousLinearMap L).hasFDerivAt.comp_hasDerivAt t h
  exact h2

end

/-- Derivative of `exp(t A) v(t)`. -/
theorem hasDerivAt_exp_mulVec (A : Matrix ι ι ℝ) (v : ℝ → ι → ℝ) (v' : ι → ℝ) (t : ℝ)
    (hv : HasDerivAt v v' t) :
    HasDerivAt (fun t => NormedSpace.exp (t • A) *ᵥ v t)
      ((NormedSpace.exp (t • A) * A) *ᵥ v t + NormedSpace.exp (t • A) *ᵥ v') t := by
  rw [hasDerivAt_pi] at hv ⊢
  intro i
  have h := HasDerivAt.fun_sum (u := Finset.univ)
    (fun j _ => (hasDerivAt_exp_entry A t i j).mul (hv j))
  convert h using 1 <;> simp [Matrix.mulVec, dotProduct, Finset.sum_add_distrib]

omit [DecidableEq κ] in
/-- C72: for a linear time-invariant system with invertible state matrix, the discretisation by matrix
exponential is exact: every solution `y` of `y' = A y + B u` with constant `u` that starts in `x`
passes after the time `dt` through `A_d x + B_d u`. -/
theorem C72_exact (A : Matrix ι ι ℝ) (B : Matrix ι κ ℝ) (hA : IsUnit A.det) (dt : ℝ) (n : ℕ)
    (x : ι → ℝ) (u : κ → ℝ) (y : ℝ → ι → ℝ) (h0 : y 0 = x)
    (hy : ∀ t, HasDerivAt y (A *ᵥ y t + B *ᵥ u) t) :
    y dt = (matrixExponential ⟨fun _ _ _ => A, fun _ _ _ => B⟩ dt x u n).1 *ᵥ x +
      (matrixExponential ⟨fun _ _ _ => A, fun _ _ _ => B⟩ dt x u n).2 *ᵥ u := by
  set c : ι → ℝ := A⁻¹ *ᵥ (B *ᵥ u) with hc
  have hAc : A *ᵥ c = B *ᵥ u := by
    rw [hc, Matrix.mulVec_mulVec, Matrix.mul_nonsing_inv _ hA, Matrix.one_mulVec]
  have hcomm : ∀ s : ℝ, NormedSpace.exp (s • A) * A = A * NormedSpace.exp (s • A) := by
    intro s
    exact (((Commute.refl A).smul_left s).exp_left).eq
  have hconst : ∀ t, NormedSpace.exp (t • (-A)) *ᵥ (y t + c) = x + c := by
    have hd : ∀ t, HasDerivAt (fun t => NormedSpace.exp (t • (-A)) *ᵥ (y t + c)) 0 t := by
      intro t
      have h := hasDerivAt_exp_mulVec (-A) (fun t => y t + c) _ t ((hy t).add_const c)
      convert h using 1
      rw [← Matrix.mulVec_mulVec, ← Matrix.mulVec_add, Matrix.neg_mulVec, Matrix.mulVec_add A, hAc]
      simp
    intro t
    have hdi : Differentiable ℝ (fun t => NormedSpace.exp (t • (-A)) *ᵥ (y t + c)) :=
      fun t => (hd t).differentiableAt
    have := is_const_of_deriv_eq_zero hdi (fun t => (hd t).deriv) t 0
    rw [this]
    simp [h0]
  have hinv : NormedSpace.exp (dt • A) * NormedSpace.exp (dt • (-A)) = 1 := by
    rw [smul_neg, ← Matrix.exp_add_of_commute _ _ (Commute.neg_right (Commute.refl (dt • A)))]
    simp
  have hyc : y dt + c = NormedSpace.exp (dt • A) *ᵥ (x + c) := by
    rw [← hconst dt, Matrix.mulVec_mulVec, hinv, Matrix.one_mulVec]
  have hcommi : A⁻¹ * NormedSpace.exp (dt • A) = NormedSpace.exp (dt • A) * A⁻¹ := by
    calc A⁻¹ * NormedSpace.exp (dt • A)
        = A⁻¹ * NormedSpace.exp (dt • A) * (A * A⁻¹) := by rw [Matrix.mul_nonsing_inv _ hA, Matrix.mul_one]
      _ = A⁻¹ * (NormedSpace.exp (dt • A) * A) * A⁻¹ := by simp only [Matrix.mul_assoc]
      _ = (A⁻¹ * A) * NormedSpace.exp (dt • A) * A⁻¹ := by rw [hcomm]; simp only [Matrix.mul_assoc]
      _ = _ := by rw [Matrix.nonsing_inv_mul _ hA, Matrix.one_mul]
  simp only [matrixExponential]
  rw [← Matrix.mulVec_mulVec, Matrix.mul_sub, hcommi, Matrix.mul_one, Matrix.sub_mulVec,
    ← Matrix.mulVec_mulVec, ← hc, eq_sub_of_add_eq hyc, Matrix.mulVec_add]
  abel

omit [DecidableEq κ] in
/-- The hypotheses of `C72_exact` are met for every invertible `A`: the solution exists. -/
theorem C72_solution_exists (A : Matrix ι ι ℝ) (B : Matrix ι κ ℝ) (hA : IsUnit A.det)
    (x : ι → ℝ) (u : κ → ℝ) :
    ∃ y : ℝ → ι → ℝ, y 0 = x ∧ ∀ t, HasDerivAt y (A *ᵥ y t + B *ᵥ u) t := by
  set c : ι → ℝ := A⁻¹ *ᵥ (B *ᵥ u) with hc
  have hAc : A *ᵥ c = B *ᵥ u := by
    rw [hc, Matrix.mulVec_mulVec, Matrix.mul_nonsing_inv _ hA, Matrix.one_mulVec]
  have hcomm : ∀ s : ℝ, NormedSpace.exp (s • A) * A = A * NormedSpace.exp (s • A) := by
    intro s
    exact (((Commute.refl A).smul_left s).exp_left).eq
  refine ⟨fun t => NormedSpace.exp (t • A) *ᵥ (x + c) - c, by simp, fun t => ?_⟩
  have h := (hasDerivAt_exp_mulVec A (fun _ => x + c) 0 t (hasDerivAt_const t _)).sub_const c
  have e : A *ᵥ (NormedSpace.exp (t • A) *ᵥ (x + c) - c) + B *ᵥ u =
      (NormedSpace.exp (t • A) * A) *ᵥ (x + c) + NormedSpace.exp (t • A) *ᵥ 0 := by
    rw [hcomm, Matrix.mulVec_sub, hAc, Matrix.mulVec_mulVec, Matrix.mulVec_zero]
    abel
  rw [e]
  exact h

/-- A damped oscillator has an invertible state matrix. -/
example : IsUnit (!![0, 1; -1, -1] : Matrix (Fin 2) (Fin 2) ℝ).det := by
  simp [Matrix.det_fin_two]

end CT.Sens
