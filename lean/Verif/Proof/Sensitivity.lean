import Verif.Model.Sensitivity
import Mathlib.Analysis.Calculus.FDeriv.Basic
import Mathlib.Analysis.Calculus.FDeriv.Comp
import Mathlib.Analysis.Calculus.FDeriv.Add
import Mathlib.Analysis.Calculus.FDeriv.Mul
import Mathlib.Analysis.Calculus.FDeriv.Pi
import Mathlib.Analysis.Calculus.FDeriv.Prod
import Mathlib.Analysis.Normed.Module.FiniteDimension

/-! Helper lemmas: matrices as derivatives. -/

namespace CT.Sens
open Matrix

variable {ι ι' κ : Type} [Fintype ι] [DecidableEq ι] [Fintype ι'] [DecidableEq ι']
  [Fintype κ] [DecidableEq κ]

/-- The continuous linear map `(dx, du) ↦ A dx + B du`. -/
noncomputable def lin (A : Matrix ι' ι ℝ) (B : Matrix ι' κ ℝ) :
    ((ι → ℝ) × (κ → ℝ)) →L[ℝ] (ι' → ℝ) :=
  (LinearMap.toContinuousLinearMap (mulVecLin A)).comp (ContinuousLinearMap.fst ℝ _ _) +
    (LinearMap.toContinuousLinearMap (mulVecLin B)).comp (ContinuousLinearMap.snd ℝ _ _)

omit [DecidableEq ι] [Fintype ι'] [DecidableEq ι'] [DecidableEq κ] in
@[simp] theorem lin_apply (A : Matrix ι' ι ℝ) (B : Matrix ι' κ ℝ) (z : (ι → ℝ) × (κ → ℝ)) :
    lin A B z = A *ᵥ z.1 + B *ᵥ z.2 := rfl

omit [Fintype ι'] [DecidableEq ι'] in
theorem lin_injective {A A' : Matrix ι' ι ℝ} {B B' : Matrix ι' κ ℝ} (h : lin A B = lin A' B') :
    A = A' ∧ B = B' := by
  constructor
  · ext i j
    have := congrFun (congrArg (fun L => L ((Pi.single j 1 : ι → ℝ), (0 : κ → ℝ))) h) i
    simpa using this
  · ext i j
    have := congrFun (congrArg (fun L => L ((0 : ι → ℝ), (Pi.single j 1 : κ → ℝ))) h) i
    simpa using this

theorem hasFDerivAt_fst_lin (z : (ι → ℝ) × (κ → ℝ)) :
    HasFDerivAt (fun z : (ι → ℝ) × (κ → ℝ) => z.1) (lin (1 : Matrix ι ι ℝ) (0 : Matrix ι κ ℝ)) z := by
  have h : lin (1 : Matrix ι ι ℝ) (0 : Matrix ι κ ℝ) = ContinuousLinearMap.fst ℝ _ _ := by
    ext z i <;> simp
  rw [h]
  exact hasFDerivAt_fst

/-- Chain rule for `z ↦ F (φ z) (z.2)`. -/
theorem hasFDerivAt_comp_lin {F : (ι' → ℝ) → (κ → ℝ) → (ι' → ℝ)} {φ : (ι → ℝ) × (κ → ℝ) → (ι' → ℝ)}
    {JA : Matrix ι' ι' ℝ} {JB : Matrix ι' κ ℝ} {A : Matrix ι' ι ℝ} {B : Matrix ι' κ ℝ}
    {z : (ι → ℝ) × (κ → ℝ)}
    (hF : HasFDerivAt (fun y : (ι' → ℝ) × (κ → ℝ) => F y.1 y.2) (lin JA JB) (φ z, z.2))
    (hφ : HasFDerivAt φ (lin A B) z) :
    HasFDerivAt (fun z => F (φ z) z.2) (lin (JA * A) (JA * B + JB)) z := by
  have h2 : HasFDerivAt (fun z : (ι → ℝ) × (κ → ℝ) => (φ z, z.2))
      ((lin A B).prod (ContinuousLinearMap.snd ℝ _ _)) z := hφ.prodMk hasFDerivAt_snd
  have h3 := HasFDerivAt.comp z hF h2
  have h : (lin JA JB).comp ((lin A B).prod (ContinuousLinearMap.snd ℝ _ _)) =
      lin (JA * A) (JA * B + JB) := by
    apply ContinuousLinearMap.ext
    intro y
    simp [Matrix.mulVec_add, Matrix.add_mulVec, Matrix.mulVec_mulVec, add_assoc]
  rw [h] at h3
  exact h3

omit [DecidableEq ι'] [DecidableEq κ] [DecidableEq ι] in
theorem hasFDerivAt_add_smul_lin {φ ψ : (ι → ℝ) × (κ → ℝ) → (ι' → ℝ)}
    {A A' : Matrix ι' ι ℝ} {B B' : Matrix ι' κ ℝ} {z : (ι → ℝ) × (κ → ℝ)} (c : ℝ)
    (hφ : HasFDerivAt φ (lin A B) z) (hψ : HasFDerivAt ψ (lin A' B') z) :
    HasFDerivAt (fun z => φ z + c • ψ z) (lin (A + c • A') (B + c • B')) z := by
  have h := hφ.add (hψ.const_smul c)
  have e : lin A B + c • lin A' B' = lin (A + c • A') (B + c • B') := by
    apply ContinuousLinearMap.ext
    intro y
    simp [Matrix.add_mulVec, Matrix.smul_mulVec]
    abel
  rw [e] at h
  exact h

omit [DecidableEq ι'] [DecidableEq κ] [DecidableEq ι] in
theorem hasFDerivAt_add_lin {φ ψ : (ι → ℝ) × (κ → ℝ) → (ι' → ℝ)}
    {A A' : Matrix ι' ι ℝ} {B B' : Matrix ι' κ ℝ} {z : (ι → ℝ) × (κ → ℝ)}
    (hφ : HasFDerivAt φ (lin A B) z) (hψ : HasFDerivAt ψ (lin A' B') z) :
    HasFDerivAt (fun z => φ z + ψ z) (lin (A + A') (B + B')) z := by
  have h := hasFDerivAt_add_smul_lin (1 : ℝ) hφ hψ
  simpa using h

omit [DecidableEq ι'] [DecidableEq κ] [DecidableEq ι] in
theorem hasFDerivAt_smul_lin {φ : (ι → ℝ) × (κ → ℝ) → (ι' → ℝ)}
    {A : Matrix ι' ι ℝ} {B : Matrix ι' κ ℝ} {z : (ι → ℝ) × (κ → ℝ)} (c : ℝ)
    (hφ : HasFDerivAt φ (lin A B) z) :
    HasFDerivAt (fun z => c • φ z) (lin (c • A) (c • B)) z := by
  have h := hφ.const_smul c
  have e : c • lin A B = lin (c • A) (c • B) := by
    apply ContinuousLinearMap.ext
    intro y
    simp [Matrix.smul_mulVec]
  rw [e] at h
  exact h

omit [DecidableEq ι'] [DecidableEq κ] [DecidableEq ι] in
/-- A derivative may be assembled row by row. -/
theorem hasFDerivAt_rows {φ : (ι → ℝ) × (κ → ℝ) → (ι' → ℝ)} {A : Matrix ι' ι ℝ} {B : Matrix ι' κ ℝ}
    {z : (ι → ℝ) × (κ → ℝ)}
    (h : ∀ i, ∃ (ψ : (ι → ℝ) × (κ → ℝ) → (ι' → ℝ)) (A' : Matrix ι' ι ℝ) (B' : Matrix ι' κ ℝ),
      HasFDerivAt ψ (lin A' B') z ∧ (∀ z, φ z i = ψ z i) ∧ A' i = A i ∧ B' i = B i) :
    HasFDerivAt φ (lin A B) z := by
  rw [hasFDerivAt_pi']
  intro i
  obtain ⟨ψ, A', B', h1, h2, h3, h4⟩ := h i
  have h5 := (hasFDerivAt_pi'.1 h1) i
  have e : (ContinuousLinearMap.proj i).comp (lin A B) =
      (ContinuousLinearMap.proj i).comp (lin A' B') := by
    apply ContinuousLinearMap.ext
    intro y
    simp [Matrix.mulVec, h3, h4]
  rw [e]
  exact h5.congr_of_eventuallyEq (Filter.Eventually.of_forall h2)

end CT.Sens
