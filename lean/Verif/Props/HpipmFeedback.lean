import Verif.Model.HpipmFeedback
import Verif.Props.Riccati

/-! # C109: the first-stage feedback of the HPIPM interface is optimal -/

namespace CT.Hpipm
open Matrix CT.Riccati

variable {n m : Nat}

/-- Cost of the first stage plus cost-to-go from the second: `½ x'ᵀ S1 x' + s1ᵀ x'`. -/
noncomputable def firstCost (p : Problem n m) (S1 : Matrix (Fin n) (Fin n) ℝ) (s1 : Fin n → ℝ) (x : Fin n → ℝ)
    (u : Fin m → ℝ) : ℝ :=
  stageCost p 0 x u + (1 / 2 * (next p 0 x u ⬝ᵥ (S1 *ᵥ next p 0 x u)) + s1 ⬝ᵥ next p 0 x u)

/-- The lower triangle of a matrix. -/
def lower (M : Matrix (Fin m) (Fin m) ℝ) : Matrix (Fin m) (Fin m) ℝ := Matrix.of fun i j => if j ≤ i then M i j else 0

theorem gram (T : Matrix (Fin m) (Fin m) ℝ) (d : Fin m → ℝ) : d ⬝ᵥ ((T * Tᵀ) *ᵥ d) = (Tᵀ *ᵥ d) ⬝ᵥ (Tᵀ *ᵥ d) := by
  have := dot_tr Tᵀ d (Tᵀ *ᵥ d)
  rw [transpose_transpose] at this
  rw [← mulVec_mulVec, this]

/-- The gain solves `H L = -G`. -/
theorem firstFeedback_eq (p : Problem n m) (Lr : Matrix (Fin m) (Fin m) ℝ) (S1 : Matrix (Fin n) (Fin n) ℝ)
    (hd : IsUnit (lower Lr).det) :
    (lower Lr * (lower Lr)ᵀ) * firstFeedback p Lr S1 = -(p.P 0 + (p.B 0)ᵀ * S1 * p.A 0) := by
  have e : lowerInverse Lr = (lower Lr)⁻¹ := rfl
  have h1 : lower Lr * (lower Lr)⁻¹ = 1 := mul_nonsing_inv _ hd
  have h2 : (lower Lr)ᵀ * ((lower Lr)⁻¹)ᵀ = 1 := by
    rw [← transpose_mul, nonsing_inv_mul _ hd, transpose_one]
  simp only [firstFeedback, e]
  rw [Matrix.neg_mul, Matrix.neg_mul, Matrix.mul_neg, Matrix.mul_assoc, ← Matrix.mul_assoc (lower Lr)ᵀ,
    ← Matrix.mul_assoc (lower Lr)ᵀ, h2, Matrix.one_mul, ← Matrix.mul_assoc, h1, Matrix.one_mul]

/-- C109: let the lower triangle of `Lr` have a non-zero diagonal and be the factor of the Hessian of stage zero with
respect to the control, `Lr Lrᵀ = R + Bᵀ S1 B`, with `S1` symmetric, and let `lv` be an optimal control for an
unperturbed first state.  Then for every perturbation `x` of the first state, `lv + L x` with the gain `L` of the
interface is the only control that minimises the cost of the first stage plus the cost-to-go. -/
theorem C109_first_feedback (p : Problem n m) (Lr : Matrix (Fin m) (Fin m) ℝ) (S1 : Matrix (Fin n) (Fin n) ℝ)
    (s1 : Fin n → ℝ) (hS : S1ᵀ = S1) (hd : ∀ i, Lr i i ≠ 0)
    (hH : lower Lr * (lower Lr)ᵀ = p.R 0 + (p.B 0)ᵀ * S1 * p.B 0) (lv : Fin m → ℝ)
    (hl : ∀ u, firstCost p S1 s1 0 lv ≤ firstCost p S1 s1 0 u) (x : Fin n → ℝ) (u : Fin m → ℝ) :
    firstCost p S1 s1 x (lv + firstFeedback p Lr S1 *ᵥ x) ≤ firstCost p S1 s1 x u ∧
      (firstCost p S1 s1 x u = firstCost p S1 s1 x (lv + firstFeedback p Lr S1 *ᵥ x) →
        u = lv + firstFeedback p Lr S1 *ᵥ x) := by
  have hdet : IsUnit (lower Lr).det := by
    rw [Matrix.det_of_lowerTriangular]
    · rw [isUnit_iff_ne_zero, Finset.prod_ne_zero_iff]
      intro i _
      simpa [lower] using hd i
    · intro i j hij
      have : ¬ j ≤ i := not_le.2 hij
      simp [lower, this]
  generalize hT : lower Lr = T at *
  have hL : (T * Tᵀ) * firstFeedback p Lr S1 = -(p.P 0 + (p.B 0)ᵀ * S1 * p.A 0) := by
    rw [← hT]; exact firstFeedback_eq p Lr S1 (by rw [hT]; exact hdet)
  have hHs : (T * Tᵀ)ᵀ = T * Tᵀ := by rw [transpose_mul, transpose_transpose]
  have hTT : IsUnit (T * Tᵀ).det := by rw [det_mul, det_transpose]; exact hdet.mul hdet
  let gv := p.rv 0 + (p.B 0)ᵀ *ᵥ s1 + ((p.B 0)ᵀ * S1) *ᵥ p.b 0
  let l' := (T * Tᵀ)⁻¹ *ᵥ (-gv)
  have hl' : (T * Tᵀ) *ᵥ l' = -gv := by
    simp only [l']
    rw [mulVec_mulVec, mul_nonsing_inv _ hTT, one_mulVec]
  -- the cost is a square around the optimal control
  have key : ∀ x, ∃ c, ∀ u, firstCost p S1 s1 x u = c + 1 / 2 *
      ((Tᵀ *ᵥ (u - (l' + firstFeedback p Lr S1 *ᵥ x))) ⬝ᵥ (Tᵀ *ᵥ (u - (l' + firstFeedback p Lr S1 *ᵥ x)))) := by
    intro x
    have := fun u => stage_identity (p.A 0) (p.B 0) (p.b 0) (p.P 0) (firstFeedback p Lr S1) _ (p.q 0) 0 (p.qv 0) s1
      (p.Q 0) S1 (p.rv 0) l' gv (p.R 0) (T * Tᵀ) hS hHs rfl rfl hH hL hl' x u
    simp only [gram, add_zero] at this
    exact ⟨_, this⟩
  have zero : ∀ d : Fin m → ℝ, (Tᵀ *ᵥ d) ⬝ᵥ (Tᵀ *ᵥ d) ≤ 0 → d = 0 := by
    intro d h0
    have h1 : Tᵀ *ᵥ d = 0 := dotProduct_self_eq_zero.1 (le_antisymm h0 (by
      rw [dotProduct]; exact Finset.sum_nonneg fun i _ => mul_self_nonneg _))
    have : (Tᵀ)⁻¹ *ᵥ (Tᵀ *ᵥ d) = 0 := by rw [h1, mulVec_zero]
    rwa [mulVec_mulVec, nonsing_inv_mul _ (by rw [det_transpose]; exact hdet), one_mulVec] at this
  have pos : ∀ d : Fin m → ℝ, 0 ≤ d ⬝ᵥ d := fun d => by
    rw [dotProduct]; exact Finset.sum_nonneg fun i _ => mul_self_nonneg _
  have hlv : lv = l' := by
    obtain ⟨c, hc⟩ := key 0
    have := hl l'
    rw [hc, hc] at this
    simp only [mulVec_zero, add_zero, sub_self, dotProduct_zero, mul_zero] at this
    exact sub_eq_zero.1 (zero _ (by linarith))
  obtain ⟨c, hc⟩ := key x
  rw [hlv, hc, hc]
  simp only [sub_self, mulVec_zero, dotProduct_zero, mul_zero, add_zero]
  refine ⟨by have := pos (Tᵀ *ᵥ (u - (l' + firstFeedback p Lr S1 *ᵥ x))); linarith, fun h => ?_⟩
  exact sub_eq_zero.1 (zero _ (by linarith))

/-- One state, one control, `x' = x + u`, cost `½ (x² + u²)`, cost-to-go `½ · 3 x²`: the Hessian is 4 with factor 2, the
hypotheses hold, and the gain is `-3/4`. -/
def scalar : Problem 1 1 where
  N := 1
  A := fun _ => 1
  B := fun _ => 1
  b := fun _ => 0
  P := fun _ => 0
  q := fun _ => 0
  qv := fun _ => 0
  Q := fun _ => 1
  rv := fun _ => 0
  R := fun _ => 1

example : (∀ i, (!![2] : Matrix (Fin 1) (Fin 1) ℝ) i i ≠ 0) ∧
    lower (!![2] : Matrix (Fin 1) (Fin 1) ℝ) * (lower !![2])ᵀ
      = scalar.R 0 + (scalar.B 0)ᵀ * (!![3] : Matrix (Fin 1) (Fin 1) ℝ) * scalar.B 0 ∧
    ∀ u, firstCost scalar !![3] 0 0 0 ≤ firstCost scalar !![3] 0 0 u := by
  refine ⟨fun i => by fin_cases i; norm_num, ?_, fun u => ?_⟩
  · ext i j
    fin_cases i; fin_cases j
    norm_num [lower, scalar, Matrix.mul_apply]
  · have h1 := mul_self_nonneg (u 0)
    norm_num [firstCost, scalar, stageCost, next, dotProduct, mulVec]
    nlinarith

end CT.Hpipm
