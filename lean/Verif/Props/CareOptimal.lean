import Verif.Props.CareStable
import Mathlib.MeasureTheory.Integral.IntervalIntegral.FundThmCalculus
import Mathlib.Analysis.Calculus.MeanValue

/-!
# Optimality of the continuous-time regulator over infinite time
-/

set_option linter.unusedSectionVars false

namespace CT.Care

open Matrix Filter Topology CT.LinOde CT.Lqr

variable {n m : ℕ} {Q A P : Matrix (Fin n) (Fin n) ℝ} {B : Matrix (Fin n) (Fin m) ℝ} {R : Matrix (Fin m) (Fin m) ℝ}

/-- The state `x` moves under the input `u`. -/
def Motion (A : Matrix (Fin n) (Fin n) ℝ) (B : Matrix (Fin n) (Fin m) ℝ) (x : ℝ → Fin n → ℝ) (u : ℝ → Fin m → ℝ) : Prop :=
  ∀ t, HasDerivAt x (A *ᵥ x t + B *ᵥ u t) t

/-- Cost up to time `T`: `∫₀ᵀ xᵀQx + uᵀRu dt`. -/
noncomputable def cost (Q : Matrix (Fin n) (Fin n) ℝ) (R : Matrix (Fin m) (Fin m) ℝ) (x : ℝ → Fin n → ℝ)
    (u : ℝ → Fin m → ℝ) (T : ℝ) : ℝ := ∫ t in (0 : ℝ)..T, (x t ⬝ᵥ (Q *ᵥ x t) + u t ⬝ᵥ (R *ᵥ u t))

theorem Motion.continuous {x : ℝ → Fin n → ℝ} {u : ℝ → Fin m → ℝ} (h : Motion A B x u) : Continuous x :=
  continuous_iff_continuousAt.2 fun t => (h t).continuousAt

theorem continuous_form {k : ℕ} (M : Matrix (Fin k) (Fin k) ℝ) {x : ℝ → Fin k → ℝ} (hx : Continuous x) :
    Continuous fun t => x t ⬝ᵥ (M *ᵥ x t) := by
  have h : ∀ i, Continuous fun t => x t i := fun i => (continuous_apply i).comp hx
  simp only [dotProduct, mulVec]
  fun_prop

/-- Cauchy-Schwarz for a positive semi-definite form. -/
theorem psd_cs {k : ℕ} {M : Matrix (Fin k) (Fin k) ℝ} (h : Psd M) (w v : Fin k → ℝ) :
    (w ⬝ᵥ (M *ᵥ v)) ^ 2 ≤ (w ⬝ᵥ (M *ᵥ w)) * (v ⬝ᵥ (M *ᵥ v)) := by
  have key : ∀ s : ℝ, 0 ≤ (v ⬝ᵥ (M *ᵥ v)) * (s * s) + 2 * (w ⬝ᵥ (M *ᵥ v)) * s + w ⬝ᵥ (M *ᵥ w) := by
    intro s
    have := h.2 (w + s • v)
    have e : (w + s • v) ⬝ᵥ (M *ᵥ (w + s • v)) =
        (v ⬝ᵥ (M *ᵥ v)) * (s * s) + 2 * (w ⬝ᵥ (M *ᵥ v)) * s + w ⬝ᵥ (M *ᵥ w) := by
      simp only [mulVec_add, mulVec_smul, dotProduct_add, add_dotProduct, smul_dotProduct, dotProduct_smul, smul_eq_mul]
      rw [dot_sym h.1 v w]
      ring
    rwa [e] at this
  have := discrim_le_zero key
  rw [discrim] at this
  nlinarith

theorem dot_self_nonneg {k : ℕ} (v : Fin k → ℝ) : 0 ≤ v ⬝ᵥ v :=
  Finset.sum_nonneg fun i _ => mul_self_nonneg _

/-- A linear image of `M v` is bounded by the form of `M`. -/
theorem psd_image {k l : ℕ} {M : Matrix (Fin k) (Fin k) ℝ} (h : Psd M) (G : Matrix (Fin l) (Fin k) ℝ) :
    ∃ c, 0 ≤ c ∧ ∀ v, (G *ᵥ (M *ᵥ v)) ⬝ᵥ (G *ᵥ (M *ᵥ v)) ≤ c * (v ⬝ᵥ (M *ᵥ v)) := by
  refine ⟨∑ i, G i ⬝ᵥ (M *ᵥ G i), Finset.sum_nonneg fun i _ => h.2 _, fun v => ?_⟩
  rw [dotProduct, Finset.sum_mul]
  refine Finset.sum_le_sum fun i _ => ?_
  have := psd_cs h (G i) v
  rw [sq] at this
  exact this

theorem form_bound {k : ℕ} (M : Matrix (Fin k) (Fin k) ℝ) : ∃ c, 0 ≤ c ∧ ∀ v, v ⬝ᵥ (M *ᵥ v) ≤ c * (v ⬝ᵥ v) := by
  obtain ⟨c, hc, h⟩ := psd_image (psd_one (k := k)) M
  refine ⟨(1 + c) / 2, by linarith, fun v => ?_⟩
  have h1 := h v
  simp only [one_mulVec] at h1
  have h2 := dot_self_nonneg (v - M *ᵥ v)
  simp only [sub_dotProduct, dotProduct_sub] at h2
  rw [dotProduct_comm (M *ᵥ v) v] at h2
  linarith

theorem stage_nonneg (hQ : Psd Q) (hR : Psd R) (x : Fin n → ℝ) (u : Fin m → ℝ) :
    0 ≤ x ⬝ᵥ (Q *ᵥ x) + u ⬝ᵥ (R *ᵥ u) := add_nonneg (hQ.2 x) (hR.2 u)

theorem stage_continuous {x : ℝ → Fin n → ℝ} {u : ℝ → Fin m → ℝ} (hx : Continuous x) (hu : Continuous u) :
    Continuous fun t => x t ⬝ᵥ (Q *ᵥ x t) + u t ⬝ᵥ (R *ᵥ u t) := (continuous_form Q hx).add (continuous_form R hu)

theorem hasDerivAt_value (hP : Pᵀ = P) {x : ℝ → Fin n → ℝ} {x' : Fin n → ℝ} {t : ℝ} (hx : HasDerivAt x x' t) :
    HasDerivAt (fun t => x t ⬝ᵥ (P *ᵥ x t)) (2 * (x t ⬝ᵥ (P *ᵥ x'))) t := by
  refine (hasDerivAt_form P hx hx).congr_deriv ?_
  rw [dot_sym hP x']
  ring

/-- The cost up to a time is the value at the start minus the value reached plus the penalty for deviating from the
feedback. -/
theorem cost_eq (hR : Pd R) (hP : Pᵀ = P) (hc : SolvesCARE Q A B R P) {x : ℝ → Fin n → ℝ} {u : ℝ → Fin m → ℝ}
    (h : Motion A B x u) (hu : Continuous u) (T : ℝ) :
    cost Q R x u T = x 0 ⬝ᵥ (P *ᵥ x 0) - x T ⬝ᵥ (P *ᵥ x T) +
      ∫ t in (0 : ℝ)..T, (u t + lqrGain R⁻¹ B P *ᵥ x t) ⬝ᵥ (R *ᵥ (u t + lqrGain R⁻¹ B P *ᵥ x t)) := by
  have hx := h.continuous
  have hpen : Continuous fun t => u t + lqrGain R⁻¹ B P *ᵥ x t :=
    hu.add (Continuous.matrix_mulVec continuous_const hx)
  have c1 := stage_continuous (Q := Q) (R := R) hx hu
  have c2 := continuous_form R hpen
  have hd : ∀ t ∈ Set.uIcc (0 : ℝ) T, HasDerivAt (fun t => x t ⬝ᵥ (P *ᵥ x t))
      ((u t + lqrGain R⁻¹ B P *ᵥ x t) ⬝ᵥ (R *ᵥ (u t + lqrGain R⁻¹ B P *ᵥ x t)) -
        (x t ⬝ᵥ (Q *ᵥ x t) + u t ⬝ᵥ (R *ᵥ u t))) t := by
    intro t _
    refine (hasDerivAt_value hP (h t)).congr_deriv ?_
    rw [← C40_gain Q A B R P hc hP hR.1 hR.isUnit (x t) (u t)]
    ring
  have := intervalIntegral.integral_eq_sub_of_hasDerivAt hd ((c2.sub c1).intervalIntegrable _ _)
  rw [intervalIntegral.integral_sub (c2.intervalIntegrable _ _) (c1.intervalIntegrable _ _)] at this
  rw [cost]
  linarith

theorem penalty_nonneg (hR : Pd R) {w : ℝ → Fin m → ℝ} {T : ℝ} (hT : 0 ≤ T) :
    0 ≤ ∫ t in (0 : ℝ)..T, w t ⬝ᵥ (R *ᵥ w t) :=
  intervalIntegral.integral_nonneg hT fun t _ => hR.psd.2 _

/-- Finite cost of a detectable system: the state comes close to rest again and again. -/
theorem finite_cost_frequently (hQ : Psd Q) (hR : Pd R) (hd : Detectable A Q) {x : ℝ → Fin n → ℝ}
    {u : ℝ → Fin m → ℝ} (h : Motion A B x u) (hu : Continuous u) {C : ℝ} (hC : ∀ T, 0 ≤ T → cost Q R x u T ≤ C)
    {ε : ℝ} (hε : 0 < ε) (T0 : ℝ) (hT0 : 0 ≤ T0) : ∃ T, T0 ≤ T ∧ x T ⬝ᵥ x T < ε := by
  obtain ⟨L, hL⟩ := hd
  obtain ⟨Y0, hY0⟩ := hL.lyapunov 1
  -- a symmetric Lyapunov matrix
  have hYt : Y0ᵀ = Y0 := by
    have e := congrArg transpose hY0
    simp only [transpose_add, transpose_mul, transpose_transpose, transpose_neg, transpose_one] at e
    have := hL.sylvester hL (W := Y0ᵀ - Y0) (by
      rw [Matrix.mul_sub, Matrix.sub_mul]
      have : (A + L * Q)ᵀ * Y0ᵀ - (A + L * Q)ᵀ * Y0 + (Y0ᵀ * (A + L * Q) - Y0 * (A + L * Q)) =
        ((A + L * Q)ᵀ * Y0ᵀ + Y0ᵀ * (A + L * Q)) - ((A + L * Q)ᵀ * Y0 + Y0 * (A + L * Q)) := by abel
      rw [this, hY0, transpose_add, transpose_mul, add_comm, e]; simp)
    exact sub_eq_zero.1 this
  have hYn : ∀ v, 0 ≤ v ⬝ᵥ (Y0 *ᵥ v) := hL.nonneg hY0 fun v => by rw [one_mulVec]; exact dot_self_nonneg v
  obtain ⟨c1, hc1, hb1⟩ := psd_image hQ (Y0 * L)
  obtain ⟨c2, hc2, hb2⟩ := psd_image hR.psd (Y0 * B * R⁻¹)
  set c := 4 * (c1 + c2) with hcdef
  have hx := h.continuous
  -- derivative of the Lyapunov function
  have hV : ∀ t, HasDerivAt (fun t => x t ⬝ᵥ (Y0 *ᵥ x t)) (2 * (x t ⬝ᵥ (Y0 *ᵥ (A *ᵥ x t + B *ᵥ u t)))) t :=
    fun t => hasDerivAt_value hYt (h t)
  have hVle : ∀ t, 2 * (x t ⬝ᵥ (Y0 *ᵥ (A *ᵥ x t + B *ᵥ u t))) ≤
      c * (x t ⬝ᵥ (Q *ᵥ x t) + u t ⬝ᵥ (R *ᵥ u t)) - (1 / 2) * (x t ⬝ᵥ x t) := by
    intro t
    set v := x t
    set w := u t
    set p := (Y0 * L) *ᵥ (Q *ᵥ v) with hp
    set q := (Y0 * B * R⁻¹) *ᵥ (R *ᵥ w) with hq
    have e1 : 2 * (v ⬝ᵥ (Y0 *ᵥ (A *ᵥ v))) = -(v ⬝ᵥ v) - 2 * (v ⬝ᵥ p) := by
      have e := congrArg (fun M => v ⬝ᵥ (M *ᵥ v)) hY0
      simp only [add_mulVec, dotProduct_add, neg_mulVec, dotProduct_neg, one_mulVec] at e
      have e2 : v ⬝ᵥ (((A + L * Q)ᵀ * Y0) *ᵥ v) = v ⬝ᵥ ((Y0 * (A + L * Q)) *ᵥ v) := by
        rw [← mulVec_mulVec, dotProduct_mulVec v, vecMul_transpose, dot_sym hYt, mulVec_mulVec]
      rw [e2] at e
      have e3 : v ⬝ᵥ ((Y0 * (A + L * Q)) *ᵥ v) = v ⬝ᵥ (Y0 *ᵥ (A *ᵥ v)) + v ⬝ᵥ p := by
        rw [hp, mulVec_mulVec, mulVec_mulVec, ← dotProduct_add, ← add_mulVec, Matrix.mul_add, Matrix.mul_assoc]
      linarith
    have e4 : Y0 *ᵥ (B *ᵥ w) = q := by
      rw [hq, mulVec_mulVec, mulVec_mulVec, Matrix.mul_assoc _ R⁻¹, Matrix.nonsing_inv_mul _ hR.isUnit, Matrix.mul_one]
    have b1 : p ⬝ᵥ p ≤ c1 * (v ⬝ᵥ (Q *ᵥ v)) := hb1 v
    have b2 : q ⬝ᵥ q ≤ c2 * (w ⬝ᵥ (R *ᵥ w)) := hb2 w
    have s1 := dot_self_nonneg (v + 4 • p)
    have s2 := dot_self_nonneg (v - 4 • q)
    simp only [add_dotProduct, dotProduct_add, sub_dotProduct, dotProduct_sub, smul_dotProduct, dotProduct_smul] at s1 s2
    rw [dotProduct_comm p v] at s1
    rw [dotProduct_comm q v] at s2
    simp only [nsmul_eq_mul, Nat.cast_ofNat] at s1 s2
    rw [mulVec_add, dotProduct_add, e4]
    have n1 := hQ.2 v
    have n2 := hR.psd.2 w
    have n3 := mul_nonneg hc1 n2
    have n4 := mul_nonneg hc2 n1
    rw [hcdef]
    nlinarith
  by_contra hno
  push Not at hno
  -- the Lyapunov function would become negative
  have hcost : Continuous fun t => x t ⬝ᵥ (Q *ᵥ x t) + u t ⬝ᵥ (R *ᵥ u t) := stage_continuous hx hu
  have hcd : ∀ t, HasDerivAt (cost Q R x u) (x t ⬝ᵥ (Q *ᵥ x t) + u t ⬝ᵥ (R *ᵥ u t)) t := fun t =>
    intervalIntegral.integral_hasDerivAt_right (hcost.intervalIntegrable _ _)
      (hcost.stronglyMeasurableAtFilter _ _) hcost.continuousAt
  let g : ℝ → ℝ := fun t => x t ⬝ᵥ (Y0 *ᵥ x t) - c * cost Q R x u t + (ε / 2) * t
  have hg : ∀ t, HasDerivAt g (2 * (x t ⬝ᵥ (Y0 *ᵥ (A *ᵥ x t + B *ᵥ u t))) -
      c * (x t ⬝ᵥ (Q *ᵥ x t) + u t ⬝ᵥ (R *ᵥ u t)) + (ε / 2)) t := fun t => by
    have := ((hV t).sub ((hcd t).const_mul c)).add ((hasDerivAt_id t).const_mul (ε / 2))
    exact this.congr_deriv (by simp)
  have hganti : AntitoneOn g (Set.Ici T0) := by
    refine antitoneOn_of_deriv_nonpos (convex_Ici T0)
      (fun t _ => (hg t).continuousAt.continuousWithinAt)
      (fun t _ => (hg t).differentiableAt.differentiableWithinAt) fun t ht => ?_
    rw [(hg t).deriv]
    rw [interior_Ici] at ht
    have := hno t (le_of_lt ht)
    have := hVle t
    linarith
  have hlow : ∀ t, T0 ≤ t → (ε / 2) * t ≤ g T0 + c * C := by
    intro t ht
    have h1 := hganti (Set.mem_Ici.2 le_rfl) (Set.mem_Ici.2 ht) ht
    have h2 := hYn (x t)
    have h3 : c * cost Q R x u t ≤ c * C := mul_le_mul_of_nonneg_left (hC t (hT0.trans ht)) (by rw [hcdef]; positivity)
    have h4 : g t = x t ⬝ᵥ (Y0 *ᵥ x t) - c * cost Q R x u t + (ε / 2) * t := rfl
    linarith
  have h5 := hlow (max T0 ((g T0 + c * C + 1) / (ε / 2))) (le_max_left _ _)
  have h6 : (g T0 + c * C + 1) ≤ (ε / 2) * max T0 ((g T0 + c * C + 1) / (ε / 2)) := by
    have := mul_le_mul_of_nonneg_left (le_max_right T0 ((g T0 + c * C + 1) / (ε / 2))) (by positivity : (0:ℝ) ≤ ε / 2)
    rwa [mul_div_cancel₀ _ (by positivity : ε / 2 ≠ 0)] at this
  linarith

/-- The value at the start is a lower bound of the total cost of every motion. -/
theorem value_le (hQ : Psd Q) (hR : Pd R) (hd : Detectable A Q) (hP : Psd P) (hc : SolvesCARE Q A B R P)
    {x : ℝ → Fin n → ℝ} {u : ℝ → Fin m → ℝ} (h : Motion A B x u) (hu : Continuous u) {C : ℝ}
    (hC : ∀ T, 0 ≤ T → cost Q R x u T ≤ C) : x 0 ⬝ᵥ (P *ᵥ x 0) ≤ C := by
  obtain ⟨c, hc0, hb⟩ := form_bound P
  refine le_of_forall_pos_le_add fun ε hε => ?_
  obtain ⟨T, hT, hlt⟩ := finite_cost_frequently hQ hR hd h hu hC (ε := ε / (c + 1)) (by positivity) 0 le_rfl
  have h1 := cost_eq hR hP.1 hc h hu T
  have h2 := penalty_nonneg hR (w := fun t => u t + lqrGain R⁻¹ B P *ᵥ x t) hT
  have h3 := hC T hT
  have h4 := hb (x T)
  have h5 : c * (x T ⬝ᵥ x T) ≤ ε := by
    have h6 := dot_self_nonneg (x T)
    have h7 : (c + 1) * (x T ⬝ᵥ x T) ≤ ε := by
      have := mul_le_mul_of_nonneg_left hlt.le (by linarith : 0 ≤ c + 1)
      rwa [mul_div_cancel₀ _ (by positivity : c + 1 ≠ 0)] at this
    nlinarith
  linarith

/-- Only the feedback attains the value. -/
theorem attained_only (hQ : Psd Q) (hR : Pd R) (hd : Detectable A Q) (hP : Psd P) (hc : SolvesCARE Q A B R P)
    {x : ℝ → Fin n → ℝ} {u : ℝ → Fin m → ℝ} (h : Motion A B x u) (hu : Continuous u)
    (hC : ∀ T, 0 ≤ T → cost Q R x u T ≤ x 0 ⬝ᵥ (P *ᵥ x 0)) {t : ℝ} (ht : 0 ≤ t) :
    u t = -(lqrGain R⁻¹ B P *ᵥ x t) := by
  set w : ℝ → Fin m → ℝ := fun t => u t + lqrGain R⁻¹ B P *ᵥ x t with hw
  have hwc : Continuous w := hu.add (Continuous.matrix_mulVec continuous_const h.continuous)
  have hfc := continuous_form R hwc
  by_contra hne
  have hne' : w t ≠ 0 := fun h0 => hne (by rw [hw] at h0; exact eq_neg_of_add_eq_zero_left h0)
  have hpos : 0 < w t ⬝ᵥ (R *ᵥ w t) := hR.2 _ hne'
  have hint : 0 < ∫ s in (0 : ℝ)..(t + 1), w s ⬝ᵥ (R *ᵥ w s) := by
    refine intervalIntegral.integral_pos (by linarith) hfc.continuousOn (fun s _ => hR.psd.2 _)
      ⟨t, ⟨ht, by linarith⟩, hpos⟩
  set δ := ∫ s in (0 : ℝ)..(t + 1), w s ⬝ᵥ (R *ᵥ w s) with hδ
  obtain ⟨c, hc0, hb⟩ := form_bound P
  obtain ⟨T, hT, hlt⟩ := finite_cost_frequently hQ hR hd h hu hC (ε := δ / (c + 1)) (by positivity) (t + 1) (by linarith)
  have h1 := cost_eq hR hP.1 hc h hu T
  have h2 : δ ≤ ∫ s in (0 : ℝ)..T, w s ⬝ᵥ (R *ᵥ w s) := by
    rw [hδ]
    exact intervalIntegral.integral_mono_interval le_rfl (by linarith) hT
      (Filter.Eventually.of_forall fun s => hR.psd.2 _) (hfc.intervalIntegrable _ _)
  have h3 := hC T (by linarith)
  have h4 := hb (x T)
  have h5 : c * (x T ⬝ᵥ x T) < δ := by
    have h6 := dot_self_nonneg (x T)
    have h7 : (c + 1) * (x T ⬝ᵥ x T) < δ := by
      have := mul_lt_mul_of_pos_left hlt (by linarith : 0 < c + 1)
      rwa [mul_div_cancel₀ _ (by positivity : c + 1 ≠ 0)] at this
    nlinarith
  have h8 : cost Q R x u T = x 0 ⬝ᵥ (P *ᵥ x 0) - x T ⬝ᵥ (P *ᵥ x T) + ∫ s in (0 : ℝ)..T, w s ⬝ᵥ (R *ᵥ w s) := h1
  linarith

/-- The feedback attains the value. -/
theorem feedback_cost (hR : Pd R) (hP : Psd P) (hc : SolvesCARE Q A B R P)
    (hH : Hurwitz (A - B * lqrGain R⁻¹ B P)) {x : ℝ → Fin n → ℝ} {u : ℝ → Fin m → ℝ} (h : Motion A B x u)
    (hu : ∀ t, u t = -(lqrGain R⁻¹ B P *ᵥ x t)) :
    Tendsto (cost Q R x u) atTop (𝓝 (x 0 ⬝ᵥ (P *ᵥ x 0))) := by
  have huc : Continuous u := by
    rw [funext hu]
    exact (Continuous.matrix_mulVec continuous_const h.continuous).neg
  have hs : Solves (A - B * lqrGain R⁻¹ B P) x := fun t => by
    have := h t
    rw [hu t] at this
    rw [sub_mulVec, ← mulVec_mulVec]
    simpa [mulVec_neg, sub_eq_add_neg] using this
  have hx := hH.tendsto hs
  have hl := (tendsto_form P hx hx).const_sub (x 0 ⬝ᵥ (P *ᵥ x 0))
  rw [sub_zero] at hl
  refine hl.congr fun T => ?_
  rw [cost_eq hR hP.1 hc h huc T]
  simp [hu]

end CT.Care
