import Verif.Model.PointToPoint
import Verif.Props.DmsVector
import Mathlib.Analysis.Calculus.Deriv.Basic
import Mathlib.Analysis.Calculus.Deriv.Add
import Mathlib.Analysis.Calculus.Deriv.Mul
import Mathlib.Analysis.Calculus.Deriv.Pow
import Mathlib.Analysis.Calculus.Deriv.MeanValue

/-! # Properties C61 and C85: point-to-point joint trajectories -/

namespace CT.PtP

/-! ### A closed form of the two plans -/

/-- Position profile for unit acceleration: speed up until `ta`, slow down from `tb` on, stand
still from `ta + tb` on. -/
noncomputable def P (ta tb t : ℝ) : ℝ :=
  (max t 0) ^ 2 - (max (t - ta) 0) ^ 2 - (max (t - tb) 0) ^ 2 + (max (t - (ta + tb)) 0) ^ 2

/-- Velocity profile for unit acceleration. -/
noncomputable def V (ta tb t : ℝ) : ℝ :=
  max t 0 - max (t - ta) 0 - max (t - tb) 0 + max (t - (ta + tb)) 0

private theorem hasDerivAt_sqpos (c t : ℝ) :
    HasDerivAt (fun t => (max (t - c) 0) ^ 2) (2 * max (t - c) 0) t := by
  rcases lt_trichotomy t c with h | h | h
  · rw [max_eq_right (by linarith)]
    have : (fun t => (max (t - c) 0) ^ 2) =ᶠ[nhds t] fun _ => (0 : ℝ) := by
      filter_upwards [eventually_lt_nhds h] with s hs
      rw [max_eq_right (by linarith)]; norm_num
    simpa using (hasDerivAt_const t (0 : ℝ)).congr_of_eventuallyEq this
  · subst h
    rw [hasDerivAt_iff_isLittleO]
    simp only [sub_self, max_self, ne_eq, OfNat.ofNat_ne_zero, not_false_eq_true, zero_pow, sub_zero,
      mul_zero, smul_eq_mul]
    have h1 : (fun s : ℝ => (max (s - t) 0) ^ 2) =O[nhds t] fun s => (s - t) ^ 2 := by
      refine Asymptotics.IsBigO.of_bound 1 (Filter.Eventually.of_forall fun s => ?_)
      rw [one_mul, Real.norm_eq_abs, Real.norm_eq_abs, abs_of_nonneg (sq_nonneg _),
        abs_of_nonneg (sq_nonneg _), sq_le_sq]
      rcases le_total (s - t) 0 with h | h
      · rw [max_eq_right h]; simp
      · rw [max_eq_left h]
    have h2 : (fun s : ℝ => (s - t) ^ 2) =o[nhds t] fun s => s - t := by
      have : Filter.Tendsto (fun s : ℝ => s - t) (nhds t) (nhds 0) := by
        have h := (continuous_sub_right t).tendsto t
        rwa [sub_self] at h
      have h3 := (Asymptotics.isLittleO_pow_id (𝕜 := ℝ) (n := 2) (by norm_num)).comp_tendsto this
      exact h3
    exact h1.trans_isLittleO h2
  · rw [max_eq_left (by linarith)]
    have : (fun t => (max (t - c) 0) ^ 2) =ᶠ[nhds t] fun t => (t - c) ^ 2 := by
      filter_upwards [eventually_gt_nhds h] with s hs
      rw [max_eq_left (by linarith)]
    have hd : HasDerivAt (fun t : ℝ => (t - c) ^ 2) (2 * (t - c)) t := by
      have h := ((hasDerivAt_id t).sub_const c).pow 2
      refine h.congr_deriv ?_
      simp
    exact hd.congr_of_eventuallyEq this

private theorem hasDerivAt_P (ta tb t : ℝ) : HasDerivAt (P ta tb) (2 * V ta tb t) t := by
  have h0 := hasDerivAt_sqpos 0 t
  have h1 := hasDerivAt_sqpos ta t
  have h2 := hasDerivAt_sqpos tb t
  have h3 := hasDerivAt_sqpos (ta + tb) t
  have := ((h0.sub h1).sub h2).add h3
  simp only [sub_zero] at this
  refine (this.congr_deriv ?_)
  unfold V; ring

section Profile
variable {ta tb : ℝ} (ha : 0 ≤ ta) (hab : ta ≤ tb)
include ha hab

private theorem V_cases (t : ℝ) (ht : 0 ≤ t) :
    (t ≤ ta ∧ V ta tb t = t ∧ P ta tb t = t ^ 2) ∨
    (ta < t ∧ t ≤ tb ∧ V ta tb t = ta ∧ P ta tb t = 2 * ta * t - ta ^ 2) ∨
    (tb < t ∧ t ≤ ta + tb ∧ V ta tb t = ta + tb - t ∧
      P ta tb t = 2 * ta * tb - (ta + tb - t) ^ 2) ∨
    (ta + tb < t ∧ V ta tb t = 0 ∧ P ta tb t = 2 * ta * tb) := by
  unfold V P
  rw [max_eq_left ht]
  rcases le_or_gt t ta with h1 | h1
  · left
    rw [max_eq_right (by linarith : t - ta ≤ 0), max_eq_right (by linarith : t - tb ≤ 0),
      max_eq_right (by linarith : t - (ta + tb) ≤ 0)]
    exact ⟨h1, by ring, by ring⟩
  · right
    rw [max_eq_left (by linarith : 0 ≤ t - ta)]
    rcases le_or_gt t tb with h2 | h2
    · left
      rw [max_eq_right (by linarith : t - tb ≤ 0), max_eq_right (by linarith : t - (ta + tb) ≤ 0)]
      exact ⟨h1, h2, by ring, by ring⟩
    · right
      rw [max_eq_left (by linarith : 0 ≤ t - tb)]
      rcases le_or_gt t (ta + tb) with h3 | h3
      · left
        rw [max_eq_right (by linarith : t - (ta + tb) ≤ 0)]
        exact ⟨h2, h3, by ring, by ring⟩
      · right
        rw [max_eq_left (by linarith : 0 ≤ t - (ta + tb))]
        exact ⟨h3, by ring, by ring⟩

private theorem V_bounds (t : ℝ) (ht : 0 ≤ t) : 0 ≤ V ta tb t ∧ V ta tb t ≤ ta := by
  rcases V_cases ha hab t ht with h | h | h | h
  · rw [h.2.1]; exact ⟨ht, h.1⟩
  · rw [h.2.2.1]; exact ⟨ha, le_rfl⟩
  · rw [h.2.2.1]; constructor <;> linarith [h.1, h.2.1]
  · rw [h.2.1]; exact ⟨le_rfl, ha⟩

private theorem V_lip (s t : ℝ) (hs : 0 ≤ s) (hst : s ≤ t) :
    |V ta tb t - V ta tb s| ≤ t - s := by
  rw [abs_le]
  rcases V_cases ha hab s hs with h | h | h | h <;>
    rcases V_cases ha hab t (hs.trans hst) with k | k | k | k <;>
    first
      | rw [h.2.1, k.2.1]
      | rw [h.2.1, k.2.2.1]
      | rw [h.2.2.1, k.2.1]
      | rw [h.2.2.1, k.2.2.1]
  all_goals
    constructor <;> linarith [h.1, k.1]

private theorem P_bounds (t : ℝ) (ht : 0 ≤ t) : 0 ≤ P ta tb t ∧ P ta tb t ≤ 2 * ta * tb := by
  rcases V_cases ha hab t ht with h | h | h | h
  · rw [h.2.2]; constructor
    · positivity
    · nlinarith [h.1]
  · rw [h.2.2.2]; constructor <;> nlinarith [h.1, h.2.1]
  · rw [h.2.2.2]; constructor
    · have : ta + tb - t ≤ ta := by linarith [h.1]
      have h0 : 0 ≤ ta + tb - t := by linarith [h.2.1]
      nlinarith
    · nlinarith [sq_nonneg (ta + tb - t)]
  · rw [h.2.2]; constructor
    · have : 0 ≤ tb := ha.trans hab
      positivity
    · exact le_rfl

end Profile

/-- The generator after `setup`, in closed form. -/
private theorem setup_closed (g : Gen) (x0 xT v a : ℝ) (hv : 0 < v) (ha : 0 < a) :
    ∃ σ ta tb : ℝ, (σ = 1 ∧ x0 ≤ xT ∨ σ = -1 ∧ xT < x0) ∧ 0 ≤ ta ∧ ta ≤ tb ∧
      σ * a * (ta * tb) = xT - x0 ∧ a * ta ≤ v ∧ (ta = tb ∨ a * ta = v) ∧
      (g.setup x0 xT v a).2 = ta + tb ∧
      ∀ t, 0 ≤ t → (g.setup x0 xT v a).1.queryTrajectory t
        = .ok (x0 + σ * a / 2 * P ta tb t, σ * a * V ta tb t) := by
  obtain ⟨σ, hσ, hvσ, haσ, hd⟩ : ∃ σ : ℝ, (σ = 1 ∧ x0 ≤ xT ∨ σ = -1 ∧ xT < x0) ∧
      (if xT < x0 then -v else v) = σ * v ∧ (if xT < x0 then -a else a) = σ * a ∧
      0 ≤ σ * (xT - x0) := by
    rcases lt_or_ge xT x0 with h | h
    · exact ⟨-1, .inr ⟨rfl, h⟩, by rw [if_pos h]; ring, by rw [if_pos h]; ring, by linarith⟩
    · exact ⟨1, .inl ⟨rfl, h⟩, by rw [if_neg (not_lt.2 h)]; ring, by rw [if_neg (not_lt.2 h)]; ring,
        by linarith⟩
  have hσ2 : σ * σ = 1 := by rcases hσ with ⟨h, _⟩ | ⟨h, _⟩ <;> rw [h] <;> norm_num
  have hσ0 : σ ≠ 0 := by rintro rfl; norm_num at hσ2
  have hne : σ * a ≠ 0 := mul_ne_zero hσ0 ha.ne'
  have habs : |σ| = 1 := by rcases hσ with ⟨h, _⟩ | ⟨h, _⟩ <;> rw [h] <;> norm_num
  have hsv : σ * v / (σ * a) = v / a := mul_div_mul_left _ _ hσ0
  have hquot : (xT - x0) / (σ * a) = σ * (xT - x0) / a := by
    rw [div_eq_div_iff hne ha.ne']
    linear_combination (-(xT - x0) * a) * hσ2
  have hspeed : 2 * |0.5 * (σ * a) * (v / a) * (v / a)| = v * v / a := by
    rw [abs_mul, abs_mul, abs_mul, abs_mul, habs, abs_of_pos ha, abs_of_pos (div_pos hv ha)]
    rw [abs_of_pos (by norm_num : (0 : ℝ) < 0.5)]
    field_simp; norm_num
  by_cases hcase : 2 * |0.5 * (σ * a) * (v / a) * (v / a)| ≥ |xT - x0|
  · -- no phase of constant velocity
    set t0 := Real.sqrt (0.5 * (xT - x0) * 2 / (σ * a)) with ht0
    have hrad : 0.5 * (xT - x0) * 2 / (σ * a) = σ * (xT - x0) / a := by
      rw [← hquot]; congr 1; ring
    have hsq : t0 * t0 = σ * (xT - x0) / a := by
      rw [ht0, hrad]; exact Real.mul_self_sqrt (by positivity)
    have ht0n : 0 ≤ t0 := Real.sqrt_nonneg _
    have hset : g.setup x0 xT v a = (({ (g.nominal x0 xT v a) with
        mode := .accDec, x_mid := 0.5 * (xT + x0), t0 := t0, v_max := σ * a * t0, T := 2 * t0 } : Gen),
          2 * t0) := by
      unfold Gen.setup
      simp only [Gen.nominal, hvσ, haσ, hsv, if_pos hcase, Gen.planAccDec, ← ht0]
    have hmid : σ * a * (t0 * t0) = xT - x0 := by
      rw [hsq]; field_simp; linear_combination (xT - x0) * hσ2
    refine ⟨σ, t0, t0, hσ, ht0n, le_rfl, hmid, ?_, .inl rfl, ?_, ?_⟩
    · -- speed reached
      have h1 : |xT - x0| = σ * (xT - x0) := by
        rw [← abs_of_nonneg hd, abs_mul, habs, one_mul]
      rw [h1, hspeed] at hcase
      have h3 : (a * t0) * (a * t0) ≤ v * v := by
        have : a * t0 * (a * t0) = a * (a * (t0 * t0)) := by ring
        rw [this, hsq, mul_div_cancel₀ _ ha.ne']
        have := mul_le_mul_of_nonneg_left hcase ha.le
        rwa [mul_div_cancel₀ _ ha.ne'] at this
      by_contra hlt
      nlinarith [mul_nonneg ha.le ht0n]
    · rw [hset]; ring
    · intro t ht
      rw [hset]
      unfold Gen.queryTrajectory
      rw [if_neg (not_lt.2 ht)]
      simp only [Gen.queryPlanAccADec, Gen.nominal, haσ]
      rcases V_cases ht0n le_rfl t ht with h | h | h | h
      · rw [if_pos h.1, h.2.1, h.2.2]
        congr 2; ring
      · exact absurd h.1 (not_lt.2 h.2.1)
      · rw [if_neg (not_le.2 h.1), if_pos ⟨h.1, by linarith [h.2.1]⟩, h.2.2.1, h.2.2.2]
        congr 2
        · linear_combination (-(1 / 2 : ℝ)) * hmid
        · ring
      · rw [if_neg (by linarith [h.1]), if_neg (by rintro ⟨_, h'⟩; linarith [h.1]),
          if_pos (by linarith [h.1]), h.2.1, h.2.2]
        congr 2
        · linear_combination (-(1 : ℝ)) * hmid
        · ring
  · -- with a phase of constant velocity
    have hd' : v * v / a < σ * (xT - x0) := by
      have h1 : |xT - x0| = σ * (xT - x0) := by
        rw [← abs_of_nonneg hd, abs_mul, habs, one_mul]
      rw [not_le, hspeed, h1] at hcase
      exact hcase
    have hδ : (0.5 : ℝ) * (σ * a) * (v / a) * (v / a) = σ * (v * v / a) / 2 := by
      field_simp; norm_num
    have hx : (xT - 0.5 * (σ * a) * (v / a) * (v / a) - (x0 + 0.5 * (σ * a) * (v / a) * (v / a)))
        / (σ * v) = σ * (xT - x0) / v - v / a := by
      rw [hδ]; field_simp; ring_nf
      rw [show σ ^ 2 = 1 by rw [sq]; exact hσ2]; ring
    have hset : g.setup x0 xT v a = (({ (g.nominal x0 xT v a) with
        mode := .accHoldDec, x_t0n := x0 + σ * (v * v / a) / 2, x_t1 := xT - σ * (v * v / a) / 2,
        t1 := σ * (xT - x0) / v, T := σ * (xT - x0) / v + v / a } : Gen),
          σ * (xT - x0) / v + v / a) := by
      unfold Gen.setup
      simp only [Gen.nominal, hvσ, haσ, hsv, if_neg hcase, Gen.planAccHoldDec, hx]
      simp only [hδ, add_sub_cancel]
    have hta : 0 ≤ v / a := (div_pos hv ha).le
    have htab : v / a ≤ σ * (xT - x0) / v := by
      rw [le_div_iff₀ hv, div_mul_eq_mul_div]; exact hd'.le
    have hmid : σ * a * (v / a * (σ * (xT - x0) / v)) = xT - x0 := by
      field_simp; linear_combination (xT - x0) * hσ2
    refine ⟨σ, v / a, σ * (xT - x0) / v, hσ, hta, htab, hmid, ?_, .inr (mul_div_cancel₀ _ ha.ne'), ?_, ?_⟩
    · rw [mul_div_cancel₀ _ ha.ne']
    · rw [hset]; ring
    · intro t ht
      rw [hset]
      unfold Gen.queryTrajectory
      rw [if_neg (not_lt.2 ht)]
      simp only [Gen.queryPlanAccHDec, Gen.nominal, haσ, hvσ, hsv]
      have hva : σ * v = σ * a * (v / a) := by field_simp
      have hvv : σ * (v * v / a) = σ * a * (v / a) ^ 2 := by field_simp
      generalize hτ : σ * (xT - x0) / v = τ at *
      generalize v / a = θ at *
      rcases V_cases hta htab t ht with h | h | h | h
      · rw [if_pos h.1, h.2.1, h.2.2]
        congr 2; ring
      · rw [if_neg (not_le.2 h.1), if_pos ⟨h.1, h.2.1⟩, h.2.2.1, h.2.2.2]
        congr 2
        rw [hvv, hva]; ring
      · rw [if_neg (by linarith [h.1]), if_neg (by rintro ⟨_, h'⟩; linarith [h.1]),
          if_pos ⟨h.1, by linarith [h.2.1]⟩, h.2.2.1, h.2.2.2, hvv, hva]
        congr 2
        · linear_combination (-1 : ℝ) * hmid
        · ring
      · rw [if_neg (by linarith [h.1]), if_neg (by rintro ⟨_, h'⟩; linarith [h.1]),
          if_neg (by rintro ⟨_, h'⟩; linarith [h.1]), if_pos (by linarith [h.1]), h.2.1, h.2.2]
        congr 2
        · linear_combination (-1 : ℝ) * hmid
        · ring

/-- C61: after `setup` with positive limits – whatever the generator was used for before – the
queried position `x` and velocity `w` are defined for every time `t ≥ 0` (negative times throw);
the motion starts at `x0` at rest, is at `xT` at rest from the returned horizon `T` on; `w` is the
derivative of `x` on the whole time axis (hence `x` is continuous, also at the junctions of the
phases), `w` is continuous, the speed never exceeds `v`, the velocity changes by at most `a` per
unit of time, and the position moves monotonically within the segment between `x0` and `xT`. -/
theorem C61_trajectory (g : Gen) (x0 xT v a : ℝ) (hv : 0 < v) (ha : 0 < a) :
    ∃ x w : ℝ → ℝ,
      (∀ t, 0 ≤ t → (g.setup x0 xT v a).1.queryTrajectory t = .ok (x t, w t)) ∧
      (∀ t, t < 0 → (g.setup x0 xT v a).1.queryTrajectory t = .exc) ∧
      0 ≤ (g.setup x0 xT v a).2 ∧ x 0 = x0 ∧ w 0 = 0 ∧
      (∀ t, (g.setup x0 xT v a).2 ≤ t → x t = xT ∧ w t = 0) ∧
      (∀ t, 0 ≤ t → HasDerivWithinAt x (w t) (Set.Ici 0) t) ∧
      ContinuousOn x (Set.Ici 0) ∧ ContinuousOn w (Set.Ici 0) ∧
      (∀ t, 0 ≤ t → |w t| ≤ v) ∧
      (∀ s t, 0 ≤ s → 0 ≤ t → |w t - w s| ≤ a * |t - s|) ∧
      (∀ t, 0 ≤ t → x t ∈ Set.uIcc x0 xT) ∧
      (∀ t, 0 ≤ t → 0 ≤ w t * (xT - x0)) := by
  obtain ⟨σ, ta, tb, hσ, hta, htab, hdist, hsp, hmode, hT, hq⟩ := setup_closed g x0 xT v a hv ha
  have htb : 0 ≤ tb := hta.trans htab
  have habs : |σ| = 1 := by rcases hσ with ⟨h, _⟩ | ⟨h, _⟩ <;> rw [h] <;> norm_num
  have hder : ∀ t, HasDerivAt (fun t => x0 + σ * a / 2 * P ta tb t) (σ * a * V ta tb t) t := by
    intro t
    have := ((hasDerivAt_P ta tb t).const_mul (σ * a / 2)).const_add x0
    refine this.congr_deriv ?_
    ring
  have hlip : ∀ s t, 0 ≤ s → s ≤ t → |σ * a * V ta tb t - σ * a * V ta tb s| ≤ a * |t - s| := by
    intro s t hs hst
    rw [← mul_sub, abs_mul, abs_mul, habs, one_mul, abs_of_pos ha, abs_of_nonneg (sub_nonneg.2 hst)]
    exact mul_le_mul_of_nonneg_left (V_lip hta htab s t hs hst) ha.le
  refine ⟨fun t => x0 + σ * a / 2 * P ta tb t, fun t => σ * a * V ta tb t, hq, ?_, ?_, ?_, ?_, ?_,
    fun t _ => (hder t).hasDerivWithinAt, ?_, ?_, ?_, ?_, ?_, ?_⟩
  · intro t ht
    unfold Gen.queryTrajectory
    rw [if_pos ht]
  · rw [hT]; positivity
  · have : P ta tb 0 = 0 := by
      have := P_bounds hta htab 0 le_rfl
      rcases V_cases hta htab 0 le_rfl with h | h | h | h
      · rw [h.2.2]; norm_num
      all_goals exfalso; linarith [h.1]
    simp [this]
  · have := (V_bounds hta htab 0 le_rfl)
    rcases V_cases hta htab 0 le_rfl with h | h | h | h
    · simp [h.2.1]
    all_goals exfalso; linarith [h.1]
  · intro t ht
    rw [hT] at ht
    have h0 : 0 ≤ t := (add_nonneg hta htb).trans ht
    have hend : V ta tb t = 0 ∧ P ta tb t = 2 * ta * tb := by
      rcases V_cases hta htab t h0 with h | h | h | h
      · have h1 : ta = t := by linarith [h.1]
        have h2 : tb = 0 := by linarith [h.1]
        have h3 : t = 0 := by linarith
        rw [h.2.1, h.2.2, h2, h3]; norm_num
      · have h1 : ta = 0 := by linarith [h.2.1]
        rw [h.2.2.1, h.2.2.2, h1]; norm_num
      · have h1 : ta + tb - t = 0 := by linarith [h.2.1]
        rw [h.2.2.1, h.2.2.2, h1]; norm_num
      · exact h.2
    show x0 + σ * a / 2 * P ta tb t = xT ∧ σ * a * V ta tb t = 0
    rw [hend.1, hend.2]
    constructor
    · linear_combination hdist
    · ring
  · exact fun t _ => (hder t).continuousAt.continuousWithinAt
  · refine continuousOn_of_forall_continuousAt fun t _ => ?_
    unfold V; fun_prop
  · intro t ht
    have hb := V_bounds hta htab t ht
    show |σ * a * V ta tb t| ≤ v
    rw [abs_mul, abs_mul, habs, one_mul, abs_of_pos ha, abs_of_nonneg hb.1]
    exact (mul_le_mul_of_nonneg_left hb.2 ha.le).trans hsp
  · intro s t hs ht
    rcases le_total s t with h | h
    · exact hlip s t hs h
    · show |σ * a * V ta tb t - σ * a * V ta tb s| ≤ a * |t - s|
      rw [abs_sub_comm, abs_sub_comm t s]
      exact hlip t s ht h
  · intro t ht
    have hb := P_bounds hta htab t ht
    show x0 + σ * a / 2 * P ta tb t ∈ _
    rcases hσ with ⟨rfl, h⟩ | ⟨rfl, h⟩
    · rw [Set.uIcc_of_le h]
      constructor <;> nlinarith
    · rw [Set.uIcc_of_ge h.le]
      constructor <;> nlinarith
  · intro t ht
    have hb := (V_bounds hta htab t ht).1
    show 0 ≤ σ * a * V ta tb t * (xT - x0)
    rcases hσ with ⟨rfl, h⟩ | ⟨rfl, h⟩
    · have := sub_nonneg.2 h
      positivity
    · have : 0 ≤ a * V ta tb t := by positivity
      nlinarith

/-- The hypotheses are met by a motion with a phase of constant velocity … -/
example : ∃ x w : ℝ → ℝ, (∀ t, 0 ≤ t → (Gen.new.setup 0 10 1 2).1.queryTrajectory t = .ok (x t, w t)) ∧
    (∀ t, 0 ≤ t → |w t| ≤ 1) := by
  obtain ⟨x, w, h⟩ := C61_trajectory Gen.new 0 10 1 2 (by norm_num) (by norm_num)
  exact ⟨x, w, h.1, h.2.2.2.2.2.2.2.2.2.1⟩

/-- … which the generator really plans in this case: -/
example : (Gen.new.setup 0 10 1 2).1.mode = .accHoldDec ∧ (Gen.new.setup 10 0 1 2).2 = 10 + 1 / 2 ∧
    (Gen.new.setup 0 (1 / 8) 1 2).1.mode = .accDec := by
  refine ⟨?_, ?_, ?_⟩ <;>
    norm_num [Gen.setup, Gen.nominal, Gen.planAccHoldDec, Gen.planAccDec, abs_of_pos]

private theorem le_of_deriv_le {z w F f : ℝ → ℝ} {s e : ℝ} (hse : s ≤ e)
    (hz : ∀ t ∈ Set.Icc s e, HasDerivWithinAt z (w t) (Set.Icc s e) t)
    (hF : ∀ t, HasDerivAt F (f t) t) (hle : ∀ t ∈ Set.Icc s e, w t ≤ f t) :
    z e - z s ≤ F e - F s := by
  have hsub : interior (Set.Icc s e) ⊆ Set.Icc s e := interior_subset
  have hd : ∀ t ∈ Set.Icc s e, HasDerivWithinAt (fun t => F t - z t) (f t - w t) (Set.Icc s e) t :=
    fun t ht => (hF t).hasDerivWithinAt.sub (hz t ht)
  have hm := monotoneOn_of_hasDerivWithinAt_nonneg (convex_Icc s e)
    (fun t ht => (hd t ht).continuousWithinAt)
    (fun t ht => (hd t (hsub ht)).mono hsub)
    (fun t ht => sub_nonneg.2 (hle t (hsub ht)))
  have := hm (Set.left_mem_Icc.2 hse) (Set.right_mem_Icc.2 hse) hse
  simp only at this
  linarith

/-- C61: moreover no motion that obeys the limits is faster: a motion `y` from `x0` to `xT`, at
rest at both ends, whose speed stays below `v` and whose velocity changes by at most `a` per unit
of time takes at least the returned horizon. -/
theorem C61_fastest (g : Gen) (x0 xT v a : ℝ) (hv : 0 < v) (ha : 0 < a)
    (y w : ℝ → ℝ) (S : ℝ) (hS : 0 ≤ S)
    (hy : ∀ t ∈ Set.Icc 0 S, HasDerivWithinAt y (w t) (Set.Icc 0 S) t)
    (hspeed : ∀ t ∈ Set.Icc 0 S, |w t| ≤ v)
    (hacc : ∀ s ∈ Set.Icc 0 S, ∀ t ∈ Set.Icc 0 S, |w t - w s| ≤ a * |t - s|)
    (hy0 : y 0 = x0) (hyS : y S = xT) (hw0 : w 0 = 0) (hwS : w S = 0) :
    (g.setup x0 xT v a).2 ≤ S := by
  obtain ⟨σ, ta, tb, hσ, hta, htab, hdist, hsp, hmode, hT, hq⟩ := setup_closed g x0 xT v a hv ha
  have htb : 0 ≤ tb := hta.trans htab
  have hσ2 : σ * σ = 1 := by rcases hσ with ⟨h, _⟩ | ⟨h, _⟩ <;> rw [h] <;> norm_num
  have habs : |σ| = 1 := by rcases hσ with ⟨h, _⟩ | ⟨h, _⟩ <;> rw [h] <;> norm_num
  -- the motion measured in the direction of the target
  have hz : ∀ t ∈ Set.Icc 0 S, HasDerivWithinAt (fun t => σ * y t) (σ * w t) (Set.Icc 0 S) t :=
    fun t ht => (hy t ht).const_mul σ
  have hd : σ * y S - σ * y 0 = a * ta * tb := by
    rw [hyS, hy0, ← mul_sub, ← hdist]; linear_combination a * ta * tb * hσ2
  have hS0 : (0 : ℝ) ∈ Set.Icc 0 S := ⟨le_rfl, hS⟩
  have hSS : S ∈ Set.Icc 0 S := ⟨hS, le_rfl⟩
  have hu : ∀ t ∈ Set.Icc 0 S, σ * w t ≤ |w t| := fun t _ => by
    calc σ * w t ≤ |σ * w t| := le_abs_self _
      _ = |w t| := by rw [abs_mul, habs, one_mul]
  have hu1 : ∀ t ∈ Set.Icc 0 S, σ * w t ≤ a * t := fun t ht => by
    have := hacc 0 hS0 t ht
    rw [hw0, sub_zero, sub_zero, abs_of_nonneg ht.1] at this
    exact (hu t ht).trans this
  have hu2 : ∀ t ∈ Set.Icc 0 S, σ * w t ≤ a * (S - t) := fun t ht => by
    have := hacc S hSS t ht
    rw [hwS, sub_zero, abs_sub_comm, abs_of_nonneg (sub_nonneg.2 ht.2)] at this
    exact (hu t ht).trans this
  have hu3 : ∀ t ∈ Set.Icc 0 S, σ * w t ≤ v := fun t ht => (hu t ht).trans (hspeed t ht)
  have hF1 : ∀ t, HasDerivAt (fun t : ℝ => a / 2 * t ^ 2) (a * t) t := fun t => by
    have := (hasDerivAt_pow 2 t).const_mul (a / 2)
    refine this.congr_deriv ?_
    push_cast; ring
  have hF2 : ∀ t, HasDerivAt (fun t : ℝ => -(a / 2 * (S - t) ^ 2)) (a * (S - t)) t := fun t => by
    have := ((((hasDerivAt_id t).const_sub S).pow 2).const_mul (a / 2)).neg
    refine this.congr_deriv ?_
    simp; ring
  have hF3 : ∀ t, HasDerivAt (fun t : ℝ => v * t) v t := fun t => by
    simpa using (hasDerivAt_id t).const_mul v
  have hpart : ∀ (s e : ℝ), 0 ≤ s → s ≤ e → e ≤ S → ∀ (F f : ℝ → ℝ), (∀ t, HasDerivAt F (f t) t) →
      (∀ t ∈ Set.Icc 0 S, σ * w t ≤ f t) → σ * y e - σ * y s ≤ F e - F s := by
    intro s e hs hse he F f hF hf
    have hsub : Set.Icc s e ⊆ Set.Icc 0 S := Set.Icc_subset_Icc hs he
    exact le_of_deriv_le hse (fun t ht => (hz t (hsub ht)).mono hsub) hF fun t ht => hf t (hsub ht)
  have hhalf : a * ta * tb ≤ a * S ^ 2 / 4 := by
    have h1 := hpart 0 (S / 2) le_rfl (by linarith) (by linarith) _ _ hF1 hu1
    have h2 := hpart (S / 2) S (by linarith) (by linarith) le_rfl _ _ hF2 hu2
    rw [← hd]
    nlinarith
  have hhalf' : ta * tb ≤ S ^ 2 / 4 := by
    have : a * (ta * tb) ≤ a * (S ^ 2 / 4) := by linarith
    exact le_of_mul_le_mul_left this ha
  rw [hT]
  rcases hmode with h | h
  · rw [← h] at hhalf' ⊢
    by_contra hlt
    nlinarith
  · have hta' : 0 < ta := by
      rcases hta.lt_or_eq with h0 | h0
      · exact h0
      · rw [← h0, mul_zero] at h; exact absurd h hv.ne
    rcases le_or_gt S (2 * ta) with h2 | h2
    · by_contra hlt
      nlinarith
    · have h1 := hpart 0 ta le_rfl hta (by linarith) _ _ hF1 hu1
      have h3 := hpart (S - ta) S (by linarith) (by linarith) le_rfl _ _ hF2 hu2
      have h2 := hpart ta (S - ta) hta (by linarith) (by linarith) _ _ hF3 hu3
      have h4 : a * ta * tb ≤ v * (S - ta) := by
        rw [← hd, ← h]; rw [← h] at h2; nlinarith
      rw [h] at h4
      linarith [le_of_mul_le_mul_left h4 hv]

/-- The hypotheses of `C61_fastest` are met by the generated motion itself. -/
example : ∃ y w : ℝ → ℝ, (∀ t ∈ Set.Icc 0 ((Gen.new.setup 0 10 1 2).2),
      HasDerivWithinAt y (w t) (Set.Icc 0 ((Gen.new.setup 0 10 1 2).2)) t) ∧
    y 0 = 0 ∧ y ((Gen.new.setup 0 10 1 2).2) = 10 ∧ w 0 = 0 ∧ w ((Gen.new.setup 0 10 1 2).2) = 0 := by
  obtain ⟨x, w, h⟩ := C61_trajectory Gen.new 0 10 1 2 (by norm_num) (by norm_num)
  refine ⟨x, w, fun t ht => ?_, h.2.2.2.1, (h.2.2.2.2.2.1 _ le_rfl).1, h.2.2.2.2.1,
    (h.2.2.2.2.2.1 _ le_rfl).2⟩
  exact (h.2.2.2.2.2.2.1 t ht.1).mono Set.Icc_subset_Ici_self

/-! ### The arm -/


private theorem end_bounds {ta tb : ℝ} (ha : 0 ≤ ta) (hab : ta ≤ tb) (t : ℝ) (ht : 0 ≤ t)
    (hT : t ≤ ta + tb) :
    2 * ta * tb - P ta tb t ≤ (ta + tb - t) ^ 2 ∧ V ta tb t ≤ ta + tb - t ∧
      (0 < ta → t < ta + tb → P ta tb t < 2 * ta * tb) := by
  rcases V_cases ha hab t ht with h | h | h | h
  · rw [h.2.1, h.2.2]
    refine ⟨by nlinarith [sq_nonneg (ta - t), sq_nonneg (tb - t)], by linarith [h.1], fun h0 _ => ?_⟩
    nlinarith [h.1, mul_le_mul h.1 h.1 ht ha]
  · rw [h.2.2.1, h.2.2.2]
    refine ⟨by nlinarith [sq_nonneg (tb - t)], by linarith [h.2.1], fun h0 _ => ?_⟩
    nlinarith [h.2.1]
  · rw [h.2.2.1, h.2.2.2]
    refine ⟨by linarith, le_rfl, fun h0 hlt => ?_⟩
    nlinarith [mul_pos (sub_pos.2 hlt) (sub_pos.2 hlt)]
  · exact absurd hT (not_le.2 h.1)

/-- The time horizon of the arm: the longest of the horizons of its joints. -/
noncomputable def horizon {n : ℕ} (gens : Fin (n + 1) → Gen) (vmax amax start stop : Fin (n + 1) → ℝ) : ℝ :=
  Finset.univ.sup' Finset.univ_nonempty fun i => ((gens i).setup (start i) (stop i) (vmax i) (amax i)).2

private theorem round_horizon (T dt : ℝ) (hT : 0 ≤ T) (hdt : 0 < dt) :
    0 ≤ round (T / dt) ∧ |((round (T / dt)).toNat : ℝ) * dt - T| ≤ dt / 2 := by
  have h0 : 0 ≤ round (T / dt) := by
    rw [round_eq, Int.floor_nonneg]
    positivity
  refine ⟨h0, ?_⟩
  have h1 : (((round (T / dt)).toNat : ℤ) : ℝ) = (round (T / dt) : ℝ) := by
    rw [Int.toNat_of_nonneg h0]
  rw [Int.cast_natCast] at h1
  rw [h1]
  have h2 := abs_sub_round (T / dt)
  rw [abs_sub_comm] at h2
  have h3 : (round (T / dt) : ℝ) * dt - T = (round (T / dt) - T / dt) * dt := by field_simp
  rw [h3, abs_mul, abs_of_pos hdt]
  calc |(round (T / dt) : ℝ) - T / dt| * dt ≤ 1 / 2 * dt := mul_le_mul_of_nonneg_right h2 hdt.le
    _ = dt / 2 := by ring

private theorem sampleAt_ok {n : ℕ} (gens : Fin n → Gen) (x w : Fin n → ℝ → ℝ) (t : ℝ)
    (h : ∀ i, (gens i).queryTrajectory t = .ok (x i t, w i t)) :
    sampleAt gens t = .ok ⟨t, fun i => x i t, fun i => w i t⟩ := by
  unfold sampleAt
  rw [Dms.mapM_ok _ _ (fun i => (x i t, w i t)) fun i _ => h i]
  simp

/-- The samples of the arm in closed form. -/
private theorem generate_closed {n : ℕ} (gens : Fin (n + 1) → Gen)
    (vmax amax start stop : Fin (n + 1) → ℝ) (dt : ℝ) (hv : ∀ i, 0 < vmax i) (ha : ∀ i, 0 < amax i)
    (hdt : 0 < dt) (x w : Fin (n + 1) → ℝ → ℝ)
    (hxw : ∀ i t, 0 ≤ t → ((gens i).setup (start i) (stop i) (vmax i) (amax i)).1.queryTrajectory t
      = .ok (x i t, w i t)) :
    generateTrajectory gens vmax amax start stop dt
      = .ok ((List.range ((round (horizon gens vmax amax start stop / dt)).toNat + 1)).map
          fun (k : ℕ) => ⟨k * dt, fun i => x i (k * dt), fun i => w i (k * dt)⟩) := by
  unfold generateTrajectory
  refine Dms.mapM_ok _ _ _ fun k _ => ?_
  exact sampleAt_ok _ x w _ fun i => hxw i _ (by positivity)

/-- C85 (partial): for positive limits and a positive sampling time, the arm trajectory consists of
the samples at the times `0, dt, 2 dt, …` of the joint motions of `C61_trajectory` (so every sample
obeys the limits of every joint and lies between start and target); it begins at the start
configuration at rest; its last stamp is within half a sampling time of the horizon, and its last
sample is within `amax · dt² / 8` of the target with a velocity of at most `amax · dt / 2` – exactly
the target at rest if the last stamp is not before the horizon.

Missing for the full statement: the last sample need not be the target, see `C85_violated`. -/
theorem C85_arm_partial {n : ℕ} (gens : Fin (n + 1) → Gen)
    (vmax amax start stop : Fin (n + 1) → ℝ) (dt : ℝ) (hv : ∀ i, 0 < vmax i) (ha : ∀ i, 0 < amax i)
    (hdt : 0 < dt) (x w : Fin (n + 1) → ℝ → ℝ)
    (hxw : ∀ i t, 0 ≤ t → ((gens i).setup (start i) (stop i) (vmax i) (amax i)).1.queryTrajectory t
      = .ok (x i t, w i t)) :
    ∃ (l : List (Sample (n + 1))) (last : Sample (n + 1)),
      generateTrajectory gens vmax amax start stop dt = .ok l ∧
      (∀ k (hk : k < l.length), l[k] = ⟨k * dt, fun i => x i (k * dt), fun i => w i (k * dt)⟩) ∧
      l.head? = some ⟨0, start, fun _ => 0⟩ ∧
      l.getLast? = some last ∧ |last.time - horizon gens vmax amax start stop| ≤ dt / 2 ∧
      (∀ i, |last.pos i - stop i| ≤ amax i * dt ^ 2 / 8 ∧ |last.vel i| ≤ amax i * dt / 2) ∧
      (horizon gens vmax amax start stop ≤ last.time → last.pos = stop ∧ last.vel = fun _ => 0) := by
  have hT0 : 0 ≤ horizon gens vmax amax start stop := by
    obtain ⟨x', w', h⟩ := C61_trajectory (gens 0) (start 0) (stop 0) (vmax 0) (amax 0) (hv 0) (ha 0)
    exact h.2.2.1.trans (Finset.le_sup' (fun i => ((gens i).setup (start i) (stop i) (vmax i) (amax i)).2)
      (Finset.mem_univ 0))
  have hr := round_horizon _ dt hT0 hdt
  set N := (round (horizon gens vmax amax start stop / dt)).toNat with hN
  have hgen := generate_closed gens vmax amax start stop dt hv ha hdt x w hxw
  have hlen : ((List.range (N + 1)).map fun (k : ℕ) =>
    (⟨k * dt, fun i => x i (k * dt), fun i => w i (k * dt)⟩ : Sample (n + 1))).length = N + 1 := by simp
  have hN0 : (0 : ℝ) ≤ N * dt := by positivity
  have hstart : ∀ i, x i 0 = start i ∧ w i 0 = 0 := by
    intro i
    obtain ⟨x', w', h⟩ := C61_trajectory (gens i) (start i) (stop i) (vmax i) (amax i) (hv i) (ha i)
    have h1 := (hxw i 0 le_rfl).symm.trans (h.1 0 le_rfl)
    simp only [Res.ok.injEq, Prod.mk.injEq] at h1
    rw [h1.1, h1.2]
    exact ⟨h.2.2.2.1, h.2.2.2.2.1⟩
  refine ⟨_, ⟨N * dt, fun i => x i (N * dt), fun i => w i (N * dt)⟩, hgen, ?_, ?_, ?_, hr.2, ?_, ?_⟩
  · intro k hk
    simp
  · rw [List.head?_eq_getElem?]
    simp [hstart]
  · rw [List.getLast?_eq_getElem?]
    simp [← hN]
  · intro i
    obtain ⟨σ, ta, tb, hσ, hta, htab, hdist, hsp, hmode, hTi, hq⟩ :=
      setup_closed (gens i) (start i) (stop i) (vmax i) (amax i) (hv i) (ha i)
    have habs : |σ| = 1 := by rcases hσ with ⟨h, _⟩ | ⟨h, _⟩ <;> rw [h] <;> norm_num
    have h1 := (hxw i _ hN0).symm.trans (hq _ hN0)
    simp only [Res.ok.injEq, Prod.mk.injEq] at h1
    have hle : ta + tb ≤ horizon gens vmax amax start stop := by
      rw [← hTi]
      exact Finset.le_sup' (fun i => ((gens i).setup (start i) (stop i) (vmax i) (amax i)).2)
        (Finset.mem_univ i)
    have hai := ha i
    show |x i (N * dt) - stop i| ≤ _ ∧ |w i (N * dt)| ≤ _
    have hsub : x i (N * dt) - stop i = -(σ * amax i / 2) * (2 * ta * tb - P ta tb (N * dt)) := by
      rw [h1.1]; linear_combination hdist
    have hPb := P_bounds hta htab _ hN0
    have hVb := V_bounds hta htab _ hN0
    have hkey : 2 * ta * tb - P ta tb (N * dt) ≤ (dt / 2) ^ 2 ∧ V ta tb (N * dt) ≤ dt / 2 := by
      rcases le_or_gt (N * dt : ℝ) (ta + tb) with hlt | hgt
      · have he := end_bounds hta htab _ hN0 hlt
        have h2 := (abs_le.1 hr.2).1
        have h3 : ta + tb - N * dt ≤ dt / 2 := by linarith
        exact ⟨he.1.trans (pow_le_pow_left₀ (by linarith) h3 2), he.2.1.trans h3⟩
      · rcases V_cases hta htab _ hN0 with h | h | h | h
        · exfalso; linarith [h.1]
        · exfalso; linarith [h.2.1]
        · exfalso; linarith [h.2.1]
        · rw [h.2.1, h.2.2]; constructor
          · rw [sub_self]; positivity
          · positivity
    constructor
    · rw [hsub, abs_mul, abs_neg, abs_div, abs_mul, habs, one_mul, abs_of_pos hai,
        abs_of_pos (by norm_num : (0 : ℝ) < 2), abs_of_nonneg (by linarith [hPb.2])]
      calc amax i / 2 * (2 * ta * tb - P ta tb (N * dt)) ≤ amax i / 2 * (dt / 2) ^ 2 :=
            mul_le_mul_of_nonneg_left hkey.1 (by positivity)
        _ = amax i * dt ^ 2 / 8 := by ring
    · rw [h1.2, abs_mul, abs_mul, habs, one_mul, abs_of_pos hai, abs_of_nonneg hVb.1]
      calc amax i * V ta tb (N * dt) ≤ amax i * (dt / 2) := mul_le_mul_of_nonneg_left hkey.2 hai.le
        _ = amax i * dt / 2 := by ring
  · intro hle
    have : ∀ i, x i (N * dt) = stop i ∧ w i (N * dt) = 0 := by
      intro i
      obtain ⟨x', w', h⟩ := C61_trajectory (gens i) (start i) (stop i) (vmax i) (amax i) (hv i) (ha i)
      have h1 := (hxw i _ hN0).symm.trans (h.1 _ hN0)
      simp only [Res.ok.injEq, Prod.mk.injEq] at h1
      rw [h1.1, h1.2]
      refine h.2.2.2.2.2.1 _ ((Finset.le_sup' (fun i => ((gens i).setup (start i) (stop i) (vmax i) (amax i)).2)
        (Finset.mem_univ i)).trans hle)
    exact ⟨funext fun i => (this i).1, funext fun i => (this i).2⟩

/-- The joint motions required by `C85_arm_partial` exist for all positive limits. -/
example (gens : Fin 2 → Gen) : ∃ x w : Fin 2 → ℝ → ℝ, ∀ i t, 0 ≤ t →
    ((gens i).setup (![0, 3] i) (![1, -2] i) 1 2).1.queryTrajectory t = .ok (x i t, w i t) := by
  choose x w h using fun i => C61_trajectory (gens i) (![0, 3] i) (![1, -2] i) 1 2
    (by norm_num) (by norm_num)
  exact ⟨x, w, fun i => (h i).1⟩

/-- C85 is violated whenever the horizon is rounded down to a multiple of the sampling time: then
some joint has not reached its target in the last sample. -/
theorem C85_violated {n : ℕ} (gens : Fin (n + 1) → Gen)
    (vmax amax start stop : Fin (n + 1) → ℝ) (dt : ℝ) (hv : ∀ i, 0 < vmax i) (ha : ∀ i, 0 < amax i)
    (hdt : 0 < dt)
    (hdown : (round (horizon gens vmax amax start stop / dt) : ℝ) * dt < horizon gens vmax amax start stop) :
    ∃ (l : List (Sample (n + 1))) (last : Sample (n + 1)) (i : Fin (n + 1)),
      generateTrajectory gens vmax amax start stop dt = .ok l ∧ l.getLast? = some last ∧
      last.pos i ≠ stop i := by
  choose x w h using fun i =>
    C61_trajectory (gens i) (start i) (stop i) (vmax i) (amax i) (hv i) (ha i)
  have hxw := fun i => (h i).1
  have hT0 : 0 ≤ horizon gens vmax amax start stop :=
    (h 0).2.2.1.trans (Finset.le_sup' (fun i => ((gens i).setup (start i) (stop i) (vmax i) (amax i)).2)
      (Finset.mem_univ 0))
  have hr := round_horizon _ dt hT0 hdt
  have hcast : ((round (horizon gens vmax amax start stop / dt)).toNat : ℝ)
      = (round (horizon gens vmax amax start stop / dt) : ℝ) := by
    rw [← Int.cast_natCast, Int.toNat_of_nonneg hr.1]
  rw [← hcast] at hdown
  set N := (round (horizon gens vmax amax start stop / dt)).toNat with hN
  have hN0 : (0 : ℝ) ≤ N * dt := by positivity
  obtain ⟨i, -, hi⟩ := Finset.exists_mem_eq_sup' (Finset.univ_nonempty (α := Fin (n + 1)))
    fun i => ((gens i).setup (start i) (stop i) (vmax i) (amax i)).2
  refine ⟨_, ⟨N * dt, fun i => x i (N * dt), fun i => w i (N * dt)⟩, i,
    generate_closed gens vmax amax start stop dt hv ha hdt x w hxw, ?_, ?_⟩
  · rw [List.getLast?_eq_getElem?]
    simp [← hN]
  · obtain ⟨σ, ta, tb, hσ, hta, htab, hdist, hsp, hmode, hTi, hq⟩ :=
      setup_closed (gens i) (start i) (stop i) (vmax i) (amax i) (hv i) (ha i)
    have h1 := (hxw i _ hN0).symm.trans (hq _ hN0)
    simp only [Res.ok.injEq, Prod.mk.injEq] at h1
    have hlt : (N * dt : ℝ) < ta + tb := by rw [← hTi, ← hi]; exact hdown
    have hta' : 0 < ta := by
      rcases hta.lt_or_eq with h0 | h0
      · exact h0
      · exfalso
        rcases hmode with hm | hm
        · rw [← hm, ← h0] at hlt; linarith
        · rw [← h0, mul_zero] at hm; exact (hv i).ne hm
    have hP := (end_bounds hta htab _ hN0 hlt.le).2.2 hta' hlt
    show x i (N * dt) ≠ stop i
    rw [h1.1]
    intro heq
    have hz : σ * amax i * (2 * ta * tb - P ta tb (N * dt)) = 0 := by
      linear_combination 2 * hdist - 2 * heq
    have hai := ha i
    rcases mul_eq_zero.1 hz with h2 | h2
    · rcases mul_eq_zero.1 h2 with h3 | h3
      · rcases hσ with ⟨h4, _⟩ | ⟨h4, _⟩ <;> rw [h4] at h3 <;> norm_num at h3
      · exact hai.ne' h3
    · linarith

/-- A concrete case: one joint, default sampling time 0.02, horizon 1.005. -/
example : ∃ gens : Fin 1 → Gen, ∃ stop : Fin 1 → ℝ,
    (round (horizon gens (fun _ => 10) (fun _ => 1) (fun _ => 0) stop / (1 / 50)) : ℝ) * (1 / 50)
      < horizon gens (fun _ => 10) (fun _ => 1) (fun _ => 0) stop := by
  refine ⟨fun _ => Gen.new, fun _ => (201 / 400) ^ 2, ?_⟩
  have hh : horizon (fun _ : Fin 1 => Gen.new) (fun _ => 10) (fun _ => 1) (fun _ => 0)
      (fun _ => (201 / 400) ^ 2) = 201 / 200 := by
    have hs : Real.sqrt ((201 / 400) ^ 2) = 201 / 400 := Real.sqrt_sq (by norm_num)
    have h1 : (Gen.new.setup 0 ((201 / 400) ^ 2) 10 1).2 = 201 / 200 := by
      unfold Gen.setup
      have hpos : ¬ ((201 / 400 : ℝ) ^ 2 < 0) := by norm_num
      have hc : 2 * |(0.5 : ℝ) * 1 * (10 / 1) * (10 / 1)| ≥ |((201 / 400 : ℝ)) ^ 2 - 0| := by
        rw [abs_of_pos (by norm_num), abs_of_pos (by norm_num)]; norm_num
      simp only [Gen.nominal, if_neg hpos, if_pos hc, Gen.planAccDec]
      rw [show (0.5 : ℝ) * ((201 / 400) ^ 2 - 0) * 2 / 1 = (201 / 400) ^ 2 by norm_num, hs]
      norm_num
    simp only [horizon, h1, Finset.sup'_const]
  rw [hh]
  have hrd : round ((201 / 200 : ℝ) / (1 / 50)) = 50 := by
    rw [round_eq, Int.floor_eq_iff]; norm_num
  rw [hrd]; norm_num

end CT.PtP
