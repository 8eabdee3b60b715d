import Verif.Model.Activation
import Mathlib.Tactic.Linarith
import Mathlib.Tactic.Ring
import Mathlib.Tactic.FieldSimp
import Mathlib.Tactic.Positivity
import Mathlib.Data.Rat.Floor
import Mathlib.Analysis.SpecialFunctions.ExpDeriv

/-! # Properties C10, C67, C68: activations -/

namespace CT.Activation

section Window
variable {K : Type} [Field K] [LinearOrder K]

omit [Field K] in
/-- C10, single window: active exactly on `[t_on, t_off)`. -/
theorem C10_single_window (a : Single K) (t : K) :
    a.isActive t = true ↔ t ∈ Set.Ico a.t_on a.t_off := by
  simp [Single.isActive, Set.mem_Ico]

/-- C10, linear ramp: active exactly on `[t_on, t_off)`; starts at `startVal` and grows by `slope`
per unit of time. -/
theorem C10_linear_ramp (a : Linear K) :
    (∀ t, a.isActive t = true ↔ t ∈ Set.Ico a.t_on a.t_off) ∧
    a.compute a.t_on = a.startVal ∧
    ∀ t s, a.compute (t + s) - a.compute t = a.slope * s := by
  refine ⟨fun t => by simp [Linear.isActive, Set.mem_Ico], by simp [Linear.compute], ?_⟩
  intro t s; simp only [Linear.compute]; ring

variable [FloorRing K]

/-- Specification: `t` is in the on-window of one of the periods. -/
def InOnWindow (pct period aoff poff t : K) : Prop :=
  ∃ k : ℕ, poff + k * period + aoff ≤ t ∧ t < poff + k * period + aoff + pct * period

variable [IsStrictOrderedRing K]

/-- C10 (partial), periodic window: every periodic activation loaded from a file (the loader
rejects on-windows that do not fit into the period) with a positive period and a non-negative
activation offset is active at `t` exactly when `t` is before the end time and in the on-window of
some period.

Missing for the full statement: activations made by the value constructor, whose end time is
uninitialised, see `C10_violated`. -/
theorem C10_periodic_window_partial (pct period aoff poff tEnd : K) (hp : 0 < period)
    (ha : 0 ≤ aoff) (a : Periodic K) (hload : Periodic.load pct period aoff poff tEnd = .ok a)
    (t : K) :
    ∃ b, a.isActive t = .ok b ∧
      (b = true ↔ t < tEnd ∧ InOnWindow pct period aoff poff t) := by
  have hfit : aoff + pct * period ≤ period := by
    by_contra h
    rw [Periodic.load, if_pos (not_le.1 h)] at hload
    cases hload
  rw [Periodic.load, if_neg (not_lt.2 hfit)] at hload
  cases hload
  have noWindow : ¬ poff ≤ t → ¬ InOnWindow pct period aoff poff t := by
    rintro h ⟨k, h1, _⟩
    have : (0:K) ≤ k * period := by positivity
    exact h (by linarith)
  simp only [Periodic.isActive]
  by_cases h1 : poff ≤ t
  · by_cases h2 : t < tEnd
    · simp only [h1, if_true, h2, fmod, hp.ne', if_false, abs_of_pos hp]
      refine ⟨_, rfl, ?_⟩
      simp only [Bool.and_eq_true, decide_eq_true_eq, true_and]
      set f := ⌊(t - poff) / period⌋ with hf
      constructor
      · rintro ⟨h3, h4⟩
        have hf0 : 0 ≤ f := Int.floor_nonneg.2 (div_nonneg (by linarith) hp.le)
        have hfc : ((f.toNat : ℕ) : K) = (f : K) := by
          have : ((f.toNat : ℕ) : ℤ) = f := Int.toNat_of_nonneg hf0
          exact_mod_cast congrArg (Int.cast : ℤ → K) this
        refine ⟨f.toNat, ?_, ?_⟩ <;> rw [hfc] <;> linarith
      · rintro ⟨k, h3, h4⟩
        have hfk : f = (k : ℤ) := by
          rw [hf, Int.floor_eq_iff]
          constructor
          · rw [le_div_iff₀ hp]; push_cast; linarith
          · rw [div_lt_iff₀ hp]; push_cast; linarith
        rw [hfk]; push_cast
        constructor <;> linarith
    · simp only [h1, if_true, h2, if_false]
      exact ⟨false, rfl, by simp⟩
  · simp only [h1, if_false]
    exact ⟨false, rfl, by simpa using fun _ => noWindow h1⟩

/-- C10 (partial), periodicity: before the end time the activation repeats after each period. -/
theorem C10_periodic_repeats_partial (pct period aoff poff tEnd : K) (hp : 0 < period)
    (ha : 0 ≤ aoff) (a : Periodic K) (hload : Periodic.load pct period aoff poff tEnd = .ok a)
    (t : K) (h0 : poff ≤ t) (h1 : t + period < tEnd) :
    a.isActive (t + period) = a.isActive t := by
  obtain ⟨b, hb, hb'⟩ := C10_periodic_window_partial pct period aoff poff tEnd hp ha a hload t
  obtain ⟨c, hc, hc'⟩ :=
    C10_periodic_window_partial pct period aoff poff tEnd hp ha a hload (t + period)
  have hfit : aoff + pct * period ≤ period := by
    by_contra h
    rw [Periodic.load, if_pos (not_le.1 h)] at hload
    cases hload
  rw [hb, hc]
  congr 1
  rw [Bool.eq_iff_iff, hb', hc']
  have h2 : t < tEnd := by linarith
  simp only [h1, h2, true_and]
  constructor
  · rintro ⟨k, h3, h4⟩
    rcases k with _ | k
    · simp only [Nat.cast_zero, zero_mul, add_zero] at h3 h4
      exfalso; linarith
    · push_cast at h3 h4
      exact ⟨k, by linarith, by linarith⟩
  · rintro ⟨k, h3, h4⟩
    exact ⟨k + 1, by push_cast; linarith, by push_cast; linarith⟩

/-- A loaded activation with half duty cycle, on at 0.6 (second half of the first period). -/
example : ∃ a, Periodic.load (1/2 : ℚ) 1 (1/2) 0 10 = .ok a ∧ a.isActive (6/10) = .ok true ∧
    a.isActive (12/10) = .ok false :=
  ⟨⟨1/2, 1, 1/2, 0, some 10⟩, by decide +kernel, by decide +kernel, by decide +kernel⟩

omit [IsStrictOrderedRing K] in
/-- C10 is violated by the value constructor of the periodic activation: it leaves the end time
uninitialised, so that asking whether it is active is undefined from the period offset on. -/
theorem C10_violated (pct period aoff poff t : K) (h : poff ≤ t) :
    (Periodic.new pct period aoff poff).isActive t = .ub := by
  simp [Periodic.new, Periodic.isActive, h]

end Window

/-! ## Barrier functions -/

/-- C67: the reported first and second derivatives of a barrier activation are the derivatives of
the reported value and of the reported first derivative, for every configuration. -/
theorem C67_barrier_derivatives (b : Barrier) (x : ℝ) :
    HasDerivAt b.compute (b.first x) x ∧ HasDerivAt b.first (b.second x) x := by
  have hu : HasDerivAt (fun x => Real.exp (b.alpha * (x - b.ub)))
      (Real.exp (b.alpha * (x - b.ub)) * (b.alpha * 1)) x :=
    (((hasDerivAt_id x).sub_const b.ub).const_mul b.alpha).exp
  have hl : HasDerivAt (fun x => Real.exp (b.alpha * (b.lb - x)))
      (Real.exp (b.alpha * (b.lb - x)) * (b.alpha * (-1))) x :=
    (((hasDerivAt_id x).const_sub b.lb).const_mul b.alpha).exp
  constructor
  · have := (hu.const_mul (flag b.ub_active)).add (hl.const_mul (flag b.lb_active))
    refine this.congr_deriv ?_
    simp only [Barrier.first]; ring
  · have := (hu.const_mul (flag b.ub_active * b.alpha)).sub
      (hl.const_mul (flag b.lb_active * b.alpha))
    refine this.congr_deriv ?_
    simp only [Barrier.second]; ring

/-- C67: a barrier made by the value constructor with positive sharpness is positive, at least one
outside the bounds, at most two inside, and convex (non-negative second derivative). -/
theorem C67_barrier_shape (ub lb alpha : ℝ) (ha : 0 < alpha) (x : ℝ) :
    0 < (Barrier.new ub lb alpha).compute x ∧
    (x ∉ Set.Icc lb ub → 1 < (Barrier.new ub lb alpha).compute x) ∧
    (x ∈ Set.Icc lb ub → (Barrier.new ub lb alpha).compute x ≤ 2) ∧
    0 ≤ (Barrier.new ub lb alpha).second x := by
  have h1 := Real.exp_pos (alpha * (x - ub))
  have h2 := Real.exp_pos (alpha * (lb - x))
  simp only [Barrier.compute, Barrier.second, Barrier.new, flag, if_true, one_mul]
  refine ⟨by linarith, ?_, ?_, by positivity⟩
  · intro hx
    rw [Set.mem_Icc, not_and_or, not_le, not_le] at hx
    rcases hx with hx | hx
    · have : 1 < Real.exp (alpha * (lb - x)) :=
        Real.one_lt_exp_iff.2 (mul_pos ha (by linarith))
      linarith
    · have : 1 < Real.exp (alpha * (x - ub)) :=
        Real.one_lt_exp_iff.2 (mul_pos ha (by linarith))
      linarith
  · rintro ⟨hx1, hx2⟩
    have i1 : Real.exp (alpha * (x - ub)) ≤ 1 :=
      Real.exp_le_one_iff.2 (mul_nonpos_of_nonneg_of_nonpos ha.le (by linarith))
    have i2 : Real.exp (alpha * (lb - x)) ≤ 1 :=
      Real.exp_le_one_iff.2 (mul_nonpos_of_nonneg_of_nonpos ha.le (by linarith))
    linarith

example : (2:ℝ) ∉ Set.Icc (-1:ℝ) 1 := by norm_num

/-- C67 (partial), loading: a file that gives both bounds turns an object made by the value
constructor into the barrier described by the file.

Missing for the full statement: a default-constructed object, see `C67_violated`. -/
theorem C67_barrier_load_partial (u0 l0 a0 alpha ub lb : ℝ) (ha : 0 ≤ alpha) (hb : lb ≤ ub) :
    (Barrier.new u0 l0 a0).load alpha (some ub) (some lb) = .ok (Barrier.new ub lb alpha) := by
  simp [Barrier.load, Barrier.new, not_lt.2 ha, not_lt.2 hb]

/-- C67, one-sided barriers: whatever the object was before, activating one bound only leaves exactly the
exponential of that bound. -/
theorem C67_barrier_one_sided (b : Barrier) (bound alpha x : ℝ) :
    (b.setLowerBoundOnly bound alpha).compute x = Real.exp (alpha * (bound - x)) ∧
    (b.setUpperBoundOnly bound alpha).compute x = Real.exp (alpha * (x - bound)) := by
  simp [Barrier.compute, Barrier.setLowerBoundOnly, Barrier.setUpperBoundOnly, flag]

/-- C67, loading with missing bounds: a bound the file does not give is inactive afterwards, whatever the
object was before; the file is rejected exactly for a negative sharpness or for crossed bounds that are both
active. -/
theorem C67_barrier_load_missing (b : Barrier) (alpha : ℝ) (ub lb : Option ℝ) :
    (∀ b', b.load alpha ub lb = .ok b' → b'.alpha = alpha ∧
      (ub = none → lb = none → ∀ x, b'.compute x = 0) ∧
      (∀ l, ub = none → lb = some l → b.lb_active = true → ∀ x, b'.compute x = Real.exp (alpha * (l - x))) ∧
      (∀ u, ub = some u → lb = none → b.ub_active = true → ∀ x, b'.compute x = Real.exp (alpha * (x - u)))) ∧
    (b.load alpha ub lb = .exc ↔ alpha < 0 ∨
      ∃ u l, ub = some u ∧ lb = some l ∧ b.ub_active = true ∧ b.lb_active = true ∧ u < l) := by
  constructor
  · intro b' h
    unfold Barrier.load at h
    rcases ub with _ | u <;> rcases lb with _ | l <;> simp only at h <;> split at h <;>
      first
      | cases h
      | (split at h
         · cases h
         · injection h with h
           subst h
           simp +contextual [Barrier.compute, flag])
  · unfold Barrier.load
    rcases ub with _ | u <;> rcases lb with _ | l <;> simp only
    · by_cases ha : alpha < 0 <;> simp [ha]
    · by_cases ha : alpha < 0 <;> simp [ha]
    · by_cases ha : alpha < 0 <;> simp [ha]
    · by_cases ha : alpha < 0
      · simp [ha]
      · by_cases hc : (b.lb_active = true ∧ b.ub_active = true) ∧ u < l
        · simp [ha, hc]
        · rw [if_neg hc, if_neg ha]
          simp only [reduceCtorEq, false_iff, ha, false_or, not_exists, not_and, Option.some.injEq]
          rintro u' l' rfl rfl h1 h2 h3
          exact hc ⟨⟨h2, h1⟩, h3⟩

/-- Loading a file without upper bound, and with crossed bounds. -/
example : (Barrier.new 1 0 1).load 2 none (some 5) = .ok ⟨false, true, 1, 5, 2⟩ ∧
    (Barrier.new 1 0 1).load 2 (some 3) (some 5) = .exc := by
  norm_num [Barrier.load, Barrier.new]

/-- C67 is violated for a default-constructed barrier configured from a file: both bounds stay
inactive, so the barrier is identically zero whatever the file says. -/
theorem C67_violated (alpha ub lb : ℝ) (ha : 0 ≤ alpha) :
    ∃ b, Barrier.default.load alpha (some ub) (some lb) = .ok b ∧ ∀ x, b.compute x = 0 := by
  refine ⟨⟨false, false, ub, lb, alpha⟩, ?_, ?_⟩
  · simp [Barrier.load, Barrier.default, not_lt.2 ha]
  · intro x; simp [Barrier.compute, flag]

/-! ## Gaussian activations -/

/-- C68 (partial): a Gaussian activation loaded from a file is the normal density: largest at
`mu`, symmetric, decreasing with the distance, bounded by its value at `mu`.

Missing for the full statement: the value constructor, see `C68_violated`. -/
theorem C68_gauss_bump_partial (mu sigma : ℝ) (hs : 0 < sigma) (s t : ℝ) :
    0 < (Gauss.load mu sigma).compute t ∧
    (Gauss.load mu sigma).compute t =
      1 / Real.sqrt (2 * Real.pi * sigma ^ 2) * Real.exp (-(t - mu) ^ 2 / (2 * sigma ^ 2)) ∧
    (|s - mu| < |t - mu| → (Gauss.load mu sigma).compute t < (Gauss.load mu sigma).compute s) := by
  have hf : 0 < 1 / Real.sqrt (2 * Real.pi * sigma * sigma) := by
    have := Real.pi_pos
    positivity
  refine ⟨mul_pos hf (Real.exp_pos _), ?_, ?_⟩
  · simp only [Gauss.load, Gauss.compute]
    rw [show 2 * Real.pi * sigma * sigma = 2 * Real.pi * sigma ^ 2 by ring]
    congr 2
    field_simp
  · intro h
    simp only [Gauss.load, Gauss.compute]
    apply mul_lt_mul_of_pos_left _ hf
    rw [Real.exp_lt_exp]
    have h2 : (s - mu) ^ 2 < (t - mu) ^ 2 := sq_lt_sq.2 h
    have h3 : -1 / (2 * sigma * sigma) < 0 := by
      apply div_neg_of_neg_of_pos <;> [norm_num; positivity]
    nlinarith

example : |(1:ℝ) - 0| < |(2:ℝ) - 0| := by norm_num

/-- C68 is violated by the value constructor: the exponent has the wrong sign, so the activation
grows without bound away from `mu` instead of decaying. -/
theorem C68_violated (mu sigma : ℝ) (hs : 0 < sigma) :
    (∀ s t, |s - mu| < |t - mu| →
      (Gauss.new mu sigma).compute s < (Gauss.new mu sigma).compute t) ∧
    ∀ M : ℝ, ∃ t, M < (Gauss.new mu sigma).compute t := by
  have hf : 0 < 1 / Real.sqrt (2 * Real.pi * sigma * sigma) := by
    have := Real.pi_pos
    positivity
  have h3 : 0 < 1 / (2 * sigma * sigma) := by positivity
  constructor
  · intro s t h
    simp only [Gauss.new, Gauss.compute]
    apply mul_lt_mul_of_pos_left _ hf
    rw [Real.exp_lt_exp]
    have h2 : (s - mu) ^ 2 < (t - mu) ^ 2 := sq_lt_sq.2 h
    nlinarith
  · intro M
    simp only [Gauss.new, Gauss.compute]
    generalize 1 / Real.sqrt (2 * Real.pi * sigma * sigma) = c at hf
    generalize 1 / (2 * sigma * sigma) = d at h3
    -- choose the distance so that the exponent is at least `|M| / c`
    refine ⟨mu + (|M| / (c * d) + 1), ?_⟩
    set y := |M| / (c * d) with hy
    have hy0 : 0 ≤ y := by positivity
    have e : (mu + (y + 1) - mu) * (mu + (y + 1) - mu) * d = (y + 1) ^ 2 * d := by ring
    rw [e]
    have h5 : (y + 1) ^ 2 * d + 1 ≤ Real.exp ((y + 1) ^ 2 * d) := Real.add_one_le_exp _
    have h6 : y * d * c = |M| := by rw [hy]; field_simp
    have h7 : y * d ≤ (y + 1) ^ 2 * d := mul_le_mul_of_nonneg_right (by nlinarith) h3.le
    calc M ≤ |M| := le_abs_self M
      _ = c * (y * d) := by rw [← h6]; ring
      _ < c * Real.exp ((y + 1) ^ 2 * d) := by
        apply mul_lt_mul_of_pos_left _ hf; linarith

end CT.Activation
