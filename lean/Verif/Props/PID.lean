import Verif.Model.PID
import Mathlib.Tactic.Linarith
import Mathlib.Data.List.Induction
import Mathlib.Data.Rat.Cast.Order
import Mathlib.Algebra.Order.Ring.Rat

/-! # Properties C12 and C13: PID controller -/

namespace CT.PID

variable {K : Type} [Field K] [LinearOrder K]

omit [Field K] in
theorem saturate_mem (p : Params K) (h : p.uMin ≤ p.uMax) (u : K) :
    p.uMin ≤ saturate p u ∧ saturate p u ≤ p.uMax ∧
    (p.uMin ≤ u → u ≤ p.uMax → saturate p u = u) ∧
    (p.uMax < u → saturate p u = p.uMax) ∧ (u < p.uMin → saturate p u = p.uMin) := by
  unfold saturate
  by_cases h1 : p.uMax < u
  · simp only [h1, if_true, not_lt.2 h, if_false]
    refine ⟨h, le_refl _, fun _ h2 => absurd h1 (not_lt.2 h2), fun _ => trivial, fun h2 => ?_⟩
    exact absurd (h1.trans h2) (not_lt.2 h)
  · simp only [h1, if_false]
    by_cases h2 : u < p.uMin
    · simp only [h2, if_true]
      exact ⟨le_refl _, h, fun h3 => absurd h2 (not_lt.2 h3), fun h => h.elim, fun _ => trivial⟩
    · simp only [h2, if_false]
      exact ⟨not_lt.1 h2, not_lt.1 h1, fun _ _ => trivial, fun h => h.elim, fun h => h.elim⟩

/-- C12, commands: after any history of calls (including parameter changes), whichever of the two
command functions is called, the command lies between the currently configured limits. -/
theorem C12_command_within_limits (p₀ : Params K) (s₀ : Setpoint K) (hist : List (Op K))
    (op : Op K) (u : K) (c' : Pid K)
    (hlim : (run (Pid.new p₀ s₀) hist).params.uMin ≤ (run (Pid.new p₀ s₀) hist).params.uMax)
    (h : step (run (Pid.new p₀ s₀) hist) op = (some u, c')) :
    (run (Pid.new p₀ s₀) hist).params.uMin ≤ u ∧ u ≤ (run (Pid.new p₀ s₀) hist).params.uMax := by
  generalize run (Pid.new p₀ s₀) hist = c at *
  cases op <;> simp only [step, Prod.mk.injEq, Option.some.injEq, reduceCtorEq, false_and] at h
  · obtain ⟨rfl, _⟩ := h
    have := saturate_mem c.params hlim
    exact ⟨(this _).1, (this _).2.1⟩
  · obtain ⟨rfl, _⟩ := h
    have := saturate_mem c.params hlim
    exact ⟨(this _).1, (this _).2.1⟩

variable [IsStrictOrderedRing K]

theorem computeI_mem (p : Params K) (h : 0 ≤ p.Imax) (I e : K) :
    -p.Imax ≤ computeI p I e ∧ computeI p I e ≤ p.Imax ∧
    (|I + p.k_i * e * p.dt| ≤ p.Imax → computeI p I e = I + p.k_i * e * p.dt) := by
  unfold computeI
  generalize I + p.k_i * e * p.dt = y
  simp only
  by_cases h1 : p.Imax < y
  · have h2 : ¬ p.Imax < -p.Imax := by linarith
    simp only [h1, if_true, h2, if_false]
    refine ⟨by linarith, le_refl _, fun h3 => ?_⟩
    exact absurd (le_abs_self y |>.trans h3) (not_le.2 h1)
  · simp only [h1, if_false]
    by_cases h2 : y < -p.Imax
    · simp only [h2, if_true]
      refine ⟨le_refl _, by linarith, fun h3 => ?_⟩
      have := neg_abs_le y
      linarith
    · simp only [h2, if_false]
      exact ⟨not_lt.1 h2, not_lt.1 h1, fun _ => trivial⟩

/-- Specification: the history contains no change of parameters. -/
def keepsParams : Op K → Prop
  | .changeParameters _ => False
  | _ => True

/-- C12, integrator: with a non-negative anti-windup bound, after any history without a change of
parameters the integral contribution is within the bound; directly after any command (also with
changed parameters in the history) it is within the currently configured bound. -/
theorem C12_integral_within_bound (p₀ : Params K) (s₀ : Setpoint K) (hist : List (Op K)) :
    (0 ≤ p₀.Imax → (∀ o ∈ hist, keepsParams o) → |(run (Pid.new p₀ s₀) hist).I| ≤ p₀.Imax) ∧
    (∀ op u c', step (run (Pid.new p₀ s₀) hist) op = (some u, c') → 0 ≤ c'.params.Imax →
      |c'.I| ≤ c'.params.Imax) := by
  constructor
  · intro hI hk
    have gen : ∀ (hist : List (Op K)) (c : Pid K), (∀ o ∈ hist, keepsParams o) → c.params = p₀ →
        |c.I| ≤ p₀.Imax → |(run c hist).I| ≤ p₀.Imax := by
      intro hist
      induction hist with
      | nil => intro c _ _ h; exact h
      | cons o os ih =>
          intro c hk hp h
          have hk' := fun o' ho' => hk o' (List.mem_cons_of_mem _ ho')
          have ho := hk o List.mem_cons_self
          refine ih (step c o).2 hk' ?_ ?_
          · cases o <;> simp_all [step, keepsParams, Pid.compute, Pid.compute2]
          · cases o <;> simp only [step, Pid.compute, Pid.compute2] <;> try exact h
            · have := computeI_mem c.params (hp ▸ hI) c.I (c.setpoint.stateDesired - ‹K›)
              rw [← hp]; exact abs_le.2 ⟨this.1, this.2.1⟩
            · rename_i s sd
              have := computeI_mem c.params (hp ▸ hI) c.I (c.setpoint.stateDesired - s)
              rw [← hp]; exact abs_le.2 ⟨this.1, this.2.1⟩
            · simpa using hI
    exact gen hist _ hk rfl (by simpa [Pid.new] using hI)
  · intro op u c' h hI
    generalize run (Pid.new p₀ s₀) hist = c at h
    cases op <;> simp only [step, Prod.mk.injEq, Option.some.injEq, reduceCtorEq, false_and] at h
    · obtain ⟨_, rfl⟩ := h
      have := computeI_mem c.params hI c.I
      exact abs_le.2 ⟨(this _).1, (this _).2.1⟩
    · obtain ⟨_, rfl⟩ := h
      have := computeI_mem c.params hI c.I
      exact abs_le.2 ⟨(this _).1, (this _).2.1⟩

/-- C12, the law itself: when neither limit is active, the command is the textbook PID law with
the integral accumulated by the rectangle rule. -/
theorem C12_unsaturated_law (c : Pid K) (s sd e I' : K)
    (he : e = c.setpoint.stateDesired - s) (hI' : I' = c.I + c.params.k_i * e * c.params.dt)
    (hI : |I'| ≤ c.params.Imax) (hlim : c.params.uMin ≤ c.params.uMax) :
    (∀ u, u = c.params.k_p * e + I' +
        c.params.k_d * (c.setpoint.stateDerivativeDesired - sd) →
      c.params.uMin ≤ u → u ≤ c.params.uMax →
      (c.compute2 s sd).1 = u ∧ (c.compute2 s sd).2.I = I') ∧
    (∀ u, u = c.params.k_p * e + I' + c.params.k_d *
        (c.setpoint.stateDerivativeDesired - (s - c.statePrevious) / c.params.dt) →
      c.params.uMin ≤ u → u ≤ c.params.uMax →
      (c.compute s).1 = u ∧ (c.compute s).2.I = I' ∧ (c.compute s).2.statePrevious = s) := by
  have h0 : 0 ≤ c.params.Imax := (abs_nonneg _).trans hI
  have hc : computeI c.params c.I e = I' := by
    rw [hI'] at hI ⊢; exact (computeI_mem c.params h0 c.I e).2.2 hI
  subst he
  constructor
  · rintro u rfl h1 h2
    simp only [Pid.compute2, hc]
    exact ⟨(saturate_mem c.params hlim _).2.2.1 h1 h2, trivial⟩
  · rintro u rfl h1 h2
    simp only [Pid.compute, hc]
    exact ⟨(saturate_mem c.params hlim _).2.2.1 h1 h2, trivial, trivial⟩

/-- A PID controller whose command saturates. -/
example : (Pid.compute (Pid.new (⟨10, 1, 0, 1, 2, 5, -5⟩ : Params ℚ) ⟨1, 0⟩) 0).1 = 5 := by
  decide +kernel

omit [IsStrictOrderedRing K] in
/-- C13: after any history followed by a reset, the outputs of every later call sequence equal
those of a new controller with the parameters and set-points then in force. -/
theorem C13_reset_is_fresh (c : Pid K) (hist later : List (Op K)) :
    outputs (run c (hist ++ [.reset])) later =
      outputs (Pid.new (run c hist).params (run c hist).setpoint) later := by
  have : run c (hist ++ [.reset]) = Pid.new (run c hist).params (run c hist).setpoint := by
    simp [run, List.foldl_append, step, Pid.new]
  rw [this]

example : outputs (run (Pid.new (⟨1, 1, 1, 1, 9, 9, -9⟩ : Params ℚ) ⟨1, 0⟩)
    ([.computeControl 3, .setDesiredState 2] ++ [.reset])) [.computeControl 1] = [some 1] := by
  decide +kernel

/-- The state set-point a call sets, if any. -/
def desired? : Op K → Option K
  | .setDesiredState s => some s
  | .setDesiredState2 s _ => some s
  | _ => none

/-- The derivative set-point a call sets, if any. -/
def desiredDerivative? : Op K → Option K
  | .setDesiredState2 _ sd => some sd
  | _ => none

/-- The parameters a call sets, if any. -/
def parameters? : Op K → Option (Params K)
  | .changeParameters p => some p
  | _ => none

omit [IsStrictOrderedRing K] in
/-- C13, what is in force: after any history, each of the two set-points and the parameters are the
ones set last (the initial ones if never set) – in particular a reset and a new state set-point leave
the derivative set-point alone. -/
theorem C13_in_force (c : Pid K) (hist : List (Op K)) :
    (run c hist).setpoint.stateDesired
      = ((hist.filterMap desired?).getLast?).getD c.setpoint.stateDesired ∧
    (run c hist).setpoint.stateDerivativeDesired
      = ((hist.filterMap desiredDerivative?).getLast?).getD c.setpoint.stateDerivativeDesired ∧
    (run c hist).params = ((hist.filterMap parameters?).getLast?).getD c.params := by
  induction hist using List.reverseRecOn with
  | nil => exact ⟨rfl, rfl, rfl⟩
  | append_singleton hist op ih =>
    have hrun : run c (hist ++ [op]) = (step (run c hist) op).2 := by simp [run]
    rw [hrun]
    cases op <;> simp [step, desired?, desiredDerivative?, parameters?, List.filterMap_append,
      Pid.compute, Pid.compute2, ih]

example : (run (Pid.new (⟨1, 1, 1, 1, 9, 9, -9⟩ : Params ℚ) ⟨1, 0⟩)
    [.setDesiredState2 3 4, .computeControl 1, .setDesiredState 2, .reset]).setpoint.stateDesired = 2 ∧
  (run (Pid.new (⟨1, 1, 1, 1, 9, 9, -9⟩ : Params ℚ) ⟨1, 0⟩)
    [.setDesiredState2 3 4, .computeControl 1, .setDesiredState 2, .reset]).setpoint.stateDerivativeDesired
      = 4 := by decide +kernel

end CT.PID
