import Verif.Model.Simulation
import Mathlib.Data.Rat.Floor
import Mathlib.Tactic.Linarith
import Mathlib.Tactic.Ring
import Mathlib.Tactic.FieldSimp
import Mathlib.Tactic.NormNum
import Mathlib.Tactic.LinearCombination

/-! # Property C21: control simulation -/

namespace CT.Simulation

variable {K : Type} [Field K] [LinearOrder K] [IsStrictOrderedRing K] [FloorRing K]

theorem advance_eq (sim_dt control_dt t : K) (hs : 0 < sim_dt) (hc : 0 < control_dt) :
    advance sim_dt control_dt t = (⌊control_dt / sim_dt⌋ : K) * sim_dt +
      if 1 / 1000000 < Int.fract (control_dt / sim_dt) then Int.fract (control_dt / sim_dt) else 0 := by
  have hn : ((⌊control_dt / sim_dt⌋.toNat : ℕ) : K) = (⌊control_dt / sim_dt⌋ : K) := by
    have : ((⌊control_dt / sim_dt⌋.toNat : ℕ) : ℤ) = ⌊control_dt / sim_dt⌋ :=
      Int.toNat_of_nonneg (Int.floor_nonneg.2 (div_nonneg hc.le hs.le))
    exact_mod_cast congrArg (Int.cast : ℤ → K) this
  simp only [advance, subSteps, List.map_append, List.map_map, List.sum_append]
  have h1 : ((List.range ⌊control_dt / sim_dt⌋.toNat).map
      (Prod.snd ∘ fun k : ℕ => (t + (k : K) * sim_dt, sim_dt))).sum =
        (⌊control_dt / sim_dt⌋ : K) * sim_dt := by
    rw [show (Prod.snd ∘ fun k : ℕ => (t + (k : K) * sim_dt, sim_dt)) = fun _ => sim_dt from rfl]
    simp [hn]
  rw [h1, Int.self_sub_floor]
  split <;> simp

/-- C21 (partial): when the control period is a whole number of simulation steps, one iteration takes
exactly that many steps, one after the other, and they sum to the control period.

Missing for the full statement: every other ratio, see `C21_violated`. -/
theorem C21_period_partial (sim_dt t : K) (n : ℕ) (hs : 0 < sim_dt) (hn : 0 < n) :
    subSteps sim_dt (n * sim_dt) t =
      (List.range n).map (fun k : ℕ => (t + (k : K) * sim_dt, sim_dt)) ∧
    advance sim_dt (n * sim_dt) t = n * sim_dt := by
  have h : (n : K) * sim_dt / sim_dt = n := by field_simp
  have hc : 0 < (n : K) * sim_dt := mul_pos (by exact_mod_cast hn) hs
  constructor
  · simp only [subSteps, h, Int.floor_natCast, Int.toNat_natCast, Int.cast_natCast, sub_self]
    have : ¬ (1 / 1000000 : K) < 0 := not_lt.2 (by norm_num)
    simp only [this, if_false, List.append_nil]
  · rw [advance_eq _ _ _ hs hc, h]
    have : ¬ (1 / 1000000 : K) < 0 := not_lt.2 (by norm_num)
    simp [this]

example : (0:ℚ) < 1/100 ∧ 0 < 5 := by norm_num

/-- C21 is violated whenever the simulation step does not divide the control period: the residual
step has length `frac` instead of `frac * sim_dt`, so the plant is advanced by the wrong amount
unless `sim_dt = 1`. -/
theorem C21_violated (sim_dt control_dt t : K) (hs : 0 < sim_dt) (hc : 0 < control_dt)
    (hr : 1 / 1000000 < Int.fract (control_dt / sim_dt)) :
    advance sim_dt control_dt t - control_dt = Int.fract (control_dt / sim_dt) * (1 - sim_dt) ∧
    (advance sim_dt control_dt t = control_dt ↔ sim_dt = 1) := by
  have h0 : control_dt = (⌊control_dt / sim_dt⌋ : K) * sim_dt +
      Int.fract (control_dt / sim_dt) * sim_dt := by
    rw [← add_mul, Int.floor_add_fract]; field_simp
  have key : advance sim_dt control_dt t - control_dt =
      Int.fract (control_dt / sim_dt) * (1 - sim_dt) := by
    rw [advance_eq _ _ _ hs hc, if_pos hr]
    linear_combination -h0
  refine ⟨key, ?_⟩
  rw [← sub_eq_zero, key, mul_eq_zero]
  have hpos : Int.fract (control_dt / sim_dt) ≠ 0 := by
    have : (0:K) < 1 / 1000000 := by norm_num
    exact (this.trans hr).ne'
  constructor
  · rintro (h | h)
    · exact absurd h hpos
    · linear_combination -h
  · intro h; right; rw [h]; ring

/-- A simulator with `sim_dt = 0.02` and `control_dt = 0.05` is accepted by the constructor and
advances the plant by 0.54 per control period. -/
example : accepts (2/100 : ℚ) (5/100) = true ∧ advance (2/100 : ℚ) (5/100) 0 = 54/100 := by
  decide +kernel

omit [IsStrictOrderedRing K] [FloorRing K] in
/-- C21, construction: a simulator is constructed exactly when the simulation step is positive and
not longer than the control period; every other pair of steps is rejected with an exception. -/
theorem C21_construction (sim_dt control_dt : K) :
    accepts sim_dt control_dt = true ↔ 0 < sim_dt ∧ sim_dt ≤ control_dt := by
  simp only [accepts, Bool.and_eq_true, decide_eq_true_eq]
  exact ⟨fun h => ⟨h.1.1, h.2⟩, fun h => ⟨⟨h.1, lt_of_lt_of_le h.1 h.2⟩, h.2⟩⟩

example : accepts (1/100 : ℚ) (5/100) = true ∧ accepts (5/100 : ℚ) (1/100) = false := by decide +kernel

end CT.Simulation
