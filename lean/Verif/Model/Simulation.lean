import Mathlib.Algebra.Order.Floor.Ring
import Mathlib.Algebra.Order.Field.Basic

/-!
# Control simulation

Models the plant side of `ct_core/include/ct/core/simulation/ControlSimulator.h`. Wall-clock waiting
and the controller thread are not modelled; one iteration of the `while` loop advances the
simulated plant by the sub-steps listed here.
-/

namespace CT.Simulation

variable {K : Type} [Field K] [LinearOrder K] [FloorRing K]

/-- Constructor checks (ControlSimulator.h:50-53). -/
def accepts (sim_dt control_dt : K) : Bool :=
  decide (0 < sim_dt) && decide (0 < control_dt) && decide (sim_dt ≤ control_dt)

/-- Sub-steps `(start time, step size)` of one iteration of `simulateSystem`
(ControlSimulator.h:108, 116-118) starting at `sim_time`. The conversion `int(...)` of a
non-negative number is the floor; `1e-6` is exact here. -/
def subSteps (sim_dt control_dt sim_time : K) : List (K × K) :=
  let n : ℕ := ⌊control_dt / sim_dt⌋.toNat
  let residue : K := control_dt / sim_dt - ⌊control_dt / sim_dt⌋
  (List.range n).map (fun k : ℕ => (sim_time + (k : K) * sim_dt, sim_dt)) ++
    (if 1 / 1000000 < residue then [(sim_time + (n : K) * sim_dt, residue)] else [])

/-- Total simulated time of one iteration. -/
def advance (sim_dt control_dt sim_time : K) : K :=
  ((subSteps sim_dt control_dt sim_time).map Prod.snd).sum

end CT.Simulation
