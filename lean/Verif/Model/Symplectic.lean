import Mathlib.Algebra.Field.Basic
import Mathlib.Algebra.Module.Defs
import Mathlib.Algebra.Module.Prod

/-!
# Symplectic integration

Models `ct_core/include/ct/core/integration/IntegratorSymplectic-impl.h` with the symplectic Euler
stepper and `ct_core/include/ct/core/systems/continuous_time/SymplecticSystem.h`. The stepper itself
is boost.odeint's `symplectic_euler` (one stage, both coefficients one: positions with the
velocities of the beginning of the step, then velocities with the new positions); its behaviour is
part of the trusted base. Observers are not modelled (they do not influence the state).
-/

namespace CT.Symplectic

/-- A `SymplecticSystem` with its (optional) controller (SymplecticSystem.h:132-148): position
derivative and velocity derivative as functions of the full state, the respective other half and
the control. `ctrl = none` models the null controller. -/
structure Sys (K P W U : Type) where
  pdot : P × W → W → U → P
  vdot : P × W → P → U → W
  ctrl : Option (P × W → K → U)

variable {K P W U : Type} [Field K] [AddCommGroup P] [Module K P] [AddCommGroup W] [Module K W] [Zero U]

/-- Control used by `computePdot`/`computeVdot` without control argument (SymplecticSystem.h:94-98,
114-118): the controller is evaluated at time `0.0`; zero without controller. -/
def Sys.control (s : Sys K P W U) (x : P × W) : U :=
  match s.ctrl with
  | some c => c x 0
  | none => 0

/-- `do_step` of `symplectic_euler` on the pair of functions set up in `setupSystem`
(IntegratorSymplectic-impl.h:91-105): `systemFunctionPosition_` writes the velocity argument into
the cached state and calls `computePdot`; `systemFunctionVelocity_` writes the new position into
the cached state and calls `computeVdot`. `x` is the state at the beginning of the step, which is
also `xCached_` (49). -/
def step (s : Sys K P W U) (x : P × W) (dt : K) : P × W :=
  let cached1 : P × W := (x.1, x.2)
  let p' := x.1 + dt • s.pdot cached1 x.2 (s.control cached1)
  let cached2 : P × W := (p', cached1.2)
  let v' := x.2 + dt • s.vdot cached2 p' (s.control cached2)
  (p', v')

/-- `integrate_n_steps` without recording (61-80): final state and time. -/
def nSteps (s : Sys K P W U) (dt : K) : Nat → P × W → K → (P × W) × K
  | 0, x, t => (x, t)
  | n + 1, x, t => nSteps s dt n (step s x dt) (t + dt)

/-- Loop of the recording `integrate_n_steps` (47-57). -/
def recordLoop (s : Sys K P W U) (dt : K) : Nat → P × W → K → List (P × W) → List K →
    (P × W) × List (P × W) × List K
  | 0, x, _, xs, ts => (x, xs, ts)
  | n + 1, x, t, xs, ts =>
      let x' := step s x dt
      recordLoop s dt n x' (t + dt) (xs ++ [x']) (ts ++ [t + dt])

/-- Recording `integrate_n_steps` (32-58); `xs`, `ts` are the contents of the caller's containers,
which are appended to, not cleared (44-45). -/
def record (s : Sys K P W U) (dt : K) (n : Nat) (x : P × W) (t : K) (xs : List (P × W))
    (ts : List K) : (P × W) × List (P × W) × List K :=
  recordLoop s dt n x t (xs ++ [x]) (ts ++ [t])

end CT.Symplectic
