import Verif.Model.Res
import Mathlib.Algebra.Order.Field.Basic
import Mathlib.Algebra.Module.Defs

/-!
# Fixed-step integration

Models `ct_core/include/ct/core/integration/internal/SteppersCT.h`, `Integrator-impl.h`,
`Observer-impl.h` and the handlers in `integration/EventHandlers`. The boost.odeint steppers are
external and not modelled. Scalars are elements of a field (no rounding).
-/

namespace CT.Integration

variable {K V : Type} [Field K] [AddCommGroup V] [Module K V]

/-- `StepperEulerCT::do_step` (SteppersCT.h:88-95). -/
def eulerStep (f : V → K → V) (x : V) (t dt : K) : V := x + dt • f x t

/-- `StepperRK4CT::do_step` (SteppersCT.h:114-126); `oneSixth_` (112) is taken to be exact. -/
def rk4Step (f : V → K → V) (x : V) (t dt : K) : V :=
  let halfStep : K := (1 / 2) * dt
  let tHalf := t + halfStep
  let k1 := f x t
  let k2 := f (x + halfStep • k1) tHalf
  let k3 := f (x + halfStep • k2) tHalf
  let k4 := f (x + dt • k3) (t + dt)
  x + ((1 / 6) * dt) • (k1 + (2 : K) • k2 + (2 : K) • k3 + k4)

/-- `StepperCTBase::integrate_n_steps` without observer (SteppersCT.h:28-40), for any `do_step`;
returns final state and time. -/
def nSteps (step : V → K → K → V) (x : V) (t : K) (dt : K) : Nat → V × K
  | 0 => (x, t)
  | n + 1 => nSteps step (step x t dt) (t + dt) dt n

/-- Event handlers of `integration/EventHandlers`: `MaxStepsEventHandler` (limit and counter) and
`KillIntegrationEventHandler` (flag). Both have `callOnSubsteps() == false`. -/
inductive Handler where
  | maxSteps (limit taken : Nat)
  | kill (flag : Bool)
  deriving DecidableEq

/-- `reset()` of the handlers (MaxStepsEventHandler.h:38, KillIntegrationEventHandler.h:54). -/
def Handler.reset : Handler → Handler
  | .maxSteps l _ => .maxSteps l 0
  | .kill _ => .kill false

/-- `checkEvent` (MaxStepsEventHandler.h:46-50, KillIntegrationEventHandler.h:36). -/
def Handler.check : Handler → Bool × Handler
  | .maxSteps l n => (decide (l < n + 1), .maxSteps l (n + 1))
  | .kill b => (b, .kill b)

/-- `setEvent()` (KillIntegrationEventHandler.h:50). -/
def Handler.set : Handler → Handler
  | .kill _ => .kill true
  | h => h

/-- `Observer::observe` (Observer-impl.h:34-41): handlers in order, `handleEvent` of both classes
throws. -/
def observe : List Handler → Res (List Handler)
  | [] => .ok []
  | h :: hs =>
      let r := h.check
      if r.1 then .exc
      else do
        let hs' ← observe hs
        pure (r.2 :: hs')

/-- What an observed integration leaves behind: outcome, the caller's state variable, the log of
the observer and the handlers. -/
structure Obs (K V : Type) where
  outcome : Res Unit
  state : V
  log : List (V × K)
  handlers : List Handler

/-- `StepperCTBase::integrate_n_steps` with observer (SteppersCT.h:42-57) and the logging observer
(Observer-impl.h:14-17). `ext i` tells whether `setEvent()` is called (by the system or another
thread) on the kill handlers between the start and the observation of step `i`. -/
def observed (step : V → K → K → V) (dt : K) (ext : Nat → Bool) :
    Nat → (i : Nat) → (x : V) → (t : K) → List (V × K) → List Handler → Obs K V
  | 0, _, x, _, log, hs => ⟨.ok (), x, log, hs⟩
  | n + 1, i, x, t, log, hs =>
      let x' := step x t dt
      let t' := t + dt
      let log' := log ++ [(x', t')]
      let hs1 := if ext i then hs.map Handler.set else hs
      match observe hs1 with
      | .ok hs2 => observed step dt ext n (i + 1) x' t' log' hs2
      | .exc => ⟨.exc, x', log', hs1⟩
      | .ub => ⟨.ub, x', log', hs1⟩

/-- `Integrator::integrate_n_steps` with recording (Integrator-impl.h:50-61): `reset()` of observer
and handlers, integration, and hand-over of the log to the caller. -/
def integrateNSteps (step : V → K → K → V) (hs : List Handler) (ext : Nat → Bool) (x : V) (t0 : K)
    (n : Nat) (dt : K) : Obs K V :=
  observed step dt ext n 0 x t0 [] (hs.map Handler.reset)

end CT.Integration
