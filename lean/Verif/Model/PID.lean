import Mathlib.Algebra.Order.Field.Basic

/-!
# PID controller

Models `ct_core/include/ct/core/control/continuous_time/siso/PIDController-impl.h`.
-/

namespace CT.PID

/-- `parameters_t` (PIDController.h:38-57). -/
structure Params (K : Type) where
  k_p : K
  k_i : K
  k_d : K
  dt : K
  Imax : K
  uMax : K
  uMin : K

/-- `setpoint_t` (PIDController.h:63-72). -/
structure Setpoint (K : Type) where
  stateDesired : K
  stateDerivativeDesired : K

/-- Members (PIDController.h:146-150). -/
structure Pid (K : Type) where
  statePrevious : K
  I : K
  params : Params K
  setpoint : Setpoint K

variable {K : Type} [Field K] [LinearOrder K]

/-- Constructor (PIDController-impl.h:12-15). -/
def Pid.new (p : Params K) (s : Setpoint K) : Pid K := ⟨0, 0, p, s⟩

/-- `saturateControl` (109-115): two consecutive tests. -/
def saturate (p : Params K) (u : K) : K :=
  let u := if p.uMax < u then p.uMax else u
  if u < p.uMin then p.uMin else u

/-- `computeI` (137-150): new integral part. -/
def computeI (p : Params K) (I error : K) : K :=
  let I := I + p.k_i * error * p.dt
  let I := if p.Imax < I then p.Imax else I
  if I < -p.Imax then -p.Imax else I

/-- `computeControl(state, t)` (54-78), derivative by finite difference. The time argument is not
used by the code. Division by `dt` with `dt = 0` (inf/NaN in C++) is outside the model. -/
def Pid.compute (c : Pid K) (state : K) : K × Pid K :=
  let error := c.setpoint.stateDesired - state
  let P := c.params.k_p * error
  let I := computeI c.params c.I error
  let D := c.params.k_d *
    (c.setpoint.stateDerivativeDesired - (state - c.statePrevious) / c.params.dt)
  let u := saturate c.params (P + I + D)
  (u, { c with I := I, statePrevious := state })

/-- `computeControl(state, stateDerivative, t)` (81-106). -/
def Pid.compute2 (c : Pid K) (state stateDerivative : K) : K × Pid K :=
  let error := c.setpoint.stateDesired - state
  let P := c.params.k_p * error
  let I := computeI c.params c.I error
  let D := c.params.k_d * (c.setpoint.stateDerivativeDesired - stateDerivative)
  let u := saturate c.params (P + I + D)
  (u, { c with I := I, statePrevious := state })

/-- Calls on a controller. -/
inductive Op (K : Type) where
  | setInitialState (s : K)
  | setDesiredState (s : K)
  | setDesiredState2 (s sd : K)
  | computeControl (s : K)
  | computeControl2 (s sd : K)
  | changeParameters (p : Params K)
  | reset

/-- One call: the command returned (if any) and the new controller. `setInitialState` 35-38,
`setDesiredState` 41-51, `changeParameters` 118-121, `reset` 130-134. -/
def step (c : Pid K) : Op K → Option K × Pid K
  | .setInitialState s => (none, { c with statePrevious := s })
  | .setDesiredState s => (none, { c with setpoint := { c.setpoint with stateDesired := s } })
  | .setDesiredState2 s sd => (none, { c with setpoint := ⟨s, sd⟩ })
  | .computeControl s => let r := c.compute s; (some r.1, r.2)
  | .computeControl2 s sd => let r := c.compute2 s sd; (some r.1, r.2)
  | .changeParameters p => (none, { c with params := p })
  | .reset => (none, { c with statePrevious := 0, I := 0 })

/-- The controller after a history. -/
def run (c : Pid K) (ops : List (Op K)) : Pid K := ops.foldl (fun c op => (step c op).2) c

/-- The outputs of a sequence of calls. -/
def outputs : Pid K → List (Op K) → List (Option K)
  | _, [] => []
  | c, op :: ops => (step c op).1 :: outputs (step c op).2 ops

end CT.PID
