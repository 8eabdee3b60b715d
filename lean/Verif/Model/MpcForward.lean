import Verif.Model.Mpc
import Verif.Model.PolicyHandler

/-!
# MPC: policies, state prediction, horizon strategies

Models the parts of `/repo/ct_optcon/include/ct/optcon/mpc/MPC-impl.h` that `Mpc.lean` leaves out: the current
policy and the policy handler, the prediction of the state over the delay, the call counter and the ownership
of the horizon strategy. The policy is the state-feedback controller of the default solver.
-/

namespace CT.MpcForward
open CT.Mpc CT.PolicyHandler CT.StateFeedback

variable {n m : Nat} {K : Type} [Field K] [LinearOrder K] [FloorRing K]

/-- The policy handler chosen by the constructor (MPC-impl.h:25, 31-54): the base class for a cold start,
with the policy handed to `setInitialGuess`, otherwise the one for state feedback. -/
inductive Handler (n m : Nat) (K : Type) where
  | cold (initial : Ctrl n m K)
  | warm (dt : K)

/-- `setPolicy` (PolicyHandler-impl.h:39-43), called by `MPC::setInitialGuess` (MPC-impl.h:92-97). The
state-feedback handler inherits it but does not use the stored policy. -/
def Handler.setPolicy (p : Ctrl n m K) : Handler n m K → Handler n m K
  | .cold _ => .cold p
  | .warm dt => .warm dt

/-- `designWarmStartingPolicy` of the two handlers (PolicyHandler-impl.h:23-29,
StateFeedbackPolicyHandler-impl.h:22-89). -/
def Handler.design (delay newT : K) (policy : Ctrl n m K) : Handler n m K → Res (Ctrl n m K)
  | .cold p => .ok p
  | .warm dt => designWarmStartingPolicy dt delay newT policy

/-- `truncateSolutionFront` of the two handlers (PolicyHandler-impl.h:31-37,
StateFeedbackPolicyHandler-impl.h:92-117): new policy and the truncated time. The base class leaves the
caller's variable, which is not initialised (MPC-impl.h:226), unchanged: `none`. -/
def Handler.truncate (delay : K) (policy : Ctrl n m K) : Handler n m K → Res (Ctrl n m K × Option K)
  | .cold _ => .ok (policy, none)
  | .warm dt => do
    let (p, eff) ← truncateSolutionFront dt delay policy
    pure (p, some eff)

/-- `Controller::computeControl` of the policy, without its cached indices. -/
def law (c : Ctrl n m K) (x : Fin n → K) (t : K) : Res (Fin m → K) := (c.compute x t).1

/-- `StepperCTBase::integrate_n_steps` (SteppersCT.h:28-40) with a step that may fail in the controller. -/
def nStepsRes {V : Type} (step : V → K → Res V) (dt : K) : Nat → V → K → Res V
  | 0, x, _ => .ok x
  | k + 1, x, t => step x t >>= fun x' => nStepsRes step dt k x' (t + dt)

/-- `integrateForward` (MPC-impl.h:325-336): `step u x t` is one step of length `dt` of the forward
integrator for the plant under the control law `u`. The conversion of `lround` to `int` is taken to be exact. -/
def integrateForward {V U : Type} (step : (V → K → Res U) → V → K → Res V) (dt start stop : K) (x : V)
    (u : V → K → Res U) : Res V :=
  nStepsRes (step u) dt (max 0 (lround ((stop - start) / dt))).toNat x start

/-- The settings used here (MpcSettings.h:53-63) together with the forward integrator. -/
structure Env (n m : Nat) (K : Type) where
  stateForwardIntegration : Bool
  dt : K
  step : ((Fin n → K) → K → Res (Fin m → K)) → (Fin n → K) → K → Res (Fin n → K)

/-- Policy of the `MPC` object and its handler. -/
structure Pol (n m : Nat) (K : Type) where
  handler : Handler n m K
  current : Ctrl n m K

/-- The policy part of `prepareIteration` (MPC-impl.h:160): the current policy becomes the warm start, which
is also handed to the solver (170). -/
def Pol.prepare (s : Pol n m K) (stop newT : K) : Res (Pol n m K) := do
  let p ← s.handler.design stop newT s.current
  pure { s with current := p }

/-- `doForwardIntegration` (MPC-impl.h:115-134) as called by `finishIteration` (194-195): the state handed to
the solver. `given` is the caller's controller, if any. -/
def Pol.startState (e : Env n m K) (s : Pol n m K) (firstRun : Bool) (start stop : K) (x : Fin n → K)
    (given : Option ((Fin n → K) → K → Res (Fin m → K))) : Res (Fin n → K) :=
  if firstRun then .ok x
  else if e.stateForwardIntegration then
    match given with
    | some u => integrateForward e.step e.dt start stop x u
    | none => integrateForward e.step e.dt start stop x (law s.current)
  else .ok x

/-- The policy part of `finishIteration` after a successful solve (MPC-impl.h:204-253): `sol` is the solver's
solution, `dtp` the time since the previous solve; returns the policy handed out and what is added to the
stamp by truncation. Reading the uninitialised `dt_truncated_eff` is undefined. -/
def Pol.finish (s : Pol n m K) (firstRun postTruncation : Bool) (stop dtp : K) (sol : Ctrl n m K) :
    Res (Pol n m K × K) :=
  if postTruncation = true ∧ stop < dtp ∧ firstRun = false then do
    let (p, eff) ← s.handler.truncate (dtp - stop) sol
    match eff with
    | some e => pure ({ s with current := p }, e)
    | none => .ub
  else .ok ({ s with current := sol }, 0)

/-! ### Call counter -/

/-- `runCallCounter_` (MPC-impl.h:24, 144, 274) after a history of calls on a new object. -/
def callCounter (ops : List (Mpc.Op K)) : Nat :=
  ops.foldl (fun c op => match op with
    | .prepare _ _ => c + 1
    | .finish .. => c
    | .reset _ => 0) 0

/-- Average of `printMpcSummary` (MPC-impl.h:311): floating-point division, `none` for a division by zero. -/
def averageDelay (s : Mpc K) (ops : List (Mpc.Op K)) : Option K :=
  if callCounter ops = 0 then none else some (s.keeper.summedDelay / callCounter ops)

/-! ### Ownership of the horizon strategy -/

/-- A strategy object (timehorizon/MpcTimeHorizon.h): its settings and initial horizon. -/
structure Strategy (K : Type) where
  settings : Settings K
  T0 : K

/-- Horizon strategies are shared objects: `heap` gives the object behind each pointer, `own` is
`MPC::timeHorizonStrategy_`, `used` the pointer held by the time keeper. -/
structure Owner (K : Type) where
  heap : Nat → Strategy K
  own : Nat
  used : Nat

/-- Constructor (MPC-impl.h:57-73): both pointers refer to the custom or the default strategy. -/
def Owner.new (heap : Nat → Strategy K) (p : Nat) : Owner K := ⟨heap, p, p⟩

/-- `setTimeHorizonStrategy` (MPC-impl.h:85-88): only the own pointer changes. -/
def Owner.setStrategy (s : Owner K) (p : Nat) : Owner K := { s with own := p }

/-- Change the object behind a pointer. -/
def Owner.write (s : Owner K) (p : Nat) (f : Strategy K → Strategy K) : Owner K :=
  { s with heap := fun q => if q = p then f (s.heap q) else s.heap q }

/-- `resetMpc` (MPC-impl.h:277) and `updateInitialTimeHorizon` (MpcTimeHorizon-impl.h:83-86). -/
def Owner.reset (s : Owner K) (T : K) : Owner K := s.write s.own fun o => { o with T0 := T }

/-- `updateSettings` (MPC-impl.h:295) and that of the strategy (MpcTimeHorizon-impl.h:77-80). -/
def Owner.updateSettings (s : Owner K) (st : Settings K) : Owner K := s.write s.own fun o => { o with settings := st }

/-- The horizon chosen in `computeNewTimings` (MpcTimeKeeper.h:173), which calls the keeper's strategy. -/
def Owner.horizon (s : Owner K) (sinceFirst stop : K) : K × Bool :=
  computeNewTimeHorizon (s.heap s.used).settings (s.heap s.used).T0 sinceFirst stop

/-- Calls. -/
inductive OwnerOp (K : Type) where
  | setStrategy (p : Nat)
  | reset (T : K)
  | updateSettings (st : Settings K)

/-- One call. -/
def Owner.step (s : Owner K) : OwnerOp K → Owner K
  | .setStrategy p => s.setStrategy p
  | .reset T => s.reset T
  | .updateSettings st => s.updateSettings st

/-- A history of calls. -/
def Owner.run (s : Owner K) (ops : List (OwnerOp K)) : Owner K := ops.foldl Owner.step s

end CT.MpcForward
