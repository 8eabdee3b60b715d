import Verif.Model.NlocBuffers
import Verif.Model.Actuator

/-!
# Front ends of the nonlinear optimal control solver for robots

`ct_rbd/include/ct/rbd/nloc/FixBaseNLOC-impl.h`, `FloatingBaseNLOCContactModel-impl.h`: functions that
prepare an initial guess for the solver and hand out its results.  The solver is the set of buffers of
`Verif.Model.NlocBuffers`, together with the policy `policy_` it fills on request.

Not modelled: construction (cost function and settings files), `changeCostFunction`, and the members
that do not compile when they are used: `FixBaseNLOC::initialize` (FixBaseNLOC-impl.h:69 calls
`toImplementation`, which `FixBaseRobotState` does not have) and
`FloatingBaseNLOCContactModel::retrieveLastRollout` (FloatingBaseNLOCContactModel-impl.h:72 calls
`getStates`, which the solver does not have).
-/

namespace CT.RobotNloc

open CT.Nloc CT.Actuator CT.Robot

variable {X U F R : Type}

/-- The solver seen by the front end: the buffers and the arrays last stored in `policy_`
(NLOCBackendBase.hpp:618): states, controls, gains and times. -/
structure Front (X U F R : Type) where
  buf : Buf X U F R
  pol : List (Option X) × List (Option U) × List (Option F) × List R

/-- A reference handed to the caller: whether the object it names still exists, and its value. -/
structure Ref (α : Type) where
  alive : Bool
  val : α

/-- The caller reads through the reference. -/
def Ref.read {α : Type} (r : Ref α) : Res α := if r.alive then .ok r.val else .ub

section
variable [Field R] [LinearOrder R] [FloorRing R] [Zero X]

/-- One call of the solver; a call that throws leaves it as it was (`Call.after`). -/
def call (c : Call X U F R) (s : Front X U F R) : Front X U F R × Res Unit :=
  ({ s with buf := c.after s.buf }, c.run s.buf >>= fun _ => .ok ())

/-- Calls one after the other, until one throws. -/
def calls : List (Call X U F R) → Front X U F R → Front X U F R × Res Unit
  | [], s => (s, .ok ())
  | c :: cs, s =>
    match call c s with
    | (s', .ok _) => calls cs s'
    | r => r

/-- Construction of the policy `StateFeedbackController(x_ref, uff, K, deltaT)`
(StateFeedbackController-impl.h:17-26): three trajectories over `TimeArray(deltaT, size, 0)`
(DiscreteTrajectoryBase.h:62-69), which throws for an empty array.  Only the data are used later. -/
def policy (x : List X) (u : List U) (L : List F) (dt : R) : Res (Guess X U F) := do
  let _ ← Arrays.timeArray dt x.length 0
  let _ ← Arrays.timeArray dt u.length 0
  let _ ← Arrays.timeArray dt L.length 0
  pure ⟨x, u, L⟩

/-- Build the policy; if this throws nothing else happens, else make the calls. -/
def withPolicy (x : List X) (u : List U) (L : List F)
    (cs : Guess X U F → List (Call X U F R)) (s : Front X U F R) : Front X U F R × Res Unit :=
  match policy x u L s.buf.dt with
  | .ok g => calls (cs g) s
  | .exc => (s, .exc)
  | .ub => (s, .ub)

/-- `getSolution` (FixBaseNLOC-impl.h:188-191, NLOptConSolver-impl.hpp:144-147,
NLOCBackendBase-impl.hpp:1357-1362): `policy_.update(x_, u_ff_, L_, t_)`
(StateFeedbackController-impl.h:45-64), which drops the last time (undefined for no time at all) and
compares the sizes. -/
def getSolution (s : Front X U F R) : Res (Front X U F R) :=
  if s.buf.t = [] then .ub
  else if s.buf.L.length ≠ s.buf.t.length - 1 then .exc
  else if s.buf.u.length ≠ s.buf.t.length - 1 then .exc
  else if s.buf.x.length ≠ s.buf.t.length then .exc
  else .ok { s with pol := (s.buf.x, s.buf.u, s.buf.L, s.buf.t) }

/-- `getStateVectorArray` (FixBaseNLOC-impl.h:213-216, FloatingBaseNLOCContactModel-impl.h:75-80): a
reference to an array inside `policy_`. -/
def getStateVectorArray (s : Front X U F R) : Res (Ref (List (Option X))) :=
  getSolution s >>= fun s => .ok ⟨true, s.pol.1⟩

/-- `getControlVectorArray` (FixBaseNLOC-impl.h:206-210, FloatingBaseNLOCContactModel-impl.h:95-100). -/
def getControlVectorArray (s : Front X U F R) : Res (Ref (List (Option U))) :=
  getSolution s >>= fun s => .ok ⟨true, s.pol.2.1⟩

/-- `getFeedbackArray` (FixBaseNLOC-impl.h:200-203, FloatingBaseNLOCContactModel-impl.h:88-93). -/
def getFeedbackArray (s : Front X U F R) : Res (Ref (List (Option F))) :=
  getSolution s >>= fun s => .ok ⟨true, s.pol.2.2.1⟩

/-- `getTimeArray` of both front ends (FixBaseNLOC-impl.h:194-197,
FloatingBaseNLOCContactModel-impl.h:83-86): a reference to the time array
(DiscreteTrajectoryBase.h:258) of the trajectory that `getStateTrajectory` returns *by value*
(NLOptConSolver.hpp:138, NLOCBackendBase-impl.hpp:992-1000).  The trajectory is a temporary, destroyed
at the end of the return statement. -/
def getTimeArray (s : Front X U F R) : Ref (List R) := ⟨false, s.buf.t⟩

/-- `getTimeArray` of the solver itself (NLOptConSolver-impl.hpp:168-171,
NLOCBackendBase-impl.hpp:1505-1508): a reference to the member `t_`. -/
def solverTimeArray (s : Front X U F R) : Ref (List R) := ⟨true, s.buf.t⟩

/-- A vector of fixed size given by the list of its entries. -/
def asVec (k : ℕ) (l : List ℝ) : Fin k → ℝ := fun i => l.getD i 0

/-- `FloatingBaseNLOCContactModel::initialize` (FloatingBaseNLOCContactModel-impl.h:40-51); the initial
state is converted by `toStateVectorEulerXyz`. -/
def floatInit {n : ℕ} (cv : Conv ℝ) (x0 : RBD ℝ n) (tf : R) (xref : List (Fin (2 * (n + 6)) → ℝ))
    (fb : List F) (ff : List U) (s : Front (Fin (2 * (n + 6)) → ℝ) U F R) :
    Front (Fin (2 * (n + 6)) → ℝ) U F R × Res Unit :=
  withPolicy xref ff fb
    (fun g => [.horizon tf, .guess g, .initialState (asVec _ (x0.toStateVectorEulerXyz cv))]) s

/-- The default arguments of `initialize` (FloatingBaseNLOCContactModel.h:55-59): empty arrays. -/
def floatInitDefault {n : ℕ} (cv : Conv ℝ) (x0 : RBD ℝ n) (tf : R)
    (s : Front (Fin (2 * (n + 6)) → ℝ) U F R) : Front (Fin (2 * (n + 6)) → ℝ) U F R × Res Unit :=
  floatInit cv x0 tf [] [] [] s

variable {n m e : ℕ} {W : Type} [Zero W]

/-- `FixBaseNLOC::initializeSteadyPose` (FixBaseNLOC-impl.h:73-99): the arrays of
`Rob.steadyPose`, one gain per stage, then horizon, guess and initial state (`x_ref.front()`).
`N` is an `int` in the code; a negative one makes the arrays' sizes wrap around and is not modelled. -/
noncomputable def steadyPose (rb : Rob n e W) (x0 : FixBase ℝ n m) (tf : R) (N : ℕ) (K : F)
    (s : Front (Fin (2 * n + m) → ℝ) (Fin n → ℝ) F R) :
    Front (Fin (2 * n + m) → ℝ) (Fin n → ℝ) F R × Res Unit :=
  let p := rb.steadyPose x0 N
  withPolicy (p.2.map (asVec _)) p.1 (List.replicate N K)
    (fun g => [.horizon tf, .guess g, .initialState (asVec _ (vec x0))]) s

/-- `FixBaseNLOC::initializeDirectInterpolation` (FixBaseNLOC-impl.h:116-169): the arrays of
`Rob.directInterpolation`, then initial state, horizon and guess, in this order.  `junk` is the
uninitialised `uff_torque`. -/
noncomputable def directInterpolation (rb : Rob n e W) (a : Act n m) (x0 xf : FixBase ℝ n m) (tf : R) (N : ℕ)
    (K : F) (junk : Fin n → ℝ) (s : Front (Fin (2 * n + m) → ℝ) (Fin n → ℝ) F R) :
    Front (Fin (2 * n + m) → ℝ) (Fin n → ℝ) F R × Res Unit :=
  let p := rb.directInterpolation a x0 xf N junk
  withPolicy (p.2.map (asVec _)) p.1 (List.replicate N K)
    (fun g => [.initialState (asVec _ (vec x0)), .horizon tf, .guess g]) s

end

end CT.RobotNloc
