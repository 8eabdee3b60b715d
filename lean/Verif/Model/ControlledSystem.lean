import Verif.Model.Res
import Verif.Model.PID
import Verif.Model.FloatingSystem

/-!
# Controlled systems, their controllers and copies

Models `ct_core/include/ct/core/systems/continuous_time/ControlledSystem.h`,
`ct_core/include/ct/core/systems/discrete_time/DiscreteControlledSystem.h`, the controllers
`ConstantController-impl.h`, `ConstantStateFeedbackController.h`, `siso/StepInputController.h` in
`ct_core/include/ct/core/control/continuous_time/` and `JointPositionPIDController-impl.h`,
`WholeBodyController-impl.h` in `ct_rbd/include/ct/rbd/robot/control/`.

Controllers live in memory and are held by shared pointers, so that two systems may hold the same one.
-/

namespace CT.Ctl

/-! ### Systems -/

/-- A class derived from `Controller` or `DiscreteController` (Controller.h:39-58, DiscreteController.h): an object
has a state, which `computeControl` may change; `clone` may throw. -/
structure Class (C X T U : Type) where
  compute : C → X → T → Res (U × C)
  clone : C → Res C

/-- A `ControlledSystem` (ControlledSystem.h:145-147): where the controller is, if there is one, the last control
action (`none` while uninitialised) and the dynamics implemented by the derived class. -/
structure Sys (X T U : Type) where
  ctl : Option ℕ
  action : Option U
  f : X → T → U → X

/-- Controllers and systems in memory, in the order of creation.  Nothing is ever freed: as long as somebody holds a
pointer, a controller stays, and nobody can tell afterwards. -/
structure World (C X T U : Type) where
  ctls : List C
  syss : List (Sys X T U)

/-- What a user can do. -/
inductive Op (C X T U : Type) where
  /-- creates a controller -/
  | newCtl (c : C)
  /-- creates a system, with a controller or without -/
  | newSys (k : Option ℕ) (f : X → T → U → X)
  /-- `setController` -/
  | setController (s k : ℕ)
  /-- any change to a controller by a method of its own, through any pointer to it -/
  | change (k : ℕ) (g : C → C)
  /-- copy constructor or `clone` of a system -/
  | copy (s : ℕ)
  /-- `computeDynamics` or `propagateDynamics` -/
  | dynamics (s : ℕ) (x : X) (t : T)

variable {C X T U : Type}

/-- The world at the start. -/
def World.empty : World C X T U := ⟨[], []⟩

/-- `computeDynamics` (ControlledSystem.h:125-135); the derivative and the new world.  `propagateDynamics`
(DiscreteControlledSystem.h:115-124) is the same without keeping the control. -/
def World.dynamics [Zero U] (cl : Class C X T U) (w : World C X T U) (s : ℕ) (x : X) (t : T) :
    Res (X × World C X T U) := do
  let sy ← idx w.syss s
  match sy.ctl with
  | some k =>
    let c ← idx w.ctls k
    let (u, c) ← cl.compute c x t
    pure (sy.f x t u, ⟨w.ctls.set k c, w.syss.set s { sy with action := some u }⟩)
  | none => pure (sy.f x t 0, { w with syss := w.syss.set s { sy with action := some 0 } })

/-- Copy constructor of `ControlledSystem` (ControlledSystem.h:78-82): the controller is cloned. -/
def World.copyCont (cl : Class C X T U) (w : World C X T U) (s : ℕ) : Res (World C X T U) := do
  let sy ← idx w.syss s
  match sy.ctl with
  | some k =>
    let c ← idx w.ctls k
    let c ← cl.clone c
    pure ⟨w.ctls ++ [c], w.syss ++ [{ sy with ctl := some w.ctls.length }]⟩
  | none => pure { w with syss := w.syss ++ [sy] }

/-- Copying a `DiscreteControlledSystem`.  The constructor called copy constructor there takes a *continuous*
system (DiscreteControlledSystem.h:70-76), so that the copy constructor is the implicit one: all members are copied,
the shared pointer among them. -/
def World.copyDisc (w : World C X T U) (s : ℕ) : Res (World C X T U) := do
  let sy ← idx w.syss s
  pure { w with syss := w.syss ++ [sy] }

/-- One operation.  `disc` tells whether systems are derived from `DiscreteControlledSystem`.  Constructors:
ControlledSystem.h:59-75, DiscreteControlledSystem.h:57-68; `setController`: ControlledSystem.h:93-96,
DiscreteControlledSystem.h:88-91. -/
def World.step [Zero U] (disc : Bool) (cl : Class C X T U) (w : World C X T U) : Op C X T U → Res (World C X T U)
  | .newCtl c => pure { w with ctls := w.ctls ++ [c] }
  | .newSys k f => do
    match k with
    | some k =>
      let _ ← idx w.ctls k
      pure { w with syss := w.syss ++ [⟨some k, some 0, f⟩] }
    | none => pure { w with syss := w.syss ++ [⟨none, none, f⟩] }
  | .setController s k => do
    let sy ← idx w.syss s
    let _ ← idx w.ctls k
    pure { w with syss := w.syss.set s { sy with ctl := some k } }
  | .change k g => do
    let c ← idx w.ctls k
    pure { w with ctls := w.ctls.set k (g c) }
  | .copy s => if disc then w.copyDisc s else w.copyCont cl s
  | .dynamics s x t => do
    let (_, w) ← w.dynamics cl s x t
    pure w

/-- A history of operations. -/
def World.run [Zero U] (disc : Bool) (cl : Class C X T U) (w : World C X T U) : List (Op C X T U) → Res (World C X T U)
  | [] => pure w
  | op :: ops => do
    let w ← w.step disc cl op
    w.run disc cl ops

/-- The derivative returned by `computeDynamics`. -/
def World.derivative [Zero U] (cl : Class C X T U) (w : World C X T U) (s : ℕ) (x : X) (t : T) : Res X := do
  let (d, _) ← w.dynamics cl s x t
  pure d

/-- `getLastControlAction` (ControlledSystem.h:143): reading the member before it was written is undefined. -/
def World.lastAction (w : World C X T U) (s : ℕ) : Res U := do
  let sy ← idx w.syss s
  match sy.action with
  | some u => pure u
  | none => .ub

/-! ### Controllers of ct_core -/

/-- `ConstantController` (ConstantController-impl.h:12-66): the object is the control. -/
def constantClass (X T U : Type) : Class U X T U := ⟨fun u _ _ => .ok (u, u), .ok⟩

/-- `getDerivativeU0` (ConstantController-impl.h:69-75). -/
def constantDerivativeU0 (m : ℕ) (_u : Fin m → ℝ) (_x : Fin n → ℝ) (_t : ℝ) : Matrix (Fin m) (Fin m) ℝ := 1

/-- The members of `ConstantStateFeedbackController` (ConstantStateFeedbackController.h:115-123). -/
structure Feedback (n m : ℕ) where
  uff : Fin m → ℝ
  xref : Fin n → ℝ
  K : Matrix (Fin m) (Fin n) ℝ

/-- Default constructor (ConstantStateFeedbackController.h:39-44). -/
def Feedback.zero (n m : ℕ) : Feedback n m := ⟨0, 0, 0⟩

/-- `updateControlLaw` (ConstantStateFeedbackController.h:104-112). -/
def Feedback.update (_ : Feedback n m) (uff : Fin m → ℝ) (x : Fin n → ℝ) (K : Matrix (Fin m) (Fin n) ℝ := 0) : Feedback n m :=
  ⟨uff, x, K⟩

/-- `computeControl` and copies (ConstantStateFeedbackController.h:63-95). -/
noncomputable def feedbackClass (n m : ℕ) : Class (Feedback n m) (Fin n → ℝ) ℝ (Fin m → ℝ) :=
  ⟨fun c x _ => .ok (c.uff + c.K.mulVec (x - c.xref), c), .ok⟩

/-- `StepInputController` (StepInputController.h:37-66): the parameters are gain and time of the step. -/
noncomputable def stepClass : Class (ℝ × ℝ) ℝ ℝ ℝ :=
  ⟨fun p _ t => .ok (p.1 * (if p.2 ≤ t then 1 else 0), p), .ok⟩

/-! ### PID controllers of the joints -/

section JointPid
open CT.PID

variable {K : Type} [Field K] [LinearOrder K]

/-- The members of `JointPositionPIDController` (JointPositionPIDController.h:55). -/
structure JointPid (K : Type) where
  jointControllers : List (Pid K)

/-- Default parameters but the gains (PIDController.h:40-49); `big` is `std::numeric_limits<double>::max()`. -/
def gains (big kp ki kd : K) : Params K := ⟨kp, ki, kd, 1 / 100, big, big, -big⟩

/-- Constructor from one set of parameters per joint (JointPositionPIDController-impl.h:22-35). -/
def JointPid.newEach (n : ℕ) (pos vel : Fin n → K) (parameters : List (Params K)) : Res (JointPid K) := do
  let cs ← (List.finRange n).mapM fun (i : Fin n) => do
    let p ← idx parameters i.1
    pure (Pid.new p ⟨pos i, vel i⟩)
  pure ⟨cs⟩

/-- Constructor from one set of parameters for all joints (JointPositionPIDController-impl.h:38-48). -/
def JointPid.newAll (n : ℕ) (pos vel : Fin n → K) (p : Params K) : JointPid K :=
  ⟨(List.finRange n).map fun i => Pid.new p ⟨pos i, vel i⟩⟩

/-- Operations on the controller. -/
inductive JOp (K : Type) (n : ℕ) where
  | computeControl (state : List K)
  | setDesiredPosition (p : Fin n → K)
  | setDesiredPositionOf (p : K) (jointId : ℤ)
  | setAllPIDGains (kp ki kd : K)
  | reset

/-- A call on every joint controller in turn, with the results, as the loops of `computeControl`,
`setDesiredPosition`, `setAllPIDGains` and `reset` do it (JointPositionPIDController-impl.h:57-60, 66-69, 88-91,
97-100). -/
def JointPid.each (n : ℕ) (c : JointPid K) (op : Fin n → PID.Op K) : Res (List (Option K) × JointPid K) := do
  let rs ← (List.finRange n).mapM fun (i : Fin n) => do
    let p ← idx c.jointControllers i.1
    pure (PID.step p (op i))
  pure (rs.map (·.1), ⟨rs.map (·.2)⟩)

/-- One call.  The joint state is the vector given: positions first, then velocities (JointState.h:39, 77-93, 137-141).
An index out of range is caught by an `assert` only (JointPositionPIDController-impl.h:75), otherwise undefined. -/
def JointPid.step (big : K) {n : ℕ} (c : JointPid K) : JOp K n → Res (List (Option K) × JointPid K)
  | .computeControl x => c.each n fun i => .computeControl2 (Robot.seg x 0 n i) (Robot.seg x n n i)
  | .setDesiredPosition p => c.each n fun i => .setDesiredState (p i)
  | .setDesiredPositionOf p j =>
    if 0 ≤ j ∧ j < n then do
      let d ← idx c.jointControllers j.toNat
      pure ([], ⟨c.jointControllers.set j.toNat (PID.step d (.setDesiredState p)).2⟩)
    else .ub
  | .setAllPIDGains kp ki kd => c.each n fun _ => .changeParameters (gains big kp ki kd)
  | .reset => c.each n fun _ => .reset

/-- A history of calls. -/
def JointPid.run (big : K) {n : ℕ} (c : JointPid K) : List (JOp K n) → Res (JointPid K)
  | [] => pure c
  | op :: ops => do
    let r ← c.step big op
    r.2.run big ops

/-- As a controller of a system (JointPositionPIDController-impl.h:12-15, 50-61): `clone` throws. -/
def jointPidClass (big : K) (n : ℕ) : Class (JointPid K) (List K) K (List (Option K)) :=
  ⟨fun c x _ => c.step big (n := n) (.computeControl x), fun _ => .exc⟩

end JointPid

/-- The members of `WholeBodyController` at construction (WholeBodyController-impl.h:12-14): a joint controller
constructed by default (JointPositionPIDController.h:30-34). -/
noncomputable def WholeBody.new (big : ℝ) (n : ℕ) : Res (JointPid ℝ) :=
  JointPid.newEach n (fun _ => 0) (fun _ => 0) (List.replicate n (gains big 0 0 0))

/-- `WholeBodyController::computeControl` (WholeBodyController-impl.h:28-37); `kd` is the conversion of rotations in
kindr. -/
noncomputable def WholeBody.computeControl (kd : FloatSys.Kindr) (big : ℝ) (n : ℕ) (c : JointPid ℝ) (state : List ℝ) :
    Res (List (Option ℝ) × JointPid ℝ) :=
  let x := (FloatSys.RBD.blank n true).fromStateVectorEulerXyz kd.conv state
  c.step big (n := n) (.computeControl (List.ofFn x.joints.pos ++ List.ofFn x.joints.vel))

end CT.Ctl
