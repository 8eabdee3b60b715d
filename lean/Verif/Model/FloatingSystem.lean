import Verif.Model.RobotState
import Verif.Model.Res
import Verif.Model.FrameJac
import Verif.Model.Spatial
import Mathlib.LinearAlgebra.Matrix.Notation
import Mathlib.Analysis.SpecialFunctions.Trigonometric.Basic

/-!
# Floating-base robot systems

Models the orientation queries of `ct_rbd/include/ct/rbd/state/RigidBodyPose.h`, the state derivatives of
`state/RBDAcceleration.h`, the wrappers of `robot/Dynamics.h` and the system
`systems/FloatingBaseFDSystem.h`.  Scalars are the reals; a quaternion is the vector (w, x, y, z).  The
code generated for a robot, the contact model and the functions of kindr are parameters.
-/

namespace CT.FloatSys

open Matrix FrameJac Robot Spatial

/-! ### Eigen's quaternions -/

abbrev Q4 := Fin 4 → ℝ

/-- `Eigen::Quaternion(AngleAxis)`: the quaternion of the rotation by `a` about the unit vector `u`. -/
noncomputable def axisQuat (a : ℝ) (u : V3) : Q4 :=
  ![Real.cos (a / 2), Real.sin (a / 2) * u 0, Real.sin (a / 2) * u 1, Real.sin (a / 2) * u 2]

/-- The product of Eigen quaternions. -/
def quatMul (a b : Q4) : Q4 :=
  ![a 0 * b 0 - a 1 * b 1 - a 2 * b 2 - a 3 * b 3,
    a 0 * b 1 + a 1 * b 0 + a 2 * b 3 - a 3 * b 2,
    a 0 * b 2 + a 2 * b 0 + a 3 * b 1 - a 1 * b 3,
    a 0 * b 3 + a 3 * b 0 + a 1 * b 2 - a 2 * b 1]

/-- `Eigen::Quaternion::toRotationMatrix`, also `matrix()`. -/
def quatMatrix (q : Q4) : M3 :=
  !![1 - 2 * (q 2 * q 2 + q 3 * q 3), 2 * (q 1 * q 2 - q 0 * q 3), 2 * (q 1 * q 3 + q 0 * q 2);
     2 * (q 1 * q 2 + q 0 * q 3), 1 - 2 * (q 1 * q 1 + q 3 * q 3), 2 * (q 2 * q 3 - q 0 * q 1);
     2 * (q 1 * q 3 - q 0 * q 2), 2 * (q 2 * q 3 + q 0 * q 1), 1 - 2 * (q 1 * q 1 + q 2 * q 2)]

/-- The matrix built from the Euler angles in `getRotationMatrix` (RigidBodyPose.h:154-158): product of
the quaternions of the rotations about the x, y and z axis. -/
noncomputable def eulerQuatMatrix (e : V3) : M3 :=
  quatMatrix (quatMul (quatMul (axisQuat (e 0) ![1, 0, 0]) (axisQuat (e 1) ![0, 1, 0])) (axisQuat (e 2) ![0, 0, 1]))

/-! ### Orientation of a pose -/

/-- The functions of kindr that are used: conversions, `RotationMatrix(EulerAnglesXyz)`,
`RotationMatrix(RotationQuaternion)` (also the matrix of `quat_.rotate`; its transpose is that of
`quat_.inverseRotate`), `EulerAnglesXyzDiff(euler, ω)` and `RotationQuaternionDiff(quat, ω)` with the
angular velocity `ω` in base coordinates. -/
structure Kindr where
  conv : Conv ℝ
  eulerRot : V3 → M3
  quatRot : Q4 → M3
  eulerDiff : V3 → V3 → V3
  quatDiff : Q4 → V3 → Q4

variable (kd : Kindr)

/-- `getRotationMatrix` (RigidBodyPose.h:150-166). -/
noncomputable def rotationMatrix (p : Pose ℝ) : M3 :=
  if p.storedAsEuler then eulerQuatMatrix p.euler else kd.quatRot p.quat

/-- `rotateBaseToInertia` (RigidBodyPose.h:284-307). -/
noncomputable def rotateBaseToInertia (p : Pose ℝ) (x : V3) : V3 :=
  if p.storedAsEuler then rotationMatrix kd p *ᵥ x else kd.quatRot p.quat *ᵥ x

/-- `rotateInertiaToBase` (RigidBodyPose.h:339-353). -/
def rotateInertiaToBase (p : Pose ℝ) (x : V3) : V3 :=
  if p.storedAsEuler then (kd.eulerRot p.euler)ᵀ *ᵥ x else (kd.quatRot p.quat)ᵀ *ᵥ x

/-- `gravity3DW` with the default argument (RigidBodyPose.h:368). -/
noncomputable def gravity3DW : V3 := ![0, 0, -9.81]

/-- `computeGravityB6D` with the default argument (RigidBodyPose.h:380-385). -/
noncomputable def gravityB6D (p : Pose ℝ) : V6 :=
  let g := rotateInertiaToBase kd p gravity3DW
  ![0, 0, 0, g 0, g 1, g 2]

/-! ### State derivatives -/

variable {n : ℕ}

/-- `RBDAcceleration` (RBDAcceleration.h:107-110) with `RigidBodyAcceleration` (RigidBodyAcceleration.h). -/
structure Acc (n : ℕ) where
  ang : V3
  lin : V3
  joints : Fin n → ℝ

/-- The default constructor, zero (RBDAcceleration.h:40, 95-99). -/
def Acc.zero : Acc n := ⟨fun _ => 0, fun _ => 0, fun _ => 0⟩

/-- `fromVector6d` (RigidBodyAcceleration.h:35-39). -/
def Acc.setBase (a : Acc n) (x : V6) : Acc n := { a with ang := ![x 0, x 1, x 2], lin := ![x 3, x 4, x 5] }

/-- `toStateUpdateVectorEulerXyz` (RBDAcceleration.h:71-85); the translational velocity in the world is
`computeTranslationalVelocityW` (RigidBodyState.h:52-59). -/
noncomputable def Acc.toEuler (a : Acc n) (s : RBD ℝ n) : List ℝ :=
  List.ofFn (kd.eulerDiff (s.pose.getEuler kd.conv) s.angVel) ++ List.ofFn (rotateBaseToInertia kd s.pose s.linVel)
    ++ List.ofFn s.joints.vel ++ List.ofFn a.ang ++ List.ofFn a.lin ++ List.ofFn a.joints

/-- `toStateUpdateVectorQuaternion` (RBDAcceleration.h:55-69). -/
noncomputable def Acc.toQuat (a : Acc n) (s : RBD ℝ n) : List ℝ :=
  List.ofFn (kd.quatDiff (s.pose.getQuat kd.conv) s.angVel) ++ List.ofFn (rotateBaseToInertia kd s.pose s.linVel)
    ++ List.ofFn s.joints.vel ++ List.ofFn a.ang ++ List.ofFn a.lin ++ List.ofFn a.joints

/-! ### The generated code and its wrappers -/

/-- What a robot with `n` joints, links numbered by `Fin l` and `e` end effectors provides: generated
forward dynamics (joint positions, base velocity, gravity, joint velocities, joint forces, link forces ↦ base
and joint accelerations), generated inverse dynamics (joint positions, gravity, base velocity, joint
velocities and accelerations, link forces ↦ base acceleration and joint forces), generated inverse dynamics
with actuated base (… base acceleration … ↦ force on the base and joint forces), the link an end effector is
on and `mapForceFromWorldToLink3d`. -/
structure FRob (n l e : ℕ) where
  fd : (Fin n → ℝ) → V6 → V6 → (Fin n → ℝ) → (Fin n → ℝ) → (Fin l → V6) → V6 × (Fin n → ℝ)
  idyn : (Fin n → ℝ) → V6 → V6 → (Fin n → ℝ) → (Fin n → ℝ) → (Fin l → V6) → V6 × (Fin n → ℝ)
  idFull : (Fin n → ℝ) → V6 → V6 → V6 → (Fin n → ℝ) → (Fin n → ℝ) → (Fin l → V6) → V6 × (Fin n → ℝ)
  linkId : Fin e → Fin l
  mapForce : V3 → Pose ℝ → (Fin n → ℝ) → Fin e → V6

variable {l e : ℕ} (rb : FRob n l e)

/-- `baseVelocities().getVector()`: rotational, then translational velocity. -/
def twist (s : RBD ℝ n) : V6 :=
  ![s.angVel 0, s.angVel 1, s.angVel 2, s.linVel 0, s.linVel 1, s.linVel 2]

/-- `FloatingBaseForwardDynamics` (Dynamics.h:275-288); `xd` is the object the result is written to. -/
noncomputable def forwardDynamics (s : RBD ℝ n) (u : Fin n → ℝ) (lf : Fin l → V6) (xd : Acc n) : Acc n :=
  let r := rb.fd s.joints.pos (twist s) (gravityB6D kd s.pose) s.joints.vel u lf
  { xd with joints := r.2 }.setBase r.1

/-- `FloatingBaseID` (Dynamics.h:290-305): base acceleration and joint forces. -/
noncomputable def inverseDynamics (s : RBD ℝ n) (qdd : Fin n → ℝ) (lf : Fin l → V6) : (V3 × V3) × (Fin n → ℝ) :=
  let r := rb.idyn s.joints.pos (gravityB6D kd s.pose) (twist s) s.joints.vel qdd lf
  ((![r.1 0, r.1 1, r.1 2], ![r.1 3, r.1 4, r.1 5]), r.2)

/-- `FloatingBaseFullyActuatedID` (Dynamics.h:307-320): the base acceleration `_a` given is not used, an
uninitialised local vector `junk` is passed in its place. -/
noncomputable def fullyActuatedID (junk : V6) (s : RBD ℝ n) (_a : V3 × V3) (qdd : Fin n → ℝ) (lf : Fin l → V6) :
    V6 × (Fin n → ℝ) :=
  rb.idFull s.joints.pos (gravityB6D kd s.pose) (twist s) junk s.joints.vel qdd lf

/-! ### The system -/

/-- `FloatingBaseFDSystem` with `QUAT_INTEGRATION = quat` and `EE_ARE_CONTROL_INPUTS = eeIn`: the contact
model, if any (FloatingBaseFDSystem.h:185-186), reduced to `computeContactForces`. -/
structure Sys (n e : ℕ) where
  quat : Bool
  eeIn : Bool
  contact : Option (RBD ℝ n → Fin e → V3)

/-- A state object of the given storage type (RBDState.h, constructor from `STORAGE_TYPE`). -/
def RBD.blank (n : ℕ) (euler : Bool) : RBD ℝ n :=
  ⟨Pose.init euler fun _ => 0, fun _ => 0, fun _ => 0, ⟨fun _ => 0, fun _ => 0⟩⟩

variable (sy : Sys n e)

/-- `RBDStateFromVector` (FloatingBaseFDSystem.h:131-152). -/
def Sys.stateFrom (x : List ℝ) : RBD ℝ n :=
  if sy.quat then (RBD.blank n false).fromStateVectorQuaternion kd.conv x
  else (RBD.blank n true).fromStateVectorEulerXyz kd.conv x

/-- `toStateDerivative` (FloatingBaseFDSystem.h:154-168). -/
noncomputable def Sys.toDeriv (a : Acc n) (s : RBD ℝ n) : List ℝ :=
  if sy.quat then a.toQuat kd s else a.toEuler kd s

/-- `NSTATE / 2 + QUAT_INTEGRATION`, the number of position coordinates. -/
def pdim (n : ℕ) (quat : Bool) : ℕ := n + 6 + if quat then 1 else 0

/-- `computePdot` (FloatingBaseFDSystem.h:63-77): the last `NSTATE / 2` entries of the state are replaced by `v`. -/
noncomputable def Sys.pdot (x v : List ℝ) : List ℝ :=
  let xl := x.take (pdim n sy.quat) ++ v
  let s := sy.stateFrom kd xl
  (sy.toDeriv kd Acc.zero s).take (pdim n sy.quat)

/-- `mapEndeffectorForcesToLinkForces` (FloatingBaseFDSystem.h:117-129): one *assignment* per end effector. -/
def mapLinkForces (s : RBD ℝ n) (fw : Fin e → V3) (lf : Fin l → V6) : Fin l → V6 :=
  (List.finRange e).foldl
    (fun lf i => Function.update lf (rb.linkId i) (rb.mapForce (fw i) s.pose s.joints.pos i)) lf

/-- The end effector forces of `computeVdot` (FloatingBaseFDSystem.h:92-100). -/
def Sys.eeForces (s : RBD ℝ n) (control : List ℝ) : Fin e → V3 :=
  let f : Fin e → V3 := match sy.contact with
    | none => fun _ _ => 0
    | some c => c s
  if sy.eeIn then fun i => f i + seg control (n + i * 3) 3 else f

/-- `computeVdot` (FloatingBaseFDSystem.h:79-108): the first entries of the state are replaced by `p`. -/
noncomputable def Sys.vdot (x p control : List ℝ) : List ℝ :=
  let xl := p ++ x.drop (pdim n sy.quat)
  let s := sy.stateFrom kd xl
  let lf := mapLinkForces rb s (sy.eeForces s control) fun _ _ => 0
  let a := forwardDynamics kd rb s (seg control 0 n) lf Acc.zero
  (sy.toDeriv kd a s).drop (pdim n sy.quat)

/-- `SymplecticSystem::computeControlledDynamics`
(ct_core/.../systems/continuous_time/SymplecticSystem.h:68-80). -/
noncomputable def Sys.dynamics (x control : List ℝ) : List ℝ :=
  sy.pdot kd x (x.drop (pdim n sy.quat)) ++ sy.vdot kd rb x (x.take (pdim n sy.quat)) control

/-- The copy constructor (FloatingBaseFDSystem.h:49-52), also used by `clone` (55-58): the contact model is
cloned through its pointer, which is null when none was set.  The clone of a contact model is the same
function of the state. -/
def Sys.copy : Res (Sys n e) :=
  match sy.contact with
  | none => .ub
  | some c => .ok { sy with contact := some c }

end CT.FloatSys
