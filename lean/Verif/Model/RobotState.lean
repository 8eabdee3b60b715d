import Verif.Model.Res
import Mathlib.Algebra.Group.Basic
import Mathlib.Algebra.Ring.Defs

/-!
# Robot states and their vector forms

Models `ct_rbd/include/ct/rbd/state/FixBaseRobotState.h`, `RBDState.h`, `FloatingBaseRobotState.h`
and the orientation storage of `RigidBodyPose.h`.  A dense state vector is the list of its entries;
its size is fixed by the C++ type.  A freshly declared Eigen vector is uninitialised: the functions
below that fill one block by block take its arbitrary previous contents as the argument `junk`.
The conversions between quaternions and Euler angles are those of the external library kindr; they
are parameters.
-/

namespace CT.Robot

section Blocks
variable {K : Type} [Zero K]

/-- Reading a block: `segment<n>(off)`, `head<n>()` (offset 0), `tail<n>()` (offset size − n).  All
blocks read below lie inside the vector (Eigen checks this at compile time); the default value is
never read for vectors of the declared size. -/
def seg (v : List K) (off n : ℕ) : Fin n → K := fun i => v.getD (off + i) 0

omit [Zero K] in
/-- Assigning to a block. -/
def setSeg (v : List K) (off : ℕ) {n : ℕ} (x : Fin n → K) : List K :=
  v.take off ++ List.ofFn x ++ v.drop (off + n)

end Blocks

/-! ### Fixed base -/

/-- `JointState` (JointState.h): the vector `state_` of positions (first half) and velocities. -/
structure Joints (K : Type) (n : ℕ) where
  pos : Fin n → K
  vel : Fin n → K

/-- `FixBaseRobotState` (FixBaseRobotState.h:157-160): joint state and actuator state. -/
structure FixBase (K : Type) (n m : ℕ) where
  joints : Joints K n
  act : Fin m → K

section FixBase
variable {K : Type} [Zero K] {n m : ℕ}

/-- `fromStateVector` (FixBaseRobotState.h:111-125), both overloads: the actuator state is assigned
only if it is not empty. -/
def FixBase.fromStateVector (s : FixBase K n m) (v : List K) : FixBase K n m :=
  let joints : Joints K n := ⟨seg v 0 n, seg v n n⟩
  if m = 0 then { s with joints := joints }
  else { joints := joints, act := seg v (2 * n + m - m) m }

omit [Zero K] in
/-- `toStateVector` (FixBaseRobotState.h:127-145), both overloads. -/
def FixBase.toStateVector (s : FixBase K n m) (junk : List K) : List K :=
  let v := setSeg junk 0 s.joints.pos
  let v := setSeg v n s.joints.vel
  if m = 0 then v else setSeg v (2 * n + m - m) s.act

/-- `jointStateFromVector` (FixBaseRobotState.h:57-63). -/
def jointStateFromVector (n : ℕ) (v : List K) : Joints K n := ⟨seg v 0 n, seg v n n⟩

/-- `actuatorStateFromVector` (FixBaseRobotState.h:77-81). -/
def actuatorStateFromVector (n m : ℕ) (v : List K) : Fin m → K := seg v (2 * n + m - m) m

/-- `toFullState` (FixBaseRobotState.h:84-91). -/
def toFullState (n : ℕ) {m : ℕ} (jointState : List K) (x_act : Fin m → K) (junk : List K) : List K :=
  let v := setSeg junk 0 (seg jointState 0 (2 * n))
  setSeg v (2 * n + m - m) x_act

end FixBase

/-! ### Floating base -/

/-- `RigidBodyPose` (RigidBodyPose.h:415-420): `STORAGE_TYPE`, quaternion (w, x, y, z), Euler
angles and position. -/
structure Pose (K : Type) where
  storedAsEuler : Bool
  quat : Fin 4 → K
  euler : Fin 3 → K
  position : Fin 3 → K

/-- The conversions of kindr between the two representations. -/
structure Conv (K : Type) where
  toEuler : (Fin 4 → K) → Fin 3 → K
  toQuat : (Fin 3 → K) → Fin 4 → K

section Pose
variable {K : Type} (cv : Conv K)

/-- `getEulerAnglesXyz` (RigidBodyPose.h:119-129). -/
def Pose.getEuler (p : Pose K) : Fin 3 → K := if p.storedAsEuler then p.euler else cv.toEuler p.quat

/-- `getRotationQuaternion` (RigidBodyPose.h:134-144). -/
def Pose.getQuat (p : Pose K) : Fin 4 → K := if p.storedAsEuler then cv.toQuat p.euler else p.quat

/-- `setFromEulerAnglesXyz` (RigidBodyPose.h:171-196, both overloads). -/
def Pose.setEuler (p : Pose K) (e : Fin 3 → K) : Pose K :=
  if p.storedAsEuler then { p with euler := e } else { p with quat := cv.toQuat e }

/-- `setFromRotationQuaternion` (RigidBodyPose.h:201-226, both overloads). -/
def Pose.setQuat (p : Pose K) (q : Fin 4 → K) : Pose K :=
  if p.storedAsEuler then { p with euler := cv.toEuler q } else { p with quat := q }

variable [Zero K] [One K]

/-- The member initialisers common to the constructors (RigidBodyPose.h:51-91). -/
def Pose.init (euler : Bool) (position : Fin 3 → K) : Pose K :=
  { storedAsEuler := euler, quat := fun i => if i = 0 then 1 else 0, euler := fun _ => 0,
    position := position }

/-- Constructor from kindr Euler angles (RigidBodyPose.h:59-68); the default argument of the storage
type is `EULER`, here `true`. -/
def Pose.ofEuler (e : Fin 3 → K) (position : Fin 3 → K) (storeEuler : Bool := true) : Pose K :=
  (Pose.init storeEuler position).setEuler cv e

/-- Constructor from a kindr quaternion (RigidBodyPose.h:71-80). -/
def Pose.ofQuat (q : Fin 4 → K) (position : Fin 3 → K) (storeEuler : Bool := true) : Pose K :=
  (Pose.init storeEuler position).setQuat cv q

/-- Constructor from an Eigen quaternion (RigidBodyPose.h:83-88): delegates without passing on the
storage type. -/
def Pose.ofEigenQuat (q : Fin 4 → K) (position : Fin 3 → K) (_storeEuler : Bool := true) : Pose K :=
  Pose.ofQuat cv q position

end Pose

/-- `RBDState` (RBDState.h:212-213): base pose, base velocities and joint state. -/
structure RBD (K : Type) (n : ℕ) where
  pose : Pose K
  angVel : Fin 3 → K
  linVel : Fin 3 → K
  joints : Joints K n

section RBD
variable {K : Type} (cv : Conv K) {n : ℕ}

/-- `toCoordinatePosition` (RBDState.h:136-142). -/
def RBD.toCoordinatePosition (s : RBD K n) : List K :=
  List.ofFn (s.pose.getEuler cv) ++ List.ofFn s.pose.position ++ List.ofFn s.joints.pos

/-- `toCoordinateVelocity` (RBDState.h:144-150). -/
def RBD.toCoordinateVelocity (s : RBD K n) : List K :=
  List.ofFn s.angVel ++ List.ofFn s.linVel ++ List.ofFn s.joints.vel

/-- `toStateVectorEulerXyz` (RBDState.h:161-168). -/
def RBD.toStateVectorEulerXyz (s : RBD K n) : List K :=
  s.toCoordinatePosition cv ++ s.toCoordinateVelocity

/-- `toStateVectorQuaternion` (RBDState.h:115-126). -/
def RBD.toStateVectorQuaternion (s : RBD K n) : List K :=
  List.ofFn (s.pose.getQuat cv) ++ List.ofFn s.pose.position ++ List.ofFn s.joints.pos ++
    List.ofFn s.angVel ++ List.ofFn s.linVel ++ List.ofFn s.joints.vel

variable [Zero K]

/-- `fromStateVectorEulerXyz` (RBDState.h:180-188); the size of the vector is `2 (n + 6)`. -/
def RBD.fromStateVectorEulerXyz (s : RBD K n) (v : List K) : RBD K n :=
  { pose := { s.pose.setEuler cv (seg v 0 3) with position := seg v 3 3 }
    angVel := seg v (6 + n) 3
    linVel := seg v (9 + n) 3
    joints := ⟨seg v 6 n, seg v (2 * (n + 6) - n) n⟩ }

/-- `fromStateVectorQuaternion` (RBDState.h:170-178); the size of the vector is `2 (n + 6) + 1`.
kindr's constructor from a vector takes the entries in the order (w, x, y, z). -/
def RBD.fromStateVectorQuaternion (s : RBD K n) (v : List K) : RBD K n :=
  { pose := { s.pose.setQuat cv (seg v 0 4) with position := seg v 4 3 }
    angVel := seg v (7 + n) 3
    linVel := seg v (10 + n) 3
    joints := ⟨seg v 7 n, seg v (2 * (n + 6) + 1 - n) n⟩ }

/-- `FloatingBaseRobotState` (FloatingBaseRobotState.h): rigid-body state and actuator state. -/
structure Floating (K : Type) (n m : ℕ) where
  rbd : RBD K n
  act : Fin m → K

/-- `toStateVectorEulerXyz` (FloatingBaseRobotState.h:111-125) of a robot with actuator states
(`m > 0`; for `m = 0` the rigid-body state only, the same list). -/
def Floating.toStateVectorEulerXyz {m : ℕ} (s : Floating K n m) : List K :=
  s.rbd.toStateVectorEulerXyz cv ++ List.ofFn s.act

/-- `fromStateVectorEulerXyz` (FloatingBaseRobotState.h:144-153) for `m > 0`.  The overload for
`m = 0` (154-159) does not compile when used: it names a constructor instead of the function of the
base class. -/
def Floating.fromStateVectorEulerXyz {m : ℕ} (s : Floating K n m) (v : List K) : Floating K n m :=
  { rbd := s.rbd.fromStateVectorEulerXyz cv (v.take (2 * (n + 6)))
    act := seg v (2 * (n + 6) + m - m) m }

/-- `toStateVectorQuaternion` (FloatingBaseRobotState.h:79-93). -/
def Floating.toStateVectorQuaternion {m : ℕ} (s : Floating K n m) : List K :=
  s.rbd.toStateVectorQuaternion cv ++ List.ofFn s.act

/-- `fromStateVectorQuaternion` (FloatingBaseRobotState.h:127-142). -/
def Floating.fromStateVectorQuaternion {m : ℕ} (s : Floating K n m) (v : List K) : Floating K n m :=
  if m = 0 then { s with rbd := s.rbd.fromStateVectorQuaternion cv v }
  else
    { rbd := s.rbd.fromStateVectorQuaternion cv (v.take (2 * (n + 6) + 1))
      act := seg v (2 * (n + 6) + 1 + m - m) m }

end RBD

end CT.Robot
