import Verif.Model.FloatingSystem
import Verif.Model.ContactDynamics

/-!
# Inverse dynamics controller for floating base robots

Models `ct_rbd/include/ct/rbd/robot/control/IDControllerFB.h` on top of the models of the pose and of projected
dynamics.  Scalars are the reals.
-/

namespace CT.IdFb

open Matrix FrameJac Robot Spatial FloatSys ConDyn

variable {n : ℕ}

/-- The members `desState_`, `Kp_` and `Kd_` (IDControllerFB.h:86-89); the gains have the rotation first. -/
structure Ctrl (n : ℕ) where
  des : RBD ℝ n
  Kp : V6
  Kd : V6

/-- `inverted()` of a kindr quaternion: its conjugate, which is the inverse for the unit quaternions kindr represents
rotations with. -/
def quatInv (q : Q4) : Q4 := ![q 0, -q 1, -q 2, -q 3]

/-- `computeDesiredAcceleration` (IDControllerFB.h:31-60).  `euler` is the conversion of a quaternion to
`EulerAnglesXyzPD` followed by `getUnique` (36, 42).  The twist is `getVector` (RigidBodyVelocities.h:31-36). -/
def Ctrl.desiredAcc (kd : Kindr) (euler : Q4 → V3) (c : Ctrl n) (s : RBD ℝ n) : Acc n :=
  let q := quatMul (quatInv (s.pose.getQuat kd.conv)) (c.des.pose.getQuat kd.conv)
  let e := euler q
  let posErr : V3 := fun i => c.des.pose.position i - s.pose.position i
  let weighted : V3 := ![c.Kp 3 * posErr 0, c.Kp 4 * posErr 1, c.Kp 5 * posErr 2]
  let b := rotateInertiaToBase kd s.pose weighted
  let a : V6 := ![c.Kp 0 * e 0, c.Kp 1 * e 1, c.Kp 2 * e 2, b 0, b 1, b 2]
  let des := twist c.des
  let cur := twist s
  (Acc.zero : Acc n).setBase fun i => a i + c.Kd i * (des i - cur i)

/-- `toCoordinateAcceleration` (RBDAcceleration.h:87-93), as a sequence. -/
def coord (a : Acc n) : ℕ → ℝ := fun i =>
  if h : i < 3 then a.ang ⟨i, h⟩ else if h : i < 6 then a.lin ⟨i - 3, by omega⟩
  else if h : i - 6 < n then a.joints ⟨i - 6, h⟩ else 0

/-- `computeTorque` (IDControllerFB.h:62-80) with `ProjectedInverseDynamics` and its variant without gravity
(ProjectedDynamics.h:125-135, 195-245): `h_` holds the gravity terms only in the first case.  `t` are the terms of the
robot at the current state, `P` is the projector for the contacts. -/
noncomputable def Ctrl.torque (kd : Kindr) (euler : Q4 → V3) (svdInv : Matrix (Fin (6 + n)) (Fin n) ℝ → Matrix (Fin n) (Fin (6 + n)) ℝ)
    (P : Matrix (Fin (6 + n)) (Fin (6 + n)) ℝ) (t : Terms) (c : Ctrl n) (s : RBD ℝ n) (gravityCompensation : Bool := true) : Fin n → ℝ :=
  let a := c.desiredAcc kd euler s
  let h : ℕ → ℝ := if gravityCompensation then hTerm t else t.cor
  inverse svdInv P (selection n) (Matrix.of fun i j => t.M (i.val, j.val)) (fun i => coord a i) (fun i => h i)

end CT.IdFb
