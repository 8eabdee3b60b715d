import Verif.Model.JointState
import Verif.Model.IK
import Verif.Model.RobotLookups

/-!
# Closed-form inverse kinematics

Models `ct_models/include/ct/models/HyA/HyAInverseKinematics.h`,
`ct_models/include/ct/models/Irb4600/Irb4600InverseKinematics.h`, the solution objects of
`ct_rbd/include/ct/rbd/robot/kinematics/ikfast/ikfast.h`, and the forward kinematics `ComputeFk` of
`ct_models/src/HyA/transform6d.cpp`.

Simplifications: scalars are real numbers, `M_PI` is the number π, and decimal numbers are written as fractions.  The
solver `ComputeIk` itself (25000 generated lines) is a parameter: a function of the position, the rotation in nine
numbers and the pointer to free joints.  The rotation of a pose is its matrix (`RigidBodyPose` stores Euler angles or a
quaternion), and the inverse of a rotation its transpose.  A call that throws has also cleared the list of solutions.
-/

namespace CT.IkFast

open FrameJac Matrix

/-- What `ComputeFk` writes: position and rotation. -/
structure Fk where
  eetrans : Fin 3 → ℝ
  eerot : Fin 9 → ℝ

/-- `ComputeFk` of the closed-form solver of the HyA (HyA/transform6d.cpp:300-371), with its local variables. -/
noncomputable def hyaFk (q : ℕ → ℝ) : Fk :=
  let x0 := Real.cos (q 0)
  let x1 := Real.cos (q 2)
  let x2 := Real.sin (q 0)
  let x3 := Real.sin (q 1)
  let x4 := Real.sin (q 2)
  let x5 := Real.cos (q 3)
  let x6 := Real.cos (q 1)
  let x7 := Real.sin (q 3)
  let x8 := Real.cos (q 5)
  let x9 := Real.sin (q 5)
  let x10 := Real.cos (q 4)
  let x11 := Real.sin (q 4)
  let x12 := (((83 / 4000)) * x3)
  let x13 := (((3 / 100)) * x5)
  let x14 := ((1) * x2)
  let x15 := ((1) * x6)
  let x16 := (((37 / 125)) * x5)
  let x17 := (((3 / 100)) * x11)
  let x18 := (((3 / 100)) * x7)
  let x19 := ((1) * x3)
  let x20 := (((83 / 4000)) * x5)
  let x21 := ((1) * x7)
  let x22 := (((3 / 100)) * x10)
  let x23 := (x0 * x4)
  let x24 := (x0 * x6)
  let x25 := (x2 * x4)
  let x26 := (x6 * x7)
  let x27 := (x2 * x6)
  let x28 := (x0 * x1)
  let x29 := (x1 * x3)
  let x30 := (x1 * x5 * x6)
  let x31 := (x10 * x4 * x6)
  let x32 := (x19 * x28)
  let x33 := (x0 * x15 * x5)
  let x34 := (x14 * x5 * x6)
  let x35 := (x14 * x3 * x4)
  let x36 := ((((-1) * x32)) + x25)
  let x37 := ((((-1) * x35)) + x28)
  let x38 := ((((-1) * x19 * x7)) + x30)
  let x39 := ((((-1) * x14 * x4)) + x32)
  let x40 := (((x19 * x23)) + ((x1 * x14)))
  let x41 := ((-1) * x40)
  let x42 := (((x14 * x29)) + (((1) * x23)))
  let x43 := ((-1) * x42)
  let x44 := (((x1 * x15 * x7)) + ((x19 * x5)))
  let x45 := (x10 * x37)
  let x46 := (x11 * x38)
  let x47 := (x36 * x5)
  let x48 := (x39 * x7)
  let x49 := (x42 * x7)
  let x50 := (x10 * x41)
  let x51 := (x47 + (((-1) * x0 * x15 * x7)))
  let x52 := (x31 + x46)
  let x53 := ((((-1) * x14 * x26)) + ((x43 * x5)))
  let x54 := (((x11 * x51)) + x50)
  let x55 := (((x11 * x53)) + x45)
  let x56 := (x1 * x6)
  ⟨![(((x7 * (((((-(37 / 125)) * x28 * x3)) + ((((37 / 125)) * x25)))))) + ((x9 * ((((x17 * x51)) + ((x22 * x41)))))) + ((x8 * (((((-1) * x18 * x39)) + ((x13 * x24)))))) + ((x11 * ((((x20 * x36)) + (((-(83 / 4000)) * x24 * x7)))))) + ((((52 / 125)) * x24)) + ((x16 * x24)) + ((x10 * (((((-(83 / 4000)) * x1 * x2)) + (((-1) * x12 * x23))))))),
    (((x10 * (((((-1) * x12 * x25)) + ((((83 / 4000)) * x28)))))) + ((x8 * (((((-1) * x18 * x42)) + ((x13 * x27)))))) + ((x9 * ((((x17 * x53)) + ((x22 * x37)))))) + ((x7 * (((((-(37 / 125)) * x23)) + (((-(37 / 125)) * x2 * x29)))))) + ((x11 * ((((x20 * x43)) + (((-(83 / 4000)) * x2 * x26)))))) + ((((52 / 125)) * x27)) + ((x16 * x27))),
    (((89 / 500)) + ((((83 / 4000)) * x31)) + ((x11 * (((((-1) * x12 * x7)) + ((x20 * x56)))))) + ((((52 / 125)) * x3)) + ((((37 / 125)) * x1 * x26)) + ((x8 * ((((x18 * x56)) + ((x13 * x3)))))) + ((x16 * x3)) + ((x9 * ((((x22 * x4 * x6)) + ((x17 * x38)))))))],
   ![(((x8 * ((x33 + (((-1) * x21 * x39)))))) + ((x54 * x9))),
    (((x54 * x8)) + ((x9 * (((((-1) * x33)) + x48))))),
    (((x11 * x40)) + ((x10 * x51))),
    (((x55 * x9)) + ((x8 * ((x34 + (((-1) * x21 * x42))))))),
    (((x9 * (((((-1) * x34)) + x49)))) + ((x55 * x8))),
    (((x11 * (((((-1) * x28)) + x35)))) + ((x10 * x53))),
    (((x44 * x8)) + ((x52 * x9))),
    ((((-1) * x44 * x9)) + ((x52 * x8))),
    (((x10 * x38)) + (((-1) * x11 * x15 * x4)))]⟩

/-- `IkSingleDOFSolutionBase` (ikfast.h:47-60): the value of a joint is `foffset`, or `fmul * sol[freeind] + foffset`. -/
structure Dof where
  fmul : ℝ
  foffset : ℝ
  freeind : Int

/-- The body of the loop of `IkSolution::GetSolution` (ikfast.h:163-173); `none` is the null pointer. -/
noncomputable def Dof.value (freevalues : Option (List ℝ)) (d : Dof) : Res ℝ :=
  if d.freeind < 0 then .ok d.foffset
  else match freevalues with
    | none => .ub
    | some v => match v[d.freeind.toNat]? with
      | none => .ub
      | some x =>
        let s := x * d.fmul + d.foffset
        if s > 314159265358979 / 100000000000000 then .ok (s - 628318530717959 / 100000000000000)
        else if s < -314159265358979 / 100000000000000 then .ok (s + 628318530717959 / 100000000000000)
        else .ok s

/-- `IkSolution::GetSolution` (ikfast.h:161-175). -/
noncomputable def getSolution (freevalues : Option (List ℝ)) : List Dof → Res (List ℝ)
  | [] => .ok []
  | d :: ds => do
    let x ← d.value freevalues
    let xs ← getSolution freevalues ds
    return x :: xs

/-- `ComputeIk`: position, rotation and free joints to the list of solutions (HyA/transform6d.cpp:25689-25692). -/
abbrev Solver := (Fin 3 → ℝ) → (Fin 9 → ℝ) → Option (List ℝ) → List (List Dof)

/-- A pose. -/
structure Pose where
  R : M3
  p : V3

/-- `inReferenceFrame` (RigidBodyPose.h:256-278). -/
def Pose.inReferenceFrame (T ref : Pose) : Pose := ⟨ref.Rᵀ * T.R, ref.Rᵀ *ᵥ (T.p - ref.p)⟩

/-- The data of `Eigen::Matrix<SCALAR, 3, 3, Eigen::RowMajor>` (HyAInverseKinematics.h:48-49). -/
def rowMajor (R : M3) (k : Fin 9) : ℝ := R ⟨k / 3, by omega⟩ ⟨k % 3, by omega⟩

/-- `jointLowerLimit` (HyAJointLimits.h:12-19). -/
noncomputable def lower : List ℝ := [-(31416 / 10000), -(7679 / 10000), -(16406 / 10000), 0, -(20944 / 10000), -(5236 / 10000)]

/-- `jointUpperLimit` (HyAJointLimits.h:21-28). -/
noncomputable def upper : List ℝ := [5236 / 10000, 8552 / 10000, 698 / 10000, 22689 / 10000, 15708 / 10000, 15708 / 10000]

/-- The loop of `computeInverseKinematics` of the HyA (HyAInverseKinematics.h:61-69); `res` is the list so far. -/
noncomputable def hyaLoop (free : Option (List ℝ)) : List (List Dof) → List (List ℝ) → Res (List (List ℝ))
  | [], res => .ok res
  | s :: ss, res => do
    let sol ← getSolution free s
    let sol ← Joint.toUniquePosition (2 * Real.pi) 0 sol lower
    if Joint.checkPositionLimits 0 (sol.zip (lower.zip upper)) then hyaLoop free ss (res ++ [sol])
    else hyaLoop free ss res

/-- `freeJoints_ikf.size() > 0 ? freeJoints_ikf.data() : nullptr` (HyAInverseKinematics.h:50-52). -/
def freePtr (freeJoints : List ℕ) : Option (List ℝ) :=
  if freeJoints.length > 0 then some (freeJoints.map (↑)) else none

/-- `computeInverseKinematics` of the HyA, pose in base coordinates (HyAInverseKinematics.h:37-75;
`GetNumFreeParameters`, HyA/transform6d.cpp:373): the result and the list of solutions. -/
noncomputable def hyaBase (ik : Solver) (_res : List (List ℝ)) (eeBase : Pose) (freeJoints : List ℕ) :
    Res (Bool × List (List ℝ)) :=
  if 0 ≠ freeJoints.length then .exc
  else
    let solutions := ik eeBase.p (rowMajor eeBase.R) (freePtr freeJoints)
    if solutions.length = 0 then .ok (false, [])
    else do
      let res ← hyaLoop (freePtr freeJoints) solutions []
      if res.length = 0 then return (false, res) else return (true, res)

/-- `computeInverseKinematics` of the HyA, poses in world coordinates (HyAInverseKinematics.h:77-83). -/
noncomputable def hyaWorld (ik : Solver) (res : List (List ℝ)) (eeWorld baseWorld : Pose) (freeJoints : List ℕ) :
    Res (Bool × List (List ℝ)) :=
  hyaBase ik res (eeWorld.inReferenceFrame baseWorld) freeJoints

/-- `computeInverseKinematicsCloseTo` of the HyA, poses in world coordinates (InverseKinematicsBase.h:75-101); `dist`
is the norm of the difference to the query. -/
noncomputable def hyaCloseTo (ik : Solver) (dist : List ℝ → ℝ) (old : List ℝ) (eeWorld baseWorld : Pose)
    (freeJoints : List ℕ) : Res (Bool × List ℝ) := do
  let r ← hyaWorld ik [] eeWorld baseWorld freeJoints
  IK.closeTo dist r.1 r.2 old

/-- The loop of `computeInverseKinematics` of the Irb4600 (Irb4600InverseKinematics.h:58-64). -/
noncomputable def irbLoop (free : Option (List ℝ)) : List (List Dof) → List (List ℝ) → Res (List (List ℝ))
  | [], res => .ok res
  | s :: ss, res => do
    let sol ← getSolution free s
    irbLoop free ss (res ++ [sol])

/-- `computeInverseKinematics` of the Irb4600, pose in base coordinates (Irb4600InverseKinematics.h:35-70;
`GetNumFreeParameters`, Irb4600/transform6d.cpp:383). -/
noncomputable def irbBase (ik : Solver) (_res : List (List ℝ)) (eeBase : Pose) (freeJoints : List ℕ) :
    Res (Bool × List (List ℝ)) :=
  if 0 ≠ freeJoints.length then .exc
  else
    let solutions := ik eeBase.p (rowMajor eeBase.R) (freePtr freeJoints)
    if solutions.length = 0 then .ok (false, [])
    else do
      let res ← irbLoop (freePtr freeJoints) solutions []
      if res.length = 0 then return (false, res) else return (true, res)

/-- `computeInverseKinematics` of the Irb4600, poses in world coordinates (Irb4600InverseKinematics.h:72-78). -/
noncomputable def irbWorld (ik : Solver) (res : List (List ℝ)) (eeWorld baseWorld : Pose) (freeJoints : List ℕ) :
    Res (Bool × List (List ℝ)) :=
  irbBase ik res (eeWorld.inReferenceFrame baseWorld) freeJoints

end CT.IkFast
