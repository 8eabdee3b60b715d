import Mathlib.LinearAlgebra.Matrix.Notation
import Mathlib.Data.Matrix.Mul
import Mathlib.Data.Matrix.Block
import Verif.Model.FrameJac
import Verif.Model.Res

/-!
# End-effector forces mapped to links

Models the force mapping of `ct_rbd/include/ct/rbd/robot/Kinematics.h`, the look-up of transforms in
`ct_rbd/include/ct/rbd/robot/robcogen/robcogenHelpers.h` and the transform queries of
`ct_rbd/include/ct/rbd/robot/RobCoGenContainer.h`.

Simplifications: the code generated for a robot is a parameter (`Gen`); a `kindr` rotation of a pose is
its rotation matrix `R`, so `rotateBaseToInertia` is `R *ᵥ ·` and `rotateInertiaToBase` is `Rᵀ *ᵥ ·` in
both storage modes (RigidBodyPose.h:284-307, 339-353).
-/

namespace CT.ForceMap

open Matrix FrameJac

/-- A spatial force: torque in the upper three rows, force in the lower three
(SpatialForceVector.h:94-108). -/
structure Wrench where
  torque : V3
  force : V3

/-- The six rows of a spatial force. -/
def Wrench.toVec (w : Wrench) : Fin 3 ⊕ Fin 3 → ℝ := Sum.elim w.torque w.force

/-- A spatial force from its six rows (SpatialForceVector.h:34). -/
def Wrench.ofVec (v : Fin 3 ⊕ Fin 3 → ℝ) : Wrench := ⟨fun i => v (.inl i), fun i => v (.inr i)⟩

abbrev M6 := Matrix (Fin 3 ⊕ Fin 3) (Fin 3 ⊕ Fin 3) ℝ
abbrev M4 := Matrix (Fin 4) (Fin 4) ℝ

/-- The code generated for one robot: `links` transforms between the base and the links, numbered from
one as in the look-up (robcogenHelpers.h:98-208, 235-343); `ee` end effectors with their homogeneous
transforms (robcogenHelpers.h:356-463) and the links they are declared to sit on
(robcogenHelpers.h:473-598). -/
structure Gen (Q : Type) where
  links : ℕ
  forceLinkBase : ℕ → Q → M6
  homBaseLink : ℕ → Q → M4
  ees : ℕ
  homBaseEE : ℕ → Q → M4
  isOnLink : ℕ → ℕ

variable {Q : Type}

/-- The matrix returned for link 0 from a 6 × 6 family: zero, with the identity written to the top right
3 × 3 corner (robcogenHelpers.h:227-234). -/
def linkZero6 : M6 := Matrix.fromBlocks 0 1 0 0

/-- The matrix returned for link 0 from a 4 × 4 family: zero, with the identity written to the top right
3 × 3 corner (robcogenHelpers.h:90-97). -/
def linkZero4 : M4 := !![0, 1, 0, 0; 0, 0, 1, 0; 0, 0, 0, 1; 0, 0, 0, 0]

/-- `getForceTransformLinkBaseById` (RobCoGenContainer.h:117-121; robcogenHelpers.h:221-352). -/
def Gen.getForceTransformLinkBaseById (g : Gen Q) (linkId : ℕ) (q : Q) : Res M6 :=
  if linkId = 0 then .ok linkZero6
  else if linkId ≤ g.links then .ok (g.forceLinkBase linkId q)
  else .exc

/-- `getHomogeneousTransformBaseLinkById` (RobCoGenContainer.h:100-104; robcogenHelpers.h:84-216). -/
def Gen.getHomogeneousTransformBaseLinkById (g : Gen Q) (linkId : ℕ) (q : Q) : Res M4 :=
  if linkId = 0 then .ok linkZero4
  else if linkId ≤ g.links then .ok (g.homBaseLink linkId q)
  else .exc

/-- `getHomogeneousTransformBaseEEById` (RobCoGenContainer.h:134-138; robcogenHelpers.h:357-471). -/
def Gen.getHomogeneousTransformBaseEEById (g : Gen Q) (eeId : ℕ) (q : Q) : Res M4 :=
  if eeId < g.ees then .ok (g.homBaseEE eeId q) else .exc

/-- `getEEPositionInBase` (RobCoGenContainer.h:172-175): the top right 3 × 1 corner. -/
def Gen.getEEPositionInBase (g : Gen Q) (eeId : ℕ) (q : Q) : Res V3 := do
  let T ← g.getHomogeneousTransformBaseEEById eeId q
  return fun i => T (i.castLE (by omega)) 3

/-- `getEERotInBase` (RobCoGenContainer.h:197-200): the top left 3 × 3 corner. -/
def Gen.getEERotInBase (g : Gen Q) (eeId : ℕ) (q : Q) : Res M3 := do
  let T ← g.getHomogeneousTransformBaseEEById eeId q
  return fun i j => T (i.castLE (by omega)) (j.castLE (by omega))

/-- `eeIdToLinkId` (robcogenHelpers.h:473-598). -/
def Gen.eeIdToLinkId (g : Gen Q) (eeId : ℕ) : Res ℕ :=
  if eeId < g.ees then .ok (g.isOnLink eeId) else .exc

/-- A `Kinematics` object: the generated code and the array of end effectors, each reduced to the link
it is on (Kinematics.h:361-363). -/
structure Kin (Q : Type) where
  gen : Gen Q
  endEffectors : List ℕ

/-- Construction with `initEndeffectors` (Kinematics.h:70-76); `n` is `NUM_EE`. -/
def Kin.new (g : Gen Q) (n : ℕ) : Res (Kin Q) := do
  let ees ← (List.range n).mapM g.eeIdToLinkId
  return ⟨g, ees⟩

/-- `getEndEffector(id).getLinkId()` (Kinematics.h:83; EndEffector-impl.h): an index outside the
`std::array` is undefined behaviour. -/
def Kin.linkOf (k : Kin Q) (id : ℕ) : Res ℕ :=
  match k.endEffectors[id]? with
  | some l => .ok l
  | none => .ub

/-- `setEndEffector` (Kinematics.h:89): the body is empty. -/
def Kin.setEndEffector (k : Kin Q) (_id : ℕ) (_ee : ℕ) : Kin Q := k

/-- `mapForceFromWorldToLink` with the position of the end effector given (Kinematics.h:296-314); `R` is
the rotation of `basePose`. -/
noncomputable def Kin.mapForceFromWorldToLinkAt (k : Kin Q) (W : Wrench) (R : M3) (q : Q) (B_x_EE : V3) (eeId : ℕ) :
    Res Wrench := do
  let linkId ← k.linkOf eeId
  let force := Rᵀ *ᵥ W.force
  let torque := cross B_x_EE force + Rᵀ *ᵥ W.torque
  let X ← k.gen.getForceTransformLinkBaseById linkId q
  return Wrench.ofVec (X *ᵥ (Wrench.toVec ⟨torque, force⟩))

/-- `mapForceFromWorldToLink` (Kinematics.h:275-284). -/
noncomputable def Kin.mapForceFromWorldToLink (k : Kin Q) (W : Wrench) (R : M3) (q : Q) (eeId : ℕ) : Res Wrench := do
  let B_x_EE ← k.gen.getEEPositionInBase eeId q
  k.mapForceFromWorldToLinkAt W R q B_x_EE eeId

/-- `mapForceFromWorldToLink3d` (Kinematics.h:255-264). -/
noncomputable def Kin.mapForceFromWorldToLink3d (k : Kin Q) (f : V3) (R : M3) (q : Q) (eeId : ℕ) : Res Wrench :=
  k.mapForceFromWorldToLink ⟨0, f⟩ R q eeId

/-- `mapForceFromEEToLink` (Kinematics.h:335-358); `Ree`, `x` are rotation and position of `T_B_EE`. -/
noncomputable def Kin.mapForceFromEEToLink (k : Kin Q) (E : Wrench) (Ree : M3) (x : V3) (q : Q) (eeId : ℕ) :
    Res Wrench := do
  let linkId ← k.linkOf eeId
  let force := Ree *ᵥ E.force
  let torque := cross x force + Ree *ᵥ E.torque
  let X ← k.gen.getForceTransformLinkBaseById linkId q
  return Wrench.ofVec (X *ᵥ (Wrench.toVec ⟨torque, force⟩))

end CT.ForceMap
