import Verif.Model.GenKin
import Verif.Model.FrameJac
import Verif.Model.Res
import Mathlib.Data.Matrix.Mul

/-!
# Look-up of transforms and Jacobians by number

Models `ct_rbd/include/ct/rbd/robot/robcogen/robcogenHelpers.h`, which is compiled once for every robot with the
names of its frames defined as macros, the queries of `ct_rbd/include/ct/rbd/robot/RobCoGenContainer.h` and those of
`ct_rbd/include/ct/rbd/robot/Kinematics.h`.

Simplifications: scalars are real numbers; the rotation of a base pose is its rotation matrix (see
`CT.FrameJac`); the `pose` query, which returns the same matrix as position and Euler angles or quaternion, is left
out.
-/

namespace CT.Lookup

open GenKin FrameJac

/-- The history of an object of the generated code: what its memory contained before construction, and the
arguments of the calls of `update` so far. -/
structure Hist where
  z : Mem
  calls : List (ℕ → ℝ)

/-- `object.update(q)`, of which the matrix is then used. -/
noncomputable def call (g : Gen) (h : Hist) (q : ℕ → ℝ) : Mem := g.update (g.after h.z h.calls) q

/-- The macros for an end effector: `CT_EEn` as the transform `base_X_ee` and the Jacobian `base_J_ee`,
`CT_EEn_IS_ON_LINK`, `CT_EEn_FIRST_JOINT` and `CT_EEn_LAST_JOINT` (for example HyA/HyA.h:36-39). -/
structure EndEff where
  X : Trans
  J : Jac
  link : ℕ
  first : ℕ
  last : ℕ

/-- The macros of a robot: `CT_Ln` as the transforms `base_X_link` and `link_X_base`, and the end effectors (for
example HyA/HyA.h:26-39). -/
structure Defs where
  njoints : ℕ
  links : List (Trans × Trans)
  ees : List EndEff

/-- The matrix returned for link 0: zero, with ones on the diagonal of the 3 × 3 corner at the top right
(robcogenHelpers.h:90-97, 227-234). -/
def corner (n : ℕ) : Matrix (Fin n) (Fin n) ℝ := fun i j => if i.1 < 3 ∧ j.1 + 3 = n + i.1 then 1 else 0

/-- `getHomogeneousTransformBaseLinkById` (RobCoGenContainer.h:100-104; robcogenHelpers.h:84-216). -/
noncomputable def Defs.getHomogeneousTransformBaseLinkById (d : Defs) (h : Hist) (id : ℕ) (q : ℕ → ℝ) :
    Res (Matrix (Fin 4) (Fin 4) ℝ) :=
  match id with
  | 0 => .ok (corner 4)
  | i + 1 => match d.links[i]? with
    | some x => .ok fun a b => call x.1.hom h q a b
    | none => .exc

/-- `getForceTransformLinkBaseById` (RobCoGenContainer.h:117-121; robcogenHelpers.h:221-352). -/
noncomputable def Defs.getForceTransformLinkBaseById (d : Defs) (h : Hist) (id : ℕ) (q : ℕ → ℝ) :
    Res (Matrix (Fin 6) (Fin 6) ℝ) :=
  match id with
  | 0 => .ok (corner 6)
  | i + 1 => match d.links[i]? with
    | some x => .ok fun a b => call x.2.force h q a b
    | none => .exc

/-- `getHomogeneousTransformBaseEEById` (RobCoGenContainer.h:134-138; robcogenHelpers.h:357-471). -/
noncomputable def Defs.getHomogeneousTransformBaseEEById (d : Defs) (h : Hist) (ee : ℕ) (q : ℕ → ℝ) :
    Res (Matrix (Fin 4) (Fin 4) ℝ) :=
  match d.ees[ee]? with
  | some e => .ok fun a b => call e.X.hom h q a b
  | none => .exc

/-- `eeIdToLinkId` (robcogenHelpers.h:473-598). -/
def Defs.eeIdToLinkId (d : Defs) (ee : ℕ) : Res ℕ :=
  match d.ees[ee]? with
  | some e => .ok e.link
  | none => .exc

/-- `getJacobianBaseEEbyId` (RobCoGenContainer.h:147-150; robcogenHelpers.h:603-758): the generated Jacobian becomes
the block of the columns `first` to `last` of a zero matrix.  A block of another size than the Jacobian, or outside
the matrix, is undefined behaviour here (in the code an assertion, at compile time for the size). -/
noncomputable def Defs.getJacobianBaseEEbyId (d : Defs) (h : Hist) (ee : ℕ) (q : ℕ → ℝ) :
    Res (Matrix (Fin 6) (Fin d.njoints) ℝ) :=
  match d.ees[ee]? with
  | some e =>
    if e.J.gen.cols + e.first = e.last + 1 ∧ e.last < d.njoints then
      .ok fun i j => if e.first ≤ j.1 ∧ j.1 ≤ e.last then call e.J.gen h q i (j.1 - e.first) else 0
    else .ub
  | none => .exc

/-- `getEEPositionInBase` (RobCoGenContainer.h:172-175): the 3 × 1 corner at the top right. -/
noncomputable def Defs.getEEPositionInBase (d : Defs) (h : Hist) (ee : ℕ) (q : ℕ → ℝ) : Res V3 := do
  let T ← d.getHomogeneousTransformBaseEEById h ee q
  return fun i => T (i.castLE (by omega)) 3

/-- `getEERotInBase` (RobCoGenContainer.h:197-200): the 3 × 3 corner at the top left. -/
noncomputable def Defs.getEERotInBase (d : Defs) (h : Hist) (ee : ℕ) (q : ℕ → ℝ) : Res M3 := do
  let T ← d.getHomogeneousTransformBaseEEById h ee q
  return fun i j => T (i.castLE (by omega)) (j.castLE (by omega))

/-- `getEEPositionInWorld` (Kinematics.h:180-192); `r` and `R` are the position and the rotation of the base. -/
noncomputable def Defs.getEEPositionInWorld (d : Defs) (h : Hist) (ee : ℕ) (r : V3) (R : M3) (q : ℕ → ℝ) : Res V3 := do
  let p ← d.getEEPositionInBase h ee q
  return eePositionInWorld r R p

/-- `getEERotInWorld` (Kinematics.h:213-222). -/
noncomputable def Defs.getEERotInWorld (d : Defs) (h : Hist) (ee : ℕ) (R : M3) (q : ℕ → ℝ) : Res M3 := do
  let p ← d.getEERotInBase h ee q
  return eeRotInWorld R p

/-- `getEEVelocityInBase` (Kinematics.h:112-127); `hJ`, `hX` are the histories of the Jacobian and of the transform,
`ω` and `v` the velocities of the base, `qd` those of the joints. -/
noncomputable def Defs.getEEVelocityInBase (d : Defs) (hJ hX : Hist) (ee : ℕ) (ω v : V3) (q qd : ℕ → ℝ) : Res V3 := do
  let J ← d.getJacobianBaseEEbyId hJ ee q
  let p ← d.getEEPositionInBase hX ee q
  return eeVelocityInBase (fun i k => J (i.natAdd 3) k) p ω v fun k : Fin d.njoints => qd k

/-- `getEEVelocityInWorld` (Kinematics.h:129-133). -/
noncomputable def Defs.getEEVelocityInWorld (d : Defs) (hJ hX : Hist) (ee : ℕ) (R : M3) (ω v : V3) (q qd : ℕ → ℝ) :
    Res V3 := do
  let u ← d.getEEVelocityInBase hJ hX ee ω v q qd
  return R.mulVec u

end CT.Lookup
