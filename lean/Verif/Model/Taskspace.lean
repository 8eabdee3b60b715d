import Verif.Model.Lookup
import Verif.Model.FloatingSystem

/-!
# Task-space cost terms and the cost of the inverse kinematics problem

Models `ct_rbd/include/ct/rbd/robot/costfunction/TermTaskspaceGeometricJacobian.hpp`, `TermTaskspacePose.hpp`,
`TermTaskspacePosition.hpp` and `ct_rbd/include/ct/rbd/robot/kinematics/ik_nlp/IKCostEvaluator.h`.

Simplifications: scalars are real numbers (also for the terms that are evaluated with automatic differentiation
scalars); names and output are left out.  The conversions of Eigen between rotation matrices, quaternions and
angle-axis are parameters.  The generated transforms and Jacobians of the robot are looked up by
number as in `CT.Lookup`; `h` is the history of the objects of the generated code.
-/

namespace CT.Taskspace

open Matrix FrameJac FloatSys Lookup

/-- The conversions of Eigen: `Quaterniond(matrix)` and `AngleAxis(quaternion)`, as angle and axis. -/
structure EigenRot where
  toQuat : M3 → Q4
  toAngleAxis : Q4 → ℝ × V3

/-- `Quaterniond::inverse()`: conjugate divided by the squared norm. -/
noncomputable def quatInv (q : Q4) : Q4 :=
  let n := q 0 * q 0 + q 1 * q 1 + q 2 * q 2 + q 3 * q 3
  ![q 0 / n, -q 1 / n, -q 2 / n, -q 3 / n]

/-- `Quaterniond::normalized()`. -/
noncomputable def quatNormalized (q : Q4) : Q4 :=
  let n := Real.sqrt (q 0 * q 0 + q 1 * q 1 + q 2 * q 2 + q 3 * q 3)
  ![q 0 / n, q 1 / n, q 2 / n, q 3 / n]

/-- The histories of the transforms and of the Jacobians of the kinematics object. -/
structure Hists where
  X : Hist
  J : Hist

/-! ### TermTaskspaceGeometricJacobian -/

/-- The members (TermTaskspaceGeometricJacobian.hpp:312-324). -/
structure Geo where
  eeInd : ℕ
  Qpos : M3
  Qrot : M3
  xRef : V3
  RRef : M3

/-- `setReferencePosition` (TermTaskspaceGeometricJacobian.hpp:291). -/
def Geo.setReferencePosition (g : Geo) (p : V3) : Geo := { g with xRef := p }

/-- `setReferenceOrientation` of a quaternion (TermTaskspaceGeometricJacobian.hpp:298-301). -/
noncomputable def Geo.setReferenceOrientation (g : Geo) (q : Q4) : Geo := { g with RRef := quatMatrix (quatNormalized q) }

variable {S : ℕ}

/-- `x.head<NJOINTS>()` as joint positions by number. -/
def joints (N : ℕ) (x : Fin S → ℝ) : ℕ → ℝ := fun j => if h : j < S ∧ j < N then x ⟨j, h.1⟩ else 0

/-- The orientation error, axis times angle (TermTaskspaceGeometricJacobian.hpp:146-153, 184-191). -/
noncomputable def Geo.qDiff (g : Geo) (er : EigenRot) (eeRot : M3) : V3 :=
  let a := er.toAngleAxis (quatMul (er.toQuat eeRot) (quatInv (er.toQuat g.RRef)))
  a.1 • a.2

/-- `evaluate` (TermTaskspaceGeometricJacobian.hpp:130-158).  The base pose is that of a state object just created:
position zero, identity (RBDState.h:42-46). -/
noncomputable def Geo.evaluate (g : Geo) (er : EigenRot) (d : Defs) (h : Hists) (x : Fin S → ℝ) : Res ℝ := do
  let q := joints d.njoints x
  let xCurr ← d.getEEPositionInWorld h.X g.eeInd 0 1 q
  let xDiff := xCurr - g.xRef
  let posCost := (1 / 2 : ℝ) * ((xDiff ᵥ* g.Qpos) ⬝ᵥ xDiff)
  let eeRot ← d.getEERotInBase h.X g.eeInd q
  let qDiff := g.qDiff er eeRot
  let rotCost := (1 / 2 : ℝ) * ((qDiff ᵥ* g.Qrot) ⬝ᵥ qDiff)
  return posCost + rotCost

/-- `J.bottomRows<3>()`. -/
def bottom {N : ℕ} (J : Matrix (Fin 6) (Fin N) ℝ) : Matrix (Fin 3) (Fin N) ℝ := J.submatrix ![3, 4, 5] id

/-- `J.topRows<3>()`. -/
def topRows {N : ℕ} (J : Matrix (Fin 6) (Fin N) ℝ) : Matrix (Fin 3) (Fin N) ℝ := J.submatrix ![0, 1, 2] id

/-- A vector of zeros whose first `N` entries are `v`. -/
def setHead {N : ℕ} (v : Fin N → ℝ) : Fin S → ℝ := fun i => if h : i.1 < N then v ⟨i.1, h⟩ else 0

/-- `stateDerivative` (TermTaskspaceGeometricJacobian.hpp:162-197). -/
noncomputable def Geo.stateDerivative (g : Geo) (er : EigenRot) (d : Defs) (h : Hists) (x : Fin S → ℝ) :
    Res (Fin S → ℝ) := do
  let q := joints d.njoints x
  let J ← d.getJacobianBaseEEbyId h.J g.eeInd q
  let xCurr ← d.getEEPositionInWorld h.X g.eeInd 0 1 q
  let xDiff := xCurr - g.xRef
  let eeRot ← d.getEERotInBase h.X g.eeInd q
  let qDiff := g.qDiff er eeRot
  return setHead (((bottom J)ᵀ * g.Qpos) *ᵥ xDiff + ((topRows J)ᵀ * g.Qrot) *ᵥ qDiff)

/-- `stateSecondDerivative` (TermTaskspaceGeometricJacobian.hpp:208-224). -/
noncomputable def Geo.stateSecondDerivative (g : Geo) (d : Defs) (h : Hists) (x : Fin S → ℝ) :
    Res (Matrix (Fin S) (Fin S) ℝ) := do
  let J ← d.getJacobianBaseEEbyId h.J g.eeInd (joints d.njoints x)
  let Q := (bottom J)ᵀ * g.Qpos * bottom J + (topRows J)ᵀ * g.Qrot * topRows J
  return Matrix.of fun i j => if hij : i.1 < d.njoints ∧ j.1 < d.njoints then Q ⟨i.1, hij.1⟩ ⟨j.1, hij.2⟩ else 0

/-! ### TermTaskspacePose and TermTaskspacePosition -/

/-- The members of `TermTaskspacePose` (TermTaskspacePose.hpp:264-279). -/
structure PoseTerm where
  eeInd : ℕ
  Qpos : M3
  Qrot : ℝ
  pRef : V3
  RRef : M3

/-- Positions by number of a vector of joint positions. -/
def byNumber {n : ℕ} (q : Fin n → ℝ) : ℕ → ℝ := fun j => if h : j < n then q ⟨j, h⟩ else 0

/-- `setStateFromVector` (TermTaskspacePose.hpp:202-227, TermTaskspacePosition.hpp:130-149): a state object just
created, of which with a floating base everything and otherwise the joints are set from the vector. -/
def stateFrom (kd : Kindr) (n : ℕ) (FB : Bool) (x : List ℝ) : Robot.RBD ℝ n :=
  if FB then (RBD.blank n true).fromStateVectorEulerXyz kd.conv x
  else { RBD.blank n true with joints := ⟨Robot.seg x 0 n, Robot.seg x n n⟩ }

/-- `evalLocal` (TermTaskspacePose.hpp:229-261); the squared norm of a matrix is the sum of the squares of its entries. -/
noncomputable def PoseTerm.evaluate (p : PoseTerm) (kd : Kindr) (d : Defs) (FB : Bool) (h : Hists) (x : List ℝ) : Res ℝ := do
  let s := stateFrom kd d.njoints FB x
  let q := byNumber s.joints.pos
  let xCurr ← d.getEEPositionInWorld h.X p.eeInd s.pose.position (rotationMatrix kd s.pose) q
  let xDiff := xCurr - p.pRef
  let posCost := (xDiff ᵥ* p.Qpos) ⬝ᵥ xDiff
  let eeRot ← d.getEERotInWorld h.X p.eeInd (rotationMatrix kd s.pose) q
  let diff := p.RRefᵀ * eeRot - 1
  let rotCost := p.Qrot * ∑ i, ∑ j, diff i j ^ 2
  return posCost + rotCost

/-- What the base class `TermBase` of a term holds of its activation in time (TermBase-impl.hpp:13-23): the
activation, which is always 1 unless it was set. -/
abbrev Activation := ℝ → ℝ

/-- `TermTaskspacePosition` (TermTaskspacePosition.hpp:152-161) with its base class. -/
structure PosTerm where
  eeInd : ℕ
  Q : M3
  pRef : V3
  activation : Activation

/-- The constructor (TermTaskspacePosition.hpp:45-62). -/
def PosTerm.new (eeInd : ℕ) (Q : M3) (pRef : V3) : PosTerm := ⟨eeInd, Q, pRef, fun _ => 1⟩

/-- `evalLocal` (TermTaskspacePosition.hpp:114-127). -/
noncomputable def PosTerm.evaluate (p : PosTerm) (kd : Kindr) (d : Defs) (FB : Bool) (h : Hists) (x : List ℝ) : Res ℝ := do
  let s := stateFrom kd d.njoints FB x
  let xCurr ← d.getEEPositionInWorld h.X p.eeInd s.pose.position (rotationMatrix kd s.pose) (byNumber s.joints.pos)
  let xDiff := xCurr - p.pRef
  return (xDiff ᵥ* p.Q) ⬝ᵥ xDiff

/-- `TermBase::eval` (TermBase-impl.hpp:32-38). -/
noncomputable def PosTerm.eval (p : PosTerm) (kd : Kindr) (d : Defs) (FB : Bool) (h : Hists) (x : List ℝ) (t : ℝ) : Res ℝ := do
  let c ← p.evaluate kd d FB h x
  return p.activation t * c

/-- The copy constructor, which does not pass its argument to the base class, and `clone`
(TermTaskspacePosition.hpp:69-81). -/
def PosTerm.clone (p : PosTerm) : PosTerm := ⟨p.eeInd, p.Q, p.pRef, fun _ => 1⟩

/-! ### IKCostEvaluator -/

/-- The members of `IKCostEvaluator` (IKCostEvaluator.h:187-194): optimisation variables (absent if no vector was
set), goal term, an optional quadratic term in the joint positions, of which value, gradient and Hessian are used, and
an optional regularizer. -/
structure IK (N : ℕ) where
  w : Option (Fin N → ℝ)
  goal : Geo
  jointRef : Option (((Fin N → ℝ) → ℝ) × ((Fin N → ℝ) → Fin N → ℝ) × ((Fin N → ℝ) → Matrix (Fin N) (Fin N) ℝ))
  regularizer : Option ((Fin N → ℝ) → Matrix (Fin N) (Fin N) ℝ)

variable {N : ℕ}

/-- `eval` (IKCostEvaluator.h:100-115). -/
noncomputable def IK.eval (k : IK N) (er : EigenRot) (d : Defs) (h : Hists) : Res ℝ :=
  match k.w with
  | none => .exc
  | some w => do
    let v ← k.goal.evaluate er d h w
    return match k.jointRef with
      | none => v
      | some r => v + r.1 w

/-- `evalGradient` (IKCostEvaluator.h:118-133). -/
noncomputable def IK.evalGradient (k : IK N) (er : EigenRot) (d : Defs) (h : Hists) : Res (Fin N → ℝ) :=
  match k.w with
  | none => .exc
  | some w => do
    let v ← k.goal.stateDerivative er d h w
    return match k.jointRef with
      | none => v
      | some r => v + r.2.1 w

/-- `getSparsityPatternHessian` (IKCostEvaluator.h:138-153): rows and columns. -/
def IK.sparsity (N : ℕ) : List (ℕ × ℕ) := (List.range N).flatMap fun i => (List.range N).map fun j => (i, j)

/-- `sparseHessianValues` (IKCostEvaluator.h:158-183): the values in the order of Eigen's storage by columns. -/
noncomputable def IK.hessianValues (k : IK N) (d : Defs) (h : Hists) (objFac : ℝ) : Res (List ℝ) :=
  match k.w with
  | none => .exc
  | some w => do
    let H ← k.goal.stateSecondDerivative d h w
    let H := match k.jointRef with
      | none => H
      | some r => H + r.2.2 w
    let H := match k.regularizer with
      | none => H
      | some r => H + r w
    let H := objFac • H
    return (List.finRange N).flatMap fun j => (List.finRange N).map fun i => H i j

end CT.Taskspace
