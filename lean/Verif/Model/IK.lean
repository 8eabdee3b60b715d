import Verif.Model.Res
import Mathlib.Data.Real.Basic
import Mathlib.Algebra.GroupWithZero.Action.Defs

/-!
# Inverse kinematics

Models `ct_rbd/include/ct/rbd/robot/kinematics/InverseKinematicsBase.h`, the retry loop of
`ct_rbd/include/ct/rbd/robot/kinematics/ik_nlp/IKNLPSolverIpopt.h` and the pose comparison and
change of reference frame of `ct_rbd/include/ct/rbd/state/RigidBodyPose.h`.  Scalars are the reals.
The nonlinear program and its solver (Ipopt), the forward kinematics and the rotation arithmetic of
kindr are parameters.
-/

namespace CT.IK

/-! ### The closest solution -/

/-- Loop of `computeInverseKinematicsCloseTo` (InverseKinematicsBase.h:92-99) over the solutions
from index 1 on; `dist` is the norm of the difference to the query.  Returns `ikSolution`, `minNorm`. -/
noncomputable def closeLoop {Q : Type} (dist : Q → ℝ) (l : List Q) (best : Q) (minNorm : ℝ) : Q × ℝ :=
  l.foldl (fun s q => if dist q < s.2 then (q, dist q) else s) (best, minNorm)

/-- `computeInverseKinematicsCloseTo` (InverseKinematicsBase.h:75-101): `has` and `sols` are what
`computeInverseKinematics` returned, `old` the previous value of the output argument. -/
noncomputable def closeTo {Q : Type} (dist : Q → ℝ) (has : Bool) (sols : List Q) (old : Q) : Res (Bool × Q) :=
  if !has then .ok (false, old)
  else match sols with
    | [] => .ub
    | q :: rest => .ok (true, (closeLoop dist rest q (dist q)).1)

/-! ### Poses -/

/-- A pose: rotation and position.  `RigidBodyPose` stores the rotation as Euler angles or as a
quaternion; here it is the rotation itself. -/
structure Pose (G V : Type) where
  rot : G
  pos : V

section Frames
variable {G V : Type} [Group G] [AddCommGroup V] [DistribMulAction G V]

/-- `setIdentity` (RigidBodyPose.h:390-395). -/
def Pose.identity : Pose G V := ⟨1, 0⟩

/-- `inReferenceFrame` (RigidBodyPose.h:256-278); the four branches differ only in how the two
rotations are stored. -/
def Pose.inReferenceFrame (p ref : Pose G V) : Pose G V := ⟨ref.rot⁻¹ * p.rot, ref.rot⁻¹ • (p.pos - ref.pos)⟩

end Frames

/-- Squared norm of a position. -/
def sq (v : Fin 3 → ℝ) : ℝ := v 0 * v 0 + v 1 * v 1 + v 2 * v 2

open Classical in
/-- Eigen's `isApprox` on vectors, used by `isNear` (RigidBodyPose.h:108-112): a *relative*
comparison, ‖a − b‖² ≤ tol² min(‖a‖², ‖b‖²). -/
noncomputable def isApprox (a b : Fin 3 → ℝ) (tol : ℝ) : Bool :=
  decide (sq (a - b) ≤ tol * tol * min (sq a) (sq b))

/-- `isNear` (RigidBodyPose.h:108-112); the comparison of rotations is kindr's. -/
noncomputable def isNear {G : Type} (rotNear : G → G → ℝ → Bool) (a b : Pose G (Fin 3 → ℝ)) (tol : ℝ) : Bool :=
  rotNear a.rot b.rot tol && isApprox a.pos b.pos tol

/-! ### Retries -/

/-- What the retry loop works with: the state `S` of the nonlinear program, `setTargetPose`,
`setInitialGuess`, `solve`, `getSolution`, the validation `forwardEval.isNear(target, tol)` and the
joint limits.  Vectors over `n` joints. -/
structure Env (S T : Type) (n : ℕ) where
  setTarget : S → T → S
  setGuess : S → (Fin n → ℝ) → S
  solve : S → S
  solution : S → Fin n → ℝ
  near : (Fin n → ℝ) → T → Bool
  lower : Fin n → ℝ
  upper : Fin n → ℝ

/-- `InverseKinematicsSettings` (InverseKinematicsBase.h:15-21) without the tolerance, which is part
of `near`. -/
structure Settings where
  maxTrials : ℕ
  randomize : Bool

/-- Defaults (InverseKinematicsBase.h:17). -/
def Settings.default : Settings := ⟨1, true⟩

variable {S T : Type} {n : ℕ}

/-- Randomised initial guess (IKNLPSolverIpopt.h:93-98). -/
def Env.randomGuess (E : Env S T n) (noise : Fin n → ℝ) : Fin n → ℝ :=
  fun i => E.lower i + (E.upper i - E.lower i) * noise i

/-- Loop of `computeInverseKinematics` (IKNLPSolverIpopt.h:84-119).  `noise k` is the vector drawn
in the trial with `count = k`; `sols` the list of solutions; the recursion is on the number of
trials left, `count < maxNumTrials_`. -/
def Env.trials (E : Env S T n) (randomize : Bool) (noise : ℕ → Fin n → ℝ) (target : T) :
    (left count : ℕ) → S → List (Fin n → ℝ) → List (Fin n → ℝ) × Bool × S
  | 0, _, s, sols => (sols, false, s)
  | left + 1, count, s, sols =>
    let s := if randomize && count != 0 then E.setGuess s (E.randomGuess (noise count)) else s
    let s := E.solve s
    let sol := E.solution s
    if E.near sol target then (sols ++ [sol], true, s)
    else E.trials randomize noise target left (count + 1) s sols

/-- `computeInverseKinematics` in base coordinates (IKNLPSolverIpopt.h:72-122): list of solutions
(cleared first), found, state of the program. -/
def Env.compute (E : Env S T n) (st : Settings) (noise : ℕ → Fin n → ℝ) (s : S)
    (_ikSolutions : List (Fin n → ℝ)) (target : T) : List (Fin n → ℝ) × Bool × S :=
  E.trials st.randomize noise target st.maxTrials 0 (E.setTarget s target) []

/-- `computeInverseKinematics` in world coordinates (IKNLPSolverIpopt.h:124-130). -/
def Env.computeWorld {G V : Type} [Group G] [AddCommGroup V] [DistribMulAction G V] (E : Env S (Pose G V) n)
    (st : Settings) (noise : ℕ → Fin n → ℝ) (s : S) (ikSolutions : List (Fin n → ℝ)) (eeWorld baseWorld : Pose G V) :
    List (Fin n → ℝ) × Bool × S :=
  E.compute st noise s ikSolutions (eeWorld.inReferenceFrame baseWorld)

/-- Both together, as called by `computeInverseKinematicsCloseTo` with a world pose. -/
noncomputable def Env.closeToWorld {G V : Type} [Group G] [AddCommGroup V] [DistribMulAction G V]
    (E : Env S (Pose G V) n) (st : Settings) (noise : ℕ → Fin n → ℝ) (s : S) (dist : (Fin n → ℝ) → ℝ)
    (eeWorld baseWorld : Pose G V) (old : Fin n → ℝ) : Res (Bool × (Fin n → ℝ)) :=
  let r := E.computeWorld st noise s [] eeWorld baseWorld
  closeTo dist r.2.1 r.1 old

/-- The overload taking the pose in base coordinates (InverseKinematicsBase.h:110-120). -/
noncomputable def Env.closeToBase {G V : Type} [Group G] [AddCommGroup V] [DistribMulAction G V]
    (E : Env S (Pose G V) n) (st : Settings) (noise : ℕ → Fin n → ℝ) (s : S) (dist : (Fin n → ℝ) → ℝ)
    (eeBase : Pose G V) (old : Fin n → ℝ) : Res (Bool × (Fin n → ℝ)) :=
  E.closeToWorld st noise s dist eeBase Pose.identity old

end CT.IK
