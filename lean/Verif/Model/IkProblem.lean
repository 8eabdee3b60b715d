import Verif.Model.NlpSolver
import Verif.Model.Taskspace
import Verif.Model.IK

/-!
# The inverse kinematics problem as a nonlinear program

Models `IKNLP.h`, `IKConstraintContainer.h`, `JointLimitConstraints.h` and, on top of the adapter of IPOPT (`Model/NlpSolver.lean`),
the retry loop of `IKNLPSolverIpopt.h` (all in `ct_rbd/include/ct/rbd/robot/kinematics/ik_nlp`).  The cost evaluator is that of
`Model/Taskspace.lean`.

Simplifications.  Scalars are real numbers.  IPOPT is a parameter: the callbacks it makes, the point it hands over and the status it
returns.  The validation of a solution by forward kinematics is a parameter here (see C89).
-/

namespace CT.IkProb

open CT.Nlp CT.NlpSolver CT.Taskspace

/-- A vector of dynamic size as `JointPosition` (IKNLP.h:54). -/
def vec (n : ℕ) (x : List ℝ) : Fin n → ℝ := fun i => x.getD i 0

/-- `JointLimitConstraints` at the variables `x` (JointLimitConstraints.h:34-59, 74-77); the values are copied into a vector of fixed
size (80). -/
noncomputable def jointLimits (n : ℕ) (lower upper : Fin n → ℝ) (x : List ℝ) : Nlp.Con ℝ where
  eval := List.ofFn (vec n x)
  jac := List.replicate n 1
  size := n
  nnz := n
  rows := List.range n
  cols := List.range n
  lb := List.ofFn lower
  ub := List.ofFn upper

/-- Its part of the Hessian: `genSparsityPatternHessian` and `sparseHessianValues` do nothing (JointLimitConstraints.h:62-72) to
vectors that are empty (DiscreteConstraintContainerBase.h:193, 242-243). -/
def jointLimitsHess (n : ℕ) : HessCon ℝ := ⟨n, [], fun _ => []⟩

/-- What an `IKCostEvaluator` computes at joint positions, for its present target: `eval`, `evalGradient` and the matrix of
`sparseHessianValues` for the objective factor 1 (IKCostEvaluator.h:100-183). -/
structure Evaluator (n : ℕ) where
  cost : (Fin n → ℝ) → ℝ
  grad : (Fin n → ℝ) → Fin n → ℝ
  hess : (Fin n → ℝ) → Matrix (Fin n) (Fin n) ℝ

variable {n : ℕ}

/-- `sparseHessianValues` (IKCostEvaluator.h:158-183): the matrix is stored by columns. -/
def Evaluator.hessValues (E : Evaluator n) (q : Fin n → ℝ) (objFac : ℝ) : List ℝ :=
  (List.finRange n).flatMap fun j => (List.finRange n).map fun i => objFac * E.hess q i j

/-- `Nlp::evaluateHessian` (Nlp.h:124-170) never fails here (`hessian_ok` in the proofs); the other case is not reached. -/
noncomputable def orEmpty : Res (List ℝ) → List ℝ
  | .ok v => v
  | _ => []

/-- The program an `IKNLP` stands for (IKNLP.h:31-48, IKConstraintContainer.h:27-42). `read x` are the variables the evaluator looks
at when those of the program are `x`: the evaluator has its own pointer to a vector of variables. `updateProblem`
(IKNLP.h:52) does nothing. -/
noncomputable def program (E : Evaluator n) (lower upper : Fin n → ℝ) (read : List ℝ → List ℝ) : Prob ℝ Unit where
  update _ := ()
  cost x _ := E.cost (vec n (read x))
  grad x _ := List.ofFn (E.grad (vec n (read x)))
  cons x _ := [jointLimits n lower upper x]
  hess x _ objFac lambda :=
    orEmpty (evaluateHessian (IK.sparsity n) (E.hessValues (vec n (read x)) objFac) [jointLimitsHess n] lambda)
  hessPattern := nlpPattern (IK.sparsity n) [jointLimitsHess n]

/-! ### Objects -/

/-- An `IKNLP` object: the evaluator it was given, the limits, its variables. -/
structure Problem (n : ℕ) where
  evaluator : ℕ
  lower : Fin n → ℝ
  upper : Fin n → ℝ
  vars : OptVec ℝ

/-- Evaluators and problems of a program. `w e` is the problem to whose variables the pointer `w_` of evaluator `e` refers. -/
structure World (n : ℕ) where
  evals : ℕ → Evaluator n
  w : ℕ → Option ℕ
  problems : List (Problem n)

/-- Constructor of `IKNLP` (IKNLP.h:31-48): new variables, all zero, to which the pointer of the evaluator is set. `lowest` and `max`
are the bounds of the number type. -/
noncomputable def World.create (W : World n) (lowest max : ℝ) (e : ℕ) (lower upper : Fin n → ℝ) : World n :=
  { W with
    w := Function.update W.w e (some W.problems.length)
    problems := W.problems ++ [⟨e, lower, upper, (OptVec.new lowest max n).setZero⟩] }

/-- `IKNLP::setInitialGuess` (IKNLP.h:62). -/
def World.setInitialGuess (W : World n) (k : ℕ) (q : Fin n → ℝ) : World n :=
  { W with problems := W.problems.modify k fun p => { p with vars := p.vars.setInitialGuess (List.ofFn q) } }

/-- The variables the evaluator of problem `k` looks at, if those of the problem are `x`. An evaluator without variables throws
(C146); that of an existing problem has some. -/
def World.read (W : World n) (k e : ℕ) (x : List ℝ) : List ℝ :=
  match W.w e with
  | none => x
  | some k' => if k' = k then x else (W.problems[k']?.map fun p => p.vars.x).getD x

/-- The program problem `k` stands for. -/
noncomputable def World.program (W : World n) (k : ℕ) (p : Problem n) : Prob ℝ Unit :=
  IkProb.program (W.evals p.evaluator) p.lower p.upper (W.read k p.evaluator)

/-! ### Solving -/

/-- Randomised initial guess (IKNLPSolverIpopt.h:93-98). -/
def randomGuess (lower upper : Fin n → ℝ) (noise : Fin n → ℝ) : List ℝ :=
  List.ofFn fun i => lower i + (upper i - lower i) * noise i

/-- `setInitialGuess` (IKNLPSolverIpopt.h:64-70, IKNLP.h:62). -/
def setGuess (s : State ℝ Unit) (g : List ℝ) : State ℝ Unit := { s with vars := s.vars.setInitialGuess g }

/-- Loop of `computeInverseKinematics` (IKNLPSolverIpopt.h:84-121); the recursion is on the number of trials left. `solver k s` is the
run of IPOPT in trial `k` from the state `s`; the result of `solve` (104) is not used. -/
noncomputable def trials (p : Prob ℝ Unit) (lower upper : Fin n → ℝ) (near : List ℝ → Bool) (randomize : Bool)
    (noise : ℕ → Fin n → ℝ) (solver : ℕ → State ℝ Unit → IpoptRun ℝ) :
    (left count : ℕ) → State ℝ Unit → Res (List (List ℝ) × Bool × State ℝ Unit)
  | 0, _, s => .ok ([], false, s)
  | left + 1, count, s => do
    let s := if randomize && count != 0 then setGuess s (randomGuess lower upper (noise count)) else s
    let (s, _) ← ipoptSolve p s (solver count s)
    if near s.vars.x then pure ([s.vars.x], true, s)
    else trials p lower upper near randomize noise solver left (count + 1) s

/-- `computeInverseKinematics` in base coordinates (IKNLPSolverIpopt.h:72-122). `evs target` is the evaluator with this target
(`setTargetPose`, 82). -/
noncomputable def compute {T : Type} (evs : T → Evaluator n) (lower upper : Fin n → ℝ) (near : T → List ℝ → Bool)
    (st : IK.Settings) (noise : ℕ → Fin n → ℝ) (solver : ℕ → State ℝ Unit → IpoptRun ℝ) (target : T) (s : State ℝ Unit) :
    Res (List (List ℝ) × Bool × State ℝ Unit) :=
  trials (program (evs target) lower upper id) lower upper (near target) st.randomize noise solver st.maxTrials 0 s

/-! ### Targets -/

/-- `setTargetPose` with position and quaternion (IKCostEvaluator.h:83-87). With a pose (76-80) the quaternion is that of the pose. -/
noncomputable def setTarget (g : Geo) (p : Fin 3 → ℝ) (q : FloatSys.Q4) : Geo :=
  (g.setReferencePosition p).setReferenceOrientation q

/-- `setTargetPose` with position and Euler angles (IKCostEvaluator.h:90-97): the angles are the first three entries of a matrix with
three columns, stored by columns. -/
noncomputable def setTargetEuler (g : Geo) (p : Fin 3 → ℝ) (m : Matrix (Fin 3) (Fin 3) ℝ) : Geo :=
  (g.setReferencePosition p).setReferenceOrientation
    (FloatSys.quatMul (FloatSys.quatMul (FloatSys.axisQuat (m 0 0) ![1, 0, 0]) (FloatSys.axisQuat (m 1 0) ![0, 1, 0]))
      (FloatSys.axisQuat (m 2 0) ![0, 0, 1]))

end CT.IkProb
