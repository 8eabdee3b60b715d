import Verif.Model.Cost
import Verif.Model.Riccati

/-!
# Linear-quadratic approximation of an optimal control problem

`ct_optcon/include/ct/optcon/nloc/NLOCBackendBase-impl.hpp` (`executeLQApproximation`, the cost part of
`initializeCostToGo`, `computeCostsOfTrajectory`, `doFullStepUpdate`), `nloc/NLOCBackendST-impl.hpp`
(`computeLQApproximation`) and `problem/LQOCProblem-impl.hpp` (`setFromTimeInvariantLinearQuadraticProblem`).
Scalars are real numbers; arrays are functions of the stage index (their sizes are subject of C54, C59 and
C101). The constraint parts of the same functions are in `Model/Lqoc.lean`. Cost functions are the analytical
ones of `Model/Cost.lean`; one cost function object serves all stages, as in the single-threaded backend
(`costFunctions_[settings_.nThreads]`).
-/

namespace CT.LqApprox

open Matrix CT.Cost CT.Riccati

variable {n m : Nat}

/-- What the approximation reads from the backend: number of stages `K_`, `settings_.dt`, `x_`, `u_ff_`,
`xShot_` and `d_`. -/
structure Iterate (n m : Nat) where
  N : Nat
  dt : ℝ
  x : Nat → Fin n → ℝ
  u : Nat → Fin m → ℝ
  xShot : Nat → Fin n → ℝ
  d : Nat → Fin n → ℝ

/-- `systemInterface_->getAandB(x, u, xShot, k, K_sim, A, B, threadId)`: an arbitrary function here (discretised
sensitivities are C19, C20, C73). -/
abbrev Lin (n m : Nat) :=
  (Fin n → ℝ) → (Fin m → ℝ) → (Fin n → ℝ) → Nat → Matrix (Fin n) (Fin n) ℝ × Matrix (Fin n) (Fin m) ℝ

/-- `executeLQApproximation` (NLOCBackendBase-impl.hpp:685-723): the cost function object and the problem after
the call. -/
noncomputable def executeLQApproximation (I : Iterate n m) (lin : Lin n m) (s : CF n m × Problem n m) (k : Nat) :
    CF n m × Problem n m :=
  let AB := lin (I.x k) (I.u k) (I.xShot k) k
  let c := s.1.set (I.x k) (I.u k) (I.dt * k)
  (c, { s.2 with
    A := Function.update s.2.A k AB.1
    B := Function.update s.2.B k AB.2
    b := Function.update s.2.b k (I.d k)
    Q := Function.update s.2.Q k (I.dt • c.stateSecondDerivativeIntermediate)
    R := Function.update s.2.R k (I.dt • c.controlSecondDerivativeIntermediate)
    P := Function.update s.2.P k (I.dt • c.stateControlDerivativeIntermediate)
    qv := Function.update s.2.qv k (I.dt • c.stateDerivativeIntermediate)
    rv := Function.update s.2.rv k (I.dt • c.controlDerivativeIntermediate) })

/-- `initializeCostToGo` (NLOCBackendBase-impl.hpp:819-829), cost part. -/
noncomputable def initializeCostToGo (I : Iterate n m) (s : CF n m × Problem n m) : CF n m × Problem n m :=
  let c := s.1.set (I.x I.N) 0 (I.dt * I.N)
  (c, { s.2 with
    Q := Function.update s.2.Q I.N c.stateSecondDerivativeTerminal
    qv := Function.update s.2.qv I.N c.stateDerivativeTerminal })

/-- `computeLQApproximation(firstIndex, lastIndex)` (NLOCBackendST-impl.hpp:39-53). -/
noncomputable def computeLQApproximation (I : Iterate n m) (lin : Lin n m) (first last : Nat)
    (s : CF n m × Problem n m) : CF n m × Problem n m :=
  ((List.range (last + 1)).drop first).foldl (executeLQApproximation I lin)
    (if last + 1 = I.N then initializeCostToGo I s else s)

/-- The loop of `computeCostsOfTrajectory` (NLOCBackendBase-impl.hpp:580-588) over the first `k` stages: the cost
function object and the sum so far. -/
noncomputable def costLoop (dt : ℝ) (x : Nat → Fin n → ℝ) (u : Nat → Fin m → ℝ) :
    Nat → CF n m → CF n m × ℝ
  | 0, c => (c, 0)
  | k + 1, c =>
    let r := costLoop dt x u k c
    let c := r.1.set (x k) (u k) (dt * k)
    (c, r.2 + c.evaluateIntermediate)

/-- `computeCostsOfTrajectory` (NLOCBackendBase-impl.hpp:572-593): intermediate cost and final cost. -/
noncomputable def computeCostsOfTrajectory (N : Nat) (dt : ℝ) (x : Nat → Fin n → ℝ) (u : Nat → Fin m → ℝ)
    (c : CF n m) : ℝ × ℝ :=
  let r := costLoop dt x u N c
  (r.2 * dt, (r.1.set (x N) 0 (dt * N)).evaluateTerminal)

/-- `NLOCP_ALGORITHM` (solver/NLOptConSettings.hpp). -/
inductive Algo where
  | gnms | ilqr | msIlqr | ssOl | ssCl | gnmsMOl | gnmsMCl
  deriving DecidableEq, Repr

/-- `closedLoopShooting` (NLOptConSettings.hpp:303, 673-674). -/
def Algo.closed : Algo → Bool
  | .gnms => false | .ilqr => true | .msIlqr => true | .ssOl => false | .ssCl => true | .gnmsMOl => false
  | .gnmsMCl => true

/-- `isSingleShooting` (NLOptConSettings.hpp:306, 676-677). -/
def Algo.single : Algo → Bool
  | .gnms => false | .ilqr => true | .msIlqr => false | .ssOl => true | .ssCl => true | .gnmsMOl => false
  | .gnmsMCl => false

/-- The members of the backend that an update reads and writes: `x_`, `u_ff_`, `x_ref_lqr_`, `L_`. -/
structure Back (n m : Nat) where
  x : Nat → Fin n → ℝ
  u : Nat → Fin m → ℝ
  xRef : Nat → Fin n → ℝ
  L : Nat → Matrix (Fin m) (Fin n) ℝ

/-- `delta_x_`, `delta_u_ff_`, `delta_x_ref_lqr_`. -/
structure Update (n m : Nat) where
  dx : Nat → Fin n → ℝ
  du : Nat → Fin m → ℝ
  dxRef : Nat → Fin n → ℝ

/-- `extractSolution` (NLOCBackendBase-impl.hpp:1381-1443) with the Riccati solver: `getSolutionState`,
`getSolutionControl`, `get_lv` and `getSolutionFeedback` return `x_sol_`, `u_sol_`, `lv_` and `L_` of the solver. -/
def extractSolution (a : Algo) (p : Problem n m) (s : Sol n m) (w : Back n m) : Back n m × Update n m :=
  let w := { w with L := fun _ => 0, xRef := w.x }
  match a with
  | .gnms | .gnmsMOl | .ssOl => (w, ⟨xSol p s, uSol p s, fun _ => 0⟩)
  | .ilqr => ({ w with L := s.L }, ⟨fun _ => 0, s.lv, fun _ => 0⟩)
  | .msIlqr => ({ w with L := s.L }, ⟨xSol p s, s.lv, fun _ => 0⟩)
  | .ssCl | .gnmsMCl => ({ w with L := s.L }, ⟨xSol p s, uSol p s, xSol p s⟩)

/-- `doFullStepUpdate` (NLOCBackendBase-impl.hpp:1447-1454). -/
def doFullStepUpdate (w : Back n m) (e : Update n m) : Back n m :=
  { w with x := fun k => w.x k + e.dx k, u := fun k => w.u k + e.du k, xRef := fun k => w.xRef k + e.dxRef k }

/-- Control at stage `k` and state `z` of the policy `getSolution` returns (NLOCBackendBase-impl.hpp:1356-1362):
a `StateFeedbackController` with references `x_`, feed-forward `u_ff_` and gains `L_` (interpolation between stages is
C14). -/
def Back.policy (w : Back n m) (k : Nat) (z : Fin n → ℝ) : Fin m → ℝ := w.u k + w.L k *ᵥ (z - w.x k)

/-- The part of `MultipleShooting::finishMPCIteration` after the linear-quadratic problem has been solved
(algorithms/MultipleShooting-impl.hpp:249-259): no roll-out follows the update. -/
def finishMpcUpdate (a : Algo) (p : Problem n m) (s : Sol n m) (w : Back n m) : Back n m :=
  let r := extractSolution a p s w
  doFullStepUpdate r.1 r.2

/-- `setFromTimeInvariantLinearQuadraticProblem` (LQOCProblem-impl.hpp:271-307) for a problem that has its number
of stages already: `A`, `B` are the matrices `linearSystem.getAandB(0, 0, 0, A, B)` returns. `setZero` makes
`q_` zero (LQOCProblem-impl.hpp:101). -/
noncomputable def setFromTimeInvariant (A : Matrix (Fin n) (Fin n) ℝ) (B : Matrix (Fin n) (Fin m) ℝ) (c : CF n m)
    (offset : Fin n → ℝ) (dt : ℝ) (p : Problem n m) : Problem n m :=
  let c := c.set 0 0 0
  { N := p.N
    A := fun _ => A
    B := fun _ => B
    b := fun _ => offset
    P := fun _ => dt • c.stateControlDerivativeIntermediate
    q := fun _ => 0
    qv := Function.update (fun _ => dt • c.stateDerivativeIntermediate) p.N c.stateDerivativeTerminal
    Q := Function.update (fun _ => dt • c.stateSecondDerivativeIntermediate) p.N c.stateSecondDerivativeTerminal
    rv := fun _ => dt • c.controlDerivativeIntermediate
    R := fun _ => dt • c.controlSecondDerivativeIntermediate }

end CT.LqApprox
