import Verif.Model.DmsConstraints

/-! # Multiple shooting: cost gradients
(`ct_optcon/include/ct/optcon/dms/dms_core/cost_evaluator/CostEvaluatorSimple.h`, `CostEvaluatorFull.h`)

The value of the simple evaluator is `simpleCost` in `Model/DmsConstraints.lean`. Costs and their derivatives are
parameters: a cost function object has no memory that matters here, since every evaluation is preceded by
`setCurrentStateAndControl` with all three arguments (the terminal one with the default time 0). -/

namespace CT.Dms

variable {K : Type} [Field K]

/-- `grad.segment(ind, s.size()) += s`: undefined if the segment is not inside the vector. -/
def addSeg (v : List K) (ind : Nat) (s : List K) : Res (List K) :=
  if ind + s.length ≤ v.length then
    .ok (v.take ind ++ List.zipWith (· + ·) (v.drop ind) s ++ v.drop (ind + s.length))
  else .ub

/-- First derivatives of a cost function: of the intermediate cost by state and control, of the terminal cost by
state. -/
structure CostDeriv (K : Type) where
  Lx : List K → List K → K → List K
  Lu : List K → List K → K → List K
  Φx : List K → K → List K

/-- One pass of the loop of `evalGradient` (CostEvaluatorSimple.h:110-116). -/
def simpleGradStep (w : OptVec K) (g : TimeGrid K) (phi : List K) (D : CostDeriv K) (v : List K) (i : Nat) :
    Res (List K) := do
  let x ← w.getOptimizedState i
  let u ← w.getOptimizedControl i
  let t ← g.start i
  let p ← idx phi i
  let s ← w.getStateIndex i
  let v ← addSeg v s ((D.Lx x u t).map (p * ·))
  let q ← w.getControlIndex i
  addSeg v q ((D.Lu x u t).map (p * ·))

/-- `evalGradient` (CostEvaluatorSimple.h:105-122); the vector handed over has length `len`. -/
def simpleGrad (w : OptVec K) (g : TimeGrid K) (phi : List K) (N : Nat) (D : CostDeriv K) (len : Nat) :
    Res (List K) := do
  let v ← (List.range (N + 1)).foldlM (simpleGradStep w g phi D) (List.replicate len 0)
  let xN ← w.getOptimizedState N
  let s ← w.getStateIndex N
  addSeg v s (D.Φx xN 0)

/-- What the full evaluator uses of a shot container: integrated cost and its derivatives by the initial state and the
two control nodes of the shot (`getCostIntegrated`, `getdLdSiIntegrated`, `getdLdQiIntegrated`,
`getdLdQip1Integrated`), as functions of these three (C53 and C83 are about the containers themselves). -/
structure ShotCost (K : Type) where
  cost : List K → List K → List K → K
  dS : List K → List K → List K → List K
  dQ : List K → List K → List K → List K
  dQNext : List K → List K → List K → List K

/-- The variables of shot `i`; a container reads the next node also for zero-order hold only through its spliner, which
holds all nodes (C47). -/
def shotVars (w : OptVec K) (i : Nat) : Res (List K × List K × List K) := do
  let x ← w.getOptimizedState i
  let u ← w.getOptimizedControl i
  let u' ← w.getOptimizedControl (i + 1)
  pure (x, u, u')

/-- `eval` (CostEvaluatorFull.h:70-86). -/
def fullCost (w : OptVec K) (shots : List (ShotCost K)) (N : Nat) (Φ : List K → K → K) : Res K := do
  let terms ← (List.range shots.length).mapM fun i => do
    let c ← idx shots i
    let z ← shotVars w i
    pure (c.cost z.1 z.2.1 z.2.2)
  let xN ← w.getOptimizedState N
  pure (terms.sum + Φ xN 0)

/-- One pass of the loop of `evalGradient` (CostEvaluatorFull.h:102-125). -/
def fullGradStep (sp : Spline) (w : OptVec K) (shots : List (ShotCost K)) (v : List K) (i : Nat) : Res (List K) := do
  let c ← idx shots i
  let z ← shotVars w i
  let s ← w.getStateIndex i
  let v ← addSeg v s (c.dS z.1 z.2.1 z.2.2)
  let q ← w.getControlIndex i
  let v ← addSeg v q (c.dQ z.1 z.2.1 z.2.2)
  match sp with
  | .zoh => pure v
  | .linear => do
    let q' ← w.getControlIndex (i + 1)
    addSeg v q' (c.dQNext z.1 z.2.1 z.2.2)

/-- `evalGradient` (CostEvaluatorFull.h:88-140); without grid optimisation, whose code is commented out. -/
def fullGrad (sp : Spline) (w : OptVec K) (shots : List (ShotCost K)) (N : Nat) (Φx : List K → K → List K) (len : Nat) :
    Res (List K) := do
  let v ← (List.range shots.length).foldlM (fullGradStep sp w shots) (List.replicate len 0)
  let xN ← w.getOptimizedState N
  let s ← w.getStateIndex N
  addSeg v s (Φx xN 0)

/-- The simple evaluator as an object: the weights are computed in the constructor (CostEvaluatorSimple.h:53-62) and
kept; the calls of `updatePhi` in `eval` and `evalGradient` are commented out (88, 108). -/
structure SimpleEvaluator (K : Type) where
  phi : List K

/-- Constructor. -/
def SimpleEvaluator.mk' (sp : Spline) (g : TimeGrid K) (N : Nat) : Res (SimpleEvaluator K) := do
  let phi ← updatePhi sp g N
  pure ⟨phi⟩

/-- `eval` on a grid that may have changed since construction. -/
def SimpleEvaluator.eval (e : SimpleEvaluator K) (w : OptVec K) (g : TimeGrid K) (N : Nat)
    (L : List K → List K → K → K) (Φ : List K → K → K) : Res K := simpleCost w g e.phi N L Φ

end CT.Dms
