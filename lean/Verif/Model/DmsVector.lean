import Verif.Model.Nlp
import Mathlib.Algebra.Field.Defs
import Mathlib.Algebra.Module.Pi
import Mathlib.Data.Matrix.Basic

/-! # Multiple shooting: decision vector, time grid, control splines
(`ct_optcon/include/ct/optcon/dms/dms_core`)

`n` and `m` are the state and control dimensions; vectors are lists. -/

namespace CT.Dms

open CT.Nlp (writeSeg)

/-! ### `OptVectorDms` -/

/-- `v.segment(ind, len)`: undefined outside the vector. -/
def readSeg {α : Type} (v : List α) (ind len : Nat) : Res (List α) :=
  if ind + len ≤ v.length then .ok ((v.drop ind).take len) else .ub

/-- `OptVectorDms` with its base class `OptVector` (OptVector.h:39-60): current values `x`, initial guess `xInit`, the
update counter, and the two index maps. -/
structure OptVec (α : Type) where
  n : Nat
  m : Nat
  /-- `settings_.N_` -/
  N : Nat
  /-- `numPairs_` -/
  numPairs : Nat
  stateIdx : List (Nat × Nat)
  controlIdx : List (Nat × Nat)
  x : List α
  xInit : List α
  updateCount : Nat

/-- The loop of the constructor (OptVectorDms-impl.h:13-22). -/
def indexLoop (n m : Nat) : Nat → Nat → Nat → List (Nat × Nat) × List (Nat × Nat)
  | 0, _, _ => ([], [])
  | k + 1, i, cur =>
    let rest := indexLoop n m k (i + 1) (cur + n + m)
    ((i, cur) :: rest.1, (i, cur + n) :: rest.2)

/-- Constructor (OptVectorDms-impl.h:10-25) for a vector of length `len`. `x_` is zero (OptVector.h:41-42), `xInit_` is
not initialised (43): its content is the parameter `junk`. -/
def OptVec.mk' {α : Type} [Zero α] (n m N len : Nat) (junk : List α) : OptVec α :=
  let maps := indexLoop n m (N + 1) 0 0
  { n := n, m := m, N := N, numPairs := N + 1, stateIdx := maps.1, controlIdx := maps.2, x := List.replicate len 0,
    xInit := junk, updateCount := 0 }

variable {α : Type}

/-- `map.find(key)->second`: undefined if the key is missing. -/
def mapFind (l : List (Nat × Nat)) (k : Nat) : Res Nat :=
  match l.lookup k with
  | some v => .ok v
  | none => .ub

/-- `getStateIndex` (OptVectorDms-impl.h:66-69). -/
def OptVec.getStateIndex (w : OptVec α) (i : Nat) : Res Nat := mapFind w.stateIdx i

/-- `getControlIndex` (OptVectorDms-impl.h:73-76). -/
def OptVec.getControlIndex (w : OptVec α) (i : Nat) : Res Nat := mapFind w.controlIdx i

/-- `getOptimizedState` (OptVectorDms-impl.h:29-33). -/
def OptVec.getOptimizedState (w : OptVec α) (i : Nat) : Res (List α) := do
  let k ← w.getStateIndex i
  readSeg w.x k w.n

/-- `getOptimizedControl` (OptVectorDms-impl.h:37-41). -/
def OptVec.getOptimizedControl (w : OptVec α) (i : Nat) : Res (List α) := do
  let k ← w.getControlIndex i
  readSeg w.x k w.m

/-- `getOptimizedStates` (OptVectorDms-impl.h:45-51). -/
def OptVec.getOptimizedStates (w : OptVec α) : Res (List (List α)) :=
  (List.range w.numPairs).mapM w.getOptimizedState

/-- `getOptimizedInputs` (OptVectorDms-impl.h:56-62). -/
def OptVec.getOptimizedInputs (w : OptVec α) : Res (List (List α)) :=
  (List.range w.numPairs).mapM w.getOptimizedControl

/-- `changeInitialState` (OptVectorDms-impl.h:79-83). -/
def OptVec.changeInitialState (w : OptVec α) (x0 : List α) : Res (OptVec α) := do
  let k ← w.getStateIndex 0
  let x ← writeSeg w.x k w.n x0
  pure { w with x := x }

/-- `changeDesiredState` (OptVectorDms-impl.h:86-90). -/
def OptVec.changeDesiredState (w : OptVec α) (xF : List α) : Res (OptVec α) := do
  let k ← mapFind w.stateIdx w.N
  let x ← writeSeg w.x k w.n xF
  pure { w with x := x }

/-- One pass of the loops of `setInitGuess`: write state and control of pair `i` into the initial guess. -/
def OptVec.writePair (w : OptVec α) (i : Nat) (s q : List α) : Res (OptVec α) := do
  let ks ← w.getStateIndex i
  let kq ← w.getControlIndex i
  let a ← writeSeg w.xInit ks w.n s
  let b ← writeSeg a kq w.m q
  pure { w with xInit := b }

/-- Vector operation `x0 + (xf - x0) * c`. -/
def blend [Field α] (x0 xf : List α) (c : α) : List α := x0.zipWith (fun a b => a + (b - a) * c) xf

/-- Loop of `setInitGuess(x0, xf, u0)` (OptVectorDms-impl.h:100-117). `type` is the constant 1. The factor
`(i / (numPairs_ - 1))` is a division of unsigned integers. -/
def OptVec.guessLoop [Field α] (x0 xf u0 : List α) : Nat → Nat → OptVec α → Res (OptVec α)
  | 0, _, w => .ok w
  | k + 1, i, w =>
    if w.numPairs - 1 = 0 then .ub
    else do
      let w ← w.writePair i (blend x0 xf ((i / (w.numPairs - 1) : Nat) : α)) u0
      OptVec.guessLoop x0 xf u0 k (i + 1) w

/-- `setInitGuess(x0, xf, u0)` (OptVectorDms-impl.h:93-118). -/
def OptVec.setInitGuess [Field α] (w : OptVec α) (x0 xf u0 : List α) : Res (OptVec α) :=
  OptVec.guessLoop x0 xf u0 w.numPairs 0 w

/-- Loop of `setInitGuess(x_init, u_init)` (OptVectorDms-impl.h:130-137). -/
def OptVec.guessArrayLoop (xs us : List (List α)) : Nat → Nat → OptVec α → Res (OptVec α)
  | 0, _, w => .ok w
  | k + 1, i, w => do
    let s ← idx xs i
    let q ← idx us i
    let w ← w.writePair i s q
    OptVec.guessArrayLoop xs us k (i + 1) w

/-- `setInitGuess(x_init, u_init)` (OptVectorDms-impl.h:122-138). -/
def OptVec.setInitGuessArrays (w : OptVec α) (xs us : List (List α)) : Res (OptVec α) :=
  if xs.length ≠ w.numPairs then .exc
  else if us.length ≠ w.numPairs then .exc
  else OptVec.guessArrayLoop xs us w.numPairs 0 w

/-- `getInitialGuess` (OptVector.h:235-239): what the solver starts from. -/
def OptVec.getInitialGuess (w : OptVec α) : List α := w.xInit

/-- `setOptimizationVars` (OptVector.h:290-300). -/
def OptVec.setOptimizationVars (w : OptVec α) (x : List α) : OptVec α :=
  { w with x := x, updateCount := w.updateCount + 1 }

/-- `setInitialGuess` of the base class (OptVector.h:103-107): no update is counted. -/
def OptVec.setInitialGuess (w : OptVec α) (x : List α) : OptVec α := { w with x := x, xInit := x }

/-! ### `TimeGrid` -/

/-- `TimeGrid` (TimeGrid.h:26-155). -/
structure TimeGrid (K : Type) where
  N : Nat
  T : K
  t : List K

section Grid
variable {K : Type} [Field K]

/-- `makeUniformGrid` (TimeGrid.h:99-103): element `i` becomes `i * (T / N)`. -/
def TimeGrid.makeUniformGrid (g : TimeGrid K) : TimeGrid K :=
  { g with t := (List.range (g.N + 1)).foldl (fun t i => t.set i ((i : K) * (g.T / (g.N : K)))) g.t }

/-- Constructor (TimeGrid.h:40-44). -/
def TimeGrid.mk' (N : Nat) (T : K) : TimeGrid K := TimeGrid.makeUniformGrid ⟨N, T, List.replicate (N + 1) 0⟩

/-- `changeShotCount` (TimeGrid.h:51-57). -/
def TimeGrid.changeShotCount (g : TimeGrid K) (N : Nat) : TimeGrid K :=
  TimeGrid.makeUniformGrid { g with N := N, t := List.replicate (N + 1) 0 }

/-- `changeTimeHorizon` (TimeGrid.h:64-68). -/
def TimeGrid.changeTimeHorizon (g : TimeGrid K) (T : K) : TimeGrid K := TimeGrid.makeUniformGrid { g with T := T }

/-- Loop of `updateTimeGrid` (TimeGrid.h:83-84). -/
def updateLoop : List K → Nat → List K → Res (List K)
  | [], _, t => .ok t
  | h :: hs, i, t => do
    let a ← idx t i
    if i + 1 < t.length then updateLoop hs (i + 1) (t.set (i + 1) (a + h)) else .ub

/-- `updateTimeGrid` (TimeGrid.h:79-93). -/
def TimeGrid.updateTimeGrid (g : TimeGrid K) (h : List K) : Res (TimeGrid K) := do
  if g.t.length = 0 then .ub
  else
    let t ← updateLoop h 0 (g.t.set 0 0)
    pure { g with t := t }

/-- `getShotStartTime` (TimeGrid.h:113). -/
def TimeGrid.start (g : TimeGrid K) (i : Nat) : Res K := idx g.t i

/-- `getShotEndTime` (TimeGrid.h:121). -/
def TimeGrid.stop (g : TimeGrid K) (i : Nat) : Res K := idx g.t (i + 1)

/-- `getShotDuration` (TimeGrid.h:129). -/
def TimeGrid.duration (g : TimeGrid K) (i : Nat) : Res K := do
  let b ← idx g.t (i + 1)
  let a ← idx g.t i
  pure (b - a)

/-- `getOptimizedTimeHorizon` (TimeGrid.h:147). -/
def TimeGrid.optimizedHorizon (g : TimeGrid K) : Res K := back g.t

/-! ### Control splines -/

variable {d : Nat}

/-- `LinearSpliner::evalSpline` (LinearSpliner.h:42-57). -/
def linEval (g : TimeGrid K) (nodes : List (Fin d → K)) (time : K) (shot : Nat) : Res (Fin d → K) := do
  let ts ← g.duration shot
  let t0 ← g.start shot
  let t1 ← g.stop shot
  let a ← idx nodes shot
  let b ← idx nodes (shot + 1)
  pure (fun j => a j * (t1 - time) / ts + b j * (time - t0) / ts)

/-- `LinearSpliner::splineDerivative_t` (LinearSpliner.h:60-69). -/
def linDt (g : TimeGrid K) (nodes : List (Fin d → K)) (shot : Nat) : Res (Fin d → K) := do
  let ts ← g.duration shot
  let b ← idx nodes (shot + 1)
  let a ← idx nodes shot
  pure (fun j => (b j - a j) / ts)

/-- `LinearSpliner::splineDerivative_h_i` (LinearSpliner.h:72-82). -/
def linDh (g : TimeGrid K) (nodes : List (Fin d → K)) (time : K) (shot : Nat) : Res (Fin d → K) := do
  let ts ← g.duration shot
  let t0 ← g.start shot
  let a ← idx nodes shot
  let b ← idx nodes (shot + 1)
  pure (fun j => (time - t0) * (a j - b j) / (ts * ts))

/-- `LinearSpliner::splineDerivative_q_i` (LinearSpliner.h:84-95). -/
def linDq (g : TimeGrid K) (time : K) (shot : Nat) : Res (Matrix (Fin d) (Fin d) K) := do
  let ts ← g.duration shot
  let t1 ← g.stop shot
  pure (((t1 - time) / ts) • 1)

/-- `LinearSpliner::splineDerivative_q_iplus1` (LinearSpliner.h:98-110). -/
def linDqNext (g : TimeGrid K) (time : K) (shot : Nat) : Res (Matrix (Fin d) (Fin d) K) := do
  let ts ← g.duration shot
  let t0 ← g.start shot
  pure (((time - t0) / ts) • 1)

/-- `ZeroOrderHoldSpliner::evalSpline` (ZeroOrderHoldSpliner.h:42-47). -/
def zohEval (holds : List (Fin d → K)) (_time : K) (shot : Nat) : Res (Fin d → K) := idx holds shot

/-- `ZeroOrderHoldSpliner::splineDerivative_t` and `splineDerivative_h_i` (ZeroOrderHoldSpliner.h:49-50). -/
def zohDt : Fin d → K := 0

/-- `ZeroOrderHoldSpliner::splineDerivative_q_i` (ZeroOrderHoldSpliner.h:51-54). -/
def zohDq : Matrix (Fin d) (Fin d) K := 1

/-- `ZeroOrderHoldSpliner::splineDerivative_q_iplus1` (ZeroOrderHoldSpliner.h:56-59). -/
def zohDqNext : Matrix (Fin d) (Fin d) K := 0

end Grid

end CT.Dms
