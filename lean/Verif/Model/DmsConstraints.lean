import Verif.Model.DmsVector
import Mathlib.Data.List.FinRange

/-! # Multiple shooting: constraints and simple cost evaluation
(`ct_optcon/include/ct/optcon/dms/constraints`, `dms_core/cost_evaluator/CostEvaluatorSimple.h`) -/

namespace CT.Dms

open CT.Nlp (writeSeg genBlock genDiagonal)

/-- `DmsSettings::SplineType_t`. -/
inductive Spline where
  | zoh
  | linear
  deriving DecidableEq

/-- Consecutive assignments to segments: each writes `len` values behind the ones written before. -/
def writeAll {β : Type} : List (Nat × List β) → List β → Nat → Res (List β)
  | [], v, _ => .ok v
  | (len, s) :: rest, v, ind => do
    let v ← writeSeg v ind len s
    writeAll rest v (ind + len)

section Continuity
variable {K : Type} [Ring K] {n m : Nat}

/-- The memory of a column-major matrix. -/
def colMajorData {p q : Nat} (A : Matrix (Fin p) (Fin q) K) : List K :=
  (List.finRange q).flatMap fun j => (List.finRange p).map fun i => A i j

/-- `mat = -M; mat.transposeInPlace(); Map(mat.data(), ...)` as in `computeXblock`, `computeUblock` and
`computeUblock_2` (ContinuityConstraint.h:295-331). -/
def flattenNeg {p q : Nat} (M : Matrix (Fin p) (Fin q) K) : List K := colMajorData (-M).transpose

/-- Sensitivities of the end state of the shot: with respect to its initial state, its first and its second control
node (`getdXdSiIntegrated`, `getdXdQiIntegrated`, `getdXdQip1Integrated`). -/
structure ShotSens (K : Type) (n m : Nat) where
  dS : Matrix (Fin n) (Fin n) K
  dQ : Matrix (Fin n) (Fin m) K
  dQNext : Matrix (Fin n) (Fin m) K

/-- `getNumNonZerosJacobian` (ContinuityConstraint.h:128-156) and the size of `jacLocal_` (71-91). -/
def contNnz (sp : Spline) (n m : Nat) : Nat :=
  match sp with
  | .zoh => n * n + n * m + n * 1
  | .linear => n * n + n * m + n * 1 + n * m

/-- `evalSparseJacobian` (ContinuityConstraint.h:96-126, 295-338). `buf` is the previous content of `jacLocal_`. -/
def contJac (sp : Spline) (S : ShotSens K n m) (buf : List K) : Res (List K) :=
  match sp with
  | .zoh => writeAll [(n * n, flattenNeg S.dS), (n * m, flattenNeg S.dQ), (n, List.replicate n 1)] buf 0
  | .linear =>
    writeAll [(n * n, flattenNeg S.dS), (n * m, flattenNeg S.dQ), (n, List.replicate n 1), (n * m, flattenNeg S.dQNext)] buf 0

/-- `genSparsityPattern` (ContinuityConstraint.h:159-211) of the constraint of shot `i`. -/
def contPattern {α : Type} (sp : Spline) (n m : Nat) (w : OptVec α) (i : Nat) : Res (List (Nat × Nat)) := do
  let s ← w.getStateIndex i
  let q ← w.getControlIndex i
  let s' ← w.getStateIndex (i + 1)
  match sp with
  | .zoh => pure (genBlock s n n ++ genBlock q n m ++ genDiagonal s' n)
  | .linear => do
    let q' ← w.getControlIndex (i + 1)
    pure (genBlock s n n ++ genBlock q n m ++ genDiagonal s' n ++ genBlock q' n m)

/-- `InitStateConstraint::eval` (InitStateConstraint.h:56). -/
def initEval (w : OptVec K) (x0 : List K) : Res (List K) := do
  let s ← w.getOptimizedState 0
  pure (s.zipWith (· - ·) x0)

/-- `InitStateConstraint::evalSparseJacobian` (InitStateConstraint.h:57). -/
def initJac (n : Nat) : List K := List.replicate n 1

/-- `InitStateConstraint::genSparsityPattern` (InitStateConstraint.h:59-63). -/
def initPattern {α : Type} (n : Nat) (w : OptVec α) : Res (List (Nat × Nat)) := do
  let s ← w.getStateIndex 0
  pure (genDiagonal s n)

end Continuity

/-! ### `ConstraintDiscretizer` -/

/-- Where a constraint container is evaluated (`setCurrentStateAndControl`): state, control, time. -/
structure Pt (K U : Type) where
  x : List K
  u : U
  t : K

/-- What the discretiser uses of a `LinearConstraintContainer`: numbers of constraints and of Jacobian entries,
values, bounds, sparse Jacobians and patterns; `I` intermediate, `T` terminal, `S` by state, `U` by input. -/
structure PathCon (K U : Type) where
  nI : Nat
  nT : Nat
  nnzSI : Nat
  nnzUI : Nat
  nnzST : Nat
  nnzUT : Nat
  evalI : Pt K U → List K
  evalT : Pt K U → List K
  lbI : List K
  ubI : List K
  lbT : List K
  ubT : List K
  jacSI : Pt K U → List K
  jacUI : Pt K U → List K
  jacST : Pt K U → List K
  jacUT : Pt K U → List K
  patSI : List (Nat × Nat)
  patUI : List (Nat × Nat)
  patST : List (Nat × Nat)
  patUT : List (Nat × Nat)

/-- The members of `ConstraintDiscretizer` (ConstraintDiscretizer.h:334-356); the vectors are represented by their
lengths, their old content is irrelevant. -/
structure Discretizer (K U : Type) where
  N : Nat
  cons : List (PathCon K U)
  countI : Nat
  countT : Nat
  count : Nat
  nnzI : Nat
  nnzT : Nat
  nnz : Nat

section Discr
variable {K U : Type}

/-- Constructor (ConstraintDiscretizer.h:61-76). -/
def Discretizer.mk' (N : Nat) : Discretizer K U := ⟨N, [], 0, 0, 0, 0, 0, 0⟩

/-- `setBoxConstraints` (ConstraintDiscretizer.h:79-99). -/
def Discretizer.setBox (d : Discretizer K U) (c : PathCon K U) : Discretizer K U :=
  let countI := d.countI + (d.N + 1) * c.nI
  let countT := d.countT + c.nT
  let nnzI := d.nnzI + (d.N + 1) * (c.nnzSI + c.nnzUI)
  let nnzT := d.nnzT + (c.nnzST + c.nnzUT)
  { N := d.N, cons := d.cons ++ [c], countI := countI, countT := countT, count := countI + countT, nnzI := nnzI,
    nnzT := nnzT, nnz := nnzI + nnzT }

/-- `setGeneralConstraints` (ConstraintDiscretizer.h:101-120): only the entries by state are counted. -/
def Discretizer.setGeneral (d : Discretizer K U) (c : PathCon K U) : Discretizer K U :=
  let countI := d.countI + (d.N + 1) * c.nI
  let countT := d.countT + c.nT
  let nnzI := d.nnzI + (d.N + 1) * c.nnzSI
  let nnzT := d.nnzT + c.nnzST
  { N := d.N, cons := d.cons ++ [c], countI := countI, countT := countT, count := countI + countT, nnzI := nnzI,
    nnzT := nnzT, nnz := nnzI + nnzT }

/-- A segment is written only if it is not empty (`if (constraintSize > 0)`). -/
def seg? {β : Type} (len : Nat) (s : List β) : List (Nat × List β) := if len > 0 then [(len, s)] else []

/-- The point set by the loops for grid point `n` (ConstraintDiscretizer.h:129-133, 163-168). `ctl` is `evalSpline`. -/
def pointAt (w : OptVec K) (g : TimeGrid K) (ctl : K → Nat → Res U) (n : Nat) : Res (Pt K U) := do
  let t ← idx g.t n
  let x ← w.getOptimizedState n
  let u ← ctl t n
  pure ⟨x, u, t⟩

/-- The segments written for the grid points `0..N` and, with the point of the last grid point still set, for the
terminal constraints. -/
def segments {β : Type} (d : Discretizer K U) (w : OptVec K) (g : TimeGrid K) (ctl : K → Nat → Res U)
    (inter term : PathCon K U → Pt K U → List (Nat × List β)) : Res (List (Nat × List β)) := do
  let pts ← (List.range (d.N + 1)).mapM (pointAt w g ctl)
  let last ← back pts
  pure (pts.flatMap (fun p => d.cons.flatMap fun c => inter c p) ++ d.cons.flatMap fun c => term c last)

/-- `eval` (ConstraintDiscretizer.h:122-154). -/
def Discretizer.eval (d : Discretizer K U) (w : OptVec K) (g : TimeGrid K) (ctl : K → Nat → Res U) (buf : List K) :
    Res (List K) :=
  if d.cons = [] then .ok buf
  else do
    let segs ← segments d w g ctl (fun c p => seg? c.nI (c.evalI p)) (fun c p => seg? c.nT (c.evalT p))
    writeAll segs buf 0

/-- `evalSparseJacobian` (ConstraintDiscretizer.h:156-202). -/
def Discretizer.evalSparseJacobian (d : Discretizer K U) (w : OptVec K) (g : TimeGrid K) (ctl : K → Nat → Res U)
    (buf : List K) : Res (List K) :=
  if d.cons = [] then .ok buf
  else do
    let segs ← segments d w g ctl (fun c p => seg? c.nnzSI (c.jacSI p) ++ seg? c.nnzUI (c.jacUI p))
      (fun c p => seg? c.nnzST (c.jacST p) ++ seg? c.nnzUT (c.jacUT p))
    writeAll segs buf 0

/-- `getLowerBound` (ConstraintDiscretizer.h:271-300). -/
def Discretizer.lower (d : Discretizer K U) (buf : List K) : Res (List K) :=
  writeAll ((List.range (d.N + 1)).flatMap (fun _ => d.cons.flatMap fun c => seg? c.nI c.lbI)
    ++ d.cons.flatMap fun c => seg? c.nT c.lbT) buf 0

/-- `getUpperBound` (ConstraintDiscretizer.h:302-331). -/
def Discretizer.upper (d : Discretizer K U) (buf : List K) : Res (List K) :=
  writeAll ((List.range (d.N + 1)).flatMap (fun _ => d.cons.flatMap fun c => seg? c.nI c.ubI)
    ++ d.cons.flatMap fun c => seg? c.nT c.ubT) buf 0

/-- A pattern moved to its rows and columns. -/
def shiftPat (row col : Nat) (p : List (Nat × Nat)) : List (Nat × Nat) := p.map fun k => (k.1 + row, k.2 + col)

/-- Inner loop of `genSparsityPattern` (ConstraintDiscretizer.h:211-236, 239-263) over the constraints at one grid
point: segments and the row offset after them. -/
def patSegs (nS nU : PathCon K U → Nat) (pS pU : PathCon K U → List (Nat × Nat)) (size : PathCon K U → Nat)
    (colS colU : Nat) : List (PathCon K U) → Nat → List (Nat × List (Nat × Nat)) × Nat
  | [], row => ([], row)
  | c :: cs, row =>
    let rest := patSegs nS nU pS pU size colS colU cs (row + size c)
    (seg? (nS c) (shiftPat row colS (pS c)) ++ seg? (nU c) (shiftPat row colU (pU c)) ++ rest.1, rest.2)

/-- Outer loop of `genSparsityPattern` (ConstraintDiscretizer.h:209-237). -/
def patLoop (w : OptVec K) (cs : List (PathCon K U)) : Nat → Nat → Nat → Res (List (Nat × List (Nat × Nat)) × Nat)
  | 0, _, row => .ok ([], row)
  | k + 1, n, row => do
    let s ← w.getStateIndex n
    let q ← w.getControlIndex n
    let here := patSegs PathCon.nnzSI PathCon.nnzUI PathCon.patSI PathCon.patUI PathCon.nI s q cs row
    let rest ← patLoop w cs k (n + 1) here.2
    pure (here.1 ++ rest.1, rest.2)

/-- `genSparsityPattern` (ConstraintDiscretizer.h:205-269); rows and columns are kept as pairs. `buf` is the previous
content of the index vectors. -/
def Discretizer.pattern (d : Discretizer K U) (w : OptVec K) (buf : List (Nat × Nat)) : Res (List (Nat × Nat)) := do
  let (segs, row) ← patLoop w d.cons (d.N + 1) 0 0
  let s ← w.getStateIndex d.N
  let q ← w.getControlIndex d.N
  let last := patSegs PathCon.nnzST PathCon.nnzUT PathCon.patST PathCon.patUT PathCon.nT s q d.cons row
  writeAll (segs ++ last.1) buf 0

end Discr

/-! ### `CostEvaluatorSimple` -/

section Phi
variable {K : Type} [Field K]

/-- `updatePhi` (CostEvaluatorSimple.h:125-152): the summation weights. With linear splines at least one shot is
assumed (the code writes entries 0 and `N` whatever `N` is). -/
def updatePhi (sp : Spline) (g : TimeGrid K) (N : Nat) : Res (List K) :=
  match sp with
  | .zoh => do
    let ds ← (List.range N).mapM g.duration
    pure (ds ++ [0])
  | .linear => do
    let d0 ← g.duration 0
    let ds ← (List.range (N - 1)).mapM fun i => do
      let b ← g.stop (i + 1)
      let a ← g.start i
      pure ((1 / 2 : K) * (b - a))
    let dN ← g.duration N
    pure ((1 / 2 : K) * d0 :: ds ++ [(1 / 2 : K) * dN])

/-- `eval` (CostEvaluatorSimple.h:85-102): `L` is the intermediate cost, `Φ` the terminal cost. The terminal cost is
evaluated with a zero control and at time 0 (default argument of `setCurrentStateAndControl`). -/
def simpleCost (w : OptVec K) (g : TimeGrid K) (phi : List K) (N : Nat) (L : List K → List K → K → K)
    (Φ : List K → K → K) : Res K := do
  let terms ← (List.range (N + 1)).mapM fun i => do
    let x ← w.getOptimizedState i
    let u ← w.getOptimizedControl i
    let t ← g.start i
    let p ← idx phi i
    pure (p * L x u t)
  let xN ← w.getOptimizedState N
  pure (terms.sum + Φ xN 0)

end Phi

end CT.Dms
