import Verif.Model.Res
import Mathlib.Algebra.BigOperators.Group.List.Basic
import Mathlib.Data.List.Sort

/-! # Nonlinear program (`ct_optcon/include/ct/optcon/nlp`)

Vectors are lists. Assigning to an Eigen segment outside the vector, or of another length, is undefined
(assertions are off in release builds). -/

namespace CT.Nlp

variable {α : Type}

/-- What a `DiscreteConstraintBase` returns at the present optimisation variables (DiscreteConstraintBase.h:43-110):
values, sparse Jacobian, reported sizes, pattern, bounds. -/
structure Con (α : Type) where
  eval : List α
  jac : List α
  size : Nat
  nnz : Nat
  rows : List Nat
  cols : List Nat
  lb : List α
  ub : List α

/-- `v.segment(ind, len) = s`. -/
def writeSeg {β : Type} (v : List β) (ind len : Nat) (s : List β) : Res (List β) :=
  if s.length = len ∧ ind + len ≤ v.length then .ok (v.take ind ++ s ++ v.drop (ind + len)) else .ub

/-- The loop shared by `evalConstraints` (DiscreteConstraintContainerBase.h:62-90), `evalSparseJacobian` (99-112) and
`getBounds` (275-285): write `f c` behind the segments written before, `len c` long. -/
def stack {β : Type} (f : Con α → List β) (len : Con α → Nat) : List (Con α) → List β → Nat → Res (List β)
  | [], v, _ => .ok v
  | c :: cs, v, ind => do
    let v ← writeSeg v ind (len c) (f c)
    stack f len cs v (ind + len c)

/-- `evalConstraints` (DiscreteConstraintContainerBase.h:62-90). -/
def evalConstraints (cs : List (Con α)) (out : List α) : Res (List α) := stack Con.eval Con.size cs out 0

/-- `evalSparseJacobian` (DiscreteConstraintContainerBase.h:99-112). -/
def evalSparseJacobian (cs : List (Con α)) (out : List α) : Res (List α) := stack Con.jac Con.nnz cs out 0

/-- `getBounds` (DiscreteConstraintContainerBase.h:275-285). -/
def getBounds (cs : List (Con α)) (lo up : List α) : Res (List α × List α) := do
  let l ← stack Con.lb Con.size cs lo 0
  let u ← stack Con.ub Con.size cs up 0
  pure (l, u)

/-- `getSparsityPattern` (DiscreteConstraintContainerBase.h:124-146): `count` is the number of rows of the
constraints before. -/
def patternLoop : List (Con α) → List Nat → List Nat → Nat → Nat → Res (List Nat × List Nat)
  | [], r, c, _, _ => .ok (r, c)
  | k :: cs, r, c, ind, count => do
    let r ← writeSeg r ind k.nnz (k.rows.map (· + count))
    let c ← writeSeg c ind k.nnz k.cols
    patternLoop cs r c (ind + k.nnz) (count + k.size)

def getSparsityPattern (cs : List (Con α)) (r c : List Nat) : Res (List Nat × List Nat) := patternLoop cs r c 0 0

/-- `getConstraintsCount` (DiscreteConstraintContainerBase.h:153-159). -/
def constraintsCount (cs : List (Con α)) : Nat := cs.foldl (fun n c => n + c.size) 0

/-- `getNonZerosJacobianCount` (DiscreteConstraintContainerBase.h:166-172). -/
def nonZerosCount (cs : List (Con α)) : Nat := cs.foldl (fun n c => n + c.nnz) 0

/-! ### Index helpers -/

/-- `genDiagonalIndices` (DiscreteConstraintBase.h:165-194): the new index pairs. -/
def genDiagonal (colStart num : Nat) : List (Nat × Nat) := (List.range num).map fun i => (i, colStart + i)

/-- `genBlockIndices` (DiscreteConstraintBase.h:196-229): row by row. -/
def genBlock (colStart numRows numCols : Nat) : List (Nat × Nat) :=
  (List.range numRows).flatMap fun r => (List.range numCols).map fun c => (r, colStart + c)

/-! ### Hessians -/

/-- An Eigen triplet. -/
abbrev Triplet (α : Type) := (Nat × Nat) × α

/-- Order of the entries of a column-major sparse matrix: by column, then by row. -/
def colMajor (a b : Nat × Nat) : Prop := a.2 < b.2 ∨ a.2 = b.2 ∧ a.1 ≤ b.1

instance : DecidableRel colMajor := fun a b => by unfold colMajor; infer_instance

/-- The stored positions of a sparse matrix assembled by `setFromTriplets`: every position once, in storage
order. Explicit zeros are stored. -/
def storedKeys (ts : List (Triplet α)) : List (Nat × Nat) := (ts.map (·.1)).dedup.insertionSort colMajor

/-- Stored value at a position: duplicates are summed. -/
def valueAt [AddCommMonoid α] (ts : List (Triplet α)) (k : Nat × Nat) : α :=
  ((ts.filter fun t => t.1 = k).map (·.2)).sum

/-- Keep the positions of `triangularView<Lower>`. -/
def lowerKeys (ks : List (Nat × Nat)) : List (Nat × Nat) := ks.filter fun k => k.2 ≤ k.1

/-- `Eigen::Map(valuePtr(), nele)`: reading more values than stored is undefined. -/
def readValues (vals : List α) (nele : Nat) : Res (List α) := if nele ≤ vals.length then .ok (vals.take nele) else .ub

/-- What a constraint contributes to the Hessian: its pattern and the values for its share of the multipliers
(`genSparsityPatternHessian`, `sparseHessianValues`). -/
structure HessCon (α : Type) where
  size : Nat
  pattern : List (Nat × Nat)
  values : List α → List α

/-- `getSparsityPatternHessian` of the container (DiscreteConstraintContainerBase.h:180-219): no triangular view. -/
def containerPattern (cs : List (HessCon α)) : List (Nat × Nat) :=
  storedKeys (cs.flatMap fun c => c.pattern.map fun k => (k, ()))

/-- The triplets of `sparseHessianValues` (DiscreteConstraintContainerBase.h:229-250): `count` rows of multipliers
have been used. -/
def containerTriplets (lambda : List α) : List (HessCon α) → Nat → List (Triplet α)
  | [], _ => []
  | c :: cs, count =>
    c.pattern.zip (c.values ((lambda.drop count).take c.size)) ++ containerTriplets lambda cs (count + c.size)

/-- `sparseHessianValues` of the container (DiscreteConstraintContainerBase.h:229-266): lower triangle, read with the
number of entries of the pattern. -/
def containerValues [AddCommMonoid α] (cs : List (HessCon α)) (lambda : List α) : Res (List α) :=
  let ts := containerTriplets lambda cs 0
  readValues ((lowerKeys (storedKeys ts)).map (valueAt ts)) (containerPattern cs).length

/-- `getNonZeroHessianCount` (Nlp.h:242-307): the pattern handed to the solver. -/
def nlpPattern (costPattern : List (Nat × Nat)) (cs : List (HessCon α)) : List (Nat × Nat) :=
  lowerKeys (storedKeys ((costPattern ++ containerPattern cs).map fun k => (k, ())))

/-- `evaluateHessian` (Nlp.h:124-170): cost values (already multiplied by the objective factor) and constraint
values. -/
def evaluateHessian [AddCommMonoid α] (costPattern : List (Nat × Nat)) (costValues : List α) (cs : List (HessCon α))
    (lambda : List α) : Res (List α) := do
  let cv ← containerValues cs lambda
  let ts := costPattern.zip costValues ++ (containerPattern cs).zip cv
  readValues ((lowerKeys (storedKeys ts)).map (valueAt ts)) (nlpPattern costPattern cs).length

end CT.Nlp
