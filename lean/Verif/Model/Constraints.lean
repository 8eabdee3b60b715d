import Verif.Model.Res
import Mathlib.Algebra.Order.Group.Defs
import Mathlib.Algebra.Order.Ring.Defs
import Mathlib.Algebra.BigOperators.Fin

/-!
# Constraint terms and containers

Models, in `/repo/ct_optcon/include/ct/optcon/constraint/`:
`ConstraintContainerBase-impl.h`, `LinearConstraintContainer-impl.h`,
`ConstraintContainerAnalytical-impl.h`, `term/ConstraintBase-impl.h`, `term/BoxConstraintBase-impl.h`,
`term/StateConstraint-impl.h`, `term/ControlInputConstraint-impl.h`, `term/TerminalConstraint-impl.h`.

Dynamic vectors are lists, dynamic matrices lists of rows, `Eigen::VectorXi` index vectors are lists
of naturals (row and column vector of a pattern are kept as one list of pairs; a term whose two index
vectors differ in length is not represented).  Printing, names and the code-generation variants are
left out.
-/

namespace CT.Constraints

variable {K : Type}

/-- A constraint term as seen by a container (term/ConstraintBase.h: `getConstraintSize`, `evaluate`,
`getLowerBound`, `getUpperBound`, dense and sparse Jacobians, non-zero counts and patterns). `P` is the
point (state, control, time). -/
structure Term (P K : Type) where
  size : Nat
  eval : P → List K
  lb : List K
  ub : List K
  jacX : P → List (List K)
  nnzX : Nat
  sparseX : P → List K
  patX : List (Nat × Nat)
  jacU : P → List (List K)
  nnzU : Nat
  sparseU : P → List K
  patU : List (Nat × Nat)

/-! ### term/ConstraintBase-impl.h -/

/-- `genBlockIndices` (182-203): nested loops over rows, then columns. -/
def genBlockIndices (rows cols : Nat) : List (Nat × Nat) :=
  (List.range rows).flatMap (fun r => (List.range cols).map (fun c => (r, c)))

/-- `genDiagonalIndices` (136-151). -/
def genDiagonalIndices (n : Nat) : List (Nat × Nat) := (List.range n).map (fun i => (i, i))

/-- `genSparseDiagonalIndices` (155-179); both index vectors have as many entries as there are ones. -/
def genSparseDiagonalIndices (sp : List Int) : List (Nat × Nat) :=
  sp.zipIdx.filterMap (fun p => if p.1 = 1 then some (p.2, p.2) else none)

/-- Default `jacobianStateSparse`/`jacobianInputSparse` (100-121): the storage of the dense matrix, which
Eigen keeps column by column, read as one vector. `rows`, `cols` are the dimensions of `J`. -/
def flattenDense [Zero K] (rows cols : Nat) (J : List (List K)) : List K :=
  (List.range cols).flatMap (fun c => (List.range rows).map (fun r => ((J[r]?).bind (·[c]?)).getD 0))

/-- A term that implements only evaluation, bounds and dense Jacobians (87-133); `n`, `m` are the state and
control dimension. -/
def Term.ofDense {P : Type} [Zero K] (n m size : Nat) (eval : P → List K) (lb ub : List K)
    (jacX jacU : P → List (List K)) : Term P K where
  size := size
  eval := eval
  lb := lb
  ub := ub
  jacX := jacX
  nnzX := n * size
  sparseX := fun p => flattenDense size n (jacX p)
  patX := genBlockIndices size n
  jacU := jacU
  nnzU := m * size
  sparseU := fun p => flattenDense size m (jacU p)
  patU := genBlockIndices size m

/-! ### term/BoxConstraintBase-impl.h, StateConstraint-impl.h, ControlInputConstraint-impl.h -/

/-- `sanityCheck` (94-117): `true` if no exception. -/
def sanityCheck [LT K] [DecidableRel (fun a b : K => a < b)] (nCon : Nat) (lb ub : List K) : Bool :=
  decide (lb.length = nCon ∧ ub.length = nCon) &&
    ((List.range nCon).all (fun i =>
      match lb[i]?, ub[i]? with
      | some a, some b => !decide (b < a)
      | _, _ => true))

/-- Matrix entry write `mat(r, c) = v`. -/
def setEntry (mat : Nat → Nat → K) (r c : Nat) (v : K) : Nat → Nat → K :=
  fun i j => if i = r ∧ j = c then v else mat i j

/-- Loop of `diagSparsityVecToSparsityMat` (71-90) over the remaining entries `sp`, at column `i` with
`count` rows already used out of `n`; an access beyond the last row is undefined. -/
def fillRows [One K] (n : Nat) : List Int → (i count : Nat) → (Nat → Nat → K) → Res (Nat → Nat → K)
  | [], _, _, mat => Res.ok mat
  | s :: rest, i, count, mat =>
      if s = 1 then
        if count < n then fillRows n rest (i + 1) (count + 1) (setEntry mat count i 1) else Res.ub
      else fillRows n rest (i + 1) count mat

/-- Members of `BoxConstraintBase`: bounds, selection matrix (`constrSize × D`), 0/1 vector, size. -/
structure Box (K : Type) where
  constrSize : Nat
  lb : List K
  ub : List K
  sparsity : List Int
  J : Nat → Nat → K

/-- Sum of an integer vector. -/
def sumInt (l : List Int) : Int := l.foldl (· + ·) 0

/-- Sparse constructor (30-50). The assertions on the sparsity vector (0/1 entries, length `D`) are
preconditions: violating them is undefined in release builds. -/
def Box.sparse [Zero K] [One K] [LT K] [DecidableRel (fun a b : K => a < b)] (D : Nat) (lb ub : List K) (sp : List Int) :
    Res (Box K) :=
  if ¬ (sp.length = D ∧ ∀ s ∈ sp, s = 0 ∨ s = 1) then Res.ub
  else
    let n := (sumInt sp).toNat
    if sanityCheck n lb ub then do
      let J ← fillRows n sp 0 0 (fun _ _ => 0)
      pure ⟨n, lb, ub, sp, J⟩
    else Res.exc

/-- Dense constructor (12-27): the bounds have the fixed size `D`. -/
def Box.dense [Zero K] [One K] [LT K] [DecidableRel (fun a b : K => a < b)] (D : Nat) (lb ub : List K) : Res (Box K) :=
  if sanityCheck D lb ub then
    Res.ok ⟨D, lb, ub, List.replicate D 1, fun i j => if i = j then 1 else 0⟩
  else Res.exc

/-- `StateConstraint::evaluate`/`ControlInputConstraint::evaluate`: `sparsity_J_ * x`. -/
def Box.evaluate [Semiring K] {D : Nat} (b : Box K) (x : Fin D → K) : List K :=
  (List.range b.constrSize).map (fun r => ∑ c : Fin D, b.J r c * x c)

/-- `jacobianStateSparse` resp. `jacobianInputSparse`: all ones. -/
def Box.sparseJac [One K] (b : Box K) : List K := List.replicate b.constrSize 1

/-- `sparsityPatternSparseJacobian` (121-130): diagonal indices with the row numbers overwritten by
0, 1, 2, ...; writing more rows than the vector has is undefined. -/
def Box.pattern (b : Box K) : Res (List (Nat × Nat)) :=
  let d := genSparseDiagonalIndices b.sparsity
  if b.constrSize ≤ d.length then
    Res.ok (d.zipIdx.map (fun p => if p.2 < b.constrSize then (p.2, p.1.2) else p.1))
  else Res.ub

/-! ### ConstraintContainerBase-impl.h: violations -/

section Violation
variable [AddGroup K] [LinearOrder K]

/-- `getUpperBoundsViolation...` (81-85, 97-101), componentwise. -/
def upperViolation (v ub : K) : K := max (v - ub) 0
/-- `getLowerBoundsViolation...` (89-93, 105-109), componentwise. -/
def lowerViolation (v lb : K) : K := min (v - lb) 0
/-- `getTotalBoundsViolation...` (113-129), componentwise. -/
def totalViolation (v lb ub : K) : K := min (v - lb) 0 + max (v - ub) 0

/-- Vector form of the three: operands of different sizes are undefined (Eigen assertion). -/
def violations (v lb ub : List K) : Res (List K × List K × List K) :=
  if v.length = lb.length ∧ v.length = ub.length then
    Res.ok (List.zipWith upperViolation v ub, List.zipWith lowerViolation v lb,
      List.zipWith (fun x (b : K × K) => totalViolation x b.1 b.2) v (lb.zip ub))
  else Res.ub

end Violation

/-! ### ConstraintContainerAnalytical-impl.h -/

/-- Members of the container for one of the two kinds (intermediate or terminal). -/
structure Half (P K : Type) where
  terms : List (Term P K)
  initialized : Bool
  evalBuf : List K
  sparseXBuf : List K
  sparseUBuf : List K
  denseXBuf : List (List K)
  denseUBuf : List (List K)
  lb : List K
  ub : List K

/-- The container: both kinds and the current point. -/
structure Container (P K : Type) where
  inter : Half P K
  term : Half P K
  point : P

variable {P : Type}

/-- Empty half of a new container (default members, flags false: LinearConstraintContainer-impl.h:12-15). -/
def Half.empty : Half P K := ⟨[], false, [], [], [], [], [], [], []⟩

/-- `addIntermediateConstraint` / `addTerminalConstraint` (67-94). -/
def Half.add (h : Half P K) (t : Term P K) : Half P K :=
  { h with terms := h.terms ++ [t], initialized := false }

/-- `segment(pos, dim) = v` on a dynamic vector (also `block(pos, 0, dim, cols) = M` on the rows of a
matrix): undefined when out of range or of the wrong size. -/
def setSegment {α : Type} (buf : List α) (pos dim : Nat) (v : List α) : Res (List α) :=
  if pos + dim ≤ buf.length ∧ v.length = dim then Res.ok (buf.take pos ++ v ++ buf.drop (pos + dim)) else Res.ub

/-- Loop writing one segment per term, at increasing positions: body of `evaluate...` (98-126) and of the
dense Jacobians (171-187, 212-226, 250-264, 289-304); with `dim` the non-zero count also of the sparse
ones (150-168, 191-208, 229-247, 268-286), where the test `nonZeros != 0` skips terms without entries. -/
def fillSegments {α : Type} (dim : Term P K → Nat) (val : Term P K → List α) (skipEmpty : Bool) :
    List (Term P K) → Nat → List α → Res (List α)
  | [], _, buf => Res.ok buf
  | t :: ts, count, buf =>
      if skipEmpty ∧ dim t = 0 then fillSegments dim val skipEmpty ts count buf
      else do
        let buf ← setSegment buf count (dim t) (val t)
        fillSegments dim val skipEmpty ts (count + dim t) buf

/-- `getIntermediateConstraintsCount` / `getTerminalConstraintsCount` (129-147). -/
def Half.count (h : Half P K) : Nat := h.terms.foldl (fun a t => a + t.size) 0
/-- `getJacobianStateNonZeroCount...` (459-476). -/
def Half.nnzX (h : Half P K) : Nat := h.terms.foldl (fun a t => a + t.nnzX) 0
/-- `getJacobianInputNonZeroCount...` (479-496). -/
def Half.nnzU (h : Half P K) : Nat := h.terms.foldl (fun a t => a + t.nnzU) 0

/-- `initializeIntermediate` / `initializeTerminal` (499-566) followed by setting the flag
(LinearConstraintContainer-impl.h:39-43). -/
def Half.initialize [Zero K] (n m : Nat) (h : Half P K) : Res (Half P K) :=
  if 0 < h.count then do
    let z := List.replicate h.count 0
    let lb ← fillSegments (fun t => t.size) (fun t => t.lb) false h.terms 0 z
    let ub ← fillSegments (fun t => t.size) (fun t => t.ub) false h.terms 0 z
    pure { h with
      evalBuf := z, sparseXBuf := List.replicate h.nnzX 0, sparseUBuf := List.replicate h.nnzU 0,
      denseXBuf := List.replicate h.count (List.replicate n 0),
      denseUBuf := List.replicate h.count (List.replicate m 0), lb := lb, ub := ub, initialized := true }
  else Res.ok { h with initialized := true }

/-- `evaluateIntermediate` / `evaluateTerminal` (98-126), after the check. -/
def Half.evaluate (h : Half P K) (p : P) : Res (List K) :=
  fillSegments (fun t => t.size) (fun t => t.eval p) false h.terms 0 h.evalBuf

/-- Sparse state Jacobian (150-168, 191-208), after the check. -/
def Half.sparseX (h : Half P K) (p : P) : Res (List K) :=
  fillSegments (fun t => t.nnzX) (fun t => t.sparseX p) true h.terms 0 h.sparseXBuf

/-- Dense state Jacobian (171-187, 212-226), after the check. -/
def Half.denseX (h : Half P K) (p : P) : Res (List (List K)) :=
  fillSegments (fun t => t.size) (fun t => t.jacX p) false h.terms 0 h.denseXBuf

/-- Sparse input Jacobian (229-247, 268-286), after the check. -/
def Half.sparseU (h : Half P K) (p : P) : Res (List K) :=
  fillSegments (fun t => t.nnzU) (fun t => t.sparseU p) true h.terms 0 h.sparseUBuf

/-- Dense input Jacobian (250-264, 289-304), after the check. -/
def Half.denseU (h : Half P K) (p : P) : Res (List (List K)) :=
  fillSegments (fun t => t.size) (fun t => t.jacU p) false h.terms 0 h.denseUBuf

/-- Loop of the sparsity patterns (308-456): rows are offset by the sizes of the preceding terms; a term
whose pattern length differs from its non-zero count makes the segment assignment undefined. -/
def patternLoop (nnz : Term P K → Nat) (pat : Term P K → List (Nat × Nat)) :
    List (Term P K) → Nat → List (Nat × Nat) → Res (List (Nat × Nat))
  | [], _, acc => Res.ok acc
  | t :: ts, off, acc =>
      if 0 < nnz t then
        if (pat t).length = nnz t then
          patternLoop nnz pat ts (off + t.size) (acc ++ (pat t).map (fun q => (q.1 + off, q.2)))
        else Res.ub
      else patternLoop nnz pat ts (off + t.size) acc

/-- `sparsityPatternState...` after the check. -/
def Half.patternX (h : Half P K) : Res (List (Nat × Nat)) := patternLoop (fun t => t.nnzX) (fun t => t.patX) h.terms 0 []
/-- `sparsityPatternInput...` after the check. -/
def Half.patternU (h : Half P K) : Res (List (Nat × Nat)) := patternLoop (fun t => t.nnzU) (fun t => t.patU) h.terms 0 []

/-- Calls on a container. -/
inductive Op (P K : Type) where
  | addIntermediate (t : Term P K)
  | addTerminal (t : Term P K)
  | initialize
  | setPoint (p : P)
  | evaluateIntermediate
  | evaluateTerminal

/-- One call; undefined behaviour ends the history, an exception (evaluation before initialisation) leaves
the container unchanged and the caller goes on. Jacobian queries overwrite their whole buffer in the same
way as `evaluate...`; they are not part of histories. -/
def Container.step [Zero K] (n m : Nat) (c : Container P K) : Op P K → Res (Container P K)
  | .addIntermediate t => Res.ok { c with inter := c.inter.add t }
  | .addTerminal t => Res.ok { c with term := c.term.add t }
  | .initialize => do
      let i ← c.inter.initialize n m
      let t ← c.term.initialize n m
      pure { c with inter := i, term := t }
  | .setPoint p => Res.ok { c with point := p }
  | .evaluateIntermediate =>
      if !c.inter.initialized then Res.ok c
      else do
        let v ← c.inter.evaluate c.point
        pure { c with inter := { c.inter with evalBuf := v } }
  | .evaluateTerminal =>
      if !c.term.initialized then Res.ok c
      else do
        let v ← c.term.evaluate c.point
        pure { c with term := { c.term with evalBuf := v } }

/-- A new container at the zero point `p₀` (ConstraintContainerBase-impl.h:12-15). -/
def Container.new (p₀ : P) : Container P K := ⟨.empty, .empty, p₀⟩

/-- A history of calls. -/
def Container.run [Zero K] (n m : Nat) (c : Container P K) (ops : List (Op P K)) : Res (Container P K) :=
  ops.foldlM (Container.step n m) c

/-- A query guarded by an initialisation flag (575-586). -/
def guarded {α : Type} (flag : Bool) (r : Res α) : Res α := if !flag then Res.exc else r

/-- `evaluateIntermediate` (98-111). -/
def Container.evaluateIntermediate (c : Container P K) : Res (List K) :=
  guarded c.inter.initialized (c.inter.evaluate c.point)
/-- `getUpperBoundsViolationIntermediate`, `getLowerBoundsViolationIntermediate`,
`getTotalBoundsViolationIntermediate` (ConstraintContainerBase-impl.h:81-93, 113-119). -/
def Container.violationsIntermediate [AddGroup K] [LinearOrder K] (c : Container P K) :
    Res (List K × List K × List K) := do
  let v ← c.evaluateIntermediate
  violations v c.inter.lb c.inter.ub
/-- `evaluateTerminal` (114-126). -/
def Container.evaluateTerminal (c : Container P K) : Res (List K) :=
  guarded c.term.initialized (c.term.evaluate c.point)
/-- The terminal counterparts (ConstraintContainerBase-impl.h:97-109, 123-129). -/
def Container.violationsTerminal [AddGroup K] [LinearOrder K] (c : Container P K) :
    Res (List K × List K × List K) := do
  let v ← c.evaluateTerminal
  violations v c.term.lb c.term.ub
/-- `jacobianStateSparseIntermediate` (150-168). -/
def Container.jacobianStateSparseIntermediate (c : Container P K) : Res (List K) :=
  guarded c.inter.initialized (c.inter.sparseX c.point)
/-- `jacobianStateIntermediate` (171-187). -/
def Container.jacobianStateIntermediate (c : Container P K) : Res (List (List K)) :=
  guarded c.inter.initialized (c.inter.denseX c.point)
/-- `jacobianStateSparseTerminal` (191-208): guarded by the *intermediate* flag. -/
def Container.jacobianStateSparseTerminal (c : Container P K) : Res (List K) :=
  guarded c.inter.initialized (c.term.sparseX c.point)
/-- `jacobianStateTerminal` (212-226): guarded by the *intermediate* flag. -/
def Container.jacobianStateTerminal (c : Container P K) : Res (List (List K)) :=
  guarded c.inter.initialized (c.term.denseX c.point)
/-- `jacobianInputSparseIntermediate` (229-247). -/
def Container.jacobianInputSparseIntermediate (c : Container P K) : Res (List K) :=
  guarded c.inter.initialized (c.inter.sparseU c.point)
/-- `jacobianInputIntermediate` (250-264). -/
def Container.jacobianInputIntermediate (c : Container P K) : Res (List (List K)) :=
  guarded c.inter.initialized (c.inter.denseU c.point)
/-- `jacobianInputSparseTerminal` (268-286). -/
def Container.jacobianInputSparseTerminal (c : Container P K) : Res (List K) :=
  guarded c.term.initialized (c.term.sparseU c.point)
/-- `jacobianInputTerminal` (289-304). -/
def Container.jacobianInputTerminal (c : Container P K) : Res (List (List K)) :=
  guarded c.term.initialized (c.term.denseU c.point)
/-- `sparsityPatternStateIntermediate` (308-342). -/
def Container.sparsityPatternStateIntermediate (c : Container P K) : Res (List (Nat × Nat)) :=
  guarded c.inter.initialized c.inter.patternX
/-- `sparsityPatternStateTerminal` (346-381). -/
def Container.sparsityPatternStateTerminal (c : Container P K) : Res (List (Nat × Nat)) :=
  guarded c.term.initialized c.term.patternX
/-- `sparsityPatternInputIntermediate` (384-418). -/
def Container.sparsityPatternInputIntermediate (c : Container P K) : Res (List (Nat × Nat)) :=
  guarded c.inter.initialized c.inter.patternU
/-- `sparsityPatternInputTerminal` (421-456). -/
def Container.sparsityPatternInputTerminal (c : Container P K) : Res (List (Nat × Nat)) :=
  guarded c.term.initialized c.term.patternU

/-! ### Concrete terms -/

/-- A `StateConstraint` made from an accepted box on the state. The point is (state, control, time). -/
def Box.stateTerm [Semiring K] {n m : Nat} (b : Box K) (pat : List (Nat × Nat)) : Term ((Fin n → K) × (Fin m → K) × K) K where
  size := b.constrSize
  eval := fun p => b.evaluate p.1
  lb := b.lb
  ub := b.ub
  jacX := fun _ => (List.range b.constrSize).map (fun r => (List.range n).map (b.J r))
  nnzX := b.constrSize
  sparseX := fun _ => b.sparseJac
  patX := pat
  jacU := fun _ => List.replicate b.constrSize (List.replicate m 0)
  nnzU := 0
  sparseU := fun _ => []
  patU := []

/-- A `ControlInputConstraint` made from an accepted box on the control. -/
def Box.inputTerm [Semiring K] {n m : Nat} (b : Box K) (pat : List (Nat × Nat)) : Term ((Fin n → K) × (Fin m → K) × K) K where
  size := b.constrSize
  eval := fun p => b.evaluate p.2.1
  lb := b.lb
  ub := b.ub
  jacX := fun _ => List.replicate b.constrSize (List.replicate n 0)
  nnzX := 0
  sparseX := fun _ => []
  patX := []
  jacU := fun _ => (List.range b.constrSize).map (fun r => (List.range m).map (b.J r))
  nnzU := b.constrSize
  sparseU := fun _ => b.sparseJac
  patU := pat

/-- `TerminalConstraint` (term/TerminalConstraint-impl.h:12-100). -/
def terminalTerm [Ring K] {n m : Nat} (xf : Fin n → K) : Term ((Fin n → K) × (Fin m → K) × K) K where
  size := n
  eval := fun p => List.ofFn (fun i => p.1 i - xf i)
  lb := List.replicate n 0
  ub := List.replicate n 0
  jacX := fun _ => (List.range n).map (fun r => (List.range n).map (fun c => if r = c then 1 else 0))
  nnzX := n
  sparseX := fun _ => List.replicate n 1
  patX := genDiagonalIndices n
  jacU := fun _ => List.replicate n (List.replicate m 0)
  nnzU := 0
  sparseU := fun _ => []
  patU := []

end CT.Constraints
