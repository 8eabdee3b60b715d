import Mathlib.Data.Matrix.Basic
import Mathlib.Analysis.SpecialFunctions.Sqrt
import Verif.Model.Res

/-!
# The factorisation and the inverse of the joint space inertia matrix: the statements

`computeL`, `computeLInverse` and `computeInverse` of the five generated `jsim.impl.h` are straight line code
made of a few kinds of assignments to the entries of the members `L`, `Linv` and `inverse` (jsim.h, the private
members `MatrixType L; MatrixType Linv; MatrixType inverse;`).  The kinds are modelled here with the literal
indices as arguments; the sequences of assignments, one list per function and robot, are in
`Model/Robots/Factor.lean`.  Simplified: real arithmetic instead of floating point.
-/

namespace CT.JsimFactor

open CT

/-- A matrix member, read by row and column. -/
abbrev Arr := ℕ → ℕ → ℝ

/-- `A(a, b) = v`. -/
def put (A : Arr) (a b : ℕ) (v : ℝ) : Arr := fun i j => if i = a ∧ j = b then v else A i j

/-- The three matrix members of `JSIM` (for example HyA/generated/jsim.h:85-87). -/
structure Fact where
  L : Arr
  Linv : Arr
  inverse : Arr

/-- The kinds of statements.  `n` rows and columns; an index outside is undefined behaviour in a build without
Eigen's assertions. -/
inductive Stmt
  /-- `L(a, b) = std::sqrt(L(c, d))` (for example HyA/generated/jsim.impl.h:137) -/
  | sqrt (a b c d : ℕ)
  /-- `L(a, b) = L(c, d) / L(e, f)` (HyA/generated/jsim.impl.h:138) -/
  | div (a b c d e f : ℕ)
  /-- `L(a, b) = L(c, d) - L(e, f) * L(g, h)` (HyA/generated/jsim.impl.h:143) -/
  | sub (a b c d e f g h : ℕ)
  /-- `Linv(a, b) = 1 / L(c, d)` (HyA/generated/jsim.impl.h:251) -/
  | recip (a b c d : ℕ)
  /-- `Linv(a, b) = - Linv(c, d) * ((Linv(e, f) * L(g, h)) + ... + 0)` (HyA/generated/jsim.impl.h:257) -/
  | back (a b c d : ℕ) (l : List (ℕ × ℕ × ℕ × ℕ))
  /-- `inverse(a, b) = + (Linv(e, f) * Linv(g, h)) + ...` (HyA/generated/jsim.impl.h:210) -/
  | prod (a b : ℕ) (l : List (ℕ × ℕ × ℕ × ℕ))
  /-- `inverse(a, b) = inverse(c, d)` (HyA/generated/jsim.impl.h:213) -/
  | copy (a b c d : ℕ)
  deriving DecidableEq

/-- All indices of a statement. -/
def Stmt.indices : Stmt → List ℕ
  | .sqrt a b c d => [a, b, c, d]
  | .div a b c d e f => [a, b, c, d, e, f]
  | .sub a b c d e f g h => [a, b, c, d, e, f, g, h]
  | .recip a b c d => [a, b, c, d]
  | .back a b c d l => a :: b :: c :: d :: l.flatMap fun t => [t.1, t.2.1, t.2.2.1, t.2.2.2]
  | .prod a b l => a :: b :: l.flatMap fun t => [t.1, t.2.1, t.2.2.1, t.2.2.2]
  | .copy a b c d => [a, b, c, d]

/-- The effect of a statement on the three members. -/
noncomputable def Stmt.act (x : Fact) : Stmt → Fact
  | .sqrt a b c d => { x with L := put x.L a b (Real.sqrt (x.L c d)) }
  | .div a b c d e f => { x with L := put x.L a b (x.L c d / x.L e f) }
  | .sub a b c d e f g h => { x with L := put x.L a b (x.L c d - x.L e f * x.L g h) }
  | .recip a b c d => { x with Linv := put x.Linv a b (1 / x.L c d) }
  | .back a b c d l =>
    { x with
      Linv := put x.Linv a b (-x.Linv c d * ((l.map fun t => x.Linv t.1 t.2.1 * x.L t.2.2.1 t.2.2.2).sum + 0)) }
  | .prod a b l =>
    { x with inverse := put x.inverse a b (l.map fun t => x.Linv t.1 t.2.1 * x.Linv t.2.2.1 t.2.2.2).sum }
  | .copy a b c d => { x with inverse := put x.inverse a b (x.inverse c d) }

/-- The statements of a function one after the other, for matrices with `n` rows and columns. -/
noncomputable def run (n : ℕ) : List Stmt → Fact → Res Fact
  | [], x => .ok x
  | s :: p, x => if s.indices.all (· < n) then run n p (s.act x) else .ub

/-- `L = this -> template triangularView<Eigen::Lower>()` (for example HyA/generated/jsim.impl.h:135): the
entries above the diagonal are zero. -/
def lower {n : ℕ} (H : Matrix (Fin n) (Fin n) ℝ) : Arr := fun i j =>
  if h : i < n ∧ j < n then (if j ≤ i then H ⟨i, h.1⟩ ⟨j, h.2⟩ else 0) else 0

/-- The entries of a matrix member. -/
def mat (n : ℕ) (A : Arr) : Matrix (Fin n) (Fin n) ℝ := fun i j => A i j

/-- `computeL()` with its sequence `p` of statements. -/
noncomputable def computeL {n : ℕ} (p : List Stmt) (H : Matrix (Fin n) (Fin n) ℝ) (x : Fact) : Res Fact :=
  run n p { x with L := lower H }

/-- `computeInverse()`: `computeLInverse()` with the statements `pL`, then the statements `p`. -/
noncomputable def computeInverse (n : ℕ) (pL p : List Stmt) (x : Fact) : Res Fact :=
  run n pL x >>= run n p

end CT.JsimFactor
