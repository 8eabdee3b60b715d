import Verif.Model.Res
import Mathlib.Analysis.SpecialFunctions.Trigonometric.Basic
import Mathlib.Data.Matrix.Basic

/-!
# Generated classes for Hessians

Models `CGHelpers::generateHessianSource` (`ct_core/include/ct/core/internal/autodiff/CGHelpers.h:176-229`), its use in
`DerivativesCppadCG::generateHessianSource` (`ct_core/include/ct/core/math/DerivativesCppadCG.h:160-179`) with the default pattern of
ones, and the class it writes from `ct_core/templates/Hessian.tpl.*`.

CppAD and CppADCodeGen are not modelled: what `SparseHessian` records is a parameter, and `nameOf` is how
`LangCDefaultHessianVarNameGenerator` chooses names.  Simplifications: the generated code has no temporary variables (those of the
shipped class in `Verif.Model.Robots.HyAHessian` are modelled) and scalars are real numbers.
-/

namespace CT.HesCg

noncomputable section

/-- Expressions of generated code, with variables in `V`. -/
inductive Ex (V : Type)
  | var (v : V)
  | k (c : ℚ)
  | add (a b : Ex V)
  | sub (a b : Ex V)
  | mul (a b : Ex V)
  | div (a b : Ex V)
  | neg (a : Ex V)
  | sin (a : Ex V)
  | cos (a : Ex V)

variable {V W : Type}

/-- The value, where `rd` reads a variable. -/
def Ex.eval (rd : V → Res ℝ) : Ex V → Res ℝ
  | .var v => rd v
  | .k c => .ok c
  | .add a b => do return (← a.eval rd) + (← b.eval rd)
  | .sub a b => do return (← a.eval rd) - (← b.eval rd)
  | .mul a b => do return (← a.eval rd) * (← b.eval rd)
  | .div a b => do return (← a.eval rd) / (← b.eval rd)
  | .neg a => do return -(← a.eval rd)
  | .sin a => do return Real.sin (← a.eval rd)
  | .cos a => do return Real.cos (← a.eval rd)

/-- Renaming of variables. -/
def Ex.map (g : V → W) : Ex V → Ex W
  | .var v => .var (g v)
  | .k c => .k c
  | .add a b => .add (a.map g) (b.map g)
  | .sub a b => .sub (a.map g) (b.map g)
  | .mul a b => .mul (a.map g) (b.map g)
  | .div a b => .div (a.map g) (b.map g)
  | .neg a => .neg (a.map g)
  | .sin a => .sin (a.map g)
  | .cos a => .cos (a.map g)

/-- Whether an expression is the constant zero, of which the assignment is left out (`setIgnoreZeroDepAssign`). -/
def Ex.isZero : Ex V → Bool
  | .k c => c = 0
  | _ => false

/-! ### Generated code -/

/-- Names in generated code: `x_in[i]`, `w_in[i]`, `v_[i]`, `hes[i]`. -/
inductive Ref
  | x (i : ℕ)
  | w (i : ℕ)
  | v (i : ℕ)
  | hes (i : ℕ)

/-- An assignment to `v_[i]` or `hes[i]`. -/
inductive Stmt
  | v (i : ℕ) (e : Ex Ref)
  | hes (i : ℕ) (e : Ex Ref)

/-- The members `v_` and `hessian_` of a generated class (Hessian.tpl.h:40-41). -/
structure Mem where
  v : ℕ → ℝ
  hes : ℕ → ℝ

/-- Constructor (Hessian.tpl.h:22-26). -/
def Mem.new : Mem := ⟨0, 0⟩

/-- An element of a vector; outside of it the behaviour is undefined (in builds with assertions one fails). -/
def at? (l : List ℝ) (i : ℕ) : Res ℝ :=
  match l[i]? with
  | some a => .ok a
  | none => .ub

/-- Reading a name. -/
def rd (x w : List ℝ) (s : Mem) : Ref → Res ℝ
  | .x i => at? x i
  | .w i => at? w i
  | .v i => .ok (s.v i)
  | .hes i => .ok (s.hes i)

/-- Running an assignment. -/
def Stmt.run (x w : List ℝ) (s : Mem) : Stmt → Res Mem
  | .v i e => do return { s with v := Function.update s.v i (← e.eval (rd x w s)) }
  | .hes i e => do return { s with hes := Function.update s.hes i (← e.eval (rd x w s)) }

/-- Running the code. -/
def runAll (x w : List ℝ) : Mem → List Stmt → Res Mem
  | s, [] => .ok s
  | s, c :: cs => do runAll x w (← c.run x w s) cs

/-- `hessian(x_in, w_in)` of a generated class for `n` inputs (Hessian.tpl.cpp:15-22): the members after the call and the matrix,
stored column by column. -/
def hessian (n : ℕ) (code : List Stmt) (s : Mem) (x w : List ℝ) : Res (Mem × Matrix (Fin n) (Fin n) ℝ) := do
  let s' ← runAll x w s code
  return (s', Matrix.of fun r c => s'.hes (c * n + r))

/-- The members after successful calls. -/
def Reached (n : ℕ) (code : List Stmt) (s : Mem) : Prop :=
  Relation.ReflTransGen (fun a b => ∃ x w M, hessian n code a x w = .ok (b, M)) Mem.new s

/-! ### The generator -/

/-- The name of the independent variable `id` with a name generator for `split` variables of the first level
(`LangCDefaultHessianVarNameGenerator(nameGen, "w_in", split)` of CppADCodeGen): the first `split` variables are the elements of
`x_in`, the others those of `w_in`. -/
def nameOf (split id : ℕ) : Ref := if id < split then .x id else .w (id - split)

/-- Loops over the lower triangle (CGHelpers.h:213-215).  Entries read, above the diagonal, are not written. -/
def mirror (n : ℕ) (hes : ℕ → Ex ℕ) (i : ℕ) : Ex ℕ := if i % n < i / n then hes (i % n * n + i / n) else hes i

/-- `generateHessianSource` (CGHelpers.h:176-229) of a function with `n` inputs and `m` outputs.  `hes` is what
`SparseHessian` records: the variables are numbered in the order of `makeVariables`, first the `n` inputs (line 191), then the `m`
weights (line 200).  The name generator is constructed with `m` (line 220). -/
def generateHessianSource (n m : ℕ) (ignoreZero : Bool) (hes : ℕ → Ex ℕ) : List Stmt :=
  (((List.range (n * n)).map fun i => (i, mirror n hes i)).filter fun p => !(ignoreZero && p.2.isZero)).map fun p =>
    .hes p.1 (p.2.map (nameOf m))

end

end CT.HesCg
