import Mathlib.Analysis.SpecialFunctions.Trigonometric.Basic

/-!
# The language of the generated kinematics

The classes of coordinate transforms and Jacobians generated for every robot
(`ct_models/include/ct/models/<robot>/generated/transforms.impl.h` and `jacobians.impl.h`) all have the same
form.  The constructor assigns numbers to some entries of the matrix, and `update` computes sines and cosines of
joint positions and assigns sums and products of these and of numbers to other entries (for example
HyA/generated/transforms.impl.h:187-217, 219-235).  `E` are the expressions on the right sides, `Gen` is a class.

Simplifications: scalars are real numbers; the local variables that hold the sines and cosines are replaced by
what they hold.
-/

namespace CT.GenKin

/-- An expression: the decimal number `m / 10 ^ e`, the sine or cosine of a joint position, or an operation. -/
inductive E
  | k (m : Int) (e : Nat)
  | s (j : Nat)
  | c (j : Nat)
  | add (a b : E)
  | sub (a b : E)
  | mul (a b : E)
  | neg (a : E)

scoped infixl:65 " ⊞ " => E.add
scoped infixl:65 " ⊟ " => E.sub
scoped infixl:70 " ⊠ " => E.mul

/-- The value of an expression at the joint positions `q`. -/
noncomputable def E.eval (q : ℕ → ℝ) : E → ℝ
  | .k m e => (m : ℝ) / 10 ^ e
  | .s j => Real.sin (q j)
  | .c j => Real.cos (q j)
  | .add a b => a.eval q + b.eval q
  | .sub a b => a.eval q - b.eval q
  | .mul a b => a.eval q * b.eval q
  | .neg a => - a.eval q

/-- The entries of a matrix. -/
abbrev Mem := ℕ → ℕ → ℝ

/-- An assignment `(*this)(row, column) = value`. -/
structure Asg where
  i : ℕ
  j : ℕ
  e : E

/-- The effect of an assignment. -/
noncomputable def Asg.act (q : ℕ → ℝ) (m : Mem) (a : Asg) : Mem :=
  fun i j => if i = a.i ∧ j = a.j then a.e.eval q else m i j

/-- A class of the generated kinematics: the size of the matrix and the assignments of the constructor and of
`update`. -/
structure Gen where
  rows : ℕ
  cols : ℕ
  ctor : List Asg
  upd : List Asg

/-- The constructor; `z` is what the memory contained.  No expression in a constructor has a joint position. -/
noncomputable def Gen.new (g : Gen) (z : Mem) : Mem := g.ctor.foldl (Asg.act 0) z

/-- `update`. -/
noncomputable def Gen.update (g : Gen) (m : Mem) (q : ℕ → ℝ) : Mem := g.upd.foldl (Asg.act q) m

/-- The matrix after construction and calls of `update`. -/
noncomputable def Gen.after (g : Gen) (z : Mem) (calls : List (ℕ → ℝ)) : Mem := calls.foldl g.update (g.new z)

/-- All indices are inside the matrix. -/
def Gen.inside (g : Gen) : Prop := ∀ a ∈ g.ctor ++ g.upd, a.i < g.rows ∧ a.j < g.cols

/-- The transforms between two frames, `A_X_B`, in the three families `HomogeneousTransforms`,
`MotionTransforms` and `ForceTransforms`. -/
structure Trans where
  A : ℕ
  B : ℕ
  hom : Gen
  motion : Gen
  force : Gen

/-- A Jacobian `base_J_f`: the frame and the class. -/
structure Jac where
  f : ℕ
  gen : Gen

end CT.GenKin
