import Mathlib.Algebra.Order.Field.Basic
import Mathlib.Algebra.Order.Group.Abs

/-!
# Extended numbers

Values of `double`/`SCALAR` where the code distinguishes infinities and NaN.  Finite values are
elements of an ordered field, so rounding is not modelled; the special values follow IEEE 754
(signed zeros are not distinguished).
-/

namespace CT

inductive Fl (R : Type) where
  | fin (r : R)
  | pinf
  | ninf
  | nan
  deriving DecidableEq, Repr

namespace Fl

variable {R : Type} [Field R] [LinearOrder R]

def isNan : Fl R → Bool
  | nan => true
  | _ => false

def neg : Fl R → Fl R
  | fin a => fin (-a)
  | pinf => ninf
  | ninf => pinf
  | nan => nan

def add : Fl R → Fl R → Fl R
  | nan, _ => nan
  | _, nan => nan
  | pinf, ninf => nan
  | ninf, pinf => nan
  | pinf, _ => pinf
  | _, pinf => pinf
  | ninf, _ => ninf
  | _, ninf => ninf
  | fin a, fin b => fin (a + b)

def sub (a b : Fl R) : Fl R := add a (neg b)

/-- `r * inf` for finite `r`. -/
def mulInf (r : R) : Fl R := if 0 < r then pinf else if r < 0 then ninf else nan

def mul : Fl R → Fl R → Fl R
  | nan, _ => nan
  | _, nan => nan
  | fin a, fin b => fin (a * b)
  | fin a, pinf => mulInf a
  | fin a, ninf => neg (mulInf a)
  | pinf, fin b => mulInf b
  | ninf, fin b => neg (mulInf b)
  | pinf, pinf => pinf
  | ninf, ninf => pinf
  | pinf, ninf => ninf
  | ninf, pinf => ninf

def div : Fl R → Fl R → Fl R
  | nan, _ => nan
  | _, nan => nan
  | fin a, fin b => if b = 0 then mulInf a else fin (a / b)
  | fin _, _ => fin 0
  | pinf, fin b => if b < 0 then ninf else pinf
  | ninf, fin b => if b < 0 then pinf else ninf
  | _, _ => nan

def abs : Fl R → Fl R
  | fin a => fin |a|
  | pinf => pinf
  | ninf => pinf
  | nan => nan

/-- `a < b` as the C++ comparison: false as soon as a NaN is involved. -/
def lt : Fl R → Fl R → Prop
  | fin a, fin b => a < b
  | fin _, pinf => True
  | ninf, fin _ => True
  | ninf, pinf => True
  | _, _ => False

/-- `a <= b` as the C++ comparison. -/
def le : Fl R → Fl R → Prop
  | fin a, fin b => a ≤ b
  | fin _, pinf => True
  | ninf, fin _ => True
  | ninf, pinf => True
  | pinf, pinf => True
  | ninf, ninf => True
  | _, _ => False

instance (a b : Fl R) : Decidable (lt a b) := by
  cases a <;> cases b <;> simp only [lt] <;> infer_instance

instance (a b : Fl R) : Decidable (le a b) := by
  cases a <;> cases b <;> simp only [le] <;> infer_instance

variable [IsStrictOrderedRing R]

theorem lt_of_sub_pos {a b : Fl R} (h : lt (fin 0) (sub a b)) : lt b a := by
  cases a <;> cases b <;> simp_all [lt, sub, add, neg]

theorem le_of_sub_nonneg {a b : Fl R} (h : le (fin 0) (sub a b)) : le b a := by
  cases a <;> cases b <;> simp_all [le, sub, add, neg]

end Fl

end CT
