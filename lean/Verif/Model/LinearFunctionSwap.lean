import Mathlib.Data.List.Basic

/-!
# Swapping linear control laws

Models `swap` of `LinearFunctionMIMO` and `GeneralLinearFunction`
(ct_core/include/ct/core/control/continuous_time/mimo/LinearFunctions.h), which have the same members and the same code.

Not modelled: `setZero` (lines 27-32, 54-59), which calls a function that `DiscreteArray` does not have and cannot be instantiated.
-/

namespace CT.LinSwap

variable {T V M : Type}

/-- Members (LinearFunctions.h:34-37, 61-64): times, feedforward, its increment, gains. -/
structure Lin (T V M : Type) where
  time : List T
  uff : List V
  deltaUff : List V
  k : List M

/-- `a.swap(b)` (LinearFunctions.h:20-25, 47-52): the new contents of `a` and `b`. -/
def swap (a b : Lin T V M) : Lin T V M × Lin T V M :=
  ({ a with uff := b.uff, deltaUff := b.deltaUff, k := b.k }, { b with uff := a.uff, deltaUff := a.deltaUff, k := a.k })

/-- A call for the objects `p.1` and `p.2` of a program; a call for objects that do not exist is not possible and changes nothing. -/
def call (h : List (Lin T V M)) (p : ℕ × ℕ) : List (Lin T V M) :=
  match h[p.1]?, h[p.2]? with
  | some a, some b => (h.set p.1 (swap a b).1).set p.2 (swap a b).2
  | _, _ => h

/-- A program. -/
def run (h : List (Lin T V M)) (ps : List (ℕ × ℕ)) : List (Lin T V M) := ps.foldl call h

end CT.LinSwap
