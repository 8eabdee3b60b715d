import Verif.Model.Res
import Mathlib.Algebra.Field.Basic

/-!
# Discrete arrays and uniform time arrays

Models `ct_core/include/ct/core/types/arrays/DiscreteArray.h`,
`types/arrays/TimeArray.h` and `common/linspace.h`.
-/

namespace CT.Arrays

section Ops
variable {T : Type} [AddCommGroup T]

/-- `operator+` (DiscreteArray.h:98-107): throws on different sizes, else element-wise
`std::transform` with `std::plus`. -/
def add (a b : List T) : Res (List T) :=
  if a.length ≠ b.length then .exc else .ok (List.zipWith (· + ·) a b)

/-- `operator-` (DiscreteArray.h:110-119). -/
def sub (a b : List T) : Res (List T) :=
  if a.length ≠ b.length then .exc else .ok (List.zipWith (· - ·) a b)

/-- `operator+=` (DiscreteArray.h:122-129): outcome and the new value of the left operand. -/
def addAssign (a b : List T) : Res Unit × List T :=
  if a.length ≠ b.length then (.exc, a) else (.ok (), List.zipWith (· + ·) a b)

/-- `operator-=` (DiscreteArray.h:132-139). -/
def subAssign (a b : List T) : Res Unit × List T :=
  if a.length ≠ b.length then (.exc, a) else (.ok (), List.zipWith (· - ·) a b)

/-- `setConstant` (DiscreteArray.h:166). -/
def setConstant (a : List T) (x : T) : List T := a.map (fun _ => x)

/-- `addOffset` (DiscreteArray.h:168-171). -/
def addOffset (a : List T) (x : T) : List T := a.map (fun v => v + x)

/-- `eraseFront(N)` (DiscreteArray.h:164); undefined when `N > size()`. -/
def eraseFront (a : List T) (n : Nat) : Res (List T) :=
  if a.length < n then .ub else .ok (a.drop n)

end Ops

section Scalar
variable {K : Type} [Field K]

/-- `operator*(scalar)` (DiscreteArray.h:142-148), for scalar elements. -/
def scale (a : List K) (s : K) : List K := a.map (fun v => v * s)

/-- `operator/(scalar)` (DiscreteArray.h:151-157), for scalar elements. -/
def divide (a : List K) (s : K) : List K := a.map (fun v => v / s)

/-- The loop of `linspace` (linspace.h:36-37): write `val`, then `val += h`, `n` times. -/
def linspaceLoop (h : K) : Nat → K → List K
  | 0, _ => []
  | n + 1, val => val :: linspaceLoop h n (val + h)

/-- `linspace` (linspace.h:22-40). For `N = 1` the C++ step `h` is `(b-a)/0.0` (NaN or infinite);
it is never written to the array, so the value chosen by Lean's division does not matter. -/
def linspace (a b : K) (n : Nat) : Res (List K) :=
  if n < 1 then .exc else .ok (linspaceLoop ((b - a) / ((n - 1 : Nat) : K)) n a)

/-- `TimeArray(dt, N, t0)` (TimeArray.h:33-36). For `N = 0` the product `(N-1)*dt` wraps around
in `size_t`, but `linspace` throws before using it. -/
def timeArray (dt : K) (n : Nat) (t0 : K) : Res (List K) :=
  linspace t0 (t0 + ((n - 1 : Nat) : K) * dt) n

end Scalar

end CT.Arrays
