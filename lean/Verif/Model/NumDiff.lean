import Mathlib.Algebra.Order.Field.Basic
import Mathlib.Data.Fintype.Basic
import Mathlib.Data.List.FinRange
import Mathlib.LinearAlgebra.Matrix.Defs

/-!
# Numerical differentiation

Model of `/repo/ct_core/include/ct/core/math/DerivativesNumDiff.h` and
`/repo/ct_core/include/ct/core/systems/linearizer/DynamicsLinearizerNumDiff.h`.
Simplification: `double` is an ordered field, so `(x + h) - x = h`; the user function is a pure
function.
-/

namespace CT.NumDiff

variable {K : Type} [Field K] [LinearOrder K]

/-- One column of the loop (DerivativesNumDiff.h:80-108, DynamicsLinearizerNumDiff.h:87-115):
perturb coordinate `i` of a copy of `x`. -/
def column {n : ℕ} {Y : Type} [AddCommGroup Y] [Module K Y] (f : (Fin n → K) → Y) (dbl : Bool) (eps : K)
    (yref : Y) (x : Fin n → K) (i : Fin n) : Y :=
  let h := eps * max |x i| 1
  let xph := x i + h
  let dxp := xph - x i
  let yp := f (Function.update x i xph)
  if dbl then
    let xmh := x i - h
    let dxm := x i - xmh
    let ym := f (Function.update x i xmh)
    (dxp + dxm)⁻¹ • (yp - ym)
  else dxp⁻¹ • (yp - yref)

/-- `jac.col(i) = v`. -/
def setCol {n m : ℕ} (J : Matrix (Fin m) (Fin n) K) (i : Fin n) (v : Fin m → K) : Matrix (Fin m) (Fin n) K :=
  Matrix.of fun r c => if c = i then v r else J r c

/-- The loop over the columns; `J0` is the (uninitialised or previous) content of the result. -/
def jacLoop {n m : ℕ} (f : (Fin n → K) → (Fin m → K)) (dbl : Bool) (eps : K) (yref : Fin m → K)
    (x : Fin n → K) (J0 : Matrix (Fin m) (Fin n) K) : Matrix (Fin m) (Fin n) K :=
  (List.finRange n).foldl (fun J i => setCol J i (column f dbl eps yref x i)) J0

/-- `DerivativesNumDiff::jacobian` (70-111); `y0`, `J0`: uninitialised locals. -/
def jacobian {n m : ℕ} (f : (Fin n → K) → (Fin m → K)) (dbl : Bool) (eps : K) (y0 : Fin m → K)
    (J0 : Matrix (Fin m) (Fin n) K) (x : Fin n → K) : Matrix (Fin m) (Fin n) K :=
  let yref := if !dbl then f x else y0
  jacLoop f dbl eps yref x J0

/-- Members of `DynamicsLinearizerNumDiff` (183-195). -/
structure Linearizer (n m : ℕ) (K : Type) where
  dyn : (Fin n → K) → K → (Fin m → K) → (Fin n → K)
  dbl : Bool
  eps : K
  resRef : Fin n → K
  dFdx : Matrix (Fin n) (Fin n) K
  dFdu : Matrix (Fin n) (Fin m) K

/-- `getDerivativeState` (82-119). -/
def Linearizer.getDerivativeState {n m : ℕ} (s : Linearizer n m K) (x : Fin n → K) (u : Fin m → K) (t : K) :
    Linearizer n m K :=
  let ref := if !s.dbl then s.dyn x t u else s.resRef
  { s with resRef := ref, dFdx := jacLoop (fun z => s.dyn z t u) s.dbl s.eps ref x s.dFdx }

/-- `getDerivativeControl` (134-173). -/
def Linearizer.getDerivativeControl {n m : ℕ} (s : Linearizer n m K) (x : Fin n → K) (u : Fin m → K) (t : K) :
    Linearizer n m K :=
  let ref := if !s.dbl then s.dyn x t u else s.resRef
  { s with resRef := ref, dFdu := jacLoop (fun w => s.dyn x t w) s.dbl s.eps ref u s.dFdu }

end CT.NumDiff
