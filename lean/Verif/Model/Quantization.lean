import Verif.Model.Res
import Mathlib.Algebra.Order.Floor.Ring
import Mathlib.Algebra.Order.Field.Basic

/-!
# Quantisation noise

Models `ct_core/include/ct/core/common/QuantizationNoise.h`.
-/

namespace CT.Quantization

/-- `QuantizationMethod` (QuantizationNoise.h:21-25). -/
inductive Method where
  | FLOOR
  | ROUND
  deriving DecidableEq

/-- Members (QuantizationNoise.h:104-107). -/
structure Quant (K : Type) where
  interval : K
  rest : List K
  bias : K
  method : Method
  deriving DecidableEq

variable {K : Type} [Field K] [LinearOrder K] [FloorRing K]

/-- Constructor (QuantizationNoise.h:33-39): one remainder, equal to zero. -/
def Quant.new (bias interval : K) (m : Method) : Quant K := ⟨interval, [0], bias, m⟩

/-- `std::round`: half away from zero. -/
def roundAway (x : K) : ℤ := if 0 ≤ x then ⌊x + 1 / 2⌋ else ⌈x - 1 / 2⌉

/-- Number of intervals (QuantizationNoise.h:58-74); the C++ variable is an `int`, here an
unbounded integer (conversion overflow is outside the model). -/
def nQuants (m : Method) (x : K) : ℤ :=
  match m with
  | .FLOOR => ⌊x⌋
  | .ROUND => roundAway x

/-- `resize(n, 0)` of a `std::vector`. -/
def resize (l : List K) (n : Nat) : List K := l.take n ++ List.replicate (n - l.length) 0

/-- `noisify(value, index)` (QuantizationNoise.h:49-81): new value and new object. -/
def Quant.noisify (q : Quant K) (value : K) (index : Nat) : Res (K × Quant K) := do
  -- line 51-52
  let rest := if q.rest.length ≤ index then resize q.rest index else q.rest
  -- line 54
  let r ← idx rest index
  let currentValue := value + r
  let n := nQuants q.method (currentValue / q.interval)
  let outputValue := (n : K) * q.interval
  -- line 78, 80
  pure (outputValue + q.bias, { q with rest := rest.set index (currentValue - outputValue) })

/-- `noisify(vector)` (QuantizationNoise.h:89-96): entry `i` with identifier `i`, starting at
identifier `i`. -/
def Quant.noisifyVec (q : Quant K) : List K → Nat → Res (List K × Quant K)
  | [], _ => .ok ([], q)
  | v :: vs, i => do
      let (o, q1) ← q.noisify v i
      let (os, q2) ← q1.noisifyVec vs (i + 1)
      pure (o :: os, q2)

/-- `reset()` (QuantizationNoise.h:102): clears the vector of remainders. -/
def Quant.reset (q : Quant K) : Quant K := { q with rest := [] }

/-- A sequence of calls `noisify(value, id)`. -/
def Quant.run (q : Quant K) : List (K × Nat) → Res (List K × Quant K)
  | [] => .ok ([], q)
  | c :: cs => do
      let (o, q1) ← q.noisify c.1 c.2
      let (os, q2) ← q1.run cs
      pure (o :: os, q2)

end CT.Quantization
