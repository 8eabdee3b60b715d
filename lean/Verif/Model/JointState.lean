import Verif.Model.Res
import Mathlib.Algebra.Order.Floor.Ring
import Mathlib.Algebra.Order.Field.Basic

/-!
# Joint states

Models the limit checks and the angle normalisation of
`ct_rbd/include/ct/rbd/state/JointState.h`.  Numbers are elements of an ordered field with a floor
function (no rounding); `c` stands for the constant `2 * M_PI`.  Joint positions, velocities and
limits are lists of length `NJOINTS`, as the `assert`s on the limits demand.
-/

namespace CT.Joint

variable {K : Type} [Field K] [LinearOrder K] [FloorRing K]

/-- Conversion of the result of `std::floor` to `int` (32 bit): undefined if it does not fit. -/
def toInt (k : Int) : Res Int :=
  if -2147483648 ≤ k ∧ k ≤ 2147483647 then .ok k else .ub

/-- `std::abs(int)`: undefined for the smallest `int`. -/
def absInt (k : Int) : Res Int := if k = -2147483648 then .ub else .ok |k|

/-- Body of the loop of `toUniquePosition` for one joint (JointState.h:101-110): the new position. -/
def uniqueOne (c q lower tolerance : K) : Res K := do
  let k_lower ← toInt ⌊(q - (lower - tolerance)) / c⌋
  let k_upper ← toInt ⌊(q - (lower + tolerance)) / c⌋
  let al ← absInt k_lower
  let au ← absInt k_upper
  if al ≤ au then
    if k_lower ≠ 0 then pure (q - (k_lower : K) * c) else pure q
  else if k_upper ≠ 0 then pure (q - (k_upper : K) * c) else pure q

/-- `toUniquePosition` (JointState.h:94-112) on the list of joint positions; the limits have as
many entries as there are joints. -/
def toUniquePosition (c tolerance : K) : List K → List K → Res (List K)
  | [], _ => .ok []
  | q :: qs, l :: ls => do
      let q' ← uniqueOne c q l tolerance
      let rest ← toUniquePosition c tolerance qs ls
      pure (q' :: rest)
  | _ :: _, [] => .ub

omit [FloorRing K] in
/-- `checkPositionLimits` (JointState.h:115-128): loop over the joints with early return. -/
def checkPositionLimits (tolerance : K) : List (K × K × K) → Bool
  | [] => true
  | (q, lower, upper) :: rest =>
      if (tolerance < |q - lower| ∧ q < lower) ∨ (tolerance < |q - upper| ∧ upper < q) then false
      else checkPositionLimits tolerance rest

omit [FloorRing K] in
/-- `checkVelocityLimits` (JointState.h:149-157). -/
def checkVelocityLimits : List (K × K) → Bool
  | [] => true
  | (v, limit) :: rest => if limit < |v| then false else checkVelocityLimits rest

end CT.Joint
