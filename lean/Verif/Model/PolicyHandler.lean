import Verif.Model.StateFeedback
import Mathlib.Algebra.Order.Floor.Defs

/-!
# Warm starting and truncating MPC policies

Model of `/repo/ct_optcon/include/ct/optcon/mpc/policyhandler/default/StateFeedbackPolicyHandler-impl.h`.
`int` is unbounded here (the conversions of sizes and of `lround` to `int` are assumed not to
overflow).
-/

namespace CT.PolicyHandler
open CT.Interp CT.StateFeedback

variable {n m : Nat} {K : Type} [Field K] [LinearOrder K] [FloorRing K]

/-- `std::lround`: nearest integer, halfway cases away from zero. -/
def lround (x : K) : Int := if 0 ≤ x then ⌊x + 1 / 2⌋ else -⌊-x + 1 / 2⌋

/-- `DiscreteTrajectoryBase::size` (DiscreteTrajectoryBase.h:146-152). -/
def size {D : Type} (tr : Traj K D) : Res Nat :=
  if tr.data.length ≠ tr.time.length then Res.exc else Res.ok tr.data.length

/-- A modifying call on a trajectory: the new object, or how the call ended. -/
def upd {D : Type} [AddCommGroup D] [Module K D] (tr : Traj K D) (op : Op K D) : Res (Traj K D) :=
  match step tr op with
  | (.ok _, tr') => Res.ok tr'
  | (.exc, _) => Res.exc
  | (.ub, _) => Res.ub

/-- `getIndexFromTime` (DiscreteTrajectoryBase.h:250) on the feed-forward trajectory: index and
controller with the updated search cache. -/
def indexOf (c : Ctrl n m K) (t : K) : Res (Int × Ctrl n m K) :=
  match findIndex c.uff.time t c.uff.cache with
  | (.ok k, cache) => Res.ok (k, { c with uff := { c.uff with cache := cache } })
  | (.exc, _) => Res.exc
  | (.ub, _) => Res.ub

/-- A loop running a step a fixed number of times. -/
def repeatRes {α : Type} (f : α → Res α) : Nat → α → Res α
  | 0, a => Res.ok a
  | k + 1, a => f a >>= repeatRes f k

/-- One pass of the loop at lines 65-70.  The third argument of `push_back` says that the time is
*absolute* (DiscreteTrajectoryBase.h:181-189), although the variable handed over is called
`timeIsRelative`. -/
def pushStep (dt : K) (c : Ctrl n m K) : Res (Ctrl n m K) := do
  let g ← back c.gain.data
  let gain ← upd c.gain (.pushBack g dt true)
  let u ← back c.uff.data
  let uff ← upd c.uff (.pushBack u dt true)
  let x ← back c.x_ref.data
  let x_ref ← upd c.x_ref (.pushBack x dt true)
  pure ⟨x_ref, uff, gain⟩

/-- One pass of the loop at lines 75-80. -/
def popStep (c : Ctrl n m K) : Res (Ctrl n m K) := do
  let gain ← upd c.gain .popBack
  let uff ← upd c.uff .popBack
  let x_ref ← upd c.x_ref .popBack
  pure ⟨x_ref, uff, gain⟩

/-- `eraseFront` on the three trajectories (lines 54-56, 112-114). -/
def eraseAll (k : Nat) (dt : K) (c : Ctrl n m K) : Res (Ctrl n m K) := do
  let uff ← upd c.uff (.eraseFront k dt)
  let gain ← upd c.gain (.eraseFront k dt)
  let x_ref ← upd c.x_ref (.eraseFront k dt)
  pure ⟨x_ref, uff, gain⟩

/-- Step 1 (lines 52-58): remove the first `d` elements if there are any to remove. -/
def truncateFront (dt : K) (d : Int) (c : Ctrl n m K) : Res (Ctrl n m K) :=
  if 0 < d then eraseAll d.toNat (d * dt) c else Res.ok c

/-- Step 2 (lines 61-81): append copies of the last element or remove elements at the back. -/
def resize (dt : K) (Kn currentSize : Int) (c : Ctrl n m K) : Res (Ctrl n m K) :=
  if currentSize < Kn then repeatRes (pushStep dt) (Kn - currentSize).toNat c
  else if Kn < currentSize then repeatRes popStep (currentSize - Kn).toNat c
  else Res.ok c

/-- `designWarmStartingPolicy` (22-89). -/
def designWarmStartingPolicy (dt delay newT : K) (c : Ctrl n m K) : Res (Ctrl n m K) := do
  let currentSize ← size c.uff
  let Kn := max 1 (lround (newT / dt))
  let (i, c) ← indexOf c delay
  let d := min i ((currentSize : Int) - 1)
  let c ← truncateFront dt d c
  let currentSize : Int := if 0 < d then currentSize - d else currentSize
  let c ← resize dt Kn currentSize c
  let s ← size c.uff
  if s = 0 then Res.exc else Res.ok c

/-- `truncateSolutionFront` (92-117): new policy and the reported time.  `size_t` arithmetic: an
empty policy already throws in `getIndexFromTime`. -/
def truncateSolutionFront (dt delay : K) (c : Ctrl n m K) : Res (Ctrl n m K × K) := do
  let currentSize ← size c.uff
  let (i, c) ← indexOf c delay
  let d := min i ((currentSize : Int) - 1)
  let eff := d * dt
  let c ← if 0 < d ∧ d < currentSize then eraseAll d.toNat eff c else Res.ok c
  pure (c, eff)

end CT.PolicyHandler
