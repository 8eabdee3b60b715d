import Verif.Model.Res
import Mathlib.Algebra.Group.Defs

/-!
# Roll-outs of the nonlinear optimal control backend

`ct_optcon/include/ct/optcon/nloc/NLOCBackendBase-impl.hpp` and `NLOCBackendST-impl.hpp`.
`std::vector`-like arrays are lists; an access outside an array is `Res.ub`.  The propagated
dynamics `systemInterface_->propagateControlledDynamics(x, i, u, ·)` is an arbitrary function
`f x i u`; a feedback matrix `L_[i]` is the function `x ↦ L_[i] * x`.  Recording of the sub-steps
for the sensitivity integrator (lines 514-516) is not modelled.
-/

namespace CT.Nloc

variable {X U : Type}

/-- `v[i] = a` on a `DiscreteArray` (a `std::vector`): undefined outside `[0,size)`. -/
def setAt {α : Type} (l : List α) (i : ℕ) (a : α) : Res (List α) :=
  if i < l.length then Res.ok (l.set i a) else Res.ub

/-- What a roll-out reads from the backend: the dynamics, the number of stages `K_`, the shot
length `settings_.K_shot` (a positive `int`, `NLOptConSettings.hpp:365`), the two flags
`isSingleShooting()` and `closedLoopShooting()` (`NLOptConSettings.hpp:303-306`), the gains `L_`
and the NaN tests on states and controls. -/
structure RollCfg (X U : Type) where
  f : X → ℕ → U → X
  K : ℕ
  Kshot : ℕ
  single : Bool
  closed : Bool
  L : List (X → U)
  nanX : X → Bool
  nanU : U → Bool

/-- `NLOCBackendBase-impl.hpp:1659-1665`: `getNumStepsPerShot`. -/
def RollCfg.stepsPerShot (C : RollCfg X U) : ℕ := if C.single then C.K else C.Kshot

/-- The three arrays a roll-out writes: `u_local`, `x_local`, `xShot`. -/
structure Roll (X U : Type) where
  u : List U
  x : List X
  s : List X

/-- `NLOCBackendBase-impl.hpp:473-474`: with closed-loop shooting
`u_local[i] += L_[i] * (xShot[i] - x_ref_lqr_local[i])`. -/
def overwriteControl [AddCommGroup X] [AddCommGroup U] (C : RollCfg X U) (xref : List X) (i : ℕ)
    (r : Roll X U) : Res (Roll X U) :=
  if C.closed then do
    let ui ← idx r.u i
    let Li ← idx C.L i
    let si ← idx r.s i
    let xr ← idx xref i
    let u ← setAt r.u i (ui + Li (si - xr))
    pure { r with u := u }
  else pure r

/-- `NLOCBackendBase-impl.hpp:468-471`: for `i > k`, `xShot[i] = xShot[i-1]`. -/
def initShot (k i : ℕ) (r : Roll X U) : Res (Roll X U) :=
  if k < i then do
    let p ← idx r.s (i - 1)
    let s ← setAt r.s i p
    pure { r with s := s }
  else pure r

/-- `NLOCBackendBase-impl.hpp:477-480`: for `i > k`, `x_local[i] = xShot[i-1]`. -/
def overwriteState (k i : ℕ) (r : Roll X U) : Res (Roll X U) :=
  if k < i then do
    let p ← idx r.s (i - 1)
    let x ← setAt r.x i p
    pure { r with x := x }
  else pure r

/-- `NLOCBackendBase-impl.hpp:482-484`: `xShot[i] = f(xShot[i], i, u_local[i])`. -/
def propagate (C : RollCfg X U) (i : ℕ) (r : Roll X U) : Res (Roll X U) := do
  let si ← idx r.s i
  let ui ← idx r.u i
  let s ← setAt r.s i (C.f si i ui)
  pure { r with s := s }

/-- `NLOCBackendBase-impl.hpp:486-487`: at the last stage `x_local[K] = xShot[K-1]`. -/
def fillTerminal (C : RollCfg X U) (i : ℕ) (r : Roll X U) : Res (Roll X U) :=
  if i + 1 = C.K then do
    let p ← idx r.s (C.K - 1)
    let x ← setAt r.x C.K p
    pure { r with x := x }
  else pure r

/-- `NLOCBackendBase-impl.hpp:490-512`: the NaN checks on `x_local[i]` and `u_local[i]`; on failure
both arrays are resized to `K+1` and `K` entries (they are never shorter, 448-451, so this can only
cut) and `false` is returned. -/
def nanCheck (C : RollCfg X U) (i : ℕ) (r : Roll X U) : Res (Roll X U × Bool) := do
  let xi ← idx r.x i
  let ui ← idx r.u i
  if C.nanX xi || C.nanU ui then
    pure ({ r with x := r.x.take (C.K + 1), u := r.u.take C.K }, false)
  else pure (r, true)

/-- One pass of the loop body of `rolloutSingleShot`, `NLOCBackendBase-impl.hpp:463-517`, after
the test of the termination flag. -/
def shotStep [AddCommGroup X] [AddCommGroup U] (C : RollCfg X U) (xref : List X) (k i : ℕ)
    (r : Roll X U) : Res (Roll X U × Bool) := do
  let r ← initShot k i r
  let r ← overwriteControl C xref i r
  let r ← overwriteState k i r
  let r ← propagate C i r
  let r ← fillTerminal C i r
  nanCheck C i r

/-- The loop `NLOCBackendBase-impl.hpp:463-517` from stage `i` on, `n` stages to go.
`stop i` is what the termination flag reads at stage `i` (lines 465-466). -/
def shotLoop [AddCommGroup X] [AddCommGroup U] (C : RollCfg X U) (xref : List X)
    (stop : ℕ → Bool) (k : ℕ) : ℕ → ℕ → Roll X U → Res (Roll X U × Bool)
  | 0, _, r => pure (r, true)
  | n + 1, i, r =>
    if stop i then pure (r, false)
    else do
      let p ← shotStep C xref k i r
      if p.2 then shotLoop C xref stop k n (i + 1) p.1 else pure p

/-- `NLOCBackendBase-impl.hpp:436-521`: `rolloutSingleShot` from stage `k`. -/
def rolloutSingleShot [AddCommGroup X] [AddCommGroup U] (C : RollCfg X U) (xref : List X)
    (stop : ℕ → Bool) (k : ℕ) (r : Roll X U) : Res (Roll X U × Bool) :=
  if r.u.length < C.K then Res.exc
  else if r.x.length < C.K + 1 then Res.exc
  else if r.s.length < C.K + 1 then Res.exc
  else do
    let xk ← idx r.x k
    let s ← setAt r.s k xk
    shotLoop C xref stop k (min (k + C.stepsPerShot) C.K - k) k { r with s := s }

/-- `NLOCBackendBase-impl.hpp:556-569`: `computeSingleDefect`.  The code takes `settings_.K_shot`
here, not the number of steps per shot. -/
def computeSingleDefect [AddCommGroup X] (C : RollCfg X U) (k : ℕ) (x s d : List X) :
    Res (List X) :=
  let kNext := min C.K (k + C.Kshot)
  if kNext < C.K then do
    let a ← idx s (kNext - 1)
    let b ← idx x kNext
    setAt d (kNext - 1) (a - b)
  else pure d

/-- Roll out the shots that start at the listed stages, one after the other, and record the defect
of each: the body of the loops `NLOCBackendBase-impl.hpp:539-551`, with the early return on a failed
roll-out. -/
def rolloutList [AddCommGroup X] [AddCommGroup U] (C : RollCfg X U) (xref : List X)
    (stop : ℕ → Bool) : List ℕ → Roll X U → List X → Res (Roll X U × List X × Bool)
  | [], r, d => pure (r, d, true)
  | k :: ks, r, d => do
    let p ← rolloutSingleShot C xref stop k r
    if p.2 then do
      let d' ← computeSingleDefect C k p.1.x p.1.s d
      rolloutList C xref stop ks p.1 d'
    else pure (p.1, d, false)

/-- The loop head `for (size_t k = firstIndex; k <= lastIndex; k = k + n)`: the values `k` takes,
for a positive increment (for `n = 0` the loop would not end; `settings_.K_shot ≥ 1` and `K_ ≥ 1`
are enforced when the settings and the horizon are accepted).  `fuel` bounds the number of
passes. -/
def loopIndices (last n : ℕ) : ℕ → ℕ → List ℕ
  | 0, _ => []
  | fuel + 1, k => if k ≤ last then k :: loopIndices last n fuel (k + n) else []

/-- The shot starts visited by a roll-out over `[first, last]`. -/
def shotStarts (first last n : ℕ) : List ℕ := loopIndices last n (last + 1 - first) first

/-- `NLOCBackendBase-impl.hpp:524-553`: `rolloutShotsSingleThreaded`; all defects are set to zero
first. -/
def rolloutShotsSingleThreaded [AddCommGroup X] [AddCommGroup U] (C : RollCfg X U)
    (xref : List X) (stop : ℕ → Bool) (first last : ℕ) (r : Roll X U) (d : List X) :
    Res (Roll X U × List X × Bool) :=
  rolloutList C xref stop (shotStarts first last C.stepsPerShot) r (d.map fun _ => 0)

/-- `NLOCBackendST-impl.hpp:57-67`: the shots of the serial backend's `rolloutShots`: there is no
termination flag, a failed roll-out is not noticed (its return value is dropped) and the defects
are not reset. -/
def rolloutShotsList [AddCommGroup X] [AddCommGroup U] (C : RollCfg X U) (xref : List X) :
    List ℕ → Roll X U → List X → Res (Roll X U × List X)
  | [], r, d => pure (r, d)
  | k :: ks, r, d => do
    let p ← rolloutSingleShot C xref (fun _ => false) k r
    let d' ← computeSingleDefect C k p.1.x p.1.s d
    rolloutShotsList C xref ks p.1 d'

/-- `NLOCBackendST-impl.hpp:57-67`: `rolloutShots(firstIndex, lastIndex)`. -/
def rolloutShotsST [AddCommGroup X] [AddCommGroup U] (C : RollCfg X U) (xref : List X)
    (first last : ℕ) (r : Roll X U) (d : List X) : Res (Roll X U × List X) :=
  rolloutShotsList C xref (shotStarts first last C.stepsPerShot) r d

end CT.Nloc
