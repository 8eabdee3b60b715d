import Verif.Model.Interpolation
import Mathlib.Data.Matrix.Mul

/-!
# State-feedback controller

Models `ct_core/include/ct/core/control/StateFeedbackController-impl.h`.
-/

namespace CT.StateFeedback
open CT.Interp

/-- Members `x_ref_`, `uff_`, `K_` (StateFeedbackController.h). -/
structure Ctrl (n m : Nat) (K : Type) where
  x_ref : Traj K (Fin n → K)
  uff : Traj K (Fin m → K)
  gain : Traj K (Matrix (Fin m) (Fin n) K)

variable {n m : Nat} {K : Type} [Field K] [LinearOrder K]

/-- Continuous `computeControl(state, t)` (StateFeedbackController-impl.h:29-34). The new cached
indices of the three trajectories are kept. -/
def Ctrl.compute (c : Ctrl n m K) (x : Fin n → K) (t : K) : Res (Fin m → K) × Ctrl n m K :=
  let ru := interpolate c.uff.type c.uff.time c.uff.data t c.uff.cache
  let rk := interpolate c.gain.type c.gain.time c.gain.data t c.gain.cache
  let rx := interpolate c.x_ref.type c.x_ref.time c.x_ref.data t c.x_ref.cache
  ((do
      let u ← ru.1
      let k ← rk.1
      let xr ← rx.1
      pure (u + k.mulVec (x - xr))),
   { c with uff := { c.uff with cache := ru.2 }
            gain := { c.gain with cache := rk.2 }
            x_ref := { c.x_ref with cache := rx.2 } })

/-- Discrete `computeControl(state, n)` (37-42) with `operator[]` (undefined out of range). -/
def Ctrl.computeDiscrete (c : Ctrl n m K) (x : Fin n → K) (k : Nat) : Res (Fin m → K) := do
  let u ← idx c.uff.data k
  let g ← idx c.gain.data k
  let xr ← idx c.x_ref.data k
  pure (u + g.mulVec (x - xr))

/-- `update` (45-64). `pop_back` of the copied time array is undefined for an empty one. -/
def Ctrl.update (c : Ctrl n m K) (xr : List (Fin n → K)) (u : List (Fin m → K))
    (g : List (Matrix (Fin m) (Fin n) K)) (t : List K) : Res Unit × Ctrl n m K :=
  if t.length = 0 then (.ub, c)
  else
    let tshort := t.dropLast
    if g.length ≠ tshort.length then (.exc, c)
    else if u.length ≠ tshort.length then (.exc, c)
    else if xr.length ≠ t.length then (.exc, c)
    else (.ok (), { x_ref := { c.x_ref with data := xr, time := t }
                    uff := { c.uff with data := u, time := tshort }
                    gain := { c.gain with data := g, time := tshort } })

/-- `extractControlTrajectory` (145-155): stamps and samples written. For an empty state
trajectory `size() - 1` wraps around and the loop reads out of bounds (undefined). -/
def Ctrl.extract (c : Ctrl n m K) (ts : List K) (xs : List (Fin n → K)) :
    Res (List K × List (Fin m → K)) :=
  if xs.length = 0 then .ub
  else
    (List.range (xs.length - 1)).foldl (fun acc i => do
      let a ← acc
      let u ← idx c.uff.data i
      let g ← idx c.gain.data i
      let x ← idx xs i
      let xr ← idx c.x_ref.data i
      let t ← idx ts i
      pure (a.1 ++ [t], a.2 ++ [u + g.mulVec (x - xr)])) (.ok ([], []))

end CT.StateFeedback
