import Verif.Model.Res
import Mathlib.Algebra.Order.Field.Basic
import Mathlib.Algebra.Module.Defs

/-!
# Interpolation and discrete trajectories

Models `ct_core/include/ct/core/common/Interpolation.h` and
`ct_core/include/ct/core/types/trajectories/DiscreteTrajectoryBase.h`.
-/

namespace CT.Interp

/-- `InterpolationType` (Interpolation.h:14-19): zero-order hold or linear. -/
inductive IType where
  | ZOH
  | LIN
  deriving DecidableEq, Repr

section Search
variable {T : Type _} [LinearOrder T]

/-- Backward search loop of `findIndex` (Interpolation.h:127-132):
`for (int i = index_; i >= 0; i--) { index = i; if (t.at(i) <= q) break; }`,
returning the final value of `index`. -/
def searchBack (ts : List T) (q : T) : Nat → Res Int
  | 0 => do
      let _ ← atI ts 0
      -- `index = 0`, then either `break` or `i` becomes -1 and the loop ends
      pure 0
  | i + 1 => do
      let t ← atI ts ((i + 1 : Nat) : Int)
      if t ≤ q then pure ((i + 1 : Nat) : Int) else searchBack ts q i

/-- Forward search loop of `findIndex` (Interpolation.h:136-144), run over the entries from
position `i` on; `index` is the current value of the local variable.  The bounds-checked reads
`t.at(i)` are within bounds by construction of the loop. -/
def searchFwd (q : T) : List T → (i index : Int) → Int
  | [], _, index => index
  | t :: rest, i, _ => if q < t then i - 1 else searchFwd q rest (i + 1) i

/-- `Interpolation::findIndex` (Interpolation.h:119-156).  `cache` is the member `index_`.
Returns the outcome together with the new value of `index_` (also on exceptions). -/
def findIndex (ts : List T) (q : T) (cache : Int) : Res Int × Int :=
  -- line 123
  let c := min cache ((ts.length : Int) - 1)
  -- line 125
  match atI ts c with
  | .exc => (.exc, c)
  | .ub => (.ub, c)
  | .ok tc =>
      let r : Res Int :=
        if q < tc then searchBack ts q c.toNat
        else .ok (searchFwd q (ts.drop c.toNat) c (-1))
      match r with
      | .exc => (.exc, c)
      | .ub => (.ub, c)
      -- lines 148-155
      | .ok k => if k < 0 then (.exc, c) else (.ok k, k)

end Search

section Interpolate
variable {K : Type _} [Field K] [LinearOrder K]
variable {D : Type _} [AddCommGroup D] [Module K D]

/-- The part of `Interpolation::interpolate` after the index has been found
(Interpolation.h:88-108). -/
def blend (ty : IType) (ts : List K) (ds : List D) (q : K) (ind : Int) : Res D := do
  let t0 ← front ts
  if q < t0 then front ds
  else if ind = (ts.length : Int) - 1 then back ds
  else do
    let tn ← atI ts (ind + 1)
    let ti ← atI ts ind
    let alpha := (q - tn) / (ti - tn)
    match ty with
    | .LIN => do
        let di ← atI ds ind
        let dn ← atI ds (ind + 1)
        pure (alpha • di + (1 - alpha) • dn)
    | .ZOH => atI ds ind

/-- `Interpolation::interpolate` (Interpolation.h:54-109) with the default argument
`greatestLessTimeStampIndex = -1`, which is how trajectories call it.  Returns the outcome and
the new cached index. -/
def interpolate (ty : IType) (ts : List K) (ds : List D) (q : K) (cache : Int) : Res D × Int :=
  if ts.length = 0 then (.exc, cache)
  else if ds.length = 0 then (.exc, cache)
  else if ts.length ≠ ds.length then (.exc, cache)
  else if ds.length = 1 then (front ds, cache)
  else
    match findIndex ts q cache with
    | (.ok ind, c) => (blend ty ts ds q ind, c)
    | (.exc, c) => (.exc, c)
    | (.ub, c) => (.ub, c)

end Interpolate

/-- `DiscreteTrajectoryBase` (DiscreteTrajectoryBase.h:273-277): stamps, samples and the
interpolation member (type and cached index). -/
structure Traj (K D : Type _) where
  time : List K
  data : List D
  type : IType
  cache : Int
  deriving DecidableEq

section Traj
variable {K : Type _} [Field K] [LinearOrder K]
variable {D : Type _} [AddCommGroup D] [Module K D]

/-- Constructor from arrays (DiscreteTrajectoryBase.h:47-52); the default constructor (37) is
the case of empty arrays. `Interpolation` starts with `index_ = 0` (Interpolation.h:43). -/
def Traj.mk' (ts : List K) (ds : List D) (ty : IType) : Traj K D := ⟨ts, ds, ty, 0⟩

/-- Calls on a trajectory object. -/
inductive Op (K D : Type _) where
  /-- `eval(t)` (135-140) -/
  | eval (q : K)
  /-- `getIndexFromTime(t)` (250) -/
  | getIndex (q : K)
  /-- `push_back(data, time, timeIsAbsolute)` (181-189) -/
  | pushBack (d : D) (t : K) (timeIsAbsolute : Bool)
  /-- `pop_back()` (192-196) -/
  | popBack
  /-- `eraseFront(N, dt)` (203-208) -/
  | eraseFront (n : Nat) (dt : K)
  /-- `clear()` (211-215) -/
  | clear
  /-- `swapData(other)` (223-227): `other` is given by its stamps and samples -/
  | swapData (ts : List K) (ds : List D)
  /-- `operator=(other)` (230-240) with a different object -/
  | assign (ts : List K) (ds : List D) (ty : IType)
  /-- `shiftTime(dt)` (127) -/
  | shiftTime (dt : K)
  /-- `setTime` (120), also writing through the reference returned by `getTimeArray` (256) -/
  | setTime (ts : List K)
  /-- `setData` (110), also writing through `getDataArray` (252) or `operator[]` (163) -/
  | setData (ds : List D)
  /-- `setInterpolationType` (115) -/
  | setType (ty : IType)

/-- What a call returns to the caller. -/
inductive Out (D : Type _) where
  | unit
  | val (d : D)
  | index (i : Int)

/-- `shiftTime` (DiscreteTrajectoryBase.h:127) through `DiscreteArray::addOffset`
(DiscreteArray.h:168-171). -/
def shiftTimes (ts : List K) (dt : K) : List K := ts.map (fun t => t + (-dt))

/-- `DiscreteTrajectoryBase::eval` (135-140). -/
def Traj.eval (tr : Traj K D) (q : K) : Res D := (interpolate tr.type tr.time tr.data q tr.cache).1

/-- One call on the trajectory object: outcome and new object. Undefined behaviour (`pop_back`
or relative `push_back` on an empty vector, `eraseFront` beyond the end) has outcome `ub`; the
object is then meaningless. -/
def step (tr : Traj K D) : Op K D → Res (Out D) × Traj K D
  | .eval q =>
      let r := interpolate tr.type tr.time tr.data q tr.cache
      (r.1 >>= fun d => .ok (.val d), { tr with cache := r.2 })
  | .getIndex q =>
      let r := findIndex tr.time q tr.cache
      (r.1 >>= fun i => .ok (.index i), { tr with cache := r.2 })
  | .pushBack d t abs =>
      -- lines 183-188
      let stamp : Res K := if abs then .ok t else do let b ← back tr.time; pure (t + b)
      match stamp with
      | .ok s => (.ok .unit, { tr with time := tr.time ++ [s], data := tr.data ++ [d] })
      | .exc => (.exc, tr)
      | .ub => (.ub, tr)
  | .popBack =>
      if tr.time = [] ∨ tr.data.length = 0 then (.ub, tr)
      else (.ok .unit, { tr with time := tr.time.dropLast, data := tr.data.dropLast })
  | .eraseFront n dt =>
      -- `erase(begin, begin + N)` is undefined for N > size (DiscreteArray.h:164)
      if tr.time.length < n ∨ tr.data.length < n then (.ub, tr)
      else (.ok .unit, { tr with time := shiftTimes (tr.time.drop n) dt, data := tr.data.drop n })
  | .clear => (.ok .unit, { tr with time := [], data := [] })
  | .swapData ts ds => (.ok .unit, { tr with time := ts, data := ds })
  | .assign ts ds ty => (.ok .unit, { tr with time := ts, data := ds, type := ty })
  | .shiftTime dt => (.ok .unit, { tr with time := shiftTimes tr.time dt })
  | .setTime ts => (.ok .unit, { tr with time := ts })
  | .setData ds => (.ok .unit, { tr with data := ds })
  | .setType ty => (.ok .unit, { tr with type := ty })

/-- The object after a history of calls (exceptions are caught by the caller and the object is
used further); `none` once a call was undefined. -/
def run : Traj K D → List (Op K D) → Option (Traj K D)
  | tr, [] => some tr
  | tr, op :: ops =>
      match step tr op with
      | (.ub, _) => none
      | (_, tr') => run tr' ops

end Traj

end CT.Interp
