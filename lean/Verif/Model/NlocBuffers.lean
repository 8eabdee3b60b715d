import Verif.Model.Res
import Verif.Model.Arrays
import Mathlib.Algebra.Order.Floor.Ring
import Mathlib.Algebra.Order.Round

/-!
# Horizon, buffers and main loop of the nonlinear optimal control solver

`ct_optcon/include/ct/optcon/nloc/NLOCBackendBase-impl.hpp:126-246, 385-433`,
`solver/NLOptConSettings.hpp:290-297`, `solver/NLOptConSolver-impl.hpp:126-139`.
An entry of an array is `none` when the code has not given it a value (`resize` leaves the fixed-size
Eigen vectors it adds uninitialised).
-/

namespace CT.Nloc

variable {X U F R : Type}

/-- `std::vector::resize(n)`. -/
def resize {α : Type} (l : List (Option α)) (n : ℕ) : List (Option α) :=
  l.take n ++ List.replicate (n - l.length) none

/-- The buffers of the backend that depend on the horizon.  `K_` is an `int`, zero until the first
`changeTimeHorizon`; it is never negative.  Not modelled: the containers inside the linear-quadratic
problem and the system interface, sub-steps. -/
structure Buf (X U F R : Type) where
  K : ℕ
  dt : R
  t : List R
  x : List (Option X)
  xPrev : List (Option X)
  xShot : List (Option X)
  dx : List (Option X)
  xRef : List (Option X)
  dxRef : List (Option X)
  d : List (Option X)
  u : List (Option U)
  uPrev : List (Option U)
  du : List (Option U)
  L : List (Option F)
  initialized : Bool

/-- The members before the constructor body runs (`NLOCBackendBase-impl.hpp:30-60`): empty arrays,
`K_ = 0`, the settings' `dt`. -/
def Buf.empty (dt : R) : Buf X U F R :=
  { K := 0, dt := dt, t := [], x := [], xPrev := [], xShot := [], dx := [], xRef := [], dxRef := [],
    d := [], u := [], uPrev := [], du := [], L := [], initialized := false }

section
variable [Field R] [LinearOrder R] [FloorRing R]

/-- `NLOptConSettings.hpp:290-297`: `computeK`: throws for a negative horizon, else
`max(1, (int)lround(timeHorizon / dt))`.  The quotient is not negative, so `lround` is
`⌊y + 1/2⌋`; the conversion to `int` is assumed not to overflow. -/
def computeK (dt T : R) : Res ℕ :=
  if T < 0 then Res.exc else Res.ok (max 1 (⌊T / dt + 1 / 2⌋).toNat)

end

section
variable [Field R] [Zero X]

/-- `resetDefects`, `NLOCBackendBase-impl.hpp:1471-1475`: `d_.setConstant(0)`. -/
def resetDefects (b : Buf X U F R) : Buf X U F R := { b with d := b.d.map fun _ => some 0 }

/-- `NLOCBackendBase-impl.hpp:190-226`: `changeTimeHorizon(int numStages)`; returns at once when the
number of stages stays the same. -/
def changeNumStages (n : ℕ) (b : Buf X U F R) : Res (Buf X U F R) :=
  if n = b.K then Res.ok b
  else if n < 1 then Res.exc
  else do
    let t ← Arrays.timeArray b.dt (n + 1) 0
    pure (resetDefects
      { b with
        K := n, t := t
        x := resize b.x (n + 1), xPrev := resize b.xPrev (n + 1), xShot := resize b.xShot (n + 1)
        dx := resize b.dx (n + 1), xRef := resize b.xRef (n + 1), dxRef := resize b.dxRef (n + 1)
        u := resize b.u n, uPrev := resize b.uPrev n, du := resize b.du n
        d := resize b.d (n + 1), L := resize b.L n })

variable [LinearOrder R] [FloorRing R]

/-- `NLOCBackendBase-impl.hpp:229-235`: `changeTimeHorizon(const SCALAR& tf)`. -/
def changeTimeHorizon (T : R) (b : Buf X U F R) : Res (Buf X U F R) :=
  if T < 0 then Res.exc
  else do
    let n ← computeK b.dt T
    changeNumStages n b

/-- A policy passed as initial guess: reference states, feed-forward controls and gains. -/
structure Guess (X U F : Type) where
  x : List X
  u : List U
  L : List F

/-- `if (v.size() > n) v.resize(n)`, for `v.size() ≥ n`. -/
def cut {α : Type} (l : List (Option α)) (n : ℕ) : List (Option α) :=
  if n < l.length then resize l n else l

/-- `NLOCBackendBase-impl.hpp:126-187`: `setInitialGuess`.  `x_prev_` and `x_ref_lqr_` are copied
before the truncation (155-156).  The costs of the guess (184-186) are not modelled here. -/
def setInitialGuess (g : Guess X U F) (b : Buf X U F R) : Res (Buf X U F R) :=
  if g.x.length < b.K + 1 then Res.exc
  else if g.u.length < b.K then Res.exc
  else if g.L.length < b.K then Res.exc
  else do
    let x := cut (g.x.map some) (b.K + 1)
    let t ← Arrays.timeArray b.dt x.length 0
    pure (resetDefects
      { b with
        u := cut (g.u.map some) b.K, L := cut (g.L.map some) b.K, x := x
        xPrev := g.x.map some, xRef := g.x.map some, initialized := true, t := t })

/-- `NLOCBackendBase-impl.hpp:238-246`: `changeInitialState`. -/
def changeInitialState (x0 : X) (b : Buf X U F R) : Res (Buf X U F R) :=
  let x := if b.x.length = 0 then resize b.x 1 else b.x
  Res.ok (resetDefects { b with x := x.set 0 (some x0) })

/-- `NLOCBackendBase-impl.hpp:385-433`: `configure` with settings that have passed `parametersOk`;
of the settings only `dt` matters here. -/
def configure (dt : R) (b : Buf X U F R) : Res (Buf X U F R) :=
  if dt ≤ 0 then Res.exc else Res.ok (resetDefects { b with dt := dt })

/-- A call by the user. -/
inductive Call (X U F R : Type) where
  | horizon (T : R)
  | guess (g : Guess X U F)
  | initialState (x0 : X)
  | configure (dt : R)

def Call.run (c : Call X U F R) (b : Buf X U F R) : Res (Buf X U F R) :=
  match c with
  | .horizon T => changeTimeHorizon T b
  | .guess g => setInitialGuess g b
  | .initialState x0 => changeInitialState x0 b
  | .configure dt => Nloc.configure dt b

/-- The backend after a call: all checks come before the first write, so a call that throws leaves
it as it was. -/
def Call.after (c : Call X U F R) (b : Buf X U F R) : Buf X U F R :=
  match c.run b with
  | .ok b' => b'
  | _ => b

/-- The backend after a history of calls. -/
def runCalls (cs : List (Call X U F R)) (b : Buf X U F R) : Buf X U F R :=
  cs.foldl (fun b c => c.after b) b

/-- The constructor (`NLOCBackendBase-impl.hpp:60-66`): configure, change the horizon, set the initial
state. -/
def construct (dt T : R) (x0 : X) : Res (Buf X U F R) := do
  let b ← Nloc.configure dt (Buf.empty dt)
  let b ← changeTimeHorizon T b
  changeInitialState x0 b

/-- `NLOCBackendBase-impl.hpp:1647`: `getTimeHorizon`. -/
def getTimeHorizon (b : Buf X U F R) : R := (b.K : R) * b.dt

end

/-! ### The main loop -/

/-- The loop of `NLOptConSolver::solve`, `NLOptConSolver-impl.hpp:131-136`: `outcomes k` is what
iteration `k` reports; `n` further iterations are allowed.  Returns the number of iterations run so
far and the last value of `foundBetter`. -/
def solveLoop (outcomes : ℕ → Bool) : ℕ → ℕ → Bool → ℕ × Bool
  | 0, k, found => (k, found)
  | n + 1, k, found =>
    if found then solveLoop outcomes n (k + 1) (outcomes k) else (k, found)

/-- `NLOptConSolver-impl.hpp:126-139`: `solve` with `max_iterations` (an `int`): the number of
iterations and the value returned. -/
def solve (outcomes : ℕ → Bool) (maxIterations : ℤ) : ℕ × Bool :=
  let r := solveLoop outcomes maxIterations.toNat 0 true
  (r.1, decide (1 < r.1) || r.2 || (decide (r.1 = 1) && !r.2))

end CT.Nloc
