import Verif.Model.Res
import Verif.Model.Timer
import Mathlib.Algebra.Order.Field.Basic

/-!
# MPC time keeping

Model of `/repo/ct_optcon/include/ct/optcon/mpc/MpcTimeKeeper.h`,
`/repo/ct_optcon/include/ct/optcon/mpc/timehorizon/MpcTimeHorizon-impl.h` and the timing part of
`/repo/ct_optcon/include/ct/optcon/mpc/MPC-impl.h` (prepareIteration, finishIteration, resetMpc,
checkSettings).

Both clocks are inputs: `ext` is the external time handed to the call, `clk` the reading of the
system clock (`gettimeofday`, seconds since the epoch) during the call; one reading per call
(`startDelayMeasurement` and `stopDelayMeasurement` in `finishIteration` get their own).  The internal
`Timer` (`ct/core/common/Timer.h`) has the same start/stop structure as the externally driven one.

Simplifications: numbers are an ordered field; the solver is represented by the horizon it reports
and the success flag of a solve; the policy itself is modelled in `PolicyHandler.lean`, here
`truncateSolutionFront` is represented by the time it reports as truncated.
-/

namespace CT.Mpc
open CT.Timer

variable {K : Type} [Field K] [LinearOrder K]

/-- `MPC_MODE` (MpcSettings.h:31-41). -/
inductive Mode where
  | fixedFinalTime
  | constantReceding
  | fixedFinalTimeWithMin
  | recedingWithFixedFinal
  deriving DecidableEq, Repr

/-- The timing-related fields of `mpc_settings` (MpcSettings.h:45-117). -/
structure Settings (K : Type) where
  measureDelay : Bool := false
  multiplier : K
  fixedDelayUs : Int := 0
  additionalDelayUs : Int := 0
  postTruncation : Bool := false
  mode : Mode := .constantReceding
  minHorizon : K
  useExternalTiming : Bool := false

/-- Members of `MpcTimeKeeper` (347-372); `strategyT0` is `initialTimeHorizon_` of the shared
strategy object. -/
structure Keeper (K : Type) where
  initialized : Bool
  finalPointReached : Bool
  timer : ExtTimer K
  lastSolveTimer : ExtTimer K
  firstSolveTimer : ExtTimer K
  extTimer : ExtTimer K
  extLastSolveTimer : ExtTimer K
  extFirstSolveTimer : ExtTimer K
  lastMeasuredDelay : K
  maxDelay : K
  minDelay : Option K   -- `none`: largest double
  summedDelay : K
  firstRun : Bool

/-- Constructor (46-57). -/
def Keeper.new : Keeper K :=
  ⟨false, false, .new, .new, .new, .new, .new, .new, 0, 0, none, 0, true⟩

/-- `initialize` (64-83). -/
def Keeper.init (s : Keeper K) : Keeper K :=
  { s with
    firstRun := true, timer := s.timer.reset, lastSolveTimer := s.lastSolveTimer.reset,
    firstSolveTimer := s.firstSolveTimer.reset, extTimer := s.extTimer.reset,
    extLastSolveTimer := s.extLastSolveTimer.reset, extFirstSolveTimer := s.extFirstSolveTimer.reset,
    lastMeasuredDelay := 0, maxDelay := 0, minDelay := none, summedDelay := 0,
    finalPointReached := false, initialized := true }

/-- `computeDelayToApply` (325-340). -/
def computeDelayToApply (st : Settings K) (s : Keeper K) : K :=
  let fixedDelay := (1 / 1000000) * (st.additionalDelayUs : K)
  let variableDelay := 0
  if st.measureDelay then fixedDelay + st.multiplier * s.lastMeasuredDelay
  else (fixedDelay + (1 / 1000000) * (st.fixedDelayUs : K)) + variableDelay

/-- `MpcTimeHorizon::computeNewTimeHorizon` (24-74): new horizon and whether the end is reached. -/
def computeNewTimeHorizon (st : Settings K) (T0 sinceFirst forwStop : K) : K × Bool :=
  let timeLeft := max 0 (T0 - (sinceFirst + forwStop))
  match st.mode with
  | .constantReceding => (T0, false)
  | .fixedFinalTime => (timeLeft, if timeLeft = 0 then true else false)
  | .fixedFinalTimeWithMin =>
      let T := max st.minHorizon timeLeft
      (T, if T = st.minHorizon then true else false)
  | .recedingWithFixedFinal =>
      let T := min st.minHorizon timeLeft
      (T, if T = 0 then true else false)

/-- Output of `computeNewTimings`. -/
structure Timings (K : Type) where
  newT : K
  forwStart : K
  forwStop : K

/-- `computeNewTimings` (98-184). -/
def Keeper.computeNewTimings (st : Settings K) (T0 : K) (s : Keeper K) (ext clk curT : K) :
    Res (Timings K × Keeper K) :=
  if !s.initialized then Res.exc
  else
    let s1 : Keeper K :=
      if !s.firstRun then
        if st.useExternalTiming then
          { s with extFirstSolveTimer := s.extFirstSolveTimer.stop ext,
                   extLastSolveTimer := s.extLastSolveTimer.stop ext }
        else
          { s with lastSolveTimer := s.lastSolveTimer.stop clk,
                   firstSolveTimer := s.firstSolveTimer.stop clk }
      else s
    let sinceFirst : K :=
      if !s.firstRun then
        if st.useExternalTiming then s1.extFirstSolveTimer.elapsed else s1.firstSolveTimer.elapsed
      else 0
    let sinceLast : K :=
      if !s.firstRun then
        if st.useExternalTiming then s1.extLastSolveTimer.elapsed else s1.lastSolveTimer.elapsed
      else 0
    let start0 := sinceLast
    let stop0 := if !s.firstRun then start0 + computeDelayToApply st s1 else start0
    let start := if curT < start0 then curT else start0
    let stop := if curT < stop0 then curT else stop0
    let r := computeNewTimeHorizon st T0 sinceFirst stop
    Res.ok (⟨r.1, start, stop⟩, { s1 with finalPointReached := r.2 })

/-- `startDelayMeasurement` (200-209). -/
def Keeper.startDelayMeasurement (st : Settings K) (s : Keeper K) (ext clk : K) : Keeper K :=
  if st.measureDelay then
    if st.useExternalTiming then { s with extTimer := s.extTimer.start ext }
    else { s with timer := s.timer.start clk }
  else s

/-- `std::min` with the initial largest double. -/
def minO (a : Option K) (b : K) : Option K :=
  match a with
  | none => some b
  | some a => some (min a b)

/-- `stopDelayMeasurement` (213-257). -/
def Keeper.stopDelayMeasurement (st : Settings K) (s : Keeper K) (ext clk : K) : Res Unit × Keeper K :=
  let s1 : Keeper K :=
    if st.useExternalTiming then
      let tm := s.extTimer.stop ext
      { s with extTimer := tm, lastMeasuredDelay := tm.elapsed,
               extLastSolveTimer := s.extLastSolveTimer.start ext }
    else
      let tm := s.timer.stop clk
      { s with timer := tm, lastMeasuredDelay := tm.elapsed,
               lastSolveTimer := s.lastSolveTimer.start clk }
  let s2 : Keeper K :=
    { s1 with maxDelay := max s1.maxDelay s1.lastMeasuredDelay,
              minDelay := minO s1.minDelay s1.lastMeasuredDelay,
              summedDelay := s1.summedDelay + s1.lastMeasuredDelay }
  if s2.lastMeasuredDelay < 0 then (Res.exc, s2)
  else if s2.firstRun then
    (Res.ok (), if st.useExternalTiming then
        { s2 with extFirstSolveTimer := s2.extFirstSolveTimer.start ext, firstRun := false }
      else { s2 with firstSolveTimer := s2.firstSolveTimer.start clk, firstRun := false })
  else (Res.ok (), s2)

/-- `timeSincePreviousSuccessfulSolve` (265-282). -/
def Keeper.timeSincePrevious (st : Settings K) (s : Keeper K) (ext clk : K) : K × Keeper K :=
  if s.firstRun then (0, s)
  else if st.useExternalTiming then
    let tm := s.extLastSolveTimer.stop ext
    (tm.elapsed, { s with extLastSolveTimer := tm })
  else
    let tm := s.lastSolveTimer.stop clk
    (tm.elapsed, { s with lastSolveTimer := tm })

/-- The MPC object: settings, time keeper, its own first-run flag, the horizon reported by the
solver, the strategy's initial horizon and the (initially unset) forward-integration window. -/
structure Mpc (K : Type) where
  settings : Settings K
  keeper : Keeper K
  firstRun : Bool
  solverT : K
  T0 : K
  window : Option (K × K)
  /-- horizon the solver reports after `changeTimeHorizon(T)`: it rounds to whole stages
  (NLOCBackendBase-impl.hpp:229-235, 1647) -/
  report : K → K

/-- `checkSettings` (MPC-impl.h:340-346): `true` if accepted. -/
def checkSettings (st : Settings K) : Bool := !(st.useExternalTiming && st.measureDelay)

/-- Constructor (MPC-impl.h:12-74) with the default horizon strategy; `T` is the solver's horizon. -/
def Mpc.new (st : Settings K) (report : K → K) (T : K) : Res (Mpc K) :=
  if checkSettings st then Res.ok ⟨st, .new, true, T, T, none, report⟩ else Res.exc

/-- `prepareIteration` (MPC-impl.h:138-173).  The solver throws for a negative new horizon
(NLOCBackendBase-impl.hpp:229-235). -/
def Mpc.prepare (s : Mpc K) (ext clk : K) : Res Unit × Mpc K :=
  let k := if s.firstRun then s.keeper.init else s.keeper
  match k.computeNewTimings s.settings s.T0 ext clk s.solverT with
  | .ok (tm, k') =>
      let s' := { s with keeper := k', window := some (tm.forwStart, tm.forwStop) }
      if tm.newT < 0 then (Res.exc, s')
      else if tm.forwStop < tm.forwStart then (Res.exc, { s' with solverT := s.report tm.newT })
      else (Res.ok (), { s' with solverT := s.report tm.newT })
  | .exc => (Res.exc, { s with keeper := k })
  | .ub => (Res.ub, { s with keeper := k })

/-- The end of `finishIteration` (MPC-impl.h:250-265), after the policy with stamp `ts` was
obtained: the delay measurement is stopped and, in the first iteration, the measured delay is added
to the stamp. -/
def Mpc.finishEnd (s : Mpc K) (xts clk2 ts : K) (k1 : Keeper K) : Res K × Mpc K :=
  match k1.stopDelayMeasurement s.settings xts clk2 with
  | (.ok _, k2) =>
      if s.firstRun then (Res.ok (ts + k2.lastMeasuredDelay), { s with keeper := k2, firstRun := false })
      else (Res.ok ts, { s with keeper := k2 })
  | (_, k2) => (Res.exc, { s with keeper := k2 })

/-- `finishIteration` (MPC-impl.h:177-266): time stamp of the returned policy. `success` is the
solver's answer, `trunc d` the time effectively truncated when asked for `d`, `clk0`, `clk1`, `clk2`
the system clock at the start, after the solve and at the end. -/
def Mpc.finish (s : Mpc K) (xts clk0 clk1 clk2 : K) (success : Bool) (trunc : K → K) : Res K × Mpc K :=
  let k0 := s.keeper.startDelayMeasurement s.settings xts clk0
  if success then
    match s.window with
    | none => (Res.ub, { s with keeper := k0 })
    | some (start, stop) =>
        let ts := xts + (stop - start)
        let p := k0.timeSincePrevious s.settings xts clk1
        let trunced := if s.settings.postTruncation = true ∧ stop < p.1 ∧ s.firstRun = false then trunc (p.1 - stop) else 0
        s.finishEnd xts clk2 (ts + trunced) p.2
  else s.finishEnd xts clk2 xts k0

/-- `resetMpc` (MPC-impl.h:270-282); a negative horizon makes the solver throw half-way. -/
def Mpc.reset (s : Mpc K) (T : K) : Res Unit × Mpc K :=
  let s' := { s with firstRun := true, T0 := T }
  if T < 0 then (Res.exc, s')
  else (Res.ok (), { s' with solverT := s.report T, keeper := s.keeper.init })

/-- `updateSettings` (MPC-impl.h:286-296). -/
def Mpc.updateSettings (s : Mpc K) (st : Settings K) : Res Unit × Mpc K :=
  if checkSettings st then (Res.ok (), { s with settings := st }) else (Res.exc, s)

/-- Calls on an MPC object; `now` is the external time and `clk` the system clock. -/
inductive Op (K : Type) where
  | prepare (now clk : K)
  | finish (now clk0 clk1 clk2 : K) (success : Bool) (trunc : K → K)
  | reset (T : K)

/-- One call. -/
def Mpc.step (s : Mpc K) : Op K → Mpc K
  | .prepare t c => (s.prepare t c).2
  | .finish t c0 c1 c2 b tr => (s.finish t c0 c1 c2 b tr).2
  | .reset T => (s.reset T).2

/-- A history of calls (exceptions are caught by the caller). -/
def Mpc.run (s : Mpc K) (ops : List (Op K)) : Mpc K := ops.foldl Mpc.step s

end CT.Mpc
