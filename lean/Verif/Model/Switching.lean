import Verif.Model.Res
import Mathlib.Algebra.Order.Group.Defs
import Mathlib.Data.Matrix.Mul

/-!
# Phase sequences and switched systems

Models `ct_core/include/ct/core/switching/Switching.h` and the switched systems in
`systems/continuous_time/SwitchedControlledSystem.h`,
`systems/discrete_time/SwitchedDiscreteControlledSystem.h`,
`systems/continuous_time/linear/SwitchedLinearSystem.h`,
`systems/discrete_time/linear/DiscreteLinearSystem.h`,
`systems/discrete_time/linear/SwitchedDiscreteLinearSystem.h`.
-/

namespace CT.Switching

/-- `PhaseSequence` (Switching.h:104-107). -/
structure PhaseSeq (P T : Type) where
  phases : List P
  times : List T

section
variable {P T : Type} [AddCommGroup T] [LinearOrder T]

/-- Constructor (Switching.h:46). -/
def PhaseSeq.new (start : T) : PhaseSeq P T := ⟨[], [start]⟩

/-- `addPhase` (Switching.h:50-54). `time_schedule_` is never empty for constructed objects;
`back()` on an empty one would be undefined. -/
def PhaseSeq.addPhase (s : PhaseSeq P T) (p : P) (duration : T) : Res (PhaseSeq P T) := do
  let b ← back s.times
  pure ⟨s.phases ++ [p], s.times ++ [b + duration]⟩

/-- A sequence of `addPhase` calls. -/
def PhaseSeq.addAll (s : PhaseSeq P T) : List (P × T) → Res (PhaseSeq P T)
  | [] => .ok s
  | pd :: rest => do
      let s' ← s.addPhase pd.1 pd.2
      s'.addAll rest

/-- `getNumPhases` (Switching.h:56). -/
def PhaseSeq.numPhases (s : PhaseSeq P T) : Nat := s.phases.length

/-- `size_t` subtraction of one, with wrap-around at zero (64 bit). -/
def sizePred (n : Nat) : Nat := if n = 0 then 2 ^ 64 - 1 else n - 1

/-- `getTotalDuration` (Switching.h:60). -/
def PhaseSeq.totalDuration (s : PhaseSeq P T) : Res T := do
  let b ← back s.times
  let f ← front s.times
  pure (b - f)

/-- `getStartTimeFromIdx` (Switching.h:62). -/
def PhaseSeq.startTime (s : PhaseSeq P T) (i : Nat) : Res T := idx s.times i

/-- `getEndTimeFromIdx` (Switching.h:64). -/
def PhaseSeq.endTime (s : PhaseSeq P T) (i : Nat) : Res T := idx s.times (i + 1)

/-- `getPhaseFromIdx` (Switching.h:66). -/
def PhaseSeq.phaseFromIdx (s : PhaseSeq P T) (i : Nat) : Res P := idx s.phases i

/-- `std::upper_bound(begin, end, t) - begin`: number of entries before the first one greater
than `t`. The library uses bisection; on the sorted schedules built from non-negative durations
the result is this one. -/
def upperBound (ts : List T) (t : T) : Nat := (ts.takeWhile (fun s => decide (s ≤ t))).length

/-- `getIdxFromTime` (Switching.h:84-102). -/
def PhaseSeq.idxFromTime (s : PhaseSeq P T) (t : T) : Res Nat := do
  let f ← front s.times
  if t < f then pure 0
  else do
    let b ← back s.times
    if b ≤ t then pure (sizePred s.numPhases)
    else pure (sizePred (upperBound s.times t))

/-- `getPhaseFromTime` (Switching.h:68). -/
def PhaseSeq.phaseFromTime (s : PhaseSeq P T) (t : T) : Res P := do
  let i ← s.idxFromTime t
  s.phaseFromIdx i

/-- `getSwitchEventFromIdx` (Switching.h:74-77): pre-phase, post-phase, switching time. -/
def PhaseSeq.switchEventFromIdx (s : PhaseSeq P T) (i : Nat) : Res (P × P × T) := do
  let p ← s.phaseFromIdx i
  let q ← s.phaseFromIdx (i + 1)
  let t ← s.endTime i
  pure (p, q, t)

/-- `getSwitchEventFromTime` (Switching.h:79-82). -/
def PhaseSeq.switchEventFromTime (s : PhaseSeq P T) (t : T) : Res (P × P × T) := do
  let i ← s.idxFromTime t
  s.switchEventFromIdx i

/-- `SwitchedControlledSystem::computeControlledDynamics` (SwitchedControlledSystem.h:101-108)
and `SwitchedDiscreteControlledSystem::propagateControlledDynamics`
(SwitchedDiscreteControlledSystem.h:113-120); the mode is an index into the vector of
subsystems (`operator[]`). Subsystems are functions of state, time and control. -/
def switchedDynamics {X U : Type} (modes : PhaseSeq Nat T) (systems : List (X → T → U → X))
    (x : X) (t : T) (u : U) : Res X := do
  let m ← modes.phaseFromTime t
  let f ← idx systems m
  pure (f x t u)

/-- `ControlledSystem::computeDynamics` (ControlledSystem.h:125-135) and
`DiscreteControlledSystem::propagateDynamics` (DiscreteControlledSystem.h:115-124): control from
the controller if there is one, else zero; then the controlled dynamics. -/
def computeDynamics {X U : Type} [Zero U] (controller : Option (X → T → U))
    (f : X → T → U → Res X) (x : X) (t : T) : Res X :=
  match controller with
  | some c => f x t (c x t)
  | none => f x t 0

/-- A `LinearSystem` as used by `SwitchedLinearSystem`: its state and control matrices. -/
structure LinSys (n m : Nat) (K T : Type) where
  A : (Fin n → K) → (Fin m → K) → T → Matrix (Fin n) (Fin n) K
  B : (Fin n → K) → (Fin m → K) → T → Matrix (Fin n) (Fin m) K

/-- `LinearSystem::computeControlledDynamics` (LinearSystem.h:63-71). -/
def LinSys.dynamics {n m : Nat} {K : Type} [CommRing K] (s : LinSys n m K T)
    (x : Fin n → K) (t : T) (u : Fin m → K) : Fin n → K :=
  (s.A x u t).mulVec x + (s.B x u t).mulVec u

/-- `SwitchedLinearSystem::getDerivativeState/Control` (SwitchedLinearSystem.h:74-88) combined
by the inherited `computeControlledDynamics` (LinearSystem.h:63-71). -/
def switchedLinearDynamics {n m : Nat} {K : Type} [CommRing K] (modes : PhaseSeq Nat T)
    (systems : List (LinSys n m K T)) (x : Fin n → K) (t : T) (u : Fin m → K) :
    Res (Fin n → K) := do
  let m1 ← modes.phaseFromTime t
  let s1 ← idx systems m1
  let m2 ← modes.phaseFromTime t
  let s2 ← idx systems m2
  pure ((s1.A x u t).mulVec x + (s2.B x u t).mulVec u)

/-- The virtual functions of a `DiscreteLinearSystem`: `getAandB` of state, control, next state, time and number of substeps,
and `propagateControlledDynamics`, which a derived class may replace. -/
structure DLin (n m : Nat) (K T : Type) where
  AB : (Fin n → K) → (Fin m → K) → (Fin n → K) → T → Nat → Res (Matrix (Fin n) (Fin n) K × Matrix (Fin n) (Fin m) K)
  propagate : (Fin n → K) → T → (Fin m → K) → Res (Fin n → K)

/-- `DiscreteLinearSystem::propagateControlledDynamics` (DiscreteLinearSystem.h:63-72) for a given `getAandB`. -/
def dlinPropagate {n m : Nat} {K : Type} [CommRing K]
    (AB : (Fin n → K) → (Fin m → K) → (Fin n → K) → T → Nat → Res (Matrix (Fin n) (Fin n) K × Matrix (Fin n) (Fin m) K))
    (x : Fin n → K) (t : T) (u : Fin m → K) : Res (Fin n → K) := do
  let (A, B) ← AB x u x t 1
  pure (A.mulVec x + B.mulVec u)

/-- `getAandB` without next state and substeps (DiscreteLinearSystem.h:102-109). -/
def DLin.ABat {n m : Nat} {K : Type} (s : DLin n m K T) (x : Fin n → K) (u : Fin m → K) (t : T) :
    Res (Matrix (Fin n) (Fin n) K × Matrix (Fin n) (Fin m) K) := s.AB x u x t 1

/-- `SwitchedDiscreteLinearSystem` with its `propagateControlledDynamics` and `getAandB`
(SwitchedDiscreteLinearSystem.h:78-85, 106-116). -/
def switchedDLin {n m : Nat} {K : Type} (modes : PhaseSeq Nat T) (systems : List (DLin n m K T)) : DLin n m K T where
  AB x u x' t k := do
    let mode ← modes.phaseFromTime t
    let s ← idx systems mode
    s.AB x u x' t k
  propagate x t u := do
    let mode ← modes.phaseFromTime t
    let s ← idx systems mode
    s.propagate x t u

/-- Copy constructor (SwitchedDiscreteLinearSystem.h:48-56), also behind `clone` (62-65): the schedule is copied and every
subsystem cloned. -/
def switchedDLinCopy {n m : Nat} {K : Type} (clone : DLin n m K T → DLin n m K T) (modes : PhaseSeq Nat T)
    (systems : List (DLin n m K T)) : DLin n m K T :=
  switchedDLin modes (systems.foldl (fun acc s => acc ++ [clone s]) [])

end

end CT.Switching
