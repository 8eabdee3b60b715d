import Mathlib.Data.List.Basic
import Mathlib.Logic.Function.Basic

/-!
# The multi-threaded backend: phases over index ranges

`ct_optcon/include/ct/optcon/nloc/NLOCBackendMP-impl.hpp:69-190` (`threadWork`), 212-271
(`computeLQApproximation`), 275-308 (`computeLQProblemWorker`), 312-370 (`rolloutShots`), 374-405
(`rolloutShotWorker`), 588-594 (`generateUniqueProcessID`).

The threads are modelled as state machines whose steps are single reads and writes of shared
variables, interleaved in any order (sequential consistency).  A condition variable is the pair of
states `window` (the predicate was read as false, the thread has not gone to sleep yet) and `asleep`;
`notify_all` moves the threads that are asleep, and only those, back to their predicate.  That
`notify_all` falls into the window is possible because no notifying thread holds the mutex of the
waiting one: `kCompletedMutex_` is locked by the main thread only, `workerWakeUpMutex_` by workers
only (`NLOCBackendMP-impl.hpp:109-115, 255-257, 286-288`).

Simplifications: `workersActive_` stays true (no shutdown); the mutex `workerWakeUpMutex_` between
workers is left out (it only delays workers that go to sleep); the counters `kTaken_` and `kCompleted_` do
not overflow; the pair of `iteration_` and `lqpCounter_` is one counter `epoch` that the main thread
increments between two phases, and the process id is the pair of `epoch` and task; the work on one
index is one step (it touches no variable of this model).
-/

namespace CT.Par

/-- The tasks of the workers besides `IDLE`, `NLOCBackendMP.hpp:58-66`, that run over index
ranges. -/
inductive Task where
  | rollout
  | lq
  deriving DecidableEq, Repr

/-- A call `rolloutShots(kMin, kMax)` or `computeLQApproximation(kMin, kMax)` of the main thread. -/
structure Phase where
  kind : Task
  kMin : ℕ
  kMax : ℕ
  deriving DecidableEq, Repr

/-- Where a worker is. -/
inductive WPc where
  /-- head of `while (workersActive_)`, `NLOCBackendMP-impl.hpp:83` -/
  | top
  /-- `workerTask_local` was read, line 85; `none` is `IDLE` -/
  | gotTask (t : Option Task)
  /-- evaluating `workerTask_ == IDLE`, line 110 -/
  | check
  /-- evaluating the second half of that condition, lines 110-111 -/
  | check2
  /-- condition true, about to sleep, line 113 -/
  | window
  /-- inside `wait`, line 113 -/
  | asleep
  /-- about to read the task again, line 117 -/
  | reload
  /-- about to read the epoch again, lines 118-119 -/
  | reloaded (t : Option Task)
  /-- head of the loop of a worker function, lines 279 and 378 -/
  | head (t : Task) (e : ℕ)
  /-- `k` was taken, lines 281 and 380 -/
  | took (t : Task) (e k : ℕ)
  /-- working on index `i`, lines 300-303 and 389-399 -/
  | work (t : Task) (e i : ℕ)
  /-- about to increment `kCompleted_`, lines 305 and 402; `i`, the index worked on, is kept for the
  specification only -/
  | done (t : Task) (e i : ℕ)
  /-- about to read `kCompleted_`, lines 289 and 384 -/
  | exit (t : Task) (e : ℕ)
  /-- about to notify the main thread, lines 290 and 385 -/
  | notify (t : Task) (e : ℕ)
  deriving DecidableEq, Repr

/-- A worker: its position and `uniqueProcessID` (`none` is the initial value 0, line 78). -/
structure Worker where
  pc : WPc
  pid : Option (ℕ × Task)
  deriving DecidableEq, Repr

/-- Where the main thread is. -/
inductive MPc where
  /-- between two phases -/
  | idle
  /-- lines 243-246 and 340-343, one assignment after the other -/
  | clearTaken (p : Phase)
  | clearCompleted (p : Phase)
  | setMax (p : Phase)
  | setMin (p : Phase)
  /-- lines 251 and 349 -/
  | setTask (p : Phase)
  /-- lines 252 and 350 -/
  | notifyAll
  /-- evaluating the predicate of `wait`, lines 259 and 357 -/
  | check
  /-- predicate false, about to sleep -/
  | window
  | asleep
  /-- lines 261 and 359 -/
  | setIdle
  /-- changes of `iteration_` / `lqpCounter_` before the next phase, `NLOCBackendBase-impl.hpp:1282,
  1306, 1330`, `MultipleShooting-impl.hpp:156` -/
  | bump
  deriving DecidableEq, Repr

/-- The shared variables, the threads and the phases still to come. -/
structure Par where
  todo : List Phase
  main : MPc
  task : Option Task
  epoch : ℕ
  kTaken : ℕ
  kCompleted : ℕ
  kMin : ℕ
  kMax : ℕ
  /-- what was worked on so far: appended when the work on an index ends (for the specification) -/
  log : List (Task × ℕ)
  ws : ℕ → Worker

/-- Subtraction of `size_t` values (64 bits). -/
def sub64 (a b : ℕ) : ℕ := if b ≤ a then a - b else a + 2 ^ 64 - b

/-- `KMax_ - KMin_`. -/
def Par.span (s : Par) : ℕ := sub64 s.kMax s.kMin

/-- `notify_all` on `workerWakeUpCondition_`. -/
def wake (w : Worker) : Worker := if w.pc = .asleep then { w with pc := .check } else w

/-- `notify_all` on `kCompletedCondition_`. -/
def wakeMain (m : MPc) : MPc := if m = .asleep then .check else m

/-- Next step of the main thread, `NLOCBackendMP-impl.hpp:212-271, 312-370`; `none` if it sleeps or has
nothing left to do.  The terminal cost (216-217), the number of Eigen threads and the printing are left
out. -/
def mainStep (s : Par) : Option Par :=
  match s.main with
  | .idle =>
    match s.todo with
    | [] => none
    | p :: rest =>
      -- a single index is worked on by the main thread itself, 223-234 and 320-333
      if p.kMax = p.kMin then some { s with todo := rest, log := s.log ++ [(p.kind, p.kMin)] }
      else some { s with todo := rest, main := .clearTaken p }
  | .clearTaken p => some { s with kTaken := 0, main := .clearCompleted p }
  | .clearCompleted p => some { s with kCompleted := 0, main := .setMax p }
  | .setMax p => some { s with kMax := p.kMax, main := .setMin p }
  | .setMin p => some { s with kMin := p.kMin, main := .setTask p }
  | .setTask p => some { s with task := some p.kind, main := .notifyAll }
  | .notifyAll => some { s with ws := fun j => wake (s.ws j), main := .check }
  | .check => some { s with main := if s.kCompleted > s.span then .setIdle else .window }
  | .window => some { s with main := .asleep }
  | .asleep => none
  | .setIdle => some { s with task := none, main := .bump }
  | .bump => some { s with epoch := s.epoch + 1, main := .idle }

/-- Next step of a worker: the shared variables and the worker after it; `none` if it sleeps. -/
def workerStep (s : Par) (w : Worker) : Option (Par × Worker) :=
  match w.pc with
  | .top => some (s, { w with pc := .gotTask s.task })
  | .gotTask none => some (s, { w with pc := .check })
  | .gotTask (some t) =>
    -- lines 101-102
    if w.pid = some (s.epoch, t) then some (s, { w with pc := .check })
    else some (s, { w with pc := .head t s.epoch })
  | .check => some (s, { w with pc := if s.task = none then .window else .check2 })
  | .check2 =>
    some (s, { w with pc := if s.task.map (fun t => (s.epoch, t)) = w.pid ∧ s.task ≠ none
      then .window else .reload })
  | .window => some (s, { w with pc := .asleep })
  | .asleep => none
  | .reload => some (s, { w with pc := .reloaded s.task })
  | .reloaded none => some (s, { w with pc := .top })
  | .reloaded (some t) => some (s, { w with pc := .head t s.epoch })
  | .head t e => some ({ s with kTaken := s.kTaken + 1 }, { w with pc := .took t e s.kTaken })
  | .took t e k =>
    some (s, { w with pc := if k > s.span then .exit t e else .work t e (sub64 s.kMax k) })
  | .work t e i => some ({ s with log := s.log ++ [(t, i)] }, { w with pc := .done t e i })
  | .done t e _ => some ({ s with kCompleted := s.kCompleted + 1 }, { w with pc := .head t e })
  | .exit t e =>
    if s.kCompleted > s.span then some (s, { w with pc := .notify t e })
    else some (s, { pc := .top, pid := some (e, t) })
  | .notify t e => some ({ s with main := wakeMain s.main }, { pc := .top, pid := some (e, t) })

/-- The moves of the scheduler: a thread makes its next step, or a sleeping one wakes up spuriously. -/
inductive Label where
  | main
  | worker (j : ℕ)
  | spuriousMain
  | spurious (j : ℕ)
  deriving DecidableEq, Repr

/-- One move. -/
def step (s : Par) : Label → Option Par
  | .main => mainStep s
  | .worker j =>
    (workerStep s (s.ws j)).map fun r => { r.1 with ws := Function.update r.1.ws j r.2 }
  | .spuriousMain => if s.main = .asleep then some { s with main := .check } else none
  | .spurious j =>
    if (s.ws j).pc = .asleep then
      some { s with ws := Function.update s.ws j { s.ws j with pc := .check } }
    else none

/-- A move of one of the `N` workers or of the main thread. -/
def Label.Valid (N : ℕ) : Label → Prop
  | .worker j => j < N
  | .spurious j => j < N
  | _ => True

instance (N : ℕ) (l : Label) : Decidable (l.Valid N) := by
  cases l <;> simp only [Label.Valid] <;> infer_instance

/-- The states that can follow `s₀`. -/
inductive Reach (N : ℕ) (s₀ : Par) : Par → Prop
  | refl : Reach N s₀ s₀
  | move {s s' : Par} (l : Label) : Reach N s₀ s → l.Valid N → step s l = some s' → Reach N s₀ s'

/-- A sequence of moves. -/
def run (s : Par) : List Label → Option Par
  | [] => some s
  | l :: ls => (step s l).bind fun s' => run s' ls

/-- After the constructor: `launchWorkerThreads` sets `IDLE` and starts the workers (`NLOCBackendMP-impl.hpp:193-208`).  The range variables are uninitialised before the first phase; their values are
arguments. -/
def launch (todo : List Phase) (epoch kTaken kCompleted kMin kMax : ℕ) : Par :=
  { todo := todo, main := .idle, task := none, epoch := epoch, kTaken := kTaken,
    kCompleted := kCompleted, kMin := kMin, kMax := kMax, log := [],
    ws := fun _ => { pc := .top, pid := none } }

/-- `NLOCBackendMP-impl.hpp:588-594`: `generateUniqueProcessID` with the value of the enumeration as
task.  The code computes it in `double`; the value is exact below `2^53`. -/
def processId (iterateNo workerState resetCount : ℕ) : ℕ :=
  10 ^ 13 * (resetCount + 1) + 10 ^ 7 * (workerState + 1) + iterateNo + 1

end CT.Par
