import Mathlib.Data.List.Basic
import Mathlib.Logic.Function.Basic

/-!
# The line search of the multi-threaded backend

`ct_optcon/include/ct/optcon/nloc/NLOCBackendMP-impl.hpp:409-461` (`performLineSearch`) and 465-585
(`lineSearchWorker`), with the dispatch in `threadWork` (83-147).

The main thread and the workers are state machines, interleaved in any order (sequential
consistency).  A candidate is the pair of the search for which it was computed and the exponent of
its step size; `acc now made e` says whether `acceptStep`, called in search `now`, accepts the
candidate of exponent `e` computed in search `made`.  That the candidate is a function of this pair
holds because `executeLineSearch` reads `x_prev_`, `u_ff_prev_` and the step directions only and writes
into buffers of the worker (`NLOCBackendBase-impl.hpp:1117-1184`, `NLOCBackendMP-impl.hpp:491-505`).

Simplifications: the resets at the head of `performLineSearch` are one step, as is the critical
section of `lineSearchWorker` (it runs under `lineSearchResultMutex_`; nothing it writes is written
elsewhere during a search); a worker that waits for a task is in state `out` and starts when there is
a search in which it has not taken part (the wake-up is modelled in `Verif.Model.NlocParallel`);
`maxIterations` does not change; `acceptStep` does not throw (it does for `GOLDSTEIN`).
-/

namespace CT.ParSearch

/-- Where a worker is; `n` is the search it was dispatched for (`iteration_local`). -/
inductive WPc where
  /-- not in `lineSearchWorker`; `n` is the last search it returned from -/
  | out (n : ℕ)
  /-- head of the loop, `NLOCBackendMP-impl.hpp:469` -/
  | top (n : ℕ)
  /-- `alphaExp` taken, about to evaluate the condition in line 475 -/
  | took (n e : ℕ)
  /-- candidate `e` computed from the data of search `made`; about to lock, line 507 -/
  | computed (n made e : ℕ)
  /-- candidate abandoned by `executeLineSearch` because of the termination flag -/
  | aborted (n e : ℕ)
  deriving DecidableEq, Repr

/-- Where the main thread is. -/
inductive MPc where
  /-- not in `performLineSearch` -/
  | idle
  /-- evaluating the predicate of `wait`, line 433 -/
  | check
  /-- predicate false, about to sleep -/
  | window
  /-- inside `wait` -/
  | asleep
  /-- released, about to read `alphaExpBest_`, line 441 -/
  | read
  deriving DecidableEq, Repr

structure Search where
  /-- searches begun so far -/
  round : ℕ
  main : MPc
  /-- `alphaTaken_` -/
  taken : ℕ
  /-- `alphaBestFound_` -/
  found : Bool
  /-- `alphaExpBest_` -/
  best : ℕ
  /-- `alphaProcessed_` -/
  processed : ℕ → Bool
  /-- the candidate whose trajectories, costs and defects were last swapped into `x_`, `u_ff_`, …
  during this search -/
  published : Option (ℕ × ℕ)
  /-- the exponent of the step size last returned by `performLineSearch`; `none` is step size 0 -/
  answer : Option ℕ
  ws : ℕ → WPc

/-- State before the first search. -/
def start : Search where
  round := 0
  main := .idle
  taken := 0
  found := false
  best := 0
  processed := fun _ => false
  published := none
  answer := none
  ws := fun _ => .out 0

/-- A step of the main thread, `NLOCBackendMP-impl.hpp:409-461`; `max` is `alphaExpMax_`. -/
def mainStep (max : ℕ) (s : Search) : Option Search :=
  match s.main with
  | .idle => some { s with
      round := s.round + 1, processed := fun _ => false, taken := 0, found := false, best := max,
      published := none, main := .check }
  | .check => some { s with main := if s.found then .read else .window }
  | .window => some { s with main := .asleep }
  | .asleep => none
  | .read => some { s with
      answer := if s.best ≠ max then some s.best else none, main := .idle }

/-- `alphaBestFoundCondition_.notify_all()`. -/
def wakeMain : MPc → MPc
  | .asleep => .check
  | m => m

/-- The end of the critical section, `NLOCBackendMP-impl.hpp:561-581`: mark `e` as processed, and
declare the search finished if all exponents below the best one are processed. -/
def finish (s : Search) (e : ℕ) : Search :=
  let processed := Function.update s.processed e true
  if (List.range s.best).all processed then
    { s with processed := processed, found := true, main := wakeMain s.main }
  else { s with processed := processed }

/-- A step of a worker, `NLOCBackendMP-impl.hpp:465-585`. -/
def workerStep (acc : ℕ → ℕ → ℕ → Bool) (max : ℕ) (s : Search) (w : WPc) : Option (Search × WPc) :=
  match w with
  | .out n => if s.main = .idle ∨ n = s.round then none else some (s, .top s.round)
  | .top n => some ({ s with taken := s.taken + 1 }, .took n s.taken)
  | .took n e => some (s, if e ≥ max ∨ s.found then .out n else .computed n s.round e)
  | .computed n made e =>
    if acc s.round made e then
      if s.found then some (s, .out n)
      else some (finish { s with best := e, published := some (made, e) } e, .top n)
    else some (finish s e, .top n)
  | .aborted n e => some (finish s e, .top n)

inductive Label where
  | main
  | worker (j : ℕ)
  /-- the candidate of worker `j` is abandoned: only if the termination flag is set,
  `NLOCBackendBase-impl.hpp:1117-1184` -/
  | abort (j : ℕ)
  /-- the main thread wakes up without a notification -/
  | spurious
  deriving DecidableEq, Repr

def Label.Valid (N : ℕ) : Label → Prop
  | .main | .spurious => True
  | .worker j | .abort j => j < N

instance (N : ℕ) : (l : Label) → Decidable (l.Valid N)
  | .main | .spurious => .isTrue trivial
  | .worker j | .abort j => inferInstanceAs (Decidable (j < N))

/-- One move of the system. -/
def step (acc : ℕ → ℕ → ℕ → Bool) (max : ℕ) (s : Search) : Label → Option Search
  | .main => mainStep max s
  | .worker j => (workerStep acc max s (s.ws j)).map fun r =>
      { r.1 with ws := Function.update s.ws j r.2 }
  | .abort j =>
    match s.ws j with
    | .computed n _ e =>
      if s.found then some { s with ws := Function.update s.ws j (.aborted n e) } else none
    | _ => none
  | .spurious => if s.main = .asleep then some { s with main := .check } else none

/-- The states reachable from `s₀` with `N` workers. -/
inductive Reach (acc : ℕ → ℕ → ℕ → Bool) (max N : ℕ) (s₀ : Search) : Search → Prop
  | refl : Reach acc max N s₀ s₀
  | move {s s' : Search} (l : Label) : Reach acc max N s₀ s → l.Valid N → step acc max s l = some s' →
      Reach acc max N s₀ s'

/-- A schedule. -/
def run (acc : ℕ → ℕ → ℕ → Bool) (max : ℕ) (s : Search) : List Label → Option Search
  | [] => some s
  | l :: ls => (step acc max s l).bind fun s' => run acc max s' ls

end CT.ParSearch
