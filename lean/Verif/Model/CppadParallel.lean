import Mathlib.Data.List.Basic

/-!
# Thread numbers for parallel automatic differentiation

Model of `/repo/ct_core/include/ct/core/internal/autodiff/CppadParallel.h`.  `thread_number` holds
`hashMutex_` for its whole body, so an execution of any number of threads is a sequence of calls.
Simplification: the calls into CppAD's allocator are not modelled.  `initParallel`/`resetParallel`
do not take the mutex; they are modelled as atomic (the class asks for them to be called before and
after a parallel section).
-/

namespace CT.Cppad

/-- Members `threadMap_` (keys with values) and `numThreads_`. -/
structure State where
  map : List (Nat × Nat)
  numThreads : Nat
  deriving DecidableEq, Repr

/-- Constructor (63). -/
def State.init : State := ⟨[], 100⟩

/-- `std::map::insert`: no effect if the key exists. -/
def insert (m : List (Nat × Nat)) (k v : Nat) : List (Nat × Nat) :=
  if (m.lookup k).isSome then m else m ++ [(k, v)]

/-- `thread_number` (83-100) for a thread whose id hashes to `h`: `operator[]` inserts 0 for a missing key. -/
def threadNumber (s : State) (h : Nat) : State × Nat :=
  let m := if s.map.length < s.numThreads then
      if (s.map.lookup h).isNone then insert s.map h s.map.length else s.map
    else s.map
  let m' := insert m h 0
  ({ s with map := m' }, (m'.lookup h).getD 0)

/-- `initParallelImpl` (41-51). -/
def initParallel (s : State) (n : Nat) : State := { s with numThreads := n }

/-- `resetParallelImpl` (53-60). -/
def resetParallel (s : State) : State := { s with map := [] }

/-- Calls of one execution: thread `t` asks for its number, or a (re)initialisation. -/
inductive Op where
  | request (t : Nat)
  | init (n : Nat)
  deriving DecidableEq, Repr

/-- Runs the calls; the result lists (thread, number) for the requests in order. -/
def run (hash : Nat → Nat) : State → List Op → State × List (Nat × Nat)
  | s, [] => (s, [])
  | s, Op.request t :: ops =>
      let (s', k) := threadNumber s (hash t)
      let (s'', out) := run hash s' ops
      (s'', (t, k) :: out)
  | s, Op.init n :: ops => run hash (initParallel s n) ops

end CT.Cppad
