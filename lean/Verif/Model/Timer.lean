import Mathlib.Algebra.Group.Defs

/-!
# Externally driven timer

Models `ct_core/include/ct/core/common/ExternallyDrivenTimer.h`.
-/

namespace CT.Timer

/-- `ExternallyDrivenTimer` (ExternallyDrivenTimer.h:49-50). -/
structure ExtTimer (K : Type) where
  start_time : K
  stop_time : K

variable {K : Type} [AddGroup K]

/-- `reset` (42-46), also the constructor (21). -/
def ExtTimer.new : ExtTimer K := ⟨0, 0⟩
/-- `start` (27). -/
def ExtTimer.start (s : ExtTimer K) (t : K) : ExtTimer K := { s with start_time := t }
/-- `stop` (32). -/
def ExtTimer.stop (s : ExtTimer K) (t : K) : ExtTimer K := { s with stop_time := t }
/-- `reset` (42-46). -/
def ExtTimer.reset (_ : ExtTimer K) : ExtTimer K := .new
/-- `getElapsedTime` (37). -/
def ExtTimer.elapsed (s : ExtTimer K) : K := s.stop_time - s.start_time

/-- Calls on a timer. -/
inductive Op (K : Type) where
  | start (t : K)
  | stop (t : K)
  | reset

/-- One call. -/
def step (s : ExtTimer K) : Op K → ExtTimer K
  | .start t => s.start t
  | .stop t => s.stop t
  | .reset => s.reset

end CT.Timer
