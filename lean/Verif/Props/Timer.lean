import Verif.Model.Timer
import Mathlib.Algebra.Ring.Rat

/-! # Property C09: externally driven timer -/

namespace CT.Timer

variable {K : Type} [AddCommGroup K]

/-- C09 (partial): if, after any history, the timer is started at `t₁` and – after arbitrarily
many intermediate stops, without another start or reset – stopped at `t₂`, the elapsed time is
`t₂ - t₁`; and a timer on which neither `start` nor `stop` was called since the last reset
reports 0.

Missing for the full statement: a timer that is *stopped without having been started* does not
report 0, see `C09_violated`. -/
theorem C09_elapsed_partial (hist : List (Op K)) (t₁ t₂ : K) (stops : List K) :
    ((((hist ++ [Op.start t₁]) ++ stops.map Op.stop) ++ [Op.stop t₂]).foldl step ExtTimer.new).elapsed
      = t₂ - t₁ ∧
    ((hist ++ [Op.reset]).foldl step ExtTimer.new).elapsed = 0 ∧
    (ExtTimer.new : ExtTimer K).elapsed = 0 := by
  refine ⟨?_, ?_, ?_⟩
  · simp only [List.foldl_append, List.foldl_cons, List.foldl_nil]
    generalize hist.foldl step ExtTimer.new = s
    have h : ∀ (l : List K) (s : ExtTimer K), s.start_time = t₁ →
        ((l.map Op.stop).foldl step s).start_time = t₁ := by
      intro l
      induction l with
      | nil => intro s hs; exact hs
      | cons a l ih => intro s hs; exact ih _ hs
    have := h stops (step s (.start t₁)) rfl
    simp [step, ExtTimer.stop, ExtTimer.elapsed] at this ⊢
    rw [this]
  · simp [List.foldl_append, step, ExtTimer.reset, ExtTimer.new, ExtTimer.elapsed]
  · simp [ExtTimer.new, ExtTimer.elapsed]

example : (([Op.stop 9, .start 3, .stop 4, .stop (5 : ℚ)]).foldl step ExtTimer.new).elapsed = 5 - 3 :=
  (C09_elapsed_partial [Op.stop 9] 3 (5 : ℚ) [4]).1

/-- C09 is violated for a timer that is stopped without having been started: it reports the
absolute time stamp of the stop as elapsed time. -/
theorem C09_violated (t : K) (ht : t ≠ 0) :
    (([Op.stop t]).foldl step ExtTimer.new).elapsed = t ∧
    (([Op.stop t]).foldl step ExtTimer.new).elapsed ≠ 0 := by
  constructor
  · simp [step, ExtTimer.stop, ExtTimer.new, ExtTimer.elapsed]
  · simpa [step, ExtTimer.stop, ExtTimer.new, ExtTimer.elapsed] using ht

end CT.Timer
