import Verif.Props.NlocParallel
import Mathlib.Algebra.BigOperators.Group.Finset.Basic
import Mathlib.Algebra.Order.BigOperators.Group.Finset
import Mathlib.Data.Finset.Range

/-!
# C58: the main thread terminates its waits
-/

namespace CT.Par

/-- No thread can move (but for spurious wake-ups). -/
def Deadlock (N : ℕ) (s : Par) : Prop :=
  step s .main = none ∧ ∀ j < N, step s (.worker j) = none

/-! ### Violations -/

private theorem deadlock_one {s : Par} (h : s.main = .asleep) (h' : (s.ws 0).pc = .asleep) :
    Deadlock 1 s := by
  refine ⟨by simp [step, mainStep, h], fun j hj => ?_⟩
  obtain rfl : j = 0 := by omega
  simp [step, workerStep, h']

/-- C58 violated: the worker has seen that there is no task but does not sleep yet when the main thread
publishes the task and notifies; then both sleep. -/
theorem C58_violated_wakeup :
    ∃ s, Reach 1 (launch [⟨.lq, 0, 1⟩] 0 0 0 0 0) s ∧ s.main = .asleep ∧ Deadlock 1 s ∧ s.log = [] := by
  obtain ⟨s, h, h1, h2, h3⟩ := run_exists le_rfl
    (s₀ := launch [⟨.lq, 0, 1⟩] 0 0 0 0 0) (List.replicate 3 (.worker 0) ++ List.replicate 7 .main ++
    [.worker 0, .main, .main]) (by decide)
    (fun s => s.main = .asleep ∧ (s.ws 0).pc = .asleep ∧ s.log = []) (by decide +kernel)
  exact ⟨s, h, h1, deadlock_one h1 h2, h3⟩

/-- C58 violated: the main thread has seen that work is left but does not sleep yet when the worker
completes it and notifies; then both sleep although all the work is complete. -/
theorem C58_violated_completion :
    ∃ s, Reach 1 (launch [⟨.lq, 0, 1⟩] 0 0 0 0 0) s ∧ s.main = .asleep ∧ Deadlock 1 s ∧
      s.log = [(.lq, 1), (.lq, 0)] ∧ s.kCompleted = 2 := by
  obtain ⟨s, h, h1, h2, h3⟩ := run_exists le_rfl
    (s₀ := launch [⟨.lq, 0, 1⟩] 0 0 0 0 0) (List.replicate 8 .main ++ List.replicate 14 (.worker 0) ++
    [.main] ++ List.replicate 5 (.worker 0)) (by decide)
    (fun s => s.main = .asleep ∧ (s.ws 0).pc = .asleep ∧ s.log = [(.lq, 1), (.lq, 0)] ∧
      s.kCompleted = 2) (by decide +kernel)
  exact ⟨s, h, h1, deadlock_one h1 h2, h3⟩

/-- C58 violated: after the call `rolloutShots(K, K-1)` of multiple shooting with one shot over the
whole horizon, the main thread is released only when more than `2^64 - 1` indices were counted, which
a 64-bit counter never reaches. -/
theorem C58_violated_range (N K : ℕ) (hK : 1 ≤ K) (rest : List Phase) (s₀ s : Par)
    (hm : s₀.main = .idle) (ht : s₀.todo = ⟨.rollout, K, K - 1⟩ :: rest) (h : Reach N s₀ s)
    (hs : s.todo = rest) (hr : Released s) : 2 ^ 64 ≤ s.kCompleted := by
  have key : (s.todo = s₀.todo) ∨ s.todo.length < rest.length ∨
      (s.todo = rest ∧ ((s.main = .clearTaken ⟨.rollout, K, K - 1⟩ ∨
        s.main = .clearCompleted ⟨.rollout, K, K - 1⟩ ∨ s.main = .setMax ⟨.rollout, K, K - 1⟩ ∨
        (s.main = .setMin ⟨.rollout, K, K - 1⟩ ∧ s.kMax = K - 1)) ∨
        (s.kMax = K - 1 ∧ s.kMin = K ∧ (s.main = .setTask ⟨.rollout, K, K - 1⟩ ∨ s.main = .notifyAll ∨
          s.main = .check ∨ s.main = .window ∨ s.main = .asleep ∨
          (Released s ∧ 2 ^ 64 ≤ s.kCompleted))))) := by
    clear hs hr
    have h0 : s₀.main = .idle := hm
    suffices (s.todo = s₀.todo ∧ s.main = .idle) ∨ s.todo.length < rest.length ∨
      (s.todo = rest ∧ ((s.main = .clearTaken ⟨.rollout, K, K - 1⟩ ∨
        s.main = .clearCompleted ⟨.rollout, K, K - 1⟩ ∨ s.main = .setMax ⟨.rollout, K, K - 1⟩ ∨
        (s.main = .setMin ⟨.rollout, K, K - 1⟩ ∧ s.kMax = K - 1)) ∨
        (s.kMax = K - 1 ∧ s.kMin = K ∧ (s.main = .setTask ⟨.rollout, K, K - 1⟩ ∨ s.main = .notifyAll ∨
          s.main = .check ∨ s.main = .window ∨ s.main = .asleep ∨
          (Released s ∧ 2 ^ 64 ≤ s.kCompleted))))) by
      rcases this with ⟨a, -⟩ | a | a
      · exact Or.inl a
      · exact Or.inr (Or.inl a)
      · exact Or.inr (Or.inr a)
    induction h with
    | refl => exact Or.inl ⟨rfl, h0⟩
    | @move s s' l _ hv hst ih =>
      rcases ih with ⟨e1, e2⟩ | hl | ⟨e, ih⟩
      · cases l with
        | main =>
          simp only [step, mainStep, e2, e1, ht] at hst
          rw [if_neg (by omega)] at hst
          simp only [Option.some.injEq] at hst
          subst hst
          exact Or.inr (Or.inr ⟨rfl, Or.inl (Or.inl rfl)⟩)
        | worker j =>
          simp only [step, Option.map_eq_some_iff] at hst
          obtain ⟨r, hr, hst⟩ := hst
          subst hst
          refine Or.inl ⟨(workerStep_todo hr).trans e1, ?_⟩
          rcases workerStep_main hr with e | e
          · exact e.trans e2
          · rw [e2] at e; exact absurd e.1 (by simp)
        | spuriousMain => simp [step, e2] at hst
        | spurious j =>
          simp only [step] at hst
          split at hst
          · simp only [Option.some.injEq] at hst; subst hst; exact Or.inl ⟨e1, e2⟩
          · simp at hst
      · exact Or.inr (Or.inl (lt_of_le_of_lt (step_todo hst) hl))
      · cases l with
        | main =>
          simp only [step, mainStep] at hst
          rcases ih with (hm | hm | hm | ⟨hm, hx⟩) | ⟨hx, hn, hm | hm | hm | hm | hm | ⟨hm, hc⟩⟩
          · simp only [hm, Option.some.injEq] at hst; subst hst
            exact Or.inr (Or.inr ⟨e, Or.inl (Or.inr (Or.inl rfl))⟩)
          · simp only [hm, Option.some.injEq] at hst; subst hst
            exact Or.inr (Or.inr ⟨e, Or.inl (Or.inr (Or.inr (Or.inl rfl)))⟩)
          · simp only [hm, Option.some.injEq] at hst; subst hst
            exact Or.inr (Or.inr ⟨e, Or.inl (Or.inr (Or.inr (Or.inr ⟨rfl, rfl⟩)))⟩)
          · simp only [hm, Option.some.injEq] at hst; subst hst
            exact Or.inr (Or.inr ⟨e, Or.inr ⟨hx, rfl, Or.inl rfl⟩⟩)
          · simp only [hm, Option.some.injEq] at hst; subst hst
            exact Or.inr (Or.inr ⟨e, Or.inr ⟨hx, hn, Or.inr (Or.inl rfl)⟩⟩)
          · simp only [hm, Option.some.injEq] at hst; subst hst
            exact Or.inr (Or.inr ⟨e, Or.inr ⟨hx, hn, Or.inr (Or.inr (Or.inl rfl))⟩⟩)
          · simp only [hm, Option.some.injEq] at hst; subst hst
            refine Or.inr (Or.inr ⟨e, Or.inr ⟨hx, hn, ?_⟩⟩)
            have hsp : s.span = 2 ^ 64 - 1 := by
              unfold Par.span sub64; rw [hx, hn, if_neg (by omega)]; omega
            by_cases hc : s.kCompleted > s.span
            · right; right; right; right; right
              simp only [Released, hc, if_true, true_or, true_and]
              rw [hsp] at hc
              omega
            · right; right; right; left
              simp [hc]
          · simp only [hm, Option.some.injEq] at hst; subst hst
            exact Or.inr (Or.inr ⟨e, Or.inr ⟨hx, hn, by simp⟩⟩)
          · simp [hm] at hst
          · rcases hm with hm | hm | hm
            · simp only [hm, Option.some.injEq] at hst; subst hst
              exact Or.inr (Or.inr ⟨e, Or.inr ⟨hx, hn, Or.inr (Or.inr (Or.inr (Or.inr (Or.inr ⟨by simp [Released], hc⟩))))⟩⟩)
            · simp only [hm, Option.some.injEq] at hst; subst hst
              exact Or.inr (Or.inr ⟨e, Or.inr ⟨hx, hn, Or.inr (Or.inr (Or.inr (Or.inr (Or.inr ⟨by simp [Released], hc⟩))))⟩⟩)
            · rw [hm, e] at hst
              cases hrest : rest with
              | nil => simp [hrest] at hst
              | cons q qs =>
                simp only [hrest] at hst
                refine Or.inr (Or.inl ?_)
                split at hst <;> simp only [Option.some.injEq] at hst <;> subst hst <;> simp
        | worker j =>
          simp only [step, Option.map_eq_some_iff] at hst
          obtain ⟨r, hr, hst⟩ := hst
          subst hst
          have h1 := workerStep_todo hr
          have h2 := workerStep_shared hr
          refine Or.inr (Or.inr ⟨h1.trans e, ?_⟩)
          rcases workerStep_main hr with e | ⟨e, e'⟩
          · rcases ih with ih | ⟨hx, hn, ih⟩
            · exact Or.inl (by simpa only [e, h2.1] using ih)
            · refine Or.inr ⟨h2.1.trans hx, h2.2.1.trans hn, ?_⟩
              rcases ih with ih | ih | ih | ih | ih | ⟨ih, ih'⟩
              · exact Or.inl (e.trans ih)
              · exact Or.inr (Or.inl (e.trans ih))
              · exact Or.inr (Or.inr (Or.inl (e.trans ih)))
              · exact Or.inr (Or.inr (Or.inr (Or.inl (e.trans ih))))
              · exact Or.inr (Or.inr (Or.inr (Or.inr (Or.inl (e.trans ih)))))
              · refine Or.inr (Or.inr (Or.inr (Or.inr (Or.inr ⟨?_, le_trans ih' h2.2.2⟩))))
                simpa only [Released, e] using ih
          · rw [e] at ih
            simp only [reduceCtorEq, false_and, or_self, false_or, true_and] at ih
            exact Or.inr ⟨h2.1.trans ih.1, h2.2.1.trans ih.2.1, Or.inr (Or.inr (Or.inl e'))⟩
        | spuriousMain =>
          simp only [step] at hst
          split at hst
          · next hm =>
            simp only [Option.some.injEq] at hst; subst hst
            rw [hm] at ih
            simp only [reduceCtorEq, false_and, or_self, false_or] at ih
            exact Or.inr (Or.inr ⟨e, Or.inr ⟨ih.1, ih.2.1, by simp⟩⟩)
          · simp at hst
        | spurious j =>
          simp only [step] at hst
          split at hst
          · simp only [Option.some.injEq] at hst; subst hst
            exact Or.inr (Or.inr ⟨e, ih⟩)
          · simp at hst
  rcases key with e | e | ⟨-, e⟩
  · rw [hs, ht] at e
    exact absurd (congrArg List.length e) (by simp)
  · rw [hs] at e; omega
  · rcases e with e | ⟨-, -, e⟩
    · rcases hr with hr | hr | hr <;> simp [hr] at e
    · rcases e with e | e | e | e | e | ⟨-, e⟩
      · rcases hr with hr | hr | hr <;> simp [hr] at e
      · rcases hr with hr | hr | hr <;> simp [hr] at e
      · rcases hr with hr | hr | hr <;> simp [hr] at e
      · rcases hr with hr | hr | hr <;> simp [hr] at e
      · rcases hr with hr | hr | hr <;> simp [hr] at e
      · exact e

/-! ### What holds: termination without lost notifications -/

/-- The move `l` is a notification that falls into the window of a thread it is meant for: between the
evaluation of that thread's predicate and its going to sleep. -/
def Lossy (N : ℕ) (s : Par) : Label → Prop
  | .main => s.main = .notifyAll ∧ ∃ j < N, (s.ws j).pc = .window
  | .worker j => (∃ t e, (s.ws j).pc = .notify t e) ∧ s.main = .window
  | _ => False

/-- The states that can follow `s₀` without a lost notification; spurious wake-ups may occur. -/
inductive GoodReach (N : ℕ) (s₀ : Par) : Par → Prop
  | refl : GoodReach N s₀ s₀
  | move {s s' : Par} (l : Label) : GoodReach N s₀ s → l.Valid N → ¬ Lossy N s l →
      step s l = some s' → GoodReach N s₀ s'

/-- `n` moves without lost notifications and without spurious wake-ups. -/
inductive GoodPath (N : ℕ) : Par → ℕ → Par → Prop
  | nil (s : Par) : GoodPath N s 0 s
  | snoc {s s' s'' : Par} {n : ℕ} (l : Label) : GoodPath N s n s' → l.Valid N →
      (l = .main ∨ ∃ j, l = .worker j) → ¬ Lossy N s' l → step s' l = some s'' →
      GoodPath N s (n + 1) s''

/-- No worker has taken part in a phase of the current or a later epoch. -/
def Fresh (N : ℕ) (s : Par) : Prop :=
  ∀ j < N, ∀ e t, (s.ws j).pid = some (e, t) → e < s.epoch

/-- The main thread has not started phase `p` or is not past its wait in it. -/
def Waiting (p : Phase) (rest : List Phase) (s : Par) : Prop :=
  s.todo = p :: rest ∨ (s.todo = rest ∧ ¬ Released s)

/-- The epoch a worker inside a task works for. -/
def epochIn : WPc → Option ℕ
  | .head _ e => some e
  | .took _ e _ => some e
  | .work _ e _ => some e
  | .done _ e _ => some e
  | .exit _ e => some e
  | .notify _ e => some e
  | _ => none

/-- Positions of a worker that has taken part in the current phase. -/
def low : WPc → Prop
  | .top => True
  | .gotTask _ => True
  | .check => True
  | .check2 => True
  | .window => True
  | .asleep => True
  | _ => False

/-- Positions from which a worker will still notify the main thread when all work is complete. -/
def owing (span : ℕ) : WPc → Prop
  | .head _ _ => True
  | .took _ _ k => span < k
  | .exit _ _ => True
  | .notify _ _ => True
  | _ => False

/-- Positions of a worker that has found nothing left to take. -/
def outPc : WPc → Prop
  | .exit _ _ => True
  | .notify _ _ => True
  | _ => False

/-- Invariant of the waiting part of a phase. -/
structure LRun (N : ℕ) (p : Phase) (e0 : ℕ) (s : Par) : Prop where
  epoch : s.epoch = e0
  task : s.task = some p.kind
  fresh : ∀ j < N, ∀ e t, (s.ws j).pid = some (e, t) → e < e0 ∨ (e = e0 ∧ t = p.kind)
  inside : ∀ j < N, ∀ e, epochIn (s.ws j).pc = some e → e = e0
  left : ∀ j < N, (s.ws j).pid = some (e0, p.kind) → low (s.ws j).pc ∧ p.kMax - p.kMin < s.kTaken
  out : ∀ j < N, outPc (s.ws j).pc → p.kMax - p.kMin < s.kTaken
  awake : s.main ≠ .notifyAll → ∀ j < N, (s.ws j).pc = .window ∨ (s.ws j).pc = .asleep →
    (s.ws j).pid = some (e0, p.kind)
  owed : s.main = .window ∨ s.main = .asleep → p.kMax - p.kMin < s.kCompleted →
    ∃ j < N, owing (p.kMax - p.kMin) (s.ws j).pc

/-- Invariant before the task is published. -/
structure LSet (N : ℕ) (e0 : ℕ) (s : Par) : Prop where
  epoch : s.epoch = e0
  fresh : ∀ j < N, ∀ e t, (s.ws j).pid = some (e, t) → e < e0

/-- How many more steps a worker can make by itself. -/
def rank (task : Option Task) (cur : ℕ × Task) (span : ℕ) (w : Worker) : ℕ :=
  if w.pid = some cur then
    match w.pc with
    | .top => 5
    | .gotTask _ => 4
    | .check => 3
    | .check2 => 2
    | .window => 1
    | _ => 0
  else
    match w.pc with
    | .asleep => 0
    | .window => 1
    | .notify _ _ => 20
    | .exit _ _ => 21
    | .took _ _ k => if span < k then 22 else 26
    | .head _ _ => 23
    | .done _ _ _ => 24
    | .work _ _ _ => 25
    | .reloaded none => 50
    | .reloaded (some _) => 30
    | .reload => if task = none then 51 else 31
    | .check2 => if task = none then 52 else 32
    | .check => 33
    | .gotTask _ => 34
    | .top => 35

def mainRank (N : ℕ) : MPc → ℕ
  | .idle => 36 * N + 20
  | .clearTaken _ => 36 * N + 19
  | .clearCompleted _ => 36 * N + 18
  | .setMax _ => 36 * N + 17
  | .setMin _ => 36 * N + 16
  | .setTask _ => 36 * N + 15
  | .notifyAll => 36 * N + 14
  | .check => 2
  | .window => 1
  | _ => 0

/-- Bound for the number of steps until the main thread is released. -/
def measure (N : ℕ) (p : Phase) (e0 : ℕ) (s : Par) : ℕ :=
  mainRank N s.main + (∑ j ∈ Finset.range N, rank s.task (e0, p.kind) (p.kMax - p.kMin) (s.ws j)) +
    (if s.task = none then 4 * (p.kMax - p.kMin + 1) else 4 * (p.kMax - p.kMin + 1 - s.kTaken))

theorem sum_update {N j : ℕ} (hj : j < N) (f : Worker → ℕ) (ws : ℕ → Worker) (w : Worker) :
    (∑ i ∈ Finset.range N, f (Function.update ws j w i)) + f (ws j)
      = (∑ i ∈ Finset.range N, f (ws i)) + f w := by
  rw [← Finset.add_sum_erase _ _ (Finset.mem_range.2 hj),
    ← Finset.add_sum_erase (Finset.range N) (fun i => f (ws i)) (Finset.mem_range.2 hj)]
  have : ∑ i ∈ (Finset.range N).erase j, f (Function.update ws j w i)
      = ∑ i ∈ (Finset.range N).erase j, f (ws i) := by
    refine Finset.sum_congr rfl fun i hi => ?_
    rw [Function.update_of_ne (Finset.ne_of_mem_erase hi)]
  rw [this, Function.update_self]
  omega

/-- Quiet workers without a task make progress towards sleep. -/
theorem quiet_rank {s : Par} {w : Worker} (hw : taskIn w.pc = none) (ht : s.task = none)
    {cur : ℕ × Task} (hp : w.pid ≠ some cur) (span : ℕ)
    {r : Par × Worker} (h : workerStep s w = some r) :
    r.2.pid = w.pid ∧ rank none cur span r.2 < rank none cur span w := by
  obtain ⟨pc, pid⟩ := w
  simp only at hp
  unfold workerStep at h
  cases pc with
  | gotTask t =>
    cases t with
    | none => simp only [Option.some.injEq] at h; subst h; simp [rank, hp]
    | some t => simp [taskIn] at hw
  | reloaded t =>
    cases t with
    | none => simp only [Option.some.injEq] at h; subst h; simp [rank, hp]
    | some t => simp [taskIn] at hw
  | top => simp only [Option.some.injEq] at h; subst h; simp [rank, hp]
  | check => simp only [Option.some.injEq] at h; subst h; simp [rank, hp, ht]
  | check2 => simp only [Option.some.injEq] at h; subst h; simp [rank, hp, ht]
  | window => simp only [Option.some.injEq] at h; subst h; simp [rank, hp]
  | reload => simp only [Option.some.injEq] at h; subst h; simp [rank, hp, ht]
  | asleep => simp at h
  | head t e => simp [taskIn] at hw
  | took t e k => simp [taskIn] at hw
  | work t e k => simp [taskIn] at hw
  | done t e k => simp [taskIn] at hw
  | exit t e => simp [taskIn] at hw
  | notify t e => simp [taskIn] at hw

/-- One worker changes: what has to be checked. -/
theorem LRun.update {N : ℕ} {p : Phase} {e0 : ℕ} {s s' : Par} (h : LRun N p e0 s) {j : ℕ} {w : Worker}
    (hepoch : s'.epoch = s.epoch) (htask : s'.task = s.task) (hws : s'.ws = Function.update s.ws j w)
    (hT : s.kTaken ≤ s'.kTaken) (hmain : s'.main ≠ .notifyAll → s.main ≠ .notifyAll)
    (hfresh : ∀ e t, w.pid = some (e, t) → e < e0 ∨ (e = e0 ∧ t = p.kind))
    (hinside : ∀ e, epochIn w.pc = some e → e = e0)
    (hleft : w.pid = some (e0, p.kind) → low w.pc ∧ p.kMax - p.kMin < s'.kTaken)
    (hout : outPc w.pc → p.kMax - p.kMin < s'.kTaken)
    (hawake : s.main ≠ .notifyAll → w.pc = .window ∨ w.pc = .asleep → w.pid = some (e0, p.kind))
    (howed : s'.main = .window ∨ s'.main = .asleep → p.kMax - p.kMin < s'.kCompleted →
      ∃ j < N, owing (p.kMax - p.kMin) (s'.ws j).pc) : LRun N p e0 s' := by
  refine ⟨hepoch.trans h.epoch, htask.trans h.task, ?_, ?_, ?_, ?_, ?_, howed⟩
  · intro j' hj' e t he
    rw [hws] at he
    by_cases ej : j' = j
    · subst ej; rw [Function.update_self] at he; exact hfresh e t he
    · rw [Function.update_of_ne ej] at he; exact h.fresh j' hj' e t he
  · intro j' hj' e he
    rw [hws] at he
    by_cases ej : j' = j
    · subst ej; rw [Function.update_self] at he; exact hinside e he
    · rw [Function.update_of_ne ej] at he; exact h.inside j' hj' e he
  · intro j' hj' he
    rw [hws] at he ⊢
    by_cases ej : j' = j
    · subst ej; rw [Function.update_self] at he ⊢; exact hleft he
    · rw [Function.update_of_ne ej] at he ⊢
      obtain ⟨h1, h2⟩ := h.left j' hj' he
      exact ⟨h1, by omega⟩
  · intro j' hj' he
    rw [hws] at he
    by_cases ej : j' = j
    · subst ej; rw [Function.update_self] at he; exact hout he
    · rw [Function.update_of_ne ej] at he
      have := h.out j' hj' he
      omega
  · intro hm j' hj' he
    rw [hws] at he ⊢
    by_cases ej : j' = j
    · subst ej; rw [Function.update_self] at he ⊢; exact hawake (hmain hm) he
    · rw [Function.update_of_ne ej] at he ⊢; exact h.awake (hmain hm) j' hj' he

/-- If everything is counted, everything was taken. -/
theorem Core.taken {lo hi N kT : ℕ} {new cnt : List ℕ} {pc : ℕ → WPc} (hle : lo ≤ hi)
    (h : Core lo hi N kT new cnt pc) (hc : hi - lo < cnt.length) : hi - lo < kT := by
  obtain ⟨hp, -⟩ := h.full hle hc
  have : lo ∈ new := (hp.mem_iff).2 (by rw [List.mem_range'_1]; omega)
  exact (h.newRange lo this).2.2

/-- A step of a worker in the waiting part. -/
theorem LRun.workerStep {N : ℕ} {p : Phase} (hp : p.kMin ≤ p.kMax) {before : List (Task × ℕ)} {e0 : ℕ}
    {s : Par} (hR : Running N p before s) (h : LRun N p e0 s) {j : ℕ} (hj : j < N)
    (hloss : ¬ Lossy N s (.worker j)) {r : Par × Worker} (hr : workerStep s (s.ws j) = some r) :
    LRun N p e0 { r.1 with ws := Function.update r.1.ws j r.2 } ∧
    measure N p e0 { r.1 with ws := Function.update r.1.ws j r.2 } < measure N p e0 s := by
  obtain ⟨new, cnt, h1, h2, h3⟩ := hR.core
  have hspan : s.span = p.kMax - p.kMin := by
    unfold Par.span; rw [hR.kMin, hR.kMax, sub64_of_le hp]
  have htj := hR.tasks j hj
  have hinj := h.inside j hj
  have hleftj := h.left j hj
  have hfreshj := h.fresh j hj
  have hawakej := fun hm => h.awake hm j hj
  have htaken : p.kMax - p.kMin < s.kCompleted → p.kMax - p.kMin < s.kTaken := by
    intro hc; exact h3.taken hp (by omega)
  -- the owed notification, when the moving worker is not the one that owes it
  have howed' : ∀ w : Worker, (owing (p.kMax - p.kMin) (s.ws j).pc → owing (p.kMax - p.kMin) w.pc) →
      (s.main = .window ∨ s.main = .asleep) → p.kMax - p.kMin < s.kCompleted →
      ∃ i < N, owing (p.kMax - p.kMin) (Function.update s.ws j w i).pc := by
    intro w hw hm hc
    obtain ⟨i, hi, ho⟩ := h.owed hm hc
    by_cases e : i = j
    · subst e; exact ⟨i, hi, by rw [Function.update_self]; exact hw ho⟩
    · exact ⟨i, hi, by rw [Function.update_of_ne e]; exact ho⟩
  have hsum := sum_update hj (rank s.task (e0, p.kind) (p.kMax - p.kMin)) s.ws
  obtain ⟨pc, pid, hw⟩ : ∃ pc pid, s.ws j = ⟨pc, pid⟩ := ⟨_, _, rfl⟩
  rw [hw] at hr hinj hleftj hfreshj hawakej htj howed' hsum
  simp only at hinj hleftj hfreshj hawakej htj howed'
  have ht0 := h.task
  have hne : s.task ≠ none := by rw [ht0]; simp
  -- a move that changes nothing but the worker
  have simple : ∀ w : Worker,
      (∀ e t, w.pid = some (e, t) → e < e0 ∨ (e = e0 ∧ t = p.kind)) →
      (∀ e, epochIn w.pc = some e → e = e0) →
      (w.pid = some (e0, p.kind) → low w.pc ∧ p.kMax - p.kMin < s.kTaken) →
      (outPc w.pc → p.kMax - p.kMin < s.kTaken) →
      (s.main ≠ .notifyAll → w.pc = .window ∨ w.pc = .asleep → w.pid = some (e0, p.kind)) →
      ((s.main = .window ∨ s.main = .asleep) → p.kMax - p.kMin < s.kCompleted →
        owing (p.kMax - p.kMin) pc → owing (p.kMax - p.kMin) w.pc) →
      rank s.task (e0, p.kind) (p.kMax - p.kMin) w
        < rank s.task (e0, p.kind) (p.kMax - p.kMin) ⟨pc, pid⟩ →
      LRun N p e0 { s with ws := Function.update s.ws j w } ∧
      measure N p e0 { s with ws := Function.update s.ws j w } < measure N p e0 s := by
    intro w a1 a2 a3 a4' a4 a5 a6
    refine ⟨h.update (j := j) (w := w) rfl rfl rfl le_rfl id a1 a2 a3 a4' a4 ?_, ?_⟩
    · intro hm hc
      exact howed' w (a5 hm hc) hm hc
    · have := hsum w
      simp only [measure]
      omega
  unfold CT.Par.workerStep at hr
  cases pc with
  | top =>
    simp only [Option.some.injEq] at hr; subst hr
    refine simple _ hfreshj (by simp [epochIn]) ?_ (by simp [outPc]) (by simp) (by simp [owing]) ?_
    · intro hc; exact ⟨trivial, (hleftj hc).2⟩
    · simp only [rank]; split <;> omega
  | gotTask t =>
    have lowCase : ∀ w : Worker, w = ⟨.check, pid⟩ → 
        LRun N p e0 { s with ws := Function.update s.ws j w } ∧
        measure N p e0 { s with ws := Function.update s.ws j w } < measure N p e0 s := by
      rintro w rfl
      refine simple _ hfreshj (by simp [epochIn]) ?_ (by simp [outPc]) (by simp) (by simp [owing]) ?_
      · intro hc; exact ⟨trivial, (hleftj hc).2⟩
      · simp only [rank]; split <;> omega
    cases t with
    | none => simp only [Option.some.injEq] at hr; subst hr; exact lowCase _ rfl
    | some t =>
      simp only at hr
      split at hr
      · simp only [Option.some.injEq] at hr; subst hr; exact lowCase _ rfl
      · next hpid =>
        simp only [Option.some.injEq] at hr; subst hr
        have ht : t = p.kind := htj t rfl
        rw [h.epoch, ht] at hpid
        refine simple _ hfreshj (by simp [epochIn, h.epoch]) (fun hc => absurd hc hpid) (by simp [outPc]) (by simp)
          (by simp [owing]) ?_
        simp only [rank, if_neg hpid]; omega
  | check =>
    simp only [Option.some.injEq] at hr; subst hr
    rw [if_neg hne]
    refine simple _ hfreshj (by simp [epochIn]) ?_ (by simp [outPc]) (by simp) (by simp [owing]) ?_
    · intro hc; exact ⟨trivial, (hleftj hc).2⟩
    · simp only [rank, if_neg hne]; split <;> omega
  | check2 =>
    simp only [Option.some.injEq] at hr; subst hr
    rw [ht0, h.epoch]
    by_cases hpid : pid = some (e0, p.kind)
    · rw [if_pos (by simp [hpid])]
      refine simple _ hfreshj (by simp [epochIn]) ?_ (by simp [outPc]) (fun _ _ => hpid) (by simp [owing]) ?_
      · intro hc; exact ⟨trivial, (hleftj hc).2⟩
      · simp [rank, hpid]
    · rw [if_neg (by simpa using fun e => hpid e.symm)]
      refine simple _ hfreshj (by simp [epochIn]) (fun hc => absurd hc hpid) (by simp [outPc]) (by simp)
        (by simp [owing]) ?_
      simp [rank, hpid, ht0]
  | window =>
    simp only [Option.some.injEq] at hr; subst hr
    refine simple _ hfreshj (by simp [epochIn]) ?_ (by simp [outPc]) (fun hm _ => hawakej hm (Or.inl rfl))
      (by simp [owing]) ?_
    · intro hc; exact ⟨trivial, (hleftj hc).2⟩
    · simp only [rank]; split <;> omega
  | asleep => simp at hr
  | reload =>
    simp only [Option.some.injEq] at hr; subst hr
    have hpid : pid ≠ some (e0, p.kind) := fun hc => (hleftj hc).1
    refine simple _ hfreshj (by simp [epochIn]) (fun hc => absurd hc hpid) (by simp [outPc]) (by simp)
      (by simp [owing]) ?_
    simp [rank, hpid, ht0]
  | reloaded t =>
    have hpid : pid ≠ some (e0, p.kind) := fun hc => (hleftj hc).1
    cases t with
    | none =>
      simp only [Option.some.injEq] at hr; subst hr
      refine simple _ hfreshj (by simp [epochIn]) (fun hc => absurd hc hpid) (by simp [outPc]) (by simp)
        (by simp [owing]) ?_
      simp [rank, hpid]
    | some t =>
      simp only [Option.some.injEq] at hr; subst hr
      refine simple _ hfreshj (by simp [epochIn, h.epoch]) (fun hc => absurd hc hpid) (by simp [outPc]) (by simp)
        (by simp [owing]) ?_
      simp [rank, hpid]
  | head t e =>
    have hpid : pid ≠ some (e0, p.kind) := fun hc => (hleftj hc).1
    simp only [Option.some.injEq] at hr; subst hr
    refine ⟨h.update (j := j) rfl rfl rfl (Nat.le_succ _) id hfreshj ?_ (fun hc => absurd hc hpid)
      (by simp [outPc]) (by simp) ?_, ?_⟩
    · intro e' he'; exact hinj e' he'
    · intro hm hc
      exact howed' _ (fun _ => htaken hc) hm hc
    · have := hsum ⟨.took t e s.kTaken, pid⟩
      have r1 : rank s.task (e0, p.kind) (p.kMax - p.kMin) ⟨.head t e, pid⟩ = 23 := by
        simp [rank, hpid]
      have r2 : rank s.task (e0, p.kind) (p.kMax - p.kMin) ⟨.took t e s.kTaken, pid⟩
          = if p.kMax - p.kMin < s.kTaken then 22 else 26 := by
        simp [rank, hpid]
      simp only [measure, if_neg hne]
      rw [r1, r2] at this
      split at this <;> omega
  | took t e k =>
    have hpid : pid ≠ some (e0, p.kind) := fun hc => (hleftj hc).1
    simp only [Option.some.injEq] at hr; subst hr
    rw [hspan]
    by_cases hk : k > p.kMax - p.kMin
    · rw [if_pos hk]
      have hkt := h3.tookLt j hj t e k (by simp only [hw])
      refine simple _ hfreshj (fun e' he' => hinj e' he') (fun hc => absurd hc hpid)
        (fun _ => by omega) (by simp)
        (fun _ _ _ => trivial) ?_
      have hk' : p.kMax - p.kMin < k := hk
      simp [rank, hpid, hk']
    · rw [if_neg hk]
      refine simple _ hfreshj (fun e' he' => hinj e' he') (fun hc => absurd hc hpid) (by simp [outPc]) (by simp)
        (fun _ _ ho => absurd ho (by simpa [owing] using hk)) ?_
      have hk' : ¬ p.kMax - p.kMin < k := hk
      simp [rank, hpid, hk']
  | work t e i =>
    have hpid : pid ≠ some (e0, p.kind) := fun hc => (hleftj hc).1
    simp only [Option.some.injEq] at hr; subst hr
    refine ⟨h.update (j := j) rfl rfl rfl le_rfl id hfreshj ?_ (fun hc => absurd hc hpid)
      (by simp [outPc]) (by simp) ?_, ?_⟩
    · intro e' he'; exact hinj e' he'
    · intro hm hc
      exact howed' _ (by simp [owing]) hm hc
    · have := hsum ⟨.done t e i, pid⟩
      simp only [measure]
      simp only [rank, if_neg hpid] at this ⊢
      omega
  | done t e i =>
    have hpid : pid ≠ some (e0, p.kind) := fun hc => (hleftj hc).1
    simp only [Option.some.injEq] at hr; subst hr
    refine ⟨h.update (j := j) rfl rfl rfl le_rfl id hfreshj ?_ (fun hc => absurd hc hpid)
      (by simp [outPc]) (by simp) ?_, ?_⟩
    · intro e' he'; exact hinj e' he'
    · intro hm hc
      exact ⟨j, hj, by simp [owing]⟩
    · have := hsum ⟨.head t e, pid⟩
      simp only [measure]
      simp only [rank, if_neg hpid] at this ⊢
      omega
  | exit t e =>
    have hpid : pid ≠ some (e0, p.kind) := fun hc => (hleftj hc).1
    have he : e = e0 := hinj e rfl
    have ht : t = p.kind := htj t rfl
    have hout := h.out j hj (by rw [hw]; trivial)
    simp only [hspan] at hr
    split at hr
    · simp only [Option.some.injEq] at hr; subst hr
      refine simple _ hfreshj (fun e' he' => hinj e' he') (fun hc => absurd hc hpid) (fun _ => hout)
        (by simp) (fun _ _ _ => trivial) ?_
      simp [rank, hpid]
    · next hc =>
      simp only [Option.some.injEq] at hr; subst hr
      refine simple _ ?_ (by simp [epochIn]) (fun _ => ⟨trivial, hout⟩) (by simp [outPc]) (by simp)
        (fun _ hc' => absurd hc' hc) ?_
      · intro e' t' he'
        simp only [Option.some.injEq, Prod.mk.injEq] at he'
        exact Or.inr ⟨he'.1 ▸ he, he'.2 ▸ ht⟩
      · simp [rank, hpid, he, ht]
  | notify t e =>
    have hpid : pid ≠ some (e0, p.kind) := fun hc => (hleftj hc).1
    have he : e = e0 := hinj e rfl
    have ht : t = p.kind := htj t rfl
    have hout := h.out j hj (by rw [hw]; trivial)
    have hnw : s.main ≠ .window := fun hm => hloss ⟨⟨t, e, by rw [hw]⟩, hm⟩
    simp only [Option.some.injEq] at hr; subst hr
    have hsm := hsum ⟨.top, some (e, t)⟩
    have r1 : rank s.task (e0, p.kind) (p.kMax - p.kMin) ⟨.notify t e, pid⟩ = 20 := by
      simp [rank, hpid]
    have r2 : rank s.task (e0, p.kind) (p.kMax - p.kMin) ⟨.top, some (e, t)⟩ = 5 := by
      simp [rank, he, ht]
    rw [r1, r2] at hsm
    refine ⟨h.update (j := j) rfl rfl rfl le_rfl ?_ ?_ (by simp [epochIn]) (fun _ => ⟨trivial, hout⟩)
      (by simp [outPc]) (by simp) ?_, ?_⟩
    · intro _ hm
      simp_all [wakeMain]
    · intro e' t' he'
      simp only [Option.some.injEq, Prod.mk.injEq] at he'
      exact Or.inr ⟨he'.1 ▸ he, he'.2 ▸ ht⟩
    · intro hm
      simp only [wakeMain] at hm
      split at hm
      · simp at hm
      · next ha => rcases hm with hm | hm <;> contradiction
    · simp only [measure, wakeMain]
      split
      · next ha => simp only [ha, mainRank]; omega
      · omega

/-- All that is known in the waiting part of phase `p` when no notification was lost. -/
def GInv (N : ℕ) (p : Phase) (rest : List Phase) (before : List (Task × ℕ)) (e0 : ℕ) (s : Par) : Prop :=
  (Ready N p rest s ∧ LSet N e0 s) ∨ (s.todo = rest ∧ Setup N p before s ∧ LSet N e0 s) ∨
    (s.todo = rest ∧ ¬ Released s ∧ Running N p before s ∧ LRun N p e0 s)

private theorem quietStep {N : ℕ} {p : Phase} {e0 : ℕ} {s : Par} (hq : Quiet N s) (ht : s.task = none)
    (hl : LSet N e0 s) {j : ℕ} (hj : j < N) {r : Par × Worker}
    (hr : workerStep s (s.ws j) = some r) :
    r.1 = s ∧ Quiet N { s with ws := Function.update s.ws j r.2 } ∧
      LSet N e0 { s with ws := Function.update s.ws j r.2 } ∧
      measure N p e0 { s with ws := Function.update s.ws j r.2 } < measure N p e0 s := by
  obtain ⟨e, hq'⟩ := quiet_step (hq j hj) ht hr
  have hpid : (s.ws j).pid ≠ some (e0, p.kind) := fun hc => lt_irrefl _ (hl.fresh j hj _ _ hc)
  obtain ⟨hp, hk⟩ := quiet_rank (cur := (e0, p.kind)) (hq j hj) ht hpid (p.kMax - p.kMin) hr
  refine ⟨e, quiet_update hq hq' rfl, ⟨hl.epoch, ?_⟩, ?_⟩
  · intro j' hj' e t he
    by_cases ej : j' = j
    · subst ej; simp only [Function.update_self] at he; exact hl.fresh j' hj' e t (hp ▸ he)
    · simp only [Function.update_of_ne ej] at he; exact hl.fresh j' hj' e t he
  · have := sum_update hj (rank s.task (e0, p.kind) (p.kMax - p.kMin)) s.ws r.2
    rw [ht] at this
    simp only [measure, ht]
    omega

theorem notWaiting_step {N : ℕ} {p : Phase} {rest : List Phase} (hp : p.kMin < p.kMax) {s₀ s s' : Par}
    (h0 : Ready N p rest s₀) (h : Reach N s₀ s) (hw : ¬ Waiting p rest s) {l : Label}
    (hs : step s l = some s') : ¬ Waiting p rest s' := by
  have hlen : ∀ {a : Par}, a.todo.length < rest.length → ¬ Waiting p rest a := by
    intro a ha hc
    rcases hc with hc | ⟨hc, -⟩
    · rw [hc, List.length_cons] at ha; omega
    · rw [hc] at ha; omega
  rcases reach_cases hp h0 h with ⟨hr, -⟩ | ⟨ht, hse⟩ | ⟨ht, hr⟩ | hl
  · exact absurd (Or.inl hr.todo) hw
  · refine absurd (Or.inr ⟨ht, fun hrel => ?_⟩) hw
    have := hse.main
    rcases hrel with e | e | e <;> simp [e] at this
  · have hrel : Released s := by
      by_contra hc; exact hw (Or.inr ⟨ht, hc⟩)
    have hnp : ∀ {a : Par}, a.todo = rest → Released a → ¬ Waiting p rest a := by
      rintro a ha hb (hc | ⟨-, hc⟩)
      · rw [ha] at hc; exact absurd (congrArg List.length hc) (by simp)
      · exact hc hb
    cases l with
    | main =>
      simp only [step, mainStep] at hs
      rcases hrel with hm | hm | hm
      · simp only [hm, Option.some.injEq] at hs; subst hs
        exact hnp ht (by simp [Released])
      · simp only [hm, Option.some.injEq] at hs; subst hs
        exact hnp ht (by simp [Released])
      · rw [hm, ht] at hs
        cases hrest : rest with
        | nil => simp [hrest] at hs
        | cons q qs =>
          simp only [hrest] at hs
          rw [← hrest]
          apply hlen
          split at hs <;> simp only [Option.some.injEq] at hs <;> subst hs <;> simp [hrest]
    | worker j =>
      simp only [step, Option.map_eq_some_iff] at hs
      obtain ⟨r, hr', hs⟩ := hs
      subst hs
      refine hnp ((workerStep_todo hr').trans ht) ?_
      rcases workerStep_main hr' with e | ⟨e, -⟩
      · simpa only [Released, e] using hrel
      · rcases hrel with e' | e' | e' <;> simp [e'] at e
    | spuriousMain =>
      simp only [step] at hs
      split at hs
      · next e => rcases hrel with e' | e' | e' <;> simp [e'] at e
      · simp at hs
    | spurious j =>
      simp only [step] at hs
      split at hs
      · simp only [Option.some.injEq] at hs; subst hs
        exact hnp ht hrel
      · simp at hs
  · exact hlen (lt_of_le_of_lt (step_todo hs) hl)

private theorem wake_pc (w : Worker) :
    (w.pc ≠ .asleep ∧ wake w = w) ∨ (w.pc = .asleep ∧ wake w = ⟨.check, w.pid⟩) := by
  unfold wake
  split
  · next h => exact Or.inr ⟨h, rfl⟩
  · next h => exact Or.inl ⟨h, rfl⟩

/-- One move without a lost notification: either the invariant persists, and the measure decreases
unless the move is a spurious wake-up, or the wait is over. -/
theorem good_step {N : ℕ} {p : Phase} {rest : List Phase} (hp : p.kMin < p.kMax)
    {before : List (Task × ℕ)} {e0 : ℕ} {s s' : Par} (h : GInv N p rest before e0 s)
    {l : Label} (hv : l.Valid N) (hloss : ¬ Lossy N s l) (hs : step s l = some s') :
    (∃ before', GInv N p rest before' e0 s' ∧
      ((l = .main ∨ ∃ j, l = .worker j) → measure N p e0 s' < measure N p e0 s)) ∨
      ¬ Waiting p rest s' := by
  rcases h with ⟨h, hl⟩ | ⟨ht, h, hl⟩ | ⟨ht, hnr, h, hl⟩
  · -- not begun
    left
    cases l with
    | main =>
      simp only [step, mainStep, h.main, h.todo] at hs
      rw [if_neg (by omega)] at hs
      simp only [Option.some.injEq] at hs
      subst hs
      refine ⟨s.log, Or.inr (Or.inl ⟨rfl, ⟨h.task, h.quiet, rfl, Or.inl rfl⟩, ⟨hl.epoch, hl.fresh⟩⟩),
        fun _ => ?_⟩
      simp only [measure, h.main, mainRank]
      omega
    | worker j =>
      simp only [step, Option.map_eq_some_iff] at hs
      obtain ⟨r, hr, hs⟩ := hs
      obtain ⟨e, hq, hl', hm⟩ := quietStep (p := p) h.quiet h.task hl hv hr
      subst hs
      rw [e]
      exact ⟨before, Or.inl ⟨⟨h.main, h.todo, h.task, hq⟩, hl'⟩, fun _ => hm⟩
    | spuriousMain => simp [step, h.main] at hs
    | spurious j =>
      simp only [step] at hs
      split at hs
      · simp only [Option.some.injEq] at hs
        subst hs
        refine ⟨before, Or.inl ⟨⟨h.main, h.todo, h.task, quiet_update h.quiet (by rfl) rfl⟩,
          ⟨hl.epoch, ?_⟩⟩, by simp⟩
        intro j' hj' e t he
        by_cases ej : j' = j
        · subst ej; simp only [Function.update_self] at he; exact hl.fresh j' hj' e t he
        · simp only [Function.update_of_ne ej] at he; exact hl.fresh j' hj' e t he
      · simp at hs
  · -- set-up
    left
    cases l with
    | main =>
      simp only [step, mainStep] at hs
      rcases h.main with hm | ⟨hm, hk⟩ | ⟨hm, hk⟩ | ⟨hm, hk⟩ | ⟨hm, hk⟩ <;>
        simp only [hm, Option.some.injEq] at hs <;> subst hs
      · refine ⟨before, Or.inr (Or.inl ⟨ht, ⟨h.task, h.quiet, h.log, by simp⟩, ⟨hl.epoch, hl.fresh⟩⟩),
          fun _ => ?_⟩
        simp only [measure, hm, mainRank, h.task, if_true]; omega
      · refine ⟨before, Or.inr (Or.inl ⟨ht, ⟨h.task, h.quiet, h.log, by simp [hk]⟩,
          ⟨hl.epoch, hl.fresh⟩⟩), fun _ => ?_⟩
        simp only [measure, hm, mainRank]; omega
      · refine ⟨before, Or.inr (Or.inl ⟨ht, ⟨h.task, h.quiet, h.log, by simp [hk]⟩,
          ⟨hl.epoch, hl.fresh⟩⟩), fun _ => ?_⟩
        simp only [measure, hm, mainRank]; omega
      · refine ⟨before, Or.inr (Or.inl ⟨ht, ⟨h.task, h.quiet, h.log, by simp [hk]⟩,
          ⟨hl.epoch, hl.fresh⟩⟩), fun _ => ?_⟩
        simp only [measure, hm, mainRank]; omega
      · obtain ⟨k1, k2, k3, k4⟩ := hk
        have hno : ∀ j < N, hold p.kMin p.kMax (s.ws j).pc = none ∧ epochIn (s.ws j).pc = none ∧
            ¬ outPc (s.ws j).pc ∧ ∀ t e k, (s.ws j).pc ≠ .took t e k := by
          intro j hj
          have := h.quiet j hj
          cases hc : (s.ws j).pc <;> rw [hc] at this <;> simp_all [taskIn, hold, epochIn, outPc]
        refine ⟨before, Or.inr (Or.inr ⟨ht, by simp [Released], ⟨k4, k3, ?_, ?_, Or.inl rfl,
          [], [], ?_, ?_, ?_⟩, ⟨hl.epoch, rfl, ?_, ?_, ?_, ?_, ?_, ?_⟩⟩), fun _ => ?_⟩
        · simp
        · intro j hj t ht
          rw [h.quiet j hj] at ht
          cases ht
        · simp [h.log]
        · simp [k2]
        · refine ⟨by simp, by simp, by simp, by simp, ?_, ?_, ?_, ?_, ?_⟩
          · intro j hj t e k hc; exact absurd hc ((hno j hj).2.2.2 t e k)
          · intro j hj i hc; rw [(hno j hj).1] at hc; cases hc
          · intro j hj i hc; rw [(hno j hj).1] at hc; cases hc
          · intro j hj _ _ i hc; rw [(hno j hj).1] at hc; cases hc
          · intro i _ _ hc; simp only [k1] at hc; omega
        · intro j hj e t he; exact Or.inl (hl.fresh j hj e t he)
        · intro j hj e he; rw [(hno j hj).2.1] at he; cases he
        · intro j hj he; exact absurd (hl.fresh j hj _ _ he) (lt_irrefl _)
        · intro j hj he; exact absurd he (hno j hj).2.2.1
        · intro hc; exact absurd rfl hc
        · intro hc; rcases hc with hc | hc <;> cases hc
        · have hle : ∑ j ∈ Finset.range N, rank (some p.kind) (e0, p.kind) (p.kMax - p.kMin) (s.ws j)
              ≤ ∑ j ∈ Finset.range N, rank none (e0, p.kind) (p.kMax - p.kMin) (s.ws j) := by
            refine Finset.sum_le_sum fun j hj => ?_
            simp only [rank]
            split
            · exact le_rfl
            · cases (s.ws j).pc with
              | reloaded t => cases t <;> simp
              | _ => simp
          simp only [measure, hm, mainRank, h.task, k1]
          simp only [if_true, reduceCtorEq, if_false]
          omega
    | worker j =>
      simp only [step, Option.map_eq_some_iff] at hs
      obtain ⟨r, hr, hs⟩ := hs
      obtain ⟨e, hq, hl', hm⟩ := quietStep (p := p) h.quiet h.task hl hv hr
      subst hs
      rw [e]
      exact ⟨before, Or.inr (Or.inl ⟨ht, ⟨h.task, hq, h.log, h.main⟩, hl'⟩), fun _ => hm⟩
    | spuriousMain =>
      simp only [step] at hs
      split at hs
      · next hm => have := h.main; simp [hm] at this
      · simp at hs
    | spurious j =>
      simp only [step] at hs
      split at hs
      · simp only [Option.some.injEq] at hs
        subst hs
        refine ⟨before, Or.inr (Or.inl ⟨ht, ⟨h.task, quiet_update h.quiet (by rfl) rfl, h.log, h.main⟩,
          ⟨hl.epoch, ?_⟩⟩), by simp⟩
        intro j' hj' e t he
        by_cases ej : j' = j
        · subst ej; simp only [Function.update_self] at he; exact hl.fresh j' hj' e t he
        · simp only [Function.update_of_ne ej] at he; exact hl.fresh j' hj' e t he
      · simp at hs
  · -- under way
    have hspan : s.span = p.kMax - p.kMin := by
      unfold Par.span; rw [h.kMin, h.kMax, sub64_of_le (by omega)]
    have hmain : s.main = .notifyAll ∨ s.main = .check ∨ s.main = .window ∨ s.main = .asleep := by
      rcases h.main with e | e | e | e | ⟨e, -⟩
      · simp [e]
      · simp [e]
      · simp [e]
      · simp [e]
      · refine absurd ?_ hnr
        rcases e with e | e | e
        · exact Or.inl e
        · exact Or.inr (Or.inl e.1)
        · exact Or.inr (Or.inr e.1)
    cases l with
    | main =>
      simp only [step, mainStep] at hs
      rcases hmain with hm | hm | hm | hm
      · simp only [hm, Option.some.injEq] at hs
        have hnowin : ∀ j < N, (s.ws j).pc ≠ .window := fun j hj hc => hloss ⟨hm, j, hj, hc⟩
        left
        have hreach : Running N p before s' := by
          have := running_notify h hm
          rw [hs] at this
          exact this
        subst hs
        refine ⟨before, Or.inr (Or.inr ⟨ht, by simp [Released], hreach,
          ⟨hl.epoch, hl.task, ?_, ?_, ?_, ?_, ?_, ?_⟩⟩), fun _ => ?_⟩
        · intro j hj e t he
          rcases wake_pc (s.ws j) with ⟨-, hw⟩ | ⟨-, hw⟩ <;> simp only [hw] at he <;>
            exact hl.fresh j hj e t he
        · intro j hj e he
          rcases wake_pc (s.ws j) with ⟨-, hw⟩ | ⟨-, hw⟩ <;> simp only [hw] at he
          · exact hl.inside j hj e he
          · simp [epochIn] at he
        · intro j hj he
          rcases wake_pc (s.ws j) with ⟨-, hw⟩ | ⟨-, hw⟩ <;> simp only [hw] at he ⊢
          · exact hl.left j hj he
          · exact ⟨trivial, (hl.left j hj he).2⟩
        · intro j hj he
          rcases wake_pc (s.ws j) with ⟨-, hw⟩ | ⟨-, hw⟩ <;> simp only [hw] at he ⊢
          · exact hl.out j hj he
          · exact absurd he id
        · intro _ j hj he
          rcases wake_pc (s.ws j) with ⟨hna, hw⟩ | ⟨-, hw⟩ <;> simp only [hw] at he ⊢
          · rcases he with he | he
            · exact absurd he (hnowin j hj)
            · exact absurd he hna
          · simp at he
        · intro hc; simp at hc
        · have hle : ∑ j ∈ Finset.range N,
              rank s.task (e0, p.kind) (p.kMax - p.kMin) (wake (s.ws j))
              ≤ ∑ j ∈ Finset.range N, (rank s.task (e0, p.kind) (p.kMax - p.kMin) (s.ws j) + 33) := by
            refine Finset.sum_le_sum fun j hj => ?_
            rcases wake_pc (s.ws j) with ⟨-, hw⟩ | ⟨-, hw⟩ <;> rw [hw]
            · omega
            · simp only [rank]; split <;> simp
          rw [Finset.sum_add_distrib, Finset.sum_const, Finset.card_range, Nat.nsmul_eq_mul] at hle
          simp only [measure, hm, mainRank]
          omega
      · simp only [hm, Option.some.injEq] at hs
        by_cases hc : s.kCompleted > s.span
        · right
          rw [if_pos hc] at hs
          subst hs
          rintro (hc | ⟨-, hc⟩)
          · exact absurd (congrArg List.length (ht.symm.trans hc)) (by simp)
          · exact hc (Or.inl rfl)
        · left
          rw [if_neg hc] at hs
          subst hs
          refine ⟨before, Or.inr (Or.inr ⟨ht, by simp [Released], ⟨h.kMin, h.kMax, h.task, h.tasks,
            by simp, h.core⟩, ⟨hl.epoch, hl.task, hl.fresh, hl.inside, hl.left, hl.out, ?_, ?_⟩⟩),
            fun _ => ?_⟩
          · intro _; exact hl.awake (by simp [hm])
          · intro _ hc'; rw [hspan] at hc; exact absurd hc' hc
          · simp only [measure, hm, mainRank]; omega
      · left
        simp only [hm, Option.some.injEq] at hs
        subst hs
        refine ⟨before, Or.inr (Or.inr ⟨ht, by simp [Released], ⟨h.kMin, h.kMax, h.task, h.tasks,
          by simp, h.core⟩, ⟨hl.epoch, hl.task, hl.fresh, hl.inside, hl.left, hl.out, ?_, ?_⟩⟩),
          fun _ => ?_⟩
        · intro _; exact hl.awake (by simp [hm])
        · intro _ hc'; exact hl.owed (Or.inl hm) hc'
        · simp only [measure, hm, mainRank]; omega
      · simp [hm] at hs
    | worker j =>
      left
      simp only [step, Option.map_eq_some_iff] at hs
      obtain ⟨r, hr, hs⟩ := hs
      obtain ⟨h1, h2⟩ := hl.workerStep (le_of_lt hp) h hv hloss hr
      have h3 := h.workerStep (le_of_lt hp) hv hr
      have h4 := (workerStep_todo hr).trans ht
      have h5 : ¬ Released r.1 := by
        rcases workerStep_main hr with e | ⟨-, e⟩
        · simpa only [Released, e] using hnr
        · simp [Released, e]
      subst hs
      exact ⟨before, Or.inr (Or.inr ⟨h4, h5, h3, h1⟩), fun _ => h2⟩
    | spuriousMain =>
      left
      simp only [step] at hs
      split at hs
      · next hm =>
        simp only [Option.some.injEq] at hs
        subst hs
        refine ⟨before, Or.inr (Or.inr ⟨ht, by simp [Released], ⟨h.kMin, h.kMax, h.task, h.tasks,
          by simp, h.core⟩, ⟨hl.epoch, hl.task, hl.fresh, hl.inside, hl.left, hl.out, ?_, ?_⟩⟩), by simp⟩
        · intro _; exact hl.awake (by simp [hm])
        · intro hc; simp at hc
      · simp at hs
    | spurious j =>
      left
      simp only [step] at hs
      split at hs
      · next hm =>
        simp only [Option.some.injEq] at hs
        subst hs
        have hR := h.move j { s.ws j with pc := .check } (by rw [hm]; rfl) (by simp [hm]) (by simp)
          (by simp [taskIn])
        refine ⟨before, Or.inr (Or.inr ⟨ht, hnr, hR, ?_⟩), by simp⟩
        refine hl.update (j := j) rfl rfl rfl le_rfl id (hl.fresh j hv) (by simp [epochIn]) ?_
          (by simp [outPc]) (by simp) ?_
        · intro hc; exact ⟨trivial, (hl.left j hv hc).2⟩
        · intro hm' hc
          obtain ⟨i, hi, ho⟩ := hl.owed hm' hc
          refine ⟨i, hi, ?_⟩
          by_cases e : i = j
          · subst e; rw [hm] at ho; exact absurd ho id
          · simp only [Function.update_of_ne e]; exact ho
      · simp at hs

theorem GoodReach.reach {N : ℕ} {s₀ s : Par} (h : GoodReach N s₀ s) : Reach N s₀ s := by
  induction h with
  | refl => exact .refl
  | move l _ hv _ hs ih => exact ih.move l hv hs

theorem good_inv {N : ℕ} {p : Phase} {rest : List Phase} (hp : p.kMin < p.kMax) {s₀ s : Par}
    (h0 : Ready N p rest s₀) (hf : Fresh N s₀) (h : GoodReach N s₀ s) (hw : Waiting p rest s) :
    ∃ before, GInv N p rest before s₀.epoch s := by
  induction h with
  | refl => exact ⟨s₀.log, Or.inl ⟨h0, ⟨rfl, hf⟩⟩⟩
  | @move s s' l hr hv hloss hs ih =>
    by_cases hw' : Waiting p rest s
    · obtain ⟨before, hi⟩ := ih hw'
      rcases good_step hp hi hv hloss hs with ⟨b, hb, -⟩ | hn
      · exact ⟨b, hb⟩
      · exact absurd hw hn
    · exact absurd hw (notWaiting_step hp h0 hr.reach hw' hs)

/-- C58 (what holds): let the main thread start a phase over more than one index while no worker is
busy with an earlier task, and let at least one worker exist.  As long as no notification falls between
the evaluation of a predicate and the thread's going to sleep, then in every state until the main
thread is released (i) some thread can move without spurious wake-ups, and (ii) there is a bound such
that, whatever the scheduler does, the main thread is released after at most that many moves.

Missing: the two kinds of lost notifications (`C58_violated_wakeup`, `C58_violated_completion`) and
ranges that wrap around (`C58_violated_range`). -/
theorem C58_terminates_partial (N : ℕ) (hN : 1 ≤ N) (p : Phase) (rest : List Phase)
    (hp : p.kMin < p.kMax) (s₀ s : Par) (h0 : Ready N p rest s₀) (hf : Fresh N s₀)
    (h : GoodReach N s₀ s) (hw : Waiting p rest s) :
    ¬ Deadlock N s ∧
    ∃ bound, ∀ n s', GoodPath N s n s' → Waiting p rest s' → n ≤ bound := by
  constructor
  · rintro ⟨hd, hdw⟩
    have hasleep : ∀ j < N, (s.ws j).pc = .asleep := by
      intro j hj
      have := hdw j hj
      simp only [step, Option.map_eq_none_iff] at this
      unfold workerStep at this
      split at this <;> (try split at this) <;> first | assumption | simp at this
    obtain ⟨before, hi⟩ := good_inv hp h0 hf h hw
    simp only [step, mainStep] at hd
    rcases hi with ⟨hi, -⟩ | ⟨ht, hi, -⟩ | ⟨ht, hnr, hi, hl⟩
    · rw [hi.main, hi.todo] at hd
      simp only at hd
      split at hd <;> simp at hd
    · rcases hi.main with hm | ⟨hm, -⟩ | ⟨hm, -⟩ | ⟨hm, -⟩ | ⟨hm, -⟩ <;> simp [hm] at hd
    · have hm : s.main = .asleep := by
        rcases hi.main with e | e | e | e | ⟨e, -⟩
        · simp [e] at hd
        · simp [e] at hd
        · simp [e] at hd
        · exact e
        · refine absurd ?_ hnr
          rcases e with e | e | e
          · exact Or.inl e
          · exact Or.inr (Or.inl e.1)
          · exact Or.inr (Or.inr e.1)
      obtain ⟨new, cnt, h1, h2, h3⟩ := hi.core
      have hpid := hl.awake (by simp [hm]) 0 (by omega) (Or.inr (hasleep 0 (by omega)))
      have hk := (hl.left 0 (by omega) hpid).2
      have hall : ∀ i ∈ List.range' p.kMin (p.kMax - p.kMin + 1), i ∈ cnt := by
        intro i hi'
        rw [List.mem_range'_1] at hi'
        rcases h3.cover i (by omega) (by omega) (by omega) with hc | ⟨j, hj, hc⟩
        · exact hc
        · simp only [hasleep j hj] at hc
          cases hc
      have hlen := (List.subperm_of_subset List.nodup_range' hall).length_le
      rw [List.length_range'] at hlen
      obtain ⟨j, hj, ho⟩ := hl.owed (Or.inr hm) (by omega)
      rw [hasleep j hj] at ho
      exact ho
  · refine ⟨measure N p s₀.epoch s, ?_⟩
    intro n s' hpath hw'
    have key : ∀ n s', GoodPath N s n s' → Waiting p rest s' →
        GoodReach N s₀ s' ∧ n + measure N p s₀.epoch s' ≤ measure N p s₀.epoch s := by
      intro n s' hpath
      induction hpath with
      | nil => intro _; exact ⟨h, by omega⟩
      | @snoc s' s'' n l hpath hv hl hloss hs ih =>
        intro hw''
        have hreach' : GoodReach N s₀ s' := by
          clear ih hw'' hs hloss hl hv
          induction hpath with
          | nil => exact h
          | snoc l _ hv _ hloss hs ih => exact ih.move l hv hloss hs
        by_cases hwait : Waiting p rest s'
        · obtain ⟨_, hm⟩ := ih hwait
          obtain ⟨b, hi⟩ := good_inv hp h0 hf hreach' hwait
          rcases good_step hp hi hv hloss hs with ⟨b', _, hdec⟩ | hn
          · have := hdec hl
            exact ⟨hreach'.move l hv hloss hs, by omega⟩
          · exact absurd hw'' hn
        · exact absurd hw'' (notWaiting_step hp h0 hreach'.reach hwait hs)
    have := (key n s' hpath hw').2
    omega

/-- The first phase of a freshly launched backend meets the hypotheses. -/
example : Ready 3 ⟨.lq, 0, 4⟩ [] (launch [⟨.lq, 0, 4⟩] 7 0 0 0 0) ∧
    Fresh 3 (launch [⟨.lq, 0, 4⟩] 7 0 0 0 0) ∧
    GoodReach 3 (launch [⟨.lq, 0, 4⟩] 7 0 0 0 0) (launch [⟨.lq, 0, 4⟩] 7 0 0 0 0) ∧
    Waiting ⟨.lq, 0, 4⟩ [] (launch [⟨.lq, 0, 4⟩] 7 0 0 0 0) :=
  ⟨C56_first_ready _ _ _ _ _ _ _ _, fun _ _ _ _ h => by simp [launch] at h, .refl, Or.inl rfl⟩

/-- The process ids of different phases differ as long as iterations are numbered below `10^7` and
there are at most `10^6` tasks. -/
theorem processId_injective {i i' w w' c c' : ℕ} (hi : i < 10 ^ 7) (hi' : i' < 10 ^ 7)
    (hw : w + 1 < 10 ^ 6) (hw' : w' + 1 < 10 ^ 6) (h : processId i w c = processId i' w' c') :
    i = i' ∧ w = w' ∧ c = c' := by
  unfold processId at h
  omega

/-- C56, process ids: two phases get the same id only if they are the same phase of the same iteration after the same number of resets, as
long as iterations are numbered below `10^7` and there are at most `10^6` tasks. -/
theorem C56_process_ids {i i' w w' c c' : ℕ} (hi : i < 10 ^ 7) (hi' : i' < 10 ^ 7) (hw : w + 1 < 10 ^ 6) (hw' : w' + 1 < 10 ^ 6) :
    processId i w c = processId i' w' c' ↔ i = i' ∧ w = w' ∧ c = c' :=
  ⟨processId_injective hi hi' hw hw', by rintro ⟨rfl, rfl, rfl⟩; rfl⟩

example : (12 : ℕ) < 10 ^ 7 ∧ (2 : ℕ) + 1 < 10 ^ 6 := by decide

end CT.Par
