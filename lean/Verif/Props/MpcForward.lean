import Verif.Model.MpcForward
import Verif.Props.Mpc
import Verif.Props.PolicyHandler
import Mathlib.Algebra.BigOperators.Group.List.Basic

/-! # Properties C94, C97, C98: MPC statistics, horizon strategies, state prediction -/

namespace CT.MpcForward
open CT.Mpc CT.PolicyHandler CT.StateFeedback CT.Interp

variable {n m : Nat} {K : Type} [Field K] [LinearOrder K] [IsStrictOrderedRing K]

/-! ### C94: statistics of the measured delays -/

/-- Specification: the statistics kept are those of the list `l`. -/
structure Stats (k : Keeper K) (l : List K) : Prop where
  max : k.maxDelay = l.foldl Max.max 0
  min : k.minDelay = l.min?
  sum : k.summedDelay = l.sum

/-- Specification: the delays reported after the `finish` calls since the start or the last restart (a reset,
or a `prepare` before the first completed iteration). -/
def recorded : Mpc K → List (Mpc.Op K) → List K → List K
  | _, [], l => l
  | s, op :: ops, l => recorded (s.step op) ops (match op with
    | .prepare _ _ => if s.firstRun then [] else l
    | .finish t c0 c1 c2 b tr => match (s.finish t c0 c1 c2 b tr).1 with
      | .ub => l
      | _ => l ++ [(s.step op).keeper.lastMeasuredDelay]
    | .reset T => if T < 0 then l else [])

omit [IsStrictOrderedRing K] in
theorem stats_init (k : Keeper K) : Stats k.init [] := ⟨rfl, rfl, rfl⟩

omit [IsStrictOrderedRing K] in
theorem min?_append (l : List K) (a : K) : (l ++ [a]).min? = minO l.min? a := by
  cases l with
  | nil => rfl
  | cons x xs => simp [List.min?, minO, List.foldl_append]

omit [IsStrictOrderedRing K] in
/-- Only the statistics matter. -/
theorem Stats.congr {k k' : Keeper K} {l : List K} (h : Stats k l) (h1 : k'.maxDelay = k.maxDelay)
    (h2 : k'.minDelay = k.minDelay) (h3 : k'.summedDelay = k.summedDelay) : Stats k' l :=
  ⟨h1.trans h.max, h2.trans h.min, h3.trans h.sum⟩

omit [IsStrictOrderedRing K] in
theorem stats_stop (st : Settings K) (k : Keeper K) (ext clk : K) (l : List K) (h : Stats k l) :
    Stats (k.stopDelayMeasurement st ext clk).2 (l ++ [(k.stopDelayMeasurement st ext clk).2.lastMeasuredDelay]) := by
  have key : ∀ k' : Keeper K, ∀ d, k'.lastMeasuredDelay = d → k'.maxDelay = max k.maxDelay d →
      k'.minDelay = minO k.minDelay d → k'.summedDelay = k.summedDelay + d → Stats k' (l ++ [k'.lastMeasuredDelay]) := by
    intro k' d h0 h1 h2 h3
    rw [h0]
    refine ⟨?_, ?_, ?_⟩
    · rw [h1, h.max, List.foldl_append]; rfl
    · rw [h2, h.min, min?_append]
    · rw [h3, h.sum, List.sum_append, List.sum_singleton]
  unfold Keeper.stopDelayMeasurement
  rcases st.useExternalTiming.eq_false_or_eq_true with he | he <;>
    simp only [he, Bool.false_eq_true, if_true, if_false] <;> split_ifs <;> exact key _ _ rfl rfl rfl rfl

omit [IsStrictOrderedRing K] in
theorem stats_timings (st : Settings K) (T0 : K) (k : Keeper K) (ext clk T : K) (tm k')
    (h : k.computeNewTimings st T0 ext clk T = .ok (tm, k')) :
    k'.maxDelay = k.maxDelay ∧ k'.minDelay = k.minDelay ∧ k'.summedDelay = k.summedDelay := by
  unfold Keeper.computeNewTimings at h
  split at h
  · cases h
  · cases h
    dsimp only
    split_ifs <;> exact ⟨rfl, rfl, rfl⟩

omit [IsStrictOrderedRing K] in
theorem prepare_keeper (s : Mpc K) (t c : K) (l : List K) (h : Stats s.keeper l) :
    Stats (s.prepare t c).2.keeper (if s.firstRun then [] else l) := by
  have h0 : Stats (if s.firstRun then s.keeper.init else s.keeper) (if s.firstRun then [] else l) := by
    cases s.firstRun
    · exact h
    · exact stats_init _
  unfold Mpc.prepare
  simp only
  cases hc : (if s.firstRun = true then s.keeper.init else s.keeper).computeNewTimings s.settings s.T0 t c s.solverT with
  | ok r =>
    obtain ⟨tm, k'⟩ := r
    obtain ⟨e1, e2, e3⟩ := stats_timings _ _ _ _ _ _ _ _ hc
    have hk : Stats k' (if s.firstRun then [] else l) := h0.congr e1 e2 e3
    simp only
    generalize (if s.firstRun = true then ([] : List K) else l) = l' at hk ⊢
    split_ifs <;> exact hk
  | exc => exact h0
  | ub => exact h0

omit [IsStrictOrderedRing K] in
theorem start_stats (st : Settings K) (k : Keeper K) (ext clk : K) (l : List K) (h : Stats k l) :
    Stats (k.startDelayMeasurement st ext clk) l := by
  unfold Keeper.startDelayMeasurement
  split_ifs
  · exact h.congr rfl rfl rfl
  · exact h.congr rfl rfl rfl
  · exact h

omit [IsStrictOrderedRing K] in
theorem previous_stats (st : Settings K) (k : Keeper K) (ext clk : K) (l : List K) (h : Stats k l) :
    Stats (k.timeSincePrevious st ext clk).2 l := by
  unfold Keeper.timeSincePrevious
  split_ifs
  · exact h
  · exact h.congr rfl rfl rfl
  · exact h.congr rfl rfl rfl

omit [IsStrictOrderedRing K] in
theorem end_stats (s : Mpc K) (xts clk2 ts : K) (k : Keeper K) (l : List K) (h : Stats k l) :
    (s.finishEnd xts clk2 ts k).1 ≠ .ub ∧
    Stats (s.finishEnd xts clk2 ts k).2.keeper (l ++ [(s.finishEnd xts clk2 ts k).2.keeper.lastMeasuredDelay]) := by
  have := stats_stop s.settings k xts clk2 l h
  unfold Mpc.finishEnd
  rcases hr : k.stopDelayMeasurement s.settings xts clk2 with ⟨r, k2⟩
  rw [hr] at this
  cases r with
  | ok _ =>
    simp only
    split_ifs
    · exact ⟨by simp, this⟩
    · exact ⟨by simp, this⟩
  | exc => exact ⟨by simp, this⟩
  | ub => exact ⟨by simp, this⟩

omit [IsStrictOrderedRing K] in
theorem finish_keeper (s : Mpc K) (t c0 c1 c2 : K) (b : Bool) (tr : K → K) (l : List K) (h : Stats s.keeper l) :
    Stats (s.finish t c0 c1 c2 b tr).2.keeper (match (s.finish t c0 c1 c2 b tr).1 with
      | .ub => l
      | _ => l ++ [(s.finish t c0 c1 c2 b tr).2.keeper.lastMeasuredDelay]) := by
  have h0 := start_stats s.settings s.keeper t c0 l h
  have fin : ∀ ts k, Stats k l → Stats (s.finishEnd t c2 ts k).2.keeper (match (s.finishEnd t c2 ts k).1 with
      | .ub => l
      | _ => l ++ [(s.finishEnd t c2 ts k).2.keeper.lastMeasuredDelay]) := by
    intro ts k hk
    obtain ⟨h1, h2⟩ := end_stats s t c2 ts k l hk
    cases hr : (s.finishEnd t c2 ts k).1 with
    | ok _ => exact h2
    | exc => exact h2
    | ub => exact absurd hr h1
  unfold Mpc.finish
  cases b with
  | false => exact fin _ _ h0
  | true =>
    simp only [if_true]
    cases hw : s.window with
    | none => exact h0
    | some w =>
      obtain ⟨start, stop⟩ := w
      exact fin _ _ (previous_stats _ _ _ _ _ h0)

omit [IsStrictOrderedRing K] in
/-- C94: after any history of calls the largest, smallest and summed delay are those of the delays reported
after the iterations since the last restart (zero, none and zero if there was none). -/
theorem C94_statistics (st : Settings K) (rep : K → K) (T : K) (s₀ : Mpc K) (hnew : Mpc.new st rep T = .ok s₀)
    (ops : List (Mpc.Op K)) : Stats (s₀.run ops).keeper (recorded s₀ ops []) := by
  have h0 : Stats s₀.keeper [] := by
    unfold Mpc.new at hnew
    split at hnew
    · cases hnew; exact ⟨rfl, rfl, rfl⟩
    · cases hnew
  suffices ∀ (ops : List (Mpc.Op K)) (s : Mpc K) (l : List K), Stats s.keeper l →
      Stats (s.run ops).keeper (recorded s ops l) from this ops s₀ [] h0
  intro ops
  induction ops with
  | nil => exact fun s l h => h
  | cons op ops ih =>
    intro s l h
    refine ih (s.step op) _ ?_
    cases op with
    | prepare t c => exact prepare_keeper s t c l h
    | finish t c0 c1 c2 b tr => exact finish_keeper s t c0 c1 c2 b tr l h
    | reset T =>
      simp only [Mpc.step, Mpc.reset]
      split_ifs
      · exact h
      · exact stats_init _

omit [IsStrictOrderedRing K] in
/-- C94: when delays are measured, the delay reported after a completed iteration is the time that passed on
the system clock between the beginning and the end of the `finish` call. -/
theorem C94_delay (s : Mpc K) (hm : s.settings.measureDelay = true) (he : s.settings.useExternalTiming = false)
    (hw : s.window.isSome) (t c0 c1 c2 : K) (b : Bool) (tr : K → K) :
    (s.finish t c0 c1 c2 b tr).2.keeper.lastMeasuredDelay = c2 - c0 := by
  have fin : ∀ ts (k : Keeper K), k.timer.start_time = c0 →
      (s.finishEnd t c2 ts k).2.keeper.lastMeasuredDelay = c2 - c0 := by
    intro ts k hk
    have : (k.stopDelayMeasurement s.settings t c2).2.lastMeasuredDelay = c2 - c0 := by
      rw [← hk]
      unfold Keeper.stopDelayMeasurement
      simp only [he, Bool.false_eq_true, if_false]
      split_ifs <;> rfl
    unfold Mpc.finishEnd
    rcases hr : k.stopDelayMeasurement s.settings t c2 with ⟨r, k2⟩
    rw [hr] at this
    cases r with
    | ok _ => simp only; split_ifs <;> exact this
    | exc => exact this
    | ub => exact this
  have hst : (s.keeper.startDelayMeasurement s.settings t c0).timer.start_time = c0 := by
    simp [Keeper.startDelayMeasurement, hm, he, Timer.ExtTimer.start]
  obtain ⟨⟨start, stop⟩, hw⟩ := Option.isSome_iff_exists.1 hw
  unfold Mpc.finish
  cases b with
  | false => exact fin _ _ hst
  | true =>
    simp only [if_true, hw]
    refine fin _ _ ?_
    refine Eq.trans ?_ hst
    unfold Keeper.timeSincePrevious
    split_ifs <;> rfl

/-- C94: constructor and `updateSettings` reject exactly the settings that combine external timing with
internal delay measurement; a rejected update changes nothing, an accepted one replaces the settings. -/
theorem C94_settings (st : Settings K) (rep : K → K) (T : K) (s : Mpc K) :
    ((∃ s₀, Mpc.new st rep T = .ok s₀ ∧ s₀.settings = st) ↔ ¬ (st.useExternalTiming = true ∧ st.measureDelay = true)) ∧
    (Mpc.new st rep T = .exc ↔ st.useExternalTiming = true ∧ st.measureDelay = true) ∧
    (st.useExternalTiming = true ∧ st.measureDelay = true → s.updateSettings st = (.exc, s)) ∧
    (¬ (st.useExternalTiming = true ∧ st.measureDelay = true) →
      (s.updateSettings st).1 = .ok () ∧ (s.updateSettings st).2.settings = st ∧ (s.updateSettings st).2.keeper = s.keeper) := by
  unfold Mpc.new Mpc.updateSettings checkSettings
  rcases st.useExternalTiming.eq_false_or_eq_true with h1 | h1 <;>
    rcases st.measureDelay.eq_false_or_eq_true with h2 | h2 <;> simp [h1, h2]

/-- Settings of the examples: internal clock, delays measured or not. -/
def internal (measure : Bool) : Settings ℚ := { measureDelay := measure, multiplier := 1, minHorizon := 1 }

/-- Two iterations of 2 and 3 seconds: statistics 3, 2 and 5. -/
example : ∃ s₀, Mpc.new (internal true) id 10 = .ok s₀ ∧
    recorded s₀ [.prepare 0 100, .finish 0 100 101 102 true id, .prepare 0 103, .finish 0 103 105 106 true id] [] = [2, 3] := by
  refine ⟨_, rfl, ?_⟩
  decide +kernel

/-- C94, average: if iterations are prepared and finished alternately and no call fails, the average printed
is the sum of the delays divided by their number. -/
theorem C94_average (st : Settings K) (rep : K → K) (T : K) (s₀ : Mpc K) (hnew : Mpc.new st rep T = .ok s₀)
    (its : List (Mpc.Op K × Mpc.Op K)) (hne : its ≠ [])
    (hp : ∀ p ∈ its, (∃ t c, p.1 = .prepare t c) ∧ ∃ t c0 c1 c2 b tr, p.2 = .finish t c0 c1 c2 b tr)
    (hok : ∀ pre p post, its = pre ++ p :: post → ∀ t c0 c1 c2 b tr, p.2 = .finish t c0 c1 c2 b tr →
      (((s₀.run (pre.flatMap fun q => [q.1, q.2])).step p.1).finish t c0 c1 c2 b tr).1.isOk = true) :
    let ops := its.flatMap fun q => [q.1, q.2]
    (recorded s₀ ops []).length = its.length ∧
    averageDelay (s₀.run ops) ops = some ((recorded s₀ ops []).sum / (its.length : K)) := by
  intro ops
  have hcount : ∀ (its : List (Mpc.Op K × Mpc.Op K)) (c : Nat),
      (∀ p ∈ its, (∃ t c, p.1 = .prepare t c) ∧ ∃ t c0 c1 c2 b tr, p.2 = .finish t c0 c1 c2 b tr) →
      (its.flatMap fun q => [q.1, q.2]).foldl (fun c op => match op with
        | .prepare _ _ => c + 1
        | .finish .. => c
        | .reset _ => 0) c = c + its.length := by
    intro its
    induction its with
    | nil => intro c _; rfl
    | cons p its ih =>
      intro c hp
      obtain ⟨⟨t, c', h1⟩, t', c0, c1, c2, b, tr, h2⟩ := hp p (by simp)
      rw [List.flatMap_cons, List.foldl_append]
      simp only [h1, h2, List.foldl_cons, List.foldl_nil]
      rw [ih _ fun q hq => hp q (by simp [hq])]
      simp; omega
  -- recorded list grows by one per iteration
  have hlen : ∀ (its pre : List (Mpc.Op K × Mpc.Op K)) (s : Mpc K) (l : List K),
      (∀ p ∈ its, (∃ t c, p.1 = .prepare t c) ∧ ∃ t c0 c1 c2 b tr, p.2 = .finish t c0 c1 c2 b tr) →
      (∀ mid p post, its = mid ++ p :: post → ∀ t c0 c1 c2 b tr, p.2 = .finish t c0 c1 c2 b tr →
        (((s.run (mid.flatMap fun q => [q.1, q.2])).step p.1).finish t c0 c1 c2 b tr).1.isOk = true) →
      (s.firstRun = true → l = []) →
      (recorded s (its.flatMap fun q => [q.1, q.2]) l).length = l.length + its.length := by
    intro its
    induction its with
    | nil => intro _ s l _ _ _; rfl
    | cons p its ih =>
      intro pre s l hp hok hfirst
      obtain ⟨⟨t, c', h1⟩, t', c0, c1, c2, b, tr, h2⟩ := hp p (by simp)
      have ok0 := hok [] p its rfl t' c0 c1 c2 b tr h2
      simp only [List.flatMap_nil, Mpc.run, List.foldl_nil, h1] at ok0
      rw [List.flatMap_cons, List.cons_append, List.cons_append, List.nil_append, h1, h2]
      have hl : (if s.firstRun = true then [] else l) = l := by
        by_cases hf : s.firstRun = true
        · rw [if_pos hf, hfirst hf]
        · rw [if_neg hf]
      rw [recorded, recorded]
      simp only [hl]
      have hm : (match ((s.step (.prepare t c')).finish t' c0 c1 c2 b tr).1 with
          | .ub => l
          | _ => l ++ [((s.step (.prepare t c')).step (.finish t' c0 c1 c2 b tr)).keeper.lastMeasuredDelay]) =
          l ++ [((s.step (.prepare t c')).step (.finish t' c0 c1 c2 b tr)).keeper.lastMeasuredDelay] := by
        cases hr : ((s.step (.prepare t c')).finish t' c0 c1 c2 b tr).1 with
        | ok _ => rfl
        | exc => rfl
        | ub => rw [hr] at ok0; cases ok0
      rw [hm, ih (pre ++ [p]) _ _ (fun q hq => hp q (by simp [hq])) ?_ ?_]
      · simp; omega
      · intro mid q post e
        have := hok (p :: mid) q post (by rw [e]; rfl)
        simp only [List.flatMap_cons, Mpc.run, List.foldl_append, List.foldl_cons, List.foldl_nil, h1, h2] at this
        exact this
      · -- after an iteration that succeeded the first-run flag is off
        intro hf
        exfalso
        have : ∀ (s : Mpc K) ts k, (s.finishEnd t' c2 ts k).1.isOk = true → (s.finishEnd t' c2 ts k).2.firstRun = false := by
          intro s ts k
          unfold Mpc.finishEnd
          rcases hr : k.stopDelayMeasurement s.settings t' c2 with ⟨r, k2⟩
          cases r with
          | ok _ =>
            simp only
            cases hs : s.firstRun
            · simp [hs]
            · simp
          | exc => simp [Res.isOk]
          | ub => simp [Res.isOk]
        have fr : ((s.step (.prepare t c')).finish t' c0 c1 c2 b tr).2.firstRun = false := by
          generalize s.step (.prepare t c') = s1 at ok0
          unfold Mpc.finish at ok0 ⊢
          cases b with
          | false => exact this _ _ _ ok0
          | true =>
            simp only [if_true] at ok0 ⊢
            cases hw : s1.window with
            | none => rw [hw] at ok0; cases ok0
            | some w => rw [hw] at ok0; exact this _ _ _ ok0
        simp only [Mpc.step] at hf fr
        rw [fr] at hf
        cases hf
  have e1 := hlen its [] s₀ [] hp (by simpa using hok) (fun _ => rfl)
  have e2 : callCounter ops = its.length := by
    have := hcount its 0 hp
    exact this.trans (Nat.zero_add _)
  refine ⟨by simpa using e1, ?_⟩
  rw [averageDelay, e2, if_neg (by simpa using hne), (C94_statistics st rep T s₀ hnew ops).sum]

/-- C94, limit: delays enter the statistics also while they are not measured, with the clock's reading in
place of a duration. Measuring is switched on after one iteration at system time 1000; the largest delay
reported is then 1000 seconds, although the only iteration measured took 2. -/
theorem C94_late_violated : ∃ s₀ s₁, Mpc.new (internal false) id 10 = .ok s₀ ∧
    (s₀.run [.prepare 0 999, .finish 0 999 999 1000 true id]).updateSettings (internal true) = (.ok (), s₁) ∧
    (s₁.run [.prepare 0 1001, .finish 0 1001 1002 1003 true id]).keeper.lastMeasuredDelay = 2 ∧
    (s₁.run [.prepare 0 1001, .finish 0 1001 1002 1003 true id]).keeper.maxDelay = 1000 := by
  refine ⟨_, _, rfl, rfl, ?_⟩
  decide +kernel

/-! ### C97: horizon strategies -/

omit [IsStrictOrderedRing K] in
/-- C97 (partial): as long as the strategy is not replaced after construction, every horizon is chosen with
the last settings and the last initial horizon given. -/
theorem C97_strategy_partial (heap : Nat → Strategy K) (p : Nat) (ops : List (OwnerOp K))
    (hno : ∀ q, OwnerOp.setStrategy q ∉ ops) (a b : K) :
    let s := (Owner.new heap p).run ops
    let T0 := (ops.filterMap fun | .reset T => some T | _ => none).getLast?.getD (heap p).T0
    let st := (ops.filterMap fun | .updateSettings st => some st | _ => none).getLast?.getD (heap p).settings
    s.own = p ∧ s.used = p ∧ s.horizon a b = computeNewTimeHorizon st T0 a b := by
  suffices ∀ ops : List (OwnerOp K), (∀ q, OwnerOp.setStrategy q ∉ ops) →
      ((Owner.new heap p).run ops).own = p ∧ ((Owner.new heap p).run ops).used = p ∧
      (((Owner.new heap p).run ops).heap p).T0 =
        (ops.filterMap fun | .reset T => some T | _ => none).getLast?.getD (heap p).T0 ∧
      (((Owner.new heap p).run ops).heap p).settings =
        (ops.filterMap fun | .updateSettings st => some st | _ => none).getLast?.getD (heap p).settings by
    obtain ⟨h1, h2, h3, h4⟩ := this ops hno
    refine ⟨h1, h2, ?_⟩
    rw [Owner.horizon, h2, h3, h4]
  intro ops
  induction ops using List.reverseRecOn with
  | nil => exact fun _ => ⟨rfl, rfl, rfl, rfl⟩
  | append_singleton ops op ih =>
    intro hno
    obtain ⟨h1, h2, h3, h4⟩ := ih fun q hq => hno q (by simp [hq])
    rw [Owner.run, List.foldl_append]
    simp only [List.foldl_cons, List.foldl_nil]
    change ((Owner.new heap p).run ops).own = p at h1
    rw [show ops.foldl Owner.step (Owner.new heap p) = (Owner.new heap p).run ops from rfl]
    cases op with
    | setStrategy q => exact absurd (by simp) (hno q)
    | reset T => simp [Owner.step, Owner.reset, Owner.write, List.filterMap_append, h1, h2, h4]
    | updateSettings st => simp [Owner.step, Owner.updateSettings, Owner.write, List.filterMap_append, h1, h2, h3]

omit [IsStrictOrderedRing K] in
/-- C97 is violated: a strategy set after construction never decides a horizon, whatever happens to it. From
then on resets and new settings reach only that unused strategy, so that they no longer have an effect. -/
theorem C97_violated (heap : Nat → Strategy K) (p q : Nat) (hpq : q ≠ p) (ops : List (OwnerOp K))
    (hno : OwnerOp.setStrategy p ∉ ops) (a b : K) :
    (((Owner.new heap p).setStrategy q).run ops).horizon a b =
      computeNewTimeHorizon (heap p).settings (heap p).T0 a b := by
  suffices ∀ ops : List (OwnerOp K), OwnerOp.setStrategy p ∉ ops →
      (((Owner.new heap p).setStrategy q).run ops).used = p ∧ (((Owner.new heap p).setStrategy q).run ops).own ≠ p ∧
      (((Owner.new heap p).setStrategy q).run ops).heap p = heap p by
    obtain ⟨h1, -, h2⟩ := this ops hno
    rw [Owner.horizon, h1, h2]
  intro ops
  induction ops using List.reverseRecOn with
  | nil => exact fun _ => ⟨rfl, hpq, rfl⟩
  | append_singleton ops op ih =>
    intro hno
    obtain ⟨h1, h2, h3⟩ := ih fun h => hno (by simp [h])
    rw [Owner.run, List.foldl_append]
    simp only [List.foldl_cons, List.foldl_nil]
    rw [show ops.foldl Owner.step ((Owner.new heap p).setStrategy q) = ((Owner.new heap p).setStrategy q).run ops from rfl]
    cases op with
    | setStrategy r =>
      refine ⟨h1, fun hr => hno ?_, h3⟩
      simp only [Owner.step, Owner.setStrategy] at hr
      simp [hr]
    | reset T => exact ⟨h1, h2, by simp [Owner.step, Owner.reset, Owner.write, Ne.symm h2, h3]⟩
    | updateSettings st => exact ⟨h1, h2, by simp [Owner.step, Owner.updateSettings, Owner.write, Ne.symm h2, h3]⟩

/-- The difference is visible: a horizon of 10 set after construction with horizon 5 is ignored. -/
example : (((Owner.new (fun p => ⟨internal false, if p = 0 then 5 else 10⟩) 0).setStrategy 1).horizon 0 0).1 = (5 : ℚ) := by
  decide +kernel

/-! ### C98: prediction of the state over the delay -/

section Prediction
variable [FloorRing K]

/-- Specification: the plant follows the control law `u` for `N` steps of the forward integrator from time
`start`. -/
inductive Follows {V U : Type} (step : (V → K → Res U) → V → K → Res V) (u : V → K → Res U) (dt : K) :
    Nat → K → V → V → Prop
  | refl (t x) : Follows step u dt 0 t x x
  | step {N t x y z} (h1 : step u x t = .ok y) (h2 : Follows step u dt N (t + dt) y z) : Follows step u dt (N + 1) t x z

omit [LinearOrder K] [IsStrictOrderedRing K] [FloorRing K] in
theorem nStepsRes_follows {V U : Type} (step : (V → K → Res U) → V → K → Res V) (u : V → K → Res U) (dt : K) (N : Nat) :
    ∀ (t : K) (x z : V), nStepsRes (step u) dt N x t = .ok z ↔ Follows step u dt N t x z := by
  induction N with
  | zero =>
    intro t x z
    constructor
    · intro h; cases h; exact .refl _ _
    · intro h; cases h; rfl
  | succ N ih =>
    intro t x z
    rw [nStepsRes, Res.bind_eq_ok]
    constructor
    · rintro ⟨y, h1, h2⟩
      exact .step h1 ((ih _ _ _).1 h2)
    · intro h
      cases h with
      | step h1 h2 => exact ⟨_, h1, (ih _ _ _).2 h2⟩

/-- C98, extent of the prediction: in the first iteration and when prediction is switched off the state is
handed to the solver unchanged; otherwise the plant follows the given controller, or the current policy, for
the whole number of integrator steps nearest to the window, starting at its beginning. -/
theorem C98_window (e : Env n m K) (hdt : 0 < e.dt) (s : Pol n m K) (start stop : K) (hw : start ≤ stop)
    (x : Fin n → K) (given : Option ((Fin n → K) → K → Res (Fin m → K))) :
    s.startState e true start stop x given = .ok x ∧
    (e.stateForwardIntegration = false → s.startState e false start stop x given = .ok x) ∧
    (e.stateForwardIntegration = true → ∃ N : Nat, |(stop - start) - N * e.dt| ≤ e.dt / 2 ∧
      ∀ z, s.startState e false start stop x given = .ok z ↔
        Follows e.step (given.getD (law s.current)) e.dt N start x z) := by
  refine ⟨rfl, fun h => by simp [Pol.startState, h], fun h => ?_⟩
  have h0 : 0 ≤ (stop - start) / e.dt := div_nonneg (by linarith) hdt.le
  have hr : 0 ≤ lround ((stop - start) / e.dt) := by
    unfold lround
    rw [if_pos h0]
    exact Int.floor_nonneg.2 (by linarith)
  refine ⟨(max 0 (lround ((stop - start) / e.dt))).toNat, ?_, fun z => ?_⟩
  · have e1 : (((max 0 (lround ((stop - start) / e.dt))).toNat : ℕ) : K) = (lround ((stop - start) / e.dt) : K) := by
      rw [max_eq_right hr]
      have : (((lround ((stop - start) / e.dt)).toNat : ℤ) : K) = (lround ((stop - start) / e.dt) : K) := by
        rw [Int.toNat_of_nonneg hr]
      exact_mod_cast this
    rw [e1]
    have h1 := (C29_lround ((stop - start) / e.dt)).1
    have h2 : (stop - start) - (lround ((stop - start) / e.dt) : K) * e.dt =
        ((stop - start) / e.dt - (lround ((stop - start) / e.dt) : K)) * e.dt := by
      field_simp
    rw [h2, abs_mul, abs_of_pos hdt]
    have := mul_le_mul_of_nonneg_right h1 hdt.le
    linarith
  · cases given with
    | some u =>
      simp only [Pol.startState, h, Bool.false_eq_true, if_false, if_true, integrateForward, Option.getD_some]
      exact nStepsRes_follows e.step u e.dt _ start x z
    | none =>
      simp only [Pol.startState, h, Bool.false_eq_true, if_false, if_true, integrateForward, Option.getD_none]
      exact nStepsRes_follows e.step _ e.dt _ start x z

/-- C98 (partial): if the window ends within the first stage of the previous policy and the number of stages
stays the same, preparing an iteration keeps the control law, so that the state is predicted with the policy
the plant is executing. -/
theorem C98_executed_partial (dt : K) (hdt : 0 < dt) (N : Nat) (c : Ctrl n m K) (hc : OnGrid dt N c) (stop newT : K)
    (h0 : 0 ≤ stop) (h1 : stop < dt) (hN : max 1 (lround (newT / dt)) = N) :
    ∃ s, (Pol.mk (.warm dt) c).prepare stop newT = .ok s ∧ ∀ x t, law s.current x t = law c x t := by
  obtain ⟨d, hd, hact, hidx⟩ := indexOf_spec dt hdt N c hc stop
  have hd0 : d = 0 := by
    rcases hact with ⟨h, h2, _⟩ | ⟨rfl, _, _⟩
    · rw [grid_get] at h2
      by_contra hne
      have : (1 : K) ≤ d := by exact_mod_cast Nat.one_le_iff_ne_zero.2 hne
      nlinarith
    · rfl
  subst hd0
  have hsize : size c.uff = Res.ok N := by
    unfold size
    rw [if_neg (by rw [hc.uTime, hc.uLen, grid_length]; simp), hc.uLen]
  have hmin : min ((0 : ℕ) : Int) ((N : Int) - 1) = 0 := by have := hc.pos; omega
  have hpos := hc.pos
  refine ⟨⟨.warm dt, { c with uff := { c.uff with cache := ((0 : ℕ) : Int) } }⟩, ?_, fun x t => ?_⟩
  · simp only [Pol.prepare, Handler.design, designWarmStartingPolicy, hsize, hidx, Res.ok_bind, hN, hmin, truncateFront,
      lt_irrefl, if_false, resize]
    rw [show size { c.uff with cache := ((0 : ℕ) : Int) } = Res.ok N from hsize]
    simp only [Res.ok_bind]
    rw [if_neg (by omega)]
    rfl
  · have key : ∀ (cache : Int), 0 ≤ cache → (interpolate c.uff.type c.uff.time c.uff.data t cache).1 =
        (interpolate c.uff.type c.uff.time c.uff.data t c.uff.cache).1 := by
      intro cache hcache
      have hs : c.uff.time.Pairwise (· ≤ ·) := by rw [hc.uTime]; exact grid_sorted dt hdt.le N
      have hl : c.uff.time.length = c.uff.data.length := by rw [hc.uTime, grid_length, hc.uLen]
      obtain ⟨v, hv, hv'⟩ := eval_isValueAt c.uff hc.uCache hs hl hc.ne.1 t
      obtain ⟨w, hw, hw'⟩ := eval_isValueAt { c.uff with cache := cache } hcache hs hl hc.ne.1 t
      have := IsValueAt.unique hs hw' hv'
      simp only [Traj.eval] at hv hw
      rw [hv, hw, this]
    simp only [law, Ctrl.compute]
    rw [key _ (by simp)]

end Prediction

/-- A policy with three stages: command 0 during the first second, then 1; no feedback. -/
def idleFirst : Ctrl 1 1 ℚ :=
  ⟨⟨[0, 1, 2, 3], [fun _ => 0, fun _ => 0, fun _ => 1, fun _ => 2], .LIN, 0⟩,
   ⟨[0, 1, 2], [fun _ => 0, fun _ => 1, fun _ => 1], .ZOH, 0⟩,
   ⟨[0, 1, 2], [fun _ _ => 0, fun _ _ => 0, fun _ _ => 0], .ZOH, 0⟩⟩

theorem idleFirst_onGrid : OnGrid 1 3 idleFirst :=
  ⟨by decide, by decide +kernel, by decide +kernel, by decide +kernel, rfl, rfl, rfl, by decide, by decide, by decide⟩

/-- An integrator for the plant `x' = u` with steps of one second. -/
def oneSecond : Env 1 1 ℚ :=
  { stateForwardIntegration := true, dt := 1, step := fun u x t => u x t >>= fun v => .ok (x + v) }

/-- The partial theorem's hypotheses can be met: delay 1/2, same horizon. -/
example : ∃ s, (Pol.mk (.warm 1) idleFirst).prepare (1 / 2) 3 = .ok s ∧ ∀ x t, law s.current x t = law idleFirst x t :=
  C98_executed_partial 1 one_pos 3 idleFirst idleFirst_onGrid (1 / 2) 3 (by norm_num) (by norm_num) (by decide +kernel)

/-- C98 is violated: the state is predicted with the warm start, from which the stages up to the end of the
window have already been removed. With a delay of one second the plant stays at 0 under the policy it is
executing, but the state handed to the solver is 1. -/
theorem C98_warm_violated :
    Follows oneSecond.step (law idleFirst) 1 1 0 (fun _ => 0) (fun _ => 0) ∧
    ∃ s, (Pol.mk (.warm 1) idleFirst).prepare 1 2 = .ok s ∧
      s.startState oneSecond false 0 1 (fun _ => 0) none = .ok (fun _ => 1) := by
  constructor
  · refine .step (y := fun _ => 0) ?_ (.refl _ _)
    decide +kernel
  · obtain ⟨s, hs⟩ : ∃ s, (Pol.mk (.warm 1) idleFirst).prepare 1 2 = .ok s := by
      obtain ⟨d, k, c', h, -⟩ := C29_warm_start_partial 1 one_pos 3 idleFirst idleFirst_onGrid 1 2
      exact ⟨⟨.warm 1, c'⟩, by simp [Pol.prepare, Handler.design, h, Res.pure_eq]⟩
    refine ⟨s, hs, ?_⟩
    have : ((Pol.mk (.warm 1) idleFirst).prepare 1 2 >>= fun s => s.startState oneSecond false 0 1 (fun _ => 0) none) =
        .ok (fun _ => 1) := by decide +kernel
    rw [hs] at this
    exact this

/-- C98 is violated with cold starts as well: whatever policy is being executed, the state is predicted with
the initial guess. -/
theorem C98_cold_violated {K : Type} [Field K] [LinearOrder K] [FloorRing K] (e : Env n m K)
    (he : e.stateForwardIntegration = true) (initial executed : Ctrl n m K) (start stop newT : K) (x : Fin n → K) :
    ((Pol.mk (.cold initial) executed).prepare stop newT >>= fun s => s.startState e false start stop x none) =
      integrateForward e.step e.dt start stop x (law initial) := by
  simp [Pol.prepare, Handler.design, Pol.startState, he, Res.pure_eq]

/-- C98, cold starts: the solver is started from the policy last given by `setInitialGuess`, whatever policy is being
executed and whatever the handler held before. -/
theorem C98_initial_guess (before guess executed : Ctrl n m K) [FloorRing K] (stop newT : K) :
    ∃ s, (Pol.mk ((Handler.cold before).setPolicy guess) executed).prepare stop newT = .ok s ∧ s.current = guess :=
  ⟨⟨.cold guess, guess⟩, rfl, rfl⟩

/-! ### C99: truncation after the solve -/

/-- C99 (partial): with the state-feedback handler, the policy handed out after the solve is the solution,
or, when truncation is switched on and the solve took longer than predicted, the solution continued from the
time by which the stamp is advanced, which does not exceed the excess. -/
theorem C99_truncation_partial [FloorRing K] (dt : K) (hdt : 0 < dt) (N : Nat) (cur sol : Ctrl n m K) (hc : OnGrid dt N sol)
    (firstRun post : Bool) (stop dtp : K) :
    ∃ s eff, (Pol.mk (.warm dt) cur).finish firstRun post stop dtp sol = .ok (s, eff) ∧
      (¬ (post = true ∧ stop < dtp ∧ firstRun = false) → s.current = sol ∧ eff = 0) ∧
      (post = true ∧ stop < dtp ∧ firstRun = false → 0 ≤ eff ∧ eff ≤ dtp - stop ∧
        ∀ x t, 0 ≤ t → ∃ u, law s.current x t = .ok u ∧ law sol x (t + eff) = .ok u) := by
  by_cases h : post = true ∧ stop < dtp ∧ firstRun = false
  · obtain ⟨d, c', h1, -, h3, -, -, h6⟩ := C30_truncate dt hdt N sol hc (dtp - stop) (by linarith [h.2.1])
    refine ⟨⟨.warm dt, c'⟩, d * dt, ?_, fun hn => absurd h hn, fun _ => ⟨by positivity, h3, h6⟩⟩
    simp [Pol.finish, h, Handler.truncate, h1, Res.pure_eq]
  · exact ⟨⟨.warm dt, sol⟩, 0, by simp only [Pol.finish, if_neg h], fun _ => ⟨rfl, rfl⟩, fun hn => absurd hn h⟩

/-- C99 is violated with cold starts: the base class's handler does not say how much it truncated, and the
stamp is computed from an uninitialised variable. -/
theorem C99_cold_violated {K : Type} [Field K] [LinearOrder K] [FloorRing K] (initial cur sol : Ctrl n m K)
    (stop dtp : K) (h : stop < dtp) :
    (Pol.mk (.cold initial) cur).finish false true stop dtp sol = .ub := by
  simp [Pol.finish, h, Handler.truncate]

end CT.MpcForward
