import Verif.Model.Mpc
import Mathlib.Tactic.Ring
import Mathlib.Tactic.Linarith
import Mathlib.Tactic.NormNum
import Mathlib.Tactic.Positivity
import Mathlib.Tactic.SplitIfs
import Mathlib.Algebra.Order.Ring.Rat

/-! # Properties C27, C28, C31: MPC timing -/

namespace CT.Mpc
open CT.Timer

variable {K : Type} [Field K] [LinearOrder K] [IsStrictOrderedRing K]

/-! ### C27: the forward-integration window -/

/-- Specification: the clock readings a call sees, in order, for the configured clock. -/
def Op.stamps (external : Bool) : Op K → List K
  | .prepare t c => if external then [t] else [c]
  | .finish t c0 c1 c2 _ _ => if external then [t] else [c0, c1, c2]
  | .reset _ => []

/-- Specification: resets use non-negative horizons. -/
def Op.resetOk : Op K → Prop
  | .reset T => 0 ≤ T
  | _ => True

/-- Specification: the settings are admissible: accepted by the constructor, no negative delays, no
negative minimum horizon. -/
structure Settings.Ok (st : Settings K) : Prop where
  accepted : ¬ (st.useExternalTiming = true ∧ st.measureDelay = true)
  fixed : 0 ≤ st.fixedDelayUs
  additional : 0 ≤ st.additionalDelayUs
  multiplier : 0 ≤ st.multiplier
  minHorizon : 0 ≤ st.minHorizon

/-- Invariant with upper bound `t` for all clock readings so far. -/
structure Inv (st : Settings K) (rep : K → K) (t : K) (s : Mpc K) : Prop where
  settings : s.settings = st
  report : s.report = rep
  solverT : 0 ≤ s.solverT
  T0 : 0 ≤ s.T0
  first : s.firstRun = s.keeper.firstRun
  ext : s.firstRun = false → st.useExternalTiming = true →
    s.keeper.extLastSolveTimer.start_time ≤ t ∧ s.keeper.extFirstSolveTimer.start_time ≤ t
  int : s.firstRun = false → st.useExternalTiming = false →
    s.keeper.lastSolveTimer.start_time ≤ t ∧ s.keeper.firstSolveTimer.start_time ≤ t
  delay : st.measureDelay = true → 0 ≤ s.keeper.lastMeasuredDelay

theorem newT_nonneg (st : Settings K) (hst : st.Ok) (T0 a b : K) (h0 : 0 ≤ T0) :
    0 ≤ (computeNewTimeHorizon st T0 a b).1 := by
  unfold computeNewTimeHorizon
  cases st.mode
  · exact le_max_left _ _
  · exact h0
  · exact hst.minHorizon.trans (le_max_left _ _)
  · exact le_min hst.minHorizon (le_max_left _ _)

theorem delay_nonneg (st : Settings K) (hst : st.Ok) (k : Keeper K)
    (hd : st.measureDelay = true → 0 ≤ k.lastMeasuredDelay) : 0 ≤ computeDelayToApply st k := by
  have h1 : (0 : K) ≤ (st.fixedDelayUs : K) := by exact_mod_cast hst.fixed
  have h2 : (0 : K) ≤ (st.additionalDelayUs : K) := by exact_mod_cast hst.additional
  unfold computeDelayToApply
  have h3 : (0 : K) ≤ 1 / 1000000 := by positivity
  split
  · rename_i h
    exact add_nonneg (mul_nonneg h3 h2) (mul_nonneg hst.multiplier (hd h))
  · have := mul_nonneg h3 h1
    have := mul_nonneg h3 h2
    linarith

theorem clip_window (T x d : K) (hT : 0 ≤ T) (hx : 0 ≤ x) (hd : 0 ≤ d) :
    0 ≤ (if T < x then T else x) ∧ (if T < x then T else x) ≤ (if T < x + d then T else x + d) ∧
      (if T < x + d then T else x + d) ≤ T := by
  refine ⟨?_, ?_, ?_⟩ <;> split_ifs <;> linarith

theorem timings_spec (st : Settings K) (hst : st.Ok) (T0 T : K) (h0 : 0 ≤ T0) (hT : 0 ≤ T) (k : Keeper K) (t c : K)
    (hi : k.initialized = true)
    (hext : k.firstRun = false → st.useExternalTiming = true → k.extLastSolveTimer.start_time ≤ t)
    (hint : k.firstRun = false → st.useExternalTiming = false → k.lastSolveTimer.start_time ≤ c)
    (hd : st.measureDelay = true → 0 ≤ k.lastMeasuredDelay) :
    ∃ tm k', k.computeNewTimings st T0 t c T = Res.ok (tm, k') ∧ 0 ≤ tm.forwStart ∧ tm.forwStart ≤ tm.forwStop ∧
      tm.forwStop ≤ T ∧ 0 ≤ tm.newT ∧ k'.initialized = true ∧ k'.firstRun = k.firstRun ∧
      k'.extLastSolveTimer.start_time = k.extLastSolveTimer.start_time ∧
      k'.extFirstSolveTimer.start_time = k.extFirstSolveTimer.start_time ∧
      k'.lastSolveTimer.start_time = k.lastSolveTimer.start_time ∧
      k'.firstSolveTimer.start_time = k.firstSolveTimer.start_time ∧
      k'.lastMeasuredDelay = k.lastMeasuredDelay := by
  unfold Keeper.computeNewTimings
  rw [if_neg (by simp [hi])]
  refine ⟨_, _, rfl, ?_⟩
  cases hf : k.firstRun <;> cases he : st.useExternalTiming
  · have hx : 0 ≤ c - k.lastSolveTimer.start_time := sub_nonneg.2 (hint hf he)
    have hc := fun d hd => clip_window T (c - k.lastSolveTimer.start_time) d hT hx hd
    obtain ⟨h1, h2, h3⟩ := hc _ (delay_nonneg st hst { k with
          lastSolveTimer := k.lastSolveTimer.stop c, firstSolveTimer := k.firstSolveTimer.stop c } hd)
    exact ⟨h1, h2, h3, newT_nonneg st hst _ _ _ h0, hi, rfl, rfl, rfl, rfl, rfl, rfl⟩
  · have hx : 0 ≤ t - k.extLastSolveTimer.start_time := sub_nonneg.2 (hext hf he)
    have hc := fun d hd => clip_window T (t - k.extLastSolveTimer.start_time) d hT hx hd
    obtain ⟨h1, h2, h3⟩ := hc _ (delay_nonneg st hst { k with
          extFirstSolveTimer := k.extFirstSolveTimer.stop t, extLastSolveTimer := k.extLastSolveTimer.stop t } hd)
    exact ⟨h1, h2, h3, newT_nonneg st hst _ _ _ h0, hi, rfl, rfl, rfl, rfl, rfl, rfl⟩
  all_goals
    obtain ⟨h1, h2, h3⟩ := clip_window T 0 0 hT le_rfl le_rfl
    rw [add_zero] at h2 h3
    exact ⟨h1, h2, h3, newT_nonneg st hst _ _ _ h0, hi, hf, rfl, rfl, rfl, rfl, rfl⟩

/-- What a prepare does in a state satisfying the invariant, whose keeper is (or gets) initialised. -/
theorem prepare_spec (st : Settings K) (hst : st.Ok) (rep : K → K) (hrep : ∀ T, 0 ≤ T → 0 ≤ rep T) (s : Mpc K)
    (t c : K) (hs : Inv st rep (if st.useExternalTiming then t else c) s)
    (hi : s.firstRun = false → s.keeper.initialized = true) :
    (s.prepare t c).1 = Res.ok () ∧
    (∃ a b, (s.prepare t c).2.window = some (a, b) ∧ 0 ≤ a ∧ a ≤ b ∧ b ≤ s.solverT) ∧
    (∀ t', (if st.useExternalTiming then t else c) ≤ t' → Inv st rep t' (s.prepare t c).2) ∧
    (s.prepare t c).2.keeper.initialized = true := by
  obtain ⟨hset, hr, hT, hT0, hf, hext, hint, hd⟩ := hs
  set k := (if s.firstRun then s.keeper.init else s.keeper) with hk
  have hkf : k.firstRun = s.firstRun := by
    rw [hk]; cases h : s.firstRun
    · simp [← hf, h]
    · rfl
  have hki : k.initialized = true := by
    rw [hk]; cases h : s.firstRun
    · simpa using hi h
    · rfl
  have hkd : st.measureDelay = true → 0 ≤ k.lastMeasuredDelay := by
    intro h
    rw [hk]; split
    · exact le_rfl
    · exact hd h
  have hke : s.firstRun = false → k = s.keeper := fun h => by rw [hk, h]; simp
  obtain ⟨tm, k', h1, h2, h3, h4, h5, h6, h7, h8, h9, h10, h11, h12⟩ := timings_spec st hst s.T0 s.solverT hT0 hT k t c hki
    (by
      intro hff he
      rw [hkf] at hff
      have := (hext hff he).1
      rw [hke hff]; simpa [he] using this)
    (by
      intro hff he
      rw [hkf] at hff
      have := (hint hff he).1
      rw [hke hff]; simpa [he] using this) hkd
  have hp : s.prepare t c = (Res.ok (), 
      { s with keeper := k', window := some (tm.forwStart, tm.forwStop), solverT := s.report tm.newT }) := by
    simp only [Mpc.prepare, ← hk, hset, h1]
    simp only [if_neg (not_lt.2 h5), if_neg (not_lt.2 h3)]
  rw [hp]
  refine ⟨rfl, ⟨_, _, rfl, h2, h3, h4⟩, fun t' ht' => ?_, h6⟩
  refine ⟨hset, hr, ?_, hT0, ?_, ?_, ?_, ?_⟩
  · show 0 ≤ s.report _
    rw [hr]; exact hrep _ h5
  · show s.firstRun = k'.firstRun
    rw [h7, hkf]
  · intro hff he
    show k'.extLastSolveTimer.start_time ≤ t' ∧ k'.extFirstSolveTimer.start_time ≤ t'
    rw [h8, h9, hke hff]
    exact ⟨(hext hff he).1.trans ht', (hext hff he).2.trans ht'⟩
  · intro hff he
    show k'.lastSolveTimer.start_time ≤ t' ∧ k'.firstSolveTimer.start_time ≤ t'
    rw [h10, h11, hke hff]
    exact ⟨(hint hff he).1.trans ht', (hint hff he).2.trans ht'⟩
  · intro h
    show 0 ≤ k'.lastMeasuredDelay
    rw [h12]; exact hkd h

theorem stop_spec (st : Settings K) (hst : st.Ok) (k : Keeper K) (xts c2 t : K)
    (htime : ∀ q ∈ (if st.useExternalTiming then [xts] else [c2]), q ≤ t)
    (hstart : st.measureDelay = true → k.timer.start_time ≤ c2) :
    let r := k.stopDelayMeasurement st xts c2
    (st.measureDelay = true → 0 ≤ r.2.lastMeasuredDelay) ∧ r.2.initialized = k.initialized ∧
    (k.firstRun = false → r.2.firstRun = false) ∧
    (k.firstRun = true → (r.1 = Res.ok () ∧ r.2.firstRun = false) ∨ (r.1 = Res.exc ∧ r.2.firstRun = true)) ∧
    (r.1 = Res.ok () ∨ r.1 = Res.exc) ∧
    (st.useExternalTiming = true → r.2.extLastSolveTimer.start_time ≤ t ∧
      (r.2.firstRun = false → (k.firstRun = false → k.extFirstSolveTimer.start_time ≤ t) →
        r.2.extFirstSolveTimer.start_time ≤ t)) ∧
    (st.useExternalTiming = false → r.2.lastSolveTimer.start_time ≤ t ∧
      (r.2.firstRun = false → (k.firstRun = false → k.firstSolveTimer.start_time ≤ t) →
        r.2.firstSolveTimer.start_time ≤ t)) := by
  intro r
  cases he : st.useExternalTiming
  · have htc : c2 ≤ t := by simpa [he] using htime
    simp only [r, Keeper.stopDelayMeasurement, he, Bool.false_eq_true, if_false]
    by_cases hneg : (k.timer.stop c2).elapsed < 0
    · rw [if_pos hneg]
      have hm : st.measureDelay = false := by
        by_contra hmm
        have := hstart (by simpa using hmm)
        simp only [ExtTimer.stop, ExtTimer.elapsed] at hneg
        linarith
      refine ⟨by simp [hm], rfl, fun h => h, fun h => Or.inr ⟨rfl, h⟩, Or.inr rfl, by simp, fun _ => ⟨htc, fun h1 h2 => h2 h1⟩⟩
    · rw [if_neg hneg]
      cases hk : k.firstRun
      · simp only [Bool.false_eq_true, if_false]
        refine ⟨fun _ => not_lt.1 hneg, trivial, by simp [hk], by simp, Or.inl trivial, by simp,
          fun _ => ⟨htc, fun _ h2 => h2 trivial⟩⟩
      · simp only [if_true]
        refine ⟨fun _ => not_lt.1 hneg, trivial, by simp, fun _ => Or.inl ⟨trivial, trivial⟩, Or.inl trivial, by simp,
          fun _ => ⟨htc, fun _ _ => htc⟩⟩
  · have htc : xts ≤ t := by simpa [he] using htime
    have hm : st.measureDelay = false := by
      by_contra hmm
      exact hst.accepted ⟨he, by simpa using hmm⟩
    simp only [r, Keeper.stopDelayMeasurement, he, if_true]
    by_cases hneg : (k.extTimer.stop xts).elapsed < 0
    · rw [if_pos hneg]
      refine ⟨by simp [hm], rfl, fun h => h, fun h => Or.inr ⟨rfl, h⟩, Or.inr rfl, fun _ => ⟨htc, fun h1 h2 => h2 h1⟩, by simp⟩
    · rw [if_neg hneg]
      cases hk : k.firstRun
      · simp only [Bool.false_eq_true, if_false]
        refine ⟨fun _ => not_lt.1 hneg, trivial, by simp [hk], by simp, Or.inl trivial,
          fun _ => ⟨htc, fun _ h2 => h2 trivial⟩, by simp⟩
      · simp only [if_true]
        refine ⟨fun _ => not_lt.1 hneg, trivial, by simp, fun _ => Or.inl ⟨trivial, trivial⟩, Or.inl trivial,
          fun _ => ⟨htc, fun _ _ => htc⟩, by simp⟩

theorem start_eqs (st : Settings K) (k : Keeper K) (xts c0 : K) :
    let k0 := k.startDelayMeasurement st xts c0
    k0.initialized = k.initialized ∧ k0.firstRun = k.firstRun ∧ k0.extLastSolveTimer = k.extLastSolveTimer ∧
    k0.extFirstSolveTimer = k.extFirstSolveTimer ∧ k0.lastSolveTimer = k.lastSolveTimer ∧
    k0.firstSolveTimer = k.firstSolveTimer ∧ k0.lastMeasuredDelay = k.lastMeasuredDelay ∧
    (st.measureDelay = true → st.useExternalTiming = false → k0.timer.start_time = c0) := by
  unfold Keeper.startDelayMeasurement
  cases st.measureDelay <;> cases st.useExternalTiming <;> simp [ExtTimer.start]

theorem since_eqs (st : Settings K) (k : Keeper K) (xts c1 : K) :
    let k0 := (k.timeSincePrevious st xts c1).2
    k0.initialized = k.initialized ∧ k0.firstRun = k.firstRun ∧
    k0.extLastSolveTimer.start_time = k.extLastSolveTimer.start_time ∧
    k0.extFirstSolveTimer = k.extFirstSolveTimer ∧ k0.lastSolveTimer.start_time = k.lastSolveTimer.start_time ∧
    k0.firstSolveTimer = k.firstSolveTimer ∧ k0.lastMeasuredDelay = k.lastMeasuredDelay ∧ k0.timer = k.timer := by
  unfold Keeper.timeSincePrevious
  cases hk : k.firstRun <;> cases st.useExternalTiming <;> simp [ExtTimer.stop, hk]

/-- What a finish does to a state satisfying the invariant. -/
theorem finish_spec (st : Settings K) (hst : st.Ok) (rep : K → K) (s : Mpc K) (xts c0 c1 c2 t : K) (b : Bool)
    (tr : K → K) (hs : Inv st rep t s)
    (htime : ∀ q ∈ (if st.useExternalTiming then [xts] else [c0, c1, c2]), q ≤ t)
    (hord : st.useExternalTiming = false → c0 ≤ c2) :
    Inv st rep t (s.finish xts c0 c1 c2 b tr).2 ∧
    (s.finish xts c0 c1 c2 b tr).2.keeper.initialized = s.keeper.initialized := by
  obtain ⟨hset, hr, hT, hT0, hf, hext, hint, hd⟩ := hs
  set k0 := s.keeper.startDelayMeasurement st xts c0 with hk0
  obtain ⟨a1, a2, a3, a4, a5, a6, a7, a8⟩ := start_eqs st s.keeper xts c0
  rw [← hk0] at a1 a2 a3 a4 a5 a6 a7 a8
  have hInv0 : Inv st rep t { s with keeper := k0 } := by
    refine ⟨hset, hr, hT, hT0, by rw [a2]; exact hf, ?_, ?_, ?_⟩
    · intro h1 h2; show _ ∧ _; rw [a3, a4]; exact hext h1 h2
    · intro h1 h2; show _ ∧ _; rw [a5, a6]; exact hint h1 h2
    · intro h; show 0 ≤ k0.lastMeasuredDelay; rw [a7]; exact hd h
  -- the keeper before the final stop
  have main : ∀ (k1 : Keeper K) (ts : K), k1.initialized = s.keeper.initialized → k1.firstRun = s.keeper.firstRun →
      k1.extFirstSolveTimer.start_time = s.keeper.extFirstSolveTimer.start_time →
      k1.firstSolveTimer.start_time = s.keeper.firstSolveTimer.start_time → k1.timer = k0.timer →
      Inv st rep t (s.finishEnd xts c2 ts k1).2 ∧
        (s.finishEnd xts c2 ts k1).2.keeper.initialized = s.keeper.initialized := by
    intro k1 ts e1 e2 e4 e6 e8
    have hsp := stop_spec st hst k1 xts c2 t
      (by
        intro q hq
        apply htime
        cases h : st.useExternalTiming <;> simp [h] at hq ⊢ <;> simp [hq])
      (by
        intro hm
        have he : st.useExternalTiming = false := by
          by_contra h; exact hst.accepted ⟨by simpa using h, hm⟩
        rw [e8, a8 hm he]; exact hord he)
    dsimp only at hsp
    obtain ⟨p1, p2, p3, p4, p5, p6, p7⟩ := hsp
    unfold Mpc.finishEnd
    rw [hset]
    rcases hst' : k1.stopDelayMeasurement st xts c2 with ⟨o, k2⟩
    rw [hst'] at p1 p2 p3 p4 p5 p6 p7
    dsimp only at p1 p2 p3 p4 p5 p6 p7
    have hff : k1.firstRun = s.firstRun := by rw [e2, ← hf]
    have hE : k2.firstRun = false → st.useExternalTiming = true →
        k2.extLastSolveTimer.start_time ≤ t ∧ k2.extFirstSolveTimer.start_time ≤ t := by
      intro h1 h2
      refine ⟨(p6 h2).1, (p6 h2).2 h1 (fun h3 => ?_)⟩
      rw [e4]; exact (hext (by rw [← hff]; exact h3) h2).2
    have hI : k2.firstRun = false → st.useExternalTiming = false →
        k2.lastSolveTimer.start_time ≤ t ∧ k2.firstSolveTimer.start_time ≤ t := by
      intro h1 h2
      refine ⟨(p7 h2).1, (p7 h2).2 h1 (fun h3 => ?_)⟩
      rw [e6]; exact (hint (by rw [← hff]; exact h3) h2).2
    cases hfr : s.firstRun
    · have h2 := p3 (by rw [hff, hfr])
      rcases p5 with rfl | rfl
      · exact ⟨⟨rfl, hr, hT, hT0, by simp [hfr, h2], fun _ => hE h2, fun _ => hI h2, p1⟩, by rw [← e1, ← p2]; rfl⟩
      · exact ⟨⟨rfl, hr, hT, hT0, by simp [hfr, h2], fun _ => hE h2, fun _ => hI h2, p1⟩, by rw [← e1, ← p2]⟩
    · rcases p4 (by rw [hff, hfr]) with ⟨rfl, h2⟩ | ⟨rfl, h2⟩
      · exact ⟨⟨rfl, hr, hT, hT0, by simp [h2], fun _ => hE h2, fun _ => hI h2, p1⟩, by rw [← e1, ← p2]; rfl⟩
      · exact ⟨⟨rfl, hr, hT, hT0, by simp [hfr, h2], fun h => by simp [hfr] at h, fun h => by simp [hfr] at h, p1⟩,
          by rw [← e1, ← p2]⟩
  obtain ⟨b1, b2, b3, b4, b5, b6, b7, b8⟩ := since_eqs st k0 xts c1
  unfold Mpc.finish
  rw [hset, ← hk0]
  cases b
  · exact main k0 xts a1 a2 (by rw [a4]) (by rw [a6]) rfl
  · cases hw : s.window with
    | none => exact ⟨by simpa [hset, hw] using hInv0, a1⟩
    | some w =>
        obtain ⟨wa, wb⟩ := w
        exact main (k0.timeSincePrevious st xts c1).2 _ (b1.trans a1) (b2.trans a2) (by rw [b4, a4]) (by rw [b6, a6]) b8

/-- Sorted clock readings within and across calls. -/
def sortedStamps (external : Bool) (ops : List (Op K)) : Prop :=
  (ops.flatMap (Op.stamps external)).Pairwise (· ≤ ·)

/-- Specification: the history does not start with a finish. -/
def startsProperly : List (Op K) → Prop
  | Op.finish .. :: _ => False
  | _ => True

theorem reset_inv (st : Settings K) (rep : K → K) (hrep : ∀ T, 0 ≤ T → 0 ≤ rep T) (t : K) (s : Mpc K)
    (hs : Inv st rep t s) (T : K) (hT : 0 ≤ T) : Inv st rep t (s.reset T).2 ∧ (s.reset T).2.keeper.initialized = true := by
  obtain ⟨hset, hr, hT', hT0, hf, hext, hint, hd⟩ := hs
  unfold Mpc.reset
  rw [if_neg (not_lt.2 hT)]
  refine ⟨⟨hset, hr, ?_, hT, rfl, fun h => by simp at h, fun h => by simp at h, fun _ => le_rfl⟩, rfl⟩
  show 0 ≤ s.report T
  rw [hr]; exact hrep T hT

theorem Inv.mono {st : Settings K} {rep : K → K} {t t' : K} {s : Mpc K} (hs : Inv st rep t s) (h : t ≤ t') : Inv st rep t' s :=
  ⟨hs.settings, hs.report, hs.solverT, hs.T0, hs.first,
    fun a b => ⟨(hs.ext a b).1.trans h, (hs.ext a b).2.trans h⟩,
    fun a b => ⟨(hs.int a b).1.trans h, (hs.int a b).2.trans h⟩, hs.delay⟩

/-- Anything in a sorted list is below a common bound placed at its end. -/
theorem run_inv (st : Settings K) (hst : st.Ok) (rep : K → K) (hrep : ∀ T, 0 ≤ T → 0 ≤ rep T) (ops : List (Op K)) :
    ∀ (lo : K) (s : Mpc K), Inv st rep lo s → s.keeper.initialized = true →
      (∀ op ∈ ops, op.resetOk) → (lo :: ops.flatMap (Op.stamps st.useExternalTiming)).Pairwise (· ≤ ·) →
      ∀ t, (∀ q ∈ lo :: ops.flatMap (Op.stamps st.useExternalTiming), q ≤ t) →
      Inv st rep t (s.run ops) ∧ (s.run ops).keeper.initialized = true := by
  induction ops with
  | nil =>
      intro lo s hs hi _ _ t ht
      exact ⟨hs.mono (ht lo (by simp)), hi⟩
  | cons op ops ih =>
      intro lo s hs hi hro hsort t ht
      rw [Mpc.run, List.foldl_cons]
      have hro' : ∀ o ∈ ops, o.resetOk := fun o ho => hro o (by simp [ho])
      cases op with
      | reset T =>
          obtain ⟨h1, h2⟩ := reset_inv st rep hrep lo s hs T (hro (Op.reset T) (by simp))
          exact ih lo _ h1 h2 hro' (by simpa [Op.stamps] using hsort) t (by simpa [Op.stamps] using ht)
      | prepare t' c =>
          have hst2 : (Op.prepare t' c).stamps st.useExternalTiming = [if st.useExternalTiming then t' else c] := by
            simp only [Op.stamps]; split <;> rfl
          rw [List.flatMap_cons, hst2] at hsort ht
          simp only [List.cons_append, List.nil_append, List.pairwise_cons] at hsort
          have hlo := hsort.1 _ List.mem_cons_self
          obtain ⟨-, -, h3, h4⟩ := prepare_spec st hst rep hrep s t' c (hs.mono hlo) (fun _ => hi)
          exact ih _ _ (h3 _ le_rfl) h4 hro' (List.pairwise_cons.2 hsort.2) t (fun q hq => ht q (by
            simp only [List.cons_append, List.nil_append, List.mem_cons] at hq ⊢; tauto))
      | finish x c0 c1 c2 b tr =>
          obtain ⟨e, he⟩ : ∃ e, e = st.useExternalTiming := ⟨_, rfl⟩
          cases e
          · rw [← he] at hsort ht
            simp only [List.flatMap_cons, Op.stamps, Bool.false_eq_true, if_false, List.cons_append, List.nil_append,
              List.pairwise_cons] at hsort ht
            have h02 : c0 ≤ c2 := hsort.2.1 c2 (by simp)
            have h12 : c1 ≤ c2 := hsort.2.2.1 c2 (by simp)
            have hl2 : lo ≤ c2 := hsort.1 c2 (by simp)
            obtain ⟨h1, h2⟩ := finish_spec st hst rep s x c0 c1 c2 c2 b tr (hs.mono hl2)
              (by rw [← he]; simp [h02, h12]) (fun _ => h02)
            refine ih c2 _ h1 (h2.trans hi) hro' ?_ t ?_
            · rw [← he]; exact List.pairwise_cons.2 hsort.2.2.2
            · intro q hq
              rw [← he] at hq
              exact ht q (by simp only [List.mem_cons] at hq ⊢; tauto)
          · rw [← he] at hsort ht
            simp only [List.flatMap_cons, Op.stamps, if_true, List.cons_append, List.nil_append,
              List.pairwise_cons] at hsort ht
            have hlx : lo ≤ x := hsort.1 x (by simp)
            obtain ⟨h1, h2⟩ := finish_spec st hst rep s x c0 c1 c2 x b tr (hs.mono hlx)
              (by rw [← he]; simp) (fun h => by rw [← he] at h; simp at h)
            refine ih x _ h1 (h2.trans hi) hro' ?_ t ?_
            · rw [← he]; exact List.pairwise_cons.2 hsort.2
            · intro q hq
              rw [← he] at hq
              exact ht q (by simp only [List.mem_cons] at hq ⊢; tauto)

/-- C27: in every history of prepare/finish/reset calls that starts with a prepare or reset and in
which the clock in use never runs backwards, every prepare succeeds and computes a window with
`0 ≤ start ≤ stop ≤ current horizon`, for every admissible setting, solver rounding and outcome of the
solves; the check `stop < start` therefore never fires. -/
theorem C27_window (st : Settings K) (hst : st.Ok) (rep : K → K) (hrep : ∀ T, 0 ≤ T → 0 ≤ rep T) (T : K) (hT : 0 ≤ T)
    (s₀ : Mpc K) (hnew : Mpc.new st rep T = Res.ok s₀) (ops : List (Op K)) (hro : ∀ op ∈ ops, op.resetOk)
    (hstart : startsProperly ops) (t c : K)
    (hsort : sortedStamps st.useExternalTiming (ops ++ [Op.prepare t c])) :
    ((s₀.run ops).prepare t c).1 = Res.ok () ∧
    ∃ a b, ((s₀.run ops).prepare t c).2.window = some (a, b) ∧ 0 ≤ a ∧ a ≤ b ∧ b ≤ (s₀.run ops).solverT := by
  have hs₀ : s₀ = ⟨st, .new, true, T, T, none, rep⟩ := by
    unfold Mpc.new at hnew
    split at hnew
    · cases hnew; rfl
    · cases hnew
  have hI : ∀ lo, Inv st rep lo s₀ := by
    intro lo
    rw [hs₀]
    exact ⟨rfl, rfl, hT, hT, rfl, fun h => by simp at h, fun h => by simp at h, fun _ => le_rfl⟩
  set now := (if st.useExternalTiming then t else c) with hnow
  have hlast : (Op.prepare t c).stamps st.useExternalTiming = [now] := by
    simp only [Op.stamps, hnow]; split <;> rfl
  unfold sortedStamps at hsort
  rw [List.flatMap_append, List.flatMap_cons, hlast] at hsort
  simp only [List.flatMap_nil, List.append_nil] at hsort
  obtain ⟨hsort1, -, hbound⟩ := List.pairwise_append.1 hsort
  have hb : ∀ q ∈ ops.flatMap (Op.stamps st.useExternalTiming), q ≤ now := fun q hq => hbound q hq now (by simp)
  have key : Inv st rep now (s₀.run ops) ∧
      ((s₀.run ops).firstRun = false → (s₀.run ops).keeper.initialized = true) := by
    cases ops with
    | nil =>
        refine ⟨hI now, fun h => ?_⟩
        rw [hs₀] at h; simp [Mpc.run] at h
    | cons op ops =>
        have hro' : ∀ o ∈ ops, o.resetOk := fun o ho => hro o (by simp [ho])
        cases op with
        | finish => exact absurd hstart (by simp [startsProperly])
        | reset T' =>
            obtain ⟨h1, h2⟩ : (∀ lo, Inv st rep lo (s₀.reset T').2) ∧ (s₀.reset T').2.keeper.initialized = true :=
              ⟨fun lo => (reset_inv st rep hrep lo s₀ (hI lo) T' (hro (Op.reset T') (by simp))).1,
               (reset_inv st rep hrep 0 s₀ (hI 0) T' (hro (Op.reset T') (by simp))).2⟩
            simp only [List.flatMap_cons, Op.stamps, List.nil_append] at hsort1 hb
            rw [Mpc.run, List.foldl_cons]
            cases hops : ops.flatMap (Op.stamps st.useExternalTiming) with
            | nil =>
                have := run_inv st hst rep hrep ops now _ (h1 now) h2 hro' (by rw [hops]; simp) now (by rw [hops]; simp)
                exact ⟨this.1, fun _ => this.2⟩
            | cons q qs =>
                rw [hops] at hsort1 hb
                have := run_inv st hst rep hrep ops q _ (h1 q) h2 hro' (by
                    rw [hops]
                    refine List.pairwise_cons.2 ⟨?_, hsort1⟩
                    intro a ha
                    rcases List.mem_cons.1 ha with rfl | ha
                    · exact le_rfl
                    · exact (List.pairwise_cons.1 hsort1).1 a ha) now (by
                    rw [hops]
                    intro a ha
                    rcases List.mem_cons.1 ha with rfl | ha
                    · exact hb a (by simp)
                    · exact hb a ha)
                exact ⟨this.1, fun _ => this.2⟩
        | prepare t' c' =>
            have hst2 : (Op.prepare t' c').stamps st.useExternalTiming = [if st.useExternalTiming then t' else c'] := by
              simp only [Op.stamps]; split <;> rfl
            rw [List.flatMap_cons, hst2] at hsort1 hb
            simp only [List.cons_append, List.nil_append] at hsort1 hb
            obtain ⟨-, -, h3, h4⟩ := prepare_spec st hst rep hrep s₀ t' c' (hI _) (fun h => by rw [hs₀] at h; simp at h)
            have := run_inv st hst rep hrep ops _ _ (h3 _ le_rfl) h4 hro' hsort1 now hb
            exact ⟨this.1, fun _ => this.2⟩
  obtain ⟨h1, h2, -⟩ := prepare_spec st hst rep hrep _ t c key.1 key.2
  exact ⟨h1, h2⟩

/-- Non-vacuous: an external-timing history over ℚ, with a concrete window [1, 11/10]. -/
def exSettings : Settings ℚ := { multiplier := 7/10, minHorizon := 1, useExternalTiming := true, fixedDelayUs := 100000 }

example : exSettings.Ok :=
  ⟨by simp [exSettings], by simp [exSettings], by simp [exSettings], by simp [exSettings]; norm_num, by simp [exSettings]⟩

example : ∃ s₀, Mpc.new exSettings id 3 = Res.ok s₀ ∧
    ((s₀.run [Op.prepare 0 0, Op.finish 0 0 0 0 true id]).prepare 1 0).2.window = some (1, 11/10) := by
  refine ⟨_, rfl, ?_⟩
  decide +kernel

/-! ### C28: horizon strategies -/

/-- C27, predicted delay: after the first solve, as long as the window is not cut off by the horizon, the
prediction bridges exactly the configured delay in seconds: the additional delay plus either the scaled
measured delay or the fixed one (both settings are in microseconds). -/
theorem C27_delay (st : Settings K) (T0 T t c : K) (k k' : Keeper K) (tm : Timings K) (hf : k.firstRun = false)
    (h : k.computeNewTimings st T0 t c T = Res.ok (tm, k')) (h1 : tm.forwStart < T) (h2 : tm.forwStop < T) :
    tm.forwStop - tm.forwStart = (st.additionalDelayUs : K) / 10 ^ 6 +
      if st.measureDelay then st.multiplier * k.lastMeasuredDelay else (st.fixedDelayUs : K) / 10 ^ 6 := by
  unfold Keeper.computeNewTimings at h
  cases hi : k.initialized
  · simp [hi] at h
  · simp only [hi, hf, Bool.not_true, Bool.false_eq_true, if_false, Bool.not_false, if_true, Res.ok.injEq, Prod.mk.injEq] at h
    obtain ⟨rfl, -⟩ := h
    dsimp only at h1 h2 ⊢
    have clip : ∀ a : K, (if T < a then T else a) < T → (if T < a then T else a) = a := by
      intro a ha
      split_ifs at ha ⊢ with hc
      · exact absurd ha (lt_irrefl T)
      · rfl
    rw [clip _ h1, clip _ h2]
    have hd : ∀ q : Keeper K, q.lastMeasuredDelay = k.lastMeasuredDelay → computeDelayToApply st q =
        (st.additionalDelayUs : K) / 10 ^ 6 +
          if st.measureDelay then st.multiplier * k.lastMeasuredDelay else (st.fixedDelayUs : K) / 10 ^ 6 := by
      intro q hq
      unfold computeDelayToApply
      rw [hq]
      cases st.measureDelay <;> norm_num <;> ring
    rw [hd _ (by split <;> rfl)]
    ring

/-- C28: the new horizon is never negative. -/
theorem C28_nonneg (st : Settings K) (T0 a b : K) (h0 : 0 ≤ T0) (hm : 0 ≤ st.minHorizon) :
    0 ≤ (computeNewTimeHorizon st T0 a b).1 := by
  unfold computeNewTimeHorizon
  cases st.mode
  · exact le_max_left _ _
  · exact h0
  · exact hm.trans (le_max_left _ _)
  · exact le_min hm (le_max_left _ _)

/-- C28: what each mode returns and when it reports the end, in terms of the final time `T0` and the
time `a + b` charged against it. -/
theorem C28_modes (st : Settings K) (T0 a b : K) :
    (st.mode = .constantReceding → computeNewTimeHorizon st T0 a b = (T0, false)) ∧
    (st.mode = .fixedFinalTime →
      (a + b ≤ T0 → (computeNewTimeHorizon st T0 a b).1 = T0 - (a + b)) ∧
      (T0 ≤ a + b → (computeNewTimeHorizon st T0 a b).1 = 0) ∧
      ((computeNewTimeHorizon st T0 a b).2 = true ↔ T0 ≤ a + b)) ∧
    (st.mode = .fixedFinalTimeWithMin → 0 ≤ st.minHorizon →
      st.minHorizon ≤ (computeNewTimeHorizon st T0 a b).1 ∧
      (st.minHorizon ≤ T0 - (a + b) → (computeNewTimeHorizon st T0 a b).1 = T0 - (a + b)) ∧
      ((computeNewTimeHorizon st T0 a b).2 = true ↔ T0 - (a + b) ≤ st.minHorizon)) ∧
    (st.mode = .recedingWithFixedFinal → 0 < st.minHorizon →
      (computeNewTimeHorizon st T0 a b).1 ≤ st.minHorizon ∧
      (st.minHorizon ≤ T0 - (a + b) → (computeNewTimeHorizon st T0 a b).1 = st.minHorizon) ∧
      (0 ≤ T0 - (a + b) → T0 - (a + b) ≤ st.minHorizon → (computeNewTimeHorizon st T0 a b).1 = T0 - (a + b)) ∧
      ((computeNewTimeHorizon st T0 a b).2 = true ↔ T0 ≤ a + b)) := by
  refine ⟨?_, ?_, ?_, ?_⟩
  · intro h; simp [computeNewTimeHorizon, h]
  · intro h
    simp only [computeNewTimeHorizon, h]
    refine ⟨fun h1 => max_eq_right (by linarith), fun h1 => max_eq_left (by linarith), ?_⟩
    simp [max_eq_left_iff]
  · intro h hm
    simp only [computeNewTimeHorizon, h]
    refine ⟨le_max_left _ _, fun h1 => ?_, ?_⟩
    · rw [max_eq_right (b := T0 - (a + b)) (by linarith), max_eq_right h1]
    · simp [max_eq_left_iff, hm]
  · intro h hm
    simp only [computeNewTimeHorizon, h]
    refine ⟨min_le_left _ _, fun h1 => ?_, fun h1 h2 => ?_, ?_⟩
    · exact min_eq_left (h1.trans (le_max_right _ _))
    · rw [max_eq_right h1, min_eq_right h2]
    · have : min st.minHorizon (max 0 (T0 - (a + b))) = 0 ↔ T0 ≤ a + b := by
        constructor
        · intro h1
          rcases min_choice st.minHorizon (max 0 (T0 - (a + b))) with h2 | h2
          · rw [h2] at h1; linarith
          · rw [h2, max_eq_left_iff] at h1; linarith
        · intro h1
          rw [max_eq_left (by linarith)]; exact min_eq_right hm.le
      simp [this]

/-- C28: in every mode the horizon does not grow when the time charged against it grows. -/
theorem C28_antitone (st : Settings K) (T0 a b a' b' : K) (h : a + b ≤ a' + b') :
    (computeNewTimeHorizon st T0 a' b').1 ≤ (computeNewTimeHorizon st T0 a b).1 := by
  have hm : max 0 (T0 - (a' + b')) ≤ max 0 (T0 - (a + b)) := max_le_max le_rfl (by linarith)
  unfold computeNewTimeHorizon
  cases st.mode
  · exact hm
  · exact le_rfl
  · exact max_le_max le_rfl hm
  · exact min_le_min le_rfl hm

/-- C28, remaining time (partial): at a prepare in fixed-final-time mode with external timing at
time `t`, the new horizon is the time from `t + delay` to the final time (first solve plus initial
horizon), provided no time has passed since the last solve and neither the window nor the horizon is
clipped.  Missing: prepares later than the last solve, see `C28_remaining_violated`. -/
theorem C28_remaining_partial (st : Settings K) (T0 : K) (k : Keeper K) (t c T : K) (hi : k.initialized = true)
    (hf : k.firstRun = false) (he : st.useExternalTiming = true) (hmode : st.mode = .fixedFinalTime)
    (hlast : t = k.extLastSolveTimer.start_time) (hclip : computeDelayToApply st k ≤ T)
    (hleft : t + computeDelayToApply st k ≤ k.extFirstSolveTimer.start_time + T0) :
    ∃ tm k', k.computeNewTimings st T0 t c T = Res.ok (tm, k') ∧
      tm.newT = (k.extFirstSolveTimer.start_time + T0) - (t + computeDelayToApply st k) := by
  unfold Keeper.computeNewTimings
  rw [if_neg (by simp [hi])]
  refine ⟨_, _, rfl, ?_⟩
  have hd : ∀ a b, computeDelayToApply st { k with extFirstSolveTimer := a, extLastSolveTimer := b, firstRun := false }
      = computeDelayToApply st k := fun _ _ => rfl
  simp only [hf, he, Bool.not_false, if_true, hd, computeNewTimeHorizon, hmode, ExtTimer.elapsed, ExtTimer.stop]
  have e0 : t - k.extLastSolveTimer.start_time = 0 := by rw [← hlast]; ring
  rw [e0, zero_add, if_neg (not_lt.2 hclip), max_eq_right (by linarith)]
  ring

/-- Settings of the disagreement examples: external timing, no delays, fixed final time. -/
def fixedFinal : Settings ℚ := { multiplier := 1, minHorizon := 1, useExternalTiming := true, mode := .fixedFinalTime }

/-- C28, disagreement: with an initial horizon of 10 s, first solve at 0, next prepare at time 3 without any
delay: 7 s remain, but the horizon is 4 s: the 3 s since the last solve are charged twice.  If the
next solve follows quickly, the horizon grows again (prepare at 3.5 after a solve at 3: 6 s), so in
fixed-final-time mode it is not even monotone. -/
theorem C28_remaining_violated :
    ∃ s₀, Mpc.new fixedFinal id 10 = Res.ok s₀ ∧
      ((s₀.run [Op.prepare 0 0, Op.finish 0 0 0 0 true id]).prepare 3 0).2.solverT = 4 ∧
      ((s₀.run [Op.prepare 0 0, Op.finish 0 0 0 0 true id, Op.prepare 3 0, Op.finish 3 0 0 0 true id]).prepare
        (7/2) 0).2.solverT = 6 := by
  refine ⟨_, rfl, ?_⟩
  decide +kernel

/-! ### C31: the time stamp of a policy -/

/-- C31 (iterations after the first): a successful iteration stamps the policy with the state's stamp
advanced by the predicted time and by what the post-truncation reports; an unsuccessful one leaves the
state's stamp.  The exception of a negative measured delay is excluded by `hd`.  Missing: the first
iteration (see `C31_first_violated`, `C31_first_internal_violated`). -/
theorem C31_stamp_partial (s : Mpc K) (hf : s.firstRun = false) (hk : s.keeper.firstRun = false)
    (he : s.settings.useExternalTiming = true) (hm : s.settings.measureDelay = false)
    (x c0 c1 c2 start stop : K) (hw : s.window = some (start, stop)) (trunc : K → K)
    (hd : s.keeper.extTimer.start_time ≤ x) :
    (s.finish x c0 c1 c2 true trunc).1 = Res.ok (x + (stop - start) +
      (if s.settings.postTruncation = true ∧ stop < x - s.keeper.extLastSolveTimer.start_time then
        trunc (x - s.keeper.extLastSolveTimer.start_time - stop) else 0)) ∧
    (s.finish x c0 c1 c2 false trunc).1 = Res.ok x := by
  have hd' : ¬ (x - s.keeper.extTimer.start_time < 0) := by linarith
  have hend : ∀ (k : Keeper K) (ts : K), k.extTimer = s.keeper.extTimer → k.firstRun = false →
      (s.finishEnd x c2 ts k).1 = Res.ok ts := by
    intro k ts h1 h2
    simp only [Mpc.finishEnd, Keeper.stopDelayMeasurement, he, if_true, h1, ExtTimer.stop, ExtTimer.elapsed, hd',
      if_false, h2, hf, Bool.false_eq_true]
  have hk0 : s.keeper.startDelayMeasurement s.settings x c0 = s.keeper := by
    simp [Keeper.startDelayMeasurement, hm]
  have hp : s.keeper.timeSincePrevious s.settings x c1 =
      (x - s.keeper.extLastSolveTimer.start_time, { s.keeper with extLastSolveTimer := s.keeper.extLastSolveTimer.stop x }) := by
    simp [Keeper.timeSincePrevious, hk, he, ExtTimer.stop, ExtTimer.elapsed]
  constructor
  · unfold Mpc.finish
    rw [if_pos rfl, hk0, hw]
    simp only [hp]
    refine (hend _ _ ?_ ?_).trans ?_
    · rfl
    · exact hk
    · simp only [hf, and_true]
  · unfold Mpc.finish
    rw [if_neg (by simp), hk0]
    exact hend _ _ rfl hk

/-- C31, disagreement with external timing: in the first iteration the policy's stamp is twice the state's stamp,
for every state stamp `x ≥ 0`, and for every negative one the call throws. -/
theorem C31_first_violated (st : Settings K) (hst : st.Ok) (he : st.useExternalTiming = true) (rep : K → K) (T : K) (hT : 0 ≤ T)
    (s₀ : Mpc K) (hnew : Mpc.new st rep T = Res.ok s₀) (x c c0 c1 c2 : K) (trunc : K → K) :
    (0 ≤ x → ((s₀.run [Op.prepare x c]).finish x c0 c1 c2 true trunc).1 = Res.ok (2 * x)) ∧
    (x < 0 → ((s₀.run [Op.prepare x c]).finish x c0 c1 c2 true trunc).1 = Res.exc) := by
  have hs₀ : s₀ = ⟨st, .new, true, T, T, none, rep⟩ := by
    unfold Mpc.new at hnew
    split at hnew
    · cases hnew; rfl
    · cases hnew
  have hm : st.measureDelay = false := by
    by_contra h; exact hst.accepted ⟨he, by simpa using h⟩
  have hn := newT_nonneg st hst T 0 0 hT
  have hrun : s₀.run [Op.prepare x c] = ⟨st, { (Keeper.new.init : Keeper K) with
      finalPointReached := (computeNewTimeHorizon st T 0 0).2 }, true, rep (computeNewTimeHorizon st T 0 0).1, T, some (0, 0), rep⟩ := by
    rw [hs₀]
    simp only [Mpc.run, List.foldl_cons, List.foldl_nil, Mpc.step, Mpc.prepare, if_true, Keeper.computeNewTimings,
      Keeper.init, Bool.not_true, Bool.false_eq_true, if_false, if_neg (not_lt.2 hT), if_neg (not_lt.2 hn), lt_irrefl]
  rw [hrun]
  have hfin : ¬ ((0 : K) < 0 ∧ true = false) := by simp
  constructor
  · intro hx
    simp only [Mpc.finish, Mpc.finishEnd, Keeper.startDelayMeasurement, hm, Bool.false_eq_true, if_false, if_true,
      Keeper.timeSincePrevious, Keeper.init, lt_irrefl, false_and, and_false, if_false, ite_self, Keeper.stopDelayMeasurement, he,
      ExtTimer.stop, ExtTimer.elapsed, ExtTimer.reset, ExtTimer.new, sub_zero, if_neg (not_lt.2 hx)]
    congr 1
    ring
  · intro hx
    simp only [Mpc.finish, Mpc.finishEnd, Keeper.startDelayMeasurement, hm, Bool.false_eq_true, if_false, if_true,
      Keeper.timeSincePrevious, Keeper.init, lt_irrefl, false_and, and_false, if_false, ite_self, Keeper.stopDelayMeasurement, he,
      ExtTimer.stop, ExtTimer.elapsed, ExtTimer.reset, ExtTimer.new, sub_zero, if_pos hx]

/-- C31, disagreement with the default settings (internal clock, delay not measured): the first policy is
stamped with the state's stamp plus the clock reading, i.e. plus the seconds since 1970. -/
theorem C31_first_internal_violated (st : Settings K) (hst : st.Ok) (he : st.useExternalTiming = false)
    (hm : st.measureDelay = false) (rep : K → K) (T : K) (hT : 0 ≤ T)
    (s₀ : Mpc K) (hnew : Mpc.new st rep T = Res.ok s₀) (x c c0 c1 c2 : K) (hc : 0 ≤ c2) (trunc : K → K) :
    ((s₀.run [Op.prepare x c]).finish x c0 c1 c2 true trunc).1 = Res.ok (x + c2) := by
  have hs₀ : s₀ = ⟨st, .new, true, T, T, none, rep⟩ := by
    unfold Mpc.new at hnew
    split at hnew
    · cases hnew; rfl
    · cases hnew
  have hn := newT_nonneg st hst T 0 0 hT
  have hrun : s₀.run [Op.prepare x c] = ⟨st, { (Keeper.new.init : Keeper K) with
      finalPointReached := (computeNewTimeHorizon st T 0 0).2 }, true, rep (computeNewTimeHorizon st T 0 0).1, T, some (0, 0), rep⟩ := by
    rw [hs₀]
    simp only [Mpc.run, List.foldl_cons, List.foldl_nil, Mpc.step, Mpc.prepare, if_true, Keeper.computeNewTimings,
      Keeper.init, Bool.not_true, Bool.false_eq_true, if_false, if_neg (not_lt.2 hT), if_neg (not_lt.2 hn), lt_irrefl]
  rw [hrun]
  simp only [Mpc.finish, Mpc.finishEnd, Keeper.startDelayMeasurement, hm, Bool.false_eq_true, if_false, if_true,
    Keeper.timeSincePrevious, Keeper.init, lt_irrefl, false_and, and_false, if_false, ite_self, Keeper.stopDelayMeasurement, he,
    ExtTimer.stop, ExtTimer.elapsed, ExtTimer.reset, ExtTimer.new, sub_zero, if_neg (not_lt.2 hc), sub_self, add_zero]

/-- Non-vacuous: hypotheses of `C31_stamp_partial` in a reached state, stamp 1 + 1/10. -/
example : ∃ s₀, Mpc.new exSettings id 3 = Res.ok s₀ ∧
    ((s₀.run [Op.prepare 0 0, Op.finish 0 0 0 0 true id, Op.prepare 1 0]).finish 1 0 0 0 true id).1 = Res.ok (11/10) := by
  refine ⟨_, rfl, ?_⟩
  decide +kernel

end CT.Mpc
