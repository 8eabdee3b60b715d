import Verif.Model.NlocBuffers
import Verif.Props.Arrays
import Mathlib.Data.Rat.Floor
import Mathlib.Algebra.Order.Ring.Rat
import Mathlib.Tactic.Linarith
import Mathlib.Tactic.FieldSimp

/-!
# C59, C60, C84: return value of `solve`, buffers and time stamps of the solver
-/

namespace CT.Nloc

/-! ### C59 -/

/-- C59 violated for every sequence of outcomes and every iteration limit: `solve` always returns
`true`, also when no iteration ran or none found a better solution. -/
theorem C59_violated (outcomes : ℕ → Bool) (maxIterations : ℤ) :
    (solve outcomes maxIterations).2 = true := by
  have key : ∀ n k found, (k = 0 → found = true) →
      let r := solveLoop outcomes n k found
      (decide (1 < r.1) || r.2 || (decide (r.1 = 1) && !r.2)) = true := by
    intro n
    induction n with
    | zero =>
      intro k found h
      simp only [solveLoop]
      rcases Nat.lt_trichotomy k 1 with h1 | h1 | h1
      · simp [h (by omega)]
      · cases found <;> simp [h1]
      · simp [h1]
    | succ n ih =>
      intro k found h
      rw [solveLoop]
      split
      · exact ih (k + 1) _ (by omega)
      · next hf =>
        simp only [Bool.not_eq_true] at hf
        have hk : k ≠ 0 := fun e => by simp [h e] at hf
        rcases Nat.lt_trichotomy k 1 with h1 | h1 | h1
        · omega
        · simp [h1, hf]
        · simp [h1]
  exact key _ 0 true (fun _ => rfl)

/-- So the claim fails exactly for the runs in which no iteration found a better solution; these
exist for every iteration limit. -/
theorem C59_violated_when (outcomes : ℕ → Bool) (maxIterations : ℤ) :
    ¬ ((solve outcomes maxIterations).2 = true ↔
        ∃ k < (solve outcomes maxIterations).1, outcomes k = true) ↔
      ∀ k < (solve outcomes maxIterations).1, outcomes k = false := by
  rw [C59_violated]
  simp

private theorem solveLoop_spec (outcomes : ℕ → Bool) : ∀ n k found,
    (found = true → ∃ m ≤ n, (solveLoop outcomes n k found).1 = k + m ∧
      (∀ j, j + 1 < m → outcomes (k + j) = true) ∧ (m < n → 0 < m ∧ outcomes (k + m - 1) = false))
    ∧ (found = false → (solveLoop outcomes n k found).1 = k)
  | 0, k, found => ⟨fun _ => ⟨0, le_rfl, rfl, fun j hj => by omega, fun h => by omega⟩, fun _ => rfl⟩
  | n + 1, k, found => by
    refine ⟨fun hf => ?_, fun hf => by simp [solveLoop, hf]⟩
    rw [solveLoop, if_pos hf]
    obtain ⟨h1, h2⟩ := solveLoop_spec outcomes n (k + 1) (outcomes k)
    cases ho : outcomes k with
    | true =>
      rw [ho] at h1
      obtain ⟨m, hm, e, h3, h4⟩ := h1 rfl
      refine ⟨m + 1, by omega, by rw [e]; omega, ?_, ?_⟩
      · intro j hj
        cases j with
        | zero => exact ho
        | succ j =>
          have := h3 j (by omega)
          rwa [show k + (j + 1) = k + 1 + j by omega]
      · intro hlt
        obtain ⟨h5, h6⟩ := h4 (by omega)
        refine ⟨by omega, ?_⟩
        rwa [show k + (m + 1) - 1 = k + 1 + m - 1 by omega]
    | false =>
      rw [ho] at h2
      refine ⟨1, by omega, by rw [h2 rfl], fun j hj => by omega, fun _ => ⟨by omega, ?_⟩⟩
      simpa using ho

/-- C59 (what holds): iterations are run while they keep finding better solutions and the limit is
not reached: all iterations but the last found a better solution, and if fewer than the allowed
number ran, the last one did not.  If some iteration found a better solution, `solve` returns
`true`.

Missing: `false` is never returned (`C59_violated`). -/
theorem C59_iterations_partial (outcomes : ℕ → Bool) (maxIterations : ℤ) :
    let n := (solve outcomes maxIterations).1
    (n : ℤ) ≤ max maxIterations 0 ∧ (∀ j, j + 1 < n → outcomes j = true) ∧
      ((n : ℤ) < maxIterations → 0 < n ∧ outcomes (n - 1) = false) ∧
      ((∃ k < n, outcomes k = true) → (solve outcomes maxIterations).2 = true) := by
  obtain ⟨m, hm, e, h3, h4⟩ := (solveLoop_spec outcomes maxIterations.toNat 0 true).1 rfl
  have en : (solve outcomes maxIterations).1 = m := by
    simp only [solve]; rw [e]; omega
  simp only [en]
  refine ⟨by omega, fun j hj => by simpa using h3 j hj, fun h => ?_, fun _ => C59_violated _ _⟩
  have := h4 (by omega)
  simpa using this

/-- A run of three iterations, the last of which fails to improve. -/
example : solve (fun k => decide (k < 2)) 10 = (3, true) := by decide

/-- A run in which nothing was found still reports success. -/
example : solve (fun _ => false) 10 = (1, true) := by decide

variable {X U F R : Type} [Field R] [LinearOrder R] [IsStrictOrderedRing R] [FloorRing R] [Zero X]

/-! ### Specification for C60 -/

/-- The number of stages for horizon `T` and step `dt`: `T/dt` rounded to the nearest whole number
(halves upwards), but at least one. -/
def IsStages (dt T : R) (n : ℕ) : Prop :=
  ∃ r : ℕ, (r : R) ≤ T / dt + 1 / 2 ∧ T / dt + 1 / 2 < (r : R) + 1 ∧ n = max 1 r

/-- The horizon in force: the last one that was not rejected for being negative. -/
def lastHorizon (T0 : R) (cs : List (Call X U F R)) : R :=
  cs.foldl (fun T c => match c with | .horizon T' => if T' < 0 then T else T' | _ => T) T0

/-- No call changes the settings. -/
def NoConfigure (cs : List (Call X U F R)) : Prop := ∀ dt, Call.configure dt ∉ cs

/-- All buffers fit `K` stages. -/
structure Fits (b : Buf X U F R) : Prop where
  pos : 1 ≤ b.K
  u : b.u.length = b.K
  L : b.L.length = b.K
  uPrev : b.uPrev.length = b.K
  du : b.du.length = b.K
  x : b.x.length = b.K + 1
  xShot : b.xShot.length = b.K + 1
  dx : b.dx.length = b.K + 1
  dxRef : b.dxRef.length = b.K + 1
  d : b.d.length = b.K + 1
  xPrev : b.K + 1 ≤ b.xPrev.length
  xRef : b.K + 1 ≤ b.xRef.length

/-- The time stamps are `0, dt, 2 dt, ..., K dt`. -/
def Stamps (dt : R) (K : ℕ) (t : List R) : Prop :=
  t.length = K + 1 ∧ ∀ i ≤ K, t.getD i 0 = (i : R) * dt

/-! ### Lemmas -/

omit [Field R] [LinearOrder R] [IsStrictOrderedRing R] [FloorRing R] [Zero X] in
theorem resize_length {α : Type} (l : List (Option α)) (n : ℕ) : (resize l n).length = n := by
  simp [resize]; omega

omit [IsStrictOrderedRing R] in
theorem cut_length {α : Type} (l : List (Option α)) (n : ℕ) (h : n ≤ l.length) :
    (cut l n).length = n := by
  unfold cut
  split
  · exact resize_length l n
  · omega

theorem cut_eq {α : Type} (l : List (Option α)) (n : ℕ) (h : n ≤ l.length) :
    cut l n = l.take n := by
  unfold cut
  split
  · simp [resize, Nat.sub_eq_zero_of_le h]
  · rw [List.take_of_length_le (by omega)]

theorem timeArray_ok (dt : R) (n : ℕ) (h : 1 ≤ n) :
    ∃ t, Arrays.timeArray dt (n + 1) 0 = Res.ok t ∧ Stamps dt n t := by
  refine ⟨Arrays.linspaceLoop ((0 + ((n + 1 - 1 : ℕ) : R) * dt - 0) / ((n + 1 - 1 : ℕ) : R)) (n + 1) 0,
    ?_, ?_, ?_⟩
  · unfold Arrays.timeArray Arrays.linspace
    rw [if_neg (by omega)]
  · exact Arrays.linspaceLoop_length _ _ _
  · intro i hi
    have hl := Arrays.linspaceLoop_length
      ((0 + ((n + 1 - 1 : ℕ) : R) * dt - 0) / ((n + 1 - 1 : ℕ) : R)) (n + 1) 0
    have hlt : i < (Arrays.linspaceLoop
      ((0 + ((n + 1 - 1 : ℕ) : R) * dt - 0) / ((n + 1 - 1 : ℕ) : R)) (n + 1) 0).length := by omega
    rw [List.getD_eq_getElem?_getD, List.getElem?_eq_getElem hlt, Option.getD_some,
      Arrays.linspaceLoop_get]
    have hn : ((n + 1 - 1 : ℕ) : R) ≠ 0 := by
      simp only [Nat.add_sub_cancel]
      exact Nat.cast_ne_zero.2 (by omega)
    field_simp
    ring

theorem computeK_ok {dt T : R} (hdt : 0 < dt) (hT : 0 ≤ T) :
    ∃ n, computeK dt T = Res.ok n ∧ 1 ≤ n ∧ IsStages dt T n := by
  refine ⟨max 1 (⌊T / dt + 1 / 2⌋).toNat, by simp [computeK, not_lt.2 hT], le_max_left _ _, ?_⟩
  have h0 : (0 : R) ≤ T / dt + 1 / 2 := by positivity
  have hf : 0 ≤ ⌊T / dt + 1 / 2⌋ := Int.floor_nonneg.2 h0
  have hc : (((⌊T / dt + 1 / 2⌋).toNat : ℕ) : R) = ((⌊T / dt + 1 / 2⌋ : ℤ) : R) := by
    rw [← Int.cast_natCast, Int.toNat_of_nonneg hf]
  refine ⟨(⌊T / dt + 1 / 2⌋).toNat, ?_, ?_, rfl⟩
  · rw [hc]; exact Int.floor_le _
  · rw [hc]; exact Int.lt_floor_add_one _

/-- The rounded number of stages is unique. -/
theorem IsStages.unique {dt T : R} {m n : ℕ} (h : IsStages dt T m) (h' : IsStages dt T n) :
    m = n := by
  obtain ⟨r, h1, h2, rfl⟩ := h
  obtain ⟨r', h1', h2', rfl⟩ := h'
  have a : (r : R) < r' + 1 := lt_of_le_of_lt h1 h2'
  have b : (r' : R) < r + 1 := lt_of_le_of_lt h1' h2
  have a' : r < r' + 1 := by exact_mod_cast a
  have b' : r' < r + 1 := by exact_mod_cast b
  have : r = r' := by omega
  rw [this]

/-- What holds after every history without `configure`. -/
private structure Inv (dt T : R) (b : Buf X U F R) : Prop where
  fits : Fits b
  hdt : b.dt = dt
  stages : IsStages dt T b.K
  stamps : Stamps dt b.K b.t

private theorem changeNumStages_inv {dt T : R} (b : Buf X U F R) (n : ℕ) (hn : 1 ≤ n)
    (hb : b.dt = dt) (hs : IsStages dt T n) (h : n ≠ b.K ∨ Inv dt T b) :
    ∃ b', changeNumStages n b = Res.ok b' ∧ Inv dt T b' := by
  unfold changeNumStages
  by_cases he : n = b.K
  · rw [if_pos he]
    rcases h with h | h
    · exact absurd he h
    · exact ⟨b, rfl, h⟩
  · rw [if_neg he, if_neg (by omega)]
    obtain ⟨t, e, ht⟩ := timeArray_ok b.dt n hn
    rw [e, Res.ok_bind]
    refine ⟨_, rfl, ⟨hn, ?_, ?_, ?_, ?_, ?_, ?_, ?_, ?_, ?_, ?_, ?_⟩, hb, hs, ?_⟩
    · exact resize_length _ _
    · exact resize_length _ _
    · exact resize_length _ _
    · exact resize_length _ _
    · exact resize_length _ _
    · exact resize_length _ _
    · exact resize_length _ _
    · exact resize_length _ _
    · simp [resetDefects, resize_length]
    · exact le_of_eq (resize_length _ _).symm
    · exact le_of_eq (resize_length _ _).symm
    · rw [← hb]; exact ht

private theorem after_inv {dt T : R} (hdt : 0 < dt) {b : Buf X U F R} (h : Inv dt T b)
    (c : Call X U F R) (hc : ∀ d, c ≠ .configure d) :
    Inv dt (lastHorizon T [c]) (c.after b) := by
  cases c with
  | configure d => exact absurd rfl (hc d)
  | horizon T' =>
    by_cases hT : T' < 0
    · simp only [lastHorizon, List.foldl_cons, List.foldl_nil, if_pos hT, Call.after, Call.run,
        changeTimeHorizon]
      exact h
    · simp only [lastHorizon, List.foldl_cons, List.foldl_nil, if_neg hT, Call.after, Call.run,
        changeTimeHorizon]
      obtain ⟨n, e, hn, hs⟩ := computeK_ok (T := T') hdt (not_lt.1 hT)
      rw [h.hdt, e, Res.ok_bind]
      by_cases he : n = b.K
      · simp only [changeNumStages, he, if_true]
        exact ⟨h.fits, h.hdt, he ▸ hs, h.stamps⟩
      · obtain ⟨b', e', hi⟩ := changeNumStages_inv (T := T') b n hn h.hdt hs (Or.inl he)
        rw [e']
        exact hi
  | guess g =>
    change Inv dt T _
    simp only [Call.after, Call.run, setInitialGuess]
    by_cases h1 : g.x.length < b.K + 1
    · simp only [h1, if_true]; exact h
    by_cases h2 : g.u.length < b.K
    · simp only [h1, h2, if_true, if_false]; exact h
    by_cases h3 : g.L.length < b.K
    · simp only [h1, h2, h3, if_true, if_false]; exact h
    simp only [h1, h2, h3, if_false]
    have hl : (cut (g.x.map some) (b.K + 1)).length = b.K + 1 := cut_length _ _ (by simp; omega)
    obtain ⟨t, e, ht⟩ := timeArray_ok b.dt b.K h.fits.pos
    rw [hl, e, Res.ok_bind, Res.pure_eq]
    refine ⟨⟨h.fits.pos, ?_, ?_, h.fits.uPrev, h.fits.du, hl, h.fits.xShot, h.fits.dx, h.fits.dxRef,
      ?_, ?_, ?_⟩, h.hdt, h.stages, ?_⟩
    · exact cut_length _ _ (by simp; omega)
    · exact cut_length _ _ (by simp; omega)
    · simp only [resetDefects, List.length_map]; exact h.fits.d
    · simp only [resetDefects, List.length_map]; omega
    · simp only [resetDefects, List.length_map]; omega
    · rw [← h.hdt]; exact ht
  | initialState x0 =>
    change Inv dt T _
    simp only [Call.after, Call.run, changeInitialState]
    have hx := h.fits.x
    rw [if_neg (by omega)]
    refine ⟨⟨h.fits.pos, h.fits.u, h.fits.L, h.fits.uPrev, h.fits.du, ?_, h.fits.xShot, h.fits.dx,
      h.fits.dxRef, ?_, h.fits.xPrev, h.fits.xRef⟩, h.hdt, h.stages, h.stamps⟩
    · simpa [resetDefects] using hx
    · simp only [resetDefects, List.length_map]; exact h.fits.d

private theorem run_inv {dt : R} (hdt : 0 < dt) : ∀ (cs : List (Call X U F R)) (T : R)
    (b : Buf X U F R), Inv dt T b → NoConfigure cs → Inv dt (lastHorizon T cs) (runCalls cs b)
  | [], T, b, h, _ => h
  | c :: cs, T, b, h, hc => by
    have h1 := after_inv hdt h c (fun d e => hc d (by simp [e]))
    exact run_inv hdt cs (lastHorizon T [c]) (c.after b) h1 (fun d hd => hc d (by simp [hd]))

/-! ### C60 -/

/-- C60: construct the solver for a horizon `T0` and step `dt`, then call `changeTimeHorizon`,
`setInitialGuess` and `changeInitialState` in any order and with any arguments, rejected ones
included.  The number of stages is `max(1, round(T/dt))` for the last accepted horizon `T`; controls
and gains have one entry per stage, states and defects one more, the time stamps are `i * dt`. -/
theorem C60_history (dt T0 : R) (x0 : X) (hdt : 0 < dt) (hT0 : 0 ≤ T0)
    (cs : List (Call X U F R)) (hc : NoConfigure cs) :
    ∃ b0 : Buf X U F R, construct dt T0 x0 = Res.ok b0 ∧
      IsStages dt (lastHorizon T0 cs) (runCalls cs b0).K ∧ Fits (runCalls cs b0) ∧
      Stamps dt (runCalls cs b0).K (runCalls cs b0).t := by
  obtain ⟨n, e, hn, hs⟩ := computeK_ok (T := T0) hdt hT0
  obtain ⟨b1, e1, h1⟩ := changeNumStages_inv (X := X) (U := U) (F := F) (T := T0)
    (resetDefects (Buf.empty dt)) n hn rfl hs (Or.inl (by simp [resetDefects, Buf.empty]; omega))
  have h2 := after_inv hdt h1 (.initialState x0) (fun d => by simp)
  refine ⟨(Call.initialState x0).after b1, ?_, ?_⟩
  · unfold construct configure changeTimeHorizon
    rw [if_neg (not_le.2 hdt), Res.ok_bind, if_neg (not_lt.2 hT0)]
    have e' : computeK (resetDefects { (Buf.empty dt : Buf X U F R) with dt := dt }).dt T0
        = Res.ok n := e
    have e1' : changeNumStages n (resetDefects { (Buf.empty dt : Buf X U F R) with dt := dt })
        = Res.ok b1 := e1
    rw [e', Res.ok_bind, e1', Res.ok_bind]
    rfl
  · have h3 := run_inv hdt cs _ _ h2 hc
    exact ⟨h3.stages, h3.fits, h3.stamps⟩

/-- C60 (guesses): a guess is rejected, and nothing changes, exactly if it is too short in states,
controls or gains; an accepted one is truncated to the horizon. -/
theorem C60_guess (g : Guess X U F) (b : Buf X U F R) (hK : 1 ≤ b.K) :
    (setInitialGuess g b = Res.exc ↔
      g.x.length < b.K + 1 ∨ g.u.length < b.K ∨ g.L.length < b.K) ∧
    (¬ (g.x.length < b.K + 1 ∨ g.u.length < b.K ∨ g.L.length < b.K) →
      ∃ b', setInitialGuess g b = Res.ok b' ∧ b'.x = (g.x.take (b.K + 1)).map some ∧
        b'.u = (g.u.take b.K).map some ∧ b'.L = (g.L.take b.K).map some ∧ b'.K = b.K ∧
        b'.initialized = true ∧ Stamps b.dt b.K b'.t) := by
  have key : ¬ (g.x.length < b.K + 1 ∨ g.u.length < b.K ∨ g.L.length < b.K) →
      ∃ b', setInitialGuess g b = Res.ok b' ∧ b'.x = (g.x.take (b.K + 1)).map some ∧
        b'.u = (g.u.take b.K).map some ∧ b'.L = (g.L.take b.K).map some ∧ b'.K = b.K ∧
        b'.initialized = true ∧ Stamps b.dt b.K b'.t := by
    intro h
    push Not at h
    obtain ⟨h1, h2, h3⟩ := h
    have hl : (cut (g.x.map some) (b.K + 1)).length = b.K + 1 := cut_length _ _ (by simpa using h1)
    obtain ⟨t, e, ht⟩ := timeArray_ok b.dt b.K hK
    unfold setInitialGuess
    rw [if_neg (by omega), if_neg (by omega), if_neg (by omega)]
    simp only [hl, e, Res.ok_bind]
    refine ⟨_, rfl, ?_, ?_, ?_, rfl, rfl, ht⟩
    · simp only [resetDefects]
      rw [cut_eq _ _ (by simpa using h1), List.map_take]
    · simp only [resetDefects]
      rw [cut_eq _ _ (by simpa using h2), List.map_take]
    · simp only [resetDefects]
      rw [cut_eq _ _ (by simpa using h3), List.map_take]
  refine ⟨?_, key⟩
  constructor
  · intro h
    by_contra hn
    obtain ⟨b', e, -⟩ := key hn
    rw [h] at e
    simp at e
  · intro h
    unfold setInitialGuess
    by_cases h1 : g.x.length < b.K + 1
    · rw [if_pos h1]
    by_cases h2 : g.u.length < b.K
    · rw [if_neg h1, if_pos h2]
    · rw [if_neg h1, if_neg h2, if_pos (by tauto)]

private theorem okAnd {α : Type} {r : Res α} {P : α → Prop} [DecidablePred P]
    (h : (match r with | .ok v => decide (P v) | _ => false) = true) :
    ∃ v, r = Res.ok v ∧ P v := by
  cases r with
  | ok v => exact ⟨v, rfl, by simpa using h⟩
  | exc => simp at h
  | ub => simp at h

/-- The guess of the example below. -/
def exGuess : Guess ℚ ℚ ℚ := { x := [1, 2, 3, 4, 5, 6], u := [1, 2, 3, 4, 5], L := [1, 2, 3, 4] }

/-- The calls of the example below: a shorter horizon, a rejected one, a guess that is truncated, one
that is rejected. -/
def exCalls : List (Call ℚ ℚ ℚ ℚ) :=
  [.horizon (3 / 10), .horizon (-1), .guess exGuess, .guess { x := [1], u := [], L := [] }]

example : NoConfigure exCalls := by intro d; simp [exCalls]

/-- A history with a rejected horizon and a truncated guess. -/
example : ∃ b0 : Buf ℚ ℚ ℚ ℚ, construct (1 / 10 : ℚ) (1 / 2) 7 = Res.ok b0 ∧
    ((runCalls exCalls b0).x = [some 1, some 2, some 3, some 4] ∧ (runCalls exCalls b0).K = 3) :=
  okAnd (by decide +kernel)

/-! ### C84: time stamps after a change of the settings -/

/-- C84 (what holds): after any history, `configure` included, a call of `setInitialGuess` that is
accepted sets the time stamps to multiples of the configured step.

Missing: after `configure` and `changeTimeHorizon` alone the stamps can be those of the old step,
and `configure` does not change the number of stages (`C84_violated_stale_stamps`,
`C84_violated_stages`). -/
theorem C84_stamps_partial (b : Buf X U F R) (hK : 1 ≤ b.K) (g : Guess X U F) (b' : Buf X U F R)
    (h : setInitialGuess g b = Res.ok b') : Stamps b'.dt b'.K b'.t := by
  by_cases hs : g.x.length < b.K + 1 ∨ g.u.length < b.K ∨ g.L.length < b.K
  · rw [(C60_guess g b hK).1.2 hs] at h
    simp at h
  · have hl : (cut (g.x.map some) (b.K + 1)).length = b.K + 1 :=
      cut_length _ _ (by simp; omega)
    obtain ⟨t, e, ht⟩ := timeArray_ok b.dt b.K hK
    unfold setInitialGuess at h
    rw [if_neg (by omega), if_neg (by omega), if_neg (by omega)] at h
    simp only [hl, e, Res.ok_bind, Res.pure_eq, Res.ok.injEq] at h
    subst h
    exact ht

/-- C84 violated: whenever the new step and horizon give the same number of stages, the time stamps
stay those of the old step. -/
theorem C84_violated_stale_stamps (b : Buf X U F R) (dt dt' T' : R) (hdt' : 0 < dt')
    (hne : dt' ≠ dt) (hT' : 0 ≤ T') (hK : 1 ≤ b.K) (hst : Stamps dt b.K b.t)
    (hs : IsStages dt' T' b.K) :
    ∃ b', (configure dt' b >>= changeTimeHorizon T') = Res.ok b' ∧ b'.dt = dt' ∧ b'.K = b.K ∧
      ¬ Stamps b'.dt b'.K b'.t := by
  obtain ⟨n, e, hn, hs'⟩ := computeK_ok hdt' hT'
  have hnK : n = b.K := hs'.unique hs
  refine ⟨resetDefects { b with dt := dt' }, ?_, rfl, rfl, ?_⟩
  · unfold configure changeTimeHorizon
    rw [if_neg (not_le.2 hdt'), Res.ok_bind, if_neg (not_lt.2 hT')]
    have e' : computeK (resetDefects { b with dt := dt' }).dt T' = Res.ok n := e
    rw [e', Res.ok_bind]
    unfold changeNumStages
    rw [if_pos]
    exact hnK
  · intro h
    have a : b.t.getD 1 0 = ((1 : ℕ) : R) * dt' := h.2 1 hK
    have c := hst.2 1 hK
    rw [c] at a
    simp only [Nat.cast_one, one_mul] at a
    exact hne a.symm

/-- C84 violated: `configure` with another step keeps the number of stages, so the horizon the solver
works on, `getTimeHorizon()`, is no longer the one that was set: here 10 instead of 1. -/
theorem C84_violated_stages : ∃ b0 b1 : Buf ℚ ℚ ℚ ℚ, construct (1 / 10 : ℚ) 1 0 = Res.ok b0 ∧
    getTimeHorizon b0 = 1 ∧ configure 1 b0 = Res.ok b1 ∧ getTimeHorizon b1 = 10 ∧
    ¬ IsStages b1.dt 1 b1.K := by
  obtain ⟨b0, e0, h0, b1, e1, h1, h2, h3⟩ : ∃ b0 : Buf ℚ ℚ ℚ ℚ, construct (1 / 10 : ℚ) 1 0 = Res.ok b0 ∧
      getTimeHorizon b0 = 1 ∧ ∃ b1, configure 1 b0 = Res.ok b1 ∧ getTimeHorizon b1 = 10 ∧
        b1.dt = 1 ∧ b1.K = 10 := by
    obtain ⟨b0, e0, h0, hK⟩ : ∃ b0 : Buf ℚ ℚ ℚ ℚ, construct (1 / 10 : ℚ) 1 0 = Res.ok b0 ∧
      (getTimeHorizon b0 = 1 ∧ b0.K = 10) := okAnd (by decide +kernel)
    refine ⟨b0, e0, h0, resetDefects { b0 with dt := 1 }, ?_, ?_, rfl, hK⟩
    · unfold configure
      rw [if_neg (by norm_num)]
    · simp [getTimeHorizon, resetDefects, hK]
  refine ⟨b0, b1, e0, h0, e1, h1, ?_⟩
  rw [h2, h3]
  intro h
  have h4 : IsStages (1 : ℚ) 1 1 := ⟨1, by norm_num, by norm_num, rfl⟩
  have h5 := IsStages.unique (m := 10) (n := 1) h h4
  omega

end CT.Nloc
