import Verif.Model.Integration
import Mathlib.Tactic.Ring
import Mathlib.Tactic.FieldSimp
import Mathlib.Tactic.Linarith
import Mathlib.Tactic.Module
import Mathlib.Tactic.NormNum
import Mathlib.Data.Matrix.Mul
import Mathlib.Algebra.BigOperators.Fin
import Mathlib.Algebra.BigOperators.Intervals
import Mathlib.Algebra.Order.Ring.Rat
import Mathlib.LinearAlgebra.Matrix.Notation

/-! # Properties C15, C16, C17: fixed-step integration -/

namespace CT.Integration

variable {K V : Type} [Field K] [AddCommGroup V] [Module K V]

/-- Specification: the states of the exact discrete recursion on the grid `t₀ + k dt`. -/
def gridState (step : V → K → K → V) (x : V) (t₀ dt : K) : Nat → V
  | 0 => x
  | k + 1 => step (gridState step x t₀ dt k) (t₀ + k * dt) dt

omit [AddCommGroup V] [Module K V] in
theorem nSteps_succ' (step : V → K → K → V) (x : V) (t dt : K) (n : Nat) :
    nSteps step x t dt (n + 1) =
      (step (nSteps step x t dt n).1 (nSteps step x t dt n).2 dt, (nSteps step x t dt n).2 + dt) := by
  induction n generalizing x t with
  | zero => rfl
  | succ n ih => rw [nSteps, ih]; rfl

omit [AddCommGroup V] [Module K V] in
/-- C15, no recording: `n` steps apply the one-step method `n` times at times `t₀ + k dt`, ending at
`t₀ + n dt`. -/
theorem C15_n_steps_on_grid (step : V → K → K → V) (x : V) (t₀ dt : K) (n : Nat) :
    nSteps step x t₀ dt n = (gridState step x t₀ dt n, t₀ + n * dt) := by
  induction n with
  | zero => simp [nSteps, gridState]
  | succ n ih =>
      rw [nSteps_succ', ih]
      simp only [gridState, Prod.mk.injEq, true_and]
      push_cast; ring

omit [AddCommGroup V] [Module K V] in
/-- C15, splitting: integrating `n` steps and then `m` further steps from the reached state and
time equals integrating `n + m` steps. -/
theorem C15_n_steps_compose (step : V → K → K → V) (x : V) (t₀ dt : K) (n m : Nat) :
    nSteps step (nSteps step x t₀ dt n).1 (nSteps step x t₀ dt n).2 dt m =
      nSteps step x t₀ dt (n + m) := by
  induction n generalizing x t₀ with
  | zero => simp [nSteps]
  | succ n ih =>
      rw [show n + 1 + m = (n + m) + 1 by ring]
      simp only [nSteps]
      exact ih _ _

/-! ## Handlers -/

/-- Specification: number of steps a list of handlers lets pass (`none`: any number), looking at
limits only. -/
def firesAt (ext : Nat → Bool) (hs : List Handler) (i : Nat) : Prop :=
  (∃ l c, Handler.maxSteps l c ∈ hs ∧ l ≤ i) ∨ ((∃ b, Handler.kill b ∈ hs) ∧ ∃ j ≤ i, ext j = true)

/-- Handlers after `i` uneventful observations following a reset. -/
def Handler.at (ext : Nat → Bool) (i : Nat) : Handler → Handler
  | .maxSteps l _ => .maxSteps l i
  | .kill _ => .kill (decide (∃ j < i, ext j = true))

theorem observe_ok_iff (hs : List Handler) :
    (∀ h ∈ hs, (h.check).1 = false) → observe hs = .ok (hs.map fun h => h.check.2) := by
  induction hs with
  | nil => intro _; rfl
  | cons h hs ih =>
      intro hh
      have h1 := hh h List.mem_cons_self
      have h2 := ih (fun h' hm => hh h' (List.mem_cons_of_mem _ hm))
      simp [observe, h1, h2]

theorem observe_exc (hs : List Handler) (h : ∃ h ∈ hs, (h.check).1 = true) : observe hs = .exc := by
  induction hs with
  | nil => simp at h
  | cons a hs ih =>
      by_cases ha : (a.check).1 = true
      · simp [observe, ha]
      · obtain ⟨h, hm, hc⟩ := h
        rcases List.mem_cons.1 hm with rfl | hm
        · exact absurd hc ha
        · simp [observe, ha, ih ⟨h, hm, hc⟩]

/-- One observation, in terms of the specification `firesAt`. -/
theorem observe_at (ext : Nat → Bool) (hs : List Handler) (i : Nat)
    (hs1 : List Handler)
    (h1 : hs1 = if ext i then (hs.map (Handler.at ext i)).map Handler.set
      else hs.map (Handler.at ext i)) :
    (firesAt ext hs i → observe hs1 = .exc) ∧
    (¬ firesAt ext hs i → observe hs1 = .ok (hs.map (Handler.at ext (i + 1)))) := by
  have key : ∀ h ∈ hs, ∀ h', h' = (if ext i then (h.at ext i).set else h.at ext i) →
      h'.check.2 = h.at ext (i + 1) ∧
      (h'.check.1 = true ↔ (∃ l c, h = .maxSteps l c ∧ l ≤ i) ∨
        ((∃ b, h = .kill b) ∧ ∃ j ≤ i, ext j = true)) := by
    rintro h - h' rfl
    cases h with
    | maxSteps l c =>
        cases he : ext i <;>
          simp [Handler.at, Handler.set, Handler.check, Nat.lt_succ_iff]
    | kill b =>
        have e : (∃ j ≤ i, ext j = true) ↔ (∃ j < i, ext j = true) ∨ ext i = true := by
          constructor
          · rintro ⟨j, hj, hx⟩
            rcases Nat.lt_or_eq_of_le hj with h | rfl
            · exact Or.inl ⟨j, h, hx⟩
            · exact Or.inr hx
          · rintro (⟨j, hj, hx⟩ | hx)
            · exact ⟨j, hj.le, hx⟩
            · exact ⟨i, le_refl _, hx⟩
        cases he : ext i
        · simp only [Handler.at, Handler.check, Bool.false_eq_true, if_false, Nat.lt_succ_iff]
          simp [e, he]
        · simp only [Handler.at, Handler.set, Handler.check, if_true, Nat.lt_succ_iff]
          simp [e, he]
  have hs1' : hs1 = hs.map (fun h => if ext i then (h.at ext i).set else h.at ext i) := by
    rw [h1]; cases ext i <;> simp [List.map_map]
  constructor
  · intro hf
    apply observe_exc
    rcases hf with ⟨l, c, hm, hl⟩ | ⟨⟨b, hm⟩, hx⟩
    · refine ⟨_, by rw [hs1']; exact List.mem_map_of_mem hm, ?_⟩
      exact ((key _ hm _ rfl).2).2 (Or.inl ⟨l, c, rfl, hl⟩)
    · refine ⟨_, by rw [hs1']; exact List.mem_map_of_mem hm, ?_⟩
      exact ((key _ hm _ rfl).2).2 (Or.inr ⟨⟨b, rfl⟩, hx⟩)
  · intro hf
    rw [observe_ok_iff]
    · congr 1
      rw [hs1', List.map_map]
      apply List.map_congr_left
      intro h hm
      exact (key h hm _ rfl).1
    · intro h' hm'
      rw [hs1'] at hm'
      obtain ⟨h, hm, rfl⟩ := List.mem_map.1 hm'
      by_contra hc
      rw [Bool.not_eq_false] at hc
      rcases ((key h hm _ rfl).2).1 hc with ⟨l, c, rfl, hl⟩ | ⟨⟨b, rfl⟩, hx⟩
      · exact hf (Or.inl ⟨l, c, hm, hl⟩)
      · exact hf (Or.inr ⟨⟨b, hm⟩, hx⟩)

omit [AddCommGroup V] [Module K V] in
theorem observed_spec (step : V → K → K → V) (dt : K) (ext : Nat → Bool) (hs : List Handler)
    (x₀ : V) (t₀ : K) (n i : Nat) (log : List (V × K))
    (hlog : log = (List.range i).map (fun k =>
      (gridState step x₀ t₀ dt (k + 1), t₀ + ((k + 1 : Nat) : K) * dt))) (r : Obs K V)
    (hr : r = observed step dt ext n i (gridState step x₀ t₀ dt i) (t₀ + i * dt) log
      (hs.map (Handler.at ext i))) :
    ((∀ j, i ≤ j → j < i + n → ¬ firesAt ext hs j) → r.outcome = .ok () ∧
      r.state = gridState step x₀ t₀ dt (i + n) ∧
      r.log = (List.range (i + n)).map (fun k =>
        (gridState step x₀ t₀ dt (k + 1), t₀ + ((k + 1 : Nat) : K) * dt))) ∧
    (∀ j, i ≤ j → j < i + n → firesAt ext hs j → (∀ l, i ≤ l → l < j → ¬ firesAt ext hs l) →
      r.outcome = .exc ∧ r.state = gridState step x₀ t₀ dt (j + 1) ∧
      r.log = (List.range (j + 1)).map (fun k =>
        (gridState step x₀ t₀ dt (k + 1), t₀ + ((k + 1 : Nat) : K) * dt))) := by
  induction n generalizing i log r with
  | zero =>
      subst hr
      constructor
      · intro _; exact ⟨rfl, rfl, hlog⟩
      · intro j h1 h2; omega
  | succ n ih =>
      have hgrid : step (gridState step x₀ t₀ dt i) (t₀ + i * dt) dt =
          gridState step x₀ t₀ dt (i + 1) := rfl
      have htime : t₀ + (i : K) * dt + dt = t₀ + ((i + 1 : Nat) : K) * dt := by push_cast; ring
      have hlog' : log ++ [(gridState step x₀ t₀ dt (i + 1), t₀ + ((i + 1 : Nat) : K) * dt)] =
          (List.range (i + 1)).map (fun k =>
            (gridState step x₀ t₀ dt (k + 1), t₀ + ((k + 1 : Nat) : K) * dt)) := by
        rw [List.range_succ, List.map_append, hlog]; rfl
      obtain ⟨hfire, hno⟩ := observe_at ext hs i _ rfl
      simp only [observed, hgrid, htime, hlog'] at hr
      by_cases hf : firesAt ext hs i
      · rw [hfire hf] at hr
        subst hr
        constructor
        · intro h; exact absurd hf (h i (le_refl _) (by omega))
        · intro j h1 h2 h3 h4
          have : j = i := by
            by_contra hne
            exact h4 i (le_refl _) (by omega) hf
          subst this
          exact ⟨rfl, rfl, rfl⟩
      · rw [hno hf] at hr
        obtain ⟨ih1, ih2⟩ := ih (i + 1) _ rfl r hr
        constructor
        · intro h
          have := ih1 (fun j h1 h2 => h j (by omega) (by omega))
          rw [show i + (n + 1) = i + 1 + n by ring]
          exact this
        · intro j h1 h2 h3 h4
          have hne : j ≠ i := by rintro rfl; exact hf h3
          exact ih2 j (by omega) (by omega) h3 (fun l h5 h6 => h4 l (by omega) h6)

omit [AddCommGroup V] [Module K V] in
theorem integrate_spec (step : V → K → K → V) (hs : List Handler) (ext : Nat → Bool) (x : V)
    (t₀ : K) (n : Nat) (dt : K) :
    ((∀ j < n, ¬ firesAt ext hs j) → (integrateNSteps step hs ext x t₀ n dt).outcome = .ok () ∧
      (integrateNSteps step hs ext x t₀ n dt).state = gridState step x t₀ dt n ∧
      (integrateNSteps step hs ext x t₀ n dt).log = (List.range n).map (fun k =>
        (gridState step x t₀ dt (k + 1), t₀ + ((k + 1 : Nat) : K) * dt))) ∧
    (∀ j < n, firesAt ext hs j → (∀ l < j, ¬ firesAt ext hs l) →
      (integrateNSteps step hs ext x t₀ n dt).outcome = .exc ∧
      (integrateNSteps step hs ext x t₀ n dt).state = gridState step x t₀ dt (j + 1) ∧
      (integrateNSteps step hs ext x t₀ n dt).log = (List.range (j + 1)).map (fun k =>
        (gridState step x t₀ dt (k + 1), t₀ + ((k + 1 : Nat) : K) * dt))) := by
  have h0 : hs.map Handler.reset = hs.map (Handler.at ext 0) := by
    apply List.map_congr_left
    intro h _
    cases h <;> simp [Handler.reset, Handler.at]
  have := observed_spec step dt ext hs x t₀ n 0 [] (by simp)
    (integrateNSteps step hs ext x t₀ n dt)
    (by simp [integrateNSteps, h0, gridState])
  simp only [Nat.zero_add, Nat.zero_le, true_imp_iff] at this
  exact ⟨fun h => this.1 (fun j hj => h j hj), fun j hj hf hn => this.2 j hj hf (fun l hl => hn l hl)⟩

omit [AddCommGroup V] [Module K V] in
/-- C15 (partial), recording: when no handler interrupts, the recorded trajectory consists of the
states after steps `1, ..., n` on the grid `t₀ + k dt`, the last one being the returned state.

Missing for the full statement: the initial state is not recorded, see `C15_violated`. -/
theorem C15_recorded_trajectory_partial (step : V → K → K → V) (ext : Nat → Bool) (x : V)
    (t₀ : K) (n : Nat) (dt : K) (r : Obs K V) (hr : r = integrateNSteps step [] ext x t₀ n dt) :
    r.outcome = .ok () ∧ r.state = gridState step x t₀ dt n ∧ r.log.length = n ∧
    (∀ k (h : k < r.log.length),
      r.log[k] = (gridState step x t₀ dt (k + 1), t₀ + ((k + 1 : Nat) : K) * dt)) ∧
    (0 < n → r.log.getLast? = some (r.state, t₀ + n * dt)) := by
  subst hr
  obtain ⟨h1, h2, h3⟩ := (integrate_spec step [] ext x t₀ n dt).1 (by simp [firesAt])
  refine ⟨h1, h2, by simp [h3], ?_, ?_⟩
  · intro k h; simp [h3]
  · intro hn
    obtain ⟨m, rfl⟩ : ∃ m, n = m + 1 := ⟨n - 1, by omega⟩
    simp [h3, h2, List.range_succ]

omit [AddCommGroup V] [Module K V] in
/-- C15 is violated by the recording of the built-in steppers: for every integration the recorded
trajectory has `n`, not `n + 1`, entries; it never starts with the initial state at the initial
time (for `dt ≠ 0`). -/
theorem C15_violated [CharZero K] (step : V → K → K → V) (ext : Nat → Bool) (x : V)
    (t₀ : K) (n : Nat) (dt : K) (hdt : dt ≠ 0) :
    (integrateNSteps step [] ext x t₀ n dt).log.length ≠ n + 1 ∧
    (integrateNSteps step [] ext x t₀ n dt).log.head? ≠ some (x, t₀) := by
  obtain ⟨_, _, h3, h4, _⟩ := C15_recorded_trajectory_partial step ext x t₀ n dt _ rfl
  refine ⟨by omega, ?_⟩
  intro h
  rw [List.head?_eq_getElem?] at h
  obtain ⟨hlt, hv⟩ := List.getElem?_eq_some_iff.1 h
  rw [h4 0 hlt, Prod.mk.injEq] at hv
  simp at hv
  exact hdt hv.2

example : (integrateNSteps (eulerStep (K := ℚ) (V := ℚ) (fun x _ => x)) [] (fun _ => false) 1 0 2 1).log
    = [(2, 1), (4, 2)] := by decide +kernel

/-! ## C17 -/

omit [AddCommGroup V] [Module K V] in
/-- C17, step limit: with a step limit `M` (whatever its counter was before) an integration of `n`
steps completes if and only if `n ≤ M`; otherwise it throws after step `M + 1`, leaving the
caller with the state after that step. -/
theorem C17_max_steps (step : V → K → K → V) (M taken : Nat) (ext : Nat → Bool) (x : V) (t₀ : K)
    (n : Nat) (dt : K) (r : Obs K V)
    (hr : r = integrateNSteps step [.maxSteps M taken] ext x t₀ n dt) :
    (n ≤ M → r.outcome = .ok () ∧ r.state = gridState step x t₀ dt n ∧ r.log.length = n) ∧
    (M < n → r.outcome = .exc ∧ r.state = gridState step x t₀ dt (M + 1) ∧
      r.log.length = M + 1) := by
  subst hr
  have hf : ∀ j, firesAt ext [.maxSteps M taken] j ↔ M ≤ j := by
    intro j; simp [firesAt]
  obtain ⟨h1, h2⟩ := integrate_spec step [.maxSteps M taken] ext x t₀ n dt
  constructor
  · intro h
    obtain ⟨a, b, c⟩ := h1 (fun j hj => by rw [hf]; omega)
    exact ⟨a, b, by simp [c]⟩
  · intro h
    obtain ⟨a, b, c⟩ := h2 M h ((hf M).2 (le_refl _)) (fun l hl => by rw [hf]; omega)
    exact ⟨a, b, by simp [c]⟩

omit [AddCommGroup V] [Module K V] in
/-- C17, kill switch: when the kill event is set for the first time during step `k < n`, the
integration throws at the observation of that step, no later step is taken or observed; when it is
not set during the integration, all `n` steps are completed – also if the event had been set
before the integration started (the flag is cleared at the start). -/
theorem C17_kill (step : V → K → K → V) (b : Bool) (ext : Nat → Bool) (x : V) (t₀ : K)
    (n : Nat) (dt : K) (r : Obs K V) (hr : r = integrateNSteps step [.kill b] ext x t₀ n dt) :
    (∀ k < n, ext k = true → (∀ j < k, ext j = false) →
      r.outcome = .exc ∧ r.state = gridState step x t₀ dt (k + 1) ∧ r.log.length = k + 1) ∧
    ((∀ k < n, ext k = false) →
      r.outcome = .ok () ∧ r.state = gridState step x t₀ dt n ∧ r.log.length = n) := by
  subst hr
  have hf : ∀ j, firesAt ext [.kill b] j ↔ ∃ l ≤ j, ext l = true := by
    intro j; simp [firesAt]
  obtain ⟨h1, h2⟩ := integrate_spec step [.kill b] ext x t₀ n dt
  constructor
  · intro k hk he hfirst
    obtain ⟨a, b, c⟩ := h2 k hk ((hf k).2 ⟨k, le_refl _, he⟩) (fun l hl => by
      rw [hf]; rintro ⟨j, hj, hx⟩
      rw [hfirst j (by omega)] at hx; cases hx)
    exact ⟨a, b, by simp [c]⟩
  · intro h
    obtain ⟨a, b, c⟩ := h1 (fun j hj => by
      rw [hf]; rintro ⟨l, hl, hx⟩
      rw [h l (by omega)] at hx; cases hx)
    exact ⟨a, b, by simp [c]⟩

omit [AddCommGroup V] [Module K V] in
/-- C17, several handlers: an integration with any list of handlers completes exactly when no step
limit is below `n` and, if there is a kill handler, no kill event occurs in the first `n` steps. -/
theorem C17_completes_iff (step : V → K → K → V) (hs : List Handler) (ext : Nat → Bool) (x : V)
    (t₀ : K) (n : Nat) (dt : K) :
    (integrateNSteps step hs ext x t₀ n dt).outcome = .ok () ↔
      (∀ l c, Handler.maxSteps l c ∈ hs → n ≤ l) ∧
      (∀ b, Handler.kill b ∈ hs → ∀ k < n, ext k = false) := by
  obtain ⟨h1, h2⟩ := integrate_spec step hs ext x t₀ n dt
  constructor
  · intro h
    by_contra hc
    have hex : ∃ j < n, firesAt ext hs j := by
      rw [not_and_or] at hc
      rcases hc with hc | hc
      · push Not at hc
        obtain ⟨l, c, hm, hl⟩ := hc
        exact ⟨l, hl, Or.inl ⟨l, c, hm, le_refl _⟩⟩
      · push Not at hc
        obtain ⟨b, hm, k, hk, he⟩ := hc
        exact ⟨k, hk, Or.inr ⟨⟨b, hm⟩, k, le_refl _, by simpa using he⟩⟩
    classical
    have hmin := Nat.find_spec hex
    have := (h2 (Nat.find hex) hmin.1 hmin.2 (fun l hl hfl =>
      Nat.find_min hex hl ⟨hl.trans hmin.1, hfl⟩)).1
    rw [this] at h; cases h
  · rintro ⟨ha, hb⟩
    refine (h1 ?_).1
    rintro j hj (⟨l, c, hm, hl⟩ | ⟨⟨b, hm⟩, k, hk, he⟩)
    · have := ha l c hm; omega
    · rw [hb b hm k (by omega)] at he; cases he

example : (integrateNSteps (eulerStep (K := ℚ) (V := ℚ) (fun x _ => x)) [.maxSteps 2 7, .kill true]
    (fun i => i == 5) 1 0 2 1).outcome = .ok () := by decide +kernel

/-! ## C16 -/

/-- C16, Euler: one step is `x + dt f(x,t)`, and on a linear system `n` steps multiply the state by
`(1 + dt A)^n`. -/
theorem C16_euler {d : Nat} (A : Matrix (Fin d) (Fin d) K) (x : Fin d → K) (t dt : K) (n : Nat)
    (f : V → K → V) (y : V) :
    eulerStep f y t dt = y + dt • f y t ∧
    (nSteps (eulerStep (fun x _ => A.mulVec x)) x t dt n).1 = ((1 + dt • A) ^ n).mulVec x := by
  refine ⟨rfl, ?_⟩
  induction n generalizing x t with
  | zero => simp [nSteps]
  | succ n ih =>
      rw [nSteps, ih, pow_succ, ← Matrix.mulVec_mulVec]
      simp [eulerStep, Matrix.add_mulVec, Matrix.smul_mulVec]

variable [CharZero K]

/-- C16, RK4 on time polynomials: for every right-hand side `c₀ + c₁ t + c₂ t² + c₃ t³` one step adds
the exact integral of the polynomial over the step. -/
theorem C16_rk4_polynomial (c : Fin 4 → V) (x : V) (t dt : K) :
    rk4Step (fun _ t => ∑ j : Fin 4, t ^ (j : ℕ) • c j) x t dt =
      x + ∑ j : Fin 4, (((t + dt) ^ ((j : ℕ) + 1) - t ^ ((j : ℕ) + 1)) / ((j : ℕ) + 1 : K)) • c j := by
  simp only [rk4Step, Fin.sum_univ_four]
  simp only [Fin.val_zero, Fin.val_one, Fin.val_two, show ((3 : Fin 4) : ℕ) = 3 from rfl]
  match_scalars <;> field_simp <;> ring

/-- C16, RK4 on linear systems: one step multiplies the state by the fourth-order Taylor polynomial
of `exp(dt A)`, and `n` steps by its `n`-th power. -/
theorem C16_rk4_linear {d : Nat} (A : Matrix (Fin d) (Fin d) K) (x : Fin d → K) (t dt : K)
    (n : Nat) (P : Matrix (Fin d) (Fin d) K)
    (hP : P = ∑ j ∈ Finset.range 5, (dt ^ j / (Nat.factorial j : K)) • A ^ j) :
    rk4Step (fun x _ => A.mulVec x) x t dt = P.mulVec x ∧
    (nSteps (rk4Step (fun x _ => A.mulVec x)) x t dt n).1 = (P ^ n).mulVec x := by
  have one : ∀ (x : Fin d → K) (t : K), rk4Step (fun x _ => A.mulVec x) x t dt = P.mulVec x := by
    intro x t
    have e2 : (A ^ 2).mulVec x = A.mulVec (A.mulVec x) := by
      rw [pow_two, ← Matrix.mulVec_mulVec]
    have e3 : (A ^ 3).mulVec x = A.mulVec (A.mulVec (A.mulVec x)) := by
      rw [pow_succ', ← Matrix.mulVec_mulVec, e2]
    have e4 : (A ^ 4).mulVec x = A.mulVec (A.mulVec (A.mulVec (A.mulVec x))) := by
      rw [pow_succ', ← Matrix.mulVec_mulVec, e3]
    rw [hP]
    simp only [rk4Step, Finset.sum_range_succ, Finset.sum_range_zero, Matrix.add_mulVec,
      Matrix.smul_mulVec, Matrix.zero_mulVec, Matrix.mulVec_add, Matrix.mulVec_smul, e2, e3, e4,
      pow_zero, pow_one, Matrix.one_mulVec, Nat.factorial]
    push_cast
    match_scalars <;> field_simp <;> ring
  refine ⟨one x t, ?_⟩
  induction n generalizing x t with
  | zero => simp [nSteps]
  | succ n ih =>
      rw [nSteps, ih, one, pow_succ, ← Matrix.mulVec_mulVec]

/-- A cubic right-hand side integrated over one unit step: `∫₀¹ 4 t³ dt = 1`. -/
example : rk4Step (K := ℚ) (V := ℚ) (fun _ t => 4 * t ^ 3) 0 0 1 = 1 := by decide +kernel

end CT.Integration
