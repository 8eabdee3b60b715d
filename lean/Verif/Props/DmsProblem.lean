import Verif.Model.DmsProblem
import Verif.Props.DmsVector
import Verif.Props.DmsGrid
import Mathlib.Tactic.Linarith
import Mathlib.Tactic.FieldSimp
import Mathlib.Data.Rat.Floor

/-! # C52: changing initial state and horizon of a multiple-shooting problem -/

namespace CT.Dms

variable {K : Type} [Field K] [LinearOrder K] [IsStrictOrderedRing K] [FloorSemiring K]

/-! ### Specification -/

/-- What a user (or the NLP solver, for `vars`) does with a solver after constructing it. -/
inductive SolverOp (K : Type) where
  | horizon (tf : K)
  | init (x0 : List K)
  | config (s : DmsSettings K)
  | vars (x : List K)

/-- One call. -/
def SolverOp.run (s : DmsSolver K) : SolverOp K → Res (DmsSolver K)
  | .horizon tf => .ok (s.changeTimeHorizon tf)
  | .init x0 => s.changeInitialState x0
  | .config c => s.configure c
  | .vars x => .ok (s.setVars x)

/-- All calls. -/
def runOps : DmsSolver K → List (SolverOp K) → Res (DmsSolver K)
  | s, [] => .ok s
  | s, o :: os => do
    let s' ← o.run s
    runOps s' os

/-- The interval `[0, T]` is covered by `N` shots up to a gap or overlap of `tol` at the end of each shot. -/
def Covers (shots : List (ShotTime K)) (dt : K) (N : ℕ) (T tol : K) : Prop :=
  shots.length = N ∧ ∀ i (h : i < shots.length),
    (shots[i].interval dt).1 = (i : K) * (T / N) ∧ |(shots[i].interval dt).2 - ((i + 1 : ℕ) : K) * (T / N)| ≤ tol

/-- Calls with vectors of the right size: `n` states, decision vectors of length `len`. -/
def SolverOp.Valid (n len : ℕ) : SolverOp K → Prop
  | .init x0 => x0.length = n
  | .vars x => x.length = len
  | _ => True

/-- Horizon last requested. -/
def lastHorizon : K → List (SolverOp K) → K
  | tf, [] => tf
  | _, .horizon tf :: os => lastHorizon tf os
  | tf, _ :: os => lastHorizon tf os

/-! ### Construction -/

theorem countSteps_spec (a b dt : K) (hdt : 0 < dt) (hab : a ≤ b) :
    ∃ n : ℕ, countSteps a b dt = .ok n ∧ |a + n * dt - b| ≤ dt / 2 ∧ ∀ k : ℕ, b - a = k * dt → n = k := by
  have hq : 0 ≤ (b - a) / dt := div_nonneg (by linarith) hdt.le
  refine ⟨⌊(b - a) / dt + 1 / 2⌋₊, ?_, ?_, ?_⟩
  · rw [countSteps, if_neg (ne_of_gt hdt)]
    simp only
    rw [if_neg (by linarith)]
  · have h1 : (⌊(b - a) / dt + 1 / 2⌋₊ : K) ≤ (b - a) / dt + 1 / 2 := Nat.floor_le (by linarith)
    have h2 : (b - a) / dt + 1 / 2 < ⌊(b - a) / dt + 1 / 2⌋₊ + 1 := Nat.lt_floor_add_one _
    have e : (b - a) / dt * dt = b - a := div_mul_cancel₀ _ (ne_of_gt hdt)
    have h3 := mul_le_mul_of_nonneg_right h1 hdt.le
    have h4 := mul_lt_mul_of_pos_right h2 hdt
    rw [add_mul, e] at h3 h4
    rw [abs_le]
    constructor <;> linarith
  · intro k hk
    rw [hk, mul_div_assoc, div_self (ne_of_gt hdt), mul_one]
    rw [Nat.floor_eq_iff (by positivity)]
    constructor <;> linarith

theorem makeShots_spec (g : TimeGrid K) (N : ℕ) (T dt : K) (hg : Uniform g N T) (hT : 0 ≤ T) (hdt : 0 < dt) (k i : ℕ)
    (hk : i + k = N) :
    ∃ shots, makeShots g dt k i = .ok shots ∧ shots.length = k ∧ ∀ j (h : j < shots.length),
      shots[j].tStart = ((i + j : ℕ) : K) * (T / N) ∧
      |shots[j].tStart + shots[j].nSteps * dt - ((i + j + 1 : ℕ) : K) * (T / N)| ≤ dt / 2 ∧
      ∀ r : ℕ, T / N = r * dt → shots[j].nSteps = r := by
  induction k generalizing i with
  | zero => exact ⟨[], rfl, rfl, fun j h => by simp at h⟩
  | succ k ih =>
    obtain ⟨shots, h1, h2, h3⟩ := ih (i + 1) (by omega)
    obtain ⟨-, -, -, ht⟩ := hg
    have hd : 0 ≤ T / (N : K) := div_nonneg hT (Nat.cast_nonneg _)
    have hab : (i : K) * (T / N) ≤ ((i + 1 : ℕ) : K) * (T / N) := by push_cast; nlinarith
    obtain ⟨n, c1, c2, c3⟩ := countSteps_spec ((i : K) * (T / N)) (((i + 1 : ℕ) : K) * (T / N)) dt hdt hab
    have e1 : g.stop i = .ok (((i + 1 : ℕ) : K) * (T / N)) := idx_eq (ht (i + 1) (by omega))
    have e2 : g.start i = .ok ((i : K) * (T / N)) := idx_eq (ht i (by omega))
    refine ⟨⟨(i : K) * (T / N), n⟩ :: shots, ?_, by simp [h2], ?_⟩
    · simp only [makeShots, e1, e2, c1, h1, Res.ok_bind, Res.pure_eq]
    · intro j hj
      cases j with
      | zero => exact ⟨by simp, by simpa using c2, fun r hr => c3 r (by push_cast; linarith)⟩
      | succ j =>
        have := h3 j (by simpa using hj)
        simp only [List.getElem_cons_succ]
        have e : i + (j + 1) = i + 1 + j := by omega
        rw [e]
        exact this

theorem new_problem (n m N : ℕ) (T dt : K) (hT : 0 ≤ T) (hdt : 0 < dt) (x0 junk : List K) :
    ∃ p, DmsProblem.new n m ⟨N, T, dt⟩ x0 junk = .ok p ∧ p.initX0 = x0 ∧ Uniform p.grid N T ∧
      p.w = OptVec.mk' n m N ((N + 1) * (n + m)) junk ∧ Covers p.shots dt N T (dt / 2) ∧
      ∀ r : ℕ, T / N = r * dt → Covers p.shots dt N T 0 := by
  obtain ⟨shots, h1, h2, h3⟩ := makeShots_spec (TimeGrid.mk' N T) N T dt (uniform_mk N T) hT hdt N 0 (by omega)
  refine ⟨⟨⟨N, T, dt⟩, TimeGrid.mk' N T, OptVec.mk' n m N ((N + 1) * (n + m)) junk, shots, x0⟩, ?_, rfl, uniform_mk N T, rfl, ⟨h2, fun i hi => ?_⟩,
    fun r hr => ⟨h2, fun i hi => ?_⟩⟩
  · simp only [DmsProblem.new, h1, Res.ok_bind, Res.pure_eq]
  · obtain ⟨a, b, -⟩ := h3 i hi
    simp only [zero_add] at a b
    exact ⟨a, b⟩
  · obtain ⟨a, -, c⟩ := h3 i hi
    simp only [zero_add] at a
    refine ⟨a, ?_⟩
    rw [ShotTime.interval]
    simp only
    rw [a, c r hr, ← hr]
    push_cast
    rw [show (i : K) * (T / N) + T / N - (i + 1) * (T / N) = 0 by ring, abs_zero]

/-- What the calls preserve: the sizes, the shots and the constraint. -/
structure Keeps (n m N : ℕ) (p0 : DmsProblem K) (s : DmsSolver K) : Prop where
  shaped : Shaped s.prob.w n m N
  x0 : s.x0.length = n
  shots : s.prob.shots = p0.shots
  init : s.prob.initX0 = p0.initX0
  grid : Uniform s.prob.grid N s.tf

theorem changeTimeHorizon_uniform (g : TimeGrid K) (N : ℕ) (T tf : K) (h : Uniform g N T) : Uniform (g.changeTimeHorizon tf) N tf := by
  have := run_uniform [GridOp.horizon tf] g N T h
  exact this

theorem init_step {n m N : ℕ} {p0 : DmsProblem K} {s : DmsSolver K} (h : Keeps n m N p0 s) (x0 : List K) (hx : x0.length = n) :
    ∃ s', s.changeInitialState x0 = .ok s' ∧ Keeps n m N p0 s' ∧ s'.tf = s.tf ∧ s'.prob.w.getOptimizedState 0 = .ok x0 := by
  obtain ⟨⟨w', h1, h2, -, h3, -, -⟩, -⟩ := C45_write h.shaped x0 hx
  refine ⟨{ s with x0 := x0, prob := { s.prob with w := w' } }, ?_, ⟨h2, hx, h.shots, h.init, h.grid⟩, rfl, h3⟩
  simp only [DmsSolver.changeInitialState, DmsProblem.changeInitialState, h1, Res.ok_bind, Res.pure_eq]

theorem config_step {n m N : ℕ} {p0 : DmsProblem K} {s : DmsSolver K} (c : DmsSettings K)
    (hs : Shaped s.prob.w n m N) (hx : s.x0.length = n) (hsh : s.prob.shots = p0.shots) (hi : s.prob.initX0 = p0.initX0)
    (T : K) (hg : Uniform s.prob.grid N T) :
    ∃ s', s.configure c = .ok s' ∧ Keeps n m N p0 s' ∧ s'.tf = s.tf ∧ s'.prob.w.getOptimizedState 0 = .ok s.x0 := by
  obtain ⟨⟨w', h1, h2, -, h3, -, -⟩, -⟩ := C45_write hs s.x0 hx
  refine ⟨{ s with prob := { settings := c, grid := s.prob.grid.changeTimeHorizon s.tf, w := w', shots := s.prob.shots, initX0 := s.prob.initX0 } },
    ?_, ⟨h2, hx, hsh, hi, changeTimeHorizon_uniform _ _ _ _ hg⟩, rfl, h3⟩
  simp only [DmsSolver.configure, DmsProblem.configure, DmsProblem.changeTimeHorizon, DmsProblem.changeInitialState, h1,
    Res.ok_bind, Res.pure_eq]

theorem step_keeps {n m N : ℕ} {p0 : DmsProblem K} {s : DmsSolver K} (h : Keeps n m N p0 s) (o : SolverOp K)
    (ho : o.Valid n ((N + 1) * (n + m))) :
    ∃ s', o.run s = .ok s' ∧ Keeps n m N p0 s' ∧ s'.tf = lastHorizon s.tf [o] := by
  cases o with
  | horizon tf =>
    exact ⟨_, rfl, ⟨h.shaped, h.x0, h.shots, h.init, changeTimeHorizon_uniform _ _ _ _ h.grid⟩, rfl⟩
  | init x0 =>
    obtain ⟨s', h1, h2, h3, -⟩ := init_step h x0 ho
    exact ⟨s', h1, h2, h3⟩
  | config c =>
    obtain ⟨s', h1, h2, h3, -⟩ := config_step (p0 := p0) c h.shaped h.x0 h.shots h.init s.tf h.grid
    exact ⟨s', h1, h2, h3⟩
  | vars x =>
    refine ⟨_, rfl, ⟨⟨h.shaped.hn, h.shaped.hm, h.shaped.hN, h.shaped.pairs, h.shaped.sIdx, h.shaped.cIdx, ho, h.shaped.lenI⟩,
      h.x0, h.shots, h.init, h.grid⟩, rfl⟩

theorem lastHorizon_cons (tf : K) (o : SolverOp K) (os : List (SolverOp K)) :
    lastHorizon tf (o :: os) = lastHorizon (lastHorizon tf [o]) os := by
  cases o <;> rfl

theorem run_keeps {n m N : ℕ} {p0 : DmsProblem K} (ops : List (SolverOp K)) (s : DmsSolver K) (h : Keeps n m N p0 s)
    (ho : ∀ o ∈ ops, o.Valid n ((N + 1) * (n + m))) :
    ∃ s', runOps s ops = .ok s' ∧ Keeps n m N p0 s' ∧ s'.tf = lastHorizon s.tf ops := by
  induction ops generalizing s with
  | nil => exact ⟨s, rfl, h, rfl⟩
  | cons o os ih =>
    obtain ⟨s1, h1, h2, h3⟩ := step_keeps h o (ho o List.mem_cons_self)
    obtain ⟨s2, h4, h5, h6⟩ := ih s1 h2 (fun o ho' => ho o (List.mem_cons_of_mem _ ho'))
    refine ⟨s2, ?_, h5, ?_⟩
    · simp only [runOps, h1, Res.ok_bind, h4]
    · rw [h6, h3, ← lastHorizon_cons]

theorem new_keeps (n m N : ℕ) (tf T dt : K) (hT : 0 ≤ T) (hdt : 0 < dt) (x0 junk : List K) (hx : x0.length = n)
    (hj : junk.length = (N + 1) * (n + m)) :
    ∃ p0 s, DmsProblem.new n m ⟨N, T, dt⟩ x0 junk = .ok p0 ∧ DmsSolver.new n m tf x0 ⟨N, T, dt⟩ junk = .ok s ∧
      Keeps n m N p0 s ∧ s.tf = tf ∧ s.prob.w.getOptimizedState 0 = .ok x0 ∧ p0.initX0 = x0 ∧ Covers p0.shots dt N T (dt / 2) ∧
      ∀ r : ℕ, T / N = r * dt → Covers p0.shots dt N T 0 := by
  obtain ⟨p, h1, h2, h3, h4, h5, h6⟩ := new_problem n m N T dt hT hdt x0 junk
  obtain ⟨s, k1, k2, k3, k4⟩ := config_step (n := n) (m := m) (N := N) (p0 := p) (s := ⟨tf, x0, p⟩) ⟨N, T, dt⟩
    (by rw [h4]; exact mk_shaped n m N junk hj) hx rfl rfl T h3
  refine ⟨p, s, h1, ?_, k2, k3, k4, h2, h5, h6⟩
  simp only [DmsSolver.new, h1, Res.ok_bind, k1]

/-! ### The property -/

/-- **C52 (part), construction.** A solver constructed for a problem whose horizon equals the horizon in the settings
(`N` shots over `T`, simulation step `dt`) has the initial-state constraint `s_0 = x0`, holds the state `x0` at its first
node, reports the horizon `T`, and its shots cover `[0, T]`: every shot starts on its grid time and ends within half a
simulation step of the next, exactly on it if the shot duration is a multiple of the step.
Missing: changes after construction, and horizons differing from the settings, for which the property is false. -/
theorem C52_construction_partial (n m N : ℕ) (T dt : K) (hT : 0 < T) (hdt : 0 < dt) (x0 junk : List K) (hx : x0.length = n)
    (hj : junk.length = (N + 1) * (n + m)) :
    ∃ s, DmsSolver.new n m T x0 ⟨N, T, dt⟩ junk = .ok s ∧ s.prob.getTimeHorizon = T ∧ s.prob.initX0 = x0 ∧
      s.prob.w.getOptimizedState 0 = .ok x0 ∧ Covers s.prob.shots dt N T (dt / 2) ∧
      ∀ r : ℕ, T / N = r * dt → Covers s.prob.shots dt N T 0 := by
  obtain ⟨p0, s, -, h2, h3, h4, h5, h6, h7, h8⟩ := new_keeps n m N T T dt hT.le hdt x0 junk hx hj
  refine ⟨s, h2, ?_, by rw [h3.init, h6], h5, by rw [h3.shots]; exact h7, fun r hr => by rw [h3.shots]; exact h8 r hr⟩
  rw [DmsProblem.getTimeHorizon, h3.grid.2.1, h4]

/-- **C52 (part), what the calls do achieve.** After any calls, the horizon reported and the time grid are those of the
last `changeTimeHorizon`, and directly after `changeInitialState x1` the first node of the decision vector holds `x1`.
Missing: neither reaches the constraint nor the shots. -/
theorem C52_requests_partial (n m N : ℕ) (tf T dt : K) (hT : 0 < T) (hdt : 0 < dt) (x0 junk : List K) (hx : x0.length = n)
    (hj : junk.length = (N + 1) * (n + m)) (ops : List (SolverOp K)) (hv : ∀ o ∈ ops, o.Valid n ((N + 1) * (n + m)))
    (x1 : List K) (hx1 : x1.length = n) :
    ∃ s s1 s2, DmsSolver.new n m tf x0 ⟨N, T, dt⟩ junk = .ok s ∧ runOps s ops = .ok s1 ∧
      s1.changeInitialState x1 = .ok s2 ∧ s1.prob.getTimeHorizon = lastHorizon tf ops ∧
      (∀ i ≤ N, s1.prob.grid.t[i]? = some ((i : K) * (lastHorizon tf ops / N))) ∧
      s2.prob.w.getOptimizedState 0 = .ok x1 := by
  obtain ⟨p0, s, -, h2, h3, h4, -⟩ := new_keeps n m N tf T dt hT.le hdt x0 junk hx hj
  obtain ⟨s1, k1, k2, k3⟩ := run_keeps ops s h3 hv
  obtain ⟨s2, l1, -, -, l4⟩ := init_step k2 x1 hx1
  have hg := k2.grid
  rw [k3, h4] at hg
  exact ⟨s, s1, s2, h2, k1, l1, hg.2.1, hg.2.2.2, l4⟩

/-- **C52 violated, initial state.** Whatever is called after construction, the initial-state constraint demands the state
the solver was constructed with: it has zero residual exactly for decision vectors with `s_0 = x0`. In particular the
vector that `changeInitialState x1` itself just wrote violates the constraint whenever `x1 ≠ x0`. -/
theorem C52_violated_initial (n m N : ℕ) (tf T dt : K) (hT : 0 < T) (hdt : 0 < dt) (x0 junk : List K) (hx : x0.length = n)
    (hj : junk.length = (N + 1) * (n + m)) (ops : List (SolverOp K)) (hv : ∀ o ∈ ops, o.Valid n ((N + 1) * (n + m)))
    (x1 : List K) (hx1 : x1.length = n) (hne : x1 ≠ x0) :
    ∃ s s1 s2, DmsSolver.new n m tf x0 ⟨N, T, dt⟩ junk = .ok s ∧ runOps s ops = .ok s1 ∧
      (∀ v, s1.prob.w.getOptimizedState 0 = .ok v →
        (s1.prob.initConstraint = .ok (List.replicate n 0) ↔ v = x0)) ∧
      s1.changeInitialState x1 = .ok s2 ∧ ∃ r, s2.prob.initConstraint = .ok r ∧ r ≠ List.replicate n 0 := by
  obtain ⟨p0, s, -, h2, h3, -, -, h6, -⟩ := new_keeps n m N tf T dt hT.le hdt x0 junk hx hj
  obtain ⟨s1, k1, k2, -⟩ := run_keeps ops s h3 hv
  obtain ⟨s2, l1, l2, -, l4⟩ := init_step k2 x1 hx1
  have zero_iff : ∀ v : List K, v.length = n → (v.zipWith (· - ·) x0 = List.replicate n 0 ↔ v = x0) := by
    intro v hv
    constructor
    · intro e
      apply List.ext_getElem (by omega)
      intro i hi1 hi2
      have := congrArg (fun l => l[i]?) e
      simp [hi1, hi2, List.getElem?_replicate, show i < n by omega] at this
      linarith
    · rintro rfl
      apply List.ext_getElem (by simp; omega)
      intro i hi1 hi2
      simp
  refine ⟨s, s1, s2, h2, k1, fun v hv => ?_, l1, x1.zipWith (· - ·) x0, ?_, ?_⟩
  · have hlen : v.length = n := by
      simp only [OptVec.getOptimizedState, k2.shaped.stateIndex, if_pos (Nat.zero_le N), Res.ok_bind, readSeg] at hv
      split at hv
      · rename_i hle
        cases hv
        simp [k2.shaped.hn] at hle ⊢
        omega
      · cases hv
    rw [DmsProblem.initConstraint, hv, k2.init, h6]
    simp only [Res.ok_bind, Res.pure_eq, Res.ok.injEq]
    exact zero_iff v hlen
  · simp only [DmsProblem.initConstraint, l4, l2.init, h6, Res.ok_bind, Res.pure_eq]
  · intro e
    exact hne ((zero_iff x1 hx1).1 e)

/-- **C52 violated, horizon.** Whatever is called after construction, also with a horizon in the problem different from
the one in the settings, the shots integrate over `[0, T]` with the `T` of the settings given to the constructor; so if
the requested horizon differs from it by more than half a simulation step, the last shot ends elsewhere. -/
theorem C52_violated_horizon (n m N : ℕ) (hN : 1 ≤ N) (tf T dt : K) (hT : 0 < T) (hdt : 0 < dt) (x0 junk : List K) (hx : x0.length = n)
    (hj : junk.length = (N + 1) * (n + m)) (ops : List (SolverOp K)) (hv : ∀ o ∈ ops, o.Valid n ((N + 1) * (n + m))) :
    ∃ s s1, DmsSolver.new n m tf x0 ⟨N, T, dt⟩ junk = .ok s ∧ runOps s ops = .ok s1 ∧
      s1.prob.getTimeHorizon = lastHorizon tf ops ∧ Covers s1.prob.shots dt N T (dt / 2) ∧
      (dt / 2 < |lastHorizon tf ops - T| →
        ∃ sh, s1.prob.shots.getLast? = some sh ∧ (sh.interval dt).2 ≠ lastHorizon tf ops) := by
  obtain ⟨p0, s, -, h2, h3, h4, -, -, h7, -⟩ := new_keeps n m N tf T dt hT.le hdt x0 junk hx hj
  obtain ⟨s1, k1, k2, k3⟩ := run_keeps ops s h3 hv
  have hcov : Covers s1.prob.shots dt N T (dt / 2) := by rw [k2.shots]; exact h7
  refine ⟨s, s1, h2, k1, ?_, hcov, fun hfar => ?_⟩
  · have hg := k2.grid
    rw [k3, h4] at hg
    exact hg.2.1
  · obtain ⟨hl, hc⟩ := hcov
    have hlt : N - 1 < s1.prob.shots.length := by omega
    refine ⟨s1.prob.shots[N - 1], ?_, fun e => ?_⟩
    · rw [List.getLast?_eq_getElem?, hl, List.getElem?_eq_getElem hlt]
    · obtain ⟨-, hb⟩ := hc (N - 1) hlt
      rw [e, show N - 1 + 1 = N by omega, mul_div_cancel₀ _ (by positivity)] at hb
      linarith

/-! ### Concrete cases -/

/-- Two shots over `[0, 1]` with step `1/4`: two steps each; then the horizon is doubled and the initial state moved. -/
def exRun : Res (DmsSolver ℚ) := do
  let s ← DmsSolver.new 1 1 1 [5] ⟨2, 1, 1 / 4⟩ [0, 0, 0, 0, 0, 0]
  runOps s [.horizon 2, .init [7]]

example : (match exRun with
    | .ok s => some (s.prob.getTimeHorizon, s.prob.shots.map (·.interval (1 / 4)), s.prob.initX0)
    | _ => none) = some (2, [(0, 1 / 2), (1 / 2, 1)], [5]) := by decide +kernel
example : (match exRun with | .ok s => (match s.prob.initConstraint with | .ok r => r | _ => []) | _ => []) = [2] := by
  decide +kernel

end CT.Dms
