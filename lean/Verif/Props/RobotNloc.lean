import Verif.Model.RobotNloc
import Verif.Props.NlocBuffers
import Verif.Props.Actuator
import Verif.Props.RobotState

/-!
# C188: the robot front ends of the optimal control solver

`IsStages`, `Stamps` and `Fits` are the specifications of C60 (number of stages for a horizon, equally
spaced times, sizes of the solver's arrays).
-/

namespace CT.RobotNloc

open CT.Nloc CT.Actuator CT.Robot

variable {X U F R : Type} [Field R] [LinearOrder R] [IsStrictOrderedRing R] [FloorRing R] [Zero X]

/-! ### Specification -/

/-- What the front end hands out: states, controls and gains as read by the caller, and the times of the
solver. -/
structure Shows (s : Front X U F R) (x : List (Option X)) (u : List (Option U)) (L : List (Option F))
    (dt : R) (K : ℕ) : Prop where
  states : (getStateVectorArray s >>= Ref.read) = .ok x
  controls : (getControlVectorArray s >>= Ref.read) = .ok u
  gains : (getFeedbackArray s >>= Ref.read) = .ok L
  times : ∃ t, (solverTimeArray s).read = .ok t ∧ Stamps dt K t

/-! ### Lemmas -/

omit [Field R] [LinearOrder R] [IsStrictOrderedRing R] [FloorRing R] [Zero X] in
theorem shows_of [Field R] {s : Front X U F R} {K : ℕ} {dt : R} (hx : s.buf.x.length = K + 1) (hu : s.buf.u.length = K)
    (hL : s.buf.L.length = K) (ht : Stamps dt K s.buf.t) :
    Shows s s.buf.x s.buf.u s.buf.L dt K := by
  have h1 := ht.1
  have h0 : s.buf.t ≠ [] := by intro h; simp [h] at h1
  have e : getSolution s = .ok { s with pol := (s.buf.x, s.buf.u, s.buf.L, s.buf.t) } := by
    unfold getSolution
    rw [if_neg h0, if_neg (by omega), if_neg (by omega), if_neg (by omega)]
  refine ⟨?_, ?_, ?_, _, rfl, ht⟩
  · simp [getStateVectorArray, e, Res.ok_bind, Ref.read]
  · simp [getControlVectorArray, e, Res.ok_bind, Ref.read]
  · simp [getFeedbackArray, e, Res.ok_bind, Ref.read]

theorem horizon_ok (b : Buf X U F R) (T : R) (hdt : 0 < b.dt) (hT : 0 ≤ T) {K : ℕ} (hK : IsStages b.dt T K) :
    ∃ b', changeTimeHorizon T b = .ok b' ∧ b'.K = K ∧ b'.dt = b.dt ∧ 1 ≤ K ∧ (b.K < K → b'.x = resize b.x (K + 1) ∧
      b'.u = resize b.u K ∧ b'.L = resize b.L K ∧ Stamps b.dt K b'.t) ∧
      (b.x.length ≠ 0 → b'.x.length ≠ 0) := by
  obtain ⟨n, e, hn, hs⟩ := computeK_ok (dt := b.dt) (T := T) hdt hT
  obtain rfl := hs.unique hK
  unfold changeTimeHorizon
  rw [if_neg (not_lt.2 hT), e, Res.ok_bind]
  unfold changeNumStages
  by_cases he : n = b.K
  · rw [if_pos he]
    exact ⟨b, rfl, he.symm, rfl, hn, fun h => by omega, id⟩
  · rw [if_neg he, if_neg (by omega)]
    obtain ⟨t, et, ht⟩ := timeArray_ok b.dt n hn
    rw [et, Res.ok_bind]
    exact ⟨_, rfl, rfl, rfl, hn, fun _ => ⟨rfl, rfl, rfl, ht⟩, fun _ => by
      simp [resetDefects, resize_length]⟩

theorem call_ok {c : Call X U F R} {s : Front X U F R} {b : Buf X U F R} (h : c.run s.buf = .ok b) :
    call c s = ({ s with buf := b }, .ok ()) := by
  simp [call, Call.after, h, Res.ok_bind]

theorem calls_ok {c : Call X U F R} {s : Front X U F R} (b : Buf X U F R) (h : c.run s.buf = .ok b)
    (cs : List (Call X U F R)) : calls (c :: cs) s = calls cs { s with buf := b } := by
  simp only [calls, call_ok h]

theorem call_exc {c : Call X U F R} {s : Front X U F R} (h : c.run s.buf = .exc) :
    call c s = (s, .exc) := by
  simp [call, Call.after, h, Res.exc_bind]

omit [IsStrictOrderedRing R] [Zero X] in
theorem policy_ok (x : List X) (u : List U) (L : List F) (dt : R) (hx : x ≠ []) (hu : u ≠ []) (hL : L ≠ []) :
    policy x u L dt = .ok ⟨x, u, L⟩ := by
  have a : ∀ k : ℕ, k ≠ 0 → ∃ t, Arrays.timeArray dt k 0 = .ok t := by
    intro k hk
    unfold Arrays.timeArray Arrays.linspace
    rw [if_neg (by omega)]
    exact ⟨_, rfl⟩
  obtain ⟨_, e1⟩ := a x.length (by simpa using hx)
  obtain ⟨_, e2⟩ := a u.length (by simpa using hu)
  obtain ⟨_, e3⟩ := a L.length (by simpa using hL)
  simp [policy, e1, e2, e3, Res.ok_bind, Res.pure_eq]

/-- Horizon, guess, initial state: accepted. -/
theorem init_ok (s : Front X U F R) (T : R) (g : Guess X U F) (x0 : X) (hdt : 0 < s.buf.dt) (hT : 0 ≤ T) {K : ℕ}
    (hK : IsStages s.buf.dt T K) (hx : K + 1 ≤ g.x.length) (hu : K ≤ g.u.length) (hL : K ≤ g.L.length) :
    ∃ s', calls [.horizon T, .guess g, .initialState x0] s = (s', .ok ()) ∧
      Shows s' ((x0 :: (g.x.take (K + 1)).tail).map some) ((g.u.take K).map some) ((g.L.take K).map some)
        s.buf.dt K := by
  obtain ⟨b, e, rfl, hd, hK1, -⟩ := horizon_ok s.buf T hdt hT hK
  obtain ⟨b2, e2, h1, h2, h3, hK', -, h4⟩ := (C60_guess g b hK1).2 (by omega)
  have hl : b2.x.length = b.K + 1 := by simp [h1]; omega
  have e3 : changeInitialState x0 b2 = .ok (resetDefects { b2 with x := b2.x.set 0 (some x0) }) := by
    unfold changeInitialState
    rw [if_neg (by omega)]
  refine ⟨{ s with buf := resetDefects { b2 with x := b2.x.set 0 (some x0) } }, ?_, ?_⟩
  · rw [calls_ok b (by exact e), calls_ok b2 (by exact e2), calls_ok _ (by exact e3)]
    rfl
  · have q : (b2.x.set 0 (some x0)) = (x0 :: (g.x.take (b.K + 1)).tail).map some := by
      rw [h1]
      cases hg : g.x with
      | nil => simp [hg] at hx
      | cons a l => simp
    have := shows_of (s := { s with buf := resetDefects { b2 with x := b2.x.set 0 (some x0) } }) (K := b.K) (dt := s.buf.dt)
      (by simpa [resetDefects] using hl) (by simp [resetDefects, h2]; omega) (by simp [resetDefects, h3]; omega)
      (by rw [← hd]; exact h4)
    simpa only [resetDefects, q, h2, h3] using this

/-- Initial state, horizon, guess: accepted. -/
theorem init_ok' (s : Front X U F R) (T : R) (g : Guess X U F) (x0 : X) (hdt : 0 < s.buf.dt) (hT : 0 ≤ T) {K : ℕ}
    (hK : IsStages s.buf.dt T K) (hx : K + 1 ≤ g.x.length) (hu : K ≤ g.u.length) (hL : K ≤ g.L.length) :
    ∃ s', calls [.initialState x0, .horizon T, .guess g] s = (s', .ok ()) ∧
      Shows s' ((g.x.take (K + 1)).map some) ((g.u.take K).map some) ((g.L.take K).map some) s.buf.dt K := by
  obtain ⟨b0, e0, hd0⟩ : ∃ b0, changeInitialState x0 s.buf = .ok b0 ∧ b0.dt = s.buf.dt := ⟨_, rfl, rfl⟩
  rw [← hd0] at hdt hK
  obtain ⟨b, e, rfl, hd, hK1, -⟩ := horizon_ok b0 T hdt hT hK
  obtain ⟨b2, e2, h1, h2, h3, hK', -, h4⟩ := (C60_guess g b hK1).2 (by omega)
  refine ⟨{ s with buf := b2 }, ?_, ?_⟩
  · rw [calls_ok b0 (by exact e0), calls_ok b (by exact e), calls_ok b2 (by exact e2)]
    rfl
  · have := shows_of (s := { s with buf := b2 }) (K := b.K) (dt := s.buf.dt)
      (by simp [h1]; omega) (by simp [h2]; omega) (by simp [h3]; omega) (by rw [← hd0, ← hd]; exact h4)
    simpa only [h1, h2, h3] using this

/-- A guess that is too short for the horizon is rejected after the horizon has been changed. -/
theorem init_short (s : Front X U F R) (T : R) (g : Guess X U F) (cs : List (Call X U F R)) (hdt : 0 < s.buf.dt)
    (hT : 0 ≤ T) {K : ℕ} (hK : IsStages s.buf.dt T K)
    (hs : g.x.length < K + 1 ∨ g.u.length < K ∨ g.L.length < K) :
    ∃ s', calls (.horizon T :: .guess g :: cs) s = (s', .exc) ∧
      (Fits s.buf → s.buf.K < K → ∃ x u L, Shows s' x u L s.buf.dt K ∧ none ∈ x ∧ none ∈ u ∧ none ∈ L) := by
  obtain ⟨b, e, rfl, hd, hK1, hr, -⟩ := horizon_ok s.buf T hdt hT hK
  refine ⟨{ s with buf := b }, ?_, ?_⟩
  · rw [calls_ok b (by exact e)]
    have := call_exc (c := .guess g) (s := { s with buf := b }) ((C60_guess g b hK1).1.2 hs)
    simp only [calls, this]
  · intro hf hlt
    obtain ⟨hx, hu, hL, ht⟩ := hr hlt
    have a : ∀ {α : Type} (l : List (Option α)) (k : ℕ), l.length < k → none ∈ resize l k := by
      intro α l k h
      simp only [resize, List.mem_append, List.mem_replicate]
      right
      exact ⟨by omega, trivial⟩
    refine ⟨_, _, _, shows_of (s := { s with buf := b }) (K := b.K) (dt := s.buf.dt) ?_ ?_ ?_ ht, ?_, ?_, ?_⟩
    · simp only [hx, resize_length]
    · simp only [hu, resize_length]
    · simp only [hL, resize_length]
    · simp only [hx]; exact a _ _ (by have := hf.x; omega)
    · simp only [hu]; exact a _ _ (by have := hf.u; omega)
    · simp only [hL]; exact a _ _ (by have := hf.L; omega)

theorem ofFn_asVec {k : ℕ} {l : List ℝ} (h : l.length = k) : List.ofFn (asVec k l) = l := by
  apply List.ext_getElem
  · simp [h]
  · intro i h1 h2
    simp [asVec, h2]

/-! ### The floating base front end -/

/-- C188, floating base: for every state of the solver (any history of calls), horizon, robot state and
guess that is long enough, `initialize` succeeds; the front end then shows the given guess, cut to the
number of stages of the horizon, with its first state replaced by the given robot state. -/
theorem C188_floating {n : ℕ} (cv : Conv ℝ) (x0 : RBD ℝ n) (tf : R) (xref : List (Fin (2 * (n + 6)) → ℝ))
    (fb : List F) (ff : List U) (s : Front (Fin (2 * (n + 6)) → ℝ) U F R) (K : ℕ) (hdt : 0 < s.buf.dt) (htf : 0 ≤ tf)
    (hK : IsStages s.buf.dt tf K) (hx : K + 1 ≤ xref.length) (hff : K ≤ ff.length) (hfb : K ≤ fb.length) :
    ∃ s' v, floatInit cv x0 tf xref fb ff s = (s', .ok ()) ∧ List.ofFn v = x0.toStateVectorEulerXyz cv ∧
      Shows s' ((v :: (xref.take (K + 1)).tail).map some) ((ff.take K).map some) ((fb.take K).map some) s.buf.dt K := by
  have hK1 : 1 ≤ K := by obtain ⟨r, -, -, rfl⟩ := hK; exact le_max_left _ _
  have hp : policy xref ff fb s.buf.dt = .ok ⟨xref, ff, fb⟩ := by
    apply policy_ok <;> (intro h; simp [h] at *; try omega)
  obtain ⟨s', e, h⟩ := init_ok s tf ⟨xref, ff, fb⟩ (asVec _ (x0.toStateVectorEulerXyz cv)) hdt htf hK hx hff hfb
  refine ⟨s', asVec _ (x0.toStateVectorEulerXyz cv), ?_, ofFn_asVec ?_, h⟩
  · simp only [floatInit, withPolicy, hp, e]
  · simp [RBD.toStateVectorEulerXyz, RBD.toCoordinatePosition, RBD.toCoordinateVelocity]; omega

/-- C188, floating base, rejection: a guess that is too short never passes unnoticed. -/
theorem C188_floating_short {n : ℕ} (cv : Conv ℝ) (x0 : RBD ℝ n) (tf : R) (xref : List (Fin (2 * (n + 6)) → ℝ))
    (fb : List F) (ff : List U) (s : Front (Fin (2 * (n + 6)) → ℝ) U F R) (K : ℕ) (hdt : 0 < s.buf.dt) (htf : 0 ≤ tf)
    (hK : IsStages s.buf.dt tf K) (hs : xref.length < K + 1 ∨ ff.length < K ∨ fb.length < K) :
    (floatInit cv x0 tf xref fb ff s).2 = .exc := by
  unfold floatInit withPolicy
  by_cases hne : xref = [] ∨ ff = [] ∨ fb = []
  · have hp : policy xref ff fb s.buf.dt = .exc := by
      have a : Arrays.timeArray s.buf.dt 0 0 = .exc := by simp [Arrays.timeArray, Arrays.linspace]
      have b : ∀ k : ℕ, (∃ t, Arrays.timeArray s.buf.dt k 0 = .ok t) ∨ Arrays.timeArray s.buf.dt k 0 = .exc := by
        intro k
        unfold Arrays.timeArray Arrays.linspace
        by_cases h : k < 1
        · right; rw [if_pos h]
        · left; rw [if_neg h]; exact ⟨_, rfl⟩
      unfold policy
      rcases b xref.length with ⟨_, e⟩ | e <;> rw [e] <;> simp only [Res.ok_bind, Res.exc_bind]
      rcases b ff.length with ⟨_, e2⟩ | e2 <;> rw [e2] <;> simp only [Res.ok_bind, Res.exc_bind]
      rcases hne with rfl | rfl | rfl
      · simp [a] at e
      · simp [a] at e2
      · simp [a, Res.exc_bind]
    rw [hp]
  · push Not at hne
    rw [policy_ok _ _ _ _ hne.1 hne.2.1 hne.2.2]
    obtain ⟨s', e, -⟩ := init_short s tf ⟨xref, ff, fb⟩ [.initialState (asVec _ (x0.toStateVectorEulerXyz cv))]
      hdt htf hK hs
    simp only [e]

/-- C188 violated, floating base: `initialize` called with its default arguments for the guess throws,
in every state and for every horizon. -/
theorem C188_default_violated {n : ℕ} (cv : Conv ℝ) (x0 : RBD ℝ n) (tf : R)
    (s : Front (Fin (2 * (n + 6)) → ℝ) U F R) : floatInitDefault cv x0 tf s = (s, .exc) := by
  simp [floatInitDefault, floatInit, withPolicy, policy, Arrays.timeArray, Arrays.linspace, Res.exc_bind]

/-! ### The fixed base front end -/

variable {n m e : ℕ} {W : Type} [Zero W]

theorem steady_lengths (rb : Rob n e W) (x0 : FixBase ℝ n m) (N : ℕ) :
    (rb.steadyPose x0 N).1.length = N ∧ (rb.steadyPose x0 N).2 = List.replicate (N + 1) (vec x0) := by
  simp [Rob.steadyPose]

theorem vec_length (x0 : FixBase ℝ n m) : (vec x0).length = 2 * n + m := by
  rw [vec_eq]; simp; omega

/-- C188, steady pose: with at least as many points as the horizon has stages the initialisation
succeeds in every state of the solver; the states shown are the given one throughout, the controls are
those of the steady pose (C91), and there is one gain per stage. -/
theorem C188_steady (rb : Rob n e W) (x0 : FixBase ℝ n m) (tf : R) (N : ℕ) (G : F)
    (s : Front (Fin (2 * n + m) → ℝ) (Fin n → ℝ) F R) (K : ℕ) (hdt : 0 < s.buf.dt) (htf : 0 ≤ tf)
    (hK : IsStages s.buf.dt tf K) (hN : K ≤ N) :
    ∃ s' v, steadyPose rb x0 tf N G s = (s', .ok ()) ∧ List.ofFn v = vec x0 ∧
      Shows s' (List.replicate (K + 1) (some v)) (((rb.steadyPose x0 N).1.take K).map some)
        (List.replicate K (some G)) s.buf.dt K := by
  have hK1 : 1 ≤ K := by obtain ⟨r, -, -, rfl⟩ := hK; exact le_max_left _ _
  obtain ⟨l1, l2⟩ := steady_lengths rb x0 N
  have hp : policy ((rb.steadyPose x0 N).2.map (asVec (2 * n + m))) (rb.steadyPose x0 N).1 (List.replicate N G) s.buf.dt
      = .ok ⟨(rb.steadyPose x0 N).2.map (asVec (2 * n + m)), (rb.steadyPose x0 N).1, List.replicate N G⟩ := by
    apply policy_ok
    · rw [l2]; simp
    · intro h; simp [h] at l1; omega
    · intro h; have := congrArg List.length h; simp at this; omega
  obtain ⟨s', e, h⟩ := init_ok s tf ⟨(rb.steadyPose x0 N).2.map (asVec (2 * n + m)), (rb.steadyPose x0 N).1, List.replicate N G⟩
    (asVec _ (vec x0)) hdt htf hK (by simp [l2]; omega) (by simp [l1]; omega) (by simp; omega)
  refine ⟨s', asVec _ (vec x0), ?_, ofFn_asVec (vec_length x0), ?_⟩
  · simp only [steadyPose, withPolicy, hp, e]
  · have q : (asVec (2 * n + m) (vec x0) :: (((rb.steadyPose x0 N).2.map (asVec (2 * n + m))).take (K + 1)).tail).map some
        = List.replicate (K + 1) (some (asVec (2 * n + m) (vec x0))) := by
      rw [l2]
      simp [List.take_replicate, List.replicate_succ, Nat.min_eq_left hN]
    simpa [q, List.take_replicate, Nat.min_eq_left hN] using h

/-- C188, steady pose, rejection: fewer points than stages throw. -/
theorem C188_steady_short (rb : Rob n e W) (x0 : FixBase ℝ n m) (tf : R) (N : ℕ) (G : F)
    (s : Front (Fin (2 * n + m) → ℝ) (Fin n → ℝ) F R) (K : ℕ) (hdt : 0 < s.buf.dt) (htf : 0 ≤ tf)
    (hK : IsStages s.buf.dt tf K) (hN : N < K) :
    (steadyPose rb x0 tf N G s).2 = .exc := by
  obtain ⟨l1, l2⟩ := steady_lengths rb x0 N
  unfold steadyPose withPolicy
  rcases Nat.eq_zero_or_pos N with rfl | hpos
  · have l3 : (rb.steadyPose x0 0).1 = [] := by simpa using l1
    simp [l2, l3, policy, Arrays.timeArray, Arrays.linspace, Res.exc_bind, Res.ok_bind]
  · simp only
    rw [policy_ok]
    · obtain ⟨s', e, -⟩ := init_short s tf
        ⟨(rb.steadyPose x0 N).2.map (asVec (2 * n + m)), (rb.steadyPose x0 N).1, List.replicate N G⟩
        [.initialState (asVec _ (vec x0))] hdt htf hK (by simp [l1, l2]; omega)
      simp only [e]
    · rw [l2]; simp
    · intro h; simp [h] at l1; omega
    · intro h; have := congrArg List.length h; simp at this; omega

/-- C188 violated: after a successful initialisation, one with a longer horizon and too few points
throws, but the front end then shows the new number of stages with states, controls and gains that were
never given a value (`none`). -/
theorem C188_rejected_violated (rb : Rob n e W) (x0 : FixBase ℝ n m) (tf : R) (N : ℕ) (G : F)
    (s : Front (Fin (2 * n + m) → ℝ) (Fin n → ℝ) F R) (K : ℕ) (hdt : 0 < s.buf.dt) (htf : 0 ≤ tf)
    (hf : Fits s.buf) (hK : IsStages s.buf.dt tf K) (hlt : s.buf.K < K) (h0 : 0 < N) (hN : N < K) :
    ∃ s' x u L, steadyPose rb x0 tf N G s = (s', .exc) ∧ Shows s' x u L s.buf.dt K ∧
      none ∈ x ∧ none ∈ u ∧ none ∈ L := by
  obtain ⟨l1, l2⟩ := steady_lengths rb x0 N
  obtain ⟨s', ec, hc⟩ := init_short s tf
    ⟨(rb.steadyPose x0 N).2.map (asVec (2 * n + m)), (rb.steadyPose x0 N).1, List.replicate N G⟩
    [.initialState (asVec _ (vec x0))] hdt htf hK (by simp [l1, l2]; omega)
  obtain ⟨x, u, L, h⟩ := hc hf hlt
  refine ⟨s', x, u, L, ?_, h⟩
  unfold steadyPose withPolicy
  simp only
  rw [policy_ok]
  · simp only [ec]
  · rw [l2]; simp
  · intro h; simp [h] at l1; omega
  · intro h; have := congrArg List.length h; simp at this; omega

/-- C188, interpolation: with at least as many points as stages the initialisation succeeds in every
state of the solver.  The states shown lie on the straight line from `x0` towards `xf`, at fractions
`i / N`; the first is `x0`. -/
theorem C188_interpolation (rb : Rob n e W) (a : Act n m) (x0 xf : FixBase ℝ n m) (tf : R) (N : ℕ) (G : F)
    (junk : Fin n → ℝ) (s : Front (Fin (2 * n + m) → ℝ) (Fin n → ℝ) F R) (K : ℕ) (hdt : 0 < s.buf.dt)
    (htf : 0 ≤ tf) (hK : IsStages s.buf.dt tf K) (hN : K ≤ N) :
    ∃ (s' : Front (Fin (2 * n + m) → ℝ) (Fin n → ℝ) F R) (x : List (Fin (2 * n + m) → ℝ)),
      directInterpolation rb a x0 xf tf N G junk s = (s', .ok ()) ∧
      Shows s' (x.map some) (((rb.directInterpolation a x0 xf N junk).1.take K).map some)
        (List.replicate K (some G)) s.buf.dt K ∧
      x.length = K + 1 ∧ (∃ v, x[0]? = some v ∧ List.ofFn v = vec x0) ∧
      ∀ i ≤ K, ∃ (p : FixBase ℝ n m) (v : Fin (2 * n + m) → ℝ), x[i]? = some v ∧ List.ofFn v = vec p ∧
        (∀ l, N * (p.joints.pos l - x0.joints.pos l) = i * (xf.joints.pos l - x0.joints.pos l)) ∧
        (∀ l, N * (p.joints.vel l - x0.joints.vel l) = i * (xf.joints.vel l - x0.joints.vel l)) := by
  have hK1 : 1 ≤ K := by obtain ⟨r, -, -, rfl⟩ := hK; exact le_max_left _ _
  obtain ⟨l1, l2, h0, -, hi⟩ := C91_interpolation rb a x0 xf N (by omega) junk
  have hp : policy ((rb.directInterpolation a x0 xf N junk).2.map (asVec (2 * n + m)))
      (rb.directInterpolation a x0 xf N junk).1 (List.replicate N G) s.buf.dt =
      .ok ⟨(rb.directInterpolation a x0 xf N junk).2.map (asVec (2 * n + m)),
        (rb.directInterpolation a x0 xf N junk).1, List.replicate N G⟩ := by
    apply policy_ok
    · intro h; have := congrArg List.length h; simp [l2] at this
    · intro h; simp [h] at l1; omega
    · intro h; have := congrArg List.length h; simp at this; omega
  obtain ⟨s', e, h⟩ := init_ok' s tf ⟨(rb.directInterpolation a x0 xf N junk).2.map (asVec (2 * n + m)),
    (rb.directInterpolation a x0 xf N junk).1, List.replicate N G⟩ (asVec _ (vec x0)) hdt htf hK
    (by simp [l2]; omega) (by simp [l1]; omega) (by simp; omega)
  refine ⟨s', ((rb.directInterpolation a x0 xf N junk).2.map (asVec (2 * n + m))).take (K + 1), ?_, ?_, ?_, ?_, ?_⟩
  · simp only [directInterpolation, withPolicy, hp, e]
  · simpa [List.take_replicate, Nat.min_eq_left hN] using h
  · simp [l2]; omega
  · refine ⟨asVec _ (vec x0), ?_, ofFn_asVec (vec_length x0)⟩
    rw [List.getElem?_take_of_lt (by omega), List.getElem?_map, h0, Option.map_some]
  · intro i hiK
    obtain ⟨p, hp1, hp2, hp3, -⟩ := hi i (by omega)
    refine ⟨p, asVec _ (vec p), ?_, ofFn_asVec (vec_length p), hp2, hp3⟩
    rw [List.getElem?_take_of_lt (by omega), List.getElem?_map, hp1, Option.map_some]

/-- C188 violated: with more points than stages the guess is cut, so the last state shown is short of
the final position in every joint that moves. -/
theorem C188_interpolation_violated (rb : Rob n e W) (a : Act n m) (x0 xf : FixBase ℝ n m) (tf : R) (N : ℕ) (G : F)
    (junk : Fin n → ℝ) (s : Front (Fin (2 * n + m) → ℝ) (Fin n → ℝ) F R) (K : ℕ) (hdt : 0 < s.buf.dt)
    (htf : 0 ≤ tf) (hK : IsStages s.buf.dt tf K) (hN : K < N) :
    ∃ s' x u L, directInterpolation rb a x0 xf tf N G junk s = (s', .ok ()) ∧ Shows s' x u L s.buf.dt K ∧
      ∃ (p : FixBase ℝ n m) (v : Fin (2 * n + m) → ℝ), x.getLast? = some (some v) ∧ List.ofFn v = vec p ∧
        ∀ l, x0.joints.pos l ≠ xf.joints.pos l → p.joints.pos l ≠ xf.joints.pos l := by
  obtain ⟨s', x, h1, h2, hl, -, hi⟩ := C188_interpolation rb a x0 xf tf N G junk s K hdt htf hK (by omega)
  obtain ⟨p, v, hv, hp, hq, -⟩ := hi K le_rfl
  refine ⟨s', _, _, _, h1, h2, p, v, ?_, hp, ?_⟩
  · rw [List.getLast?_eq_getElem?, List.length_map, hl, Nat.add_sub_cancel, List.getElem?_map, hv, Option.map_some]
  · intro l hne he
    have := hq l
    rw [he] at this
    have h3 : ((N : ℝ) - K) * (xf.joints.pos l - x0.joints.pos l) = 0 := by linarith
    rcases mul_eq_zero.1 h3 with h | h
    · have : (K : ℝ) < N := by exact_mod_cast hN
      linarith
    · exact hne (by linarith)

/-! ### Results -/

/-- C188, results: whatever the solver's iterations left in its arrays, as long as their sizes fit the
horizon (C60), is what the front end hands out; the time array of the solver is that of the states. -/
theorem C188_results (s : Front X U F R) (dt : R) (hf : Fits s.buf) (ht : Stamps dt s.buf.K s.buf.t) :
    Shows s s.buf.x s.buf.u s.buf.L dt s.buf.K := shows_of hf.x hf.u hf.L ht

omit [LinearOrder R] [IsStrictOrderedRing R] [FloorRing R] [Zero X] in
/-- C188 violated: reading the time array that either front end returns is undefined behaviour, in every
state: the array belongs to an object that no longer exists. -/
theorem C188_time_violated (s : Front X U F R) : (getTimeArray s).read = .ub := rfl

/-! ### Examples -/

/-- A solver after construction with step 1/2 and horizon 1: two stages, only the first state set. -/
noncomputable def exFront : Front (Fin (2 * 1 + 0) → ℝ) (Fin 1 → ℝ) ℝ ℚ :=
  ⟨(runCalls [] (resetDefects { (Buf.empty (1 / 2 : ℚ) : Buf (Fin (2 * 1 + 0) → ℝ) (Fin 1 → ℝ) ℝ ℚ) with
    K := 2
    t := [0, 1 / 2, 1]
    x := [some 0, none, none], xPrev := [none, none, none], xShot := [none, none, none]
    dx := [none, none, none], xRef := [none, none, none], dxRef := [none, none, none]
    d := [none, none, none], u := [none, none], uPrev := [none, none], du := [none, none], L := [none, none] })),
    ([], [], [], [])⟩

example : 0 < exFront.buf.dt ∧ IsStages exFront.buf.dt 1 2 ∧ IsStages exFront.buf.dt 3 6 ∧ Fits exFront.buf ∧
    exFront.buf.K < 6 ∧ Stamps (1 / 2) exFront.buf.K exFront.buf.t := by
  refine ⟨by norm_num [exFront, runCalls, resetDefects, Buf.empty], ⟨2, ?_, ?_, rfl⟩, ⟨6, ?_, ?_, rfl⟩,
    ⟨by decide, rfl, rfl, rfl, rfl, rfl, rfl, rfl, rfl, rfl, le_rfl, le_rfl⟩, by decide, rfl, ?_⟩
  · norm_num [exFront, runCalls, resetDefects, Buf.empty]
  · norm_num [exFront, runCalls, resetDefects, Buf.empty]
  · norm_num [exFront, runCalls, resetDefects, Buf.empty]
  · norm_num [exFront, runCalls, resetDefects, Buf.empty]
  · intro i hi
    have : i ≤ 2 := hi
    rcases (by omega : i = 0 ∨ i = 1 ∨ i = 2) with rfl | rfl | rfl <;> norm_num [exFront, runCalls, resetDefects, Buf.empty]

/-- The interpolated guess for a horizon of six stages from seven points is accepted; a steady pose of
four points is rejected. -/
example (rb : Rob 1 0 ℝ) (a : Act 1 0) (x0 xf : FixBase ℝ 1 0) :
    (∃ s', directInterpolation rb a x0 xf 3 7 (0 : ℝ) 0 exFront = (s', .ok ())) ∧
    (steadyPose rb x0 3 4 (0 : ℝ) exFront).2 = .exc := by
  have h : IsStages exFront.buf.dt 3 6 := by
    refine ⟨6, ?_, ?_, rfl⟩ <;> norm_num [exFront, runCalls, resetDefects, Buf.empty]
  have hd : 0 < exFront.buf.dt := by norm_num [exFront, runCalls, resetDefects, Buf.empty]
  obtain ⟨s', _, h', -⟩ := C188_interpolation rb a x0 xf 3 7 (0 : ℝ) 0 exFront 6 hd (by norm_num) h (by norm_num)
  exact ⟨⟨s', h'⟩, C188_steady_short rb x0 3 4 0 exFront 6 hd (by norm_num) h (by norm_num)⟩

end CT.RobotNloc
