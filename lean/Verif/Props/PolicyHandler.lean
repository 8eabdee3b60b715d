import Verif.Model.PolicyHandler
import Verif.Props.Trajectory
import Mathlib.Data.Rat.Floor
import Mathlib.Tactic.IntervalCases

/-! # Properties C29, C30: warm starting and truncating MPC policies -/

namespace CT.PolicyHandler
open CT.Interp CT.StateFeedback

variable {n m : Nat} {K : Type} [Field K] [LinearOrder K] [IsStrictOrderedRing K] [FloorRing K]

/-- Specification: the uniform time grid with `N` points starting at 0. -/
def grid (dt : K) (N : Nat) : List K := (List.range N).map (fun i : Nat => (i : K) * dt)

/-- Specification: a policy with `N` control stages on the uniform grid (and `N + 1` reference
states), as returned by the solvers. -/
structure OnGrid (dt : K) (N : Nat) (c : Ctrl n m K) : Prop where
  pos : 0 < N
  uTime : c.uff.time = grid dt N
  gTime : c.gain.time = grid dt N
  xTime : c.x_ref.time = grid dt (N + 1)
  uLen : c.uff.data.length = N
  gLen : c.gain.data.length = N
  xLen : c.x_ref.data.length = N + 1
  uCache : 0 ≤ c.uff.cache
  gCache : 0 ≤ c.gain.cache
  xCache : 0 ≤ c.x_ref.cache

omit [LinearOrder K] [IsStrictOrderedRing K] [FloorRing K] in
@[simp] theorem grid_length (dt : K) (N : Nat) : (grid dt N).length = N := by simp [grid]

omit [LinearOrder K] [IsStrictOrderedRing K] [FloorRing K] in
@[simp] theorem grid_get (dt : K) (N i : Nat) (h : i < (grid dt N).length) : (grid dt N)[i] = i * dt := by
  simp only [grid, List.getElem_map, List.getElem_range]

omit [FloorRing K] in
theorem grid_sorted (dt : K) (hdt : 0 ≤ dt) (N : Nat) : (grid dt N).Pairwise (· ≤ ·) := by
  rw [List.pairwise_iff_getElem]
  intro i j hi hj hij
  rw [grid_get, grid_get]
  exact mul_le_mul_of_nonneg_right (by exact_mod_cast hij.le) hdt

omit [LinearOrder K] [IsStrictOrderedRing K] [FloorRing K] in
theorem grid_drop (dt : K) (N d : Nat) : shiftTimes ((grid dt N).drop d) ((d : K) * dt) = grid dt (N - d) := by
  apply List.ext_getElem
  · simp [shiftTimes]
  · intro i h1 h2
    simp only [shiftTimes, List.getElem_map, List.getElem_drop, grid_get]
    push_cast; ring

omit [LinearOrder K] [IsStrictOrderedRing K] [FloorRing K] in
theorem grid_take (dt : K) (N k : Nat) (h : k ≤ N) : (grid dt N).take k = grid dt k := by
  apply List.ext_getElem
  · simp [h]
  · intro i h1 h2
    simp

/-- The truncated index is the stage active at the delay. -/
theorem indexOf_spec (dt : K) (hdt : 0 < dt) (N : Nat) (c : Ctrl n m K) (hc : OnGrid dt N c) (t : K) :
    ∃ d : Nat, d < N ∧ IsActiveIndex (grid dt N) t d ∧
      indexOf c t = Res.ok ((d : Int), { c with uff := { c.uff with cache := (d : Int) } }) := by
  have hne : c.uff.time ≠ [] := by
    intro h
    have := congrArg List.length h
    rw [hc.uTime] at this
    simp at this
    exact absurd hc.pos (by omega)
  obtain ⟨k, h1, h2⟩ := C01_findIndex_active c.uff.time (by rw [hc.uTime]; exact grid_sorted dt hdt.le N) hne t
    c.uff.cache hc.uCache
  rw [hc.uTime] at h1
  refine ⟨k, by simpa using h1.lt, h1, ?_⟩
  unfold indexOf
  rw [h2]

omit [IsStrictOrderedRing K] [FloorRing K] in
theorem upd_erase {D : Type} [AddCommGroup D] [Module K D] (tr : Traj K D) (k : Nat) (dt : K)
    (h1 : k ≤ tr.time.length) (h2 : k ≤ tr.data.length) :
    upd tr (.eraseFront k dt) =
      Res.ok { tr with time := shiftTimes (tr.time.drop k) dt, data := tr.data.drop k } := by
  unfold upd
  simp only [step]
  rw [if_neg (by omega)]

omit [FloorRing K] in
/-- Dropping the front of sorted data does not change its value from the first kept stamp on. -/
theorem value_drop {D : Type} [AddCommGroup D] [Module K D] (ty : IType) (ts : List K) (ds : List D) (d : Nat)
    (hd : d < ts.length) (hs : ts.Pairwise (· ≤ ·)) (q : K) (hq : ts[d] ≤ q) (v : D) (hv : IsValueAt ty ts ds q v) :
    IsValueAt ty (ts.drop d) (ds.drop d) q v := by
  obtain ⟨hl, hn, hv⟩ := hv
  refine ⟨by simp [hl], by simp; omega, ?_⟩
  rcases hv with ⟨h1, _⟩ | ⟨h1, h2⟩ | ⟨i, hi, h1, h2, h3, h4⟩
  · exfalso
    have := sorted_get hs (Nat.zero_le d) hd
    exact absurd (lt_of_le_of_lt (this.trans hq) h1) (lt_irrefl _)
  · refine Or.inr (Or.inl ⟨?_, ?_⟩)
    · simp only [List.getElem_drop, List.length_drop]
      have e : d + (ts.length - d - 1) = ts.length - 1 := by omega
      simp only [e]; exact h1
    · simp only [List.getElem_drop, List.length_drop]
      have e : d + (ds.length - d - 1) = ds.length - 1 := by omega
      simp only [e]; exact h2
  · have hdi : d ≤ i := by
      by_contra hcon
      have := sorted_get hs (show i + 1 ≤ d by omega) hd
      exact absurd (lt_of_le_of_lt (this.trans hq) h2) (lt_irrefl _)
    obtain ⟨j, rfl⟩ := Nat.exists_eq_add_of_le hdi
    refine Or.inr (Or.inr ⟨j, by simp; omega, ?_, ?_, ?_, ?_⟩)
    · simp only [List.getElem_drop]; exact h1
    · simp only [List.getElem_drop, ← Nat.add_assoc]; exact h2
    · simp only [List.getElem_drop]; exact h3
    · simp only [List.getElem_drop, ← Nat.add_assoc]; exact h4

omit [FloorRing K] in
/-- Evaluating a front-truncated trajectory at `t ≥ 0`. -/
theorem eval_erased {D : Type} [AddCommGroup D] [Module K D] (tr : Traj K D) (cache : Int) (hc : 0 ≤ tr.cache)
    (hc' : 0 ≤ cache) (dt : K) (hdt : 0 < dt) (N d : Nat) (hd : d < N) (ht : tr.time = grid dt N)
    (hl : tr.data.length = N) (t : K) (h0 : 0 ≤ t) :
    (Traj.mk (shiftTimes (tr.time.drop d) ((d : K) * dt)) (tr.data.drop d) tr.type cache).eval t =
      tr.eval (t + (d : K) * dt) := by
  have hs : tr.time.Pairwise (· ≤ ·) := by rw [ht]; exact grid_sorted dt hdt.le N
  have hne : tr.time ≠ [] := by
    intro h; have := congrArg List.length h; rw [ht] at this; simp at this; omega
  obtain ⟨v, hv, hv'⟩ := eval_isValueAt tr hc hs (by rw [ht, grid_length, hl]) hne (t + (d : K) * dt)
  have h1 := C04_shift_eval (Traj.mk (tr.time.drop d) (tr.data.drop d) tr.type cache) ((d : K) * dt) t
  simp only [step] at h1
  rw [h1, hv]
  obtain ⟨w, hw, hw'⟩ := eval_isValueAt (Traj.mk (tr.time.drop d) (tr.data.drop d) tr.type cache) hc'
    (hs.sublist (List.drop_sublist _ _)) (by simp [ht, hl]) (by
      intro h; have := congrArg List.length h; simp [ht] at this; omega) (t + (d : K) * dt)
  rw [hw]
  congr 1
  refine IsValueAt.unique (hs.sublist (List.drop_sublist d _)) hw' ?_
  refine value_drop _ _ _ d (by rw [ht]; simpa using hd) hs _ ?_ v hv'
  simp only [ht, grid_get]; linarith

omit [FloorRing K] in
theorem OnGrid.ne {dt : K} {N : Nat} {c : Ctrl n m K} (hc : OnGrid dt N c) :
    c.uff.time ≠ [] ∧ c.gain.time ≠ [] ∧ c.x_ref.time ≠ [] := by
  have hp := hc.pos
  refine ⟨?_, ?_, ?_⟩ <;> intro h <;> have := congrArg List.length h
  · rw [hc.uTime] at this; simp at this; omega
  · rw [hc.gTime] at this; simp at this; omega
  · rw [hc.xTime] at this; simp at this

omit [FloorRing K] in
/-- A policy on a grid can be evaluated everywhere. -/
theorem OnGrid.compute_ok {dt : K} (hdt : 0 < dt) {N : Nat} {c : Ctrl n m K} (hc : OnGrid dt N c) (x : Fin n → K) (t : K) :
    ∃ u, (c.compute x t).1 = Res.ok u := by
  obtain ⟨u, hu, -⟩ := eval_isValueAt c.uff hc.uCache (by rw [hc.uTime]; exact grid_sorted dt hdt.le N)
    (by rw [hc.uTime, grid_length, hc.uLen]) hc.ne.1 t
  obtain ⟨k, hk, -⟩ := eval_isValueAt c.gain hc.gCache (by rw [hc.gTime]; exact grid_sorted dt hdt.le N)
    (by rw [hc.gTime, grid_length, hc.gLen]) hc.ne.2.1 t
  obtain ⟨xr, hx, -⟩ := eval_isValueAt c.x_ref hc.xCache (by rw [hc.xTime]; exact grid_sorted dt hdt.le _)
    (by rw [hc.xTime, grid_length, hc.xLen]) hc.ne.2.2 t
  simp only [Traj.eval] at hu hk hx
  exact ⟨_, by simp only [Ctrl.compute, hu, hk, hx, Res.ok_bind, Res.pure_eq]; rfl⟩

/-- The three trajectories without their first `d` entries, in shifted time. -/
def dropCtrl (dt : K) (d : Nat) (c : Ctrl n m K) : Ctrl n m K :=
  ⟨{ c.x_ref with time := shiftTimes (c.x_ref.time.drop d) ((d : K) * dt), data := c.x_ref.data.drop d },
   { c.uff with time := shiftTimes (c.uff.time.drop d) ((d : K) * dt), data := c.uff.data.drop d },
   { c.gain with time := shiftTimes (c.gain.time.drop d) ((d : K) * dt), data := c.gain.data.drop d }⟩

omit [FloorRing K] in
theorem eraseAll_spec {dt : K} {N : Nat} {c : Ctrl n m K} (hc : OnGrid dt N c) (d : Nat) (hd : d < N) :
    eraseAll d ((d : K) * dt) c = Res.ok (dropCtrl dt d c) ∧ OnGrid dt (N - d) (dropCtrl dt d c) := by
  have e1 := upd_erase c.uff d ((d : K) * dt) (by simp [hc.uTime]; omega) (by simp [hc.uLen]; omega)
  have e2 := upd_erase c.gain d ((d : K) * dt) (by simp [hc.gTime]; omega) (by simp [hc.gLen]; omega)
  have e3 := upd_erase c.x_ref d ((d : K) * dt) (by simp [hc.xTime]; omega) (by simp [hc.xLen]; omega)
  refine ⟨?_, by omega, ?_, ?_, ?_, ?_, ?_, ?_, hc.uCache, hc.gCache, hc.xCache⟩
  · simp only [eraseAll, e1, e2, e3, Res.ok_bind, Res.pure_eq]
    rfl
  · show shiftTimes (c.uff.time.drop d) _ = _
    rw [hc.uTime, grid_drop]
  · show shiftTimes (c.gain.time.drop d) _ = _
    rw [hc.gTime, grid_drop]
  · show shiftTimes (c.x_ref.time.drop d) _ = _
    rw [hc.xTime, grid_drop]
    congr 1; omega
  · show (c.uff.data.drop d).length = _
    rw [List.length_drop, hc.uLen]
  · show (c.gain.data.drop d).length = _
    rw [List.length_drop, hc.gLen]
  · show (c.x_ref.data.drop d).length = _
    rw [List.length_drop, hc.xLen]; omega

omit [FloorRing K] in
theorem dropCtrl_compute {dt : K} (hdt : 0 < dt) {N : Nat} {c : Ctrl n m K} (hc : OnGrid dt N c) (d : Nat) (hd : d < N)
    (x : Fin n → K) (t : K) (ht : 0 ≤ t) :
    ((dropCtrl dt d c).compute x t).1 = (c.compute x (t + (d : K) * dt)).1 := by
  have h1 := eval_erased c.uff c.uff.cache hc.uCache hc.uCache dt hdt N d hd hc.uTime hc.uLen t ht
  have h2 := eval_erased c.gain c.gain.cache hc.gCache hc.gCache dt hdt N d hd hc.gTime hc.gLen t ht
  have h3 := eval_erased c.x_ref c.x_ref.cache hc.xCache hc.xCache dt hdt (N + 1) d (by omega) hc.xTime hc.xLen t ht
  simp only [Traj.eval] at h1 h2 h3
  simp only [Ctrl.compute, dropCtrl, h1, h2, h3]

omit [FloorRing K] in
theorem OnGrid.recache {dt : K} {N : Nat} {c : Ctrl n m K} (hc : OnGrid dt N c) (i : Int) (hi : 0 ≤ i) :
    OnGrid dt N { c with uff := { c.uff with cache := i } } :=
  ⟨hc.pos, hc.uTime, hc.gTime, hc.xTime, hc.uLen, hc.gLen, hc.xLen, hi, hc.gCache, hc.xCache⟩

omit [FloorRing K] in
theorem recache_compute {dt : K} (hdt : 0 < dt) {N : Nat} {c : Ctrl n m K} (hc : OnGrid dt N c) (i : Int) (hi : 0 ≤ i)
    (x : Fin n → K) (t : K) :
    (Ctrl.compute { c with uff := { c.uff with cache := i } } x t).1 = (c.compute x t).1 := by
  have hs : c.uff.time.Pairwise (· ≤ ·) := by rw [hc.uTime]; exact grid_sorted dt hdt.le N
  have hl : c.uff.time.length = c.uff.data.length := by rw [hc.uTime, grid_length, hc.uLen]
  obtain ⟨a, ha, ha'⟩ := eval_isValueAt c.uff hc.uCache hs hl hc.ne.1 t
  obtain ⟨b, hb, hb'⟩ := eval_isValueAt { c.uff with cache := i } hi hs hl hc.ne.1 t
  have hab : b = a := IsValueAt.unique hs hb' ha'
  subst hab
  simp only [Traj.eval] at ha hb
  simp only [Ctrl.compute, ha, hb]

/-- C30: for every policy on a uniform grid and every non-negative delay, `truncateSolutionFront`
succeeds, removes `d` whole stages with `d` less than the number of stages, reports exactly `d·dt`,
which is at most the delay; it removes as many as possible (the delay lies before the end of the
first kept stage unless that is the last one); and for every state and every `t ≥ 0`
the new policy's control at `t` equals the old one's at `t` plus the reported time (both evaluations
succeed). -/
theorem C30_truncate (dt : K) (hdt : 0 < dt) (N : Nat) (c : Ctrl n m K) (hc : OnGrid dt N c) (delay : K) (hdelay : 0 ≤ delay) :
    ∃ (d : Nat) (c' : Ctrl n m K), truncateSolutionFront dt delay c = Res.ok (c', (d : K) * dt) ∧ d < N ∧
      (d : K) * dt ≤ delay ∧ (delay < ((d : K) + 1) * dt ∨ d + 1 = N) ∧ OnGrid dt (N - d) c' ∧
      ∀ x t, 0 ≤ t → ∃ u, (c'.compute x t).1 = Res.ok u ∧ (c.compute x (t + (d : K) * dt)).1 = Res.ok u := by
  obtain ⟨d, hd, hact, hidx⟩ := indexOf_spec dt hdt N c hc delay
  have hdle : (d : K) * dt ≤ delay := by
    rcases hact with ⟨h, h1, _⟩ | ⟨rfl, _, h2⟩
    · rw [grid_get] at h1; exact h1
    · simpa using hdelay
  have hdmax : delay < ((d : K) + 1) * dt ∨ d + 1 = N := by
    rcases Nat.lt_or_ge (d + 1) N with hlt | hge
    · left
      rcases hact with ⟨h, _, h2⟩ | ⟨rfl, h2, h3⟩
      · have := h2 (d + 1) (by simpa using hlt) (by omega)
        rw [grid_get] at this
        push_cast at this; exact this
      · have := h3 1 (by simpa using hlt)
        rw [grid_get] at this
        push_cast at this ⊢; simpa using this
    · right; omega
  have hsize : size c.uff = Res.ok N := by
    unfold size
    rw [if_neg (by rw [hc.uTime, hc.uLen, grid_length]; simp), hc.uLen]
  have hmin : min (d : Int) ((N : Int) - 1) = d := by omega
  have hg1 := hc.recache (d : Int) (by omega)
  have hcmp := recache_compute hdt hc (d : Int) (by omega)
  set c1 : Ctrl n m K := { c with uff := { c.uff with cache := (d : Int) } } with hc1
  rcases Nat.eq_zero_or_pos d with rfl | hpos
  · refine ⟨0, c1, ?_, hd, hdle, hdmax, by simpa using hg1, ?_⟩
    · unfold truncateSolutionFront
      simp only [hsize, hidx, Res.ok_bind, hmin, Res.pure_eq]
      simp
    · intro x t _
      obtain ⟨u, hu⟩ := hc.compute_ok hdt x t
      exact ⟨u, by rw [hcmp, hu], by simpa using hu⟩
  · obtain ⟨e1, e2⟩ := eraseAll_spec hg1 d hd
    refine ⟨d, dropCtrl dt d c1, ?_, hd, hdle, hdmax, e2, ?_⟩
    · unfold truncateSolutionFront
      simp only [hsize, hidx, Res.ok_bind, hmin, Res.pure_eq]
      rw [if_pos (by omega)]
      simp only [Int.toNat_natCast, Int.cast_natCast, e1, Res.ok_bind]
    · intro x t ht
      obtain ⟨u, hu⟩ := hc.compute_ok hdt x (t + (d : K) * dt)
      exact ⟨u, by rw [dropCtrl_compute hdt hg1 d hd x t ht, hcmp, hu], hu⟩

/-- The policy of the examples: three stages, period 1. -/
def exPolicy : Ctrl 1 1 ℚ :=
  ⟨⟨[0, 1, 2, 3], [fun _ => 0, fun _ => 1, fun _ => 2, fun _ => 3], .LIN, 0⟩,
   ⟨[0, 1, 2], [fun _ => 5, fun _ => 6, fun _ => 7], .ZOH, 0⟩,
   ⟨[0, 1, 2], [fun _ _ => 1, fun _ _ => 1, fun _ _ => 1], .ZOH, 0⟩⟩

theorem exPolicy_onGrid : OnGrid 1 3 exPolicy :=
  ⟨by decide, by decide +kernel, by decide +kernel, by decide +kernel, rfl, rfl, rfl, by decide, by decide, by decide⟩

/-- Non-vacuous: a delay of 3/2 removes one stage of a three-stage policy. -/
example : ∃ c', truncateSolutionFront 1 (3 / 2) exPolicy = Res.ok (c', 1) ∧ c'.uff.data.length = 2 := by
  obtain ⟨d, c', h1, h2, h3, h4, h5, -⟩ := C30_truncate 1 one_pos 3 exPolicy exPolicy_onGrid (3 / 2) (by norm_num)
  have hd : d = 1 := by
    interval_cases d <;> first | rfl | (exfalso; norm_num at h3; done) | (exfalso; norm_num at h4; done)
  subst hd
  exact ⟨c', by simpa using h1, h5.uLen⟩

/-! ### C29 -/

omit [IsStrictOrderedRing K] [FloorRing K] in
theorem upd_push {D : Type} [AddCommGroup D] [Module K D] (tr : Traj K D) (d : D) (dt : K) :
    upd tr (.pushBack d dt true) = Res.ok { tr with time := tr.time ++ [dt], data := tr.data ++ [d] } := rfl

/-- A trajectory extended by `k` copies of its last sample, all stamped `dt`. -/
def extendTraj {D : Type} (dt : K) (k : Nat) (tr : Traj K D) (last : D) : Traj K D :=
  { tr with time := tr.time ++ List.replicate k dt, data := tr.data ++ List.replicate k last }

omit [IsStrictOrderedRing K] [FloorRing K] in
theorem push_spec (dt : K) (k : Nat) : ∀ (c : Ctrl n m K) (lu lg lx), c.uff.data.getLast? = some lu →
    c.gain.data.getLast? = some lg → c.x_ref.data.getLast? = some lx →
    repeatRes (pushStep dt) k c =
      Res.ok ⟨extendTraj dt k c.x_ref lx, extendTraj dt k c.uff lu, extendTraj dt k c.gain lg⟩ := by
  induction k with
  | zero => intro c lu lg lx _ _ _; simp [repeatRes, extendTraj]
  | succ k ih =>
      intro c lu lg lx hu hg hx
      have h1 : pushStep dt c = Res.ok ⟨extendTraj dt 1 c.x_ref lx, extendTraj dt 1 c.uff lu, extendTraj dt 1 c.gain lg⟩ := by
        simp only [pushStep, back, hu, hg, hx, Res.ok_bind, upd_push, Res.pure_eq]
        rfl
      rw [repeatRes, h1, Res.ok_bind, ih _ lu lg lx (by simp [extendTraj]) (by simp [extendTraj]) (by simp [extendTraj])]
      simp only [extendTraj, List.append_assoc, List.replicate_append_replicate, Nat.add_comm 1 k]

omit [IsStrictOrderedRing K] [FloorRing K] in
theorem upd_pop {D : Type} [AddCommGroup D] [Module K D] (tr : Traj K D) (h1 : tr.time ≠ []) (h2 : tr.data.length ≠ 0) :
    upd tr .popBack = Res.ok { tr with time := tr.time.dropLast, data := tr.data.dropLast } := by
  unfold upd
  simp only [step]
  rw [if_neg (by tauto)]

omit [IsStrictOrderedRing K] [FloorRing K] in
theorem pop_spec (k : Nat) : ∀ (c : Ctrl n m K) (N : Nat), k ≤ N → c.uff.time.length = N → c.uff.data.length = N →
    c.gain.time.length = N → c.gain.data.length = N → c.x_ref.time.length = N + 1 → c.x_ref.data.length = N + 1 →
    repeatRes popStep k c =
      Res.ok ⟨{ c.x_ref with time := c.x_ref.time.take (N + 1 - k), data := c.x_ref.data.take (N + 1 - k) },
        { c.uff with time := c.uff.time.take (N - k), data := c.uff.data.take (N - k) },
        { c.gain with time := c.gain.time.take (N - k), data := c.gain.data.take (N - k) }⟩ := by
  induction k with
  | zero =>
      intro c N _ h1 h2 h3 h4 h5 h6
      simp only [repeatRes, Nat.sub_zero, ← h5]
      have e : c.x_ref.time.length = c.x_ref.data.length := by rw [h5, h6]
      rw [List.take_length, e, List.take_length]
      rw [← h1, List.take_length, h1, ← h2, List.take_length, h2, ← h3, List.take_length, h3, ← h4, List.take_length]
  | succ k ih =>
      intro c N hk h1 h2 h3 h4 h5 h6
      have q1 := upd_pop c.uff (by intro h; rw [h] at h1; simp at h1; omega) (by omega)
      have q2 := upd_pop c.gain (by intro h; rw [h] at h3; simp at h3; omega) (by omega)
      have q3 := upd_pop c.x_ref (by intro h; rw [h] at h5; simp at h5) (by omega)
      rw [repeatRes]
      simp only [popStep, q1, q2, q3, Res.ok_bind, Res.pure_eq]
      rw [ih _ (N - 1) (by omega) (by simp [h1]) (by simp [h2]) (by simp [h3]) (by simp [h4]) (by simp [h5]; omega)
        (by simp [h6]; omega)]
      simp only [List.dropLast_eq_take, List.take_take, h1, h2, h3, h4, h5, h6]
      have e1 : min (N - 1 - k) (N - 1) = N - (k + 1) := by omega
      have e2 : min (N - 1 + 1 - k) (N + 1 - 1) = N + 1 - (k + 1) := by omega
      rw [e1, e2]

/-- Number of stages requested for a horizon: the horizon divided by the period, rounded to the
nearest integer (halves away from zero), at least one. -/
theorem C29_lround (x : K) : |x - (lround x : K)| ≤ 1 / 2 ∧ (0 ≤ x → x < lround x + 1 / 2) ∧ (x < 0 → (lround x : K) - 1 / 2 < x) := by
  unfold lround
  split_ifs with h
  · have h1 := Int.floor_le (x + 1 / 2)
    have h2 := Int.lt_floor_add_one (x + 1 / 2)
    refine ⟨abs_le.2 ⟨by linarith, by linarith⟩, fun _ => by linarith, fun hx => absurd h (not_le.2 hx)⟩
  · have h1 := Int.floor_le (-x + 1 / 2)
    have h2 := Int.lt_floor_add_one (-x + 1 / 2)
    push_cast
    refine ⟨abs_le.2 ⟨by linarith, by linarith⟩, fun hx => absurd hx h, fun _ => by linarith⟩

/-- Specification of the warm-started samples: `l'` has `k` samples, sample `i` being the old sample
`d + i`, or the last old sample if there is none. -/
def Continues {D : Type} (l : List D) (d k : Nat) (l' : List D) : Prop :=
  l'.length = k ∧ ∀ i, i < k → ∃ v, l'[i]? = some v ∧ l[min (d + i) (l.length - 1)]? = some v

theorem continues_take {D : Type} (l : List D) (d k : Nat) (h : d + k ≤ l.length) :
    Continues l d k ((l.drop d).take k) := by
  refine ⟨by simp; omega, fun i hi => ⟨l[d + i]'(by omega), ?_, ?_⟩⟩
  · rw [List.getElem?_take_of_lt hi, List.getElem?_drop, List.getElem?_eq_getElem]
  · rw [Nat.min_eq_left (by omega), List.getElem?_eq_getElem]

theorem continues_extend {D : Type} (l : List D) (d k : Nat) (last : D) (hl : (l.drop d).getLast? = some last)
    (h : l.length ≤ d + k) :
    Continues l d k (l.drop d ++ List.replicate (k - (l.length - d)) last) := by
  have hd : d < l.length := by
    by_contra hcon
    rw [List.drop_eq_nil_of_le (by omega)] at hl; simp at hl
  refine ⟨by simp; omega, fun i hi => ?_⟩
  rcases Nat.lt_or_ge (d + i) l.length with h1 | h1
  · refine ⟨l[d + i], ?_, ?_⟩
    · rw [List.getElem?_append_left (by simp; omega), List.getElem?_drop, List.getElem?_eq_getElem]
    · rw [Nat.min_eq_left (by omega), List.getElem?_eq_getElem]
  · refine ⟨last, ?_, ?_⟩
    · rw [List.getElem?_append_right (by simp; omega), List.getElem?_replicate, if_pos (by simp; omega)]
    · rw [Nat.min_eq_right (by omega)]
      rw [List.getLast?_drop, if_neg (by omega), List.getLast?_eq_getElem?] at hl
      exact hl

/-- C29 (partial): for every policy on a uniform grid, every delay and every new horizon the
warm-starting policy is produced without error; with `d` the stage active at the delay and
`k = max(1, round(T/dt))` it has exactly `k` control stages and gains and `k + 1` reference states,
sample `i` being the old sample `d + i` or the last one; and if no stage had to be appended, the
result is again on the uniform grid starting at 0.  Missing: the stamps when stages are appended, see
`C29_extension_violated`. -/
theorem C29_warm_start_partial (dt : K) (hdt : 0 < dt) (N : Nat) (c : Ctrl n m K) (hc : OnGrid dt N c) (delay newT : K) :
    ∃ (d k : Nat) (c' : Ctrl n m K), designWarmStartingPolicy dt delay newT c = Res.ok c' ∧
      IsActiveIndex (grid dt N) delay d ∧ (k : Int) = max 1 (lround (newT / dt)) ∧
      Continues c.uff.data d k c'.uff.data ∧ Continues c.gain.data d k c'.gain.data ∧
      Continues c.x_ref.data d (k + 1) c'.x_ref.data ∧
      (k ≤ N - d → OnGrid dt k c') ∧
      (N - d < k → c'.uff.time = grid dt (N - d) ++ List.replicate (k - (N - d)) dt) := by
  obtain ⟨d, hd, hact, hidx⟩ := indexOf_spec dt hdt N c hc delay
  obtain ⟨k, hk⟩ : ∃ k : Nat, (k : Int) = max 1 (lround (newT / dt)) := ⟨(max 1 (lround (newT / dt))).toNat, by omega⟩
  have hk1 : 1 ≤ k := by omega
  have hsize : size c.uff = Res.ok N := by
    unfold size
    rw [if_neg (by rw [hc.uTime, hc.uLen, grid_length]; simp), hc.uLen]
  have hmin : min (d : Int) ((N : Int) - 1) = d := by omega
  have hg1 := hc.recache (d : Int) (by omega)
  set c1 : Ctrl n m K := { c with uff := { c.uff with cache := (d : Int) } } with hc1
  obtain ⟨e1, e2⟩ := eraseAll_spec hg1 d hd
  have hdrop0 : d = 0 → dropCtrl dt d c1 = c1 := by
    rintro rfl
    simp [dropCtrl, shiftTimes]
  have herase : truncateFront dt (d : Int) c1 =
      Res.ok (dropCtrl dt d c1) := by
    unfold truncateFront
    rcases Nat.eq_zero_or_pos d with h | h
    · rw [if_neg (by omega), hdrop0 h]
    · rw [if_pos (by omega)]
      simpa using e1
  have hcur : (if 0 < (d : Int) then (N : Int) - d else (N : Int)) = ((N - d : Nat) : Int) := by
    split_ifs <;> omega
  obtain ⟨lu, hlu⟩ : ∃ v, (c.uff.data.drop d).getLast? = some v := by
    rw [← Option.isSome_iff_exists]; simp [hc.uLen]; omega
  obtain ⟨lg, hlg⟩ : ∃ v, (c.gain.data.drop d).getLast? = some v := by
    rw [← Option.isSome_iff_exists]; simp [hc.gLen]; omega
  obtain ⟨lx, hlx⟩ : ∃ v, (c.x_ref.data.drop d).getLast? = some v := by
    rw [← Option.isSome_iff_exists]; simp [hc.xLen]; omega
  have hpush := push_spec dt (k - (N - d)) (dropCtrl dt d c1) lu lg lx hlu hlg hlx
  have hpop := pop_spec (N - d - k) (dropCtrl dt d c1) (N - d) (by omega) (by rw [e2.uTime, grid_length]) e2.uLen
    (by rw [e2.gTime, grid_length]) e2.gLen (by rw [e2.xTime, grid_length]) e2.xLen
  have hrun : designWarmStartingPolicy dt delay newT c =
      (resize dt k ((N - d : Nat) : Int) (dropCtrl dt d c1) >>= fun c' => size c'.uff >>= fun s => if s = 0 then Res.exc else Res.ok c') := by
    unfold designWarmStartingPolicy
    simp only [hsize, hidx, Res.ok_bind, hmin, herase, hcur, ← hk]
  rcases Nat.lt_or_ge (N - d) k with hlt | hge
  · have ek : ((k : Int) - ((N - d : Nat) : Int)).toNat = k - (N - d) := by omega
    unfold resize at hrun
    rw [if_pos (by omega), ek, hpush, Res.ok_bind] at hrun
    have hs : size (extendTraj dt (k - (N - d)) (dropCtrl dt d c1).uff lu) = Res.ok k := by
      unfold size
      have h1 : (extendTraj dt (k - (N - d)) (dropCtrl dt d c1).uff lu).data.length = k := by
        simp [extendTraj, e2.uLen]; omega
      have h2 : (extendTraj dt (k - (N - d)) (dropCtrl dt d c1).uff lu).time.length = k := by
        simp [extendTraj, e2.uTime]; omega
      rw [h1, h2]; simp
    rw [hs, Res.ok_bind, if_neg (by omega)] at hrun
    refine ⟨d, k, _, hrun, hact, hk, ?_, ?_, ?_, fun h => absurd hlt (by omega), fun _ => ?_⟩
    · have := continues_extend c.uff.data d k lu hlu (by rw [hc.uLen]; omega)
      rw [hc.uLen] at this; exact this
    · have := continues_extend c.gain.data d k lg hlg (by rw [hc.gLen]; omega)
      rw [hc.gLen] at this; exact this
    · have := continues_extend c.x_ref.data d (k + 1) lx hlx (by rw [hc.xLen]; omega)
      rw [hc.xLen, show k + 1 - (N + 1 - d) = k - (N - d) by omega] at this; exact this
    · show (dropCtrl dt d c1).uff.time ++ _ = _
      rw [e2.uTime]
  · have hc' : ∃ c' : Ctrl n m K, resize dt k ((N - d : Nat) : Int) (dropCtrl dt d c1) = Res.ok c' ∧
        c' = ⟨{ (dropCtrl dt d c1).x_ref with time := (dropCtrl dt d c1).x_ref.time.take (k + 1), data := (dropCtrl dt d c1).x_ref.data.take (k + 1) },
          { (dropCtrl dt d c1).uff with time := (dropCtrl dt d c1).uff.time.take k, data := (dropCtrl dt d c1).uff.data.take k },
          { (dropCtrl dt d c1).gain with time := (dropCtrl dt d c1).gain.time.take k, data := (dropCtrl dt d c1).gain.data.take k }⟩ := by
      refine ⟨_, ?_, rfl⟩
      unfold resize
      rw [if_neg (by omega)]
      have e3 : N - d - (N - d - k) = k := by omega
      have e4 : N - d + 1 - (N - d - k) = k + 1 := by omega
      rw [e3, e4] at hpop
      rcases Nat.lt_or_ge k (N - d) with h | h
      · rw [if_pos (by omega), show (((N - d : Nat) : Int) - k).toNat = N - d - k by omega]
        exact hpop
      · rw [if_neg (by omega)]
        rw [show N - d - k = 0 by omega] at hpop
        exact hpop
    obtain ⟨c', h1, h2⟩ := hc'
    have hgrid : OnGrid dt k c' := by
      rw [h2]
      refine ⟨hk1, ?_, ?_, ?_, ?_, ?_, ?_, e2.uCache, e2.gCache, e2.xCache⟩
      · show List.take k _ = _
        rw [e2.uTime, grid_take _ _ _ hge]
      · show List.take k _ = _
        rw [e2.gTime, grid_take _ _ _ hge]
      · show List.take (k + 1) _ = _
        rw [e2.xTime, grid_take _ _ _ (by omega)]
      · show (List.take k _).length = _
        rw [List.length_take, e2.uLen]; omega
      · show (List.take k _).length = _
        rw [List.length_take, e2.gLen]; omega
      · show (List.take (k + 1) _).length = _
        rw [List.length_take, e2.xLen]; omega
    have hs : size c'.uff = Res.ok k := by
      unfold size
      rw [if_neg (by rw [hgrid.uLen, hgrid.uTime, grid_length]; simp), hgrid.uLen]
    rw [h1, Res.ok_bind, hs, Res.ok_bind, if_neg (by omega)] at hrun
    refine ⟨d, k, c', hrun, hact, hk, ?_, ?_, ?_, fun _ => hgrid, fun h => absurd h (by omega)⟩
    · rw [h2]; exact continues_take c.uff.data d k (by rw [hc.uLen]; omega)
    · rw [h2]; exact continues_take c.gain.data d k (by rw [hc.gLen]; omega)
    · rw [h2]; exact continues_take c.x_ref.data d (k + 1) (by rw [hc.xLen]; omega)

/-- C29, disagreement: warm starting the three-stage example policy after a delay of one stage with a
horizon of four stages appends two stages, both stamped `dt` instead of `2 dt` and `3 dt`: the stamps
0, 1, 1, 1 are not a uniform grid. -/
theorem C29_extension_violated :
    ∃ c', designWarmStartingPolicy 1 1 4 exPolicy = Res.ok c' ∧ c'.uff.time = [0, 1, 1, 1] ∧ c'.uff.time ≠ grid 1 4 := by
  obtain ⟨d, k, c', h1, h2, h3, -, -, -, -, h4⟩ := C29_warm_start_partial 1 one_pos 3 exPolicy exPolicy_onGrid 1 4
  have hd : d = 1 := h2.unique (Or.inl ⟨by simp, by simp, by
    intro j hj hlt
    rw [grid_get]
    have : (1 : ℚ) < j := by exact_mod_cast hlt
    linarith⟩)
  have hk : k = 4 := by
    have : max 1 (lround ((4 : ℚ) / 1)) = 4 := by decide +kernel
    omega
  subst hd hk
  have h5 := h4 (by norm_num)
  refine ⟨c', h1, ?_, ?_⟩
  · rw [h5]; decide +kernel
  · rw [h5]; decide +kernel

/-- Non-vacuous: the unextended case of `C29_warm_start_partial`. -/
example : (designWarmStartingPolicy 1 1 (3/2) exPolicy).isOk = true := by
  obtain ⟨d, k, c', h1, -⟩ := C29_warm_start_partial 1 one_pos 3 exPolicy exPolicy_onGrid 1 (3/2)
  rw [h1]; rfl

end CT.PolicyHandler
