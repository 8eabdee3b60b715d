import Verif.Props.DmsVector

/-! # C47, C48: time grid and control splines of multiple shooting -/

namespace CT.Dms

/-! ### Time grid -/

/-- Calls that change the uniform grid. -/
inductive GridOp (K : Type) where
  | horizon (T : K)
  | shots (N : Nat)

section Grid
variable {K : Type} [Field K]

def GridOp.apply (g : TimeGrid K) : GridOp K → TimeGrid K
  | .horizon T => g.changeTimeHorizon T
  | .shots N => g.changeShotCount N

/-- Horizon and shot count asked for last. -/
def wanted : Nat → K → List (GridOp K) → Nat × K
  | N, T, [] => (N, T)
  | N, _, .horizon T :: ops => wanted N T ops
  | _, T, .shots N :: ops => wanted N T ops

theorem idx_eq {β : Type} {l : List β} {i : Nat} {b : β} (h : l[i]? = some b) : idx l i = .ok b := by
  rw [idx, h]

theorem foldl_set (f : Nat → K) (k : Nat) (t : List K) :
    ((List.range k).foldl (fun t i => t.set i (f i)) t).length = t.length ∧
    ∀ i, ((List.range k).foldl (fun t i => t.set i (f i)) t)[i]?
      = if i < k ∧ i < t.length then some (f i) else t[i]? := by
  induction k with
  | zero => simp
  | succ k ih =>
    obtain ⟨hl, hg⟩ := ih
    rw [List.range_succ, List.foldl_append]
    refine ⟨by simp [hl], fun i => ?_⟩
    simp only [List.foldl_cons, List.foldl_nil]
    rw [List.getElem?_set, hl, hg i]
    by_cases hik : k = i
    · subst hik
      by_cases hlt : k < t.length
      · rw [if_pos rfl, if_pos hlt, if_pos ⟨by omega, hlt⟩]
      · rw [if_pos rfl, if_neg hlt, if_neg (by omega), List.getElem?_eq_none (by omega)]
    · rw [if_neg hik]
      by_cases hlt : i < k ∧ i < t.length
      · rw [if_pos hlt, if_pos (by omega)]
      · rw [if_neg hlt, if_neg (by omega)]

/-- The grid with `N` equal shots over `T`. -/
def Uniform (g : TimeGrid K) (N : Nat) (T : K) : Prop :=
  g.N = N ∧ g.T = T ∧ g.t.length = N + 1 ∧ ∀ i ≤ N, g.t[i]? = some ((i : K) * (T / (N : K)))

theorem makeUniformGrid_uniform (g : TimeGrid K) (h : g.t.length = g.N + 1) : Uniform g.makeUniformGrid g.N g.T := by
  obtain ⟨hl, hg⟩ := foldl_set (fun i => (i : K) * (g.T / (g.N : K))) (g.N + 1) g.t
  refine ⟨rfl, rfl, by rw [TimeGrid.makeUniformGrid, hl, h], fun i hi => ?_⟩
  rw [TimeGrid.makeUniformGrid, hg i, if_pos (by omega)]

theorem run_uniform (ops : List (GridOp K)) (g : TimeGrid K) (N : Nat) (T : K) (h : Uniform g N T) :
    Uniform (ops.foldl GridOp.apply g) (wanted N T ops).1 (wanted N T ops).2 := by
  induction ops generalizing g N T with
  | nil => exact h
  | cons op ops ih =>
    obtain ⟨h1, h2, h3, h4⟩ := h
    cases op with
    | horizon T' =>
      refine ih _ _ _ ?_
      have := makeUniformGrid_uniform { g with T := T' } (by simp [h3, h1])
      simpa [GridOp.apply, TimeGrid.changeTimeHorizon, h1] using this
    | shots N' =>
      refine ih _ _ _ ?_
      have := makeUniformGrid_uniform (K := K) ⟨N', g.T, List.replicate (N' + 1) 0⟩ (by simp)
      simpa [GridOp.apply, TimeGrid.changeShotCount, h2] using this

theorem uniform_mk (N : Nat) (T : K) : Uniform (TimeGrid.mk' N T) N T :=
  makeUniformGrid_uniform ⟨N, T, List.replicate (N + 1) 0⟩ (by simp)

variable [LinearOrder K] [IsStrictOrderedRing K]

/-- Valid arguments: at least one shot, positive horizon. -/
def GridOp.Valid : GridOp K → Prop
  | .horizon T => 0 < T
  | .shots N => 1 ≤ N

theorem wanted_valid (ops : List (GridOp K)) (N : Nat) (T : K) (hN : 1 ≤ N) (hT : 0 < T) (h : ∀ op ∈ ops, op.Valid) :
    1 ≤ (wanted N T ops).1 ∧ 0 < (wanted N T ops).2 := by
  induction ops generalizing N T with
  | nil => exact ⟨hN, hT⟩
  | cons op ops ih =>
    cases op with
    | horizon T' => exact ih N T' hN (h (.horizon T') (by simp)) fun o ho => h o (by simp [ho])
    | shots N' => exact ih N' T (h (.shots N') (by simp)) hT fun o ho => h o (by simp [ho])

/-- C47: after any sequence of valid changes the grid for the last requested `N` and `T` starts at 0, ends at `T`, has
`N` shots each ending where the next one starts, and the shots have positive (equal) durations that sum to `T`; there is
no shot beyond the last. -/
theorem C47_grid (N : Nat) (T : K) (hN : 1 ≤ N) (hT : 0 < T) (ops : List (GridOp K)) (hv : ∀ op ∈ ops, op.Valid) :
    let g := ops.foldl GridOp.apply (TimeGrid.mk' N T)
    let N' := (wanted N T ops).1
    let T' := (wanted N T ops).2
    g.start 0 = .ok 0 ∧ g.stop (N' - 1) = .ok T' ∧ g.optimizedHorizon = .ok T' ∧ g.T = T' ∧
    (∀ i < N', ∃ a b, g.start i = .ok a ∧ g.stop i = .ok b ∧ g.start (i + 1) = .ok b ∧ a < b ∧
      g.duration i = .ok (b - a) ∧ b - a = T' / (N' : K)) ∧
    (∃ ds, (List.range N').mapM g.duration = .ok ds ∧ ds.sum = T') ∧
    ∀ i, N' ≤ i → g.stop i = .ub ∧ g.duration i = .ub := by
  intro g N' T'
  obtain ⟨hN', hT'⟩ := wanted_valid ops N T hN hT hv
  obtain ⟨u1, u2, u3, u4⟩ := run_uniform ops _ N T (uniform_mk N T)
  change 1 ≤ N' at hN'
  change 0 < T' at hT'
  change g.t.length = N' + 1 at u3
  change ∀ i ≤ N', g.t[i]? = some ((i : K) * (T' / (N' : K))) at u4
  have hNK : (0 : K) < (N' : K) := by exact_mod_cast hN'
  have hd : ∀ i < N', g.duration i = .ok (T' / (N' : K)) := by
    intro i hi
    rw [TimeGrid.duration, idx_eq (u4 (i + 1) (by omega)), Res.ok_bind, idx_eq (u4 i (by omega)), Res.ok_bind, Res.pure_eq]
    congr 1
    push_cast
    ring
  have hlast : (N' : K) * (T' / (N' : K)) = T' := by field_simp
  refine ⟨?_, ?_, ?_, u2, fun i hi => ⟨(i : K) * (T' / (N' : K)), ((i + 1 : Nat) : K) * (T' / (N' : K)), idx_eq (u4 i (by omega)),
    idx_eq (u4 (i + 1) (by omega)), idx_eq (u4 (i + 1) (by omega)), ?_, ?_, ?_⟩, ⟨List.replicate N' (T' / (N' : K)), ?_, ?_⟩,
    fun i hi => ⟨?_, ?_⟩⟩
  · rw [TimeGrid.start, idx_eq (u4 0 (by omega))]; simp
  · rw [TimeGrid.stop, Nat.sub_add_cancel hN', idx_eq (u4 N' (le_refl _)), hlast]
  · have : g.t.getLast? = some T' := by
      rw [List.getLast?_eq_getElem?, u3, Nat.add_sub_cancel, u4 N' (le_refl _), hlast]
    rw [TimeGrid.optimizedHorizon, back, this]
  · have : (0 : K) < T' / (N' : K) := div_pos hT' hNK
    push_cast
    linarith [this, add_mul (i : K) 1 (T' / (N' : K))]
  · rw [hd i hi]
    congr 1
    push_cast
    ring
  · push_cast; ring
  · have := mapM_ok (List.range N') g.duration (fun _ => T' / (N' : K)) fun i hi => hd i (List.mem_range.1 hi)
    rw [this]
    simp
  · rw [List.sum_replicate, nsmul_eq_mul, hlast]
  · rw [TimeGrid.stop, idx, List.getElem?_eq_none (by omega)]
  · rw [TimeGrid.duration, idx, List.getElem?_eq_none (by omega)]; rfl

example : (∀ op ∈ [GridOp.horizon (3 : Rat), GridOp.shots 4], op.Valid) ∧
    (([GridOp.horizon (3 : Rat), GridOp.shots 4].foldl GridOp.apply (TimeGrid.mk' 2 1)).t = [0, 3/4, 3/2, 9/4, 3]) := by
  constructor
  · intro op hop
    simp only [List.mem_cons, List.not_mem_nil, or_false] at hop
    rcases hop with rfl | rfl
    · show (0 : Rat) < 3; norm_num
    · show 1 ≤ 4; norm_num
  · decide +kernel

omit [LinearOrder K] [IsStrictOrderedRing K] in
theorem updateLoop_eq (hs : List K) : ∀ (i : Nat) (t : List K) (a : K), t[i]? = some a → i + hs.length < t.length →
    ∃ t', updateLoop hs i t = .ok t' ∧ t'.length = t.length ∧ (∀ j ≤ i, t'[j]? = t[j]?) ∧
      ∀ j ≤ hs.length, t'[i + j]? = some (a + (hs.take j).sum) := by
  induction hs with
  | nil => intro i t a ha _; exact ⟨t, rfl, rfl, fun _ _ => rfl, fun j hj => by simp at hj; simp [hj, ha]⟩
  | cons h hs ih =>
    intro i t a ha hl
    simp only [List.length_cons] at hl
    have hs1 : (t.set (i + 1) (a + h))[i + 1]? = some (a + h) := by rw [List.getElem?_set]; simp; omega
    obtain ⟨t', e, l', hlow, hup⟩ := ih (i + 1) (t.set (i + 1) (a + h)) (a + h) hs1 (by simp; omega)
    refine ⟨t', ?_, by simpa using l', fun j hj => ?_, fun j hj => ?_⟩
    · rw [updateLoop, idx_eq ha, Res.ok_bind, if_pos (by omega), e]
    · rw [hlow j (by omega), List.getElem?_set, if_neg (by omega)]
    · cases j with
      | zero =>
        have := hlow i (by omega)
        rw [Nat.add_zero, this, List.getElem?_set, if_neg (by omega), ha]
        simp
      | succ j =>
        have := hup j (by simpa using hj)
        rw [show i + (j + 1) = i + 1 + j by omega, this]
        simp [add_assoc]

/-- C47: handing over segment durations makes the shots start at zero and last exactly as given; more durations than
shots are written beyond the grid. -/
theorem C47_segments (g : TimeGrid K) (hg : g.t.length = g.N + 1) (h : List K) :
    (h.length = g.N → ∃ g', g.updateTimeGrid h = .ok g' ∧ g'.t.length = g.N + 1 ∧ g'.start 0 = .ok 0 ∧
      (∀ i (hi : i < h.length), g'.duration i = .ok h[i]) ∧ g'.optimizedHorizon = .ok h.sum) ∧
    (g.N < h.length → g.updateTimeGrid h = .ub) := by
  have hne : ¬ g.t.length = 0 := by omega
  have h0 : (g.t.set 0 0)[0]? = some (0 : K) := by rw [List.getElem?_set, if_pos rfl, if_pos (by omega)]
  constructor
  · intro hl
    obtain ⟨t', e, l', hlow, hup⟩ := updateLoop_eq h 0 (g.t.set 0 0) 0 h0 (by simp; omega)
    refine ⟨{ g with t := t' }, ?_, by simpa [hg] using l', ?_, fun i hi => ?_, ?_⟩
    · rw [TimeGrid.updateTimeGrid, if_neg hne, e, Res.ok_bind]; rfl
    · have := hup 0 (by omega)
      rw [TimeGrid.start]
      exact idx_eq (by simpa using this)
    · have a := hup i (by omega)
      have b := hup (i + 1) (by omega)
      simp only [Nat.zero_add, zero_add] at a b
      rw [TimeGrid.duration, idx_eq b, Res.ok_bind, idx_eq a, Res.ok_bind, Res.pure_eq]
      congr 1
      rw [List.take_succ_eq_append_getElem hi, List.sum_append]
      simp
    · have := hup h.length (le_refl _)
      have hlast : t'.getLast? = some h.sum := by
        rw [List.getLast?_eq_getElem?, l']
        simp only [List.length_set, hg, Nat.add_sub_cancel]
        rw [← hl]
        simpa using this
      rw [TimeGrid.optimizedHorizon, back, hlast]
  · intro hl
    have : ∀ (hs : List K) (i : Nat) (t : List K), i < t.length → t.length ≤ i + hs.length → updateLoop hs i t = .ub := by
      intro hs
      induction hs with
      | nil => intro i t h1 h2; simp at h2; omega
      | cons a hs ih =>
        intro i t h1 h2
        rw [updateLoop, idx_eq (List.getElem?_eq_getElem h1), Res.ok_bind]
        split
        · next hc => exact ih (i + 1) _ (by simpa using hc) (by simp at h2 ⊢; omega)
        · rfl
    rw [TimeGrid.updateTimeGrid, if_neg hne, this h 0 _ (by simp; omega) (by simp; omega)]
    rfl

example : ∃ g', (TimeGrid.mk' 2 (1 : Rat)).updateTimeGrid [1/3, 1/2] = .ok g' ∧ g'.t = [0, 1/3, 5/6] :=
  ⟨_, rfl, by decide +kernel⟩

/-! ### Splines -/

variable {d : Nat}

/-- Shot `i` of the grid runs from `t0` to `t1`, and its nodes are `a` and `b`. -/
structure Shot (g : TimeGrid K) (nodes : List (Fin d → K)) (i : Nat) (t0 t1 : K) (a b : Fin d → K) : Prop where
  start : g.start i = .ok t0
  stop : g.stop i = .ok t1
  pos : t0 < t1
  nodeA : nodes[i]? = some a
  nodeB : nodes[i + 1]? = some b

omit [IsStrictOrderedRing K] in
theorem linEval_eq {g : TimeGrid K} {nodes : List (Fin d → K)} {i : Nat} {t0 t1 : K} {a b : Fin d → K}
    (h : Shot g nodes i t0 t1 a b) (t : K) :
    linEval g nodes t i = .ok fun j => a j * (t1 - t) / (t1 - t0) + b j * (t - t0) / (t1 - t0) := by
  have hd : g.duration i = .ok (t1 - t0) := by
    have h1 := h.start
    have h2 := h.stop
    rw [TimeGrid.start] at h1
    rw [TimeGrid.stop] at h2
    rw [TimeGrid.duration, h2, Res.ok_bind, h1]; rfl
  rw [linEval, hd, Res.ok_bind, h.start, Res.ok_bind, h.stop, Res.ok_bind, idx_eq h.nodeA, Res.ok_bind, idx_eq h.nodeB]
  rfl

/-- C48: the piecewise-linear spline equals the nodes at the ends of the shot and stays between them, component by
component; it is the same at the end of a shot and at the start of the next one. -/
theorem C48_values {g : TimeGrid K} {nodes : List (Fin d → K)} {i : Nat} {t0 t1 : K} {a b : Fin d → K}
    (h : Shot g nodes i t0 t1 a b) :
    linEval g nodes t0 i = .ok a ∧ linEval g nodes t1 i = .ok b ∧
    (∀ t, t0 ≤ t → t ≤ t1 → ∃ v, linEval g nodes t i = .ok v ∧ ∀ j, min (a j) (b j) ≤ v j ∧ v j ≤ max (a j) (b j)) ∧
    ∀ t2 c, Shot g nodes (i + 1) t1 t2 b c → linEval g nodes t1 i = linEval g nodes t1 (i + 1) := by
  have hp : 0 < t1 - t0 := sub_pos.2 h.pos
  have e0 : linEval g nodes t0 i = .ok a := by
    rw [linEval_eq h]
    congr 1
    funext j
    rw [sub_self, mul_zero, zero_div, add_zero, mul_div_assoc, div_self hp.ne', mul_one]
  have e1 : linEval g nodes t1 i = .ok b := by
    rw [linEval_eq h]
    congr 1
    funext j
    rw [sub_self, mul_zero, zero_div, zero_add, mul_div_assoc, div_self hp.ne', mul_one]
  refine ⟨e0, e1, fun t h0 h1 => ⟨_, linEval_eq h t, fun j => ?_⟩, fun t2 c h2 => ?_⟩
  · set p := (t1 - t) / (t1 - t0) with hpd
    set q := (t - t0) / (t1 - t0) with hqd
    have hp0 : 0 ≤ p := div_nonneg (by linarith) hp.le
    have hq0 : 0 ≤ q := div_nonneg (by linarith) hp.le
    have hpq : p + q = 1 := by
      rw [hpd, hqd]
      field_simp
      ring
    have e : a j * (t1 - t) / (t1 - t0) + b j * (t - t0) / (t1 - t0) = a j * p + b j * q := by
      rw [mul_div_assoc, mul_div_assoc]
    rw [e]
    have m1 := mul_le_mul_of_nonneg_right (min_le_left (a j) (b j)) hp0
    have m2 := mul_le_mul_of_nonneg_right (min_le_right (a j) (b j)) hq0
    have m3 := mul_le_mul_of_nonneg_right (le_max_left (a j) (b j)) hp0
    have m4 := mul_le_mul_of_nonneg_right (le_max_right (a j) (b j)) hq0
    constructor
    · calc min (a j) (b j) = min (a j) (b j) * p + min (a j) (b j) * q := by rw [← mul_add, hpq, mul_one]
        _ ≤ _ := add_le_add m1 m2
    · calc a j * p + b j * q ≤ max (a j) (b j) * p + max (a j) (b j) * q := add_le_add m3 m4
        _ = _ := by rw [← mul_add, hpq, mul_one]
  · rw [e1]
    have hp2 : 0 < t2 - t1 := sub_pos.2 h2.pos
    rw [linEval_eq h2]
    congr 1
    funext j
    rw [sub_self, mul_zero, zero_div, add_zero, mul_div_assoc, div_self hp2.ne', mul_one]

omit [IsStrictOrderedRing K] in
/-- C48: the reported derivatives with respect to the two nodes are exact: changing a node by `δ` changes the spline by
the reported matrix times `δ`, at every time. -/
theorem C48_nodes {g : TimeGrid K} {nodes : List (Fin d → K)} {i : Nat} {t0 t1 : K} {a b : Fin d → K}
    (h : Shot g nodes i t0 t1 a b) (t : K) (δ : Fin d → K) :
    ∃ v M M', linEval g nodes t i = .ok v ∧ linDq g t i = .ok M ∧ linDqNext g t i = .ok M' ∧
      linEval g (nodes.set i (a + δ)) t i = .ok (v + M.mulVec δ) ∧
      linEval g (nodes.set (i + 1) (b + δ)) t i = .ok (v + M'.mulVec δ) := by
  have hd : g.duration i = .ok (t1 - t0) := by
    have h1 := h.start
    have h2 := h.stop
    rw [TimeGrid.start] at h1
    rw [TimeGrid.stop] at h2
    rw [TimeGrid.duration, h2, Res.ok_bind, h1]; rfl
  have hl : i + 1 < nodes.length := by
    by_contra hc
    have := h.nodeB
    rw [List.getElem?_eq_none (by omega)] at this
    exact absurd this (by simp)
  have hA : Shot g (nodes.set i (a + δ)) i t0 t1 (a + δ) b :=
    ⟨h.start, h.stop, h.pos, by rw [List.getElem?_set]; simp; omega, by rw [List.getElem?_set, if_neg (by omega), h.nodeB]⟩
  have hB : Shot g (nodes.set (i + 1) (b + δ)) i t0 t1 a (b + δ) :=
    ⟨h.start, h.stop, h.pos, by rw [List.getElem?_set, if_neg (by omega), h.nodeA], by rw [List.getElem?_set]; simp; omega⟩
  refine ⟨_, ((t1 - t) / (t1 - t0)) • 1, ((t - t0) / (t1 - t0)) • 1, linEval_eq h t, ?_, ?_, ?_, ?_⟩
  · rw [linDq, hd, Res.ok_bind, h.stop]; rfl
  · rw [linDqNext, hd, Res.ok_bind, h.start]; rfl
  · rw [linEval_eq hA]
    congr 1
    funext j
    simp only [Pi.add_apply, Matrix.smul_mulVec, Matrix.one_mulVec, Pi.smul_apply, smul_eq_mul]
    ring
  · rw [linEval_eq hB]
    congr 1
    funext j
    simp only [Pi.add_apply, Matrix.smul_mulVec, Matrix.one_mulVec, Pi.smul_apply, smul_eq_mul]
    ring

end Grid

/-- C48: the reported time derivative is the derivative of the spline in time, at every time. -/
theorem C48_time {d : Nat} {g : TimeGrid ℝ} {nodes : List (Fin d → ℝ)} {i : Nat} {t0 t1 : ℝ} {a b : Fin d → ℝ}
    (h : Shot g nodes i t0 t1 a b) (t : ℝ) :
    ∃ (v : ℝ → Fin d → ℝ) (v' : Fin d → ℝ), (∀ s, linEval g nodes s i = .ok (v s)) ∧ linDt g nodes i = .ok v' ∧
      HasDerivAt v v' t := by
  have hd : g.duration i = .ok (t1 - t0) := by
    have h1 := h.start
    have h2 := h.stop
    rw [TimeGrid.start] at h1
    rw [TimeGrid.stop] at h2
    rw [TimeGrid.duration, h2, Res.ok_bind, h1]; rfl
  refine ⟨_, fun j => (b j - a j) / (t1 - t0), fun s => linEval_eq h s, ?_, ?_⟩
  · rw [linDt, hd, Res.ok_bind, idx_eq h.nodeB, Res.ok_bind, idx_eq h.nodeA]; rfl
  · rw [hasDerivAt_pi]
    intro j
    have h1 : HasDerivAt (fun s : ℝ => a j * (t1 - s) / (t1 - t0)) (a j * (0 - 1) / (t1 - t0)) t :=
      (((hasDerivAt_const t t1).sub (hasDerivAt_id t)).const_mul (a j)).div_const _
    have h2 : HasDerivAt (fun s : ℝ => b j * (s - t0) / (t1 - t0)) (b j * 1 / (t1 - t0)) t :=
      (((hasDerivAt_id t).sub_const t0).const_mul (b j)).div_const _
    exact (h1.add h2).congr_deriv (by ring)

/-- C48: the reported derivative with respect to the duration of the shot is the derivative of the spline when the end
of the shot moves and its start stays. -/
theorem C48_duration {d : Nat} {g : TimeGrid ℝ} {nodes : List (Fin d → ℝ)} {i : Nat} {t0 t1 : ℝ} {a b : Fin d → ℝ}
    (h : Shot g nodes i t0 t1 a b) (t : ℝ) :
    ∃ (v : ℝ → Fin d → ℝ) (v' : Fin d → ℝ),
      (∀ s, 0 < s → linEval { g with t := g.t.set (i + 1) (t0 + s) } nodes t i = .ok (v s)) ∧
      linDh g nodes t i = .ok v' ∧ HasDerivAt v v' (t1 - t0) := by
  have hd : g.duration i = .ok (t1 - t0) := by
    have h1 := h.start
    have h2 := h.stop
    rw [TimeGrid.start] at h1
    rw [TimeGrid.stop] at h2
    rw [TimeGrid.duration, h2, Res.ok_bind, h1]; rfl
  have hl : i + 1 < g.t.length := by
    by_contra hc
    have := h.stop
    rw [TimeGrid.stop, idx, List.getElem?_eq_none (by omega)] at this
    exact absurd this (by simp)
  have hgi : g.t[i]? = some t0 := by
    have := h.start
    rw [TimeGrid.start, idx, List.getElem?_eq_getElem (by omega)] at this
    rw [List.getElem?_eq_getElem (by omega)]
    simpa using this
  refine ⟨fun s j => a j * (t0 + s - t) / s + b j * (t - t0) / s, fun j => (t - t0) * (a j - b j) / ((t1 - t0) * (t1 - t0)),
    fun s hs => ?_, ?_, ?_⟩
  · have hS : Shot { g with t := g.t.set (i + 1) (t0 + s) } nodes i t0 (t0 + s) a b :=
      ⟨idx_eq (by rw [List.getElem?_set, if_neg (by omega), hgi]), idx_eq (by rw [List.getElem?_set]; simp; omega), by linarith,
        h.nodeA, h.nodeB⟩
    rw [linEval_eq hS]
    congr 1
    funext j
    rw [show t0 + s - t0 = s by ring]
  · rw [linDh, hd, Res.ok_bind, h.start, Res.ok_bind, idx_eq h.nodeA, Res.ok_bind, idx_eq h.nodeB]; rfl
  · rw [hasDerivAt_pi]
    intro j
    have hp : t1 - t0 ≠ 0 := (sub_pos.2 h.pos).ne'
    have h1 : HasDerivAt (fun s : ℝ => a j * (t0 + s - t) / s)
        ((a j * 1 * (t1 - t0) - a j * (t0 + (t1 - t0) - t) * 1) / (t1 - t0) ^ 2) (t1 - t0) :=
      ((((hasDerivAt_id (t1 - t0)).const_add t0).sub_const t).const_mul (a j)).div (hasDerivAt_id _) hp
    have h2 : HasDerivAt (fun s : ℝ => b j * (t - t0) / s)
        ((0 * (t1 - t0) - b j * (t - t0) * 1) / (t1 - t0) ^ 2) (t1 - t0) :=
      (hasDerivAt_const (t1 - t0) (b j * (t - t0))).div (hasDerivAt_id _) hp
    refine (h1.add h2).congr_deriv ?_
    field_simp
    ring

section Zoh
variable {K : Type} [Field K] {d : Nat}

/-- C48: the zero-order-hold spline equals node `i` during shot `i`; its reported derivatives are exact. -/
theorem C48_hold (holds : List (Fin d → K)) (i : Nat) (a : Fin d → K) (h : holds[i]? = some a) (t : K) (δ : Fin d → K) :
    zohEval holds t i = .ok a ∧ (∀ s, zohEval holds (t + s) i = .ok (a + s • (zohDt : Fin d → K))) ∧
    zohEval (holds.set i (a + δ)) t i = .ok (a + (zohDq : Matrix (Fin d) (Fin d) K).mulVec δ) ∧
    zohEval (holds.set (i + 1) δ) t i = .ok a ∧ (zohDqNext : Matrix (Fin d) (Fin d) K).mulVec δ = 0 := by
  have hl : i < holds.length := by
    by_contra hc
    rw [List.getElem?_eq_none (by omega)] at h
    exact absurd h (by simp)
  refine ⟨idx_eq h, fun s => ?_, ?_, ?_, ?_⟩
  · rw [zohEval, idx_eq h]; simp [zohDt]
  · rw [zohEval, idx_eq (b := a + δ) (by rw [List.getElem?_set]; simp; omega)]; simp [zohDq]
  · rw [zohEval, idx_eq (by rw [List.getElem?_set, if_neg (by omega), h])]
  · simp [zohDqNext]

/-- Beyond the last shot the piecewise-linear spline reads outside the time grid. -/
theorem linEval_last (g : TimeGrid K) (nodes : List (Fin d → K)) (N : Nat) (h : g.t.length = N + 1) (t : K) :
    linEval g nodes t N = .ub := by
  rw [linEval, TimeGrid.duration, idx, List.getElem?_eq_none (by omega)]; rfl

end Zoh

example : Shot (TimeGrid.mk' 2 (1 : Rat)) [![0], ![4], ![2]] 1 (1/2) 1 ![4] ![2] :=
  ⟨by decide +kernel, by decide +kernel, by norm_num, rfl, rfl⟩

end CT.Dms
