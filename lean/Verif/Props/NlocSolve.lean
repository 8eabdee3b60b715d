import Verif.Model.NlocSolve
import Verif.Props.NlocLineSearch
import Mathlib.Data.List.GetD

/-!
# C175: a complete solve of the nonlinear optimal control solver
-/

namespace CT.Nloc

variable {X U R : Type}

/-! ### Specification -/

/-- How far a trajectory misses the dynamics at every stage (and zero at the terminal stage). -/
def defects [AddCommGroup X] [AddCommGroup U] (f : X → ℕ → U → X) (K : ℕ) (x : List X) (u : List U) : List X :=
  (List.range (K + 1)).map fun i =>
    if i < K then f (x.getD i 0) i (u.getD i 0) - x.getD (i + 1) 0 else 0

/-- A trajectory over `K` stages that starts in `x0` and satisfies the dynamics at every stage inside a
shot of `n` stages (the last stage of a shot that is followed by another one may have a gap). -/
structure Feasible [AddCommGroup X] [AddCommGroup U] (f : X → ℕ → U → X) (K n : ℕ) (x0 : X) (x : List X)
    (u : List U) : Prop where
  states : x.length = K + 1
  controls : u.length = K
  start : x.getD 0 0 = x0
  dynamics : ∀ i < K, ¬ (i + 1 < K ∧ n ∣ i + 1) → x.getD (i + 1) 0 = f (x.getD i 0) i (u.getD i 0)

/-- What the solver relies on in the linear-quadratic solver: as many increments and gains as there are
stages, and no increment of the initial state. -/
structure LqSizes [Zero X] (K : ℕ) (out : LqOut X U R) : Prop where
  dx : out.dirs.dx.length = K + 1
  du : out.dirs.du.length = K
  dxRef : out.dirs.dxRef.length = K + 1
  gains : out.L.length = K
  start : out.dirs.dx.getD 0 0 = 0

/-! ### Sizes of the arrays after a roll-out -/

/-- Exactly as many entries as stages. -/
private structure Len (C : RollCfg X U) (r : Roll X U) : Prop where
  hx : r.x.length = C.K + 1
  hu : r.u.length = C.K
  hs : r.s.length = C.K + 1

private theorem setAt_len {α : Type} {l l' : List α} {i : ℕ} {a : α} (h : setAt l i a = Res.ok l') :
    l'.length = l.length := by
  unfold setAt at h
  split at h
  · simp only [Res.ok.injEq] at h; rw [← h]; simp
  · simp at h

section roll

variable [AddCommGroup X] [AddCommGroup U]

private theorem initShot_len {C : RollCfg X U} {k i : ℕ} {r r' : Roll X U} (h : initShot k i r = Res.ok r')
    (hl : Len C r) : Len C r' := by
  unfold initShot at h
  split at h
  · obtain ⟨p, -, h⟩ := Res.bind_eq_ok.1 h
    obtain ⟨s, h1, h⟩ := Res.bind_eq_ok.1 h
    simp only [Res.pure_eq, Res.ok.injEq] at h
    subst h
    exact ⟨hl.hx, hl.hu, (setAt_len h1).trans hl.hs⟩
  · simp only [Res.pure_eq, Res.ok.injEq] at h
    exact h ▸ hl

private theorem overwriteControl_len {C : RollCfg X U} {xref : List X} {i : ℕ} {r r' : Roll X U}
    (h : overwriteControl C xref i r = Res.ok r') (hl : Len C r) : Len C r' := by
  unfold overwriteControl at h
  split at h
  · obtain ⟨_, -, h⟩ := Res.bind_eq_ok.1 h
    obtain ⟨_, -, h⟩ := Res.bind_eq_ok.1 h
    obtain ⟨_, -, h⟩ := Res.bind_eq_ok.1 h
    obtain ⟨_, -, h⟩ := Res.bind_eq_ok.1 h
    obtain ⟨s, h1, h⟩ := Res.bind_eq_ok.1 h
    simp only [Res.pure_eq, Res.ok.injEq] at h
    subst h
    exact ⟨hl.hx, (setAt_len h1).trans hl.hu, hl.hs⟩
  · simp only [Res.pure_eq, Res.ok.injEq] at h
    exact h ▸ hl

private theorem overwriteState_len {C : RollCfg X U} {k i : ℕ} {r r' : Roll X U}
    (h : overwriteState k i r = Res.ok r') (hl : Len C r) : Len C r' := by
  unfold overwriteState at h
  split at h
  · obtain ⟨p, -, h⟩ := Res.bind_eq_ok.1 h
    obtain ⟨s, h1, h⟩ := Res.bind_eq_ok.1 h
    simp only [Res.pure_eq, Res.ok.injEq] at h
    subst h
    exact ⟨(setAt_len h1).trans hl.hx, hl.hu, hl.hs⟩
  · simp only [Res.pure_eq, Res.ok.injEq] at h
    exact h ▸ hl

private theorem propagate_len {C : RollCfg X U} {i : ℕ} {r r' : Roll X U}
    (h : propagate C i r = Res.ok r') (hl : Len C r) : Len C r' := by
  unfold propagate at h
  obtain ⟨_, -, h⟩ := Res.bind_eq_ok.1 h
  obtain ⟨_, -, h⟩ := Res.bind_eq_ok.1 h
  obtain ⟨s, h1, h⟩ := Res.bind_eq_ok.1 h
  simp only [Res.pure_eq, Res.ok.injEq] at h
  subst h
  exact ⟨hl.hx, hl.hu, (setAt_len h1).trans hl.hs⟩

private theorem fillTerminal_len {C : RollCfg X U} {i : ℕ} {r r' : Roll X U}
    (h : fillTerminal C i r = Res.ok r') (hl : Len C r) : Len C r' := by
  unfold fillTerminal at h
  split at h
  · obtain ⟨p, -, h⟩ := Res.bind_eq_ok.1 h
    obtain ⟨s, h1, h⟩ := Res.bind_eq_ok.1 h
    simp only [Res.pure_eq, Res.ok.injEq] at h
    subst h
    exact ⟨(setAt_len h1).trans hl.hx, hl.hu, hl.hs⟩
  · simp only [Res.pure_eq, Res.ok.injEq] at h
    exact h ▸ hl

private theorem nanCheck_len {C : RollCfg X U} {i : ℕ} {r : Roll X U} {p : Roll X U × Bool}
    (h : nanCheck C i r = Res.ok p) (hl : Len C r) : Len C p.1 := by
  unfold nanCheck at h
  obtain ⟨_, -, h⟩ := Res.bind_eq_ok.1 h
  obtain ⟨_, -, h⟩ := Res.bind_eq_ok.1 h
  split at h
  · simp only [Res.pure_eq, Res.ok.injEq] at h
    subst h
    exact ⟨by simp [hl.hx], by simp [hl.hu], hl.hs⟩
  · simp only [Res.pure_eq, Res.ok.injEq] at h
    subst h
    exact hl

private theorem shotStep_len {C : RollCfg X U} {xref : List X} {k i : ℕ} {r : Roll X U} {p : Roll X U × Bool}
    (h : shotStep C xref k i r = Res.ok p) (hl : Len C r) : Len C p.1 := by
  unfold shotStep at h
  obtain ⟨_, h1, h⟩ := Res.bind_eq_ok.1 h
  obtain ⟨_, h2, h⟩ := Res.bind_eq_ok.1 h
  obtain ⟨_, h3, h⟩ := Res.bind_eq_ok.1 h
  obtain ⟨_, h4, h⟩ := Res.bind_eq_ok.1 h
  obtain ⟨_, h5, h⟩ := Res.bind_eq_ok.1 h
  exact nanCheck_len h (fillTerminal_len h5 (propagate_len h4 (overwriteState_len h3
    (overwriteControl_len h2 (initShot_len h1 hl)))))

private theorem shotLoop_len {C : RollCfg X U} {xref : List X} {stop : ℕ → Bool} {k : ℕ} :
    ∀ (n i : ℕ) (r : Roll X U) (p : Roll X U × Bool), shotLoop C xref stop k n i r = Res.ok p → Len C r →
      Len C p.1
  | 0, i, r, p, h, hl => by
    simp only [shotLoop, Res.pure_eq, Res.ok.injEq] at h
    subst h; exact hl
  | n + 1, i, r, p, h, hl => by
    unfold shotLoop at h
    split at h
    · simp only [Res.pure_eq, Res.ok.injEq] at h
      subst h; exact hl
    · obtain ⟨q, h1, h⟩ := Res.bind_eq_ok.1 h
      split at h
      · exact shotLoop_len n _ _ _ h (shotStep_len h1 hl)
      · simp only [Res.pure_eq, Res.ok.injEq] at h
        subst h; exact shotStep_len h1 hl

private theorem single_len {C : RollCfg X U} {xref : List X} {stop : ℕ → Bool} {k : ℕ} {r : Roll X U}
    {p : Roll X U × Bool} (h : rolloutSingleShot C xref stop k r = Res.ok p) (hl : Len C r) : Len C p.1 := by
  unfold rolloutSingleShot at h
  split at h
  · simp at h
  split at h
  · simp at h
  split at h
  · simp at h
  obtain ⟨_, -, h⟩ := Res.bind_eq_ok.1 h
  obtain ⟨s, h1, h⟩ := Res.bind_eq_ok.1 h
  exact shotLoop_len _ _ _ _ h ⟨hl.hx, hl.hu, (setAt_len h1).trans hl.hs⟩

private theorem singleDefect_len {C : RollCfg X U} {k : ℕ} {x s d d' : List X}
    (h : computeSingleDefect C k x s d = Res.ok d') :
    d'.length = d.length ∧ d'.getD C.K 0 = d.getD C.K 0 := by
  unfold computeSingleDefect at h
  simp only at h
  split at h
  · next hlt =>
    obtain ⟨_, -, h⟩ := Res.bind_eq_ok.1 h
    obtain ⟨_, -, h⟩ := Res.bind_eq_ok.1 h
    refine ⟨setAt_len h, ?_⟩
    unfold setAt at h
    split at h
    · next hl =>
      simp only [Res.ok.injEq] at h
      rw [← h, getD_set _ _ _ _ _ hl, if_neg (by omega)]
    · simp at h
  · simp only [Res.pure_eq, Res.ok.injEq] at h
    subst h; exact ⟨rfl, rfl⟩

private theorem rolloutList_len {C : RollCfg X U} {xref : List X} {stop : ℕ → Bool} :
    ∀ (ks : List ℕ) (r : Roll X U) (d : List X) (p : Roll X U × List X × Bool),
      rolloutList C xref stop ks r d = Res.ok p → Len C r →
      Len C p.1 ∧ p.2.1.length = d.length ∧ p.2.1.getD C.K 0 = d.getD C.K 0
  | [], r, d, p, h, hl => by
    simp only [rolloutList, Res.pure_eq, Res.ok.injEq] at h
    subst h; exact ⟨hl, rfl, rfl⟩
  | k :: ks, r, d, p, h, hl => by
    unfold rolloutList at h
    obtain ⟨q, h1, h⟩ := Res.bind_eq_ok.1 h
    split at h
    · obtain ⟨d', h2, h⟩ := Res.bind_eq_ok.1 h
      obtain ⟨a, b, c⟩ := rolloutList_len ks _ _ _ h (single_len h1 hl)
      obtain ⟨b', c'⟩ := singleDefect_len h2
      exact ⟨a, b.trans b', c.trans c'⟩
    · simp only [Res.pure_eq, Res.ok.injEq] at h
      subst h; exact ⟨single_len h1 hl, rfl, rfl⟩

private theorem rolloutShotsList_len {C : RollCfg X U} {xref : List X} :
    ∀ (ks : List ℕ) (r : Roll X U) (d : List X) (p : Roll X U × List X),
      rolloutShotsList C xref ks r d = Res.ok p → Len C r →
      Len C p.1 ∧ p.2.length = d.length ∧ p.2.getD C.K 0 = d.getD C.K 0
  | [], r, d, p, h, hl => by
    simp only [rolloutShotsList, Res.pure_eq, Res.ok.injEq] at h
    subst h; exact ⟨hl, rfl, rfl⟩
  | k :: ks, r, d, p, h, hl => by
    unfold rolloutShotsList at h
    obtain ⟨q, h1, h⟩ := Res.bind_eq_ok.1 h
    obtain ⟨d', h2, h⟩ := Res.bind_eq_ok.1 h
    obtain ⟨a, b, c⟩ := rolloutShotsList_len ks _ _ _ h (single_len h1 hl)
    obtain ⟨b', c'⟩ := singleDefect_len h2
    exact ⟨a, b.trans b', c.trans c'⟩

private theorem defects_length (f : X → ℕ → U → X) (K : ℕ) (x : List X) (u : List U) :
    (defects f K x u).length = K + 1 := by simp [defects]

private theorem defects_getD (f : X → ℕ → U → X) {K i : ℕ} (x : List X) (u : List U) (hi : i < K) :
    (defects f K x u).getD i 0 = f (x.getD i 0) i (u.getD i 0) - x.getD (i + 1) 0 := by
  rw [List.getD_eq_getElem _ _ (by rw [defects_length]; omega)]
  simp [defects, hi]

/-- Recorded defects that close the dynamics are the true ones. -/
private theorem defects_unique {f : X → ℕ → U → X} {K : ℕ} {x : List X} {u : List U} {d : List X}
    (hl : d.length = K + 1) (hK : d.getD K 0 = 0)
    (h : ∀ i < K, x.getD (i + 1) 0 + d.getD i 0 = f (x.getD i 0) i (u.getD i 0)) :
    d = defects f K x u := by
  refine List.ext_getElem (by rw [hl, defects_length]) fun i h1 h2 => ?_
  rw [← List.getD_eq_getElem _ 0 h1, ← List.getD_eq_getElem _ 0 h2]
  rcases Nat.lt_or_ge i K with hi | hi
  · rw [defects_getD f x u hi, ← h i hi]; abel
  · have : i = K := by omega
    subst this
    rw [hK, List.getD_eq_getElem _ _ h2]
    simp [defects]

/-- A roll-out of a guess is a feasible trajectory, and the recorded defects are the true ones. -/
private theorem rollout_feasible {f : X → ℕ → U → X} {K n : ℕ} {fb : Option (ℕ → X → U)} {xref : List X}
    {r0 r : Roll X U} {d : List X} (hK : 0 < K) (h : IsRollout f K n fb xref r0 r d)
    (hx : r.x.length = K + 1) (hu : r.u.length = K) (hl : d.length = K + 1) (hd : d.getD K 0 = 0) :
    Feasible f K n (r0.x.getD 0 0) r.x r.u ∧ d = defects f K r.x r.u := by
  refine ⟨⟨hx, hu, h.shotStart 0 hK (by simp), fun i hi hn => ?_⟩, defects_unique hl hd h.dynamics⟩
  rw [← h.dynamics i hi, h.inside i hi hn, add_zero]

/-- In single shooting there are no gaps. -/
private theorem defects_zero {f : X → ℕ → U → X} {K : ℕ} {x0 : X} {x : List X} {u : List U}
    (h : Feasible f K K x0 x u) : defects f K x u = List.replicate (K + 1) 0 := by
  refine (defects_unique (by simp) (by simp) fun i hi => ?_).symm
  rw [h.dynamics i hi (by
    rintro ⟨h1, q, hq⟩
    rcases Nat.eq_zero_or_pos q with h0 | h0
    · subst h0; omega
    · have := Nat.mul_le_mul_left K h0; omega)]
  have : (List.replicate (K + 1) (0 : X)).getD i 0 = 0 := by
    rw [List.getD_eq_getElem _ _ (by simp; omega)]; simp
  rw [this, add_zero]

end roll

/-! ### The solver -/

section solver

variable [Field R] [LinearOrder R] [AddCommGroup X] [AddCommGroup U] [Module R X] [Module R U]

/-- The merit of a trajectory: cost, weighted norm of its true defects and weighted constraint errors. -/
def trueMerit (c : LsCfg X U R) (x : List X) (u : List U) : Fl R :=
  merit c x u (defects c.roll.f c.roll.K x u)

/-- No state or control is NaN. -/
def NoNaN (C : RollCfg X U) : Prop := (∀ x, C.nanX x = false) ∧ ∀ u, C.nanU u = false

/-- The first merit is below the second (with the simple line search), or not above it. -/
def Better (c : LsCfg X U R) (a b : Fl R) : Prop := Fl.le a b ∧ (c.type = .simple → Fl.lt a b)

private theorem lt_le {a b : Fl R} (h : Fl.lt a b) : Fl.le a b := by
  cases a <;> cases b <;> simp_all [Fl.lt, Fl.le]
  exact le_of_lt h

private theorem le_trans' {a b d : Fl R} (h1 : Fl.le a b) (h2 : Fl.le b d) : Fl.le a d := by
  cases a <;> cases b <;> cases d <;> simp_all [Fl.le]
  exact le_trans h1 h2

private theorem lt_trans' {a b d : Fl R} (h1 : Fl.lt a b) (h2 : Fl.le b d) : Fl.lt a d := by
  cases a <;> cases b <;> cases d <;> simp_all [Fl.lt, Fl.le]
  exact lt_of_lt_of_le h1 h2

private theorem Better.trans {c : LsCfg X U R} {a b d : Fl R} (h1 : Better c a b) (h2 : Better c b d) :
    Better c a d :=
  ⟨le_trans' h1.1 h2.1, fun h => lt_trans' (h1.2 h) h2.1⟩

/-- The stored trajectory is feasible and the stored costs are its costs. -/
private structure Traj (c : LsCfg X U R) (x0 : X) (s : LsState X U R) : Prop where
  feas : Feasible c.roll.f c.roll.K c.roll.stepsPerShot x0 s.x s.u
  ic : s.icBest = (c.cost s.x s.u).1
  fc : s.fcBest = (c.cost s.x s.u).2
  hs : s.xShot.length = c.roll.K + 1
  hd : s.d.length = c.roll.K + 1

private theorem Traj.sizes {c : LsCfg X U R} {x0 : X} {s : LsState X U R} (hT : Traj c x0 s)
    (hK : 0 < c.roll.K) (hshot : 0 < c.roll.Kshot) {out : LqOut X U R} (ho : LqSizes c.roll.K out) :
    LsSizes (c.withLq out.L out.delta1 out.delta2) out.dirs { s with xRef := s.x } :=
  ⟨hK, hshot, hT.feas.states, hT.feas.controls, ho.dx, ho.du, ho.dxRef,
    fun _ => (le_of_eq ho.gains.symm : c.roll.K ≤ out.L.length)⟩

private theorem zip_start {a b : List X} {x0 : X} (ha : a.getD 0 0 = 0) (hb : b.getD 0 0 = x0)
    (h : a.length = b.length) : (List.zipWith (· + ·) a b).getD 0 0 = x0 := by
  cases a with
  | nil =>
    cases b with
    | nil => simpa using hb
    | cons y b => simp at h
  | cons z a =>
    cases b with
    | nil => simp at h
    | cons y b => simp_all

private theorem candidate_full {c : LsCfg X U R} {q : Dirs X U} {s : LsState X U R} {x0 : X}
    (hS : LsSizes c q s) (hd0 : q.dx.getD 0 0 = 0) (hx0 : s.x.getD 0 0 = x0) (alpha : R) {k : Cand X U R}
    (hk : Candidate c q s alpha k) :
    (k.ic = .pinf ∧ k.fc = .pinf ∧ k.dn = .fin c.maxValue ∧ k.eb = .fin 0 ∧ k.eg = .fin 0) ∨
    (k.ic = (c.cost k.r.x k.r.u).1 ∧ k.fc = (c.cost k.r.x k.r.u).2 ∧ k.dn = c.defectNorm k.d ∧
      k.eb = c.box k.r.x k.r.u ∧ k.eg = c.gen k.r.x k.r.u ∧
      Feasible c.roll.f c.roll.K c.roll.stepsPerShot x0 k.r.x k.r.u ∧
      k.d = defects c.roll.f c.roll.K k.r.x k.r.u ∧ k.r.s.length = c.roll.K + 1) := by
  obtain ⟨hK, hshot, hx, hu, hdx, hdu, hdr, hL⟩ := hS
  have st : ∀ {T : Type} [AddCommGroup T] [Module R T] (delta base : List T),
      delta.length = base.length → step delta alpha base =
        Res.ok (List.zipWith (· + ·) (delta.map fun v => alpha • v) base) := by
    intro T _ _ delta base h
    simp only [step, Arrays.add, List.length_map, h, ne_eq, not_true, if_false]
  unfold Candidate executeLineSearch at hk
  rw [st _ _ (by simp [beginSearch, hdu, hu]), Res.ok_bind, st _ _ (by simp [beginSearch, hdx, hx]),
    Res.ok_bind, st _ _ (by simp [beginSearch, hdr, hx]), Res.ok_bind] at hk
  simp only [beginSearch] at hk
  set u := List.zipWith (· + ·) (q.du.map fun v => alpha • v) s.u with hu'
  set x := List.zipWith (· + ·) (q.dx.map fun v => alpha • v) s.x with hx'
  set xr := List.zipWith (· + ·) (q.dxRef.map fun v => alpha • v) s.x with hxr'
  have lu : u.length = c.roll.K := by simp [hu', hdu, hu]
  have lx : x.length = c.roll.K + 1 := by simp [hx', hdx, hx]
  have lr : xr.length = c.roll.K + 1 := by simp [hxr', hdr, hx]
  have x00 : x.getD 0 0 = x0 := by
    refine zip_start ?_ hx0 (by simp [hdx, hx])
    cases hq : q.dx with
    | nil => simp
    | cons y l => rw [hq] at hd0; simp at hd0; simp [hd0]
  obtain ⟨r', d', b, e, hb⟩ := C54_rollout c.roll xr (fun _ => false)
    { u := u, x := x, s := List.replicate (c.roll.K + 1) 0 } (List.replicate (c.roll.K + 1) 0)
    hK hshot ⟨by simp [lu], by simp [lx], by simp, hL, fun _ => by omega⟩ (by simp)
  rw [e, Res.ok_bind, Res.pure_eq, Res.ok.injEq] at hk
  subst hk
  have e' := e
  unfold rolloutShotsSingleThreaded at e'
  obtain ⟨l1, l2, l3⟩ := rolloutList_len _ _ _ _ e' ⟨lx, lu, by simp⟩
  cases b with
  | false => left; simp [evaluate]
  | true =>
    right
    obtain ⟨g1, g2⟩ := rollout_feasible hK (hb rfl) l1.hx l1.hu (by simpa using l2)
      (by rw [l3]; exact getD_map_zero _ _)
    rw [x00] at g1
    exact ⟨by simp [evaluate], by simp [evaluate], by simp [evaluate], by simp [evaluate],
      by simp [evaluate], by simpa [evaluate] using g1, by simpa [evaluate] using g2,
      by simpa [evaluate] using l1.hs⟩

/-- Without NaN every candidate can be computed and is a roll-out of the stepped arrays. -/
theorem candidate_rollout {c : LsCfg X U R} {q : Dirs X U} {s : LsState X U R} (hS : LsSizes c q s)
    (hn : NoNaN c.roll) (alpha : R) : ∃ k, Candidate c q s alpha k ∧
      IsRollout c.roll.f c.roll.K c.roll.stepsPerShot c.roll.law
        (List.zipWith (· + ·) (q.dxRef.map fun v => alpha • v) s.x)
        { u := List.zipWith (· + ·) (q.du.map fun v => alpha • v) s.u,
          x := List.zipWith (· + ·) (q.dx.map fun v => alpha • v) s.x, s := List.replicate (c.roll.K + 1) 0 }
        k.r k.d ∧
      k.r.x.length = c.roll.K + 1 ∧ k.r.u.length = c.roll.K ∧ k.d = defects c.roll.f c.roll.K k.r.x k.r.u ∧
      k.ic = (c.cost k.r.x k.r.u).1 ∧ k.fc = (c.cost k.r.x k.r.u).2 ∧ k.dn = c.defectNorm k.d ∧
      k.eb = c.box k.r.x k.r.u ∧ k.eg = c.gen k.r.x k.r.u := by
  obtain ⟨hK, hshot, hx, hu, hdx, hdu, hdr, hL⟩ := hS
  have st : ∀ {T : Type} [AddCommGroup T] [Module R T] (delta base : List T),
      delta.length = base.length → step delta alpha base =
        Res.ok (List.zipWith (· + ·) (delta.map fun v => alpha • v) base) := by
    intro T _ _ delta base h
    simp only [step, Arrays.add, List.length_map, h, ne_eq, not_true, if_false]
  set u := List.zipWith (· + ·) (q.du.map fun v => alpha • v) s.u with hu'
  set x := List.zipWith (· + ·) (q.dx.map fun v => alpha • v) s.x with hx'
  set xr := List.zipWith (· + ·) (q.dxRef.map fun v => alpha • v) s.x with hxr'
  have lu : u.length = c.roll.K := by simp [hu', hdu, hu]
  have lx : x.length = c.roll.K + 1 := by simp [hx', hdx, hx]
  have lr : xr.length = c.roll.K + 1 := by simp [hxr', hdr, hx]
  obtain ⟨r', d', b, e, hb⟩ := C54_rollout c.roll xr (fun _ => false)
    { u := u, x := x, s := List.replicate (c.roll.K + 1) 0 } (List.replicate (c.roll.K + 1) 0)
    hK hshot ⟨by simp [lu], by simp [lx], by simp, hL, fun _ => by omega⟩ (by simp)
  have e' := e
  unfold rolloutShotsSingleThreaded at e'
  have hbt : b = true := rolloutList_good hn.1 hn.2 _ _ _ _ _ _ e'
  subst hbt
  obtain ⟨l1, l2, l3⟩ := rolloutList_len _ _ _ _ e' ⟨lx, lu, by simp⟩
  obtain ⟨-, g2⟩ := rollout_feasible hK (hb rfl) l1.hx l1.hu (by simpa using l2)
    (by rw [l3]; exact getD_map_zero _ _)
  refine ⟨evaluate c r' d' true, ?_, by simpa [evaluate] using hb rfl, by simpa [evaluate] using l1.hx,
    by simpa [evaluate] using l1.hu, by simpa [evaluate] using g2, by simp [evaluate], by simp [evaluate],
    by simp [evaluate], by simp [evaluate], by simp [evaluate]⟩
  unfold Candidate executeLineSearch
  rw [st _ _ (by simp [beginSearch, hdu, hu]), Res.ok_bind, st _ _ (by simp [beginSearch, hdx, hx]),
    Res.ok_bind, st _ _ (by simp [beginSearch, hdr, hx]), Res.ok_bind]
  simp only [beginSearch]
  rw [← hu', ← hx', ← hxr', e]
  rfl

variable [IsStrictOrderedRing R]

/-- One line search on a stored trajectory. -/
private theorem search_step {c : LsCfg X U R} {q : Dirs X U} {s : LsState X U R} {x0 : X}
    (ht : c.type = .simple ∨ c.type = .armijo) (ha : 0 < c.alpha0) (hn : 0 < c.nAlpha)
    (hS : LsSizes c q s) (hd0 : q.dx.getD 0 0 = 0) (hT : Traj c x0 s) :
    ∃ s' b, lineSearch c q s = Res.ok (s', b) ∧ Traj c x0 s' ∧
      ((s'.x = s.x ∧ s'.u = s.u ∧ b = false) ∨
       (s'.d = defects c.roll.f c.roll.K s'.x s'.u ∧
        Better c (merit c s'.x s'.u s'.d)
          (newMerit c s.icBest s.fcBest (c.defectNorm s.d) s.eBox s.eGen))) := by
  obtain ⟨⟨s', b⟩, h⟩ := C55_returns c q s ht hS
  refine ⟨s', b, h, ?_⟩
  have htn : c.type ≠ .none := by rcases ht with h | h <;> simp [h]
  rcases lineSearch_cases htn h ha hn with ⟨i, -, k, m, e1, e2, e3, e4, -⟩ | ⟨e1, e2, -⟩
  · obtain ⟨hm, hlt, hle⟩ := accept_le e2
    rcases candidate_full hS hd0 hT.feas.start _ e1 with
      ⟨h1, h2, h3, h4, h5⟩ | ⟨h1, h2, h3, h4, h5, h6, h7, h8⟩
    · exact (accept_not_failed e2 h1 h2 h3 h4 h5).elim
    · have hm' : m = merit c k.r.x k.r.u k.d := by
        rw [hm, h1, h2, h3, h4, h5]; rfl
      subst e3
      refine ⟨⟨h6, h1, h2, h8, ?_⟩, Or.inr ⟨h7, ?_⟩⟩
      · change k.d.length = _
        rw [h7, defects_length]
      · change Better c (merit c k.r.x k.r.u k.d) _
        rw [← hm']
        refine ⟨?_, hlt⟩
        rcases ht with h | h
        · exact lt_le (hlt h)
        · exact (hle h).1
  · subst e1
    exact ⟨⟨hT.feas, hT.ic, hT.fc, hT.hs, by simp [beginSearch, hT.hd]⟩, Or.inl ⟨rfl, rfl, e2⟩⟩

/-- One full step without line search. -/
private theorem full_step {c : LsCfg X U R} {q : Dirs X U} {s : LsState X U R} {x0 : X}
    (ht : c.type = .none) (hnan : NoNaN c.roll) (hS : LsSizes c q s) (hr : s.xRef.length = c.roll.K + 1)
    (hd0 : q.dx.getD 0 0 = 0) (hT : Traj c x0 s) :
    ∃ s' b, lineSearch c q s = Res.ok (s', b) ∧ Traj c x0 s' ∧
      s'.d = defects c.roll.f c.roll.K s'.x s'.u := by
  obtain ⟨s', b, h, hR, h1, h2, -⟩ := C55_full_step c q s ht hS hr hT.hs (by rw [hT.hd]; omega) hnan.1 hnan.2
  refine ⟨s', b, h, ?_⟩
  have add : ∀ {T : Type} [AddCommGroup T] (a b : List T), a.length = b.length →
      Arrays.add a b = Res.ok (List.zipWith (· + ·) a b) := by
    intro T _ a b h
    simp only [Arrays.add, h, ne_eq, not_true, if_false]
  obtain ⟨hK, hshot, hx, hu, hdx, hdu, hdr, hL⟩ := hS
  unfold lineSearch at h
  rw [ht] at h
  simp only [fullStep] at h
  rw [add _ _ (by omega), Res.ok_bind, add _ _ (by omega), Res.ok_bind, add _ _ (by omega), Res.ok_bind] at h
  obtain ⟨t, h3, h⟩ := Res.bind_eq_ok.1 h
  obtain ⟨p, h4, h5⟩ := Res.bind_eq_ok.1 h3
  simp only [Res.pure_eq, Res.ok.injEq, Prod.mk.injEq] at h h5
  obtain ⟨l1, l2, l3⟩ := rolloutShotsList_len _ _ _ _ h4 ⟨by simp [hx, hdx], by simp [hu, hdu], hT.hs⟩
  have ht' := h.1
  subst ht'
  subst h5
  have hl : p.2.length = c.roll.K + 1 := by rw [l2]; simp [hT.hd]
  obtain ⟨g1, g2⟩ := rollout_feasible hK hR l1.hx l1.hu hl (by
    change p.2.getD _ _ = _
    rw [l3]; exact getD_map_zero _ _)
  have x00 : (List.zipWith (· + ·) s.x q.dx).getD 0 0 = x0 := by
    have := zip_start hd0 hT.feas.start (by omega)
    rwa [List.zipWith_comm_of_comm (fun a b => add_comm a b)] at this
  rw [x00] at g1
  exact ⟨⟨g1, rfl, rfl, l1.hs, hl⟩, g2⟩

private theorem starts_single {K : ℕ} (hK : 0 < K) : shotStarts 0 (K - 1) K = [0] := by
  obtain ⟨n, rfl⟩ : ∃ n, K = n + 1 := ⟨K - 1, by omega⟩
  cases n with
  | zero => rfl
  | succ n => simp [shotStarts, loopIndices]

omit [Field R] [LinearOrder R] [Module R X] [Module R U] [IsStrictOrderedRing R] in
/-- The roll-out of single shooting: the whole horizon in one shot. -/
private theorem single_rollout {C : RollCfg X U} {xref : List X} {r : Roll X U} (hK : 0 < C.K)
    (hshot : 0 < C.Kshot) (hsg : C.single = true) (hS : Sizes C xref r) (hl : Len C r) :
    ∃ r' b, rolloutSingleShot C xref (fun _ => false) 0 r = Res.ok (r', b) ∧ Len C r' ∧
      (NoNaN C → b = true) ∧
      (b = true → IsRollout C.f C.K C.stepsPerShot C.law xref r r' (List.replicate (C.K + 1) 0)) := by
  have hn : C.stepsPerShot = C.K := by simp [RollCfg.stepsPerShot, hsg]
  obtain ⟨r', d', b, e, hb⟩ := C54_rollout C xref (fun _ => false) r (List.replicate (C.K + 1) 0)
    hK hshot hS (by simp)
  unfold rolloutShotsSingleThreaded at e
  have e0 := e
  rw [hn, starts_single hK, rolloutList] at e
  obtain ⟨p, h1, h2⟩ := Res.bind_eq_ok.1 e
  refine ⟨p.1, p.2, h1, single_len h1 hl, fun hnan => ?_, fun hp => ?_⟩
  · have := rolloutList_good hnan.1 hnan.2 _ _ _ _ _ _ e0
    subst this
    split at h2
    · assumption
    · simp at h2
  · rw [if_pos hp] at h2
    obtain ⟨d2, h3, h4⟩ := Res.bind_eq_ok.1 h2
    simp only [rolloutList, Res.pure_eq, Res.ok.injEq, Prod.mk.injEq] at h4
    obtain ⟨g1, g2, g3⟩ := h4
    have hR := hb g3.symm
    rw [← g1] at hR
    have hz : ∀ i < C.K, (List.replicate (C.K + 1) (0 : X)).getD i 0 = 0 := by
      intro i hi
      rw [List.getD_eq_getElem _ _ (by simp; omega)]; simp
    have hz' : ∀ i < C.K, d'.getD i 0 = 0 := fun i hi => hR.inside i hi (by
      rw [hn]
      rintro ⟨k1, q, hq⟩
      rcases Nat.eq_zero_or_pos q with h0 | h0
      · subst h0; omega
      · have := Nat.mul_le_mul_left C.K h0; omega)
    refine ⟨fun i hi => ?_, fun i hi _ => hz i hi, hR.shotStart, hR.controls, hR.shotEnd⟩
    rw [hz i hi, ← hR.dynamics i hi, hz' i hi]

/-- The members right after `setInitialGuess` as far as the first roll-out needs them. -/
private structure AtGuess (c : LsCfg X U R) (L : List (X → U)) (s : LsState X U R) : Prop where
  hx : s.x.length = c.roll.K + 1
  hu : s.u.length = c.roll.K
  hs : s.xShot.length = c.roll.K + 1
  hd : s.d = List.replicate (c.roll.K + 1) 0
  hL : c.roll.K ≤ L.length
  hr : c.roll.K ≤ s.xRef.length
  hpr : s.xPrev = s.xRef

omit [LinearOrder R] [Module R X] [Module R U] [IsStrictOrderedRing R] in
/-- The start of iteration 0. -/
private theorem first_rollout {c : LsCfg X U R} {L : List (X → U)} {s : LsState X U R} (hK : 0 < c.roll.K)
    (hshot : 0 < c.roll.Kshot) (hg : AtGuess c L s) (hnan : c.roll.single = true ∨ NoNaN c.roll) :
    (firstRollout c L s = Res.exc ∧ ¬ NoNaN c.roll) ∨
    ∃ s1, firstRollout c L s = Res.ok s1 ∧ Traj c (s.x.getD 0 0) s1 ∧
      s1.d = defects c.roll.f c.roll.K s1.x s1.u ∧ s1.eBox = s.eBox ∧ s1.eGen = s.eGen ∧
      IsRollout c.roll.f c.roll.K c.roll.stepsPerShot { c.roll with L := L }.law s.xRef
        { u := s.u, x := s.x, s := s.xShot } { u := s1.u, x := s1.x, s := s1.xShot } s1.d := by
  have hS : Sizes { c.roll with L := L } s.xRef { u := s.u, x := s.x, s := s.xShot } :=
    ⟨le_of_eq hg.hu.symm, le_of_eq hg.hx.symm, le_of_eq hg.hs.symm, fun _ => hg.hL, fun _ => hg.hr⟩
  have hl : Len { c.roll with L := L } { u := s.u, x := s.x, s := s.xShot } := ⟨hg.hx, hg.hu, hg.hs⟩
  have hrep : (List.replicate (c.roll.K + 1) (0 : X)).getD c.roll.K 0 = 0 := by
    rw [List.getD_eq_getElem _ _ (by simp)]; simp
  unfold firstRollout
  by_cases hsg : c.roll.single = true
  · rw [if_pos hsg]
    unfold nominalRollout
    rw [hg.hpr]
    obtain ⟨r', b, e, l1, h1, h2⟩ := single_rollout (C := { c.roll with L := L }) hK hshot hsg hS hl
    rw [e]
    simp only [Res.ok_bind, Res.pure_eq]
    cases b with
    | false => exact Or.inl ⟨rfl, fun hn => by simpa using h1 hn⟩
    | true =>
      right
      have hR := h2 rfl
      obtain ⟨g1, g2⟩ := rollout_feasible hK hR l1.hx l1.hu (by simp) hrep
      refine ⟨_, rfl, ⟨g1, rfl, rfl, l1.hs, ?_⟩, ?_, rfl, rfl, ?_⟩
      · simp [updateCosts, hg.hd]
      · simp only [updateCosts]; rw [hg.hd]; exact g2
      · simp only [updateCosts]; rw [hg.hd]; exact hR
  · have hn := hnan.resolve_left hsg
    right
    rw [if_neg hsg]
    have hms : c.roll.single = false := by simpa using hsg
    obtain ⟨r', d', e, hR⟩ := C54_prepare_finish { c.roll with L := L } s.xRef
      { u := s.u, x := s.x, s := s.xShot } s.d hK hshot hms hS (by rw [hg.hd]; simp) hn.1 hn.2
      (by
        intro i hi
        have hi' : i < c.roll.K := hi
        rw [hg.hd, List.getD_eq_getElem _ _ (by simp; omega)]; simp)
    obtain ⟨p, e1, e2⟩ := Res.bind_eq_ok.1 e
    obtain ⟨l1, l2, l3⟩ := rolloutShotsList_len _ _ _ _ e1 hl
    obtain ⟨m1, m2, m3⟩ := rolloutShotsList_len _ _ _ _ e2 l1
    have hn' : c.roll.stepsPerShot = c.roll.Kshot := by simp [RollCfg.stepsPerShot, hms]
    have hlen : d'.length = c.roll.K + 1 := by
      have : d'.length = s.d.length := m2.trans l2
      rw [this, hg.hd]; simp
    have hend : d'.getD c.roll.K 0 = 0 := by
      have : d'.getD c.roll.K 0 = s.d.getD c.roll.K 0 := m3.trans l3
      rw [this, hg.hd]; exact hrep
    obtain ⟨g1, g2⟩ := rollout_feasible hK hR m1.hx m1.hu hlen hend
    unfold rolloutShotsMembers
    rw [e1]
    simp only [Res.ok_bind, Res.pure_eq]
    have e3 : rolloutShotsST { c.roll with L := L } s.xRef 0 (c.roll.Kshot - 1)
        { u := p.1.u, x := p.1.x, s := p.1.s } p.2 = Res.ok (r', d') := e2
    rw [e3]
    simp only [Res.ok_bind]
    rw [hn']
    refine ⟨_, rfl, ⟨?_, rfl, rfl, m1.hs, hlen⟩, g2, rfl, rfl, hR⟩
    rw [hn']
    exact g1

/-- The solver after at least one iteration. -/
private structure Inv (c : LsCfg X U R) (x0 : X) (s : Solver X U R) : Prop where
  init : s.initialized = true
  iter : s.iteration ≠ 0
  traj : Traj c x0 s.ls
  fresh : Fresh c s.ls

/-- The settings for which the trajectory is always checked or no NaN can occur. -/
def Checked (c : LsCfg X U R) : Prop := (c.roll.single = true ∧ c.type ≠ .none) ∨ NoNaN c.roll

/-- One iteration from the roll-out on. -/
private theorem iteration_core {c : LsCfg X U R} {out : LqOut X U R} {l : LsState X U R} {x0 : X}
    (hK : 0 < c.roll.K) (hshot : 0 < c.roll.Kshot) (ht : c.type ≠ .goldstein) (hc : Checked c)
    (ha : 0 < c.alpha0) (hn : 0 < c.nAlpha) (ho : LqSizes c.roll.K out) (hT : Traj c x0 l) :
    ∃ l' b, lineSearch (c.withLq out.L out.delta1 out.delta2) out.dirs { l with xRef := l.x } = Res.ok (l', b) ∧
      Traj c x0 (refreshErrors c l') ∧ Fresh c (refreshErrors c l') ∧
      (b = true → l'.d = defects c.roll.f c.roll.K l'.x l'.u) ∧
      (c.type ≠ .none → (l'.x = l.x ∧ l'.u = l.u) ∨
        Better c (trueMerit c l'.x l'.u)
          (newMerit c l.icBest l.fcBest (c.defectNorm l.d) l.eBox l.eGen)) := by
  have hS := hT.sizes hK hshot ho
  have hT' : Traj (c.withLq out.L out.delta1 out.delta2) x0 { l with xRef := l.x } :=
    ⟨hT.feas, hT.ic, hT.fc, hT.hs, hT.hd⟩
  have fin : ∀ l' : LsState X U R, Traj (c.withLq out.L out.delta1 out.delta2) x0 l' →
      Traj c x0 (refreshErrors c l') ∧ Fresh c (refreshErrors c l') := fun l' h =>
    ⟨⟨h.feas, h.ic, h.fc, h.hs, h.hd⟩, ⟨h.ic, h.fc, rfl, rfl⟩⟩
  by_cases hno : c.type = .none
  · have hnan : NoNaN c.roll := by
      rcases hc with h | h
      · exact absurd hno h.2
      · exact h
    obtain ⟨l', b, e, h1, h2⟩ := full_step (c := c.withLq out.L out.delta1 out.delta2) hno hnan hS
      hT.feas.states ho.start hT'
    exact ⟨l', b, e, (fin l' h1).1, (fin l' h1).2, fun _ => h2, fun h => absurd hno h⟩
  · have hty : c.type = .simple ∨ c.type = .armijo := by
      cases h : c.type <;> simp_all
    obtain ⟨l', b, e, h1, h2⟩ := search_step (c := c.withLq out.L out.delta1 out.delta2) hty ha hn hS
      ho.start hT'
    refine ⟨l', b, e, (fin l' h1).1, (fin l' h1).2, fun hb => ?_, fun _ => ?_⟩
    · rcases h2 with ⟨-, -, h3⟩ | ⟨h3, -⟩
      · simp [hb] at h3
      · exact h3
    · rcases h2 with ⟨h3, h4, -⟩ | ⟨h3, h4⟩
      · exact Or.inl ⟨h3, h4⟩
      · right
        rw [h3] at h4
        exact h4

/-- A later iteration. -/
private theorem later_iteration {c : LsCfg X U R} {lq : Solver X U R → LqOut X U R} {s : Solver X U R} {x0 : X}
    (hK : 0 < c.roll.K) (hshot : 0 < c.roll.Kshot) (ht : c.type ≠ .goldstein) (hc : Checked c)
    (ha : 0 < c.alpha0) (hn : 0 < c.nAlpha) (ho : ∀ s, LqSizes c.roll.K (lq s)) (hI : Inv c x0 s) :
    ∃ s' b, runIteration c lq s = Res.ok (s', b) ∧ Inv c x0 s' ∧
      (b = true → s'.ls.d = defects c.roll.f c.roll.K s'.ls.x s'.ls.u) ∧
      (c.type ≠ .none → s.ls.d = defects c.roll.f c.roll.K s.ls.x s.ls.u →
        (s'.ls.x = s.ls.x ∧ s'.ls.u = s.ls.u) ∨
        Better c (trueMerit c s'.ls.x s'.ls.u) (trueMerit c s.ls.x s.ls.u)) := by
  obtain ⟨l', b, e, h1, h2, h3, h4⟩ := iteration_core hK hshot ht hc ha hn (ho { s with ls := s.ls }) hI.traj
  unfold runIteration
  rw [if_neg (by simp [hI.init]), if_neg (by omega), if_neg (by rw [hI.traj.feas.controls]; omega),
    if_neg hI.iter]
  simp only [Res.ok_bind, Res.pure_eq]
  rw [e]
  refine ⟨_, _, rfl, ⟨hI.init, by simp, h1, h2⟩, h3, fun hty hd => ?_⟩
  have hm : newMerit c s.ls.icBest s.ls.fcBest (c.defectNorm s.ls.d) s.ls.eBox s.ls.eGen
      = trueMerit c s.ls.x s.ls.u := by
    rw [hI.fresh.ic, hI.fresh.fc, hI.fresh.box, hI.fresh.gen, hd]; rfl
  rw [← hm]
  exact h4 hty

/-- The loop after the first iteration. -/
private theorem loop_spec {c : LsCfg X U R} {lq : Solver X U R → LqOut X U R} {x0 : X}
    (hK : 0 < c.roll.K) (hshot : 0 < c.roll.Kshot) (ht : c.type ≠ .goldstein) (hc : Checked c)
    (ha : 0 < c.alpha0) (hn : 0 < c.nAlpha) (ho : ∀ s, LqSizes c.roll.K (lq s)) :
    ∀ (n k : ℕ) (found : Bool) (s : Solver X U R), Inv c x0 s →
      (found = true → s.ls.d = defects c.roll.f c.roll.K s.ls.x s.ls.u) →
      ∃ s' k' b, optimiseLoop c lq n k found s = Res.ok (s', k', b) ∧ Inv c x0 s' ∧
        (c.type ≠ .none → (s'.ls.x = s.ls.x ∧ s'.ls.u = s.ls.u) ∨
          Better c (trueMerit c s'.ls.x s'.ls.u) (trueMerit c s.ls.x s.ls.u))
  | 0, k, found, s, hI, _ => ⟨s, k, found, rfl, hI, fun _ => Or.inl ⟨rfl, rfl⟩⟩
  | n + 1, k, found, s, hI, hd => by
    cases found with
    | false => exact ⟨s, k, false, by simp [optimiseLoop], hI, fun _ => Or.inl ⟨rfl, rfl⟩⟩
    | true =>
      obtain ⟨s1, b1, e1, hI1, hd1, hm1⟩ := later_iteration hK hshot ht hc ha hn ho hI
      obtain ⟨s', k', b, e, hI', hm⟩ := loop_spec hK hshot ht hc ha hn ho n (k + 1) b1 s1 hI1 hd1
      refine ⟨s', k', b, by rw [optimiseLoop, if_pos rfl, e1, Res.ok_bind, e], hI', fun hty => ?_⟩
      rcases hm1 hty (hd rfl) with ⟨g1, g2⟩ | g <;> rcases hm hty with ⟨g3, g4⟩ | g'
      · exact Or.inl ⟨g3.trans g1, g4.trans g2⟩
      · right; rw [← g1, ← g2]; exact g'
      · right; rw [g3, g4]; exact g
      · exact Or.inr (g'.trans g)

omit [IsStrictOrderedRing R] in
private theorem guess_ok {c : LsCfg X U R} {x : List X} {u : List U} {L : List (X → U)} {s0 : Solver X U R}
    (hx : c.roll.K + 1 ≤ x.length) (hu : c.roll.K ≤ u.length) (hL : c.roll.K ≤ L.length)
    (hs : s0.ls.xShot.length = c.roll.K + 1) (hd : s0.ls.d.length = c.roll.K + 1) :
    ∃ s1, s0.setInitialGuess c x u L = Res.ok s1 ∧ AtGuess c s1.L s1.ls ∧ s1.initialized = true ∧
      s1.iteration = 0 ∧ s1.ls.eBox = s0.ls.eBox ∧ s1.ls.eGen = s0.ls.eGen ∧ s1.ls.x = x.take (c.roll.K + 1) ∧
      s1.ls.u = u.take c.roll.K ∧ s1.ls.xRef = x ∧ s1.L = L.take c.roll.K ∧ s1.ls.xShot = s0.ls.xShot := by
  unfold Solver.setInitialGuess
  rw [if_neg (by omega), if_neg (by omega), if_neg (by omega)]
  refine ⟨_, rfl, ⟨by simp; omega, by simp; omega, hs, ?_, by simp; omega, by simp; omega, rfl⟩,
    rfl, rfl, rfl, rfl, rfl, rfl, rfl, rfl, rfl⟩
  rw [← hd]
  exact List.map_const'

/-- A complete solve. -/
private theorem solve_spec {c : LsCfg X U R} {lq : Solver X U R → LqOut X U R} {s1 : Solver X U R}
    {N : ℤ} (hN : 1 ≤ N) (hK : 0 < c.roll.K) (hshot : 0 < c.roll.Kshot) (ht : c.type ≠ .goldstein)
    (hc : Checked c) (ha : 0 < c.alpha0) (hn : 0 < c.nAlpha) (ho : ∀ s, LqSizes c.roll.K (lq s))
    (hg : AtGuess c s1.L s1.ls) (hi : s1.initialized = true) (h0 : s1.iteration = 0) :
    (optimise c lq N s1 = Res.exc ∧ ¬ NoNaN c.roll) ∨
    ∃ s' k b l1, optimise c lq N s1 = Res.ok (s', k, b) ∧ Inv c (s1.ls.x.getD 0 0) s' ∧
      IsRollout c.roll.f c.roll.K c.roll.stepsPerShot { c.roll with L := s1.L }.law s1.ls.xRef
        { u := s1.ls.u, x := s1.ls.x, s := s1.ls.xShot } { u := l1.u, x := l1.x, s := l1.xShot }
        (defects c.roll.f c.roll.K l1.x l1.u) ∧
      Traj c (s1.ls.x.getD 0 0) l1 ∧
      (c.type ≠ .none →
        (∀ m, Better c m (newMerit c l1.icBest l1.fcBest (c.defectNorm (defects c.roll.f c.roll.K l1.x l1.u))
          s1.ls.eBox s1.ls.eGen) → Better c m (trueMerit c l1.x l1.u)) →
        (s'.ls.x = l1.x ∧ s'.ls.u = l1.u) ∨
        Better c (trueMerit c s'.ls.x s'.ls.u) (trueMerit c l1.x l1.u)) := by
  obtain ⟨n, hnat⟩ : ∃ n, N.toNat = n + 1 := ⟨N.toNat - 1, by omega⟩
  have hcc : c.roll.single = true ∨ NoNaN c.roll := by
    rcases hc with h | h
    · exact Or.inl h.1
    · exact Or.inr h
  have hrun : runIteration c lq s1 = (firstRollout c s1.L s1.ls >>= fun l => do
      let out := lq { s1 with ls := l }
      let p ← lineSearch (c.withLq out.L out.delta1 out.delta2) out.dirs { l with xRef := l.x }
      pure ({ s1 with ls := refreshErrors c p.1, L := out.L, iteration := s1.iteration + 1 }, p.2)) := by
    unfold runIteration
    rw [if_neg (by simp [hi]), if_neg (by omega), if_neg (by rw [hg.hu]; omega), if_pos h0]
  unfold optimise
  rw [hnat, optimiseLoop, if_pos rfl, hrun]
  rcases first_rollout hK hshot hg hcc with ⟨e, hne⟩ | ⟨l1, e, hT, hd, hb, hgn, hR⟩
  · left
    rw [e]
    exact ⟨rfl, hne⟩
  · right
    rw [e, Res.ok_bind]
    obtain ⟨l', b1, e1, h1, h2, h3, h4⟩ := iteration_core hK hshot ht hc ha hn (ho { s1 with ls := l1 }) hT
    simp only [e1, Res.ok_bind, Res.pure_eq]
    obtain ⟨s', k', b, e2, hI, hm⟩ := loop_spec (c := c) (lq := lq) hK hshot ht hc ha hn ho n (0 + 1) b1
      { s1 with ls := refreshErrors c l', L := (lq { s1 with ls := l1 }).L, iteration := s1.iteration + 1 }
      ⟨hi, by simp, h1, h2⟩ h3
    rw [e2, Res.ok_bind]
    rw [hd] at hR
    refine ⟨s', k', _, l1, rfl, hI, hR, hT, fun hty hst => ?_⟩
    have h4' := h4 hty
    rw [hb, hgn, hd] at h4'
    rcases h4' with ⟨g1, g2⟩ | g <;> rcases hm hty with ⟨g3, g4⟩ | g'
    · exact Or.inl ⟨g3.trans g1, g4.trans g2⟩
    · right
      have g1' : (refreshErrors c l').x = l1.x := g1
      have g2' : (refreshErrors c l').u = l1.u := g2
      rw [← g1', ← g2']; exact g'
    · right
      rw [g3, g4]; exact hst _ g
    · exact Or.inr (g'.trans (hst _ g))

/-! ### C175 -/

/-- C175 (solve returns): for every horizon, shot length, algorithm (single or multiple shooting, open or
closed loop), line-search type other than Goldstein, dynamics, cost, constraints, linear-quadratic solver
that returns arrays of the right sizes, initial guess that is long enough and bound on the number of
iterations, if no NaN occurs, setting the guess and solving return normally: nothing is thrown and no array
is accessed outside its bounds. -/
theorem C175_returns (c : LsCfg X U R) (lq : Solver X U R → LqOut X U R) (s0 : Solver X U R) (x : List X)
    (u : List U) (L : List (X → U)) (N : ℤ) (hN : 1 ≤ N) (hK : 0 < c.roll.K) (hshot : 0 < c.roll.Kshot)
    (ht : c.type ≠ .goldstein) (hc : NoNaN c.roll) (ha : 0 < c.alpha0) (hn : 0 < c.nAlpha)
    (ho : ∀ s, LqSizes c.roll.K (lq s)) (hx : c.roll.K + 1 ≤ x.length) (hu : c.roll.K ≤ u.length)
    (hL : c.roll.K ≤ L.length) (hs : s0.ls.xShot.length = c.roll.K + 1) (hd : s0.ls.d.length = c.roll.K + 1) :
    ∃ r, (s0.setInitialGuess c x u L >>= optimise c lq N) = Res.ok r := by
  obtain ⟨s1, e, hg, hi, h0, -⟩ := guess_ok hx hu hL hs hd
  rw [e, Res.ok_bind]
  rcases solve_spec hN hK hshot ht (Or.inr hc) ha hn ho hg hi h0 with ⟨-, h⟩ | ⟨s', k, b, l1, h, -⟩
  · exact absurd hc h
  · exact ⟨_, h⟩

/-- C175 (no undefined behaviour): with single shooting and a line search, NaNs may occur; then solving
returns normally or throws (when the guess cannot be rolled out), but never accesses an array outside its
bounds. -/
theorem C175_no_ub (c : LsCfg X U R) (lq : Solver X U R → LqOut X U R) (s0 : Solver X U R) (x : List X)
    (u : List U) (L : List (X → U)) (N : ℤ) (hN : 1 ≤ N) (hK : 0 < c.roll.K) (hshot : 0 < c.roll.Kshot)
    (ht : c.type ≠ .goldstein) (hc : Checked c) (ha : 0 < c.alpha0) (hn : 0 < c.nAlpha)
    (ho : ∀ s, LqSizes c.roll.K (lq s)) (hs : s0.ls.xShot.length = c.roll.K + 1)
    (hd : s0.ls.d.length = c.roll.K + 1) :
    (s0.setInitialGuess c x u L >>= optimise c lq N) ≠ Res.ub := by
  by_cases hlen : c.roll.K + 1 ≤ x.length ∧ c.roll.K ≤ u.length ∧ c.roll.K ≤ L.length
  · obtain ⟨s1, e, hg, hi, h0, -⟩ := guess_ok hlen.1 hlen.2.1 hlen.2.2 hs hd
    rw [e, Res.ok_bind]
    rcases solve_spec hN hK hshot ht hc ha hn ho hg hi h0 with ⟨h, -⟩ | ⟨s', k, b, l1, h, -⟩ <;> simp [h]
  · have : s0.setInitialGuess c x u L = Res.exc := by
      unfold Solver.setInitialGuess
      split
      · rfl
      split
      · rfl
      split
      · rfl
      · omega
    rw [this]
    simp [bind, Res.bind]

/-- C175 (the solution): whatever the linear-quadratic solver proposes and however many iterations are made,
the solution starts in the initial state of the guess, satisfies the dynamics at every stage inside the shots
(in single shooting: at every stage), and the stored costs and constraint errors are those of the solution. -/
theorem C175_solution (c : LsCfg X U R) (lq : Solver X U R → LqOut X U R) (s0 : Solver X U R) (x : List X)
    (u : List U) (L : List (X → U)) (N : ℤ) (hN : 1 ≤ N) (hK : 0 < c.roll.K) (hshot : 0 < c.roll.Kshot)
    (ht : c.type ≠ .goldstein) (hc : Checked c) (ha : 0 < c.alpha0) (hn : 0 < c.nAlpha)
    (ho : ∀ s, LqSizes c.roll.K (lq s)) (hx : c.roll.K + 1 ≤ x.length) (hu : c.roll.K ≤ u.length)
    (hL : c.roll.K ≤ L.length) (hs : s0.ls.xShot.length = c.roll.K + 1) (hd : s0.ls.d.length = c.roll.K + 1)
    {s' : Solver X U R} {k : ℕ} {b : Bool}
    (h : (s0.setInitialGuess c x u L >>= optimise c lq N) = Res.ok (s', k, b)) :
    Feasible c.roll.f c.roll.K (if c.roll.single then c.roll.K else c.roll.Kshot) (x.getD 0 0) s'.ls.x s'.ls.u ∧
      (s'.ls.icBest, s'.ls.fcBest) = c.cost s'.ls.x s'.ls.u ∧ s'.ls.eBox = c.box s'.ls.x s'.ls.u ∧
      s'.ls.eGen = c.gen s'.ls.x s'.ls.u := by
  obtain ⟨s1, e, hg, hi, h0, -, -, ex, -⟩ := guess_ok hx hu hL hs hd
  rw [e, Res.ok_bind] at h
  have hstart : s1.ls.x.getD 0 0 = x.getD 0 0 := by
    rw [ex]; exact getD_take _ _ _ _ (by omega)
  rcases solve_spec hN hK hshot ht hc ha hn ho hg hi h0 with ⟨h', -⟩ | ⟨s2, k2, b2, l1, h', hI, -⟩
  · rw [h'] at h; simp at h
  · rw [h'] at h
    simp only [Res.ok.injEq, Prod.mk.injEq] at h
    obtain ⟨rfl, -, -⟩ := h
    have hf := hI.traj.feas
    rw [hstart] at hf
    exact ⟨hf, by rw [hI.fresh.ic, hI.fresh.fc], hI.fresh.box, hI.fresh.gen⟩

/-- The closed loop of the system with a feedback policy (feed-forward `u`, gains `L`, reference `xref`). -/
def replay (f : X → ℕ → U → X) (xref : List X) (u : List U) (L : List (X → U)) (x0 : X) : ℕ → X
  | 0 => x0
  | i + 1 => f (replay f xref u L x0 i) i
      (u.getD i 0 + L.getD i (fun _ => 0) (replay f xref u L x0 i - xref.getD i 0))

/-- C175 (the policy reproduces the solution): with single shooting, running the returned policy (feed-forward
plus gains around the state trajectory) on the system from the initial state gives exactly the returned state
trajectory, for whatever gains the policy has. -/
theorem C175_policy (c : LsCfg X U R) (lq : Solver X U R → LqOut X U R) (s0 : Solver X U R) (x : List X)
    (u : List U) (L : List (X → U)) (N : ℤ) (hN : 1 ≤ N) (hK : 0 < c.roll.K) (hshot : 0 < c.roll.Kshot)
    (ht : c.type ≠ .goldstein) (hc : Checked c) (ha : 0 < c.alpha0) (hn : 0 < c.nAlpha)
    (ho : ∀ s, LqSizes c.roll.K (lq s)) (hx : c.roll.K + 1 ≤ x.length) (hu : c.roll.K ≤ u.length)
    (hL : c.roll.K ≤ L.length) (hs : s0.ls.xShot.length = c.roll.K + 1) (hd : s0.ls.d.length = c.roll.K + 1)
    (hsg : c.roll.single = true) {s' : Solver X U R} {k : ℕ} {b : Bool}
    (h : (s0.setInitialGuess c x u L >>= optimise c lq N) = Res.ok (s', k, b))
    (gains : List (X → U)) (hlin : ∀ G ∈ gains, G 0 = 0) :
    ∀ i ≤ c.roll.K, replay c.roll.f s'.ls.x s'.ls.u gains (x.getD 0 0) i = s'.ls.x.getD i 0 := by
  obtain ⟨hf, -⟩ := C175_solution c lq s0 x u L N hN hK hshot ht hc ha hn ho hx hu hL hs hd h
  rw [if_pos hsg] at hf
  have hG : ∀ i, gains.getD i (fun _ => 0) 0 = 0 := by
    intro i
    rcases Nat.lt_or_ge i gains.length with hi | hi
    · rw [List.getD_eq_getElem _ _ hi]; exact hlin _ (List.getElem_mem hi)
    · rw [List.getD_eq_default _ _ hi]
  intro i
  induction i with
  | zero => intro _; exact hf.start.symm
  | succ i ih =>
    intro hi
    rw [replay, ih (by omega), sub_self, hG, add_zero]
    refine (hf.dynamics i (by omega) ?_).symm
    rintro ⟨h1, q, hq⟩
    rcases Nat.eq_zero_or_pos q with h0 | h0
    · subst h0; omega
    · have := Nat.mul_le_mul_left c.roll.K h0; omega

/-- C175 (solving does not make it worse): for a solver that has not stored constraint errors yet and finite
non-negative constraint errors, with the simple or the Armijo line search, the solution of a complete solve is
the roll-out of the initial guess itself, or its merit -- cost, weighted defects, weighted constraint errors --
is strictly below (simple) or not above (Armijo) that of this roll-out.

Missing for the full claim: a step that would lower the merit is not always taken, since the first line search
ignores the constraint errors of the guess (`C175_stale_violated`); and a solver used before keeps the
constraint errors of its last solution (`C55_violated_stale_constraints`). -/
theorem C175_improves_partial (c : LsCfg X U R) (lq : Solver X U R → LqOut X U R) (s0 : Solver X U R) (x : List X)
    (u : List U) (L : List (X → U)) (N : ℤ) (hN : 1 ≤ N) (hK : 0 < c.roll.K) (hshot : 0 < c.roll.Kshot)
    (ht : c.type = .simple ∨ c.type = .armijo) (hc : c.roll.single = true ∨ NoNaN c.roll) (ha : 0 < c.alpha0)
    (hn : 0 < c.nAlpha)
    (ho : ∀ s, LqSizes c.roll.K (lq s)) (hx : c.roll.K + 1 ≤ x.length) (hu : c.roll.K ≤ u.length)
    (hL : c.roll.K ≤ L.length) (hs : s0.ls.xShot.length = c.roll.K + 1) (hd : s0.ls.d.length = c.roll.K + 1)
    (hr : 0 ≤ c.rhoC) (hb0 : s0.ls.eBox = .fin 0) (hg0 : s0.ls.eGen = .fin 0)
    (hbox : ∀ x u, ∃ e, 0 ≤ e ∧ c.box x u = .fin e) (hgen : ∀ x u, ∃ e, 0 ≤ e ∧ c.gen x u = .fin e)
    {s' : Solver X U R} {k : ℕ} {b : Bool}
    (h : (s0.setInitialGuess c x u L >>= optimise c lq N) = Res.ok (s', k, b)) :
    ∃ r : Roll X U,
      IsRollout c.roll.f c.roll.K c.roll.stepsPerShot { c.roll with L := L.take c.roll.K }.law x
        { u := u.take c.roll.K, x := x.take (c.roll.K + 1), s := s0.ls.xShot } r
        (defects c.roll.f c.roll.K r.x r.u) ∧
      ((s'.ls.x = r.x ∧ s'.ls.u = r.u) ∨
       (Fl.le (trueMerit c s'.ls.x s'.ls.u) (trueMerit c r.x r.u) ∧
        (c.type = .simple → Fl.lt (trueMerit c s'.ls.x s'.ls.u) (trueMerit c r.x r.u)))) := by
  obtain ⟨s1, e, hg, hi, h0, eb, eg, ex, eu, er, eL, es⟩ := guess_ok hx hu hL hs hd
  rw [e, Res.ok_bind] at h
  have htn : c.type ≠ .none := by rcases ht with h | h <;> simp [h]
  have htg : c.type ≠ .goldstein := by rcases ht with h | h <;> simp [h]
  have hcc : Checked c := by
    rcases hc with h | h
    · exact Or.inl ⟨h, htn⟩
    · exact Or.inr h
  rcases solve_spec hN hK hshot htg hcc ha hn ho hg hi h0 with ⟨h', -⟩ | ⟨s2, k2, b2, l1, h', hI, hR, hT, hm⟩
  · rw [h'] at h; simp at h
  · rw [h'] at h
    simp only [Res.ok.injEq, Prod.mk.injEq] at h
    obtain ⟨rfl, -, -⟩ := h
    rw [ex, eu, er, eL, es] at hR
    refine ⟨_, hR, hm htn ?_⟩
    intro m hmm
    obtain ⟨p, hp, hp'⟩ := hbox l1.x l1.u
    obtain ⟨q, hq, hq'⟩ := hgen l1.x l1.u
    rw [eb, eg, hb0, hg0] at hmm
    have hstale : Fl.le (newMerit c l1.icBest l1.fcBest (c.defectNorm (defects c.roll.f c.roll.K l1.x l1.u))
        (.fin 0) (.fin 0)) (trueMerit c l1.x l1.u) ∨
        newMerit c l1.icBest l1.fcBest (c.defectNorm (defects c.roll.f c.roll.K l1.x l1.u))
        (.fin 0) (.fin 0) = .nan := by
      unfold trueMerit merit newMerit
      rw [hp', hq', hT.ic, hT.fc]
      generalize Fl.add (Fl.add (c.cost l1.x l1.u).1 (c.cost l1.x l1.u).2)
        (Fl.mul (.fin c.rho) (c.defectNorm (defects c.roll.f c.roll.K l1.x l1.u))) = A
      have : 0 ≤ c.rhoC * (p + q) := mul_nonneg hr (add_nonneg hp hq)
      cases A <;> simp [Fl.add, Fl.mul, Fl.le, this]
    rcases hstale with hst | hst
    · exact ⟨le_trans' hmm.1 hst, fun h => lt_trans' (hmm.2 h) hst⟩
    · have := hmm.1
      rw [hst] at this
      cases m <;> simp [Fl.le] at this

end solver

/-! ### Concrete cases -/

/-- Two stages of `x⁺ = x + u`, single shooting or shots of one stage. -/
private def exSolveRoll (single : Bool) : RollCfg ℚ ℚ :=
  { f := fun x _ u => x + u, K := 2, Kshot := 1, single := single, closed := false,
    L := [], nanX := fun _ => false, nanU := fun _ => false }

/-- Cost `u_0² + u_1²`, constraint `x_2 = 1` with weight 10, defects with weight 10. -/
private def exSolve (single : Bool) : LsCfg ℚ ℚ ℚ :=
  { roll := exSolveRoll single,
    cost := fun _ u => (.fin (u.getD 0 0 * u.getD 0 0 + u.getD 1 0 * u.getD 1 0), .fin 0),
    box := fun x _ => .fin |x.getD 2 0 - 1|,
    gen := fun _ _ => .fin 0,
    defectNorm := fun d => .fin ((d.map fun v => |v|).sum),
    type := .simple, rho := 10, rhoC := 10, alpha0 := 1, nAlpha := 1 / 2, maxIterations := 3,
    armijo := 1 / 100, delta1 := .fin 0, delta2 := .fin 0, minImprovement := 1 / 100000,
    maxDefectSum := 1 / 100000, maxValue := 1000000 }

/-- The members of a new backend. -/
private def exNewLs : LsState ℚ ℚ ℚ :=
  { x := [0, 0, 0], xShot := [0, 0, 0], d := [0, 0, 0], u := [0, 0], xPrev := [], uPrev := [], xRef := [],
    icBest := .pinf, fcBest := .pinf, lowest := .pinf, dNorm := .fin 0, eBox := .fin 0, eGen := .fin 0,
    alphaBest := -1 }

/-- A new solver. -/
private def exNew : Solver ℚ ℚ ℚ :=
  { ls := exNewLs, L := [], iteration := 0, initialized := false }

/-- A linear-quadratic solver that proposes to move the controls towards `(1/2, 1/2)`. -/
private def exLq (s : Solver ℚ ℚ ℚ) : LqOut ℚ ℚ ℚ :=
  { dirs := { du := [1 / 2 - s.ls.u.getD 0 0, 1 / 2 - s.ls.u.getD 1 0], dx := [0, 0, 0], dxRef := [0, 0, 0] },
    L := [fun _ => 0, fun _ => 0], delta1 := .fin 0, delta2 := .fin 0 }

private theorem exLq_sizes (s : Solver ℚ ℚ ℚ) : LqSizes 2 (exLq s) := ⟨rfl, rfl, rfl, rfl, rfl⟩

/-- What a user sees of a solve. -/
private def seen (r : Res (Solver ℚ ℚ ℚ × ℕ × Bool)) : Option (List ℚ × List ℚ × ℕ × Bool) :=
  match r with
  | .ok (s, k, b) => some (s.ls.x, s.ls.u, k, b)
  | _ => none

/-- The hypotheses of the theorems hold here, and the solve changes a bad guess: from the controls `(2, -2)` it
reaches `(1/2, 1/2)`. -/
example : (0 < (exSolve true).roll.K) ∧ (exSolve true).type ≠ .goldstein ∧ Checked (exSolve true) ∧
    (∀ s, LqSizes (exSolve true).roll.K (exLq s)) ∧ exNew.ls.xShot.length = (exSolve true).roll.K + 1 ∧
    (∀ x u, ∃ e, 0 ≤ e ∧ (exSolve true).box x u = .fin e) ∧
    seen (exNew.setInitialGuess (exSolve true) [0, 0, 0] [2, -2] [fun _ => 0, fun _ => 0] >>=
      optimise (exSolve true) exLq 5) = some ([0, 1 / 2, 1], [1 / 2, 1 / 2], 2, true) :=
  ⟨by decide, by decide, Or.inr ⟨fun _ => rfl, fun _ => rfl⟩, exLq_sizes, rfl, fun x _ => ⟨_, abs_nonneg _, rfl⟩,
    by decide +kernel⟩

/-- The same with multiple shooting. -/
example : Checked (exSolve false) ∧
    seen (exNew.setInitialGuess (exSolve false) [0, 1, 3] [2, -2] [fun _ => 0, fun _ => 0] >>=
      optimise (exSolve false) exLq 5) = some ([0, 1, 3 / 2], [1 / 2, 1 / 2], 2, true) :=
  ⟨Or.inr ⟨fun _ => rfl, fun _ => rfl⟩, by decide +kernel⟩

/-- C175 violated: a new solver, given a guess that violates the constraints, rejects a step that lowers the
merit -- the step removes the whole violation -- because its first line search takes the constraint errors of the
guess to be zero; it stops after one iteration with the guess as solution, and reports success.  (Calling solve
once more finds the better solution: by then the errors have been computed.) -/
theorem C175_stale_violated : ∃ (c : LsCfg ℚ ℚ ℚ) (lq : Solver ℚ ℚ ℚ → LqOut ℚ ℚ ℚ) (s0 s' s2 : Solver ℚ ℚ ℚ)
    (x : List ℚ) (u : List ℚ) (L : List (ℚ → ℚ)) (k2 : ℕ) (b2 : Bool),
    c.type = .simple ∧ NoNaN c.roll ∧ (∀ s, LqSizes c.roll.K (lq s)) ∧ s0.ls.eBox = .fin 0 ∧ s0.ls.eGen = .fin 0 ∧
      (s0.setInitialGuess c x u L >>= optimise c lq 100) = Res.ok (s', 1, true) ∧
      s'.ls.x = x ∧ s'.ls.u = u ∧
      optimise c lq 100 s' = Res.ok (s2, k2, b2) ∧
      Fl.lt (trueMerit c s2.ls.x s2.ls.u) (trueMerit c s'.ls.x s'.ls.u) := by
  have key : (match (exNew.setInitialGuess (exSolve true) [0, 0, 0] [0, 0] [fun _ => 0, fun _ => 0] >>=
      optimise (exSolve true) exLq 100) with
    | .ok v => (match optimise (exSolve true) exLq 100 v.1 with
      | .ok w => decide (v.2 = (1, true) ∧ v.1.ls.x = [0, 0, 0] ∧ v.1.ls.u = [0, 0] ∧
        Fl.lt (trueMerit (exSolve true) w.1.ls.x w.1.ls.u) (trueMerit (exSolve true) v.1.ls.x v.1.ls.u))
      | _ => false)
    | _ => false) = true := by decide +kernel
  have h : ∃ v w, (exNew.setInitialGuess (exSolve true) [0, 0, 0] [0, 0] [fun _ => 0, fun _ => 0] >>=
      optimise (exSolve true) exLq 100) = Res.ok v ∧ v.2 = (1, true) ∧ v.1.ls.x = [0, 0, 0] ∧ v.1.ls.u = [0, 0] ∧
      optimise (exSolve true) exLq 100 v.1 = Res.ok w ∧
      Fl.lt (trueMerit (exSolve true) w.1.ls.x w.1.ls.u) (trueMerit (exSolve true) v.1.ls.x v.1.ls.u) := by
    split at key
    · next v e =>
      split at key
      · next w e2 =>
        simp only [decide_eq_true_eq] at key
        exact ⟨v, w, e, key.1, key.2.1, key.2.2.1, e2, key.2.2.2⟩
      · simp at key
    · simp at key
  obtain ⟨v, w, h1, h2, h3, h4, h5, h6⟩ := h
  obtain ⟨s', k', b'⟩ := v
  obtain ⟨s2, k2, b2⟩ := w
  simp only [Prod.mk.injEq] at h2
  obtain ⟨rfl, rfl⟩ := h2
  exact ⟨exSolve true, exLq, exNew, s', s2, [0, 0, 0], [0, 0], [fun _ => 0, fun _ => 0], k2, b2, rfl,
    ⟨fun _ => rfl, fun _ => rfl⟩, exLq_sizes, rfl, rfl, h1, h3, h4, h5, h6⟩

end CT.Nloc
