import Verif.Model.NlocLineSearch
import Verif.Props.NlocRollout
import Mathlib.Algebra.Order.Ring.Rat
import Mathlib.Tactic.Linarith
import Mathlib.Tactic.NormNum
import Mathlib.Tactic.Positivity

/-!
# C55: line search of the nonlinear optimal control solver
-/

namespace CT.Nloc

variable {X U R : Type} [Field R] [LinearOrder R] [AddCommGroup X] [AddCommGroup U] [Module R X]
  [Module R U]

/-! ### Specification -/

/-- The merit of a trajectory with defects `d`: cost plus weighted defect norm plus weighted
constraint errors. -/
def merit (c : LsCfg X U R) (x : List X) (u : List U) (d : List X) : Fl R :=
  Fl.add (Fl.add (Fl.add (c.cost x u).1 (c.cost x u).2) (Fl.mul (.fin c.rho) (c.defectNorm d)))
    (Fl.mul (.fin c.rhoC) (Fl.add (c.box x u) (c.gen x u)))

/-- The stored costs and constraint errors are those of the stored trajectory. -/
structure Fresh (c : LsCfg X U R) (s : LsState X U R) : Prop where
  ic : s.icBest = (c.cost s.x s.u).1
  fc : s.fcBest = (c.cost s.x s.u).2
  box : s.eBox = c.box s.x s.u
  gen : s.eGen = c.gen s.x s.u

/-- The candidate for step size `alpha`: the roll-out from the stepped controls and states. -/
def Candidate (c : LsCfg X U R) (q : Dirs X U) (s : LsState X U R) (alpha : R)
    (k : Cand X U R) : Prop :=
  executeLineSearch c q (beginSearch c s) alpha = Res.ok k

/-- The candidate for `alpha` passes the test of the line search against the iterate's merit. -/
def Acceptable (c : LsCfg X U R) (q : Dirs X U) (s : LsState X U R) (alpha : R) : Prop :=
  ∃ k m, Candidate c q s alpha k ∧ acceptStep c alpha k (beginSearch c s).lowest = Res.ok (true, m)

/-- Array sizes as the backend keeps them (C60). -/
structure LsSizes (c : LsCfg X U R) (q : Dirs X U) (s : LsState X U R) : Prop where
  hK : 0 < c.roll.K
  hshot : 0 < c.roll.Kshot
  hx : s.x.length = c.roll.K + 1
  hu : s.u.length = c.roll.K
  hdx : q.dx.length = c.roll.K + 1
  hdu : q.du.length = c.roll.K
  hdr : q.dxRef.length = c.roll.K + 1
  hL : c.roll.closed = true → c.roll.K ≤ c.roll.L.length

/-! ### Lemmas -/

/-- The result of `n` iterations from step size `alpha`. -/
theorem searchLoop_spec (c : LsCfg X U R) (q : Dirs X U) :
    ∀ (n : ℕ) (alpha : R) (s s' : LsState X U R) (a : R),
      searchLoop c q n alpha s = Res.ok (s', a) →
      (∃ i < n, ∃ k m, executeLineSearch c q s (alpha * c.nAlpha ^ i) = Res.ok k ∧
        acceptStep c (alpha * c.nAlpha ^ i) k s.lowest = Res.ok (true, m) ∧
        s' = takeStep s k m ∧ a = alpha * c.nAlpha ^ i ∧
        ∀ j < i, ∃ k' m', executeLineSearch c q s (alpha * c.nAlpha ^ j) = Res.ok k' ∧
          acceptStep c (alpha * c.nAlpha ^ j) k' s.lowest = Res.ok (false, m')) ∨
      (s' = s ∧ a = 0 ∧ ∀ j < n, ∃ k' m', executeLineSearch c q s (alpha * c.nAlpha ^ j) = Res.ok k' ∧
          acceptStep c (alpha * c.nAlpha ^ j) k' s.lowest = Res.ok (false, m'))
  | 0, alpha, s, s', a, h => by
    simp only [searchLoop, Res.pure_eq, Res.ok.injEq, Prod.mk.injEq] at h
    exact Or.inr ⟨h.1.symm, h.2.symm, fun j hj => by omega⟩
  | n + 1, alpha, s, s', a, h => by
    rw [searchLoop] at h
    obtain ⟨k, hk, h1⟩ := Res.bind_eq_ok.1 h
    obtain ⟨⟨b, m⟩, hm, h2⟩ := Res.bind_eq_ok.1 h1
    cases b with
    | true =>
      simp only [if_true, Res.pure_eq, Res.ok.injEq, Prod.mk.injEq] at h2
      exact Or.inl ⟨0, by omega, k, m, by simpa using hk, by simpa using hm, h2.1.symm,
        by simp [h2.2], fun j hj => by omega⟩
    | false =>
      simp only [Bool.false_eq_true, if_false] at h2
      have shift : ∀ i, alpha * c.nAlpha * c.nAlpha ^ i = alpha * c.nAlpha ^ (i + 1) := by
        intro i; rw [pow_succ]; ring
      have head : ∃ k' m', executeLineSearch c q s (alpha * c.nAlpha ^ 0) = Res.ok k' ∧
          acceptStep c (alpha * c.nAlpha ^ 0) k' s.lowest = Res.ok (false, m') :=
        ⟨k, m, by simpa using hk, by simpa using hm⟩
      rcases searchLoop_spec c q n (alpha * c.nAlpha) s s' a h2 with
        ⟨i, hi, k1, m1, e1, e2, e3, e4, e5⟩ | ⟨e1, e2, e3⟩
      · refine Or.inl ⟨i + 1, by omega, k1, m1, ?_, ?_, e3, ?_, ?_⟩
        · rw [← shift]; exact e1
        · rw [← shift]; exact e2
        · rw [← shift]; exact e4
        · intro j hj
          cases j with
          | zero => exact head
          | succ j => rw [← shift]; exact e5 j (by omega)
      · refine Or.inr ⟨e1, e2, ?_⟩
        intro j hj
        cases j with
        | zero => exact head
        | succ j => rw [← shift]; exact e3 j (by omega)

variable [IsStrictOrderedRing R]

theorem lineSearch_cases {c : LsCfg X U R} {q : Dirs X U} {s s' : LsState X U R} {b : Bool}
    (ht : c.type ≠ .none) (h : lineSearch c q s = Res.ok (s', b)) (ha : 0 < c.alpha0)
    (hn : 0 < c.nAlpha) :
    (∃ i < c.maxIterations, ∃ k m, Candidate c q s (c.alpha0 * c.nAlpha ^ i) k ∧
        acceptStep c (c.alpha0 * c.nAlpha ^ i) k (beginSearch c s).lowest = Res.ok (true, m) ∧
        s' = { takeStep (beginSearch c s) k m with alphaBest := c.alpha0 * c.nAlpha ^ i } ∧
        0 < c.alpha0 * c.nAlpha ^ i ∧
        ∀ j < i, ∃ k' m', Candidate c q s (c.alpha0 * c.nAlpha ^ j) k' ∧
          acceptStep c (c.alpha0 * c.nAlpha ^ j) k' (beginSearch c s).lowest = Res.ok (false, m')) ∨
      (s' = { beginSearch c s with alphaBest := 0 } ∧ b = false ∧
        ∀ j < c.maxIterations, ∃ k' m', Candidate c q s (c.alpha0 * c.nAlpha ^ j) k' ∧
          acceptStep c (c.alpha0 * c.nAlpha ^ j) k' (beginSearch c s).lowest = Res.ok (false, m')) := by
  have h' : (performLineSearch c q (beginSearch c s) >>= fun p =>
      if p.2 = 0 then pure ({ p.1 with alphaBest := p.2 }, false)
      else pure ({ p.1 with alphaBest := p.2 },
        foundBetter c (beginSearch c s).lowest { p.1 with alphaBest := p.2 }))
      = Res.ok (s', b) := by
    unfold lineSearch at h
    cases hty : c.type with
    | none => exact absurd hty ht
    | simple => rw [hty] at h; exact h
    | armijo => rw [hty] at h; exact h
    | goldstein => rw [hty] at h; exact h
  obtain ⟨⟨s1, a⟩, h1, h2⟩ := Res.bind_eq_ok.1 h'
  rcases searchLoop_spec c q _ _ _ _ _ h1 with ⟨i, hi, k, m, e1, e2, e3, e4, e5⟩ | ⟨e1, e2, e3⟩
  · have hpos : 0 < c.alpha0 * c.nAlpha ^ i := by positivity
    have hne : a ≠ 0 := by rw [e4]; exact ne_of_gt hpos
    simp only [hne, if_false, Res.pure_eq, Res.ok.injEq, Prod.mk.injEq] at h2
    refine Or.inl ⟨i, hi, k, m, e1, e2, ?_, hpos, e5⟩
    rw [← h2.1, e3, e4]
  · simp only [e2, if_true, Res.pure_eq, Res.ok.injEq, Prod.mk.injEq] at h2
    refine Or.inr ⟨?_, h2.2.symm, e3⟩
    rw [← h2.1, e1]

omit [LinearOrder R] [IsStrictOrderedRing R] in
theorem step_ok {T : Type} [AddCommGroup T] [Module R T] {delta base : List T} (alpha : R)
    (h : delta.length = base.length) : ∃ l, step delta alpha base = Res.ok l ∧
      l.length = base.length := by
  refine ⟨List.zipWith (· + ·) (delta.map fun v => alpha • v) base,
    by simp only [step, Arrays.add, List.length_map, h, ne_eq, not_true, if_false], ?_⟩
  simp [h]

/-- With the backend's array sizes every candidate can be computed, and a candidate whose roll-out
did not fail is a consistent roll-out. -/
theorem candidate_ok {c : LsCfg X U R} {q : Dirs X U} {s : LsState X U R} (hS : LsSizes c q s)
    (alpha : R) : ∃ k, Candidate c q s alpha k ∧
      ((k.ic = .pinf ∧ k.fc = .pinf ∧ k.dn = .fin c.maxValue ∧ k.eb = .fin 0 ∧ k.eg = .fin 0) ∨
       (k.ic = (c.cost k.r.x k.r.u).1 ∧ k.fc = (c.cost k.r.x k.r.u).2 ∧ k.dn = c.defectNorm k.d ∧
        k.eb = c.box k.r.x k.r.u ∧ k.eg = c.gen k.r.x k.r.u ∧
        ∀ i < c.roll.K, k.r.x.getD (i + 1) 0 + k.d.getD i 0
          = c.roll.f (k.r.x.getD i 0) i (k.r.u.getD i 0))) := by
  obtain ⟨hK, hshot, hx, hu, hdx, hdu, hdr, hL⟩ := hS
  obtain ⟨u, eu, lu⟩ := step_ok (delta := q.du) (base := (beginSearch c s).uPrev) alpha
    (by simp [beginSearch, hdu, hu])
  obtain ⟨x, ex, lx⟩ := step_ok (delta := q.dx) (base := (beginSearch c s).xPrev) alpha
    (by simp [beginSearch, hdx, hx])
  obtain ⟨xr, er, lr⟩ := step_ok (delta := q.dxRef) (base := (beginSearch c s).xPrev) alpha
    (by simp [beginSearch, hdr, hx])
  have lu' : u.length = c.roll.K := by rw [lu]; exact hu
  have lx' : x.length = c.roll.K + 1 := by rw [lx]; exact hx
  have lr' : xr.length = c.roll.K + 1 := by rw [lr]; exact hx
  obtain ⟨r', d', b, e, hb⟩ := C54_rollout c.roll xr (fun _ => false)
    { u := u, x := x, s := List.replicate (c.roll.K + 1) 0 } (List.replicate (c.roll.K + 1) 0)
    hK hshot ⟨by simp [lu'], by simp [lx'], by simp, hL, fun _ => by omega⟩ (by simp)
  have he : Candidate c q s alpha (evaluate c r' d' b) := by
    unfold Candidate executeLineSearch
    rw [eu, Res.ok_bind, ex, Res.ok_bind, er, Res.ok_bind, e, Res.ok_bind]; rfl
  refine ⟨_, he, ?_⟩
  cases b with
  | false => left; simp [evaluate]
  | true =>
    right
    refine ⟨by simp [evaluate], by simp [evaluate], by simp [evaluate], by simp [evaluate],
      by simp [evaluate], ?_⟩
    simpa [evaluate] using (hb rfl).dynamics

theorem accept_le {c : LsCfg X U R} {alpha : R} {k : Cand X U R} {prev m : Fl R}
    (h : acceptStep c alpha k prev = Res.ok (true, m)) :
    m = newMerit c k.ic k.fc k.dn k.eb k.eg ∧ (c.type = .simple → Fl.lt m prev) ∧
      (c.type = .armijo → Fl.le m prev ∧
        Fl.le (Fl.mul (.fin c.armijo) (expectedDecrease c alpha)) (Fl.sub prev m)) := by
  unfold acceptStep at h
  simp only at h
  cases ht : c.type with
  | none => rw [ht] at h; simp at h
  | goldstein => rw [ht] at h; simp at h
  | simple =>
    rw [ht] at h
    simp only [Res.pure_eq, Res.ok.injEq, Prod.mk.injEq, Bool.and_eq_true, decide_eq_true_eq] at h
    refine ⟨h.2.symm, fun _ => ?_, fun hh => by simp at hh⟩
    rw [← h.2]
    exact Fl.lt_of_sub_pos h.1.1
  | armijo =>
    rw [ht] at h
    simp only at h
    split at h
    · simp at h
    · simp only [Res.pure_eq, Res.ok.injEq, Prod.mk.injEq, Bool.and_eq_true,
        decide_eq_true_eq] at h
      refine ⟨h.2.symm, fun hh => by simp at hh, fun _ => ?_⟩
      rw [← h.2]
      exact ⟨Fl.le_of_sub_nonneg h.1.2, h.1.1⟩

omit [IsStrictOrderedRing R] in
/-- A failed roll-out is never accepted. -/
theorem accept_not_failed {c : LsCfg X U R} {alpha : R} {k : Cand X U R} {prev m : Fl R}
    (h : acceptStep c alpha k prev = Res.ok (true, m)) (h1 : k.ic = .pinf) (h2 : k.fc = .pinf)
    (h3 : k.dn = .fin c.maxValue) (h4 : k.eb = .fin 0) (h5 : k.eg = .fin 0) : False := by
  have hm : newMerit c k.ic k.fc k.dn k.eb k.eg = .pinf := by
    simp [newMerit, h1, h2, h3, h4, h5, Fl.add, Fl.mul]
  have hs : ¬ Fl.lt (.fin 0) (Fl.sub prev .pinf) := by
    cases prev <;> simp [Fl.sub, Fl.neg, Fl.add, Fl.lt]
  have hs' : ¬ Fl.le (.fin 0) (Fl.sub prev .pinf) := by
    cases prev <;> simp [Fl.sub, Fl.neg, Fl.add, Fl.le]
  unfold acceptStep at h
  simp only [hm] at h
  cases ht : c.type <;> rw [ht] at h <;> simp [hs, hs', Fl.isNan] at h

omit [AddCommGroup X] [AddCommGroup U] [Module R X] [Module R U] in
theorem accept_simple_iff {c : LsCfg X U R} {alpha : R} {k : Cand X U R} {prev : Fl R}
    (ht : c.type = .simple) :
    (∃ m, acceptStep c alpha k prev = Res.ok (true, m)) ↔
      Fl.lt (newMerit c k.ic k.fc k.dn k.eb k.eg) prev := by
  unfold acceptStep
  simp only [ht, Res.pure_eq, Res.ok.injEq, Prod.mk.injEq, Bool.and_eq_true, decide_eq_true_eq]
  generalize newMerit c k.ic k.fc k.dn k.eb k.eg = m
  constructor
  · rintro ⟨_, h, _⟩
    exact Fl.lt_of_sub_pos h.1
  · intro h
    refine ⟨m, ⟨?_, ?_⟩, rfl⟩
    · cases prev <;> cases m <;> simp_all [Fl.lt, Fl.sub, Fl.add, Fl.neg]
    · cases prev <;> cases m <;> simp_all [Fl.lt, Fl.isNan]

/-! ### C55 -/

/-- C55 (accepted steps): with the simple line search, if the stored costs and constraint errors
belong to the current trajectory, then after an accepted step the merit of the new trajectory is
strictly smaller than the merit of the old one, the stored values belong to the new trajectory, and
the new trajectory satisfies the dynamics up to its defects.

Missing for the full claim: the stored constraint errors can be stale
(`C55_violated_stale_constraints`), and the Armijo rule is not strict
(`C55_armijo_partial`, `C55_violated_armijo`). -/
theorem C55_accepted_partial (c : LsCfg X U R) (q : Dirs X U) (s s' : LsState X U R) (b : Bool)
    (ht : c.type = .simple) (hS : LsSizes c q s) (hF : Fresh c s) (ha : 0 < c.alpha0)
    (hn : 0 < c.nAlpha) (h : lineSearch c q s = Res.ok (s', b)) (hacc : s'.alphaBest ≠ 0) :
    Fl.lt (merit c s'.x s'.u s'.d) (merit c s.x s.u s.d) ∧ Fresh c s' ∧
      s'.lowest = merit c s'.x s'.u s'.d ∧
      ∀ i < c.roll.K, s'.x.getD (i + 1) 0 + s'.d.getD i 0
        = c.roll.f (s'.x.getD i 0) i (s'.u.getD i 0) := by
  have hold : (beginSearch c s).lowest = merit c s.x s.u s.d := by
    simp [beginSearch, newMerit, merit, hF.ic, hF.fc, hF.box, hF.gen]
  rcases lineSearch_cases (by simp [ht]) h ha hn with
    ⟨i, -, k, m, e1, e2, e3, e4, -⟩ | ⟨e1, -, -⟩
  · obtain ⟨hm, hlt, -⟩ := accept_le e2
    obtain ⟨k', ek, hk⟩ := candidate_ok hS (c.alpha0 * c.nAlpha ^ i)
    have hkk : k' = k := by
      unfold Candidate at ek e1
      rw [ek] at e1
      simpa using e1
    subst hkk
    rcases hk with ⟨h1, h2, h3, h4, h5⟩ | ⟨h1, h2, h3, h4, h5, h6⟩
    · exact (accept_not_failed e2 h1 h2 h3 h4 h5).elim
    · have hm' : m = merit c k'.r.x k'.r.u k'.d := by
        rw [hm, h1, h2, h3, h4, h5]; rfl
      subst e3
      refine ⟨?_, ⟨h1, h2, h4, h5⟩, hm', h6⟩
      have := hlt ht
      rw [hold, hm'] at this
      exact this
  · exact absurd (by rw [e1]) hacc

/-- C55 (Armijo rule): under the same conditions the merit does not increase, and it strictly
decreases whenever the decrease the quadratic model predicts is positive and the Armijo parameter is
positive. -/
theorem C55_armijo_partial (c : LsCfg X U R) (q : Dirs X U) (s s' : LsState X U R) (b : Bool)
    (ht : c.type = .armijo) (hS : LsSizes c q s) (hF : Fresh c s) (ha : 0 < c.alpha0)
    (hn : 0 < c.nAlpha) (h : lineSearch c q s = Res.ok (s', b)) (hacc : s'.alphaBest ≠ 0) :
    Fl.le (merit c s'.x s'.u s'.d) (merit c s.x s.u s.d) ∧ Fresh c s' ∧
      (Fl.lt (.fin 0) (Fl.mul (.fin c.armijo) (expectedDecrease c s'.alphaBest)) →
        Fl.lt (merit c s'.x s'.u s'.d) (merit c s.x s.u s.d)) := by
  have hold : (beginSearch c s).lowest = merit c s.x s.u s.d := by
    simp [beginSearch, newMerit, merit, hF.ic, hF.fc, hF.box, hF.gen]
  rcases lineSearch_cases (by simp [ht]) h ha hn with
    ⟨i, -, k, m, e1, e2, e3, e4, -⟩ | ⟨e1, -, -⟩
  · obtain ⟨hm, -, hle⟩ := accept_le e2
    obtain ⟨hle, hex⟩ := hle ht
    obtain ⟨k', ek, hk⟩ := candidate_ok hS (c.alpha0 * c.nAlpha ^ i)
    have hkk : k' = k := by
      unfold Candidate at ek e1
      rw [ek] at e1
      simpa using e1
    subst hkk
    rcases hk with ⟨h1, h2, h3, h4, h5⟩ | ⟨h1, h2, h3, h4, h5, h6⟩
    · exact (accept_not_failed e2 h1 h2 h3 h4 h5).elim
    · have hm' : m = merit c k'.r.x k'.r.u k'.d := by
        rw [hm, h1, h2, h3, h4, h5]; rfl
      rw [hold, hm'] at hle hex
      subst e3
      refine ⟨hle, ⟨h1, h2, h4, h5⟩, fun hpos => Fl.lt_of_sub_pos ?_⟩
      change Fl.lt (.fin 0) (Fl.sub (merit c s.x s.u s.d) (merit c k'.r.x k'.r.u k'.d))
      change Fl.lt (.fin 0) (Fl.mul (.fin c.armijo)
        (expectedDecrease c (c.alpha0 * c.nAlpha ^ i))) at hpos
      revert hex hpos
      generalize Fl.mul (.fin c.armijo) (expectedDecrease c (c.alpha0 * c.nAlpha ^ i)) = e
      generalize Fl.sub (merit c s.x s.u s.d) (merit c k'.r.x k'.r.u k'.d) = z
      intro hex hpos
      cases e <;> cases z <;> simp_all [Fl.lt, Fl.le]
      exact lt_of_lt_of_le hpos hex
  · exact absurd (by rw [e1]) hacc

/-- C55 (choice of the step): the step sizes tried are `alpha_0 * n^i`; the one taken is the first
acceptable one among `i < maxIterations`, and the search reports step size zero exactly if none is
acceptable. -/
theorem C55_first (c : LsCfg X U R) (q : Dirs X U) (s s' : LsState X U R) (b : Bool)
    (ht : c.type ≠ .none) (ha : 0 < c.alpha0) (hn : 0 < c.nAlpha)
    (h : lineSearch c q s = Res.ok (s', b)) :
    (∃ i < c.maxIterations, s'.alphaBest = c.alpha0 * c.nAlpha ^ i ∧
        Acceptable c q s (c.alpha0 * c.nAlpha ^ i) ∧
        (∀ j < i, ¬ Acceptable c q s (c.alpha0 * c.nAlpha ^ j)) ∧
        ∃ k, Candidate c q s (c.alpha0 * c.nAlpha ^ i) k ∧ s'.x = k.r.x ∧ s'.u = k.r.u ∧
          s'.d = k.d) ∨
      (s'.alphaBest = 0 ∧ b = false ∧
        ∀ i < c.maxIterations, ¬ Acceptable c q s (c.alpha0 * c.nAlpha ^ i)) := by
  have rej : ∀ j, (∃ k' m', Candidate c q s (c.alpha0 * c.nAlpha ^ j) k' ∧
      acceptStep c (c.alpha0 * c.nAlpha ^ j) k' (beginSearch c s).lowest = Res.ok (false, m')) →
      ¬ Acceptable c q s (c.alpha0 * c.nAlpha ^ j) := by
    rintro j ⟨k, m, h1, h2⟩ ⟨k', m', h1', h2'⟩
    unfold Candidate at h1 h1'
    rw [h1] at h1'
    simp only [Res.ok.injEq] at h1'
    subst h1'
    rw [h2] at h2'
    simp at h2'
  rcases lineSearch_cases ht h ha hn with ⟨i, hi, k, m, e1, e2, e3, e4, e5⟩ | ⟨e1, e2, e3⟩
  · left
    refine ⟨i, hi, by rw [e3], ⟨k, m, e1, e2⟩, fun j hj => rej j (e5 j hj), k, e1, ?_, ?_, ?_⟩ <;>
      rw [e3] <;> rfl
  · right
    exact ⟨by rw [e1], e2, fun j hj => rej j (e3 j hj)⟩

/-- For the simple line search "acceptable" means: the candidate can be computed and its merit is
below the merit the search started from. -/
theorem C55_acceptable_simple (c : LsCfg X U R) (q : Dirs X U) (s : LsState X U R) (alpha : R)
    (ht : c.type = .simple) : Acceptable c q s alpha ↔ ∃ k, Candidate c q s alpha k ∧
      Fl.lt (newMerit c k.ic k.fc k.dn k.eb k.eg) (beginSearch c s).lowest := by
  constructor
  · rintro ⟨k, m, h1, h2⟩
    exact ⟨k, h1, (accept_simple_iff ht).1 ⟨m, h2⟩⟩
  · rintro ⟨k, h1, h2⟩
    obtain ⟨m, hm⟩ := (accept_simple_iff (alpha := alpha) ht).2 h2
    exact ⟨k, m, h1, hm⟩

/-- C55 (no failure): with the backend's array sizes a simple or Armijo line search returns
normally. -/
theorem C55_returns (c : LsCfg X U R) (q : Dirs X U) (s : LsState X U R)
    (ht : c.type = .simple ∨ c.type = .armijo) (hS : LsSizes c q s) :
    ∃ r, lineSearch c q s = Res.ok r := by
  have hacc : ∀ alpha k prev, ∃ r, acceptStep c alpha k prev = Res.ok r := by
    intro alpha k prev
    unfold acceptStep
    rcases ht with ht | ht <;> simp only [ht]
    · exact ⟨_, rfl⟩
    · split <;> exact ⟨_, rfl⟩
  have hloop : ∀ n alpha, ∃ r, searchLoop c q n alpha (beginSearch c s) = Res.ok r := by
    intro n
    induction n with
    | zero => intro alpha; exact ⟨_, rfl⟩
    | succ n ih =>
      intro alpha
      obtain ⟨k, hk, -⟩ := candidate_ok hS alpha
      obtain ⟨a, ea⟩ := hacc alpha k (beginSearch c s).lowest
      unfold Candidate at hk
      rw [searchLoop, hk, Res.ok_bind, ea, Res.ok_bind]
      split
      · exact ⟨_, rfl⟩
      · exact ih _
  obtain ⟨⟨s1, a⟩, h1⟩ := hloop c.maxIterations c.alpha0
  have e : lineSearch c q s = (performLineSearch c q (beginSearch c s) >>= fun p =>
      if p.2 = 0 then pure ({ p.1 with alphaBest := p.2 }, false)
      else pure ({ p.1 with alphaBest := p.2 },
        foundBetter c (beginSearch c s).lowest { p.1 with alphaBest := p.2 })) := by
    unfold lineSearch
    rcases ht with ht | ht <;> simp only [ht]
  rw [e]
  unfold performLineSearch
  rw [h1, Res.ok_bind]
  split <;> exact ⟨_, rfl⟩

/-- C55 (rejected search): if no step size is accepted, states, controls, rolled-out states, costs
and constraint errors are as before.

Missing: the defects are not as before (`C55_violated_rejected`); all of them are zero. -/
theorem C55_rejected_partial (c : LsCfg X U R) (q : Dirs X U) (s s' : LsState X U R) (b : Bool)
    (ht : c.type ≠ .none) (ha : 0 < c.alpha0) (hn : 0 < c.nAlpha)
    (h : lineSearch c q s = Res.ok (s', b)) (hrej : s'.alphaBest = 0) :
    s'.x = s.x ∧ s'.u = s.u ∧ s'.xShot = s.xShot ∧ s'.xRef = s.xRef ∧ s'.icBest = s.icBest ∧
      s'.fcBest = s.fcBest ∧ s'.eBox = s.eBox ∧ s'.eGen = s.eGen ∧
      s'.dNorm = c.defectNorm s.d ∧ b = false ∧ s'.d.length = s.d.length ∧
      ∀ v ∈ s'.d, v = 0 := by
  rcases lineSearch_cases ht h ha hn with ⟨i, hi, k, m, e1, e2, e3, e4, e5⟩ | ⟨e1, e2, e3⟩
  · rw [e3] at hrej
    exact absurd hrej (ne_of_gt e4)
  · subst e1
    refine ⟨rfl, rfl, rfl, rfl, rfl, rfl, rfl, rfl, rfl, e2, by simp [beginSearch], ?_⟩
    intro v hv
    simp only [beginSearch, List.mem_map] at hv
    obtain ⟨-, -, rfl⟩ := hv
    rfl

/-- Hence, for every line search that rejects all steps while some defect is not zero, the defects
are not as before. -/
theorem C55_violated_rejected (c : LsCfg X U R) (q : Dirs X U) (s s' : LsState X U R) (b : Bool)
    (ht : c.type ≠ .none) (ha : 0 < c.alpha0) (hn : 0 < c.nAlpha)
    (h : lineSearch c q s = Res.ok (s', b)) (hrej : s'.alphaBest = 0) (hd : ∃ v ∈ s.d, v ≠ 0) :
    s'.d ≠ s.d := by
  obtain ⟨v, hv, hne⟩ := hd
  intro e
  exact hne ((C55_rejected_partial c q s s' b ht ha hn h hrej).2.2.2.2.2.2.2.2.2.2.2 v (e ▸ hv))

/-- C59 (a search reports "nothing better" only at convergence): if a step was taken and the line search nevertheless
reports that no better solution was found, then the merit changed relatively by no more than the configured minimum and
the norm of the new defects is not above the configured bound. -/
theorem C59_converged (c : LsCfg X U R) (q : Dirs X U) (s s' : LsState X U R)
    (ht : c.type = .simple ∨ c.type = .armijo) (hS : LsSizes c q s) (hF : Fresh c s) (ha : 0 < c.alpha0)
    (hn : 0 < c.nAlpha) (h : lineSearch c q s = Res.ok (s', false)) (hacc : s'.alphaBest ≠ 0) :
    ¬ Fl.lt (.fin c.minImprovement) (Fl.abs (Fl.div
        (Fl.sub (merit c s.x s.u s.d) (merit c s'.x s'.u s'.d)) (merit c s.x s.u s.d))) ∧
      ¬ Fl.lt (.fin c.maxDefectSum) (c.defectNorm s'.d) := by
  have hold : (beginSearch c s).lowest = merit c s.x s.u s.d := by
    simp [beginSearch, newMerit, merit, hF.ic, hF.fc, hF.box, hF.gen]
  have htn : c.type ≠ .none := by rcases ht with ht | ht <;> simp [ht]
  have hlow : s'.lowest = merit c s'.x s'.u s'.d ∧ s'.dNorm = c.defectNorm s'.d := by
    rcases lineSearch_cases htn h ha hn with ⟨i, -, k, m, e1, e2, e3, e4, -⟩ | ⟨e1, -, -⟩
    · obtain ⟨hm, -, -⟩ := accept_le e2
      obtain ⟨k', ek, hk⟩ := candidate_ok hS (c.alpha0 * c.nAlpha ^ i)
      have hkk : k' = k := by
        unfold Candidate at ek e1
        rw [ek] at e1
        simpa using e1
      subst hkk
      rcases hk with ⟨h1, h2, h3, h4, h5⟩ | ⟨h1, h2, h3, h4, h5, h6⟩
      · exact (accept_not_failed e2 h1 h2 h3 h4 h5).elim
      · subst e3
        refine ⟨?_, h3⟩
        change m = _
        rw [hm, h1, h2, h3, h4, h5]; rfl
    · exact absurd (by rw [e1]) hacc
  have e : lineSearch c q s = (performLineSearch c q (beginSearch c s) >>= fun p =>
      if p.2 = 0 then pure ({ p.1 with alphaBest := p.2 }, false)
      else pure ({ p.1 with alphaBest := p.2 },
        foundBetter c (beginSearch c s).lowest { p.1 with alphaBest := p.2 })) := by
    unfold lineSearch
    rcases ht with ht | ht <;> simp only [ht]
  rw [e] at h
  obtain ⟨p, -, h2⟩ := Res.bind_eq_ok.1 h
  split at h2
  · next hz =>
    simp only [Res.pure_eq, Res.ok.injEq, Prod.mk.injEq, and_true] at h2
    rw [← h2] at hacc
    exact absurd hz hacc
  · simp only [Res.pure_eq, Res.ok.injEq, Prod.mk.injEq] at h2
    obtain ⟨h3, h4⟩ := h2
    rw [h3] at h4
    unfold foundBetter at h4
    rw [hold, hlow.1, hlow.2] at h4
    split at h4
    · simp at h4
    · next hc => exact ⟨hc, by simpa using h4⟩

/-- C55 (no line search): with step type "none" the iterate becomes the roll-out of the full step, the stored costs,
their sum and the defect norm are those of the new trajectory, and "nothing better" is reported exactly if the costs
changed relatively by no more than the configured minimum and the defects are not above the configured bound. -/
theorem C55_full_step (c : LsCfg X U R) (q : Dirs X U) (s : LsState X U R) (ht : c.type = .none)
    (hS : LsSizes c q s) (hr : s.xRef.length = c.roll.K + 1) (hs : s.xShot.length = c.roll.K + 1)
    (hd : c.roll.K ≤ s.d.length) (hx : ∀ x, c.roll.nanX x = false) (hu : ∀ u, c.roll.nanU u = false) :
    ∃ s' b, lineSearch c q s = Res.ok (s', b) ∧
      IsRollout c.roll.f c.roll.K c.roll.stepsPerShot c.roll.law (List.zipWith (· + ·) s.xRef q.dxRef)
        { u := List.zipWith (· + ·) s.u q.du, x := List.zipWith (· + ·) s.x q.dx, s := s.xShot }
        { u := s'.u, x := s'.x, s := s'.xShot } s'.d ∧
      s'.icBest = (c.cost s'.x s'.u).1 ∧ s'.fcBest = (c.cost s'.x s'.u).2 ∧
      s'.lowest = Fl.add (c.cost s'.x s'.u).1 (c.cost s'.x s'.u).2 ∧ s'.dNorm = c.defectNorm s'.d ∧
      s'.alphaBest = 1 ∧
      (b = false ↔ ¬ Fl.lt (.fin c.minImprovement) (Fl.abs (Fl.div
          (Fl.sub (Fl.add s.icBest s.fcBest) (Fl.add (c.cost s'.x s'.u).1 (c.cost s'.x s'.u).2))
          (Fl.add s.icBest s.fcBest))) ∧
        ¬ Fl.lt (.fin c.maxDefectSum) (c.defectNorm s'.d)) := by
  have add : ∀ {T : Type} [AddCommGroup T] (a b : List T), a.length = b.length →
      Arrays.add a b = Res.ok (List.zipWith (· + ·) a b) := by
    intro T _ a b h
    simp only [Arrays.add, h, ne_eq, not_true, if_false]
  obtain ⟨hK, hshot, lx, lu, ldx, ldu, ldr, hL⟩ := hS
  have hroll : ∃ r' d', rolloutShotsST c.roll (List.zipWith (· + ·) s.xRef q.dxRef) 0 (c.roll.K - 1)
      { u := List.zipWith (· + ·) s.u q.du, x := List.zipWith (· + ·) s.x q.dx, s := s.xShot }
      (s.d.map fun _ => 0) = Res.ok (r', d') ∧ IsRollout c.roll.f c.roll.K c.roll.stepsPerShot c.roll.law
        (List.zipWith (· + ·) s.xRef q.dxRef)
        { u := List.zipWith (· + ·) s.u q.du, x := List.zipWith (· + ·) s.x q.dx, s := s.xShot } r' d' := by
    exact C54_all_shots c.roll _ _ _ hK hshot
      ⟨by simp [lu, ldu], by simp [lx, ldx], by simp [hs], hL, fun _ => by simp [hr, ldr]⟩
      (by simpa using hd) hx hu (fun i _ => getD_map_zero _ i)
  obtain ⟨r', d', e, hR⟩ := hroll
  refine ⟨_, _, by
    simp only [lineSearch, ht, fullStep]
    rw [add _ _ (by omega), Res.ok_bind, add _ _ (by omega), Res.ok_bind, add _ _ (by omega), Res.ok_bind, e,
      Res.ok_bind]
    rfl, hR, rfl, rfl, rfl, rfl, rfl, ?_⟩
  simp only [foundBetter]
  split
  · next hc => simp [hc]
  · next hc => simp [hc]

/-! ### Concrete cases: one integrator `x⁺ = x + u`, two stages, shots of one stage -/

/-- Two stages of `x⁺ = x + u`. -/
private def exRoll : RollCfg ℚ ℚ :=
  { f := fun x _ u => x + u, K := 2, Kshot := 1, single := false, closed := false,
    L := [], nanX := fun _ => false, nanU := fun _ => false }

/-- Two stages, `x⁺ = x + u`, cost `x_2²` terminal only, defects weighted with 10. -/
private def exCfg (t : LsType) (rhoC : ℚ) : LsCfg ℚ ℚ ℚ :=
  { roll := exRoll,
    cost := fun x _ => (.fin 0, .fin (x.getD 2 0 * x.getD 2 0)),
    box := fun x _ => .fin |x.getD 1 0|,
    gen := fun _ _ => .fin 0,
    defectNorm := fun d => .fin ((d.map fun v => |v|).sum),
    type := t, rho := 10, rhoC := rhoC, alpha0 := 1, nAlpha := 1 / 2, maxIterations := 3,
    armijo := 1 / 100,
    delta1 := .fin 0, delta2 := .fin 0, minImprovement := 1 / 100000, maxDefectSum := 1 / 100000,
    maxValue := 1000000 }

/-- An iterate with a defect of 1 after the first stage. -/
private def exState (eBox : ℚ) : LsState ℚ ℚ ℚ :=
  { x := [0, 1, 1], xShot := [2, 1, 0], d := [1, 0, 0], u := [2, 0], xPrev := [], uPrev := [], xRef := [],
    icBest := .fin 0, fcBest := .fin 1, lowest := .pinf, dNorm := .pinf, eBox := .fin eBox, eGen := .fin 0,
    alphaBest := -1 }

/-- A direction that closes the gap and drives the end state to zero. -/
private def exGood : Dirs ℚ ℚ := { du := [-1, -1], dx := [0, 0, -1], dxRef := [0, 0, 0] }

/-- A direction that makes everything worse. -/
private def exBad : Dirs ℚ ℚ := { du := [4, 4], dx := [0, 0, 4], dxRef := [0, 0, 0] }

private theorem exSizesLs (t : LsType) (rhoC : ℚ) (q : Dirs ℚ ℚ) (hq : q = exGood ∨ q = exBad) (e : ℚ) :
    LsSizes (exCfg t rhoC) q (exState e) := by
  rcases hq with rfl | rfl <;>
    exact ⟨by simp [exCfg, exRoll], by simp [exCfg, exRoll], rfl, rfl, rfl, rfl, rfl, fun h => by simp [exCfg, exRoll] at h⟩

private theorem exFresh (t : LsType) (rhoC : ℚ) : Fresh (exCfg t rhoC) (exState 1) := by
  refine ⟨rfl, ?_, ?_, rfl⟩
  · simp [exCfg, exState]
  · simp [exCfg, exState]

/-- The observable part of a line search result. -/
private def look (r : Res (LsState ℚ ℚ ℚ × Bool)) :
    Option (List ℚ × List ℚ × List ℚ × ℚ × Bool) :=
  match r with
  | .ok (s, b) => some (s.x, s.u, s.d, s.alphaBest, b)
  | _ => none

/-- A decidable statement about the value a call returned. -/
private theorem okAnd {α : Type} {P : α → Prop} [DecidablePred P] (r : Res α)
    (h : (match r with | .ok v => decide (P v) | _ => false) = true) : ∃ v, r = Res.ok v ∧ P v := by
  cases r with
  | ok v => exact ⟨v, rfl, by simpa using h⟩
  | exc => simp at h
  | ub => simp at h

/-- The hypotheses of `C55_accepted_partial` hold, and a step is accepted. -/
example : LsSizes (exCfg .simple 1) exGood (exState 1) ∧ Fresh (exCfg .simple 1) (exState 1) ∧
    look (lineSearch (exCfg .simple 1) exGood (exState 1))
      = some ([0, 1, 0], [1, -1], [0, 0, 0], 1, true) :=
  ⟨exSizesLs _ _ _ (Or.inl rfl) _, exFresh _ _, by decide +kernel⟩

/-- The hypotheses of `C55_violated_rejected` hold: all three steps are rejected, the defect of the
unchanged trajectory was 1 and reads 0 afterwards: `x_1 + d_0 = 1` but `f(x_0,u_0) = 2`. -/
example : (exState 1).d = [1, 0, 0] ∧
    look (lineSearch (exCfg .simple 1) exBad (exState 1))
      = some ([0, 1, 1], [2, 0], [0, 0, 0], 0, false) :=
  ⟨rfl, by decide +kernel⟩

/-- C55 violated by the Armijo rule: a direction along which the model predicts no decrease is
accepted although the merit stays the same. -/
theorem C55_violated_armijo : ∃ (c : LsCfg ℚ ℚ ℚ) (q : Dirs ℚ ℚ) (s s' : LsState ℚ ℚ ℚ) (b : Bool),
    c.type = .armijo ∧ LsSizes c q s ∧ Fresh c s ∧ lineSearch c q s = Res.ok (s', b) ∧
      s'.alphaBest ≠ 0 ∧ merit c s'.x s'.u s'.d = merit c s.x s.u s.d := by
  obtain ⟨⟨s', b⟩, h1, h2, h3⟩ := okAnd (P := fun v : LsState ℚ ℚ ℚ × Bool => v.1.alphaBest ≠ 0 ∧
      merit (exCfg .armijo 1) v.1.x v.1.u v.1.d
        = merit (exCfg .armijo 1) (exState 1).x (exState 1).u (exState 1).d)
    (lineSearch (exCfg .armijo 1) { du := [0, 0], dx := [0, 0, 0], dxRef := [0, 0, 0] } (exState 1))
    (by decide +kernel)
  exact ⟨exCfg .armijo 1, { du := [0, 0], dx := [0, 0, 0], dxRef := [0, 0, 0] }, exState 1,
    s', b, rfl, ⟨by decide, by decide, rfl, rfl, rfl, rfl, rfl, fun h => by simp [exCfg, exRoll] at h⟩,
    exFresh _ _, h1, h2, h3⟩

/-- C55 violated after a new initial guess: `reset()` (called by `setInitialGuess` and
`changeInitialState`, `NLOCBackendBase-impl.hpp:1365-1377`) keeps the constraint errors of the previous
trajectory, so the first line search compares with a wrong merit and accepts a step that increases
it. -/
theorem C55_violated_stale_constraints : ∃ (c : LsCfg ℚ ℚ ℚ) (q : Dirs ℚ ℚ) (s s' : LsState ℚ ℚ ℚ)
    (b : Bool), c.type = .simple ∧ LsSizes c q s ∧ s.icBest = (c.cost s.x s.u).1 ∧
      s.fcBest = (c.cost s.x s.u).2 ∧ s.eGen = c.gen s.x s.u ∧ lineSearch c q s = Res.ok (s', b) ∧
      s'.alphaBest ≠ 0 ∧ Fl.lt (merit c s.x s.u s.d) (merit c s'.x s'.u s'.d) := by
  obtain ⟨⟨s', b⟩, h1, h2, h3⟩ := okAnd (P := fun v : LsState ℚ ℚ ℚ × Bool => v.1.alphaBest ≠ 0 ∧
      Fl.lt (merit (exCfg .simple 1) (exState 1000).x (exState 1000).u (exState 1000).d)
        (merit (exCfg .simple 1) v.1.x v.1.u v.1.d))
    (lineSearch (exCfg .simple 1) exBad (exState 1000)) (by decide +kernel)
  exact ⟨exCfg .simple 1, exBad, exState 1000, s', b, rfl, exSizesLs _ _ _ (Or.inr rfl) _, rfl,
    by simp [exCfg, exState], rfl, h1, h2, h3⟩

/-- A consistent iterate. -/
private def exWorse : LsState ℚ ℚ ℚ :=
  { exState 1 with xRef := [0, 0, 0], x := [0, 2, 2], d := [0, 0, 0], fcBest := .fin 4 }

/-- C59/C55: without line search an iteration that makes the cost worse is also reported as having
found a better solution (the relative change is compared in absolute value). -/
theorem C59_violated_worse_reported : ∃ (c : LsCfg ℚ ℚ ℚ) (q : Dirs ℚ ℚ) (s s' : LsState ℚ ℚ ℚ),
    c.type = .none ∧ s.icBest = (c.cost s.x s.u).1 ∧ s.fcBest = (c.cost s.x s.u).2 ∧
      lineSearch c q s = Res.ok (s', true) ∧
      Fl.lt (Fl.add s.icBest s.fcBest) (Fl.add s'.icBest s'.fcBest) ∧
      Fl.lt (merit c s.x s.u s.d) (merit c s'.x s'.u s'.d) := by
  obtain ⟨⟨s', b⟩, h1, h2, h3, h4⟩ := okAnd (P := fun v : LsState ℚ ℚ ℚ × Bool => v.2 = true ∧
      Fl.lt (Fl.add exWorse.icBest exWorse.fcBest) (Fl.add v.1.icBest v.1.fcBest) ∧
      Fl.lt (merit (exCfg .none 1) exWorse.x exWorse.u exWorse.d)
        (merit (exCfg .none 1) v.1.x v.1.u v.1.d))
    (lineSearch (exCfg .none 1) exBad exWorse) (by decide +kernel)
  simp only at h2
  subst h2
  exact ⟨exCfg .none 1, exBad, exWorse, s', rfl, rfl, by simp [exCfg, exWorse, exState]; norm_num,
    h1, h3, h4⟩

/-- The hypotheses of `C55_full_step` hold, and the full step changes the trajectory. -/
example : LsSizes (exCfg .none 1) exGood { exState 1 with xRef := [0, 0, 0] } ∧
    look (lineSearch (exCfg .none 1) exGood { exState 1 with xRef := [0, 0, 0] })
      = some ([0, 1, 0], [1, -1], [0, 0, 0], 1, true) :=
  ⟨⟨by simp [exCfg, exRoll], by simp [exCfg, exRoll], rfl, rfl, rfl, rfl, rfl, fun h => by simp [exCfg, exRoll] at h⟩,
    by decide +kernel⟩

/-- The hypotheses of `C59_converged` can hold: with a coarse threshold the accepted step is reported as converged. -/
example : look (lineSearch { exCfg .simple 1 with minImprovement := 1000 } exGood (exState 1))
      = some ([0, 1, 0], [1, -1], [0, 0, 0], 1, false) := by decide +kernel

end CT.Nloc
