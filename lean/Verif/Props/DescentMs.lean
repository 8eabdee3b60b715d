import Verif.Props.Descent
import Verif.Model.NlocNorm

/-!
# C177: multiple shooting: where it stops, and which way it goes

As C176, for trajectories with gaps between the shots and the merit function of the line search.
-/

namespace CT.LqApprox

open Matrix CT.Cost CT.Riccati Filter Topology

variable {n m : Nat}

/-! ### Specification -/

/-- Total size of the gaps of a trajectory: how far each state is from where the dynamics lead. -/
noncomputable def totalGap (f : (Fin n → ℝ) → Nat → (Fin m → ℝ) → Fin n → ℝ) (N : Nat) (x : Nat → Fin n → ℝ)
    (u : Nat → Fin m → ℝ) : ℝ :=
  ∑ k ∈ Finset.range N, ∑ i, |f (x k) k (u k) i - x (k + 1) i|

/-- Cost plus weighted gaps. -/
noncomputable def penalised (c : CF n m) (f : (Fin n → ℝ) → Nat → (Fin m → ℝ) → Fin n → ℝ) (rho : ℝ) (N : Nat) (dt : ℝ)
    (x : Nat → Fin n → ℝ) (u : Nat → Fin m → ℝ) : ℝ :=
  trajectoryCost c N dt x u + rho * totalGap f N x u

/-- First-order optimality of a trajectory: no gaps, and the controls are a stationary point. -/
def Solves (c : CF n m) (N : Nat) (dt : ℝ) (f : (Fin n → ℝ) → Nat → (Fin m → ℝ) → Fin n → ℝ) (x : Nat → Fin n → ℝ)
    (u : Nat → Fin m → ℝ) : Prop :=
  (∀ k < N, x (k + 1) = f (x k) k (u k)) ∧ Stationary c N dt f (x 0) u

/-- The current trajectory consists of roll-outs of shots of `q` stages and `d` holds its gaps. -/
structure RolledShots (I : Iterate n m) (f : (Fin n → ℝ) → Nat → (Fin m → ℝ) → Fin n → ℝ) (q : Nat) : Prop where
  gaps : ∀ k < I.N, I.d k = f (I.x k) k (I.u k) - I.x (k + 1)
  inside : ∀ k < I.N, ¬ (k + 1 < I.N ∧ q ∣ k + 1) → I.d k = 0

/-- A line search of any of the algorithms on a problem without constraints, as `Search` for single shooting: now with
the gaps of the current trajectory, whose norm is `computeDefectsNorm`. -/
structure SearchMs (a : Algo) (cf : CF n m) (I : Iterate n m) (p : Problem n m) (sol : Sol n m) (w : Back n m)
    (c : CT.Nloc.LsCfg (Fin n → ℝ) (Fin m → ℝ) ℝ) (q : CT.Nloc.Dirs (Fin n → ℝ) (Fin m → ℝ))
    (s : CT.Nloc.LsState (Fin n → ℝ) (Fin m → ℝ) ℝ) : Prop where
  hK : c.roll.K = I.N
  hshot : 0 < c.roll.Kshot
  single : c.roll.single = a.single
  closed : c.roll.closed = a.closed
  noNaN : CT.Nloc.NoNaN c.roll
  gains : c.roll.L = (List.range I.N).map fun k z => (extractSolution a p sol w).1.L k *ᵥ z
  cost : ∀ x u, c.cost x u = (.fin (computeCostsOfTrajectory I.N I.dt (fun k => x.getD k 0) (fun k => u.getD k 0) cf).1,
    .fin (computeCostsOfTrajectory I.N I.dt (fun k => x.getD k 0) (fun k => u.getD k 0) cf).2)
  box : ∀ x u, c.box x u = .fin 0
  gen : ∀ x u, c.gen x u = .fin 0
  norm : ∀ d, c.defectNorm d = .fin (CT.Nloc.computeDefectsNorm d)
  alpha0 : 0 < c.alpha0
  nAlpha : 0 < c.nAlpha ∧ c.nAlpha < 1
  back : w.x = I.x ∧ w.u = I.u
  x : s.x = (List.range (I.N + 1)).map I.x
  u : s.u = (List.range I.N).map I.u
  d : s.d = (List.range (I.N + 1)).map fun k => if k < I.N then I.d k else 0
  fresh : CT.Nloc.Fresh c s
  dirs : q = ⟨(List.range I.N).map (extractSolution a p sol w).2.du,
    (List.range (I.N + 1)).map (extractSolution a p sol w).2.dx,
    (List.range (I.N + 1)).map (extractSolution a p sol w).2.dxRef⟩

/-- The costates of a linear-quadratic problem along a pair of sequences: the multipliers of its dynamics, from the last
state backwards. -/
structure Costates (p : Problem n m) (x : Nat → Fin n → ℝ) (u : Nat → Fin m → ℝ) (lam : Nat → Fin n → ℝ) : Prop where
  last : lam p.N = p.qv p.N + p.Q p.N *ᵥ x p.N
  step : ∀ k < p.N, lam k = p.qv k + p.Q k *ᵥ x k + (p.P k)ᵀ *ᵥ u k + (p.A k)ᵀ *ᵥ lam (k + 1)

/-- The quadratic model of the cost is convex at every stage, as with the Gauss-Newton approximation. -/
def ConvexModel (p : Problem n m) : Prop :=
  (∀ k < p.N, ∀ z v, 0 ≤ z ⬝ᵥ (p.Q k *ᵥ z) + v ⬝ᵥ (p.R k *ᵥ v) + 2 * (v ⬝ᵥ (p.P k *ᵥ z))) ∧
  ∀ z, 0 ≤ z ⬝ᵥ (p.Q p.N *ᵥ z)

/-! ### Lemmas -/

theorem norm_eq {N : Nat} (F : Nat → Fin n → ℝ) :
    CT.Nloc.computeDefectsNorm ((List.range (N + 1)).map fun k => if k < N then F k else 0)
      = ∑ k ∈ Finset.range N, ∑ i, |F k i| := by
  have h : ∀ (l : List Nat) (a : ℝ) (G : Nat → Fin n → ℝ),
      (l.map G).foldl (fun norm v => norm + ∑ i, |v i|) a = a + (l.map fun k => ∑ i, |G k i|).sum := by
    intro l
    induction l with
    | nil => simp
    | cons b l ih =>
      intro a G
      rw [List.map_cons, List.foldl_cons, ih]
      simp [add_assoc]
  have h2 : ∀ (M : Nat) (G : Nat → ℝ), ((List.range M).map G).sum = ∑ k ∈ Finset.range M, G k := by
    intro M G
    induction M with
    | zero => simp
    | succ M ih => rw [List.range_succ, List.map_append, List.sum_append, ih, Finset.sum_range_succ]; simp
  rw [CT.Nloc.computeDefectsNorm, h, h2, Finset.sum_range_succ]
  simp only [lt_irrefl, if_false, Pi.zero_apply, abs_zero, Finset.sum_const_zero, add_zero, zero_add]
  exact Finset.sum_congr rfl fun k hk => by rw [if_pos (Finset.mem_range.1 hk)]

theorem totalGap_congr {f : (Fin n → ℝ) → Nat → (Fin m → ℝ) → Fin n → ℝ} {N : Nat} {x y : Nat → Fin n → ℝ}
    {u v : Nat → Fin m → ℝ} (h1 : ∀ k ≤ N, x k = y k) (h2 : ∀ k < N, u k = v k) :
    totalGap f N x u = totalGap f N y v := by
  refine Finset.sum_congr rfl fun k hk => ?_
  have hk := Finset.mem_range.1 hk
  rw [h1 k hk.le, h1 (k + 1) hk, h2 k hk]

theorem totalGap_nonneg (f : (Fin n → ℝ) → Nat → (Fin m → ℝ) → Fin n → ℝ) (N : Nat) (x : Nat → Fin n → ℝ)
    (u : Nat → Fin m → ℝ) : 0 ≤ totalGap f N x u :=
  Finset.sum_nonneg fun _ _ => Finset.sum_nonneg fun _ _ => abs_nonneg _

theorem totalGap_eq_zero {f : (Fin n → ℝ) → Nat → (Fin m → ℝ) → Fin n → ℝ} {N : Nat} {x : Nat → Fin n → ℝ}
    {u : Nat → Fin m → ℝ} : totalGap f N x u = 0 ↔ ∀ k < N, x (k + 1) = f (x k) k (u k) := by
  rw [totalGap, Finset.sum_eq_zero_iff_of_nonneg fun _ _ => Finset.sum_nonneg fun _ _ => abs_nonneg _]
  refine forall_congr' fun k => ?_
  rw [Finset.mem_range]
  refine imp_congr_right fun _ => ?_
  rw [Finset.sum_eq_zero_iff_of_nonneg fun _ _ => abs_nonneg _]
  constructor
  · intro h
    funext i
    have := abs_eq_zero.1 (h i (Finset.mem_univ i))
    linarith
  · intro h i _
    rw [h, sub_self, abs_zero]

/-- What a candidate with step size `t` is: shots that start on the stepped states and follow the dynamics and the
control law of the algorithm. -/
structure FollowsMs (a : Algo) (I : Iterate n m) (f : (Fin n → ℝ) → Nat → (Fin m → ℝ) → Fin n → ℝ) (p : Problem n m)
    (sol : Sol n m) (w : Back n m) (q : Nat) (t : ℝ) (X : Nat → Fin n → ℝ) (U : Nat → Fin m → ℝ) : Prop where
  start : ∀ k < I.N, q ∣ k → X k = t • xSol p sol k + I.x k
  step : ∀ k < I.N, ¬ (k + 1 < I.N ∧ q ∣ k + 1) → X (k + 1) = f (X k) k (U k)
  control : ∀ k < I.N, U k = (t • (extractSolution a p sol w).2.du k + I.u k)
    + if a.closed then (extractSolution a p sol w).1.L k *ᵥ
        (X k - (t • (extractSolution a p sol w).2.dxRef k + I.x k)) else 0

section search

open CT.Nloc

variable {a : Algo} {cf : CF n m} {I : Iterate n m} {p : Problem n m} {sol : Sol n m} {w : Back n m}
  {c : LsCfg (Fin n → ℝ) (Fin m → ℝ) ℝ} {q : Dirs (Fin n → ℝ) (Fin m → ℝ)}
  {s : LsState (Fin n → ℝ) (Fin m → ℝ) ℝ}

theorem SearchMs.sizes (h : SearchMs a cf I p sol w c q s) (h0 : 0 < I.N) : LsSizes c q s := by
  refine ⟨by rw [h.hK]; exact h0, h.hshot, ?_, ?_, ?_, ?_, ?_, fun _ => ?_⟩
  · simp [h.x, h.hK]
  · simp [h.u, h.hK]
  · simp [h.dirs, h.hK]
  · simp [h.dirs, h.hK]
  · simp [h.dirs, h.hK]
  · simp [h.gains, h.hK]

theorem SearchMs.merit_eq (h : SearchMs a cf I p sol w c q s) (hon : OnOff cf.inter) (x : List (Fin n → ℝ))
    (u : List (Fin m → ℝ)) (E : Nat → Fin n → ℝ)
    (hE : ∀ k < I.N, E k = c.roll.f (x.getD k 0) k (u.getD k 0) - x.getD (k + 1) 0) :
    merit c x u ((List.range (I.N + 1)).map fun k => if k < I.N then E k else 0)
      = .fin (penalised cf c.roll.f c.rho I.N I.dt (fun k => x.getD k 0) fun k => u.getD k 0) := by
  have e : computeDefectsNorm ((List.range (I.N + 1)).map fun k => if k < I.N then E k else 0)
      = totalGap c.roll.f I.N (fun k => x.getD k 0) fun k => u.getD k 0 := by
    rw [norm_eq]
    refine Finset.sum_congr rfl fun k hk => Finset.sum_congr rfl fun i _ => ?_
    rw [hE k (Finset.mem_range.1 hk)]
    rfl
  simp only [merit, h.cost, h.box, h.gen, h.norm, e, C106_cost_partial cf hon, penalised, trajectoryCost, Fl.add, Fl.mul]
  simp

theorem SearchMs.begin_eq (h : SearchMs a cf I p sol w c q s) (hon : OnOff cf.inter)
    (hr : RolledShots I c.roll.f c.roll.stepsPerShot) :
    (beginSearch c s).lowest = .fin (penalised cf c.roll.f c.rho I.N I.dt I.x I.u) := by
  have e : (beginSearch c s).lowest = merit c s.x s.u s.d := by
    simp [beginSearch, newMerit, merit, h.fresh.ic, h.fresh.fc, h.fresh.box, h.fresh.gen]
  have hx : ∀ k ≤ I.N, s.x.getD k 0 = I.x k := fun k hk => by rw [h.x, getD_range_map _ _ _ _ (by omega)]
  have hu : ∀ k < I.N, s.u.getD k 0 = I.u k := fun k hk => by rw [h.u, getD_range_map _ _ _ _ hk]
  rw [e, h.d, h.merit_eq hon _ _ _ fun k hk => by
    rw [hr.gaps k hk, hx k hk.le, hx (k + 1) hk, hu k hk]]
  rw [penalised, penalised, trajectoryCost_congr cf I.N I.dt hx hu, totalGap_congr hx hu]

theorem SearchMs.candidate (h : SearchMs a cf I p sol w c q s) (hon : OnOff cf.inter) (h0 : 0 < I.N) (t : ℝ) :
    ∃ k, Candidate c q s t k ∧
      FollowsMs a I c.roll.f p sol w c.roll.stepsPerShot t (fun i => k.r.x.getD i 0) (fun i => k.r.u.getD i 0) ∧
      newMerit c k.ic k.fc k.dn k.eb k.eg
        = .fin (penalised cf c.roll.f c.rho I.N I.dt (fun i => k.r.x.getD i 0) fun i => k.r.u.getD i 0) := by
  obtain ⟨k, e1, e2, e3, e4, e5, e6, e7, e8, e9, e10⟩ := candidate_rollout (h.sizes h0) h.noNaN t
  rw [h.hK] at e2
  refine ⟨k, e1, ⟨fun i hi hd => ?_, fun i hi hd => ?_, fun i hi => ?_⟩, ?_⟩
  · have := e2.shotStart i hi hd
    simp only at this ⊢
    rw [this, h.dirs, h.x, getD_step _ _ _ _ _ (by omega)]
    cases hs : a.single with
    | false => cases a <;> simp [Algo.single] at hs <;> rfl
    | true =>
      have hi0 : i = 0 := by
        have : c.roll.stepsPerShot = I.N := by simp [RollCfg.stepsPerShot, h.single, hs, h.hK]
        rw [this] at hd
        exact Nat.eq_zero_of_dvd_of_lt hd hi
      subst hi0
      rw [single_dx hs]
      rfl
  · have := e2.dynamics i hi
    rw [e2.inside i hi hd, add_zero] at this
    exact this
  · have := e2.controls i hi
    simp only at this ⊢
    rw [this, RollCfg.law, h.closed, h.dirs, h.x, h.u]
    simp only
    cases a.closed
    · simp only [Bool.false_eq_true, if_false]
      rw [getD_step _ _ _ _ _ hi, add_zero]
    · simp only [if_true]
      rw [getD_step _ _ _ _ _ hi, getD_step _ _ _ _ _ (by omega), h.gains, getD_range_map _ _ _ _ hi]
  · have e : newMerit c k.ic k.fc k.dn k.eb k.eg = merit c k.r.x k.r.u k.d := by
      rw [e6, e7, e8, e9, e10]; rfl
    rw [e, e5, h.hK, defects]
    exact h.merit_eq hon _ _ (fun i => c.roll.f (k.r.x.getD i 0) i (k.r.u.getD i 0) - k.r.x.getD (i + 1) 0) fun _ _ => rfl

theorem du_eq (a : Algo) (k : Nat) : (extractSolution a p sol w).2.du k
    + (if a.closed then (extractSolution a p sol w).1.L k *ᵥ
        (xSol p sol k - (extractSolution a p sol w).2.dxRef k) else 0) = uSol p sol k := by
  cases a <;> simp [extractSolution, Algo.closed, uSol]

/-- The candidate with step size zero, or with a zero step, is the current trajectory. -/
theorem followsMs_current {f : (Fin n → ℝ) → Nat → (Fin m → ℝ) → Fin n → ℝ} {r : Nat} (h0 : 0 < I.N)
    (hr : RolledShots I f r) (t : ℝ) (X : Nat → Fin n → ℝ) (U : Nat → Fin m → ℝ) (hF : FollowsMs a I f p sol w r t X U)
    (hz : t = 0 ∨ (∀ k ≤ I.N, xSol p sol k = 0) ∧ ∀ k < I.N, uSol p sol k = 0) :
    (∀ k ≤ I.N, X k = I.x k) ∧ ∀ k < I.N, U k = I.u k := by
  have hx : ∀ k ≤ I.N, t • xSol p sol k = 0 := by
    intro k hk
    rcases hz with h | h
    · rw [h, zero_smul]
    · rw [h.1 k hk, smul_zero]
  have hu : ∀ k < I.N, t • uSol p sol k = 0 := by
    intro k hk
    rcases hz with h | h
    · rw [h, zero_smul]
    · rw [h.2 k hk, smul_zero]
  have hU : ∀ k < I.N, X k = I.x k → U k = I.u k := by
    intro k hk e
    have h1 : t • (extractSolution a p sol w).2.du k + (if a.closed then (extractSolution a p sol w).1.L k *ᵥ
        (t • xSol p sol k - t • (extractSolution a p sol w).2.dxRef k) else 0) = 0 := by
      have h2 := hu k hk
      rw [← du_eq (w := w) a k, smul_add] at h2
      refine Eq.trans ?_ h2
      cases a.closed
      · simp
      · simp [← smul_sub, mulVec_smul]
    rw [hF.control k hk, e]
    rw [hx k hk.le] at h1
    cases hc : a.closed
    · simp only [hc, Bool.false_eq_true, if_false, add_zero] at h1 ⊢
      rw [h1, zero_add]
    · simp only [hc, if_true] at h1 ⊢
      rw [show I.x k - (t • (extractSolution a p sol w).2.dxRef k + I.x k)
        = 0 - t • (extractSolution a p sol w).2.dxRef k by abel, add_right_comm, h1, zero_add]
  have hX : ∀ k ≤ I.N, X k = I.x k := by
    intro k
    induction k with
    | zero =>
      intro _
      rw [hF.start 0 h0 (dvd_zero _), hx 0 h0.le, zero_add]
    | succ k ih =>
      intro hk
      by_cases hd : k + 1 < I.N ∧ r ∣ k + 1
      · rw [hF.start (k + 1) hd.1 hd.2, hx (k + 1) hk, zero_add]
      · rw [hF.step k (by omega) hd, hU k (by omega) (ih (by omega)), ih (by omega)]
        have := hr.gaps k (by omega)
        rw [hr.inside k (by omega) hd] at this
        exact sub_eq_zero.1 this.symm
  exact ⟨hX, fun k hk => hU k hk (hX k hk.le)⟩

/-- The approximation of a smooth problem at a trajectory with gaps. -/
structure ReadyMs (c : CF n m) (I : Iterate n m) (f : (Fin n → ℝ) → Nat → (Fin m → ℝ) → Fin n → ℝ)
    (p : Problem n m) : Prop where
  hN : p.N = I.N
  hb : ∀ k < I.N, p.b k = I.d k
  hQ : ∀ k ≤ p.N, (p.Q k)ᵀ = p.Q k
  hR : ∀ k, k < p.N → (p.R k)ᵀ = p.R k
  hdyn : ∀ k < I.N, HasFDerivAt (fun z : (Fin n → ℝ) × (Fin m → ℝ) => f z.1 k z.2)
      ((jacMap (p.A k)).coprod (jacMap (p.B k))) (I.x k, I.u k)
  hrun : ∀ k < I.N, HasFDerivAt (fun z : (Fin n → ℝ) × (Fin m → ℝ) => I.dt * runningCost c z.1 z.2 (I.dt * k))
      ((gradMap (p.qv k)).coprod (gradMap (p.rv k))) (I.x k, I.u k)
  hfin : IsGrad (fun y => finalCost c y (I.dt * I.N)) (p.qv I.N) (I.x I.N)

theorem readyMs (c : CF n m) (I : Iterate n m) (lin : Lin n m) (p : Problem n m) (hN : p.N = I.N) (h0 : 0 < I.N)
    (f : (Fin n → ℝ) → Nat → (Fin m → ℝ) → Fin n → ℝ) (hs : SmoothAlong c I f lin) :
    ReadyMs c I f (computeLQApproximation I lin 0 (I.N - 1) (c, p)).2 := by
  obtain ⟨h1, -, h3, -, -⟩ := C106_contents c I lin p hN h0
  obtain ⟨d1, d2, g, d3, d4⟩ := C106_derivatives c I lin p hN h0 hs.inter hs.fin
  refine ⟨h1, fun k hk => (h3 k hk).b, fun k hk => ?_, fun k hk => ?_, fun k hk => ?_, fun k hk => ?_, d2⟩
  · rcases hk.lt_or_eq with hk | hk
    · obtain ⟨-, -, ⟨g', e1, e2⟩, -⟩ := d1 k (by omega)
      exact jac_grad_sym e1 e2
    · rw [hk, h1]
      exact jac_grad_sym d3 d4
  · obtain ⟨-, -, -, ⟨g', e1, e2⟩, -⟩ := d1 k (by omega)
    exact jac_grad_sym e1 e2
  · rw [(h3 k hk).A, (h3 k hk).B]
    exact hs.dyn k hk
  · obtain ⟨e1, e2, -⟩ := d1 k hk
    exact joint_grad ((hs.run k hk).const_mul I.dt) e1 e2

/-- States, controls and gaps of the candidates change at the rate of the linear-quadratic solution. -/
theorem followsMs_deriv {f : (Fin n → ℝ) → Nat → (Fin m → ℝ) → Fin n → ℝ} {r : Nat} (h0 : 0 < I.N)
    (H : ReadyMs cf I f p) (hr : RolledShots I f r) (X : ℝ → Nat → Fin n → ℝ)
    (U : ℝ → Nat → Fin m → ℝ) (hF : ∀ t, FollowsMs a I f p sol w r t (X t) (U t)) :
    HasDerivAt (fun t => trajectoryCost cf I.N I.dt (X t) (U t)) (lqSlope p (xSol p sol) (uSol p sol)) 0 ∧
    ∀ k < I.N, HasDerivAt (fun t => f (X t k) k (U t k) - X t (k + 1)) (-I.d k) 0 := by
  obtain ⟨b1, b2⟩ := followsMs_current h0 hr 0 (X 0) (U 0) (hF 0) (Or.inl rfl)
  have lin : ∀ {d : Nat} (v y : Fin d → ℝ), HasDerivAt (fun t : ℝ => t • v + y) v 0 := fun v y =>
    (((hasDerivAt_id (0 : ℝ)).smul_const v).add_const y).congr_deriv (by simp)
  have hU : ∀ k < I.N, HasDerivAt (fun t => X t k) (xSol p sol k) 0 →
      HasDerivAt (fun t => U t k) (uSol p sol k) 0 := by
    intro k hk hX
    have e : (fun t => U t k) = fun t => (t • (extractSolution a p sol w).2.du k + I.u k)
        + if a.closed then (extractSolution a p sol w).1.L k *ᵥ
          (X t k - (t • (extractSolution a p sol w).2.dxRef k + I.x k)) else 0 :=
      funext fun t => (hF t).control k hk
    rw [e, ← du_eq (w := w) a k]
    have mv : ∀ (M : Matrix (Fin m) (Fin n) ℝ) (v : Fin n → ℝ),
        HasDerivAt (fun t => M *ᵥ (X t k - (t • v + I.x k))) (M *ᵥ (xSol p sol k - v)) 0 := fun M v => by
      have h1 := hX.fun_sub (lin v (I.x k))
      exact HasFDerivAt.comp_hasDerivAt (f := fun t => X t k - (t • v + I.x k)) 0 (jacMap M).hasFDerivAt h1
    cases a.closed
    · simp only [Bool.false_eq_true, if_false]
      exact (lin _ _).fun_add (hasDerivAt_const _ _)
    · simp only [if_true]
      exact (lin _ _).fun_add (mv _ _)
  have hfd : ∀ k < I.N, HasDerivAt (fun t => X t k) (xSol p sol k) 0 →
      HasDerivAt (fun t => f (X t k) k (U t k)) (p.A k *ᵥ xSol p sol k + p.B k *ᵥ uSol p sol k) 0 := by
    intro k hk hX
    have hd := H.hdyn k hk
    rw [← b1 k hk.le, ← b2 k hk] at hd
    have := HasFDerivAt.comp_hasDerivAt (f := fun t : ℝ => (X t k, U t k)) 0 hd (hX.prodMk (hU k hk hX))
    refine this.congr_deriv ?_
    simp
  have hsol : ∀ k < I.N, xSol p sol (k + 1) = p.A k *ᵥ xSol p sol k + p.B k *ᵥ uSol p sol k + I.d k := by
    intro k hk
    rw [← H.hb k hk]
    exact (sol_feasible p sol).2 k (by rw [H.hN]; exact hk)
  have hX : ∀ k ≤ I.N, HasDerivAt (fun t => X t k) (xSol p sol k) 0 := by
    intro k
    induction k with
    | zero =>
      intro _
      simp only [(hF _).start 0 h0 (dvd_zero _)]
      exact lin _ _
    | succ k ih =>
      intro hk
      by_cases hd : k + 1 < I.N ∧ r ∣ k + 1
      · simp only [(hF _).start (k + 1) hd.1 hd.2]
        exact lin _ _
      · simp only [(hF _).step k (by omega : k < I.N) hd]
        refine (hfd k (by omega) (ih (by omega))).congr_deriv ?_
        rw [hsol k (by omega), hr.inside k (by omega) hd, add_zero]
  refine ⟨?_, fun k hk => ((hfd k hk (hX k hk.le)).fun_sub (hX (k + 1) hk)).congr_deriv ?_⟩
  · have hrun : ∀ k ∈ Finset.range I.N, HasDerivAt (fun t => I.dt * runningCost cf (X t k) (U t k) (I.dt * k))
        (p.qv k ⬝ᵥ xSol p sol k + p.rv k ⬝ᵥ uSol p sol k) 0 := by
      intro k hk
      have hk := Finset.mem_range.1 hk
      have hd := H.hrun k hk
      rw [← b1 k hk.le, ← b2 k hk] at hd
      have := HasFDerivAt.comp_hasDerivAt (f := fun t : ℝ => (X t k, U t k)) 0 hd
        ((hX k hk.le).prodMk (hU k hk (hX k hk.le)))
      refine this.congr_deriv ?_
      simp
    have hf : HasDerivAt (fun t => finalCost cf (X t I.N) (I.dt * I.N)) (p.qv I.N ⬝ᵥ xSol p sol I.N) 0 := by
      have hfin := H.hfin
      unfold IsGrad at hfin
      rw [← b1 I.N le_rfl] at hfin
      have := HasFDerivAt.comp_hasDerivAt (f := fun t : ℝ => X t I.N) 0 hfin (hX I.N le_rfl)
      exact this.congr_deriv (by simp)
    have := (HasDerivAt.fun_sum hrun).fun_add hf
    simp only [trajectoryCost, Finset.mul_sum, lqSlope, H.hN]
    exact this
  · rw [hsol k hk]
    abel

/-- A function that touches zero with slope zero does so in absolute value. -/
theorem abs_deriv {r : ℝ → ℝ} (h : HasDerivAt r 0 0) (h0 : r 0 = 0) : HasDerivAt (fun t => |r t|) 0 0 := by
  rw [hasDerivAt_iff_isLittleO] at h ⊢
  simp only [h0, sub_zero, smul_zero, abs_zero] at h ⊢
  exact h.abs_left

/-- The merit of the candidates stays below a function with the slope of the linear-quadratic solution less the
weighted gaps. -/
theorem penalised_bound {f : (Fin n → ℝ) → Nat → (Fin m → ℝ) → Fin n → ℝ} {r : Nat} (h0 : 0 < I.N)
    (H : ReadyMs cf I f p) (hr : RolledShots I f r) (X : ℝ → Nat → Fin n → ℝ)
    (U : ℝ → Nat → Fin m → ℝ) (hF : ∀ t, FollowsMs a I f p sol w r t (X t) (U t)) (rho : ℝ) (hrho : 0 ≤ rho) :
    ∃ ψ : ℝ → ℝ, ψ 0 = penalised cf f rho I.N I.dt I.x I.u ∧
      (∀ t, 0 ≤ t → t ≤ 1 → penalised cf f rho I.N I.dt (X t) (U t) ≤ ψ t) ∧
      HasDerivAt ψ (lqSlope p (xSol p sol) (uSol p sol) - rho * totalGap f I.N I.x I.u) 0 := by
  obtain ⟨b1, b2⟩ := followsMs_current h0 hr 0 (X 0) (U 0) (hF 0) (Or.inl rfl)
  obtain ⟨d1, d2⟩ := followsMs_deriv h0 H hr X U hF
  have hG : totalGap f I.N I.x I.u = ∑ k ∈ Finset.range I.N, ∑ i, |I.d k i| :=
    Finset.sum_congr rfl fun k hk => Finset.sum_congr rfl fun i _ => by
      rw [hr.gaps k (Finset.mem_range.1 hk)]; rfl
  set R : ℝ → ℝ := fun t => ∑ k ∈ Finset.range I.N, ∑ i,
    |(f (X t k) k (U t k) - X t (k + 1)) i - (1 - t) * I.d k i| with hR
  have hd0 : ∀ k < I.N, f (X 0 k) k (U 0 k) - X 0 (k + 1) = I.d k := by
    intro k hk
    rw [b1 k hk.le, b1 (k + 1) hk, b2 k hk, hr.gaps k hk]
  have hR0 : R 0 = 0 := by
    refine Finset.sum_eq_zero fun k hk => Finset.sum_eq_zero fun i _ => ?_
    rw [hd0 k (Finset.mem_range.1 hk)]
    simp
  have hRd : HasDerivAt R 0 0 := by
    have : HasDerivAt R (∑ k ∈ Finset.range I.N, ∑ i : Fin n, (0 : ℝ)) 0 := by
      refine HasDerivAt.fun_sum fun k hk => HasDerivAt.fun_sum fun i _ => ?_
      have hk := Finset.mem_range.1 hk
      refine abs_deriv (r := fun t => (f (X t k) k (U t k) - X t (k + 1)) i - (1 - t) * I.d k i) ?_ ?_
      · have e1 := hasDerivAt_pi.1 (d2 k hk) i
        have e2 := (((hasDerivAt_id (0 : ℝ)).const_sub 1).mul_const (I.d k i))
        exact (e1.fun_sub e2).congr_deriv (by simp)
      · rw [hd0 k hk]
        simp
    simpa using this
  refine ⟨fun t => trajectoryCost cf I.N I.dt (X t) (U t) + rho * (R t + (1 - t) * totalGap f I.N I.x I.u), ?_, ?_, ?_⟩
  · simp only [hR0, penalised, trajectoryCost_congr cf I.N I.dt b1 b2]
    ring
  · intro t ht0 ht1
    rw [penalised]
    refine add_le_add le_rfl (mul_le_mul_of_nonneg_left ?_ hrho)
    rw [hG, totalGap, Finset.mul_sum, hR, ← Finset.sum_add_distrib]
    refine Finset.sum_le_sum fun k _ => ?_
    rw [Finset.mul_sum, ← Finset.sum_add_distrib]
    refine Finset.sum_le_sum fun i _ => ?_
    have := abs_add_le ((f (X t k) k (U t k) - X t (k + 1)) i - (1 - t) * I.d k i) ((1 - t) * I.d k i)
    rw [sub_add_cancel, abs_mul (1 - t), abs_of_nonneg (by linarith : (0 : ℝ) ≤ 1 - t)] at this
    exact this
  · have e2 := (((hasDerivAt_id (0 : ℝ)).const_sub 1).mul_const (totalGap f I.N I.x I.u))
    have := d1.fun_add ((hRd.fun_add e2).const_mul rho)
    exact this.congr_deriv (by simp; ring)

end search

/-! ### The slope in terms of the costates -/

theorem regular_penalty (g : Settings m) (p : Problem n m) (s0 s : Sol n m) (hs : solve g p s0 = .ok s)
    (hQ : (p.Q p.N)ᵀ = p.Q p.N) (hR : ∀ k, k < p.N → (p.R k)ᵀ = p.R k) (hr : Regular g p s) :
    ∃ D : Nat → Matrix (Fin m) (Fin m) ℝ, (∀ w, 0 ≤ controlPenalty D w p.N 0) ∧ ∀ w,
      cost p (uSol p s) + controlPenalty D (uSol p s) p.N 0 ≤ cost p w + controlPenalty D w p.N 0 := by
  have nn : ∀ D : Nat → Matrix (Fin m) (Fin m) ℝ, (∀ k, k < p.N → ∀ v, 0 ≤ v ⬝ᵥ (D k *ᵥ v)) →
      ∀ w, 0 ≤ controlPenalty D w p.N 0 := by
    intro D hD w
    rw [controlPenalty_sum]
    refine Finset.sum_nonneg fun i hi => ?_
    have := hD (0 + i) (by simpa using Finset.mem_range.1 hi) (w (0 + i))
    linarith
  rcases hr with ⟨h1, h2, h3⟩ | ⟨h1, h2, h3⟩ | h
  · obtain ⟨D, hD0, -, hD⟩ := C38_clamped g p s0 s hs h1 h2 h3 hQ hR
    exact ⟨D, nn D hD0, fun w => (hD w).1⟩
  · refine ⟨fun _ => g.epsilon • 1, nn _ fun k _ v => ?_, fun w => ?_⟩
    · rw [smul_mulVec, one_mulVec, dotProduct_smul, smul_eq_mul]
      exact mul_nonneg (by linarith [show (0 : ℝ) < 1 / 10 ^ 10 by positivity])
        (Finset.sum_nonneg fun i _ => mul_self_nonneg _)
    · have e : ∀ w : Nat → Fin m → ℝ, controlPenalty (fun _ => g.epsilon • (1 : Matrix (Fin m) (Fin m) ℝ)) w p.N 0
          = g.epsilon / 2 * ∑ k ∈ Finset.range p.N, w k ⬝ᵥ w k := by
        intro w
        rw [controlPenalty_sum, Finset.mul_sum]
        refine Finset.sum_congr rfl fun i _ => ?_
        rw [Nat.zero_add, smul_mulVec, one_mulVec, dotProduct_smul, smul_eq_mul]
        ring
      simp only [e]
      exact (C38_fixed_correction g p s0 s hs h1 h2 hQ hR h3 w).1
  · refine ⟨fun _ => 0, nn _ fun k _ v => by simp, fun w => ?_⟩
    have e : ∀ w : Nat → Fin m → ℝ, controlPenalty (fun _ => (0 : Matrix (Fin m) (Fin m) ℝ)) w p.N 0 = 0 := by
      intro w
      rw [controlPenalty_sum]
      simp
    simp only [e, add_zero]
    exact (C38_optimal g p s0 s hs hQ h w).1

theorem adjoint_sum (A : Nat → Matrix (Fin n) (Fin n) ℝ) (g lam z : Nat → Fin n → ℝ) (N : Nat)
    (h : ∀ k < N, lam k = g k + (A k)ᵀ *ᵥ lam (k + 1)) (hN : lam N = g N) (hz : z 0 = 0) :
    ∑ k ∈ Finset.range N, g k ⬝ᵥ z k + g N ⬝ᵥ z N
      = ∑ k ∈ Finset.range N, lam (k + 1) ⬝ᵥ (z (k + 1) - A k *ᵥ z k) := by
  have key : ∀ M ≤ N, ∑ k ∈ Finset.range M, g k ⬝ᵥ z k + lam M ⬝ᵥ z M
      = ∑ k ∈ Finset.range M, lam (k + 1) ⬝ᵥ (z (k + 1) - A k *ᵥ z k) := by
    intro M
    induction M with
    | zero => intro _; simp [hz]
    | succ M ih =>
      intro hM
      have e := ih (by omega)
      have e1 : g M ⬝ᵥ z M = lam M ⬝ᵥ z M - lam (M + 1) ⬝ᵥ (A M *ᵥ z M) := by
        rw [h M (by omega), add_dotProduct, mulVec_transpose, ← dotProduct_mulVec]
        ring
      rw [Finset.sum_range_succ, Finset.sum_range_succ, ← e, e1, dotProduct_sub]
      ring
  rw [← hN]
  exact key N le_rfl

theorem lqCost_ray2 (p : Problem n m) (hQ : ∀ k ≤ p.N, (p.Q k)ᵀ = p.Q k) (hR : ∀ k, k < p.N → (p.R k)ᵀ = p.R k)
    (x z : Nat → Fin n → ℝ) (u : Nat → Fin m → ℝ) (t : ℝ) :
    lqCost p (fun k => x k + t • z k) (fun k => u k + t • u k)
      = lqCost p x u + t * (∑ k ∈ Finset.range p.N, ((p.qv k + p.Q k *ᵥ x k + (p.P k)ᵀ *ᵥ u k) ⬝ᵥ z k
          + (p.rv k ⬝ᵥ u k + u k ⬝ᵥ (p.R k *ᵥ u k) + u k ⬝ᵥ (p.P k *ᵥ x k)))
          + (p.qv p.N + p.Q p.N *ᵥ x p.N) ⬝ᵥ z p.N) + t ^ 2 * lqCurv p z u := by
  have sw : ∀ (Q : Matrix (Fin n) (Fin n) ℝ) (a b : Fin n → ℝ), Qᵀ = Q → a ⬝ᵥ (Q *ᵥ b) = b ⬝ᵥ (Q *ᵥ a) := by
    intro Q a b h
    rw [dotProduct_mulVec, ← mulVec_transpose, h, dotProduct_comm]
  have st : ∀ k < p.N, stageCost p k (x k + t • z k) (u k + t • u k) = stageCost p k (x k) (u k)
      + t * ((p.qv k + p.Q k *ᵥ x k + (p.P k)ᵀ *ᵥ u k) ⬝ᵥ z k
          + (p.rv k ⬝ᵥ u k + u k ⬝ᵥ (p.R k *ᵥ u k) + u k ⬝ᵥ (p.P k *ᵥ x k)))
      + t ^ 2 * (1 / 2 * (z k ⬝ᵥ (p.Q k *ᵥ z k)) + 1 / 2 * (u k ⬝ᵥ (p.R k *ᵥ u k)) + u k ⬝ᵥ (p.P k *ᵥ z k)) := by
    intro k hk
    have e1 := sw (p.Q k) (x k) (z k) (hQ k hk.le)
    have e2 : ((p.P k)ᵀ *ᵥ u k) ⬝ᵥ z k = u k ⬝ᵥ (p.P k *ᵥ z k) := by
      rw [mulVec_transpose, ← dotProduct_mulVec]
    have e3 : (p.Q k *ᵥ x k) ⬝ᵥ z k = z k ⬝ᵥ (p.Q k *ᵥ x k) := dotProduct_comm _ _
    simp only [stageCost, add_dotProduct, dotProduct_add, smul_dotProduct, dotProduct_smul, mulVec_add, mulVec_smul,
      smul_eq_mul, e1, e2, e3, dotProduct_comm (p.qv k), dotProduct_comm (p.rv k)]
    ring
  have te : terminalCost p (x p.N + t • z p.N) = terminalCost p (x p.N)
      + t * ((p.qv p.N + p.Q p.N *ᵥ x p.N) ⬝ᵥ z p.N) + t ^ 2 * (1 / 2 * (z p.N ⬝ᵥ (p.Q p.N *ᵥ z p.N))) := by
    have e1 := sw (p.Q p.N) (x p.N) (z p.N) (hQ p.N le_rfl)
    have e3 : (p.Q p.N *ᵥ x p.N) ⬝ᵥ z p.N = z p.N ⬝ᵥ (p.Q p.N *ᵥ x p.N) := dotProduct_comm _ _
    simp only [terminalCost, add_dotProduct, dotProduct_add, smul_dotProduct, dotProduct_smul, mulVec_add, mulVec_smul,
      smul_eq_mul, e1, e3, dotProduct_comm (p.qv p.N)]
    ring
  rw [lqCost, te, Finset.sum_congr rfl fun k hk => st k (Finset.mem_range.1 hk), Finset.sum_add_distrib,
    Finset.sum_add_distrib, ← Finset.mul_sum, ← Finset.mul_sum, lqCost, lqCurv]
  ring

/-- With a convex model the slope at the solution is at most what the costates say the gaps cost. -/
theorem slope_costates (g : Settings m) (p : Problem n m) (s0 s : Sol n m) (hs : solve g p s0 = .ok s)
    (hQ : ∀ k ≤ p.N, (p.Q k)ᵀ = p.Q k) (hR : ∀ k, k < p.N → (p.R k)ᵀ = p.R k) (hr : Regular g p s)
    (hc : ConvexModel p) (lam : Nat → Fin n → ℝ) (hl : Costates p (xSol p s) (uSol p s) lam) :
    lqSlope p (xSol p s) (uSol p s) ≤ ∑ k ∈ Finset.range p.N, lam (k + 1) ⬝ᵥ p.b k := by
  obtain ⟨D, hD0, hD⟩ := regular_penalty g p s0 s hs (hQ _ le_rfl) hR hr
  -- the response of the states to scaling the controls
  let z : Nat → Fin n → ℝ := Nat.rec 0 fun k v => p.A k *ᵥ v + p.B k *ᵥ uSol p s k
  have hz : ∀ k, z (k + 1) = p.A k *ᵥ z k + p.B k *ᵥ uSol p s k := fun _ => rfl
  have hz0 : z 0 = 0 := rfl
  clear_value z
  set x := xSol p s with hx
  set u := uSol p s with hu
  have fe : LqFeasible p x u := sol_feasible p s
  have hxs : ∀ k < p.N, x (k + 1) - p.A k *ᵥ x k = p.B k *ᵥ u k + p.b k := by
    intro k hk
    rw [fe.2 k hk]
    abel
  set gx : Nat → Fin n → ℝ := fun k => if k < p.N then p.qv k + p.Q k *ᵥ x k + (p.P k)ᵀ *ᵥ u k
    else p.qv p.N + p.Q p.N *ᵥ x p.N with hgx
  have gxs : ∀ k < p.N, gx k = p.qv k + p.Q k *ᵥ x k + (p.P k)ᵀ *ᵥ u k := fun k hk => if_pos hk
  have gxN : gx p.N = p.qv p.N + p.Q p.N *ᵥ x p.N := if_neg (lt_irrefl _)
  have adj := fun ζ hζ => adjoint_sum p.A gx lam ζ p.N (fun k hk => by rw [gxs k hk]; exact hl.step k hk)
    (by rw [gxN]; exact hl.last) hζ
  have a1 := adj z hz0
  have a2 := adj x fe.1
  set T := ∑ k ∈ Finset.range p.N, (p.rv k ⬝ᵥ u k + u k ⬝ᵥ (p.R k *ᵥ u k) + u k ⬝ᵥ (p.P k *ᵥ x k)) with hT
  set E := controlPenalty D u p.N 0 with hE
  -- optimality along the scaled controls
  have ray : ∀ t : ℝ, 0 ≤ t * (∑ k ∈ Finset.range p.N, lam (k + 1) ⬝ᵥ (p.B k *ᵥ u k) + T + 2 * E)
      + t ^ 2 * (lqCurv p z u + E) := by
    intro t
    have h1 := hD fun k => u k + t • u k
    have h2 : cost p (fun k => u k + t • u k) = lqCost p (fun k => x k + t • z k) fun k => u k + t • u k := by
      refine cost_eq p _ _ ⟨by simp only [fe.1, hz0, smul_zero, add_zero], fun k hk => ?_⟩
      simp only
      rw [fe.2 k hk, hz k, mulVec_add, mulVec_add, mulVec_smul, mulVec_smul, smul_add]
      abel
    have h3 : controlPenalty D (fun k => u k + t • u k) p.N 0 = (1 + t) ^ 2 * E := by
      rw [← controlPenalty_ray]
      congr 1
      funext k
      rw [add_smul, one_smul]
    rw [h2, h3, lqCost_ray2 p hQ hR, cost_eq p x u fe, Finset.sum_add_distrib] at h1
    have h4 : ∑ k ∈ Finset.range p.N, (p.qv k + p.Q k *ᵥ x k + (p.P k)ᵀ *ᵥ u k) ⬝ᵥ z k
        + (p.qv p.N + p.Q p.N *ᵥ x p.N) ⬝ᵥ z p.N = ∑ k ∈ Finset.range p.N, lam (k + 1) ⬝ᵥ (p.B k *ᵥ u k) := by
      rw [← gxN]
      refine Eq.trans ?_ (a1.trans (Finset.sum_congr rfl fun k _ => ?_))
      · congr 1
        exact Finset.sum_congr rfl fun k hk => by rw [gxs k (Finset.mem_range.1 hk)]
      · rw [hz k, add_sub_cancel_left]
    have h5 : ∑ k ∈ Finset.range p.N, (p.qv k + p.Q k *ᵥ x k + (p.P k)ᵀ *ᵥ u k) ⬝ᵥ z k + T
        + (p.qv p.N + p.Q p.N *ᵥ x p.N) ⬝ᵥ z p.N = ∑ k ∈ Finset.range p.N, lam (k + 1) ⬝ᵥ (p.B k *ᵥ u k) + T := by
      rw [← h4]; ring
    rw [h5] at h1
    nlinarith [h1]
  have zero : ∑ k ∈ Finset.range p.N, lam (k + 1) ⬝ᵥ (p.B k *ᵥ u k) + T + 2 * E = 0 := by
    set l := ∑ k ∈ Finset.range p.N, lam (k + 1) ⬝ᵥ (p.B k *ᵥ u k) + T + 2 * E
    set q := lqCurv p z u + E
    have r1 := ray 1
    have r2 := ray (-1)
    have hq : 0 ≤ q := by nlinarith
    rcases eq_or_lt_of_le hq with h' | h'
    · rw [← h'] at r1 r2; linarith
    · have := ray (-(l / (2 * q)))
      have e : -(l / (2 * q)) * l + (-(l / (2 * q))) ^ 2 * q = -(l ^ 2 / (4 * q)) := by field_simp; ring
      rw [e] at this
      have h3 : l ^ 2 / (4 * q) ≤ 0 := by linarith
      rw [div_le_iff₀ (by linarith)] at h3
      exact pow_eq_zero_iff (two_ne_zero) |>.1 (le_antisymm (by linarith) (sq_nonneg l))
  have hP : ∀ k, ((p.P k)ᵀ *ᵥ u k) ⬝ᵥ x k = u k ⬝ᵥ (p.P k *ᵥ x k) := fun k => by
    rw [mulVec_transpose, ← dotProduct_mulVec]
  have a3 : ∑ k ∈ Finset.range p.N, (p.qv k ⬝ᵥ x k + x k ⬝ᵥ (p.Q k *ᵥ x k) + u k ⬝ᵥ (p.P k *ᵥ x k))
      + (p.qv p.N ⬝ᵥ x p.N + x p.N ⬝ᵥ (p.Q p.N *ᵥ x p.N))
      = ∑ k ∈ Finset.range p.N, lam (k + 1) ⬝ᵥ (p.B k *ᵥ u k) + ∑ k ∈ Finset.range p.N, lam (k + 1) ⬝ᵥ p.b k := by
    rw [← Finset.sum_add_distrib]
    refine Eq.trans ?_ (a2.trans (Finset.sum_congr rfl fun k hk => ?_))
    · rw [gxN, add_dotProduct, dotProduct_comm (p.Q p.N *ᵥ x p.N)]
      congr 1
      refine Finset.sum_congr rfl fun k hk => ?_
      rw [gxs k (Finset.mem_range.1 hk), add_dotProduct, add_dotProduct, hP, dotProduct_comm (p.Q k *ᵥ x k)]
    · rw [hxs k (Finset.mem_range.1 hk), dotProduct_add]
  have curv : 0 ≤ ∑ k ∈ Finset.range p.N, (x k ⬝ᵥ (p.Q k *ᵥ x k) + u k ⬝ᵥ (p.R k *ᵥ u k)
      + 2 * (u k ⬝ᵥ (p.P k *ᵥ x k))) + x p.N ⬝ᵥ (p.Q p.N *ᵥ x p.N) :=
    add_nonneg (Finset.sum_nonneg fun k hk => hc.1 k (Finset.mem_range.1 hk) _ _) (hc.2 _)
  have := hD0 u
  simp only [lqSlope, hT, Finset.sum_add_distrib, ← Finset.mul_sum] at *
  linarith

theorem costates_gap {I : Iterate n m} {f : (Fin n → ℝ) → Nat → (Fin m → ℝ) → Fin n → ℝ} {r : Nat}
    (hr : RolledShots I f r) (lam : Nat → Fin n → ℝ) (rho : ℝ) (h : ∀ k < I.N, ∀ i, |lam (k + 1) i| ≤ rho) :
    ∑ k ∈ Finset.range I.N, lam (k + 1) ⬝ᵥ I.d k ≤ rho * totalGap f I.N I.x I.u := by
  rw [totalGap, Finset.mul_sum]
  refine Finset.sum_le_sum fun k hk => ?_
  have hk := Finset.mem_range.1 hk
  rw [hr.gaps k hk, Finset.mul_sum]
  refine Finset.sum_le_sum fun i _ => ?_
  refine (le_abs_self _).trans ?_
  rw [abs_mul]
  exact mul_le_mul_of_nonneg_right (h k hk i) (abs_nonneg _)

open CT.Nloc in
theorem SearchMs.setup {a : Algo} {cf : CF n m} {I : Iterate n m} {r : Problem n m} {sol : Sol n m} {w : Back n m}
    {c : LsCfg (Fin n → ℝ) (Fin m → ℝ) ℝ} {q : Dirs (Fin n → ℝ) (Fin m → ℝ)}
    {s : LsState (Fin n → ℝ) (Fin m → ℝ) ℝ} (hS : SearchMs a cf I r sol w c q s) (rho : ℝ) (max : Nat) :
    SearchMs a cf I r sol w { c with rho := rho, maxIterations := max } q s :=
  ⟨hS.hK, hS.hshot, hS.single, hS.closed, hS.noNaN, hS.gains, hS.cost, hS.box, hS.gen, hS.norm, hS.alpha0, hS.nAlpha,
    hS.back, hS.x, hS.u, hS.d, ⟨hS.fresh.ic, hS.fresh.fc, hS.fresh.box, hS.fresh.gen⟩, hS.dirs⟩

open CT.Nloc in
theorem SearchMs.run {a : Algo} {cf : CF n m} {I : Iterate n m} {r : Problem n m} {sol : Sol n m} {w : Back n m}
    {c : LsCfg (Fin n → ℝ) (Fin m → ℝ) ℝ} {q : Dirs (Fin n → ℝ) (Fin m → ℝ)}
    {s : LsState (Fin n → ℝ) (Fin m → ℝ) ℝ} (hS : SearchMs a cf I r sol w c q s) (h0 : 0 < I.N) (ht : c.type = .simple)
    (rho : ℝ) (max : Nat) :
    ∃ s' b, lineSearch { c with rho := rho, maxIterations := max } q s = Res.ok (s', b) := by
  obtain ⟨⟨s', b⟩, hsb⟩ := C55_returns { c with rho := rho, maxIterations := max } q s (Or.inl ht)
    ((hS.setup rho max).sizes h0)
  exact ⟨s', b, hsb⟩

open CT.Nloc in
/-- A negative slope of the merit is found. -/
theorem SearchMs.down {a : Algo} {cf : CF n m} {I : Iterate n m} {r : Problem n m} {sol : Sol n m} {w : Back n m}
    {c : LsCfg (Fin n → ℝ) (Fin m → ℝ) ℝ} {q : Dirs (Fin n → ℝ) (Fin m → ℝ)}
    {s : LsState (Fin n → ℝ) (Fin m → ℝ) ℝ} (hS : SearchMs a cf I r sol w c q s) (hon : OnOff cf.inter)
    (h0 : 0 < I.N) (H : ReadyMs cf I c.roll.f r) (hr : RolledShots I c.roll.f c.roll.stepsPerShot)
    (ht : c.type = .simple) (rho : ℝ) (hrho : 0 ≤ rho)
    (hneg : lqSlope r (xSol r sol) (uSol r sol) - rho * totalGap c.roll.f I.N I.x I.u < 0) :
    ∃ M, ∀ max, M ≤ max → ∃ s' b,
      lineSearch { c with rho := rho, maxIterations := max } q s = Res.ok (s', b) ∧ s'.alphaBest ≠ 0 ∧
      penalised cf c.roll.f rho I.N I.dt (fun k => s'.x.getD k 0) (fun k => s'.u.getD k 0)
        < penalised cf c.roll.f rho I.N I.dt I.x I.u := by
  have hSr := hS.setup
  have run := hS.run h0 ht
  have cand := fun t => (hSr rho c.maxIterations).candidate hon h0 t
  have low := (hSr rho c.maxIterations).begin_eq hon hr
  choose K hK using cand
  obtain ⟨ψ, ψ0, ψle, ψd⟩ := penalised_bound h0 H hr (fun t i => (K t).r.x.getD i 0) (fun t i => (K t).r.u.getD i 0)
    (fun t => (hK t).2.1) rho hrho
  have hpos : ∀ j : ℕ, 0 < c.alpha0 * c.nAlpha ^ j := fun j => mul_pos hS.alpha0 (pow_pos hS.nAlpha.1 j)
  have hlim0 : Tendsto (fun j : ℕ => c.alpha0 * c.nAlpha ^ j) atTop (𝓝 0) := by
    have := (tendsto_pow_atTop_nhds_zero_of_lt_one hS.nAlpha.1.le hS.nAlpha.2).const_mul c.alpha0
    simpa using this
  have hlim : Tendsto (fun j : ℕ => c.alpha0 * c.nAlpha ^ j) atTop (𝓝[≠] 0) :=
    tendsto_nhdsWithin_iff.2 ⟨hlim0, Eventually.of_forall fun j => (hpos j).ne'⟩
  have hev := (hasDerivAt_iff_tendsto_slope.1 ψd).comp hlim |>.eventually (gt_mem_nhds hneg)
  obtain ⟨j, hj, hj1⟩ := (hev.and (hlim0.eventually (gt_mem_nhds one_pos))).exists
  have hlt : ψ (c.alpha0 * c.nAlpha ^ j) < ψ 0 := by
    simp only [Function.comp, slope_def_field, sub_zero] at hj
    have := (div_neg_iff.1 hj).resolve_left fun h => absurd h.2 (not_lt.2 (hpos j).le)
    linarith [this.1]
  have hA : ∀ max, Acceptable { c with rho := rho, maxIterations := max } q s (c.alpha0 * c.nAlpha ^ j) := by
    intro max
    refine (C55_acceptable_simple { c with rho := rho, maxIterations := max } q s _ ht).2 ⟨K _, (hK _).1, ?_⟩
    have e1 := (hK (c.alpha0 * c.nAlpha ^ j)).2.2
    have := (ψle _ (hpos j).le hj1.le).trans_lt (hlt.trans_eq ψ0)
    show Fl.lt (newMerit { c with rho := rho, maxIterations := c.maxIterations } _ _ _ _ _)
      (beginSearch { c with rho := rho, maxIterations := c.maxIterations } s).lowest
    rw [e1, low]
    exact this
  refine ⟨j + 1, fun max hmax => ?_⟩
  obtain ⟨s', b, hsb⟩ := run rho max
  refine ⟨s', b, hsb, ?_⟩
  rcases C55_first { c with rho := rho, maxIterations := max } q s s' b (by simp [ht]) hS.alpha0 hS.nAlpha.1 hsb with
    ⟨i, hi, a1, a2, -, k, a3, a4, a5, -⟩ | ⟨-, -, a3⟩
  · refine ⟨by rw [a1]; exact (hpos i).ne', ?_⟩
    obtain ⟨k', b1, b2⟩ := (C55_acceptable_simple { c with rho := rho, maxIterations := max } q s _ ht).1 a2
    have hk' : k' = k := by
      unfold Candidate at b1 a3
      rw [a3] at b1
      simpa using b1.symm
    obtain ⟨k2, c1, -, c3⟩ := (hSr rho max).candidate hon h0 (c.alpha0 * c.nAlpha ^ i)
    have hk2 : k2 = k := by
      unfold Candidate at c1 a3
      have a3' : executeLineSearch { c with rho := rho, maxIterations := max } q
        (beginSearch { c with rho := rho, maxIterations := max } s) (c.alpha0 * c.nAlpha ^ i) = Res.ok k := a3
      rw [a3'] at c1
      simpa using c1.symm
    rw [hk', ← hk2, c3, (hSr rho max).begin_eq hon hr] at b2
    rw [a4, a5, ← hk2]
    exact b2
  · exact absurd (hA max) (a3 j hmax)

/-! ### C177 -/

/-- C177, where it stops: at shot-wise roll-outs of a smooth problem, the step the linear-quadratic solver proposes (for
states and controls) is zero exactly if the trajectory has no gaps and its controls are a stationary point of the
nonlinear problem. -/
theorem C177_stationary (c : CF n m) (I : Iterate n m) (lin : Lin n m) (p : Problem n m) (hN : p.N = I.N)
    (h0 : 0 < I.N) (f : (Fin n → ℝ) → Nat → (Fin m → ℝ) → Fin n → ℝ) (hs : SmoothAlong c I f lin) (j : Nat)
    (hr : RolledShots I f j) (g : Settings m) (s0 s : Sol n m)
    (e : solve g (computeLQApproximation I lin 0 (I.N - 1) (c, p)).2 s0 = .ok s)
    (hreg : Regular g (computeLQApproximation I lin 0 (I.N - 1) (c, p)).2 s) :
    ((∀ k ≤ I.N, xSol (computeLQApproximation I lin 0 (I.N - 1) (c, p)).2 s k = 0) ∧
      ∀ k < I.N, uSol (computeLQApproximation I lin 0 (I.N - 1) (c, p)).2 s k = 0) ↔ Solves c I.N I.dt f I.x I.u := by
  have H := readyMs c I lin p hN h0 f hs
  have hsol := (sol_feasible (computeLQApproximation I lin 0 (I.N - 1) (c, p)).2 s).2
  have hd : (∀ k < I.N, I.x (k + 1) = f (I.x k) k (I.u k)) ↔ ∀ k < I.N, I.d k = 0 := by
    refine forall_congr' fun k => imp_congr_right fun hk => ?_
    rw [hr.gaps k hk, sub_eq_zero, eq_comm]
  constructor
  · rintro ⟨hx, hu⟩
    have hg : ∀ k < I.N, I.d k = 0 := by
      intro k hk
      have := hsol k (by rw [H.hN]; exact hk)
      rw [hx (k + 1) hk, hx k hk.le, hu k hk, H.hb k hk] at this
      simpa using this.symm
    exact ⟨hd.2 hg, (C176_stationary c I lin p hN h0 f hs ⟨hd.2 hg, hg⟩ g s0 s e hreg).1 hu⟩
  · rintro ⟨hx, hst⟩
    have hg := hd.1 hx
    have hu := (C176_stationary c I lin p hN h0 f hs ⟨hx, hg⟩ g s0 s e hreg).2 hst
    refine ⟨fun k => ?_, hu⟩
    induction k with
    | zero => intro _; rfl
    | succ k ih =>
      intro hk
      rw [hsol k (by rw [H.hN]; exact hk), ih (by omega), hu k hk, H.hb k hk, hg k hk]
      simp

open CT.Nloc in
/-- C177, line search: for each of the seven algorithms, with the simple line search on a smooth problem without
constraints. If the current trajectory has gaps or its controls are not a stationary point, then with a large enough
weight of the gaps the search finds a step, provided it may try enough step sizes, and cost plus weighted gaps of the new
trajectory are strictly smaller. If it has no gaps and is stationary, the search takes no step and reports that nothing
better was found, whatever the weight and the number of step sizes. -/
theorem C177_line_search (a : Algo) (cf : CF n m) (hon : OnOff cf.inter) (I : Iterate n m)
    (lin : Lin n m) (p : Problem n m) (hN : p.N = I.N) (h0 : 0 < I.N)
    (c : LsCfg (Fin n → ℝ) (Fin m → ℝ) ℝ) (hs : SmoothAlong cf I c.roll.f lin)
    (hr : RolledShots I c.roll.f c.roll.stepsPerShot)
    (g : Settings m) (s0 sol : Sol n m) (e : solve g (computeLQApproximation I lin 0 (I.N - 1) (cf, p)).2 s0 = .ok sol)
    (hreg : Regular g (computeLQApproximation I lin 0 (I.N - 1) (cf, p)).2 sol) (w : Back n m)
    (q : Dirs (Fin n → ℝ) (Fin m → ℝ)) (s : LsState (Fin n → ℝ) (Fin m → ℝ) ℝ) (ht : c.type = .simple)
    (hS : SearchMs a cf I (computeLQApproximation I lin 0 (I.N - 1) (cf, p)).2 sol w c q s) :
    (¬ Solves cf I.N I.dt c.roll.f I.x I.u → ∃ rho0, ∀ rho, rho0 < rho → ∃ M, ∀ max, M ≤ max → ∃ s' b,
      lineSearch { c with rho := rho, maxIterations := max } q s = Res.ok (s', b) ∧ s'.alphaBest ≠ 0 ∧
      penalised cf c.roll.f rho I.N I.dt (fun k => s'.x.getD k 0) (fun k => s'.u.getD k 0)
        < penalised cf c.roll.f rho I.N I.dt I.x I.u) ∧
    (Solves cf I.N I.dt c.roll.f I.x I.u → ∀ rho max, ∃ s',
      lineSearch { c with rho := rho, maxIterations := max } q s = Res.ok (s', false) ∧ s'.alphaBest = 0 ∧
      s'.x = s.x ∧ s'.u = s.u) := by
  have hst := C177_stationary cf I lin p hN h0 c.roll.f hs _ hr g s0 sol e hreg
  have H := readyMs cf I lin p hN h0 c.roll.f hs
  revert e hreg H hst hS
  generalize (computeLQApproximation I lin 0 (I.N - 1) (cf, p)).2 = r
  intro e hreg hS hst H
  have hSr := hS.setup
  have run := hS.run h0 ht
  constructor
  · intro hns
    -- the weight
    obtain ⟨rho0, hr0, hneg⟩ : ∃ rho0 : ℝ, 0 ≤ rho0 ∧ ∀ rho, rho0 < rho →
        lqSlope r (xSol r sol) (uSol r sol) - rho * totalGap c.roll.f I.N I.x I.u < 0 := by
      rcases (totalGap_nonneg c.roll.f I.N I.x I.u).eq_or_lt with hg | hg
      · have hg' := totalGap_eq_zero.1 hg.symm
        have hd : ∀ k < I.N, I.d k = 0 := fun k hk => by rw [hr.gaps k hk, ← hg' k hk, sub_self]
        have hb : ∀ k < r.N, r.b k = 0 := fun k hk => by
          rw [H.hb k (by rw [← H.hN]; exact hk), hd k (by rw [← H.hN]; exact hk)]
        obtain ⟨hsl, -⟩ := slope_solution g r s0 sol e (H.hQ _ le_rfl) H.hR hreg hb
        refine ⟨0, le_rfl, fun rho _ => ?_⟩
        rw [← hg, mul_zero, sub_zero]
        refine hsl.resolve_left fun hz => hns (hst.1 ⟨fun k => ?_, fun k hk => hz k (by rw [H.hN]; exact hk)⟩)
        induction k with
        | zero => intro _; rfl
        | succ k ih =>
          intro hk
          have hk' : k < r.N := by rw [H.hN]; exact hk
          rw [(sol_feasible r sol).2 k hk', ih (by omega), hz k hk', hb k hk']
          simp
      · refine ⟨max 0 (lqSlope r (xSol r sol) (uSol r sol) / totalGap c.roll.f I.N I.x I.u), le_max_left _ _,
          fun rho hrho => ?_⟩
        have := (div_lt_iff₀ hg).1 ((le_max_right _ _).trans_lt hrho)
        linarith
    refine ⟨rho0, fun rho hrho => ?_⟩
    exact hS.down hon h0 H hr ht rho (hr0.trans hrho.le) (hneg rho hrho)
  · intro hyes rho max
    obtain ⟨s', b, hsb⟩ := run rho max
    have hz := hst.2 hyes
    have hrej : ∀ t, ¬ Acceptable { c with rho := rho, maxIterations := max } q s t := by
      intro t hh
      obtain ⟨k', b1, b2⟩ := (C55_acceptable_simple { c with rho := rho, maxIterations := max } q s _ ht).1 hh
      obtain ⟨k2, c1, c2, c3⟩ := (hSr rho max).candidate hon h0 t
      have hk2 : k2 = k' := by
        unfold Candidate at c1 b1
        rw [b1] at c1
        simpa using c1.symm
      subst hk2
      obtain ⟨d1, d2⟩ := followsMs_current h0 hr t _ _ c2 (Or.inr hz)
      rw [c3, (hSr rho max).begin_eq hon hr, penalised, penalised, trajectoryCost_congr cf I.N I.dt d1 d2,
        totalGap_congr d1 d2] at b2
      exact lt_irrefl _ b2
    rcases C55_first { c with rho := rho, maxIterations := max } q s s' b (by simp [ht]) hS.alpha0 hS.nAlpha.1 hsb with
      ⟨i, -, -, a2, -⟩ | ⟨a1, a2, -⟩
    · exact absurd a2 (hrej _)
    · obtain ⟨b1, b2, -⟩ := C55_rejected_partial { c with rho := rho, maxIterations := max } q s s' b (by simp [ht])
        hS.alpha0 hS.nAlpha.1 hsb a1
      subst a2
      exact ⟨s', hsb, a1, b1, b2⟩

open CT.Nloc in
/-- C177, how large the weight must be: if the quadratic model of the cost is convex, any weight above the absolute values
of all costates of the linear-quadratic solution will do. -/
theorem C177_weight (a : Algo) (cf : CF n m) (hon : OnOff cf.inter) (I : Iterate n m)
    (lin : Lin n m) (p : Problem n m) (hN : p.N = I.N) (h0 : 0 < I.N)
    (c : LsCfg (Fin n → ℝ) (Fin m → ℝ) ℝ) (hs : SmoothAlong cf I c.roll.f lin)
    (hr : RolledShots I c.roll.f c.roll.stepsPerShot)
    (g : Settings m) (s0 sol : Sol n m) (e : solve g (computeLQApproximation I lin 0 (I.N - 1) (cf, p)).2 s0 = .ok sol)
    (hreg : Regular g (computeLQApproximation I lin 0 (I.N - 1) (cf, p)).2 sol) (w : Back n m)
    (q : Dirs (Fin n → ℝ) (Fin m → ℝ)) (s : LsState (Fin n → ℝ) (Fin m → ℝ) ℝ) (ht : c.type = .simple)
    (hS : SearchMs a cf I (computeLQApproximation I lin 0 (I.N - 1) (cf, p)).2 sol w c q s)
    (hc : ConvexModel (computeLQApproximation I lin 0 (I.N - 1) (cf, p)).2) (lam : Nat → Fin n → ℝ)
    (hl : Costates (computeLQApproximation I lin 0 (I.N - 1) (cf, p)).2
      (xSol (computeLQApproximation I lin 0 (I.N - 1) (cf, p)).2 sol)
      (uSol (computeLQApproximation I lin 0 (I.N - 1) (cf, p)).2 sol) lam)
    (hrho : ∀ k < I.N, ∀ i, |lam (k + 1) i| < c.rho) (hrho0 : 0 ≤ c.rho)
    (hns : ¬ Solves cf I.N I.dt c.roll.f I.x I.u) :
    ∃ M, ∀ max, M ≤ max → ∃ s' b,
      lineSearch { c with maxIterations := max } q s = Res.ok (s', b) ∧ s'.alphaBest ≠ 0 ∧
      penalised cf c.roll.f c.rho I.N I.dt (fun k => s'.x.getD k 0) (fun k => s'.u.getD k 0)
        < penalised cf c.roll.f c.rho I.N I.dt I.x I.u := by
  have hst := C177_stationary cf I lin p hN h0 c.roll.f hs _ hr g s0 sol e hreg
  have H := readyMs cf I lin p hN h0 c.roll.f hs
  revert e hreg H hst hS hc hl
  generalize (computeLQApproximation I lin 0 (I.N - 1) (cf, p)).2 = r
  intro e hreg hS hc hl hst H
  refine hS.down hon h0 H hr ht c.rho hrho0 ?_
  have sl := slope_costates g r s0 sol e H.hQ H.hR hreg hc lam hl
  rw [H.hN, Finset.sum_congr rfl fun k hk => by rw [H.hb k (Finset.mem_range.1 hk)]] at sl
  rcases (totalGap_nonneg c.roll.f I.N I.x I.u).eq_or_lt with hg | hg
  · have hg' := totalGap_eq_zero.1 hg.symm
    have hd : ∀ k < I.N, I.d k = 0 := fun k hk => by rw [hr.gaps k hk, ← hg' k hk, sub_self]
    have hb : ∀ k < r.N, r.b k = 0 := fun k hk => by
      rw [H.hb k (by rw [← H.hN]; exact hk), hd k (by rw [← H.hN]; exact hk)]
    obtain ⟨hsl, -⟩ := slope_solution g r s0 sol e (H.hQ _ le_rfl) H.hR hreg hb
    rw [← hg, mul_zero, sub_zero]
    refine hsl.resolve_left fun hz => hns (hst.1 ⟨fun k => ?_, fun k hk => hz k (by rw [H.hN]; exact hk)⟩)
    induction k with
    | zero => intro _; rfl
    | succ k ih =>
      intro hk
      have hk' : k < r.N := by rw [H.hN]; exact hk
      rw [(sol_feasible r sol).2 k hk', ih (by omega), hz k hk', hb k hk']
      simp
  · -- a weight in between
    obtain ⟨rho, h1, h2⟩ : ∃ rho, (∀ k < I.N, ∀ i, |lam (k + 1) i| ≤ rho) ∧ rho < c.rho := by
      have hnn : Nonempty (Fin n) := by
        by_contra hemp
        have : IsEmpty (Fin n) := not_nonempty_iff.1 hemp
        simp [totalGap] at hg
      have hne : (Finset.range I.N ×ˢ (Finset.univ : Finset (Fin n))).Nonempty :=
        (Finset.nonempty_range_iff.2 (by omega)).product Finset.univ_nonempty
      refine ⟨Finset.sup' _ hne fun z => |lam (z.1 + 1) z.2|, fun k hk i => ?_, ?_⟩
      · exact Finset.le_sup' (fun z : Nat × Fin n => |lam (z.1 + 1) z.2|) (b := (k, i))
          (Finset.mem_product.2 ⟨Finset.mem_range.2 hk, Finset.mem_univ i⟩)
      · exact (Finset.sup'_lt_iff hne).2 fun z hz =>
          hrho z.1 (Finset.mem_range.1 (Finset.mem_product.1 hz).1) z.2
    have := costates_gap hr lam rho h1
    have := mul_lt_mul_of_pos_right h2 hg
    linarith

/-- Costates exist. -/
theorem costates_exist (p : Problem n m) (x : Nat → Fin n → ℝ) (u : Nat → Fin m → ℝ) : ∃ lam, Costates p x u lam := by
  let b : Nat → Fin n → ℝ := Nat.rec (p.qv p.N + p.Q p.N *ᵥ x p.N) fun j v =>
    p.qv (p.N - (j + 1)) + p.Q (p.N - (j + 1)) *ᵥ x (p.N - (j + 1)) + (p.P (p.N - (j + 1)))ᵀ *ᵥ u (p.N - (j + 1))
      + (p.A (p.N - (j + 1)))ᵀ *ᵥ v
  have hb0 : b 0 = p.qv p.N + p.Q p.N *ᵥ x p.N := rfl
  have hbs : ∀ j, b (j + 1) = p.qv (p.N - (j + 1)) + p.Q (p.N - (j + 1)) *ᵥ x (p.N - (j + 1))
      + (p.P (p.N - (j + 1)))ᵀ *ᵥ u (p.N - (j + 1)) + (p.A (p.N - (j + 1)))ᵀ *ᵥ b j := fun _ => rfl
  clear_value b
  refine ⟨fun k => b (p.N - k), ⟨by simp [hb0], fun k hk => ?_⟩⟩
  obtain ⟨j, hj⟩ : ∃ j, p.N - k = j + 1 := ⟨p.N - k - 1, by omega⟩
  have h1 : p.N - (j + 1) = k := by omega
  have h2 : p.N - (k + 1) = j := by omega
  simp only [hj, h2]
  rw [hbs, h1]

/-! ### A concrete case, and the default weight -/

section concrete

open CT.Nloc

/-- Cost `u²` at every stage and `x²` at the end. -/
private def exCF : CF 1 1 := { CF.new with inter := [quadratic 0 1 0 0], fin := [quadratic 1 0 0 0] }

/-- Two stages of `x⁺ = x + u` from `x = 1` without control; but the guess of the other states is zero. -/
private noncomputable def exI : Iterate 1 1 :=
  { N := 2, dt := 1, x := fun k _ => if k = 0 then 1 else 0, u := fun _ _ => 0, xShot := fun _ => 0,
    d := fun k _ => if k = 0 then 1 else 0 }

private def exLin : Lin 1 1 := fun _ _ _ _ => (1, 1)

private def exP : Problem 1 1 :=
  { N := 2, A := fun _ => 0, B := fun _ => 0, b := fun _ => 0, P := fun _ => 0, q := fun _ => 0, qv := fun _ => 0,
    Q := fun _ => 0, rv := fun _ => 0, R := fun _ => 0 }

private noncomputable def exG : Settings 1 := ⟨false, 1 / 10 ^ 5, fun H => (1, fun i => H i i)⟩

private def exS : Sol 1 1 :=
  ⟨fun _ => 0, fun _ => 0, fun _ => 0, fun _ => 0, fun _ => 0, fun _ => 0, fun _ => 0, fun _ => 0, fun _ => 0⟩

private noncomputable abbrev exR : Problem 1 1 := (computeLQApproximation exI exLin 0 (exI.N - 1) (exCF, exP)).2

private def exF (x : Fin 1 → ℝ) (_ : Nat) (u : Fin 1 → ℝ) : Fin 1 → ℝ := x + u

private theorem ex_run (x u : Fin 1 → ℝ) (t : ℝ) : runningCost exCF x u t = u 0 * u 0 := by
  simp [runningCost, expectedCost, exCF, CF.new, quadratic, weight, dotProduct, Matrix.mulVec]

private theorem ex_fin (x : Fin 1 → ℝ) (t : ℝ) : finalCost exCF x t = x 0 * x 0 := by
  simp [finalCost, exCF, CF.new, quadratic, dotProduct, Matrix.mulVec]

private theorem ex_onOff : OnOff exCF.inter := by
  intro τ hτ t _
  simp only [exCF, CF.new, List.mem_singleton] at hτ
  subst hτ
  right; rfl

private theorem ex_smooth : SmoothAlong exCF exI exF exLin := by
  refine ⟨fun k _ => ?_, fun k _ => ?_, fun τ hτ => ?_, fun τ hτ => ?_⟩
  · have : ((jacMap (1 : Matrix (Fin 1) (Fin 1) ℝ)).coprod (jacMap (1 : Matrix (Fin 1) (Fin 1) ℝ)))
        = ContinuousLinearMap.fst ℝ (Fin 1 → ℝ) (Fin 1 → ℝ) + ContinuousLinearMap.snd ℝ (Fin 1 → ℝ) (Fin 1 → ℝ) := by
      ext z <;> simp
    simp only [exLin, this, exF]
    exact hasFDerivAt_fst.add hasFDerivAt_snd
  · simp only [ex_run]
    fun_prop
  · simp only [exCF, CF.new, List.mem_singleton] at hτ
    subst hτ
    exact exact_quadratic _ _ _ _
  · simp only [exCF, CF.new, List.mem_singleton] at hτ
    subst hτ
    exact exact_quadratic _ _ _ _

private theorem ex_rolled : RolledShots exI exF 1 := by
  refine ⟨fun k hk => ?_, fun k hk h => ?_⟩
  · funext i
    simp [exI, exF]
  · have : k = 1 := by
      simp only [exI, isUnit_iff_dvd_one, one_dvd, and_true] at hk h
      omega
    subst this
    funext i
    simp [exI]

private theorem ex_gap : totalGap exF exI.N exI.x exI.u = 1 := by
  simp [totalGap, exI, exF, Finset.sum_range_succ]

private theorem ex_open : ¬ Solves exCF exI.N exI.dt exF exI.x exI.u := fun h => by
  have := totalGap_eq_zero.2 h.1
  rw [ex_gap] at this
  exact one_ne_zero this

private theorem ex_regular (s : Sol 1 1) : Regular exG exR s := by
  refine Or.inl ⟨rfl, fun H _ => ⟨by simp [exG], ?_⟩, by norm_num [exG]⟩
  ext i j
  fin_cases i; fin_cases j
  simp [exG]

private theorem ex_convex : ConvexModel exR := by
  obtain ⟨h1, -, h3, h4, -⟩ := C106_contents exCF exI exLin exP rfl (by norm_num [exI])
  refine ⟨fun k hk z v => ?_, fun z => ?_⟩
  · have a := h3 k (by rw [← h1]; exact hk)
    have hR : exR.R k = 2 := by
      rw [a.R]
      simp [CF.controlSecondDerivativeIntermediate, CF.sumActive, exCF, CF.set, quadratic, CF.new, exI]
      norm_num
    have hQ : exR.Q k = 0 := by
      rw [a.Q]
      simp [CF.stateSecondDerivativeIntermediate, CF.sumActive, exCF, CF.set, quadratic, CF.new, exI]
    have hP : exR.P k = 0 := by
      rw [a.P]
      simp [CF.stateControlDerivativeIntermediate, CF.sumActive, exCF, CF.set, quadratic, CF.new, exI]
    rw [hQ, hR, hP]
    simp [Matrix.mulVec, dotProduct, Matrix.ofNat_apply]
    nlinarith [mul_self_nonneg (v 0)]
  · have hQ : exR.Q exR.N = 2 := by
      refine (h4 : exR.Q exR.N = _).trans ?_
      simp [CF.stateSecondDerivativeTerminal, exCF, CF.set, quadratic, CF.new]
      norm_num
    rw [hQ]
    simp [Matrix.mulVec, dotProduct, Matrix.ofNat_apply]
    nlinarith [mul_self_nonneg (z 0)]

private noncomputable def exCfg (L : List ((Fin 1 → ℝ) → Fin 1 → ℝ)) (rho : ℝ) :
    LsCfg (Fin 1 → ℝ) (Fin 1 → ℝ) ℝ :=
  { roll := { f := exF, K := 2, Kshot := 1, single := false, closed := false, L := L, nanX := fun _ => false,
              nanU := fun _ => false },
    cost := fun x u => (.fin (computeCostsOfTrajectory 2 1 (fun k => x.getD k 0) (fun k => u.getD k 0) exCF).1,
      .fin (computeCostsOfTrajectory 2 1 (fun k => x.getD k 0) (fun k => u.getD k 0) exCF).2),
    box := fun _ _ => .fin 0, gen := fun _ _ => .fin 0,
    defectNorm := fun d => .fin (computeDefectsNorm d),
    type := .simple, rho := rho, rhoC := 1, alpha0 := 1, nAlpha := 1 / 2, maxIterations := 10,
    armijo := 1 / 100, delta1 := .fin 0, delta2 := .fin 0, minImprovement := 1 / 10 ^ 5,
    maxDefectSum := 1 / 10 ^ 5, maxValue := 10 ^ 10 }

private noncomputable def exState (c : LsCfg (Fin 1 → ℝ) (Fin 1 → ℝ) ℝ) : LsState (Fin 1 → ℝ) (Fin 1 → ℝ) ℝ :=
  { x := (List.range 3).map exI.x, xShot := [0, 0, 0], d := (List.range 3).map fun k => if k < 2 then exI.d k else 0,
    u := (List.range 2).map exI.u, xPrev := [], uPrev := [], xRef := [],
    icBest := (c.cost ((List.range 3).map exI.x) ((List.range 2).map exI.u)).1,
    fcBest := (c.cost ((List.range 3).map exI.x) ((List.range 2).map exI.u)).2,
    lowest := .pinf, dNorm := .pinf, eBox := .fin 0, eGen := .fin 0, alphaBest := -1 }

private noncomputable def exBack : Back 1 1 := ⟨exI.x, exI.u, exI.x, fun _ => 0⟩

private noncomputable def exDirs (sol : Sol 1 1) : Dirs (Fin 1 → ℝ) (Fin 1 → ℝ) :=
  ⟨(List.range 2).map (extractSolution .gnms exR sol exBack).2.du,
    (List.range 3).map (extractSolution .gnms exR sol exBack).2.dx,
    (List.range 3).map (extractSolution .gnms exR sol exBack).2.dxRef⟩

private theorem ex_search (sol : Sol 1 1) (rho : ℝ) :
    let c := exCfg ((List.range 2).map fun k z => (extractSolution .gnms exR sol exBack).1.L k *ᵥ z) rho
    SearchMs .gnms exCF exI exR sol exBack c (exDirs sol) (exState c) := by
  intro c
  exact ⟨rfl, by norm_num [c, exCfg], rfl, rfl, ⟨fun _ => rfl, fun _ => rfl⟩, rfl, fun _ _ => rfl, fun _ _ => rfl,
    fun _ _ => rfl, fun _ => rfl, by norm_num [c, exCfg], by norm_num [c, exCfg], ⟨rfl, rfl⟩, rfl, rfl, rfl,
    ⟨rfl, rfl, rfl, rfl⟩, rfl⟩

/-- The hypotheses of the theorems hold for Gauss-Newton multiple shooting at a trajectory with a gap. -/
example : ∃ (sol : Sol 1 1) (c : LsCfg (Fin 1 → ℝ) (Fin 1 → ℝ) ℝ) (q : Dirs (Fin 1 → ℝ) (Fin 1 → ℝ))
    (s : LsState (Fin 1 → ℝ) (Fin 1 → ℝ) ℝ) (lam : Nat → Fin 1 → ℝ), OnOff exCF.inter ∧
    SmoothAlong exCF exI c.roll.f exLin ∧ RolledShots exI c.roll.f c.roll.stepsPerShot ∧
    solve exG exR exS = .ok sol ∧ Regular exG exR sol ∧ c.type = .simple ∧
    SearchMs .gnms exCF exI exR sol exBack c q s ∧ ¬ Solves exCF exI.N exI.dt c.roll.f exI.x exI.u ∧
    ConvexModel exR ∧ Costates exR (xSol exR sol) (uSol exR sol) lam ∧ 0 ≤ c.rho ∧
    ∀ k < exI.N, ∀ i, |lam (k + 1) i| < c.rho := by
  obtain ⟨s, e, -⟩ := solve_solved exG exR exS
  obtain ⟨lam, hl⟩ := costates_exist exR (xSol exR s) (uSol exR s)
  refine ⟨s, _, _, _, lam, ex_onOff, ex_smooth, ex_rolled, e, ex_regular s, rfl,
    ex_search s (|lam 1 0| + |lam 2 0| + 1), ex_open, ex_convex, hl, ?_, ?_⟩
  · show 0 ≤ |lam 1 0| + |lam 2 0| + 1
    positivity
  · intro k hk i
    have hi : i = 0 := Subsingleton.elim _ _
    subst hi
    show |lam (k + 1) 0| < |lam 1 0| + |lam 2 0| + 1
    have h1 := abs_nonneg (lam 1 0)
    have h2 := abs_nonneg (lam 2 0)
    have hk : k < 2 := hk
    interval_cases k <;> simp only [Nat.zero_add, Nat.reduceAdd] <;> linarith

/-- With the default weight zero of the gaps (`meritFunctionRho`, `NLOptConSettings.hpp:240`) the claim is false: here the
trajectory has a gap of size one, five orders of magnitude above what the solver tolerates, and the linear-quadratic step
closes it; but the infeasible guess costs less than any feasible trajectory. So the search rejects every step, however
many it may try, the solver reports convergence and keeps the trajectory with the gap, while the recorded defects are
set to zero. -/
theorem C177_default_weight_violated : ∃ (cf : CF 1 1) (I : Iterate 1 1) (lin : Lin 1 1) (p : Problem 1 1)
    (g : Settings 1) (s0 sol : Sol 1 1) (w : Back 1 1) (c : LsCfg (Fin 1 → ℝ) (Fin 1 → ℝ) ℝ)
    (q : Dirs (Fin 1 → ℝ) (Fin 1 → ℝ)) (s : LsState (Fin 1 → ℝ) (Fin 1 → ℝ) ℝ),
    let r := (computeLQApproximation I lin 0 (I.N - 1) (cf, p)).2
    p.N = I.N ∧ 0 < I.N ∧ OnOff cf.inter ∧ SmoothAlong cf I c.roll.f lin ∧
    RolledShots I c.roll.f c.roll.stepsPerShot ∧ solve g r s0 = .ok sol ∧ Regular g r sol ∧
    SearchMs .gnms cf I r sol w c q s ∧ ConvexModel r ∧ c.type = .simple ∧ c.rho = 0 ∧ c.maxDefectSum = 1 / 10 ^ 5 ∧
    totalGap c.roll.f I.N I.x I.u = 1 ∧
    ∀ max, ∃ s', lineSearch { c with maxIterations := max } q s = Res.ok (s', false) ∧ s'.x = s.x ∧ s'.u = s.u ∧
      ∀ v ∈ s'.d, v = 0 := by
  obtain ⟨sol, e, -⟩ := solve_solved exG exR exS
  have hS := ex_search sol 0
  refine ⟨exCF, exI, exLin, exP, exG, exS, sol, exBack, _, _, _, rfl, by norm_num [exI], ex_onOff, ex_smooth, ex_rolled,
    e, ex_regular sol, hS, ex_convex, rfl, rfl, rfl, ex_gap, fun max => ?_⟩
  have hS' := hS.setup 0 max
  obtain ⟨s', b, hsb⟩ := hS.run (by norm_num [exI]) rfl 0 max
  have hrej : ∀ t, ¬ Acceptable { exCfg ((List.range 2).map fun k z =>
      (extractSolution .gnms exR sol exBack).1.L k *ᵥ z) 0 with rho := 0, maxIterations := max } (exDirs sol) (exState
        (exCfg ((List.range 2).map fun k z => (extractSolution .gnms exR sol exBack).1.L k *ᵥ z) 0)) t := by
    intro t hh
    obtain ⟨k', b1, b2⟩ := (C55_acceptable_simple _ _ _ _ rfl).1 hh
    obtain ⟨k2, c1, -, c3⟩ := hS'.candidate ex_onOff (by norm_num [exI]) t
    have hk2 : k2 = k' := by
      unfold Candidate at c1 b1
      rw [b1] at c1
      simpa using c1.symm
    subst hk2
    rw [c3, hS'.begin_eq ex_onOff ex_rolled] at b2
    have b2 : _ < _ := b2
    simp only [penalised, trajectoryCost, show exI.N = 2 from rfl, Finset.sum_range_succ, Finset.sum_range_zero, ex_run,
      ex_fin, zero_mul] at b2
    simp [exI] at b2
    nlinarith [mul_self_nonneg (k2.r.u.getD 0 0 0), mul_self_nonneg (k2.r.u.getD 1 0 0),
      mul_self_nonneg (k2.r.x.getD 2 0 0)]
  rcases C55_first _ _ _ s' b (by simp [exCfg]) hS'.alpha0 hS'.nAlpha.1 hsb with ⟨i, -, -, a2, -⟩ | ⟨a1, a2, -⟩
  · exact absurd a2 (hrej _)
  · obtain ⟨b1, b2, -, -, -, -, -, -, -, -, -, b3⟩ := C55_rejected_partial _ _ _ s' b (by simp [exCfg])
      hS'.alpha0 hS'.nAlpha.1 hsb a1
    subst a2
    exact ⟨s', hsb, b1, b2, b3⟩

end concrete

end CT.LqApprox
