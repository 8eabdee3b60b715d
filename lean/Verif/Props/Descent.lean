import Verif.Props.LqApprox
import Verif.Props.NlocSolve
import Mathlib.Analysis.Calculus.FDeriv.Symmetric
import Mathlib.Analysis.Calculus.Deriv.Slope
import Mathlib.Analysis.Calculus.Deriv.Comp
import Mathlib.Analysis.Calculus.Deriv.Prod
import Mathlib.Analysis.Calculus.Deriv.Add
import Mathlib.Analysis.Calculus.Deriv.Mul
import Mathlib.Analysis.SpecificLimits.Basic

/-!
# C176: where the single-shooting algorithms stop, and which way they go

The linear-quadratic step of `Model/LqApprox.lean` and `Model/Riccati.lean` and the line search of
`Model/NlocLineSearch.lean` on a nonlinear problem without constraints.
-/

namespace CT.LqApprox

open Matrix CT.Cost CT.Riccati Filter Topology

variable {n m : Nat}

/-! ### Specification -/

/-- The states of a system that starts in `x0` and gets the controls `u`. -/
def simulate (f : (Fin n → ℝ) → Nat → (Fin m → ℝ) → Fin n → ℝ) (x0 : Fin n → ℝ) (u : Nat → Fin m → ℝ) :
    Nat → Fin n → ℝ
  | 0 => x0
  | k + 1 => f (simulate f x0 u k) k (u k)

/-- What a control sequence costs: the documented cost of the trajectory it produces. -/
noncomputable def controlCost (c : CF n m) (N : Nat) (dt : ℝ) (f : (Fin n → ℝ) → Nat → (Fin m → ℝ) → Fin n → ℝ)
    (x0 : Fin n → ℝ) (u : Nat → Fin m → ℝ) : ℝ :=
  trajectoryCost c N dt (simulate f x0 u) u

/-- First-order optimality: the derivative of the cost is zero in every direction. -/
def Stationary (c : CF n m) (N : Nat) (dt : ℝ) (f : (Fin n → ℝ) → Nat → (Fin m → ℝ) → Fin n → ℝ) (x0 : Fin n → ℝ)
    (u : Nat → Fin m → ℝ) : Prop :=
  ∀ v : Nat → Fin m → ℝ, HasDerivAt (fun t : ℝ => controlCost c N dt f x0 fun k => u k + t • v k) 0 0

/-- The problem is smooth along a trajectory and `A`, `B` are the derivatives of its dynamics there. -/
structure SmoothAlong (c : CF n m) (I : Iterate n m) (f : (Fin n → ℝ) → Nat → (Fin m → ℝ) → Fin n → ℝ)
    (lin : Lin n m) : Prop where
  dyn : ∀ k < I.N, HasFDerivAt (fun z : (Fin n → ℝ) × (Fin m → ℝ) => f z.1 k z.2)
    ((jacMap (lin (I.x k) (I.u k) (I.xShot k) k).1).coprod (jacMap (lin (I.x k) (I.u k) (I.xShot k) k).2))
    (I.x k, I.u k)
  run : ∀ k < I.N, DifferentiableAt ℝ (fun z : (Fin n → ℝ) × (Fin m → ℝ) => runningCost c z.1 z.2 (I.dt * k))
    (I.x k, I.u k)
  inter : ∀ τ ∈ c.inter, Exact τ
  fin : ∀ τ ∈ c.fin, Exact τ

/-- The current trajectory is a roll-out: it satisfies the dynamics and has no defects. -/
structure RolledOut (I : Iterate n m) (f : (Fin n → ℝ) → Nat → (Fin m → ℝ) → Fin n → ℝ) : Prop where
  dynamics : ∀ k < I.N, I.x (k + 1) = f (I.x k) k (I.u k)
  defects : ∀ k < I.N, I.d k = 0

/-- The control Hessians the solver works with are positive definite: eigenvalues are clamped at a positive `epsilon`
(then nothing is required of the problem), or the Hessians are positive definite after the fixed correction, or no
correction is needed. -/
def Regular (g : Settings m) (p : Problem n m) (s : Sol n m) : Prop :=
  (g.fixedHessianCorrection = false ∧ EigenSolver g.eig ∧ 0 < g.epsilon) ∨
  (g.fixedHessianCorrection = true ∧ 1 / 10 ^ 10 < g.epsilon ∧
    ∀ k < p.N, (s.H k + g.epsilon • (1 : Matrix (Fin m) (Fin m) ℝ)).PosDef) ∨
  ∀ k < p.N, NoReg g (s.H k)

/-- A line search of a single-shooting algorithm `a` on a problem without constraints: the members of the backend
hold the current trajectory and its costs, directions and gains are the ones `extractSolution` takes from the solution
of the linear-quadratic problem, costs are computed by `computeCostsOfTrajectory`, and the defect norm of zero defects
is zero. -/
structure Search (a : Algo) (cf : CF n m) (I : Iterate n m) (p : Problem n m) (sol : Sol n m) (w : Back n m)
    (c : CT.Nloc.LsCfg (Fin n → ℝ) (Fin m → ℝ) ℝ) (q : CT.Nloc.Dirs (Fin n → ℝ) (Fin m → ℝ))
    (s : CT.Nloc.LsState (Fin n → ℝ) (Fin m → ℝ) ℝ) : Prop where
  hK : c.roll.K = I.N
  hshot : 0 < c.roll.Kshot
  single : c.roll.single = true
  closed : c.roll.closed = a.closed
  noNaN : CT.Nloc.NoNaN c.roll
  gains : c.roll.L = (List.range I.N).map fun k z => (extractSolution a p sol w).1.L k *ᵥ z
  cost : ∀ x u, c.cost x u = (.fin (computeCostsOfTrajectory I.N I.dt (fun k => x.getD k 0) (fun k => u.getD k 0) cf).1,
    .fin (computeCostsOfTrajectory I.N I.dt (fun k => x.getD k 0) (fun k => u.getD k 0) cf).2)
  box : ∀ x u, c.box x u = .fin 0
  gen : ∀ x u, c.gen x u = .fin 0
  norm : ∀ k, c.defectNorm (List.replicate k 0) = .fin 0
  alpha0 : 0 < c.alpha0
  nAlpha : 0 < c.nAlpha ∧ c.nAlpha < 1
  back : w.x = I.x ∧ w.u = I.u
  x : s.x = (List.range (I.N + 1)).map I.x
  u : s.u = (List.range I.N).map I.u
  d : s.d = List.replicate (I.N + 1) 0
  fresh : CT.Nloc.Fresh c s
  dirs : q = ⟨(List.range I.N).map (extractSolution a p sol w).2.du,
    (List.range (I.N + 1)).map (extractSolution a p sol w).2.dx,
    (List.range (I.N + 1)).map (extractSolution a p sol w).2.dxRef⟩

/-! ### The linear-quadratic problem along a ray -/

/-- Slope of the linear-quadratic objective at zero. -/
noncomputable def lqSlope (p : Problem n m) (dx : Nat → Fin n → ℝ) (du : Nat → Fin m → ℝ) : ℝ :=
  ∑ k ∈ Finset.range p.N, (p.qv k ⬝ᵥ dx k + p.rv k ⬝ᵥ du k) + p.qv p.N ⬝ᵥ dx p.N

/-- Quadratic part of the linear-quadratic objective. -/
noncomputable def lqCurv (p : Problem n m) (dx : Nat → Fin n → ℝ) (du : Nat → Fin m → ℝ) : ℝ :=
  ∑ k ∈ Finset.range p.N, (1 / 2 * (dx k ⬝ᵥ (p.Q k *ᵥ dx k)) + 1 / 2 * (du k ⬝ᵥ (p.R k *ᵥ du k))
    + du k ⬝ᵥ (p.P k *ᵥ dx k)) + 1 / 2 * (dx p.N ⬝ᵥ (p.Q p.N *ᵥ dx p.N))

theorem lqCost_ray (p : Problem n m) (dx : Nat → Fin n → ℝ) (du : Nat → Fin m → ℝ) (t : ℝ) :
    lqCost p (fun k => t • dx k) (fun k => t • du k)
      = lqCost p (fun _ => 0) (fun _ => 0) + t * lqSlope p dx du + t ^ 2 * lqCurv p dx du := by
  simp only [lqCost, lqSlope, lqCurv, stageCost, terminalCost, mul_add, Finset.mul_sum, smul_dotProduct,
    dotProduct_smul, mulVec_smul, smul_eq_mul, zero_dotProduct, mulVec_zero, dotProduct_zero, mul_zero, add_zero,
    Finset.sum_add_distrib, dotProduct_comm (p.qv _), dotProduct_comm (p.rv _)]
  have e : ∀ F : Nat → ℝ, ∑ k ∈ Finset.range p.N, 1 / 2 * (t * (t * F k))
      = ∑ k ∈ Finset.range p.N, t ^ 2 * (1 / 2 * F k) := fun F => Finset.sum_congr rfl fun k _ => by ring
  have e' : ∀ F : Nat → ℝ, ∑ k ∈ Finset.range p.N, t * (t * F k)
      = ∑ k ∈ Finset.range p.N, t ^ 2 * F k := fun F => Finset.sum_congr rfl fun k _ => by ring
  rw [e, e, e']
  ring

theorem states_feasible (p : Problem n m) (w : Nat → Fin m → ℝ) : LqFeasible p (states p w) w :=
  ⟨rfl, fun _ _ => rfl⟩

theorem cost_ray (p : Problem n m) (hb : ∀ k < p.N, p.b k = 0) (dx : Nat → Fin n → ℝ) (w : Nat → Fin m → ℝ)
    (h : LqFeasible p dx w) (t : ℝ) :
    cost p (fun k => t • w k) = lqCost p (fun _ => 0) (fun _ => 0) + t * lqSlope p dx w + t ^ 2 * lqCurv p dx w := by
  rw [← lqCost_ray]
  refine cost_eq p _ _ ⟨by simp only [h.1, smul_zero], fun k hk => ?_⟩
  simp only
  rw [h.2 k hk, hb k hk, mulVec_smul, mulVec_smul, add_zero, add_zero, smul_add]

theorem controlPenalty_sum (D : Nat → Matrix (Fin m) (Fin m) ℝ) (w : Nat → Fin m → ℝ) (j k : Nat) :
    controlPenalty D w j k = ∑ i ∈ Finset.range j, 1 / 2 * (w (k + i) ⬝ᵥ (D (k + i) *ᵥ w (k + i))) := by
  induction j generalizing k with
  | zero => simp [controlPenalty]
  | succ j ih =>
    rw [controlPenalty, ih, Finset.sum_range_succ']
    simp only [Nat.add_zero, show ∀ i, k + 1 + i = k + (i + 1) from fun i => by omega]
    ring

theorem controlPenalty_ray (D : Nat → Matrix (Fin m) (Fin m) ℝ) (w : Nat → Fin m → ℝ) (j k : Nat) (t : ℝ) :
    controlPenalty D (fun k => t • w k) j k = t ^ 2 * controlPenalty D w j k := by
  simp only [controlPenalty_sum, Finset.mul_sum]
  refine Finset.sum_congr rfl fun i _ => ?_
  simp only [smul_dotProduct, dotProduct_smul, mulVec_smul, smul_eq_mul]
  ring

/-- What a solve minimises, in all regularisation modes. -/
theorem regular_minimises (g : Settings m) (p : Problem n m) (s0 s : Sol n m) (hs : solve g p s0 = .ok s)
    (hQ : (p.Q p.N)ᵀ = p.Q p.N) (hR : ∀ k, k < p.N → (p.R k)ᵀ = p.R k) (hr : Regular g p s) :
    ∃ D : Nat → Matrix (Fin m) (Fin m) ℝ, ∀ w,
      cost p (uSol p s) + controlPenalty D (uSol p s) p.N 0 ≤ cost p w + controlPenalty D w p.N 0 ∧
        (cost p w + controlPenalty D w p.N 0 = cost p (uSol p s) + controlPenalty D (uSol p s) p.N 0 →
          ∀ k, k < p.N → w k = uSol p s k) := by
  rcases hr with ⟨h1, h2, h3⟩ | ⟨h1, h2, h3⟩ | h
  · obtain ⟨D, -, -, hD⟩ := C38_clamped g p s0 s hs h1 h2 h3 hQ hR
    exact ⟨D, hD⟩
  · refine ⟨fun _ => g.epsilon • 1, fun w => ?_⟩
    have e : ∀ w : Nat → Fin m → ℝ, controlPenalty (fun _ => g.epsilon • (1 : Matrix (Fin m) (Fin m) ℝ)) w p.N 0
        = g.epsilon / 2 * ∑ k ∈ Finset.range p.N, w k ⬝ᵥ w k := by
      intro w
      rw [controlPenalty_sum, Finset.mul_sum]
      refine Finset.sum_congr rfl fun i _ => ?_
      rw [Nat.zero_add, smul_mulVec, one_mulVec, dotProduct_smul, smul_eq_mul]
      ring
    simp only [e]
    exact C38_fixed_correction g p s0 s hs h1 h2 hQ hR h3 w
  · refine ⟨fun _ => 0, fun w => ?_⟩
    have e : ∀ w : Nat → Fin m → ℝ, controlPenalty (fun _ => (0 : Matrix (Fin m) (Fin m) ℝ)) w p.N 0 = 0 := by
      intro w
      rw [controlPenalty_sum]
      simp
    simp only [e, add_zero]
    obtain ⟨a, b, -⟩ := C38_optimal g p s0 s hs hQ h w
    exact ⟨a, b⟩

/-- The solution goes down, unless it is zero; and it is zero exactly if the objective is flat at zero. -/
theorem slope_solution (g : Settings m) (p : Problem n m) (s0 s : Sol n m) (hs : solve g p s0 = .ok s)
    (hQ : (p.Q p.N)ᵀ = p.Q p.N) (hR : ∀ k, k < p.N → (p.R k)ᵀ = p.R k) (hr : Regular g p s)
    (hb : ∀ k < p.N, p.b k = 0) :
    ((∀ k < p.N, uSol p s k = 0) ∨ lqSlope p (xSol p s) (uSol p s) < 0) ∧
    ((∀ k < p.N, uSol p s k = 0) → ∀ dx w, LqFeasible p dx w → lqSlope p dx w = 0) := by
  obtain ⟨D, hD⟩ := regular_minimises g p s0 s hs hQ hR hr
  have ray : ∀ dx w, LqFeasible p dx w → ∀ t : ℝ,
      cost p (fun k => t • w k) + controlPenalty D (fun k => t • w k) p.N 0
        = lqCost p (fun _ => 0) (fun _ => 0) + t * lqSlope p dx w
          + t ^ 2 * (lqCurv p dx w + controlPenalty D w p.N 0) := by
    intro dx w h t
    rw [cost_ray p hb dx w h, controlPenalty_ray]
    ring
  have sol := ray _ _ (sol_feasible p s)
  have sol1 := sol 1
  simp only [one_smul] at sol1
  refine ⟨?_, fun h0 dx w h => ?_⟩
  · obtain ⟨m0, u0⟩ := hD fun k => (0 : ℝ) • uSol p s k
    obtain ⟨m2, -⟩ := hD fun k => (2 : ℝ) • uSol p s k
    rw [sol 0] at m0 u0
    rw [sol 2] at m2
    by_cases hl : lqSlope p (xSol p s) (uSol p s) < 0
    · exact Or.inr hl
    · left
      have h0 : lqCurv p (xSol p s) (uSol p s) + controlPenalty D (uSol p s) p.N 0 = 0 := by nlinarith
      have h1 : lqSlope p (xSol p s) (uSol p s) = 0 := by nlinarith
      intro k hk
      have := u0 (by rw [sol1, h0, h1]; ring) k hk
      rw [← this, zero_smul]
  · have hz : ∀ t : ℝ, 0 ≤ t * lqSlope p dx w + t ^ 2 * (lqCurv p dx w + controlPenalty D w p.N 0) := by
      intro t
      obtain ⟨a, -⟩ := hD fun k => t • w k
      rw [ray dx w h t] at a
      have z : cost p (uSol p s) + controlPenalty D (uSol p s) p.N 0 = lqCost p (fun _ => 0) (fun _ => 0) := by
        obtain ⟨b, -⟩ := hD fun k => (0 : ℝ) • w k
        rw [ray dx w h 0] at b
        have c1 : lqSlope p (xSol p s) (uSol p s) = 0 := by
          have hx : ∀ k ≤ p.N, xSol p s k = 0 := by
            intro k
            induction k with
            | zero => intro _; rfl
            | succ k ih =>
              intro hk
              have e := (sol_feasible p s).2 k (by omega)
              rw [ih (by omega), h0 k (by omega), hb k (by omega)] at e
              simpa using e
          rw [lqSlope, hx p.N le_rfl, Finset.sum_eq_zero fun k hk => by
            rw [hx k (Finset.mem_range.1 hk).le, h0 k (Finset.mem_range.1 hk)]; simp]
          simp
        have c2 := sol 0
        have c3 := sol 2
        have k0 : ∀ t : ℝ, cost p (fun k => t • uSol p s k) + controlPenalty D (fun k => t • uSol p s k) p.N 0
            ≥ cost p (uSol p s) + controlPenalty D (uSol p s) p.N 0 := fun t => (hD _).1
        have k1 := k0 0
        have k2 := k0 2
        rw [c2, sol1] at k1
        rw [c3, sol1] at k2
        rw [sol1]
        nlinarith
      linarith
    have a := hz 1
    have b := hz (-1)
    set l := lqSlope p dx w
    set c := lqCurv p dx w + controlPenalty D w p.N 0
    have hc : 0 ≤ c := by nlinarith
    rcases eq_or_lt_of_le hc with h' | h'
    · rw [← h'] at a b; linarith
    · have := hz (-(l / (2 * c)))
      have e : -(l / (2 * c)) * l + (-(l / (2 * c))) ^ 2 * c = -(l ^ 2 / (4 * c)) := by field_simp; ring
      rw [e] at this
      have : l ^ 2 / (4 * c) ≤ 0 := by linarith
      have h4 : l ^ 2 ≤ 0 := by
        rw [div_le_iff₀ (by linarith)] at this
        linarith
      exact pow_eq_zero_iff (two_ne_zero) |>.1 (le_antisymm h4 (sq_nonneg l))

/-! ### Derivatives along curves of trajectories -/

/-- A function with given partial gradients that is differentiable has them as its derivative. -/
theorem joint_grad {F : (Fin n → ℝ) × (Fin m → ℝ) → ℝ} {x : Fin n → ℝ} {u : Fin m → ℝ} {a : Fin n → ℝ}
    {b : Fin m → ℝ} (h : DifferentiableAt ℝ F (x, u)) (ha : IsGrad (fun y => F (y, u)) a x)
    (hb : IsGrad (fun v => F (x, v)) b u) :
    HasFDerivAt F ((gradMap a).coprod (gradMap b)) (x, u) := by
  have hF := h.hasFDerivAt
  refine hF.congr_fderiv ?_
  have h1 : (fderiv ℝ F (x, u)).comp (ContinuousLinearMap.inl ℝ (Fin n → ℝ) (Fin m → ℝ)) = gradMap a :=
    HasFDerivAt.unique (hF.comp x (hasFDerivAt_prodMk_left x u)) ha
  have h2 : (fderiv ℝ F (x, u)).comp (ContinuousLinearMap.inr ℝ (Fin n → ℝ) (Fin m → ℝ)) = gradMap b :=
    HasFDerivAt.unique (hF.comp u (hasFDerivAt_prodMk_right x u)) hb
  rw [← h1, ← h2]
  ext z <;> simp

/-- The Jacobian of a gradient is symmetric. -/
theorem jac_grad_sym {F : (Fin n → ℝ) → ℝ} {g : (Fin n → ℝ) → Fin n → ℝ} {x : Fin n → ℝ}
    {M : Matrix (Fin n) (Fin n) ℝ} (h : ∀ y, IsGrad F (g y) y) (hM : IsJac g M x) : Mᵀ = M := by
  let G : (Fin n → ℝ) →ₗ[ℝ] ((Fin n → ℝ) →L[ℝ] ℝ) :=
    { toFun := gradMap
      map_add' := fun a b => by ext v; simp [add_dotProduct]
      map_smul' := fun a b => by ext v; simp }
  have h1 : HasFDerivAt (fun y => gradMap (g y)) ((LinearMap.toContinuousLinearMap G).comp (jacMap M)) x :=
    (LinearMap.toContinuousLinearMap G).hasFDerivAt.comp x hM
  have h2 := second_derivative_symmetric h h1
  ext i j
  have := h2 (Pi.single i 1) (Pi.single j 1)
  simpa [G] using this

/-- Derivative of the cost along a curve of trajectories. -/
theorem curve_deriv (c : CF n m) (I : Iterate n m) (f : (Fin n → ℝ) → Nat → (Fin m → ℝ) → Fin n → ℝ)
    (p : Problem n m) (hN : p.N = I.N)
    (hdyn : ∀ k < I.N, HasFDerivAt (fun z : (Fin n → ℝ) × (Fin m → ℝ) => f z.1 k z.2)
      ((jacMap (p.A k)).coprod (jacMap (p.B k))) (I.x k, I.u k))
    (hrun : ∀ k < I.N, HasFDerivAt (fun z : (Fin n → ℝ) × (Fin m → ℝ) => I.dt * runningCost c z.1 z.2 (I.dt * k))
      ((gradMap (p.qv k)).coprod (gradMap (p.rv k))) (I.x k, I.u k))
    (hfin : IsGrad (fun y => finalCost c y (I.dt * I.N)) (p.qv I.N) (I.x I.N))
    (X : ℝ → Nat → Fin n → ℝ) (U : ℝ → Nat → Fin m → ℝ) (hX0 : ∀ t, X t 0 = I.x 0)
    (hXs : ∀ t, ∀ k < I.N, X t (k + 1) = f (X t k) k (U t k)) (hXb : ∀ k ≤ I.N, X 0 k = I.x k)
    (hUb : ∀ k < I.N, U 0 k = I.u k) (dx : Nat → Fin n → ℝ) (du : Nat → Fin m → ℝ) (h0 : dx 0 = 0)
    (hs : ∀ k < I.N, dx (k + 1) = p.A k *ᵥ dx k + p.B k *ᵥ du k)
    (hU : ∀ k < I.N, HasDerivAt (fun t => X t k) (dx k) 0 → HasDerivAt (fun t => U t k) (du k) 0) :
    HasDerivAt (fun t => trajectoryCost c I.N I.dt (X t) (U t)) (lqSlope p dx du) 0 := by
  have hX : ∀ k ≤ I.N, HasDerivAt (fun t => X t k) (dx k) 0 := by
    intro k
    induction k with
    | zero =>
      intro _
      simp only [hX0, h0]
      exact hasDerivAt_const _ _
    | succ k ih =>
      intro hk
      have e1 := ih (by omega)
      have e2 := hU k (by omega) e1
      have hd := hdyn k (by omega)
      rw [← hXb k (by omega), ← hUb k (by omega)] at hd
      have := HasFDerivAt.comp_hasDerivAt (f := fun t : ℝ => (X t k, U t k)) 0 hd (e1.prodMk e2)
      simp only [hXs _ k (by omega : k < I.N)]
      refine this.congr_deriv ?_
      rw [hs k (by omega)]
      simp
  have hr : ∀ k ∈ Finset.range I.N, HasDerivAt (fun t => I.dt * runningCost c (X t k) (U t k) (I.dt * k))
      (p.qv k ⬝ᵥ dx k + p.rv k ⬝ᵥ du k) 0 := by
    intro k hk
    have hk := Finset.mem_range.1 hk
    have hd := hrun k hk
    rw [← hXb k hk.le, ← hUb k hk] at hd
    have := HasFDerivAt.comp_hasDerivAt (f := fun t : ℝ => (X t k, U t k)) 0 hd ((hX k hk.le).prodMk (hU k hk (hX k hk.le)))
    refine this.congr_deriv ?_
    simp
  have hf : HasDerivAt (fun t => finalCost c (X t I.N) (I.dt * I.N)) (p.qv I.N ⬝ᵥ dx I.N) 0 := by
    unfold IsGrad at hfin
    rw [← hXb I.N le_rfl] at hfin
    have := HasFDerivAt.comp_hasDerivAt (f := fun t : ℝ => X t I.N) 0 hfin (hX I.N le_rfl)
    exact this.congr_deriv (by simp)
  have := (HasDerivAt.fun_sum hr).fun_add hf
  simp only [trajectoryCost, Finset.mul_sum, lqSlope, hN]
  exact this

/-- The approximation of a smooth problem at a roll-out. -/
structure Ready (c : CF n m) (I : Iterate n m) (f : (Fin n → ℝ) → Nat → (Fin m → ℝ) → Fin n → ℝ)
    (p : Problem n m) : Prop where
  hN : p.N = I.N
  hb : ∀ k < p.N, p.b k = 0
  hQ : (p.Q p.N)ᵀ = p.Q p.N
  hR : ∀ k, k < p.N → (p.R k)ᵀ = p.R k
  hdyn : ∀ k < I.N, HasFDerivAt (fun z : (Fin n → ℝ) × (Fin m → ℝ) => f z.1 k z.2)
      ((jacMap (p.A k)).coprod (jacMap (p.B k))) (I.x k, I.u k)
  hrun : ∀ k < I.N, HasFDerivAt (fun z : (Fin n → ℝ) × (Fin m → ℝ) => I.dt * runningCost c z.1 z.2 (I.dt * k))
      ((gradMap (p.qv k)).coprod (gradMap (p.rv k))) (I.x k, I.u k)
  hfin : IsGrad (fun y => finalCost c y (I.dt * I.N)) (p.qv I.N) (I.x I.N)

theorem ready (c : CF n m) (I : Iterate n m) (lin : Lin n m) (p : Problem n m) (hN : p.N = I.N) (h0 : 0 < I.N)
    (f : (Fin n → ℝ) → Nat → (Fin m → ℝ) → Fin n → ℝ) (hs : SmoothAlong c I f lin) (hr : RolledOut I f) :
    Ready c I f (computeLQApproximation I lin 0 (I.N - 1) (c, p)).2 := by
  obtain ⟨h1, -, h3, -, -⟩ := C106_contents c I lin p hN h0
  obtain ⟨d1, d2, g, d3, d4⟩ := C106_derivatives c I lin p hN h0 hs.inter hs.fin
  refine ⟨h1, fun k hk => ?_, ?_, fun k hk => ?_, fun k hk => ?_, fun k hk => ?_, d2⟩
  · rw [(h3 k (by omega)).b, hr.defects k (by omega)]
  · rw [h1]
    exact jac_grad_sym d3 d4
  · obtain ⟨-, -, -, ⟨g', e1, e2⟩, -⟩ := d1 k (by omega)
    exact jac_grad_sym e1 e2
  · rw [(h3 k hk).A, (h3 k hk).B]
    exact hs.dyn k hk
  · obtain ⟨e1, e2, -⟩ := d1 k hk
    exact joint_grad ((hs.run k hk).const_mul I.dt) e1 e2

theorem simulate_rolled {I : Iterate n m} {f : (Fin n → ℝ) → Nat → (Fin m → ℝ) → Fin n → ℝ} (hr : RolledOut I f) :
    ∀ k ≤ I.N, simulate f (I.x 0) I.u k = I.x k := by
  intro k
  induction k with
  | zero => intro _; rfl
  | succ k ih =>
    intro hk
    rw [simulate, ih (by omega), ← hr.dynamics k (by omega)]

theorem simulate_congr {f : (Fin n → ℝ) → Nat → (Fin m → ℝ) → Fin n → ℝ} {x0 : Fin n → ℝ} {u v : Nat → Fin m → ℝ}
    (k : Nat) (h : ∀ i < k, u i = v i) : simulate f x0 u k = simulate f x0 v k := by
  induction k with
  | zero => rfl
  | succ k ih => rw [simulate, simulate, ih fun i hi => h i (by omega), h k (by omega)]

/-- The slope of the linear-quadratic objective is the derivative of the cost of the control sequence. -/
theorem Ready.deriv {c : CF n m} {I : Iterate n m} {f : (Fin n → ℝ) → Nat → (Fin m → ℝ) → Fin n → ℝ}
    {p : Problem n m} (h : Ready c I f p) (hr : RolledOut I f) (dx : Nat → Fin n → ℝ) (v : Nat → Fin m → ℝ)
    (hf : LqFeasible p dx v) :
    HasDerivAt (fun t : ℝ => controlCost c I.N I.dt f (I.x 0) fun k => I.u k + t • v k) (lqSlope p dx v) 0 := by
  refine curve_deriv c I f p h.hN h.hdyn h.hrun h.hfin
    (fun t => simulate f (I.x 0) fun k => I.u k + t • v k) (fun t k => I.u k + t • v k) (fun _ => rfl)
    (fun _ _ _ => rfl) (fun k hk => ?_) (fun k _ => by simp) dx v hf.1 (fun k hk => ?_) (fun k _ _ => ?_)
  · rw [← simulate_rolled hr k hk]
    exact simulate_congr k fun i _ => by simp
  · rw [hf.2 k (by rw [h.hN]; exact hk), h.hb k (by rw [h.hN]; exact hk), add_zero]
  · have := ((hasDerivAt_id (0 : ℝ)).smul_const (v k)).const_add (I.u k)
    exact this.congr_deriv (by simp)

/-! ### C176 -/

/-- C176, where it stops: at a roll-out of a smooth problem the solution of the linear-quadratic approximation is the
zero step exactly if the control sequence is a stationary point of the nonlinear problem. -/
theorem C176_stationary (c : CF n m) (I : Iterate n m) (lin : Lin n m) (p : Problem n m) (hN : p.N = I.N)
    (h0 : 0 < I.N) (f : (Fin n → ℝ) → Nat → (Fin m → ℝ) → Fin n → ℝ) (hs : SmoothAlong c I f lin)
    (hr : RolledOut I f) (g : Settings m) (s0 s : Sol n m)
    (e : solve g (computeLQApproximation I lin 0 (I.N - 1) (c, p)).2 s0 = .ok s)
    (hreg : Regular g (computeLQApproximation I lin 0 (I.N - 1) (c, p)).2 s) :
    (∀ k < I.N, uSol (computeLQApproximation I lin 0 (I.N - 1) (c, p)).2 s k = 0) ↔
      Stationary c I.N I.dt f (I.x 0) I.u := by
  have H := ready c I lin p hN h0 f hs hr
  revert e hreg H
  generalize (computeLQApproximation I lin 0 (I.N - 1) (c, p)).2 = r
  intro e hreg H
  obtain ⟨a, b⟩ := slope_solution g r s0 s e H.hQ H.hR hreg H.hb
  rw [H.hN] at a b
  constructor
  · intro hz v
    have := H.deriv hr _ v (states_feasible r v)
    rwa [b hz _ _ (states_feasible r v)] at this
  · intro hst
    rcases a with a | a
    · exact a
    · have := (H.deriv hr _ _ (sol_feasible r s)).unique (hst (uSol r s))
      rw [this] at a
      exact absurd a (lt_irrefl 0)

/-- C176, direction: if the control sequence is not a stationary point, the cost decreases along the solution of the
linear-quadratic approximation. -/
theorem C176_descent (c : CF n m) (I : Iterate n m) (lin : Lin n m) (p : Problem n m) (hN : p.N = I.N)
    (h0 : 0 < I.N) (f : (Fin n → ℝ) → Nat → (Fin m → ℝ) → Fin n → ℝ) (hs : SmoothAlong c I f lin)
    (hr : RolledOut I f) (g : Settings m) (s0 s : Sol n m)
    (e : solve g (computeLQApproximation I lin 0 (I.N - 1) (c, p)).2 s0 = .ok s)
    (hreg : Regular g (computeLQApproximation I lin 0 (I.N - 1) (c, p)).2 s)
    (hst : ¬ Stationary c I.N I.dt f (I.x 0) I.u) :
    ∃ d < 0, HasDerivAt (fun t : ℝ => controlCost c I.N I.dt f (I.x 0) fun k =>
      I.u k + t • uSol (computeLQApproximation I lin 0 (I.N - 1) (c, p)).2 s k) d 0 := by
  have hz := mt (C176_stationary c I lin p hN h0 f hs hr g s0 s e hreg).1 hst
  have H := ready c I lin p hN h0 f hs hr
  revert e hreg H hz
  generalize (computeLQApproximation I lin 0 (I.N - 1) (c, p)).2 = r
  intro e hreg hz H
  obtain ⟨a, -⟩ := slope_solution g r s0 s e H.hQ H.hR hreg H.hb
  rw [H.hN] at a
  exact ⟨_, a.resolve_left hz, H.deriv hr _ _ (sol_feasible r s)⟩

/-! ### The candidates of the line search -/

theorem getD_range_map {T : Type} (N k : Nat) (F : Nat → T) (d : T) (h : k < N) :
    ((List.range N).map F).getD k d = F k := by
  simp [List.getD_eq_getElem?_getD, h]

theorem getD_step {T : Type} [AddCommGroup T] [Module ℝ T] (N k : Nat) (F G : Nat → T) (t : ℝ) (h : k < N) :
    (List.zipWith (· + ·) (((List.range N).map F).map fun v => t • v) ((List.range N).map G)).getD k 0
      = t • F k + G k := by
  simp [List.getD_eq_getElem?_getD, h]

/-- Trajectory and controls of the candidate for step size `t`. -/
structure Follows (a : Algo) (I : Iterate n m) (f : (Fin n → ℝ) → Nat → (Fin m → ℝ) → Fin n → ℝ) (p : Problem n m)
    (sol : Sol n m) (w : Back n m) (t : ℝ) (X : Nat → Fin n → ℝ) (U : Nat → Fin m → ℝ) : Prop where
  start : X 0 = I.x 0
  step : ∀ k < I.N, X (k + 1) = f (X k) k (U k)
  control : ∀ k < I.N, U k = (t • (extractSolution a p sol w).2.du k + I.u k)
    + if a.closed then (extractSolution a p sol w).1.L k *ᵥ
        (X k - (t • (extractSolution a p sol w).2.dxRef k + I.x k)) else 0

section search

open CT.Nloc

variable {a : Algo} {cf : CF n m} {I : Iterate n m} {p : Problem n m} {sol : Sol n m} {w : Back n m}
  {c : LsCfg (Fin n → ℝ) (Fin m → ℝ) ℝ} {q : Dirs (Fin n → ℝ) (Fin m → ℝ)}
  {s : LsState (Fin n → ℝ) (Fin m → ℝ) ℝ}

theorem Search.sizes (h : Search a cf I p sol w c q s) (h0 : 0 < I.N) : LsSizes c q s := by
  refine ⟨by rw [h.hK]; exact h0, h.hshot, ?_, ?_, ?_, ?_, ?_, fun _ => ?_⟩
  · simp [h.x, h.hK]
  · simp [h.u, h.hK]
  · simp [h.dirs, h.hK]
  · simp [h.dirs, h.hK]
  · simp [h.dirs, h.hK]
  · simp [h.gains, h.hK]

/-- The merit of a defect-free trajectory is its cost. -/
theorem Search.merit_eq (h : Search a cf I p sol w c q s) (hon : OnOff cf.inter) (x : List (Fin n → ℝ))
    (u : List (Fin m → ℝ)) (j : Nat) :
    merit c x u (List.replicate j 0)
      = .fin (trajectoryCost cf I.N I.dt (fun k => x.getD k 0) fun k => u.getD k 0) := by
  simp only [merit, h.cost, h.box, h.gen, h.norm, C106_cost_partial cf hon, trajectoryCost, Fl.add, Fl.mul]
  simp

theorem Search.begin_eq (h : Search a cf I p sol w c q s) (hon : OnOff cf.inter) :
    (beginSearch c s).lowest = .fin (trajectoryCost cf I.N I.dt I.x I.u) := by
  have e : (beginSearch c s).lowest = merit c s.x s.u s.d := by
    simp [beginSearch, newMerit, merit, h.fresh.ic, h.fresh.fc, h.fresh.box, h.fresh.gen]
  rw [e, h.d, h.merit_eq hon]
  congr 1
  refine trajectoryCost_congr cf I.N I.dt (fun k hk => ?_) fun k hk => ?_
  · rw [h.x, getD_range_map _ _ _ _ (by omega)]
  · rw [h.u, getD_range_map _ _ _ _ hk]

/-- Every candidate follows the law of its algorithm and its merit is its cost. -/
theorem Search.candidate (h : Search a cf I p sol w c q s) (hon : OnOff cf.inter) (h0 : 0 < I.N)
    (hdx : (extractSolution a p sol w).2.dx 0 = 0) (t : ℝ) :
    ∃ k, Candidate c q s t k ∧
      Follows a I c.roll.f p sol w t (fun i => k.r.x.getD i 0) (fun i => k.r.u.getD i 0) ∧
      k.r.x.length = I.N + 1 ∧ k.r.u.length = I.N ∧
      newMerit c k.ic k.fc k.dn k.eb k.eg
        = .fin (trajectoryCost cf I.N I.dt (fun i => k.r.x.getD i 0) fun i => k.r.u.getD i 0) := by
  obtain ⟨k, e1, e2, e3, e4, e5, e6, e7, e8, e9, e10⟩ := candidate_rollout (h.sizes h0) h.noNaN t
  have hsp : c.roll.stepsPerShot = I.N := by simp [RollCfg.stepsPerShot, h.single, h.hK]
  rw [h.hK, hsp] at e2
  have hin : ∀ i < I.N, k.d.getD i 0 = 0 := fun i hi => e2.inside i hi (by
    rintro ⟨h1, j, hj⟩
    rcases Nat.eq_zero_or_pos j with hj0 | hj0
    · subst hj0; omega
    · have := Nat.mul_le_mul_left I.N hj0; omega)
  have hd : k.d = List.replicate (I.N + 1) 0 := by
    have hl : k.d.length = I.N + 1 := by rw [e5, h.hK]; simp [defects]
    refine List.ext_getElem (by simp [hl]) fun i h1 h2 => ?_
    rw [← List.getD_eq_getElem _ 0 h1, List.getElem_replicate]
    rcases Nat.lt_or_ge i I.N with hi | hi
    · exact hin i hi
    · have : i = I.N := by omega
      subst this
      rw [e5, h.hK]
      simp [defects, List.getD_eq_getElem?_getD]
  refine ⟨k, e1, ⟨?_, fun i hi => ?_, fun i hi => ?_⟩, by rw [e3, h.hK], by rw [e4, h.hK], ?_⟩
  · have := e2.shotStart 0 h0 (dvd_zero _)
    simp only at this ⊢
    rw [this, h.dirs, h.x, getD_step _ _ _ _ _ (by omega), hdx, smul_zero, zero_add]
  · have := e2.dynamics i hi
    rw [hin i hi, add_zero] at this
    exact this
  · have := e2.controls i hi
    simp only at this ⊢
    rw [this, RollCfg.law, h.closed, h.dirs, h.x, h.u]
    simp only
    cases a.closed
    · simp only [Bool.false_eq_true, if_false]
      rw [getD_step _ _ _ _ _ hi, add_zero]
    · simp only [if_true]
      rw [getD_step _ _ _ _ _ hi, getD_step _ _ _ _ _ (by omega), h.gains, getD_range_map _ _ _ _ hi]
  · have e : newMerit c k.ic k.fc k.dn k.eb k.eg = merit c k.r.x k.r.u k.d := by
      rw [e6, e7, e8, e9, e10]; rfl
    rw [e, hd, h.merit_eq hon]

theorem single_dx (ha : a.single = true) : (extractSolution a p sol w).2.dx 0 = 0 := by
  cases a <;> simp [Algo.single] at ha <;> rfl

/-- With a zero solution (or step size zero) the candidate is the current trajectory. -/
theorem follows_current {f : (Fin n → ℝ) → Nat → (Fin m → ℝ) → Fin n → ℝ} (ha : a.single = true)
    (hw : w.x = I.x ∧ w.u = I.u) (hr : RolledOut I f) (t : ℝ) (X : Nat → Fin n → ℝ) (U : Nat → Fin m → ℝ)
    (hF : Follows a I f p sol w t X U)
    (hz : t = 0 ∨ (p.N = I.N ∧ (∀ k < I.N, p.b k = 0) ∧ ∀ k < I.N, uSol p sol k = 0)) :
    (∀ k ≤ I.N, X k = I.x k) ∧ ∀ k < I.N, U k = I.u k := by
  have hxs : t = 0 ∨ ∀ k ≤ I.N, xSol p sol k = 0 := by
    rcases hz with hz | ⟨h1, h2, h3⟩
    · exact Or.inl hz
    · right
      intro k
      induction k with
      | zero => intro _; rfl
      | succ k ih =>
        intro hk
        have e := (sol_feasible p sol).2 k (by omega)
        rw [ih (by omega), h3 k (by omega), h2 k (by omega)] at e
        simpa using e
  have hdu : ∀ k < I.N, t • (extractSolution a p sol w).2.du k = 0 := by
    intro k hk
    rcases hz with hz | ⟨h1, h2, h3⟩
    · rw [hz, zero_smul]
    · have e := h3 k hk
      have e' := (hxs.resolve_left · k hk.le)
      by_cases ht : t = 0
      · rw [ht, zero_smul]
      · have e' := e' ht
        have hl : sol.lv k = 0 := by
          rw [uSol, e', mulVec_zero, add_zero] at e
          exact e
        cases a <;> simp [Algo.single] at ha <;> simp [extractSolution, e, hl]
  have hdr : ∀ k ≤ I.N, t • (extractSolution a p sol w).2.dxRef k = 0 := by
    intro k hk
    rcases hxs with h | h
    · rw [h, zero_smul]
    · cases a <;> simp [Algo.single] at ha <;> simp [extractSolution, h k hk]
  have hU : ∀ k < I.N, X k = I.x k → U k = I.u k := by
    intro k hk e
    rw [hF.control k hk, hdu k hk, hdr k hk.le, e]
    simp
  have hX : ∀ k ≤ I.N, X k = I.x k := by
    intro k
    induction k with
    | zero => intro _; exact hF.start
    | succ k ih =>
      intro hk
      rw [hF.step k (by omega), hU k (by omega) (ih (by omega)), ih (by omega), ← hr.dynamics k (by omega)]
  exact ⟨hX, fun k hk => hU k hk (hX k hk.le)⟩

/-- The cost of the candidates has the slope of the linear-quadratic solution at step size zero. -/
theorem follows_deriv {f : (Fin n → ℝ) → Nat → (Fin m → ℝ) → Fin n → ℝ} (ha : a.single = true)
    (hw : w.x = I.x ∧ w.u = I.u) (H : Ready cf I f p) (hr : RolledOut I f) (X : ℝ → Nat → Fin n → ℝ)
    (U : ℝ → Nat → Fin m → ℝ) (hF : ∀ t, Follows a I f p sol w t (X t) (U t)) :
    HasDerivAt (fun t => trajectoryCost cf I.N I.dt (X t) (U t)) (lqSlope p (xSol p sol) (uSol p sol)) 0 := by
  obtain ⟨b1, b2⟩ := follows_current ha hw hr 0 (X 0) (U 0) (hF 0) (Or.inl rfl)
  refine curve_deriv cf I f p H.hN H.hdyn H.hrun H.hfin X U (fun t => (hF t).start) (fun t => (hF t).step) b1 b2
    (xSol p sol) (uSol p sol) rfl (fun k hk => ?_) fun k hk hX => ?_
  · have := (sol_feasible p sol).2 k (by rw [H.hN]; exact hk)
    rw [this, H.hb k (by rw [H.hN]; exact hk), add_zero]
  · have e : (fun t => U t k) = fun t => (t • (extractSolution a p sol w).2.du k + I.u k)
        + if a.closed then (extractSolution a p sol w).1.L k *ᵥ
          (X t k - (t • (extractSolution a p sol w).2.dxRef k + I.x k)) else 0 :=
      funext fun t => (hF t).control k hk
    rw [e]
    have lin : ∀ {d : Nat} (v y : Fin d → ℝ), HasDerivAt (fun t : ℝ => t • v + y) v 0 := fun v y =>
      (((hasDerivAt_id (0 : ℝ)).smul_const v).add_const y).congr_deriv (by simp)
    have mv : ∀ (M : Matrix (Fin m) (Fin n) ℝ) (v : Fin n → ℝ),
        HasDerivAt (fun t => M *ᵥ (X t k - (t • v + I.x k))) (M *ᵥ (xSol p sol k - v)) 0 := fun M v => by
      have h1 := hX.fun_sub (lin v (I.x k))
      exact HasFDerivAt.comp_hasDerivAt (f := fun t => X t k - (t • v + I.x k)) 0 (jacMap M).hasFDerivAt h1
    cases a <;> simp [Algo.single] at ha
    · refine ((lin (sol.lv k) (I.u k)).fun_add (mv (sol.L k) 0)).congr_deriv ?_
      simp [uSol]
    · refine ((lin (uSol p sol k) (I.u k)).fun_add (hasDerivAt_const _ _)).congr_deriv ?_
      simp
    · refine ((lin (uSol p sol k) (I.u k)).fun_add (mv (sol.L k) (xSol p sol k))).congr_deriv ?_
      simp

end search

open CT.Nloc in
/-- C176, line search: for each of the three single-shooting algorithms, with the simple line search on a smooth problem
without constraints. If the current controls are not a stationary point, the search finds a step, provided it may try
enough step sizes, and the cost of the new trajectory is strictly smaller. If they are stationary, it takes no step and
reports that nothing better was found, however many step sizes it may try. -/
theorem C176_line_search (a : Algo) (ha : a.single = true) (cf : CF n m) (hon : OnOff cf.inter) (I : Iterate n m)
    (lin : Lin n m) (p : Problem n m) (hN : p.N = I.N) (h0 : 0 < I.N)
    (c : LsCfg (Fin n → ℝ) (Fin m → ℝ) ℝ) (hs : SmoothAlong cf I c.roll.f lin) (hr : RolledOut I c.roll.f)
    (g : Settings m) (s0 sol : Sol n m) (e : solve g (computeLQApproximation I lin 0 (I.N - 1) (cf, p)).2 s0 = .ok sol)
    (hreg : Regular g (computeLQApproximation I lin 0 (I.N - 1) (cf, p)).2 sol) (w : Back n m)
    (q : Dirs (Fin n → ℝ) (Fin m → ℝ)) (s : LsState (Fin n → ℝ) (Fin m → ℝ) ℝ) (ht : c.type = .simple)
    (hS : Search a cf I (computeLQApproximation I lin 0 (I.N - 1) (cf, p)).2 sol w c q s) :
    (¬ Stationary cf I.N I.dt c.roll.f (I.x 0) I.u → ∃ M, ∀ max, M ≤ max → ∃ s' b,
      lineSearch { c with maxIterations := max } q s = Res.ok (s', b) ∧ s'.alphaBest ≠ 0 ∧
      trajectoryCost cf I.N I.dt (fun k => s'.x.getD k 0) (fun k => s'.u.getD k 0)
        < trajectoryCost cf I.N I.dt I.x I.u) ∧
    (Stationary cf I.N I.dt c.roll.f (I.x 0) I.u → ∀ max, ∃ s',
      lineSearch { c with maxIterations := max } q s = Res.ok (s', false) ∧ s'.alphaBest = 0 ∧ s'.x = s.x ∧
      s'.u = s.u) := by
  have hst := C176_stationary cf I lin p hN h0 c.roll.f hs hr g s0 sol e hreg
  have H := ready cf I lin p hN h0 c.roll.f hs hr
  revert e hreg H hst hS
  generalize (computeLQApproximation I lin 0 (I.N - 1) (cf, p)).2 = r
  intro e hreg hS hst H
  have cand := fun t => hS.candidate hon h0 (single_dx ha) t
  have low := hS.begin_eq hon
  -- the number of step sizes does not change candidates and acceptance
  have acc : ∀ max t, Acceptable { c with maxIterations := max } q s t ↔ Acceptable c q s t := fun _ _ => Iff.rfl
  have run : ∀ max, ∃ s' b, lineSearch { c with maxIterations := max } q s = Res.ok (s', b) := fun max => by
    obtain ⟨⟨s', b⟩, hsb⟩ := C55_returns { c with maxIterations := max } q s (Or.inl ht)
      ⟨(hS.sizes h0).hK, (hS.sizes h0).hshot, (hS.sizes h0).hx, (hS.sizes h0).hu, (hS.sizes h0).hdx,
        (hS.sizes h0).hdu, (hS.sizes h0).hdr, (hS.sizes h0).hL⟩
    exact ⟨s', b, hsb⟩
  choose K hK using cand
  constructor
  · intro hns
    have hz := mt hst.1 hns
    obtain ⟨hsl, -⟩ := slope_solution g r s0 sol e H.hQ H.hR hreg H.hb
    rw [H.hN] at hsl
    have hneg := hsl.resolve_left hz
    have hder := follows_deriv ha hS.back H hr (fun t i => (K t).r.x.getD i 0) (fun t i => (K t).r.u.getD i 0)
      fun t => (hK t).2.1
    set φ : ℝ → ℝ := fun t => trajectoryCost cf I.N I.dt (fun i => (K t).r.x.getD i 0) fun i => (K t).r.u.getD i 0
      with hφ
    have φ0 : φ 0 = trajectoryCost cf I.N I.dt I.x I.u := by
      obtain ⟨b1, b2⟩ := follows_current ha hS.back hr 0 _ _ (hK 0).2.1 (Or.inl rfl)
      exact trajectoryCost_congr cf I.N I.dt b1 b2
    -- step sizes tend to zero
    have hlim : Tendsto (fun j : ℕ => c.alpha0 * c.nAlpha ^ j) atTop (𝓝[≠] 0) := by
      refine tendsto_nhdsWithin_iff.2 ⟨?_, Eventually.of_forall fun j => ?_⟩
      · have := (tendsto_pow_atTop_nhds_zero_of_lt_one hS.nAlpha.1.le hS.nAlpha.2).const_mul c.alpha0
        simpa using this
      · exact (mul_pos hS.alpha0 (pow_pos hS.nAlpha.1 j)).ne'
    have hev := (hasDerivAt_iff_tendsto_slope.1 hder).comp hlim |>.eventually (gt_mem_nhds hneg)
    obtain ⟨j, hj⟩ := hev.exists
    have hjpos := mul_pos hS.alpha0 (pow_pos hS.nAlpha.1 j)
    have hlt : φ (c.alpha0 * c.nAlpha ^ j) < φ 0 := by
      simp only [Function.comp, slope_def_field, sub_zero] at hj
      have := (div_neg_iff.1 hj).resolve_left fun h => absurd h.2 (not_lt.2 hjpos.le)
      linarith [this.1]
    have hA : Acceptable c q s (c.alpha0 * c.nAlpha ^ j) := by
      refine (C55_acceptable_simple c q s _ ht).2 ⟨_, (hK _).1, ?_⟩
      rw [(hK _).2.2.2.2, low, ← φ0]
      exact hlt
    refine ⟨j + 1, fun max hmax => ?_⟩
    obtain ⟨s', b, hsb⟩ := run max
    refine ⟨s', b, hsb, ?_⟩
    rcases C55_first { c with maxIterations := max } q s s' b (by simp [ht]) hS.alpha0 hS.nAlpha.1 hsb with
      ⟨i, hi, a1, a2, -, k, a3, a4, a5, -⟩ | ⟨-, -, a3⟩
    · refine ⟨by rw [a1]; exact (mul_pos hS.alpha0 (pow_pos hS.nAlpha.1 i)).ne', ?_⟩
      have hk : k = K (c.alpha0 * c.nAlpha ^ i) := by
        have := (hK (c.alpha0 * c.nAlpha ^ i)).1
        unfold Candidate at a3 this
        have e' : executeLineSearch c q (beginSearch c s) (c.alpha0 * c.nAlpha ^ i) = Res.ok k := a3
        rw [this] at e'
        simpa using e'.symm
      obtain ⟨k', b1, b2⟩ := (C55_acceptable_simple c q s _ ht).1 ((acc max _).1 a2)
      have hk' : k' = K (c.alpha0 * c.nAlpha ^ i) := by
        have := (hK (c.alpha0 * c.nAlpha ^ i)).1
        unfold Candidate at b1 this
        rw [this] at b1
        simpa using b1.symm
      rw [hk', (hK _).2.2.2.2, low] at b2
      rw [a4, a5, hk]
      exact b2
    · exact absurd hA fun hh => a3 j (by simpa using hmax) ((acc max _).2 hh)
  · intro hyes max
    obtain ⟨s', b, hsb⟩ := run max
    have hz := hst.2 hyes
    have hrej : ∀ t, ¬ Acceptable { c with maxIterations := max } q s t := by
      intro t hh
      obtain ⟨k', b1, b2⟩ := (C55_acceptable_simple c q s _ ht).1 ((acc max _).1 hh)
      have hk' : k' = K t := by
        have := (hK t).1
        unfold Candidate at b1 this
        rw [this] at b1
        simpa using b1.symm
      obtain ⟨c1, c2⟩ := follows_current ha hS.back hr t _ _ (hK t).2.1
        (Or.inr ⟨H.hN, fun k hk => H.hb k (by rw [H.hN]; exact hk), hz⟩)
      rw [hk', (hK _).2.2.2.2, low, trajectoryCost_congr cf I.N I.dt c1 c2] at b2
      exact lt_irrefl _ b2
    rcases C55_first { c with maxIterations := max } q s s' b (by simp [ht]) hS.alpha0 hS.nAlpha.1 hsb with
      ⟨i, -, -, a2, -⟩ | ⟨a1, a2, -⟩
    · exact absurd a2 (hrej _)
    · obtain ⟨b1, b2, -⟩ := C55_rejected_partial { c with maxIterations := max } q s s' b (by simp [ht]) hS.alpha0
        hS.nAlpha.1 hsb a1
      subst a2
      exact ⟨s', hsb, a1, b1, b2⟩

/-! ### A concrete case, and the Armijo rule -/

section concrete

open CT.Nloc

/-- Cost `u² + x²`, the second at the end. -/
private def exCF : CF 1 1 := { CF.new with inter := [quadratic 0 1 0 0], fin := [quadratic 1 0 0 0] }

/-- One stage of `x⁺ = x + u` from `x = -2001/1000` with `u = 1`; optimal is `u = 2001/2000`. -/
private noncomputable def exI : Iterate 1 1 :=
  { N := 1, dt := 1, x := fun k _ => if k = 0 then -2001 / 1000 else -1001 / 1000, u := fun _ _ => 1,
    xShot := fun _ => 0, d := fun _ => 0 }

private def exLin : Lin 1 1 := fun _ _ _ _ => (1, 1)

private def exP : Problem 1 1 :=
  { N := 1, A := fun _ => 0, B := fun _ => 0, b := fun _ => 0, P := fun _ => 0, q := fun _ => 0, qv := fun _ => 0,
    Q := fun _ => 0, rv := fun _ => 0, R := fun _ => 0 }

/-- Eigenvalues are clamped at `1e-5`. -/
private noncomputable def exG : Settings 1 := ⟨false, 1 / 10 ^ 5, fun H => (1, fun i => H i i)⟩

private def exS : Sol 1 1 :=
  ⟨fun _ => 0, fun _ => 0, fun _ => 0, fun _ => 0, fun _ => 0, fun _ => 0, fun _ => 0, fun _ => 0, fun _ => 0⟩

private noncomputable abbrev exR : Problem 1 1 := (computeLQApproximation exI exLin 0 (exI.N - 1) (exCF, exP)).2

private def exF (x : Fin 1 → ℝ) (_ : Nat) (u : Fin 1 → ℝ) : Fin 1 → ℝ := x + u

private theorem ex_run (x u : Fin 1 → ℝ) (t : ℝ) : runningCost exCF x u t = u 0 * u 0 := by
  simp [runningCost, expectedCost, exCF, CF.new, quadratic, weight, dotProduct, Matrix.mulVec]

private theorem ex_fin (x : Fin 1 → ℝ) (t : ℝ) : finalCost exCF x t = x 0 * x 0 := by
  simp [finalCost, exCF, CF.new, quadratic, dotProduct, Matrix.mulVec]

private theorem ex_onOff : OnOff exCF.inter := by
  intro τ hτ t _
  simp only [exCF, CF.new, List.mem_singleton] at hτ
  subst hτ
  right; rfl

private theorem ex_smooth : SmoothAlong exCF exI exF exLin := by
  refine ⟨fun k _ => ?_, fun k _ => ?_, fun τ hτ => ?_, fun τ hτ => ?_⟩
  · have : ((jacMap (1 : Matrix (Fin 1) (Fin 1) ℝ)).coprod (jacMap (1 : Matrix (Fin 1) (Fin 1) ℝ)))
        = ContinuousLinearMap.fst ℝ (Fin 1 → ℝ) (Fin 1 → ℝ) + ContinuousLinearMap.snd ℝ (Fin 1 → ℝ) (Fin 1 → ℝ) := by
      ext z <;> simp
    simp only [exLin, this, exF]
    exact hasFDerivAt_fst.add hasFDerivAt_snd
  · simp only [ex_run]
    fun_prop
  · simp only [exCF, CF.new, List.mem_singleton] at hτ
    subst hτ
    exact exact_quadratic _ _ _ _
  · simp only [exCF, CF.new, List.mem_singleton] at hτ
    subst hτ
    exact exact_quadratic _ _ _ _

private theorem ex_rolled : RolledOut exI exF := by
  refine ⟨fun k hk => ?_, fun k _ => rfl⟩
  have : k = 0 := by simp only [exI] at hk; omega
  subst this
  funext i
  simp [exI, exF]
  norm_num

private theorem ex_solve : ∃ s, solve exG exR exS = .ok s ∧ s.lv 0 = (fun _ => 1 / 2000) ∧
    Regular exG exR s ∧ exR.rv 0 = (fun _ => 2) ∧ exR.R 0 = 2 ∧ exR.N = 1 := by
  obtain ⟨s, e, h⟩ := solve_solved exG exR exS
  obtain ⟨h1, -, h3, h4, h5⟩ := C106_contents exCF exI exLin exP rfl (by norm_num [exI])
  have hN : exR.N = 1 := h1
  have a := h3 0 (by norm_num [exI])
  have hrv : exR.rv 0 = fun _ => 2 := by
    have := a.rv
    rw [this]
    funext i
    simp [CF.controlDerivativeIntermediate, CF.sumActive, exCF, CF.set, quadratic, CF.new, exI]
    norm_num
  have hR : exR.R 0 = 2 := by
    have := a.R
    rw [this]
    simp [CF.controlSecondDerivativeIntermediate, CF.sumActive, exCF, CF.set, quadratic, CF.new, exI]
    norm_num
  have hQ : exR.Q 1 = 2 := by
    refine (h4 : exR.Q 1 = _).trans ?_
    simp [CF.stateSecondDerivativeTerminal, exCF, CF.set, quadratic, CF.new]
    norm_num
  have hqv : exR.qv 1 = fun _ => -2002 / 1000 := by
    refine (h5 : exR.qv 1 = _).trans ?_
    funext i
    simp [CF.stateDerivativeTerminal, exCF, CF.set, quadratic, CF.new, exI]
    norm_num
  have hA : exR.A 0 = 1 := a.A
  have hB : exR.B 0 = 1 := a.B
  have hb : exR.b 0 = 0 := a.b
  have hS : s.S 1 = 2 := by
    have := h.S (by rw [hN]; norm_num)
    rw [hN] at this
    rw [this, hQ]
  have hsv : s.sv 1 = fun _ => -2002 / 1000 := by
    have := h.sv (by rw [hN]; norm_num)
    rw [hN] at this
    rw [this, hqv]
  have st := h.stage 0 le_rfl (by rw [hN]; norm_num)
  have hl : lowerView (2 : Matrix (Fin 1) (Fin 1) ℝ) = 2 := lowerView_sym _ (by simp)
  have hgv : s.gv 0 = fun _ => -1 / 500 := by
    rw [st.gv, hrv, hB, hb, hsv]
    funext i
    simp
    norm_num
  have hH : s.H 0 = 4 := by
    rw [st.H, hR, hB, hS, hl]
    simp
    norm_num
  have hHi : s.HiInv 0 = !![-1 / 4] := by
    rw [st.HiInv, hH]
    ext i j
    fin_cases i; fin_cases j
    simp [correct, exG, Matrix.mul_apply, Matrix.ofNat_apply]
    norm_num
  refine ⟨s, e, ?_, Or.inl ⟨rfl, fun H _ => ⟨by simp [exG], ?_⟩, by norm_num [exG]⟩, hrv, hR, hN⟩
  · rw [st.lv, hHi, hgv]
    funext i
    fin_cases i
    simp [Matrix.mulVec, dotProduct]
    norm_num
  · ext i j
    fin_cases i; fin_cases j
    simp [exG]

/-- The members of the backend in the concrete case; `d1`, `d2` are the two sums of the Armijo rule. -/
private noncomputable def exCfg (ty : LsType) (L : List ((Fin 1 → ℝ) → Fin 1 → ℝ)) (d1 d2 : ℝ) :
    LsCfg (Fin 1 → ℝ) (Fin 1 → ℝ) ℝ :=
  { roll := { f := exF, K := 1, Kshot := 1, single := true, closed := true, L := L, nanX := fun _ => false,
              nanU := fun _ => false },
    cost := fun x u => (.fin (computeCostsOfTrajectory 1 1 (fun k => x.getD k 0) (fun k => u.getD k 0) exCF).1,
      .fin (computeCostsOfTrajectory 1 1 (fun k => x.getD k 0) (fun k => u.getD k 0) exCF).2),
    box := fun _ _ => .fin 0, gen := fun _ _ => .fin 0,
    defectNorm := fun d => .fin ((d.map fun v => |v 0|).sum),
    type := ty, rho := 1, rhoC := 1, alpha0 := 1, nAlpha := 1 / 2, maxIterations := 10,
    armijo := 1 / 100, delta1 := .fin d1, delta2 := .fin d2, minImprovement := 1 / 10 ^ 5,
    maxDefectSum := 1 / 10 ^ 5, maxValue := 10 ^ 10 }

private noncomputable def exState (c : LsCfg (Fin 1 → ℝ) (Fin 1 → ℝ) ℝ) : LsState (Fin 1 → ℝ) (Fin 1 → ℝ) ℝ :=
  { x := (List.range 2).map exI.x, xShot := [0, 0], d := [0, 0], u := (List.range 1).map exI.u, xPrev := [],
    uPrev := [], xRef := [],
    icBest := (c.cost ((List.range 2).map exI.x) ((List.range 1).map exI.u)).1,
    fcBest := (c.cost ((List.range 2).map exI.x) ((List.range 1).map exI.u)).2,
    lowest := .pinf, dNorm := .pinf, eBox := .fin 0, eGen := .fin 0, alphaBest := -1 }

private noncomputable def exBack : Back 1 1 := ⟨exI.x, exI.u, exI.x, fun _ => 0⟩

private noncomputable def exDirs (sol : Sol 1 1) : Dirs (Fin 1 → ℝ) (Fin 1 → ℝ) :=
  ⟨(List.range 1).map (extractSolution .ilqr exR sol exBack).2.du,
    (List.range 2).map (extractSolution .ilqr exR sol exBack).2.dx,
    (List.range 2).map (extractSolution .ilqr exR sol exBack).2.dxRef⟩

private theorem ex_search (ty : LsType) (sol : Sol 1 1) (d1 d2 : ℝ) :
    let c := exCfg ty ((List.range 1).map fun k z => (extractSolution .ilqr exR sol exBack).1.L k *ᵥ z) d1 d2
    Search .ilqr exCF exI exR sol exBack c (exDirs sol) (exState c) := by
  intro c
  refine ⟨rfl, by norm_num [c, exCfg], rfl, rfl, ⟨fun _ => rfl, fun _ => rfl⟩, rfl, fun _ _ => rfl, fun _ _ => rfl,
    fun _ _ => rfl, fun k => ?_, by norm_num [c, exCfg], by norm_num [c, exCfg], ⟨rfl, rfl⟩, rfl, rfl, rfl,
    ⟨rfl, rfl, rfl, rfl⟩, rfl⟩
  simp [c, exCfg]

private theorem ex_not_stationary : ¬ Stationary exCF exI.N exI.dt exF (exI.x 0) exI.u := by
  obtain ⟨s, e, h1, h2, -⟩ := ex_solve
  intro h
  have := (C176_stationary exCF exI exLin exP rfl (by norm_num [exI]) exF ex_smooth ex_rolled exG exS s e h2).2 h 0
    (by norm_num [exI])
  have h3 := congrFun this 0
  rw [uSol, h1, xSol] at h3
  simp at h3

/-- The hypotheses of the theorems hold for iLQR, with a trajectory that is not stationary. -/
example : ∃ (sol : Sol 1 1) (c : LsCfg (Fin 1 → ℝ) (Fin 1 → ℝ) ℝ) (q : Dirs (Fin 1 → ℝ) (Fin 1 → ℝ))
    (s : LsState (Fin 1 → ℝ) (Fin 1 → ℝ) ℝ), OnOff exCF.inter ∧ SmoothAlong exCF exI c.roll.f exLin ∧
    RolledOut exI c.roll.f ∧ solve exG exR exS = .ok sol ∧ Regular exG exR sol ∧ c.type = .simple ∧
    Search .ilqr exCF exI exR sol exBack c q s ∧ ¬ Stationary exCF exI.N exI.dt c.roll.f (exI.x 0) exI.u := by
  obtain ⟨s, e, h1, h2, -⟩ := ex_solve
  exact ⟨s, _, _, _, ex_onOff, ex_smooth, ex_rolled, e, h2, rfl, ex_search .simple s 0 0, ex_not_stationary⟩

/-- The claim for the Armijo rule is false: its "expected decrease" uses the gradient of the running cost alone (the
sums of `lv' rv` and `lv' R lv`) instead of the decrease of the quadratic model, and with the wrong sign. Here, with
the default Armijo parameter `0.01`, the trajectory is not stationary and every step size up to one lowers the cost, but
the search rejects them all, however many it may try, and the solver stops. -/
theorem C176_armijo_violated : ∃ (cf : CF 1 1) (I : Iterate 1 1) (lin : Lin 1 1) (p : Problem 1 1)
    (g : Settings 1) (s0 sol : Sol 1 1) (w : Back 1 1) (c : LsCfg (Fin 1 → ℝ) (Fin 1 → ℝ) ℝ)
    (q : Dirs (Fin 1 → ℝ) (Fin 1 → ℝ)) (s : LsState (Fin 1 → ℝ) (Fin 1 → ℝ) ℝ),
    let r := (computeLQApproximation I lin 0 (I.N - 1) (cf, p)).2
    p.N = I.N ∧ 0 < I.N ∧ OnOff cf.inter ∧ SmoothAlong cf I c.roll.f lin ∧ RolledOut I c.roll.f ∧
    solve g r s0 = .ok sol ∧ Regular g r sol ∧ Search .ilqr cf I r sol w c q s ∧
    c.type = .armijo ∧ c.armijo = 1 / 100 ∧
    c.delta1 = .fin (∑ k ∈ Finset.range I.N, sol.lv k ⬝ᵥ r.rv k) ∧
    c.delta2 = .fin (∑ k ∈ Finset.range I.N, sol.lv k ⬝ᵥ (r.R k *ᵥ sol.lv k)) ∧
    ¬ Stationary cf I.N I.dt c.roll.f (I.x 0) I.u ∧
    (∀ t, 0 < t → t ≤ 1 → ∀ k, Candidate c q s t k →
      trajectoryCost cf I.N I.dt (fun i => k.r.x.getD i 0) (fun i => k.r.u.getD i 0)
        < trajectoryCost cf I.N I.dt I.x I.u) ∧
    ∀ max, ∃ s', lineSearch { c with maxIterations := max } q s = Res.ok (s', false) ∧ s'.x = s.x ∧ s'.u = s.u := by
  obtain ⟨sol, e, h1, h2, h3, h4, h5⟩ := ex_solve
  have hS := ex_search .armijo sol (1 / 1000) (1 / 2000000)
  refine ⟨exCF, exI, exLin, exP, exG, exS, sol, exBack, _, _, _, rfl, by norm_num [exI], ex_onOff, ex_smooth, ex_rolled,
    e, h2, hS, rfl, rfl, ?_, ?_, ex_not_stationary, ?_⟩
  · rw [show Finset.range exI.N = Finset.range 1 from rfl, Finset.sum_range_one, h1, h3]
    simp [exCfg, dotProduct]
    norm_num
  · rw [show Finset.range exI.N = Finset.range 1 from rfl, Finset.sum_range_one, h1, h4]
    simp [exCfg, dotProduct, Matrix.mulVec, Matrix.ofNat_apply]
    norm_num
  -- costs of the candidates
  have hcost : trajectoryCost exCF exI.N exI.dt exI.x exI.u = 1 + (1001 / 1000) ^ 2 := by
    simp only [trajectoryCost, show exI.N = 1 from rfl, Finset.sum_range_one, ex_run, ex_fin]
    simp [exI]
    norm_num
  have hcand : ∀ X U t, Follows .ilqr exI exF exR sol exBack t X U →
      trajectoryCost exCF exI.N exI.dt X U = (1 + t / 2000) ^ 2 + (t / 2000 - 1001 / 1000) ^ 2 := by
    intro X U t hF
    have hu := hF.control 0 (by norm_num [exI])
    have hx := hF.step 0 (by norm_num [exI])
    rw [hF.start] at hu hx
    simp only [extractSolution, h1] at hu
    simp only [trajectoryCost, show exI.N = 1 from rfl, Finset.sum_range_one, ex_run, ex_fin]
    have e1 : U 0 0 = 1 + t / 2000 := by
      rw [hu]
      simp [exI]
      ring
    have e2 : X 1 0 = t / 2000 - 1001 / 1000 := by
      have := congrFun hx 0
      simp only [exF, Pi.add_apply, e1] at this
      rw [show (0 : Nat) + 1 = 1 from rfl] at this
      rw [this]
      simp [exI]
      ring
    rw [e1, e2]
    simp [exI]
    ring
  set c := exCfg .armijo ((List.range 1).map fun k z => (extractSolution .ilqr exR sol exBack).1.L k *ᵥ z) (1 / 1000)
    (1 / 2000000) with hc
  have hcd : ∀ t k, Candidate c (exDirs sol) (exState c) t k →
      newMerit c k.ic k.fc k.dn k.eb k.eg = .fin ((1 + t / 2000) ^ 2 + (t / 2000 - 1001 / 1000) ^ 2) ∧
      trajectoryCost exCF exI.N exI.dt (fun i => k.r.x.getD i 0) (fun i => k.r.u.getD i 0)
        = (1 + t / 2000) ^ 2 + (t / 2000 - 1001 / 1000) ^ 2 := by
    intro t k hk
    obtain ⟨k', a1, a2, -, -, a3⟩ := hS.candidate ex_onOff (by norm_num [exI]) (single_dx rfl) t
    have hkk : k' = k := by
      unfold Candidate at a1 hk
      rw [a1] at hk
      simpa using hk
    subst hkk
    exact ⟨by rw [a3, hcand _ _ t a2], hcand _ _ t a2⟩
  refine ⟨fun t h0 ht1 k hk => ?_, fun max => ?_⟩
  · rw [(hcd t k hk).2, hcost]
    nlinarith
  · obtain ⟨⟨s', b⟩, hsb⟩ := C55_returns { c with maxIterations := max } (exDirs sol) (exState c) (Or.inr rfl)
      ⟨(hS.sizes (by norm_num [exI])).hK, (hS.sizes (by norm_num [exI])).hshot, (hS.sizes (by norm_num [exI])).hx,
        (hS.sizes (by norm_num [exI])).hu, (hS.sizes (by norm_num [exI])).hdx, (hS.sizes (by norm_num [exI])).hdu,
        (hS.sizes (by norm_num [exI])).hdr, (hS.sizes (by norm_num [exI])).hL⟩
    rcases C55_first { c with maxIterations := max } (exDirs sol) (exState c) s' b (by simp [hc, exCfg]) hS.alpha0
        hS.nAlpha.1 hsb with ⟨i, -, -, ⟨k, mm, b1, b2⟩, -⟩ | ⟨a1, a2, -⟩
    · exfalso
      obtain ⟨hm, -, hle⟩ := accept_le b2
      obtain ⟨-, hle⟩ := hle rfl
      have hlow := hS.begin_eq ex_onOff
      have hm' : mm = .fin ((1 + c.alpha0 * c.nAlpha ^ i / 2000) ^ 2
          + (c.alpha0 * c.nAlpha ^ i / 2000 - 1001 / 1000) ^ 2) := by
        rw [hm]; exact (hcd _ k b1).1
      have hle' : Fl.le (Fl.mul (.fin c.armijo) (expectedDecrease c (c.alpha0 * c.nAlpha ^ i)))
          (Fl.sub (beginSearch c (exState c)).lowest mm) := hle
      have hpos : 0 < c.alpha0 * c.nAlpha ^ i := mul_pos hS.alpha0 (pow_pos hS.nAlpha.1 i)
      rw [hlow, hm', hcost] at hle'
      revert hpos hle'
      generalize c.alpha0 * c.nAlpha ^ i = t
      intro hle' hpos
      simp only [expectedDecrease, hc, exCfg, Fl.mul, Fl.add, Fl.sub, Fl.neg, Fl.le] at hle'
      nlinarith
    · obtain ⟨b1, b2, -⟩ := C55_rejected_partial { c with maxIterations := max } (exDirs sol) (exState c) s' b
        (by simp [hc, exCfg]) hS.alpha0 hS.nAlpha.1 hsb a1
      subst a2
      exact ⟨s', hsb, b1, b2⟩

end concrete

end CT.LqApprox
