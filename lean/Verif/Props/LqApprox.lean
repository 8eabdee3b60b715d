import Verif.Model.LqApprox
import Verif.Props.Cost
import Verif.Props.Riccati
import Verif.Props.NlocRollout
import Mathlib.Algebra.BigOperators.Group.Finset.Basic
import Mathlib.Analysis.Calculus.Deriv.Add
import Mathlib.Analysis.Calculus.Deriv.Comp
import Mathlib.Tactic.Module
import Mathlib.Tactic.NoncommRing

/-! # C103, C106: linear-quadratic approximations and the step they lead to -/

namespace CT.LqApprox

open Matrix CT.Cost CT.Riccati

variable {n m : Nat}

/-! ### Specification -/

/-- The documented intermediate cost of a cost function at a state, control and time. -/
noncomputable def runningCost (c : CF n m) (x : Fin n → ℝ) (u : Fin m → ℝ) (t : ℝ) : ℝ :=
  expectedCost c.inter x u (t + c.shift)

/-- The documented final cost; no control acts at the end. -/
noncomputable def finalCost (c : CF n m) (x : Fin n → ℝ) (t : ℝ) : ℝ :=
  (c.fin.map fun τ => τ.value x 0 (t + c.shift)).sum

/-- Cost of a trajectory: time step times the running cost of the `N` stages, plus the final cost. -/
noncomputable def trajectoryCost (c : CF n m) (N : Nat) (dt : ℝ) (x : Nat → Fin n → ℝ) (u : Nat → Fin m → ℝ) : ℝ :=
  dt * ∑ k ∈ Finset.range N, runningCost c (x k) (u k) (dt * k) + finalCost c (x N) (dt * N)

/-- Objective of a linear-quadratic problem for arbitrary sequences of states and controls. -/
noncomputable def lqCost (p : Problem n m) (dx : Nat → Fin n → ℝ) (du : Nat → Fin m → ℝ) : ℝ :=
  ∑ k ∈ Finset.range p.N, stageCost p k (dx k) (du k) + terminalCost p (dx p.N)

/-- Sequences that satisfy the dynamics of a linear-quadratic problem. -/
def LqFeasible (p : Problem n m) (dx : Nat → Fin n → ℝ) (du : Nat → Fin m → ℝ) : Prop :=
  dx 0 = 0 ∧ ∀ k < p.N, dx (k + 1) = p.A k *ᵥ dx k + p.B k *ᵥ du k + p.b k

/-- A term that is a polynomial of degree two whose derivative methods are its Taylor coefficients. -/
def Quadratic (τ : Term n m) : Prop :=
  ∀ x u t dx du, τ.value (x + dx) (u + du) t = τ.value x u t + dx ⬝ᵥ τ.gradX x u t + du ⬝ᵥ τ.gradU x u t
    + 1 / 2 * (dx ⬝ᵥ (τ.hessX x u t *ᵥ dx)) + 1 / 2 * (du ⬝ᵥ (τ.hessU x u t *ᵥ du)) + du ⬝ᵥ (τ.cross x u t *ᵥ dx)

/-- Every activation is on or off (fractional ones are weighted twice in the value, see `C37_violated`). -/
def OnOff (l : List (Term n m)) : Prop :=
  ∀ τ ∈ l, ∀ t, τ.active t = true → τ.activation t = 0 ∨ τ.activation t = 1

/-! ### Quadratic terms -/

theorem quadratic_linear (a : Fin n → ℝ) (b : Fin m → ℝ) (c : ℝ) : Quadratic (linear a b c) := by
  intro x u t dx du
  simp only [linear, dotProduct_add, zero_mulVec, dotProduct_zero, mul_zero, add_zero,
    dotProduct_comm dx a, dotProduct_comm du b]
  ring

theorem quadratic_mixed (P : Matrix (Fin m) (Fin n) ℝ) (xr : Fin n → ℝ) (ur : Fin m → ℝ) :
    Quadratic (mixed P xr ur) := by
  intro x u t dx du
  simp only [mixed, zero_mulVec, dotProduct_zero, mul_zero, add_zero]
  rw [add_sub_right_comm, add_sub_right_comm, mulVec_add, add_dotProduct, dotProduct_add, dotProduct_add, dot_tr]
  rw [dotProduct_comm (P *ᵥ dx) (u - ur)]
  ring

theorem quad_expand {k : Nat} (Q : Matrix (Fin k) (Fin k) ℝ) (a d : Fin k → ℝ) :
    (a + d) ⬝ᵥ (Q *ᵥ (a + d)) = a ⬝ᵥ (Q *ᵥ a) + d ⬝ᵥ (a ᵥ* Qᵀ + a ᵥ* Q) + 1 / 2 * (d ⬝ᵥ ((Q + Qᵀ) *ᵥ d)) := by
  have e1 : a ᵥ* Qᵀ = Q *ᵥ a := vecMul_transpose _ _
  have e2 : d ⬝ᵥ (a ᵥ* Q) = a ⬝ᵥ (Q *ᵥ d) := by rw [dotProduct_comm, dotProduct_mulVec]
  have e3 : d ⬝ᵥ (Qᵀ *ᵥ d) = d ⬝ᵥ (Q *ᵥ d) := by rw [dot_tr, dotProduct_comm]
  rw [mulVec_add, add_dotProduct, dotProduct_add, dotProduct_add, dotProduct_add, e1, e2, add_mulVec,
    dotProduct_add, e3]
  ring

theorem quadratic_quadratic (Q : Matrix (Fin n) (Fin n) ℝ) (R : Matrix (Fin m) (Fin m) ℝ) (xr : Fin n → ℝ)
    (ur : Fin m → ℝ) : Quadratic (quadratic Q R xr ur) := by
  intro x u t dx du
  simp only [quadratic, zero_mulVec, dotProduct_zero, add_zero]
  rw [add_sub_right_comm, add_sub_right_comm, quad_expand, quad_expand]
  ring

theorem quadratic_quadTracking (Q : Matrix (Fin n) (Fin n) ℝ) (R : Matrix (Fin m) (Fin m) ℝ)
    (xr : ℝ → Fin n → ℝ) (ur : ℝ → Fin m → ℝ) (b : Bool) : Quadratic (quadTracking Q R xr ur b) := by
  intro x u t dx du
  cases b
  · simp only [quadTracking, zero_mulVec, dotProduct_zero, add_zero, Bool.false_eq_true, if_false]
    rw [add_sub_right_comm, quad_expand, quad_expand]
    ring
  · simp only [quadTracking, zero_mulVec, dotProduct_zero, add_zero, if_true]
    rw [add_sub_right_comm, add_sub_right_comm, quad_expand, quad_expand]
    ring

/-- Weighted sums of quadratic terms are expanded by the weighted sums of their derivatives. -/
theorem sum_expand (l : List (Term n m)) (w : Term n m → ℝ) (h : ∀ τ ∈ l, Quadratic τ) (x dx : Fin n → ℝ)
    (u du : Fin m → ℝ) (t : ℝ) :
    (l.map fun τ => w τ * τ.value (x + dx) (u + du) t).sum = (l.map fun τ => w τ * τ.value x u t).sum
      + dx ⬝ᵥ (l.map fun τ => w τ • τ.gradX x u t).sum + du ⬝ᵥ (l.map fun τ => w τ • τ.gradU x u t).sum
      + 1 / 2 * (dx ⬝ᵥ ((l.map fun τ => w τ • τ.hessX x u t).sum *ᵥ dx))
      + 1 / 2 * (du ⬝ᵥ ((l.map fun τ => w τ • τ.hessU x u t).sum *ᵥ du))
      + du ⬝ᵥ ((l.map fun τ => w τ • τ.cross x u t).sum *ᵥ dx) := by
  induction l with
  | nil => simp
  | cons τ l ih =>
    simp only [List.map_cons, List.sum_cons, add_mulVec, dotProduct_add, smul_mulVec, dotProduct_smul, smul_eq_mul]
    rw [ih fun σ hσ => h σ (List.mem_cons_of_mem _ hσ), h τ List.mem_cons_self]
    ring

theorem running_expand (c : CF n m) (h : ∀ τ ∈ c.inter, Quadratic τ) (x dx : Fin n → ℝ) (u du : Fin m → ℝ) (t : ℝ) :
    runningCost c (x + dx) (u + du) t = runningCost c x u t
      + dx ⬝ᵥ (c.set x u t).stateDerivativeIntermediate + du ⬝ᵥ (c.set x u t).controlDerivativeIntermediate
      + 1 / 2 * (dx ⬝ᵥ ((c.set x u t).stateSecondDerivativeIntermediate *ᵥ dx))
      + 1 / 2 * (du ⬝ᵥ ((c.set x u t).controlSecondDerivativeIntermediate *ᵥ du))
      + du ⬝ᵥ ((c.set x u t).stateControlDerivativeIntermediate *ᵥ dx) := by
  simp only [CF.stateDerivativeIntermediate, CF.stateSecondDerivativeIntermediate,
    CF.controlDerivativeIntermediate, CF.controlSecondDerivativeIntermediate,
    CF.stateControlDerivativeIntermediate, sumActive_eq, filter_map_sum, CF.set, runningCost, expectedCost]
  exact sum_expand c.inter (fun τ => weight τ (t + c.shift)) h x dx u du (t + c.shift)

theorem final_expand (c : CF n m) (h : ∀ τ ∈ c.fin, Quadratic τ) (x dx : Fin n → ℝ) (t : ℝ) :
    finalCost c (x + dx) t = finalCost c x t + dx ⬝ᵥ (c.set x 0 t).stateDerivativeTerminal
      + 1 / 2 * (dx ⬝ᵥ ((c.set x 0 t).stateSecondDerivativeTerminal *ᵥ dx)) := by
  have := sum_expand c.fin (fun _ => 1) h x dx 0 0 (t + c.shift)
  simp only [CF.stateDerivativeTerminal, CF.stateSecondDerivativeTerminal, foldl_add, zero_add, CF.set, finalCost]
  simpa using this

/-! ### The reported cost -/

theorem value_set (c c' : CF n m) (hi : c'.inter = c.inter) (hs : c'.shift = c.shift) (h : OnOff c.inter)
    (x : Fin n → ℝ) (u : Fin m → ℝ) (t : ℝ) : (c'.set x u t).evaluateIntermediate = runningCost c x u t := by
  rw [evaluate_eq, runningCost, expectedCost]
  simp only [CF.set, hi, hs]
  congr 1
  refine List.map_congr_left fun τ hτ => ?_
  by_cases ha : τ.active (t + c.shift) = true
  · rcases h τ hτ _ ha with e | e <;> simp [weight, ha, e]
  · simp [weight, ha]

theorem costLoop_eq (c : CF n m) (h : OnOff c.inter) (dt : ℝ) (x : Nat → Fin n → ℝ) (u : Nat → Fin m → ℝ) (k : Nat) :
    (costLoop dt x u k c).1.inter = c.inter ∧ (costLoop dt x u k c).1.fin = c.fin ∧
    (costLoop dt x u k c).1.shift = c.shift ∧
    (costLoop dt x u k c).2 = ∑ j ∈ Finset.range k, runningCost c (x j) (u j) (dt * j) := by
  induction k with
  | zero => simp [costLoop]
  | succ k ih =>
    obtain ⟨h1, h2, h3, h4⟩ := ih
    refine ⟨h1, h2, h3, ?_⟩
    simp only [costLoop]
    rw [Finset.sum_range_succ, h4, value_set c _ h1 h3 h]

/-- C106, reported cost: with on/off activations the two numbers reported for a trajectory are the time step times
the documented running cost of the stages `0 .. N-1`, each at its own time, and the documented final cost at the last
state and the final time, whatever point the cost function object was at before. -/
theorem C106_cost_partial (c : CF n m) (h : OnOff c.inter) (N : Nat) (dt : ℝ) (x : Nat → Fin n → ℝ)
    (u : Nat → Fin m → ℝ) :
    computeCostsOfTrajectory N dt x u c
      = (dt * ∑ k ∈ Finset.range N, runningCost c (x k) (u k) (dt * k), finalCost c (x N) (dt * N)) := by
  obtain ⟨h1, h2, h3, h4⟩ := costLoop_eq c h dt x u N
  simp only [computeCostsOfTrajectory]
  rw [h4, mul_comm]
  congr 1
  simp [CF.evaluateTerminal, foldl_add, finalCost, CF.set, h2, h3]

/-! ### What an approximation contains -/

/-- The problem data of stage `k` after an approximation around `I`. -/
structure Approximated (c : CF n m) (I : Iterate n m) (lin : Lin n m) (p : Problem n m) (k : Nat) : Prop where
  A : p.A k = (lin (I.x k) (I.u k) (I.xShot k) k).1
  B : p.B k = (lin (I.x k) (I.u k) (I.xShot k) k).2
  b : p.b k = I.d k
  Q : p.Q k = I.dt • (c.set (I.x k) (I.u k) (I.dt * k)).stateSecondDerivativeIntermediate
  R : p.R k = I.dt • (c.set (I.x k) (I.u k) (I.dt * k)).controlSecondDerivativeIntermediate
  P : p.P k = I.dt • (c.set (I.x k) (I.u k) (I.dt * k)).stateControlDerivativeIntermediate
  qv : p.qv k = I.dt • (c.set (I.x k) (I.u k) (I.dt * k)).stateDerivativeIntermediate
  rv : p.rv k = I.dt • (c.set (I.x k) (I.u k) (I.dt * k)).controlDerivativeIntermediate

theorem set_congr (c c' : CF n m) (hi : c'.inter = c.inter) (hf : c'.fin = c.fin) (hs : c'.shift = c.shift)
    (x : Fin n → ℝ) (u : Fin m → ℝ) (t : ℝ) : c'.set x u t = c.set x u t := by
  simp [CF.set, hi, hf, hs]

theorem exec_fold (c : CF n m) (I : Iterate n m) (lin : Lin n m) (l : List Nat) (s : CF n m × Problem n m)
    (hi : s.1.inter = c.inter) (hf : s.1.fin = c.fin) (hs : s.1.shift = c.shift) :
    let r := l.foldl (executeLQApproximation I lin) s
    r.1.inter = c.inter ∧ r.1.fin = c.fin ∧ r.1.shift = c.shift ∧ r.2.N = s.2.N ∧ r.2.q = s.2.q ∧
    (∀ k ∈ l, Approximated c I lin r.2 k) ∧ (∀ k, k ∉ l → r.2.A k = s.2.A k ∧ r.2.B k = s.2.B k ∧ r.2.b k = s.2.b k ∧
      r.2.Q k = s.2.Q k ∧ r.2.R k = s.2.R k ∧ r.2.P k = s.2.P k ∧ r.2.qv k = s.2.qv k ∧ r.2.rv k = s.2.rv k) := by
  induction l using List.reverseRecOn with
  | nil => simp [hi, hf, hs]
  | append_singleton l a ih =>
    obtain ⟨h1, h2, h3, h4, h5, h6, h7⟩ := ih
    simp only [List.foldl_append, List.foldl_cons, List.foldl_nil]
    generalize hr : l.foldl (executeLQApproximation I lin) s = r at h1 h2 h3 h4 h5 h6 h7
    have e : r.1.set (I.x a) (I.u a) (I.dt * a) = c.set (I.x a) (I.u a) (I.dt * a) := set_congr c r.1 h1 h2 h3 _ _ _
    refine ⟨h1, h2, h3, h4, h5, fun k hk => ?_, fun k hk => ?_⟩
    · by_cases hka : k = a
      · subst hka
        constructor <;> simp [executeLQApproximation, e]
      · have hkl : k ∈ l := by simpa [hka] using hk
        have := h6 k hkl
        constructor <;> simp only [executeLQApproximation, Function.update_of_ne hka]
        exacts [this.A, this.B, this.b, this.Q, this.R, this.P, this.qv, this.rv]
    · have hka : k ≠ a := fun h => hk (by simp [h])
      have hkl : k ∉ l := fun h => hk (by simp [h])
      simp only [executeLQApproximation, Function.update_of_ne hka]
      exact h7 k hkl

/-- C106, contents: an approximation of all stages fills every stage from the current trajectory at that stage and the
last entry from the final cost at the last state, for any previous contents of the problem and any previous point of
the cost function; the constants of the cost are left alone. -/
theorem C106_contents (c : CF n m) (I : Iterate n m) (lin : Lin n m) (p : Problem n m) (hN : p.N = I.N)
    (h0 : 0 < I.N) :
    let r := (computeLQApproximation I lin 0 (I.N - 1) (c, p)).2
    r.N = I.N ∧ r.q = p.q ∧ (∀ k < I.N, Approximated c I lin r k) ∧
    r.Q I.N = (c.set (I.x I.N) 0 (I.dt * I.N)).stateSecondDerivativeTerminal ∧
    r.qv I.N = (c.set (I.x I.N) 0 (I.dt * I.N)).stateDerivativeTerminal := by
  intro r
  have hl : I.N - 1 + 1 = I.N := by omega
  have := exec_fold c I lin ((List.range (I.N - 1 + 1)).drop 0) (initializeCostToGo I (c, p)) rfl rfl rfl
  simp only [hl, List.drop_zero] at this
  have hr : r = ((List.range I.N).foldl (executeLQApproximation I lin) (initializeCostToGo I (c, p))).2 := by
    simp only [r, computeLQApproximation, hl, if_true, List.drop_zero]
  rw [hr]
  obtain ⟨-, -, -, h4, h5, h6, h7⟩ := this
  obtain ⟨-, -, -, e4, -, -, e7, -⟩ := h7 I.N (by simp)
  refine ⟨by rw [h4]; exact hN, h5, fun k hk => h6 k (by simpa using hk), ?_, ?_⟩
  · rw [e4]; simp [initializeCostToGo]
  · rw [e7]; simp [initializeCostToGo]

/-! ### Objective and dynamics of the approximation -/

theorem lqCost_eq (c : CF n m) (I : Iterate n m) (lin : Lin n m) (p : Problem n m) (hN : p.N = I.N)
    (ha : ∀ k < I.N, Approximated c I lin p k)
    (hQ : p.Q I.N = (c.set (I.x I.N) 0 (I.dt * I.N)).stateSecondDerivativeTerminal)
    (hq : p.qv I.N = (c.set (I.x I.N) 0 (I.dt * I.N)).stateDerivativeTerminal)
    (hi : ∀ τ ∈ c.inter, Quadratic τ) (hf : ∀ τ ∈ c.fin, Quadratic τ)
    (dx : Nat → Fin n → ℝ) (du : Nat → Fin m → ℝ) :
    lqCost p dx du - lqCost p (fun _ => 0) (fun _ => 0)
      = trajectoryCost c I.N I.dt (fun k => I.x k + dx k) (fun k => I.u k + du k)
        - trajectoryCost c I.N I.dt I.x I.u := by
  have hst : ∀ k ∈ Finset.range I.N, stageCost p k (dx k) (du k) - stageCost p k 0 0
      = I.dt * (runningCost c (I.x k + dx k) (I.u k + du k) (I.dt * k) - runningCost c (I.x k) (I.u k) (I.dt * k)) := by
    intro k hk
    have a := ha k (Finset.mem_range.1 hk)
    rw [running_expand c hi]
    simp only [stageCost, a.Q, a.R, a.P, a.qv, a.rv, zero_dotProduct, dotProduct_smul, smul_mulVec, smul_eq_mul,
      mul_zero, add_zero]
    ring
  have hte : terminalCost p (dx p.N) - terminalCost p 0
      = finalCost c (I.x I.N + dx I.N) (I.dt * I.N) - finalCost c (I.x I.N) (I.dt * I.N) := by
    rw [final_expand c hf]
    simp only [terminalCost, hN, hQ, hq, zero_dotProduct, mul_zero, add_zero]
    ring
  have hsum := Finset.sum_congr rfl hst
  rw [Finset.sum_sub_distrib, ← Finset.mul_sum, Finset.sum_sub_distrib] at hsum
  simp only [lqCost, trajectoryCost]
  rw [hN] at hte ⊢
  linarith

/-- C106, objective: for quadratic terms (linear, mixed, quadratic and tracking terms, with any weights and references)
the objective of the approximation is, up to a constant, the cost of the displaced trajectory — for all displacements,
also ones that violate the dynamics. -/
theorem C106_objective (c : CF n m) (I : Iterate n m) (lin : Lin n m) (p : Problem n m) (hN : p.N = I.N)
    (h0 : 0 < I.N) (hi : ∀ τ ∈ c.inter, Quadratic τ) (hf : ∀ τ ∈ c.fin, Quadratic τ)
    (dx : Nat → Fin n → ℝ) (du : Nat → Fin m → ℝ) :
    let r := (computeLQApproximation I lin 0 (I.N - 1) (c, p)).2
    lqCost r dx du - lqCost r (fun _ => 0) (fun _ => 0)
      = trajectoryCost c I.N I.dt (fun k => I.x k + dx k) (fun k => I.u k + du k)
        - trajectoryCost c I.N I.dt I.x I.u := by
  obtain ⟨h1, -, h3, h4, h5⟩ := C106_contents c I lin p hN h0
  exact lqCost_eq c I lin _ h1 h3 h4 h5 hi hf dx du

/-- C106, dynamics: if the discrete dynamics are affine with the returned matrices and `d` holds the defects of the
current trajectory, a displacement satisfies the dynamics of the approximation exactly if the displaced trajectory
starts in the same state and satisfies the dynamics of the system. -/
theorem C106_dynamics (c : CF n m) (I : Iterate n m) (lin : Lin n m) (p : Problem n m) (hN : p.N = I.N)
    (h0 : 0 < I.N) (f : (Fin n → ℝ) → Nat → (Fin m → ℝ) → Fin n → ℝ)
    (hA : ∀ k < I.N, ∀ dx du, f (I.x k + dx) k (I.u k + du) = f (I.x k) k (I.u k)
      + (lin (I.x k) (I.u k) (I.xShot k) k).1 *ᵥ dx + (lin (I.x k) (I.u k) (I.xShot k) k).2 *ᵥ du)
    (hd : ∀ k < I.N, I.x (k + 1) + I.d k = f (I.x k) k (I.u k)) (dx : Nat → Fin n → ℝ) (du : Nat → Fin m → ℝ) :
    LqFeasible (computeLQApproximation I lin 0 (I.N - 1) (c, p)).2 dx du ↔
      I.x 0 + dx 0 = I.x 0 ∧ ∀ k < I.N, I.x (k + 1) + dx (k + 1) = f (I.x k + dx k) k (I.u k + du k) := by
  obtain ⟨h1, -, h3, -, -⟩ := C106_contents c I lin p hN h0
  simp only [LqFeasible, h1]
  refine and_congr (by simp) (forall_congr' fun k => forall_congr' fun hk => ?_)
  rw [hA k hk, ← hd k hk, (h3 k hk).A, (h3 k hk).B, (h3 k hk).b, add_assoc (I.x (k + 1)), add_assoc (I.x (k + 1)),
    add_right_inj]
  constructor <;> intro h <;> rw [h] <;> abel

/-- C106 (two-phase iterations): approximating the stages from `j` on first and the stages before `j` afterwards, as
multiple shooting does, gives the same problem as approximating all stages at once. -/
theorem C106_two_phase (c : CF n m) (I : Iterate n m) (lin : Lin n m) (p : Problem n m) (j : Nat) (hj : 0 < j)
    (hjN : j < I.N) :
    (computeLQApproximation I lin 0 (j - 1) (computeLQApproximation I lin j (I.N - 1) (c, p))).2
      = (computeLQApproximation I lin 0 (I.N - 1) (c, p)).2 := by
  have hl : I.N - 1 + 1 = I.N := by omega
  have hj' : j - 1 + 1 = j := by omega
  have e1 := exec_fold c I lin ((List.range I.N).drop j) (initializeCostToGo I (c, p)) rfl rfl rfl
  obtain ⟨a1, a2, a3, a4, a5, a6, a7⟩ := e1
  have e2 := exec_fold c I lin (List.range j)
    (((List.range I.N).drop j).foldl (executeLQApproximation I lin) (initializeCostToGo I (c, p))) a1 a2 a3
  obtain ⟨b1, b2, b3, b4, b5, b6, b7⟩ := e2
  obtain ⟨c1, c2, c3, c4, c5, c6, c7⟩ := exec_fold c I lin (List.range I.N) (initializeCostToGo I (c, p)) rfl rfl rfl
  have hmem : ∀ k, k ∈ (List.range I.N).drop j ↔ j ≤ k ∧ k < I.N := by
    intro k
    rw [List.mem_drop_iff_getElem]
    constructor
    · rintro ⟨i, hi, rfl⟩
      simp only [List.length_range] at hi
      simp; omega
    · rintro ⟨h1, h2⟩
      exact ⟨k - j, by simp; omega, by simp; omega⟩
  simp only [computeLQApproximation, hl, hj', if_true, List.drop_zero, if_neg (show ¬ j = I.N by omega)]
  have key : ∀ k, ∀ {P Q : Problem n m}, P = (List.foldl (executeLQApproximation I lin)
      (((List.range I.N).drop j).foldl (executeLQApproximation I lin) (initializeCostToGo I (c, p))) (List.range j)).2 →
      Q = (List.foldl (executeLQApproximation I lin) (initializeCostToGo I (c, p)) (List.range I.N)).2 →
      P.A k = Q.A k ∧ P.B k = Q.B k ∧ P.b k = Q.b k ∧ P.Q k = Q.Q k ∧ P.R k = Q.R k ∧ P.P k = Q.P k ∧ P.qv k = Q.qv k ∧
      P.rv k = Q.rv k := by
    rintro k P Q rfl rfl
    by_cases hk : k < I.N
    · have q := c6 k (by simpa using hk)
      by_cases hkj : k < j
      · have a := b6 k (by simpa using hkj)
        exact ⟨a.A.trans q.A.symm, a.B.trans q.B.symm, a.b.trans q.b.symm, a.Q.trans q.Q.symm, a.R.trans q.R.symm,
          a.P.trans q.P.symm, a.qv.trans q.qv.symm, a.rv.trans q.rv.symm⟩
      · have a := a6 k ((hmem k).2 ⟨by omega, hk⟩)
        obtain ⟨d1, d2, d3, d4, d5, d6, d7, d8⟩ := b7 k (by simpa using hkj)
        exact ⟨d1.trans (a.A.trans q.A.symm), d2.trans (a.B.trans q.B.symm), d3.trans (a.b.trans q.b.symm),
          d4.trans (a.Q.trans q.Q.symm), d5.trans (a.R.trans q.R.symm), d6.trans (a.P.trans q.P.symm),
          d7.trans (a.qv.trans q.qv.symm), d8.trans (a.rv.trans q.rv.symm)⟩
    · obtain ⟨d1, d2, d3, d4, d5, d6, d7, d8⟩ := b7 k (by simp; omega)
      obtain ⟨f1, f2, f3, f4, f5, f6, f7, f8⟩ := a7 k (by rw [hmem]; omega)
      obtain ⟨g1, g2, g3, g4, g5, g6, g7, g8⟩ := c7 k (by simpa using hk)
      exact ⟨d1.trans (f1.trans g1.symm), d2.trans (f2.trans g2.symm), d3.trans (f3.trans g3.symm),
        d4.trans (f4.trans g4.symm), d5.trans (f5.trans g5.symm), d6.trans (f6.trans g6.symm),
        d7.trans (f7.trans g7.symm), d8.trans (f8.trans g8.symm)⟩
  have hN := (b4.trans a4).trans c4.symm
  have hq := (b5.trans a5).trans c5.symm
  revert key hN hq
  generalize (List.foldl (executeLQApproximation I lin)
      (((List.range I.N).drop j).foldl (executeLQApproximation I lin) (initializeCostToGo I (c, p))) (List.range j)).2 = P
  generalize (List.foldl (executeLQApproximation I lin) (initializeCostToGo I (c, p)) (List.range I.N)).2 = Q
  intro key hN hq
  have k1 := funext fun k => (key k rfl rfl).1
  have k2 := funext fun k => (key k rfl rfl).2.1
  have k3 := funext fun k => (key k rfl rfl).2.2.1
  have k4 := funext fun k => (key k rfl rfl).2.2.2.1
  have k5 := funext fun k => (key k rfl rfl).2.2.2.2.1
  have k6 := funext fun k => (key k rfl rfl).2.2.2.2.2.1
  have k7 := funext fun k => (key k rfl rfl).2.2.2.2.2.2.1
  have k8 := funext fun k => (key k rfl rfl).2.2.2.2.2.2.2
  cases P; cases Q
  simp only at *
  subst hN hq k1 k2 k3 k4 k5 k6 k7 k8
  rfl

/-! ### The step -/

theorem tailCost_eq (p : Problem n m) (dx : Nat → Fin n → ℝ) (w : Nat → Fin m → ℝ)
    (h : ∀ k < p.N, dx (k + 1) = p.A k *ᵥ dx k + p.B k *ᵥ w k + p.b k) (j k : Nat) (hjk : k + j = p.N) :
    tailCost p j k (dx k) w = ∑ i ∈ Finset.range j, stageCost p (k + i) (dx (k + i)) (w (k + i))
      + terminalCost p (dx p.N) := by
  induction j generalizing k with
  | zero => simp only [tailCost, Finset.range_zero, Finset.sum_empty, zero_add]; rw [← hjk]; simp
  | succ j ih =>
    rw [tailCost, Finset.sum_range_succ', next, ← h k (by omega), ih (k + 1) (by omega)]
    simp only [Nat.add_zero, show ∀ i, k + 1 + i = k + (i + 1) from fun i => by omega]
    ring

theorem cost_eq (p : Problem n m) (dx : Nat → Fin n → ℝ) (w : Nat → Fin m → ℝ) (h : LqFeasible p dx w) :
    cost p w = lqCost p dx w := by
  have := tailCost_eq p dx w h.2 p.N 0 (by simp)
  rw [h.1] at this
  rw [cost, this]
  simp [lqCost]

theorem sol_feasible (p : Problem n m) (s : Sol n m) : LqFeasible p (xSol p s) (uSol p s) :=
  ⟨rfl, fun _ _ => rfl⟩

/-- What a globally optimal trajectory is: it starts in `x0`, obeys the dynamics over `N` stages, no trajectory that
does the same costs less, and one that costs the same has the same controls. -/
structure Optimal (c : CF n m) (N : Nat) (dt : ℝ) (f : (Fin n → ℝ) → Nat → (Fin m → ℝ) → Fin n → ℝ) (x0 : Fin n → ℝ)
    (x : Nat → Fin n → ℝ) (u : Nat → Fin m → ℝ) : Prop where
  start : x 0 = x0
  dynamics : ∀ k < N, x (k + 1) = f (x k) k (u k)
  least : ∀ y v, y 0 = x0 → (∀ k < N, y (k + 1) = f (y k) k (v k)) →
    trajectoryCost c N dt x u ≤ trajectoryCost c N dt y v ∧
    (trajectoryCost c N dt y v = trajectoryCost c N dt x u → ∀ k < N, v k = u k)

/-- C106, step: for affine dynamics, quadratic cost terms and a convex approximation, the solution of the approximation
added to the current trajectory — with whatever defects — is the globally optimal trajectory. -/
theorem C106_step (c : CF n m) (I : Iterate n m) (lin : Lin n m) (p : Problem n m) (hN : p.N = I.N)
    (h0 : 0 < I.N) (hi : ∀ τ ∈ c.inter, Quadratic τ) (hf : ∀ τ ∈ c.fin, Quadratic τ)
    (f : (Fin n → ℝ) → Nat → (Fin m → ℝ) → Fin n → ℝ)
    (hA : ∀ k < I.N, ∀ dx du, f (I.x k + dx) k (I.u k + du) = f (I.x k) k (I.u k)
      + (lin (I.x k) (I.u k) (I.xShot k) k).1 *ᵥ dx + (lin (I.x k) (I.u k) (I.xShot k) k).2 *ᵥ du)
    (hd : ∀ k < I.N, I.x (k + 1) + I.d k = f (I.x k) k (I.u k)) (g : Settings m)
    (hc : Convex g (computeLQApproximation I lin 0 (I.N - 1) (c, p)).2) (s0 : Sol n m) :
    ∃ s, solve g (computeLQApproximation I lin 0 (I.N - 1) (c, p)).2 s0 = .ok s ∧
      Optimal c I.N I.dt f (I.x 0)
        (fun k => I.x k + xSol (computeLQApproximation I lin 0 (I.N - 1) (c, p)).2 s k)
        (fun k => I.u k + uSol (computeLQApproximation I lin 0 (I.N - 1) (c, p)).2 s k) := by
  obtain ⟨s, e, hs⟩ := C38_convex g _ hc s0
  have hdyn := C106_dynamics c I lin p hN h0 f hA hd
  have hobj := C106_objective c I lin p hN h0 hi hf
  have hrN := (C106_contents c I lin p hN h0).1
  revert hs e hdyn hobj hrN
  generalize (computeLQApproximation I lin 0 (I.N - 1) (c, p)).2 = r
  intro e hs hdyn hobj hrN
  refine ⟨s, e, by simp [xSol], ((hdyn _ _).1 (sol_feasible r s)).2, fun y v hy hv => ?_⟩
  have hfeas : LqFeasible r (fun k => y k - I.x k) (fun k => v k - I.u k) := by
    rw [hdyn]
    refine ⟨by simp [hy], fun k hk => ?_⟩
    simpa using hv k hk
  have h1 := hobj (fun k => y k - I.x k) (fun k => v k - I.u k)
  have h2 := hobj (xSol r s) (uSol r s)
  simp only at h1 h2
  rw [← cost_eq r _ _ hfeas] at h1
  rw [← cost_eq r _ _ (sol_feasible r s)] at h2
  simp only [add_sub_cancel] at h1
  obtain ⟨h3, h4⟩ := hs fun k => v k - I.u k
  refine ⟨by linarith, fun heq k hk => ?_⟩
  have := h4 (by linarith) k (by omega)
  rw [← this]
  abel

/-- C106, iteration: whichever of the seven algorithms is selected, if the extracted update is applied with a full step
and rolled out with the algorithm's feedback law and shots (`CT.Nloc.IsRollout`; C54 shows that the roll-outs of the
code are such), the result is the sum of the current trajectory and the solution of the approximation, without
defects. With `C106_step` it is globally optimal: one iteration suffices for affine-quadratic problems. -/
theorem C106_iteration (a : Algo) (I : Iterate n m) (p : Problem n m) (s : Sol n m)
    (hN : p.N = I.N) (Kshot : Nat)
    (f : (Fin n → ℝ) → Nat → (Fin m → ℝ) → Fin n → ℝ)
    (hA : ∀ k < I.N, ∀ dx du, f (I.x k + dx) k (I.u k + du) = f (I.x k) k (I.u k) + p.A k *ᵥ dx + p.B k *ᵥ du)
    (hb : ∀ k < I.N, p.b k = I.d k)
    (hd : ∀ k < I.N, I.x (k + 1) + I.d k = f (I.x k) k (I.u k)) (w : Back n m)
    (hwx : w.x = I.x) (hwu : w.u = I.u) (r0 r : CT.Nloc.Roll (Fin n → ℝ) (Fin m → ℝ)) (xref d : List (Fin n → ℝ))
    (hx : ∀ k < I.N, r0.x.getD k 0 = (finishMpcUpdate a p s w).x k)
    (hu : ∀ k < I.N, r0.u.getD k 0 = (finishMpcUpdate a p s w).u k)
    (hr : ∀ k < I.N, xref.getD k 0 = (finishMpcUpdate a p s w).xRef k)
    (hroll : CT.Nloc.IsRollout f I.N (if a.single then I.N else Kshot)
      (if a.closed then some fun k z => (finishMpcUpdate a p s w).L k *ᵥ z else none) xref r0 r d) :
    (∀ k ≤ I.N, 0 < I.N → r.x.getD k 0 = I.x k + xSol p s k) ∧
    (∀ k < I.N, r.u.getD k 0 = I.u k + uSol p s k ∧ d.getD k 0 = 0) := by
  have hdx : ∀ k < I.N, (if a.single then I.N else Kshot) ∣ k → r0.x.getD k 0 = I.x k + xSol p s k := by
    intro k hk hdv
    rw [hx k hk]
    cases a <;> simp only [finishMpcUpdate, extractSolution, doFullStepUpdate, hwx]
    have : k = 0 := Nat.eq_zero_of_dvd_of_lt (by simpa [Algo.single] using hdv) hk
    subst this
    rfl
  have hcl : ∀ k < I.N, r.x.getD k 0 = I.x k + xSol p s k → r.u.getD k 0 = I.u k + uSol p s k := by
    intro k hk e
    have hc := hroll.controls k hk
    rw [hu k hk, hr k hk, e] at hc
    rw [hc]
    cases a <;> simp [finishMpcUpdate, extractSolution, doFullStepUpdate, hwx, hwu, Algo.closed, uSol, add_assoc]
  have hstep : ∀ k < I.N, r.x.getD k 0 = I.x k + xSol p s k →
      f (r.x.getD k 0) k (r.u.getD k 0) = I.x (k + 1) + xSol p s (k + 1) := by
    intro k hk e
    rw [hcl k hk e, e, hA k hk, ← hd k hk, ← hb k hk, xSol, uSol]
    abel
  have hall : ∀ k ≤ I.N, 0 < I.N → r.x.getD k 0 = I.x k + xSol p s k := by
    intro k
    induction k with
    | zero =>
      intro _ h0
      rw [hroll.shotStart 0 h0 (dvd_zero _), hdx 0 h0 (dvd_zero _)]
    | succ k ih =>
      intro hk h0
      have e := ih (by omega) h0
      by_cases hs : k + 1 < I.N ∧ (if a.single then I.N else Kshot) ∣ k + 1
      · rw [hroll.shotStart (k + 1) hs.1 hs.2, hdx (k + 1) hs.1 hs.2]
      · have h1 := hroll.dynamics k (by omega)
        rw [hroll.inside k (by omega) hs, add_zero] at h1
        rw [h1, hstep k (by omega) e]
  refine ⟨hall, fun k hk => ⟨hcl k hk (hall k hk.le (by omega)), ?_⟩⟩
  have h1 := hroll.dynamics k hk
  rw [hstep k hk (hall k hk.le (by omega)), hall (k + 1) (by omega) (by omega)] at h1
  exact add_eq_left.1 h1

theorem trajectoryCost_congr (c : CF n m) (N : Nat) (dt : ℝ) {x y : Nat → Fin n → ℝ} {u v : Nat → Fin m → ℝ}
    (hx : ∀ k ≤ N, x k = y k) (hu : ∀ k < N, u k = v k) : trajectoryCost c N dt x u = trajectoryCost c N dt y v := by
  simp only [trajectoryCost, hx N le_rfl]
  congr 2
  refine Finset.sum_congr rfl fun k hk => ?_
  rw [hx k (Finset.mem_range.1 hk).le, hu k (Finset.mem_range.1 hk)]

/-- C106: one iteration of any of the seven algorithms with a full step solves an affine-quadratic problem: for any
current trajectory, with any defects, the rolled-out result is the globally optimal trajectory and has no defects. -/
theorem C106_one_iteration (a : Algo) (c : CF n m) (I : Iterate n m) (lin : Lin n m) (p : Problem n m)
    (hN : p.N = I.N) (h0 : 0 < I.N) (Kshot : Nat) (hi : ∀ τ ∈ c.inter, Quadratic τ) (hf : ∀ τ ∈ c.fin, Quadratic τ)
    (f : (Fin n → ℝ) → Nat → (Fin m → ℝ) → Fin n → ℝ)
    (hA : ∀ k < I.N, ∀ dx du, f (I.x k + dx) k (I.u k + du) = f (I.x k) k (I.u k)
      + (lin (I.x k) (I.u k) (I.xShot k) k).1 *ᵥ dx + (lin (I.x k) (I.u k) (I.xShot k) k).2 *ᵥ du)
    (hd : ∀ k < I.N, I.x (k + 1) + I.d k = f (I.x k) k (I.u k)) (g : Settings m)
    (hc : Convex g (computeLQApproximation I lin 0 (I.N - 1) (c, p)).2) (s0 : Sol n m) (w : Back n m)
    (hwx : w.x = I.x) (hwu : w.u = I.u) :
    ∃ s, solve g (computeLQApproximation I lin 0 (I.N - 1) (c, p)).2 s0 = .ok s ∧
      let w' := finishMpcUpdate a (computeLQApproximation I lin 0 (I.N - 1) (c, p)).2 s w
      ∀ (r0 r : CT.Nloc.Roll (Fin n → ℝ) (Fin m → ℝ)) (xref d : List (Fin n → ℝ)),
        (∀ k < I.N, r0.x.getD k 0 = w'.x k ∧ r0.u.getD k 0 = w'.u k ∧ xref.getD k 0 = w'.xRef k) →
        CT.Nloc.IsRollout f I.N (if a.single then I.N else Kshot)
          (if a.closed then some fun k z => w'.L k *ᵥ z else none) xref r0 r d →
        Optimal c I.N I.dt f (I.x 0) (fun k => r.x.getD k 0) (fun k => r.u.getD k 0) ∧
        ∀ k < I.N, d.getD k 0 = 0 := by
  obtain ⟨s, e, ho⟩ := C106_step c I lin p hN h0 hi hf f hA hd g hc s0
  refine ⟨s, e, fun r0 r xref d hr hroll => ?_⟩
  obtain ⟨q1, -, q3, -, -⟩ := C106_contents c I lin p hN h0
  obtain ⟨hx, hu⟩ := C106_iteration a I _ s q1 Kshot f
    (fun k hk dx du => by rw [hA k hk, (q3 k hk).A, (q3 k hk).B]) (fun k hk => (q3 k hk).b) hd w hwx hwu r0 r xref d
    (fun k hk => (hr k hk).1) (fun k hk => (hr k hk).2.1) (fun k hk => (hr k hk).2.2) hroll
  have hx' : ∀ k ≤ I.N, _ := fun k hk => hx k hk h0
  refine ⟨⟨?_, fun k hk => ?_, fun y v hy hv => ?_⟩, fun k hk => (hu k hk).2⟩
  · rw [hx' 0 (Nat.zero_le _)]; exact ho.start
  · rw [hx' (k + 1) (by omega), hx' k (by omega), (hu k hk).1]; exact ho.dynamics k hk
  · have hcong := trajectoryCost_congr c I.N I.dt hx' fun k hk => (hu k hk).1
    obtain ⟨h1, h2⟩ := ho.least y v hy hv
    rw [hcong]
    exact ⟨h1, fun he k hk => by rw [h2 he k hk, (hu k hk).1]⟩

/-- A scalar integrator over two stages with a defect in the first, and the default settings of the solver. -/
def scalarProblem : Problem 1 1 where
  N := 2
  A _ := 1
  B _ := 1
  b k := if k = 0 then 1 else 0
  P _ := 0
  q _ := 0
  qv _ := 0
  Q _ := 1
  rv _ := 0
  R _ := 1

noncomputable def scalarSettings : Settings 1 := ⟨false, 1 / 10 ^ 5, fun H => (1, fun i => H i i)⟩

/-- A scalar integrator with an offset of one per step, three stages, started from a trajectory with defects: the
hypotheses of `C106_step` and `C106_one_iteration` hold. -/
example : ∃ (c : CF 1 1) (I : Iterate 1 1) (lin : Lin 1 1) (p : Problem 1 1)
    (f : (Fin 1 → ℝ) → Nat → (Fin 1 → ℝ) → Fin 1 → ℝ) (g : Settings 1), p.N = I.N ∧ I.N = 3 ∧ I.d 0 ≠ 0 ∧
    (∀ τ ∈ c.inter, Quadratic τ) ∧ (∀ τ ∈ c.fin, Quadratic τ) ∧
    (∀ k < I.N, ∀ dx du, f (I.x k + dx) k (I.u k + du) = f (I.x k) k (I.u k)
      + (lin (I.x k) (I.u k) (I.xShot k) k).1 *ᵥ dx + (lin (I.x k) (I.u k) (I.xShot k) k).2 *ᵥ du) ∧
    (∀ k < I.N, I.x (k + 1) + I.d k = f (I.x k) k (I.u k)) ∧
    Convex g (computeLQApproximation I lin 0 (I.N - 1) (c, p)).2 := by
  let c : CF 1 1 := { CF.new with inter := [quadratic 1 1 1 0], fin := [quadratic 1 0 0 0] }
  let I : Iterate 1 1 := ⟨3, 1, fun _ => 0, fun _ => 0, fun _ => 0, fun _ => 1⟩
  let lin : Lin 1 1 := fun _ _ _ _ => (1, 1)
  let p : Problem 1 1 := { scalarProblem with N := 3 }
  refine ⟨c, I, lin, p, fun x _ u => x + u + 1, ⟨true, 0, fun H => (1, fun i => H i i)⟩, rfl, rfl, ?_, ?_, ?_, ?_, ?_, ?_⟩
  · simp [I]
  · intro τ h
    simp only [c, List.mem_cons, List.not_mem_nil, or_false] at h
    exact h ▸ quadratic_quadratic _ _ _ _
  · intro τ h
    simp only [c, List.mem_cons, List.not_mem_nil, or_false] at h
    exact h ▸ quadratic_quadratic _ _ _ _
  · intro k _ dx du
    simp [I, lin]
    abel
  · intro k _
    simp [I]
  · obtain ⟨h1, -, h3, h4, -⟩ := C106_contents c I lin p rfl (by norm_num [I])
    have hQN : (computeLQApproximation I lin 0 (I.N - 1) (c, p)).2.Q I.N = 2 := by
      rw [h4]
      simp [CF.stateSecondDerivativeTerminal, c, CF.set, quadratic, CF.new]
      norm_num
    have hQ : ∀ k < I.N, (computeLQApproximation I lin 0 (I.N - 1) (c, p)).2.Q k = 2 := by
      intro k hk
      rw [(h3 k hk).Q]
      simp [CF.stateSecondDerivativeIntermediate, CF.sumActive, c, CF.set, quadratic, CF.new, I]
      norm_num
    have hR : ∀ k < I.N, (computeLQApproximation I lin 0 (I.N - 1) (c, p)).2.R k = 2 := by
      intro k hk
      rw [(h3 k hk).R]
      simp [CF.controlSecondDerivativeIntermediate, CF.sumActive, c, CF.set, quadratic, CF.new, I]
      norm_num
    have hP : ∀ k < I.N, (computeLQApproximation I lin 0 (I.N - 1) (c, p)).2.P k = 0 := by
      intro k hk
      rw [(h3 k hk).P]
      simp [CF.stateControlDerivativeIntermediate, CF.sumActive, c, CF.set, quadratic, CF.new, I]
    have two : ∀ x : Fin 1 → ℝ, x ⬝ᵥ ((2 : Matrix (Fin 1) (Fin 1) ℝ) *ᵥ x) = 2 * (x 0 * x 0) := by
      intro x
      simp [dotProduct, Matrix.mulVec, Matrix.ofNat_apply]
      ring
    revert h1 hQN hQ hR hP
    generalize (computeLQApproximation I lin 0 (I.N - 1) (c, p)).2 = r
    intro h1 hQN hQ hR hP
    rw [← h1] at hQN hQ hR hP
    constructor
    · rw [hQN]; ext i j; fin_cases i; fin_cases j; rfl
    · intro x; rw [hQN, two]; nlinarith [mul_self_nonneg (x 0)]
    · intro k hk; rw [hR k hk]; ext i j; fin_cases i; fin_cases j; rfl
    · intro k hk x u
      rw [hQ k hk, hR k hk, hP k hk, two, two]
      simp
      nlinarith [mul_self_nonneg (x 0), mul_self_nonneg (u 0)]
    · intro k hk u hu
      rw [hR k hk, two]
      have : u 0 ≠ 0 := fun h => hu (by funext i; fin_cases i; exact h)
      have := mul_self_pos.2 this
      linarith
    · simp

/-! ### Terms that are not quadratic -/

/-- C106, derivatives: for all terms with exact derivatives (`C36_terms`, `C36_smooth_abs`, or user terms) the linear
and quadratic weights of every stage are the first and second derivatives of the time step times the documented running
cost at that stage, and those of the last entry are the derivatives of the documented final cost. -/
theorem C106_derivatives (c : CF n m) (I : Iterate n m) (lin : Lin n m) (p : Problem n m) (hN : p.N = I.N)
    (h0 : 0 < I.N) (hi : ∀ τ ∈ c.inter, Exact τ) (hf : ∀ τ ∈ c.fin, Exact τ) :
    let r := (computeLQApproximation I lin 0 (I.N - 1) (c, p)).2
    let l := fun k y v => I.dt * runningCost c y v (I.dt * k)
    let e := fun y => finalCost c y (I.dt * I.N)
    (∀ k < I.N,
      IsGrad (fun y => l k y (I.u k)) (r.qv k) (I.x k) ∧ IsGrad (fun v => l k (I.x k) v) (r.rv k) (I.u k) ∧
      (∃ g, (∀ y, IsGrad (fun y => l k y (I.u k)) (g y) y) ∧ IsJac g (r.Q k) (I.x k)) ∧
      (∃ g, (∀ v, IsGrad (fun v => l k (I.x k) v) (g v) v) ∧ IsJac g (r.R k) (I.u k)) ∧
      (∃ g, (∀ y, IsGrad (fun v => l k y v) (g y) (I.u k)) ∧ IsJac g (r.P k) (I.x k))) ∧
    IsGrad e (r.qv I.N) (I.x I.N) ∧ ∃ g, (∀ y, IsGrad e (g y) y) ∧ IsJac g (r.Q I.N) (I.x I.N) := by
  intro r l e
  obtain ⟨-, -, h3, h4, h5⟩ := C106_contents c I lin p hN h0
  have gx : ∀ k y v, IsGrad (fun y => l k y v) (I.dt • (c.inter.map fun τ =>
      weight τ (I.dt * k + c.shift) • τ.gradX y v (I.dt * k + c.shift)).sum) y := fun k y v =>
    isGrad_smul I.dt (isGrad_list_sum c.inter (fun τ => weight τ (I.dt * k + c.shift))
      (fun τ y => τ.value y v (I.dt * k + c.shift)) (fun τ => τ.gradX y v (I.dt * k + c.shift)) y
      fun τ h => (hi τ h).gradX _ _ _)
  have gu : ∀ k y v, IsGrad (fun v => l k y v) (I.dt • (c.inter.map fun τ =>
      weight τ (I.dt * k + c.shift) • τ.gradU y v (I.dt * k + c.shift)).sum) v := fun k y v =>
    isGrad_smul I.dt (isGrad_list_sum c.inter (fun τ => weight τ (I.dt * k + c.shift))
      (fun τ v => τ.value y v (I.dt * k + c.shift)) (fun τ => τ.gradU y v (I.dt * k + c.shift)) v
      fun τ h => (hi τ h).gradU _ _ _)
  have ge : ∀ y, IsGrad e (c.fin.map fun τ => τ.gradX y 0 (I.dt * I.N + c.shift)).sum y := fun y => by
    have := isGrad_list_sum c.fin (fun _ => 1) (fun τ y => τ.value y 0 (I.dt * I.N + c.shift))
      (fun τ => τ.gradX y 0 (I.dt * I.N + c.shift)) y fun τ h => (hf τ h).gradX _ _ _
    simpa [e, finalCost] using this
  refine ⟨fun k hk => ⟨?_, ?_, ⟨_, fun y => gx k y (I.u k), ?_⟩, ⟨_, fun v => gu k (I.x k) v, ?_⟩,
    ⟨_, fun y => gu k y (I.u k), ?_⟩⟩, ?_, _, ge, ?_⟩
  · rw [(h3 k hk).qv]
    simpa only [CF.stateDerivativeIntermediate, sumActive_eq, filter_map_sum, CF.set] using gx k (I.x k) (I.u k)
  · rw [(h3 k hk).rv]
    simpa only [CF.controlDerivativeIntermediate, sumActive_eq, filter_map_sum, CF.set] using gu k (I.x k) (I.u k)
  · rw [(h3 k hk).Q]
    simp only [CF.stateSecondDerivativeIntermediate, sumActive_eq, filter_map_sum, CF.set]
    exact isJac_smul I.dt (isJac_list_sum _ (fun τ : Term n m => weight τ (I.dt * k + c.shift))
      (fun τ y => τ.gradX y (I.u k) (I.dt * k + c.shift)) _ _ fun τ h => (hi τ h).hessX _ _ _)
  · rw [(h3 k hk).R]
    simp only [CF.controlSecondDerivativeIntermediate, sumActive_eq, filter_map_sum, CF.set]
    exact isJac_smul I.dt (isJac_list_sum _ (fun τ : Term n m => weight τ (I.dt * k + c.shift))
      (fun τ v => τ.gradU (I.x k) v (I.dt * k + c.shift)) _ _ fun τ h => (hi τ h).hessU _ _ _)
  · rw [(h3 k hk).P]
    simp only [CF.stateControlDerivativeIntermediate, sumActive_eq, filter_map_sum, CF.set]
    exact isJac_smul I.dt (isJac_list_sum _ (fun τ : Term n m => weight τ (I.dt * k + c.shift))
      (fun τ y => τ.gradU y (I.u k) (I.dt * k + c.shift)) _ _ fun τ h => (hi τ h).crossX _ _ _)
  · rw [h5]
    simpa only [CF.stateDerivativeTerminal, foldl_add, zero_add, CF.set] using ge (I.x I.N)
  · rw [h4]
    simp only [CF.stateSecondDerivativeTerminal, foldl_add, zero_add, CF.set]
    have := isJac_list_sum c.fin (fun _ => 1) (fun τ y => τ.gradX y 0 (I.dt * I.N + c.shift))
      (fun τ => τ.hessX (I.x I.N) 0 (I.dt * I.N + c.shift)) (I.x I.N) fun τ h => (hf τ h).hessX _ _ _
    simpa using this

/-! ### C108: the policy after an update without roll-out -/

/-- C108 (partial): after the update of a multiple-shooting MPC iteration the returned policy applies, at the
predicted state of every stage, the control of the linear-quadratic solution; with the feedback algorithms it is the
linear-quadratic feedback law at every state. Holds for all algorithms but iLQR with multiple shooting. -/
theorem C108_policy_partial (a : Algo) (ha : a ≠ .msIlqr) (hs : a.single = false) (p : Problem n m) (s : Sol n m)
    (w : Back n m) (k : Nat) :
    (finishMpcUpdate a p s w).policy k (w.x k + xSol p s k) = w.u k + uSol p s k ∧
    (a.closed = true → ∀ z, (finishMpcUpdate a p s w).policy k z = w.u k + s.lv k + s.L k *ᵥ (z - w.x k)) := by
  cases a <;> simp only [Algo.single, Bool.true_eq_false, reduceCtorEq, ne_eq, not_true_eq_false] at ha hs
  · simp [finishMpcUpdate, extractSolution, doFullStepUpdate, Back.policy, Algo.closed]
  · simp [finishMpcUpdate, extractSolution, doFullStepUpdate, Back.policy, Algo.closed]
  · refine ⟨by simp [finishMpcUpdate, extractSolution, doFullStepUpdate, Back.policy], fun _ z => ?_⟩
    simp only [finishMpcUpdate, extractSolution, doFullStepUpdate, Back.policy, uSol, mulVec_sub, mulVec_add]
    abel

/-- C108 does not hold for iLQR with multiple shooting: the policy combines the new states with the feed-forward
control for the old ones, so at the predicted state it lacks the feedback part of the solution, and it is off by the
same amount at every other state. -/
theorem C108_ms_ilqr_violated (p : Problem n m) (s : Sol n m) (w : Back n m) (k : Nat) :
    (finishMpcUpdate .msIlqr p s w).policy k (w.x k + xSol p s k) = w.u k + uSol p s k - s.L k *ᵥ xSol p s k ∧
    ∀ z, (finishMpcUpdate .msIlqr p s w).policy k z = w.u k + s.lv k + s.L k *ᵥ (z - w.x k) - s.L k *ᵥ xSol p s k := by
  refine ⟨?_, fun z => ?_⟩
  · simp only [finishMpcUpdate, extractSolution, doFullStepUpdate, Back.policy, uSol, sub_self, mulVec_zero]
    abel
  · simp only [finishMpcUpdate, extractSolution, doFullStepUpdate, Back.policy, mulVec_sub, mulVec_add]
    abel

/-- The solution of the Riccati solver for `scalarProblem` has a non-zero feedback part at stage one: the policy does
not apply the control of the solution. -/
example (s0 : Sol 1 1) : ∃ s, solve scalarSettings scalarProblem s0 = .ok s ∧ ∀ w : Back 1 1,
    (finishMpcUpdate .msIlqr scalarProblem s w).policy 1 (w.x 1 + xSol scalarProblem s 1)
      ≠ w.u 1 + uSol scalarProblem s 1 := by
  obtain ⟨s, e, h⟩ := solve_solved scalarSettings scalarProblem s0
  refine ⟨s, e, fun w hw => ?_⟩
  rw [(C108_ms_ilqr_violated _ s w 1).1] at hw
  have h0 := congrFun (sub_eq_self.1 hw) 0
  have hS : s.S 2 = 1 := h.S (by simp [scalarProblem])
  have hsv : s.sv 2 = 0 := h.sv (by simp [scalarProblem])
  have s1 := h.stage 1 (by simp) (by simp [scalarProblem])
  have s0 := h.stage 0 (by simp) (by simp [scalarProblem])
  have one : ∀ M : Matrix (Fin 1) (Fin 1) ℝ, lowerView M = M := fun M => by
    ext i j; fin_cases i; fin_cases j; simp [lowerView]
  have inv : ∀ M : Matrix (Fin 1) (Fin 1) ℝ, ∀ a : ℝ, M 0 0 = a → 1 ≤ a →
      (correct scalarSettings M).1 0 0 = a ∧ (correct scalarSettings M).2 0 0 = -a⁻¹ := by
    intro M a hM ha
    have hmax : max a (1 / 10 ^ 5) = a := max_eq_left (le_trans (by norm_num) ha)
    simp only [correct, scalarSettings, Bool.false_eq_true, if_false, transpose_one, Matrix.one_mul, Matrix.mul_one,
      diagonal_apply_eq, hM, hmax, neg_one_mul, and_self]
  have hG1 : s.G 1 0 0 = 1 := by rw [s1.G]; simp [hS, one, scalarProblem]
  have hH1 : s.H 1 0 0 = 2 := by rw [s1.H]; simp [hS, one, scalarProblem]; norm_num
  have hgv1 : s.gv 1 = 0 := by rw [s1.gv]; simp [hsv, scalarProblem]
  obtain ⟨a1, a2⟩ := inv _ 2 hH1 (by norm_num)
  rw [← s1.Hi] at a1
  rw [← s1.HiInv] at a2
  have hL1 : s.L 1 0 0 = -2⁻¹ := by rw [s1.L]; simp [Matrix.mul_apply, a2, hG1]
  have hlv1 : s.lv 1 = 0 := by rw [s1.lv, hgv1]; simp
  have hsv1 : s.sv 1 = 0 := by rw [s1.sv (by simp)]; simp [hsv, hlv1, scalarProblem]
  have hS1 : s.S 1 0 0 = 3 / 2 := by
    rw [s1.S (by simp)]
    simp [hS, scalarProblem, Matrix.mul_apply, hL1, a1]
    norm_num
  have hH0 : s.H 0 0 0 = 5 / 2 := by
    rw [s0.H]; simp [one, scalarProblem, hS1]; norm_num
  have hgv0 : s.gv 0 0 = 3 / 2 := by
    rw [s0.gv]; simp [hsv1, scalarProblem, one, Matrix.mulVec, dotProduct, hS1]
  obtain ⟨-, b2⟩ := inv _ (5 / 2) hH0 (by norm_num)
  rw [← s0.HiInv] at b2
  have hlv0 : s.lv 0 0 = -(3 / 5) := by
    rw [s0.lv]; norm_num [Matrix.mulVec, dotProduct, b2, hgv0]
  have hx : xSol scalarProblem s 1 0 = 2 / 5 := by
    norm_num [xSol, scalarProblem, hlv0]
  simp [Matrix.mulVec, dotProduct, hL1, hx] at h0

/-! ### C103: time-invariant problems -/

/-- C103: for quadratic terms, the problem set up from a linear system and a cost function has as objective, up to a
constant, the cost of the trajectory with the cost function evaluated at time zero, and the system with the offset
as dynamics. -/
theorem C103_time_invariant (A : Matrix (Fin n) (Fin n) ℝ) (B : Matrix (Fin n) (Fin m) ℝ) (c : CF n m)
    (offset : Fin n → ℝ) (dt : ℝ) (p : Problem n m)
    (hi : ∀ τ ∈ c.inter, Quadratic τ) (hf : ∀ τ ∈ c.fin, Quadratic τ) (x : Nat → Fin n → ℝ) (u : Nat → Fin m → ℝ) :
    let r := setFromTimeInvariant A B c offset dt p
    lqCost r x u
      = dt * ∑ k ∈ Finset.range p.N, (runningCost c (x k) (u k) 0 - runningCost c 0 0 0)
        + (finalCost c (x p.N) 0 - finalCost c 0 0) ∧
    (LqFeasible r x u ↔ x 0 = 0 ∧ ∀ k < p.N, x (k + 1) = A *ᵥ x k + B *ᵥ u k + offset) := by
  intro r
  refine ⟨?_, Iff.rfl⟩
  have hst : ∀ k ∈ Finset.range p.N, stageCost r k (x k) (u k) = dt * (runningCost c (x k) (u k) 0 - runningCost c 0 0 0) := by
    intro k hk
    have hne : k ≠ p.N := (Finset.mem_range.1 hk).ne
    have := running_expand c hi 0 (x k) 0 (u k) 0
    rw [zero_add, zero_add] at this
    rw [this]
    simp only [r, setFromTimeInvariant, stageCost, Function.update_of_ne hne, dotProduct_smul, smul_mulVec, smul_eq_mul]
    ring
  have hte : terminalCost r (x p.N) = finalCost c (x p.N) 0 - finalCost c 0 0 := by
    have := final_expand c hf 0 (x p.N) 0
    rw [zero_add] at this
    rw [this]
    simp only [r, setFromTimeInvariant, terminalCost, Function.update_self]
    ring
  rw [lqCost, show r.N = p.N from rfl, Finset.sum_congr rfl hst, ← Finset.mul_sum, hte]

/-- A double integrator with an offset: the hypotheses of `C103_time_invariant` hold. -/
example : ∃ (c : CF 2 1), c.inter.length = 2 ∧ c.fin.length = 1 ∧ (∀ τ ∈ c.inter, Quadratic τ) ∧
    (∀ τ ∈ c.fin, Quadratic τ) := by
  refine ⟨{ CF.new with inter := [quadratic 1 1 1 0, mixed 0 0 0], fin := [quadratic 1 0 0 0] }, rfl, rfl, ?_, ?_⟩
  · intro τ h
    simp only [List.mem_cons, List.not_mem_nil, or_false] at h
    rcases h with rfl | rfl
    exacts [quadratic_quadratic _ _ _ _, quadratic_mixed _ _ _]
  · intro τ h
    simp only [List.mem_cons, List.not_mem_nil, or_false] at h
    exact h ▸ quadratic_quadratic _ _ _ _

end CT.LqApprox
