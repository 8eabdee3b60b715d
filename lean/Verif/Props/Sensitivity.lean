import Verif.Proof.Sensitivity
import Mathlib.Tactic.Ring
import Mathlib.Tactic.FieldSimp
import Mathlib.Tactic.NormNum
import Mathlib.Tactic.Linarith
import Mathlib.Analysis.SpecialFunctions.Log.Deriv
import Mathlib.Analysis.SpecialFunctions.ExpDeriv
import Mathlib.LinearAlgebra.Matrix.Notation

/-!
# Properties C19, C20: sensitivities of discretised dynamics

Specification used throughout: `IsJac f ls t` says that the matrices supplied by the linear system are
the true derivatives of the dynamics `f` at time `t`; `lin A B` is the linear map
`(dx, du) ↦ A dx + B du`, and `HasFDerivAt` is Mathlib's Fréchet derivative.
-/

namespace CT.Sens
open Matrix

variable {ι κ : Type} [Fintype ι] [DecidableEq ι] [Fintype κ] [DecidableEq κ]

/-- The linear system supplies the true Jacobians of `f` at every point, for the time `t`. -/
def IsJac (f : (ι → ℝ) → (κ → ℝ) → ℝ → (ι → ℝ)) (ls : LinSys ι κ ℝ) (t : ℝ) : Prop :=
  ∀ x u, HasFDerivAt (fun z : (ι → ℝ) × (κ → ℝ) => f z.1 z.2 t) (lin (ls.dA x u t) (ls.dB x u t)) (x, u)

/-- C19, forward Euler: `(A, B)` is the derivative of the explicit Euler step from time `n dt`, for
arbitrary nonlinear time-varying dynamics. -/
theorem C19_forward_euler (f : (ι → ℝ) → (κ → ℝ) → ℝ → (ι → ℝ)) (ls : LinSys ι κ ℝ) (dt : ℝ) (n : ℕ)
    (hJ : IsJac f ls (n * dt)) (x : ι → ℝ) (u : κ → ℝ) :
    HasFDerivAt (fun z : (ι → ℝ) × (κ → ℝ) => z.1 + dt • f z.1 z.2 (n * dt))
      (lin (forwardEuler ls dt x u n).1 (forwardEuler ls dt x u n).2) (x, u) := by
  have h := hasFDerivAt_add_smul_lin dt (hasFDerivAt_fst_lin (x, u)) (hJ x u)
  simpa [forwardEuler] using h

/-- C19, backward Euler (partial): if the Jacobians do not depend on the state (as for linear
systems), `(A, B)` is the derivative of the implicit Euler step `y = x + dt f(y, u, (n+1) dt)`,
whatever differentiable solution `g` of the implicit equation is considered.

Missing: systems whose Jacobians depend on the state, where the claim is false
(`C19_backward_euler_violated`). -/
theorem C19_backward_euler_partial (f : (ι → ℝ) → (κ → ℝ) → ℝ → (ι → ℝ)) (ls : LinSys ι κ ℝ)
    (dt : ℝ) (n : ℕ) (hJ : IsJac f ls ((n + 1 : ℕ) * dt))
    (hA : ∀ x x' u t, ls.dA x u t = ls.dA x' u t) (hB : ∀ x x' u t, ls.dB x u t = ls.dB x' u t)
    (x : ι → ℝ) (u : κ → ℝ) (hinv : IsUnit (1 - dt • ls.dA x u ((n + 1 : ℕ) * dt)).det)
    (g : (ι → ℝ) × (κ → ℝ) → (ι → ℝ)) (GA : Matrix ι ι ℝ) (GB : Matrix ι κ ℝ)
    (hg : HasFDerivAt g (lin GA GB) (x, u))
    (himp : ∀ᶠ z in nhds (x, u), g z = z.1 + dt • f (g z) z.2 ((n + 1 : ℕ) * dt)) :
    (GA, GB) = backwardEuler ls dt x u n := by
  have h1 := hasFDerivAt_comp_lin (F := fun a b => f a b ((n + 1 : ℕ) * dt)) (hJ (g (x, u)) u) hg
  have h2 := hasFDerivAt_add_smul_lin dt (hasFDerivAt_fst_lin (x, u)) h1
  have h3 := h2.congr_of_eventuallyEq himp
  obtain ⟨e1, e2⟩ := lin_injective (hg.unique h3)
  rw [hA (g (x, u)) x u] at e1 e2
  rw [hB (g (x, u)) x u] at e2
  have i1 := Matrix.nonsing_inv_mul _ hinv
  have a1 : (1 - dt • ls.dA x u ((n + 1 : ℕ) * dt)) * GA = 1 := by
    rw [Matrix.sub_mul, one_mul, Matrix.smul_mul]
    exact sub_eq_of_eq_add e1
  have a2 : (1 - dt • ls.dA x u ((n + 1 : ℕ) * dt)) * GB = dt • ls.dB x u ((n + 1 : ℕ) * dt) := by
    rw [Matrix.sub_mul, Matrix.one_mul, Matrix.smul_mul]
    rw [sub_eq_iff_eq_add]
    rw [zero_add, smul_add] at e2
    rw [add_comm]; exact e2
  simp only [backwardEuler]
  refine Prod.ext ?_ ?_
  · calc GA = ((1 - dt • ls.dA x u ((n + 1 : ℕ) * dt))⁻¹ * (1 - dt • ls.dA x u ((n + 1 : ℕ) * dt))) * GA := by
          rw [i1, Matrix.one_mul]
      _ = _ := by rw [Matrix.mul_assoc, a1, Matrix.mul_one]
  · calc GB = ((1 - dt • ls.dA x u ((n + 1 : ℕ) * dt))⁻¹ * (1 - dt • ls.dA x u ((n + 1 : ℕ) * dt))) * GB := by
          rw [i1, Matrix.one_mul]
      _ = _ := by rw [Matrix.mul_assoc, a2, Matrix.mul_smul, Matrix.smul_mul]


/-- A linear system supplies its own Jacobians. -/
theorem isJac_linear (A : Matrix ι ι ℝ) (B : Matrix ι κ ℝ) (t : ℝ) :
    IsJac (fun x u _ => A *ᵥ x + B *ᵥ u) ⟨fun _ _ _ => A, fun _ _ _ => B⟩ t :=
  fun x u => (lin A B).hasFDerivAt (x := (x, u))

/-- A scalar function of the single state component. -/
theorem hasFDerivAt_scalar {φ : ℝ → ℝ} {d : ℝ} (z : (Unit → ℝ) × (κ → ℝ)) (h : HasDerivAt φ d (z.1 ())) :
    HasFDerivAt (fun z : (Unit → ℝ) × (κ → ℝ) => (fun _ : Unit => φ (z.1 ())))
      (lin (d • 1) (0 : Matrix Unit κ ℝ)) z := by
  rw [hasFDerivAt_pi']
  intro i
  have h1 : HasFDerivAt (fun z : (Unit → ℝ) × (κ → ℝ) => z.1 ())
      ((ContinuousLinearMap.proj ()).comp (ContinuousLinearMap.fst ℝ (Unit → ℝ) (κ → ℝ))) z :=
    ((ContinuousLinearMap.proj ()).comp (ContinuousLinearMap.fst ℝ (Unit → ℝ) (κ → ℝ))).hasFDerivAt
  have h2 := h.comp_hasFDerivAt z h1
  have e : (ContinuousLinearMap.proj i).comp (lin (d • 1) (0 : Matrix Unit κ ℝ)) =
      d • (ContinuousLinearMap.proj ()).comp (ContinuousLinearMap.fst ℝ (Unit → ℝ) (κ → ℝ)) := by
    apply ContinuousLinearMap.ext
    intro y
    simp [Matrix.smul_mulVec]
  rw [e]
  exact h2

/-- The hypotheses of the backward Euler theorem are met by every linear system for which the
implicit step is solvable, e.g. by `x' = -x + u` with `dt = 1`. -/
example : ∃ (g : (Fin 2 → ℝ) × (Fin 2 → ℝ) → (Fin 2 → ℝ)) (GA GB : Matrix (Fin 2) (Fin 2) ℝ),
    HasFDerivAt g (lin GA GB) (0, 0) ∧
    (∀ z, g z = z.1 + (1 : ℝ) • ((-1 : Matrix (Fin 2) (Fin 2) ℝ) *ᵥ (g z) + (1 : Matrix (Fin 2) (Fin 2) ℝ) *ᵥ z.2)) ∧
    IsUnit (1 - (1 : ℝ) • (-1 : Matrix (Fin 2) (Fin 2) ℝ)).det := by
  refine ⟨lin ((1/2 : ℝ) • 1) ((1/2 : ℝ) • 1), (1/2 : ℝ) • 1, (1/2 : ℝ) • 1, (lin _ _).hasFDerivAt, ?_, ?_⟩
  · intro z
    ext i
    simp [Matrix.smul_mulVec, Matrix.neg_mulVec]
    ring
  · simp [Matrix.det_fin_two]

/-- C19 is violated for backward Euler: the Jacobian is taken at the start of the step although the
method evaluates the dynamics at the end. For `x' = x - exp x` and `dt = 1` the implicit step is
`y = log x`, whose derivative at 1 is 1; the code returns `1/e`. -/
theorem C19_backward_euler_violated :
    ∃ (f : (Unit → ℝ) → (Unit → ℝ) → ℝ → (Unit → ℝ)) (ls : LinSys Unit Unit ℝ) (dt : ℝ)
      (x u : Unit → ℝ) (g : (Unit → ℝ) × (Unit → ℝ) → (Unit → ℝ)) (GA GB : Matrix Unit Unit ℝ),
      (∀ t, IsJac f ls t) ∧ IsUnit (1 - dt • ls.dA x u ((0 + 1 : ℕ) * dt)).det ∧
      HasFDerivAt g (lin GA GB) (x, u) ∧
      (∀ᶠ z in nhds (x, u), g z = z.1 + dt • f (g z) z.2 ((0 + 1 : ℕ) * dt)) ∧
      GA ≠ (backwardEuler ls dt x u 0).1 := by
  refine ⟨fun x _ _ => fun _ => x () - Real.exp (x ()),
    ⟨fun x _ _ => (1 - Real.exp (x ())) • 1, fun _ _ _ => 0⟩, 1, fun _ => 1, fun _ => 0,
    fun z => fun _ => Real.log (z.1 ()), (1 : ℝ) • 1, 0, ?_, ?_, ?_, ?_, ?_⟩
  · intro t x u
    exact hasFDerivAt_scalar (φ := fun y => y - Real.exp y) (x, u)
      (HasDerivAt.sub (hasDerivAt_id _) (Real.hasDerivAt_exp _))
  · simp [Matrix.det_unique, Real.exp_ne_zero]
  · have := Real.hasDerivAt_log (x := 1) one_ne_zero
    exact hasFDerivAt_scalar _ (by simpa using this)
  · have h : ∀ᶠ z : (Unit → ℝ) × (Unit → ℝ) in nhds (fun _ => 1, fun _ => 0), 0 < z.1 () := by
      have hc : Continuous (fun z : (Unit → ℝ) × (Unit → ℝ) => z.1 ()) := by fun_prop
      exact hc.continuousAt.eventually (lt_mem_nhds (by norm_num : (0 : ℝ) < 1))
    filter_upwards [h] with z hz
    ext i
    simp [Real.exp_log hz]
  · intro h
    have h1 := congrFun (congrFun h ()) ()
    simp only [backwardEuler] at h1
    rw [Matrix.inv_def] at h1
    simp [Matrix.det_unique, Matrix.adjugate_subsingleton] at h1

/-- C19, Tustin (partial): the state matrix is the derivative of the trapezoidal step of *twice* the
step size, `y = x + dt (f(x, u, n dt) + f(y, u, (n+1) dt))`, for nonlinear time-varying dynamics; and
where the input Jacobian is the same at both ends, the input matrix is half of the one of that step.

Missing: the factor 1/2 of the trapezoidal rule; for the step of size `dt` the claim is false
(`C19_tustin_violated`). -/
theorem C19_tustin_partial (f : (ι → ℝ) → (κ → ℝ) → ℝ → (ι → ℝ)) (ls : LinSys ι κ ℝ)
    (dt : ℝ) (n : ℕ) (hJ0 : IsJac f ls (n * dt)) (hJ1 : IsJac f ls ((n + 1 : ℕ) * dt))
    (x : ι → ℝ) (u : κ → ℝ)
    (g : (ι → ℝ) × (κ → ℝ) → (ι → ℝ)) (GA : Matrix ι ι ℝ) (GB : Matrix ι κ ℝ)
    (hinv : IsUnit (1 - dt • ls.dA (g (x, u)) u ((n + 1 : ℕ) * dt)).det)
    (hg : HasFDerivAt g (lin GA GB) (x, u))
    (himp : ∀ᶠ z in nhds (x, u),
      g z = z.1 + dt • (f z.1 z.2 (n * dt) + f (g z) z.2 ((n + 1 : ℕ) * dt))) :
    GA = (tustin ls dt x (g (x, u)) u n).1 ∧
    (ls.dB (g (x, u)) u ((n + 1 : ℕ) * dt) = ls.dB x u (n * dt) →
      GB = (2 : ℝ) • (tustin ls dt x (g (x, u)) u n).2) := by
  have h1 := hasFDerivAt_comp_lin (F := fun a b => f a b ((n + 1 : ℕ) * dt)) (hJ1 (g (x, u)) u) hg
  have h2 := hasFDerivAt_add_smul_lin dt (hasFDerivAt_fst_lin (x, u))
    (hasFDerivAt_add_lin (hJ0 x u) h1)
  have h3 := h2.congr_of_eventuallyEq himp
  obtain ⟨e1, e2⟩ := lin_injective (hg.unique h3)
  set M := 1 - dt • ls.dA (g (x, u)) u ((n + 1 : ℕ) * dt) with hM
  have i1 := Matrix.nonsing_inv_mul _ hinv
  have a1 : M * GA = 1 + dt • ls.dA x u (n * dt) := by
    rw [hM, Matrix.sub_mul, one_mul, Matrix.smul_mul, sub_eq_iff_eq_add, add_assoc, ← smul_add]
    exact e1
  have a2 : M * GB = dt • (ls.dB x u (n * dt) + ls.dB (g (x, u)) u ((n + 1 : ℕ) * dt)) := by
    rw [hM, Matrix.sub_mul, Matrix.one_mul, Matrix.smul_mul, sub_eq_iff_eq_add, ← smul_add]
    rw [zero_add] at e2
    rw [add_assoc, add_comm (ls.dB (g (x, u)) u _)]
    exact e2
  refine ⟨?_, ?_⟩
  · calc GA = (M⁻¹ * M) * GA := by rw [i1, Matrix.one_mul]
      _ = _ := by rw [Matrix.mul_assoc, a1]; rfl
  · intro hB
    calc GB = (M⁻¹ * M) * GB := by rw [i1, Matrix.one_mul]
      _ = _ := by
        rw [Matrix.mul_assoc, a2, hB, ← two_smul ℝ (ls.dB x u _)]
        simp only [tustin, Matrix.mul_smul, Matrix.smul_mul, smul_smul]
        rw [← hM, mul_comm]

/-- C19 is violated for Tustin: for `x' = -x` and `dt = 1` the trapezoidal step is `y = x / 3`; the
code returns `A = 0`. -/
theorem C19_tustin_violated :
    ∃ (f : (Unit → ℝ) → (Unit → ℝ) → ℝ → (Unit → ℝ)) (ls : LinSys Unit Unit ℝ) (dt : ℝ)
      (x u : Unit → ℝ) (g : (Unit → ℝ) × (Unit → ℝ) → (Unit → ℝ)) (GA GB : Matrix Unit Unit ℝ),
      (∀ t, IsJac f ls t) ∧ IsUnit (1 - dt • ls.dA (g (x, u)) u ((0 + 1 : ℕ) * dt)).det ∧
      HasFDerivAt g (lin GA GB) (x, u) ∧
      (∀ z, g z = z.1 + (dt / 2) • (f z.1 z.2 0 + f (g z) z.2 ((0 + 1 : ℕ) * dt))) ∧
      GA ≠ (tustin ls dt x (g (x, u)) u 0).1 := by
  refine ⟨fun x u _ => (-1 : Matrix Unit Unit ℝ) *ᵥ x + (0 : Matrix Unit Unit ℝ) *ᵥ u,
    ⟨fun _ _ _ => -1, fun _ _ _ => 0⟩, 1, 0, 0, lin ((1/3 : ℝ) • 1) 0, (1/3 : ℝ) • 1, 0, ?_, ?_, ?_, ?_, ?_⟩
  · exact fun t => isJac_linear _ _ t
  · simp [Matrix.det_unique]
  · exact (lin _ _).hasFDerivAt
  · intro z; ext i
    simp [Matrix.smul_mulVec, Matrix.neg_mulVec]
    ring
  · intro h
    have h1 := congrFun (congrFun h ()) ()
    simp [tustin] at h1

/-- C19, symplectic Euler: if `xNext` carries the positions after the step, `(A, B)` is the derivative
of the symplectic Euler step (new positions from the old state, new velocities from new positions and
old velocities), for arbitrary nonlinear time-varying dynamics. -/
theorem C19_symplectic_euler {P V : Type} [Fintype P] [DecidableEq P] [Fintype V] [DecidableEq V]
    (f : (P ⊕ V → ℝ) → (κ → ℝ) → ℝ → (P ⊕ V → ℝ)) (ls : LinSys (P ⊕ V) κ ℝ) (dt : ℝ) (n : ℕ)
    (hJ : IsJac f ls (n * dt)) (x : P ⊕ V → ℝ) (u : κ → ℝ) (xNext : P ⊕ V → ℝ)
    (hn : ∀ p, xNext (Sum.inl p) = x (Sum.inl p) + dt * f x u (n * dt) (Sum.inl p)) :
    HasFDerivAt
      (fun z : (P ⊕ V → ℝ) × (κ → ℝ) => symStep (fun x u => f x u (n * dt)) z.2 dt z.1)
      (lin (symplecticEuler ls dt x u xNext n).1 (symplecticEuler ls dt x u xNext n).2) (x, u) := by
  set xi : P ⊕ V → ℝ := Sum.elim (fun p => xNext (Sum.inl p)) (fun v => x (Sum.inr v)) with hxi
  have hfull := hasFDerivAt_add_smul_lin dt (hasFDerivAt_fst_lin (x, u)) (hJ x u)
  set φ : (P ⊕ V → ℝ) × (κ → ℝ) → (P ⊕ V → ℝ) := fun z =>
    Sum.elim (fun p => z.1 (Sum.inl p) + dt * f z.1 z.2 (n * dt) (Sum.inl p)) (fun v => z.1 (Sum.inr v))
    with hφ
  have hφxi : φ (x, u) = xi := by
    funext i; rcases i with p | v <;> simp [hφ, hxi, hn]
  set Ai : Matrix (P ⊕ V) (P ⊕ V) ℝ := fromRows (1 + dt • ls.dA x u (n * dt)).toRows₁
    (1 : Matrix (P ⊕ V) (P ⊕ V) ℝ).toRows₂ with hAi
  set Bi : Matrix (P ⊕ V) κ ℝ := fromRows (dt • ls.dB x u (n * dt)).toRows₁ 0 with hBi
  have hφd : HasFDerivAt φ (lin Ai Bi) (x, u) := by
    apply hasFDerivAt_rows
    rintro (p | v)
    · refine ⟨_, _, _, hfull, fun z => by simp [hφ], ?_, ?_⟩
      · funext j; simp [hAi]
      · funext j; simp [hBi]
    · refine ⟨_, _, _, hasFDerivAt_fst_lin (x, u), fun z => by simp [hφ], ?_, ?_⟩
      · funext j; simp [hAi]
      · funext j; simp [hBi]
  have hJ' := hJ xi u
  rw [← hφxi] at hJ'
  have h2 := hasFDerivAt_comp_lin (F := fun a b => f a b (n * dt)) hJ' hφd
  rw [hφxi] at h2
  have h3 := hasFDerivAt_add_smul_lin dt (hasFDerivAt_fst_lin (x, u)) h2
  apply hasFDerivAt_rows
  rintro (p | v)
  · refine ⟨_, _, _, hfull, fun z => by simp [symStep], ?_, ?_⟩
    · funext j
      rcases j with q | w <;>
        simp [symplecticEuler, symplecticApprox, Matrix.one_apply, toBlocks₁₁, toBlocks₁₂]
    · funext j
      simp [symplecticEuler, symplecticApprox]
  · refine ⟨_, _, _, h3, fun z => by simp [symStep, hφ], ?_, ?_⟩
    · funext j
      rcases j with q | w
      · simp [symplecticEuler, symplecticApprox, Matrix.one_apply, Matrix.mul_apply, hAi, ← hxi,
          Fintype.sum_sum_type, toBlocks₁₁, toBlocks₂₁]
      · simp [symplecticEuler, symplecticApprox, Matrix.one_apply, Matrix.mul_apply, hAi, ← hxi,
          Fintype.sum_sum_type, toBlocks₂₂, toBlocks₁₂, toBlocks₂₁]
        ring_nf
    · funext j
      simp [symplecticEuler, symplecticApprox, Matrix.mul_apply, hBi, ← hxi,
          Fintype.sum_sum_type, toBlocks₂₁]
      ring_nf

/-- Non-vacuous: the harmonic oscillator with an input, one position and one velocity. -/
example : ∃ (f : (Unit ⊕ Unit → ℝ) → (Unit → ℝ) → ℝ → (Unit ⊕ Unit → ℝ)) (ls : LinSys (Unit ⊕ Unit) Unit ℝ),
    ∀ n : ℕ, IsJac f ls (n * (1 / 10)) :=
  ⟨_, _, fun n => isJac_linear (fromBlocks 0 1 (-1) 0) (fromRows 0 1) (n * (1 / 10))⟩

/-! ## Sensitivity integrator -/

theorem idx_append {α : Type} (pre : List α) (a : α) (post : List α) :
    idx (pre ++ a :: post) pre.length = .ok a := by
  simp [idx]

theorem idx_replicate {α : Type} (n i : ℕ) (a : α) (h : i < n) :
    idx (List.replicate n a) i = .ok a := by
  simp [idx, h]

/-- Number of evaluations of the right-hand side per step. -/
def Kind.stages : Kind → ℕ
  | .euler => 1
  | .rk4 => 4

theorem length_stageStates (kd : Kind) (f : (ι → ℝ) → (κ → ℝ) → ℝ → (ι → ℝ)) (u : κ → ℝ) (x : ι → ℝ)
    (t dt : ℝ) : (stageStates kd f u x t dt).length = kd.stages := by
  cases kd <;> rfl

/-- One step: if `m` is the derivative of the current state `Φ`, then the stepped matrix is the
derivative of the stepped state. `τ` is the time the sensitivity integrator uses, `t` the time of the
plant; what is needed is that the Jacobians at the former are those of the dynamics at the latter. -/
theorem doStep_deriv (kd : Kind) (f : (ι → ℝ) → (κ → ℝ) → ℝ → (ι → ℝ)) (ls : LinSys ι κ ℝ) (t τ dt : ℝ)
    (hJ : ∀ s x u, HasFDerivAt (fun z : (ι → ℝ) × (κ → ℝ) => f z.1 z.2 (t + s))
      (lin (ls.dA x u (τ + s)) (ls.dB x u (τ + s))) (x, u))
    (Φ : (ι → ℝ) × (κ → ℝ) → (ι → ℝ)) (z : (ι → ℝ) × (κ → ℝ)) (m : AB ι κ ℝ)
    (hΦ : HasFDerivAt Φ (lin m.1 m.2) z) (pre post : List (ι → ℝ)) (us : List (κ → ℝ))
    (hus : us = List.replicate (pre ++ stageStates kd f z.2 (Φ z) t dt ++ post).length z.2) :
    ∃ m', doStep kd (rhs ls (pre ++ stageStates kd f z.2 (Φ z) t dt ++ post) us) pre.length m τ dt =
        .ok (m', pre.length + kd.stages) ∧
      HasFDerivAt (fun y => plantStep kd f y.2 (Φ y) t dt) (lin m'.1 m'.2) z := by
  have hJ0 : ∀ x u, HasFDerivAt (fun z : (ι → ℝ) × (κ → ℝ) => f z.1 z.2 t)
      (lin (ls.dA x u τ) (ls.dB x u τ)) (x, u) := by
    intro x u; have := hJ 0 x u; simpa using this
  cases kd with
  | euler =>
      simp only [stageStates] at hus ⊢
      have e1 : rhs ls (pre ++ [Φ z] ++ post) us pre.length τ m =
          .ok (ls.dA (Φ z) z.2 τ * m.1, ls.dA (Φ z) z.2 τ * m.2 + ls.dB (Φ z) z.2 τ) := by
        have a1 : idx (pre ++ [Φ z] ++ post) pre.length = .ok (Φ z) := by
          rw [List.append_assoc]; exact idx_append _ _ _
        have a2 : idx us pre.length = .ok z.2 := by
          rw [hus]; exact idx_replicate _ _ _ (by simp)
        simp only [rhs, a1, a2, Res.ok_bind, Res.pure_eq, Matrix.mul_one]
      refine ⟨m + dt • (ls.dA (Φ z) z.2 τ * m.1, ls.dA (Φ z) z.2 τ * m.2 + ls.dB (Φ z) z.2 τ), ?_, ?_⟩
      · simp only [doStep, e1, Kind.stages, Res.ok_bind, Res.pure_eq]
      · have h1 := hasFDerivAt_comp_lin (F := fun a b => f a b t) (hJ0 (Φ z) z.2) hΦ
        have h2 := hasFDerivAt_add_smul_lin dt hΦ h1
        exact h2
  | rk4 =>
      set h : ℝ := (1 / 2) * dt with hh
      set k1 := f (Φ z) z.2 t with hk1
      set k2 := f (Φ z + h • k1) z.2 (t + h) with hk2
      set k3 := f (Φ z + h • k2) z.2 (t + h) with hk3
      have hst : stageStates .rk4 f z.2 (Φ z) t dt =
          [Φ z, Φ z + h • k1, Φ z + h • k2, Φ z + dt • k3] := rfl
      rw [hst] at hus ⊢
      set xs := pre ++ [Φ z, Φ z + h • k1, Φ z + h • k2, Φ z + dt • k3] ++ post with hxs
      have hlen : us = List.replicate (pre.length + 4 + post.length) z.2 := by
        rw [hus, hxs]; simp; ring_nf
      have iu : ∀ i < 4, idx us (pre.length + i) = .ok z.2 := by
        intro i hi; rw [hlen]; exact idx_replicate _ _ _ (by omega)
      have iu0 : idx us pre.length = .ok z.2 := iu 0 (by omega)
      have i0 : idx xs pre.length = .ok (Φ z) := by simp [hxs, idx]
      have i1 : idx xs (pre.length + 1) = .ok (Φ z + h • k1) := by simp [hxs, idx]
      have i2 : idx xs (pre.length + 2) = .ok (Φ z + h • k2) := by simp [hxs, idx]
      have i3 : idx xs (pre.length + 3) = .ok (Φ z + dt • k3) := by simp [hxs, idx]
      let G : (ι → ℝ) → ℝ → AB ι κ ℝ → AB ι κ ℝ := fun x t m =>
        (ls.dA x z.2 t * m.1, ls.dA x z.2 t * m.2 + ls.dB x z.2 t)
      have g0 : ∀ t m, rhs ls xs us pre.length t m = .ok (G (Φ z) t m) := by
        intro t m; simp only [rhs, i0, iu0, G, Res.ok_bind, Res.pure_eq, Matrix.mul_one]
      have g1 : ∀ t m, rhs ls xs us (pre.length + 1) t m = .ok (G (Φ z + h • k1) t m) := by
        intro t m; simp only [rhs, i1, iu 1 (by omega), G, Res.ok_bind, Res.pure_eq, Matrix.mul_one]
      have g2 : ∀ t m, rhs ls xs us (pre.length + 2) t m = .ok (G (Φ z + h • k2) t m) := by
        intro t m; simp only [rhs, i2, iu 2 (by omega), G, Res.ok_bind, Res.pure_eq, Matrix.mul_one]
      have g3 : ∀ t m, rhs ls xs us (pre.length + 3) t m = .ok (G (Φ z + dt • k3) t m) := by
        intro t m; simp only [rhs, i3, iu 3 (by omega), G, Res.ok_bind, Res.pure_eq, Matrix.mul_one]
      set K1 := G (Φ z) τ m with hK1
      set K2 := G (Φ z + h • k1) (τ + h) (m + h • K1) with hK2
      set K3 := G (Φ z + h • k2) (τ + h) (m + h • K2) with hK3
      set K4 := G (Φ z + dt • k3) (τ + dt) (m + dt • K3) with hK4
      refine ⟨m + ((1 / 6) * dt) • (K1 + (2 : ℝ) • K2 + (2 : ℝ) • K3 + K4), ?_, ?_⟩
      · simp only [doStep, ← hh, g0, g1, g2, g3, Res.ok_bind, Res.pure_eq, Kind.stages]; rfl
      · have d1 : HasFDerivAt (fun y => f (Φ y) y.2 t) (lin K1.1 K1.2) z :=
          hasFDerivAt_comp_lin (F := fun a b => f a b t) (hJ0 (Φ z) z.2) hΦ
        have s1 := hasFDerivAt_add_smul_lin h hΦ d1
        have d2 : HasFDerivAt (fun y => f (Φ y + h • f (Φ y) y.2 t) y.2 (t + h)) (lin K2.1 K2.2) z :=
          hasFDerivAt_comp_lin (F := fun a b => f a b (t + h)) (hJ h _ z.2) s1
        have s2 := hasFDerivAt_add_smul_lin h hΦ d2
        have d3 : HasFDerivAt (fun y => f (Φ y + h • f (Φ y + h • f (Φ y) y.2 t) y.2 (t + h)) y.2 (t + h))
            (lin K3.1 K3.2) z :=
          hasFDerivAt_comp_lin (F := fun a b => f a b (t + h)) (hJ h _ z.2) s2
        have s3 := hasFDerivAt_add_smul_lin dt hΦ d3
        have d4 := hasFDerivAt_comp_lin (F := fun a b => f a b (t + dt)) (hJ dt _ z.2) s3
        exact hasFDerivAt_add_smul_lin ((1 / 6) * dt) hΦ
          (hasFDerivAt_add_lin (hasFDerivAt_add_lin (hasFDerivAt_add_lin d1
            (hasFDerivAt_smul_lin (2 : ℝ) d2)) (hasFDerivAt_smul_lin (2 : ℝ) d3)) d4)

theorem sensLoop_deriv (kd : Kind) (f : (ι → ℝ) → (κ → ℝ) → ℝ → (ι → ℝ)) (ls : LinSys ι κ ℝ) (τ dt : ℝ)
    (z : (ι → ℝ) × (κ → ℝ)) (N : ℕ) :
    ∀ (t : ℝ) (_ : ∀ j < N, ∀ s x u, HasFDerivAt (fun z : (ι → ℝ) × (κ → ℝ) => f z.1 z.2 (t + j * dt + s))
      (lin (ls.dA x u (τ + s)) (ls.dB x u (τ + s))) (x, u))
    (Φ : (ι → ℝ) × (κ → ℝ) → (ι → ℝ)) (m : AB ι κ ℝ)
    (_ : HasFDerivAt Φ (lin m.1 m.2) z) (pre : List (ι → ℝ)) (us : List (κ → ℝ))
    (_ : us = List.replicate (pre ++ recorded kd f z.2 dt N (Φ z) t).length z.2),
    ∃ m', sensLoop kd (rhs ls (pre ++ recorded kd f z.2 dt N (Φ z) t) us) τ dt N pre.length m = .ok m' ∧
      HasFDerivAt (fun y => (Integration.nSteps (plantStep kd f y.2) (Φ y) t dt N).1) (lin m'.1 m'.2) z := by
  induction N with
  | zero =>
      intro t _ Φ m hΦ pre us hus
      exact ⟨m, rfl, hΦ⟩
  | succ N ih =>
      intro t hJ Φ m hΦ pre us hus
      have hJ0 := hJ 0 (by omega)
      simp only [Nat.cast_zero, zero_mul, add_zero] at hJ0
      simp only [recorded, ← List.append_assoc] at hus ⊢
      obtain ⟨m1, e1, h1⟩ := doStep_deriv kd f ls t τ dt hJ0 Φ z m hΦ pre
        (recorded kd f z.2 dt N (plantStep kd f z.2 (Φ z) t dt) (t + dt)) us hus
      obtain ⟨m2, e2, h2⟩ := ih (t + dt) (fun j hj s x u => by
          have := hJ (j + 1) (by omega) s x u
          convert this using 3
          push_cast; ring) (fun y => plantStep kd f y.2 (Φ y) t dt) m1 h1
        (pre ++ stageStates kd f z.2 (Φ z) t dt) us hus
      refine ⟨m2, ?_, h2⟩
      rw [sensLoop, e1]
      simp only [Res.ok_bind]
      rw [List.length_append, length_stageStates] at e2
      exact e2

/-- C20 (partial), time-invariant dynamics: for arbitrary nonlinear time-invariant dynamics, any number
of sub-steps, stage index and start time, the sensitivity integrator fed with the states and controls
recorded during the integration returns, without undefined access, the derivative of the discretised
flow with respect to initial state and held control.

Missing: time-varying dynamics with more than one sub-step (`C20_violated`) and symplectic stepping
of systems with state-dependent Jacobians (`C20_symplectic_violated`). -/
theorem C20_time_invariant_partial (kd : Kind) (f : (ι → ℝ) → (κ → ℝ) → ℝ → (ι → ℝ)) (ls : LinSys ι κ ℝ)
    (hti : ∀ x u t t', f x u t = f x u t') (hJ : ∀ t, IsJac f ls t) (dt t₀ : ℝ) (k N : ℕ)
    (x : ι → ℝ) (u : κ → ℝ) (xs : List (ι → ℝ)) (us : List (κ → ℝ))
    (hxs : xs = recorded kd f u dt N x t₀) (hus : us = List.replicate xs.length u) :
    ∃ A B, integrateSensitivity kd ls dt k N xs us = .ok (A, B) ∧
      HasFDerivAt
        (fun z : (ι → ℝ) × (κ → ℝ) => (Integration.nSteps (plantStep kd f z.2) z.1 t₀ dt N).1)
        (lin A B) (x, u) := by
  subst hxs
  obtain ⟨m, e, h⟩ := sensLoop_deriv kd f ls (k * dt) dt (x, u) N t₀ (fun j _ s y v => by
      have := hJ (k * dt + s) y v
      have e : (fun z : (ι → ℝ) × (κ → ℝ) => f z.1 z.2 (t₀ + j * dt + s)) =
          fun z => f z.1 z.2 (k * dt + s) := by funext z; exact hti _ _ _ _
      rw [e]; exact this)
    (fun z => z.1) (1, 0) (hasFDerivAt_fst_lin (x, u)) [] us (by simpa using hus)
  exact ⟨m.1, m.2, by simpa [integrateSensitivity] using e, h⟩

/-- C20 (partial), time-varying dynamics: with a single sub-step per stage the result is the derivative
of the step from `k dt`, for arbitrary nonlinear time-varying dynamics. -/
theorem C20_single_step_partial (kd : Kind) (f : (ι → ℝ) → (κ → ℝ) → ℝ → (ι → ℝ)) (ls : LinSys ι κ ℝ)
    (hJ : ∀ t, IsJac f ls t) (dt : ℝ) (k : ℕ)
    (x : ι → ℝ) (u : κ → ℝ) (xs : List (ι → ℝ)) (us : List (κ → ℝ))
    (hxs : xs = recorded kd f u dt 1 x (k * dt)) (hus : us = List.replicate xs.length u) :
    ∃ A B, integrateSensitivity kd ls dt k 1 xs us = .ok (A, B) ∧
      HasFDerivAt (fun z : (ι → ℝ) × (κ → ℝ) => plantStep kd f z.2 z.1 (k * dt) dt) (lin A B) (x, u) := by
  subst hxs
  obtain ⟨m, e, h⟩ := sensLoop_deriv kd f ls (k * dt) dt (x, u) 1 (k * dt) (fun j hj s y v => by
      obtain rfl : j = 0 := by omega
      have := hJ (k * dt + s) y v
      simpa using this)
    (fun z => z.1) (1, 0) (hasFDerivAt_fst_lin (x, u)) [] us (by simpa using hus)
  exact ⟨m.1, m.2, by simpa [integrateSensitivity] using e, h⟩

example : ∃ (f : (Fin 2 → ℝ) → (Fin 1 → ℝ) → ℝ → (Fin 2 → ℝ)) (ls : LinSys (Fin 2) (Fin 1) ℝ),
    (∀ x u t t', f x u t = f x u t') ∧ ∀ t, IsJac f ls t :=
  ⟨fun x u _ => !![0, 1; -1, 0] *ᵥ x + !![0; 1] *ᵥ u, ⟨fun _ _ _ => !![0, 1; -1, 0], fun _ _ _ => !![0; 1]⟩,
    fun _ _ _ _ => rfl, fun t => isJac_linear _ _ t⟩

/-- C20 is violated for time-varying systems with several sub-steps: every sub-step is linearised at
the time of the first. For `x' = t x`, two Euler sub-steps of length 1 from time 0 map `x` to
`(1 + 0)(1 + 1) x = 2 x`; the reported sensitivity is 1. -/
theorem C20_violated :
    ∃ (f : (Unit → ℝ) → (Unit → ℝ) → ℝ → (Unit → ℝ)) (ls : LinSys Unit Unit ℝ) (dt : ℝ) (x u : Unit → ℝ)
      (xs us : List (Unit → ℝ)) (A B A' B' : Matrix Unit Unit ℝ),
      (∀ t, IsJac f ls t) ∧ xs = recorded .euler f u dt 2 x 0 ∧ us = List.replicate xs.length u ∧
      integrateSensitivity .euler ls dt 0 2 xs us = .ok (A, B) ∧
      HasFDerivAt
        (fun z : (Unit → ℝ) × (Unit → ℝ) => (Integration.nSteps (plantStep .euler f z.2) z.1 0 dt 2).1)
        (lin A' B') (x, u) ∧ A ≠ A' := by
  refine ⟨fun x _ t => t • x, ⟨fun _ _ t => t • 1, fun _ _ _ => 0⟩, 1, 0, 0, _, _, 1, 0, (2 : ℝ) • 1, 0, ?_,
    rfl, rfl, ?_, ?_, ?_⟩
  · intro t x u
    have h := isJac_linear (t • (1 : Matrix Unit Unit ℝ)) (0 : Matrix Unit Unit ℝ) t x u
    simpa [Matrix.smul_mulVec] using h
  · simp [integrateSensitivity, sensLoop, doStep, rhs, recorded, stageStates, idx]
  · have h := (lin ((2 : ℝ) • (1 : Matrix Unit Unit ℝ)) (0 : Matrix Unit Unit ℝ)).hasFDerivAt (x := (0, 0))
    convert h using 1
    funext z
    simp [Integration.nSteps, plantStep, Integration.eulerStep, Matrix.add_mulVec, two_smul]
  · intro h
    have := congrFun (congrFun h ()) ()
    simp at this

section Symplectic
variable {P V : Type} [Fintype P] [DecidableEq P] [Fintype V] [DecidableEq V]

theorem symplecticApprox_eq (dt : ℝ) (Ac1 Ac2 : Matrix (P ⊕ V) (P ⊕ V) ℝ) (Bc1 Bc2 : Matrix (P ⊕ V) κ ℝ) :
    symplecticApprox dt Ac1 Ac2 Bc1 Bc2 =
      (1 + dt • (symplecticAB dt Ac1 Ac2 Bc1 Bc2).1, dt • (symplecticAB dt Ac1 Ac2 Bc1 Bc2).2) := by
  simp only [symplecticApprox, symplecticAB]
  refine Prod.ext ?_ ?_
  · ext (i | i) (j | j) <;> simp [Matrix.one_apply]; ring
  · ext (i | i) j <;> simp; ring

theorem recordedSym_length (f : (P ⊕ V → ℝ) → (κ → ℝ) → (P ⊕ V → ℝ)) (u : κ → ℝ) (dt : ℝ) (n : ℕ)
    (x : P ⊕ V → ℝ) : (recordedSym f u dt n x).length = n := by
  induction n generalizing x with
  | zero => rfl
  | succ n ih => simp [recordedSym, ih]

/-- `N` symplectic steps. -/
noncomputable def symSteps (f : (P ⊕ V → ℝ) → (κ → ℝ) → (P ⊕ V → ℝ)) (u : κ → ℝ) (dt : ℝ) (x : P ⊕ V → ℝ) (N : ℕ) :
    P ⊕ V → ℝ := (symStep f u dt)^[N] x

/-- C20 (partial), symplectic stepping: for linear time-invariant systems the sensitivity integrator
fed with the recorded states returns the derivative of `N` symplectic Euler steps.

Missing: state-dependent Jacobians (`C20_symplectic_violated`). -/
theorem C20_symplectic_partial (A : Matrix (P ⊕ V) (P ⊕ V) ℝ) (B : Matrix (P ⊕ V) κ ℝ)
    (f : (P ⊕ V → ℝ) → (κ → ℝ) → (P ⊕ V → ℝ)) (hf : f = fun x u => A *ᵥ x + B *ᵥ u)
    (ls : LinSys (P ⊕ V) κ ℝ) (hls : ls = ⟨fun _ _ _ => A, fun _ _ _ => B⟩) (dt : ℝ) (k N : ℕ)
    (x : P ⊕ V → ℝ) (u : κ → ℝ) :
    ∃ GA GB, integrateSensitivitySym ls dt k N (recordedSym f u dt N x) (List.replicate N u)
        (symSteps f u dt x N) = .ok (GA, GB) ∧
      HasFDerivAt (fun z : (P ⊕ V → ℝ) × (κ → ℝ) => symSteps f z.2 dt z.1 N) (lin GA GB) (x, u) := by
  have hstep : ∀ (y : P ⊕ V → ℝ), HasFDerivAt (fun z : (P ⊕ V → ℝ) × (κ → ℝ) => symStep f z.2 dt z.1)
      (lin (1 + dt • (symplecticAB dt A A B B).1) (dt • (symplecticAB dt A A B B).2)) (y, u) := by
    intro y
    have h := C19_symplectic_euler (fun x u _ => f x u) ls dt 0 (by
      subst hf hls; exact isJac_linear A B _) y u
      (fun i => y i + dt * f y u i) (fun p => rfl)
    have e : symplecticEuler ls dt y u (fun i => y i + dt * f y u i) 0 = symplecticApprox dt A A B B := by
      subst hls; rfl
    rw [e, symplecticApprox_eq] at h
    exact h
  have key : ∀ (n s : ℕ) (hs : s + n = N) (m : AB (P ⊕ V) κ ℝ)
      (Φ : (P ⊕ V → ℝ) × (κ → ℝ) → (P ⊕ V → ℝ)) (hΦ : HasFDerivAt Φ (lin m.1 m.2) (x, u)) (t : ℝ),
      ∃ m', sensLoop .euler (rhsSym ls dt (recordedSym f u dt N x) (List.replicate N u)
          (symSteps f u dt x N)) t dt n s m = .ok m' ∧
        HasFDerivAt (fun z : (P ⊕ V → ℝ) × (κ → ℝ) => symSteps f z.2 dt (Φ z) n) (lin m'.1 m'.2) (x, u) := by
    intro n
    induction n with
    | zero => intro s hs m Φ hΦ t; exact ⟨m, rfl, hΦ⟩
    | succ n ih =>
        intro s hs m Φ hΦ t
        have hl : s < (recordedSym f u dt N x).length := by rw [recordedSym_length]; omega
        have i1 : idx (recordedSym f u dt N x) s = .ok ((recordedSym f u dt N x)[s]) := by
          simp [idx, hl]
        have i2 : idx (List.replicate N u) s = .ok u := idx_replicate _ _ _ (by omega)
        have hd := hasFDerivAt_comp_lin (F := fun a b => symStep f b dt a) (hstep (Φ (x, u))) hΦ
        obtain ⟨m', e', h'⟩ := ih (s + 1) (by omega)
          (m + dt • ((symplecticAB dt A A B B).1 * m.1,
            (symplecticAB dt A A B B).1 * m.2 + (symplecticAB dt A A B B).2))
          (fun z => symStep f z.2 dt (Φ z)) (by
            convert hd using 2
            · simp [Matrix.add_mul]
            · simp [Matrix.add_mul, add_assoc]) t
        refine ⟨m', ?_, ?_⟩
        · rw [sensLoop]
          simp only [doStep, rhsSym, i1, i2, Res.ok_bind, Res.pure_eq, Matrix.mul_one]
          subst hls
          exact e'
        · exact h'
  obtain ⟨m', e, h⟩ := key N 0 (by omega) (1, 0) (fun z => z.1) (hasFDerivAt_fst_lin (x, u)) (k * dt)
  exact ⟨m'.1, m'.2, e, h⟩

/-- C20 is violated for symplectic stepping of nonlinear systems: the recorder stores the state after
each symplectic step, so the linearisation is made at the wrong point. For `p' = p²`, `v' = 0`, one
step of length 1 from `p = 1` has derivative 3 with respect to `p`; the reported value is 5. -/
theorem C20_symplectic_violated :
    ∃ (f : (Unit ⊕ Unit → ℝ) → (Unit → ℝ) → (Unit ⊕ Unit → ℝ)) (ls : LinSys (Unit ⊕ Unit) Unit ℝ) (dt : ℝ)
      (x : Unit ⊕ Unit → ℝ) (u : Unit → ℝ) (GA GA' : Matrix (Unit ⊕ Unit) (Unit ⊕ Unit) ℝ)
      (GB GB' : Matrix (Unit ⊕ Unit) Unit ℝ),
      (∀ t, IsJac (fun x u _ => f x u) ls t) ∧
      integrateSensitivitySym ls dt 0 1 (recordedSym f u dt 1 x) (List.replicate 1 u)
        (symSteps f u dt x 1) = .ok (GA, GB) ∧
      HasFDerivAt (fun z : (Unit ⊕ Unit → ℝ) × (Unit → ℝ) => symSteps f z.2 dt z.1 1) (lin GA' GB') (x, u) ∧
      GA ≠ GA' := by
  set f : (Unit ⊕ Unit → ℝ) → (Unit → ℝ) → (Unit ⊕ Unit → ℝ) :=
    fun x _ => Sum.elim (fun _ => x (Sum.inl ()) ^ 2) (fun _ => 0) with hf
  set ls : LinSys (Unit ⊕ Unit) Unit ℝ :=
    ⟨fun x _ _ => fromBlocks ((2 * x (Sum.inl ())) • 1) 0 0 0, fun _ _ _ => 0⟩ with hls
  have hJ : ∀ t, IsJac (fun x u _ => f x u) ls t := by
    intro t x u
    rw [hasFDerivAt_pi']
    have h1 : HasFDerivAt (fun z : (Unit ⊕ Unit → ℝ) × (Unit → ℝ) => z.1 (Sum.inl ()))
        ((ContinuousLinearMap.proj (Sum.inl ())).comp
          (ContinuousLinearMap.fst ℝ (Unit ⊕ Unit → ℝ) (Unit → ℝ))) (x, u) :=
      ((ContinuousLinearMap.proj (Sum.inl ())).comp
          (ContinuousLinearMap.fst ℝ (Unit ⊕ Unit → ℝ) (Unit → ℝ))).hasFDerivAt
    rintro (i | i)
    · have h2 := (hasDerivAt_pow 2 (x (Sum.inl ()))).comp_hasFDerivAt (x, u) h1
      have e : (ContinuousLinearMap.proj (Sum.inl i)).comp (lin (ls.dA x u t) (ls.dB x u t)) =
          ((2 : ℕ) * x (Sum.inl ()) ^ (2 - 1)) • (ContinuousLinearMap.proj (Sum.inl ())).comp
          (ContinuousLinearMap.fst ℝ (Unit ⊕ Unit → ℝ) (Unit → ℝ)) := by
        apply ContinuousLinearMap.ext
        intro y
        simp [hls, Matrix.mulVec, dotProduct]
      rw [e]
      exact h2
    · have e : (ContinuousLinearMap.proj (Sum.inr i)).comp (lin (ls.dA x u t) (ls.dB x u t)) = 0 := by
        apply ContinuousLinearMap.ext
        intro y
        simp [hls, Matrix.mulVec, dotProduct]
      rw [e]
      exact hasFDerivAt_const _ _
  have h := C19_symplectic_euler (fun x u _ => f x u) ls 1 0 (hJ _) (fun _ => 1) (fun _ => 0)
      (fun _ => 2) (fun p => by simp [hf]; norm_num)
  let y : Unit ⊕ Unit → ℝ := symStep f (fun _ => 0) 1 (fun _ => 1)
  let yi : Unit ⊕ Unit → ℝ := Sum.elim (fun p => y (Sum.inl p)) (fun v => y (Sum.inr v))
  let ab := symplecticAB 1 (ls.dA y (fun _ => 0) 0) (ls.dA yi (fun _ => 0) 0)
    (ls.dB y (fun _ => 0) 0) (ls.dB yi (fun _ => 0) 0)
  refine ⟨f, ls, 1, fun _ => 1, fun _ => 0, 1 + (1 : ℝ) • (ab.1 * 1),
    (symplecticEuler ls 1 (fun _ => 1) (fun _ => 0) (fun _ => 2) 0).1,
    0 + (1 : ℝ) • (ab.1 * (0 : Matrix (Unit ⊕ Unit) Unit ℝ) + ab.2 * (1 : Matrix Unit Unit ℝ)),
    (symplecticEuler ls 1 (fun _ => 1) (fun _ => 0) (fun _ => 2) 0).2, hJ, ?_, h, ?_⟩
  · simp only [integrateSensitivitySym, sensLoop, doStep, rhsSym, recordedSym, idx, List.replicate,
      List.getElem?_cons_zero, Res.ok_bind, Res.pure_eq, Nat.cast_zero, zero_mul]
    rfl
  · intro hh
    have := congrFun (congrFun hh (Sum.inl ())) (Sum.inl ())
    simp [symplecticEuler, symplecticApprox, symplecticAB, hls, hf, symStep, ab, y] at this

end Symplectic

end CT.Sens
