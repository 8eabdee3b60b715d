import Verif.Model.Symplectic
import Mathlib.LinearAlgebra.Matrix.SchurComplement
import Mathlib.MeasureTheory.Measure.Prod
import Mathlib.MeasureTheory.Measure.Lebesgue.Basic
import Mathlib.MeasureTheory.Function.SpecialFunctions.Basic
import Mathlib.Tactic.Ring
import Mathlib.Tactic.Abel

/-! # Properties C18, C70, C71: symplectic integration -/

namespace CT.Symplectic

section General
variable {K P W U : Type} [Field K] [AddCommGroup P] [Module K P] [AddCommGroup W] [Module K W] [Zero U]

/-- C18, order of the updates: for a separable, uncontrolled system `p' = g(v)`, `v' = h(p)` one step
advances the position with the old velocity and then the velocity with the new position. -/
theorem C18_update_order (g : W → P) (h : P → W) (p : P) (v : W) (dt : K) :
    step (⟨fun _ v _ => g v, fun _ p _ => h p, none⟩ : Sys K P W U) (p, v) dt =
      (p + dt • g v, v + dt • h (p + dt • g v)) := rfl

/-- C18, reversibility: for a separable system the step map is a bijection of phase space, for
every step size. -/
theorem C18_step_bijective (g : W → P) (h : P → W) (dt : K) :
    Function.Bijective (fun x =>
      step (⟨fun _ v _ => g v, fun _ p _ => h p, none⟩ : Sys K P W U) x dt) := by
  refine Function.bijective_iff_has_inverse.2
    ⟨fun y => (y.1 - dt • g (y.2 - dt • h y.1), y.2 - dt • h y.1), ?_, ?_⟩
  · rintro ⟨p, v⟩; simp [step]
  · rintro ⟨p, v⟩; simp [step]

theorem recordLoop_spec (s : Sys K P W U) (dt : K) (n : Nat) (x : P × W) (t : K) (xs ts) :
    recordLoop s dt n x t xs ts =
      ((nSteps s dt n x t).1,
       xs ++ (List.range n).map (fun k => (nSteps s dt (k + 1) x t).1),
       ts ++ (List.range n).map (fun k => t + ((k + 1 : Nat) : K) * dt)) := by
  induction n generalizing x t xs ts with
  | zero => simp [recordLoop, nSteps]
  | succ n ih =>
      rw [recordLoop, ih, List.range_succ_eq_map]
      simp only [List.map_cons, List.map_map, List.append_assoc, List.singleton_append]
      refine Prod.ext rfl (Prod.ext ?_ ?_)
      · simp only [nSteps]
        rfl
      · simp only [Nat.zero_add, Nat.cast_one, one_mul]
        congr 1
        congr 1
        apply List.map_congr_left
        intro k _
        simp only [Function.comp]
        push_cast; ring

/-- C71: recording integration into empty containers yields `n + 1` states and stamps: the initial
state first, entry `k` the state after `k` steps, stamped `t₀ + k dt`; the last one is the returned
state. Containers that already hold data are appended to. -/
theorem C71_recording (s : Sys K P W U) (dt : K) (n : Nat) (x : P × W) (t : K)
    (xs : List (P × W)) (ts : List K) :
    (record s dt n x t xs ts).1 = (nSteps s dt n x t).1 ∧
    (record s dt n x t xs ts).2.1 = xs ++ (List.range (n + 1)).map (fun k => (nSteps s dt k x t).1) ∧
    (record s dt n x t xs ts).2.2 = ts ++ (List.range (n + 1)).map (fun k : ℕ => t + (k : K) * dt) := by
  rw [record, recordLoop_spec]
  refine ⟨rfl, ?_, ?_⟩
  · rw [List.range_succ_eq_map]; simp [nSteps, Function.comp_def]
  · rw [List.range_succ_eq_map]; simp [Function.comp_def]

/-- C71, splitting: `n` and then `m` further steps equal `n + m` steps. -/
theorem C71_n_steps_compose (s : Sys K P W U) (dt : K) (n m : Nat) (x : P × W) (t : K) :
    nSteps s dt m (nSteps s dt n x t).1 (nSteps s dt n x t).2 = nSteps s dt (n + m) x t := by
  induction n generalizing x t with
  | zero => simp [nSteps]
  | succ n ih => rw [show n + 1 + m = (n + m) + 1 by ring]; exact ih _ _

/-- Specification: one symplectic Euler step of the closed loop at time `t`, with the controller
evaluated at the current time. -/
def specStep (s : Sys K P W U) (c : P × W → K → U) (x : P × W) (t dt : K) : P × W :=
  (x.1 + dt • s.pdot x x.2 (c x t),
   x.2 + dt • s.vdot (x.1 + dt • s.pdot x x.2 (c x t), x.2) (x.1 + dt • s.pdot x x.2 (c x t))
     (c (x.1 + dt • s.pdot x x.2 (c x t), x.2) t))

/-- C70 (partial): for controllers that do not depend on time a step is the closed-loop symplectic
Euler step at every time.

Missing for the full statement: time-dependent controllers, see `C70_violated`. -/
theorem C70_closed_loop_step_partial (pd : P × W → W → U → P) (vd : P × W → P → U → W)
    (c : P × W → K → U) (hc : ∀ x t t', c x t = c x t') (x : P × W) (t dt : K) :
    step ⟨pd, vd, some c⟩ x dt = specStep ⟨pd, vd, some c⟩ c x t dt := by
  simp only [step, specStep, Sys.control, hc _ 0 t]

end General

/-- C70 is violated: the controller is evaluated at time 0 whatever the current time. A
time-varying feed-forward `u(t) = t` acting on a double integrator at time 1 has no effect. -/
theorem C70_violated : ∃ (s : Sys ℚ ℚ ℚ ℚ) (c : ℚ × ℚ → ℚ → ℚ) (x : ℚ × ℚ) (t dt : ℚ),
    s.ctrl = some c ∧ step s x dt ≠ specStep s c x t dt := by
  refine ⟨⟨fun _ v _ => v, fun _ _ u => u, some fun _ t => t⟩, fun _ t => t, (0, 0), 1, 1, rfl, ?_⟩
  simp [step, specStep, Sys.control]

section Linear
variable {K : Type} [Field K] {a b : Nat}

/-- The matrix of one step of the linear separable system `p' = M v`, `v' = N p`. -/
def stepMatrix (M : Matrix (Fin a) (Fin b) K) (N : Matrix (Fin b) (Fin a) K) (dt : K) :
    Matrix (Fin a ⊕ Fin b) (Fin a ⊕ Fin b) K :=
  Matrix.fromBlocks 1 (dt • M) (dt • N) (1 + dt • N * (dt • M))

/-- C18, linear systems: `n` steps of the linear separable system multiply the stacked state by the
`n`-th power of the step matrix, and its determinant is one, for every step size and any number
of steps. -/
theorem C18_linear_volume (M : Matrix (Fin a) (Fin b) K) (N : Matrix (Fin b) (Fin a) K)
    (dt t : K) (n : Nat) (p : Fin a → K) (v : Fin b → K) :
    Sum.elim
      (nSteps (⟨fun _ v _ => M.mulVec v, fun _ p _ => N.mulVec p, none⟩ :
        Sys K (Fin a → K) (Fin b → K) Unit) dt n (p, v) t).1.1
      (nSteps (⟨fun _ v _ => M.mulVec v, fun _ p _ => N.mulVec p, none⟩ :
        Sys K (Fin a → K) (Fin b → K) Unit) dt n (p, v) t).1.2
      = ((stepMatrix M N dt) ^ n).mulVec (Sum.elim p v) ∧
    ((stepMatrix M N dt) ^ n).det = 1 := by
  constructor
  · induction n generalizing p v t with
    | zero => simp [nSteps]
    | succ n ih =>
        rw [pow_succ, ← Matrix.mulVec_mulVec, nSteps, step]
        simp only
        rw [ih]
        congr 1
        simp only [stepMatrix, Matrix.fromBlocks_mulVec]
        congr 1
        · funext i; simp [Matrix.smul_mulVec, Function.comp_def]
        · funext i
          simp [Matrix.add_mulVec, Matrix.smul_mulVec, Function.comp_def, Matrix.mulVec_add,
            Matrix.mulVec_smul, ← Matrix.mulVec_mulVec]
          ring
  · rw [Matrix.det_pow, stepMatrix, Matrix.det_fromBlocks_one₁₁]
    simp

end Linear

section Volume
open MeasureTheory

/-- C18, phase-space volume: for every (measurable, possibly nonlinear) separable system the step
map preserves Lebesgue measure on phase space, for every step size and any number of steps. -/
theorem C18_volume_preserving {a b : Nat} (g : (Fin b → ℝ) → (Fin a → ℝ))
    (h : (Fin a → ℝ) → (Fin b → ℝ)) (hg : Measurable g) (hh : Measurable h) (dt t : ℝ) (n : Nat) :
    MeasurePreserving (fun x => (nSteps (⟨fun _ v _ => g v, fun _ p _ => h p, none⟩ :
      Sys ℝ (Fin a → ℝ) (Fin b → ℝ) Unit) dt n x t).1)
      ((volume : Measure (Fin a → ℝ)).prod (volume : Measure (Fin b → ℝ)))
      ((volume : Measure (Fin a → ℝ)).prod (volume : Measure (Fin b → ℝ))) := by
  set S : Sys ℝ (Fin a → ℝ) (Fin b → ℝ) Unit := ⟨fun _ v _ => g v, fun _ p _ => h p, none⟩ with hS
  -- the two shears
  have kick : MeasurePreserving (fun x : (Fin a → ℝ) × (Fin b → ℝ) => (x.1, x.2 + dt • h x.1))
      ((volume : Measure (Fin a → ℝ)).prod (volume : Measure (Fin b → ℝ)))
      ((volume : Measure (Fin a → ℝ)).prod (volume : Measure (Fin b → ℝ))) := by
    refine MeasurePreserving.skew_product (g := fun p v => v + dt • h p)
      (MeasurePreserving.id _) ?_ ?_
    · exact measurable_snd.add ((hh.comp measurable_fst).const_smul dt)
    · exact Filter.Eventually.of_forall fun p => (measurePreserving_add_right volume _).map_eq
  have drift' : MeasurePreserving (fun x : (Fin b → ℝ) × (Fin a → ℝ) => (x.1, x.2 + dt • g x.1))
      ((volume : Measure (Fin b → ℝ)).prod (volume : Measure (Fin a → ℝ)))
      ((volume : Measure (Fin b → ℝ)).prod (volume : Measure (Fin a → ℝ))) := by
    refine MeasurePreserving.skew_product (g := fun v p => p + dt • g v)
      (MeasurePreserving.id _) ?_ ?_
    · exact measurable_snd.add ((hg.comp measurable_fst).const_smul dt)
    · exact Filter.Eventually.of_forall fun p => (measurePreserving_add_right volume _).map_eq
  have drift : MeasurePreserving (fun x : (Fin a → ℝ) × (Fin b → ℝ) => (x.1 + dt • g x.2, x.2))
      ((volume : Measure (Fin a → ℝ)).prod (volume : Measure (Fin b → ℝ)))
      ((volume : Measure (Fin a → ℝ)).prod (volume : Measure (Fin b → ℝ))) :=
    (Measure.measurePreserving_swap.comp drift').comp Measure.measurePreserving_swap
  have one : MeasurePreserving (fun x => step S x dt)
      ((volume : Measure (Fin a → ℝ)).prod (volume : Measure (Fin b → ℝ)))
      ((volume : Measure (Fin a → ℝ)).prod (volume : Measure (Fin b → ℝ))) := kick.comp drift
  induction n generalizing t with
  | zero => exact MeasurePreserving.id _
  | succ n ih => exact (ih (t + dt)).comp one

/-- The pendulum is a nonlinear instance. -/
example : Measurable (fun (p : Fin 1 → ℝ) (i : Fin 1) => -Real.sin (p i)) :=
  measurable_pi_lambda _ fun i => (Real.measurable_sin.comp (measurable_pi_apply i)).neg

end Volume

end CT.Symplectic
