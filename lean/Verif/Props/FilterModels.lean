import Verif.Model.FilterModels
import Verif.Props.Filter
import Mathlib.Analysis.Calculus.Deriv.Prod

/-! # C95, C96: models used by the filters, steady-state filter -/

namespace CT.Filter

open Matrix CT.Riccati CT.Lqr CT.Integration

variable {n m p : Nat}

/-! ### C95 -/

/-- C95, measurements: the linear time-invariant model measures `C x` at all times, its derivative with respect
to the state is exact (the increment of the measurement is the derivative times the increment of the state) and
its derivative with respect to the noise is the matrix given. -/
theorem C95_measurement (C : Matrix (Fin p) (Fin n) ℝ) (W : Matrix (Fin p) (Fin p) ℝ) (x v : Fin n → ℝ) (t : ℝ) :
    (lti C W).h x t = C *ᵥ x ∧
    (lti C W).h (x + v) t - (lti C W).h x t = (lti C W).dx x t *ᵥ v ∧
    (lti C W).dw x t = W := by
  refine ⟨rfl, ?_, rfl⟩
  simp [lti, mulVec_add]

/-- C95, continuous-time system models: the next state is one step of the integrator from the given time over the
given interval, the derivative with respect to the noise is the matrix given. -/
theorem C95_system (integrate : (Fin n → ℝ) → (Fin m → ℝ) → ℝ → ℝ → Fin n → ℝ) (sens)
    (V : Matrix (Fin n) (Fin n) ℝ) (x : Fin n → ℝ) (u : Fin m → ℝ) (dt t : ℝ) :
    (ctModel integrate sens V).dyn x u dt t = integrate x u t dt ∧ (ctModel integrate sens V).dv x u dt t = V :=
  ⟨rfl, rfl⟩

/-- C95, disturbed inputs: a motion of the plant under the control law plus the constant `d`, together with `d`,
is a motion of the disturbed system; conversely the disturbance of every motion of the disturbed system is
constant in the sense that its derivative is zero, and its state moves under the control law plus the current
disturbance. -/
theorem C95_disturbed_motion (f : (Fin n → ℝ) → ℝ → (Fin m → ℝ) → Fin n → ℝ) (k : (Fin n → ℝ) → ℝ → Fin m → ℝ)
    (x : ℝ → Fin n → ℝ) (e : ℝ → Fin m → ℝ) (t : ℝ) :
    (∀ d, HasDerivAt x (f (x t) t (k (x t) t + d)) t →
      HasDerivAt (fun t => (x t, d)) (disturbedDynamics f k (x t, d) t) t) ∧
    (HasDerivAt (fun t => (x t, e t)) (disturbedDynamics f k (x t, e t) t) t →
      HasDerivAt x (f (x t) t (k (x t) t + e t)) t ∧ HasDerivAt e 0 t) := by
  constructor
  · intro d h
    exact h.prodMk (hasDerivAt_const t d)
  · intro h
    exact ⟨h.fst, h.snd⟩

/-- One integrator step of the disturbed system. -/
theorem euler_disturbed (f : (Fin n → ℝ) → ℝ → (Fin m → ℝ) → Fin n → ℝ) (k : (Fin n → ℝ) → ℝ → Fin m → ℝ)
    (d : Fin m → ℝ) (x : Fin n → ℝ) (t dt : ℝ) :
    eulerStep (disturbedDynamics f k) (x, d) t dt = (eulerStep (fun x t => f x t (k x t + d)) x t dt, d) := by
  simp [eulerStep, disturbedDynamics, inputDisturbed]

theorem rk4_disturbed (f : (Fin n → ℝ) → ℝ → (Fin m → ℝ) → Fin n → ℝ) (k : (Fin n → ℝ) → ℝ → Fin m → ℝ)
    (d : Fin m → ℝ) (x : Fin n → ℝ) (t dt : ℝ) :
    rk4Step (disturbedDynamics f k) (x, d) t dt = (rk4Step (fun x t => f x t (k x t + d)) x t dt, d) := by
  simp [rk4Step, disturbedDynamics, inputDisturbed]

/-- C95, disturbed inputs, numerically: any number of steps of the explicit integrators leaves the disturbance as
it is and moves the state like the plant under the control law plus the disturbance. -/
theorem C95_disturbed_steps (f : (Fin n → ℝ) → ℝ → (Fin m → ℝ) → Fin n → ℝ) (k : (Fin n → ℝ) → ℝ → Fin m → ℝ)
    (d : Fin m → ℝ) (N : Nat) (x : Fin n → ℝ) (t dt : ℝ) :
    (nSteps (eulerStep (disturbedDynamics f k)) (x, d) t dt N).1 =
      ((nSteps (eulerStep fun x t => f x t (k x t + d)) x t dt N).1, d) ∧
    (nSteps (rk4Step (disturbedDynamics f k)) (x, d) t dt N).1 =
      ((nSteps (rk4Step fun x t => f x t (k x t + d)) x t dt N).1, d) := by
  induction N generalizing x t with
  | zero => exact ⟨rfl, rfl⟩
  | succ N ih =>
    simp only [nSteps, euler_disturbed, rk4_disturbed]
    exact ⟨(ih _ _).1, (ih _ _).2⟩

/-- C95: the nominal controller sees the state without the disturbance; using a disturbed system without a
controller is reported. -/
theorem C95_controller (k : (Fin n → ℝ) → ℝ → Fin m → ℝ) (x : Fin n → ℝ) (d d' : Fin m → ℝ) (t : ℝ) :
    disturbedControl (some k) (x, d) t = .ok (k x t) ∧
    disturbedControl (some k) (x, d) t = disturbedControl (some k) (x, d') t ∧
    disturbedControl (none : Option ((Fin n → ℝ) → ℝ → Fin m → ℝ)) (x, d) t = .exc := ⟨rfl, rfl, rfl⟩

/-- A pendulum-like plant with a disturbance of 3 and feedback `-x`: one Euler step of length 1 from 2. -/
example : (nSteps (eulerStep (disturbedDynamics (n := 1) (m := 1) (fun x _ u => fun i => x i + u i) fun x _ => -x))
    (fun _ => 2, fun _ => 3) 0 1 1).1 = (fun _ => 5, fun _ => 3) := by
  rw [(C95_disturbed_steps _ _ _ _ _ _ _).1]
  simp only [nSteps, eulerStep]
  congr 1
  funext i
  simp
  norm_num

/-! ### C96 -/

/-- The Kalman gain for prediction covariance `P`, measurement matrix `H` and measurement noise `N`; see
`C42_minimum_variance` for its optimality. -/
noncomputable def kalmanGain (P : Matrix (Fin n) (Fin n) ℝ) (H : Matrix (Fin p) (Fin n) ℝ) (N : Matrix (Fin p) (Fin p) ℝ) :
    Matrix (Fin n) (Fin p) ℝ := P * Hᵀ * (H * P * Hᵀ + N)⁻¹

/-- C96 (partial): if the Riccati solver succeeds, the estimate is corrected by the Kalman correction for a
covariance within the solver's tolerance of the stored one, *multiplied by the system matrix*. The noise is the
one given plus the regularisation of the Riccati solver. Missing: the multiplication by the system matrix is
wrong, see `C96_violated`; the correction is that of the Kalman filter if the system matrix is the identity. -/
theorem C96_update_partial {eig} (heig : EigenSolver eig) {epsH : ℝ} (heH : 0 < epsH) (norm) (K0) (s s' : Ssf n p)
    (hQ : Psd s.Q) (hR : Psd s.R) (hP : Psd s.P) (y : Fin p → ℝ) (t : ℝ)
    (h : s.update eig epsH norm K0 y t = .ok s') :
    ∃ P, Psd P ∧ norm (s'.P - P) < 1 / 1000000 ∧
      (s'.x = s.x + (s.A * kalmanGain P (s.h.dx s.x t) (regularised epsH s.R)) *ᵥ (y - s.h.h s.x t)) ∧
      (s.A = 1 → s'.x = s.x + kalmanGain P (s.h.dx s.x t) (regularised epsH s.R) *ᵥ (y - s.h.h s.x t)) := by
  unfold Ssf.update at h
  obtain ⟨⟨P, K⟩, h1, h2⟩ := Res.bind_eq_ok.1 h
  cases h2
  obtain ⟨-, P', hP', hn, hit⟩ := C41_dare_partial heig heH s.Q s.R s.Aᵀ (s.h.dx s.x t)ᵀ hQ hR norm _ (by norm_num) _ _ hP _ _ _ h1
  have hK : K = (-1 : ℝ) • ((regularised epsH s.R + s.h.dx s.x t * P' * (s.h.dx s.x t)ᵀ)⁻¹ * s.h.dx s.x t * P' * s.Aᵀ) := by
    have := congrArg Prod.snd hit
    simp only [iterateNaive, transpose_transpose] at this
    exact this.symm
  have hKT : -Kᵀ = s.A * kalmanGain P' (s.h.dx s.x t) (regularised epsH s.R) := by
    rw [hK, kalmanGain]
    have hs : (regularised epsH s.R + s.h.dx s.x t * P' * (s.h.dx s.x t)ᵀ)ᵀ =
        s.h.dx s.x t * P' * (s.h.dx s.x t)ᵀ + regularised epsH s.R := by
      simp [regularised, transpose_add, transpose_mul, hR.1, hP'.1, Matrix.mul_assoc, add_comm]
    rw [neg_smul, one_smul, transpose_neg, neg_neg, transpose_mul, transpose_mul, transpose_mul, transpose_nonsing_inv,
      transpose_transpose, hs, hP'.1]
    simp only [Matrix.mul_assoc]
  have hx : s.x - Kᵀ *ᵥ (y - s.h.h s.x t) =
      s.x + (s.A * kalmanGain P' (s.h.dx s.x t) (regularised epsH s.R)) *ᵥ (y - s.h.h s.x t) := by
    rw [← hKT, neg_mulVec, sub_eq_add_neg]
  refine ⟨P', hP', hn, hx, fun hA => ?_⟩
  rw [hA, Matrix.one_mul] at hx
  exact hx

/-- Scalar filter: memoryless system (system matrix zero), unit noise, measurement of the state, as constructed. -/
def memoryless (x : Fin 1 → ℝ) : Ssf 1 1 := ⟨lti 1 1, 1, 1, 0, 0, x, 1000⟩

/-- C96 is violated: for a system whose next state does not depend on the current one, the filter ignores every
measurement, although prediction covariance 1 and measurement noise 1 (plus regularisation) call for a gain of
about one half. -/
theorem C96_violated (epsH : ℝ) (he : 0 < epsH) (K0) (x y : Fin 1 → ℝ) (t : ℝ) :
    ∃ s', (memoryless x).update eig1 epsH (fun M => |M 0 0|) K0 y t = .ok s' ∧ s'.P = 1 ∧ s'.x = x ∧
      kalmanGain s'.P (1 : Matrix (Fin 1) (Fin 1) ℝ) (regularised epsH 1) 0 0 = (2 + epsH)⁻¹ := by
  have z0 : Psd (0 : Matrix (Fin 1) (Fin 1) ℝ) := ⟨by simp, fun v => by simp⟩
  have hit : ∀ P, Psd P → iterateRobust eig1 epsH (1 : Matrix (Fin 1) (Fin 1) ℝ) 1 0 (1 : Matrix (Fin 1) (Fin 1) ℝ) P = (1, 0) := by
    intro P hP
    rw [C41_robust_is_regularised eig1_ok he _ _ _ _ _ psd_one hP]
    simp only [iterateNaive, Matrix.mul_zero, transpose_zero, smul_zero, Matrix.zero_mul, add_zero, sub_zero, transpose_one,
      Prod.mk.injEq, and_true]
    rw [← two_smul ℝ, smul_smul]
    norm_num
  have hl : ∀ k, dareLoop (iterateRobust eig1 epsH (1 : Matrix (Fin 1) (Fin 1) ℝ) 1 0 (1 : Matrix (Fin 1) (Fin 1) ℝ))
      (fun M => |M 0 0|) (1 / 1000000) (k + 3) 0 K0 1 = (1, 0, 0) := by
    intro k
    rw [dareLoop, if_pos (by norm_num), hit 0 z0]
    dsimp only
    rw [dareLoop, if_pos (by simp; norm_num), hit 1 psd_one]
    dsimp only
    rw [dareLoop, if_neg (by simp)]
    simp
  have hd : dare (iterateRobust eig1 epsH (1 : Matrix (Fin 1) (Fin 1) ℝ) 1 0 (1 : Matrix (Fin 1) (Fin 1) ℝ)) (fun M => |M 0 0|)
      (1 / 1000000) 1000 0 K0 = .ok (1, 0) := by
    unfold dare
    rw [show (1000 : Nat) = 997 + 3 from rfl, hl]
    norm_num
  refine ⟨{ memoryless x with P := 1, x := x }, ?_, rfl, rfl, ?_⟩
  · unfold Ssf.update
    simp only [memoryless, lti, transpose_zero, transpose_one, hd, Res.ok_bind, Res.pure_eq, zero_mulVec, sub_zero]
  · have : ((1 : Matrix (Fin 1) (Fin 1) ℝ) + regularised epsH 1) = (2 + epsH) • 1 := by
      rw [regularised]; ext i j; fin_cases i; fin_cases j; simp; ring
    have hi : ((2 + epsH) • (1 : Matrix (Fin 1) (Fin 1) ℝ))⁻¹ = (2 + epsH)⁻¹ • 1 := by
      apply inv_eq_left_inv
      rw [smul_mul_smul_comm, Matrix.one_mul, inv_mul_cancel₀ (by linarith), one_smul]
    simp only [kalmanGain, transpose_one, Matrix.one_mul, Matrix.mul_one, this, hi]
    simp

end CT.Filter
