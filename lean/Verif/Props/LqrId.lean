import Verif.Model.LqrId
import Verif.Props.Lqr
import Verif.Props.Actuator
import Mathlib.Analysis.Calculus.MeanValue
import Mathlib.Analysis.Calculus.Deriv.Prod
import Mathlib.Analysis.Matrix.Order
import Mathlib.Analysis.SpecialFunctions.ExpDeriv
import Mathlib.Analysis.SpecialFunctions.Sqrt
import Mathlib.Topology.MetricSpace.ProperSpace.Lemmas
import Mathlib.Analysis.Normed.Module.FiniteDimension

/-!
# C147: stabilising a pose with inverse dynamics torques and LQR feedback

Specification: motions of the system under the controller, Fréchet derivative of the dynamics, exponential decay.
-/

namespace CT.LqrId

open CT.Lqr CT.Actuator Matrix Set

/-! ### Quadratic forms -/

section Quad

variable {k : ℕ}

theorem bil_bound (P : Matrix (Fin k) (Fin k) ℝ) :
    ∃ C, 0 < C ∧ ∀ u w : Fin k → ℝ, |u ⬝ᵥ (P *ᵥ w)| ≤ C * ‖u‖ * ‖w‖ := by
  refine ⟨(∑ i, ∑ j, |P i j|) + 1, by positivity, fun u w => ?_⟩
  have h : |u ⬝ᵥ (P *ᵥ w)| ≤ (∑ i, ∑ j, |P i j|) * ‖u‖ * ‖w‖ := by
    simp only [dotProduct, mulVec, Finset.mul_sum, Finset.sum_mul]
    refine (Finset.abs_sum_le_sum_abs _ _).trans (Finset.sum_le_sum fun i _ => ?_)
    refine (Finset.abs_sum_le_sum_abs _ _).trans (Finset.sum_le_sum fun j _ => ?_)
    rw [abs_mul, abs_mul]
    have h1 : |u i| ≤ ‖u‖ := norm_le_pi_norm u i
    have h2 : |w j| ≤ ‖w‖ := norm_le_pi_norm w j
    have h3 : |u i| * |w j| ≤ ‖u‖ * ‖w‖ := mul_le_mul h1 h2 (abs_nonneg _) (norm_nonneg _)
    nlinarith [abs_nonneg (P i j)]
  nlinarith [norm_nonneg u, norm_nonneg w, mul_nonneg (norm_nonneg u) (norm_nonneg w)]

theorem quad_smul (P : Matrix (Fin k) (Fin k) ℝ) (a : ℝ) (v : Fin k → ℝ) :
    (a • v) ⬝ᵥ (P *ᵥ (a • v)) = a ^ 2 * (v ⬝ᵥ (P *ᵥ v)) := by
  rw [mulVec_smul, dotProduct_smul, smul_dotProduct, smul_eq_mul, smul_eq_mul]; ring

theorem pd_lower {P : Matrix (Fin k) (Fin k) ℝ} (hP : Pd P) : ∃ l, 0 < l ∧ ∀ v : Fin k → ℝ, l * ‖v‖ ^ 2 ≤ v ⬝ᵥ (P *ᵥ v) := by
  by_cases hne : (Metric.sphere (0 : Fin k → ℝ) 1).Nonempty
  · have hc : Continuous fun v : Fin k → ℝ => v ⬝ᵥ (P *ᵥ v) := by
      simp only [dotProduct, mulVec]
      fun_prop
    obtain ⟨w, hw, hmin⟩ := (isCompact_sphere (0 : Fin k → ℝ) 1).exists_isMinOn hne hc.continuousOn
    have hw1 : ‖w‖ = 1 := by simpa using hw
    refine ⟨w ⬝ᵥ (P *ᵥ w), hP.2 w fun h => by simp [h] at hw1, fun v => ?_⟩
    by_cases hv : v = 0
    · simp [hv]
    · have hn : ‖v‖ ≠ 0 := norm_ne_zero_iff.2 hv
      have h1 : (‖v‖⁻¹ • v) ∈ Metric.sphere (0 : Fin k → ℝ) 1 := by
        simp [norm_smul, hn]
      have h2 := hmin h1
      simp only [mem_setOf_eq] at h2
      rw [quad_smul] at h2
      have h3 : (0 : ℝ) < ‖v‖ ^ 2 := by positivity
      calc w ⬝ᵥ (P *ᵥ w) * ‖v‖ ^ 2 ≤ (‖v‖⁻¹ ^ 2 * (v ⬝ᵥ (P *ᵥ v))) * ‖v‖ ^ 2 := mul_le_mul_of_nonneg_right h2 h3.le
        _ = v ⬝ᵥ (P *ᵥ v) := by field_simp
  · refine ⟨1, one_pos, fun v => ?_⟩
    have hv : v = 0 := by
      by_contra hv
      exact hne ⟨‖v‖⁻¹ • v, by simp [norm_smul, norm_ne_zero_iff.2 hv]⟩
    simp [hv]

theorem quad_deriv {P : Matrix (Fin k) (Fin k) ℝ} (hP : Pᵀ = P) {e : ℝ → Fin k → ℝ} {d : Fin k → ℝ} {s : Set ℝ} {t : ℝ}
    (h : HasDerivWithinAt e d s t) :
    HasDerivWithinAt (fun t => e t ⬝ᵥ (P *ᵥ e t)) (2 * (e t ⬝ᵥ (P *ᵥ d))) s t := by
  have hi := hasDerivWithinAt_pi.1 h
  have h1 : HasDerivWithinAt (fun t => e t ⬝ᵥ (P *ᵥ e t)) (∑ i, (d i * ∑ j, P i j * e t j + e t i * ∑ j, P i j * d j)) s t := by
    simp only [dotProduct, mulVec]
    refine HasDerivWithinAt.fun_sum fun i _ => (hi i).mul (HasDerivWithinAt.fun_sum fun j _ => (hi j).const_mul _)
  refine h1.congr_deriv ?_
  have h2 : d ⬝ᵥ (P *ᵥ e t) = e t ⬝ᵥ (P *ᵥ d) := by
    rw [dotProduct_mulVec, ← mulVec_transpose, hP, dotProduct_comm]
  rw [Finset.sum_add_distrib]
  change d ⬝ᵥ (P *ᵥ e t) + e t ⬝ᵥ (P *ᵥ d) = _
  rw [h2]; ring

/-- Lyapunov's indirect method: if the quadratic form `P` decreases along the linearisation, motions that start
near the equilibrium approach it exponentially. -/
theorem lyapunov {P S : Matrix (Fin k) (Fin k) ℝ} (hP : Pd P) (hS : Pd S) {F : (Fin k → ℝ) → Fin k → ℝ} {z : Fin k → ℝ}
    {L : (Fin k → ℝ) →L[ℝ] (Fin k → ℝ)} (hF : HasFDerivAt F L z) (h0 : F z = 0)
    (hL : ∀ e, 2 * (e ⬝ᵥ (P *ᵥ L e)) ≤ -(e ⬝ᵥ (S *ᵥ e))) :
    ∃ r c M : ℝ, 0 < r ∧ 0 < c ∧ ∀ x : ℝ → Fin k → ℝ, (∀ t, 0 ≤ t → HasDerivWithinAt x (F (x t)) (Ici 0) t) → ‖x 0 - z‖ < r →
      ∀ t, 0 ≤ t → ‖x t - z‖ ≤ M * Real.exp (-c * t) * ‖x 0 - z‖ := by
  obtain ⟨C, hC, hCb⟩ := bil_bound P
  obtain ⟨l, hl, hlb⟩ := pd_lower hP
  obtain ⟨s, hs, hsb⟩ := pd_lower hS
  have heps : 0 < s / (4 * C) := by positivity
  have hlo := hF.isLittleO.def heps
  rw [Metric.eventually_nhds_iff] at hlo
  obtain ⟨δ, hδ, hδb⟩ := hlo
  -- decrease near the equilibrium
  have hdec : ∀ y, ‖y - z‖ < δ → 2 * ((y - z) ⬝ᵥ (P *ᵥ F y)) ≤ -(s / (2 * C)) * ((y - z) ⬝ᵥ (P *ᵥ (y - z))) := by
    intro y hy
    have h1 := hδb (show dist y z < δ by rwa [dist_eq_norm])
    rw [h0, sub_zero] at h1
    have h2 : (y - z) ⬝ᵥ (P *ᵥ F y) = (y - z) ⬝ᵥ (P *ᵥ L (y - z)) + (y - z) ⬝ᵥ (P *ᵥ (F y - L (y - z))) := by
      rw [← dotProduct_add, ← mulVec_add, add_sub_cancel]
    have h3 := (le_abs_self _).trans (hCb (y - z) (F y - L (y - z)))
    have h4 := (le_abs_self _).trans (hCb (y - z) (y - z))
    have h5 := hL (y - z)
    have h6 := hsb (y - z)
    have hn := norm_nonneg (y - z)
    have h7 : C * ‖y - z‖ * ‖F y - L (y - z)‖ ≤ s / 4 * ‖y - z‖ ^ 2 := by
      calc C * ‖y - z‖ * ‖F y - L (y - z)‖ ≤ C * ‖y - z‖ * (s / (4 * C) * ‖y - z‖) := mul_le_mul_of_nonneg_left h1 (by positivity)
        _ = s / 4 * ‖y - z‖ ^ 2 := by field_simp
    have h8 : s / (2 * C) * ((y - z) ⬝ᵥ (P *ᵥ (y - z))) ≤ s / 2 * ‖y - z‖ ^ 2 := by
      calc s / (2 * C) * ((y - z) ⬝ᵥ (P *ᵥ (y - z))) ≤ s / (2 * C) * (C * ‖y - z‖ * ‖y - z‖) :=
            mul_le_mul_of_nonneg_left h4 (by positivity)
        _ = s / 2 * ‖y - z‖ ^ 2 := by field_simp
    rw [h2]; linarith
  have hlC : ∀ v : Fin k → ℝ, v ⬝ᵥ (P *ᵥ v) ≤ C * ‖v‖ ^ 2 := fun v => by
    have := (le_abs_self _).trans (hCb v v); nlinarith
  refine ⟨δ * √(l / C), s / (8 * C), √(C / l), by positivity, by positivity, fun x hx hr t ht => ?_⟩
  set V : ℝ → ℝ := fun t => (x t - z) ⬝ᵥ (P *ᵥ (x t - z)) with hV
  have hV0 : V 0 < l * δ ^ 2 := by
    have h1 : ‖x 0 - z‖ ^ 2 < (δ * √(l / C)) ^ 2 := pow_lt_pow_left₀ hr (norm_nonneg _) two_ne_zero
    rw [mul_pow, Real.sq_sqrt (by positivity)] at h1
    calc V 0 ≤ C * ‖x 0 - z‖ ^ 2 := hlC _
      _ < C * (δ ^ 2 * (l / C)) := mul_lt_mul_of_pos_left h1 hC
      _ = l * δ ^ 2 := by field_simp
  have hVnn : ∀ t, 0 ≤ V t := fun t => le_trans (by positivity) (hlb (x t - z))
  have hVd : ∀ t, 0 ≤ t → HasDerivWithinAt V (2 * ((x t - z) ⬝ᵥ (P *ᵥ F (x t)))) (Ici 0) t := fun t ht =>
    quad_deriv hP.1 ((hx t ht).sub_const z)
  have key : ∀ w, V 0 < w → w < l * δ ^ 2 → V t ≤ w * Real.exp (-(s / (4 * C)) * t) := by
    intro w hw hw'
    have hw0 : 0 < w := (hVnn 0).trans_lt hw
    refine image_le_of_deriv_right_lt_deriv_boundary (a := 0) (b := t) (f := V) (f' := fun t => 2 * ((x t - z) ⬝ᵥ (P *ᵥ F (x t))))
      (B := fun t => w * Real.exp (-(s / (4 * C)) * t)) (B' := fun t => w * (Real.exp (-(s / (4 * C)) * t) * -(s / (4 * C)))) ?_ ?_ ?_ ?_ ?_ ⟨ht, le_rfl⟩
    · exact fun y hy => ((hVd y hy.1).continuousWithinAt).mono fun a ha => ha.1
    · exact fun y hy => (hVd y hy.1).mono fun a ha => hy.1.trans ha
    · simpa using hw.le
    · intro y
      have : HasDerivAt (fun t : ℝ => -(s / (4 * C)) * t) (-(s / (4 * C))) y := by
        simpa using (hasDerivAt_id y).const_mul (-(s / (4 * C)))
      exact this.exp.const_mul w
    · intro y hy hVy
      have he : Real.exp (-(s / (4 * C)) * y) ≤ 1 := Real.exp_le_one_iff.2 (by nlinarith [mul_nonneg heps.le hy.1])
      have hVw : V y ≤ w := by rw [hVy]; nlinarith
      have hVp : 0 < V y := by rw [hVy]; positivity
      have h1 : ‖x y - z‖ < δ := by
        have h2 : l * ‖x y - z‖ ^ 2 < l * δ ^ 2 := ((hlb _).trans hVw).trans_lt hw'
        exact lt_of_pow_lt_pow_left₀ 2 hδ.le (lt_of_mul_lt_mul_left h2 hl.le)
      have h3 := hdec (x y) h1
      have h4 : -(s / (2 * C)) * V y < -(s / (4 * C)) * V y := by
        have h5 : s / (2 * C) = 2 * (s / (4 * C)) := by field_simp; norm_num
        rw [h5]; nlinarith
      have h6 : w * (Real.exp (-(s / (4 * C)) * y) * -(s / (4 * C))) = -(s / (4 * C)) * V y := by rw [hVy]; ring
      rw [h6]
      exact h3.trans_lt h4
  have hfin : V t ≤ V 0 * Real.exp (-(s / (4 * C)) * t) := by
    have hE := Real.exp_pos (-(s / (4 * C)) * t)
    refine le_of_forall_pos_lt_add fun ε hε => ?_
    obtain ⟨w, hw1, hw2⟩ := exists_between (show V 0 < min (l * δ ^ 2) (V 0 + ε / Real.exp (-(s / (4 * C)) * t)) from
      lt_min hV0 (lt_add_of_pos_right _ (by positivity)))
    refine (key w hw1 (hw2.trans_le (min_le_left _ _))).trans_lt ?_
    have h1 := hw2.trans_le (min_le_right _ _)
    calc w * Real.exp (-(s / (4 * C)) * t) < (V 0 + ε / Real.exp (-(s / (4 * C)) * t)) * Real.exp (-(s / (4 * C)) * t) :=
          mul_lt_mul_of_pos_right h1 hE
      _ = V 0 * Real.exp (-(s / (4 * C)) * t) + ε := by field_simp
  refine le_of_sq_le_sq ?_ (by positivity)
  have hexp : Real.exp (-(s / (8 * C)) * t) ^ 2 = Real.exp (-(s / (4 * C)) * t) := by
    rw [← Real.exp_nat_mul]; congr 1; push_cast; field_simp; ring
  rw [mul_pow, mul_pow, Real.sq_sqrt (by positivity), hexp]
  have h1 : l * ‖x t - z‖ ^ 2 ≤ C * ‖x 0 - z‖ ^ 2 * Real.exp (-(s / (4 * C)) * t) :=
    (hlb _).trans (hfin.trans (mul_le_mul_of_nonneg_right (hlC _) (Real.exp_pos _).le))
  calc ‖x t - z‖ ^ 2 = l * ‖x t - z‖ ^ 2 / l := by field_simp
    _ ≤ C * ‖x 0 - z‖ ^ 2 * Real.exp (-(s / (4 * C)) * t) / l := div_le_div_of_nonneg_right h1 hl.le
    _ = C / l * Real.exp (-(s / (4 * C)) * t) * ‖x 0 - z‖ ^ 2 := by ring

end Quad

/-! ### C147 -/

section Main

variable {n : ℕ} {W : Type} [Zero W]

/-- C147, the pose: whatever the controller did before and whatever the design returns, in the setpoint it commands
the inverse dynamics torques, and a robot at rest in the setpoint stays there, provided that forward dynamics
inverts inverse dynamics (`C147_robots`). -/
theorem C147_setpoint (rb : Rob n 0 W) (lin : LinSys n) (eg : Eig (n + n)) (junk Q : Matrix (Fin (n + n)) (Fin (n + n)) ℝ)
    (R : Matrix (Fin n) (Fin n) ℝ) (c : Ctrl n) (q : Fin n → ℝ) (hid : rb.fd ⟨q, 0⟩ (rb.idTorques ⟨q, 0⟩) (fun _ => 0) = 0) :
    let set := Fin.append q 0
    let c' := (c.design rb lin eg junk set Q R).2
    c'.control set = rb.idTorques ⟨q, 0⟩ ∧
    ∀ t (d : List ℝ) (act : Option (Act n 0)), d.length = 2 * n →
      rb.fdDynamics act (List.ofFn set) t (List.ofFn (c'.control set)) d = .ok (List.replicate (2 * n) 0) := by
  intro set c'
  have hj : joints set = ⟨q, 0⟩ := by simp only [joints, set, Fin.append_left, Fin.append_right, Pi.zero_def]
  have h1 : c'.control set = rb.idTorques ⟨q, 0⟩ := by
    simp only [c', Ctrl.control, Ctrl.design, hj, sub_self, mulVec_zero, sub_zero]
  refine ⟨h1, fun t d act hd => ?_⟩
  rw [h1, List.ofFn_fin_append]
  exact (C90_steady (m := 1) rb q t hid).1 d act hd

/-- A linear map given by two matrices. -/
noncomputable def linMap {k m : ℕ} (A : Matrix (Fin k) (Fin k) ℝ) (B : Matrix (Fin k) (Fin m) ℝ) :
    ((Fin k → ℝ) × (Fin m → ℝ)) →L[ℝ] (Fin k → ℝ) :=
  (A.mulVecLin.toContinuousLinearMap).coprod (B.mulVecLin.toContinuousLinearMap)

@[simp] theorem linMap_apply {k m : ℕ} (A : Matrix (Fin k) (Fin k) ℝ) (B : Matrix (Fin k) (Fin m) ℝ) (p : (Fin k → ℝ) × (Fin m → ℝ)) :
    linMap A B p = A *ᵥ p.1 + B *ᵥ p.2 := by simp [linMap]

/-- A semidefinite solution of the Riccati equation with definite state weight is definite. -/
theorem care_pd {k m : ℕ} {Q A P : Matrix (Fin k) (Fin k) ℝ} {B : Matrix (Fin k) (Fin m) ℝ} {R : Matrix (Fin m) (Fin m) ℝ}
    (h : SolvesCARE Q A B R P) (hQ : Pd Q) (hP : Psd P) : Pd P := by
  refine ⟨hP.1, fun v hv => lt_of_le_of_ne (hP.2 v) fun h0 => ?_⟩
  have hpsd : P.PosSemidef := by
    refine PosSemidef.of_dotProduct_mulVec_nonneg ?_ fun v => ?_
    · rw [IsHermitian, conjTranspose_eq_transpose_of_trivial, hP.1]
    · simpa using hP.2 v
  have hPv : P *ᵥ v = 0 := by
    have := (hpsd.dotProduct_mulVec_zero_iff v).1 (by simpa using h0.symm)
    exact this
  have h1 : v ⬝ᵥ ((Aᵀ * P + P * A - P * B * R⁻¹ * Bᵀ * P + Q) *ᵥ v) = 0 := by rw [h]; simp
  have h2 : v ⬝ᵥ ((P * A) *ᵥ v) = 0 := by
    rw [← mulVec_mulVec, dotProduct_mulVec, ← mulVec_transpose, hP.1, hPv, zero_dotProduct]
  rw [add_mulVec, sub_mulVec, add_mulVec, dotProduct_add, dotProduct_sub, dotProduct_add, h2, ← mulVec_mulVec, hPv,
    ← mulVec_mulVec (v := v) (M := P * B * R⁻¹ * Bᵀ), hPv] at h1
  simp only [mulVec_zero, dotProduct_zero, sub_zero, zero_add, add_zero] at h1
  exact (hQ.2 v hv).ne' h1

/-- C147, stability: if the design succeeds with a semidefinite solution of the Riccati equation, the weights are
definite and the linear system returns the derivatives of the dynamics at the setpoint, every motion of the
controlled robot that starts near the setpoint approaches it exponentially. -/
theorem C147_stable (rb : Rob n 0 W) (lin : LinSys n) (eg : Eig (n + n)) (junk Q : Matrix (Fin (n + n)) (Fin (n + n)) ℝ)
    (R : Matrix (Fin n) (Fin n) ℝ) (c c' : Ctrl n) (q : Fin n → ℝ) (hid : rb.fd ⟨q, 0⟩ (rb.idTorques ⟨q, 0⟩) (fun _ => 0) = 0)
    (hQ : Pd Q) (hR : Pd R) (hdes : c.design rb lin eg junk (Fin.append q 0) Q R = (true, c'))
    (hP : ∀ A B P, A = lin.A (Fin.append q 0) (rb.idTorques ⟨q, 0⟩) → B = lin.B (Fin.append q 0) (rb.idTorques ⟨q, 0⟩) →
      solveSchurIterative eg.approx eg.lu 100000 (hamiltonian Q A B R⁻¹) = some P → SolvesCARE Q A B R P ∧ Psd P)
    (f : (Fin (n + n) → ℝ) × (Fin n → ℝ) → Fin (n + n) → ℝ)
    (hf : ∀ x u t (d : List ℝ), d.length = 2 * n →
      rb.fdDynamics (none : Option (Act n 0)) (List.ofFn x) t (List.ofFn u) d = .ok (List.ofFn (f (x, u))))
    (hlin : HasFDerivAt f (linMap (lin.A (Fin.append q 0) (rb.idTorques ⟨q, 0⟩)) (lin.B (Fin.append q 0) (rb.idTorques ⟨q, 0⟩)))
      (Fin.append q 0, rb.idTorques ⟨q, 0⟩)) :
    ∃ r a M : ℝ, 0 < r ∧ 0 < a ∧ ∀ x : ℝ → Fin (n + n) → ℝ,
      (∀ t, 0 ≤ t → ∃ (d : List ℝ) (xd : Fin (n + n) → ℝ), d.length = 2 * n
        ∧ rb.fdDynamics (none : Option (Act n 0)) (List.ofFn (x t)) t (List.ofFn (c'.control (x t))) d = .ok (List.ofFn xd)
        ∧ HasDerivWithinAt x xd (Ici 0) t) →
      ‖x 0 - Fin.append q 0‖ < r → ∀ t, 0 ≤ t → ‖x t - Fin.append q 0‖ ≤ M * Real.exp (-a * t) * ‖x 0 - Fin.append q 0‖ := by
  set z : Fin (n + n) → ℝ := Fin.append q 0 with hz
  have hj : joints z = ⟨q, 0⟩ := by simp only [joints, z, Fin.append_left, Fin.append_right, Pi.zero_def]
  have hset := C147_setpoint rb lin eg junk Q R c q hid
  simp only [hdes, ← hz] at hset
  simp only [Ctrl.design, hj] at hdes
  set tau := rb.idTorques ⟨q, 0⟩ with htau
  set A := lin.A z tau with hA
  set B := lin.B z tau with hB
  simp only [compute] at hdes
  rw [rInverse_eq false R (by simp)] at hdes
  cases hs : solveSchurIterative eg.approx eg.lu 100000 (hamiltonian Q A B R⁻¹) with
  | none => rw [hs] at hdes; simp at hdes
  | some P =>
    rw [hs] at hdes
    obtain ⟨hcare, hpsd⟩ := hP A B P rfl rfl hs
    have hpd := care_pd hcare hQ hpsd
    have hc' : c' = ⟨z, tau, lqrGain R⁻¹ B P⟩ := (Prod.ext_iff.1 hdes).2.symm
    -- the closed loop
    let F : (Fin (n + n) → ℝ) → Fin (n + n) → ℝ := fun x => f (x, c'.control x)
    let Kl : (Fin (n + n) → ℝ) →L[ℝ] (Fin n → ℝ) := (c'.K.mulVecLin).toContinuousLinearMap
    have hK : HasFDerivAt (fun x => c'.control x) (-Kl) z := by
      have h1 : (fun x => c'.control x) = fun x => c'.tau - Kl (x - c'.set) := by
        funext x; simp [Ctrl.control, Kl]
      rw [h1]
      exact (Kl.hasFDerivAt.comp z ((hasFDerivAt_id z).sub_const c'.set)).const_sub c'.tau
    have hcz : c'.control z = tau := hset.1
    have hF : HasFDerivAt F ((linMap A B).comp ((ContinuousLinearMap.id ℝ _).prod (-Kl))) z :=
      HasFDerivAt.comp (g := f) z (by rw [hcz]; exact hlin) ((hasFDerivAt_id z).prodMk hK)
    have h0 : F z = 0 := by
      have h1 := hset.2 0 (List.replicate (2 * n) 0) none (by simp)
      rw [hf _ _ _ _ (by simp)] at h1
      have h2 := Res.ok.inj h1
      funext i
      have h3 := congrArg (fun l => l.getD i.val 0) h2
      have hi : i.val < n + n := i.isLt
      simpa [List.getD, F, hi] using h3
    have hdecr : ∀ e, 2 * (e ⬝ᵥ (P *ᵥ ((linMap A B).comp ((ContinuousLinearMap.id ℝ _).prod (-Kl))) e)) ≤ -(e ⬝ᵥ (Q *ᵥ e)) := by
      intro e
      have h1 := C40_gain Q A B R P hcare hpsd.1 hR.1 hR.isUnit e (-(lqrGain R⁻¹ B P *ᵥ e))
      rw [neg_add_cancel, mulVec_zero, dotProduct_zero] at h1
      have h2 : ((linMap A B).comp ((ContinuousLinearMap.id ℝ _).prod (-Kl))) e = A *ᵥ e + B *ᵥ (-(lqrGain R⁻¹ B P *ᵥ e)) := by
        simp [Kl, hc']
      have h3 := hR.psd.2 (-(lqrGain R⁻¹ B P *ᵥ e))
      rw [h2]; linarith
    obtain ⟨r, a, M, hr, ha, hmain⟩ := lyapunov hpd hQ hF h0 hdecr
    refine ⟨r, a, M, hr, ha, fun x hx => hmain x fun t ht => ?_⟩
    obtain ⟨d, xd, hd, he, hx'⟩ := hx t ht
    rw [hf _ _ _ _ hd] at he
    have : f (x t, c'.control (x t)) = xd := List.ofFn_injective (Res.ok.inj he)
    exact hx'.congr_deriv this.symm

end Main

/-! ### A failing design, and the loaded joint -/

/-- The exact linear model of the joint under load: a double integrator. -/
def loadedLin : LinSys 1 := ⟨fun _ _ => !![0, 1; 0, 0], fun _ _ => !![0; 1]⟩

/-- The dynamics of the joint under load. -/
def loadedDyn (p : (Fin 2 → ℝ) × (Fin 1 → ℝ)) : Fin 2 → ℝ := ![p.1 1, p.2 0 - 5]

theorem loaded_dyn (x : Fin 2 → ℝ) (u : Fin 1 → ℝ) (t : ℝ) (d : List ℝ) (hd : d.length = 2 * 1) :
    loaded.fdDynamics (none : Option (Act 1 0)) (List.ofFn x) t (List.ofFn u) d = .ok (List.ofFn (loadedDyn (x, u))) := by
  have h := C90_torques loaded (fun _ => x 0) (fun _ => x 1) u [] t d none hd
  simpa [loaded, loadedDyn, List.ofFn_succ] using h

/-- Weights and Riccati solution of the double integrator. -/
def exQ : Matrix (Fin (1 + 1)) (Fin (1 + 1)) ℝ := !![1, 0; 0, 2]
def exP : Matrix (Fin (1 + 1)) (Fin (1 + 1)) ℝ := !![2, 1; 1, 2]

/-- C147, negated for a failing design: the controller does not keep the gain of the last successful design.  If the
Riccati solver does not converge, the design returns false, but the controller now uses a gain computed from an
uninitialised matrix; for the joint under load this may be any gain at all. -/
theorem C147_failed_violated (K' : Matrix (Fin 1) (Fin (1 + 1)) ℝ) (c : Ctrl 1) (set : Fin (1 + 1) → ℝ) :
    ∃ (eg : Eig (1 + 1)) (junk : Matrix (Fin (1 + 1)) (Fin (1 + 1)) ℝ),
      (c.design loaded loadedLin eg junk set exQ 1).1 = false ∧ (c.design loaded loadedLin eg junk set exQ 1).2.K = K' := by
  refine ⟨⟨fun _ _ => false, fun _ _ => 0⟩, !![0, 0; K' 0 0, K' 0 1], ?_⟩
  have h : ∀ k (M : Matrix (Fin (1 + 1) ⊕ Fin (1 + 1)) (Fin (1 + 1) ⊕ Fin (1 + 1)) ℝ), signLoop (fun _ _ => false) k M = none := by
    intro k
    induction k with
    | zero => exact fun _ => rfl
    | succ k ih => intro M; simp only [signLoop, Bool.false_eq_true, if_false, ih]
  have hc : solveSchurIterative (fun _ _ => false) (fun _ _ => 0) 100000
      (hamiltonian exQ (loadedLin.A set (loaded.idTorques (joints set))) (loadedLin.B set (loaded.idTorques (joints set))) (rInverse false 1)) = none := by
    rw [solveSchurIterative, h]; rfl
  constructor
  · simp only [Ctrl.design, compute, hc]
  · simp only [Ctrl.design, compute, hc]
    ext i j
    fin_cases i
    fin_cases j <;> simp [lqrGain, rInverse, loadedLin, Matrix.mul_apply, Fin.sum_univ_succ]

theorem loaded_deriv (p : (Fin 2 → ℝ) × (Fin 1 → ℝ)) : HasFDerivAt loadedDyn (linMap (!![0, 1; 0, 0] : Matrix (Fin 2) (Fin 2) ℝ) !![0; 1]) p := by
  have h1 : loadedDyn = fun p => linMap (!![0, 1; 0, 0] : Matrix (Fin 2) (Fin 2) ℝ) (!![0; 1] : Matrix (Fin 2) (Fin 1) ℝ) p + ![0, -5] := by
    funext p i
    fin_cases i <;> simp [loadedDyn, vecHead, vecTail] <;> ring
  rw [h1]
  exact (ContinuousLinearMap.hasFDerivAt _).add_const _

theorem exQ_pd : Pd exQ := by
  refine ⟨by ext i j; fin_cases i <;> fin_cases j <;> simp [exQ], fun v hv => ?_⟩
  have h : v ⬝ᵥ (exQ *ᵥ v) = v 0 ^ 2 + 2 * v 1 ^ 2 := by
    simp [exQ, dotProduct, Fin.sum_univ_two, mulVec]; ring
  rw [h]
  by_contra hn
  apply hv
  have h0 : v 0 = 0 := by nlinarith [sq_nonneg (v 0), sq_nonneg (v 1)]
  have h1 : v 1 = 0 := by nlinarith [sq_nonneg (v 0), sq_nonneg (v 1)]
  funext i; fin_cases i <;> assumption

theorem exP_psd : Psd exP := by
  refine ⟨by ext i j; fin_cases i <;> fin_cases j <;> simp [exP], fun v => ?_⟩
  have h : v ⬝ᵥ (exP *ᵥ v) = v 0 ^ 2 + v 1 ^ 2 + (v 0 + v 1) ^ 2 := by
    simp [exP, dotProduct, Fin.sum_univ_two, mulVec]; ring
  rw [h]; positivity

theorem exP_care : SolvesCARE exQ !![0, 1; 0, 0] (!![0; 1] : Matrix (Fin 2) (Fin 1) ℝ) 1 exP := by
  unfold SolvesCARE
  rw [inv_one]
  ext i j
  fin_cases i <;> fin_cases j <;> simp [exQ, exP, Matrix.mul_apply, Fin.sum_univ_two, vecMul, dotProduct] <;> norm_num

/-- The hypotheses of `C147_setpoint` and `C147_stable` hold for the joint under load; a motion that does not stay in
the setpoint is `1 + exp (-t)`. -/
example : ∃ (eg : Eig (1 + 1)) (c' : Ctrl 1),
    let q : Fin 1 → ℝ := fun _ => 1
    loaded.fd ⟨q, 0⟩ (loaded.idTorques ⟨q, 0⟩) (fun _ => 0) = 0
    ∧ (Ctrl.new 1).design loaded loadedLin eg 0 (Fin.append q 0) exQ 1 = (true, c')
    ∧ Pd exQ ∧ Pd (1 : Matrix (Fin 1) (Fin 1) ℝ)
    ∧ (∀ A B P, A = loadedLin.A (Fin.append q 0) (loaded.idTorques ⟨q, 0⟩) → B = loadedLin.B (Fin.append q 0) (loaded.idTorques ⟨q, 0⟩) →
      solveSchurIterative eg.approx eg.lu 100000 (hamiltonian exQ A B 1⁻¹) = some P → SolvesCARE exQ A B 1 P ∧ Psd P)
    ∧ (∀ x u t (d : List ℝ), d.length = 2 * 1 →
      loaded.fdDynamics (none : Option (Act 1 0)) (List.ofFn x) t (List.ofFn u) d = .ok (List.ofFn (loadedDyn (x, u))))
    ∧ HasFDerivAt loadedDyn (linMap (loadedLin.A (Fin.append q 0) (loaded.idTorques ⟨q, 0⟩)) (loadedLin.B (Fin.append q 0) (loaded.idTorques ⟨q, 0⟩)))
      ((Fin.append q 0 : Fin (1 + 1) → ℝ), loaded.idTorques ⟨q, 0⟩)
    ∧ ∀ t, 0 ≤ t → ∃ (d : List ℝ) (xd : Fin (1 + 1) → ℝ), d.length = 2 * 1
        ∧ loaded.fdDynamics (none : Option (Act 1 0)) (List.ofFn ![1 + Real.exp (-t), -Real.exp (-t)]) t
          (List.ofFn (c'.control ![1 + Real.exp (-t), -Real.exp (-t)])) d = .ok (List.ofFn xd)
        ∧ HasDerivWithinAt (fun t => ![1 + Real.exp (-t), -Real.exp (-t)]) xd (Ici 0) t := by
  have hl : signLoop (n := 1 + 1) (fun _ _ => true) 100001 = fun M => some (signStep M) := by
    funext M; rw [signLoop]; simp
  have hs : ∀ M, solveSchurIterative (n := 1 + 1) (fun _ _ => true) (fun _ _ => exP) 100000 M = some exP := by
    intro M; rw [solveSchurIterative, hl]; rfl
  have hone : Pd (1 : Matrix (Fin 1) (Fin 1) ℝ) := by
    refine ⟨by simp, fun v hv => ?_⟩
    have : v 0 ≠ 0 := fun h => hv (by funext i; fin_cases i; exact h)
    simp only [one_mulVec, dotProduct, Finset.univ_unique, Fin.default_eq_zero, Finset.sum_singleton]
    exact mul_self_pos.2 this
  refine ⟨⟨fun _ _ => true, fun _ _ => exP⟩, ⟨Fin.append (fun _ => 1) 0, fun _ => 5, !![1, 2]⟩, ?_⟩
  intro q
  have hset : (Fin.append q (0 : Fin 1 → ℝ)) = ![1, 0] := by funext i; fin_cases i <;> rfl
  refine ⟨by funext i; simp [loaded, Rob.idTorques], ?_, exQ_pd, hone, ?_, loaded_dyn, loaded_deriv _, fun t ht => ?_⟩
  · simp only [Ctrl.design, compute, hs, Prod.mk.injEq, true_and]
    refine Ctrl.ext rfl ?_ ?_
    · funext i; simp [loaded, Rob.idTorques]
    · ext i j
      fin_cases i
      fin_cases j <;> simp [lqrGain, rInverse, loadedLin, exP, Matrix.mul_apply, Fin.sum_univ_succ]
  · rintro A B P rfl rfl h
    rw [hs] at h
    cases h
    exact ⟨exP_care, exP_psd⟩
  · refine ⟨[0, 0], ![-Real.exp (-t), Real.exp (-t)], rfl, ?_, ?_⟩
    · rw [loaded_dyn _ _ _ _ rfl]
      congr 1
      congr 1
      funext i
      fin_cases i
      · simp [loadedDyn]
      · simp [loadedDyn, Ctrl.control, hset, q]; ring
    · rw [hasDerivWithinAt_pi]
      have he : HasDerivAt (fun t : ℝ => Real.exp (-t)) (-Real.exp (-t)) t := by
        simpa using (hasDerivAt_neg t).exp
      intro i
      fin_cases i
      · simpa using (he.const_add 1).hasDerivWithinAt
      · simpa using he.fun_neg.hasDerivWithinAt

end CT.LqrId
