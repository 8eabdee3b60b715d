import Verif.Props.LqrId
import Verif.Model.Robots.Systems
import Verif.Props.Robots.InvertedPendulum
import Verif.Props.Robots.DoubleInvertedPendulum
import Verif.Props.Robots.HyA

/-!
# C147 for the robots of ct_models

The poses that inverse dynamics torques hold, and the stabilised inverted pendulum.
-/

namespace CT.LqrId

open CT.Lqr CT.Actuator CT.Robots Matrix Set Spatial Articulated

/-- C147: for the two pendulums and HyA the inverse dynamics torques keep the robot at rest in every position, whatever
was called before on the object: the hypothesis of `C147_setpoint`. -/
theorem C147_robots :
    (∀ y ds q, (InvertedPendulum.rob y ds).fd ⟨q, 0⟩ ((InvertedPendulum.rob y ds).idTorques ⟨q, 0⟩) (fun _ => 0) = 0)
    ∧ (∀ y ds q, (DoubleInvertedPendulum.rob y ds).fd ⟨q, 0⟩ ((DoubleInvertedPendulum.rob y ds).idTorques ⟨q, 0⟩) (fun _ => 0) = 0)
    ∧ ∀ y ds q, (HyA.rob y ds).fd ⟨q, 0⟩ ((HyA.rob y ds).idTorques ⟨q, 0⟩) (fun _ => 0) = 0 := by
  refine ⟨fun y ds q => ?_, fun y ds q => ?_, fun y ds q => ?_⟩
  · exact ((InvertedPendulum.C124_InvertedPendulum y y ds ds q 0 _ (fun _ => 0) 0).1 rfl).symm
  · exact ((DoubleInvertedPendulum.C124_DoubleInvertedPendulum y y ds ds q 0 _ (fun _ => 0) 0).1 rfl).symm
  · have h := (HyA.C124_HyA y y ds ds q 0 ((HyA.Robot.after y ds).id q 0 (fun _ => 0) 0).2 (fun _ => 0) (fun _ => 0)).1
    generalize hz : (fun _ => 0 : HyA.Ext) = z at h
    have hz' : (0 : HyA.Ext) = z := hz
    simp only [HyA.rob, Rob.idTorques]
    rw [hz'] at h ⊢
    generalize ht : ((HyA.Robot.after y ds).id q 0 (fun _ => 0) z).2 = tau at h ⊢
    have := h rfl
    generalize (HyA.Robot.after y ds).fd = g at this ⊢
    subst hz
    exact this.symm

/-- Moment of inertia about the joint and moment of gravity of the pendulum: 1.811 kg at 0.293 m. -/
noncomputable def pendI : ℝ := 0.16452757
noncomputable def pendG : ℝ := 1.811 * 0.293 * 9.81

/-- The generated forward dynamics of the pendulum is that of the textbook pendulum, position zero being upright. -/
theorem pendulum_fd (y : InvertedPendulum.Robot) (ds : List InvertedPendulum.Call) (q qd tau : InvertedPendulum.Q) :
    ((InvertedPendulum.Robot.after y ds).fd q qd tau 0).2 = fun _ => (tau 0 + pendG * Real.sin (q 0)) / pendI := by
  apply List.ofFn_injective
  rw [InvertedPendulum.fd_eq (InvertedPendulum.inv_after y ds)]
  have hfa : ∀ (X : M6) (i : Fin 6), firstAcc X i = X i 5 * grav := fun _ _ => rfl
  simp only [InvertedPendulum.linksAt, InvertedPendulum.links, List.ofFn_succ, List.ofFn_zero, List.zip_cons_cons, List.zip_nil_left, fdFixed,
    up, down, Joint.AI, addM, addV, accel, List.cons.injEq, and_true, dotProduct, Fin.sum_univ_succ, hfa]
  simp [InvertedPendulum.Inertias.std, InvertedPendulum.Inertias.new, InvertedPendulum.tensor_Link1, Inertia.fill, Inertia.new,
    buildInertiaTensor, InvertedPendulum.MT.at, InvertedPendulum.MT.setJointStatus, InvertedPendulum.MT.new,
    InvertedPendulum.motion_fr_Link1_X_fr_InvertedPendulumBase_update, InvertedPendulum.motion_fr_Link1_X_fr_InvertedPendulumBase_new,
    vxIvz, grav, pendI, pendG, show (0.0 : ℝ) = 0 by norm_num]
  ring

/-- The dynamics of the pendulum. -/
noncomputable def pendDyn (p : (Fin (1 + 1) → ℝ) × (Fin 1 → ℝ)) : Fin (1 + 1) → ℝ :=
  ![p.1 1, (p.2 0 + pendG * Real.sin (p.1 0)) / pendI]

/-- Its derivatives. -/
noncomputable def pendA (x : Fin (1 + 1) → ℝ) : Matrix (Fin (1 + 1)) (Fin (1 + 1)) ℝ := !![0, 1; pendG * Real.cos (x 0) / pendI, 0]
noncomputable def pendB : Matrix (Fin (1 + 1)) (Fin 1) ℝ := !![0; 1 / pendI]

theorem pend_dyn (y : InvertedPendulum.Robot) (ds : List InvertedPendulum.Call) (x : Fin (1 + 1) → ℝ) (u : Fin 1 → ℝ) (t : ℝ) (d : List ℝ)
    (hd : d.length = 2 * 1) :
    (InvertedPendulum.rob y ds).fdDynamics (none : Option (Act 1 0)) (List.ofFn x) t (List.ofFn u) d = .ok (List.ofFn (pendDyn (x, u))) := by
  have h := C90_torques (InvertedPendulum.rob y ds) (fun _ => x 0) (fun _ => x 1) u [] t d none hd
  have hfd : (InvertedPendulum.rob y ds).fd ⟨fun _ => x 0, fun _ => x 1⟩ u
      ((InvertedPendulum.rob y ds).linkForces (List.ofFn u ++ []) fun _ => x 0) = fun _ => (u 0 + pendG * Real.sin (x 0)) / pendI := by
    have := pendulum_fd y ds (fun _ => x 0) (fun _ => x 1) u
    simpa [InvertedPendulum.rob, Rob.linkForces, Pi.zero_def] using this
  rw [hfd] at h
  simpa [pendDyn, List.ofFn_succ] using h

theorem pend_deriv (p : (Fin (1 + 1) → ℝ) × (Fin 1 → ℝ)) : HasFDerivAt pendDyn (linMap (pendA p.1) pendB) p := by
  rw [hasFDerivAt_pi']
  intro i
  have hx : ∀ j, HasFDerivAt (fun p : (Fin (1 + 1) → ℝ) × (Fin 1 → ℝ) => p.1 j)
      ((ContinuousLinearMap.proj j).comp (ContinuousLinearMap.fst ℝ _ _)) p := fun j =>
    (ContinuousLinearMap.hasFDerivAt ((ContinuousLinearMap.proj (R := ℝ) (φ := fun _ : Fin (1 + 1) => ℝ) j).comp (ContinuousLinearMap.fst ℝ (Fin (1 + 1) → ℝ) (Fin 1 → ℝ))))
  have hu : HasFDerivAt (fun p : (Fin (1 + 1) → ℝ) × (Fin 1 → ℝ) => p.2 0)
      ((ContinuousLinearMap.proj 0).comp (ContinuousLinearMap.snd ℝ _ _)) p :=
    (ContinuousLinearMap.hasFDerivAt ((ContinuousLinearMap.proj (R := ℝ) (φ := fun _ : Fin 1 => ℝ) 0).comp (ContinuousLinearMap.snd ℝ (Fin (1 + 1) → ℝ) (Fin 1 → ℝ))))
  fin_cases i
  · refine (hx 1).congr_fderiv ?_
    ext v
    · simp [pendA, pendB, vecHead, vecTail]
    · simp [pendA, pendB]
  · have h := (hu.add ((hx 0).sin.const_mul pendG)).mul_const pendI⁻¹
    refine (h.congr_fderiv ?_).congr_of_eventuallyEq ?_
    · ext v
      · simp [pendA, pendB, vecHead]; ring
      · simp [pendA, pendB, vecHead]
    · exact Filter.Eventually.of_forall fun p => by simp [pendDyn, div_eq_mul_inv]

/-- C147 for the inverted pendulum: with the derivatives of the dynamics, definite weights and a semidefinite solution of
the Riccati equation, the controller stabilises the pendulum in every position, also upright. -/
theorem C147_pendulum (y : InvertedPendulum.Robot) (ds : List InvertedPendulum.Call) (lin : LinSys 1) (eg : Eig (1 + 1))
    (junk Q : Matrix (Fin (1 + 1)) (Fin (1 + 1)) ℝ) (R : Matrix (Fin 1) (Fin 1) ℝ) (c c' : Ctrl 1) (q : Fin 1 → ℝ) (hQ : Pd Q) (hR : Pd R)
    (hA : ∀ x u, lin.A x u = pendA x) (hB : ∀ x u, lin.B x u = pendB)
    (hdes : c.design (InvertedPendulum.rob y ds) lin eg junk (Fin.append q 0) Q R = (true, c'))
    (hP : ∀ P, solveSchurIterative eg.approx eg.lu 100000 (hamiltonian Q (pendA (Fin.append q 0)) pendB R⁻¹) = some P →
      SolvesCARE Q (pendA (Fin.append q 0)) pendB R P ∧ Psd P) :
    ∃ r a M : ℝ, 0 < r ∧ 0 < a ∧ ∀ x : ℝ → Fin (1 + 1) → ℝ,
      (∀ t, 0 ≤ t → ∃ (d : List ℝ) (xd : Fin (1 + 1) → ℝ), d.length = 2 * 1
        ∧ (InvertedPendulum.rob y ds).fdDynamics (none : Option (Act 1 0)) (List.ofFn (x t)) t (List.ofFn (c'.control (x t))) d = .ok (List.ofFn xd)
        ∧ HasDerivWithinAt x xd (Ici 0) t) →
      ‖x 0 - Fin.append q 0‖ < r → ∀ t, 0 ≤ t → ‖x t - Fin.append q 0‖ ≤ M * Real.exp (-a * t) * ‖x 0 - Fin.append q 0‖ := by
  refine C147_stable (InvertedPendulum.rob y ds) lin eg junk Q R c c' q (C147_robots.1 y ds q) hQ hR hdes ?_ pendDyn (pend_dyn y ds) ?_
  · intro A B P hA' hB' h
    rw [hA] at hA'
    rw [hB] at hB'
    rw [hA', hB'] at h ⊢
    exact hP P h
  · rw [hA, hB]
    generalize (InvertedPendulum.rob y ds).idTorques ⟨q, 0⟩ = tau
    exact pend_deriv (Fin.append q 0, tau)

/-- The hypotheses of `C147_pendulum` are met in the upright position. -/
example (y : InvertedPendulum.Robot) (ds : List InvertedPendulum.Call) : ∃ (eg : Eig (1 + 1)) (Q : Matrix (Fin (1 + 1)) (Fin (1 + 1)) ℝ)
    (R : Matrix (Fin 1) (Fin 1) ℝ) (c' : Ctrl 1), Pd Q ∧ Pd R
    ∧ (Ctrl.new 1).design (InvertedPendulum.rob y ds) ⟨fun x _ => pendA x, fun _ _ => pendB⟩ eg 0 (Fin.append 0 0) Q R = (true, c')
    ∧ ∀ P, solveSchurIterative eg.approx eg.lu 100000 (hamiltonian Q (pendA (Fin.append 0 0)) pendB R⁻¹) = some P →
      SolvesCARE Q (pendA (Fin.append 0 0)) pendB R P ∧ Psd P := by
  obtain ⟨a, ha⟩ : ∃ a, pendG / pendI = a := ⟨_, rfl⟩
  have ha0 : 0 < a := by rw [← ha]; unfold pendG pendI; norm_num
  have hI : (0 : ℝ) < pendI := by unfold pendI; norm_num
  have hA : pendA (Fin.append 0 0) = !![0, 1; a, 0] := by
    have : (Fin.append (0 : Fin 1 → ℝ) (0 : Fin 1 → ℝ)) 0 = 0 := rfl
    rw [pendA, this, Real.cos_zero, mul_one, ha]
  let P : Matrix (Fin (1 + 1)) (Fin (1 + 1)) ℝ := !![6 * a * (a + 1), 3 * a; 3 * a, 3 * (a + 1)]
  let Q : Matrix (Fin (1 + 1)) (Fin (1 + 1)) ℝ := !![3 * a ^ 2, 0; 0, 9 * (a + 1) ^ 2 - 6 * a]
  let R : Matrix (Fin 1) (Fin 1) ℝ := !![(pendI ^ 2)⁻¹]
  have hRinv : R⁻¹ = !![pendI ^ 2] := by
    rw [inv_eq_left_inv]
    ext i j; fin_cases i; fin_cases j
    simp only [R, Matrix.mul_apply, Finset.univ_unique, Fin.default_eq_zero, Finset.sum_singleton, of_apply, cons_val', cons_val_fin_one, one_apply]
    simp; field_simp
  have hl : signLoop (n := 1 + 1) (fun _ _ => true) 100001 = fun M => some (signStep M) := by
    funext M; rw [signLoop]; simp
  have hs : ∀ M, solveSchurIterative (n := 1 + 1) (fun _ _ => true) (fun _ _ => P) 100000 M = some P := by
    intro M; rw [solveSchurIterative, hl]; rfl
  refine ⟨⟨fun _ _ => true, fun _ _ => P⟩, Q, R, _, ?_, ?_, Prod.ext ?_ rfl, ?_⟩
  · refine ⟨by ext i j; fin_cases i <;> fin_cases j <;> simp [Q], fun v hv => ?_⟩
    have h : v ⬝ᵥ (Q *ᵥ v) = 3 * a ^ 2 * v 0 ^ 2 + (9 * (a + 1) ^ 2 - 6 * a) * v 1 ^ 2 := by
      simp [Q, dotProduct, Fin.sum_univ_two, mulVec]; ring
    rw [h]
    have h2 : 0 < 9 * (a + 1) ^ 2 - 6 * a := by nlinarith
    have h1 : 0 < 3 * a ^ 2 := by positivity
    by_cases h0 : v 0 = 0
    · have h1' : v 1 ≠ 0 := fun h1 => hv (by funext i; fin_cases i <;> assumption)
      rw [h0]; have := mul_pos h2 (pow_pos (abs_pos.2 h1') 2); rw [sq_abs] at this; nlinarith
    · have := mul_pos h1 (pow_pos (abs_pos.2 h0) 2); rw [sq_abs] at this
      nlinarith [mul_nonneg h2.le (sq_nonneg (v 1))]
  · refine ⟨by ext i j; fin_cases i; fin_cases j; rfl, fun v hv => ?_⟩
    have h0 : v 0 ≠ 0 := fun h => hv (by funext i; fin_cases i; exact h)
    have h : v ⬝ᵥ (R *ᵥ v) = (pendI ^ 2)⁻¹ * v 0 ^ 2 := by
      simp [R, dotProduct, mulVec]; ring
    rw [h]; positivity
  · simp only [Ctrl.design, compute, hs]
  · intro P' h
    rw [hs] at h
    obtain rfl : P = P' := Option.some.inj h
    constructor
    · unfold SolvesCARE
      rw [hRinv, hA]
      have hB : P * pendB * !![pendI ^ 2] * pendBᵀ * P = !![(3 * a) ^ 2, 3 * a * (3 * (a + 1)); 3 * a * (3 * (a + 1)), (3 * (a + 1)) ^ 2] := by
        ext i j
        fin_cases i <;> fin_cases j <;> simp [P, pendB, Matrix.mul_apply, Fin.sum_univ_two, vecMul, dotProduct] <;> field_simp <;> simp
      rw [hB]
      ext i j
      fin_cases i <;> fin_cases j <;> simp [P, Q, Matrix.mul_apply, Fin.sum_univ_two, vecMul, dotProduct] <;> ring
    · refine ⟨by ext i j; fin_cases i <;> fin_cases j <;> simp [P], fun v => ?_⟩
      have h : v ⬝ᵥ (P *ᵥ v) = 6 * a * (a + 1) * v 0 ^ 2 + 6 * a * (v 0 * v 1) + 3 * (a + 1) * v 1 ^ 2 := by
        simp [P, dotProduct, Fin.sum_univ_two, mulVec]; ring
      rw [h]
      nlinarith [mul_nonneg ha0.le (sq_nonneg (v 0 + v 1)), mul_nonneg ha0.le (sq_nonneg (v 0)), sq_nonneg (v 1),
        mul_nonneg (mul_nonneg ha0.le ha0.le) (sq_nonneg (v 0))]

end CT.LqrId
