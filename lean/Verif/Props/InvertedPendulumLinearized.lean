import Verif.Model.InvertedPendulumLinearized
import Verif.Props.Robots.InvertedPendulum
import Verif.Props.Actuator
import Verif.Props.CodeGen

/-!
# C172: the generated linearisation of the actuated inverted pendulum
-/

namespace CT.Robots.InvertedPendulum

open Matrix Spatial Articulated FrameJac CT.Cost

/-- C172, equation of motion: whatever calls were made before, the generated forward dynamics of the pendulum are
`I q̈ = τ + m l g sin q` with the mass, centre of mass and inertia of the link. -/
theorem C172_equation_of_motion (y : Robot) (ds : List Call) (q v tau : Q) :
    ((Robot.after y ds).fd q v tau 0).2 =
      ![(tau 0 + 1.811 * 0.293 * 9.81 * Real.sin (q 0)) / 0.16452757] := by
  have h := inv_after y ds
  simp only [Robot.fd, h.m, h.i]
  simp only [Robots.InvertedPendulum.fd, MT.at, Inertias.std, Inertias.new, tensor_Link1,
    MT.new, MT.setJointStatus, motion_fr_Link1_X_fr_InvertedPendulumBase_new,
    motion_fr_Link1_X_fr_InvertedPendulumBase_update, Inertia.fill, Inertia.new, buildInertiaTensor, vxIvz, grav]
  ext i
  fin_cases i
  have z : (0.0 : ℝ) = 0 := by norm_num
  simp [dotProduct, Fin.sum_univ_succ, JOINT1, z]
  ring

/-- The right hand side of the actuated system: joint position, joint velocity, motor position. -/
noncomputable def rhs (x : Fin 3 → ℝ) (u : Fin 1 → ℝ) : Fin 3 → ℝ :=
  ![x 1, ((x 2 - x 0) * 180.9 + 1.811 * 0.293 * 9.81 * Real.sin (x 0)) / 0.16452757, u 0 / 50]

theorem actuated_eq (y : Robot) (ds : List Call) (x : Fin 3 → ℝ) (t : ℝ) (u : Fin 1 → ℝ) (d : List ℝ)
    (hd : d.length = 3) : actuatedDynamics y ds (List.ofFn x) t (List.ofFn u) d = .ok (List.ofFn (rhs x u)) := by
  have h := (Actuator.C90_actuated (rob y ds) (Actuator.sea 180.9 50) one_ne_zero
    (fun _ => x 0) (fun _ => x 1) u (fun _ => x 2) t d (by omega)).1
  have e : (List.ofFn fun _ : Fin 1 => x 0) ++ ((List.ofFn fun _ : Fin 1 => x 1) ++ List.ofFn fun _ : Fin 1 => x 2)
      = List.ofFn x := by simp [List.ofFn_succ]
  rw [e] at h
  rw [actuatedDynamics, h]
  congr 1
  have hf : (rob y ds).fd ⟨fun _ => x 0, fun _ => x 1⟩
      ((Actuator.sea 180.9 50 : Actuator.Act 1 1).out ⟨fun _ => x 0, fun _ => x 1⟩ fun _ => x 2) (fun _ => 0) =
      ![((x 2 - x 0) * 180.9 + 1.811 * 0.293 * 9.81 * Real.sin (x 0)) / 0.16452757] :=
    C172_equation_of_motion y ds (fun _ => x 0) (fun _ => x 1) (fun _ => (x 2 - x 0) * 180.9)
  rw [hf]
  simp [List.ofFn_succ, rhs, Actuator.sea]

/-- The exact Jacobian. -/
noncomputable def trueA (x : Fin 3 → ℝ) : Matrix (Fin 3) (Fin 3) ℝ :=
  !![0, 1, 0;
     (-180.9 + 1.811 * 0.293 * 9.81 * Real.cos (x 0)) / 0.16452757, 0, 180.9 / 0.16452757;
     0, 0, 0]

theorem jac_state (x : Fin 3 → ℝ) (u : Fin 1 → ℝ) : IsJac (fun z => rhs z u) (trueA x) x := by
  refine hasFDerivAt_pi'.2 ?_
  have p (i : Fin 3) : HasFDerivAt (fun z : Fin 3 → ℝ => z i)
      (ContinuousLinearMap.proj (R := ℝ) (φ := fun _ : Fin 3 => ℝ) i) x :=
    (ContinuousLinearMap.proj (R := ℝ) (φ := fun _ : Fin 3 => ℝ) i).hasFDerivAt
  intro i
  fin_cases i
  · refine (p 1).congr_fderiv ?_
    ext v
    simp [trueA, mulVec, dotProduct, Fin.sum_univ_succ]
  · refine ((((p 2).sub (p 0)).mul_const 180.9).add ((p 0).sin.const_mul (1.811 * 0.293 * 9.81)) |>.mul_const
      (0.16452757⁻¹)).congr_fderiv ?_ |>.congr_of_eventuallyEq ?_
    · ext v
      simp [trueA, mulVec, dotProduct, Fin.sum_univ_succ]
      ring
    · exact Filter.Eventually.of_forall fun z => by simp [rhs, div_eq_mul_inv]
  · refine (hasFDerivAt_const (u 0 / 50) x).congr_fderiv ?_
    ext v
    simp [trueA, mulVec, dotProduct, Fin.sum_univ_succ]

theorem jac_control (x : Fin 3 → ℝ) (u : Fin 1 → ℝ) : IsJac (fun w => rhs x w) !![0; 0; 0.02] u := by
  unfold IsJac
  rw [hasFDerivAt_pi']
  intro i
  fin_cases i
  · refine (hasFDerivAt_const _ u).congr_fderiv ?_
    ext v
    simp [mulVec, dotProduct]
  · refine (hasFDerivAt_const _ u).congr_fderiv ?_
    ext v
    simp [mulVec, dotProduct]
  · refine ((hasFDerivAt_apply (0 : Fin 1) u).mul_const (50⁻¹)).congr_fderiv ?_ |>.congr_of_eventuallyEq ?_
    · ext v
      simp [mulVec, dotProduct]
      norm_num
    · exact Filter.Eventually.of_forall fun z => by simp [rhs, div_eq_mul_inv]

/-! ### The object -/

/-- What the object holds between calls: zeros where nothing is ever written. -/
structure LinInv (s : ActLin) : Prop where
  x : ∃ a b c, s.dFdx = [0, a, 0, b, 0, 0, 0, c, 0]
  u : ∃ a, s.dFdu = [0, 0, a]

theorem linInv_after (cs : List LinCall) : LinInv (ActLin.after cs) := by
  have : ∀ o, LinInv o → LinInv (cs.foldl ActLin.step o) := by
    induction cs with
    | nil => exact fun o h => h
    | cons c cs ih =>
      refine fun o h => ih _ ?_
      obtain ⟨⟨a, b, e, hx⟩, ⟨f, hu⟩⟩ := h
      cases c with
      | state x u t => exact ⟨by simp [ActLin.step, ActLin.getDerivativeState, hx], ⟨f, hu⟩⟩
      | control x u t => exact ⟨⟨a, b, e, hx⟩, by simp [ActLin.step, ActLin.getDerivativeControl, hu]⟩
  exact this _ ⟨⟨0, 0, 0, rfl⟩, ⟨0, rfl⟩⟩

theorem state_eq (cs : List LinCall) (x : Fin 3 → ℝ) (u : Fin 1 → ℝ) (t : ℝ) :
    ((ActLin.after cs).getDerivativeState x u t).2 =
      !![0, 1, 0;
         (-180.9 - 0.530623 * 9.81 * (-Real.cos (x 0))) / 0.16452757, 0, 1099.51177179606;
         0, 0, 0] := by
  obtain ⟨a, b, c, h⟩ := (linInv_after cs).x
  ext i j
  simp only [ActLin.getDerivativeState, h, colMajor]
  fin_cases i <;> fin_cases j <;> simp

/-- C172, state: at every state, input and time, after any calls on the generated class and on the robot, the matrix
returned is the derivative of the actuated pendulum's dynamics with respect to the state in all entries but one, which
is off by less than `10⁻¹¹`.

Missing: the effect of the motor position on the acceleration is printed with 15 digits, see
`C172_rounded_violated`. -/
theorem C172_state_partial (y : Robot) (ds : List Call) (cs : List LinCall) (x : Fin 3 → ℝ) (u : Fin 1 → ℝ) (t : ℝ) :
    ∃ (F : (Fin 3 → ℝ) → Fin 3 → ℝ) (J : Matrix (Fin 3) (Fin 3) ℝ),
      (∀ z d, d.length = 3 → actuatedDynamics y ds (List.ofFn z) t (List.ofFn u) d = .ok (List.ofFn (F z))) ∧
      IsJac F J x ∧
      ∀ i j, |((ActLin.after cs).getDerivativeState x u t).2 i j - J i j| < 1e-11 ∧
        ((i, j) ≠ (1, 2) → ((ActLin.after cs).getDerivativeState x u t).2 i j = J i j) := by
  refine ⟨fun z => rhs z u, trueA x, fun z d hd => actuated_eq y ds z t u d hd, jac_state x u, fun i j => ?_⟩
  have h10 : (-180.9 - 0.530623 * 9.81 * (-Real.cos (x 0))) / 0.16452757 =
      (-180.9 + 1.811 * 0.293 * 9.81 * Real.cos (x 0)) / 0.16452757 := by ring
  rw [state_eq]
  have main : (i, j) ≠ (1, 2) →
      (!![0, 1, 0; (-180.9 - 0.530623 * 9.81 * (-Real.cos (x 0))) / 0.16452757, 0, 1099.51177179606; 0, 0, 0] :
        Matrix (Fin 3) (Fin 3) ℝ) i j = trueA x i j := by
    rw [h10]
    fin_cases i <;> fin_cases j <;> simp [trueA]
  refine ⟨?_, main⟩
  by_cases h : (i, j) = (1, 2)
  · obtain ⟨rfl, rfl⟩ := Prod.mk.inj h
    simp [trueA]
    norm_num [abs_lt]
  · rw [main h, sub_self, abs_zero]
    norm_num

/-- C172, control: the matrix returned for the input is exactly the derivative with respect to the input. -/
theorem C172_control (y : Robot) (ds : List Call) (cs : List LinCall) (x : Fin 3 → ℝ) (u : Fin 1 → ℝ) (t : ℝ) :
    ∃ F : (Fin 1 → ℝ) → Fin 3 → ℝ,
      (∀ w d, d.length = 3 → actuatedDynamics y ds (List.ofFn x) t (List.ofFn w) d = .ok (List.ofFn (F w))) ∧
      IsJac F ((ActLin.after cs).getDerivativeControl x u t).2 u := by
  refine ⟨fun w => rhs x w, fun w d hd => actuated_eq y ds x t w d hd, ?_⟩
  have e : ((ActLin.after cs).getDerivativeControl x u t).2 = !![0; 0; 0.02] := by
    obtain ⟨a, h⟩ := (linInv_after cs).u
    ext i j
    simp only [ActLin.getDerivativeControl, h, colMajor]
    fin_cases i <;> fin_cases j <;> simp
  rw [e]
  exact jac_control x u

/-- C172, one entry is rounded: at no state is the matrix returned the derivative exactly. -/
theorem C172_rounded_violated (y : Robot) (ds : List Call) (cs : List LinCall) (x : Fin 3 → ℝ) (u : Fin 1 → ℝ) (t : ℝ) :
    ¬ ∃ F : (Fin 3 → ℝ) → Fin 3 → ℝ,
      (∀ z d, d.length = 3 → actuatedDynamics y ds (List.ofFn z) t (List.ofFn u) d = .ok (List.ofFn (F z))) ∧
      IsJac F ((ActLin.after cs).getDerivativeState x u t).2 x := by
  rintro ⟨F, hF, hJ⟩
  have e : F = fun z => rhs z u := funext fun z => by
    have := (hF z [0, 0, 0] rfl).symm.trans (actuated_eq y ds z t u [0, 0, 0] rfl)
    exact List.ofFn_injective (Res.ok.inj this)
  rw [e] at hJ
  have := CodeGen.isJac_unique hJ (jac_state x u)
  have h := congrFun (congrFun this 1) 2
  rw [state_eq] at h
  simp [trueA] at h
  norm_num at h

/-- The exact derivative of the upright pendulum. -/
example (cs : List LinCall) : ((ActLin.after cs).getDerivativeState 0 0 0).2 1 0 =
    (-180.9 + 0.530623 * 9.81) / 0.16452757 := by
  rw [state_eq]
  simp

end CT.Robots.InvertedPendulum
