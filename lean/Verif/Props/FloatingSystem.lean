import Verif.Model.FloatingSystem
import Verif.Props.RobotState
import Verif.Props.FrameJac
import Verif.Props.Spatial
import Mathlib.Data.List.GetD
import Mathlib.Analysis.SpecialFunctions.Trigonometric.Deriv

/-!
# C138, C139: orientation and motion of floating-base systems

Specification: rotations about the three axes, derivatives along motions and the contract of kindr.
-/

namespace CT.FloatSys

open Matrix FrameJac OpJac Robot Spatial

/-! ### Specification -/

/-- Rotations about the x, y and z axis. -/
noncomputable def rotX (a : ℝ) : M3 := !![1, 0, 0; 0, Real.cos a, -Real.sin a; 0, Real.sin a, Real.cos a]
noncomputable def rotY (a : ℝ) : M3 := !![Real.cos a, 0, Real.sin a; 0, 1, 0; -Real.sin a, 0, Real.cos a]
noncomputable def rotZ (a : ℝ) : M3 := !![Real.cos a, -Real.sin a, 0; Real.sin a, Real.cos a, 0; 0, 0, 1]

/-- The orientation with Euler angles `e`: turn about x, then about the new y, then about the new z. -/
noncomputable def rotXYZ (e : V3) : M3 := rotX (e 0) * rotY (e 1) * rotZ (e 2)

/-- What kindr promises: the matrix of Euler angles and of a unit quaternion, and the rates at which Euler
angles and quaternions change when the orientation turns with the angular velocity `ω`, in base coordinates.
Euler angles do not represent all rates when the cosine of the second one is zero. -/
structure Kindr.Ok (kd : Kindr) : Prop where
  eulerRot : ∀ e, kd.eulerRot e = rotXYZ e
  quatRot : ∀ q, q ⬝ᵥ q = 1 → kd.quatRot q = quatMatrix q
  eulerDiff : ∀ e ω, Real.cos (e 1) ≠ 0 → MDeriv (fun s : ℝ => rotXYZ (e + s • kd.eulerDiff e ω)) (rotXYZ e * cpm ω) 0
  quatDiff : ∀ q ω, kd.quatDiff q ω = (1 / 2 : ℝ) • quatMul q ![0, ω 0, ω 1, ω 2]

/-- Entrywise derivative of a list of fixed length. -/
def LDeriv (x : ℝ → List ℝ) (x' : List ℝ) (t : ℝ) : Prop :=
  ∀ i, HasDerivAt (fun s => (x s).getD i 0) (x'.getD i 0) t

/-! ### Rotations -/

theorem rotX_rot (a : ℝ) : IsRot (rotX a) := by
  have h := Real.sin_sq_add_cos_sq a
  refine ⟨?_, ?_⟩
  · ext i j
    fin_cases i <;> fin_cases j <;> simp [rotX, Matrix.mul_apply, Fin.sum_univ_three] <;> first | ring1 | linear_combination h
  · simp [rotX, Matrix.det_fin_three]; linear_combination h

theorem rotY_rot (a : ℝ) : IsRot (rotY a) := by
  have h := Real.sin_sq_add_cos_sq a
  refine ⟨?_, ?_⟩
  · ext i j
    fin_cases i <;> fin_cases j <;> simp [rotY, Matrix.mul_apply, Fin.sum_univ_three] <;> first | ring1 | linear_combination h
  · simp [rotY, Matrix.det_fin_three]; linear_combination h

theorem rotZ_rot (a : ℝ) : IsRot (rotZ a) := by
  have h := Real.sin_sq_add_cos_sq a
  refine ⟨?_, ?_⟩
  · ext i j
    fin_cases i <;> fin_cases j <;> simp [rotZ, Matrix.mul_apply, Fin.sum_univ_three] <;> first | ring1 | linear_combination h
  · simp [rotZ, Matrix.det_fin_three]; linear_combination h

theorem rotXYZ_rot (e : V3) : IsRot (rotXYZ e) := ((rotX_rot _).mul (rotY_rot _)).mul (rotZ_rot _)

theorem IsRot.orth' {R : M3} (h : IsRot R) : R * Rᵀ = 1 := mul_eq_one_comm.mp h.orth

theorem IsRot.trans {R : M3} (h : IsRot R) : IsRot Rᵀ :=
  ⟨by rw [transpose_transpose]; exact IsRot.orth' h, by rw [det_transpose]; exact h.det⟩

/-- A cross product moves through a rotation. -/
theorem IsRot.cpm_mul {R : M3} (h : IsRot R) (a : V3) : cpm a * R = R * cpm (Rᵀ *ᵥ a) := by
  apply Matrix.mulVec_injective
  funext x
  rw [← mulVec_mulVec, ← mulVec_mulVec, cpm_mulVec, cpm_mulVec, h.cross, mulVec_mulVec, IsRot.orth' h, one_mulVec]

theorem cpm_inj {a b : V3} (h : cpm a = cpm b) : a = b := by
  have h0 := congrFun (congrFun h 2) 1
  have h1 := congrFun (congrFun h 0) 2
  have h2 := congrFun (congrFun h 1) 0
  simp [cpm] at h0 h1 h2
  funext i
  fin_cases i <;> assumption

theorem cpm_smul (k : ℝ) (a : V3) : cpm (k • a) = k • cpm a := by
  ext i j; fin_cases i <;> fin_cases j <;> simp [cpm]

theorem cpm_add (a b : V3) : cpm (a + b) = cpm a + cpm b := by
  ext i j; fin_cases i <;> fin_cases j <;> simp [cpm] <;> ring

theorem rotX_deriv {f : ℝ → ℝ} {f' t : ℝ} (h : HasDerivAt f f' t) :
    MDeriv (fun s => rotX (f s)) (rotX (f t) * cpm (f' • ![1, 0, 0])) t := by
  intro i j
  fin_cases i <;> fin_cases j <;> simp [rotX, cpm, Matrix.mul_apply, Fin.sum_univ_three] <;>
    first
      | exact hasDerivAt_const _ _
      | exact h.cos.congr_deriv (by ring)
      | exact h.sin.congr_deriv (by ring)
      | exact h.sin.neg.congr_deriv (by ring)

theorem rotY_deriv {f : ℝ → ℝ} {f' t : ℝ} (h : HasDerivAt f f' t) :
    MDeriv (fun s => rotY (f s)) (rotY (f t) * cpm (f' • ![0, 1, 0])) t := by
  intro i j
  fin_cases i <;> fin_cases j <;> simp [rotY, cpm, Matrix.mul_apply, Fin.sum_univ_three] <;>
    first
      | exact hasDerivAt_const _ _
      | exact h.cos.congr_deriv (by ring)
      | exact h.sin.congr_deriv (by ring)
      | exact h.sin.neg.congr_deriv (by ring)

theorem rotZ_deriv {f : ℝ → ℝ} {f' t : ℝ} (h : HasDerivAt f f' t) :
    MDeriv (fun s => rotZ (f s)) (rotZ (f t) * cpm (f' • ![0, 0, 1])) t := by
  intro i j
  fin_cases i <;> fin_cases j <;> simp [rotZ, cpm, Matrix.mul_apply, Fin.sum_univ_three] <;>
    first
      | exact hasDerivAt_const _ _
      | exact h.cos.congr_deriv (by ring)
      | exact h.sin.congr_deriv (by ring)
      | exact h.sin.neg.congr_deriv (by ring)

/-- Angular velocity in base coordinates when the Euler angles `e` change at the rates `d`. -/
noncomputable def bodyRate (e d : V3) : V3 :=
  ![Real.cos (e 1) * Real.cos (e 2) * d 0 + Real.sin (e 2) * d 1,
    -(Real.cos (e 1) * Real.sin (e 2)) * d 0 + Real.cos (e 2) * d 1,
    Real.sin (e 1) * d 0 + d 2]

theorem rotXYZ_deriv {e : ℝ → V3} {d : V3} {t : ℝ} (h : VDeriv e d t) :
    MDeriv (fun s => rotXYZ (e s)) (rotXYZ (e t) * cpm (bodyRate (e t) d)) t := by
  have h1 := ((rotX_deriv (h 0)).mul (rotY_deriv (h 1))).mul (rotZ_deriv (h 2))
  have e1 : bodyRate (e t) d = (rotZ (e t 2))ᵀ *ᵥ ((rotY (e t 1))ᵀ *ᵥ (d 0 • ![1, 0, 0]) + d 1 • ![0, 1, 0]) + d 2 • ![0, 0, 1] := by
    funext i
    fin_cases i <;> simp [bodyRate, rotZ, rotY, mulVec, dotProduct, Fin.sum_univ_three, transpose_apply, vecHead, vecTail] <;> ring
  refine MDeriv.congr' h1 ?_
  rw [e1, cpm_add, Matrix.mul_add]
  congr 1
  · simp only [rotXYZ]
    rw [Matrix.mul_assoc (rotX _), Matrix.mul_assoc (rotX _), IsRot.cpm_mul (rotY_rot _), ← Matrix.mul_assoc (rotX _), ← Matrix.mul_assoc (rotX _),
      ← Matrix.mul_add, ← cpm_add, Matrix.mul_assoc (rotX _ * rotY _), IsRot.cpm_mul (rotZ_rot _)]
    simp only [Matrix.mul_assoc]
  · rw [rotXYZ, Matrix.mul_assoc (rotX _ * rotY _)]

/-- The rates that turn the orientation with a given angular velocity. -/
theorem Kindr.Ok.rate {kd : Kindr} (h : kd.Ok) (e ω : V3) (hc : Real.cos (e 1) ≠ 0) :
    bodyRate e (kd.eulerDiff e ω) = ω := by
  have h1 := h.eulerDiff e ω hc
  have h2 : VDeriv (fun s : ℝ => e + s • kd.eulerDiff e ω) (kd.eulerDiff e ω) 0 := by
    intro i
    have := ((hasDerivAt_id (0 : ℝ)).mul_const (kd.eulerDiff e ω i)).const_add (e i)
    simpa using this
  have h3 := rotXYZ_deriv h2
  simp only [zero_smul, add_zero] at h3
  have h4 := h3.unique h1
  have h5 := congrArg (fun X => (rotXYZ e)ᵀ * X) h4
  simp only [← Matrix.mul_assoc, (rotXYZ_rot e).orth, Matrix.one_mul] at h5
  exact cpm_inj h5

/-- Those rates, solved. -/
noncomputable def eulerRate (e ω : V3) : V3 :=
  ![(Real.cos (e 2) * ω 0 - Real.sin (e 2) * ω 1) / Real.cos (e 1),
    Real.sin (e 2) * ω 0 + Real.cos (e 2) * ω 1,
    ω 2 - Real.sin (e 1) * ((Real.cos (e 2) * ω 0 - Real.sin (e 2) * ω 1) / Real.cos (e 1))]

theorem bodyRate_eulerRate (e ω : V3) (hc : Real.cos (e 1) ≠ 0) : bodyRate e (eulerRate e ω) = ω := by
  have h := Real.sin_sq_add_cos_sq (e 2)
  funext i
  fin_cases i <;> simp [bodyRate, eulerRate]
  · field_simp
    linear_combination (ω 0) * h
  · field_simp
    linear_combination (ω 1) * h

theorem eq_eulerRate {e d ω : V3} (hc : Real.cos (e 1) ≠ 0) (h : bodyRate e d = ω) : d = eulerRate e ω := by
  have h0 := congrFun h 0
  have h1 := congrFun h 1
  have h2 := congrFun h 2
  simp [bodyRate] at h0 h1 h2
  have hs := Real.sin_sq_add_cos_sq (e 2)
  have a : d 0 = (Real.cos (e 2) * ω 0 - Real.sin (e 2) * ω 1) / Real.cos (e 1) := by
    rw [eq_div_iff hc]
    linear_combination (-Real.cos (e 1) * d 0) * hs + Real.cos (e 2) * h0 - Real.sin (e 2) * h1
  funext i
  fin_cases i <;> simp [eulerRate]
  · exact a
  · linear_combination (-d 1) * hs + Real.sin (e 2) * h0 + Real.cos (e 2) * h1
  · rw [← a]; linear_combination h2

theorem Kindr.Ok.eulerDiff_eq {kd : Kindr} (h : kd.Ok) (e ω : V3) (hc : Real.cos (e 1) ≠ 0) :
    kd.eulerDiff e ω = eulerRate e ω := eq_eulerRate hc (h.rate e ω hc)

/-! ### Quaternions -/

/-- The homogeneous form of the matrix of a quaternion. -/
def quatHom (q : Q4) : M3 :=
  !![q 0 * q 0 + q 1 * q 1 - q 2 * q 2 - q 3 * q 3, 2 * (q 1 * q 2 - q 0 * q 3), 2 * (q 1 * q 3 + q 0 * q 2);
     2 * (q 1 * q 2 + q 0 * q 3), q 0 * q 0 - q 1 * q 1 + q 2 * q 2 - q 3 * q 3, 2 * (q 2 * q 3 - q 0 * q 1);
     2 * (q 1 * q 3 - q 0 * q 2), 2 * (q 2 * q 3 + q 0 * q 1), q 0 * q 0 - q 1 * q 1 - q 2 * q 2 + q 3 * q 3]

theorem quat_norm (q : Q4) : q ⬝ᵥ q = q 0 * q 0 + q 1 * q 1 + q 2 * q 2 + q 3 * q 3 := by
  simp [dotProduct, Fin.sum_univ_four]

theorem quatMatrix_hom {q : Q4} (h : q ⬝ᵥ q = 1) : quatMatrix q = quatHom q := by
  rw [quat_norm] at h
  ext i j
  fin_cases i <;> fin_cases j <;> simp [quatMatrix, quatHom] <;> linear_combination -h

theorem quatMul_norm (a b : Q4) : quatMul a b ⬝ᵥ quatMul a b = (a ⬝ᵥ a) * (b ⬝ᵥ b) := by
  simp only [quat_norm, quatMul]; simp; ring

theorem quatHom_mul (a b : Q4) : quatHom (quatMul a b) = quatHom a * quatHom b := by
  ext i j
  fin_cases i <;> fin_cases j <;> simp [quatHom, quatMul, Matrix.mul_apply, Fin.sum_univ_three] <;> ring

theorem axisQuat_norm (a : ℝ) (u : V3) (hu : u ⬝ᵥ u = 1) : axisQuat a u ⬝ᵥ axisQuat a u = 1 := by
  simp [dotProduct, Fin.sum_univ_three] at hu
  rw [quat_norm]
  simp [axisQuat]
  linear_combination Real.sin_sq_add_cos_sq (a / 2) + (Real.sin (a / 2)) ^ 2 * hu

theorem half_cos (a : ℝ) : Real.cos a = 1 - 2 * Real.sin (a / 2) ^ 2 := by
  have := Real.cos_two_mul (a / 2)
  rw [mul_div_cancel₀ a two_ne_zero] at this
  linear_combination this + 2 * Real.sin_sq_add_cos_sq (a / 2)

theorem half_sin (a : ℝ) : Real.sin a = 2 * Real.sin (a / 2) * Real.cos (a / 2) := by
  have := Real.sin_two_mul (a / 2)
  rwa [mul_div_cancel₀ a two_ne_zero] at this

theorem axisQuat_x (a : ℝ) : quatMatrix (axisQuat a ![1, 0, 0]) = rotX a := by
  ext i j
  fin_cases i <;> fin_cases j <;> simp [quatMatrix, axisQuat, rotX, half_cos a, half_sin a] <;> ring

theorem axisQuat_y (a : ℝ) : quatMatrix (axisQuat a ![0, 1, 0]) = rotY a := by
  ext i j
  fin_cases i <;> fin_cases j <;> simp [quatMatrix, axisQuat, rotY, half_cos a, half_sin a] <;> ring

theorem axisQuat_z (a : ℝ) : quatMatrix (axisQuat a ![0, 0, 1]) = rotZ a := by
  ext i j
  fin_cases i <;> fin_cases j <;> simp [quatMatrix, axisQuat, rotZ, half_cos a, half_sin a] <;> ring

theorem eulerQuatMatrix_eq (e : V3) : eulerQuatMatrix e = rotXYZ e := by
  have hx := axisQuat_norm (e 0) ![1, 0, 0] (by simp [dotProduct, Fin.sum_univ_three])
  have hy := axisQuat_norm (e 1) ![0, 1, 0] (by simp [dotProduct, Fin.sum_univ_three])
  have hz := axisQuat_norm (e 2) ![0, 0, 1] (by simp [dotProduct, Fin.sum_univ_three])
  have hxy := quatMul_norm (axisQuat (e 0) ![1, 0, 0]) (axisQuat (e 1) ![0, 1, 0])
  rw [hx, hy, one_mul] at hxy
  have hxyz := quatMul_norm (quatMul (axisQuat (e 0) ![1, 0, 0]) (axisQuat (e 1) ![0, 1, 0])) (axisQuat (e 2) ![0, 0, 1])
  rw [hxy, hz, one_mul] at hxyz
  rw [eulerQuatMatrix, quatMatrix_hom hxyz, quatHom_mul, quatHom_mul, ← quatMatrix_hom hx, ← quatMatrix_hom hy, ← quatMatrix_hom hz,
    axisQuat_x, axisQuat_y, axisQuat_z, rotXYZ]

theorem quatMatrix_rot {q : Q4} (h : q ⬝ᵥ q = 1) : IsRot (quatMatrix q) := by
  rw [quat_norm] at h
  refine ⟨?_, ?_⟩
  · ext i j
    fin_cases i <;> fin_cases j <;> simp [quatMatrix, Matrix.mul_apply, Fin.sum_univ_three]
    · linear_combination 4 * (q 2 * q 2 + q 3 * q 3) * h
    · linear_combination -4 * (q 1 * q 2) * h
    · linear_combination -4 * (q 1 * q 3) * h
    · linear_combination -4 * (q 1 * q 2) * h
    · linear_combination 4 * (q 1 * q 1 + q 3 * q 3) * h
    · linear_combination -4 * (q 2 * q 3) * h
    · linear_combination -4 * (q 1 * q 3) * h
    · linear_combination -4 * (q 2 * q 3) * h
    · linear_combination 4 * (q 1 * q 1 + q 2 * q 2) * h
  · rw [quatMatrix_hom (by rw [quat_norm]; exact h)]
    simp [quatHom, Matrix.det_fin_three]
    linear_combination ((q 0 * q 0 + q 1 * q 1 + q 2 * q 2 + q 3 * q 3) ^ 2 + (q 0 * q 0 + q 1 * q 1 + q 2 * q 2 + q 3 * q 3) + 1) * h

theorem quatMatrix_deriv {q : ℝ → Q4} {ω : V3} {t : ℝ} (h1 : q t ⬝ᵥ q t = 1)
    (h : VDeriv q ((1 / 2 : ℝ) • quatMul (q t) ![0, ω 0, ω 1, ω 2]) t) :
    MDeriv (fun s => quatMatrix (q s)) (quatMatrix (q t) * cpm ω) t := by
  rw [quat_norm] at h1
  have d0 := h 0
  have d1 := h 1
  have d2 := h 2
  have d3 := h 3
  simp [quatMul] at d0 d1 d2 d3
  have m := fun {i j : Fin 4} {a b : ℝ} (hi : HasDerivAt (fun s => q s i) a t) (hj : HasDerivAt (fun s => q s j) b t) => hi.mul hj
  intro i j
  fin_cases i <;> fin_cases j <;> simp [quatMatrix, cpm, Matrix.mul_apply, Fin.sum_univ_three]
  · exact (((m d2 d2).add (m d3 d3)).const_mul 2 |>.const_sub 1).congr_deriv (by linear_combination 0 * h1)
  · exact (((m d1 d2).sub (m d0 d3)).const_mul 2).congr_deriv (by linear_combination (-ω 2) * h1)
  · exact (((m d1 d3).add (m d0 d2)).const_mul 2).congr_deriv (by linear_combination (ω 1) * h1)
  · exact (((m d1 d2).add (m d0 d3)).const_mul 2).congr_deriv (by linear_combination (ω 2) * h1)
  · exact (((m d1 d1).add (m d3 d3)).const_mul 2 |>.const_sub 1).congr_deriv (by linear_combination 0 * h1)
  · exact (((m d2 d3).sub (m d0 d1)).const_mul 2).congr_deriv (by linear_combination (-ω 0) * h1)
  · exact (((m d1 d3).sub (m d0 d2)).const_mul 2).congr_deriv (by linear_combination (-ω 1) * h1)
  · exact (((m d2 d3).add (m d0 d1)).const_mul 2).congr_deriv (by linear_combination (ω 0) * h1)
  · exact (((m d1 d1).add (m d2 d2)).const_mul 2 |>.const_sub 1).congr_deriv (by linear_combination 0 * h1)

/-! ### The system -/

section System
variable {n l e : ℕ} {kd : Kindr} {rb : FRob n l e} {sy : Sys n e}

theorem Acc.split_euler (a b : Acc n) (s : RBD ℝ n) :
    (a.toEuler kd s).take (n + 6) ++ (b.toEuler kd s).drop (n + 6) = b.toEuler kd s := by
  have h : ∀ c : Acc n, c.toEuler kd s = (List.ofFn (kd.eulerDiff (s.pose.getEuler kd.conv) s.angVel)
      ++ List.ofFn (rotateBaseToInertia kd s.pose s.linVel) ++ List.ofFn s.joints.vel)
      ++ (List.ofFn c.ang ++ List.ofFn c.lin ++ List.ofFn c.joints) := fun c => by simp only [Acc.toEuler, List.append_assoc]
  rw [h a, h b, List.take_append_of_le_length (by simp), List.take_of_length_le (by simp), List.drop_left' (by simp)]

theorem Acc.split_quat (a b : Acc n) (s : RBD ℝ n) :
    (a.toQuat kd s).take (n + 6 + 1) ++ (b.toQuat kd s).drop (n + 6 + 1) = b.toQuat kd s := by
  have h : ∀ c : Acc n, c.toQuat kd s = (List.ofFn (kd.quatDiff (s.pose.getQuat kd.conv) s.angVel)
      ++ List.ofFn (rotateBaseToInertia kd s.pose s.linVel) ++ List.ofFn s.joints.vel)
      ++ (List.ofFn c.ang ++ List.ofFn c.lin ++ List.ofFn c.joints) := fun c => by simp only [Acc.toQuat, List.append_assoc]
  rw [h a, h b, List.take_append_of_le_length (by simp), List.take_of_length_le (by simp), List.drop_left' (by simp)]

/-- The link forces the system applies. -/
def Sys.linkForces (sy : Sys n e) (rb : FRob n l e) (s : RBD ℝ n) (control : List ℝ) : Fin l → V6 :=
  mapLinkForces rb s (sy.eeForces s control) fun _ _ => 0

theorem dynamics_eq (x control : List ℝ) :
    sy.dynamics kd rb x control = sy.toDeriv kd
      (forwardDynamics kd rb (sy.stateFrom kd x) (seg control 0 n) (sy.linkForces rb (sy.stateFrom kd x) control) Acc.zero)
      (sy.stateFrom kd x) := by
  simp only [Sys.dynamics, Sys.pdot, Sys.vdot, List.take_append_drop, Sys.linkForces, Sys.toDeriv, pdim]
  cases sy.quat
  · simp only [Bool.false_eq_true, if_false, add_zero]
    exact Acc.split_euler _ _ _
  · simp only [if_true]
    exact Acc.split_quat _ _ _

theorem six_segs {k0 k1 k2 k3 k4 k5 : ℕ} (a : Fin k0 → ℝ) (b : Fin k1 → ℝ) (c : Fin k2 → ℝ) (d : Fin k3 → ℝ) (f : Fin k4 → ℝ)
    (g : Fin k5 → ℝ) (v : List ℝ)
    (hv : v = List.ofFn a ++ List.ofFn b ++ List.ofFn c ++ List.ofFn d ++ List.ofFn f ++ List.ofFn g) :
    seg v 0 k0 = a ∧ seg v k0 k1 = b ∧ seg v (k0 + k1) k2 = c ∧ seg v (k0 + k1 + k2) k3 = d
    ∧ seg v (k0 + k1 + k2 + k3) k4 = f ∧ seg v (k0 + k1 + k2 + k3 + k4) k5 = g := by
  refine ⟨seg_at a v [] (List.ofFn b ++ List.ofFn c ++ List.ofFn d ++ List.ofFn f ++ List.ofFn g) ?_ ?_,
    seg_at b v (List.ofFn a) (List.ofFn c ++ List.ofFn d ++ List.ofFn f ++ List.ofFn g) ?_ ?_,
    seg_at c v (List.ofFn a ++ List.ofFn b) (List.ofFn d ++ List.ofFn f ++ List.ofFn g) ?_ ?_,
    seg_at d v (List.ofFn a ++ List.ofFn b ++ List.ofFn c) (List.ofFn f ++ List.ofFn g) ?_ ?_,
    seg_at f v (List.ofFn a ++ List.ofFn b ++ List.ofFn c ++ List.ofFn d) (List.ofFn g) ?_ ?_,
    seg_at g v (List.ofFn a ++ List.ofFn b ++ List.ofFn c ++ List.ofFn d ++ List.ofFn f) [] ?_ ?_⟩ <;>
  first
    | (simp only [hv, List.append_assoc, List.append_nil, List.nil_append]; done)
    | simp only [List.length_append, List.length_ofFn, List.length_nil]

theorem euler_segs (a : Acc n) (s : RBD ℝ n) :
    seg (a.toEuler kd s) 0 3 = kd.eulerDiff (s.pose.getEuler kd.conv) s.angVel
    ∧ seg (a.toEuler kd s) 3 3 = rotateBaseToInertia kd s.pose s.linVel
    ∧ seg (a.toEuler kd s) 6 n = s.joints.vel ∧ seg (a.toEuler kd s) (6 + n) 3 = a.ang
    ∧ seg (a.toEuler kd s) (9 + n) 3 = a.lin ∧ seg (a.toEuler kd s) (2 * (n + 6) - n) n = a.joints := by
  have h := six_segs _ _ _ _ _ _ (a.toEuler kd s) rfl
  rw [show 9 + n = 3 + 3 + n + 3 by omega, show 2 * (n + 6) - n = 3 + 3 + n + 3 + 3 by omega]
  exact h

theorem quat_segs (a : Acc n) (s : RBD ℝ n) :
    seg (a.toQuat kd s) 0 4 = kd.quatDiff (s.pose.getQuat kd.conv) s.angVel
    ∧ seg (a.toQuat kd s) 4 3 = rotateBaseToInertia kd s.pose s.linVel
    ∧ seg (a.toQuat kd s) 7 n = s.joints.vel ∧ seg (a.toQuat kd s) (7 + n) 3 = a.ang
    ∧ seg (a.toQuat kd s) (10 + n) 3 = a.lin ∧ seg (a.toQuat kd s) (2 * (n + 6) + 1 - n) n = a.joints := by
  have h := six_segs _ _ _ _ _ _ (a.toQuat kd s) rfl
  rw [show 10 + n = 4 + 3 + n + 3 by omega, show 2 * (n + 6) + 1 - n = 4 + 3 + n + 3 + 3 by omega]
  exact h

theorem LDeriv.seg {x : ℝ → List ℝ} {x' : List ℝ} {t : ℝ} (h : LDeriv x x' t) (off k : ℕ) :
    VDeriv (fun s => Robot.seg (x s) off k) (Robot.seg x' off k) t := fun i => h (off + i)

/-- What it means that the state of a floating-base robot moves as its velocities and accelerations say:
the orientation turns with the angular velocity, the position moves with the linear velocity (both given in base
coordinates), the joints with theirs, and base and joints are accelerated as the forward dynamics demands under
the joint forces `tau`, the link forces `lf` and gravity, which points along the negative z axis of the world. -/
def Follows (kd : Kindr) (rb : FRob n l e) (S : ℝ → RBD ℝ n) (tau : Fin n → ℝ) (lf : Fin l → V6) (t : ℝ) : Prop :=
  let R := fun s => rotationMatrix kd (S s).pose
  let acc := rb.fd (S t).joints.pos (join (S t).angVel (S t).linVel) (join 0 ((R t)ᵀ *ᵥ ![0, 0, -9.81]))
    (S t).joints.vel tau lf
  MDeriv R (R t * cpm (S t).angVel) t
  ∧ VDeriv (fun s => (S s).pose.position) (R t *ᵥ (S t).linVel) t
  ∧ VDeriv (fun s => (S s).joints.pos) (S t).joints.vel t
  ∧ VDeriv (fun s => join (S s).angVel (S s).linVel) acc.1 t
  ∧ VDeriv (fun s => (S s).joints.vel) acc.2 t

theorem join_deriv {a b : ℝ → V3} {x : V6} {t : ℝ} (ha : VDeriv a ![x 0, x 1, x 2] t) (hb : VDeriv b ![x 3, x 4, x 5] t) :
    VDeriv (fun s => join (a s) (b s)) x t := by
  intro i
  fin_cases i
  · exact ha 0
  · exact ha 1
  · exact ha 2
  · exact hb 0
  · exact hb 1
  · exact hb 2

theorem gravity_join {p : Pose ℝ} {R : M3} (h : rotateInertiaToBase kd p gravity3DW = Rᵀ *ᵥ ![0, 0, -9.81]) :
    gravityB6D kd p = join 0 (Rᵀ *ᵥ ![0, 0, -9.81]) := by
  simp only [gravityB6D, h]
  rfl

/-- **C139, Euler angles.**  A motion whose state vector changes at the rate that the system with Euler angles
computes is a motion of the robot: orientation, position, joints and velocities change as they should, away from
the singularity of the angles. -/
theorem C139_euler (hk : kd.Ok) (hq : sy.quat = false) {x : ℝ → List ℝ} {t : ℝ} (control : List ℝ)
    (hx : LDeriv x (sy.dynamics kd rb (x t) control) t) (hc : Real.cos ((x t).getD 1 0) ≠ 0) :
    Follows kd rb (fun s => sy.stateFrom kd (x s)) (seg control 0 n)
      (sy.linkForces rb (sy.stateFrom kd (x t)) control) t := by
  rw [dynamics_eq] at hx
  have hS : ∀ s, sy.stateFrom kd (x s) = (RBD.blank n true).fromStateVectorEulerXyz kd.conv (x s) := fun s => by
    simp [Sys.stateFrom, hq]
  have hD : ∀ (a : Acc n) s, sy.toDeriv kd a s = a.toEuler kd s := fun a s => by simp [Sys.toDeriv, hq]
  rw [hD] at hx
  obtain ⟨h1, h2, h3, h4, h5, h6⟩ := euler_segs (kd := kd) (forwardDynamics kd rb (sy.stateFrom kd (x t)) (seg control 0 n)
    (sy.linkForces rb (sy.stateFrom kd (x t)) control) Acc.zero) (sy.stateFrom kd (x t))
  have hR : ∀ s, rotationMatrix kd (sy.stateFrom kd (x s)).pose = rotXYZ (seg (x s) 0 3) := fun s => by
    rw [hS]; simp [rotationMatrix, RBD.fromStateVectorEulerXyz, RBD.blank, Pose.init, Pose.setEuler, eulerQuatMatrix_eq]
  have hB : ∀ v, rotateBaseToInertia kd (sy.stateFrom kd (x t)).pose v = rotXYZ (seg (x t) 0 3) *ᵥ v := fun v => by
    rw [← hR]; rw [hS]; simp [rotateBaseToInertia, RBD.fromStateVectorEulerXyz, RBD.blank, Pose.init, Pose.setEuler]
  have hE : (sy.stateFrom kd (x t)).pose.getEuler kd.conv = seg (x t) 0 3 := by
    rw [hS]; simp [RBD.fromStateVectorEulerXyz, RBD.blank, Pose.init, Pose.setEuler, Pose.getEuler]
  have hG : gravityB6D kd (sy.stateFrom kd (x t)).pose = join 0 ((rotXYZ (seg (x t) 0 3))ᵀ *ᵥ ![0, 0, -9.81]) := by
    apply gravity_join
    rw [hS]
    simp [rotateInertiaToBase, RBD.fromStateVectorEulerXyz, RBD.blank, Pose.init, Pose.setEuler, hk.eulerRot, gravity3DW]
  have hcc : Real.cos (seg (x t) 0 3 1) ≠ 0 := hc
  rw [hE] at h1
  refine ⟨?_, ?_, ?_, ?_, ?_⟩
  · simp only [hR]
    have d := hx.seg 0 3
    rw [h1] at d
    have := rotXYZ_deriv d
    rwa [hk.rate _ _ hcc] at this
  · have d := hx.seg 3 3
    rw [h2, hB] at d
    simp only [hR]
    simp only [hS] at d ⊢
    exact d
  · have d := hx.seg 6 n
    rw [h3] at d
    simp only [hS] at d ⊢
    exact d
  · have d4 := hx.seg (6 + n) 3
    have d5 := hx.seg (9 + n) 3
    rw [h4] at d4
    rw [h5] at d5
    simp only [forwardDynamics, hG] at d4 d5
    simp only [hR]
    have := join_deriv d4 d5
    simp only [hS] at this ⊢
    exact this
  · have d := hx.seg (2 * (n + 6) - n) n
    rw [h6] at d
    simp only [forwardDynamics, hG] at d
    simp only [hR]
    simp only [hS] at d ⊢
    exact d

/-- **C139, quaternions.**  The same for the system with quaternions, along motions with unit quaternions. -/
theorem C139_quaternion (hk : kd.Ok) (hq : sy.quat = true) {x : ℝ → List ℝ} {t : ℝ} (control : List ℝ)
    (hx : LDeriv x (sy.dynamics kd rb (x t) control) t) (hc : ∀ s, seg (x s) 0 4 ⬝ᵥ seg (x s) 0 4 = 1) :
    Follows kd rb (fun s => sy.stateFrom kd (x s)) (seg control 0 n)
      (sy.linkForces rb (sy.stateFrom kd (x t)) control) t := by
  rw [dynamics_eq] at hx
  have hS : ∀ s, sy.stateFrom kd (x s) = (RBD.blank n false).fromStateVectorQuaternion kd.conv (x s) := fun s => by
    simp [Sys.stateFrom, hq]
  have hD : ∀ (a : Acc n) s, sy.toDeriv kd a s = a.toQuat kd s := fun a s => by simp [Sys.toDeriv, hq]
  rw [hD] at hx
  obtain ⟨h1, h2, h3, h4, h5, h6⟩ := quat_segs (kd := kd) (forwardDynamics kd rb (sy.stateFrom kd (x t)) (seg control 0 n)
    (sy.linkForces rb (sy.stateFrom kd (x t)) control) Acc.zero) (sy.stateFrom kd (x t))
  have hR : ∀ s, rotationMatrix kd (sy.stateFrom kd (x s)).pose = quatMatrix (seg (x s) 0 4) := fun s => by
    rw [hS, ← hk.quatRot _ (hc s)]; simp [rotationMatrix, RBD.fromStateVectorQuaternion, RBD.blank, Pose.init, Pose.setQuat]
  have hB : ∀ v, rotateBaseToInertia kd (sy.stateFrom kd (x t)).pose v = quatMatrix (seg (x t) 0 4) *ᵥ v := fun v => by
    rw [hS, ← hk.quatRot _ (hc t)]; simp [rotateBaseToInertia, RBD.fromStateVectorQuaternion, RBD.blank, Pose.init, Pose.setQuat]
  have hE : (sy.stateFrom kd (x t)).pose.getQuat kd.conv = seg (x t) 0 4 := by
    rw [hS]; simp [RBD.fromStateVectorQuaternion, RBD.blank, Pose.init, Pose.setQuat, Pose.getQuat]
  have hG : gravityB6D kd (sy.stateFrom kd (x t)).pose = join 0 ((quatMatrix (seg (x t) 0 4))ᵀ *ᵥ ![0, 0, -9.81]) := by
    apply gravity_join
    rw [hS, ← hk.quatRot _ (hc t)]
    simp [rotateInertiaToBase, RBD.fromStateVectorQuaternion, RBD.blank, Pose.init, Pose.setQuat, gravity3DW]
  rw [hE, hk.quatDiff] at h1
  refine ⟨?_, ?_, ?_, ?_, ?_⟩
  · simp only [hR]
    have d := hx.seg 0 4
    rw [h1] at d
    exact quatMatrix_deriv (hc t) d
  · have d := hx.seg 4 3
    rw [h2, hB] at d
    simp only [hR]
    simp only [hS] at d ⊢
    exact d
  · have d := hx.seg 7 n
    rw [h3] at d
    simp only [hS] at d ⊢
    exact d
  · have d4 := hx.seg (7 + n) 3
    have d5 := hx.seg (10 + n) 3
    rw [h4] at d4
    rw [h5] at d5
    simp only [forwardDynamics, hG] at d4 d5
    simp only [hR]
    have := join_deriv d4 d5
    simp only [hS] at this ⊢
    exact this
  · have d := hx.seg (2 * (n + 6) + 1 - n) n
    rw [h6] at d
    simp only [forwardDynamics, hG] at d
    simp only [hR]
    simp only [hS] at d ⊢
    exact d

/-- The two rotations undo each other, so vectors and forces can be taken to the base and back. -/
theorem C139_rotations (hk : kd.Ok) (p : Pose ℝ) (hp : p.storedAsEuler = true ∨ p.quat ⬝ᵥ p.quat = 1) (v : V3) :
    rotateInertiaToBase kd p (rotateBaseToInertia kd p v) = v ∧ rotateBaseToInertia kd p (rotateInertiaToBase kd p v) = v := by
  have key : ∀ R : M3, IsRot R → Rᵀ *ᵥ (R *ᵥ v) = v ∧ R *ᵥ (Rᵀ *ᵥ v) = v := fun R hR => by
    rw [mulVec_mulVec, mulVec_mulVec, hR.orth, IsRot.orth' hR, one_mulVec]; exact ⟨rfl, rfl⟩
  cases he : p.storedAsEuler
  · have hq : p.quat ⬝ᵥ p.quat = 1 := hp.resolve_left (by simp [he])
    simp only [rotateInertiaToBase, rotateBaseToInertia, rotationMatrix, he, Bool.false_eq_true, if_false, hk.quatRot _ hq]
    exact key _ (quatMatrix_rot hq)
  · simp only [rotateInertiaToBase, rotateBaseToInertia, rotationMatrix, he, if_true, hk.eulerRot, eulerQuatMatrix_eq]
    exact key _ (rotXYZ_rot _)

/-- **C141.**  A copy (or clone) of a system with a contact model has the same dynamics. -/
theorem C141_copy_partial (hc : sy.contact ≠ none) :
    ∃ sy' : Sys n e, sy.copy = .ok sy' ∧ ∀ x control, sy'.dynamics kd rb x control = sy.dynamics kd rb x control := by
  cases h : sy.contact with
  | none => exact absurd h hc
  | some c => exact ⟨sy, by simp [Sys.copy, h]; cases sy; simp_all, fun _ _ => rfl⟩

/-- **C141.**  Copying (or cloning) a system without a contact model - the state after construction - dereferences a null
pointer, although its dynamics are well defined. -/
theorem C141_copy_violated (hc : sy.contact = none) : sy.copy = .ub := by simp [Sys.copy, hc]

/-! ### The hypotheses can be met -/

/-- kindr's functions, as far as they are used. -/
noncomputable def stdKindr (cv : Conv ℝ) : Kindr where
  conv := cv
  eulerRot := rotXYZ
  quatRot := quatMatrix
  eulerDiff := eulerRate
  quatDiff q ω := (1 / 2 : ℝ) • quatMul q ![0, ω 0, ω 1, ω 2]

theorem line_deriv {k : ℕ} (a d : Fin k → ℝ) : VDeriv (fun s : ℝ => a + s • d) d 0 := fun i =>
  (((hasDerivAt_id' (0 : ℝ)).mul_const (d i)).const_add (a i)).congr_deriv (by ring)

/-- They are as `Kindr.Ok` demands. -/
theorem stdKindr_ok (cv : Conv ℝ) : (stdKindr cv).Ok where
  eulerRot _ := rfl
  quatRot _ _ := rfl
  eulerDiff e ω h := by
    have := rotXYZ_deriv (line_deriv e (eulerRate e ω))
    simp only [zero_smul, add_zero] at this
    rw [bodyRate_eulerRate e ω h] at this
    exact this
  quatDiff _ _ := rfl

theorem toEuler_length (a : Acc n) (s : RBD ℝ n) : (a.toEuler kd s).length = 2 * (n + 6) := by
  simp only [Acc.toEuler, List.length_append, List.length_ofFn]; omega

theorem LDeriv.line (x d : List ℝ) (h : x.length = d.length) :
    LDeriv (fun s : ℝ => List.ofFn fun i : Fin x.length => x.getD i 0 + s * d.getD i 0) d 0 := by
  intro i
  by_cases hi : i < x.length
  · have : (fun s : ℝ => (List.ofFn fun i : Fin x.length => x.getD i 0 + s * d.getD i 0).getD i 0) = fun s => x.getD i 0 + s * d.getD i 0 := by
      funext s; simp [List.getD, hi]
    rw [this]
    exact (((hasDerivAt_id' (0 : ℝ)).mul_const _).const_add _).congr_deriv (by ring)
  · have : (fun s : ℝ => (List.ofFn fun i : Fin x.length => x.getD i 0 + s * d.getD i 0).getD i 0) = fun _ => 0 := by
      funext s; simp [List.getD, hi]
    rw [this, show d.getD i 0 = 0 by simp [List.getD, List.getElem?_eq_none (show d.length ≤ i by omega)]]
    exact hasDerivAt_const _ _

/-- Motions as in `C139_euler` exist through every state. -/
example (hq : sy.quat = false) (x₀ control : List ℝ) (h : x₀.length = 2 * (n + 6)) :
    ∃ x : ℝ → List ℝ, x 0 = x₀ ∧ LDeriv x (sy.dynamics kd rb (x 0) control) 0 := by
  have h0 : (List.ofFn fun i : Fin x₀.length => x₀.getD i 0) = x₀ := by
    apply List.ext_getElem <;> simp [List.getD]
  refine ⟨fun s => List.ofFn fun i : Fin x₀.length => x₀.getD i 0 + s * (sy.dynamics kd rb x₀ control).getD i 0, ?_, ?_⟩
  · simp only [zero_mul, add_zero]; exact h0
  · simp only [zero_mul, add_zero, h0]
    exact LDeriv.line _ _ (by rw [dynamics_eq, h]; simp [Sys.toDeriv, hq, toEuler_length])

theorem toQuat_length (a : Acc n) (s : RBD ℝ n) : (a.toQuat kd s).length = 2 * (n + 6) + 1 := by
  simp only [Acc.toQuat, List.length_append, List.length_ofFn]; omega

/-- Motions as in `C139_quaternion` exist, for instance through every state in which the base does not turn. -/
example (hk : kd.Ok) (hq : sy.quat = true) (x₀ control : List ℝ) (h : x₀.length = 2 * (n + 6) + 1) (hu : seg x₀ 0 4 ⬝ᵥ seg x₀ 0 4 = 1)
    (hw : seg x₀ (7 + n) 3 = 0) :
    ∃ x : ℝ → List ℝ, x 0 = x₀ ∧ LDeriv x (sy.dynamics kd rb (x 0) control) 0 ∧ ∀ s, seg (x s) 0 4 ⬝ᵥ seg (x s) 0 4 = 1 := by
  have h0 : (List.ofFn fun i : Fin x₀.length => x₀.getD i 0) = x₀ := by
    apply List.ext_getElem <;> simp [List.getD]
  have h1 : seg (sy.dynamics kd rb x₀ control) 0 4 = 0 := by
    rw [dynamics_eq]
    simp only [Sys.toDeriv, hq, if_true]
    rw [(quat_segs _ _).1, hk.quatDiff]
    have : (sy.stateFrom kd x₀).angVel = 0 := by simp only [Sys.stateFrom, hq, if_true, RBD.fromStateVectorQuaternion, hw]
    rw [this]
    funext i
    fin_cases i <;> simp [quatMul]
  refine ⟨fun s => List.ofFn fun i : Fin x₀.length => x₀.getD i 0 + s * (sy.dynamics kd rb x₀ control).getD i 0, ?_, ?_, ?_⟩
  · simp only [zero_mul, add_zero]; exact h0
  · simp only [zero_mul, add_zero, h0]
    exact LDeriv.line _ _ (by rw [dynamics_eq, h]; simp [Sys.toDeriv, hq, toQuat_length])
  · intro s
    have : seg (List.ofFn fun i : Fin x₀.length => x₀.getD i 0 + s * (sy.dynamics kd rb x₀ control).getD i 0) 0 4 = seg x₀ 0 4 := by
      funext i
      have hi : i.val < x₀.length := by omega
      have := congrFun h1 i
      simp only [seg, Nat.zero_add, Pi.zero_apply] at this ⊢
      rw [List.getD, List.getElem?_ofFn, dif_pos hi, Option.getD_some]
      simp only [this, mul_zero, add_zero]
    rw [this, hu]

/-! ### Halves of the dynamics and forces of the control vector -/

theorem pdot_length (x v : List ℝ) : (sy.pdot kd x v).length = pdim n sy.quat := by
  simp only [Sys.pdot, Sys.toDeriv, pdim]
  cases sy.quat
  · simp only [Bool.false_eq_true, if_false, List.length_take, toEuler_length]; omega
  · simp only [if_true, List.length_take, toQuat_length]; omega

/-- C139: what symplectic integrators ask for.  The rate of the position for a given velocity is that of the whole
system in the state with this velocity, and the rate of the velocity for a given position is that of the whole
system in the state with this position. -/
theorem C139_halves (x v p control : List ℝ) (hx : pdim n sy.quat ≤ x.length) (hp : p.length = pdim n sy.quat) :
    sy.pdot kd x v = (sy.dynamics kd rb (x.take (pdim n sy.quat) ++ v) control).take (pdim n sy.quat)
    ∧ sy.vdot kd rb x p control = (sy.dynamics kd rb (p ++ x.drop (pdim n sy.quat)) control).drop (pdim n sy.quat) := by
  have hl : (x.take (pdim n sy.quat)).length = pdim n sy.quat := by simp [hx]
  constructor
  · rw [Sys.dynamics, List.take_append_of_le_length (by rw [pdot_length]), List.take_of_length_le (by rw [pdot_length]),
      List.drop_left' hl]
    simp only [Sys.pdot, List.take_left' hl]
  · rw [Sys.dynamics, List.drop_left' (by rw [pdot_length]), List.take_left' hp]
    simp only [Sys.vdot, List.drop_left' hp]

example : ∃ x p : List ℝ, pdim 2 true ≤ x.length ∧ p.length = pdim 2 true :=
  ⟨List.replicate 17 0, List.replicate 9 0, by simp [pdim], by simp [pdim]⟩

/-- Folding assignments: the value at a key is that of the last assignment to it. -/
theorem foldl_update {K W : Type} [DecidableEq K] (key : Fin e → K) (val : Fin e → W) (l : List (Fin e)) (lf : K → W) :
    (∀ j, (∀ i ∈ l, key i ≠ j) → l.foldl (fun lf i => Function.update lf (key i) (val i)) lf j = lf j) ∧
    (∀ i ∈ l, (∀ i' ∈ l, key i' = key i → i' = i) →
      l.foldl (fun lf i => Function.update lf (key i) (val i)) lf (key i) = val i) := by
  induction l generalizing lf with
  | nil => exact ⟨fun j _ => rfl, fun i hi => by simp at hi⟩
  | cons a l ih =>
    refine ⟨fun j hj => ?_, fun i hi hu => ?_⟩
    · rw [List.foldl_cons, (ih _).1 j fun i hi => hj i (List.mem_cons_of_mem _ hi),
        Function.update_of_ne (Ne.symm (hj a List.mem_cons_self))]
    · rw [List.foldl_cons]
      by_cases hm : i ∈ l
      · exact (ih _).2 i hm fun i' hi' => hu i' (List.mem_cons_of_mem _ hi')
      · have : i = a := (List.mem_cons.1 hi).resolve_right hm
        subst this
        rw [(ih _).1 _ fun i' hi' heq => hm (hu i' (List.mem_cons_of_mem _ hi') heq ▸ hi')]
        exact Function.update_self _ _ _

theorem control_force (tau : Fin n → ℝ) (force : Fin e → V3) (i : Fin e) :
    seg (List.ofFn tau ++ (List.ofFn force).flatMap fun f => List.ofFn f) (n + i * 3) 3 = force i := by
  have : ∀ (k : ℕ) (g : Fin k → Fin 3 → ℝ) (i : Fin k) (c : Fin 3),
      ((List.ofFn g).flatMap fun f => List.ofFn f).getD (i * 3 + c) 0 = g i c := by
    intro k
    induction k with
    | zero => exact fun _ i => i.elim0
    | succ k ih =>
      intro g i c
      rw [List.ofFn_succ, List.flatMap_cons]
      refine Fin.cases ?_ (fun i => ?_) i
      · rw [List.getD_append _ _ _ _ (by simp)]
        fin_cases c <;> simp [List.getD]
      · rw [List.getD_append_right _ _ _ _ (by simp; omega)]
        have := ih (fun i => g i.succ) i c
        rw [← this]
        congr 1
        simp; omega
  funext c
  unfold seg
  rw [List.getD_append_right _ _ _ _ (by simp; omega)]
  rw [← this e force i c]
  congr 1
  simp; omega

/-- C139: the control vector stacks the joint torques and the forces at the end effectors.  The joints receive
the torques; the link of every end effector receives the force of its contact plus the one in the control vector,
if the system takes such forces, mapped into the link frame; all other links receive none.  Missing: end effectors
sharing a link. -/
theorem C139_forces_partial (s : RBD ℝ n) (tau : Fin n → ℝ) (force : Fin e → V3) (hinj : Function.Injective rb.linkId) :
    let control := List.ofFn tau ++ (List.ofFn force).flatMap fun f => List.ofFn f
    let contact : Fin e → V3 := match sy.contact with | some c => c s | none => 0
    seg control 0 n = tau
    ∧ (∀ i, sy.linkForces rb s control (rb.linkId i)
        = rb.mapForce (contact i + if sy.eeIn then force i else 0) s.pose s.joints.pos i)
    ∧ ∀ l, (∀ i, rb.linkId i ≠ l) → sy.linkForces rb s control l = 0 := by
  intro control contact
  have he : ∀ i, sy.eeForces s control i = contact i + if sy.eeIn then force i else 0 := by
    intro i
    simp only [Sys.eeForces, control, control_force, contact]
    cases sy.contact <;> cases sy.eeIn <;> simp <;> rfl
  have h := foldl_update rb.linkId (fun i => rb.mapForce (sy.eeForces s control i) s.pose s.joints.pos i) (List.finRange e)
    (fun _ _ => 0)
  refine ⟨seg_at tau control [] _ rfl rfl, fun i => ?_, fun l hl => ?_⟩
  · have := h.2 i (List.mem_finRange i) fun i' _ hk => hinj hk
    rw [he] at this
    exact this
  · exact h.1 l fun i _ => hl i

/-- C139, negated for two end effectors on one link: the link receives the force of the second only, whatever force acts
at the first. -/
theorem C139_shared_violated (rb : FRob n l 2) (sy : Sys n 2) (s : RBD ℝ n) (control : List ℝ) (h : rb.linkId 0 = rb.linkId 1) :
    sy.linkForces rb s control (rb.linkId 0) = rb.mapForce (sy.eeForces s control 1) s.pose s.joints.pos 1 := by
  have hf : List.finRange 2 = [0, 1] := by decide
  simp only [Sys.linkForces, mapLinkForces, hf, List.foldl_cons, List.foldl_nil, h, Function.update_self]

example : ∃ rb : FRob 0 3 2, rb.linkId 0 = rb.linkId 1 ∧ rb.mapForce ≠ 0 :=
  ⟨⟨fun _ _ _ _ _ _ => 0, fun _ _ _ _ _ _ => 0, fun _ _ _ _ _ _ _ => 0, ![2, 2], fun _ _ _ _ => 1⟩, rfl, by
    intro h; have := congrFun (congrFun (congrFun (congrFun (congrFun h 0) ⟨true, 0, 0, 0⟩) 0) 0) 0; simp at this⟩

example : ∃ rb : FRob 0 3 2, Function.Injective rb.linkId :=
  ⟨⟨fun _ _ _ _ _ _ => 0, fun _ _ _ _ _ _ => 0, fun _ _ _ _ _ _ _ => 0, ![0, 2], fun _ _ _ _ => 0⟩, by
    intro i j h; fin_cases i <;> fin_cases j <;> simp_all⟩

end System

end CT.FloatSys
