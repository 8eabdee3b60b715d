import Verif.Model.Taskspace
import Verif.Props.Lookup
import Verif.Props.RobotLookups
import Mathlib.Analysis.SpecialFunctions.Trigonometric.InverseDeriv
import Mathlib.Analysis.SpecialFunctions.Trigonometric.Bounds
import Mathlib.LinearAlgebra.Matrix.Trace
import Mathlib.Tactic.LinearCombination
import Mathlib.Tactic.FieldSimp
import Mathlib.Tactic.FinCases

/-! # C144–C147: task-space cost terms -/

namespace CT.Taskspace

open Matrix FrameJac FloatSys Lookup

/-! ### The external conversions -/

/-- The squared norm of a quaternion is one. -/
def Unit (q : Q4) : Prop := q 0 * q 0 + q 1 * q 1 + q 2 * q 2 + q 3 * q 3 = 1

/-- What the conversions of Eigen are documented to do: a rotation matrix is converted to a unit quaternion of that
rotation; a unit quaternion is converted to an angle between 0 and π and an axis of length one of the same rotation
(the quaternions of opposite sign stand for the same rotation). -/
structure EigenRot.Ok (er : EigenRot) : Prop where
  quat : ∀ R, IsRot R → Unit (er.toQuat R) ∧ quatMatrix (er.toQuat R) = R
  aa : ∀ q, Unit q → 0 ≤ (er.toAngleAxis q).1 ∧ (er.toAngleAxis q).1 ≤ Real.pi
    ∧ (er.toAngleAxis q).2 ⬝ᵥ (er.toAngleAxis q).2 = 1
    ∧ (q = axisQuat (er.toAngleAxis q).1 (er.toAngleAxis q).2 ∨ q = -axisQuat (er.toAngleAxis q).1 (er.toAngleAxis q).2)

/-- The homogeneous form of the matrix of a quaternion. -/
def quatHom (q : Q4) : M3 :=
  !![q 0 * q 0 + q 1 * q 1 - q 2 * q 2 - q 3 * q 3, 2 * (q 1 * q 2 - q 0 * q 3), 2 * (q 1 * q 3 + q 0 * q 2);
     2 * (q 1 * q 2 + q 0 * q 3), q 0 * q 0 - q 1 * q 1 + q 2 * q 2 - q 3 * q 3, 2 * (q 2 * q 3 - q 0 * q 1);
     2 * (q 1 * q 3 - q 0 * q 2), 2 * (q 2 * q 3 + q 0 * q 1), q 0 * q 0 - q 1 * q 1 - q 2 * q 2 + q 3 * q 3]

theorem quatHom_eq {q : Q4} (h : Unit q) : quatMatrix q = quatHom q := by
  unfold Unit at h
  ext i j
  fin_cases i <;> fin_cases j <;> simp [quatMatrix, quatHom] <;> linarith

theorem quatHom_mul (p q : Q4) : quatHom (quatMul p q) = quatHom p * quatHom q := by
  ext i j
  fin_cases i <;> fin_cases j <;> simp [quatHom, quatMul, Matrix.mul_apply, Fin.sum_univ_three] <;> ring

theorem unit_mul {p q : Q4} (hp : Unit p) (hq : Unit q) : Unit (quatMul p q) := by
  unfold Unit at *
  simp only [quatMul, Matrix.cons_val_zero, Matrix.cons_val_one, Matrix.cons_val]
  linear_combination (q 0 * q 0 + q 1 * q 1 + q 2 * q 2 + q 3 * q 3) * hp + hq

theorem quatInv_unit {q : Q4} (h : Unit q) : quatInv q = ![q 0, -q 1, -q 2, -q 3] := by
  unfold Unit at h
  simp only [quatInv, h, div_one]

theorem unit_inv {q : Q4} (h : Unit q) : Unit (quatInv q) := by
  rw [quatInv_unit h]
  unfold Unit at *
  simp
  linarith

theorem quatMatrix_err {p r : Q4} (hp : Unit p) (hr : Unit r) :
    quatMatrix (quatMul p (quatInv r)) = quatMatrix p * (quatMatrix r)ᵀ := by
  rw [quatHom_eq (unit_mul hp (unit_inv hr)), quatHom_mul, ← quatHom_eq hp]
  congr 1
  rw [quatInv_unit hr]
  unfold Unit at hr
  ext i j
  fin_cases i <;> fin_cases j <;> simp [quatMatrix, quatHom] <;> linarith

/-- The matrix entries of a rotation by `θ` about `a`: trace and antisymmetric part. -/
theorem axisQuat_matrix {θ : ℝ} {a : V3} {q : Q4} (ha : a ⬝ᵥ a = 1) (hq : q = axisQuat θ a ∨ q = -axisQuat θ a) :
    (quatMatrix q).trace = 1 + 2 * Real.cos θ
    ∧ quatMatrix q 2 1 - quatMatrix q 1 2 = 2 * Real.sin θ * a 0
    ∧ quatMatrix q 0 2 - quatMatrix q 2 0 = 2 * Real.sin θ * a 1
    ∧ quatMatrix q 1 0 - quatMatrix q 0 1 = 2 * Real.sin θ * a 2 := by
  have hc : Real.cos θ = 1 - 2 * Real.sin (θ / 2) ^ 2 := by
    have := Real.cos_two_mul (θ / 2)
    rw [mul_div_cancel₀ _ (two_ne_zero' ℝ)] at this
    rw [this, Real.cos_sq']
    ring
  have hs : Real.sin θ = 2 * Real.sin (θ / 2) * Real.cos (θ / 2) := by
    have := Real.sin_two_mul (θ / 2)
    rwa [mul_div_cancel₀ _ (two_ne_zero' ℝ)] at this
  simp only [dotProduct, Fin.sum_univ_three] at ha
  rw [hc, hs]
  set c := Real.cos (θ / 2) with hc0
  set s := Real.sin (θ / 2) with hs0
  have hm : quatMatrix q = quatMatrix ![c, s * a 0, s * a 1, s * a 2] := by
    rcases hq with rfl | rfl
    · rfl
    · ext i j
      fin_cases i <;> fin_cases j <;> simp [quatMatrix, axisQuat, ← hc0, ← hs0]
  rw [hm]
  refine ⟨?_, ?_, ?_, ?_⟩ <;>
    simp only [Matrix.trace, Fin.sum_univ_three, Matrix.diag, quatMatrix, Matrix.of_apply, Matrix.cons_val', Matrix.cons_val_zero,
      Matrix.cons_val_one, Matrix.cons_val]
  · linear_combination -4 * s ^ 2 * ha
  all_goals ring

/-- The orientation error of the term in terms of the rotation that takes the reference to the present
orientation. -/
theorem qDiff_spec {er : EigenRot} (he : er.Ok) {g : Geo} (hR : IsRot g.RRef) {C : M3} (hC : IsRot C) :
    ∃ (θ : ℝ) (a : V3), g.qDiff er C = θ • a ∧ a ⬝ᵥ a = 1 ∧ 0 ≤ θ ∧ θ ≤ Real.pi
      ∧ (C * g.RRefᵀ).trace = 1 + 2 * Real.cos θ
      ∧ (C * g.RRefᵀ) 2 1 - (C * g.RRefᵀ) 1 2 = 2 * Real.sin θ * a 0
      ∧ (C * g.RRefᵀ) 0 2 - (C * g.RRefᵀ) 2 0 = 2 * Real.sin θ * a 1
      ∧ (C * g.RRefᵀ) 1 0 - (C * g.RRefᵀ) 0 1 = 2 * Real.sin θ * a 2 := by
  obtain ⟨u1, m1⟩ := he.quat C hC
  obtain ⟨u2, m2⟩ := he.quat g.RRef hR
  obtain ⟨p0, p1, p2, p3⟩ := he.aa _ (unit_mul u1 (unit_inv u2))
  have hm := quatMatrix_err u1 u2
  rw [m1, m2] at hm
  refine ⟨_, _, rfl, p2, p0, p1, ?_⟩
  rw [← hm]
  exact axisQuat_matrix p2 p3

/-! ### Derivative of the squared angle -/

theorem arccos_sq_le {x : ℝ} (h0 : -1 ≤ x) (h1 : x ≤ 1) : Real.arccos x ^ 2 ≤ Real.pi ^ 2 / 2 * (1 - x) := by
  have hp := Real.pi_pos
  have h := Real.cos_le_one_sub_mul_cos_sq (x := Real.arccos x)
    (by rw [abs_of_nonneg (Real.arccos_nonneg x)]; exact Real.arccos_le_pi x)
  rw [Real.cos_arccos h0 h1] at h
  have : 2 / Real.pi ^ 2 * Real.arccos x ^ 2 ≤ 1 - x := by linarith
  calc Real.arccos x ^ 2 = Real.pi ^ 2 / 2 * (2 / Real.pi ^ 2 * Real.arccos x ^ 2) := by field_simp
    _ ≤ _ := by gcongr

/-- The squared angle at a rotation by less than a half turn. -/
theorem arccos_sq_deriv {g : ℝ → ℝ} {θ k : ℝ} {t : ℝ} (hb : ∀ s, -1 ≤ g s ∧ g s ≤ 1) (h0 : 0 ≤ θ) (hπ : θ < Real.pi)
    (hθ : g t = Real.cos θ) (hg : HasDerivAt g (-(Real.sin θ * k)) t) :
    HasDerivAt (fun s => Real.arccos (g s) ^ 2) (2 * θ * k) t := by
  have ht : Real.arccos (g t) = θ := by rw [hθ, Real.arccos_cos h0 hπ.le]
  rcases h0.eq_or_lt with rfl | hpos
  · -- no error: the squared angle is bounded by a multiple of `1 - g`
    rw [Real.sin_zero, zero_mul, neg_zero] at hg
    rw [mul_zero, zero_mul]
    have h1 : g t = 1 := by simpa using hθ
    rw [hasDerivAt_iff_isLittleO] at hg ⊢
    refine (Asymptotics.IsBigO.trans_isLittleO (g := fun s => g s - g t - (s - t) • (0 : ℝ)) ?_ hg)
    refine Asymptotics.IsBigO.of_bound (Real.pi ^ 2 / 2) (Filter.Eventually.of_forall fun s => ?_)
    have hb' := arccos_sq_le (hb s).1 (hb s).2
    simp only [h1, Real.arccos_one, smul_zero, sub_zero, Real.norm_eq_abs]
    have e : Real.arccos (g s) ^ 2 - (0 : ℝ) ^ 2 = Real.arccos (g s) ^ 2 := by ring
    rw [e, abs_of_nonneg (sq_nonneg _), abs_of_nonpos (by linarith [(hb s).2])]
    linarith
  · have hs : 0 < Real.sin θ := Real.sin_pos_of_pos_of_lt_pi hpos hπ
    have hsq : Real.sqrt (1 - g t ^ 2) = Real.sin θ := by rw [hθ, ← Real.sin_sq, Real.sqrt_sq hs.le]
    have hne : g t ≠ -1 ∧ g t ≠ 1 := by
      have : 0 < 1 - g t ^ 2 := by rw [hθ, ← Real.sin_sq]; positivity
      constructor <;> intro h <;> rw [h] at this <;> norm_num at this
    have d := ((Real.hasDerivAt_arccos hne.1 hne.2).comp t hg).pow 2
    refine (d.congr_deriv ?_)
    simp only [Function.comp, hsq, ht]
    field_simp
    ring

/-- The trace of the orientation error changes with the angular velocity. -/
theorem trace_deriv {C : ℝ → M3} {R : M3} {ω : V3} {t : ℝ}
    (hC : ∀ c : V3, VDeriv (fun s => C s *ᵥ c) (cross ω (C t *ᵥ c)) t) :
    HasDerivAt (fun s => (C s * Rᵀ).trace)
      (-(ω 0 * ((C t * Rᵀ) 2 1 - (C t * Rᵀ) 1 2) + ω 1 * ((C t * Rᵀ) 0 2 - (C t * Rᵀ) 2 0)
        + ω 2 * ((C t * Rᵀ) 1 0 - (C t * Rᵀ) 0 1))) t := by
  have e : ∀ s i j, (C s * Rᵀ) i j = (C s *ᵥ R j) i := fun s i j => by
    simp [Matrix.mul_apply, mulVec, dotProduct]
  have d := (((hC (R 0)) 0).add ((hC (R 1)) 1)).add ((hC (R 2)) 2)
  refine (d.congr_deriv ?_).congr_of_eventuallyEq (Filter.Eventually.of_forall fun s => ?_)
  · simp only [e, cross, Matrix.cons_val_zero, Matrix.cons_val_one, Matrix.cons_val]
    ring
  · simp only [Matrix.trace, Matrix.diag, Fin.sum_univ_three, e, Pi.add_apply]

/-! ### The conversions exist -/

/-- The matrix of cofactors of a rotation is the rotation itself. -/
theorem rot_adjugate {R : M3} (h : IsRot R) : R.adjugate = Rᵀ := by
  have h1 : R * R.adjugate = 1 := by rw [Matrix.mul_adjugate, h.det, one_smul]
  calc R.adjugate = Rᵀ * R * R.adjugate := by rw [h.orth, one_mul]
    _ = Rᵀ := by rw [mul_assoc, h1, mul_one]

theorem quat_exists_pos {R : M3} (h : IsRot R) (h0 : 0 < 1 + R 0 0 + R 1 1 + R 2 2) :
    ∃ q, Unit q ∧ quatMatrix q = R := by
  have ha := rot_adjugate h
  have ho := h.orth
  have ho' : R * Rᵀ = 1 := mul_eq_one_comm.1 ho
  rw [Matrix.adjugate_fin_three] at ha
  have A := fun i j => congrFun (congrFun ha i) j
  have O := fun i j => congrFun (congrFun ho i) j
  have O' := fun i j => congrFun (congrFun ho' i) j
  have a00 := A 0 0; have a01 := A 0 1; have a02 := A 0 2
  have a10 := A 1 0; have a11 := A 1 1; have a12 := A 1 2
  have a20 := A 2 0; have a21 := A 2 1; have a22 := A 2 2
  have c00 := O 0 0; have c11 := O 1 1; have c22 := O 2 2
  have c01 := O 0 1; have c02 := O 0 2; have c12 := O 1 2
  have r00 := O' 0 0; have r11 := O' 1 1; have r22 := O' 2 2
  have r01 := O' 0 1; have r02 := O' 0 2; have r12 := O' 1 2
  clear A O O' ha ho ho' h
  simp only [Matrix.mul_apply, Fin.sum_univ_three, Matrix.transpose_apply, Matrix.of_apply, Matrix.cons_val', Matrix.cons_val_zero,
    Matrix.cons_val_one, Matrix.cons_val, Matrix.one_apply_eq, Matrix.one_apply_ne, ne_eq, not_false_eq_true,
    Fin.reduceEq] at a00 a01 a02 a10 a11 a12 a20 a21 a22 c00 c11 c22 c01 c02 c12 r00 r11 r22 r01 r02 r12
  have hw : (Real.sqrt (1 + R 0 0 + R 1 1 + R 2 2) / 2) ^ 2 = (1 + R 0 0 + R 1 1 + R 2 2) / 4 := by
    rw [div_pow, Real.sq_sqrt h0.le]; norm_num
  have hwp : 0 < Real.sqrt (1 + R 0 0 + R 1 1 + R 2 2) / 2 := by positivity
  generalize Real.sqrt (1 + R 0 0 + R 1 1 + R 2 2) / 2 = w at hw hwp
  -- products of the vector part, times the square of the scalar part
  have s1 : (R 2 1 - R 1 2) ^ 2 = 4 * w ^ 2 * (1 + R 0 0 - R 1 1 - R 2 2) := by
    rw [hw]; linear_combination r11 + r22 - c00 + 2 * a00
  have s2 : (R 0 2 - R 2 0) ^ 2 = 4 * w ^ 2 * (1 - R 0 0 + R 1 1 - R 2 2) := by
    rw [hw]; linear_combination r00 + r22 - c11 + 2 * a11
  have s3 : (R 1 0 - R 0 1) ^ 2 = 4 * w ^ 2 * (1 - R 0 0 - R 1 1 + R 2 2) := by
    rw [hw]; linear_combination r00 + r11 - c22 + 2 * a22
  have p12 : (R 2 1 - R 1 2) * (R 0 2 - R 2 0) = 4 * w ^ 2 * (R 1 0 + R 0 1) := by
    rw [hw]; linear_combination a01 + a10 - c01 - r01
  have p13 : (R 2 1 - R 1 2) * (R 1 0 - R 0 1) = 4 * w ^ 2 * (R 2 0 + R 0 2) := by
    rw [hw]; linear_combination a02 + a20 - c02 - r02
  have p23 : (R 0 2 - R 2 0) * (R 1 0 - R 0 1) = 4 * w ^ 2 * (R 2 1 + R 1 2) := by
    rw [hw]; linear_combination a12 + a21 - c12 - r12
  have e : ∀ {x y z : ℝ}, x * y = 4 * w ^ 2 * z → x / (4 * w) * (y / (4 * w)) = z / 4 := by
    intro x y z hxyz
    rw [div_mul_div_comm, hxyz]; field_simp
  have k1 := e (by rw [← s1]; ring : (R 2 1 - R 1 2) * (R 2 1 - R 1 2) = _)
  have k2 := e (by rw [← s2]; ring : (R 0 2 - R 2 0) * (R 0 2 - R 2 0) = _)
  have k3 := e (by rw [← s3]; ring : (R 1 0 - R 0 1) * (R 1 0 - R 0 1) = _)
  have k12 := e p12
  have k13 := e p13
  have k23 := e p23
  have f : ∀ x : ℝ, w * (x / (4 * w)) = x / 4 := fun x => by field_simp
  have f1 := f (R 2 1 - R 1 2)
  have f2 := f (R 0 2 - R 2 0)
  have f3 := f (R 1 0 - R 0 1)
  refine ⟨![w, (R 2 1 - R 1 2) / (4 * w), (R 0 2 - R 2 0) / (4 * w), (R 1 0 - R 0 1) / (4 * w)], ?_, ?_⟩
  · simp only [Unit, Matrix.cons_val_zero, Matrix.cons_val_one, Matrix.cons_val, k1, k2, k3]
    linear_combination hw
  · generalize (R 2 1 - R 1 2) / (4 * w) = q1 at *
    generalize (R 0 2 - R 2 0) / (4 * w) = q2 at *
    generalize (R 1 0 - R 0 1) / (4 * w) = q3 at *
    ext i j
    fin_cases i <;> fin_cases j <;> simp [quatMatrix] <;> linarith

/-- Every rotation matrix is the matrix of a unit quaternion. -/
theorem quat_exists {R : M3} (h : IsRot R) : ∃ q, Unit q ∧ quatMatrix q = R := by
  -- a half turn about a coordinate axis makes the trace large enough
  have key : ∀ u : Q4, Unit u → IsRot (quatMatrix u) →
      0 < 1 + (R * quatMatrix u) 0 0 + (R * quatMatrix u) 1 1 + (R * quatMatrix u) 2 2 → ∃ q, Unit q ∧ quatMatrix q = R := by
    intro u hu hr hp
    obtain ⟨q, k1, k2⟩ := quat_exists_pos (h.mul hr) hp
    refine ⟨quatMul q (quatInv u), unit_mul k1 (unit_inv hu), ?_⟩
    rw [quatMatrix_err k1 hu, k2, mul_assoc, mul_eq_one_comm.1 hr.orth, mul_one]
  by_cases h0 : 0 < 1 + R 0 0 + R 1 1 + R 2 2
  · exact quat_exists_pos h h0
  have rot : ∀ u : Q4, u = ![0, 1, 0, 0] ∨ u = ![0, 0, 1, 0] ∨ u = ![0, 0, 0, 1] → Unit u ∧ IsRot (quatMatrix u) := by
    rintro u (rfl | rfl | rfl)
    all_goals
      refine ⟨by simp [Unit], ?_, by simp [quatMatrix, Matrix.det_fin_three]; try norm_num⟩
      ext i j
      fin_cases i <;> fin_cases j <;> simp [quatMatrix, Matrix.mul_apply, Fin.sum_univ_three] <;> norm_num
  by_cases h1 : 0 < 1 + R 0 0 - R 1 1 - R 2 2
  · refine key _ (rot _ (Or.inl rfl)).1 (rot _ (Or.inl rfl)).2 ?_
    simp [quatMatrix, Matrix.mul_apply, Fin.sum_univ_three]
    linarith
  by_cases h2 : 0 < 1 - R 0 0 + R 1 1 - R 2 2
  · refine key _ (rot _ (Or.inr (Or.inl rfl))).1 (rot _ (Or.inr (Or.inl rfl))).2 ?_
    simp [quatMatrix, Matrix.mul_apply, Fin.sum_univ_three]
    linarith
  · refine key _ (rot _ (Or.inr (Or.inr rfl))).1 (rot _ (Or.inr (Or.inr rfl))).2 ?_
    simp [quatMatrix, Matrix.mul_apply, Fin.sum_univ_three]
    linarith

theorem aa_exists_nonneg {q : Q4} (h : Unit q) (h0 : 0 ≤ q 0) :
    ∃ (θ : ℝ) (a : V3), 0 ≤ θ ∧ θ ≤ Real.pi ∧ a ⬝ᵥ a = 1 ∧ q = axisQuat θ a := by
  unfold Unit at h
  have h1 : q 0 ≤ 1 := by nlinarith [mul_self_nonneg (q 1), mul_self_nonneg (q 2), mul_self_nonneg (q 3)]
  have hc : Real.cos (2 * Real.arccos (q 0) / 2) = q 0 := by
    rw [mul_div_cancel_left₀ _ (two_ne_zero' ℝ), Real.cos_arccos (by linarith) h1]
  have hs : Real.sin (2 * Real.arccos (q 0) / 2) = Real.sqrt (1 - q 0 ^ 2) := by
    rw [mul_div_cancel_left₀ _ (two_ne_zero' ℝ), Real.sin_arccos]
  have hπ : Real.arccos (q 0) ≤ Real.pi / 2 := Real.arccos_le_pi_div_two.2 h0
  have hn := Real.arccos_nonneg (q 0)
  by_cases hz : 1 - q 0 ^ 2 = 0
  · have z1 : q 1 = 0 := by nlinarith [mul_self_nonneg (q 1), mul_self_nonneg (q 2), mul_self_nonneg (q 3)]
    have z2 : q 2 = 0 := by nlinarith [mul_self_nonneg (q 1), mul_self_nonneg (q 2), mul_self_nonneg (q 3)]
    have z3 : q 3 = 0 := by nlinarith [mul_self_nonneg (q 1), mul_self_nonneg (q 2), mul_self_nonneg (q 3)]
    refine ⟨2 * Real.arccos (q 0), ![1, 0, 0], by linarith, by linarith, by simp, ?_⟩
    simp only [axisQuat]
    rw [hc, hs, hz]
    ext i
    fin_cases i <;> simp [z1, z2, z3]
  · have hp : 0 < 1 - q 0 ^ 2 := lt_of_le_of_ne (by nlinarith) (Ne.symm hz)
    have hr : Real.sqrt (1 - q 0 ^ 2) ≠ 0 := (Real.sqrt_pos.2 hp).ne'
    have hq := Real.sq_sqrt hp.le
    generalize Real.sqrt (1 - q 0 ^ 2) = r at *
    refine ⟨2 * Real.arccos (q 0), ![q 1 / r, q 2 / r, q 3 / r], by linarith, by linarith, ?_, ?_⟩
    · simp only [dotProduct, Fin.sum_univ_three, Matrix.cons_val_zero, Matrix.cons_val_one, Matrix.cons_val]
      field_simp
      rw [hq]
      linarith
    · simp only [axisQuat]
      rw [hc, hs]
      ext i
      fin_cases i <;> simp <;> field_simp

/-- Conversions as documented exist. -/
theorem eigenRot_exists : ∃ er : EigenRot, er.Ok := by
  have h1 : ∀ R : M3, ∃ q : Q4, IsRot R → Unit q ∧ quatMatrix q = R := fun R => by
    by_cases h : IsRot R
    · exact (quat_exists h).imp fun _ hq _ => hq
    · exact ⟨0, fun k => absurd k h⟩
  have h2 : ∀ q : Q4, ∃ x : ℝ × V3, Unit q → 0 ≤ x.1 ∧ x.1 ≤ Real.pi ∧ x.2 ⬝ᵥ x.2 = 1
      ∧ (q = axisQuat x.1 x.2 ∨ q = -axisQuat x.1 x.2) := fun q => by
    by_cases h : Unit q
    · rcases le_total 0 (q 0) with h0 | h0
      · obtain ⟨θ, a, k⟩ := aa_exists_nonneg h h0
        exact ⟨(θ, a), fun _ => ⟨k.1, k.2.1, k.2.2.1, Or.inl k.2.2.2⟩⟩
      · obtain ⟨θ, a, k⟩ := aa_exists_nonneg (q := -q) (by simpa [Unit] using h) (by simpa using h0)
        exact ⟨(θ, a), fun _ => ⟨k.1, k.2.1, k.2.2.1, Or.inr (neg_eq_iff_eq_neg.1 k.2.2.2)⟩⟩
    · exact ⟨(0, 0), fun k => absurd k h⟩
  choose f hf using h1
  choose g hg using h2
  exact ⟨⟨f, g⟩, hf, hg⟩

/-! ### C144: gradient -/

/-- The look-ups of end effector `k` return its position and a rotation, whatever was computed before. -/
def EEPose (d : Defs) (k : ℕ) : Prop :=
  ∃ (p : (ℕ → ℝ) → V3) (C : (ℕ → ℝ) → M3), ∀ q, IsRot (C q) ∧ ∀ h, d.getEEPositionInBase h k q = .ok (p q)
    ∧ d.getEERotInBase h k q = .ok (C q)

theorem world_pos {d : Defs} {h : Hist} {k : ℕ} {q : ℕ → ℝ} {p : V3} (hp : d.getEEPositionInBase h k q = .ok p) :
    d.getEEPositionInWorld h k 0 1 q = .ok p := by
  simp [Defs.getEEPositionInWorld, hp, eePositionInWorld, Res.ok_bind, Res.pure_eq]

theorem quad_deriv {f : ℝ → V3} {f' : V3} {t : ℝ} {Q : M3} (hQ : Q.IsSymm) (hf : VDeriv f f' t) :
    HasDerivAt (fun s => (1 / 2 : ℝ) * ((f s ᵥ* Q) ⬝ᵥ f s)) (f' ⬝ᵥ (Q *ᵥ f t)) t := by
  have h01 := hQ.apply 0 1
  have h02 := hQ.apply 0 2
  have h12 := hQ.apply 1 2
  have e0 := hf 0
  have e1 := hf 1
  have e2 := hf 2
  simp only [vecMul, mulVec, dotProduct, Fin.sum_univ_three]
  have k0 := ((e0.mul_const (Q 0 0)).add (e1.mul_const (Q 1 0))).add (e2.mul_const (Q 2 0))
  have k1 := ((e0.mul_const (Q 0 1)).add (e1.mul_const (Q 1 1))).add (e2.mul_const (Q 2 1))
  have k2 := ((e0.mul_const (Q 0 2)).add (e1.mul_const (Q 1 2))).add (e2.mul_const (Q 2 2))
  refine ((((k0.mul e0).add (k1.mul e1)).add (k2.mul e2)).const_mul (1 / 2 : ℝ)).congr_deriv ?_
  simp only [Pi.add_apply]
  rw [h01, h02, h12]
  ring

theorem setHead_dot {N : ℕ} (h : N ≤ S) (v : Fin N → ℝ) (xd : Fin S → ℝ) :
    (setHead v : Fin S → ℝ) ⬝ᵥ xd = v ⬝ᵥ fun j : Fin N => joints N xd j := by
  obtain ⟨k, rfl⟩ := Nat.exists_eq_add_of_le h
  simp only [dotProduct, Fin.sum_univ_add, setHead, joints]
  rw [Finset.sum_eq_zero (s := Finset.univ (α := Fin k)) (by intro i _; simp), add_zero]
  refine Finset.sum_congr rfl fun i _ => ?_
  have : (i : ℕ) < N + k := by omega
  simp [this, Fin.castAdd, Fin.castLE]

theorem joints_deriv {N : ℕ} {x : ℝ → Fin S → ℝ} {xd : Fin S → ℝ} {t : ℝ} (hx : VDeriv x xd t) (j : ℕ) :
    HasDerivAt (fun s => joints N (x s) j) (joints N xd j) t := by
  unfold joints
  split
  · exact hx _
  · exact hasDerivAt_const _ _

/-- C144: let the states move along any curve.  With a symmetric weight on the position and the same weight on every axis
of the orientation error, the cost is differentiable except where the orientation is off by a half turn,
and its derivative is the product of the returned gradient and the velocity of the state.
Missing: weights on the orientation error that differ between the axes; there the gradient is wrong
(`C144_weights_violated`). -/
theorem C144_gradient_partial {er : EigenRot} (he : er.Ok) {d : Defs} {g : Geo} (hp : EEPose d g.eeInd)
    (hv : d.EEVelRight g.eeInd) (hS : d.njoints ≤ S) (hQ : g.Qpos.IsSymm) {c : ℝ} (hc : g.Qrot = c • 1) (hR : IsRot g.RRef)
    {x : ℝ → Fin S → ℝ} {xd : Fin S → ℝ} {t : ℝ} (hx : VDeriv x xd t) (hh : ℝ → Hists) (h : Hists)
    (hhalf : ∀ C, d.getEERotInBase h.X g.eeInd (joints d.njoints (x t)) = .ok C → (C * g.RRefᵀ).trace ≠ -1) :
    ∃ (cost : ℝ → ℝ) (grad : Fin S → ℝ), (∀ s, g.evaluate er d (hh s) (x s) = .ok (cost s))
      ∧ g.stateDerivative er d h (x t) = .ok grad ∧ HasDerivAt cost (grad ⬝ᵥ xd) t := by
  obtain ⟨p, C, hpC⟩ := hp
  obtain ⟨p', C', J, k1, k2, k3, ⟨k4, k5⟩, -⟩ := hv (fun s => joints d.njoints (x s)) (joints d.njoints xd) t
    (joints_deriv hx) (fun _ => h.X) (fun _ => h.X) h.J h.X
  have ep : ∀ s, p' s = p (joints d.njoints (x s)) := fun s => by
    have := k1 s
    rw [((hpC _).2 _).1] at this
    exact (Res.ok.inj this).symm
  have eC : ∀ s, C' s = C (joints d.njoints (x s)) := fun s => by
    have := k2 s
    rw [((hpC _).2 _).2] at this
    exact (Res.ok.inj this).symm
  obtain rfl : p' = fun s => p (joints d.njoints (x s)) := funext ep
  obtain rfl : C' = fun s => C (joints d.njoints (x s)) := funext eC
  clear ep eC k1 k2
  have hne := hhalf _ ((hpC _).2 h.X).2
  refine ⟨fun s => (1 / 2 : ℝ) * (((p (joints d.njoints (x s)) - g.xRef) ᵥ* g.Qpos) ⬝ᵥ (p (joints d.njoints (x s)) - g.xRef))
      + (1 / 2 : ℝ) * ((g.qDiff er (C (joints d.njoints (x s))) ᵥ* g.Qrot) ⬝ᵥ g.qDiff er (C (joints d.njoints (x s)))),
    setHead (((bottom J)ᵀ * g.Qpos) *ᵥ (p (joints d.njoints (x t)) - g.xRef)
      + ((topRows J)ᵀ * g.Qrot) *ᵥ g.qDiff er (C (joints d.njoints (x t)))), fun s => ?_, ?_, ?_⟩
  · simp only [Geo.evaluate, world_pos ((hpC _).2 _).1, ((hpC _).2 _).2, Res.ok_bind, Res.pure_eq]
  · simp only [Geo.stateDerivative, k3, world_pos ((hpC _).2 _).1, ((hpC _).2 _).2, Res.ok_bind, Res.pure_eq]
  · set V := J *ᵥ fun j : Fin d.njoints => joints d.njoints xd j with hV
    -- position
    have dpos := quad_deriv hQ (f := fun s => p (joints d.njoints (x s)) - g.xRef) (fun i => (k4 i).sub_const _)
    -- orientation
    have hb : ∀ s, ∃ θ : ℝ, 0 ≤ θ ∧ θ ≤ Real.pi
        ∧ ((C (joints d.njoints (x s)) * g.RRefᵀ).trace - 1) / 2 = Real.cos θ
        ∧ (1 / 2 : ℝ) * ((g.qDiff er (C (joints d.njoints (x s))) ᵥ* g.Qrot) ⬝ᵥ g.qDiff er (C (joints d.njoints (x s))))
          = c / 2 * θ ^ 2 := fun s => by
      obtain ⟨θ, a, e1, e2, e3, e4, e5, -⟩ := qDiff_spec he hR (hpC (joints d.njoints (x s))).1
      refine ⟨θ, e3, e4, by rw [e5]; ring, ?_⟩
      rw [e1, hc, Matrix.vecMul_smul, Matrix.vecMul_one, smul_dotProduct, smul_dotProduct, dotProduct_smul, e2]
      simp only [smul_eq_mul]
      ring
    obtain ⟨θ, a, e1, e2, e3, e4, e5, e6, e7, e8⟩ := qDiff_spec he hR (hpC (joints d.njoints (x t))).1
    have hlt : θ < Real.pi := lt_of_le_of_ne e4 fun k => hne (by rw [e5, k, Real.cos_pi]; norm_num)
    have dtr := trace_deriv (R := g.RRef) k5
    have dg := (dtr.sub_const 1).div_const 2
    have drot := (arccos_sq_deriv (θ := θ) (k := V 0 * a 0 + V 1 * a 1 + V 2 * a 2) (t := t)
      (g := fun s => ((C (joints d.njoints (x s)) * g.RRefᵀ).trace - 1) / 2)
      (fun s => by obtain ⟨θ, _, _, k, _⟩ := hb s; rw [k]; exact ⟨Real.neg_one_le_cos _, Real.cos_le_one _⟩) e3 hlt
      (by show (_ - 1) / 2 = _; rw [e5]; ring)
      (dg.congr_deriv (by
        simp only [e6, e7, e8, Matrix.cons_val_zero, Matrix.cons_val_one, Matrix.cons_val]
        ring))).const_mul (c / 2)
    refine ((dpos.add drot).congr_deriv ?_).congr_of_eventuallyEq (Filter.Eventually.of_forall fun s => ?_)
    · rw [setHead_dot hS, add_dotProduct, hc, e1]
      have m1 : (((bottom J)ᵀ * g.Qpos) *ᵥ (p (joints d.njoints (x t)) - g.xRef)) ⬝ᵥ (fun j : Fin d.njoints => joints d.njoints xd j)
          = ![V 3, V 4, V 5] ⬝ᵥ (g.Qpos *ᵥ (p (joints d.njoints (x t)) - g.xRef)) := by
        rw [← Matrix.mulVec_mulVec, Matrix.mulVec_transpose, ← Matrix.dotProduct_mulVec, dotProduct_comm]
        congr 1
        ext i
        fin_cases i <;> rfl
      have m2 : (((topRows J)ᵀ * (c • (1 : M3))) *ᵥ (θ • a)) ⬝ᵥ (fun j : Fin d.njoints => joints d.njoints xd j)
          = c * θ * (V 0 * a 0 + V 1 * a 1 + V 2 * a 2) := by
        rw [← Matrix.mulVec_mulVec, Matrix.mulVec_transpose, ← Matrix.dotProduct_mulVec, Matrix.smul_mulVec, Matrix.one_mulVec]
        have : topRows J *ᵥ (fun j : Fin d.njoints => joints d.njoints xd j) = ![V 0, V 1, V 2] := by
          ext i
          fin_cases i <;> rfl
        rw [this]
        simp [dotProduct, Fin.sum_univ_three]
        ring
      rw [m1, m2]
      ring
    · obtain ⟨θ', f1, f2, f3, f4⟩ := hb s
      simp only [Pi.add_apply]
      rw [f3, Real.arccos_cos f1 f2, f4]

end CT.Taskspace
