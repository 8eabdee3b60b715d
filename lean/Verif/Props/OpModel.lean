import Verif.Model.OpModel
import Verif.Props.OpJacobian
import Verif.Props.FrameJac
import Mathlib.Analysis.Calculus.Deriv.Comp
import Mathlib.Analysis.Calculus.Deriv.Prod
import Mathlib.Topology.Algebra.Module.FiniteDimension

/-!
# Operational-space models (C113)

Every motion of the full model is a motion of the operational model.
-/

namespace CT.OpModel

open Matrix CT.OpJac

variable {m n r c : Type} [Fintype m] [DecidableEq m] [Fintype n] [DecidableEq n] [Fintype r]
  [DecidableEq r] [Fintype c]

omit [DecidableEq m] [DecidableEq r] in
/-- The equation of motion that the classes promise: accelerations `a`, joint torques `τ` and contact
forces `l` fit together. -/
def Motion (k : Coeffs m r c) (a : m → ℝ) (τ : r → ℝ) (l : c → Fin 3 → ℝ) : Prop :=
  k.M *ᵥ a + k.C + k.G = k.Sᵀ *ᵥ τ + ∑ i, (k.Jc i)ᵀ *ᵥ l i

omit [Fintype r] [DecidableEq r] [Fintype c] in
theorem update_facts (ldltInv : Matrix m m ℝ → Matrix m m ℝ) (full : Coeffs n r c)
    (J dJdt : Matrix m n ℝ) (qd : n → ℝ)
    (hM : LdltInverse full.M full.MInverse) (hMpd : ∀ v : n → ℝ, v ≠ 0 → 0 < v ⬝ᵥ (full.M *ᵥ v))
    (hG : LdltInverse (J * full.MInverse * Jᵀ) (ldltInv (J * full.MInverse * Jᵀ))) :
    let D := full.MInverse * Jᵀ * ldltInv (J * full.MInverse * Jᵀ)
    (update ldltInv full J dJdt qd).M = ldltInv (J * full.MInverse * Jᵀ) ∧
    Dᵀ * full.M = ldltInv (J * full.MInverse * Jᵀ) * J := by
  intro D
  have hU : IsUnit full.M.det := by
    rw [isUnit_iff_ne_zero]
    intro hd
    obtain ⟨v, hv, hv0⟩ := Matrix.exists_mulVec_eq_zero_iff.2 hd
    have := hMpd v hv
    rw [hv0, dotProduct_zero] at this
    exact lt_irrefl _ this
  obtain ⟨i1, i2⟩ := hM.eq_inv hU
  have sM := hM.spec.2.2.1
  obtain ⟨-, g2, g3, -⟩ := hG.spec
  set A := J * full.MInverse * Jᵀ with hA
  set G := ldltInv A
  have hDG : D = full.MInverse * Jᵀ * G := rfl
  have e1 : Dᵀ * full.M = G * J := by
    simp only [hDG, transpose_mul, transpose_transpose, sM, g3, Matrix.mul_assoc, i2, Matrix.mul_one]
  refine ⟨?_, e1⟩
  show Dᵀ * full.M * D = G
  rw [e1]
  calc G * J * D = G * (J * full.MInverse * Jᵀ) * G := by simp only [hDG, Matrix.mul_assoc]
    _ = G := g2

omit [DecidableEq r] in
/-- **C113.** If accelerations, joint torques and contact forces satisfy the equation of motion of the
full model, then the operational acceleration reported by `getAccelerations`, the same torques and the
same contact forces satisfy the equation of motion of the operational model, whatever the rank of the
task Jacobian. -/
theorem C113_motion (ldltInv : Matrix m m ℝ → Matrix m m ℝ) (full : Coeffs n r c)
    (J dJdt : Matrix m n ℝ) (qd qdd : n → ℝ) (τ : r → ℝ) (l : c → Fin 3 → ℝ)
    (hM : LdltInverse full.M full.MInverse) (hMpd : ∀ v : n → ℝ, v ≠ 0 → 0 < v ⬝ᵥ (full.M *ᵥ v))
    (hG : LdltInverse (J * full.MInverse * Jᵀ) (ldltInv (J * full.MInverse * Jᵀ)))
    (h : Motion full qdd τ l) :
    Motion (update ldltInv full J dJdt qd) (getAccelerations J dJdt qd qdd) τ l := by
  obtain ⟨f1, f2⟩ := update_facts ldltInv full J dJdt qd hM hMpd hG
  set D := full.MInverse * Jᵀ * ldltInv (J * full.MInverse * Jᵀ) with hD
  unfold Motion
  have eC : (update ldltInv full J dJdt qd).C =
      Dᵀ *ᵥ full.C - ((update ldltInv full J dJdt qd).M * dJdt) *ᵥ qd := rfl
  have eG : (update ldltInv full J dJdt qd).G = Dᵀ *ᵥ full.G := rfl
  have eS : (update ldltInv full J dJdt qd).S = full.S * D := rfl
  have eJ : ∀ i, (update ldltInv full J dJdt qd).Jc i = full.Jc i * D := fun _ => rfl
  rw [eC, eG, eS]
  simp only [eJ, f1, getAccelerations]
  have hm := congrArg (Dᵀ *ᵥ ·) h
  simp only [Matrix.mulVec_add, Matrix.mulVec_mulVec, f2, Matrix.mulVec_sum] at hm
  simp only [transpose_mul, Matrix.mulVec_add, Matrix.mulVec_mulVec]
  rw [← hm]
  abel

omit [Fintype r] [DecidableEq r] [Fintype c] [DecidableEq m] [DecidableEq n] in
/-- **C113.** Along every motion `q` of the robot on which `J` is the Jacobian of the task coordinates `φ`,
`getVelocities` is the rate of change of the task coordinates, and `getAccelerations` the rate of change of
`getVelocities`. -/
theorem C113_rates (φ : (n → ℝ) → m → ℝ) (J : ℝ → Matrix m n ℝ) (dJdt : Matrix m n ℝ) (q qd : ℝ → n → ℝ)
    (qdd : n → ℝ) (t : ℝ) (hφ : HasFDerivAt φ (LinearMap.toContinuousLinearMap (J t).mulVecLin) (q t))
    (hq : HasDerivAt q (qd t) t) (hJ : ∀ i j, HasDerivAt (fun s => J s i j) (dJdt i j) t)
    (hqd : HasDerivAt qd qdd t) :
    HasDerivAt (fun s => φ (q s)) (getVelocities (J t) (qd t)) t ∧
    HasDerivAt (fun s => getVelocities (J s) (qd s)) (getAccelerations (J t) dJdt (qd t) qdd) t := by
  constructor
  · have := hφ.comp_hasDerivAt t hq
    exact this
  · rw [hasDerivAt_pi]
    intro i
    have := FrameJac.mulVec_deriv (A := J) (f := qd) hJ (fun k => (hasDerivAt_pi.1 hqd) k) i
    simp only [getVelocities, getAccelerations]
    rw [add_comm]
    exact this

/-- The hypotheses of `C113_rates` are met by a planar task on a moving two-joint robot. -/
example : ∃ (φ : (Fin 2 → ℝ) → Fin 1 → ℝ) (J : ℝ → Matrix (Fin 1) (Fin 2) ℝ) (q qd : ℝ → Fin 2 → ℝ),
    HasFDerivAt φ (LinearMap.toContinuousLinearMap (J 2).mulVecLin) (q 2) ∧ HasDerivAt q (qd 2) 2 ∧
    (∀ i j, HasDerivAt (fun s => J s i j) 0 2) ∧ HasDerivAt qd 0 2 ∧ J 2 ≠ 0 ∧ qd 2 ≠ 0 := by
  refine ⟨fun x => (!![1, 3] : Matrix (Fin 1) (Fin 2) ℝ).mulVecLin x, fun _ => !![1, 3],
    fun s => s • ![1, 2], fun _ => ![1, 2], ?_, ?_, ?_, ?_, ?_, ?_⟩
  · exact (LinearMap.toContinuousLinearMap (!![1, 3] : Matrix (Fin 1) (Fin 2) ℝ).mulVecLin).hasFDerivAt
  · have := (hasDerivAt_id' (2 : ℝ)).smul_const (![1, 2] : Fin 2 → ℝ)
    simpa using this
  · intro i j; exact hasDerivAt_const _ _
  · exact hasDerivAt_const _ _
  · intro h; have := congrFun (congrFun h 0) 0; simp at this
  · intro h; have := congrFun h 0; simp at this

omit [Fintype r] [DecidableEq r] [Fintype c] in
/-- **C113.** If the rows of the task Jacobian are independent, the inertia matrix of the operational
model is the inverse of `J M⁻¹ Jᵀ`, and `MInverse()` is `J M⁻¹ Jᵀ`. -/
theorem C113_inertia (ldltInv : Matrix m m ℝ → Matrix m m ℝ) (full : Coeffs n r c)
    (J dJdt : Matrix m n ℝ) (qd : n → ℝ)
    (hL : ∀ A, Aᵀ = A → LdltInverse A (ldltInv A))
    (hM : LdltInverse full.M full.MInverse) (hMpd : ∀ v : n → ℝ, v ≠ 0 → 0 < v ⬝ᵥ (full.M *ᵥ v))
    (hJ : ∀ l : m → ℝ, Jᵀ *ᵥ l = 0 → l = 0) :
    (update ldltInv full J dJdt qd).M * (J * full.MInverse * Jᵀ) = 1 ∧
    (update ldltInv full J dJdt qd).MInverse = J * full.MInverse * Jᵀ := by
  have sM := hM.spec.2.2.1
  have hG := hL (J * full.MInverse * Jᵀ) (by
    simp only [transpose_mul, transpose_transpose, sM, Matrix.mul_assoc])
  obtain ⟨f1, -⟩ := update_facts ldltInv full J dJdt qd hM hMpd hG
  have hpd : ∀ v : n → ℝ, v ≠ 0 → 0 < v ⬝ᵥ (full.MInverse *ᵥ v) := by
    intro v hv
    have hU : IsUnit full.M.det := by
      rw [isUnit_iff_ne_zero]
      intro hd
      obtain ⟨v, hv, hv0⟩ := Matrix.exists_mulVec_eq_zero_iff.2 hd
      have := hMpd v hv
      rw [hv0, dotProduct_zero] at this
      exact lt_irrefl _ this
    obtain ⟨i1, i2⟩ := hM.eq_inv hU
    have hw : full.MInverse *ᵥ v ≠ 0 := by
      intro h0
      apply hv
      rw [← Matrix.one_mulVec v, ← i1, ← Matrix.mulVec_mulVec, h0, Matrix.mulVec_zero]
    have := hMpd _ hw
    rwa [Matrix.mulVec_mulVec, i1, Matrix.one_mulVec, dotProduct_comm] at this
  have hr := (right_inverse_formula hpd hG).2 hJ
  have e : J * full.MInverse * Jᵀ * ldltInv (J * full.MInverse * Jᵀ) = 1 := by
    simpa only [Matrix.mul_assoc] using hr
  have e' := mul_eq_one_comm.1 e
  refine ⟨by rw [f1]; exact e', ?_⟩
  show ldltInv (update ldltInv full J dJdt qd).M = _
  rw [f1]
  set A := J * full.MInverse * Jᵀ
  have hG2 := hL (ldltInv A) hG.spec.2.2.1
  have hU2 : IsUnit (ldltInv A).det := by
    have := congrArg Matrix.det e'
    rw [Matrix.det_mul, Matrix.det_one] at this
    exact IsUnit.of_mul_eq_one _ this
  have e2 := (hG2.eq_inv hU2).1
  calc ldltInv (ldltInv A) = (A * ldltInv A) * ldltInv (ldltInv A) := by rw [e, Matrix.one_mul]
    _ = A * (ldltInv A * ldltInv (ldltInv A)) := Matrix.mul_assoc _ _ _
    _ = A := by rw [e2, Matrix.mul_one]

/-- **C113.** `STransposeDager` returns a right inverse of the transposed selection matrix if the
weighted Gram matrix is invertible, and its columns are orthogonal to the given system, whatever its
rank. -/
theorem C113_selection {o : Type} [Fintype o] [DecidableEq o] (ldltInvO : Matrix o o ℝ → Matrix o o ℝ)
    (ldltInv : Matrix m m ℝ → Matrix m m ℝ) (S : Matrix r m ℝ) (O : Option (Matrix r o ℝ))
    (hO : ∀ B, O = some B →
      LdltInverse (Bᵀ * (1 : Matrix r r ℝ) * B) (ldltInvO (Bᵀ * (1 : Matrix r r ℝ) * B)))
    (hS : LdltInverse (Sᵀ * weight ldltInvO O * S) (ldltInv (Sᵀ * weight ldltInvO O * S)))
    (hU : IsUnit (Sᵀ * weight ldltInvO O * S).det) :
    Sᵀ * STransposeDager ldltInvO ldltInv S O = 1 ∧
    ∀ B, O = some B → Bᵀ * STransposeDager ldltInvO ldltInv S O = 0 := by
  constructor
  · have := (hS.eq_inv hU).1
    simpa only [STransposeDager, Matrix.mul_assoc] using this
  · rintro B rfl
    have hB := hO B rfl
    have e := (gram_ginv (J := Bᵀ) one_posDef (by simpa only [transpose_transpose] using hB)).1
    rw [transpose_transpose] at e
    have hw : Bᵀ * weight ldltInvO (some B) = 0 := by
      simp only [weight, Matrix.mul_sub, Matrix.mul_one, Matrix.one_mul] at e ⊢
      rw [sub_eq_zero]
      simpa only [Matrix.mul_assoc] using e.symm
    simp only [STransposeDager]
    rw [Matrix.mul_assoc (weight _ _), ← Matrix.mul_assoc, hw, Matrix.zero_mul]

/-- A system with two coordinates, one task, one joint and one contact. -/
noncomputable def exFull : Coeffs (Fin 2) (Fin 1) (Fin 1) where
  M := !![2, 0; 0, 4]
  MInverse := !![1 / 2, 0; 0, 1 / 4]
  C := ![1, 1]
  G := ![0, 5]
  S := !![0, 1]
  Jc := fun _ => !![0, 1; 0, 0; 0, 0]

/-- The hypotheses of C113 are met by a system with contact, for a motion with non-zero accelerations,
torques and contact forces. -/
example : LdltInverse exFull.M exFull.MInverse ∧
    (∀ v : Fin 2 → ℝ, v ≠ 0 → 0 < v ⬝ᵥ (exFull.M *ᵥ v)) ∧
    LdltInverse (exExt.jac () * exFull.MInverse * (exExt.jac ())ᵀ)
      (exExt.ldltInv (exExt.jac () * exFull.MInverse * (exExt.jac ())ᵀ)) ∧
    Motion exFull ![-1 / 2, 1] ![3] (fun _ => ![7, 0, 0]) := by
  refine ⟨⟨⟨1, 1, ![2, 4], by simp, ?_⟩, ?_⟩, ?_, exExt_ldlt _, ?_⟩
  · ext i j; fin_cases i <;> fin_cases j <;> simp [exFull]
  · ext i j; fin_cases i <;> fin_cases j <;> simp [exFull, Ldlt.solve]
  · intro v hv
    have : v ⬝ᵥ (exFull.M *ᵥ v) = 2 * (v 0 * v 0) + 4 * (v 1 * v 1) := by
      simp [exFull, dotProduct, mulVec, Fin.sum_univ_two]; ring
    rw [this]
    by_cases h0 : v 0 = 0
    · have h1 : v 1 ≠ 0 := by
        intro h1; apply hv; funext i; fin_cases i <;> simp [h0, h1]
      nlinarith [mul_self_pos.2 h1, mul_self_nonneg (v 0)]
    · nlinarith [mul_self_pos.2 h0, mul_self_nonneg (v 1)]
  · unfold Motion
    funext i
    fin_cases i <;> simp [exFull, mulVec, dotProduct, Fin.sum_univ_succ, vecHead, vecTail] <;> norm_num

/-- The hypotheses of `C113_selection` are met. -/
example : LdltInverse ((!![0, 1; 1, 0] : Matrix (Fin 2) (Fin 2) ℝ)ᵀ *
      weight (fun A : Matrix (Fin 1) (Fin 1) ℝ => A) none * !![0, 1; 1, 0]) 1 ∧
    IsUnit ((!![0, 1; 1, 0] : Matrix (Fin 2) (Fin 2) ℝ)ᵀ *
      weight (fun A : Matrix (Fin 1) (Fin 1) ℝ => A) none * !![0, 1; 1, 0]).det := by
  have h : (!![0, 1; 1, 0] : Matrix (Fin 2) (Fin 2) ℝ)ᵀ *
      weight (fun A : Matrix (Fin 1) (Fin 1) ℝ => A) none * !![0, 1; 1, 0] = 1 := by
    ext i j
    fin_cases i <;> fin_cases j <;> simp [weight, Matrix.mul_apply, Fin.sum_univ_two]
  rw [h]
  exact ⟨⟨⟨1, 1, 1, by simp, by simp⟩, by simp [Ldlt.solve]⟩, by simp⟩

end CT.OpModel
