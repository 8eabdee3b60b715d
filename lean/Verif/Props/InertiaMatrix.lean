import Verif.Props.Spatial

/-!
# C123: the inertia matrix class describes a rigid body

Specification: `IsInertiaOf I m r` of `Props/Spatial.lean`, the inertia of the point masses `m k` at `r k`.
-/

namespace CT.Spatial

open Matrix FrameJac

/-! ### Specification -/

/-- The classical rotational inertia of the point masses about the origin. -/
def classicalTensor {κ : Type} [Fintype κ] (m : κ → ℝ) (r : κ → V3) : M3 :=
  !![∑ k, m k * (r k 1 ^ 2 + r k 2 ^ 2), -∑ k, m k * (r k 0 * r k 1), -∑ k, m k * (r k 0 * r k 2);
     -∑ k, m k * (r k 0 * r k 1), ∑ k, m k * (r k 0 ^ 2 + r k 2 ^ 2), -∑ k, m k * (r k 1 * r k 2);
     -∑ k, m k * (r k 0 * r k 2), -∑ k, m k * (r k 1 * r k 2), ∑ k, m k * (r k 0 ^ 2 + r k 1 ^ 2)]

/-- Centre of mass of the point masses. -/
noncomputable def centreOfMass {κ : Type} [Fintype κ] (m : κ → ℝ) (r : κ → V3) : V3 := (∑ k, m k)⁻¹ • ∑ k, m k • r k

/-- An object that can be assigned to: default constructed or describing some body. -/
def Usable (I : M6) : Prop := (∃ junk, I = Inertia.new junk) ∨ ∃ (n : ℕ) (m : Fin n → ℝ) (r : Fin n → V3), IsInertiaOf I m r

/-! ### Lemmas -/

theorem tens_classical {κ : Type} [Fintype κ] (m : κ → ℝ) (r : κ → V3) : tens m r = classicalTensor m r := by
  rw [tens]
  ext i j
  rw [Matrix.sum_apply]
  fin_cases i <;> fin_cases j <;> simp [classicalTensor, cpm, ← Finset.sum_neg_distrib] <;>
    (refine Finset.sum_congr rfl fun k _ => ?_) <;> ring

theorem moment_com {κ : Type} [Fintype κ] {m : κ → ℝ} {r : κ → V3} (hm : ∑ k, m k ≠ 0) :
    (∑ k, m k) • centreOfMass m r = moment m r := by
  rw [centreOfMass, smul_smul, mul_inv_cancel₀ hm, one_smul, moment]

theorem Usable.zeros {I : M6} (h : Usable I) : I 0 3 = 0 ∧ I 1 4 = 0 ∧ I 2 5 = 0 ∧ I 3 0 = 0 ∧ I 4 1 = 0 ∧ I 5 2 = 0
    ∧ I 3 4 = 0 ∧ I 3 5 = 0 ∧ I 4 3 = 0 ∧ I 4 5 = 0 ∧ I 5 3 = 0 ∧ I 5 4 = 0 := by
  rcases h with ⟨junk, rfl⟩ | ⟨n, m, r, h⟩
  · simp [Inertia.new]
  · rw [inertia_iff.mp h]
    simp [blk, cpm]

theorem changeCOM_blk (T : M3) (p c : V3) (M : ℝ) :
    Inertia.changeCOM (blk T (cpm p) (-cpm p) (M • 1)) c
      = blk (T + M⁻¹ • (cpm (M • c) * -cpm (M • c) - cpm p * -cpm p)) (cpm (M • c)) (-cpm (M • c)) (M • 1) := by
  have hM : Inertia.getMass (blk T (cpm p) (-cpm p) (M • 1)) = M := by simp [Inertia.getMass, blk]
  have hT : Inertia.get3x3Tensor (blk T (cpm p) (-cpm p) (M • 1)) = T := by
    ext i j; fin_cases i <;> fin_cases j <;> simp [Inertia.get3x3Tensor, blk]
  have hLA : (!![blk T (cpm p) (-cpm p) (M • 1) 3 0, blk T (cpm p) (-cpm p) (M • 1) 3 1, blk T (cpm p) (-cpm p) (M • 1) 3 2;
      blk T (cpm p) (-cpm p) (M • 1) 4 0, blk T (cpm p) (-cpm p) (M • 1) 4 1, blk T (cpm p) (-cpm p) (M • 1) 4 2;
      blk T (cpm p) (-cpm p) (M • 1) 5 0, blk T (cpm p) (-cpm p) (M • 1) 5 1, blk T (cpm p) (-cpm p) (M • 1) 5 2] : M3)
      = -cpm p := by
    ext i j; fin_cases i <;> fin_cases j <;> simp [blk, cpm]
  have hAL : setSkewSymmetricBlock (M • c) !![blk T (cpm p) (-cpm p) (M • 1) 0 3, blk T (cpm p) (-cpm p) (M • 1) 0 4, blk T (cpm p) (-cpm p) (M • 1) 0 5;
      blk T (cpm p) (-cpm p) (M • 1) 1 3, blk T (cpm p) (-cpm p) (M • 1) 1 4, blk T (cpm p) (-cpm p) (M • 1) 1 5;
      blk T (cpm p) (-cpm p) (M • 1) 2 3, blk T (cpm p) (-cpm p) (M • 1) 2 4, blk T (cpm p) (-cpm p) (M • 1) 2 5]
      = cpm (M • c) := by
    ext i j; fin_cases i <;> fin_cases j <;> simp [blk, cpm, setSkewSymmetricBlock]
  unfold Inertia.changeCOM
  simp only [hM, hT, hLA, hAL, transpose_neg, cpm_transpose, neg_neg]
  generalize T + M⁻¹ • (cpm (M • c) * -cpm (M • c) - cpm p * -cpm p) = A
  ext i j
  fin_cases i <;> fin_cases j <;> simp [blk, cpm]

/-! ### Theorems -/

/-- **C123 (construction).**  Filled with mass, centre of mass and the rotational inertia about the origin
of the frame, a usable matrix is the spatial inertia of the body. -/
theorem C123_fill {κ : Type} [Fintype κ] {z : M6} (hz : Usable z) {m : κ → ℝ} {r : κ → V3} (hm : ∑ k, m k ≠ 0) :
    IsInertiaOf (Inertia.fill z (∑ k, m k) (centreOfMass m r)
      (buildInertiaTensor (∑ k, m k * (r k 1 ^ 2 + r k 2 ^ 2)) (∑ k, m k * (r k 0 ^ 2 + r k 2 ^ 2))
        (∑ k, m k * (r k 0 ^ 2 + r k 1 ^ 2)) (∑ k, m k * (r k 0 * r k 1)) (∑ k, m k * (r k 0 * r k 2))
        (∑ k, m k * (r k 1 * r k 2)))) m r := by
  have ht : buildInertiaTensor (∑ k, m k * (r k 1 ^ 2 + r k 2 ^ 2)) (∑ k, m k * (r k 0 ^ 2 + r k 2 ^ 2))
        (∑ k, m k * (r k 0 ^ 2 + r k 1 ^ 2)) (∑ k, m k * (r k 0 * r k 1)) (∑ k, m k * (r k 0 * r k 2))
        (∑ k, m k * (r k 1 * r k 2)) = tens m r := by rw [tens_classical]; rfl
  rw [inertia_iff, ht, ← moment_com hm]
  obtain ⟨a1, a2, a3, a4, a5, a6, a7, a8, a9, a10, a11, a12⟩ := hz.zeros
  ext i j
  fin_cases i <;> fin_cases j <;> simp [Inertia.fill, blk, cpm, *]

/-- **C123 (getters).** -/
theorem C123_getters {κ : Type} [Fintype κ] {I : M6} {m : κ → ℝ} {r : κ → V3} (h : IsInertiaOf I m r)
    (hm : ∑ k, m k ≠ 0) :
    Inertia.getMass I = ∑ k, m k ∧ Inertia.getCOM I = centreOfMass m r
      ∧ Inertia.get3x3Tensor I = classicalTensor m r := by
  rw [inertia_iff] at h
  subst h
  refine ⟨by simp [Inertia.getMass, blk], ?_, ?_⟩
  · rw [← moment_com hm]
    funext i
    fin_cases i <;> simp [Inertia.getCOM, blk, cpm] <;> field_simp
  · rw [← tens_classical]
    ext i j
    fin_cases i <;> fin_cases j <;> simp [Inertia.get3x3Tensor, blk]

/-- **C123 (changing the mass).**  The density is scaled: the same points, with masses scaled such that
they sum up to the new mass. -/
theorem C123_change_mass {κ : Type} [Fintype κ] {I : M6} {m : κ → ℝ} {r : κ → V3} (h : IsInertiaOf I m r)
    (hm : ∑ k, m k ≠ 0) (M' : ℝ) :
    IsInertiaOf (Inertia.changeMass I M') (fun k => m k * (M' / ∑ k, m k)) r
      ∧ ∑ k, m k * (M' / ∑ k, m k) = M' := by
  have hsum : ∑ k, m k * (M' / ∑ k, m k) = M' := by
    rw [← Finset.sum_mul]; field_simp
  refine ⟨?_, hsum⟩
  rw [inertia_iff] at h ⊢
  have hmo : moment (fun k => m k * (M' / ∑ k, m k)) r = (M' / ∑ k, m k) • moment m r := by
    rw [moment, moment, Finset.smul_sum]
    exact Finset.sum_congr rfl fun k _ => by rw [smul_smul, mul_comm]
  have ht : tens (fun k => m k * (M' / ∑ k, m k)) r = (M' / ∑ k, m k) • tens m r := by
    rw [tens, tens, Finset.smul_sum]
    exact Finset.sum_congr rfl fun k _ => by rw [smul_smul, mul_comm]
  rw [hsum, hmo, ht]
  have hM : Inertia.getMass I = ∑ k, m k := by rw [h]; simp [Inertia.getMass, blk]
  unfold Inertia.changeMass
  rw [hM, h]
  generalize M' / ∑ k, m k = c
  generalize tens m r = T
  generalize moment m r = p
  ext i j
  fin_cases i <;> fin_cases j <;> simp [blk, cpm] <;> ring

/-- **C123 (changing the centre of mass).**  The body is shifted as a whole: mass and shape stay, and the
centre of mass is the one requested. -/
theorem C123_change_com {κ : Type} [Fintype κ] {I : M6} {m : κ → ℝ} {r : κ → V3} (h : IsInertiaOf I m r)
    (hm : ∑ k, m k ≠ 0) (c : V3) :
    IsInertiaOf (Inertia.changeCOM I c) m (fun k => r k + (c - centreOfMass m r))
      ∧ centreOfMass m (fun k => r k + (c - centreOfMass m r)) = c := by
  have hshift : ∀ d : V3, moment m (fun k => r k + d) = moment m r + (∑ k, m k) • d := by
    intro d
    rw [moment, moment, Finset.sum_smul, ← Finset.sum_add_distrib]
    exact Finset.sum_congr rfl fun k _ => by rw [smul_add]
  have hmo : moment m (fun k => r k + (c - centreOfMass m r)) = (∑ k, m k) • c := by
    rw [hshift, smul_sub, moment_com hm]; abel
  refine ⟨?_, ?_⟩
  · have ht := tens_shift m r (-(c - centreOfMass m r))
    simp only [sub_neg_eq_add] at ht
    rw [inertia_iff] at h ⊢
    rw [hmo, ht, ← moment_com hm]
    rw [← moment_com hm] at h
    rw [h, changeCOM_blk]
    generalize (∑ k, m k) = M at *
    generalize tens m r = T
    generalize centreOfMass m r = p
    congr 1
    ext i j
    fin_cases i <;> fin_cases j <;> simp [cpm] <;> field_simp <;> ring
  · have h2 := moment_com (r := fun k => r k + (c - centreOfMass m r)) hm
    rw [hmo] at h2
    have := congrArg (fun v => (∑ k, m k)⁻¹ • v) h2
    simpa [smul_smul, inv_mul_cancel₀ hm] using this

/-- **C123 (changing the rotational inertia).**  If the new tensor belongs to a body with the same mass
and first moment, the result is the inertia of that body. -/
theorem C123_change_tensor {κ κ' : Type} [Fintype κ] [Fintype κ'] {I : M6} {m : κ → ℝ} {r : κ → V3} {m' : κ' → ℝ}
    {r' : κ' → V3} (h : IsInertiaOf I m r) (hm : ∑ k, m' k = ∑ k, m k) (hp : ∑ k, m' k • r' k = ∑ k, m k • r k) :
    IsInertiaOf (Inertia.changeRotationalInertia I (classicalTensor m' r')) m' r' := by
  rw [inertia_iff] at h ⊢
  have hp' : moment m' r' = moment m r := hp
  rw [hm, hp', h, ← tens_classical]
  ext i j
  fin_cases i <;> fin_cases j <;> simp [Inertia.changeRotationalInertia, blk]

/-- **C123 (adding).**  The sum is the inertia of both bodies together. -/
theorem C123_add {κ κ' : Type} [Fintype κ] [Fintype κ'] {I J : M6} {m : κ → ℝ} {r : κ → V3} {m' : κ' → ℝ}
    {r' : κ' → V3} (h : IsInertiaOf I m r) (h' : IsInertiaOf J m' r') :
    IsInertiaOf (Inertia.addAssign I J) (Sum.elim m m') (Sum.elim r r') := by
  rw [inertia_iff] at h h' ⊢
  have h1 : tens (Sum.elim m m') (Sum.elim r r') = tens m r + tens m' r' := by
    simp only [tens, Fintype.sum_sum_type, Sum.elim_inl, Sum.elim_inr]
  have h2 : moment (Sum.elim m m') (Sum.elim r r') = moment m r + moment m' r' := by simp [moment, Fintype.sum_sum_type]
  rw [h1, h2, Fintype.sum_sum_type, h, h']
  simp only [Sum.elim_inl, Sum.elim_inr]
  generalize tens m r = T
  generalize moment m r = p
  generalize tens m' r' = T'
  generalize moment m' r' = p'
  ext i j
  fin_cases i <;> fin_cases j <;> simp [Inertia.addAssign, blk, cpm] <;> ring

/-- **C123 (assignment).**  Assigned to a usable matrix, the inertia of a body is copied. -/
theorem C123_assign {κ : Type} [Fintype κ] {I J : M6} {m : κ → ℝ} {r : κ → V3} (hI : Usable I)
    (h : IsInertiaOf J m r) : Inertia.assign I J = J := by
  obtain ⟨a1, a2, a3, a4, a5, a6, a7, a8, a9, a10, a11, a12⟩ := hI.zeros
  rw [inertia_iff] at h
  subst h
  ext i j
  fin_cases i <;> fin_cases j <;> simp [Inertia.assign, blk, cpm, *]

/-! ### Concrete cases -/

/-- A quarter turn about the vertical. -/
def quarter : M3 := !![0, 1, 0; -1, 0, 0; 0, 0, 1]

theorem quarter_rot : IsRot quarter := by
  constructor
  · ext i j; fin_cases i <;> fin_cases j <;> simp [quarter, Matrix.mul_apply, Fin.sum_univ_three]
  · simp [quarter, Matrix.det_fin_three]

theorem forceX_exists {E : M3} (h : IsRot E) (o : V3) : IsForceX (blk E (-(E * cpm o)) 0 E) E o := by
  refine ⟨h, fun τ f => ?_⟩
  rw [blk_mulVec, ← cpm_mulVec]
  refine join_ext ?_ (by simp)
  rw [mulVec_sub, neg_mulVec, mulVec_mulVec]
  abel

theorem motionX_exists {E : M3} (h : IsRot E) (o : V3) : IsMotionX (blk E 0 (-(E * cpm o)) E) E o := by
  refine ⟨h, fun ω v => ?_⟩
  rw [blk_mulVec]
  refine join_ext (by simp) ?_
  rw [mulVec_add, cross_anti ω o, ← cpm_mulVec, mulVec_neg, neg_mulVec, mulVec_mulVec]
  abel

/-- The hypotheses of `C122_bias`, `C122_bias_z_partial`, `C122_transform_inertia`, `C123_getters`,
`C123_change_mass`, `C123_change_com`, `C123_add` and `C123_assign` are met by a unit mass off the axes and a
frame that is turned and shifted. -/
example : ∃ I X : M6, IsInertiaOf I (fun _ : Unit => (1 : ℝ)) (fun _ => ![1, 1, 0]) ∧ ∑ _k : Unit, (1 : ℝ) ≠ 0
    ∧ IsForceX X quarter ![1, 2, 3] ∧ Usable (Inertia.new 0) :=
  ⟨_, _, unit_mass, by simp, forceX_exists quarter_rot _, .inl ⟨0, rfl⟩⟩

/-- The hypotheses of `C122_compute_Ia_revolute` and `C122_compute_Ia_prismatic` are met by the inertia of
that mass, whose entry on the joint axis is 2 (1 for the sliding joint), and a zero matrix. -/
example : ∃ IA : M6, IAᵀ = IA ∧ IA 2 2 ≠ 0 ∧ IA 5 5 ≠ 0 ∧ IA 2 3 ≠ 0 := by
  refine ⟨fillInertia 1 ![1, 1, 0] ⟨1, -1, 0, 1, 0, 2⟩ (Inertia.new 0), ?_, ?_, ?_, ?_⟩
  · ext i j; fin_cases i <;> fin_cases j <;> simp [fillInertia, Inertia.new]
  all_goals simp [fillInertia]

/-- The hypotheses of `C122_ctransform_revolute` are met, with coupling between rotation and translation. -/
example : ∃ Ia X : M6, Iaᵀ = Ia ∧ (∀ j, Ia 2 j = 0) ∧ Ia 0 4 ≠ 0 ∧ IsMotionX X quarter ![1, 2, 3] := by
  refine ⟨!![1, 2, 0, 0, 3, 0; 2, 1, 0, 0, 0, 0; 0, 0, 0, 0, 0, 0; 0, 0, 0, 1, 0, 0; 3, 0, 0, 0, 1, 0; 0, 0, 0, 0, 0, 1], _,
    ?_, ?_, by simp, motionX_exists quarter_rot _⟩
  · ext i j; fin_cases i <;> fin_cases j <;> simp
  · intro j; fin_cases j <;> simp

/-- The hypotheses of `C122_ctransform_prismatic` are met, with coupling between rotation and translation. -/
example : ∃ Ia X : M6, Iaᵀ = Ia ∧ (∀ j, Ia 5 j = 0) ∧ Ia 0 4 ≠ 0 ∧ IsMotionX X quarter ![1, 2, 3] := by
  refine ⟨!![1, 2, 0, 0, 3, 0; 2, 1, 0, 0, 0, 0; 0, 0, 1, 0, 0, 0; 0, 0, 0, 1, 0, 0; 3, 0, 0, 0, 1, 0; 0, 0, 0, 0, 0, 0], _,
    ?_, ?_, by simp, motionX_exists quarter_rot _⟩
  · ext i j; fin_cases i <;> fin_cases j <;> simp
  · intro j; fin_cases j <;> simp

/-- The hypotheses of `C123_change_tensor` are met by two different bodies: two half masses at distance one
and at distance two of their common centre. -/
example : ∑ _k : Bool, (1 / 2 : ℝ) = ∑ _k : Bool, (1 / 2 : ℝ) ∧
    ∑ k : Bool, (1 / 2 : ℝ) • (if k then ![1, 0, 0] else ![-1, 0, 0] : V3)
      = ∑ k : Bool, (1 / 2 : ℝ) • (if k then ![0, 2, 0] else ![0, -2, 0] : V3) := by
  refine ⟨rfl, ?_⟩
  funext i
  fin_cases i <;> simp

end CT.Spatial
