import Verif.Model.Spatial
import Verif.Props.FrameJac

/-!
# C122: the spatial algebra of the generated rigid-body code

Specification: a rigid body is a finite family of point masses `m k` at positions `r k`.  Its spatial
inertia is the matrix that turns the angular velocity and the velocity of the origin into the angular
momentum about the origin and the linear momentum.  Cross products and coordinate transforms are given by
their effect on the angular and the linear part.
-/

namespace CT.Spatial

open Matrix FrameJac

/-! ### Specification -/

/-- A spatial vector from its angular and its linear part. -/
def join (a b : V3) : V6 := ![a 0, a 1, a 2, b 0, b 1, b 2]

/-- Cross product of a spatial velocity with a spatial velocity. -/
def crm (ω v a b : V3) : V6 := join (cross ω a) (cross ω b + cross v a)

/-- Cross product of a spatial velocity with a spatial force. -/
def crf (ω v τ f : V3) : V6 := join (cross ω τ + cross v f) (cross ω f)

/-- Angular momentum about the origin of the point masses, moving as a rigid body. -/
def angMomentum {κ : Type} [Fintype κ] (m : κ → ℝ) (r : κ → V3) (ω v : V3) : V3 :=
  ∑ k, m k • cross (r k) (v + cross ω (r k))

/-- Linear momentum of the point masses. -/
def linMomentum {κ : Type} [Fintype κ] (m : κ → ℝ) (r : κ → V3) (ω v : V3) : V3 :=
  ∑ k, m k • (v + cross ω (r k))

/-- `I` is the spatial inertia of the point masses. -/
def IsInertiaOf {κ : Type} [Fintype κ] (I : M6) (m : κ → ℝ) (r : κ → V3) : Prop :=
  ∀ ω v : V3, I *ᵥ join ω v = join (angMomentum m r ω v) (linMomentum m r ω v)

/-- `X` transforms spatial forces to the frame with axes `E` and origin `o`. -/
structure IsForceX (X : M6) (E : M3) (o : V3) : Prop where
  rot : IsRot E
  map : ∀ τ f : V3, X *ᵥ join τ f = join (E *ᵥ (τ - cross o f)) (E *ᵥ f)

/-- `X` transforms spatial velocities to the frame with axes `E` and origin `o`. -/
structure IsMotionX (X : M6) (E : M3) (o : V3) : Prop where
  rot : IsRot E
  map : ∀ ω v : V3, X *ᵥ join ω v = join (E *ᵥ ω) (E *ᵥ (v + cross ω o))

/-- The axis of a revolute joint. -/
def axisZ : V6 := ![0, 0, 1, 0, 0, 0]

/-- The axis of a prismatic joint. -/
def slideZ : V6 := ![0, 0, 0, 0, 0, 1]

/-! ### Block matrices -/

def blk (A B C D : M3) : M6 :=
  !![A 0 0, A 0 1, A 0 2, B 0 0, B 0 1, B 0 2;
     A 1 0, A 1 1, A 1 2, B 1 0, B 1 1, B 1 2;
     A 2 0, A 2 1, A 2 2, B 2 0, B 2 1, B 2 2;
     C 0 0, C 0 1, C 0 2, D 0 0, D 0 1, D 0 2;
     C 1 0, C 1 1, C 1 2, D 1 0, D 1 1, D 1 2;
     C 2 0, C 2 1, C 2 2, D 2 0, D 2 1, D 2 2]

theorem join_ext {a b c d : V3} (h1 : a = c) (h2 : b = d) : join a b = join c d := by rw [h1, h2]

theorem join_inj {a b c d : V3} (h : join a b = join c d) : a = c ∧ b = d := by
  constructor <;> funext i <;> fin_cases i
  · exact congrFun h 0
  · exact congrFun h 1
  · exact congrFun h 2
  · exact congrFun h 3
  · exact congrFun h 4
  · exact congrFun h 5

theorem join_surj (u : V6) : ∃ a b, u = join a b := by
  refine ⟨![u 0, u 1, u 2], ![u 3, u 4, u 5], ?_⟩
  funext i; fin_cases i <;> rfl

theorem blk_mulVec (A B C D : M3) (a b : V3) :
    blk A B C D *ᵥ join a b = join (A *ᵥ a + B *ᵥ b) (C *ᵥ a + D *ᵥ b) := by
  funext i
  fin_cases i <;> simp [blk, join, Matrix.mulVec, dotProduct, Fin.sum_univ_succ] <;> ring

theorem ext_join {X Y : M6} (h : ∀ a b, X *ᵥ join a b = Y *ᵥ join a b) : X = Y := by
  apply Matrix.mulVec_injective
  funext u
  obtain ⟨a, b, rfl⟩ := join_surj u
  exact h a b

theorem blk_mul (A B C D A' B' C' D' : M3) :
    blk A B C D * blk A' B' C' D' = blk (A * A' + B * C') (A * B' + B * D') (C * A' + D * C') (C * B' + D * D') := by
  apply ext_join
  intro a b
  rw [← Matrix.mulVec_mulVec, blk_mulVec, blk_mulVec, blk_mulVec]
  have h : ∀ P P' Q Q' R R' : M3, P *ᵥ (P' *ᵥ a + Q *ᵥ b) + Q' *ᵥ (R *ᵥ a + R' *ᵥ b)
      = (P * P' + Q' * R) *ᵥ a + (P * Q + Q' * R') *ᵥ b := by
    intro P P' Q Q' R R'
    rw [mulVec_add, mulVec_add, add_mulVec, add_mulVec, mulVec_mulVec, mulVec_mulVec, mulVec_mulVec, mulVec_mulVec]
    exact add_add_add_comm _ _ _ _
  rw [h, h]

theorem blk_transpose (A B C D : M3) : (blk A B C D)ᵀ = blk Aᵀ Cᵀ Bᵀ Dᵀ := by
  ext i j; fin_cases i <;> fin_cases j <;> simp [blk]

theorem eta3 (A : M3) : A = !![A 0 0, A 0 1, A 0 2; A 1 0, A 1 1, A 1 2; A 2 0, A 2 1, A 2 2] := by
  ext i j; fin_cases i <;> fin_cases j <;> rfl

theorem eta6 (I : M6) : I = blk !![I 0 0, I 0 1, I 0 2; I 1 0, I 1 1, I 1 2; I 2 0, I 2 1, I 2 2]
    !![I 0 3, I 0 4, I 0 5; I 1 3, I 1 4, I 1 5; I 2 3, I 2 4, I 2 5]
    !![I 3 0, I 3 1, I 3 2; I 4 0, I 4 1, I 4 2; I 5 0, I 5 1, I 5 2]
    !![I 3 3, I 3 4, I 3 5; I 4 3, I 4 4, I 4 5; I 5 3, I 5 4, I 5 5] := by
  ext i j; fin_cases i <;> fin_cases j <;> simp [blk]

theorem IsForceX.eq {X : M6} {E : M3} {o : V3} (h : IsForceX X E o) : X = blk E (-(E * cpm o)) 0 E := by
  apply ext_join
  intro a b
  rw [h.map, blk_mulVec, ← cpm_mulVec]
  refine join_ext ?_ (by simp)
  rw [mulVec_sub, neg_mulVec, mulVec_mulVec]
  abel

theorem IsMotionX.eq {X : M6} {E : M3} {o : V3} (h : IsMotionX X E o) : X = blk E 0 (-(E * cpm o)) E := by
  apply ext_join
  intro a b
  rw [h.map, blk_mulVec]
  refine join_ext (by simp) ?_
  rw [mulVec_add, cross_anti a o, ← cpm_mulVec, mulVec_neg, neg_mulVec, mulVec_mulVec]
  abel

/-- Rotational inertia of the point masses about the origin. -/
def tens {κ : Type} [Fintype κ] (m : κ → ℝ) (r : κ → V3) : M3 := ∑ k, m k • -(cpm (r k) * cpm (r k))

/-- First moment of the point masses. -/
def moment {κ : Type} [Fintype κ] (m : κ → ℝ) (r : κ → V3) : V3 := ∑ k, m k • r k

theorem sum_mulVec {κ : Type} [Fintype κ] (f : κ → M3) (v : V3) : (∑ k, f k) *ᵥ v = ∑ k, f k *ᵥ v := by
  classical
  induction (Finset.univ : Finset κ) using Finset.induction_on with
  | empty => simp
  | insert x s hx ih => rw [Finset.sum_insert hx, Finset.sum_insert hx, add_mulVec, ih]

theorem inertia_iff {κ : Type} [Fintype κ] {I : M6} {m : κ → ℝ} {r : κ → V3} :
    IsInertiaOf I m r ↔ I = blk (tens m r) (cpm (moment m r)) (-cpm (moment m r)) ((∑ k, m k) • 1) := by
  have key : ∀ ω v : V3, blk (tens m r) (cpm (moment m r)) (-cpm (moment m r)) ((∑ k, m k) • 1) *ᵥ join ω v
      = join (angMomentum m r ω v) (linMomentum m r ω v) := by
    intro ω v
    rw [blk_mulVec]
    refine join_ext ?_ ?_
    · rw [angMomentum, tens, sum_mulVec, cpm_mulVec, moment, sum_cross, ← Finset.sum_add_distrib]
      refine Finset.sum_congr rfl fun k _ => ?_
      rw [smul_mulVec, neg_mulVec, ← mulVec_mulVec, cpm_mulVec, cpm_mulVec, cross_anti (r k) ω, smul_cross, cross_add,
        smul_add]
      have : cross (r k) (-cross ω (r k)) = -cross (r k) (cross ω (r k)) := by
        funext i; fin_cases i <;> simp [cross] <;> ring
      rw [this, neg_neg]; abel
    · rw [linMomentum, neg_mulVec, cpm_mulVec, moment, sum_cross, smul_mulVec, one_mulVec, Finset.sum_smul,
        ← Finset.sum_neg_distrib, ← Finset.sum_add_distrib]
      refine Finset.sum_congr rfl fun k _ => ?_
      rw [smul_cross, cross_anti, smul_add, smul_neg, neg_neg]; abel
  constructor
  · intro h
    exact ext_join fun a b => by rw [h, key]
  · rintro rfl
    exact key

theorem cpm_sq_symm (a : V3) : (-(cpm a * cpm a))ᵀ = -(cpm a * cpm a) := by
  ext i j; fin_cases i <;> fin_cases j <;> simp [cpm] <;> ring

theorem tens_symm {κ : Type} [Fintype κ] (m : κ → ℝ) (r : κ → V3) : (tens m r)ᵀ = tens m r := by
  rw [tens, transpose_sum]
  exact Finset.sum_congr rfl fun k _ => by rw [transpose_smul, cpm_sq_symm]

theorem symm_entries {T : M3} (h : Tᵀ = T) : T 1 0 = T 0 1 ∧ T 2 0 = T 0 2 ∧ T 2 1 = T 1 2 :=
  ⟨congrFun (congrFun h 0) 1, congrFun (congrFun h 0) 2, congrFun (congrFun h 1) 2⟩

/-! ### Rotating tensors -/

def C9.mat (A : C9) : M3 := !![A.XX, A.XY, A.XZ; A.YX, A.YY, A.YZ; A.ZX, A.ZY, A.ZZ]
def S6.mat (A : S6) : M3 := !![A.XX, A.XY, A.XZ; A.XY, A.YY, A.YZ; A.XZ, A.YZ, A.ZZ]

theorem IsRot.orth' {E : M3} (h : IsRot E) : E * Eᵀ = 1 := mul_eq_one_comm.mp h.orth

theorem IsRot.transpose {E : M3} (h : IsRot E) : IsRot Eᵀ :=
  ⟨by rw [transpose_transpose]; exact IsRot.orth' h, by rw [det_transpose, h.det]⟩

theorem cpm_rot {E : M3} (h : IsRot E) (a : V3) : E * cpm a * Eᵀ = cpm (E *ᵥ a) := by
  apply Matrix.mulVec_injective
  funext u
  rw [← mulVec_mulVec, ← mulVec_mulVec, cpm_mulVec, cpm_mulVec, h.cross, mulVec_mulVec, IsRot.orth' h, one_mulVec]

/-- `E A Eᵀ` through the decomposition of `A` into a part without third column, a multiple of the identity
and a cross product matrix. -/
theorem rot_decomp {E : M3} (h : IsRot E) (L : M3) (z : ℝ) (v : V3) :
    E * (L + z • 1 + cpm v) * Eᵀ = E * L * Eᵀ + z • 1 + cpm (E *ᵥ v) := by
  rw [Matrix.mul_add, Matrix.mul_add, Matrix.add_mul, Matrix.add_mul, cpm_rot h, Matrix.mul_smul, Matrix.smul_mul,
    Matrix.mul_one, IsRot.orth' h]

/-- `rot_EAET` is `E A Eᵀ`. -/
theorem rotGeneral_eq {E : C9} (h : IsRot E.mat) (A : C9) :
    (rotGeneral E A).mat = E.mat * A.mat * E.matᵀ := by
  have hA : A.mat = !![A.XX - A.ZZ, A.XY, 0; A.YX, A.YY - A.ZZ, 0; A.ZX + A.XZ, A.ZY + A.YZ, 0] + A.ZZ • (1 : M3)
      + cpm ![-A.YZ, A.XZ, 0] := by
    ext i j; fin_cases i <;> fin_cases j <;> simp [C9.mat, cpm]
  rw [hA, rot_decomp h]
  ext i j
  fin_cases i <;> fin_cases j <;>
    simp [C9.mat, rotGeneral, cpm, Matrix.mul_apply, Matrix.mulVec, Matrix.vecMul, dotProduct, Fin.sum_univ_three] <;> ring

/-- `rot_symmetric_EAET` is `E A Eᵀ`. -/
theorem rotSymmetric_eq {E : C9} (h : IsRot E.mat) (A : S6) :
    (rotSymmetric E A).mat = E.mat * A.mat * E.matᵀ := by
  have hg := rotGeneral_eq h ⟨A.XX, A.XY, A.XZ, A.XY, A.YY, A.YZ, A.XZ, A.YZ, A.ZZ⟩
  have hm : C9.mat ⟨A.XX, A.XY, A.XZ, A.XY, A.YY, A.YZ, A.XZ, A.YZ, A.ZZ⟩ = A.mat := rfl
  rw [hm] at hg
  have ho := h.orth
  have o00 := congrFun (congrFun ho 0) 0
  have o01 := congrFun (congrFun ho 0) 1
  have o11 := congrFun (congrFun ho 1) 1
  have o02 := congrFun (congrFun ho 0) 2
  have o12 := congrFun (congrFun ho 1) 2
  simp [C9.mat, Matrix.mul_apply, Fin.sum_univ_three] at o00 o01 o11 o02 o12
  have hsym : (E.mat * A.mat * E.matᵀ)ᵀ = E.mat * A.mat * E.matᵀ := by
    have : A.matᵀ = A.mat := by ext i j; fin_cases i <;> fin_cases j <;> rfl
    rw [transpose_mul, transpose_mul, transpose_transpose, this, Matrix.mul_assoc]
  rw [← hg] at hsym
  obtain ⟨h10, h20, h21⟩ := symm_entries hsym
  rw [← hg]
  simp only [C9.mat, Matrix.of_apply, Matrix.cons_val_zero, Matrix.cons_val_one, Matrix.cons_val] at h10 h20 h21
  have e (B : S6) (C : C9) (h1 : B.XX = C.XX) (h2 : B.XY = C.YX) (h3 : B.XZ = C.ZX) (h4 : B.YY = C.YY)
      (h5 : B.YZ = C.ZY) (h6 : B.ZZ = C.ZZ) (g1 : C.YX = C.XY) (g2 : C.ZX = C.XZ) (g3 : C.ZY = C.YZ) : B.mat = C.mat := by
    simp [S6.mat, C9.mat, h1, h2, h3, h4, h5, h6, g1, g2, g3]
  refine e _ _ ?_ ?_ ?_ ?_ ?_ ?_ h10 h20 h21 <;> simp only [rotSymmetric, rotGeneral]
  · linear_combination (-(A.XX - A.ZZ)) * o00 - 2 * A.XY * o01 - (A.YY - A.ZZ) * o11 - 2 * A.XZ * o02 - 2 * A.YZ * o12
  all_goals ring

/-! ### Theorems -/

/-- **C122 (bias forces).**  For the inertia of every rigid body, `vxIv` is the cross product of the
velocity with the momentum. -/
theorem C122_bias {κ : Type} [Fintype κ] {I : M6} {m : κ → ℝ} {r : κ → V3} (h : IsInertiaOf I m r) (ω v : V3) :
    vxIv (join ω v) I = crf ω v (angMomentum m r ω v) (linMomentum m r ω v) := by
  have hL := h ω v
  rw [inertia_iff] at h
  obtain ⟨s1, s2, s3⟩ := symm_entries (tens_symm m r)
  generalize tens m r = T at h s1 s2 s3
  generalize moment m r = p at h
  generalize (∑ k, m k) = M at h
  subst h
  rw [blk_mulVec] at hL
  obtain ⟨ha, hl⟩ := join_inj hL
  rw [← ha, ← hl]
  funext i
  fin_cases i <;>
    simp [vxIv, crf, join, blk, cross, cpm, Matrix.mulVec, dotProduct, Fin.sum_univ_three, s1, s2, s3,
      Matrix.smul_apply, Matrix.one_apply] <;> ring

theorem inertia_entries {κ : Type} [Fintype κ] {I : M6} {m : κ → ℝ} {r : κ → V3} (h : IsInertiaOf I m r) :
    ∃ (T : M3) (p : V3) (M : ℝ), Tᵀ = T ∧ I = blk T (cpm p) (-cpm p) (M • 1) :=
  ⟨_, _, _, tens_symm m r, inertia_iff.mp h⟩

/-- **C122 (bias forces, rotation about the joint axis; partial).**  The short version of `vxIv` agrees
with the cross product of velocity and momentum in every component but the second.  Missing: the second
component (see `C122_bias_z_violated`); it is right exactly if the body does not turn or its products of
inertia `xy` and `xz` are equal. -/
theorem C122_bias_z_partial {κ : Type} [Fintype κ] {I : M6} {m : κ → ℝ} {r : κ → V3} (h : IsInertiaOf I m r)
    (w : ℝ) :
    (∀ i, i ≠ 1 → vxIvz w I i = crf ![0, 0, w] 0 (angMomentum m r ![0, 0, w] 0) (linMomentum m r ![0, 0, w] 0) i)
    ∧ (vxIvz w I 1 = crf ![0, 0, w] 0 (angMomentum m r ![0, 0, w] 0) (linMomentum m r ![0, 0, w] 0) 1
        ↔ w = 0 ∨ I 0 1 = I 0 2) := by
  have hb := C122_bias h ![0, 0, w] 0
  rw [← hb]
  obtain ⟨T, p, M, hT, rfl⟩ := inertia_entries h
  obtain ⟨s1, s2, s3⟩ := symm_entries hT
  constructor
  · intro i hi
    fin_cases i
    · simp [vxIv, vxIvz, join, blk, cpm]; ring
    · exact absurd rfl hi
    · simp [vxIv, vxIvz, join, blk, cpm]
    · simp [vxIv, vxIvz, join, blk, cpm]
    · simp [vxIv, vxIvz, join, blk, cpm]
    · simp [vxIv, vxIvz, join, blk, cpm]
  · simp only [vxIv, vxIvz, join, blk, cpm]
    simp
    constructor
    · intro h
      by_cases hw : w = 0
      · exact .inl hw
      · right
        have : w * w ≠ 0 := mul_ne_zero hw hw
        apply mul_left_cancel₀ this
        linarith
    · rintro (rfl | h)
      · simp
      · rw [h]; ring

/-- A single unit mass at `(1, 1, 0)`. -/
theorem unit_mass : IsInertiaOf (fillInertia 1 ![1, 1, 0] ⟨1, -1, 0, 1, 0, 2⟩ (Inertia.new 0))
    (fun _ : Unit => (1 : ℝ)) (fun _ => ![1, 1, 0]) := by
  intro ω v
  funext i
  fin_cases i <;>
    simp [fillInertia, Inertia.new, join, angMomentum, linMomentum, cross, Matrix.mulVec, dotProduct, Fin.sum_univ_succ] <;>
    ring_nf <;> rfl

/-- **C122 violated: bias force about the joint axis.**  The second component of the short version reads
the product of inertia `xy` where it needs `xz`: for a unit mass at `(1, 1, 0)` turning at unit speed it is
`-1` instead of `0`. -/
theorem C122_bias_z_violated : ∃ (I : M6) (m : Unit → ℝ) (r : Unit → V3), IsInertiaOf I m r ∧
    vxIvz 1 I 1 = -1 ∧ crf ![0, 0, 1] 0 (angMomentum m r ![0, 0, 1] 0) (linMomentum m r ![0, 0, 1] 0) 1 = 0 := by
  refine ⟨_, _, _, unit_mass, ?_, ?_⟩
  · simp [vxIvz, fillInertia]
  · simp [crf, join, cross, angMomentum, linMomentum]

/-- **C122 (cross product matrices).**  Filled into a zero matrix, they apply the cross products, and the
two are adjoint: the power of a force changes neither way. -/
theorem C122_cross (ω v a b : V3) :
    motionCrossProductMx (join ω v) 0 *ᵥ join a b = crm ω v a b
    ∧ forceCrossProductMx (join ω v) 0 *ᵥ join a b = crf ω v a b
    ∧ forceCrossProductMx (join ω v) 0 = -(motionCrossProductMx (join ω v) 0)ᵀ := by
  refine ⟨?_, ?_, ?_⟩
  · funext i
    fin_cases i <;>
      simp [motionCrossProductMx, crm, join, cross, Matrix.mulVec, dotProduct, Fin.sum_univ_succ] <;> ring
  · funext i
    fin_cases i <;>
      simp [forceCrossProductMx, crf, join, cross, Matrix.mulVec, dotProduct, Fin.sum_univ_succ] <;> ring
  · ext i j
    fin_cases i <;> fin_cases j <;> simp [motionCrossProductMx, forceCrossProductMx]

theorem fillInertia_blk (M : ℝ) (p : V3) (S : S6) (junk : M6) :
    fillInertia M p S (Inertia.new junk) = blk S.mat (cpm (M • p)) (-cpm (M • p)) (M • 1) := by
  ext i j
  fin_cases i <;> fin_cases j <;> simp [fillInertia, Inertia.new, blk, S6.mat, cpm]

theorem recover {E : M3} (h : E * Eᵀ = 1) (s : V3) : cpm s * E * Eᵀ = cpm s := by
  rw [Matrix.mul_assoc, h, Matrix.mul_one]

/-- The rotational inertia about another point. -/
theorem tens_shift {κ : Type} [Fintype κ] (m : κ → ℝ) (r : κ → V3) (o : V3) :
    tens m (fun k => r k - o) = tens m r + cpm o * cpm (moment m r) + cpm (moment m r) * cpm o
      - (∑ k, m k) • (cpm o * cpm o) := by
  have hm : cpm (moment m r) = ∑ k, m k • cpm (r k) := by
    ext i j
    rw [Matrix.sum_apply]
    fin_cases i <;> fin_cases j <;> simp [moment, cpm, Finset.sum_apply]
  rw [hm, tens, tens, Finset.mul_sum, Finset.sum_mul, Finset.sum_smul, ← Finset.sum_add_distrib, ← Finset.sum_add_distrib,
    ← Finset.sum_sub_distrib]
  refine Finset.sum_congr rfl fun k _ => ?_
  ext i j
  fin_cases i <;> fin_cases j <;> simp [cpm, Matrix.mul_apply, Fin.sum_univ_three] <;> ring

theorem tens_rot {κ : Type} [Fintype κ] {E : M3} (h : IsRot E) (m : κ → ℝ) (r : κ → V3) :
    tens m (fun k => E *ᵥ r k) = E * tens m r * Eᵀ := by
  rw [tens, tens, Matrix.mul_sum, Matrix.sum_mul]
  refine Finset.sum_congr rfl fun k _ => ?_
  rw [← cpm_rot h, Matrix.mul_smul, Matrix.smul_mul, Matrix.mul_neg, Matrix.neg_mul]
  have : E * cpm (r k) * Eᵀ * (E * cpm (r k) * Eᵀ) = E * (cpm (r k) * cpm (r k)) * Eᵀ := by
    calc _ = E * cpm (r k) * (Eᵀ * E) * cpm (r k) * Eᵀ := by simp only [Matrix.mul_assoc]
      _ = _ := by rw [h.orth, Matrix.mul_one]; simp only [Matrix.mul_assoc]
  rw [this]

/-- What `transformInertia` computes, once the translation is recovered from the transform. -/
theorem transformInertia_blk {E : M3} (hE : IsRot E) (o p : V3) (T : M3) (hT : Tᵀ = T) {M : ℝ} (hM : M ≠ 0) (junk : M6) :
    transformInertia (blk T (cpm p) (-cpm p) (M • 1)) (blk E (-(E * cpm o)) 0 E) (Inertia.new junk)
      = blk (E * (T + cpm o * cpm p + cpm p * cpm o - M • (cpm o * cpm o)) * Eᵀ) (cpm (E *ᵥ (p - M • o)))
          (-cpm (E *ᵥ (p - M • o))) (M • 1) := by
  obtain ⟨s1, s2, s3⟩ := symm_entries hT
  have hrec : Eᵀ * -(E * cpm o) = -cpm o := by rw [Matrix.mul_neg, ← Matrix.mul_assoc, hE.orth, Matrix.one_mul]
  have hx := congrFun (congrFun hrec 1) 2
  have hy := congrFun (congrFun hrec 2) 0
  have hz := congrFun (congrFun hrec 0) 1
  generalize hB : -(E * cpm o) = B at *
  rw [Matrix.mul_apply, Fin.sum_univ_three] at hx hy hz
  have hm : C9.mat ⟨E 0 0, E 0 1, E 0 2, E 1 0, E 1 1, E 1 2, E 2 0, E 2 1, E 2 2⟩ = E := (eta3 E).symm
  have hx' : E 0 1 * B 0 2 + E 1 1 * B 1 2 + E 2 1 * B 2 2 = o 0 := by simpa [cpm] using hx
  have hy' : E 0 2 * B 0 0 + E 1 2 * B 1 0 + E 2 2 * B 2 0 = o 1 := by simpa [cpm] using hy
  have hz' : E 0 0 * B 0 1 + E 1 0 * B 1 1 + E 2 0 * B 2 1 = o 2 := by simpa [cpm] using hz
  have e33 : blk T (cpm p) (-cpm p) (M • 1) 3 3 = M := by simp [blk]
  have e24 : blk T (cpm p) (-cpm p) (M • 1) 2 4 = p 0 := by simp [blk, cpm]
  have e05 : blk T (cpm p) (-cpm p) (M • 1) 0 5 = p 1 := by simp [blk, cpm]
  have e13 : blk T (cpm p) (-cpm p) (M • 1) 1 3 = p 2 := by simp [blk, cpm]
  have x00 : blk E B 0 E 0 0 = E 0 0 := by simp [blk]
  have x01 : blk E B 0 E 0 1 = E 0 1 := by simp [blk]
  have x02 : blk E B 0 E 0 2 = E 0 2 := by simp [blk]
  have x10 : blk E B 0 E 1 0 = E 1 0 := by simp [blk]
  have x11 : blk E B 0 E 1 1 = E 1 1 := by simp [blk]
  have x12 : blk E B 0 E 1 2 = E 1 2 := by simp [blk]
  have x20 : blk E B 0 E 2 0 = E 2 0 := by simp [blk]
  have x21 : blk E B 0 E 2 1 = E 2 1 := by simp [blk]
  have x22 : blk E B 0 E 2 2 = E 2 2 := by simp [blk]
  have x05 : blk E B 0 E 0 5 = B 0 2 := by simp [blk]
  have x15 : blk E B 0 E 1 5 = B 1 2 := by simp [blk]
  have x25 : blk E B 0 E 2 5 = B 2 2 := by simp [blk]
  have x03 : blk E B 0 E 0 3 = B 0 0 := by simp [blk]
  have x13 : blk E B 0 E 1 3 = B 1 0 := by simp [blk]
  have x23 : blk E B 0 E 2 3 = B 2 0 := by simp [blk]
  have x04 : blk E B 0 E 0 4 = B 0 1 := by simp [blk]
  have x14 : blk E B 0 E 1 4 = B 1 1 := by simp [blk]
  have x24 : blk E B 0 E 2 4 = B 2 1 := by simp [blk]
  have t00 : blk T (cpm p) (-cpm p) (M • 1) 0 0 = T 0 0 := by simp [blk]
  have t01 : blk T (cpm p) (-cpm p) (M • 1) 0 1 = T 0 1 := by simp [blk]
  have t02 : blk T (cpm p) (-cpm p) (M • 1) 0 2 = T 0 2 := by simp [blk]
  have t11 : blk T (cpm p) (-cpm p) (M • 1) 1 1 = T 1 1 := by simp [blk]
  have t12 : blk T (cpm p) (-cpm p) (M • 1) 1 2 = T 1 2 := by simp [blk]
  have t22 : blk T (cpm p) (-cpm p) (M • 1) 2 2 = T 2 2 := by simp [blk]
  unfold transformInertia
  simp only [e33, e24, e05, e13, x00, x01, x02, x03, x04, x05, x10, x11, x12, x13, x14, x15, x20, x21, x22, x23, x24, x25, t00, t01, t02, t11, t12, t22, hx', hy', hz']
  rw [fillInertia_blk, rotSymmetric_eq (by rw [hm]; exact hE), hm]
  have hp : M • (![E 0 0 * ![p 0 / M - o 0, p 1 / M - o 1, p 2 / M - o 2] 0 + E 0 1 * ![p 0 / M - o 0, p 1 / M - o 1, p 2 / M - o 2] 1
        + E 0 2 * ![p 0 / M - o 0, p 1 / M - o 1, p 2 / M - o 2] 2,
      E 1 0 * ![p 0 / M - o 0, p 1 / M - o 1, p 2 / M - o 2] 0 + E 1 1 * ![p 0 / M - o 0, p 1 / M - o 1, p 2 / M - o 2] 1
        + E 1 2 * ![p 0 / M - o 0, p 1 / M - o 1, p 2 / M - o 2] 2,
      E 2 0 * ![p 0 / M - o 0, p 1 / M - o 1, p 2 / M - o 2] 0 + E 2 1 * ![p 0 / M - o 0, p 1 / M - o 1, p 2 / M - o 2] 1
        + E 2 2 * ![p 0 / M - o 0, p 1 / M - o 1, p 2 / M - o 2] 2] : V3) = E *ᵥ (p - M • o) := by
    funext i
    fin_cases i <;> simp [Matrix.mulVec, dotProduct, Fin.sum_univ_three] <;> field_simp
  rw [hp]
  congr 3
  ext i j
  fin_cases i <;> fin_cases j <;>
    simp [S6.mat, cpm, s1, s2, s3] <;> field_simp <;> ring

/-- **C122 (inertia in another frame).**  `transformInertia` yields the inertia of the same point masses,
with their positions in the new frame. -/
theorem C122_transform_inertia {κ : Type} [Fintype κ] {I X : M6} {m : κ → ℝ} {r : κ → V3} {E : M3} {o : V3}
    (h : IsInertiaOf I m r) (hm : ∑ k, m k ≠ 0) (hX : IsForceX X E o) (junk : M6) :
    IsInertiaOf (transformInertia I X (Inertia.new junk)) m (fun k => E *ᵥ (r k - o)) := by
  rw [inertia_iff] at h ⊢
  have hsum : moment m (fun k => E *ᵥ (r k - o)) = E *ᵥ (moment m r - (∑ k, m k) • o) := by
    rw [moment, moment, Finset.sum_smul, ← Finset.sum_sub_distrib, Matrix.mulVec_sum]
    exact Finset.sum_congr rfl fun k _ => by rw [← smul_sub, mulVec_smul]
  rw [h, hX.eq, transformInertia_blk hX.rot _ _ _ (tens_symm m r) hm, hsum, tens_rot hX.rot m (fun k => r k - o), tens_shift]

theorem computeIaRevolute_eq {IA : M6} (hs : IAᵀ = IA) (hD : IA 2 2 ≠ 0) (z : M6) (hz : ∀ i, z i 2 = 0 ∧ z 2 i = 0) :
    computeIaRevolute IA (fun i => IA i 2) (IA 2 2) z
      = IA - (IA 2 2)⁻¹ • vecMulVec (fun i => IA i 2) (fun i => IA i 2) := by
  have hsy : ∀ i j, IA j i = IA i j := fun i j => congrFun (congrFun hs i) j
  have z1 := fun i => (hz i).1
  have z2 := fun i => (hz i).2
  have hinv : IA 2 2 * (IA 2 2)⁻¹ = 1 := mul_inv_cancel₀ hD
  apply Matrix.ext
  intro i j
  rw [Matrix.sub_apply, Matrix.smul_apply, vecMulVec_apply, smul_eq_mul]
  fin_cases i <;> fin_cases j <;> simp [computeIaRevolute, z1, z2, div_eq_mul_inv]
  all_goals first
    | ring1
    | linear_combination hsy 1 0
    | linear_combination -hsy 1 0
    | linear_combination hsy 2 0
    | linear_combination -hsy 2 0
    | linear_combination hsy 2 1
    | linear_combination -hsy 2 1
    | linear_combination hsy 3 0
    | linear_combination -hsy 3 0
    | linear_combination hsy 3 1
    | linear_combination -hsy 3 1
    | linear_combination hsy 3 2
    | linear_combination -hsy 3 2
    | linear_combination hsy 4 0
    | linear_combination -hsy 4 0
    | linear_combination hsy 4 1
    | linear_combination -hsy 4 1
    | linear_combination hsy 4 2
    | linear_combination -hsy 4 2
    | linear_combination hsy 4 3
    | linear_combination -hsy 4 3
    | linear_combination hsy 5 0
    | linear_combination -hsy 5 0
    | linear_combination hsy 5 1
    | linear_combination -hsy 5 1
    | linear_combination hsy 5 2
    | linear_combination -hsy 5 2
    | linear_combination hsy 5 3
    | linear_combination -hsy 5 3
    | linear_combination hsy 5 4
    | linear_combination -hsy 5 4
    | linear_combination IA 0 2 * hinv
    | linear_combination -IA 0 2 * hinv
    | linear_combination IA 0 2 * hinv + hsy 0 2
    | linear_combination IA 0 2 * hinv - hsy 0 2
    | linear_combination IA 1 2 * hinv
    | linear_combination -IA 1 2 * hinv
    | linear_combination IA 1 2 * hinv + hsy 1 2
    | linear_combination IA 1 2 * hinv - hsy 1 2
    | linear_combination IA 2 2 * hinv
    | linear_combination -IA 2 2 * hinv
    | linear_combination IA 2 2 * hinv + hsy 2 2
    | linear_combination IA 2 2 * hinv - hsy 2 2
    | linear_combination IA 3 2 * hinv
    | linear_combination -IA 3 2 * hinv
    | linear_combination IA 3 2 * hinv + hsy 3 2
    | linear_combination IA 3 2 * hinv - hsy 3 2
    | linear_combination IA 4 2 * hinv
    | linear_combination -IA 4 2 * hinv
    | linear_combination IA 4 2 * hinv + hsy 4 2
    | linear_combination IA 4 2 * hinv - hsy 4 2
    | linear_combination IA 5 2 * hinv
    | linear_combination -IA 5 2 * hinv
    | linear_combination IA 5 2 * hinv + hsy 5 2
    | linear_combination IA 5 2 * hinv - hsy 5 2

/-- **C122 (propagation across a revolute joint).**  `IA` is the articulated inertia of a subtree, `U` its
column of the joint axis and `D` the entry on the axis.  `compute_Ia_revolute` yields the inertia felt at
the other side of the free joint: the force for an acceleration `u` is the one `IA` needs once the joint has
accelerated such that no torque acts about its axis. -/
theorem C122_compute_Ia_revolute {IA : M6} (hs : IAᵀ = IA) (hD : IA 2 2 ≠ 0) (z : M6) (hz : ∀ i, z i 2 = 0 ∧ z 2 i = 0)
    (u : V6) : ∃ α : ℝ,
      computeIaRevolute IA (IA *ᵥ axisZ) ((IA *ᵥ axisZ) 2) z *ᵥ u = IA *ᵥ (u + α • axisZ)
      ∧ (IA *ᵥ (u + α • axisZ)) 2 = 0 := by
  have hUf : IA *ᵥ axisZ = fun i => IA i 2 := by
    funext i
    simp [axisZ, Matrix.mulVec, dotProduct, Fin.sum_univ_succ]
    try rfl
  have hsy : ∀ i j, IA j i = IA i j := fun i j => congrFun (congrFun hs i) j
  have hm : computeIaRevolute IA (IA *ᵥ axisZ) ((IA *ᵥ axisZ) 2) z
      = IA - (IA 2 2)⁻¹ • vecMulVec (fun i => IA i 2) (fun i => IA i 2) := by
    rw [hUf]
    exact computeIaRevolute_eq hs hD z hz
  have hα : computeIaRevolute IA (IA *ᵥ axisZ) ((IA *ᵥ axisZ) 2) z *ᵥ u
      = IA *ᵥ (u + (-((IA 2 2)⁻¹ * ((fun i => IA i 2) ⬝ᵥ u))) • axisZ) := by
    rw [hm, sub_mulVec, smul_mulVec, vecMulVec_mulVec, mulVec_add, mulVec_smul, hUf]
    funext i
    simp
    ring
  refine ⟨_, hα, ?_⟩
  rw [mulVec_add, mulVec_smul, hUf]
  have h2 : (IA *ᵥ u) 2 = (fun i => IA i 2) ⬝ᵥ u := by
    rw [Matrix.mulVec]
    congr 1
    funext j
    exact hsy j 2
  simp only [Pi.add_apply, Pi.smul_apply, h2, smul_eq_mul]
  field_simp
  ring

/-- **C122 (propagation across a prismatic joint).**  The same for a joint that slides along its axis. -/
theorem C122_compute_Ia_prismatic {IA : M6} (hs : IAᵀ = IA) (hD : IA 5 5 ≠ 0) (z : M6) (hz : ∀ i, z i 5 = 0 ∧ z 5 i = 0)
    (u : V6) : ∃ α : ℝ,
      computeIaPrismatic IA (IA *ᵥ slideZ) ((IA *ᵥ slideZ) 5) z *ᵥ u = IA *ᵥ (u + α • slideZ)
      ∧ (IA *ᵥ (u + α • slideZ)) 5 = 0 := by
  have hUf : IA *ᵥ slideZ = fun i => IA i 5 := by
    funext i
    simp [slideZ, Matrix.mulVec, dotProduct, Fin.sum_univ_succ]
    try rfl
  have hsy : ∀ i j, IA j i = IA i j := fun i j => congrFun (congrFun hs i) j
  have hm : computeIaPrismatic IA (IA *ᵥ slideZ) ((IA *ᵥ slideZ) 5) z
      = IA - (IA 5 5)⁻¹ • vecMulVec (fun i => IA i 5) (fun i => IA i 5) := by
    rw [hUf]
    have z1 := fun i => (hz i).1
    have z2 := fun i => (hz i).2
    have hinv : IA 5 5 * (IA 5 5)⁻¹ = 1 := mul_inv_cancel₀ hD
    apply Matrix.ext
    intro i j
    rw [Matrix.sub_apply, Matrix.smul_apply, vecMulVec_apply, smul_eq_mul]
    fin_cases i <;> fin_cases j <;> simp [computeIaPrismatic, z1, z2, div_eq_mul_inv]
    all_goals first
      | ring1
      | linear_combination hsy 1 0
      | linear_combination -hsy 1 0
      | linear_combination hsy 2 0
      | linear_combination -hsy 2 0
      | linear_combination hsy 2 1
      | linear_combination -hsy 2 1
      | linear_combination hsy 3 0
      | linear_combination -hsy 3 0
      | linear_combination hsy 3 1
      | linear_combination -hsy 3 1
      | linear_combination hsy 3 2
      | linear_combination -hsy 3 2
      | linear_combination hsy 4 0
      | linear_combination -hsy 4 0
      | linear_combination hsy 4 1
      | linear_combination -hsy 4 1
      | linear_combination hsy 4 2
      | linear_combination -hsy 4 2
      | linear_combination hsy 4 3
      | linear_combination -hsy 4 3
      | linear_combination hsy 5 0
      | linear_combination -hsy 5 0
      | linear_combination hsy 5 1
      | linear_combination -hsy 5 1
      | linear_combination hsy 5 2
      | linear_combination -hsy 5 2
      | linear_combination hsy 5 3
      | linear_combination -hsy 5 3
      | linear_combination hsy 5 4
      | linear_combination -hsy 5 4
      | linear_combination IA 0 5 * hinv
      | linear_combination -IA 0 5 * hinv
      | linear_combination IA 0 5 * hinv + hsy 0 5
      | linear_combination IA 0 5 * hinv - hsy 0 5
      | linear_combination IA 1 5 * hinv
      | linear_combination -IA 1 5 * hinv
      | linear_combination IA 1 5 * hinv + hsy 1 5
      | linear_combination IA 1 5 * hinv - hsy 1 5
      | linear_combination IA 2 5 * hinv
      | linear_combination -IA 2 5 * hinv
      | linear_combination IA 2 5 * hinv + hsy 2 5
      | linear_combination IA 2 5 * hinv - hsy 2 5
      | linear_combination IA 3 5 * hinv
      | linear_combination -IA 3 5 * hinv
      | linear_combination IA 3 5 * hinv + hsy 3 5
      | linear_combination IA 3 5 * hinv - hsy 3 5
      | linear_combination IA 4 5 * hinv
      | linear_combination -IA 4 5 * hinv
      | linear_combination IA 4 5 * hinv + hsy 4 5
      | linear_combination IA 4 5 * hinv - hsy 4 5
      | linear_combination IA 5 5 * hinv
      | linear_combination -IA 5 5 * hinv
      | linear_combination IA 5 5 * hinv + hsy 5 5
      | linear_combination IA 5 5 * hinv - hsy 5 5
  have hα : computeIaPrismatic IA (IA *ᵥ slideZ) ((IA *ᵥ slideZ) 5) z *ᵥ u
      = IA *ᵥ (u + (-((IA 5 5)⁻¹ * ((fun i => IA i 5) ⬝ᵥ u))) • slideZ) := by
    rw [hm, sub_mulVec, smul_mulVec, vecMulVec_mulVec, mulVec_add, mulVec_smul, hUf]
    funext i
    simp
    ring
  refine ⟨_, hα, ?_⟩
  rw [mulVec_add, mulVec_smul, hUf]
  have h2 : (IA *ᵥ u) 5 = (fun i => IA i 5) ⬝ᵥ u := by
    rw [Matrix.mulVec]
    congr 1
    funext j
    exact hsy j 5
  simp only [Pi.add_apply, Pi.smul_apply, h2, smul_eq_mul]
  field_simp
  ring

/-! ### Changing the frame of an articulated inertia -/

theorem assemble_blk (A : S6) (B : C9) (D : S6) : assembleIa A B D = blk A.mat B.mat B.matᵀ D.mat := by
  ext i j
  fin_cases i <;> fin_cases j <;> simp [assembleIa, blk, S6.mat, C9.mat]

theorem cpm_transpose (a : V3) : (cpm a)ᵀ = -cpm a := by
  ext i j; fin_cases i <;> fin_cases j <;> simp [cpm]

/-- The congruence in blocks; `s` is the translation in the coordinates of the inertia. -/
theorem congruence {E : M3} (s : V3) (I C M : M3) :
    (blk E 0 (cpm s * E) E)ᵀ * blk I C Cᵀ M * blk E 0 (cpm s * E) E
      = blk (Eᵀ * (I + C * cpm s - cpm s * Cᵀ - cpm s * M * cpm s) * E) (Eᵀ * (C - cpm s * M) * E)
          (Eᵀ * (Cᵀ + M * cpm s) * E) (Eᵀ * M * E) := by
  rw [blk_transpose, blk_mul, blk_mul, transpose_mul, cpm_transpose]
  simp only [transpose_zero, Matrix.mul_zero, Matrix.zero_mul, zero_add]
  congr 1 <;> noncomm_ring

theorem transpose3 (a b c d e f g h i : ℝ) : (!![a, b, c; d, e, f; g, h, i] : M3)ᵀ = !![a, d, g; b, e, h; c, f, i] := by
  ext i j; fin_cases i <;> fin_cases j <;> simp

theorem motion_blk {X : M6} {E : M3} {o : V3} (h : IsMotionX X E o) :
    X = blk E 0 (cpm (-(E *ᵥ o)) * E) E := by
  rw [h.eq]
  congr 1
  have : cpm (-(E *ᵥ o)) = -(E * cpm o * Eᵀ) := by
    rw [cpm_rot h.rot]; ext i j; fin_cases i <;> fin_cases j <;> simp [cpm]
  rw [this, Matrix.neg_mul, Matrix.mul_assoc _ Eᵀ E, h.rot.orth, Matrix.mul_one]

/-- **C122 (articulated inertia in another frame, revolute joint).**  For a symmetric matrix whose row of the
joint axis is zero, `ctransform_Ia_revolute` is the congruence with the motion transform: the quadratic form
is the one of the inertia at the transformed velocity. -/
theorem C122_ctransform_revolute {Ia X : M6} {E : M3} {o : V3} (hs : Iaᵀ = Ia) (h0 : ∀ j, Ia 2 j = 0)
    (hX : IsMotionX X E o) : ctransformIaRevolute Ia X = Xᵀ * Ia * X := by
  have hsy : ∀ i j, Ia j i = Ia i j := fun i j => congrFun (congrFun hs i) j
  have h0' : ∀ j, Ia j 2 = 0 := fun j => by rw [hsy]; exact h0 j
  have hE := hX.rot
  have hI := eta6 Ia
  have hC : (!![Ia 3 0, Ia 3 1, Ia 3 2; Ia 4 0, Ia 4 1, Ia 4 2; Ia 5 0, Ia 5 1, Ia 5 2] : M3)
      = !![Ia 0 3, Ia 0 4, Ia 0 5; Ia 1 3, Ia 1 4, Ia 1 5; Ia 2 3, Ia 2 4, Ia 2 5]ᵀ := by
    ext i j; fin_cases i <;> fin_cases j <;> simp <;> exact hsy _ _
  rw [hC] at hI
  rw [motion_blk hX]
  generalize -(E *ᵥ o) = s
  conv_rhs => rw [hI]
  rw [congruence]
  have hrec := recover (IsRot.orth' hE) s
  have rx := congrFun (congrFun hrec 2) 1
  have ry := congrFun (congrFun hrec 0) 2
  have rz := congrFun (congrFun hrec 1) 0
  rw [Matrix.mul_apply, Fin.sum_univ_three] at rx ry rz
  have hm : C9.mat ⟨E 0 0, E 1 0, E 2 0, E 0 1, E 1 1, E 2 1, E 0 2, E 1 2, E 2 2⟩ = Eᵀ := by
    ext i j; fin_cases i <;> fin_cases j <;> simp [C9.mat]
  have x00 : blk E 0 (cpm s * E) E 0 0 = E 0 0 := by simp [blk]
  have x01 : blk E 0 (cpm s * E) E 0 1 = E 0 1 := by simp [blk]
  have x02 : blk E 0 (cpm s * E) E 0 2 = E 0 2 := by simp [blk]
  have x10 : blk E 0 (cpm s * E) E 1 0 = E 1 0 := by simp [blk]
  have x11 : blk E 0 (cpm s * E) E 1 1 = E 1 1 := by simp [blk]
  have x12 : blk E 0 (cpm s * E) E 1 2 = E 1 2 := by simp [blk]
  have x20 : blk E 0 (cpm s * E) E 2 0 = E 2 0 := by simp [blk]
  have x21 : blk E 0 (cpm s * E) E 2 1 = E 2 1 := by simp [blk]
  have x22 : blk E 0 (cpm s * E) E 2 2 = E 2 2 := by simp [blk]
  have x30 : blk E 0 (cpm s * E) E 3 0 = (cpm s * E) 0 0 := by simp [blk]
  have x31 : blk E 0 (cpm s * E) E 3 1 = (cpm s * E) 0 1 := by simp [blk]
  have x32 : blk E 0 (cpm s * E) E 3 2 = (cpm s * E) 0 2 := by simp [blk]
  have x40 : blk E 0 (cpm s * E) E 4 0 = (cpm s * E) 1 0 := by simp [blk]
  have x41 : blk E 0 (cpm s * E) E 4 1 = (cpm s * E) 1 1 := by simp [blk]
  have x42 : blk E 0 (cpm s * E) E 4 2 = (cpm s * E) 1 2 := by simp [blk]
  have x50 : blk E 0 (cpm s * E) E 5 0 = (cpm s * E) 2 0 := by simp [blk]
  have x51 : blk E 0 (cpm s * E) E 5 1 = (cpm s * E) 2 1 := by simp [blk]
  have x52 : blk E 0 (cpm s * E) E 5 2 = (cpm s * E) 2 2 := by simp [blk]
  generalize hB : cpm s * E = B at *
  have rx' : E 1 0 * B 2 0 + E 1 1 * B 2 1 + E 1 2 * B 2 2 = s 0 := by
    simp [cpm] at rx; linarith
  have ry' : E 2 0 * B 0 0 + E 2 1 * B 0 1 + E 2 2 * B 0 2 = s 1 := by
    simp [cpm] at ry; linarith
  have rz' : E 0 0 * B 1 0 + E 0 1 * B 1 1 + E 0 2 * B 1 2 = s 2 := by
    simp [cpm] at rz; linarith
  unfold ctransformIaRevolute
  simp only [x00, x01, x02, x10, x11, x12, x20, x21, x22, x30, x31, x32, x40, x41, x42, x50, x51, x52, rx', ry', rz']
  have hrot : IsRot (C9.mat ⟨E 0 0, E 1 0, E 2 0, E 0 1, E 1 1, E 2 1, E 0 2, E 1 2, E 2 2⟩) := by
    rw [hm]; exact IsRot.transpose hE
  rw [assemble_blk, rotSymmetric_eq hrot, rotSymmetric_eq hrot, rotGeneral_eq hrot, hm, transpose_transpose]
  congr 1
  · congr 2
    ext i j
    fin_cases i <;> fin_cases j <;>
      simp [transpose3, S6.mat, cpm, h0, h0', hsy 0 1, hsy 0 2, hsy 1 2, hsy 3 4, hsy 3 5, hsy 4 5] <;> ring
  · congr 2
    ext i j
    fin_cases i <;> fin_cases j <;>
      simp [transpose3, C9.mat, cpm, h0, h0', hsy 3 4, hsy 3 5, hsy 4 5] <;> ring
  · rw [transpose_mul, transpose_mul, transpose_transpose, ← Matrix.mul_assoc]
    congr 2
    ext i j
    fin_cases i <;> fin_cases j <;>
      simp [transpose3, C9.mat, cpm, h0, h0', hsy 3 4, hsy 3 5, hsy 4 5] <;> ring
  · congr 2
    ext i j
    fin_cases i <;> fin_cases j <;>
      simp [S6.mat, h0, h0', hsy 3 4, hsy 3 5, hsy 4 5]

/-- **C122 (articulated inertia in another frame, prismatic joint).**  For a symmetric matrix whose row of the
joint axis is zero, `ctransform_Ia_prismatic` is the congruence with the motion transform: the quadratic form
is the one of the inertia at the transformed velocity. -/
theorem C122_ctransform_prismatic {Ia X : M6} {E : M3} {o : V3} (hs : Iaᵀ = Ia) (h0 : ∀ j, Ia 5 j = 0)
    (hX : IsMotionX X E o) : ctransformIaPrismatic Ia X = Xᵀ * Ia * X := by
  have hsy : ∀ i j, Ia j i = Ia i j := fun i j => congrFun (congrFun hs i) j
  have h0' : ∀ j, Ia j 5 = 0 := fun j => by rw [hsy]; exact h0 j
  have hE := hX.rot
  have hI := eta6 Ia
  have hC : (!![Ia 3 0, Ia 3 1, Ia 3 2; Ia 4 0, Ia 4 1, Ia 4 2; Ia 5 0, Ia 5 1, Ia 5 2] : M3)
      = !![Ia 0 3, Ia 0 4, Ia 0 5; Ia 1 3, Ia 1 4, Ia 1 5; Ia 2 3, Ia 2 4, Ia 2 5]ᵀ := by
    ext i j; fin_cases i <;> fin_cases j <;> simp <;> exact hsy _ _
  rw [hC] at hI
  rw [motion_blk hX]
  generalize -(E *ᵥ o) = s
  conv_rhs => rw [hI]
  rw [congruence]
  have hrec := recover (IsRot.orth' hE) s
  have rx := congrFun (congrFun hrec 2) 1
  have ry := congrFun (congrFun hrec 0) 2
  have rz := congrFun (congrFun hrec 1) 0
  rw [Matrix.mul_apply, Fin.sum_univ_three] at rx ry rz
  have hm : C9.mat ⟨E 0 0, E 1 0, E 2 0, E 0 1, E 1 1, E 2 1, E 0 2, E 1 2, E 2 2⟩ = Eᵀ := by
    ext i j; fin_cases i <;> fin_cases j <;> simp [C9.mat]
  have x00 : blk E 0 (cpm s * E) E 0 0 = E 0 0 := by simp [blk]
  have x01 : blk E 0 (cpm s * E) E 0 1 = E 0 1 := by simp [blk]
  have x02 : blk E 0 (cpm s * E) E 0 2 = E 0 2 := by simp [blk]
  have x10 : blk E 0 (cpm s * E) E 1 0 = E 1 0 := by simp [blk]
  have x11 : blk E 0 (cpm s * E) E 1 1 = E 1 1 := by simp [blk]
  have x12 : blk E 0 (cpm s * E) E 1 2 = E 1 2 := by simp [blk]
  have x20 : blk E 0 (cpm s * E) E 2 0 = E 2 0 := by simp [blk]
  have x21 : blk E 0 (cpm s * E) E 2 1 = E 2 1 := by simp [blk]
  have x22 : blk E 0 (cpm s * E) E 2 2 = E 2 2 := by simp [blk]
  have x30 : blk E 0 (cpm s * E) E 3 0 = (cpm s * E) 0 0 := by simp [blk]
  have x31 : blk E 0 (cpm s * E) E 3 1 = (cpm s * E) 0 1 := by simp [blk]
  have x32 : blk E 0 (cpm s * E) E 3 2 = (cpm s * E) 0 2 := by simp [blk]
  have x40 : blk E 0 (cpm s * E) E 4 0 = (cpm s * E) 1 0 := by simp [blk]
  have x41 : blk E 0 (cpm s * E) E 4 1 = (cpm s * E) 1 1 := by simp [blk]
  have x42 : blk E 0 (cpm s * E) E 4 2 = (cpm s * E) 1 2 := by simp [blk]
  have x50 : blk E 0 (cpm s * E) E 5 0 = (cpm s * E) 2 0 := by simp [blk]
  have x51 : blk E 0 (cpm s * E) E 5 1 = (cpm s * E) 2 1 := by simp [blk]
  have x52 : blk E 0 (cpm s * E) E 5 2 = (cpm s * E) 2 2 := by simp [blk]
  generalize hB : cpm s * E = B at *
  have rx' : E 1 0 * B 2 0 + E 1 1 * B 2 1 + E 1 2 * B 2 2 = s 0 := by
    simp [cpm] at rx; linarith
  have ry' : E 2 0 * B 0 0 + E 2 1 * B 0 1 + E 2 2 * B 0 2 = s 1 := by
    simp [cpm] at ry; linarith
  have rz' : E 0 0 * B 1 0 + E 0 1 * B 1 1 + E 0 2 * B 1 2 = s 2 := by
    simp [cpm] at rz; linarith
  unfold ctransformIaPrismatic
  simp only [x00, x01, x02, x10, x11, x12, x20, x21, x22, x30, x31, x32, x40, x41, x42, x50, x51, x52, rx', ry', rz']
  have hrot : IsRot (C9.mat ⟨E 0 0, E 1 0, E 2 0, E 0 1, E 1 1, E 2 1, E 0 2, E 1 2, E 2 2⟩) := by
    rw [hm]; exact IsRot.transpose hE
  rw [assemble_blk, rotSymmetric_eq hrot, rotSymmetric_eq hrot, rotGeneral_eq hrot, hm, transpose_transpose]
  congr 1
  · congr 2
    ext i j
    fin_cases i <;> fin_cases j <;>
      simp [transpose3, S6.mat, cpm, h0, h0', hsy 0 1, hsy 0 2, hsy 1 2, hsy 3 4, hsy 3 5, hsy 4 5] <;> ring
  · congr 2
    ext i j
    fin_cases i <;> fin_cases j <;>
      simp [transpose3, C9.mat, cpm, h0, h0', hsy 3 4, hsy 3 5, hsy 4 5] <;> ring
  · rw [transpose_mul, transpose_mul, transpose_transpose, ← Matrix.mul_assoc]
    congr 2
    ext i j
    fin_cases i <;> fin_cases j <;>
      simp [transpose3, C9.mat, cpm, h0, h0', hsy 3 4, hsy 3 5, hsy 4 5] <;> ring
  · congr 2
    ext i j
    fin_cases i <;> fin_cases j <;>
      simp [S6.mat, h0, h0', hsy 3 4, hsy 3 5, hsy 4 5]

end CT.Spatial
