import Verif.Props.GenKinDescr
import Verif.Props.InertiaMatrix
import Verif.Props.RobotsBase

/-!
# Inertia parameters in the description of a robot

In the descriptions (`<robot>/model/*.kindsl`) every link has a mass, a centre of mass and the moments and products
of inertia.  Coordinates are those of the frame of the link or of the frame named `ref_frame`, and the moments
are about the origin of this frame.
-/

namespace CT.GenKin

open Matrix FrameJac Spatial

/-! ### Specification -/

/-- An entry `inertia_params` of the description.  `ref` is the frame, given relative to the frame of the link. -/
structure Body where
  ref : Descr
  m : ℚ
  cx : ℚ
  cy : ℚ
  cz : ℚ
  Ix : ℚ
  Iy : ℚ
  Iz : ℚ
  Ixy : ℚ
  Ixz : ℚ
  Iyz : ℚ

/-- Point masses with positions `r` in the frame `ref` that have the described mass, centre of mass, moments and
products of inertia. -/
structure Body.Masses (b : Body) {κ : Type} [Fintype κ] (μ : κ → ℝ) (r : κ → V3) : Prop where
  mass : ∑ k, μ k = b.m
  com : ∑ k, μ k • r k = (b.m : ℝ) • ![(b.cx : ℝ), (b.cy : ℝ), (b.cz : ℝ)]
  Ix : ∑ k, μ k * (r k 1 ^ 2 + r k 2 ^ 2) = b.Ix
  Iy : ∑ k, μ k * (r k 0 ^ 2 + r k 2 ^ 2) = b.Iy
  Iz : ∑ k, μ k * (r k 0 ^ 2 + r k 1 ^ 2) = b.Iz
  Ixy : ∑ k, μ k * (r k 0 * r k 1) = b.Ixy
  Ixz : ∑ k, μ k * (r k 0 * r k 2) = b.Ixz
  Iyz : ∑ k, μ k * (r k 1 * r k 2) = b.Iyz

/-- `I` is the spatial inertia of the described link, in the frame of the link, up to `ε`. -/
def Body.Agrees (b : Body) (ε : ℝ) (I : M6) : Prop :=
  ∀ {κ : Type} [Fintype κ] (μ : κ → ℝ) (r : κ → V3), b.Masses μ r →
  ∀ J, IsInertiaOf J μ (fun k => b.ref.pose.R *ᵥ r k + b.ref.pose.p) → ∀ i j, |I i j - J i j| ≤ ε

/-- Such point masses exist for every description with positive mass. -/
theorem Body.exists_masses (b : Body) (hm : 0 < b.m) :
    ∃ (κ : Type) (_ : Fintype κ) (μ : κ → ℝ) (r : κ → V3), b.Masses μ r := by
  have hm' : (0 : ℝ) < b.m := by exact_mod_cast hm
  obtain ⟨κ, inst, μ, r, _, h⟩ :=
    CT.Robots.isBody_fill 0 hm' ![(b.cx : ℝ), (b.cy : ℝ), (b.cz : ℝ)] b.Ix b.Iy b.Iz b.Ixy b.Ixz b.Iyz
  refine ⟨κ, inst, μ, r, ?_⟩
  rw [inertia_iff] at h
  have e : ∀ i j, _ = _ := fun i j => congrFun (congrFun h i) j
  have e33 := e 3 3
  have h0 := e 2 4
  have h1 := e 0 5
  have h2 := e 1 3
  have t00 := e 0 0
  have t11 := e 1 1
  have t22 := e 2 2
  have t01 := e 0 1
  have t02 := e 0 2
  have t12 := e 1 2
  rw [tens_classical] at t00 t11 t22 t01 t02 t12
  simp [Inertia.fill, blk, cpm, classicalTensor, buildInertiaTensor] at e33 h0 h1 h2 t00 t11 t22 t01 t02 t12
  refine ⟨e33.symm, ?_, t00.symm, t11.symm, t22.symm, t01.symm, t02.symm, t12.symm⟩
  funext i
  fin_cases i
  · exact h0.symm
  · exact h1.symm
  · exact h2.symm

/-! ### Change of frame -/

theorem cpm_sum {κ : Type} [Fintype κ] (f : κ → V3) : cpm (∑ k, f k) = ∑ k, cpm (f k) := by
  classical
  induction (Finset.univ : Finset κ) using Finset.induction_on with
  | empty => ext i j; fin_cases i <;> fin_cases j <;> simp [cpm]
  | insert x s hx ih =>
    rw [Finset.sum_insert hx, Finset.sum_insert hx, ← ih]
    ext i j
    fin_cases i <;> fin_cases j <;> simp [cpm] <;> ring

theorem tens_move {κ : Type} [Fintype κ] (μ : κ → ℝ) (r : κ → V3) {R : M3} (hR : IsRot R) (p : V3) :
    tens μ (fun k => R *ᵥ r k + p) = R * tens μ r * Rᵀ - cpm (R *ᵥ moment μ r) * cpm p - cpm p * cpm (R *ᵥ moment μ r)
      - (∑ k, μ k) • (cpm p * cpm p) := by
  have hc : ∀ k, cpm (R *ᵥ r k + p) = R * cpm (r k) * Rᵀ + cpm p := fun k => by
    rw [cpm_rot hR]
    ext i j
    fin_cases i <;> fin_cases j <;> simp [cpm] <;> ring
  have hm : cpm (R *ᵥ moment μ r) = ∑ k, μ k • (R * cpm (r k) * Rᵀ) := by
    rw [moment, Matrix.mulVec_sum, cpm_sum]
    refine Finset.sum_congr rfl fun k _ => ?_
    rw [Matrix.mulVec_smul, cpm_rot hR]
    ext i j
    fin_cases i <;> fin_cases j <;> simp [cpm]
  rw [tens, tens, hm, Matrix.mul_sum, Matrix.sum_mul, Matrix.sum_mul, Matrix.mul_sum, Finset.sum_smul,
    ← Finset.sum_sub_distrib, ← Finset.sum_sub_distrib, ← Finset.sum_sub_distrib]
  refine Finset.sum_congr rfl fun k _ => ?_
  have h1 : R * cpm (r k) * Rᵀ * (R * cpm (r k) * Rᵀ) = R * (cpm (r k) * cpm (r k)) * Rᵀ := by
    simp only [Matrix.mul_assoc]
    rw [← Matrix.mul_assoc Rᵀ R, hR.orth, Matrix.one_mul]
  rw [hc, Matrix.add_mul, Matrix.mul_add, Matrix.mul_add, h1]
  simp only [Matrix.mul_smul, Matrix.smul_mul, Matrix.mul_neg, Matrix.neg_mul, smul_neg, smul_add]
  abel

/-- The first moment in the frame of the link. -/
noncomputable def Body.h (b : Body) : V3 :=
  (b.m : ℝ) • (b.ref.pose.R *ᵥ ![(b.cx : ℝ), (b.cy : ℝ), (b.cz : ℝ)] + b.ref.pose.p)

/-- The tensor in the frame of the link. -/
noncomputable def Body.tensor (b : Body) : M3 :=
  let R := b.ref.pose.R
  let p := b.ref.pose.p
  let h := (b.m : ℝ) • (R *ᵥ ![(b.cx : ℝ), (b.cy : ℝ), (b.cz : ℝ)])
  R * !![(b.Ix : ℝ), -b.Ixy, -b.Ixz; -b.Ixy, b.Iy, -b.Iyz; -b.Ixz, -b.Iyz, b.Iz] * Rᵀ
    - cpm h * cpm p - cpm p * cpm h - (b.m : ℝ) • (cpm p * cpm p)

theorem rotX_rot (θ : ℝ) : IsRot (rotX θ) := by
  have h := Real.sin_sq_add_cos_sq θ
  refine ⟨?_, ?_⟩
  · ext i j
    fin_cases i <;> fin_cases j <;> simp [rotX, Matrix.mul_apply, Fin.sum_univ_three] <;> nlinarith
  · simp [rotX, Matrix.det_fin_three]
    nlinarith

theorem rotY_rot (θ : ℝ) : IsRot (rotY θ) := by
  have h := Real.sin_sq_add_cos_sq θ
  refine ⟨?_, ?_⟩
  · ext i j
    fin_cases i <;> fin_cases j <;> simp [rotY, Matrix.mul_apply, Fin.sum_univ_three] <;> nlinarith
  · simp [rotY, Matrix.det_fin_three]
    nlinarith

theorem rotZ_rot (θ : ℝ) : IsRot (rotZ θ) := Pose.rot_turn θ

theorem Descr.rot (d : Descr) : IsRot d.pose.R := IsRot.mul (IsRot.mul (rotX_rot _) (rotY_rot _)) (rotZ_rot _)

theorem Body.value (b : Body) {κ : Type} [Fintype κ] {μ : κ → ℝ} {r : κ → V3} (hb : b.Masses μ r) {J : M6}
    (hJ : IsInertiaOf J μ (fun k => b.ref.pose.R *ᵥ r k + b.ref.pose.p)) :
    J = blk b.tensor (cpm b.h) (-cpm b.h) ((b.m : ℝ) • 1) := by
  rw [inertia_iff] at hJ
  have hm : moment μ (fun k => b.ref.pose.R *ᵥ r k + b.ref.pose.p) = b.h := by
    rw [moment, Body.h, smul_add, ← Matrix.mulVec_smul, ← hb.com, ← hb.mass, Matrix.mulVec_sum, Finset.sum_smul,
      ← Finset.sum_add_distrib]
    refine Finset.sum_congr rfl fun k _ => ?_
    rw [smul_add, Matrix.mulVec_smul]
  have ht : tens μ r = !![(b.Ix : ℝ), -b.Ixy, -b.Ixz; -b.Ixy, b.Iy, -b.Iyz; -b.Ixz, -b.Iyz, b.Iz] := by
    rw [tens_classical, ← hb.Ix, ← hb.Iy, ← hb.Iz, ← hb.Ixy, ← hb.Ixz, ← hb.Iyz]
    rfl
  rw [hJ, hm, tens_move μ r b.ref.rot, ht, hb.mass, Body.tensor, moment, hb.com, Matrix.mulVec_smul]

/-- The rational versions. -/
def Body.Rq (b : Body) : Fin 3 → Fin 3 → ℚ :=
  let ca := (icos b.ref.a : ℚ); let sa := (isin b.ref.a : ℚ); let cb := (icos b.ref.b : ℚ); let sb := (isin b.ref.b : ℚ)
  let cc := (icos b.ref.c : ℚ); let sc := (isin b.ref.c : ℚ)
  ![![cb * cc, -(cb * sc), sb], ![sa * sb * cc + ca * sc, -(sa * sb * sc) + ca * cc, -(sa * cb)],
    ![-(ca * sb * cc) + sa * sc, ca * sb * sc + sa * cc, ca * cb]]

def Body.pq (b : Body) : Fin 3 → ℚ := ![b.ref.x, b.ref.y, b.ref.z]

def Body.Tq (b : Body) : Fin 3 → Fin 3 → ℚ :=
  ![![b.Ix, -b.Ixy, -b.Ixz], ![-b.Ixy, b.Iy, -b.Iyz], ![-b.Ixz, -b.Iyz, b.Iz]]

def mulq (A B : Fin 3 → Fin 3 → ℚ) (i j : Fin 3) : ℚ := A i 0 * B 0 j + A i 1 * B 1 j + A i 2 * B 2 j

def cpmq (a : Fin 3 → ℚ) : Fin 3 → Fin 3 → ℚ := ![![0, -a 2, a 1], ![a 2, 0, -a 0], ![-a 1, a 0, 0]]

/-- The rotated first moment about the origin of the frame `ref`. -/
def Body.gq (b : Body) (i : Fin 3) : ℚ := b.m * (b.Rq i 0 * b.cx + b.Rq i 1 * b.cy + b.Rq i 2 * b.cz)

def Body.hq (b : Body) (i : Fin 3) : ℚ := b.gq i + b.m * b.pq i

def Body.tensorq (b : Body) (i j : Fin 3) : ℚ :=
  mulq (mulq b.Rq b.Tq) (fun i j => b.Rq j i) i j - mulq (cpmq b.gq) (cpmq b.pq) i j - mulq (cpmq b.pq) (cpmq b.gq) i j
  - b.m * mulq (cpmq b.pq) (cpmq b.pq) i j

theorem Body.R_cast (b : Body) (i j : Fin 3) : b.ref.pose.R i j = b.Rq i j := by
  obtain ⟨ca, sa⟩ := quarter b.ref.a
  obtain ⟨cb, sb⟩ := quarter b.ref.b
  obtain ⟨cc, sc⟩ := quarter b.ref.c
  fin_cases i <;> fin_cases j <;>
    simp [Descr.pose, Body.Rq, rotX, rotY, rotZ, Matrix.mul_apply, Fin.sum_univ_three, ca, sa, cb, sb, cc, sc] <;> ring

theorem Body.p_cast (b : Body) (i : Fin 3) : b.ref.pose.p i = b.pq i := by
  fin_cases i <;> rfl

theorem mulq_cast {A B : M3} {A' B' : Fin 3 → Fin 3 → ℚ} (hA : ∀ i j, A i j = A' i j) (hB : ∀ i j, B i j = B' i j)
    (i j : Fin 3) : (A * B) i j = mulq A' B' i j := by
  rw [Matrix.mul_apply, Fin.sum_univ_three, hA, hA, hA, hB, hB, hB, mulq]
  push_cast
  rfl

theorem cpmq_cast {a : V3} {a' : Fin 3 → ℚ} (h : ∀ i, a i = a' i) (i j : Fin 3) : cpm a i j = cpmq a' i j := by
  fin_cases i <;> fin_cases j <;> simp [cpm, cpmq, h]

theorem Body.g_cast (b : Body) (i : Fin 3) :
    ((b.m : ℝ) • (b.ref.pose.R *ᵥ ![(b.cx : ℝ), (b.cy : ℝ), (b.cz : ℝ)])) i = b.gq i := by
  rw [Pi.smul_apply, Matrix.mulVec, dotProduct, Fin.sum_univ_three, b.R_cast, b.R_cast, b.R_cast, Body.gq]
  push_cast
  rfl

theorem Body.h_cast (b : Body) (i : Fin 3) : b.h i = b.hq i := by
  rw [Body.h, smul_add, Pi.add_apply, b.g_cast, Pi.smul_apply, b.p_cast, Body.hq]
  push_cast
  rfl

theorem Body.tensor_cast (b : Body) (i j : Fin 3) : b.tensor i j = b.tensorq i j := by
  have hT : ∀ i j, (!![(b.Ix : ℝ), -b.Ixy, -b.Ixz; -b.Ixy, b.Iy, -b.Iyz; -b.Ixz, -b.Iyz, b.Iz] : M3) i j = b.Tq i j := by
    intro i j
    fin_cases i <;> fin_cases j <;> simp [Body.Tq]
  have hRt : ∀ i j, b.ref.pose.Rᵀ i j = (fun i j => b.Rq j i) i j := fun i j => b.R_cast j i
  rw [Body.tensor, Matrix.sub_apply, Matrix.sub_apply, Matrix.sub_apply, Matrix.smul_apply,
    mulq_cast (mulq_cast b.R_cast hT) hRt, mulq_cast (cpmq_cast b.g_cast) (cpmq_cast b.p_cast),
    mulq_cast (cpmq_cast b.p_cast) (cpmq_cast b.g_cast), mulq_cast (cpmq_cast b.p_cast) (cpmq_cast b.p_cast), Body.tensorq]
  push_cast
  rfl

/-- The numbers in the code: mass, centre of mass and the six arguments of `buildInertiaTensor`. -/
structure Coded where
  m : ℚ
  c0 : ℚ
  c1 : ℚ
  c2 : ℚ
  xx : ℚ
  yy : ℚ
  zz : ℚ
  xy : ℚ
  xz : ℚ
  yz : ℚ

noncomputable def Coded.matrix (d : Coded) (z : M6) : M6 :=
  Inertia.fill (Inertia.new z) d.m ![(d.c0 : ℝ), (d.c1 : ℝ), (d.c2 : ℝ)]
    (buildInertiaTensor d.xx d.yy d.zz d.xy d.xz d.yz)

def near (ε a b : ℚ) : Bool := decide (a - b ≤ ε) && decide (b - a ≤ ε)

/-- The check. -/
def Body.ok (b : Body) (ε : ℚ) (d : Coded) : Bool :=
  near ε d.m b.m && near ε (d.m * d.c0) (b.hq 0) && near ε (d.m * d.c1) (b.hq 1) && near ε (d.m * d.c2) (b.hq 2)
  && near ε d.xx (b.tensorq 0 0) && near ε (-d.xy) (b.tensorq 0 1) && near ε (-d.xz) (b.tensorq 0 2)
  && near ε (-d.xy) (b.tensorq 1 0) && near ε d.yy (b.tensorq 1 1) && near ε (-d.yz) (b.tensorq 1 2)
  && near ε (-d.xz) (b.tensorq 2 0) && near ε (-d.yz) (b.tensorq 2 1) && near ε d.zz (b.tensorq 2 2)

theorem near_cast {ε a b : ℚ} (h : near ε a b = true) : |(a : ℝ) - (b : ℝ)| ≤ ε := by
  simp only [near, Bool.and_eq_true, decide_eq_true_eq] at h
  have h4 : ((a - b : ℚ) : ℝ) ≤ (ε : ℝ) := by exact_mod_cast h.1
  have h5 : ((b - a : ℚ) : ℝ) ≤ (ε : ℝ) := by exact_mod_cast h.2
  push_cast at h4 h5
  rw [abs_le]
  constructor <;> linarith

theorem Body.agrees {b : Body} {ε : ℚ} (hε : 0 ≤ ε) {d : Coded} (h : b.ok ε d = true) (z : M6) :
    b.Agrees ε (d.matrix z) := by
  intro κ _ μ r hm J hJ i j
  rw [b.value hm hJ]
  simp only [Body.ok, Bool.and_eq_true] at h
  obtain ⟨⟨⟨⟨⟨⟨⟨⟨⟨⟨⟨⟨a0, a1⟩, a2⟩, a3⟩, a4⟩, a5⟩, a6⟩, a7⟩, a8⟩, a9⟩, a10⟩, a11⟩, a12⟩ := h
  have a0 := near_cast a0
  have a1 := near_cast a1
  have a2 := near_cast a2
  have a3 := near_cast a3
  have a4 := near_cast a4
  have a5 := near_cast a5
  have a6 := near_cast a6
  have a7 := near_cast a7
  have a8 := near_cast a8
  have a9 := near_cast a9
  have a10 := near_cast a10
  have a11 := near_cast a11
  have a12 := near_cast a12
  have hε' : (0 : ℝ) ≤ ε := by exact_mod_cast hε
  have b1 := abs_neg ((((d.m * d.c0 : ℚ) : ℝ)) - b.hq 0) ▸ a1
  have b2 := abs_neg ((((d.m * d.c1 : ℚ) : ℝ)) - b.hq 1) ▸ a2
  have b3 := abs_neg ((((d.m * d.c2 : ℚ) : ℝ)) - b.hq 2) ▸ a3
  push_cast at a0 a1 a2 a3 a4 a5 a6 a7 a8 a9 a10 a11 a12 b1 b2 b3
  fin_cases i <;> fin_cases j <;>
    simp [Coded.matrix, Inertia.fill, Inertia.new, buildInertiaTensor, blk, b.tensor_cast, cpm, b.h_cast] <;>
    first
    | exact hε'
    | assumption
    | (refine le_trans (le_of_eq (congrArg _ ?_)) b1; ring1)
    | (refine le_trans (le_of_eq (congrArg _ ?_)) b2; ring1)
    | (refine le_trans (le_of_eq (congrArg _ ?_)) b3; ring1)
    | (refine le_trans (le_of_eq (congrArg _ ?_)) a1; ring1)
    | (refine le_trans (le_of_eq (congrArg _ ?_)) a2; ring1)
    | (refine le_trans (le_of_eq (congrArg _ ?_)) a3; ring1)
    | (refine le_trans (le_of_eq (congrArg _ ?_)) a5; ring1)
    | (refine le_trans (le_of_eq (congrArg _ ?_)) a6; ring1)
    | (refine le_trans (le_of_eq (congrArg _ ?_)) a9; ring1)

/-- An entry of the tensor that is not as described. -/
theorem Body.not_agrees {b : Body} (hm : 0 < b.m) {ε : ℚ} {d : Coded}
    (h : near ε d.xx (b.tensorq 0 0) = false ∨ near ε d.yy (b.tensorq 1 1) = false) (z : M6) :
    ¬ b.Agrees ε (d.matrix z) := by
  intro hA
  obtain ⟨κ, inst, μ, r, hb⟩ := b.exists_masses hm
  have hJ := inertia_iff.2 (rfl : _ = blk (tens μ (fun k => b.ref.pose.R *ᵥ r k + b.ref.pose.p)) _ _ _)
  have hv := b.value hb hJ
  have h0 := hA μ r hb _ hJ 0 0
  have h1 := hA μ r hb _ hJ 1 1
  rw [hv] at h0 h1
  have key : ∀ a c : ℚ, |(a : ℝ) - (c : ℝ)| ≤ ε → near ε a c = true := by
    intro a c h
    rw [abs_le] at h
    have h4 : (a : ℝ) - c ≤ ε := h.2
    have h5 : (c : ℝ) - a ≤ ε := by linarith [h.1]
    have h4' : a - c ≤ ε := by exact_mod_cast h4
    have h5' : c - a ≤ ε := by exact_mod_cast h5
    simp [near, h4', h5']
  simp [Coded.matrix, Inertia.fill, buildInertiaTensor, blk, b.tensor_cast] at h0 h1
  rcases h with h | h
  · rw [key _ _ h0] at h
    exact absurd h (by simp)
  · rw [key _ _ h1] at h
    exact absurd h (by simp)

end CT.GenKin
