import Verif.Props.DescribedInertia
import Verif.Model.Robots.HyQ

/-!
# C132: the inertia parameters of HyQ

The description of HyQ is `ct_models/urdf/HyQ/hyqb.urdf.xacro` with the files in `links/`.  An `<inertial>` element of
this format gives the mass, the centre of mass in the frame of the link, and the moments of inertia about the centre
of mass.
-/

namespace CT.Robots.HyQ

open CT.GenKin Spatial FrameJac

/-! ### Specification -/

/-- An `<inertial>` element. -/
structure Inertial where
  m : ℚ
  cx : ℚ
  cy : ℚ
  cz : ℚ
  ixx : ℚ
  iyy : ℚ
  izz : ℚ
  ixy : ℚ
  ixz : ℚ
  iyz : ℚ

/-- Point masses with the described mass, centre of mass and moments of inertia about the centre of mass.  (The products
of inertia do not matter for the statement below.) -/
structure Inertial.Masses (d : Inertial) {κ : Type} [Fintype κ] (μ : κ → ℝ) (r : κ → V3) : Prop where
  mass : ∑ k, μ k = d.m
  com : ∑ k, μ k • r k = (d.m : ℝ) • ![(d.cx : ℝ), (d.cy : ℝ), (d.cz : ℝ)]
  ixx : ∑ k, μ k * ((r k 1 - d.cy) ^ 2 + (r k 2 - d.cz) ^ 2) = d.ixx
  iyy : ∑ k, μ k * ((r k 0 - d.cx) ^ 2 + (r k 2 - d.cz) ^ 2) = d.iyy
  izz : ∑ k, μ k * ((r k 0 - d.cx) ^ 2 + (r k 1 - d.cy) ^ 2) = d.izz

/-- No spatial inertia of the described link is within `ε` of `I`. -/
def Inertial.Differs (d : Inertial) (ε : ℝ) (I : M6) : Prop :=
  ∀ {κ : Type} [Fintype κ] (μ : κ → ℝ) (r : κ → V3), d.Masses μ r → ∀ J, IsInertiaOf J μ r → ∃ i, ε < |I i i - J i i|

/-- The trunk (links/inertia.urdf.xacro:15-24, links/trunk.urdf.xacro:26-31). -/
def Described.trunk : Inertial :=
  ⟨64.862, 0.027222, -0.0000235, 0.042224, 1.688238, 8.665299, 9.243560, -0.028789, 0.277694, 0.003820⟩

/-- The hip assembly (links/inertia.urdf.xacro:26-35, links/leg.urdf.xacro:57-64). -/
def Described.hip (reflect_hip reflect_front : ℚ) : Inertial :=
  ⟨2.93, 0.04263, reflect_hip * 0, reflect_hip * 0.16931, 0.134705, 0.144171, 0.011033,
    reflect_hip * reflect_front * 0.000036, reflect_hip * reflect_front * 0.022734, 0.000051⟩

/-- The upper leg (links/inertia.urdf.xacro:37-46, links/leg.urdf.xacro:80-85). -/
def Described.upper (reflect_upper reflect_front : ℚ) : Inertial :=
  ⟨2.638, 0.15074, reflect_upper * 0.02625, 0, 0.005495, 0.087136, 0.089871,
    reflect_front * -0.007418, reflect_front * -0.000102, -0.000021⟩

/-- The lower leg (links/inertia.urdf.xacro:48-57, links/leg.urdf.xacro:101-106). -/
def Described.lower : Inertial := ⟨0.881, 0.1254, 0.00005, -0.0001, 0.000468, 0.026409, 0.026181, 0, 0, 0⟩

/-- The point masses have the numbers of the description as moments and products of inertia about the origin of the
frame of the link (and not about the centre of mass). -/
structure Inertial.AboutOrigin (d : Inertial) {κ : Type} [Fintype κ] (μ : κ → ℝ) (r : κ → V3) : Prop where
  ixx : ∑ k, μ k * (r k 1 ^ 2 + r k 2 ^ 2) = d.ixx
  iyy : ∑ k, μ k * (r k 0 ^ 2 + r k 2 ^ 2) = d.iyy
  izz : ∑ k, μ k * (r k 0 ^ 2 + r k 1 ^ 2) = d.izz
  ixy : ∑ k, μ k * (r k 0 * r k 1) = d.ixy
  ixz : ∑ k, μ k * (r k 0 * r k 2) = d.ixz
  iyz : ∑ k, μ k * (r k 1 * r k 2) = d.iyz

/-- `I` has the rotational inertia of such point masses. -/
def Inertial.Rotational (d : Inertial) (I : M6) : Prop :=
  ∀ {κ : Type} [Fintype κ] (μ : κ → ℝ) (r : κ → V3), d.AboutOrigin μ r →
    ∀ J, IsInertiaOf J μ r → ∀ i j : Fin 6, i < 3 → j < 3 → I i j = J i j

/-! ### Proofs -/

theorem diag_of {κ : Type} [Fintype κ] {J : M6} {μ : κ → ℝ} {r : κ → V3} (h : IsInertiaOf J μ r) :
    J 3 3 = ∑ k, μ k ∧ J 1 1 = ∑ k, μ k * (r k 0 ^ 2 + r k 2 ^ 2) := by
  rw [inertia_iff] at h
  subst h
  rw [tens_classical]
  exact ⟨by simp [blk], by simp [blk, classicalTensor]⟩

theorem Inertial.moment {d : Inertial} {κ : Type} [Fintype κ] {μ : κ → ℝ} {r : κ → V3} (h : d.Masses μ r) :
    ∑ k, μ k * (r k 0 ^ 2 + r k 2 ^ 2) = d.iyy + d.m * (d.cx ^ 2 + d.cz ^ 2) := by
  have h0 : ∑ k, μ k * r k 0 = d.m * d.cx := by simpa using congrFun h.com 0
  have h2 : ∑ k, μ k * r k 2 = d.m * d.cz := by simpa using congrFun h.com 2
  have h3 : ∑ k, μ k * (r k 0 ^ 2 + r k 2 ^ 2) = ∑ k, μ k * ((r k 0 - d.cx) ^ 2 + (r k 2 - d.cz) ^ 2)
      + 2 * d.cx * ∑ k, μ k * r k 0 + 2 * d.cz * ∑ k, μ k * r k 2 - (d.cx ^ 2 + d.cz ^ 2) * ∑ k, μ k := by
    rw [Finset.mul_sum, Finset.mul_sum, Finset.mul_sum, ← Finset.sum_add_distrib, ← Finset.sum_add_distrib,
      ← Finset.sum_sub_distrib]
    refine Finset.sum_congr rfl fun k _ => ?_
    ring
  rw [h3, h.iyy, h0, h2, h.mass]
  ring

theorem fill_mass (z : M6) (m : ℝ) (c : V3) (T : M3) : Inertia.fill z m c T 3 3 = m := by simp [Inertia.fill]

theorem fill_moment (z : M6) (m : ℝ) (c : V3) (a b e f g h : ℝ) :
    Inertia.fill z m c (buildInertiaTensor a b e f g h) 1 1 = b := by simp [Inertia.fill, buildInertiaTensor]

theorem differs_mass {d : Inertial} {ε : ℝ} {I : M6} (h : ε < |I 3 3 - d.m|) : d.Differs ε I := by
  intro κ _ μ r hm J hJ
  refine ⟨3, ?_⟩
  rw [(diag_of hJ).1, hm.mass]
  exact h

theorem differs_moment {d : Inertial} {ε : ℝ} {I : M6} (h : ε < |I 1 1 - (d.iyy + d.m * (d.cx ^ 2 + d.cz ^ 2))|) :
    d.Differs ε I := by
  intro κ _ μ r hm J hJ
  refine ⟨1, ?_⟩
  rw [(diag_of hJ).2, Inertial.moment hm]
  exact h

/-- **C132 (HyQ), violated.**  None of the 13 spatial inertias of HyQ is the one of the described link, whatever the memory
contained.  The trunk is 11.4 kg lighter than described, the hip assemblies and the upper legs are 0.5 kg heavier, and
the moments of inertia of the lower legs are those of the description about another point. -/
theorem C132_HyQ_inertia_violated (z : Inertias) :
    Described.trunk.Differs 11.4 (Inertias.new z).trunk
    ∧ (Described.hip 1 1).Differs 0.5 (Inertias.new z).LF_hipassembly
    ∧ (Described.hip (-1) 1).Differs 0.5 (Inertias.new z).RF_hipassembly
    ∧ (Described.hip (-1) (-1)).Differs 0.5 (Inertias.new z).LH_hipassembly
    ∧ (Described.hip 1 (-1)).Differs 0.5 (Inertias.new z).RH_hipassembly
    ∧ (Described.upper 1 1).Differs 0.5 (Inertias.new z).LF_upperleg
    ∧ (Described.upper (-1) 1).Differs 0.5 (Inertias.new z).RF_upperleg
    ∧ (Described.upper 1 (-1)).Differs 0.5 (Inertias.new z).LH_upperleg
    ∧ (Described.upper (-1) (-1)).Differs 0.5 (Inertias.new z).RH_upperleg
    ∧ Described.lower.Differs 0.01 (Inertias.new z).LF_lowerleg
    ∧ Described.lower.Differs 0.01 (Inertias.new z).RF_lowerleg
    ∧ Described.lower.Differs 0.01 (Inertias.new z).LH_lowerleg
    ∧ Described.lower.Differs 0.01 (Inertias.new z).RH_lowerleg := by
  refine ⟨differs_mass ?_, differs_mass ?_, differs_mass ?_, differs_mass ?_, differs_mass ?_, differs_mass ?_,
    differs_mass ?_, differs_mass ?_, differs_mass ?_, differs_moment ?_, differs_moment ?_, differs_moment ?_,
    differs_moment ?_⟩
  all_goals
    rw [lt_abs]
    simp only [Inertias.new, tensor_trunk, tensor_LF_hipassembly, tensor_RF_hipassembly, tensor_LH_hipassembly,
      tensor_RH_hipassembly, tensor_LF_upperleg, tensor_RF_upperleg, tensor_LH_upperleg, tensor_RH_upperleg,
      tensor_LF_lowerleg, tensor_RF_lowerleg, tensor_LH_lowerleg, tensor_RH_lowerleg, fill_mass, fill_moment,
      Described.trunk, Described.hip, Described.upper, Described.lower]
    norm_num

/-- Such point masses exist. -/
example : ∃ (κ : Type) (_ : Fintype κ) (μ : κ → ℝ) (r : κ → V3), Described.lower.Masses μ r := by
  let d := Described.lower
  obtain ⟨κ, inst, μ, r, h⟩ := Body.exists_masses
    ⟨⟨0, 0, 0, 0, 0, 0, 0⟩, d.m, d.cx, d.cy, d.cz, d.ixx + d.m * (d.cy ^ 2 + d.cz ^ 2),
      d.iyy + d.m * (d.cx ^ 2 + d.cz ^ 2), d.izz + d.m * (d.cx ^ 2 + d.cy ^ 2), 0, 0, 0⟩ (by norm_num [d, Described.lower])
  have hm : ∑ k, μ k = (d.m : ℝ) := h.mass
  have hc : ∑ k, μ k • r k = (d.m : ℝ) • ![(d.cx : ℝ), (d.cy : ℝ), (d.cz : ℝ)] := h.com
  have h0 : ∑ k, μ k * r k 0 = d.m * d.cx := by simpa using congrFun hc 0
  have h1 : ∑ k, μ k * r k 1 = d.m * d.cy := by simpa using congrFun hc 1
  have h2 : ∑ k, μ k * r k 2 = d.m * d.cz := by simpa using congrFun hc 2
  have move : ∀ (a b : Fin 3) (p q : ℝ), ∑ k, μ k * ((r k a - p) ^ 2 + (r k b - q) ^ 2)
      = ∑ k, μ k * (r k a ^ 2 + r k b ^ 2) - 2 * p * ∑ k, μ k * r k a - 2 * q * ∑ k, μ k * r k b
        + (p ^ 2 + q ^ 2) * ∑ k, μ k := by
    intro a b p q
    rw [Finset.mul_sum, Finset.mul_sum, Finset.mul_sum, ← Finset.sum_sub_distrib, ← Finset.sum_sub_distrib,
      ← Finset.sum_add_distrib]
    refine Finset.sum_congr rfl fun k _ => ?_
    ring
  refine ⟨κ, inst, μ, r, hm, hc, ?_, ?_, ?_⟩
  · rw [move, h.Ix, h1, h2, hm]
    push_cast
    ring
  · rw [move, h.Iy, h0, h2, hm]
    push_cast
    ring
  · rw [move, h.Iz, h0, h1, hm]
    push_cast
    ring

theorem rotational_of {d : Inertial} {m : ℝ} {c : V3} {z : M6} {a b e f g h : ℝ} (h1 : a = d.ixx) (h2 : b = d.iyy) (h3 : e = d.izz)
    (h4 : f = d.ixy) (h5 : g = d.ixz) (h6 : h = d.iyz) :
    d.Rotational (Inertia.fill (Inertia.new z) m c (buildInertiaTensor a b e f g h)) := by
  intro κ _ μ r hm J hJ i j hi hj
  rw [inertia_iff] at hJ
  subst hJ
  rw [tens_classical]
  subst h1 h2 h3 h4 h5 h6
  fin_cases i <;> fin_cases j <;> first
    | (exfalso; revert hi; decide)
    | (exfalso; revert hj; decide)
    | simp [blk, classicalTensor, Inertia.fill, buildInertiaTensor, hm.ixx, hm.iyy, hm.izz, hm.ixy, hm.ixz, hm.iyz]

/-- **C132 (HyQ), moments.**  The rotational inertias of the legs except the hind hip assemblies are built from the numbers of
the description, but as moments and products about the origin of the frame of the link. -/
theorem C132_HyQ_moments_partial (z : Inertias) :
    (Described.hip 1 1).Rotational (Inertias.new z).LF_hipassembly
    ∧ (Described.hip (-1) 1).Rotational (Inertias.new z).RF_hipassembly
    ∧ (Described.upper 1 1).Rotational (Inertias.new z).LF_upperleg
    ∧ (Described.upper (-1) 1).Rotational (Inertias.new z).RF_upperleg
    ∧ (Described.upper 1 (-1)).Rotational (Inertias.new z).LH_upperleg
    ∧ (Described.upper (-1) (-1)).Rotational (Inertias.new z).RH_upperleg
    ∧ Described.lower.Rotational (Inertias.new z).LF_lowerleg
    ∧ Described.lower.Rotational (Inertias.new z).RF_lowerleg
    ∧ Described.lower.Rotational (Inertias.new z).LH_lowerleg
    ∧ Described.lower.Rotational (Inertias.new z).RH_lowerleg := by
  refine ⟨rotational_of ?_ ?_ ?_ ?_ ?_ ?_, rotational_of ?_ ?_ ?_ ?_ ?_ ?_, rotational_of ?_ ?_ ?_ ?_ ?_ ?_,
    rotational_of ?_ ?_ ?_ ?_ ?_ ?_, rotational_of ?_ ?_ ?_ ?_ ?_ ?_, rotational_of ?_ ?_ ?_ ?_ ?_ ?_,
    rotational_of ?_ ?_ ?_ ?_ ?_ ?_, rotational_of ?_ ?_ ?_ ?_ ?_ ?_, rotational_of ?_ ?_ ?_ ?_ ?_ ?_,
    rotational_of ?_ ?_ ?_ ?_ ?_ ?_⟩ <;>
  norm_num [Described.hip, Described.upper, Described.lower]

end CT.Robots.HyQ
