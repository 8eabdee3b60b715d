import Verif.Props.DescribedInertia
import Verif.Model.Robots.InvertedPendulum
import Verif.Model.Robots.DoubleInvertedPendulum
import Verif.Model.Robots.HyA
import Verif.Model.Robots.QuadrotorWithLoad
import Verif.Model.Robots.HyQ

/-!
# C190: the links of the robots are bodies that can exist

The inertia parameters of a link are mass, centre of mass, moments and products of inertia.  They belong to a body that can
exist if some distribution of masses, none of them negative, has this spatial inertia.  Whether a matrix is a spatial inertia at
all (C122, C132) does not say this: it also is one if masses are allowed to be negative.
-/

namespace CT.Robots

open CT.GenKin Spatial FrameJac

/-! ### Specification -/

/-- Some distribution of masses, none of them negative, has the spatial inertia `I`. -/
def Possible (I : M6) : Prop :=
  ∃ (κ : Type) (_ : Fintype κ) (μ : κ → ℝ) (r : κ → V3), (∀ k, 0 ≤ μ k) ∧ IsInertiaOf I μ r

/-! ### Criterion -/

/-- Second moments about the centre of mass. -/
def _root_.CT.GenKin.Coded.second (d : Coded) : ℚ × ℚ × ℚ × ℚ × ℚ × ℚ :=
  ((d.yy + d.zz - d.xx) / 2 - d.m * d.c0 * d.c0, (d.xx + d.zz - d.yy) / 2 - d.m * d.c1 * d.c1,
    (d.xx + d.yy - d.zz) / 2 - d.m * d.c2 * d.c2, d.xy - d.m * d.c0 * d.c1, d.xz - d.m * d.c0 * d.c2,
    d.yz - d.m * d.c1 * d.c2)

/-- Second moment in the direction `(x, y, z)`. -/
def _root_.CT.GenKin.Coded.along (d : Coded) (x y z : ℚ) : ℚ :=
  let (a, b, c, e, f, g) := d.second
  a * x ^ 2 + b * y ^ 2 + c * z ^ 2 + 2 * e * x * y + 2 * f * x * z + 2 * g * y * z

/-- Factorisation of the second moments. -/
def _root_.CT.GenKin.Coded.factor (d : Coded) : ℚ × ℚ × ℚ × ℚ × ℚ × ℚ :=
  let (a, b, c, e, f, g) := d.second
  let l1 := e / a
  let l2 := f / a
  let d1 := b - a * l1 * l1
  let l3 := (g - a * l1 * l2) / d1
  (a, d1, c - a * l2 * l2 - d1 * l3 * l3, l1, l2, l3)

/-- The mass is positive and the second moments are not negative in any direction. -/
def _root_.CT.GenKin.Coded.fine (d : Coded) : Bool :=
  let (a, b, c, e, f, g) := d.second
  let (p, q, s, l1, l2, l3) := d.factor
  decide (0 < d.m) && decide (0 ≤ p) && decide (0 ≤ q) && decide (0 ≤ s) && decide (p = a) && decide (p * l1 = e)
    && decide (p * l2 = f) && decide (p * l1 * l1 + q = b) && decide (p * l1 * l2 + q * l3 = g)
    && decide (p * l2 * l2 + q * l3 * l3 + s = c)

theorem sum_parts {κ : Type} [Fintype κ] {d : Coded} {z : M6} {μ : κ → ℝ} {r : κ → V3}
    (h : IsInertiaOf (d.matrix z) μ r) :
    ∑ k, μ k = d.m ∧ ∑ k, μ k * r k 0 = d.m * d.c0 ∧ ∑ k, μ k * r k 1 = d.m * d.c1 ∧ ∑ k, μ k * r k 2 = d.m * d.c2
      ∧ ∑ k, μ k * r k 0 ^ 2 = (d.yy + d.zz - d.xx) / 2 ∧ ∑ k, μ k * r k 1 ^ 2 = (d.xx + d.zz - d.yy) / 2
      ∧ ∑ k, μ k * r k 2 ^ 2 = (d.xx + d.yy - d.zz) / 2 ∧ ∑ k, μ k * (r k 0 * r k 1) = d.xy
      ∧ ∑ k, μ k * (r k 0 * r k 2) = d.xz ∧ ∑ k, μ k * (r k 1 * r k 2) = d.yz := by
  rw [inertia_iff] at h
  have e : ∀ i j, _ = _ := fun i j => congrFun (congrFun h i) j
  have e33 := e 3 3
  have h0 := e 2 4
  have h1 := e 0 5
  have h2 := e 1 3
  have t00 := e 0 0
  have t11 := e 1 1
  have t22 := e 2 2
  have t01 := e 0 1
  have t02 := e 0 2
  have t12 := e 1 2
  rw [tens_classical] at t00 t11 t22 t01 t02 t12
  simp [Coded.matrix, Inertia.fill, blk, cpm, classicalTensor, buildInertiaTensor, moment, mul_add, Finset.sum_add_distrib]
    at e33 h0 h1 h2 t00 t11 t22 t01 t02 t12
  refine ⟨e33.symm, h0.symm, h1.symm, h2.symm, ?_, ?_, ?_, t01.symm, t02.symm, t12.symm⟩ <;> linarith

theorem impossible {d : Coded} (x y w : ℚ) (h : d.along x y w < 0) (z : M6) : ¬ Possible (d.matrix z) := by
  rintro ⟨κ, _, μ, r, hμ, hI⟩
  obtain ⟨hm, h0, h1, h2, s0, s1, s2, s01, s02, s12⟩ := sum_parts hI
  have hp : 0 ≤ ∑ k, μ k * (x * (r k 0 - d.c0) + y * (r k 1 - d.c1) + w * (r k 2 - d.c2)) ^ 2 :=
    Finset.sum_nonneg fun k _ => mul_nonneg (hμ k) (sq_nonneg _)
  have hs : ∑ k, μ k * (x * (r k 0 - d.c0) + y * (r k 1 - d.c1) + w * (r k 2 - d.c2)) ^ 2
      = (x : ℝ) ^ 2 * ∑ k, μ k * r k 0 ^ 2 + (y : ℝ) ^ 2 * ∑ k, μ k * r k 1 ^ 2 + (w : ℝ) ^ 2 * ∑ k, μ k * r k 2 ^ 2
        + 2 * x * y * ∑ k, μ k * (r k 0 * r k 1) + 2 * x * w * ∑ k, μ k * (r k 0 * r k 2)
        + 2 * y * w * ∑ k, μ k * (r k 1 * r k 2)
        - 2 * (x * d.c0 + y * d.c1 + w * d.c2) * x * ∑ k, μ k * r k 0
        - 2 * (x * d.c0 + y * d.c1 + w * d.c2) * y * ∑ k, μ k * r k 1
        - 2 * (x * d.c0 + y * d.c1 + w * d.c2) * w * ∑ k, μ k * r k 2
        + (x * d.c0 + y * d.c1 + w * d.c2) ^ 2 * ∑ k, μ k := by
    simp only [Finset.mul_sum, ← Finset.sum_add_distrib, ← Finset.sum_sub_distrib]
    refine Finset.sum_congr rfl fun k _ => ?_
    ring
  rw [hs, hm, h0, h1, h2, s0, s1, s2, s01, s02, s12] at hp
  have hq : ((d.along x y w : ℚ) : ℝ) < 0 := by exact_mod_cast h
  simp only [Coded.along, Coded.second] at hq
  push_cast at hq
  nlinarith

/-- Six equal masses in pairs on both sides of the centre of mass. -/
noncomputable def places (c : V3) (t0 t1 t2 l1 l2 l3 : ℝ) : Fin 6 → V3 :=
  ![![c 0 + t0, c 1 + t0 * l1, c 2 + t0 * l2], ![c 0 - t0, c 1 - t0 * l1, c 2 - t0 * l2],
    ![c 0, c 1 + t1, c 2 + t1 * l3], ![c 0, c 1 - t1, c 2 - t1 * l3],
    ![c 0, c 1, c 2 + t2], ![c 0, c 1, c 2 - t2]]

theorem possible {d : Coded} (h : d.fine = true) (z : M6) : Possible (d.matrix z) := by
  simp only [Coded.fine, Bool.and_eq_true, decide_eq_true_eq] at h
  obtain ⟨⟨⟨⟨⟨⟨⟨⟨⟨hm, hp⟩, hq⟩, hs⟩, ea⟩, ee⟩, ef⟩, eb⟩, eg⟩, ec⟩ := h
  generalize d.factor = F at *
  obtain ⟨p, q, s, l1, l2, l3⟩ := F
  simp only [Coded.second] at hp hq hs ea ee ef eb eg ec
  have hm' : (0 : ℝ) < d.m := by exact_mod_cast hm
  have ea' := congrArg (Rat.cast : ℚ → ℝ) ea
  have ee' := congrArg (Rat.cast : ℚ → ℝ) ee
  have ef' := congrArg (Rat.cast : ℚ → ℝ) ef
  have eb' := congrArg (Rat.cast : ℚ → ℝ) eb
  have eg' := congrArg (Rat.cast : ℚ → ℝ) eg
  have ec' := congrArg (Rat.cast : ℚ → ℝ) ec
  push_cast at ea' ee' ef' eb' eg' ec'
  have root : ∀ y : ℚ, 0 ≤ y → ∃ t : ℝ, (d.m : ℝ) * t ^ 2 = 3 * y := fun y hy => by
    have hy' : (0 : ℝ) ≤ y := by exact_mod_cast hy
    refine ⟨Real.sqrt (3 * y / d.m), ?_⟩
    rw [Real.sq_sqrt (by positivity)]
    field_simp
  obtain ⟨t0, h0⟩ := root p hp
  obtain ⟨t1, h1⟩ := root q hq
  obtain ⟨t2, h2⟩ := root s hs
  refine ⟨Fin 6, inferInstance, fun _ => d.m / 6, places ![(d.c0 : ℝ), d.c1, d.c2] t0 t1 t2 l1 l2 l3,
    fun _ => by positivity, ?_⟩
  rw [inertia_iff, tens_classical]
  have hsum : ∑ _k : Fin 6, (d.m / 6 : ℝ) = d.m := by
    simp [Fin.sum_univ_six]; ring
  have hmom : moment (fun _ => (d.m / 6 : ℝ)) (places ![(d.c0 : ℝ), d.c1, d.c2] t0 t1 t2 l1 l2 l3)
      = ![(d.m : ℝ) * d.c0, d.m * d.c1, d.m * d.c2] := by
    funext i
    fin_cases i <;> simp [moment, places, Fin.sum_univ_six] <;> ring
  have ht : classicalTensor (fun _ => (d.m / 6 : ℝ)) (places ![(d.c0 : ℝ), d.c1, d.c2] t0 t1 t2 l1 l2 l3)
      = buildInertiaTensor d.xx d.yy d.zz d.xy d.xz d.yz := by
    ext i j
    fin_cases i <;> fin_cases j <;> simp [classicalTensor, places, buildInertiaTensor, Fin.sum_univ_six]
    · linear_combination (l1 ^ 2 + l2 ^ 2) / 3 * h0 + (1 + l3 ^ 2) / 3 * h1 + h2 / 3 + eb' + ec'
    · linear_combination -(l1 / 3 * h0 + ee')
    · linear_combination -(l2 / 3 * h0 + ef')
    · linear_combination -(l1 / 3 * h0 + ee')
    · linear_combination (1 + l2 ^ 2) / 3 * h0 + l3 ^ 2 / 3 * h1 + h2 / 3 + ea' + ec'
    · linear_combination -(l1 * l2 / 3 * h0 + l3 / 3 * h1 + eg')
    · linear_combination -(l2 / 3 * h0 + ef')
    · linear_combination -(l1 * l2 / 3 * h0 + l3 / 3 * h1 + eg')
    · linear_combination (1 + l1 ^ 2) / 3 * h0 + 1 / 3 * h1 + ea' + eb'
  rw [hsum, hmom, ht, Coded.matrix]
  ext i j
  fin_cases i <;> fin_cases j <;> simp [Inertia.fill, Inertia.new, blk, cpm, buildInertiaTensor]

namespace InvertedPendulum.Real

private theorem coded_Link1 (z : M6) : tensor_Link1 z = Coded.matrix ⟨1.811, 0.293, 0, 0, 0.00047, 0.15594256, 0.16452757, 0, 0, 0⟩ z := by
  simp only [tensor_Link1, Coded.matrix]
  norm_num

theorem impossible_Link1 (z : M6) : ¬ Possible (tensor_Link1 z) := coded_Link1 z ▸ impossible 0 0 1 (by decide +kernel) z

end InvertedPendulum.Real

namespace DoubleInvertedPendulum.Real

private theorem coded_Link1 (z : M6) : tensor_Link1 z = Coded.matrix ⟨1, 0.5, 0, 0, 0.0005, 0.251, 0.2505, 0, 0, (-0.000000000021855406)⟩ z := by
  simp only [tensor_Link1, Coded.matrix]
  norm_num

theorem impossible_Link1 (z : M6) : ¬ Possible (tensor_Link1 z) := coded_Link1 z ▸ impossible 0 22877634 1 (by decide +kernel) z

private theorem coded_Link2 (z : M6) : tensor_Link2 z = Coded.matrix ⟨1, 0.5, 0, 0, 0.0005, 0.2505, 0.251, 0, 0, 0⟩ z := by
  simp only [tensor_Link2, Coded.matrix]
  norm_num

theorem possible_Link2 (z : M6) : Possible (tensor_Link2 z) := coded_Link2 z ▸ possible (by decide +kernel) z

end DoubleInvertedPendulum.Real

namespace HyA.Real

private theorem coded_Shoulder_AA (z : M6) : tensor_Shoulder_AA z = Coded.matrix ⟨2.688, (-0.000196), (-0.003091), 0.17763901, 0.08980614, 0.08953714, 0.007629, 0.000613, 0.000491221, (-0.0005849322)⟩ z := by
  simp only [tensor_Shoulder_AA, Coded.matrix]
  norm_num

theorem possible_Shoulder_AA (z : M6) : Possible (tensor_Shoulder_AA z) := coded_Shoulder_AA z ▸ possible (by decide +kernel) z

private theorem coded_Shoulder_FE (z : M6) : tensor_Shoulder_FE z = Coded.matrix ⟨2.5924191, 0.113166206, (-0.023382), 0.003832, 0.039002996, 0.08585553, 0.051393528, (-0.0055279857), 0.022851627, 0.002752⟩ z := by
  simp only [tensor_Shoulder_FE, Coded.matrix]
  norm_num

theorem possible_Shoulder_FE (z : M6) : Possible (tensor_Shoulder_FE z) := coded_Shoulder_FE z ▸ possible (by decide +kernel) z

private theorem coded_Humerus_R (z : M6) : tensor_Humerus_R z = Coded.matrix ⟨2.327, (-0.0023899989), 0.00618, 0.278456, 0.20236395, 0.20986895, 0.010329999, (-0.00005399998), 0.011715295, 0.0037997814⟩ z := by
  simp only [tensor_Humerus_R, Coded.matrix]
  norm_num

theorem possible_Humerus_R (z : M6) : Possible (tensor_Humerus_R z) := coded_Humerus_R z ▸ possible (by decide +kernel) z

private theorem coded_Elbow_FE (z : M6) : tensor_Elbow_FE z = Coded.matrix ⟨1.7423722, 0.09200001, (-0.005), 0.00000000087422736, 0.081661, 0.01828449, 0.09570849, (-0.0036857284), 0.00021200017, 0.0022920002⟩ z := by
  simp only [tensor_Elbow_FE, Coded.matrix]
  norm_num

theorem possible_Elbow_FE (z : M6) : Possible (tensor_Elbow_FE z) := coded_Elbow_FE z ▸ possible (by decide +kernel) z

private theorem coded_Wrist_R (z : M6) : tensor_Wrist_R z = Coded.matrix ⟨2.1032, 0, 0, 0.0275, 0.019432, 0.029115, 0.011046, 0.001387, 0.012652, 0.001243⟩ z := by
  simp only [tensor_Wrist_R, Coded.matrix]
  norm_num

theorem possible_Wrist_R (z : M6) : Possible (tensor_Wrist_R z) := coded_Wrist_R z ▸ possible (by decide +kernel) z

private theorem coded_Wrist_FE (z : M6) : tensor_Wrist_FE z = Coded.matrix ⟨1.547475, 0.025, 0, 0, 0.010737, 0.003227, 0.009277, (-0.000198), (-0.000015), 0.000829⟩ z := by
  simp only [tensor_Wrist_FE, Coded.matrix]
  norm_num

theorem impossible_Wrist_FE (z : M6) : ¬ Possible (tensor_Wrist_FE z) := coded_Wrist_FE z ▸ impossible 1 0 0 (by decide +kernel) z

end HyA.Real

namespace QuadrotorWithLoad.Real

private theorem coded_body (z : M6) : tensor_body z = Coded.matrix ⟨0.5, 0, 0, 0, 0.03, 0.05, 0.03, 0, 0, 0⟩ z := by
  simp only [tensor_body, Coded.matrix]
  norm_num

theorem possible_body (z : M6) : Possible (tensor_body z) := coded_body z ▸ possible (by decide +kernel) z

private theorem coded_link1 (z : M6) : tensor_link1 z = Coded.matrix ⟨0.025, 0, 0, (-0.05), 0.00002075, 0.000001, 0.00002075, 0, 0, 0⟩ z := by
  simp only [tensor_link1, Coded.matrix]
  norm_num

theorem impossible_link1 (z : M6) : ¬ Possible (tensor_link1 z) := coded_link1 z ▸ impossible 0 0 1 (by decide +kernel) z

private theorem coded_link2 (z : M6) : tensor_link2 z = Coded.matrix ⟨0.1, 0.35, 0, 0, 0.004084, 0.004084, 0.0000025, 0, 0, 0⟩ z := by
  simp only [tensor_link2, Coded.matrix]
  norm_num

theorem impossible_link2 (z : M6) : ¬ Possible (tensor_link2 z) := coded_link2 z ▸ impossible 1 0 0 (by decide +kernel) z

end QuadrotorWithLoad.Real

namespace HyQ.Real

private theorem coded_trunk (z : M6) : tensor_trunk z = Coded.matrix ⟨53.433, (-0.0223), (-0.0001), 0.0387, 1.209488, 5.5837, 6.056973, 0.00571, (-0.190812), (-0.012668)⟩ z := by
  simp only [tensor_trunk, Coded.matrix]
  norm_num

theorem possible_trunk (z : M6) : Possible (tensor_trunk z) := coded_trunk z ▸ possible (by decide +kernel) z

private theorem coded_LF_hipassembly (z : M6) : tensor_LF_hipassembly z = Coded.matrix ⟨3.44, 0.04263, 0, 0.16931, 0.134705, 0.144171, 0.011033, 0.000036, 0.022734, 0.000051⟩ z := by
  simp only [tensor_LF_hipassembly, Coded.matrix]
  norm_num

theorem possible_LF_hipassembly (z : M6) : Possible (tensor_LF_hipassembly z) := coded_LF_hipassembly z ▸ possible (by decide +kernel) z

private theorem coded_LF_upperleg (z : M6) : tensor_LF_upperleg z = Coded.matrix ⟨3.146, 0.15074, (-0.02625), 0, 0.005495, 0.087136, 0.089871, (-0.007418), (-0.000102), (-0.000021)⟩ z := by
  simp only [tensor_LF_upperleg, Coded.matrix]
  norm_num

theorem possible_LF_upperleg (z : M6) : Possible (tensor_LF_upperleg z) := coded_LF_upperleg z ▸ possible (by decide +kernel) z

private theorem coded_LF_lowerleg (z : M6) : tensor_LF_lowerleg z = Coded.matrix ⟨0.881, 0.1254, 0.0005, (-0.0001), 0.000468, 0.026409, 0.026181, 0, 0, 0⟩ z := by
  simp only [tensor_LF_lowerleg, Coded.matrix]
  norm_num

theorem possible_LF_lowerleg (z : M6) : Possible (tensor_LF_lowerleg z) := coded_LF_lowerleg z ▸ possible (by decide +kernel) z

private theorem coded_RF_hipassembly (z : M6) : tensor_RF_hipassembly z = Coded.matrix ⟨3.44, 0.04263, 0, (-0.16931), 0.134705, 0.144171, 0.011033, (-0.000036), (-0.022734), 0.000051⟩ z := by
  simp only [tensor_RF_hipassembly, Coded.matrix]
  norm_num

theorem possible_RF_hipassembly (z : M6) : Possible (tensor_RF_hipassembly z) := coded_RF_hipassembly z ▸ possible (by decide +kernel) z

private theorem coded_RF_upperleg (z : M6) : tensor_RF_upperleg z = Coded.matrix ⟨3.146, 0.15074, (-0.02625), 0, 0.005495, 0.087136, 0.089871, (-0.007418), (-0.000102), (-0.000021)⟩ z := by
  simp only [tensor_RF_upperleg, Coded.matrix]
  norm_num

theorem possible_RF_upperleg (z : M6) : Possible (tensor_RF_upperleg z) := coded_RF_upperleg z ▸ possible (by decide +kernel) z

private theorem coded_RF_lowerleg (z : M6) : tensor_RF_lowerleg z = Coded.matrix ⟨0.881, 0.1254, 0.0005, (-0.0001), 0.000468, 0.026409, 0.026181, 0, 0, 0⟩ z := by
  simp only [tensor_RF_lowerleg, Coded.matrix]
  norm_num

theorem possible_RF_lowerleg (z : M6) : Possible (tensor_RF_lowerleg z) := coded_RF_lowerleg z ▸ possible (by decide +kernel) z

private theorem coded_LH_hipassembly (z : M6) : tensor_LH_hipassembly z = Coded.matrix ⟨3.44, 0.04263, 0, (-0.16931), 0.134705, 0.144171, 0.011033, (-0.000036), (-0.022734), 0.000051⟩ z := by
  simp only [tensor_LH_hipassembly, Coded.matrix]
  norm_num

theorem possible_LH_hipassembly (z : M6) : Possible (tensor_LH_hipassembly z) := coded_LH_hipassembly z ▸ possible (by decide +kernel) z

private theorem coded_LH_upperleg (z : M6) : tensor_LH_upperleg z = Coded.matrix ⟨3.146, 0.15074, 0.02625, 0, 0.005495, 0.087136, 0.089871, 0.007418, 0.000102, (-0.000021)⟩ z := by
  simp only [tensor_LH_upperleg, Coded.matrix]
  norm_num

theorem possible_LH_upperleg (z : M6) : Possible (tensor_LH_upperleg z) := coded_LH_upperleg z ▸ possible (by decide +kernel) z

private theorem coded_LH_lowerleg (z : M6) : tensor_LH_lowerleg z = Coded.matrix ⟨0.881, 0.125, (-0.001), 0, 0.000468, 0.026409, 0.026181, 0, 0, 0⟩ z := by
  simp only [tensor_LH_lowerleg, Coded.matrix]
  norm_num

theorem possible_LH_lowerleg (z : M6) : Possible (tensor_LH_lowerleg z) := coded_LH_lowerleg z ▸ possible (by decide +kernel) z

private theorem coded_RH_hipassembly (z : M6) : tensor_RH_hipassembly z = Coded.matrix ⟨3.44, 0.04263, 0, 0.16931, 0.134705, 0.144171, 0.011033, 0.000036, 0.022734, 0.000051⟩ z := by
  simp only [tensor_RH_hipassembly, Coded.matrix]
  norm_num

theorem possible_RH_hipassembly (z : M6) : Possible (tensor_RH_hipassembly z) := coded_RH_hipassembly z ▸ possible (by decide +kernel) z

private theorem coded_RH_upperleg (z : M6) : tensor_RH_upperleg z = Coded.matrix ⟨3.146, 0.15074, 0.02625, 0, 0.005495, 0.087136, 0.089871, 0.007418, 0.000102, (-0.000021)⟩ z := by
  simp only [tensor_RH_upperleg, Coded.matrix]
  norm_num

theorem possible_RH_upperleg (z : M6) : Possible (tensor_RH_upperleg z) := coded_RH_upperleg z ▸ possible (by decide +kernel) z

private theorem coded_RH_lowerleg (z : M6) : tensor_RH_lowerleg z = Coded.matrix ⟨0.881, 0.1254, (-0.0005), 0.0001, 0.000468, 0.026409, 0.026181, 0, 0, 0⟩ z := by
  simp only [tensor_RH_lowerleg, Coded.matrix]
  norm_num

theorem possible_RH_lowerleg (z : M6) : Possible (tensor_RH_lowerleg z) := coded_RH_lowerleg z ▸ possible (by decide +kernel) z

end HyQ.Real

/-! ### Theorems -/

/-- **C190 (HyQ).**  Every link of HyQ is a body that can exist, whatever the memory contained before construction. -/
theorem C190_HyQ (z : HyQ.Inertias) :
    let i := HyQ.Inertias.new z
    Possible i.trunk ∧ Possible i.LF_hipassembly ∧ Possible i.LF_upperleg ∧ Possible i.LF_lowerleg
      ∧ Possible i.RF_hipassembly ∧ Possible i.RF_upperleg ∧ Possible i.RF_lowerleg
      ∧ Possible i.LH_hipassembly ∧ Possible i.LH_upperleg ∧ Possible i.LH_lowerleg
      ∧ Possible i.RH_hipassembly ∧ Possible i.RH_upperleg ∧ Possible i.RH_lowerleg :=
  open HyQ.Real in
  ⟨possible_trunk _, possible_LF_hipassembly _, possible_LF_upperleg _, possible_LF_lowerleg _,
    possible_RF_hipassembly _, possible_RF_upperleg _, possible_RF_lowerleg _,
    possible_LH_hipassembly _, possible_LH_upperleg _, possible_LH_lowerleg _,
    possible_RH_hipassembly _, possible_RH_upperleg _, possible_RH_lowerleg _⟩

/-- **C190 (HyA), all links but the last.** -/
theorem C190_HyA_partial (z : HyA.Inertias) :
    let i := HyA.Inertias.new z
    Possible i.Shoulder_AA ∧ Possible i.Shoulder_FE ∧ Possible i.Humerus_R ∧ Possible i.Elbow_FE ∧ Possible i.Wrist_R :=
  open HyA.Real in
  ⟨possible_Shoulder_AA _, possible_Shoulder_FE _, possible_Humerus_R _, possible_Elbow_FE _, possible_Wrist_R _⟩

/-- **C190 (double inverted pendulum, quadrotor with load), the links that can exist.** -/
theorem C190_others_partial (z : DoubleInvertedPendulum.Inertias) (z' : QuadrotorWithLoad.Inertias) :
    Possible (DoubleInvertedPendulum.Inertias.new z).Link2 ∧ Possible (QuadrotorWithLoad.Inertias.new z').body :=
  ⟨DoubleInvertedPendulum.Real.possible_Link2 _, QuadrotorWithLoad.Real.possible_body _⟩

/-- **C190, violated.**  The link of the inverted pendulum, the last link of HyA and both links of the load of the quadrotor
are no bodies that can exist: no distribution of masses, none of them negative, has the spatial inertia the dynamics use.
One moment of inertia of the pendulum about its centre of mass exceeds the sum of the other two; those of the load are
smaller than what its mass at its centre of mass contributes. -/
theorem C190_violated (z : InvertedPendulum.Inertias) (z' : HyA.Inertias) (z'' : QuadrotorWithLoad.Inertias) :
    ¬ Possible (InvertedPendulum.Inertias.new z).Link1 ∧ ¬ Possible (HyA.Inertias.new z').Wrist_FE
      ∧ ¬ Possible (QuadrotorWithLoad.Inertias.new z'').link1 ∧ ¬ Possible (QuadrotorWithLoad.Inertias.new z'').link2 :=
  ⟨InvertedPendulum.Real.impossible_Link1 _, HyA.Real.impossible_Wrist_FE _, QuadrotorWithLoad.Real.impossible_link1 _,
    QuadrotorWithLoad.Real.impossible_link2 _⟩

/-- **C190, violated by rounding.**  The first link of the double inverted pendulum is described as a flat disc; a product of
inertia of `-2.2e-11` left over from the rotation of its frame makes it a body that cannot exist. -/
theorem C190_rounding_violated (z : DoubleInvertedPendulum.Inertias) :
    ¬ Possible (DoubleInvertedPendulum.Inertias.new z).Link1 :=
  DoubleInvertedPendulum.Real.impossible_Link1 _

end CT.Robots
