import Verif.Model.Robots.HyQFootJacForward
import Verif.Props.Robots.HyQFoot

/-!
# Rows of foot 0 in the generated Jacobian HyQForwardKinJacForward

`hN`: line `N` is a component of the quaternion, of the position of the foot or of its velocity in the base.  `eC_R`: the entry in
row `R` and column `C`.
-/

namespace CT.Robots.HyQ.FootJacForward.Leg0

open Matrix CT.FloatSys CT.FrameJac CT.Robots.HyQ

set_option linter.unusedSimpArgs false

theorem h27 (x : Fin 36 → ℝ) : l27 x = Qe x 3 := by
  simp only [l16, l17, l18, l19, l20, l21, l22, l23, l24, l25, l26, l27, Qe_3] <;> ring
theorem h40 (x : Fin 36 → ℝ) : l40 x = Qe x 1 := by
  simp only [l16, l17, l18, l19, l21, l22, l23, l24, l26, l38, l39, l40, Qe_1] <;> ring
theorem h42 (x : Fin 36 → ℝ) : l42 x = Qe x 2 := by
  simp only [l16, l17, l18, l19, l21, l22, l23, l24, l26, l38, l39, l42, Qe_2] <;> ring
theorem h47 (x : Fin 36 → ℝ) : l47 x = Qe x 0 := by
  simp only [l16, l17, l18, l19, l20, l21, l22, l23, l24, l25, l26, l47, Qe_0] <;> ring
theorem h59 (x : Fin 36 → ℝ) : l59 x = foot 0 x 2 := by
  simp only [l49, l50, l51, l52, l53, l54, l55, l56, l57, l58, l59, foot, pv_0, pv_1, pv_2, side_0, mountX_0, mountY_0, th_0_0,
    th_0_1, th_0_2, segA, segB, segC, segD, segH] <;> ring
theorem h68 (x : Fin 36 → ℝ) : l68 x = foot 0 x 1 := by
  simp only [l51, l53, l55, l57, l62, l63, l64, l65, l66, l67, l68, foot, pv_0, pv_1, pv_2, side_0, mountX_0, mountY_0, th_0_0,
    th_0_1, th_0_2, segA, segB, segC, segD, segH] <;> ring
theorem h73 (x : Fin 36 → ℝ) : l73 x = foot 0 x 0 := by
  simp only [l51, l53, l55, l57, l71, l72, l73, foot, pv_0, pv_1, pv_2, side_0, mountX_0, mountY_0, th_0_0, th_0_1, th_0_2, segA,
    segB, segC, segD, segH] <;> ring
theorem h93 (x : Fin 36 → ℝ) : l93 x = Qe x 3 := by
  simp only [l82, l83, l84, l85, l86, l87, l88, l89, l90, l91, l92, l93, Qe_3] <;> ring
theorem h106 (x : Fin 36 → ℝ) : l106 x = Qe x 1 := by
  simp only [l82, l83, l84, l85, l87, l88, l89, l90, l92, l104, l105, l106, Qe_1] <;> ring
theorem h108 (x : Fin 36 → ℝ) : l108 x = Qe x 2 := by
  simp only [l82, l83, l84, l85, l87, l88, l89, l90, l92, l104, l105, l108, Qe_2] <;> ring
theorem h113 (x : Fin 36 → ℝ) : l113 x = Qe x 0 := by
  simp only [l82, l83, l84, l85, l86, l87, l88, l89, l90, l91, l92, l113, Qe_0] <;> ring
theorem h140 (x : Fin 36 → ℝ) : l140 x = vb 0 x 2 := by
  simp only [l49, l51, l53, l55, l57, l62, l115, l116, l117, l118, l119, l120, l121, l122, l123, l124, l125, l126, l127, l128,
    l129, l130, l131, l132, l133, l134, l135, l136, l137, l138, l139, l140, vb, Pi.add_apply, mv_0, mv_1, mv_2, cr_0, cr_1, cr_2, foot, pv_0, pv_1, pv_2, side_0, mountX_0, mountY_0, th_0_0, th_0_1, th_0_2, segA, segB, segC, segD, segH, jac, jm_00, jm_01, jm_02, jm_10, jm_11, jm_12, jm_20, jm_21, jm_22, qd_0_0, qd_0_1, qd_0_2, om_0, om_1, om_2, lv_0, lv_1, lv_2] <;> ring
theorem h163 (x : Fin 36 → ℝ) : l163 x = vb 0 x 1 := by
  simp only [l49, l51, l53, l55, l57, l62, l137, l138, l139, l143, l144, l145, l146, l147, l148, l149, l150, l151, l152, l153,
    l154, l155, l156, l157, l158, l159, l160, l161, l162, l163, vb, Pi.add_apply, mv_0, mv_1, mv_2, cr_0, cr_1, cr_2, foot, pv_0, pv_1, pv_2, side_0, mountX_0, mountY_0, th_0_0, th_0_1, th_0_2, segA, segB, segC, segD, segH, jac, jm_00, jm_01, jm_02, jm_10, jm_11, jm_12, jm_20, jm_21, jm_22, qd_0_0, qd_0_1, qd_0_2, om_0, om_1, om_2, lv_0, lv_1, lv_2] <;> ring
theorem h172 (x : Fin 36 → ℝ) : l172 x = vb 0 x 0 := by
  simp only [l49, l51, l53, l55, l57, l62, l131, l132, l133, l134, l135, l136, l155, l156, l159, l160, l161, l162, l166, l167,
    l168, l169, l170, l171, l172, vb, Pi.add_apply, mv_0, mv_1, mv_2, cr_0, cr_1, cr_2, foot, pv_0, pv_1, pv_2, side_0, mountX_0, mountY_0, th_0_0, th_0_1, th_0_2, segA, segB, segC, segD, segH, jac, jm_00, jm_01, jm_02, jm_10, jm_11, jm_12, jm_20, jm_21, jm_22, qd_0_0, qd_0_1, qd_0_2, om_0, om_1, om_2, lv_0, lv_1, lv_2] <;> ring

theorem e0_0 (x : Fin 36 → ℝ) : l74 x = (dRm (Qe x) (dQ 0 x) *ᵥ foot 0 x) 0 := by
  simp only [l16, l18, l19, l21, l22, l24, l26, l28, l29, l30, l31, l32, l33, l34, l35, l36, l37, l41, l43, l44, l45, l46, l48,
    l60, l61, l69, l70, l74, h27, h40, h42, h47, h59, h68, h73, mv_0, mv_1, mv_2, dRm_00, dRm_01, dRm_02, dRm_10, dRm_11, dRm_12, dRm_20, dRm_21, dRm_22, dQ_0_0, dQ_0_1, dQ_0_2, dQ_0_3] <;> ring
theorem e0_1 (x : Fin 36 → ℝ) : l80 x = (dRm (Qe x) (dQ 0 x) *ᵥ foot 0 x) 1 := by
  simp only [l16, l18, l19, l21, l22, l24, l26, l28, l29, l30, l31, l32, l33, l34, l35, l36, l37, l43, l44, l45, l46, l60, l61,
    l69, l75, l76, l77, l78, l79, l80, h27, h40, h42, h47, h59, h68, h73, mv_0, mv_1, mv_2, dRm_00, dRm_01, dRm_02, dRm_10, dRm_11, dRm_12, dRm_20, dRm_21, dRm_22, dQ_0_0, dQ_0_1, dQ_0_2, dQ_0_3] <;> ring
theorem e0_2 (x : Fin 36 → ℝ) : l81 x = (dRm (Qe x) (dQ 0 x) *ᵥ foot 0 x) 2 := by
  simp only [l16, l18, l19, l21, l22, l24, l26, l28, l29, l30, l31, l32, l33, l34, l35, l36, l37, l41, l43, l44, l45, l46, l48,
    l70, l75, l76, l77, l78, l79, l81, h27, h40, h42, h47, h59, h68, h73, mv_0, mv_1, mv_2, dRm_00, dRm_01, dRm_02, dRm_10, dRm_11, dRm_12, dRm_20, dRm_21, dRm_22, dQ_0_0, dQ_0_1, dQ_0_2, dQ_0_3] <;> ring
theorem e0_3 (x : Fin 36 → ℝ) : l173 x = (dRm (Qe x) (dQ 0 x) *ᵥ vb 0 x) 0 := by
  simp only [l82, l84, l85, l87, l88, l90, l92, l94, l95, l96, l97, l98, l99, l100, l101, l102, l103, l107, l109, l110, l111,
    l112, l114, l141, l142, l164, l165, l173, h93, h106, h108, h113, h140, h163, h172, mv_0, mv_1, mv_2, dRm_00, dRm_01, dRm_02, dRm_10, dRm_11, dRm_12, dRm_20, dRm_21, dRm_22, dQ_0_0, dQ_0_1, dQ_0_2, dQ_0_3] <;> ring
theorem e0_4 (x : Fin 36 → ℝ) : l179 x = (dRm (Qe x) (dQ 0 x) *ᵥ vb 0 x) 1 := by
  simp only [l82, l84, l85, l87, l88, l90, l92, l94, l95, l96, l97, l98, l99, l100, l101, l102, l103, l109, l110, l111, l112,
    l141, l142, l164, l174, l175, l176, l177, l178, l179, h93, h106, h108, h113, h140, h163, h172, mv_0, mv_1, mv_2, dRm_00, dRm_01, dRm_02, dRm_10, dRm_11, dRm_12, dRm_20, dRm_21, dRm_22, dQ_0_0, dQ_0_1, dQ_0_2, dQ_0_3] <;> ring
theorem e0_5 (x : Fin 36 → ℝ) : l180 x = (dRm (Qe x) (dQ 0 x) *ᵥ vb 0 x) 2 := by
  simp only [l82, l84, l85, l87, l88, l90, l92, l94, l95, l96, l97, l98, l99, l100, l101, l102, l103, l107, l109, l110, l111,
    l112, l114, l165, l174, l175, l176, l177, l178, l180, h93, h106, h108, h113, h140, h163, h172, mv_0, mv_1, mv_2, dRm_00, dRm_01, dRm_02, dRm_10, dRm_11, dRm_12, dRm_20, dRm_21, dRm_22, dQ_0_0, dQ_0_1, dQ_0_2, dQ_0_3] <;> ring
theorem e1_0 (x : Fin 36 → ℝ) : l701 x = (dRm (Qe x) (dQ 1 x) *ᵥ foot 0 x) 0 := by
  simp only [l16, l17, l18, l21, l22, l23, l26, l28, l43, l683, l684, l685, l686, l687, l688, l689, l690, l691, l692, l693, l694,
    l695, l696, l697, l698, l699, l700, l701, h27, h40, h42, h47, h59, h68, h73, mv_0, mv_1, mv_2, dRm_00, dRm_01, dRm_02, dRm_10, dRm_11, dRm_12, dRm_20, dRm_21, dRm_22, dQ_1_0, dQ_1_1, dQ_1_2, dQ_1_3] <;> ring
theorem e1_1 (x : Fin 36 → ℝ) : l706 x = (dRm (Qe x) (dQ 1 x) *ᵥ foot 0 x) 1 := by
  simp only [l16, l17, l18, l21, l22, l23, l26, l28, l43, l76, l683, l684, l685, l686, l687, l688, l689, l690, l691, l693, l694,
    l695, l697, l698, l699, l702, l703, l704, l705, l706, h27, h40, h42, h47, h59, h68, h73, mv_0, mv_1, mv_2, dRm_00, dRm_01, dRm_02, dRm_10, dRm_11, dRm_12, dRm_20, dRm_21, dRm_22, dQ_1_0, dQ_1_1, dQ_1_2, dQ_1_3] <;> ring
theorem e1_2 (x : Fin 36 → ℝ) : l707 x = (dRm (Qe x) (dQ 1 x) *ᵥ foot 0 x) 2 := by
  simp only [l16, l17, l18, l21, l22, l23, l26, l28, l43, l76, l683, l684, l685, l686, l687, l688, l689, l690, l691, l692, l693,
    l694, l695, l696, l700, l702, l703, l704, l705, l707, h27, h40, h42, h47, h59, h68, h73, mv_0, mv_1, mv_2, dRm_00, dRm_01, dRm_02, dRm_10, dRm_11, dRm_12, dRm_20, dRm_21, dRm_22, dQ_1_0, dQ_1_1, dQ_1_2, dQ_1_3] <;> ring
theorem e1_3 (x : Fin 36 → ℝ) : l726 x = (dRm (Qe x) (dQ 1 x) *ᵥ vb 0 x) 0 := by
  simp only [l82, l83, l84, l87, l88, l89, l92, l94, l109, l708, l709, l710, l711, l712, l713, l714, l715, l716, l717, l718,
    l719, l720, l721, l722, l723, l724, l725, l726, h93, h106, h108, h113, h140, h163, h172, mv_0, mv_1, mv_2, dRm_00, dRm_01, dRm_02, dRm_10, dRm_11, dRm_12, dRm_20, dRm_21, dRm_22, dQ_1_0, dQ_1_1, dQ_1_2, dQ_1_3] <;> ring
theorem e1_4 (x : Fin 36 → ℝ) : l731 x = (dRm (Qe x) (dQ 1 x) *ᵥ vb 0 x) 1 := by
  simp only [l82, l83, l84, l87, l88, l89, l92, l94, l109, l175, l708, l709, l710, l711, l712, l713, l714, l715, l716, l718,
    l719, l720, l722, l723, l724, l727, l728, l729, l730, l731, h93, h106, h108, h113, h140, h163, h172, mv_0, mv_1, mv_2, dRm_00, dRm_01, dRm_02, dRm_10, dRm_11, dRm_12, dRm_20, dRm_21, dRm_22, dQ_1_0, dQ_1_1, dQ_1_2, dQ_1_3] <;> ring
theorem e1_5 (x : Fin 36 → ℝ) : l732 x = (dRm (Qe x) (dQ 1 x) *ᵥ vb 0 x) 2 := by
  simp only [l82, l83, l84, l87, l88, l89, l92, l94, l109, l175, l708, l709, l710, l711, l712, l713, l714, l715, l716, l717,
    l718, l719, l720, l721, l725, l727, l728, l729, l730, l732, h93, h106, h108, h113, h140, h163, h172, mv_0, mv_1, mv_2, dRm_00, dRm_01, dRm_02, dRm_10, dRm_11, dRm_12, dRm_20, dRm_21, dRm_22, dQ_1_0, dQ_1_1, dQ_1_2, dQ_1_3] <;> ring
theorem e2_0 (x : Fin 36 → ℝ) : l897 x = (dRm (Qe x) (dQ 2 x) *ᵥ foot 0 x) 0 := by
  simp only [l16, l17, l18, l19, l20, l21, l23, l24, l25, l28, l38, l39, l43, l883, l884, l885, l886, l887, l888, l889, l890,
    l891, l892, l893, l894, l895, l896, l897, h27, h40, h42, h47, h59, h68, h73, mv_0, mv_1, mv_2, dRm_00, dRm_01, dRm_02, dRm_10, dRm_11, dRm_12, dRm_20, dRm_21, dRm_22, dQ_2_0, dQ_2_1, dQ_2_2, dQ_2_3] <;> ring
theorem e2_1 (x : Fin 36 → ℝ) : l902 x = (dRm (Qe x) (dQ 2 x) *ᵥ foot 0 x) 1 := by
  simp only [l16, l17, l18, l19, l20, l21, l23, l24, l25, l28, l38, l39, l43, l76, l883, l884, l885, l886, l887, l889, l890,
    l891, l893, l894, l895, l898, l899, l900, l901, l902, h27, h40, h42, h47, h59, h68, h73, mv_0, mv_1, mv_2, dRm_00, dRm_01, dRm_02, dRm_10, dRm_11, dRm_12, dRm_20, dRm_21, dRm_22, dQ_2_0, dQ_2_1, dQ_2_2, dQ_2_3] <;> ring
theorem e2_2 (x : Fin 36 → ℝ) : l903 x = (dRm (Qe x) (dQ 2 x) *ᵥ foot 0 x) 2 := by
  simp only [l16, l17, l18, l19, l20, l21, l23, l24, l25, l28, l38, l39, l43, l76, l883, l884, l885, l886, l887, l888, l889,
    l890, l891, l892, l896, l898, l899, l900, l901, l903, h27, h40, h42, h47, h59, h68, h73, mv_0, mv_1, mv_2, dRm_00, dRm_01, dRm_02, dRm_10, dRm_11, dRm_12, dRm_20, dRm_21, dRm_22, dQ_2_0, dQ_2_1, dQ_2_2, dQ_2_3] <;> ring
theorem e2_3 (x : Fin 36 → ℝ) : l918 x = (dRm (Qe x) (dQ 2 x) *ᵥ vb 0 x) 0 := by
  simp only [l82, l83, l84, l85, l86, l87, l89, l90, l91, l94, l104, l105, l109, l904, l905, l906, l907, l908, l909, l910, l911,
    l912, l913, l914, l915, l916, l917, l918, h93, h106, h108, h113, h140, h163, h172, mv_0, mv_1, mv_2, dRm_00, dRm_01, dRm_02, dRm_10, dRm_11, dRm_12, dRm_20, dRm_21, dRm_22, dQ_2_0, dQ_2_1, dQ_2_2, dQ_2_3] <;> ring
theorem e2_4 (x : Fin 36 → ℝ) : l923 x = (dRm (Qe x) (dQ 2 x) *ᵥ vb 0 x) 1 := by
  simp only [l82, l83, l84, l85, l86, l87, l89, l90, l91, l94, l104, l105, l109, l175, l904, l905, l906, l907, l908, l910, l911,
    l912, l914, l915, l916, l919, l920, l921, l922, l923, h93, h106, h108, h113, h140, h163, h172, mv_0, mv_1, mv_2, dRm_00, dRm_01, dRm_02, dRm_10, dRm_11, dRm_12, dRm_20, dRm_21, dRm_22, dQ_2_0, dQ_2_1, dQ_2_2, dQ_2_3] <;> ring
theorem e2_5 (x : Fin 36 → ℝ) : l924 x = (dRm (Qe x) (dQ 2 x) *ᵥ vb 0 x) 2 := by
  simp only [l82, l83, l84, l85, l86, l87, l89, l90, l91, l94, l104, l105, l109, l175, l904, l905, l906, l907, l908, l909, l910,
    l911, l912, l913, l917, l919, l920, l921, l922, l924, h93, h106, h108, h113, h140, h163, h172, mv_0, mv_1, mv_2, dRm_00, dRm_01, dRm_02, dRm_10, dRm_11, dRm_12, dRm_20, dRm_21, dRm_22, dQ_2_0, dQ_2_1, dQ_2_2, dQ_2_3] <;> ring
theorem e3_0 (x : Fin 36 → ℝ) : l1487 x = ((Pi.single 0 1 : V3)) 0 := by simp [l1487]
theorem e3_1 (_x : Fin 36 → ℝ) : (0 : ℝ) = ((Pi.single 0 1 : V3)) 1 := by simp [Pi.zero_apply]
theorem e3_2 (_x : Fin 36 → ℝ) : (0 : ℝ) = ((Pi.single 0 1 : V3)) 2 := by simp [Pi.zero_apply]
theorem e3_3 (_x : Fin 36 → ℝ) : (0 : ℝ) = ((0 : V3)) 0 := by simp [Pi.zero_apply]
theorem e3_4 (_x : Fin 36 → ℝ) : (0 : ℝ) = ((0 : V3)) 1 := by simp [Pi.zero_apply]
theorem e3_5 (_x : Fin 36 → ℝ) : (0 : ℝ) = ((0 : V3)) 2 := by simp [Pi.zero_apply]
theorem e4_0 (_x : Fin 36 → ℝ) : (0 : ℝ) = ((Pi.single 1 1 : V3)) 0 := by simp [Pi.zero_apply]
theorem e4_1 (x : Fin 36 → ℝ) : l1491 x = ((Pi.single 1 1 : V3)) 1 := by simp [l1491]
theorem e4_2 (_x : Fin 36 → ℝ) : (0 : ℝ) = ((Pi.single 1 1 : V3)) 2 := by simp [Pi.zero_apply]
theorem e4_3 (_x : Fin 36 → ℝ) : (0 : ℝ) = ((0 : V3)) 0 := by simp [Pi.zero_apply]
theorem e4_4 (_x : Fin 36 → ℝ) : (0 : ℝ) = ((0 : V3)) 1 := by simp [Pi.zero_apply]
theorem e4_5 (_x : Fin 36 → ℝ) : (0 : ℝ) = ((0 : V3)) 2 := by simp [Pi.zero_apply]
theorem e5_0 (_x : Fin 36 → ℝ) : (0 : ℝ) = ((Pi.single 2 1 : V3)) 0 := by simp [Pi.zero_apply]
theorem e5_1 (_x : Fin 36 → ℝ) : (0 : ℝ) = ((Pi.single 2 1 : V3)) 1 := by simp [Pi.zero_apply]
theorem e5_2 (x : Fin 36 → ℝ) : l1495 x = ((Pi.single 2 1 : V3)) 2 := by simp [l1495]
theorem e5_3 (_x : Fin 36 → ℝ) : (0 : ℝ) = ((0 : V3)) 0 := by simp [Pi.zero_apply]
theorem e5_4 (_x : Fin 36 → ℝ) : (0 : ℝ) = ((0 : V3)) 1 := by simp [Pi.zero_apply]
theorem e5_5 (_x : Fin 36 → ℝ) : (0 : ℝ) = ((0 : V3)) 2 := by simp [Pi.zero_apply]
theorem e6_0 (x : Fin 36 → ℝ) : l1061 x = (quatMatrix (Qe x) *ᵥ jcol 0 0 x) 0 := by
  simp only [l28, l43, l51, l53, l55, l57, l1051, l1052, l1053, l1054, l1055, l1056, l1057, l1058, l1059, l1060, l1061, h27, h40,
    h42, h47, mv_0, mv_1, mv_2, qm_00, qm_01, qm_02, qm_10, qm_11, qm_12, qm_20, qm_21, qm_22, jcol, jac, jm_00, jm_01, jm_02, jm_10, jm_11, jm_12, jm_20, jm_21, jm_22, side_0, th_0_0, th_0_1, th_0_2, segA, segB, segC, segD, segH, Pi.add_apply, cr_0, cr_1, cr_2, djm_0_00, djm_0_01, djm_0_02, djm_0_10, djm_0_11, djm_0_12, djm_0_20, djm_0_21, djm_0_22, qd_0_0, qd_0_1, qd_0_2, om_0, om_1, om_2] <;> ring
theorem e6_1 (x : Fin 36 → ℝ) : l1068 x = (quatMatrix (Qe x) *ᵥ jcol 0 0 x) 1 := by
  simp only [l28, l51, l53, l55, l57, l76, l1054, l1055, l1059, l1060, l1062, l1063, l1064, l1065, l1066, l1067, l1068, h27, h40,
    h42, h47, mv_0, mv_1, mv_2, qm_00, qm_01, qm_02, qm_10, qm_11, qm_12, qm_20, qm_21, qm_22, jcol, jac, jm_00, jm_01, jm_02, jm_10, jm_11, jm_12, jm_20, jm_21, jm_22, side_0, th_0_0, th_0_1, th_0_2, segA, segB, segC, segD, segH, Pi.add_apply, cr_0, cr_1, cr_2, djm_0_00, djm_0_01, djm_0_02, djm_0_10, djm_0_11, djm_0_12, djm_0_20, djm_0_21, djm_0_22, qd_0_0, qd_0_1, qd_0_2, om_0, om_1, om_2] <;> ring
theorem e6_2 (x : Fin 36 → ℝ) : l1072 x = (quatMatrix (Qe x) *ᵥ jcol 0 0 x) 2 := by
  simp only [l28, l43, l51, l53, l55, l57, l76, l1054, l1055, l1059, l1060, l1062, l1063, l1066, l1069, l1070, l1071, l1072, h27,
    h40, h42, h47, mv_0, mv_1, mv_2, qm_00, qm_01, qm_02, qm_10, qm_11, qm_12, qm_20, qm_21, qm_22, jcol, jac, jm_00, jm_01, jm_02, jm_10, jm_11, jm_12, jm_20, jm_21, jm_22, side_0, th_0_0, th_0_1, th_0_2, segA, segB, segC, segD, segH, Pi.add_apply, cr_0, cr_1, cr_2, djm_0_00, djm_0_01, djm_0_02, djm_0_10, djm_0_11, djm_0_12, djm_0_20, djm_0_21, djm_0_22, qd_0_0, qd_0_1, qd_0_2, om_0, om_1, om_2] <;> ring
theorem e6_3 (x : Fin 36 → ℝ) : l1095 x = (quatMatrix (Qe x) *ᵥ (djm (side 0) 0 (th 0 x) *ᵥ qd 0 x + cross (om x) (jcol 0 0 x))) 0 := by
  simp only [l51, l53, l55, l57, l94, l109, l1054, l1059, l1073, l1074, l1075, l1077, l1078, l1079, l1080, l1081, l1082, l1085,
    l1086, l1087, l1088, l1089, l1090, l1091, l1094, l1095, h93, h106, h108, h113, mv_0, mv_1, mv_2, qm_00, qm_01, qm_02, qm_10, qm_11, qm_12, qm_20, qm_21, qm_22, jcol, jac, jm_00, jm_01, jm_02, jm_10, jm_11, jm_12, jm_20, jm_21, jm_22, side_0, th_0_0, th_0_1, th_0_2, segA, segB, segC, segD, segH, Pi.add_apply, cr_0, cr_1, cr_2, djm_0_00, djm_0_01, djm_0_02, djm_0_10, djm_0_11, djm_0_12, djm_0_20, djm_0_21, djm_0_22, qd_0_0, qd_0_1, qd_0_2, om_0, om_1, om_2] <;> ring
theorem e6_4 (x : Fin 36 → ℝ) : l1102 x = (quatMatrix (Qe x) *ᵥ (djm (side 0) 0 (th 0 x) *ᵥ qd 0 x + cross (om x) (jcol 0 0 x))) 1 := by
  simp only [l51, l53, l55, l57, l94, l109, l175, l1054, l1059, l1077, l1078, l1079, l1080, l1081, l1083, l1085, l1086, l1087,
    l1088, l1089, l1094, l1096, l1097, l1098, l1100, l1101, l1102, h93, h106, h108, h113, mv_0, mv_1, mv_2, qm_00, qm_01, qm_02, qm_10, qm_11, qm_12, qm_20, qm_21, qm_22, jcol, jac, jm_00, jm_01, jm_02, jm_10, jm_11, jm_12, jm_20, jm_21, jm_22, side_0, th_0_0, th_0_1, th_0_2, segA, segB, segC, segD, segH, Pi.add_apply, cr_0, cr_1, cr_2, djm_0_00, djm_0_01, djm_0_02, djm_0_10, djm_0_11, djm_0_12, djm_0_20, djm_0_21, djm_0_22, qd_0_0, qd_0_1, qd_0_2, om_0, om_1, om_2] <;> ring
theorem e6_5 (x : Fin 36 → ℝ) : l1104 x = (quatMatrix (Qe x) *ᵥ (djm (side 0) 0 (th 0 x) *ᵥ qd 0 x + cross (om x) (jcol 0 0 x))) 2 := by
  simp only [l51, l53, l55, l57, l94, l109, l175, l1054, l1059, l1073, l1074, l1076, l1077, l1078, l1079, l1085, l1086, l1087,
    l1088, l1090, l1094, l1096, l1097, l1099, l1100, l1103, l1104, h93, h106, h108, h113, mv_0, mv_1, mv_2, qm_00, qm_01, qm_02, qm_10, qm_11, qm_12, qm_20, qm_21, qm_22, jcol, jac, jm_00, jm_01, jm_02, jm_10, jm_11, jm_12, jm_20, jm_21, jm_22, side_0, th_0_0, th_0_1, th_0_2, segA, segB, segC, segD, segH, Pi.add_apply, cr_0, cr_1, cr_2, djm_0_00, djm_0_01, djm_0_02, djm_0_10, djm_0_11, djm_0_12, djm_0_20, djm_0_21, djm_0_22, qd_0_0, qd_0_1, qd_0_2, om_0, om_1, om_2] <;> ring
theorem e7_0 (x : Fin 36 → ℝ) : l1117 x = (quatMatrix (Qe x) *ᵥ jcol 0 1 x) 0 := by
  simp only [l28, l43, l49, l50, l53, l54, l57, l58, l62, l63, l65, l67, l1051, l1052, l1053, l1056, l1057, l1058, l1065, l1069,
    l1111, l1112, l1113, l1114, l1115, l1116, l1117, h27, h40, h42, h47, mv_0, mv_1, mv_2, qm_00, qm_01, qm_02, qm_10, qm_11, qm_12, qm_20, qm_21, qm_22, jcol, jac, jm_00, jm_01, jm_02, jm_10, jm_11, jm_12, jm_20, jm_21, jm_22, side_0, th_0_0, th_0_1, th_0_2, segA, segB, segC, segD, segH, Pi.add_apply, cr_0, cr_1, cr_2, djm_1_00, djm_1_01, djm_1_02, djm_1_10, djm_1_11, djm_1_12, djm_1_20, djm_1_21, djm_1_22, qd_0_0, qd_0_1, qd_0_2, om_0, om_1, om_2] <;> ring
theorem e7_1 (x : Fin 36 → ℝ) : l1119 x = (quatMatrix (Qe x) *ᵥ jcol 0 1 x) 1 := by
  simp only [l28, l43, l49, l50, l53, l54, l57, l58, l62, l63, l65, l67, l76, l1056, l1057, l1062, l1063, l1064, l1065, l1066,
    l1067, l1111, l1112, l1113, l1114, l1116, l1118, l1119, h27, h40, h42, h47, mv_0, mv_1, mv_2, qm_00, qm_01, qm_02, qm_10, qm_11, qm_12, qm_20, qm_21, qm_22, jcol, jac, jm_00, jm_01, jm_02, jm_10, jm_11, jm_12, jm_20, jm_21, jm_22, side_0, th_0_0, th_0_1, th_0_2, segA, segB, segC, segD, segH, Pi.add_apply, cr_0, cr_1, cr_2, djm_1_00, djm_1_01, djm_1_02, djm_1_10, djm_1_11, djm_1_12, djm_1_20, djm_1_21, djm_1_22, qd_0_0, qd_0_1, qd_0_2, om_0, om_1, om_2] <;> ring
theorem e7_2 (x : Fin 36 → ℝ) : l1121 x = (quatMatrix (Qe x) *ᵥ jcol 0 1 x) 2 := by
  simp only [l28, l43, l49, l50, l53, l54, l57, l58, l62, l63, l65, l67, l76, l1051, l1052, l1062, l1063, l1066, l1069, l1070,
    l1071, l1111, l1112, l1113, l1114, l1116, l1120, l1121, h27, h40, h42, h47, mv_0, mv_1, mv_2, qm_00, qm_01, qm_02, qm_10, qm_11, qm_12, qm_20, qm_21, qm_22, jcol, jac, jm_00, jm_01, jm_02, jm_10, jm_11, jm_12, jm_20, jm_21, jm_22, side_0, th_0_0, th_0_1, th_0_2, segA, segB, segC, segD, segH, Pi.add_apply, cr_0, cr_1, cr_2, djm_1_00, djm_1_01, djm_1_02, djm_1_10, djm_1_11, djm_1_12, djm_1_20, djm_1_21, djm_1_22, qd_0_0, qd_0_1, qd_0_2, om_0, om_1, om_2] <;> ring
theorem e7_3 (x : Fin 36 → ℝ) : l1129 x = (quatMatrix (Qe x) *ᵥ (djm (side 0) 1 (th 0 x) *ᵥ qd 0 x + cross (om x) (jcol 0 1 x))) 0 := by
  simp only [l49, l53, l57, l62, l94, l109, l115, l117, l121, l123, l125, l127, l129, l131, l133, l135, l143, l145, l149, l151,
    l153, l155, l157, l159, l161, l1073, l1074, l1075, l1080, l1081, l1082, l1089, l1090, l1091, l1111, l1112, l1122, l1123, l1124, l1125, l1126, l1127, l1128, l1129, h93, h106, h108, h113, mv_0, mv_1, mv_2, qm_00, qm_01, qm_02, qm_10, qm_11, qm_12, qm_20, qm_21, qm_22, jcol, jac, jm_00, jm_01, jm_02, jm_10, jm_11, jm_12, jm_20, jm_21, jm_22, side_0, th_0_0, th_0_1, th_0_2, segA, segB, segC, segD, segH, Pi.add_apply, cr_0, cr_1, cr_2, djm_1_00, djm_1_01, djm_1_02, djm_1_10, djm_1_11, djm_1_12, djm_1_20, djm_1_21, djm_1_22, qd_0_0, qd_0_1, qd_0_2, om_0, om_1, om_2] <;> ring
theorem e7_4 (x : Fin 36 → ℝ) : l1130 x = (quatMatrix (Qe x) *ᵥ (djm (side 0) 1 (th 0 x) *ᵥ qd 0 x + cross (om x) (jcol 0 1 x))) 1 := by
  simp only [l49, l53, l57, l62, l94, l109, l115, l117, l121, l123, l125, l127, l129, l131, l133, l135, l143, l145, l149, l151,
    l153, l155, l157, l159, l161, l175, l1080, l1081, l1083, l1089, l1096, l1097, l1098, l1100, l1101, l1111, l1112, l1122, l1123, l1124, l1125, l1126, l1127, l1128, l1130, h93, h106, h108, h113, mv_0, mv_1, mv_2, qm_00, qm_01, qm_02, qm_10, qm_11, qm_12, qm_20, qm_21, qm_22, jcol, jac, jm_00, jm_01, jm_02, jm_10, jm_11, jm_12, jm_20, jm_21, jm_22, side_0, th_0_0, th_0_1, th_0_2, segA, segB, segC, segD, segH, Pi.add_apply, cr_0, cr_1, cr_2, djm_1_00, djm_1_01, djm_1_02, djm_1_10, djm_1_11, djm_1_12, djm_1_20, djm_1_21, djm_1_22, qd_0_0, qd_0_1, qd_0_2, om_0, om_1, om_2] <;> ring
theorem e7_5 (x : Fin 36 → ℝ) : l1131 x = (quatMatrix (Qe x) *ᵥ (djm (side 0) 1 (th 0 x) *ᵥ qd 0 x + cross (om x) (jcol 0 1 x))) 2 := by
  simp only [l49, l53, l57, l62, l94, l109, l115, l117, l121, l123, l125, l127, l129, l131, l133, l135, l143, l145, l149, l151,
    l153, l155, l157, l159, l161, l175, l1073, l1074, l1076, l1090, l1096, l1097, l1099, l1100, l1103, l1111, l1112, l1122, l1123, l1124, l1125, l1126, l1127, l1128, l1131, h93, h106, h108, h113, mv_0, mv_1, mv_2, qm_00, qm_01, qm_02, qm_10, qm_11, qm_12, qm_20, qm_21, qm_22, jcol, jac, jm_00, jm_01, jm_02, jm_10, jm_11, jm_12, jm_20, jm_21, jm_22, side_0, th_0_0, th_0_1, th_0_2, segA, segB, segC, segD, segH, Pi.add_apply, cr_0, cr_1, cr_2, djm_1_00, djm_1_01, djm_1_02, djm_1_10, djm_1_11, djm_1_12, djm_1_20, djm_1_21, djm_1_22, qd_0_0, qd_0_1, qd_0_2, om_0, om_1, om_2] <;> ring
theorem e8_0 (x : Fin 36 → ℝ) : l1137 x = (quatMatrix (Qe x) *ᵥ jcol 0 2 x) 0 := by
  simp only [l28, l43, l49, l50, l51, l52, l54, l55, l56, l62, l63, l64, l65, l66, l71, l72, l1051, l1052, l1053, l1056, l1057,
    l1058, l1065, l1069, l1115, l1132, l1133, l1134, l1135, l1136, l1137, h27, h40, h42, h47, mv_0, mv_1, mv_2, qm_00, qm_01, qm_02, qm_10, qm_11, qm_12, qm_20, qm_21, qm_22, jcol, jac, jm_00, jm_01, jm_02, jm_10, jm_11, jm_12, jm_20, jm_21, jm_22, side_0, th_0_0, th_0_1, th_0_2, segA, segB, segC, segD, segH, Pi.add_apply, cr_0, cr_1, cr_2, djm_2_00, djm_2_01, djm_2_02, djm_2_10, djm_2_11, djm_2_12, djm_2_20, djm_2_21, djm_2_22, qd_0_0, qd_0_1, qd_0_2, om_0, om_1, om_2] <;> ring
theorem e8_1 (x : Fin 36 → ℝ) : l1138 x = (quatMatrix (Qe x) *ᵥ jcol 0 2 x) 1 := by
  simp only [l28, l43, l49, l50, l51, l52, l54, l55, l56, l62, l63, l64, l65, l66, l71, l72, l76, l1056, l1057, l1062, l1063,
    l1064, l1065, l1066, l1067, l1118, l1132, l1133, l1134, l1135, l1136, l1138, h27, h40, h42, h47, mv_0, mv_1, mv_2, qm_00, qm_01, qm_02, qm_10, qm_11, qm_12, qm_20, qm_21, qm_22, jcol, jac, jm_00, jm_01, jm_02, jm_10, jm_11, jm_12, jm_20, jm_21, jm_22, side_0, th_0_0, th_0_1, th_0_2, segA, segB, segC, segD, segH, Pi.add_apply, cr_0, cr_1, cr_2, djm_2_00, djm_2_01, djm_2_02, djm_2_10, djm_2_11, djm_2_12, djm_2_20, djm_2_21, djm_2_22, qd_0_0, qd_0_1, qd_0_2, om_0, om_1, om_2] <;> ring
theorem e8_2 (x : Fin 36 → ℝ) : l1139 x = (quatMatrix (Qe x) *ᵥ jcol 0 2 x) 2 := by
  simp only [l28, l43, l49, l50, l51, l52, l54, l55, l56, l62, l63, l64, l65, l66, l71, l72, l76, l1051, l1052, l1062, l1063,
    l1066, l1069, l1070, l1071, l1120, l1132, l1133, l1134, l1135, l1136, l1139, h27, h40, h42, h47, mv_0, mv_1, mv_2, qm_00, qm_01, qm_02, qm_10, qm_11, qm_12, qm_20, qm_21, qm_22, jcol, jac, jm_00, jm_01, jm_02, jm_10, jm_11, jm_12, jm_20, jm_21, jm_22, side_0, th_0_0, th_0_1, th_0_2, segA, segB, segC, segD, segH, Pi.add_apply, cr_0, cr_1, cr_2, djm_2_00, djm_2_01, djm_2_02, djm_2_10, djm_2_11, djm_2_12, djm_2_20, djm_2_21, djm_2_22, qd_0_0, qd_0_1, qd_0_2, om_0, om_1, om_2] <;> ring
theorem e8_3 (x : Fin 36 → ℝ) : l1146 x = (quatMatrix (Qe x) *ᵥ (djm (side 0) 2 (th 0 x) *ᵥ qd 0 x + cross (om x) (jcol 0 2 x))) 0 := by
  simp only [l49, l51, l55, l62, l94, l109, l115, l116, l117, l118, l120, l121, l122, l125, l126, l127, l128, l131, l132, l133,
    l134, l137, l138, l143, l144, l145, l146, l148, l149, l150, l153, l154, l155, l156, l159, l160, l166, l167, l169, l170, l1073, l1074, l1075, l1080, l1081, l1082, l1089, l1090, l1091, l1132, l1133, l1140, l1141, l1142, l1143, l1144, l1145, l1146, h93, h106, h108, h113, mv_0, mv_1, mv_2, qm_00, qm_01, qm_02, qm_10, qm_11, qm_12, qm_20, qm_21, qm_22, jcol, jac, jm_00, jm_01, jm_02, jm_10, jm_11, jm_12, jm_20, jm_21, jm_22, side_0, th_0_0, th_0_1, th_0_2, segA, segB, segC, segD, segH, Pi.add_apply, cr_0, cr_1, cr_2, djm_2_00, djm_2_01, djm_2_02, djm_2_10, djm_2_11, djm_2_12, djm_2_20, djm_2_21, djm_2_22, qd_0_0, qd_0_1, qd_0_2, om_0, om_1, om_2] <;> ring
theorem e8_4 (x : Fin 36 → ℝ) : l1147 x = (quatMatrix (Qe x) *ᵥ (djm (side 0) 2 (th 0 x) *ᵥ qd 0 x + cross (om x) (jcol 0 2 x))) 1 := by
  simp only [l49, l51, l55, l62, l94, l109, l115, l116, l117, l118, l120, l121, l122, l125, l126, l127, l128, l131, l132, l133,
    l134, l137, l138, l143, l144, l145, l146, l148, l149, l150, l153, l154, l155, l156, l159, l160, l166, l167, l169, l170, l175, l1080, l1081, l1083, l1089, l1096, l1097, l1098, l1100, l1101, l1132, l1133, l1140, l1141, l1142, l1143, l1144, l1145, l1147, h93, h106, h108, h113, mv_0, mv_1, mv_2, qm_00, qm_01, qm_02, qm_10, qm_11, qm_12, qm_20, qm_21, qm_22, jcol, jac, jm_00, jm_01, jm_02, jm_10, jm_11, jm_12, jm_20, jm_21, jm_22, side_0, th_0_0, th_0_1, th_0_2, segA, segB, segC, segD, segH, Pi.add_apply, cr_0, cr_1, cr_2, djm_2_00, djm_2_01, djm_2_02, djm_2_10, djm_2_11, djm_2_12, djm_2_20, djm_2_21, djm_2_22, qd_0_0, qd_0_1, qd_0_2, om_0, om_1, om_2] <;> ring
theorem e8_5 (x : Fin 36 → ℝ) : l1148 x = (quatMatrix (Qe x) *ᵥ (djm (side 0) 2 (th 0 x) *ᵥ qd 0 x + cross (om x) (jcol 0 2 x))) 2 := by
  simp only [l49, l51, l55, l62, l94, l109, l115, l116, l117, l118, l120, l121, l122, l125, l126, l127, l128, l131, l132, l133,
    l134, l137, l138, l143, l144, l145, l146, l148, l149, l150, l153, l154, l155, l156, l159, l160, l166, l167, l169, l170, l175, l1073, l1074, l1076, l1090, l1096, l1097, l1099, l1100, l1103, l1132, l1133, l1140, l1141, l1142, l1143, l1144, l1145, l1148, h93, h106, h108, h113, mv_0, mv_1, mv_2, qm_00, qm_01, qm_02, qm_10, qm_11, qm_12, qm_20, qm_21, qm_22, jcol, jac, jm_00, jm_01, jm_02, jm_10, jm_11, jm_12, jm_20, jm_21, jm_22, side_0, th_0_0, th_0_1, th_0_2, segA, segB, segC, segD, segH, Pi.add_apply, cr_0, cr_1, cr_2, djm_2_00, djm_2_01, djm_2_02, djm_2_10, djm_2_11, djm_2_12, djm_2_20, djm_2_21, djm_2_22, qd_0_0, qd_0_1, qd_0_2, om_0, om_1, om_2] <;> ring
theorem e9_0 (_x : Fin 36 → ℝ) : (0 : ℝ) = ((0 : V3)) 0 := by simp [Pi.zero_apply]
theorem e9_1 (_x : Fin 36 → ℝ) : (0 : ℝ) = ((0 : V3)) 1 := by simp [Pi.zero_apply]
theorem e9_2 (_x : Fin 36 → ℝ) : (0 : ℝ) = ((0 : V3)) 2 := by simp [Pi.zero_apply]
theorem e9_3 (_x : Fin 36 → ℝ) : (0 : ℝ) = ((0 : V3)) 0 := by simp [Pi.zero_apply]
theorem e9_4 (_x : Fin 36 → ℝ) : (0 : ℝ) = ((0 : V3)) 1 := by simp [Pi.zero_apply]
theorem e9_5 (_x : Fin 36 → ℝ) : (0 : ℝ) = ((0 : V3)) 2 := by simp [Pi.zero_apply]
theorem e10_0 (_x : Fin 36 → ℝ) : (0 : ℝ) = ((0 : V3)) 0 := by simp [Pi.zero_apply]
theorem e10_1 (_x : Fin 36 → ℝ) : (0 : ℝ) = ((0 : V3)) 1 := by simp [Pi.zero_apply]
theorem e10_2 (_x : Fin 36 → ℝ) : (0 : ℝ) = ((0 : V3)) 2 := by simp [Pi.zero_apply]
theorem e10_3 (_x : Fin 36 → ℝ) : (0 : ℝ) = ((0 : V3)) 0 := by simp [Pi.zero_apply]
theorem e10_4 (_x : Fin 36 → ℝ) : (0 : ℝ) = ((0 : V3)) 1 := by simp [Pi.zero_apply]
theorem e10_5 (_x : Fin 36 → ℝ) : (0 : ℝ) = ((0 : V3)) 2 := by simp [Pi.zero_apply]
theorem e11_0 (_x : Fin 36 → ℝ) : (0 : ℝ) = ((0 : V3)) 0 := by simp [Pi.zero_apply]
theorem e11_1 (_x : Fin 36 → ℝ) : (0 : ℝ) = ((0 : V3)) 1 := by simp [Pi.zero_apply]
theorem e11_2 (_x : Fin 36 → ℝ) : (0 : ℝ) = ((0 : V3)) 2 := by simp [Pi.zero_apply]
theorem e11_3 (_x : Fin 36 → ℝ) : (0 : ℝ) = ((0 : V3)) 0 := by simp [Pi.zero_apply]
theorem e11_4 (_x : Fin 36 → ℝ) : (0 : ℝ) = ((0 : V3)) 1 := by simp [Pi.zero_apply]
theorem e11_5 (_x : Fin 36 → ℝ) : (0 : ℝ) = ((0 : V3)) 2 := by simp [Pi.zero_apply]
theorem e12_0 (_x : Fin 36 → ℝ) : (0 : ℝ) = ((0 : V3)) 0 := by simp [Pi.zero_apply]
theorem e12_1 (_x : Fin 36 → ℝ) : (0 : ℝ) = ((0 : V3)) 1 := by simp [Pi.zero_apply]
theorem e12_2 (_x : Fin 36 → ℝ) : (0 : ℝ) = ((0 : V3)) 2 := by simp [Pi.zero_apply]
theorem e12_3 (_x : Fin 36 → ℝ) : (0 : ℝ) = ((0 : V3)) 0 := by simp [Pi.zero_apply]
theorem e12_4 (_x : Fin 36 → ℝ) : (0 : ℝ) = ((0 : V3)) 1 := by simp [Pi.zero_apply]
theorem e12_5 (_x : Fin 36 → ℝ) : (0 : ℝ) = ((0 : V3)) 2 := by simp [Pi.zero_apply]
theorem e13_0 (_x : Fin 36 → ℝ) : (0 : ℝ) = ((0 : V3)) 0 := by simp [Pi.zero_apply]
theorem e13_1 (_x : Fin 36 → ℝ) : (0 : ℝ) = ((0 : V3)) 1 := by simp [Pi.zero_apply]
theorem e13_2 (_x : Fin 36 → ℝ) : (0 : ℝ) = ((0 : V3)) 2 := by simp [Pi.zero_apply]
theorem e13_3 (_x : Fin 36 → ℝ) : (0 : ℝ) = ((0 : V3)) 0 := by simp [Pi.zero_apply]
theorem e13_4 (_x : Fin 36 → ℝ) : (0 : ℝ) = ((0 : V3)) 1 := by simp [Pi.zero_apply]
theorem e13_5 (_x : Fin 36 → ℝ) : (0 : ℝ) = ((0 : V3)) 2 := by simp [Pi.zero_apply]
theorem e14_0 (_x : Fin 36 → ℝ) : (0 : ℝ) = ((0 : V3)) 0 := by simp [Pi.zero_apply]
theorem e14_1 (_x : Fin 36 → ℝ) : (0 : ℝ) = ((0 : V3)) 1 := by simp [Pi.zero_apply]
theorem e14_2 (_x : Fin 36 → ℝ) : (0 : ℝ) = ((0 : V3)) 2 := by simp [Pi.zero_apply]
theorem e14_3 (_x : Fin 36 → ℝ) : (0 : ℝ) = ((0 : V3)) 0 := by simp [Pi.zero_apply]
theorem e14_4 (_x : Fin 36 → ℝ) : (0 : ℝ) = ((0 : V3)) 1 := by simp [Pi.zero_apply]
theorem e14_5 (_x : Fin 36 → ℝ) : (0 : ℝ) = ((0 : V3)) 2 := by simp [Pi.zero_apply]
theorem e15_0 (_x : Fin 36 → ℝ) : (0 : ℝ) = ((0 : V3)) 0 := by simp [Pi.zero_apply]
theorem e15_1 (_x : Fin 36 → ℝ) : (0 : ℝ) = ((0 : V3)) 1 := by simp [Pi.zero_apply]
theorem e15_2 (_x : Fin 36 → ℝ) : (0 : ℝ) = ((0 : V3)) 2 := by simp [Pi.zero_apply]
theorem e15_3 (_x : Fin 36 → ℝ) : (0 : ℝ) = ((0 : V3)) 0 := by simp [Pi.zero_apply]
theorem e15_4 (_x : Fin 36 → ℝ) : (0 : ℝ) = ((0 : V3)) 1 := by simp [Pi.zero_apply]
theorem e15_5 (_x : Fin 36 → ℝ) : (0 : ℝ) = ((0 : V3)) 2 := by simp [Pi.zero_apply]
theorem e16_0 (_x : Fin 36 → ℝ) : (0 : ℝ) = ((0 : V3)) 0 := by simp [Pi.zero_apply]
theorem e16_1 (_x : Fin 36 → ℝ) : (0 : ℝ) = ((0 : V3)) 1 := by simp [Pi.zero_apply]
theorem e16_2 (_x : Fin 36 → ℝ) : (0 : ℝ) = ((0 : V3)) 2 := by simp [Pi.zero_apply]
theorem e16_3 (_x : Fin 36 → ℝ) : (0 : ℝ) = ((0 : V3)) 0 := by simp [Pi.zero_apply]
theorem e16_4 (_x : Fin 36 → ℝ) : (0 : ℝ) = ((0 : V3)) 1 := by simp [Pi.zero_apply]
theorem e16_5 (_x : Fin 36 → ℝ) : (0 : ℝ) = ((0 : V3)) 2 := by simp [Pi.zero_apply]
theorem e17_0 (_x : Fin 36 → ℝ) : (0 : ℝ) = ((0 : V3)) 0 := by simp [Pi.zero_apply]
theorem e17_1 (_x : Fin 36 → ℝ) : (0 : ℝ) = ((0 : V3)) 1 := by simp [Pi.zero_apply]
theorem e17_2 (_x : Fin 36 → ℝ) : (0 : ℝ) = ((0 : V3)) 2 := by simp [Pi.zero_apply]
theorem e17_3 (_x : Fin 36 → ℝ) : (0 : ℝ) = ((0 : V3)) 0 := by simp [Pi.zero_apply]
theorem e17_4 (_x : Fin 36 → ℝ) : (0 : ℝ) = ((0 : V3)) 1 := by simp [Pi.zero_apply]
theorem e17_5 (_x : Fin 36 → ℝ) : (0 : ℝ) = ((0 : V3)) 2 := by simp [Pi.zero_apply]
theorem e18_0 (_x : Fin 36 → ℝ) : (0 : ℝ) = ((0 : V3)) 0 := by simp [Pi.zero_apply]
theorem e18_1 (_x : Fin 36 → ℝ) : (0 : ℝ) = ((0 : V3)) 1 := by simp [Pi.zero_apply]
theorem e18_2 (_x : Fin 36 → ℝ) : (0 : ℝ) = ((0 : V3)) 2 := by simp [Pi.zero_apply]
theorem e18_3 (x : Fin 36 → ℝ) : l1439 x = (quatMatrix (Qe x) *ᵥ cross (Pi.single 0 1) (foot 0 x)) 0 := by
  simp only [l49, l51, l53, l55, l57, l62, l94, l109, l131, l132, l133, l134, l135, l136, l155, l156, l159, l160, l161, l162,
    l1073, l1074, l1075, l1080, l1081, l1082, l1438, l1439, h93, h106, h108, h113, mv_0, mv_1, mv_2, qm_00, qm_01, qm_02, qm_10, qm_11, qm_12, qm_20, qm_21, qm_22, cr_0, cr_1, cr_2, E_0_0, E_0_1, E_0_2, foot, pv_0, pv_1, pv_2, side_0, mountX_0, mountY_0, th_0_0, th_0_1, th_0_2, segA, segB, segC, segD, segH] <;> ring
theorem e18_4 (x : Fin 36 → ℝ) : l1440 x = (quatMatrix (Qe x) *ᵥ cross (Pi.single 0 1) (foot 0 x)) 1 := by
  simp only [l49, l51, l53, l55, l57, l62, l94, l131, l132, l133, l134, l135, l136, l155, l156, l159, l160, l161, l162, l175,
    l1089, l1096, l1097, l1098, l1100, l1101, l1438, l1440, h93, h106, h108, h113, mv_0, mv_1, mv_2, qm_00, qm_01, qm_02, qm_10, qm_11, qm_12, qm_20, qm_21, qm_22, cr_0, cr_1, cr_2, E_0_0, E_0_1, E_0_2, foot, pv_0, pv_1, pv_2, side_0, mountX_0, mountY_0, th_0_0, th_0_1, th_0_2, segA, segB, segC, segD, segH] <;> ring
theorem e18_5 (x : Fin 36 → ℝ) : l1441 x = (quatMatrix (Qe x) *ᵥ cross (Pi.single 0 1) (foot 0 x)) 2 := by
  simp only [l49, l51, l53, l55, l57, l62, l94, l109, l131, l132, l133, l134, l135, l136, l155, l156, l159, l160, l161, l162,
    l175, l1090, l1096, l1097, l1099, l1100, l1103, l1438, l1441, h93, h106, h108, h113, mv_0, mv_1, mv_2, qm_00, qm_01, qm_02, qm_10, qm_11, qm_12, qm_20, qm_21, qm_22, cr_0, cr_1, cr_2, E_0_0, E_0_1, E_0_2, foot, pv_0, pv_1, pv_2, side_0, mountX_0, mountY_0, th_0_0, th_0_1, th_0_2, segA, segB, segC, segD, segH] <;> ring
theorem e19_0 (_x : Fin 36 → ℝ) : (0 : ℝ) = ((0 : V3)) 0 := by simp [Pi.zero_apply]
theorem e19_1 (_x : Fin 36 → ℝ) : (0 : ℝ) = ((0 : V3)) 1 := by simp [Pi.zero_apply]
theorem e19_2 (_x : Fin 36 → ℝ) : (0 : ℝ) = ((0 : V3)) 2 := by simp [Pi.zero_apply]
theorem e19_3 (x : Fin 36 → ℝ) : l1455 x = (quatMatrix (Qe x) *ᵥ cross (Pi.single 1 1) (foot 0 x)) 0 := by
  simp only [l49, l51, l53, l55, l57, l94, l109, l137, l138, l139, l155, l156, l159, l160, l161, l162, l1073, l1074, l1075,
    l1089, l1090, l1091, l1454, l1455, h93, h106, h108, h113, mv_0, mv_1, mv_2, qm_00, qm_01, qm_02, qm_10, qm_11, qm_12, qm_20, qm_21, qm_22, cr_0, cr_1, cr_2, E_1_0, E_1_1, E_1_2, foot, pv_0, pv_1, pv_2, side_0, mountX_0, mountY_0, th_0_0, th_0_1, th_0_2, segA, segB, segC, segD, segH] <;> ring
theorem e19_4 (x : Fin 36 → ℝ) : l1456 x = (quatMatrix (Qe x) *ᵥ cross (Pi.single 1 1) (foot 0 x)) 1 := by
  simp only [l49, l51, l53, l55, l57, l94, l109, l137, l138, l139, l155, l156, l159, l160, l161, l162, l175, l1080, l1081, l1083,
    l1096, l1097, l1098, l1454, l1456, h93, h106, h108, h113, mv_0, mv_1, mv_2, qm_00, qm_01, qm_02, qm_10, qm_11, qm_12, qm_20, qm_21, qm_22, cr_0, cr_1, cr_2, E_1_0, E_1_1, E_1_2, foot, pv_0, pv_1, pv_2, side_0, mountX_0, mountY_0, th_0_0, th_0_1, th_0_2, segA, segB, segC, segD, segH] <;> ring
theorem e19_5 (x : Fin 36 → ℝ) : l1457 x = (quatMatrix (Qe x) *ᵥ cross (Pi.single 1 1) (foot 0 x)) 2 := by
  simp only [l49, l51, l53, l55, l57, l94, l109, l137, l138, l139, l155, l156, l159, l160, l161, l162, l175, l1073, l1074, l1076,
    l1090, l1100, l1103, l1454, l1457, h93, h106, h108, h113, mv_0, mv_1, mv_2, qm_00, qm_01, qm_02, qm_10, qm_11, qm_12, qm_20, qm_21, qm_22, cr_0, cr_1, cr_2, E_1_0, E_1_1, E_1_2, foot, pv_0, pv_1, pv_2, side_0, mountX_0, mountY_0, th_0_0, th_0_1, th_0_2, segA, segB, segC, segD, segH] <;> ring
theorem e20_0 (_x : Fin 36 → ℝ) : (0 : ℝ) = ((0 : V3)) 0 := by simp [Pi.zero_apply]
theorem e20_1 (_x : Fin 36 → ℝ) : (0 : ℝ) = ((0 : V3)) 1 := by simp [Pi.zero_apply]
theorem e20_2 (_x : Fin 36 → ℝ) : (0 : ℝ) = ((0 : V3)) 2 := by simp [Pi.zero_apply]
theorem e20_3 (x : Fin 36 → ℝ) : l1471 x = (quatMatrix (Qe x) *ᵥ cross (Pi.single 2 1) (foot 0 x)) 0 := by
  simp only [l51, l53, l55, l57, l62, l94, l109, l131, l132, l133, l134, l135, l136, l137, l138, l139, l1080, l1081, l1082,
    l1089, l1090, l1091, l1470, l1471, h93, h106, h108, h113, mv_0, mv_1, mv_2, qm_00, qm_01, qm_02, qm_10, qm_11, qm_12, qm_20, qm_21, qm_22, cr_0, cr_1, cr_2, E_2_0, E_2_1, E_2_2, foot, pv_0, pv_1, pv_2, side_0, mountX_0, mountY_0, th_0_0, th_0_1, th_0_2, segA, segB, segC, segD, segH] <;> ring
theorem e20_4 (x : Fin 36 → ℝ) : l1472 x = (quatMatrix (Qe x) *ᵥ cross (Pi.single 2 1) (foot 0 x)) 1 := by
  simp only [l51, l53, l55, l57, l62, l94, l109, l131, l132, l133, l134, l135, l136, l137, l138, l139, l175, l1080, l1081, l1083,
    l1089, l1100, l1101, l1470, l1472, h93, h106, h108, h113, mv_0, mv_1, mv_2, qm_00, qm_01, qm_02, qm_10, qm_11, qm_12, qm_20, qm_21, qm_22, cr_0, cr_1, cr_2, E_2_0, E_2_1, E_2_2, foot, pv_0, pv_1, pv_2, side_0, mountX_0, mountY_0, th_0_0, th_0_1, th_0_2, segA, segB, segC, segD, segH] <;> ring
theorem e20_5 (x : Fin 36 → ℝ) : l1473 x = (quatMatrix (Qe x) *ᵥ cross (Pi.single 2 1) (foot 0 x)) 2 := by
  simp only [l51, l53, l55, l57, l62, l94, l109, l131, l132, l133, l134, l135, l136, l137, l138, l139, l175, l1073, l1074, l1076,
    l1096, l1097, l1099, l1470, l1473, h93, h106, h108, h113, mv_0, mv_1, mv_2, qm_00, qm_01, qm_02, qm_10, qm_11, qm_12, qm_20, qm_21, qm_22, cr_0, cr_1, cr_2, E_2_0, E_2_1, E_2_2, foot, pv_0, pv_1, pv_2, side_0, mountX_0, mountY_0, th_0_0, th_0_1, th_0_2, segA, segB, segC, segD, segH] <;> ring
theorem e21_0 (_x : Fin 36 → ℝ) : (0 : ℝ) = ((0 : V3)) 0 := by simp [Pi.zero_apply]
theorem e21_1 (_x : Fin 36 → ℝ) : (0 : ℝ) = ((0 : V3)) 1 := by simp [Pi.zero_apply]
theorem e21_2 (_x : Fin 36 → ℝ) : (0 : ℝ) = ((0 : V3)) 2 := by simp [Pi.zero_apply]
theorem e21_3 (x : Fin 36 → ℝ) : l1091 x = (quatMatrix (Qe x) *ᵥ Pi.single 0 1) 0 := by
  simp only [l94, l109, l1089, l1090, l1091, h93, h108, mv_0, mv_1, mv_2, qm_00, qm_01, qm_02, qm_10, qm_11, qm_12, qm_20, qm_21,
    qm_22, E_0_0, E_0_1, E_0_2] <;> ring
theorem e21_4 (x : Fin 36 → ℝ) : l1083 x = (quatMatrix (Qe x) *ᵥ Pi.single 0 1) 1 := by
  simp only [l94, l109, l1080, l1081, l1083, h93, h106, h108, h113, mv_0, mv_1, mv_2, qm_00, qm_01, qm_02, qm_10, qm_11, qm_12,
    qm_20, qm_21, qm_22, E_0_0, E_0_1, E_0_2] <;> ring
theorem e21_5 (x : Fin 36 → ℝ) : l1076 x = (quatMatrix (Qe x) *ᵥ Pi.single 0 1) 2 := by
  simp only [l94, l109, l1073, l1074, l1076, h93, h106, h108, h113, mv_0, mv_1, mv_2, qm_00, qm_01, qm_02, qm_10, qm_11, qm_12,
    qm_20, qm_21, qm_22, E_0_0, E_0_1, E_0_2] <;> ring
theorem e22_0 (_x : Fin 36 → ℝ) : (0 : ℝ) = ((0 : V3)) 0 := by simp [Pi.zero_apply]
theorem e22_1 (_x : Fin 36 → ℝ) : (0 : ℝ) = ((0 : V3)) 1 := by simp [Pi.zero_apply]
theorem e22_2 (_x : Fin 36 → ℝ) : (0 : ℝ) = ((0 : V3)) 2 := by simp [Pi.zero_apply]
theorem e22_3 (x : Fin 36 → ℝ) : l1082 x = (quatMatrix (Qe x) *ᵥ Pi.single 1 1) 0 := by
  simp only [l94, l109, l1080, l1081, l1082, h93, h106, h108, h113, mv_0, mv_1, mv_2, qm_00, qm_01, qm_02, qm_10, qm_11, qm_12,
    qm_20, qm_21, qm_22, E_1_0, E_1_1, E_1_2] <;> ring
theorem e22_4 (x : Fin 36 → ℝ) : l1101 x = (quatMatrix (Qe x) *ᵥ Pi.single 1 1) 1 := by
  simp only [l94, l175, l1089, l1100, l1101, h93, h106, mv_0, mv_1, mv_2, qm_00, qm_01, qm_02, qm_10, qm_11, qm_12, qm_20, qm_21,
    qm_22, E_1_0, E_1_1, E_1_2] <;> ring
theorem e22_5 (x : Fin 36 → ℝ) : l1099 x = (quatMatrix (Qe x) *ᵥ Pi.single 1 1) 2 := by
  simp only [l94, l175, l1096, l1097, l1099, h93, h106, h108, h113, mv_0, mv_1, mv_2, qm_00, qm_01, qm_02, qm_10, qm_11, qm_12,
    qm_20, qm_21, qm_22, E_1_0, E_1_1, E_1_2] <;> ring
theorem e23_0 (_x : Fin 36 → ℝ) : (0 : ℝ) = ((0 : V3)) 0 := by simp [Pi.zero_apply]
theorem e23_1 (_x : Fin 36 → ℝ) : (0 : ℝ) = ((0 : V3)) 1 := by simp [Pi.zero_apply]
theorem e23_2 (_x : Fin 36 → ℝ) : (0 : ℝ) = ((0 : V3)) 2 := by simp [Pi.zero_apply]
theorem e23_3 (x : Fin 36 → ℝ) : l1075 x = (quatMatrix (Qe x) *ᵥ Pi.single 2 1) 0 := by
  simp only [l94, l109, l1073, l1074, l1075, h93, h106, h108, h113, mv_0, mv_1, mv_2, qm_00, qm_01, qm_02, qm_10, qm_11, qm_12,
    qm_20, qm_21, qm_22, E_2_0, E_2_1, E_2_2] <;> ring
theorem e23_4 (x : Fin 36 → ℝ) : l1098 x = (quatMatrix (Qe x) *ᵥ Pi.single 2 1) 1 := by
  simp only [l94, l175, l1096, l1097, l1098, h93, h106, h108, h113, mv_0, mv_1, mv_2, qm_00, qm_01, qm_02, qm_10, qm_11, qm_12,
    qm_20, qm_21, qm_22, E_2_0, E_2_1, E_2_2] <;> ring
theorem e23_5 (x : Fin 36 → ℝ) : l1103 x = (quatMatrix (Qe x) *ᵥ Pi.single 2 1) 2 := by
  simp only [l109, l175, l1090, l1100, l1103, h106, h108, mv_0, mv_1, mv_2, qm_00, qm_01, qm_02, qm_10, qm_11, qm_12, qm_20,
    qm_21, qm_22, E_2_0, E_2_1, E_2_2] <;> ring
theorem e24_0 (_x : Fin 36 → ℝ) : (0 : ℝ) = ((0 : V3)) 0 := by simp [Pi.zero_apply]
theorem e24_1 (_x : Fin 36 → ℝ) : (0 : ℝ) = ((0 : V3)) 1 := by simp [Pi.zero_apply]
theorem e24_2 (_x : Fin 36 → ℝ) : (0 : ℝ) = ((0 : V3)) 2 := by simp [Pi.zero_apply]
theorem e24_3 (x : Fin 36 → ℝ) : l1084 x = (quatMatrix (Qe x) *ᵥ jcol 0 0 x) 0 := by
  simp only [l49, l51, l53, l55, l57, l62, l94, l109, l125, l126, l127, l128, l129, l130, l153, l154, l155, l156, l157, l158,
    l1073, l1074, l1075, l1080, l1081, l1082, l1084, h93, h106, h108, h113, mv_0, mv_1, mv_2, qm_00, qm_01, qm_02, qm_10, qm_11, qm_12, qm_20, qm_21, qm_22, jcol, jac, jm_00, jm_01, jm_02, jm_10, jm_11, jm_12, jm_20, jm_21, jm_22, side_0, th_0_0, th_0_1, th_0_2, segA, segB, segC, segD, segH] <;> ring
theorem e24_4 (x : Fin 36 → ℝ) : l1105 x = (quatMatrix (Qe x) *ᵥ jcol 0 0 x) 1 := by
  simp only [l49, l51, l53, l55, l57, l62, l94, l125, l126, l127, l128, l129, l130, l153, l154, l155, l156, l157, l158, l175,
    l1089, l1096, l1097, l1098, l1100, l1101, l1105, h93, h106, h108, h113, mv_0, mv_1, mv_2, qm_00, qm_01, qm_02, qm_10, qm_11, qm_12, qm_20, qm_21, qm_22, jcol, jac, jm_00, jm_01, jm_02, jm_10, jm_11, jm_12, jm_20, jm_21, jm_22, side_0, th_0_0, th_0_1, th_0_2, segA, segB, segC, segD, segH] <;> ring
theorem e24_5 (x : Fin 36 → ℝ) : l1106 x = (quatMatrix (Qe x) *ᵥ jcol 0 0 x) 2 := by
  simp only [l49, l51, l53, l55, l57, l62, l94, l109, l125, l126, l127, l128, l129, l130, l153, l154, l155, l156, l157, l158,
    l175, l1090, l1096, l1097, l1099, l1100, l1103, l1106, h93, h106, h108, h113, mv_0, mv_1, mv_2, qm_00, qm_01, qm_02, qm_10, qm_11, qm_12, qm_20, qm_21, qm_22, jcol, jac, jm_00, jm_01, jm_02, jm_10, jm_11, jm_12, jm_20, jm_21, jm_22, side_0, th_0_0, th_0_1, th_0_2, segA, segB, segC, segD, segH] <;> ring
theorem e25_0 (_x : Fin 36 → ℝ) : (0 : ℝ) = ((0 : V3)) 0 := by simp [Pi.zero_apply]
theorem e25_1 (_x : Fin 36 → ℝ) : (0 : ℝ) = ((0 : V3)) 1 := by simp [Pi.zero_apply]
theorem e25_2 (_x : Fin 36 → ℝ) : (0 : ℝ) = ((0 : V3)) 2 := by simp [Pi.zero_apply]
theorem e25_3 (x : Fin 36 → ℝ) : l1092 x = (quatMatrix (Qe x) *ᵥ jcol 0 1 x) 0 := by
  simp only [l49, l51, l53, l55, l57, l62, l94, l109, l115, l120, l121, l122, l123, l124, l143, l148, l149, l150, l151, l152,
    l169, l170, l171, l1073, l1074, l1075, l1080, l1081, l1082, l1089, l1090, l1091, l1092, h93, h106, h108, h113, mv_0, mv_1, mv_2, qm_00, qm_01, qm_02, qm_10, qm_11, qm_12, qm_20, qm_21, qm_22, jcol, jac, jm_00, jm_01, jm_02, jm_10, jm_11, jm_12, jm_20, jm_21, jm_22, side_0, th_0_0, th_0_1, th_0_2, segA, segB, segC, segD, segH] <;> ring
theorem e25_4 (x : Fin 36 → ℝ) : l1107 x = (quatMatrix (Qe x) *ᵥ jcol 0 1 x) 1 := by
  simp only [l49, l51, l53, l55, l57, l62, l94, l109, l115, l120, l121, l122, l123, l124, l143, l148, l149, l150, l151, l152,
    l169, l170, l171, l175, l1080, l1081, l1083, l1089, l1096, l1097, l1098, l1100, l1101, l1107, h93, h106, h108, h113, mv_0, mv_1, mv_2, qm_00, qm_01, qm_02, qm_10, qm_11, qm_12, qm_20, qm_21, qm_22, jcol, jac, jm_00, jm_01, jm_02, jm_10, jm_11, jm_12, jm_20, jm_21, jm_22, side_0, th_0_0, th_0_1, th_0_2, segA, segB, segC, segD, segH] <;> ring
theorem e25_5 (x : Fin 36 → ℝ) : l1108 x = (quatMatrix (Qe x) *ᵥ jcol 0 1 x) 2 := by
  simp only [l49, l51, l53, l55, l57, l62, l94, l109, l115, l120, l121, l122, l123, l124, l143, l148, l149, l150, l151, l152,
    l169, l170, l171, l175, l1073, l1074, l1076, l1090, l1096, l1097, l1099, l1100, l1103, l1108, h93, h106, h108, h113, mv_0, mv_1, mv_2, qm_00, qm_01, qm_02, qm_10, qm_11, qm_12, qm_20, qm_21, qm_22, jcol, jac, jm_00, jm_01, jm_02, jm_10, jm_11, jm_12, jm_20, jm_21, jm_22, side_0, th_0_0, th_0_1, th_0_2, segA, segB, segC, segD, segH] <;> ring
theorem e26_0 (_x : Fin 36 → ℝ) : (0 : ℝ) = ((0 : V3)) 0 := by simp [Pi.zero_apply]
theorem e26_1 (_x : Fin 36 → ℝ) : (0 : ℝ) = ((0 : V3)) 1 := by simp [Pi.zero_apply]
theorem e26_2 (_x : Fin 36 → ℝ) : (0 : ℝ) = ((0 : V3)) 2 := by simp [Pi.zero_apply]
theorem e26_3 (x : Fin 36 → ℝ) : l1093 x = (quatMatrix (Qe x) *ᵥ jcol 0 2 x) 0 := by
  simp only [l49, l51, l53, l55, l57, l62, l94, l109, l115, l116, l117, l118, l119, l143, l144, l145, l146, l147, l166, l167,
    l168, l1073, l1074, l1075, l1080, l1081, l1082, l1089, l1090, l1091, l1093, h93, h106, h108, h113, mv_0, mv_1, mv_2, qm_00, qm_01, qm_02, qm_10, qm_11, qm_12, qm_20, qm_21, qm_22, jcol, jac, jm_00, jm_01, jm_02, jm_10, jm_11, jm_12, jm_20, jm_21, jm_22, side_0, th_0_0, th_0_1, th_0_2, segA, segB, segC, segD, segH] <;> ring
theorem e26_4 (x : Fin 36 → ℝ) : l1109 x = (quatMatrix (Qe x) *ᵥ jcol 0 2 x) 1 := by
  simp only [l49, l51, l53, l55, l57, l62, l94, l109, l115, l116, l117, l118, l119, l143, l144, l145, l146, l147, l166, l167,
    l168, l175, l1080, l1081, l1083, l1089, l1096, l1097, l1098, l1100, l1101, l1109, h93, h106, h108, h113, mv_0, mv_1, mv_2, qm_00, qm_01, qm_02, qm_10, qm_11, qm_12, qm_20, qm_21, qm_22, jcol, jac, jm_00, jm_01, jm_02, jm_10, jm_11, jm_12, jm_20, jm_21, jm_22, side_0, th_0_0, th_0_1, th_0_2, segA, segB, segC, segD, segH] <;> ring
theorem e26_5 (x : Fin 36 → ℝ) : l1110 x = (quatMatrix (Qe x) *ᵥ jcol 0 2 x) 2 := by
  simp only [l49, l51, l53, l55, l57, l62, l94, l109, l115, l116, l117, l118, l119, l143, l144, l145, l146, l147, l166, l167,
    l168, l175, l1073, l1074, l1076, l1090, l1096, l1097, l1099, l1100, l1103, l1110, h93, h106, h108, h113, mv_0, mv_1, mv_2, qm_00, qm_01, qm_02, qm_10, qm_11, qm_12, qm_20, qm_21, qm_22, jcol, jac, jm_00, jm_01, jm_02, jm_10, jm_11, jm_12, jm_20, jm_21, jm_22, side_0, th_0_0, th_0_1, th_0_2, segA, segB, segC, segD, segH] <;> ring
theorem e27_0 (_x : Fin 36 → ℝ) : (0 : ℝ) = ((0 : V3)) 0 := by simp [Pi.zero_apply]
theorem e27_1 (_x : Fin 36 → ℝ) : (0 : ℝ) = ((0 : V3)) 1 := by simp [Pi.zero_apply]
theorem e27_2 (_x : Fin 36 → ℝ) : (0 : ℝ) = ((0 : V3)) 2 := by simp [Pi.zero_apply]
theorem e27_3 (_x : Fin 36 → ℝ) : (0 : ℝ) = ((0 : V3)) 0 := by simp [Pi.zero_apply]
theorem e27_4 (_x : Fin 36 → ℝ) : (0 : ℝ) = ((0 : V3)) 1 := by simp [Pi.zero_apply]
theorem e27_5 (_x : Fin 36 → ℝ) : (0 : ℝ) = ((0 : V3)) 2 := by simp [Pi.zero_apply]
theorem e28_0 (_x : Fin 36 → ℝ) : (0 : ℝ) = ((0 : V3)) 0 := by simp [Pi.zero_apply]
theorem e28_1 (_x : Fin 36 → ℝ) : (0 : ℝ) = ((0 : V3)) 1 := by simp [Pi.zero_apply]
theorem e28_2 (_x : Fin 36 → ℝ) : (0 : ℝ) = ((0 : V3)) 2 := by simp [Pi.zero_apply]
theorem e28_3 (_x : Fin 36 → ℝ) : (0 : ℝ) = ((0 : V3)) 0 := by simp [Pi.zero_apply]
theorem e28_4 (_x : Fin 36 → ℝ) : (0 : ℝ) = ((0 : V3)) 1 := by simp [Pi.zero_apply]
theorem e28_5 (_x : Fin 36 → ℝ) : (0 : ℝ) = ((0 : V3)) 2 := by simp [Pi.zero_apply]
theorem e29_0 (_x : Fin 36 → ℝ) : (0 : ℝ) = ((0 : V3)) 0 := by simp [Pi.zero_apply]
theorem e29_1 (_x : Fin 36 → ℝ) : (0 : ℝ) = ((0 : V3)) 1 := by simp [Pi.zero_apply]
theorem e29_2 (_x : Fin 36 → ℝ) : (0 : ℝ) = ((0 : V3)) 2 := by simp [Pi.zero_apply]
theorem e29_3 (_x : Fin 36 → ℝ) : (0 : ℝ) = ((0 : V3)) 0 := by simp [Pi.zero_apply]
theorem e29_4 (_x : Fin 36 → ℝ) : (0 : ℝ) = ((0 : V3)) 1 := by simp [Pi.zero_apply]
theorem e29_5 (_x : Fin 36 → ℝ) : (0 : ℝ) = ((0 : V3)) 2 := by simp [Pi.zero_apply]
theorem e30_0 (_x : Fin 36 → ℝ) : (0 : ℝ) = ((0 : V3)) 0 := by simp [Pi.zero_apply]
theorem e30_1 (_x : Fin 36 → ℝ) : (0 : ℝ) = ((0 : V3)) 1 := by simp [Pi.zero_apply]
theorem e30_2 (_x : Fin 36 → ℝ) : (0 : ℝ) = ((0 : V3)) 2 := by simp [Pi.zero_apply]
theorem e30_3 (_x : Fin 36 → ℝ) : (0 : ℝ) = ((0 : V3)) 0 := by simp [Pi.zero_apply]
theorem e30_4 (_x : Fin 36 → ℝ) : (0 : ℝ) = ((0 : V3)) 1 := by simp [Pi.zero_apply]
theorem e30_5 (_x : Fin 36 → ℝ) : (0 : ℝ) = ((0 : V3)) 2 := by simp [Pi.zero_apply]
theorem e31_0 (_x : Fin 36 → ℝ) : (0 : ℝ) = ((0 : V3)) 0 := by simp [Pi.zero_apply]
theorem e31_1 (_x : Fin 36 → ℝ) : (0 : ℝ) = ((0 : V3)) 1 := by simp [Pi.zero_apply]
theorem e31_2 (_x : Fin 36 → ℝ) : (0 : ℝ) = ((0 : V3)) 2 := by simp [Pi.zero_apply]
theorem e31_3 (_x : Fin 36 → ℝ) : (0 : ℝ) = ((0 : V3)) 0 := by simp [Pi.zero_apply]
theorem e31_4 (_x : Fin 36 → ℝ) : (0 : ℝ) = ((0 : V3)) 1 := by simp [Pi.zero_apply]
theorem e31_5 (_x : Fin 36 → ℝ) : (0 : ℝ) = ((0 : V3)) 2 := by simp [Pi.zero_apply]
theorem e32_0 (_x : Fin 36 → ℝ) : (0 : ℝ) = ((0 : V3)) 0 := by simp [Pi.zero_apply]
theorem e32_1 (_x : Fin 36 → ℝ) : (0 : ℝ) = ((0 : V3)) 1 := by simp [Pi.zero_apply]
theorem e32_2 (_x : Fin 36 → ℝ) : (0 : ℝ) = ((0 : V3)) 2 := by simp [Pi.zero_apply]
theorem e32_3 (_x : Fin 36 → ℝ) : (0 : ℝ) = ((0 : V3)) 0 := by simp [Pi.zero_apply]
theorem e32_4 (_x : Fin 36 → ℝ) : (0 : ℝ) = ((0 : V3)) 1 := by simp [Pi.zero_apply]
theorem e32_5 (_x : Fin 36 → ℝ) : (0 : ℝ) = ((0 : V3)) 2 := by simp [Pi.zero_apply]
theorem e33_0 (_x : Fin 36 → ℝ) : (0 : ℝ) = ((0 : V3)) 0 := by simp [Pi.zero_apply]
theorem e33_1 (_x : Fin 36 → ℝ) : (0 : ℝ) = ((0 : V3)) 1 := by simp [Pi.zero_apply]
theorem e33_2 (_x : Fin 36 → ℝ) : (0 : ℝ) = ((0 : V3)) 2 := by simp [Pi.zero_apply]
theorem e33_3 (_x : Fin 36 → ℝ) : (0 : ℝ) = ((0 : V3)) 0 := by simp [Pi.zero_apply]
theorem e33_4 (_x : Fin 36 → ℝ) : (0 : ℝ) = ((0 : V3)) 1 := by simp [Pi.zero_apply]
theorem e33_5 (_x : Fin 36 → ℝ) : (0 : ℝ) = ((0 : V3)) 2 := by simp [Pi.zero_apply]
theorem e34_0 (_x : Fin 36 → ℝ) : (0 : ℝ) = ((0 : V3)) 0 := by simp [Pi.zero_apply]
theorem e34_1 (_x : Fin 36 → ℝ) : (0 : ℝ) = ((0 : V3)) 1 := by simp [Pi.zero_apply]
theorem e34_2 (_x : Fin 36 → ℝ) : (0 : ℝ) = ((0 : V3)) 2 := by simp [Pi.zero_apply]
theorem e34_3 (_x : Fin 36 → ℝ) : (0 : ℝ) = ((0 : V3)) 0 := by simp [Pi.zero_apply]
theorem e34_4 (_x : Fin 36 → ℝ) : (0 : ℝ) = ((0 : V3)) 1 := by simp [Pi.zero_apply]
theorem e34_5 (_x : Fin 36 → ℝ) : (0 : ℝ) = ((0 : V3)) 2 := by simp [Pi.zero_apply]
theorem e35_0 (_x : Fin 36 → ℝ) : (0 : ℝ) = ((0 : V3)) 0 := by simp [Pi.zero_apply]
theorem e35_1 (_x : Fin 36 → ℝ) : (0 : ℝ) = ((0 : V3)) 1 := by simp [Pi.zero_apply]
theorem e35_2 (_x : Fin 36 → ℝ) : (0 : ℝ) = ((0 : V3)) 2 := by simp [Pi.zero_apply]
theorem e35_3 (_x : Fin 36 → ℝ) : (0 : ℝ) = ((0 : V3)) 0 := by simp [Pi.zero_apply]
theorem e35_4 (_x : Fin 36 → ℝ) : (0 : ℝ) = ((0 : V3)) 1 := by simp [Pi.zero_apply]
theorem e35_5 (_x : Fin 36 → ℝ) : (0 : ℝ) = ((0 : V3)) 2 := by simp [Pi.zero_apply]

theorem pos0 (x : Fin 36 → ℝ) : (fun i : Fin 3 => jacobian x ⟨0 + i, by omega⟩ 0) = Dpos 0 x (Pi.single 0 1) :=
  (ext3 (e0_0 x) (e0_1 x) (e0_2 x)).trans (col_angle 0 0 x 0 rfl).1.symm
theorem vel0 (x : Fin 36 → ℝ) : (fun i : Fin 3 => jacobian x ⟨3 + i, by omega⟩ 0) = Dvel 0 x (Pi.single 0 1) :=
  (ext3 (e0_3 x) (e0_4 x) (e0_5 x)).trans (col_angle 0 0 x 0 rfl).2.symm
theorem pos1 (x : Fin 36 → ℝ) : (fun i : Fin 3 => jacobian x ⟨0 + i, by omega⟩ 1) = Dpos 0 x (Pi.single 1 1) :=
  (ext3 (e1_0 x) (e1_1 x) (e1_2 x)).trans (col_angle 0 1 x 1 rfl).1.symm
theorem vel1 (x : Fin 36 → ℝ) : (fun i : Fin 3 => jacobian x ⟨3 + i, by omega⟩ 1) = Dvel 0 x (Pi.single 1 1) :=
  (ext3 (e1_3 x) (e1_4 x) (e1_5 x)).trans (col_angle 0 1 x 1 rfl).2.symm
theorem pos2 (x : Fin 36 → ℝ) : (fun i : Fin 3 => jacobian x ⟨0 + i, by omega⟩ 2) = Dpos 0 x (Pi.single 2 1) :=
  (ext3 (e2_0 x) (e2_1 x) (e2_2 x)).trans (col_angle 0 2 x 2 rfl).1.symm
theorem vel2 (x : Fin 36 → ℝ) : (fun i : Fin 3 => jacobian x ⟨3 + i, by omega⟩ 2) = Dvel 0 x (Pi.single 2 1) :=
  (ext3 (e2_3 x) (e2_4 x) (e2_5 x)).trans (col_angle 0 2 x 2 rfl).2.symm
theorem pos3 (x : Fin 36 → ℝ) : (fun i : Fin 3 => jacobian x ⟨0 + i, by omega⟩ 3) = Dpos 0 x (Pi.single 3 1) :=
  (ext3 (e3_0 x) (e3_1 x) (e3_2 x)).trans (col_base 0 0 x 3 rfl).1.symm
theorem vel3 (x : Fin 36 → ℝ) : (fun i : Fin 3 => jacobian x ⟨3 + i, by omega⟩ 3) = Dvel 0 x (Pi.single 3 1) :=
  (ext3 (e3_3 x) (e3_4 x) (e3_5 x)).trans (col_base 0 0 x 3 rfl).2.symm
theorem pos4 (x : Fin 36 → ℝ) : (fun i : Fin 3 => jacobian x ⟨0 + i, by omega⟩ 4) = Dpos 0 x (Pi.single 4 1) :=
  (ext3 (e4_0 x) (e4_1 x) (e4_2 x)).trans (col_base 0 1 x 4 rfl).1.symm
theorem vel4 (x : Fin 36 → ℝ) : (fun i : Fin 3 => jacobian x ⟨3 + i, by omega⟩ 4) = Dvel 0 x (Pi.single 4 1) :=
  (ext3 (e4_3 x) (e4_4 x) (e4_5 x)).trans (col_base 0 1 x 4 rfl).2.symm
theorem pos5 (x : Fin 36 → ℝ) : (fun i : Fin 3 => jacobian x ⟨0 + i, by omega⟩ 5) = Dpos 0 x (Pi.single 5 1) :=
  (ext3 (e5_0 x) (e5_1 x) (e5_2 x)).trans (col_base 0 2 x 5 rfl).1.symm
theorem vel5 (x : Fin 36 → ℝ) : (fun i : Fin 3 => jacobian x ⟨3 + i, by omega⟩ 5) = Dvel 0 x (Pi.single 5 1) :=
  (ext3 (e5_3 x) (e5_4 x) (e5_5 x)).trans (col_base 0 2 x 5 rfl).2.symm
theorem pos6 (x : Fin 36 → ℝ) : (fun i : Fin 3 => jacobian x ⟨0 + i, by omega⟩ 6) = Dpos 0 x (Pi.single 6 1) :=
  (ext3 (e6_0 x) (e6_1 x) (e6_2 x)).trans (col_joint 0 0 x 6 rfl).1.symm
theorem vel6 (x : Fin 36 → ℝ) : (fun i : Fin 3 => jacobian x ⟨3 + i, by omega⟩ 6) = Dvel 0 x (Pi.single 6 1) :=
  (ext3 (e6_3 x) (e6_4 x) (e6_5 x)).trans (col_joint 0 0 x 6 rfl).2.symm
theorem pos7 (x : Fin 36 → ℝ) : (fun i : Fin 3 => jacobian x ⟨0 + i, by omega⟩ 7) = Dpos 0 x (Pi.single 7 1) :=
  (ext3 (e7_0 x) (e7_1 x) (e7_2 x)).trans (col_joint 0 1 x 7 rfl).1.symm
theorem vel7 (x : Fin 36 → ℝ) : (fun i : Fin 3 => jacobian x ⟨3 + i, by omega⟩ 7) = Dvel 0 x (Pi.single 7 1) :=
  (ext3 (e7_3 x) (e7_4 x) (e7_5 x)).trans (col_joint 0 1 x 7 rfl).2.symm
theorem pos8 (x : Fin 36 → ℝ) : (fun i : Fin 3 => jacobian x ⟨0 + i, by omega⟩ 8) = Dpos 0 x (Pi.single 8 1) :=
  (ext3 (e8_0 x) (e8_1 x) (e8_2 x)).trans (col_joint 0 2 x 8 rfl).1.symm
theorem vel8 (x : Fin 36 → ℝ) : (fun i : Fin 3 => jacobian x ⟨3 + i, by omega⟩ 8) = Dvel 0 x (Pi.single 8 1) :=
  (ext3 (e8_3 x) (e8_4 x) (e8_5 x)).trans (col_joint 0 2 x 8 rfl).2.symm
theorem pos9 (x : Fin 36 → ℝ) : (fun i : Fin 3 => jacobian x ⟨0 + i, by omega⟩ 9) = Dpos 0 x (Pi.single 9 1) :=
  (ext3 (e9_0 x) (e9_1 x) (e9_2 x)).trans (col_other 0 1 0 x 9 (by decide) (by decide)).1.symm
theorem vel9 (x : Fin 36 → ℝ) : (fun i : Fin 3 => jacobian x ⟨3 + i, by omega⟩ 9) = Dvel 0 x (Pi.single 9 1) :=
  (ext3 (e9_3 x) (e9_4 x) (e9_5 x)).trans (col_other 0 1 0 x 9 (by decide) (by decide)).2.symm
theorem pos10 (x : Fin 36 → ℝ) : (fun i : Fin 3 => jacobian x ⟨0 + i, by omega⟩ 10) = Dpos 0 x (Pi.single 10 1) :=
  (ext3 (e10_0 x) (e10_1 x) (e10_2 x)).trans (col_other 0 1 1 x 10 (by decide) (by decide)).1.symm
theorem vel10 (x : Fin 36 → ℝ) : (fun i : Fin 3 => jacobian x ⟨3 + i, by omega⟩ 10) = Dvel 0 x (Pi.single 10 1) :=
  (ext3 (e10_3 x) (e10_4 x) (e10_5 x)).trans (col_other 0 1 1 x 10 (by decide) (by decide)).2.symm
theorem pos11 (x : Fin 36 → ℝ) : (fun i : Fin 3 => jacobian x ⟨0 + i, by omega⟩ 11) = Dpos 0 x (Pi.single 11 1) :=
  (ext3 (e11_0 x) (e11_1 x) (e11_2 x)).trans (col_other 0 1 2 x 11 (by decide) (by decide)).1.symm
theorem vel11 (x : Fin 36 → ℝ) : (fun i : Fin 3 => jacobian x ⟨3 + i, by omega⟩ 11) = Dvel 0 x (Pi.single 11 1) :=
  (ext3 (e11_3 x) (e11_4 x) (e11_5 x)).trans (col_other 0 1 2 x 11 (by decide) (by decide)).2.symm
theorem pos12 (x : Fin 36 → ℝ) : (fun i : Fin 3 => jacobian x ⟨0 + i, by omega⟩ 12) = Dpos 0 x (Pi.single 12 1) :=
  (ext3 (e12_0 x) (e12_1 x) (e12_2 x)).trans (col_other 0 2 0 x 12 (by decide) (by decide)).1.symm
theorem vel12 (x : Fin 36 → ℝ) : (fun i : Fin 3 => jacobian x ⟨3 + i, by omega⟩ 12) = Dvel 0 x (Pi.single 12 1) :=
  (ext3 (e12_3 x) (e12_4 x) (e12_5 x)).trans (col_other 0 2 0 x 12 (by decide) (by decide)).2.symm
theorem pos13 (x : Fin 36 → ℝ) : (fun i : Fin 3 => jacobian x ⟨0 + i, by omega⟩ 13) = Dpos 0 x (Pi.single 13 1) :=
  (ext3 (e13_0 x) (e13_1 x) (e13_2 x)).trans (col_other 0 2 1 x 13 (by decide) (by decide)).1.symm
theorem vel13 (x : Fin 36 → ℝ) : (fun i : Fin 3 => jacobian x ⟨3 + i, by omega⟩ 13) = Dvel 0 x (Pi.single 13 1) :=
  (ext3 (e13_3 x) (e13_4 x) (e13_5 x)).trans (col_other 0 2 1 x 13 (by decide) (by decide)).2.symm
theorem pos14 (x : Fin 36 → ℝ) : (fun i : Fin 3 => jacobian x ⟨0 + i, by omega⟩ 14) = Dpos 0 x (Pi.single 14 1) :=
  (ext3 (e14_0 x) (e14_1 x) (e14_2 x)).trans (col_other 0 2 2 x 14 (by decide) (by decide)).1.symm
theorem vel14 (x : Fin 36 → ℝ) : (fun i : Fin 3 => jacobian x ⟨3 + i, by omega⟩ 14) = Dvel 0 x (Pi.single 14 1) :=
  (ext3 (e14_3 x) (e14_4 x) (e14_5 x)).trans (col_other 0 2 2 x 14 (by decide) (by decide)).2.symm
theorem pos15 (x : Fin 36 → ℝ) : (fun i : Fin 3 => jacobian x ⟨0 + i, by omega⟩ 15) = Dpos 0 x (Pi.single 15 1) :=
  (ext3 (e15_0 x) (e15_1 x) (e15_2 x)).trans (col_other 0 3 0 x 15 (by decide) (by decide)).1.symm
theorem vel15 (x : Fin 36 → ℝ) : (fun i : Fin 3 => jacobian x ⟨3 + i, by omega⟩ 15) = Dvel 0 x (Pi.single 15 1) :=
  (ext3 (e15_3 x) (e15_4 x) (e15_5 x)).trans (col_other 0 3 0 x 15 (by decide) (by decide)).2.symm
theorem pos16 (x : Fin 36 → ℝ) : (fun i : Fin 3 => jacobian x ⟨0 + i, by omega⟩ 16) = Dpos 0 x (Pi.single 16 1) :=
  (ext3 (e16_0 x) (e16_1 x) (e16_2 x)).trans (col_other 0 3 1 x 16 (by decide) (by decide)).1.symm
theorem vel16 (x : Fin 36 → ℝ) : (fun i : Fin 3 => jacobian x ⟨3 + i, by omega⟩ 16) = Dvel 0 x (Pi.single 16 1) :=
  (ext3 (e16_3 x) (e16_4 x) (e16_5 x)).trans (col_other 0 3 1 x 16 (by decide) (by decide)).2.symm
theorem pos17 (x : Fin 36 → ℝ) : (fun i : Fin 3 => jacobian x ⟨0 + i, by omega⟩ 17) = Dpos 0 x (Pi.single 17 1) :=
  (ext3 (e17_0 x) (e17_1 x) (e17_2 x)).trans (col_other 0 3 2 x 17 (by decide) (by decide)).1.symm
theorem vel17 (x : Fin 36 → ℝ) : (fun i : Fin 3 => jacobian x ⟨3 + i, by omega⟩ 17) = Dvel 0 x (Pi.single 17 1) :=
  (ext3 (e17_3 x) (e17_4 x) (e17_5 x)).trans (col_other 0 3 2 x 17 (by decide) (by decide)).2.symm
theorem pos18 (x : Fin 36 → ℝ) : (fun i : Fin 3 => jacobian x ⟨0 + i, by omega⟩ 18) = Dpos 0 x (Pi.single 18 1) :=
  (ext3 (e18_0 x) (e18_1 x) (e18_2 x)).trans (col_om 0 0 x 18 rfl).1.symm
theorem vel18 (x : Fin 36 → ℝ) : (fun i : Fin 3 => jacobian x ⟨3 + i, by omega⟩ 18) = Dvel 0 x (Pi.single 18 1) :=
  (ext3 (e18_3 x) (e18_4 x) (e18_5 x)).trans (col_om 0 0 x 18 rfl).2.symm
theorem pos19 (x : Fin 36 → ℝ) : (fun i : Fin 3 => jacobian x ⟨0 + i, by omega⟩ 19) = Dpos 0 x (Pi.single 19 1) :=
  (ext3 (e19_0 x) (e19_1 x) (e19_2 x)).trans (col_om 0 1 x 19 rfl).1.symm
theorem vel19 (x : Fin 36 → ℝ) : (fun i : Fin 3 => jacobian x ⟨3 + i, by omega⟩ 19) = Dvel 0 x (Pi.single 19 1) :=
  (ext3 (e19_3 x) (e19_4 x) (e19_5 x)).trans (col_om 0 1 x 19 rfl).2.symm
theorem pos20 (x : Fin 36 → ℝ) : (fun i : Fin 3 => jacobian x ⟨0 + i, by omega⟩ 20) = Dpos 0 x (Pi.single 20 1) :=
  (ext3 (e20_0 x) (e20_1 x) (e20_2 x)).trans (col_om 0 2 x 20 rfl).1.symm
theorem vel20 (x : Fin 36 → ℝ) : (fun i : Fin 3 => jacobian x ⟨3 + i, by omega⟩ 20) = Dvel 0 x (Pi.single 20 1) :=
  (ext3 (e20_3 x) (e20_4 x) (e20_5 x)).trans (col_om 0 2 x 20 rfl).2.symm
theorem pos21 (x : Fin 36 → ℝ) : (fun i : Fin 3 => jacobian x ⟨0 + i, by omega⟩ 21) = Dpos 0 x (Pi.single 21 1) :=
  (ext3 (e21_0 x) (e21_1 x) (e21_2 x)).trans (col_lv 0 0 x 21 rfl).1.symm
theorem vel21 (x : Fin 36 → ℝ) : (fun i : Fin 3 => jacobian x ⟨3 + i, by omega⟩ 21) = Dvel 0 x (Pi.single 21 1) :=
  (ext3 (e21_3 x) (e21_4 x) (e21_5 x)).trans (col_lv 0 0 x 21 rfl).2.symm
theorem pos22 (x : Fin 36 → ℝ) : (fun i : Fin 3 => jacobian x ⟨0 + i, by omega⟩ 22) = Dpos 0 x (Pi.single 22 1) :=
  (ext3 (e22_0 x) (e22_1 x) (e22_2 x)).trans (col_lv 0 1 x 22 rfl).1.symm
theorem vel22 (x : Fin 36 → ℝ) : (fun i : Fin 3 => jacobian x ⟨3 + i, by omega⟩ 22) = Dvel 0 x (Pi.single 22 1) :=
  (ext3 (e22_3 x) (e22_4 x) (e22_5 x)).trans (col_lv 0 1 x 22 rfl).2.symm
theorem pos23 (x : Fin 36 → ℝ) : (fun i : Fin 3 => jacobian x ⟨0 + i, by omega⟩ 23) = Dpos 0 x (Pi.single 23 1) :=
  (ext3 (e23_0 x) (e23_1 x) (e23_2 x)).trans (col_lv 0 2 x 23 rfl).1.symm
theorem vel23 (x : Fin 36 → ℝ) : (fun i : Fin 3 => jacobian x ⟨3 + i, by omega⟩ 23) = Dvel 0 x (Pi.single 23 1) :=
  (ext3 (e23_3 x) (e23_4 x) (e23_5 x)).trans (col_lv 0 2 x 23 rfl).2.symm
theorem pos24 (x : Fin 36 → ℝ) : (fun i : Fin 3 => jacobian x ⟨0 + i, by omega⟩ 24) = Dpos 0 x (Pi.single 24 1) :=
  (ext3 (e24_0 x) (e24_1 x) (e24_2 x)).trans (col_qd 0 0 x 24 rfl).1.symm
theorem vel24 (x : Fin 36 → ℝ) : (fun i : Fin 3 => jacobian x ⟨3 + i, by omega⟩ 24) = Dvel 0 x (Pi.single 24 1) :=
  (ext3 (e24_3 x) (e24_4 x) (e24_5 x)).trans (col_qd 0 0 x 24 rfl).2.symm
theorem pos25 (x : Fin 36 → ℝ) : (fun i : Fin 3 => jacobian x ⟨0 + i, by omega⟩ 25) = Dpos 0 x (Pi.single 25 1) :=
  (ext3 (e25_0 x) (e25_1 x) (e25_2 x)).trans (col_qd 0 1 x 25 rfl).1.symm
theorem vel25 (x : Fin 36 → ℝ) : (fun i : Fin 3 => jacobian x ⟨3 + i, by omega⟩ 25) = Dvel 0 x (Pi.single 25 1) :=
  (ext3 (e25_3 x) (e25_4 x) (e25_5 x)).trans (col_qd 0 1 x 25 rfl).2.symm
theorem pos26 (x : Fin 36 → ℝ) : (fun i : Fin 3 => jacobian x ⟨0 + i, by omega⟩ 26) = Dpos 0 x (Pi.single 26 1) :=
  (ext3 (e26_0 x) (e26_1 x) (e26_2 x)).trans (col_qd 0 2 x 26 rfl).1.symm
theorem vel26 (x : Fin 36 → ℝ) : (fun i : Fin 3 => jacobian x ⟨3 + i, by omega⟩ 26) = Dvel 0 x (Pi.single 26 1) :=
  (ext3 (e26_3 x) (e26_4 x) (e26_5 x)).trans (col_qd 0 2 x 26 rfl).2.symm
theorem pos27 (x : Fin 36 → ℝ) : (fun i : Fin 3 => jacobian x ⟨0 + i, by omega⟩ 27) = Dpos 0 x (Pi.single 27 1) :=
  (ext3 (e27_0 x) (e27_1 x) (e27_2 x)).trans (col_other 0 1 0 x 27 (by decide) (by decide)).1.symm
theorem vel27 (x : Fin 36 → ℝ) : (fun i : Fin 3 => jacobian x ⟨3 + i, by omega⟩ 27) = Dvel 0 x (Pi.single 27 1) :=
  (ext3 (e27_3 x) (e27_4 x) (e27_5 x)).trans (col_other 0 1 0 x 27 (by decide) (by decide)).2.symm
theorem pos28 (x : Fin 36 → ℝ) : (fun i : Fin 3 => jacobian x ⟨0 + i, by omega⟩ 28) = Dpos 0 x (Pi.single 28 1) :=
  (ext3 (e28_0 x) (e28_1 x) (e28_2 x)).trans (col_other 0 1 1 x 28 (by decide) (by decide)).1.symm
theorem vel28 (x : Fin 36 → ℝ) : (fun i : Fin 3 => jacobian x ⟨3 + i, by omega⟩ 28) = Dvel 0 x (Pi.single 28 1) :=
  (ext3 (e28_3 x) (e28_4 x) (e28_5 x)).trans (col_other 0 1 1 x 28 (by decide) (by decide)).2.symm
theorem pos29 (x : Fin 36 → ℝ) : (fun i : Fin 3 => jacobian x ⟨0 + i, by omega⟩ 29) = Dpos 0 x (Pi.single 29 1) :=
  (ext3 (e29_0 x) (e29_1 x) (e29_2 x)).trans (col_other 0 1 2 x 29 (by decide) (by decide)).1.symm
theorem vel29 (x : Fin 36 → ℝ) : (fun i : Fin 3 => jacobian x ⟨3 + i, by omega⟩ 29) = Dvel 0 x (Pi.single 29 1) :=
  (ext3 (e29_3 x) (e29_4 x) (e29_5 x)).trans (col_other 0 1 2 x 29 (by decide) (by decide)).2.symm
theorem pos30 (x : Fin 36 → ℝ) : (fun i : Fin 3 => jacobian x ⟨0 + i, by omega⟩ 30) = Dpos 0 x (Pi.single 30 1) :=
  (ext3 (e30_0 x) (e30_1 x) (e30_2 x)).trans (col_other 0 2 0 x 30 (by decide) (by decide)).1.symm
theorem vel30 (x : Fin 36 → ℝ) : (fun i : Fin 3 => jacobian x ⟨3 + i, by omega⟩ 30) = Dvel 0 x (Pi.single 30 1) :=
  (ext3 (e30_3 x) (e30_4 x) (e30_5 x)).trans (col_other 0 2 0 x 30 (by decide) (by decide)).2.symm
theorem pos31 (x : Fin 36 → ℝ) : (fun i : Fin 3 => jacobian x ⟨0 + i, by omega⟩ 31) = Dpos 0 x (Pi.single 31 1) :=
  (ext3 (e31_0 x) (e31_1 x) (e31_2 x)).trans (col_other 0 2 1 x 31 (by decide) (by decide)).1.symm
theorem vel31 (x : Fin 36 → ℝ) : (fun i : Fin 3 => jacobian x ⟨3 + i, by omega⟩ 31) = Dvel 0 x (Pi.single 31 1) :=
  (ext3 (e31_3 x) (e31_4 x) (e31_5 x)).trans (col_other 0 2 1 x 31 (by decide) (by decide)).2.symm
theorem pos32 (x : Fin 36 → ℝ) : (fun i : Fin 3 => jacobian x ⟨0 + i, by omega⟩ 32) = Dpos 0 x (Pi.single 32 1) :=
  (ext3 (e32_0 x) (e32_1 x) (e32_2 x)).trans (col_other 0 2 2 x 32 (by decide) (by decide)).1.symm
theorem vel32 (x : Fin 36 → ℝ) : (fun i : Fin 3 => jacobian x ⟨3 + i, by omega⟩ 32) = Dvel 0 x (Pi.single 32 1) :=
  (ext3 (e32_3 x) (e32_4 x) (e32_5 x)).trans (col_other 0 2 2 x 32 (by decide) (by decide)).2.symm
theorem pos33 (x : Fin 36 → ℝ) : (fun i : Fin 3 => jacobian x ⟨0 + i, by omega⟩ 33) = Dpos 0 x (Pi.single 33 1) :=
  (ext3 (e33_0 x) (e33_1 x) (e33_2 x)).trans (col_other 0 3 0 x 33 (by decide) (by decide)).1.symm
theorem vel33 (x : Fin 36 → ℝ) : (fun i : Fin 3 => jacobian x ⟨3 + i, by omega⟩ 33) = Dvel 0 x (Pi.single 33 1) :=
  (ext3 (e33_3 x) (e33_4 x) (e33_5 x)).trans (col_other 0 3 0 x 33 (by decide) (by decide)).2.symm
theorem pos34 (x : Fin 36 → ℝ) : (fun i : Fin 3 => jacobian x ⟨0 + i, by omega⟩ 34) = Dpos 0 x (Pi.single 34 1) :=
  (ext3 (e34_0 x) (e34_1 x) (e34_2 x)).trans (col_other 0 3 1 x 34 (by decide) (by decide)).1.symm
theorem vel34 (x : Fin 36 → ℝ) : (fun i : Fin 3 => jacobian x ⟨3 + i, by omega⟩ 34) = Dvel 0 x (Pi.single 34 1) :=
  (ext3 (e34_3 x) (e34_4 x) (e34_5 x)).trans (col_other 0 3 1 x 34 (by decide) (by decide)).2.symm
theorem pos35 (x : Fin 36 → ℝ) : (fun i : Fin 3 => jacobian x ⟨0 + i, by omega⟩ 35) = Dpos 0 x (Pi.single 35 1) :=
  (ext3 (e35_0 x) (e35_1 x) (e35_2 x)).trans (col_other 0 3 2 x 35 (by decide) (by decide)).1.symm
theorem vel35 (x : Fin 36 → ℝ) : (fun i : Fin 3 => jacobian x ⟨3 + i, by omega⟩ 35) = Dvel 0 x (Pi.single 35 1) :=
  (ext3 (e35_3 x) (e35_4 x) (e35_5 x)).trans (col_other 0 3 2 x 35 (by decide) (by decide)).2.symm

theorem rows (x : Fin 36 → ℝ) (c : Fin 36) :
    (fun i : Fin 3 => jacobian x ⟨0 + i, by omega⟩ c) = Dpos 0 x (Pi.single c 1) ∧
    (fun i : Fin 3 => jacobian x ⟨3 + i, by omega⟩ c) = Dvel 0 x (Pi.single c 1) := by
  fin_cases c
  exacts [⟨pos0 x, vel0 x⟩, ⟨pos1 x, vel1 x⟩, ⟨pos2 x, vel2 x⟩, ⟨pos3 x, vel3 x⟩, ⟨pos4 x, vel4 x⟩, ⟨pos5 x, vel5 x⟩, ⟨pos6 x,
    vel6 x⟩, ⟨pos7 x, vel7 x⟩, ⟨pos8 x, vel8 x⟩, ⟨pos9 x, vel9 x⟩, ⟨pos10 x, vel10 x⟩, ⟨pos11 x, vel11 x⟩, ⟨pos12 x, vel12 x⟩, ⟨pos13 x, vel13 x⟩, ⟨pos14 x, vel14 x⟩, ⟨pos15 x, vel15 x⟩, ⟨pos16 x, vel16 x⟩, ⟨pos17 x, vel17 x⟩, ⟨pos18 x, vel18 x⟩, ⟨pos19 x, vel19 x⟩, ⟨pos20 x, vel20 x⟩, ⟨pos21 x, vel21 x⟩, ⟨pos22 x, vel22 x⟩, ⟨pos23 x, vel23 x⟩, ⟨pos24 x, vel24 x⟩, ⟨pos25 x, vel25 x⟩, ⟨pos26 x, vel26 x⟩, ⟨pos27 x, vel27 x⟩, ⟨pos28 x, vel28 x⟩, ⟨pos29 x, vel29 x⟩, ⟨pos30 x, vel30 x⟩, ⟨pos31 x, vel31 x⟩, ⟨pos32 x, vel32 x⟩, ⟨pos33 x, vel33 x⟩, ⟨pos34 x, vel34 x⟩, ⟨pos35 x, vel35 x⟩]

end CT.Robots.HyQ.FootJacForward.Leg0
