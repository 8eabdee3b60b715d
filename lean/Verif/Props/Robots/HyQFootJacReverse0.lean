import Verif.Model.Robots.HyQFootJacReverse
import Verif.Props.Robots.HyQFoot

/-!
# Rows of foot 0 in the generated Jacobian HyQForwardKinJacReverse

`hN`: line `N` is a component of the quaternion, of the position of the foot or of its velocity in the base.  `eC_R`: the entry in
row `R` and column `C`.
-/

namespace CT.Robots.HyQ.FootJacReverse.Leg0

open Matrix CT.FloatSys CT.FrameJac CT.Robots.HyQ

set_option linter.unusedSimpArgs false

theorem h26 (x : Fin 36 → ℝ) : l26 x = foot 0 x 2 := by
  simp only [l16, l17, l18, l19, l20, l21, l22, l23, l24, l25, l26, foot, pv_0, pv_1, pv_2, side_0, mountX_0, mountY_0, th_0_0,
    th_0_1, th_0_2, segA, segB, segC, segD, segH] <;> ring
theorem h38 (x : Fin 36 → ℝ) : l38 x = Qe x 3 := by
  simp only [l27, l28, l29, l30, l31, l32, l33, l34, l35, l36, l37, l38, Qe_3] <;> ring
theorem h46 (x : Fin 36 → ℝ) : l46 x = foot 0 x 1 := by
  simp only [l18, l20, l22, l24, l40, l41, l42, l43, l44, l45, l46, foot, pv_0, pv_1, pv_2, side_0, mountX_0, mountY_0, th_0_0,
    th_0_1, th_0_2, segA, segB, segC, segD, segH] <;> ring
theorem h49 (x : Fin 36 → ℝ) : l49 x = Qe x 2 := by
  simp only [l27, l28, l29, l30, l32, l33, l34, l35, l37, l47, l48, l49, Qe_2] <;> ring
theorem h55 (x : Fin 36 → ℝ) : l55 x = -foot 0 x 0 := by
  simp only [l18, l20, l22, l24, l52, l53, l54, l55, foot, pv_0, pv_1, pv_2, side_0, mountX_0, mountY_0, th_0_0, th_0_1, th_0_2,
    segA, segB, segC, segD, segH] <;> ring
theorem h56 (x : Fin 36 → ℝ) : l56 x = Qe x 1 := by
  simp only [l27, l28, l29, l30, l32, l33, l34, l35, l37, l47, l48, l56, Qe_1] <;> ring
theorem h57 (x : Fin 36 → ℝ) : l57 x = Qe x 0 := by
  simp only [l27, l28, l29, l30, l31, l32, l33, l34, l35, l36, l37, l57, Qe_0] <;> ring
theorem h61 (x : Fin 36 → ℝ) : l61 x = -foot 0 x 1 := by
  simp only [l18, l20, l22, l24, l40, l41, l42, l43, l44, l45, l46, l61, foot, pv_0, pv_1, pv_2, side_0, mountX_0, mountY_0,
    th_0_0, th_0_1, th_0_2, segA, segB, segC, segD, segH] <;> ring
theorem h64 (x : Fin 36 → ℝ) : l64 x = -foot 0 x 0 := by
  simp only [l18, l20, l22, l24, l52, l53, l54, l64, foot, pv_0, pv_1, pv_2, side_0, mountX_0, mountY_0, th_0_0, th_0_1, th_0_2,
    segA, segB, segC, segD, segH] <;> ring
theorem h54 (x : Fin 36 → ℝ) : l54 x = foot 0 x 0 := by
  simp only [l18, l20, l22, l24, l52, l53, l54, foot, pv_0, pv_1, pv_2, side_0, mountX_0, mountY_0, th_0_0, th_0_1, th_0_2, segA,
    segB, segC, segD, segH] <;> ring
theorem h72 (x : Fin 36 → ℝ) : l72 x = -foot 0 x 1 := by
  simp only [l18, l20, l22, l24, l40, l41, l42, l43, l44, l45, l46, l72, foot, pv_0, pv_1, pv_2, side_0, mountX_0, mountY_0,
    th_0_0, th_0_1, th_0_2, segA, segB, segC, segD, segH] <;> ring
theorem h74 (x : Fin 36 → ℝ) : l74 x = -foot 0 x 2 := by
  simp only [l16, l17, l18, l19, l20, l21, l22, l23, l24, l25, l26, l74, foot, pv_0, pv_1, pv_2, side_0, mountX_0, mountY_0,
    th_0_0, th_0_1, th_0_2, segA, segB, segC, segD, segH] <;> ring
theorem h81 (x : Fin 36 → ℝ) : l81 x = -foot 0 x 1 := by
  simp only [l18, l20, l22, l24, l40, l41, l42, l43, l44, l45, l46, l81, foot, pv_0, pv_1, pv_2, side_0, mountX_0, mountY_0,
    th_0_0, th_0_1, th_0_2, segA, segB, segC, segD, segH] <;> ring
theorem h87 (x : Fin 36 → ℝ) : l87 x = -foot 0 x 2 := by
  simp only [l16, l17, l18, l19, l20, l21, l22, l23, l24, l25, l26, l87, foot, pv_0, pv_1, pv_2, side_0, mountX_0, mountY_0,
    th_0_0, th_0_1, th_0_2, segA, segB, segC, segD, segH] <;> ring
theorem h89 (x : Fin 36 → ℝ) : l89 x = -foot 0 x 2 := by
  simp only [l16, l17, l18, l19, l20, l21, l22, l23, l24, l25, l26, l89, foot, pv_0, pv_1, pv_2, side_0, mountX_0, mountY_0,
    th_0_0, th_0_1, th_0_2, segA, segB, segC, segD, segH] <;> ring
theorem h90 (x : Fin 36 → ℝ) : l90 x = -foot 0 x 0 := by
  simp only [l18, l20, l22, l24, l52, l53, l54, l90, foot, pv_0, pv_1, pv_2, side_0, mountX_0, mountY_0, th_0_0, th_0_1, th_0_2,
    segA, segB, segC, segD, segH] <;> ring
theorem h126 (x : Fin 36 → ℝ) : l126 x = vb 0 x 2 := by
  simp only [l16, l18, l20, l22, l24, l40, l101, l102, l103, l104, l105, l106, l107, l108, l109, l110, l111, l112, l113, l114,
    l115, l116, l117, l118, l119, l120, l121, l122, l123, l124, l125, l126, vb, Pi.add_apply, mv_0, mv_1, mv_2, cr_0, cr_1, cr_2, foot, pv_0, pv_1, pv_2, side_0, mountX_0, mountY_0, th_0_0, th_0_1, th_0_2, segA, segB, segC, segD, segH, jac, jm_00, jm_01, jm_02, jm_10, jm_11, jm_12, jm_20, jm_21, jm_22, qd_0_0, qd_0_1, qd_0_2, om_0, om_1, om_2, lv_0, lv_1, lv_2] <;> ring
theorem h138 (x : Fin 36 → ℝ) : l138 x = Qe x 3 := by
  simp only [l127, l128, l129, l130, l131, l132, l133, l134, l135, l136, l137, l138, Qe_3] <;> ring
theorem h160 (x : Fin 36 → ℝ) : l160 x = vb 0 x 1 := by
  simp only [l16, l18, l20, l22, l24, l40, l123, l124, l125, l140, l141, l142, l143, l144, l145, l146, l147, l148, l149, l150,
    l151, l152, l153, l154, l155, l156, l157, l158, l159, l160, vb, Pi.add_apply, mv_0, mv_1, mv_2, cr_0, cr_1, cr_2, foot, pv_0, pv_1, pv_2, side_0, mountX_0, mountY_0, th_0_0, th_0_1, th_0_2, segA, segB, segC, segD, segH, jac, jm_00, jm_01, jm_02, jm_10, jm_11, jm_12, jm_20, jm_21, jm_22, qd_0_0, qd_0_1, qd_0_2, om_0, om_1, om_2, lv_0, lv_1, lv_2] <;> ring
theorem h163 (x : Fin 36 → ℝ) : l163 x = Qe x 2 := by
  simp only [l127, l128, l129, l130, l132, l133, l134, l135, l137, l161, l162, l163, Qe_2] <;> ring
theorem h173 (x : Fin 36 → ℝ) : l173 x = -vb 0 x 0 := by
  simp only [l16, l18, l20, l22, l24, l40, l117, l118, l119, l120, l121, l122, l152, l153, l156, l157, l158, l159, l166, l167,
    l168, l169, l170, l171, l172, l173, vb, Pi.add_apply, mv_0, mv_1, mv_2, cr_0, cr_1, cr_2, foot, pv_0, pv_1, pv_2, side_0, mountX_0, mountY_0, th_0_0, th_0_1, th_0_2, segA, segB, segC, segD, segH, jac, jm_00, jm_01, jm_02, jm_10, jm_11, jm_12, jm_20, jm_21, jm_22, qd_0_0, qd_0_1, qd_0_2, om_0, om_1, om_2, lv_0, lv_1, lv_2] <;> ring
theorem h174 (x : Fin 36 → ℝ) : l174 x = Qe x 1 := by
  simp only [l127, l128, l129, l130, l132, l133, l134, l135, l137, l161, l162, l174, Qe_1] <;> ring
theorem h175 (x : Fin 36 → ℝ) : l175 x = Qe x 0 := by
  simp only [l127, l128, l129, l130, l131, l132, l133, l134, l135, l136, l137, l175, Qe_0] <;> ring
theorem h179 (x : Fin 36 → ℝ) : l179 x = -vb 0 x 1 := by
  simp only [l16, l18, l20, l22, l24, l40, l123, l124, l125, l140, l141, l142, l143, l144, l145, l146, l147, l148, l149, l150,
    l151, l152, l153, l154, l155, l156, l157, l158, l159, l160, l179, vb, Pi.add_apply, mv_0, mv_1, mv_2, cr_0, cr_1, cr_2, foot, pv_0, pv_1, pv_2, side_0, mountX_0, mountY_0, th_0_0, th_0_1, th_0_2, segA, segB, segC, segD, segH, jac, jm_00, jm_01, jm_02, jm_10, jm_11, jm_12, jm_20, jm_21, jm_22, qd_0_0, qd_0_1, qd_0_2, om_0, om_1, om_2, lv_0, lv_1, lv_2] <;> ring
theorem h182 (x : Fin 36 → ℝ) : l182 x = -vb 0 x 0 := by
  simp only [l16, l18, l20, l22, l24, l40, l117, l118, l119, l120, l121, l122, l152, l153, l156, l157, l158, l159, l166, l167,
    l168, l169, l170, l171, l172, l182, vb, Pi.add_apply, mv_0, mv_1, mv_2, cr_0, cr_1, cr_2, foot, pv_0, pv_1, pv_2, side_0, mountX_0, mountY_0, th_0_0, th_0_1, th_0_2, segA, segB, segC, segD, segH, jac, jm_00, jm_01, jm_02, jm_10, jm_11, jm_12, jm_20, jm_21, jm_22, qd_0_0, qd_0_1, qd_0_2, om_0, om_1, om_2, lv_0, lv_1, lv_2] <;> ring
theorem h172 (x : Fin 36 → ℝ) : l172 x = vb 0 x 0 := by
  simp only [l16, l18, l20, l22, l24, l40, l117, l118, l119, l120, l121, l122, l152, l153, l156, l157, l158, l159, l166, l167,
    l168, l169, l170, l171, l172, vb, Pi.add_apply, mv_0, mv_1, mv_2, cr_0, cr_1, cr_2, foot, pv_0, pv_1, pv_2, side_0, mountX_0, mountY_0, th_0_0, th_0_1, th_0_2, segA, segB, segC, segD, segH, jac, jm_00, jm_01, jm_02, jm_10, jm_11, jm_12, jm_20, jm_21, jm_22, qd_0_0, qd_0_1, qd_0_2, om_0, om_1, om_2, lv_0, lv_1, lv_2] <;> ring
theorem h190 (x : Fin 36 → ℝ) : l190 x = -vb 0 x 1 := by
  simp only [l16, l18, l20, l22, l24, l40, l123, l124, l125, l140, l141, l142, l143, l144, l145, l146, l147, l148, l149, l150,
    l151, l152, l153, l154, l155, l156, l157, l158, l159, l160, l190, vb, Pi.add_apply, mv_0, mv_1, mv_2, cr_0, cr_1, cr_2, foot, pv_0, pv_1, pv_2, side_0, mountX_0, mountY_0, th_0_0, th_0_1, th_0_2, segA, segB, segC, segD, segH, jac, jm_00, jm_01, jm_02, jm_10, jm_11, jm_12, jm_20, jm_21, jm_22, qd_0_0, qd_0_1, qd_0_2, om_0, om_1, om_2, lv_0, lv_1, lv_2] <;> ring
theorem h192 (x : Fin 36 → ℝ) : l192 x = -vb 0 x 2 := by
  simp only [l16, l18, l20, l22, l24, l40, l101, l102, l103, l104, l105, l106, l107, l108, l109, l110, l111, l112, l113, l114,
    l115, l116, l117, l118, l119, l120, l121, l122, l123, l124, l125, l126, l192, vb, Pi.add_apply, mv_0, mv_1, mv_2, cr_0, cr_1, cr_2, foot, pv_0, pv_1, pv_2, side_0, mountX_0, mountY_0, th_0_0, th_0_1, th_0_2, segA, segB, segC, segD, segH, jac, jm_00, jm_01, jm_02, jm_10, jm_11, jm_12, jm_20, jm_21, jm_22, qd_0_0, qd_0_1, qd_0_2, om_0, om_1, om_2, lv_0, lv_1, lv_2] <;> ring
theorem h199 (x : Fin 36 → ℝ) : l199 x = -vb 0 x 1 := by
  simp only [l16, l18, l20, l22, l24, l40, l123, l124, l125, l140, l141, l142, l143, l144, l145, l146, l147, l148, l149, l150,
    l151, l152, l153, l154, l155, l156, l157, l158, l159, l160, l199, vb, Pi.add_apply, mv_0, mv_1, mv_2, cr_0, cr_1, cr_2, foot, pv_0, pv_1, pv_2, side_0, mountX_0, mountY_0, th_0_0, th_0_1, th_0_2, segA, segB, segC, segD, segH, jac, jm_00, jm_01, jm_02, jm_10, jm_11, jm_12, jm_20, jm_21, jm_22, qd_0_0, qd_0_1, qd_0_2, om_0, om_1, om_2, lv_0, lv_1, lv_2] <;> ring
theorem h205 (x : Fin 36 → ℝ) : l205 x = -vb 0 x 2 := by
  simp only [l16, l18, l20, l22, l24, l40, l101, l102, l103, l104, l105, l106, l107, l108, l109, l110, l111, l112, l113, l114,
    l115, l116, l117, l118, l119, l120, l121, l122, l123, l124, l125, l126, l205, vb, Pi.add_apply, mv_0, mv_1, mv_2, cr_0, cr_1, cr_2, foot, pv_0, pv_1, pv_2, side_0, mountX_0, mountY_0, th_0_0, th_0_1, th_0_2, segA, segB, segC, segD, segH, jac, jm_00, jm_01, jm_02, jm_10, jm_11, jm_12, jm_20, jm_21, jm_22, qd_0_0, qd_0_1, qd_0_2, om_0, om_1, om_2, lv_0, lv_1, lv_2] <;> ring
theorem h207 (x : Fin 36 → ℝ) : l207 x = -vb 0 x 2 := by
  simp only [l16, l18, l20, l22, l24, l40, l101, l102, l103, l104, l105, l106, l107, l108, l109, l110, l111, l112, l113, l114,
    l115, l116, l117, l118, l119, l120, l121, l122, l123, l124, l125, l126, l207, vb, Pi.add_apply, mv_0, mv_1, mv_2, cr_0, cr_1, cr_2, foot, pv_0, pv_1, pv_2, side_0, mountX_0, mountY_0, th_0_0, th_0_1, th_0_2, segA, segB, segC, segD, segH, jac, jm_00, jm_01, jm_02, jm_10, jm_11, jm_12, jm_20, jm_21, jm_22, qd_0_0, qd_0_1, qd_0_2, om_0, om_1, om_2, lv_0, lv_1, lv_2] <;> ring
theorem h208 (x : Fin 36 → ℝ) : l208 x = -vb 0 x 0 := by
  simp only [l16, l18, l20, l22, l24, l40, l117, l118, l119, l120, l121, l122, l152, l153, l156, l157, l158, l159, l166, l167,
    l168, l169, l170, l171, l172, l208, vb, Pi.add_apply, mv_0, mv_1, mv_2, cr_0, cr_1, cr_2, foot, pv_0, pv_1, pv_2, side_0, mountX_0, mountY_0, th_0_0, th_0_1, th_0_2, segA, segB, segC, segD, segH, jac, jm_00, jm_01, jm_02, jm_10, jm_11, jm_12, jm_20, jm_21, jm_22, qd_0_0, qd_0_1, qd_0_2, om_0, om_1, om_2, lv_0, lv_1, lv_2] <;> ring

theorem e0_0 (x : Fin 36 → ℝ) : l71 x = (dRm (Qe x) (dQ 0 x) *ᵥ foot 0 x) 0 := by
  simp only [l27, l29, l30, l32, l33, l35, l37, l39, l50, l51, l58, l59, l60, l62, l63, l65, l66, l67, l68, l69, l70, l71, h26,
    h38, h46, h49, h55, h56, h57, h61, h64, mv_0, mv_1, mv_2, dRm_00, dRm_01, dRm_02, dRm_10, dRm_11, dRm_12, dRm_20, dRm_21, dRm_22, dQ_0_0, dQ_0_1, dQ_0_2, dQ_0_3] <;> ring
theorem e0_1 (x : Fin 36 → ℝ) : l86 x = (dRm (Qe x) (dQ 0 x) *ᵥ foot 0 x) 1 := by
  simp only [l27, l29, l30, l32, l33, l35, l37, l39, l50, l67, l70, l73, l75, l76, l77, l78, l79, l80, l82, l83, l84, l85, l86,
    h26, h38, h49, h54, h56, h57, h72, h74, h81, mv_0, mv_1, mv_2, dRm_00, dRm_01, dRm_02, dRm_10, dRm_11, dRm_12, dRm_20, dRm_21, dRm_22, dQ_0_0, dQ_0_1, dQ_0_2, dQ_0_3] <;> ring
theorem e0_2 (x : Fin 36 → ℝ) : l100 x = (dRm (Qe x) (dQ 0 x) *ᵥ foot 0 x) 2 := by
  simp only [l27, l29, l30, l32, l33, l35, l37, l39, l50, l67, l70, l73, l88, l91, l92, l93, l94, l95, l96, l97, l98, l99, l100,
    h38, h46, h49, h54, h56, h57, h87, h89, h90, mv_0, mv_1, mv_2, dRm_00, dRm_01, dRm_02, dRm_10, dRm_11, dRm_12, dRm_20, dRm_21, dRm_22, dQ_0_0, dQ_0_1, dQ_0_2, dQ_0_3] <;> ring
theorem e0_3 (x : Fin 36 → ℝ) : l189 x = (dRm (Qe x) (dQ 0 x) *ᵥ vb 0 x) 0 := by
  simp only [l127, l129, l130, l132, l133, l135, l137, l139, l164, l165, l176, l177, l178, l180, l181, l183, l184, l185, l186,
    l187, l188, l189, h126, h138, h160, h163, h173, h174, h175, h179, h182, mv_0, mv_1, mv_2, dRm_00, dRm_01, dRm_02, dRm_10, dRm_11, dRm_12, dRm_20, dRm_21, dRm_22, dQ_0_0, dQ_0_1, dQ_0_2, dQ_0_3] <;> ring
theorem e0_4 (x : Fin 36 → ℝ) : l204 x = (dRm (Qe x) (dQ 0 x) *ᵥ vb 0 x) 1 := by
  simp only [l127, l129, l130, l132, l133, l135, l137, l139, l164, l185, l188, l191, l193, l194, l195, l196, l197, l198, l200,
    l201, l202, l203, l204, h126, h138, h163, h172, h174, h175, h190, h192, h199, mv_0, mv_1, mv_2, dRm_00, dRm_01, dRm_02, dRm_10, dRm_11, dRm_12, dRm_20, dRm_21, dRm_22, dQ_0_0, dQ_0_1, dQ_0_2, dQ_0_3] <;> ring
theorem e0_5 (x : Fin 36 → ℝ) : l218 x = (dRm (Qe x) (dQ 0 x) *ᵥ vb 0 x) 2 := by
  simp only [l127, l129, l130, l132, l133, l135, l137, l139, l164, l185, l188, l191, l206, l209, l210, l211, l212, l213, l214,
    l215, l216, l217, l218, h138, h160, h163, h172, h174, h175, h205, h207, h208, mv_0, mv_1, mv_2, dRm_00, dRm_01, dRm_02, dRm_10, dRm_11, dRm_12, dRm_20, dRm_21, dRm_22, dQ_0_0, dQ_0_1, dQ_0_2, dQ_0_3] <;> ring
theorem e1_0 (x : Fin 36 → ℝ) : l837 x = (dRm (Qe x) (dQ 1 x) *ᵥ foot 0 x) 0 := by
  simp only [l27, l28, l29, l32, l33, l34, l37, l39, l50, l51, l58, l59, l60, l62, l63, l65, l66, l68, l69, l835, l836, l837,
    h26, h38, h46, h49, h55, h56, h57, h61, h64, mv_0, mv_1, mv_2, dRm_00, dRm_01, dRm_02, dRm_10, dRm_11, dRm_12, dRm_20, dRm_21, dRm_22, dQ_1_0, dQ_1_1, dQ_1_2, dQ_1_3] <;> ring
theorem e1_1 (x : Fin 36 → ℝ) : l838 x = (dRm (Qe x) (dQ 1 x) *ᵥ foot 0 x) 1 := by
  simp only [l27, l28, l29, l32, l33, l34, l37, l39, l50, l73, l75, l76, l77, l78, l79, l80, l82, l83, l84, l85, l835, l836,
    l838, h26, h38, h49, h54, h56, h57, h72, h74, h81, mv_0, mv_1, mv_2, dRm_00, dRm_01, dRm_02, dRm_10, dRm_11, dRm_12, dRm_20, dRm_21, dRm_22, dQ_1_0, dQ_1_1, dQ_1_2, dQ_1_3] <;> ring
theorem e1_2 (x : Fin 36 → ℝ) : l839 x = (dRm (Qe x) (dQ 1 x) *ᵥ foot 0 x) 2 := by
  simp only [l27, l28, l29, l32, l33, l34, l37, l39, l50, l73, l88, l91, l92, l93, l94, l95, l96, l97, l98, l99, l835, l836,
    l839, h38, h46, h49, h54, h56, h57, h87, h89, h90, mv_0, mv_1, mv_2, dRm_00, dRm_01, dRm_02, dRm_10, dRm_11, dRm_12, dRm_20, dRm_21, dRm_22, dQ_1_0, dQ_1_1, dQ_1_2, dQ_1_3] <;> ring
theorem e1_3 (x : Fin 36 → ℝ) : l842 x = (dRm (Qe x) (dQ 1 x) *ᵥ vb 0 x) 0 := by
  simp only [l127, l128, l129, l132, l133, l134, l137, l139, l164, l165, l176, l177, l178, l180, l181, l183, l184, l186, l187,
    l840, l841, l842, h126, h138, h160, h163, h173, h174, h175, h179, h182, mv_0, mv_1, mv_2, dRm_00, dRm_01, dRm_02, dRm_10, dRm_11, dRm_12, dRm_20, dRm_21, dRm_22, dQ_1_0, dQ_1_1, dQ_1_2, dQ_1_3] <;> ring
theorem e1_4 (x : Fin 36 → ℝ) : l843 x = (dRm (Qe x) (dQ 1 x) *ᵥ vb 0 x) 1 := by
  simp only [l127, l128, l129, l132, l133, l134, l137, l139, l164, l191, l193, l194, l195, l196, l197, l198, l200, l201, l202,
    l203, l840, l841, l843, h126, h138, h163, h172, h174, h175, h190, h192, h199, mv_0, mv_1, mv_2, dRm_00, dRm_01, dRm_02, dRm_10, dRm_11, dRm_12, dRm_20, dRm_21, dRm_22, dQ_1_0, dQ_1_1, dQ_1_2, dQ_1_3] <;> ring
theorem e1_5 (x : Fin 36 → ℝ) : l844 x = (dRm (Qe x) (dQ 1 x) *ᵥ vb 0 x) 2 := by
  simp only [l127, l128, l129, l132, l133, l134, l137, l139, l164, l191, l206, l209, l210, l211, l212, l213, l214, l215, l216,
    l217, l840, l841, l844, h138, h160, h163, h172, h174, h175, h205, h207, h208, mv_0, mv_1, mv_2, dRm_00, dRm_01, dRm_02, dRm_10, dRm_11, dRm_12, dRm_20, dRm_21, dRm_22, dQ_1_0, dQ_1_1, dQ_1_2, dQ_1_3] <;> ring
theorem e2_0 (x : Fin 36 → ℝ) : l877 x = (dRm (Qe x) (dQ 2 x) *ᵥ foot 0 x) 0 := by
  simp only [l27, l28, l29, l30, l31, l32, l34, l35, l36, l39, l47, l48, l50, l51, l58, l59, l62, l63, l65, l875, l876, l877,
    h26, h38, h46, h49, h55, h56, h57, h61, h64, mv_0, mv_1, mv_2, dRm_00, dRm_01, dRm_02, dRm_10, dRm_11, dRm_12, dRm_20, dRm_21, dRm_22, dQ_2_0, dQ_2_1, dQ_2_2, dQ_2_3] <;> ring
theorem e2_1 (x : Fin 36 → ℝ) : l878 x = (dRm (Qe x) (dQ 2 x) *ᵥ foot 0 x) 1 := by
  simp only [l27, l28, l29, l30, l31, l32, l34, l35, l36, l39, l47, l48, l50, l73, l75, l76, l77, l79, l80, l82, l875, l876,
    l878, h26, h38, h49, h54, h56, h57, h72, h74, h81, mv_0, mv_1, mv_2, dRm_00, dRm_01, dRm_02, dRm_10, dRm_11, dRm_12, dRm_20, dRm_21, dRm_22, dQ_2_0, dQ_2_1, dQ_2_2, dQ_2_3] <;> ring
theorem e2_2 (x : Fin 36 → ℝ) : l879 x = (dRm (Qe x) (dQ 2 x) *ᵥ foot 0 x) 2 := by
  simp only [l27, l28, l29, l30, l31, l32, l34, l35, l36, l39, l47, l48, l50, l73, l88, l91, l92, l94, l95, l96, l875, l876,
    l879, h38, h46, h49, h54, h56, h57, h87, h89, h90, mv_0, mv_1, mv_2, dRm_00, dRm_01, dRm_02, dRm_10, dRm_11, dRm_12, dRm_20, dRm_21, dRm_22, dQ_2_0, dQ_2_1, dQ_2_2, dQ_2_3] <;> ring
theorem e2_3 (x : Fin 36 → ℝ) : l882 x = (dRm (Qe x) (dQ 2 x) *ᵥ vb 0 x) 0 := by
  simp only [l127, l128, l129, l130, l131, l132, l134, l135, l136, l139, l161, l162, l164, l165, l176, l177, l180, l181, l183,
    l880, l881, l882, h126, h138, h160, h163, h173, h174, h175, h179, h182, mv_0, mv_1, mv_2, dRm_00, dRm_01, dRm_02, dRm_10, dRm_11, dRm_12, dRm_20, dRm_21, dRm_22, dQ_2_0, dQ_2_1, dQ_2_2, dQ_2_3] <;> ring
theorem e2_4 (x : Fin 36 → ℝ) : l883 x = (dRm (Qe x) (dQ 2 x) *ᵥ vb 0 x) 1 := by
  simp only [l127, l128, l129, l130, l131, l132, l134, l135, l136, l139, l161, l162, l164, l191, l193, l194, l195, l197, l198,
    l200, l880, l881, l883, h126, h138, h163, h172, h174, h175, h190, h192, h199, mv_0, mv_1, mv_2, dRm_00, dRm_01, dRm_02, dRm_10, dRm_11, dRm_12, dRm_20, dRm_21, dRm_22, dQ_2_0, dQ_2_1, dQ_2_2, dQ_2_3] <;> ring
theorem e2_5 (x : Fin 36 → ℝ) : l884 x = (dRm (Qe x) (dQ 2 x) *ᵥ vb 0 x) 2 := by
  simp only [l127, l128, l129, l130, l131, l132, l134, l135, l136, l139, l161, l162, l164, l191, l206, l209, l210, l212, l213,
    l214, l880, l881, l884, h138, h160, h163, h172, h174, h175, h205, h207, h208, mv_0, mv_1, mv_2, dRm_00, dRm_01, dRm_02, dRm_10, dRm_11, dRm_12, dRm_20, dRm_21, dRm_22, dQ_2_0, dQ_2_1, dQ_2_2, dQ_2_3] <;> ring
theorem e3_0 (x : Fin 36 → ℝ) : l1784 x = ((Pi.single 0 1 : V3)) 0 := by simp [l1784]
theorem e3_1 (_x : Fin 36 → ℝ) : (0 : ℝ) = ((Pi.single 0 1 : V3)) 1 := by simp [Pi.zero_apply]
theorem e3_2 (_x : Fin 36 → ℝ) : (0 : ℝ) = ((Pi.single 0 1 : V3)) 2 := by simp [Pi.zero_apply]
theorem e3_3 (_x : Fin 36 → ℝ) : (0 : ℝ) = ((0 : V3)) 0 := by simp [Pi.zero_apply]
theorem e3_4 (_x : Fin 36 → ℝ) : (0 : ℝ) = ((0 : V3)) 1 := by simp [Pi.zero_apply]
theorem e3_5 (_x : Fin 36 → ℝ) : (0 : ℝ) = ((0 : V3)) 2 := by simp [Pi.zero_apply]
theorem e4_0 (_x : Fin 36 → ℝ) : (0 : ℝ) = ((Pi.single 1 1 : V3)) 0 := by simp [Pi.zero_apply]
theorem e4_1 (x : Fin 36 → ℝ) : l1788 x = ((Pi.single 1 1 : V3)) 1 := by simp [l1788]
theorem e4_2 (_x : Fin 36 → ℝ) : (0 : ℝ) = ((Pi.single 1 1 : V3)) 2 := by simp [Pi.zero_apply]
theorem e4_3 (_x : Fin 36 → ℝ) : (0 : ℝ) = ((0 : V3)) 0 := by simp [Pi.zero_apply]
theorem e4_4 (_x : Fin 36 → ℝ) : (0 : ℝ) = ((0 : V3)) 1 := by simp [Pi.zero_apply]
theorem e4_5 (_x : Fin 36 → ℝ) : (0 : ℝ) = ((0 : V3)) 2 := by simp [Pi.zero_apply]
theorem e5_0 (_x : Fin 36 → ℝ) : (0 : ℝ) = ((Pi.single 2 1 : V3)) 0 := by simp [Pi.zero_apply]
theorem e5_1 (_x : Fin 36 → ℝ) : (0 : ℝ) = ((Pi.single 2 1 : V3)) 1 := by simp [Pi.zero_apply]
theorem e5_2 (x : Fin 36 → ℝ) : l1792 x = ((Pi.single 2 1 : V3)) 2 := by simp [l1792]
theorem e5_3 (_x : Fin 36 → ℝ) : (0 : ℝ) = ((0 : V3)) 0 := by simp [Pi.zero_apply]
theorem e5_4 (_x : Fin 36 → ℝ) : (0 : ℝ) = ((0 : V3)) 1 := by simp [Pi.zero_apply]
theorem e5_5 (_x : Fin 36 → ℝ) : (0 : ℝ) = ((0 : V3)) 2 := by simp [Pi.zero_apply]
theorem e6_0 (x : Fin 36 → ℝ) : l931 x = (quatMatrix (Qe x) *ᵥ jcol 0 0 x) 0 := by
  simp only [l18, l20, l22, l24, l39, l50, l915, l916, l917, l918, l919, l920, l921, l922, l923, l924, l925, l926, l927, l928,
    l929, l930, l931, h38, h49, h56, h57, mv_0, mv_1, mv_2, qm_00, qm_01, qm_02, qm_10, qm_11, qm_12, qm_20, qm_21, qm_22, jcol, jac, jm_00, jm_01, jm_02, jm_10, jm_11, jm_12, jm_20, jm_21, jm_22, side_0, th_0_0, th_0_1, th_0_2, segA, segB, segC, segD, segH, Pi.add_apply, cr_0, cr_1, cr_2, djm_0_00, djm_0_01, djm_0_02, djm_0_10, djm_0_11, djm_0_12, djm_0_20, djm_0_21, djm_0_22, qd_0_0, qd_0_1, qd_0_2, om_0, om_1, om_2] <;> ring
theorem e6_1 (x : Fin 36 → ℝ) : l946 x = (quatMatrix (Qe x) *ᵥ jcol 0 0 x) 1 := by
  simp only [l18, l20, l22, l24, l39, l73, l922, l930, l932, l933, l934, l935, l936, l937, l938, l939, l940, l941, l942, l943,
    l944, l945, l946, h38, h49, h56, h57, mv_0, mv_1, mv_2, qm_00, qm_01, qm_02, qm_10, qm_11, qm_12, qm_20, qm_21, qm_22, jcol, jac, jm_00, jm_01, jm_02, jm_10, jm_11, jm_12, jm_20, jm_21, jm_22, side_0, th_0_0, th_0_1, th_0_2, segA, segB, segC, segD, segH, Pi.add_apply, cr_0, cr_1, cr_2, djm_0_00, djm_0_01, djm_0_02, djm_0_10, djm_0_11, djm_0_12, djm_0_20, djm_0_21, djm_0_22, qd_0_0, qd_0_1, qd_0_2, om_0, om_1, om_2] <;> ring
theorem e6_2 (x : Fin 36 → ℝ) : l958 x = (quatMatrix (Qe x) *ᵥ jcol 0 0 x) 2 := by
  simp only [l18, l20, l22, l24, l39, l50, l73, l922, l930, l932, l933, l940, l947, l948, l949, l950, l951, l952, l953, l954,
    l955, l956, l957, l958, h38, h49, h56, h57, mv_0, mv_1, mv_2, qm_00, qm_01, qm_02, qm_10, qm_11, qm_12, qm_20, qm_21, qm_22, jcol, jac, jm_00, jm_01, jm_02, jm_10, jm_11, jm_12, jm_20, jm_21, jm_22, side_0, th_0_0, th_0_1, th_0_2, segA, segB, segC, segD, segH, Pi.add_apply, cr_0, cr_1, cr_2, djm_0_00, djm_0_01, djm_0_02, djm_0_10, djm_0_11, djm_0_12, djm_0_20, djm_0_21, djm_0_22, qd_0_0, qd_0_1, qd_0_2, om_0, om_1, om_2] <;> ring
theorem e6_3 (x : Fin 36 → ℝ) : l1006 x = (quatMatrix (Qe x) *ᵥ (djm (side 0) 0 (th 0 x) *ᵥ qd 0 x + cross (om x) (jcol 0 0 x))) 0 := by
  simp only [l18, l20, l22, l24, l139, l164, l922, l930, l959, l960, l961, l962, l963, l964, l966, l967, l968, l969, l970, l971,
    l972, l978, l979, l980, l981, l982, l983, l984, l985, l986, l987, l988, l989, l990, l992, l993, l994, l995, l996, l997, l998, l999, l1000, l1001, l1002, l1003, l1004, l1005, l1006, h138, h163, h174, h175, mv_0, mv_1, mv_2, qm_00, qm_01, qm_02, qm_10, qm_11, qm_12, qm_20, qm_21, qm_22, jcol, jac, jm_00, jm_01, jm_02, jm_10, jm_11, jm_12, jm_20, jm_21, jm_22, side_0, th_0_0, th_0_1, th_0_2, segA, segB, segC, segD, segH, Pi.add_apply, cr_0, cr_1, cr_2, djm_0_00, djm_0_01, djm_0_02, djm_0_10, djm_0_11, djm_0_12, djm_0_20, djm_0_21, djm_0_22, qd_0_0, qd_0_1, qd_0_2, om_0, om_1, om_2] <;> ring
theorem e6_4 (x : Fin 36 → ℝ) : l1053 x = (quatMatrix (Qe x) *ᵥ (djm (side 0) 0 (th 0 x) *ᵥ qd 0 x + cross (om x) (jcol 0 0 x))) 1 := by
  simp only [l18, l20, l22, l24, l139, l164, l191, l922, l930, l959, l962, l963, l965, l1007, l1008, l1010, l1011, l1012, l1013,
    l1014, l1015, l1016, l1025, l1026, l1027, l1028, l1029, l1030, l1031, l1032, l1033, l1034, l1035, l1036, l1037, l1039, l1040, l1041, l1042, l1043, l1044, l1045, l1046, l1047, l1048, l1049, l1050, l1051, l1052, l1053, h138, h163, h174, h175, mv_0, mv_1, mv_2, qm_00, qm_01, qm_02, qm_10, qm_11, qm_12, qm_20, qm_21, qm_22, jcol, jac, jm_00, jm_01, jm_02, jm_10, jm_11, jm_12, jm_20, jm_21, jm_22, side_0, th_0_0, th_0_1, th_0_2, segA, segB, segC, segD, segH, Pi.add_apply, cr_0, cr_1, cr_2, djm_0_00, djm_0_01, djm_0_02, djm_0_10, djm_0_11, djm_0_12, djm_0_20, djm_0_21, djm_0_22, qd_0_0, qd_0_1, qd_0_2, om_0, om_1, om_2] <;> ring
theorem e6_5 (x : Fin 36 → ℝ) : l1087 x = (quatMatrix (Qe x) *ᵥ (djm (side 0) 0 (th 0 x) *ᵥ qd 0 x + cross (om x) (jcol 0 0 x))) 2 := by
  simp only [l18, l20, l22, l24, l139, l164, l191, l922, l930, l960, l970, l971, l974, l1007, l1009, l1014, l1015, l1018, l1054,
    l1055, l1056, l1057, l1059, l1060, l1061, l1062, l1063, l1064, l1065, l1066, l1067, l1068, l1069, l1070, l1071, l1073, l1074, l1075, l1076, l1077, l1078, l1079, l1080, l1081, l1082, l1083, l1084, l1085, l1086, l1087, h138, h163, h174, h175, mv_0, mv_1, mv_2, qm_00, qm_01, qm_02, qm_10, qm_11, qm_12, qm_20, qm_21, qm_22, jcol, jac, jm_00, jm_01, jm_02, jm_10, jm_11, jm_12, jm_20, jm_21, jm_22, side_0, th_0_0, th_0_1, th_0_2, segA, segB, segC, segD, segH, Pi.add_apply, cr_0, cr_1, cr_2, djm_0_00, djm_0_01, djm_0_02, djm_0_10, djm_0_11, djm_0_12, djm_0_20, djm_0_21, djm_0_22, qd_0_0, qd_0_1, qd_0_2, om_0, om_1, om_2] <;> ring
theorem e7_0 (x : Fin 36 → ℝ) : l1092 x = (quatMatrix (Qe x) *ᵥ jcol 0 1 x) 0 := by
  simp only [l16, l17, l20, l21, l24, l25, l39, l40, l41, l43, l45, l50, l915, l916, l917, l918, l919, l920, l921, l923, l924,
    l925, l926, l927, l928, l929, l939, l947, l1088, l1089, l1090, l1091, l1092, h38, h49, h56, h57, mv_0, mv_1, mv_2, qm_00, qm_01, qm_02, qm_10, qm_11, qm_12, qm_20, qm_21, qm_22, jcol, jac, jm_00, jm_01, jm_02, jm_10, jm_11, jm_12, jm_20, jm_21, jm_22, side_0, th_0_0, th_0_1, th_0_2, segA, segB, segC, segD, segH, Pi.add_apply, cr_0, cr_1, cr_2, djm_1_00, djm_1_01, djm_1_02, djm_1_10, djm_1_11, djm_1_12, djm_1_20, djm_1_21, djm_1_22, qd_0_0, qd_0_1, qd_0_2, om_0, om_1, om_2] <;> ring
theorem e7_1 (x : Fin 36 → ℝ) : l1095 x = (quatMatrix (Qe x) *ᵥ jcol 0 1 x) 1 := by
  simp only [l16, l17, l20, l21, l24, l25, l39, l40, l41, l43, l45, l50, l73, l923, l924, l932, l933, l934, l935, l936, l937,
    l938, l939, l940, l941, l942, l943, l944, l945, l1089, l1091, l1093, l1094, l1095, h38, h49, h56, h57, mv_0, mv_1, mv_2, qm_00, qm_01, qm_02, qm_10, qm_11, qm_12, qm_20, qm_21, qm_22, jcol, jac, jm_00, jm_01, jm_02, jm_10, jm_11, jm_12, jm_20, jm_21, jm_22, side_0, th_0_0, th_0_1, th_0_2, segA, segB, segC, segD, segH, Pi.add_apply, cr_0, cr_1, cr_2, djm_1_00, djm_1_01, djm_1_02, djm_1_10, djm_1_11, djm_1_12, djm_1_20, djm_1_21, djm_1_22, qd_0_0, qd_0_1, qd_0_2, om_0, om_1, om_2] <;> ring
theorem e7_2 (x : Fin 36 → ℝ) : l1098 x = (quatMatrix (Qe x) *ᵥ jcol 0 1 x) 2 := by
  simp only [l16, l17, l20, l21, l24, l25, l39, l40, l41, l43, l45, l50, l73, l915, l916, l932, l933, l940, l947, l948, l949,
    l950, l951, l952, l953, l954, l955, l956, l957, l1089, l1091, l1096, l1097, l1098, h38, h49, h56, h57, mv_0, mv_1, mv_2, qm_00, qm_01, qm_02, qm_10, qm_11, qm_12, qm_20, qm_21, qm_22, jcol, jac, jm_00, jm_01, jm_02, jm_10, jm_11, jm_12, jm_20, jm_21, jm_22, side_0, th_0_0, th_0_1, th_0_2, segA, segB, segC, segD, segH, Pi.add_apply, cr_0, cr_1, cr_2, djm_1_00, djm_1_01, djm_1_02, djm_1_10, djm_1_11, djm_1_12, djm_1_20, djm_1_21, djm_1_22, qd_0_0, qd_0_1, qd_0_2, om_0, om_1, om_2] <;> ring
theorem e7_3 (x : Fin 36 → ℝ) : l1107 x = (quatMatrix (Qe x) *ᵥ (djm (side 0) 1 (th 0 x) *ᵥ qd 0 x + cross (om x) (jcol 0 1 x))) 0 := by
  simp only [l16, l20, l24, l40, l101, l103, l107, l109, l111, l113, l115, l117, l119, l121, l139, l140, l142, l146, l148, l150,
    l152, l154, l156, l158, l164, l959, l960, l961, l962, l963, l964, l966, l967, l968, l969, l970, l971, l972, l978, l979, l980, l981, l982, l983, l984, l985, l986, l987, l988, l989, l990, l992, l993, l994, l995, l996, l997, l998, l999, l1000, l1001, l1002, l1003, l1004, l1005, l1089, l1091, l1099, l1101, l1102, l1103, l1104, l1105, l1106, l1107, h138, h163, h174, h175, mv_0, mv_1, mv_2, qm_00, qm_01, qm_02, qm_10, qm_11, qm_12, qm_20, qm_21, qm_22, jcol, jac, jm_00, jm_01, jm_02, jm_10, jm_11, jm_12, jm_20, jm_21, jm_22, side_0, th_0_0, th_0_1, th_0_2, segA, segB, segC, segD, segH, Pi.add_apply, cr_0, cr_1, cr_2, djm_1_00, djm_1_01, djm_1_02, djm_1_10, djm_1_11, djm_1_12, djm_1_20, djm_1_21, djm_1_22, qd_0_0, qd_0_1, qd_0_2, om_0, om_1, om_2] <;> ring
theorem e7_4 (x : Fin 36 → ℝ) : l1116 x = (quatMatrix (Qe x) *ᵥ (djm (side 0) 1 (th 0 x) *ᵥ qd 0 x + cross (om x) (jcol 0 1 x))) 1 := by
  simp only [l16, l20, l24, l40, l101, l103, l107, l109, l111, l113, l115, l117, l119, l121, l139, l140, l142, l146, l148, l150,
    l152, l154, l156, l158, l164, l191, l959, l962, l963, l965, l1007, l1008, l1010, l1011, l1012, l1013, l1014, l1015, l1016, l1025, l1026, l1027, l1028, l1029, l1030, l1031, l1032, l1033, l1034, l1035, l1036, l1037, l1039, l1040, l1041, l1042, l1043, l1044, l1045, l1046, l1047, l1048, l1049, l1050, l1051, l1052, l1089, l1091, l1108, l1110, l1111, l1112, l1113, l1114, l1115, l1116, h138, h163, h174, h175, mv_0, mv_1, mv_2, qm_00, qm_01, qm_02, qm_10, qm_11, qm_12, qm_20, qm_21, qm_22, jcol, jac, jm_00, jm_01, jm_02, jm_10, jm_11, jm_12, jm_20, jm_21, jm_22, side_0, th_0_0, th_0_1, th_0_2, segA, segB, segC, segD, segH, Pi.add_apply, cr_0, cr_1, cr_2, djm_1_00, djm_1_01, djm_1_02, djm_1_10, djm_1_11, djm_1_12, djm_1_20, djm_1_21, djm_1_22, qd_0_0, qd_0_1, qd_0_2, om_0, om_1, om_2] <;> ring
theorem e7_5 (x : Fin 36 → ℝ) : l1125 x = (quatMatrix (Qe x) *ᵥ (djm (side 0) 1 (th 0 x) *ᵥ qd 0 x + cross (om x) (jcol 0 1 x))) 2 := by
  simp only [l16, l20, l24, l40, l101, l103, l107, l109, l111, l113, l115, l117, l119, l121, l139, l140, l142, l146, l148, l150,
    l152, l154, l156, l158, l164, l191, l960, l970, l971, l974, l1007, l1009, l1014, l1015, l1018, l1054, l1055, l1056, l1057, l1059, l1060, l1061, l1062, l1063, l1064, l1065, l1066, l1067, l1068, l1069, l1070, l1071, l1073, l1074, l1075, l1076, l1077, l1078, l1079, l1080, l1081, l1082, l1083, l1084, l1085, l1086, l1089, l1091, l1117, l1119, l1120, l1121, l1122, l1123, l1124, l1125, h138, h163, h174, h175, mv_0, mv_1, mv_2, qm_00, qm_01, qm_02, qm_10, qm_11, qm_12, qm_20, qm_21, qm_22, jcol, jac, jm_00, jm_01, jm_02, jm_10, jm_11, jm_12, jm_20, jm_21, jm_22, side_0, th_0_0, th_0_1, th_0_2, segA, segB, segC, segD, segH, Pi.add_apply, cr_0, cr_1, cr_2, djm_1_00, djm_1_01, djm_1_02, djm_1_10, djm_1_11, djm_1_12, djm_1_20, djm_1_21, djm_1_22, qd_0_0, qd_0_1, qd_0_2, om_0, om_1, om_2] <;> ring
theorem e8_0 (x : Fin 36 → ℝ) : l1128 x = (quatMatrix (Qe x) *ᵥ jcol 0 2 x) 0 := by
  simp only [l16, l17, l18, l19, l21, l22, l23, l39, l40, l41, l42, l43, l44, l50, l52, l53, l915, l916, l917, l919, l923, l924,
    l925, l927, l939, l947, l1088, l1090, l1126, l1127, l1128, h38, h49, h56, h57, mv_0, mv_1, mv_2, qm_00, qm_01, qm_02, qm_10, qm_11, qm_12, qm_20, qm_21, qm_22, jcol, jac, jm_00, jm_01, jm_02, jm_10, jm_11, jm_12, jm_20, jm_21, jm_22, side_0, th_0_0, th_0_1, th_0_2, segA, segB, segC, segD, segH, Pi.add_apply, cr_0, cr_1, cr_2, djm_2_00, djm_2_01, djm_2_02, djm_2_10, djm_2_11, djm_2_12, djm_2_20, djm_2_21, djm_2_22, qd_0_0, qd_0_1, qd_0_2, om_0, om_1, om_2] <;> ring
theorem e8_1 (x : Fin 36 → ℝ) : l1129 x = (quatMatrix (Qe x) *ᵥ jcol 0 2 x) 1 := by
  simp only [l16, l17, l18, l19, l21, l22, l23, l39, l40, l41, l42, l43, l44, l50, l52, l53, l73, l923, l924, l932, l933, l934,
    l936, l939, l940, l941, l943, l1093, l1094, l1126, l1127, l1129, h38, h49, h56, h57, mv_0, mv_1, mv_2, qm_00, qm_01, qm_02, qm_10, qm_11, qm_12, qm_20, qm_21, qm_22, jcol, jac, jm_00, jm_01, jm_02, jm_10, jm_11, jm_12, jm_20, jm_21, jm_22, side_0, th_0_0, th_0_1, th_0_2, segA, segB, segC, segD, segH, Pi.add_apply, cr_0, cr_1, cr_2, djm_2_00, djm_2_01, djm_2_02, djm_2_10, djm_2_11, djm_2_12, djm_2_20, djm_2_21, djm_2_22, qd_0_0, qd_0_1, qd_0_2, om_0, om_1, om_2] <;> ring
theorem e8_2 (x : Fin 36 → ℝ) : l1130 x = (quatMatrix (Qe x) *ᵥ jcol 0 2 x) 2 := by
  simp only [l16, l17, l18, l19, l21, l22, l23, l39, l40, l41, l42, l43, l44, l50, l52, l53, l73, l915, l916, l932, l933, l940,
    l947, l948, l950, l953, l955, l1096, l1097, l1126, l1127, l1130, h38, h49, h56, h57, mv_0, mv_1, mv_2, qm_00, qm_01, qm_02, qm_10, qm_11, qm_12, qm_20, qm_21, qm_22, jcol, jac, jm_00, jm_01, jm_02, jm_10, jm_11, jm_12, jm_20, jm_21, jm_22, side_0, th_0_0, th_0_1, th_0_2, segA, segB, segC, segD, segH, Pi.add_apply, cr_0, cr_1, cr_2, djm_2_00, djm_2_01, djm_2_02, djm_2_10, djm_2_11, djm_2_12, djm_2_20, djm_2_21, djm_2_22, qd_0_0, qd_0_1, qd_0_2, om_0, om_1, om_2] <;> ring
theorem e8_3 (x : Fin 36 → ℝ) : l1131 x = (quatMatrix (Qe x) *ᵥ (djm (side 0) 2 (th 0 x) *ᵥ qd 0 x + cross (om x) (jcol 0 2 x))) 0 := by
  simp only [l16, l18, l22, l40, l101, l102, l103, l104, l106, l107, l108, l111, l112, l113, l114, l117, l118, l119, l120, l123,
    l124, l139, l140, l141, l142, l143, l145, l146, l147, l150, l151, l152, l153, l156, l157, l164, l166, l167, l169, l170, l959, l960, l961, l962, l963, l964, l966, l967, l970, l971, l972, l978, l980, l984, l986, l987, l990, l992, l994, l997, l1000, l1002, l1099, l1101, l1102, l1103, l1104, l1105, l1106, l1126, l1127, l1131, h138, h163, h174, h175, mv_0, mv_1, mv_2, qm_00, qm_01, qm_02, qm_10, qm_11, qm_12, qm_20, qm_21, qm_22, jcol, jac, jm_00, jm_01, jm_02, jm_10, jm_11, jm_12, jm_20, jm_21, jm_22, side_0, th_0_0, th_0_1, th_0_2, segA, segB, segC, segD, segH, Pi.add_apply, cr_0, cr_1, cr_2, djm_2_00, djm_2_01, djm_2_02, djm_2_10, djm_2_11, djm_2_12, djm_2_20, djm_2_21, djm_2_22, qd_0_0, qd_0_1, qd_0_2, om_0, om_1, om_2] <;> ring
theorem e8_4 (x : Fin 36 → ℝ) : l1132 x = (quatMatrix (Qe x) *ᵥ (djm (side 0) 2 (th 0 x) *ᵥ qd 0 x + cross (om x) (jcol 0 2 x))) 1 := by
  simp only [l16, l18, l22, l40, l101, l102, l103, l104, l106, l107, l108, l111, l112, l113, l114, l117, l118, l119, l120, l123,
    l124, l139, l140, l141, l142, l143, l145, l146, l147, l150, l151, l152, l153, l156, l157, l164, l166, l167, l169, l170, l191, l959, l962, l963, l965, l1007, l1008, l1010, l1011, l1014, l1015, l1016, l1025, l1027, l1031, l1033, l1034, l1037, l1039, l1041, l1044, l1047, l1049, l1108, l1110, l1111, l1112, l1113, l1114, l1115, l1126, l1127, l1132, h138, h163, h174, h175, mv_0, mv_1, mv_2, qm_00, qm_01, qm_02, qm_10, qm_11, qm_12, qm_20, qm_21, qm_22, jcol, jac, jm_00, jm_01, jm_02, jm_10, jm_11, jm_12, jm_20, jm_21, jm_22, side_0, th_0_0, th_0_1, th_0_2, segA, segB, segC, segD, segH, Pi.add_apply, cr_0, cr_1, cr_2, djm_2_00, djm_2_01, djm_2_02, djm_2_10, djm_2_11, djm_2_12, djm_2_20, djm_2_21, djm_2_22, qd_0_0, qd_0_1, qd_0_2, om_0, om_1, om_2] <;> ring
theorem e8_5 (x : Fin 36 → ℝ) : l1133 x = (quatMatrix (Qe x) *ᵥ (djm (side 0) 2 (th 0 x) *ᵥ qd 0 x + cross (om x) (jcol 0 2 x))) 2 := by
  simp only [l16, l18, l22, l40, l101, l102, l103, l104, l106, l107, l108, l111, l112, l113, l114, l117, l118, l119, l120, l123,
    l124, l139, l140, l141, l142, l143, l145, l146, l147, l150, l151, l152, l153, l156, l157, l164, l166, l167, l169, l170, l191, l960, l970, l971, l974, l1007, l1009, l1014, l1015, l1018, l1054, l1055, l1059, l1061, l1065, l1067, l1068, l1071, l1073, l1075, l1078, l1081, l1083, l1117, l1119, l1120, l1121, l1122, l1123, l1124, l1126, l1127, l1133, h138, h163, h174, h175, mv_0, mv_1, mv_2, qm_00, qm_01, qm_02, qm_10, qm_11, qm_12, qm_20, qm_21, qm_22, jcol, jac, jm_00, jm_01, jm_02, jm_10, jm_11, jm_12, jm_20, jm_21, jm_22, side_0, th_0_0, th_0_1, th_0_2, segA, segB, segC, segD, segH, Pi.add_apply, cr_0, cr_1, cr_2, djm_2_00, djm_2_01, djm_2_02, djm_2_10, djm_2_11, djm_2_12, djm_2_20, djm_2_21, djm_2_22, qd_0_0, qd_0_1, qd_0_2, om_0, om_1, om_2] <;> ring
theorem e9_0 (_x : Fin 36 → ℝ) : (0 : ℝ) = ((0 : V3)) 0 := by simp [Pi.zero_apply]
theorem e9_1 (_x : Fin 36 → ℝ) : (0 : ℝ) = ((0 : V3)) 1 := by simp [Pi.zero_apply]
theorem e9_2 (_x : Fin 36 → ℝ) : (0 : ℝ) = ((0 : V3)) 2 := by simp [Pi.zero_apply]
theorem e9_3 (_x : Fin 36 → ℝ) : (0 : ℝ) = ((0 : V3)) 0 := by simp [Pi.zero_apply]
theorem e9_4 (_x : Fin 36 → ℝ) : (0 : ℝ) = ((0 : V3)) 1 := by simp [Pi.zero_apply]
theorem e9_5 (_x : Fin 36 → ℝ) : (0 : ℝ) = ((0 : V3)) 2 := by simp [Pi.zero_apply]
theorem e10_0 (_x : Fin 36 → ℝ) : (0 : ℝ) = ((0 : V3)) 0 := by simp [Pi.zero_apply]
theorem e10_1 (_x : Fin 36 → ℝ) : (0 : ℝ) = ((0 : V3)) 1 := by simp [Pi.zero_apply]
theorem e10_2 (_x : Fin 36 → ℝ) : (0 : ℝ) = ((0 : V3)) 2 := by simp [Pi.zero_apply]
theorem e10_3 (_x : Fin 36 → ℝ) : (0 : ℝ) = ((0 : V3)) 0 := by simp [Pi.zero_apply]
theorem e10_4 (_x : Fin 36 → ℝ) : (0 : ℝ) = ((0 : V3)) 1 := by simp [Pi.zero_apply]
theorem e10_5 (_x : Fin 36 → ℝ) : (0 : ℝ) = ((0 : V3)) 2 := by simp [Pi.zero_apply]
theorem e11_0 (_x : Fin 36 → ℝ) : (0 : ℝ) = ((0 : V3)) 0 := by simp [Pi.zero_apply]
theorem e11_1 (_x : Fin 36 → ℝ) : (0 : ℝ) = ((0 : V3)) 1 := by simp [Pi.zero_apply]
theorem e11_2 (_x : Fin 36 → ℝ) : (0 : ℝ) = ((0 : V3)) 2 := by simp [Pi.zero_apply]
theorem e11_3 (_x : Fin 36 → ℝ) : (0 : ℝ) = ((0 : V3)) 0 := by simp [Pi.zero_apply]
theorem e11_4 (_x : Fin 36 → ℝ) : (0 : ℝ) = ((0 : V3)) 1 := by simp [Pi.zero_apply]
theorem e11_5 (_x : Fin 36 → ℝ) : (0 : ℝ) = ((0 : V3)) 2 := by simp [Pi.zero_apply]
theorem e12_0 (_x : Fin 36 → ℝ) : (0 : ℝ) = ((0 : V3)) 0 := by simp [Pi.zero_apply]
theorem e12_1 (_x : Fin 36 → ℝ) : (0 : ℝ) = ((0 : V3)) 1 := by simp [Pi.zero_apply]
theorem e12_2 (_x : Fin 36 → ℝ) : (0 : ℝ) = ((0 : V3)) 2 := by simp [Pi.zero_apply]
theorem e12_3 (_x : Fin 36 → ℝ) : (0 : ℝ) = ((0 : V3)) 0 := by simp [Pi.zero_apply]
theorem e12_4 (_x : Fin 36 → ℝ) : (0 : ℝ) = ((0 : V3)) 1 := by simp [Pi.zero_apply]
theorem e12_5 (_x : Fin 36 → ℝ) : (0 : ℝ) = ((0 : V3)) 2 := by simp [Pi.zero_apply]
theorem e13_0 (_x : Fin 36 → ℝ) : (0 : ℝ) = ((0 : V3)) 0 := by simp [Pi.zero_apply]
theorem e13_1 (_x : Fin 36 → ℝ) : (0 : ℝ) = ((0 : V3)) 1 := by simp [Pi.zero_apply]
theorem e13_2 (_x : Fin 36 → ℝ) : (0 : ℝ) = ((0 : V3)) 2 := by simp [Pi.zero_apply]
theorem e13_3 (_x : Fin 36 → ℝ) : (0 : ℝ) = ((0 : V3)) 0 := by simp [Pi.zero_apply]
theorem e13_4 (_x : Fin 36 → ℝ) : (0 : ℝ) = ((0 : V3)) 1 := by simp [Pi.zero_apply]
theorem e13_5 (_x : Fin 36 → ℝ) : (0 : ℝ) = ((0 : V3)) 2 := by simp [Pi.zero_apply]
theorem e14_0 (_x : Fin 36 → ℝ) : (0 : ℝ) = ((0 : V3)) 0 := by simp [Pi.zero_apply]
theorem e14_1 (_x : Fin 36 → ℝ) : (0 : ℝ) = ((0 : V3)) 1 := by simp [Pi.zero_apply]
theorem e14_2 (_x : Fin 36 → ℝ) : (0 : ℝ) = ((0 : V3)) 2 := by simp [Pi.zero_apply]
theorem e14_3 (_x : Fin 36 → ℝ) : (0 : ℝ) = ((0 : V3)) 0 := by simp [Pi.zero_apply]
theorem e14_4 (_x : Fin 36 → ℝ) : (0 : ℝ) = ((0 : V3)) 1 := by simp [Pi.zero_apply]
theorem e14_5 (_x : Fin 36 → ℝ) : (0 : ℝ) = ((0 : V3)) 2 := by simp [Pi.zero_apply]
theorem e15_0 (_x : Fin 36 → ℝ) : (0 : ℝ) = ((0 : V3)) 0 := by simp [Pi.zero_apply]
theorem e15_1 (_x : Fin 36 → ℝ) : (0 : ℝ) = ((0 : V3)) 1 := by simp [Pi.zero_apply]
theorem e15_2 (_x : Fin 36 → ℝ) : (0 : ℝ) = ((0 : V3)) 2 := by simp [Pi.zero_apply]
theorem e15_3 (_x : Fin 36 → ℝ) : (0 : ℝ) = ((0 : V3)) 0 := by simp [Pi.zero_apply]
theorem e15_4 (_x : Fin 36 → ℝ) : (0 : ℝ) = ((0 : V3)) 1 := by simp [Pi.zero_apply]
theorem e15_5 (_x : Fin 36 → ℝ) : (0 : ℝ) = ((0 : V3)) 2 := by simp [Pi.zero_apply]
theorem e16_0 (_x : Fin 36 → ℝ) : (0 : ℝ) = ((0 : V3)) 0 := by simp [Pi.zero_apply]
theorem e16_1 (_x : Fin 36 → ℝ) : (0 : ℝ) = ((0 : V3)) 1 := by simp [Pi.zero_apply]
theorem e16_2 (_x : Fin 36 → ℝ) : (0 : ℝ) = ((0 : V3)) 2 := by simp [Pi.zero_apply]
theorem e16_3 (_x : Fin 36 → ℝ) : (0 : ℝ) = ((0 : V3)) 0 := by simp [Pi.zero_apply]
theorem e16_4 (_x : Fin 36 → ℝ) : (0 : ℝ) = ((0 : V3)) 1 := by simp [Pi.zero_apply]
theorem e16_5 (_x : Fin 36 → ℝ) : (0 : ℝ) = ((0 : V3)) 2 := by simp [Pi.zero_apply]
theorem e17_0 (_x : Fin 36 → ℝ) : (0 : ℝ) = ((0 : V3)) 0 := by simp [Pi.zero_apply]
theorem e17_1 (_x : Fin 36 → ℝ) : (0 : ℝ) = ((0 : V3)) 1 := by simp [Pi.zero_apply]
theorem e17_2 (_x : Fin 36 → ℝ) : (0 : ℝ) = ((0 : V3)) 2 := by simp [Pi.zero_apply]
theorem e17_3 (_x : Fin 36 → ℝ) : (0 : ℝ) = ((0 : V3)) 0 := by simp [Pi.zero_apply]
theorem e17_4 (_x : Fin 36 → ℝ) : (0 : ℝ) = ((0 : V3)) 1 := by simp [Pi.zero_apply]
theorem e17_5 (_x : Fin 36 → ℝ) : (0 : ℝ) = ((0 : V3)) 2 := by simp [Pi.zero_apply]
theorem e18_0 (_x : Fin 36 → ℝ) : (0 : ℝ) = ((0 : V3)) 0 := by simp [Pi.zero_apply]
theorem e18_1 (_x : Fin 36 → ℝ) : (0 : ℝ) = ((0 : V3)) 1 := by simp [Pi.zero_apply]
theorem e18_2 (_x : Fin 36 → ℝ) : (0 : ℝ) = ((0 : V3)) 2 := by simp [Pi.zero_apply]
theorem e18_3 (x : Fin 36 → ℝ) : l973 x = (quatMatrix (Qe x) *ᵥ cross (Pi.single 0 1) (foot 0 x)) 0 := by
  simp only [l16, l18, l20, l22, l24, l40, l117, l118, l119, l120, l121, l122, l139, l152, l153, l156, l157, l158, l159, l164,
    l962, l963, l964, l966, l970, l971, l972, l973, h138, h163, h174, h175, mv_0, mv_1, mv_2, qm_00, qm_01, qm_02, qm_10, qm_11, qm_12, qm_20, qm_21, qm_22, cr_0, cr_1, cr_2, E_0_0, E_0_1, E_0_2, foot, pv_0, pv_1, pv_2, side_0, mountX_0, mountY_0, th_0_0, th_0_1, th_0_2, segA, segB, segC, segD, segH] <;> ring
theorem e18_4 (x : Fin 36 → ℝ) : l1017 x = (quatMatrix (Qe x) *ᵥ cross (Pi.single 0 1) (foot 0 x)) 1 := by
  simp only [l16, l18, l20, l22, l24, l40, l117, l118, l119, l120, l121, l122, l139, l152, l153, l156, l157, l158, l159, l191,
    l959, l1007, l1008, l1010, l1014, l1015, l1016, l1017, h138, h163, h174, h175, mv_0, mv_1, mv_2, qm_00, qm_01, qm_02, qm_10, qm_11, qm_12, qm_20, qm_21, qm_22, cr_0, cr_1, cr_2, E_0_0, E_0_1, E_0_2, foot, pv_0, pv_1, pv_2, side_0, mountX_0, mountY_0, th_0_0, th_0_1, th_0_2, segA, segB, segC, segD, segH] <;> ring
theorem e18_5 (x : Fin 36 → ℝ) : l1058 x = (quatMatrix (Qe x) *ᵥ cross (Pi.single 0 1) (foot 0 x)) 2 := by
  simp only [l16, l18, l20, l22, l24, l40, l117, l118, l119, l120, l121, l122, l139, l152, l153, l156, l157, l158, l159, l164,
    l191, l960, l1007, l1009, l1014, l1015, l1018, l1054, l1058, h138, h163, h174, h175, mv_0, mv_1, mv_2, qm_00, qm_01, qm_02, qm_10, qm_11, qm_12, qm_20, qm_21, qm_22, cr_0, cr_1, cr_2, E_0_0, E_0_1, E_0_2, foot, pv_0, pv_1, pv_2, side_0, mountX_0, mountY_0, th_0_0, th_0_1, th_0_2, segA, segB, segC, segD, segH] <;> ring
theorem e19_0 (_x : Fin 36 → ℝ) : (0 : ℝ) = ((0 : V3)) 0 := by simp [Pi.zero_apply]
theorem e19_1 (_x : Fin 36 → ℝ) : (0 : ℝ) = ((0 : V3)) 1 := by simp [Pi.zero_apply]
theorem e19_2 (_x : Fin 36 → ℝ) : (0 : ℝ) = ((0 : V3)) 2 := by simp [Pi.zero_apply]
theorem e19_3 (x : Fin 36 → ℝ) : l1100 x = (quatMatrix (Qe x) *ᵥ cross (Pi.single 1 1) (foot 0 x)) 0 := by
  simp only [l16, l18, l20, l22, l24, l123, l124, l125, l139, l152, l153, l156, l157, l158, l159, l164, l959, l960, l961, l970,
    l971, l972, l1099, l1100, h138, h163, h174, h175, mv_0, mv_1, mv_2, qm_00, qm_01, qm_02, qm_10, qm_11, qm_12, qm_20, qm_21, qm_22, cr_0, cr_1, cr_2, E_1_0, E_1_1, E_1_2, foot, pv_0, pv_1, pv_2, side_0, mountX_0, mountY_0, th_0_0, th_0_1, th_0_2, segA, segB, segC, segD, segH] <;> ring
theorem e19_4 (x : Fin 36 → ℝ) : l1109 x = (quatMatrix (Qe x) *ᵥ cross (Pi.single 1 1) (foot 0 x)) 1 := by
  simp only [l16, l18, l20, l22, l24, l123, l124, l125, l139, l152, l153, l156, l157, l158, l159, l164, l191, l962, l963, l965,
    l1014, l1015, l1016, l1108, l1109, h138, h163, h174, h175, mv_0, mv_1, mv_2, qm_00, qm_01, qm_02, qm_10, qm_11, qm_12, qm_20, qm_21, qm_22, cr_0, cr_1, cr_2, E_1_0, E_1_1, E_1_2, foot, pv_0, pv_1, pv_2, side_0, mountX_0, mountY_0, th_0_0, th_0_1, th_0_2, segA, segB, segC, segD, segH] <;> ring
theorem e19_5 (x : Fin 36 → ℝ) : l1118 x = (quatMatrix (Qe x) *ᵥ cross (Pi.single 1 1) (foot 0 x)) 2 := by
  simp only [l16, l18, l20, l22, l24, l123, l124, l125, l139, l152, l153, l156, l157, l158, l159, l164, l191, l960, l970, l971,
    l974, l1007, l1009, l1117, l1118, h138, h163, h174, h175, mv_0, mv_1, mv_2, qm_00, qm_01, qm_02, qm_10, qm_11, qm_12, qm_20, qm_21, qm_22, cr_0, cr_1, cr_2, E_1_0, E_1_1, E_1_2, foot, pv_0, pv_1, pv_2, side_0, mountX_0, mountY_0, th_0_0, th_0_1, th_0_2, segA, segB, segC, segD, segH] <;> ring
theorem e20_0 (_x : Fin 36 → ℝ) : (0 : ℝ) = ((0 : V3)) 0 := by simp [Pi.zero_apply]
theorem e20_1 (_x : Fin 36 → ℝ) : (0 : ℝ) = ((0 : V3)) 1 := by simp [Pi.zero_apply]
theorem e20_2 (_x : Fin 36 → ℝ) : (0 : ℝ) = ((0 : V3)) 2 := by simp [Pi.zero_apply]
theorem e20_3 (x : Fin 36 → ℝ) : l991 x = (quatMatrix (Qe x) *ᵥ cross (Pi.single 2 1) (foot 0 x)) 0 := by
  simp only [l18, l20, l22, l24, l40, l117, l118, l119, l120, l121, l122, l123, l124, l125, l139, l164, l959, l960, l961, l962,
    l963, l964, l990, l991, h138, h163, h174, h175, mv_0, mv_1, mv_2, qm_00, qm_01, qm_02, qm_10, qm_11, qm_12, qm_20, qm_21, qm_22, cr_0, cr_1, cr_2, E_2_0, E_2_1, E_2_2, foot, pv_0, pv_1, pv_2, side_0, mountX_0, mountY_0, th_0_0, th_0_1, th_0_2, segA, segB, segC, segD, segH] <;> ring
theorem e20_4 (x : Fin 36 → ℝ) : l1038 x = (quatMatrix (Qe x) *ᵥ cross (Pi.single 2 1) (foot 0 x)) 1 := by
  simp only [l18, l20, l22, l24, l40, l117, l118, l119, l120, l121, l122, l123, l124, l125, l139, l164, l191, l959, l962, l963,
    l965, l1007, l1008, l1037, l1038, h138, h163, h174, h175, mv_0, mv_1, mv_2, qm_00, qm_01, qm_02, qm_10, qm_11, qm_12, qm_20, qm_21, qm_22, cr_0, cr_1, cr_2, E_2_0, E_2_1, E_2_2, foot, pv_0, pv_1, pv_2, side_0, mountX_0, mountY_0, th_0_0, th_0_1, th_0_2, segA, segB, segC, segD, segH] <;> ring
theorem e20_5 (x : Fin 36 → ℝ) : l1072 x = (quatMatrix (Qe x) *ᵥ cross (Pi.single 2 1) (foot 0 x)) 2 := by
  simp only [l18, l20, l22, l24, l40, l117, l118, l119, l120, l121, l122, l123, l124, l125, l139, l164, l191, l970, l971, l974,
    l1014, l1015, l1018, l1071, l1072, h138, h163, h174, h175, mv_0, mv_1, mv_2, qm_00, qm_01, qm_02, qm_10, qm_11, qm_12, qm_20, qm_21, qm_22, cr_0, cr_1, cr_2, E_2_0, E_2_1, E_2_2, foot, pv_0, pv_1, pv_2, side_0, mountX_0, mountY_0, th_0_0, th_0_1, th_0_2, segA, segB, segC, segD, segH] <;> ring
theorem e21_0 (_x : Fin 36 → ℝ) : (0 : ℝ) = ((0 : V3)) 0 := by simp [Pi.zero_apply]
theorem e21_1 (_x : Fin 36 → ℝ) : (0 : ℝ) = ((0 : V3)) 1 := by simp [Pi.zero_apply]
theorem e21_2 (_x : Fin 36 → ℝ) : (0 : ℝ) = ((0 : V3)) 2 := by simp [Pi.zero_apply]
theorem e21_3 (x : Fin 36 → ℝ) : l961 x = (quatMatrix (Qe x) *ᵥ Pi.single 0 1) 0 := by
  simp only [l139, l164, l959, l960, l961, h138, h163, mv_0, mv_1, mv_2, qm_00, qm_01, qm_02, qm_10, qm_11, qm_12, qm_20, qm_21,
    qm_22, E_0_0, E_0_1, E_0_2] <;> ring
theorem e21_4 (x : Fin 36 → ℝ) : l965 x = (quatMatrix (Qe x) *ᵥ Pi.single 0 1) 1 := by
  simp only [l139, l164, l962, l963, l965, h138, h163, h174, h175, mv_0, mv_1, mv_2, qm_00, qm_01, qm_02, qm_10, qm_11, qm_12,
    qm_20, qm_21, qm_22, E_0_0, E_0_1, E_0_2] <;> ring
theorem e21_5 (x : Fin 36 → ℝ) : l974 x = (quatMatrix (Qe x) *ᵥ Pi.single 0 1) 2 := by
  simp only [l139, l164, l970, l971, l974, h138, h163, h174, h175, mv_0, mv_1, mv_2, qm_00, qm_01, qm_02, qm_10, qm_11, qm_12,
    qm_20, qm_21, qm_22, E_0_0, E_0_1, E_0_2] <;> ring
theorem e22_0 (_x : Fin 36 → ℝ) : (0 : ℝ) = ((0 : V3)) 0 := by simp [Pi.zero_apply]
theorem e22_1 (_x : Fin 36 → ℝ) : (0 : ℝ) = ((0 : V3)) 1 := by simp [Pi.zero_apply]
theorem e22_2 (_x : Fin 36 → ℝ) : (0 : ℝ) = ((0 : V3)) 2 := by simp [Pi.zero_apply]
theorem e22_3 (x : Fin 36 → ℝ) : l964 x = (quatMatrix (Qe x) *ᵥ Pi.single 1 1) 0 := by
  simp only [l139, l164, l962, l963, l964, h138, h163, h174, h175, mv_0, mv_1, mv_2, qm_00, qm_01, qm_02, qm_10, qm_11, qm_12,
    qm_20, qm_21, qm_22, E_1_0, E_1_1, E_1_2] <;> ring
theorem e22_4 (x : Fin 36 → ℝ) : l1008 x = (quatMatrix (Qe x) *ᵥ Pi.single 1 1) 1 := by
  simp only [l139, l191, l959, l1007, l1008, h138, h174, mv_0, mv_1, mv_2, qm_00, qm_01, qm_02, qm_10, qm_11, qm_12, qm_20,
    qm_21, qm_22, E_1_0, E_1_1, E_1_2] <;> ring
theorem e22_5 (x : Fin 36 → ℝ) : l1018 x = (quatMatrix (Qe x) *ᵥ Pi.single 1 1) 2 := by
  simp only [l139, l191, l1014, l1015, l1018, h138, h163, h174, h175, mv_0, mv_1, mv_2, qm_00, qm_01, qm_02, qm_10, qm_11, qm_12,
    qm_20, qm_21, qm_22, E_1_0, E_1_1, E_1_2] <;> ring
theorem e23_0 (_x : Fin 36 → ℝ) : (0 : ℝ) = ((0 : V3)) 0 := by simp [Pi.zero_apply]
theorem e23_1 (_x : Fin 36 → ℝ) : (0 : ℝ) = ((0 : V3)) 1 := by simp [Pi.zero_apply]
theorem e23_2 (_x : Fin 36 → ℝ) : (0 : ℝ) = ((0 : V3)) 2 := by simp [Pi.zero_apply]
theorem e23_3 (x : Fin 36 → ℝ) : l972 x = (quatMatrix (Qe x) *ᵥ Pi.single 2 1) 0 := by
  simp only [l139, l164, l970, l971, l972, h138, h163, h174, h175, mv_0, mv_1, mv_2, qm_00, qm_01, qm_02, qm_10, qm_11, qm_12,
    qm_20, qm_21, qm_22, E_2_0, E_2_1, E_2_2] <;> ring
theorem e23_4 (x : Fin 36 → ℝ) : l1016 x = (quatMatrix (Qe x) *ᵥ Pi.single 2 1) 1 := by
  simp only [l139, l191, l1014, l1015, l1016, h138, h163, h174, h175, mv_0, mv_1, mv_2, qm_00, qm_01, qm_02, qm_10, qm_11, qm_12,
    qm_20, qm_21, qm_22, E_2_0, E_2_1, E_2_2] <;> ring
theorem e23_5 (x : Fin 36 → ℝ) : l1009 x = (quatMatrix (Qe x) *ᵥ Pi.single 2 1) 2 := by
  simp only [l164, l191, l960, l1007, l1009, h163, h174, mv_0, mv_1, mv_2, qm_00, qm_01, qm_02, qm_10, qm_11, qm_12, qm_20,
    qm_21, qm_22, E_2_0, E_2_1, E_2_2] <;> ring
theorem e24_0 (_x : Fin 36 → ℝ) : (0 : ℝ) = ((0 : V3)) 0 := by simp [Pi.zero_apply]
theorem e24_1 (_x : Fin 36 → ℝ) : (0 : ℝ) = ((0 : V3)) 1 := by simp [Pi.zero_apply]
theorem e24_2 (_x : Fin 36 → ℝ) : (0 : ℝ) = ((0 : V3)) 2 := by simp [Pi.zero_apply]
theorem e24_3 (x : Fin 36 → ℝ) : l975 x = (quatMatrix (Qe x) *ᵥ jcol 0 0 x) 0 := by
  simp only [l16, l18, l20, l22, l24, l40, l111, l112, l113, l114, l115, l116, l139, l150, l151, l152, l153, l154, l155, l164,
    l962, l963, l964, l970, l971, l972, l975, h138, h163, h174, h175, mv_0, mv_1, mv_2, qm_00, qm_01, qm_02, qm_10, qm_11, qm_12, qm_20, qm_21, qm_22, jcol, jac, jm_00, jm_01, jm_02, jm_10, jm_11, jm_12, jm_20, jm_21, jm_22, side_0, th_0_0, th_0_1, th_0_2, segA, segB, segC, segD, segH] <;> ring
theorem e24_4 (x : Fin 36 → ℝ) : l1019 x = (quatMatrix (Qe x) *ᵥ jcol 0 0 x) 1 := by
  simp only [l16, l18, l20, l22, l24, l40, l111, l112, l113, l114, l115, l116, l139, l150, l151, l152, l153, l154, l155, l191,
    l959, l1007, l1008, l1014, l1015, l1016, l1019, h138, h163, h174, h175, mv_0, mv_1, mv_2, qm_00, qm_01, qm_02, qm_10, qm_11, qm_12, qm_20, qm_21, qm_22, jcol, jac, jm_00, jm_01, jm_02, jm_10, jm_11, jm_12, jm_20, jm_21, jm_22, side_0, th_0_0, th_0_1, th_0_2, segA, segB, segC, segD, segH] <;> ring
theorem e24_5 (x : Fin 36 → ℝ) : l1020 x = (quatMatrix (Qe x) *ᵥ jcol 0 0 x) 2 := by
  simp only [l16, l18, l20, l22, l24, l40, l111, l112, l113, l114, l115, l116, l139, l150, l151, l152, l153, l154, l155, l164,
    l191, l960, l1007, l1009, l1014, l1015, l1018, l1020, h138, h163, h174, h175, mv_0, mv_1, mv_2, qm_00, qm_01, qm_02, qm_10, qm_11, qm_12, qm_20, qm_21, qm_22, jcol, jac, jm_00, jm_01, jm_02, jm_10, jm_11, jm_12, jm_20, jm_21, jm_22, side_0, th_0_0, th_0_1, th_0_2, segA, segB, segC, segD, segH] <;> ring
theorem e25_0 (_x : Fin 36 → ℝ) : (0 : ℝ) = ((0 : V3)) 0 := by simp [Pi.zero_apply]
theorem e25_1 (_x : Fin 36 → ℝ) : (0 : ℝ) = ((0 : V3)) 1 := by simp [Pi.zero_apply]
theorem e25_2 (_x : Fin 36 → ℝ) : (0 : ℝ) = ((0 : V3)) 2 := by simp [Pi.zero_apply]
theorem e25_3 (x : Fin 36 → ℝ) : l976 x = (quatMatrix (Qe x) *ᵥ jcol 0 1 x) 0 := by
  simp only [l16, l18, l20, l22, l24, l40, l101, l106, l107, l108, l109, l110, l139, l140, l145, l146, l147, l148, l149, l164,
    l169, l170, l171, l959, l960, l961, l962, l963, l964, l970, l971, l972, l976, h138, h163, h174, h175, mv_0, mv_1, mv_2, qm_00, qm_01, qm_02, qm_10, qm_11, qm_12, qm_20, qm_21, qm_22, jcol, jac, jm_00, jm_01, jm_02, jm_10, jm_11, jm_12, jm_20, jm_21, jm_22, side_0, th_0_0, th_0_1, th_0_2, segA, segB, segC, segD, segH] <;> ring
theorem e25_4 (x : Fin 36 → ℝ) : l1021 x = (quatMatrix (Qe x) *ᵥ jcol 0 1 x) 1 := by
  simp only [l16, l18, l20, l22, l24, l40, l101, l106, l107, l108, l109, l110, l139, l140, l145, l146, l147, l148, l149, l164,
    l169, l170, l171, l191, l959, l962, l963, l965, l1007, l1008, l1014, l1015, l1016, l1021, h138, h163, h174, h175, mv_0, mv_1, mv_2, qm_00, qm_01, qm_02, qm_10, qm_11, qm_12, qm_20, qm_21, qm_22, jcol, jac, jm_00, jm_01, jm_02, jm_10, jm_11, jm_12, jm_20, jm_21, jm_22, side_0, th_0_0, th_0_1, th_0_2, segA, segB, segC, segD, segH] <;> ring
theorem e25_5 (x : Fin 36 → ℝ) : l1022 x = (quatMatrix (Qe x) *ᵥ jcol 0 1 x) 2 := by
  simp only [l16, l18, l20, l22, l24, l40, l101, l106, l107, l108, l109, l110, l139, l140, l145, l146, l147, l148, l149, l164,
    l169, l170, l171, l191, l960, l970, l971, l974, l1007, l1009, l1014, l1015, l1018, l1022, h138, h163, h174, h175, mv_0, mv_1, mv_2, qm_00, qm_01, qm_02, qm_10, qm_11, qm_12, qm_20, qm_21, qm_22, jcol, jac, jm_00, jm_01, jm_02, jm_10, jm_11, jm_12, jm_20, jm_21, jm_22, side_0, th_0_0, th_0_1, th_0_2, segA, segB, segC, segD, segH] <;> ring
theorem e26_0 (_x : Fin 36 → ℝ) : (0 : ℝ) = ((0 : V3)) 0 := by simp [Pi.zero_apply]
theorem e26_1 (_x : Fin 36 → ℝ) : (0 : ℝ) = ((0 : V3)) 1 := by simp [Pi.zero_apply]
theorem e26_2 (_x : Fin 36 → ℝ) : (0 : ℝ) = ((0 : V3)) 2 := by simp [Pi.zero_apply]
theorem e26_3 (x : Fin 36 → ℝ) : l977 x = (quatMatrix (Qe x) *ᵥ jcol 0 2 x) 0 := by
  simp only [l16, l18, l20, l22, l24, l40, l101, l102, l103, l104, l105, l139, l140, l141, l142, l143, l144, l164, l166, l167,
    l168, l959, l960, l961, l962, l963, l964, l970, l971, l972, l977, h138, h163, h174, h175, mv_0, mv_1, mv_2, qm_00, qm_01, qm_02, qm_10, qm_11, qm_12, qm_20, qm_21, qm_22, jcol, jac, jm_00, jm_01, jm_02, jm_10, jm_11, jm_12, jm_20, jm_21, jm_22, side_0, th_0_0, th_0_1, th_0_2, segA, segB, segC, segD, segH] <;> ring
theorem e26_4 (x : Fin 36 → ℝ) : l1023 x = (quatMatrix (Qe x) *ᵥ jcol 0 2 x) 1 := by
  simp only [l16, l18, l20, l22, l24, l40, l101, l102, l103, l104, l105, l139, l140, l141, l142, l143, l144, l164, l166, l167,
    l168, l191, l959, l962, l963, l965, l1007, l1008, l1014, l1015, l1016, l1023, h138, h163, h174, h175, mv_0, mv_1, mv_2, qm_00, qm_01, qm_02, qm_10, qm_11, qm_12, qm_20, qm_21, qm_22, jcol, jac, jm_00, jm_01, jm_02, jm_10, jm_11, jm_12, jm_20, jm_21, jm_22, side_0, th_0_0, th_0_1, th_0_2, segA, segB, segC, segD, segH] <;> ring
theorem e26_5 (x : Fin 36 → ℝ) : l1024 x = (quatMatrix (Qe x) *ᵥ jcol 0 2 x) 2 := by
  simp only [l16, l18, l20, l22, l24, l40, l101, l102, l103, l104, l105, l139, l140, l141, l142, l143, l144, l164, l166, l167,
    l168, l191, l960, l970, l971, l974, l1007, l1009, l1014, l1015, l1018, l1024, h138, h163, h174, h175, mv_0, mv_1, mv_2, qm_00, qm_01, qm_02, qm_10, qm_11, qm_12, qm_20, qm_21, qm_22, jcol, jac, jm_00, jm_01, jm_02, jm_10, jm_11, jm_12, jm_20, jm_21, jm_22, side_0, th_0_0, th_0_1, th_0_2, segA, segB, segC, segD, segH] <;> ring
theorem e27_0 (_x : Fin 36 → ℝ) : (0 : ℝ) = ((0 : V3)) 0 := by simp [Pi.zero_apply]
theorem e27_1 (_x : Fin 36 → ℝ) : (0 : ℝ) = ((0 : V3)) 1 := by simp [Pi.zero_apply]
theorem e27_2 (_x : Fin 36 → ℝ) : (0 : ℝ) = ((0 : V3)) 2 := by simp [Pi.zero_apply]
theorem e27_3 (_x : Fin 36 → ℝ) : (0 : ℝ) = ((0 : V3)) 0 := by simp [Pi.zero_apply]
theorem e27_4 (_x : Fin 36 → ℝ) : (0 : ℝ) = ((0 : V3)) 1 := by simp [Pi.zero_apply]
theorem e27_5 (_x : Fin 36 → ℝ) : (0 : ℝ) = ((0 : V3)) 2 := by simp [Pi.zero_apply]
theorem e28_0 (_x : Fin 36 → ℝ) : (0 : ℝ) = ((0 : V3)) 0 := by simp [Pi.zero_apply]
theorem e28_1 (_x : Fin 36 → ℝ) : (0 : ℝ) = ((0 : V3)) 1 := by simp [Pi.zero_apply]
theorem e28_2 (_x : Fin 36 → ℝ) : (0 : ℝ) = ((0 : V3)) 2 := by simp [Pi.zero_apply]
theorem e28_3 (_x : Fin 36 → ℝ) : (0 : ℝ) = ((0 : V3)) 0 := by simp [Pi.zero_apply]
theorem e28_4 (_x : Fin 36 → ℝ) : (0 : ℝ) = ((0 : V3)) 1 := by simp [Pi.zero_apply]
theorem e28_5 (_x : Fin 36 → ℝ) : (0 : ℝ) = ((0 : V3)) 2 := by simp [Pi.zero_apply]
theorem e29_0 (_x : Fin 36 → ℝ) : (0 : ℝ) = ((0 : V3)) 0 := by simp [Pi.zero_apply]
theorem e29_1 (_x : Fin 36 → ℝ) : (0 : ℝ) = ((0 : V3)) 1 := by simp [Pi.zero_apply]
theorem e29_2 (_x : Fin 36 → ℝ) : (0 : ℝ) = ((0 : V3)) 2 := by simp [Pi.zero_apply]
theorem e29_3 (_x : Fin 36 → ℝ) : (0 : ℝ) = ((0 : V3)) 0 := by simp [Pi.zero_apply]
theorem e29_4 (_x : Fin 36 → ℝ) : (0 : ℝ) = ((0 : V3)) 1 := by simp [Pi.zero_apply]
theorem e29_5 (_x : Fin 36 → ℝ) : (0 : ℝ) = ((0 : V3)) 2 := by simp [Pi.zero_apply]
theorem e30_0 (_x : Fin 36 → ℝ) : (0 : ℝ) = ((0 : V3)) 0 := by simp [Pi.zero_apply]
theorem e30_1 (_x : Fin 36 → ℝ) : (0 : ℝ) = ((0 : V3)) 1 := by simp [Pi.zero_apply]
theorem e30_2 (_x : Fin 36 → ℝ) : (0 : ℝ) = ((0 : V3)) 2 := by simp [Pi.zero_apply]
theorem e30_3 (_x : Fin 36 → ℝ) : (0 : ℝ) = ((0 : V3)) 0 := by simp [Pi.zero_apply]
theorem e30_4 (_x : Fin 36 → ℝ) : (0 : ℝ) = ((0 : V3)) 1 := by simp [Pi.zero_apply]
theorem e30_5 (_x : Fin 36 → ℝ) : (0 : ℝ) = ((0 : V3)) 2 := by simp [Pi.zero_apply]
theorem e31_0 (_x : Fin 36 → ℝ) : (0 : ℝ) = ((0 : V3)) 0 := by simp [Pi.zero_apply]
theorem e31_1 (_x : Fin 36 → ℝ) : (0 : ℝ) = ((0 : V3)) 1 := by simp [Pi.zero_apply]
theorem e31_2 (_x : Fin 36 → ℝ) : (0 : ℝ) = ((0 : V3)) 2 := by simp [Pi.zero_apply]
theorem e31_3 (_x : Fin 36 → ℝ) : (0 : ℝ) = ((0 : V3)) 0 := by simp [Pi.zero_apply]
theorem e31_4 (_x : Fin 36 → ℝ) : (0 : ℝ) = ((0 : V3)) 1 := by simp [Pi.zero_apply]
theorem e31_5 (_x : Fin 36 → ℝ) : (0 : ℝ) = ((0 : V3)) 2 := by simp [Pi.zero_apply]
theorem e32_0 (_x : Fin 36 → ℝ) : (0 : ℝ) = ((0 : V3)) 0 := by simp [Pi.zero_apply]
theorem e32_1 (_x : Fin 36 → ℝ) : (0 : ℝ) = ((0 : V3)) 1 := by simp [Pi.zero_apply]
theorem e32_2 (_x : Fin 36 → ℝ) : (0 : ℝ) = ((0 : V3)) 2 := by simp [Pi.zero_apply]
theorem e32_3 (_x : Fin 36 → ℝ) : (0 : ℝ) = ((0 : V3)) 0 := by simp [Pi.zero_apply]
theorem e32_4 (_x : Fin 36 → ℝ) : (0 : ℝ) = ((0 : V3)) 1 := by simp [Pi.zero_apply]
theorem e32_5 (_x : Fin 36 → ℝ) : (0 : ℝ) = ((0 : V3)) 2 := by simp [Pi.zero_apply]
theorem e33_0 (_x : Fin 36 → ℝ) : (0 : ℝ) = ((0 : V3)) 0 := by simp [Pi.zero_apply]
theorem e33_1 (_x : Fin 36 → ℝ) : (0 : ℝ) = ((0 : V3)) 1 := by simp [Pi.zero_apply]
theorem e33_2 (_x : Fin 36 → ℝ) : (0 : ℝ) = ((0 : V3)) 2 := by simp [Pi.zero_apply]
theorem e33_3 (_x : Fin 36 → ℝ) : (0 : ℝ) = ((0 : V3)) 0 := by simp [Pi.zero_apply]
theorem e33_4 (_x : Fin 36 → ℝ) : (0 : ℝ) = ((0 : V3)) 1 := by simp [Pi.zero_apply]
theorem e33_5 (_x : Fin 36 → ℝ) : (0 : ℝ) = ((0 : V3)) 2 := by simp [Pi.zero_apply]
theorem e34_0 (_x : Fin 36 → ℝ) : (0 : ℝ) = ((0 : V3)) 0 := by simp [Pi.zero_apply]
theorem e34_1 (_x : Fin 36 → ℝ) : (0 : ℝ) = ((0 : V3)) 1 := by simp [Pi.zero_apply]
theorem e34_2 (_x : Fin 36 → ℝ) : (0 : ℝ) = ((0 : V3)) 2 := by simp [Pi.zero_apply]
theorem e34_3 (_x : Fin 36 → ℝ) : (0 : ℝ) = ((0 : V3)) 0 := by simp [Pi.zero_apply]
theorem e34_4 (_x : Fin 36 → ℝ) : (0 : ℝ) = ((0 : V3)) 1 := by simp [Pi.zero_apply]
theorem e34_5 (_x : Fin 36 → ℝ) : (0 : ℝ) = ((0 : V3)) 2 := by simp [Pi.zero_apply]
theorem e35_0 (_x : Fin 36 → ℝ) : (0 : ℝ) = ((0 : V3)) 0 := by simp [Pi.zero_apply]
theorem e35_1 (_x : Fin 36 → ℝ) : (0 : ℝ) = ((0 : V3)) 1 := by simp [Pi.zero_apply]
theorem e35_2 (_x : Fin 36 → ℝ) : (0 : ℝ) = ((0 : V3)) 2 := by simp [Pi.zero_apply]
theorem e35_3 (_x : Fin 36 → ℝ) : (0 : ℝ) = ((0 : V3)) 0 := by simp [Pi.zero_apply]
theorem e35_4 (_x : Fin 36 → ℝ) : (0 : ℝ) = ((0 : V3)) 1 := by simp [Pi.zero_apply]
theorem e35_5 (_x : Fin 36 → ℝ) : (0 : ℝ) = ((0 : V3)) 2 := by simp [Pi.zero_apply]

theorem pos0 (x : Fin 36 → ℝ) : (fun i : Fin 3 => jacobian x ⟨0 + i, by omega⟩ 0) = Dpos 0 x (Pi.single 0 1) :=
  (ext3 (e0_0 x) (e0_1 x) (e0_2 x)).trans (col_angle 0 0 x 0 rfl).1.symm
theorem vel0 (x : Fin 36 → ℝ) : (fun i : Fin 3 => jacobian x ⟨3 + i, by omega⟩ 0) = Dvel 0 x (Pi.single 0 1) :=
  (ext3 (e0_3 x) (e0_4 x) (e0_5 x)).trans (col_angle 0 0 x 0 rfl).2.symm
theorem pos1 (x : Fin 36 → ℝ) : (fun i : Fin 3 => jacobian x ⟨0 + i, by omega⟩ 1) = Dpos 0 x (Pi.single 1 1) :=
  (ext3 (e1_0 x) (e1_1 x) (e1_2 x)).trans (col_angle 0 1 x 1 rfl).1.symm
theorem vel1 (x : Fin 36 → ℝ) : (fun i : Fin 3 => jacobian x ⟨3 + i, by omega⟩ 1) = Dvel 0 x (Pi.single 1 1) :=
  (ext3 (e1_3 x) (e1_4 x) (e1_5 x)).trans (col_angle 0 1 x 1 rfl).2.symm
theorem pos2 (x : Fin 36 → ℝ) : (fun i : Fin 3 => jacobian x ⟨0 + i, by omega⟩ 2) = Dpos 0 x (Pi.single 2 1) :=
  (ext3 (e2_0 x) (e2_1 x) (e2_2 x)).trans (col_angle 0 2 x 2 rfl).1.symm
theorem vel2 (x : Fin 36 → ℝ) : (fun i : Fin 3 => jacobian x ⟨3 + i, by omega⟩ 2) = Dvel 0 x (Pi.single 2 1) :=
  (ext3 (e2_3 x) (e2_4 x) (e2_5 x)).trans (col_angle 0 2 x 2 rfl).2.symm
theorem pos3 (x : Fin 36 → ℝ) : (fun i : Fin 3 => jacobian x ⟨0 + i, by omega⟩ 3) = Dpos 0 x (Pi.single 3 1) :=
  (ext3 (e3_0 x) (e3_1 x) (e3_2 x)).trans (col_base 0 0 x 3 rfl).1.symm
theorem vel3 (x : Fin 36 → ℝ) : (fun i : Fin 3 => jacobian x ⟨3 + i, by omega⟩ 3) = Dvel 0 x (Pi.single 3 1) :=
  (ext3 (e3_3 x) (e3_4 x) (e3_5 x)).trans (col_base 0 0 x 3 rfl).2.symm
theorem pos4 (x : Fin 36 → ℝ) : (fun i : Fin 3 => jacobian x ⟨0 + i, by omega⟩ 4) = Dpos 0 x (Pi.single 4 1) :=
  (ext3 (e4_0 x) (e4_1 x) (e4_2 x)).trans (col_base 0 1 x 4 rfl).1.symm
theorem vel4 (x : Fin 36 → ℝ) : (fun i : Fin 3 => jacobian x ⟨3 + i, by omega⟩ 4) = Dvel 0 x (Pi.single 4 1) :=
  (ext3 (e4_3 x) (e4_4 x) (e4_5 x)).trans (col_base 0 1 x 4 rfl).2.symm
theorem pos5 (x : Fin 36 → ℝ) : (fun i : Fin 3 => jacobian x ⟨0 + i, by omega⟩ 5) = Dpos 0 x (Pi.single 5 1) :=
  (ext3 (e5_0 x) (e5_1 x) (e5_2 x)).trans (col_base 0 2 x 5 rfl).1.symm
theorem vel5 (x : Fin 36 → ℝ) : (fun i : Fin 3 => jacobian x ⟨3 + i, by omega⟩ 5) = Dvel 0 x (Pi.single 5 1) :=
  (ext3 (e5_3 x) (e5_4 x) (e5_5 x)).trans (col_base 0 2 x 5 rfl).2.symm
theorem pos6 (x : Fin 36 → ℝ) : (fun i : Fin 3 => jacobian x ⟨0 + i, by omega⟩ 6) = Dpos 0 x (Pi.single 6 1) :=
  (ext3 (e6_0 x) (e6_1 x) (e6_2 x)).trans (col_joint 0 0 x 6 rfl).1.symm
theorem vel6 (x : Fin 36 → ℝ) : (fun i : Fin 3 => jacobian x ⟨3 + i, by omega⟩ 6) = Dvel 0 x (Pi.single 6 1) :=
  (ext3 (e6_3 x) (e6_4 x) (e6_5 x)).trans (col_joint 0 0 x 6 rfl).2.symm
theorem pos7 (x : Fin 36 → ℝ) : (fun i : Fin 3 => jacobian x ⟨0 + i, by omega⟩ 7) = Dpos 0 x (Pi.single 7 1) :=
  (ext3 (e7_0 x) (e7_1 x) (e7_2 x)).trans (col_joint 0 1 x 7 rfl).1.symm
theorem vel7 (x : Fin 36 → ℝ) : (fun i : Fin 3 => jacobian x ⟨3 + i, by omega⟩ 7) = Dvel 0 x (Pi.single 7 1) :=
  (ext3 (e7_3 x) (e7_4 x) (e7_5 x)).trans (col_joint 0 1 x 7 rfl).2.symm
theorem pos8 (x : Fin 36 → ℝ) : (fun i : Fin 3 => jacobian x ⟨0 + i, by omega⟩ 8) = Dpos 0 x (Pi.single 8 1) :=
  (ext3 (e8_0 x) (e8_1 x) (e8_2 x)).trans (col_joint 0 2 x 8 rfl).1.symm
theorem vel8 (x : Fin 36 → ℝ) : (fun i : Fin 3 => jacobian x ⟨3 + i, by omega⟩ 8) = Dvel 0 x (Pi.single 8 1) :=
  (ext3 (e8_3 x) (e8_4 x) (e8_5 x)).trans (col_joint 0 2 x 8 rfl).2.symm
theorem pos9 (x : Fin 36 → ℝ) : (fun i : Fin 3 => jacobian x ⟨0 + i, by omega⟩ 9) = Dpos 0 x (Pi.single 9 1) :=
  (ext3 (e9_0 x) (e9_1 x) (e9_2 x)).trans (col_other 0 1 0 x 9 (by decide) (by decide)).1.symm
theorem vel9 (x : Fin 36 → ℝ) : (fun i : Fin 3 => jacobian x ⟨3 + i, by omega⟩ 9) = Dvel 0 x (Pi.single 9 1) :=
  (ext3 (e9_3 x) (e9_4 x) (e9_5 x)).trans (col_other 0 1 0 x 9 (by decide) (by decide)).2.symm
theorem pos10 (x : Fin 36 → ℝ) : (fun i : Fin 3 => jacobian x ⟨0 + i, by omega⟩ 10) = Dpos 0 x (Pi.single 10 1) :=
  (ext3 (e10_0 x) (e10_1 x) (e10_2 x)).trans (col_other 0 1 1 x 10 (by decide) (by decide)).1.symm
theorem vel10 (x : Fin 36 → ℝ) : (fun i : Fin 3 => jacobian x ⟨3 + i, by omega⟩ 10) = Dvel 0 x (Pi.single 10 1) :=
  (ext3 (e10_3 x) (e10_4 x) (e10_5 x)).trans (col_other 0 1 1 x 10 (by decide) (by decide)).2.symm
theorem pos11 (x : Fin 36 → ℝ) : (fun i : Fin 3 => jacobian x ⟨0 + i, by omega⟩ 11) = Dpos 0 x (Pi.single 11 1) :=
  (ext3 (e11_0 x) (e11_1 x) (e11_2 x)).trans (col_other 0 1 2 x 11 (by decide) (by decide)).1.symm
theorem vel11 (x : Fin 36 → ℝ) : (fun i : Fin 3 => jacobian x ⟨3 + i, by omega⟩ 11) = Dvel 0 x (Pi.single 11 1) :=
  (ext3 (e11_3 x) (e11_4 x) (e11_5 x)).trans (col_other 0 1 2 x 11 (by decide) (by decide)).2.symm
theorem pos12 (x : Fin 36 → ℝ) : (fun i : Fin 3 => jacobian x ⟨0 + i, by omega⟩ 12) = Dpos 0 x (Pi.single 12 1) :=
  (ext3 (e12_0 x) (e12_1 x) (e12_2 x)).trans (col_other 0 2 0 x 12 (by decide) (by decide)).1.symm
theorem vel12 (x : Fin 36 → ℝ) : (fun i : Fin 3 => jacobian x ⟨3 + i, by omega⟩ 12) = Dvel 0 x (Pi.single 12 1) :=
  (ext3 (e12_3 x) (e12_4 x) (e12_5 x)).trans (col_other 0 2 0 x 12 (by decide) (by decide)).2.symm
theorem pos13 (x : Fin 36 → ℝ) : (fun i : Fin 3 => jacobian x ⟨0 + i, by omega⟩ 13) = Dpos 0 x (Pi.single 13 1) :=
  (ext3 (e13_0 x) (e13_1 x) (e13_2 x)).trans (col_other 0 2 1 x 13 (by decide) (by decide)).1.symm
theorem vel13 (x : Fin 36 → ℝ) : (fun i : Fin 3 => jacobian x ⟨3 + i, by omega⟩ 13) = Dvel 0 x (Pi.single 13 1) :=
  (ext3 (e13_3 x) (e13_4 x) (e13_5 x)).trans (col_other 0 2 1 x 13 (by decide) (by decide)).2.symm
theorem pos14 (x : Fin 36 → ℝ) : (fun i : Fin 3 => jacobian x ⟨0 + i, by omega⟩ 14) = Dpos 0 x (Pi.single 14 1) :=
  (ext3 (e14_0 x) (e14_1 x) (e14_2 x)).trans (col_other 0 2 2 x 14 (by decide) (by decide)).1.symm
theorem vel14 (x : Fin 36 → ℝ) : (fun i : Fin 3 => jacobian x ⟨3 + i, by omega⟩ 14) = Dvel 0 x (Pi.single 14 1) :=
  (ext3 (e14_3 x) (e14_4 x) (e14_5 x)).trans (col_other 0 2 2 x 14 (by decide) (by decide)).2.symm
theorem pos15 (x : Fin 36 → ℝ) : (fun i : Fin 3 => jacobian x ⟨0 + i, by omega⟩ 15) = Dpos 0 x (Pi.single 15 1) :=
  (ext3 (e15_0 x) (e15_1 x) (e15_2 x)).trans (col_other 0 3 0 x 15 (by decide) (by decide)).1.symm
theorem vel15 (x : Fin 36 → ℝ) : (fun i : Fin 3 => jacobian x ⟨3 + i, by omega⟩ 15) = Dvel 0 x (Pi.single 15 1) :=
  (ext3 (e15_3 x) (e15_4 x) (e15_5 x)).trans (col_other 0 3 0 x 15 (by decide) (by decide)).2.symm
theorem pos16 (x : Fin 36 → ℝ) : (fun i : Fin 3 => jacobian x ⟨0 + i, by omega⟩ 16) = Dpos 0 x (Pi.single 16 1) :=
  (ext3 (e16_0 x) (e16_1 x) (e16_2 x)).trans (col_other 0 3 1 x 16 (by decide) (by decide)).1.symm
theorem vel16 (x : Fin 36 → ℝ) : (fun i : Fin 3 => jacobian x ⟨3 + i, by omega⟩ 16) = Dvel 0 x (Pi.single 16 1) :=
  (ext3 (e16_3 x) (e16_4 x) (e16_5 x)).trans (col_other 0 3 1 x 16 (by decide) (by decide)).2.symm
theorem pos17 (x : Fin 36 → ℝ) : (fun i : Fin 3 => jacobian x ⟨0 + i, by omega⟩ 17) = Dpos 0 x (Pi.single 17 1) :=
  (ext3 (e17_0 x) (e17_1 x) (e17_2 x)).trans (col_other 0 3 2 x 17 (by decide) (by decide)).1.symm
theorem vel17 (x : Fin 36 → ℝ) : (fun i : Fin 3 => jacobian x ⟨3 + i, by omega⟩ 17) = Dvel 0 x (Pi.single 17 1) :=
  (ext3 (e17_3 x) (e17_4 x) (e17_5 x)).trans (col_other 0 3 2 x 17 (by decide) (by decide)).2.symm
theorem pos18 (x : Fin 36 → ℝ) : (fun i : Fin 3 => jacobian x ⟨0 + i, by omega⟩ 18) = Dpos 0 x (Pi.single 18 1) :=
  (ext3 (e18_0 x) (e18_1 x) (e18_2 x)).trans (col_om 0 0 x 18 rfl).1.symm
theorem vel18 (x : Fin 36 → ℝ) : (fun i : Fin 3 => jacobian x ⟨3 + i, by omega⟩ 18) = Dvel 0 x (Pi.single 18 1) :=
  (ext3 (e18_3 x) (e18_4 x) (e18_5 x)).trans (col_om 0 0 x 18 rfl).2.symm
theorem pos19 (x : Fin 36 → ℝ) : (fun i : Fin 3 => jacobian x ⟨0 + i, by omega⟩ 19) = Dpos 0 x (Pi.single 19 1) :=
  (ext3 (e19_0 x) (e19_1 x) (e19_2 x)).trans (col_om 0 1 x 19 rfl).1.symm
theorem vel19 (x : Fin 36 → ℝ) : (fun i : Fin 3 => jacobian x ⟨3 + i, by omega⟩ 19) = Dvel 0 x (Pi.single 19 1) :=
  (ext3 (e19_3 x) (e19_4 x) (e19_5 x)).trans (col_om 0 1 x 19 rfl).2.symm
theorem pos20 (x : Fin 36 → ℝ) : (fun i : Fin 3 => jacobian x ⟨0 + i, by omega⟩ 20) = Dpos 0 x (Pi.single 20 1) :=
  (ext3 (e20_0 x) (e20_1 x) (e20_2 x)).trans (col_om 0 2 x 20 rfl).1.symm
theorem vel20 (x : Fin 36 → ℝ) : (fun i : Fin 3 => jacobian x ⟨3 + i, by omega⟩ 20) = Dvel 0 x (Pi.single 20 1) :=
  (ext3 (e20_3 x) (e20_4 x) (e20_5 x)).trans (col_om 0 2 x 20 rfl).2.symm
theorem pos21 (x : Fin 36 → ℝ) : (fun i : Fin 3 => jacobian x ⟨0 + i, by omega⟩ 21) = Dpos 0 x (Pi.single 21 1) :=
  (ext3 (e21_0 x) (e21_1 x) (e21_2 x)).trans (col_lv 0 0 x 21 rfl).1.symm
theorem vel21 (x : Fin 36 → ℝ) : (fun i : Fin 3 => jacobian x ⟨3 + i, by omega⟩ 21) = Dvel 0 x (Pi.single 21 1) :=
  (ext3 (e21_3 x) (e21_4 x) (e21_5 x)).trans (col_lv 0 0 x 21 rfl).2.symm
theorem pos22 (x : Fin 36 → ℝ) : (fun i : Fin 3 => jacobian x ⟨0 + i, by omega⟩ 22) = Dpos 0 x (Pi.single 22 1) :=
  (ext3 (e22_0 x) (e22_1 x) (e22_2 x)).trans (col_lv 0 1 x 22 rfl).1.symm
theorem vel22 (x : Fin 36 → ℝ) : (fun i : Fin 3 => jacobian x ⟨3 + i, by omega⟩ 22) = Dvel 0 x (Pi.single 22 1) :=
  (ext3 (e22_3 x) (e22_4 x) (e22_5 x)).trans (col_lv 0 1 x 22 rfl).2.symm
theorem pos23 (x : Fin 36 → ℝ) : (fun i : Fin 3 => jacobian x ⟨0 + i, by omega⟩ 23) = Dpos 0 x (Pi.single 23 1) :=
  (ext3 (e23_0 x) (e23_1 x) (e23_2 x)).trans (col_lv 0 2 x 23 rfl).1.symm
theorem vel23 (x : Fin 36 → ℝ) : (fun i : Fin 3 => jacobian x ⟨3 + i, by omega⟩ 23) = Dvel 0 x (Pi.single 23 1) :=
  (ext3 (e23_3 x) (e23_4 x) (e23_5 x)).trans (col_lv 0 2 x 23 rfl).2.symm
theorem pos24 (x : Fin 36 → ℝ) : (fun i : Fin 3 => jacobian x ⟨0 + i, by omega⟩ 24) = Dpos 0 x (Pi.single 24 1) :=
  (ext3 (e24_0 x) (e24_1 x) (e24_2 x)).trans (col_qd 0 0 x 24 rfl).1.symm
theorem vel24 (x : Fin 36 → ℝ) : (fun i : Fin 3 => jacobian x ⟨3 + i, by omega⟩ 24) = Dvel 0 x (Pi.single 24 1) :=
  (ext3 (e24_3 x) (e24_4 x) (e24_5 x)).trans (col_qd 0 0 x 24 rfl).2.symm
theorem pos25 (x : Fin 36 → ℝ) : (fun i : Fin 3 => jacobian x ⟨0 + i, by omega⟩ 25) = Dpos 0 x (Pi.single 25 1) :=
  (ext3 (e25_0 x) (e25_1 x) (e25_2 x)).trans (col_qd 0 1 x 25 rfl).1.symm
theorem vel25 (x : Fin 36 → ℝ) : (fun i : Fin 3 => jacobian x ⟨3 + i, by omega⟩ 25) = Dvel 0 x (Pi.single 25 1) :=
  (ext3 (e25_3 x) (e25_4 x) (e25_5 x)).trans (col_qd 0 1 x 25 rfl).2.symm
theorem pos26 (x : Fin 36 → ℝ) : (fun i : Fin 3 => jacobian x ⟨0 + i, by omega⟩ 26) = Dpos 0 x (Pi.single 26 1) :=
  (ext3 (e26_0 x) (e26_1 x) (e26_2 x)).trans (col_qd 0 2 x 26 rfl).1.symm
theorem vel26 (x : Fin 36 → ℝ) : (fun i : Fin 3 => jacobian x ⟨3 + i, by omega⟩ 26) = Dvel 0 x (Pi.single 26 1) :=
  (ext3 (e26_3 x) (e26_4 x) (e26_5 x)).trans (col_qd 0 2 x 26 rfl).2.symm
theorem pos27 (x : Fin 36 → ℝ) : (fun i : Fin 3 => jacobian x ⟨0 + i, by omega⟩ 27) = Dpos 0 x (Pi.single 27 1) :=
  (ext3 (e27_0 x) (e27_1 x) (e27_2 x)).trans (col_other 0 1 0 x 27 (by decide) (by decide)).1.symm
theorem vel27 (x : Fin 36 → ℝ) : (fun i : Fin 3 => jacobian x ⟨3 + i, by omega⟩ 27) = Dvel 0 x (Pi.single 27 1) :=
  (ext3 (e27_3 x) (e27_4 x) (e27_5 x)).trans (col_other 0 1 0 x 27 (by decide) (by decide)).2.symm
theorem pos28 (x : Fin 36 → ℝ) : (fun i : Fin 3 => jacobian x ⟨0 + i, by omega⟩ 28) = Dpos 0 x (Pi.single 28 1) :=
  (ext3 (e28_0 x) (e28_1 x) (e28_2 x)).trans (col_other 0 1 1 x 28 (by decide) (by decide)).1.symm
theorem vel28 (x : Fin 36 → ℝ) : (fun i : Fin 3 => jacobian x ⟨3 + i, by omega⟩ 28) = Dvel 0 x (Pi.single 28 1) :=
  (ext3 (e28_3 x) (e28_4 x) (e28_5 x)).trans (col_other 0 1 1 x 28 (by decide) (by decide)).2.symm
theorem pos29 (x : Fin 36 → ℝ) : (fun i : Fin 3 => jacobian x ⟨0 + i, by omega⟩ 29) = Dpos 0 x (Pi.single 29 1) :=
  (ext3 (e29_0 x) (e29_1 x) (e29_2 x)).trans (col_other 0 1 2 x 29 (by decide) (by decide)).1.symm
theorem vel29 (x : Fin 36 → ℝ) : (fun i : Fin 3 => jacobian x ⟨3 + i, by omega⟩ 29) = Dvel 0 x (Pi.single 29 1) :=
  (ext3 (e29_3 x) (e29_4 x) (e29_5 x)).trans (col_other 0 1 2 x 29 (by decide) (by decide)).2.symm
theorem pos30 (x : Fin 36 → ℝ) : (fun i : Fin 3 => jacobian x ⟨0 + i, by omega⟩ 30) = Dpos 0 x (Pi.single 30 1) :=
  (ext3 (e30_0 x) (e30_1 x) (e30_2 x)).trans (col_other 0 2 0 x 30 (by decide) (by decide)).1.symm
theorem vel30 (x : Fin 36 → ℝ) : (fun i : Fin 3 => jacobian x ⟨3 + i, by omega⟩ 30) = Dvel 0 x (Pi.single 30 1) :=
  (ext3 (e30_3 x) (e30_4 x) (e30_5 x)).trans (col_other 0 2 0 x 30 (by decide) (by decide)).2.symm
theorem pos31 (x : Fin 36 → ℝ) : (fun i : Fin 3 => jacobian x ⟨0 + i, by omega⟩ 31) = Dpos 0 x (Pi.single 31 1) :=
  (ext3 (e31_0 x) (e31_1 x) (e31_2 x)).trans (col_other 0 2 1 x 31 (by decide) (by decide)).1.symm
theorem vel31 (x : Fin 36 → ℝ) : (fun i : Fin 3 => jacobian x ⟨3 + i, by omega⟩ 31) = Dvel 0 x (Pi.single 31 1) :=
  (ext3 (e31_3 x) (e31_4 x) (e31_5 x)).trans (col_other 0 2 1 x 31 (by decide) (by decide)).2.symm
theorem pos32 (x : Fin 36 → ℝ) : (fun i : Fin 3 => jacobian x ⟨0 + i, by omega⟩ 32) = Dpos 0 x (Pi.single 32 1) :=
  (ext3 (e32_0 x) (e32_1 x) (e32_2 x)).trans (col_other 0 2 2 x 32 (by decide) (by decide)).1.symm
theorem vel32 (x : Fin 36 → ℝ) : (fun i : Fin 3 => jacobian x ⟨3 + i, by omega⟩ 32) = Dvel 0 x (Pi.single 32 1) :=
  (ext3 (e32_3 x) (e32_4 x) (e32_5 x)).trans (col_other 0 2 2 x 32 (by decide) (by decide)).2.symm
theorem pos33 (x : Fin 36 → ℝ) : (fun i : Fin 3 => jacobian x ⟨0 + i, by omega⟩ 33) = Dpos 0 x (Pi.single 33 1) :=
  (ext3 (e33_0 x) (e33_1 x) (e33_2 x)).trans (col_other 0 3 0 x 33 (by decide) (by decide)).1.symm
theorem vel33 (x : Fin 36 → ℝ) : (fun i : Fin 3 => jacobian x ⟨3 + i, by omega⟩ 33) = Dvel 0 x (Pi.single 33 1) :=
  (ext3 (e33_3 x) (e33_4 x) (e33_5 x)).trans (col_other 0 3 0 x 33 (by decide) (by decide)).2.symm
theorem pos34 (x : Fin 36 → ℝ) : (fun i : Fin 3 => jacobian x ⟨0 + i, by omega⟩ 34) = Dpos 0 x (Pi.single 34 1) :=
  (ext3 (e34_0 x) (e34_1 x) (e34_2 x)).trans (col_other 0 3 1 x 34 (by decide) (by decide)).1.symm
theorem vel34 (x : Fin 36 → ℝ) : (fun i : Fin 3 => jacobian x ⟨3 + i, by omega⟩ 34) = Dvel 0 x (Pi.single 34 1) :=
  (ext3 (e34_3 x) (e34_4 x) (e34_5 x)).trans (col_other 0 3 1 x 34 (by decide) (by decide)).2.symm
theorem pos35 (x : Fin 36 → ℝ) : (fun i : Fin 3 => jacobian x ⟨0 + i, by omega⟩ 35) = Dpos 0 x (Pi.single 35 1) :=
  (ext3 (e35_0 x) (e35_1 x) (e35_2 x)).trans (col_other 0 3 2 x 35 (by decide) (by decide)).1.symm
theorem vel35 (x : Fin 36 → ℝ) : (fun i : Fin 3 => jacobian x ⟨3 + i, by omega⟩ 35) = Dvel 0 x (Pi.single 35 1) :=
  (ext3 (e35_3 x) (e35_4 x) (e35_5 x)).trans (col_other 0 3 2 x 35 (by decide) (by decide)).2.symm

theorem rows (x : Fin 36 → ℝ) (c : Fin 36) :
    (fun i : Fin 3 => jacobian x ⟨0 + i, by omega⟩ c) = Dpos 0 x (Pi.single c 1) ∧
    (fun i : Fin 3 => jacobian x ⟨3 + i, by omega⟩ c) = Dvel 0 x (Pi.single c 1) := by
  fin_cases c
  exacts [⟨pos0 x, vel0 x⟩, ⟨pos1 x, vel1 x⟩, ⟨pos2 x, vel2 x⟩, ⟨pos3 x, vel3 x⟩, ⟨pos4 x, vel4 x⟩, ⟨pos5 x, vel5 x⟩, ⟨pos6 x,
    vel6 x⟩, ⟨pos7 x, vel7 x⟩, ⟨pos8 x, vel8 x⟩, ⟨pos9 x, vel9 x⟩, ⟨pos10 x, vel10 x⟩, ⟨pos11 x, vel11 x⟩, ⟨pos12 x, vel12 x⟩, ⟨pos13 x, vel13 x⟩, ⟨pos14 x, vel14 x⟩, ⟨pos15 x, vel15 x⟩, ⟨pos16 x, vel16 x⟩, ⟨pos17 x, vel17 x⟩, ⟨pos18 x, vel18 x⟩, ⟨pos19 x, vel19 x⟩, ⟨pos20 x, vel20 x⟩, ⟨pos21 x, vel21 x⟩, ⟨pos22 x, vel22 x⟩, ⟨pos23 x, vel23 x⟩, ⟨pos24 x, vel24 x⟩, ⟨pos25 x, vel25 x⟩, ⟨pos26 x, vel26 x⟩, ⟨pos27 x, vel27 x⟩, ⟨pos28 x, vel28 x⟩, ⟨pos29 x, vel29 x⟩, ⟨pos30 x, vel30 x⟩, ⟨pos31 x, vel31 x⟩, ⟨pos32 x, vel32 x⟩, ⟨pos33 x, vel33 x⟩, ⟨pos34 x, vel34 x⟩, ⟨pos35 x, vel35 x⟩]

end CT.Robots.HyQ.FootJacReverse.Leg0
