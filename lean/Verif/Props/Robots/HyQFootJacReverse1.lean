import Verif.Model.Robots.HyQFootJacReverse
import Verif.Props.Robots.HyQFoot

/-!
# Rows of foot 1 in the generated Jacobian HyQForwardKinJacReverse

`hN`: line `N` is a component of the quaternion, of the position of the foot or of its velocity in the base.  `eC_R`: the entry in
row `R` and column `C`.
-/

namespace CT.Robots.HyQ.FootJacReverse.Leg1

open Matrix CT.FloatSys CT.FrameJac CT.Robots.HyQ

set_option linter.unusedSimpArgs false

theorem h229 (x : Fin 36 → ℝ) : l229 x = foot 1 x 2 := by
  simp only [l219, l220, l221, l222, l223, l224, l225, l226, l227, l228, l229, foot, pv_0, pv_1, pv_2, side_1, mountX_1,
    mountY_1, th_1_0, th_1_1, th_1_2, segA, segB, segC, segD, segH] <;> ring
theorem h241 (x : Fin 36 → ℝ) : l241 x = Qe x 3 := by
  simp only [l230, l231, l232, l233, l234, l235, l236, l237, l238, l239, l240, l241, Qe_3] <;> ring
theorem h249 (x : Fin 36 → ℝ) : l249 x = foot 1 x 1 := by
  simp only [l221, l223, l225, l227, l243, l244, l245, l246, l247, l248, l249, foot, pv_0, pv_1, pv_2, side_1, mountX_1,
    mountY_1, th_1_0, th_1_1, th_1_2, segA, segB, segC, segD, segH] <;> ring
theorem h252 (x : Fin 36 → ℝ) : l252 x = Qe x 2 := by
  simp only [l230, l231, l232, l233, l235, l236, l237, l238, l240, l250, l251, l252, Qe_2] <;> ring
theorem h258 (x : Fin 36 → ℝ) : l258 x = -foot 1 x 0 := by
  simp only [l221, l223, l225, l227, l255, l256, l257, l258, foot, pv_0, pv_1, pv_2, side_1, mountX_1, mountY_1, th_1_0, th_1_1,
    th_1_2, segA, segB, segC, segD, segH] <;> ring
theorem h259 (x : Fin 36 → ℝ) : l259 x = Qe x 1 := by
  simp only [l230, l231, l232, l233, l235, l236, l237, l238, l240, l250, l251, l259, Qe_1] <;> ring
theorem h260 (x : Fin 36 → ℝ) : l260 x = Qe x 0 := by
  simp only [l230, l231, l232, l233, l234, l235, l236, l237, l238, l239, l240, l260, Qe_0] <;> ring
theorem h264 (x : Fin 36 → ℝ) : l264 x = -foot 1 x 1 := by
  simp only [l221, l223, l225, l227, l243, l244, l245, l246, l247, l248, l249, l264, foot, pv_0, pv_1, pv_2, side_1, mountX_1,
    mountY_1, th_1_0, th_1_1, th_1_2, segA, segB, segC, segD, segH] <;> ring
theorem h267 (x : Fin 36 → ℝ) : l267 x = -foot 1 x 0 := by
  simp only [l221, l223, l225, l227, l255, l256, l257, l267, foot, pv_0, pv_1, pv_2, side_1, mountX_1, mountY_1, th_1_0, th_1_1,
    th_1_2, segA, segB, segC, segD, segH] <;> ring
theorem h257 (x : Fin 36 → ℝ) : l257 x = foot 1 x 0 := by
  simp only [l221, l223, l225, l227, l255, l256, l257, foot, pv_0, pv_1, pv_2, side_1, mountX_1, mountY_1, th_1_0, th_1_1,
    th_1_2, segA, segB, segC, segD, segH] <;> ring
theorem h275 (x : Fin 36 → ℝ) : l275 x = -foot 1 x 1 := by
  simp only [l221, l223, l225, l227, l243, l244, l245, l246, l247, l248, l249, l275, foot, pv_0, pv_1, pv_2, side_1, mountX_1,
    mountY_1, th_1_0, th_1_1, th_1_2, segA, segB, segC, segD, segH] <;> ring
theorem h277 (x : Fin 36 → ℝ) : l277 x = -foot 1 x 2 := by
  simp only [l219, l220, l221, l222, l223, l224, l225, l226, l227, l228, l229, l277, foot, pv_0, pv_1, pv_2, side_1, mountX_1,
    mountY_1, th_1_0, th_1_1, th_1_2, segA, segB, segC, segD, segH] <;> ring
theorem h284 (x : Fin 36 → ℝ) : l284 x = -foot 1 x 1 := by
  simp only [l221, l223, l225, l227, l243, l244, l245, l246, l247, l248, l249, l284, foot, pv_0, pv_1, pv_2, side_1, mountX_1,
    mountY_1, th_1_0, th_1_1, th_1_2, segA, segB, segC, segD, segH] <;> ring
theorem h290 (x : Fin 36 → ℝ) : l290 x = -foot 1 x 2 := by
  simp only [l219, l220, l221, l222, l223, l224, l225, l226, l227, l228, l229, l290, foot, pv_0, pv_1, pv_2, side_1, mountX_1,
    mountY_1, th_1_0, th_1_1, th_1_2, segA, segB, segC, segD, segH] <;> ring
theorem h292 (x : Fin 36 → ℝ) : l292 x = -foot 1 x 2 := by
  simp only [l219, l220, l221, l222, l223, l224, l225, l226, l227, l228, l229, l292, foot, pv_0, pv_1, pv_2, side_1, mountX_1,
    mountY_1, th_1_0, th_1_1, th_1_2, segA, segB, segC, segD, segH] <;> ring
theorem h293 (x : Fin 36 → ℝ) : l293 x = -foot 1 x 0 := by
  simp only [l221, l223, l225, l227, l255, l256, l257, l293, foot, pv_0, pv_1, pv_2, side_1, mountX_1, mountY_1, th_1_0, th_1_1,
    th_1_2, segA, segB, segC, segD, segH] <;> ring
theorem h329 (x : Fin 36 → ℝ) : l329 x = vb 1 x 2 := by
  simp only [l219, l221, l223, l225, l227, l243, l304, l305, l306, l307, l308, l309, l310, l311, l312, l313, l314, l315, l316,
    l317, l318, l319, l320, l321, l322, l323, l324, l325, l326, l327, l328, l329, vb, Pi.add_apply, mv_0, mv_1, mv_2, cr_0, cr_1, cr_2, foot, pv_0, pv_1, pv_2, side_1, mountX_1, mountY_1, th_1_0, th_1_1, th_1_2, segA, segB, segC, segD, segH, jac, jm_00, jm_01, jm_02, jm_10, jm_11, jm_12, jm_20, jm_21, jm_22, qd_1_0, qd_1_1, qd_1_2, om_0, om_1, om_2, lv_0, lv_1, lv_2] <;> ring
theorem h341 (x : Fin 36 → ℝ) : l341 x = Qe x 3 := by
  simp only [l330, l331, l332, l333, l334, l335, l336, l337, l338, l339, l340, l341, Qe_3] <;> ring
theorem h365 (x : Fin 36 → ℝ) : l365 x = vb 1 x 1 := by
  simp only [l219, l221, l223, l225, l227, l243, l316, l326, l327, l328, l343, l344, l345, l346, l347, l348, l349, l350, l351,
    l352, l353, l354, l355, l356, l357, l358, l359, l360, l361, l362, l363, l364, l365, vb, Pi.add_apply, mv_0, mv_1, mv_2, cr_0, cr_1, cr_2, foot, pv_0, pv_1, pv_2, side_1, mountX_1, mountY_1, th_1_0, th_1_1, th_1_2, segA, segB, segC, segD, segH, jac, jm_00, jm_01, jm_02, jm_10, jm_11, jm_12, jm_20, jm_21, jm_22, qd_1_0, qd_1_1, qd_1_2, om_0, om_1, om_2, lv_0, lv_1, lv_2] <;> ring
theorem h368 (x : Fin 36 → ℝ) : l368 x = Qe x 2 := by
  simp only [l330, l331, l332, l333, l335, l336, l337, l338, l340, l366, l367, l368, Qe_2] <;> ring
theorem h378 (x : Fin 36 → ℝ) : l378 x = -vb 1 x 0 := by
  simp only [l219, l221, l223, l225, l227, l243, l320, l321, l322, l323, l324, l325, l359, l360, l361, l362, l363, l364, l371,
    l372, l373, l374, l375, l376, l377, l378, vb, Pi.add_apply, mv_0, mv_1, mv_2, cr_0, cr_1, cr_2, foot, pv_0, pv_1, pv_2, side_1, mountX_1, mountY_1, th_1_0, th_1_1, th_1_2, segA, segB, segC, segD, segH, jac, jm_00, jm_01, jm_02, jm_10, jm_11, jm_12, jm_20, jm_21, jm_22, qd_1_0, qd_1_1, qd_1_2, om_0, om_1, om_2, lv_0, lv_1, lv_2] <;> ring
theorem h379 (x : Fin 36 → ℝ) : l379 x = Qe x 1 := by
  simp only [l330, l331, l332, l333, l335, l336, l337, l338, l340, l366, l367, l379, Qe_1] <;> ring
theorem h380 (x : Fin 36 → ℝ) : l380 x = Qe x 0 := by
  simp only [l330, l331, l332, l333, l334, l335, l336, l337, l338, l339, l340, l380, Qe_0] <;> ring
theorem h384 (x : Fin 36 → ℝ) : l384 x = -vb 1 x 1 := by
  simp only [l219, l221, l223, l225, l227, l243, l316, l326, l327, l328, l343, l344, l345, l346, l347, l348, l349, l350, l351,
    l352, l353, l354, l355, l356, l357, l358, l359, l360, l361, l362, l363, l364, l365, l384, vb, Pi.add_apply, mv_0, mv_1, mv_2, cr_0, cr_1, cr_2, foot, pv_0, pv_1, pv_2, side_1, mountX_1, mountY_1, th_1_0, th_1_1, th_1_2, segA, segB, segC, segD, segH, jac, jm_00, jm_01, jm_02, jm_10, jm_11, jm_12, jm_20, jm_21, jm_22, qd_1_0, qd_1_1, qd_1_2, om_0, om_1, om_2, lv_0, lv_1, lv_2] <;> ring
theorem h387 (x : Fin 36 → ℝ) : l387 x = -vb 1 x 0 := by
  simp only [l219, l221, l223, l225, l227, l243, l320, l321, l322, l323, l324, l325, l359, l360, l361, l362, l363, l364, l371,
    l372, l373, l374, l375, l376, l377, l387, vb, Pi.add_apply, mv_0, mv_1, mv_2, cr_0, cr_1, cr_2, foot, pv_0, pv_1, pv_2, side_1, mountX_1, mountY_1, th_1_0, th_1_1, th_1_2, segA, segB, segC, segD, segH, jac, jm_00, jm_01, jm_02, jm_10, jm_11, jm_12, jm_20, jm_21, jm_22, qd_1_0, qd_1_1, qd_1_2, om_0, om_1, om_2, lv_0, lv_1, lv_2] <;> ring
theorem h377 (x : Fin 36 → ℝ) : l377 x = vb 1 x 0 := by
  simp only [l219, l221, l223, l225, l227, l243, l320, l321, l322, l323, l324, l325, l359, l360, l361, l362, l363, l364, l371,
    l372, l373, l374, l375, l376, l377, vb, Pi.add_apply, mv_0, mv_1, mv_2, cr_0, cr_1, cr_2, foot, pv_0, pv_1, pv_2, side_1, mountX_1, mountY_1, th_1_0, th_1_1, th_1_2, segA, segB, segC, segD, segH, jac, jm_00, jm_01, jm_02, jm_10, jm_11, jm_12, jm_20, jm_21, jm_22, qd_1_0, qd_1_1, qd_1_2, om_0, om_1, om_2, lv_0, lv_1, lv_2] <;> ring
theorem h395 (x : Fin 36 → ℝ) : l395 x = -vb 1 x 1 := by
  simp only [l219, l221, l223, l225, l227, l243, l316, l326, l327, l328, l343, l344, l345, l346, l347, l348, l349, l350, l351,
    l352, l353, l354, l355, l356, l357, l358, l359, l360, l361, l362, l363, l364, l365, l395, vb, Pi.add_apply, mv_0, mv_1, mv_2, cr_0, cr_1, cr_2, foot, pv_0, pv_1, pv_2, side_1, mountX_1, mountY_1, th_1_0, th_1_1, th_1_2, segA, segB, segC, segD, segH, jac, jm_00, jm_01, jm_02, jm_10, jm_11, jm_12, jm_20, jm_21, jm_22, qd_1_0, qd_1_1, qd_1_2, om_0, om_1, om_2, lv_0, lv_1, lv_2] <;> ring
theorem h397 (x : Fin 36 → ℝ) : l397 x = -vb 1 x 2 := by
  simp only [l219, l221, l223, l225, l227, l243, l304, l305, l306, l307, l308, l309, l310, l311, l312, l313, l314, l315, l316,
    l317, l318, l319, l320, l321, l322, l323, l324, l325, l326, l327, l328, l329, l397, vb, Pi.add_apply, mv_0, mv_1, mv_2, cr_0, cr_1, cr_2, foot, pv_0, pv_1, pv_2, side_1, mountX_1, mountY_1, th_1_0, th_1_1, th_1_2, segA, segB, segC, segD, segH, jac, jm_00, jm_01, jm_02, jm_10, jm_11, jm_12, jm_20, jm_21, jm_22, qd_1_0, qd_1_1, qd_1_2, om_0, om_1, om_2, lv_0, lv_1, lv_2] <;> ring
theorem h404 (x : Fin 36 → ℝ) : l404 x = -vb 1 x 1 := by
  simp only [l219, l221, l223, l225, l227, l243, l316, l326, l327, l328, l343, l344, l345, l346, l347, l348, l349, l350, l351,
    l352, l353, l354, l355, l356, l357, l358, l359, l360, l361, l362, l363, l364, l365, l404, vb, Pi.add_apply, mv_0, mv_1, mv_2, cr_0, cr_1, cr_2, foot, pv_0, pv_1, pv_2, side_1, mountX_1, mountY_1, th_1_0, th_1_1, th_1_2, segA, segB, segC, segD, segH, jac, jm_00, jm_01, jm_02, jm_10, jm_11, jm_12, jm_20, jm_21, jm_22, qd_1_0, qd_1_1, qd_1_2, om_0, om_1, om_2, lv_0, lv_1, lv_2] <;> ring
theorem h410 (x : Fin 36 → ℝ) : l410 x = -vb 1 x 2 := by
  simp only [l219, l221, l223, l225, l227, l243, l304, l305, l306, l307, l308, l309, l310, l311, l312, l313, l314, l315, l316,
    l317, l318, l319, l320, l321, l322, l323, l324, l325, l326, l327, l328, l329, l410, vb, Pi.add_apply, mv_0, mv_1, mv_2, cr_0, cr_1, cr_2, foot, pv_0, pv_1, pv_2, side_1, mountX_1, mountY_1, th_1_0, th_1_1, th_1_2, segA, segB, segC, segD, segH, jac, jm_00, jm_01, jm_02, jm_10, jm_11, jm_12, jm_20, jm_21, jm_22, qd_1_0, qd_1_1, qd_1_2, om_0, om_1, om_2, lv_0, lv_1, lv_2] <;> ring
theorem h412 (x : Fin 36 → ℝ) : l412 x = -vb 1 x 2 := by
  simp only [l219, l221, l223, l225, l227, l243, l304, l305, l306, l307, l308, l309, l310, l311, l312, l313, l314, l315, l316,
    l317, l318, l319, l320, l321, l322, l323, l324, l325, l326, l327, l328, l329, l412, vb, Pi.add_apply, mv_0, mv_1, mv_2, cr_0, cr_1, cr_2, foot, pv_0, pv_1, pv_2, side_1, mountX_1, mountY_1, th_1_0, th_1_1, th_1_2, segA, segB, segC, segD, segH, jac, jm_00, jm_01, jm_02, jm_10, jm_11, jm_12, jm_20, jm_21, jm_22, qd_1_0, qd_1_1, qd_1_2, om_0, om_1, om_2, lv_0, lv_1, lv_2] <;> ring
theorem h413 (x : Fin 36 → ℝ) : l413 x = -vb 1 x 0 := by
  simp only [l219, l221, l223, l225, l227, l243, l320, l321, l322, l323, l324, l325, l359, l360, l361, l362, l363, l364, l371,
    l372, l373, l374, l375, l376, l377, l413, vb, Pi.add_apply, mv_0, mv_1, mv_2, cr_0, cr_1, cr_2, foot, pv_0, pv_1, pv_2, side_1, mountX_1, mountY_1, th_1_0, th_1_1, th_1_2, segA, segB, segC, segD, segH, jac, jm_00, jm_01, jm_02, jm_10, jm_11, jm_12, jm_20, jm_21, jm_22, qd_1_0, qd_1_1, qd_1_2, om_0, om_1, om_2, lv_0, lv_1, lv_2] <;> ring

theorem e0_6 (x : Fin 36 → ℝ) : l274 x = (dRm (Qe x) (dQ 0 x) *ᵥ foot 1 x) 0 := by
  simp only [l230, l232, l233, l235, l236, l238, l240, l242, l253, l254, l261, l262, l263, l265, l266, l268, l269, l270, l271,
    l272, l273, l274, h229, h241, h249, h252, h258, h259, h260, h264, h267, mv_0, mv_1, mv_2, dRm_00, dRm_01, dRm_02, dRm_10, dRm_11, dRm_12, dRm_20, dRm_21, dRm_22, dQ_0_0, dQ_0_1, dQ_0_2, dQ_0_3] <;> ring
theorem e0_7 (x : Fin 36 → ℝ) : l289 x = (dRm (Qe x) (dQ 0 x) *ᵥ foot 1 x) 1 := by
  simp only [l230, l232, l233, l235, l236, l238, l240, l242, l253, l270, l273, l276, l278, l279, l280, l281, l282, l283, l285,
    l286, l287, l288, l289, h229, h241, h252, h257, h259, h260, h275, h277, h284, mv_0, mv_1, mv_2, dRm_00, dRm_01, dRm_02, dRm_10, dRm_11, dRm_12, dRm_20, dRm_21, dRm_22, dQ_0_0, dQ_0_1, dQ_0_2, dQ_0_3] <;> ring
theorem e0_8 (x : Fin 36 → ℝ) : l303 x = (dRm (Qe x) (dQ 0 x) *ᵥ foot 1 x) 2 := by
  simp only [l230, l232, l233, l235, l236, l238, l240, l242, l253, l270, l273, l276, l291, l294, l295, l296, l297, l298, l299,
    l300, l301, l302, l303, h241, h249, h252, h257, h259, h260, h290, h292, h293, mv_0, mv_1, mv_2, dRm_00, dRm_01, dRm_02, dRm_10, dRm_11, dRm_12, dRm_20, dRm_21, dRm_22, dQ_0_0, dQ_0_1, dQ_0_2, dQ_0_3] <;> ring
theorem e0_9 (x : Fin 36 → ℝ) : l394 x = (dRm (Qe x) (dQ 0 x) *ᵥ vb 1 x) 0 := by
  simp only [l330, l332, l333, l335, l336, l338, l340, l342, l369, l370, l381, l382, l383, l385, l386, l388, l389, l390, l391,
    l392, l393, l394, h329, h341, h365, h368, h378, h379, h380, h384, h387, mv_0, mv_1, mv_2, dRm_00, dRm_01, dRm_02, dRm_10, dRm_11, dRm_12, dRm_20, dRm_21, dRm_22, dQ_0_0, dQ_0_1, dQ_0_2, dQ_0_3] <;> ring
theorem e0_10 (x : Fin 36 → ℝ) : l409 x = (dRm (Qe x) (dQ 0 x) *ᵥ vb 1 x) 1 := by
  simp only [l330, l332, l333, l335, l336, l338, l340, l342, l369, l390, l393, l396, l398, l399, l400, l401, l402, l403, l405,
    l406, l407, l408, l409, h329, h341, h368, h377, h379, h380, h395, h397, h404, mv_0, mv_1, mv_2, dRm_00, dRm_01, dRm_02, dRm_10, dRm_11, dRm_12, dRm_20, dRm_21, dRm_22, dQ_0_0, dQ_0_1, dQ_0_2, dQ_0_3] <;> ring
theorem e0_11 (x : Fin 36 → ℝ) : l423 x = (dRm (Qe x) (dQ 0 x) *ᵥ vb 1 x) 2 := by
  simp only [l330, l332, l333, l335, l336, l338, l340, l342, l369, l390, l393, l396, l411, l414, l415, l416, l417, l418, l419,
    l420, l421, l422, l423, h341, h365, h368, h377, h379, h380, h410, h412, h413, mv_0, mv_1, mv_2, dRm_00, dRm_01, dRm_02, dRm_10, dRm_11, dRm_12, dRm_20, dRm_21, dRm_22, dQ_0_0, dQ_0_1, dQ_0_2, dQ_0_3] <;> ring
theorem e1_6 (x : Fin 36 → ℝ) : l847 x = (dRm (Qe x) (dQ 1 x) *ᵥ foot 1 x) 0 := by
  simp only [l230, l231, l232, l235, l236, l237, l240, l242, l253, l254, l261, l262, l263, l265, l266, l268, l269, l271, l272,
    l845, l846, l847, h229, h241, h249, h252, h258, h259, h260, h264, h267, mv_0, mv_1, mv_2, dRm_00, dRm_01, dRm_02, dRm_10, dRm_11, dRm_12, dRm_20, dRm_21, dRm_22, dQ_1_0, dQ_1_1, dQ_1_2, dQ_1_3] <;> ring
theorem e1_7 (x : Fin 36 → ℝ) : l848 x = (dRm (Qe x) (dQ 1 x) *ᵥ foot 1 x) 1 := by
  simp only [l230, l231, l232, l235, l236, l237, l240, l242, l253, l276, l278, l279, l280, l281, l282, l283, l285, l286, l287,
    l288, l845, l846, l848, h229, h241, h252, h257, h259, h260, h275, h277, h284, mv_0, mv_1, mv_2, dRm_00, dRm_01, dRm_02, dRm_10, dRm_11, dRm_12, dRm_20, dRm_21, dRm_22, dQ_1_0, dQ_1_1, dQ_1_2, dQ_1_3] <;> ring
theorem e1_8 (x : Fin 36 → ℝ) : l849 x = (dRm (Qe x) (dQ 1 x) *ᵥ foot 1 x) 2 := by
  simp only [l230, l231, l232, l235, l236, l237, l240, l242, l253, l276, l291, l294, l295, l296, l297, l298, l299, l300, l301,
    l302, l845, l846, l849, h241, h249, h252, h257, h259, h260, h290, h292, h293, mv_0, mv_1, mv_2, dRm_00, dRm_01, dRm_02, dRm_10, dRm_11, dRm_12, dRm_20, dRm_21, dRm_22, dQ_1_0, dQ_1_1, dQ_1_2, dQ_1_3] <;> ring
theorem e1_9 (x : Fin 36 → ℝ) : l852 x = (dRm (Qe x) (dQ 1 x) *ᵥ vb 1 x) 0 := by
  simp only [l330, l331, l332, l335, l336, l337, l340, l342, l369, l370, l381, l382, l383, l385, l386, l388, l389, l391, l392,
    l850, l851, l852, h329, h341, h365, h368, h378, h379, h380, h384, h387, mv_0, mv_1, mv_2, dRm_00, dRm_01, dRm_02, dRm_10, dRm_11, dRm_12, dRm_20, dRm_21, dRm_22, dQ_1_0, dQ_1_1, dQ_1_2, dQ_1_3] <;> ring
theorem e1_10 (x : Fin 36 → ℝ) : l853 x = (dRm (Qe x) (dQ 1 x) *ᵥ vb 1 x) 1 := by
  simp only [l330, l331, l332, l335, l336, l337, l340, l342, l369, l396, l398, l399, l400, l401, l402, l403, l405, l406, l407,
    l408, l850, l851, l853, h329, h341, h368, h377, h379, h380, h395, h397, h404, mv_0, mv_1, mv_2, dRm_00, dRm_01, dRm_02, dRm_10, dRm_11, dRm_12, dRm_20, dRm_21, dRm_22, dQ_1_0, dQ_1_1, dQ_1_2, dQ_1_3] <;> ring
theorem e1_11 (x : Fin 36 → ℝ) : l854 x = (dRm (Qe x) (dQ 1 x) *ᵥ vb 1 x) 2 := by
  simp only [l330, l331, l332, l335, l336, l337, l340, l342, l369, l396, l411, l414, l415, l416, l417, l418, l419, l420, l421,
    l422, l850, l851, l854, h341, h365, h368, h377, h379, h380, h410, h412, h413, mv_0, mv_1, mv_2, dRm_00, dRm_01, dRm_02, dRm_10, dRm_11, dRm_12, dRm_20, dRm_21, dRm_22, dQ_1_0, dQ_1_1, dQ_1_2, dQ_1_3] <;> ring
theorem e2_6 (x : Fin 36 → ℝ) : l887 x = (dRm (Qe x) (dQ 2 x) *ᵥ foot 1 x) 0 := by
  simp only [l230, l231, l232, l233, l234, l235, l237, l238, l239, l242, l250, l251, l253, l254, l261, l262, l265, l266, l268,
    l885, l886, l887, h229, h241, h249, h252, h258, h259, h260, h264, h267, mv_0, mv_1, mv_2, dRm_00, dRm_01, dRm_02, dRm_10, dRm_11, dRm_12, dRm_20, dRm_21, dRm_22, dQ_2_0, dQ_2_1, dQ_2_2, dQ_2_3] <;> ring
theorem e2_7 (x : Fin 36 → ℝ) : l888 x = (dRm (Qe x) (dQ 2 x) *ᵥ foot 1 x) 1 := by
  simp only [l230, l231, l232, l233, l234, l235, l237, l238, l239, l242, l250, l251, l253, l276, l278, l279, l280, l282, l283,
    l285, l885, l886, l888, h229, h241, h252, h257, h259, h260, h275, h277, h284, mv_0, mv_1, mv_2, dRm_00, dRm_01, dRm_02, dRm_10, dRm_11, dRm_12, dRm_20, dRm_21, dRm_22, dQ_2_0, dQ_2_1, dQ_2_2, dQ_2_3] <;> ring
theorem e2_8 (x : Fin 36 → ℝ) : l889 x = (dRm (Qe x) (dQ 2 x) *ᵥ foot 1 x) 2 := by
  simp only [l230, l231, l232, l233, l234, l235, l237, l238, l239, l242, l250, l251, l253, l276, l291, l294, l295, l297, l298,
    l299, l885, l886, l889, h241, h249, h252, h257, h259, h260, h290, h292, h293, mv_0, mv_1, mv_2, dRm_00, dRm_01, dRm_02, dRm_10, dRm_11, dRm_12, dRm_20, dRm_21, dRm_22, dQ_2_0, dQ_2_1, dQ_2_2, dQ_2_3] <;> ring
theorem e2_9 (x : Fin 36 → ℝ) : l892 x = (dRm (Qe x) (dQ 2 x) *ᵥ vb 1 x) 0 := by
  simp only [l330, l331, l332, l333, l334, l335, l337, l338, l339, l342, l366, l367, l369, l370, l381, l382, l385, l386, l388,
    l890, l891, l892, h329, h341, h365, h368, h378, h379, h380, h384, h387, mv_0, mv_1, mv_2, dRm_00, dRm_01, dRm_02, dRm_10, dRm_11, dRm_12, dRm_20, dRm_21, dRm_22, dQ_2_0, dQ_2_1, dQ_2_2, dQ_2_3] <;> ring
theorem e2_10 (x : Fin 36 → ℝ) : l893 x = (dRm (Qe x) (dQ 2 x) *ᵥ vb 1 x) 1 := by
  simp only [l330, l331, l332, l333, l334, l335, l337, l338, l339, l342, l366, l367, l369, l396, l398, l399, l400, l402, l403,
    l405, l890, l891, l893, h329, h341, h368, h377, h379, h380, h395, h397, h404, mv_0, mv_1, mv_2, dRm_00, dRm_01, dRm_02, dRm_10, dRm_11, dRm_12, dRm_20, dRm_21, dRm_22, dQ_2_0, dQ_2_1, dQ_2_2, dQ_2_3] <;> ring
theorem e2_11 (x : Fin 36 → ℝ) : l894 x = (dRm (Qe x) (dQ 2 x) *ᵥ vb 1 x) 2 := by
  simp only [l330, l331, l332, l333, l334, l335, l337, l338, l339, l342, l366, l367, l369, l396, l411, l414, l415, l417, l418,
    l419, l890, l891, l894, h341, h365, h368, h377, h379, h380, h410, h412, h413, mv_0, mv_1, mv_2, dRm_00, dRm_01, dRm_02, dRm_10, dRm_11, dRm_12, dRm_20, dRm_21, dRm_22, dQ_2_0, dQ_2_1, dQ_2_2, dQ_2_3] <;> ring
theorem e3_6 (x : Fin 36 → ℝ) : l1785 x = ((Pi.single 0 1 : V3)) 0 := by simp [l1785]
theorem e3_7 (_x : Fin 36 → ℝ) : (0 : ℝ) = ((Pi.single 0 1 : V3)) 1 := by simp [Pi.zero_apply]
theorem e3_8 (_x : Fin 36 → ℝ) : (0 : ℝ) = ((Pi.single 0 1 : V3)) 2 := by simp [Pi.zero_apply]
theorem e3_9 (_x : Fin 36 → ℝ) : (0 : ℝ) = ((0 : V3)) 0 := by simp [Pi.zero_apply]
theorem e3_10 (_x : Fin 36 → ℝ) : (0 : ℝ) = ((0 : V3)) 1 := by simp [Pi.zero_apply]
theorem e3_11 (_x : Fin 36 → ℝ) : (0 : ℝ) = ((0 : V3)) 2 := by simp [Pi.zero_apply]
theorem e4_6 (_x : Fin 36 → ℝ) : (0 : ℝ) = ((Pi.single 1 1 : V3)) 0 := by simp [Pi.zero_apply]
theorem e4_7 (x : Fin 36 → ℝ) : l1789 x = ((Pi.single 1 1 : V3)) 1 := by simp [l1789]
theorem e4_8 (_x : Fin 36 → ℝ) : (0 : ℝ) = ((Pi.single 1 1 : V3)) 2 := by simp [Pi.zero_apply]
theorem e4_9 (_x : Fin 36 → ℝ) : (0 : ℝ) = ((0 : V3)) 0 := by simp [Pi.zero_apply]
theorem e4_10 (_x : Fin 36 → ℝ) : (0 : ℝ) = ((0 : V3)) 1 := by simp [Pi.zero_apply]
theorem e4_11 (_x : Fin 36 → ℝ) : (0 : ℝ) = ((0 : V3)) 2 := by simp [Pi.zero_apply]
theorem e5_6 (_x : Fin 36 → ℝ) : (0 : ℝ) = ((Pi.single 2 1 : V3)) 0 := by simp [Pi.zero_apply]
theorem e5_7 (_x : Fin 36 → ℝ) : (0 : ℝ) = ((Pi.single 2 1 : V3)) 1 := by simp [Pi.zero_apply]
theorem e5_8 (x : Fin 36 → ℝ) : l1793 x = ((Pi.single 2 1 : V3)) 2 := by simp [l1793]
theorem e5_9 (_x : Fin 36 → ℝ) : (0 : ℝ) = ((0 : V3)) 0 := by simp [Pi.zero_apply]
theorem e5_10 (_x : Fin 36 → ℝ) : (0 : ℝ) = ((0 : V3)) 1 := by simp [Pi.zero_apply]
theorem e5_11 (_x : Fin 36 → ℝ) : (0 : ℝ) = ((0 : V3)) 2 := by simp [Pi.zero_apply]
theorem e6_6 (_x : Fin 36 → ℝ) : (0 : ℝ) = ((0 : V3)) 0 := by simp [Pi.zero_apply]
theorem e6_7 (_x : Fin 36 → ℝ) : (0 : ℝ) = ((0 : V3)) 1 := by simp [Pi.zero_apply]
theorem e6_8 (_x : Fin 36 → ℝ) : (0 : ℝ) = ((0 : V3)) 2 := by simp [Pi.zero_apply]
theorem e6_9 (_x : Fin 36 → ℝ) : (0 : ℝ) = ((0 : V3)) 0 := by simp [Pi.zero_apply]
theorem e6_10 (_x : Fin 36 → ℝ) : (0 : ℝ) = ((0 : V3)) 1 := by simp [Pi.zero_apply]
theorem e6_11 (_x : Fin 36 → ℝ) : (0 : ℝ) = ((0 : V3)) 2 := by simp [Pi.zero_apply]
theorem e7_6 (_x : Fin 36 → ℝ) : (0 : ℝ) = ((0 : V3)) 0 := by simp [Pi.zero_apply]
theorem e7_7 (_x : Fin 36 → ℝ) : (0 : ℝ) = ((0 : V3)) 1 := by simp [Pi.zero_apply]
theorem e7_8 (_x : Fin 36 → ℝ) : (0 : ℝ) = ((0 : V3)) 2 := by simp [Pi.zero_apply]
theorem e7_9 (_x : Fin 36 → ℝ) : (0 : ℝ) = ((0 : V3)) 0 := by simp [Pi.zero_apply]
theorem e7_10 (_x : Fin 36 → ℝ) : (0 : ℝ) = ((0 : V3)) 1 := by simp [Pi.zero_apply]
theorem e7_11 (_x : Fin 36 → ℝ) : (0 : ℝ) = ((0 : V3)) 2 := by simp [Pi.zero_apply]
theorem e8_6 (_x : Fin 36 → ℝ) : (0 : ℝ) = ((0 : V3)) 0 := by simp [Pi.zero_apply]
theorem e8_7 (_x : Fin 36 → ℝ) : (0 : ℝ) = ((0 : V3)) 1 := by simp [Pi.zero_apply]
theorem e8_8 (_x : Fin 36 → ℝ) : (0 : ℝ) = ((0 : V3)) 2 := by simp [Pi.zero_apply]
theorem e8_9 (_x : Fin 36 → ℝ) : (0 : ℝ) = ((0 : V3)) 0 := by simp [Pi.zero_apply]
theorem e8_10 (_x : Fin 36 → ℝ) : (0 : ℝ) = ((0 : V3)) 1 := by simp [Pi.zero_apply]
theorem e8_11 (_x : Fin 36 → ℝ) : (0 : ℝ) = ((0 : V3)) 2 := by simp [Pi.zero_apply]
theorem e9_6 (x : Fin 36 → ℝ) : l1148 x = (quatMatrix (Qe x) *ᵥ jcol 1 0 x) 0 := by
  simp only [l221, l223, l225, l227, l242, l253, l1134, l1135, l1136, l1137, l1138, l1139, l1140, l1141, l1142, l1143, l1144,
    l1145, l1146, l1147, l1148, h241, h252, h259, h260, mv_0, mv_1, mv_2, qm_00, qm_01, qm_02, qm_10, qm_11, qm_12, qm_20, qm_21, qm_22, jcol, jac, jm_00, jm_01, jm_02, jm_10, jm_11, jm_12, jm_20, jm_21, jm_22, side_1, th_1_0, th_1_1, th_1_2, segA, segB, segC, segD, segH, Pi.add_apply, cr_0, cr_1, cr_2, djm_0_00, djm_0_01, djm_0_02, djm_0_10, djm_0_11, djm_0_12, djm_0_20, djm_0_21, djm_0_22, qd_1_0, qd_1_1, qd_1_2, om_0, om_1, om_2] <;> ring
theorem e9_7 (x : Fin 36 → ℝ) : l1161 x = (quatMatrix (Qe x) *ᵥ jcol 1 0 x) 1 := by
  simp only [l221, l223, l225, l227, l242, l276, l1141, l1147, l1149, l1150, l1151, l1152, l1153, l1154, l1155, l1156, l1157,
    l1158, l1159, l1160, l1161, h241, h252, h259, h260, mv_0, mv_1, mv_2, qm_00, qm_01, qm_02, qm_10, qm_11, qm_12, qm_20, qm_21, qm_22, jcol, jac, jm_00, jm_01, jm_02, jm_10, jm_11, jm_12, jm_20, jm_21, jm_22, side_1, th_1_0, th_1_1, th_1_2, segA, segB, segC, segD, segH, Pi.add_apply, cr_0, cr_1, cr_2, djm_0_00, djm_0_01, djm_0_02, djm_0_10, djm_0_11, djm_0_12, djm_0_20, djm_0_21, djm_0_22, qd_1_0, qd_1_1, qd_1_2, om_0, om_1, om_2] <;> ring
theorem e9_8 (x : Fin 36 → ℝ) : l1171 x = (quatMatrix (Qe x) *ᵥ jcol 1 0 x) 2 := by
  simp only [l221, l223, l225, l227, l242, l253, l276, l1141, l1147, l1149, l1150, l1157, l1162, l1163, l1164, l1165, l1166,
    l1167, l1168, l1169, l1170, l1171, h241, h252, h259, h260, mv_0, mv_1, mv_2, qm_00, qm_01, qm_02, qm_10, qm_11, qm_12, qm_20, qm_21, qm_22, jcol, jac, jm_00, jm_01, jm_02, jm_10, jm_11, jm_12, jm_20, jm_21, jm_22, side_1, th_1_0, th_1_1, th_1_2, segA, segB, segC, segD, segH, Pi.add_apply, cr_0, cr_1, cr_2, djm_0_00, djm_0_01, djm_0_02, djm_0_10, djm_0_11, djm_0_12, djm_0_20, djm_0_21, djm_0_22, qd_1_0, qd_1_1, qd_1_2, om_0, om_1, om_2] <;> ring
theorem e9_9 (x : Fin 36 → ℝ) : l1219 x = (quatMatrix (Qe x) *ᵥ (djm (side 1) 0 (th 1 x) *ᵥ qd 1 x + cross (om x) (jcol 1 0 x))) 0 := by
  simp only [l221, l223, l225, l227, l342, l369, l1141, l1147, l1172, l1173, l1174, l1175, l1176, l1177, l1179, l1180, l1181,
    l1182, l1183, l1184, l1185, l1186, l1187, l1193, l1194, l1195, l1196, l1197, l1198, l1199, l1200, l1201, l1202, l1204, l1205, l1206, l1207, l1208, l1209, l1210, l1211, l1212, l1213, l1214, l1215, l1216, l1217, l1218, l1219, h341, h368, h379, h380, mv_0, mv_1, mv_2, qm_00, qm_01, qm_02, qm_10, qm_11, qm_12, qm_20, qm_21, qm_22, jcol, jac, jm_00, jm_01, jm_02, jm_10, jm_11, jm_12, jm_20, jm_21, jm_22, side_1, th_1_0, th_1_1, th_1_2, segA, segB, segC, segD, segH, Pi.add_apply, cr_0, cr_1, cr_2, djm_0_00, djm_0_01, djm_0_02, djm_0_10, djm_0_11, djm_0_12, djm_0_20, djm_0_21, djm_0_22, qd_1_0, qd_1_1, qd_1_2, om_0, om_1, om_2] <;> ring
theorem e9_10 (x : Fin 36 → ℝ) : l1266 x = (quatMatrix (Qe x) *ᵥ (djm (side 1) 0 (th 1 x) *ᵥ qd 1 x + cross (om x) (jcol 1 0 x))) 1 := by
  simp only [l221, l223, l225, l227, l342, l369, l396, l1141, l1147, l1172, l1175, l1176, l1178, l1220, l1221, l1223, l1224,
    l1225, l1226, l1227, l1228, l1229, l1230, l1231, l1240, l1241, l1242, l1243, l1244, l1245, l1246, l1247, l1248, l1249, l1251, l1252, l1253, l1254, l1255, l1256, l1257, l1258, l1259, l1260, l1261, l1262, l1263, l1264, l1265, l1266, h341, h368, h379, h380, mv_0, mv_1, mv_2, qm_00, qm_01, qm_02, qm_10, qm_11, qm_12, qm_20, qm_21, qm_22, jcol, jac, jm_00, jm_01, jm_02, jm_10, jm_11, jm_12, jm_20, jm_21, jm_22, side_1, th_1_0, th_1_1, th_1_2, segA, segB, segC, segD, segH, Pi.add_apply, cr_0, cr_1, cr_2, djm_0_00, djm_0_01, djm_0_02, djm_0_10, djm_0_11, djm_0_12, djm_0_20, djm_0_21, djm_0_22, qd_1_0, qd_1_1, qd_1_2, om_0, om_1, om_2] <;> ring
theorem e9_11 (x : Fin 36 → ℝ) : l1300 x = (quatMatrix (Qe x) *ᵥ (djm (side 1) 0 (th 1 x) *ᵥ qd 1 x + cross (om x) (jcol 1 0 x))) 2 := by
  simp only [l221, l223, l225, l227, l342, l369, l396, l1141, l1147, l1173, l1185, l1186, l1189, l1220, l1222, l1229, l1230,
    l1233, l1267, l1268, l1269, l1270, l1271, l1272, l1274, l1275, l1276, l1277, l1278, l1279, l1280, l1281, l1282, l1283, l1285, l1286, l1287, l1288, l1289, l1290, l1291, l1292, l1293, l1294, l1295, l1296, l1297, l1298, l1299, l1300, h341, h368, h379, h380, mv_0, mv_1, mv_2, qm_00, qm_01, qm_02, qm_10, qm_11, qm_12, qm_20, qm_21, qm_22, jcol, jac, jm_00, jm_01, jm_02, jm_10, jm_11, jm_12, jm_20, jm_21, jm_22, side_1, th_1_0, th_1_1, th_1_2, segA, segB, segC, segD, segH, Pi.add_apply, cr_0, cr_1, cr_2, djm_0_00, djm_0_01, djm_0_02, djm_0_10, djm_0_11, djm_0_12, djm_0_20, djm_0_21, djm_0_22, qd_1_0, qd_1_1, qd_1_2, om_0, om_1, om_2] <;> ring
theorem e10_6 (x : Fin 36 → ℝ) : l1305 x = (quatMatrix (Qe x) *ᵥ jcol 1 1 x) 0 := by
  simp only [l219, l220, l223, l224, l227, l228, l242, l243, l244, l246, l248, l253, l1134, l1135, l1136, l1137, l1138, l1139,
    l1140, l1142, l1143, l1144, l1145, l1146, l1156, l1162, l1301, l1302, l1303, l1304, l1305, h241, h252, h259, h260, mv_0, mv_1, mv_2, qm_00, qm_01, qm_02, qm_10, qm_11, qm_12, qm_20, qm_21, qm_22, jcol, jac, jm_00, jm_01, jm_02, jm_10, jm_11, jm_12, jm_20, jm_21, jm_22, side_1, th_1_0, th_1_1, th_1_2, segA, segB, segC, segD, segH, Pi.add_apply, cr_0, cr_1, cr_2, djm_1_00, djm_1_01, djm_1_02, djm_1_10, djm_1_11, djm_1_12, djm_1_20, djm_1_21, djm_1_22, qd_1_0, qd_1_1, qd_1_2, om_0, om_1, om_2] <;> ring
theorem e10_7 (x : Fin 36 → ℝ) : l1308 x = (quatMatrix (Qe x) *ᵥ jcol 1 1 x) 1 := by
  simp only [l219, l220, l223, l224, l227, l228, l242, l243, l244, l246, l248, l253, l276, l1142, l1143, l1149, l1150, l1151,
    l1152, l1153, l1154, l1155, l1156, l1157, l1158, l1159, l1160, l1302, l1304, l1306, l1307, l1308, h241, h252, h259, h260, mv_0, mv_1, mv_2, qm_00, qm_01, qm_02, qm_10, qm_11, qm_12, qm_20, qm_21, qm_22, jcol, jac, jm_00, jm_01, jm_02, jm_10, jm_11, jm_12, jm_20, jm_21, jm_22, side_1, th_1_0, th_1_1, th_1_2, segA, segB, segC, segD, segH, Pi.add_apply, cr_0, cr_1, cr_2, djm_1_00, djm_1_01, djm_1_02, djm_1_10, djm_1_11, djm_1_12, djm_1_20, djm_1_21, djm_1_22, qd_1_0, qd_1_1, qd_1_2, om_0, om_1, om_2] <;> ring
theorem e10_8 (x : Fin 36 → ℝ) : l1311 x = (quatMatrix (Qe x) *ᵥ jcol 1 1 x) 2 := by
  simp only [l219, l220, l223, l224, l227, l228, l242, l243, l244, l246, l248, l253, l276, l1134, l1135, l1149, l1150, l1157,
    l1162, l1163, l1164, l1165, l1166, l1167, l1168, l1169, l1170, l1302, l1304, l1309, l1310, l1311, h241, h252, h259, h260, mv_0, mv_1, mv_2, qm_00, qm_01, qm_02, qm_10, qm_11, qm_12, qm_20, qm_21, qm_22, jcol, jac, jm_00, jm_01, jm_02, jm_10, jm_11, jm_12, jm_20, jm_21, jm_22, side_1, th_1_0, th_1_1, th_1_2, segA, segB, segC, segD, segH, Pi.add_apply, cr_0, cr_1, cr_2, djm_1_00, djm_1_01, djm_1_02, djm_1_10, djm_1_11, djm_1_12, djm_1_20, djm_1_21, djm_1_22, qd_1_0, qd_1_1, qd_1_2, om_0, om_1, om_2] <;> ring
theorem e10_9 (x : Fin 36 → ℝ) : l1320 x = (quatMatrix (Qe x) *ᵥ (djm (side 1) 1 (th 1 x) *ᵥ qd 1 x + cross (om x) (jcol 1 1 x))) 0 := by
  simp only [l219, l223, l227, l243, l304, l306, l310, l312, l314, l316, l318, l320, l322, l324, l342, l343, l345, l349, l351,
    l353, l355, l357, l359, l361, l363, l369, l1172, l1173, l1174, l1175, l1176, l1177, l1179, l1180, l1181, l1182, l1183, l1184, l1185, l1186, l1187, l1193, l1194, l1195, l1196, l1197, l1198, l1199, l1200, l1201, l1202, l1204, l1205, l1206, l1207, l1208, l1209, l1210, l1211, l1212, l1213, l1214, l1215, l1216, l1217, l1218, l1302, l1304, l1312, l1314, l1315, l1316, l1317, l1318, l1319, l1320, h341, h368, h379, h380, mv_0, mv_1, mv_2, qm_00, qm_01, qm_02, qm_10, qm_11, qm_12, qm_20, qm_21, qm_22, jcol, jac, jm_00, jm_01, jm_02, jm_10, jm_11, jm_12, jm_20, jm_21, jm_22, side_1, th_1_0, th_1_1, th_1_2, segA, segB, segC, segD, segH, Pi.add_apply, cr_0, cr_1, cr_2, djm_1_00, djm_1_01, djm_1_02, djm_1_10, djm_1_11, djm_1_12, djm_1_20, djm_1_21, djm_1_22, qd_1_0, qd_1_1, qd_1_2, om_0, om_1, om_2] <;> ring
theorem e10_10 (x : Fin 36 → ℝ) : l1329 x = (quatMatrix (Qe x) *ᵥ (djm (side 1) 1 (th 1 x) *ᵥ qd 1 x + cross (om x) (jcol 1 1 x))) 1 := by
  simp only [l219, l223, l227, l243, l304, l306, l310, l312, l314, l316, l318, l320, l322, l324, l342, l343, l345, l349, l351,
    l353, l355, l357, l359, l361, l363, l369, l396, l1172, l1175, l1176, l1178, l1220, l1221, l1223, l1224, l1225, l1226, l1227, l1228, l1229, l1230, l1231, l1240, l1241, l1242, l1243, l1244, l1245, l1246, l1247, l1248, l1249, l1251, l1252, l1253, l1254, l1255, l1256, l1257, l1258, l1259, l1260, l1261, l1262, l1263, l1264, l1265, l1302, l1304, l1321, l1323, l1324, l1325, l1326, l1327, l1328, l1329, h341, h368, h379, h380, mv_0, mv_1, mv_2, qm_00, qm_01, qm_02, qm_10, qm_11, qm_12, qm_20, qm_21, qm_22, jcol, jac, jm_00, jm_01, jm_02, jm_10, jm_11, jm_12, jm_20, jm_21, jm_22, side_1, th_1_0, th_1_1, th_1_2, segA, segB, segC, segD, segH, Pi.add_apply, cr_0, cr_1, cr_2, djm_1_00, djm_1_01, djm_1_02, djm_1_10, djm_1_11, djm_1_12, djm_1_20, djm_1_21, djm_1_22, qd_1_0, qd_1_1, qd_1_2, om_0, om_1, om_2] <;> ring
theorem e10_11 (x : Fin 36 → ℝ) : l1338 x = (quatMatrix (Qe x) *ᵥ (djm (side 1) 1 (th 1 x) *ᵥ qd 1 x + cross (om x) (jcol 1 1 x))) 2 := by
  simp only [l219, l223, l227, l243, l304, l306, l310, l312, l314, l316, l318, l320, l322, l324, l342, l343, l345, l349, l351,
    l353, l355, l357, l359, l361, l363, l369, l396, l1173, l1185, l1186, l1189, l1220, l1222, l1229, l1230, l1233, l1267, l1268, l1269, l1270, l1271, l1272, l1274, l1275, l1276, l1277, l1278, l1279, l1280, l1281, l1282, l1283, l1285, l1286, l1287, l1288, l1289, l1290, l1291, l1292, l1293, l1294, l1295, l1296, l1297, l1298, l1299, l1302, l1304, l1330, l1332, l1333, l1334, l1335, l1336, l1337, l1338, h341, h368, h379, h380, mv_0, mv_1, mv_2, qm_00, qm_01, qm_02, qm_10, qm_11, qm_12, qm_20, qm_21, qm_22, jcol, jac, jm_00, jm_01, jm_02, jm_10, jm_11, jm_12, jm_20, jm_21, jm_22, side_1, th_1_0, th_1_1, th_1_2, segA, segB, segC, segD, segH, Pi.add_apply, cr_0, cr_1, cr_2, djm_1_00, djm_1_01, djm_1_02, djm_1_10, djm_1_11, djm_1_12, djm_1_20, djm_1_21, djm_1_22, qd_1_0, qd_1_1, qd_1_2, om_0, om_1, om_2] <;> ring
theorem e11_6 (x : Fin 36 → ℝ) : l1341 x = (quatMatrix (Qe x) *ᵥ jcol 1 2 x) 0 := by
  simp only [l219, l220, l221, l222, l224, l225, l226, l242, l243, l244, l245, l246, l247, l253, l255, l256, l1134, l1135, l1136,
    l1138, l1142, l1143, l1144, l1156, l1162, l1301, l1303, l1339, l1340, l1341, h241, h252, h259, h260, mv_0, mv_1, mv_2, qm_00, qm_01, qm_02, qm_10, qm_11, qm_12, qm_20, qm_21, qm_22, jcol, jac, jm_00, jm_01, jm_02, jm_10, jm_11, jm_12, jm_20, jm_21, jm_22, side_1, th_1_0, th_1_1, th_1_2, segA, segB, segC, segD, segH, Pi.add_apply, cr_0, cr_1, cr_2, djm_2_00, djm_2_01, djm_2_02, djm_2_10, djm_2_11, djm_2_12, djm_2_20, djm_2_21, djm_2_22, qd_1_0, qd_1_1, qd_1_2, om_0, om_1, om_2] <;> ring
theorem e11_7 (x : Fin 36 → ℝ) : l1342 x = (quatMatrix (Qe x) *ᵥ jcol 1 2 x) 1 := by
  simp only [l219, l220, l221, l222, l224, l225, l226, l242, l243, l244, l245, l246, l247, l253, l255, l256, l276, l1142, l1143,
    l1149, l1150, l1151, l1153, l1156, l1157, l1158, l1306, l1307, l1339, l1340, l1342, h241, h252, h259, h260, mv_0, mv_1, mv_2, qm_00, qm_01, qm_02, qm_10, qm_11, qm_12, qm_20, qm_21, qm_22, jcol, jac, jm_00, jm_01, jm_02, jm_10, jm_11, jm_12, jm_20, jm_21, jm_22, side_1, th_1_0, th_1_1, th_1_2, segA, segB, segC, segD, segH, Pi.add_apply, cr_0, cr_1, cr_2, djm_2_00, djm_2_01, djm_2_02, djm_2_10, djm_2_11, djm_2_12, djm_2_20, djm_2_21, djm_2_22, qd_1_0, qd_1_1, qd_1_2, om_0, om_1, om_2] <;> ring
theorem e11_8 (x : Fin 36 → ℝ) : l1343 x = (quatMatrix (Qe x) *ᵥ jcol 1 2 x) 2 := by
  simp only [l219, l220, l221, l222, l224, l225, l226, l242, l243, l244, l245, l246, l247, l253, l255, l256, l276, l1134, l1135,
    l1149, l1150, l1157, l1162, l1163, l1165, l1168, l1309, l1310, l1339, l1340, l1343, h241, h252, h259, h260, mv_0, mv_1, mv_2, qm_00, qm_01, qm_02, qm_10, qm_11, qm_12, qm_20, qm_21, qm_22, jcol, jac, jm_00, jm_01, jm_02, jm_10, jm_11, jm_12, jm_20, jm_21, jm_22, side_1, th_1_0, th_1_1, th_1_2, segA, segB, segC, segD, segH, Pi.add_apply, cr_0, cr_1, cr_2, djm_2_00, djm_2_01, djm_2_02, djm_2_10, djm_2_11, djm_2_12, djm_2_20, djm_2_21, djm_2_22, qd_1_0, qd_1_1, qd_1_2, om_0, om_1, om_2] <;> ring
theorem e11_9 (x : Fin 36 → ℝ) : l1344 x = (quatMatrix (Qe x) *ᵥ (djm (side 1) 2 (th 1 x) *ᵥ qd 1 x + cross (om x) (jcol 1 2 x))) 0 := by
  simp only [l219, l221, l225, l243, l304, l305, l306, l307, l309, l310, l311, l314, l315, l316, l317, l320, l321, l322, l323,
    l326, l327, l342, l343, l344, l345, l346, l348, l349, l350, l353, l354, l355, l356, l359, l360, l361, l362, l369, l371, l372, l374, l375, l1172, l1173, l1174, l1175, l1176, l1177, l1179, l1180, l1182, l1185, l1186, l1187, l1193, l1195, l1199, l1202, l1204, l1207, l1209, l1211, l1214, l1216, l1312, l1314, l1315, l1316, l1317, l1318, l1319, l1339, l1340, l1344, h341, h368, h379, h380, mv_0, mv_1, mv_2, qm_00, qm_01, qm_02, qm_10, qm_11, qm_12, qm_20, qm_21, qm_22, jcol, jac, jm_00, jm_01, jm_02, jm_10, jm_11, jm_12, jm_20, jm_21, jm_22, side_1, th_1_0, th_1_1, th_1_2, segA, segB, segC, segD, segH, Pi.add_apply, cr_0, cr_1, cr_2, djm_2_00, djm_2_01, djm_2_02, djm_2_10, djm_2_11, djm_2_12, djm_2_20, djm_2_21, djm_2_22, qd_1_0, qd_1_1, qd_1_2, om_0, om_1, om_2] <;> ring
theorem e11_10 (x : Fin 36 → ℝ) : l1345 x = (quatMatrix (Qe x) *ᵥ (djm (side 1) 2 (th 1 x) *ᵥ qd 1 x + cross (om x) (jcol 1 2 x))) 1 := by
  simp only [l219, l221, l225, l243, l304, l305, l306, l307, l309, l310, l311, l314, l315, l316, l317, l320, l321, l322, l323,
    l326, l327, l342, l343, l344, l345, l346, l348, l349, l350, l353, l354, l355, l356, l359, l360, l361, l362, l369, l371, l372, l374, l375, l396, l1172, l1175, l1176, l1178, l1220, l1221, l1223, l1224, l1226, l1229, l1230, l1231, l1240, l1242, l1246, l1249, l1251, l1254, l1256, l1258, l1261, l1263, l1321, l1323, l1324, l1325, l1326, l1327, l1328, l1339, l1340, l1345, h341, h368, h379, h380, mv_0, mv_1, mv_2, qm_00, qm_01, qm_02, qm_10, qm_11, qm_12, qm_20, qm_21, qm_22, jcol, jac, jm_00, jm_01, jm_02, jm_10, jm_11, jm_12, jm_20, jm_21, jm_22, side_1, th_1_0, th_1_1, th_1_2, segA, segB, segC, segD, segH, Pi.add_apply, cr_0, cr_1, cr_2, djm_2_00, djm_2_01, djm_2_02, djm_2_10, djm_2_11, djm_2_12, djm_2_20, djm_2_21, djm_2_22, qd_1_0, qd_1_1, qd_1_2, om_0, om_1, om_2] <;> ring
theorem e11_11 (x : Fin 36 → ℝ) : l1346 x = (quatMatrix (Qe x) *ᵥ (djm (side 1) 2 (th 1 x) *ᵥ qd 1 x + cross (om x) (jcol 1 2 x))) 2 := by
  simp only [l219, l221, l225, l243, l304, l305, l306, l307, l309, l310, l311, l314, l315, l316, l317, l320, l321, l322, l323,
    l326, l327, l342, l343, l344, l345, l346, l348, l349, l350, l353, l354, l355, l356, l359, l360, l361, l362, l369, l371, l372, l374, l375, l396, l1173, l1185, l1186, l1189, l1220, l1222, l1229, l1230, l1233, l1267, l1268, l1270, l1274, l1276, l1280, l1283, l1285, l1288, l1290, l1292, l1295, l1297, l1330, l1332, l1333, l1334, l1335, l1336, l1337, l1339, l1340, l1346, h341, h368, h379, h380, mv_0, mv_1, mv_2, qm_00, qm_01, qm_02, qm_10, qm_11, qm_12, qm_20, qm_21, qm_22, jcol, jac, jm_00, jm_01, jm_02, jm_10, jm_11, jm_12, jm_20, jm_21, jm_22, side_1, th_1_0, th_1_1, th_1_2, segA, segB, segC, segD, segH, Pi.add_apply, cr_0, cr_1, cr_2, djm_2_00, djm_2_01, djm_2_02, djm_2_10, djm_2_11, djm_2_12, djm_2_20, djm_2_21, djm_2_22, qd_1_0, qd_1_1, qd_1_2, om_0, om_1, om_2] <;> ring
theorem e12_6 (_x : Fin 36 → ℝ) : (0 : ℝ) = ((0 : V3)) 0 := by simp [Pi.zero_apply]
theorem e12_7 (_x : Fin 36 → ℝ) : (0 : ℝ) = ((0 : V3)) 1 := by simp [Pi.zero_apply]
theorem e12_8 (_x : Fin 36 → ℝ) : (0 : ℝ) = ((0 : V3)) 2 := by simp [Pi.zero_apply]
theorem e12_9 (_x : Fin 36 → ℝ) : (0 : ℝ) = ((0 : V3)) 0 := by simp [Pi.zero_apply]
theorem e12_10 (_x : Fin 36 → ℝ) : (0 : ℝ) = ((0 : V3)) 1 := by simp [Pi.zero_apply]
theorem e12_11 (_x : Fin 36 → ℝ) : (0 : ℝ) = ((0 : V3)) 2 := by simp [Pi.zero_apply]
theorem e13_6 (_x : Fin 36 → ℝ) : (0 : ℝ) = ((0 : V3)) 0 := by simp [Pi.zero_apply]
theorem e13_7 (_x : Fin 36 → ℝ) : (0 : ℝ) = ((0 : V3)) 1 := by simp [Pi.zero_apply]
theorem e13_8 (_x : Fin 36 → ℝ) : (0 : ℝ) = ((0 : V3)) 2 := by simp [Pi.zero_apply]
theorem e13_9 (_x : Fin 36 → ℝ) : (0 : ℝ) = ((0 : V3)) 0 := by simp [Pi.zero_apply]
theorem e13_10 (_x : Fin 36 → ℝ) : (0 : ℝ) = ((0 : V3)) 1 := by simp [Pi.zero_apply]
theorem e13_11 (_x : Fin 36 → ℝ) : (0 : ℝ) = ((0 : V3)) 2 := by simp [Pi.zero_apply]
theorem e14_6 (_x : Fin 36 → ℝ) : (0 : ℝ) = ((0 : V3)) 0 := by simp [Pi.zero_apply]
theorem e14_7 (_x : Fin 36 → ℝ) : (0 : ℝ) = ((0 : V3)) 1 := by simp [Pi.zero_apply]
theorem e14_8 (_x : Fin 36 → ℝ) : (0 : ℝ) = ((0 : V3)) 2 := by simp [Pi.zero_apply]
theorem e14_9 (_x : Fin 36 → ℝ) : (0 : ℝ) = ((0 : V3)) 0 := by simp [Pi.zero_apply]
theorem e14_10 (_x : Fin 36 → ℝ) : (0 : ℝ) = ((0 : V3)) 1 := by simp [Pi.zero_apply]
theorem e14_11 (_x : Fin 36 → ℝ) : (0 : ℝ) = ((0 : V3)) 2 := by simp [Pi.zero_apply]
theorem e15_6 (_x : Fin 36 → ℝ) : (0 : ℝ) = ((0 : V3)) 0 := by simp [Pi.zero_apply]
theorem e15_7 (_x : Fin 36 → ℝ) : (0 : ℝ) = ((0 : V3)) 1 := by simp [Pi.zero_apply]
theorem e15_8 (_x : Fin 36 → ℝ) : (0 : ℝ) = ((0 : V3)) 2 := by simp [Pi.zero_apply]
theorem e15_9 (_x : Fin 36 → ℝ) : (0 : ℝ) = ((0 : V3)) 0 := by simp [Pi.zero_apply]
theorem e15_10 (_x : Fin 36 → ℝ) : (0 : ℝ) = ((0 : V3)) 1 := by simp [Pi.zero_apply]
theorem e15_11 (_x : Fin 36 → ℝ) : (0 : ℝ) = ((0 : V3)) 2 := by simp [Pi.zero_apply]
theorem e16_6 (_x : Fin 36 → ℝ) : (0 : ℝ) = ((0 : V3)) 0 := by simp [Pi.zero_apply]
theorem e16_7 (_x : Fin 36 → ℝ) : (0 : ℝ) = ((0 : V3)) 1 := by simp [Pi.zero_apply]
theorem e16_8 (_x : Fin 36 → ℝ) : (0 : ℝ) = ((0 : V3)) 2 := by simp [Pi.zero_apply]
theorem e16_9 (_x : Fin 36 → ℝ) : (0 : ℝ) = ((0 : V3)) 0 := by simp [Pi.zero_apply]
theorem e16_10 (_x : Fin 36 → ℝ) : (0 : ℝ) = ((0 : V3)) 1 := by simp [Pi.zero_apply]
theorem e16_11 (_x : Fin 36 → ℝ) : (0 : ℝ) = ((0 : V3)) 2 := by simp [Pi.zero_apply]
theorem e17_6 (_x : Fin 36 → ℝ) : (0 : ℝ) = ((0 : V3)) 0 := by simp [Pi.zero_apply]
theorem e17_7 (_x : Fin 36 → ℝ) : (0 : ℝ) = ((0 : V3)) 1 := by simp [Pi.zero_apply]
theorem e17_8 (_x : Fin 36 → ℝ) : (0 : ℝ) = ((0 : V3)) 2 := by simp [Pi.zero_apply]
theorem e17_9 (_x : Fin 36 → ℝ) : (0 : ℝ) = ((0 : V3)) 0 := by simp [Pi.zero_apply]
theorem e17_10 (_x : Fin 36 → ℝ) : (0 : ℝ) = ((0 : V3)) 1 := by simp [Pi.zero_apply]
theorem e17_11 (_x : Fin 36 → ℝ) : (0 : ℝ) = ((0 : V3)) 2 := by simp [Pi.zero_apply]
theorem e18_6 (_x : Fin 36 → ℝ) : (0 : ℝ) = ((0 : V3)) 0 := by simp [Pi.zero_apply]
theorem e18_7 (_x : Fin 36 → ℝ) : (0 : ℝ) = ((0 : V3)) 1 := by simp [Pi.zero_apply]
theorem e18_8 (_x : Fin 36 → ℝ) : (0 : ℝ) = ((0 : V3)) 2 := by simp [Pi.zero_apply]
theorem e18_9 (x : Fin 36 → ℝ) : l1188 x = (quatMatrix (Qe x) *ᵥ cross (Pi.single 0 1) (foot 1 x)) 0 := by
  simp only [l219, l221, l223, l225, l227, l243, l320, l321, l322, l323, l324, l325, l342, l359, l360, l361, l362, l363, l364,
    l369, l1175, l1176, l1177, l1179, l1185, l1186, l1187, l1188, h341, h368, h379, h380, mv_0, mv_1, mv_2, qm_00, qm_01, qm_02, qm_10, qm_11, qm_12, qm_20, qm_21, qm_22, cr_0, cr_1, cr_2, E_0_0, E_0_1, E_0_2, foot, pv_0, pv_1, pv_2, side_1, mountX_1, mountY_1, th_1_0, th_1_1, th_1_2, segA, segB, segC, segD, segH] <;> ring
theorem e18_10 (x : Fin 36 → ℝ) : l1232 x = (quatMatrix (Qe x) *ᵥ cross (Pi.single 0 1) (foot 1 x)) 1 := by
  simp only [l219, l221, l223, l225, l227, l243, l320, l321, l322, l323, l324, l325, l342, l359, l360, l361, l362, l363, l364,
    l396, l1172, l1220, l1221, l1223, l1229, l1230, l1231, l1232, h341, h368, h379, h380, mv_0, mv_1, mv_2, qm_00, qm_01, qm_02, qm_10, qm_11, qm_12, qm_20, qm_21, qm_22, cr_0, cr_1, cr_2, E_0_0, E_0_1, E_0_2, foot, pv_0, pv_1, pv_2, side_1, mountX_1, mountY_1, th_1_0, th_1_1, th_1_2, segA, segB, segC, segD, segH] <;> ring
theorem e18_11 (x : Fin 36 → ℝ) : l1273 x = (quatMatrix (Qe x) *ᵥ cross (Pi.single 0 1) (foot 1 x)) 2 := by
  simp only [l219, l221, l223, l225, l227, l243, l320, l321, l322, l323, l324, l325, l342, l359, l360, l361, l362, l363, l364,
    l369, l396, l1173, l1220, l1222, l1229, l1230, l1233, l1267, l1273, h341, h368, h379, h380, mv_0, mv_1, mv_2, qm_00, qm_01, qm_02, qm_10, qm_11, qm_12, qm_20, qm_21, qm_22, cr_0, cr_1, cr_2, E_0_0, E_0_1, E_0_2, foot, pv_0, pv_1, pv_2, side_1, mountX_1, mountY_1, th_1_0, th_1_1, th_1_2, segA, segB, segC, segD, segH] <;> ring
theorem e19_6 (_x : Fin 36 → ℝ) : (0 : ℝ) = ((0 : V3)) 0 := by simp [Pi.zero_apply]
theorem e19_7 (_x : Fin 36 → ℝ) : (0 : ℝ) = ((0 : V3)) 1 := by simp [Pi.zero_apply]
theorem e19_8 (_x : Fin 36 → ℝ) : (0 : ℝ) = ((0 : V3)) 2 := by simp [Pi.zero_apply]
theorem e19_9 (x : Fin 36 → ℝ) : l1313 x = (quatMatrix (Qe x) *ᵥ cross (Pi.single 1 1) (foot 1 x)) 0 := by
  simp only [l219, l221, l223, l225, l227, l326, l327, l328, l342, l359, l360, l361, l362, l363, l364, l369, l1172, l1173, l1174,
    l1185, l1186, l1187, l1312, l1313, h341, h368, h379, h380, mv_0, mv_1, mv_2, qm_00, qm_01, qm_02, qm_10, qm_11, qm_12, qm_20, qm_21, qm_22, cr_0, cr_1, cr_2, E_1_0, E_1_1, E_1_2, foot, pv_0, pv_1, pv_2, side_1, mountX_1, mountY_1, th_1_0, th_1_1, th_1_2, segA, segB, segC, segD, segH] <;> ring
theorem e19_10 (x : Fin 36 → ℝ) : l1322 x = (quatMatrix (Qe x) *ᵥ cross (Pi.single 1 1) (foot 1 x)) 1 := by
  simp only [l219, l221, l223, l225, l227, l326, l327, l328, l342, l359, l360, l361, l362, l363, l364, l369, l396, l1175, l1176,
    l1178, l1229, l1230, l1231, l1321, l1322, h341, h368, h379, h380, mv_0, mv_1, mv_2, qm_00, qm_01, qm_02, qm_10, qm_11, qm_12, qm_20, qm_21, qm_22, cr_0, cr_1, cr_2, E_1_0, E_1_1, E_1_2, foot, pv_0, pv_1, pv_2, side_1, mountX_1, mountY_1, th_1_0, th_1_1, th_1_2, segA, segB, segC, segD, segH] <;> ring
theorem e19_11 (x : Fin 36 → ℝ) : l1331 x = (quatMatrix (Qe x) *ᵥ cross (Pi.single 1 1) (foot 1 x)) 2 := by
  simp only [l219, l221, l223, l225, l227, l326, l327, l328, l342, l359, l360, l361, l362, l363, l364, l369, l396, l1173, l1185,
    l1186, l1189, l1220, l1222, l1330, l1331, h341, h368, h379, h380, mv_0, mv_1, mv_2, qm_00, qm_01, qm_02, qm_10, qm_11, qm_12, qm_20, qm_21, qm_22, cr_0, cr_1, cr_2, E_1_0, E_1_1, E_1_2, foot, pv_0, pv_1, pv_2, side_1, mountX_1, mountY_1, th_1_0, th_1_1, th_1_2, segA, segB, segC, segD, segH] <;> ring
theorem e20_6 (_x : Fin 36 → ℝ) : (0 : ℝ) = ((0 : V3)) 0 := by simp [Pi.zero_apply]
theorem e20_7 (_x : Fin 36 → ℝ) : (0 : ℝ) = ((0 : V3)) 1 := by simp [Pi.zero_apply]
theorem e20_8 (_x : Fin 36 → ℝ) : (0 : ℝ) = ((0 : V3)) 2 := by simp [Pi.zero_apply]
theorem e20_9 (x : Fin 36 → ℝ) : l1203 x = (quatMatrix (Qe x) *ᵥ cross (Pi.single 2 1) (foot 1 x)) 0 := by
  simp only [l221, l223, l225, l227, l243, l320, l321, l322, l323, l324, l325, l326, l327, l328, l342, l369, l1172, l1173, l1174,
    l1175, l1176, l1177, l1202, l1203, h341, h368, h379, h380, mv_0, mv_1, mv_2, qm_00, qm_01, qm_02, qm_10, qm_11, qm_12, qm_20, qm_21, qm_22, cr_0, cr_1, cr_2, E_2_0, E_2_1, E_2_2, foot, pv_0, pv_1, pv_2, side_1, mountX_1, mountY_1, th_1_0, th_1_1, th_1_2, segA, segB, segC, segD, segH] <;> ring
theorem e20_10 (x : Fin 36 → ℝ) : l1250 x = (quatMatrix (Qe x) *ᵥ cross (Pi.single 2 1) (foot 1 x)) 1 := by
  simp only [l221, l223, l225, l227, l243, l320, l321, l322, l323, l324, l325, l326, l327, l328, l342, l369, l396, l1172, l1175,
    l1176, l1178, l1220, l1221, l1249, l1250, h341, h368, h379, h380, mv_0, mv_1, mv_2, qm_00, qm_01, qm_02, qm_10, qm_11, qm_12, qm_20, qm_21, qm_22, cr_0, cr_1, cr_2, E_2_0, E_2_1, E_2_2, foot, pv_0, pv_1, pv_2, side_1, mountX_1, mountY_1, th_1_0, th_1_1, th_1_2, segA, segB, segC, segD, segH] <;> ring
theorem e20_11 (x : Fin 36 → ℝ) : l1284 x = (quatMatrix (Qe x) *ᵥ cross (Pi.single 2 1) (foot 1 x)) 2 := by
  simp only [l221, l223, l225, l227, l243, l320, l321, l322, l323, l324, l325, l326, l327, l328, l342, l369, l396, l1185, l1186,
    l1189, l1229, l1230, l1233, l1283, l1284, h341, h368, h379, h380, mv_0, mv_1, mv_2, qm_00, qm_01, qm_02, qm_10, qm_11, qm_12, qm_20, qm_21, qm_22, cr_0, cr_1, cr_2, E_2_0, E_2_1, E_2_2, foot, pv_0, pv_1, pv_2, side_1, mountX_1, mountY_1, th_1_0, th_1_1, th_1_2, segA, segB, segC, segD, segH] <;> ring
theorem e21_6 (_x : Fin 36 → ℝ) : (0 : ℝ) = ((0 : V3)) 0 := by simp [Pi.zero_apply]
theorem e21_7 (_x : Fin 36 → ℝ) : (0 : ℝ) = ((0 : V3)) 1 := by simp [Pi.zero_apply]
theorem e21_8 (_x : Fin 36 → ℝ) : (0 : ℝ) = ((0 : V3)) 2 := by simp [Pi.zero_apply]
theorem e21_9 (x : Fin 36 → ℝ) : l1174 x = (quatMatrix (Qe x) *ᵥ Pi.single 0 1) 0 := by
  simp only [l342, l369, l1172, l1173, l1174, h341, h368, mv_0, mv_1, mv_2, qm_00, qm_01, qm_02, qm_10, qm_11, qm_12, qm_20,
    qm_21, qm_22, E_0_0, E_0_1, E_0_2] <;> ring
theorem e21_10 (x : Fin 36 → ℝ) : l1178 x = (quatMatrix (Qe x) *ᵥ Pi.single 0 1) 1 := by
  simp only [l342, l369, l1175, l1176, l1178, h341, h368, h379, h380, mv_0, mv_1, mv_2, qm_00, qm_01, qm_02, qm_10, qm_11, qm_12,
    qm_20, qm_21, qm_22, E_0_0, E_0_1, E_0_2] <;> ring
theorem e21_11 (x : Fin 36 → ℝ) : l1189 x = (quatMatrix (Qe x) *ᵥ Pi.single 0 1) 2 := by
  simp only [l342, l369, l1185, l1186, l1189, h341, h368, h379, h380, mv_0, mv_1, mv_2, qm_00, qm_01, qm_02, qm_10, qm_11, qm_12,
    qm_20, qm_21, qm_22, E_0_0, E_0_1, E_0_2] <;> ring
theorem e22_6 (_x : Fin 36 → ℝ) : (0 : ℝ) = ((0 : V3)) 0 := by simp [Pi.zero_apply]
theorem e22_7 (_x : Fin 36 → ℝ) : (0 : ℝ) = ((0 : V3)) 1 := by simp [Pi.zero_apply]
theorem e22_8 (_x : Fin 36 → ℝ) : (0 : ℝ) = ((0 : V3)) 2 := by simp [Pi.zero_apply]
theorem e22_9 (x : Fin 36 → ℝ) : l1177 x = (quatMatrix (Qe x) *ᵥ Pi.single 1 1) 0 := by
  simp only [l342, l369, l1175, l1176, l1177, h341, h368, h379, h380, mv_0, mv_1, mv_2, qm_00, qm_01, qm_02, qm_10, qm_11, qm_12,
    qm_20, qm_21, qm_22, E_1_0, E_1_1, E_1_2] <;> ring
theorem e22_10 (x : Fin 36 → ℝ) : l1221 x = (quatMatrix (Qe x) *ᵥ Pi.single 1 1) 1 := by
  simp only [l342, l396, l1172, l1220, l1221, h341, h379, mv_0, mv_1, mv_2, qm_00, qm_01, qm_02, qm_10, qm_11, qm_12, qm_20,
    qm_21, qm_22, E_1_0, E_1_1, E_1_2] <;> ring
theorem e22_11 (x : Fin 36 → ℝ) : l1233 x = (quatMatrix (Qe x) *ᵥ Pi.single 1 1) 2 := by
  simp only [l342, l396, l1229, l1230, l1233, h341, h368, h379, h380, mv_0, mv_1, mv_2, qm_00, qm_01, qm_02, qm_10, qm_11, qm_12,
    qm_20, qm_21, qm_22, E_1_0, E_1_1, E_1_2] <;> ring
theorem e23_6 (_x : Fin 36 → ℝ) : (0 : ℝ) = ((0 : V3)) 0 := by simp [Pi.zero_apply]
theorem e23_7 (_x : Fin 36 → ℝ) : (0 : ℝ) = ((0 : V3)) 1 := by simp [Pi.zero_apply]
theorem e23_8 (_x : Fin 36 → ℝ) : (0 : ℝ) = ((0 : V3)) 2 := by simp [Pi.zero_apply]
theorem e23_9 (x : Fin 36 → ℝ) : l1187 x = (quatMatrix (Qe x) *ᵥ Pi.single 2 1) 0 := by
  simp only [l342, l369, l1185, l1186, l1187, h341, h368, h379, h380, mv_0, mv_1, mv_2, qm_00, qm_01, qm_02, qm_10, qm_11, qm_12,
    qm_20, qm_21, qm_22, E_2_0, E_2_1, E_2_2] <;> ring
theorem e23_10 (x : Fin 36 → ℝ) : l1231 x = (quatMatrix (Qe x) *ᵥ Pi.single 2 1) 1 := by
  simp only [l342, l396, l1229, l1230, l1231, h341, h368, h379, h380, mv_0, mv_1, mv_2, qm_00, qm_01, qm_02, qm_10, qm_11, qm_12,
    qm_20, qm_21, qm_22, E_2_0, E_2_1, E_2_2] <;> ring
theorem e23_11 (x : Fin 36 → ℝ) : l1222 x = (quatMatrix (Qe x) *ᵥ Pi.single 2 1) 2 := by
  simp only [l369, l396, l1173, l1220, l1222, h368, h379, mv_0, mv_1, mv_2, qm_00, qm_01, qm_02, qm_10, qm_11, qm_12, qm_20,
    qm_21, qm_22, E_2_0, E_2_1, E_2_2] <;> ring
theorem e24_6 (_x : Fin 36 → ℝ) : (0 : ℝ) = ((0 : V3)) 0 := by simp [Pi.zero_apply]
theorem e24_7 (_x : Fin 36 → ℝ) : (0 : ℝ) = ((0 : V3)) 1 := by simp [Pi.zero_apply]
theorem e24_8 (_x : Fin 36 → ℝ) : (0 : ℝ) = ((0 : V3)) 2 := by simp [Pi.zero_apply]
theorem e24_9 (_x : Fin 36 → ℝ) : (0 : ℝ) = ((0 : V3)) 0 := by simp [Pi.zero_apply]
theorem e24_10 (_x : Fin 36 → ℝ) : (0 : ℝ) = ((0 : V3)) 1 := by simp [Pi.zero_apply]
theorem e24_11 (_x : Fin 36 → ℝ) : (0 : ℝ) = ((0 : V3)) 2 := by simp [Pi.zero_apply]
theorem e25_6 (_x : Fin 36 → ℝ) : (0 : ℝ) = ((0 : V3)) 0 := by simp [Pi.zero_apply]
theorem e25_7 (_x : Fin 36 → ℝ) : (0 : ℝ) = ((0 : V3)) 1 := by simp [Pi.zero_apply]
theorem e25_8 (_x : Fin 36 → ℝ) : (0 : ℝ) = ((0 : V3)) 2 := by simp [Pi.zero_apply]
theorem e25_9 (_x : Fin 36 → ℝ) : (0 : ℝ) = ((0 : V3)) 0 := by simp [Pi.zero_apply]
theorem e25_10 (_x : Fin 36 → ℝ) : (0 : ℝ) = ((0 : V3)) 1 := by simp [Pi.zero_apply]
theorem e25_11 (_x : Fin 36 → ℝ) : (0 : ℝ) = ((0 : V3)) 2 := by simp [Pi.zero_apply]
theorem e26_6 (_x : Fin 36 → ℝ) : (0 : ℝ) = ((0 : V3)) 0 := by simp [Pi.zero_apply]
theorem e26_7 (_x : Fin 36 → ℝ) : (0 : ℝ) = ((0 : V3)) 1 := by simp [Pi.zero_apply]
theorem e26_8 (_x : Fin 36 → ℝ) : (0 : ℝ) = ((0 : V3)) 2 := by simp [Pi.zero_apply]
theorem e26_9 (_x : Fin 36 → ℝ) : (0 : ℝ) = ((0 : V3)) 0 := by simp [Pi.zero_apply]
theorem e26_10 (_x : Fin 36 → ℝ) : (0 : ℝ) = ((0 : V3)) 1 := by simp [Pi.zero_apply]
theorem e26_11 (_x : Fin 36 → ℝ) : (0 : ℝ) = ((0 : V3)) 2 := by simp [Pi.zero_apply]
theorem e27_6 (_x : Fin 36 → ℝ) : (0 : ℝ) = ((0 : V3)) 0 := by simp [Pi.zero_apply]
theorem e27_7 (_x : Fin 36 → ℝ) : (0 : ℝ) = ((0 : V3)) 1 := by simp [Pi.zero_apply]
theorem e27_8 (_x : Fin 36 → ℝ) : (0 : ℝ) = ((0 : V3)) 2 := by simp [Pi.zero_apply]
theorem e27_9 (x : Fin 36 → ℝ) : l1190 x = (quatMatrix (Qe x) *ᵥ jcol 1 0 x) 0 := by
  simp only [l219, l221, l223, l225, l227, l243, l314, l315, l316, l317, l318, l319, l342, l353, l354, l355, l356, l357, l358,
    l369, l1175, l1176, l1177, l1185, l1186, l1187, l1190, h341, h368, h379, h380, mv_0, mv_1, mv_2, qm_00, qm_01, qm_02, qm_10, qm_11, qm_12, qm_20, qm_21, qm_22, jcol, jac, jm_00, jm_01, jm_02, jm_10, jm_11, jm_12, jm_20, jm_21, jm_22, side_1, th_1_0, th_1_1, th_1_2, segA, segB, segC, segD, segH] <;> ring
theorem e27_10 (x : Fin 36 → ℝ) : l1234 x = (quatMatrix (Qe x) *ᵥ jcol 1 0 x) 1 := by
  simp only [l219, l221, l223, l225, l227, l243, l314, l315, l316, l317, l318, l319, l342, l353, l354, l355, l356, l357, l358,
    l396, l1172, l1220, l1221, l1229, l1230, l1231, l1234, h341, h368, h379, h380, mv_0, mv_1, mv_2, qm_00, qm_01, qm_02, qm_10, qm_11, qm_12, qm_20, qm_21, qm_22, jcol, jac, jm_00, jm_01, jm_02, jm_10, jm_11, jm_12, jm_20, jm_21, jm_22, side_1, th_1_0, th_1_1, th_1_2, segA, segB, segC, segD, segH] <;> ring
theorem e27_11 (x : Fin 36 → ℝ) : l1235 x = (quatMatrix (Qe x) *ᵥ jcol 1 0 x) 2 := by
  simp only [l219, l221, l223, l225, l227, l243, l314, l315, l316, l317, l318, l319, l342, l353, l354, l355, l356, l357, l358,
    l369, l396, l1173, l1220, l1222, l1229, l1230, l1233, l1235, h341, h368, h379, h380, mv_0, mv_1, mv_2, qm_00, qm_01, qm_02, qm_10, qm_11, qm_12, qm_20, qm_21, qm_22, jcol, jac, jm_00, jm_01, jm_02, jm_10, jm_11, jm_12, jm_20, jm_21, jm_22, side_1, th_1_0, th_1_1, th_1_2, segA, segB, segC, segD, segH] <;> ring
theorem e28_6 (_x : Fin 36 → ℝ) : (0 : ℝ) = ((0 : V3)) 0 := by simp [Pi.zero_apply]
theorem e28_7 (_x : Fin 36 → ℝ) : (0 : ℝ) = ((0 : V3)) 1 := by simp [Pi.zero_apply]
theorem e28_8 (_x : Fin 36 → ℝ) : (0 : ℝ) = ((0 : V3)) 2 := by simp [Pi.zero_apply]
theorem e28_9 (x : Fin 36 → ℝ) : l1191 x = (quatMatrix (Qe x) *ᵥ jcol 1 1 x) 0 := by
  simp only [l219, l221, l223, l225, l227, l243, l304, l309, l310, l311, l312, l313, l316, l342, l348, l349, l350, l351, l352,
    l369, l374, l375, l376, l1172, l1173, l1174, l1175, l1176, l1177, l1185, l1186, l1187, l1191, h341, h368, h379, h380, mv_0, mv_1, mv_2, qm_00, qm_01, qm_02, qm_10, qm_11, qm_12, qm_20, qm_21, qm_22, jcol, jac, jm_00, jm_01, jm_02, jm_10, jm_11, jm_12, jm_20, jm_21, jm_22, side_1, th_1_0, th_1_1, th_1_2, segA, segB, segC, segD, segH] <;> ring
theorem e28_10 (x : Fin 36 → ℝ) : l1236 x = (quatMatrix (Qe x) *ᵥ jcol 1 1 x) 1 := by
  simp only [l219, l221, l223, l225, l227, l243, l304, l309, l310, l311, l312, l313, l316, l342, l348, l349, l350, l351, l352,
    l369, l374, l375, l376, l396, l1172, l1175, l1176, l1178, l1220, l1221, l1229, l1230, l1231, l1236, h341, h368, h379, h380, mv_0, mv_1, mv_2, qm_00, qm_01, qm_02, qm_10, qm_11, qm_12, qm_20, qm_21, qm_22, jcol, jac, jm_00, jm_01, jm_02, jm_10, jm_11, jm_12, jm_20, jm_21, jm_22, side_1, th_1_0, th_1_1, th_1_2, segA, segB, segC, segD, segH] <;> ring
theorem e28_11 (x : Fin 36 → ℝ) : l1237 x = (quatMatrix (Qe x) *ᵥ jcol 1 1 x) 2 := by
  simp only [l219, l221, l223, l225, l227, l243, l304, l309, l310, l311, l312, l313, l316, l342, l348, l349, l350, l351, l352,
    l369, l374, l375, l376, l396, l1173, l1185, l1186, l1189, l1220, l1222, l1229, l1230, l1233, l1237, h341, h368, h379, h380, mv_0, mv_1, mv_2, qm_00, qm_01, qm_02, qm_10, qm_11, qm_12, qm_20, qm_21, qm_22, jcol, jac, jm_00, jm_01, jm_02, jm_10, jm_11, jm_12, jm_20, jm_21, jm_22, side_1, th_1_0, th_1_1, th_1_2, segA, segB, segC, segD, segH] <;> ring
theorem e29_6 (_x : Fin 36 → ℝ) : (0 : ℝ) = ((0 : V3)) 0 := by simp [Pi.zero_apply]
theorem e29_7 (_x : Fin 36 → ℝ) : (0 : ℝ) = ((0 : V3)) 1 := by simp [Pi.zero_apply]
theorem e29_8 (_x : Fin 36 → ℝ) : (0 : ℝ) = ((0 : V3)) 2 := by simp [Pi.zero_apply]
theorem e29_9 (x : Fin 36 → ℝ) : l1192 x = (quatMatrix (Qe x) *ᵥ jcol 1 2 x) 0 := by
  simp only [l219, l221, l223, l225, l227, l243, l304, l305, l306, l307, l308, l342, l343, l344, l345, l346, l347, l369, l371,
    l372, l373, l1172, l1173, l1174, l1175, l1176, l1177, l1185, l1186, l1187, l1192, h341, h368, h379, h380, mv_0, mv_1, mv_2, qm_00, qm_01, qm_02, qm_10, qm_11, qm_12, qm_20, qm_21, qm_22, jcol, jac, jm_00, jm_01, jm_02, jm_10, jm_11, jm_12, jm_20, jm_21, jm_22, side_1, th_1_0, th_1_1, th_1_2, segA, segB, segC, segD, segH] <;> ring
theorem e29_10 (x : Fin 36 → ℝ) : l1238 x = (quatMatrix (Qe x) *ᵥ jcol 1 2 x) 1 := by
  simp only [l219, l221, l223, l225, l227, l243, l304, l305, l306, l307, l308, l342, l343, l344, l345, l346, l347, l369, l371,
    l372, l373, l396, l1172, l1175, l1176, l1178, l1220, l1221, l1229, l1230, l1231, l1238, h341, h368, h379, h380, mv_0, mv_1, mv_2, qm_00, qm_01, qm_02, qm_10, qm_11, qm_12, qm_20, qm_21, qm_22, jcol, jac, jm_00, jm_01, jm_02, jm_10, jm_11, jm_12, jm_20, jm_21, jm_22, side_1, th_1_0, th_1_1, th_1_2, segA, segB, segC, segD, segH] <;> ring
theorem e29_11 (x : Fin 36 → ℝ) : l1239 x = (quatMatrix (Qe x) *ᵥ jcol 1 2 x) 2 := by
  simp only [l219, l221, l223, l225, l227, l243, l304, l305, l306, l307, l308, l342, l343, l344, l345, l346, l347, l369, l371,
    l372, l373, l396, l1173, l1185, l1186, l1189, l1220, l1222, l1229, l1230, l1233, l1239, h341, h368, h379, h380, mv_0, mv_1, mv_2, qm_00, qm_01, qm_02, qm_10, qm_11, qm_12, qm_20, qm_21, qm_22, jcol, jac, jm_00, jm_01, jm_02, jm_10, jm_11, jm_12, jm_20, jm_21, jm_22, side_1, th_1_0, th_1_1, th_1_2, segA, segB, segC, segD, segH] <;> ring
theorem e30_6 (_x : Fin 36 → ℝ) : (0 : ℝ) = ((0 : V3)) 0 := by simp [Pi.zero_apply]
theorem e30_7 (_x : Fin 36 → ℝ) : (0 : ℝ) = ((0 : V3)) 1 := by simp [Pi.zero_apply]
theorem e30_8 (_x : Fin 36 → ℝ) : (0 : ℝ) = ((0 : V3)) 2 := by simp [Pi.zero_apply]
theorem e30_9 (_x : Fin 36 → ℝ) : (0 : ℝ) = ((0 : V3)) 0 := by simp [Pi.zero_apply]
theorem e30_10 (_x : Fin 36 → ℝ) : (0 : ℝ) = ((0 : V3)) 1 := by simp [Pi.zero_apply]
theorem e30_11 (_x : Fin 36 → ℝ) : (0 : ℝ) = ((0 : V3)) 2 := by simp [Pi.zero_apply]
theorem e31_6 (_x : Fin 36 → ℝ) : (0 : ℝ) = ((0 : V3)) 0 := by simp [Pi.zero_apply]
theorem e31_7 (_x : Fin 36 → ℝ) : (0 : ℝ) = ((0 : V3)) 1 := by simp [Pi.zero_apply]
theorem e31_8 (_x : Fin 36 → ℝ) : (0 : ℝ) = ((0 : V3)) 2 := by simp [Pi.zero_apply]
theorem e31_9 (_x : Fin 36 → ℝ) : (0 : ℝ) = ((0 : V3)) 0 := by simp [Pi.zero_apply]
theorem e31_10 (_x : Fin 36 → ℝ) : (0 : ℝ) = ((0 : V3)) 1 := by simp [Pi.zero_apply]
theorem e31_11 (_x : Fin 36 → ℝ) : (0 : ℝ) = ((0 : V3)) 2 := by simp [Pi.zero_apply]
theorem e32_6 (_x : Fin 36 → ℝ) : (0 : ℝ) = ((0 : V3)) 0 := by simp [Pi.zero_apply]
theorem e32_7 (_x : Fin 36 → ℝ) : (0 : ℝ) = ((0 : V3)) 1 := by simp [Pi.zero_apply]
theorem e32_8 (_x : Fin 36 → ℝ) : (0 : ℝ) = ((0 : V3)) 2 := by simp [Pi.zero_apply]
theorem e32_9 (_x : Fin 36 → ℝ) : (0 : ℝ) = ((0 : V3)) 0 := by simp [Pi.zero_apply]
theorem e32_10 (_x : Fin 36 → ℝ) : (0 : ℝ) = ((0 : V3)) 1 := by simp [Pi.zero_apply]
theorem e32_11 (_x : Fin 36 → ℝ) : (0 : ℝ) = ((0 : V3)) 2 := by simp [Pi.zero_apply]
theorem e33_6 (_x : Fin 36 → ℝ) : (0 : ℝ) = ((0 : V3)) 0 := by simp [Pi.zero_apply]
theorem e33_7 (_x : Fin 36 → ℝ) : (0 : ℝ) = ((0 : V3)) 1 := by simp [Pi.zero_apply]
theorem e33_8 (_x : Fin 36 → ℝ) : (0 : ℝ) = ((0 : V3)) 2 := by simp [Pi.zero_apply]
theorem e33_9 (_x : Fin 36 → ℝ) : (0 : ℝ) = ((0 : V3)) 0 := by simp [Pi.zero_apply]
theorem e33_10 (_x : Fin 36 → ℝ) : (0 : ℝ) = ((0 : V3)) 1 := by simp [Pi.zero_apply]
theorem e33_11 (_x : Fin 36 → ℝ) : (0 : ℝ) = ((0 : V3)) 2 := by simp [Pi.zero_apply]
theorem e34_6 (_x : Fin 36 → ℝ) : (0 : ℝ) = ((0 : V3)) 0 := by simp [Pi.zero_apply]
theorem e34_7 (_x : Fin 36 → ℝ) : (0 : ℝ) = ((0 : V3)) 1 := by simp [Pi.zero_apply]
theorem e34_8 (_x : Fin 36 → ℝ) : (0 : ℝ) = ((0 : V3)) 2 := by simp [Pi.zero_apply]
theorem e34_9 (_x : Fin 36 → ℝ) : (0 : ℝ) = ((0 : V3)) 0 := by simp [Pi.zero_apply]
theorem e34_10 (_x : Fin 36 → ℝ) : (0 : ℝ) = ((0 : V3)) 1 := by simp [Pi.zero_apply]
theorem e34_11 (_x : Fin 36 → ℝ) : (0 : ℝ) = ((0 : V3)) 2 := by simp [Pi.zero_apply]
theorem e35_6 (_x : Fin 36 → ℝ) : (0 : ℝ) = ((0 : V3)) 0 := by simp [Pi.zero_apply]
theorem e35_7 (_x : Fin 36 → ℝ) : (0 : ℝ) = ((0 : V3)) 1 := by simp [Pi.zero_apply]
theorem e35_8 (_x : Fin 36 → ℝ) : (0 : ℝ) = ((0 : V3)) 2 := by simp [Pi.zero_apply]
theorem e35_9 (_x : Fin 36 → ℝ) : (0 : ℝ) = ((0 : V3)) 0 := by simp [Pi.zero_apply]
theorem e35_10 (_x : Fin 36 → ℝ) : (0 : ℝ) = ((0 : V3)) 1 := by simp [Pi.zero_apply]
theorem e35_11 (_x : Fin 36 → ℝ) : (0 : ℝ) = ((0 : V3)) 2 := by simp [Pi.zero_apply]

theorem pos0 (x : Fin 36 → ℝ) : (fun i : Fin 3 => jacobian x ⟨6 + i, by omega⟩ 0) = Dpos 1 x (Pi.single 0 1) :=
  (ext3 (e0_6 x) (e0_7 x) (e0_8 x)).trans (col_angle 1 0 x 0 rfl).1.symm
theorem vel0 (x : Fin 36 → ℝ) : (fun i : Fin 3 => jacobian x ⟨9 + i, by omega⟩ 0) = Dvel 1 x (Pi.single 0 1) :=
  (ext3 (e0_9 x) (e0_10 x) (e0_11 x)).trans (col_angle 1 0 x 0 rfl).2.symm
theorem pos1 (x : Fin 36 → ℝ) : (fun i : Fin 3 => jacobian x ⟨6 + i, by omega⟩ 1) = Dpos 1 x (Pi.single 1 1) :=
  (ext3 (e1_6 x) (e1_7 x) (e1_8 x)).trans (col_angle 1 1 x 1 rfl).1.symm
theorem vel1 (x : Fin 36 → ℝ) : (fun i : Fin 3 => jacobian x ⟨9 + i, by omega⟩ 1) = Dvel 1 x (Pi.single 1 1) :=
  (ext3 (e1_9 x) (e1_10 x) (e1_11 x)).trans (col_angle 1 1 x 1 rfl).2.symm
theorem pos2 (x : Fin 36 → ℝ) : (fun i : Fin 3 => jacobian x ⟨6 + i, by omega⟩ 2) = Dpos 1 x (Pi.single 2 1) :=
  (ext3 (e2_6 x) (e2_7 x) (e2_8 x)).trans (col_angle 1 2 x 2 rfl).1.symm
theorem vel2 (x : Fin 36 → ℝ) : (fun i : Fin 3 => jacobian x ⟨9 + i, by omega⟩ 2) = Dvel 1 x (Pi.single 2 1) :=
  (ext3 (e2_9 x) (e2_10 x) (e2_11 x)).trans (col_angle 1 2 x 2 rfl).2.symm
theorem pos3 (x : Fin 36 → ℝ) : (fun i : Fin 3 => jacobian x ⟨6 + i, by omega⟩ 3) = Dpos 1 x (Pi.single 3 1) :=
  (ext3 (e3_6 x) (e3_7 x) (e3_8 x)).trans (col_base 1 0 x 3 rfl).1.symm
theorem vel3 (x : Fin 36 → ℝ) : (fun i : Fin 3 => jacobian x ⟨9 + i, by omega⟩ 3) = Dvel 1 x (Pi.single 3 1) :=
  (ext3 (e3_9 x) (e3_10 x) (e3_11 x)).trans (col_base 1 0 x 3 rfl).2.symm
theorem pos4 (x : Fin 36 → ℝ) : (fun i : Fin 3 => jacobian x ⟨6 + i, by omega⟩ 4) = Dpos 1 x (Pi.single 4 1) :=
  (ext3 (e4_6 x) (e4_7 x) (e4_8 x)).trans (col_base 1 1 x 4 rfl).1.symm
theorem vel4 (x : Fin 36 → ℝ) : (fun i : Fin 3 => jacobian x ⟨9 + i, by omega⟩ 4) = Dvel 1 x (Pi.single 4 1) :=
  (ext3 (e4_9 x) (e4_10 x) (e4_11 x)).trans (col_base 1 1 x 4 rfl).2.symm
theorem pos5 (x : Fin 36 → ℝ) : (fun i : Fin 3 => jacobian x ⟨6 + i, by omega⟩ 5) = Dpos 1 x (Pi.single 5 1) :=
  (ext3 (e5_6 x) (e5_7 x) (e5_8 x)).trans (col_base 1 2 x 5 rfl).1.symm
theorem vel5 (x : Fin 36 → ℝ) : (fun i : Fin 3 => jacobian x ⟨9 + i, by omega⟩ 5) = Dvel 1 x (Pi.single 5 1) :=
  (ext3 (e5_9 x) (e5_10 x) (e5_11 x)).trans (col_base 1 2 x 5 rfl).2.symm
theorem pos6 (x : Fin 36 → ℝ) : (fun i : Fin 3 => jacobian x ⟨6 + i, by omega⟩ 6) = Dpos 1 x (Pi.single 6 1) :=
  (ext3 (e6_6 x) (e6_7 x) (e6_8 x)).trans (col_other 1 0 0 x 6 (by decide) (by decide)).1.symm
theorem vel6 (x : Fin 36 → ℝ) : (fun i : Fin 3 => jacobian x ⟨9 + i, by omega⟩ 6) = Dvel 1 x (Pi.single 6 1) :=
  (ext3 (e6_9 x) (e6_10 x) (e6_11 x)).trans (col_other 1 0 0 x 6 (by decide) (by decide)).2.symm
theorem pos7 (x : Fin 36 → ℝ) : (fun i : Fin 3 => jacobian x ⟨6 + i, by omega⟩ 7) = Dpos 1 x (Pi.single 7 1) :=
  (ext3 (e7_6 x) (e7_7 x) (e7_8 x)).trans (col_other 1 0 1 x 7 (by decide) (by decide)).1.symm
theorem vel7 (x : Fin 36 → ℝ) : (fun i : Fin 3 => jacobian x ⟨9 + i, by omega⟩ 7) = Dvel 1 x (Pi.single 7 1) :=
  (ext3 (e7_9 x) (e7_10 x) (e7_11 x)).trans (col_other 1 0 1 x 7 (by decide) (by decide)).2.symm
theorem pos8 (x : Fin 36 → ℝ) : (fun i : Fin 3 => jacobian x ⟨6 + i, by omega⟩ 8) = Dpos 1 x (Pi.single 8 1) :=
  (ext3 (e8_6 x) (e8_7 x) (e8_8 x)).trans (col_other 1 0 2 x 8 (by decide) (by decide)).1.symm
theorem vel8 (x : Fin 36 → ℝ) : (fun i : Fin 3 => jacobian x ⟨9 + i, by omega⟩ 8) = Dvel 1 x (Pi.single 8 1) :=
  (ext3 (e8_9 x) (e8_10 x) (e8_11 x)).trans (col_other 1 0 2 x 8 (by decide) (by decide)).2.symm
theorem pos9 (x : Fin 36 → ℝ) : (fun i : Fin 3 => jacobian x ⟨6 + i, by omega⟩ 9) = Dpos 1 x (Pi.single 9 1) :=
  (ext3 (e9_6 x) (e9_7 x) (e9_8 x)).trans (col_joint 1 0 x 9 rfl).1.symm
theorem vel9 (x : Fin 36 → ℝ) : (fun i : Fin 3 => jacobian x ⟨9 + i, by omega⟩ 9) = Dvel 1 x (Pi.single 9 1) :=
  (ext3 (e9_9 x) (e9_10 x) (e9_11 x)).trans (col_joint 1 0 x 9 rfl).2.symm
theorem pos10 (x : Fin 36 → ℝ) : (fun i : Fin 3 => jacobian x ⟨6 + i, by omega⟩ 10) = Dpos 1 x (Pi.single 10 1) :=
  (ext3 (e10_6 x) (e10_7 x) (e10_8 x)).trans (col_joint 1 1 x 10 rfl).1.symm
theorem vel10 (x : Fin 36 → ℝ) : (fun i : Fin 3 => jacobian x ⟨9 + i, by omega⟩ 10) = Dvel 1 x (Pi.single 10 1) :=
  (ext3 (e10_9 x) (e10_10 x) (e10_11 x)).trans (col_joint 1 1 x 10 rfl).2.symm
theorem pos11 (x : Fin 36 → ℝ) : (fun i : Fin 3 => jacobian x ⟨6 + i, by omega⟩ 11) = Dpos 1 x (Pi.single 11 1) :=
  (ext3 (e11_6 x) (e11_7 x) (e11_8 x)).trans (col_joint 1 2 x 11 rfl).1.symm
theorem vel11 (x : Fin 36 → ℝ) : (fun i : Fin 3 => jacobian x ⟨9 + i, by omega⟩ 11) = Dvel 1 x (Pi.single 11 1) :=
  (ext3 (e11_9 x) (e11_10 x) (e11_11 x)).trans (col_joint 1 2 x 11 rfl).2.symm
theorem pos12 (x : Fin 36 → ℝ) : (fun i : Fin 3 => jacobian x ⟨6 + i, by omega⟩ 12) = Dpos 1 x (Pi.single 12 1) :=
  (ext3 (e12_6 x) (e12_7 x) (e12_8 x)).trans (col_other 1 2 0 x 12 (by decide) (by decide)).1.symm
theorem vel12 (x : Fin 36 → ℝ) : (fun i : Fin 3 => jacobian x ⟨9 + i, by omega⟩ 12) = Dvel 1 x (Pi.single 12 1) :=
  (ext3 (e12_9 x) (e12_10 x) (e12_11 x)).trans (col_other 1 2 0 x 12 (by decide) (by decide)).2.symm
theorem pos13 (x : Fin 36 → ℝ) : (fun i : Fin 3 => jacobian x ⟨6 + i, by omega⟩ 13) = Dpos 1 x (Pi.single 13 1) :=
  (ext3 (e13_6 x) (e13_7 x) (e13_8 x)).trans (col_other 1 2 1 x 13 (by decide) (by decide)).1.symm
theorem vel13 (x : Fin 36 → ℝ) : (fun i : Fin 3 => jacobian x ⟨9 + i, by omega⟩ 13) = Dvel 1 x (Pi.single 13 1) :=
  (ext3 (e13_9 x) (e13_10 x) (e13_11 x)).trans (col_other 1 2 1 x 13 (by decide) (by decide)).2.symm
theorem pos14 (x : Fin 36 → ℝ) : (fun i : Fin 3 => jacobian x ⟨6 + i, by omega⟩ 14) = Dpos 1 x (Pi.single 14 1) :=
  (ext3 (e14_6 x) (e14_7 x) (e14_8 x)).trans (col_other 1 2 2 x 14 (by decide) (by decide)).1.symm
theorem vel14 (x : Fin 36 → ℝ) : (fun i : Fin 3 => jacobian x ⟨9 + i, by omega⟩ 14) = Dvel 1 x (Pi.single 14 1) :=
  (ext3 (e14_9 x) (e14_10 x) (e14_11 x)).trans (col_other 1 2 2 x 14 (by decide) (by decide)).2.symm
theorem pos15 (x : Fin 36 → ℝ) : (fun i : Fin 3 => jacobian x ⟨6 + i, by omega⟩ 15) = Dpos 1 x (Pi.single 15 1) :=
  (ext3 (e15_6 x) (e15_7 x) (e15_8 x)).trans (col_other 1 3 0 x 15 (by decide) (by decide)).1.symm
theorem vel15 (x : Fin 36 → ℝ) : (fun i : Fin 3 => jacobian x ⟨9 + i, by omega⟩ 15) = Dvel 1 x (Pi.single 15 1) :=
  (ext3 (e15_9 x) (e15_10 x) (e15_11 x)).trans (col_other 1 3 0 x 15 (by decide) (by decide)).2.symm
theorem pos16 (x : Fin 36 → ℝ) : (fun i : Fin 3 => jacobian x ⟨6 + i, by omega⟩ 16) = Dpos 1 x (Pi.single 16 1) :=
  (ext3 (e16_6 x) (e16_7 x) (e16_8 x)).trans (col_other 1 3 1 x 16 (by decide) (by decide)).1.symm
theorem vel16 (x : Fin 36 → ℝ) : (fun i : Fin 3 => jacobian x ⟨9 + i, by omega⟩ 16) = Dvel 1 x (Pi.single 16 1) :=
  (ext3 (e16_9 x) (e16_10 x) (e16_11 x)).trans (col_other 1 3 1 x 16 (by decide) (by decide)).2.symm
theorem pos17 (x : Fin 36 → ℝ) : (fun i : Fin 3 => jacobian x ⟨6 + i, by omega⟩ 17) = Dpos 1 x (Pi.single 17 1) :=
  (ext3 (e17_6 x) (e17_7 x) (e17_8 x)).trans (col_other 1 3 2 x 17 (by decide) (by decide)).1.symm
theorem vel17 (x : Fin 36 → ℝ) : (fun i : Fin 3 => jacobian x ⟨9 + i, by omega⟩ 17) = Dvel 1 x (Pi.single 17 1) :=
  (ext3 (e17_9 x) (e17_10 x) (e17_11 x)).trans (col_other 1 3 2 x 17 (by decide) (by decide)).2.symm
theorem pos18 (x : Fin 36 → ℝ) : (fun i : Fin 3 => jacobian x ⟨6 + i, by omega⟩ 18) = Dpos 1 x (Pi.single 18 1) :=
  (ext3 (e18_6 x) (e18_7 x) (e18_8 x)).trans (col_om 1 0 x 18 rfl).1.symm
theorem vel18 (x : Fin 36 → ℝ) : (fun i : Fin 3 => jacobian x ⟨9 + i, by omega⟩ 18) = Dvel 1 x (Pi.single 18 1) :=
  (ext3 (e18_9 x) (e18_10 x) (e18_11 x)).trans (col_om 1 0 x 18 rfl).2.symm
theorem pos19 (x : Fin 36 → ℝ) : (fun i : Fin 3 => jacobian x ⟨6 + i, by omega⟩ 19) = Dpos 1 x (Pi.single 19 1) :=
  (ext3 (e19_6 x) (e19_7 x) (e19_8 x)).trans (col_om 1 1 x 19 rfl).1.symm
theorem vel19 (x : Fin 36 → ℝ) : (fun i : Fin 3 => jacobian x ⟨9 + i, by omega⟩ 19) = Dvel 1 x (Pi.single 19 1) :=
  (ext3 (e19_9 x) (e19_10 x) (e19_11 x)).trans (col_om 1 1 x 19 rfl).2.symm
theorem pos20 (x : Fin 36 → ℝ) : (fun i : Fin 3 => jacobian x ⟨6 + i, by omega⟩ 20) = Dpos 1 x (Pi.single 20 1) :=
  (ext3 (e20_6 x) (e20_7 x) (e20_8 x)).trans (col_om 1 2 x 20 rfl).1.symm
theorem vel20 (x : Fin 36 → ℝ) : (fun i : Fin 3 => jacobian x ⟨9 + i, by omega⟩ 20) = Dvel 1 x (Pi.single 20 1) :=
  (ext3 (e20_9 x) (e20_10 x) (e20_11 x)).trans (col_om 1 2 x 20 rfl).2.symm
theorem pos21 (x : Fin 36 → ℝ) : (fun i : Fin 3 => jacobian x ⟨6 + i, by omega⟩ 21) = Dpos 1 x (Pi.single 21 1) :=
  (ext3 (e21_6 x) (e21_7 x) (e21_8 x)).trans (col_lv 1 0 x 21 rfl).1.symm
theorem vel21 (x : Fin 36 → ℝ) : (fun i : Fin 3 => jacobian x ⟨9 + i, by omega⟩ 21) = Dvel 1 x (Pi.single 21 1) :=
  (ext3 (e21_9 x) (e21_10 x) (e21_11 x)).trans (col_lv 1 0 x 21 rfl).2.symm
theorem pos22 (x : Fin 36 → ℝ) : (fun i : Fin 3 => jacobian x ⟨6 + i, by omega⟩ 22) = Dpos 1 x (Pi.single 22 1) :=
  (ext3 (e22_6 x) (e22_7 x) (e22_8 x)).trans (col_lv 1 1 x 22 rfl).1.symm
theorem vel22 (x : Fin 36 → ℝ) : (fun i : Fin 3 => jacobian x ⟨9 + i, by omega⟩ 22) = Dvel 1 x (Pi.single 22 1) :=
  (ext3 (e22_9 x) (e22_10 x) (e22_11 x)).trans (col_lv 1 1 x 22 rfl).2.symm
theorem pos23 (x : Fin 36 → ℝ) : (fun i : Fin 3 => jacobian x ⟨6 + i, by omega⟩ 23) = Dpos 1 x (Pi.single 23 1) :=
  (ext3 (e23_6 x) (e23_7 x) (e23_8 x)).trans (col_lv 1 2 x 23 rfl).1.symm
theorem vel23 (x : Fin 36 → ℝ) : (fun i : Fin 3 => jacobian x ⟨9 + i, by omega⟩ 23) = Dvel 1 x (Pi.single 23 1) :=
  (ext3 (e23_9 x) (e23_10 x) (e23_11 x)).trans (col_lv 1 2 x 23 rfl).2.symm
theorem pos24 (x : Fin 36 → ℝ) : (fun i : Fin 3 => jacobian x ⟨6 + i, by omega⟩ 24) = Dpos 1 x (Pi.single 24 1) :=
  (ext3 (e24_6 x) (e24_7 x) (e24_8 x)).trans (col_other 1 0 0 x 24 (by decide) (by decide)).1.symm
theorem vel24 (x : Fin 36 → ℝ) : (fun i : Fin 3 => jacobian x ⟨9 + i, by omega⟩ 24) = Dvel 1 x (Pi.single 24 1) :=
  (ext3 (e24_9 x) (e24_10 x) (e24_11 x)).trans (col_other 1 0 0 x 24 (by decide) (by decide)).2.symm
theorem pos25 (x : Fin 36 → ℝ) : (fun i : Fin 3 => jacobian x ⟨6 + i, by omega⟩ 25) = Dpos 1 x (Pi.single 25 1) :=
  (ext3 (e25_6 x) (e25_7 x) (e25_8 x)).trans (col_other 1 0 1 x 25 (by decide) (by decide)).1.symm
theorem vel25 (x : Fin 36 → ℝ) : (fun i : Fin 3 => jacobian x ⟨9 + i, by omega⟩ 25) = Dvel 1 x (Pi.single 25 1) :=
  (ext3 (e25_9 x) (e25_10 x) (e25_11 x)).trans (col_other 1 0 1 x 25 (by decide) (by decide)).2.symm
theorem pos26 (x : Fin 36 → ℝ) : (fun i : Fin 3 => jacobian x ⟨6 + i, by omega⟩ 26) = Dpos 1 x (Pi.single 26 1) :=
  (ext3 (e26_6 x) (e26_7 x) (e26_8 x)).trans (col_other 1 0 2 x 26 (by decide) (by decide)).1.symm
theorem vel26 (x : Fin 36 → ℝ) : (fun i : Fin 3 => jacobian x ⟨9 + i, by omega⟩ 26) = Dvel 1 x (Pi.single 26 1) :=
  (ext3 (e26_9 x) (e26_10 x) (e26_11 x)).trans (col_other 1 0 2 x 26 (by decide) (by decide)).2.symm
theorem pos27 (x : Fin 36 → ℝ) : (fun i : Fin 3 => jacobian x ⟨6 + i, by omega⟩ 27) = Dpos 1 x (Pi.single 27 1) :=
  (ext3 (e27_6 x) (e27_7 x) (e27_8 x)).trans (col_qd 1 0 x 27 rfl).1.symm
theorem vel27 (x : Fin 36 → ℝ) : (fun i : Fin 3 => jacobian x ⟨9 + i, by omega⟩ 27) = Dvel 1 x (Pi.single 27 1) :=
  (ext3 (e27_9 x) (e27_10 x) (e27_11 x)).trans (col_qd 1 0 x 27 rfl).2.symm
theorem pos28 (x : Fin 36 → ℝ) : (fun i : Fin 3 => jacobian x ⟨6 + i, by omega⟩ 28) = Dpos 1 x (Pi.single 28 1) :=
  (ext3 (e28_6 x) (e28_7 x) (e28_8 x)).trans (col_qd 1 1 x 28 rfl).1.symm
theorem vel28 (x : Fin 36 → ℝ) : (fun i : Fin 3 => jacobian x ⟨9 + i, by omega⟩ 28) = Dvel 1 x (Pi.single 28 1) :=
  (ext3 (e28_9 x) (e28_10 x) (e28_11 x)).trans (col_qd 1 1 x 28 rfl).2.symm
theorem pos29 (x : Fin 36 → ℝ) : (fun i : Fin 3 => jacobian x ⟨6 + i, by omega⟩ 29) = Dpos 1 x (Pi.single 29 1) :=
  (ext3 (e29_6 x) (e29_7 x) (e29_8 x)).trans (col_qd 1 2 x 29 rfl).1.symm
theorem vel29 (x : Fin 36 → ℝ) : (fun i : Fin 3 => jacobian x ⟨9 + i, by omega⟩ 29) = Dvel 1 x (Pi.single 29 1) :=
  (ext3 (e29_9 x) (e29_10 x) (e29_11 x)).trans (col_qd 1 2 x 29 rfl).2.symm
theorem pos30 (x : Fin 36 → ℝ) : (fun i : Fin 3 => jacobian x ⟨6 + i, by omega⟩ 30) = Dpos 1 x (Pi.single 30 1) :=
  (ext3 (e30_6 x) (e30_7 x) (e30_8 x)).trans (col_other 1 2 0 x 30 (by decide) (by decide)).1.symm
theorem vel30 (x : Fin 36 → ℝ) : (fun i : Fin 3 => jacobian x ⟨9 + i, by omega⟩ 30) = Dvel 1 x (Pi.single 30 1) :=
  (ext3 (e30_9 x) (e30_10 x) (e30_11 x)).trans (col_other 1 2 0 x 30 (by decide) (by decide)).2.symm
theorem pos31 (x : Fin 36 → ℝ) : (fun i : Fin 3 => jacobian x ⟨6 + i, by omega⟩ 31) = Dpos 1 x (Pi.single 31 1) :=
  (ext3 (e31_6 x) (e31_7 x) (e31_8 x)).trans (col_other 1 2 1 x 31 (by decide) (by decide)).1.symm
theorem vel31 (x : Fin 36 → ℝ) : (fun i : Fin 3 => jacobian x ⟨9 + i, by omega⟩ 31) = Dvel 1 x (Pi.single 31 1) :=
  (ext3 (e31_9 x) (e31_10 x) (e31_11 x)).trans (col_other 1 2 1 x 31 (by decide) (by decide)).2.symm
theorem pos32 (x : Fin 36 → ℝ) : (fun i : Fin 3 => jacobian x ⟨6 + i, by omega⟩ 32) = Dpos 1 x (Pi.single 32 1) :=
  (ext3 (e32_6 x) (e32_7 x) (e32_8 x)).trans (col_other 1 2 2 x 32 (by decide) (by decide)).1.symm
theorem vel32 (x : Fin 36 → ℝ) : (fun i : Fin 3 => jacobian x ⟨9 + i, by omega⟩ 32) = Dvel 1 x (Pi.single 32 1) :=
  (ext3 (e32_9 x) (e32_10 x) (e32_11 x)).trans (col_other 1 2 2 x 32 (by decide) (by decide)).2.symm
theorem pos33 (x : Fin 36 → ℝ) : (fun i : Fin 3 => jacobian x ⟨6 + i, by omega⟩ 33) = Dpos 1 x (Pi.single 33 1) :=
  (ext3 (e33_6 x) (e33_7 x) (e33_8 x)).trans (col_other 1 3 0 x 33 (by decide) (by decide)).1.symm
theorem vel33 (x : Fin 36 → ℝ) : (fun i : Fin 3 => jacobian x ⟨9 + i, by omega⟩ 33) = Dvel 1 x (Pi.single 33 1) :=
  (ext3 (e33_9 x) (e33_10 x) (e33_11 x)).trans (col_other 1 3 0 x 33 (by decide) (by decide)).2.symm
theorem pos34 (x : Fin 36 → ℝ) : (fun i : Fin 3 => jacobian x ⟨6 + i, by omega⟩ 34) = Dpos 1 x (Pi.single 34 1) :=
  (ext3 (e34_6 x) (e34_7 x) (e34_8 x)).trans (col_other 1 3 1 x 34 (by decide) (by decide)).1.symm
theorem vel34 (x : Fin 36 → ℝ) : (fun i : Fin 3 => jacobian x ⟨9 + i, by omega⟩ 34) = Dvel 1 x (Pi.single 34 1) :=
  (ext3 (e34_9 x) (e34_10 x) (e34_11 x)).trans (col_other 1 3 1 x 34 (by decide) (by decide)).2.symm
theorem pos35 (x : Fin 36 → ℝ) : (fun i : Fin 3 => jacobian x ⟨6 + i, by omega⟩ 35) = Dpos 1 x (Pi.single 35 1) :=
  (ext3 (e35_6 x) (e35_7 x) (e35_8 x)).trans (col_other 1 3 2 x 35 (by decide) (by decide)).1.symm
theorem vel35 (x : Fin 36 → ℝ) : (fun i : Fin 3 => jacobian x ⟨9 + i, by omega⟩ 35) = Dvel 1 x (Pi.single 35 1) :=
  (ext3 (e35_9 x) (e35_10 x) (e35_11 x)).trans (col_other 1 3 2 x 35 (by decide) (by decide)).2.symm

theorem rows (x : Fin 36 → ℝ) (c : Fin 36) :
    (fun i : Fin 3 => jacobian x ⟨6 + i, by omega⟩ c) = Dpos 1 x (Pi.single c 1) ∧
    (fun i : Fin 3 => jacobian x ⟨9 + i, by omega⟩ c) = Dvel 1 x (Pi.single c 1) := by
  fin_cases c
  exacts [⟨pos0 x, vel0 x⟩, ⟨pos1 x, vel1 x⟩, ⟨pos2 x, vel2 x⟩, ⟨pos3 x, vel3 x⟩, ⟨pos4 x, vel4 x⟩, ⟨pos5 x, vel5 x⟩, ⟨pos6 x,
    vel6 x⟩, ⟨pos7 x, vel7 x⟩, ⟨pos8 x, vel8 x⟩, ⟨pos9 x, vel9 x⟩, ⟨pos10 x, vel10 x⟩, ⟨pos11 x, vel11 x⟩, ⟨pos12 x, vel12 x⟩, ⟨pos13 x, vel13 x⟩, ⟨pos14 x, vel14 x⟩, ⟨pos15 x, vel15 x⟩, ⟨pos16 x, vel16 x⟩, ⟨pos17 x, vel17 x⟩, ⟨pos18 x, vel18 x⟩, ⟨pos19 x, vel19 x⟩, ⟨pos20 x, vel20 x⟩, ⟨pos21 x, vel21 x⟩, ⟨pos22 x, vel22 x⟩, ⟨pos23 x, vel23 x⟩, ⟨pos24 x, vel24 x⟩, ⟨pos25 x, vel25 x⟩, ⟨pos26 x, vel26 x⟩, ⟨pos27 x, vel27 x⟩, ⟨pos28 x, vel28 x⟩, ⟨pos29 x, vel29 x⟩, ⟨pos30 x, vel30 x⟩, ⟨pos31 x, vel31 x⟩, ⟨pos32 x, vel32 x⟩, ⟨pos33 x, vel33 x⟩, ⟨pos34 x, vel34 x⟩, ⟨pos35 x, vel35 x⟩]

end CT.Robots.HyQ.FootJacReverse.Leg1
