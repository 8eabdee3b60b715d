import Verif.Model.Robots.HyQFootJacForward
import Verif.Props.Robots.HyQFoot

/-!
# Rows of foot 1 in the generated Jacobian HyQForwardKinJacForward

`hN`: line `N` is a component of the quaternion, of the position of the foot or of its velocity in the base.  `eC_R`: the entry in
row `R` and column `C`.
-/

namespace CT.Robots.HyQ.FootJacForward.Leg1

open Matrix CT.FloatSys CT.FrameJac CT.Robots.HyQ

set_option linter.unusedSimpArgs false

theorem h192 (x : Fin 36 → ℝ) : l192 x = Qe x 3 := by
  simp only [l181, l182, l183, l184, l185, l186, l187, l188, l189, l190, l191, l192, Qe_3] <;> ring
theorem h205 (x : Fin 36 → ℝ) : l205 x = Qe x 1 := by
  simp only [l181, l182, l183, l184, l186, l187, l188, l189, l191, l203, l204, l205, Qe_1] <;> ring
theorem h207 (x : Fin 36 → ℝ) : l207 x = Qe x 2 := by
  simp only [l181, l182, l183, l184, l186, l187, l188, l189, l191, l203, l204, l207, Qe_2] <;> ring
theorem h212 (x : Fin 36 → ℝ) : l212 x = Qe x 0 := by
  simp only [l181, l182, l183, l184, l185, l186, l187, l188, l189, l190, l191, l212, Qe_0] <;> ring
theorem h224 (x : Fin 36 → ℝ) : l224 x = foot 1 x 2 := by
  simp only [l214, l215, l216, l217, l218, l219, l220, l221, l222, l223, l224, foot, pv_0, pv_1, pv_2, side_1, mountX_1,
    mountY_1, th_1_0, th_1_1, th_1_2, segA, segB, segC, segD, segH] <;> ring
theorem h233 (x : Fin 36 → ℝ) : l233 x = foot 1 x 1 := by
  simp only [l216, l218, l220, l222, l227, l228, l229, l230, l231, l232, l233, foot, pv_0, pv_1, pv_2, side_1, mountX_1,
    mountY_1, th_1_0, th_1_1, th_1_2, segA, segB, segC, segD, segH] <;> ring
theorem h238 (x : Fin 36 → ℝ) : l238 x = foot 1 x 0 := by
  simp only [l216, l218, l220, l222, l236, l237, l238, foot, pv_0, pv_1, pv_2, side_1, mountX_1, mountY_1, th_1_0, th_1_1,
    th_1_2, segA, segB, segC, segD, segH] <;> ring
theorem h258 (x : Fin 36 → ℝ) : l258 x = Qe x 3 := by
  simp only [l247, l248, l249, l250, l251, l252, l253, l254, l255, l256, l257, l258, Qe_3] <;> ring
theorem h271 (x : Fin 36 → ℝ) : l271 x = Qe x 1 := by
  simp only [l247, l248, l249, l250, l252, l253, l254, l255, l257, l269, l270, l271, Qe_1] <;> ring
theorem h273 (x : Fin 36 → ℝ) : l273 x = Qe x 2 := by
  simp only [l247, l248, l249, l250, l252, l253, l254, l255, l257, l269, l270, l273, Qe_2] <;> ring
theorem h278 (x : Fin 36 → ℝ) : l278 x = Qe x 0 := by
  simp only [l247, l248, l249, l250, l251, l252, l253, l254, l255, l256, l257, l278, Qe_0] <;> ring
theorem h305 (x : Fin 36 → ℝ) : l305 x = vb 1 x 2 := by
  simp only [l214, l216, l218, l220, l222, l227, l280, l281, l282, l283, l284, l285, l286, l287, l288, l289, l290, l291, l292,
    l293, l294, l295, l296, l297, l298, l299, l300, l301, l302, l303, l304, l305, vb, Pi.add_apply, mv_0, mv_1, mv_2, cr_0, cr_1, cr_2, foot, pv_0, pv_1, pv_2, side_1, mountX_1, mountY_1, th_1_0, th_1_1, th_1_2, segA, segB, segC, segD, segH, jac, jm_00, jm_01, jm_02, jm_10, jm_11, jm_12, jm_20, jm_21, jm_22, qd_1_0, qd_1_1, qd_1_2, om_0, om_1, om_2, lv_0, lv_1, lv_2] <;> ring
theorem h330 (x : Fin 36 → ℝ) : l330 x = vb 1 x 1 := by
  simp only [l214, l216, l218, l220, l222, l227, l292, l302, l303, l304, l308, l309, l310, l311, l312, l313, l314, l315, l316,
    l317, l318, l319, l320, l321, l322, l323, l324, l325, l326, l327, l328, l329, l330, vb, Pi.add_apply, mv_0, mv_1, mv_2, cr_0, cr_1, cr_2, foot, pv_0, pv_1, pv_2, side_1, mountX_1, mountY_1, th_1_0, th_1_1, th_1_2, segA, segB, segC, segD, segH, jac, jm_00, jm_01, jm_02, jm_10, jm_11, jm_12, jm_20, jm_21, jm_22, qd_1_0, qd_1_1, qd_1_2, om_0, om_1, om_2, lv_0, lv_1, lv_2] <;> ring
theorem h339 (x : Fin 36 → ℝ) : l339 x = vb 1 x 0 := by
  simp only [l214, l216, l218, l220, l222, l227, l296, l297, l298, l299, l300, l301, l324, l325, l326, l327, l328, l329, l333,
    l334, l335, l336, l337, l338, l339, vb, Pi.add_apply, mv_0, mv_1, mv_2, cr_0, cr_1, cr_2, foot, pv_0, pv_1, pv_2, side_1, mountX_1, mountY_1, th_1_0, th_1_1, th_1_2, segA, segB, segC, segD, segH, jac, jm_00, jm_01, jm_02, jm_10, jm_11, jm_12, jm_20, jm_21, jm_22, qd_1_0, qd_1_1, qd_1_2, om_0, om_1, om_2, lv_0, lv_1, lv_2] <;> ring

theorem e0_6 (x : Fin 36 → ℝ) : l239 x = (dRm (Qe x) (dQ 0 x) *ᵥ foot 1 x) 0 := by
  simp only [l181, l183, l184, l186, l187, l189, l191, l193, l194, l195, l196, l197, l198, l199, l200, l201, l202, l206, l208,
    l209, l210, l211, l213, l225, l226, l234, l235, l239, h192, h205, h207, h212, h224, h233, h238, mv_0, mv_1, mv_2, dRm_00, dRm_01, dRm_02, dRm_10, dRm_11, dRm_12, dRm_20, dRm_21, dRm_22, dQ_0_0, dQ_0_1, dQ_0_2, dQ_0_3] <;> ring
theorem e0_7 (x : Fin 36 → ℝ) : l245 x = (dRm (Qe x) (dQ 0 x) *ᵥ foot 1 x) 1 := by
  simp only [l181, l183, l184, l186, l187, l189, l191, l193, l194, l195, l196, l197, l198, l199, l200, l201, l202, l208, l209,
    l210, l211, l225, l226, l234, l240, l241, l242, l243, l244, l245, h192, h205, h207, h212, h224, h233, h238, mv_0, mv_1, mv_2, dRm_00, dRm_01, dRm_02, dRm_10, dRm_11, dRm_12, dRm_20, dRm_21, dRm_22, dQ_0_0, dQ_0_1, dQ_0_2, dQ_0_3] <;> ring
theorem e0_8 (x : Fin 36 → ℝ) : l246 x = (dRm (Qe x) (dQ 0 x) *ᵥ foot 1 x) 2 := by
  simp only [l181, l183, l184, l186, l187, l189, l191, l193, l194, l195, l196, l197, l198, l199, l200, l201, l202, l206, l208,
    l209, l210, l211, l213, l235, l240, l241, l242, l243, l244, l246, h192, h205, h207, h212, h224, h233, h238, mv_0, mv_1, mv_2, dRm_00, dRm_01, dRm_02, dRm_10, dRm_11, dRm_12, dRm_20, dRm_21, dRm_22, dQ_0_0, dQ_0_1, dQ_0_2, dQ_0_3] <;> ring
theorem e0_9 (x : Fin 36 → ℝ) : l340 x = (dRm (Qe x) (dQ 0 x) *ᵥ vb 1 x) 0 := by
  simp only [l247, l249, l250, l252, l253, l255, l257, l259, l260, l261, l262, l263, l264, l265, l266, l267, l268, l272, l274,
    l275, l276, l277, l279, l306, l307, l331, l332, l340, h258, h271, h273, h278, h305, h330, h339, mv_0, mv_1, mv_2, dRm_00, dRm_01, dRm_02, dRm_10, dRm_11, dRm_12, dRm_20, dRm_21, dRm_22, dQ_0_0, dQ_0_1, dQ_0_2, dQ_0_3] <;> ring
theorem e0_10 (x : Fin 36 → ℝ) : l346 x = (dRm (Qe x) (dQ 0 x) *ᵥ vb 1 x) 1 := by
  simp only [l247, l249, l250, l252, l253, l255, l257, l259, l260, l261, l262, l263, l264, l265, l266, l267, l268, l274, l275,
    l276, l277, l306, l307, l331, l341, l342, l343, l344, l345, l346, h258, h271, h273, h278, h305, h330, h339, mv_0, mv_1, mv_2, dRm_00, dRm_01, dRm_02, dRm_10, dRm_11, dRm_12, dRm_20, dRm_21, dRm_22, dQ_0_0, dQ_0_1, dQ_0_2, dQ_0_3] <;> ring
theorem e0_11 (x : Fin 36 → ℝ) : l347 x = (dRm (Qe x) (dQ 0 x) *ᵥ vb 1 x) 2 := by
  simp only [l247, l249, l250, l252, l253, l255, l257, l259, l260, l261, l262, l263, l264, l265, l266, l267, l268, l272, l274,
    l275, l276, l277, l279, l332, l341, l342, l343, l344, l345, l347, h258, h271, h273, h278, h305, h330, h339, mv_0, mv_1, mv_2, dRm_00, dRm_01, dRm_02, dRm_10, dRm_11, dRm_12, dRm_20, dRm_21, dRm_22, dQ_0_0, dQ_0_1, dQ_0_2, dQ_0_3] <;> ring
theorem e1_6 (x : Fin 36 → ℝ) : l751 x = (dRm (Qe x) (dQ 1 x) *ᵥ foot 1 x) 0 := by
  simp only [l181, l182, l183, l186, l187, l188, l191, l193, l208, l733, l734, l735, l736, l737, l738, l739, l740, l741, l742,
    l743, l744, l745, l746, l747, l748, l749, l750, l751, h192, h205, h207, h212, h224, h233, h238, mv_0, mv_1, mv_2, dRm_00, dRm_01, dRm_02, dRm_10, dRm_11, dRm_12, dRm_20, dRm_21, dRm_22, dQ_1_0, dQ_1_1, dQ_1_2, dQ_1_3] <;> ring
theorem e1_7 (x : Fin 36 → ℝ) : l756 x = (dRm (Qe x) (dQ 1 x) *ᵥ foot 1 x) 1 := by
  simp only [l181, l182, l183, l186, l187, l188, l191, l193, l208, l241, l733, l734, l735, l736, l737, l738, l739, l740, l741,
    l743, l744, l745, l747, l748, l749, l752, l753, l754, l755, l756, h192, h205, h207, h212, h224, h233, h238, mv_0, mv_1, mv_2, dRm_00, dRm_01, dRm_02, dRm_10, dRm_11, dRm_12, dRm_20, dRm_21, dRm_22, dQ_1_0, dQ_1_1, dQ_1_2, dQ_1_3] <;> ring
theorem e1_8 (x : Fin 36 → ℝ) : l757 x = (dRm (Qe x) (dQ 1 x) *ᵥ foot 1 x) 2 := by
  simp only [l181, l182, l183, l186, l187, l188, l191, l193, l208, l241, l733, l734, l735, l736, l737, l738, l739, l740, l741,
    l742, l743, l744, l745, l746, l750, l752, l753, l754, l755, l757, h192, h205, h207, h212, h224, h233, h238, mv_0, mv_1, mv_2, dRm_00, dRm_01, dRm_02, dRm_10, dRm_11, dRm_12, dRm_20, dRm_21, dRm_22, dQ_1_0, dQ_1_1, dQ_1_2, dQ_1_3] <;> ring
theorem e1_9 (x : Fin 36 → ℝ) : l776 x = (dRm (Qe x) (dQ 1 x) *ᵥ vb 1 x) 0 := by
  simp only [l247, l248, l249, l252, l253, l254, l257, l259, l274, l758, l759, l760, l761, l762, l763, l764, l765, l766, l767,
    l768, l769, l770, l771, l772, l773, l774, l775, l776, h258, h271, h273, h278, h305, h330, h339, mv_0, mv_1, mv_2, dRm_00, dRm_01, dRm_02, dRm_10, dRm_11, dRm_12, dRm_20, dRm_21, dRm_22, dQ_1_0, dQ_1_1, dQ_1_2, dQ_1_3] <;> ring
theorem e1_10 (x : Fin 36 → ℝ) : l781 x = (dRm (Qe x) (dQ 1 x) *ᵥ vb 1 x) 1 := by
  simp only [l247, l248, l249, l252, l253, l254, l257, l259, l274, l342, l758, l759, l760, l761, l762, l763, l764, l765, l766,
    l768, l769, l770, l772, l773, l774, l777, l778, l779, l780, l781, h258, h271, h273, h278, h305, h330, h339, mv_0, mv_1, mv_2, dRm_00, dRm_01, dRm_02, dRm_10, dRm_11, dRm_12, dRm_20, dRm_21, dRm_22, dQ_1_0, dQ_1_1, dQ_1_2, dQ_1_3] <;> ring
theorem e1_11 (x : Fin 36 → ℝ) : l782 x = (dRm (Qe x) (dQ 1 x) *ᵥ vb 1 x) 2 := by
  simp only [l247, l248, l249, l252, l253, l254, l257, l259, l274, l342, l758, l759, l760, l761, l762, l763, l764, l765, l766,
    l767, l768, l769, l770, l771, l775, l777, l778, l779, l780, l782, h258, h271, h273, h278, h305, h330, h339, mv_0, mv_1, mv_2, dRm_00, dRm_01, dRm_02, dRm_10, dRm_11, dRm_12, dRm_20, dRm_21, dRm_22, dQ_1_0, dQ_1_1, dQ_1_2, dQ_1_3] <;> ring
theorem e2_6 (x : Fin 36 → ℝ) : l939 x = (dRm (Qe x) (dQ 2 x) *ᵥ foot 1 x) 0 := by
  simp only [l181, l182, l183, l184, l185, l186, l188, l189, l190, l193, l203, l204, l208, l925, l926, l927, l928, l929, l930,
    l931, l932, l933, l934, l935, l936, l937, l938, l939, h192, h205, h207, h212, h224, h233, h238, mv_0, mv_1, mv_2, dRm_00, dRm_01, dRm_02, dRm_10, dRm_11, dRm_12, dRm_20, dRm_21, dRm_22, dQ_2_0, dQ_2_1, dQ_2_2, dQ_2_3] <;> ring
theorem e2_7 (x : Fin 36 → ℝ) : l944 x = (dRm (Qe x) (dQ 2 x) *ᵥ foot 1 x) 1 := by
  simp only [l181, l182, l183, l184, l185, l186, l188, l189, l190, l193, l203, l204, l208, l241, l925, l926, l927, l928, l929,
    l931, l932, l933, l935, l936, l937, l940, l941, l942, l943, l944, h192, h205, h207, h212, h224, h233, h238, mv_0, mv_1, mv_2, dRm_00, dRm_01, dRm_02, dRm_10, dRm_11, dRm_12, dRm_20, dRm_21, dRm_22, dQ_2_0, dQ_2_1, dQ_2_2, dQ_2_3] <;> ring
theorem e2_8 (x : Fin 36 → ℝ) : l945 x = (dRm (Qe x) (dQ 2 x) *ᵥ foot 1 x) 2 := by
  simp only [l181, l182, l183, l184, l185, l186, l188, l189, l190, l193, l203, l204, l208, l241, l925, l926, l927, l928, l929,
    l930, l931, l932, l933, l934, l938, l940, l941, l942, l943, l945, h192, h205, h207, h212, h224, h233, h238, mv_0, mv_1, mv_2, dRm_00, dRm_01, dRm_02, dRm_10, dRm_11, dRm_12, dRm_20, dRm_21, dRm_22, dQ_2_0, dQ_2_1, dQ_2_2, dQ_2_3] <;> ring
theorem e2_9 (x : Fin 36 → ℝ) : l960 x = (dRm (Qe x) (dQ 2 x) *ᵥ vb 1 x) 0 := by
  simp only [l247, l248, l249, l250, l251, l252, l254, l255, l256, l259, l269, l270, l274, l946, l947, l948, l949, l950, l951,
    l952, l953, l954, l955, l956, l957, l958, l959, l960, h258, h271, h273, h278, h305, h330, h339, mv_0, mv_1, mv_2, dRm_00, dRm_01, dRm_02, dRm_10, dRm_11, dRm_12, dRm_20, dRm_21, dRm_22, dQ_2_0, dQ_2_1, dQ_2_2, dQ_2_3] <;> ring
theorem e2_10 (x : Fin 36 → ℝ) : l965 x = (dRm (Qe x) (dQ 2 x) *ᵥ vb 1 x) 1 := by
  simp only [l247, l248, l249, l250, l251, l252, l254, l255, l256, l259, l269, l270, l274, l342, l946, l947, l948, l949, l950,
    l952, l953, l954, l956, l957, l958, l961, l962, l963, l964, l965, h258, h271, h273, h278, h305, h330, h339, mv_0, mv_1, mv_2, dRm_00, dRm_01, dRm_02, dRm_10, dRm_11, dRm_12, dRm_20, dRm_21, dRm_22, dQ_2_0, dQ_2_1, dQ_2_2, dQ_2_3] <;> ring
theorem e2_11 (x : Fin 36 → ℝ) : l966 x = (dRm (Qe x) (dQ 2 x) *ᵥ vb 1 x) 2 := by
  simp only [l247, l248, l249, l250, l251, l252, l254, l255, l256, l259, l269, l270, l274, l342, l946, l947, l948, l949, l950,
    l951, l952, l953, l954, l955, l959, l961, l962, l963, l964, l966, h258, h271, h273, h278, h305, h330, h339, mv_0, mv_1, mv_2, dRm_00, dRm_01, dRm_02, dRm_10, dRm_11, dRm_12, dRm_20, dRm_21, dRm_22, dQ_2_0, dQ_2_1, dQ_2_2, dQ_2_3] <;> ring
theorem e3_6 (x : Fin 36 → ℝ) : l1488 x = ((Pi.single 0 1 : V3)) 0 := by simp [l1488]
theorem e3_7 (_x : Fin 36 → ℝ) : (0 : ℝ) = ((Pi.single 0 1 : V3)) 1 := by simp [Pi.zero_apply]
theorem e3_8 (_x : Fin 36 → ℝ) : (0 : ℝ) = ((Pi.single 0 1 : V3)) 2 := by simp [Pi.zero_apply]
theorem e3_9 (_x : Fin 36 → ℝ) : (0 : ℝ) = ((0 : V3)) 0 := by simp [Pi.zero_apply]
theorem e3_10 (_x : Fin 36 → ℝ) : (0 : ℝ) = ((0 : V3)) 1 := by simp [Pi.zero_apply]
theorem e3_11 (_x : Fin 36 → ℝ) : (0 : ℝ) = ((0 : V3)) 2 := by simp [Pi.zero_apply]
theorem e4_6 (_x : Fin 36 → ℝ) : (0 : ℝ) = ((Pi.single 1 1 : V3)) 0 := by simp [Pi.zero_apply]
theorem e4_7 (x : Fin 36 → ℝ) : l1492 x = ((Pi.single 1 1 : V3)) 1 := by simp [l1492]
theorem e4_8 (_x : Fin 36 → ℝ) : (0 : ℝ) = ((Pi.single 1 1 : V3)) 2 := by simp [Pi.zero_apply]
theorem e4_9 (_x : Fin 36 → ℝ) : (0 : ℝ) = ((0 : V3)) 0 := by simp [Pi.zero_apply]
theorem e4_10 (_x : Fin 36 → ℝ) : (0 : ℝ) = ((0 : V3)) 1 := by simp [Pi.zero_apply]
theorem e4_11 (_x : Fin 36 → ℝ) : (0 : ℝ) = ((0 : V3)) 2 := by simp [Pi.zero_apply]
theorem e5_6 (_x : Fin 36 → ℝ) : (0 : ℝ) = ((Pi.single 2 1 : V3)) 0 := by simp [Pi.zero_apply]
theorem e5_7 (_x : Fin 36 → ℝ) : (0 : ℝ) = ((Pi.single 2 1 : V3)) 1 := by simp [Pi.zero_apply]
theorem e5_8 (x : Fin 36 → ℝ) : l1496 x = ((Pi.single 2 1 : V3)) 2 := by simp [l1496]
theorem e5_9 (_x : Fin 36 → ℝ) : (0 : ℝ) = ((0 : V3)) 0 := by simp [Pi.zero_apply]
theorem e5_10 (_x : Fin 36 → ℝ) : (0 : ℝ) = ((0 : V3)) 1 := by simp [Pi.zero_apply]
theorem e5_11 (_x : Fin 36 → ℝ) : (0 : ℝ) = ((0 : V3)) 2 := by simp [Pi.zero_apply]
theorem e6_6 (_x : Fin 36 → ℝ) : (0 : ℝ) = ((0 : V3)) 0 := by simp [Pi.zero_apply]
theorem e6_7 (_x : Fin 36 → ℝ) : (0 : ℝ) = ((0 : V3)) 1 := by simp [Pi.zero_apply]
theorem e6_8 (_x : Fin 36 → ℝ) : (0 : ℝ) = ((0 : V3)) 2 := by simp [Pi.zero_apply]
theorem e6_9 (_x : Fin 36 → ℝ) : (0 : ℝ) = ((0 : V3)) 0 := by simp [Pi.zero_apply]
theorem e6_10 (_x : Fin 36 → ℝ) : (0 : ℝ) = ((0 : V3)) 1 := by simp [Pi.zero_apply]
theorem e6_11 (_x : Fin 36 → ℝ) : (0 : ℝ) = ((0 : V3)) 2 := by simp [Pi.zero_apply]
theorem e7_6 (_x : Fin 36 → ℝ) : (0 : ℝ) = ((0 : V3)) 0 := by simp [Pi.zero_apply]
theorem e7_7 (_x : Fin 36 → ℝ) : (0 : ℝ) = ((0 : V3)) 1 := by simp [Pi.zero_apply]
theorem e7_8 (_x : Fin 36 → ℝ) : (0 : ℝ) = ((0 : V3)) 2 := by simp [Pi.zero_apply]
theorem e7_9 (_x : Fin 36 → ℝ) : (0 : ℝ) = ((0 : V3)) 0 := by simp [Pi.zero_apply]
theorem e7_10 (_x : Fin 36 → ℝ) : (0 : ℝ) = ((0 : V3)) 1 := by simp [Pi.zero_apply]
theorem e7_11 (_x : Fin 36 → ℝ) : (0 : ℝ) = ((0 : V3)) 2 := by simp [Pi.zero_apply]
theorem e8_6 (_x : Fin 36 → ℝ) : (0 : ℝ) = ((0 : V3)) 0 := by simp [Pi.zero_apply]
theorem e8_7 (_x : Fin 36 → ℝ) : (0 : ℝ) = ((0 : V3)) 1 := by simp [Pi.zero_apply]
theorem e8_8 (_x : Fin 36 → ℝ) : (0 : ℝ) = ((0 : V3)) 2 := by simp [Pi.zero_apply]
theorem e8_9 (_x : Fin 36 → ℝ) : (0 : ℝ) = ((0 : V3)) 0 := by simp [Pi.zero_apply]
theorem e8_10 (_x : Fin 36 → ℝ) : (0 : ℝ) = ((0 : V3)) 1 := by simp [Pi.zero_apply]
theorem e8_11 (_x : Fin 36 → ℝ) : (0 : ℝ) = ((0 : V3)) 2 := by simp [Pi.zero_apply]
theorem e9_6 (x : Fin 36 → ℝ) : l1159 x = (quatMatrix (Qe x) *ᵥ jcol 1 0 x) 0 := by
  simp only [l193, l208, l216, l218, l220, l222, l1149, l1150, l1151, l1152, l1153, l1154, l1155, l1156, l1157, l1158, l1159,
    h192, h205, h207, h212, mv_0, mv_1, mv_2, qm_00, qm_01, qm_02, qm_10, qm_11, qm_12, qm_20, qm_21, qm_22, jcol, jac, jm_00, jm_01, jm_02, jm_10, jm_11, jm_12, jm_20, jm_21, jm_22, side_1, th_1_0, th_1_1, th_1_2, segA, segB, segC, segD, segH, Pi.add_apply, cr_0, cr_1, cr_2, djm_0_00, djm_0_01, djm_0_02, djm_0_10, djm_0_11, djm_0_12, djm_0_20, djm_0_21, djm_0_22, qd_1_0, qd_1_1, qd_1_2, om_0, om_1, om_2] <;> ring
theorem e9_7 (x : Fin 36 → ℝ) : l1166 x = (quatMatrix (Qe x) *ᵥ jcol 1 0 x) 1 := by
  simp only [l193, l216, l218, l220, l222, l241, l1152, l1153, l1157, l1158, l1160, l1161, l1162, l1163, l1164, l1165, l1166,
    h192, h205, h207, h212, mv_0, mv_1, mv_2, qm_00, qm_01, qm_02, qm_10, qm_11, qm_12, qm_20, qm_21, qm_22, jcol, jac, jm_00, jm_01, jm_02, jm_10, jm_11, jm_12, jm_20, jm_21, jm_22, side_1, th_1_0, th_1_1, th_1_2, segA, segB, segC, segD, segH, Pi.add_apply, cr_0, cr_1, cr_2, djm_0_00, djm_0_01, djm_0_02, djm_0_10, djm_0_11, djm_0_12, djm_0_20, djm_0_21, djm_0_22, qd_1_0, qd_1_1, qd_1_2, om_0, om_1, om_2] <;> ring
theorem e9_8 (x : Fin 36 → ℝ) : l1170 x = (quatMatrix (Qe x) *ᵥ jcol 1 0 x) 2 := by
  simp only [l193, l208, l216, l218, l220, l222, l241, l1152, l1153, l1157, l1158, l1160, l1161, l1164, l1167, l1168, l1169,
    l1170, h192, h205, h207, h212, mv_0, mv_1, mv_2, qm_00, qm_01, qm_02, qm_10, qm_11, qm_12, qm_20, qm_21, qm_22, jcol, jac, jm_00, jm_01, jm_02, jm_10, jm_11, jm_12, jm_20, jm_21, jm_22, side_1, th_1_0, th_1_1, th_1_2, segA, segB, segC, segD, segH, Pi.add_apply, cr_0, cr_1, cr_2, djm_0_00, djm_0_01, djm_0_02, djm_0_10, djm_0_11, djm_0_12, djm_0_20, djm_0_21, djm_0_22, qd_1_0, qd_1_1, qd_1_2, om_0, om_1, om_2] <;> ring
theorem e9_9 (x : Fin 36 → ℝ) : l1192 x = (quatMatrix (Qe x) *ᵥ (djm (side 1) 0 (th 1 x) *ᵥ qd 1 x + cross (om x) (jcol 1 0 x))) 0 := by
  simp only [l216, l218, l220, l222, l259, l274, l1152, l1157, l1171, l1172, l1173, l1175, l1176, l1177, l1178, l1179, l1180,
    l1181, l1184, l1185, l1186, l1187, l1188, l1191, l1192, h258, h271, h273, h278, mv_0, mv_1, mv_2, qm_00, qm_01, qm_02, qm_10, qm_11, qm_12, qm_20, qm_21, qm_22, jcol, jac, jm_00, jm_01, jm_02, jm_10, jm_11, jm_12, jm_20, jm_21, jm_22, side_1, th_1_0, th_1_1, th_1_2, segA, segB, segC, segD, segH, Pi.add_apply, cr_0, cr_1, cr_2, djm_0_00, djm_0_01, djm_0_02, djm_0_10, djm_0_11, djm_0_12, djm_0_20, djm_0_21, djm_0_22, qd_1_0, qd_1_1, qd_1_2, om_0, om_1, om_2] <;> ring
theorem e9_10 (x : Fin 36 → ℝ) : l1199 x = (quatMatrix (Qe x) *ᵥ (djm (side 1) 0 (th 1 x) *ᵥ qd 1 x + cross (om x) (jcol 1 0 x))) 1 := by
  simp only [l216, l218, l220, l222, l259, l274, l342, l1152, l1157, l1175, l1176, l1177, l1178, l1179, l1180, l1182, l1184,
    l1185, l1186, l1191, l1193, l1194, l1195, l1197, l1198, l1199, h258, h271, h273, h278, mv_0, mv_1, mv_2, qm_00, qm_01, qm_02, qm_10, qm_11, qm_12, qm_20, qm_21, qm_22, jcol, jac, jm_00, jm_01, jm_02, jm_10, jm_11, jm_12, jm_20, jm_21, jm_22, side_1, th_1_0, th_1_1, th_1_2, segA, segB, segC, segD, segH, Pi.add_apply, cr_0, cr_1, cr_2, djm_0_00, djm_0_01, djm_0_02, djm_0_10, djm_0_11, djm_0_12, djm_0_20, djm_0_21, djm_0_22, qd_1_0, qd_1_1, qd_1_2, om_0, om_1, om_2] <;> ring
theorem e9_11 (x : Fin 36 → ℝ) : l1201 x = (quatMatrix (Qe x) *ᵥ (djm (side 1) 0 (th 1 x) *ᵥ qd 1 x + cross (om x) (jcol 1 0 x))) 2 := by
  simp only [l216, l218, l220, l222, l259, l274, l342, l1152, l1157, l1171, l1172, l1174, l1175, l1176, l1177, l1178, l1184,
    l1185, l1187, l1191, l1193, l1194, l1196, l1197, l1200, l1201, h258, h271, h273, h278, mv_0, mv_1, mv_2, qm_00, qm_01, qm_02, qm_10, qm_11, qm_12, qm_20, qm_21, qm_22, jcol, jac, jm_00, jm_01, jm_02, jm_10, jm_11, jm_12, jm_20, jm_21, jm_22, side_1, th_1_0, th_1_1, th_1_2, segA, segB, segC, segD, segH, Pi.add_apply, cr_0, cr_1, cr_2, djm_0_00, djm_0_01, djm_0_02, djm_0_10, djm_0_11, djm_0_12, djm_0_20, djm_0_21, djm_0_22, qd_1_0, qd_1_1, qd_1_2, om_0, om_1, om_2] <;> ring
theorem e10_6 (x : Fin 36 → ℝ) : l1214 x = (quatMatrix (Qe x) *ᵥ jcol 1 1 x) 0 := by
  simp only [l193, l208, l214, l215, l218, l219, l222, l223, l227, l228, l230, l232, l1149, l1150, l1151, l1154, l1155, l1156,
    l1163, l1167, l1208, l1209, l1210, l1211, l1212, l1213, l1214, h192, h205, h207, h212, mv_0, mv_1, mv_2, qm_00, qm_01, qm_02, qm_10, qm_11, qm_12, qm_20, qm_21, qm_22, jcol, jac, jm_00, jm_01, jm_02, jm_10, jm_11, jm_12, jm_20, jm_21, jm_22, side_1, th_1_0, th_1_1, th_1_2, segA, segB, segC, segD, segH, Pi.add_apply, cr_0, cr_1, cr_2, djm_1_00, djm_1_01, djm_1_02, djm_1_10, djm_1_11, djm_1_12, djm_1_20, djm_1_21, djm_1_22, qd_1_0, qd_1_1, qd_1_2, om_0, om_1, om_2] <;> ring
theorem e10_7 (x : Fin 36 → ℝ) : l1216 x = (quatMatrix (Qe x) *ᵥ jcol 1 1 x) 1 := by
  simp only [l193, l208, l214, l215, l218, l219, l222, l223, l227, l228, l230, l232, l241, l1154, l1155, l1160, l1161, l1162,
    l1163, l1164, l1165, l1208, l1209, l1210, l1211, l1213, l1215, l1216, h192, h205, h207, h212, mv_0, mv_1, mv_2, qm_00, qm_01, qm_02, qm_10, qm_11, qm_12, qm_20, qm_21, qm_22, jcol, jac, jm_00, jm_01, jm_02, jm_10, jm_11, jm_12, jm_20, jm_21, jm_22, side_1, th_1_0, th_1_1, th_1_2, segA, segB, segC, segD, segH, Pi.add_apply, cr_0, cr_1, cr_2, djm_1_00, djm_1_01, djm_1_02, djm_1_10, djm_1_11, djm_1_12, djm_1_20, djm_1_21, djm_1_22, qd_1_0, qd_1_1, qd_1_2, om_0, om_1, om_2] <;> ring
theorem e10_8 (x : Fin 36 → ℝ) : l1218 x = (quatMatrix (Qe x) *ᵥ jcol 1 1 x) 2 := by
  simp only [l193, l208, l214, l215, l218, l219, l222, l223, l227, l228, l230, l232, l241, l1149, l1150, l1160, l1161, l1164,
    l1167, l1168, l1169, l1208, l1209, l1210, l1211, l1213, l1217, l1218, h192, h205, h207, h212, mv_0, mv_1, mv_2, qm_00, qm_01, qm_02, qm_10, qm_11, qm_12, qm_20, qm_21, qm_22, jcol, jac, jm_00, jm_01, jm_02, jm_10, jm_11, jm_12, jm_20, jm_21, jm_22, side_1, th_1_0, th_1_1, th_1_2, segA, segB, segC, segD, segH, Pi.add_apply, cr_0, cr_1, cr_2, djm_1_00, djm_1_01, djm_1_02, djm_1_10, djm_1_11, djm_1_12, djm_1_20, djm_1_21, djm_1_22, qd_1_0, qd_1_1, qd_1_2, om_0, om_1, om_2] <;> ring
theorem e10_9 (x : Fin 36 → ℝ) : l1225 x = (quatMatrix (Qe x) *ᵥ (djm (side 1) 1 (th 1 x) *ᵥ qd 1 x + cross (om x) (jcol 1 1 x))) 0 := by
  simp only [l214, l218, l222, l227, l259, l274, l280, l282, l286, l288, l290, l292, l294, l296, l298, l300, l308, l310, l314,
    l316, l318, l320, l322, l324, l326, l328, l1171, l1172, l1173, l1179, l1180, l1181, l1186, l1187, l1188, l1208, l1209, l1219, l1220, l1221, l1222, l1223, l1224, l1225, h258, h271, h273, h278, mv_0, mv_1, mv_2, qm_00, qm_01, qm_02, qm_10, qm_11, qm_12, qm_20, qm_21, qm_22, jcol, jac, jm_00, jm_01, jm_02, jm_10, jm_11, jm_12, jm_20, jm_21, jm_22, side_1, th_1_0, th_1_1, th_1_2, segA, segB, segC, segD, segH, Pi.add_apply, cr_0, cr_1, cr_2, djm_1_00, djm_1_01, djm_1_02, djm_1_10, djm_1_11, djm_1_12, djm_1_20, djm_1_21, djm_1_22, qd_1_0, qd_1_1, qd_1_2, om_0, om_1, om_2] <;> ring
theorem e10_10 (x : Fin 36 → ℝ) : l1226 x = (quatMatrix (Qe x) *ᵥ (djm (side 1) 1 (th 1 x) *ᵥ qd 1 x + cross (om x) (jcol 1 1 x))) 1 := by
  simp only [l214, l218, l222, l227, l259, l274, l280, l282, l286, l288, l290, l292, l294, l296, l298, l300, l308, l310, l314,
    l316, l318, l320, l322, l324, l326, l328, l342, l1179, l1180, l1182, l1186, l1193, l1194, l1195, l1197, l1198, l1208, l1209, l1219, l1220, l1221, l1222, l1223, l1224, l1226, h258, h271, h273, h278, mv_0, mv_1, mv_2, qm_00, qm_01, qm_02, qm_10, qm_11, qm_12, qm_20, qm_21, qm_22, jcol, jac, jm_00, jm_01, jm_02, jm_10, jm_11, jm_12, jm_20, jm_21, jm_22, side_1, th_1_0, th_1_1, th_1_2, segA, segB, segC, segD, segH, Pi.add_apply, cr_0, cr_1, cr_2, djm_1_00, djm_1_01, djm_1_02, djm_1_10, djm_1_11, djm_1_12, djm_1_20, djm_1_21, djm_1_22, qd_1_0, qd_1_1, qd_1_2, om_0, om_1, om_2] <;> ring
theorem e10_11 (x : Fin 36 → ℝ) : l1227 x = (quatMatrix (Qe x) *ᵥ (djm (side 1) 1 (th 1 x) *ᵥ qd 1 x + cross (om x) (jcol 1 1 x))) 2 := by
  simp only [l214, l218, l222, l227, l259, l274, l280, l282, l286, l288, l290, l292, l294, l296, l298, l300, l308, l310, l314,
    l316, l318, l320, l322, l324, l326, l328, l342, l1171, l1172, l1174, l1187, l1193, l1194, l1196, l1197, l1200, l1208, l1209, l1219, l1220, l1221, l1222, l1223, l1224, l1227, h258, h271, h273, h278, mv_0, mv_1, mv_2, qm_00, qm_01, qm_02, qm_10, qm_11, qm_12, qm_20, qm_21, qm_22, jcol, jac, jm_00, jm_01, jm_02, jm_10, jm_11, jm_12, jm_20, jm_21, jm_22, side_1, th_1_0, th_1_1, th_1_2, segA, segB, segC, segD, segH, Pi.add_apply, cr_0, cr_1, cr_2, djm_1_00, djm_1_01, djm_1_02, djm_1_10, djm_1_11, djm_1_12, djm_1_20, djm_1_21, djm_1_22, qd_1_0, qd_1_1, qd_1_2, om_0, om_1, om_2] <;> ring
theorem e11_6 (x : Fin 36 → ℝ) : l1233 x = (quatMatrix (Qe x) *ᵥ jcol 1 2 x) 0 := by
  simp only [l193, l208, l214, l215, l216, l217, l219, l220, l221, l227, l228, l229, l230, l231, l236, l237, l1149, l1150, l1151,
    l1154, l1155, l1156, l1163, l1167, l1212, l1228, l1229, l1230, l1231, l1232, l1233, h192, h205, h207, h212, mv_0, mv_1, mv_2, qm_00, qm_01, qm_02, qm_10, qm_11, qm_12, qm_20, qm_21, qm_22, jcol, jac, jm_00, jm_01, jm_02, jm_10, jm_11, jm_12, jm_20, jm_21, jm_22, side_1, th_1_0, th_1_1, th_1_2, segA, segB, segC, segD, segH, Pi.add_apply, cr_0, cr_1, cr_2, djm_2_00, djm_2_01, djm_2_02, djm_2_10, djm_2_11, djm_2_12, djm_2_20, djm_2_21, djm_2_22, qd_1_0, qd_1_1, qd_1_2, om_0, om_1, om_2] <;> ring
theorem e11_7 (x : Fin 36 → ℝ) : l1234 x = (quatMatrix (Qe x) *ᵥ jcol 1 2 x) 1 := by
  simp only [l193, l208, l214, l215, l216, l217, l219, l220, l221, l227, l228, l229, l230, l231, l236, l237, l241, l1154, l1155,
    l1160, l1161, l1162, l1163, l1164, l1165, l1215, l1228, l1229, l1230, l1231, l1232, l1234, h192, h205, h207, h212, mv_0, mv_1, mv_2, qm_00, qm_01, qm_02, qm_10, qm_11, qm_12, qm_20, qm_21, qm_22, jcol, jac, jm_00, jm_01, jm_02, jm_10, jm_11, jm_12, jm_20, jm_21, jm_22, side_1, th_1_0, th_1_1, th_1_2, segA, segB, segC, segD, segH, Pi.add_apply, cr_0, cr_1, cr_2, djm_2_00, djm_2_01, djm_2_02, djm_2_10, djm_2_11, djm_2_12, djm_2_20, djm_2_21, djm_2_22, qd_1_0, qd_1_1, qd_1_2, om_0, om_1, om_2] <;> ring
theorem e11_8 (x : Fin 36 → ℝ) : l1235 x = (quatMatrix (Qe x) *ᵥ jcol 1 2 x) 2 := by
  simp only [l193, l208, l214, l215, l216, l217, l219, l220, l221, l227, l228, l229, l230, l231, l236, l237, l241, l1149, l1150,
    l1160, l1161, l1164, l1167, l1168, l1169, l1217, l1228, l1229, l1230, l1231, l1232, l1235, h192, h205, h207, h212, mv_0, mv_1, mv_2, qm_00, qm_01, qm_02, qm_10, qm_11, qm_12, qm_20, qm_21, qm_22, jcol, jac, jm_00, jm_01, jm_02, jm_10, jm_11, jm_12, jm_20, jm_21, jm_22, side_1, th_1_0, th_1_1, th_1_2, segA, segB, segC, segD, segH, Pi.add_apply, cr_0, cr_1, cr_2, djm_2_00, djm_2_01, djm_2_02, djm_2_10, djm_2_11, djm_2_12, djm_2_20, djm_2_21, djm_2_22, qd_1_0, qd_1_1, qd_1_2, om_0, om_1, om_2] <;> ring
theorem e11_9 (x : Fin 36 → ℝ) : l1242 x = (quatMatrix (Qe x) *ᵥ (djm (side 1) 2 (th 1 x) *ᵥ qd 1 x + cross (om x) (jcol 1 2 x))) 0 := by
  simp only [l214, l216, l220, l227, l259, l274, l280, l281, l282, l283, l285, l286, l287, l290, l291, l292, l293, l296, l297,
    l298, l299, l302, l303, l308, l309, l310, l311, l313, l314, l315, l318, l319, l320, l321, l324, l325, l326, l327, l333, l334, l336, l337, l1171, l1172, l1173, l1179, l1180, l1181, l1186, l1187, l1188, l1228, l1229, l1236, l1237, l1238, l1239, l1240, l1241, l1242, h258, h271, h273, h278, mv_0, mv_1, mv_2, qm_00, qm_01, qm_02, qm_10, qm_11, qm_12, qm_20, qm_21, qm_22, jcol, jac, jm_00, jm_01, jm_02, jm_10, jm_11, jm_12, jm_20, jm_21, jm_22, side_1, th_1_0, th_1_1, th_1_2, segA, segB, segC, segD, segH, Pi.add_apply, cr_0, cr_1, cr_2, djm_2_00, djm_2_01, djm_2_02, djm_2_10, djm_2_11, djm_2_12, djm_2_20, djm_2_21, djm_2_22, qd_1_0, qd_1_1, qd_1_2, om_0, om_1, om_2] <;> ring
theorem e11_10 (x : Fin 36 → ℝ) : l1243 x = (quatMatrix (Qe x) *ᵥ (djm (side 1) 2 (th 1 x) *ᵥ qd 1 x + cross (om x) (jcol 1 2 x))) 1 := by
  simp only [l214, l216, l220, l227, l259, l274, l280, l281, l282, l283, l285, l286, l287, l290, l291, l292, l293, l296, l297,
    l298, l299, l302, l303, l308, l309, l310, l311, l313, l314, l315, l318, l319, l320, l321, l324, l325, l326, l327, l333, l334, l336, l337, l342, l1179, l1180, l1182, l1186, l1193, l1194, l1195, l1197, l1198, l1228, l1229, l1236, l1237, l1238, l1239, l1240, l1241, l1243, h258, h271, h273, h278, mv_0, mv_1, mv_2, qm_00, qm_01, qm_02, qm_10, qm_11, qm_12, qm_20, qm_21, qm_22, jcol, jac, jm_00, jm_01, jm_02, jm_10, jm_11, jm_12, jm_20, jm_21, jm_22, side_1, th_1_0, th_1_1, th_1_2, segA, segB, segC, segD, segH, Pi.add_apply, cr_0, cr_1, cr_2, djm_2_00, djm_2_01, djm_2_02, djm_2_10, djm_2_11, djm_2_12, djm_2_20, djm_2_21, djm_2_22, qd_1_0, qd_1_1, qd_1_2, om_0, om_1, om_2] <;> ring
theorem e11_11 (x : Fin 36 → ℝ) : l1244 x = (quatMatrix (Qe x) *ᵥ (djm (side 1) 2 (th 1 x) *ᵥ qd 1 x + cross (om x) (jcol 1 2 x))) 2 := by
  simp only [l214, l216, l220, l227, l259, l274, l280, l281, l282, l283, l285, l286, l287, l290, l291, l292, l293, l296, l297,
    l298, l299, l302, l303, l308, l309, l310, l311, l313, l314, l315, l318, l319, l320, l321, l324, l325, l326, l327, l333, l334, l336, l337, l342, l1171, l1172, l1174, l1187, l1193, l1194, l1196, l1197, l1200, l1228, l1229, l1236, l1237, l1238, l1239, l1240, l1241, l1244, h258, h271, h273, h278, mv_0, mv_1, mv_2, qm_00, qm_01, qm_02, qm_10, qm_11, qm_12, qm_20, qm_21, qm_22, jcol, jac, jm_00, jm_01, jm_02, jm_10, jm_11, jm_12, jm_20, jm_21, jm_22, side_1, th_1_0, th_1_1, th_1_2, segA, segB, segC, segD, segH, Pi.add_apply, cr_0, cr_1, cr_2, djm_2_00, djm_2_01, djm_2_02, djm_2_10, djm_2_11, djm_2_12, djm_2_20, djm_2_21, djm_2_22, qd_1_0, qd_1_1, qd_1_2, om_0, om_1, om_2] <;> ring
theorem e12_6 (_x : Fin 36 → ℝ) : (0 : ℝ) = ((0 : V3)) 0 := by simp [Pi.zero_apply]
theorem e12_7 (_x : Fin 36 → ℝ) : (0 : ℝ) = ((0 : V3)) 1 := by simp [Pi.zero_apply]
theorem e12_8 (_x : Fin 36 → ℝ) : (0 : ℝ) = ((0 : V3)) 2 := by simp [Pi.zero_apply]
theorem e12_9 (_x : Fin 36 → ℝ) : (0 : ℝ) = ((0 : V3)) 0 := by simp [Pi.zero_apply]
theorem e12_10 (_x : Fin 36 → ℝ) : (0 : ℝ) = ((0 : V3)) 1 := by simp [Pi.zero_apply]
theorem e12_11 (_x : Fin 36 → ℝ) : (0 : ℝ) = ((0 : V3)) 2 := by simp [Pi.zero_apply]
theorem e13_6 (_x : Fin 36 → ℝ) : (0 : ℝ) = ((0 : V3)) 0 := by simp [Pi.zero_apply]
theorem e13_7 (_x : Fin 36 → ℝ) : (0 : ℝ) = ((0 : V3)) 1 := by simp [Pi.zero_apply]
theorem e13_8 (_x : Fin 36 → ℝ) : (0 : ℝ) = ((0 : V3)) 2 := by simp [Pi.zero_apply]
theorem e13_9 (_x : Fin 36 → ℝ) : (0 : ℝ) = ((0 : V3)) 0 := by simp [Pi.zero_apply]
theorem e13_10 (_x : Fin 36 → ℝ) : (0 : ℝ) = ((0 : V3)) 1 := by simp [Pi.zero_apply]
theorem e13_11 (_x : Fin 36 → ℝ) : (0 : ℝ) = ((0 : V3)) 2 := by simp [Pi.zero_apply]
theorem e14_6 (_x : Fin 36 → ℝ) : (0 : ℝ) = ((0 : V3)) 0 := by simp [Pi.zero_apply]
theorem e14_7 (_x : Fin 36 → ℝ) : (0 : ℝ) = ((0 : V3)) 1 := by simp [Pi.zero_apply]
theorem e14_8 (_x : Fin 36 → ℝ) : (0 : ℝ) = ((0 : V3)) 2 := by simp [Pi.zero_apply]
theorem e14_9 (_x : Fin 36 → ℝ) : (0 : ℝ) = ((0 : V3)) 0 := by simp [Pi.zero_apply]
theorem e14_10 (_x : Fin 36 → ℝ) : (0 : ℝ) = ((0 : V3)) 1 := by simp [Pi.zero_apply]
theorem e14_11 (_x : Fin 36 → ℝ) : (0 : ℝ) = ((0 : V3)) 2 := by simp [Pi.zero_apply]
theorem e15_6 (_x : Fin 36 → ℝ) : (0 : ℝ) = ((0 : V3)) 0 := by simp [Pi.zero_apply]
theorem e15_7 (_x : Fin 36 → ℝ) : (0 : ℝ) = ((0 : V3)) 1 := by simp [Pi.zero_apply]
theorem e15_8 (_x : Fin 36 → ℝ) : (0 : ℝ) = ((0 : V3)) 2 := by simp [Pi.zero_apply]
theorem e15_9 (_x : Fin 36 → ℝ) : (0 : ℝ) = ((0 : V3)) 0 := by simp [Pi.zero_apply]
theorem e15_10 (_x : Fin 36 → ℝ) : (0 : ℝ) = ((0 : V3)) 1 := by simp [Pi.zero_apply]
theorem e15_11 (_x : Fin 36 → ℝ) : (0 : ℝ) = ((0 : V3)) 2 := by simp [Pi.zero_apply]
theorem e16_6 (_x : Fin 36 → ℝ) : (0 : ℝ) = ((0 : V3)) 0 := by simp [Pi.zero_apply]
theorem e16_7 (_x : Fin 36 → ℝ) : (0 : ℝ) = ((0 : V3)) 1 := by simp [Pi.zero_apply]
theorem e16_8 (_x : Fin 36 → ℝ) : (0 : ℝ) = ((0 : V3)) 2 := by simp [Pi.zero_apply]
theorem e16_9 (_x : Fin 36 → ℝ) : (0 : ℝ) = ((0 : V3)) 0 := by simp [Pi.zero_apply]
theorem e16_10 (_x : Fin 36 → ℝ) : (0 : ℝ) = ((0 : V3)) 1 := by simp [Pi.zero_apply]
theorem e16_11 (_x : Fin 36 → ℝ) : (0 : ℝ) = ((0 : V3)) 2 := by simp [Pi.zero_apply]
theorem e17_6 (_x : Fin 36 → ℝ) : (0 : ℝ) = ((0 : V3)) 0 := by simp [Pi.zero_apply]
theorem e17_7 (_x : Fin 36 → ℝ) : (0 : ℝ) = ((0 : V3)) 1 := by simp [Pi.zero_apply]
theorem e17_8 (_x : Fin 36 → ℝ) : (0 : ℝ) = ((0 : V3)) 2 := by simp [Pi.zero_apply]
theorem e17_9 (_x : Fin 36 → ℝ) : (0 : ℝ) = ((0 : V3)) 0 := by simp [Pi.zero_apply]
theorem e17_10 (_x : Fin 36 → ℝ) : (0 : ℝ) = ((0 : V3)) 1 := by simp [Pi.zero_apply]
theorem e17_11 (_x : Fin 36 → ℝ) : (0 : ℝ) = ((0 : V3)) 2 := by simp [Pi.zero_apply]
theorem e18_6 (_x : Fin 36 → ℝ) : (0 : ℝ) = ((0 : V3)) 0 := by simp [Pi.zero_apply]
theorem e18_7 (_x : Fin 36 → ℝ) : (0 : ℝ) = ((0 : V3)) 1 := by simp [Pi.zero_apply]
theorem e18_8 (_x : Fin 36 → ℝ) : (0 : ℝ) = ((0 : V3)) 2 := by simp [Pi.zero_apply]
theorem e18_9 (x : Fin 36 → ℝ) : l1443 x = (quatMatrix (Qe x) *ᵥ cross (Pi.single 0 1) (foot 1 x)) 0 := by
  simp only [l214, l216, l218, l220, l222, l227, l259, l274, l296, l297, l298, l299, l300, l301, l324, l325, l326, l327, l328,
    l329, l1171, l1172, l1173, l1179, l1180, l1181, l1442, l1443, h258, h271, h273, h278, mv_0, mv_1, mv_2, qm_00, qm_01, qm_02, qm_10, qm_11, qm_12, qm_20, qm_21, qm_22, cr_0, cr_1, cr_2, E_0_0, E_0_1, E_0_2, foot, pv_0, pv_1, pv_2, side_1, mountX_1, mountY_1, th_1_0, th_1_1, th_1_2, segA, segB, segC, segD, segH] <;> ring
theorem e18_10 (x : Fin 36 → ℝ) : l1444 x = (quatMatrix (Qe x) *ᵥ cross (Pi.single 0 1) (foot 1 x)) 1 := by
  simp only [l214, l216, l218, l220, l222, l227, l259, l296, l297, l298, l299, l300, l301, l324, l325, l326, l327, l328, l329,
    l342, l1186, l1193, l1194, l1195, l1197, l1198, l1442, l1444, h258, h271, h273, h278, mv_0, mv_1, mv_2, qm_00, qm_01, qm_02, qm_10, qm_11, qm_12, qm_20, qm_21, qm_22, cr_0, cr_1, cr_2, E_0_0, E_0_1, E_0_2, foot, pv_0, pv_1, pv_2, side_1, mountX_1, mountY_1, th_1_0, th_1_1, th_1_2, segA, segB, segC, segD, segH] <;> ring
theorem e18_11 (x : Fin 36 → ℝ) : l1445 x = (quatMatrix (Qe x) *ᵥ cross (Pi.single 0 1) (foot 1 x)) 2 := by
  simp only [l214, l216, l218, l220, l222, l227, l259, l274, l296, l297, l298, l299, l300, l301, l324, l325, l326, l327, l328,
    l329, l342, l1187, l1193, l1194, l1196, l1197, l1200, l1442, l1445, h258, h271, h273, h278, mv_0, mv_1, mv_2, qm_00, qm_01, qm_02, qm_10, qm_11, qm_12, qm_20, qm_21, qm_22, cr_0, cr_1, cr_2, E_0_0, E_0_1, E_0_2, foot, pv_0, pv_1, pv_2, side_1, mountX_1, mountY_1, th_1_0, th_1_1, th_1_2, segA, segB, segC, segD, segH] <;> ring
theorem e19_6 (_x : Fin 36 → ℝ) : (0 : ℝ) = ((0 : V3)) 0 := by simp [Pi.zero_apply]
theorem e19_7 (_x : Fin 36 → ℝ) : (0 : ℝ) = ((0 : V3)) 1 := by simp [Pi.zero_apply]
theorem e19_8 (_x : Fin 36 → ℝ) : (0 : ℝ) = ((0 : V3)) 2 := by simp [Pi.zero_apply]
theorem e19_9 (x : Fin 36 → ℝ) : l1459 x = (quatMatrix (Qe x) *ᵥ cross (Pi.single 1 1) (foot 1 x)) 0 := by
  simp only [l214, l216, l218, l220, l222, l259, l274, l302, l303, l304, l324, l325, l326, l327, l328, l329, l1171, l1172, l1173,
    l1186, l1187, l1188, l1458, l1459, h258, h271, h273, h278, mv_0, mv_1, mv_2, qm_00, qm_01, qm_02, qm_10, qm_11, qm_12, qm_20, qm_21, qm_22, cr_0, cr_1, cr_2, E_1_0, E_1_1, E_1_2, foot, pv_0, pv_1, pv_2, side_1, mountX_1, mountY_1, th_1_0, th_1_1, th_1_2, segA, segB, segC, segD, segH] <;> ring
theorem e19_10 (x : Fin 36 → ℝ) : l1460 x = (quatMatrix (Qe x) *ᵥ cross (Pi.single 1 1) (foot 1 x)) 1 := by
  simp only [l214, l216, l218, l220, l222, l259, l274, l302, l303, l304, l324, l325, l326, l327, l328, l329, l342, l1179, l1180,
    l1182, l1193, l1194, l1195, l1458, l1460, h258, h271, h273, h278, mv_0, mv_1, mv_2, qm_00, qm_01, qm_02, qm_10, qm_11, qm_12, qm_20, qm_21, qm_22, cr_0, cr_1, cr_2, E_1_0, E_1_1, E_1_2, foot, pv_0, pv_1, pv_2, side_1, mountX_1, mountY_1, th_1_0, th_1_1, th_1_2, segA, segB, segC, segD, segH] <;> ring
theorem e19_11 (x : Fin 36 → ℝ) : l1461 x = (quatMatrix (Qe x) *ᵥ cross (Pi.single 1 1) (foot 1 x)) 2 := by
  simp only [l214, l216, l218, l220, l222, l259, l274, l302, l303, l304, l324, l325, l326, l327, l328, l329, l342, l1171, l1172,
    l1174, l1187, l1197, l1200, l1458, l1461, h258, h271, h273, h278, mv_0, mv_1, mv_2, qm_00, qm_01, qm_02, qm_10, qm_11, qm_12, qm_20, qm_21, qm_22, cr_0, cr_1, cr_2, E_1_0, E_1_1, E_1_2, foot, pv_0, pv_1, pv_2, side_1, mountX_1, mountY_1, th_1_0, th_1_1, th_1_2, segA, segB, segC, segD, segH] <;> ring
theorem e20_6 (_x : Fin 36 → ℝ) : (0 : ℝ) = ((0 : V3)) 0 := by simp [Pi.zero_apply]
theorem e20_7 (_x : Fin 36 → ℝ) : (0 : ℝ) = ((0 : V3)) 1 := by simp [Pi.zero_apply]
theorem e20_8 (_x : Fin 36 → ℝ) : (0 : ℝ) = ((0 : V3)) 2 := by simp [Pi.zero_apply]
theorem e20_9 (x : Fin 36 → ℝ) : l1475 x = (quatMatrix (Qe x) *ᵥ cross (Pi.single 2 1) (foot 1 x)) 0 := by
  simp only [l216, l218, l220, l222, l227, l259, l274, l296, l297, l298, l299, l300, l301, l302, l303, l304, l1179, l1180, l1181,
    l1186, l1187, l1188, l1474, l1475, h258, h271, h273, h278, mv_0, mv_1, mv_2, qm_00, qm_01, qm_02, qm_10, qm_11, qm_12, qm_20, qm_21, qm_22, cr_0, cr_1, cr_2, E_2_0, E_2_1, E_2_2, foot, pv_0, pv_1, pv_2, side_1, mountX_1, mountY_1, th_1_0, th_1_1, th_1_2, segA, segB, segC, segD, segH] <;> ring
theorem e20_10 (x : Fin 36 → ℝ) : l1476 x = (quatMatrix (Qe x) *ᵥ cross (Pi.single 2 1) (foot 1 x)) 1 := by
  simp only [l216, l218, l220, l222, l227, l259, l274, l296, l297, l298, l299, l300, l301, l302, l303, l304, l342, l1179, l1180,
    l1182, l1186, l1197, l1198, l1474, l1476, h258, h271, h273, h278, mv_0, mv_1, mv_2, qm_00, qm_01, qm_02, qm_10, qm_11, qm_12, qm_20, qm_21, qm_22, cr_0, cr_1, cr_2, E_2_0, E_2_1, E_2_2, foot, pv_0, pv_1, pv_2, side_1, mountX_1, mountY_1, th_1_0, th_1_1, th_1_2, segA, segB, segC, segD, segH] <;> ring
theorem e20_11 (x : Fin 36 → ℝ) : l1477 x = (quatMatrix (Qe x) *ᵥ cross (Pi.single 2 1) (foot 1 x)) 2 := by
  simp only [l216, l218, l220, l222, l227, l259, l274, l296, l297, l298, l299, l300, l301, l302, l303, l304, l342, l1171, l1172,
    l1174, l1193, l1194, l1196, l1474, l1477, h258, h271, h273, h278, mv_0, mv_1, mv_2, qm_00, qm_01, qm_02, qm_10, qm_11, qm_12, qm_20, qm_21, qm_22, cr_0, cr_1, cr_2, E_2_0, E_2_1, E_2_2, foot, pv_0, pv_1, pv_2, side_1, mountX_1, mountY_1, th_1_0, th_1_1, th_1_2, segA, segB, segC, segD, segH] <;> ring
theorem e21_6 (_x : Fin 36 → ℝ) : (0 : ℝ) = ((0 : V3)) 0 := by simp [Pi.zero_apply]
theorem e21_7 (_x : Fin 36 → ℝ) : (0 : ℝ) = ((0 : V3)) 1 := by simp [Pi.zero_apply]
theorem e21_8 (_x : Fin 36 → ℝ) : (0 : ℝ) = ((0 : V3)) 2 := by simp [Pi.zero_apply]
theorem e21_9 (x : Fin 36 → ℝ) : l1188 x = (quatMatrix (Qe x) *ᵥ Pi.single 0 1) 0 := by
  simp only [l259, l274, l1186, l1187, l1188, h258, h273, mv_0, mv_1, mv_2, qm_00, qm_01, qm_02, qm_10, qm_11, qm_12, qm_20,
    qm_21, qm_22, E_0_0, E_0_1, E_0_2] <;> ring
theorem e21_10 (x : Fin 36 → ℝ) : l1182 x = (quatMatrix (Qe x) *ᵥ Pi.single 0 1) 1 := by
  simp only [l259, l274, l1179, l1180, l1182, h258, h271, h273, h278, mv_0, mv_1, mv_2, qm_00, qm_01, qm_02, qm_10, qm_11, qm_12,
    qm_20, qm_21, qm_22, E_0_0, E_0_1, E_0_2] <;> ring
theorem e21_11 (x : Fin 36 → ℝ) : l1174 x = (quatMatrix (Qe x) *ᵥ Pi.single 0 1) 2 := by
  simp only [l259, l274, l1171, l1172, l1174, h258, h271, h273, h278, mv_0, mv_1, mv_2, qm_00, qm_01, qm_02, qm_10, qm_11, qm_12,
    qm_20, qm_21, qm_22, E_0_0, E_0_1, E_0_2] <;> ring
theorem e22_6 (_x : Fin 36 → ℝ) : (0 : ℝ) = ((0 : V3)) 0 := by simp [Pi.zero_apply]
theorem e22_7 (_x : Fin 36 → ℝ) : (0 : ℝ) = ((0 : V3)) 1 := by simp [Pi.zero_apply]
theorem e22_8 (_x : Fin 36 → ℝ) : (0 : ℝ) = ((0 : V3)) 2 := by simp [Pi.zero_apply]
theorem e22_9 (x : Fin 36 → ℝ) : l1181 x = (quatMatrix (Qe x) *ᵥ Pi.single 1 1) 0 := by
  simp only [l259, l274, l1179, l1180, l1181, h258, h271, h273, h278, mv_0, mv_1, mv_2, qm_00, qm_01, qm_02, qm_10, qm_11, qm_12,
    qm_20, qm_21, qm_22, E_1_0, E_1_1, E_1_2] <;> ring
theorem e22_10 (x : Fin 36 → ℝ) : l1198 x = (quatMatrix (Qe x) *ᵥ Pi.single 1 1) 1 := by
  simp only [l259, l342, l1186, l1197, l1198, h258, h271, mv_0, mv_1, mv_2, qm_00, qm_01, qm_02, qm_10, qm_11, qm_12, qm_20,
    qm_21, qm_22, E_1_0, E_1_1, E_1_2] <;> ring
theorem e22_11 (x : Fin 36 → ℝ) : l1196 x = (quatMatrix (Qe x) *ᵥ Pi.single 1 1) 2 := by
  simp only [l259, l342, l1193, l1194, l1196, h258, h271, h273, h278, mv_0, mv_1, mv_2, qm_00, qm_01, qm_02, qm_10, qm_11, qm_12,
    qm_20, qm_21, qm_22, E_1_0, E_1_1, E_1_2] <;> ring
theorem e23_6 (_x : Fin 36 → ℝ) : (0 : ℝ) = ((0 : V3)) 0 := by simp [Pi.zero_apply]
theorem e23_7 (_x : Fin 36 → ℝ) : (0 : ℝ) = ((0 : V3)) 1 := by simp [Pi.zero_apply]
theorem e23_8 (_x : Fin 36 → ℝ) : (0 : ℝ) = ((0 : V3)) 2 := by simp [Pi.zero_apply]
theorem e23_9 (x : Fin 36 → ℝ) : l1173 x = (quatMatrix (Qe x) *ᵥ Pi.single 2 1) 0 := by
  simp only [l259, l274, l1171, l1172, l1173, h258, h271, h273, h278, mv_0, mv_1, mv_2, qm_00, qm_01, qm_02, qm_10, qm_11, qm_12,
    qm_20, qm_21, qm_22, E_2_0, E_2_1, E_2_2] <;> ring
theorem e23_10 (x : Fin 36 → ℝ) : l1195 x = (quatMatrix (Qe x) *ᵥ Pi.single 2 1) 1 := by
  simp only [l259, l342, l1193, l1194, l1195, h258, h271, h273, h278, mv_0, mv_1, mv_2, qm_00, qm_01, qm_02, qm_10, qm_11, qm_12,
    qm_20, qm_21, qm_22, E_2_0, E_2_1, E_2_2] <;> ring
theorem e23_11 (x : Fin 36 → ℝ) : l1200 x = (quatMatrix (Qe x) *ᵥ Pi.single 2 1) 2 := by
  simp only [l274, l342, l1187, l1197, l1200, h271, h273, mv_0, mv_1, mv_2, qm_00, qm_01, qm_02, qm_10, qm_11, qm_12, qm_20,
    qm_21, qm_22, E_2_0, E_2_1, E_2_2] <;> ring
theorem e24_6 (_x : Fin 36 → ℝ) : (0 : ℝ) = ((0 : V3)) 0 := by simp [Pi.zero_apply]
theorem e24_7 (_x : Fin 36 → ℝ) : (0 : ℝ) = ((0 : V3)) 1 := by simp [Pi.zero_apply]
theorem e24_8 (_x : Fin 36 → ℝ) : (0 : ℝ) = ((0 : V3)) 2 := by simp [Pi.zero_apply]
theorem e24_9 (_x : Fin 36 → ℝ) : (0 : ℝ) = ((0 : V3)) 0 := by simp [Pi.zero_apply]
theorem e24_10 (_x : Fin 36 → ℝ) : (0 : ℝ) = ((0 : V3)) 1 := by simp [Pi.zero_apply]
theorem e24_11 (_x : Fin 36 → ℝ) : (0 : ℝ) = ((0 : V3)) 2 := by simp [Pi.zero_apply]
theorem e25_6 (_x : Fin 36 → ℝ) : (0 : ℝ) = ((0 : V3)) 0 := by simp [Pi.zero_apply]
theorem e25_7 (_x : Fin 36 → ℝ) : (0 : ℝ) = ((0 : V3)) 1 := by simp [Pi.zero_apply]
theorem e25_8 (_x : Fin 36 → ℝ) : (0 : ℝ) = ((0 : V3)) 2 := by simp [Pi.zero_apply]
theorem e25_9 (_x : Fin 36 → ℝ) : (0 : ℝ) = ((0 : V3)) 0 := by simp [Pi.zero_apply]
theorem e25_10 (_x : Fin 36 → ℝ) : (0 : ℝ) = ((0 : V3)) 1 := by simp [Pi.zero_apply]
theorem e25_11 (_x : Fin 36 → ℝ) : (0 : ℝ) = ((0 : V3)) 2 := by simp [Pi.zero_apply]
theorem e26_6 (_x : Fin 36 → ℝ) : (0 : ℝ) = ((0 : V3)) 0 := by simp [Pi.zero_apply]
theorem e26_7 (_x : Fin 36 → ℝ) : (0 : ℝ) = ((0 : V3)) 1 := by simp [Pi.zero_apply]
theorem e26_8 (_x : Fin 36 → ℝ) : (0 : ℝ) = ((0 : V3)) 2 := by simp [Pi.zero_apply]
theorem e26_9 (_x : Fin 36 → ℝ) : (0 : ℝ) = ((0 : V3)) 0 := by simp [Pi.zero_apply]
theorem e26_10 (_x : Fin 36 → ℝ) : (0 : ℝ) = ((0 : V3)) 1 := by simp [Pi.zero_apply]
theorem e26_11 (_x : Fin 36 → ℝ) : (0 : ℝ) = ((0 : V3)) 2 := by simp [Pi.zero_apply]
theorem e27_6 (_x : Fin 36 → ℝ) : (0 : ℝ) = ((0 : V3)) 0 := by simp [Pi.zero_apply]
theorem e27_7 (_x : Fin 36 → ℝ) : (0 : ℝ) = ((0 : V3)) 1 := by simp [Pi.zero_apply]
theorem e27_8 (_x : Fin 36 → ℝ) : (0 : ℝ) = ((0 : V3)) 2 := by simp [Pi.zero_apply]
theorem e27_9 (x : Fin 36 → ℝ) : l1183 x = (quatMatrix (Qe x) *ᵥ jcol 1 0 x) 0 := by
  simp only [l214, l216, l218, l220, l222, l227, l259, l274, l290, l291, l292, l293, l294, l295, l318, l319, l320, l321, l322,
    l323, l1171, l1172, l1173, l1179, l1180, l1181, l1183, h258, h271, h273, h278, mv_0, mv_1, mv_2, qm_00, qm_01, qm_02, qm_10, qm_11, qm_12, qm_20, qm_21, qm_22, jcol, jac, jm_00, jm_01, jm_02, jm_10, jm_11, jm_12, jm_20, jm_21, jm_22, side_1, th_1_0, th_1_1, th_1_2, segA, segB, segC, segD, segH] <;> ring
theorem e27_10 (x : Fin 36 → ℝ) : l1202 x = (quatMatrix (Qe x) *ᵥ jcol 1 0 x) 1 := by
  simp only [l214, l216, l218, l220, l222, l227, l259, l290, l291, l292, l293, l294, l295, l318, l319, l320, l321, l322, l323,
    l342, l1186, l1193, l1194, l1195, l1197, l1198, l1202, h258, h271, h273, h278, mv_0, mv_1, mv_2, qm_00, qm_01, qm_02, qm_10, qm_11, qm_12, qm_20, qm_21, qm_22, jcol, jac, jm_00, jm_01, jm_02, jm_10, jm_11, jm_12, jm_20, jm_21, jm_22, side_1, th_1_0, th_1_1, th_1_2, segA, segB, segC, segD, segH] <;> ring
theorem e27_11 (x : Fin 36 → ℝ) : l1203 x = (quatMatrix (Qe x) *ᵥ jcol 1 0 x) 2 := by
  simp only [l214, l216, l218, l220, l222, l227, l259, l274, l290, l291, l292, l293, l294, l295, l318, l319, l320, l321, l322,
    l323, l342, l1187, l1193, l1194, l1196, l1197, l1200, l1203, h258, h271, h273, h278, mv_0, mv_1, mv_2, qm_00, qm_01, qm_02, qm_10, qm_11, qm_12, qm_20, qm_21, qm_22, jcol, jac, jm_00, jm_01, jm_02, jm_10, jm_11, jm_12, jm_20, jm_21, jm_22, side_1, th_1_0, th_1_1, th_1_2, segA, segB, segC, segD, segH] <;> ring
theorem e28_6 (_x : Fin 36 → ℝ) : (0 : ℝ) = ((0 : V3)) 0 := by simp [Pi.zero_apply]
theorem e28_7 (_x : Fin 36 → ℝ) : (0 : ℝ) = ((0 : V3)) 1 := by simp [Pi.zero_apply]
theorem e28_8 (_x : Fin 36 → ℝ) : (0 : ℝ) = ((0 : V3)) 2 := by simp [Pi.zero_apply]
theorem e28_9 (x : Fin 36 → ℝ) : l1189 x = (quatMatrix (Qe x) *ᵥ jcol 1 1 x) 0 := by
  simp only [l214, l216, l218, l220, l222, l227, l259, l274, l280, l285, l286, l287, l288, l289, l292, l313, l314, l315, l316,
    l317, l336, l337, l338, l1171, l1172, l1173, l1179, l1180, l1181, l1186, l1187, l1188, l1189, h258, h271, h273, h278, mv_0, mv_1, mv_2, qm_00, qm_01, qm_02, qm_10, qm_11, qm_12, qm_20, qm_21, qm_22, jcol, jac, jm_00, jm_01, jm_02, jm_10, jm_11, jm_12, jm_20, jm_21, jm_22, side_1, th_1_0, th_1_1, th_1_2, segA, segB, segC, segD, segH] <;> ring
theorem e28_10 (x : Fin 36 → ℝ) : l1204 x = (quatMatrix (Qe x) *ᵥ jcol 1 1 x) 1 := by
  simp only [l214, l216, l218, l220, l222, l227, l259, l274, l280, l285, l286, l287, l288, l289, l292, l313, l314, l315, l316,
    l317, l336, l337, l338, l342, l1179, l1180, l1182, l1186, l1193, l1194, l1195, l1197, l1198, l1204, h258, h271, h273, h278, mv_0, mv_1, mv_2, qm_00, qm_01, qm_02, qm_10, qm_11, qm_12, qm_20, qm_21, qm_22, jcol, jac, jm_00, jm_01, jm_02, jm_10, jm_11, jm_12, jm_20, jm_21, jm_22, side_1, th_1_0, th_1_1, th_1_2, segA, segB, segC, segD, segH] <;> ring
theorem e28_11 (x : Fin 36 → ℝ) : l1205 x = (quatMatrix (Qe x) *ᵥ jcol 1 1 x) 2 := by
  simp only [l214, l216, l218, l220, l222, l227, l259, l274, l280, l285, l286, l287, l288, l289, l292, l313, l314, l315, l316,
    l317, l336, l337, l338, l342, l1171, l1172, l1174, l1187, l1193, l1194, l1196, l1197, l1200, l1205, h258, h271, h273, h278, mv_0, mv_1, mv_2, qm_00, qm_01, qm_02, qm_10, qm_11, qm_12, qm_20, qm_21, qm_22, jcol, jac, jm_00, jm_01, jm_02, jm_10, jm_11, jm_12, jm_20, jm_21, jm_22, side_1, th_1_0, th_1_1, th_1_2, segA, segB, segC, segD, segH] <;> ring
theorem e29_6 (_x : Fin 36 → ℝ) : (0 : ℝ) = ((0 : V3)) 0 := by simp [Pi.zero_apply]
theorem e29_7 (_x : Fin 36 → ℝ) : (0 : ℝ) = ((0 : V3)) 1 := by simp [Pi.zero_apply]
theorem e29_8 (_x : Fin 36 → ℝ) : (0 : ℝ) = ((0 : V3)) 2 := by simp [Pi.zero_apply]
theorem e29_9 (x : Fin 36 → ℝ) : l1190 x = (quatMatrix (Qe x) *ᵥ jcol 1 2 x) 0 := by
  simp only [l214, l216, l218, l220, l222, l227, l259, l274, l280, l281, l282, l283, l284, l308, l309, l310, l311, l312, l333,
    l334, l335, l1171, l1172, l1173, l1179, l1180, l1181, l1186, l1187, l1188, l1190, h258, h271, h273, h278, mv_0, mv_1, mv_2, qm_00, qm_01, qm_02, qm_10, qm_11, qm_12, qm_20, qm_21, qm_22, jcol, jac, jm_00, jm_01, jm_02, jm_10, jm_11, jm_12, jm_20, jm_21, jm_22, side_1, th_1_0, th_1_1, th_1_2, segA, segB, segC, segD, segH] <;> ring
theorem e29_10 (x : Fin 36 → ℝ) : l1206 x = (quatMatrix (Qe x) *ᵥ jcol 1 2 x) 1 := by
  simp only [l214, l216, l218, l220, l222, l227, l259, l274, l280, l281, l282, l283, l284, l308, l309, l310, l311, l312, l333,
    l334, l335, l342, l1179, l1180, l1182, l1186, l1193, l1194, l1195, l1197, l1198, l1206, h258, h271, h273, h278, mv_0, mv_1, mv_2, qm_00, qm_01, qm_02, qm_10, qm_11, qm_12, qm_20, qm_21, qm_22, jcol, jac, jm_00, jm_01, jm_02, jm_10, jm_11, jm_12, jm_20, jm_21, jm_22, side_1, th_1_0, th_1_1, th_1_2, segA, segB, segC, segD, segH] <;> ring
theorem e29_11 (x : Fin 36 → ℝ) : l1207 x = (quatMatrix (Qe x) *ᵥ jcol 1 2 x) 2 := by
  simp only [l214, l216, l218, l220, l222, l227, l259, l274, l280, l281, l282, l283, l284, l308, l309, l310, l311, l312, l333,
    l334, l335, l342, l1171, l1172, l1174, l1187, l1193, l1194, l1196, l1197, l1200, l1207, h258, h271, h273, h278, mv_0, mv_1, mv_2, qm_00, qm_01, qm_02, qm_10, qm_11, qm_12, qm_20, qm_21, qm_22, jcol, jac, jm_00, jm_01, jm_02, jm_10, jm_11, jm_12, jm_20, jm_21, jm_22, side_1, th_1_0, th_1_1, th_1_2, segA, segB, segC, segD, segH] <;> ring
theorem e30_6 (_x : Fin 36 → ℝ) : (0 : ℝ) = ((0 : V3)) 0 := by simp [Pi.zero_apply]
theorem e30_7 (_x : Fin 36 → ℝ) : (0 : ℝ) = ((0 : V3)) 1 := by simp [Pi.zero_apply]
theorem e30_8 (_x : Fin 36 → ℝ) : (0 : ℝ) = ((0 : V3)) 2 := by simp [Pi.zero_apply]
theorem e30_9 (_x : Fin 36 → ℝ) : (0 : ℝ) = ((0 : V3)) 0 := by simp [Pi.zero_apply]
theorem e30_10 (_x : Fin 36 → ℝ) : (0 : ℝ) = ((0 : V3)) 1 := by simp [Pi.zero_apply]
theorem e30_11 (_x : Fin 36 → ℝ) : (0 : ℝ) = ((0 : V3)) 2 := by simp [Pi.zero_apply]
theorem e31_6 (_x : Fin 36 → ℝ) : (0 : ℝ) = ((0 : V3)) 0 := by simp [Pi.zero_apply]
theorem e31_7 (_x : Fin 36 → ℝ) : (0 : ℝ) = ((0 : V3)) 1 := by simp [Pi.zero_apply]
theorem e31_8 (_x : Fin 36 → ℝ) : (0 : ℝ) = ((0 : V3)) 2 := by simp [Pi.zero_apply]
theorem e31_9 (_x : Fin 36 → ℝ) : (0 : ℝ) = ((0 : V3)) 0 := by simp [Pi.zero_apply]
theorem e31_10 (_x : Fin 36 → ℝ) : (0 : ℝ) = ((0 : V3)) 1 := by simp [Pi.zero_apply]
theorem e31_11 (_x : Fin 36 → ℝ) : (0 : ℝ) = ((0 : V3)) 2 := by simp [Pi.zero_apply]
theorem e32_6 (_x : Fin 36 → ℝ) : (0 : ℝ) = ((0 : V3)) 0 := by simp [Pi.zero_apply]
theorem e32_7 (_x : Fin 36 → ℝ) : (0 : ℝ) = ((0 : V3)) 1 := by simp [Pi.zero_apply]
theorem e32_8 (_x : Fin 36 → ℝ) : (0 : ℝ) = ((0 : V3)) 2 := by simp [Pi.zero_apply]
theorem e32_9 (_x : Fin 36 → ℝ) : (0 : ℝ) = ((0 : V3)) 0 := by simp [Pi.zero_apply]
theorem e32_10 (_x : Fin 36 → ℝ) : (0 : ℝ) = ((0 : V3)) 1 := by simp [Pi.zero_apply]
theorem e32_11 (_x : Fin 36 → ℝ) : (0 : ℝ) = ((0 : V3)) 2 := by simp [Pi.zero_apply]
theorem e33_6 (_x : Fin 36 → ℝ) : (0 : ℝ) = ((0 : V3)) 0 := by simp [Pi.zero_apply]
theorem e33_7 (_x : Fin 36 → ℝ) : (0 : ℝ) = ((0 : V3)) 1 := by simp [Pi.zero_apply]
theorem e33_8 (_x : Fin 36 → ℝ) : (0 : ℝ) = ((0 : V3)) 2 := by simp [Pi.zero_apply]
theorem e33_9 (_x : Fin 36 → ℝ) : (0 : ℝ) = ((0 : V3)) 0 := by simp [Pi.zero_apply]
theorem e33_10 (_x : Fin 36 → ℝ) : (0 : ℝ) = ((0 : V3)) 1 := by simp [Pi.zero_apply]
theorem e33_11 (_x : Fin 36 → ℝ) : (0 : ℝ) = ((0 : V3)) 2 := by simp [Pi.zero_apply]
theorem e34_6 (_x : Fin 36 → ℝ) : (0 : ℝ) = ((0 : V3)) 0 := by simp [Pi.zero_apply]
theorem e34_7 (_x : Fin 36 → ℝ) : (0 : ℝ) = ((0 : V3)) 1 := by simp [Pi.zero_apply]
theorem e34_8 (_x : Fin 36 → ℝ) : (0 : ℝ) = ((0 : V3)) 2 := by simp [Pi.zero_apply]
theorem e34_9 (_x : Fin 36 → ℝ) : (0 : ℝ) = ((0 : V3)) 0 := by simp [Pi.zero_apply]
theorem e34_10 (_x : Fin 36 → ℝ) : (0 : ℝ) = ((0 : V3)) 1 := by simp [Pi.zero_apply]
theorem e34_11 (_x : Fin 36 → ℝ) : (0 : ℝ) = ((0 : V3)) 2 := by simp [Pi.zero_apply]
theorem e35_6 (_x : Fin 36 → ℝ) : (0 : ℝ) = ((0 : V3)) 0 := by simp [Pi.zero_apply]
theorem e35_7 (_x : Fin 36 → ℝ) : (0 : ℝ) = ((0 : V3)) 1 := by simp [Pi.zero_apply]
theorem e35_8 (_x : Fin 36 → ℝ) : (0 : ℝ) = ((0 : V3)) 2 := by simp [Pi.zero_apply]
theorem e35_9 (_x : Fin 36 → ℝ) : (0 : ℝ) = ((0 : V3)) 0 := by simp [Pi.zero_apply]
theorem e35_10 (_x : Fin 36 → ℝ) : (0 : ℝ) = ((0 : V3)) 1 := by simp [Pi.zero_apply]
theorem e35_11 (_x : Fin 36 → ℝ) : (0 : ℝ) = ((0 : V3)) 2 := by simp [Pi.zero_apply]

theorem pos0 (x : Fin 36 → ℝ) : (fun i : Fin 3 => jacobian x ⟨6 + i, by omega⟩ 0) = Dpos 1 x (Pi.single 0 1) :=
  (ext3 (e0_6 x) (e0_7 x) (e0_8 x)).trans (col_angle 1 0 x 0 rfl).1.symm
theorem vel0 (x : Fin 36 → ℝ) : (fun i : Fin 3 => jacobian x ⟨9 + i, by omega⟩ 0) = Dvel 1 x (Pi.single 0 1) :=
  (ext3 (e0_9 x) (e0_10 x) (e0_11 x)).trans (col_angle 1 0 x 0 rfl).2.symm
theorem pos1 (x : Fin 36 → ℝ) : (fun i : Fin 3 => jacobian x ⟨6 + i, by omega⟩ 1) = Dpos 1 x (Pi.single 1 1) :=
  (ext3 (e1_6 x) (e1_7 x) (e1_8 x)).trans (col_angle 1 1 x 1 rfl).1.symm
theorem vel1 (x : Fin 36 → ℝ) : (fun i : Fin 3 => jacobian x ⟨9 + i, by omega⟩ 1) = Dvel 1 x (Pi.single 1 1) :=
  (ext3 (e1_9 x) (e1_10 x) (e1_11 x)).trans (col_angle 1 1 x 1 rfl).2.symm
theorem pos2 (x : Fin 36 → ℝ) : (fun i : Fin 3 => jacobian x ⟨6 + i, by omega⟩ 2) = Dpos 1 x (Pi.single 2 1) :=
  (ext3 (e2_6 x) (e2_7 x) (e2_8 x)).trans (col_angle 1 2 x 2 rfl).1.symm
theorem vel2 (x : Fin 36 → ℝ) : (fun i : Fin 3 => jacobian x ⟨9 + i, by omega⟩ 2) = Dvel 1 x (Pi.single 2 1) :=
  (ext3 (e2_9 x) (e2_10 x) (e2_11 x)).trans (col_angle 1 2 x 2 rfl).2.symm
theorem pos3 (x : Fin 36 → ℝ) : (fun i : Fin 3 => jacobian x ⟨6 + i, by omega⟩ 3) = Dpos 1 x (Pi.single 3 1) :=
  (ext3 (e3_6 x) (e3_7 x) (e3_8 x)).trans (col_base 1 0 x 3 rfl).1.symm
theorem vel3 (x : Fin 36 → ℝ) : (fun i : Fin 3 => jacobian x ⟨9 + i, by omega⟩ 3) = Dvel 1 x (Pi.single 3 1) :=
  (ext3 (e3_9 x) (e3_10 x) (e3_11 x)).trans (col_base 1 0 x 3 rfl).2.symm
theorem pos4 (x : Fin 36 → ℝ) : (fun i : Fin 3 => jacobian x ⟨6 + i, by omega⟩ 4) = Dpos 1 x (Pi.single 4 1) :=
  (ext3 (e4_6 x) (e4_7 x) (e4_8 x)).trans (col_base 1 1 x 4 rfl).1.symm
theorem vel4 (x : Fin 36 → ℝ) : (fun i : Fin 3 => jacobian x ⟨9 + i, by omega⟩ 4) = Dvel 1 x (Pi.single 4 1) :=
  (ext3 (e4_9 x) (e4_10 x) (e4_11 x)).trans (col_base 1 1 x 4 rfl).2.symm
theorem pos5 (x : Fin 36 → ℝ) : (fun i : Fin 3 => jacobian x ⟨6 + i, by omega⟩ 5) = Dpos 1 x (Pi.single 5 1) :=
  (ext3 (e5_6 x) (e5_7 x) (e5_8 x)).trans (col_base 1 2 x 5 rfl).1.symm
theorem vel5 (x : Fin 36 → ℝ) : (fun i : Fin 3 => jacobian x ⟨9 + i, by omega⟩ 5) = Dvel 1 x (Pi.single 5 1) :=
  (ext3 (e5_9 x) (e5_10 x) (e5_11 x)).trans (col_base 1 2 x 5 rfl).2.symm
theorem pos6 (x : Fin 36 → ℝ) : (fun i : Fin 3 => jacobian x ⟨6 + i, by omega⟩ 6) = Dpos 1 x (Pi.single 6 1) :=
  (ext3 (e6_6 x) (e6_7 x) (e6_8 x)).trans (col_other 1 0 0 x 6 (by decide) (by decide)).1.symm
theorem vel6 (x : Fin 36 → ℝ) : (fun i : Fin 3 => jacobian x ⟨9 + i, by omega⟩ 6) = Dvel 1 x (Pi.single 6 1) :=
  (ext3 (e6_9 x) (e6_10 x) (e6_11 x)).trans (col_other 1 0 0 x 6 (by decide) (by decide)).2.symm
theorem pos7 (x : Fin 36 → ℝ) : (fun i : Fin 3 => jacobian x ⟨6 + i, by omega⟩ 7) = Dpos 1 x (Pi.single 7 1) :=
  (ext3 (e7_6 x) (e7_7 x) (e7_8 x)).trans (col_other 1 0 1 x 7 (by decide) (by decide)).1.symm
theorem vel7 (x : Fin 36 → ℝ) : (fun i : Fin 3 => jacobian x ⟨9 + i, by omega⟩ 7) = Dvel 1 x (Pi.single 7 1) :=
  (ext3 (e7_9 x) (e7_10 x) (e7_11 x)).trans (col_other 1 0 1 x 7 (by decide) (by decide)).2.symm
theorem pos8 (x : Fin 36 → ℝ) : (fun i : Fin 3 => jacobian x ⟨6 + i, by omega⟩ 8) = Dpos 1 x (Pi.single 8 1) :=
  (ext3 (e8_6 x) (e8_7 x) (e8_8 x)).trans (col_other 1 0 2 x 8 (by decide) (by decide)).1.symm
theorem vel8 (x : Fin 36 → ℝ) : (fun i : Fin 3 => jacobian x ⟨9 + i, by omega⟩ 8) = Dvel 1 x (Pi.single 8 1) :=
  (ext3 (e8_9 x) (e8_10 x) (e8_11 x)).trans (col_other 1 0 2 x 8 (by decide) (by decide)).2.symm
theorem pos9 (x : Fin 36 → ℝ) : (fun i : Fin 3 => jacobian x ⟨6 + i, by omega⟩ 9) = Dpos 1 x (Pi.single 9 1) :=
  (ext3 (e9_6 x) (e9_7 x) (e9_8 x)).trans (col_joint 1 0 x 9 rfl).1.symm
theorem vel9 (x : Fin 36 → ℝ) : (fun i : Fin 3 => jacobian x ⟨9 + i, by omega⟩ 9) = Dvel 1 x (Pi.single 9 1) :=
  (ext3 (e9_9 x) (e9_10 x) (e9_11 x)).trans (col_joint 1 0 x 9 rfl).2.symm
theorem pos10 (x : Fin 36 → ℝ) : (fun i : Fin 3 => jacobian x ⟨6 + i, by omega⟩ 10) = Dpos 1 x (Pi.single 10 1) :=
  (ext3 (e10_6 x) (e10_7 x) (e10_8 x)).trans (col_joint 1 1 x 10 rfl).1.symm
theorem vel10 (x : Fin 36 → ℝ) : (fun i : Fin 3 => jacobian x ⟨9 + i, by omega⟩ 10) = Dvel 1 x (Pi.single 10 1) :=
  (ext3 (e10_9 x) (e10_10 x) (e10_11 x)).trans (col_joint 1 1 x 10 rfl).2.symm
theorem pos11 (x : Fin 36 → ℝ) : (fun i : Fin 3 => jacobian x ⟨6 + i, by omega⟩ 11) = Dpos 1 x (Pi.single 11 1) :=
  (ext3 (e11_6 x) (e11_7 x) (e11_8 x)).trans (col_joint 1 2 x 11 rfl).1.symm
theorem vel11 (x : Fin 36 → ℝ) : (fun i : Fin 3 => jacobian x ⟨9 + i, by omega⟩ 11) = Dvel 1 x (Pi.single 11 1) :=
  (ext3 (e11_9 x) (e11_10 x) (e11_11 x)).trans (col_joint 1 2 x 11 rfl).2.symm
theorem pos12 (x : Fin 36 → ℝ) : (fun i : Fin 3 => jacobian x ⟨6 + i, by omega⟩ 12) = Dpos 1 x (Pi.single 12 1) :=
  (ext3 (e12_6 x) (e12_7 x) (e12_8 x)).trans (col_other 1 2 0 x 12 (by decide) (by decide)).1.symm
theorem vel12 (x : Fin 36 → ℝ) : (fun i : Fin 3 => jacobian x ⟨9 + i, by omega⟩ 12) = Dvel 1 x (Pi.single 12 1) :=
  (ext3 (e12_9 x) (e12_10 x) (e12_11 x)).trans (col_other 1 2 0 x 12 (by decide) (by decide)).2.symm
theorem pos13 (x : Fin 36 → ℝ) : (fun i : Fin 3 => jacobian x ⟨6 + i, by omega⟩ 13) = Dpos 1 x (Pi.single 13 1) :=
  (ext3 (e13_6 x) (e13_7 x) (e13_8 x)).trans (col_other 1 2 1 x 13 (by decide) (by decide)).1.symm
theorem vel13 (x : Fin 36 → ℝ) : (fun i : Fin 3 => jacobian x ⟨9 + i, by omega⟩ 13) = Dvel 1 x (Pi.single 13 1) :=
  (ext3 (e13_9 x) (e13_10 x) (e13_11 x)).trans (col_other 1 2 1 x 13 (by decide) (by decide)).2.symm
theorem pos14 (x : Fin 36 → ℝ) : (fun i : Fin 3 => jacobian x ⟨6 + i, by omega⟩ 14) = Dpos 1 x (Pi.single 14 1) :=
  (ext3 (e14_6 x) (e14_7 x) (e14_8 x)).trans (col_other 1 2 2 x 14 (by decide) (by decide)).1.symm
theorem vel14 (x : Fin 36 → ℝ) : (fun i : Fin 3 => jacobian x ⟨9 + i, by omega⟩ 14) = Dvel 1 x (Pi.single 14 1) :=
  (ext3 (e14_9 x) (e14_10 x) (e14_11 x)).trans (col_other 1 2 2 x 14 (by decide) (by decide)).2.symm
theorem pos15 (x : Fin 36 → ℝ) : (fun i : Fin 3 => jacobian x ⟨6 + i, by omega⟩ 15) = Dpos 1 x (Pi.single 15 1) :=
  (ext3 (e15_6 x) (e15_7 x) (e15_8 x)).trans (col_other 1 3 0 x 15 (by decide) (by decide)).1.symm
theorem vel15 (x : Fin 36 → ℝ) : (fun i : Fin 3 => jacobian x ⟨9 + i, by omega⟩ 15) = Dvel 1 x (Pi.single 15 1) :=
  (ext3 (e15_9 x) (e15_10 x) (e15_11 x)).trans (col_other 1 3 0 x 15 (by decide) (by decide)).2.symm
theorem pos16 (x : Fin 36 → ℝ) : (fun i : Fin 3 => jacobian x ⟨6 + i, by omega⟩ 16) = Dpos 1 x (Pi.single 16 1) :=
  (ext3 (e16_6 x) (e16_7 x) (e16_8 x)).trans (col_other 1 3 1 x 16 (by decide) (by decide)).1.symm
theorem vel16 (x : Fin 36 → ℝ) : (fun i : Fin 3 => jacobian x ⟨9 + i, by omega⟩ 16) = Dvel 1 x (Pi.single 16 1) :=
  (ext3 (e16_9 x) (e16_10 x) (e16_11 x)).trans (col_other 1 3 1 x 16 (by decide) (by decide)).2.symm
theorem pos17 (x : Fin 36 → ℝ) : (fun i : Fin 3 => jacobian x ⟨6 + i, by omega⟩ 17) = Dpos 1 x (Pi.single 17 1) :=
  (ext3 (e17_6 x) (e17_7 x) (e17_8 x)).trans (col_other 1 3 2 x 17 (by decide) (by decide)).1.symm
theorem vel17 (x : Fin 36 → ℝ) : (fun i : Fin 3 => jacobian x ⟨9 + i, by omega⟩ 17) = Dvel 1 x (Pi.single 17 1) :=
  (ext3 (e17_9 x) (e17_10 x) (e17_11 x)).trans (col_other 1 3 2 x 17 (by decide) (by decide)).2.symm
theorem pos18 (x : Fin 36 → ℝ) : (fun i : Fin 3 => jacobian x ⟨6 + i, by omega⟩ 18) = Dpos 1 x (Pi.single 18 1) :=
  (ext3 (e18_6 x) (e18_7 x) (e18_8 x)).trans (col_om 1 0 x 18 rfl).1.symm
theorem vel18 (x : Fin 36 → ℝ) : (fun i : Fin 3 => jacobian x ⟨9 + i, by omega⟩ 18) = Dvel 1 x (Pi.single 18 1) :=
  (ext3 (e18_9 x) (e18_10 x) (e18_11 x)).trans (col_om 1 0 x 18 rfl).2.symm
theorem pos19 (x : Fin 36 → ℝ) : (fun i : Fin 3 => jacobian x ⟨6 + i, by omega⟩ 19) = Dpos 1 x (Pi.single 19 1) :=
  (ext3 (e19_6 x) (e19_7 x) (e19_8 x)).trans (col_om 1 1 x 19 rfl).1.symm
theorem vel19 (x : Fin 36 → ℝ) : (fun i : Fin 3 => jacobian x ⟨9 + i, by omega⟩ 19) = Dvel 1 x (Pi.single 19 1) :=
  (ext3 (e19_9 x) (e19_10 x) (e19_11 x)).trans (col_om 1 1 x 19 rfl).2.symm
theorem pos20 (x : Fin 36 → ℝ) : (fun i : Fin 3 => jacobian x ⟨6 + i, by omega⟩ 20) = Dpos 1 x (Pi.single 20 1) :=
  (ext3 (e20_6 x) (e20_7 x) (e20_8 x)).trans (col_om 1 2 x 20 rfl).1.symm
theorem vel20 (x : Fin 36 → ℝ) : (fun i : Fin 3 => jacobian x ⟨9 + i, by omega⟩ 20) = Dvel 1 x (Pi.single 20 1) :=
  (ext3 (e20_9 x) (e20_10 x) (e20_11 x)).trans (col_om 1 2 x 20 rfl).2.symm
theorem pos21 (x : Fin 36 → ℝ) : (fun i : Fin 3 => jacobian x ⟨6 + i, by omega⟩ 21) = Dpos 1 x (Pi.single 21 1) :=
  (ext3 (e21_6 x) (e21_7 x) (e21_8 x)).trans (col_lv 1 0 x 21 rfl).1.symm
theorem vel21 (x : Fin 36 → ℝ) : (fun i : Fin 3 => jacobian x ⟨9 + i, by omega⟩ 21) = Dvel 1 x (Pi.single 21 1) :=
  (ext3 (e21_9 x) (e21_10 x) (e21_11 x)).trans (col_lv 1 0 x 21 rfl).2.symm
theorem pos22 (x : Fin 36 → ℝ) : (fun i : Fin 3 => jacobian x ⟨6 + i, by omega⟩ 22) = Dpos 1 x (Pi.single 22 1) :=
  (ext3 (e22_6 x) (e22_7 x) (e22_8 x)).trans (col_lv 1 1 x 22 rfl).1.symm
theorem vel22 (x : Fin 36 → ℝ) : (fun i : Fin 3 => jacobian x ⟨9 + i, by omega⟩ 22) = Dvel 1 x (Pi.single 22 1) :=
  (ext3 (e22_9 x) (e22_10 x) (e22_11 x)).trans (col_lv 1 1 x 22 rfl).2.symm
theorem pos23 (x : Fin 36 → ℝ) : (fun i : Fin 3 => jacobian x ⟨6 + i, by omega⟩ 23) = Dpos 1 x (Pi.single 23 1) :=
  (ext3 (e23_6 x) (e23_7 x) (e23_8 x)).trans (col_lv 1 2 x 23 rfl).1.symm
theorem vel23 (x : Fin 36 → ℝ) : (fun i : Fin 3 => jacobian x ⟨9 + i, by omega⟩ 23) = Dvel 1 x (Pi.single 23 1) :=
  (ext3 (e23_9 x) (e23_10 x) (e23_11 x)).trans (col_lv 1 2 x 23 rfl).2.symm
theorem pos24 (x : Fin 36 → ℝ) : (fun i : Fin 3 => jacobian x ⟨6 + i, by omega⟩ 24) = Dpos 1 x (Pi.single 24 1) :=
  (ext3 (e24_6 x) (e24_7 x) (e24_8 x)).trans (col_other 1 0 0 x 24 (by decide) (by decide)).1.symm
theorem vel24 (x : Fin 36 → ℝ) : (fun i : Fin 3 => jacobian x ⟨9 + i, by omega⟩ 24) = Dvel 1 x (Pi.single 24 1) :=
  (ext3 (e24_9 x) (e24_10 x) (e24_11 x)).trans (col_other 1 0 0 x 24 (by decide) (by decide)).2.symm
theorem pos25 (x : Fin 36 → ℝ) : (fun i : Fin 3 => jacobian x ⟨6 + i, by omega⟩ 25) = Dpos 1 x (Pi.single 25 1) :=
  (ext3 (e25_6 x) (e25_7 x) (e25_8 x)).trans (col_other 1 0 1 x 25 (by decide) (by decide)).1.symm
theorem vel25 (x : Fin 36 → ℝ) : (fun i : Fin 3 => jacobian x ⟨9 + i, by omega⟩ 25) = Dvel 1 x (Pi.single 25 1) :=
  (ext3 (e25_9 x) (e25_10 x) (e25_11 x)).trans (col_other 1 0 1 x 25 (by decide) (by decide)).2.symm
theorem pos26 (x : Fin 36 → ℝ) : (fun i : Fin 3 => jacobian x ⟨6 + i, by omega⟩ 26) = Dpos 1 x (Pi.single 26 1) :=
  (ext3 (e26_6 x) (e26_7 x) (e26_8 x)).trans (col_other 1 0 2 x 26 (by decide) (by decide)).1.symm
theorem vel26 (x : Fin 36 → ℝ) : (fun i : Fin 3 => jacobian x ⟨9 + i, by omega⟩ 26) = Dvel 1 x (Pi.single 26 1) :=
  (ext3 (e26_9 x) (e26_10 x) (e26_11 x)).trans (col_other 1 0 2 x 26 (by decide) (by decide)).2.symm
theorem pos27 (x : Fin 36 → ℝ) : (fun i : Fin 3 => jacobian x ⟨6 + i, by omega⟩ 27) = Dpos 1 x (Pi.single 27 1) :=
  (ext3 (e27_6 x) (e27_7 x) (e27_8 x)).trans (col_qd 1 0 x 27 rfl).1.symm
theorem vel27 (x : Fin 36 → ℝ) : (fun i : Fin 3 => jacobian x ⟨9 + i, by omega⟩ 27) = Dvel 1 x (Pi.single 27 1) :=
  (ext3 (e27_9 x) (e27_10 x) (e27_11 x)).trans (col_qd 1 0 x 27 rfl).2.symm
theorem pos28 (x : Fin 36 → ℝ) : (fun i : Fin 3 => jacobian x ⟨6 + i, by omega⟩ 28) = Dpos 1 x (Pi.single 28 1) :=
  (ext3 (e28_6 x) (e28_7 x) (e28_8 x)).trans (col_qd 1 1 x 28 rfl).1.symm
theorem vel28 (x : Fin 36 → ℝ) : (fun i : Fin 3 => jacobian x ⟨9 + i, by omega⟩ 28) = Dvel 1 x (Pi.single 28 1) :=
  (ext3 (e28_9 x) (e28_10 x) (e28_11 x)).trans (col_qd 1 1 x 28 rfl).2.symm
theorem pos29 (x : Fin 36 → ℝ) : (fun i : Fin 3 => jacobian x ⟨6 + i, by omega⟩ 29) = Dpos 1 x (Pi.single 29 1) :=
  (ext3 (e29_6 x) (e29_7 x) (e29_8 x)).trans (col_qd 1 2 x 29 rfl).1.symm
theorem vel29 (x : Fin 36 → ℝ) : (fun i : Fin 3 => jacobian x ⟨9 + i, by omega⟩ 29) = Dvel 1 x (Pi.single 29 1) :=
  (ext3 (e29_9 x) (e29_10 x) (e29_11 x)).trans (col_qd 1 2 x 29 rfl).2.symm
theorem pos30 (x : Fin 36 → ℝ) : (fun i : Fin 3 => jacobian x ⟨6 + i, by omega⟩ 30) = Dpos 1 x (Pi.single 30 1) :=
  (ext3 (e30_6 x) (e30_7 x) (e30_8 x)).trans (col_other 1 2 0 x 30 (by decide) (by decide)).1.symm
theorem vel30 (x : Fin 36 → ℝ) : (fun i : Fin 3 => jacobian x ⟨9 + i, by omega⟩ 30) = Dvel 1 x (Pi.single 30 1) :=
  (ext3 (e30_9 x) (e30_10 x) (e30_11 x)).trans (col_other 1 2 0 x 30 (by decide) (by decide)).2.symm
theorem pos31 (x : Fin 36 → ℝ) : (fun i : Fin 3 => jacobian x ⟨6 + i, by omega⟩ 31) = Dpos 1 x (Pi.single 31 1) :=
  (ext3 (e31_6 x) (e31_7 x) (e31_8 x)).trans (col_other 1 2 1 x 31 (by decide) (by decide)).1.symm
theorem vel31 (x : Fin 36 → ℝ) : (fun i : Fin 3 => jacobian x ⟨9 + i, by omega⟩ 31) = Dvel 1 x (Pi.single 31 1) :=
  (ext3 (e31_9 x) (e31_10 x) (e31_11 x)).trans (col_other 1 2 1 x 31 (by decide) (by decide)).2.symm
theorem pos32 (x : Fin 36 → ℝ) : (fun i : Fin 3 => jacobian x ⟨6 + i, by omega⟩ 32) = Dpos 1 x (Pi.single 32 1) :=
  (ext3 (e32_6 x) (e32_7 x) (e32_8 x)).trans (col_other 1 2 2 x 32 (by decide) (by decide)).1.symm
theorem vel32 (x : Fin 36 → ℝ) : (fun i : Fin 3 => jacobian x ⟨9 + i, by omega⟩ 32) = Dvel 1 x (Pi.single 32 1) :=
  (ext3 (e32_9 x) (e32_10 x) (e32_11 x)).trans (col_other 1 2 2 x 32 (by decide) (by decide)).2.symm
theorem pos33 (x : Fin 36 → ℝ) : (fun i : Fin 3 => jacobian x ⟨6 + i, by omega⟩ 33) = Dpos 1 x (Pi.single 33 1) :=
  (ext3 (e33_6 x) (e33_7 x) (e33_8 x)).trans (col_other 1 3 0 x 33 (by decide) (by decide)).1.symm
theorem vel33 (x : Fin 36 → ℝ) : (fun i : Fin 3 => jacobian x ⟨9 + i, by omega⟩ 33) = Dvel 1 x (Pi.single 33 1) :=
  (ext3 (e33_9 x) (e33_10 x) (e33_11 x)).trans (col_other 1 3 0 x 33 (by decide) (by decide)).2.symm
theorem pos34 (x : Fin 36 → ℝ) : (fun i : Fin 3 => jacobian x ⟨6 + i, by omega⟩ 34) = Dpos 1 x (Pi.single 34 1) :=
  (ext3 (e34_6 x) (e34_7 x) (e34_8 x)).trans (col_other 1 3 1 x 34 (by decide) (by decide)).1.symm
theorem vel34 (x : Fin 36 → ℝ) : (fun i : Fin 3 => jacobian x ⟨9 + i, by omega⟩ 34) = Dvel 1 x (Pi.single 34 1) :=
  (ext3 (e34_9 x) (e34_10 x) (e34_11 x)).trans (col_other 1 3 1 x 34 (by decide) (by decide)).2.symm
theorem pos35 (x : Fin 36 → ℝ) : (fun i : Fin 3 => jacobian x ⟨6 + i, by omega⟩ 35) = Dpos 1 x (Pi.single 35 1) :=
  (ext3 (e35_6 x) (e35_7 x) (e35_8 x)).trans (col_other 1 3 2 x 35 (by decide) (by decide)).1.symm
theorem vel35 (x : Fin 36 → ℝ) : (fun i : Fin 3 => jacobian x ⟨9 + i, by omega⟩ 35) = Dvel 1 x (Pi.single 35 1) :=
  (ext3 (e35_9 x) (e35_10 x) (e35_11 x)).trans (col_other 1 3 2 x 35 (by decide) (by decide)).2.symm

theorem rows (x : Fin 36 → ℝ) (c : Fin 36) :
    (fun i : Fin 3 => jacobian x ⟨6 + i, by omega⟩ c) = Dpos 1 x (Pi.single c 1) ∧
    (fun i : Fin 3 => jacobian x ⟨9 + i, by omega⟩ c) = Dvel 1 x (Pi.single c 1) := by
  fin_cases c
  exacts [⟨pos0 x, vel0 x⟩, ⟨pos1 x, vel1 x⟩, ⟨pos2 x, vel2 x⟩, ⟨pos3 x, vel3 x⟩, ⟨pos4 x, vel4 x⟩, ⟨pos5 x, vel5 x⟩, ⟨pos6 x,
    vel6 x⟩, ⟨pos7 x, vel7 x⟩, ⟨pos8 x, vel8 x⟩, ⟨pos9 x, vel9 x⟩, ⟨pos10 x, vel10 x⟩, ⟨pos11 x, vel11 x⟩, ⟨pos12 x, vel12 x⟩, ⟨pos13 x, vel13 x⟩, ⟨pos14 x, vel14 x⟩, ⟨pos15 x, vel15 x⟩, ⟨pos16 x, vel16 x⟩, ⟨pos17 x, vel17 x⟩, ⟨pos18 x, vel18 x⟩, ⟨pos19 x, vel19 x⟩, ⟨pos20 x, vel20 x⟩, ⟨pos21 x, vel21 x⟩, ⟨pos22 x, vel22 x⟩, ⟨pos23 x, vel23 x⟩, ⟨pos24 x, vel24 x⟩, ⟨pos25 x, vel25 x⟩, ⟨pos26 x, vel26 x⟩, ⟨pos27 x, vel27 x⟩, ⟨pos28 x, vel28 x⟩, ⟨pos29 x, vel29 x⟩, ⟨pos30 x, vel30 x⟩, ⟨pos31 x, vel31 x⟩, ⟨pos32 x, vel32 x⟩, ⟨pos33 x, vel33 x⟩, ⟨pos34 x, vel34 x⟩, ⟨pos35 x, vel35 x⟩]

end CT.Robots.HyQ.FootJacForward.Leg1
