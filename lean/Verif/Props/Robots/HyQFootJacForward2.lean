import Verif.Model.Robots.HyQFootJacForward
import Verif.Props.Robots.HyQFoot

/-!
# Rows of foot 2 in the generated Jacobian HyQForwardKinJacForward

`hN`: line `N` is a component of the quaternion, of the position of the foot or of its velocity in the base.  `eC_R`: the entry in
row `R` and column `C`.
-/

namespace CT.Robots.HyQ.FootJacForward.Leg2

open Matrix CT.FloatSys CT.FrameJac CT.Robots.HyQ

set_option linter.unusedSimpArgs false

theorem h359 (x : Fin 36 → ℝ) : l359 x = Qe x 3 := by
  simp only [l348, l349, l350, l351, l352, l353, l354, l355, l356, l357, l358, l359, Qe_3] <;> ring
theorem h372 (x : Fin 36 → ℝ) : l372 x = Qe x 1 := by
  simp only [l348, l349, l350, l351, l353, l354, l355, l356, l358, l370, l371, l372, Qe_1] <;> ring
theorem h374 (x : Fin 36 → ℝ) : l374 x = Qe x 2 := by
  simp only [l348, l349, l350, l351, l353, l354, l355, l356, l358, l370, l371, l374, Qe_2] <;> ring
theorem h379 (x : Fin 36 → ℝ) : l379 x = Qe x 0 := by
  simp only [l348, l349, l350, l351, l352, l353, l354, l355, l356, l357, l358, l379, Qe_0] <;> ring
theorem h391 (x : Fin 36 → ℝ) : l391 x = foot 2 x 2 := by
  simp only [l381, l382, l383, l384, l385, l386, l387, l388, l389, l390, l391, foot, pv_0, pv_1, pv_2, side_2, mountX_2,
    mountY_2, th_2_0, th_2_1, th_2_2, segA, segB, segC, segD, segH] <;> ring
theorem h400 (x : Fin 36 → ℝ) : l400 x = foot 2 x 1 := by
  simp only [l383, l385, l387, l389, l394, l395, l396, l397, l398, l399, l400, foot, pv_0, pv_1, pv_2, side_2, mountX_2,
    mountY_2, th_2_0, th_2_1, th_2_2, segA, segB, segC, segD, segH] <;> ring
theorem h405 (x : Fin 36 → ℝ) : l405 x = foot 2 x 0 := by
  simp only [l383, l385, l387, l389, l403, l404, l405, foot, pv_0, pv_1, pv_2, side_2, mountX_2, mountY_2, th_2_0, th_2_1,
    th_2_2, segA, segB, segC, segD, segH] <;> ring
theorem h425 (x : Fin 36 → ℝ) : l425 x = Qe x 3 := by
  simp only [l414, l415, l416, l417, l418, l419, l420, l421, l422, l423, l424, l425, Qe_3] <;> ring
theorem h438 (x : Fin 36 → ℝ) : l438 x = Qe x 1 := by
  simp only [l414, l415, l416, l417, l419, l420, l421, l422, l424, l436, l437, l438, Qe_1] <;> ring
theorem h440 (x : Fin 36 → ℝ) : l440 x = Qe x 2 := by
  simp only [l414, l415, l416, l417, l419, l420, l421, l422, l424, l436, l437, l440, Qe_2] <;> ring
theorem h445 (x : Fin 36 → ℝ) : l445 x = Qe x 0 := by
  simp only [l414, l415, l416, l417, l418, l419, l420, l421, l422, l423, l424, l445, Qe_0] <;> ring
theorem h473 (x : Fin 36 → ℝ) : l473 x = vb 2 x 2 := by
  simp only [l381, l383, l385, l387, l389, l394, l447, l448, l449, l450, l451, l452, l453, l454, l455, l456, l457, l458, l459,
    l460, l461, l462, l463, l464, l465, l466, l467, l468, l469, l470, l471, l472, l473, vb, Pi.add_apply, mv_0, mv_1, mv_2, cr_0, cr_1, cr_2, foot, pv_0, pv_1, pv_2, side_2, mountX_2, mountY_2, th_2_0, th_2_1, th_2_2, segA, segB, segC, segD, segH, jac, jm_00, jm_01, jm_02, jm_10, jm_11, jm_12, jm_20, jm_21, jm_22, qd_2_0, qd_2_1, qd_2_2, om_0, om_1, om_2, lv_0, lv_1, lv_2] <;> ring
theorem h498 (x : Fin 36 → ℝ) : l498 x = vb 2 x 1 := by
  simp only [l381, l383, l385, l387, l389, l394, l465, l470, l471, l472, l476, l477, l478, l479, l480, l481, l482, l483, l484,
    l485, l486, l487, l488, l489, l490, l491, l492, l493, l494, l495, l496, l497, l498, vb, Pi.add_apply, mv_0, mv_1, mv_2, cr_0, cr_1, cr_2, foot, pv_0, pv_1, pv_2, side_2, mountX_2, mountY_2, th_2_0, th_2_1, th_2_2, segA, segB, segC, segD, segH, jac, jm_00, jm_01, jm_02, jm_10, jm_11, jm_12, jm_20, jm_21, jm_22, qd_2_0, qd_2_1, qd_2_2, om_0, om_1, om_2, lv_0, lv_1, lv_2] <;> ring
theorem h507 (x : Fin 36 → ℝ) : l507 x = vb 2 x 0 := by
  simp only [l381, l383, l385, l387, l389, l394, l463, l464, l465, l466, l467, l468, l469, l492, l493, l494, l495, l496, l497,
    l501, l502, l503, l504, l505, l506, l507, vb, Pi.add_apply, mv_0, mv_1, mv_2, cr_0, cr_1, cr_2, foot, pv_0, pv_1, pv_2, side_2, mountX_2, mountY_2, th_2_0, th_2_1, th_2_2, segA, segB, segC, segD, segH, jac, jm_00, jm_01, jm_02, jm_10, jm_11, jm_12, jm_20, jm_21, jm_22, qd_2_0, qd_2_1, qd_2_2, om_0, om_1, om_2, lv_0, lv_1, lv_2] <;> ring

theorem e0_12 (x : Fin 36 → ℝ) : l406 x = (dRm (Qe x) (dQ 0 x) *ᵥ foot 2 x) 0 := by
  simp only [l348, l350, l351, l353, l354, l356, l358, l360, l361, l362, l363, l364, l365, l366, l367, l368, l369, l373, l375,
    l376, l377, l378, l380, l392, l393, l401, l402, l406, h359, h372, h374, h379, h391, h400, h405, mv_0, mv_1, mv_2, dRm_00, dRm_01, dRm_02, dRm_10, dRm_11, dRm_12, dRm_20, dRm_21, dRm_22, dQ_0_0, dQ_0_1, dQ_0_2, dQ_0_3] <;> ring
theorem e0_13 (x : Fin 36 → ℝ) : l412 x = (dRm (Qe x) (dQ 0 x) *ᵥ foot 2 x) 1 := by
  simp only [l348, l350, l351, l353, l354, l356, l358, l360, l361, l362, l363, l364, l365, l366, l367, l368, l369, l375, l376,
    l377, l378, l392, l393, l401, l407, l408, l409, l410, l411, l412, h359, h372, h374, h379, h391, h400, h405, mv_0, mv_1, mv_2, dRm_00, dRm_01, dRm_02, dRm_10, dRm_11, dRm_12, dRm_20, dRm_21, dRm_22, dQ_0_0, dQ_0_1, dQ_0_2, dQ_0_3] <;> ring
theorem e0_14 (x : Fin 36 → ℝ) : l413 x = (dRm (Qe x) (dQ 0 x) *ᵥ foot 2 x) 2 := by
  simp only [l348, l350, l351, l353, l354, l356, l358, l360, l361, l362, l363, l364, l365, l366, l367, l368, l369, l373, l375,
    l376, l377, l378, l380, l402, l407, l408, l409, l410, l411, l413, h359, h372, h374, h379, h391, h400, h405, mv_0, mv_1, mv_2, dRm_00, dRm_01, dRm_02, dRm_10, dRm_11, dRm_12, dRm_20, dRm_21, dRm_22, dQ_0_0, dQ_0_1, dQ_0_2, dQ_0_3] <;> ring
theorem e0_15 (x : Fin 36 → ℝ) : l508 x = (dRm (Qe x) (dQ 0 x) *ᵥ vb 2 x) 0 := by
  simp only [l414, l416, l417, l419, l420, l422, l424, l426, l427, l428, l429, l430, l431, l432, l433, l434, l435, l439, l441,
    l442, l443, l444, l446, l474, l475, l499, l500, l508, h425, h438, h440, h445, h473, h498, h507, mv_0, mv_1, mv_2, dRm_00, dRm_01, dRm_02, dRm_10, dRm_11, dRm_12, dRm_20, dRm_21, dRm_22, dQ_0_0, dQ_0_1, dQ_0_2, dQ_0_3] <;> ring
theorem e0_16 (x : Fin 36 → ℝ) : l514 x = (dRm (Qe x) (dQ 0 x) *ᵥ vb 2 x) 1 := by
  simp only [l414, l416, l417, l419, l420, l422, l424, l426, l427, l428, l429, l430, l431, l432, l433, l434, l435, l441, l442,
    l443, l444, l474, l475, l499, l509, l510, l511, l512, l513, l514, h425, h438, h440, h445, h473, h498, h507, mv_0, mv_1, mv_2, dRm_00, dRm_01, dRm_02, dRm_10, dRm_11, dRm_12, dRm_20, dRm_21, dRm_22, dQ_0_0, dQ_0_1, dQ_0_2, dQ_0_3] <;> ring
theorem e0_17 (x : Fin 36 → ℝ) : l515 x = (dRm (Qe x) (dQ 0 x) *ᵥ vb 2 x) 2 := by
  simp only [l414, l416, l417, l419, l420, l422, l424, l426, l427, l428, l429, l430, l431, l432, l433, l434, l435, l439, l441,
    l442, l443, l444, l446, l500, l509, l510, l511, l512, l513, l515, h425, h438, h440, h445, h473, h498, h507, mv_0, mv_1, mv_2, dRm_00, dRm_01, dRm_02, dRm_10, dRm_11, dRm_12, dRm_20, dRm_21, dRm_22, dQ_0_0, dQ_0_1, dQ_0_2, dQ_0_3] <;> ring
theorem e1_12 (x : Fin 36 → ℝ) : l801 x = (dRm (Qe x) (dQ 1 x) *ᵥ foot 2 x) 0 := by
  simp only [l348, l349, l350, l353, l354, l355, l358, l360, l375, l783, l784, l785, l786, l787, l788, l789, l790, l791, l792,
    l793, l794, l795, l796, l797, l798, l799, l800, l801, h359, h372, h374, h379, h391, h400, h405, mv_0, mv_1, mv_2, dRm_00, dRm_01, dRm_02, dRm_10, dRm_11, dRm_12, dRm_20, dRm_21, dRm_22, dQ_1_0, dQ_1_1, dQ_1_2, dQ_1_3] <;> ring
theorem e1_13 (x : Fin 36 → ℝ) : l806 x = (dRm (Qe x) (dQ 1 x) *ᵥ foot 2 x) 1 := by
  simp only [l348, l349, l350, l353, l354, l355, l358, l360, l375, l408, l783, l784, l785, l786, l787, l788, l789, l790, l791,
    l793, l794, l795, l797, l798, l799, l802, l803, l804, l805, l806, h359, h372, h374, h379, h391, h400, h405, mv_0, mv_1, mv_2, dRm_00, dRm_01, dRm_02, dRm_10, dRm_11, dRm_12, dRm_20, dRm_21, dRm_22, dQ_1_0, dQ_1_1, dQ_1_2, dQ_1_3] <;> ring
theorem e1_14 (x : Fin 36 → ℝ) : l807 x = (dRm (Qe x) (dQ 1 x) *ᵥ foot 2 x) 2 := by
  simp only [l348, l349, l350, l353, l354, l355, l358, l360, l375, l408, l783, l784, l785, l786, l787, l788, l789, l790, l791,
    l792, l793, l794, l795, l796, l800, l802, l803, l804, l805, l807, h359, h372, h374, h379, h391, h400, h405, mv_0, mv_1, mv_2, dRm_00, dRm_01, dRm_02, dRm_10, dRm_11, dRm_12, dRm_20, dRm_21, dRm_22, dQ_1_0, dQ_1_1, dQ_1_2, dQ_1_3] <;> ring
theorem e1_15 (x : Fin 36 → ℝ) : l826 x = (dRm (Qe x) (dQ 1 x) *ᵥ vb 2 x) 0 := by
  simp only [l414, l415, l416, l419, l420, l421, l424, l426, l441, l808, l809, l810, l811, l812, l813, l814, l815, l816, l817,
    l818, l819, l820, l821, l822, l823, l824, l825, l826, h425, h438, h440, h445, h473, h498, h507, mv_0, mv_1, mv_2, dRm_00, dRm_01, dRm_02, dRm_10, dRm_11, dRm_12, dRm_20, dRm_21, dRm_22, dQ_1_0, dQ_1_1, dQ_1_2, dQ_1_3] <;> ring
theorem e1_16 (x : Fin 36 → ℝ) : l831 x = (dRm (Qe x) (dQ 1 x) *ᵥ vb 2 x) 1 := by
  simp only [l414, l415, l416, l419, l420, l421, l424, l426, l441, l510, l808, l809, l810, l811, l812, l813, l814, l815, l816,
    l818, l819, l820, l822, l823, l824, l827, l828, l829, l830, l831, h425, h438, h440, h445, h473, h498, h507, mv_0, mv_1, mv_2, dRm_00, dRm_01, dRm_02, dRm_10, dRm_11, dRm_12, dRm_20, dRm_21, dRm_22, dQ_1_0, dQ_1_1, dQ_1_2, dQ_1_3] <;> ring
theorem e1_17 (x : Fin 36 → ℝ) : l832 x = (dRm (Qe x) (dQ 1 x) *ᵥ vb 2 x) 2 := by
  simp only [l414, l415, l416, l419, l420, l421, l424, l426, l441, l510, l808, l809, l810, l811, l812, l813, l814, l815, l816,
    l817, l818, l819, l820, l821, l825, l827, l828, l829, l830, l832, h425, h438, h440, h445, h473, h498, h507, mv_0, mv_1, mv_2, dRm_00, dRm_01, dRm_02, dRm_10, dRm_11, dRm_12, dRm_20, dRm_21, dRm_22, dQ_1_0, dQ_1_1, dQ_1_2, dQ_1_3] <;> ring
theorem e2_12 (x : Fin 36 → ℝ) : l981 x = (dRm (Qe x) (dQ 2 x) *ᵥ foot 2 x) 0 := by
  simp only [l348, l349, l350, l351, l352, l353, l355, l356, l357, l360, l370, l371, l375, l967, l968, l969, l970, l971, l972,
    l973, l974, l975, l976, l977, l978, l979, l980, l981, h359, h372, h374, h379, h391, h400, h405, mv_0, mv_1, mv_2, dRm_00, dRm_01, dRm_02, dRm_10, dRm_11, dRm_12, dRm_20, dRm_21, dRm_22, dQ_2_0, dQ_2_1, dQ_2_2, dQ_2_3] <;> ring
theorem e2_13 (x : Fin 36 → ℝ) : l986 x = (dRm (Qe x) (dQ 2 x) *ᵥ foot 2 x) 1 := by
  simp only [l348, l349, l350, l351, l352, l353, l355, l356, l357, l360, l370, l371, l375, l408, l967, l968, l969, l970, l971,
    l973, l974, l975, l977, l978, l979, l982, l983, l984, l985, l986, h359, h372, h374, h379, h391, h400, h405, mv_0, mv_1, mv_2, dRm_00, dRm_01, dRm_02, dRm_10, dRm_11, dRm_12, dRm_20, dRm_21, dRm_22, dQ_2_0, dQ_2_1, dQ_2_2, dQ_2_3] <;> ring
theorem e2_14 (x : Fin 36 → ℝ) : l987 x = (dRm (Qe x) (dQ 2 x) *ᵥ foot 2 x) 2 := by
  simp only [l348, l349, l350, l351, l352, l353, l355, l356, l357, l360, l370, l371, l375, l408, l967, l968, l969, l970, l971,
    l972, l973, l974, l975, l976, l980, l982, l983, l984, l985, l987, h359, h372, h374, h379, h391, h400, h405, mv_0, mv_1, mv_2, dRm_00, dRm_01, dRm_02, dRm_10, dRm_11, dRm_12, dRm_20, dRm_21, dRm_22, dQ_2_0, dQ_2_1, dQ_2_2, dQ_2_3] <;> ring
theorem e2_15 (x : Fin 36 → ℝ) : l1002 x = (dRm (Qe x) (dQ 2 x) *ᵥ vb 2 x) 0 := by
  simp only [l414, l415, l416, l417, l418, l419, l421, l422, l423, l426, l436, l437, l441, l988, l989, l990, l991, l992, l993,
    l994, l995, l996, l997, l998, l999, l1000, l1001, l1002, h425, h438, h440, h445, h473, h498, h507, mv_0, mv_1, mv_2, dRm_00, dRm_01, dRm_02, dRm_10, dRm_11, dRm_12, dRm_20, dRm_21, dRm_22, dQ_2_0, dQ_2_1, dQ_2_2, dQ_2_3] <;> ring
theorem e2_16 (x : Fin 36 → ℝ) : l1007 x = (dRm (Qe x) (dQ 2 x) *ᵥ vb 2 x) 1 := by
  simp only [l414, l415, l416, l417, l418, l419, l421, l422, l423, l426, l436, l437, l441, l510, l988, l989, l990, l991, l992,
    l994, l995, l996, l998, l999, l1000, l1003, l1004, l1005, l1006, l1007, h425, h438, h440, h445, h473, h498, h507, mv_0, mv_1, mv_2, dRm_00, dRm_01, dRm_02, dRm_10, dRm_11, dRm_12, dRm_20, dRm_21, dRm_22, dQ_2_0, dQ_2_1, dQ_2_2, dQ_2_3] <;> ring
theorem e2_17 (x : Fin 36 → ℝ) : l1008 x = (dRm (Qe x) (dQ 2 x) *ᵥ vb 2 x) 2 := by
  simp only [l414, l415, l416, l417, l418, l419, l421, l422, l423, l426, l436, l437, l441, l510, l988, l989, l990, l991, l992,
    l993, l994, l995, l996, l997, l1001, l1003, l1004, l1005, l1006, l1008, h425, h438, h440, h445, h473, h498, h507, mv_0, mv_1, mv_2, dRm_00, dRm_01, dRm_02, dRm_10, dRm_11, dRm_12, dRm_20, dRm_21, dRm_22, dQ_2_0, dQ_2_1, dQ_2_2, dQ_2_3] <;> ring
theorem e3_12 (x : Fin 36 → ℝ) : l1489 x = ((Pi.single 0 1 : V3)) 0 := by simp [l1489]
theorem e3_13 (_x : Fin 36 → ℝ) : (0 : ℝ) = ((Pi.single 0 1 : V3)) 1 := by simp [Pi.zero_apply]
theorem e3_14 (_x : Fin 36 → ℝ) : (0 : ℝ) = ((Pi.single 0 1 : V3)) 2 := by simp [Pi.zero_apply]
theorem e3_15 (_x : Fin 36 → ℝ) : (0 : ℝ) = ((0 : V3)) 0 := by simp [Pi.zero_apply]
theorem e3_16 (_x : Fin 36 → ℝ) : (0 : ℝ) = ((0 : V3)) 1 := by simp [Pi.zero_apply]
theorem e3_17 (_x : Fin 36 → ℝ) : (0 : ℝ) = ((0 : V3)) 2 := by simp [Pi.zero_apply]
theorem e4_12 (_x : Fin 36 → ℝ) : (0 : ℝ) = ((Pi.single 1 1 : V3)) 0 := by simp [Pi.zero_apply]
theorem e4_13 (x : Fin 36 → ℝ) : l1493 x = ((Pi.single 1 1 : V3)) 1 := by simp [l1493]
theorem e4_14 (_x : Fin 36 → ℝ) : (0 : ℝ) = ((Pi.single 1 1 : V3)) 2 := by simp [Pi.zero_apply]
theorem e4_15 (_x : Fin 36 → ℝ) : (0 : ℝ) = ((0 : V3)) 0 := by simp [Pi.zero_apply]
theorem e4_16 (_x : Fin 36 → ℝ) : (0 : ℝ) = ((0 : V3)) 1 := by simp [Pi.zero_apply]
theorem e4_17 (_x : Fin 36 → ℝ) : (0 : ℝ) = ((0 : V3)) 2 := by simp [Pi.zero_apply]
theorem e5_12 (_x : Fin 36 → ℝ) : (0 : ℝ) = ((Pi.single 2 1 : V3)) 0 := by simp [Pi.zero_apply]
theorem e5_13 (_x : Fin 36 → ℝ) : (0 : ℝ) = ((Pi.single 2 1 : V3)) 1 := by simp [Pi.zero_apply]
theorem e5_14 (x : Fin 36 → ℝ) : l1497 x = ((Pi.single 2 1 : V3)) 2 := by simp [l1497]
theorem e5_15 (_x : Fin 36 → ℝ) : (0 : ℝ) = ((0 : V3)) 0 := by simp [Pi.zero_apply]
theorem e5_16 (_x : Fin 36 → ℝ) : (0 : ℝ) = ((0 : V3)) 1 := by simp [Pi.zero_apply]
theorem e5_17 (_x : Fin 36 → ℝ) : (0 : ℝ) = ((0 : V3)) 2 := by simp [Pi.zero_apply]
theorem e6_12 (_x : Fin 36 → ℝ) : (0 : ℝ) = ((0 : V3)) 0 := by simp [Pi.zero_apply]
theorem e6_13 (_x : Fin 36 → ℝ) : (0 : ℝ) = ((0 : V3)) 1 := by simp [Pi.zero_apply]
theorem e6_14 (_x : Fin 36 → ℝ) : (0 : ℝ) = ((0 : V3)) 2 := by simp [Pi.zero_apply]
theorem e6_15 (_x : Fin 36 → ℝ) : (0 : ℝ) = ((0 : V3)) 0 := by simp [Pi.zero_apply]
theorem e6_16 (_x : Fin 36 → ℝ) : (0 : ℝ) = ((0 : V3)) 1 := by simp [Pi.zero_apply]
theorem e6_17 (_x : Fin 36 → ℝ) : (0 : ℝ) = ((0 : V3)) 2 := by simp [Pi.zero_apply]
theorem e7_12 (_x : Fin 36 → ℝ) : (0 : ℝ) = ((0 : V3)) 0 := by simp [Pi.zero_apply]
theorem e7_13 (_x : Fin 36 → ℝ) : (0 : ℝ) = ((0 : V3)) 1 := by simp [Pi.zero_apply]
theorem e7_14 (_x : Fin 36 → ℝ) : (0 : ℝ) = ((0 : V3)) 2 := by simp [Pi.zero_apply]
theorem e7_15 (_x : Fin 36 → ℝ) : (0 : ℝ) = ((0 : V3)) 0 := by simp [Pi.zero_apply]
theorem e7_16 (_x : Fin 36 → ℝ) : (0 : ℝ) = ((0 : V3)) 1 := by simp [Pi.zero_apply]
theorem e7_17 (_x : Fin 36 → ℝ) : (0 : ℝ) = ((0 : V3)) 2 := by simp [Pi.zero_apply]
theorem e8_12 (_x : Fin 36 → ℝ) : (0 : ℝ) = ((0 : V3)) 0 := by simp [Pi.zero_apply]
theorem e8_13 (_x : Fin 36 → ℝ) : (0 : ℝ) = ((0 : V3)) 1 := by simp [Pi.zero_apply]
theorem e8_14 (_x : Fin 36 → ℝ) : (0 : ℝ) = ((0 : V3)) 2 := by simp [Pi.zero_apply]
theorem e8_15 (_x : Fin 36 → ℝ) : (0 : ℝ) = ((0 : V3)) 0 := by simp [Pi.zero_apply]
theorem e8_16 (_x : Fin 36 → ℝ) : (0 : ℝ) = ((0 : V3)) 1 := by simp [Pi.zero_apply]
theorem e8_17 (_x : Fin 36 → ℝ) : (0 : ℝ) = ((0 : V3)) 2 := by simp [Pi.zero_apply]
theorem e9_12 (_x : Fin 36 → ℝ) : (0 : ℝ) = ((0 : V3)) 0 := by simp [Pi.zero_apply]
theorem e9_13 (_x : Fin 36 → ℝ) : (0 : ℝ) = ((0 : V3)) 1 := by simp [Pi.zero_apply]
theorem e9_14 (_x : Fin 36 → ℝ) : (0 : ℝ) = ((0 : V3)) 2 := by simp [Pi.zero_apply]
theorem e9_15 (_x : Fin 36 → ℝ) : (0 : ℝ) = ((0 : V3)) 0 := by simp [Pi.zero_apply]
theorem e9_16 (_x : Fin 36 → ℝ) : (0 : ℝ) = ((0 : V3)) 1 := by simp [Pi.zero_apply]
theorem e9_17 (_x : Fin 36 → ℝ) : (0 : ℝ) = ((0 : V3)) 2 := by simp [Pi.zero_apply]
theorem e10_12 (_x : Fin 36 → ℝ) : (0 : ℝ) = ((0 : V3)) 0 := by simp [Pi.zero_apply]
theorem e10_13 (_x : Fin 36 → ℝ) : (0 : ℝ) = ((0 : V3)) 1 := by simp [Pi.zero_apply]
theorem e10_14 (_x : Fin 36 → ℝ) : (0 : ℝ) = ((0 : V3)) 2 := by simp [Pi.zero_apply]
theorem e10_15 (_x : Fin 36 → ℝ) : (0 : ℝ) = ((0 : V3)) 0 := by simp [Pi.zero_apply]
theorem e10_16 (_x : Fin 36 → ℝ) : (0 : ℝ) = ((0 : V3)) 1 := by simp [Pi.zero_apply]
theorem e10_17 (_x : Fin 36 → ℝ) : (0 : ℝ) = ((0 : V3)) 2 := by simp [Pi.zero_apply]
theorem e11_12 (_x : Fin 36 → ℝ) : (0 : ℝ) = ((0 : V3)) 0 := by simp [Pi.zero_apply]
theorem e11_13 (_x : Fin 36 → ℝ) : (0 : ℝ) = ((0 : V3)) 1 := by simp [Pi.zero_apply]
theorem e11_14 (_x : Fin 36 → ℝ) : (0 : ℝ) = ((0 : V3)) 2 := by simp [Pi.zero_apply]
theorem e11_15 (_x : Fin 36 → ℝ) : (0 : ℝ) = ((0 : V3)) 0 := by simp [Pi.zero_apply]
theorem e11_16 (_x : Fin 36 → ℝ) : (0 : ℝ) = ((0 : V3)) 1 := by simp [Pi.zero_apply]
theorem e11_17 (_x : Fin 36 → ℝ) : (0 : ℝ) = ((0 : V3)) 2 := by simp [Pi.zero_apply]
theorem e12_12 (x : Fin 36 → ℝ) : l1255 x = (quatMatrix (Qe x) *ᵥ jcol 2 0 x) 0 := by
  simp only [l360, l375, l383, l385, l387, l389, l1245, l1246, l1247, l1248, l1249, l1250, l1251, l1252, l1253, l1254, l1255,
    h359, h372, h374, h379, mv_0, mv_1, mv_2, qm_00, qm_01, qm_02, qm_10, qm_11, qm_12, qm_20, qm_21, qm_22, jcol, jac, jm_00, jm_01, jm_02, jm_10, jm_11, jm_12, jm_20, jm_21, jm_22, side_2, th_2_0, th_2_1, th_2_2, segA, segB, segC, segD, segH, Pi.add_apply, cr_0, cr_1, cr_2, djm_0_00, djm_0_01, djm_0_02, djm_0_10, djm_0_11, djm_0_12, djm_0_20, djm_0_21, djm_0_22, qd_2_0, qd_2_1, qd_2_2, om_0, om_1, om_2] <;> ring
theorem e12_13 (x : Fin 36 → ℝ) : l1262 x = (quatMatrix (Qe x) *ᵥ jcol 2 0 x) 1 := by
  simp only [l360, l383, l385, l387, l389, l408, l1248, l1249, l1253, l1254, l1256, l1257, l1258, l1259, l1260, l1261, l1262,
    h359, h372, h374, h379, mv_0, mv_1, mv_2, qm_00, qm_01, qm_02, qm_10, qm_11, qm_12, qm_20, qm_21, qm_22, jcol, jac, jm_00, jm_01, jm_02, jm_10, jm_11, jm_12, jm_20, jm_21, jm_22, side_2, th_2_0, th_2_1, th_2_2, segA, segB, segC, segD, segH, Pi.add_apply, cr_0, cr_1, cr_2, djm_0_00, djm_0_01, djm_0_02, djm_0_10, djm_0_11, djm_0_12, djm_0_20, djm_0_21, djm_0_22, qd_2_0, qd_2_1, qd_2_2, om_0, om_1, om_2] <;> ring
theorem e12_14 (x : Fin 36 → ℝ) : l1266 x = (quatMatrix (Qe x) *ᵥ jcol 2 0 x) 2 := by
  simp only [l360, l375, l383, l385, l387, l389, l408, l1248, l1249, l1253, l1254, l1256, l1257, l1260, l1263, l1264, l1265,
    l1266, h359, h372, h374, h379, mv_0, mv_1, mv_2, qm_00, qm_01, qm_02, qm_10, qm_11, qm_12, qm_20, qm_21, qm_22, jcol, jac, jm_00, jm_01, jm_02, jm_10, jm_11, jm_12, jm_20, jm_21, jm_22, side_2, th_2_0, th_2_1, th_2_2, segA, segB, segC, segD, segH, Pi.add_apply, cr_0, cr_1, cr_2, djm_0_00, djm_0_01, djm_0_02, djm_0_10, djm_0_11, djm_0_12, djm_0_20, djm_0_21, djm_0_22, qd_2_0, qd_2_1, qd_2_2, om_0, om_1, om_2] <;> ring
theorem e12_15 (x : Fin 36 → ℝ) : l1288 x = (quatMatrix (Qe x) *ᵥ (djm (side 2) 0 (th 2 x) *ᵥ qd 2 x + cross (om x) (jcol 2 0 x))) 0 := by
  simp only [l383, l385, l387, l389, l426, l441, l465, l1248, l1253, l1267, l1268, l1269, l1271, l1272, l1273, l1274, l1275,
    l1276, l1279, l1280, l1281, l1282, l1283, l1284, l1287, l1288, h425, h438, h440, h445, mv_0, mv_1, mv_2, qm_00, qm_01, qm_02, qm_10, qm_11, qm_12, qm_20, qm_21, qm_22, jcol, jac, jm_00, jm_01, jm_02, jm_10, jm_11, jm_12, jm_20, jm_21, jm_22, side_2, th_2_0, th_2_1, th_2_2, segA, segB, segC, segD, segH, Pi.add_apply, cr_0, cr_1, cr_2, djm_0_00, djm_0_01, djm_0_02, djm_0_10, djm_0_11, djm_0_12, djm_0_20, djm_0_21, djm_0_22, qd_2_0, qd_2_1, qd_2_2, om_0, om_1, om_2] <;> ring
theorem e12_16 (x : Fin 36 → ℝ) : l1295 x = (quatMatrix (Qe x) *ᵥ (djm (side 2) 0 (th 2 x) *ᵥ qd 2 x + cross (om x) (jcol 2 0 x))) 1 := by
  simp only [l383, l385, l387, l389, l426, l441, l465, l510, l1248, l1253, l1271, l1272, l1273, l1274, l1275, l1277, l1279,
    l1280, l1281, l1282, l1287, l1289, l1290, l1291, l1293, l1294, l1295, h425, h438, h440, h445, mv_0, mv_1, mv_2, qm_00, qm_01, qm_02, qm_10, qm_11, qm_12, qm_20, qm_21, qm_22, jcol, jac, jm_00, jm_01, jm_02, jm_10, jm_11, jm_12, jm_20, jm_21, jm_22, side_2, th_2_0, th_2_1, th_2_2, segA, segB, segC, segD, segH, Pi.add_apply, cr_0, cr_1, cr_2, djm_0_00, djm_0_01, djm_0_02, djm_0_10, djm_0_11, djm_0_12, djm_0_20, djm_0_21, djm_0_22, qd_2_0, qd_2_1, qd_2_2, om_0, om_1, om_2] <;> ring
theorem e12_17 (x : Fin 36 → ℝ) : l1297 x = (quatMatrix (Qe x) *ᵥ (djm (side 2) 0 (th 2 x) *ᵥ qd 2 x + cross (om x) (jcol 2 0 x))) 2 := by
  simp only [l383, l385, l387, l389, l426, l441, l465, l510, l1248, l1253, l1267, l1268, l1270, l1271, l1272, l1273, l1279,
    l1280, l1281, l1283, l1287, l1289, l1290, l1292, l1293, l1296, l1297, h425, h438, h440, h445, mv_0, mv_1, mv_2, qm_00, qm_01, qm_02, qm_10, qm_11, qm_12, qm_20, qm_21, qm_22, jcol, jac, jm_00, jm_01, jm_02, jm_10, jm_11, jm_12, jm_20, jm_21, jm_22, side_2, th_2_0, th_2_1, th_2_2, segA, segB, segC, segD, segH, Pi.add_apply, cr_0, cr_1, cr_2, djm_0_00, djm_0_01, djm_0_02, djm_0_10, djm_0_11, djm_0_12, djm_0_20, djm_0_21, djm_0_22, qd_2_0, qd_2_1, qd_2_2, om_0, om_1, om_2] <;> ring
theorem e13_12 (x : Fin 36 → ℝ) : l1310 x = (quatMatrix (Qe x) *ᵥ jcol 2 1 x) 0 := by
  simp only [l360, l375, l381, l382, l385, l386, l389, l390, l394, l395, l397, l399, l1245, l1246, l1247, l1250, l1251, l1252,
    l1259, l1263, l1304, l1305, l1306, l1307, l1308, l1309, l1310, h359, h372, h374, h379, mv_0, mv_1, mv_2, qm_00, qm_01, qm_02, qm_10, qm_11, qm_12, qm_20, qm_21, qm_22, jcol, jac, jm_00, jm_01, jm_02, jm_10, jm_11, jm_12, jm_20, jm_21, jm_22, side_2, th_2_0, th_2_1, th_2_2, segA, segB, segC, segD, segH, Pi.add_apply, cr_0, cr_1, cr_2, djm_1_00, djm_1_01, djm_1_02, djm_1_10, djm_1_11, djm_1_12, djm_1_20, djm_1_21, djm_1_22, qd_2_0, qd_2_1, qd_2_2, om_0, om_1, om_2] <;> ring
theorem e13_13 (x : Fin 36 → ℝ) : l1312 x = (quatMatrix (Qe x) *ᵥ jcol 2 1 x) 1 := by
  simp only [l360, l375, l381, l382, l385, l386, l389, l390, l394, l395, l397, l399, l408, l1250, l1251, l1256, l1257, l1258,
    l1259, l1260, l1261, l1304, l1305, l1306, l1307, l1309, l1311, l1312, h359, h372, h374, h379, mv_0, mv_1, mv_2, qm_00, qm_01, qm_02, qm_10, qm_11, qm_12, qm_20, qm_21, qm_22, jcol, jac, jm_00, jm_01, jm_02, jm_10, jm_11, jm_12, jm_20, jm_21, jm_22, side_2, th_2_0, th_2_1, th_2_2, segA, segB, segC, segD, segH, Pi.add_apply, cr_0, cr_1, cr_2, djm_1_00, djm_1_01, djm_1_02, djm_1_10, djm_1_11, djm_1_12, djm_1_20, djm_1_21, djm_1_22, qd_2_0, qd_2_1, qd_2_2, om_0, om_1, om_2] <;> ring
theorem e13_14 (x : Fin 36 → ℝ) : l1314 x = (quatMatrix (Qe x) *ᵥ jcol 2 1 x) 2 := by
  simp only [l360, l375, l381, l382, l385, l386, l389, l390, l394, l395, l397, l399, l408, l1245, l1246, l1256, l1257, l1260,
    l1263, l1264, l1265, l1304, l1305, l1306, l1307, l1309, l1313, l1314, h359, h372, h374, h379, mv_0, mv_1, mv_2, qm_00, qm_01, qm_02, qm_10, qm_11, qm_12, qm_20, qm_21, qm_22, jcol, jac, jm_00, jm_01, jm_02, jm_10, jm_11, jm_12, jm_20, jm_21, jm_22, side_2, th_2_0, th_2_1, th_2_2, segA, segB, segC, segD, segH, Pi.add_apply, cr_0, cr_1, cr_2, djm_1_00, djm_1_01, djm_1_02, djm_1_10, djm_1_11, djm_1_12, djm_1_20, djm_1_21, djm_1_22, qd_2_0, qd_2_1, qd_2_2, om_0, om_1, om_2] <;> ring
theorem e13_15 (x : Fin 36 → ℝ) : l1321 x = (quatMatrix (Qe x) *ᵥ (djm (side 2) 1 (th 2 x) *ᵥ qd 2 x + cross (om x) (jcol 2 1 x))) 0 := by
  simp only [l381, l385, l389, l394, l426, l441, l447, l449, l453, l455, l457, l459, l461, l463, l465, l466, l468, l476, l478,
    l482, l484, l486, l488, l490, l492, l494, l496, l1267, l1268, l1269, l1274, l1275, l1276, l1282, l1283, l1284, l1304, l1305, l1315, l1316, l1317, l1318, l1319, l1320, l1321, h425, h438, h440, h445, mv_0, mv_1, mv_2, qm_00, qm_01, qm_02, qm_10, qm_11, qm_12, qm_20, qm_21, qm_22, jcol, jac, jm_00, jm_01, jm_02, jm_10, jm_11, jm_12, jm_20, jm_21, jm_22, side_2, th_2_0, th_2_1, th_2_2, segA, segB, segC, segD, segH, Pi.add_apply, cr_0, cr_1, cr_2, djm_1_00, djm_1_01, djm_1_02, djm_1_10, djm_1_11, djm_1_12, djm_1_20, djm_1_21, djm_1_22, qd_2_0, qd_2_1, qd_2_2, om_0, om_1, om_2] <;> ring
theorem e13_16 (x : Fin 36 → ℝ) : l1322 x = (quatMatrix (Qe x) *ᵥ (djm (side 2) 1 (th 2 x) *ᵥ qd 2 x + cross (om x) (jcol 2 1 x))) 1 := by
  simp only [l381, l385, l389, l394, l426, l441, l447, l449, l453, l455, l457, l459, l461, l463, l465, l466, l468, l476, l478,
    l482, l484, l486, l488, l490, l492, l494, l496, l510, l1274, l1275, l1277, l1282, l1289, l1290, l1291, l1293, l1294, l1304, l1305, l1315, l1316, l1317, l1318, l1319, l1320, l1322, h425, h438, h440, h445, mv_0, mv_1, mv_2, qm_00, qm_01, qm_02, qm_10, qm_11, qm_12, qm_20, qm_21, qm_22, jcol, jac, jm_00, jm_01, jm_02, jm_10, jm_11, jm_12, jm_20, jm_21, jm_22, side_2, th_2_0, th_2_1, th_2_2, segA, segB, segC, segD, segH, Pi.add_apply, cr_0, cr_1, cr_2, djm_1_00, djm_1_01, djm_1_02, djm_1_10, djm_1_11, djm_1_12, djm_1_20, djm_1_21, djm_1_22, qd_2_0, qd_2_1, qd_2_2, om_0, om_1, om_2] <;> ring
theorem e13_17 (x : Fin 36 → ℝ) : l1323 x = (quatMatrix (Qe x) *ᵥ (djm (side 2) 1 (th 2 x) *ᵥ qd 2 x + cross (om x) (jcol 2 1 x))) 2 := by
  simp only [l381, l385, l389, l394, l426, l441, l447, l449, l453, l455, l457, l459, l461, l463, l465, l466, l468, l476, l478,
    l482, l484, l486, l488, l490, l492, l494, l496, l510, l1267, l1268, l1270, l1283, l1289, l1290, l1292, l1293, l1296, l1304, l1305, l1315, l1316, l1317, l1318, l1319, l1320, l1323, h425, h438, h440, h445, mv_0, mv_1, mv_2, qm_00, qm_01, qm_02, qm_10, qm_11, qm_12, qm_20, qm_21, qm_22, jcol, jac, jm_00, jm_01, jm_02, jm_10, jm_11, jm_12, jm_20, jm_21, jm_22, side_2, th_2_0, th_2_1, th_2_2, segA, segB, segC, segD, segH, Pi.add_apply, cr_0, cr_1, cr_2, djm_1_00, djm_1_01, djm_1_02, djm_1_10, djm_1_11, djm_1_12, djm_1_20, djm_1_21, djm_1_22, qd_2_0, qd_2_1, qd_2_2, om_0, om_1, om_2] <;> ring
theorem e14_12 (x : Fin 36 → ℝ) : l1329 x = (quatMatrix (Qe x) *ᵥ jcol 2 2 x) 0 := by
  simp only [l360, l375, l381, l382, l383, l384, l386, l387, l388, l394, l395, l396, l397, l398, l403, l404, l1245, l1246, l1247,
    l1250, l1251, l1252, l1259, l1263, l1308, l1324, l1325, l1326, l1327, l1328, l1329, h359, h372, h374, h379, mv_0, mv_1, mv_2, qm_00, qm_01, qm_02, qm_10, qm_11, qm_12, qm_20, qm_21, qm_22, jcol, jac, jm_00, jm_01, jm_02, jm_10, jm_11, jm_12, jm_20, jm_21, jm_22, side_2, th_2_0, th_2_1, th_2_2, segA, segB, segC, segD, segH, Pi.add_apply, cr_0, cr_1, cr_2, djm_2_00, djm_2_01, djm_2_02, djm_2_10, djm_2_11, djm_2_12, djm_2_20, djm_2_21, djm_2_22, qd_2_0, qd_2_1, qd_2_2, om_0, om_1, om_2] <;> ring
theorem e14_13 (x : Fin 36 → ℝ) : l1330 x = (quatMatrix (Qe x) *ᵥ jcol 2 2 x) 1 := by
  simp only [l360, l375, l381, l382, l383, l384, l386, l387, l388, l394, l395, l396, l397, l398, l403, l404, l408, l1250, l1251,
    l1256, l1257, l1258, l1259, l1260, l1261, l1311, l1324, l1325, l1326, l1327, l1328, l1330, h359, h372, h374, h379, mv_0, mv_1, mv_2, qm_00, qm_01, qm_02, qm_10, qm_11, qm_12, qm_20, qm_21, qm_22, jcol, jac, jm_00, jm_01, jm_02, jm_10, jm_11, jm_12, jm_20, jm_21, jm_22, side_2, th_2_0, th_2_1, th_2_2, segA, segB, segC, segD, segH, Pi.add_apply, cr_0, cr_1, cr_2, djm_2_00, djm_2_01, djm_2_02, djm_2_10, djm_2_11, djm_2_12, djm_2_20, djm_2_21, djm_2_22, qd_2_0, qd_2_1, qd_2_2, om_0, om_1, om_2] <;> ring
theorem e14_14 (x : Fin 36 → ℝ) : l1331 x = (quatMatrix (Qe x) *ᵥ jcol 2 2 x) 2 := by
  simp only [l360, l375, l381, l382, l383, l384, l386, l387, l388, l394, l395, l396, l397, l398, l403, l404, l408, l1245, l1246,
    l1256, l1257, l1260, l1263, l1264, l1265, l1313, l1324, l1325, l1326, l1327, l1328, l1331, h359, h372, h374, h379, mv_0, mv_1, mv_2, qm_00, qm_01, qm_02, qm_10, qm_11, qm_12, qm_20, qm_21, qm_22, jcol, jac, jm_00, jm_01, jm_02, jm_10, jm_11, jm_12, jm_20, jm_21, jm_22, side_2, th_2_0, th_2_1, th_2_2, segA, segB, segC, segD, segH, Pi.add_apply, cr_0, cr_1, cr_2, djm_2_00, djm_2_01, djm_2_02, djm_2_10, djm_2_11, djm_2_12, djm_2_20, djm_2_21, djm_2_22, qd_2_0, qd_2_1, qd_2_2, om_0, om_1, om_2] <;> ring
theorem e14_15 (x : Fin 36 → ℝ) : l1339 x = (quatMatrix (Qe x) *ᵥ (djm (side 2) 2 (th 2 x) *ᵥ qd 2 x + cross (om x) (jcol 2 2 x))) 0 := by
  simp only [l381, l383, l387, l394, l426, l441, l447, l448, l449, l450, l452, l453, l454, l457, l458, l459, l460, l463, l464,
    l466, l467, l470, l471, l476, l477, l478, l479, l481, l482, l483, l486, l487, l488, l489, l492, l493, l494, l495, l501, l502, l504, l505, l1267, l1268, l1269, l1274, l1275, l1276, l1282, l1283, l1284, l1324, l1325, l1332, l1333, l1334, l1335, l1336, l1337, l1338, l1339, h425, h438, h440, h445, mv_0, mv_1, mv_2, qm_00, qm_01, qm_02, qm_10, qm_11, qm_12, qm_20, qm_21, qm_22, jcol, jac, jm_00, jm_01, jm_02, jm_10, jm_11, jm_12, jm_20, jm_21, jm_22, side_2, th_2_0, th_2_1, th_2_2, segA, segB, segC, segD, segH, Pi.add_apply, cr_0, cr_1, cr_2, djm_2_00, djm_2_01, djm_2_02, djm_2_10, djm_2_11, djm_2_12, djm_2_20, djm_2_21, djm_2_22, qd_2_0, qd_2_1, qd_2_2, om_0, om_1, om_2] <;> ring
theorem e14_16 (x : Fin 36 → ℝ) : l1340 x = (quatMatrix (Qe x) *ᵥ (djm (side 2) 2 (th 2 x) *ᵥ qd 2 x + cross (om x) (jcol 2 2 x))) 1 := by
  simp only [l381, l383, l387, l394, l426, l441, l447, l448, l449, l450, l452, l453, l454, l457, l458, l459, l460, l463, l464,
    l466, l467, l470, l471, l476, l477, l478, l479, l481, l482, l483, l486, l487, l488, l489, l492, l493, l494, l495, l501, l502, l504, l505, l510, l1274, l1275, l1277, l1282, l1289, l1290, l1291, l1293, l1294, l1324, l1325, l1332, l1333, l1334, l1335, l1336, l1337, l1338, l1340, h425, h438, h440, h445, mv_0, mv_1, mv_2, qm_00, qm_01, qm_02, qm_10, qm_11, qm_12, qm_20, qm_21, qm_22, jcol, jac, jm_00, jm_01, jm_02, jm_10, jm_11, jm_12, jm_20, jm_21, jm_22, side_2, th_2_0, th_2_1, th_2_2, segA, segB, segC, segD, segH, Pi.add_apply, cr_0, cr_1, cr_2, djm_2_00, djm_2_01, djm_2_02, djm_2_10, djm_2_11, djm_2_12, djm_2_20, djm_2_21, djm_2_22, qd_2_0, qd_2_1, qd_2_2, om_0, om_1, om_2] <;> ring
theorem e14_17 (x : Fin 36 → ℝ) : l1341 x = (quatMatrix (Qe x) *ᵥ (djm (side 2) 2 (th 2 x) *ᵥ qd 2 x + cross (om x) (jcol 2 2 x))) 2 := by
  simp only [l381, l383, l387, l394, l426, l441, l447, l448, l449, l450, l452, l453, l454, l457, l458, l459, l460, l463, l464,
    l466, l467, l470, l471, l476, l477, l478, l479, l481, l482, l483, l486, l487, l488, l489, l492, l493, l494, l495, l501, l502, l504, l505, l510, l1267, l1268, l1270, l1283, l1289, l1290, l1292, l1293, l1296, l1324, l1325, l1332, l1333, l1334, l1335, l1336, l1337, l1338, l1341, h425, h438, h440, h445, mv_0, mv_1, mv_2, qm_00, qm_01, qm_02, qm_10, qm_11, qm_12, qm_20, qm_21, qm_22, jcol, jac, jm_00, jm_01, jm_02, jm_10, jm_11, jm_12, jm_20, jm_21, jm_22, side_2, th_2_0, th_2_1, th_2_2, segA, segB, segC, segD, segH, Pi.add_apply, cr_0, cr_1, cr_2, djm_2_00, djm_2_01, djm_2_02, djm_2_10, djm_2_11, djm_2_12, djm_2_20, djm_2_21, djm_2_22, qd_2_0, qd_2_1, qd_2_2, om_0, om_1, om_2] <;> ring
theorem e15_12 (_x : Fin 36 → ℝ) : (0 : ℝ) = ((0 : V3)) 0 := by simp [Pi.zero_apply]
theorem e15_13 (_x : Fin 36 → ℝ) : (0 : ℝ) = ((0 : V3)) 1 := by simp [Pi.zero_apply]
theorem e15_14 (_x : Fin 36 → ℝ) : (0 : ℝ) = ((0 : V3)) 2 := by simp [Pi.zero_apply]
theorem e15_15 (_x : Fin 36 → ℝ) : (0 : ℝ) = ((0 : V3)) 0 := by simp [Pi.zero_apply]
theorem e15_16 (_x : Fin 36 → ℝ) : (0 : ℝ) = ((0 : V3)) 1 := by simp [Pi.zero_apply]
theorem e15_17 (_x : Fin 36 → ℝ) : (0 : ℝ) = ((0 : V3)) 2 := by simp [Pi.zero_apply]
theorem e16_12 (_x : Fin 36 → ℝ) : (0 : ℝ) = ((0 : V3)) 0 := by simp [Pi.zero_apply]
theorem e16_13 (_x : Fin 36 → ℝ) : (0 : ℝ) = ((0 : V3)) 1 := by simp [Pi.zero_apply]
theorem e16_14 (_x : Fin 36 → ℝ) : (0 : ℝ) = ((0 : V3)) 2 := by simp [Pi.zero_apply]
theorem e16_15 (_x : Fin 36 → ℝ) : (0 : ℝ) = ((0 : V3)) 0 := by simp [Pi.zero_apply]
theorem e16_16 (_x : Fin 36 → ℝ) : (0 : ℝ) = ((0 : V3)) 1 := by simp [Pi.zero_apply]
theorem e16_17 (_x : Fin 36 → ℝ) : (0 : ℝ) = ((0 : V3)) 2 := by simp [Pi.zero_apply]
theorem e17_12 (_x : Fin 36 → ℝ) : (0 : ℝ) = ((0 : V3)) 0 := by simp [Pi.zero_apply]
theorem e17_13 (_x : Fin 36 → ℝ) : (0 : ℝ) = ((0 : V3)) 1 := by simp [Pi.zero_apply]
theorem e17_14 (_x : Fin 36 → ℝ) : (0 : ℝ) = ((0 : V3)) 2 := by simp [Pi.zero_apply]
theorem e17_15 (_x : Fin 36 → ℝ) : (0 : ℝ) = ((0 : V3)) 0 := by simp [Pi.zero_apply]
theorem e17_16 (_x : Fin 36 → ℝ) : (0 : ℝ) = ((0 : V3)) 1 := by simp [Pi.zero_apply]
theorem e17_17 (_x : Fin 36 → ℝ) : (0 : ℝ) = ((0 : V3)) 2 := by simp [Pi.zero_apply]
theorem e18_12 (_x : Fin 36 → ℝ) : (0 : ℝ) = ((0 : V3)) 0 := by simp [Pi.zero_apply]
theorem e18_13 (_x : Fin 36 → ℝ) : (0 : ℝ) = ((0 : V3)) 1 := by simp [Pi.zero_apply]
theorem e18_14 (_x : Fin 36 → ℝ) : (0 : ℝ) = ((0 : V3)) 2 := by simp [Pi.zero_apply]
theorem e18_15 (x : Fin 36 → ℝ) : l1447 x = (quatMatrix (Qe x) *ᵥ cross (Pi.single 0 1) (foot 2 x)) 0 := by
  simp only [l381, l383, l387, l389, l394, l426, l441, l463, l464, l465, l466, l467, l468, l469, l492, l493, l494, l495, l496,
    l497, l1267, l1268, l1269, l1274, l1275, l1276, l1446, l1447, h425, h438, h440, h445, mv_0, mv_1, mv_2, qm_00, qm_01, qm_02, qm_10, qm_11, qm_12, qm_20, qm_21, qm_22, cr_0, cr_1, cr_2, E_0_0, E_0_1, E_0_2, foot, pv_0, pv_1, pv_2, side_2, mountX_2, mountY_2, th_2_0, th_2_1, th_2_2, segA, segB, segC, segD, segH] <;> ring
theorem e18_16 (x : Fin 36 → ℝ) : l1448 x = (quatMatrix (Qe x) *ᵥ cross (Pi.single 0 1) (foot 2 x)) 1 := by
  simp only [l381, l383, l387, l389, l394, l426, l463, l464, l465, l466, l467, l468, l469, l492, l493, l494, l495, l496, l497,
    l510, l1282, l1289, l1290, l1291, l1293, l1294, l1446, l1448, h425, h438, h440, h445, mv_0, mv_1, mv_2, qm_00, qm_01, qm_02, qm_10, qm_11, qm_12, qm_20, qm_21, qm_22, cr_0, cr_1, cr_2, E_0_0, E_0_1, E_0_2, foot, pv_0, pv_1, pv_2, side_2, mountX_2, mountY_2, th_2_0, th_2_1, th_2_2, segA, segB, segC, segD, segH] <;> ring
theorem e18_17 (x : Fin 36 → ℝ) : l1449 x = (quatMatrix (Qe x) *ᵥ cross (Pi.single 0 1) (foot 2 x)) 2 := by
  simp only [l381, l383, l387, l389, l394, l426, l441, l463, l464, l465, l466, l467, l468, l469, l492, l493, l494, l495, l496,
    l497, l510, l1283, l1289, l1290, l1292, l1293, l1296, l1446, l1449, h425, h438, h440, h445, mv_0, mv_1, mv_2, qm_00, qm_01, qm_02, qm_10, qm_11, qm_12, qm_20, qm_21, qm_22, cr_0, cr_1, cr_2, E_0_0, E_0_1, E_0_2, foot, pv_0, pv_1, pv_2, side_2, mountX_2, mountY_2, th_2_0, th_2_1, th_2_2, segA, segB, segC, segD, segH] <;> ring
theorem e19_12 (_x : Fin 36 → ℝ) : (0 : ℝ) = ((0 : V3)) 0 := by simp [Pi.zero_apply]
theorem e19_13 (_x : Fin 36 → ℝ) : (0 : ℝ) = ((0 : V3)) 1 := by simp [Pi.zero_apply]
theorem e19_14 (_x : Fin 36 → ℝ) : (0 : ℝ) = ((0 : V3)) 2 := by simp [Pi.zero_apply]
theorem e19_15 (x : Fin 36 → ℝ) : l1463 x = (quatMatrix (Qe x) *ᵥ cross (Pi.single 1 1) (foot 2 x)) 0 := by
  simp only [l381, l383, l387, l389, l426, l441, l465, l470, l471, l472, l492, l493, l494, l495, l496, l497, l1267, l1268, l1269,
    l1282, l1283, l1284, l1462, l1463, h425, h438, h440, h445, mv_0, mv_1, mv_2, qm_00, qm_01, qm_02, qm_10, qm_11, qm_12, qm_20, qm_21, qm_22, cr_0, cr_1, cr_2, E_1_0, E_1_1, E_1_2, foot, pv_0, pv_1, pv_2, side_2, mountX_2, mountY_2, th_2_0, th_2_1, th_2_2, segA, segB, segC, segD, segH] <;> ring
theorem e19_16 (x : Fin 36 → ℝ) : l1464 x = (quatMatrix (Qe x) *ᵥ cross (Pi.single 1 1) (foot 2 x)) 1 := by
  simp only [l381, l383, l387, l389, l426, l441, l465, l470, l471, l472, l492, l493, l494, l495, l496, l497, l510, l1274, l1275,
    l1277, l1289, l1290, l1291, l1462, l1464, h425, h438, h440, h445, mv_0, mv_1, mv_2, qm_00, qm_01, qm_02, qm_10, qm_11, qm_12, qm_20, qm_21, qm_22, cr_0, cr_1, cr_2, E_1_0, E_1_1, E_1_2, foot, pv_0, pv_1, pv_2, side_2, mountX_2, mountY_2, th_2_0, th_2_1, th_2_2, segA, segB, segC, segD, segH] <;> ring
theorem e19_17 (x : Fin 36 → ℝ) : l1465 x = (quatMatrix (Qe x) *ᵥ cross (Pi.single 1 1) (foot 2 x)) 2 := by
  simp only [l381, l383, l387, l389, l426, l441, l465, l470, l471, l472, l492, l493, l494, l495, l496, l497, l510, l1267, l1268,
    l1270, l1283, l1293, l1296, l1462, l1465, h425, h438, h440, h445, mv_0, mv_1, mv_2, qm_00, qm_01, qm_02, qm_10, qm_11, qm_12, qm_20, qm_21, qm_22, cr_0, cr_1, cr_2, E_1_0, E_1_1, E_1_2, foot, pv_0, pv_1, pv_2, side_2, mountX_2, mountY_2, th_2_0, th_2_1, th_2_2, segA, segB, segC, segD, segH] <;> ring
theorem e20_12 (_x : Fin 36 → ℝ) : (0 : ℝ) = ((0 : V3)) 0 := by simp [Pi.zero_apply]
theorem e20_13 (_x : Fin 36 → ℝ) : (0 : ℝ) = ((0 : V3)) 1 := by simp [Pi.zero_apply]
theorem e20_14 (_x : Fin 36 → ℝ) : (0 : ℝ) = ((0 : V3)) 2 := by simp [Pi.zero_apply]
theorem e20_15 (x : Fin 36 → ℝ) : l1479 x = (quatMatrix (Qe x) *ᵥ cross (Pi.single 2 1) (foot 2 x)) 0 := by
  simp only [l383, l387, l389, l394, l426, l441, l463, l464, l465, l466, l467, l468, l469, l470, l471, l472, l1274, l1275, l1276,
    l1282, l1283, l1284, l1478, l1479, h425, h438, h440, h445, mv_0, mv_1, mv_2, qm_00, qm_01, qm_02, qm_10, qm_11, qm_12, qm_20, qm_21, qm_22, cr_0, cr_1, cr_2, E_2_0, E_2_1, E_2_2, foot, pv_0, pv_1, pv_2, side_2, mountX_2, mountY_2, th_2_0, th_2_1, th_2_2, segA, segB, segC, segD, segH] <;> ring
theorem e20_16 (x : Fin 36 → ℝ) : l1480 x = (quatMatrix (Qe x) *ᵥ cross (Pi.single 2 1) (foot 2 x)) 1 := by
  simp only [l383, l387, l389, l394, l426, l441, l463, l464, l465, l466, l467, l468, l469, l470, l471, l472, l510, l1274, l1275,
    l1277, l1282, l1293, l1294, l1478, l1480, h425, h438, h440, h445, mv_0, mv_1, mv_2, qm_00, qm_01, qm_02, qm_10, qm_11, qm_12, qm_20, qm_21, qm_22, cr_0, cr_1, cr_2, E_2_0, E_2_1, E_2_2, foot, pv_0, pv_1, pv_2, side_2, mountX_2, mountY_2, th_2_0, th_2_1, th_2_2, segA, segB, segC, segD, segH] <;> ring
theorem e20_17 (x : Fin 36 → ℝ) : l1481 x = (quatMatrix (Qe x) *ᵥ cross (Pi.single 2 1) (foot 2 x)) 2 := by
  simp only [l383, l387, l389, l394, l426, l441, l463, l464, l465, l466, l467, l468, l469, l470, l471, l472, l510, l1267, l1268,
    l1270, l1289, l1290, l1292, l1478, l1481, h425, h438, h440, h445, mv_0, mv_1, mv_2, qm_00, qm_01, qm_02, qm_10, qm_11, qm_12, qm_20, qm_21, qm_22, cr_0, cr_1, cr_2, E_2_0, E_2_1, E_2_2, foot, pv_0, pv_1, pv_2, side_2, mountX_2, mountY_2, th_2_0, th_2_1, th_2_2, segA, segB, segC, segD, segH] <;> ring
theorem e21_12 (_x : Fin 36 → ℝ) : (0 : ℝ) = ((0 : V3)) 0 := by simp [Pi.zero_apply]
theorem e21_13 (_x : Fin 36 → ℝ) : (0 : ℝ) = ((0 : V3)) 1 := by simp [Pi.zero_apply]
theorem e21_14 (_x : Fin 36 → ℝ) : (0 : ℝ) = ((0 : V3)) 2 := by simp [Pi.zero_apply]
theorem e21_15 (x : Fin 36 → ℝ) : l1284 x = (quatMatrix (Qe x) *ᵥ Pi.single 0 1) 0 := by
  simp only [l426, l441, l1282, l1283, l1284, h425, h440, mv_0, mv_1, mv_2, qm_00, qm_01, qm_02, qm_10, qm_11, qm_12, qm_20,
    qm_21, qm_22, E_0_0, E_0_1, E_0_2] <;> ring
theorem e21_16 (x : Fin 36 → ℝ) : l1277 x = (quatMatrix (Qe x) *ᵥ Pi.single 0 1) 1 := by
  simp only [l426, l441, l1274, l1275, l1277, h425, h438, h440, h445, mv_0, mv_1, mv_2, qm_00, qm_01, qm_02, qm_10, qm_11, qm_12,
    qm_20, qm_21, qm_22, E_0_0, E_0_1, E_0_2] <;> ring
theorem e21_17 (x : Fin 36 → ℝ) : l1270 x = (quatMatrix (Qe x) *ᵥ Pi.single 0 1) 2 := by
  simp only [l426, l441, l1267, l1268, l1270, h425, h438, h440, h445, mv_0, mv_1, mv_2, qm_00, qm_01, qm_02, qm_10, qm_11, qm_12,
    qm_20, qm_21, qm_22, E_0_0, E_0_1, E_0_2] <;> ring
theorem e22_12 (_x : Fin 36 → ℝ) : (0 : ℝ) = ((0 : V3)) 0 := by simp [Pi.zero_apply]
theorem e22_13 (_x : Fin 36 → ℝ) : (0 : ℝ) = ((0 : V3)) 1 := by simp [Pi.zero_apply]
theorem e22_14 (_x : Fin 36 → ℝ) : (0 : ℝ) = ((0 : V3)) 2 := by simp [Pi.zero_apply]
theorem e22_15 (x : Fin 36 → ℝ) : l1276 x = (quatMatrix (Qe x) *ᵥ Pi.single 1 1) 0 := by
  simp only [l426, l441, l1274, l1275, l1276, h425, h438, h440, h445, mv_0, mv_1, mv_2, qm_00, qm_01, qm_02, qm_10, qm_11, qm_12,
    qm_20, qm_21, qm_22, E_1_0, E_1_1, E_1_2] <;> ring
theorem e22_16 (x : Fin 36 → ℝ) : l1294 x = (quatMatrix (Qe x) *ᵥ Pi.single 1 1) 1 := by
  simp only [l426, l510, l1282, l1293, l1294, h425, h438, mv_0, mv_1, mv_2, qm_00, qm_01, qm_02, qm_10, qm_11, qm_12, qm_20,
    qm_21, qm_22, E_1_0, E_1_1, E_1_2] <;> ring
theorem e22_17 (x : Fin 36 → ℝ) : l1292 x = (quatMatrix (Qe x) *ᵥ Pi.single 1 1) 2 := by
  simp only [l426, l510, l1289, l1290, l1292, h425, h438, h440, h445, mv_0, mv_1, mv_2, qm_00, qm_01, qm_02, qm_10, qm_11, qm_12,
    qm_20, qm_21, qm_22, E_1_0, E_1_1, E_1_2] <;> ring
theorem e23_12 (_x : Fin 36 → ℝ) : (0 : ℝ) = ((0 : V3)) 0 := by simp [Pi.zero_apply]
theorem e23_13 (_x : Fin 36 → ℝ) : (0 : ℝ) = ((0 : V3)) 1 := by simp [Pi.zero_apply]
theorem e23_14 (_x : Fin 36 → ℝ) : (0 : ℝ) = ((0 : V3)) 2 := by simp [Pi.zero_apply]
theorem e23_15 (x : Fin 36 → ℝ) : l1269 x = (quatMatrix (Qe x) *ᵥ Pi.single 2 1) 0 := by
  simp only [l426, l441, l1267, l1268, l1269, h425, h438, h440, h445, mv_0, mv_1, mv_2, qm_00, qm_01, qm_02, qm_10, qm_11, qm_12,
    qm_20, qm_21, qm_22, E_2_0, E_2_1, E_2_2] <;> ring
theorem e23_16 (x : Fin 36 → ℝ) : l1291 x = (quatMatrix (Qe x) *ᵥ Pi.single 2 1) 1 := by
  simp only [l426, l510, l1289, l1290, l1291, h425, h438, h440, h445, mv_0, mv_1, mv_2, qm_00, qm_01, qm_02, qm_10, qm_11, qm_12,
    qm_20, qm_21, qm_22, E_2_0, E_2_1, E_2_2] <;> ring
theorem e23_17 (x : Fin 36 → ℝ) : l1296 x = (quatMatrix (Qe x) *ᵥ Pi.single 2 1) 2 := by
  simp only [l441, l510, l1283, l1293, l1296, h438, h440, mv_0, mv_1, mv_2, qm_00, qm_01, qm_02, qm_10, qm_11, qm_12, qm_20,
    qm_21, qm_22, E_2_0, E_2_1, E_2_2] <;> ring
theorem e24_12 (_x : Fin 36 → ℝ) : (0 : ℝ) = ((0 : V3)) 0 := by simp [Pi.zero_apply]
theorem e24_13 (_x : Fin 36 → ℝ) : (0 : ℝ) = ((0 : V3)) 1 := by simp [Pi.zero_apply]
theorem e24_14 (_x : Fin 36 → ℝ) : (0 : ℝ) = ((0 : V3)) 2 := by simp [Pi.zero_apply]
theorem e24_15 (_x : Fin 36 → ℝ) : (0 : ℝ) = ((0 : V3)) 0 := by simp [Pi.zero_apply]
theorem e24_16 (_x : Fin 36 → ℝ) : (0 : ℝ) = ((0 : V3)) 1 := by simp [Pi.zero_apply]
theorem e24_17 (_x : Fin 36 → ℝ) : (0 : ℝ) = ((0 : V3)) 2 := by simp [Pi.zero_apply]
theorem e25_12 (_x : Fin 36 → ℝ) : (0 : ℝ) = ((0 : V3)) 0 := by simp [Pi.zero_apply]
theorem e25_13 (_x : Fin 36 → ℝ) : (0 : ℝ) = ((0 : V3)) 1 := by simp [Pi.zero_apply]
theorem e25_14 (_x : Fin 36 → ℝ) : (0 : ℝ) = ((0 : V3)) 2 := by simp [Pi.zero_apply]
theorem e25_15 (_x : Fin 36 → ℝ) : (0 : ℝ) = ((0 : V3)) 0 := by simp [Pi.zero_apply]
theorem e25_16 (_x : Fin 36 → ℝ) : (0 : ℝ) = ((0 : V3)) 1 := by simp [Pi.zero_apply]
theorem e25_17 (_x : Fin 36 → ℝ) : (0 : ℝ) = ((0 : V3)) 2 := by simp [Pi.zero_apply]
theorem e26_12 (_x : Fin 36 → ℝ) : (0 : ℝ) = ((0 : V3)) 0 := by simp [Pi.zero_apply]
theorem e26_13 (_x : Fin 36 → ℝ) : (0 : ℝ) = ((0 : V3)) 1 := by simp [Pi.zero_apply]
theorem e26_14 (_x : Fin 36 → ℝ) : (0 : ℝ) = ((0 : V3)) 2 := by simp [Pi.zero_apply]
theorem e26_15 (_x : Fin 36 → ℝ) : (0 : ℝ) = ((0 : V3)) 0 := by simp [Pi.zero_apply]
theorem e26_16 (_x : Fin 36 → ℝ) : (0 : ℝ) = ((0 : V3)) 1 := by simp [Pi.zero_apply]
theorem e26_17 (_x : Fin 36 → ℝ) : (0 : ℝ) = ((0 : V3)) 2 := by simp [Pi.zero_apply]
theorem e27_12 (_x : Fin 36 → ℝ) : (0 : ℝ) = ((0 : V3)) 0 := by simp [Pi.zero_apply]
theorem e27_13 (_x : Fin 36 → ℝ) : (0 : ℝ) = ((0 : V3)) 1 := by simp [Pi.zero_apply]
theorem e27_14 (_x : Fin 36 → ℝ) : (0 : ℝ) = ((0 : V3)) 2 := by simp [Pi.zero_apply]
theorem e27_15 (_x : Fin 36 → ℝ) : (0 : ℝ) = ((0 : V3)) 0 := by simp [Pi.zero_apply]
theorem e27_16 (_x : Fin 36 → ℝ) : (0 : ℝ) = ((0 : V3)) 1 := by simp [Pi.zero_apply]
theorem e27_17 (_x : Fin 36 → ℝ) : (0 : ℝ) = ((0 : V3)) 2 := by simp [Pi.zero_apply]
theorem e28_12 (_x : Fin 36 → ℝ) : (0 : ℝ) = ((0 : V3)) 0 := by simp [Pi.zero_apply]
theorem e28_13 (_x : Fin 36 → ℝ) : (0 : ℝ) = ((0 : V3)) 1 := by simp [Pi.zero_apply]
theorem e28_14 (_x : Fin 36 → ℝ) : (0 : ℝ) = ((0 : V3)) 2 := by simp [Pi.zero_apply]
theorem e28_15 (_x : Fin 36 → ℝ) : (0 : ℝ) = ((0 : V3)) 0 := by simp [Pi.zero_apply]
theorem e28_16 (_x : Fin 36 → ℝ) : (0 : ℝ) = ((0 : V3)) 1 := by simp [Pi.zero_apply]
theorem e28_17 (_x : Fin 36 → ℝ) : (0 : ℝ) = ((0 : V3)) 2 := by simp [Pi.zero_apply]
theorem e29_12 (_x : Fin 36 → ℝ) : (0 : ℝ) = ((0 : V3)) 0 := by simp [Pi.zero_apply]
theorem e29_13 (_x : Fin 36 → ℝ) : (0 : ℝ) = ((0 : V3)) 1 := by simp [Pi.zero_apply]
theorem e29_14 (_x : Fin 36 → ℝ) : (0 : ℝ) = ((0 : V3)) 2 := by simp [Pi.zero_apply]
theorem e29_15 (_x : Fin 36 → ℝ) : (0 : ℝ) = ((0 : V3)) 0 := by simp [Pi.zero_apply]
theorem e29_16 (_x : Fin 36 → ℝ) : (0 : ℝ) = ((0 : V3)) 1 := by simp [Pi.zero_apply]
theorem e29_17 (_x : Fin 36 → ℝ) : (0 : ℝ) = ((0 : V3)) 2 := by simp [Pi.zero_apply]
theorem e30_12 (_x : Fin 36 → ℝ) : (0 : ℝ) = ((0 : V3)) 0 := by simp [Pi.zero_apply]
theorem e30_13 (_x : Fin 36 → ℝ) : (0 : ℝ) = ((0 : V3)) 1 := by simp [Pi.zero_apply]
theorem e30_14 (_x : Fin 36 → ℝ) : (0 : ℝ) = ((0 : V3)) 2 := by simp [Pi.zero_apply]
theorem e30_15 (x : Fin 36 → ℝ) : l1278 x = (quatMatrix (Qe x) *ᵥ jcol 2 0 x) 0 := by
  simp only [l381, l383, l385, l387, l389, l394, l426, l441, l457, l458, l459, l460, l461, l462, l486, l487, l488, l489, l490,
    l491, l1267, l1268, l1269, l1274, l1275, l1276, l1278, h425, h438, h440, h445, mv_0, mv_1, mv_2, qm_00, qm_01, qm_02, qm_10, qm_11, qm_12, qm_20, qm_21, qm_22, jcol, jac, jm_00, jm_01, jm_02, jm_10, jm_11, jm_12, jm_20, jm_21, jm_22, side_2, th_2_0, th_2_1, th_2_2, segA, segB, segC, segD, segH] <;> ring
theorem e30_16 (x : Fin 36 → ℝ) : l1298 x = (quatMatrix (Qe x) *ᵥ jcol 2 0 x) 1 := by
  simp only [l381, l383, l385, l387, l389, l394, l426, l457, l458, l459, l460, l461, l462, l486, l487, l488, l489, l490, l491,
    l510, l1282, l1289, l1290, l1291, l1293, l1294, l1298, h425, h438, h440, h445, mv_0, mv_1, mv_2, qm_00, qm_01, qm_02, qm_10, qm_11, qm_12, qm_20, qm_21, qm_22, jcol, jac, jm_00, jm_01, jm_02, jm_10, jm_11, jm_12, jm_20, jm_21, jm_22, side_2, th_2_0, th_2_1, th_2_2, segA, segB, segC, segD, segH] <;> ring
theorem e30_17 (x : Fin 36 → ℝ) : l1299 x = (quatMatrix (Qe x) *ᵥ jcol 2 0 x) 2 := by
  simp only [l381, l383, l385, l387, l389, l394, l426, l441, l457, l458, l459, l460, l461, l462, l486, l487, l488, l489, l490,
    l491, l510, l1283, l1289, l1290, l1292, l1293, l1296, l1299, h425, h438, h440, h445, mv_0, mv_1, mv_2, qm_00, qm_01, qm_02, qm_10, qm_11, qm_12, qm_20, qm_21, qm_22, jcol, jac, jm_00, jm_01, jm_02, jm_10, jm_11, jm_12, jm_20, jm_21, jm_22, side_2, th_2_0, th_2_1, th_2_2, segA, segB, segC, segD, segH] <;> ring
theorem e31_12 (_x : Fin 36 → ℝ) : (0 : ℝ) = ((0 : V3)) 0 := by simp [Pi.zero_apply]
theorem e31_13 (_x : Fin 36 → ℝ) : (0 : ℝ) = ((0 : V3)) 1 := by simp [Pi.zero_apply]
theorem e31_14 (_x : Fin 36 → ℝ) : (0 : ℝ) = ((0 : V3)) 2 := by simp [Pi.zero_apply]
theorem e31_15 (x : Fin 36 → ℝ) : l1285 x = (quatMatrix (Qe x) *ᵥ jcol 2 1 x) 0 := by
  simp only [l381, l383, l385, l387, l389, l394, l426, l441, l447, l452, l453, l454, l455, l456, l476, l481, l482, l483, l484,
    l485, l504, l505, l506, l1267, l1268, l1269, l1274, l1275, l1276, l1282, l1283, l1284, l1285, h425, h438, h440, h445, mv_0, mv_1, mv_2, qm_00, qm_01, qm_02, qm_10, qm_11, qm_12, qm_20, qm_21, qm_22, jcol, jac, jm_00, jm_01, jm_02, jm_10, jm_11, jm_12, jm_20, jm_21, jm_22, side_2, th_2_0, th_2_1, th_2_2, segA, segB, segC, segD, segH] <;> ring
theorem e31_16 (x : Fin 36 → ℝ) : l1300 x = (quatMatrix (Qe x) *ᵥ jcol 2 1 x) 1 := by
  simp only [l381, l383, l385, l387, l389, l394, l426, l441, l447, l452, l453, l454, l455, l456, l476, l481, l482, l483, l484,
    l485, l504, l505, l506, l510, l1274, l1275, l1277, l1282, l1289, l1290, l1291, l1293, l1294, l1300, h425, h438, h440, h445, mv_0, mv_1, mv_2, qm_00, qm_01, qm_02, qm_10, qm_11, qm_12, qm_20, qm_21, qm_22, jcol, jac, jm_00, jm_01, jm_02, jm_10, jm_11, jm_12, jm_20, jm_21, jm_22, side_2, th_2_0, th_2_1, th_2_2, segA, segB, segC, segD, segH] <;> ring
theorem e31_17 (x : Fin 36 → ℝ) : l1301 x = (quatMatrix (Qe x) *ᵥ jcol 2 1 x) 2 := by
  simp only [l381, l383, l385, l387, l389, l394, l426, l441, l447, l452, l453, l454, l455, l456, l476, l481, l482, l483, l484,
    l485, l504, l505, l506, l510, l1267, l1268, l1270, l1283, l1289, l1290, l1292, l1293, l1296, l1301, h425, h438, h440, h445, mv_0, mv_1, mv_2, qm_00, qm_01, qm_02, qm_10, qm_11, qm_12, qm_20, qm_21, qm_22, jcol, jac, jm_00, jm_01, jm_02, jm_10, jm_11, jm_12, jm_20, jm_21, jm_22, side_2, th_2_0, th_2_1, th_2_2, segA, segB, segC, segD, segH] <;> ring
theorem e32_12 (_x : Fin 36 → ℝ) : (0 : ℝ) = ((0 : V3)) 0 := by simp [Pi.zero_apply]
theorem e32_13 (_x : Fin 36 → ℝ) : (0 : ℝ) = ((0 : V3)) 1 := by simp [Pi.zero_apply]
theorem e32_14 (_x : Fin 36 → ℝ) : (0 : ℝ) = ((0 : V3)) 2 := by simp [Pi.zero_apply]
theorem e32_15 (x : Fin 36 → ℝ) : l1286 x = (quatMatrix (Qe x) *ᵥ jcol 2 2 x) 0 := by
  simp only [l381, l383, l385, l387, l389, l394, l426, l441, l447, l448, l449, l450, l451, l476, l477, l478, l479, l480, l501,
    l502, l503, l1267, l1268, l1269, l1274, l1275, l1276, l1282, l1283, l1284, l1286, h425, h438, h440, h445, mv_0, mv_1, mv_2, qm_00, qm_01, qm_02, qm_10, qm_11, qm_12, qm_20, qm_21, qm_22, jcol, jac, jm_00, jm_01, jm_02, jm_10, jm_11, jm_12, jm_20, jm_21, jm_22, side_2, th_2_0, th_2_1, th_2_2, segA, segB, segC, segD, segH] <;> ring
theorem e32_16 (x : Fin 36 → ℝ) : l1302 x = (quatMatrix (Qe x) *ᵥ jcol 2 2 x) 1 := by
  simp only [l381, l383, l385, l387, l389, l394, l426, l441, l447, l448, l449, l450, l451, l476, l477, l478, l479, l480, l501,
    l502, l503, l510, l1274, l1275, l1277, l1282, l1289, l1290, l1291, l1293, l1294, l1302, h425, h438, h440, h445, mv_0, mv_1, mv_2, qm_00, qm_01, qm_02, qm_10, qm_11, qm_12, qm_20, qm_21, qm_22, jcol, jac, jm_00, jm_01, jm_02, jm_10, jm_11, jm_12, jm_20, jm_21, jm_22, side_2, th_2_0, th_2_1, th_2_2, segA, segB, segC, segD, segH] <;> ring
theorem e32_17 (x : Fin 36 → ℝ) : l1303 x = (quatMatrix (Qe x) *ᵥ jcol 2 2 x) 2 := by
  simp only [l381, l383, l385, l387, l389, l394, l426, l441, l447, l448, l449, l450, l451, l476, l477, l478, l479, l480, l501,
    l502, l503, l510, l1267, l1268, l1270, l1283, l1289, l1290, l1292, l1293, l1296, l1303, h425, h438, h440, h445, mv_0, mv_1, mv_2, qm_00, qm_01, qm_02, qm_10, qm_11, qm_12, qm_20, qm_21, qm_22, jcol, jac, jm_00, jm_01, jm_02, jm_10, jm_11, jm_12, jm_20, jm_21, jm_22, side_2, th_2_0, th_2_1, th_2_2, segA, segB, segC, segD, segH] <;> ring
theorem e33_12 (_x : Fin 36 → ℝ) : (0 : ℝ) = ((0 : V3)) 0 := by simp [Pi.zero_apply]
theorem e33_13 (_x : Fin 36 → ℝ) : (0 : ℝ) = ((0 : V3)) 1 := by simp [Pi.zero_apply]
theorem e33_14 (_x : Fin 36 → ℝ) : (0 : ℝ) = ((0 : V3)) 2 := by simp [Pi.zero_apply]
theorem e33_15 (_x : Fin 36 → ℝ) : (0 : ℝ) = ((0 : V3)) 0 := by simp [Pi.zero_apply]
theorem e33_16 (_x : Fin 36 → ℝ) : (0 : ℝ) = ((0 : V3)) 1 := by simp [Pi.zero_apply]
theorem e33_17 (_x : Fin 36 → ℝ) : (0 : ℝ) = ((0 : V3)) 2 := by simp [Pi.zero_apply]
theorem e34_12 (_x : Fin 36 → ℝ) : (0 : ℝ) = ((0 : V3)) 0 := by simp [Pi.zero_apply]
theorem e34_13 (_x : Fin 36 → ℝ) : (0 : ℝ) = ((0 : V3)) 1 := by simp [Pi.zero_apply]
theorem e34_14 (_x : Fin 36 → ℝ) : (0 : ℝ) = ((0 : V3)) 2 := by simp [Pi.zero_apply]
theorem e34_15 (_x : Fin 36 → ℝ) : (0 : ℝ) = ((0 : V3)) 0 := by simp [Pi.zero_apply]
theorem e34_16 (_x : Fin 36 → ℝ) : (0 : ℝ) = ((0 : V3)) 1 := by simp [Pi.zero_apply]
theorem e34_17 (_x : Fin 36 → ℝ) : (0 : ℝ) = ((0 : V3)) 2 := by simp [Pi.zero_apply]
theorem e35_12 (_x : Fin 36 → ℝ) : (0 : ℝ) = ((0 : V3)) 0 := by simp [Pi.zero_apply]
theorem e35_13 (_x : Fin 36 → ℝ) : (0 : ℝ) = ((0 : V3)) 1 := by simp [Pi.zero_apply]
theorem e35_14 (_x : Fin 36 → ℝ) : (0 : ℝ) = ((0 : V3)) 2 := by simp [Pi.zero_apply]
theorem e35_15 (_x : Fin 36 → ℝ) : (0 : ℝ) = ((0 : V3)) 0 := by simp [Pi.zero_apply]
theorem e35_16 (_x : Fin 36 → ℝ) : (0 : ℝ) = ((0 : V3)) 1 := by simp [Pi.zero_apply]
theorem e35_17 (_x : Fin 36 → ℝ) : (0 : ℝ) = ((0 : V3)) 2 := by simp [Pi.zero_apply]

theorem pos0 (x : Fin 36 → ℝ) : (fun i : Fin 3 => jacobian x ⟨12 + i, by omega⟩ 0) = Dpos 2 x (Pi.single 0 1) :=
  (ext3 (e0_12 x) (e0_13 x) (e0_14 x)).trans (col_angle 2 0 x 0 rfl).1.symm
theorem vel0 (x : Fin 36 → ℝ) : (fun i : Fin 3 => jacobian x ⟨15 + i, by omega⟩ 0) = Dvel 2 x (Pi.single 0 1) :=
  (ext3 (e0_15 x) (e0_16 x) (e0_17 x)).trans (col_angle 2 0 x 0 rfl).2.symm
theorem pos1 (x : Fin 36 → ℝ) : (fun i : Fin 3 => jacobian x ⟨12 + i, by omega⟩ 1) = Dpos 2 x (Pi.single 1 1) :=
  (ext3 (e1_12 x) (e1_13 x) (e1_14 x)).trans (col_angle 2 1 x 1 rfl).1.symm
theorem vel1 (x : Fin 36 → ℝ) : (fun i : Fin 3 => jacobian x ⟨15 + i, by omega⟩ 1) = Dvel 2 x (Pi.single 1 1) :=
  (ext3 (e1_15 x) (e1_16 x) (e1_17 x)).trans (col_angle 2 1 x 1 rfl).2.symm
theorem pos2 (x : Fin 36 → ℝ) : (fun i : Fin 3 => jacobian x ⟨12 + i, by omega⟩ 2) = Dpos 2 x (Pi.single 2 1) :=
  (ext3 (e2_12 x) (e2_13 x) (e2_14 x)).trans (col_angle 2 2 x 2 rfl).1.symm
theorem vel2 (x : Fin 36 → ℝ) : (fun i : Fin 3 => jacobian x ⟨15 + i, by omega⟩ 2) = Dvel 2 x (Pi.single 2 1) :=
  (ext3 (e2_15 x) (e2_16 x) (e2_17 x)).trans (col_angle 2 2 x 2 rfl).2.symm
theorem pos3 (x : Fin 36 → ℝ) : (fun i : Fin 3 => jacobian x ⟨12 + i, by omega⟩ 3) = Dpos 2 x (Pi.single 3 1) :=
  (ext3 (e3_12 x) (e3_13 x) (e3_14 x)).trans (col_base 2 0 x 3 rfl).1.symm
theorem vel3 (x : Fin 36 → ℝ) : (fun i : Fin 3 => jacobian x ⟨15 + i, by omega⟩ 3) = Dvel 2 x (Pi.single 3 1) :=
  (ext3 (e3_15 x) (e3_16 x) (e3_17 x)).trans (col_base 2 0 x 3 rfl).2.symm
theorem pos4 (x : Fin 36 → ℝ) : (fun i : Fin 3 => jacobian x ⟨12 + i, by omega⟩ 4) = Dpos 2 x (Pi.single 4 1) :=
  (ext3 (e4_12 x) (e4_13 x) (e4_14 x)).trans (col_base 2 1 x 4 rfl).1.symm
theorem vel4 (x : Fin 36 → ℝ) : (fun i : Fin 3 => jacobian x ⟨15 + i, by omega⟩ 4) = Dvel 2 x (Pi.single 4 1) :=
  (ext3 (e4_15 x) (e4_16 x) (e4_17 x)).trans (col_base 2 1 x 4 rfl).2.symm
theorem pos5 (x : Fin 36 → ℝ) : (fun i : Fin 3 => jacobian x ⟨12 + i, by omega⟩ 5) = Dpos 2 x (Pi.single 5 1) :=
  (ext3 (e5_12 x) (e5_13 x) (e5_14 x)).trans (col_base 2 2 x 5 rfl).1.symm
theorem vel5 (x : Fin 36 → ℝ) : (fun i : Fin 3 => jacobian x ⟨15 + i, by omega⟩ 5) = Dvel 2 x (Pi.single 5 1) :=
  (ext3 (e5_15 x) (e5_16 x) (e5_17 x)).trans (col_base 2 2 x 5 rfl).2.symm
theorem pos6 (x : Fin 36 → ℝ) : (fun i : Fin 3 => jacobian x ⟨12 + i, by omega⟩ 6) = Dpos 2 x (Pi.single 6 1) :=
  (ext3 (e6_12 x) (e6_13 x) (e6_14 x)).trans (col_other 2 0 0 x 6 (by decide) (by decide)).1.symm
theorem vel6 (x : Fin 36 → ℝ) : (fun i : Fin 3 => jacobian x ⟨15 + i, by omega⟩ 6) = Dvel 2 x (Pi.single 6 1) :=
  (ext3 (e6_15 x) (e6_16 x) (e6_17 x)).trans (col_other 2 0 0 x 6 (by decide) (by decide)).2.symm
theorem pos7 (x : Fin 36 → ℝ) : (fun i : Fin 3 => jacobian x ⟨12 + i, by omega⟩ 7) = Dpos 2 x (Pi.single 7 1) :=
  (ext3 (e7_12 x) (e7_13 x) (e7_14 x)).trans (col_other 2 0 1 x 7 (by decide) (by decide)).1.symm
theorem vel7 (x : Fin 36 → ℝ) : (fun i : Fin 3 => jacobian x ⟨15 + i, by omega⟩ 7) = Dvel 2 x (Pi.single 7 1) :=
  (ext3 (e7_15 x) (e7_16 x) (e7_17 x)).trans (col_other 2 0 1 x 7 (by decide) (by decide)).2.symm
theorem pos8 (x : Fin 36 → ℝ) : (fun i : Fin 3 => jacobian x ⟨12 + i, by omega⟩ 8) = Dpos 2 x (Pi.single 8 1) :=
  (ext3 (e8_12 x) (e8_13 x) (e8_14 x)).trans (col_other 2 0 2 x 8 (by decide) (by decide)).1.symm
theorem vel8 (x : Fin 36 → ℝ) : (fun i : Fin 3 => jacobian x ⟨15 + i, by omega⟩ 8) = Dvel 2 x (Pi.single 8 1) :=
  (ext3 (e8_15 x) (e8_16 x) (e8_17 x)).trans (col_other 2 0 2 x 8 (by decide) (by decide)).2.symm
theorem pos9 (x : Fin 36 → ℝ) : (fun i : Fin 3 => jacobian x ⟨12 + i, by omega⟩ 9) = Dpos 2 x (Pi.single 9 1) :=
  (ext3 (e9_12 x) (e9_13 x) (e9_14 x)).trans (col_other 2 1 0 x 9 (by decide) (by decide)).1.symm
theorem vel9 (x : Fin 36 → ℝ) : (fun i : Fin 3 => jacobian x ⟨15 + i, by omega⟩ 9) = Dvel 2 x (Pi.single 9 1) :=
  (ext3 (e9_15 x) (e9_16 x) (e9_17 x)).trans (col_other 2 1 0 x 9 (by decide) (by decide)).2.symm
theorem pos10 (x : Fin 36 → ℝ) : (fun i : Fin 3 => jacobian x ⟨12 + i, by omega⟩ 10) = Dpos 2 x (Pi.single 10 1) :=
  (ext3 (e10_12 x) (e10_13 x) (e10_14 x)).trans (col_other 2 1 1 x 10 (by decide) (by decide)).1.symm
theorem vel10 (x : Fin 36 → ℝ) : (fun i : Fin 3 => jacobian x ⟨15 + i, by omega⟩ 10) = Dvel 2 x (Pi.single 10 1) :=
  (ext3 (e10_15 x) (e10_16 x) (e10_17 x)).trans (col_other 2 1 1 x 10 (by decide) (by decide)).2.symm
theorem pos11 (x : Fin 36 → ℝ) : (fun i : Fin 3 => jacobian x ⟨12 + i, by omega⟩ 11) = Dpos 2 x (Pi.single 11 1) :=
  (ext3 (e11_12 x) (e11_13 x) (e11_14 x)).trans (col_other 2 1 2 x 11 (by decide) (by decide)).1.symm
theorem vel11 (x : Fin 36 → ℝ) : (fun i : Fin 3 => jacobian x ⟨15 + i, by omega⟩ 11) = Dvel 2 x (Pi.single 11 1) :=
  (ext3 (e11_15 x) (e11_16 x) (e11_17 x)).trans (col_other 2 1 2 x 11 (by decide) (by decide)).2.symm
theorem pos12 (x : Fin 36 → ℝ) : (fun i : Fin 3 => jacobian x ⟨12 + i, by omega⟩ 12) = Dpos 2 x (Pi.single 12 1) :=
  (ext3 (e12_12 x) (e12_13 x) (e12_14 x)).trans (col_joint 2 0 x 12 rfl).1.symm
theorem vel12 (x : Fin 36 → ℝ) : (fun i : Fin 3 => jacobian x ⟨15 + i, by omega⟩ 12) = Dvel 2 x (Pi.single 12 1) :=
  (ext3 (e12_15 x) (e12_16 x) (e12_17 x)).trans (col_joint 2 0 x 12 rfl).2.symm
theorem pos13 (x : Fin 36 → ℝ) : (fun i : Fin 3 => jacobian x ⟨12 + i, by omega⟩ 13) = Dpos 2 x (Pi.single 13 1) :=
  (ext3 (e13_12 x) (e13_13 x) (e13_14 x)).trans (col_joint 2 1 x 13 rfl).1.symm
theorem vel13 (x : Fin 36 → ℝ) : (fun i : Fin 3 => jacobian x ⟨15 + i, by omega⟩ 13) = Dvel 2 x (Pi.single 13 1) :=
  (ext3 (e13_15 x) (e13_16 x) (e13_17 x)).trans (col_joint 2 1 x 13 rfl).2.symm
theorem pos14 (x : Fin 36 → ℝ) : (fun i : Fin 3 => jacobian x ⟨12 + i, by omega⟩ 14) = Dpos 2 x (Pi.single 14 1) :=
  (ext3 (e14_12 x) (e14_13 x) (e14_14 x)).trans (col_joint 2 2 x 14 rfl).1.symm
theorem vel14 (x : Fin 36 → ℝ) : (fun i : Fin 3 => jacobian x ⟨15 + i, by omega⟩ 14) = Dvel 2 x (Pi.single 14 1) :=
  (ext3 (e14_15 x) (e14_16 x) (e14_17 x)).trans (col_joint 2 2 x 14 rfl).2.symm
theorem pos15 (x : Fin 36 → ℝ) : (fun i : Fin 3 => jacobian x ⟨12 + i, by omega⟩ 15) = Dpos 2 x (Pi.single 15 1) :=
  (ext3 (e15_12 x) (e15_13 x) (e15_14 x)).trans (col_other 2 3 0 x 15 (by decide) (by decide)).1.symm
theorem vel15 (x : Fin 36 → ℝ) : (fun i : Fin 3 => jacobian x ⟨15 + i, by omega⟩ 15) = Dvel 2 x (Pi.single 15 1) :=
  (ext3 (e15_15 x) (e15_16 x) (e15_17 x)).trans (col_other 2 3 0 x 15 (by decide) (by decide)).2.symm
theorem pos16 (x : Fin 36 → ℝ) : (fun i : Fin 3 => jacobian x ⟨12 + i, by omega⟩ 16) = Dpos 2 x (Pi.single 16 1) :=
  (ext3 (e16_12 x) (e16_13 x) (e16_14 x)).trans (col_other 2 3 1 x 16 (by decide) (by decide)).1.symm
theorem vel16 (x : Fin 36 → ℝ) : (fun i : Fin 3 => jacobian x ⟨15 + i, by omega⟩ 16) = Dvel 2 x (Pi.single 16 1) :=
  (ext3 (e16_15 x) (e16_16 x) (e16_17 x)).trans (col_other 2 3 1 x 16 (by decide) (by decide)).2.symm
theorem pos17 (x : Fin 36 → ℝ) : (fun i : Fin 3 => jacobian x ⟨12 + i, by omega⟩ 17) = Dpos 2 x (Pi.single 17 1) :=
  (ext3 (e17_12 x) (e17_13 x) (e17_14 x)).trans (col_other 2 3 2 x 17 (by decide) (by decide)).1.symm
theorem vel17 (x : Fin 36 → ℝ) : (fun i : Fin 3 => jacobian x ⟨15 + i, by omega⟩ 17) = Dvel 2 x (Pi.single 17 1) :=
  (ext3 (e17_15 x) (e17_16 x) (e17_17 x)).trans (col_other 2 3 2 x 17 (by decide) (by decide)).2.symm
theorem pos18 (x : Fin 36 → ℝ) : (fun i : Fin 3 => jacobian x ⟨12 + i, by omega⟩ 18) = Dpos 2 x (Pi.single 18 1) :=
  (ext3 (e18_12 x) (e18_13 x) (e18_14 x)).trans (col_om 2 0 x 18 rfl).1.symm
theorem vel18 (x : Fin 36 → ℝ) : (fun i : Fin 3 => jacobian x ⟨15 + i, by omega⟩ 18) = Dvel 2 x (Pi.single 18 1) :=
  (ext3 (e18_15 x) (e18_16 x) (e18_17 x)).trans (col_om 2 0 x 18 rfl).2.symm
theorem pos19 (x : Fin 36 → ℝ) : (fun i : Fin 3 => jacobian x ⟨12 + i, by omega⟩ 19) = Dpos 2 x (Pi.single 19 1) :=
  (ext3 (e19_12 x) (e19_13 x) (e19_14 x)).trans (col_om 2 1 x 19 rfl).1.symm
theorem vel19 (x : Fin 36 → ℝ) : (fun i : Fin 3 => jacobian x ⟨15 + i, by omega⟩ 19) = Dvel 2 x (Pi.single 19 1) :=
  (ext3 (e19_15 x) (e19_16 x) (e19_17 x)).trans (col_om 2 1 x 19 rfl).2.symm
theorem pos20 (x : Fin 36 → ℝ) : (fun i : Fin 3 => jacobian x ⟨12 + i, by omega⟩ 20) = Dpos 2 x (Pi.single 20 1) :=
  (ext3 (e20_12 x) (e20_13 x) (e20_14 x)).trans (col_om 2 2 x 20 rfl).1.symm
theorem vel20 (x : Fin 36 → ℝ) : (fun i : Fin 3 => jacobian x ⟨15 + i, by omega⟩ 20) = Dvel 2 x (Pi.single 20 1) :=
  (ext3 (e20_15 x) (e20_16 x) (e20_17 x)).trans (col_om 2 2 x 20 rfl).2.symm
theorem pos21 (x : Fin 36 → ℝ) : (fun i : Fin 3 => jacobian x ⟨12 + i, by omega⟩ 21) = Dpos 2 x (Pi.single 21 1) :=
  (ext3 (e21_12 x) (e21_13 x) (e21_14 x)).trans (col_lv 2 0 x 21 rfl).1.symm
theorem vel21 (x : Fin 36 → ℝ) : (fun i : Fin 3 => jacobian x ⟨15 + i, by omega⟩ 21) = Dvel 2 x (Pi.single 21 1) :=
  (ext3 (e21_15 x) (e21_16 x) (e21_17 x)).trans (col_lv 2 0 x 21 rfl).2.symm
theorem pos22 (x : Fin 36 → ℝ) : (fun i : Fin 3 => jacobian x ⟨12 + i, by omega⟩ 22) = Dpos 2 x (Pi.single 22 1) :=
  (ext3 (e22_12 x) (e22_13 x) (e22_14 x)).trans (col_lv 2 1 x 22 rfl).1.symm
theorem vel22 (x : Fin 36 → ℝ) : (fun i : Fin 3 => jacobian x ⟨15 + i, by omega⟩ 22) = Dvel 2 x (Pi.single 22 1) :=
  (ext3 (e22_15 x) (e22_16 x) (e22_17 x)).trans (col_lv 2 1 x 22 rfl).2.symm
theorem pos23 (x : Fin 36 → ℝ) : (fun i : Fin 3 => jacobian x ⟨12 + i, by omega⟩ 23) = Dpos 2 x (Pi.single 23 1) :=
  (ext3 (e23_12 x) (e23_13 x) (e23_14 x)).trans (col_lv 2 2 x 23 rfl).1.symm
theorem vel23 (x : Fin 36 → ℝ) : (fun i : Fin 3 => jacobian x ⟨15 + i, by omega⟩ 23) = Dvel 2 x (Pi.single 23 1) :=
  (ext3 (e23_15 x) (e23_16 x) (e23_17 x)).trans (col_lv 2 2 x 23 rfl).2.symm
theorem pos24 (x : Fin 36 → ℝ) : (fun i : Fin 3 => jacobian x ⟨12 + i, by omega⟩ 24) = Dpos 2 x (Pi.single 24 1) :=
  (ext3 (e24_12 x) (e24_13 x) (e24_14 x)).trans (col_other 2 0 0 x 24 (by decide) (by decide)).1.symm
theorem vel24 (x : Fin 36 → ℝ) : (fun i : Fin 3 => jacobian x ⟨15 + i, by omega⟩ 24) = Dvel 2 x (Pi.single 24 1) :=
  (ext3 (e24_15 x) (e24_16 x) (e24_17 x)).trans (col_other 2 0 0 x 24 (by decide) (by decide)).2.symm
theorem pos25 (x : Fin 36 → ℝ) : (fun i : Fin 3 => jacobian x ⟨12 + i, by omega⟩ 25) = Dpos 2 x (Pi.single 25 1) :=
  (ext3 (e25_12 x) (e25_13 x) (e25_14 x)).trans (col_other 2 0 1 x 25 (by decide) (by decide)).1.symm
theorem vel25 (x : Fin 36 → ℝ) : (fun i : Fin 3 => jacobian x ⟨15 + i, by omega⟩ 25) = Dvel 2 x (Pi.single 25 1) :=
  (ext3 (e25_15 x) (e25_16 x) (e25_17 x)).trans (col_other 2 0 1 x 25 (by decide) (by decide)).2.symm
theorem pos26 (x : Fin 36 → ℝ) : (fun i : Fin 3 => jacobian x ⟨12 + i, by omega⟩ 26) = Dpos 2 x (Pi.single 26 1) :=
  (ext3 (e26_12 x) (e26_13 x) (e26_14 x)).trans (col_other 2 0 2 x 26 (by decide) (by decide)).1.symm
theorem vel26 (x : Fin 36 → ℝ) : (fun i : Fin 3 => jacobian x ⟨15 + i, by omega⟩ 26) = Dvel 2 x (Pi.single 26 1) :=
  (ext3 (e26_15 x) (e26_16 x) (e26_17 x)).trans (col_other 2 0 2 x 26 (by decide) (by decide)).2.symm
theorem pos27 (x : Fin 36 → ℝ) : (fun i : Fin 3 => jacobian x ⟨12 + i, by omega⟩ 27) = Dpos 2 x (Pi.single 27 1) :=
  (ext3 (e27_12 x) (e27_13 x) (e27_14 x)).trans (col_other 2 1 0 x 27 (by decide) (by decide)).1.symm
theorem vel27 (x : Fin 36 → ℝ) : (fun i : Fin 3 => jacobian x ⟨15 + i, by omega⟩ 27) = Dvel 2 x (Pi.single 27 1) :=
  (ext3 (e27_15 x) (e27_16 x) (e27_17 x)).trans (col_other 2 1 0 x 27 (by decide) (by decide)).2.symm
theorem pos28 (x : Fin 36 → ℝ) : (fun i : Fin 3 => jacobian x ⟨12 + i, by omega⟩ 28) = Dpos 2 x (Pi.single 28 1) :=
  (ext3 (e28_12 x) (e28_13 x) (e28_14 x)).trans (col_other 2 1 1 x 28 (by decide) (by decide)).1.symm
theorem vel28 (x : Fin 36 → ℝ) : (fun i : Fin 3 => jacobian x ⟨15 + i, by omega⟩ 28) = Dvel 2 x (Pi.single 28 1) :=
  (ext3 (e28_15 x) (e28_16 x) (e28_17 x)).trans (col_other 2 1 1 x 28 (by decide) (by decide)).2.symm
theorem pos29 (x : Fin 36 → ℝ) : (fun i : Fin 3 => jacobian x ⟨12 + i, by omega⟩ 29) = Dpos 2 x (Pi.single 29 1) :=
  (ext3 (e29_12 x) (e29_13 x) (e29_14 x)).trans (col_other 2 1 2 x 29 (by decide) (by decide)).1.symm
theorem vel29 (x : Fin 36 → ℝ) : (fun i : Fin 3 => jacobian x ⟨15 + i, by omega⟩ 29) = Dvel 2 x (Pi.single 29 1) :=
  (ext3 (e29_15 x) (e29_16 x) (e29_17 x)).trans (col_other 2 1 2 x 29 (by decide) (by decide)).2.symm
theorem pos30 (x : Fin 36 → ℝ) : (fun i : Fin 3 => jacobian x ⟨12 + i, by omega⟩ 30) = Dpos 2 x (Pi.single 30 1) :=
  (ext3 (e30_12 x) (e30_13 x) (e30_14 x)).trans (col_qd 2 0 x 30 rfl).1.symm
theorem vel30 (x : Fin 36 → ℝ) : (fun i : Fin 3 => jacobian x ⟨15 + i, by omega⟩ 30) = Dvel 2 x (Pi.single 30 1) :=
  (ext3 (e30_15 x) (e30_16 x) (e30_17 x)).trans (col_qd 2 0 x 30 rfl).2.symm
theorem pos31 (x : Fin 36 → ℝ) : (fun i : Fin 3 => jacobian x ⟨12 + i, by omega⟩ 31) = Dpos 2 x (Pi.single 31 1) :=
  (ext3 (e31_12 x) (e31_13 x) (e31_14 x)).trans (col_qd 2 1 x 31 rfl).1.symm
theorem vel31 (x : Fin 36 → ℝ) : (fun i : Fin 3 => jacobian x ⟨15 + i, by omega⟩ 31) = Dvel 2 x (Pi.single 31 1) :=
  (ext3 (e31_15 x) (e31_16 x) (e31_17 x)).trans (col_qd 2 1 x 31 rfl).2.symm
theorem pos32 (x : Fin 36 → ℝ) : (fun i : Fin 3 => jacobian x ⟨12 + i, by omega⟩ 32) = Dpos 2 x (Pi.single 32 1) :=
  (ext3 (e32_12 x) (e32_13 x) (e32_14 x)).trans (col_qd 2 2 x 32 rfl).1.symm
theorem vel32 (x : Fin 36 → ℝ) : (fun i : Fin 3 => jacobian x ⟨15 + i, by omega⟩ 32) = Dvel 2 x (Pi.single 32 1) :=
  (ext3 (e32_15 x) (e32_16 x) (e32_17 x)).trans (col_qd 2 2 x 32 rfl).2.symm
theorem pos33 (x : Fin 36 → ℝ) : (fun i : Fin 3 => jacobian x ⟨12 + i, by omega⟩ 33) = Dpos 2 x (Pi.single 33 1) :=
  (ext3 (e33_12 x) (e33_13 x) (e33_14 x)).trans (col_other 2 3 0 x 33 (by decide) (by decide)).1.symm
theorem vel33 (x : Fin 36 → ℝ) : (fun i : Fin 3 => jacobian x ⟨15 + i, by omega⟩ 33) = Dvel 2 x (Pi.single 33 1) :=
  (ext3 (e33_15 x) (e33_16 x) (e33_17 x)).trans (col_other 2 3 0 x 33 (by decide) (by decide)).2.symm
theorem pos34 (x : Fin 36 → ℝ) : (fun i : Fin 3 => jacobian x ⟨12 + i, by omega⟩ 34) = Dpos 2 x (Pi.single 34 1) :=
  (ext3 (e34_12 x) (e34_13 x) (e34_14 x)).trans (col_other 2 3 1 x 34 (by decide) (by decide)).1.symm
theorem vel34 (x : Fin 36 → ℝ) : (fun i : Fin 3 => jacobian x ⟨15 + i, by omega⟩ 34) = Dvel 2 x (Pi.single 34 1) :=
  (ext3 (e34_15 x) (e34_16 x) (e34_17 x)).trans (col_other 2 3 1 x 34 (by decide) (by decide)).2.symm
theorem pos35 (x : Fin 36 → ℝ) : (fun i : Fin 3 => jacobian x ⟨12 + i, by omega⟩ 35) = Dpos 2 x (Pi.single 35 1) :=
  (ext3 (e35_12 x) (e35_13 x) (e35_14 x)).trans (col_other 2 3 2 x 35 (by decide) (by decide)).1.symm
theorem vel35 (x : Fin 36 → ℝ) : (fun i : Fin 3 => jacobian x ⟨15 + i, by omega⟩ 35) = Dvel 2 x (Pi.single 35 1) :=
  (ext3 (e35_15 x) (e35_16 x) (e35_17 x)).trans (col_other 2 3 2 x 35 (by decide) (by decide)).2.symm

theorem rows (x : Fin 36 → ℝ) (c : Fin 36) :
    (fun i : Fin 3 => jacobian x ⟨12 + i, by omega⟩ c) = Dpos 2 x (Pi.single c 1) ∧
    (fun i : Fin 3 => jacobian x ⟨15 + i, by omega⟩ c) = Dvel 2 x (Pi.single c 1) := by
  fin_cases c
  exacts [⟨pos0 x, vel0 x⟩, ⟨pos1 x, vel1 x⟩, ⟨pos2 x, vel2 x⟩, ⟨pos3 x, vel3 x⟩, ⟨pos4 x, vel4 x⟩, ⟨pos5 x, vel5 x⟩, ⟨pos6 x,
    vel6 x⟩, ⟨pos7 x, vel7 x⟩, ⟨pos8 x, vel8 x⟩, ⟨pos9 x, vel9 x⟩, ⟨pos10 x, vel10 x⟩, ⟨pos11 x, vel11 x⟩, ⟨pos12 x, vel12 x⟩, ⟨pos13 x, vel13 x⟩, ⟨pos14 x, vel14 x⟩, ⟨pos15 x, vel15 x⟩, ⟨pos16 x, vel16 x⟩, ⟨pos17 x, vel17 x⟩, ⟨pos18 x, vel18 x⟩, ⟨pos19 x, vel19 x⟩, ⟨pos20 x, vel20 x⟩, ⟨pos21 x, vel21 x⟩, ⟨pos22 x, vel22 x⟩, ⟨pos23 x, vel23 x⟩, ⟨pos24 x, vel24 x⟩, ⟨pos25 x, vel25 x⟩, ⟨pos26 x, vel26 x⟩, ⟨pos27 x, vel27 x⟩, ⟨pos28 x, vel28 x⟩, ⟨pos29 x, vel29 x⟩, ⟨pos30 x, vel30 x⟩, ⟨pos31 x, vel31 x⟩, ⟨pos32 x, vel32 x⟩, ⟨pos33 x, vel33 x⟩, ⟨pos34 x, vel34 x⟩, ⟨pos35 x, vel35 x⟩]

end CT.Robots.HyQ.FootJacForward.Leg2
