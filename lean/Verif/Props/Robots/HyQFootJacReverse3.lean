import Verif.Model.Robots.HyQFootJacReverse
import Verif.Props.Robots.HyQFoot

/-!
# Rows of foot 3 in the generated Jacobian HyQForwardKinJacReverse

`hN`: line `N` is a component of the quaternion, of the position of the foot or of its velocity in the base.  `eC_R`: the entry in
row `R` and column `C`.
-/

namespace CT.Robots.HyQ.FootJacReverse.Leg3

open Matrix CT.FloatSys CT.FrameJac CT.Robots.HyQ

set_option linter.unusedSimpArgs false

theorem h640 (x : Fin 36 → ℝ) : l640 x = foot 3 x 2 := by
  simp only [l630, l631, l632, l633, l634, l635, l636, l637, l638, l639, l640, foot, pv_0, pv_1, pv_2, side_3, mountX_3,
    mountY_3, th_3_0, th_3_1, th_3_2, segA, segB, segC, segD, segH] <;> ring
theorem h652 (x : Fin 36 → ℝ) : l652 x = Qe x 3 := by
  simp only [l641, l642, l643, l644, l645, l646, l647, l648, l649, l650, l651, l652, Qe_3] <;> ring
theorem h660 (x : Fin 36 → ℝ) : l660 x = foot 3 x 1 := by
  simp only [l632, l634, l636, l638, l654, l655, l656, l657, l658, l659, l660, foot, pv_0, pv_1, pv_2, side_3, mountX_3,
    mountY_3, th_3_0, th_3_1, th_3_2, segA, segB, segC, segD, segH] <;> ring
theorem h663 (x : Fin 36 → ℝ) : l663 x = Qe x 2 := by
  simp only [l641, l642, l643, l644, l646, l647, l648, l649, l651, l661, l662, l663, Qe_2] <;> ring
theorem h669 (x : Fin 36 → ℝ) : l669 x = -foot 3 x 0 := by
  simp only [l632, l634, l636, l638, l666, l667, l668, l669, foot, pv_0, pv_1, pv_2, side_3, mountX_3, mountY_3, th_3_0, th_3_1,
    th_3_2, segA, segB, segC, segD, segH] <;> ring
theorem h670 (x : Fin 36 → ℝ) : l670 x = Qe x 1 := by
  simp only [l641, l642, l643, l644, l646, l647, l648, l649, l651, l661, l662, l670, Qe_1] <;> ring
theorem h671 (x : Fin 36 → ℝ) : l671 x = Qe x 0 := by
  simp only [l641, l642, l643, l644, l645, l646, l647, l648, l649, l650, l651, l671, Qe_0] <;> ring
theorem h675 (x : Fin 36 → ℝ) : l675 x = -foot 3 x 1 := by
  simp only [l632, l634, l636, l638, l654, l655, l656, l657, l658, l659, l660, l675, foot, pv_0, pv_1, pv_2, side_3, mountX_3,
    mountY_3, th_3_0, th_3_1, th_3_2, segA, segB, segC, segD, segH] <;> ring
theorem h678 (x : Fin 36 → ℝ) : l678 x = -foot 3 x 0 := by
  simp only [l632, l634, l636, l638, l666, l667, l668, l678, foot, pv_0, pv_1, pv_2, side_3, mountX_3, mountY_3, th_3_0, th_3_1,
    th_3_2, segA, segB, segC, segD, segH] <;> ring
theorem h668 (x : Fin 36 → ℝ) : l668 x = foot 3 x 0 := by
  simp only [l632, l634, l636, l638, l666, l667, l668, foot, pv_0, pv_1, pv_2, side_3, mountX_3, mountY_3, th_3_0, th_3_1,
    th_3_2, segA, segB, segC, segD, segH] <;> ring
theorem h686 (x : Fin 36 → ℝ) : l686 x = -foot 3 x 1 := by
  simp only [l632, l634, l636, l638, l654, l655, l656, l657, l658, l659, l660, l686, foot, pv_0, pv_1, pv_2, side_3, mountX_3,
    mountY_3, th_3_0, th_3_1, th_3_2, segA, segB, segC, segD, segH] <;> ring
theorem h688 (x : Fin 36 → ℝ) : l688 x = -foot 3 x 2 := by
  simp only [l630, l631, l632, l633, l634, l635, l636, l637, l638, l639, l640, l688, foot, pv_0, pv_1, pv_2, side_3, mountX_3,
    mountY_3, th_3_0, th_3_1, th_3_2, segA, segB, segC, segD, segH] <;> ring
theorem h695 (x : Fin 36 → ℝ) : l695 x = -foot 3 x 1 := by
  simp only [l632, l634, l636, l638, l654, l655, l656, l657, l658, l659, l660, l695, foot, pv_0, pv_1, pv_2, side_3, mountX_3,
    mountY_3, th_3_0, th_3_1, th_3_2, segA, segB, segC, segD, segH] <;> ring
theorem h701 (x : Fin 36 → ℝ) : l701 x = -foot 3 x 2 := by
  simp only [l630, l631, l632, l633, l634, l635, l636, l637, l638, l639, l640, l701, foot, pv_0, pv_1, pv_2, side_3, mountX_3,
    mountY_3, th_3_0, th_3_1, th_3_2, segA, segB, segC, segD, segH] <;> ring
theorem h703 (x : Fin 36 → ℝ) : l703 x = -foot 3 x 2 := by
  simp only [l630, l631, l632, l633, l634, l635, l636, l637, l638, l639, l640, l703, foot, pv_0, pv_1, pv_2, side_3, mountX_3,
    mountY_3, th_3_0, th_3_1, th_3_2, segA, segB, segC, segD, segH] <;> ring
theorem h704 (x : Fin 36 → ℝ) : l704 x = -foot 3 x 0 := by
  simp only [l632, l634, l636, l638, l666, l667, l668, l704, foot, pv_0, pv_1, pv_2, side_3, mountX_3, mountY_3, th_3_0, th_3_1,
    th_3_2, segA, segB, segC, segD, segH] <;> ring
theorem h740 (x : Fin 36 → ℝ) : l740 x = vb 3 x 2 := by
  simp only [l630, l632, l634, l636, l638, l654, l715, l716, l717, l718, l719, l720, l721, l722, l723, l724, l725, l726, l727,
    l728, l729, l730, l731, l732, l733, l734, l735, l736, l737, l738, l739, l740, vb, Pi.add_apply, mv_0, mv_1, mv_2, cr_0, cr_1, cr_2, foot, pv_0, pv_1, pv_2, side_3, mountX_3, mountY_3, th_3_0, th_3_1, th_3_2, segA, segB, segC, segD, segH, jac, jm_00, jm_01, jm_02, jm_10, jm_11, jm_12, jm_20, jm_21, jm_22, qd_3_0, qd_3_1, qd_3_2, om_0, om_1, om_2, lv_0, lv_1, lv_2] <;> ring
theorem h752 (x : Fin 36 → ℝ) : l752 x = Qe x 3 := by
  simp only [l741, l742, l743, l744, l745, l746, l747, l748, l749, l750, l751, l752, Qe_3] <;> ring
theorem h776 (x : Fin 36 → ℝ) : l776 x = vb 3 x 1 := by
  simp only [l630, l632, l634, l636, l638, l654, l727, l737, l738, l739, l754, l755, l756, l757, l758, l759, l760, l761, l762,
    l763, l764, l765, l766, l767, l768, l769, l770, l771, l772, l773, l774, l775, l776, vb, Pi.add_apply, mv_0, mv_1, mv_2, cr_0, cr_1, cr_2, foot, pv_0, pv_1, pv_2, side_3, mountX_3, mountY_3, th_3_0, th_3_1, th_3_2, segA, segB, segC, segD, segH, jac, jm_00, jm_01, jm_02, jm_10, jm_11, jm_12, jm_20, jm_21, jm_22, qd_3_0, qd_3_1, qd_3_2, om_0, om_1, om_2, lv_0, lv_1, lv_2] <;> ring
theorem h779 (x : Fin 36 → ℝ) : l779 x = Qe x 2 := by
  simp only [l741, l742, l743, l744, l746, l747, l748, l749, l751, l777, l778, l779, Qe_2] <;> ring
theorem h789 (x : Fin 36 → ℝ) : l789 x = -vb 3 x 0 := by
  simp only [l630, l632, l634, l636, l638, l654, l731, l732, l733, l734, l735, l736, l770, l771, l772, l773, l774, l775, l782,
    l783, l784, l785, l786, l787, l788, l789, vb, Pi.add_apply, mv_0, mv_1, mv_2, cr_0, cr_1, cr_2, foot, pv_0, pv_1, pv_2, side_3, mountX_3, mountY_3, th_3_0, th_3_1, th_3_2, segA, segB, segC, segD, segH, jac, jm_00, jm_01, jm_02, jm_10, jm_11, jm_12, jm_20, jm_21, jm_22, qd_3_0, qd_3_1, qd_3_2, om_0, om_1, om_2, lv_0, lv_1, lv_2] <;> ring
theorem h790 (x : Fin 36 → ℝ) : l790 x = Qe x 1 := by
  simp only [l741, l742, l743, l744, l746, l747, l748, l749, l751, l777, l778, l790, Qe_1] <;> ring
theorem h791 (x : Fin 36 → ℝ) : l791 x = Qe x 0 := by
  simp only [l741, l742, l743, l744, l745, l746, l747, l748, l749, l750, l751, l791, Qe_0] <;> ring
theorem h795 (x : Fin 36 → ℝ) : l795 x = -vb 3 x 1 := by
  simp only [l630, l632, l634, l636, l638, l654, l727, l737, l738, l739, l754, l755, l756, l757, l758, l759, l760, l761, l762,
    l763, l764, l765, l766, l767, l768, l769, l770, l771, l772, l773, l774, l775, l776, l795, vb, Pi.add_apply, mv_0, mv_1, mv_2, cr_0, cr_1, cr_2, foot, pv_0, pv_1, pv_2, side_3, mountX_3, mountY_3, th_3_0, th_3_1, th_3_2, segA, segB, segC, segD, segH, jac, jm_00, jm_01, jm_02, jm_10, jm_11, jm_12, jm_20, jm_21, jm_22, qd_3_0, qd_3_1, qd_3_2, om_0, om_1, om_2, lv_0, lv_1, lv_2] <;> ring
theorem h798 (x : Fin 36 → ℝ) : l798 x = -vb 3 x 0 := by
  simp only [l630, l632, l634, l636, l638, l654, l731, l732, l733, l734, l735, l736, l770, l771, l772, l773, l774, l775, l782,
    l783, l784, l785, l786, l787, l788, l798, vb, Pi.add_apply, mv_0, mv_1, mv_2, cr_0, cr_1, cr_2, foot, pv_0, pv_1, pv_2, side_3, mountX_3, mountY_3, th_3_0, th_3_1, th_3_2, segA, segB, segC, segD, segH, jac, jm_00, jm_01, jm_02, jm_10, jm_11, jm_12, jm_20, jm_21, jm_22, qd_3_0, qd_3_1, qd_3_2, om_0, om_1, om_2, lv_0, lv_1, lv_2] <;> ring
theorem h788 (x : Fin 36 → ℝ) : l788 x = vb 3 x 0 := by
  simp only [l630, l632, l634, l636, l638, l654, l731, l732, l733, l734, l735, l736, l770, l771, l772, l773, l774, l775, l782,
    l783, l784, l785, l786, l787, l788, vb, Pi.add_apply, mv_0, mv_1, mv_2, cr_0, cr_1, cr_2, foot, pv_0, pv_1, pv_2, side_3, mountX_3, mountY_3, th_3_0, th_3_1, th_3_2, segA, segB, segC, segD, segH, jac, jm_00, jm_01, jm_02, jm_10, jm_11, jm_12, jm_20, jm_21, jm_22, qd_3_0, qd_3_1, qd_3_2, om_0, om_1, om_2, lv_0, lv_1, lv_2] <;> ring
theorem h806 (x : Fin 36 → ℝ) : l806 x = -vb 3 x 1 := by
  simp only [l630, l632, l634, l636, l638, l654, l727, l737, l738, l739, l754, l755, l756, l757, l758, l759, l760, l761, l762,
    l763, l764, l765, l766, l767, l768, l769, l770, l771, l772, l773, l774, l775, l776, l806, vb, Pi.add_apply, mv_0, mv_1, mv_2, cr_0, cr_1, cr_2, foot, pv_0, pv_1, pv_2, side_3, mountX_3, mountY_3, th_3_0, th_3_1, th_3_2, segA, segB, segC, segD, segH, jac, jm_00, jm_01, jm_02, jm_10, jm_11, jm_12, jm_20, jm_21, jm_22, qd_3_0, qd_3_1, qd_3_2, om_0, om_1, om_2, lv_0, lv_1, lv_2] <;> ring
theorem h808 (x : Fin 36 → ℝ) : l808 x = -vb 3 x 2 := by
  simp only [l630, l632, l634, l636, l638, l654, l715, l716, l717, l718, l719, l720, l721, l722, l723, l724, l725, l726, l727,
    l728, l729, l730, l731, l732, l733, l734, l735, l736, l737, l738, l739, l740, l808, vb, Pi.add_apply, mv_0, mv_1, mv_2, cr_0, cr_1, cr_2, foot, pv_0, pv_1, pv_2, side_3, mountX_3, mountY_3, th_3_0, th_3_1, th_3_2, segA, segB, segC, segD, segH, jac, jm_00, jm_01, jm_02, jm_10, jm_11, jm_12, jm_20, jm_21, jm_22, qd_3_0, qd_3_1, qd_3_2, om_0, om_1, om_2, lv_0, lv_1, lv_2] <;> ring
theorem h815 (x : Fin 36 → ℝ) : l815 x = -vb 3 x 1 := by
  simp only [l630, l632, l634, l636, l638, l654, l727, l737, l738, l739, l754, l755, l756, l757, l758, l759, l760, l761, l762,
    l763, l764, l765, l766, l767, l768, l769, l770, l771, l772, l773, l774, l775, l776, l815, vb, Pi.add_apply, mv_0, mv_1, mv_2, cr_0, cr_1, cr_2, foot, pv_0, pv_1, pv_2, side_3, mountX_3, mountY_3, th_3_0, th_3_1, th_3_2, segA, segB, segC, segD, segH, jac, jm_00, jm_01, jm_02, jm_10, jm_11, jm_12, jm_20, jm_21, jm_22, qd_3_0, qd_3_1, qd_3_2, om_0, om_1, om_2, lv_0, lv_1, lv_2] <;> ring
theorem h821 (x : Fin 36 → ℝ) : l821 x = -vb 3 x 2 := by
  simp only [l630, l632, l634, l636, l638, l654, l715, l716, l717, l718, l719, l720, l721, l722, l723, l724, l725, l726, l727,
    l728, l729, l730, l731, l732, l733, l734, l735, l736, l737, l738, l739, l740, l821, vb, Pi.add_apply, mv_0, mv_1, mv_2, cr_0, cr_1, cr_2, foot, pv_0, pv_1, pv_2, side_3, mountX_3, mountY_3, th_3_0, th_3_1, th_3_2, segA, segB, segC, segD, segH, jac, jm_00, jm_01, jm_02, jm_10, jm_11, jm_12, jm_20, jm_21, jm_22, qd_3_0, qd_3_1, qd_3_2, om_0, om_1, om_2, lv_0, lv_1, lv_2] <;> ring
theorem h823 (x : Fin 36 → ℝ) : l823 x = -vb 3 x 2 := by
  simp only [l630, l632, l634, l636, l638, l654, l715, l716, l717, l718, l719, l720, l721, l722, l723, l724, l725, l726, l727,
    l728, l729, l730, l731, l732, l733, l734, l735, l736, l737, l738, l739, l740, l823, vb, Pi.add_apply, mv_0, mv_1, mv_2, cr_0, cr_1, cr_2, foot, pv_0, pv_1, pv_2, side_3, mountX_3, mountY_3, th_3_0, th_3_1, th_3_2, segA, segB, segC, segD, segH, jac, jm_00, jm_01, jm_02, jm_10, jm_11, jm_12, jm_20, jm_21, jm_22, qd_3_0, qd_3_1, qd_3_2, om_0, om_1, om_2, lv_0, lv_1, lv_2] <;> ring
theorem h824 (x : Fin 36 → ℝ) : l824 x = -vb 3 x 0 := by
  simp only [l630, l632, l634, l636, l638, l654, l731, l732, l733, l734, l735, l736, l770, l771, l772, l773, l774, l775, l782,
    l783, l784, l785, l786, l787, l788, l824, vb, Pi.add_apply, mv_0, mv_1, mv_2, cr_0, cr_1, cr_2, foot, pv_0, pv_1, pv_2, side_3, mountX_3, mountY_3, th_3_0, th_3_1, th_3_2, segA, segB, segC, segD, segH, jac, jm_00, jm_01, jm_02, jm_10, jm_11, jm_12, jm_20, jm_21, jm_22, qd_3_0, qd_3_1, qd_3_2, om_0, om_1, om_2, lv_0, lv_1, lv_2] <;> ring

theorem e0_18 (x : Fin 36 → ℝ) : l685 x = (dRm (Qe x) (dQ 0 x) *ᵥ foot 3 x) 0 := by
  simp only [l641, l643, l644, l646, l647, l649, l651, l653, l664, l665, l672, l673, l674, l676, l677, l679, l680, l681, l682,
    l683, l684, l685, h640, h652, h660, h663, h669, h670, h671, h675, h678, mv_0, mv_1, mv_2, dRm_00, dRm_01, dRm_02, dRm_10, dRm_11, dRm_12, dRm_20, dRm_21, dRm_22, dQ_0_0, dQ_0_1, dQ_0_2, dQ_0_3] <;> ring
theorem e0_19 (x : Fin 36 → ℝ) : l700 x = (dRm (Qe x) (dQ 0 x) *ᵥ foot 3 x) 1 := by
  simp only [l641, l643, l644, l646, l647, l649, l651, l653, l664, l681, l684, l687, l689, l690, l691, l692, l693, l694, l696,
    l697, l698, l699, l700, h640, h652, h663, h668, h670, h671, h686, h688, h695, mv_0, mv_1, mv_2, dRm_00, dRm_01, dRm_02, dRm_10, dRm_11, dRm_12, dRm_20, dRm_21, dRm_22, dQ_0_0, dQ_0_1, dQ_0_2, dQ_0_3] <;> ring
theorem e0_20 (x : Fin 36 → ℝ) : l714 x = (dRm (Qe x) (dQ 0 x) *ᵥ foot 3 x) 2 := by
  simp only [l641, l643, l644, l646, l647, l649, l651, l653, l664, l681, l684, l687, l702, l705, l706, l707, l708, l709, l710,
    l711, l712, l713, l714, h652, h660, h663, h668, h670, h671, h701, h703, h704, mv_0, mv_1, mv_2, dRm_00, dRm_01, dRm_02, dRm_10, dRm_11, dRm_12, dRm_20, dRm_21, dRm_22, dQ_0_0, dQ_0_1, dQ_0_2, dQ_0_3] <;> ring
theorem e0_21 (x : Fin 36 → ℝ) : l805 x = (dRm (Qe x) (dQ 0 x) *ᵥ vb 3 x) 0 := by
  simp only [l741, l743, l744, l746, l747, l749, l751, l753, l780, l781, l792, l793, l794, l796, l797, l799, l800, l801, l802,
    l803, l804, l805, h740, h752, h776, h779, h789, h790, h791, h795, h798, mv_0, mv_1, mv_2, dRm_00, dRm_01, dRm_02, dRm_10, dRm_11, dRm_12, dRm_20, dRm_21, dRm_22, dQ_0_0, dQ_0_1, dQ_0_2, dQ_0_3] <;> ring
theorem e0_22 (x : Fin 36 → ℝ) : l820 x = (dRm (Qe x) (dQ 0 x) *ᵥ vb 3 x) 1 := by
  simp only [l741, l743, l744, l746, l747, l749, l751, l753, l780, l801, l804, l807, l809, l810, l811, l812, l813, l814, l816,
    l817, l818, l819, l820, h740, h752, h779, h788, h790, h791, h806, h808, h815, mv_0, mv_1, mv_2, dRm_00, dRm_01, dRm_02, dRm_10, dRm_11, dRm_12, dRm_20, dRm_21, dRm_22, dQ_0_0, dQ_0_1, dQ_0_2, dQ_0_3] <;> ring
theorem e0_23 (x : Fin 36 → ℝ) : l834 x = (dRm (Qe x) (dQ 0 x) *ᵥ vb 3 x) 2 := by
  simp only [l741, l743, l744, l746, l747, l749, l751, l753, l780, l801, l804, l807, l822, l825, l826, l827, l828, l829, l830,
    l831, l832, l833, l834, h752, h776, h779, h788, h790, h791, h821, h823, h824, mv_0, mv_1, mv_2, dRm_00, dRm_01, dRm_02, dRm_10, dRm_11, dRm_12, dRm_20, dRm_21, dRm_22, dQ_0_0, dQ_0_1, dQ_0_2, dQ_0_3] <;> ring
theorem e1_18 (x : Fin 36 → ℝ) : l867 x = (dRm (Qe x) (dQ 1 x) *ᵥ foot 3 x) 0 := by
  simp only [l641, l642, l643, l646, l647, l648, l651, l653, l664, l665, l672, l673, l674, l676, l677, l679, l680, l682, l683,
    l865, l866, l867, h640, h652, h660, h663, h669, h670, h671, h675, h678, mv_0, mv_1, mv_2, dRm_00, dRm_01, dRm_02, dRm_10, dRm_11, dRm_12, dRm_20, dRm_21, dRm_22, dQ_1_0, dQ_1_1, dQ_1_2, dQ_1_3] <;> ring
theorem e1_19 (x : Fin 36 → ℝ) : l868 x = (dRm (Qe x) (dQ 1 x) *ᵥ foot 3 x) 1 := by
  simp only [l641, l642, l643, l646, l647, l648, l651, l653, l664, l687, l689, l690, l691, l692, l693, l694, l696, l697, l698,
    l699, l865, l866, l868, h640, h652, h663, h668, h670, h671, h686, h688, h695, mv_0, mv_1, mv_2, dRm_00, dRm_01, dRm_02, dRm_10, dRm_11, dRm_12, dRm_20, dRm_21, dRm_22, dQ_1_0, dQ_1_1, dQ_1_2, dQ_1_3] <;> ring
theorem e1_20 (x : Fin 36 → ℝ) : l869 x = (dRm (Qe x) (dQ 1 x) *ᵥ foot 3 x) 2 := by
  simp only [l641, l642, l643, l646, l647, l648, l651, l653, l664, l687, l702, l705, l706, l707, l708, l709, l710, l711, l712,
    l713, l865, l866, l869, h652, h660, h663, h668, h670, h671, h701, h703, h704, mv_0, mv_1, mv_2, dRm_00, dRm_01, dRm_02, dRm_10, dRm_11, dRm_12, dRm_20, dRm_21, dRm_22, dQ_1_0, dQ_1_1, dQ_1_2, dQ_1_3] <;> ring
theorem e1_21 (x : Fin 36 → ℝ) : l872 x = (dRm (Qe x) (dQ 1 x) *ᵥ vb 3 x) 0 := by
  simp only [l741, l742, l743, l746, l747, l748, l751, l753, l780, l781, l792, l793, l794, l796, l797, l799, l800, l802, l803,
    l870, l871, l872, h740, h752, h776, h779, h789, h790, h791, h795, h798, mv_0, mv_1, mv_2, dRm_00, dRm_01, dRm_02, dRm_10, dRm_11, dRm_12, dRm_20, dRm_21, dRm_22, dQ_1_0, dQ_1_1, dQ_1_2, dQ_1_3] <;> ring
theorem e1_22 (x : Fin 36 → ℝ) : l873 x = (dRm (Qe x) (dQ 1 x) *ᵥ vb 3 x) 1 := by
  simp only [l741, l742, l743, l746, l747, l748, l751, l753, l780, l807, l809, l810, l811, l812, l813, l814, l816, l817, l818,
    l819, l870, l871, l873, h740, h752, h779, h788, h790, h791, h806, h808, h815, mv_0, mv_1, mv_2, dRm_00, dRm_01, dRm_02, dRm_10, dRm_11, dRm_12, dRm_20, dRm_21, dRm_22, dQ_1_0, dQ_1_1, dQ_1_2, dQ_1_3] <;> ring
theorem e1_23 (x : Fin 36 → ℝ) : l874 x = (dRm (Qe x) (dQ 1 x) *ᵥ vb 3 x) 2 := by
  simp only [l741, l742, l743, l746, l747, l748, l751, l753, l780, l807, l822, l825, l826, l827, l828, l829, l830, l831, l832,
    l833, l870, l871, l874, h752, h776, h779, h788, h790, h791, h821, h823, h824, mv_0, mv_1, mv_2, dRm_00, dRm_01, dRm_02, dRm_10, dRm_11, dRm_12, dRm_20, dRm_21, dRm_22, dQ_1_0, dQ_1_1, dQ_1_2, dQ_1_3] <;> ring
theorem e2_18 (x : Fin 36 → ℝ) : l907 x = (dRm (Qe x) (dQ 2 x) *ᵥ foot 3 x) 0 := by
  simp only [l641, l642, l643, l644, l645, l646, l648, l649, l650, l653, l661, l662, l664, l665, l672, l673, l676, l677, l679,
    l905, l906, l907, h640, h652, h660, h663, h669, h670, h671, h675, h678, mv_0, mv_1, mv_2, dRm_00, dRm_01, dRm_02, dRm_10, dRm_11, dRm_12, dRm_20, dRm_21, dRm_22, dQ_2_0, dQ_2_1, dQ_2_2, dQ_2_3] <;> ring
theorem e2_19 (x : Fin 36 → ℝ) : l908 x = (dRm (Qe x) (dQ 2 x) *ᵥ foot 3 x) 1 := by
  simp only [l641, l642, l643, l644, l645, l646, l648, l649, l650, l653, l661, l662, l664, l687, l689, l690, l691, l693, l694,
    l696, l905, l906, l908, h640, h652, h663, h668, h670, h671, h686, h688, h695, mv_0, mv_1, mv_2, dRm_00, dRm_01, dRm_02, dRm_10, dRm_11, dRm_12, dRm_20, dRm_21, dRm_22, dQ_2_0, dQ_2_1, dQ_2_2, dQ_2_3] <;> ring
theorem e2_20 (x : Fin 36 → ℝ) : l909 x = (dRm (Qe x) (dQ 2 x) *ᵥ foot 3 x) 2 := by
  simp only [l641, l642, l643, l644, l645, l646, l648, l649, l650, l653, l661, l662, l664, l687, l702, l705, l706, l708, l709,
    l710, l905, l906, l909, h652, h660, h663, h668, h670, h671, h701, h703, h704, mv_0, mv_1, mv_2, dRm_00, dRm_01, dRm_02, dRm_10, dRm_11, dRm_12, dRm_20, dRm_21, dRm_22, dQ_2_0, dQ_2_1, dQ_2_2, dQ_2_3] <;> ring
theorem e2_21 (x : Fin 36 → ℝ) : l912 x = (dRm (Qe x) (dQ 2 x) *ᵥ vb 3 x) 0 := by
  simp only [l741, l742, l743, l744, l745, l746, l748, l749, l750, l753, l777, l778, l780, l781, l792, l793, l796, l797, l799,
    l910, l911, l912, h740, h752, h776, h779, h789, h790, h791, h795, h798, mv_0, mv_1, mv_2, dRm_00, dRm_01, dRm_02, dRm_10, dRm_11, dRm_12, dRm_20, dRm_21, dRm_22, dQ_2_0, dQ_2_1, dQ_2_2, dQ_2_3] <;> ring
theorem e2_22 (x : Fin 36 → ℝ) : l913 x = (dRm (Qe x) (dQ 2 x) *ᵥ vb 3 x) 1 := by
  simp only [l741, l742, l743, l744, l745, l746, l748, l749, l750, l753, l777, l778, l780, l807, l809, l810, l811, l813, l814,
    l816, l910, l911, l913, h740, h752, h779, h788, h790, h791, h806, h808, h815, mv_0, mv_1, mv_2, dRm_00, dRm_01, dRm_02, dRm_10, dRm_11, dRm_12, dRm_20, dRm_21, dRm_22, dQ_2_0, dQ_2_1, dQ_2_2, dQ_2_3] <;> ring
theorem e2_23 (x : Fin 36 → ℝ) : l914 x = (dRm (Qe x) (dQ 2 x) *ᵥ vb 3 x) 2 := by
  simp only [l741, l742, l743, l744, l745, l746, l748, l749, l750, l753, l777, l778, l780, l807, l822, l825, l826, l828, l829,
    l830, l910, l911, l914, h752, h776, h779, h788, h790, h791, h821, h823, h824, mv_0, mv_1, mv_2, dRm_00, dRm_01, dRm_02, dRm_10, dRm_11, dRm_12, dRm_20, dRm_21, dRm_22, dQ_2_0, dQ_2_1, dQ_2_2, dQ_2_3] <;> ring
theorem e3_18 (x : Fin 36 → ℝ) : l1787 x = ((Pi.single 0 1 : V3)) 0 := by simp [l1787]
theorem e3_19 (_x : Fin 36 → ℝ) : (0 : ℝ) = ((Pi.single 0 1 : V3)) 1 := by simp [Pi.zero_apply]
theorem e3_20 (_x : Fin 36 → ℝ) : (0 : ℝ) = ((Pi.single 0 1 : V3)) 2 := by simp [Pi.zero_apply]
theorem e3_21 (_x : Fin 36 → ℝ) : (0 : ℝ) = ((0 : V3)) 0 := by simp [Pi.zero_apply]
theorem e3_22 (_x : Fin 36 → ℝ) : (0 : ℝ) = ((0 : V3)) 1 := by simp [Pi.zero_apply]
theorem e3_23 (_x : Fin 36 → ℝ) : (0 : ℝ) = ((0 : V3)) 2 := by simp [Pi.zero_apply]
theorem e4_18 (_x : Fin 36 → ℝ) : (0 : ℝ) = ((Pi.single 1 1 : V3)) 0 := by simp [Pi.zero_apply]
theorem e4_19 (x : Fin 36 → ℝ) : l1791 x = ((Pi.single 1 1 : V3)) 1 := by simp [l1791]
theorem e4_20 (_x : Fin 36 → ℝ) : (0 : ℝ) = ((Pi.single 1 1 : V3)) 2 := by simp [Pi.zero_apply]
theorem e4_21 (_x : Fin 36 → ℝ) : (0 : ℝ) = ((0 : V3)) 0 := by simp [Pi.zero_apply]
theorem e4_22 (_x : Fin 36 → ℝ) : (0 : ℝ) = ((0 : V3)) 1 := by simp [Pi.zero_apply]
theorem e4_23 (_x : Fin 36 → ℝ) : (0 : ℝ) = ((0 : V3)) 2 := by simp [Pi.zero_apply]
theorem e5_18 (_x : Fin 36 → ℝ) : (0 : ℝ) = ((Pi.single 2 1 : V3)) 0 := by simp [Pi.zero_apply]
theorem e5_19 (_x : Fin 36 → ℝ) : (0 : ℝ) = ((Pi.single 2 1 : V3)) 1 := by simp [Pi.zero_apply]
theorem e5_20 (x : Fin 36 → ℝ) : l1795 x = ((Pi.single 2 1 : V3)) 2 := by simp [l1795]
theorem e5_21 (_x : Fin 36 → ℝ) : (0 : ℝ) = ((0 : V3)) 0 := by simp [Pi.zero_apply]
theorem e5_22 (_x : Fin 36 → ℝ) : (0 : ℝ) = ((0 : V3)) 1 := by simp [Pi.zero_apply]
theorem e5_23 (_x : Fin 36 → ℝ) : (0 : ℝ) = ((0 : V3)) 2 := by simp [Pi.zero_apply]
theorem e6_18 (_x : Fin 36 → ℝ) : (0 : ℝ) = ((0 : V3)) 0 := by simp [Pi.zero_apply]
theorem e6_19 (_x : Fin 36 → ℝ) : (0 : ℝ) = ((0 : V3)) 1 := by simp [Pi.zero_apply]
theorem e6_20 (_x : Fin 36 → ℝ) : (0 : ℝ) = ((0 : V3)) 2 := by simp [Pi.zero_apply]
theorem e6_21 (_x : Fin 36 → ℝ) : (0 : ℝ) = ((0 : V3)) 0 := by simp [Pi.zero_apply]
theorem e6_22 (_x : Fin 36 → ℝ) : (0 : ℝ) = ((0 : V3)) 1 := by simp [Pi.zero_apply]
theorem e6_23 (_x : Fin 36 → ℝ) : (0 : ℝ) = ((0 : V3)) 2 := by simp [Pi.zero_apply]
theorem e7_18 (_x : Fin 36 → ℝ) : (0 : ℝ) = ((0 : V3)) 0 := by simp [Pi.zero_apply]
theorem e7_19 (_x : Fin 36 → ℝ) : (0 : ℝ) = ((0 : V3)) 1 := by simp [Pi.zero_apply]
theorem e7_20 (_x : Fin 36 → ℝ) : (0 : ℝ) = ((0 : V3)) 2 := by simp [Pi.zero_apply]
theorem e7_21 (_x : Fin 36 → ℝ) : (0 : ℝ) = ((0 : V3)) 0 := by simp [Pi.zero_apply]
theorem e7_22 (_x : Fin 36 → ℝ) : (0 : ℝ) = ((0 : V3)) 1 := by simp [Pi.zero_apply]
theorem e7_23 (_x : Fin 36 → ℝ) : (0 : ℝ) = ((0 : V3)) 2 := by simp [Pi.zero_apply]
theorem e8_18 (_x : Fin 36 → ℝ) : (0 : ℝ) = ((0 : V3)) 0 := by simp [Pi.zero_apply]
theorem e8_19 (_x : Fin 36 → ℝ) : (0 : ℝ) = ((0 : V3)) 1 := by simp [Pi.zero_apply]
theorem e8_20 (_x : Fin 36 → ℝ) : (0 : ℝ) = ((0 : V3)) 2 := by simp [Pi.zero_apply]
theorem e8_21 (_x : Fin 36 → ℝ) : (0 : ℝ) = ((0 : V3)) 0 := by simp [Pi.zero_apply]
theorem e8_22 (_x : Fin 36 → ℝ) : (0 : ℝ) = ((0 : V3)) 1 := by simp [Pi.zero_apply]
theorem e8_23 (_x : Fin 36 → ℝ) : (0 : ℝ) = ((0 : V3)) 2 := by simp [Pi.zero_apply]
theorem e9_18 (_x : Fin 36 → ℝ) : (0 : ℝ) = ((0 : V3)) 0 := by simp [Pi.zero_apply]
theorem e9_19 (_x : Fin 36 → ℝ) : (0 : ℝ) = ((0 : V3)) 1 := by simp [Pi.zero_apply]
theorem e9_20 (_x : Fin 36 → ℝ) : (0 : ℝ) = ((0 : V3)) 2 := by simp [Pi.zero_apply]
theorem e9_21 (_x : Fin 36 → ℝ) : (0 : ℝ) = ((0 : V3)) 0 := by simp [Pi.zero_apply]
theorem e9_22 (_x : Fin 36 → ℝ) : (0 : ℝ) = ((0 : V3)) 1 := by simp [Pi.zero_apply]
theorem e9_23 (_x : Fin 36 → ℝ) : (0 : ℝ) = ((0 : V3)) 2 := by simp [Pi.zero_apply]
theorem e10_18 (_x : Fin 36 → ℝ) : (0 : ℝ) = ((0 : V3)) 0 := by simp [Pi.zero_apply]
theorem e10_19 (_x : Fin 36 → ℝ) : (0 : ℝ) = ((0 : V3)) 1 := by simp [Pi.zero_apply]
theorem e10_20 (_x : Fin 36 → ℝ) : (0 : ℝ) = ((0 : V3)) 2 := by simp [Pi.zero_apply]
theorem e10_21 (_x : Fin 36 → ℝ) : (0 : ℝ) = ((0 : V3)) 0 := by simp [Pi.zero_apply]
theorem e10_22 (_x : Fin 36 → ℝ) : (0 : ℝ) = ((0 : V3)) 1 := by simp [Pi.zero_apply]
theorem e10_23 (_x : Fin 36 → ℝ) : (0 : ℝ) = ((0 : V3)) 2 := by simp [Pi.zero_apply]
theorem e11_18 (_x : Fin 36 → ℝ) : (0 : ℝ) = ((0 : V3)) 0 := by simp [Pi.zero_apply]
theorem e11_19 (_x : Fin 36 → ℝ) : (0 : ℝ) = ((0 : V3)) 1 := by simp [Pi.zero_apply]
theorem e11_20 (_x : Fin 36 → ℝ) : (0 : ℝ) = ((0 : V3)) 2 := by simp [Pi.zero_apply]
theorem e11_21 (_x : Fin 36 → ℝ) : (0 : ℝ) = ((0 : V3)) 0 := by simp [Pi.zero_apply]
theorem e11_22 (_x : Fin 36 → ℝ) : (0 : ℝ) = ((0 : V3)) 1 := by simp [Pi.zero_apply]
theorem e11_23 (_x : Fin 36 → ℝ) : (0 : ℝ) = ((0 : V3)) 2 := by simp [Pi.zero_apply]
theorem e12_18 (_x : Fin 36 → ℝ) : (0 : ℝ) = ((0 : V3)) 0 := by simp [Pi.zero_apply]
theorem e12_19 (_x : Fin 36 → ℝ) : (0 : ℝ) = ((0 : V3)) 1 := by simp [Pi.zero_apply]
theorem e12_20 (_x : Fin 36 → ℝ) : (0 : ℝ) = ((0 : V3)) 2 := by simp [Pi.zero_apply]
theorem e12_21 (_x : Fin 36 → ℝ) : (0 : ℝ) = ((0 : V3)) 0 := by simp [Pi.zero_apply]
theorem e12_22 (_x : Fin 36 → ℝ) : (0 : ℝ) = ((0 : V3)) 1 := by simp [Pi.zero_apply]
theorem e12_23 (_x : Fin 36 → ℝ) : (0 : ℝ) = ((0 : V3)) 2 := by simp [Pi.zero_apply]
theorem e13_18 (_x : Fin 36 → ℝ) : (0 : ℝ) = ((0 : V3)) 0 := by simp [Pi.zero_apply]
theorem e13_19 (_x : Fin 36 → ℝ) : (0 : ℝ) = ((0 : V3)) 1 := by simp [Pi.zero_apply]
theorem e13_20 (_x : Fin 36 → ℝ) : (0 : ℝ) = ((0 : V3)) 2 := by simp [Pi.zero_apply]
theorem e13_21 (_x : Fin 36 → ℝ) : (0 : ℝ) = ((0 : V3)) 0 := by simp [Pi.zero_apply]
theorem e13_22 (_x : Fin 36 → ℝ) : (0 : ℝ) = ((0 : V3)) 1 := by simp [Pi.zero_apply]
theorem e13_23 (_x : Fin 36 → ℝ) : (0 : ℝ) = ((0 : V3)) 2 := by simp [Pi.zero_apply]
theorem e14_18 (_x : Fin 36 → ℝ) : (0 : ℝ) = ((0 : V3)) 0 := by simp [Pi.zero_apply]
theorem e14_19 (_x : Fin 36 → ℝ) : (0 : ℝ) = ((0 : V3)) 1 := by simp [Pi.zero_apply]
theorem e14_20 (_x : Fin 36 → ℝ) : (0 : ℝ) = ((0 : V3)) 2 := by simp [Pi.zero_apply]
theorem e14_21 (_x : Fin 36 → ℝ) : (0 : ℝ) = ((0 : V3)) 0 := by simp [Pi.zero_apply]
theorem e14_22 (_x : Fin 36 → ℝ) : (0 : ℝ) = ((0 : V3)) 1 := by simp [Pi.zero_apply]
theorem e14_23 (_x : Fin 36 → ℝ) : (0 : ℝ) = ((0 : V3)) 2 := by simp [Pi.zero_apply]
theorem e15_18 (x : Fin 36 → ℝ) : l1584 x = (quatMatrix (Qe x) *ᵥ jcol 3 0 x) 0 := by
  simp only [l632, l634, l636, l638, l653, l664, l1570, l1571, l1572, l1573, l1574, l1575, l1576, l1577, l1578, l1579, l1580,
    l1581, l1582, l1583, l1584, h652, h663, h670, h671, mv_0, mv_1, mv_2, qm_00, qm_01, qm_02, qm_10, qm_11, qm_12, qm_20, qm_21, qm_22, jcol, jac, jm_00, jm_01, jm_02, jm_10, jm_11, jm_12, jm_20, jm_21, jm_22, side_3, th_3_0, th_3_1, th_3_2, segA, segB, segC, segD, segH, Pi.add_apply, cr_0, cr_1, cr_2, djm_0_00, djm_0_01, djm_0_02, djm_0_10, djm_0_11, djm_0_12, djm_0_20, djm_0_21, djm_0_22, qd_3_0, qd_3_1, qd_3_2, om_0, om_1, om_2] <;> ring
theorem e15_19 (x : Fin 36 → ℝ) : l1597 x = (quatMatrix (Qe x) *ᵥ jcol 3 0 x) 1 := by
  simp only [l632, l634, l636, l638, l653, l687, l1577, l1583, l1585, l1586, l1587, l1588, l1589, l1590, l1591, l1592, l1593,
    l1594, l1595, l1596, l1597, h652, h663, h670, h671, mv_0, mv_1, mv_2, qm_00, qm_01, qm_02, qm_10, qm_11, qm_12, qm_20, qm_21, qm_22, jcol, jac, jm_00, jm_01, jm_02, jm_10, jm_11, jm_12, jm_20, jm_21, jm_22, side_3, th_3_0, th_3_1, th_3_2, segA, segB, segC, segD, segH, Pi.add_apply, cr_0, cr_1, cr_2, djm_0_00, djm_0_01, djm_0_02, djm_0_10, djm_0_11, djm_0_12, djm_0_20, djm_0_21, djm_0_22, qd_3_0, qd_3_1, qd_3_2, om_0, om_1, om_2] <;> ring
theorem e15_20 (x : Fin 36 → ℝ) : l1607 x = (quatMatrix (Qe x) *ᵥ jcol 3 0 x) 2 := by
  simp only [l632, l634, l636, l638, l653, l664, l687, l1577, l1583, l1585, l1586, l1593, l1598, l1599, l1600, l1601, l1602,
    l1603, l1604, l1605, l1606, l1607, h652, h663, h670, h671, mv_0, mv_1, mv_2, qm_00, qm_01, qm_02, qm_10, qm_11, qm_12, qm_20, qm_21, qm_22, jcol, jac, jm_00, jm_01, jm_02, jm_10, jm_11, jm_12, jm_20, jm_21, jm_22, side_3, th_3_0, th_3_1, th_3_2, segA, segB, segC, segD, segH, Pi.add_apply, cr_0, cr_1, cr_2, djm_0_00, djm_0_01, djm_0_02, djm_0_10, djm_0_11, djm_0_12, djm_0_20, djm_0_21, djm_0_22, qd_3_0, qd_3_1, qd_3_2, om_0, om_1, om_2] <;> ring
theorem e15_21 (x : Fin 36 → ℝ) : l1655 x = (quatMatrix (Qe x) *ᵥ (djm (side 3) 0 (th 3 x) *ᵥ qd 3 x + cross (om x) (jcol 3 0 x))) 0 := by
  simp only [l632, l634, l636, l638, l753, l780, l1577, l1583, l1608, l1609, l1610, l1611, l1612, l1613, l1615, l1616, l1617,
    l1618, l1619, l1620, l1621, l1622, l1623, l1629, l1630, l1631, l1632, l1633, l1634, l1635, l1636, l1637, l1638, l1640, l1641, l1642, l1643, l1644, l1645, l1646, l1647, l1648, l1649, l1650, l1651, l1652, l1653, l1654, l1655, h752, h779, h790, h791, mv_0, mv_1, mv_2, qm_00, qm_01, qm_02, qm_10, qm_11, qm_12, qm_20, qm_21, qm_22, jcol, jac, jm_00, jm_01, jm_02, jm_10, jm_11, jm_12, jm_20, jm_21, jm_22, side_3, th_3_0, th_3_1, th_3_2, segA, segB, segC, segD, segH, Pi.add_apply, cr_0, cr_1, cr_2, djm_0_00, djm_0_01, djm_0_02, djm_0_10, djm_0_11, djm_0_12, djm_0_20, djm_0_21, djm_0_22, qd_3_0, qd_3_1, qd_3_2, om_0, om_1, om_2] <;> ring
theorem e15_22 (x : Fin 36 → ℝ) : l1702 x = (quatMatrix (Qe x) *ᵥ (djm (side 3) 0 (th 3 x) *ᵥ qd 3 x + cross (om x) (jcol 3 0 x))) 1 := by
  simp only [l632, l634, l636, l638, l753, l780, l807, l1577, l1583, l1608, l1611, l1612, l1614, l1656, l1657, l1659, l1660,
    l1661, l1662, l1663, l1664, l1665, l1666, l1667, l1676, l1677, l1678, l1679, l1680, l1681, l1682, l1683, l1684, l1685, l1687, l1688, l1689, l1690, l1691, l1692, l1693, l1694, l1695, l1696, l1697, l1698, l1699, l1700, l1701, l1702, h752, h779, h790, h791, mv_0, mv_1, mv_2, qm_00, qm_01, qm_02, qm_10, qm_11, qm_12, qm_20, qm_21, qm_22, jcol, jac, jm_00, jm_01, jm_02, jm_10, jm_11, jm_12, jm_20, jm_21, jm_22, side_3, th_3_0, th_3_1, th_3_2, segA, segB, segC, segD, segH, Pi.add_apply, cr_0, cr_1, cr_2, djm_0_00, djm_0_01, djm_0_02, djm_0_10, djm_0_11, djm_0_12, djm_0_20, djm_0_21, djm_0_22, qd_3_0, qd_3_1, qd_3_2, om_0, om_1, om_2] <;> ring
theorem e15_23 (x : Fin 36 → ℝ) : l1736 x = (quatMatrix (Qe x) *ᵥ (djm (side 3) 0 (th 3 x) *ᵥ qd 3 x + cross (om x) (jcol 3 0 x))) 2 := by
  simp only [l632, l634, l636, l638, l753, l780, l807, l1577, l1583, l1609, l1621, l1622, l1625, l1656, l1658, l1665, l1666,
    l1669, l1703, l1704, l1705, l1706, l1707, l1708, l1710, l1711, l1712, l1713, l1714, l1715, l1716, l1717, l1718, l1719, l1721, l1722, l1723, l1724, l1725, l1726, l1727, l1728, l1729, l1730, l1731, l1732, l1733, l1734, l1735, l1736, h752, h779, h790, h791, mv_0, mv_1, mv_2, qm_00, qm_01, qm_02, qm_10, qm_11, qm_12, qm_20, qm_21, qm_22, jcol, jac, jm_00, jm_01, jm_02, jm_10, jm_11, jm_12, jm_20, jm_21, jm_22, side_3, th_3_0, th_3_1, th_3_2, segA, segB, segC, segD, segH, Pi.add_apply, cr_0, cr_1, cr_2, djm_0_00, djm_0_01, djm_0_02, djm_0_10, djm_0_11, djm_0_12, djm_0_20, djm_0_21, djm_0_22, qd_3_0, qd_3_1, qd_3_2, om_0, om_1, om_2] <;> ring
theorem e16_18 (x : Fin 36 → ℝ) : l1741 x = (quatMatrix (Qe x) *ᵥ jcol 3 1 x) 0 := by
  simp only [l630, l631, l634, l635, l638, l639, l653, l654, l655, l657, l659, l664, l1570, l1571, l1572, l1573, l1574, l1575,
    l1576, l1578, l1579, l1580, l1581, l1582, l1592, l1598, l1737, l1738, l1739, l1740, l1741, h652, h663, h670, h671, mv_0, mv_1, mv_2, qm_00, qm_01, qm_02, qm_10, qm_11, qm_12, qm_20, qm_21, qm_22, jcol, jac, jm_00, jm_01, jm_02, jm_10, jm_11, jm_12, jm_20, jm_21, jm_22, side_3, th_3_0, th_3_1, th_3_2, segA, segB, segC, segD, segH, Pi.add_apply, cr_0, cr_1, cr_2, djm_1_00, djm_1_01, djm_1_02, djm_1_10, djm_1_11, djm_1_12, djm_1_20, djm_1_21, djm_1_22, qd_3_0, qd_3_1, qd_3_2, om_0, om_1, om_2] <;> ring
theorem e16_19 (x : Fin 36 → ℝ) : l1744 x = (quatMatrix (Qe x) *ᵥ jcol 3 1 x) 1 := by
  simp only [l630, l631, l634, l635, l638, l639, l653, l654, l655, l657, l659, l664, l687, l1578, l1579, l1585, l1586, l1587,
    l1588, l1589, l1590, l1591, l1592, l1593, l1594, l1595, l1596, l1738, l1740, l1742, l1743, l1744, h652, h663, h670, h671, mv_0, mv_1, mv_2, qm_00, qm_01, qm_02, qm_10, qm_11, qm_12, qm_20, qm_21, qm_22, jcol, jac, jm_00, jm_01, jm_02, jm_10, jm_11, jm_12, jm_20, jm_21, jm_22, side_3, th_3_0, th_3_1, th_3_2, segA, segB, segC, segD, segH, Pi.add_apply, cr_0, cr_1, cr_2, djm_1_00, djm_1_01, djm_1_02, djm_1_10, djm_1_11, djm_1_12, djm_1_20, djm_1_21, djm_1_22, qd_3_0, qd_3_1, qd_3_2, om_0, om_1, om_2] <;> ring
theorem e16_20 (x : Fin 36 → ℝ) : l1747 x = (quatMatrix (Qe x) *ᵥ jcol 3 1 x) 2 := by
  simp only [l630, l631, l634, l635, l638, l639, l653, l654, l655, l657, l659, l664, l687, l1570, l1571, l1585, l1586, l1593,
    l1598, l1599, l1600, l1601, l1602, l1603, l1604, l1605, l1606, l1738, l1740, l1745, l1746, l1747, h652, h663, h670, h671, mv_0, mv_1, mv_2, qm_00, qm_01, qm_02, qm_10, qm_11, qm_12, qm_20, qm_21, qm_22, jcol, jac, jm_00, jm_01, jm_02, jm_10, jm_11, jm_12, jm_20, jm_21, jm_22, side_3, th_3_0, th_3_1, th_3_2, segA, segB, segC, segD, segH, Pi.add_apply, cr_0, cr_1, cr_2, djm_1_00, djm_1_01, djm_1_02, djm_1_10, djm_1_11, djm_1_12, djm_1_20, djm_1_21, djm_1_22, qd_3_0, qd_3_1, qd_3_2, om_0, om_1, om_2] <;> ring
theorem e16_21 (x : Fin 36 → ℝ) : l1756 x = (quatMatrix (Qe x) *ᵥ (djm (side 3) 1 (th 3 x) *ᵥ qd 3 x + cross (om x) (jcol 3 1 x))) 0 := by
  simp only [l630, l634, l638, l654, l715, l717, l721, l723, l725, l727, l729, l731, l733, l735, l753, l754, l756, l760, l762,
    l764, l766, l768, l770, l772, l774, l780, l1608, l1609, l1610, l1611, l1612, l1613, l1615, l1616, l1617, l1618, l1619, l1620, l1621, l1622, l1623, l1629, l1630, l1631, l1632, l1633, l1634, l1635, l1636, l1637, l1638, l1640, l1641, l1642, l1643, l1644, l1645, l1646, l1647, l1648, l1649, l1650, l1651, l1652, l1653, l1654, l1738, l1740, l1748, l1750, l1751, l1752, l1753, l1754, l1755, l1756, h752, h779, h790, h791, mv_0, mv_1, mv_2, qm_00, qm_01, qm_02, qm_10, qm_11, qm_12, qm_20, qm_21, qm_22, jcol, jac, jm_00, jm_01, jm_02, jm_10, jm_11, jm_12, jm_20, jm_21, jm_22, side_3, th_3_0, th_3_1, th_3_2, segA, segB, segC, segD, segH, Pi.add_apply, cr_0, cr_1, cr_2, djm_1_00, djm_1_01, djm_1_02, djm_1_10, djm_1_11, djm_1_12, djm_1_20, djm_1_21, djm_1_22, qd_3_0, qd_3_1, qd_3_2, om_0, om_1, om_2] <;> ring
theorem e16_22 (x : Fin 36 → ℝ) : l1765 x = (quatMatrix (Qe x) *ᵥ (djm (side 3) 1 (th 3 x) *ᵥ qd 3 x + cross (om x) (jcol 3 1 x))) 1 := by
  simp only [l630, l634, l638, l654, l715, l717, l721, l723, l725, l727, l729, l731, l733, l735, l753, l754, l756, l760, l762,
    l764, l766, l768, l770, l772, l774, l780, l807, l1608, l1611, l1612, l1614, l1656, l1657, l1659, l1660, l1661, l1662, l1663, l1664, l1665, l1666, l1667, l1676, l1677, l1678, l1679, l1680, l1681, l1682, l1683, l1684, l1685, l1687, l1688, l1689, l1690, l1691, l1692, l1693, l1694, l1695, l1696, l1697, l1698, l1699, l1700, l1701, l1738, l1740, l1757, l1759, l1760, l1761, l1762, l1763, l1764, l1765, h752, h779, h790, h791, mv_0, mv_1, mv_2, qm_00, qm_01, qm_02, qm_10, qm_11, qm_12, qm_20, qm_21, qm_22, jcol, jac, jm_00, jm_01, jm_02, jm_10, jm_11, jm_12, jm_20, jm_21, jm_22, side_3, th_3_0, th_3_1, th_3_2, segA, segB, segC, segD, segH, Pi.add_apply, cr_0, cr_1, cr_2, djm_1_00, djm_1_01, djm_1_02, djm_1_10, djm_1_11, djm_1_12, djm_1_20, djm_1_21, djm_1_22, qd_3_0, qd_3_1, qd_3_2, om_0, om_1, om_2] <;> ring
theorem e16_23 (x : Fin 36 → ℝ) : l1774 x = (quatMatrix (Qe x) *ᵥ (djm (side 3) 1 (th 3 x) *ᵥ qd 3 x + cross (om x) (jcol 3 1 x))) 2 := by
  simp only [l630, l634, l638, l654, l715, l717, l721, l723, l725, l727, l729, l731, l733, l735, l753, l754, l756, l760, l762,
    l764, l766, l768, l770, l772, l774, l780, l807, l1609, l1621, l1622, l1625, l1656, l1658, l1665, l1666, l1669, l1703, l1704, l1705, l1706, l1707, l1708, l1710, l1711, l1712, l1713, l1714, l1715, l1716, l1717, l1718, l1719, l1721, l1722, l1723, l1724, l1725, l1726, l1727, l1728, l1729, l1730, l1731, l1732, l1733, l1734, l1735, l1738, l1740, l1766, l1768, l1769, l1770, l1771, l1772, l1773, l1774, h752, h779, h790, h791, mv_0, mv_1, mv_2, qm_00, qm_01, qm_02, qm_10, qm_11, qm_12, qm_20, qm_21, qm_22, jcol, jac, jm_00, jm_01, jm_02, jm_10, jm_11, jm_12, jm_20, jm_21, jm_22, side_3, th_3_0, th_3_1, th_3_2, segA, segB, segC, segD, segH, Pi.add_apply, cr_0, cr_1, cr_2, djm_1_00, djm_1_01, djm_1_02, djm_1_10, djm_1_11, djm_1_12, djm_1_20, djm_1_21, djm_1_22, qd_3_0, qd_3_1, qd_3_2, om_0, om_1, om_2] <;> ring
theorem e17_18 (x : Fin 36 → ℝ) : l1777 x = (quatMatrix (Qe x) *ᵥ jcol 3 2 x) 0 := by
  simp only [l630, l631, l632, l633, l635, l636, l637, l653, l654, l655, l656, l657, l658, l664, l666, l667, l1570, l1571, l1572,
    l1574, l1578, l1579, l1580, l1592, l1598, l1737, l1739, l1775, l1776, l1777, h652, h663, h670, h671, mv_0, mv_1, mv_2, qm_00, qm_01, qm_02, qm_10, qm_11, qm_12, qm_20, qm_21, qm_22, jcol, jac, jm_00, jm_01, jm_02, jm_10, jm_11, jm_12, jm_20, jm_21, jm_22, side_3, th_3_0, th_3_1, th_3_2, segA, segB, segC, segD, segH, Pi.add_apply, cr_0, cr_1, cr_2, djm_2_00, djm_2_01, djm_2_02, djm_2_10, djm_2_11, djm_2_12, djm_2_20, djm_2_21, djm_2_22, qd_3_0, qd_3_1, qd_3_2, om_0, om_1, om_2] <;> ring
theorem e17_19 (x : Fin 36 → ℝ) : l1778 x = (quatMatrix (Qe x) *ᵥ jcol 3 2 x) 1 := by
  simp only [l630, l631, l632, l633, l635, l636, l637, l653, l654, l655, l656, l657, l658, l664, l666, l667, l687, l1578, l1579,
    l1585, l1586, l1587, l1589, l1592, l1593, l1594, l1742, l1743, l1775, l1776, l1778, h652, h663, h670, h671, mv_0, mv_1, mv_2, qm_00, qm_01, qm_02, qm_10, qm_11, qm_12, qm_20, qm_21, qm_22, jcol, jac, jm_00, jm_01, jm_02, jm_10, jm_11, jm_12, jm_20, jm_21, jm_22, side_3, th_3_0, th_3_1, th_3_2, segA, segB, segC, segD, segH, Pi.add_apply, cr_0, cr_1, cr_2, djm_2_00, djm_2_01, djm_2_02, djm_2_10, djm_2_11, djm_2_12, djm_2_20, djm_2_21, djm_2_22, qd_3_0, qd_3_1, qd_3_2, om_0, om_1, om_2] <;> ring
theorem e17_20 (x : Fin 36 → ℝ) : l1779 x = (quatMatrix (Qe x) *ᵥ jcol 3 2 x) 2 := by
  simp only [l630, l631, l632, l633, l635, l636, l637, l653, l654, l655, l656, l657, l658, l664, l666, l667, l687, l1570, l1571,
    l1585, l1586, l1593, l1598, l1599, l1601, l1604, l1745, l1746, l1775, l1776, l1779, h652, h663, h670, h671, mv_0, mv_1, mv_2, qm_00, qm_01, qm_02, qm_10, qm_11, qm_12, qm_20, qm_21, qm_22, jcol, jac, jm_00, jm_01, jm_02, jm_10, jm_11, jm_12, jm_20, jm_21, jm_22, side_3, th_3_0, th_3_1, th_3_2, segA, segB, segC, segD, segH, Pi.add_apply, cr_0, cr_1, cr_2, djm_2_00, djm_2_01, djm_2_02, djm_2_10, djm_2_11, djm_2_12, djm_2_20, djm_2_21, djm_2_22, qd_3_0, qd_3_1, qd_3_2, om_0, om_1, om_2] <;> ring
theorem e17_21 (x : Fin 36 → ℝ) : l1780 x = (quatMatrix (Qe x) *ᵥ (djm (side 3) 2 (th 3 x) *ᵥ qd 3 x + cross (om x) (jcol 3 2 x))) 0 := by
  simp only [l630, l632, l636, l654, l715, l716, l717, l718, l720, l721, l722, l725, l726, l727, l728, l731, l732, l733, l734,
    l737, l738, l753, l754, l755, l756, l757, l759, l760, l761, l764, l765, l766, l767, l770, l771, l772, l773, l780, l782, l783, l785, l786, l1608, l1609, l1610, l1611, l1612, l1613, l1615, l1616, l1618, l1621, l1622, l1623, l1629, l1631, l1635, l1638, l1640, l1643, l1645, l1647, l1650, l1652, l1748, l1750, l1751, l1752, l1753, l1754, l1755, l1775, l1776, l1780, h752, h779, h790, h791, mv_0, mv_1, mv_2, qm_00, qm_01, qm_02, qm_10, qm_11, qm_12, qm_20, qm_21, qm_22, jcol, jac, jm_00, jm_01, jm_02, jm_10, jm_11, jm_12, jm_20, jm_21, jm_22, side_3, th_3_0, th_3_1, th_3_2, segA, segB, segC, segD, segH, Pi.add_apply, cr_0, cr_1, cr_2, djm_2_00, djm_2_01, djm_2_02, djm_2_10, djm_2_11, djm_2_12, djm_2_20, djm_2_21, djm_2_22, qd_3_0, qd_3_1, qd_3_2, om_0, om_1, om_2] <;> ring
theorem e17_22 (x : Fin 36 → ℝ) : l1781 x = (quatMatrix (Qe x) *ᵥ (djm (side 3) 2 (th 3 x) *ᵥ qd 3 x + cross (om x) (jcol 3 2 x))) 1 := by
  simp only [l630, l632, l636, l654, l715, l716, l717, l718, l720, l721, l722, l725, l726, l727, l728, l731, l732, l733, l734,
    l737, l738, l753, l754, l755, l756, l757, l759, l760, l761, l764, l765, l766, l767, l770, l771, l772, l773, l780, l782, l783, l785, l786, l807, l1608, l1611, l1612, l1614, l1656, l1657, l1659, l1660, l1662, l1665, l1666, l1667, l1676, l1678, l1682, l1685, l1687, l1690, l1692, l1694, l1697, l1699, l1757, l1759, l1760, l1761, l1762, l1763, l1764, l1775, l1776, l1781, h752, h779, h790, h791, mv_0, mv_1, mv_2, qm_00, qm_01, qm_02, qm_10, qm_11, qm_12, qm_20, qm_21, qm_22, jcol, jac, jm_00, jm_01, jm_02, jm_10, jm_11, jm_12, jm_20, jm_21, jm_22, side_3, th_3_0, th_3_1, th_3_2, segA, segB, segC, segD, segH, Pi.add_apply, cr_0, cr_1, cr_2, djm_2_00, djm_2_01, djm_2_02, djm_2_10, djm_2_11, djm_2_12, djm_2_20, djm_2_21, djm_2_22, qd_3_0, qd_3_1, qd_3_2, om_0, om_1, om_2] <;> ring
theorem e17_23 (x : Fin 36 → ℝ) : l1782 x = (quatMatrix (Qe x) *ᵥ (djm (side 3) 2 (th 3 x) *ᵥ qd 3 x + cross (om x) (jcol 3 2 x))) 2 := by
  simp only [l630, l632, l636, l654, l715, l716, l717, l718, l720, l721, l722, l725, l726, l727, l728, l731, l732, l733, l734,
    l737, l738, l753, l754, l755, l756, l757, l759, l760, l761, l764, l765, l766, l767, l770, l771, l772, l773, l780, l782, l783, l785, l786, l807, l1609, l1621, l1622, l1625, l1656, l1658, l1665, l1666, l1669, l1703, l1704, l1706, l1710, l1712, l1716, l1719, l1721, l1724, l1726, l1728, l1731, l1733, l1766, l1768, l1769, l1770, l1771, l1772, l1773, l1775, l1776, l1782, h752, h779, h790, h791, mv_0, mv_1, mv_2, qm_00, qm_01, qm_02, qm_10, qm_11, qm_12, qm_20, qm_21, qm_22, jcol, jac, jm_00, jm_01, jm_02, jm_10, jm_11, jm_12, jm_20, jm_21, jm_22, side_3, th_3_0, th_3_1, th_3_2, segA, segB, segC, segD, segH, Pi.add_apply, cr_0, cr_1, cr_2, djm_2_00, djm_2_01, djm_2_02, djm_2_10, djm_2_11, djm_2_12, djm_2_20, djm_2_21, djm_2_22, qd_3_0, qd_3_1, qd_3_2, om_0, om_1, om_2] <;> ring
theorem e18_18 (_x : Fin 36 → ℝ) : (0 : ℝ) = ((0 : V3)) 0 := by simp [Pi.zero_apply]
theorem e18_19 (_x : Fin 36 → ℝ) : (0 : ℝ) = ((0 : V3)) 1 := by simp [Pi.zero_apply]
theorem e18_20 (_x : Fin 36 → ℝ) : (0 : ℝ) = ((0 : V3)) 2 := by simp [Pi.zero_apply]
theorem e18_21 (x : Fin 36 → ℝ) : l1624 x = (quatMatrix (Qe x) *ᵥ cross (Pi.single 0 1) (foot 3 x)) 0 := by
  simp only [l630, l632, l634, l636, l638, l654, l731, l732, l733, l734, l735, l736, l753, l770, l771, l772, l773, l774, l775,
    l780, l1611, l1612, l1613, l1615, l1621, l1622, l1623, l1624, h752, h779, h790, h791, mv_0, mv_1, mv_2, qm_00, qm_01, qm_02, qm_10, qm_11, qm_12, qm_20, qm_21, qm_22, cr_0, cr_1, cr_2, E_0_0, E_0_1, E_0_2, foot, pv_0, pv_1, pv_2, side_3, mountX_3, mountY_3, th_3_0, th_3_1, th_3_2, segA, segB, segC, segD, segH] <;> ring
theorem e18_22 (x : Fin 36 → ℝ) : l1668 x = (quatMatrix (Qe x) *ᵥ cross (Pi.single 0 1) (foot 3 x)) 1 := by
  simp only [l630, l632, l634, l636, l638, l654, l731, l732, l733, l734, l735, l736, l753, l770, l771, l772, l773, l774, l775,
    l807, l1608, l1656, l1657, l1659, l1665, l1666, l1667, l1668, h752, h779, h790, h791, mv_0, mv_1, mv_2, qm_00, qm_01, qm_02, qm_10, qm_11, qm_12, qm_20, qm_21, qm_22, cr_0, cr_1, cr_2, E_0_0, E_0_1, E_0_2, foot, pv_0, pv_1, pv_2, side_3, mountX_3, mountY_3, th_3_0, th_3_1, th_3_2, segA, segB, segC, segD, segH] <;> ring
theorem e18_23 (x : Fin 36 → ℝ) : l1709 x = (quatMatrix (Qe x) *ᵥ cross (Pi.single 0 1) (foot 3 x)) 2 := by
  simp only [l630, l632, l634, l636, l638, l654, l731, l732, l733, l734, l735, l736, l753, l770, l771, l772, l773, l774, l775,
    l780, l807, l1609, l1656, l1658, l1665, l1666, l1669, l1703, l1709, h752, h779, h790, h791, mv_0, mv_1, mv_2, qm_00, qm_01, qm_02, qm_10, qm_11, qm_12, qm_20, qm_21, qm_22, cr_0, cr_1, cr_2, E_0_0, E_0_1, E_0_2, foot, pv_0, pv_1, pv_2, side_3, mountX_3, mountY_3, th_3_0, th_3_1, th_3_2, segA, segB, segC, segD, segH] <;> ring
theorem e19_18 (_x : Fin 36 → ℝ) : (0 : ℝ) = ((0 : V3)) 0 := by simp [Pi.zero_apply]
theorem e19_19 (_x : Fin 36 → ℝ) : (0 : ℝ) = ((0 : V3)) 1 := by simp [Pi.zero_apply]
theorem e19_20 (_x : Fin 36 → ℝ) : (0 : ℝ) = ((0 : V3)) 2 := by simp [Pi.zero_apply]
theorem e19_21 (x : Fin 36 → ℝ) : l1749 x = (quatMatrix (Qe x) *ᵥ cross (Pi.single 1 1) (foot 3 x)) 0 := by
  simp only [l630, l632, l634, l636, l638, l737, l738, l739, l753, l770, l771, l772, l773, l774, l775, l780, l1608, l1609, l1610,
    l1621, l1622, l1623, l1748, l1749, h752, h779, h790, h791, mv_0, mv_1, mv_2, qm_00, qm_01, qm_02, qm_10, qm_11, qm_12, qm_20, qm_21, qm_22, cr_0, cr_1, cr_2, E_1_0, E_1_1, E_1_2, foot, pv_0, pv_1, pv_2, side_3, mountX_3, mountY_3, th_3_0, th_3_1, th_3_2, segA, segB, segC, segD, segH] <;> ring
theorem e19_22 (x : Fin 36 → ℝ) : l1758 x = (quatMatrix (Qe x) *ᵥ cross (Pi.single 1 1) (foot 3 x)) 1 := by
  simp only [l630, l632, l634, l636, l638, l737, l738, l739, l753, l770, l771, l772, l773, l774, l775, l780, l807, l1611, l1612,
    l1614, l1665, l1666, l1667, l1757, l1758, h752, h779, h790, h791, mv_0, mv_1, mv_2, qm_00, qm_01, qm_02, qm_10, qm_11, qm_12, qm_20, qm_21, qm_22, cr_0, cr_1, cr_2, E_1_0, E_1_1, E_1_2, foot, pv_0, pv_1, pv_2, side_3, mountX_3, mountY_3, th_3_0, th_3_1, th_3_2, segA, segB, segC, segD, segH] <;> ring
theorem e19_23 (x : Fin 36 → ℝ) : l1767 x = (quatMatrix (Qe x) *ᵥ cross (Pi.single 1 1) (foot 3 x)) 2 := by
  simp only [l630, l632, l634, l636, l638, l737, l738, l739, l753, l770, l771, l772, l773, l774, l775, l780, l807, l1609, l1621,
    l1622, l1625, l1656, l1658, l1766, l1767, h752, h779, h790, h791, mv_0, mv_1, mv_2, qm_00, qm_01, qm_02, qm_10, qm_11, qm_12, qm_20, qm_21, qm_22, cr_0, cr_1, cr_2, E_1_0, E_1_1, E_1_2, foot, pv_0, pv_1, pv_2, side_3, mountX_3, mountY_3, th_3_0, th_3_1, th_3_2, segA, segB, segC, segD, segH] <;> ring
theorem e20_18 (_x : Fin 36 → ℝ) : (0 : ℝ) = ((0 : V3)) 0 := by simp [Pi.zero_apply]
theorem e20_19 (_x : Fin 36 → ℝ) : (0 : ℝ) = ((0 : V3)) 1 := by simp [Pi.zero_apply]
theorem e20_20 (_x : Fin 36 → ℝ) : (0 : ℝ) = ((0 : V3)) 2 := by simp [Pi.zero_apply]
theorem e20_21 (x : Fin 36 → ℝ) : l1639 x = (quatMatrix (Qe x) *ᵥ cross (Pi.single 2 1) (foot 3 x)) 0 := by
  simp only [l632, l634, l636, l638, l654, l731, l732, l733, l734, l735, l736, l737, l738, l739, l753, l780, l1608, l1609, l1610,
    l1611, l1612, l1613, l1638, l1639, h752, h779, h790, h791, mv_0, mv_1, mv_2, qm_00, qm_01, qm_02, qm_10, qm_11, qm_12, qm_20, qm_21, qm_22, cr_0, cr_1, cr_2, E_2_0, E_2_1, E_2_2, foot, pv_0, pv_1, pv_2, side_3, mountX_3, mountY_3, th_3_0, th_3_1, th_3_2, segA, segB, segC, segD, segH] <;> ring
theorem e20_22 (x : Fin 36 → ℝ) : l1686 x = (quatMatrix (Qe x) *ᵥ cross (Pi.single 2 1) (foot 3 x)) 1 := by
  simp only [l632, l634, l636, l638, l654, l731, l732, l733, l734, l735, l736, l737, l738, l739, l753, l780, l807, l1608, l1611,
    l1612, l1614, l1656, l1657, l1685, l1686, h752, h779, h790, h791, mv_0, mv_1, mv_2, qm_00, qm_01, qm_02, qm_10, qm_11, qm_12, qm_20, qm_21, qm_22, cr_0, cr_1, cr_2, E_2_0, E_2_1, E_2_2, foot, pv_0, pv_1, pv_2, side_3, mountX_3, mountY_3, th_3_0, th_3_1, th_3_2, segA, segB, segC, segD, segH] <;> ring
theorem e20_23 (x : Fin 36 → ℝ) : l1720 x = (quatMatrix (Qe x) *ᵥ cross (Pi.single 2 1) (foot 3 x)) 2 := by
  simp only [l632, l634, l636, l638, l654, l731, l732, l733, l734, l735, l736, l737, l738, l739, l753, l780, l807, l1621, l1622,
    l1625, l1665, l1666, l1669, l1719, l1720, h752, h779, h790, h791, mv_0, mv_1, mv_2, qm_00, qm_01, qm_02, qm_10, qm_11, qm_12, qm_20, qm_21, qm_22, cr_0, cr_1, cr_2, E_2_0, E_2_1, E_2_2, foot, pv_0, pv_1, pv_2, side_3, mountX_3, mountY_3, th_3_0, th_3_1, th_3_2, segA, segB, segC, segD, segH] <;> ring
theorem e21_18 (_x : Fin 36 → ℝ) : (0 : ℝ) = ((0 : V3)) 0 := by simp [Pi.zero_apply]
theorem e21_19 (_x : Fin 36 → ℝ) : (0 : ℝ) = ((0 : V3)) 1 := by simp [Pi.zero_apply]
theorem e21_20 (_x : Fin 36 → ℝ) : (0 : ℝ) = ((0 : V3)) 2 := by simp [Pi.zero_apply]
theorem e21_21 (x : Fin 36 → ℝ) : l1610 x = (quatMatrix (Qe x) *ᵥ Pi.single 0 1) 0 := by
  simp only [l753, l780, l1608, l1609, l1610, h752, h779, mv_0, mv_1, mv_2, qm_00, qm_01, qm_02, qm_10, qm_11, qm_12, qm_20,
    qm_21, qm_22, E_0_0, E_0_1, E_0_2] <;> ring
theorem e21_22 (x : Fin 36 → ℝ) : l1614 x = (quatMatrix (Qe x) *ᵥ Pi.single 0 1) 1 := by
  simp only [l753, l780, l1611, l1612, l1614, h752, h779, h790, h791, mv_0, mv_1, mv_2, qm_00, qm_01, qm_02, qm_10, qm_11, qm_12,
    qm_20, qm_21, qm_22, E_0_0, E_0_1, E_0_2] <;> ring
theorem e21_23 (x : Fin 36 → ℝ) : l1625 x = (quatMatrix (Qe x) *ᵥ Pi.single 0 1) 2 := by
  simp only [l753, l780, l1621, l1622, l1625, h752, h779, h790, h791, mv_0, mv_1, mv_2, qm_00, qm_01, qm_02, qm_10, qm_11, qm_12,
    qm_20, qm_21, qm_22, E_0_0, E_0_1, E_0_2] <;> ring
theorem e22_18 (_x : Fin 36 → ℝ) : (0 : ℝ) = ((0 : V3)) 0 := by simp [Pi.zero_apply]
theorem e22_19 (_x : Fin 36 → ℝ) : (0 : ℝ) = ((0 : V3)) 1 := by simp [Pi.zero_apply]
theorem e22_20 (_x : Fin 36 → ℝ) : (0 : ℝ) = ((0 : V3)) 2 := by simp [Pi.zero_apply]
theorem e22_21 (x : Fin 36 → ℝ) : l1613 x = (quatMatrix (Qe x) *ᵥ Pi.single 1 1) 0 := by
  simp only [l753, l780, l1611, l1612, l1613, h752, h779, h790, h791, mv_0, mv_1, mv_2, qm_00, qm_01, qm_02, qm_10, qm_11, qm_12,
    qm_20, qm_21, qm_22, E_1_0, E_1_1, E_1_2] <;> ring
theorem e22_22 (x : Fin 36 → ℝ) : l1657 x = (quatMatrix (Qe x) *ᵥ Pi.single 1 1) 1 := by
  simp only [l753, l807, l1608, l1656, l1657, h752, h790, mv_0, mv_1, mv_2, qm_00, qm_01, qm_02, qm_10, qm_11, qm_12, qm_20,
    qm_21, qm_22, E_1_0, E_1_1, E_1_2] <;> ring
theorem e22_23 (x : Fin 36 → ℝ) : l1669 x = (quatMatrix (Qe x) *ᵥ Pi.single 1 1) 2 := by
  simp only [l753, l807, l1665, l1666, l1669, h752, h779, h790, h791, mv_0, mv_1, mv_2, qm_00, qm_01, qm_02, qm_10, qm_11, qm_12,
    qm_20, qm_21, qm_22, E_1_0, E_1_1, E_1_2] <;> ring
theorem e23_18 (_x : Fin 36 → ℝ) : (0 : ℝ) = ((0 : V3)) 0 := by simp [Pi.zero_apply]
theorem e23_19 (_x : Fin 36 → ℝ) : (0 : ℝ) = ((0 : V3)) 1 := by simp [Pi.zero_apply]
theorem e23_20 (_x : Fin 36 → ℝ) : (0 : ℝ) = ((0 : V3)) 2 := by simp [Pi.zero_apply]
theorem e23_21 (x : Fin 36 → ℝ) : l1623 x = (quatMatrix (Qe x) *ᵥ Pi.single 2 1) 0 := by
  simp only [l753, l780, l1621, l1622, l1623, h752, h779, h790, h791, mv_0, mv_1, mv_2, qm_00, qm_01, qm_02, qm_10, qm_11, qm_12,
    qm_20, qm_21, qm_22, E_2_0, E_2_1, E_2_2] <;> ring
theorem e23_22 (x : Fin 36 → ℝ) : l1667 x = (quatMatrix (Qe x) *ᵥ Pi.single 2 1) 1 := by
  simp only [l753, l807, l1665, l1666, l1667, h752, h779, h790, h791, mv_0, mv_1, mv_2, qm_00, qm_01, qm_02, qm_10, qm_11, qm_12,
    qm_20, qm_21, qm_22, E_2_0, E_2_1, E_2_2] <;> ring
theorem e23_23 (x : Fin 36 → ℝ) : l1658 x = (quatMatrix (Qe x) *ᵥ Pi.single 2 1) 2 := by
  simp only [l780, l807, l1609, l1656, l1658, h779, h790, mv_0, mv_1, mv_2, qm_00, qm_01, qm_02, qm_10, qm_11, qm_12, qm_20,
    qm_21, qm_22, E_2_0, E_2_1, E_2_2] <;> ring
theorem e24_18 (_x : Fin 36 → ℝ) : (0 : ℝ) = ((0 : V3)) 0 := by simp [Pi.zero_apply]
theorem e24_19 (_x : Fin 36 → ℝ) : (0 : ℝ) = ((0 : V3)) 1 := by simp [Pi.zero_apply]
theorem e24_20 (_x : Fin 36 → ℝ) : (0 : ℝ) = ((0 : V3)) 2 := by simp [Pi.zero_apply]
theorem e24_21 (_x : Fin 36 → ℝ) : (0 : ℝ) = ((0 : V3)) 0 := by simp [Pi.zero_apply]
theorem e24_22 (_x : Fin 36 → ℝ) : (0 : ℝ) = ((0 : V3)) 1 := by simp [Pi.zero_apply]
theorem e24_23 (_x : Fin 36 → ℝ) : (0 : ℝ) = ((0 : V3)) 2 := by simp [Pi.zero_apply]
theorem e25_18 (_x : Fin 36 → ℝ) : (0 : ℝ) = ((0 : V3)) 0 := by simp [Pi.zero_apply]
theorem e25_19 (_x : Fin 36 → ℝ) : (0 : ℝ) = ((0 : V3)) 1 := by simp [Pi.zero_apply]
theorem e25_20 (_x : Fin 36 → ℝ) : (0 : ℝ) = ((0 : V3)) 2 := by simp [Pi.zero_apply]
theorem e25_21 (_x : Fin 36 → ℝ) : (0 : ℝ) = ((0 : V3)) 0 := by simp [Pi.zero_apply]
theorem e25_22 (_x : Fin 36 → ℝ) : (0 : ℝ) = ((0 : V3)) 1 := by simp [Pi.zero_apply]
theorem e25_23 (_x : Fin 36 → ℝ) : (0 : ℝ) = ((0 : V3)) 2 := by simp [Pi.zero_apply]
theorem e26_18 (_x : Fin 36 → ℝ) : (0 : ℝ) = ((0 : V3)) 0 := by simp [Pi.zero_apply]
theorem e26_19 (_x : Fin 36 → ℝ) : (0 : ℝ) = ((0 : V3)) 1 := by simp [Pi.zero_apply]
theorem e26_20 (_x : Fin 36 → ℝ) : (0 : ℝ) = ((0 : V3)) 2 := by simp [Pi.zero_apply]
theorem e26_21 (_x : Fin 36 → ℝ) : (0 : ℝ) = ((0 : V3)) 0 := by simp [Pi.zero_apply]
theorem e26_22 (_x : Fin 36 → ℝ) : (0 : ℝ) = ((0 : V3)) 1 := by simp [Pi.zero_apply]
theorem e26_23 (_x : Fin 36 → ℝ) : (0 : ℝ) = ((0 : V3)) 2 := by simp [Pi.zero_apply]
theorem e27_18 (_x : Fin 36 → ℝ) : (0 : ℝ) = ((0 : V3)) 0 := by simp [Pi.zero_apply]
theorem e27_19 (_x : Fin 36 → ℝ) : (0 : ℝ) = ((0 : V3)) 1 := by simp [Pi.zero_apply]
theorem e27_20 (_x : Fin 36 → ℝ) : (0 : ℝ) = ((0 : V3)) 2 := by simp [Pi.zero_apply]
theorem e27_21 (_x : Fin 36 → ℝ) : (0 : ℝ) = ((0 : V3)) 0 := by simp [Pi.zero_apply]
theorem e27_22 (_x : Fin 36 → ℝ) : (0 : ℝ) = ((0 : V3)) 1 := by simp [Pi.zero_apply]
theorem e27_23 (_x : Fin 36 → ℝ) : (0 : ℝ) = ((0 : V3)) 2 := by simp [Pi.zero_apply]
theorem e28_18 (_x : Fin 36 → ℝ) : (0 : ℝ) = ((0 : V3)) 0 := by simp [Pi.zero_apply]
theorem e28_19 (_x : Fin 36 → ℝ) : (0 : ℝ) = ((0 : V3)) 1 := by simp [Pi.zero_apply]
theorem e28_20 (_x : Fin 36 → ℝ) : (0 : ℝ) = ((0 : V3)) 2 := by simp [Pi.zero_apply]
theorem e28_21 (_x : Fin 36 → ℝ) : (0 : ℝ) = ((0 : V3)) 0 := by simp [Pi.zero_apply]
theorem e28_22 (_x : Fin 36 → ℝ) : (0 : ℝ) = ((0 : V3)) 1 := by simp [Pi.zero_apply]
theorem e28_23 (_x : Fin 36 → ℝ) : (0 : ℝ) = ((0 : V3)) 2 := by simp [Pi.zero_apply]
theorem e29_18 (_x : Fin 36 → ℝ) : (0 : ℝ) = ((0 : V3)) 0 := by simp [Pi.zero_apply]
theorem e29_19 (_x : Fin 36 → ℝ) : (0 : ℝ) = ((0 : V3)) 1 := by simp [Pi.zero_apply]
theorem e29_20 (_x : Fin 36 → ℝ) : (0 : ℝ) = ((0 : V3)) 2 := by simp [Pi.zero_apply]
theorem e29_21 (_x : Fin 36 → ℝ) : (0 : ℝ) = ((0 : V3)) 0 := by simp [Pi.zero_apply]
theorem e29_22 (_x : Fin 36 → ℝ) : (0 : ℝ) = ((0 : V3)) 1 := by simp [Pi.zero_apply]
theorem e29_23 (_x : Fin 36 → ℝ) : (0 : ℝ) = ((0 : V3)) 2 := by simp [Pi.zero_apply]
theorem e30_18 (_x : Fin 36 → ℝ) : (0 : ℝ) = ((0 : V3)) 0 := by simp [Pi.zero_apply]
theorem e30_19 (_x : Fin 36 → ℝ) : (0 : ℝ) = ((0 : V3)) 1 := by simp [Pi.zero_apply]
theorem e30_20 (_x : Fin 36 → ℝ) : (0 : ℝ) = ((0 : V3)) 2 := by simp [Pi.zero_apply]
theorem e30_21 (_x : Fin 36 → ℝ) : (0 : ℝ) = ((0 : V3)) 0 := by simp [Pi.zero_apply]
theorem e30_22 (_x : Fin 36 → ℝ) : (0 : ℝ) = ((0 : V3)) 1 := by simp [Pi.zero_apply]
theorem e30_23 (_x : Fin 36 → ℝ) : (0 : ℝ) = ((0 : V3)) 2 := by simp [Pi.zero_apply]
theorem e31_18 (_x : Fin 36 → ℝ) : (0 : ℝ) = ((0 : V3)) 0 := by simp [Pi.zero_apply]
theorem e31_19 (_x : Fin 36 → ℝ) : (0 : ℝ) = ((0 : V3)) 1 := by simp [Pi.zero_apply]
theorem e31_20 (_x : Fin 36 → ℝ) : (0 : ℝ) = ((0 : V3)) 2 := by simp [Pi.zero_apply]
theorem e31_21 (_x : Fin 36 → ℝ) : (0 : ℝ) = ((0 : V3)) 0 := by simp [Pi.zero_apply]
theorem e31_22 (_x : Fin 36 → ℝ) : (0 : ℝ) = ((0 : V3)) 1 := by simp [Pi.zero_apply]
theorem e31_23 (_x : Fin 36 → ℝ) : (0 : ℝ) = ((0 : V3)) 2 := by simp [Pi.zero_apply]
theorem e32_18 (_x : Fin 36 → ℝ) : (0 : ℝ) = ((0 : V3)) 0 := by simp [Pi.zero_apply]
theorem e32_19 (_x : Fin 36 → ℝ) : (0 : ℝ) = ((0 : V3)) 1 := by simp [Pi.zero_apply]
theorem e32_20 (_x : Fin 36 → ℝ) : (0 : ℝ) = ((0 : V3)) 2 := by simp [Pi.zero_apply]
theorem e32_21 (_x : Fin 36 → ℝ) : (0 : ℝ) = ((0 : V3)) 0 := by simp [Pi.zero_apply]
theorem e32_22 (_x : Fin 36 → ℝ) : (0 : ℝ) = ((0 : V3)) 1 := by simp [Pi.zero_apply]
theorem e32_23 (_x : Fin 36 → ℝ) : (0 : ℝ) = ((0 : V3)) 2 := by simp [Pi.zero_apply]
theorem e33_18 (_x : Fin 36 → ℝ) : (0 : ℝ) = ((0 : V3)) 0 := by simp [Pi.zero_apply]
theorem e33_19 (_x : Fin 36 → ℝ) : (0 : ℝ) = ((0 : V3)) 1 := by simp [Pi.zero_apply]
theorem e33_20 (_x : Fin 36 → ℝ) : (0 : ℝ) = ((0 : V3)) 2 := by simp [Pi.zero_apply]
theorem e33_21 (x : Fin 36 → ℝ) : l1626 x = (quatMatrix (Qe x) *ᵥ jcol 3 0 x) 0 := by
  simp only [l630, l632, l634, l636, l638, l654, l725, l726, l727, l728, l729, l730, l753, l764, l765, l766, l767, l768, l769,
    l780, l1611, l1612, l1613, l1621, l1622, l1623, l1626, h752, h779, h790, h791, mv_0, mv_1, mv_2, qm_00, qm_01, qm_02, qm_10, qm_11, qm_12, qm_20, qm_21, qm_22, jcol, jac, jm_00, jm_01, jm_02, jm_10, jm_11, jm_12, jm_20, jm_21, jm_22, side_3, th_3_0, th_3_1, th_3_2, segA, segB, segC, segD, segH] <;> ring
theorem e33_22 (x : Fin 36 → ℝ) : l1670 x = (quatMatrix (Qe x) *ᵥ jcol 3 0 x) 1 := by
  simp only [l630, l632, l634, l636, l638, l654, l725, l726, l727, l728, l729, l730, l753, l764, l765, l766, l767, l768, l769,
    l807, l1608, l1656, l1657, l1665, l1666, l1667, l1670, h752, h779, h790, h791, mv_0, mv_1, mv_2, qm_00, qm_01, qm_02, qm_10, qm_11, qm_12, qm_20, qm_21, qm_22, jcol, jac, jm_00, jm_01, jm_02, jm_10, jm_11, jm_12, jm_20, jm_21, jm_22, side_3, th_3_0, th_3_1, th_3_2, segA, segB, segC, segD, segH] <;> ring
theorem e33_23 (x : Fin 36 → ℝ) : l1671 x = (quatMatrix (Qe x) *ᵥ jcol 3 0 x) 2 := by
  simp only [l630, l632, l634, l636, l638, l654, l725, l726, l727, l728, l729, l730, l753, l764, l765, l766, l767, l768, l769,
    l780, l807, l1609, l1656, l1658, l1665, l1666, l1669, l1671, h752, h779, h790, h791, mv_0, mv_1, mv_2, qm_00, qm_01, qm_02, qm_10, qm_11, qm_12, qm_20, qm_21, qm_22, jcol, jac, jm_00, jm_01, jm_02, jm_10, jm_11, jm_12, jm_20, jm_21, jm_22, side_3, th_3_0, th_3_1, th_3_2, segA, segB, segC, segD, segH] <;> ring
theorem e34_18 (_x : Fin 36 → ℝ) : (0 : ℝ) = ((0 : V3)) 0 := by simp [Pi.zero_apply]
theorem e34_19 (_x : Fin 36 → ℝ) : (0 : ℝ) = ((0 : V3)) 1 := by simp [Pi.zero_apply]
theorem e34_20 (_x : Fin 36 → ℝ) : (0 : ℝ) = ((0 : V3)) 2 := by simp [Pi.zero_apply]
theorem e34_21 (x : Fin 36 → ℝ) : l1627 x = (quatMatrix (Qe x) *ᵥ jcol 3 1 x) 0 := by
  simp only [l630, l632, l634, l636, l638, l654, l715, l720, l721, l722, l723, l724, l727, l753, l759, l760, l761, l762, l763,
    l780, l785, l786, l787, l1608, l1609, l1610, l1611, l1612, l1613, l1621, l1622, l1623, l1627, h752, h779, h790, h791, mv_0, mv_1, mv_2, qm_00, qm_01, qm_02, qm_10, qm_11, qm_12, qm_20, qm_21, qm_22, jcol, jac, jm_00, jm_01, jm_02, jm_10, jm_11, jm_12, jm_20, jm_21, jm_22, side_3, th_3_0, th_3_1, th_3_2, segA, segB, segC, segD, segH] <;> ring
theorem e34_22 (x : Fin 36 → ℝ) : l1672 x = (quatMatrix (Qe x) *ᵥ jcol 3 1 x) 1 := by
  simp only [l630, l632, l634, l636, l638, l654, l715, l720, l721, l722, l723, l724, l727, l753, l759, l760, l761, l762, l763,
    l780, l785, l786, l787, l807, l1608, l1611, l1612, l1614, l1656, l1657, l1665, l1666, l1667, l1672, h752, h779, h790, h791, mv_0, mv_1, mv_2, qm_00, qm_01, qm_02, qm_10, qm_11, qm_12, qm_20, qm_21, qm_22, jcol, jac, jm_00, jm_01, jm_02, jm_10, jm_11, jm_12, jm_20, jm_21, jm_22, side_3, th_3_0, th_3_1, th_3_2, segA, segB, segC, segD, segH] <;> ring
theorem e34_23 (x : Fin 36 → ℝ) : l1673 x = (quatMatrix (Qe x) *ᵥ jcol 3 1 x) 2 := by
  simp only [l630, l632, l634, l636, l638, l654, l715, l720, l721, l722, l723, l724, l727, l753, l759, l760, l761, l762, l763,
    l780, l785, l786, l787, l807, l1609, l1621, l1622, l1625, l1656, l1658, l1665, l1666, l1669, l1673, h752, h779, h790, h791, mv_0, mv_1, mv_2, qm_00, qm_01, qm_02, qm_10, qm_11, qm_12, qm_20, qm_21, qm_22, jcol, jac, jm_00, jm_01, jm_02, jm_10, jm_11, jm_12, jm_20, jm_21, jm_22, side_3, th_3_0, th_3_1, th_3_2, segA, segB, segC, segD, segH] <;> ring
theorem e35_18 (_x : Fin 36 → ℝ) : (0 : ℝ) = ((0 : V3)) 0 := by simp [Pi.zero_apply]
theorem e35_19 (_x : Fin 36 → ℝ) : (0 : ℝ) = ((0 : V3)) 1 := by simp [Pi.zero_apply]
theorem e35_20 (_x : Fin 36 → ℝ) : (0 : ℝ) = ((0 : V3)) 2 := by simp [Pi.zero_apply]
theorem e35_21 (x : Fin 36 → ℝ) : l1628 x = (quatMatrix (Qe x) *ᵥ jcol 3 2 x) 0 := by
  simp only [l630, l632, l634, l636, l638, l654, l715, l716, l717, l718, l719, l753, l754, l755, l756, l757, l758, l780, l782,
    l783, l784, l1608, l1609, l1610, l1611, l1612, l1613, l1621, l1622, l1623, l1628, h752, h779, h790, h791, mv_0, mv_1, mv_2, qm_00, qm_01, qm_02, qm_10, qm_11, qm_12, qm_20, qm_21, qm_22, jcol, jac, jm_00, jm_01, jm_02, jm_10, jm_11, jm_12, jm_20, jm_21, jm_22, side_3, th_3_0, th_3_1, th_3_2, segA, segB, segC, segD, segH] <;> ring
theorem e35_22 (x : Fin 36 → ℝ) : l1674 x = (quatMatrix (Qe x) *ᵥ jcol 3 2 x) 1 := by
  simp only [l630, l632, l634, l636, l638, l654, l715, l716, l717, l718, l719, l753, l754, l755, l756, l757, l758, l780, l782,
    l783, l784, l807, l1608, l1611, l1612, l1614, l1656, l1657, l1665, l1666, l1667, l1674, h752, h779, h790, h791, mv_0, mv_1, mv_2, qm_00, qm_01, qm_02, qm_10, qm_11, qm_12, qm_20, qm_21, qm_22, jcol, jac, jm_00, jm_01, jm_02, jm_10, jm_11, jm_12, jm_20, jm_21, jm_22, side_3, th_3_0, th_3_1, th_3_2, segA, segB, segC, segD, segH] <;> ring
theorem e35_23 (x : Fin 36 → ℝ) : l1675 x = (quatMatrix (Qe x) *ᵥ jcol 3 2 x) 2 := by
  simp only [l630, l632, l634, l636, l638, l654, l715, l716, l717, l718, l719, l753, l754, l755, l756, l757, l758, l780, l782,
    l783, l784, l807, l1609, l1621, l1622, l1625, l1656, l1658, l1665, l1666, l1669, l1675, h752, h779, h790, h791, mv_0, mv_1, mv_2, qm_00, qm_01, qm_02, qm_10, qm_11, qm_12, qm_20, qm_21, qm_22, jcol, jac, jm_00, jm_01, jm_02, jm_10, jm_11, jm_12, jm_20, jm_21, jm_22, side_3, th_3_0, th_3_1, th_3_2, segA, segB, segC, segD, segH] <;> ring

theorem pos0 (x : Fin 36 → ℝ) : (fun i : Fin 3 => jacobian x ⟨18 + i, by omega⟩ 0) = Dpos 3 x (Pi.single 0 1) :=
  (ext3 (e0_18 x) (e0_19 x) (e0_20 x)).trans (col_angle 3 0 x 0 rfl).1.symm
theorem vel0 (x : Fin 36 → ℝ) : (fun i : Fin 3 => jacobian x ⟨21 + i, by omega⟩ 0) = Dvel 3 x (Pi.single 0 1) :=
  (ext3 (e0_21 x) (e0_22 x) (e0_23 x)).trans (col_angle 3 0 x 0 rfl).2.symm
theorem pos1 (x : Fin 36 → ℝ) : (fun i : Fin 3 => jacobian x ⟨18 + i, by omega⟩ 1) = Dpos 3 x (Pi.single 1 1) :=
  (ext3 (e1_18 x) (e1_19 x) (e1_20 x)).trans (col_angle 3 1 x 1 rfl).1.symm
theorem vel1 (x : Fin 36 → ℝ) : (fun i : Fin 3 => jacobian x ⟨21 + i, by omega⟩ 1) = Dvel 3 x (Pi.single 1 1) :=
  (ext3 (e1_21 x) (e1_22 x) (e1_23 x)).trans (col_angle 3 1 x 1 rfl).2.symm
theorem pos2 (x : Fin 36 → ℝ) : (fun i : Fin 3 => jacobian x ⟨18 + i, by omega⟩ 2) = Dpos 3 x (Pi.single 2 1) :=
  (ext3 (e2_18 x) (e2_19 x) (e2_20 x)).trans (col_angle 3 2 x 2 rfl).1.symm
theorem vel2 (x : Fin 36 → ℝ) : (fun i : Fin 3 => jacobian x ⟨21 + i, by omega⟩ 2) = Dvel 3 x (Pi.single 2 1) :=
  (ext3 (e2_21 x) (e2_22 x) (e2_23 x)).trans (col_angle 3 2 x 2 rfl).2.symm
theorem pos3 (x : Fin 36 → ℝ) : (fun i : Fin 3 => jacobian x ⟨18 + i, by omega⟩ 3) = Dpos 3 x (Pi.single 3 1) :=
  (ext3 (e3_18 x) (e3_19 x) (e3_20 x)).trans (col_base 3 0 x 3 rfl).1.symm
theorem vel3 (x : Fin 36 → ℝ) : (fun i : Fin 3 => jacobian x ⟨21 + i, by omega⟩ 3) = Dvel 3 x (Pi.single 3 1) :=
  (ext3 (e3_21 x) (e3_22 x) (e3_23 x)).trans (col_base 3 0 x 3 rfl).2.symm
theorem pos4 (x : Fin 36 → ℝ) : (fun i : Fin 3 => jacobian x ⟨18 + i, by omega⟩ 4) = Dpos 3 x (Pi.single 4 1) :=
  (ext3 (e4_18 x) (e4_19 x) (e4_20 x)).trans (col_base 3 1 x 4 rfl).1.symm
theorem vel4 (x : Fin 36 → ℝ) : (fun i : Fin 3 => jacobian x ⟨21 + i, by omega⟩ 4) = Dvel 3 x (Pi.single 4 1) :=
  (ext3 (e4_21 x) (e4_22 x) (e4_23 x)).trans (col_base 3 1 x 4 rfl).2.symm
theorem pos5 (x : Fin 36 → ℝ) : (fun i : Fin 3 => jacobian x ⟨18 + i, by omega⟩ 5) = Dpos 3 x (Pi.single 5 1) :=
  (ext3 (e5_18 x) (e5_19 x) (e5_20 x)).trans (col_base 3 2 x 5 rfl).1.symm
theorem vel5 (x : Fin 36 → ℝ) : (fun i : Fin 3 => jacobian x ⟨21 + i, by omega⟩ 5) = Dvel 3 x (Pi.single 5 1) :=
  (ext3 (e5_21 x) (e5_22 x) (e5_23 x)).trans (col_base 3 2 x 5 rfl).2.symm
theorem pos6 (x : Fin 36 → ℝ) : (fun i : Fin 3 => jacobian x ⟨18 + i, by omega⟩ 6) = Dpos 3 x (Pi.single 6 1) :=
  (ext3 (e6_18 x) (e6_19 x) (e6_20 x)).trans (col_other 3 0 0 x 6 (by decide) (by decide)).1.symm
theorem vel6 (x : Fin 36 → ℝ) : (fun i : Fin 3 => jacobian x ⟨21 + i, by omega⟩ 6) = Dvel 3 x (Pi.single 6 1) :=
  (ext3 (e6_21 x) (e6_22 x) (e6_23 x)).trans (col_other 3 0 0 x 6 (by decide) (by decide)).2.symm
theorem pos7 (x : Fin 36 → ℝ) : (fun i : Fin 3 => jacobian x ⟨18 + i, by omega⟩ 7) = Dpos 3 x (Pi.single 7 1) :=
  (ext3 (e7_18 x) (e7_19 x) (e7_20 x)).trans (col_other 3 0 1 x 7 (by decide) (by decide)).1.symm
theorem vel7 (x : Fin 36 → ℝ) : (fun i : Fin 3 => jacobian x ⟨21 + i, by omega⟩ 7) = Dvel 3 x (Pi.single 7 1) :=
  (ext3 (e7_21 x) (e7_22 x) (e7_23 x)).trans (col_other 3 0 1 x 7 (by decide) (by decide)).2.symm
theorem pos8 (x : Fin 36 → ℝ) : (fun i : Fin 3 => jacobian x ⟨18 + i, by omega⟩ 8) = Dpos 3 x (Pi.single 8 1) :=
  (ext3 (e8_18 x) (e8_19 x) (e8_20 x)).trans (col_other 3 0 2 x 8 (by decide) (by decide)).1.symm
theorem vel8 (x : Fin 36 → ℝ) : (fun i : Fin 3 => jacobian x ⟨21 + i, by omega⟩ 8) = Dvel 3 x (Pi.single 8 1) :=
  (ext3 (e8_21 x) (e8_22 x) (e8_23 x)).trans (col_other 3 0 2 x 8 (by decide) (by decide)).2.symm
theorem pos9 (x : Fin 36 → ℝ) : (fun i : Fin 3 => jacobian x ⟨18 + i, by omega⟩ 9) = Dpos 3 x (Pi.single 9 1) :=
  (ext3 (e9_18 x) (e9_19 x) (e9_20 x)).trans (col_other 3 1 0 x 9 (by decide) (by decide)).1.symm
theorem vel9 (x : Fin 36 → ℝ) : (fun i : Fin 3 => jacobian x ⟨21 + i, by omega⟩ 9) = Dvel 3 x (Pi.single 9 1) :=
  (ext3 (e9_21 x) (e9_22 x) (e9_23 x)).trans (col_other 3 1 0 x 9 (by decide) (by decide)).2.symm
theorem pos10 (x : Fin 36 → ℝ) : (fun i : Fin 3 => jacobian x ⟨18 + i, by omega⟩ 10) = Dpos 3 x (Pi.single 10 1) :=
  (ext3 (e10_18 x) (e10_19 x) (e10_20 x)).trans (col_other 3 1 1 x 10 (by decide) (by decide)).1.symm
theorem vel10 (x : Fin 36 → ℝ) : (fun i : Fin 3 => jacobian x ⟨21 + i, by omega⟩ 10) = Dvel 3 x (Pi.single 10 1) :=
  (ext3 (e10_21 x) (e10_22 x) (e10_23 x)).trans (col_other 3 1 1 x 10 (by decide) (by decide)).2.symm
theorem pos11 (x : Fin 36 → ℝ) : (fun i : Fin 3 => jacobian x ⟨18 + i, by omega⟩ 11) = Dpos 3 x (Pi.single 11 1) :=
  (ext3 (e11_18 x) (e11_19 x) (e11_20 x)).trans (col_other 3 1 2 x 11 (by decide) (by decide)).1.symm
theorem vel11 (x : Fin 36 → ℝ) : (fun i : Fin 3 => jacobian x ⟨21 + i, by omega⟩ 11) = Dvel 3 x (Pi.single 11 1) :=
  (ext3 (e11_21 x) (e11_22 x) (e11_23 x)).trans (col_other 3 1 2 x 11 (by decide) (by decide)).2.symm
theorem pos12 (x : Fin 36 → ℝ) : (fun i : Fin 3 => jacobian x ⟨18 + i, by omega⟩ 12) = Dpos 3 x (Pi.single 12 1) :=
  (ext3 (e12_18 x) (e12_19 x) (e12_20 x)).trans (col_other 3 2 0 x 12 (by decide) (by decide)).1.symm
theorem vel12 (x : Fin 36 → ℝ) : (fun i : Fin 3 => jacobian x ⟨21 + i, by omega⟩ 12) = Dvel 3 x (Pi.single 12 1) :=
  (ext3 (e12_21 x) (e12_22 x) (e12_23 x)).trans (col_other 3 2 0 x 12 (by decide) (by decide)).2.symm
theorem pos13 (x : Fin 36 → ℝ) : (fun i : Fin 3 => jacobian x ⟨18 + i, by omega⟩ 13) = Dpos 3 x (Pi.single 13 1) :=
  (ext3 (e13_18 x) (e13_19 x) (e13_20 x)).trans (col_other 3 2 1 x 13 (by decide) (by decide)).1.symm
theorem vel13 (x : Fin 36 → ℝ) : (fun i : Fin 3 => jacobian x ⟨21 + i, by omega⟩ 13) = Dvel 3 x (Pi.single 13 1) :=
  (ext3 (e13_21 x) (e13_22 x) (e13_23 x)).trans (col_other 3 2 1 x 13 (by decide) (by decide)).2.symm
theorem pos14 (x : Fin 36 → ℝ) : (fun i : Fin 3 => jacobian x ⟨18 + i, by omega⟩ 14) = Dpos 3 x (Pi.single 14 1) :=
  (ext3 (e14_18 x) (e14_19 x) (e14_20 x)).trans (col_other 3 2 2 x 14 (by decide) (by decide)).1.symm
theorem vel14 (x : Fin 36 → ℝ) : (fun i : Fin 3 => jacobian x ⟨21 + i, by omega⟩ 14) = Dvel 3 x (Pi.single 14 1) :=
  (ext3 (e14_21 x) (e14_22 x) (e14_23 x)).trans (col_other 3 2 2 x 14 (by decide) (by decide)).2.symm
theorem pos15 (x : Fin 36 → ℝ) : (fun i : Fin 3 => jacobian x ⟨18 + i, by omega⟩ 15) = Dpos 3 x (Pi.single 15 1) :=
  (ext3 (e15_18 x) (e15_19 x) (e15_20 x)).trans (col_joint 3 0 x 15 rfl).1.symm
theorem vel15 (x : Fin 36 → ℝ) : (fun i : Fin 3 => jacobian x ⟨21 + i, by omega⟩ 15) = Dvel 3 x (Pi.single 15 1) :=
  (ext3 (e15_21 x) (e15_22 x) (e15_23 x)).trans (col_joint 3 0 x 15 rfl).2.symm
theorem pos16 (x : Fin 36 → ℝ) : (fun i : Fin 3 => jacobian x ⟨18 + i, by omega⟩ 16) = Dpos 3 x (Pi.single 16 1) :=
  (ext3 (e16_18 x) (e16_19 x) (e16_20 x)).trans (col_joint 3 1 x 16 rfl).1.symm
theorem vel16 (x : Fin 36 → ℝ) : (fun i : Fin 3 => jacobian x ⟨21 + i, by omega⟩ 16) = Dvel 3 x (Pi.single 16 1) :=
  (ext3 (e16_21 x) (e16_22 x) (e16_23 x)).trans (col_joint 3 1 x 16 rfl).2.symm
theorem pos17 (x : Fin 36 → ℝ) : (fun i : Fin 3 => jacobian x ⟨18 + i, by omega⟩ 17) = Dpos 3 x (Pi.single 17 1) :=
  (ext3 (e17_18 x) (e17_19 x) (e17_20 x)).trans (col_joint 3 2 x 17 rfl).1.symm
theorem vel17 (x : Fin 36 → ℝ) : (fun i : Fin 3 => jacobian x ⟨21 + i, by omega⟩ 17) = Dvel 3 x (Pi.single 17 1) :=
  (ext3 (e17_21 x) (e17_22 x) (e17_23 x)).trans (col_joint 3 2 x 17 rfl).2.symm
theorem pos18 (x : Fin 36 → ℝ) : (fun i : Fin 3 => jacobian x ⟨18 + i, by omega⟩ 18) = Dpos 3 x (Pi.single 18 1) :=
  (ext3 (e18_18 x) (e18_19 x) (e18_20 x)).trans (col_om 3 0 x 18 rfl).1.symm
theorem vel18 (x : Fin 36 → ℝ) : (fun i : Fin 3 => jacobian x ⟨21 + i, by omega⟩ 18) = Dvel 3 x (Pi.single 18 1) :=
  (ext3 (e18_21 x) (e18_22 x) (e18_23 x)).trans (col_om 3 0 x 18 rfl).2.symm
theorem pos19 (x : Fin 36 → ℝ) : (fun i : Fin 3 => jacobian x ⟨18 + i, by omega⟩ 19) = Dpos 3 x (Pi.single 19 1) :=
  (ext3 (e19_18 x) (e19_19 x) (e19_20 x)).trans (col_om 3 1 x 19 rfl).1.symm
theorem vel19 (x : Fin 36 → ℝ) : (fun i : Fin 3 => jacobian x ⟨21 + i, by omega⟩ 19) = Dvel 3 x (Pi.single 19 1) :=
  (ext3 (e19_21 x) (e19_22 x) (e19_23 x)).trans (col_om 3 1 x 19 rfl).2.symm
theorem pos20 (x : Fin 36 → ℝ) : (fun i : Fin 3 => jacobian x ⟨18 + i, by omega⟩ 20) = Dpos 3 x (Pi.single 20 1) :=
  (ext3 (e20_18 x) (e20_19 x) (e20_20 x)).trans (col_om 3 2 x 20 rfl).1.symm
theorem vel20 (x : Fin 36 → ℝ) : (fun i : Fin 3 => jacobian x ⟨21 + i, by omega⟩ 20) = Dvel 3 x (Pi.single 20 1) :=
  (ext3 (e20_21 x) (e20_22 x) (e20_23 x)).trans (col_om 3 2 x 20 rfl).2.symm
theorem pos21 (x : Fin 36 → ℝ) : (fun i : Fin 3 => jacobian x ⟨18 + i, by omega⟩ 21) = Dpos 3 x (Pi.single 21 1) :=
  (ext3 (e21_18 x) (e21_19 x) (e21_20 x)).trans (col_lv 3 0 x 21 rfl).1.symm
theorem vel21 (x : Fin 36 → ℝ) : (fun i : Fin 3 => jacobian x ⟨21 + i, by omega⟩ 21) = Dvel 3 x (Pi.single 21 1) :=
  (ext3 (e21_21 x) (e21_22 x) (e21_23 x)).trans (col_lv 3 0 x 21 rfl).2.symm
theorem pos22 (x : Fin 36 → ℝ) : (fun i : Fin 3 => jacobian x ⟨18 + i, by omega⟩ 22) = Dpos 3 x (Pi.single 22 1) :=
  (ext3 (e22_18 x) (e22_19 x) (e22_20 x)).trans (col_lv 3 1 x 22 rfl).1.symm
theorem vel22 (x : Fin 36 → ℝ) : (fun i : Fin 3 => jacobian x ⟨21 + i, by omega⟩ 22) = Dvel 3 x (Pi.single 22 1) :=
  (ext3 (e22_21 x) (e22_22 x) (e22_23 x)).trans (col_lv 3 1 x 22 rfl).2.symm
theorem pos23 (x : Fin 36 → ℝ) : (fun i : Fin 3 => jacobian x ⟨18 + i, by omega⟩ 23) = Dpos 3 x (Pi.single 23 1) :=
  (ext3 (e23_18 x) (e23_19 x) (e23_20 x)).trans (col_lv 3 2 x 23 rfl).1.symm
theorem vel23 (x : Fin 36 → ℝ) : (fun i : Fin 3 => jacobian x ⟨21 + i, by omega⟩ 23) = Dvel 3 x (Pi.single 23 1) :=
  (ext3 (e23_21 x) (e23_22 x) (e23_23 x)).trans (col_lv 3 2 x 23 rfl).2.symm
theorem pos24 (x : Fin 36 → ℝ) : (fun i : Fin 3 => jacobian x ⟨18 + i, by omega⟩ 24) = Dpos 3 x (Pi.single 24 1) :=
  (ext3 (e24_18 x) (e24_19 x) (e24_20 x)).trans (col_other 3 0 0 x 24 (by decide) (by decide)).1.symm
theorem vel24 (x : Fin 36 → ℝ) : (fun i : Fin 3 => jacobian x ⟨21 + i, by omega⟩ 24) = Dvel 3 x (Pi.single 24 1) :=
  (ext3 (e24_21 x) (e24_22 x) (e24_23 x)).trans (col_other 3 0 0 x 24 (by decide) (by decide)).2.symm
theorem pos25 (x : Fin 36 → ℝ) : (fun i : Fin 3 => jacobian x ⟨18 + i, by omega⟩ 25) = Dpos 3 x (Pi.single 25 1) :=
  (ext3 (e25_18 x) (e25_19 x) (e25_20 x)).trans (col_other 3 0 1 x 25 (by decide) (by decide)).1.symm
theorem vel25 (x : Fin 36 → ℝ) : (fun i : Fin 3 => jacobian x ⟨21 + i, by omega⟩ 25) = Dvel 3 x (Pi.single 25 1) :=
  (ext3 (e25_21 x) (e25_22 x) (e25_23 x)).trans (col_other 3 0 1 x 25 (by decide) (by decide)).2.symm
theorem pos26 (x : Fin 36 → ℝ) : (fun i : Fin 3 => jacobian x ⟨18 + i, by omega⟩ 26) = Dpos 3 x (Pi.single 26 1) :=
  (ext3 (e26_18 x) (e26_19 x) (e26_20 x)).trans (col_other 3 0 2 x 26 (by decide) (by decide)).1.symm
theorem vel26 (x : Fin 36 → ℝ) : (fun i : Fin 3 => jacobian x ⟨21 + i, by omega⟩ 26) = Dvel 3 x (Pi.single 26 1) :=
  (ext3 (e26_21 x) (e26_22 x) (e26_23 x)).trans (col_other 3 0 2 x 26 (by decide) (by decide)).2.symm
theorem pos27 (x : Fin 36 → ℝ) : (fun i : Fin 3 => jacobian x ⟨18 + i, by omega⟩ 27) = Dpos 3 x (Pi.single 27 1) :=
  (ext3 (e27_18 x) (e27_19 x) (e27_20 x)).trans (col_other 3 1 0 x 27 (by decide) (by decide)).1.symm
theorem vel27 (x : Fin 36 → ℝ) : (fun i : Fin 3 => jacobian x ⟨21 + i, by omega⟩ 27) = Dvel 3 x (Pi.single 27 1) :=
  (ext3 (e27_21 x) (e27_22 x) (e27_23 x)).trans (col_other 3 1 0 x 27 (by decide) (by decide)).2.symm
theorem pos28 (x : Fin 36 → ℝ) : (fun i : Fin 3 => jacobian x ⟨18 + i, by omega⟩ 28) = Dpos 3 x (Pi.single 28 1) :=
  (ext3 (e28_18 x) (e28_19 x) (e28_20 x)).trans (col_other 3 1 1 x 28 (by decide) (by decide)).1.symm
theorem vel28 (x : Fin 36 → ℝ) : (fun i : Fin 3 => jacobian x ⟨21 + i, by omega⟩ 28) = Dvel 3 x (Pi.single 28 1) :=
  (ext3 (e28_21 x) (e28_22 x) (e28_23 x)).trans (col_other 3 1 1 x 28 (by decide) (by decide)).2.symm
theorem pos29 (x : Fin 36 → ℝ) : (fun i : Fin 3 => jacobian x ⟨18 + i, by omega⟩ 29) = Dpos 3 x (Pi.single 29 1) :=
  (ext3 (e29_18 x) (e29_19 x) (e29_20 x)).trans (col_other 3 1 2 x 29 (by decide) (by decide)).1.symm
theorem vel29 (x : Fin 36 → ℝ) : (fun i : Fin 3 => jacobian x ⟨21 + i, by omega⟩ 29) = Dvel 3 x (Pi.single 29 1) :=
  (ext3 (e29_21 x) (e29_22 x) (e29_23 x)).trans (col_other 3 1 2 x 29 (by decide) (by decide)).2.symm
theorem pos30 (x : Fin 36 → ℝ) : (fun i : Fin 3 => jacobian x ⟨18 + i, by omega⟩ 30) = Dpos 3 x (Pi.single 30 1) :=
  (ext3 (e30_18 x) (e30_19 x) (e30_20 x)).trans (col_other 3 2 0 x 30 (by decide) (by decide)).1.symm
theorem vel30 (x : Fin 36 → ℝ) : (fun i : Fin 3 => jacobian x ⟨21 + i, by omega⟩ 30) = Dvel 3 x (Pi.single 30 1) :=
  (ext3 (e30_21 x) (e30_22 x) (e30_23 x)).trans (col_other 3 2 0 x 30 (by decide) (by decide)).2.symm
theorem pos31 (x : Fin 36 → ℝ) : (fun i : Fin 3 => jacobian x ⟨18 + i, by omega⟩ 31) = Dpos 3 x (Pi.single 31 1) :=
  (ext3 (e31_18 x) (e31_19 x) (e31_20 x)).trans (col_other 3 2 1 x 31 (by decide) (by decide)).1.symm
theorem vel31 (x : Fin 36 → ℝ) : (fun i : Fin 3 => jacobian x ⟨21 + i, by omega⟩ 31) = Dvel 3 x (Pi.single 31 1) :=
  (ext3 (e31_21 x) (e31_22 x) (e31_23 x)).trans (col_other 3 2 1 x 31 (by decide) (by decide)).2.symm
theorem pos32 (x : Fin 36 → ℝ) : (fun i : Fin 3 => jacobian x ⟨18 + i, by omega⟩ 32) = Dpos 3 x (Pi.single 32 1) :=
  (ext3 (e32_18 x) (e32_19 x) (e32_20 x)).trans (col_other 3 2 2 x 32 (by decide) (by decide)).1.symm
theorem vel32 (x : Fin 36 → ℝ) : (fun i : Fin 3 => jacobian x ⟨21 + i, by omega⟩ 32) = Dvel 3 x (Pi.single 32 1) :=
  (ext3 (e32_21 x) (e32_22 x) (e32_23 x)).trans (col_other 3 2 2 x 32 (by decide) (by decide)).2.symm
theorem pos33 (x : Fin 36 → ℝ) : (fun i : Fin 3 => jacobian x ⟨18 + i, by omega⟩ 33) = Dpos 3 x (Pi.single 33 1) :=
  (ext3 (e33_18 x) (e33_19 x) (e33_20 x)).trans (col_qd 3 0 x 33 rfl).1.symm
theorem vel33 (x : Fin 36 → ℝ) : (fun i : Fin 3 => jacobian x ⟨21 + i, by omega⟩ 33) = Dvel 3 x (Pi.single 33 1) :=
  (ext3 (e33_21 x) (e33_22 x) (e33_23 x)).trans (col_qd 3 0 x 33 rfl).2.symm
theorem pos34 (x : Fin 36 → ℝ) : (fun i : Fin 3 => jacobian x ⟨18 + i, by omega⟩ 34) = Dpos 3 x (Pi.single 34 1) :=
  (ext3 (e34_18 x) (e34_19 x) (e34_20 x)).trans (col_qd 3 1 x 34 rfl).1.symm
theorem vel34 (x : Fin 36 → ℝ) : (fun i : Fin 3 => jacobian x ⟨21 + i, by omega⟩ 34) = Dvel 3 x (Pi.single 34 1) :=
  (ext3 (e34_21 x) (e34_22 x) (e34_23 x)).trans (col_qd 3 1 x 34 rfl).2.symm
theorem pos35 (x : Fin 36 → ℝ) : (fun i : Fin 3 => jacobian x ⟨18 + i, by omega⟩ 35) = Dpos 3 x (Pi.single 35 1) :=
  (ext3 (e35_18 x) (e35_19 x) (e35_20 x)).trans (col_qd 3 2 x 35 rfl).1.symm
theorem vel35 (x : Fin 36 → ℝ) : (fun i : Fin 3 => jacobian x ⟨21 + i, by omega⟩ 35) = Dvel 3 x (Pi.single 35 1) :=
  (ext3 (e35_21 x) (e35_22 x) (e35_23 x)).trans (col_qd 3 2 x 35 rfl).2.symm

theorem rows (x : Fin 36 → ℝ) (c : Fin 36) :
    (fun i : Fin 3 => jacobian x ⟨18 + i, by omega⟩ c) = Dpos 3 x (Pi.single c 1) ∧
    (fun i : Fin 3 => jacobian x ⟨21 + i, by omega⟩ c) = Dvel 3 x (Pi.single c 1) := by
  fin_cases c
  exacts [⟨pos0 x, vel0 x⟩, ⟨pos1 x, vel1 x⟩, ⟨pos2 x, vel2 x⟩, ⟨pos3 x, vel3 x⟩, ⟨pos4 x, vel4 x⟩, ⟨pos5 x, vel5 x⟩, ⟨pos6 x,
    vel6 x⟩, ⟨pos7 x, vel7 x⟩, ⟨pos8 x, vel8 x⟩, ⟨pos9 x, vel9 x⟩, ⟨pos10 x, vel10 x⟩, ⟨pos11 x, vel11 x⟩, ⟨pos12 x, vel12 x⟩, ⟨pos13 x, vel13 x⟩, ⟨pos14 x, vel14 x⟩, ⟨pos15 x, vel15 x⟩, ⟨pos16 x, vel16 x⟩, ⟨pos17 x, vel17 x⟩, ⟨pos18 x, vel18 x⟩, ⟨pos19 x, vel19 x⟩, ⟨pos20 x, vel20 x⟩, ⟨pos21 x, vel21 x⟩, ⟨pos22 x, vel22 x⟩, ⟨pos23 x, vel23 x⟩, ⟨pos24 x, vel24 x⟩, ⟨pos25 x, vel25 x⟩, ⟨pos26 x, vel26 x⟩, ⟨pos27 x, vel27 x⟩, ⟨pos28 x, vel28 x⟩, ⟨pos29 x, vel29 x⟩, ⟨pos30 x, vel30 x⟩, ⟨pos31 x, vel31 x⟩, ⟨pos32 x, vel32 x⟩, ⟨pos33 x, vel33 x⟩, ⟨pos34 x, vel34 x⟩, ⟨pos35 x, vel35 x⟩]

end CT.Robots.HyQ.FootJacReverse.Leg3
