import Verif.Model.Robots.HyQFootJacForward
import Verif.Props.Robots.HyQFoot

/-!
# Rows of foot 3 in the generated Jacobian HyQForwardKinJacForward

`hN`: line `N` is a component of the quaternion, of the position of the foot or of its velocity in the base.  `eC_R`: the entry in
row `R` and column `C`.
-/

namespace CT.Robots.HyQ.FootJacForward.Leg3

open Matrix CT.FloatSys CT.FrameJac CT.Robots.HyQ

set_option linter.unusedSimpArgs false

theorem h527 (x : Fin 36 → ℝ) : l527 x = Qe x 3 := by
  simp only [l516, l517, l518, l519, l520, l521, l522, l523, l524, l525, l526, l527, Qe_3] <;> ring
theorem h540 (x : Fin 36 → ℝ) : l540 x = Qe x 1 := by
  simp only [l516, l517, l518, l519, l521, l522, l523, l524, l526, l538, l539, l540, Qe_1] <;> ring
theorem h542 (x : Fin 36 → ℝ) : l542 x = Qe x 2 := by
  simp only [l516, l517, l518, l519, l521, l522, l523, l524, l526, l538, l539, l542, Qe_2] <;> ring
theorem h547 (x : Fin 36 → ℝ) : l547 x = Qe x 0 := by
  simp only [l516, l517, l518, l519, l520, l521, l522, l523, l524, l525, l526, l547, Qe_0] <;> ring
theorem h559 (x : Fin 36 → ℝ) : l559 x = foot 3 x 2 := by
  simp only [l549, l550, l551, l552, l553, l554, l555, l556, l557, l558, l559, foot, pv_0, pv_1, pv_2, side_3, mountX_3,
    mountY_3, th_3_0, th_3_1, th_3_2, segA, segB, segC, segD, segH] <;> ring
theorem h568 (x : Fin 36 → ℝ) : l568 x = foot 3 x 1 := by
  simp only [l551, l553, l555, l557, l562, l563, l564, l565, l566, l567, l568, foot, pv_0, pv_1, pv_2, side_3, mountX_3,
    mountY_3, th_3_0, th_3_1, th_3_2, segA, segB, segC, segD, segH] <;> ring
theorem h573 (x : Fin 36 → ℝ) : l573 x = foot 3 x 0 := by
  simp only [l551, l553, l555, l557, l571, l572, l573, foot, pv_0, pv_1, pv_2, side_3, mountX_3, mountY_3, th_3_0, th_3_1,
    th_3_2, segA, segB, segC, segD, segH] <;> ring
theorem h593 (x : Fin 36 → ℝ) : l593 x = Qe x 3 := by
  simp only [l582, l583, l584, l585, l586, l587, l588, l589, l590, l591, l592, l593, Qe_3] <;> ring
theorem h606 (x : Fin 36 → ℝ) : l606 x = Qe x 1 := by
  simp only [l582, l583, l584, l585, l587, l588, l589, l590, l592, l604, l605, l606, Qe_1] <;> ring
theorem h608 (x : Fin 36 → ℝ) : l608 x = Qe x 2 := by
  simp only [l582, l583, l584, l585, l587, l588, l589, l590, l592, l604, l605, l608, Qe_2] <;> ring
theorem h613 (x : Fin 36 → ℝ) : l613 x = Qe x 0 := by
  simp only [l582, l583, l584, l585, l586, l587, l588, l589, l590, l591, l592, l613, Qe_0] <;> ring
theorem h640 (x : Fin 36 → ℝ) : l640 x = vb 3 x 2 := by
  simp only [l549, l551, l553, l555, l557, l562, l615, l616, l617, l618, l619, l620, l621, l622, l623, l624, l625, l626, l627,
    l628, l629, l630, l631, l632, l633, l634, l635, l636, l637, l638, l639, l640, vb, Pi.add_apply, mv_0, mv_1, mv_2, cr_0, cr_1, cr_2, foot, pv_0, pv_1, pv_2, side_3, mountX_3, mountY_3, th_3_0, th_3_1, th_3_2, segA, segB, segC, segD, segH, jac, jm_00, jm_01, jm_02, jm_10, jm_11, jm_12, jm_20, jm_21, jm_22, qd_3_0, qd_3_1, qd_3_2, om_0, om_1, om_2, lv_0, lv_1, lv_2] <;> ring
theorem h665 (x : Fin 36 → ℝ) : l665 x = vb 3 x 1 := by
  simp only [l549, l551, l553, l555, l557, l562, l627, l637, l638, l639, l643, l644, l645, l646, l647, l648, l649, l650, l651,
    l652, l653, l654, l655, l656, l657, l658, l659, l660, l661, l662, l663, l664, l665, vb, Pi.add_apply, mv_0, mv_1, mv_2, cr_0, cr_1, cr_2, foot, pv_0, pv_1, pv_2, side_3, mountX_3, mountY_3, th_3_0, th_3_1, th_3_2, segA, segB, segC, segD, segH, jac, jm_00, jm_01, jm_02, jm_10, jm_11, jm_12, jm_20, jm_21, jm_22, qd_3_0, qd_3_1, qd_3_2, om_0, om_1, om_2, lv_0, lv_1, lv_2] <;> ring
theorem h674 (x : Fin 36 → ℝ) : l674 x = vb 3 x 0 := by
  simp only [l549, l551, l553, l555, l557, l562, l631, l632, l633, l634, l635, l636, l659, l660, l661, l662, l663, l664, l668,
    l669, l670, l671, l672, l673, l674, vb, Pi.add_apply, mv_0, mv_1, mv_2, cr_0, cr_1, cr_2, foot, pv_0, pv_1, pv_2, side_3, mountX_3, mountY_3, th_3_0, th_3_1, th_3_2, segA, segB, segC, segD, segH, jac, jm_00, jm_01, jm_02, jm_10, jm_11, jm_12, jm_20, jm_21, jm_22, qd_3_0, qd_3_1, qd_3_2, om_0, om_1, om_2, lv_0, lv_1, lv_2] <;> ring

theorem e0_18 (x : Fin 36 → ℝ) : l574 x = (dRm (Qe x) (dQ 0 x) *ᵥ foot 3 x) 0 := by
  simp only [l516, l518, l519, l521, l522, l524, l526, l528, l529, l530, l531, l532, l533, l534, l535, l536, l537, l541, l543,
    l544, l545, l546, l548, l560, l561, l569, l570, l574, h527, h540, h542, h547, h559, h568, h573, mv_0, mv_1, mv_2, dRm_00, dRm_01, dRm_02, dRm_10, dRm_11, dRm_12, dRm_20, dRm_21, dRm_22, dQ_0_0, dQ_0_1, dQ_0_2, dQ_0_3] <;> ring
theorem e0_19 (x : Fin 36 → ℝ) : l580 x = (dRm (Qe x) (dQ 0 x) *ᵥ foot 3 x) 1 := by
  simp only [l516, l518, l519, l521, l522, l524, l526, l528, l529, l530, l531, l532, l533, l534, l535, l536, l537, l543, l544,
    l545, l546, l560, l561, l569, l575, l576, l577, l578, l579, l580, h527, h540, h542, h547, h559, h568, h573, mv_0, mv_1, mv_2, dRm_00, dRm_01, dRm_02, dRm_10, dRm_11, dRm_12, dRm_20, dRm_21, dRm_22, dQ_0_0, dQ_0_1, dQ_0_2, dQ_0_3] <;> ring
theorem e0_20 (x : Fin 36 → ℝ) : l581 x = (dRm (Qe x) (dQ 0 x) *ᵥ foot 3 x) 2 := by
  simp only [l516, l518, l519, l521, l522, l524, l526, l528, l529, l530, l531, l532, l533, l534, l535, l536, l537, l541, l543,
    l544, l545, l546, l548, l570, l575, l576, l577, l578, l579, l581, h527, h540, h542, h547, h559, h568, h573, mv_0, mv_1, mv_2, dRm_00, dRm_01, dRm_02, dRm_10, dRm_11, dRm_12, dRm_20, dRm_21, dRm_22, dQ_0_0, dQ_0_1, dQ_0_2, dQ_0_3] <;> ring
theorem e0_21 (x : Fin 36 → ℝ) : l675 x = (dRm (Qe x) (dQ 0 x) *ᵥ vb 3 x) 0 := by
  simp only [l582, l584, l585, l587, l588, l590, l592, l594, l595, l596, l597, l598, l599, l600, l601, l602, l603, l607, l609,
    l610, l611, l612, l614, l641, l642, l666, l667, l675, h593, h606, h608, h613, h640, h665, h674, mv_0, mv_1, mv_2, dRm_00, dRm_01, dRm_02, dRm_10, dRm_11, dRm_12, dRm_20, dRm_21, dRm_22, dQ_0_0, dQ_0_1, dQ_0_2, dQ_0_3] <;> ring
theorem e0_22 (x : Fin 36 → ℝ) : l681 x = (dRm (Qe x) (dQ 0 x) *ᵥ vb 3 x) 1 := by
  simp only [l582, l584, l585, l587, l588, l590, l592, l594, l595, l596, l597, l598, l599, l600, l601, l602, l603, l609, l610,
    l611, l612, l641, l642, l666, l676, l677, l678, l679, l680, l681, h593, h606, h608, h613, h640, h665, h674, mv_0, mv_1, mv_2, dRm_00, dRm_01, dRm_02, dRm_10, dRm_11, dRm_12, dRm_20, dRm_21, dRm_22, dQ_0_0, dQ_0_1, dQ_0_2, dQ_0_3] <;> ring
theorem e0_23 (x : Fin 36 → ℝ) : l682 x = (dRm (Qe x) (dQ 0 x) *ᵥ vb 3 x) 2 := by
  simp only [l582, l584, l585, l587, l588, l590, l592, l594, l595, l596, l597, l598, l599, l600, l601, l602, l603, l607, l609,
    l610, l611, l612, l614, l667, l676, l677, l678, l679, l680, l682, h593, h606, h608, h613, h640, h665, h674, mv_0, mv_1, mv_2, dRm_00, dRm_01, dRm_02, dRm_10, dRm_11, dRm_12, dRm_20, dRm_21, dRm_22, dQ_0_0, dQ_0_1, dQ_0_2, dQ_0_3] <;> ring
theorem e1_18 (x : Fin 36 → ℝ) : l851 x = (dRm (Qe x) (dQ 1 x) *ᵥ foot 3 x) 0 := by
  simp only [l516, l517, l518, l521, l522, l523, l526, l528, l543, l833, l834, l835, l836, l837, l838, l839, l840, l841, l842,
    l843, l844, l845, l846, l847, l848, l849, l850, l851, h527, h540, h542, h547, h559, h568, h573, mv_0, mv_1, mv_2, dRm_00, dRm_01, dRm_02, dRm_10, dRm_11, dRm_12, dRm_20, dRm_21, dRm_22, dQ_1_0, dQ_1_1, dQ_1_2, dQ_1_3] <;> ring
theorem e1_19 (x : Fin 36 → ℝ) : l856 x = (dRm (Qe x) (dQ 1 x) *ᵥ foot 3 x) 1 := by
  simp only [l516, l517, l518, l521, l522, l523, l526, l528, l543, l576, l833, l834, l835, l836, l837, l838, l839, l840, l841,
    l843, l844, l845, l847, l848, l849, l852, l853, l854, l855, l856, h527, h540, h542, h547, h559, h568, h573, mv_0, mv_1, mv_2, dRm_00, dRm_01, dRm_02, dRm_10, dRm_11, dRm_12, dRm_20, dRm_21, dRm_22, dQ_1_0, dQ_1_1, dQ_1_2, dQ_1_3] <;> ring
theorem e1_20 (x : Fin 36 → ℝ) : l857 x = (dRm (Qe x) (dQ 1 x) *ᵥ foot 3 x) 2 := by
  simp only [l516, l517, l518, l521, l522, l523, l526, l528, l543, l576, l833, l834, l835, l836, l837, l838, l839, l840, l841,
    l842, l843, l844, l845, l846, l850, l852, l853, l854, l855, l857, h527, h540, h542, h547, h559, h568, h573, mv_0, mv_1, mv_2, dRm_00, dRm_01, dRm_02, dRm_10, dRm_11, dRm_12, dRm_20, dRm_21, dRm_22, dQ_1_0, dQ_1_1, dQ_1_2, dQ_1_3] <;> ring
theorem e1_21 (x : Fin 36 → ℝ) : l876 x = (dRm (Qe x) (dQ 1 x) *ᵥ vb 3 x) 0 := by
  simp only [l582, l583, l584, l587, l588, l589, l592, l594, l609, l858, l859, l860, l861, l862, l863, l864, l865, l866, l867,
    l868, l869, l870, l871, l872, l873, l874, l875, l876, h593, h606, h608, h613, h640, h665, h674, mv_0, mv_1, mv_2, dRm_00, dRm_01, dRm_02, dRm_10, dRm_11, dRm_12, dRm_20, dRm_21, dRm_22, dQ_1_0, dQ_1_1, dQ_1_2, dQ_1_3] <;> ring
theorem e1_22 (x : Fin 36 → ℝ) : l881 x = (dRm (Qe x) (dQ 1 x) *ᵥ vb 3 x) 1 := by
  simp only [l582, l583, l584, l587, l588, l589, l592, l594, l609, l677, l858, l859, l860, l861, l862, l863, l864, l865, l866,
    l868, l869, l870, l872, l873, l874, l877, l878, l879, l880, l881, h593, h606, h608, h613, h640, h665, h674, mv_0, mv_1, mv_2, dRm_00, dRm_01, dRm_02, dRm_10, dRm_11, dRm_12, dRm_20, dRm_21, dRm_22, dQ_1_0, dQ_1_1, dQ_1_2, dQ_1_3] <;> ring
theorem e1_23 (x : Fin 36 → ℝ) : l882 x = (dRm (Qe x) (dQ 1 x) *ᵥ vb 3 x) 2 := by
  simp only [l582, l583, l584, l587, l588, l589, l592, l594, l609, l677, l858, l859, l860, l861, l862, l863, l864, l865, l866,
    l867, l868, l869, l870, l871, l875, l877, l878, l879, l880, l882, h593, h606, h608, h613, h640, h665, h674, mv_0, mv_1, mv_2, dRm_00, dRm_01, dRm_02, dRm_10, dRm_11, dRm_12, dRm_20, dRm_21, dRm_22, dQ_1_0, dQ_1_1, dQ_1_2, dQ_1_3] <;> ring
theorem e2_18 (x : Fin 36 → ℝ) : l1023 x = (dRm (Qe x) (dQ 2 x) *ᵥ foot 3 x) 0 := by
  simp only [l516, l517, l518, l519, l520, l521, l523, l524, l525, l528, l538, l539, l543, l1009, l1010, l1011, l1012, l1013,
    l1014, l1015, l1016, l1017, l1018, l1019, l1020, l1021, l1022, l1023, h527, h540, h542, h547, h559, h568, h573, mv_0, mv_1, mv_2, dRm_00, dRm_01, dRm_02, dRm_10, dRm_11, dRm_12, dRm_20, dRm_21, dRm_22, dQ_2_0, dQ_2_1, dQ_2_2, dQ_2_3] <;> ring
theorem e2_19 (x : Fin 36 → ℝ) : l1028 x = (dRm (Qe x) (dQ 2 x) *ᵥ foot 3 x) 1 := by
  simp only [l516, l517, l518, l519, l520, l521, l523, l524, l525, l528, l538, l539, l543, l576, l1009, l1010, l1011, l1012,
    l1013, l1015, l1016, l1017, l1019, l1020, l1021, l1024, l1025, l1026, l1027, l1028, h527, h540, h542, h547, h559, h568, h573, mv_0, mv_1, mv_2, dRm_00, dRm_01, dRm_02, dRm_10, dRm_11, dRm_12, dRm_20, dRm_21, dRm_22, dQ_2_0, dQ_2_1, dQ_2_2, dQ_2_3] <;> ring
theorem e2_20 (x : Fin 36 → ℝ) : l1029 x = (dRm (Qe x) (dQ 2 x) *ᵥ foot 3 x) 2 := by
  simp only [l516, l517, l518, l519, l520, l521, l523, l524, l525, l528, l538, l539, l543, l576, l1009, l1010, l1011, l1012,
    l1013, l1014, l1015, l1016, l1017, l1018, l1022, l1024, l1025, l1026, l1027, l1029, h527, h540, h542, h547, h559, h568, h573, mv_0, mv_1, mv_2, dRm_00, dRm_01, dRm_02, dRm_10, dRm_11, dRm_12, dRm_20, dRm_21, dRm_22, dQ_2_0, dQ_2_1, dQ_2_2, dQ_2_3] <;> ring
theorem e2_21 (x : Fin 36 → ℝ) : l1044 x = (dRm (Qe x) (dQ 2 x) *ᵥ vb 3 x) 0 := by
  simp only [l582, l583, l584, l585, l586, l587, l589, l590, l591, l594, l604, l605, l609, l1030, l1031, l1032, l1033, l1034,
    l1035, l1036, l1037, l1038, l1039, l1040, l1041, l1042, l1043, l1044, h593, h606, h608, h613, h640, h665, h674, mv_0, mv_1, mv_2, dRm_00, dRm_01, dRm_02, dRm_10, dRm_11, dRm_12, dRm_20, dRm_21, dRm_22, dQ_2_0, dQ_2_1, dQ_2_2, dQ_2_3] <;> ring
theorem e2_22 (x : Fin 36 → ℝ) : l1049 x = (dRm (Qe x) (dQ 2 x) *ᵥ vb 3 x) 1 := by
  simp only [l582, l583, l584, l585, l586, l587, l589, l590, l591, l594, l604, l605, l609, l677, l1030, l1031, l1032, l1033,
    l1034, l1036, l1037, l1038, l1040, l1041, l1042, l1045, l1046, l1047, l1048, l1049, h593, h606, h608, h613, h640, h665, h674, mv_0, mv_1, mv_2, dRm_00, dRm_01, dRm_02, dRm_10, dRm_11, dRm_12, dRm_20, dRm_21, dRm_22, dQ_2_0, dQ_2_1, dQ_2_2, dQ_2_3] <;> ring
theorem e2_23 (x : Fin 36 → ℝ) : l1050 x = (dRm (Qe x) (dQ 2 x) *ᵥ vb 3 x) 2 := by
  simp only [l582, l583, l584, l585, l586, l587, l589, l590, l591, l594, l604, l605, l609, l677, l1030, l1031, l1032, l1033,
    l1034, l1035, l1036, l1037, l1038, l1039, l1043, l1045, l1046, l1047, l1048, l1050, h593, h606, h608, h613, h640, h665, h674, mv_0, mv_1, mv_2, dRm_00, dRm_01, dRm_02, dRm_10, dRm_11, dRm_12, dRm_20, dRm_21, dRm_22, dQ_2_0, dQ_2_1, dQ_2_2, dQ_2_3] <;> ring
theorem e3_18 (x : Fin 36 → ℝ) : l1490 x = ((Pi.single 0 1 : V3)) 0 := by simp [l1490]
theorem e3_19 (_x : Fin 36 → ℝ) : (0 : ℝ) = ((Pi.single 0 1 : V3)) 1 := by simp [Pi.zero_apply]
theorem e3_20 (_x : Fin 36 → ℝ) : (0 : ℝ) = ((Pi.single 0 1 : V3)) 2 := by simp [Pi.zero_apply]
theorem e3_21 (_x : Fin 36 → ℝ) : (0 : ℝ) = ((0 : V3)) 0 := by simp [Pi.zero_apply]
theorem e3_22 (_x : Fin 36 → ℝ) : (0 : ℝ) = ((0 : V3)) 1 := by simp [Pi.zero_apply]
theorem e3_23 (_x : Fin 36 → ℝ) : (0 : ℝ) = ((0 : V3)) 2 := by simp [Pi.zero_apply]
theorem e4_18 (_x : Fin 36 → ℝ) : (0 : ℝ) = ((Pi.single 1 1 : V3)) 0 := by simp [Pi.zero_apply]
theorem e4_19 (x : Fin 36 → ℝ) : l1494 x = ((Pi.single 1 1 : V3)) 1 := by simp [l1494]
theorem e4_20 (_x : Fin 36 → ℝ) : (0 : ℝ) = ((Pi.single 1 1 : V3)) 2 := by simp [Pi.zero_apply]
theorem e4_21 (_x : Fin 36 → ℝ) : (0 : ℝ) = ((0 : V3)) 0 := by simp [Pi.zero_apply]
theorem e4_22 (_x : Fin 36 → ℝ) : (0 : ℝ) = ((0 : V3)) 1 := by simp [Pi.zero_apply]
theorem e4_23 (_x : Fin 36 → ℝ) : (0 : ℝ) = ((0 : V3)) 2 := by simp [Pi.zero_apply]
theorem e5_18 (_x : Fin 36 → ℝ) : (0 : ℝ) = ((Pi.single 2 1 : V3)) 0 := by simp [Pi.zero_apply]
theorem e5_19 (_x : Fin 36 → ℝ) : (0 : ℝ) = ((Pi.single 2 1 : V3)) 1 := by simp [Pi.zero_apply]
theorem e5_20 (x : Fin 36 → ℝ) : l1498 x = ((Pi.single 2 1 : V3)) 2 := by simp [l1498]
theorem e5_21 (_x : Fin 36 → ℝ) : (0 : ℝ) = ((0 : V3)) 0 := by simp [Pi.zero_apply]
theorem e5_22 (_x : Fin 36 → ℝ) : (0 : ℝ) = ((0 : V3)) 1 := by simp [Pi.zero_apply]
theorem e5_23 (_x : Fin 36 → ℝ) : (0 : ℝ) = ((0 : V3)) 2 := by simp [Pi.zero_apply]
theorem e6_18 (_x : Fin 36 → ℝ) : (0 : ℝ) = ((0 : V3)) 0 := by simp [Pi.zero_apply]
theorem e6_19 (_x : Fin 36 → ℝ) : (0 : ℝ) = ((0 : V3)) 1 := by simp [Pi.zero_apply]
theorem e6_20 (_x : Fin 36 → ℝ) : (0 : ℝ) = ((0 : V3)) 2 := by simp [Pi.zero_apply]
theorem e6_21 (_x : Fin 36 → ℝ) : (0 : ℝ) = ((0 : V3)) 0 := by simp [Pi.zero_apply]
theorem e6_22 (_x : Fin 36 → ℝ) : (0 : ℝ) = ((0 : V3)) 1 := by simp [Pi.zero_apply]
theorem e6_23 (_x : Fin 36 → ℝ) : (0 : ℝ) = ((0 : V3)) 2 := by simp [Pi.zero_apply]
theorem e7_18 (_x : Fin 36 → ℝ) : (0 : ℝ) = ((0 : V3)) 0 := by simp [Pi.zero_apply]
theorem e7_19 (_x : Fin 36 → ℝ) : (0 : ℝ) = ((0 : V3)) 1 := by simp [Pi.zero_apply]
theorem e7_20 (_x : Fin 36 → ℝ) : (0 : ℝ) = ((0 : V3)) 2 := by simp [Pi.zero_apply]
theorem e7_21 (_x : Fin 36 → ℝ) : (0 : ℝ) = ((0 : V3)) 0 := by simp [Pi.zero_apply]
theorem e7_22 (_x : Fin 36 → ℝ) : (0 : ℝ) = ((0 : V3)) 1 := by simp [Pi.zero_apply]
theorem e7_23 (_x : Fin 36 → ℝ) : (0 : ℝ) = ((0 : V3)) 2 := by simp [Pi.zero_apply]
theorem e8_18 (_x : Fin 36 → ℝ) : (0 : ℝ) = ((0 : V3)) 0 := by simp [Pi.zero_apply]
theorem e8_19 (_x : Fin 36 → ℝ) : (0 : ℝ) = ((0 : V3)) 1 := by simp [Pi.zero_apply]
theorem e8_20 (_x : Fin 36 → ℝ) : (0 : ℝ) = ((0 : V3)) 2 := by simp [Pi.zero_apply]
theorem e8_21 (_x : Fin 36 → ℝ) : (0 : ℝ) = ((0 : V3)) 0 := by simp [Pi.zero_apply]
theorem e8_22 (_x : Fin 36 → ℝ) : (0 : ℝ) = ((0 : V3)) 1 := by simp [Pi.zero_apply]
theorem e8_23 (_x : Fin 36 → ℝ) : (0 : ℝ) = ((0 : V3)) 2 := by simp [Pi.zero_apply]
theorem e9_18 (_x : Fin 36 → ℝ) : (0 : ℝ) = ((0 : V3)) 0 := by simp [Pi.zero_apply]
theorem e9_19 (_x : Fin 36 → ℝ) : (0 : ℝ) = ((0 : V3)) 1 := by simp [Pi.zero_apply]
theorem e9_20 (_x : Fin 36 → ℝ) : (0 : ℝ) = ((0 : V3)) 2 := by simp [Pi.zero_apply]
theorem e9_21 (_x : Fin 36 → ℝ) : (0 : ℝ) = ((0 : V3)) 0 := by simp [Pi.zero_apply]
theorem e9_22 (_x : Fin 36 → ℝ) : (0 : ℝ) = ((0 : V3)) 1 := by simp [Pi.zero_apply]
theorem e9_23 (_x : Fin 36 → ℝ) : (0 : ℝ) = ((0 : V3)) 2 := by simp [Pi.zero_apply]
theorem e10_18 (_x : Fin 36 → ℝ) : (0 : ℝ) = ((0 : V3)) 0 := by simp [Pi.zero_apply]
theorem e10_19 (_x : Fin 36 → ℝ) : (0 : ℝ) = ((0 : V3)) 1 := by simp [Pi.zero_apply]
theorem e10_20 (_x : Fin 36 → ℝ) : (0 : ℝ) = ((0 : V3)) 2 := by simp [Pi.zero_apply]
theorem e10_21 (_x : Fin 36 → ℝ) : (0 : ℝ) = ((0 : V3)) 0 := by simp [Pi.zero_apply]
theorem e10_22 (_x : Fin 36 → ℝ) : (0 : ℝ) = ((0 : V3)) 1 := by simp [Pi.zero_apply]
theorem e10_23 (_x : Fin 36 → ℝ) : (0 : ℝ) = ((0 : V3)) 2 := by simp [Pi.zero_apply]
theorem e11_18 (_x : Fin 36 → ℝ) : (0 : ℝ) = ((0 : V3)) 0 := by simp [Pi.zero_apply]
theorem e11_19 (_x : Fin 36 → ℝ) : (0 : ℝ) = ((0 : V3)) 1 := by simp [Pi.zero_apply]
theorem e11_20 (_x : Fin 36 → ℝ) : (0 : ℝ) = ((0 : V3)) 2 := by simp [Pi.zero_apply]
theorem e11_21 (_x : Fin 36 → ℝ) : (0 : ℝ) = ((0 : V3)) 0 := by simp [Pi.zero_apply]
theorem e11_22 (_x : Fin 36 → ℝ) : (0 : ℝ) = ((0 : V3)) 1 := by simp [Pi.zero_apply]
theorem e11_23 (_x : Fin 36 → ℝ) : (0 : ℝ) = ((0 : V3)) 2 := by simp [Pi.zero_apply]
theorem e12_18 (_x : Fin 36 → ℝ) : (0 : ℝ) = ((0 : V3)) 0 := by simp [Pi.zero_apply]
theorem e12_19 (_x : Fin 36 → ℝ) : (0 : ℝ) = ((0 : V3)) 1 := by simp [Pi.zero_apply]
theorem e12_20 (_x : Fin 36 → ℝ) : (0 : ℝ) = ((0 : V3)) 2 := by simp [Pi.zero_apply]
theorem e12_21 (_x : Fin 36 → ℝ) : (0 : ℝ) = ((0 : V3)) 0 := by simp [Pi.zero_apply]
theorem e12_22 (_x : Fin 36 → ℝ) : (0 : ℝ) = ((0 : V3)) 1 := by simp [Pi.zero_apply]
theorem e12_23 (_x : Fin 36 → ℝ) : (0 : ℝ) = ((0 : V3)) 2 := by simp [Pi.zero_apply]
theorem e13_18 (_x : Fin 36 → ℝ) : (0 : ℝ) = ((0 : V3)) 0 := by simp [Pi.zero_apply]
theorem e13_19 (_x : Fin 36 → ℝ) : (0 : ℝ) = ((0 : V3)) 1 := by simp [Pi.zero_apply]
theorem e13_20 (_x : Fin 36 → ℝ) : (0 : ℝ) = ((0 : V3)) 2 := by simp [Pi.zero_apply]
theorem e13_21 (_x : Fin 36 → ℝ) : (0 : ℝ) = ((0 : V3)) 0 := by simp [Pi.zero_apply]
theorem e13_22 (_x : Fin 36 → ℝ) : (0 : ℝ) = ((0 : V3)) 1 := by simp [Pi.zero_apply]
theorem e13_23 (_x : Fin 36 → ℝ) : (0 : ℝ) = ((0 : V3)) 2 := by simp [Pi.zero_apply]
theorem e14_18 (_x : Fin 36 → ℝ) : (0 : ℝ) = ((0 : V3)) 0 := by simp [Pi.zero_apply]
theorem e14_19 (_x : Fin 36 → ℝ) : (0 : ℝ) = ((0 : V3)) 1 := by simp [Pi.zero_apply]
theorem e14_20 (_x : Fin 36 → ℝ) : (0 : ℝ) = ((0 : V3)) 2 := by simp [Pi.zero_apply]
theorem e14_21 (_x : Fin 36 → ℝ) : (0 : ℝ) = ((0 : V3)) 0 := by simp [Pi.zero_apply]
theorem e14_22 (_x : Fin 36 → ℝ) : (0 : ℝ) = ((0 : V3)) 1 := by simp [Pi.zero_apply]
theorem e14_23 (_x : Fin 36 → ℝ) : (0 : ℝ) = ((0 : V3)) 2 := by simp [Pi.zero_apply]
theorem e15_18 (x : Fin 36 → ℝ) : l1352 x = (quatMatrix (Qe x) *ᵥ jcol 3 0 x) 0 := by
  simp only [l528, l543, l551, l553, l555, l557, l1342, l1343, l1344, l1345, l1346, l1347, l1348, l1349, l1350, l1351, l1352,
    h527, h540, h542, h547, mv_0, mv_1, mv_2, qm_00, qm_01, qm_02, qm_10, qm_11, qm_12, qm_20, qm_21, qm_22, jcol, jac, jm_00, jm_01, jm_02, jm_10, jm_11, jm_12, jm_20, jm_21, jm_22, side_3, th_3_0, th_3_1, th_3_2, segA, segB, segC, segD, segH, Pi.add_apply, cr_0, cr_1, cr_2, djm_0_00, djm_0_01, djm_0_02, djm_0_10, djm_0_11, djm_0_12, djm_0_20, djm_0_21, djm_0_22, qd_3_0, qd_3_1, qd_3_2, om_0, om_1, om_2] <;> ring
theorem e15_19 (x : Fin 36 → ℝ) : l1359 x = (quatMatrix (Qe x) *ᵥ jcol 3 0 x) 1 := by
  simp only [l528, l551, l553, l555, l557, l576, l1345, l1346, l1350, l1351, l1353, l1354, l1355, l1356, l1357, l1358, l1359,
    h527, h540, h542, h547, mv_0, mv_1, mv_2, qm_00, qm_01, qm_02, qm_10, qm_11, qm_12, qm_20, qm_21, qm_22, jcol, jac, jm_00, jm_01, jm_02, jm_10, jm_11, jm_12, jm_20, jm_21, jm_22, side_3, th_3_0, th_3_1, th_3_2, segA, segB, segC, segD, segH, Pi.add_apply, cr_0, cr_1, cr_2, djm_0_00, djm_0_01, djm_0_02, djm_0_10, djm_0_11, djm_0_12, djm_0_20, djm_0_21, djm_0_22, qd_3_0, qd_3_1, qd_3_2, om_0, om_1, om_2] <;> ring
theorem e15_20 (x : Fin 36 → ℝ) : l1363 x = (quatMatrix (Qe x) *ᵥ jcol 3 0 x) 2 := by
  simp only [l528, l543, l551, l553, l555, l557, l576, l1345, l1346, l1350, l1351, l1353, l1354, l1357, l1360, l1361, l1362,
    l1363, h527, h540, h542, h547, mv_0, mv_1, mv_2, qm_00, qm_01, qm_02, qm_10, qm_11, qm_12, qm_20, qm_21, qm_22, jcol, jac, jm_00, jm_01, jm_02, jm_10, jm_11, jm_12, jm_20, jm_21, jm_22, side_3, th_3_0, th_3_1, th_3_2, segA, segB, segC, segD, segH, Pi.add_apply, cr_0, cr_1, cr_2, djm_0_00, djm_0_01, djm_0_02, djm_0_10, djm_0_11, djm_0_12, djm_0_20, djm_0_21, djm_0_22, qd_3_0, qd_3_1, qd_3_2, om_0, om_1, om_2] <;> ring
theorem e15_21 (x : Fin 36 → ℝ) : l1385 x = (quatMatrix (Qe x) *ᵥ (djm (side 3) 0 (th 3 x) *ᵥ qd 3 x + cross (om x) (jcol 3 0 x))) 0 := by
  simp only [l551, l553, l555, l557, l594, l609, l1345, l1350, l1364, l1365, l1366, l1368, l1369, l1370, l1371, l1372, l1373,
    l1374, l1377, l1378, l1379, l1380, l1381, l1384, l1385, h593, h606, h608, h613, mv_0, mv_1, mv_2, qm_00, qm_01, qm_02, qm_10, qm_11, qm_12, qm_20, qm_21, qm_22, jcol, jac, jm_00, jm_01, jm_02, jm_10, jm_11, jm_12, jm_20, jm_21, jm_22, side_3, th_3_0, th_3_1, th_3_2, segA, segB, segC, segD, segH, Pi.add_apply, cr_0, cr_1, cr_2, djm_0_00, djm_0_01, djm_0_02, djm_0_10, djm_0_11, djm_0_12, djm_0_20, djm_0_21, djm_0_22, qd_3_0, qd_3_1, qd_3_2, om_0, om_1, om_2] <;> ring
theorem e15_22 (x : Fin 36 → ℝ) : l1392 x = (quatMatrix (Qe x) *ᵥ (djm (side 3) 0 (th 3 x) *ᵥ qd 3 x + cross (om x) (jcol 3 0 x))) 1 := by
  simp only [l551, l553, l555, l557, l594, l609, l677, l1345, l1350, l1368, l1369, l1370, l1371, l1372, l1373, l1375, l1377,
    l1378, l1379, l1384, l1386, l1387, l1388, l1390, l1391, l1392, h593, h606, h608, h613, mv_0, mv_1, mv_2, qm_00, qm_01, qm_02, qm_10, qm_11, qm_12, qm_20, qm_21, qm_22, jcol, jac, jm_00, jm_01, jm_02, jm_10, jm_11, jm_12, jm_20, jm_21, jm_22, side_3, th_3_0, th_3_1, th_3_2, segA, segB, segC, segD, segH, Pi.add_apply, cr_0, cr_1, cr_2, djm_0_00, djm_0_01, djm_0_02, djm_0_10, djm_0_11, djm_0_12, djm_0_20, djm_0_21, djm_0_22, qd_3_0, qd_3_1, qd_3_2, om_0, om_1, om_2] <;> ring
theorem e15_23 (x : Fin 36 → ℝ) : l1394 x = (quatMatrix (Qe x) *ᵥ (djm (side 3) 0 (th 3 x) *ᵥ qd 3 x + cross (om x) (jcol 3 0 x))) 2 := by
  simp only [l551, l553, l555, l557, l594, l609, l677, l1345, l1350, l1364, l1365, l1367, l1368, l1369, l1370, l1371, l1377,
    l1378, l1380, l1384, l1386, l1387, l1389, l1390, l1393, l1394, h593, h606, h608, h613, mv_0, mv_1, mv_2, qm_00, qm_01, qm_02, qm_10, qm_11, qm_12, qm_20, qm_21, qm_22, jcol, jac, jm_00, jm_01, jm_02, jm_10, jm_11, jm_12, jm_20, jm_21, jm_22, side_3, th_3_0, th_3_1, th_3_2, segA, segB, segC, segD, segH, Pi.add_apply, cr_0, cr_1, cr_2, djm_0_00, djm_0_01, djm_0_02, djm_0_10, djm_0_11, djm_0_12, djm_0_20, djm_0_21, djm_0_22, qd_3_0, qd_3_1, qd_3_2, om_0, om_1, om_2] <;> ring
theorem e16_18 (x : Fin 36 → ℝ) : l1407 x = (quatMatrix (Qe x) *ᵥ jcol 3 1 x) 0 := by
  simp only [l528, l543, l549, l550, l553, l554, l557, l558, l562, l563, l565, l567, l1342, l1343, l1344, l1347, l1348, l1349,
    l1356, l1360, l1401, l1402, l1403, l1404, l1405, l1406, l1407, h527, h540, h542, h547, mv_0, mv_1, mv_2, qm_00, qm_01, qm_02, qm_10, qm_11, qm_12, qm_20, qm_21, qm_22, jcol, jac, jm_00, jm_01, jm_02, jm_10, jm_11, jm_12, jm_20, jm_21, jm_22, side_3, th_3_0, th_3_1, th_3_2, segA, segB, segC, segD, segH, Pi.add_apply, cr_0, cr_1, cr_2, djm_1_00, djm_1_01, djm_1_02, djm_1_10, djm_1_11, djm_1_12, djm_1_20, djm_1_21, djm_1_22, qd_3_0, qd_3_1, qd_3_2, om_0, om_1, om_2] <;> ring
theorem e16_19 (x : Fin 36 → ℝ) : l1409 x = (quatMatrix (Qe x) *ᵥ jcol 3 1 x) 1 := by
  simp only [l528, l543, l549, l550, l553, l554, l557, l558, l562, l563, l565, l567, l576, l1347, l1348, l1353, l1354, l1355,
    l1356, l1357, l1358, l1401, l1402, l1403, l1404, l1406, l1408, l1409, h527, h540, h542, h547, mv_0, mv_1, mv_2, qm_00, qm_01, qm_02, qm_10, qm_11, qm_12, qm_20, qm_21, qm_22, jcol, jac, jm_00, jm_01, jm_02, jm_10, jm_11, jm_12, jm_20, jm_21, jm_22, side_3, th_3_0, th_3_1, th_3_2, segA, segB, segC, segD, segH, Pi.add_apply, cr_0, cr_1, cr_2, djm_1_00, djm_1_01, djm_1_02, djm_1_10, djm_1_11, djm_1_12, djm_1_20, djm_1_21, djm_1_22, qd_3_0, qd_3_1, qd_3_2, om_0, om_1, om_2] <;> ring
theorem e16_20 (x : Fin 36 → ℝ) : l1411 x = (quatMatrix (Qe x) *ᵥ jcol 3 1 x) 2 := by
  simp only [l528, l543, l549, l550, l553, l554, l557, l558, l562, l563, l565, l567, l576, l1342, l1343, l1353, l1354, l1357,
    l1360, l1361, l1362, l1401, l1402, l1403, l1404, l1406, l1410, l1411, h527, h540, h542, h547, mv_0, mv_1, mv_2, qm_00, qm_01, qm_02, qm_10, qm_11, qm_12, qm_20, qm_21, qm_22, jcol, jac, jm_00, jm_01, jm_02, jm_10, jm_11, jm_12, jm_20, jm_21, jm_22, side_3, th_3_0, th_3_1, th_3_2, segA, segB, segC, segD, segH, Pi.add_apply, cr_0, cr_1, cr_2, djm_1_00, djm_1_01, djm_1_02, djm_1_10, djm_1_11, djm_1_12, djm_1_20, djm_1_21, djm_1_22, qd_3_0, qd_3_1, qd_3_2, om_0, om_1, om_2] <;> ring
theorem e16_21 (x : Fin 36 → ℝ) : l1418 x = (quatMatrix (Qe x) *ᵥ (djm (side 3) 1 (th 3 x) *ᵥ qd 3 x + cross (om x) (jcol 3 1 x))) 0 := by
  simp only [l549, l553, l557, l562, l594, l609, l615, l617, l621, l623, l625, l627, l629, l631, l633, l635, l643, l645, l649,
    l651, l653, l655, l657, l659, l661, l663, l1364, l1365, l1366, l1372, l1373, l1374, l1379, l1380, l1381, l1401, l1402, l1412, l1413, l1414, l1415, l1416, l1417, l1418, h593, h606, h608, h613, mv_0, mv_1, mv_2, qm_00, qm_01, qm_02, qm_10, qm_11, qm_12, qm_20, qm_21, qm_22, jcol, jac, jm_00, jm_01, jm_02, jm_10, jm_11, jm_12, jm_20, jm_21, jm_22, side_3, th_3_0, th_3_1, th_3_2, segA, segB, segC, segD, segH, Pi.add_apply, cr_0, cr_1, cr_2, djm_1_00, djm_1_01, djm_1_02, djm_1_10, djm_1_11, djm_1_12, djm_1_20, djm_1_21, djm_1_22, qd_3_0, qd_3_1, qd_3_2, om_0, om_1, om_2] <;> ring
theorem e16_22 (x : Fin 36 → ℝ) : l1419 x = (quatMatrix (Qe x) *ᵥ (djm (side 3) 1 (th 3 x) *ᵥ qd 3 x + cross (om x) (jcol 3 1 x))) 1 := by
  simp only [l549, l553, l557, l562, l594, l609, l615, l617, l621, l623, l625, l627, l629, l631, l633, l635, l643, l645, l649,
    l651, l653, l655, l657, l659, l661, l663, l677, l1372, l1373, l1375, l1379, l1386, l1387, l1388, l1390, l1391, l1401, l1402, l1412, l1413, l1414, l1415, l1416, l1417, l1419, h593, h606, h608, h613, mv_0, mv_1, mv_2, qm_00, qm_01, qm_02, qm_10, qm_11, qm_12, qm_20, qm_21, qm_22, jcol, jac, jm_00, jm_01, jm_02, jm_10, jm_11, jm_12, jm_20, jm_21, jm_22, side_3, th_3_0, th_3_1, th_3_2, segA, segB, segC, segD, segH, Pi.add_apply, cr_0, cr_1, cr_2, djm_1_00, djm_1_01, djm_1_02, djm_1_10, djm_1_11, djm_1_12, djm_1_20, djm_1_21, djm_1_22, qd_3_0, qd_3_1, qd_3_2, om_0, om_1, om_2] <;> ring
theorem e16_23 (x : Fin 36 → ℝ) : l1420 x = (quatMatrix (Qe x) *ᵥ (djm (side 3) 1 (th 3 x) *ᵥ qd 3 x + cross (om x) (jcol 3 1 x))) 2 := by
  simp only [l549, l553, l557, l562, l594, l609, l615, l617, l621, l623, l625, l627, l629, l631, l633, l635, l643, l645, l649,
    l651, l653, l655, l657, l659, l661, l663, l677, l1364, l1365, l1367, l1380, l1386, l1387, l1389, l1390, l1393, l1401, l1402, l1412, l1413, l1414, l1415, l1416, l1417, l1420, h593, h606, h608, h613, mv_0, mv_1, mv_2, qm_00, qm_01, qm_02, qm_10, qm_11, qm_12, qm_20, qm_21, qm_22, jcol, jac, jm_00, jm_01, jm_02, jm_10, jm_11, jm_12, jm_20, jm_21, jm_22, side_3, th_3_0, th_3_1, th_3_2, segA, segB, segC, segD, segH, Pi.add_apply, cr_0, cr_1, cr_2, djm_1_00, djm_1_01, djm_1_02, djm_1_10, djm_1_11, djm_1_12, djm_1_20, djm_1_21, djm_1_22, qd_3_0, qd_3_1, qd_3_2, om_0, om_1, om_2] <;> ring
theorem e17_18 (x : Fin 36 → ℝ) : l1426 x = (quatMatrix (Qe x) *ᵥ jcol 3 2 x) 0 := by
  simp only [l528, l543, l549, l550, l551, l552, l554, l555, l556, l562, l563, l564, l565, l566, l571, l572, l1342, l1343, l1344,
    l1347, l1348, l1349, l1356, l1360, l1405, l1421, l1422, l1423, l1424, l1425, l1426, h527, h540, h542, h547, mv_0, mv_1, mv_2, qm_00, qm_01, qm_02, qm_10, qm_11, qm_12, qm_20, qm_21, qm_22, jcol, jac, jm_00, jm_01, jm_02, jm_10, jm_11, jm_12, jm_20, jm_21, jm_22, side_3, th_3_0, th_3_1, th_3_2, segA, segB, segC, segD, segH, Pi.add_apply, cr_0, cr_1, cr_2, djm_2_00, djm_2_01, djm_2_02, djm_2_10, djm_2_11, djm_2_12, djm_2_20, djm_2_21, djm_2_22, qd_3_0, qd_3_1, qd_3_2, om_0, om_1, om_2] <;> ring
theorem e17_19 (x : Fin 36 → ℝ) : l1427 x = (quatMatrix (Qe x) *ᵥ jcol 3 2 x) 1 := by
  simp only [l528, l543, l549, l550, l551, l552, l554, l555, l556, l562, l563, l564, l565, l566, l571, l572, l576, l1347, l1348,
    l1353, l1354, l1355, l1356, l1357, l1358, l1408, l1421, l1422, l1423, l1424, l1425, l1427, h527, h540, h542, h547, mv_0, mv_1, mv_2, qm_00, qm_01, qm_02, qm_10, qm_11, qm_12, qm_20, qm_21, qm_22, jcol, jac, jm_00, jm_01, jm_02, jm_10, jm_11, jm_12, jm_20, jm_21, jm_22, side_3, th_3_0, th_3_1, th_3_2, segA, segB, segC, segD, segH, Pi.add_apply, cr_0, cr_1, cr_2, djm_2_00, djm_2_01, djm_2_02, djm_2_10, djm_2_11, djm_2_12, djm_2_20, djm_2_21, djm_2_22, qd_3_0, qd_3_1, qd_3_2, om_0, om_1, om_2] <;> ring
theorem e17_20 (x : Fin 36 → ℝ) : l1428 x = (quatMatrix (Qe x) *ᵥ jcol 3 2 x) 2 := by
  simp only [l528, l543, l549, l550, l551, l552, l554, l555, l556, l562, l563, l564, l565, l566, l571, l572, l576, l1342, l1343,
    l1353, l1354, l1357, l1360, l1361, l1362, l1410, l1421, l1422, l1423, l1424, l1425, l1428, h527, h540, h542, h547, mv_0, mv_1, mv_2, qm_00, qm_01, qm_02, qm_10, qm_11, qm_12, qm_20, qm_21, qm_22, jcol, jac, jm_00, jm_01, jm_02, jm_10, jm_11, jm_12, jm_20, jm_21, jm_22, side_3, th_3_0, th_3_1, th_3_2, segA, segB, segC, segD, segH, Pi.add_apply, cr_0, cr_1, cr_2, djm_2_00, djm_2_01, djm_2_02, djm_2_10, djm_2_11, djm_2_12, djm_2_20, djm_2_21, djm_2_22, qd_3_0, qd_3_1, qd_3_2, om_0, om_1, om_2] <;> ring
theorem e17_21 (x : Fin 36 → ℝ) : l1435 x = (quatMatrix (Qe x) *ᵥ (djm (side 3) 2 (th 3 x) *ᵥ qd 3 x + cross (om x) (jcol 3 2 x))) 0 := by
  simp only [l549, l551, l555, l562, l594, l609, l615, l616, l617, l618, l620, l621, l622, l625, l626, l627, l628, l631, l632,
    l633, l634, l637, l638, l643, l644, l645, l646, l648, l649, l650, l653, l654, l655, l656, l659, l660, l661, l662, l668, l669, l671, l672, l1364, l1365, l1366, l1372, l1373, l1374, l1379, l1380, l1381, l1421, l1422, l1429, l1430, l1431, l1432, l1433, l1434, l1435, h593, h606, h608, h613, mv_0, mv_1, mv_2, qm_00, qm_01, qm_02, qm_10, qm_11, qm_12, qm_20, qm_21, qm_22, jcol, jac, jm_00, jm_01, jm_02, jm_10, jm_11, jm_12, jm_20, jm_21, jm_22, side_3, th_3_0, th_3_1, th_3_2, segA, segB, segC, segD, segH, Pi.add_apply, cr_0, cr_1, cr_2, djm_2_00, djm_2_01, djm_2_02, djm_2_10, djm_2_11, djm_2_12, djm_2_20, djm_2_21, djm_2_22, qd_3_0, qd_3_1, qd_3_2, om_0, om_1, om_2] <;> ring
theorem e17_22 (x : Fin 36 → ℝ) : l1436 x = (quatMatrix (Qe x) *ᵥ (djm (side 3) 2 (th 3 x) *ᵥ qd 3 x + cross (om x) (jcol 3 2 x))) 1 := by
  simp only [l549, l551, l555, l562, l594, l609, l615, l616, l617, l618, l620, l621, l622, l625, l626, l627, l628, l631, l632,
    l633, l634, l637, l638, l643, l644, l645, l646, l648, l649, l650, l653, l654, l655, l656, l659, l660, l661, l662, l668, l669, l671, l672, l677, l1372, l1373, l1375, l1379, l1386, l1387, l1388, l1390, l1391, l1421, l1422, l1429, l1430, l1431, l1432, l1433, l1434, l1436, h593, h606, h608, h613, mv_0, mv_1, mv_2, qm_00, qm_01, qm_02, qm_10, qm_11, qm_12, qm_20, qm_21, qm_22, jcol, jac, jm_00, jm_01, jm_02, jm_10, jm_11, jm_12, jm_20, jm_21, jm_22, side_3, th_3_0, th_3_1, th_3_2, segA, segB, segC, segD, segH, Pi.add_apply, cr_0, cr_1, cr_2, djm_2_00, djm_2_01, djm_2_02, djm_2_10, djm_2_11, djm_2_12, djm_2_20, djm_2_21, djm_2_22, qd_3_0, qd_3_1, qd_3_2, om_0, om_1, om_2] <;> ring
theorem e17_23 (x : Fin 36 → ℝ) : l1437 x = (quatMatrix (Qe x) *ᵥ (djm (side 3) 2 (th 3 x) *ᵥ qd 3 x + cross (om x) (jcol 3 2 x))) 2 := by
  simp only [l549, l551, l555, l562, l594, l609, l615, l616, l617, l618, l620, l621, l622, l625, l626, l627, l628, l631, l632,
    l633, l634, l637, l638, l643, l644, l645, l646, l648, l649, l650, l653, l654, l655, l656, l659, l660, l661, l662, l668, l669, l671, l672, l677, l1364, l1365, l1367, l1380, l1386, l1387, l1389, l1390, l1393, l1421, l1422, l1429, l1430, l1431, l1432, l1433, l1434, l1437, h593, h606, h608, h613, mv_0, mv_1, mv_2, qm_00, qm_01, qm_02, qm_10, qm_11, qm_12, qm_20, qm_21, qm_22, jcol, jac, jm_00, jm_01, jm_02, jm_10, jm_11, jm_12, jm_20, jm_21, jm_22, side_3, th_3_0, th_3_1, th_3_2, segA, segB, segC, segD, segH, Pi.add_apply, cr_0, cr_1, cr_2, djm_2_00, djm_2_01, djm_2_02, djm_2_10, djm_2_11, djm_2_12, djm_2_20, djm_2_21, djm_2_22, qd_3_0, qd_3_1, qd_3_2, om_0, om_1, om_2] <;> ring
theorem e18_18 (_x : Fin 36 → ℝ) : (0 : ℝ) = ((0 : V3)) 0 := by simp [Pi.zero_apply]
theorem e18_19 (_x : Fin 36 → ℝ) : (0 : ℝ) = ((0 : V3)) 1 := by simp [Pi.zero_apply]
theorem e18_20 (_x : Fin 36 → ℝ) : (0 : ℝ) = ((0 : V3)) 2 := by simp [Pi.zero_apply]
theorem e18_21 (x : Fin 36 → ℝ) : l1451 x = (quatMatrix (Qe x) *ᵥ cross (Pi.single 0 1) (foot 3 x)) 0 := by
  simp only [l549, l551, l553, l555, l557, l562, l594, l609, l631, l632, l633, l634, l635, l636, l659, l660, l661, l662, l663,
    l664, l1364, l1365, l1366, l1372, l1373, l1374, l1450, l1451, h593, h606, h608, h613, mv_0, mv_1, mv_2, qm_00, qm_01, qm_02, qm_10, qm_11, qm_12, qm_20, qm_21, qm_22, cr_0, cr_1, cr_2, E_0_0, E_0_1, E_0_2, foot, pv_0, pv_1, pv_2, side_3, mountX_3, mountY_3, th_3_0, th_3_1, th_3_2, segA, segB, segC, segD, segH] <;> ring
theorem e18_22 (x : Fin 36 → ℝ) : l1452 x = (quatMatrix (Qe x) *ᵥ cross (Pi.single 0 1) (foot 3 x)) 1 := by
  simp only [l549, l551, l553, l555, l557, l562, l594, l631, l632, l633, l634, l635, l636, l659, l660, l661, l662, l663, l664,
    l677, l1379, l1386, l1387, l1388, l1390, l1391, l1450, l1452, h593, h606, h608, h613, mv_0, mv_1, mv_2, qm_00, qm_01, qm_02, qm_10, qm_11, qm_12, qm_20, qm_21, qm_22, cr_0, cr_1, cr_2, E_0_0, E_0_1, E_0_2, foot, pv_0, pv_1, pv_2, side_3, mountX_3, mountY_3, th_3_0, th_3_1, th_3_2, segA, segB, segC, segD, segH] <;> ring
theorem e18_23 (x : Fin 36 → ℝ) : l1453 x = (quatMatrix (Qe x) *ᵥ cross (Pi.single 0 1) (foot 3 x)) 2 := by
  simp only [l549, l551, l553, l555, l557, l562, l594, l609, l631, l632, l633, l634, l635, l636, l659, l660, l661, l662, l663,
    l664, l677, l1380, l1386, l1387, l1389, l1390, l1393, l1450, l1453, h593, h606, h608, h613, mv_0, mv_1, mv_2, qm_00, qm_01, qm_02, qm_10, qm_11, qm_12, qm_20, qm_21, qm_22, cr_0, cr_1, cr_2, E_0_0, E_0_1, E_0_2, foot, pv_0, pv_1, pv_2, side_3, mountX_3, mountY_3, th_3_0, th_3_1, th_3_2, segA, segB, segC, segD, segH] <;> ring
theorem e19_18 (_x : Fin 36 → ℝ) : (0 : ℝ) = ((0 : V3)) 0 := by simp [Pi.zero_apply]
theorem e19_19 (_x : Fin 36 → ℝ) : (0 : ℝ) = ((0 : V3)) 1 := by simp [Pi.zero_apply]
theorem e19_20 (_x : Fin 36 → ℝ) : (0 : ℝ) = ((0 : V3)) 2 := by simp [Pi.zero_apply]
theorem e19_21 (x : Fin 36 → ℝ) : l1467 x = (quatMatrix (Qe x) *ᵥ cross (Pi.single 1 1) (foot 3 x)) 0 := by
  simp only [l549, l551, l553, l555, l557, l594, l609, l637, l638, l639, l659, l660, l661, l662, l663, l664, l1364, l1365, l1366,
    l1379, l1380, l1381, l1466, l1467, h593, h606, h608, h613, mv_0, mv_1, mv_2, qm_00, qm_01, qm_02, qm_10, qm_11, qm_12, qm_20, qm_21, qm_22, cr_0, cr_1, cr_2, E_1_0, E_1_1, E_1_2, foot, pv_0, pv_1, pv_2, side_3, mountX_3, mountY_3, th_3_0, th_3_1, th_3_2, segA, segB, segC, segD, segH] <;> ring
theorem e19_22 (x : Fin 36 → ℝ) : l1468 x = (quatMatrix (Qe x) *ᵥ cross (Pi.single 1 1) (foot 3 x)) 1 := by
  simp only [l549, l551, l553, l555, l557, l594, l609, l637, l638, l639, l659, l660, l661, l662, l663, l664, l677, l1372, l1373,
    l1375, l1386, l1387, l1388, l1466, l1468, h593, h606, h608, h613, mv_0, mv_1, mv_2, qm_00, qm_01, qm_02, qm_10, qm_11, qm_12, qm_20, qm_21, qm_22, cr_0, cr_1, cr_2, E_1_0, E_1_1, E_1_2, foot, pv_0, pv_1, pv_2, side_3, mountX_3, mountY_3, th_3_0, th_3_1, th_3_2, segA, segB, segC, segD, segH] <;> ring
theorem e19_23 (x : Fin 36 → ℝ) : l1469 x = (quatMatrix (Qe x) *ᵥ cross (Pi.single 1 1) (foot 3 x)) 2 := by
  simp only [l549, l551, l553, l555, l557, l594, l609, l637, l638, l639, l659, l660, l661, l662, l663, l664, l677, l1364, l1365,
    l1367, l1380, l1390, l1393, l1466, l1469, h593, h606, h608, h613, mv_0, mv_1, mv_2, qm_00, qm_01, qm_02, qm_10, qm_11, qm_12, qm_20, qm_21, qm_22, cr_0, cr_1, cr_2, E_1_0, E_1_1, E_1_2, foot, pv_0, pv_1, pv_2, side_3, mountX_3, mountY_3, th_3_0, th_3_1, th_3_2, segA, segB, segC, segD, segH] <;> ring
theorem e20_18 (_x : Fin 36 → ℝ) : (0 : ℝ) = ((0 : V3)) 0 := by simp [Pi.zero_apply]
theorem e20_19 (_x : Fin 36 → ℝ) : (0 : ℝ) = ((0 : V3)) 1 := by simp [Pi.zero_apply]
theorem e20_20 (_x : Fin 36 → ℝ) : (0 : ℝ) = ((0 : V3)) 2 := by simp [Pi.zero_apply]
theorem e20_21 (x : Fin 36 → ℝ) : l1483 x = (quatMatrix (Qe x) *ᵥ cross (Pi.single 2 1) (foot 3 x)) 0 := by
  simp only [l551, l553, l555, l557, l562, l594, l609, l631, l632, l633, l634, l635, l636, l637, l638, l639, l1372, l1373, l1374,
    l1379, l1380, l1381, l1482, l1483, h593, h606, h608, h613, mv_0, mv_1, mv_2, qm_00, qm_01, qm_02, qm_10, qm_11, qm_12, qm_20, qm_21, qm_22, cr_0, cr_1, cr_2, E_2_0, E_2_1, E_2_2, foot, pv_0, pv_1, pv_2, side_3, mountX_3, mountY_3, th_3_0, th_3_1, th_3_2, segA, segB, segC, segD, segH] <;> ring
theorem e20_22 (x : Fin 36 → ℝ) : l1484 x = (quatMatrix (Qe x) *ᵥ cross (Pi.single 2 1) (foot 3 x)) 1 := by
  simp only [l551, l553, l555, l557, l562, l594, l609, l631, l632, l633, l634, l635, l636, l637, l638, l639, l677, l1372, l1373,
    l1375, l1379, l1390, l1391, l1482, l1484, h593, h606, h608, h613, mv_0, mv_1, mv_2, qm_00, qm_01, qm_02, qm_10, qm_11, qm_12, qm_20, qm_21, qm_22, cr_0, cr_1, cr_2, E_2_0, E_2_1, E_2_2, foot, pv_0, pv_1, pv_2, side_3, mountX_3, mountY_3, th_3_0, th_3_1, th_3_2, segA, segB, segC, segD, segH] <;> ring
theorem e20_23 (x : Fin 36 → ℝ) : l1485 x = (quatMatrix (Qe x) *ᵥ cross (Pi.single 2 1) (foot 3 x)) 2 := by
  simp only [l551, l553, l555, l557, l562, l594, l609, l631, l632, l633, l634, l635, l636, l637, l638, l639, l677, l1364, l1365,
    l1367, l1386, l1387, l1389, l1482, l1485, h593, h606, h608, h613, mv_0, mv_1, mv_2, qm_00, qm_01, qm_02, qm_10, qm_11, qm_12, qm_20, qm_21, qm_22, cr_0, cr_1, cr_2, E_2_0, E_2_1, E_2_2, foot, pv_0, pv_1, pv_2, side_3, mountX_3, mountY_3, th_3_0, th_3_1, th_3_2, segA, segB, segC, segD, segH] <;> ring
theorem e21_18 (_x : Fin 36 → ℝ) : (0 : ℝ) = ((0 : V3)) 0 := by simp [Pi.zero_apply]
theorem e21_19 (_x : Fin 36 → ℝ) : (0 : ℝ) = ((0 : V3)) 1 := by simp [Pi.zero_apply]
theorem e21_20 (_x : Fin 36 → ℝ) : (0 : ℝ) = ((0 : V3)) 2 := by simp [Pi.zero_apply]
theorem e21_21 (x : Fin 36 → ℝ) : l1381 x = (quatMatrix (Qe x) *ᵥ Pi.single 0 1) 0 := by
  simp only [l594, l609, l1379, l1380, l1381, h593, h608, mv_0, mv_1, mv_2, qm_00, qm_01, qm_02, qm_10, qm_11, qm_12, qm_20,
    qm_21, qm_22, E_0_0, E_0_1, E_0_2] <;> ring
theorem e21_22 (x : Fin 36 → ℝ) : l1375 x = (quatMatrix (Qe x) *ᵥ Pi.single 0 1) 1 := by
  simp only [l594, l609, l1372, l1373, l1375, h593, h606, h608, h613, mv_0, mv_1, mv_2, qm_00, qm_01, qm_02, qm_10, qm_11, qm_12,
    qm_20, qm_21, qm_22, E_0_0, E_0_1, E_0_2] <;> ring
theorem e21_23 (x : Fin 36 → ℝ) : l1367 x = (quatMatrix (Qe x) *ᵥ Pi.single 0 1) 2 := by
  simp only [l594, l609, l1364, l1365, l1367, h593, h606, h608, h613, mv_0, mv_1, mv_2, qm_00, qm_01, qm_02, qm_10, qm_11, qm_12,
    qm_20, qm_21, qm_22, E_0_0, E_0_1, E_0_2] <;> ring
theorem e22_18 (_x : Fin 36 → ℝ) : (0 : ℝ) = ((0 : V3)) 0 := by simp [Pi.zero_apply]
theorem e22_19 (_x : Fin 36 → ℝ) : (0 : ℝ) = ((0 : V3)) 1 := by simp [Pi.zero_apply]
theorem e22_20 (_x : Fin 36 → ℝ) : (0 : ℝ) = ((0 : V3)) 2 := by simp [Pi.zero_apply]
theorem e22_21 (x : Fin 36 → ℝ) : l1374 x = (quatMatrix (Qe x) *ᵥ Pi.single 1 1) 0 := by
  simp only [l594, l609, l1372, l1373, l1374, h593, h606, h608, h613, mv_0, mv_1, mv_2, qm_00, qm_01, qm_02, qm_10, qm_11, qm_12,
    qm_20, qm_21, qm_22, E_1_0, E_1_1, E_1_2] <;> ring
theorem e22_22 (x : Fin 36 → ℝ) : l1391 x = (quatMatrix (Qe x) *ᵥ Pi.single 1 1) 1 := by
  simp only [l594, l677, l1379, l1390, l1391, h593, h606, mv_0, mv_1, mv_2, qm_00, qm_01, qm_02, qm_10, qm_11, qm_12, qm_20,
    qm_21, qm_22, E_1_0, E_1_1, E_1_2] <;> ring
theorem e22_23 (x : Fin 36 → ℝ) : l1389 x = (quatMatrix (Qe x) *ᵥ Pi.single 1 1) 2 := by
  simp only [l594, l677, l1386, l1387, l1389, h593, h606, h608, h613, mv_0, mv_1, mv_2, qm_00, qm_01, qm_02, qm_10, qm_11, qm_12,
    qm_20, qm_21, qm_22, E_1_0, E_1_1, E_1_2] <;> ring
theorem e23_18 (_x : Fin 36 → ℝ) : (0 : ℝ) = ((0 : V3)) 0 := by simp [Pi.zero_apply]
theorem e23_19 (_x : Fin 36 → ℝ) : (0 : ℝ) = ((0 : V3)) 1 := by simp [Pi.zero_apply]
theorem e23_20 (_x : Fin 36 → ℝ) : (0 : ℝ) = ((0 : V3)) 2 := by simp [Pi.zero_apply]
theorem e23_21 (x : Fin 36 → ℝ) : l1366 x = (quatMatrix (Qe x) *ᵥ Pi.single 2 1) 0 := by
  simp only [l594, l609, l1364, l1365, l1366, h593, h606, h608, h613, mv_0, mv_1, mv_2, qm_00, qm_01, qm_02, qm_10, qm_11, qm_12,
    qm_20, qm_21, qm_22, E_2_0, E_2_1, E_2_2] <;> ring
theorem e23_22 (x : Fin 36 → ℝ) : l1388 x = (quatMatrix (Qe x) *ᵥ Pi.single 2 1) 1 := by
  simp only [l594, l677, l1386, l1387, l1388, h593, h606, h608, h613, mv_0, mv_1, mv_2, qm_00, qm_01, qm_02, qm_10, qm_11, qm_12,
    qm_20, qm_21, qm_22, E_2_0, E_2_1, E_2_2] <;> ring
theorem e23_23 (x : Fin 36 → ℝ) : l1393 x = (quatMatrix (Qe x) *ᵥ Pi.single 2 1) 2 := by
  simp only [l609, l677, l1380, l1390, l1393, h606, h608, mv_0, mv_1, mv_2, qm_00, qm_01, qm_02, qm_10, qm_11, qm_12, qm_20,
    qm_21, qm_22, E_2_0, E_2_1, E_2_2] <;> ring
theorem e24_18 (_x : Fin 36 → ℝ) : (0 : ℝ) = ((0 : V3)) 0 := by simp [Pi.zero_apply]
theorem e24_19 (_x : Fin 36 → ℝ) : (0 : ℝ) = ((0 : V3)) 1 := by simp [Pi.zero_apply]
theorem e24_20 (_x : Fin 36 → ℝ) : (0 : ℝ) = ((0 : V3)) 2 := by simp [Pi.zero_apply]
theorem e24_21 (_x : Fin 36 → ℝ) : (0 : ℝ) = ((0 : V3)) 0 := by simp [Pi.zero_apply]
theorem e24_22 (_x : Fin 36 → ℝ) : (0 : ℝ) = ((0 : V3)) 1 := by simp [Pi.zero_apply]
theorem e24_23 (_x : Fin 36 → ℝ) : (0 : ℝ) = ((0 : V3)) 2 := by simp [Pi.zero_apply]
theorem e25_18 (_x : Fin 36 → ℝ) : (0 : ℝ) = ((0 : V3)) 0 := by simp [Pi.zero_apply]
theorem e25_19 (_x : Fin 36 → ℝ) : (0 : ℝ) = ((0 : V3)) 1 := by simp [Pi.zero_apply]
theorem e25_20 (_x : Fin 36 → ℝ) : (0 : ℝ) = ((0 : V3)) 2 := by simp [Pi.zero_apply]
theorem e25_21 (_x : Fin 36 → ℝ) : (0 : ℝ) = ((0 : V3)) 0 := by simp [Pi.zero_apply]
theorem e25_22 (_x : Fin 36 → ℝ) : (0 : ℝ) = ((0 : V3)) 1 := by simp [Pi.zero_apply]
theorem e25_23 (_x : Fin 36 → ℝ) : (0 : ℝ) = ((0 : V3)) 2 := by simp [Pi.zero_apply]
theorem e26_18 (_x : Fin 36 → ℝ) : (0 : ℝ) = ((0 : V3)) 0 := by simp [Pi.zero_apply]
theorem e26_19 (_x : Fin 36 → ℝ) : (0 : ℝ) = ((0 : V3)) 1 := by simp [Pi.zero_apply]
theorem e26_20 (_x : Fin 36 → ℝ) : (0 : ℝ) = ((0 : V3)) 2 := by simp [Pi.zero_apply]
theorem e26_21 (_x : Fin 36 → ℝ) : (0 : ℝ) = ((0 : V3)) 0 := by simp [Pi.zero_apply]
theorem e26_22 (_x : Fin 36 → ℝ) : (0 : ℝ) = ((0 : V3)) 1 := by simp [Pi.zero_apply]
theorem e26_23 (_x : Fin 36 → ℝ) : (0 : ℝ) = ((0 : V3)) 2 := by simp [Pi.zero_apply]
theorem e27_18 (_x : Fin 36 → ℝ) : (0 : ℝ) = ((0 : V3)) 0 := by simp [Pi.zero_apply]
theorem e27_19 (_x : Fin 36 → ℝ) : (0 : ℝ) = ((0 : V3)) 1 := by simp [Pi.zero_apply]
theorem e27_20 (_x : Fin 36 → ℝ) : (0 : ℝ) = ((0 : V3)) 2 := by simp [Pi.zero_apply]
theorem e27_21 (_x : Fin 36 → ℝ) : (0 : ℝ) = ((0 : V3)) 0 := by simp [Pi.zero_apply]
theorem e27_22 (_x : Fin 36 → ℝ) : (0 : ℝ) = ((0 : V3)) 1 := by simp [Pi.zero_apply]
theorem e27_23 (_x : Fin 36 → ℝ) : (0 : ℝ) = ((0 : V3)) 2 := by simp [Pi.zero_apply]
theorem e28_18 (_x : Fin 36 → ℝ) : (0 : ℝ) = ((0 : V3)) 0 := by simp [Pi.zero_apply]
theorem e28_19 (_x : Fin 36 → ℝ) : (0 : ℝ) = ((0 : V3)) 1 := by simp [Pi.zero_apply]
theorem e28_20 (_x : Fin 36 → ℝ) : (0 : ℝ) = ((0 : V3)) 2 := by simp [Pi.zero_apply]
theorem e28_21 (_x : Fin 36 → ℝ) : (0 : ℝ) = ((0 : V3)) 0 := by simp [Pi.zero_apply]
theorem e28_22 (_x : Fin 36 → ℝ) : (0 : ℝ) = ((0 : V3)) 1 := by simp [Pi.zero_apply]
theorem e28_23 (_x : Fin 36 → ℝ) : (0 : ℝ) = ((0 : V3)) 2 := by simp [Pi.zero_apply]
theorem e29_18 (_x : Fin 36 → ℝ) : (0 : ℝ) = ((0 : V3)) 0 := by simp [Pi.zero_apply]
theorem e29_19 (_x : Fin 36 → ℝ) : (0 : ℝ) = ((0 : V3)) 1 := by simp [Pi.zero_apply]
theorem e29_20 (_x : Fin 36 → ℝ) : (0 : ℝ) = ((0 : V3)) 2 := by simp [Pi.zero_apply]
theorem e29_21 (_x : Fin 36 → ℝ) : (0 : ℝ) = ((0 : V3)) 0 := by simp [Pi.zero_apply]
theorem e29_22 (_x : Fin 36 → ℝ) : (0 : ℝ) = ((0 : V3)) 1 := by simp [Pi.zero_apply]
theorem e29_23 (_x : Fin 36 → ℝ) : (0 : ℝ) = ((0 : V3)) 2 := by simp [Pi.zero_apply]
theorem e30_18 (_x : Fin 36 → ℝ) : (0 : ℝ) = ((0 : V3)) 0 := by simp [Pi.zero_apply]
theorem e30_19 (_x : Fin 36 → ℝ) : (0 : ℝ) = ((0 : V3)) 1 := by simp [Pi.zero_apply]
theorem e30_20 (_x : Fin 36 → ℝ) : (0 : ℝ) = ((0 : V3)) 2 := by simp [Pi.zero_apply]
theorem e30_21 (_x : Fin 36 → ℝ) : (0 : ℝ) = ((0 : V3)) 0 := by simp [Pi.zero_apply]
theorem e30_22 (_x : Fin 36 → ℝ) : (0 : ℝ) = ((0 : V3)) 1 := by simp [Pi.zero_apply]
theorem e30_23 (_x : Fin 36 → ℝ) : (0 : ℝ) = ((0 : V3)) 2 := by simp [Pi.zero_apply]
theorem e31_18 (_x : Fin 36 → ℝ) : (0 : ℝ) = ((0 : V3)) 0 := by simp [Pi.zero_apply]
theorem e31_19 (_x : Fin 36 → ℝ) : (0 : ℝ) = ((0 : V3)) 1 := by simp [Pi.zero_apply]
theorem e31_20 (_x : Fin 36 → ℝ) : (0 : ℝ) = ((0 : V3)) 2 := by simp [Pi.zero_apply]
theorem e31_21 (_x : Fin 36 → ℝ) : (0 : ℝ) = ((0 : V3)) 0 := by simp [Pi.zero_apply]
theorem e31_22 (_x : Fin 36 → ℝ) : (0 : ℝ) = ((0 : V3)) 1 := by simp [Pi.zero_apply]
theorem e31_23 (_x : Fin 36 → ℝ) : (0 : ℝ) = ((0 : V3)) 2 := by simp [Pi.zero_apply]
theorem e32_18 (_x : Fin 36 → ℝ) : (0 : ℝ) = ((0 : V3)) 0 := by simp [Pi.zero_apply]
theorem e32_19 (_x : Fin 36 → ℝ) : (0 : ℝ) = ((0 : V3)) 1 := by simp [Pi.zero_apply]
theorem e32_20 (_x : Fin 36 → ℝ) : (0 : ℝ) = ((0 : V3)) 2 := by simp [Pi.zero_apply]
theorem e32_21 (_x : Fin 36 → ℝ) : (0 : ℝ) = ((0 : V3)) 0 := by simp [Pi.zero_apply]
theorem e32_22 (_x : Fin 36 → ℝ) : (0 : ℝ) = ((0 : V3)) 1 := by simp [Pi.zero_apply]
theorem e32_23 (_x : Fin 36 → ℝ) : (0 : ℝ) = ((0 : V3)) 2 := by simp [Pi.zero_apply]
theorem e33_18 (_x : Fin 36 → ℝ) : (0 : ℝ) = ((0 : V3)) 0 := by simp [Pi.zero_apply]
theorem e33_19 (_x : Fin 36 → ℝ) : (0 : ℝ) = ((0 : V3)) 1 := by simp [Pi.zero_apply]
theorem e33_20 (_x : Fin 36 → ℝ) : (0 : ℝ) = ((0 : V3)) 2 := by simp [Pi.zero_apply]
theorem e33_21 (x : Fin 36 → ℝ) : l1376 x = (quatMatrix (Qe x) *ᵥ jcol 3 0 x) 0 := by
  simp only [l549, l551, l553, l555, l557, l562, l594, l609, l625, l626, l627, l628, l629, l630, l653, l654, l655, l656, l657,
    l658, l1364, l1365, l1366, l1372, l1373, l1374, l1376, h593, h606, h608, h613, mv_0, mv_1, mv_2, qm_00, qm_01, qm_02, qm_10, qm_11, qm_12, qm_20, qm_21, qm_22, jcol, jac, jm_00, jm_01, jm_02, jm_10, jm_11, jm_12, jm_20, jm_21, jm_22, side_3, th_3_0, th_3_1, th_3_2, segA, segB, segC, segD, segH] <;> ring
theorem e33_22 (x : Fin 36 → ℝ) : l1395 x = (quatMatrix (Qe x) *ᵥ jcol 3 0 x) 1 := by
  simp only [l549, l551, l553, l555, l557, l562, l594, l625, l626, l627, l628, l629, l630, l653, l654, l655, l656, l657, l658,
    l677, l1379, l1386, l1387, l1388, l1390, l1391, l1395, h593, h606, h608, h613, mv_0, mv_1, mv_2, qm_00, qm_01, qm_02, qm_10, qm_11, qm_12, qm_20, qm_21, qm_22, jcol, jac, jm_00, jm_01, jm_02, jm_10, jm_11, jm_12, jm_20, jm_21, jm_22, side_3, th_3_0, th_3_1, th_3_2, segA, segB, segC, segD, segH] <;> ring
theorem e33_23 (x : Fin 36 → ℝ) : l1396 x = (quatMatrix (Qe x) *ᵥ jcol 3 0 x) 2 := by
  simp only [l549, l551, l553, l555, l557, l562, l594, l609, l625, l626, l627, l628, l629, l630, l653, l654, l655, l656, l657,
    l658, l677, l1380, l1386, l1387, l1389, l1390, l1393, l1396, h593, h606, h608, h613, mv_0, mv_1, mv_2, qm_00, qm_01, qm_02, qm_10, qm_11, qm_12, qm_20, qm_21, qm_22, jcol, jac, jm_00, jm_01, jm_02, jm_10, jm_11, jm_12, jm_20, jm_21, jm_22, side_3, th_3_0, th_3_1, th_3_2, segA, segB, segC, segD, segH] <;> ring
theorem e34_18 (_x : Fin 36 → ℝ) : (0 : ℝ) = ((0 : V3)) 0 := by simp [Pi.zero_apply]
theorem e34_19 (_x : Fin 36 → ℝ) : (0 : ℝ) = ((0 : V3)) 1 := by simp [Pi.zero_apply]
theorem e34_20 (_x : Fin 36 → ℝ) : (0 : ℝ) = ((0 : V3)) 2 := by simp [Pi.zero_apply]
theorem e34_21 (x : Fin 36 → ℝ) : l1382 x = (quatMatrix (Qe x) *ᵥ jcol 3 1 x) 0 := by
  simp only [l549, l551, l553, l555, l557, l562, l594, l609, l615, l620, l621, l622, l623, l624, l627, l648, l649, l650, l651,
    l652, l671, l672, l673, l1364, l1365, l1366, l1372, l1373, l1374, l1379, l1380, l1381, l1382, h593, h606, h608, h613, mv_0, mv_1, mv_2, qm_00, qm_01, qm_02, qm_10, qm_11, qm_12, qm_20, qm_21, qm_22, jcol, jac, jm_00, jm_01, jm_02, jm_10, jm_11, jm_12, jm_20, jm_21, jm_22, side_3, th_3_0, th_3_1, th_3_2, segA, segB, segC, segD, segH] <;> ring
theorem e34_22 (x : Fin 36 → ℝ) : l1397 x = (quatMatrix (Qe x) *ᵥ jcol 3 1 x) 1 := by
  simp only [l549, l551, l553, l555, l557, l562, l594, l609, l615, l620, l621, l622, l623, l624, l627, l648, l649, l650, l651,
    l652, l671, l672, l673, l677, l1372, l1373, l1375, l1379, l1386, l1387, l1388, l1390, l1391, l1397, h593, h606, h608, h613, mv_0, mv_1, mv_2, qm_00, qm_01, qm_02, qm_10, qm_11, qm_12, qm_20, qm_21, qm_22, jcol, jac, jm_00, jm_01, jm_02, jm_10, jm_11, jm_12, jm_20, jm_21, jm_22, side_3, th_3_0, th_3_1, th_3_2, segA, segB, segC, segD, segH] <;> ring
theorem e34_23 (x : Fin 36 → ℝ) : l1398 x = (quatMatrix (Qe x) *ᵥ jcol 3 1 x) 2 := by
  simp only [l549, l551, l553, l555, l557, l562, l594, l609, l615, l620, l621, l622, l623, l624, l627, l648, l649, l650, l651,
    l652, l671, l672, l673, l677, l1364, l1365, l1367, l1380, l1386, l1387, l1389, l1390, l1393, l1398, h593, h606, h608, h613, mv_0, mv_1, mv_2, qm_00, qm_01, qm_02, qm_10, qm_11, qm_12, qm_20, qm_21, qm_22, jcol, jac, jm_00, jm_01, jm_02, jm_10, jm_11, jm_12, jm_20, jm_21, jm_22, side_3, th_3_0, th_3_1, th_3_2, segA, segB, segC, segD, segH] <;> ring
theorem e35_18 (_x : Fin 36 → ℝ) : (0 : ℝ) = ((0 : V3)) 0 := by simp [Pi.zero_apply]
theorem e35_19 (_x : Fin 36 → ℝ) : (0 : ℝ) = ((0 : V3)) 1 := by simp [Pi.zero_apply]
theorem e35_20 (_x : Fin 36 → ℝ) : (0 : ℝ) = ((0 : V3)) 2 := by simp [Pi.zero_apply]
theorem e35_21 (x : Fin 36 → ℝ) : l1383 x = (quatMatrix (Qe x) *ᵥ jcol 3 2 x) 0 := by
  simp only [l549, l551, l553, l555, l557, l562, l594, l609, l615, l616, l617, l618, l619, l643, l644, l645, l646, l647, l668,
    l669, l670, l1364, l1365, l1366, l1372, l1373, l1374, l1379, l1380, l1381, l1383, h593, h606, h608, h613, mv_0, mv_1, mv_2, qm_00, qm_01, qm_02, qm_10, qm_11, qm_12, qm_20, qm_21, qm_22, jcol, jac, jm_00, jm_01, jm_02, jm_10, jm_11, jm_12, jm_20, jm_21, jm_22, side_3, th_3_0, th_3_1, th_3_2, segA, segB, segC, segD, segH] <;> ring
theorem e35_22 (x : Fin 36 → ℝ) : l1399 x = (quatMatrix (Qe x) *ᵥ jcol 3 2 x) 1 := by
  simp only [l549, l551, l553, l555, l557, l562, l594, l609, l615, l616, l617, l618, l619, l643, l644, l645, l646, l647, l668,
    l669, l670, l677, l1372, l1373, l1375, l1379, l1386, l1387, l1388, l1390, l1391, l1399, h593, h606, h608, h613, mv_0, mv_1, mv_2, qm_00, qm_01, qm_02, qm_10, qm_11, qm_12, qm_20, qm_21, qm_22, jcol, jac, jm_00, jm_01, jm_02, jm_10, jm_11, jm_12, jm_20, jm_21, jm_22, side_3, th_3_0, th_3_1, th_3_2, segA, segB, segC, segD, segH] <;> ring
theorem e35_23 (x : Fin 36 → ℝ) : l1400 x = (quatMatrix (Qe x) *ᵥ jcol 3 2 x) 2 := by
  simp only [l549, l551, l553, l555, l557, l562, l594, l609, l615, l616, l617, l618, l619, l643, l644, l645, l646, l647, l668,
    l669, l670, l677, l1364, l1365, l1367, l1380, l1386, l1387, l1389, l1390, l1393, l1400, h593, h606, h608, h613, mv_0, mv_1, mv_2, qm_00, qm_01, qm_02, qm_10, qm_11, qm_12, qm_20, qm_21, qm_22, jcol, jac, jm_00, jm_01, jm_02, jm_10, jm_11, jm_12, jm_20, jm_21, jm_22, side_3, th_3_0, th_3_1, th_3_2, segA, segB, segC, segD, segH] <;> ring

theorem pos0 (x : Fin 36 → ℝ) : (fun i : Fin 3 => jacobian x ⟨18 + i, by omega⟩ 0) = Dpos 3 x (Pi.single 0 1) :=
  (ext3 (e0_18 x) (e0_19 x) (e0_20 x)).trans (col_angle 3 0 x 0 rfl).1.symm
theorem vel0 (x : Fin 36 → ℝ) : (fun i : Fin 3 => jacobian x ⟨21 + i, by omega⟩ 0) = Dvel 3 x (Pi.single 0 1) :=
  (ext3 (e0_21 x) (e0_22 x) (e0_23 x)).trans (col_angle 3 0 x 0 rfl).2.symm
theorem pos1 (x : Fin 36 → ℝ) : (fun i : Fin 3 => jacobian x ⟨18 + i, by omega⟩ 1) = Dpos 3 x (Pi.single 1 1) :=
  (ext3 (e1_18 x) (e1_19 x) (e1_20 x)).trans (col_angle 3 1 x 1 rfl).1.symm
theorem vel1 (x : Fin 36 → ℝ) : (fun i : Fin 3 => jacobian x ⟨21 + i, by omega⟩ 1) = Dvel 3 x (Pi.single 1 1) :=
  (ext3 (e1_21 x) (e1_22 x) (e1_23 x)).trans (col_angle 3 1 x 1 rfl).2.symm
theorem pos2 (x : Fin 36 → ℝ) : (fun i : Fin 3 => jacobian x ⟨18 + i, by omega⟩ 2) = Dpos 3 x (Pi.single 2 1) :=
  (ext3 (e2_18 x) (e2_19 x) (e2_20 x)).trans (col_angle 3 2 x 2 rfl).1.symm
theorem vel2 (x : Fin 36 → ℝ) : (fun i : Fin 3 => jacobian x ⟨21 + i, by omega⟩ 2) = Dvel 3 x (Pi.single 2 1) :=
  (ext3 (e2_21 x) (e2_22 x) (e2_23 x)).trans (col_angle 3 2 x 2 rfl).2.symm
theorem pos3 (x : Fin 36 → ℝ) : (fun i : Fin 3 => jacobian x ⟨18 + i, by omega⟩ 3) = Dpos 3 x (Pi.single 3 1) :=
  (ext3 (e3_18 x) (e3_19 x) (e3_20 x)).trans (col_base 3 0 x 3 rfl).1.symm
theorem vel3 (x : Fin 36 → ℝ) : (fun i : Fin 3 => jacobian x ⟨21 + i, by omega⟩ 3) = Dvel 3 x (Pi.single 3 1) :=
  (ext3 (e3_21 x) (e3_22 x) (e3_23 x)).trans (col_base 3 0 x 3 rfl).2.symm
theorem pos4 (x : Fin 36 → ℝ) : (fun i : Fin 3 => jacobian x ⟨18 + i, by omega⟩ 4) = Dpos 3 x (Pi.single 4 1) :=
  (ext3 (e4_18 x) (e4_19 x) (e4_20 x)).trans (col_base 3 1 x 4 rfl).1.symm
theorem vel4 (x : Fin 36 → ℝ) : (fun i : Fin 3 => jacobian x ⟨21 + i, by omega⟩ 4) = Dvel 3 x (Pi.single 4 1) :=
  (ext3 (e4_21 x) (e4_22 x) (e4_23 x)).trans (col_base 3 1 x 4 rfl).2.symm
theorem pos5 (x : Fin 36 → ℝ) : (fun i : Fin 3 => jacobian x ⟨18 + i, by omega⟩ 5) = Dpos 3 x (Pi.single 5 1) :=
  (ext3 (e5_18 x) (e5_19 x) (e5_20 x)).trans (col_base 3 2 x 5 rfl).1.symm
theorem vel5 (x : Fin 36 → ℝ) : (fun i : Fin 3 => jacobian x ⟨21 + i, by omega⟩ 5) = Dvel 3 x (Pi.single 5 1) :=
  (ext3 (e5_21 x) (e5_22 x) (e5_23 x)).trans (col_base 3 2 x 5 rfl).2.symm
theorem pos6 (x : Fin 36 → ℝ) : (fun i : Fin 3 => jacobian x ⟨18 + i, by omega⟩ 6) = Dpos 3 x (Pi.single 6 1) :=
  (ext3 (e6_18 x) (e6_19 x) (e6_20 x)).trans (col_other 3 0 0 x 6 (by decide) (by decide)).1.symm
theorem vel6 (x : Fin 36 → ℝ) : (fun i : Fin 3 => jacobian x ⟨21 + i, by omega⟩ 6) = Dvel 3 x (Pi.single 6 1) :=
  (ext3 (e6_21 x) (e6_22 x) (e6_23 x)).trans (col_other 3 0 0 x 6 (by decide) (by decide)).2.symm
theorem pos7 (x : Fin 36 → ℝ) : (fun i : Fin 3 => jacobian x ⟨18 + i, by omega⟩ 7) = Dpos 3 x (Pi.single 7 1) :=
  (ext3 (e7_18 x) (e7_19 x) (e7_20 x)).trans (col_other 3 0 1 x 7 (by decide) (by decide)).1.symm
theorem vel7 (x : Fin 36 → ℝ) : (fun i : Fin 3 => jacobian x ⟨21 + i, by omega⟩ 7) = Dvel 3 x (Pi.single 7 1) :=
  (ext3 (e7_21 x) (e7_22 x) (e7_23 x)).trans (col_other 3 0 1 x 7 (by decide) (by decide)).2.symm
theorem pos8 (x : Fin 36 → ℝ) : (fun i : Fin 3 => jacobian x ⟨18 + i, by omega⟩ 8) = Dpos 3 x (Pi.single 8 1) :=
  (ext3 (e8_18 x) (e8_19 x) (e8_20 x)).trans (col_other 3 0 2 x 8 (by decide) (by decide)).1.symm
theorem vel8 (x : Fin 36 → ℝ) : (fun i : Fin 3 => jacobian x ⟨21 + i, by omega⟩ 8) = Dvel 3 x (Pi.single 8 1) :=
  (ext3 (e8_21 x) (e8_22 x) (e8_23 x)).trans (col_other 3 0 2 x 8 (by decide) (by decide)).2.symm
theorem pos9 (x : Fin 36 → ℝ) : (fun i : Fin 3 => jacobian x ⟨18 + i, by omega⟩ 9) = Dpos 3 x (Pi.single 9 1) :=
  (ext3 (e9_18 x) (e9_19 x) (e9_20 x)).trans (col_other 3 1 0 x 9 (by decide) (by decide)).1.symm
theorem vel9 (x : Fin 36 → ℝ) : (fun i : Fin 3 => jacobian x ⟨21 + i, by omega⟩ 9) = Dvel 3 x (Pi.single 9 1) :=
  (ext3 (e9_21 x) (e9_22 x) (e9_23 x)).trans (col_other 3 1 0 x 9 (by decide) (by decide)).2.symm
theorem pos10 (x : Fin 36 → ℝ) : (fun i : Fin 3 => jacobian x ⟨18 + i, by omega⟩ 10) = Dpos 3 x (Pi.single 10 1) :=
  (ext3 (e10_18 x) (e10_19 x) (e10_20 x)).trans (col_other 3 1 1 x 10 (by decide) (by decide)).1.symm
theorem vel10 (x : Fin 36 → ℝ) : (fun i : Fin 3 => jacobian x ⟨21 + i, by omega⟩ 10) = Dvel 3 x (Pi.single 10 1) :=
  (ext3 (e10_21 x) (e10_22 x) (e10_23 x)).trans (col_other 3 1 1 x 10 (by decide) (by decide)).2.symm
theorem pos11 (x : Fin 36 → ℝ) : (fun i : Fin 3 => jacobian x ⟨18 + i, by omega⟩ 11) = Dpos 3 x (Pi.single 11 1) :=
  (ext3 (e11_18 x) (e11_19 x) (e11_20 x)).trans (col_other 3 1 2 x 11 (by decide) (by decide)).1.symm
theorem vel11 (x : Fin 36 → ℝ) : (fun i : Fin 3 => jacobian x ⟨21 + i, by omega⟩ 11) = Dvel 3 x (Pi.single 11 1) :=
  (ext3 (e11_21 x) (e11_22 x) (e11_23 x)).trans (col_other 3 1 2 x 11 (by decide) (by decide)).2.symm
theorem pos12 (x : Fin 36 → ℝ) : (fun i : Fin 3 => jacobian x ⟨18 + i, by omega⟩ 12) = Dpos 3 x (Pi.single 12 1) :=
  (ext3 (e12_18 x) (e12_19 x) (e12_20 x)).trans (col_other 3 2 0 x 12 (by decide) (by decide)).1.symm
theorem vel12 (x : Fin 36 → ℝ) : (fun i : Fin 3 => jacobian x ⟨21 + i, by omega⟩ 12) = Dvel 3 x (Pi.single 12 1) :=
  (ext3 (e12_21 x) (e12_22 x) (e12_23 x)).trans (col_other 3 2 0 x 12 (by decide) (by decide)).2.symm
theorem pos13 (x : Fin 36 → ℝ) : (fun i : Fin 3 => jacobian x ⟨18 + i, by omega⟩ 13) = Dpos 3 x (Pi.single 13 1) :=
  (ext3 (e13_18 x) (e13_19 x) (e13_20 x)).trans (col_other 3 2 1 x 13 (by decide) (by decide)).1.symm
theorem vel13 (x : Fin 36 → ℝ) : (fun i : Fin 3 => jacobian x ⟨21 + i, by omega⟩ 13) = Dvel 3 x (Pi.single 13 1) :=
  (ext3 (e13_21 x) (e13_22 x) (e13_23 x)).trans (col_other 3 2 1 x 13 (by decide) (by decide)).2.symm
theorem pos14 (x : Fin 36 → ℝ) : (fun i : Fin 3 => jacobian x ⟨18 + i, by omega⟩ 14) = Dpos 3 x (Pi.single 14 1) :=
  (ext3 (e14_18 x) (e14_19 x) (e14_20 x)).trans (col_other 3 2 2 x 14 (by decide) (by decide)).1.symm
theorem vel14 (x : Fin 36 → ℝ) : (fun i : Fin 3 => jacobian x ⟨21 + i, by omega⟩ 14) = Dvel 3 x (Pi.single 14 1) :=
  (ext3 (e14_21 x) (e14_22 x) (e14_23 x)).trans (col_other 3 2 2 x 14 (by decide) (by decide)).2.symm
theorem pos15 (x : Fin 36 → ℝ) : (fun i : Fin 3 => jacobian x ⟨18 + i, by omega⟩ 15) = Dpos 3 x (Pi.single 15 1) :=
  (ext3 (e15_18 x) (e15_19 x) (e15_20 x)).trans (col_joint 3 0 x 15 rfl).1.symm
theorem vel15 (x : Fin 36 → ℝ) : (fun i : Fin 3 => jacobian x ⟨21 + i, by omega⟩ 15) = Dvel 3 x (Pi.single 15 1) :=
  (ext3 (e15_21 x) (e15_22 x) (e15_23 x)).trans (col_joint 3 0 x 15 rfl).2.symm
theorem pos16 (x : Fin 36 → ℝ) : (fun i : Fin 3 => jacobian x ⟨18 + i, by omega⟩ 16) = Dpos 3 x (Pi.single 16 1) :=
  (ext3 (e16_18 x) (e16_19 x) (e16_20 x)).trans (col_joint 3 1 x 16 rfl).1.symm
theorem vel16 (x : Fin 36 → ℝ) : (fun i : Fin 3 => jacobian x ⟨21 + i, by omega⟩ 16) = Dvel 3 x (Pi.single 16 1) :=
  (ext3 (e16_21 x) (e16_22 x) (e16_23 x)).trans (col_joint 3 1 x 16 rfl).2.symm
theorem pos17 (x : Fin 36 → ℝ) : (fun i : Fin 3 => jacobian x ⟨18 + i, by omega⟩ 17) = Dpos 3 x (Pi.single 17 1) :=
  (ext3 (e17_18 x) (e17_19 x) (e17_20 x)).trans (col_joint 3 2 x 17 rfl).1.symm
theorem vel17 (x : Fin 36 → ℝ) : (fun i : Fin 3 => jacobian x ⟨21 + i, by omega⟩ 17) = Dvel 3 x (Pi.single 17 1) :=
  (ext3 (e17_21 x) (e17_22 x) (e17_23 x)).trans (col_joint 3 2 x 17 rfl).2.symm
theorem pos18 (x : Fin 36 → ℝ) : (fun i : Fin 3 => jacobian x ⟨18 + i, by omega⟩ 18) = Dpos 3 x (Pi.single 18 1) :=
  (ext3 (e18_18 x) (e18_19 x) (e18_20 x)).trans (col_om 3 0 x 18 rfl).1.symm
theorem vel18 (x : Fin 36 → ℝ) : (fun i : Fin 3 => jacobian x ⟨21 + i, by omega⟩ 18) = Dvel 3 x (Pi.single 18 1) :=
  (ext3 (e18_21 x) (e18_22 x) (e18_23 x)).trans (col_om 3 0 x 18 rfl).2.symm
theorem pos19 (x : Fin 36 → ℝ) : (fun i : Fin 3 => jacobian x ⟨18 + i, by omega⟩ 19) = Dpos 3 x (Pi.single 19 1) :=
  (ext3 (e19_18 x) (e19_19 x) (e19_20 x)).trans (col_om 3 1 x 19 rfl).1.symm
theorem vel19 (x : Fin 36 → ℝ) : (fun i : Fin 3 => jacobian x ⟨21 + i, by omega⟩ 19) = Dvel 3 x (Pi.single 19 1) :=
  (ext3 (e19_21 x) (e19_22 x) (e19_23 x)).trans (col_om 3 1 x 19 rfl).2.symm
theorem pos20 (x : Fin 36 → ℝ) : (fun i : Fin 3 => jacobian x ⟨18 + i, by omega⟩ 20) = Dpos 3 x (Pi.single 20 1) :=
  (ext3 (e20_18 x) (e20_19 x) (e20_20 x)).trans (col_om 3 2 x 20 rfl).1.symm
theorem vel20 (x : Fin 36 → ℝ) : (fun i : Fin 3 => jacobian x ⟨21 + i, by omega⟩ 20) = Dvel 3 x (Pi.single 20 1) :=
  (ext3 (e20_21 x) (e20_22 x) (e20_23 x)).trans (col_om 3 2 x 20 rfl).2.symm
theorem pos21 (x : Fin 36 → ℝ) : (fun i : Fin 3 => jacobian x ⟨18 + i, by omega⟩ 21) = Dpos 3 x (Pi.single 21 1) :=
  (ext3 (e21_18 x) (e21_19 x) (e21_20 x)).trans (col_lv 3 0 x 21 rfl).1.symm
theorem vel21 (x : Fin 36 → ℝ) : (fun i : Fin 3 => jacobian x ⟨21 + i, by omega⟩ 21) = Dvel 3 x (Pi.single 21 1) :=
  (ext3 (e21_21 x) (e21_22 x) (e21_23 x)).trans (col_lv 3 0 x 21 rfl).2.symm
theorem pos22 (x : Fin 36 → ℝ) : (fun i : Fin 3 => jacobian x ⟨18 + i, by omega⟩ 22) = Dpos 3 x (Pi.single 22 1) :=
  (ext3 (e22_18 x) (e22_19 x) (e22_20 x)).trans (col_lv 3 1 x 22 rfl).1.symm
theorem vel22 (x : Fin 36 → ℝ) : (fun i : Fin 3 => jacobian x ⟨21 + i, by omega⟩ 22) = Dvel 3 x (Pi.single 22 1) :=
  (ext3 (e22_21 x) (e22_22 x) (e22_23 x)).trans (col_lv 3 1 x 22 rfl).2.symm
theorem pos23 (x : Fin 36 → ℝ) : (fun i : Fin 3 => jacobian x ⟨18 + i, by omega⟩ 23) = Dpos 3 x (Pi.single 23 1) :=
  (ext3 (e23_18 x) (e23_19 x) (e23_20 x)).trans (col_lv 3 2 x 23 rfl).1.symm
theorem vel23 (x : Fin 36 → ℝ) : (fun i : Fin 3 => jacobian x ⟨21 + i, by omega⟩ 23) = Dvel 3 x (Pi.single 23 1) :=
  (ext3 (e23_21 x) (e23_22 x) (e23_23 x)).trans (col_lv 3 2 x 23 rfl).2.symm
theorem pos24 (x : Fin 36 → ℝ) : (fun i : Fin 3 => jacobian x ⟨18 + i, by omega⟩ 24) = Dpos 3 x (Pi.single 24 1) :=
  (ext3 (e24_18 x) (e24_19 x) (e24_20 x)).trans (col_other 3 0 0 x 24 (by decide) (by decide)).1.symm
theorem vel24 (x : Fin 36 → ℝ) : (fun i : Fin 3 => jacobian x ⟨21 + i, by omega⟩ 24) = Dvel 3 x (Pi.single 24 1) :=
  (ext3 (e24_21 x) (e24_22 x) (e24_23 x)).trans (col_other 3 0 0 x 24 (by decide) (by decide)).2.symm
theorem pos25 (x : Fin 36 → ℝ) : (fun i : Fin 3 => jacobian x ⟨18 + i, by omega⟩ 25) = Dpos 3 x (Pi.single 25 1) :=
  (ext3 (e25_18 x) (e25_19 x) (e25_20 x)).trans (col_other 3 0 1 x 25 (by decide) (by decide)).1.symm
theorem vel25 (x : Fin 36 → ℝ) : (fun i : Fin 3 => jacobian x ⟨21 + i, by omega⟩ 25) = Dvel 3 x (Pi.single 25 1) :=
  (ext3 (e25_21 x) (e25_22 x) (e25_23 x)).trans (col_other 3 0 1 x 25 (by decide) (by decide)).2.symm
theorem pos26 (x : Fin 36 → ℝ) : (fun i : Fin 3 => jacobian x ⟨18 + i, by omega⟩ 26) = Dpos 3 x (Pi.single 26 1) :=
  (ext3 (e26_18 x) (e26_19 x) (e26_20 x)).trans (col_other 3 0 2 x 26 (by decide) (by decide)).1.symm
theorem vel26 (x : Fin 36 → ℝ) : (fun i : Fin 3 => jacobian x ⟨21 + i, by omega⟩ 26) = Dvel 3 x (Pi.single 26 1) :=
  (ext3 (e26_21 x) (e26_22 x) (e26_23 x)).trans (col_other 3 0 2 x 26 (by decide) (by decide)).2.symm
theorem pos27 (x : Fin 36 → ℝ) : (fun i : Fin 3 => jacobian x ⟨18 + i, by omega⟩ 27) = Dpos 3 x (Pi.single 27 1) :=
  (ext3 (e27_18 x) (e27_19 x) (e27_20 x)).trans (col_other 3 1 0 x 27 (by decide) (by decide)).1.symm
theorem vel27 (x : Fin 36 → ℝ) : (fun i : Fin 3 => jacobian x ⟨21 + i, by omega⟩ 27) = Dvel 3 x (Pi.single 27 1) :=
  (ext3 (e27_21 x) (e27_22 x) (e27_23 x)).trans (col_other 3 1 0 x 27 (by decide) (by decide)).2.symm
theorem pos28 (x : Fin 36 → ℝ) : (fun i : Fin 3 => jacobian x ⟨18 + i, by omega⟩ 28) = Dpos 3 x (Pi.single 28 1) :=
  (ext3 (e28_18 x) (e28_19 x) (e28_20 x)).trans (col_other 3 1 1 x 28 (by decide) (by decide)).1.symm
theorem vel28 (x : Fin 36 → ℝ) : (fun i : Fin 3 => jacobian x ⟨21 + i, by omega⟩ 28) = Dvel 3 x (Pi.single 28 1) :=
  (ext3 (e28_21 x) (e28_22 x) (e28_23 x)).trans (col_other 3 1 1 x 28 (by decide) (by decide)).2.symm
theorem pos29 (x : Fin 36 → ℝ) : (fun i : Fin 3 => jacobian x ⟨18 + i, by omega⟩ 29) = Dpos 3 x (Pi.single 29 1) :=
  (ext3 (e29_18 x) (e29_19 x) (e29_20 x)).trans (col_other 3 1 2 x 29 (by decide) (by decide)).1.symm
theorem vel29 (x : Fin 36 → ℝ) : (fun i : Fin 3 => jacobian x ⟨21 + i, by omega⟩ 29) = Dvel 3 x (Pi.single 29 1) :=
  (ext3 (e29_21 x) (e29_22 x) (e29_23 x)).trans (col_other 3 1 2 x 29 (by decide) (by decide)).2.symm
theorem pos30 (x : Fin 36 → ℝ) : (fun i : Fin 3 => jacobian x ⟨18 + i, by omega⟩ 30) = Dpos 3 x (Pi.single 30 1) :=
  (ext3 (e30_18 x) (e30_19 x) (e30_20 x)).trans (col_other 3 2 0 x 30 (by decide) (by decide)).1.symm
theorem vel30 (x : Fin 36 → ℝ) : (fun i : Fin 3 => jacobian x ⟨21 + i, by omega⟩ 30) = Dvel 3 x (Pi.single 30 1) :=
  (ext3 (e30_21 x) (e30_22 x) (e30_23 x)).trans (col_other 3 2 0 x 30 (by decide) (by decide)).2.symm
theorem pos31 (x : Fin 36 → ℝ) : (fun i : Fin 3 => jacobian x ⟨18 + i, by omega⟩ 31) = Dpos 3 x (Pi.single 31 1) :=
  (ext3 (e31_18 x) (e31_19 x) (e31_20 x)).trans (col_other 3 2 1 x 31 (by decide) (by decide)).1.symm
theorem vel31 (x : Fin 36 → ℝ) : (fun i : Fin 3 => jacobian x ⟨21 + i, by omega⟩ 31) = Dvel 3 x (Pi.single 31 1) :=
  (ext3 (e31_21 x) (e31_22 x) (e31_23 x)).trans (col_other 3 2 1 x 31 (by decide) (by decide)).2.symm
theorem pos32 (x : Fin 36 → ℝ) : (fun i : Fin 3 => jacobian x ⟨18 + i, by omega⟩ 32) = Dpos 3 x (Pi.single 32 1) :=
  (ext3 (e32_18 x) (e32_19 x) (e32_20 x)).trans (col_other 3 2 2 x 32 (by decide) (by decide)).1.symm
theorem vel32 (x : Fin 36 → ℝ) : (fun i : Fin 3 => jacobian x ⟨21 + i, by omega⟩ 32) = Dvel 3 x (Pi.single 32 1) :=
  (ext3 (e32_21 x) (e32_22 x) (e32_23 x)).trans (col_other 3 2 2 x 32 (by decide) (by decide)).2.symm
theorem pos33 (x : Fin 36 → ℝ) : (fun i : Fin 3 => jacobian x ⟨18 + i, by omega⟩ 33) = Dpos 3 x (Pi.single 33 1) :=
  (ext3 (e33_18 x) (e33_19 x) (e33_20 x)).trans (col_qd 3 0 x 33 rfl).1.symm
theorem vel33 (x : Fin 36 → ℝ) : (fun i : Fin 3 => jacobian x ⟨21 + i, by omega⟩ 33) = Dvel 3 x (Pi.single 33 1) :=
  (ext3 (e33_21 x) (e33_22 x) (e33_23 x)).trans (col_qd 3 0 x 33 rfl).2.symm
theorem pos34 (x : Fin 36 → ℝ) : (fun i : Fin 3 => jacobian x ⟨18 + i, by omega⟩ 34) = Dpos 3 x (Pi.single 34 1) :=
  (ext3 (e34_18 x) (e34_19 x) (e34_20 x)).trans (col_qd 3 1 x 34 rfl).1.symm
theorem vel34 (x : Fin 36 → ℝ) : (fun i : Fin 3 => jacobian x ⟨21 + i, by omega⟩ 34) = Dvel 3 x (Pi.single 34 1) :=
  (ext3 (e34_21 x) (e34_22 x) (e34_23 x)).trans (col_qd 3 1 x 34 rfl).2.symm
theorem pos35 (x : Fin 36 → ℝ) : (fun i : Fin 3 => jacobian x ⟨18 + i, by omega⟩ 35) = Dpos 3 x (Pi.single 35 1) :=
  (ext3 (e35_18 x) (e35_19 x) (e35_20 x)).trans (col_qd 3 2 x 35 rfl).1.symm
theorem vel35 (x : Fin 36 → ℝ) : (fun i : Fin 3 => jacobian x ⟨21 + i, by omega⟩ 35) = Dvel 3 x (Pi.single 35 1) :=
  (ext3 (e35_21 x) (e35_22 x) (e35_23 x)).trans (col_qd 3 2 x 35 rfl).2.symm

theorem rows (x : Fin 36 → ℝ) (c : Fin 36) :
    (fun i : Fin 3 => jacobian x ⟨18 + i, by omega⟩ c) = Dpos 3 x (Pi.single c 1) ∧
    (fun i : Fin 3 => jacobian x ⟨21 + i, by omega⟩ c) = Dvel 3 x (Pi.single c 1) := by
  fin_cases c
  exacts [⟨pos0 x, vel0 x⟩, ⟨pos1 x, vel1 x⟩, ⟨pos2 x, vel2 x⟩, ⟨pos3 x, vel3 x⟩, ⟨pos4 x, vel4 x⟩, ⟨pos5 x, vel5 x⟩, ⟨pos6 x,
    vel6 x⟩, ⟨pos7 x, vel7 x⟩, ⟨pos8 x, vel8 x⟩, ⟨pos9 x, vel9 x⟩, ⟨pos10 x, vel10 x⟩, ⟨pos11 x, vel11 x⟩, ⟨pos12 x, vel12 x⟩, ⟨pos13 x, vel13 x⟩, ⟨pos14 x, vel14 x⟩, ⟨pos15 x, vel15 x⟩, ⟨pos16 x, vel16 x⟩, ⟨pos17 x, vel17 x⟩, ⟨pos18 x, vel18 x⟩, ⟨pos19 x, vel19 x⟩, ⟨pos20 x, vel20 x⟩, ⟨pos21 x, vel21 x⟩, ⟨pos22 x, vel22 x⟩, ⟨pos23 x, vel23 x⟩, ⟨pos24 x, vel24 x⟩, ⟨pos25 x, vel25 x⟩, ⟨pos26 x, vel26 x⟩, ⟨pos27 x, vel27 x⟩, ⟨pos28 x, vel28 x⟩, ⟨pos29 x, vel29 x⟩, ⟨pos30 x, vel30 x⟩, ⟨pos31 x, vel31 x⟩, ⟨pos32 x, vel32 x⟩, ⟨pos33 x, vel33 x⟩, ⟨pos34 x, vel34 x⟩, ⟨pos35 x, vel35 x⟩]

end CT.Robots.HyQ.FootJacForward.Leg3
