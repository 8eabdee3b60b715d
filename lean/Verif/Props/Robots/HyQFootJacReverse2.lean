import Verif.Model.Robots.HyQFootJacReverse
import Verif.Props.Robots.HyQFoot

/-!
# Rows of foot 2 in the generated Jacobian HyQForwardKinJacReverse

`hN`: line `N` is a component of the quaternion, of the position of the foot or of its velocity in the base.  `eC_R`: the entry in
row `R` and column `C`.
-/

namespace CT.Robots.HyQ.FootJacReverse.Leg2

open Matrix CT.FloatSys CT.FrameJac CT.Robots.HyQ

set_option linter.unusedSimpArgs false

theorem h434 (x : Fin 36 → ℝ) : l434 x = foot 2 x 2 := by
  simp only [l424, l425, l426, l427, l428, l429, l430, l431, l432, l433, l434, foot, pv_0, pv_1, pv_2, side_2, mountX_2,
    mountY_2, th_2_0, th_2_1, th_2_2, segA, segB, segC, segD, segH] <;> ring
theorem h446 (x : Fin 36 → ℝ) : l446 x = Qe x 3 := by
  simp only [l435, l436, l437, l438, l439, l440, l441, l442, l443, l444, l445, l446, Qe_3] <;> ring
theorem h454 (x : Fin 36 → ℝ) : l454 x = foot 2 x 1 := by
  simp only [l426, l428, l430, l432, l448, l449, l450, l451, l452, l453, l454, foot, pv_0, pv_1, pv_2, side_2, mountX_2,
    mountY_2, th_2_0, th_2_1, th_2_2, segA, segB, segC, segD, segH] <;> ring
theorem h457 (x : Fin 36 → ℝ) : l457 x = Qe x 2 := by
  simp only [l435, l436, l437, l438, l440, l441, l442, l443, l445, l455, l456, l457, Qe_2] <;> ring
theorem h463 (x : Fin 36 → ℝ) : l463 x = -foot 2 x 0 := by
  simp only [l426, l428, l430, l432, l460, l461, l462, l463, foot, pv_0, pv_1, pv_2, side_2, mountX_2, mountY_2, th_2_0, th_2_1,
    th_2_2, segA, segB, segC, segD, segH] <;> ring
theorem h464 (x : Fin 36 → ℝ) : l464 x = Qe x 1 := by
  simp only [l435, l436, l437, l438, l440, l441, l442, l443, l445, l455, l456, l464, Qe_1] <;> ring
theorem h465 (x : Fin 36 → ℝ) : l465 x = Qe x 0 := by
  simp only [l435, l436, l437, l438, l439, l440, l441, l442, l443, l444, l445, l465, Qe_0] <;> ring
theorem h469 (x : Fin 36 → ℝ) : l469 x = -foot 2 x 1 := by
  simp only [l426, l428, l430, l432, l448, l449, l450, l451, l452, l453, l454, l469, foot, pv_0, pv_1, pv_2, side_2, mountX_2,
    mountY_2, th_2_0, th_2_1, th_2_2, segA, segB, segC, segD, segH] <;> ring
theorem h472 (x : Fin 36 → ℝ) : l472 x = -foot 2 x 0 := by
  simp only [l426, l428, l430, l432, l460, l461, l462, l472, foot, pv_0, pv_1, pv_2, side_2, mountX_2, mountY_2, th_2_0, th_2_1,
    th_2_2, segA, segB, segC, segD, segH] <;> ring
theorem h462 (x : Fin 36 → ℝ) : l462 x = foot 2 x 0 := by
  simp only [l426, l428, l430, l432, l460, l461, l462, foot, pv_0, pv_1, pv_2, side_2, mountX_2, mountY_2, th_2_0, th_2_1,
    th_2_2, segA, segB, segC, segD, segH] <;> ring
theorem h480 (x : Fin 36 → ℝ) : l480 x = -foot 2 x 1 := by
  simp only [l426, l428, l430, l432, l448, l449, l450, l451, l452, l453, l454, l480, foot, pv_0, pv_1, pv_2, side_2, mountX_2,
    mountY_2, th_2_0, th_2_1, th_2_2, segA, segB, segC, segD, segH] <;> ring
theorem h482 (x : Fin 36 → ℝ) : l482 x = -foot 2 x 2 := by
  simp only [l424, l425, l426, l427, l428, l429, l430, l431, l432, l433, l434, l482, foot, pv_0, pv_1, pv_2, side_2, mountX_2,
    mountY_2, th_2_0, th_2_1, th_2_2, segA, segB, segC, segD, segH] <;> ring
theorem h489 (x : Fin 36 → ℝ) : l489 x = -foot 2 x 1 := by
  simp only [l426, l428, l430, l432, l448, l449, l450, l451, l452, l453, l454, l489, foot, pv_0, pv_1, pv_2, side_2, mountX_2,
    mountY_2, th_2_0, th_2_1, th_2_2, segA, segB, segC, segD, segH] <;> ring
theorem h495 (x : Fin 36 → ℝ) : l495 x = -foot 2 x 2 := by
  simp only [l424, l425, l426, l427, l428, l429, l430, l431, l432, l433, l434, l495, foot, pv_0, pv_1, pv_2, side_2, mountX_2,
    mountY_2, th_2_0, th_2_1, th_2_2, segA, segB, segC, segD, segH] <;> ring
theorem h497 (x : Fin 36 → ℝ) : l497 x = -foot 2 x 2 := by
  simp only [l424, l425, l426, l427, l428, l429, l430, l431, l432, l433, l434, l497, foot, pv_0, pv_1, pv_2, side_2, mountX_2,
    mountY_2, th_2_0, th_2_1, th_2_2, segA, segB, segC, segD, segH] <;> ring
theorem h498 (x : Fin 36 → ℝ) : l498 x = -foot 2 x 0 := by
  simp only [l426, l428, l430, l432, l460, l461, l462, l498, foot, pv_0, pv_1, pv_2, side_2, mountX_2, mountY_2, th_2_0, th_2_1,
    th_2_2, segA, segB, segC, segD, segH] <;> ring
theorem h535 (x : Fin 36 → ℝ) : l535 x = vb 2 x 2 := by
  simp only [l424, l426, l428, l430, l432, l448, l509, l510, l511, l512, l513, l514, l515, l516, l517, l518, l519, l520, l521,
    l522, l523, l524, l525, l526, l527, l528, l529, l530, l531, l532, l533, l534, l535, vb, Pi.add_apply, mv_0, mv_1, mv_2, cr_0, cr_1, cr_2, foot, pv_0, pv_1, pv_2, side_2, mountX_2, mountY_2, th_2_0, th_2_1, th_2_2, segA, segB, segC, segD, segH, jac, jm_00, jm_01, jm_02, jm_10, jm_11, jm_12, jm_20, jm_21, jm_22, qd_2_0, qd_2_1, qd_2_2, om_0, om_1, om_2, lv_0, lv_1, lv_2] <;> ring
theorem h547 (x : Fin 36 → ℝ) : l547 x = Qe x 3 := by
  simp only [l536, l537, l538, l539, l540, l541, l542, l543, l544, l545, l546, l547, Qe_3] <;> ring
theorem h571 (x : Fin 36 → ℝ) : l571 x = vb 2 x 1 := by
  simp only [l424, l426, l428, l430, l432, l448, l527, l532, l533, l534, l549, l550, l551, l552, l553, l554, l555, l556, l557,
    l558, l559, l560, l561, l562, l563, l564, l565, l566, l567, l568, l569, l570, l571, vb, Pi.add_apply, mv_0, mv_1, mv_2, cr_0, cr_1, cr_2, foot, pv_0, pv_1, pv_2, side_2, mountX_2, mountY_2, th_2_0, th_2_1, th_2_2, segA, segB, segC, segD, segH, jac, jm_00, jm_01, jm_02, jm_10, jm_11, jm_12, jm_20, jm_21, jm_22, qd_2_0, qd_2_1, qd_2_2, om_0, om_1, om_2, lv_0, lv_1, lv_2] <;> ring
theorem h574 (x : Fin 36 → ℝ) : l574 x = Qe x 2 := by
  simp only [l536, l537, l538, l539, l541, l542, l543, l544, l546, l572, l573, l574, Qe_2] <;> ring
theorem h584 (x : Fin 36 → ℝ) : l584 x = -vb 2 x 0 := by
  simp only [l424, l426, l428, l430, l432, l448, l525, l526, l527, l528, l529, l530, l531, l565, l566, l567, l568, l569, l570,
    l577, l578, l579, l580, l581, l582, l583, l584, vb, Pi.add_apply, mv_0, mv_1, mv_2, cr_0, cr_1, cr_2, foot, pv_0, pv_1, pv_2, side_2, mountX_2, mountY_2, th_2_0, th_2_1, th_2_2, segA, segB, segC, segD, segH, jac, jm_00, jm_01, jm_02, jm_10, jm_11, jm_12, jm_20, jm_21, jm_22, qd_2_0, qd_2_1, qd_2_2, om_0, om_1, om_2, lv_0, lv_1, lv_2] <;> ring
theorem h585 (x : Fin 36 → ℝ) : l585 x = Qe x 1 := by
  simp only [l536, l537, l538, l539, l541, l542, l543, l544, l546, l572, l573, l585, Qe_1] <;> ring
theorem h586 (x : Fin 36 → ℝ) : l586 x = Qe x 0 := by
  simp only [l536, l537, l538, l539, l540, l541, l542, l543, l544, l545, l546, l586, Qe_0] <;> ring
theorem h590 (x : Fin 36 → ℝ) : l590 x = -vb 2 x 1 := by
  simp only [l424, l426, l428, l430, l432, l448, l527, l532, l533, l534, l549, l550, l551, l552, l553, l554, l555, l556, l557,
    l558, l559, l560, l561, l562, l563, l564, l565, l566, l567, l568, l569, l570, l571, l590, vb, Pi.add_apply, mv_0, mv_1, mv_2, cr_0, cr_1, cr_2, foot, pv_0, pv_1, pv_2, side_2, mountX_2, mountY_2, th_2_0, th_2_1, th_2_2, segA, segB, segC, segD, segH, jac, jm_00, jm_01, jm_02, jm_10, jm_11, jm_12, jm_20, jm_21, jm_22, qd_2_0, qd_2_1, qd_2_2, om_0, om_1, om_2, lv_0, lv_1, lv_2] <;> ring
theorem h593 (x : Fin 36 → ℝ) : l593 x = -vb 2 x 0 := by
  simp only [l424, l426, l428, l430, l432, l448, l525, l526, l527, l528, l529, l530, l531, l565, l566, l567, l568, l569, l570,
    l577, l578, l579, l580, l581, l582, l583, l593, vb, Pi.add_apply, mv_0, mv_1, mv_2, cr_0, cr_1, cr_2, foot, pv_0, pv_1, pv_2, side_2, mountX_2, mountY_2, th_2_0, th_2_1, th_2_2, segA, segB, segC, segD, segH, jac, jm_00, jm_01, jm_02, jm_10, jm_11, jm_12, jm_20, jm_21, jm_22, qd_2_0, qd_2_1, qd_2_2, om_0, om_1, om_2, lv_0, lv_1, lv_2] <;> ring
theorem h583 (x : Fin 36 → ℝ) : l583 x = vb 2 x 0 := by
  simp only [l424, l426, l428, l430, l432, l448, l525, l526, l527, l528, l529, l530, l531, l565, l566, l567, l568, l569, l570,
    l577, l578, l579, l580, l581, l582, l583, vb, Pi.add_apply, mv_0, mv_1, mv_2, cr_0, cr_1, cr_2, foot, pv_0, pv_1, pv_2, side_2, mountX_2, mountY_2, th_2_0, th_2_1, th_2_2, segA, segB, segC, segD, segH, jac, jm_00, jm_01, jm_02, jm_10, jm_11, jm_12, jm_20, jm_21, jm_22, qd_2_0, qd_2_1, qd_2_2, om_0, om_1, om_2, lv_0, lv_1, lv_2] <;> ring
theorem h601 (x : Fin 36 → ℝ) : l601 x = -vb 2 x 1 := by
  simp only [l424, l426, l428, l430, l432, l448, l527, l532, l533, l534, l549, l550, l551, l552, l553, l554, l555, l556, l557,
    l558, l559, l560, l561, l562, l563, l564, l565, l566, l567, l568, l569, l570, l571, l601, vb, Pi.add_apply, mv_0, mv_1, mv_2, cr_0, cr_1, cr_2, foot, pv_0, pv_1, pv_2, side_2, mountX_2, mountY_2, th_2_0, th_2_1, th_2_2, segA, segB, segC, segD, segH, jac, jm_00, jm_01, jm_02, jm_10, jm_11, jm_12, jm_20, jm_21, jm_22, qd_2_0, qd_2_1, qd_2_2, om_0, om_1, om_2, lv_0, lv_1, lv_2] <;> ring
theorem h603 (x : Fin 36 → ℝ) : l603 x = -vb 2 x 2 := by
  simp only [l424, l426, l428, l430, l432, l448, l509, l510, l511, l512, l513, l514, l515, l516, l517, l518, l519, l520, l521,
    l522, l523, l524, l525, l526, l527, l528, l529, l530, l531, l532, l533, l534, l535, l603, vb, Pi.add_apply, mv_0, mv_1, mv_2, cr_0, cr_1, cr_2, foot, pv_0, pv_1, pv_2, side_2, mountX_2, mountY_2, th_2_0, th_2_1, th_2_2, segA, segB, segC, segD, segH, jac, jm_00, jm_01, jm_02, jm_10, jm_11, jm_12, jm_20, jm_21, jm_22, qd_2_0, qd_2_1, qd_2_2, om_0, om_1, om_2, lv_0, lv_1, lv_2] <;> ring
theorem h610 (x : Fin 36 → ℝ) : l610 x = -vb 2 x 1 := by
  simp only [l424, l426, l428, l430, l432, l448, l527, l532, l533, l534, l549, l550, l551, l552, l553, l554, l555, l556, l557,
    l558, l559, l560, l561, l562, l563, l564, l565, l566, l567, l568, l569, l570, l571, l610, vb, Pi.add_apply, mv_0, mv_1, mv_2, cr_0, cr_1, cr_2, foot, pv_0, pv_1, pv_2, side_2, mountX_2, mountY_2, th_2_0, th_2_1, th_2_2, segA, segB, segC, segD, segH, jac, jm_00, jm_01, jm_02, jm_10, jm_11, jm_12, jm_20, jm_21, jm_22, qd_2_0, qd_2_1, qd_2_2, om_0, om_1, om_2, lv_0, lv_1, lv_2] <;> ring
theorem h616 (x : Fin 36 → ℝ) : l616 x = -vb 2 x 2 := by
  simp only [l424, l426, l428, l430, l432, l448, l509, l510, l511, l512, l513, l514, l515, l516, l517, l518, l519, l520, l521,
    l522, l523, l524, l525, l526, l527, l528, l529, l530, l531, l532, l533, l534, l535, l616, vb, Pi.add_apply, mv_0, mv_1, mv_2, cr_0, cr_1, cr_2, foot, pv_0, pv_1, pv_2, side_2, mountX_2, mountY_2, th_2_0, th_2_1, th_2_2, segA, segB, segC, segD, segH, jac, jm_00, jm_01, jm_02, jm_10, jm_11, jm_12, jm_20, jm_21, jm_22, qd_2_0, qd_2_1, qd_2_2, om_0, om_1, om_2, lv_0, lv_1, lv_2] <;> ring
theorem h618 (x : Fin 36 → ℝ) : l618 x = -vb 2 x 2 := by
  simp only [l424, l426, l428, l430, l432, l448, l509, l510, l511, l512, l513, l514, l515, l516, l517, l518, l519, l520, l521,
    l522, l523, l524, l525, l526, l527, l528, l529, l530, l531, l532, l533, l534, l535, l618, vb, Pi.add_apply, mv_0, mv_1, mv_2, cr_0, cr_1, cr_2, foot, pv_0, pv_1, pv_2, side_2, mountX_2, mountY_2, th_2_0, th_2_1, th_2_2, segA, segB, segC, segD, segH, jac, jm_00, jm_01, jm_02, jm_10, jm_11, jm_12, jm_20, jm_21, jm_22, qd_2_0, qd_2_1, qd_2_2, om_0, om_1, om_2, lv_0, lv_1, lv_2] <;> ring
theorem h619 (x : Fin 36 → ℝ) : l619 x = -vb 2 x 0 := by
  simp only [l424, l426, l428, l430, l432, l448, l525, l526, l527, l528, l529, l530, l531, l565, l566, l567, l568, l569, l570,
    l577, l578, l579, l580, l581, l582, l583, l619, vb, Pi.add_apply, mv_0, mv_1, mv_2, cr_0, cr_1, cr_2, foot, pv_0, pv_1, pv_2, side_2, mountX_2, mountY_2, th_2_0, th_2_1, th_2_2, segA, segB, segC, segD, segH, jac, jm_00, jm_01, jm_02, jm_10, jm_11, jm_12, jm_20, jm_21, jm_22, qd_2_0, qd_2_1, qd_2_2, om_0, om_1, om_2, lv_0, lv_1, lv_2] <;> ring

theorem e0_12 (x : Fin 36 → ℝ) : l479 x = (dRm (Qe x) (dQ 0 x) *ᵥ foot 2 x) 0 := by
  simp only [l435, l437, l438, l440, l441, l443, l445, l447, l458, l459, l466, l467, l468, l470, l471, l473, l474, l475, l476,
    l477, l478, l479, h434, h446, h454, h457, h463, h464, h465, h469, h472, mv_0, mv_1, mv_2, dRm_00, dRm_01, dRm_02, dRm_10, dRm_11, dRm_12, dRm_20, dRm_21, dRm_22, dQ_0_0, dQ_0_1, dQ_0_2, dQ_0_3] <;> ring
theorem e0_13 (x : Fin 36 → ℝ) : l494 x = (dRm (Qe x) (dQ 0 x) *ᵥ foot 2 x) 1 := by
  simp only [l435, l437, l438, l440, l441, l443, l445, l447, l458, l475, l478, l481, l483, l484, l485, l486, l487, l488, l490,
    l491, l492, l493, l494, h434, h446, h457, h462, h464, h465, h480, h482, h489, mv_0, mv_1, mv_2, dRm_00, dRm_01, dRm_02, dRm_10, dRm_11, dRm_12, dRm_20, dRm_21, dRm_22, dQ_0_0, dQ_0_1, dQ_0_2, dQ_0_3] <;> ring
theorem e0_14 (x : Fin 36 → ℝ) : l508 x = (dRm (Qe x) (dQ 0 x) *ᵥ foot 2 x) 2 := by
  simp only [l435, l437, l438, l440, l441, l443, l445, l447, l458, l475, l478, l481, l496, l499, l500, l501, l502, l503, l504,
    l505, l506, l507, l508, h446, h454, h457, h462, h464, h465, h495, h497, h498, mv_0, mv_1, mv_2, dRm_00, dRm_01, dRm_02, dRm_10, dRm_11, dRm_12, dRm_20, dRm_21, dRm_22, dQ_0_0, dQ_0_1, dQ_0_2, dQ_0_3] <;> ring
theorem e0_15 (x : Fin 36 → ℝ) : l600 x = (dRm (Qe x) (dQ 0 x) *ᵥ vb 2 x) 0 := by
  simp only [l536, l538, l539, l541, l542, l544, l546, l548, l575, l576, l587, l588, l589, l591, l592, l594, l595, l596, l597,
    l598, l599, l600, h535, h547, h571, h574, h584, h585, h586, h590, h593, mv_0, mv_1, mv_2, dRm_00, dRm_01, dRm_02, dRm_10, dRm_11, dRm_12, dRm_20, dRm_21, dRm_22, dQ_0_0, dQ_0_1, dQ_0_2, dQ_0_3] <;> ring
theorem e0_16 (x : Fin 36 → ℝ) : l615 x = (dRm (Qe x) (dQ 0 x) *ᵥ vb 2 x) 1 := by
  simp only [l536, l538, l539, l541, l542, l544, l546, l548, l575, l596, l599, l602, l604, l605, l606, l607, l608, l609, l611,
    l612, l613, l614, l615, h535, h547, h574, h583, h585, h586, h601, h603, h610, mv_0, mv_1, mv_2, dRm_00, dRm_01, dRm_02, dRm_10, dRm_11, dRm_12, dRm_20, dRm_21, dRm_22, dQ_0_0, dQ_0_1, dQ_0_2, dQ_0_3] <;> ring
theorem e0_17 (x : Fin 36 → ℝ) : l629 x = (dRm (Qe x) (dQ 0 x) *ᵥ vb 2 x) 2 := by
  simp only [l536, l538, l539, l541, l542, l544, l546, l548, l575, l596, l599, l602, l617, l620, l621, l622, l623, l624, l625,
    l626, l627, l628, l629, h547, h571, h574, h583, h585, h586, h616, h618, h619, mv_0, mv_1, mv_2, dRm_00, dRm_01, dRm_02, dRm_10, dRm_11, dRm_12, dRm_20, dRm_21, dRm_22, dQ_0_0, dQ_0_1, dQ_0_2, dQ_0_3] <;> ring
theorem e1_12 (x : Fin 36 → ℝ) : l857 x = (dRm (Qe x) (dQ 1 x) *ᵥ foot 2 x) 0 := by
  simp only [l435, l436, l437, l440, l441, l442, l445, l447, l458, l459, l466, l467, l468, l470, l471, l473, l474, l476, l477,
    l855, l856, l857, h434, h446, h454, h457, h463, h464, h465, h469, h472, mv_0, mv_1, mv_2, dRm_00, dRm_01, dRm_02, dRm_10, dRm_11, dRm_12, dRm_20, dRm_21, dRm_22, dQ_1_0, dQ_1_1, dQ_1_2, dQ_1_3] <;> ring
theorem e1_13 (x : Fin 36 → ℝ) : l858 x = (dRm (Qe x) (dQ 1 x) *ᵥ foot 2 x) 1 := by
  simp only [l435, l436, l437, l440, l441, l442, l445, l447, l458, l481, l483, l484, l485, l486, l487, l488, l490, l491, l492,
    l493, l855, l856, l858, h434, h446, h457, h462, h464, h465, h480, h482, h489, mv_0, mv_1, mv_2, dRm_00, dRm_01, dRm_02, dRm_10, dRm_11, dRm_12, dRm_20, dRm_21, dRm_22, dQ_1_0, dQ_1_1, dQ_1_2, dQ_1_3] <;> ring
theorem e1_14 (x : Fin 36 → ℝ) : l859 x = (dRm (Qe x) (dQ 1 x) *ᵥ foot 2 x) 2 := by
  simp only [l435, l436, l437, l440, l441, l442, l445, l447, l458, l481, l496, l499, l500, l501, l502, l503, l504, l505, l506,
    l507, l855, l856, l859, h446, h454, h457, h462, h464, h465, h495, h497, h498, mv_0, mv_1, mv_2, dRm_00, dRm_01, dRm_02, dRm_10, dRm_11, dRm_12, dRm_20, dRm_21, dRm_22, dQ_1_0, dQ_1_1, dQ_1_2, dQ_1_3] <;> ring
theorem e1_15 (x : Fin 36 → ℝ) : l862 x = (dRm (Qe x) (dQ 1 x) *ᵥ vb 2 x) 0 := by
  simp only [l536, l537, l538, l541, l542, l543, l546, l548, l575, l576, l587, l588, l589, l591, l592, l594, l595, l597, l598,
    l860, l861, l862, h535, h547, h571, h574, h584, h585, h586, h590, h593, mv_0, mv_1, mv_2, dRm_00, dRm_01, dRm_02, dRm_10, dRm_11, dRm_12, dRm_20, dRm_21, dRm_22, dQ_1_0, dQ_1_1, dQ_1_2, dQ_1_3] <;> ring
theorem e1_16 (x : Fin 36 → ℝ) : l863 x = (dRm (Qe x) (dQ 1 x) *ᵥ vb 2 x) 1 := by
  simp only [l536, l537, l538, l541, l542, l543, l546, l548, l575, l602, l604, l605, l606, l607, l608, l609, l611, l612, l613,
    l614, l860, l861, l863, h535, h547, h574, h583, h585, h586, h601, h603, h610, mv_0, mv_1, mv_2, dRm_00, dRm_01, dRm_02, dRm_10, dRm_11, dRm_12, dRm_20, dRm_21, dRm_22, dQ_1_0, dQ_1_1, dQ_1_2, dQ_1_3] <;> ring
theorem e1_17 (x : Fin 36 → ℝ) : l864 x = (dRm (Qe x) (dQ 1 x) *ᵥ vb 2 x) 2 := by
  simp only [l536, l537, l538, l541, l542, l543, l546, l548, l575, l602, l617, l620, l621, l622, l623, l624, l625, l626, l627,
    l628, l860, l861, l864, h547, h571, h574, h583, h585, h586, h616, h618, h619, mv_0, mv_1, mv_2, dRm_00, dRm_01, dRm_02, dRm_10, dRm_11, dRm_12, dRm_20, dRm_21, dRm_22, dQ_1_0, dQ_1_1, dQ_1_2, dQ_1_3] <;> ring
theorem e2_12 (x : Fin 36 → ℝ) : l897 x = (dRm (Qe x) (dQ 2 x) *ᵥ foot 2 x) 0 := by
  simp only [l435, l436, l437, l438, l439, l440, l442, l443, l444, l447, l455, l456, l458, l459, l466, l467, l470, l471, l473,
    l895, l896, l897, h434, h446, h454, h457, h463, h464, h465, h469, h472, mv_0, mv_1, mv_2, dRm_00, dRm_01, dRm_02, dRm_10, dRm_11, dRm_12, dRm_20, dRm_21, dRm_22, dQ_2_0, dQ_2_1, dQ_2_2, dQ_2_3] <;> ring
theorem e2_13 (x : Fin 36 → ℝ) : l898 x = (dRm (Qe x) (dQ 2 x) *ᵥ foot 2 x) 1 := by
  simp only [l435, l436, l437, l438, l439, l440, l442, l443, l444, l447, l455, l456, l458, l481, l483, l484, l485, l487, l488,
    l490, l895, l896, l898, h434, h446, h457, h462, h464, h465, h480, h482, h489, mv_0, mv_1, mv_2, dRm_00, dRm_01, dRm_02, dRm_10, dRm_11, dRm_12, dRm_20, dRm_21, dRm_22, dQ_2_0, dQ_2_1, dQ_2_2, dQ_2_3] <;> ring
theorem e2_14 (x : Fin 36 → ℝ) : l899 x = (dRm (Qe x) (dQ 2 x) *ᵥ foot 2 x) 2 := by
  simp only [l435, l436, l437, l438, l439, l440, l442, l443, l444, l447, l455, l456, l458, l481, l496, l499, l500, l502, l503,
    l504, l895, l896, l899, h446, h454, h457, h462, h464, h465, h495, h497, h498, mv_0, mv_1, mv_2, dRm_00, dRm_01, dRm_02, dRm_10, dRm_11, dRm_12, dRm_20, dRm_21, dRm_22, dQ_2_0, dQ_2_1, dQ_2_2, dQ_2_3] <;> ring
theorem e2_15 (x : Fin 36 → ℝ) : l902 x = (dRm (Qe x) (dQ 2 x) *ᵥ vb 2 x) 0 := by
  simp only [l536, l537, l538, l539, l540, l541, l543, l544, l545, l548, l572, l573, l575, l576, l587, l588, l591, l592, l594,
    l900, l901, l902, h535, h547, h571, h574, h584, h585, h586, h590, h593, mv_0, mv_1, mv_2, dRm_00, dRm_01, dRm_02, dRm_10, dRm_11, dRm_12, dRm_20, dRm_21, dRm_22, dQ_2_0, dQ_2_1, dQ_2_2, dQ_2_3] <;> ring
theorem e2_16 (x : Fin 36 → ℝ) : l903 x = (dRm (Qe x) (dQ 2 x) *ᵥ vb 2 x) 1 := by
  simp only [l536, l537, l538, l539, l540, l541, l543, l544, l545, l548, l572, l573, l575, l602, l604, l605, l606, l608, l609,
    l611, l900, l901, l903, h535, h547, h574, h583, h585, h586, h601, h603, h610, mv_0, mv_1, mv_2, dRm_00, dRm_01, dRm_02, dRm_10, dRm_11, dRm_12, dRm_20, dRm_21, dRm_22, dQ_2_0, dQ_2_1, dQ_2_2, dQ_2_3] <;> ring
theorem e2_17 (x : Fin 36 → ℝ) : l904 x = (dRm (Qe x) (dQ 2 x) *ᵥ vb 2 x) 2 := by
  simp only [l536, l537, l538, l539, l540, l541, l543, l544, l545, l548, l572, l573, l575, l602, l617, l620, l621, l623, l624,
    l625, l900, l901, l904, h547, h571, h574, h583, h585, h586, h616, h618, h619, mv_0, mv_1, mv_2, dRm_00, dRm_01, dRm_02, dRm_10, dRm_11, dRm_12, dRm_20, dRm_21, dRm_22, dQ_2_0, dQ_2_1, dQ_2_2, dQ_2_3] <;> ring
theorem e3_12 (x : Fin 36 → ℝ) : l1786 x = ((Pi.single 0 1 : V3)) 0 := by simp [l1786]
theorem e3_13 (_x : Fin 36 → ℝ) : (0 : ℝ) = ((Pi.single 0 1 : V3)) 1 := by simp [Pi.zero_apply]
theorem e3_14 (_x : Fin 36 → ℝ) : (0 : ℝ) = ((Pi.single 0 1 : V3)) 2 := by simp [Pi.zero_apply]
theorem e3_15 (_x : Fin 36 → ℝ) : (0 : ℝ) = ((0 : V3)) 0 := by simp [Pi.zero_apply]
theorem e3_16 (_x : Fin 36 → ℝ) : (0 : ℝ) = ((0 : V3)) 1 := by simp [Pi.zero_apply]
theorem e3_17 (_x : Fin 36 → ℝ) : (0 : ℝ) = ((0 : V3)) 2 := by simp [Pi.zero_apply]
theorem e4_12 (_x : Fin 36 → ℝ) : (0 : ℝ) = ((Pi.single 1 1 : V3)) 0 := by simp [Pi.zero_apply]
theorem e4_13 (x : Fin 36 → ℝ) : l1790 x = ((Pi.single 1 1 : V3)) 1 := by simp [l1790]
theorem e4_14 (_x : Fin 36 → ℝ) : (0 : ℝ) = ((Pi.single 1 1 : V3)) 2 := by simp [Pi.zero_apply]
theorem e4_15 (_x : Fin 36 → ℝ) : (0 : ℝ) = ((0 : V3)) 0 := by simp [Pi.zero_apply]
theorem e4_16 (_x : Fin 36 → ℝ) : (0 : ℝ) = ((0 : V3)) 1 := by simp [Pi.zero_apply]
theorem e4_17 (_x : Fin 36 → ℝ) : (0 : ℝ) = ((0 : V3)) 2 := by simp [Pi.zero_apply]
theorem e5_12 (_x : Fin 36 → ℝ) : (0 : ℝ) = ((Pi.single 2 1 : V3)) 0 := by simp [Pi.zero_apply]
theorem e5_13 (_x : Fin 36 → ℝ) : (0 : ℝ) = ((Pi.single 2 1 : V3)) 1 := by simp [Pi.zero_apply]
theorem e5_14 (x : Fin 36 → ℝ) : l1794 x = ((Pi.single 2 1 : V3)) 2 := by simp [l1794]
theorem e5_15 (_x : Fin 36 → ℝ) : (0 : ℝ) = ((0 : V3)) 0 := by simp [Pi.zero_apply]
theorem e5_16 (_x : Fin 36 → ℝ) : (0 : ℝ) = ((0 : V3)) 1 := by simp [Pi.zero_apply]
theorem e5_17 (_x : Fin 36 → ℝ) : (0 : ℝ) = ((0 : V3)) 2 := by simp [Pi.zero_apply]
theorem e6_12 (_x : Fin 36 → ℝ) : (0 : ℝ) = ((0 : V3)) 0 := by simp [Pi.zero_apply]
theorem e6_13 (_x : Fin 36 → ℝ) : (0 : ℝ) = ((0 : V3)) 1 := by simp [Pi.zero_apply]
theorem e6_14 (_x : Fin 36 → ℝ) : (0 : ℝ) = ((0 : V3)) 2 := by simp [Pi.zero_apply]
theorem e6_15 (_x : Fin 36 → ℝ) : (0 : ℝ) = ((0 : V3)) 0 := by simp [Pi.zero_apply]
theorem e6_16 (_x : Fin 36 → ℝ) : (0 : ℝ) = ((0 : V3)) 1 := by simp [Pi.zero_apply]
theorem e6_17 (_x : Fin 36 → ℝ) : (0 : ℝ) = ((0 : V3)) 2 := by simp [Pi.zero_apply]
theorem e7_12 (_x : Fin 36 → ℝ) : (0 : ℝ) = ((0 : V3)) 0 := by simp [Pi.zero_apply]
theorem e7_13 (_x : Fin 36 → ℝ) : (0 : ℝ) = ((0 : V3)) 1 := by simp [Pi.zero_apply]
theorem e7_14 (_x : Fin 36 → ℝ) : (0 : ℝ) = ((0 : V3)) 2 := by simp [Pi.zero_apply]
theorem e7_15 (_x : Fin 36 → ℝ) : (0 : ℝ) = ((0 : V3)) 0 := by simp [Pi.zero_apply]
theorem e7_16 (_x : Fin 36 → ℝ) : (0 : ℝ) = ((0 : V3)) 1 := by simp [Pi.zero_apply]
theorem e7_17 (_x : Fin 36 → ℝ) : (0 : ℝ) = ((0 : V3)) 2 := by simp [Pi.zero_apply]
theorem e8_12 (_x : Fin 36 → ℝ) : (0 : ℝ) = ((0 : V3)) 0 := by simp [Pi.zero_apply]
theorem e8_13 (_x : Fin 36 → ℝ) : (0 : ℝ) = ((0 : V3)) 1 := by simp [Pi.zero_apply]
theorem e8_14 (_x : Fin 36 → ℝ) : (0 : ℝ) = ((0 : V3)) 2 := by simp [Pi.zero_apply]
theorem e8_15 (_x : Fin 36 → ℝ) : (0 : ℝ) = ((0 : V3)) 0 := by simp [Pi.zero_apply]
theorem e8_16 (_x : Fin 36 → ℝ) : (0 : ℝ) = ((0 : V3)) 1 := by simp [Pi.zero_apply]
theorem e8_17 (_x : Fin 36 → ℝ) : (0 : ℝ) = ((0 : V3)) 2 := by simp [Pi.zero_apply]
theorem e9_12 (_x : Fin 36 → ℝ) : (0 : ℝ) = ((0 : V3)) 0 := by simp [Pi.zero_apply]
theorem e9_13 (_x : Fin 36 → ℝ) : (0 : ℝ) = ((0 : V3)) 1 := by simp [Pi.zero_apply]
theorem e9_14 (_x : Fin 36 → ℝ) : (0 : ℝ) = ((0 : V3)) 2 := by simp [Pi.zero_apply]
theorem e9_15 (_x : Fin 36 → ℝ) : (0 : ℝ) = ((0 : V3)) 0 := by simp [Pi.zero_apply]
theorem e9_16 (_x : Fin 36 → ℝ) : (0 : ℝ) = ((0 : V3)) 1 := by simp [Pi.zero_apply]
theorem e9_17 (_x : Fin 36 → ℝ) : (0 : ℝ) = ((0 : V3)) 2 := by simp [Pi.zero_apply]
theorem e10_12 (_x : Fin 36 → ℝ) : (0 : ℝ) = ((0 : V3)) 0 := by simp [Pi.zero_apply]
theorem e10_13 (_x : Fin 36 → ℝ) : (0 : ℝ) = ((0 : V3)) 1 := by simp [Pi.zero_apply]
theorem e10_14 (_x : Fin 36 → ℝ) : (0 : ℝ) = ((0 : V3)) 2 := by simp [Pi.zero_apply]
theorem e10_15 (_x : Fin 36 → ℝ) : (0 : ℝ) = ((0 : V3)) 0 := by simp [Pi.zero_apply]
theorem e10_16 (_x : Fin 36 → ℝ) : (0 : ℝ) = ((0 : V3)) 1 := by simp [Pi.zero_apply]
theorem e10_17 (_x : Fin 36 → ℝ) : (0 : ℝ) = ((0 : V3)) 2 := by simp [Pi.zero_apply]
theorem e11_12 (_x : Fin 36 → ℝ) : (0 : ℝ) = ((0 : V3)) 0 := by simp [Pi.zero_apply]
theorem e11_13 (_x : Fin 36 → ℝ) : (0 : ℝ) = ((0 : V3)) 1 := by simp [Pi.zero_apply]
theorem e11_14 (_x : Fin 36 → ℝ) : (0 : ℝ) = ((0 : V3)) 2 := by simp [Pi.zero_apply]
theorem e11_15 (_x : Fin 36 → ℝ) : (0 : ℝ) = ((0 : V3)) 0 := by simp [Pi.zero_apply]
theorem e11_16 (_x : Fin 36 → ℝ) : (0 : ℝ) = ((0 : V3)) 1 := by simp [Pi.zero_apply]
theorem e11_17 (_x : Fin 36 → ℝ) : (0 : ℝ) = ((0 : V3)) 2 := by simp [Pi.zero_apply]
theorem e12_12 (x : Fin 36 → ℝ) : l1363 x = (quatMatrix (Qe x) *ᵥ jcol 2 0 x) 0 := by
  simp only [l426, l428, l430, l432, l447, l458, l1347, l1348, l1349, l1350, l1351, l1352, l1353, l1354, l1355, l1356, l1357,
    l1358, l1359, l1360, l1361, l1362, l1363, h446, h457, h464, h465, mv_0, mv_1, mv_2, qm_00, qm_01, qm_02, qm_10, qm_11, qm_12, qm_20, qm_21, qm_22, jcol, jac, jm_00, jm_01, jm_02, jm_10, jm_11, jm_12, jm_20, jm_21, jm_22, side_2, th_2_0, th_2_1, th_2_2, segA, segB, segC, segD, segH, Pi.add_apply, cr_0, cr_1, cr_2, djm_0_00, djm_0_01, djm_0_02, djm_0_10, djm_0_11, djm_0_12, djm_0_20, djm_0_21, djm_0_22, qd_2_0, qd_2_1, qd_2_2, om_0, om_1, om_2] <;> ring
theorem e12_13 (x : Fin 36 → ℝ) : l1378 x = (quatMatrix (Qe x) *ᵥ jcol 2 0 x) 1 := by
  simp only [l426, l428, l430, l432, l447, l481, l1354, l1362, l1364, l1365, l1366, l1367, l1368, l1369, l1370, l1371, l1372,
    l1373, l1374, l1375, l1376, l1377, l1378, h446, h457, h464, h465, mv_0, mv_1, mv_2, qm_00, qm_01, qm_02, qm_10, qm_11, qm_12, qm_20, qm_21, qm_22, jcol, jac, jm_00, jm_01, jm_02, jm_10, jm_11, jm_12, jm_20, jm_21, jm_22, side_2, th_2_0, th_2_1, th_2_2, segA, segB, segC, segD, segH, Pi.add_apply, cr_0, cr_1, cr_2, djm_0_00, djm_0_01, djm_0_02, djm_0_10, djm_0_11, djm_0_12, djm_0_20, djm_0_21, djm_0_22, qd_2_0, qd_2_1, qd_2_2, om_0, om_1, om_2] <;> ring
theorem e12_14 (x : Fin 36 → ℝ) : l1390 x = (quatMatrix (Qe x) *ᵥ jcol 2 0 x) 2 := by
  simp only [l426, l428, l430, l432, l447, l458, l481, l1354, l1362, l1364, l1365, l1372, l1379, l1380, l1381, l1382, l1383,
    l1384, l1385, l1386, l1387, l1388, l1389, l1390, h446, h457, h464, h465, mv_0, mv_1, mv_2, qm_00, qm_01, qm_02, qm_10, qm_11, qm_12, qm_20, qm_21, qm_22, jcol, jac, jm_00, jm_01, jm_02, jm_10, jm_11, jm_12, jm_20, jm_21, jm_22, side_2, th_2_0, th_2_1, th_2_2, segA, segB, segC, segD, segH, Pi.add_apply, cr_0, cr_1, cr_2, djm_0_00, djm_0_01, djm_0_02, djm_0_10, djm_0_11, djm_0_12, djm_0_20, djm_0_21, djm_0_22, qd_2_0, qd_2_1, qd_2_2, om_0, om_1, om_2] <;> ring
theorem e12_15 (x : Fin 36 → ℝ) : l1439 x = (quatMatrix (Qe x) *ᵥ (djm (side 2) 0 (th 2 x) *ᵥ qd 2 x + cross (om x) (jcol 2 0 x))) 0 := by
  simp only [l426, l428, l430, l432, l527, l548, l575, l1354, l1362, l1391, l1392, l1393, l1394, l1395, l1396, l1398, l1399,
    l1400, l1401, l1402, l1403, l1404, l1405, l1406, l1412, l1413, l1414, l1415, l1416, l1417, l1418, l1419, l1420, l1421, l1422, l1423, l1425, l1426, l1427, l1428, l1429, l1430, l1431, l1432, l1433, l1434, l1435, l1436, l1437, l1438, l1439, h547, h574, h585, h586, mv_0, mv_1, mv_2, qm_00, qm_01, qm_02, qm_10, qm_11, qm_12, qm_20, qm_21, qm_22, jcol, jac, jm_00, jm_01, jm_02, jm_10, jm_11, jm_12, jm_20, jm_21, jm_22, side_2, th_2_0, th_2_1, th_2_2, segA, segB, segC, segD, segH, Pi.add_apply, cr_0, cr_1, cr_2, djm_0_00, djm_0_01, djm_0_02, djm_0_10, djm_0_11, djm_0_12, djm_0_20, djm_0_21, djm_0_22, qd_2_0, qd_2_1, qd_2_2, om_0, om_1, om_2] <;> ring
theorem e12_16 (x : Fin 36 → ℝ) : l1487 x = (quatMatrix (Qe x) *ᵥ (djm (side 2) 0 (th 2 x) *ᵥ qd 2 x + cross (om x) (jcol 2 0 x))) 1 := by
  simp only [l426, l428, l430, l432, l527, l548, l575, l602, l1354, l1362, l1391, l1394, l1395, l1397, l1440, l1441, l1443,
    l1444, l1445, l1446, l1447, l1448, l1449, l1450, l1451, l1460, l1461, l1462, l1463, l1464, l1465, l1466, l1467, l1468, l1469, l1470, l1471, l1473, l1474, l1475, l1476, l1477, l1478, l1479, l1480, l1481, l1482, l1483, l1484, l1485, l1486, l1487, h547, h574, h585, h586, mv_0, mv_1, mv_2, qm_00, qm_01, qm_02, qm_10, qm_11, qm_12, qm_20, qm_21, qm_22, jcol, jac, jm_00, jm_01, jm_02, jm_10, jm_11, jm_12, jm_20, jm_21, jm_22, side_2, th_2_0, th_2_1, th_2_2, segA, segB, segC, segD, segH, Pi.add_apply, cr_0, cr_1, cr_2, djm_0_00, djm_0_01, djm_0_02, djm_0_10, djm_0_11, djm_0_12, djm_0_20, djm_0_21, djm_0_22, qd_2_0, qd_2_1, qd_2_2, om_0, om_1, om_2] <;> ring
theorem e12_17 (x : Fin 36 → ℝ) : l1522 x = (quatMatrix (Qe x) *ᵥ (djm (side 2) 0 (th 2 x) *ᵥ qd 2 x + cross (om x) (jcol 2 0 x))) 2 := by
  simp only [l426, l428, l430, l432, l527, l548, l575, l602, l1354, l1362, l1392, l1404, l1405, l1408, l1440, l1442, l1449,
    l1450, l1453, l1488, l1489, l1490, l1491, l1492, l1493, l1495, l1496, l1497, l1498, l1499, l1500, l1501, l1502, l1503, l1504, l1505, l1506, l1508, l1509, l1510, l1511, l1512, l1513, l1514, l1515, l1516, l1517, l1518, l1519, l1520, l1521, l1522, h547, h574, h585, h586, mv_0, mv_1, mv_2, qm_00, qm_01, qm_02, qm_10, qm_11, qm_12, qm_20, qm_21, qm_22, jcol, jac, jm_00, jm_01, jm_02, jm_10, jm_11, jm_12, jm_20, jm_21, jm_22, side_2, th_2_0, th_2_1, th_2_2, segA, segB, segC, segD, segH, Pi.add_apply, cr_0, cr_1, cr_2, djm_0_00, djm_0_01, djm_0_02, djm_0_10, djm_0_11, djm_0_12, djm_0_20, djm_0_21, djm_0_22, qd_2_0, qd_2_1, qd_2_2, om_0, om_1, om_2] <;> ring
theorem e13_12 (x : Fin 36 → ℝ) : l1527 x = (quatMatrix (Qe x) *ᵥ jcol 2 1 x) 0 := by
  simp only [l424, l425, l428, l429, l432, l433, l447, l448, l449, l451, l453, l458, l1347, l1348, l1349, l1350, l1351, l1352,
    l1353, l1355, l1356, l1357, l1358, l1359, l1360, l1361, l1371, l1379, l1523, l1524, l1525, l1526, l1527, h446, h457, h464, h465, mv_0, mv_1, mv_2, qm_00, qm_01, qm_02, qm_10, qm_11, qm_12, qm_20, qm_21, qm_22, jcol, jac, jm_00, jm_01, jm_02, jm_10, jm_11, jm_12, jm_20, jm_21, jm_22, side_2, th_2_0, th_2_1, th_2_2, segA, segB, segC, segD, segH, Pi.add_apply, cr_0, cr_1, cr_2, djm_1_00, djm_1_01, djm_1_02, djm_1_10, djm_1_11, djm_1_12, djm_1_20, djm_1_21, djm_1_22, qd_2_0, qd_2_1, qd_2_2, om_0, om_1, om_2] <;> ring
theorem e13_13 (x : Fin 36 → ℝ) : l1530 x = (quatMatrix (Qe x) *ᵥ jcol 2 1 x) 1 := by
  simp only [l424, l425, l428, l429, l432, l433, l447, l448, l449, l451, l453, l458, l481, l1355, l1356, l1364, l1365, l1366,
    l1367, l1368, l1369, l1370, l1371, l1372, l1373, l1374, l1375, l1376, l1377, l1524, l1526, l1528, l1529, l1530, h446, h457, h464, h465, mv_0, mv_1, mv_2, qm_00, qm_01, qm_02, qm_10, qm_11, qm_12, qm_20, qm_21, qm_22, jcol, jac, jm_00, jm_01, jm_02, jm_10, jm_11, jm_12, jm_20, jm_21, jm_22, side_2, th_2_0, th_2_1, th_2_2, segA, segB, segC, segD, segH, Pi.add_apply, cr_0, cr_1, cr_2, djm_1_00, djm_1_01, djm_1_02, djm_1_10, djm_1_11, djm_1_12, djm_1_20, djm_1_21, djm_1_22, qd_2_0, qd_2_1, qd_2_2, om_0, om_1, om_2] <;> ring
theorem e13_14 (x : Fin 36 → ℝ) : l1533 x = (quatMatrix (Qe x) *ᵥ jcol 2 1 x) 2 := by
  simp only [l424, l425, l428, l429, l432, l433, l447, l448, l449, l451, l453, l458, l481, l1347, l1348, l1364, l1365, l1372,
    l1379, l1380, l1381, l1382, l1383, l1384, l1385, l1386, l1387, l1388, l1389, l1524, l1526, l1531, l1532, l1533, h446, h457, h464, h465, mv_0, mv_1, mv_2, qm_00, qm_01, qm_02, qm_10, qm_11, qm_12, qm_20, qm_21, qm_22, jcol, jac, jm_00, jm_01, jm_02, jm_10, jm_11, jm_12, jm_20, jm_21, jm_22, side_2, th_2_0, th_2_1, th_2_2, segA, segB, segC, segD, segH, Pi.add_apply, cr_0, cr_1, cr_2, djm_1_00, djm_1_01, djm_1_02, djm_1_10, djm_1_11, djm_1_12, djm_1_20, djm_1_21, djm_1_22, qd_2_0, qd_2_1, qd_2_2, om_0, om_1, om_2] <;> ring
theorem e13_15 (x : Fin 36 → ℝ) : l1542 x = (quatMatrix (Qe x) *ᵥ (djm (side 2) 1 (th 2 x) *ᵥ qd 2 x + cross (om x) (jcol 2 1 x))) 0 := by
  simp only [l424, l428, l432, l448, l509, l511, l515, l517, l519, l521, l523, l525, l527, l528, l530, l548, l549, l551, l555,
    l557, l559, l561, l563, l565, l567, l569, l575, l1391, l1392, l1393, l1394, l1395, l1396, l1398, l1399, l1400, l1401, l1402, l1403, l1404, l1405, l1406, l1412, l1413, l1414, l1415, l1416, l1417, l1418, l1419, l1420, l1421, l1422, l1423, l1425, l1426, l1427, l1428, l1429, l1430, l1431, l1432, l1433, l1434, l1435, l1436, l1437, l1438, l1524, l1526, l1534, l1536, l1537, l1538, l1539, l1540, l1541, l1542, h547, h574, h585, h586, mv_0, mv_1, mv_2, qm_00, qm_01, qm_02, qm_10, qm_11, qm_12, qm_20, qm_21, qm_22, jcol, jac, jm_00, jm_01, jm_02, jm_10, jm_11, jm_12, jm_20, jm_21, jm_22, side_2, th_2_0, th_2_1, th_2_2, segA, segB, segC, segD, segH, Pi.add_apply, cr_0, cr_1, cr_2, djm_1_00, djm_1_01, djm_1_02, djm_1_10, djm_1_11, djm_1_12, djm_1_20, djm_1_21, djm_1_22, qd_2_0, qd_2_1, qd_2_2, om_0, om_1, om_2] <;> ring
theorem e13_16 (x : Fin 36 → ℝ) : l1551 x = (quatMatrix (Qe x) *ᵥ (djm (side 2) 1 (th 2 x) *ᵥ qd 2 x + cross (om x) (jcol 2 1 x))) 1 := by
  simp only [l424, l428, l432, l448, l509, l511, l515, l517, l519, l521, l523, l525, l527, l528, l530, l548, l549, l551, l555,
    l557, l559, l561, l563, l565, l567, l569, l575, l602, l1391, l1394, l1395, l1397, l1440, l1441, l1443, l1444, l1445, l1446, l1447, l1448, l1449, l1450, l1451, l1460, l1461, l1462, l1463, l1464, l1465, l1466, l1467, l1468, l1469, l1470, l1471, l1473, l1474, l1475, l1476, l1477, l1478, l1479, l1480, l1481, l1482, l1483, l1484, l1485, l1486, l1524, l1526, l1543, l1545, l1546, l1547, l1548, l1549, l1550, l1551, h547, h574, h585, h586, mv_0, mv_1, mv_2, qm_00, qm_01, qm_02, qm_10, qm_11, qm_12, qm_20, qm_21, qm_22, jcol, jac, jm_00, jm_01, jm_02, jm_10, jm_11, jm_12, jm_20, jm_21, jm_22, side_2, th_2_0, th_2_1, th_2_2, segA, segB, segC, segD, segH, Pi.add_apply, cr_0, cr_1, cr_2, djm_1_00, djm_1_01, djm_1_02, djm_1_10, djm_1_11, djm_1_12, djm_1_20, djm_1_21, djm_1_22, qd_2_0, qd_2_1, qd_2_2, om_0, om_1, om_2] <;> ring
theorem e13_17 (x : Fin 36 → ℝ) : l1560 x = (quatMatrix (Qe x) *ᵥ (djm (side 2) 1 (th 2 x) *ᵥ qd 2 x + cross (om x) (jcol 2 1 x))) 2 := by
  simp only [l424, l428, l432, l448, l509, l511, l515, l517, l519, l521, l523, l525, l527, l528, l530, l548, l549, l551, l555,
    l557, l559, l561, l563, l565, l567, l569, l575, l602, l1392, l1404, l1405, l1408, l1440, l1442, l1449, l1450, l1453, l1488, l1489, l1490, l1491, l1492, l1493, l1495, l1496, l1497, l1498, l1499, l1500, l1501, l1502, l1503, l1504, l1505, l1506, l1508, l1509, l1510, l1511, l1512, l1513, l1514, l1515, l1516, l1517, l1518, l1519, l1520, l1521, l1524, l1526, l1552, l1554, l1555, l1556, l1557, l1558, l1559, l1560, h547, h574, h585, h586, mv_0, mv_1, mv_2, qm_00, qm_01, qm_02, qm_10, qm_11, qm_12, qm_20, qm_21, qm_22, jcol, jac, jm_00, jm_01, jm_02, jm_10, jm_11, jm_12, jm_20, jm_21, jm_22, side_2, th_2_0, th_2_1, th_2_2, segA, segB, segC, segD, segH, Pi.add_apply, cr_0, cr_1, cr_2, djm_1_00, djm_1_01, djm_1_02, djm_1_10, djm_1_11, djm_1_12, djm_1_20, djm_1_21, djm_1_22, qd_2_0, qd_2_1, qd_2_2, om_0, om_1, om_2] <;> ring
theorem e14_12 (x : Fin 36 → ℝ) : l1563 x = (quatMatrix (Qe x) *ᵥ jcol 2 2 x) 0 := by
  simp only [l424, l425, l426, l427, l429, l430, l431, l447, l448, l449, l450, l451, l452, l458, l460, l461, l1347, l1348, l1349,
    l1351, l1355, l1356, l1357, l1359, l1371, l1379, l1523, l1525, l1561, l1562, l1563, h446, h457, h464, h465, mv_0, mv_1, mv_2, qm_00, qm_01, qm_02, qm_10, qm_11, qm_12, qm_20, qm_21, qm_22, jcol, jac, jm_00, jm_01, jm_02, jm_10, jm_11, jm_12, jm_20, jm_21, jm_22, side_2, th_2_0, th_2_1, th_2_2, segA, segB, segC, segD, segH, Pi.add_apply, cr_0, cr_1, cr_2, djm_2_00, djm_2_01, djm_2_02, djm_2_10, djm_2_11, djm_2_12, djm_2_20, djm_2_21, djm_2_22, qd_2_0, qd_2_1, qd_2_2, om_0, om_1, om_2] <;> ring
theorem e14_13 (x : Fin 36 → ℝ) : l1564 x = (quatMatrix (Qe x) *ᵥ jcol 2 2 x) 1 := by
  simp only [l424, l425, l426, l427, l429, l430, l431, l447, l448, l449, l450, l451, l452, l458, l460, l461, l481, l1355, l1356,
    l1364, l1365, l1366, l1368, l1371, l1372, l1373, l1375, l1528, l1529, l1561, l1562, l1564, h446, h457, h464, h465, mv_0, mv_1, mv_2, qm_00, qm_01, qm_02, qm_10, qm_11, qm_12, qm_20, qm_21, qm_22, jcol, jac, jm_00, jm_01, jm_02, jm_10, jm_11, jm_12, jm_20, jm_21, jm_22, side_2, th_2_0, th_2_1, th_2_2, segA, segB, segC, segD, segH, Pi.add_apply, cr_0, cr_1, cr_2, djm_2_00, djm_2_01, djm_2_02, djm_2_10, djm_2_11, djm_2_12, djm_2_20, djm_2_21, djm_2_22, qd_2_0, qd_2_1, qd_2_2, om_0, om_1, om_2] <;> ring
theorem e14_14 (x : Fin 36 → ℝ) : l1565 x = (quatMatrix (Qe x) *ᵥ jcol 2 2 x) 2 := by
  simp only [l424, l425, l426, l427, l429, l430, l431, l447, l448, l449, l450, l451, l452, l458, l460, l461, l481, l1347, l1348,
    l1364, l1365, l1372, l1379, l1380, l1382, l1385, l1387, l1531, l1532, l1561, l1562, l1565, h446, h457, h464, h465, mv_0, mv_1, mv_2, qm_00, qm_01, qm_02, qm_10, qm_11, qm_12, qm_20, qm_21, qm_22, jcol, jac, jm_00, jm_01, jm_02, jm_10, jm_11, jm_12, jm_20, jm_21, jm_22, side_2, th_2_0, th_2_1, th_2_2, segA, segB, segC, segD, segH, Pi.add_apply, cr_0, cr_1, cr_2, djm_2_00, djm_2_01, djm_2_02, djm_2_10, djm_2_11, djm_2_12, djm_2_20, djm_2_21, djm_2_22, qd_2_0, qd_2_1, qd_2_2, om_0, om_1, om_2] <;> ring
theorem e14_15 (x : Fin 36 → ℝ) : l1567 x = (quatMatrix (Qe x) *ᵥ (djm (side 2) 2 (th 2 x) *ᵥ qd 2 x + cross (om x) (jcol 2 2 x))) 0 := by
  simp only [l424, l426, l430, l448, l509, l510, l511, l512, l514, l515, l516, l519, l520, l521, l522, l525, l526, l528, l529,
    l532, l533, l548, l549, l550, l551, l552, l554, l555, l556, l559, l560, l561, l562, l565, l566, l567, l568, l575, l577, l578, l580, l581, l1391, l1392, l1393, l1394, l1395, l1396, l1398, l1399, l1401, l1404, l1405, l1406, l1412, l1414, l1418, l1420, l1423, l1425, l1427, l1430, l1433, l1435, l1534, l1536, l1537, l1538, l1539, l1540, l1541, l1561, l1562, l1566, l1567, h547, h574, h585, h586, mv_0, mv_1, mv_2, qm_00, qm_01, qm_02, qm_10, qm_11, qm_12, qm_20, qm_21, qm_22, jcol, jac, jm_00, jm_01, jm_02, jm_10, jm_11, jm_12, jm_20, jm_21, jm_22, side_2, th_2_0, th_2_1, th_2_2, segA, segB, segC, segD, segH, Pi.add_apply, cr_0, cr_1, cr_2, djm_2_00, djm_2_01, djm_2_02, djm_2_10, djm_2_11, djm_2_12, djm_2_20, djm_2_21, djm_2_22, qd_2_0, qd_2_1, qd_2_2, om_0, om_1, om_2] <;> ring
theorem e14_16 (x : Fin 36 → ℝ) : l1568 x = (quatMatrix (Qe x) *ᵥ (djm (side 2) 2 (th 2 x) *ᵥ qd 2 x + cross (om x) (jcol 2 2 x))) 1 := by
  simp only [l424, l426, l430, l448, l509, l510, l511, l512, l514, l515, l516, l519, l520, l521, l522, l525, l526, l528, l529,
    l532, l533, l548, l549, l550, l551, l552, l554, l555, l556, l559, l560, l561, l562, l565, l566, l567, l568, l575, l577, l578, l580, l581, l602, l1391, l1394, l1395, l1397, l1440, l1441, l1443, l1444, l1446, l1449, l1450, l1451, l1460, l1462, l1466, l1468, l1471, l1473, l1475, l1478, l1481, l1483, l1543, l1545, l1546, l1547, l1548, l1549, l1550, l1561, l1562, l1566, l1568, h547, h574, h585, h586, mv_0, mv_1, mv_2, qm_00, qm_01, qm_02, qm_10, qm_11, qm_12, qm_20, qm_21, qm_22, jcol, jac, jm_00, jm_01, jm_02, jm_10, jm_11, jm_12, jm_20, jm_21, jm_22, side_2, th_2_0, th_2_1, th_2_2, segA, segB, segC, segD, segH, Pi.add_apply, cr_0, cr_1, cr_2, djm_2_00, djm_2_01, djm_2_02, djm_2_10, djm_2_11, djm_2_12, djm_2_20, djm_2_21, djm_2_22, qd_2_0, qd_2_1, qd_2_2, om_0, om_1, om_2] <;> ring
theorem e14_17 (x : Fin 36 → ℝ) : l1569 x = (quatMatrix (Qe x) *ᵥ (djm (side 2) 2 (th 2 x) *ᵥ qd 2 x + cross (om x) (jcol 2 2 x))) 2 := by
  simp only [l424, l426, l430, l448, l509, l510, l511, l512, l514, l515, l516, l519, l520, l521, l522, l525, l526, l528, l529,
    l532, l533, l548, l549, l550, l551, l552, l554, l555, l556, l559, l560, l561, l562, l565, l566, l567, l568, l575, l577, l578, l580, l581, l602, l1392, l1404, l1405, l1408, l1440, l1442, l1449, l1450, l1453, l1488, l1489, l1491, l1495, l1497, l1501, l1503, l1506, l1508, l1510, l1513, l1516, l1518, l1552, l1554, l1555, l1556, l1557, l1558, l1559, l1561, l1562, l1566, l1569, h547, h574, h585, h586, mv_0, mv_1, mv_2, qm_00, qm_01, qm_02, qm_10, qm_11, qm_12, qm_20, qm_21, qm_22, jcol, jac, jm_00, jm_01, jm_02, jm_10, jm_11, jm_12, jm_20, jm_21, jm_22, side_2, th_2_0, th_2_1, th_2_2, segA, segB, segC, segD, segH, Pi.add_apply, cr_0, cr_1, cr_2, djm_2_00, djm_2_01, djm_2_02, djm_2_10, djm_2_11, djm_2_12, djm_2_20, djm_2_21, djm_2_22, qd_2_0, qd_2_1, qd_2_2, om_0, om_1, om_2] <;> ring
theorem e15_12 (_x : Fin 36 → ℝ) : (0 : ℝ) = ((0 : V3)) 0 := by simp [Pi.zero_apply]
theorem e15_13 (_x : Fin 36 → ℝ) : (0 : ℝ) = ((0 : V3)) 1 := by simp [Pi.zero_apply]
theorem e15_14 (_x : Fin 36 → ℝ) : (0 : ℝ) = ((0 : V3)) 2 := by simp [Pi.zero_apply]
theorem e15_15 (_x : Fin 36 → ℝ) : (0 : ℝ) = ((0 : V3)) 0 := by simp [Pi.zero_apply]
theorem e15_16 (_x : Fin 36 → ℝ) : (0 : ℝ) = ((0 : V3)) 1 := by simp [Pi.zero_apply]
theorem e15_17 (_x : Fin 36 → ℝ) : (0 : ℝ) = ((0 : V3)) 2 := by simp [Pi.zero_apply]
theorem e16_12 (_x : Fin 36 → ℝ) : (0 : ℝ) = ((0 : V3)) 0 := by simp [Pi.zero_apply]
theorem e16_13 (_x : Fin 36 → ℝ) : (0 : ℝ) = ((0 : V3)) 1 := by simp [Pi.zero_apply]
theorem e16_14 (_x : Fin 36 → ℝ) : (0 : ℝ) = ((0 : V3)) 2 := by simp [Pi.zero_apply]
theorem e16_15 (_x : Fin 36 → ℝ) : (0 : ℝ) = ((0 : V3)) 0 := by simp [Pi.zero_apply]
theorem e16_16 (_x : Fin 36 → ℝ) : (0 : ℝ) = ((0 : V3)) 1 := by simp [Pi.zero_apply]
theorem e16_17 (_x : Fin 36 → ℝ) : (0 : ℝ) = ((0 : V3)) 2 := by simp [Pi.zero_apply]
theorem e17_12 (_x : Fin 36 → ℝ) : (0 : ℝ) = ((0 : V3)) 0 := by simp [Pi.zero_apply]
theorem e17_13 (_x : Fin 36 → ℝ) : (0 : ℝ) = ((0 : V3)) 1 := by simp [Pi.zero_apply]
theorem e17_14 (_x : Fin 36 → ℝ) : (0 : ℝ) = ((0 : V3)) 2 := by simp [Pi.zero_apply]
theorem e17_15 (_x : Fin 36 → ℝ) : (0 : ℝ) = ((0 : V3)) 0 := by simp [Pi.zero_apply]
theorem e17_16 (_x : Fin 36 → ℝ) : (0 : ℝ) = ((0 : V3)) 1 := by simp [Pi.zero_apply]
theorem e17_17 (_x : Fin 36 → ℝ) : (0 : ℝ) = ((0 : V3)) 2 := by simp [Pi.zero_apply]
theorem e18_12 (_x : Fin 36 → ℝ) : (0 : ℝ) = ((0 : V3)) 0 := by simp [Pi.zero_apply]
theorem e18_13 (_x : Fin 36 → ℝ) : (0 : ℝ) = ((0 : V3)) 1 := by simp [Pi.zero_apply]
theorem e18_14 (_x : Fin 36 → ℝ) : (0 : ℝ) = ((0 : V3)) 2 := by simp [Pi.zero_apply]
theorem e18_15 (x : Fin 36 → ℝ) : l1407 x = (quatMatrix (Qe x) *ᵥ cross (Pi.single 0 1) (foot 2 x)) 0 := by
  simp only [l424, l426, l430, l432, l448, l525, l526, l527, l528, l529, l530, l531, l548, l565, l566, l567, l568, l569, l570,
    l575, l1394, l1395, l1396, l1398, l1404, l1405, l1406, l1407, h547, h574, h585, h586, mv_0, mv_1, mv_2, qm_00, qm_01, qm_02, qm_10, qm_11, qm_12, qm_20, qm_21, qm_22, cr_0, cr_1, cr_2, E_0_0, E_0_1, E_0_2, foot, pv_0, pv_1, pv_2, side_2, mountX_2, mountY_2, th_2_0, th_2_1, th_2_2, segA, segB, segC, segD, segH] <;> ring
theorem e18_16 (x : Fin 36 → ℝ) : l1452 x = (quatMatrix (Qe x) *ᵥ cross (Pi.single 0 1) (foot 2 x)) 1 := by
  simp only [l424, l426, l430, l432, l448, l525, l526, l527, l528, l529, l530, l531, l548, l565, l566, l567, l568, l569, l570,
    l602, l1391, l1440, l1441, l1443, l1449, l1450, l1451, l1452, h547, h574, h585, h586, mv_0, mv_1, mv_2, qm_00, qm_01, qm_02, qm_10, qm_11, qm_12, qm_20, qm_21, qm_22, cr_0, cr_1, cr_2, E_0_0, E_0_1, E_0_2, foot, pv_0, pv_1, pv_2, side_2, mountX_2, mountY_2, th_2_0, th_2_1, th_2_2, segA, segB, segC, segD, segH] <;> ring
theorem e18_17 (x : Fin 36 → ℝ) : l1494 x = (quatMatrix (Qe x) *ᵥ cross (Pi.single 0 1) (foot 2 x)) 2 := by
  simp only [l424, l426, l430, l432, l448, l525, l526, l527, l528, l529, l530, l531, l548, l565, l566, l567, l568, l569, l570,
    l575, l602, l1392, l1440, l1442, l1449, l1450, l1453, l1488, l1494, h547, h574, h585, h586, mv_0, mv_1, mv_2, qm_00, qm_01, qm_02, qm_10, qm_11, qm_12, qm_20, qm_21, qm_22, cr_0, cr_1, cr_2, E_0_0, E_0_1, E_0_2, foot, pv_0, pv_1, pv_2, side_2, mountX_2, mountY_2, th_2_0, th_2_1, th_2_2, segA, segB, segC, segD, segH] <;> ring
theorem e19_12 (_x : Fin 36 → ℝ) : (0 : ℝ) = ((0 : V3)) 0 := by simp [Pi.zero_apply]
theorem e19_13 (_x : Fin 36 → ℝ) : (0 : ℝ) = ((0 : V3)) 1 := by simp [Pi.zero_apply]
theorem e19_14 (_x : Fin 36 → ℝ) : (0 : ℝ) = ((0 : V3)) 2 := by simp [Pi.zero_apply]
theorem e19_15 (x : Fin 36 → ℝ) : l1535 x = (quatMatrix (Qe x) *ᵥ cross (Pi.single 1 1) (foot 2 x)) 0 := by
  simp only [l424, l426, l430, l432, l527, l532, l533, l534, l548, l565, l566, l567, l568, l569, l570, l575, l1391, l1392, l1393,
    l1404, l1405, l1406, l1534, l1535, h547, h574, h585, h586, mv_0, mv_1, mv_2, qm_00, qm_01, qm_02, qm_10, qm_11, qm_12, qm_20, qm_21, qm_22, cr_0, cr_1, cr_2, E_1_0, E_1_1, E_1_2, foot, pv_0, pv_1, pv_2, side_2, mountX_2, mountY_2, th_2_0, th_2_1, th_2_2, segA, segB, segC, segD, segH] <;> ring
theorem e19_16 (x : Fin 36 → ℝ) : l1544 x = (quatMatrix (Qe x) *ᵥ cross (Pi.single 1 1) (foot 2 x)) 1 := by
  simp only [l424, l426, l430, l432, l527, l532, l533, l534, l548, l565, l566, l567, l568, l569, l570, l575, l602, l1394, l1395,
    l1397, l1449, l1450, l1451, l1543, l1544, h547, h574, h585, h586, mv_0, mv_1, mv_2, qm_00, qm_01, qm_02, qm_10, qm_11, qm_12, qm_20, qm_21, qm_22, cr_0, cr_1, cr_2, E_1_0, E_1_1, E_1_2, foot, pv_0, pv_1, pv_2, side_2, mountX_2, mountY_2, th_2_0, th_2_1, th_2_2, segA, segB, segC, segD, segH] <;> ring
theorem e19_17 (x : Fin 36 → ℝ) : l1553 x = (quatMatrix (Qe x) *ᵥ cross (Pi.single 1 1) (foot 2 x)) 2 := by
  simp only [l424, l426, l430, l432, l527, l532, l533, l534, l548, l565, l566, l567, l568, l569, l570, l575, l602, l1392, l1404,
    l1405, l1408, l1440, l1442, l1552, l1553, h547, h574, h585, h586, mv_0, mv_1, mv_2, qm_00, qm_01, qm_02, qm_10, qm_11, qm_12, qm_20, qm_21, qm_22, cr_0, cr_1, cr_2, E_1_0, E_1_1, E_1_2, foot, pv_0, pv_1, pv_2, side_2, mountX_2, mountY_2, th_2_0, th_2_1, th_2_2, segA, segB, segC, segD, segH] <;> ring
theorem e20_12 (_x : Fin 36 → ℝ) : (0 : ℝ) = ((0 : V3)) 0 := by simp [Pi.zero_apply]
theorem e20_13 (_x : Fin 36 → ℝ) : (0 : ℝ) = ((0 : V3)) 1 := by simp [Pi.zero_apply]
theorem e20_14 (_x : Fin 36 → ℝ) : (0 : ℝ) = ((0 : V3)) 2 := by simp [Pi.zero_apply]
theorem e20_15 (x : Fin 36 → ℝ) : l1424 x = (quatMatrix (Qe x) *ᵥ cross (Pi.single 2 1) (foot 2 x)) 0 := by
  simp only [l426, l430, l432, l448, l525, l526, l527, l528, l529, l530, l531, l532, l533, l534, l548, l575, l1391, l1392, l1393,
    l1394, l1395, l1396, l1423, l1424, h547, h574, h585, h586, mv_0, mv_1, mv_2, qm_00, qm_01, qm_02, qm_10, qm_11, qm_12, qm_20, qm_21, qm_22, cr_0, cr_1, cr_2, E_2_0, E_2_1, E_2_2, foot, pv_0, pv_1, pv_2, side_2, mountX_2, mountY_2, th_2_0, th_2_1, th_2_2, segA, segB, segC, segD, segH] <;> ring
theorem e20_16 (x : Fin 36 → ℝ) : l1472 x = (quatMatrix (Qe x) *ᵥ cross (Pi.single 2 1) (foot 2 x)) 1 := by
  simp only [l426, l430, l432, l448, l525, l526, l527, l528, l529, l530, l531, l532, l533, l534, l548, l575, l602, l1391, l1394,
    l1395, l1397, l1440, l1441, l1471, l1472, h547, h574, h585, h586, mv_0, mv_1, mv_2, qm_00, qm_01, qm_02, qm_10, qm_11, qm_12, qm_20, qm_21, qm_22, cr_0, cr_1, cr_2, E_2_0, E_2_1, E_2_2, foot, pv_0, pv_1, pv_2, side_2, mountX_2, mountY_2, th_2_0, th_2_1, th_2_2, segA, segB, segC, segD, segH] <;> ring
theorem e20_17 (x : Fin 36 → ℝ) : l1507 x = (quatMatrix (Qe x) *ᵥ cross (Pi.single 2 1) (foot 2 x)) 2 := by
  simp only [l426, l430, l432, l448, l525, l526, l527, l528, l529, l530, l531, l532, l533, l534, l548, l575, l602, l1404, l1405,
    l1408, l1449, l1450, l1453, l1506, l1507, h547, h574, h585, h586, mv_0, mv_1, mv_2, qm_00, qm_01, qm_02, qm_10, qm_11, qm_12, qm_20, qm_21, qm_22, cr_0, cr_1, cr_2, E_2_0, E_2_1, E_2_2, foot, pv_0, pv_1, pv_2, side_2, mountX_2, mountY_2, th_2_0, th_2_1, th_2_2, segA, segB, segC, segD, segH] <;> ring
theorem e21_12 (_x : Fin 36 → ℝ) : (0 : ℝ) = ((0 : V3)) 0 := by simp [Pi.zero_apply]
theorem e21_13 (_x : Fin 36 → ℝ) : (0 : ℝ) = ((0 : V3)) 1 := by simp [Pi.zero_apply]
theorem e21_14 (_x : Fin 36 → ℝ) : (0 : ℝ) = ((0 : V3)) 2 := by simp [Pi.zero_apply]
theorem e21_15 (x : Fin 36 → ℝ) : l1393 x = (quatMatrix (Qe x) *ᵥ Pi.single 0 1) 0 := by
  simp only [l548, l575, l1391, l1392, l1393, h547, h574, mv_0, mv_1, mv_2, qm_00, qm_01, qm_02, qm_10, qm_11, qm_12, qm_20,
    qm_21, qm_22, E_0_0, E_0_1, E_0_2] <;> ring
theorem e21_16 (x : Fin 36 → ℝ) : l1397 x = (quatMatrix (Qe x) *ᵥ Pi.single 0 1) 1 := by
  simp only [l548, l575, l1394, l1395, l1397, h547, h574, h585, h586, mv_0, mv_1, mv_2, qm_00, qm_01, qm_02, qm_10, qm_11, qm_12,
    qm_20, qm_21, qm_22, E_0_0, E_0_1, E_0_2] <;> ring
theorem e21_17 (x : Fin 36 → ℝ) : l1408 x = (quatMatrix (Qe x) *ᵥ Pi.single 0 1) 2 := by
  simp only [l548, l575, l1404, l1405, l1408, h547, h574, h585, h586, mv_0, mv_1, mv_2, qm_00, qm_01, qm_02, qm_10, qm_11, qm_12,
    qm_20, qm_21, qm_22, E_0_0, E_0_1, E_0_2] <;> ring
theorem e22_12 (_x : Fin 36 → ℝ) : (0 : ℝ) = ((0 : V3)) 0 := by simp [Pi.zero_apply]
theorem e22_13 (_x : Fin 36 → ℝ) : (0 : ℝ) = ((0 : V3)) 1 := by simp [Pi.zero_apply]
theorem e22_14 (_x : Fin 36 → ℝ) : (0 : ℝ) = ((0 : V3)) 2 := by simp [Pi.zero_apply]
theorem e22_15 (x : Fin 36 → ℝ) : l1396 x = (quatMatrix (Qe x) *ᵥ Pi.single 1 1) 0 := by
  simp only [l548, l575, l1394, l1395, l1396, h547, h574, h585, h586, mv_0, mv_1, mv_2, qm_00, qm_01, qm_02, qm_10, qm_11, qm_12,
    qm_20, qm_21, qm_22, E_1_0, E_1_1, E_1_2] <;> ring
theorem e22_16 (x : Fin 36 → ℝ) : l1441 x = (quatMatrix (Qe x) *ᵥ Pi.single 1 1) 1 := by
  simp only [l548, l602, l1391, l1440, l1441, h547, h585, mv_0, mv_1, mv_2, qm_00, qm_01, qm_02, qm_10, qm_11, qm_12, qm_20,
    qm_21, qm_22, E_1_0, E_1_1, E_1_2] <;> ring
theorem e22_17 (x : Fin 36 → ℝ) : l1453 x = (quatMatrix (Qe x) *ᵥ Pi.single 1 1) 2 := by
  simp only [l548, l602, l1449, l1450, l1453, h547, h574, h585, h586, mv_0, mv_1, mv_2, qm_00, qm_01, qm_02, qm_10, qm_11, qm_12,
    qm_20, qm_21, qm_22, E_1_0, E_1_1, E_1_2] <;> ring
theorem e23_12 (_x : Fin 36 → ℝ) : (0 : ℝ) = ((0 : V3)) 0 := by simp [Pi.zero_apply]
theorem e23_13 (_x : Fin 36 → ℝ) : (0 : ℝ) = ((0 : V3)) 1 := by simp [Pi.zero_apply]
theorem e23_14 (_x : Fin 36 → ℝ) : (0 : ℝ) = ((0 : V3)) 2 := by simp [Pi.zero_apply]
theorem e23_15 (x : Fin 36 → ℝ) : l1406 x = (quatMatrix (Qe x) *ᵥ Pi.single 2 1) 0 := by
  simp only [l548, l575, l1404, l1405, l1406, h547, h574, h585, h586, mv_0, mv_1, mv_2, qm_00, qm_01, qm_02, qm_10, qm_11, qm_12,
    qm_20, qm_21, qm_22, E_2_0, E_2_1, E_2_2] <;> ring
theorem e23_16 (x : Fin 36 → ℝ) : l1451 x = (quatMatrix (Qe x) *ᵥ Pi.single 2 1) 1 := by
  simp only [l548, l602, l1449, l1450, l1451, h547, h574, h585, h586, mv_0, mv_1, mv_2, qm_00, qm_01, qm_02, qm_10, qm_11, qm_12,
    qm_20, qm_21, qm_22, E_2_0, E_2_1, E_2_2] <;> ring
theorem e23_17 (x : Fin 36 → ℝ) : l1442 x = (quatMatrix (Qe x) *ᵥ Pi.single 2 1) 2 := by
  simp only [l575, l602, l1392, l1440, l1442, h574, h585, mv_0, mv_1, mv_2, qm_00, qm_01, qm_02, qm_10, qm_11, qm_12, qm_20,
    qm_21, qm_22, E_2_0, E_2_1, E_2_2] <;> ring
theorem e24_12 (_x : Fin 36 → ℝ) : (0 : ℝ) = ((0 : V3)) 0 := by simp [Pi.zero_apply]
theorem e24_13 (_x : Fin 36 → ℝ) : (0 : ℝ) = ((0 : V3)) 1 := by simp [Pi.zero_apply]
theorem e24_14 (_x : Fin 36 → ℝ) : (0 : ℝ) = ((0 : V3)) 2 := by simp [Pi.zero_apply]
theorem e24_15 (_x : Fin 36 → ℝ) : (0 : ℝ) = ((0 : V3)) 0 := by simp [Pi.zero_apply]
theorem e24_16 (_x : Fin 36 → ℝ) : (0 : ℝ) = ((0 : V3)) 1 := by simp [Pi.zero_apply]
theorem e24_17 (_x : Fin 36 → ℝ) : (0 : ℝ) = ((0 : V3)) 2 := by simp [Pi.zero_apply]
theorem e25_12 (_x : Fin 36 → ℝ) : (0 : ℝ) = ((0 : V3)) 0 := by simp [Pi.zero_apply]
theorem e25_13 (_x : Fin 36 → ℝ) : (0 : ℝ) = ((0 : V3)) 1 := by simp [Pi.zero_apply]
theorem e25_14 (_x : Fin 36 → ℝ) : (0 : ℝ) = ((0 : V3)) 2 := by simp [Pi.zero_apply]
theorem e25_15 (_x : Fin 36 → ℝ) : (0 : ℝ) = ((0 : V3)) 0 := by simp [Pi.zero_apply]
theorem e25_16 (_x : Fin 36 → ℝ) : (0 : ℝ) = ((0 : V3)) 1 := by simp [Pi.zero_apply]
theorem e25_17 (_x : Fin 36 → ℝ) : (0 : ℝ) = ((0 : V3)) 2 := by simp [Pi.zero_apply]
theorem e26_12 (_x : Fin 36 → ℝ) : (0 : ℝ) = ((0 : V3)) 0 := by simp [Pi.zero_apply]
theorem e26_13 (_x : Fin 36 → ℝ) : (0 : ℝ) = ((0 : V3)) 1 := by simp [Pi.zero_apply]
theorem e26_14 (_x : Fin 36 → ℝ) : (0 : ℝ) = ((0 : V3)) 2 := by simp [Pi.zero_apply]
theorem e26_15 (_x : Fin 36 → ℝ) : (0 : ℝ) = ((0 : V3)) 0 := by simp [Pi.zero_apply]
theorem e26_16 (_x : Fin 36 → ℝ) : (0 : ℝ) = ((0 : V3)) 1 := by simp [Pi.zero_apply]
theorem e26_17 (_x : Fin 36 → ℝ) : (0 : ℝ) = ((0 : V3)) 2 := by simp [Pi.zero_apply]
theorem e27_12 (_x : Fin 36 → ℝ) : (0 : ℝ) = ((0 : V3)) 0 := by simp [Pi.zero_apply]
theorem e27_13 (_x : Fin 36 → ℝ) : (0 : ℝ) = ((0 : V3)) 1 := by simp [Pi.zero_apply]
theorem e27_14 (_x : Fin 36 → ℝ) : (0 : ℝ) = ((0 : V3)) 2 := by simp [Pi.zero_apply]
theorem e27_15 (_x : Fin 36 → ℝ) : (0 : ℝ) = ((0 : V3)) 0 := by simp [Pi.zero_apply]
theorem e27_16 (_x : Fin 36 → ℝ) : (0 : ℝ) = ((0 : V3)) 1 := by simp [Pi.zero_apply]
theorem e27_17 (_x : Fin 36 → ℝ) : (0 : ℝ) = ((0 : V3)) 2 := by simp [Pi.zero_apply]
theorem e28_12 (_x : Fin 36 → ℝ) : (0 : ℝ) = ((0 : V3)) 0 := by simp [Pi.zero_apply]
theorem e28_13 (_x : Fin 36 → ℝ) : (0 : ℝ) = ((0 : V3)) 1 := by simp [Pi.zero_apply]
theorem e28_14 (_x : Fin 36 → ℝ) : (0 : ℝ) = ((0 : V3)) 2 := by simp [Pi.zero_apply]
theorem e28_15 (_x : Fin 36 → ℝ) : (0 : ℝ) = ((0 : V3)) 0 := by simp [Pi.zero_apply]
theorem e28_16 (_x : Fin 36 → ℝ) : (0 : ℝ) = ((0 : V3)) 1 := by simp [Pi.zero_apply]
theorem e28_17 (_x : Fin 36 → ℝ) : (0 : ℝ) = ((0 : V3)) 2 := by simp [Pi.zero_apply]
theorem e29_12 (_x : Fin 36 → ℝ) : (0 : ℝ) = ((0 : V3)) 0 := by simp [Pi.zero_apply]
theorem e29_13 (_x : Fin 36 → ℝ) : (0 : ℝ) = ((0 : V3)) 1 := by simp [Pi.zero_apply]
theorem e29_14 (_x : Fin 36 → ℝ) : (0 : ℝ) = ((0 : V3)) 2 := by simp [Pi.zero_apply]
theorem e29_15 (_x : Fin 36 → ℝ) : (0 : ℝ) = ((0 : V3)) 0 := by simp [Pi.zero_apply]
theorem e29_16 (_x : Fin 36 → ℝ) : (0 : ℝ) = ((0 : V3)) 1 := by simp [Pi.zero_apply]
theorem e29_17 (_x : Fin 36 → ℝ) : (0 : ℝ) = ((0 : V3)) 2 := by simp [Pi.zero_apply]
theorem e30_12 (_x : Fin 36 → ℝ) : (0 : ℝ) = ((0 : V3)) 0 := by simp [Pi.zero_apply]
theorem e30_13 (_x : Fin 36 → ℝ) : (0 : ℝ) = ((0 : V3)) 1 := by simp [Pi.zero_apply]
theorem e30_14 (_x : Fin 36 → ℝ) : (0 : ℝ) = ((0 : V3)) 2 := by simp [Pi.zero_apply]
theorem e30_15 (x : Fin 36 → ℝ) : l1409 x = (quatMatrix (Qe x) *ᵥ jcol 2 0 x) 0 := by
  simp only [l424, l426, l428, l430, l432, l448, l519, l520, l521, l522, l523, l524, l548, l559, l560, l561, l562, l563, l564,
    l575, l1394, l1395, l1396, l1404, l1405, l1406, l1409, h547, h574, h585, h586, mv_0, mv_1, mv_2, qm_00, qm_01, qm_02, qm_10, qm_11, qm_12, qm_20, qm_21, qm_22, jcol, jac, jm_00, jm_01, jm_02, jm_10, jm_11, jm_12, jm_20, jm_21, jm_22, side_2, th_2_0, th_2_1, th_2_2, segA, segB, segC, segD, segH] <;> ring
theorem e30_16 (x : Fin 36 → ℝ) : l1454 x = (quatMatrix (Qe x) *ᵥ jcol 2 0 x) 1 := by
  simp only [l424, l426, l428, l430, l432, l448, l519, l520, l521, l522, l523, l524, l548, l559, l560, l561, l562, l563, l564,
    l602, l1391, l1440, l1441, l1449, l1450, l1451, l1454, h547, h574, h585, h586, mv_0, mv_1, mv_2, qm_00, qm_01, qm_02, qm_10, qm_11, qm_12, qm_20, qm_21, qm_22, jcol, jac, jm_00, jm_01, jm_02, jm_10, jm_11, jm_12, jm_20, jm_21, jm_22, side_2, th_2_0, th_2_1, th_2_2, segA, segB, segC, segD, segH] <;> ring
theorem e30_17 (x : Fin 36 → ℝ) : l1455 x = (quatMatrix (Qe x) *ᵥ jcol 2 0 x) 2 := by
  simp only [l424, l426, l428, l430, l432, l448, l519, l520, l521, l522, l523, l524, l548, l559, l560, l561, l562, l563, l564,
    l575, l602, l1392, l1440, l1442, l1449, l1450, l1453, l1455, h547, h574, h585, h586, mv_0, mv_1, mv_2, qm_00, qm_01, qm_02, qm_10, qm_11, qm_12, qm_20, qm_21, qm_22, jcol, jac, jm_00, jm_01, jm_02, jm_10, jm_11, jm_12, jm_20, jm_21, jm_22, side_2, th_2_0, th_2_1, th_2_2, segA, segB, segC, segD, segH] <;> ring
theorem e31_12 (_x : Fin 36 → ℝ) : (0 : ℝ) = ((0 : V3)) 0 := by simp [Pi.zero_apply]
theorem e31_13 (_x : Fin 36 → ℝ) : (0 : ℝ) = ((0 : V3)) 1 := by simp [Pi.zero_apply]
theorem e31_14 (_x : Fin 36 → ℝ) : (0 : ℝ) = ((0 : V3)) 2 := by simp [Pi.zero_apply]
theorem e31_15 (x : Fin 36 → ℝ) : l1410 x = (quatMatrix (Qe x) *ᵥ jcol 2 1 x) 0 := by
  simp only [l424, l426, l428, l430, l432, l448, l509, l514, l515, l516, l517, l518, l548, l549, l554, l555, l556, l557, l558,
    l575, l580, l581, l582, l1391, l1392, l1393, l1394, l1395, l1396, l1404, l1405, l1406, l1410, h547, h574, h585, h586, mv_0, mv_1, mv_2, qm_00, qm_01, qm_02, qm_10, qm_11, qm_12, qm_20, qm_21, qm_22, jcol, jac, jm_00, jm_01, jm_02, jm_10, jm_11, jm_12, jm_20, jm_21, jm_22, side_2, th_2_0, th_2_1, th_2_2, segA, segB, segC, segD, segH] <;> ring
theorem e31_16 (x : Fin 36 → ℝ) : l1456 x = (quatMatrix (Qe x) *ᵥ jcol 2 1 x) 1 := by
  simp only [l424, l426, l428, l430, l432, l448, l509, l514, l515, l516, l517, l518, l548, l549, l554, l555, l556, l557, l558,
    l575, l580, l581, l582, l602, l1391, l1394, l1395, l1397, l1440, l1441, l1449, l1450, l1451, l1456, h547, h574, h585, h586, mv_0, mv_1, mv_2, qm_00, qm_01, qm_02, qm_10, qm_11, qm_12, qm_20, qm_21, qm_22, jcol, jac, jm_00, jm_01, jm_02, jm_10, jm_11, jm_12, jm_20, jm_21, jm_22, side_2, th_2_0, th_2_1, th_2_2, segA, segB, segC, segD, segH] <;> ring
theorem e31_17 (x : Fin 36 → ℝ) : l1457 x = (quatMatrix (Qe x) *ᵥ jcol 2 1 x) 2 := by
  simp only [l424, l426, l428, l430, l432, l448, l509, l514, l515, l516, l517, l518, l548, l549, l554, l555, l556, l557, l558,
    l575, l580, l581, l582, l602, l1392, l1404, l1405, l1408, l1440, l1442, l1449, l1450, l1453, l1457, h547, h574, h585, h586, mv_0, mv_1, mv_2, qm_00, qm_01, qm_02, qm_10, qm_11, qm_12, qm_20, qm_21, qm_22, jcol, jac, jm_00, jm_01, jm_02, jm_10, jm_11, jm_12, jm_20, jm_21, jm_22, side_2, th_2_0, th_2_1, th_2_2, segA, segB, segC, segD, segH] <;> ring
theorem e32_12 (_x : Fin 36 → ℝ) : (0 : ℝ) = ((0 : V3)) 0 := by simp [Pi.zero_apply]
theorem e32_13 (_x : Fin 36 → ℝ) : (0 : ℝ) = ((0 : V3)) 1 := by simp [Pi.zero_apply]
theorem e32_14 (_x : Fin 36 → ℝ) : (0 : ℝ) = ((0 : V3)) 2 := by simp [Pi.zero_apply]
theorem e32_15 (x : Fin 36 → ℝ) : l1411 x = (quatMatrix (Qe x) *ᵥ jcol 2 2 x) 0 := by
  simp only [l424, l426, l428, l430, l432, l448, l509, l510, l511, l512, l513, l548, l549, l550, l551, l552, l553, l575, l577,
    l578, l579, l1391, l1392, l1393, l1394, l1395, l1396, l1404, l1405, l1406, l1411, h547, h574, h585, h586, mv_0, mv_1, mv_2, qm_00, qm_01, qm_02, qm_10, qm_11, qm_12, qm_20, qm_21, qm_22, jcol, jac, jm_00, jm_01, jm_02, jm_10, jm_11, jm_12, jm_20, jm_21, jm_22, side_2, th_2_0, th_2_1, th_2_2, segA, segB, segC, segD, segH] <;> ring
theorem e32_16 (x : Fin 36 → ℝ) : l1458 x = (quatMatrix (Qe x) *ᵥ jcol 2 2 x) 1 := by
  simp only [l424, l426, l428, l430, l432, l448, l509, l510, l511, l512, l513, l548, l549, l550, l551, l552, l553, l575, l577,
    l578, l579, l602, l1391, l1394, l1395, l1397, l1440, l1441, l1449, l1450, l1451, l1458, h547, h574, h585, h586, mv_0, mv_1, mv_2, qm_00, qm_01, qm_02, qm_10, qm_11, qm_12, qm_20, qm_21, qm_22, jcol, jac, jm_00, jm_01, jm_02, jm_10, jm_11, jm_12, jm_20, jm_21, jm_22, side_2, th_2_0, th_2_1, th_2_2, segA, segB, segC, segD, segH] <;> ring
theorem e32_17 (x : Fin 36 → ℝ) : l1459 x = (quatMatrix (Qe x) *ᵥ jcol 2 2 x) 2 := by
  simp only [l424, l426, l428, l430, l432, l448, l509, l510, l511, l512, l513, l548, l549, l550, l551, l552, l553, l575, l577,
    l578, l579, l602, l1392, l1404, l1405, l1408, l1440, l1442, l1449, l1450, l1453, l1459, h547, h574, h585, h586, mv_0, mv_1, mv_2, qm_00, qm_01, qm_02, qm_10, qm_11, qm_12, qm_20, qm_21, qm_22, jcol, jac, jm_00, jm_01, jm_02, jm_10, jm_11, jm_12, jm_20, jm_21, jm_22, side_2, th_2_0, th_2_1, th_2_2, segA, segB, segC, segD, segH] <;> ring
theorem e33_12 (_x : Fin 36 → ℝ) : (0 : ℝ) = ((0 : V3)) 0 := by simp [Pi.zero_apply]
theorem e33_13 (_x : Fin 36 → ℝ) : (0 : ℝ) = ((0 : V3)) 1 := by simp [Pi.zero_apply]
theorem e33_14 (_x : Fin 36 → ℝ) : (0 : ℝ) = ((0 : V3)) 2 := by simp [Pi.zero_apply]
theorem e33_15 (_x : Fin 36 → ℝ) : (0 : ℝ) = ((0 : V3)) 0 := by simp [Pi.zero_apply]
theorem e33_16 (_x : Fin 36 → ℝ) : (0 : ℝ) = ((0 : V3)) 1 := by simp [Pi.zero_apply]
theorem e33_17 (_x : Fin 36 → ℝ) : (0 : ℝ) = ((0 : V3)) 2 := by simp [Pi.zero_apply]
theorem e34_12 (_x : Fin 36 → ℝ) : (0 : ℝ) = ((0 : V3)) 0 := by simp [Pi.zero_apply]
theorem e34_13 (_x : Fin 36 → ℝ) : (0 : ℝ) = ((0 : V3)) 1 := by simp [Pi.zero_apply]
theorem e34_14 (_x : Fin 36 → ℝ) : (0 : ℝ) = ((0 : V3)) 2 := by simp [Pi.zero_apply]
theorem e34_15 (_x : Fin 36 → ℝ) : (0 : ℝ) = ((0 : V3)) 0 := by simp [Pi.zero_apply]
theorem e34_16 (_x : Fin 36 → ℝ) : (0 : ℝ) = ((0 : V3)) 1 := by simp [Pi.zero_apply]
theorem e34_17 (_x : Fin 36 → ℝ) : (0 : ℝ) = ((0 : V3)) 2 := by simp [Pi.zero_apply]
theorem e35_12 (_x : Fin 36 → ℝ) : (0 : ℝ) = ((0 : V3)) 0 := by simp [Pi.zero_apply]
theorem e35_13 (_x : Fin 36 → ℝ) : (0 : ℝ) = ((0 : V3)) 1 := by simp [Pi.zero_apply]
theorem e35_14 (_x : Fin 36 → ℝ) : (0 : ℝ) = ((0 : V3)) 2 := by simp [Pi.zero_apply]
theorem e35_15 (_x : Fin 36 → ℝ) : (0 : ℝ) = ((0 : V3)) 0 := by simp [Pi.zero_apply]
theorem e35_16 (_x : Fin 36 → ℝ) : (0 : ℝ) = ((0 : V3)) 1 := by simp [Pi.zero_apply]
theorem e35_17 (_x : Fin 36 → ℝ) : (0 : ℝ) = ((0 : V3)) 2 := by simp [Pi.zero_apply]

theorem pos0 (x : Fin 36 → ℝ) : (fun i : Fin 3 => jacobian x ⟨12 + i, by omega⟩ 0) = Dpos 2 x (Pi.single 0 1) :=
  (ext3 (e0_12 x) (e0_13 x) (e0_14 x)).trans (col_angle 2 0 x 0 rfl).1.symm
theorem vel0 (x : Fin 36 → ℝ) : (fun i : Fin 3 => jacobian x ⟨15 + i, by omega⟩ 0) = Dvel 2 x (Pi.single 0 1) :=
  (ext3 (e0_15 x) (e0_16 x) (e0_17 x)).trans (col_angle 2 0 x 0 rfl).2.symm
theorem pos1 (x : Fin 36 → ℝ) : (fun i : Fin 3 => jacobian x ⟨12 + i, by omega⟩ 1) = Dpos 2 x (Pi.single 1 1) :=
  (ext3 (e1_12 x) (e1_13 x) (e1_14 x)).trans (col_angle 2 1 x 1 rfl).1.symm
theorem vel1 (x : Fin 36 → ℝ) : (fun i : Fin 3 => jacobian x ⟨15 + i, by omega⟩ 1) = Dvel 2 x (Pi.single 1 1) :=
  (ext3 (e1_15 x) (e1_16 x) (e1_17 x)).trans (col_angle 2 1 x 1 rfl).2.symm
theorem pos2 (x : Fin 36 → ℝ) : (fun i : Fin 3 => jacobian x ⟨12 + i, by omega⟩ 2) = Dpos 2 x (Pi.single 2 1) :=
  (ext3 (e2_12 x) (e2_13 x) (e2_14 x)).trans (col_angle 2 2 x 2 rfl).1.symm
theorem vel2 (x : Fin 36 → ℝ) : (fun i : Fin 3 => jacobian x ⟨15 + i, by omega⟩ 2) = Dvel 2 x (Pi.single 2 1) :=
  (ext3 (e2_15 x) (e2_16 x) (e2_17 x)).trans (col_angle 2 2 x 2 rfl).2.symm
theorem pos3 (x : Fin 36 → ℝ) : (fun i : Fin 3 => jacobian x ⟨12 + i, by omega⟩ 3) = Dpos 2 x (Pi.single 3 1) :=
  (ext3 (e3_12 x) (e3_13 x) (e3_14 x)).trans (col_base 2 0 x 3 rfl).1.symm
theorem vel3 (x : Fin 36 → ℝ) : (fun i : Fin 3 => jacobian x ⟨15 + i, by omega⟩ 3) = Dvel 2 x (Pi.single 3 1) :=
  (ext3 (e3_15 x) (e3_16 x) (e3_17 x)).trans (col_base 2 0 x 3 rfl).2.symm
theorem pos4 (x : Fin 36 → ℝ) : (fun i : Fin 3 => jacobian x ⟨12 + i, by omega⟩ 4) = Dpos 2 x (Pi.single 4 1) :=
  (ext3 (e4_12 x) (e4_13 x) (e4_14 x)).trans (col_base 2 1 x 4 rfl).1.symm
theorem vel4 (x : Fin 36 → ℝ) : (fun i : Fin 3 => jacobian x ⟨15 + i, by omega⟩ 4) = Dvel 2 x (Pi.single 4 1) :=
  (ext3 (e4_15 x) (e4_16 x) (e4_17 x)).trans (col_base 2 1 x 4 rfl).2.symm
theorem pos5 (x : Fin 36 → ℝ) : (fun i : Fin 3 => jacobian x ⟨12 + i, by omega⟩ 5) = Dpos 2 x (Pi.single 5 1) :=
  (ext3 (e5_12 x) (e5_13 x) (e5_14 x)).trans (col_base 2 2 x 5 rfl).1.symm
theorem vel5 (x : Fin 36 → ℝ) : (fun i : Fin 3 => jacobian x ⟨15 + i, by omega⟩ 5) = Dvel 2 x (Pi.single 5 1) :=
  (ext3 (e5_15 x) (e5_16 x) (e5_17 x)).trans (col_base 2 2 x 5 rfl).2.symm
theorem pos6 (x : Fin 36 → ℝ) : (fun i : Fin 3 => jacobian x ⟨12 + i, by omega⟩ 6) = Dpos 2 x (Pi.single 6 1) :=
  (ext3 (e6_12 x) (e6_13 x) (e6_14 x)).trans (col_other 2 0 0 x 6 (by decide) (by decide)).1.symm
theorem vel6 (x : Fin 36 → ℝ) : (fun i : Fin 3 => jacobian x ⟨15 + i, by omega⟩ 6) = Dvel 2 x (Pi.single 6 1) :=
  (ext3 (e6_15 x) (e6_16 x) (e6_17 x)).trans (col_other 2 0 0 x 6 (by decide) (by decide)).2.symm
theorem pos7 (x : Fin 36 → ℝ) : (fun i : Fin 3 => jacobian x ⟨12 + i, by omega⟩ 7) = Dpos 2 x (Pi.single 7 1) :=
  (ext3 (e7_12 x) (e7_13 x) (e7_14 x)).trans (col_other 2 0 1 x 7 (by decide) (by decide)).1.symm
theorem vel7 (x : Fin 36 → ℝ) : (fun i : Fin 3 => jacobian x ⟨15 + i, by omega⟩ 7) = Dvel 2 x (Pi.single 7 1) :=
  (ext3 (e7_15 x) (e7_16 x) (e7_17 x)).trans (col_other 2 0 1 x 7 (by decide) (by decide)).2.symm
theorem pos8 (x : Fin 36 → ℝ) : (fun i : Fin 3 => jacobian x ⟨12 + i, by omega⟩ 8) = Dpos 2 x (Pi.single 8 1) :=
  (ext3 (e8_12 x) (e8_13 x) (e8_14 x)).trans (col_other 2 0 2 x 8 (by decide) (by decide)).1.symm
theorem vel8 (x : Fin 36 → ℝ) : (fun i : Fin 3 => jacobian x ⟨15 + i, by omega⟩ 8) = Dvel 2 x (Pi.single 8 1) :=
  (ext3 (e8_15 x) (e8_16 x) (e8_17 x)).trans (col_other 2 0 2 x 8 (by decide) (by decide)).2.symm
theorem pos9 (x : Fin 36 → ℝ) : (fun i : Fin 3 => jacobian x ⟨12 + i, by omega⟩ 9) = Dpos 2 x (Pi.single 9 1) :=
  (ext3 (e9_12 x) (e9_13 x) (e9_14 x)).trans (col_other 2 1 0 x 9 (by decide) (by decide)).1.symm
theorem vel9 (x : Fin 36 → ℝ) : (fun i : Fin 3 => jacobian x ⟨15 + i, by omega⟩ 9) = Dvel 2 x (Pi.single 9 1) :=
  (ext3 (e9_15 x) (e9_16 x) (e9_17 x)).trans (col_other 2 1 0 x 9 (by decide) (by decide)).2.symm
theorem pos10 (x : Fin 36 → ℝ) : (fun i : Fin 3 => jacobian x ⟨12 + i, by omega⟩ 10) = Dpos 2 x (Pi.single 10 1) :=
  (ext3 (e10_12 x) (e10_13 x) (e10_14 x)).trans (col_other 2 1 1 x 10 (by decide) (by decide)).1.symm
theorem vel10 (x : Fin 36 → ℝ) : (fun i : Fin 3 => jacobian x ⟨15 + i, by omega⟩ 10) = Dvel 2 x (Pi.single 10 1) :=
  (ext3 (e10_15 x) (e10_16 x) (e10_17 x)).trans (col_other 2 1 1 x 10 (by decide) (by decide)).2.symm
theorem pos11 (x : Fin 36 → ℝ) : (fun i : Fin 3 => jacobian x ⟨12 + i, by omega⟩ 11) = Dpos 2 x (Pi.single 11 1) :=
  (ext3 (e11_12 x) (e11_13 x) (e11_14 x)).trans (col_other 2 1 2 x 11 (by decide) (by decide)).1.symm
theorem vel11 (x : Fin 36 → ℝ) : (fun i : Fin 3 => jacobian x ⟨15 + i, by omega⟩ 11) = Dvel 2 x (Pi.single 11 1) :=
  (ext3 (e11_15 x) (e11_16 x) (e11_17 x)).trans (col_other 2 1 2 x 11 (by decide) (by decide)).2.symm
theorem pos12 (x : Fin 36 → ℝ) : (fun i : Fin 3 => jacobian x ⟨12 + i, by omega⟩ 12) = Dpos 2 x (Pi.single 12 1) :=
  (ext3 (e12_12 x) (e12_13 x) (e12_14 x)).trans (col_joint 2 0 x 12 rfl).1.symm
theorem vel12 (x : Fin 36 → ℝ) : (fun i : Fin 3 => jacobian x ⟨15 + i, by omega⟩ 12) = Dvel 2 x (Pi.single 12 1) :=
  (ext3 (e12_15 x) (e12_16 x) (e12_17 x)).trans (col_joint 2 0 x 12 rfl).2.symm
theorem pos13 (x : Fin 36 → ℝ) : (fun i : Fin 3 => jacobian x ⟨12 + i, by omega⟩ 13) = Dpos 2 x (Pi.single 13 1) :=
  (ext3 (e13_12 x) (e13_13 x) (e13_14 x)).trans (col_joint 2 1 x 13 rfl).1.symm
theorem vel13 (x : Fin 36 → ℝ) : (fun i : Fin 3 => jacobian x ⟨15 + i, by omega⟩ 13) = Dvel 2 x (Pi.single 13 1) :=
  (ext3 (e13_15 x) (e13_16 x) (e13_17 x)).trans (col_joint 2 1 x 13 rfl).2.symm
theorem pos14 (x : Fin 36 → ℝ) : (fun i : Fin 3 => jacobian x ⟨12 + i, by omega⟩ 14) = Dpos 2 x (Pi.single 14 1) :=
  (ext3 (e14_12 x) (e14_13 x) (e14_14 x)).trans (col_joint 2 2 x 14 rfl).1.symm
theorem vel14 (x : Fin 36 → ℝ) : (fun i : Fin 3 => jacobian x ⟨15 + i, by omega⟩ 14) = Dvel 2 x (Pi.single 14 1) :=
  (ext3 (e14_15 x) (e14_16 x) (e14_17 x)).trans (col_joint 2 2 x 14 rfl).2.symm
theorem pos15 (x : Fin 36 → ℝ) : (fun i : Fin 3 => jacobian x ⟨12 + i, by omega⟩ 15) = Dpos 2 x (Pi.single 15 1) :=
  (ext3 (e15_12 x) (e15_13 x) (e15_14 x)).trans (col_other 2 3 0 x 15 (by decide) (by decide)).1.symm
theorem vel15 (x : Fin 36 → ℝ) : (fun i : Fin 3 => jacobian x ⟨15 + i, by omega⟩ 15) = Dvel 2 x (Pi.single 15 1) :=
  (ext3 (e15_15 x) (e15_16 x) (e15_17 x)).trans (col_other 2 3 0 x 15 (by decide) (by decide)).2.symm
theorem pos16 (x : Fin 36 → ℝ) : (fun i : Fin 3 => jacobian x ⟨12 + i, by omega⟩ 16) = Dpos 2 x (Pi.single 16 1) :=
  (ext3 (e16_12 x) (e16_13 x) (e16_14 x)).trans (col_other 2 3 1 x 16 (by decide) (by decide)).1.symm
theorem vel16 (x : Fin 36 → ℝ) : (fun i : Fin 3 => jacobian x ⟨15 + i, by omega⟩ 16) = Dvel 2 x (Pi.single 16 1) :=
  (ext3 (e16_15 x) (e16_16 x) (e16_17 x)).trans (col_other 2 3 1 x 16 (by decide) (by decide)).2.symm
theorem pos17 (x : Fin 36 → ℝ) : (fun i : Fin 3 => jacobian x ⟨12 + i, by omega⟩ 17) = Dpos 2 x (Pi.single 17 1) :=
  (ext3 (e17_12 x) (e17_13 x) (e17_14 x)).trans (col_other 2 3 2 x 17 (by decide) (by decide)).1.symm
theorem vel17 (x : Fin 36 → ℝ) : (fun i : Fin 3 => jacobian x ⟨15 + i, by omega⟩ 17) = Dvel 2 x (Pi.single 17 1) :=
  (ext3 (e17_15 x) (e17_16 x) (e17_17 x)).trans (col_other 2 3 2 x 17 (by decide) (by decide)).2.symm
theorem pos18 (x : Fin 36 → ℝ) : (fun i : Fin 3 => jacobian x ⟨12 + i, by omega⟩ 18) = Dpos 2 x (Pi.single 18 1) :=
  (ext3 (e18_12 x) (e18_13 x) (e18_14 x)).trans (col_om 2 0 x 18 rfl).1.symm
theorem vel18 (x : Fin 36 → ℝ) : (fun i : Fin 3 => jacobian x ⟨15 + i, by omega⟩ 18) = Dvel 2 x (Pi.single 18 1) :=
  (ext3 (e18_15 x) (e18_16 x) (e18_17 x)).trans (col_om 2 0 x 18 rfl).2.symm
theorem pos19 (x : Fin 36 → ℝ) : (fun i : Fin 3 => jacobian x ⟨12 + i, by omega⟩ 19) = Dpos 2 x (Pi.single 19 1) :=
  (ext3 (e19_12 x) (e19_13 x) (e19_14 x)).trans (col_om 2 1 x 19 rfl).1.symm
theorem vel19 (x : Fin 36 → ℝ) : (fun i : Fin 3 => jacobian x ⟨15 + i, by omega⟩ 19) = Dvel 2 x (Pi.single 19 1) :=
  (ext3 (e19_15 x) (e19_16 x) (e19_17 x)).trans (col_om 2 1 x 19 rfl).2.symm
theorem pos20 (x : Fin 36 → ℝ) : (fun i : Fin 3 => jacobian x ⟨12 + i, by omega⟩ 20) = Dpos 2 x (Pi.single 20 1) :=
  (ext3 (e20_12 x) (e20_13 x) (e20_14 x)).trans (col_om 2 2 x 20 rfl).1.symm
theorem vel20 (x : Fin 36 → ℝ) : (fun i : Fin 3 => jacobian x ⟨15 + i, by omega⟩ 20) = Dvel 2 x (Pi.single 20 1) :=
  (ext3 (e20_15 x) (e20_16 x) (e20_17 x)).trans (col_om 2 2 x 20 rfl).2.symm
theorem pos21 (x : Fin 36 → ℝ) : (fun i : Fin 3 => jacobian x ⟨12 + i, by omega⟩ 21) = Dpos 2 x (Pi.single 21 1) :=
  (ext3 (e21_12 x) (e21_13 x) (e21_14 x)).trans (col_lv 2 0 x 21 rfl).1.symm
theorem vel21 (x : Fin 36 → ℝ) : (fun i : Fin 3 => jacobian x ⟨15 + i, by omega⟩ 21) = Dvel 2 x (Pi.single 21 1) :=
  (ext3 (e21_15 x) (e21_16 x) (e21_17 x)).trans (col_lv 2 0 x 21 rfl).2.symm
theorem pos22 (x : Fin 36 → ℝ) : (fun i : Fin 3 => jacobian x ⟨12 + i, by omega⟩ 22) = Dpos 2 x (Pi.single 22 1) :=
  (ext3 (e22_12 x) (e22_13 x) (e22_14 x)).trans (col_lv 2 1 x 22 rfl).1.symm
theorem vel22 (x : Fin 36 → ℝ) : (fun i : Fin 3 => jacobian x ⟨15 + i, by omega⟩ 22) = Dvel 2 x (Pi.single 22 1) :=
  (ext3 (e22_15 x) (e22_16 x) (e22_17 x)).trans (col_lv 2 1 x 22 rfl).2.symm
theorem pos23 (x : Fin 36 → ℝ) : (fun i : Fin 3 => jacobian x ⟨12 + i, by omega⟩ 23) = Dpos 2 x (Pi.single 23 1) :=
  (ext3 (e23_12 x) (e23_13 x) (e23_14 x)).trans (col_lv 2 2 x 23 rfl).1.symm
theorem vel23 (x : Fin 36 → ℝ) : (fun i : Fin 3 => jacobian x ⟨15 + i, by omega⟩ 23) = Dvel 2 x (Pi.single 23 1) :=
  (ext3 (e23_15 x) (e23_16 x) (e23_17 x)).trans (col_lv 2 2 x 23 rfl).2.symm
theorem pos24 (x : Fin 36 → ℝ) : (fun i : Fin 3 => jacobian x ⟨12 + i, by omega⟩ 24) = Dpos 2 x (Pi.single 24 1) :=
  (ext3 (e24_12 x) (e24_13 x) (e24_14 x)).trans (col_other 2 0 0 x 24 (by decide) (by decide)).1.symm
theorem vel24 (x : Fin 36 → ℝ) : (fun i : Fin 3 => jacobian x ⟨15 + i, by omega⟩ 24) = Dvel 2 x (Pi.single 24 1) :=
  (ext3 (e24_15 x) (e24_16 x) (e24_17 x)).trans (col_other 2 0 0 x 24 (by decide) (by decide)).2.symm
theorem pos25 (x : Fin 36 → ℝ) : (fun i : Fin 3 => jacobian x ⟨12 + i, by omega⟩ 25) = Dpos 2 x (Pi.single 25 1) :=
  (ext3 (e25_12 x) (e25_13 x) (e25_14 x)).trans (col_other 2 0 1 x 25 (by decide) (by decide)).1.symm
theorem vel25 (x : Fin 36 → ℝ) : (fun i : Fin 3 => jacobian x ⟨15 + i, by omega⟩ 25) = Dvel 2 x (Pi.single 25 1) :=
  (ext3 (e25_15 x) (e25_16 x) (e25_17 x)).trans (col_other 2 0 1 x 25 (by decide) (by decide)).2.symm
theorem pos26 (x : Fin 36 → ℝ) : (fun i : Fin 3 => jacobian x ⟨12 + i, by omega⟩ 26) = Dpos 2 x (Pi.single 26 1) :=
  (ext3 (e26_12 x) (e26_13 x) (e26_14 x)).trans (col_other 2 0 2 x 26 (by decide) (by decide)).1.symm
theorem vel26 (x : Fin 36 → ℝ) : (fun i : Fin 3 => jacobian x ⟨15 + i, by omega⟩ 26) = Dvel 2 x (Pi.single 26 1) :=
  (ext3 (e26_15 x) (e26_16 x) (e26_17 x)).trans (col_other 2 0 2 x 26 (by decide) (by decide)).2.symm
theorem pos27 (x : Fin 36 → ℝ) : (fun i : Fin 3 => jacobian x ⟨12 + i, by omega⟩ 27) = Dpos 2 x (Pi.single 27 1) :=
  (ext3 (e27_12 x) (e27_13 x) (e27_14 x)).trans (col_other 2 1 0 x 27 (by decide) (by decide)).1.symm
theorem vel27 (x : Fin 36 → ℝ) : (fun i : Fin 3 => jacobian x ⟨15 + i, by omega⟩ 27) = Dvel 2 x (Pi.single 27 1) :=
  (ext3 (e27_15 x) (e27_16 x) (e27_17 x)).trans (col_other 2 1 0 x 27 (by decide) (by decide)).2.symm
theorem pos28 (x : Fin 36 → ℝ) : (fun i : Fin 3 => jacobian x ⟨12 + i, by omega⟩ 28) = Dpos 2 x (Pi.single 28 1) :=
  (ext3 (e28_12 x) (e28_13 x) (e28_14 x)).trans (col_other 2 1 1 x 28 (by decide) (by decide)).1.symm
theorem vel28 (x : Fin 36 → ℝ) : (fun i : Fin 3 => jacobian x ⟨15 + i, by omega⟩ 28) = Dvel 2 x (Pi.single 28 1) :=
  (ext3 (e28_15 x) (e28_16 x) (e28_17 x)).trans (col_other 2 1 1 x 28 (by decide) (by decide)).2.symm
theorem pos29 (x : Fin 36 → ℝ) : (fun i : Fin 3 => jacobian x ⟨12 + i, by omega⟩ 29) = Dpos 2 x (Pi.single 29 1) :=
  (ext3 (e29_12 x) (e29_13 x) (e29_14 x)).trans (col_other 2 1 2 x 29 (by decide) (by decide)).1.symm
theorem vel29 (x : Fin 36 → ℝ) : (fun i : Fin 3 => jacobian x ⟨15 + i, by omega⟩ 29) = Dvel 2 x (Pi.single 29 1) :=
  (ext3 (e29_15 x) (e29_16 x) (e29_17 x)).trans (col_other 2 1 2 x 29 (by decide) (by decide)).2.symm
theorem pos30 (x : Fin 36 → ℝ) : (fun i : Fin 3 => jacobian x ⟨12 + i, by omega⟩ 30) = Dpos 2 x (Pi.single 30 1) :=
  (ext3 (e30_12 x) (e30_13 x) (e30_14 x)).trans (col_qd 2 0 x 30 rfl).1.symm
theorem vel30 (x : Fin 36 → ℝ) : (fun i : Fin 3 => jacobian x ⟨15 + i, by omega⟩ 30) = Dvel 2 x (Pi.single 30 1) :=
  (ext3 (e30_15 x) (e30_16 x) (e30_17 x)).trans (col_qd 2 0 x 30 rfl).2.symm
theorem pos31 (x : Fin 36 → ℝ) : (fun i : Fin 3 => jacobian x ⟨12 + i, by omega⟩ 31) = Dpos 2 x (Pi.single 31 1) :=
  (ext3 (e31_12 x) (e31_13 x) (e31_14 x)).trans (col_qd 2 1 x 31 rfl).1.symm
theorem vel31 (x : Fin 36 → ℝ) : (fun i : Fin 3 => jacobian x ⟨15 + i, by omega⟩ 31) = Dvel 2 x (Pi.single 31 1) :=
  (ext3 (e31_15 x) (e31_16 x) (e31_17 x)).trans (col_qd 2 1 x 31 rfl).2.symm
theorem pos32 (x : Fin 36 → ℝ) : (fun i : Fin 3 => jacobian x ⟨12 + i, by omega⟩ 32) = Dpos 2 x (Pi.single 32 1) :=
  (ext3 (e32_12 x) (e32_13 x) (e32_14 x)).trans (col_qd 2 2 x 32 rfl).1.symm
theorem vel32 (x : Fin 36 → ℝ) : (fun i : Fin 3 => jacobian x ⟨15 + i, by omega⟩ 32) = Dvel 2 x (Pi.single 32 1) :=
  (ext3 (e32_15 x) (e32_16 x) (e32_17 x)).trans (col_qd 2 2 x 32 rfl).2.symm
theorem pos33 (x : Fin 36 → ℝ) : (fun i : Fin 3 => jacobian x ⟨12 + i, by omega⟩ 33) = Dpos 2 x (Pi.single 33 1) :=
  (ext3 (e33_12 x) (e33_13 x) (e33_14 x)).trans (col_other 2 3 0 x 33 (by decide) (by decide)).1.symm
theorem vel33 (x : Fin 36 → ℝ) : (fun i : Fin 3 => jacobian x ⟨15 + i, by omega⟩ 33) = Dvel 2 x (Pi.single 33 1) :=
  (ext3 (e33_15 x) (e33_16 x) (e33_17 x)).trans (col_other 2 3 0 x 33 (by decide) (by decide)).2.symm
theorem pos34 (x : Fin 36 → ℝ) : (fun i : Fin 3 => jacobian x ⟨12 + i, by omega⟩ 34) = Dpos 2 x (Pi.single 34 1) :=
  (ext3 (e34_12 x) (e34_13 x) (e34_14 x)).trans (col_other 2 3 1 x 34 (by decide) (by decide)).1.symm
theorem vel34 (x : Fin 36 → ℝ) : (fun i : Fin 3 => jacobian x ⟨15 + i, by omega⟩ 34) = Dvel 2 x (Pi.single 34 1) :=
  (ext3 (e34_15 x) (e34_16 x) (e34_17 x)).trans (col_other 2 3 1 x 34 (by decide) (by decide)).2.symm
theorem pos35 (x : Fin 36 → ℝ) : (fun i : Fin 3 => jacobian x ⟨12 + i, by omega⟩ 35) = Dpos 2 x (Pi.single 35 1) :=
  (ext3 (e35_12 x) (e35_13 x) (e35_14 x)).trans (col_other 2 3 2 x 35 (by decide) (by decide)).1.symm
theorem vel35 (x : Fin 36 → ℝ) : (fun i : Fin 3 => jacobian x ⟨15 + i, by omega⟩ 35) = Dvel 2 x (Pi.single 35 1) :=
  (ext3 (e35_15 x) (e35_16 x) (e35_17 x)).trans (col_other 2 3 2 x 35 (by decide) (by decide)).2.symm

theorem rows (x : Fin 36 → ℝ) (c : Fin 36) :
    (fun i : Fin 3 => jacobian x ⟨12 + i, by omega⟩ c) = Dpos 2 x (Pi.single c 1) ∧
    (fun i : Fin 3 => jacobian x ⟨15 + i, by omega⟩ c) = Dvel 2 x (Pi.single c 1) := by
  fin_cases c
  exacts [⟨pos0 x, vel0 x⟩, ⟨pos1 x, vel1 x⟩, ⟨pos2 x, vel2 x⟩, ⟨pos3 x, vel3 x⟩, ⟨pos4 x, vel4 x⟩, ⟨pos5 x, vel5 x⟩, ⟨pos6 x,
    vel6 x⟩, ⟨pos7 x, vel7 x⟩, ⟨pos8 x, vel8 x⟩, ⟨pos9 x, vel9 x⟩, ⟨pos10 x, vel10 x⟩, ⟨pos11 x, vel11 x⟩, ⟨pos12 x, vel12 x⟩, ⟨pos13 x, vel13 x⟩, ⟨pos14 x, vel14 x⟩, ⟨pos15 x, vel15 x⟩, ⟨pos16 x, vel16 x⟩, ⟨pos17 x, vel17 x⟩, ⟨pos18 x, vel18 x⟩, ⟨pos19 x, vel19 x⟩, ⟨pos20 x, vel20 x⟩, ⟨pos21 x, vel21 x⟩, ⟨pos22 x, vel22 x⟩, ⟨pos23 x, vel23 x⟩, ⟨pos24 x, vel24 x⟩, ⟨pos25 x, vel25 x⟩, ⟨pos26 x, vel26 x⟩, ⟨pos27 x, vel27 x⟩, ⟨pos28 x, vel28 x⟩, ⟨pos29 x, vel29 x⟩, ⟨pos30 x, vel30 x⟩, ⟨pos31 x, vel31 x⟩, ⟨pos32 x, vel32 x⟩, ⟨pos33 x, vel33 x⟩, ⟨pos34 x, vel34 x⟩, ⟨pos35 x, vel35 x⟩]

end CT.Robots.HyQ.FootJacReverse.Leg2
