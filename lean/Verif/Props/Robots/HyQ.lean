import Verif.Model.Robots.HyQ
import Verif.Props.RobotsBase

/-!
# HyQ: the generated dynamics agree with each other

Written by `tools/gen_robot_props.py`.
-/

set_option linter.unusedSimpArgs false
set_option linter.unusedTactic false
set_option linter.unreachableTactic false
set_option maxRecDepth 8000

namespace CT.Robots.HyQ

open Matrix Spatial Articulated FrameJac

/-! ### Transforms -/

theorem motion_fr_LF_hipassembly_X_fr_trunk_fresh (z : M6) (q : Q) : motion_fr_LF_hipassembly_X_fr_trunk_update (motion_fr_LF_hipassembly_X_fr_trunk_new z) q = motion_fr_LF_hipassembly_X_fr_trunk_update (motion_fr_LF_hipassembly_X_fr_trunk_new 0) q := by
  simp only [motion_fr_LF_hipassembly_X_fr_trunk_new, motion_fr_LF_hipassembly_X_fr_trunk_update]
  simp

theorem motion_fr_LF_hipassembly_X_fr_trunk_again (z : M6) (p q : Q) : motion_fr_LF_hipassembly_X_fr_trunk_update (motion_fr_LF_hipassembly_X_fr_trunk_update z p) q = motion_fr_LF_hipassembly_X_fr_trunk_update z q := by
  simp only [motion_fr_LF_hipassembly_X_fr_trunk_update]
  simp

theorem motion_fr_LF_upperleg_X_fr_LF_hipassembly_fresh (z : M6) (q : Q) : motion_fr_LF_upperleg_X_fr_LF_hipassembly_update (motion_fr_LF_upperleg_X_fr_LF_hipassembly_new z) q = motion_fr_LF_upperleg_X_fr_LF_hipassembly_update (motion_fr_LF_upperleg_X_fr_LF_hipassembly_new 0) q := by
  simp only [motion_fr_LF_upperleg_X_fr_LF_hipassembly_new, motion_fr_LF_upperleg_X_fr_LF_hipassembly_update]
  simp

theorem motion_fr_LF_upperleg_X_fr_LF_hipassembly_again (z : M6) (p q : Q) : motion_fr_LF_upperleg_X_fr_LF_hipassembly_update (motion_fr_LF_upperleg_X_fr_LF_hipassembly_update z p) q = motion_fr_LF_upperleg_X_fr_LF_hipassembly_update z q := by
  simp only [motion_fr_LF_upperleg_X_fr_LF_hipassembly_update]
  simp

theorem motion_fr_LF_lowerleg_X_fr_LF_upperleg_fresh (z : M6) (q : Q) : motion_fr_LF_lowerleg_X_fr_LF_upperleg_update (motion_fr_LF_lowerleg_X_fr_LF_upperleg_new z) q = motion_fr_LF_lowerleg_X_fr_LF_upperleg_update (motion_fr_LF_lowerleg_X_fr_LF_upperleg_new 0) q := by
  simp only [motion_fr_LF_lowerleg_X_fr_LF_upperleg_new, motion_fr_LF_lowerleg_X_fr_LF_upperleg_update]
  simp

theorem motion_fr_LF_lowerleg_X_fr_LF_upperleg_again (z : M6) (p q : Q) : motion_fr_LF_lowerleg_X_fr_LF_upperleg_update (motion_fr_LF_lowerleg_X_fr_LF_upperleg_update z p) q = motion_fr_LF_lowerleg_X_fr_LF_upperleg_update z q := by
  simp only [motion_fr_LF_lowerleg_X_fr_LF_upperleg_update]
  simp

theorem motion_fr_RF_hipassembly_X_fr_trunk_fresh (z : M6) (q : Q) : motion_fr_RF_hipassembly_X_fr_trunk_update (motion_fr_RF_hipassembly_X_fr_trunk_new z) q = motion_fr_RF_hipassembly_X_fr_trunk_update (motion_fr_RF_hipassembly_X_fr_trunk_new 0) q := by
  simp only [motion_fr_RF_hipassembly_X_fr_trunk_new, motion_fr_RF_hipassembly_X_fr_trunk_update]
  simp

theorem motion_fr_RF_hipassembly_X_fr_trunk_again (z : M6) (p q : Q) : motion_fr_RF_hipassembly_X_fr_trunk_update (motion_fr_RF_hipassembly_X_fr_trunk_update z p) q = motion_fr_RF_hipassembly_X_fr_trunk_update z q := by
  simp only [motion_fr_RF_hipassembly_X_fr_trunk_update]
  simp

theorem motion_fr_RF_upperleg_X_fr_RF_hipassembly_fresh (z : M6) (q : Q) : motion_fr_RF_upperleg_X_fr_RF_hipassembly_update (motion_fr_RF_upperleg_X_fr_RF_hipassembly_new z) q = motion_fr_RF_upperleg_X_fr_RF_hipassembly_update (motion_fr_RF_upperleg_X_fr_RF_hipassembly_new 0) q := by
  simp only [motion_fr_RF_upperleg_X_fr_RF_hipassembly_new, motion_fr_RF_upperleg_X_fr_RF_hipassembly_update]
  simp

theorem motion_fr_RF_upperleg_X_fr_RF_hipassembly_again (z : M6) (p q : Q) : motion_fr_RF_upperleg_X_fr_RF_hipassembly_update (motion_fr_RF_upperleg_X_fr_RF_hipassembly_update z p) q = motion_fr_RF_upperleg_X_fr_RF_hipassembly_update z q := by
  simp only [motion_fr_RF_upperleg_X_fr_RF_hipassembly_update]
  simp

theorem motion_fr_RF_lowerleg_X_fr_RF_upperleg_fresh (z : M6) (q : Q) : motion_fr_RF_lowerleg_X_fr_RF_upperleg_update (motion_fr_RF_lowerleg_X_fr_RF_upperleg_new z) q = motion_fr_RF_lowerleg_X_fr_RF_upperleg_update (motion_fr_RF_lowerleg_X_fr_RF_upperleg_new 0) q := by
  simp only [motion_fr_RF_lowerleg_X_fr_RF_upperleg_new, motion_fr_RF_lowerleg_X_fr_RF_upperleg_update]
  simp

theorem motion_fr_RF_lowerleg_X_fr_RF_upperleg_again (z : M6) (p q : Q) : motion_fr_RF_lowerleg_X_fr_RF_upperleg_update (motion_fr_RF_lowerleg_X_fr_RF_upperleg_update z p) q = motion_fr_RF_lowerleg_X_fr_RF_upperleg_update z q := by
  simp only [motion_fr_RF_lowerleg_X_fr_RF_upperleg_update]
  simp

theorem motion_fr_LH_hipassembly_X_fr_trunk_fresh (z : M6) (q : Q) : motion_fr_LH_hipassembly_X_fr_trunk_update (motion_fr_LH_hipassembly_X_fr_trunk_new z) q = motion_fr_LH_hipassembly_X_fr_trunk_update (motion_fr_LH_hipassembly_X_fr_trunk_new 0) q := by
  simp only [motion_fr_LH_hipassembly_X_fr_trunk_new, motion_fr_LH_hipassembly_X_fr_trunk_update]
  simp

theorem motion_fr_LH_hipassembly_X_fr_trunk_again (z : M6) (p q : Q) : motion_fr_LH_hipassembly_X_fr_trunk_update (motion_fr_LH_hipassembly_X_fr_trunk_update z p) q = motion_fr_LH_hipassembly_X_fr_trunk_update z q := by
  simp only [motion_fr_LH_hipassembly_X_fr_trunk_update]
  simp

theorem motion_fr_LH_upperleg_X_fr_LH_hipassembly_fresh (z : M6) (q : Q) : motion_fr_LH_upperleg_X_fr_LH_hipassembly_update (motion_fr_LH_upperleg_X_fr_LH_hipassembly_new z) q = motion_fr_LH_upperleg_X_fr_LH_hipassembly_update (motion_fr_LH_upperleg_X_fr_LH_hipassembly_new 0) q := by
  simp only [motion_fr_LH_upperleg_X_fr_LH_hipassembly_new, motion_fr_LH_upperleg_X_fr_LH_hipassembly_update]
  simp

theorem motion_fr_LH_upperleg_X_fr_LH_hipassembly_again (z : M6) (p q : Q) : motion_fr_LH_upperleg_X_fr_LH_hipassembly_update (motion_fr_LH_upperleg_X_fr_LH_hipassembly_update z p) q = motion_fr_LH_upperleg_X_fr_LH_hipassembly_update z q := by
  simp only [motion_fr_LH_upperleg_X_fr_LH_hipassembly_update]
  simp

theorem motion_fr_LH_lowerleg_X_fr_LH_upperleg_fresh (z : M6) (q : Q) : motion_fr_LH_lowerleg_X_fr_LH_upperleg_update (motion_fr_LH_lowerleg_X_fr_LH_upperleg_new z) q = motion_fr_LH_lowerleg_X_fr_LH_upperleg_update (motion_fr_LH_lowerleg_X_fr_LH_upperleg_new 0) q := by
  simp only [motion_fr_LH_lowerleg_X_fr_LH_upperleg_new, motion_fr_LH_lowerleg_X_fr_LH_upperleg_update]
  simp

theorem motion_fr_LH_lowerleg_X_fr_LH_upperleg_again (z : M6) (p q : Q) : motion_fr_LH_lowerleg_X_fr_LH_upperleg_update (motion_fr_LH_lowerleg_X_fr_LH_upperleg_update z p) q = motion_fr_LH_lowerleg_X_fr_LH_upperleg_update z q := by
  simp only [motion_fr_LH_lowerleg_X_fr_LH_upperleg_update]
  simp

theorem motion_fr_RH_hipassembly_X_fr_trunk_fresh (z : M6) (q : Q) : motion_fr_RH_hipassembly_X_fr_trunk_update (motion_fr_RH_hipassembly_X_fr_trunk_new z) q = motion_fr_RH_hipassembly_X_fr_trunk_update (motion_fr_RH_hipassembly_X_fr_trunk_new 0) q := by
  simp only [motion_fr_RH_hipassembly_X_fr_trunk_new, motion_fr_RH_hipassembly_X_fr_trunk_update]
  simp

theorem motion_fr_RH_hipassembly_X_fr_trunk_again (z : M6) (p q : Q) : motion_fr_RH_hipassembly_X_fr_trunk_update (motion_fr_RH_hipassembly_X_fr_trunk_update z p) q = motion_fr_RH_hipassembly_X_fr_trunk_update z q := by
  simp only [motion_fr_RH_hipassembly_X_fr_trunk_update]
  simp

theorem motion_fr_RH_upperleg_X_fr_RH_hipassembly_fresh (z : M6) (q : Q) : motion_fr_RH_upperleg_X_fr_RH_hipassembly_update (motion_fr_RH_upperleg_X_fr_RH_hipassembly_new z) q = motion_fr_RH_upperleg_X_fr_RH_hipassembly_update (motion_fr_RH_upperleg_X_fr_RH_hipassembly_new 0) q := by
  simp only [motion_fr_RH_upperleg_X_fr_RH_hipassembly_new, motion_fr_RH_upperleg_X_fr_RH_hipassembly_update]
  simp

theorem motion_fr_RH_upperleg_X_fr_RH_hipassembly_again (z : M6) (p q : Q) : motion_fr_RH_upperleg_X_fr_RH_hipassembly_update (motion_fr_RH_upperleg_X_fr_RH_hipassembly_update z p) q = motion_fr_RH_upperleg_X_fr_RH_hipassembly_update z q := by
  simp only [motion_fr_RH_upperleg_X_fr_RH_hipassembly_update]
  simp

theorem motion_fr_RH_lowerleg_X_fr_RH_upperleg_fresh (z : M6) (q : Q) : motion_fr_RH_lowerleg_X_fr_RH_upperleg_update (motion_fr_RH_lowerleg_X_fr_RH_upperleg_new z) q = motion_fr_RH_lowerleg_X_fr_RH_upperleg_update (motion_fr_RH_lowerleg_X_fr_RH_upperleg_new 0) q := by
  simp only [motion_fr_RH_lowerleg_X_fr_RH_upperleg_new, motion_fr_RH_lowerleg_X_fr_RH_upperleg_update]
  simp

theorem motion_fr_RH_lowerleg_X_fr_RH_upperleg_again (z : M6) (p q : Q) : motion_fr_RH_lowerleg_X_fr_RH_upperleg_update (motion_fr_RH_lowerleg_X_fr_RH_upperleg_update z p) q = motion_fr_RH_lowerleg_X_fr_RH_upperleg_update z q := by
  simp only [motion_fr_RH_lowerleg_X_fr_RH_upperleg_update]
  simp

theorem force_fr_RH_upperleg_X_fr_RH_lowerleg_fresh (z : M6) (q : Q) : force_fr_RH_upperleg_X_fr_RH_lowerleg_update (force_fr_RH_upperleg_X_fr_RH_lowerleg_new z) q = force_fr_RH_upperleg_X_fr_RH_lowerleg_update (force_fr_RH_upperleg_X_fr_RH_lowerleg_new 0) q := by
  simp only [force_fr_RH_upperleg_X_fr_RH_lowerleg_new, force_fr_RH_upperleg_X_fr_RH_lowerleg_update]
  simp

theorem force_fr_RH_upperleg_X_fr_RH_lowerleg_again (z : M6) (p q : Q) : force_fr_RH_upperleg_X_fr_RH_lowerleg_update (force_fr_RH_upperleg_X_fr_RH_lowerleg_update z p) q = force_fr_RH_upperleg_X_fr_RH_lowerleg_update z q := by
  simp only [force_fr_RH_upperleg_X_fr_RH_lowerleg_update]
  simp

theorem force_fr_RH_hipassembly_X_fr_RH_upperleg_fresh (z : M6) (q : Q) : force_fr_RH_hipassembly_X_fr_RH_upperleg_update (force_fr_RH_hipassembly_X_fr_RH_upperleg_new z) q = force_fr_RH_hipassembly_X_fr_RH_upperleg_update (force_fr_RH_hipassembly_X_fr_RH_upperleg_new 0) q := by
  simp only [force_fr_RH_hipassembly_X_fr_RH_upperleg_new, force_fr_RH_hipassembly_X_fr_RH_upperleg_update]
  simp

theorem force_fr_RH_hipassembly_X_fr_RH_upperleg_again (z : M6) (p q : Q) : force_fr_RH_hipassembly_X_fr_RH_upperleg_update (force_fr_RH_hipassembly_X_fr_RH_upperleg_update z p) q = force_fr_RH_hipassembly_X_fr_RH_upperleg_update z q := by
  simp only [force_fr_RH_hipassembly_X_fr_RH_upperleg_update]
  simp

theorem force_fr_trunk_X_fr_RH_hipassembly_fresh (z : M6) (q : Q) : force_fr_trunk_X_fr_RH_hipassembly_update (force_fr_trunk_X_fr_RH_hipassembly_new z) q = force_fr_trunk_X_fr_RH_hipassembly_update (force_fr_trunk_X_fr_RH_hipassembly_new 0) q := by
  simp only [force_fr_trunk_X_fr_RH_hipassembly_new, force_fr_trunk_X_fr_RH_hipassembly_update]
  simp

theorem force_fr_trunk_X_fr_RH_hipassembly_again (z : M6) (p q : Q) : force_fr_trunk_X_fr_RH_hipassembly_update (force_fr_trunk_X_fr_RH_hipassembly_update z p) q = force_fr_trunk_X_fr_RH_hipassembly_update z q := by
  simp only [force_fr_trunk_X_fr_RH_hipassembly_update]
  simp

theorem force_fr_LH_upperleg_X_fr_LH_lowerleg_fresh (z : M6) (q : Q) : force_fr_LH_upperleg_X_fr_LH_lowerleg_update (force_fr_LH_upperleg_X_fr_LH_lowerleg_new z) q = force_fr_LH_upperleg_X_fr_LH_lowerleg_update (force_fr_LH_upperleg_X_fr_LH_lowerleg_new 0) q := by
  simp only [force_fr_LH_upperleg_X_fr_LH_lowerleg_new, force_fr_LH_upperleg_X_fr_LH_lowerleg_update]
  simp

theorem force_fr_LH_upperleg_X_fr_LH_lowerleg_again (z : M6) (p q : Q) : force_fr_LH_upperleg_X_fr_LH_lowerleg_update (force_fr_LH_upperleg_X_fr_LH_lowerleg_update z p) q = force_fr_LH_upperleg_X_fr_LH_lowerleg_update z q := by
  simp only [force_fr_LH_upperleg_X_fr_LH_lowerleg_update]
  simp

theorem force_fr_LH_hipassembly_X_fr_LH_upperleg_fresh (z : M6) (q : Q) : force_fr_LH_hipassembly_X_fr_LH_upperleg_update (force_fr_LH_hipassembly_X_fr_LH_upperleg_new z) q = force_fr_LH_hipassembly_X_fr_LH_upperleg_update (force_fr_LH_hipassembly_X_fr_LH_upperleg_new 0) q := by
  simp only [force_fr_LH_hipassembly_X_fr_LH_upperleg_new, force_fr_LH_hipassembly_X_fr_LH_upperleg_update]
  simp

theorem force_fr_LH_hipassembly_X_fr_LH_upperleg_again (z : M6) (p q : Q) : force_fr_LH_hipassembly_X_fr_LH_upperleg_update (force_fr_LH_hipassembly_X_fr_LH_upperleg_update z p) q = force_fr_LH_hipassembly_X_fr_LH_upperleg_update z q := by
  simp only [force_fr_LH_hipassembly_X_fr_LH_upperleg_update]
  simp

theorem force_fr_trunk_X_fr_LH_hipassembly_fresh (z : M6) (q : Q) : force_fr_trunk_X_fr_LH_hipassembly_update (force_fr_trunk_X_fr_LH_hipassembly_new z) q = force_fr_trunk_X_fr_LH_hipassembly_update (force_fr_trunk_X_fr_LH_hipassembly_new 0) q := by
  simp only [force_fr_trunk_X_fr_LH_hipassembly_new, force_fr_trunk_X_fr_LH_hipassembly_update]
  simp

theorem force_fr_trunk_X_fr_LH_hipassembly_again (z : M6) (p q : Q) : force_fr_trunk_X_fr_LH_hipassembly_update (force_fr_trunk_X_fr_LH_hipassembly_update z p) q = force_fr_trunk_X_fr_LH_hipassembly_update z q := by
  simp only [force_fr_trunk_X_fr_LH_hipassembly_update]
  simp

theorem force_fr_RF_upperleg_X_fr_RF_lowerleg_fresh (z : M6) (q : Q) : force_fr_RF_upperleg_X_fr_RF_lowerleg_update (force_fr_RF_upperleg_X_fr_RF_lowerleg_new z) q = force_fr_RF_upperleg_X_fr_RF_lowerleg_update (force_fr_RF_upperleg_X_fr_RF_lowerleg_new 0) q := by
  simp only [force_fr_RF_upperleg_X_fr_RF_lowerleg_new, force_fr_RF_upperleg_X_fr_RF_lowerleg_update]
  simp

theorem force_fr_RF_upperleg_X_fr_RF_lowerleg_again (z : M6) (p q : Q) : force_fr_RF_upperleg_X_fr_RF_lowerleg_update (force_fr_RF_upperleg_X_fr_RF_lowerleg_update z p) q = force_fr_RF_upperleg_X_fr_RF_lowerleg_update z q := by
  simp only [force_fr_RF_upperleg_X_fr_RF_lowerleg_update]
  simp

theorem force_fr_RF_hipassembly_X_fr_RF_upperleg_fresh (z : M6) (q : Q) : force_fr_RF_hipassembly_X_fr_RF_upperleg_update (force_fr_RF_hipassembly_X_fr_RF_upperleg_new z) q = force_fr_RF_hipassembly_X_fr_RF_upperleg_update (force_fr_RF_hipassembly_X_fr_RF_upperleg_new 0) q := by
  simp only [force_fr_RF_hipassembly_X_fr_RF_upperleg_new, force_fr_RF_hipassembly_X_fr_RF_upperleg_update]
  simp

theorem force_fr_RF_hipassembly_X_fr_RF_upperleg_again (z : M6) (p q : Q) : force_fr_RF_hipassembly_X_fr_RF_upperleg_update (force_fr_RF_hipassembly_X_fr_RF_upperleg_update z p) q = force_fr_RF_hipassembly_X_fr_RF_upperleg_update z q := by
  simp only [force_fr_RF_hipassembly_X_fr_RF_upperleg_update]
  simp

theorem force_fr_trunk_X_fr_RF_hipassembly_fresh (z : M6) (q : Q) : force_fr_trunk_X_fr_RF_hipassembly_update (force_fr_trunk_X_fr_RF_hipassembly_new z) q = force_fr_trunk_X_fr_RF_hipassembly_update (force_fr_trunk_X_fr_RF_hipassembly_new 0) q := by
  simp only [force_fr_trunk_X_fr_RF_hipassembly_new, force_fr_trunk_X_fr_RF_hipassembly_update]
  simp

theorem force_fr_trunk_X_fr_RF_hipassembly_again (z : M6) (p q : Q) : force_fr_trunk_X_fr_RF_hipassembly_update (force_fr_trunk_X_fr_RF_hipassembly_update z p) q = force_fr_trunk_X_fr_RF_hipassembly_update z q := by
  simp only [force_fr_trunk_X_fr_RF_hipassembly_update]
  simp

theorem force_fr_LF_upperleg_X_fr_LF_lowerleg_fresh (z : M6) (q : Q) : force_fr_LF_upperleg_X_fr_LF_lowerleg_update (force_fr_LF_upperleg_X_fr_LF_lowerleg_new z) q = force_fr_LF_upperleg_X_fr_LF_lowerleg_update (force_fr_LF_upperleg_X_fr_LF_lowerleg_new 0) q := by
  simp only [force_fr_LF_upperleg_X_fr_LF_lowerleg_new, force_fr_LF_upperleg_X_fr_LF_lowerleg_update]
  simp

theorem force_fr_LF_upperleg_X_fr_LF_lowerleg_again (z : M6) (p q : Q) : force_fr_LF_upperleg_X_fr_LF_lowerleg_update (force_fr_LF_upperleg_X_fr_LF_lowerleg_update z p) q = force_fr_LF_upperleg_X_fr_LF_lowerleg_update z q := by
  simp only [force_fr_LF_upperleg_X_fr_LF_lowerleg_update]
  simp

theorem force_fr_LF_hipassembly_X_fr_LF_upperleg_fresh (z : M6) (q : Q) : force_fr_LF_hipassembly_X_fr_LF_upperleg_update (force_fr_LF_hipassembly_X_fr_LF_upperleg_new z) q = force_fr_LF_hipassembly_X_fr_LF_upperleg_update (force_fr_LF_hipassembly_X_fr_LF_upperleg_new 0) q := by
  simp only [force_fr_LF_hipassembly_X_fr_LF_upperleg_new, force_fr_LF_hipassembly_X_fr_LF_upperleg_update]
  simp

theorem force_fr_LF_hipassembly_X_fr_LF_upperleg_again (z : M6) (p q : Q) : force_fr_LF_hipassembly_X_fr_LF_upperleg_update (force_fr_LF_hipassembly_X_fr_LF_upperleg_update z p) q = force_fr_LF_hipassembly_X_fr_LF_upperleg_update z q := by
  simp only [force_fr_LF_hipassembly_X_fr_LF_upperleg_update]
  simp

theorem force_fr_trunk_X_fr_LF_hipassembly_fresh (z : M6) (q : Q) : force_fr_trunk_X_fr_LF_hipassembly_update (force_fr_trunk_X_fr_LF_hipassembly_new z) q = force_fr_trunk_X_fr_LF_hipassembly_update (force_fr_trunk_X_fr_LF_hipassembly_new 0) q := by
  simp only [force_fr_trunk_X_fr_LF_hipassembly_new, force_fr_trunk_X_fr_LF_hipassembly_update]
  simp

theorem force_fr_trunk_X_fr_LF_hipassembly_again (z : M6) (p q : Q) : force_fr_trunk_X_fr_LF_hipassembly_update (force_fr_trunk_X_fr_LF_hipassembly_update z p) q = force_fr_trunk_X_fr_LF_hipassembly_update z q := by
  simp only [force_fr_trunk_X_fr_LF_hipassembly_update]
  simp

theorem motion_fr_LF_hipassembly_X_fr_trunk_isMotion (z : M6) (q : Q) : IsMotionX (motion_fr_LF_hipassembly_X_fr_trunk_update (motion_fr_LF_hipassembly_X_fr_trunk_new z) q)
    !![0, -Real.sin (q LF_HAA), -Real.cos (q LF_HAA); 0, -Real.cos (q LF_HAA), Real.sin (q LF_HAA); -1, 0, 0]
    ![(747 / 2000), (207 / 1000), 0] := by
  have h := Real.sin_sq_add_cos_sq (q LF_HAA)
  refine isMotionX_of ⟨?_, ?_⟩ ?_
  · ext i j; fin_cases i <;> fin_cases j <;> simp [Matrix.mul_apply, Fin.sum_univ_succ] <;> linarith
  · rw [Matrix.det_fin_three]; simp; linarith
  · rw [motion_fr_LF_hipassembly_X_fr_trunk_new, motion_fr_LF_hipassembly_X_fr_trunk_update]
    ext i j; fin_cases i <;> fin_cases j <;> simp [blk, cpm, Matrix.mul_apply, Fin.sum_univ_succ] <;> norm_num <;> ring

theorem motion_fr_LF_upperleg_X_fr_LF_hipassembly_isMotion (z : M6) (q : Q) : IsMotionX (motion_fr_LF_upperleg_X_fr_LF_hipassembly_update (motion_fr_LF_upperleg_X_fr_LF_hipassembly_new z) q)
    !![Real.cos (q LF_HFE), 0, Real.sin (q LF_HFE); -Real.sin (q LF_HFE), 0, Real.cos (q LF_HFE); 0, -1, 0]
    ![(2 / 25), 0, 0] := by
  have h := Real.sin_sq_add_cos_sq (q LF_HFE)
  refine isMotionX_of ⟨?_, ?_⟩ ?_
  · ext i j; fin_cases i <;> fin_cases j <;> simp [Matrix.mul_apply, Fin.sum_univ_succ] <;> linarith
  · rw [Matrix.det_fin_three]; simp; linarith
  · rw [motion_fr_LF_upperleg_X_fr_LF_hipassembly_new, motion_fr_LF_upperleg_X_fr_LF_hipassembly_update]
    ext i j; fin_cases i <;> fin_cases j <;> simp [blk, cpm, Matrix.mul_apply, Fin.sum_univ_succ] <;> norm_num <;> ring

theorem motion_fr_LF_lowerleg_X_fr_LF_upperleg_isMotion (z : M6) (q : Q) : IsMotionX (motion_fr_LF_lowerleg_X_fr_LF_upperleg_update (motion_fr_LF_lowerleg_X_fr_LF_upperleg_new z) q)
    !![Real.cos (q LF_KFE), Real.sin (q LF_KFE), 0; -Real.sin (q LF_KFE), Real.cos (q LF_KFE), 0; 0, 0, 1]
    ![(7 / 20), 0, 0] := by
  have h := Real.sin_sq_add_cos_sq (q LF_KFE)
  refine isMotionX_of ⟨?_, ?_⟩ ?_
  · ext i j; fin_cases i <;> fin_cases j <;> simp [Matrix.mul_apply, Fin.sum_univ_succ] <;> linarith
  · rw [Matrix.det_fin_three]; simp; linarith
  · rw [motion_fr_LF_lowerleg_X_fr_LF_upperleg_new, motion_fr_LF_lowerleg_X_fr_LF_upperleg_update]
    ext i j; fin_cases i <;> fin_cases j <;> simp [blk, cpm, Matrix.mul_apply, Fin.sum_univ_succ] <;> norm_num <;> ring

theorem motion_fr_RF_hipassembly_X_fr_trunk_isMotion (z : M6) (q : Q) : IsMotionX (motion_fr_RF_hipassembly_X_fr_trunk_update (motion_fr_RF_hipassembly_X_fr_trunk_new z) q)
    !![0, Real.sin (q RF_HAA), -Real.cos (q RF_HAA); 0, Real.cos (q RF_HAA), Real.sin (q RF_HAA); 1, 0, 0]
    ![(747 / 2000), (-207 / 1000), 0] := by
  have h := Real.sin_sq_add_cos_sq (q RF_HAA)
  refine isMotionX_of ⟨?_, ?_⟩ ?_
  · ext i j; fin_cases i <;> fin_cases j <;> simp [Matrix.mul_apply, Fin.sum_univ_succ] <;> linarith
  · rw [Matrix.det_fin_three]; simp; linarith
  · rw [motion_fr_RF_hipassembly_X_fr_trunk_new, motion_fr_RF_hipassembly_X_fr_trunk_update]
    ext i j; fin_cases i <;> fin_cases j <;> simp [blk, cpm, Matrix.mul_apply, Fin.sum_univ_succ] <;> norm_num <;> ring

theorem motion_fr_RF_upperleg_X_fr_RF_hipassembly_isMotion (z : M6) (q : Q) : IsMotionX (motion_fr_RF_upperleg_X_fr_RF_hipassembly_update (motion_fr_RF_upperleg_X_fr_RF_hipassembly_new z) q)
    !![Real.cos (q RF_HFE), 0, -Real.sin (q RF_HFE); -Real.sin (q RF_HFE), 0, -Real.cos (q RF_HFE); 0, 1, 0]
    ![(2 / 25), 0, 0] := by
  have h := Real.sin_sq_add_cos_sq (q RF_HFE)
  refine isMotionX_of ⟨?_, ?_⟩ ?_
  · ext i j; fin_cases i <;> fin_cases j <;> simp [Matrix.mul_apply, Fin.sum_univ_succ] <;> linarith
  · rw [Matrix.det_fin_three]; simp; linarith
  · rw [motion_fr_RF_upperleg_X_fr_RF_hipassembly_new, motion_fr_RF_upperleg_X_fr_RF_hipassembly_update]
    ext i j; fin_cases i <;> fin_cases j <;> simp [blk, cpm, Matrix.mul_apply, Fin.sum_univ_succ] <;> norm_num <;> ring

theorem motion_fr_RF_lowerleg_X_fr_RF_upperleg_isMotion (z : M6) (q : Q) : IsMotionX (motion_fr_RF_lowerleg_X_fr_RF_upperleg_update (motion_fr_RF_lowerleg_X_fr_RF_upperleg_new z) q)
    !![Real.cos (q RF_KFE), Real.sin (q RF_KFE), 0; -Real.sin (q RF_KFE), Real.cos (q RF_KFE), 0; 0, 0, 1]
    ![(7 / 20), 0, 0] := by
  have h := Real.sin_sq_add_cos_sq (q RF_KFE)
  refine isMotionX_of ⟨?_, ?_⟩ ?_
  · ext i j; fin_cases i <;> fin_cases j <;> simp [Matrix.mul_apply, Fin.sum_univ_succ] <;> linarith
  · rw [Matrix.det_fin_three]; simp; linarith
  · rw [motion_fr_RF_lowerleg_X_fr_RF_upperleg_new, motion_fr_RF_lowerleg_X_fr_RF_upperleg_update]
    ext i j; fin_cases i <;> fin_cases j <;> simp [blk, cpm, Matrix.mul_apply, Fin.sum_univ_succ] <;> norm_num <;> ring

theorem motion_fr_LH_hipassembly_X_fr_trunk_isMotion (z : M6) (q : Q) : IsMotionX (motion_fr_LH_hipassembly_X_fr_trunk_update (motion_fr_LH_hipassembly_X_fr_trunk_new z) q)
    !![0, -Real.sin (q LH_HAA), -Real.cos (q LH_HAA); 0, -Real.cos (q LH_HAA), Real.sin (q LH_HAA); -1, 0, 0]
    ![(-747 / 2000), (207 / 1000), 0] := by
  have h := Real.sin_sq_add_cos_sq (q LH_HAA)
  refine isMotionX_of ⟨?_, ?_⟩ ?_
  · ext i j; fin_cases i <;> fin_cases j <;> simp [Matrix.mul_apply, Fin.sum_univ_succ] <;> linarith
  · rw [Matrix.det_fin_three]; simp; linarith
  · rw [motion_fr_LH_hipassembly_X_fr_trunk_new, motion_fr_LH_hipassembly_X_fr_trunk_update]
    ext i j; fin_cases i <;> fin_cases j <;> simp [blk, cpm, Matrix.mul_apply, Fin.sum_univ_succ] <;> norm_num <;> ring

theorem motion_fr_LH_upperleg_X_fr_LH_hipassembly_isMotion (z : M6) (q : Q) : IsMotionX (motion_fr_LH_upperleg_X_fr_LH_hipassembly_update (motion_fr_LH_upperleg_X_fr_LH_hipassembly_new z) q)
    !![Real.cos (q LH_HFE), 0, Real.sin (q LH_HFE); -Real.sin (q LH_HFE), 0, Real.cos (q LH_HFE); 0, -1, 0]
    ![(2 / 25), 0, 0] := by
  have h := Real.sin_sq_add_cos_sq (q LH_HFE)
  refine isMotionX_of ⟨?_, ?_⟩ ?_
  · ext i j; fin_cases i <;> fin_cases j <;> simp [Matrix.mul_apply, Fin.sum_univ_succ] <;> linarith
  · rw [Matrix.det_fin_three]; simp; linarith
  · rw [motion_fr_LH_upperleg_X_fr_LH_hipassembly_new, motion_fr_LH_upperleg_X_fr_LH_hipassembly_update]
    ext i j; fin_cases i <;> fin_cases j <;> simp [blk, cpm, Matrix.mul_apply, Fin.sum_univ_succ] <;> norm_num <;> ring

theorem motion_fr_LH_lowerleg_X_fr_LH_upperleg_isMotion (z : M6) (q : Q) : IsMotionX (motion_fr_LH_lowerleg_X_fr_LH_upperleg_update (motion_fr_LH_lowerleg_X_fr_LH_upperleg_new z) q)
    !![Real.cos (q LH_KFE), Real.sin (q LH_KFE), 0; -Real.sin (q LH_KFE), Real.cos (q LH_KFE), 0; 0, 0, 1]
    ![(7 / 20), 0, 0] := by
  have h := Real.sin_sq_add_cos_sq (q LH_KFE)
  refine isMotionX_of ⟨?_, ?_⟩ ?_
  · ext i j; fin_cases i <;> fin_cases j <;> simp [Matrix.mul_apply, Fin.sum_univ_succ] <;> linarith
  · rw [Matrix.det_fin_three]; simp; linarith
  · rw [motion_fr_LH_lowerleg_X_fr_LH_upperleg_new, motion_fr_LH_lowerleg_X_fr_LH_upperleg_update]
    ext i j; fin_cases i <;> fin_cases j <;> simp [blk, cpm, Matrix.mul_apply, Fin.sum_univ_succ] <;> norm_num <;> ring

theorem motion_fr_RH_hipassembly_X_fr_trunk_isMotion (z : M6) (q : Q) : IsMotionX (motion_fr_RH_hipassembly_X_fr_trunk_update (motion_fr_RH_hipassembly_X_fr_trunk_new z) q)
    !![0, Real.sin (q RH_HAA), -Real.cos (q RH_HAA); 0, Real.cos (q RH_HAA), Real.sin (q RH_HAA); 1, 0, 0]
    ![(-747 / 2000), (-207 / 1000), 0] := by
  have h := Real.sin_sq_add_cos_sq (q RH_HAA)
  refine isMotionX_of ⟨?_, ?_⟩ ?_
  · ext i j; fin_cases i <;> fin_cases j <;> simp [Matrix.mul_apply, Fin.sum_univ_succ] <;> linarith
  · rw [Matrix.det_fin_three]; simp; linarith
  · rw [motion_fr_RH_hipassembly_X_fr_trunk_new, motion_fr_RH_hipassembly_X_fr_trunk_update]
    ext i j; fin_cases i <;> fin_cases j <;> simp [blk, cpm, Matrix.mul_apply, Fin.sum_univ_succ] <;> norm_num <;> ring

theorem motion_fr_RH_upperleg_X_fr_RH_hipassembly_isMotion (z : M6) (q : Q) : IsMotionX (motion_fr_RH_upperleg_X_fr_RH_hipassembly_update (motion_fr_RH_upperleg_X_fr_RH_hipassembly_new z) q)
    !![Real.cos (q RH_HFE), 0, -Real.sin (q RH_HFE); -Real.sin (q RH_HFE), 0, -Real.cos (q RH_HFE); 0, 1, 0]
    ![(2 / 25), 0, 0] := by
  have h := Real.sin_sq_add_cos_sq (q RH_HFE)
  refine isMotionX_of ⟨?_, ?_⟩ ?_
  · ext i j; fin_cases i <;> fin_cases j <;> simp [Matrix.mul_apply, Fin.sum_univ_succ] <;> linarith
  · rw [Matrix.det_fin_three]; simp; linarith
  · rw [motion_fr_RH_upperleg_X_fr_RH_hipassembly_new, motion_fr_RH_upperleg_X_fr_RH_hipassembly_update]
    ext i j; fin_cases i <;> fin_cases j <;> simp [blk, cpm, Matrix.mul_apply, Fin.sum_univ_succ] <;> norm_num <;> ring

theorem motion_fr_RH_lowerleg_X_fr_RH_upperleg_isMotion (z : M6) (q : Q) : IsMotionX (motion_fr_RH_lowerleg_X_fr_RH_upperleg_update (motion_fr_RH_lowerleg_X_fr_RH_upperleg_new z) q)
    !![Real.cos (q RH_KFE), Real.sin (q RH_KFE), 0; -Real.sin (q RH_KFE), Real.cos (q RH_KFE), 0; 0, 0, 1]
    ![(7 / 20), 0, 0] := by
  have h := Real.sin_sq_add_cos_sq (q RH_KFE)
  refine isMotionX_of ⟨?_, ?_⟩ ?_
  · ext i j; fin_cases i <;> fin_cases j <;> simp [Matrix.mul_apply, Fin.sum_univ_succ] <;> linarith
  · rw [Matrix.det_fin_three]; simp; linarith
  · rw [motion_fr_RH_lowerleg_X_fr_RH_upperleg_new, motion_fr_RH_lowerleg_X_fr_RH_upperleg_update]
    ext i j; fin_cases i <;> fin_cases j <;> simp [blk, cpm, Matrix.mul_apply, Fin.sum_univ_succ] <;> norm_num <;> ring

theorem force_fr_RH_upperleg_X_fr_RH_lowerleg_transpose (z y : M6) (q : Q) :
    force_fr_RH_upperleg_X_fr_RH_lowerleg_update (force_fr_RH_upperleg_X_fr_RH_lowerleg_new z) q = (motion_fr_RH_lowerleg_X_fr_RH_upperleg_update (motion_fr_RH_lowerleg_X_fr_RH_upperleg_new y) q)ᵀ := by
  rw [force_fr_RH_upperleg_X_fr_RH_lowerleg_new, force_fr_RH_upperleg_X_fr_RH_lowerleg_update, motion_fr_RH_lowerleg_X_fr_RH_upperleg_new, motion_fr_RH_lowerleg_X_fr_RH_upperleg_update]
  ext i j; fin_cases i <;> fin_cases j <;> simp <;> norm_num

theorem force_fr_RH_hipassembly_X_fr_RH_upperleg_transpose (z y : M6) (q : Q) :
    force_fr_RH_hipassembly_X_fr_RH_upperleg_update (force_fr_RH_hipassembly_X_fr_RH_upperleg_new z) q = (motion_fr_RH_upperleg_X_fr_RH_hipassembly_update (motion_fr_RH_upperleg_X_fr_RH_hipassembly_new y) q)ᵀ := by
  rw [force_fr_RH_hipassembly_X_fr_RH_upperleg_new, force_fr_RH_hipassembly_X_fr_RH_upperleg_update, motion_fr_RH_upperleg_X_fr_RH_hipassembly_new, motion_fr_RH_upperleg_X_fr_RH_hipassembly_update]
  ext i j; fin_cases i <;> fin_cases j <;> simp <;> norm_num

theorem force_fr_trunk_X_fr_RH_hipassembly_transpose (z y : M6) (q : Q) :
    force_fr_trunk_X_fr_RH_hipassembly_update (force_fr_trunk_X_fr_RH_hipassembly_new z) q = (motion_fr_RH_hipassembly_X_fr_trunk_update (motion_fr_RH_hipassembly_X_fr_trunk_new y) q)ᵀ := by
  rw [force_fr_trunk_X_fr_RH_hipassembly_new, force_fr_trunk_X_fr_RH_hipassembly_update, motion_fr_RH_hipassembly_X_fr_trunk_new, motion_fr_RH_hipassembly_X_fr_trunk_update]
  ext i j; fin_cases i <;> fin_cases j <;> simp <;> norm_num

theorem force_fr_LH_upperleg_X_fr_LH_lowerleg_transpose (z y : M6) (q : Q) :
    force_fr_LH_upperleg_X_fr_LH_lowerleg_update (force_fr_LH_upperleg_X_fr_LH_lowerleg_new z) q = (motion_fr_LH_lowerleg_X_fr_LH_upperleg_update (motion_fr_LH_lowerleg_X_fr_LH_upperleg_new y) q)ᵀ := by
  rw [force_fr_LH_upperleg_X_fr_LH_lowerleg_new, force_fr_LH_upperleg_X_fr_LH_lowerleg_update, motion_fr_LH_lowerleg_X_fr_LH_upperleg_new, motion_fr_LH_lowerleg_X_fr_LH_upperleg_update]
  ext i j; fin_cases i <;> fin_cases j <;> simp <;> norm_num

theorem force_fr_LH_hipassembly_X_fr_LH_upperleg_transpose (z y : M6) (q : Q) :
    force_fr_LH_hipassembly_X_fr_LH_upperleg_update (force_fr_LH_hipassembly_X_fr_LH_upperleg_new z) q = (motion_fr_LH_upperleg_X_fr_LH_hipassembly_update (motion_fr_LH_upperleg_X_fr_LH_hipassembly_new y) q)ᵀ := by
  rw [force_fr_LH_hipassembly_X_fr_LH_upperleg_new, force_fr_LH_hipassembly_X_fr_LH_upperleg_update, motion_fr_LH_upperleg_X_fr_LH_hipassembly_new, motion_fr_LH_upperleg_X_fr_LH_hipassembly_update]
  ext i j; fin_cases i <;> fin_cases j <;> simp <;> norm_num

theorem force_fr_trunk_X_fr_LH_hipassembly_transpose (z y : M6) (q : Q) :
    force_fr_trunk_X_fr_LH_hipassembly_update (force_fr_trunk_X_fr_LH_hipassembly_new z) q = (motion_fr_LH_hipassembly_X_fr_trunk_update (motion_fr_LH_hipassembly_X_fr_trunk_new y) q)ᵀ := by
  rw [force_fr_trunk_X_fr_LH_hipassembly_new, force_fr_trunk_X_fr_LH_hipassembly_update, motion_fr_LH_hipassembly_X_fr_trunk_new, motion_fr_LH_hipassembly_X_fr_trunk_update]
  ext i j; fin_cases i <;> fin_cases j <;> simp <;> norm_num

theorem force_fr_RF_upperleg_X_fr_RF_lowerleg_transpose (z y : M6) (q : Q) :
    force_fr_RF_upperleg_X_fr_RF_lowerleg_update (force_fr_RF_upperleg_X_fr_RF_lowerleg_new z) q = (motion_fr_RF_lowerleg_X_fr_RF_upperleg_update (motion_fr_RF_lowerleg_X_fr_RF_upperleg_new y) q)ᵀ := by
  rw [force_fr_RF_upperleg_X_fr_RF_lowerleg_new, force_fr_RF_upperleg_X_fr_RF_lowerleg_update, motion_fr_RF_lowerleg_X_fr_RF_upperleg_new, motion_fr_RF_lowerleg_X_fr_RF_upperleg_update]
  ext i j; fin_cases i <;> fin_cases j <;> simp <;> norm_num

theorem force_fr_RF_hipassembly_X_fr_RF_upperleg_transpose (z y : M6) (q : Q) :
    force_fr_RF_hipassembly_X_fr_RF_upperleg_update (force_fr_RF_hipassembly_X_fr_RF_upperleg_new z) q = (motion_fr_RF_upperleg_X_fr_RF_hipassembly_update (motion_fr_RF_upperleg_X_fr_RF_hipassembly_new y) q)ᵀ := by
  rw [force_fr_RF_hipassembly_X_fr_RF_upperleg_new, force_fr_RF_hipassembly_X_fr_RF_upperleg_update, motion_fr_RF_upperleg_X_fr_RF_hipassembly_new, motion_fr_RF_upperleg_X_fr_RF_hipassembly_update]
  ext i j; fin_cases i <;> fin_cases j <;> simp <;> norm_num

theorem force_fr_trunk_X_fr_RF_hipassembly_transpose (z y : M6) (q : Q) :
    force_fr_trunk_X_fr_RF_hipassembly_update (force_fr_trunk_X_fr_RF_hipassembly_new z) q = (motion_fr_RF_hipassembly_X_fr_trunk_update (motion_fr_RF_hipassembly_X_fr_trunk_new y) q)ᵀ := by
  rw [force_fr_trunk_X_fr_RF_hipassembly_new, force_fr_trunk_X_fr_RF_hipassembly_update, motion_fr_RF_hipassembly_X_fr_trunk_new, motion_fr_RF_hipassembly_X_fr_trunk_update]
  ext i j; fin_cases i <;> fin_cases j <;> simp <;> norm_num

theorem force_fr_LF_upperleg_X_fr_LF_lowerleg_transpose (z y : M6) (q : Q) :
    force_fr_LF_upperleg_X_fr_LF_lowerleg_update (force_fr_LF_upperleg_X_fr_LF_lowerleg_new z) q = (motion_fr_LF_lowerleg_X_fr_LF_upperleg_update (motion_fr_LF_lowerleg_X_fr_LF_upperleg_new y) q)ᵀ := by
  rw [force_fr_LF_upperleg_X_fr_LF_lowerleg_new, force_fr_LF_upperleg_X_fr_LF_lowerleg_update, motion_fr_LF_lowerleg_X_fr_LF_upperleg_new, motion_fr_LF_lowerleg_X_fr_LF_upperleg_update]
  ext i j; fin_cases i <;> fin_cases j <;> simp <;> norm_num

theorem force_fr_LF_hipassembly_X_fr_LF_upperleg_transpose (z y : M6) (q : Q) :
    force_fr_LF_hipassembly_X_fr_LF_upperleg_update (force_fr_LF_hipassembly_X_fr_LF_upperleg_new z) q = (motion_fr_LF_upperleg_X_fr_LF_hipassembly_update (motion_fr_LF_upperleg_X_fr_LF_hipassembly_new y) q)ᵀ := by
  rw [force_fr_LF_hipassembly_X_fr_LF_upperleg_new, force_fr_LF_hipassembly_X_fr_LF_upperleg_update, motion_fr_LF_upperleg_X_fr_LF_hipassembly_new, motion_fr_LF_upperleg_X_fr_LF_hipassembly_update]
  ext i j; fin_cases i <;> fin_cases j <;> simp <;> norm_num

theorem force_fr_trunk_X_fr_LF_hipassembly_transpose (z y : M6) (q : Q) :
    force_fr_trunk_X_fr_LF_hipassembly_update (force_fr_trunk_X_fr_LF_hipassembly_new z) q = (motion_fr_LF_hipassembly_X_fr_trunk_update (motion_fr_LF_hipassembly_X_fr_trunk_new y) q)ᵀ := by
  rw [force_fr_trunk_X_fr_LF_hipassembly_new, force_fr_trunk_X_fr_LF_hipassembly_update, motion_fr_LF_hipassembly_X_fr_trunk_new, motion_fr_LF_hipassembly_X_fr_trunk_update]
  ext i j; fin_cases i <;> fin_cases j <;> simp <;> norm_num

/-- The motion transforms at a position. -/
noncomputable def MT.at (q : Q) : MT := (MT.new ⟨0, 0, 0, 0, 0, 0, 0, 0, 0, 0, 0, 0⟩).setJointStatus q

/-- The force transforms at a position. -/
noncomputable def FT.at (q : Q) : FT := (FT.new ⟨0, 0, 0, 0, 0, 0, 0, 0, 0, 0, 0, 0⟩).set q

/-- The inertia parameters. -/
noncomputable def Inertias.std : Inertias := Inertias.new ⟨0, 0, 0, 0, 0, 0, 0, 0, 0, 0, 0, 0, 0⟩

/-! ### Inertia parameters -/

theorem tensor_trunk_fresh (z : M6) : tensor_trunk z = tensor_trunk 0 := fill_fresh ..

theorem tensor_trunk_body (z : M6) : IsBody (tensor_trunk z) := isBody_fill z (by norm_num) ..

theorem tensor_trunk_pos (z : M6) (v : V6) (hv : v ≠ 0) : 0 < v ⬝ᵥ (tensor_trunk z *ᵥ v) :=
  pos_fill z (by norm_num) _ _ _ _ _ _ _ (by simp; norm_num) (by simp; norm_num) (by simp; norm_num) v hv

theorem tensor_LF_hipassembly_fresh (z : M6) : tensor_LF_hipassembly z = tensor_LF_hipassembly 0 := fill_fresh ..

theorem tensor_LF_hipassembly_body (z : M6) : IsBody (tensor_LF_hipassembly z) := isBody_fill z (by norm_num) ..

theorem tensor_LF_hipassembly_pos (z : M6) (v : V6) (hv : v ≠ 0) : 0 < v ⬝ᵥ (tensor_LF_hipassembly z *ᵥ v) :=
  pos_fill z (by norm_num) _ _ _ _ _ _ _ (by simp; norm_num) (by simp; norm_num) (by simp; norm_num) v hv

theorem tensor_LF_upperleg_fresh (z : M6) : tensor_LF_upperleg z = tensor_LF_upperleg 0 := fill_fresh ..

theorem tensor_LF_upperleg_body (z : M6) : IsBody (tensor_LF_upperleg z) := isBody_fill z (by norm_num) ..

theorem tensor_LF_upperleg_pos (z : M6) (v : V6) (hv : v ≠ 0) : 0 < v ⬝ᵥ (tensor_LF_upperleg z *ᵥ v) :=
  pos_fill z (by norm_num) _ _ _ _ _ _ _ (by simp; norm_num) (by simp; norm_num) (by simp; norm_num) v hv

theorem tensor_LF_lowerleg_fresh (z : M6) : tensor_LF_lowerleg z = tensor_LF_lowerleg 0 := fill_fresh ..

theorem tensor_LF_lowerleg_body (z : M6) : IsBody (tensor_LF_lowerleg z) := isBody_fill z (by norm_num) ..

theorem tensor_LF_lowerleg_pos (z : M6) (v : V6) (hv : v ≠ 0) : 0 < v ⬝ᵥ (tensor_LF_lowerleg z *ᵥ v) :=
  pos_fill z (by norm_num) _ _ _ _ _ _ _ (by simp; norm_num) (by simp; norm_num) (by simp; norm_num) v hv

theorem tensor_RF_hipassembly_fresh (z : M6) : tensor_RF_hipassembly z = tensor_RF_hipassembly 0 := fill_fresh ..

theorem tensor_RF_hipassembly_body (z : M6) : IsBody (tensor_RF_hipassembly z) := isBody_fill z (by norm_num) ..

theorem tensor_RF_hipassembly_pos (z : M6) (v : V6) (hv : v ≠ 0) : 0 < v ⬝ᵥ (tensor_RF_hipassembly z *ᵥ v) :=
  pos_fill z (by norm_num) _ _ _ _ _ _ _ (by simp; norm_num) (by simp; norm_num) (by simp; norm_num) v hv

theorem tensor_RF_upperleg_fresh (z : M6) : tensor_RF_upperleg z = tensor_RF_upperleg 0 := fill_fresh ..

theorem tensor_RF_upperleg_body (z : M6) : IsBody (tensor_RF_upperleg z) := isBody_fill z (by norm_num) ..

theorem tensor_RF_upperleg_pos (z : M6) (v : V6) (hv : v ≠ 0) : 0 < v ⬝ᵥ (tensor_RF_upperleg z *ᵥ v) :=
  pos_fill z (by norm_num) _ _ _ _ _ _ _ (by simp; norm_num) (by simp; norm_num) (by simp; norm_num) v hv

theorem tensor_RF_lowerleg_fresh (z : M6) : tensor_RF_lowerleg z = tensor_RF_lowerleg 0 := fill_fresh ..

theorem tensor_RF_lowerleg_body (z : M6) : IsBody (tensor_RF_lowerleg z) := isBody_fill z (by norm_num) ..

theorem tensor_RF_lowerleg_pos (z : M6) (v : V6) (hv : v ≠ 0) : 0 < v ⬝ᵥ (tensor_RF_lowerleg z *ᵥ v) :=
  pos_fill z (by norm_num) _ _ _ _ _ _ _ (by simp; norm_num) (by simp; norm_num) (by simp; norm_num) v hv

theorem tensor_LH_hipassembly_fresh (z : M6) : tensor_LH_hipassembly z = tensor_LH_hipassembly 0 := fill_fresh ..

theorem tensor_LH_hipassembly_body (z : M6) : IsBody (tensor_LH_hipassembly z) := isBody_fill z (by norm_num) ..

theorem tensor_LH_hipassembly_pos (z : M6) (v : V6) (hv : v ≠ 0) : 0 < v ⬝ᵥ (tensor_LH_hipassembly z *ᵥ v) :=
  pos_fill z (by norm_num) _ _ _ _ _ _ _ (by simp; norm_num) (by simp; norm_num) (by simp; norm_num) v hv

theorem tensor_LH_upperleg_fresh (z : M6) : tensor_LH_upperleg z = tensor_LH_upperleg 0 := fill_fresh ..

theorem tensor_LH_upperleg_body (z : M6) : IsBody (tensor_LH_upperleg z) := isBody_fill z (by norm_num) ..

theorem tensor_LH_upperleg_pos (z : M6) (v : V6) (hv : v ≠ 0) : 0 < v ⬝ᵥ (tensor_LH_upperleg z *ᵥ v) :=
  pos_fill z (by norm_num) _ _ _ _ _ _ _ (by simp; norm_num) (by simp; norm_num) (by simp; norm_num) v hv

theorem tensor_LH_lowerleg_fresh (z : M6) : tensor_LH_lowerleg z = tensor_LH_lowerleg 0 := fill_fresh ..

theorem tensor_LH_lowerleg_body (z : M6) : IsBody (tensor_LH_lowerleg z) := isBody_fill z (by norm_num) ..

theorem tensor_LH_lowerleg_pos (z : M6) (v : V6) (hv : v ≠ 0) : 0 < v ⬝ᵥ (tensor_LH_lowerleg z *ᵥ v) :=
  pos_fill z (by norm_num) _ _ _ _ _ _ _ (by simp; norm_num) (by simp; norm_num) (by simp; norm_num) v hv

theorem tensor_RH_hipassembly_fresh (z : M6) : tensor_RH_hipassembly z = tensor_RH_hipassembly 0 := fill_fresh ..

theorem tensor_RH_hipassembly_body (z : M6) : IsBody (tensor_RH_hipassembly z) := isBody_fill z (by norm_num) ..

theorem tensor_RH_hipassembly_pos (z : M6) (v : V6) (hv : v ≠ 0) : 0 < v ⬝ᵥ (tensor_RH_hipassembly z *ᵥ v) :=
  pos_fill z (by norm_num) _ _ _ _ _ _ _ (by simp; norm_num) (by simp; norm_num) (by simp; norm_num) v hv

theorem tensor_RH_upperleg_fresh (z : M6) : tensor_RH_upperleg z = tensor_RH_upperleg 0 := fill_fresh ..

theorem tensor_RH_upperleg_body (z : M6) : IsBody (tensor_RH_upperleg z) := isBody_fill z (by norm_num) ..

theorem tensor_RH_upperleg_pos (z : M6) (v : V6) (hv : v ≠ 0) : 0 < v ⬝ᵥ (tensor_RH_upperleg z *ᵥ v) :=
  pos_fill z (by norm_num) _ _ _ _ _ _ _ (by simp; norm_num) (by simp; norm_num) (by simp; norm_num) v hv

theorem tensor_RH_lowerleg_fresh (z : M6) : tensor_RH_lowerleg z = tensor_RH_lowerleg 0 := fill_fresh ..

theorem tensor_RH_lowerleg_body (z : M6) : IsBody (tensor_RH_lowerleg z) := isBody_fill z (by norm_num) ..

theorem tensor_RH_lowerleg_pos (z : M6) (v : V6) (hv : v ≠ 0) : 0 < v ⬝ᵥ (tensor_RH_lowerleg z *ᵥ v) :=
  pos_fill z (by norm_num) _ _ _ _ _ _ _ (by simp; norm_num) (by simp; norm_num) (by simp; norm_num) v hv

/-! ### State of the object -/

/-- What is true of the object between calls. -/
structure Inv (o : Robot) : Prop where
  m : ∀ q, o.m.setJointStatus q = MT.at q
  ft : ∀ q, o.ft.set q = FT.at q
  i : o.i = Inertias.std
  fc : ∀ v, motionCrossProductMx v o.fds.vcross = motionCrossProductMx v 0
  fa : ∀ A U D, computeIaRevolute A U D o.fds.Ia_r = computeIaRevolute A U D 0
  ic : ∀ v, motionCrossProductMx v o.ids.vcross = motionCrossProductMx v 0
  sp : ∃ junk, ∀ A X, transformInertia A X o.Ic_spare = transformInertia A X (Inertia.new junk)
  H : ∀ a b : Fin 12, a.val / 3 ≠ b.val / 3 → o.H (.inr a) (.inr b) = 0

theorem MT.refill (m : MT) (p q : Q) : (m.setJointStatus p).setJointStatus q = m.setJointStatus q := by
  simp only [MT.setJointStatus, motion_fr_LF_hipassembly_X_fr_trunk_again, motion_fr_LF_upperleg_X_fr_LF_hipassembly_again, motion_fr_LF_lowerleg_X_fr_LF_upperleg_again, motion_fr_RF_hipassembly_X_fr_trunk_again, motion_fr_RF_upperleg_X_fr_RF_hipassembly_again, motion_fr_RF_lowerleg_X_fr_RF_upperleg_again, motion_fr_LH_hipassembly_X_fr_trunk_again, motion_fr_LH_upperleg_X_fr_LH_hipassembly_again, motion_fr_LH_lowerleg_X_fr_LH_upperleg_again, motion_fr_RH_hipassembly_X_fr_trunk_again, motion_fr_RH_upperleg_X_fr_RH_hipassembly_again, motion_fr_RH_lowerleg_X_fr_RH_upperleg_again]

theorem FT.refill (m : FT) (p q : Q) : (m.set p).set q = m.set q := by
  simp only [FT.set, force_fr_RH_upperleg_X_fr_RH_lowerleg_again, force_fr_RH_hipassembly_X_fr_RH_upperleg_again, force_fr_trunk_X_fr_RH_hipassembly_again, force_fr_LH_upperleg_X_fr_LH_lowerleg_again, force_fr_LH_hipassembly_X_fr_LH_upperleg_again, force_fr_trunk_X_fr_LH_hipassembly_again, force_fr_RF_upperleg_X_fr_RF_lowerleg_again, force_fr_RF_hipassembly_X_fr_RF_upperleg_again, force_fr_trunk_X_fr_RF_hipassembly_again, force_fr_LF_upperleg_X_fr_LF_lowerleg_again, force_fr_LF_hipassembly_X_fr_LF_upperleg_again, force_fr_trunk_X_fr_LF_hipassembly_again]

theorem inv_new (z : Robot) : Inv (Robot.new z) where
  m q := by
    simp only [Robot.new, MT.at, MT.new, MT.setJointStatus]
    rw [motion_fr_LF_hipassembly_X_fr_trunk_fresh z.m.fr_LF_hipassembly_X_fr_trunk, motion_fr_LF_upperleg_X_fr_LF_hipassembly_fresh z.m.fr_LF_upperleg_X_fr_LF_hipassembly, motion_fr_LF_lowerleg_X_fr_LF_upperleg_fresh z.m.fr_LF_lowerleg_X_fr_LF_upperleg, motion_fr_RF_hipassembly_X_fr_trunk_fresh z.m.fr_RF_hipassembly_X_fr_trunk, motion_fr_RF_upperleg_X_fr_RF_hipassembly_fresh z.m.fr_RF_upperleg_X_fr_RF_hipassembly, motion_fr_RF_lowerleg_X_fr_RF_upperleg_fresh z.m.fr_RF_lowerleg_X_fr_RF_upperleg, motion_fr_LH_hipassembly_X_fr_trunk_fresh z.m.fr_LH_hipassembly_X_fr_trunk, motion_fr_LH_upperleg_X_fr_LH_hipassembly_fresh z.m.fr_LH_upperleg_X_fr_LH_hipassembly, motion_fr_LH_lowerleg_X_fr_LH_upperleg_fresh z.m.fr_LH_lowerleg_X_fr_LH_upperleg, motion_fr_RH_hipassembly_X_fr_trunk_fresh z.m.fr_RH_hipassembly_X_fr_trunk, motion_fr_RH_upperleg_X_fr_RH_hipassembly_fresh z.m.fr_RH_upperleg_X_fr_RH_hipassembly, motion_fr_RH_lowerleg_X_fr_RH_upperleg_fresh z.m.fr_RH_lowerleg_X_fr_RH_upperleg]
  ft q := by
    simp only [Robot.new, FT.at, FT.new, FT.set]
    rw [force_fr_RH_upperleg_X_fr_RH_lowerleg_fresh z.ft.fr_RH_upperleg_X_fr_RH_lowerleg, force_fr_RH_hipassembly_X_fr_RH_upperleg_fresh z.ft.fr_RH_hipassembly_X_fr_RH_upperleg, force_fr_trunk_X_fr_RH_hipassembly_fresh z.ft.fr_trunk_X_fr_RH_hipassembly, force_fr_LH_upperleg_X_fr_LH_lowerleg_fresh z.ft.fr_LH_upperleg_X_fr_LH_lowerleg, force_fr_LH_hipassembly_X_fr_LH_upperleg_fresh z.ft.fr_LH_hipassembly_X_fr_LH_upperleg, force_fr_trunk_X_fr_LH_hipassembly_fresh z.ft.fr_trunk_X_fr_LH_hipassembly, force_fr_RF_upperleg_X_fr_RF_lowerleg_fresh z.ft.fr_RF_upperleg_X_fr_RF_lowerleg, force_fr_RF_hipassembly_X_fr_RF_upperleg_fresh z.ft.fr_RF_hipassembly_X_fr_RF_upperleg, force_fr_trunk_X_fr_RF_hipassembly_fresh z.ft.fr_trunk_X_fr_RF_hipassembly, force_fr_LF_upperleg_X_fr_LF_lowerleg_fresh z.ft.fr_LF_upperleg_X_fr_LF_lowerleg, force_fr_LF_hipassembly_X_fr_LF_upperleg_fresh z.ft.fr_LF_hipassembly_X_fr_LF_upperleg, force_fr_trunk_X_fr_LF_hipassembly_fresh z.ft.fr_trunk_X_fr_LF_hipassembly]
  i := by
    simp only [Robot.new, Inertias.std, Inertias.new]
    rw [tensor_trunk_fresh z.i.trunk, tensor_LF_hipassembly_fresh z.i.LF_hipassembly, tensor_LF_upperleg_fresh z.i.LF_upperleg, tensor_LF_lowerleg_fresh z.i.LF_lowerleg, tensor_RF_hipassembly_fresh z.i.RF_hipassembly, tensor_RF_upperleg_fresh z.i.RF_upperleg, tensor_RF_lowerleg_fresh z.i.RF_lowerleg, tensor_LH_hipassembly_fresh z.i.LH_hipassembly, tensor_LH_upperleg_fresh z.i.LH_upperleg, tensor_LH_lowerleg_fresh z.i.LH_lowerleg, tensor_RH_hipassembly_fresh z.i.RH_hipassembly, tensor_RH_upperleg_fresh z.i.RH_upperleg, tensor_RH_lowerleg_fresh z.i.RH_lowerleg]
  fc _ := rfl
  fa _ _ _ := rfl
  ic _ := rfl
  sp := ⟨z.Ic_spare, fun _ _ => rfl⟩
  H _ _ _ := rfl

theorem Inv.step {o : Robot} (h : Inv o) (c : Call) : Inv (o.step c) := by
  cases c with
  | fd q trunk_v g qd tau fext =>
    exact {
      m := fun p => (MT.refill o.m q p).trans (h.m p)
      ft := h.ft
      i := h.i
      fc := fun v => by simp -implicitDefEqProofs only [Robot.step, Robot.fd, Robots.HyQ.fd, cross_refill, h.fc]
      fa := fun A U D => by simp -implicitDefEqProofs only [Robot.step, Robot.fd, Robots.HyQ.fd, Ia_refill, h.fa]
      ic := h.ic
      sp := h.sp
      H := h.H
    }
  | id q g trunk_v qd qdd fext =>
    exact {
      m := fun p => (MT.refill o.m q p).trans (h.m p)
      ft := h.ft
      i := h.i
      fc := h.fc
      fa := h.fa
      ic := fun v => by simp -implicitDefEqProofs only [Robot.step, Robot.id, Robots.HyQ.id, cross_refill, h.ic]
      sp := h.sp
      H := h.H
    }
  | G_terms q g =>
    exact {
      m := fun p => (MT.refill o.m q p).trans (h.m p)
      ft := h.ft
      i := h.i
      fc := h.fc
      fa := h.fa
      ic := h.ic
      sp := h.sp
      H := h.H
    }
  | C_terms q trunk_v qd =>
    exact {
      m := fun p => (MT.refill o.m q p).trans (h.m p)
      ft := h.ft
      i := h.i
      fc := h.fc
      fa := h.fa
      ic := fun v => by simp -implicitDefEqProofs only [Robot.step, Robot.C_terms, Robots.HyQ.C_terms_fully_actuated, cross_refill, h.ic]
      sp := h.sp
      H := h.H
    }
  | id_full q g trunk_v baseAccel qd qdd fext =>
    exact {
      m := fun p => (MT.refill o.m q p).trans (h.m p)
      ft := h.ft
      i := h.i
      fc := h.fc
      fa := h.fa
      ic := fun v => by simp -implicitDefEqProofs only [Robot.step, Robot.id_full, Robots.HyQ.id_fully_actuated, cross_refill, h.ic]
      sp := h.sp
      H := h.H
    }
  | jsim q =>
    obtain ⟨junk, hs⟩ := h.sp
    exact {
      m := h.m
      ft := fun p => (FT.refill o.ft q p).trans (h.ft p)
      i := h.i
      fc := h.fc
      fa := h.fa
      ic := h.ic
      sp := ⟨junk, fun A X => by simp -implicitDefEqProofs only [Robot.step, Robot.jsim, Robots.HyQ.jsim, transform_refill, hs]⟩
      H := fun a b hab => by
        have h0 := h.H a b hab
        fin_cases a <;> fin_cases b <;> first | exact absurd rfl hab | exact h0
    }

theorem inv_after (z : Robot) (calls : List Call) : Inv (Robot.after z calls) := by
  have : ∀ o, Inv o → Inv (calls.foldl Robot.step o) := by
    induction calls with
    | nil => exact fun o h => h
    | cons c cs ih => exact fun o h => ih _ (h.step c)
  exact this _ (inv_new z)

/-! ### The recursive form -/

/-- The joints by branch. -/
def split (x : Q) : List (List ℝ) :=
  [[x RH_HAA, x RH_HFE, x RH_KFE], [x LH_HAA, x LH_HFE, x LH_KFE], [x RF_HAA, x RF_HFE, x RF_KFE], [x LF_HAA, x LF_HFE, x LF_KFE]]

/-- The columns of a matrix by branch. -/
def cols (F : Matrix (Fin 6) (Fin 12) ℝ) : List (List V6) :=
  [[fun k => F k RH_HAA, fun k => F k RH_HFE, fun k => F k RH_KFE],
   [fun k => F k LH_HAA, fun k => F k LH_HFE, fun k => F k LH_KFE],
   [fun k => F k RF_HAA, fun k => F k RF_HFE, fun k => F k RF_KFE],
   [fun k => F k LF_HAA, fun k => F k LF_HFE, fun k => F k LF_KFE]]

/-- The blocks on the diagonal of a matrix by branch. -/
def blocks (H : Matrix (Fin 12) (Fin 12) ℝ) : List (List (List ℝ)) :=
  [[[H RH_HAA RH_HAA, H RH_HAA RH_HFE, H RH_HAA RH_KFE], [H RH_HFE RH_HAA, H RH_HFE RH_HFE, H RH_HFE RH_KFE], [H RH_KFE RH_HAA, H RH_KFE RH_HFE, H RH_KFE RH_KFE]],
   [[H LH_HAA LH_HAA, H LH_HAA LH_HFE, H LH_HAA LH_KFE], [H LH_HFE LH_HAA, H LH_HFE LH_HFE, H LH_HFE LH_KFE], [H LH_KFE LH_HAA, H LH_KFE LH_HFE, H LH_KFE LH_KFE]],
   [[H RF_HAA RF_HAA, H RF_HAA RF_HFE, H RF_HAA RF_KFE], [H RF_HFE RF_HAA, H RF_HFE RF_HFE, H RF_HFE RF_KFE], [H RF_KFE RF_HAA, H RF_KFE RF_HFE, H RF_KFE RF_KFE]],
   [[H LF_HAA LF_HAA, H LF_HAA LF_HFE, H LF_HAA LF_KFE], [H LF_HFE LF_HAA, H LF_HFE LF_HFE, H LF_HFE LF_KFE], [H LF_KFE LF_HAA, H LF_KFE LF_HFE, H LF_KFE LF_KFE]]]

theorem split_inj {x y : Q} (h : split x = split y) : x = y := by
  simp only [split, List.cons.injEq, and_true] at h
  funext i
  fin_cases i <;> simp_all

theorem split_add (x y : Q) : List.zipWith ladd (split x) (split y) = split (x + y) := rfl

theorem split_dot (x y : Q) : (List.zipWith ldot (split x) (split y)).sum = x ⬝ᵥ y := by
  simp [split, ldot, dotProduct, Fin.sum_univ_succ]
  try ring

theorem split_ne {x : Q} (h : x ≠ 0) : ∃ xs ∈ split x, ∃ y ∈ xs, y ≠ 0 := by
  by_contra hc
  push Not at hc
  apply h
  simp only [split, List.mem_cons, List.not_mem_nil, or_false, forall_eq_or_imp, forall_eq] at hc
  funext i
  fin_cases i <;> simp_all

theorem fsum_cols (F : Matrix (Fin 6) (Fin 12) ℝ) (x : Q) : fsum (cols F) (split x) = F *ᵥ x := by
  funext k
  simp [fsum, lsum, cols, split, mulVec, dotProduct, Fin.sum_univ_succ]
  try ring

theorem rows_blocks (F : Matrix (Fin 6) (Fin 12) ℝ) (H : Matrix (Fin 12) (Fin 12) ℝ) (a : V6) (x : Q)
    (h : ∀ a b : Fin 12, a.val / 3 ≠ b.val / 3 → H a b = 0) :
    List.zipWith (fun (FH : List V6 × List (List ℝ)) xs => rows FH.1 FH.2 a xs) ((cols F).zip (blocks H)) (split x)
      = split (Fᵀ *ᵥ a + H *ᵥ x) := by
  have e : ∀ i, (H *ᵥ x) i = ∑ j, if i.val / 3 = j.val / 3 then H i j * x j else 0 := by
    intro i
    rw [mulVec, dotProduct]
    refine Finset.sum_congr rfl fun j _ => ?_
    split_ifs with hij
    · rfl
    · rw [h i j hij, zero_mul]
  simp only [cols, blocks, split, rows, ladd, ldot, List.zip_cons_cons, List.zip_nil_left, List.zipWith_cons_cons, List.zipWith_nil_left, List.map_cons, List.map_nil,
    List.sum_cons, List.sum_nil, Pi.add_apply, e]
  simp [Fin.sum_univ_succ, mulVec, dotProduct]
  try (refine ⟨?_, ?_⟩ <;> ring)

/-- The base. -/
noncomputable def baseAt (v : V6) (fext : Ext) : Base := { I := Inertias.std.trunk, fext := fext TRUNK, v := v }

/-- The branches at a position. -/
noncomputable def branchesAt (q qd : Q) (fext : Ext) : List (List Joint) := branches (MT.at q) (FT.at q) Inertias.std qd fext

theorem branches_rigid (q qd : Q) (fext : Ext) : ∀ br ∈ branchesAt q qd fext, ∀ j ∈ br, j.Rigid := by
  simp only [branchesAt, branches, List.mem_cons, List.not_mem_nil, or_false, forall_eq_or_imp, forall_eq]
  refine ⟨⟨?_, ?_, ?_⟩, ⟨?_, ?_, ?_⟩, ⟨?_, ?_, ?_⟩, ⟨?_, ?_, ?_⟩⟩
  · exact ⟨⟨_, _, motion_fr_RH_hipassembly_X_fr_trunk_isMotion 0 q⟩, force_fr_trunk_X_fr_RH_hipassembly_transpose 0 0 q, tensor_RH_hipassembly_body 0⟩
  · exact ⟨⟨_, _, motion_fr_RH_upperleg_X_fr_RH_hipassembly_isMotion 0 q⟩, force_fr_RH_hipassembly_X_fr_RH_upperleg_transpose 0 0 q, tensor_RH_upperleg_body 0⟩
  · exact ⟨⟨_, _, motion_fr_RH_lowerleg_X_fr_RH_upperleg_isMotion 0 q⟩, force_fr_RH_upperleg_X_fr_RH_lowerleg_transpose 0 0 q, tensor_RH_lowerleg_body 0⟩
  · exact ⟨⟨_, _, motion_fr_LH_hipassembly_X_fr_trunk_isMotion 0 q⟩, force_fr_trunk_X_fr_LH_hipassembly_transpose 0 0 q, tensor_LH_hipassembly_body 0⟩
  · exact ⟨⟨_, _, motion_fr_LH_upperleg_X_fr_LH_hipassembly_isMotion 0 q⟩, force_fr_LH_hipassembly_X_fr_LH_upperleg_transpose 0 0 q, tensor_LH_upperleg_body 0⟩
  · exact ⟨⟨_, _, motion_fr_LH_lowerleg_X_fr_LH_upperleg_isMotion 0 q⟩, force_fr_LH_upperleg_X_fr_LH_lowerleg_transpose 0 0 q, tensor_LH_lowerleg_body 0⟩
  · exact ⟨⟨_, _, motion_fr_RF_hipassembly_X_fr_trunk_isMotion 0 q⟩, force_fr_trunk_X_fr_RF_hipassembly_transpose 0 0 q, tensor_RF_hipassembly_body 0⟩
  · exact ⟨⟨_, _, motion_fr_RF_upperleg_X_fr_RF_hipassembly_isMotion 0 q⟩, force_fr_RF_hipassembly_X_fr_RF_upperleg_transpose 0 0 q, tensor_RF_upperleg_body 0⟩
  · exact ⟨⟨_, _, motion_fr_RF_lowerleg_X_fr_RF_upperleg_isMotion 0 q⟩, force_fr_RF_upperleg_X_fr_RF_lowerleg_transpose 0 0 q, tensor_RF_lowerleg_body 0⟩
  · exact ⟨⟨_, _, motion_fr_LF_hipassembly_X_fr_trunk_isMotion 0 q⟩, force_fr_trunk_X_fr_LF_hipassembly_transpose 0 0 q, tensor_LF_hipassembly_body 0⟩
  · exact ⟨⟨_, _, motion_fr_LF_upperleg_X_fr_LF_hipassembly_isMotion 0 q⟩, force_fr_LF_hipassembly_X_fr_LF_upperleg_transpose 0 0 q, tensor_LF_upperleg_body 0⟩
  · exact ⟨⟨_, _, motion_fr_LF_lowerleg_X_fr_LF_upperleg_isMotion 0 q⟩, force_fr_LF_upperleg_X_fr_LF_lowerleg_transpose 0 0 q, tensor_LF_lowerleg_body 0⟩

theorem branches_pos (q qd : Q) (fext : Ext) : ∀ br ∈ branchesAt q qd fext, ∀ j ∈ br, ∀ u : V6, u ≠ 0 → 0 < u ⬝ᵥ (j.I *ᵥ u) := by
  simp only [branchesAt, branches, List.mem_cons, List.not_mem_nil, or_false, forall_eq_or_imp, forall_eq]
  exact ⟨⟨tensor_RH_hipassembly_pos 0, tensor_RH_upperleg_pos 0, tensor_RH_lowerleg_pos 0⟩, ⟨tensor_LH_hipassembly_pos 0, tensor_LH_upperleg_pos 0, tensor_LH_lowerleg_pos 0⟩, ⟨tensor_RF_hipassembly_pos 0, tensor_RF_upperleg_pos 0, tensor_RF_lowerleg_pos 0⟩, ⟨tensor_LF_hipassembly_pos 0, tensor_LF_upperleg_pos 0, tensor_LF_lowerleg_pos 0⟩⟩

theorem pairs_good (q qd : Q) (fext : Ext) (x : Q) :
    ∀ br ∈ List.zipWith List.zip (branchesAt q qd fext) (split x), ∀ e ∈ br, e.1.Good := by
  intro br hbr e he
  obtain ⟨js, xs, hjs, rfl⟩ := mem_pairs hbr
  have hj := (List.of_mem_zip (show (e.1, e.2) ∈ _ from he)).1
  have hr := branches_rigid q qd fext js hjs _ hj
  exact ⟨hr.motion, hr.body, branches_pos q qd fext js hjs _ hj⟩

theorem base_good (v : V6) (fext : Ext) : (baseAt v fext).Good := ⟨tensor_trunk_body 0, tensor_trunk_pos 0⟩

theorem fd_eq {o : Robot} (h : Inv o) (q : Q) (v g : V6) (qd tau : Q) (fext : Ext) :
    ((o.fd q v g qd tau fext).2.1, split (o.fd q v g qd tau fext).2.2) = fdFloat (baseAt v fext) g (List.zipWith List.zip (branchesAt q qd fext) (split tau)) := by
  simp -implicitDefEqProofs only [Robot.fd, h.m, h.i, Robots.HyQ.fd, h.fc, h.fa, cross_refill, Ia_refill, Matrix.neg_mulVec]
  simp -implicitDefEqProofs only [baseAt, branchesAt, branches, split, List.zipWith_cons_cons, List.zipWith_nil_left, List.zip_cons_cons, List.zip_nil_left, List.foldl_cons, List.foldl_nil, List.map_cons, List.map_nil, fdFloat, Base.AI, Base.p, up, down, Joint.vel, Joint.cor, Joint.AI, Joint.p, Joint.lump, accel, addM, addV, firstAcc]
  rfl

theorem full_eq {o : Robot} (h : Inv o) (q : Q) (g v acc : V6) (qd qdd : Q) (fext : Ext) :
    ((o.id_full q g v acc qd qdd fext).2.1, split (o.id_full q g v acc qd qdd fext).2.2) = idFull (baseAt v fext) g acc (List.zipWith List.zip (branchesAt q qd fext) (split qdd)) := by
  simp -implicitDefEqProofs only [Robot.id_full, h.m, h.i, Robots.HyQ.id_fully_actuated, h.ic, cross_refill]
  simp -implicitDefEqProofs only [baseAt, branchesAt, branches, split, List.zipWith_cons_cons, List.zipWith_nil_left, List.zip_cons_cons, List.zip_nil_left, List.foldl_cons, List.foldl_nil, List.map_cons, List.map_nil, idFull, rnea, addF, Joint.vel, Joint.cor, Joint.AI, Joint.p, Joint.lump, accel, addM, addV, firstAcc]
  rfl

theorem id_eq {o : Robot} (h : Inv o) (q : Q) (g v : V6) (qd qdd : Q) (fext : Ext) :
    ((o.id q g v qd qdd fext).2.1, split (o.id q g v qd qdd fext).2.2) = idFloat (baseAt v fext) g (List.zipWith List.zip (branchesAt q qd fext) (split qdd)) := by
  simp -implicitDefEqProofs only [Robot.id, h.m, h.i, Robots.HyQ.id, h.ic, cross_refill, Matrix.neg_mulVec]
  simp -implicitDefEqProofs only [baseAt, branchesAt, branches, split, List.zipWith_cons_cons, List.zipWith_nil_left, List.zip_cons_cons, List.zip_nil_left, List.foldl_cons, List.foldl_nil, List.map_cons, List.map_nil, idFloat, Articulated.comp, compDown, iacc, cacc, addV, Joint.vel, Joint.cor, Joint.AI, Joint.p, Joint.lump, accel, addM, addV, firstAcc]
  rfl

theorem G_eq {o : Robot} (h : Inv o) (q : Q) (g v : V6) (qd : Q) (fext : Ext) :
    ((o.G_terms q g).2.1, split (o.G_terms q g).2.2) = gFull (baseAt v fext) g (branchesAt q qd fext) := by
  simp -implicitDefEqProofs only [Robot.G_terms, h.m, h.i, Robots.HyQ.G_terms_fully_actuated]
  simp -implicitDefEqProofs only [baseAt, branchesAt, branches, split, List.zipWith_cons_cons, List.zipWith_nil_left, List.zip_cons_cons, List.zip_nil_left, List.foldl_cons, List.foldl_nil, List.map_cons, List.map_nil, gFull, gterms, addF]
  rfl

theorem C_eq {o : Robot} (h : Inv o) (q : Q) (v : V6) (qd : Q) (fext : Ext) :
    ((o.C_terms q v qd).2.1, split (o.C_terms q v qd).2.2) = cFull (baseAt v fext) (branchesAt q qd fext) := by
  simp -implicitDefEqProofs only [Robot.C_terms, h.m, h.i, Robots.HyQ.C_terms_fully_actuated, h.ic, cross_refill]
  simp -implicitDefEqProofs only [baseAt, branchesAt, branches, split, List.zipWith_cons_cons, List.zipWith_nil_left, List.zip_cons_cons, List.zip_nil_left, List.foldl_cons, List.foldl_nil, List.map_cons, List.map_nil, cFull, cterms, cacc, addF, Joint.vel, Joint.cor]
  rfl

theorem jsim_eq {o : Robot} (h : Inv o) (q qd : Q) (fext : Ext) :
    ∃ junk, jsimFloat (Inertia.new junk) Inertias.std.trunk (branchesAt q qd fext)
      = ((o.jsim q).2.toBlocks₁₁, cols (o.jsim q).2.toBlocks₁₂, blocks (o.jsim q).2.toBlocks₂₂) := by
  obtain ⟨junk, hs⟩ := h.sp
  refine ⟨junk, ?_⟩
  simp -implicitDefEqProofs only [Robot.jsim, h.ft, h.i, Robots.HyQ.jsim, hs, transform_refill, toBlocks_fromBlocks₁₁, toBlocks_fromBlocks₁₂, toBlocks_fromBlocks₂₂]
  simp -implicitDefEqProofs only [branchesAt, branches, cols, blocks, jsimFloat, crba, List.zipWith_cons_cons, List.zipWith_nil_left, List.zip_cons_cons, List.zip_nil_left, List.foldl_cons, List.foldl_nil, List.map_cons, List.map_nil]
  rfl

theorem jsim_blocks {o : Robot} (q : Q) :
    (o.jsim q).2 = fromBlocks (o.jsim q).2.toBlocks₁₁ (o.jsim q).2.toBlocks₁₂ (o.jsim q).2.toBlocks₁₂ᵀ (o.jsim q).2.toBlocks₂₂ := blocks_of rfl

theorem jsim_cross {o : Robot} (h : Inv o) (q : Q) (a b : Fin 12) (hab : a.val / 3 ≠ b.val / 3) :
    (o.jsim q).2.toBlocks₂₂ a b = 0 := (h.step (.jsim q)).H a b hab

theorem top_symm {o : Robot} (h : Inv o) (q : Q) : (o.jsim q).2.toBlocks₁₁ᵀ = (o.jsim q).2.toBlocks₁₁ := by
  obtain ⟨junk, hj⟩ := jsim_eq h q 0 0
  have h1 : (jsimFloat _ _ _).1 = (o.jsim q).2.toBlocks₁₁ := congrArg Prod.fst hj
  rw [← h1]
  exact jsimFloat_symm junk (tensor_trunk_body 0) _ (branches_rigid q 0 0)

theorem jsim_symm {o : Robot} (h : Inv o) (q : Q) : (o.jsim q).2ᵀ = (o.jsim q).2 := by
  have hI : (o.jsim q).2.toBlocks₁₁ᵀ = (o.jsim q).2.toBlocks₁₁ := top_symm h q
  have hH : (o.jsim q).2.toBlocks₂₂ᵀ = (o.jsim q).2.toBlocks₂₂ := by
    ext a b
    by_cases hab : a.val / 3 = b.val / 3
    · fin_cases a <;> fin_cases b <;> first | exact absurd hab (by decide) | rfl
    · rw [transpose_apply, jsim_cross h q a b hab, jsim_cross h q b a (Ne.symm hab)]
  rw [jsim_blocks, fromBlocks_transpose, transpose_transpose, hI, hH]

/-! ### Theorems -/

theorem terms_eq (a b c d : Robot) (ka kb kc kd : List Call) (q : Q) (g v acc : V6) (qd qdd : Q) :
    ((Robot.after a ka).id_full q g v acc qd qdd 0).2.1
      = ((Robot.after b kb).jsim q).2.toBlocks₁₁ *ᵥ acc + ((Robot.after b kb).jsim q).2.toBlocks₁₂ *ᵥ qdd
        + ((Robot.after c kc).C_terms q v qd).2.1 + ((Robot.after d kd).G_terms q g).2.1
    ∧ ((Robot.after a ka).id_full q g v acc qd qdd 0).2.2
      = ((Robot.after b kb).jsim q).2.toBlocks₁₂ᵀ *ᵥ acc + ((Robot.after b kb).jsim q).2.toBlocks₂₂ *ᵥ qdd
        + ((Robot.after c kc).C_terms q v qd).2.2 + ((Robot.after d kd).G_terms q g).2.2 := by
  obtain ⟨junk, hj⟩ := jsim_eq (inv_after b kb) q qd 0
  have h := float_terms junk (b := baseAt v 0) (tensor_trunk_body 0) rfl g acc (branchesAt q qd 0) (split qdd) (branches_rigid q qd 0)
    (by
      simp only [branchesAt, branches, List.mem_cons, List.not_mem_nil, or_false, forall_eq_or_imp, forall_eq]
      simp)
    rfl
  rw [show (baseAt v 0).I = Inertias.std.trunk from rfl, hj, ← full_eq (inv_after a ka), ← C_eq (inv_after c kc), ← G_eq (inv_after d kd)] at h
  simp only [fsum_cols] at h
  rw [rows_blocks _ _ _ _ (jsim_cross (inv_after b kb) q), split_add, split_add] at h
  exact ⟨h.1, split_inj h.2⟩

/-- **C126 (HyQ).**  Without external forces, `id_fully_actuated` is the product of the joint space inertia
matrix and the accelerations of base and joints plus `C_terms_fully_actuated` plus `G_terms_fully_actuated`. -/
theorem C126_HyQ (a b c d : Robot) (ka kb kc kd : List Call) (q : Q) (g v acc : V6) (qd qdd : Q) :
    Sum.elim ((Robot.after a ka).id_full q g v acc qd qdd 0).2.1 ((Robot.after a ka).id_full q g v acc qd qdd 0).2.2
      = ((Robot.after b kb).jsim q).2 *ᵥ Sum.elim acc qdd
        + Sum.elim ((Robot.after c kc).C_terms q v qd).2.1 ((Robot.after c kc).C_terms q v qd).2.2
        + Sum.elim ((Robot.after d kd).G_terms q g).2.1 ((Robot.after d kd).G_terms q g).2.2 := by
  obtain ⟨h1, h2⟩ := terms_eq a b c d ka kb kc kd q g v acc qd qdd
  rw [jsim_blocks, fromBlocks_mulVec, h1, h2]
  funext k
  cases k <;> rfl

/-- **C128 (HyQ).**  The quadratic form of the joint space inertia matrix is twice the kinetic energy of the
base and of the links when the base and the joints move with the given rates. -/
theorem C128_HyQ (z : Robot) (cs : List Call) (q : Q) (v : V6) (qd : Q) :
    Sum.elim v qd ⬝ᵥ (((Robot.after z cs).jsim q).2 *ᵥ Sum.elim v qd)
      = v ⬝ᵥ (Inertias.std.trunk *ᵥ v) + ((List.zipWith List.zip (branchesAt q qd 0) (split qd)).map (energy v)).sum := by
  obtain ⟨junk, hj⟩ := jsim_eq (inv_after z cs) q qd 0
  have h := float_energy junk (I := Inertias.std.trunk) (tensor_trunk_body 0) v (branchesAt q qd 0) (split qd) (branches_rigid q qd 0) rfl
  rw [hj] at h
  simp only [fsum_cols] at h
  rw [rows_blocks _ _ _ _ (jsim_cross (inv_after z cs) q), split_dot] at h
  rw [jsim_blocks, fromBlocks_mulVec, dotProduct, Fintype.sum_sum_type, ← h]
  rfl

/-- **C125 (HyQ).**  The accelerations of base and joints that `fd` computes for given joint forces are those
for which `id_fully_actuated` computes these forces and no force on the base, whatever was called before on
the two objects. -/
theorem C125_HyQ_fd (z y : Robot) (cs ds : List Call) (q : Q) (g v acc : V6) (qd tau qdd : Q) (fext : Ext) :
    ((Robot.after z cs).id_full q g v acc qd qdd fext).2 = (0, tau)
      ↔ (acc, qdd) = ((Robot.after y ds).fd q v g qd tau fext).2 := by
  have h1 := full_eq (inv_after z cs) q g v acc qd qdd fext
  have h2 := fd_eq (inv_after y ds) q v g qd tau fext
  have h3 := float_iff (base_good v fext).ok g acc (List.zipWith List.zip (branchesAt q qd fext) (split tau)) (split qdd)
    (fun br hbr e he => (pairs_good q qd fext tau br hbr e he).ok) rfl
  rw [show withJoints (List.zipWith List.zip (branchesAt q qd fext) (split tau)) (split qdd)
        = List.zipWith List.zip (branchesAt q qd fext) (split qdd) from rfl,
    show (List.zipWith List.zip (branchesAt q qd fext) (split tau)).map (List.map Prod.snd) = split tau from rfl, ← h1, ← h2] at h3
  rw [split_pair split_inj, split_pair split_inj] at h3
  exact h3

/-- **C125 (HyQ).**  The acceleration of the base and the joint forces that `id` computes for given joint
accelerations are those for which `id_fully_actuated` computes these forces and no force on the base. -/
theorem C125_HyQ_id (z y : Robot) (cs ds : List Call) (q : Q) (g v acc : V6) (qd tau qdd : Q) (fext : Ext) :
    ((Robot.after z cs).id_full q g v acc qd qdd fext).2 = (0, tau)
      ↔ (acc, tau) = ((Robot.after y ds).id q g v qd qdd fext).2 := by
  have h1 := full_eq (inv_after z cs) q g v acc qd qdd fext
  have h2 := id_eq (inv_after y ds) q g v qd qdd fext
  have h3 := float_id_iff (base_good v fext) g acc (List.zipWith List.zip (branchesAt q qd fext) (split qdd)) (split tau)
    (pairs_good q qd fext qdd)
  rw [← h1, ← h2, split_pair split_inj, split_pair split_inj] at h3
  exact h3

/-- **C127 (HyQ).**  The joint space inertia matrix is symmetric and positive definite at every position. -/
theorem C127_HyQ (z : Robot) (cs : List Call) (q : Q) :
    (((Robot.after z cs).jsim q).2)ᵀ = ((Robot.after z cs).jsim q).2
    ∧ ∀ x, x ≠ 0 → 0 < x ⬝ᵥ (((Robot.after z cs).jsim q).2 *ᵥ x) := by
  refine ⟨jsim_symm (inv_after z cs) q, fun x hx => ?_⟩
  obtain ⟨junk, hj⟩ := jsim_eq (inv_after z cs) q 0 0
  have hx2 : x ∘ Sum.inl ≠ 0 ∨ ∃ xs ∈ split (x ∘ Sum.inr), ∃ y ∈ xs, y ≠ 0 := by
    by_cases h1 : x ∘ Sum.inl = 0
    · refine .inr (split_ne fun h2 => hx ?_)
      funext k
      cases k with
      | inl k => exact congrFun h1 k
      | inr k => exact congrFun h2 k
    · exact .inl h1
  have h := float_pos junk (tensor_trunk_body 0) (tensor_trunk_pos 0) (x ∘ Sum.inl) (branchesAt q 0 0) (split (x ∘ Sum.inr))
    (branches_rigid q 0 0) (fun br hbr j hj => (branches_rigid q 0 0 br hbr j hj).ok (branches_pos q 0 0 br hbr j hj)) rfl hx2
  rw [show tensor_trunk 0 = Inertias.std.trunk from rfl, hj] at h
  simp only [fsum_cols] at h
  rw [rows_blocks _ _ _ _ (jsim_cross (inv_after z cs) q), split_dot] at h
  rw [jsim_blocks, fromBlocks_mulVec, dotProduct, Fintype.sum_sum_type]
  exact h

end CT.Robots.HyQ
