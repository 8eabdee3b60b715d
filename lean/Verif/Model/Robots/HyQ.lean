import Mathlib.Analysis.SpecialFunctions.Trigonometric.Basic
import Verif.Model.Articulated

/-!
# HyQ: generated dynamics

Translation of the code in `ct_models/include/ct/models/HyQ/generated`, one `let` for each statement, written by
`tools/gen_robots.py`.  Line numbers are those of the files in that directory.

Simplifications: scalars are real numbers, and only the transforms that the dynamics use are here.  A
function takes and returns the members that it reads before it writes them; the other members are written
before they are read in every function and are local here.
-/

namespace CT.Robots.HyQ

open Matrix Spatial Articulated FrameJac

/-! ### Identifiers (declarations.h) -/

/-- `JointState`. -/
abbrev Q := Fin 12 → ℝ

abbrev LF_HAA : Fin 12 := 0
abbrev LF_HFE : Fin 12 := 1
abbrev LF_KFE : Fin 12 := 2
abbrev RF_HAA : Fin 12 := 3
abbrev RF_HFE : Fin 12 := 4
abbrev RF_KFE : Fin 12 := 5
abbrev LH_HAA : Fin 12 := 6
abbrev LH_HFE : Fin 12 := 7
abbrev LH_KFE : Fin 12 := 8
abbrev RH_HAA : Fin 12 := 9
abbrev RH_HFE : Fin 12 := 10
abbrev RH_KFE : Fin 12 := 11

abbrev TRUNK : Fin 13 := 0
abbrev LF_HIPASSEMBLY : Fin 13 := 1
abbrev LF_UPPERLEG : Fin 13 := 2
abbrev LF_LOWERLEG : Fin 13 := 3
abbrev RF_HIPASSEMBLY : Fin 13 := 4
abbrev RF_UPPERLEG : Fin 13 := 5
abbrev RF_LOWERLEG : Fin 13 := 6
abbrev LH_HIPASSEMBLY : Fin 13 := 7
abbrev LH_UPPERLEG : Fin 13 := 8
abbrev LH_LOWERLEG : Fin 13 := 9
abbrev RH_HIPASSEMBLY : Fin 13 := 10
abbrev RH_UPPERLEG : Fin 13 := 11
abbrev RH_LOWERLEG : Fin 13 := 12

/-- `ExtForces`. -/
abbrev Ext := Fin 13 → V6

/-! ### Coordinate transforms -/

/-- Constructor of `MotionTransforms::fr_LF_hipassembly_X_fr_trunk` (HyQ/generated/transforms.impl.h:913-937); `z` is what the memory contained. -/
noncomputable def motion_fr_LF_hipassembly_X_fr_trunk_new (z : M6) : M6 :=
  !![0, z 0 1, z 0 2, 0, 0, 0;
     0, z 1 1, z 1 2, 0, 0, 0;
     -1.0, 0, 0, 0, 0, 0;
     z 3 0, z 3 1, z 3 2, 0, z 3 4, z 3 5;
     z 4 0, z 4 1, z 4 2, 0, z 4 4, z 4 5;
     0, 0, 0.207, -1.0, 0, 0]

/-- `MotionTransforms::fr_LF_hipassembly_X_fr_trunk::update` (HyQ/generated/transforms.impl.h:939-961). -/
noncomputable def motion_fr_LF_hipassembly_X_fr_trunk_update (z : M6) (q : Q) : M6 :=
  let sin__q_LF_HAA__ := Real.sin (q LF_HAA)
  let cos__q_LF_HAA__ := Real.cos (q LF_HAA)
  !![z 0 0, -sin__q_LF_HAA__, -cos__q_LF_HAA__, z 0 3, z 0 4, z 0 5;
     z 1 0, -cos__q_LF_HAA__, sin__q_LF_HAA__, z 1 3, z 1 4, z 1 5;
     z 2 0, z 2 1, z 2 2, z 2 3, z 2 4, z 2 5;
     (-0.207 * cos__q_LF_HAA__), (0.3735 * cos__q_LF_HAA__), (-0.3735 * sin__q_LF_HAA__), z 3 3, -sin__q_LF_HAA__, -cos__q_LF_HAA__;
     (0.207 * sin__q_LF_HAA__), (-0.3735 * sin__q_LF_HAA__), (-0.3735 * cos__q_LF_HAA__), z 4 3, -cos__q_LF_HAA__, sin__q_LF_HAA__;
     z 5 0, z 5 1, z 5 2, z 5 3, z 5 4, z 5 5]

/-- Constructor of `MotionTransforms::fr_LF_upperleg_X_fr_LF_hipassembly` (HyQ/generated/transforms.impl.h:3441-3469); `z` is what the memory contained. -/
noncomputable def motion_fr_LF_upperleg_X_fr_LF_hipassembly_new (z : M6) : M6 :=
  !![z 0 0, 0, z 0 2, 0, 0, 0;
     z 1 0, 0, z 1 2, 0, 0, 0;
     0, -1.0, 0, 0, 0, 0;
     0, z 3 1, 0, z 3 3, 0, z 3 5;
     0, z 4 1, 0, z 4 3, 0, z 4 5;
     0, 0, -0.08, 0, -1, 0]

/-- `MotionTransforms::fr_LF_upperleg_X_fr_LF_hipassembly::update` (HyQ/generated/transforms.impl.h:3471-3489). -/
noncomputable def motion_fr_LF_upperleg_X_fr_LF_hipassembly_update (z : M6) (q : Q) : M6 :=
  let sin__q_LF_HFE__ := Real.sin (q LF_HFE)
  let cos__q_LF_HFE__ := Real.cos (q LF_HFE)
  !![cos__q_LF_HFE__, z 0 1, sin__q_LF_HFE__, z 0 3, z 0 4, z 0 5;
     -sin__q_LF_HFE__, z 1 1, cos__q_LF_HFE__, z 1 3, z 1 4, z 1 5;
     z 2 0, z 2 1, z 2 2, z 2 3, z 2 4, z 2 5;
     z 3 0, (-0.08 * sin__q_LF_HFE__), z 3 2, cos__q_LF_HFE__, z 3 4, sin__q_LF_HFE__;
     z 4 0, (-0.08 * cos__q_LF_HFE__), z 4 2, -sin__q_LF_HFE__, z 4 4, cos__q_LF_HFE__;
     z 5 0, z 5 1, z 5 2, z 5 3, z 5 4, z 5 5]

/-- Constructor of `MotionTransforms::fr_LF_lowerleg_X_fr_LF_upperleg` (HyQ/generated/transforms.impl.h:3541-3569); `z` is what the memory contained. -/
noncomputable def motion_fr_LF_lowerleg_X_fr_LF_upperleg_new (z : M6) : M6 :=
  !![z 0 0, z 0 1, 0, 0, 0, 0;
     z 1 0, z 1 1, 0, 0, 0, 0;
     0, 0, 1.0, 0, 0, 0;
     0, 0, z 3 2, z 3 3, z 3 4, 0;
     0, 0, z 4 2, z 4 3, z 4 4, 0;
     0, -0.35, 0, 0, 0, 1]

/-- `MotionTransforms::fr_LF_lowerleg_X_fr_LF_upperleg::update` (HyQ/generated/transforms.impl.h:3571-3589). -/
noncomputable def motion_fr_LF_lowerleg_X_fr_LF_upperleg_update (z : M6) (q : Q) : M6 :=
  let sin__q_LF_KFE__ := Real.sin (q LF_KFE)
  let cos__q_LF_KFE__ := Real.cos (q LF_KFE)
  !![cos__q_LF_KFE__, sin__q_LF_KFE__, z 0 2, z 0 3, z 0 4, z 0 5;
     -sin__q_LF_KFE__, cos__q_LF_KFE__, z 1 2, z 1 3, z 1 4, z 1 5;
     z 2 0, z 2 1, z 2 2, z 2 3, z 2 4, z 2 5;
     z 3 0, z 3 1, (0.35 * sin__q_LF_KFE__), cos__q_LF_KFE__, sin__q_LF_KFE__, z 3 5;
     z 4 0, z 4 1, (0.35 * cos__q_LF_KFE__), -sin__q_LF_KFE__, cos__q_LF_KFE__, z 4 5;
     z 5 0, z 5 1, z 5 2, z 5 3, z 5 4, z 5 5]

/-- Constructor of `MotionTransforms::fr_RF_hipassembly_X_fr_trunk` (HyQ/generated/transforms.impl.h:963-987); `z` is what the memory contained. -/
noncomputable def motion_fr_RF_hipassembly_X_fr_trunk_new (z : M6) : M6 :=
  !![0, z 0 1, z 0 2, 0, 0, 0;
     0, z 1 1, z 1 2, 0, 0, 0;
     1.0, 0, 0, 0, 0, 0;
     z 3 0, z 3 1, z 3 2, 0, z 3 4, z 3 5;
     z 4 0, z 4 1, z 4 2, 0, z 4 4, z 4 5;
     0, 0, 0.207, 1.0, 0, 0]

/-- `MotionTransforms::fr_RF_hipassembly_X_fr_trunk::update` (HyQ/generated/transforms.impl.h:989-1011). -/
noncomputable def motion_fr_RF_hipassembly_X_fr_trunk_update (z : M6) (q : Q) : M6 :=
  let sin__q_RF_HAA__ := Real.sin (q RF_HAA)
  let cos__q_RF_HAA__ := Real.cos (q RF_HAA)
  !![z 0 0, sin__q_RF_HAA__, -cos__q_RF_HAA__, z 0 3, z 0 4, z 0 5;
     z 1 0, cos__q_RF_HAA__, sin__q_RF_HAA__, z 1 3, z 1 4, z 1 5;
     z 2 0, z 2 1, z 2 2, z 2 3, z 2 4, z 2 5;
     (0.207 * cos__q_RF_HAA__), (0.3735 * cos__q_RF_HAA__), (0.3735 * sin__q_RF_HAA__), z 3 3, sin__q_RF_HAA__, -cos__q_RF_HAA__;
     (-0.207 * sin__q_RF_HAA__), (-0.3735 * sin__q_RF_HAA__), (0.3735 * cos__q_RF_HAA__), z 4 3, cos__q_RF_HAA__, sin__q_RF_HAA__;
     z 5 0, z 5 1, z 5 2, z 5 3, z 5 4, z 5 5]

/-- Constructor of `MotionTransforms::fr_RF_upperleg_X_fr_RF_hipassembly` (HyQ/generated/transforms.impl.h:3641-3669); `z` is what the memory contained. -/
noncomputable def motion_fr_RF_upperleg_X_fr_RF_hipassembly_new (z : M6) : M6 :=
  !![z 0 0, 0, z 0 2, 0, 0, 0;
     z 1 0, 0, z 1 2, 0, 0, 0;
     0, 1.0, 0, 0, 0, 0;
     0, z 3 1, 0, z 3 3, 0, z 3 5;
     0, z 4 1, 0, z 4 3, 0, z 4 5;
     0, 0, 0.08, 0, 1, 0]

/-- `MotionTransforms::fr_RF_upperleg_X_fr_RF_hipassembly::update` (HyQ/generated/transforms.impl.h:3671-3689). -/
noncomputable def motion_fr_RF_upperleg_X_fr_RF_hipassembly_update (z : M6) (q : Q) : M6 :=
  let sin__q_RF_HFE__ := Real.sin (q RF_HFE)
  let cos__q_RF_HFE__ := Real.cos (q RF_HFE)
  !![cos__q_RF_HFE__, z 0 1, -sin__q_RF_HFE__, z 0 3, z 0 4, z 0 5;
     -sin__q_RF_HFE__, z 1 1, -cos__q_RF_HFE__, z 1 3, z 1 4, z 1 5;
     z 2 0, z 2 1, z 2 2, z 2 3, z 2 4, z 2 5;
     z 3 0, (0.08 * sin__q_RF_HFE__), z 3 2, cos__q_RF_HFE__, z 3 4, -sin__q_RF_HFE__;
     z 4 0, (0.08 * cos__q_RF_HFE__), z 4 2, -sin__q_RF_HFE__, z 4 4, -cos__q_RF_HFE__;
     z 5 0, z 5 1, z 5 2, z 5 3, z 5 4, z 5 5]

/-- Constructor of `MotionTransforms::fr_RF_lowerleg_X_fr_RF_upperleg` (HyQ/generated/transforms.impl.h:3741-3769); `z` is what the memory contained. -/
noncomputable def motion_fr_RF_lowerleg_X_fr_RF_upperleg_new (z : M6) : M6 :=
  !![z 0 0, z 0 1, 0, 0, 0, 0;
     z 1 0, z 1 1, 0, 0, 0, 0;
     0, 0, 1.0, 0, 0, 0;
     0, 0, z 3 2, z 3 3, z 3 4, 0;
     0, 0, z 4 2, z 4 3, z 4 4, 0;
     0, -0.35, 0, 0, 0, 1]

/-- `MotionTransforms::fr_RF_lowerleg_X_fr_RF_upperleg::update` (HyQ/generated/transforms.impl.h:3771-3789). -/
noncomputable def motion_fr_RF_lowerleg_X_fr_RF_upperleg_update (z : M6) (q : Q) : M6 :=
  let sin__q_RF_KFE__ := Real.sin (q RF_KFE)
  let cos__q_RF_KFE__ := Real.cos (q RF_KFE)
  !![cos__q_RF_KFE__, sin__q_RF_KFE__, z 0 2, z 0 3, z 0 4, z 0 5;
     -sin__q_RF_KFE__, cos__q_RF_KFE__, z 1 2, z 1 3, z 1 4, z 1 5;
     z 2 0, z 2 1, z 2 2, z 2 3, z 2 4, z 2 5;
     z 3 0, z 3 1, (0.35 * sin__q_RF_KFE__), cos__q_RF_KFE__, sin__q_RF_KFE__, z 3 5;
     z 4 0, z 4 1, (0.35 * cos__q_RF_KFE__), -sin__q_RF_KFE__, cos__q_RF_KFE__, z 4 5;
     z 5 0, z 5 1, z 5 2, z 5 3, z 5 4, z 5 5]

/-- Constructor of `MotionTransforms::fr_LH_hipassembly_X_fr_trunk` (HyQ/generated/transforms.impl.h:1013-1037); `z` is what the memory contained. -/
noncomputable def motion_fr_LH_hipassembly_X_fr_trunk_new (z : M6) : M6 :=
  !![0, z 0 1, z 0 2, 0, 0, 0;
     0, z 1 1, z 1 2, 0, 0, 0;
     -1.0, 0, 0, 0, 0, 0;
     z 3 0, z 3 1, z 3 2, 0, z 3 4, z 3 5;
     z 4 0, z 4 1, z 4 2, 0, z 4 4, z 4 5;
     0, 0, 0.207, -1.0, 0, 0]

/-- `MotionTransforms::fr_LH_hipassembly_X_fr_trunk::update` (HyQ/generated/transforms.impl.h:1039-1061). -/
noncomputable def motion_fr_LH_hipassembly_X_fr_trunk_update (z : M6) (q : Q) : M6 :=
  let sin__q_LH_HAA__ := Real.sin (q LH_HAA)
  let cos__q_LH_HAA__ := Real.cos (q LH_HAA)
  !![z 0 0, -sin__q_LH_HAA__, -cos__q_LH_HAA__, z 0 3, z 0 4, z 0 5;
     z 1 0, -cos__q_LH_HAA__, sin__q_LH_HAA__, z 1 3, z 1 4, z 1 5;
     z 2 0, z 2 1, z 2 2, z 2 3, z 2 4, z 2 5;
     (-0.207 * cos__q_LH_HAA__), (-0.3735 * cos__q_LH_HAA__), (0.3735 * sin__q_LH_HAA__), z 3 3, -sin__q_LH_HAA__, -cos__q_LH_HAA__;
     (0.207 * sin__q_LH_HAA__), (0.3735 * sin__q_LH_HAA__), (0.3735 * cos__q_LH_HAA__), z 4 3, -cos__q_LH_HAA__, sin__q_LH_HAA__;
     z 5 0, z 5 1, z 5 2, z 5 3, z 5 4, z 5 5]

/-- Constructor of `MotionTransforms::fr_LH_upperleg_X_fr_LH_hipassembly` (HyQ/generated/transforms.impl.h:3841-3869); `z` is what the memory contained. -/
noncomputable def motion_fr_LH_upperleg_X_fr_LH_hipassembly_new (z : M6) : M6 :=
  !![z 0 0, 0, z 0 2, 0, 0, 0;
     z 1 0, 0, z 1 2, 0, 0, 0;
     0, -1.0, 0, 0, 0, 0;
     0, z 3 1, 0, z 3 3, 0, z 3 5;
     0, z 4 1, 0, z 4 3, 0, z 4 5;
     0, 0, -0.08, 0, -1, 0]

/-- `MotionTransforms::fr_LH_upperleg_X_fr_LH_hipassembly::update` (HyQ/generated/transforms.impl.h:3871-3889). -/
noncomputable def motion_fr_LH_upperleg_X_fr_LH_hipassembly_update (z : M6) (q : Q) : M6 :=
  let sin__q_LH_HFE__ := Real.sin (q LH_HFE)
  let cos__q_LH_HFE__ := Real.cos (q LH_HFE)
  !![cos__q_LH_HFE__, z 0 1, sin__q_LH_HFE__, z 0 3, z 0 4, z 0 5;
     -sin__q_LH_HFE__, z 1 1, cos__q_LH_HFE__, z 1 3, z 1 4, z 1 5;
     z 2 0, z 2 1, z 2 2, z 2 3, z 2 4, z 2 5;
     z 3 0, (-0.08 * sin__q_LH_HFE__), z 3 2, cos__q_LH_HFE__, z 3 4, sin__q_LH_HFE__;
     z 4 0, (-0.08 * cos__q_LH_HFE__), z 4 2, -sin__q_LH_HFE__, z 4 4, cos__q_LH_HFE__;
     z 5 0, z 5 1, z 5 2, z 5 3, z 5 4, z 5 5]

/-- Constructor of `MotionTransforms::fr_LH_lowerleg_X_fr_LH_upperleg` (HyQ/generated/transforms.impl.h:3941-3969); `z` is what the memory contained. -/
noncomputable def motion_fr_LH_lowerleg_X_fr_LH_upperleg_new (z : M6) : M6 :=
  !![z 0 0, z 0 1, 0, 0, 0, 0;
     z 1 0, z 1 1, 0, 0, 0, 0;
     0, 0, 1.0, 0, 0, 0;
     0, 0, z 3 2, z 3 3, z 3 4, 0;
     0, 0, z 4 2, z 4 3, z 4 4, 0;
     0, -0.35, 0, 0, 0, 1]

/-- `MotionTransforms::fr_LH_lowerleg_X_fr_LH_upperleg::update` (HyQ/generated/transforms.impl.h:3971-3989). -/
noncomputable def motion_fr_LH_lowerleg_X_fr_LH_upperleg_update (z : M6) (q : Q) : M6 :=
  let sin__q_LH_KFE__ := Real.sin (q LH_KFE)
  let cos__q_LH_KFE__ := Real.cos (q LH_KFE)
  !![cos__q_LH_KFE__, sin__q_LH_KFE__, z 0 2, z 0 3, z 0 4, z 0 5;
     -sin__q_LH_KFE__, cos__q_LH_KFE__, z 1 2, z 1 3, z 1 4, z 1 5;
     z 2 0, z 2 1, z 2 2, z 2 3, z 2 4, z 2 5;
     z 3 0, z 3 1, (0.35 * sin__q_LH_KFE__), cos__q_LH_KFE__, sin__q_LH_KFE__, z 3 5;
     z 4 0, z 4 1, (0.35 * cos__q_LH_KFE__), -sin__q_LH_KFE__, cos__q_LH_KFE__, z 4 5;
     z 5 0, z 5 1, z 5 2, z 5 3, z 5 4, z 5 5]

/-- Constructor of `MotionTransforms::fr_RH_hipassembly_X_fr_trunk` (HyQ/generated/transforms.impl.h:1063-1087); `z` is what the memory contained. -/
noncomputable def motion_fr_RH_hipassembly_X_fr_trunk_new (z : M6) : M6 :=
  !![0, z 0 1, z 0 2, 0, 0, 0;
     0, z 1 1, z 1 2, 0, 0, 0;
     1.0, 0, 0, 0, 0, 0;
     z 3 0, z 3 1, z 3 2, 0, z 3 4, z 3 5;
     z 4 0, z 4 1, z 4 2, 0, z 4 4, z 4 5;
     0, 0, 0.207, 1.0, 0, 0]

/-- `MotionTransforms::fr_RH_hipassembly_X_fr_trunk::update` (HyQ/generated/transforms.impl.h:1089-1111). -/
noncomputable def motion_fr_RH_hipassembly_X_fr_trunk_update (z : M6) (q : Q) : M6 :=
  let sin__q_RH_HAA__ := Real.sin (q RH_HAA)
  let cos__q_RH_HAA__ := Real.cos (q RH_HAA)
  !![z 0 0, sin__q_RH_HAA__, -cos__q_RH_HAA__, z 0 3, z 0 4, z 0 5;
     z 1 0, cos__q_RH_HAA__, sin__q_RH_HAA__, z 1 3, z 1 4, z 1 5;
     z 2 0, z 2 1, z 2 2, z 2 3, z 2 4, z 2 5;
     (0.207 * cos__q_RH_HAA__), (-0.3735 * cos__q_RH_HAA__), (-0.3735 * sin__q_RH_HAA__), z 3 3, sin__q_RH_HAA__, -cos__q_RH_HAA__;
     (-0.207 * sin__q_RH_HAA__), (0.3735 * sin__q_RH_HAA__), (-0.3735 * cos__q_RH_HAA__), z 4 3, cos__q_RH_HAA__, sin__q_RH_HAA__;
     z 5 0, z 5 1, z 5 2, z 5 3, z 5 4, z 5 5]

/-- Constructor of `MotionTransforms::fr_RH_upperleg_X_fr_RH_hipassembly` (HyQ/generated/transforms.impl.h:4041-4069); `z` is what the memory contained. -/
noncomputable def motion_fr_RH_upperleg_X_fr_RH_hipassembly_new (z : M6) : M6 :=
  !![z 0 0, 0, z 0 2, 0, 0, 0;
     z 1 0, 0, z 1 2, 0, 0, 0;
     0, 1.0, 0, 0, 0, 0;
     0, z 3 1, 0, z 3 3, 0, z 3 5;
     0, z 4 1, 0, z 4 3, 0, z 4 5;
     0, 0, 0.08, 0, 1, 0]

/-- `MotionTransforms::fr_RH_upperleg_X_fr_RH_hipassembly::update` (HyQ/generated/transforms.impl.h:4071-4089). -/
noncomputable def motion_fr_RH_upperleg_X_fr_RH_hipassembly_update (z : M6) (q : Q) : M6 :=
  let sin__q_RH_HFE__ := Real.sin (q RH_HFE)
  let cos__q_RH_HFE__ := Real.cos (q RH_HFE)
  !![cos__q_RH_HFE__, z 0 1, -sin__q_RH_HFE__, z 0 3, z 0 4, z 0 5;
     -sin__q_RH_HFE__, z 1 1, -cos__q_RH_HFE__, z 1 3, z 1 4, z 1 5;
     z 2 0, z 2 1, z 2 2, z 2 3, z 2 4, z 2 5;
     z 3 0, (0.08 * sin__q_RH_HFE__), z 3 2, cos__q_RH_HFE__, z 3 4, -sin__q_RH_HFE__;
     z 4 0, (0.08 * cos__q_RH_HFE__), z 4 2, -sin__q_RH_HFE__, z 4 4, -cos__q_RH_HFE__;
     z 5 0, z 5 1, z 5 2, z 5 3, z 5 4, z 5 5]

/-- Constructor of `MotionTransforms::fr_RH_lowerleg_X_fr_RH_upperleg` (HyQ/generated/transforms.impl.h:4141-4169); `z` is what the memory contained. -/
noncomputable def motion_fr_RH_lowerleg_X_fr_RH_upperleg_new (z : M6) : M6 :=
  !![z 0 0, z 0 1, 0, 0, 0, 0;
     z 1 0, z 1 1, 0, 0, 0, 0;
     0, 0, 1.0, 0, 0, 0;
     0, 0, z 3 2, z 3 3, z 3 4, 0;
     0, 0, z 4 2, z 4 3, z 4 4, 0;
     0, -0.35, 0, 0, 0, 1]

/-- `MotionTransforms::fr_RH_lowerleg_X_fr_RH_upperleg::update` (HyQ/generated/transforms.impl.h:4171-4189). -/
noncomputable def motion_fr_RH_lowerleg_X_fr_RH_upperleg_update (z : M6) (q : Q) : M6 :=
  let sin__q_RH_KFE__ := Real.sin (q RH_KFE)
  let cos__q_RH_KFE__ := Real.cos (q RH_KFE)
  !![cos__q_RH_KFE__, sin__q_RH_KFE__, z 0 2, z 0 3, z 0 4, z 0 5;
     -sin__q_RH_KFE__, cos__q_RH_KFE__, z 1 2, z 1 3, z 1 4, z 1 5;
     z 2 0, z 2 1, z 2 2, z 2 3, z 2 4, z 2 5;
     z 3 0, z 3 1, (0.35 * sin__q_RH_KFE__), cos__q_RH_KFE__, sin__q_RH_KFE__, z 3 5;
     z 4 0, z 4 1, (0.35 * cos__q_RH_KFE__), -sin__q_RH_KFE__, cos__q_RH_KFE__, z 4 5;
     z 5 0, z 5 1, z 5 2, z 5 3, z 5 4, z 5 5]

/-- Constructor of `ForceTransforms::fr_RH_upperleg_X_fr_RH_lowerleg` (HyQ/generated/transforms.impl.h:8168-8196); `z` is what the memory contained. -/
noncomputable def force_fr_RH_upperleg_X_fr_RH_lowerleg_new (z : M6) : M6 :=
  !![z 0 0, z 0 1, 0, 0, 0, 0;
     z 1 0, z 1 1, 0, 0, 0, -0.35;
     0, 0, 1.0, z 2 3, z 2 4, 0;
     0, 0, 0, z 3 3, z 3 4, 0;
     0, 0, 0, z 4 3, z 4 4, 0;
     0, 0, 0, 0, 0, 1]

/-- `ForceTransforms::fr_RH_upperleg_X_fr_RH_lowerleg::update` (HyQ/generated/transforms.impl.h:8198-8216). -/
noncomputable def force_fr_RH_upperleg_X_fr_RH_lowerleg_update (z : M6) (q : Q) : M6 :=
  let sin__q_RH_KFE__ := Real.sin (q RH_KFE)
  let cos__q_RH_KFE__ := Real.cos (q RH_KFE)
  !![cos__q_RH_KFE__, -sin__q_RH_KFE__, z 0 2, z 0 3, z 0 4, z 0 5;
     sin__q_RH_KFE__, cos__q_RH_KFE__, z 1 2, z 1 3, z 1 4, z 1 5;
     z 2 0, z 2 1, z 2 2, (0.35 * sin__q_RH_KFE__), (0.35 * cos__q_RH_KFE__), z 2 5;
     z 3 0, z 3 1, z 3 2, cos__q_RH_KFE__, -sin__q_RH_KFE__, z 3 5;
     z 4 0, z 4 1, z 4 2, sin__q_RH_KFE__, cos__q_RH_KFE__, z 4 5;
     z 5 0, z 5 1, z 5 2, z 5 3, z 5 4, z 5 5]

/-- Constructor of `ForceTransforms::fr_RH_hipassembly_X_fr_RH_upperleg` (HyQ/generated/transforms.impl.h:8068-8096); `z` is what the memory contained. -/
noncomputable def force_fr_RH_hipassembly_X_fr_RH_upperleg_new (z : M6) : M6 :=
  !![z 0 0, z 0 1, 0, 0, 0, 0;
     0, 0, 1.0, z 1 3, z 1 4, 0;
     z 2 0, z 2 1, 0, 0, 0, 0.08;
     0, 0, 0, z 3 3, z 3 4, 0;
     0, 0, 0, 0, 0, 1;
     0, 0, 0, z 5 3, z 5 4, 0]

/-- `ForceTransforms::fr_RH_hipassembly_X_fr_RH_upperleg::update` (HyQ/generated/transforms.impl.h:8098-8116). -/
noncomputable def force_fr_RH_hipassembly_X_fr_RH_upperleg_update (z : M6) (q : Q) : M6 :=
  let sin__q_RH_HFE__ := Real.sin (q RH_HFE)
  let cos__q_RH_HFE__ := Real.cos (q RH_HFE)
  !![cos__q_RH_HFE__, -sin__q_RH_HFE__, z 0 2, z 0 3, z 0 4, z 0 5;
     z 1 0, z 1 1, z 1 2, (0.08 * sin__q_RH_HFE__), (0.08 * cos__q_RH_HFE__), z 1 5;
     -sin__q_RH_HFE__, -cos__q_RH_HFE__, z 2 2, z 2 3, z 2 4, z 2 5;
     z 3 0, z 3 1, z 3 2, cos__q_RH_HFE__, -sin__q_RH_HFE__, z 3 5;
     z 4 0, z 4 1, z 4 2, z 4 3, z 4 4, z 4 5;
     z 5 0, z 5 1, z 5 2, -sin__q_RH_HFE__, -cos__q_RH_HFE__, z 5 5]

/-- Constructor of `ForceTransforms::fr_trunk_X_fr_RH_hipassembly` (HyQ/generated/transforms.impl.h:4392-4416); `z` is what the memory contained. -/
noncomputable def force_fr_trunk_X_fr_RH_hipassembly_new (z : M6) : M6 :=
  !![0, 0, 1.0, z 0 3, z 0 4, 0;
     z 1 0, z 1 1, 0, z 1 3, z 1 4, 0;
     z 2 0, z 2 1, 0, z 2 3, z 2 4, 0.207;
     0, 0, 0, 0, 0, 1.0;
     0, 0, 0, z 4 3, z 4 4, 0;
     0, 0, 0, z 5 3, z 5 4, 0]

/-- `ForceTransforms::fr_trunk_X_fr_RH_hipassembly::update` (HyQ/generated/transforms.impl.h:4418-4440). -/
noncomputable def force_fr_trunk_X_fr_RH_hipassembly_update (z : M6) (q : Q) : M6 :=
  let sin__q_RH_HAA__ := Real.sin (q RH_HAA)
  let cos__q_RH_HAA__ := Real.cos (q RH_HAA)
  !![z 0 0, z 0 1, z 0 2, (0.207 * cos__q_RH_HAA__), (-0.207 * sin__q_RH_HAA__), z 0 5;
     sin__q_RH_HAA__, cos__q_RH_HAA__, z 1 2, (-0.3735 * cos__q_RH_HAA__), (0.3735 * sin__q_RH_HAA__), z 1 5;
     -cos__q_RH_HAA__, sin__q_RH_HAA__, z 2 2, (-0.3735 * sin__q_RH_HAA__), (-0.3735 * cos__q_RH_HAA__), z 2 5;
     z 3 0, z 3 1, z 3 2, z 3 3, z 3 4, z 3 5;
     z 4 0, z 4 1, z 4 2, sin__q_RH_HAA__, cos__q_RH_HAA__, z 4 5;
     z 5 0, z 5 1, z 5 2, -cos__q_RH_HAA__, sin__q_RH_HAA__, z 5 5]

/-- Constructor of `ForceTransforms::fr_LH_upperleg_X_fr_LH_lowerleg` (HyQ/generated/transforms.impl.h:7968-7996); `z` is what the memory contained. -/
noncomputable def force_fr_LH_upperleg_X_fr_LH_lowerleg_new (z : M6) : M6 :=
  !![z 0 0, z 0 1, 0, 0, 0, 0;
     z 1 0, z 1 1, 0, 0, 0, -0.35;
     0, 0, 1.0, z 2 3, z 2 4, 0;
     0, 0, 0, z 3 3, z 3 4, 0;
     0, 0, 0, z 4 3, z 4 4, 0;
     0, 0, 0, 0, 0, 1]

/-- `ForceTransforms::fr_LH_upperleg_X_fr_LH_lowerleg::update` (HyQ/generated/transforms.impl.h:7998-8016). -/
noncomputable def force_fr_LH_upperleg_X_fr_LH_lowerleg_update (z : M6) (q : Q) : M6 :=
  let sin__q_LH_KFE__ := Real.sin (q LH_KFE)
  let cos__q_LH_KFE__ := Real.cos (q LH_KFE)
  !![cos__q_LH_KFE__, -sin__q_LH_KFE__, z 0 2, z 0 3, z 0 4, z 0 5;
     sin__q_LH_KFE__, cos__q_LH_KFE__, z 1 2, z 1 3, z 1 4, z 1 5;
     z 2 0, z 2 1, z 2 2, (0.35 * sin__q_LH_KFE__), (0.35 * cos__q_LH_KFE__), z 2 5;
     z 3 0, z 3 1, z 3 2, cos__q_LH_KFE__, -sin__q_LH_KFE__, z 3 5;
     z 4 0, z 4 1, z 4 2, sin__q_LH_KFE__, cos__q_LH_KFE__, z 4 5;
     z 5 0, z 5 1, z 5 2, z 5 3, z 5 4, z 5 5]

/-- Constructor of `ForceTransforms::fr_LH_hipassembly_X_fr_LH_upperleg` (HyQ/generated/transforms.impl.h:7868-7896); `z` is what the memory contained. -/
noncomputable def force_fr_LH_hipassembly_X_fr_LH_upperleg_new (z : M6) : M6 :=
  !![z 0 0, z 0 1, 0, 0, 0, 0;
     0, 0, -1.0, z 1 3, z 1 4, 0;
     z 2 0, z 2 1, 0, 0, 0, -0.08;
     0, 0, 0, z 3 3, z 3 4, 0;
     0, 0, 0, 0, 0, -1;
     0, 0, 0, z 5 3, z 5 4, 0]

/-- `ForceTransforms::fr_LH_hipassembly_X_fr_LH_upperleg::update` (HyQ/generated/transforms.impl.h:7898-7916). -/
noncomputable def force_fr_LH_hipassembly_X_fr_LH_upperleg_update (z : M6) (q : Q) : M6 :=
  let sin__q_LH_HFE__ := Real.sin (q LH_HFE)
  let cos__q_LH_HFE__ := Real.cos (q LH_HFE)
  !![cos__q_LH_HFE__, -sin__q_LH_HFE__, z 0 2, z 0 3, z 0 4, z 0 5;
     z 1 0, z 1 1, z 1 2, (-0.08 * sin__q_LH_HFE__), (-0.08 * cos__q_LH_HFE__), z 1 5;
     sin__q_LH_HFE__, cos__q_LH_HFE__, z 2 2, z 2 3, z 2 4, z 2 5;
     z 3 0, z 3 1, z 3 2, cos__q_LH_HFE__, -sin__q_LH_HFE__, z 3 5;
     z 4 0, z 4 1, z 4 2, z 4 3, z 4 4, z 4 5;
     z 5 0, z 5 1, z 5 2, sin__q_LH_HFE__, cos__q_LH_HFE__, z 5 5]

/-- Constructor of `ForceTransforms::fr_trunk_X_fr_LH_hipassembly` (HyQ/generated/transforms.impl.h:4342-4366); `z` is what the memory contained. -/
noncomputable def force_fr_trunk_X_fr_LH_hipassembly_new (z : M6) : M6 :=
  !![0, 0, -1.0, z 0 3, z 0 4, 0;
     z 1 0, z 1 1, 0, z 1 3, z 1 4, 0;
     z 2 0, z 2 1, 0, z 2 3, z 2 4, 0.207;
     0, 0, 0, 0, 0, -1.0;
     0, 0, 0, z 4 3, z 4 4, 0;
     0, 0, 0, z 5 3, z 5 4, 0]

/-- `ForceTransforms::fr_trunk_X_fr_LH_hipassembly::update` (HyQ/generated/transforms.impl.h:4368-4390). -/
noncomputable def force_fr_trunk_X_fr_LH_hipassembly_update (z : M6) (q : Q) : M6 :=
  let sin__q_LH_HAA__ := Real.sin (q LH_HAA)
  let cos__q_LH_HAA__ := Real.cos (q LH_HAA)
  !![z 0 0, z 0 1, z 0 2, (-0.207 * cos__q_LH_HAA__), (0.207 * sin__q_LH_HAA__), z 0 5;
     -sin__q_LH_HAA__, -cos__q_LH_HAA__, z 1 2, (-0.3735 * cos__q_LH_HAA__), (0.3735 * sin__q_LH_HAA__), z 1 5;
     -cos__q_LH_HAA__, sin__q_LH_HAA__, z 2 2, (0.3735 * sin__q_LH_HAA__), (0.3735 * cos__q_LH_HAA__), z 2 5;
     z 3 0, z 3 1, z 3 2, z 3 3, z 3 4, z 3 5;
     z 4 0, z 4 1, z 4 2, -sin__q_LH_HAA__, -cos__q_LH_HAA__, z 4 5;
     z 5 0, z 5 1, z 5 2, -cos__q_LH_HAA__, sin__q_LH_HAA__, z 5 5]

/-- Constructor of `ForceTransforms::fr_RF_upperleg_X_fr_RF_lowerleg` (HyQ/generated/transforms.impl.h:7768-7796); `z` is what the memory contained. -/
noncomputable def force_fr_RF_upperleg_X_fr_RF_lowerleg_new (z : M6) : M6 :=
  !![z 0 0, z 0 1, 0, 0, 0, 0;
     z 1 0, z 1 1, 0, 0, 0, -0.35;
     0, 0, 1.0, z 2 3, z 2 4, 0;
     0, 0, 0, z 3 3, z 3 4, 0;
     0, 0, 0, z 4 3, z 4 4, 0;
     0, 0, 0, 0, 0, 1]

/-- `ForceTransforms::fr_RF_upperleg_X_fr_RF_lowerleg::update` (HyQ/generated/transforms.impl.h:7798-7816). -/
noncomputable def force_fr_RF_upperleg_X_fr_RF_lowerleg_update (z : M6) (q : Q) : M6 :=
  let sin__q_RF_KFE__ := Real.sin (q RF_KFE)
  let cos__q_RF_KFE__ := Real.cos (q RF_KFE)
  !![cos__q_RF_KFE__, -sin__q_RF_KFE__, z 0 2, z 0 3, z 0 4, z 0 5;
     sin__q_RF_KFE__, cos__q_RF_KFE__, z 1 2, z 1 3, z 1 4, z 1 5;
     z 2 0, z 2 1, z 2 2, (0.35 * sin__q_RF_KFE__), (0.35 * cos__q_RF_KFE__), z 2 5;
     z 3 0, z 3 1, z 3 2, cos__q_RF_KFE__, -sin__q_RF_KFE__, z 3 5;
     z 4 0, z 4 1, z 4 2, sin__q_RF_KFE__, cos__q_RF_KFE__, z 4 5;
     z 5 0, z 5 1, z 5 2, z 5 3, z 5 4, z 5 5]

/-- Constructor of `ForceTransforms::fr_RF_hipassembly_X_fr_RF_upperleg` (HyQ/generated/transforms.impl.h:7668-7696); `z` is what the memory contained. -/
noncomputable def force_fr_RF_hipassembly_X_fr_RF_upperleg_new (z : M6) : M6 :=
  !![z 0 0, z 0 1, 0, 0, 0, 0;
     0, 0, 1.0, z 1 3, z 1 4, 0;
     z 2 0, z 2 1, 0, 0, 0, 0.08;
     0, 0, 0, z 3 3, z 3 4, 0;
     0, 0, 0, 0, 0, 1;
     0, 0, 0, z 5 3, z 5 4, 0]

/-- `ForceTransforms::fr_RF_hipassembly_X_fr_RF_upperleg::update` (HyQ/generated/transforms.impl.h:7698-7716). -/
noncomputable def force_fr_RF_hipassembly_X_fr_RF_upperleg_update (z : M6) (q : Q) : M6 :=
  let sin__q_RF_HFE__ := Real.sin (q RF_HFE)
  let cos__q_RF_HFE__ := Real.cos (q RF_HFE)
  !![cos__q_RF_HFE__, -sin__q_RF_HFE__, z 0 2, z 0 3, z 0 4, z 0 5;
     z 1 0, z 1 1, z 1 2, (0.08 * sin__q_RF_HFE__), (0.08 * cos__q_RF_HFE__), z 1 5;
     -sin__q_RF_HFE__, -cos__q_RF_HFE__, z 2 2, z 2 3, z 2 4, z 2 5;
     z 3 0, z 3 1, z 3 2, cos__q_RF_HFE__, -sin__q_RF_HFE__, z 3 5;
     z 4 0, z 4 1, z 4 2, z 4 3, z 4 4, z 4 5;
     z 5 0, z 5 1, z 5 2, -sin__q_RF_HFE__, -cos__q_RF_HFE__, z 5 5]

/-- Constructor of `ForceTransforms::fr_trunk_X_fr_RF_hipassembly` (HyQ/generated/transforms.impl.h:4292-4316); `z` is what the memory contained. -/
noncomputable def force_fr_trunk_X_fr_RF_hipassembly_new (z : M6) : M6 :=
  !![0, 0, 1.0, z 0 3, z 0 4, 0;
     z 1 0, z 1 1, 0, z 1 3, z 1 4, 0;
     z 2 0, z 2 1, 0, z 2 3, z 2 4, 0.207;
     0, 0, 0, 0, 0, 1.0;
     0, 0, 0, z 4 3, z 4 4, 0;
     0, 0, 0, z 5 3, z 5 4, 0]

/-- `ForceTransforms::fr_trunk_X_fr_RF_hipassembly::update` (HyQ/generated/transforms.impl.h:4318-4340). -/
noncomputable def force_fr_trunk_X_fr_RF_hipassembly_update (z : M6) (q : Q) : M6 :=
  let sin__q_RF_HAA__ := Real.sin (q RF_HAA)
  let cos__q_RF_HAA__ := Real.cos (q RF_HAA)
  !![z 0 0, z 0 1, z 0 2, (0.207 * cos__q_RF_HAA__), (-0.207 * sin__q_RF_HAA__), z 0 5;
     sin__q_RF_HAA__, cos__q_RF_HAA__, z 1 2, (0.3735 * cos__q_RF_HAA__), (-0.3735 * sin__q_RF_HAA__), z 1 5;
     -cos__q_RF_HAA__, sin__q_RF_HAA__, z 2 2, (0.3735 * sin__q_RF_HAA__), (0.3735 * cos__q_RF_HAA__), z 2 5;
     z 3 0, z 3 1, z 3 2, z 3 3, z 3 4, z 3 5;
     z 4 0, z 4 1, z 4 2, sin__q_RF_HAA__, cos__q_RF_HAA__, z 4 5;
     z 5 0, z 5 1, z 5 2, -cos__q_RF_HAA__, sin__q_RF_HAA__, z 5 5]

/-- Constructor of `ForceTransforms::fr_LF_upperleg_X_fr_LF_lowerleg` (HyQ/generated/transforms.impl.h:7568-7596); `z` is what the memory contained. -/
noncomputable def force_fr_LF_upperleg_X_fr_LF_lowerleg_new (z : M6) : M6 :=
  !![z 0 0, z 0 1, 0, 0, 0, 0;
     z 1 0, z 1 1, 0, 0, 0, -0.35;
     0, 0, 1.0, z 2 3, z 2 4, 0;
     0, 0, 0, z 3 3, z 3 4, 0;
     0, 0, 0, z 4 3, z 4 4, 0;
     0, 0, 0, 0, 0, 1]

/-- `ForceTransforms::fr_LF_upperleg_X_fr_LF_lowerleg::update` (HyQ/generated/transforms.impl.h:7598-7616). -/
noncomputable def force_fr_LF_upperleg_X_fr_LF_lowerleg_update (z : M6) (q : Q) : M6 :=
  let sin__q_LF_KFE__ := Real.sin (q LF_KFE)
  let cos__q_LF_KFE__ := Real.cos (q LF_KFE)
  !![cos__q_LF_KFE__, -sin__q_LF_KFE__, z 0 2, z 0 3, z 0 4, z 0 5;
     sin__q_LF_KFE__, cos__q_LF_KFE__, z 1 2, z 1 3, z 1 4, z 1 5;
     z 2 0, z 2 1, z 2 2, (0.35 * sin__q_LF_KFE__), (0.35 * cos__q_LF_KFE__), z 2 5;
     z 3 0, z 3 1, z 3 2, cos__q_LF_KFE__, -sin__q_LF_KFE__, z 3 5;
     z 4 0, z 4 1, z 4 2, sin__q_LF_KFE__, cos__q_LF_KFE__, z 4 5;
     z 5 0, z 5 1, z 5 2, z 5 3, z 5 4, z 5 5]

/-- Constructor of `ForceTransforms::fr_LF_hipassembly_X_fr_LF_upperleg` (HyQ/generated/transforms.impl.h:7468-7496); `z` is what the memory contained. -/
noncomputable def force_fr_LF_hipassembly_X_fr_LF_upperleg_new (z : M6) : M6 :=
  !![z 0 0, z 0 1, 0, 0, 0, 0;
     0, 0, -1.0, z 1 3, z 1 4, 0;
     z 2 0, z 2 1, 0, 0, 0, -0.08;
     0, 0, 0, z 3 3, z 3 4, 0;
     0, 0, 0, 0, 0, -1;
     0, 0, 0, z 5 3, z 5 4, 0]

/-- `ForceTransforms::fr_LF_hipassembly_X_fr_LF_upperleg::update` (HyQ/generated/transforms.impl.h:7498-7516). -/
noncomputable def force_fr_LF_hipassembly_X_fr_LF_upperleg_update (z : M6) (q : Q) : M6 :=
  let sin__q_LF_HFE__ := Real.sin (q LF_HFE)
  let cos__q_LF_HFE__ := Real.cos (q LF_HFE)
  !![cos__q_LF_HFE__, -sin__q_LF_HFE__, z 0 2, z 0 3, z 0 4, z 0 5;
     z 1 0, z 1 1, z 1 2, (-0.08 * sin__q_LF_HFE__), (-0.08 * cos__q_LF_HFE__), z 1 5;
     sin__q_LF_HFE__, cos__q_LF_HFE__, z 2 2, z 2 3, z 2 4, z 2 5;
     z 3 0, z 3 1, z 3 2, cos__q_LF_HFE__, -sin__q_LF_HFE__, z 3 5;
     z 4 0, z 4 1, z 4 2, z 4 3, z 4 4, z 4 5;
     z 5 0, z 5 1, z 5 2, sin__q_LF_HFE__, cos__q_LF_HFE__, z 5 5]

/-- Constructor of `ForceTransforms::fr_trunk_X_fr_LF_hipassembly` (HyQ/generated/transforms.impl.h:4242-4266); `z` is what the memory contained. -/
noncomputable def force_fr_trunk_X_fr_LF_hipassembly_new (z : M6) : M6 :=
  !![0, 0, -1.0, z 0 3, z 0 4, 0;
     z 1 0, z 1 1, 0, z 1 3, z 1 4, 0;
     z 2 0, z 2 1, 0, z 2 3, z 2 4, 0.207;
     0, 0, 0, 0, 0, -1.0;
     0, 0, 0, z 4 3, z 4 4, 0;
     0, 0, 0, z 5 3, z 5 4, 0]

/-- `ForceTransforms::fr_trunk_X_fr_LF_hipassembly::update` (HyQ/generated/transforms.impl.h:4268-4290). -/
noncomputable def force_fr_trunk_X_fr_LF_hipassembly_update (z : M6) (q : Q) : M6 :=
  let sin__q_LF_HAA__ := Real.sin (q LF_HAA)
  let cos__q_LF_HAA__ := Real.cos (q LF_HAA)
  !![z 0 0, z 0 1, z 0 2, (-0.207 * cos__q_LF_HAA__), (0.207 * sin__q_LF_HAA__), z 0 5;
     -sin__q_LF_HAA__, -cos__q_LF_HAA__, z 1 2, (0.3735 * cos__q_LF_HAA__), (-0.3735 * sin__q_LF_HAA__), z 1 5;
     -cos__q_LF_HAA__, sin__q_LF_HAA__, z 2 2, (-0.3735 * sin__q_LF_HAA__), (-0.3735 * cos__q_LF_HAA__), z 2 5;
     z 3 0, z 3 1, z 3 2, z 3 3, z 3 4, z 3 5;
     z 4 0, z 4 1, z 4 2, -sin__q_LF_HAA__, -cos__q_LF_HAA__, z 4 5;
     z 5 0, z 5 1, z 5 2, -cos__q_LF_HAA__, sin__q_LF_HAA__, z 5 5]

/-- The motion transforms that the dynamics use. -/
structure MT where
  fr_LF_hipassembly_X_fr_trunk : M6
  fr_LF_upperleg_X_fr_LF_hipassembly : M6
  fr_LF_lowerleg_X_fr_LF_upperleg : M6
  fr_RF_hipassembly_X_fr_trunk : M6
  fr_RF_upperleg_X_fr_RF_hipassembly : M6
  fr_RF_lowerleg_X_fr_RF_upperleg : M6
  fr_LH_hipassembly_X_fr_trunk : M6
  fr_LH_upperleg_X_fr_LH_hipassembly : M6
  fr_LH_lowerleg_X_fr_LH_upperleg : M6
  fr_RH_hipassembly_X_fr_trunk : M6
  fr_RH_upperleg_X_fr_RH_hipassembly : M6
  fr_RH_lowerleg_X_fr_RH_upperleg : M6

/-- Construction; `z` is what the memory contained. -/
noncomputable def MT.new (z : MT) : MT where
  fr_LF_hipassembly_X_fr_trunk := motion_fr_LF_hipassembly_X_fr_trunk_new z.fr_LF_hipassembly_X_fr_trunk
  fr_LF_upperleg_X_fr_LF_hipassembly := motion_fr_LF_upperleg_X_fr_LF_hipassembly_new z.fr_LF_upperleg_X_fr_LF_hipassembly
  fr_LF_lowerleg_X_fr_LF_upperleg := motion_fr_LF_lowerleg_X_fr_LF_upperleg_new z.fr_LF_lowerleg_X_fr_LF_upperleg
  fr_RF_hipassembly_X_fr_trunk := motion_fr_RF_hipassembly_X_fr_trunk_new z.fr_RF_hipassembly_X_fr_trunk
  fr_RF_upperleg_X_fr_RF_hipassembly := motion_fr_RF_upperleg_X_fr_RF_hipassembly_new z.fr_RF_upperleg_X_fr_RF_hipassembly
  fr_RF_lowerleg_X_fr_RF_upperleg := motion_fr_RF_lowerleg_X_fr_RF_upperleg_new z.fr_RF_lowerleg_X_fr_RF_upperleg
  fr_LH_hipassembly_X_fr_trunk := motion_fr_LH_hipassembly_X_fr_trunk_new z.fr_LH_hipassembly_X_fr_trunk
  fr_LH_upperleg_X_fr_LH_hipassembly := motion_fr_LH_upperleg_X_fr_LH_hipassembly_new z.fr_LH_upperleg_X_fr_LH_hipassembly
  fr_LH_lowerleg_X_fr_LH_upperleg := motion_fr_LH_lowerleg_X_fr_LH_upperleg_new z.fr_LH_lowerleg_X_fr_LH_upperleg
  fr_RH_hipassembly_X_fr_trunk := motion_fr_RH_hipassembly_X_fr_trunk_new z.fr_RH_hipassembly_X_fr_trunk
  fr_RH_upperleg_X_fr_RH_hipassembly := motion_fr_RH_upperleg_X_fr_RH_hipassembly_new z.fr_RH_upperleg_X_fr_RH_hipassembly
  fr_RH_lowerleg_X_fr_RH_upperleg := motion_fr_RH_lowerleg_X_fr_RH_upperleg_new z.fr_RH_lowerleg_X_fr_RH_upperleg

/-- `setJointStatus` (HyQ/generated/forward_dynamics.h:228-241; the one of `InverseDynamics` is the same). -/
noncomputable def MT.setJointStatus (m : MT) (q : Q) : MT where
  fr_LF_hipassembly_X_fr_trunk := motion_fr_LF_hipassembly_X_fr_trunk_update m.fr_LF_hipassembly_X_fr_trunk q
  fr_LF_upperleg_X_fr_LF_hipassembly := motion_fr_LF_upperleg_X_fr_LF_hipassembly_update m.fr_LF_upperleg_X_fr_LF_hipassembly q
  fr_LF_lowerleg_X_fr_LF_upperleg := motion_fr_LF_lowerleg_X_fr_LF_upperleg_update m.fr_LF_lowerleg_X_fr_LF_upperleg q
  fr_RF_hipassembly_X_fr_trunk := motion_fr_RF_hipassembly_X_fr_trunk_update m.fr_RF_hipassembly_X_fr_trunk q
  fr_RF_upperleg_X_fr_RF_hipassembly := motion_fr_RF_upperleg_X_fr_RF_hipassembly_update m.fr_RF_upperleg_X_fr_RF_hipassembly q
  fr_RF_lowerleg_X_fr_RF_upperleg := motion_fr_RF_lowerleg_X_fr_RF_upperleg_update m.fr_RF_lowerleg_X_fr_RF_upperleg q
  fr_LH_hipassembly_X_fr_trunk := motion_fr_LH_hipassembly_X_fr_trunk_update m.fr_LH_hipassembly_X_fr_trunk q
  fr_LH_upperleg_X_fr_LH_hipassembly := motion_fr_LH_upperleg_X_fr_LH_hipassembly_update m.fr_LH_upperleg_X_fr_LH_hipassembly q
  fr_LH_lowerleg_X_fr_LH_upperleg := motion_fr_LH_lowerleg_X_fr_LH_upperleg_update m.fr_LH_lowerleg_X_fr_LH_upperleg q
  fr_RH_hipassembly_X_fr_trunk := motion_fr_RH_hipassembly_X_fr_trunk_update m.fr_RH_hipassembly_X_fr_trunk q
  fr_RH_upperleg_X_fr_RH_hipassembly := motion_fr_RH_upperleg_X_fr_RH_hipassembly_update m.fr_RH_upperleg_X_fr_RH_hipassembly q
  fr_RH_lowerleg_X_fr_RH_upperleg := motion_fr_RH_lowerleg_X_fr_RH_upperleg_update m.fr_RH_lowerleg_X_fr_RH_upperleg q

/-- The force transforms that `JSIM` uses. -/
structure FT where
  fr_RH_upperleg_X_fr_RH_lowerleg : M6
  fr_RH_hipassembly_X_fr_RH_upperleg : M6
  fr_trunk_X_fr_RH_hipassembly : M6
  fr_LH_upperleg_X_fr_LH_lowerleg : M6
  fr_LH_hipassembly_X_fr_LH_upperleg : M6
  fr_trunk_X_fr_LH_hipassembly : M6
  fr_RF_upperleg_X_fr_RF_lowerleg : M6
  fr_RF_hipassembly_X_fr_RF_upperleg : M6
  fr_trunk_X_fr_RF_hipassembly : M6
  fr_LF_upperleg_X_fr_LF_lowerleg : M6
  fr_LF_hipassembly_X_fr_LF_upperleg : M6
  fr_trunk_X_fr_LF_hipassembly : M6

/-- Construction; `z` is what the memory contained. -/
noncomputable def FT.new (z : FT) : FT where
  fr_RH_upperleg_X_fr_RH_lowerleg := force_fr_RH_upperleg_X_fr_RH_lowerleg_new z.fr_RH_upperleg_X_fr_RH_lowerleg
  fr_RH_hipassembly_X_fr_RH_upperleg := force_fr_RH_hipassembly_X_fr_RH_upperleg_new z.fr_RH_hipassembly_X_fr_RH_upperleg
  fr_trunk_X_fr_RH_hipassembly := force_fr_trunk_X_fr_RH_hipassembly_new z.fr_trunk_X_fr_RH_hipassembly
  fr_LH_upperleg_X_fr_LH_lowerleg := force_fr_LH_upperleg_X_fr_LH_lowerleg_new z.fr_LH_upperleg_X_fr_LH_lowerleg
  fr_LH_hipassembly_X_fr_LH_upperleg := force_fr_LH_hipassembly_X_fr_LH_upperleg_new z.fr_LH_hipassembly_X_fr_LH_upperleg
  fr_trunk_X_fr_LH_hipassembly := force_fr_trunk_X_fr_LH_hipassembly_new z.fr_trunk_X_fr_LH_hipassembly
  fr_RF_upperleg_X_fr_RF_lowerleg := force_fr_RF_upperleg_X_fr_RF_lowerleg_new z.fr_RF_upperleg_X_fr_RF_lowerleg
  fr_RF_hipassembly_X_fr_RF_upperleg := force_fr_RF_hipassembly_X_fr_RF_upperleg_new z.fr_RF_hipassembly_X_fr_RF_upperleg
  fr_trunk_X_fr_RF_hipassembly := force_fr_trunk_X_fr_RF_hipassembly_new z.fr_trunk_X_fr_RF_hipassembly
  fr_LF_upperleg_X_fr_LF_lowerleg := force_fr_LF_upperleg_X_fr_LF_lowerleg_new z.fr_LF_upperleg_X_fr_LF_lowerleg
  fr_LF_hipassembly_X_fr_LF_upperleg := force_fr_LF_hipassembly_X_fr_LF_upperleg_new z.fr_LF_hipassembly_X_fr_LF_upperleg
  fr_trunk_X_fr_LF_hipassembly := force_fr_trunk_X_fr_LF_hipassembly_new z.fr_trunk_X_fr_LF_hipassembly

/-- What `JSIM::update` does first (HyQ/generated/jsim.impl.h:25-36). -/
noncomputable def FT.set (ft : FT) (q : Q) : FT where
  fr_RH_upperleg_X_fr_RH_lowerleg := force_fr_RH_upperleg_X_fr_RH_lowerleg_update ft.fr_RH_upperleg_X_fr_RH_lowerleg q
  fr_RH_hipassembly_X_fr_RH_upperleg := force_fr_RH_hipassembly_X_fr_RH_upperleg_update ft.fr_RH_hipassembly_X_fr_RH_upperleg q
  fr_trunk_X_fr_RH_hipassembly := force_fr_trunk_X_fr_RH_hipassembly_update ft.fr_trunk_X_fr_RH_hipassembly q
  fr_LH_upperleg_X_fr_LH_lowerleg := force_fr_LH_upperleg_X_fr_LH_lowerleg_update ft.fr_LH_upperleg_X_fr_LH_lowerleg q
  fr_LH_hipassembly_X_fr_LH_upperleg := force_fr_LH_hipassembly_X_fr_LH_upperleg_update ft.fr_LH_hipassembly_X_fr_LH_upperleg q
  fr_trunk_X_fr_LH_hipassembly := force_fr_trunk_X_fr_LH_hipassembly_update ft.fr_trunk_X_fr_LH_hipassembly q
  fr_RF_upperleg_X_fr_RF_lowerleg := force_fr_RF_upperleg_X_fr_RF_lowerleg_update ft.fr_RF_upperleg_X_fr_RF_lowerleg q
  fr_RF_hipassembly_X_fr_RF_upperleg := force_fr_RF_hipassembly_X_fr_RF_upperleg_update ft.fr_RF_hipassembly_X_fr_RF_upperleg q
  fr_trunk_X_fr_RF_hipassembly := force_fr_trunk_X_fr_RF_hipassembly_update ft.fr_trunk_X_fr_RF_hipassembly q
  fr_LF_upperleg_X_fr_LF_lowerleg := force_fr_LF_upperleg_X_fr_LF_lowerleg_update ft.fr_LF_upperleg_X_fr_LF_lowerleg q
  fr_LF_hipassembly_X_fr_LF_upperleg := force_fr_LF_hipassembly_X_fr_LF_upperleg_update ft.fr_LF_hipassembly_X_fr_LF_upperleg q
  fr_trunk_X_fr_LF_hipassembly := force_fr_trunk_X_fr_LF_hipassembly_update ft.fr_trunk_X_fr_LF_hipassembly q

/-! ### Inertia parameters (HyQ/generated/inertia_properties.impl.h) -/

/-- `InertiaProperties`. -/
structure Inertias where
  trunk : M6
  LF_hipassembly : M6
  LF_upperleg : M6
  LF_lowerleg : M6
  RF_hipassembly : M6
  RF_upperleg : M6
  RF_lowerleg : M6
  LH_hipassembly : M6
  LH_upperleg : M6
  LH_lowerleg : M6
  RH_hipassembly : M6
  RH_upperleg : M6
  RH_lowerleg : M6

/-- `tensor_trunk` (HyQ/generated/inertia_properties.impl.h:4-14); `z` is what the memory contained. -/
noncomputable def tensor_trunk (z : M6) : M6 :=
  Inertia.fill (Inertia.new z) (53.433) ![-0.0223, -1.0E-4, 0.0387]
    (buildInertiaTensor (1.209488) (5.5837) (6.056973) (0.00571) (-0.190812) (-0.012668))

/-- `tensor_LF_hipassembly` (HyQ/generated/inertia_properties.impl.h:16-26); `z` is what the memory contained. -/
noncomputable def tensor_LF_hipassembly (z : M6) : M6 :=
  Inertia.fill (Inertia.new z) (3.44) ![0.04263, 0.0, 0.16931]
    (buildInertiaTensor (0.134705) (0.144171) (0.011033) (3.6E-5) (0.022734) (5.1E-5))

/-- `tensor_LF_upperleg` (HyQ/generated/inertia_properties.impl.h:28-38); `z` is what the memory contained. -/
noncomputable def tensor_LF_upperleg (z : M6) : M6 :=
  Inertia.fill (Inertia.new z) (3.146) ![0.15074, -0.02625, -0.0]
    (buildInertiaTensor (0.005495) (0.087136) (0.089871) (-0.007418) (-1.02E-4) (-2.1E-5))

/-- `tensor_LF_lowerleg` (HyQ/generated/inertia_properties.impl.h:40-50); `z` is what the memory contained. -/
noncomputable def tensor_LF_lowerleg (z : M6) : M6 :=
  Inertia.fill (Inertia.new z) (0.881) ![0.1254, 5.0E-4, -1.0E-4]
    (buildInertiaTensor (4.68E-4) (0.026409) (0.026181) (0.0) (0.0) (0.0))

/-- `tensor_RF_hipassembly` (HyQ/generated/inertia_properties.impl.h:52-62); `z` is what the memory contained. -/
noncomputable def tensor_RF_hipassembly (z : M6) : M6 :=
  Inertia.fill (Inertia.new z) (3.44) ![0.04263, -0.0, -0.16931]
    (buildInertiaTensor (0.134705) (0.144171) (0.011033) (-3.6E-5) (-0.022734) (5.1E-5))

/-- `tensor_RF_upperleg` (HyQ/generated/inertia_properties.impl.h:64-74); `z` is what the memory contained. -/
noncomputable def tensor_RF_upperleg (z : M6) : M6 :=
  Inertia.fill (Inertia.new z) (3.146) ![0.15074, -0.02625, -0.0]
    (buildInertiaTensor (0.005495) (0.087136) (0.089871) (-0.007418) (-1.02E-4) (-2.1E-5))

/-- `tensor_RF_lowerleg` (HyQ/generated/inertia_properties.impl.h:76-86); `z` is what the memory contained. -/
noncomputable def tensor_RF_lowerleg (z : M6) : M6 :=
  Inertia.fill (Inertia.new z) (0.881) ![0.1254, 5.0E-4, -1.0E-4]
    (buildInertiaTensor (4.68E-4) (0.026409) (0.026181) (0.0) (0.0) (0.0))

/-- `tensor_LH_hipassembly` (HyQ/generated/inertia_properties.impl.h:88-98); `z` is what the memory contained. -/
noncomputable def tensor_LH_hipassembly (z : M6) : M6 :=
  Inertia.fill (Inertia.new z) (3.44) ![0.04263, -0.0, -0.16931]
    (buildInertiaTensor (0.134705) (0.144171) (0.011033) (-3.6E-5) (-0.022734) (5.1E-5))

/-- `tensor_LH_upperleg` (HyQ/generated/inertia_properties.impl.h:100-110); `z` is what the memory contained. -/
noncomputable def tensor_LH_upperleg (z : M6) : M6 :=
  Inertia.fill (Inertia.new z) (3.146) ![0.15074, 0.02625, 0.0]
    (buildInertiaTensor (0.005495) (0.087136) (0.089871) (0.007418) (1.02E-4) (-2.1E-5))

/-- `tensor_LH_lowerleg` (HyQ/generated/inertia_properties.impl.h:112-122); `z` is what the memory contained. -/
noncomputable def tensor_LH_lowerleg (z : M6) : M6 :=
  Inertia.fill (Inertia.new z) (0.881) ![0.125, -0.001, 0.0]
    (buildInertiaTensor (4.68E-4) (0.026409) (0.026181) (0.0) (0.0) (0.0))

/-- `tensor_RH_hipassembly` (HyQ/generated/inertia_properties.impl.h:124-134); `z` is what the memory contained. -/
noncomputable def tensor_RH_hipassembly (z : M6) : M6 :=
  Inertia.fill (Inertia.new z) (3.44) ![0.04263, 0.0, 0.16931]
    (buildInertiaTensor (0.134705) (0.144171) (0.011033) (3.6E-5) (0.022734) (5.1E-5))

/-- `tensor_RH_upperleg` (HyQ/generated/inertia_properties.impl.h:136-146); `z` is what the memory contained. -/
noncomputable def tensor_RH_upperleg (z : M6) : M6 :=
  Inertia.fill (Inertia.new z) (3.146) ![0.15074, 0.02625, 0.0]
    (buildInertiaTensor (0.005495) (0.087136) (0.089871) (0.007418) (1.02E-4) (-2.1E-5))

/-- `tensor_RH_lowerleg` (HyQ/generated/inertia_properties.impl.h:148-158); `z` is what the memory contained. -/
noncomputable def tensor_RH_lowerleg (z : M6) : M6 :=
  Inertia.fill (Inertia.new z) (0.881) ![0.1254, -5.0E-4, 1.0E-4]
    (buildInertiaTensor (4.68E-4) (0.026409) (0.026181) (0.0) (0.0) (0.0))

/-- Constructor of `InertiaProperties` (HyQ/generated/inertia_properties.impl.h:1-160). -/
noncomputable def Inertias.new (z : Inertias) : Inertias where
  trunk := tensor_trunk z.trunk
  LF_hipassembly := tensor_LF_hipassembly z.LF_hipassembly
  LF_upperleg := tensor_LF_upperleg z.LF_upperleg
  LF_lowerleg := tensor_LF_lowerleg z.LF_lowerleg
  RF_hipassembly := tensor_RF_hipassembly z.RF_hipassembly
  RF_upperleg := tensor_RF_upperleg z.RF_upperleg
  RF_lowerleg := tensor_RF_lowerleg z.RF_lowerleg
  LH_hipassembly := tensor_LH_hipassembly z.LH_hipassembly
  LH_upperleg := tensor_LH_upperleg z.LH_upperleg
  LH_lowerleg := tensor_LH_lowerleg z.LH_lowerleg
  RH_hipassembly := tensor_RH_hipassembly z.RH_hipassembly
  RH_upperleg := tensor_RH_upperleg z.RH_upperleg
  RH_lowerleg := tensor_RH_lowerleg z.RH_lowerleg

/-! ### Forward dynamics -/

/-- The members of `ForwardDynamics` that survive from one call to the next. -/
structure FDState where
  vcross : M6
  Ia_r : M6

/-- Constructor (HyQ/generated/forward_dynamics.impl.h:8-40). -/
def FDState.new : FDState where
  vcross := 0
  Ia_r := 0

/-- `fd` (HyQ/generated/forward_dynamics.impl.h:43-423). -/
noncomputable def fd (s : FDState) (m : MT) (i : Inertias) (trunk_v g : V6) (qd tau : Q) (fext : Ext) : FDState × V6 × Q :=
  let vcross := s.vcross
  let Ia_r := s.Ia_r
  let trunk_AI : M6 := i.trunk
  let trunk_p : V6 := -(fext TRUNK)
  let LF_hipassembly_AI : M6 := i.LF_hipassembly
  let LF_hipassembly_p : V6 := -(fext LF_HIPASSEMBLY)
  let LF_upperleg_AI : M6 := i.LF_upperleg
  let LF_upperleg_p : V6 := -(fext LF_UPPERLEG)
  let LF_lowerleg_AI : M6 := i.LF_lowerleg
  let LF_lowerleg_p : V6 := -(fext LF_LOWERLEG)
  let RF_hipassembly_AI : M6 := i.RF_hipassembly
  let RF_hipassembly_p : V6 := -(fext RF_HIPASSEMBLY)
  let RF_upperleg_AI : M6 := i.RF_upperleg
  let RF_upperleg_p : V6 := -(fext RF_UPPERLEG)
  let RF_lowerleg_AI : M6 := i.RF_lowerleg
  let RF_lowerleg_p : V6 := -(fext RF_LOWERLEG)
  let LH_hipassembly_AI : M6 := i.LH_hipassembly
  let LH_hipassembly_p : V6 := -(fext LH_HIPASSEMBLY)
  let LH_upperleg_AI : M6 := i.LH_upperleg
  let LH_upperleg_p : V6 := -(fext LH_UPPERLEG)
  let LH_lowerleg_AI : M6 := i.LH_lowerleg
  let LH_lowerleg_p : V6 := -(fext LH_LOWERLEG)
  let RH_hipassembly_AI : M6 := i.RH_hipassembly
  let RH_hipassembly_p : V6 := -(fext RH_HIPASSEMBLY)
  let RH_upperleg_AI : M6 := i.RH_upperleg
  let RH_upperleg_p : V6 := -(fext RH_UPPERLEG)
  let RH_lowerleg_AI : M6 := i.RH_lowerleg
  let RH_lowerleg_p : V6 := -(fext RH_LOWERLEG)
  let LF_hipassembly_v : V6 := m.fr_LF_hipassembly_X_fr_trunk *ᵥ trunk_v
  let LF_hipassembly_v : V6 := bump LF_hipassembly_v (qd LF_HAA)
  let vcross : M6 := motionCrossProductMx LF_hipassembly_v vcross
  let LF_hipassembly_c : V6 := fun k => (fun k => vcross k 2) k * (qd LF_HAA)
  let LF_hipassembly_p : V6 := LF_hipassembly_p + (vxIv LF_hipassembly_v LF_hipassembly_AI)
  let LF_upperleg_v : V6 := m.fr_LF_upperleg_X_fr_LF_hipassembly *ᵥ LF_hipassembly_v
  let LF_upperleg_v : V6 := bump LF_upperleg_v (qd LF_HFE)
  let vcross : M6 := motionCrossProductMx LF_upperleg_v vcross
  let LF_upperleg_c : V6 := fun k => (fun k => vcross k 2) k * (qd LF_HFE)
  let LF_upperleg_p : V6 := LF_upperleg_p + (vxIv LF_upperleg_v LF_upperleg_AI)
  let LF_lowerleg_v : V6 := m.fr_LF_lowerleg_X_fr_LF_upperleg *ᵥ LF_upperleg_v
  let LF_lowerleg_v : V6 := bump LF_lowerleg_v (qd LF_KFE)
  let vcross : M6 := motionCrossProductMx LF_lowerleg_v vcross
  let LF_lowerleg_c : V6 := fun k => (fun k => vcross k 2) k * (qd LF_KFE)
  let LF_lowerleg_p : V6 := LF_lowerleg_p + (vxIv LF_lowerleg_v LF_lowerleg_AI)
  let RF_hipassembly_v : V6 := m.fr_RF_hipassembly_X_fr_trunk *ᵥ trunk_v
  let RF_hipassembly_v : V6 := bump RF_hipassembly_v (qd RF_HAA)
  let vcross : M6 := motionCrossProductMx RF_hipassembly_v vcross
  let RF_hipassembly_c : V6 := fun k => (fun k => vcross k 2) k * (qd RF_HAA)
  let RF_hipassembly_p : V6 := RF_hipassembly_p + (vxIv RF_hipassembly_v RF_hipassembly_AI)
  let RF_upperleg_v : V6 := m.fr_RF_upperleg_X_fr_RF_hipassembly *ᵥ RF_hipassembly_v
  let RF_upperleg_v : V6 := bump RF_upperleg_v (qd RF_HFE)
  let vcross : M6 := motionCrossProductMx RF_upperleg_v vcross
  let RF_upperleg_c : V6 := fun k => (fun k => vcross k 2) k * (qd RF_HFE)
  let RF_upperleg_p : V6 := RF_upperleg_p + (vxIv RF_upperleg_v RF_upperleg_AI)
  let RF_lowerleg_v : V6 := m.fr_RF_lowerleg_X_fr_RF_upperleg *ᵥ RF_upperleg_v
  let RF_lowerleg_v : V6 := bump RF_lowerleg_v (qd RF_KFE)
  let vcross : M6 := motionCrossProductMx RF_lowerleg_v vcross
  let RF_lowerleg_c : V6 := fun k => (fun k => vcross k 2) k * (qd RF_KFE)
  let RF_lowerleg_p : V6 := RF_lowerleg_p + (vxIv RF_lowerleg_v RF_lowerleg_AI)
  let LH_hipassembly_v : V6 := m.fr_LH_hipassembly_X_fr_trunk *ᵥ trunk_v
  let LH_hipassembly_v : V6 := bump LH_hipassembly_v (qd LH_HAA)
  let vcross : M6 := motionCrossProductMx LH_hipassembly_v vcross
  let LH_hipassembly_c : V6 := fun k => (fun k => vcross k 2) k * (qd LH_HAA)
  let LH_hipassembly_p : V6 := LH_hipassembly_p + (vxIv LH_hipassembly_v LH_hipassembly_AI)
  let LH_upperleg_v : V6 := m.fr_LH_upperleg_X_fr_LH_hipassembly *ᵥ LH_hipassembly_v
  let LH_upperleg_v : V6 := bump LH_upperleg_v (qd LH_HFE)
  let vcross : M6 := motionCrossProductMx LH_upperleg_v vcross
  let LH_upperleg_c : V6 := fun k => (fun k => vcross k 2) k * (qd LH_HFE)
  let LH_upperleg_p : V6 := LH_upperleg_p + (vxIv LH_upperleg_v LH_upperleg_AI)
  let LH_lowerleg_v : V6 := m.fr_LH_lowerleg_X_fr_LH_upperleg *ᵥ LH_upperleg_v
  let LH_lowerleg_v : V6 := bump LH_lowerleg_v (qd LH_KFE)
  let vcross : M6 := motionCrossProductMx LH_lowerleg_v vcross
  let LH_lowerleg_c : V6 := fun k => (fun k => vcross k 2) k * (qd LH_KFE)
  let LH_lowerleg_p : V6 := LH_lowerleg_p + (vxIv LH_lowerleg_v LH_lowerleg_AI)
  let RH_hipassembly_v : V6 := m.fr_RH_hipassembly_X_fr_trunk *ᵥ trunk_v
  let RH_hipassembly_v : V6 := bump RH_hipassembly_v (qd RH_HAA)
  let vcross : M6 := motionCrossProductMx RH_hipassembly_v vcross
  let RH_hipassembly_c : V6 := fun k => (fun k => vcross k 2) k * (qd RH_HAA)
  let RH_hipassembly_p : V6 := RH_hipassembly_p + (vxIv RH_hipassembly_v RH_hipassembly_AI)
  let RH_upperleg_v : V6 := m.fr_RH_upperleg_X_fr_RH_hipassembly *ᵥ RH_hipassembly_v
  let RH_upperleg_v : V6 := bump RH_upperleg_v (qd RH_HFE)
  let vcross : M6 := motionCrossProductMx RH_upperleg_v vcross
  let RH_upperleg_c : V6 := fun k => (fun k => vcross k 2) k * (qd RH_HFE)
  let RH_upperleg_p : V6 := RH_upperleg_p + (vxIv RH_upperleg_v RH_upperleg_AI)
  let RH_lowerleg_v : V6 := m.fr_RH_lowerleg_X_fr_RH_upperleg *ᵥ RH_upperleg_v
  let RH_lowerleg_v : V6 := bump RH_lowerleg_v (qd RH_KFE)
  let vcross : M6 := motionCrossProductMx RH_lowerleg_v vcross
  let RH_lowerleg_c : V6 := fun k => (fun k => vcross k 2) k * (qd RH_KFE)
  let RH_lowerleg_p : V6 := RH_lowerleg_p + (vxIv RH_lowerleg_v RH_lowerleg_AI)
  let trunk_p : V6 := trunk_p + (vxIv trunk_v trunk_AI)
  let RH_lowerleg_u : ℝ := (tau RH_KFE) - (RH_lowerleg_p 2)
  let RH_lowerleg_U : V6 := fun k => RH_lowerleg_AI k 2
  let RH_lowerleg_D : ℝ := RH_lowerleg_U 2
  let Ia_r : M6 := computeIaRevolute RH_lowerleg_AI RH_lowerleg_U RH_lowerleg_D Ia_r
  let pa : V6 := (RH_lowerleg_p + (Ia_r *ᵥ RH_lowerleg_c)) + (fun k => (fun k => RH_lowerleg_U k * RH_lowerleg_u) k / RH_lowerleg_D)
  let IaB : M6 := ctransformIaRevolute Ia_r m.fr_RH_lowerleg_X_fr_RH_upperleg
  let RH_upperleg_AI : M6 := RH_upperleg_AI + IaB
  let RH_upperleg_p : V6 := RH_upperleg_p + (m.fr_RH_lowerleg_X_fr_RH_upperlegᵀ *ᵥ pa)
  let RH_upperleg_u : ℝ := (tau RH_HFE) - (RH_upperleg_p 2)
  let RH_upperleg_U : V6 := fun k => RH_upperleg_AI k 2
  let RH_upperleg_D : ℝ := RH_upperleg_U 2
  let Ia_r : M6 := computeIaRevolute RH_upperleg_AI RH_upperleg_U RH_upperleg_D Ia_r
  let pa : V6 := (RH_upperleg_p + (Ia_r *ᵥ RH_upperleg_c)) + (fun k => (fun k => RH_upperleg_U k * RH_upperleg_u) k / RH_upperleg_D)
  let IaB : M6 := ctransformIaRevolute Ia_r m.fr_RH_upperleg_X_fr_RH_hipassembly
  let RH_hipassembly_AI : M6 := RH_hipassembly_AI + IaB
  let RH_hipassembly_p : V6 := RH_hipassembly_p + (m.fr_RH_upperleg_X_fr_RH_hipassemblyᵀ *ᵥ pa)
  let RH_hipassembly_u : ℝ := (tau RH_HAA) - (RH_hipassembly_p 2)
  let RH_hipassembly_U : V6 := fun k => RH_hipassembly_AI k 2
  let RH_hipassembly_D : ℝ := RH_hipassembly_U 2
  let Ia_r : M6 := computeIaRevolute RH_hipassembly_AI RH_hipassembly_U RH_hipassembly_D Ia_r
  let pa : V6 := (RH_hipassembly_p + (Ia_r *ᵥ RH_hipassembly_c)) + (fun k => (fun k => RH_hipassembly_U k * RH_hipassembly_u) k / RH_hipassembly_D)
  let IaB : M6 := ctransformIaRevolute Ia_r m.fr_RH_hipassembly_X_fr_trunk
  let trunk_AI : M6 := trunk_AI + IaB
  let trunk_p : V6 := trunk_p + (m.fr_RH_hipassembly_X_fr_trunkᵀ *ᵥ pa)
  let LH_lowerleg_u : ℝ := (tau LH_KFE) - (LH_lowerleg_p 2)
  let LH_lowerleg_U : V6 := fun k => LH_lowerleg_AI k 2
  let LH_lowerleg_D : ℝ := LH_lowerleg_U 2
  let Ia_r : M6 := computeIaRevolute LH_lowerleg_AI LH_lowerleg_U LH_lowerleg_D Ia_r
  let pa : V6 := (LH_lowerleg_p + (Ia_r *ᵥ LH_lowerleg_c)) + (fun k => (fun k => LH_lowerleg_U k * LH_lowerleg_u) k / LH_lowerleg_D)
  let IaB : M6 := ctransformIaRevolute Ia_r m.fr_LH_lowerleg_X_fr_LH_upperleg
  let LH_upperleg_AI : M6 := LH_upperleg_AI + IaB
  let LH_upperleg_p : V6 := LH_upperleg_p + (m.fr_LH_lowerleg_X_fr_LH_upperlegᵀ *ᵥ pa)
  let LH_upperleg_u : ℝ := (tau LH_HFE) - (LH_upperleg_p 2)
  let LH_upperleg_U : V6 := fun k => LH_upperleg_AI k 2
  let LH_upperleg_D : ℝ := LH_upperleg_U 2
  let Ia_r : M6 := computeIaRevolute LH_upperleg_AI LH_upperleg_U LH_upperleg_D Ia_r
  let pa : V6 := (LH_upperleg_p + (Ia_r *ᵥ LH_upperleg_c)) + (fun k => (fun k => LH_upperleg_U k * LH_upperleg_u) k / LH_upperleg_D)
  let IaB : M6 := ctransformIaRevolute Ia_r m.fr_LH_upperleg_X_fr_LH_hipassembly
  let LH_hipassembly_AI : M6 := LH_hipassembly_AI + IaB
  let LH_hipassembly_p : V6 := LH_hipassembly_p + (m.fr_LH_upperleg_X_fr_LH_hipassemblyᵀ *ᵥ pa)
  let LH_hipassembly_u : ℝ := (tau LH_HAA) - (LH_hipassembly_p 2)
  let LH_hipassembly_U : V6 := fun k => LH_hipassembly_AI k 2
  let LH_hipassembly_D : ℝ := LH_hipassembly_U 2
  let Ia_r : M6 := computeIaRevolute LH_hipassembly_AI LH_hipassembly_U LH_hipassembly_D Ia_r
  let pa : V6 := (LH_hipassembly_p + (Ia_r *ᵥ LH_hipassembly_c)) + (fun k => (fun k => LH_hipassembly_U k * LH_hipassembly_u) k / LH_hipassembly_D)
  let IaB : M6 := ctransformIaRevolute Ia_r m.fr_LH_hipassembly_X_fr_trunk
  let trunk_AI : M6 := trunk_AI + IaB
  let trunk_p : V6 := trunk_p + (m.fr_LH_hipassembly_X_fr_trunkᵀ *ᵥ pa)
  let RF_lowerleg_u : ℝ := (tau RF_KFE) - (RF_lowerleg_p 2)
  let RF_lowerleg_U : V6 := fun k => RF_lowerleg_AI k 2
  let RF_lowerleg_D : ℝ := RF_lowerleg_U 2
  let Ia_r : M6 := computeIaRevolute RF_lowerleg_AI RF_lowerleg_U RF_lowerleg_D Ia_r
  let pa : V6 := (RF_lowerleg_p + (Ia_r *ᵥ RF_lowerleg_c)) + (fun k => (fun k => RF_lowerleg_U k * RF_lowerleg_u) k / RF_lowerleg_D)
  let IaB : M6 := ctransformIaRevolute Ia_r m.fr_RF_lowerleg_X_fr_RF_upperleg
  let RF_upperleg_AI : M6 := RF_upperleg_AI + IaB
  let RF_upperleg_p : V6 := RF_upperleg_p + (m.fr_RF_lowerleg_X_fr_RF_upperlegᵀ *ᵥ pa)
  let RF_upperleg_u : ℝ := (tau RF_HFE) - (RF_upperleg_p 2)
  let RF_upperleg_U : V6 := fun k => RF_upperleg_AI k 2
  let RF_upperleg_D : ℝ := RF_upperleg_U 2
  let Ia_r : M6 := computeIaRevolute RF_upperleg_AI RF_upperleg_U RF_upperleg_D Ia_r
  let pa : V6 := (RF_upperleg_p + (Ia_r *ᵥ RF_upperleg_c)) + (fun k => (fun k => RF_upperleg_U k * RF_upperleg_u) k / RF_upperleg_D)
  let IaB : M6 := ctransformIaRevolute Ia_r m.fr_RF_upperleg_X_fr_RF_hipassembly
  let RF_hipassembly_AI : M6 := RF_hipassembly_AI + IaB
  let RF_hipassembly_p : V6 := RF_hipassembly_p + (m.fr_RF_upperleg_X_fr_RF_hipassemblyᵀ *ᵥ pa)
  let RF_hipassembly_u : ℝ := (tau RF_HAA) - (RF_hipassembly_p 2)
  let RF_hipassembly_U : V6 := fun k => RF_hipassembly_AI k 2
  let RF_hipassembly_D : ℝ := RF_hipassembly_U 2
  let Ia_r : M6 := computeIaRevolute RF_hipassembly_AI RF_hipassembly_U RF_hipassembly_D Ia_r
  let pa : V6 := (RF_hipassembly_p + (Ia_r *ᵥ RF_hipassembly_c)) + (fun k => (fun k => RF_hipassembly_U k * RF_hipassembly_u) k / RF_hipassembly_D)
  let IaB : M6 := ctransformIaRevolute Ia_r m.fr_RF_hipassembly_X_fr_trunk
  let trunk_AI : M6 := trunk_AI + IaB
  let trunk_p : V6 := trunk_p + (m.fr_RF_hipassembly_X_fr_trunkᵀ *ᵥ pa)
  let LF_lowerleg_u : ℝ := (tau LF_KFE) - (LF_lowerleg_p 2)
  let LF_lowerleg_U : V6 := fun k => LF_lowerleg_AI k 2
  let LF_lowerleg_D : ℝ := LF_lowerleg_U 2
  let Ia_r : M6 := computeIaRevolute LF_lowerleg_AI LF_lowerleg_U LF_lowerleg_D Ia_r
  let pa : V6 := (LF_lowerleg_p + (Ia_r *ᵥ LF_lowerleg_c)) + (fun k => (fun k => LF_lowerleg_U k * LF_lowerleg_u) k / LF_lowerleg_D)
  let IaB : M6 := ctransformIaRevolute Ia_r m.fr_LF_lowerleg_X_fr_LF_upperleg
  let LF_upperleg_AI : M6 := LF_upperleg_AI + IaB
  let LF_upperleg_p : V6 := LF_upperleg_p + (m.fr_LF_lowerleg_X_fr_LF_upperlegᵀ *ᵥ pa)
  let LF_upperleg_u : ℝ := (tau LF_HFE) - (LF_upperleg_p 2)
  let LF_upperleg_U : V6 := fun k => LF_upperleg_AI k 2
  let LF_upperleg_D : ℝ := LF_upperleg_U 2
  let Ia_r : M6 := computeIaRevolute LF_upperleg_AI LF_upperleg_U LF_upperleg_D Ia_r
  let pa : V6 := (LF_upperleg_p + (Ia_r *ᵥ LF_upperleg_c)) + (fun k => (fun k => LF_upperleg_U k * LF_upperleg_u) k / LF_upperleg_D)
  let IaB : M6 := ctransformIaRevolute Ia_r m.fr_LF_upperleg_X_fr_LF_hipassembly
  let LF_hipassembly_AI : M6 := LF_hipassembly_AI + IaB
  let LF_hipassembly_p : V6 := LF_hipassembly_p + (m.fr_LF_upperleg_X_fr_LF_hipassemblyᵀ *ᵥ pa)
  let LF_hipassembly_u : ℝ := (tau LF_HAA) - (LF_hipassembly_p 2)
  let LF_hipassembly_U : V6 := fun k => LF_hipassembly_AI k 2
  let LF_hipassembly_D : ℝ := LF_hipassembly_U 2
  let Ia_r : M6 := computeIaRevolute LF_hipassembly_AI LF_hipassembly_U LF_hipassembly_D Ia_r
  let pa : V6 := (LF_hipassembly_p + (Ia_r *ᵥ LF_hipassembly_c)) + (fun k => (fun k => LF_hipassembly_U k * LF_hipassembly_u) k / LF_hipassembly_D)
  let IaB : M6 := ctransformIaRevolute Ia_r m.fr_LF_hipassembly_X_fr_trunk
  let trunk_AI : M6 := trunk_AI + IaB
  let trunk_p : V6 := trunk_p + (m.fr_LF_hipassembly_X_fr_trunkᵀ *ᵥ pa)
  let trunk_a : V6 := -(trunk_AI⁻¹ *ᵥ trunk_p)
  let LF_hipassembly_a : V6 := (m.fr_LF_hipassembly_X_fr_trunk *ᵥ trunk_a) + LF_hipassembly_c
  let qdd_LF_HAA : ℝ := (LF_hipassembly_u - (LF_hipassembly_U ⬝ᵥ LF_hipassembly_a)) / LF_hipassembly_D
  let LF_hipassembly_a : V6 := bump LF_hipassembly_a qdd_LF_HAA
  let LF_upperleg_a : V6 := (m.fr_LF_upperleg_X_fr_LF_hipassembly *ᵥ LF_hipassembly_a) + LF_upperleg_c
  let qdd_LF_HFE : ℝ := (LF_upperleg_u - (LF_upperleg_U ⬝ᵥ LF_upperleg_a)) / LF_upperleg_D
  let LF_upperleg_a : V6 := bump LF_upperleg_a qdd_LF_HFE
  let LF_lowerleg_a : V6 := (m.fr_LF_lowerleg_X_fr_LF_upperleg *ᵥ LF_upperleg_a) + LF_lowerleg_c
  let qdd_LF_KFE : ℝ := (LF_lowerleg_u - (LF_lowerleg_U ⬝ᵥ LF_lowerleg_a)) / LF_lowerleg_D
  let LF_lowerleg_a : V6 := bump LF_lowerleg_a qdd_LF_KFE
  let RF_hipassembly_a : V6 := (m.fr_RF_hipassembly_X_fr_trunk *ᵥ trunk_a) + RF_hipassembly_c
  let qdd_RF_HAA : ℝ := (RF_hipassembly_u - (RF_hipassembly_U ⬝ᵥ RF_hipassembly_a)) / RF_hipassembly_D
  let RF_hipassembly_a : V6 := bump RF_hipassembly_a qdd_RF_HAA
  let RF_upperleg_a : V6 := (m.fr_RF_upperleg_X_fr_RF_hipassembly *ᵥ RF_hipassembly_a) + RF_upperleg_c
  let qdd_RF_HFE : ℝ := (RF_upperleg_u - (RF_upperleg_U ⬝ᵥ RF_upperleg_a)) / RF_upperleg_D
  let RF_upperleg_a : V6 := bump RF_upperleg_a qdd_RF_HFE
  let RF_lowerleg_a : V6 := (m.fr_RF_lowerleg_X_fr_RF_upperleg *ᵥ RF_upperleg_a) + RF_lowerleg_c
  let qdd_RF_KFE : ℝ := (RF_lowerleg_u - (RF_lowerleg_U ⬝ᵥ RF_lowerleg_a)) / RF_lowerleg_D
  let RF_lowerleg_a : V6 := bump RF_lowerleg_a qdd_RF_KFE
  let LH_hipassembly_a : V6 := (m.fr_LH_hipassembly_X_fr_trunk *ᵥ trunk_a) + LH_hipassembly_c
  let qdd_LH_HAA : ℝ := (LH_hipassembly_u - (LH_hipassembly_U ⬝ᵥ LH_hipassembly_a)) / LH_hipassembly_D
  let LH_hipassembly_a : V6 := bump LH_hipassembly_a qdd_LH_HAA
  let LH_upperleg_a : V6 := (m.fr_LH_upperleg_X_fr_LH_hipassembly *ᵥ LH_hipassembly_a) + LH_upperleg_c
  let qdd_LH_HFE : ℝ := (LH_upperleg_u - (LH_upperleg_U ⬝ᵥ LH_upperleg_a)) / LH_upperleg_D
  let LH_upperleg_a : V6 := bump LH_upperleg_a qdd_LH_HFE
  let LH_lowerleg_a : V6 := (m.fr_LH_lowerleg_X_fr_LH_upperleg *ᵥ LH_upperleg_a) + LH_lowerleg_c
  let qdd_LH_KFE : ℝ := (LH_lowerleg_u - (LH_lowerleg_U ⬝ᵥ LH_lowerleg_a)) / LH_lowerleg_D
  let LH_lowerleg_a : V6 := bump LH_lowerleg_a qdd_LH_KFE
  let RH_hipassembly_a : V6 := (m.fr_RH_hipassembly_X_fr_trunk *ᵥ trunk_a) + RH_hipassembly_c
  let qdd_RH_HAA : ℝ := (RH_hipassembly_u - (RH_hipassembly_U ⬝ᵥ RH_hipassembly_a)) / RH_hipassembly_D
  let RH_hipassembly_a : V6 := bump RH_hipassembly_a qdd_RH_HAA
  let RH_upperleg_a : V6 := (m.fr_RH_upperleg_X_fr_RH_hipassembly *ᵥ RH_hipassembly_a) + RH_upperleg_c
  let qdd_RH_HFE : ℝ := (RH_upperleg_u - (RH_upperleg_U ⬝ᵥ RH_upperleg_a)) / RH_upperleg_D
  let RH_upperleg_a : V6 := bump RH_upperleg_a qdd_RH_HFE
  let RH_lowerleg_a : V6 := (m.fr_RH_lowerleg_X_fr_RH_upperleg *ᵥ RH_upperleg_a) + RH_lowerleg_c
  let qdd_RH_KFE : ℝ := (RH_lowerleg_u - (RH_lowerleg_U ⬝ᵥ RH_lowerleg_a)) / RH_lowerleg_D
  let RH_lowerleg_a : V6 := bump RH_lowerleg_a qdd_RH_KFE
  let trunk_a : V6 := trunk_a + g
  ({ vcross := vcross, Ia_r := Ia_r }, trunk_a, ![qdd_LF_HAA, qdd_LF_HFE, qdd_LF_KFE, qdd_RF_HAA, qdd_RF_HFE, qdd_RF_KFE, qdd_LH_HAA, qdd_LH_HFE, qdd_LH_KFE, qdd_RH_HAA, qdd_RH_HFE, qdd_RH_KFE])

/-! ### Inverse dynamics -/

/-- The members of `InverseDynamics` that survive from one call to the next. -/
structure IDState where
  vcross : M6

/-- Constructor (HyQ/generated/inverse_dynamics.impl.h:7-47). -/
def IDState.new : IDState where
  vcross := 0

/-- `id` (HyQ/generated/inverse_dynamics.impl.h:50-295). -/
noncomputable def id (s : IDState) (m : MT) (i : Inertias) (g trunk_v : V6) (qd qdd : Q) (fext : Ext) : IDState × V6 × Q :=
  let vcross := s.vcross
  let trunk_Ic : M6 := i.trunk
  let LF_hipassembly_Ic : M6 := i.LF_hipassembly
  let LF_upperleg_Ic : M6 := i.LF_upperleg
  let RF_hipassembly_Ic : M6 := i.RF_hipassembly
  let RF_upperleg_Ic : M6 := i.RF_upperleg
  let LH_hipassembly_Ic : M6 := i.LH_hipassembly
  let LH_upperleg_Ic : M6 := i.LH_upperleg
  let RH_hipassembly_Ic : M6 := i.RH_hipassembly
  let RH_upperleg_Ic : M6 := i.RH_upperleg
  let LF_hipassembly_v : V6 := m.fr_LF_hipassembly_X_fr_trunk *ᵥ trunk_v
  let LF_hipassembly_v : V6 := bump LF_hipassembly_v (qd LF_HAA)
  let vcross : M6 := motionCrossProductMx LF_hipassembly_v vcross
  let LF_hipassembly_a : V6 := fun k => (fun k => vcross k 2) k * (qd LF_HAA)
  let LF_hipassembly_a : V6 := bump LF_hipassembly_a (qdd LF_HAA)
  let LF_hipassembly_f : V6 := (i.LF_hipassembly *ᵥ LF_hipassembly_a) + (vxIv LF_hipassembly_v i.LF_hipassembly)
  let LF_upperleg_v : V6 := m.fr_LF_upperleg_X_fr_LF_hipassembly *ᵥ LF_hipassembly_v
  let LF_upperleg_v : V6 := bump LF_upperleg_v (qd LF_HFE)
  let vcross : M6 := motionCrossProductMx LF_upperleg_v vcross
  let LF_upperleg_a : V6 := (m.fr_LF_upperleg_X_fr_LF_hipassembly *ᵥ LF_hipassembly_a) + (fun k => (fun k => vcross k 2) k * (qd LF_HFE))
  let LF_upperleg_a : V6 := bump LF_upperleg_a (qdd LF_HFE)
  let LF_upperleg_f : V6 := (i.LF_upperleg *ᵥ LF_upperleg_a) + (vxIv LF_upperleg_v i.LF_upperleg)
  let LF_lowerleg_v : V6 := m.fr_LF_lowerleg_X_fr_LF_upperleg *ᵥ LF_upperleg_v
  let LF_lowerleg_v : V6 := bump LF_lowerleg_v (qd LF_KFE)
  let vcross : M6 := motionCrossProductMx LF_lowerleg_v vcross
  let LF_lowerleg_a : V6 := (m.fr_LF_lowerleg_X_fr_LF_upperleg *ᵥ LF_upperleg_a) + (fun k => (fun k => vcross k 2) k * (qd LF_KFE))
  let LF_lowerleg_a : V6 := bump LF_lowerleg_a (qdd LF_KFE)
  let LF_lowerleg_f : V6 := (i.LF_lowerleg *ᵥ LF_lowerleg_a) + (vxIv LF_lowerleg_v i.LF_lowerleg)
  let RF_hipassembly_v : V6 := m.fr_RF_hipassembly_X_fr_trunk *ᵥ trunk_v
  let RF_hipassembly_v : V6 := bump RF_hipassembly_v (qd RF_HAA)
  let vcross : M6 := motionCrossProductMx RF_hipassembly_v vcross
  let RF_hipassembly_a : V6 := fun k => (fun k => vcross k 2) k * (qd RF_HAA)
  let RF_hipassembly_a : V6 := bump RF_hipassembly_a (qdd RF_HAA)
  let RF_hipassembly_f : V6 := (i.RF_hipassembly *ᵥ RF_hipassembly_a) + (vxIv RF_hipassembly_v i.RF_hipassembly)
  let RF_upperleg_v : V6 := m.fr_RF_upperleg_X_fr_RF_hipassembly *ᵥ RF_hipassembly_v
  let RF_upperleg_v : V6 := bump RF_upperleg_v (qd RF_HFE)
  let vcross : M6 := motionCrossProductMx RF_upperleg_v vcross
  let RF_upperleg_a : V6 := (m.fr_RF_upperleg_X_fr_RF_hipassembly *ᵥ RF_hipassembly_a) + (fun k => (fun k => vcross k 2) k * (qd RF_HFE))
  let RF_upperleg_a : V6 := bump RF_upperleg_a (qdd RF_HFE)
  let RF_upperleg_f : V6 := (i.RF_upperleg *ᵥ RF_upperleg_a) + (vxIv RF_upperleg_v i.RF_upperleg)
  let RF_lowerleg_v : V6 := m.fr_RF_lowerleg_X_fr_RF_upperleg *ᵥ RF_upperleg_v
  let RF_lowerleg_v : V6 := bump RF_lowerleg_v (qd RF_KFE)
  let vcross : M6 := motionCrossProductMx RF_lowerleg_v vcross
  let RF_lowerleg_a : V6 := (m.fr_RF_lowerleg_X_fr_RF_upperleg *ᵥ RF_upperleg_a) + (fun k => (fun k => vcross k 2) k * (qd RF_KFE))
  let RF_lowerleg_a : V6 := bump RF_lowerleg_a (qdd RF_KFE)
  let RF_lowerleg_f : V6 := (i.RF_lowerleg *ᵥ RF_lowerleg_a) + (vxIv RF_lowerleg_v i.RF_lowerleg)
  let LH_hipassembly_v : V6 := m.fr_LH_hipassembly_X_fr_trunk *ᵥ trunk_v
  let LH_hipassembly_v : V6 := bump LH_hipassembly_v (qd LH_HAA)
  let vcross : M6 := motionCrossProductMx LH_hipassembly_v vcross
  let LH_hipassembly_a : V6 := fun k => (fun k => vcross k 2) k * (qd LH_HAA)
  let LH_hipassembly_a : V6 := bump LH_hipassembly_a (qdd LH_HAA)
  let LH_hipassembly_f : V6 := (i.LH_hipassembly *ᵥ LH_hipassembly_a) + (vxIv LH_hipassembly_v i.LH_hipassembly)
  let LH_upperleg_v : V6 := m.fr_LH_upperleg_X_fr_LH_hipassembly *ᵥ LH_hipassembly_v
  let LH_upperleg_v : V6 := bump LH_upperleg_v (qd LH_HFE)
  let vcross : M6 := motionCrossProductMx LH_upperleg_v vcross
  let LH_upperleg_a : V6 := (m.fr_LH_upperleg_X_fr_LH_hipassembly *ᵥ LH_hipassembly_a) + (fun k => (fun k => vcross k 2) k * (qd LH_HFE))
  let LH_upperleg_a : V6 := bump LH_upperleg_a (qdd LH_HFE)
  let LH_upperleg_f : V6 := (i.LH_upperleg *ᵥ LH_upperleg_a) + (vxIv LH_upperleg_v i.LH_upperleg)
  let LH_lowerleg_v : V6 := m.fr_LH_lowerleg_X_fr_LH_upperleg *ᵥ LH_upperleg_v
  let LH_lowerleg_v : V6 := bump LH_lowerleg_v (qd LH_KFE)
  let vcross : M6 := motionCrossProductMx LH_lowerleg_v vcross
  let LH_lowerleg_a : V6 := (m.fr_LH_lowerleg_X_fr_LH_upperleg *ᵥ LH_upperleg_a) + (fun k => (fun k => vcross k 2) k * (qd LH_KFE))
  let LH_lowerleg_a : V6 := bump LH_lowerleg_a (qdd LH_KFE)
  let LH_lowerleg_f : V6 := (i.LH_lowerleg *ᵥ LH_lowerleg_a) + (vxIv LH_lowerleg_v i.LH_lowerleg)
  let RH_hipassembly_v : V6 := m.fr_RH_hipassembly_X_fr_trunk *ᵥ trunk_v
  let RH_hipassembly_v : V6 := bump RH_hipassembly_v (qd RH_HAA)
  let vcross : M6 := motionCrossProductMx RH_hipassembly_v vcross
  let RH_hipassembly_a : V6 := fun k => (fun k => vcross k 2) k * (qd RH_HAA)
  let RH_hipassembly_a : V6 := bump RH_hipassembly_a (qdd RH_HAA)
  let RH_hipassembly_f : V6 := (i.RH_hipassembly *ᵥ RH_hipassembly_a) + (vxIv RH_hipassembly_v i.RH_hipassembly)
  let RH_upperleg_v : V6 := m.fr_RH_upperleg_X_fr_RH_hipassembly *ᵥ RH_hipassembly_v
  let RH_upperleg_v : V6 := bump RH_upperleg_v (qd RH_HFE)
  let vcross : M6 := motionCrossProductMx RH_upperleg_v vcross
  let RH_upperleg_a : V6 := (m.fr_RH_upperleg_X_fr_RH_hipassembly *ᵥ RH_hipassembly_a) + (fun k => (fun k => vcross k 2) k * (qd RH_HFE))
  let RH_upperleg_a : V6 := bump RH_upperleg_a (qdd RH_HFE)
  let RH_upperleg_f : V6 := (i.RH_upperleg *ᵥ RH_upperleg_a) + (vxIv RH_upperleg_v i.RH_upperleg)
  let RH_lowerleg_v : V6 := m.fr_RH_lowerleg_X_fr_RH_upperleg *ᵥ RH_upperleg_v
  let RH_lowerleg_v : V6 := bump RH_lowerleg_v (qd RH_KFE)
  let vcross : M6 := motionCrossProductMx RH_lowerleg_v vcross
  let RH_lowerleg_a : V6 := (m.fr_RH_lowerleg_X_fr_RH_upperleg *ᵥ RH_upperleg_a) + (fun k => (fun k => vcross k 2) k * (qd RH_KFE))
  let RH_lowerleg_a : V6 := bump RH_lowerleg_a (qdd RH_KFE)
  let RH_lowerleg_f : V6 := (i.RH_lowerleg *ᵥ RH_lowerleg_a) + (vxIv RH_lowerleg_v i.RH_lowerleg)
  let trunk_f : V6 := vxIv trunk_v i.trunk
  let trunk_f : V6 := trunk_f - (fext TRUNK)
  let LF_hipassembly_f : V6 := LF_hipassembly_f - (fext LF_HIPASSEMBLY)
  let LF_upperleg_f : V6 := LF_upperleg_f - (fext LF_UPPERLEG)
  let LF_lowerleg_f : V6 := LF_lowerleg_f - (fext LF_LOWERLEG)
  let RF_hipassembly_f : V6 := RF_hipassembly_f - (fext RF_HIPASSEMBLY)
  let RF_upperleg_f : V6 := RF_upperleg_f - (fext RF_UPPERLEG)
  let RF_lowerleg_f : V6 := RF_lowerleg_f - (fext RF_LOWERLEG)
  let LH_hipassembly_f : V6 := LH_hipassembly_f - (fext LH_HIPASSEMBLY)
  let LH_upperleg_f : V6 := LH_upperleg_f - (fext LH_UPPERLEG)
  let LH_lowerleg_f : V6 := LH_lowerleg_f - (fext LH_LOWERLEG)
  let RH_hipassembly_f : V6 := RH_hipassembly_f - (fext RH_HIPASSEMBLY)
  let RH_upperleg_f : V6 := RH_upperleg_f - (fext RH_UPPERLEG)
  let RH_lowerleg_f : V6 := RH_lowerleg_f - (fext RH_LOWERLEG)
  let RH_upperleg_Ic : M6 := Inertia.assign RH_upperleg_Ic (RH_upperleg_Ic + ((m.fr_RH_lowerleg_X_fr_RH_upperlegᵀ * i.RH_lowerleg) * m.fr_RH_lowerleg_X_fr_RH_upperleg))
  let RH_upperleg_f : V6 := RH_upperleg_f + (m.fr_RH_lowerleg_X_fr_RH_upperlegᵀ *ᵥ RH_lowerleg_f)
  let RH_hipassembly_Ic : M6 := Inertia.assign RH_hipassembly_Ic (RH_hipassembly_Ic + ((m.fr_RH_upperleg_X_fr_RH_hipassemblyᵀ * RH_upperleg_Ic) * m.fr_RH_upperleg_X_fr_RH_hipassembly))
  let RH_hipassembly_f : V6 := RH_hipassembly_f + (m.fr_RH_upperleg_X_fr_RH_hipassemblyᵀ *ᵥ RH_upperleg_f)
  let trunk_Ic : M6 := Inertia.assign trunk_Ic (trunk_Ic + ((m.fr_RH_hipassembly_X_fr_trunkᵀ * RH_hipassembly_Ic) * m.fr_RH_hipassembly_X_fr_trunk))
  let trunk_f : V6 := trunk_f + (m.fr_RH_hipassembly_X_fr_trunkᵀ *ᵥ RH_hipassembly_f)
  let LH_upperleg_Ic : M6 := Inertia.assign LH_upperleg_Ic (LH_upperleg_Ic + ((m.fr_LH_lowerleg_X_fr_LH_upperlegᵀ * i.LH_lowerleg) * m.fr_LH_lowerleg_X_fr_LH_upperleg))
  let LH_upperleg_f : V6 := LH_upperleg_f + (m.fr_LH_lowerleg_X_fr_LH_upperlegᵀ *ᵥ LH_lowerleg_f)
  let LH_hipassembly_Ic : M6 := Inertia.assign LH_hipassembly_Ic (LH_hipassembly_Ic + ((m.fr_LH_upperleg_X_fr_LH_hipassemblyᵀ * LH_upperleg_Ic) * m.fr_LH_upperleg_X_fr_LH_hipassembly))
  let LH_hipassembly_f : V6 := LH_hipassembly_f + (m.fr_LH_upperleg_X_fr_LH_hipassemblyᵀ *ᵥ LH_upperleg_f)
  let trunk_Ic : M6 := Inertia.assign trunk_Ic (trunk_Ic + ((m.fr_LH_hipassembly_X_fr_trunkᵀ * LH_hipassembly_Ic) * m.fr_LH_hipassembly_X_fr_trunk))
  let trunk_f : V6 := trunk_f + (m.fr_LH_hipassembly_X_fr_trunkᵀ *ᵥ LH_hipassembly_f)
  let RF_upperleg_Ic : M6 := Inertia.assign RF_upperleg_Ic (RF_upperleg_Ic + ((m.fr_RF_lowerleg_X_fr_RF_upperlegᵀ * i.RF_lowerleg) * m.fr_RF_lowerleg_X_fr_RF_upperleg))
  let RF_upperleg_f : V6 := RF_upperleg_f + (m.fr_RF_lowerleg_X_fr_RF_upperlegᵀ *ᵥ RF_lowerleg_f)
  let RF_hipassembly_Ic : M6 := Inertia.assign RF_hipassembly_Ic (RF_hipassembly_Ic + ((m.fr_RF_upperleg_X_fr_RF_hipassemblyᵀ * RF_upperleg_Ic) * m.fr_RF_upperleg_X_fr_RF_hipassembly))
  let RF_hipassembly_f : V6 := RF_hipassembly_f + (m.fr_RF_upperleg_X_fr_RF_hipassemblyᵀ *ᵥ RF_upperleg_f)
  let trunk_Ic : M6 := Inertia.assign trunk_Ic (trunk_Ic + ((m.fr_RF_hipassembly_X_fr_trunkᵀ * RF_hipassembly_Ic) * m.fr_RF_hipassembly_X_fr_trunk))
  let trunk_f : V6 := trunk_f + (m.fr_RF_hipassembly_X_fr_trunkᵀ *ᵥ RF_hipassembly_f)
  let LF_upperleg_Ic : M6 := Inertia.assign LF_upperleg_Ic (LF_upperleg_Ic + ((m.fr_LF_lowerleg_X_fr_LF_upperlegᵀ * i.LF_lowerleg) * m.fr_LF_lowerleg_X_fr_LF_upperleg))
  let LF_upperleg_f : V6 := LF_upperleg_f + (m.fr_LF_lowerleg_X_fr_LF_upperlegᵀ *ᵥ LF_lowerleg_f)
  let LF_hipassembly_Ic : M6 := Inertia.assign LF_hipassembly_Ic (LF_hipassembly_Ic + ((m.fr_LF_upperleg_X_fr_LF_hipassemblyᵀ * LF_upperleg_Ic) * m.fr_LF_upperleg_X_fr_LF_hipassembly))
  let LF_hipassembly_f : V6 := LF_hipassembly_f + (m.fr_LF_upperleg_X_fr_LF_hipassemblyᵀ *ᵥ LF_upperleg_f)
  let trunk_Ic : M6 := Inertia.assign trunk_Ic (trunk_Ic + ((m.fr_LF_hipassembly_X_fr_trunkᵀ * LF_hipassembly_Ic) * m.fr_LF_hipassembly_X_fr_trunk))
  let trunk_f : V6 := trunk_f + (m.fr_LF_hipassembly_X_fr_trunkᵀ *ᵥ LF_hipassembly_f)
  let trunk_a : V6 := (-trunk_Ic⁻¹) *ᵥ trunk_f
  let LF_hipassembly_a : V6 := m.fr_LF_hipassembly_X_fr_trunk *ᵥ trunk_a
  let jForces_LF_HAA : ℝ := ((LF_hipassembly_Ic 2) ⬝ᵥ LF_hipassembly_a) + (LF_hipassembly_f 2)
  let LF_upperleg_a : V6 := m.fr_LF_upperleg_X_fr_LF_hipassembly *ᵥ LF_hipassembly_a
  let jForces_LF_HFE : ℝ := ((LF_upperleg_Ic 2) ⬝ᵥ LF_upperleg_a) + (LF_upperleg_f 2)
  let LF_lowerleg_a : V6 := m.fr_LF_lowerleg_X_fr_LF_upperleg *ᵥ LF_upperleg_a
  let jForces_LF_KFE : ℝ := ((i.LF_lowerleg 2) ⬝ᵥ LF_lowerleg_a) + (LF_lowerleg_f 2)
  let RF_hipassembly_a : V6 := m.fr_RF_hipassembly_X_fr_trunk *ᵥ trunk_a
  let jForces_RF_HAA : ℝ := ((RF_hipassembly_Ic 2) ⬝ᵥ RF_hipassembly_a) + (RF_hipassembly_f 2)
  let RF_upperleg_a : V6 := m.fr_RF_upperleg_X_fr_RF_hipassembly *ᵥ RF_hipassembly_a
  let jForces_RF_HFE : ℝ := ((RF_upperleg_Ic 2) ⬝ᵥ RF_upperleg_a) + (RF_upperleg_f 2)
  let RF_lowerleg_a : V6 := m.fr_RF_lowerleg_X_fr_RF_upperleg *ᵥ RF_upperleg_a
  let jForces_RF_KFE : ℝ := ((i.RF_lowerleg 2) ⬝ᵥ RF_lowerleg_a) + (RF_lowerleg_f 2)
  let LH_hipassembly_a : V6 := m.fr_LH_hipassembly_X_fr_trunk *ᵥ trunk_a
  let jForces_LH_HAA : ℝ := ((LH_hipassembly_Ic 2) ⬝ᵥ LH_hipassembly_a) + (LH_hipassembly_f 2)
  let LH_upperleg_a : V6 := m.fr_LH_upperleg_X_fr_LH_hipassembly *ᵥ LH_hipassembly_a
  let jForces_LH_HFE : ℝ := ((LH_upperleg_Ic 2) ⬝ᵥ LH_upperleg_a) + (LH_upperleg_f 2)
  let LH_lowerleg_a : V6 := m.fr_LH_lowerleg_X_fr_LH_upperleg *ᵥ LH_upperleg_a
  let jForces_LH_KFE : ℝ := ((i.LH_lowerleg 2) ⬝ᵥ LH_lowerleg_a) + (LH_lowerleg_f 2)
  let RH_hipassembly_a : V6 := m.fr_RH_hipassembly_X_fr_trunk *ᵥ trunk_a
  let jForces_RH_HAA : ℝ := ((RH_hipassembly_Ic 2) ⬝ᵥ RH_hipassembly_a) + (RH_hipassembly_f 2)
  let RH_upperleg_a : V6 := m.fr_RH_upperleg_X_fr_RH_hipassembly *ᵥ RH_hipassembly_a
  let jForces_RH_HFE : ℝ := ((RH_upperleg_Ic 2) ⬝ᵥ RH_upperleg_a) + (RH_upperleg_f 2)
  let RH_lowerleg_a : V6 := m.fr_RH_lowerleg_X_fr_RH_upperleg *ᵥ RH_upperleg_a
  let jForces_RH_KFE : ℝ := ((i.RH_lowerleg 2) ⬝ᵥ RH_lowerleg_a) + (RH_lowerleg_f 2)
  let trunk_a : V6 := trunk_a + g
  ({ vcross := vcross }, trunk_a, ![jForces_LF_HAA, jForces_LF_HFE, jForces_LF_KFE, jForces_RF_HAA, jForces_RF_HFE, jForces_RF_KFE, jForces_LH_HAA, jForces_LH_HFE, jForces_LH_KFE, jForces_RH_HAA, jForces_RH_HFE, jForces_RH_KFE])

/-- `G_terms_fully_actuated`, with `secondPass_fullyActuated` (lines 595-633) (HyQ/generated/inverse_dynamics.impl.h:298-346). -/
noncomputable def G_terms_fully_actuated (m : MT) (i : Inertias) (g : V6) : V6 × Q :=
  let trunk_a : V6 := -g
  let LF_hipassembly_a : V6 := m.fr_LF_hipassembly_X_fr_trunk *ᵥ trunk_a
  let LF_hipassembly_f : V6 := i.LF_hipassembly *ᵥ LF_hipassembly_a
  let LF_upperleg_a : V6 := m.fr_LF_upperleg_X_fr_LF_hipassembly *ᵥ LF_hipassembly_a
  let LF_upperleg_f : V6 := i.LF_upperleg *ᵥ LF_upperleg_a
  let LF_lowerleg_a : V6 := m.fr_LF_lowerleg_X_fr_LF_upperleg *ᵥ LF_upperleg_a
  let LF_lowerleg_f : V6 := i.LF_lowerleg *ᵥ LF_lowerleg_a
  let RF_hipassembly_a : V6 := m.fr_RF_hipassembly_X_fr_trunk *ᵥ trunk_a
  let RF_hipassembly_f : V6 := i.RF_hipassembly *ᵥ RF_hipassembly_a
  let RF_upperleg_a : V6 := m.fr_RF_upperleg_X_fr_RF_hipassembly *ᵥ RF_hipassembly_a
  let RF_upperleg_f : V6 := i.RF_upperleg *ᵥ RF_upperleg_a
  let RF_lowerleg_a : V6 := m.fr_RF_lowerleg_X_fr_RF_upperleg *ᵥ RF_upperleg_a
  let RF_lowerleg_f : V6 := i.RF_lowerleg *ᵥ RF_lowerleg_a
  let LH_hipassembly_a : V6 := m.fr_LH_hipassembly_X_fr_trunk *ᵥ trunk_a
  let LH_hipassembly_f : V6 := i.LH_hipassembly *ᵥ LH_hipassembly_a
  let LH_upperleg_a : V6 := m.fr_LH_upperleg_X_fr_LH_hipassembly *ᵥ LH_hipassembly_a
  let LH_upperleg_f : V6 := i.LH_upperleg *ᵥ LH_upperleg_a
  let LH_lowerleg_a : V6 := m.fr_LH_lowerleg_X_fr_LH_upperleg *ᵥ LH_upperleg_a
  let LH_lowerleg_f : V6 := i.LH_lowerleg *ᵥ LH_lowerleg_a
  let RH_hipassembly_a : V6 := m.fr_RH_hipassembly_X_fr_trunk *ᵥ trunk_a
  let RH_hipassembly_f : V6 := i.RH_hipassembly *ᵥ RH_hipassembly_a
  let RH_upperleg_a : V6 := m.fr_RH_upperleg_X_fr_RH_hipassembly *ᵥ RH_hipassembly_a
  let RH_upperleg_f : V6 := i.RH_upperleg *ᵥ RH_upperleg_a
  let RH_lowerleg_a : V6 := m.fr_RH_lowerleg_X_fr_RH_upperleg *ᵥ RH_upperleg_a
  let RH_lowerleg_f : V6 := i.RH_lowerleg *ᵥ RH_lowerleg_a
  let trunk_f : V6 := i.trunk *ᵥ trunk_a
  let jForces_RH_KFE : ℝ := RH_lowerleg_f 2
  let RH_upperleg_f : V6 := RH_upperleg_f + (m.fr_RH_lowerleg_X_fr_RH_upperlegᵀ *ᵥ RH_lowerleg_f)
  let jForces_RH_HFE : ℝ := RH_upperleg_f 2
  let RH_hipassembly_f : V6 := RH_hipassembly_f + (m.fr_RH_upperleg_X_fr_RH_hipassemblyᵀ *ᵥ RH_upperleg_f)
  let jForces_RH_HAA : ℝ := RH_hipassembly_f 2
  let trunk_f : V6 := trunk_f + (m.fr_RH_hipassembly_X_fr_trunkᵀ *ᵥ RH_hipassembly_f)
  let jForces_LH_KFE : ℝ := LH_lowerleg_f 2
  let LH_upperleg_f : V6 := LH_upperleg_f + (m.fr_LH_lowerleg_X_fr_LH_upperlegᵀ *ᵥ LH_lowerleg_f)
  let jForces_LH_HFE : ℝ := LH_upperleg_f 2
  let LH_hipassembly_f : V6 := LH_hipassembly_f + (m.fr_LH_upperleg_X_fr_LH_hipassemblyᵀ *ᵥ LH_upperleg_f)
  let jForces_LH_HAA : ℝ := LH_hipassembly_f 2
  let trunk_f : V6 := trunk_f + (m.fr_LH_hipassembly_X_fr_trunkᵀ *ᵥ LH_hipassembly_f)
  let jForces_RF_KFE : ℝ := RF_lowerleg_f 2
  let RF_upperleg_f : V6 := RF_upperleg_f + (m.fr_RF_lowerleg_X_fr_RF_upperlegᵀ *ᵥ RF_lowerleg_f)
  let jForces_RF_HFE : ℝ := RF_upperleg_f 2
  let RF_hipassembly_f : V6 := RF_hipassembly_f + (m.fr_RF_upperleg_X_fr_RF_hipassemblyᵀ *ᵥ RF_upperleg_f)
  let jForces_RF_HAA : ℝ := RF_hipassembly_f 2
  let trunk_f : V6 := trunk_f + (m.fr_RF_hipassembly_X_fr_trunkᵀ *ᵥ RF_hipassembly_f)
  let jForces_LF_KFE : ℝ := LF_lowerleg_f 2
  let LF_upperleg_f : V6 := LF_upperleg_f + (m.fr_LF_lowerleg_X_fr_LF_upperlegᵀ *ᵥ LF_lowerleg_f)
  let jForces_LF_HFE : ℝ := LF_upperleg_f 2
  let LF_hipassembly_f : V6 := LF_hipassembly_f + (m.fr_LF_upperleg_X_fr_LF_hipassemblyᵀ *ᵥ LF_upperleg_f)
  let jForces_LF_HAA : ℝ := LF_hipassembly_f 2
  let trunk_f : V6 := trunk_f + (m.fr_LF_hipassembly_X_fr_trunkᵀ *ᵥ LF_hipassembly_f)
  let baseWrench : V6 := trunk_f
  (baseWrench, ![jForces_LF_HAA, jForces_LF_HFE, jForces_LF_KFE, jForces_RF_HAA, jForces_RF_HFE, jForces_RF_KFE, jForces_LH_HAA, jForces_LH_HFE, jForces_LH_KFE, jForces_RH_HAA, jForces_RH_HFE, jForces_RH_KFE])

/-- `C_terms_fully_actuated`, with `secondPass_fullyActuated` (lines 595-633) (HyQ/generated/inverse_dynamics.impl.h:349-443). -/
noncomputable def C_terms_fully_actuated (s : IDState) (m : MT) (i : Inertias) (trunk_v : V6) (qd : Q) : IDState × V6 × Q :=
  let vcross := s.vcross
  let LF_hipassembly_v : V6 := m.fr_LF_hipassembly_X_fr_trunk *ᵥ trunk_v
  let LF_hipassembly_v : V6 := bump LF_hipassembly_v (qd LF_HAA)
  let vcross : M6 := motionCrossProductMx LF_hipassembly_v vcross
  let LF_hipassembly_a : V6 := fun k => (fun k => vcross k 2) k * (qd LF_HAA)
  let LF_hipassembly_f : V6 := (i.LF_hipassembly *ᵥ LF_hipassembly_a) + (vxIv LF_hipassembly_v i.LF_hipassembly)
  let LF_upperleg_v : V6 := m.fr_LF_upperleg_X_fr_LF_hipassembly *ᵥ LF_hipassembly_v
  let LF_upperleg_v : V6 := bump LF_upperleg_v (qd LF_HFE)
  let vcross : M6 := motionCrossProductMx LF_upperleg_v vcross
  let LF_upperleg_a : V6 := (m.fr_LF_upperleg_X_fr_LF_hipassembly *ᵥ LF_hipassembly_a) + (fun k => (fun k => vcross k 2) k * (qd LF_HFE))
  let LF_upperleg_f : V6 := (i.LF_upperleg *ᵥ LF_upperleg_a) + (vxIv LF_upperleg_v i.LF_upperleg)
  let LF_lowerleg_v : V6 := m.fr_LF_lowerleg_X_fr_LF_upperleg *ᵥ LF_upperleg_v
  let LF_lowerleg_v : V6 := bump LF_lowerleg_v (qd LF_KFE)
  let vcross : M6 := motionCrossProductMx LF_lowerleg_v vcross
  let LF_lowerleg_a : V6 := (m.fr_LF_lowerleg_X_fr_LF_upperleg *ᵥ LF_upperleg_a) + (fun k => (fun k => vcross k 2) k * (qd LF_KFE))
  let LF_lowerleg_f : V6 := (i.LF_lowerleg *ᵥ LF_lowerleg_a) + (vxIv LF_lowerleg_v i.LF_lowerleg)
  let RF_hipassembly_v : V6 := m.fr_RF_hipassembly_X_fr_trunk *ᵥ trunk_v
  let RF_hipassembly_v : V6 := bump RF_hipassembly_v (qd RF_HAA)
  let vcross : M6 := motionCrossProductMx RF_hipassembly_v vcross
  let RF_hipassembly_a : V6 := fun k => (fun k => vcross k 2) k * (qd RF_HAA)
  let RF_hipassembly_f : V6 := (i.RF_hipassembly *ᵥ RF_hipassembly_a) + (vxIv RF_hipassembly_v i.RF_hipassembly)
  let RF_upperleg_v : V6 := m.fr_RF_upperleg_X_fr_RF_hipassembly *ᵥ RF_hipassembly_v
  let RF_upperleg_v : V6 := bump RF_upperleg_v (qd RF_HFE)
  let vcross : M6 := motionCrossProductMx RF_upperleg_v vcross
  let RF_upperleg_a : V6 := (m.fr_RF_upperleg_X_fr_RF_hipassembly *ᵥ RF_hipassembly_a) + (fun k => (fun k => vcross k 2) k * (qd RF_HFE))
  let RF_upperleg_f : V6 := (i.RF_upperleg *ᵥ RF_upperleg_a) + (vxIv RF_upperleg_v i.RF_upperleg)
  let RF_lowerleg_v : V6 := m.fr_RF_lowerleg_X_fr_RF_upperleg *ᵥ RF_upperleg_v
  let RF_lowerleg_v : V6 := bump RF_lowerleg_v (qd RF_KFE)
  let vcross : M6 := motionCrossProductMx RF_lowerleg_v vcross
  let RF_lowerleg_a : V6 := (m.fr_RF_lowerleg_X_fr_RF_upperleg *ᵥ RF_upperleg_a) + (fun k => (fun k => vcross k 2) k * (qd RF_KFE))
  let RF_lowerleg_f : V6 := (i.RF_lowerleg *ᵥ RF_lowerleg_a) + (vxIv RF_lowerleg_v i.RF_lowerleg)
  let LH_hipassembly_v : V6 := m.fr_LH_hipassembly_X_fr_trunk *ᵥ trunk_v
  let LH_hipassembly_v : V6 := bump LH_hipassembly_v (qd LH_HAA)
  let vcross : M6 := motionCrossProductMx LH_hipassembly_v vcross
  let LH_hipassembly_a : V6 := fun k => (fun k => vcross k 2) k * (qd LH_HAA)
  let LH_hipassembly_f : V6 := (i.LH_hipassembly *ᵥ LH_hipassembly_a) + (vxIv LH_hipassembly_v i.LH_hipassembly)
  let LH_upperleg_v : V6 := m.fr_LH_upperleg_X_fr_LH_hipassembly *ᵥ LH_hipassembly_v
  let LH_upperleg_v : V6 := bump LH_upperleg_v (qd LH_HFE)
  let vcross : M6 := motionCrossProductMx LH_upperleg_v vcross
  let LH_upperleg_a : V6 := (m.fr_LH_upperleg_X_fr_LH_hipassembly *ᵥ LH_hipassembly_a) + (fun k => (fun k => vcross k 2) k * (qd LH_HFE))
  let LH_upperleg_f : V6 := (i.LH_upperleg *ᵥ LH_upperleg_a) + (vxIv LH_upperleg_v i.LH_upperleg)
  let LH_lowerleg_v : V6 := m.fr_LH_lowerleg_X_fr_LH_upperleg *ᵥ LH_upperleg_v
  let LH_lowerleg_v : V6 := bump LH_lowerleg_v (qd LH_KFE)
  let vcross : M6 := motionCrossProductMx LH_lowerleg_v vcross
  let LH_lowerleg_a : V6 := (m.fr_LH_lowerleg_X_fr_LH_upperleg *ᵥ LH_upperleg_a) + (fun k => (fun k => vcross k 2) k * (qd LH_KFE))
  let LH_lowerleg_f : V6 := (i.LH_lowerleg *ᵥ LH_lowerleg_a) + (vxIv LH_lowerleg_v i.LH_lowerleg)
  let RH_hipassembly_v : V6 := m.fr_RH_hipassembly_X_fr_trunk *ᵥ trunk_v
  let RH_hipassembly_v : V6 := bump RH_hipassembly_v (qd RH_HAA)
  let vcross : M6 := motionCrossProductMx RH_hipassembly_v vcross
  let RH_hipassembly_a : V6 := fun k => (fun k => vcross k 2) k * (qd RH_HAA)
  let RH_hipassembly_f : V6 := (i.RH_hipassembly *ᵥ RH_hipassembly_a) + (vxIv RH_hipassembly_v i.RH_hipassembly)
  let RH_upperleg_v : V6 := m.fr_RH_upperleg_X_fr_RH_hipassembly *ᵥ RH_hipassembly_v
  let RH_upperleg_v : V6 := bump RH_upperleg_v (qd RH_HFE)
  let vcross : M6 := motionCrossProductMx RH_upperleg_v vcross
  let RH_upperleg_a : V6 := (m.fr_RH_upperleg_X_fr_RH_hipassembly *ᵥ RH_hipassembly_a) + (fun k => (fun k => vcross k 2) k * (qd RH_HFE))
  let RH_upperleg_f : V6 := (i.RH_upperleg *ᵥ RH_upperleg_a) + (vxIv RH_upperleg_v i.RH_upperleg)
  let RH_lowerleg_v : V6 := m.fr_RH_lowerleg_X_fr_RH_upperleg *ᵥ RH_upperleg_v
  let RH_lowerleg_v : V6 := bump RH_lowerleg_v (qd RH_KFE)
  let vcross : M6 := motionCrossProductMx RH_lowerleg_v vcross
  let RH_lowerleg_a : V6 := (m.fr_RH_lowerleg_X_fr_RH_upperleg *ᵥ RH_upperleg_a) + (fun k => (fun k => vcross k 2) k * (qd RH_KFE))
  let RH_lowerleg_f : V6 := (i.RH_lowerleg *ᵥ RH_lowerleg_a) + (vxIv RH_lowerleg_v i.RH_lowerleg)
  let trunk_f : V6 := vxIv trunk_v i.trunk
  let jForces_RH_KFE : ℝ := RH_lowerleg_f 2
  let RH_upperleg_f : V6 := RH_upperleg_f + (m.fr_RH_lowerleg_X_fr_RH_upperlegᵀ *ᵥ RH_lowerleg_f)
  let jForces_RH_HFE : ℝ := RH_upperleg_f 2
  let RH_hipassembly_f : V6 := RH_hipassembly_f + (m.fr_RH_upperleg_X_fr_RH_hipassemblyᵀ *ᵥ RH_upperleg_f)
  let jForces_RH_HAA : ℝ := RH_hipassembly_f 2
  let trunk_f : V6 := trunk_f + (m.fr_RH_hipassembly_X_fr_trunkᵀ *ᵥ RH_hipassembly_f)
  let jForces_LH_KFE : ℝ := LH_lowerleg_f 2
  let LH_upperleg_f : V6 := LH_upperleg_f + (m.fr_LH_lowerleg_X_fr_LH_upperlegᵀ *ᵥ LH_lowerleg_f)
  let jForces_LH_HFE : ℝ := LH_upperleg_f 2
  let LH_hipassembly_f : V6 := LH_hipassembly_f + (m.fr_LH_upperleg_X_fr_LH_hipassemblyᵀ *ᵥ LH_upperleg_f)
  let jForces_LH_HAA : ℝ := LH_hipassembly_f 2
  let trunk_f : V6 := trunk_f + (m.fr_LH_hipassembly_X_fr_trunkᵀ *ᵥ LH_hipassembly_f)
  let jForces_RF_KFE : ℝ := RF_lowerleg_f 2
  let RF_upperleg_f : V6 := RF_upperleg_f + (m.fr_RF_lowerleg_X_fr_RF_upperlegᵀ *ᵥ RF_lowerleg_f)
  let jForces_RF_HFE : ℝ := RF_upperleg_f 2
  let RF_hipassembly_f : V6 := RF_hipassembly_f + (m.fr_RF_upperleg_X_fr_RF_hipassemblyᵀ *ᵥ RF_upperleg_f)
  let jForces_RF_HAA : ℝ := RF_hipassembly_f 2
  let trunk_f : V6 := trunk_f + (m.fr_RF_hipassembly_X_fr_trunkᵀ *ᵥ RF_hipassembly_f)
  let jForces_LF_KFE : ℝ := LF_lowerleg_f 2
  let LF_upperleg_f : V6 := LF_upperleg_f + (m.fr_LF_lowerleg_X_fr_LF_upperlegᵀ *ᵥ LF_lowerleg_f)
  let jForces_LF_HFE : ℝ := LF_upperleg_f 2
  let LF_hipassembly_f : V6 := LF_hipassembly_f + (m.fr_LF_upperleg_X_fr_LF_hipassemblyᵀ *ᵥ LF_upperleg_f)
  let jForces_LF_HAA : ℝ := LF_hipassembly_f 2
  let trunk_f : V6 := trunk_f + (m.fr_LF_hipassembly_X_fr_trunkᵀ *ᵥ LF_hipassembly_f)
  let baseWrench : V6 := trunk_f
  ({ vcross := vcross }, baseWrench, ![jForces_LF_HAA, jForces_LF_HFE, jForces_LF_KFE, jForces_RF_HAA, jForces_RF_HFE, jForces_RF_KFE, jForces_LH_HAA, jForces_LH_HFE, jForces_LH_KFE, jForces_RH_HAA, jForces_RH_HFE, jForces_RH_KFE])

/-- `id_fully_actuated`, with `secondPass_fullyActuated` (lines 595-633) (HyQ/generated/inverse_dynamics.impl.h:446-592). -/
noncomputable def id_fully_actuated (s : IDState) (m : MT) (i : Inertias) (g trunk_v baseAccel : V6) (qd qdd : Q) (fext : Ext) : IDState × V6 × Q :=
  let vcross := s.vcross
  let trunk_a : V6 := baseAccel - g
  let LF_hipassembly_v : V6 := m.fr_LF_hipassembly_X_fr_trunk *ᵥ trunk_v
  let LF_hipassembly_v : V6 := bump LF_hipassembly_v (qd LF_HAA)
  let vcross : M6 := motionCrossProductMx LF_hipassembly_v vcross
  let LF_hipassembly_a : V6 := (m.fr_LF_hipassembly_X_fr_trunk *ᵥ trunk_a) + (fun k => (fun k => vcross k 2) k * (qd LF_HAA))
  let LF_hipassembly_a : V6 := bump LF_hipassembly_a (qdd LF_HAA)
  let LF_hipassembly_f : V6 := ((i.LF_hipassembly *ᵥ LF_hipassembly_a) + (vxIv LF_hipassembly_v i.LF_hipassembly)) - (fext LF_HIPASSEMBLY)
  let LF_upperleg_v : V6 := m.fr_LF_upperleg_X_fr_LF_hipassembly *ᵥ LF_hipassembly_v
  let LF_upperleg_v : V6 := bump LF_upperleg_v (qd LF_HFE)
  let vcross : M6 := motionCrossProductMx LF_upperleg_v vcross
  let LF_upperleg_a : V6 := (m.fr_LF_upperleg_X_fr_LF_hipassembly *ᵥ LF_hipassembly_a) + (fun k => (fun k => vcross k 2) k * (qd LF_HFE))
  let LF_upperleg_a : V6 := bump LF_upperleg_a (qdd LF_HFE)
  let LF_upperleg_f : V6 := ((i.LF_upperleg *ᵥ LF_upperleg_a) + (vxIv LF_upperleg_v i.LF_upperleg)) - (fext LF_UPPERLEG)
  let LF_lowerleg_v : V6 := m.fr_LF_lowerleg_X_fr_LF_upperleg *ᵥ LF_upperleg_v
  let LF_lowerleg_v : V6 := bump LF_lowerleg_v (qd LF_KFE)
  let vcross : M6 := motionCrossProductMx LF_lowerleg_v vcross
  let LF_lowerleg_a : V6 := (m.fr_LF_lowerleg_X_fr_LF_upperleg *ᵥ LF_upperleg_a) + (fun k => (fun k => vcross k 2) k * (qd LF_KFE))
  let LF_lowerleg_a : V6 := bump LF_lowerleg_a (qdd LF_KFE)
  let LF_lowerleg_f : V6 := ((i.LF_lowerleg *ᵥ LF_lowerleg_a) + (vxIv LF_lowerleg_v i.LF_lowerleg)) - (fext LF_LOWERLEG)
  let RF_hipassembly_v : V6 := m.fr_RF_hipassembly_X_fr_trunk *ᵥ trunk_v
  let RF_hipassembly_v : V6 := bump RF_hipassembly_v (qd RF_HAA)
  let vcross : M6 := motionCrossProductMx RF_hipassembly_v vcross
  let RF_hipassembly_a : V6 := (m.fr_RF_hipassembly_X_fr_trunk *ᵥ trunk_a) + (fun k => (fun k => vcross k 2) k * (qd RF_HAA))
  let RF_hipassembly_a : V6 := bump RF_hipassembly_a (qdd RF_HAA)
  let RF_hipassembly_f : V6 := ((i.RF_hipassembly *ᵥ RF_hipassembly_a) + (vxIv RF_hipassembly_v i.RF_hipassembly)) - (fext RF_HIPASSEMBLY)
  let RF_upperleg_v : V6 := m.fr_RF_upperleg_X_fr_RF_hipassembly *ᵥ RF_hipassembly_v
  let RF_upperleg_v : V6 := bump RF_upperleg_v (qd RF_HFE)
  let vcross : M6 := motionCrossProductMx RF_upperleg_v vcross
  let RF_upperleg_a : V6 := (m.fr_RF_upperleg_X_fr_RF_hipassembly *ᵥ RF_hipassembly_a) + (fun k => (fun k => vcross k 2) k * (qd RF_HFE))
  let RF_upperleg_a : V6 := bump RF_upperleg_a (qdd RF_HFE)
  let RF_upperleg_f : V6 := ((i.RF_upperleg *ᵥ RF_upperleg_a) + (vxIv RF_upperleg_v i.RF_upperleg)) - (fext RF_UPPERLEG)
  let RF_lowerleg_v : V6 := m.fr_RF_lowerleg_X_fr_RF_upperleg *ᵥ RF_upperleg_v
  let RF_lowerleg_v : V6 := bump RF_lowerleg_v (qd RF_KFE)
  let vcross : M6 := motionCrossProductMx RF_lowerleg_v vcross
  let RF_lowerleg_a : V6 := (m.fr_RF_lowerleg_X_fr_RF_upperleg *ᵥ RF_upperleg_a) + (fun k => (fun k => vcross k 2) k * (qd RF_KFE))
  let RF_lowerleg_a : V6 := bump RF_lowerleg_a (qdd RF_KFE)
  let RF_lowerleg_f : V6 := ((i.RF_lowerleg *ᵥ RF_lowerleg_a) + (vxIv RF_lowerleg_v i.RF_lowerleg)) - (fext RF_LOWERLEG)
  let LH_hipassembly_v : V6 := m.fr_LH_hipassembly_X_fr_trunk *ᵥ trunk_v
  let LH_hipassembly_v : V6 := bump LH_hipassembly_v (qd LH_HAA)
  let vcross : M6 := motionCrossProductMx LH_hipassembly_v vcross
  let LH_hipassembly_a : V6 := (m.fr_LH_hipassembly_X_fr_trunk *ᵥ trunk_a) + (fun k => (fun k => vcross k 2) k * (qd LH_HAA))
  let LH_hipassembly_a : V6 := bump LH_hipassembly_a (qdd LH_HAA)
  let LH_hipassembly_f : V6 := ((i.LH_hipassembly *ᵥ LH_hipassembly_a) + (vxIv LH_hipassembly_v i.LH_hipassembly)) - (fext LH_HIPASSEMBLY)
  let LH_upperleg_v : V6 := m.fr_LH_upperleg_X_fr_LH_hipassembly *ᵥ LH_hipassembly_v
  let LH_upperleg_v : V6 := bump LH_upperleg_v (qd LH_HFE)
  let vcross : M6 := motionCrossProductMx LH_upperleg_v vcross
  let LH_upperleg_a : V6 := (m.fr_LH_upperleg_X_fr_LH_hipassembly *ᵥ LH_hipassembly_a) + (fun k => (fun k => vcross k 2) k * (qd LH_HFE))
  let LH_upperleg_a : V6 := bump LH_upperleg_a (qdd LH_HFE)
  let LH_upperleg_f : V6 := ((i.LH_upperleg *ᵥ LH_upperleg_a) + (vxIv LH_upperleg_v i.LH_upperleg)) - (fext LH_UPPERLEG)
  let LH_lowerleg_v : V6 := m.fr_LH_lowerleg_X_fr_LH_upperleg *ᵥ LH_upperleg_v
  let LH_lowerleg_v : V6 := bump LH_lowerleg_v (qd LH_KFE)
  let vcross : M6 := motionCrossProductMx LH_lowerleg_v vcross
  let LH_lowerleg_a : V6 := (m.fr_LH_lowerleg_X_fr_LH_upperleg *ᵥ LH_upperleg_a) + (fun k => (fun k => vcross k 2) k * (qd LH_KFE))
  let LH_lowerleg_a : V6 := bump LH_lowerleg_a (qdd LH_KFE)
  let LH_lowerleg_f : V6 := ((i.LH_lowerleg *ᵥ LH_lowerleg_a) + (vxIv LH_lowerleg_v i.LH_lowerleg)) - (fext LH_LOWERLEG)
  let RH_hipassembly_v : V6 := m.fr_RH_hipassembly_X_fr_trunk *ᵥ trunk_v
  let RH_hipassembly_v : V6 := bump RH_hipassembly_v (qd RH_HAA)
  let vcross : M6 := motionCrossProductMx RH_hipassembly_v vcross
  let RH_hipassembly_a : V6 := (m.fr_RH_hipassembly_X_fr_trunk *ᵥ trunk_a) + (fun k => (fun k => vcross k 2) k * (qd RH_HAA))
  let RH_hipassembly_a : V6 := bump RH_hipassembly_a (qdd RH_HAA)
  let RH_hipassembly_f : V6 := ((i.RH_hipassembly *ᵥ RH_hipassembly_a) + (vxIv RH_hipassembly_v i.RH_hipassembly)) - (fext RH_HIPASSEMBLY)
  let RH_upperleg_v : V6 := m.fr_RH_upperleg_X_fr_RH_hipassembly *ᵥ RH_hipassembly_v
  let RH_upperleg_v : V6 := bump RH_upperleg_v (qd RH_HFE)
  let vcross : M6 := motionCrossProductMx RH_upperleg_v vcross
  let RH_upperleg_a : V6 := (m.fr_RH_upperleg_X_fr_RH_hipassembly *ᵥ RH_hipassembly_a) + (fun k => (fun k => vcross k 2) k * (qd RH_HFE))
  let RH_upperleg_a : V6 := bump RH_upperleg_a (qdd RH_HFE)
  let RH_upperleg_f : V6 := ((i.RH_upperleg *ᵥ RH_upperleg_a) + (vxIv RH_upperleg_v i.RH_upperleg)) - (fext RH_UPPERLEG)
  let RH_lowerleg_v : V6 := m.fr_RH_lowerleg_X_fr_RH_upperleg *ᵥ RH_upperleg_v
  let RH_lowerleg_v : V6 := bump RH_lowerleg_v (qd RH_KFE)
  let vcross : M6 := motionCrossProductMx RH_lowerleg_v vcross
  let RH_lowerleg_a : V6 := (m.fr_RH_lowerleg_X_fr_RH_upperleg *ᵥ RH_upperleg_a) + (fun k => (fun k => vcross k 2) k * (qd RH_KFE))
  let RH_lowerleg_a : V6 := bump RH_lowerleg_a (qdd RH_KFE)
  let RH_lowerleg_f : V6 := ((i.RH_lowerleg *ᵥ RH_lowerleg_a) + (vxIv RH_lowerleg_v i.RH_lowerleg)) - (fext RH_LOWERLEG)
  let trunk_f : V6 := ((i.trunk *ᵥ trunk_a) + (vxIv trunk_v i.trunk)) - (fext TRUNK)
  let jForces_RH_KFE : ℝ := RH_lowerleg_f 2
  let RH_upperleg_f : V6 := RH_upperleg_f + (m.fr_RH_lowerleg_X_fr_RH_upperlegᵀ *ᵥ RH_lowerleg_f)
  let jForces_RH_HFE : ℝ := RH_upperleg_f 2
  let RH_hipassembly_f : V6 := RH_hipassembly_f + (m.fr_RH_upperleg_X_fr_RH_hipassemblyᵀ *ᵥ RH_upperleg_f)
  let jForces_RH_HAA : ℝ := RH_hipassembly_f 2
  let trunk_f : V6 := trunk_f + (m.fr_RH_hipassembly_X_fr_trunkᵀ *ᵥ RH_hipassembly_f)
  let jForces_LH_KFE : ℝ := LH_lowerleg_f 2
  let LH_upperleg_f : V6 := LH_upperleg_f + (m.fr_LH_lowerleg_X_fr_LH_upperlegᵀ *ᵥ LH_lowerleg_f)
  let jForces_LH_HFE : ℝ := LH_upperleg_f 2
  let LH_hipassembly_f : V6 := LH_hipassembly_f + (m.fr_LH_upperleg_X_fr_LH_hipassemblyᵀ *ᵥ LH_upperleg_f)
  let jForces_LH_HAA : ℝ := LH_hipassembly_f 2
  let trunk_f : V6 := trunk_f + (m.fr_LH_hipassembly_X_fr_trunkᵀ *ᵥ LH_hipassembly_f)
  let jForces_RF_KFE : ℝ := RF_lowerleg_f 2
  let RF_upperleg_f : V6 := RF_upperleg_f + (m.fr_RF_lowerleg_X_fr_RF_upperlegᵀ *ᵥ RF_lowerleg_f)
  let jForces_RF_HFE : ℝ := RF_upperleg_f 2
  let RF_hipassembly_f : V6 := RF_hipassembly_f + (m.fr_RF_upperleg_X_fr_RF_hipassemblyᵀ *ᵥ RF_upperleg_f)
  let jForces_RF_HAA : ℝ := RF_hipassembly_f 2
  let trunk_f : V6 := trunk_f + (m.fr_RF_hipassembly_X_fr_trunkᵀ *ᵥ RF_hipassembly_f)
  let jForces_LF_KFE : ℝ := LF_lowerleg_f 2
  let LF_upperleg_f : V6 := LF_upperleg_f + (m.fr_LF_lowerleg_X_fr_LF_upperlegᵀ *ᵥ LF_lowerleg_f)
  let jForces_LF_HFE : ℝ := LF_upperleg_f 2
  let LF_hipassembly_f : V6 := LF_hipassembly_f + (m.fr_LF_upperleg_X_fr_LF_hipassemblyᵀ *ᵥ LF_upperleg_f)
  let jForces_LF_HAA : ℝ := LF_hipassembly_f 2
  let trunk_f : V6 := trunk_f + (m.fr_LF_hipassembly_X_fr_trunkᵀ *ᵥ LF_hipassembly_f)
  let baseWrench : V6 := trunk_f
  ({ vcross := vcross }, baseWrench, ![jForces_LF_HAA, jForces_LF_HFE, jForces_LF_KFE, jForces_RF_HAA, jForces_RF_HFE, jForces_RF_KFE, jForces_LH_HAA, jForces_LH_HFE, jForces_LH_KFE, jForces_RH_HAA, jForces_RH_HFE, jForces_RH_KFE])

/-! ### Joint space inertia matrix -/

/-- `JSIM::update` after the transforms are up to date; `M` is the matrix before and `Ic_spare`
the member of that name.  Row `inl i` of the model is row `i` of the code and
row `inr j` is row `6 + j` (HyQ/generated/jsim.impl.h:22-200). -/
noncomputable def jsim (M : Matrix (Fin 6 ⊕ Fin 12) (Fin 6 ⊕ Fin 12) ℝ) (Ic_spare : M6) (ft : FT) (i : Inertias) : M6 × Matrix (Fin 6 ⊕ Fin 12) (Fin 6 ⊕ Fin 12) ℝ :=
  let trunk_Ic : M6 := i.trunk
  let LF_hipassembly_Ic : M6 := i.LF_hipassembly
  let LF_upperleg_Ic : M6 := i.LF_upperleg
  let RF_hipassembly_Ic : M6 := i.RF_hipassembly
  let RF_upperleg_Ic : M6 := i.RF_upperleg
  let LH_hipassembly_Ic : M6 := i.LH_hipassembly
  let LH_upperleg_Ic : M6 := i.LH_upperleg
  let RH_hipassembly_Ic : M6 := i.RH_hipassembly
  let RH_upperleg_Ic : M6 := i.RH_upperleg
  let Ic_spare : M6 := transformInertia i.RH_lowerleg ft.fr_RH_upperleg_X_fr_RH_lowerleg Ic_spare
  let RH_upperleg_Ic : M6 := Inertia.addAssign RH_upperleg_Ic Ic_spare
  let F_RH_KFE : V6 := fun k => i.RH_lowerleg k 2
  let DATA_RH_KFE_RH_KFE : ℝ := F_RH_KFE 2
  let F_RH_KFE : V6 := ft.fr_RH_upperleg_X_fr_RH_lowerleg *ᵥ F_RH_KFE
  let DATA_RH_KFE_RH_HFE : ℝ := F_RH_KFE 2
  let DATA_RH_HFE_RH_KFE : ℝ := DATA_RH_KFE_RH_HFE
  let F_RH_KFE : V6 := ft.fr_RH_hipassembly_X_fr_RH_upperleg *ᵥ F_RH_KFE
  let DATA_RH_KFE_RH_HAA : ℝ := F_RH_KFE 2
  let DATA_RH_HAA_RH_KFE : ℝ := DATA_RH_KFE_RH_HAA
  let F_RH_KFE : V6 := ft.fr_trunk_X_fr_RH_hipassembly *ᵥ F_RH_KFE
  let Ic_spare : M6 := transformInertia RH_upperleg_Ic ft.fr_RH_hipassembly_X_fr_RH_upperleg Ic_spare
  let RH_hipassembly_Ic : M6 := Inertia.addAssign RH_hipassembly_Ic Ic_spare
  let F_RH_HFE : V6 := fun k => RH_upperleg_Ic k 2
  let DATA_RH_HFE_RH_HFE : ℝ := F_RH_HFE 2
  let F_RH_HFE : V6 := ft.fr_RH_hipassembly_X_fr_RH_upperleg *ᵥ F_RH_HFE
  let DATA_RH_HFE_RH_HAA : ℝ := F_RH_HFE 2
  let DATA_RH_HAA_RH_HFE : ℝ := DATA_RH_HFE_RH_HAA
  let F_RH_HFE : V6 := ft.fr_trunk_X_fr_RH_hipassembly *ᵥ F_RH_HFE
  let Ic_spare : M6 := transformInertia RH_hipassembly_Ic ft.fr_trunk_X_fr_RH_hipassembly Ic_spare
  let trunk_Ic : M6 := Inertia.addAssign trunk_Ic Ic_spare
  let F_RH_HAA : V6 := fun k => RH_hipassembly_Ic k 2
  let DATA_RH_HAA_RH_HAA : ℝ := F_RH_HAA 2
  let F_RH_HAA : V6 := ft.fr_trunk_X_fr_RH_hipassembly *ᵥ F_RH_HAA
  let Ic_spare : M6 := transformInertia i.LH_lowerleg ft.fr_LH_upperleg_X_fr_LH_lowerleg Ic_spare
  let LH_upperleg_Ic : M6 := Inertia.addAssign LH_upperleg_Ic Ic_spare
  let F_LH_KFE : V6 := fun k => i.LH_lowerleg k 2
  let DATA_LH_KFE_LH_KFE : ℝ := F_LH_KFE 2
  let F_LH_KFE : V6 := ft.fr_LH_upperleg_X_fr_LH_lowerleg *ᵥ F_LH_KFE
  let DATA_LH_KFE_LH_HFE : ℝ := F_LH_KFE 2
  let DATA_LH_HFE_LH_KFE : ℝ := DATA_LH_KFE_LH_HFE
  let F_LH_KFE : V6 := ft.fr_LH_hipassembly_X_fr_LH_upperleg *ᵥ F_LH_KFE
  let DATA_LH_KFE_LH_HAA : ℝ := F_LH_KFE 2
  let DATA_LH_HAA_LH_KFE : ℝ := DATA_LH_KFE_LH_HAA
  let F_LH_KFE : V6 := ft.fr_trunk_X_fr_LH_hipassembly *ᵥ F_LH_KFE
  let Ic_spare : M6 := transformInertia LH_upperleg_Ic ft.fr_LH_hipassembly_X_fr_LH_upperleg Ic_spare
  let LH_hipassembly_Ic : M6 := Inertia.addAssign LH_hipassembly_Ic Ic_spare
  let F_LH_HFE : V6 := fun k => LH_upperleg_Ic k 2
  let DATA_LH_HFE_LH_HFE : ℝ := F_LH_HFE 2
  let F_LH_HFE : V6 := ft.fr_LH_hipassembly_X_fr_LH_upperleg *ᵥ F_LH_HFE
  let DATA_LH_HFE_LH_HAA : ℝ := F_LH_HFE 2
  let DATA_LH_HAA_LH_HFE : ℝ := DATA_LH_HFE_LH_HAA
  let F_LH_HFE : V6 := ft.fr_trunk_X_fr_LH_hipassembly *ᵥ F_LH_HFE
  let Ic_spare : M6 := transformInertia LH_hipassembly_Ic ft.fr_trunk_X_fr_LH_hipassembly Ic_spare
  let trunk_Ic : M6 := Inertia.addAssign trunk_Ic Ic_spare
  let F_LH_HAA : V6 := fun k => LH_hipassembly_Ic k 2
  let DATA_LH_HAA_LH_HAA : ℝ := F_LH_HAA 2
  let F_LH_HAA : V6 := ft.fr_trunk_X_fr_LH_hipassembly *ᵥ F_LH_HAA
  let Ic_spare : M6 := transformInertia i.RF_lowerleg ft.fr_RF_upperleg_X_fr_RF_lowerleg Ic_spare
  let RF_upperleg_Ic : M6 := Inertia.addAssign RF_upperleg_Ic Ic_spare
  let F_RF_KFE : V6 := fun k => i.RF_lowerleg k 2
  let DATA_RF_KFE_RF_KFE : ℝ := F_RF_KFE 2
  let F_RF_KFE : V6 := ft.fr_RF_upperleg_X_fr_RF_lowerleg *ᵥ F_RF_KFE
  let DATA_RF_KFE_RF_HFE : ℝ := F_RF_KFE 2
  let DATA_RF_HFE_RF_KFE : ℝ := DATA_RF_KFE_RF_HFE
  let F_RF_KFE : V6 := ft.fr_RF_hipassembly_X_fr_RF_upperleg *ᵥ F_RF_KFE
  let DATA_RF_KFE_RF_HAA : ℝ := F_RF_KFE 2
  let DATA_RF_HAA_RF_KFE : ℝ := DATA_RF_KFE_RF_HAA
  let F_RF_KFE : V6 := ft.fr_trunk_X_fr_RF_hipassembly *ᵥ F_RF_KFE
  let Ic_spare : M6 := transformInertia RF_upperleg_Ic ft.fr_RF_hipassembly_X_fr_RF_upperleg Ic_spare
  let RF_hipassembly_Ic : M6 := Inertia.addAssign RF_hipassembly_Ic Ic_spare
  let F_RF_HFE : V6 := fun k => RF_upperleg_Ic k 2
  let DATA_RF_HFE_RF_HFE : ℝ := F_RF_HFE 2
  let F_RF_HFE : V6 := ft.fr_RF_hipassembly_X_fr_RF_upperleg *ᵥ F_RF_HFE
  let DATA_RF_HFE_RF_HAA : ℝ := F_RF_HFE 2
  let DATA_RF_HAA_RF_HFE : ℝ := DATA_RF_HFE_RF_HAA
  let F_RF_HFE : V6 := ft.fr_trunk_X_fr_RF_hipassembly *ᵥ F_RF_HFE
  let Ic_spare : M6 := transformInertia RF_hipassembly_Ic ft.fr_trunk_X_fr_RF_hipassembly Ic_spare
  let trunk_Ic : M6 := Inertia.addAssign trunk_Ic Ic_spare
  let F_RF_HAA : V6 := fun k => RF_hipassembly_Ic k 2
  let DATA_RF_HAA_RF_HAA : ℝ := F_RF_HAA 2
  let F_RF_HAA : V6 := ft.fr_trunk_X_fr_RF_hipassembly *ᵥ F_RF_HAA
  let Ic_spare : M6 := transformInertia i.LF_lowerleg ft.fr_LF_upperleg_X_fr_LF_lowerleg Ic_spare
  let LF_upperleg_Ic : M6 := Inertia.addAssign LF_upperleg_Ic Ic_spare
  let F_LF_KFE : V6 := fun k => i.LF_lowerleg k 2
  let DATA_LF_KFE_LF_KFE : ℝ := F_LF_KFE 2
  let F_LF_KFE : V6 := ft.fr_LF_upperleg_X_fr_LF_lowerleg *ᵥ F_LF_KFE
  let DATA_LF_KFE_LF_HFE : ℝ := F_LF_KFE 2
  let DATA_LF_HFE_LF_KFE : ℝ := DATA_LF_KFE_LF_HFE
  let F_LF_KFE : V6 := ft.fr_LF_hipassembly_X_fr_LF_upperleg *ᵥ F_LF_KFE
  let DATA_LF_KFE_LF_HAA : ℝ := F_LF_KFE 2
  let DATA_LF_HAA_LF_KFE : ℝ := DATA_LF_KFE_LF_HAA
  let F_LF_KFE : V6 := ft.fr_trunk_X_fr_LF_hipassembly *ᵥ F_LF_KFE
  let Ic_spare : M6 := transformInertia LF_upperleg_Ic ft.fr_LF_hipassembly_X_fr_LF_upperleg Ic_spare
  let LF_hipassembly_Ic : M6 := Inertia.addAssign LF_hipassembly_Ic Ic_spare
  let F_LF_HFE : V6 := fun k => LF_upperleg_Ic k 2
  let DATA_LF_HFE_LF_HFE : ℝ := F_LF_HFE 2
  let F_LF_HFE : V6 := ft.fr_LF_hipassembly_X_fr_LF_upperleg *ᵥ F_LF_HFE
  let DATA_LF_HFE_LF_HAA : ℝ := F_LF_HFE 2
  let DATA_LF_HAA_LF_HFE : ℝ := DATA_LF_HFE_LF_HAA
  let F_LF_HFE : V6 := ft.fr_trunk_X_fr_LF_hipassembly *ᵥ F_LF_HFE
  let Ic_spare : M6 := transformInertia LF_hipassembly_Ic ft.fr_trunk_X_fr_LF_hipassembly Ic_spare
  let trunk_Ic : M6 := Inertia.addAssign trunk_Ic Ic_spare
  let F_LF_HAA : V6 := fun k => LF_hipassembly_Ic k 2
  let DATA_LF_HAA_LF_HAA : ℝ := F_LF_HAA 2
  let F_LF_HAA : V6 := ft.fr_trunk_X_fr_LF_hipassembly *ᵥ F_LF_HAA
  let F : Matrix (Fin 6) (Fin 12) ℝ := fun k j => (![F_LF_HAA, F_LF_HFE, F_LF_KFE, F_RF_HAA, F_RF_HFE, F_RF_KFE, F_LH_HAA, F_LH_HFE, F_LH_KFE, F_RH_HAA, F_RH_HFE, F_RH_KFE] : Fin 12 → V6) j k
  let H : Matrix (Fin 12) (Fin 12) ℝ :=
    !![DATA_LF_HAA_LF_HAA, DATA_LF_HAA_LF_HFE, DATA_LF_HAA_LF_KFE, M (.inr LF_HAA) (.inr RF_HAA), M (.inr LF_HAA) (.inr RF_HFE), M (.inr LF_HAA) (.inr RF_KFE), M (.inr LF_HAA) (.inr LH_HAA), M (.inr LF_HAA) (.inr LH_HFE), M (.inr LF_HAA) (.inr LH_KFE), M (.inr LF_HAA) (.inr RH_HAA), M (.inr LF_HAA) (.inr RH_HFE), M (.inr LF_HAA) (.inr RH_KFE);
     DATA_LF_HFE_LF_HAA, DATA_LF_HFE_LF_HFE, DATA_LF_HFE_LF_KFE, M (.inr LF_HFE) (.inr RF_HAA), M (.inr LF_HFE) (.inr RF_HFE), M (.inr LF_HFE) (.inr RF_KFE), M (.inr LF_HFE) (.inr LH_HAA), M (.inr LF_HFE) (.inr LH_HFE), M (.inr LF_HFE) (.inr LH_KFE), M (.inr LF_HFE) (.inr RH_HAA), M (.inr LF_HFE) (.inr RH_HFE), M (.inr LF_HFE) (.inr RH_KFE);
     DATA_LF_KFE_LF_HAA, DATA_LF_KFE_LF_HFE, DATA_LF_KFE_LF_KFE, M (.inr LF_KFE) (.inr RF_HAA), M (.inr LF_KFE) (.inr RF_HFE), M (.inr LF_KFE) (.inr RF_KFE), M (.inr LF_KFE) (.inr LH_HAA), M (.inr LF_KFE) (.inr LH_HFE), M (.inr LF_KFE) (.inr LH_KFE), M (.inr LF_KFE) (.inr RH_HAA), M (.inr LF_KFE) (.inr RH_HFE), M (.inr LF_KFE) (.inr RH_KFE);
     M (.inr RF_HAA) (.inr LF_HAA), M (.inr RF_HAA) (.inr LF_HFE), M (.inr RF_HAA) (.inr LF_KFE), DATA_RF_HAA_RF_HAA, DATA_RF_HAA_RF_HFE, DATA_RF_HAA_RF_KFE, M (.inr RF_HAA) (.inr LH_HAA), M (.inr RF_HAA) (.inr LH_HFE), M (.inr RF_HAA) (.inr LH_KFE), M (.inr RF_HAA) (.inr RH_HAA), M (.inr RF_HAA) (.inr RH_HFE), M (.inr RF_HAA) (.inr RH_KFE);
     M (.inr RF_HFE) (.inr LF_HAA), M (.inr RF_HFE) (.inr LF_HFE), M (.inr RF_HFE) (.inr LF_KFE), DATA_RF_HFE_RF_HAA, DATA_RF_HFE_RF_HFE, DATA_RF_HFE_RF_KFE, M (.inr RF_HFE) (.inr LH_HAA), M (.inr RF_HFE) (.inr LH_HFE), M (.inr RF_HFE) (.inr LH_KFE), M (.inr RF_HFE) (.inr RH_HAA), M (.inr RF_HFE) (.inr RH_HFE), M (.inr RF_HFE) (.inr RH_KFE);
     M (.inr RF_KFE) (.inr LF_HAA), M (.inr RF_KFE) (.inr LF_HFE), M (.inr RF_KFE) (.inr LF_KFE), DATA_RF_KFE_RF_HAA, DATA_RF_KFE_RF_HFE, DATA_RF_KFE_RF_KFE, M (.inr RF_KFE) (.inr LH_HAA), M (.inr RF_KFE) (.inr LH_HFE), M (.inr RF_KFE) (.inr LH_KFE), M (.inr RF_KFE) (.inr RH_HAA), M (.inr RF_KFE) (.inr RH_HFE), M (.inr RF_KFE) (.inr RH_KFE);
     M (.inr LH_HAA) (.inr LF_HAA), M (.inr LH_HAA) (.inr LF_HFE), M (.inr LH_HAA) (.inr LF_KFE), M (.inr LH_HAA) (.inr RF_HAA), M (.inr LH_HAA) (.inr RF_HFE), M (.inr LH_HAA) (.inr RF_KFE), DATA_LH_HAA_LH_HAA, DATA_LH_HAA_LH_HFE, DATA_LH_HAA_LH_KFE, M (.inr LH_HAA) (.inr RH_HAA), M (.inr LH_HAA) (.inr RH_HFE), M (.inr LH_HAA) (.inr RH_KFE);
     M (.inr LH_HFE) (.inr LF_HAA), M (.inr LH_HFE) (.inr LF_HFE), M (.inr LH_HFE) (.inr LF_KFE), M (.inr LH_HFE) (.inr RF_HAA), M (.inr LH_HFE) (.inr RF_HFE), M (.inr LH_HFE) (.inr RF_KFE), DATA_LH_HFE_LH_HAA, DATA_LH_HFE_LH_HFE, DATA_LH_HFE_LH_KFE, M (.inr LH_HFE) (.inr RH_HAA), M (.inr LH_HFE) (.inr RH_HFE), M (.inr LH_HFE) (.inr RH_KFE);
     M (.inr LH_KFE) (.inr LF_HAA), M (.inr LH_KFE) (.inr LF_HFE), M (.inr LH_KFE) (.inr LF_KFE), M (.inr LH_KFE) (.inr RF_HAA), M (.inr LH_KFE) (.inr RF_HFE), M (.inr LH_KFE) (.inr RF_KFE), DATA_LH_KFE_LH_HAA, DATA_LH_KFE_LH_HFE, DATA_LH_KFE_LH_KFE, M (.inr LH_KFE) (.inr RH_HAA), M (.inr LH_KFE) (.inr RH_HFE), M (.inr LH_KFE) (.inr RH_KFE);
     M (.inr RH_HAA) (.inr LF_HAA), M (.inr RH_HAA) (.inr LF_HFE), M (.inr RH_HAA) (.inr LF_KFE), M (.inr RH_HAA) (.inr RF_HAA), M (.inr RH_HAA) (.inr RF_HFE), M (.inr RH_HAA) (.inr RF_KFE), M (.inr RH_HAA) (.inr LH_HAA), M (.inr RH_HAA) (.inr LH_HFE), M (.inr RH_HAA) (.inr LH_KFE), DATA_RH_HAA_RH_HAA, DATA_RH_HAA_RH_HFE, DATA_RH_HAA_RH_KFE;
     M (.inr RH_HFE) (.inr LF_HAA), M (.inr RH_HFE) (.inr LF_HFE), M (.inr RH_HFE) (.inr LF_KFE), M (.inr RH_HFE) (.inr RF_HAA), M (.inr RH_HFE) (.inr RF_HFE), M (.inr RH_HFE) (.inr RF_KFE), M (.inr RH_HFE) (.inr LH_HAA), M (.inr RH_HFE) (.inr LH_HFE), M (.inr RH_HFE) (.inr LH_KFE), DATA_RH_HFE_RH_HAA, DATA_RH_HFE_RH_HFE, DATA_RH_HFE_RH_KFE;
     M (.inr RH_KFE) (.inr LF_HAA), M (.inr RH_KFE) (.inr LF_HFE), M (.inr RH_KFE) (.inr LF_KFE), M (.inr RH_KFE) (.inr RF_HAA), M (.inr RH_KFE) (.inr RF_HFE), M (.inr RH_KFE) (.inr RF_KFE), M (.inr RH_KFE) (.inr LH_HAA), M (.inr RH_KFE) (.inr LH_HFE), M (.inr RH_KFE) (.inr LH_KFE), DATA_RH_KFE_RH_HAA, DATA_RH_KFE_RH_HFE, DATA_RH_KFE_RH_KFE]
  (Ic_spare, Matrix.fromBlocks trunk_Ic F Fᵀ H)

/-! ### Links and joints -/

/-- The branches of the robot, in the order in which the code adds them up. -/
def branches (m : MT) (ft : FT) (i : Inertias) (qd : Q) (fext : Ext) : List (List Joint) :=
  [[{ X := m.fr_RH_hipassembly_X_fr_trunk, XF := ft.fr_trunk_X_fr_RH_hipassembly, I := i.RH_hipassembly, fext := fext RH_HIPASSEMBLY, qd := qd RH_HAA },
    { X := m.fr_RH_upperleg_X_fr_RH_hipassembly, XF := ft.fr_RH_hipassembly_X_fr_RH_upperleg, I := i.RH_upperleg, fext := fext RH_UPPERLEG, qd := qd RH_HFE },
    { X := m.fr_RH_lowerleg_X_fr_RH_upperleg, XF := ft.fr_RH_upperleg_X_fr_RH_lowerleg, I := i.RH_lowerleg, fext := fext RH_LOWERLEG, qd := qd RH_KFE }],
   [{ X := m.fr_LH_hipassembly_X_fr_trunk, XF := ft.fr_trunk_X_fr_LH_hipassembly, I := i.LH_hipassembly, fext := fext LH_HIPASSEMBLY, qd := qd LH_HAA },
    { X := m.fr_LH_upperleg_X_fr_LH_hipassembly, XF := ft.fr_LH_hipassembly_X_fr_LH_upperleg, I := i.LH_upperleg, fext := fext LH_UPPERLEG, qd := qd LH_HFE },
    { X := m.fr_LH_lowerleg_X_fr_LH_upperleg, XF := ft.fr_LH_upperleg_X_fr_LH_lowerleg, I := i.LH_lowerleg, fext := fext LH_LOWERLEG, qd := qd LH_KFE }],
   [{ X := m.fr_RF_hipassembly_X_fr_trunk, XF := ft.fr_trunk_X_fr_RF_hipassembly, I := i.RF_hipassembly, fext := fext RF_HIPASSEMBLY, qd := qd RF_HAA },
    { X := m.fr_RF_upperleg_X_fr_RF_hipassembly, XF := ft.fr_RF_hipassembly_X_fr_RF_upperleg, I := i.RF_upperleg, fext := fext RF_UPPERLEG, qd := qd RF_HFE },
    { X := m.fr_RF_lowerleg_X_fr_RF_upperleg, XF := ft.fr_RF_upperleg_X_fr_RF_lowerleg, I := i.RF_lowerleg, fext := fext RF_LOWERLEG, qd := qd RF_KFE }],
   [{ X := m.fr_LF_hipassembly_X_fr_trunk, XF := ft.fr_trunk_X_fr_LF_hipassembly, I := i.LF_hipassembly, fext := fext LF_HIPASSEMBLY, qd := qd LF_HAA },
    { X := m.fr_LF_upperleg_X_fr_LF_hipassembly, XF := ft.fr_LF_hipassembly_X_fr_LF_upperleg, I := i.LF_upperleg, fext := fext LF_UPPERLEG, qd := qd LF_HFE },
    { X := m.fr_LF_lowerleg_X_fr_LF_upperleg, XF := ft.fr_LF_upperleg_X_fr_LF_lowerleg, I := i.LF_lowerleg, fext := fext LF_LOWERLEG, qd := qd LF_KFE }]]

/-! ### The robot object -/

/-- The members of `RobCoGenContainer` (ct_rbd/include/ct/rbd/robot/RobCoGenContainer.h:204-211) that the
dynamics use.  `H` is the joint space inertia matrix. -/
structure Robot where
  m : MT
  ft : FT
  i : Inertias
  fds : FDState
  ids : IDState
  H : Matrix (Fin 6 ⊕ Fin 12) (Fin 6 ⊕ Fin 12) ℝ
  Ic_spare : M6

/-- Constructor of `RobCoGenContainer` (RobCoGenContainer.h:27-35) with the one of `JSIM`
(HyQ/generated/jsim.impl.h:5-15); `z` is what the memory contained. -/
noncomputable def Robot.new (z : Robot) : Robot where
  m := MT.new z.m
  ft := FT.new z.ft
  i := Inertias.new z.i
  fds := FDState.new
  ids := IDState.new
  H := 0
  Ic_spare := Inertia.new z.Ic_spare

/-- `fd` with the joint positions (HyQ/generated/forward_dynamics.h:244-254). -/
noncomputable def Robot.fd (o : Robot) (q : Q) (trunk_v g : V6) (qd tau : Q) (fext : Ext) : Robot × V6 × Q :=
  let m := o.m.setJointStatus q
  let r := Robots.HyQ.fd o.fds m o.i trunk_v g qd tau fext
  ({ o with m := m, fds := r.1 }, r.2)

/-- `id` with the joint positions (HyQ/generated/inverse_dynamics.h:324-333). -/
noncomputable def Robot.id (o : Robot) (q : Q) (g trunk_v : V6) (qd qdd : Q) (fext : Ext) : Robot × V6 × Q :=
  let m := o.m.setJointStatus q
  let r := Robots.HyQ.id o.ids m o.i g trunk_v qd qdd fext
  ({ o with m := m, ids := r.1 }, r.2)

/-- `G_terms_fully_actuated` with the joint positions (HyQ/generated/inverse_dynamics.h:336-342). -/
noncomputable def Robot.G_terms (o : Robot) (q : Q) (g : V6) : Robot × V6 × Q :=
  let m := o.m.setJointStatus q
  ({ o with m := m }, G_terms_fully_actuated m o.i g)

/-- `C_terms_fully_actuated` with the joint positions (HyQ/generated/inverse_dynamics.h:345-351). -/
noncomputable def Robot.C_terms (o : Robot) (q : Q) (trunk_v : V6) (qd : Q) : Robot × V6 × Q :=
  let m := o.m.setJointStatus q
  let r := C_terms_fully_actuated o.ids m o.i trunk_v qd
  ({ o with m := m, ids := r.1 }, r.2)

/-- `id_fully_actuated` with the joint positions (HyQ/generated/inverse_dynamics.h:354-362). -/
noncomputable def Robot.id_full (o : Robot) (q : Q) (g trunk_v baseAccel : V6) (qd qdd : Q) (fext : Ext) : Robot × V6 × Q :=
  let m := o.m.setJointStatus q
  let r := id_fully_actuated o.ids m o.i g trunk_v baseAccel qd qdd fext
  ({ o with m := m, ids := r.1 }, r.2)

/-- `JSIM::update` (HyQ/generated/jsim.impl.h:22-200). -/
noncomputable def Robot.jsim (o : Robot) (q : Q) : Robot × Matrix (Fin 6 ⊕ Fin 12) (Fin 6 ⊕ Fin 12) ℝ :=
  let ft := o.ft.set q
  let r := Robots.HyQ.jsim o.H o.Ic_spare ft o.i
  ({ o with ft := ft, Ic_spare := r.1, H := r.2 }, r.2)

/-- A call of one of the functions. -/
inductive Call where
  | fd (q : Q) (trunk_v g : V6) (qd tau : Q) (fext : Ext)
  | id (q : Q) (g trunk_v : V6) (qd qdd : Q) (fext : Ext)
  | G_terms (q : Q) (g : V6)
  | C_terms (q : Q) (trunk_v : V6) (qd : Q)
  | id_full (q : Q) (g trunk_v baseAccel : V6) (qd qdd : Q) (fext : Ext)
  | jsim (q : Q)

/-- What a call does to the object. -/
noncomputable def Robot.step (o : Robot) : Call → Robot
  | .fd q trunk_v g qd tau fext => (o.fd q trunk_v g qd tau fext).1
  | .id q g trunk_v qd qdd fext => (o.id q g trunk_v qd qdd fext).1
  | .G_terms q g => (o.G_terms q g).1
  | .C_terms q trunk_v qd => (o.C_terms q trunk_v qd).1
  | .id_full q g trunk_v baseAccel qd qdd fext => (o.id_full q g trunk_v baseAccel qd qdd fext).1
  | .jsim q => (o.jsim q).1

/-- The object after the given calls, `z` being what the memory contained before its construction. -/
noncomputable def Robot.after (z : Robot) (calls : List Call) : Robot := calls.foldl Robot.step (Robot.new z)

end CT.Robots.HyQ
