import Mathlib.Analysis.SpecialFunctions.Trigonometric.Basic
import Verif.Model.Articulated

/-!
# HyA: generated dynamics

Translation of the code in `ct_models/include/ct/models/HyA/generated`, one `let` for each statement, written by
`tools/gen_robots.py`.  Line numbers are those of the files in that directory.

Simplifications: scalars are real numbers, and only the transforms that the dynamics use are here.  A
function takes and returns the members that it reads before it writes them; the other members are written
before they are read in every function and are local here.
-/

namespace CT.Robots.HyA

open Matrix Spatial Articulated FrameJac

/-! ### Identifiers (declarations.h) -/

/-- `JointState`. -/
abbrev Q := Fin 6 → ℝ

abbrev SAA : Fin 6 := 0
abbrev SFE : Fin 6 := 1
abbrev HR : Fin 6 := 2
abbrev EFE : Fin 6 := 3
abbrev WR : Fin 6 := 4
abbrev WFE : Fin 6 := 5

abbrev HYABASE : Fin 7 := 0
abbrev SHOULDER_AA : Fin 7 := 1
abbrev SHOULDER_FE : Fin 7 := 2
abbrev HUMERUS_R : Fin 7 := 3
abbrev ELBOW_FE : Fin 7 := 4
abbrev WRIST_R : Fin 7 := 5
abbrev WRIST_FE : Fin 7 := 6

/-- `ExtForces`. -/
abbrev Ext := Fin 7 → V6

/-! ### Coordinate transforms -/

/-- Constructor of `MotionTransforms::fr_Shoulder_AA_X_fr_HyABase` (HyA/generated/transforms.impl.h:1821-1851); `z` is what the memory contained. -/
noncomputable def motion_fr_Shoulder_AA_X_fr_HyABase_new (z : M6) : M6 :=
  !![z 0 0, z 0 1, 0, 0, 0, 0;
     z 1 0, z 1 1, 0, 0, 0, 0;
     0, 0, 1, 0, 0, 0;
     0, 0, 0, z 3 3, z 3 4, 0;
     0, 0, 0, z 4 3, z 4 4, 0;
     0, 0, 0, 0, 0, 1]

/-- `MotionTransforms::fr_Shoulder_AA_X_fr_HyABase::update` (HyA/generated/transforms.impl.h:1853-1869). -/
noncomputable def motion_fr_Shoulder_AA_X_fr_HyABase_update (z : M6) (q : Q) : M6 :=
  let sin__q_SAA__ := Real.sin (q SAA)
  let cos__q_SAA__ := Real.cos (q SAA)
  !![cos__q_SAA__, sin__q_SAA__, z 0 2, z 0 3, z 0 4, z 0 5;
     -sin__q_SAA__, cos__q_SAA__, z 1 2, z 1 3, z 1 4, z 1 5;
     z 2 0, z 2 1, z 2 2, z 2 3, z 2 4, z 2 5;
     z 3 0, z 3 1, z 3 2, cos__q_SAA__, sin__q_SAA__, z 3 5;
     z 4 0, z 4 1, z 4 2, -sin__q_SAA__, cos__q_SAA__, z 4 5;
     z 5 0, z 5 1, z 5 2, z 5 3, z 5 4, z 5 5]

/-- Constructor of `MotionTransforms::fr_Shoulder_FE_X_fr_Shoulder_AA` (HyA/generated/transforms.impl.h:2585-2613); `z` is what the memory contained. -/
noncomputable def motion_fr_Shoulder_FE_X_fr_Shoulder_AA_new (z : M6) : M6 :=
  !![z 0 0, 0, z 0 2, 0, 0, 0;
     z 1 0, 0, z 1 2, 0, 0, 0;
     0, -1.0, 0, 0, 0, 0;
     0, z 3 1, 0, z 3 3, 0, z 3 5;
     0, z 4 1, 0, z 4 3, 0, z 4 5;
     0.178, 0, 0, 0, -1, 0]

/-- `MotionTransforms::fr_Shoulder_FE_X_fr_Shoulder_AA::update` (HyA/generated/transforms.impl.h:2615-2633). -/
noncomputable def motion_fr_Shoulder_FE_X_fr_Shoulder_AA_update (z : M6) (q : Q) : M6 :=
  let sin__q_SFE__ := Real.sin (q SFE)
  let cos__q_SFE__ := Real.cos (q SFE)
  !![cos__q_SFE__, z 0 1, sin__q_SFE__, z 0 3, z 0 4, z 0 5;
     -sin__q_SFE__, z 1 1, cos__q_SFE__, z 1 3, z 1 4, z 1 5;
     z 2 0, z 2 1, z 2 2, z 2 3, z 2 4, z 2 5;
     z 3 0, (0.178 * cos__q_SFE__), z 3 2, cos__q_SFE__, z 3 4, sin__q_SFE__;
     z 4 0, (-0.178 * sin__q_SFE__), z 4 2, -sin__q_SFE__, z 4 4, cos__q_SFE__;
     z 5 0, z 5 1, z 5 2, z 5 3, z 5 4, z 5 5]

/-- Constructor of `MotionTransforms::fr_Humerus_R_X_fr_Shoulder_FE` (HyA/generated/transforms.impl.h:2685-2711); `z` is what the memory contained. -/
noncomputable def motion_fr_Humerus_R_X_fr_Shoulder_FE_new (z : M6) : M6 :=
  !![0, z 0 1, z 0 2, 0, 0, 0;
     0, z 1 1, z 1 2, 0, 0, 0;
     1, 0, 0, 0, 0, 0;
     0, z 3 1, z 3 2, 0, z 3 4, z 3 5;
     0, z 4 1, z 4 2, 0, z 4 4, z 4 5;
     0, 0, 0, 1, 0, 0]

/-- `MotionTransforms::fr_Humerus_R_X_fr_Shoulder_FE::update` (HyA/generated/transforms.impl.h:2713-2733). -/
noncomputable def motion_fr_Humerus_R_X_fr_Shoulder_FE_update (z : M6) (q : Q) : M6 :=
  let sin__q_HR__ := Real.sin (q HR)
  let cos__q_HR__ := Real.cos (q HR)
  !![z 0 0, sin__q_HR__, -cos__q_HR__, z 0 3, z 0 4, z 0 5;
     z 1 0, cos__q_HR__, sin__q_HR__, z 1 3, z 1 4, z 1 5;
     z 2 0, z 2 1, z 2 2, z 2 3, z 2 4, z 2 5;
     z 3 0, (0.112 * cos__q_HR__), (0.112 * sin__q_HR__), z 3 3, sin__q_HR__, -cos__q_HR__;
     z 4 0, (-0.112 * sin__q_HR__), (0.112 * cos__q_HR__), z 4 3, cos__q_HR__, sin__q_HR__;
     z 5 0, z 5 1, z 5 2, z 5 3, z 5 4, z 5 5]

/-- Constructor of `MotionTransforms::fr_Elbow_FE_X_fr_Humerus_R` (HyA/generated/transforms.impl.h:2785-2813); `z` is what the memory contained. -/
noncomputable def motion_fr_Elbow_FE_X_fr_Humerus_R_new (z : M6) : M6 :=
  !![0, z 0 1, z 0 2, 0, 0, 0;
     0, z 1 1, z 1 2, 0, 0, 0;
     -1.0, 0, 0, 0, 0, 0;
     z 3 0, 0, 0, 0, z 3 4, z 3 5;
     z 4 0, 0, 0, 0, z 4 4, z 4 5;
     0, -0.304, 0, -1, 0, 0]

/-- `MotionTransforms::fr_Elbow_FE_X_fr_Humerus_R::update` (HyA/generated/transforms.impl.h:2815-2833). -/
noncomputable def motion_fr_Elbow_FE_X_fr_Humerus_R_update (z : M6) (q : Q) : M6 :=
  let sin__q_EFE__ := Real.sin (q EFE)
  let cos__q_EFE__ := Real.cos (q EFE)
  !![z 0 0, sin__q_EFE__, cos__q_EFE__, z 0 3, z 0 4, z 0 5;
     z 1 0, cos__q_EFE__, -sin__q_EFE__, z 1 3, z 1 4, z 1 5;
     z 2 0, z 2 1, z 2 2, z 2 3, z 2 4, z 2 5;
     (-0.304 * sin__q_EFE__), z 3 1, z 3 2, z 3 3, sin__q_EFE__, cos__q_EFE__;
     (-0.304 * cos__q_EFE__), z 4 1, z 4 2, z 4 3, cos__q_EFE__, -sin__q_EFE__;
     z 5 0, z 5 1, z 5 2, z 5 3, z 5 4, z 5 5]

/-- Constructor of `MotionTransforms::fr_Wrist_R_X_fr_Elbow_FE` (HyA/generated/transforms.impl.h:2885-2911); `z` is what the memory contained. -/
noncomputable def motion_fr_Wrist_R_X_fr_Elbow_FE_new (z : M6) : M6 :=
  !![0, z 0 1, z 0 2, 0, 0, 0;
     0, z 1 1, z 1 2, 0, 0, 0;
     1, 0, 0, 0, 0, 0;
     0, z 3 1, z 3 2, 0, z 3 4, z 3 5;
     0, z 4 1, z 4 2, 0, z 4 4, z 4 5;
     0, 0, 0, 1, 0, 0]

/-- `MotionTransforms::fr_Wrist_R_X_fr_Elbow_FE::update` (HyA/generated/transforms.impl.h:2913-2933). -/
noncomputable def motion_fr_Wrist_R_X_fr_Elbow_FE_update (z : M6) (q : Q) : M6 :=
  let sin__q_WR__ := Real.sin (q WR)
  let cos__q_WR__ := Real.cos (q WR)
  !![z 0 0, sin__q_WR__, -cos__q_WR__, z 0 3, z 0 4, z 0 5;
     z 1 0, cos__q_WR__, sin__q_WR__, z 1 3, z 1 4, z 1 5;
     z 2 0, z 2 1, z 2 2, z 2 3, z 2 4, z 2 5;
     z 3 0, (0.112 * cos__q_WR__), (0.112 * sin__q_WR__), z 3 3, sin__q_WR__, -cos__q_WR__;
     z 4 0, (-0.112 * sin__q_WR__), (0.112 * cos__q_WR__), z 4 3, cos__q_WR__, sin__q_WR__;
     z 5 0, z 5 1, z 5 2, z 5 3, z 5 4, z 5 5]

/-- Constructor of `MotionTransforms::fr_Wrist_FE_X_fr_Wrist_R` (HyA/generated/transforms.impl.h:2985-3013); `z` is what the memory contained. -/
noncomputable def motion_fr_Wrist_FE_X_fr_Wrist_R_new (z : M6) : M6 :=
  !![z 0 0, 0, z 0 2, 0, 0, 0;
     z 1 0, 0, z 1 2, 0, 0, 0;
     0, 1.0, 0, 0, 0, 0;
     0, z 3 1, 0, z 3 3, 0, z 3 5;
     0, z 4 1, 0, z 4 3, 0, z 4 5;
     -0.184, 0, 0.02075, 0, 1.0, 0]

/-- `MotionTransforms::fr_Wrist_FE_X_fr_Wrist_R::update` (HyA/generated/transforms.impl.h:3015-3033). -/
noncomputable def motion_fr_Wrist_FE_X_fr_Wrist_R_update (z : M6) (q : Q) : M6 :=
  let sin__q_WFE__ := Real.sin (q WFE)
  let cos__q_WFE__ := Real.cos (q WFE)
  !![sin__q_WFE__, z 0 1, cos__q_WFE__, z 0 3, z 0 4, z 0 5;
     cos__q_WFE__, z 1 1, -sin__q_WFE__, z 1 3, z 1 4, z 1 5;
     z 2 0, z 2 1, z 2 2, z 2 3, z 2 4, z 2 5;
     z 3 0, ((0.184 * sin__q_WFE__) - (0.02075 * cos__q_WFE__)), z 3 2, sin__q_WFE__, z 3 4, cos__q_WFE__;
     z 4 0, ((0.02075 * sin__q_WFE__) + (0.184 * cos__q_WFE__)), z 4 2, cos__q_WFE__, z 4 4, -sin__q_WFE__;
     z 5 0, z 5 1, z 5 2, z 5 3, z 5 4, z 5 5]

/-- Constructor of `ForceTransforms::fr_Wrist_R_X_fr_Wrist_FE` (HyA/generated/transforms.impl.h:4290-4318); `z` is what the memory contained. -/
noncomputable def force_fr_Wrist_R_X_fr_Wrist_FE_new (z : M6) : M6 :=
  !![z 0 0, z 0 1, 0, 0, 0, -0.184;
     0, 0, 1.0, z 1 3, z 1 4, 0;
     z 2 0, z 2 1, 0, 0, 0, 0.02075;
     0, 0, 0, z 3 3, z 3 4, 0;
     0, 0, 0, 0, 0, 1.0;
     0, 0, 0, z 5 3, z 5 4, 0]

/-- `ForceTransforms::fr_Wrist_R_X_fr_Wrist_FE::update` (HyA/generated/transforms.impl.h:4320-4338). -/
noncomputable def force_fr_Wrist_R_X_fr_Wrist_FE_update (z : M6) (q : Q) : M6 :=
  let sin__q_WFE__ := Real.sin (q WFE)
  let cos__q_WFE__ := Real.cos (q WFE)
  !![sin__q_WFE__, cos__q_WFE__, z 0 2, z 0 3, z 0 4, z 0 5;
     z 1 0, z 1 1, z 1 2, ((0.184 * sin__q_WFE__) - (0.02075 * cos__q_WFE__)), ((0.02075 * sin__q_WFE__) + (0.184 * cos__q_WFE__)), z 1 5;
     cos__q_WFE__, -sin__q_WFE__, z 2 2, z 2 3, z 2 4, z 2 5;
     z 3 0, z 3 1, z 3 2, sin__q_WFE__, cos__q_WFE__, z 3 5;
     z 4 0, z 4 1, z 4 2, z 4 3, z 4 4, z 4 5;
     z 5 0, z 5 1, z 5 2, cos__q_WFE__, -sin__q_WFE__, z 5 5]

/-- Constructor of `ForceTransforms::fr_Elbow_FE_X_fr_Wrist_R` (HyA/generated/transforms.impl.h:5784-5810); `z` is what the memory contained. -/
noncomputable def force_fr_Elbow_FE_X_fr_Wrist_R_new (z : M6) : M6 :=
  !![0, 0, 1, 0, 0, 0;
     z 1 0, z 1 1, 0, z 1 3, z 1 4, 0;
     z 2 0, z 2 1, 0, z 2 3, z 2 4, 0;
     0, 0, 0, 0, 0, 1;
     0, 0, 0, z 4 3, z 4 4, 0;
     0, 0, 0, z 5 3, z 5 4, 0]

/-- `ForceTransforms::fr_Elbow_FE_X_fr_Wrist_R::update` (HyA/generated/transforms.impl.h:5812-5832). -/
noncomputable def force_fr_Elbow_FE_X_fr_Wrist_R_update (z : M6) (q : Q) : M6 :=
  let sin__q_WR__ := Real.sin (q WR)
  let cos__q_WR__ := Real.cos (q WR)
  !![z 0 0, z 0 1, z 0 2, z 0 3, z 0 4, z 0 5;
     sin__q_WR__, cos__q_WR__, z 1 2, (0.112 * cos__q_WR__), (-0.112 * sin__q_WR__), z 1 5;
     -cos__q_WR__, sin__q_WR__, z 2 2, (0.112 * sin__q_WR__), (0.112 * cos__q_WR__), z 2 5;
     z 3 0, z 3 1, z 3 2, z 3 3, z 3 4, z 3 5;
     z 4 0, z 4 1, z 4 2, sin__q_WR__, cos__q_WR__, z 4 5;
     z 5 0, z 5 1, z 5 2, -cos__q_WR__, sin__q_WR__, z 5 5]

/-- Constructor of `ForceTransforms::fr_Humerus_R_X_fr_Elbow_FE` (HyA/generated/transforms.impl.h:5684-5712); `z` is what the memory contained. -/
noncomputable def force_fr_Humerus_R_X_fr_Elbow_FE_new (z : M6) : M6 :=
  !![0, 0, -1.0, z 0 3, z 0 4, 0;
     z 1 0, z 1 1, 0, 0, 0, -0.304;
     z 2 0, z 2 1, 0, 0, 0, 0;
     0, 0, 0, 0, 0, -1;
     0, 0, 0, z 4 3, z 4 4, 0;
     0, 0, 0, z 5 3, z 5 4, 0]

/-- `ForceTransforms::fr_Humerus_R_X_fr_Elbow_FE::update` (HyA/generated/transforms.impl.h:5714-5732). -/
noncomputable def force_fr_Humerus_R_X_fr_Elbow_FE_update (z : M6) (q : Q) : M6 :=
  let sin__q_EFE__ := Real.sin (q EFE)
  let cos__q_EFE__ := Real.cos (q EFE)
  !![z 0 0, z 0 1, z 0 2, (-0.304 * sin__q_EFE__), (-0.304 * cos__q_EFE__), z 0 5;
     sin__q_EFE__, cos__q_EFE__, z 1 2, z 1 3, z 1 4, z 1 5;
     cos__q_EFE__, -sin__q_EFE__, z 2 2, z 2 3, z 2 4, z 2 5;
     z 3 0, z 3 1, z 3 2, z 3 3, z 3 4, z 3 5;
     z 4 0, z 4 1, z 4 2, sin__q_EFE__, cos__q_EFE__, z 4 5;
     z 5 0, z 5 1, z 5 2, cos__q_EFE__, -sin__q_EFE__, z 5 5]

/-- Constructor of `ForceTransforms::fr_Shoulder_FE_X_fr_Humerus_R` (HyA/generated/transforms.impl.h:5584-5610); `z` is what the memory contained. -/
noncomputable def force_fr_Shoulder_FE_X_fr_Humerus_R_new (z : M6) : M6 :=
  !![0, 0, 1, 0, 0, 0;
     z 1 0, z 1 1, 0, z 1 3, z 1 4, 0;
     z 2 0, z 2 1, 0, z 2 3, z 2 4, 0;
     0, 0, 0, 0, 0, 1;
     0, 0, 0, z 4 3, z 4 4, 0;
     0, 0, 0, z 5 3, z 5 4, 0]

/-- `ForceTransforms::fr_Shoulder_FE_X_fr_Humerus_R::update` (HyA/generated/transforms.impl.h:5612-5632). -/
noncomputable def force_fr_Shoulder_FE_X_fr_Humerus_R_update (z : M6) (q : Q) : M6 :=
  let sin__q_HR__ := Real.sin (q HR)
  let cos__q_HR__ := Real.cos (q HR)
  !![z 0 0, z 0 1, z 0 2, z 0 3, z 0 4, z 0 5;
     sin__q_HR__, cos__q_HR__, z 1 2, (0.112 * cos__q_HR__), (-0.112 * sin__q_HR__), z 1 5;
     -cos__q_HR__, sin__q_HR__, z 2 2, (0.112 * sin__q_HR__), (0.112 * cos__q_HR__), z 2 5;
     z 3 0, z 3 1, z 3 2, z 3 3, z 3 4, z 3 5;
     z 4 0, z 4 1, z 4 2, sin__q_HR__, cos__q_HR__, z 4 5;
     z 5 0, z 5 1, z 5 2, -cos__q_HR__, sin__q_HR__, z 5 5]

/-- Constructor of `ForceTransforms::fr_Shoulder_AA_X_fr_Shoulder_FE` (HyA/generated/transforms.impl.h:5484-5512); `z` is what the memory contained. -/
noncomputable def force_fr_Shoulder_AA_X_fr_Shoulder_FE_new (z : M6) : M6 :=
  !![z 0 0, z 0 1, 0, 0, 0, 0.178;
     0, 0, -1.0, z 1 3, z 1 4, 0;
     z 2 0, z 2 1, 0, 0, 0, 0;
     0, 0, 0, z 3 3, z 3 4, 0;
     0, 0, 0, 0, 0, -1;
     0, 0, 0, z 5 3, z 5 4, 0]

/-- `ForceTransforms::fr_Shoulder_AA_X_fr_Shoulder_FE::update` (HyA/generated/transforms.impl.h:5514-5532). -/
noncomputable def force_fr_Shoulder_AA_X_fr_Shoulder_FE_update (z : M6) (q : Q) : M6 :=
  let sin__q_SFE__ := Real.sin (q SFE)
  let cos__q_SFE__ := Real.cos (q SFE)
  !![cos__q_SFE__, -sin__q_SFE__, z 0 2, z 0 3, z 0 4, z 0 5;
     z 1 0, z 1 1, z 1 2, (0.178 * cos__q_SFE__), (-0.178 * sin__q_SFE__), z 1 5;
     sin__q_SFE__, cos__q_SFE__, z 2 2, z 2 3, z 2 4, z 2 5;
     z 3 0, z 3 1, z 3 2, cos__q_SFE__, -sin__q_SFE__, z 3 5;
     z 4 0, z 4 1, z 4 2, z 4 3, z 4 4, z 4 5;
     z 5 0, z 5 1, z 5 2, sin__q_SFE__, cos__q_SFE__, z 5 5]

/-- The motion transforms that the dynamics use. -/
structure MT where
  fr_Shoulder_AA_X_fr_HyABase : M6
  fr_Shoulder_FE_X_fr_Shoulder_AA : M6
  fr_Humerus_R_X_fr_Shoulder_FE : M6
  fr_Elbow_FE_X_fr_Humerus_R : M6
  fr_Wrist_R_X_fr_Elbow_FE : M6
  fr_Wrist_FE_X_fr_Wrist_R : M6

/-- Construction; `z` is what the memory contained. -/
noncomputable def MT.new (z : MT) : MT where
  fr_Shoulder_AA_X_fr_HyABase := motion_fr_Shoulder_AA_X_fr_HyABase_new z.fr_Shoulder_AA_X_fr_HyABase
  fr_Shoulder_FE_X_fr_Shoulder_AA := motion_fr_Shoulder_FE_X_fr_Shoulder_AA_new z.fr_Shoulder_FE_X_fr_Shoulder_AA
  fr_Humerus_R_X_fr_Shoulder_FE := motion_fr_Humerus_R_X_fr_Shoulder_FE_new z.fr_Humerus_R_X_fr_Shoulder_FE
  fr_Elbow_FE_X_fr_Humerus_R := motion_fr_Elbow_FE_X_fr_Humerus_R_new z.fr_Elbow_FE_X_fr_Humerus_R
  fr_Wrist_R_X_fr_Elbow_FE := motion_fr_Wrist_R_X_fr_Elbow_FE_new z.fr_Wrist_R_X_fr_Elbow_FE
  fr_Wrist_FE_X_fr_Wrist_R := motion_fr_Wrist_FE_X_fr_Wrist_R_new z.fr_Wrist_FE_X_fr_Wrist_R

/-- `setJointStatus` (HyA/generated/forward_dynamics.h:159-166; the one of `InverseDynamics` is the same). -/
noncomputable def MT.setJointStatus (m : MT) (q : Q) : MT where
  fr_Shoulder_AA_X_fr_HyABase := motion_fr_Shoulder_AA_X_fr_HyABase_update m.fr_Shoulder_AA_X_fr_HyABase q
  fr_Shoulder_FE_X_fr_Shoulder_AA := motion_fr_Shoulder_FE_X_fr_Shoulder_AA_update m.fr_Shoulder_FE_X_fr_Shoulder_AA q
  fr_Humerus_R_X_fr_Shoulder_FE := motion_fr_Humerus_R_X_fr_Shoulder_FE_update m.fr_Humerus_R_X_fr_Shoulder_FE q
  fr_Elbow_FE_X_fr_Humerus_R := motion_fr_Elbow_FE_X_fr_Humerus_R_update m.fr_Elbow_FE_X_fr_Humerus_R q
  fr_Wrist_R_X_fr_Elbow_FE := motion_fr_Wrist_R_X_fr_Elbow_FE_update m.fr_Wrist_R_X_fr_Elbow_FE q
  fr_Wrist_FE_X_fr_Wrist_R := motion_fr_Wrist_FE_X_fr_Wrist_R_update m.fr_Wrist_FE_X_fr_Wrist_R q

/-- The force transforms that `JSIM` uses. -/
structure FT where
  fr_Wrist_R_X_fr_Wrist_FE : M6
  fr_Elbow_FE_X_fr_Wrist_R : M6
  fr_Humerus_R_X_fr_Elbow_FE : M6
  fr_Shoulder_FE_X_fr_Humerus_R : M6
  fr_Shoulder_AA_X_fr_Shoulder_FE : M6

/-- Construction; `z` is what the memory contained. -/
noncomputable def FT.new (z : FT) : FT where
  fr_Wrist_R_X_fr_Wrist_FE := force_fr_Wrist_R_X_fr_Wrist_FE_new z.fr_Wrist_R_X_fr_Wrist_FE
  fr_Elbow_FE_X_fr_Wrist_R := force_fr_Elbow_FE_X_fr_Wrist_R_new z.fr_Elbow_FE_X_fr_Wrist_R
  fr_Humerus_R_X_fr_Elbow_FE := force_fr_Humerus_R_X_fr_Elbow_FE_new z.fr_Humerus_R_X_fr_Elbow_FE
  fr_Shoulder_FE_X_fr_Humerus_R := force_fr_Shoulder_FE_X_fr_Humerus_R_new z.fr_Shoulder_FE_X_fr_Humerus_R
  fr_Shoulder_AA_X_fr_Shoulder_FE := force_fr_Shoulder_AA_X_fr_Shoulder_FE_new z.fr_Shoulder_AA_X_fr_Shoulder_FE

/-- What `JSIM::update` does first (HyA/generated/jsim.impl.h:21-25). -/
noncomputable def FT.set (ft : FT) (q : Q) : FT where
  fr_Wrist_R_X_fr_Wrist_FE := force_fr_Wrist_R_X_fr_Wrist_FE_update ft.fr_Wrist_R_X_fr_Wrist_FE q
  fr_Elbow_FE_X_fr_Wrist_R := force_fr_Elbow_FE_X_fr_Wrist_R_update ft.fr_Elbow_FE_X_fr_Wrist_R q
  fr_Humerus_R_X_fr_Elbow_FE := force_fr_Humerus_R_X_fr_Elbow_FE_update ft.fr_Humerus_R_X_fr_Elbow_FE q
  fr_Shoulder_FE_X_fr_Humerus_R := force_fr_Shoulder_FE_X_fr_Humerus_R_update ft.fr_Shoulder_FE_X_fr_Humerus_R q
  fr_Shoulder_AA_X_fr_Shoulder_FE := force_fr_Shoulder_AA_X_fr_Shoulder_FE_update ft.fr_Shoulder_AA_X_fr_Shoulder_FE q

/-! ### Inertia parameters (HyA/generated/inertia_properties.impl.h) -/

/-- `InertiaProperties`. -/
structure Inertias where
  Shoulder_AA : M6
  Shoulder_FE : M6
  Humerus_R : M6
  Elbow_FE : M6
  Wrist_R : M6
  Wrist_FE : M6

/-- `tensor_Shoulder_AA` (HyA/generated/inertia_properties.impl.h:4-14); `z` is what the memory contained. -/
noncomputable def tensor_Shoulder_AA (z : M6) : M6 :=
  Inertia.fill (Inertia.new z) (2.688) ![-1.96E-4, -0.003091, 0.17763901]
    (buildInertiaTensor (0.08980614) (0.08953714) (0.007629) (6.13E-4) (4.91221E-4) (-5.849322E-4))

/-- `tensor_Shoulder_FE` (HyA/generated/inertia_properties.impl.h:16-26); `z` is what the memory contained. -/
noncomputable def tensor_Shoulder_FE (z : M6) : M6 :=
  Inertia.fill (Inertia.new z) (2.5924191) ![0.113166206, -0.023382, 0.003832]
    (buildInertiaTensor (0.039002996) (0.08585553) (0.051393528) (-0.0055279857) (0.022851627) (0.002752))

/-- `tensor_Humerus_R` (HyA/generated/inertia_properties.impl.h:28-38); `z` is what the memory contained. -/
noncomputable def tensor_Humerus_R (z : M6) : M6 :=
  Inertia.fill (Inertia.new z) (2.327) ![-0.0023899989, 0.00618, 0.278456]
    (buildInertiaTensor (0.20236395) (0.20986895) (0.010329999) (-5.399998E-5) (0.011715295) (0.0037997814))

/-- `tensor_Elbow_FE` (HyA/generated/inertia_properties.impl.h:40-50); `z` is what the memory contained. -/
noncomputable def tensor_Elbow_FE (z : M6) : M6 :=
  Inertia.fill (Inertia.new z) (1.7423722) ![0.09200001, -0.005, 8.7422736E-10]
    (buildInertiaTensor (0.081661) (0.01828449) (0.09570849) (-0.0036857284) (2.1200017E-4) (0.0022920002))

/-- `tensor_Wrist_R` (HyA/generated/inertia_properties.impl.h:52-62); `z` is what the memory contained. -/
noncomputable def tensor_Wrist_R (z : M6) : M6 :=
  Inertia.fill (Inertia.new z) (2.1032) ![0.0, 0.0, 0.0275]
    (buildInertiaTensor (0.019432) (0.029115) (0.011046) (0.001387) (0.012652) (0.001243))

/-- `tensor_Wrist_FE` (HyA/generated/inertia_properties.impl.h:64-74); `z` is what the memory contained. -/
noncomputable def tensor_Wrist_FE (z : M6) : M6 :=
  Inertia.fill (Inertia.new z) (1.547475) ![0.025, 0.0, 0.0]
    (buildInertiaTensor (0.010737) (0.003227) (0.009277) (-1.98E-4) (-1.5E-5) (8.29E-4))

/-- Constructor of `InertiaProperties` (HyA/generated/inertia_properties.impl.h:1-76). -/
noncomputable def Inertias.new (z : Inertias) : Inertias where
  Shoulder_AA := tensor_Shoulder_AA z.Shoulder_AA
  Shoulder_FE := tensor_Shoulder_FE z.Shoulder_FE
  Humerus_R := tensor_Humerus_R z.Humerus_R
  Elbow_FE := tensor_Elbow_FE z.Elbow_FE
  Wrist_R := tensor_Wrist_R z.Wrist_R
  Wrist_FE := tensor_Wrist_FE z.Wrist_FE

/-! ### Forward dynamics -/

/-- The members of `ForwardDynamics` that survive from one call to the next. -/
structure FDState where
  Shoulder_AA_v : V6
  vcross : M6
  Ia_r : M6

/-- Constructor (HyA/generated/forward_dynamics.impl.h:9-29). -/
def FDState.new : FDState where
  Shoulder_AA_v := 0
  vcross := 0
  Ia_r := 0

/-- `fd` (HyA/generated/forward_dynamics.impl.h:32-217). -/
noncomputable def fd (s : FDState) (m : MT) (i : Inertias) (qd tau : Q) (fext : Ext) : FDState × Q :=
  let Shoulder_AA_v := s.Shoulder_AA_v
  let vcross := s.vcross
  let Ia_r := s.Ia_r
  let Shoulder_AA_AI : M6 := i.Shoulder_AA
  let Shoulder_AA_p : V6 := -(fext SHOULDER_AA)
  let Shoulder_FE_AI : M6 := i.Shoulder_FE
  let Shoulder_FE_p : V6 := -(fext SHOULDER_FE)
  let Humerus_R_AI : M6 := i.Humerus_R
  let Humerus_R_p : V6 := -(fext HUMERUS_R)
  let Elbow_FE_AI : M6 := i.Elbow_FE
  let Elbow_FE_p : V6 := -(fext ELBOW_FE)
  let Wrist_R_AI : M6 := i.Wrist_R
  let Wrist_R_p : V6 := -(fext WRIST_R)
  let Wrist_FE_AI : M6 := i.Wrist_FE
  let Wrist_FE_p : V6 := -(fext WRIST_FE)
  let Shoulder_AA_v : V6 := Function.update Shoulder_AA_v 2 (qd SAA)
  let Shoulder_AA_p : V6 := Shoulder_AA_p + (vxIvz (qd SAA) Shoulder_AA_AI)
  let Shoulder_FE_v : V6 := m.fr_Shoulder_FE_X_fr_Shoulder_AA *ᵥ Shoulder_AA_v
  let Shoulder_FE_v : V6 := bump Shoulder_FE_v (qd SFE)
  let vcross : M6 := motionCrossProductMx Shoulder_FE_v vcross
  let Shoulder_FE_c : V6 := fun k => (fun k => vcross k 2) k * (qd SFE)
  let Shoulder_FE_p : V6 := Shoulder_FE_p + (vxIv Shoulder_FE_v Shoulder_FE_AI)
  let Humerus_R_v : V6 := m.fr_Humerus_R_X_fr_Shoulder_FE *ᵥ Shoulder_FE_v
  let Humerus_R_v : V6 := bump Humerus_R_v (qd HR)
  let vcross : M6 := motionCrossProductMx Humerus_R_v vcross
  let Humerus_R_c : V6 := fun k => (fun k => vcross k 2) k * (qd HR)
  let Humerus_R_p : V6 := Humerus_R_p + (vxIv Humerus_R_v Humerus_R_AI)
  let Elbow_FE_v : V6 := m.fr_Elbow_FE_X_fr_Humerus_R *ᵥ Humerus_R_v
  let Elbow_FE_v : V6 := bump Elbow_FE_v (qd EFE)
  let vcross : M6 := motionCrossProductMx Elbow_FE_v vcross
  let Elbow_FE_c : V6 := fun k => (fun k => vcross k 2) k * (qd EFE)
  let Elbow_FE_p : V6 := Elbow_FE_p + (vxIv Elbow_FE_v Elbow_FE_AI)
  let Wrist_R_v : V6 := m.fr_Wrist_R_X_fr_Elbow_FE *ᵥ Elbow_FE_v
  let Wrist_R_v : V6 := bump Wrist_R_v (qd WR)
  let vcross : M6 := motionCrossProductMx Wrist_R_v vcross
  let Wrist_R_c : V6 := fun k => (fun k => vcross k 2) k * (qd WR)
  let Wrist_R_p : V6 := Wrist_R_p + (vxIv Wrist_R_v Wrist_R_AI)
  let Wrist_FE_v : V6 := m.fr_Wrist_FE_X_fr_Wrist_R *ᵥ Wrist_R_v
  let Wrist_FE_v : V6 := bump Wrist_FE_v (qd WFE)
  let vcross : M6 := motionCrossProductMx Wrist_FE_v vcross
  let Wrist_FE_c : V6 := fun k => (fun k => vcross k 2) k * (qd WFE)
  let Wrist_FE_p : V6 := Wrist_FE_p + (vxIv Wrist_FE_v Wrist_FE_AI)
  let Wrist_FE_u : ℝ := (tau WFE) - (Wrist_FE_p 2)
  let Wrist_FE_U : V6 := fun k => Wrist_FE_AI k 2
  let Wrist_FE_D : ℝ := Wrist_FE_U 2
  let Ia_r : M6 := computeIaRevolute Wrist_FE_AI Wrist_FE_U Wrist_FE_D Ia_r
  let pa : V6 := (Wrist_FE_p + (Ia_r *ᵥ Wrist_FE_c)) + (fun k => (fun k => Wrist_FE_U k * Wrist_FE_u) k / Wrist_FE_D)
  let IaB : M6 := ctransformIaRevolute Ia_r m.fr_Wrist_FE_X_fr_Wrist_R
  let Wrist_R_AI : M6 := Wrist_R_AI + IaB
  let Wrist_R_p : V6 := Wrist_R_p + (m.fr_Wrist_FE_X_fr_Wrist_Rᵀ *ᵥ pa)
  let Wrist_R_u : ℝ := (tau WR) - (Wrist_R_p 2)
  let Wrist_R_U : V6 := fun k => Wrist_R_AI k 2
  let Wrist_R_D : ℝ := Wrist_R_U 2
  let Ia_r : M6 := computeIaRevolute Wrist_R_AI Wrist_R_U Wrist_R_D Ia_r
  let pa : V6 := (Wrist_R_p + (Ia_r *ᵥ Wrist_R_c)) + (fun k => (fun k => Wrist_R_U k * Wrist_R_u) k / Wrist_R_D)
  let IaB : M6 := ctransformIaRevolute Ia_r m.fr_Wrist_R_X_fr_Elbow_FE
  let Elbow_FE_AI : M6 := Elbow_FE_AI + IaB
  let Elbow_FE_p : V6 := Elbow_FE_p + (m.fr_Wrist_R_X_fr_Elbow_FEᵀ *ᵥ pa)
  let Elbow_FE_u : ℝ := (tau EFE) - (Elbow_FE_p 2)
  let Elbow_FE_U : V6 := fun k => Elbow_FE_AI k 2
  let Elbow_FE_D : ℝ := Elbow_FE_U 2
  let Ia_r : M6 := computeIaRevolute Elbow_FE_AI Elbow_FE_U Elbow_FE_D Ia_r
  let pa : V6 := (Elbow_FE_p + (Ia_r *ᵥ Elbow_FE_c)) + (fun k => (fun k => Elbow_FE_U k * Elbow_FE_u) k / Elbow_FE_D)
  let IaB : M6 := ctransformIaRevolute Ia_r m.fr_Elbow_FE_X_fr_Humerus_R
  let Humerus_R_AI : M6 := Humerus_R_AI + IaB
  let Humerus_R_p : V6 := Humerus_R_p + (m.fr_Elbow_FE_X_fr_Humerus_Rᵀ *ᵥ pa)
  let Humerus_R_u : ℝ := (tau HR) - (Humerus_R_p 2)
  let Humerus_R_U : V6 := fun k => Humerus_R_AI k 2
  let Humerus_R_D : ℝ := Humerus_R_U 2
  let Ia_r : M6 := computeIaRevolute Humerus_R_AI Humerus_R_U Humerus_R_D Ia_r
  let pa : V6 := (Humerus_R_p + (Ia_r *ᵥ Humerus_R_c)) + (fun k => (fun k => Humerus_R_U k * Humerus_R_u) k / Humerus_R_D)
  let IaB : M6 := ctransformIaRevolute Ia_r m.fr_Humerus_R_X_fr_Shoulder_FE
  let Shoulder_FE_AI : M6 := Shoulder_FE_AI + IaB
  let Shoulder_FE_p : V6 := Shoulder_FE_p + (m.fr_Humerus_R_X_fr_Shoulder_FEᵀ *ᵥ pa)
  let Shoulder_FE_u : ℝ := (tau SFE) - (Shoulder_FE_p 2)
  let Shoulder_FE_U : V6 := fun k => Shoulder_FE_AI k 2
  let Shoulder_FE_D : ℝ := Shoulder_FE_U 2
  let Ia_r : M6 := computeIaRevolute Shoulder_FE_AI Shoulder_FE_U Shoulder_FE_D Ia_r
  let pa : V6 := (Shoulder_FE_p + (Ia_r *ᵥ Shoulder_FE_c)) + (fun k => (fun k => Shoulder_FE_U k * Shoulder_FE_u) k / Shoulder_FE_D)
  let IaB : M6 := ctransformIaRevolute Ia_r m.fr_Shoulder_FE_X_fr_Shoulder_AA
  let Shoulder_AA_AI : M6 := Shoulder_AA_AI + IaB
  let Shoulder_AA_p : V6 := Shoulder_AA_p + (m.fr_Shoulder_FE_X_fr_Shoulder_AAᵀ *ᵥ pa)
  let Shoulder_AA_u : ℝ := (tau SAA) - (Shoulder_AA_p 2)
  let Shoulder_AA_U : V6 := fun k => Shoulder_AA_AI k 2
  let Shoulder_AA_D : ℝ := Shoulder_AA_U 2
  let Shoulder_AA_a : V6 := fun k => (fun k => m.fr_Shoulder_AA_X_fr_HyABase k 5) k * grav
  let qdd_SAA : ℝ := (Shoulder_AA_u - (Shoulder_AA_U ⬝ᵥ Shoulder_AA_a)) / Shoulder_AA_D
  let Shoulder_AA_a : V6 := bump Shoulder_AA_a qdd_SAA
  let Shoulder_FE_a : V6 := (m.fr_Shoulder_FE_X_fr_Shoulder_AA *ᵥ Shoulder_AA_a) + Shoulder_FE_c
  let qdd_SFE : ℝ := (Shoulder_FE_u - (Shoulder_FE_U ⬝ᵥ Shoulder_FE_a)) / Shoulder_FE_D
  let Shoulder_FE_a : V6 := bump Shoulder_FE_a qdd_SFE
  let Humerus_R_a : V6 := (m.fr_Humerus_R_X_fr_Shoulder_FE *ᵥ Shoulder_FE_a) + Humerus_R_c
  let qdd_HR : ℝ := (Humerus_R_u - (Humerus_R_U ⬝ᵥ Humerus_R_a)) / Humerus_R_D
  let Humerus_R_a : V6 := bump Humerus_R_a qdd_HR
  let Elbow_FE_a : V6 := (m.fr_Elbow_FE_X_fr_Humerus_R *ᵥ Humerus_R_a) + Elbow_FE_c
  let qdd_EFE : ℝ := (Elbow_FE_u - (Elbow_FE_U ⬝ᵥ Elbow_FE_a)) / Elbow_FE_D
  let Elbow_FE_a : V6 := bump Elbow_FE_a qdd_EFE
  let Wrist_R_a : V6 := (m.fr_Wrist_R_X_fr_Elbow_FE *ᵥ Elbow_FE_a) + Wrist_R_c
  let qdd_WR : ℝ := (Wrist_R_u - (Wrist_R_U ⬝ᵥ Wrist_R_a)) / Wrist_R_D
  let Wrist_R_a : V6 := bump Wrist_R_a qdd_WR
  let Wrist_FE_a : V6 := (m.fr_Wrist_FE_X_fr_Wrist_R *ᵥ Wrist_R_a) + Wrist_FE_c
  let qdd_WFE : ℝ := (Wrist_FE_u - (Wrist_FE_U ⬝ᵥ Wrist_FE_a)) / Wrist_FE_D
  let Wrist_FE_a : V6 := bump Wrist_FE_a qdd_WFE
  ({ Shoulder_AA_v := Shoulder_AA_v, vcross := vcross, Ia_r := Ia_r }, ![qdd_SAA, qdd_SFE, qdd_HR, qdd_EFE, qdd_WR, qdd_WFE])

/-! ### Inverse dynamics -/

/-- The members of `InverseDynamics` that survive from one call to the next. -/
structure IDState where
  Shoulder_AA_v : V6
  vcross : M6

/-- Constructor (HyA/generated/inverse_dynamics.impl.h:8-30). -/
def IDState.new : IDState where
  Shoulder_AA_v := 0
  vcross := 0

/-- `id`, with `firstPass` (lines 130-194) and `secondPass` (lines 197-216) (HyA/generated/inverse_dynamics.impl.h:33-40). -/
noncomputable def id (s : IDState) (m : MT) (i : Inertias) (qd qdd : Q) (fext : Ext) : IDState × Q :=
  let Shoulder_AA_v := s.Shoulder_AA_v
  let vcross := s.vcross
  let Shoulder_AA_a : V6 := fun k => (fun k => m.fr_Shoulder_AA_X_fr_HyABase k 5) k * grav
  let Shoulder_AA_a : V6 := bump Shoulder_AA_a (qdd SAA)
  let Shoulder_AA_v : V6 := Function.update Shoulder_AA_v 2 (qd SAA)
  let Shoulder_AA_f : V6 := ((i.Shoulder_AA *ᵥ Shoulder_AA_a) + (vxIvz (qd SAA) i.Shoulder_AA)) - (fext SHOULDER_AA)
  let Shoulder_FE_v : V6 := m.fr_Shoulder_FE_X_fr_Shoulder_AA *ᵥ Shoulder_AA_v
  let Shoulder_FE_v : V6 := bump Shoulder_FE_v (qd SFE)
  let vcross : M6 := motionCrossProductMx Shoulder_FE_v vcross
  let Shoulder_FE_a : V6 := (m.fr_Shoulder_FE_X_fr_Shoulder_AA *ᵥ Shoulder_AA_a) + (fun k => (fun k => vcross k 2) k * (qd SFE))
  let Shoulder_FE_a : V6 := bump Shoulder_FE_a (qdd SFE)
  let Shoulder_FE_f : V6 := ((i.Shoulder_FE *ᵥ Shoulder_FE_a) + (vxIv Shoulder_FE_v i.Shoulder_FE)) - (fext SHOULDER_FE)
  let Humerus_R_v : V6 := m.fr_Humerus_R_X_fr_Shoulder_FE *ᵥ Shoulder_FE_v
  let Humerus_R_v : V6 := bump Humerus_R_v (qd HR)
  let vcross : M6 := motionCrossProductMx Humerus_R_v vcross
  let Humerus_R_a : V6 := (m.fr_Humerus_R_X_fr_Shoulder_FE *ᵥ Shoulder_FE_a) + (fun k => (fun k => vcross k 2) k * (qd HR))
  let Humerus_R_a : V6 := bump Humerus_R_a (qdd HR)
  let Humerus_R_f : V6 := ((i.Humerus_R *ᵥ Humerus_R_a) + (vxIv Humerus_R_v i.Humerus_R)) - (fext HUMERUS_R)
  let Elbow_FE_v : V6 := m.fr_Elbow_FE_X_fr_Humerus_R *ᵥ Humerus_R_v
  let Elbow_FE_v : V6 := bump Elbow_FE_v (qd EFE)
  let vcross : M6 := motionCrossProductMx Elbow_FE_v vcross
  let Elbow_FE_a : V6 := (m.fr_Elbow_FE_X_fr_Humerus_R *ᵥ Humerus_R_a) + (fun k => (fun k => vcross k 2) k * (qd EFE))
  let Elbow_FE_a : V6 := bump Elbow_FE_a (qdd EFE)
  let Elbow_FE_f : V6 := ((i.Elbow_FE *ᵥ Elbow_FE_a) + (vxIv Elbow_FE_v i.Elbow_FE)) - (fext ELBOW_FE)
  let Wrist_R_v : V6 := m.fr_Wrist_R_X_fr_Elbow_FE *ᵥ Elbow_FE_v
  let Wrist_R_v : V6 := bump Wrist_R_v (qd WR)
  let vcross : M6 := motionCrossProductMx Wrist_R_v vcross
  let Wrist_R_a : V6 := (m.fr_Wrist_R_X_fr_Elbow_FE *ᵥ Elbow_FE_a) + (fun k => (fun k => vcross k 2) k * (qd WR))
  let Wrist_R_a : V6 := bump Wrist_R_a (qdd WR)
  let Wrist_R_f : V6 := ((i.Wrist_R *ᵥ Wrist_R_a) + (vxIv Wrist_R_v i.Wrist_R)) - (fext WRIST_R)
  let Wrist_FE_v : V6 := m.fr_Wrist_FE_X_fr_Wrist_R *ᵥ Wrist_R_v
  let Wrist_FE_v : V6 := bump Wrist_FE_v (qd WFE)
  let vcross : M6 := motionCrossProductMx Wrist_FE_v vcross
  let Wrist_FE_a : V6 := (m.fr_Wrist_FE_X_fr_Wrist_R *ᵥ Wrist_R_a) + (fun k => (fun k => vcross k 2) k * (qd WFE))
  let Wrist_FE_a : V6 := bump Wrist_FE_a (qdd WFE)
  let Wrist_FE_f : V6 := ((i.Wrist_FE *ᵥ Wrist_FE_a) + (vxIv Wrist_FE_v i.Wrist_FE)) - (fext WRIST_FE)
  let jForces_WFE : ℝ := Wrist_FE_f 2
  let Wrist_R_f : V6 := Wrist_R_f + (m.fr_Wrist_FE_X_fr_Wrist_Rᵀ *ᵥ Wrist_FE_f)
  let jForces_WR : ℝ := Wrist_R_f 2
  let Elbow_FE_f : V6 := Elbow_FE_f + (m.fr_Wrist_R_X_fr_Elbow_FEᵀ *ᵥ Wrist_R_f)
  let jForces_EFE : ℝ := Elbow_FE_f 2
  let Humerus_R_f : V6 := Humerus_R_f + (m.fr_Elbow_FE_X_fr_Humerus_Rᵀ *ᵥ Elbow_FE_f)
  let jForces_HR : ℝ := Humerus_R_f 2
  let Shoulder_FE_f : V6 := Shoulder_FE_f + (m.fr_Humerus_R_X_fr_Shoulder_FEᵀ *ᵥ Humerus_R_f)
  let jForces_SFE : ℝ := Shoulder_FE_f 2
  let Shoulder_AA_f : V6 := Shoulder_AA_f + (m.fr_Shoulder_FE_X_fr_Shoulder_AAᵀ *ᵥ Shoulder_FE_f)
  let jForces_SAA : ℝ := Shoulder_AA_f 2
  ({ Shoulder_AA_v := Shoulder_AA_v, vcross := vcross }, ![jForces_SAA, jForces_SFE, jForces_HR, jForces_EFE, jForces_WR, jForces_WFE])

/-- `G_terms`, with `secondPass` (lines 197-216) (HyA/generated/inverse_dynamics.impl.h:43-65). -/
noncomputable def G_terms (m : MT) (i : Inertias) : Q :=
  let Shoulder_AA_a : V6 := fun k => (fun k => m.fr_Shoulder_AA_X_fr_HyABase k 5) k * grav
  let Shoulder_AA_f : V6 := i.Shoulder_AA *ᵥ Shoulder_AA_a
  let Shoulder_FE_a : V6 := m.fr_Shoulder_FE_X_fr_Shoulder_AA *ᵥ Shoulder_AA_a
  let Shoulder_FE_f : V6 := i.Shoulder_FE *ᵥ Shoulder_FE_a
  let Humerus_R_a : V6 := m.fr_Humerus_R_X_fr_Shoulder_FE *ᵥ Shoulder_FE_a
  let Humerus_R_f : V6 := i.Humerus_R *ᵥ Humerus_R_a
  let Elbow_FE_a : V6 := m.fr_Elbow_FE_X_fr_Humerus_R *ᵥ Humerus_R_a
  let Elbow_FE_f : V6 := i.Elbow_FE *ᵥ Elbow_FE_a
  let Wrist_R_a : V6 := m.fr_Wrist_R_X_fr_Elbow_FE *ᵥ Elbow_FE_a
  let Wrist_R_f : V6 := i.Wrist_R *ᵥ Wrist_R_a
  let Wrist_FE_a : V6 := m.fr_Wrist_FE_X_fr_Wrist_R *ᵥ Wrist_R_a
  let Wrist_FE_f : V6 := i.Wrist_FE *ᵥ Wrist_FE_a
  let jForces_WFE : ℝ := Wrist_FE_f 2
  let Wrist_R_f : V6 := Wrist_R_f + (m.fr_Wrist_FE_X_fr_Wrist_Rᵀ *ᵥ Wrist_FE_f)
  let jForces_WR : ℝ := Wrist_R_f 2
  let Elbow_FE_f : V6 := Elbow_FE_f + (m.fr_Wrist_R_X_fr_Elbow_FEᵀ *ᵥ Wrist_R_f)
  let jForces_EFE : ℝ := Elbow_FE_f 2
  let Humerus_R_f : V6 := Humerus_R_f + (m.fr_Elbow_FE_X_fr_Humerus_Rᵀ *ᵥ Elbow_FE_f)
  let jForces_HR : ℝ := Humerus_R_f 2
  let Shoulder_FE_f : V6 := Shoulder_FE_f + (m.fr_Humerus_R_X_fr_Shoulder_FEᵀ *ᵥ Humerus_R_f)
  let jForces_SFE : ℝ := Shoulder_FE_f 2
  let Shoulder_AA_f : V6 := Shoulder_AA_f + (m.fr_Shoulder_FE_X_fr_Shoulder_AAᵀ *ᵥ Shoulder_FE_f)
  let jForces_SAA : ℝ := Shoulder_AA_f 2
  (![jForces_SAA, jForces_SFE, jForces_HR, jForces_EFE, jForces_WR, jForces_WFE])

/-- `C_terms`, with `secondPass` (lines 197-216) (HyA/generated/inverse_dynamics.impl.h:68-127). -/
noncomputable def C_terms (s : IDState) (m : MT) (i : Inertias) (qd : Q) : IDState × Q :=
  let Shoulder_AA_v := s.Shoulder_AA_v
  let vcross := s.vcross
  let Shoulder_AA_v : V6 := Function.update Shoulder_AA_v 2 (qd SAA)
  let Shoulder_AA_f : V6 := vxIvz (qd SAA) i.Shoulder_AA
  let Shoulder_FE_v : V6 := m.fr_Shoulder_FE_X_fr_Shoulder_AA *ᵥ Shoulder_AA_v
  let Shoulder_FE_v : V6 := bump Shoulder_FE_v (qd SFE)
  let vcross : M6 := motionCrossProductMx Shoulder_FE_v vcross
  let Shoulder_FE_a : V6 := fun k => (fun k => vcross k 2) k * (qd SFE)
  let Shoulder_FE_f : V6 := (i.Shoulder_FE *ᵥ Shoulder_FE_a) + (vxIv Shoulder_FE_v i.Shoulder_FE)
  let Humerus_R_v : V6 := m.fr_Humerus_R_X_fr_Shoulder_FE *ᵥ Shoulder_FE_v
  let Humerus_R_v : V6 := bump Humerus_R_v (qd HR)
  let vcross : M6 := motionCrossProductMx Humerus_R_v vcross
  let Humerus_R_a : V6 := (m.fr_Humerus_R_X_fr_Shoulder_FE *ᵥ Shoulder_FE_a) + (fun k => (fun k => vcross k 2) k * (qd HR))
  let Humerus_R_f : V6 := (i.Humerus_R *ᵥ Humerus_R_a) + (vxIv Humerus_R_v i.Humerus_R)
  let Elbow_FE_v : V6 := m.fr_Elbow_FE_X_fr_Humerus_R *ᵥ Humerus_R_v
  let Elbow_FE_v : V6 := bump Elbow_FE_v (qd EFE)
  let vcross : M6 := motionCrossProductMx Elbow_FE_v vcross
  let Elbow_FE_a : V6 := (m.fr_Elbow_FE_X_fr_Humerus_R *ᵥ Humerus_R_a) + (fun k => (fun k => vcross k 2) k * (qd EFE))
  let Elbow_FE_f : V6 := (i.Elbow_FE *ᵥ Elbow_FE_a) + (vxIv Elbow_FE_v i.Elbow_FE)
  let Wrist_R_v : V6 := m.fr_Wrist_R_X_fr_Elbow_FE *ᵥ Elbow_FE_v
  let Wrist_R_v : V6 := bump Wrist_R_v (qd WR)
  let vcross : M6 := motionCrossProductMx Wrist_R_v vcross
  let Wrist_R_a : V6 := (m.fr_Wrist_R_X_fr_Elbow_FE *ᵥ Elbow_FE_a) + (fun k => (fun k => vcross k 2) k * (qd WR))
  let Wrist_R_f : V6 := (i.Wrist_R *ᵥ Wrist_R_a) + (vxIv Wrist_R_v i.Wrist_R)
  let Wrist_FE_v : V6 := m.fr_Wrist_FE_X_fr_Wrist_R *ᵥ Wrist_R_v
  let Wrist_FE_v : V6 := bump Wrist_FE_v (qd WFE)
  let vcross : M6 := motionCrossProductMx Wrist_FE_v vcross
  let Wrist_FE_a : V6 := (m.fr_Wrist_FE_X_fr_Wrist_R *ᵥ Wrist_R_a) + (fun k => (fun k => vcross k 2) k * (qd WFE))
  let Wrist_FE_f : V6 := (i.Wrist_FE *ᵥ Wrist_FE_a) + (vxIv Wrist_FE_v i.Wrist_FE)
  let jForces_WFE : ℝ := Wrist_FE_f 2
  let Wrist_R_f : V6 := Wrist_R_f + (m.fr_Wrist_FE_X_fr_Wrist_Rᵀ *ᵥ Wrist_FE_f)
  let jForces_WR : ℝ := Wrist_R_f 2
  let Elbow_FE_f : V6 := Elbow_FE_f + (m.fr_Wrist_R_X_fr_Elbow_FEᵀ *ᵥ Wrist_R_f)
  let jForces_EFE : ℝ := Elbow_FE_f 2
  let Humerus_R_f : V6 := Humerus_R_f + (m.fr_Elbow_FE_X_fr_Humerus_Rᵀ *ᵥ Elbow_FE_f)
  let jForces_HR : ℝ := Humerus_R_f 2
  let Shoulder_FE_f : V6 := Shoulder_FE_f + (m.fr_Humerus_R_X_fr_Shoulder_FEᵀ *ᵥ Humerus_R_f)
  let jForces_SFE : ℝ := Shoulder_FE_f 2
  let Shoulder_AA_f : V6 := Shoulder_AA_f + (m.fr_Shoulder_FE_X_fr_Shoulder_AAᵀ *ᵥ Shoulder_FE_f)
  let jForces_SAA : ℝ := Shoulder_AA_f 2
  ({ Shoulder_AA_v := Shoulder_AA_v, vcross := vcross }, ![jForces_SAA, jForces_SFE, jForces_HR, jForces_EFE, jForces_WR, jForces_WFE])

/-! ### Joint space inertia matrix -/

/-- `JSIM::update` after the transforms are up to date; `M` is the matrix before and `Ic_spare`
the member of that name (HyA/generated/jsim.impl.h:17-128). -/
noncomputable def jsim (_M : Matrix (Fin 6) (Fin 6) ℝ) (Ic_spare : M6) (ft : FT) (i : Inertias) : M6 × Matrix (Fin 6) (Fin 6) ℝ :=
  let Shoulder_AA_Ic : M6 := i.Shoulder_AA
  let Shoulder_FE_Ic : M6 := i.Shoulder_FE
  let Humerus_R_Ic : M6 := i.Humerus_R
  let Elbow_FE_Ic : M6 := i.Elbow_FE
  let Wrist_R_Ic : M6 := i.Wrist_R
  let Ic_spare : M6 := transformInertia i.Wrist_FE ft.fr_Wrist_R_X_fr_Wrist_FE Ic_spare
  let Wrist_R_Ic : M6 := Inertia.addAssign Wrist_R_Ic Ic_spare
  let F : V6 := fun k => i.Wrist_FE k 2
  let DATA_WFE_WFE : ℝ := F 2
  let F : V6 := ft.fr_Wrist_R_X_fr_Wrist_FE *ᵥ F
  let DATA_WFE_WR : ℝ := F 2
  let DATA_WR_WFE : ℝ := DATA_WFE_WR
  let F : V6 := ft.fr_Elbow_FE_X_fr_Wrist_R *ᵥ F
  let DATA_WFE_EFE : ℝ := F 2
  let DATA_EFE_WFE : ℝ := DATA_WFE_EFE
  let F : V6 := ft.fr_Humerus_R_X_fr_Elbow_FE *ᵥ F
  let DATA_WFE_HR : ℝ := F 2
  let DATA_HR_WFE : ℝ := DATA_WFE_HR
  let F : V6 := ft.fr_Shoulder_FE_X_fr_Humerus_R *ᵥ F
  let DATA_WFE_SFE : ℝ := F 2
  let DATA_SFE_WFE : ℝ := DATA_WFE_SFE
  let F : V6 := ft.fr_Shoulder_AA_X_fr_Shoulder_FE *ᵥ F
  let DATA_WFE_SAA : ℝ := F 2
  let DATA_SAA_WFE : ℝ := DATA_WFE_SAA
  let Ic_spare : M6 := transformInertia Wrist_R_Ic ft.fr_Elbow_FE_X_fr_Wrist_R Ic_spare
  let Elbow_FE_Ic : M6 := Inertia.addAssign Elbow_FE_Ic Ic_spare
  let F : V6 := fun k => Wrist_R_Ic k 2
  let DATA_WR_WR : ℝ := F 2
  let F : V6 := ft.fr_Elbow_FE_X_fr_Wrist_R *ᵥ F
  let DATA_WR_EFE : ℝ := F 2
  let DATA_EFE_WR : ℝ := DATA_WR_EFE
  let F : V6 := ft.fr_Humerus_R_X_fr_Elbow_FE *ᵥ F
  let DATA_WR_HR : ℝ := F 2
  let DATA_HR_WR : ℝ := DATA_WR_HR
  let F : V6 := ft.fr_Shoulder_FE_X_fr_Humerus_R *ᵥ F
  let DATA_WR_SFE : ℝ := F 2
  let DATA_SFE_WR : ℝ := DATA_WR_SFE
  let F : V6 := ft.fr_Shoulder_AA_X_fr_Shoulder_FE *ᵥ F
  let DATA_WR_SAA : ℝ := F 2
  let DATA_SAA_WR : ℝ := DATA_WR_SAA
  let Ic_spare : M6 := transformInertia Elbow_FE_Ic ft.fr_Humerus_R_X_fr_Elbow_FE Ic_spare
  let Humerus_R_Ic : M6 := Inertia.addAssign Humerus_R_Ic Ic_spare
  let F : V6 := fun k => Elbow_FE_Ic k 2
  let DATA_EFE_EFE : ℝ := F 2
  let F : V6 := ft.fr_Humerus_R_X_fr_Elbow_FE *ᵥ F
  let DATA_EFE_HR : ℝ := F 2
  let DATA_HR_EFE : ℝ := DATA_EFE_HR
  let F : V6 := ft.fr_Shoulder_FE_X_fr_Humerus_R *ᵥ F
  let DATA_EFE_SFE : ℝ := F 2
  let DATA_SFE_EFE : ℝ := DATA_EFE_SFE
  let F : V6 := ft.fr_Shoulder_AA_X_fr_Shoulder_FE *ᵥ F
  let DATA_EFE_SAA : ℝ := F 2
  let DATA_SAA_EFE : ℝ := DATA_EFE_SAA
  let Ic_spare : M6 := transformInertia Humerus_R_Ic ft.fr_Shoulder_FE_X_fr_Humerus_R Ic_spare
  let Shoulder_FE_Ic : M6 := Inertia.addAssign Shoulder_FE_Ic Ic_spare
  let F : V6 := fun k => Humerus_R_Ic k 2
  let DATA_HR_HR : ℝ := F 2
  let F : V6 := ft.fr_Shoulder_FE_X_fr_Humerus_R *ᵥ F
  let DATA_HR_SFE : ℝ := F 2
  let DATA_SFE_HR : ℝ := DATA_HR_SFE
  let F : V6 := ft.fr_Shoulder_AA_X_fr_Shoulder_FE *ᵥ F
  let DATA_HR_SAA : ℝ := F 2
  let DATA_SAA_HR : ℝ := DATA_HR_SAA
  let Ic_spare : M6 := transformInertia Shoulder_FE_Ic ft.fr_Shoulder_AA_X_fr_Shoulder_FE Ic_spare
  let Shoulder_AA_Ic : M6 := Inertia.addAssign Shoulder_AA_Ic Ic_spare
  let F : V6 := fun k => Shoulder_FE_Ic k 2
  let DATA_SFE_SFE : ℝ := F 2
  let F : V6 := ft.fr_Shoulder_AA_X_fr_Shoulder_FE *ᵥ F
  let DATA_SFE_SAA : ℝ := F 2
  let DATA_SAA_SFE : ℝ := DATA_SFE_SAA
  let F : V6 := fun k => Shoulder_AA_Ic k 2
  let DATA_SAA_SAA : ℝ := F 2
  (Ic_spare,
    !![DATA_SAA_SAA, DATA_SAA_SFE, DATA_SAA_HR, DATA_SAA_EFE, DATA_SAA_WR, DATA_SAA_WFE;
     DATA_SFE_SAA, DATA_SFE_SFE, DATA_SFE_HR, DATA_SFE_EFE, DATA_SFE_WR, DATA_SFE_WFE;
     DATA_HR_SAA, DATA_HR_SFE, DATA_HR_HR, DATA_HR_EFE, DATA_HR_WR, DATA_HR_WFE;
     DATA_EFE_SAA, DATA_EFE_SFE, DATA_EFE_HR, DATA_EFE_EFE, DATA_EFE_WR, DATA_EFE_WFE;
     DATA_WR_SAA, DATA_WR_SFE, DATA_WR_HR, DATA_WR_EFE, DATA_WR_WR, DATA_WR_WFE;
     DATA_WFE_SAA, DATA_WFE_SFE, DATA_WFE_HR, DATA_WFE_EFE, DATA_WFE_WR, DATA_WFE_WFE])

/-! ### Links and joints -/

/-- The links of the robot, with the joints that carry them. -/
def links (m : MT) (ft : FT) (i : Inertias) (qd : Q) (fext : Ext) : List Joint :=
  [{ X := m.fr_Shoulder_AA_X_fr_HyABase, XF := m.fr_Shoulder_AA_X_fr_HyABaseᵀ, I := i.Shoulder_AA, fext := fext SHOULDER_AA, qd := qd SAA },
   { X := m.fr_Shoulder_FE_X_fr_Shoulder_AA, XF := ft.fr_Shoulder_AA_X_fr_Shoulder_FE, I := i.Shoulder_FE, fext := fext SHOULDER_FE, qd := qd SFE },
   { X := m.fr_Humerus_R_X_fr_Shoulder_FE, XF := ft.fr_Shoulder_FE_X_fr_Humerus_R, I := i.Humerus_R, fext := fext HUMERUS_R, qd := qd HR },
   { X := m.fr_Elbow_FE_X_fr_Humerus_R, XF := ft.fr_Humerus_R_X_fr_Elbow_FE, I := i.Elbow_FE, fext := fext ELBOW_FE, qd := qd EFE },
   { X := m.fr_Wrist_R_X_fr_Elbow_FE, XF := ft.fr_Elbow_FE_X_fr_Wrist_R, I := i.Wrist_R, fext := fext WRIST_R, qd := qd WR },
   { X := m.fr_Wrist_FE_X_fr_Wrist_R, XF := ft.fr_Wrist_R_X_fr_Wrist_FE, I := i.Wrist_FE, fext := fext WRIST_FE, qd := qd WFE }]

/-! ### The robot object -/

/-- The members of `RobCoGenContainer` (ct_rbd/include/ct/rbd/robot/RobCoGenContainer.h:204-211) that the
dynamics use.  `H` is the joint space inertia matrix. -/
structure Robot where
  m : MT
  ft : FT
  i : Inertias
  fds : FDState
  ids : IDState
  H : Matrix (Fin 6) (Fin 6) ℝ
  Ic_spare : M6

/-- Constructor of `RobCoGenContainer` (RobCoGenContainer.h:27-35) with the one of `JSIM`
(HyA/generated/jsim.impl.h:5-12); `z` is what the memory contained. -/
noncomputable def Robot.new (z : Robot) : Robot where
  m := MT.new z.m
  ft := FT.new z.ft
  i := Inertias.new z.i
  fds := FDState.new
  ids := IDState.new
  H := 0
  Ic_spare := Inertia.new z.Ic_spare

/-- `fd` with the joint positions (HyA/generated/forward_dynamics.h:169-178). -/
noncomputable def Robot.fd (o : Robot) (q : Q) (qd tau : Q) (fext : Ext) : Robot × Q :=
  let m := o.m.setJointStatus q
  let r := Robots.HyA.fd o.fds m o.i qd tau fext
  ({ o with m := m, fds := r.1 }, r.2)

/-- `id` with the joint positions (HyA/generated/inverse_dynamics.h:220-227). -/
noncomputable def Robot.id (o : Robot) (q : Q) (qd qdd : Q) (fext : Ext) : Robot × Q :=
  let m := o.m.setJointStatus q
  let r := Robots.HyA.id o.ids m o.i qd qdd fext
  ({ o with m := m, ids := r.1 }, r.2)

/-- `G_terms` with the joint positions (HyA/generated/inverse_dynamics.h:206-210). -/
noncomputable def Robot.G_terms (o : Robot) (q : Q) : Robot × Q :=
  let m := o.m.setJointStatus q
  ({ o with m := m }, Robots.HyA.G_terms m o.i)

/-- `C_terms` with the joint positions (HyA/generated/inverse_dynamics.h:213-217). -/
noncomputable def Robot.C_terms (o : Robot) (q : Q) (qd : Q) : Robot × Q :=
  let m := o.m.setJointStatus q
  let r := Robots.HyA.C_terms o.ids m o.i qd
  ({ o with m := m, ids := r.1 }, r.2)

/-- `JSIM::update` (HyA/generated/jsim.impl.h:17-128). -/
noncomputable def Robot.jsim (o : Robot) (q : Q) : Robot × Matrix (Fin 6) (Fin 6) ℝ :=
  let ft := o.ft.set q
  let r := Robots.HyA.jsim o.H o.Ic_spare ft o.i
  ({ o with ft := ft, Ic_spare := r.1, H := r.2 }, r.2)

/-- A call of one of the functions. -/
inductive Call where
  | fd (q : Q) (qd tau : Q) (fext : Ext)
  | id (q : Q) (qd qdd : Q) (fext : Ext)
  | G_terms (q : Q)
  | C_terms (q : Q) (qd : Q)
  | jsim (q : Q)

/-- What a call does to the object. -/
noncomputable def Robot.step (o : Robot) : Call → Robot
  | .fd q qd tau fext => (o.fd q qd tau fext).1
  | .id q qd qdd fext => (o.id q qd qdd fext).1
  | .G_terms q => (o.G_terms q).1
  | .C_terms q qd => (o.C_terms q qd).1
  | .jsim q => (o.jsim q).1

/-- The object after the given calls, `z` being what the memory contained before its construction. -/
noncomputable def Robot.after (z : Robot) (calls : List Call) : Robot := calls.foldl Robot.step (Robot.new z)

end CT.Robots.HyA
