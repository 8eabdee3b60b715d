import Verif.Model.GenKin

/-!
# HyA: generated kinematics

Translation of all coordinate transforms and Jacobians in
`ct_models/include/ct/models/HyA/generated/transforms.impl.h` and `jacobians.impl.h`, one entry for each
assignment, written by `tools/gen_kin.py`.  Line numbers are those of these two files.
-/

namespace CT.Robots.HyA.Kin

open CT.GenKin

/-! ### Frames, in the order of the links and then of their appearance -/

abbrev fr_HyABase : ℕ := 0
abbrev fr_Shoulder_AA : ℕ := 1
abbrev fr_Shoulder_FE : ℕ := 2
abbrev fr_Humerus_R : ℕ := 3
abbrev fr_Elbow_FE : ℕ := 4
abbrev fr_Wrist_R : ℕ := 5
abbrev fr_Wrist_FE : ℕ := 6
abbrev fr_ee : ℕ := 7
abbrev fr_Shoulder_AA_COM : ℕ := 8
abbrev fr_Shoulder_FE_COM : ℕ := 9
abbrev fr_Humerus_R_COM : ℕ := 10
abbrev fr_Elbow_FE_COM : ℕ := 11
abbrev fr_Wrist_R_COM : ℕ := 12
abbrev fr_Wrist_FE_COM : ℕ := 13
abbrev fr_Shoulder_AA_CTR : ℕ := 14
abbrev fr_Shoulder_FE_CTR : ℕ := 15
abbrev fr_Humerus_R_CTR : ℕ := 16
abbrev fr_Elbow_FE_CTR : ℕ := 17
abbrev fr_Wrist_R_CTR : ℕ := 18
abbrev fr_SAA : ℕ := 19
abbrev fr_SFE : ℕ := 20
abbrev fr_HR : ℕ := 21
abbrev fr_EFE : ℕ := 22
abbrev fr_WR : ℕ := 23
abbrev fr_WFE : ℕ := 24

/-! ### Joints (declarations.h) -/

abbrev SAA : ℕ := 0
abbrev SFE : ℕ := 1
abbrev HR : ℕ := 2
abbrev EFE : ℕ := 3
abbrev WR : ℕ := 4
abbrev WFE : ℕ := 5

/-! ### Coordinate transforms -/

/-- `HomogeneousTransforms::Type_fr_HyABase_X_fr_Shoulder_AA` (transforms.impl.h:5885-5899, 5901-5913). -/
def hom_fr_HyABase_X_fr_Shoulder_AA : Gen where
  rows := 4
  cols := 4
  ctor := [⟨0, 2, .k 0 0⟩,
    ⟨0, 3, .k 0 0⟩,
    ⟨1, 2, .k 0 0⟩,
    ⟨1, 3, .k 0 0⟩,
    ⟨2, 0, .k 0 0⟩,
    ⟨2, 1, .k 0 0⟩,
    ⟨2, 2, .k 1 0⟩,
    ⟨2, 3, .k 0 0⟩,
    ⟨3, 0, .k 0 0⟩,
    ⟨3, 1, .k 0 0⟩,
    ⟨3, 2, .k 0 0⟩,
    ⟨3, 3, .k 1 0⟩]
  upd := [⟨0, 0, .c 0⟩,
    ⟨0, 1, .neg (.s 0)⟩,
    ⟨1, 0, .s 0⟩,
    ⟨1, 1, .c 0⟩]

/-- `MotionTransforms::Type_fr_HyABase_X_fr_Shoulder_AA` (transforms.impl.h:187-217, 219-235). -/
def motion_fr_HyABase_X_fr_Shoulder_AA : Gen where
  rows := 6
  cols := 6
  ctor := [⟨0, 2, .k 0 0⟩,
    ⟨0, 3, .k 0 0⟩,
    ⟨0, 4, .k 0 0⟩,
    ⟨0, 5, .k 0 0⟩,
    ⟨1, 2, .k 0 0⟩,
    ⟨1, 3, .k 0 0⟩,
    ⟨1, 4, .k 0 0⟩,
    ⟨1, 5, .k 0 0⟩,
    ⟨2, 0, .k 0 0⟩,
    ⟨2, 1, .k 0 0⟩,
    ⟨2, 2, .k 1 0⟩,
    ⟨2, 3, .k 0 0⟩,
    ⟨2, 4, .k 0 0⟩,
    ⟨2, 5, .k 0 0⟩,
    ⟨3, 0, .k 0 0⟩,
    ⟨3, 1, .k 0 0⟩,
    ⟨3, 2, .k 0 0⟩,
    ⟨3, 5, .k 0 0⟩,
    ⟨4, 0, .k 0 0⟩,
    ⟨4, 1, .k 0 0⟩,
    ⟨4, 2, .k 0 0⟩,
    ⟨4, 5, .k 0 0⟩,
    ⟨5, 0, .k 0 0⟩,
    ⟨5, 1, .k 0 0⟩,
    ⟨5, 2, .k 0 0⟩,
    ⟨5, 3, .k 0 0⟩,
    ⟨5, 4, .k 0 0⟩,
    ⟨5, 5, .k 1 0⟩]
  upd := [⟨0, 0, .c 0⟩,
    ⟨0, 1, .neg (.s 0)⟩,
    ⟨1, 0, .s 0⟩,
    ⟨1, 1, .c 0⟩,
    ⟨3, 3, .c 0⟩,
    ⟨3, 4, .neg (.s 0)⟩,
    ⟨4, 3, .s 0⟩,
    ⟨4, 4, .c 0⟩]

/-- `ForceTransforms::Type_fr_HyABase_X_fr_Shoulder_AA` (transforms.impl.h:3036-3066, 3068-3084). -/
def force_fr_HyABase_X_fr_Shoulder_AA : Gen where
  rows := 6
  cols := 6
  ctor := [⟨0, 2, .k 0 0⟩,
    ⟨0, 3, .k 0 0⟩,
    ⟨0, 4, .k 0 0⟩,
    ⟨0, 5, .k 0 0⟩,
    ⟨1, 2, .k 0 0⟩,
    ⟨1, 3, .k 0 0⟩,
    ⟨1, 4, .k 0 0⟩,
    ⟨1, 5, .k 0 0⟩,
    ⟨2, 0, .k 0 0⟩,
    ⟨2, 1, .k 0 0⟩,
    ⟨2, 2, .k 1 0⟩,
    ⟨2, 3, .k 0 0⟩,
    ⟨2, 4, .k 0 0⟩,
    ⟨2, 5, .k 0 0⟩,
    ⟨3, 0, .k 0 0⟩,
    ⟨3, 1, .k 0 0⟩,
    ⟨3, 2, .k 0 0⟩,
    ⟨3, 5, .k 0 0⟩,
    ⟨4, 0, .k 0 0⟩,
    ⟨4, 1, .k 0 0⟩,
    ⟨4, 2, .k 0 0⟩,
    ⟨4, 5, .k 0 0⟩,
    ⟨5, 0, .k 0 0⟩,
    ⟨5, 1, .k 0 0⟩,
    ⟨5, 2, .k 0 0⟩,
    ⟨5, 3, .k 0 0⟩,
    ⟨5, 4, .k 0 0⟩,
    ⟨5, 5, .k 1 0⟩]
  upd := [⟨0, 0, .c 0⟩,
    ⟨0, 1, .neg (.s 0)⟩,
    ⟨1, 0, .s 0⟩,
    ⟨1, 1, .c 0⟩,
    ⟨3, 3, .c 0⟩,
    ⟨3, 4, .neg (.s 0)⟩,
    ⟨4, 3, .s 0⟩,
    ⟨4, 4, .c 0⟩]

/-- The transforms `fr_HyABase_X_fr_Shoulder_AA`. -/
def fr_HyABase_X_fr_Shoulder_AA : Trans := ⟨fr_HyABase, fr_Shoulder_AA, hom_fr_HyABase_X_fr_Shoulder_AA, motion_fr_HyABase_X_fr_Shoulder_AA, force_fr_HyABase_X_fr_Shoulder_AA⟩

/-- `HomogeneousTransforms::Type_fr_HyABase_X_fr_Shoulder_FE` (transforms.impl.h:5915-5925, 5927-5947). -/
def hom_fr_HyABase_X_fr_Shoulder_FE : Gen where
  rows := 4
  cols := 4
  ctor := [⟨0, 3, .k 0 0⟩,
    ⟨1, 3, .k 0 0⟩,
    ⟨2, 2, .k 0 0⟩,
    ⟨2, 3, .k 178 3⟩,
    ⟨3, 0, .k 0 0⟩,
    ⟨3, 1, .k 0 0⟩,
    ⟨3, 2, .k 0 0⟩,
    ⟨3, 3, .k 1 0⟩]
  upd := [⟨0, 0, (.c 0) ⊠ (.c 1)⟩,
    ⟨0, 1, (.neg (.c 0)) ⊠ (.s 1)⟩,
    ⟨0, 2, .s 0⟩,
    ⟨1, 0, (.s 0) ⊠ (.c 1)⟩,
    ⟨1, 1, (.neg (.s 0)) ⊠ (.s 1)⟩,
    ⟨1, 2, .neg (.c 0)⟩,
    ⟨2, 0, .s 1⟩,
    ⟨2, 1, .c 1⟩]

/-- `MotionTransforms::Type_fr_HyABase_X_fr_Shoulder_FE` (transforms.impl.h:237-253, 255-289). -/
def motion_fr_HyABase_X_fr_Shoulder_FE : Gen where
  rows := 6
  cols := 6
  ctor := [⟨0, 3, .k 0 0⟩,
    ⟨0, 4, .k 0 0⟩,
    ⟨0, 5, .k 0 0⟩,
    ⟨1, 3, .k 0 0⟩,
    ⟨1, 4, .k 0 0⟩,
    ⟨1, 5, .k 0 0⟩,
    ⟨2, 2, .k 0 0⟩,
    ⟨2, 3, .k 0 0⟩,
    ⟨2, 4, .k 0 0⟩,
    ⟨2, 5, .k 0 0⟩,
    ⟨5, 0, .k 0 0⟩,
    ⟨5, 1, .k 0 0⟩,
    ⟨5, 2, .k 0 0⟩,
    ⟨5, 5, .k 0 0⟩]
  upd := [⟨0, 0, (.c 0) ⊠ (.c 1)⟩,
    ⟨0, 1, (.neg (.c 0)) ⊠ (.s 1)⟩,
    ⟨0, 2, .s 0⟩,
    ⟨1, 0, (.s 0) ⊠ (.c 1)⟩,
    ⟨1, 1, (.neg (.s 0)) ⊠ (.s 1)⟩,
    ⟨1, 2, .neg (.c 0)⟩,
    ⟨2, 0, .s 1⟩,
    ⟨2, 1, .c 1⟩,
    ⟨3, 0, ((.neg (.k 178 3)) ⊠ (.s 0)) ⊠ (.c 1)⟩,
    ⟨3, 1, ((.k 178 3) ⊠ (.s 0)) ⊠ (.s 1)⟩,
    ⟨3, 2, (.k 178 3) ⊠ (.c 0)⟩,
    ⟨3, 3, (.c 0) ⊠ (.c 1)⟩,
    ⟨3, 4, (.neg (.c 0)) ⊠ (.s 1)⟩,
    ⟨3, 5, .s 0⟩,
    ⟨4, 0, ((.k 178 3) ⊠ (.c 0)) ⊠ (.c 1)⟩,
    ⟨4, 1, ((.neg (.k 178 3)) ⊠ (.c 0)) ⊠ (.s 1)⟩,
    ⟨4, 2, (.k 178 3) ⊠ (.s 0)⟩,
    ⟨4, 3, (.s 0) ⊠ (.c 1)⟩,
    ⟨4, 4, (.neg (.s 0)) ⊠ (.s 1)⟩,
    ⟨4, 5, .neg (.c 0)⟩,
    ⟨5, 3, .s 1⟩,
    ⟨5, 4, .c 1⟩]

/-- `ForceTransforms::Type_fr_HyABase_X_fr_Shoulder_FE` (transforms.impl.h:3086-3102, 3104-3138). -/
def force_fr_HyABase_X_fr_Shoulder_FE : Gen where
  rows := 6
  cols := 6
  ctor := [⟨2, 2, .k 0 0⟩,
    ⟨2, 3, .k 0 0⟩,
    ⟨2, 4, .k 0 0⟩,
    ⟨2, 5, .k 0 0⟩,
    ⟨3, 0, .k 0 0⟩,
    ⟨3, 1, .k 0 0⟩,
    ⟨3, 2, .k 0 0⟩,
    ⟨4, 0, .k 0 0⟩,
    ⟨4, 1, .k 0 0⟩,
    ⟨4, 2, .k 0 0⟩,
    ⟨5, 0, .k 0 0⟩,
    ⟨5, 1, .k 0 0⟩,
    ⟨5, 2, .k 0 0⟩,
    ⟨5, 5, .k 0 0⟩]
  upd := [⟨0, 0, (.c 0) ⊠ (.c 1)⟩,
    ⟨0, 1, (.neg (.c 0)) ⊠ (.s 1)⟩,
    ⟨0, 2, .s 0⟩,
    ⟨0, 3, ((.neg (.k 178 3)) ⊠ (.s 0)) ⊠ (.c 1)⟩,
    ⟨0, 4, ((.k 178 3) ⊠ (.s 0)) ⊠ (.s 1)⟩,
    ⟨0, 5, (.k 178 3) ⊠ (.c 0)⟩,
    ⟨1, 0, (.s 0) ⊠ (.c 1)⟩,
    ⟨1, 1, (.neg (.s 0)) ⊠ (.s 1)⟩,
    ⟨1, 2, .neg (.c 0)⟩,
    ⟨1, 3, ((.k 178 3) ⊠ (.c 0)) ⊠ (.c 1)⟩,
    ⟨1, 4, ((.neg (.k 178 3)) ⊠ (.c 0)) ⊠ (.s 1)⟩,
    ⟨1, 5, (.k 178 3) ⊠ (.s 0)⟩,
    ⟨2, 0, .s 1⟩,
    ⟨2, 1, .c 1⟩,
    ⟨3, 3, (.c 0) ⊠ (.c 1)⟩,
    ⟨3, 4, (.neg (.c 0)) ⊠ (.s 1)⟩,
    ⟨3, 5, .s 0⟩,
    ⟨4, 3, (.s 0) ⊠ (.c 1)⟩,
    ⟨4, 4, (.neg (.s 0)) ⊠ (.s 1)⟩,
    ⟨4, 5, .neg (.c 0)⟩,
    ⟨5, 3, .s 1⟩,
    ⟨5, 4, .c 1⟩]

/-- The transforms `fr_HyABase_X_fr_Shoulder_FE`. -/
def fr_HyABase_X_fr_Shoulder_FE : Trans := ⟨fr_HyABase, fr_Shoulder_FE, hom_fr_HyABase_X_fr_Shoulder_FE, motion_fr_HyABase_X_fr_Shoulder_FE, force_fr_HyABase_X_fr_Shoulder_FE⟩

/-- `HomogeneousTransforms::Type_fr_HyABase_X_fr_Humerus_R` (transforms.impl.h:5949-5955, 5957-5985). -/
def hom_fr_HyABase_X_fr_Humerus_R : Gen where
  rows := 4
  cols := 4
  ctor := [⟨3, 0, .k 0 0⟩,
    ⟨3, 1, .k 0 0⟩,
    ⟨3, 2, .k 0 0⟩,
    ⟨3, 3, .k 1 0⟩]
  upd := [⟨0, 0, (((.neg (.s 2)) ⊠ (.c 0)) ⊠ (.s 1)) ⊟ ((.c 2) ⊠ (.s 0))⟩,
    ⟨0, 1, ((.s 2) ⊠ (.s 0)) ⊟ (((.c 2) ⊠ (.c 0)) ⊠ (.s 1))⟩,
    ⟨0, 2, (.c 0) ⊠ (.c 1)⟩,
    ⟨0, 3, ((.k 112 3) ⊠ (.c 0)) ⊠ (.c 1)⟩,
    ⟨1, 0, ((.c 2) ⊠ (.c 0)) ⊟ (((.s 2) ⊠ (.s 0)) ⊠ (.s 1))⟩,
    ⟨1, 1, (((.neg (.c 2)) ⊠ (.s 0)) ⊠ (.s 1)) ⊟ ((.s 2) ⊠ (.c 0))⟩,
    ⟨1, 2, (.s 0) ⊠ (.c 1)⟩,
    ⟨1, 3, ((.k 112 3) ⊠ (.s 0)) ⊠ (.c 1)⟩,
    ⟨2, 0, (.s 2) ⊠ (.c 1)⟩,
    ⟨2, 1, (.c 2) ⊠ (.c 1)⟩,
    ⟨2, 2, .s 1⟩,
    ⟨2, 3, ((.k 112 3) ⊠ (.s 1)) ⊞ (.k 178 3)⟩]

/-- `MotionTransforms::Type_fr_HyABase_X_fr_Humerus_R` (transforms.impl.h:291-303, 305-347). -/
def motion_fr_HyABase_X_fr_Humerus_R : Gen where
  rows := 6
  cols := 6
  ctor := [⟨0, 3, .k 0 0⟩,
    ⟨0, 4, .k 0 0⟩,
    ⟨0, 5, .k 0 0⟩,
    ⟨1, 3, .k 0 0⟩,
    ⟨1, 4, .k 0 0⟩,
    ⟨1, 5, .k 0 0⟩,
    ⟨2, 3, .k 0 0⟩,
    ⟨2, 4, .k 0 0⟩,
    ⟨2, 5, .k 0 0⟩,
    ⟨5, 2, .k 0 0⟩]
  upd := [⟨0, 0, (((.neg (.s 2)) ⊠ (.c 0)) ⊠ (.s 1)) ⊟ ((.c 2) ⊠ (.s 0))⟩,
    ⟨0, 1, ((.s 2) ⊠ (.s 0)) ⊟ (((.c 2) ⊠ (.c 0)) ⊠ (.s 1))⟩,
    ⟨0, 2, (.c 0) ⊠ (.c 1)⟩,
    ⟨1, 0, ((.c 2) ⊠ (.c 0)) ⊟ (((.s 2) ⊠ (.s 0)) ⊠ (.s 1))⟩,
    ⟨1, 1, (((.neg (.c 2)) ⊠ (.s 0)) ⊠ (.s 1)) ⊟ ((.s 2) ⊠ (.c 0))⟩,
    ⟨1, 2, (.s 0) ⊠ (.c 1)⟩,
    ⟨2, 0, (.s 2) ⊠ (.c 1)⟩,
    ⟨2, 1, (.c 2) ⊠ (.c 1)⟩,
    ⟨2, 2, .s 1⟩,
    ⟨3, 0, ((((((.k 178 3) ⊠ (.s 2)) ⊠ (.s 0)) ⊟ (((.k 112 3) ⊠ (.c 2)) ⊠ (.c 0))) ⊠ (.s 1)) ⊞ (((.k 112 3) ⊠ (.s 2)) ⊠ (.s 0))) ⊟ (((.k 178 3) ⊠ (.c 2)) ⊠ (.c 0))⟩,
    ⟨3, 1, ((((((.k 178 3) ⊠ (.c 2)) ⊠ (.s 0)) ⊞ (((.k 112 3) ⊠ (.s 2)) ⊠ (.c 0))) ⊠ (.s 1)) ⊞ (((.k 112 3) ⊠ (.c 2)) ⊠ (.s 0))) ⊞ (((.k 178 3) ⊠ (.s 2)) ⊠ (.c 0))⟩,
    ⟨3, 2, ((.neg (.k 178 3)) ⊠ (.s 0)) ⊠ (.c 1)⟩,
    ⟨3, 3, (((.neg (.s 2)) ⊠ (.c 0)) ⊠ (.s 1)) ⊟ ((.c 2) ⊠ (.s 0))⟩,
    ⟨3, 4, ((.s 2) ⊠ (.s 0)) ⊟ (((.c 2) ⊠ (.c 0)) ⊠ (.s 1))⟩,
    ⟨3, 5, (.c 0) ⊠ (.c 1)⟩,
    ⟨4, 0, ((((((.neg (.k 112 3)) ⊠ (.c 2)) ⊠ (.s 0)) ⊟ (((.k 178 3) ⊠ (.s 2)) ⊠ (.c 0))) ⊠ (.s 1)) ⊟ (((.k 178 3) ⊠ (.c 2)) ⊠ (.s 0))) ⊟ (((.k 112 3) ⊠ (.s 2)) ⊠ (.c 0))⟩,
    ⟨4, 1, ((((((.k 112 3) ⊠ (.s 2)) ⊠ (.s 0)) ⊟ (((.k 178 3) ⊠ (.c 2)) ⊠ (.c 0))) ⊠ (.s 1)) ⊞ (((.k 178 3) ⊠ (.s 2)) ⊠ (.s 0))) ⊟ (((.k 112 3) ⊠ (.c 2)) ⊠ (.c 0))⟩,
    ⟨4, 2, ((.k 178 3) ⊠ (.c 0)) ⊠ (.c 1)⟩,
    ⟨4, 3, ((.c 2) ⊠ (.c 0)) ⊟ (((.s 2) ⊠ (.s 0)) ⊠ (.s 1))⟩,
    ⟨4, 4, (((.neg (.c 2)) ⊠ (.s 0)) ⊠ (.s 1)) ⊟ ((.s 2) ⊠ (.c 0))⟩,
    ⟨4, 5, (.s 0) ⊠ (.c 1)⟩,
    ⟨5, 0, ((.k 112 3) ⊠ (.c 2)) ⊠ (.c 1)⟩,
    ⟨5, 1, ((.neg (.k 112 3)) ⊠ (.s 2)) ⊠ (.c 1)⟩,
    ⟨5, 3, (.s 2) ⊠ (.c 1)⟩,
    ⟨5, 4, (.c 2) ⊠ (.c 1)⟩,
    ⟨5, 5, .s 1⟩]

/-- `ForceTransforms::Type_fr_HyABase_X_fr_Humerus_R` (transforms.impl.h:3140-3152, 3154-3196). -/
def force_fr_HyABase_X_fr_Humerus_R : Gen where
  rows := 6
  cols := 6
  ctor := [⟨2, 5, .k 0 0⟩,
    ⟨3, 0, .k 0 0⟩,
    ⟨3, 1, .k 0 0⟩,
    ⟨3, 2, .k 0 0⟩,
    ⟨4, 0, .k 0 0⟩,
    ⟨4, 1, .k 0 0⟩,
    ⟨4, 2, .k 0 0⟩,
    ⟨5, 0, .k 0 0⟩,
    ⟨5, 1, .k 0 0⟩,
    ⟨5, 2, .k 0 0⟩]
  upd := [⟨0, 0, (((.neg (.s 2)) ⊠ (.c 0)) ⊠ (.s 1)) ⊟ ((.c 2) ⊠ (.s 0))⟩,
    ⟨0, 1, ((.s 2) ⊠ (.s 0)) ⊟ (((.c 2) ⊠ (.c 0)) ⊠ (.s 1))⟩,
    ⟨0, 2, (.c 0) ⊠ (.c 1)⟩,
    ⟨0, 3, ((((((.k 178 3) ⊠ (.s 2)) ⊠ (.s 0)) ⊟ (((.k 112 3) ⊠ (.c 2)) ⊠ (.c 0))) ⊠ (.s 1)) ⊞ (((.k 112 3) ⊠ (.s 2)) ⊠ (.s 0))) ⊟ (((.k 178 3) ⊠ (.c 2)) ⊠ (.c 0))⟩,
    ⟨0, 4, ((((((.k 178 3) ⊠ (.c 2)) ⊠ (.s 0)) ⊞ (((.k 112 3) ⊠ (.s 2)) ⊠ (.c 0))) ⊠ (.s 1)) ⊞ (((.k 112 3) ⊠ (.c 2)) ⊠ (.s 0))) ⊞ (((.k 178 3) ⊠ (.s 2)) ⊠ (.c 0))⟩,
    ⟨0, 5, ((.neg (.k 178 3)) ⊠ (.s 0)) ⊠ (.c 1)⟩,
    ⟨1, 0, ((.c 2) ⊠ (.c 0)) ⊟ (((.s 2) ⊠ (.s 0)) ⊠ (.s 1))⟩,
    ⟨1, 1, (((.neg (.c 2)) ⊠ (.s 0)) ⊠ (.s 1)) ⊟ ((.s 2) ⊠ (.c 0))⟩,
    ⟨1, 2, (.s 0) ⊠ (.c 1)⟩,
    ⟨1, 3, ((((((.neg (.k 112 3)) ⊠ (.c 2)) ⊠ (.s 0)) ⊟ (((.k 178 3) ⊠ (.s 2)) ⊠ (.c 0))) ⊠ (.s 1)) ⊟ (((.k 178 3) ⊠ (.c 2)) ⊠ (.s 0))) ⊟ (((.k 112 3) ⊠ (.s 2)) ⊠ (.c 0))⟩,
    ⟨1, 4, ((((((.k 112 3) ⊠ (.s 2)) ⊠ (.s 0)) ⊟ (((.k 178 3) ⊠ (.c 2)) ⊠ (.c 0))) ⊠ (.s 1)) ⊞ (((.k 178 3) ⊠ (.s 2)) ⊠ (.s 0))) ⊟ (((.k 112 3) ⊠ (.c 2)) ⊠ (.c 0))⟩,
    ⟨1, 5, ((.k 178 3) ⊠ (.c 0)) ⊠ (.c 1)⟩,
    ⟨2, 0, (.s 2) ⊠ (.c 1)⟩,
    ⟨2, 1, (.c 2) ⊠ (.c 1)⟩,
    ⟨2, 2, .s 1⟩,
    ⟨2, 3, ((.k 112 3) ⊠ (.c 2)) ⊠ (.c 1)⟩,
    ⟨2, 4, ((.neg (.k 112 3)) ⊠ (.s 2)) ⊠ (.c 1)⟩,
    ⟨3, 3, (((.neg (.s 2)) ⊠ (.c 0)) ⊠ (.s 1)) ⊟ ((.c 2) ⊠ (.s 0))⟩,
    ⟨3, 4, ((.s 2) ⊠ (.s 0)) ⊟ (((.c 2) ⊠ (.c 0)) ⊠ (.s 1))⟩,
    ⟨3, 5, (.c 0) ⊠ (.c 1)⟩,
    ⟨4, 3, ((.c 2) ⊠ (.c 0)) ⊟ (((.s 2) ⊠ (.s 0)) ⊠ (.s 1))⟩,
    ⟨4, 4, (((.neg (.c 2)) ⊠ (.s 0)) ⊠ (.s 1)) ⊟ ((.s 2) ⊠ (.c 0))⟩,
    ⟨4, 5, (.s 0) ⊠ (.c 1)⟩,
    ⟨5, 3, (.s 2) ⊠ (.c 1)⟩,
    ⟨5, 4, (.c 2) ⊠ (.c 1)⟩,
    ⟨5, 5, .s 1⟩]

/-- The transforms `fr_HyABase_X_fr_Humerus_R`. -/
def fr_HyABase_X_fr_Humerus_R : Trans := ⟨fr_HyABase, fr_Humerus_R, hom_fr_HyABase_X_fr_Humerus_R, motion_fr_HyABase_X_fr_Humerus_R, force_fr_HyABase_X_fr_Humerus_R⟩

/-- `HomogeneousTransforms::Type_fr_HyABase_X_fr_Elbow_FE` (transforms.impl.h:5987-5993, 5995-6027). -/
def hom_fr_HyABase_X_fr_Elbow_FE : Gen where
  rows := 4
  cols := 4
  ctor := [⟨3, 0, .k 0 0⟩,
    ⟨3, 1, .k 0 0⟩,
    ⟨3, 2, .k 0 0⟩,
    ⟨3, 3, .k 1 0⟩]
  upd := [⟨0, 0, (((((.neg (.s 3)) ⊠ (.c 2)) ⊠ (.c 0)) ⊠ (.s 1)) ⊞ (((.c 3) ⊠ (.c 0)) ⊠ (.c 1))) ⊞ (((.s 3) ⊠ (.s 2)) ⊠ (.s 0))⟩,
    ⟨0, 1, (((((.neg (.c 3)) ⊠ (.c 2)) ⊠ (.c 0)) ⊠ (.s 1)) ⊟ (((.s 3) ⊠ (.c 0)) ⊠ (.c 1))) ⊞ (((.c 3) ⊠ (.s 2)) ⊠ (.s 0))⟩,
    ⟨0, 2, (((.s 2) ⊠ (.c 0)) ⊠ (.s 1)) ⊞ ((.c 2) ⊠ (.s 0))⟩,
    ⟨0, 3, ((.k 416 3) ⊠ (.c 0)) ⊠ (.c 1)⟩,
    ⟨1, 0, (((((.neg (.s 3)) ⊠ (.c 2)) ⊠ (.s 0)) ⊠ (.s 1)) ⊞ (((.c 3) ⊠ (.s 0)) ⊠ (.c 1))) ⊟ (((.s 3) ⊠ (.s 2)) ⊠ (.c 0))⟩,
    ⟨1, 1, (((((.neg (.c 3)) ⊠ (.c 2)) ⊠ (.s 0)) ⊠ (.s 1)) ⊟ (((.s 3) ⊠ (.s 0)) ⊠ (.c 1))) ⊟ (((.c 3) ⊠ (.s 2)) ⊠ (.c 0))⟩,
    ⟨1, 2, (((.s 2) ⊠ (.s 0)) ⊠ (.s 1)) ⊟ ((.c 2) ⊠ (.c 0))⟩,
    ⟨1, 3, ((.k 416 3) ⊠ (.s 0)) ⊠ (.c 1)⟩,
    ⟨2, 0, ((.c 3) ⊠ (.s 1)) ⊞ (((.s 3) ⊠ (.c 2)) ⊠ (.c 1))⟩,
    ⟨2, 1, (((.c 3) ⊠ (.c 2)) ⊠ (.c 1)) ⊟ ((.s 3) ⊠ (.s 1))⟩,
    ⟨2, 2, (.neg (.s 2)) ⊠ (.c 1)⟩,
    ⟨2, 3, ((.k 416 3) ⊠ (.s 1)) ⊞ (.k 178 3)⟩]

/-- `MotionTransforms::Type_fr_HyABase_X_fr_Elbow_FE` (transforms.impl.h:349-360, 362-409). -/
def motion_fr_HyABase_X_fr_Elbow_FE : Gen where
  rows := 6
  cols := 6
  ctor := [⟨0, 3, .k 0 0⟩,
    ⟨0, 4, .k 0 0⟩,
    ⟨0, 5, .k 0 0⟩,
    ⟨1, 3, .k 0 0⟩,
    ⟨1, 4, .k 0 0⟩,
    ⟨1, 5, .k 0 0⟩,
    ⟨2, 3, .k 0 0⟩,
    ⟨2, 4, .k 0 0⟩,
    ⟨2, 5, .k 0 0⟩]
  upd := [⟨0, 0, (((((.neg (.s 3)) ⊠ (.c 2)) ⊠ (.c 0)) ⊠ (.s 1)) ⊞ (((.c 3) ⊠ (.c 0)) ⊠ (.c 1))) ⊞ (((.s 3) ⊠ (.s 2)) ⊠ (.s 0))⟩,
    ⟨0, 1, (((((.neg (.c 3)) ⊠ (.c 2)) ⊠ (.c 0)) ⊠ (.s 1)) ⊟ (((.s 3) ⊠ (.c 0)) ⊠ (.c 1))) ⊞ (((.c 3) ⊠ (.s 2)) ⊠ (.s 0))⟩,
    ⟨0, 2, (((.s 2) ⊠ (.c 0)) ⊠ (.s 1)) ⊞ ((.c 2) ⊠ (.s 0))⟩,
    ⟨1, 0, (((((.neg (.s 3)) ⊠ (.c 2)) ⊠ (.s 0)) ⊠ (.s 1)) ⊞ (((.c 3) ⊠ (.s 0)) ⊠ (.c 1))) ⊟ (((.s 3) ⊠ (.s 2)) ⊠ (.c 0))⟩,
    ⟨1, 1, (((((.neg (.c 3)) ⊠ (.c 2)) ⊠ (.s 0)) ⊠ (.s 1)) ⊟ (((.s 3) ⊠ (.s 0)) ⊠ (.c 1))) ⊟ (((.c 3) ⊠ (.s 2)) ⊠ (.c 0))⟩,
    ⟨1, 2, (((.s 2) ⊠ (.s 0)) ⊠ (.s 1)) ⊟ ((.c 2) ⊠ (.c 0))⟩,
    ⟨2, 0, ((.c 3) ⊠ (.s 1)) ⊞ (((.s 3) ⊠ (.c 2)) ⊠ (.c 1))⟩,
    ⟨2, 1, (((.c 3) ⊠ (.c 2)) ⊠ (.c 1)) ⊟ ((.s 3) ⊠ (.s 1))⟩,
    ⟨2, 2, (.neg (.s 2)) ⊠ (.c 1)⟩,
    ⟨3, 0, ((((((((.k 178 3) ⊠ (.s 3)) ⊠ (.c 2)) ⊠ (.s 0)) ⊞ ((((.k 416 3) ⊠ (.s 3)) ⊠ (.s 2)) ⊠ (.c 0))) ⊠ (.s 1)) ⊟ ((((.k 178 3) ⊠ (.c 3)) ⊠ (.s 0)) ⊠ (.c 1))) ⊞ ((((.k 416 3) ⊠ (.s 3)) ⊠ (.c 2)) ⊠ (.s 0))) ⊞ ((((.k 178 3) ⊠ (.s 3)) ⊠ (.s 2)) ⊠ (.c 0))⟩,
    ⟨3, 1, ((((((((.k 178 3) ⊠ (.c 3)) ⊠ (.c 2)) ⊠ (.s 0)) ⊞ ((((.k 416 3) ⊠ (.c 3)) ⊠ (.s 2)) ⊠ (.c 0))) ⊠ (.s 1)) ⊞ ((((.k 178 3) ⊠ (.s 3)) ⊠ (.s 0)) ⊠ (.c 1))) ⊞ ((((.k 416 3) ⊠ (.c 3)) ⊠ (.c 2)) ⊠ (.s 0))) ⊞ ((((.k 178 3) ⊠ (.c 3)) ⊠ (.s 2)) ⊠ (.c 0))⟩,
    ⟨3, 2, ((((((.k 416 3) ⊠ (.c 2)) ⊠ (.c 0)) ⊟ (((.k 178 3) ⊠ (.s 2)) ⊠ (.s 0))) ⊠ (.s 1)) ⊟ (((.k 416 3) ⊠ (.s 2)) ⊠ (.s 0))) ⊞ (((.k 178 3) ⊠ (.c 2)) ⊠ (.c 0))⟩,
    ⟨3, 3, (((((.neg (.s 3)) ⊠ (.c 2)) ⊠ (.c 0)) ⊠ (.s 1)) ⊞ (((.c 3) ⊠ (.c 0)) ⊠ (.c 1))) ⊞ (((.s 3) ⊠ (.s 2)) ⊠ (.s 0))⟩,
    ⟨3, 4, (((((.neg (.c 3)) ⊠ (.c 2)) ⊠ (.c 0)) ⊠ (.s 1)) ⊟ (((.s 3) ⊠ (.c 0)) ⊠ (.c 1))) ⊞ (((.c 3) ⊠ (.s 2)) ⊠ (.s 0))⟩,
    ⟨3, 5, (((.s 2) ⊠ (.c 0)) ⊠ (.s 1)) ⊞ ((.c 2) ⊠ (.s 0))⟩,
    ⟨4, 0, ((((((((.k 416 3) ⊠ (.s 3)) ⊠ (.s 2)) ⊠ (.s 0)) ⊟ ((((.k 178 3) ⊠ (.s 3)) ⊠ (.c 2)) ⊠ (.c 0))) ⊠ (.s 1)) ⊞ ((((.k 178 3) ⊠ (.c 3)) ⊠ (.c 0)) ⊠ (.c 1))) ⊞ ((((.k 178 3) ⊠ (.s 3)) ⊠ (.s 2)) ⊠ (.s 0))) ⊟ ((((.k 416 3) ⊠ (.s 3)) ⊠ (.c 2)) ⊠ (.c 0))⟩,
    ⟨4, 1, ((((((((.k 416 3) ⊠ (.c 3)) ⊠ (.s 2)) ⊠ (.s 0)) ⊟ ((((.k 178 3) ⊠ (.c 3)) ⊠ (.c 2)) ⊠ (.c 0))) ⊠ (.s 1)) ⊟ ((((.k 178 3) ⊠ (.s 3)) ⊠ (.c 0)) ⊠ (.c 1))) ⊞ ((((.k 178 3) ⊠ (.c 3)) ⊠ (.s 2)) ⊠ (.s 0))) ⊟ ((((.k 416 3) ⊠ (.c 3)) ⊠ (.c 2)) ⊠ (.c 0))⟩,
    ⟨4, 2, ((((((.k 416 3) ⊠ (.c 2)) ⊠ (.s 0)) ⊞ (((.k 178 3) ⊠ (.s 2)) ⊠ (.c 0))) ⊠ (.s 1)) ⊞ (((.k 178 3) ⊠ (.c 2)) ⊠ (.s 0))) ⊞ (((.k 416 3) ⊠ (.s 2)) ⊠ (.c 0))⟩,
    ⟨4, 3, (((((.neg (.s 3)) ⊠ (.c 2)) ⊠ (.s 0)) ⊠ (.s 1)) ⊞ (((.c 3) ⊠ (.s 0)) ⊠ (.c 1))) ⊟ (((.s 3) ⊠ (.s 2)) ⊠ (.c 0))⟩,
    ⟨4, 4, (((((.neg (.c 3)) ⊠ (.c 2)) ⊠ (.s 0)) ⊠ (.s 1)) ⊟ (((.s 3) ⊠ (.s 0)) ⊠ (.c 1))) ⊟ (((.c 3) ⊠ (.s 2)) ⊠ (.c 0))⟩,
    ⟨4, 5, (((.s 2) ⊠ (.s 0)) ⊠ (.s 1)) ⊟ ((.c 2) ⊠ (.c 0))⟩,
    ⟨5, 0, (((.neg (.k 416 3)) ⊠ (.s 3)) ⊠ (.s 2)) ⊠ (.c 1)⟩,
    ⟨5, 1, (((.neg (.k 416 3)) ⊠ (.c 3)) ⊠ (.s 2)) ⊠ (.c 1)⟩,
    ⟨5, 2, ((.neg (.k 416 3)) ⊠ (.c 2)) ⊠ (.c 1)⟩,
    ⟨5, 3, ((.c 3) ⊠ (.s 1)) ⊞ (((.s 3) ⊠ (.c 2)) ⊠ (.c 1))⟩,
    ⟨5, 4, (((.c 3) ⊠ (.c 2)) ⊠ (.c 1)) ⊟ ((.s 3) ⊠ (.s 1))⟩,
    ⟨5, 5, (.neg (.s 2)) ⊠ (.c 1)⟩]

/-- `ForceTransforms::Type_fr_HyABase_X_fr_Elbow_FE` (transforms.impl.h:3198-3209, 3211-3258). -/
def force_fr_HyABase_X_fr_Elbow_FE : Gen where
  rows := 6
  cols := 6
  ctor := [⟨3, 0, .k 0 0⟩,
    ⟨3, 1, .k 0 0⟩,
    ⟨3, 2, .k 0 0⟩,
    ⟨4, 0, .k 0 0⟩,
    ⟨4, 1, .k 0 0⟩,
    ⟨4, 2, .k 0 0⟩,
    ⟨5, 0, .k 0 0⟩,
    ⟨5, 1, .k 0 0⟩,
    ⟨5, 2, .k 0 0⟩]
  upd := [⟨0, 0, (((((.neg (.s 3)) ⊠ (.c 2)) ⊠ (.c 0)) ⊠ (.s 1)) ⊞ (((.c 3) ⊠ (.c 0)) ⊠ (.c 1))) ⊞ (((.s 3) ⊠ (.s 2)) ⊠ (.s 0))⟩,
    ⟨0, 1, (((((.neg (.c 3)) ⊠ (.c 2)) ⊠ (.c 0)) ⊠ (.s 1)) ⊟ (((.s 3) ⊠ (.c 0)) ⊠ (.c 1))) ⊞ (((.c 3) ⊠ (.s 2)) ⊠ (.s 0))⟩,
    ⟨0, 2, (((.s 2) ⊠ (.c 0)) ⊠ (.s 1)) ⊞ ((.c 2) ⊠ (.s 0))⟩,
    ⟨0, 3, ((((((((.k 178 3) ⊠ (.s 3)) ⊠ (.c 2)) ⊠ (.s 0)) ⊞ ((((.k 416 3) ⊠ (.s 3)) ⊠ (.s 2)) ⊠ (.c 0))) ⊠ (.s 1)) ⊟ ((((.k 178 3) ⊠ (.c 3)) ⊠ (.s 0)) ⊠ (.c 1))) ⊞ ((((.k 416 3) ⊠ (.s 3)) ⊠ (.c 2)) ⊠ (.s 0))) ⊞ ((((.k 178 3) ⊠ (.s 3)) ⊠ (.s 2)) ⊠ (.c 0))⟩,
    ⟨0, 4, ((((((((.k 178 3) ⊠ (.c 3)) ⊠ (.c 2)) ⊠ (.s 0)) ⊞ ((((.k 416 3) ⊠ (.c 3)) ⊠ (.s 2)) ⊠ (.c 0))) ⊠ (.s 1)) ⊞ ((((.k 178 3) ⊠ (.s 3)) ⊠ (.s 0)) ⊠ (.c 1))) ⊞ ((((.k 416 3) ⊠ (.c 3)) ⊠ (.c 2)) ⊠ (.s 0))) ⊞ ((((.k 178 3) ⊠ (.c 3)) ⊠ (.s 2)) ⊠ (.c 0))⟩,
    ⟨0, 5, ((((((.k 416 3) ⊠ (.c 2)) ⊠ (.c 0)) ⊟ (((.k 178 3) ⊠ (.s 2)) ⊠ (.s 0))) ⊠ (.s 1)) ⊟ (((.k 416 3) ⊠ (.s 2)) ⊠ (.s 0))) ⊞ (((.k 178 3) ⊠ (.c 2)) ⊠ (.c 0))⟩,
    ⟨1, 0, (((((.neg (.s 3)) ⊠ (.c 2)) ⊠ (.s 0)) ⊠ (.s 1)) ⊞ (((.c 3) ⊠ (.s 0)) ⊠ (.c 1))) ⊟ (((.s 3) ⊠ (.s 2)) ⊠ (.c 0))⟩,
    ⟨1, 1, (((((.neg (.c 3)) ⊠ (.c 2)) ⊠ (.s 0)) ⊠ (.s 1)) ⊟ (((.s 3) ⊠ (.s 0)) ⊠ (.c 1))) ⊟ (((.c 3) ⊠ (.s 2)) ⊠ (.c 0))⟩,
    ⟨1, 2, (((.s 2) ⊠ (.s 0)) ⊠ (.s 1)) ⊟ ((.c 2) ⊠ (.c 0))⟩,
    ⟨1, 3, ((((((((.k 416 3) ⊠ (.s 3)) ⊠ (.s 2)) ⊠ (.s 0)) ⊟ ((((.k 178 3) ⊠ (.s 3)) ⊠ (.c 2)) ⊠ (.c 0))) ⊠ (.s 1)) ⊞ ((((.k 178 3) ⊠ (.c 3)) ⊠ (.c 0)) ⊠ (.c 1))) ⊞ ((((.k 178 3) ⊠ (.s 3)) ⊠ (.s 2)) ⊠ (.s 0))) ⊟ ((((.k 416 3) ⊠ (.s 3)) ⊠ (.c 2)) ⊠ (.c 0))⟩,
    ⟨1, 4, ((((((((.k 416 3) ⊠ (.c 3)) ⊠ (.s 2)) ⊠ (.s 0)) ⊟ ((((.k 178 3) ⊠ (.c 3)) ⊠ (.c 2)) ⊠ (.c 0))) ⊠ (.s 1)) ⊟ ((((.k 178 3) ⊠ (.s 3)) ⊠ (.c 0)) ⊠ (.c 1))) ⊞ ((((.k 178 3) ⊠ (.c 3)) ⊠ (.s 2)) ⊠ (.s 0))) ⊟ ((((.k 416 3) ⊠ (.c 3)) ⊠ (.c 2)) ⊠ (.c 0))⟩,
    ⟨1, 5, ((((((.k 416 3) ⊠ (.c 2)) ⊠ (.s 0)) ⊞ (((.k 178 3) ⊠ (.s 2)) ⊠ (.c 0))) ⊠ (.s 1)) ⊞ (((.k 178 3) ⊠ (.c 2)) ⊠ (.s 0))) ⊞ (((.k 416 3) ⊠ (.s 2)) ⊠ (.c 0))⟩,
    ⟨2, 0, ((.c 3) ⊠ (.s 1)) ⊞ (((.s 3) ⊠ (.c 2)) ⊠ (.c 1))⟩,
    ⟨2, 1, (((.c 3) ⊠ (.c 2)) ⊠ (.c 1)) ⊟ ((.s 3) ⊠ (.s 1))⟩,
    ⟨2, 2, (.neg (.s 2)) ⊠ (.c 1)⟩,
    ⟨2, 3, (((.neg (.k 416 3)) ⊠ (.s 3)) ⊠ (.s 2)) ⊠ (.c 1)⟩,
    ⟨2, 4, (((.neg (.k 416 3)) ⊠ (.c 3)) ⊠ (.s 2)) ⊠ (.c 1)⟩,
    ⟨2, 5, ((.neg (.k 416 3)) ⊠ (.c 2)) ⊠ (.c 1)⟩,
    ⟨3, 3, (((((.neg (.s 3)) ⊠ (.c 2)) ⊠ (.c 0)) ⊠ (.s 1)) ⊞ (((.c 3) ⊠ (.c 0)) ⊠ (.c 1))) ⊞ (((.s 3) ⊠ (.s 2)) ⊠ (.s 0))⟩,
    ⟨3, 4, (((((.neg (.c 3)) ⊠ (.c 2)) ⊠ (.c 0)) ⊠ (.s 1)) ⊟ (((.s 3) ⊠ (.c 0)) ⊠ (.c 1))) ⊞ (((.c 3) ⊠ (.s 2)) ⊠ (.s 0))⟩,
    ⟨3, 5, (((.s 2) ⊠ (.c 0)) ⊠ (.s 1)) ⊞ ((.c 2) ⊠ (.s 0))⟩,
    ⟨4, 3, (((((.neg (.s 3)) ⊠ (.c 2)) ⊠ (.s 0)) ⊠ (.s 1)) ⊞ (((.c 3) ⊠ (.s 0)) ⊠ (.c 1))) ⊟ (((.s 3) ⊠ (.s 2)) ⊠ (.c 0))⟩,
    ⟨4, 4, (((((.neg (.c 3)) ⊠ (.c 2)) ⊠ (.s 0)) ⊠ (.s 1)) ⊟ (((.s 3) ⊠ (.s 0)) ⊠ (.c 1))) ⊟ (((.c 3) ⊠ (.s 2)) ⊠ (.c 0))⟩,
    ⟨4, 5, (((.s 2) ⊠ (.s 0)) ⊠ (.s 1)) ⊟ ((.c 2) ⊠ (.c 0))⟩,
    ⟨5, 3, ((.c 3) ⊠ (.s 1)) ⊞ (((.s 3) ⊠ (.c 2)) ⊠ (.c 1))⟩,
    ⟨5, 4, (((.c 3) ⊠ (.c 2)) ⊠ (.c 1)) ⊟ ((.s 3) ⊠ (.s 1))⟩,
    ⟨5, 5, (.neg (.s 2)) ⊠ (.c 1)⟩]

/-- The transforms `fr_HyABase_X_fr_Elbow_FE`. -/
def fr_HyABase_X_fr_Elbow_FE : Trans := ⟨fr_HyABase, fr_Elbow_FE, hom_fr_HyABase_X_fr_Elbow_FE, motion_fr_HyABase_X_fr_Elbow_FE, force_fr_HyABase_X_fr_Elbow_FE⟩

/-- `HomogeneousTransforms::Type_fr_HyABase_X_fr_Wrist_R` (transforms.impl.h:6029-6035, 6037-6073). -/
def hom_fr_HyABase_X_fr_Wrist_R : Gen where
  rows := 4
  cols := 4
  ctor := [⟨3, 0, .k 0 0⟩,
    ⟨3, 1, .k 0 0⟩,
    ⟨3, 2, .k 0 0⟩,
    ⟨3, 3, .k 1 0⟩]
  upd := [⟨0, 0, (((((((.neg (.c 3)) ⊠ (.c 2)) ⊠ (.c 0)) ⊠ (.s 1)) ⊟ (((.s 3) ⊠ (.c 0)) ⊠ (.c 1))) ⊞ (((.c 3) ⊠ (.s 2)) ⊠ (.s 0))) ⊠ (.s 4)) ⊞ (((((.neg (.s 2)) ⊠ (.c 0)) ⊠ (.s 1)) ⊟ ((.c 2) ⊠ (.s 0))) ⊠ (.c 4))⟩,
    ⟨0, 1, (((((.s 2) ⊠ (.c 0)) ⊠ (.s 1)) ⊞ ((.c 2) ⊠ (.s 0))) ⊠ (.s 4)) ⊞ (((((((.neg (.c 3)) ⊠ (.c 2)) ⊠ (.c 0)) ⊠ (.s 1)) ⊟ (((.s 3) ⊠ (.c 0)) ⊠ (.c 1))) ⊞ (((.c 3) ⊠ (.s 2)) ⊠ (.s 0))) ⊠ (.c 4))⟩,
    ⟨0, 2, (((((.neg (.s 3)) ⊠ (.c 2)) ⊠ (.c 0)) ⊠ (.s 1)) ⊞ (((.c 3) ⊠ (.c 0)) ⊠ (.c 1))) ⊞ (((.s 3) ⊠ (.s 2)) ⊠ (.s 0))⟩,
    ⟨0, 3, ((((((.neg (.k 112 3)) ⊠ (.s 3)) ⊠ (.c 2)) ⊠ (.c 0)) ⊠ (.s 1)) ⊞ (((((.k 112 3) ⊠ (.c 3)) ⊞ (.k 416 3)) ⊠ (.c 0)) ⊠ (.c 1))) ⊞ ((((.k 112 3) ⊠ (.s 3)) ⊠ (.s 2)) ⊠ (.s 0))⟩,
    ⟨1, 0, (((((((.neg (.c 3)) ⊠ (.c 2)) ⊠ (.s 0)) ⊠ (.s 1)) ⊟ (((.s 3) ⊠ (.s 0)) ⊠ (.c 1))) ⊟ (((.c 3) ⊠ (.s 2)) ⊠ (.c 0))) ⊠ (.s 4)) ⊞ ((((.c 2) ⊠ (.c 0)) ⊟ (((.s 2) ⊠ (.s 0)) ⊠ (.s 1))) ⊠ (.c 4))⟩,
    ⟨1, 1, (((((.s 2) ⊠ (.s 0)) ⊠ (.s 1)) ⊟ ((.c 2) ⊠ (.c 0))) ⊠ (.s 4)) ⊞ (((((((.neg (.c 3)) ⊠ (.c 2)) ⊠ (.s 0)) ⊠ (.s 1)) ⊟ (((.s 3) ⊠ (.s 0)) ⊠ (.c 1))) ⊟ (((.c 3) ⊠ (.s 2)) ⊠ (.c 0))) ⊠ (.c 4))⟩,
    ⟨1, 2, (((((.neg (.s 3)) ⊠ (.c 2)) ⊠ (.s 0)) ⊠ (.s 1)) ⊞ (((.c 3) ⊠ (.s 0)) ⊠ (.c 1))) ⊟ (((.s 3) ⊠ (.s 2)) ⊠ (.c 0))⟩,
    ⟨1, 3, ((((((.neg (.k 112 3)) ⊠ (.s 3)) ⊠ (.c 2)) ⊠ (.s 0)) ⊠ (.s 1)) ⊞ (((((.k 112 3) ⊠ (.c 3)) ⊞ (.k 416 3)) ⊠ (.s 0)) ⊠ (.c 1))) ⊟ ((((.k 112 3) ⊠ (.s 3)) ⊠ (.s 2)) ⊠ (.c 0))⟩,
    ⟨2, 0, (((((.c 3) ⊠ (.c 2)) ⊠ (.c 1)) ⊟ ((.s 3) ⊠ (.s 1))) ⊠ (.s 4)) ⊞ (((.s 2) ⊠ (.c 1)) ⊠ (.c 4))⟩,
    ⟨2, 1, (((((.c 3) ⊠ (.c 2)) ⊠ (.c 1)) ⊟ ((.s 3) ⊠ (.s 1))) ⊠ (.c 4)) ⊟ (((.s 2) ⊠ (.c 1)) ⊠ (.s 4))⟩,
    ⟨2, 2, ((.c 3) ⊠ (.s 1)) ⊞ (((.s 3) ⊠ (.c 2)) ⊠ (.c 1))⟩,
    ⟨2, 3, (((((.k 112 3) ⊠ (.c 3)) ⊞ (.k 416 3)) ⊠ (.s 1)) ⊞ ((((.k 112 3) ⊠ (.s 3)) ⊠ (.c 2)) ⊠ (.c 1))) ⊞ (.k 178 3)⟩]

/-- `MotionTransforms::Type_fr_HyABase_X_fr_Wrist_R` (transforms.impl.h:411-422, 424-475). -/
def motion_fr_HyABase_X_fr_Wrist_R : Gen where
  rows := 6
  cols := 6
  ctor := [⟨0, 3, .k 0 0⟩,
    ⟨0, 4, .k 0 0⟩,
    ⟨0, 5, .k 0 0⟩,
    ⟨1, 3, .k 0 0⟩,
    ⟨1, 4, .k 0 0⟩,
    ⟨1, 5, .k 0 0⟩,
    ⟨2, 3, .k 0 0⟩,
    ⟨2, 4, .k 0 0⟩,
    ⟨2, 5, .k 0 0⟩]
  upd := [⟨0, 0, (((((((.neg (.c 3)) ⊠ (.c 2)) ⊠ (.c 0)) ⊠ (.s 1)) ⊟ (((.s 3) ⊠ (.c 0)) ⊠ (.c 1))) ⊞ (((.c 3) ⊠ (.s 2)) ⊠ (.s 0))) ⊠ (.s 4)) ⊞ (((((.neg (.s 2)) ⊠ (.c 0)) ⊠ (.s 1)) ⊟ ((.c 2) ⊠ (.s 0))) ⊠ (.c 4))⟩,
    ⟨0, 1, (((((.s 2) ⊠ (.c 0)) ⊠ (.s 1)) ⊞ ((.c 2) ⊠ (.s 0))) ⊠ (.s 4)) ⊞ (((((((.neg (.c 3)) ⊠ (.c 2)) ⊠ (.c 0)) ⊠ (.s 1)) ⊟ (((.s 3) ⊠ (.c 0)) ⊠ (.c 1))) ⊞ (((.c 3) ⊠ (.s 2)) ⊠ (.s 0))) ⊠ (.c 4))⟩,
    ⟨0, 2, (((((.neg (.s 3)) ⊠ (.c 2)) ⊠ (.c 0)) ⊠ (.s 1)) ⊞ (((.c 3) ⊠ (.c 0)) ⊠ (.c 1))) ⊞ (((.s 3) ⊠ (.s 2)) ⊠ (.s 0))⟩,
    ⟨1, 0, (((((((.neg (.c 3)) ⊠ (.c 2)) ⊠ (.s 0)) ⊠ (.s 1)) ⊟ (((.s 3) ⊠ (.s 0)) ⊠ (.c 1))) ⊟ (((.c 3) ⊠ (.s 2)) ⊠ (.c 0))) ⊠ (.s 4)) ⊞ ((((.c 2) ⊠ (.c 0)) ⊟ (((.s 2) ⊠ (.s 0)) ⊠ (.s 1))) ⊠ (.c 4))⟩,
    ⟨1, 1, (((((.s 2) ⊠ (.s 0)) ⊠ (.s 1)) ⊟ ((.c 2) ⊠ (.c 0))) ⊠ (.s 4)) ⊞ (((((((.neg (.c 3)) ⊠ (.c 2)) ⊠ (.s 0)) ⊠ (.s 1)) ⊟ (((.s 3) ⊠ (.s 0)) ⊠ (.c 1))) ⊟ (((.c 3) ⊠ (.s 2)) ⊠ (.c 0))) ⊠ (.c 4))⟩,
    ⟨1, 2, (((((.neg (.s 3)) ⊠ (.c 2)) ⊠ (.s 0)) ⊠ (.s 1)) ⊞ (((.c 3) ⊠ (.s 0)) ⊠ (.c 1))) ⊟ (((.s 3) ⊠ (.s 2)) ⊠ (.c 0))⟩,
    ⟨2, 0, (((((.c 3) ⊠ (.c 2)) ⊠ (.c 1)) ⊟ ((.s 3) ⊠ (.s 1))) ⊠ (.s 4)) ⊞ (((.s 2) ⊠ (.c 1)) ⊠ (.c 4))⟩,
    ⟨2, 1, (((((.c 3) ⊠ (.c 2)) ⊠ (.c 1)) ⊟ ((.s 3) ⊠ (.s 1))) ⊠ (.c 4)) ⊟ (((.s 2) ⊠ (.c 1)) ⊠ (.s 4))⟩,
    ⟨2, 2, ((.c 3) ⊠ (.s 1)) ⊞ (((.s 3) ⊠ (.c 2)) ⊠ (.c 1))⟩,
    ⟨3, 0, ((((((((((.k 178 3) ⊠ (.c 3)) ⊠ (.c 2)) ⊠ (.s 0)) ⊞ (((((.k 416 3) ⊠ (.c 3)) ⊞ (.k 112 3)) ⊠ (.s 2)) ⊠ (.c 0))) ⊠ (.s 1)) ⊞ ((((.k 178 3) ⊠ (.s 3)) ⊠ (.s 0)) ⊠ (.c 1))) ⊞ (((((.k 416 3) ⊠ (.c 3)) ⊞ (.k 112 3)) ⊠ (.c 2)) ⊠ (.s 0))) ⊞ ((((.k 178 3) ⊠ (.c 3)) ⊠ (.s 2)) ⊠ (.c 0))) ⊠ (.s 4)) ⊞ (((((((((.k 178 3) ⊠ (.s 2)) ⊠ (.s 0)) ⊞ (((((.neg (.k 112 3)) ⊠ (.c 3)) ⊟ (.k 416 3)) ⊠ (.c 2)) ⊠ (.c 0))) ⊠ (.s 1)) ⊟ ((((.k 112 3) ⊠ (.s 3)) ⊠ (.c 0)) ⊠ (.c 1))) ⊞ (((((.k 112 3) ⊠ (.c 3)) ⊞ (.k 416 3)) ⊠ (.s 2)) ⊠ (.s 0))) ⊟ (((.k 178 3) ⊠ (.c 2)) ⊠ (.c 0))) ⊠ (.c 4))⟩,
    ⟨3, 1, (((((((((((.k 112 3) ⊠ (.c 3)) ⊞ (.k 416 3)) ⊠ (.c 2)) ⊠ (.c 0)) ⊟ (((.k 178 3) ⊠ (.s 2)) ⊠ (.s 0))) ⊠ (.s 1)) ⊞ ((((.k 112 3) ⊠ (.s 3)) ⊠ (.c 0)) ⊠ (.c 1))) ⊞ (((((.neg (.k 112 3)) ⊠ (.c 3)) ⊟ (.k 416 3)) ⊠ (.s 2)) ⊠ (.s 0))) ⊞ (((.k 178 3) ⊠ (.c 2)) ⊠ (.c 0))) ⊠ (.s 4)) ⊞ ((((((((((.k 178 3) ⊠ (.c 3)) ⊠ (.c 2)) ⊠ (.s 0)) ⊞ (((((.k 416 3) ⊠ (.c 3)) ⊞ (.k 112 3)) ⊠ (.s 2)) ⊠ (.c 0))) ⊠ (.s 1)) ⊞ ((((.k 178 3) ⊠ (.s 3)) ⊠ (.s 0)) ⊠ (.c 1))) ⊞ (((((.k 416 3) ⊠ (.c 3)) ⊞ (.k 112 3)) ⊠ (.c 2)) ⊠ (.s 0))) ⊞ ((((.k 178 3) ⊠ (.c 3)) ⊠ (.s 2)) ⊠ (.c 0))) ⊠ (.c 4))⟩,
    ⟨3, 2, ((((((((.k 178 3) ⊠ (.s 3)) ⊠ (.c 2)) ⊠ (.s 0)) ⊞ ((((.k 416 3) ⊠ (.s 3)) ⊠ (.s 2)) ⊠ (.c 0))) ⊠ (.s 1)) ⊟ ((((.k 178 3) ⊠ (.c 3)) ⊠ (.s 0)) ⊠ (.c 1))) ⊞ ((((.k 416 3) ⊠ (.s 3)) ⊠ (.c 2)) ⊠ (.s 0))) ⊞ ((((.k 178 3) ⊠ (.s 3)) ⊠ (.s 2)) ⊠ (.c 0))⟩,
    ⟨3, 3, (((((((.neg (.c 3)) ⊠ (.c 2)) ⊠ (.c 0)) ⊠ (.s 1)) ⊟ (((.s 3) ⊠ (.c 0)) ⊠ (.c 1))) ⊞ (((.c 3) ⊠ (.s 2)) ⊠ (.s 0))) ⊠ (.s 4)) ⊞ (((((.neg (.s 2)) ⊠ (.c 0)) ⊠ (.s 1)) ⊟ ((.c 2) ⊠ (.s 0))) ⊠ (.c 4))⟩,
    ⟨3, 4, (((((.s 2) ⊠ (.c 0)) ⊠ (.s 1)) ⊞ ((.c 2) ⊠ (.s 0))) ⊠ (.s 4)) ⊞ (((((((.neg (.c 3)) ⊠ (.c 2)) ⊠ (.c 0)) ⊠ (.s 1)) ⊟ (((.s 3) ⊠ (.c 0)) ⊠ (.c 1))) ⊞ (((.c 3) ⊠ (.s 2)) ⊠ (.s 0))) ⊠ (.c 4))⟩,
    ⟨3, 5, (((((.neg (.s 3)) ⊠ (.c 2)) ⊠ (.c 0)) ⊠ (.s 1)) ⊞ (((.c 3) ⊠ (.c 0)) ⊠ (.c 1))) ⊞ (((.s 3) ⊠ (.s 2)) ⊠ (.s 0))⟩,
    ⟨4, 0, (((((((((((.k 416 3) ⊠ (.c 3)) ⊞ (.k 112 3)) ⊠ (.s 2)) ⊠ (.s 0)) ⊟ ((((.k 178 3) ⊠ (.c 3)) ⊠ (.c 2)) ⊠ (.c 0))) ⊠ (.s 1)) ⊟ ((((.k 178 3) ⊠ (.s 3)) ⊠ (.c 0)) ⊠ (.c 1))) ⊞ ((((.k 178 3) ⊠ (.c 3)) ⊠ (.s 2)) ⊠ (.s 0))) ⊞ (((((.neg (.k 416 3)) ⊠ (.c 3)) ⊟ (.k 112 3)) ⊠ (.c 2)) ⊠ (.c 0))) ⊠ (.s 4)) ⊞ (((((((((((.neg (.k 112 3)) ⊠ (.c 3)) ⊟ (.k 416 3)) ⊠ (.c 2)) ⊠ (.s 0)) ⊟ (((.k 178 3) ⊠ (.s 2)) ⊠ (.c 0))) ⊠ (.s 1)) ⊟ ((((.k 112 3) ⊠ (.s 3)) ⊠ (.s 0)) ⊠ (.c 1))) ⊟ (((.k 178 3) ⊠ (.c 2)) ⊠ (.s 0))) ⊞ (((((.neg (.k 112 3)) ⊠ (.c 3)) ⊟ (.k 416 3)) ⊠ (.s 2)) ⊠ (.c 0))) ⊠ (.c 4))⟩,
    ⟨4, 1, (((((((((((.k 112 3) ⊠ (.c 3)) ⊞ (.k 416 3)) ⊠ (.c 2)) ⊠ (.s 0)) ⊞ (((.k 178 3) ⊠ (.s 2)) ⊠ (.c 0))) ⊠ (.s 1)) ⊞ ((((.k 112 3) ⊠ (.s 3)) ⊠ (.s 0)) ⊠ (.c 1))) ⊞ (((.k 178 3) ⊠ (.c 2)) ⊠ (.s 0))) ⊞ (((((.k 112 3) ⊠ (.c 3)) ⊞ (.k 416 3)) ⊠ (.s 2)) ⊠ (.c 0))) ⊠ (.s 4)) ⊞ (((((((((((.k 416 3) ⊠ (.c 3)) ⊞ (.k 112 3)) ⊠ (.s 2)) ⊠ (.s 0)) ⊟ ((((.k 178 3) ⊠ (.c 3)) ⊠ (.c 2)) ⊠ (.c 0))) ⊠ (.s 1)) ⊟ ((((.k 178 3) ⊠ (.s 3)) ⊠ (.c 0)) ⊠ (.c 1))) ⊞ ((((.k 178 3) ⊠ (.c 3)) ⊠ (.s 2)) ⊠ (.s 0))) ⊞ (((((.neg (.k 416 3)) ⊠ (.c 3)) ⊟ (.k 112 3)) ⊠ (.c 2)) ⊠ (.c 0))) ⊠ (.c 4))⟩,
    ⟨4, 2, ((((((((.k 416 3) ⊠ (.s 3)) ⊠ (.s 2)) ⊠ (.s 0)) ⊟ ((((.k 178 3) ⊠ (.s 3)) ⊠ (.c 2)) ⊠ (.c 0))) ⊠ (.s 1)) ⊞ ((((.k 178 3) ⊠ (.c 3)) ⊠ (.c 0)) ⊠ (.c 1))) ⊞ ((((.k 178 3) ⊠ (.s 3)) ⊠ (.s 2)) ⊠ (.s 0))) ⊟ ((((.k 416 3) ⊠ (.s 3)) ⊠ (.c 2)) ⊠ (.c 0))⟩,
    ⟨4, 3, (((((((.neg (.c 3)) ⊠ (.c 2)) ⊠ (.s 0)) ⊠ (.s 1)) ⊟ (((.s 3) ⊠ (.s 0)) ⊠ (.c 1))) ⊟ (((.c 3) ⊠ (.s 2)) ⊠ (.c 0))) ⊠ (.s 4)) ⊞ ((((.c 2) ⊠ (.c 0)) ⊟ (((.s 2) ⊠ (.s 0)) ⊠ (.s 1))) ⊠ (.c 4))⟩,
    ⟨4, 4, (((((.s 2) ⊠ (.s 0)) ⊠ (.s 1)) ⊟ ((.c 2) ⊠ (.c 0))) ⊠ (.s 4)) ⊞ (((((((.neg (.c 3)) ⊠ (.c 2)) ⊠ (.s 0)) ⊠ (.s 1)) ⊟ (((.s 3) ⊠ (.s 0)) ⊠ (.c 1))) ⊟ (((.c 3) ⊠ (.s 2)) ⊠ (.c 0))) ⊠ (.c 4))⟩,
    ⟨4, 5, (((((.neg (.s 3)) ⊠ (.c 2)) ⊠ (.s 0)) ⊠ (.s 1)) ⊞ (((.c 3) ⊠ (.s 0)) ⊠ (.c 1))) ⊟ (((.s 3) ⊠ (.s 2)) ⊠ (.c 0))⟩,
    ⟨5, 0, ((((((.neg (.k 416 3)) ⊠ (.c 3)) ⊟ (.k 112 3)) ⊠ (.s 2)) ⊠ (.c 1)) ⊠ (.s 4)) ⊞ (((((((.k 112 3) ⊠ (.c 3)) ⊞ (.k 416 3)) ⊠ (.c 2)) ⊠ (.c 1)) ⊟ (((.k 112 3) ⊠ (.s 3)) ⊠ (.s 1))) ⊠ (.c 4))⟩,
    ⟨5, 1, (((((.k 112 3) ⊠ (.s 3)) ⊠ (.s 1)) ⊞ (((((.neg (.k 112 3)) ⊠ (.c 3)) ⊟ (.k 416 3)) ⊠ (.c 2)) ⊠ (.c 1))) ⊠ (.s 4)) ⊞ ((((((.neg (.k 416 3)) ⊠ (.c 3)) ⊟ (.k 112 3)) ⊠ (.s 2)) ⊠ (.c 1)) ⊠ (.c 4))⟩,
    ⟨5, 2, (((.neg (.k 416 3)) ⊠ (.s 3)) ⊠ (.s 2)) ⊠ (.c 1)⟩,
    ⟨5, 3, (((((.c 3) ⊠ (.c 2)) ⊠ (.c 1)) ⊟ ((.s 3) ⊠ (.s 1))) ⊠ (.s 4)) ⊞ (((.s 2) ⊠ (.c 1)) ⊠ (.c 4))⟩,
    ⟨5, 4, (((((.c 3) ⊠ (.c 2)) ⊠ (.c 1)) ⊟ ((.s 3) ⊠ (.s 1))) ⊠ (.c 4)) ⊟ (((.s 2) ⊠ (.c 1)) ⊠ (.s 4))⟩,
    ⟨5, 5, ((.c 3) ⊠ (.s 1)) ⊞ (((.s 3) ⊠ (.c 2)) ⊠ (.c 1))⟩]

/-- `ForceTransforms::Type_fr_HyABase_X_fr_Wrist_R` (transforms.impl.h:3260-3271, 3273-3324). -/
def force_fr_HyABase_X_fr_Wrist_R : Gen where
  rows := 6
  cols := 6
  ctor := [⟨3, 0, .k 0 0⟩,
    ⟨3, 1, .k 0 0⟩,
    ⟨3, 2, .k 0 0⟩,
    ⟨4, 0, .k 0 0⟩,
    ⟨4, 1, .k 0 0⟩,
    ⟨4, 2, .k 0 0⟩,
    ⟨5, 0, .k 0 0⟩,
    ⟨5, 1, .k 0 0⟩,
    ⟨5, 2, .k 0 0⟩]
  upd := [⟨0, 0, (((((((.neg (.c 3)) ⊠ (.c 2)) ⊠ (.c 0)) ⊠ (.s 1)) ⊟ (((.s 3) ⊠ (.c 0)) ⊠ (.c 1))) ⊞ (((.c 3) ⊠ (.s 2)) ⊠ (.s 0))) ⊠ (.s 4)) ⊞ (((((.neg (.s 2)) ⊠ (.c 0)) ⊠ (.s 1)) ⊟ ((.c 2) ⊠ (.s 0))) ⊠ (.c 4))⟩,
    ⟨0, 1, (((((.s 2) ⊠ (.c 0)) ⊠ (.s 1)) ⊞ ((.c 2) ⊠ (.s 0))) ⊠ (.s 4)) ⊞ (((((((.neg (.c 3)) ⊠ (.c 2)) ⊠ (.c 0)) ⊠ (.s 1)) ⊟ (((.s 3) ⊠ (.c 0)) ⊠ (.c 1))) ⊞ (((.c 3) ⊠ (.s 2)) ⊠ (.s 0))) ⊠ (.c 4))⟩,
    ⟨0, 2, (((((.neg (.s 3)) ⊠ (.c 2)) ⊠ (.c 0)) ⊠ (.s 1)) ⊞ (((.c 3) ⊠ (.c 0)) ⊠ (.c 1))) ⊞ (((.s 3) ⊠ (.s 2)) ⊠ (.s 0))⟩,
    ⟨0, 3, ((((((((((.k 178 3) ⊠ (.c 3)) ⊠ (.c 2)) ⊠ (.s 0)) ⊞ (((((.k 416 3) ⊠ (.c 3)) ⊞ (.k 112 3)) ⊠ (.s 2)) ⊠ (.c 0))) ⊠ (.s 1)) ⊞ ((((.k 178 3) ⊠ (.s 3)) ⊠ (.s 0)) ⊠ (.c 1))) ⊞ (((((.k 416 3) ⊠ (.c 3)) ⊞ (.k 112 3)) ⊠ (.c 2)) ⊠ (.s 0))) ⊞ ((((.k 178 3) ⊠ (.c 3)) ⊠ (.s 2)) ⊠ (.c 0))) ⊠ (.s 4)) ⊞ (((((((((.k 178 3) ⊠ (.s 2)) ⊠ (.s 0)) ⊞ (((((.neg (.k 112 3)) ⊠ (.c 3)) ⊟ (.k 416 3)) ⊠ (.c 2)) ⊠ (.c 0))) ⊠ (.s 1)) ⊟ ((((.k 112 3) ⊠ (.s 3)) ⊠ (.c 0)) ⊠ (.c 1))) ⊞ (((((.k 112 3) ⊠ (.c 3)) ⊞ (.k 416 3)) ⊠ (.s 2)) ⊠ (.s 0))) ⊟ (((.k 178 3) ⊠ (.c 2)) ⊠ (.c 0))) ⊠ (.c 4))⟩,
    ⟨0, 4, (((((((((((.k 112 3) ⊠ (.c 3)) ⊞ (.k 416 3)) ⊠ (.c 2)) ⊠ (.c 0)) ⊟ (((.k 178 3) ⊠ (.s 2)) ⊠ (.s 0))) ⊠ (.s 1)) ⊞ ((((.k 112 3) ⊠ (.s 3)) ⊠ (.c 0)) ⊠ (.c 1))) ⊞ (((((.neg (.k 112 3)) ⊠ (.c 3)) ⊟ (.k 416 3)) ⊠ (.s 2)) ⊠ (.s 0))) ⊞ (((.k 178 3) ⊠ (.c 2)) ⊠ (.c 0))) ⊠ (.s 4)) ⊞ ((((((((((.k 178 3) ⊠ (.c 3)) ⊠ (.c 2)) ⊠ (.s 0)) ⊞ (((((.k 416 3) ⊠ (.c 3)) ⊞ (.k 112 3)) ⊠ (.s 2)) ⊠ (.c 0))) ⊠ (.s 1)) ⊞ ((((.k 178 3) ⊠ (.s 3)) ⊠ (.s 0)) ⊠ (.c 1))) ⊞ (((((.k 416 3) ⊠ (.c 3)) ⊞ (.k 112 3)) ⊠ (.c 2)) ⊠ (.s 0))) ⊞ ((((.k 178 3) ⊠ (.c 3)) ⊠ (.s 2)) ⊠ (.c 0))) ⊠ (.c 4))⟩,
    ⟨0, 5, ((((((((.k 178 3) ⊠ (.s 3)) ⊠ (.c 2)) ⊠ (.s 0)) ⊞ ((((.k 416 3) ⊠ (.s 3)) ⊠ (.s 2)) ⊠ (.c 0))) ⊠ (.s 1)) ⊟ ((((.k 178 3) ⊠ (.c 3)) ⊠ (.s 0)) ⊠ (.c 1))) ⊞ ((((.k 416 3) ⊠ (.s 3)) ⊠ (.c 2)) ⊠ (.s 0))) ⊞ ((((.k 178 3) ⊠ (.s 3)) ⊠ (.s 2)) ⊠ (.c 0))⟩,
    ⟨1, 0, (((((((.neg (.c 3)) ⊠ (.c 2)) ⊠ (.s 0)) ⊠ (.s 1)) ⊟ (((.s 3) ⊠ (.s 0)) ⊠ (.c 1))) ⊟ (((.c 3) ⊠ (.s 2)) ⊠ (.c 0))) ⊠ (.s 4)) ⊞ ((((.c 2) ⊠ (.c 0)) ⊟ (((.s 2) ⊠ (.s 0)) ⊠ (.s 1))) ⊠ (.c 4))⟩,
    ⟨1, 1, (((((.s 2) ⊠ (.s 0)) ⊠ (.s 1)) ⊟ ((.c 2) ⊠ (.c 0))) ⊠ (.s 4)) ⊞ (((((((.neg (.c 3)) ⊠ (.c 2)) ⊠ (.s 0)) ⊠ (.s 1)) ⊟ (((.s 3) ⊠ (.s 0)) ⊠ (.c 1))) ⊟ (((.c 3) ⊠ (.s 2)) ⊠ (.c 0))) ⊠ (.c 4))⟩,
    ⟨1, 2, (((((.neg (.s 3)) ⊠ (.c 2)) ⊠ (.s 0)) ⊠ (.s 1)) ⊞ (((.c 3) ⊠ (.s 0)) ⊠ (.c 1))) ⊟ (((.s 3) ⊠ (.s 2)) ⊠ (.c 0))⟩,
    ⟨1, 3, (((((((((((.k 416 3) ⊠ (.c 3)) ⊞ (.k 112 3)) ⊠ (.s 2)) ⊠ (.s 0)) ⊟ ((((.k 178 3) ⊠ (.c 3)) ⊠ (.c 2)) ⊠ (.c 0))) ⊠ (.s 1)) ⊟ ((((.k 178 3) ⊠ (.s 3)) ⊠ (.c 0)) ⊠ (.c 1))) ⊞ ((((.k 178 3) ⊠ (.c 3)) ⊠ (.s 2)) ⊠ (.s 0))) ⊞ (((((.neg (.k 416 3)) ⊠ (.c 3)) ⊟ (.k 112 3)) ⊠ (.c 2)) ⊠ (.c 0))) ⊠ (.s 4)) ⊞ (((((((((((.neg (.k 112 3)) ⊠ (.c 3)) ⊟ (.k 416 3)) ⊠ (.c 2)) ⊠ (.s 0)) ⊟ (((.k 178 3) ⊠ (.s 2)) ⊠ (.c 0))) ⊠ (.s 1)) ⊟ ((((.k 112 3) ⊠ (.s 3)) ⊠ (.s 0)) ⊠ (.c 1))) ⊟ (((.k 178 3) ⊠ (.c 2)) ⊠ (.s 0))) ⊞ (((((.neg (.k 112 3)) ⊠ (.c 3)) ⊟ (.k 416 3)) ⊠ (.s 2)) ⊠ (.c 0))) ⊠ (.c 4))⟩,
    ⟨1, 4, (((((((((((.k 112 3) ⊠ (.c 3)) ⊞ (.k 416 3)) ⊠ (.c 2)) ⊠ (.s 0)) ⊞ (((.k 178 3) ⊠ (.s 2)) ⊠ (.c 0))) ⊠ (.s 1)) ⊞ ((((.k 112 3) ⊠ (.s 3)) ⊠ (.s 0)) ⊠ (.c 1))) ⊞ (((.k 178 3) ⊠ (.c 2)) ⊠ (.s 0))) ⊞ (((((.k 112 3) ⊠ (.c 3)) ⊞ (.k 416 3)) ⊠ (.s 2)) ⊠ (.c 0))) ⊠ (.s 4)) ⊞ (((((((((((.k 416 3) ⊠ (.c 3)) ⊞ (.k 112 3)) ⊠ (.s 2)) ⊠ (.s 0)) ⊟ ((((.k 178 3) ⊠ (.c 3)) ⊠ (.c 2)) ⊠ (.c 0))) ⊠ (.s 1)) ⊟ ((((.k 178 3) ⊠ (.s 3)) ⊠ (.c 0)) ⊠ (.c 1))) ⊞ ((((.k 178 3) ⊠ (.c 3)) ⊠ (.s 2)) ⊠ (.s 0))) ⊞ (((((.neg (.k 416 3)) ⊠ (.c 3)) ⊟ (.k 112 3)) ⊠ (.c 2)) ⊠ (.c 0))) ⊠ (.c 4))⟩,
    ⟨1, 5, ((((((((.k 416 3) ⊠ (.s 3)) ⊠ (.s 2)) ⊠ (.s 0)) ⊟ ((((.k 178 3) ⊠ (.s 3)) ⊠ (.c 2)) ⊠ (.c 0))) ⊠ (.s 1)) ⊞ ((((.k 178 3) ⊠ (.c 3)) ⊠ (.c 0)) ⊠ (.c 1))) ⊞ ((((.k 178 3) ⊠ (.s 3)) ⊠ (.s 2)) ⊠ (.s 0))) ⊟ ((((.k 416 3) ⊠ (.s 3)) ⊠ (.c 2)) ⊠ (.c 0))⟩,
    ⟨2, 0, (((((.c 3) ⊠ (.c 2)) ⊠ (.c 1)) ⊟ ((.s 3) ⊠ (.s 1))) ⊠ (.s 4)) ⊞ (((.s 2) ⊠ (.c 1)) ⊠ (.c 4))⟩,
    ⟨2, 1, (((((.c 3) ⊠ (.c 2)) ⊠ (.c 1)) ⊟ ((.s 3) ⊠ (.s 1))) ⊠ (.c 4)) ⊟ (((.s 2) ⊠ (.c 1)) ⊠ (.s 4))⟩,
    ⟨2, 2, ((.c 3) ⊠ (.s 1)) ⊞ (((.s 3) ⊠ (.c 2)) ⊠ (.c 1))⟩,
    ⟨2, 3, ((((((.neg (.k 416 3)) ⊠ (.c 3)) ⊟ (.k 112 3)) ⊠ (.s 2)) ⊠ (.c 1)) ⊠ (.s 4)) ⊞ (((((((.k 112 3) ⊠ (.c 3)) ⊞ (.k 416 3)) ⊠ (.c 2)) ⊠ (.c 1)) ⊟ (((.k 112 3) ⊠ (.s 3)) ⊠ (.s 1))) ⊠ (.c 4))⟩,
    ⟨2, 4, (((((.k 112 3) ⊠ (.s 3)) ⊠ (.s 1)) ⊞ (((((.neg (.k 112 3)) ⊠ (.c 3)) ⊟ (.k 416 3)) ⊠ (.c 2)) ⊠ (.c 1))) ⊠ (.s 4)) ⊞ ((((((.neg (.k 416 3)) ⊠ (.c 3)) ⊟ (.k 112 3)) ⊠ (.s 2)) ⊠ (.c 1)) ⊠ (.c 4))⟩,
    ⟨2, 5, (((.neg (.k 416 3)) ⊠ (.s 3)) ⊠ (.s 2)) ⊠ (.c 1)⟩,
    ⟨3, 3, (((((((.neg (.c 3)) ⊠ (.c 2)) ⊠ (.c 0)) ⊠ (.s 1)) ⊟ (((.s 3) ⊠ (.c 0)) ⊠ (.c 1))) ⊞ (((.c 3) ⊠ (.s 2)) ⊠ (.s 0))) ⊠ (.s 4)) ⊞ (((((.neg (.s 2)) ⊠ (.c 0)) ⊠ (.s 1)) ⊟ ((.c 2) ⊠ (.s 0))) ⊠ (.c 4))⟩,
    ⟨3, 4, (((((.s 2) ⊠ (.c 0)) ⊠ (.s 1)) ⊞ ((.c 2) ⊠ (.s 0))) ⊠ (.s 4)) ⊞ (((((((.neg (.c 3)) ⊠ (.c 2)) ⊠ (.c 0)) ⊠ (.s 1)) ⊟ (((.s 3) ⊠ (.c 0)) ⊠ (.c 1))) ⊞ (((.c 3) ⊠ (.s 2)) ⊠ (.s 0))) ⊠ (.c 4))⟩,
    ⟨3, 5, (((((.neg (.s 3)) ⊠ (.c 2)) ⊠ (.c 0)) ⊠ (.s 1)) ⊞ (((.c 3) ⊠ (.c 0)) ⊠ (.c 1))) ⊞ (((.s 3) ⊠ (.s 2)) ⊠ (.s 0))⟩,
    ⟨4, 3, (((((((.neg (.c 3)) ⊠ (.c 2)) ⊠ (.s 0)) ⊠ (.s 1)) ⊟ (((.s 3) ⊠ (.s 0)) ⊠ (.c 1))) ⊟ (((.c 3) ⊠ (.s 2)) ⊠ (.c 0))) ⊠ (.s 4)) ⊞ ((((.c 2) ⊠ (.c 0)) ⊟ (((.s 2) ⊠ (.s 0)) ⊠ (.s 1))) ⊠ (.c 4))⟩,
    ⟨4, 4, (((((.s 2) ⊠ (.s 0)) ⊠ (.s 1)) ⊟ ((.c 2) ⊠ (.c 0))) ⊠ (.s 4)) ⊞ (((((((.neg (.c 3)) ⊠ (.c 2)) ⊠ (.s 0)) ⊠ (.s 1)) ⊟ (((.s 3) ⊠ (.s 0)) ⊠ (.c 1))) ⊟ (((.c 3) ⊠ (.s 2)) ⊠ (.c 0))) ⊠ (.c 4))⟩,
    ⟨4, 5, (((((.neg (.s 3)) ⊠ (.c 2)) ⊠ (.s 0)) ⊠ (.s 1)) ⊞ (((.c 3) ⊠ (.s 0)) ⊠ (.c 1))) ⊟ (((.s 3) ⊠ (.s 2)) ⊠ (.c 0))⟩,
    ⟨5, 3, (((((.c 3) ⊠ (.c 2)) ⊠ (.c 1)) ⊟ ((.s 3) ⊠ (.s 1))) ⊠ (.s 4)) ⊞ (((.s 2) ⊠ (.c 1)) ⊠ (.c 4))⟩,
    ⟨5, 4, (((((.c 3) ⊠ (.c 2)) ⊠ (.c 1)) ⊟ ((.s 3) ⊠ (.s 1))) ⊠ (.c 4)) ⊟ (((.s 2) ⊠ (.c 1)) ⊠ (.s 4))⟩,
    ⟨5, 5, ((.c 3) ⊠ (.s 1)) ⊞ (((.s 3) ⊠ (.c 2)) ⊠ (.c 1))⟩]

/-- The transforms `fr_HyABase_X_fr_Wrist_R`. -/
def fr_HyABase_X_fr_Wrist_R : Trans := ⟨fr_HyABase, fr_Wrist_R, hom_fr_HyABase_X_fr_Wrist_R, motion_fr_HyABase_X_fr_Wrist_R, force_fr_HyABase_X_fr_Wrist_R⟩

/-- `HomogeneousTransforms::Type_fr_HyABase_X_fr_Wrist_FE` (transforms.impl.h:6075-6081, 6083-6123). -/
def hom_fr_HyABase_X_fr_Wrist_FE : Gen where
  rows := 4
  cols := 4
  ctor := [⟨3, 0, .k 0 0⟩,
    ⟨3, 1, .k 0 0⟩,
    ⟨3, 2, .k 0 0⟩,
    ⟨3, 3, .k 1 0⟩]
  upd := [⟨0, 0, (((((((((.neg (.c 3)) ⊠ (.c 2)) ⊠ (.c 0)) ⊠ (.s 1)) ⊟ (((.s 3) ⊠ (.c 0)) ⊠ (.c 1))) ⊞ (((.c 3) ⊠ (.s 2)) ⊠ (.s 0))) ⊠ (.s 5)) ⊠ (.s 4)) ⊞ ((((((.neg (.s 2)) ⊠ (.c 0)) ⊠ (.s 1)) ⊟ ((.c 2) ⊠ (.s 0))) ⊠ (.s 5)) ⊠ (.c 4))) ⊞ (((((((.neg (.s 3)) ⊠ (.c 2)) ⊠ (.c 0)) ⊠ (.s 1)) ⊞ (((.c 3) ⊠ (.c 0)) ⊠ (.c 1))) ⊞ (((.s 3) ⊠ (.s 2)) ⊠ (.s 0))) ⊠ (.c 5))⟩,
    ⟨0, 1, (((((((((.neg (.c 3)) ⊠ (.c 2)) ⊠ (.c 0)) ⊠ (.s 1)) ⊟ (((.s 3) ⊠ (.c 0)) ⊠ (.c 1))) ⊞ (((.c 3) ⊠ (.s 2)) ⊠ (.s 0))) ⊠ (.c 5)) ⊠ (.s 4)) ⊞ ((((((.neg (.s 2)) ⊠ (.c 0)) ⊠ (.s 1)) ⊟ ((.c 2) ⊠ (.s 0))) ⊠ (.c 5)) ⊠ (.c 4))) ⊞ (((((((.s 3) ⊠ (.c 2)) ⊠ (.c 0)) ⊠ (.s 1)) ⊟ (((.c 3) ⊠ (.c 0)) ⊠ (.c 1))) ⊟ (((.s 3) ⊠ (.s 2)) ⊠ (.s 0))) ⊠ (.s 5))⟩,
    ⟨0, 2, ((((((.k 1 0) ⊠ (.s 2)) ⊠ (.c 0)) ⊠ (.s 1)) ⊞ ((.c 2) ⊠ (.s 0))) ⊠ (.s 4)) ⊞ (((((((.neg (.c 3)) ⊠ (.c 2)) ⊠ (.c 0)) ⊠ (.s 1)) ⊟ (((.s 3) ⊠ (.c 0)) ⊠ (.c 1))) ⊞ (((.c 3) ⊠ (.s 2)) ⊠ (.s 0))) ⊠ (.c 4))⟩,
    ⟨0, 3, (((((((((((.neg (.k 2075 5)) ⊠ (.c 3)) ⊠ (.c 2)) ⊠ (.c 0)) ⊠ (.s 1)) ⊟ ((((.k 2075 5) ⊠ (.s 3)) ⊠ (.c 0)) ⊠ (.c 1))) ⊞ ((((.k 2075 5) ⊠ (.c 3)) ⊠ (.s 2)) ⊠ (.s 0))) ⊠ (.s 4)) ⊞ ((((((.neg (.k 2075 5)) ⊠ (.s 2)) ⊠ (.c 0)) ⊠ (.s 1)) ⊟ (((.k 2075 5) ⊠ (.c 2)) ⊠ (.s 0))) ⊠ (.c 4))) ⊟ (((((.k 296 3) ⊠ (.s 3)) ⊠ (.c 2)) ⊠ (.c 0)) ⊠ (.s 1))) ⊞ (((((.k 296 3) ⊠ (.c 3)) ⊞ (.k 416 3)) ⊠ (.c 0)) ⊠ (.c 1))) ⊞ ((((.k 296 3) ⊠ (.s 3)) ⊠ (.s 2)) ⊠ (.s 0))⟩,
    ⟨1, 0, (((((((((.neg (.c 3)) ⊠ (.c 2)) ⊠ (.s 0)) ⊠ (.s 1)) ⊟ (((.s 3) ⊠ (.s 0)) ⊠ (.c 1))) ⊟ (((.c 3) ⊠ (.s 2)) ⊠ (.c 0))) ⊠ (.s 5)) ⊠ (.s 4)) ⊞ (((((.c 2) ⊠ (.c 0)) ⊟ (((.s 2) ⊠ (.s 0)) ⊠ (.s 1))) ⊠ (.s 5)) ⊠ (.c 4))) ⊞ (((((((.neg (.s 3)) ⊠ (.c 2)) ⊠ (.s 0)) ⊠ (.s 1)) ⊞ (((.c 3) ⊠ (.s 0)) ⊠ (.c 1))) ⊟ (((.s 3) ⊠ (.s 2)) ⊠ (.c 0))) ⊠ (.c 5))⟩,
    ⟨1, 1, (((((((((.neg (.c 3)) ⊠ (.c 2)) ⊠ (.s 0)) ⊠ (.s 1)) ⊟ (((.s 3) ⊠ (.s 0)) ⊠ (.c 1))) ⊟ (((.c 3) ⊠ (.s 2)) ⊠ (.c 0))) ⊠ (.c 5)) ⊠ (.s 4)) ⊞ (((((.c 2) ⊠ (.c 0)) ⊟ (((.s 2) ⊠ (.s 0)) ⊠ (.s 1))) ⊠ (.c 5)) ⊠ (.c 4))) ⊞ (((((((.s 3) ⊠ (.c 2)) ⊠ (.s 0)) ⊠ (.s 1)) ⊟ (((.c 3) ⊠ (.s 0)) ⊠ (.c 1))) ⊞ (((.s 3) ⊠ (.s 2)) ⊠ (.c 0))) ⊠ (.s 5))⟩,
    ⟨1, 2, ((((((.k 1 0) ⊠ (.s 2)) ⊠ (.s 0)) ⊠ (.s 1)) ⊟ ((.c 2) ⊠ (.c 0))) ⊠ (.s 4)) ⊞ (((((((.neg (.c 3)) ⊠ (.c 2)) ⊠ (.s 0)) ⊠ (.s 1)) ⊟ (((.s 3) ⊠ (.s 0)) ⊠ (.c 1))) ⊟ (((.c 3) ⊠ (.s 2)) ⊠ (.c 0))) ⊠ (.c 4))⟩,
    ⟨1, 3, (((((((((((.neg (.k 2075 5)) ⊠ (.c 3)) ⊠ (.c 2)) ⊠ (.s 0)) ⊠ (.s 1)) ⊟ ((((.k 2075 5) ⊠ (.s 3)) ⊠ (.s 0)) ⊠ (.c 1))) ⊟ ((((.k 2075 5) ⊠ (.c 3)) ⊠ (.s 2)) ⊠ (.c 0))) ⊠ (.s 4)) ⊞ (((((.k 2075 5) ⊠ (.c 2)) ⊠ (.c 0)) ⊟ ((((.k 2075 5) ⊠ (.s 2)) ⊠ (.s 0)) ⊠ (.s 1))) ⊠ (.c 4))) ⊟ (((((.k 296 3) ⊠ (.s 3)) ⊠ (.c 2)) ⊠ (.s 0)) ⊠ (.s 1))) ⊞ (((((.k 296 3) ⊠ (.c 3)) ⊞ (.k 416 3)) ⊠ (.s 0)) ⊠ (.c 1))) ⊟ ((((.k 296 3) ⊠ (.s 3)) ⊠ (.s 2)) ⊠ (.c 0))⟩,
    ⟨2, 0, (((((((.c 3) ⊠ (.c 2)) ⊠ (.c 1)) ⊟ ((.s 3) ⊠ (.s 1))) ⊠ (.s 5)) ⊠ (.s 4)) ⊞ ((((.s 2) ⊠ (.c 1)) ⊠ (.s 5)) ⊠ (.c 4))) ⊞ ((((.c 3) ⊠ (.s 1)) ⊞ (((.s 3) ⊠ (.c 2)) ⊠ (.c 1))) ⊠ (.c 5))⟩,
    ⟨2, 1, (((((((.c 3) ⊠ (.c 2)) ⊠ (.c 1)) ⊟ ((.s 3) ⊠ (.s 1))) ⊠ (.c 5)) ⊠ (.s 4)) ⊞ ((((.s 2) ⊠ (.c 1)) ⊠ (.c 5)) ⊠ (.c 4))) ⊞ ((((.neg (.c 3)) ⊠ (.s 1)) ⊟ (((.s 3) ⊠ (.c 2)) ⊠ (.c 1))) ⊠ (.s 5))⟩,
    ⟨2, 2, ((((((.k 1 0) ⊠ (.c 3)) ⊠ (.c 2)) ⊠ (.c 1)) ⊟ ((.s 3) ⊠ (.s 1))) ⊠ (.c 4)) ⊟ (((.s 2) ⊠ (.c 1)) ⊠ (.s 4))⟩,
    ⟨2, 3, (((((((((.k 2075 5) ⊠ (.c 3)) ⊠ (.c 2)) ⊠ (.c 1)) ⊟ (((.k 2075 5) ⊠ (.s 3)) ⊠ (.s 1))) ⊠ (.s 4)) ⊞ ((((.k 2075 5) ⊠ (.s 2)) ⊠ (.c 1)) ⊠ (.c 4))) ⊞ ((((.k 296 3) ⊠ (.c 3)) ⊞ (.k 416 3)) ⊠ (.s 1))) ⊞ ((((.k 296 3) ⊠ (.s 3)) ⊠ (.c 2)) ⊠ (.c 1))) ⊞ (.k 178 3)⟩]

/-- `MotionTransforms::Type_fr_HyABase_X_fr_Wrist_FE` (transforms.impl.h:477-488, 490-545). -/
def motion_fr_HyABase_X_fr_Wrist_FE : Gen where
  rows := 6
  cols := 6
  ctor := [⟨0, 3, .k 0 0⟩,
    ⟨0, 4, .k 0 0⟩,
    ⟨0, 5, .k 0 0⟩,
    ⟨1, 3, .k 0 0⟩,
    ⟨1, 4, .k 0 0⟩,
    ⟨1, 5, .k 0 0⟩,
    ⟨2, 3, .k 0 0⟩,
    ⟨2, 4, .k 0 0⟩,
    ⟨2, 5, .k 0 0⟩]
  upd := [⟨0, 0, (((((((((.neg (.c 3)) ⊠ (.c 2)) ⊠ (.c 0)) ⊠ (.s 1)) ⊟ (((.s 3) ⊠ (.c 0)) ⊠ (.c 1))) ⊞ (((.c 3) ⊠ (.s 2)) ⊠ (.s 0))) ⊠ (.s 5)) ⊠ (.s 4)) ⊞ ((((((.neg (.s 2)) ⊠ (.c 0)) ⊠ (.s 1)) ⊟ ((.c 2) ⊠ (.s 0))) ⊠ (.s 5)) ⊠ (.c 4))) ⊞ (((((((.neg (.s 3)) ⊠ (.c 2)) ⊠ (.c 0)) ⊠ (.s 1)) ⊞ (((.c 3) ⊠ (.c 0)) ⊠ (.c 1))) ⊞ (((.s 3) ⊠ (.s 2)) ⊠ (.s 0))) ⊠ (.c 5))⟩,
    ⟨0, 1, (((((((((.neg (.c 3)) ⊠ (.c 2)) ⊠ (.c 0)) ⊠ (.s 1)) ⊟ (((.s 3) ⊠ (.c 0)) ⊠ (.c 1))) ⊞ (((.c 3) ⊠ (.s 2)) ⊠ (.s 0))) ⊠ (.c 5)) ⊠ (.s 4)) ⊞ ((((((.neg (.s 2)) ⊠ (.c 0)) ⊠ (.s 1)) ⊟ ((.c 2) ⊠ (.s 0))) ⊠ (.c 5)) ⊠ (.c 4))) ⊞ (((((((.s 3) ⊠ (.c 2)) ⊠ (.c 0)) ⊠ (.s 1)) ⊟ (((.c 3) ⊠ (.c 0)) ⊠ (.c 1))) ⊟ (((.s 3) ⊠ (.s 2)) ⊠ (.s 0))) ⊠ (.s 5))⟩,
    ⟨0, 2, ((((((.k 1 0) ⊠ (.s 2)) ⊠ (.c 0)) ⊠ (.s 1)) ⊞ ((.c 2) ⊠ (.s 0))) ⊠ (.s 4)) ⊞ (((((((.neg (.c 3)) ⊠ (.c 2)) ⊠ (.c 0)) ⊠ (.s 1)) ⊟ (((.s 3) ⊠ (.c 0)) ⊠ (.c 1))) ⊞ (((.c 3) ⊠ (.s 2)) ⊠ (.s 0))) ⊠ (.c 4))⟩,
    ⟨1, 0, (((((((((.neg (.c 3)) ⊠ (.c 2)) ⊠ (.s 0)) ⊠ (.s 1)) ⊟ (((.s 3) ⊠ (.s 0)) ⊠ (.c 1))) ⊟ (((.c 3) ⊠ (.s 2)) ⊠ (.c 0))) ⊠ (.s 5)) ⊠ (.s 4)) ⊞ (((((.c 2) ⊠ (.c 0)) ⊟ (((.s 2) ⊠ (.s 0)) ⊠ (.s 1))) ⊠ (.s 5)) ⊠ (.c 4))) ⊞ (((((((.neg (.s 3)) ⊠ (.c 2)) ⊠ (.s 0)) ⊠ (.s 1)) ⊞ (((.c 3) ⊠ (.s 0)) ⊠ (.c 1))) ⊟ (((.s 3) ⊠ (.s 2)) ⊠ (.c 0))) ⊠ (.c 5))⟩,
    ⟨1, 1, (((((((((.neg (.c 3)) ⊠ (.c 2)) ⊠ (.s 0)) ⊠ (.s 1)) ⊟ (((.s 3) ⊠ (.s 0)) ⊠ (.c 1))) ⊟ (((.c 3) ⊠ (.s 2)) ⊠ (.c 0))) ⊠ (.c 5)) ⊠ (.s 4)) ⊞ (((((.c 2) ⊠ (.c 0)) ⊟ (((.s 2) ⊠ (.s 0)) ⊠ (.s 1))) ⊠ (.c 5)) ⊠ (.c 4))) ⊞ (((((((.s 3) ⊠ (.c 2)) ⊠ (.s 0)) ⊠ (.s 1)) ⊟ (((.c 3) ⊠ (.s 0)) ⊠ (.c 1))) ⊞ (((.s 3) ⊠ (.s 2)) ⊠ (.c 0))) ⊠ (.s 5))⟩,
    ⟨1, 2, ((((((.k 1 0) ⊠ (.s 2)) ⊠ (.s 0)) ⊠ (.s 1)) ⊟ ((.c 2) ⊠ (.c 0))) ⊠ (.s 4)) ⊞ (((((((.neg (.c 3)) ⊠ (.c 2)) ⊠ (.s 0)) ⊠ (.s 1)) ⊟ (((.s 3) ⊠ (.s 0)) ⊠ (.c 1))) ⊟ (((.c 3) ⊠ (.s 2)) ⊠ (.c 0))) ⊠ (.c 4))⟩,
    ⟨2, 0, (((((((.c 3) ⊠ (.c 2)) ⊠ (.c 1)) ⊟ ((.s 3) ⊠ (.s 1))) ⊠ (.s 5)) ⊠ (.s 4)) ⊞ ((((.s 2) ⊠ (.c 1)) ⊠ (.s 5)) ⊠ (.c 4))) ⊞ ((((.c 3) ⊠ (.s 1)) ⊞ (((.s 3) ⊠ (.c 2)) ⊠ (.c 1))) ⊠ (.c 5))⟩,
    ⟨2, 1, (((((((.c 3) ⊠ (.c 2)) ⊠ (.c 1)) ⊟ ((.s 3) ⊠ (.s 1))) ⊠ (.c 5)) ⊠ (.s 4)) ⊞ ((((.s 2) ⊠ (.c 1)) ⊠ (.c 5)) ⊠ (.c 4))) ⊞ ((((.neg (.c 3)) ⊠ (.s 1)) ⊟ (((.s 3) ⊠ (.c 2)) ⊠ (.c 1))) ⊠ (.s 5))⟩,
    ⟨2, 2, ((((((.k 1 0) ⊠ (.c 3)) ⊠ (.c 2)) ⊠ (.c 1)) ⊟ ((.s 3) ⊠ (.s 1))) ⊠ (.c 4)) ⊟ (((.s 2) ⊠ (.c 1)) ⊠ (.s 4))⟩,
    ⟨3, 0, (((((((((((((.k 178 3) ⊠ (.c 3)) ⊠ (.c 2)) ⊠ (.s 0)) ⊞ (((((.k 416 3) ⊠ (.c 3)) ⊞ (.k 296 3)) ⊠ (.s 2)) ⊠ (.c 0))) ⊠ (.s 1)) ⊞ ((((.k 178 3) ⊠ (.s 3)) ⊠ (.s 0)) ⊠ (.c 1))) ⊞ (((((.k 416 3) ⊠ (.c 3)) ⊞ (.k 296 3)) ⊠ (.c 2)) ⊠ (.s 0))) ⊞ ((((.k 178 3) ⊠ (.c 3)) ⊠ (.s 2)) ⊠ (.c 0))) ⊠ (.s 5)) ⊞ ((((((.neg (.k 2075 5)) ⊠ (.s 2)) ⊠ (.c 0)) ⊠ (.s 1)) ⊟ (((.k 2075 5) ⊠ (.c 2)) ⊠ (.s 0))) ⊠ (.c 5))) ⊠ (.s 4)) ⊞ (((((((((((.k 178 3) ⊠ (.s 2)) ⊠ (.s 0)) ⊞ (((((.neg (.k 296 3)) ⊠ (.c 3)) ⊟ (.k 416 3)) ⊠ (.c 2)) ⊠ (.c 0))) ⊠ (.s 1)) ⊟ ((((.k 296 3) ⊠ (.s 3)) ⊠ (.c 0)) ⊠ (.c 1))) ⊞ (((((.k 296 3) ⊠ (.c 3)) ⊞ (.k 416 3)) ⊠ (.s 2)) ⊠ (.s 0))) ⊟ (((.k 178 3) ⊠ (.c 2)) ⊠ (.c 0))) ⊠ (.s 5)) ⊞ ((((((((.k 2075 5) ⊠ (.c 3)) ⊠ (.c 2)) ⊠ (.c 0)) ⊠ (.s 1)) ⊞ ((((.k 2075 5) ⊠ (.s 3)) ⊠ (.c 0)) ⊠ (.c 1))) ⊟ ((((.k 2075 5) ⊠ (.c 3)) ⊠ (.s 2)) ⊠ (.s 0))) ⊠ (.c 5))) ⊠ (.c 4))) ⊞ ((((((((((.k 178 3) ⊠ (.s 3)) ⊠ (.c 2)) ⊠ (.s 0)) ⊞ ((((.k 416 3) ⊠ (.s 3)) ⊠ (.s 2)) ⊠ (.c 0))) ⊠ (.s 1)) ⊟ ((((.k 178 3) ⊠ (.c 3)) ⊠ (.s 0)) ⊠ (.c 1))) ⊞ ((((.k 416 3) ⊠ (.s 3)) ⊠ (.c 2)) ⊠ (.s 0))) ⊞ ((((.k 178 3) ⊠ (.s 3)) ⊠ (.s 2)) ⊠ (.c 0))) ⊠ (.c 5))⟩,
    ⟨3, 1, (((((((((.k 2075 5) ⊠ (.s 2)) ⊠ (.c 0)) ⊠ (.s 1)) ⊞ (((.k 2075 5) ⊠ (.c 2)) ⊠ (.s 0))) ⊠ (.s 5)) ⊞ ((((((((((.k 178 3) ⊠ (.c 3)) ⊠ (.c 2)) ⊠ (.s 0)) ⊞ (((((.k 416 3) ⊠ (.c 3)) ⊞ (.k 296 3)) ⊠ (.s 2)) ⊠ (.c 0))) ⊠ (.s 1)) ⊞ ((((.k 178 3) ⊠ (.s 3)) ⊠ (.s 0)) ⊠ (.c 1))) ⊞ (((((.k 416 3) ⊠ (.c 3)) ⊞ (.k 296 3)) ⊠ (.c 2)) ⊠ (.s 0))) ⊞ ((((.k 178 3) ⊠ (.c 3)) ⊠ (.s 2)) ⊠ (.c 0))) ⊠ (.c 5))) ⊠ (.s 4)) ⊞ ((((((((((.neg (.k 2075 5)) ⊠ (.c 3)) ⊠ (.c 2)) ⊠ (.c 0)) ⊠ (.s 1)) ⊟ ((((.k 2075 5) ⊠ (.s 3)) ⊠ (.c 0)) ⊠ (.c 1))) ⊞ ((((.k 2075 5) ⊠ (.c 3)) ⊠ (.s 2)) ⊠ (.s 0))) ⊠ (.s 5)) ⊞ (((((((((.k 178 3) ⊠ (.s 2)) ⊠ (.s 0)) ⊞ (((((.neg (.k 296 3)) ⊠ (.c 3)) ⊟ (.k 416 3)) ⊠ (.c 2)) ⊠ (.c 0))) ⊠ (.s 1)) ⊟ ((((.k 296 3) ⊠ (.s 3)) ⊠ (.c 0)) ⊠ (.c 1))) ⊞ (((((.k 296 3) ⊠ (.c 3)) ⊞ (.k 416 3)) ⊠ (.s 2)) ⊠ (.s 0))) ⊟ (((.k 178 3) ⊠ (.c 2)) ⊠ (.c 0))) ⊠ (.c 5))) ⊠ (.c 4))) ⊞ ((((((((((.neg (.k 178 3)) ⊠ (.s 3)) ⊠ (.c 2)) ⊠ (.s 0)) ⊟ ((((.k 416 3) ⊠ (.s 3)) ⊠ (.s 2)) ⊠ (.c 0))) ⊠ (.s 1)) ⊞ ((((.k 178 3) ⊠ (.c 3)) ⊠ (.s 0)) ⊠ (.c 1))) ⊟ ((((.k 416 3) ⊠ (.s 3)) ⊠ (.c 2)) ⊠ (.s 0))) ⊟ ((((.k 178 3) ⊠ (.s 3)) ⊠ (.s 2)) ⊠ (.c 0))) ⊠ (.s 5))⟩,
    ⟨3, 2, ((((((((((((((.k 296 3) ⊠ (.c 3)) ⊞ (.k 416 3)) ⊠ (.c 2)) ⊠ (.c 0)) ⊟ (((.k 178 3) ⊠ (.s 2)) ⊠ (.s 0))) ⊠ (.s 1)) ⊞ ((((.k 296 3) ⊠ (.s 3)) ⊠ (.c 0)) ⊠ (.c 1))) ⊞ (((((.neg (.k 296 3)) ⊠ (.c 3)) ⊟ (.k 416 3)) ⊠ (.s 2)) ⊠ (.s 0))) ⊞ (((.k 178 3) ⊠ (.c 2)) ⊠ (.c 0))) ⊠ (.s 4)) ⊞ ((((((((((.k 178 3) ⊠ (.c 3)) ⊠ (.c 2)) ⊠ (.s 0)) ⊞ (((((.k 416 3) ⊠ (.c 3)) ⊞ (.k 296 3)) ⊠ (.s 2)) ⊠ (.c 0))) ⊠ (.s 1)) ⊞ ((((.k 178 3) ⊠ (.s 3)) ⊠ (.s 0)) ⊠ (.c 1))) ⊞ (((((.k 416 3) ⊠ (.c 3)) ⊞ (.k 296 3)) ⊠ (.c 2)) ⊠ (.s 0))) ⊞ ((((.k 178 3) ⊠ (.c 3)) ⊠ (.s 2)) ⊠ (.c 0))) ⊠ (.c 4))) ⊟ (((((.k 2075 5) ⊠ (.s 3)) ⊠ (.c 2)) ⊠ (.c 0)) ⊠ (.s 1))) ⊞ ((((.k 2075 5) ⊠ (.c 3)) ⊠ (.c 0)) ⊠ (.c 1))) ⊞ ((((.k 2075 5) ⊠ (.s 3)) ⊠ (.s 2)) ⊠ (.s 0))⟩,
    ⟨3, 3, (((((((((.neg (.c 3)) ⊠ (.c 2)) ⊠ (.c 0)) ⊠ (.s 1)) ⊟ (((.s 3) ⊠ (.c 0)) ⊠ (.c 1))) ⊞ (((.c 3) ⊠ (.s 2)) ⊠ (.s 0))) ⊠ (.s 5)) ⊠ (.s 4)) ⊞ ((((((.neg (.s 2)) ⊠ (.c 0)) ⊠ (.s 1)) ⊟ ((.c 2) ⊠ (.s 0))) ⊠ (.s 5)) ⊠ (.c 4))) ⊞ (((((((.neg (.s 3)) ⊠ (.c 2)) ⊠ (.c 0)) ⊠ (.s 1)) ⊞ (((.c 3) ⊠ (.c 0)) ⊠ (.c 1))) ⊞ (((.s 3) ⊠ (.s 2)) ⊠ (.s 0))) ⊠ (.c 5))⟩,
    ⟨3, 4, (((((((((.neg (.c 3)) ⊠ (.c 2)) ⊠ (.c 0)) ⊠ (.s 1)) ⊟ (((.s 3) ⊠ (.c 0)) ⊠ (.c 1))) ⊞ (((.c 3) ⊠ (.s 2)) ⊠ (.s 0))) ⊠ (.c 5)) ⊠ (.s 4)) ⊞ ((((((.neg (.s 2)) ⊠ (.c 0)) ⊠ (.s 1)) ⊟ ((.c 2) ⊠ (.s 0))) ⊠ (.c 5)) ⊠ (.c 4))) ⊞ (((((((.s 3) ⊠ (.c 2)) ⊠ (.c 0)) ⊠ (.s 1)) ⊟ (((.c 3) ⊠ (.c 0)) ⊠ (.c 1))) ⊟ (((.s 3) ⊠ (.s 2)) ⊠ (.s 0))) ⊠ (.s 5))⟩,
    ⟨3, 5, ((((((.k 1 0) ⊠ (.s 2)) ⊠ (.c 0)) ⊠ (.s 1)) ⊞ ((.c 2) ⊠ (.s 0))) ⊠ (.s 4)) ⊞ (((((((.neg (.c 3)) ⊠ (.c 2)) ⊠ (.c 0)) ⊠ (.s 1)) ⊟ (((.s 3) ⊠ (.c 0)) ⊠ (.c 1))) ⊞ (((.c 3) ⊠ (.s 2)) ⊠ (.s 0))) ⊠ (.c 4))⟩,
    ⟨4, 0, ((((((((((((((.k 416 3) ⊠ (.c 3)) ⊞ (.k 296 3)) ⊠ (.s 2)) ⊠ (.s 0)) ⊟ ((((.k 178 3) ⊠ (.c 3)) ⊠ (.c 2)) ⊠ (.c 0))) ⊠ (.s 1)) ⊟ ((((.k 178 3) ⊠ (.s 3)) ⊠ (.c 0)) ⊠ (.c 1))) ⊞ ((((.k 178 3) ⊠ (.c 3)) ⊠ (.s 2)) ⊠ (.s 0))) ⊞ (((((.neg (.k 416 3)) ⊠ (.c 3)) ⊟ (.k 296 3)) ⊠ (.c 2)) ⊠ (.c 0))) ⊠ (.s 5)) ⊞ (((((.k 2075 5) ⊠ (.c 2)) ⊠ (.c 0)) ⊟ ((((.k 2075 5) ⊠ (.s 2)) ⊠ (.s 0)) ⊠ (.s 1))) ⊠ (.c 5))) ⊠ (.s 4)) ⊞ (((((((((((((.neg (.k 296 3)) ⊠ (.c 3)) ⊟ (.k 416 3)) ⊠ (.c 2)) ⊠ (.s 0)) ⊟ (((.k 178 3) ⊠ (.s 2)) ⊠ (.c 0))) ⊠ (.s 1)) ⊟ ((((.k 296 3) ⊠ (.s 3)) ⊠ (.s 0)) ⊠ (.c 1))) ⊟ (((.k 178 3) ⊠ (.c 2)) ⊠ (.s 0))) ⊞ (((((.neg (.k 296 3)) ⊠ (.c 3)) ⊟ (.k 416 3)) ⊠ (.s 2)) ⊠ (.c 0))) ⊠ (.s 5)) ⊞ ((((((((.k 2075 5) ⊠ (.c 3)) ⊠ (.c 2)) ⊠ (.s 0)) ⊠ (.s 1)) ⊞ ((((.k 2075 5) ⊠ (.s 3)) ⊠ (.s 0)) ⊠ (.c 1))) ⊞ ((((.k 2075 5) ⊠ (.c 3)) ⊠ (.s 2)) ⊠ (.c 0))) ⊠ (.c 5))) ⊠ (.c 4))) ⊞ ((((((((((.k 416 3) ⊠ (.s 3)) ⊠ (.s 2)) ⊠ (.s 0)) ⊟ ((((.k 178 3) ⊠ (.s 3)) ⊠ (.c 2)) ⊠ (.c 0))) ⊠ (.s 1)) ⊞ ((((.k 178 3) ⊠ (.c 3)) ⊠ (.c 0)) ⊠ (.c 1))) ⊞ ((((.k 178 3) ⊠ (.s 3)) ⊠ (.s 2)) ⊠ (.s 0))) ⊟ ((((.k 416 3) ⊠ (.s 3)) ⊠ (.c 2)) ⊠ (.c 0))) ⊠ (.c 5))⟩,
    ⟨4, 1, (((((((((.k 2075 5) ⊠ (.s 2)) ⊠ (.s 0)) ⊠ (.s 1)) ⊟ (((.k 2075 5) ⊠ (.c 2)) ⊠ (.c 0))) ⊠ (.s 5)) ⊞ (((((((((((.k 416 3) ⊠ (.c 3)) ⊞ (.k 296 3)) ⊠ (.s 2)) ⊠ (.s 0)) ⊟ ((((.k 178 3) ⊠ (.c 3)) ⊠ (.c 2)) ⊠ (.c 0))) ⊠ (.s 1)) ⊟ ((((.k 178 3) ⊠ (.s 3)) ⊠ (.c 0)) ⊠ (.c 1))) ⊞ ((((.k 178 3) ⊠ (.c 3)) ⊠ (.s 2)) ⊠ (.s 0))) ⊞ (((((.neg (.k 416 3)) ⊠ (.c 3)) ⊟ (.k 296 3)) ⊠ (.c 2)) ⊠ (.c 0))) ⊠ (.c 5))) ⊠ (.s 4)) ⊞ ((((((((((.neg (.k 2075 5)) ⊠ (.c 3)) ⊠ (.c 2)) ⊠ (.s 0)) ⊠ (.s 1)) ⊟ ((((.k 2075 5) ⊠ (.s 3)) ⊠ (.s 0)) ⊠ (.c 1))) ⊟ ((((.k 2075 5) ⊠ (.c 3)) ⊠ (.s 2)) ⊠ (.c 0))) ⊠ (.s 5)) ⊞ (((((((((((.neg (.k 296 3)) ⊠ (.c 3)) ⊟ (.k 416 3)) ⊠ (.c 2)) ⊠ (.s 0)) ⊟ (((.k 178 3) ⊠ (.s 2)) ⊠ (.c 0))) ⊠ (.s 1)) ⊟ ((((.k 296 3) ⊠ (.s 3)) ⊠ (.s 0)) ⊠ (.c 1))) ⊟ (((.k 178 3) ⊠ (.c 2)) ⊠ (.s 0))) ⊞ (((((.neg (.k 296 3)) ⊠ (.c 3)) ⊟ (.k 416 3)) ⊠ (.s 2)) ⊠ (.c 0))) ⊠ (.c 5))) ⊠ (.c 4))) ⊞ ((((((((((.k 178 3) ⊠ (.s 3)) ⊠ (.c 2)) ⊠ (.c 0)) ⊟ ((((.k 416 3) ⊠ (.s 3)) ⊠ (.s 2)) ⊠ (.s 0))) ⊠ (.s 1)) ⊟ ((((.k 178 3) ⊠ (.c 3)) ⊠ (.c 0)) ⊠ (.c 1))) ⊟ ((((.k 178 3) ⊠ (.s 3)) ⊠ (.s 2)) ⊠ (.s 0))) ⊞ ((((.k 416 3) ⊠ (.s 3)) ⊠ (.c 2)) ⊠ (.c 0))) ⊠ (.s 5))⟩,
    ⟨4, 2, ((((((((((((((.k 296 3) ⊠ (.c 3)) ⊞ (.k 416 3)) ⊠ (.c 2)) ⊠ (.s 0)) ⊞ (((.k 178 3) ⊠ (.s 2)) ⊠ (.c 0))) ⊠ (.s 1)) ⊞ ((((.k 296 3) ⊠ (.s 3)) ⊠ (.s 0)) ⊠ (.c 1))) ⊞ (((.k 178 3) ⊠ (.c 2)) ⊠ (.s 0))) ⊞ (((((.k 296 3) ⊠ (.c 3)) ⊞ (.k 416 3)) ⊠ (.s 2)) ⊠ (.c 0))) ⊠ (.s 4)) ⊞ (((((((((((.k 416 3) ⊠ (.c 3)) ⊞ (.k 296 3)) ⊠ (.s 2)) ⊠ (.s 0)) ⊟ ((((.k 178 3) ⊠ (.c 3)) ⊠ (.c 2)) ⊠ (.c 0))) ⊠ (.s 1)) ⊟ ((((.k 178 3) ⊠ (.s 3)) ⊠ (.c 0)) ⊠ (.c 1))) ⊞ ((((.k 178 3) ⊠ (.c 3)) ⊠ (.s 2)) ⊠ (.s 0))) ⊞ (((((.neg (.k 416 3)) ⊠ (.c 3)) ⊟ (.k 296 3)) ⊠ (.c 2)) ⊠ (.c 0))) ⊠ (.c 4))) ⊟ (((((.k 2075 5) ⊠ (.s 3)) ⊠ (.c 2)) ⊠ (.s 0)) ⊠ (.s 1))) ⊞ ((((.k 2075 5) ⊠ (.c 3)) ⊠ (.s 0)) ⊠ (.c 1))) ⊟ ((((.k 2075 5) ⊠ (.s 3)) ⊠ (.s 2)) ⊠ (.c 0))⟩,
    ⟨4, 3, (((((((((.neg (.c 3)) ⊠ (.c 2)) ⊠ (.s 0)) ⊠ (.s 1)) ⊟ (((.s 3) ⊠ (.s 0)) ⊠ (.c 1))) ⊟ (((.c 3) ⊠ (.s 2)) ⊠ (.c 0))) ⊠ (.s 5)) ⊠ (.s 4)) ⊞ (((((.c 2) ⊠ (.c 0)) ⊟ (((.s 2) ⊠ (.s 0)) ⊠ (.s 1))) ⊠ (.s 5)) ⊠ (.c 4))) ⊞ (((((((.neg (.s 3)) ⊠ (.c 2)) ⊠ (.s 0)) ⊠ (.s 1)) ⊞ (((.c 3) ⊠ (.s 0)) ⊠ (.c 1))) ⊟ (((.s 3) ⊠ (.s 2)) ⊠ (.c 0))) ⊠ (.c 5))⟩,
    ⟨4, 4, (((((((((.neg (.c 3)) ⊠ (.c 2)) ⊠ (.s 0)) ⊠ (.s 1)) ⊟ (((.s 3) ⊠ (.s 0)) ⊠ (.c 1))) ⊟ (((.c 3) ⊠ (.s 2)) ⊠ (.c 0))) ⊠ (.c 5)) ⊠ (.s 4)) ⊞ (((((.c 2) ⊠ (.c 0)) ⊟ (((.s 2) ⊠ (.s 0)) ⊠ (.s 1))) ⊠ (.c 5)) ⊠ (.c 4))) ⊞ (((((((.s 3) ⊠ (.c 2)) ⊠ (.s 0)) ⊠ (.s 1)) ⊟ (((.c 3) ⊠ (.s 0)) ⊠ (.c 1))) ⊞ (((.s 3) ⊠ (.s 2)) ⊠ (.c 0))) ⊠ (.s 5))⟩,
    ⟨4, 5, ((((((.k 1 0) ⊠ (.s 2)) ⊠ (.s 0)) ⊠ (.s 1)) ⊟ ((.c 2) ⊠ (.c 0))) ⊠ (.s 4)) ⊞ (((((((.neg (.c 3)) ⊠ (.c 2)) ⊠ (.s 0)) ⊠ (.s 1)) ⊟ (((.s 3) ⊠ (.s 0)) ⊠ (.c 1))) ⊟ (((.c 3) ⊠ (.s 2)) ⊠ (.c 0))) ⊠ (.c 4))⟩,
    ⟨5, 0, (((((((((.neg (.k 416 3)) ⊠ (.c 3)) ⊟ (.k 296 3)) ⊠ (.s 2)) ⊠ (.c 1)) ⊠ (.s 5)) ⊞ ((((.k 2075 5) ⊠ (.s 2)) ⊠ (.c 1)) ⊠ (.c 5))) ⊠ (.s 4)) ⊞ (((((((((.k 296 3) ⊠ (.c 3)) ⊞ (.k 416 3)) ⊠ (.c 2)) ⊠ (.c 1)) ⊟ (((.k 296 3) ⊠ (.s 3)) ⊠ (.s 1))) ⊠ (.s 5)) ⊞ (((((.k 2075 5) ⊠ (.s 3)) ⊠ (.s 1)) ⊟ ((((.k 2075 5) ⊠ (.c 3)) ⊠ (.c 2)) ⊠ (.c 1))) ⊠ (.c 5))) ⊠ (.c 4))) ⊟ (((((.k 416 3) ⊠ (.s 3)) ⊠ (.s 2)) ⊠ (.c 1)) ⊠ (.c 5))⟩,
    ⟨5, 1, (((((((((.neg (.k 416 3)) ⊠ (.c 3)) ⊟ (.k 296 3)) ⊠ (.s 2)) ⊠ (.c 1)) ⊠ (.c 5)) ⊟ ((((.k 2075 5) ⊠ (.s 2)) ⊠ (.c 1)) ⊠ (.s 5))) ⊠ (.s 4)) ⊞ ((((((((.k 2075 5) ⊠ (.c 3)) ⊠ (.c 2)) ⊠ (.c 1)) ⊟ (((.k 2075 5) ⊠ (.s 3)) ⊠ (.s 1))) ⊠ (.s 5)) ⊞ (((((((.k 296 3) ⊠ (.c 3)) ⊞ (.k 416 3)) ⊠ (.c 2)) ⊠ (.c 1)) ⊟ (((.k 296 3) ⊠ (.s 3)) ⊠ (.s 1))) ⊠ (.c 5))) ⊠ (.c 4))) ⊞ (((((.k 416 3) ⊠ (.s 3)) ⊠ (.s 2)) ⊠ (.c 1)) ⊠ (.s 5))⟩,
    ⟨5, 2, (((((((.k 296 3) ⊠ (.s 3)) ⊠ (.s 1)) ⊞ (((((.neg (.k 296 3)) ⊠ (.c 3)) ⊟ (.k 416 3)) ⊠ (.c 2)) ⊠ (.c 1))) ⊠ (.s 4)) ⊞ ((((((.neg (.k 416 3)) ⊠ (.c 3)) ⊟ (.k 296 3)) ⊠ (.s 2)) ⊠ (.c 1)) ⊠ (.c 4))) ⊞ (((.k 2075 5) ⊠ (.c 3)) ⊠ (.s 1))) ⊞ ((((.k 2075 5) ⊠ (.s 3)) ⊠ (.c 2)) ⊠ (.c 1))⟩,
    ⟨5, 3, (((((((.c 3) ⊠ (.c 2)) ⊠ (.c 1)) ⊟ ((.s 3) ⊠ (.s 1))) ⊠ (.s 5)) ⊠ (.s 4)) ⊞ ((((.s 2) ⊠ (.c 1)) ⊠ (.s 5)) ⊠ (.c 4))) ⊞ ((((.c 3) ⊠ (.s 1)) ⊞ (((.s 3) ⊠ (.c 2)) ⊠ (.c 1))) ⊠ (.c 5))⟩,
    ⟨5, 4, (((((((.c 3) ⊠ (.c 2)) ⊠ (.c 1)) ⊟ ((.s 3) ⊠ (.s 1))) ⊠ (.c 5)) ⊠ (.s 4)) ⊞ ((((.s 2) ⊠ (.c 1)) ⊠ (.c 5)) ⊠ (.c 4))) ⊞ ((((.neg (.c 3)) ⊠ (.s 1)) ⊟ (((.s 3) ⊠ (.c 2)) ⊠ (.c 1))) ⊠ (.s 5))⟩,
    ⟨5, 5, ((((((.k 1 0) ⊠ (.c 3)) ⊠ (.c 2)) ⊠ (.c 1)) ⊟ ((.s 3) ⊠ (.s 1))) ⊠ (.c 4)) ⊟ (((.s 2) ⊠ (.c 1)) ⊠ (.s 4))⟩]

/-- `ForceTransforms::Type_fr_HyABase_X_fr_Wrist_FE` (transforms.impl.h:3326-3337, 3339-3394). -/
def force_fr_HyABase_X_fr_Wrist_FE : Gen where
  rows := 6
  cols := 6
  ctor := [⟨3, 0, .k 0 0⟩,
    ⟨3, 1, .k 0 0⟩,
    ⟨3, 2, .k 0 0⟩,
    ⟨4, 0, .k 0 0⟩,
    ⟨4, 1, .k 0 0⟩,
    ⟨4, 2, .k 0 0⟩,
    ⟨5, 0, .k 0 0⟩,
    ⟨5, 1, .k 0 0⟩,
    ⟨5, 2, .k 0 0⟩]
  upd := [⟨0, 0, (((((((((.neg (.c 3)) ⊠ (.c 2)) ⊠ (.c 0)) ⊠ (.s 1)) ⊟ (((.s 3) ⊠ (.c 0)) ⊠ (.c 1))) ⊞ (((.c 3) ⊠ (.s 2)) ⊠ (.s 0))) ⊠ (.s 5)) ⊠ (.s 4)) ⊞ ((((((.neg (.s 2)) ⊠ (.c 0)) ⊠ (.s 1)) ⊟ ((.c 2) ⊠ (.s 0))) ⊠ (.s 5)) ⊠ (.c 4))) ⊞ (((((((.neg (.s 3)) ⊠ (.c 2)) ⊠ (.c 0)) ⊠ (.s 1)) ⊞ (((.c 3) ⊠ (.c 0)) ⊠ (.c 1))) ⊞ (((.s 3) ⊠ (.s 2)) ⊠ (.s 0))) ⊠ (.c 5))⟩,
    ⟨0, 1, (((((((((.neg (.c 3)) ⊠ (.c 2)) ⊠ (.c 0)) ⊠ (.s 1)) ⊟ (((.s 3) ⊠ (.c 0)) ⊠ (.c 1))) ⊞ (((.c 3) ⊠ (.s 2)) ⊠ (.s 0))) ⊠ (.c 5)) ⊠ (.s 4)) ⊞ ((((((.neg (.s 2)) ⊠ (.c 0)) ⊠ (.s 1)) ⊟ ((.c 2) ⊠ (.s 0))) ⊠ (.c 5)) ⊠ (.c 4))) ⊞ (((((((.s 3) ⊠ (.c 2)) ⊠ (.c 0)) ⊠ (.s 1)) ⊟ (((.c 3) ⊠ (.c 0)) ⊠ (.c 1))) ⊟ (((.s 3) ⊠ (.s 2)) ⊠ (.s 0))) ⊠ (.s 5))⟩,
    ⟨0, 2, ((((((.k 1 0) ⊠ (.s 2)) ⊠ (.c 0)) ⊠ (.s 1)) ⊞ ((.c 2) ⊠ (.s 0))) ⊠ (.s 4)) ⊞ (((((((.neg (.c 3)) ⊠ (.c 2)) ⊠ (.c 0)) ⊠ (.s 1)) ⊟ (((.s 3) ⊠ (.c 0)) ⊠ (.c 1))) ⊞ (((.c 3) ⊠ (.s 2)) ⊠ (.s 0))) ⊠ (.c 4))⟩,
    ⟨0, 3, (((((((((((((.k 178 3) ⊠ (.c 3)) ⊠ (.c 2)) ⊠ (.s 0)) ⊞ (((((.k 416 3) ⊠ (.c 3)) ⊞ (.k 296 3)) ⊠ (.s 2)) ⊠ (.c 0))) ⊠ (.s 1)) ⊞ ((((.k 178 3) ⊠ (.s 3)) ⊠ (.s 0)) ⊠ (.c 1))) ⊞ (((((.k 416 3) ⊠ (.c 3)) ⊞ (.k 296 3)) ⊠ (.c 2)) ⊠ (.s 0))) ⊞ ((((.k 178 3) ⊠ (.c 3)) ⊠ (.s 2)) ⊠ (.c 0))) ⊠ (.s 5)) ⊞ ((((((.neg (.k 2075 5)) ⊠ (.s 2)) ⊠ (.c 0)) ⊠ (.s 1)) ⊟ (((.k 2075 5) ⊠ (.c 2)) ⊠ (.s 0))) ⊠ (.c 5))) ⊠ (.s 4)) ⊞ (((((((((((.k 178 3) ⊠ (.s 2)) ⊠ (.s 0)) ⊞ (((((.neg (.k 296 3)) ⊠ (.c 3)) ⊟ (.k 416 3)) ⊠ (.c 2)) ⊠ (.c 0))) ⊠ (.s 1)) ⊟ ((((.k 296 3) ⊠ (.s 3)) ⊠ (.c 0)) ⊠ (.c 1))) ⊞ (((((.k 296 3) ⊠ (.c 3)) ⊞ (.k 416 3)) ⊠ (.s 2)) ⊠ (.s 0))) ⊟ (((.k 178 3) ⊠ (.c 2)) ⊠ (.c 0))) ⊠ (.s 5)) ⊞ ((((((((.k 2075 5) ⊠ (.c 3)) ⊠ (.c 2)) ⊠ (.c 0)) ⊠ (.s 1)) ⊞ ((((.k 2075 5) ⊠ (.s 3)) ⊠ (.c 0)) ⊠ (.c 1))) ⊟ ((((.k 2075 5) ⊠ (.c 3)) ⊠ (.s 2)) ⊠ (.s 0))) ⊠ (.c 5))) ⊠ (.c 4))) ⊞ ((((((((((.k 178 3) ⊠ (.s 3)) ⊠ (.c 2)) ⊠ (.s 0)) ⊞ ((((.k 416 3) ⊠ (.s 3)) ⊠ (.s 2)) ⊠ (.c 0))) ⊠ (.s 1)) ⊟ ((((.k 178 3) ⊠ (.c 3)) ⊠ (.s 0)) ⊠ (.c 1))) ⊞ ((((.k 416 3) ⊠ (.s 3)) ⊠ (.c 2)) ⊠ (.s 0))) ⊞ ((((.k 178 3) ⊠ (.s 3)) ⊠ (.s 2)) ⊠ (.c 0))) ⊠ (.c 5))⟩,
    ⟨0, 4, (((((((((.k 2075 5) ⊠ (.s 2)) ⊠ (.c 0)) ⊠ (.s 1)) ⊞ (((.k 2075 5) ⊠ (.c 2)) ⊠ (.s 0))) ⊠ (.s 5)) ⊞ ((((((((((.k 178 3) ⊠ (.c 3)) ⊠ (.c 2)) ⊠ (.s 0)) ⊞ (((((.k 416 3) ⊠ (.c 3)) ⊞ (.k 296 3)) ⊠ (.s 2)) ⊠ (.c 0))) ⊠ (.s 1)) ⊞ ((((.k 178 3) ⊠ (.s 3)) ⊠ (.s 0)) ⊠ (.c 1))) ⊞ (((((.k 416 3) ⊠ (.c 3)) ⊞ (.k 296 3)) ⊠ (.c 2)) ⊠ (.s 0))) ⊞ ((((.k 178 3) ⊠ (.c 3)) ⊠ (.s 2)) ⊠ (.c 0))) ⊠ (.c 5))) ⊠ (.s 4)) ⊞ ((((((((((.neg (.k 2075 5)) ⊠ (.c 3)) ⊠ (.c 2)) ⊠ (.c 0)) ⊠ (.s 1)) ⊟ ((((.k 2075 5) ⊠ (.s 3)) ⊠ (.c 0)) ⊠ (.c 1))) ⊞ ((((.k 2075 5) ⊠ (.c 3)) ⊠ (.s 2)) ⊠ (.s 0))) ⊠ (.s 5)) ⊞ (((((((((.k 178 3) ⊠ (.s 2)) ⊠ (.s 0)) ⊞ (((((.neg (.k 296 3)) ⊠ (.c 3)) ⊟ (.k 416 3)) ⊠ (.c 2)) ⊠ (.c 0))) ⊠ (.s 1)) ⊟ ((((.k 296 3) ⊠ (.s 3)) ⊠ (.c 0)) ⊠ (.c 1))) ⊞ (((((.k 296 3) ⊠ (.c 3)) ⊞ (.k 416 3)) ⊠ (.s 2)) ⊠ (.s 0))) ⊟ (((.k 178 3) ⊠ (.c 2)) ⊠ (.c 0))) ⊠ (.c 5))) ⊠ (.c 4))) ⊞ ((((((((((.neg (.k 178 3)) ⊠ (.s 3)) ⊠ (.c 2)) ⊠ (.s 0)) ⊟ ((((.k 416 3) ⊠ (.s 3)) ⊠ (.s 2)) ⊠ (.c 0))) ⊠ (.s 1)) ⊞ ((((.k 178 3) ⊠ (.c 3)) ⊠ (.s 0)) ⊠ (.c 1))) ⊟ ((((.k 416 3) ⊠ (.s 3)) ⊠ (.c 2)) ⊠ (.s 0))) ⊟ ((((.k 178 3) ⊠ (.s 3)) ⊠ (.s 2)) ⊠ (.c 0))) ⊠ (.s 5))⟩,
    ⟨0, 5, ((((((((((((((.k 296 3) ⊠ (.c 3)) ⊞ (.k 416 3)) ⊠ (.c 2)) ⊠ (.c 0)) ⊟ (((.k 178 3) ⊠ (.s 2)) ⊠ (.s 0))) ⊠ (.s 1)) ⊞ ((((.k 296 3) ⊠ (.s 3)) ⊠ (.c 0)) ⊠ (.c 1))) ⊞ (((((.neg (.k 296 3)) ⊠ (.c 3)) ⊟ (.k 416 3)) ⊠ (.s 2)) ⊠ (.s 0))) ⊞ (((.k 178 3) ⊠ (.c 2)) ⊠ (.c 0))) ⊠ (.s 4)) ⊞ ((((((((((.k 178 3) ⊠ (.c 3)) ⊠ (.c 2)) ⊠ (.s 0)) ⊞ (((((.k 416 3) ⊠ (.c 3)) ⊞ (.k 296 3)) ⊠ (.s 2)) ⊠ (.c 0))) ⊠ (.s 1)) ⊞ ((((.k 178 3) ⊠ (.s 3)) ⊠ (.s 0)) ⊠ (.c 1))) ⊞ (((((.k 416 3) ⊠ (.c 3)) ⊞ (.k 296 3)) ⊠ (.c 2)) ⊠ (.s 0))) ⊞ ((((.k 178 3) ⊠ (.c 3)) ⊠ (.s 2)) ⊠ (.c 0))) ⊠ (.c 4))) ⊟ (((((.k 2075 5) ⊠ (.s 3)) ⊠ (.c 2)) ⊠ (.c 0)) ⊠ (.s 1))) ⊞ ((((.k 2075 5) ⊠ (.c 3)) ⊠ (.c 0)) ⊠ (.c 1))) ⊞ ((((.k 2075 5) ⊠ (.s 3)) ⊠ (.s 2)) ⊠ (.s 0))⟩,
    ⟨1, 0, (((((((((.neg (.c 3)) ⊠ (.c 2)) ⊠ (.s 0)) ⊠ (.s 1)) ⊟ (((.s 3) ⊠ (.s 0)) ⊠ (.c 1))) ⊟ (((.c 3) ⊠ (.s 2)) ⊠ (.c 0))) ⊠ (.s 5)) ⊠ (.s 4)) ⊞ (((((.c 2) ⊠ (.c 0)) ⊟ (((.s 2) ⊠ (.s 0)) ⊠ (.s 1))) ⊠ (.s 5)) ⊠ (.c 4))) ⊞ (((((((.neg (.s 3)) ⊠ (.c 2)) ⊠ (.s 0)) ⊠ (.s 1)) ⊞ (((.c 3) ⊠ (.s 0)) ⊠ (.c 1))) ⊟ (((.s 3) ⊠ (.s 2)) ⊠ (.c 0))) ⊠ (.c 5))⟩,
    ⟨1, 1, (((((((((.neg (.c 3)) ⊠ (.c 2)) ⊠ (.s 0)) ⊠ (.s 1)) ⊟ (((.s 3) ⊠ (.s 0)) ⊠ (.c 1))) ⊟ (((.c 3) ⊠ (.s 2)) ⊠ (.c 0))) ⊠ (.c 5)) ⊠ (.s 4)) ⊞ (((((.c 2) ⊠ (.c 0)) ⊟ (((.s 2) ⊠ (.s 0)) ⊠ (.s 1))) ⊠ (.c 5)) ⊠ (.c 4))) ⊞ (((((((.s 3) ⊠ (.c 2)) ⊠ (.s 0)) ⊠ (.s 1)) ⊟ (((.c 3) ⊠ (.s 0)) ⊠ (.c 1))) ⊞ (((.s 3) ⊠ (.s 2)) ⊠ (.c 0))) ⊠ (.s 5))⟩,
    ⟨1, 2, ((((((.k 1 0) ⊠ (.s 2)) ⊠ (.s 0)) ⊠ (.s 1)) ⊟ ((.c 2) ⊠ (.c 0))) ⊠ (.s 4)) ⊞ (((((((.neg (.c 3)) ⊠ (.c 2)) ⊠ (.s 0)) ⊠ (.s 1)) ⊟ (((.s 3) ⊠ (.s 0)) ⊠ (.c 1))) ⊟ (((.c 3) ⊠ (.s 2)) ⊠ (.c 0))) ⊠ (.c 4))⟩,
    ⟨1, 3, ((((((((((((((.k 416 3) ⊠ (.c 3)) ⊞ (.k 296 3)) ⊠ (.s 2)) ⊠ (.s 0)) ⊟ ((((.k 178 3) ⊠ (.c 3)) ⊠ (.c 2)) ⊠ (.c 0))) ⊠ (.s 1)) ⊟ ((((.k 178 3) ⊠ (.s 3)) ⊠ (.c 0)) ⊠ (.c 1))) ⊞ ((((.k 178 3) ⊠ (.c 3)) ⊠ (.s 2)) ⊠ (.s 0))) ⊞ (((((.neg (.k 416 3)) ⊠ (.c 3)) ⊟ (.k 296 3)) ⊠ (.c 2)) ⊠ (.c 0))) ⊠ (.s 5)) ⊞ (((((.k 2075 5) ⊠ (.c 2)) ⊠ (.c 0)) ⊟ ((((.k 2075 5) ⊠ (.s 2)) ⊠ (.s 0)) ⊠ (.s 1))) ⊠ (.c 5))) ⊠ (.s 4)) ⊞ (((((((((((((.neg (.k 296 3)) ⊠ (.c 3)) ⊟ (.k 416 3)) ⊠ (.c 2)) ⊠ (.s 0)) ⊟ (((.k 178 3) ⊠ (.s 2)) ⊠ (.c 0))) ⊠ (.s 1)) ⊟ ((((.k 296 3) ⊠ (.s 3)) ⊠ (.s 0)) ⊠ (.c 1))) ⊟ (((.k 178 3) ⊠ (.c 2)) ⊠ (.s 0))) ⊞ (((((.neg (.k 296 3)) ⊠ (.c 3)) ⊟ (.k 416 3)) ⊠ (.s 2)) ⊠ (.c 0))) ⊠ (.s 5)) ⊞ ((((((((.k 2075 5) ⊠ (.c 3)) ⊠ (.c 2)) ⊠ (.s 0)) ⊠ (.s 1)) ⊞ ((((.k 2075 5) ⊠ (.s 3)) ⊠ (.s 0)) ⊠ (.c 1))) ⊞ ((((.k 2075 5) ⊠ (.c 3)) ⊠ (.s 2)) ⊠ (.c 0))) ⊠ (.c 5))) ⊠ (.c 4))) ⊞ ((((((((((.k 416 3) ⊠ (.s 3)) ⊠ (.s 2)) ⊠ (.s 0)) ⊟ ((((.k 178 3) ⊠ (.s 3)) ⊠ (.c 2)) ⊠ (.c 0))) ⊠ (.s 1)) ⊞ ((((.k 178 3) ⊠ (.c 3)) ⊠ (.c 0)) ⊠ (.c 1))) ⊞ ((((.k 178 3) ⊠ (.s 3)) ⊠ (.s 2)) ⊠ (.s 0))) ⊟ ((((.k 416 3) ⊠ (.s 3)) ⊠ (.c 2)) ⊠ (.c 0))) ⊠ (.c 5))⟩,
    ⟨1, 4, (((((((((.k 2075 5) ⊠ (.s 2)) ⊠ (.s 0)) ⊠ (.s 1)) ⊟ (((.k 2075 5) ⊠ (.c 2)) ⊠ (.c 0))) ⊠ (.s 5)) ⊞ (((((((((((.k 416 3) ⊠ (.c 3)) ⊞ (.k 296 3)) ⊠ (.s 2)) ⊠ (.s 0)) ⊟ ((((.k 178 3) ⊠ (.c 3)) ⊠ (.c 2)) ⊠ (.c 0))) ⊠ (.s 1)) ⊟ ((((.k 178 3) ⊠ (.s 3)) ⊠ (.c 0)) ⊠ (.c 1))) ⊞ ((((.k 178 3) ⊠ (.c 3)) ⊠ (.s 2)) ⊠ (.s 0))) ⊞ (((((.neg (.k 416 3)) ⊠ (.c 3)) ⊟ (.k 296 3)) ⊠ (.c 2)) ⊠ (.c 0))) ⊠ (.c 5))) ⊠ (.s 4)) ⊞ ((((((((((.neg (.k 2075 5)) ⊠ (.c 3)) ⊠ (.c 2)) ⊠ (.s 0)) ⊠ (.s 1)) ⊟ ((((.k 2075 5) ⊠ (.s 3)) ⊠ (.s 0)) ⊠ (.c 1))) ⊟ ((((.k 2075 5) ⊠ (.c 3)) ⊠ (.s 2)) ⊠ (.c 0))) ⊠ (.s 5)) ⊞ (((((((((((.neg (.k 296 3)) ⊠ (.c 3)) ⊟ (.k 416 3)) ⊠ (.c 2)) ⊠ (.s 0)) ⊟ (((.k 178 3) ⊠ (.s 2)) ⊠ (.c 0))) ⊠ (.s 1)) ⊟ ((((.k 296 3) ⊠ (.s 3)) ⊠ (.s 0)) ⊠ (.c 1))) ⊟ (((.k 178 3) ⊠ (.c 2)) ⊠ (.s 0))) ⊞ (((((.neg (.k 296 3)) ⊠ (.c 3)) ⊟ (.k 416 3)) ⊠ (.s 2)) ⊠ (.c 0))) ⊠ (.c 5))) ⊠ (.c 4))) ⊞ ((((((((((.k 178 3) ⊠ (.s 3)) ⊠ (.c 2)) ⊠ (.c 0)) ⊟ ((((.k 416 3) ⊠ (.s 3)) ⊠ (.s 2)) ⊠ (.s 0))) ⊠ (.s 1)) ⊟ ((((.k 178 3) ⊠ (.c 3)) ⊠ (.c 0)) ⊠ (.c 1))) ⊟ ((((.k 178 3) ⊠ (.s 3)) ⊠ (.s 2)) ⊠ (.s 0))) ⊞ ((((.k 416 3) ⊠ (.s 3)) ⊠ (.c 2)) ⊠ (.c 0))) ⊠ (.s 5))⟩,
    ⟨1, 5, ((((((((((((((.k 296 3) ⊠ (.c 3)) ⊞ (.k 416 3)) ⊠ (.c 2)) ⊠ (.s 0)) ⊞ (((.k 178 3) ⊠ (.s 2)) ⊠ (.c 0))) ⊠ (.s 1)) ⊞ ((((.k 296 3) ⊠ (.s 3)) ⊠ (.s 0)) ⊠ (.c 1))) ⊞ (((.k 178 3) ⊠ (.c 2)) ⊠ (.s 0))) ⊞ (((((.k 296 3) ⊠ (.c 3)) ⊞ (.k 416 3)) ⊠ (.s 2)) ⊠ (.c 0))) ⊠ (.s 4)) ⊞ (((((((((((.k 416 3) ⊠ (.c 3)) ⊞ (.k 296 3)) ⊠ (.s 2)) ⊠ (.s 0)) ⊟ ((((.k 178 3) ⊠ (.c 3)) ⊠ (.c 2)) ⊠ (.c 0))) ⊠ (.s 1)) ⊟ ((((.k 178 3) ⊠ (.s 3)) ⊠ (.c 0)) ⊠ (.c 1))) ⊞ ((((.k 178 3) ⊠ (.c 3)) ⊠ (.s 2)) ⊠ (.s 0))) ⊞ (((((.neg (.k 416 3)) ⊠ (.c 3)) ⊟ (.k 296 3)) ⊠ (.c 2)) ⊠ (.c 0))) ⊠ (.c 4))) ⊟ (((((.k 2075 5) ⊠ (.s 3)) ⊠ (.c 2)) ⊠ (.s 0)) ⊠ (.s 1))) ⊞ ((((.k 2075 5) ⊠ (.c 3)) ⊠ (.s 0)) ⊠ (.c 1))) ⊟ ((((.k 2075 5) ⊠ (.s 3)) ⊠ (.s 2)) ⊠ (.c 0))⟩,
    ⟨2, 0, (((((((.c 3) ⊠ (.c 2)) ⊠ (.c 1)) ⊟ ((.s 3) ⊠ (.s 1))) ⊠ (.s 5)) ⊠ (.s 4)) ⊞ ((((.s 2) ⊠ (.c 1)) ⊠ (.s 5)) ⊠ (.c 4))) ⊞ ((((.c 3) ⊠ (.s 1)) ⊞ (((.s 3) ⊠ (.c 2)) ⊠ (.c 1))) ⊠ (.c 5))⟩,
    ⟨2, 1, (((((((.c 3) ⊠ (.c 2)) ⊠ (.c 1)) ⊟ ((.s 3) ⊠ (.s 1))) ⊠ (.c 5)) ⊠ (.s 4)) ⊞ ((((.s 2) ⊠ (.c 1)) ⊠ (.c 5)) ⊠ (.c 4))) ⊞ ((((.neg (.c 3)) ⊠ (.s 1)) ⊟ (((.s 3) ⊠ (.c 2)) ⊠ (.c 1))) ⊠ (.s 5))⟩,
    ⟨2, 2, ((((((.k 1 0) ⊠ (.c 3)) ⊠ (.c 2)) ⊠ (.c 1)) ⊟ ((.s 3) ⊠ (.s 1))) ⊠ (.c 4)) ⊟ (((.s 2) ⊠ (.c 1)) ⊠ (.s 4))⟩,
    ⟨2, 3, (((((((((.neg (.k 416 3)) ⊠ (.c 3)) ⊟ (.k 296 3)) ⊠ (.s 2)) ⊠ (.c 1)) ⊠ (.s 5)) ⊞ ((((.k 2075 5) ⊠ (.s 2)) ⊠ (.c 1)) ⊠ (.c 5))) ⊠ (.s 4)) ⊞ (((((((((.k 296 3) ⊠ (.c 3)) ⊞ (.k 416 3)) ⊠ (.c 2)) ⊠ (.c 1)) ⊟ (((.k 296 3) ⊠ (.s 3)) ⊠ (.s 1))) ⊠ (.s 5)) ⊞ (((((.k 2075 5) ⊠ (.s 3)) ⊠ (.s 1)) ⊟ ((((.k 2075 5) ⊠ (.c 3)) ⊠ (.c 2)) ⊠ (.c 1))) ⊠ (.c 5))) ⊠ (.c 4))) ⊟ (((((.k 416 3) ⊠ (.s 3)) ⊠ (.s 2)) ⊠ (.c 1)) ⊠ (.c 5))⟩,
    ⟨2, 4, (((((((((.neg (.k 416 3)) ⊠ (.c 3)) ⊟ (.k 296 3)) ⊠ (.s 2)) ⊠ (.c 1)) ⊠ (.c 5)) ⊟ ((((.k 2075 5) ⊠ (.s 2)) ⊠ (.c 1)) ⊠ (.s 5))) ⊠ (.s 4)) ⊞ ((((((((.k 2075 5) ⊠ (.c 3)) ⊠ (.c 2)) ⊠ (.c 1)) ⊟ (((.k 2075 5) ⊠ (.s 3)) ⊠ (.s 1))) ⊠ (.s 5)) ⊞ (((((((.k 296 3) ⊠ (.c 3)) ⊞ (.k 416 3)) ⊠ (.c 2)) ⊠ (.c 1)) ⊟ (((.k 296 3) ⊠ (.s 3)) ⊠ (.s 1))) ⊠ (.c 5))) ⊠ (.c 4))) ⊞ (((((.k 416 3) ⊠ (.s 3)) ⊠ (.s 2)) ⊠ (.c 1)) ⊠ (.s 5))⟩,
    ⟨2, 5, (((((((.k 296 3) ⊠ (.s 3)) ⊠ (.s 1)) ⊞ (((((.neg (.k 296 3)) ⊠ (.c 3)) ⊟ (.k 416 3)) ⊠ (.c 2)) ⊠ (.c 1))) ⊠ (.s 4)) ⊞ ((((((.neg (.k 416 3)) ⊠ (.c 3)) ⊟ (.k 296 3)) ⊠ (.s 2)) ⊠ (.c 1)) ⊠ (.c 4))) ⊞ (((.k 2075 5) ⊠ (.c 3)) ⊠ (.s 1))) ⊞ ((((.k 2075 5) ⊠ (.s 3)) ⊠ (.c 2)) ⊠ (.c 1))⟩,
    ⟨3, 3, (((((((((.neg (.c 3)) ⊠ (.c 2)) ⊠ (.c 0)) ⊠ (.s 1)) ⊟ (((.s 3) ⊠ (.c 0)) ⊠ (.c 1))) ⊞ (((.c 3) ⊠ (.s 2)) ⊠ (.s 0))) ⊠ (.s 5)) ⊠ (.s 4)) ⊞ ((((((.neg (.s 2)) ⊠ (.c 0)) ⊠ (.s 1)) ⊟ ((.c 2) ⊠ (.s 0))) ⊠ (.s 5)) ⊠ (.c 4))) ⊞ (((((((.neg (.s 3)) ⊠ (.c 2)) ⊠ (.c 0)) ⊠ (.s 1)) ⊞ (((.c 3) ⊠ (.c 0)) ⊠ (.c 1))) ⊞ (((.s 3) ⊠ (.s 2)) ⊠ (.s 0))) ⊠ (.c 5))⟩,
    ⟨3, 4, (((((((((.neg (.c 3)) ⊠ (.c 2)) ⊠ (.c 0)) ⊠ (.s 1)) ⊟ (((.s 3) ⊠ (.c 0)) ⊠ (.c 1))) ⊞ (((.c 3) ⊠ (.s 2)) ⊠ (.s 0))) ⊠ (.c 5)) ⊠ (.s 4)) ⊞ ((((((.neg (.s 2)) ⊠ (.c 0)) ⊠ (.s 1)) ⊟ ((.c 2) ⊠ (.s 0))) ⊠ (.c 5)) ⊠ (.c 4))) ⊞ (((((((.s 3) ⊠ (.c 2)) ⊠ (.c 0)) ⊠ (.s 1)) ⊟ (((.c 3) ⊠ (.c 0)) ⊠ (.c 1))) ⊟ (((.s 3) ⊠ (.s 2)) ⊠ (.s 0))) ⊠ (.s 5))⟩,
    ⟨3, 5, ((((((.k 1 0) ⊠ (.s 2)) ⊠ (.c 0)) ⊠ (.s 1)) ⊞ ((.c 2) ⊠ (.s 0))) ⊠ (.s 4)) ⊞ (((((((.neg (.c 3)) ⊠ (.c 2)) ⊠ (.c 0)) ⊠ (.s 1)) ⊟ (((.s 3) ⊠ (.c 0)) ⊠ (.c 1))) ⊞ (((.c 3) ⊠ (.s 2)) ⊠ (.s 0))) ⊠ (.c 4))⟩,
    ⟨4, 3, (((((((((.neg (.c 3)) ⊠ (.c 2)) ⊠ (.s 0)) ⊠ (.s 1)) ⊟ (((.s 3) ⊠ (.s 0)) ⊠ (.c 1))) ⊟ (((.c 3) ⊠ (.s 2)) ⊠ (.c 0))) ⊠ (.s 5)) ⊠ (.s 4)) ⊞ (((((.c 2) ⊠ (.c 0)) ⊟ (((.s 2) ⊠ (.s 0)) ⊠ (.s 1))) ⊠ (.s 5)) ⊠ (.c 4))) ⊞ (((((((.neg (.s 3)) ⊠ (.c 2)) ⊠ (.s 0)) ⊠ (.s 1)) ⊞ (((.c 3) ⊠ (.s 0)) ⊠ (.c 1))) ⊟ (((.s 3) ⊠ (.s 2)) ⊠ (.c 0))) ⊠ (.c 5))⟩,
    ⟨4, 4, (((((((((.neg (.c 3)) ⊠ (.c 2)) ⊠ (.s 0)) ⊠ (.s 1)) ⊟ (((.s 3) ⊠ (.s 0)) ⊠ (.c 1))) ⊟ (((.c 3) ⊠ (.s 2)) ⊠ (.c 0))) ⊠ (.c 5)) ⊠ (.s 4)) ⊞ (((((.c 2) ⊠ (.c 0)) ⊟ (((.s 2) ⊠ (.s 0)) ⊠ (.s 1))) ⊠ (.c 5)) ⊠ (.c 4))) ⊞ (((((((.s 3) ⊠ (.c 2)) ⊠ (.s 0)) ⊠ (.s 1)) ⊟ (((.c 3) ⊠ (.s 0)) ⊠ (.c 1))) ⊞ (((.s 3) ⊠ (.s 2)) ⊠ (.c 0))) ⊠ (.s 5))⟩,
    ⟨4, 5, ((((((.k 1 0) ⊠ (.s 2)) ⊠ (.s 0)) ⊠ (.s 1)) ⊟ ((.c 2) ⊠ (.c 0))) ⊠ (.s 4)) ⊞ (((((((.neg (.c 3)) ⊠ (.c 2)) ⊠ (.s 0)) ⊠ (.s 1)) ⊟ (((.s 3) ⊠ (.s 0)) ⊠ (.c 1))) ⊟ (((.c 3) ⊠ (.s 2)) ⊠ (.c 0))) ⊠ (.c 4))⟩,
    ⟨5, 3, (((((((.c 3) ⊠ (.c 2)) ⊠ (.c 1)) ⊟ ((.s 3) ⊠ (.s 1))) ⊠ (.s 5)) ⊠ (.s 4)) ⊞ ((((.s 2) ⊠ (.c 1)) ⊠ (.s 5)) ⊠ (.c 4))) ⊞ ((((.c 3) ⊠ (.s 1)) ⊞ (((.s 3) ⊠ (.c 2)) ⊠ (.c 1))) ⊠ (.c 5))⟩,
    ⟨5, 4, (((((((.c 3) ⊠ (.c 2)) ⊠ (.c 1)) ⊟ ((.s 3) ⊠ (.s 1))) ⊠ (.c 5)) ⊠ (.s 4)) ⊞ ((((.s 2) ⊠ (.c 1)) ⊠ (.c 5)) ⊠ (.c 4))) ⊞ ((((.neg (.c 3)) ⊠ (.s 1)) ⊟ (((.s 3) ⊠ (.c 2)) ⊠ (.c 1))) ⊠ (.s 5))⟩,
    ⟨5, 5, ((((((.k 1 0) ⊠ (.c 3)) ⊠ (.c 2)) ⊠ (.c 1)) ⊟ ((.s 3) ⊠ (.s 1))) ⊠ (.c 4)) ⊟ (((.s 2) ⊠ (.c 1)) ⊠ (.s 4))⟩]

/-- The transforms `fr_HyABase_X_fr_Wrist_FE`. -/
def fr_HyABase_X_fr_Wrist_FE : Trans := ⟨fr_HyABase, fr_Wrist_FE, hom_fr_HyABase_X_fr_Wrist_FE, motion_fr_HyABase_X_fr_Wrist_FE, force_fr_HyABase_X_fr_Wrist_FE⟩

/-- `HomogeneousTransforms::Type_fr_HyABase_X_fr_ee` (transforms.impl.h:6125-6131, 6133-6173). -/
def hom_fr_HyABase_X_fr_ee : Gen where
  rows := 4
  cols := 4
  ctor := [⟨3, 0, .k 0 0⟩,
    ⟨3, 1, .k 0 0⟩,
    ⟨3, 2, .k 0 0⟩,
    ⟨3, 3, .k 1 0⟩]
  upd := [⟨0, 0, (((((((((.neg (.c 3)) ⊠ (.c 2)) ⊠ (.c 0)) ⊠ (.s 1)) ⊟ (((.s 3) ⊠ (.c 0)) ⊠ (.c 1))) ⊞ (((.c 3) ⊠ (.s 2)) ⊠ (.s 0))) ⊠ (.s 5)) ⊠ (.s 4)) ⊞ ((((((.neg (.s 2)) ⊠ (.c 0)) ⊠ (.s 1)) ⊟ ((.c 2) ⊠ (.s 0))) ⊠ (.s 5)) ⊠ (.c 4))) ⊞ (((((((.neg (.s 3)) ⊠ (.c 2)) ⊠ (.c 0)) ⊠ (.s 1)) ⊞ (((.c 3) ⊠ (.c 0)) ⊠ (.c 1))) ⊞ (((.s 3) ⊠ (.s 2)) ⊠ (.s 0))) ⊠ (.c 5))⟩,
    ⟨0, 1, (((((((((.neg (.c 3)) ⊠ (.c 2)) ⊠ (.c 0)) ⊠ (.s 1)) ⊟ (((.s 3) ⊠ (.c 0)) ⊠ (.c 1))) ⊞ (((.c 3) ⊠ (.s 2)) ⊠ (.s 0))) ⊠ (.c 5)) ⊠ (.s 4)) ⊞ ((((((.neg (.s 2)) ⊠ (.c 0)) ⊠ (.s 1)) ⊟ ((.c 2) ⊠ (.s 0))) ⊠ (.c 5)) ⊠ (.c 4))) ⊞ (((((((.s 3) ⊠ (.c 2)) ⊠ (.c 0)) ⊠ (.s 1)) ⊟ (((.c 3) ⊠ (.c 0)) ⊠ (.c 1))) ⊟ (((.s 3) ⊠ (.s 2)) ⊠ (.s 0))) ⊠ (.s 5))⟩,
    ⟨0, 2, ((((((.k 1 0) ⊠ (.s 2)) ⊠ (.c 0)) ⊠ (.s 1)) ⊞ ((.c 2) ⊠ (.s 0))) ⊠ (.s 4)) ⊞ (((((((.neg (.c 3)) ⊠ (.c 2)) ⊠ (.c 0)) ⊠ (.s 1)) ⊟ (((.s 3) ⊠ (.c 0)) ⊠ (.c 1))) ⊞ (((.c 3) ⊠ (.s 2)) ⊠ (.s 0))) ⊠ (.c 4))⟩,
    ⟨0, 3, ((((((((((((((((.neg (.k 3 2)) ⊠ (.c 3)) ⊠ (.c 2)) ⊠ (.c 0)) ⊠ (.s 1)) ⊟ ((((.k 3 2) ⊠ (.s 3)) ⊠ (.c 0)) ⊠ (.c 1))) ⊞ ((((.k 3 2) ⊠ (.c 3)) ⊠ (.s 2)) ⊠ (.s 0))) ⊠ (.s 5)) ⊟ (((((.k 2075 5) ⊠ (.c 3)) ⊠ (.c 2)) ⊠ (.c 0)) ⊠ (.s 1))) ⊟ ((((.k 2075 5) ⊠ (.s 3)) ⊠ (.c 0)) ⊠ (.c 1))) ⊞ ((((.k 2075 5) ⊠ (.c 3)) ⊠ (.s 2)) ⊠ (.s 0))) ⊠ (.s 4)) ⊞ (((((((((.neg (.k 3 2)) ⊠ (.s 2)) ⊠ (.c 0)) ⊠ (.s 1)) ⊟ (((.k 3 2) ⊠ (.c 2)) ⊠ (.s 0))) ⊠ (.s 5)) ⊟ ((((.k 2075 5) ⊠ (.s 2)) ⊠ (.c 0)) ⊠ (.s 1))) ⊟ (((.k 2075 5) ⊠ (.c 2)) ⊠ (.s 0))) ⊠ (.c 4))) ⊞ ((((((((.neg (.k 3 2)) ⊠ (.s 3)) ⊠ (.c 2)) ⊠ (.c 0)) ⊠ (.s 1)) ⊞ ((((.k 3 2) ⊠ (.c 3)) ⊠ (.c 0)) ⊠ (.c 1))) ⊞ ((((.k 3 2) ⊠ (.s 3)) ⊠ (.s 2)) ⊠ (.s 0))) ⊠ (.c 5))) ⊟ (((((.k 296 3) ⊠ (.s 3)) ⊠ (.c 2)) ⊠ (.c 0)) ⊠ (.s 1))) ⊞ (((((.k 296 3) ⊠ (.c 3)) ⊞ (.k 416 3)) ⊠ (.c 0)) ⊠ (.c 1))) ⊞ ((((.k 296 3) ⊠ (.s 3)) ⊠ (.s 2)) ⊠ (.s 0))⟩,
    ⟨1, 0, (((((((((.neg (.c 3)) ⊠ (.c 2)) ⊠ (.s 0)) ⊠ (.s 1)) ⊟ (((.s 3) ⊠ (.s 0)) ⊠ (.c 1))) ⊟ (((.c 3) ⊠ (.s 2)) ⊠ (.c 0))) ⊠ (.s 5)) ⊠ (.s 4)) ⊞ (((((.c 2) ⊠ (.c 0)) ⊟ (((.s 2) ⊠ (.s 0)) ⊠ (.s 1))) ⊠ (.s 5)) ⊠ (.c 4))) ⊞ (((((((.neg (.s 3)) ⊠ (.c 2)) ⊠ (.s 0)) ⊠ (.s 1)) ⊞ (((.c 3) ⊠ (.s 0)) ⊠ (.c 1))) ⊟ (((.s 3) ⊠ (.s 2)) ⊠ (.c 0))) ⊠ (.c 5))⟩,
    ⟨1, 1, (((((((((.neg (.c 3)) ⊠ (.c 2)) ⊠ (.s 0)) ⊠ (.s 1)) ⊟ (((.s 3) ⊠ (.s 0)) ⊠ (.c 1))) ⊟ (((.c 3) ⊠ (.s 2)) ⊠ (.c 0))) ⊠ (.c 5)) ⊠ (.s 4)) ⊞ (((((.c 2) ⊠ (.c 0)) ⊟ (((.s 2) ⊠ (.s 0)) ⊠ (.s 1))) ⊠ (.c 5)) ⊠ (.c 4))) ⊞ (((((((.s 3) ⊠ (.c 2)) ⊠ (.s 0)) ⊠ (.s 1)) ⊟ (((.c 3) ⊠ (.s 0)) ⊠ (.c 1))) ⊞ (((.s 3) ⊠ (.s 2)) ⊠ (.c 0))) ⊠ (.s 5))⟩,
    ⟨1, 2, ((((((.k 1 0) ⊠ (.s 2)) ⊠ (.s 0)) ⊠ (.s 1)) ⊟ ((.c 2) ⊠ (.c 0))) ⊠ (.s 4)) ⊞ (((((((.neg (.c 3)) ⊠ (.c 2)) ⊠ (.s 0)) ⊠ (.s 1)) ⊟ (((.s 3) ⊠ (.s 0)) ⊠ (.c 1))) ⊟ (((.c 3) ⊠ (.s 2)) ⊠ (.c 0))) ⊠ (.c 4))⟩,
    ⟨1, 3, ((((((((((((((((.neg (.k 3 2)) ⊠ (.c 3)) ⊠ (.c 2)) ⊠ (.s 0)) ⊠ (.s 1)) ⊟ ((((.k 3 2) ⊠ (.s 3)) ⊠ (.s 0)) ⊠ (.c 1))) ⊟ ((((.k 3 2) ⊠ (.c 3)) ⊠ (.s 2)) ⊠ (.c 0))) ⊠ (.s 5)) ⊟ (((((.k 2075 5) ⊠ (.c 3)) ⊠ (.c 2)) ⊠ (.s 0)) ⊠ (.s 1))) ⊟ ((((.k 2075 5) ⊠ (.s 3)) ⊠ (.s 0)) ⊠ (.c 1))) ⊟ ((((.k 2075 5) ⊠ (.c 3)) ⊠ (.s 2)) ⊠ (.c 0))) ⊠ (.s 4)) ⊞ ((((((((.k 3 2) ⊠ (.c 2)) ⊠ (.c 0)) ⊟ ((((.k 3 2) ⊠ (.s 2)) ⊠ (.s 0)) ⊠ (.s 1))) ⊠ (.s 5)) ⊟ ((((.k 2075 5) ⊠ (.s 2)) ⊠ (.s 0)) ⊠ (.s 1))) ⊞ (((.k 2075 5) ⊠ (.c 2)) ⊠ (.c 0))) ⊠ (.c 4))) ⊞ ((((((((.neg (.k 3 2)) ⊠ (.s 3)) ⊠ (.c 2)) ⊠ (.s 0)) ⊠ (.s 1)) ⊞ ((((.k 3 2) ⊠ (.c 3)) ⊠ (.s 0)) ⊠ (.c 1))) ⊟ ((((.k 3 2) ⊠ (.s 3)) ⊠ (.s 2)) ⊠ (.c 0))) ⊠ (.c 5))) ⊟ (((((.k 296 3) ⊠ (.s 3)) ⊠ (.c 2)) ⊠ (.s 0)) ⊠ (.s 1))) ⊞ (((((.k 296 3) ⊠ (.c 3)) ⊞ (.k 416 3)) ⊠ (.s 0)) ⊠ (.c 1))) ⊟ ((((.k 296 3) ⊠ (.s 3)) ⊠ (.s 2)) ⊠ (.c 0))⟩,
    ⟨2, 0, (((((((.c 3) ⊠ (.c 2)) ⊠ (.c 1)) ⊟ ((.s 3) ⊠ (.s 1))) ⊠ (.s 5)) ⊠ (.s 4)) ⊞ ((((.s 2) ⊠ (.c 1)) ⊠ (.s 5)) ⊠ (.c 4))) ⊞ ((((.c 3) ⊠ (.s 1)) ⊞ (((.s 3) ⊠ (.c 2)) ⊠ (.c 1))) ⊠ (.c 5))⟩,
    ⟨2, 1, (((((((.c 3) ⊠ (.c 2)) ⊠ (.c 1)) ⊟ ((.s 3) ⊠ (.s 1))) ⊠ (.c 5)) ⊠ (.s 4)) ⊞ ((((.s 2) ⊠ (.c 1)) ⊠ (.c 5)) ⊠ (.c 4))) ⊞ ((((.neg (.c 3)) ⊠ (.s 1)) ⊟ (((.s 3) ⊠ (.c 2)) ⊠ (.c 1))) ⊠ (.s 5))⟩,
    ⟨2, 2, ((((((.k 1 0) ⊠ (.c 3)) ⊠ (.c 2)) ⊠ (.c 1)) ⊟ ((.s 3) ⊠ (.s 1))) ⊠ (.c 4)) ⊟ (((.s 2) ⊠ (.c 1)) ⊠ (.s 4))⟩,
    ⟨2, 3, (((((((((((((.k 3 2) ⊠ (.c 3)) ⊠ (.c 2)) ⊠ (.c 1)) ⊟ (((.k 3 2) ⊠ (.s 3)) ⊠ (.s 1))) ⊠ (.s 5)) ⊟ (((.k 2075 5) ⊠ (.s 3)) ⊠ (.s 1))) ⊞ ((((.k 2075 5) ⊠ (.c 3)) ⊠ (.c 2)) ⊠ (.c 1))) ⊠ (.s 4)) ⊞ ((((((.k 3 2) ⊠ (.s 2)) ⊠ (.c 1)) ⊠ (.s 5)) ⊞ (((.k 2075 5) ⊠ (.s 2)) ⊠ (.c 1))) ⊠ (.c 4))) ⊞ (((((.k 3 2) ⊠ (.c 3)) ⊠ (.s 1)) ⊞ ((((.k 3 2) ⊠ (.s 3)) ⊠ (.c 2)) ⊠ (.c 1))) ⊠ (.c 5))) ⊞ ((((.k 296 3) ⊠ (.c 3)) ⊞ (.k 416 3)) ⊠ (.s 1))) ⊞ ((((.k 296 3) ⊠ (.s 3)) ⊠ (.c 2)) ⊠ (.c 1))) ⊞ (.k 178 3)⟩]

/-- `MotionTransforms::Type_fr_HyABase_X_fr_ee` (transforms.impl.h:547-558, 560-615). -/
def motion_fr_HyABase_X_fr_ee : Gen where
  rows := 6
  cols := 6
  ctor := [⟨0, 3, .k 0 0⟩,
    ⟨0, 4, .k 0 0⟩,
    ⟨0, 5, .k 0 0⟩,
    ⟨1, 3, .k 0 0⟩,
    ⟨1, 4, .k 0 0⟩,
    ⟨1, 5, .k 0 0⟩,
    ⟨2, 3, .k 0 0⟩,
    ⟨2, 4, .k 0 0⟩,
    ⟨2, 5, .k 0 0⟩]
  upd := [⟨0, 0, (((((((((.neg (.c 3)) ⊠ (.c 2)) ⊠ (.c 0)) ⊠ (.s 1)) ⊟ (((.s 3) ⊠ (.c 0)) ⊠ (.c 1))) ⊞ (((.c 3) ⊠ (.s 2)) ⊠ (.s 0))) ⊠ (.s 5)) ⊠ (.s 4)) ⊞ ((((((.neg (.s 2)) ⊠ (.c 0)) ⊠ (.s 1)) ⊟ ((.c 2) ⊠ (.s 0))) ⊠ (.s 5)) ⊠ (.c 4))) ⊞ (((((((.neg (.s 3)) ⊠ (.c 2)) ⊠ (.c 0)) ⊠ (.s 1)) ⊞ (((.c 3) ⊠ (.c 0)) ⊠ (.c 1))) ⊞ (((.s 3) ⊠ (.s 2)) ⊠ (.s 0))) ⊠ (.c 5))⟩,
    ⟨0, 1, (((((((((.neg (.c 3)) ⊠ (.c 2)) ⊠ (.c 0)) ⊠ (.s 1)) ⊟ (((.s 3) ⊠ (.c 0)) ⊠ (.c 1))) ⊞ (((.c 3) ⊠ (.s 2)) ⊠ (.s 0))) ⊠ (.c 5)) ⊠ (.s 4)) ⊞ ((((((.neg (.s 2)) ⊠ (.c 0)) ⊠ (.s 1)) ⊟ ((.c 2) ⊠ (.s 0))) ⊠ (.c 5)) ⊠ (.c 4))) ⊞ (((((((.s 3) ⊠ (.c 2)) ⊠ (.c 0)) ⊠ (.s 1)) ⊟ (((.c 3) ⊠ (.c 0)) ⊠ (.c 1))) ⊟ (((.s 3) ⊠ (.s 2)) ⊠ (.s 0))) ⊠ (.s 5))⟩,
    ⟨0, 2, ((((((.k 1 0) ⊠ (.s 2)) ⊠ (.c 0)) ⊠ (.s 1)) ⊞ ((.c 2) ⊠ (.s 0))) ⊠ (.s 4)) ⊞ (((((((.neg (.c 3)) ⊠ (.c 2)) ⊠ (.c 0)) ⊠ (.s 1)) ⊟ (((.s 3) ⊠ (.c 0)) ⊠ (.c 1))) ⊞ (((.c 3) ⊠ (.s 2)) ⊠ (.s 0))) ⊠ (.c 4))⟩,
    ⟨1, 0, (((((((((.neg (.c 3)) ⊠ (.c 2)) ⊠ (.s 0)) ⊠ (.s 1)) ⊟ (((.s 3) ⊠ (.s 0)) ⊠ (.c 1))) ⊟ (((.c 3) ⊠ (.s 2)) ⊠ (.c 0))) ⊠ (.s 5)) ⊠ (.s 4)) ⊞ (((((.c 2) ⊠ (.c 0)) ⊟ (((.s 2) ⊠ (.s 0)) ⊠ (.s 1))) ⊠ (.s 5)) ⊠ (.c 4))) ⊞ (((((((.neg (.s 3)) ⊠ (.c 2)) ⊠ (.s 0)) ⊠ (.s 1)) ⊞ (((.c 3) ⊠ (.s 0)) ⊠ (.c 1))) ⊟ (((.s 3) ⊠ (.s 2)) ⊠ (.c 0))) ⊠ (.c 5))⟩,
    ⟨1, 1, (((((((((.neg (.c 3)) ⊠ (.c 2)) ⊠ (.s 0)) ⊠ (.s 1)) ⊟ (((.s 3) ⊠ (.s 0)) ⊠ (.c 1))) ⊟ (((.c 3) ⊠ (.s 2)) ⊠ (.c 0))) ⊠ (.c 5)) ⊠ (.s 4)) ⊞ (((((.c 2) ⊠ (.c 0)) ⊟ (((.s 2) ⊠ (.s 0)) ⊠ (.s 1))) ⊠ (.c 5)) ⊠ (.c 4))) ⊞ (((((((.s 3) ⊠ (.c 2)) ⊠ (.s 0)) ⊠ (.s 1)) ⊟ (((.c 3) ⊠ (.s 0)) ⊠ (.c 1))) ⊞ (((.s 3) ⊠ (.s 2)) ⊠ (.c 0))) ⊠ (.s 5))⟩,
    ⟨1, 2, ((((((.k 1 0) ⊠ (.s 2)) ⊠ (.s 0)) ⊠ (.s 1)) ⊟ ((.c 2) ⊠ (.c 0))) ⊠ (.s 4)) ⊞ (((((((.neg (.c 3)) ⊠ (.c 2)) ⊠ (.s 0)) ⊠ (.s 1)) ⊟ (((.s 3) ⊠ (.s 0)) ⊠ (.c 1))) ⊟ (((.c 3) ⊠ (.s 2)) ⊠ (.c 0))) ⊠ (.c 4))⟩,
    ⟨2, 0, (((((((.c 3) ⊠ (.c 2)) ⊠ (.c 1)) ⊟ ((.s 3) ⊠ (.s 1))) ⊠ (.s 5)) ⊠ (.s 4)) ⊞ ((((.s 2) ⊠ (.c 1)) ⊠ (.s 5)) ⊠ (.c 4))) ⊞ ((((.c 3) ⊠ (.s 1)) ⊞ (((.s 3) ⊠ (.c 2)) ⊠ (.c 1))) ⊠ (.c 5))⟩,
    ⟨2, 1, (((((((.c 3) ⊠ (.c 2)) ⊠ (.c 1)) ⊟ ((.s 3) ⊠ (.s 1))) ⊠ (.c 5)) ⊠ (.s 4)) ⊞ ((((.s 2) ⊠ (.c 1)) ⊠ (.c 5)) ⊠ (.c 4))) ⊞ ((((.neg (.c 3)) ⊠ (.s 1)) ⊟ (((.s 3) ⊠ (.c 2)) ⊠ (.c 1))) ⊠ (.s 5))⟩,
    ⟨2, 2, ((((((.k 1 0) ⊠ (.c 3)) ⊠ (.c 2)) ⊠ (.c 1)) ⊟ ((.s 3) ⊠ (.s 1))) ⊠ (.c 4)) ⊟ (((.s 2) ⊠ (.c 1)) ⊠ (.s 4))⟩,
    ⟨3, 0, (((((((((((((.k 178 3) ⊠ (.c 3)) ⊠ (.c 2)) ⊠ (.s 0)) ⊞ (((((.k 416 3) ⊠ (.c 3)) ⊞ (.k 296 3)) ⊠ (.s 2)) ⊠ (.c 0))) ⊠ (.s 1)) ⊞ ((((.k 178 3) ⊠ (.s 3)) ⊠ (.s 0)) ⊠ (.c 1))) ⊞ (((((.k 416 3) ⊠ (.c 3)) ⊞ (.k 296 3)) ⊠ (.c 2)) ⊠ (.s 0))) ⊞ ((((.k 178 3) ⊠ (.c 3)) ⊠ (.s 2)) ⊠ (.c 0))) ⊠ (.s 5)) ⊞ ((((((.neg (.k 2075 5)) ⊠ (.s 2)) ⊠ (.c 0)) ⊠ (.s 1)) ⊟ (((.k 2075 5) ⊠ (.c 2)) ⊠ (.s 0))) ⊠ (.c 5))) ⊠ (.s 4)) ⊞ (((((((((((.k 178 3) ⊠ (.s 2)) ⊠ (.s 0)) ⊞ (((((.neg (.k 296 3)) ⊠ (.c 3)) ⊟ (.k 416 3)) ⊠ (.c 2)) ⊠ (.c 0))) ⊠ (.s 1)) ⊟ ((((.k 296 3) ⊠ (.s 3)) ⊠ (.c 0)) ⊠ (.c 1))) ⊞ (((((.k 296 3) ⊠ (.c 3)) ⊞ (.k 416 3)) ⊠ (.s 2)) ⊠ (.s 0))) ⊟ (((.k 178 3) ⊠ (.c 2)) ⊠ (.c 0))) ⊠ (.s 5)) ⊞ ((((((((.k 2075 5) ⊠ (.c 3)) ⊠ (.c 2)) ⊠ (.c 0)) ⊠ (.s 1)) ⊞ ((((.k 2075 5) ⊠ (.s 3)) ⊠ (.c 0)) ⊠ (.c 1))) ⊟ ((((.k 2075 5) ⊠ (.c 3)) ⊠ (.s 2)) ⊠ (.s 0))) ⊠ (.c 5))) ⊠ (.c 4))) ⊞ ((((((((((.k 178 3) ⊠ (.s 3)) ⊠ (.c 2)) ⊠ (.s 0)) ⊞ ((((.k 416 3) ⊠ (.s 3)) ⊠ (.s 2)) ⊠ (.c 0))) ⊠ (.s 1)) ⊟ ((((.k 178 3) ⊠ (.c 3)) ⊠ (.s 0)) ⊠ (.c 1))) ⊞ ((((.k 416 3) ⊠ (.s 3)) ⊠ (.c 2)) ⊠ (.s 0))) ⊞ ((((.k 178 3) ⊠ (.s 3)) ⊠ (.s 2)) ⊠ (.c 0))) ⊠ (.c 5))⟩,
    ⟨3, 1, (((((((((((.k 2075 5) ⊠ (.s 2)) ⊠ (.c 0)) ⊠ (.s 1)) ⊞ (((.k 2075 5) ⊠ (.c 2)) ⊠ (.s 0))) ⊠ (.s 5)) ⊞ ((((((((((.k 178 3) ⊠ (.c 3)) ⊠ (.c 2)) ⊠ (.s 0)) ⊞ (((((.k 416 3) ⊠ (.c 3)) ⊞ (.k 296 3)) ⊠ (.s 2)) ⊠ (.c 0))) ⊠ (.s 1)) ⊞ ((((.k 178 3) ⊠ (.s 3)) ⊠ (.s 0)) ⊠ (.c 1))) ⊞ (((((.k 416 3) ⊠ (.c 3)) ⊞ (.k 296 3)) ⊠ (.c 2)) ⊠ (.s 0))) ⊞ ((((.k 178 3) ⊠ (.c 3)) ⊠ (.s 2)) ⊠ (.c 0))) ⊠ (.c 5))) ⊞ ((((.k 3 2) ⊠ (.s 2)) ⊠ (.c 0)) ⊠ (.s 1))) ⊞ (((.k 3 2) ⊠ (.c 2)) ⊠ (.s 0))) ⊠ (.s 4)) ⊞ (((((((((((((.neg (.k 2075 5)) ⊠ (.c 3)) ⊠ (.c 2)) ⊠ (.c 0)) ⊠ (.s 1)) ⊟ ((((.k 2075 5) ⊠ (.s 3)) ⊠ (.c 0)) ⊠ (.c 1))) ⊞ ((((.k 2075 5) ⊠ (.c 3)) ⊠ (.s 2)) ⊠ (.s 0))) ⊠ (.s 5)) ⊞ (((((((((.k 178 3) ⊠ (.s 2)) ⊠ (.s 0)) ⊞ (((((.neg (.k 296 3)) ⊠ (.c 3)) ⊟ (.k 416 3)) ⊠ (.c 2)) ⊠ (.c 0))) ⊠ (.s 1)) ⊟ ((((.k 296 3) ⊠ (.s 3)) ⊠ (.c 0)) ⊠ (.c 1))) ⊞ (((((.k 296 3) ⊠ (.c 3)) ⊞ (.k 416 3)) ⊠ (.s 2)) ⊠ (.s 0))) ⊟ (((.k 178 3) ⊠ (.c 2)) ⊠ (.c 0))) ⊠ (.c 5))) ⊟ (((((.k 3 2) ⊠ (.c 3)) ⊠ (.c 2)) ⊠ (.c 0)) ⊠ (.s 1))) ⊟ ((((.k 3 2) ⊠ (.s 3)) ⊠ (.c 0)) ⊠ (.c 1))) ⊞ ((((.k 3 2) ⊠ (.c 3)) ⊠ (.s 2)) ⊠ (.s 0))) ⊠ (.c 4))) ⊞ ((((((((((.neg (.k 178 3)) ⊠ (.s 3)) ⊠ (.c 2)) ⊠ (.s 0)) ⊟ ((((.k 416 3) ⊠ (.s 3)) ⊠ (.s 2)) ⊠ (.c 0))) ⊠ (.s 1)) ⊞ ((((.k 178 3) ⊠ (.c 3)) ⊠ (.s 0)) ⊠ (.c 1))) ⊟ ((((.k 416 3) ⊠ (.s 3)) ⊠ (.c 2)) ⊠ (.s 0))) ⊟ ((((.k 178 3) ⊠ (.s 3)) ⊠ (.s 2)) ⊠ (.c 0))) ⊠ (.s 5))⟩,
    ⟨3, 2, (((((((((((((((((.k 3 2) ⊠ (.c 3)) ⊠ (.c 2)) ⊠ (.c 0)) ⊠ (.s 1)) ⊞ ((((.k 3 2) ⊠ (.s 3)) ⊠ (.c 0)) ⊠ (.c 1))) ⊟ ((((.k 3 2) ⊠ (.c 3)) ⊠ (.s 2)) ⊠ (.s 0))) ⊠ (.c 5)) ⊞ (((((((.k 296 3) ⊠ (.c 3)) ⊞ (.k 416 3)) ⊠ (.c 2)) ⊠ (.c 0)) ⊟ (((.k 178 3) ⊠ (.s 2)) ⊠ (.s 0))) ⊠ (.s 1))) ⊞ ((((.k 296 3) ⊠ (.s 3)) ⊠ (.c 0)) ⊠ (.c 1))) ⊞ (((((.neg (.k 296 3)) ⊠ (.c 3)) ⊟ (.k 416 3)) ⊠ (.s 2)) ⊠ (.s 0))) ⊞ (((.k 178 3) ⊠ (.c 2)) ⊠ (.c 0))) ⊠ (.s 4)) ⊞ (((((((((((.k 3 2) ⊠ (.s 2)) ⊠ (.c 0)) ⊠ (.s 1)) ⊞ (((.k 3 2) ⊠ (.c 2)) ⊠ (.s 0))) ⊠ (.c 5)) ⊞ ((((((.k 178 3) ⊠ (.c 3)) ⊠ (.c 2)) ⊠ (.s 0)) ⊞ (((((.k 416 3) ⊠ (.c 3)) ⊞ (.k 296 3)) ⊠ (.s 2)) ⊠ (.c 0))) ⊠ (.s 1))) ⊞ ((((.k 178 3) ⊠ (.s 3)) ⊠ (.s 0)) ⊠ (.c 1))) ⊞ (((((.k 416 3) ⊠ (.c 3)) ⊞ (.k 296 3)) ⊠ (.c 2)) ⊠ (.s 0))) ⊞ ((((.k 178 3) ⊠ (.c 3)) ⊠ (.s 2)) ⊠ (.c 0))) ⊠ (.c 4))) ⊞ ((((((((.neg (.k 3 2)) ⊠ (.s 3)) ⊠ (.c 2)) ⊠ (.c 0)) ⊠ (.s 1)) ⊞ ((((.k 3 2) ⊠ (.c 3)) ⊠ (.c 0)) ⊠ (.c 1))) ⊞ ((((.k 3 2) ⊠ (.s 3)) ⊠ (.s 2)) ⊠ (.s 0))) ⊠ (.s 5))) ⊟ (((((.k 2075 5) ⊠ (.s 3)) ⊠ (.c 2)) ⊠ (.c 0)) ⊠ (.s 1))) ⊞ ((((.k 2075 5) ⊠ (.c 3)) ⊠ (.c 0)) ⊠ (.c 1))) ⊞ ((((.k 2075 5) ⊠ (.s 3)) ⊠ (.s 2)) ⊠ (.s 0))⟩,
    ⟨3, 3, (((((((((.neg (.c 3)) ⊠ (.c 2)) ⊠ (.c 0)) ⊠ (.s 1)) ⊟ (((.s 3) ⊠ (.c 0)) ⊠ (.c 1))) ⊞ (((.c 3) ⊠ (.s 2)) ⊠ (.s 0))) ⊠ (.s 5)) ⊠ (.s 4)) ⊞ ((((((.neg (.s 2)) ⊠ (.c 0)) ⊠ (.s 1)) ⊟ ((.c 2) ⊠ (.s 0))) ⊠ (.s 5)) ⊠ (.c 4))) ⊞ (((((((.neg (.s 3)) ⊠ (.c 2)) ⊠ (.c 0)) ⊠ (.s 1)) ⊞ (((.c 3) ⊠ (.c 0)) ⊠ (.c 1))) ⊞ (((.s 3) ⊠ (.s 2)) ⊠ (.s 0))) ⊠ (.c 5))⟩,
    ⟨3, 4, (((((((((.neg (.c 3)) ⊠ (.c 2)) ⊠ (.c 0)) ⊠ (.s 1)) ⊟ (((.s 3) ⊠ (.c 0)) ⊠ (.c 1))) ⊞ (((.c 3) ⊠ (.s 2)) ⊠ (.s 0))) ⊠ (.c 5)) ⊠ (.s 4)) ⊞ ((((((.neg (.s 2)) ⊠ (.c 0)) ⊠ (.s 1)) ⊟ ((.c 2) ⊠ (.s 0))) ⊠ (.c 5)) ⊠ (.c 4))) ⊞ (((((((.s 3) ⊠ (.c 2)) ⊠ (.c 0)) ⊠ (.s 1)) ⊟ (((.c 3) ⊠ (.c 0)) ⊠ (.c 1))) ⊟ (((.s 3) ⊠ (.s 2)) ⊠ (.s 0))) ⊠ (.s 5))⟩,
    ⟨3, 5, ((((((.k 1 0) ⊠ (.s 2)) ⊠ (.c 0)) ⊠ (.s 1)) ⊞ ((.c 2) ⊠ (.s 0))) ⊠ (.s 4)) ⊞ (((((((.neg (.c 3)) ⊠ (.c 2)) ⊠ (.c 0)) ⊠ (.s 1)) ⊟ (((.s 3) ⊠ (.c 0)) ⊠ (.c 1))) ⊞ (((.c 3) ⊠ (.s 2)) ⊠ (.s 0))) ⊠ (.c 4))⟩,
    ⟨4, 0, ((((((((((((((.k 416 3) ⊠ (.c 3)) ⊞ (.k 296 3)) ⊠ (.s 2)) ⊠ (.s 0)) ⊟ ((((.k 178 3) ⊠ (.c 3)) ⊠ (.c 2)) ⊠ (.c 0))) ⊠ (.s 1)) ⊟ ((((.k 178 3) ⊠ (.s 3)) ⊠ (.c 0)) ⊠ (.c 1))) ⊞ ((((.k 178 3) ⊠ (.c 3)) ⊠ (.s 2)) ⊠ (.s 0))) ⊞ (((((.neg (.k 416 3)) ⊠ (.c 3)) ⊟ (.k 296 3)) ⊠ (.c 2)) ⊠ (.c 0))) ⊠ (.s 5)) ⊞ (((((.k 2075 5) ⊠ (.c 2)) ⊠ (.c 0)) ⊟ ((((.k 2075 5) ⊠ (.s 2)) ⊠ (.s 0)) ⊠ (.s 1))) ⊠ (.c 5))) ⊠ (.s 4)) ⊞ (((((((((((((.neg (.k 296 3)) ⊠ (.c 3)) ⊟ (.k 416 3)) ⊠ (.c 2)) ⊠ (.s 0)) ⊟ (((.k 178 3) ⊠ (.s 2)) ⊠ (.c 0))) ⊠ (.s 1)) ⊟ ((((.k 296 3) ⊠ (.s 3)) ⊠ (.s 0)) ⊠ (.c 1))) ⊟ (((.k 178 3) ⊠ (.c 2)) ⊠ (.s 0))) ⊞ (((((.neg (.k 296 3)) ⊠ (.c 3)) ⊟ (.k 416 3)) ⊠ (.s 2)) ⊠ (.c 0))) ⊠ (.s 5)) ⊞ ((((((((.k 2075 5) ⊠ (.c 3)) ⊠ (.c 2)) ⊠ (.s 0)) ⊠ (.s 1)) ⊞ ((((.k 2075 5) ⊠ (.s 3)) ⊠ (.s 0)) ⊠ (.c 1))) ⊞ ((((.k 2075 5) ⊠ (.c 3)) ⊠ (.s 2)) ⊠ (.c 0))) ⊠ (.c 5))) ⊠ (.c 4))) ⊞ ((((((((((.k 416 3) ⊠ (.s 3)) ⊠ (.s 2)) ⊠ (.s 0)) ⊟ ((((.k 178 3) ⊠ (.s 3)) ⊠ (.c 2)) ⊠ (.c 0))) ⊠ (.s 1)) ⊞ ((((.k 178 3) ⊠ (.c 3)) ⊠ (.c 0)) ⊠ (.c 1))) ⊞ ((((.k 178 3) ⊠ (.s 3)) ⊠ (.s 2)) ⊠ (.s 0))) ⊟ ((((.k 416 3) ⊠ (.s 3)) ⊠ (.c 2)) ⊠ (.c 0))) ⊠ (.c 5))⟩,
    ⟨4, 1, (((((((((((.k 2075 5) ⊠ (.s 2)) ⊠ (.s 0)) ⊠ (.s 1)) ⊟ (((.k 2075 5) ⊠ (.c 2)) ⊠ (.c 0))) ⊠ (.s 5)) ⊞ (((((((((((.k 416 3) ⊠ (.c 3)) ⊞ (.k 296 3)) ⊠ (.s 2)) ⊠ (.s 0)) ⊟ ((((.k 178 3) ⊠ (.c 3)) ⊠ (.c 2)) ⊠ (.c 0))) ⊠ (.s 1)) ⊟ ((((.k 178 3) ⊠ (.s 3)) ⊠ (.c 0)) ⊠ (.c 1))) ⊞ ((((.k 178 3) ⊠ (.c 3)) ⊠ (.s 2)) ⊠ (.s 0))) ⊞ (((((.neg (.k 416 3)) ⊠ (.c 3)) ⊟ (.k 296 3)) ⊠ (.c 2)) ⊠ (.c 0))) ⊠ (.c 5))) ⊞ ((((.k 3 2) ⊠ (.s 2)) ⊠ (.s 0)) ⊠ (.s 1))) ⊟ (((.k 3 2) ⊠ (.c 2)) ⊠ (.c 0))) ⊠ (.s 4)) ⊞ (((((((((((((.neg (.k 2075 5)) ⊠ (.c 3)) ⊠ (.c 2)) ⊠ (.s 0)) ⊠ (.s 1)) ⊟ ((((.k 2075 5) ⊠ (.s 3)) ⊠ (.s 0)) ⊠ (.c 1))) ⊟ ((((.k 2075 5) ⊠ (.c 3)) ⊠ (.s 2)) ⊠ (.c 0))) ⊠ (.s 5)) ⊞ (((((((((((.neg (.k 296 3)) ⊠ (.c 3)) ⊟ (.k 416 3)) ⊠ (.c 2)) ⊠ (.s 0)) ⊟ (((.k 178 3) ⊠ (.s 2)) ⊠ (.c 0))) ⊠ (.s 1)) ⊟ ((((.k 296 3) ⊠ (.s 3)) ⊠ (.s 0)) ⊠ (.c 1))) ⊟ (((.k 178 3) ⊠ (.c 2)) ⊠ (.s 0))) ⊞ (((((.neg (.k 296 3)) ⊠ (.c 3)) ⊟ (.k 416 3)) ⊠ (.s 2)) ⊠ (.c 0))) ⊠ (.c 5))) ⊟ (((((.k 3 2) ⊠ (.c 3)) ⊠ (.c 2)) ⊠ (.s 0)) ⊠ (.s 1))) ⊟ ((((.k 3 2) ⊠ (.s 3)) ⊠ (.s 0)) ⊠ (.c 1))) ⊟ ((((.k 3 2) ⊠ (.c 3)) ⊠ (.s 2)) ⊠ (.c 0))) ⊠ (.c 4))) ⊞ ((((((((((.k 178 3) ⊠ (.s 3)) ⊠ (.c 2)) ⊠ (.c 0)) ⊟ ((((.k 416 3) ⊠ (.s 3)) ⊠ (.s 2)) ⊠ (.s 0))) ⊠ (.s 1)) ⊟ ((((.k 178 3) ⊠ (.c 3)) ⊠ (.c 0)) ⊠ (.c 1))) ⊟ ((((.k 178 3) ⊠ (.s 3)) ⊠ (.s 2)) ⊠ (.s 0))) ⊞ ((((.k 416 3) ⊠ (.s 3)) ⊠ (.c 2)) ⊠ (.c 0))) ⊠ (.s 5))⟩,
    ⟨4, 2, (((((((((((((((((.k 3 2) ⊠ (.c 3)) ⊠ (.c 2)) ⊠ (.s 0)) ⊠ (.s 1)) ⊞ ((((.k 3 2) ⊠ (.s 3)) ⊠ (.s 0)) ⊠ (.c 1))) ⊞ ((((.k 3 2) ⊠ (.c 3)) ⊠ (.s 2)) ⊠ (.c 0))) ⊠ (.c 5)) ⊞ (((((((.k 296 3) ⊠ (.c 3)) ⊞ (.k 416 3)) ⊠ (.c 2)) ⊠ (.s 0)) ⊞ (((.k 178 3) ⊠ (.s 2)) ⊠ (.c 0))) ⊠ (.s 1))) ⊞ ((((.k 296 3) ⊠ (.s 3)) ⊠ (.s 0)) ⊠ (.c 1))) ⊞ (((.k 178 3) ⊠ (.c 2)) ⊠ (.s 0))) ⊞ (((((.k 296 3) ⊠ (.c 3)) ⊞ (.k 416 3)) ⊠ (.s 2)) ⊠ (.c 0))) ⊠ (.s 4)) ⊞ (((((((((((.k 3 2) ⊠ (.s 2)) ⊠ (.s 0)) ⊠ (.s 1)) ⊟ (((.k 3 2) ⊠ (.c 2)) ⊠ (.c 0))) ⊠ (.c 5)) ⊞ (((((((.k 416 3) ⊠ (.c 3)) ⊞ (.k 296 3)) ⊠ (.s 2)) ⊠ (.s 0)) ⊟ ((((.k 178 3) ⊠ (.c 3)) ⊠ (.c 2)) ⊠ (.c 0))) ⊠ (.s 1))) ⊟ ((((.k 178 3) ⊠ (.s 3)) ⊠ (.c 0)) ⊠ (.c 1))) ⊞ ((((.k 178 3) ⊠ (.c 3)) ⊠ (.s 2)) ⊠ (.s 0))) ⊞ (((((.neg (.k 416 3)) ⊠ (.c 3)) ⊟ (.k 296 3)) ⊠ (.c 2)) ⊠ (.c 0))) ⊠ (.c 4))) ⊞ ((((((((.neg (.k 3 2)) ⊠ (.s 3)) ⊠ (.c 2)) ⊠ (.s 0)) ⊠ (.s 1)) ⊞ ((((.k 3 2) ⊠ (.c 3)) ⊠ (.s 0)) ⊠ (.c 1))) ⊟ ((((.k 3 2) ⊠ (.s 3)) ⊠ (.s 2)) ⊠ (.c 0))) ⊠ (.s 5))) ⊟ (((((.k 2075 5) ⊠ (.s 3)) ⊠ (.c 2)) ⊠ (.s 0)) ⊠ (.s 1))) ⊞ ((((.k 2075 5) ⊠ (.c 3)) ⊠ (.s 0)) ⊠ (.c 1))) ⊟ ((((.k 2075 5) ⊠ (.s 3)) ⊠ (.s 2)) ⊠ (.c 0))⟩,
    ⟨4, 3, (((((((((.neg (.c 3)) ⊠ (.c 2)) ⊠ (.s 0)) ⊠ (.s 1)) ⊟ (((.s 3) ⊠ (.s 0)) ⊠ (.c 1))) ⊟ (((.c 3) ⊠ (.s 2)) ⊠ (.c 0))) ⊠ (.s 5)) ⊠ (.s 4)) ⊞ (((((.c 2) ⊠ (.c 0)) ⊟ (((.s 2) ⊠ (.s 0)) ⊠ (.s 1))) ⊠ (.s 5)) ⊠ (.c 4))) ⊞ (((((((.neg (.s 3)) ⊠ (.c 2)) ⊠ (.s 0)) ⊠ (.s 1)) ⊞ (((.c 3) ⊠ (.s 0)) ⊠ (.c 1))) ⊟ (((.s 3) ⊠ (.s 2)) ⊠ (.c 0))) ⊠ (.c 5))⟩,
    ⟨4, 4, (((((((((.neg (.c 3)) ⊠ (.c 2)) ⊠ (.s 0)) ⊠ (.s 1)) ⊟ (((.s 3) ⊠ (.s 0)) ⊠ (.c 1))) ⊟ (((.c 3) ⊠ (.s 2)) ⊠ (.c 0))) ⊠ (.c 5)) ⊠ (.s 4)) ⊞ (((((.c 2) ⊠ (.c 0)) ⊟ (((.s 2) ⊠ (.s 0)) ⊠ (.s 1))) ⊠ (.c 5)) ⊠ (.c 4))) ⊞ (((((((.s 3) ⊠ (.c 2)) ⊠ (.s 0)) ⊠ (.s 1)) ⊟ (((.c 3) ⊠ (.s 0)) ⊠ (.c 1))) ⊞ (((.s 3) ⊠ (.s 2)) ⊠ (.c 0))) ⊠ (.s 5))⟩,
    ⟨4, 5, ((((((.k 1 0) ⊠ (.s 2)) ⊠ (.s 0)) ⊠ (.s 1)) ⊟ ((.c 2) ⊠ (.c 0))) ⊠ (.s 4)) ⊞ (((((((.neg (.c 3)) ⊠ (.c 2)) ⊠ (.s 0)) ⊠ (.s 1)) ⊟ (((.s 3) ⊠ (.s 0)) ⊠ (.c 1))) ⊟ (((.c 3) ⊠ (.s 2)) ⊠ (.c 0))) ⊠ (.c 4))⟩,
    ⟨5, 0, (((((((((.neg (.k 416 3)) ⊠ (.c 3)) ⊟ (.k 296 3)) ⊠ (.s 2)) ⊠ (.c 1)) ⊠ (.s 5)) ⊞ ((((.k 2075 5) ⊠ (.s 2)) ⊠ (.c 1)) ⊠ (.c 5))) ⊠ (.s 4)) ⊞ (((((((((.k 296 3) ⊠ (.c 3)) ⊞ (.k 416 3)) ⊠ (.c 2)) ⊠ (.c 1)) ⊟ (((.k 296 3) ⊠ (.s 3)) ⊠ (.s 1))) ⊠ (.s 5)) ⊞ (((((.k 2075 5) ⊠ (.s 3)) ⊠ (.s 1)) ⊟ ((((.k 2075 5) ⊠ (.c 3)) ⊠ (.c 2)) ⊠ (.c 1))) ⊠ (.c 5))) ⊠ (.c 4))) ⊟ (((((.k 416 3) ⊠ (.s 3)) ⊠ (.s 2)) ⊠ (.c 1)) ⊠ (.c 5))⟩,
    ⟨5, 1, ((((((((.neg (.k 2075 5)) ⊠ (.s 2)) ⊠ (.c 1)) ⊠ (.s 5)) ⊞ ((((((.neg (.k 416 3)) ⊠ (.c 3)) ⊟ (.k 296 3)) ⊠ (.s 2)) ⊠ (.c 1)) ⊠ (.c 5))) ⊟ (((.k 3 2) ⊠ (.s 2)) ⊠ (.c 1))) ⊠ (.s 4)) ⊞ ((((((((((.k 2075 5) ⊠ (.c 3)) ⊠ (.c 2)) ⊠ (.c 1)) ⊟ (((.k 2075 5) ⊠ (.s 3)) ⊠ (.s 1))) ⊠ (.s 5)) ⊞ (((((((.k 296 3) ⊠ (.c 3)) ⊞ (.k 416 3)) ⊠ (.c 2)) ⊠ (.c 1)) ⊟ (((.k 296 3) ⊠ (.s 3)) ⊠ (.s 1))) ⊠ (.c 5))) ⊟ (((.k 3 2) ⊠ (.s 3)) ⊠ (.s 1))) ⊞ ((((.k 3 2) ⊠ (.c 3)) ⊠ (.c 2)) ⊠ (.c 1))) ⊠ (.c 4))) ⊞ (((((.k 416 3) ⊠ (.s 3)) ⊠ (.s 2)) ⊠ (.c 1)) ⊠ (.s 5))⟩,
    ⟨5, 2, (((((((((((.k 3 2) ⊠ (.s 3)) ⊠ (.s 1)) ⊟ ((((.k 3 2) ⊠ (.c 3)) ⊠ (.c 2)) ⊠ (.c 1))) ⊠ (.c 5)) ⊞ (((.k 296 3) ⊠ (.s 3)) ⊠ (.s 1))) ⊞ (((((.neg (.k 296 3)) ⊠ (.c 3)) ⊟ (.k 416 3)) ⊠ (.c 2)) ⊠ (.c 1))) ⊠ (.s 4)) ⊞ (((((((.neg (.k 416 3)) ⊠ (.c 3)) ⊟ (.k 296 3)) ⊠ (.s 2)) ⊠ (.c 1)) ⊟ ((((.k 3 2) ⊠ (.s 2)) ⊠ (.c 1)) ⊠ (.c 5))) ⊠ (.c 4))) ⊞ (((((.k 3 2) ⊠ (.c 3)) ⊠ (.s 1)) ⊞ ((((.k 3 2) ⊠ (.s 3)) ⊠ (.c 2)) ⊠ (.c 1))) ⊠ (.s 5))) ⊞ (((.k 2075 5) ⊠ (.c 3)) ⊠ (.s 1))) ⊞ ((((.k 2075 5) ⊠ (.s 3)) ⊠ (.c 2)) ⊠ (.c 1))⟩,
    ⟨5, 3, (((((((.c 3) ⊠ (.c 2)) ⊠ (.c 1)) ⊟ ((.s 3) ⊠ (.s 1))) ⊠ (.s 5)) ⊠ (.s 4)) ⊞ ((((.s 2) ⊠ (.c 1)) ⊠ (.s 5)) ⊠ (.c 4))) ⊞ ((((.c 3) ⊠ (.s 1)) ⊞ (((.s 3) ⊠ (.c 2)) ⊠ (.c 1))) ⊠ (.c 5))⟩,
    ⟨5, 4, (((((((.c 3) ⊠ (.c 2)) ⊠ (.c 1)) ⊟ ((.s 3) ⊠ (.s 1))) ⊠ (.c 5)) ⊠ (.s 4)) ⊞ ((((.s 2) ⊠ (.c 1)) ⊠ (.c 5)) ⊠ (.c 4))) ⊞ ((((.neg (.c 3)) ⊠ (.s 1)) ⊟ (((.s 3) ⊠ (.c 2)) ⊠ (.c 1))) ⊠ (.s 5))⟩,
    ⟨5, 5, ((((((.k 1 0) ⊠ (.c 3)) ⊠ (.c 2)) ⊠ (.c 1)) ⊟ ((.s 3) ⊠ (.s 1))) ⊠ (.c 4)) ⊟ (((.s 2) ⊠ (.c 1)) ⊠ (.s 4))⟩]

/-- `ForceTransforms::Type_fr_HyABase_X_fr_ee` (transforms.impl.h:3396-3407, 3409-3464). -/
def force_fr_HyABase_X_fr_ee : Gen where
  rows := 6
  cols := 6
  ctor := [⟨3, 0, .k 0 0⟩,
    ⟨3, 1, .k 0 0⟩,
    ⟨3, 2, .k 0 0⟩,
    ⟨4, 0, .k 0 0⟩,
    ⟨4, 1, .k 0 0⟩,
    ⟨4, 2, .k 0 0⟩,
    ⟨5, 0, .k 0 0⟩,
    ⟨5, 1, .k 0 0⟩,
    ⟨5, 2, .k 0 0⟩]
  upd := [⟨0, 0, (((((((((.neg (.c 3)) ⊠ (.c 2)) ⊠ (.c 0)) ⊠ (.s 1)) ⊟ (((.s 3) ⊠ (.c 0)) ⊠ (.c 1))) ⊞ (((.c 3) ⊠ (.s 2)) ⊠ (.s 0))) ⊠ (.s 5)) ⊠ (.s 4)) ⊞ ((((((.neg (.s 2)) ⊠ (.c 0)) ⊠ (.s 1)) ⊟ ((.c 2) ⊠ (.s 0))) ⊠ (.s 5)) ⊠ (.c 4))) ⊞ (((((((.neg (.s 3)) ⊠ (.c 2)) ⊠ (.c 0)) ⊠ (.s 1)) ⊞ (((.c 3) ⊠ (.c 0)) ⊠ (.c 1))) ⊞ (((.s 3) ⊠ (.s 2)) ⊠ (.s 0))) ⊠ (.c 5))⟩,
    ⟨0, 1, (((((((((.neg (.c 3)) ⊠ (.c 2)) ⊠ (.c 0)) ⊠ (.s 1)) ⊟ (((.s 3) ⊠ (.c 0)) ⊠ (.c 1))) ⊞ (((.c 3) ⊠ (.s 2)) ⊠ (.s 0))) ⊠ (.c 5)) ⊠ (.s 4)) ⊞ ((((((.neg (.s 2)) ⊠ (.c 0)) ⊠ (.s 1)) ⊟ ((.c 2) ⊠ (.s 0))) ⊠ (.c 5)) ⊠ (.c 4))) ⊞ (((((((.s 3) ⊠ (.c 2)) ⊠ (.c 0)) ⊠ (.s 1)) ⊟ (((.c 3) ⊠ (.c 0)) ⊠ (.c 1))) ⊟ (((.s 3) ⊠ (.s 2)) ⊠ (.s 0))) ⊠ (.s 5))⟩,
    ⟨0, 2, ((((((.k 1 0) ⊠ (.s 2)) ⊠ (.c 0)) ⊠ (.s 1)) ⊞ ((.c 2) ⊠ (.s 0))) ⊠ (.s 4)) ⊞ (((((((.neg (.c 3)) ⊠ (.c 2)) ⊠ (.c 0)) ⊠ (.s 1)) ⊟ (((.s 3) ⊠ (.c 0)) ⊠ (.c 1))) ⊞ (((.c 3) ⊠ (.s 2)) ⊠ (.s 0))) ⊠ (.c 4))⟩,
    ⟨0, 3, (((((((((((((.k 178 3) ⊠ (.c 3)) ⊠ (.c 2)) ⊠ (.s 0)) ⊞ (((((.k 416 3) ⊠ (.c 3)) ⊞ (.k 296 3)) ⊠ (.s 2)) ⊠ (.c 0))) ⊠ (.s 1)) ⊞ ((((.k 178 3) ⊠ (.s 3)) ⊠ (.s 0)) ⊠ (.c 1))) ⊞ (((((.k 416 3) ⊠ (.c 3)) ⊞ (.k 296 3)) ⊠ (.c 2)) ⊠ (.s 0))) ⊞ ((((.k 178 3) ⊠ (.c 3)) ⊠ (.s 2)) ⊠ (.c 0))) ⊠ (.s 5)) ⊞ ((((((.neg (.k 2075 5)) ⊠ (.s 2)) ⊠ (.c 0)) ⊠ (.s 1)) ⊟ (((.k 2075 5) ⊠ (.c 2)) ⊠ (.s 0))) ⊠ (.c 5))) ⊠ (.s 4)) ⊞ (((((((((((.k 178 3) ⊠ (.s 2)) ⊠ (.s 0)) ⊞ (((((.neg (.k 296 3)) ⊠ (.c 3)) ⊟ (.k 416 3)) ⊠ (.c 2)) ⊠ (.c 0))) ⊠ (.s 1)) ⊟ ((((.k 296 3) ⊠ (.s 3)) ⊠ (.c 0)) ⊠ (.c 1))) ⊞ (((((.k 296 3) ⊠ (.c 3)) ⊞ (.k 416 3)) ⊠ (.s 2)) ⊠ (.s 0))) ⊟ (((.k 178 3) ⊠ (.c 2)) ⊠ (.c 0))) ⊠ (.s 5)) ⊞ ((((((((.k 2075 5) ⊠ (.c 3)) ⊠ (.c 2)) ⊠ (.c 0)) ⊠ (.s 1)) ⊞ ((((.k 2075 5) ⊠ (.s 3)) ⊠ (.c 0)) ⊠ (.c 1))) ⊟ ((((.k 2075 5) ⊠ (.c 3)) ⊠ (.s 2)) ⊠ (.s 0))) ⊠ (.c 5))) ⊠ (.c 4))) ⊞ ((((((((((.k 178 3) ⊠ (.s 3)) ⊠ (.c 2)) ⊠ (.s 0)) ⊞ ((((.k 416 3) ⊠ (.s 3)) ⊠ (.s 2)) ⊠ (.c 0))) ⊠ (.s 1)) ⊟ ((((.k 178 3) ⊠ (.c 3)) ⊠ (.s 0)) ⊠ (.c 1))) ⊞ ((((.k 416 3) ⊠ (.s 3)) ⊠ (.c 2)) ⊠ (.s 0))) ⊞ ((((.k 178 3) ⊠ (.s 3)) ⊠ (.s 2)) ⊠ (.c 0))) ⊠ (.c 5))⟩,
    ⟨0, 4, (((((((((((.k 2075 5) ⊠ (.s 2)) ⊠ (.c 0)) ⊠ (.s 1)) ⊞ (((.k 2075 5) ⊠ (.c 2)) ⊠ (.s 0))) ⊠ (.s 5)) ⊞ ((((((((((.k 178 3) ⊠ (.c 3)) ⊠ (.c 2)) ⊠ (.s 0)) ⊞ (((((.k 416 3) ⊠ (.c 3)) ⊞ (.k 296 3)) ⊠ (.s 2)) ⊠ (.c 0))) ⊠ (.s 1)) ⊞ ((((.k 178 3) ⊠ (.s 3)) ⊠ (.s 0)) ⊠ (.c 1))) ⊞ (((((.k 416 3) ⊠ (.c 3)) ⊞ (.k 296 3)) ⊠ (.c 2)) ⊠ (.s 0))) ⊞ ((((.k 178 3) ⊠ (.c 3)) ⊠ (.s 2)) ⊠ (.c 0))) ⊠ (.c 5))) ⊞ ((((.k 3 2) ⊠ (.s 2)) ⊠ (.c 0)) ⊠ (.s 1))) ⊞ (((.k 3 2) ⊠ (.c 2)) ⊠ (.s 0))) ⊠ (.s 4)) ⊞ (((((((((((((.neg (.k 2075 5)) ⊠ (.c 3)) ⊠ (.c 2)) ⊠ (.c 0)) ⊠ (.s 1)) ⊟ ((((.k 2075 5) ⊠ (.s 3)) ⊠ (.c 0)) ⊠ (.c 1))) ⊞ ((((.k 2075 5) ⊠ (.c 3)) ⊠ (.s 2)) ⊠ (.s 0))) ⊠ (.s 5)) ⊞ (((((((((.k 178 3) ⊠ (.s 2)) ⊠ (.s 0)) ⊞ (((((.neg (.k 296 3)) ⊠ (.c 3)) ⊟ (.k 416 3)) ⊠ (.c 2)) ⊠ (.c 0))) ⊠ (.s 1)) ⊟ ((((.k 296 3) ⊠ (.s 3)) ⊠ (.c 0)) ⊠ (.c 1))) ⊞ (((((.k 296 3) ⊠ (.c 3)) ⊞ (.k 416 3)) ⊠ (.s 2)) ⊠ (.s 0))) ⊟ (((.k 178 3) ⊠ (.c 2)) ⊠ (.c 0))) ⊠ (.c 5))) ⊟ (((((.k 3 2) ⊠ (.c 3)) ⊠ (.c 2)) ⊠ (.c 0)) ⊠ (.s 1))) ⊟ ((((.k 3 2) ⊠ (.s 3)) ⊠ (.c 0)) ⊠ (.c 1))) ⊞ ((((.k 3 2) ⊠ (.c 3)) ⊠ (.s 2)) ⊠ (.s 0))) ⊠ (.c 4))) ⊞ ((((((((((.neg (.k 178 3)) ⊠ (.s 3)) ⊠ (.c 2)) ⊠ (.s 0)) ⊟ ((((.k 416 3) ⊠ (.s 3)) ⊠ (.s 2)) ⊠ (.c 0))) ⊠ (.s 1)) ⊞ ((((.k 178 3) ⊠ (.c 3)) ⊠ (.s 0)) ⊠ (.c 1))) ⊟ ((((.k 416 3) ⊠ (.s 3)) ⊠ (.c 2)) ⊠ (.s 0))) ⊟ ((((.k 178 3) ⊠ (.s 3)) ⊠ (.s 2)) ⊠ (.c 0))) ⊠ (.s 5))⟩,
    ⟨0, 5, (((((((((((((((((.k 3 2) ⊠ (.c 3)) ⊠ (.c 2)) ⊠ (.c 0)) ⊠ (.s 1)) ⊞ ((((.k 3 2) ⊠ (.s 3)) ⊠ (.c 0)) ⊠ (.c 1))) ⊟ ((((.k 3 2) ⊠ (.c 3)) ⊠ (.s 2)) ⊠ (.s 0))) ⊠ (.c 5)) ⊞ (((((((.k 296 3) ⊠ (.c 3)) ⊞ (.k 416 3)) ⊠ (.c 2)) ⊠ (.c 0)) ⊟ (((.k 178 3) ⊠ (.s 2)) ⊠ (.s 0))) ⊠ (.s 1))) ⊞ ((((.k 296 3) ⊠ (.s 3)) ⊠ (.c 0)) ⊠ (.c 1))) ⊞ (((((.neg (.k 296 3)) ⊠ (.c 3)) ⊟ (.k 416 3)) ⊠ (.s 2)) ⊠ (.s 0))) ⊞ (((.k 178 3) ⊠ (.c 2)) ⊠ (.c 0))) ⊠ (.s 4)) ⊞ (((((((((((.k 3 2) ⊠ (.s 2)) ⊠ (.c 0)) ⊠ (.s 1)) ⊞ (((.k 3 2) ⊠ (.c 2)) ⊠ (.s 0))) ⊠ (.c 5)) ⊞ ((((((.k 178 3) ⊠ (.c 3)) ⊠ (.c 2)) ⊠ (.s 0)) ⊞ (((((.k 416 3) ⊠ (.c 3)) ⊞ (.k 296 3)) ⊠ (.s 2)) ⊠ (.c 0))) ⊠ (.s 1))) ⊞ ((((.k 178 3) ⊠ (.s 3)) ⊠ (.s 0)) ⊠ (.c 1))) ⊞ (((((.k 416 3) ⊠ (.c 3)) ⊞ (.k 296 3)) ⊠ (.c 2)) ⊠ (.s 0))) ⊞ ((((.k 178 3) ⊠ (.c 3)) ⊠ (.s 2)) ⊠ (.c 0))) ⊠ (.c 4))) ⊞ ((((((((.neg (.k 3 2)) ⊠ (.s 3)) ⊠ (.c 2)) ⊠ (.c 0)) ⊠ (.s 1)) ⊞ ((((.k 3 2) ⊠ (.c 3)) ⊠ (.c 0)) ⊠ (.c 1))) ⊞ ((((.k 3 2) ⊠ (.s 3)) ⊠ (.s 2)) ⊠ (.s 0))) ⊠ (.s 5))) ⊟ (((((.k 2075 5) ⊠ (.s 3)) ⊠ (.c 2)) ⊠ (.c 0)) ⊠ (.s 1))) ⊞ ((((.k 2075 5) ⊠ (.c 3)) ⊠ (.c 0)) ⊠ (.c 1))) ⊞ ((((.k 2075 5) ⊠ (.s 3)) ⊠ (.s 2)) ⊠ (.s 0))⟩,
    ⟨1, 0, (((((((((.neg (.c 3)) ⊠ (.c 2)) ⊠ (.s 0)) ⊠ (.s 1)) ⊟ (((.s 3) ⊠ (.s 0)) ⊠ (.c 1))) ⊟ (((.c 3) ⊠ (.s 2)) ⊠ (.c 0))) ⊠ (.s 5)) ⊠ (.s 4)) ⊞ (((((.c 2) ⊠ (.c 0)) ⊟ (((.s 2) ⊠ (.s 0)) ⊠ (.s 1))) ⊠ (.s 5)) ⊠ (.c 4))) ⊞ (((((((.neg (.s 3)) ⊠ (.c 2)) ⊠ (.s 0)) ⊠ (.s 1)) ⊞ (((.c 3) ⊠ (.s 0)) ⊠ (.c 1))) ⊟ (((.s 3) ⊠ (.s 2)) ⊠ (.c 0))) ⊠ (.c 5))⟩,
    ⟨1, 1, (((((((((.neg (.c 3)) ⊠ (.c 2)) ⊠ (.s 0)) ⊠ (.s 1)) ⊟ (((.s 3) ⊠ (.s 0)) ⊠ (.c 1))) ⊟ (((.c 3) ⊠ (.s 2)) ⊠ (.c 0))) ⊠ (.c 5)) ⊠ (.s 4)) ⊞ (((((.c 2) ⊠ (.c 0)) ⊟ (((.s 2) ⊠ (.s 0)) ⊠ (.s 1))) ⊠ (.c 5)) ⊠ (.c 4))) ⊞ (((((((.s 3) ⊠ (.c 2)) ⊠ (.s 0)) ⊠ (.s 1)) ⊟ (((.c 3) ⊠ (.s 0)) ⊠ (.c 1))) ⊞ (((.s 3) ⊠ (.s 2)) ⊠ (.c 0))) ⊠ (.s 5))⟩,
    ⟨1, 2, ((((((.k 1 0) ⊠ (.s 2)) ⊠ (.s 0)) ⊠ (.s 1)) ⊟ ((.c 2) ⊠ (.c 0))) ⊠ (.s 4)) ⊞ (((((((.neg (.c 3)) ⊠ (.c 2)) ⊠ (.s 0)) ⊠ (.s 1)) ⊟ (((.s 3) ⊠ (.s 0)) ⊠ (.c 1))) ⊟ (((.c 3) ⊠ (.s 2)) ⊠ (.c 0))) ⊠ (.c 4))⟩,
    ⟨1, 3, ((((((((((((((.k 416 3) ⊠ (.c 3)) ⊞ (.k 296 3)) ⊠ (.s 2)) ⊠ (.s 0)) ⊟ ((((.k 178 3) ⊠ (.c 3)) ⊠ (.c 2)) ⊠ (.c 0))) ⊠ (.s 1)) ⊟ ((((.k 178 3) ⊠ (.s 3)) ⊠ (.c 0)) ⊠ (.c 1))) ⊞ ((((.k 178 3) ⊠ (.c 3)) ⊠ (.s 2)) ⊠ (.s 0))) ⊞ (((((.neg (.k 416 3)) ⊠ (.c 3)) ⊟ (.k 296 3)) ⊠ (.c 2)) ⊠ (.c 0))) ⊠ (.s 5)) ⊞ (((((.k 2075 5) ⊠ (.c 2)) ⊠ (.c 0)) ⊟ ((((.k 2075 5) ⊠ (.s 2)) ⊠ (.s 0)) ⊠ (.s 1))) ⊠ (.c 5))) ⊠ (.s 4)) ⊞ (((((((((((((.neg (.k 296 3)) ⊠ (.c 3)) ⊟ (.k 416 3)) ⊠ (.c 2)) ⊠ (.s 0)) ⊟ (((.k 178 3) ⊠ (.s 2)) ⊠ (.c 0))) ⊠ (.s 1)) ⊟ ((((.k 296 3) ⊠ (.s 3)) ⊠ (.s 0)) ⊠ (.c 1))) ⊟ (((.k 178 3) ⊠ (.c 2)) ⊠ (.s 0))) ⊞ (((((.neg (.k 296 3)) ⊠ (.c 3)) ⊟ (.k 416 3)) ⊠ (.s 2)) ⊠ (.c 0))) ⊠ (.s 5)) ⊞ ((((((((.k 2075 5) ⊠ (.c 3)) ⊠ (.c 2)) ⊠ (.s 0)) ⊠ (.s 1)) ⊞ ((((.k 2075 5) ⊠ (.s 3)) ⊠ (.s 0)) ⊠ (.c 1))) ⊞ ((((.k 2075 5) ⊠ (.c 3)) ⊠ (.s 2)) ⊠ (.c 0))) ⊠ (.c 5))) ⊠ (.c 4))) ⊞ ((((((((((.k 416 3) ⊠ (.s 3)) ⊠ (.s 2)) ⊠ (.s 0)) ⊟ ((((.k 178 3) ⊠ (.s 3)) ⊠ (.c 2)) ⊠ (.c 0))) ⊠ (.s 1)) ⊞ ((((.k 178 3) ⊠ (.c 3)) ⊠ (.c 0)) ⊠ (.c 1))) ⊞ ((((.k 178 3) ⊠ (.s 3)) ⊠ (.s 2)) ⊠ (.s 0))) ⊟ ((((.k 416 3) ⊠ (.s 3)) ⊠ (.c 2)) ⊠ (.c 0))) ⊠ (.c 5))⟩,
    ⟨1, 4, (((((((((((.k 2075 5) ⊠ (.s 2)) ⊠ (.s 0)) ⊠ (.s 1)) ⊟ (((.k 2075 5) ⊠ (.c 2)) ⊠ (.c 0))) ⊠ (.s 5)) ⊞ (((((((((((.k 416 3) ⊠ (.c 3)) ⊞ (.k 296 3)) ⊠ (.s 2)) ⊠ (.s 0)) ⊟ ((((.k 178 3) ⊠ (.c 3)) ⊠ (.c 2)) ⊠ (.c 0))) ⊠ (.s 1)) ⊟ ((((.k 178 3) ⊠ (.s 3)) ⊠ (.c 0)) ⊠ (.c 1))) ⊞ ((((.k 178 3) ⊠ (.c 3)) ⊠ (.s 2)) ⊠ (.s 0))) ⊞ (((((.neg (.k 416 3)) ⊠ (.c 3)) ⊟ (.k 296 3)) ⊠ (.c 2)) ⊠ (.c 0))) ⊠ (.c 5))) ⊞ ((((.k 3 2) ⊠ (.s 2)) ⊠ (.s 0)) ⊠ (.s 1))) ⊟ (((.k 3 2) ⊠ (.c 2)) ⊠ (.c 0))) ⊠ (.s 4)) ⊞ (((((((((((((.neg (.k 2075 5)) ⊠ (.c 3)) ⊠ (.c 2)) ⊠ (.s 0)) ⊠ (.s 1)) ⊟ ((((.k 2075 5) ⊠ (.s 3)) ⊠ (.s 0)) ⊠ (.c 1))) ⊟ ((((.k 2075 5) ⊠ (.c 3)) ⊠ (.s 2)) ⊠ (.c 0))) ⊠ (.s 5)) ⊞ (((((((((((.neg (.k 296 3)) ⊠ (.c 3)) ⊟ (.k 416 3)) ⊠ (.c 2)) ⊠ (.s 0)) ⊟ (((.k 178 3) ⊠ (.s 2)) ⊠ (.c 0))) ⊠ (.s 1)) ⊟ ((((.k 296 3) ⊠ (.s 3)) ⊠ (.s 0)) ⊠ (.c 1))) ⊟ (((.k 178 3) ⊠ (.c 2)) ⊠ (.s 0))) ⊞ (((((.neg (.k 296 3)) ⊠ (.c 3)) ⊟ (.k 416 3)) ⊠ (.s 2)) ⊠ (.c 0))) ⊠ (.c 5))) ⊟ (((((.k 3 2) ⊠ (.c 3)) ⊠ (.c 2)) ⊠ (.s 0)) ⊠ (.s 1))) ⊟ ((((.k 3 2) ⊠ (.s 3)) ⊠ (.s 0)) ⊠ (.c 1))) ⊟ ((((.k 3 2) ⊠ (.c 3)) ⊠ (.s 2)) ⊠ (.c 0))) ⊠ (.c 4))) ⊞ ((((((((((.k 178 3) ⊠ (.s 3)) ⊠ (.c 2)) ⊠ (.c 0)) ⊟ ((((.k 416 3) ⊠ (.s 3)) ⊠ (.s 2)) ⊠ (.s 0))) ⊠ (.s 1)) ⊟ ((((.k 178 3) ⊠ (.c 3)) ⊠ (.c 0)) ⊠ (.c 1))) ⊟ ((((.k 178 3) ⊠ (.s 3)) ⊠ (.s 2)) ⊠ (.s 0))) ⊞ ((((.k 416 3) ⊠ (.s 3)) ⊠ (.c 2)) ⊠ (.c 0))) ⊠ (.s 5))⟩,
    ⟨1, 5, (((((((((((((((((.k 3 2) ⊠ (.c 3)) ⊠ (.c 2)) ⊠ (.s 0)) ⊠ (.s 1)) ⊞ ((((.k 3 2) ⊠ (.s 3)) ⊠ (.s 0)) ⊠ (.c 1))) ⊞ ((((.k 3 2) ⊠ (.c 3)) ⊠ (.s 2)) ⊠ (.c 0))) ⊠ (.c 5)) ⊞ (((((((.k 296 3) ⊠ (.c 3)) ⊞ (.k 416 3)) ⊠ (.c 2)) ⊠ (.s 0)) ⊞ (((.k 178 3) ⊠ (.s 2)) ⊠ (.c 0))) ⊠ (.s 1))) ⊞ ((((.k 296 3) ⊠ (.s 3)) ⊠ (.s 0)) ⊠ (.c 1))) ⊞ (((.k 178 3) ⊠ (.c 2)) ⊠ (.s 0))) ⊞ (((((.k 296 3) ⊠ (.c 3)) ⊞ (.k 416 3)) ⊠ (.s 2)) ⊠ (.c 0))) ⊠ (.s 4)) ⊞ (((((((((((.k 3 2) ⊠ (.s 2)) ⊠ (.s 0)) ⊠ (.s 1)) ⊟ (((.k 3 2) ⊠ (.c 2)) ⊠ (.c 0))) ⊠ (.c 5)) ⊞ (((((((.k 416 3) ⊠ (.c 3)) ⊞ (.k 296 3)) ⊠ (.s 2)) ⊠ (.s 0)) ⊟ ((((.k 178 3) ⊠ (.c 3)) ⊠ (.c 2)) ⊠ (.c 0))) ⊠ (.s 1))) ⊟ ((((.k 178 3) ⊠ (.s 3)) ⊠ (.c 0)) ⊠ (.c 1))) ⊞ ((((.k 178 3) ⊠ (.c 3)) ⊠ (.s 2)) ⊠ (.s 0))) ⊞ (((((.neg (.k 416 3)) ⊠ (.c 3)) ⊟ (.k 296 3)) ⊠ (.c 2)) ⊠ (.c 0))) ⊠ (.c 4))) ⊞ ((((((((.neg (.k 3 2)) ⊠ (.s 3)) ⊠ (.c 2)) ⊠ (.s 0)) ⊠ (.s 1)) ⊞ ((((.k 3 2) ⊠ (.c 3)) ⊠ (.s 0)) ⊠ (.c 1))) ⊟ ((((.k 3 2) ⊠ (.s 3)) ⊠ (.s 2)) ⊠ (.c 0))) ⊠ (.s 5))) ⊟ (((((.k 2075 5) ⊠ (.s 3)) ⊠ (.c 2)) ⊠ (.s 0)) ⊠ (.s 1))) ⊞ ((((.k 2075 5) ⊠ (.c 3)) ⊠ (.s 0)) ⊠ (.c 1))) ⊟ ((((.k 2075 5) ⊠ (.s 3)) ⊠ (.s 2)) ⊠ (.c 0))⟩,
    ⟨2, 0, (((((((.c 3) ⊠ (.c 2)) ⊠ (.c 1)) ⊟ ((.s 3) ⊠ (.s 1))) ⊠ (.s 5)) ⊠ (.s 4)) ⊞ ((((.s 2) ⊠ (.c 1)) ⊠ (.s 5)) ⊠ (.c 4))) ⊞ ((((.c 3) ⊠ (.s 1)) ⊞ (((.s 3) ⊠ (.c 2)) ⊠ (.c 1))) ⊠ (.c 5))⟩,
    ⟨2, 1, (((((((.c 3) ⊠ (.c 2)) ⊠ (.c 1)) ⊟ ((.s 3) ⊠ (.s 1))) ⊠ (.c 5)) ⊠ (.s 4)) ⊞ ((((.s 2) ⊠ (.c 1)) ⊠ (.c 5)) ⊠ (.c 4))) ⊞ ((((.neg (.c 3)) ⊠ (.s 1)) ⊟ (((.s 3) ⊠ (.c 2)) ⊠ (.c 1))) ⊠ (.s 5))⟩,
    ⟨2, 2, ((((((.k 1 0) ⊠ (.c 3)) ⊠ (.c 2)) ⊠ (.c 1)) ⊟ ((.s 3) ⊠ (.s 1))) ⊠ (.c 4)) ⊟ (((.s 2) ⊠ (.c 1)) ⊠ (.s 4))⟩,
    ⟨2, 3, (((((((((.neg (.k 416 3)) ⊠ (.c 3)) ⊟ (.k 296 3)) ⊠ (.s 2)) ⊠ (.c 1)) ⊠ (.s 5)) ⊞ ((((.k 2075 5) ⊠ (.s 2)) ⊠ (.c 1)) ⊠ (.c 5))) ⊠ (.s 4)) ⊞ (((((((((.k 296 3) ⊠ (.c 3)) ⊞ (.k 416 3)) ⊠ (.c 2)) ⊠ (.c 1)) ⊟ (((.k 296 3) ⊠ (.s 3)) ⊠ (.s 1))) ⊠ (.s 5)) ⊞ (((((.k 2075 5) ⊠ (.s 3)) ⊠ (.s 1)) ⊟ ((((.k 2075 5) ⊠ (.c 3)) ⊠ (.c 2)) ⊠ (.c 1))) ⊠ (.c 5))) ⊠ (.c 4))) ⊟ (((((.k 416 3) ⊠ (.s 3)) ⊠ (.s 2)) ⊠ (.c 1)) ⊠ (.c 5))⟩,
    ⟨2, 4, ((((((((.neg (.k 2075 5)) ⊠ (.s 2)) ⊠ (.c 1)) ⊠ (.s 5)) ⊞ ((((((.neg (.k 416 3)) ⊠ (.c 3)) ⊟ (.k 296 3)) ⊠ (.s 2)) ⊠ (.c 1)) ⊠ (.c 5))) ⊟ (((.k 3 2) ⊠ (.s 2)) ⊠ (.c 1))) ⊠ (.s 4)) ⊞ ((((((((((.k 2075 5) ⊠ (.c 3)) ⊠ (.c 2)) ⊠ (.c 1)) ⊟ (((.k 2075 5) ⊠ (.s 3)) ⊠ (.s 1))) ⊠ (.s 5)) ⊞ (((((((.k 296 3) ⊠ (.c 3)) ⊞ (.k 416 3)) ⊠ (.c 2)) ⊠ (.c 1)) ⊟ (((.k 296 3) ⊠ (.s 3)) ⊠ (.s 1))) ⊠ (.c 5))) ⊟ (((.k 3 2) ⊠ (.s 3)) ⊠ (.s 1))) ⊞ ((((.k 3 2) ⊠ (.c 3)) ⊠ (.c 2)) ⊠ (.c 1))) ⊠ (.c 4))) ⊞ (((((.k 416 3) ⊠ (.s 3)) ⊠ (.s 2)) ⊠ (.c 1)) ⊠ (.s 5))⟩,
    ⟨2, 5, (((((((((((.k 3 2) ⊠ (.s 3)) ⊠ (.s 1)) ⊟ ((((.k 3 2) ⊠ (.c 3)) ⊠ (.c 2)) ⊠ (.c 1))) ⊠ (.c 5)) ⊞ (((.k 296 3) ⊠ (.s 3)) ⊠ (.s 1))) ⊞ (((((.neg (.k 296 3)) ⊠ (.c 3)) ⊟ (.k 416 3)) ⊠ (.c 2)) ⊠ (.c 1))) ⊠ (.s 4)) ⊞ (((((((.neg (.k 416 3)) ⊠ (.c 3)) ⊟ (.k 296 3)) ⊠ (.s 2)) ⊠ (.c 1)) ⊟ ((((.k 3 2) ⊠ (.s 2)) ⊠ (.c 1)) ⊠ (.c 5))) ⊠ (.c 4))) ⊞ (((((.k 3 2) ⊠ (.c 3)) ⊠ (.s 1)) ⊞ ((((.k 3 2) ⊠ (.s 3)) ⊠ (.c 2)) ⊠ (.c 1))) ⊠ (.s 5))) ⊞ (((.k 2075 5) ⊠ (.c 3)) ⊠ (.s 1))) ⊞ ((((.k 2075 5) ⊠ (.s 3)) ⊠ (.c 2)) ⊠ (.c 1))⟩,
    ⟨3, 3, (((((((((.neg (.c 3)) ⊠ (.c 2)) ⊠ (.c 0)) ⊠ (.s 1)) ⊟ (((.s 3) ⊠ (.c 0)) ⊠ (.c 1))) ⊞ (((.c 3) ⊠ (.s 2)) ⊠ (.s 0))) ⊠ (.s 5)) ⊠ (.s 4)) ⊞ ((((((.neg (.s 2)) ⊠ (.c 0)) ⊠ (.s 1)) ⊟ ((.c 2) ⊠ (.s 0))) ⊠ (.s 5)) ⊠ (.c 4))) ⊞ (((((((.neg (.s 3)) ⊠ (.c 2)) ⊠ (.c 0)) ⊠ (.s 1)) ⊞ (((.c 3) ⊠ (.c 0)) ⊠ (.c 1))) ⊞ (((.s 3) ⊠ (.s 2)) ⊠ (.s 0))) ⊠ (.c 5))⟩,
    ⟨3, 4, (((((((((.neg (.c 3)) ⊠ (.c 2)) ⊠ (.c 0)) ⊠ (.s 1)) ⊟ (((.s 3) ⊠ (.c 0)) ⊠ (.c 1))) ⊞ (((.c 3) ⊠ (.s 2)) ⊠ (.s 0))) ⊠ (.c 5)) ⊠ (.s 4)) ⊞ ((((((.neg (.s 2)) ⊠ (.c 0)) ⊠ (.s 1)) ⊟ ((.c 2) ⊠ (.s 0))) ⊠ (.c 5)) ⊠ (.c 4))) ⊞ (((((((.s 3) ⊠ (.c 2)) ⊠ (.c 0)) ⊠ (.s 1)) ⊟ (((.c 3) ⊠ (.c 0)) ⊠ (.c 1))) ⊟ (((.s 3) ⊠ (.s 2)) ⊠ (.s 0))) ⊠ (.s 5))⟩,
    ⟨3, 5, ((((((.k 1 0) ⊠ (.s 2)) ⊠ (.c 0)) ⊠ (.s 1)) ⊞ ((.c 2) ⊠ (.s 0))) ⊠ (.s 4)) ⊞ (((((((.neg (.c 3)) ⊠ (.c 2)) ⊠ (.c 0)) ⊠ (.s 1)) ⊟ (((.s 3) ⊠ (.c 0)) ⊠ (.c 1))) ⊞ (((.c 3) ⊠ (.s 2)) ⊠ (.s 0))) ⊠ (.c 4))⟩,
    ⟨4, 3, (((((((((.neg (.c 3)) ⊠ (.c 2)) ⊠ (.s 0)) ⊠ (.s 1)) ⊟ (((.s 3) ⊠ (.s 0)) ⊠ (.c 1))) ⊟ (((.c 3) ⊠ (.s 2)) ⊠ (.c 0))) ⊠ (.s 5)) ⊠ (.s 4)) ⊞ (((((.c 2) ⊠ (.c 0)) ⊟ (((.s 2) ⊠ (.s 0)) ⊠ (.s 1))) ⊠ (.s 5)) ⊠ (.c 4))) ⊞ (((((((.neg (.s 3)) ⊠ (.c 2)) ⊠ (.s 0)) ⊠ (.s 1)) ⊞ (((.c 3) ⊠ (.s 0)) ⊠ (.c 1))) ⊟ (((.s 3) ⊠ (.s 2)) ⊠ (.c 0))) ⊠ (.c 5))⟩,
    ⟨4, 4, (((((((((.neg (.c 3)) ⊠ (.c 2)) ⊠ (.s 0)) ⊠ (.s 1)) ⊟ (((.s 3) ⊠ (.s 0)) ⊠ (.c 1))) ⊟ (((.c 3) ⊠ (.s 2)) ⊠ (.c 0))) ⊠ (.c 5)) ⊠ (.s 4)) ⊞ (((((.c 2) ⊠ (.c 0)) ⊟ (((.s 2) ⊠ (.s 0)) ⊠ (.s 1))) ⊠ (.c 5)) ⊠ (.c 4))) ⊞ (((((((.s 3) ⊠ (.c 2)) ⊠ (.s 0)) ⊠ (.s 1)) ⊟ (((.c 3) ⊠ (.s 0)) ⊠ (.c 1))) ⊞ (((.s 3) ⊠ (.s 2)) ⊠ (.c 0))) ⊠ (.s 5))⟩,
    ⟨4, 5, ((((((.k 1 0) ⊠ (.s 2)) ⊠ (.s 0)) ⊠ (.s 1)) ⊟ ((.c 2) ⊠ (.c 0))) ⊠ (.s 4)) ⊞ (((((((.neg (.c 3)) ⊠ (.c 2)) ⊠ (.s 0)) ⊠ (.s 1)) ⊟ (((.s 3) ⊠ (.s 0)) ⊠ (.c 1))) ⊟ (((.c 3) ⊠ (.s 2)) ⊠ (.c 0))) ⊠ (.c 4))⟩,
    ⟨5, 3, (((((((.c 3) ⊠ (.c 2)) ⊠ (.c 1)) ⊟ ((.s 3) ⊠ (.s 1))) ⊠ (.s 5)) ⊠ (.s 4)) ⊞ ((((.s 2) ⊠ (.c 1)) ⊠ (.s 5)) ⊠ (.c 4))) ⊞ ((((.c 3) ⊠ (.s 1)) ⊞ (((.s 3) ⊠ (.c 2)) ⊠ (.c 1))) ⊠ (.c 5))⟩,
    ⟨5, 4, (((((((.c 3) ⊠ (.c 2)) ⊠ (.c 1)) ⊟ ((.s 3) ⊠ (.s 1))) ⊠ (.c 5)) ⊠ (.s 4)) ⊞ ((((.s 2) ⊠ (.c 1)) ⊠ (.c 5)) ⊠ (.c 4))) ⊞ ((((.neg (.c 3)) ⊠ (.s 1)) ⊟ (((.s 3) ⊠ (.c 2)) ⊠ (.c 1))) ⊠ (.s 5))⟩,
    ⟨5, 5, ((((((.k 1 0) ⊠ (.c 3)) ⊠ (.c 2)) ⊠ (.c 1)) ⊟ ((.s 3) ⊠ (.s 1))) ⊠ (.c 4)) ⊟ (((.s 2) ⊠ (.c 1)) ⊠ (.s 4))⟩]

/-- The transforms `fr_HyABase_X_fr_ee`. -/
def fr_HyABase_X_fr_ee : Trans := ⟨fr_HyABase, fr_ee, hom_fr_HyABase_X_fr_ee, motion_fr_HyABase_X_fr_ee, force_fr_HyABase_X_fr_ee⟩

/-- `HomogeneousTransforms::Type_fr_HyABase_X_fr_Shoulder_AA_COM` (transforms.impl.h:6175-6187, 6189-6203). -/
def hom_fr_HyABase_X_fr_Shoulder_AA_COM : Gen where
  rows := 4
  cols := 4
  ctor := [⟨0, 2, .k 0 0⟩,
    ⟨1, 2, .k 0 0⟩,
    ⟨2, 0, .k 0 0⟩,
    ⟨2, 1, .k 0 0⟩,
    ⟨2, 2, .k 1 0⟩,
    ⟨2, 3, .k 309 5⟩,
    ⟨3, 0, .k 0 0⟩,
    ⟨3, 1, .k 0 0⟩,
    ⟨3, 2, .k 0 0⟩,
    ⟨3, 3, .k 1 0⟩]
  upd := [⟨0, 0, .c 0⟩,
    ⟨0, 1, .neg (.s 0)⟩,
    ⟨0, 3, ((.k 36 5) ⊠ (.s 0)) ⊟ ((.k 2 4) ⊠ (.c 0))⟩,
    ⟨1, 0, .s 0⟩,
    ⟨1, 1, .c 0⟩,
    ⟨1, 3, ((.neg (.k 2 4)) ⊠ (.s 0)) ⊟ ((.k 36 5) ⊠ (.c 0))⟩]

/-- `MotionTransforms::Type_fr_HyABase_X_fr_Shoulder_AA_COM` (transforms.impl.h:617-641, 643-665). -/
def motion_fr_HyABase_X_fr_Shoulder_AA_COM : Gen where
  rows := 6
  cols := 6
  ctor := [⟨0, 2, .k 0 0⟩,
    ⟨0, 3, .k 0 0⟩,
    ⟨0, 4, .k 0 0⟩,
    ⟨0, 5, .k 0 0⟩,
    ⟨1, 2, .k 0 0⟩,
    ⟨1, 3, .k 0 0⟩,
    ⟨1, 4, .k 0 0⟩,
    ⟨1, 5, .k 0 0⟩,
    ⟨2, 0, .k 0 0⟩,
    ⟨2, 1, .k 0 0⟩,
    ⟨2, 2, .k 1 0⟩,
    ⟨2, 3, .k 0 0⟩,
    ⟨2, 4, .k 0 0⟩,
    ⟨2, 5, .k 0 0⟩,
    ⟨3, 5, .k 0 0⟩,
    ⟨4, 5, .k 0 0⟩,
    ⟨5, 0, .k 36 5⟩,
    ⟨5, 1, .neg (.k 2 4)⟩,
    ⟨5, 2, .k 0 0⟩,
    ⟨5, 3, .k 0 0⟩,
    ⟨5, 4, .k 0 0⟩,
    ⟨5, 5, .k 1 0⟩]
  upd := [⟨0, 0, .c 0⟩,
    ⟨0, 1, .neg (.s 0)⟩,
    ⟨1, 0, .s 0⟩,
    ⟨1, 1, .c 0⟩,
    ⟨3, 0, (.neg (.k 309 5)) ⊠ (.s 0)⟩,
    ⟨3, 1, (.neg (.k 309 5)) ⊠ (.c 0)⟩,
    ⟨3, 2, ((.neg (.k 2 4)) ⊠ (.s 0)) ⊟ ((.k 36 5) ⊠ (.c 0))⟩,
    ⟨3, 3, .c 0⟩,
    ⟨3, 4, .neg (.s 0)⟩,
    ⟨4, 0, (.k 309 5) ⊠ (.c 0)⟩,
    ⟨4, 1, (.neg (.k 309 5)) ⊠ (.s 0)⟩,
    ⟨4, 2, ((.k 2 4) ⊠ (.c 0)) ⊟ ((.k 36 5) ⊠ (.s 0))⟩,
    ⟨4, 3, .s 0⟩,
    ⟨4, 4, .c 0⟩]

/-- `ForceTransforms::Type_fr_HyABase_X_fr_Shoulder_AA_COM` (transforms.impl.h:3466-3490, 3492-3514). -/
def force_fr_HyABase_X_fr_Shoulder_AA_COM : Gen where
  rows := 6
  cols := 6
  ctor := [⟨0, 2, .k 0 0⟩,
    ⟨1, 2, .k 0 0⟩,
    ⟨2, 0, .k 0 0⟩,
    ⟨2, 1, .k 0 0⟩,
    ⟨2, 2, .k 1 0⟩,
    ⟨2, 3, .k 36 5⟩,
    ⟨2, 4, .neg (.k 2 4)⟩,
    ⟨2, 5, .k 0 0⟩,
    ⟨3, 0, .k 0 0⟩,
    ⟨3, 1, .k 0 0⟩,
    ⟨3, 2, .k 0 0⟩,
    ⟨3, 5, .k 0 0⟩,
    ⟨4, 0, .k 0 0⟩,
    ⟨4, 1, .k 0 0⟩,
    ⟨4, 2, .k 0 0⟩,
    ⟨4, 5, .k 0 0⟩,
    ⟨5, 0, .k 0 0⟩,
    ⟨5, 1, .k 0 0⟩,
    ⟨5, 2, .k 0 0⟩,
    ⟨5, 3, .k 0 0⟩,
    ⟨5, 4, .k 0 0⟩,
    ⟨5, 5, .k 1 0⟩]
  upd := [⟨0, 0, .c 0⟩,
    ⟨0, 1, .neg (.s 0)⟩,
    ⟨0, 3, (.neg (.k 309 5)) ⊠ (.s 0)⟩,
    ⟨0, 4, (.neg (.k 309 5)) ⊠ (.c 0)⟩,
    ⟨0, 5, ((.neg (.k 2 4)) ⊠ (.s 0)) ⊟ ((.k 36 5) ⊠ (.c 0))⟩,
    ⟨1, 0, .s 0⟩,
    ⟨1, 1, .c 0⟩,
    ⟨1, 3, (.k 309 5) ⊠ (.c 0)⟩,
    ⟨1, 4, (.neg (.k 309 5)) ⊠ (.s 0)⟩,
    ⟨1, 5, ((.k 2 4) ⊠ (.c 0)) ⊟ ((.k 36 5) ⊠ (.s 0))⟩,
    ⟨3, 3, .c 0⟩,
    ⟨3, 4, .neg (.s 0)⟩,
    ⟨4, 3, .s 0⟩,
    ⟨4, 4, .c 0⟩]

/-- The transforms `fr_HyABase_X_fr_Shoulder_AA_COM`. -/
def fr_HyABase_X_fr_Shoulder_AA_COM : Trans := ⟨fr_HyABase, fr_Shoulder_AA_COM, hom_fr_HyABase_X_fr_Shoulder_AA_COM, motion_fr_HyABase_X_fr_Shoulder_AA_COM, force_fr_HyABase_X_fr_Shoulder_AA_COM⟩

/-- `HomogeneousTransforms::Type_fr_HyABase_X_fr_Shoulder_FE_COM` (transforms.impl.h:6205-6212, 6214-6237). -/
def hom_fr_HyABase_X_fr_Shoulder_FE_COM : Gen where
  rows := 4
  cols := 4
  ctor := [⟨2, 2, .k 0 0⟩,
    ⟨3, 0, .k 0 0⟩,
    ⟨3, 1, .k 0 0⟩,
    ⟨3, 2, .k 0 0⟩,
    ⟨3, 3, .k 1 0⟩]
  upd := [⟨0, 0, (.c 0) ⊠ (.c 1)⟩,
    ⟨0, 1, (.neg (.c 0)) ⊠ (.s 1)⟩,
    ⟨0, 2, .s 0⟩,
    ⟨0, 3, ((((.k 2338 5) ⊠ (.c 0)) ⊠ (.s 1)) ⊟ (((.k 383 5) ⊠ (.c 0)) ⊠ (.c 1))) ⊞ ((.k 117 5) ⊠ (.s 0))⟩,
    ⟨1, 0, (.s 0) ⊠ (.c 1)⟩,
    ⟨1, 1, (.neg (.s 0)) ⊠ (.s 1)⟩,
    ⟨1, 2, .neg (.c 0)⟩,
    ⟨1, 3, ((((.k 2338 5) ⊠ (.s 0)) ⊠ (.s 1)) ⊟ (((.k 383 5) ⊠ (.s 0)) ⊠ (.c 1))) ⊟ ((.k 117 5) ⊠ (.c 0))⟩,
    ⟨2, 0, .s 1⟩,
    ⟨2, 1, .c 1⟩,
    ⟨2, 3, (((.neg (.k 383 5)) ⊠ (.s 1)) ⊟ ((.k 2338 5) ⊠ (.c 1))) ⊞ (.k 178 3)⟩]

/-- `MotionTransforms::Type_fr_HyABase_X_fr_Shoulder_FE_COM` (transforms.impl.h:667-680, 682-719). -/
def motion_fr_HyABase_X_fr_Shoulder_FE_COM : Gen where
  rows := 6
  cols := 6
  ctor := [⟨0, 3, .k 0 0⟩,
    ⟨0, 4, .k 0 0⟩,
    ⟨0, 5, .k 0 0⟩,
    ⟨1, 3, .k 0 0⟩,
    ⟨1, 4, .k 0 0⟩,
    ⟨1, 5, .k 0 0⟩,
    ⟨2, 2, .k 0 0⟩,
    ⟨2, 3, .k 0 0⟩,
    ⟨2, 4, .k 0 0⟩,
    ⟨2, 5, .k 0 0⟩,
    ⟨5, 5, .k 0 0⟩]
  upd := [⟨0, 0, (.c 0) ⊠ (.c 1)⟩,
    ⟨0, 1, (.neg (.c 0)) ⊠ (.s 1)⟩,
    ⟨0, 2, .s 0⟩,
    ⟨1, 0, (.s 0) ⊠ (.c 1)⟩,
    ⟨1, 1, (.neg (.s 0)) ⊠ (.s 1)⟩,
    ⟨1, 2, .neg (.c 0)⟩,
    ⟨2, 0, .s 1⟩,
    ⟨2, 1, .c 1⟩,
    ⟨3, 0, ((((.neg (.k 117 5)) ⊠ (.c 0)) ⊠ (.s 1)) ⊟ (((.k 178 3) ⊠ (.s 0)) ⊠ (.c 1))) ⊞ ((.k 2338 5) ⊠ (.s 0))⟩,
    ⟨3, 1, ((((.k 178 3) ⊠ (.s 0)) ⊠ (.s 1)) ⊟ (((.k 117 5) ⊠ (.c 0)) ⊠ (.c 1))) ⊟ ((.k 383 5) ⊠ (.s 0))⟩,
    ⟨3, 2, ((((.neg (.k 383 5)) ⊠ (.c 0)) ⊠ (.s 1)) ⊟ (((.k 2338 5) ⊠ (.c 0)) ⊠ (.c 1))) ⊞ ((.k 178 3) ⊠ (.c 0))⟩,
    ⟨3, 3, (.c 0) ⊠ (.c 1)⟩,
    ⟨3, 4, (.neg (.c 0)) ⊠ (.s 1)⟩,
    ⟨3, 5, .s 0⟩,
    ⟨4, 0, ((((.neg (.k 117 5)) ⊠ (.s 0)) ⊠ (.s 1)) ⊞ (((.k 178 3) ⊠ (.c 0)) ⊠ (.c 1))) ⊟ ((.k 2338 5) ⊠ (.c 0))⟩,
    ⟨4, 1, ((((.neg (.k 178 3)) ⊠ (.c 0)) ⊠ (.s 1)) ⊟ (((.k 117 5) ⊠ (.s 0)) ⊠ (.c 1))) ⊞ ((.k 383 5) ⊠ (.c 0))⟩,
    ⟨4, 2, ((((.neg (.k 383 5)) ⊠ (.s 0)) ⊠ (.s 1)) ⊟ (((.k 2338 5) ⊠ (.s 0)) ⊠ (.c 1))) ⊞ ((.k 178 3) ⊠ (.s 0))⟩,
    ⟨4, 3, (.s 0) ⊠ (.c 1)⟩,
    ⟨4, 4, (.neg (.s 0)) ⊠ (.s 1)⟩,
    ⟨4, 5, .neg (.c 0)⟩,
    ⟨5, 0, (.k 117 5) ⊠ (.c 1)⟩,
    ⟨5, 1, (.neg (.k 117 5)) ⊠ (.s 1)⟩,
    ⟨5, 2, ((.k 383 5) ⊠ (.c 1)) ⊟ ((.k 2338 5) ⊠ (.s 1))⟩,
    ⟨5, 3, .s 1⟩,
    ⟨5, 4, .c 1⟩]

/-- `ForceTransforms::Type_fr_HyABase_X_fr_Shoulder_FE_COM` (transforms.impl.h:3516-3529, 3531-3568). -/
def force_fr_HyABase_X_fr_Shoulder_FE_COM : Gen where
  rows := 6
  cols := 6
  ctor := [⟨2, 2, .k 0 0⟩,
    ⟨3, 0, .k 0 0⟩,
    ⟨3, 1, .k 0 0⟩,
    ⟨3, 2, .k 0 0⟩,
    ⟨4, 0, .k 0 0⟩,
    ⟨4, 1, .k 0 0⟩,
    ⟨4, 2, .k 0 0⟩,
    ⟨5, 0, .k 0 0⟩,
    ⟨5, 1, .k 0 0⟩,
    ⟨5, 2, .k 0 0⟩,
    ⟨5, 5, .k 0 0⟩]
  upd := [⟨0, 0, (.c 0) ⊠ (.c 1)⟩,
    ⟨0, 1, (.neg (.c 0)) ⊠ (.s 1)⟩,
    ⟨0, 2, .s 0⟩,
    ⟨0, 3, ((((.neg (.k 117 5)) ⊠ (.c 0)) ⊠ (.s 1)) ⊟ (((.k 178 3) ⊠ (.s 0)) ⊠ (.c 1))) ⊞ ((.k 2338 5) ⊠ (.s 0))⟩,
    ⟨0, 4, ((((.k 178 3) ⊠ (.s 0)) ⊠ (.s 1)) ⊟ (((.k 117 5) ⊠ (.c 0)) ⊠ (.c 1))) ⊟ ((.k 383 5) ⊠ (.s 0))⟩,
    ⟨0, 5, ((((.neg (.k 383 5)) ⊠ (.c 0)) ⊠ (.s 1)) ⊟ (((.k 2338 5) ⊠ (.c 0)) ⊠ (.c 1))) ⊞ ((.k 178 3) ⊠ (.c 0))⟩,
    ⟨1, 0, (.s 0) ⊠ (.c 1)⟩,
    ⟨1, 1, (.neg (.s 0)) ⊠ (.s 1)⟩,
    ⟨1, 2, .neg (.c 0)⟩,
    ⟨1, 3, ((((.neg (.k 117 5)) ⊠ (.s 0)) ⊠ (.s 1)) ⊞ (((.k 178 3) ⊠ (.c 0)) ⊠ (.c 1))) ⊟ ((.k 2338 5) ⊠ (.c 0))⟩,
    ⟨1, 4, ((((.neg (.k 178 3)) ⊠ (.c 0)) ⊠ (.s 1)) ⊟ (((.k 117 5) ⊠ (.s 0)) ⊠ (.c 1))) ⊞ ((.k 383 5) ⊠ (.c 0))⟩,
    ⟨1, 5, ((((.neg (.k 383 5)) ⊠ (.s 0)) ⊠ (.s 1)) ⊟ (((.k 2338 5) ⊠ (.s 0)) ⊠ (.c 1))) ⊞ ((.k 178 3) ⊠ (.s 0))⟩,
    ⟨2, 0, .s 1⟩,
    ⟨2, 1, .c 1⟩,
    ⟨2, 3, (.k 117 5) ⊠ (.c 1)⟩,
    ⟨2, 4, (.neg (.k 117 5)) ⊠ (.s 1)⟩,
    ⟨2, 5, ((.k 383 5) ⊠ (.c 1)) ⊟ ((.k 2338 5) ⊠ (.s 1))⟩,
    ⟨3, 3, (.c 0) ⊠ (.c 1)⟩,
    ⟨3, 4, (.neg (.c 0)) ⊠ (.s 1)⟩,
    ⟨3, 5, .s 0⟩,
    ⟨4, 3, (.s 0) ⊠ (.c 1)⟩,
    ⟨4, 4, (.neg (.s 0)) ⊠ (.s 1)⟩,
    ⟨4, 5, .neg (.c 0)⟩,
    ⟨5, 3, .s 1⟩,
    ⟨5, 4, .c 1⟩]

/-- The transforms `fr_HyABase_X_fr_Shoulder_FE_COM`. -/
def fr_HyABase_X_fr_Shoulder_FE_COM : Trans := ⟨fr_HyABase, fr_Shoulder_FE_COM, hom_fr_HyABase_X_fr_Shoulder_FE_COM, motion_fr_HyABase_X_fr_Shoulder_FE_COM, force_fr_HyABase_X_fr_Shoulder_FE_COM⟩

/-- `HomogeneousTransforms::Type_fr_HyABase_X_fr_Humerus_R_COM` (transforms.impl.h:6239-6245, 6247-6275). -/
def hom_fr_HyABase_X_fr_Humerus_R_COM : Gen where
  rows := 4
  cols := 4
  ctor := [⟨3, 0, .k 0 0⟩,
    ⟨3, 1, .k 0 0⟩,
    ⟨3, 2, .k 0 0⟩,
    ⟨3, 3, .k 1 0⟩]
  upd := [⟨0, 0, (((.neg (.s 2)) ⊠ (.c 0)) ⊠ (.s 1)) ⊟ ((.c 2) ⊠ (.s 0))⟩,
    ⟨0, 1, ((.s 2) ⊠ (.s 0)) ⊟ (((.c 2) ⊠ (.c 0)) ⊠ (.s 1))⟩,
    ⟨0, 2, (.c 0) ⊠ (.c 1)⟩,
    ⟨0, 3, ((((((.k 239 5) ⊠ (.s 2)) ⊟ ((.k 618 5) ⊠ (.c 2))) ⊠ (.c 0)) ⊠ (.s 1)) ⊞ (((.k 8646 5) ⊠ (.c 0)) ⊠ (.c 1))) ⊞ ((((.k 618 5) ⊠ (.s 2)) ⊞ ((.k 239 5) ⊠ (.c 2))) ⊠ (.s 0))⟩,
    ⟨1, 0, ((.c 2) ⊠ (.c 0)) ⊟ (((.s 2) ⊠ (.s 0)) ⊠ (.s 1))⟩,
    ⟨1, 1, (((.neg (.c 2)) ⊠ (.s 0)) ⊠ (.s 1)) ⊟ ((.s 2) ⊠ (.c 0))⟩,
    ⟨1, 2, (.s 0) ⊠ (.c 1)⟩,
    ⟨1, 3, ((((((.k 239 5) ⊠ (.s 2)) ⊟ ((.k 618 5) ⊠ (.c 2))) ⊠ (.s 0)) ⊠ (.s 1)) ⊞ (((.k 8646 5) ⊠ (.s 0)) ⊠ (.c 1))) ⊞ ((((.neg (.k 618 5)) ⊠ (.s 2)) ⊟ ((.k 239 5) ⊠ (.c 2))) ⊠ (.c 0))⟩,
    ⟨2, 0, (.s 2) ⊠ (.c 1)⟩,
    ⟨2, 1, (.c 2) ⊠ (.c 1)⟩,
    ⟨2, 2, .s 1⟩,
    ⟨2, 3, (((.k 8646 5) ⊠ (.s 1)) ⊞ ((((.k 618 5) ⊠ (.c 2)) ⊟ ((.k 239 5) ⊠ (.s 2))) ⊠ (.c 1))) ⊞ (.k 178 3)⟩]

/-- `MotionTransforms::Type_fr_HyABase_X_fr_Humerus_R_COM` (transforms.impl.h:721-732, 734-777). -/
def motion_fr_HyABase_X_fr_Humerus_R_COM : Gen where
  rows := 6
  cols := 6
  ctor := [⟨0, 3, .k 0 0⟩,
    ⟨0, 4, .k 0 0⟩,
    ⟨0, 5, .k 0 0⟩,
    ⟨1, 3, .k 0 0⟩,
    ⟨1, 4, .k 0 0⟩,
    ⟨1, 5, .k 0 0⟩,
    ⟨2, 3, .k 0 0⟩,
    ⟨2, 4, .k 0 0⟩,
    ⟨2, 5, .k 0 0⟩]
  upd := [⟨0, 0, (((.neg (.s 2)) ⊠ (.c 0)) ⊠ (.s 1)) ⊟ ((.c 2) ⊠ (.s 0))⟩,
    ⟨0, 1, ((.s 2) ⊠ (.s 0)) ⊟ (((.c 2) ⊠ (.c 0)) ⊠ (.s 1))⟩,
    ⟨0, 2, (.c 0) ⊠ (.c 1)⟩,
    ⟨1, 0, ((.c 2) ⊠ (.c 0)) ⊟ (((.s 2) ⊠ (.s 0)) ⊠ (.s 1))⟩,
    ⟨1, 1, (((.neg (.c 2)) ⊠ (.s 0)) ⊠ (.s 1)) ⊟ ((.s 2) ⊠ (.c 0))⟩,
    ⟨1, 2, (.s 0) ⊠ (.c 1)⟩,
    ⟨2, 0, (.s 2) ⊠ (.c 1)⟩,
    ⟨2, 1, (.c 2) ⊠ (.c 1)⟩,
    ⟨2, 2, .s 1⟩,
    ⟨3, 0, (((((((.k 178 3) ⊠ (.s 2)) ⊠ (.s 0)) ⊟ (((.k 8646 5) ⊠ (.c 2)) ⊠ (.c 0))) ⊠ (.s 1)) ⊟ (((.k 618 5) ⊠ (.c 0)) ⊠ (.c 1))) ⊞ (((.k 8646 5) ⊠ (.s 2)) ⊠ (.s 0))) ⊟ (((.k 178 3) ⊠ (.c 2)) ⊠ (.c 0))⟩,
    ⟨3, 1, (((((((.k 178 3) ⊠ (.c 2)) ⊠ (.s 0)) ⊞ (((.k 8646 5) ⊠ (.s 2)) ⊠ (.c 0))) ⊠ (.s 1)) ⊟ (((.k 239 5) ⊠ (.c 0)) ⊠ (.c 1))) ⊞ (((.k 8646 5) ⊠ (.c 2)) ⊠ (.s 0))) ⊞ (((.k 178 3) ⊠ (.s 2)) ⊠ (.c 0))⟩,
    ⟨3, 2, ((((((.neg (.k 618 5)) ⊠ (.s 2)) ⊟ ((.k 239 5) ⊠ (.c 2))) ⊠ (.c 0)) ⊠ (.s 1)) ⊟ (((.k 178 3) ⊠ (.s 0)) ⊠ (.c 1))) ⊞ ((((.k 239 5) ⊠ (.s 2)) ⊟ ((.k 618 5) ⊠ (.c 2))) ⊠ (.s 0))⟩,
    ⟨3, 3, (((.neg (.s 2)) ⊠ (.c 0)) ⊠ (.s 1)) ⊟ ((.c 2) ⊠ (.s 0))⟩,
    ⟨3, 4, ((.s 2) ⊠ (.s 0)) ⊟ (((.c 2) ⊠ (.c 0)) ⊠ (.s 1))⟩,
    ⟨3, 5, (.c 0) ⊠ (.c 1)⟩,
    ⟨4, 0, (((((((.neg (.k 8646 5)) ⊠ (.c 2)) ⊠ (.s 0)) ⊟ (((.k 178 3) ⊠ (.s 2)) ⊠ (.c 0))) ⊠ (.s 1)) ⊟ (((.k 618 5) ⊠ (.s 0)) ⊠ (.c 1))) ⊟ (((.k 178 3) ⊠ (.c 2)) ⊠ (.s 0))) ⊟ (((.k 8646 5) ⊠ (.s 2)) ⊠ (.c 0))⟩,
    ⟨4, 1, (((((((.k 8646 5) ⊠ (.s 2)) ⊠ (.s 0)) ⊟ (((.k 178 3) ⊠ (.c 2)) ⊠ (.c 0))) ⊠ (.s 1)) ⊟ (((.k 239 5) ⊠ (.s 0)) ⊠ (.c 1))) ⊞ (((.k 178 3) ⊠ (.s 2)) ⊠ (.s 0))) ⊟ (((.k 8646 5) ⊠ (.c 2)) ⊠ (.c 0))⟩,
    ⟨4, 2, ((((((.neg (.k 618 5)) ⊠ (.s 2)) ⊟ ((.k 239 5) ⊠ (.c 2))) ⊠ (.s 0)) ⊠ (.s 1)) ⊞ (((.k 178 3) ⊠ (.c 0)) ⊠ (.c 1))) ⊞ ((((.k 618 5) ⊠ (.c 2)) ⊟ ((.k 239 5) ⊠ (.s 2))) ⊠ (.c 0))⟩,
    ⟨4, 3, ((.c 2) ⊠ (.c 0)) ⊟ (((.s 2) ⊠ (.s 0)) ⊠ (.s 1))⟩,
    ⟨4, 4, (((.neg (.c 2)) ⊠ (.s 0)) ⊠ (.s 1)) ⊟ ((.s 2) ⊠ (.c 0))⟩,
    ⟨4, 5, (.s 0) ⊠ (.c 1)⟩,
    ⟨5, 0, (((.k 8646 5) ⊠ (.c 2)) ⊠ (.c 1)) ⊟ ((.k 618 5) ⊠ (.s 1))⟩,
    ⟨5, 1, ((.neg (.k 239 5)) ⊠ (.s 1)) ⊟ (((.k 8646 5) ⊠ (.s 2)) ⊠ (.c 1))⟩,
    ⟨5, 2, (((.k 618 5) ⊠ (.s 2)) ⊞ ((.k 239 5) ⊠ (.c 2))) ⊠ (.c 1)⟩,
    ⟨5, 3, (.s 2) ⊠ (.c 1)⟩,
    ⟨5, 4, (.c 2) ⊠ (.c 1)⟩,
    ⟨5, 5, .s 1⟩]

/-- `ForceTransforms::Type_fr_HyABase_X_fr_Humerus_R_COM` (transforms.impl.h:3570-3581, 3583-3626). -/
def force_fr_HyABase_X_fr_Humerus_R_COM : Gen where
  rows := 6
  cols := 6
  ctor := [⟨3, 0, .k 0 0⟩,
    ⟨3, 1, .k 0 0⟩,
    ⟨3, 2, .k 0 0⟩,
    ⟨4, 0, .k 0 0⟩,
    ⟨4, 1, .k 0 0⟩,
    ⟨4, 2, .k 0 0⟩,
    ⟨5, 0, .k 0 0⟩,
    ⟨5, 1, .k 0 0⟩,
    ⟨5, 2, .k 0 0⟩]
  upd := [⟨0, 0, (((.neg (.s 2)) ⊠ (.c 0)) ⊠ (.s 1)) ⊟ ((.c 2) ⊠ (.s 0))⟩,
    ⟨0, 1, ((.s 2) ⊠ (.s 0)) ⊟ (((.c 2) ⊠ (.c 0)) ⊠ (.s 1))⟩,
    ⟨0, 2, (.c 0) ⊠ (.c 1)⟩,
    ⟨0, 3, (((((((.k 178 3) ⊠ (.s 2)) ⊠ (.s 0)) ⊟ (((.k 8646 5) ⊠ (.c 2)) ⊠ (.c 0))) ⊠ (.s 1)) ⊟ (((.k 618 5) ⊠ (.c 0)) ⊠ (.c 1))) ⊞ (((.k 8646 5) ⊠ (.s 2)) ⊠ (.s 0))) ⊟ (((.k 178 3) ⊠ (.c 2)) ⊠ (.c 0))⟩,
    ⟨0, 4, (((((((.k 178 3) ⊠ (.c 2)) ⊠ (.s 0)) ⊞ (((.k 8646 5) ⊠ (.s 2)) ⊠ (.c 0))) ⊠ (.s 1)) ⊟ (((.k 239 5) ⊠ (.c 0)) ⊠ (.c 1))) ⊞ (((.k 8646 5) ⊠ (.c 2)) ⊠ (.s 0))) ⊞ (((.k 178 3) ⊠ (.s 2)) ⊠ (.c 0))⟩,
    ⟨0, 5, ((((((.neg (.k 618 5)) ⊠ (.s 2)) ⊟ ((.k 239 5) ⊠ (.c 2))) ⊠ (.c 0)) ⊠ (.s 1)) ⊟ (((.k 178 3) ⊠ (.s 0)) ⊠ (.c 1))) ⊞ ((((.k 239 5) ⊠ (.s 2)) ⊟ ((.k 618 5) ⊠ (.c 2))) ⊠ (.s 0))⟩,
    ⟨1, 0, ((.c 2) ⊠ (.c 0)) ⊟ (((.s 2) ⊠ (.s 0)) ⊠ (.s 1))⟩,
    ⟨1, 1, (((.neg (.c 2)) ⊠ (.s 0)) ⊠ (.s 1)) ⊟ ((.s 2) ⊠ (.c 0))⟩,
    ⟨1, 2, (.s 0) ⊠ (.c 1)⟩,
    ⟨1, 3, (((((((.neg (.k 8646 5)) ⊠ (.c 2)) ⊠ (.s 0)) ⊟ (((.k 178 3) ⊠ (.s 2)) ⊠ (.c 0))) ⊠ (.s 1)) ⊟ (((.k 618 5) ⊠ (.s 0)) ⊠ (.c 1))) ⊟ (((.k 178 3) ⊠ (.c 2)) ⊠ (.s 0))) ⊟ (((.k 8646 5) ⊠ (.s 2)) ⊠ (.c 0))⟩,
    ⟨1, 4, (((((((.k 8646 5) ⊠ (.s 2)) ⊠ (.s 0)) ⊟ (((.k 178 3) ⊠ (.c 2)) ⊠ (.c 0))) ⊠ (.s 1)) ⊟ (((.k 239 5) ⊠ (.s 0)) ⊠ (.c 1))) ⊞ (((.k 178 3) ⊠ (.s 2)) ⊠ (.s 0))) ⊟ (((.k 8646 5) ⊠ (.c 2)) ⊠ (.c 0))⟩,
    ⟨1, 5, ((((((.neg (.k 618 5)) ⊠ (.s 2)) ⊟ ((.k 239 5) ⊠ (.c 2))) ⊠ (.s 0)) ⊠ (.s 1)) ⊞ (((.k 178 3) ⊠ (.c 0)) ⊠ (.c 1))) ⊞ ((((.k 618 5) ⊠ (.c 2)) ⊟ ((.k 239 5) ⊠ (.s 2))) ⊠ (.c 0))⟩,
    ⟨2, 0, (.s 2) ⊠ (.c 1)⟩,
    ⟨2, 1, (.c 2) ⊠ (.c 1)⟩,
    ⟨2, 2, .s 1⟩,
    ⟨2, 3, (((.k 8646 5) ⊠ (.c 2)) ⊠ (.c 1)) ⊟ ((.k 618 5) ⊠ (.s 1))⟩,
    ⟨2, 4, ((.neg (.k 239 5)) ⊠ (.s 1)) ⊟ (((.k 8646 5) ⊠ (.s 2)) ⊠ (.c 1))⟩,
    ⟨2, 5, (((.k 618 5) ⊠ (.s 2)) ⊞ ((.k 239 5) ⊠ (.c 2))) ⊠ (.c 1)⟩,
    ⟨3, 3, (((.neg (.s 2)) ⊠ (.c 0)) ⊠ (.s 1)) ⊟ ((.c 2) ⊠ (.s 0))⟩,
    ⟨3, 4, ((.s 2) ⊠ (.s 0)) ⊟ (((.c 2) ⊠ (.c 0)) ⊠ (.s 1))⟩,
    ⟨3, 5, (.c 0) ⊠ (.c 1)⟩,
    ⟨4, 3, ((.c 2) ⊠ (.c 0)) ⊟ (((.s 2) ⊠ (.s 0)) ⊠ (.s 1))⟩,
    ⟨4, 4, (((.neg (.c 2)) ⊠ (.s 0)) ⊠ (.s 1)) ⊟ ((.s 2) ⊠ (.c 0))⟩,
    ⟨4, 5, (.s 0) ⊠ (.c 1)⟩,
    ⟨5, 3, (.s 2) ⊠ (.c 1)⟩,
    ⟨5, 4, (.c 2) ⊠ (.c 1)⟩,
    ⟨5, 5, .s 1⟩]

/-- The transforms `fr_HyABase_X_fr_Humerus_R_COM`. -/
def fr_HyABase_X_fr_Humerus_R_COM : Trans := ⟨fr_HyABase, fr_Humerus_R_COM, hom_fr_HyABase_X_fr_Humerus_R_COM, motion_fr_HyABase_X_fr_Humerus_R_COM, force_fr_HyABase_X_fr_Humerus_R_COM⟩

/-- `HomogeneousTransforms::Type_fr_HyABase_X_fr_Elbow_FE_COM` (transforms.impl.h:6277-6283, 6285-6317). -/
def hom_fr_HyABase_X_fr_Elbow_FE_COM : Gen where
  rows := 4
  cols := 4
  ctor := [⟨3, 0, .k 0 0⟩,
    ⟨3, 1, .k 0 0⟩,
    ⟨3, 2, .k 0 0⟩,
    ⟨3, 3, .k 1 0⟩]
  upd := [⟨0, 0, (((((.neg (.s 3)) ⊠ (.c 2)) ⊠ (.c 0)) ⊠ (.s 1)) ⊞ (((.c 3) ⊠ (.c 0)) ⊠ (.c 1))) ⊞ (((.s 3) ⊠ (.s 2)) ⊠ (.s 0))⟩,
    ⟨0, 1, (((((.neg (.c 3)) ⊠ (.c 2)) ⊠ (.c 0)) ⊠ (.s 1)) ⊟ (((.s 3) ⊠ (.c 0)) ⊠ (.c 1))) ⊞ (((.c 3) ⊠ (.s 2)) ⊠ (.s 0))⟩,
    ⟨0, 2, (((.s 2) ⊠ (.c 0)) ⊠ (.s 1)) ⊞ ((.c 2) ⊠ (.s 0))⟩,
    ⟨0, 3, ((((((.k 102 5) ⊠ (.s 2)) ⊞ ((((.k 1466 4) ⊠ (.s 3)) ⊞ ((.k 1125 5) ⊠ (.c 3))) ⊠ (.c 2))) ⊠ (.c 0)) ⊠ (.s 1)) ⊞ ((((((.k 1125 5) ⊠ (.s 3)) ⊟ ((.k 1466 4) ⊠ (.c 3))) ⊞ (.k 416 3)) ⊠ (.c 0)) ⊠ (.c 1))) ⊞ ((((((.neg (.k 1466 4)) ⊠ (.s 3)) ⊟ ((.k 1125 5) ⊠ (.c 3))) ⊠ (.s 2)) ⊞ ((.k 102 5) ⊠ (.c 2))) ⊠ (.s 0))⟩,
    ⟨1, 0, (((((.neg (.s 3)) ⊠ (.c 2)) ⊠ (.s 0)) ⊠ (.s 1)) ⊞ (((.c 3) ⊠ (.s 0)) ⊠ (.c 1))) ⊟ (((.s 3) ⊠ (.s 2)) ⊠ (.c 0))⟩,
    ⟨1, 1, (((((.neg (.c 3)) ⊠ (.c 2)) ⊠ (.s 0)) ⊠ (.s 1)) ⊟ (((.s 3) ⊠ (.s 0)) ⊠ (.c 1))) ⊟ (((.c 3) ⊠ (.s 2)) ⊠ (.c 0))⟩,
    ⟨1, 2, (((.s 2) ⊠ (.s 0)) ⊠ (.s 1)) ⊟ ((.c 2) ⊠ (.c 0))⟩,
    ⟨1, 3, ((((((.k 102 5) ⊠ (.s 2)) ⊞ ((((.k 1466 4) ⊠ (.s 3)) ⊞ ((.k 1125 5) ⊠ (.c 3))) ⊠ (.c 2))) ⊠ (.s 0)) ⊠ (.s 1)) ⊞ ((((((.k 1125 5) ⊠ (.s 3)) ⊟ ((.k 1466 4) ⊠ (.c 3))) ⊞ (.k 416 3)) ⊠ (.s 0)) ⊠ (.c 1))) ⊞ ((((((.k 1466 4) ⊠ (.s 3)) ⊞ ((.k 1125 5) ⊠ (.c 3))) ⊠ (.s 2)) ⊟ ((.k 102 5) ⊠ (.c 2))) ⊠ (.c 0))⟩,
    ⟨2, 0, ((.c 3) ⊠ (.s 1)) ⊞ (((.s 3) ⊠ (.c 2)) ⊠ (.c 1))⟩,
    ⟨2, 1, (((.c 3) ⊠ (.c 2)) ⊠ (.c 1)) ⊟ ((.s 3) ⊠ (.s 1))⟩,
    ⟨2, 2, (.neg (.s 2)) ⊠ (.c 1)⟩,
    ⟨2, 3, ((((((.k 1125 5) ⊠ (.s 3)) ⊟ ((.k 1466 4) ⊠ (.c 3))) ⊞ (.k 416 3)) ⊠ (.s 1)) ⊞ ((((((.neg (.k 1466 4)) ⊠ (.s 3)) ⊟ ((.k 1125 5) ⊠ (.c 3))) ⊠ (.c 2)) ⊟ ((.k 102 5) ⊠ (.s 2))) ⊠ (.c 1))) ⊞ (.k 178 3)⟩]

/-- `MotionTransforms::Type_fr_HyABase_X_fr_Elbow_FE_COM` (transforms.impl.h:779-790, 792-839). -/
def motion_fr_HyABase_X_fr_Elbow_FE_COM : Gen where
  rows := 6
  cols := 6
  ctor := [⟨0, 3, .k 0 0⟩,
    ⟨0, 4, .k 0 0⟩,
    ⟨0, 5, .k 0 0⟩,
    ⟨1, 3, .k 0 0⟩,
    ⟨1, 4, .k 0 0⟩,
    ⟨1, 5, .k 0 0⟩,
    ⟨2, 3, .k 0 0⟩,
    ⟨2, 4, .k 0 0⟩,
    ⟨2, 5, .k 0 0⟩]
  upd := [⟨0, 0, (((((.neg (.s 3)) ⊠ (.c 2)) ⊠ (.c 0)) ⊠ (.s 1)) ⊞ (((.c 3) ⊠ (.c 0)) ⊠ (.c 1))) ⊞ (((.s 3) ⊠ (.s 2)) ⊠ (.s 0))⟩,
    ⟨0, 1, (((((.neg (.c 3)) ⊠ (.c 2)) ⊠ (.c 0)) ⊠ (.s 1)) ⊟ (((.s 3) ⊠ (.c 0)) ⊠ (.c 1))) ⊞ (((.c 3) ⊠ (.s 2)) ⊠ (.s 0))⟩,
    ⟨0, 2, (((.s 2) ⊠ (.c 0)) ⊠ (.s 1)) ⊞ ((.c 2) ⊠ (.s 0))⟩,
    ⟨1, 0, (((((.neg (.s 3)) ⊠ (.c 2)) ⊠ (.s 0)) ⊠ (.s 1)) ⊞ (((.c 3) ⊠ (.s 0)) ⊠ (.c 1))) ⊟ (((.s 3) ⊠ (.s 2)) ⊠ (.c 0))⟩,
    ⟨1, 1, (((((.neg (.c 3)) ⊠ (.c 2)) ⊠ (.s 0)) ⊠ (.s 1)) ⊟ (((.s 3) ⊠ (.s 0)) ⊠ (.c 1))) ⊟ (((.c 3) ⊠ (.s 2)) ⊠ (.c 0))⟩,
    ⟨1, 2, (((.s 2) ⊠ (.s 0)) ⊠ (.s 1)) ⊟ ((.c 2) ⊠ (.c 0))⟩,
    ⟨2, 0, ((.c 3) ⊠ (.s 1)) ⊞ (((.s 3) ⊠ (.c 2)) ⊠ (.c 1))⟩,
    ⟨2, 1, (((.c 3) ⊠ (.c 2)) ⊠ (.c 1)) ⊟ ((.s 3) ⊠ (.s 1))⟩,
    ⟨2, 2, (.neg (.s 2)) ⊠ (.c 1)⟩,
    ⟨3, 0, ((((((((.k 178 3) ⊠ (.s 3)) ⊠ (.c 2)) ⊠ (.s 0)) ⊞ ((((((.k 416 3) ⊠ (.s 3)) ⊞ (.k 1125 5)) ⊠ (.s 2)) ⊟ (((.k 102 5) ⊠ (.c 3)) ⊠ (.c 2))) ⊠ (.c 0))) ⊠ (.s 1)) ⊞ (((((.neg (.k 178 3)) ⊠ (.c 3)) ⊠ (.s 0)) ⊟ (((.k 102 5) ⊠ (.s 3)) ⊠ (.c 0))) ⊠ (.c 1))) ⊞ (((((.k 102 5) ⊠ (.c 3)) ⊠ (.s 2)) ⊞ ((((.k 416 3) ⊠ (.s 3)) ⊞ (.k 1125 5)) ⊠ (.c 2))) ⊠ (.s 0))) ⊞ ((((.k 178 3) ⊠ (.s 3)) ⊠ (.s 2)) ⊠ (.c 0))⟩,
    ⟨3, 1, ((((((((.k 178 3) ⊠ (.c 3)) ⊠ (.c 2)) ⊠ (.s 0)) ⊞ ((((((.k 416 3) ⊠ (.c 3)) ⊟ (.k 1466 4)) ⊠ (.s 2)) ⊞ (((.k 102 5) ⊠ (.s 3)) ⊠ (.c 2))) ⊠ (.c 0))) ⊠ (.s 1)) ⊞ (((((.k 178 3) ⊠ (.s 3)) ⊠ (.s 0)) ⊟ (((.k 102 5) ⊠ (.c 3)) ⊠ (.c 0))) ⊠ (.c 1))) ⊞ ((((((.k 416 3) ⊠ (.c 3)) ⊟ (.k 1466 4)) ⊠ (.c 2)) ⊟ (((.k 102 5) ⊠ (.s 3)) ⊠ (.s 2))) ⊠ (.s 0))) ⊞ ((((.k 178 3) ⊠ (.c 3)) ⊠ (.s 2)) ⊠ (.c 0))⟩,
    ⟨3, 2, ((((((((((.k 1125 5) ⊠ (.s 3)) ⊟ ((.k 1466 4) ⊠ (.c 3))) ⊞ (.k 416 3)) ⊠ (.c 2)) ⊠ (.c 0)) ⊟ (((.k 178 3) ⊠ (.s 2)) ⊠ (.s 0))) ⊠ (.s 1)) ⊞ (((((.neg (.k 1466 4)) ⊠ (.s 3)) ⊟ ((.k 1125 5) ⊠ (.c 3))) ⊠ (.c 0)) ⊠ (.c 1))) ⊞ ((((((.neg (.k 1125 5)) ⊠ (.s 3)) ⊞ ((.k 1466 4) ⊠ (.c 3))) ⊟ (.k 416 3)) ⊠ (.s 2)) ⊠ (.s 0))) ⊞ (((.k 178 3) ⊠ (.c 2)) ⊠ (.c 0))⟩,
    ⟨3, 3, (((((.neg (.s 3)) ⊠ (.c 2)) ⊠ (.c 0)) ⊠ (.s 1)) ⊞ (((.c 3) ⊠ (.c 0)) ⊠ (.c 1))) ⊞ (((.s 3) ⊠ (.s 2)) ⊠ (.s 0))⟩,
    ⟨3, 4, (((((.neg (.c 3)) ⊠ (.c 2)) ⊠ (.c 0)) ⊠ (.s 1)) ⊟ (((.s 3) ⊠ (.c 0)) ⊠ (.c 1))) ⊞ (((.c 3) ⊠ (.s 2)) ⊠ (.s 0))⟩,
    ⟨3, 5, (((.s 2) ⊠ (.c 0)) ⊠ (.s 1)) ⊞ ((.c 2) ⊠ (.s 0))⟩,
    ⟨4, 0, ((((((((((.k 416 3) ⊠ (.s 3)) ⊞ (.k 1125 5)) ⊠ (.s 2)) ⊟ (((.k 102 5) ⊠ (.c 3)) ⊠ (.c 2))) ⊠ (.s 0)) ⊟ ((((.k 178 3) ⊠ (.s 3)) ⊠ (.c 2)) ⊠ (.c 0))) ⊠ (.s 1)) ⊞ (((((.k 178 3) ⊠ (.c 3)) ⊠ (.c 0)) ⊟ (((.k 102 5) ⊠ (.s 3)) ⊠ (.s 0))) ⊠ (.c 1))) ⊞ ((((.k 178 3) ⊠ (.s 3)) ⊠ (.s 2)) ⊠ (.s 0))) ⊞ ((((((.neg (.k 416 3)) ⊠ (.s 3)) ⊟ (.k 1125 5)) ⊠ (.c 2)) ⊟ (((.k 102 5) ⊠ (.c 3)) ⊠ (.s 2))) ⊠ (.c 0))⟩,
    ⟨4, 1, ((((((((((.k 416 3) ⊠ (.c 3)) ⊟ (.k 1466 4)) ⊠ (.s 2)) ⊞ (((.k 102 5) ⊠ (.s 3)) ⊠ (.c 2))) ⊠ (.s 0)) ⊟ ((((.k 178 3) ⊠ (.c 3)) ⊠ (.c 2)) ⊠ (.c 0))) ⊠ (.s 1)) ⊞ (((((.neg (.k 102 5)) ⊠ (.c 3)) ⊠ (.s 0)) ⊟ (((.k 178 3) ⊠ (.s 3)) ⊠ (.c 0))) ⊠ (.c 1))) ⊞ ((((.k 178 3) ⊠ (.c 3)) ⊠ (.s 2)) ⊠ (.s 0))) ⊞ (((((.k 102 5) ⊠ (.s 3)) ⊠ (.s 2)) ⊞ (((.k 1466 4) ⊟ ((.k 416 3) ⊠ (.c 3))) ⊠ (.c 2))) ⊠ (.c 0))⟩,
    ⟨4, 2, ((((((((((.k 1125 5) ⊠ (.s 3)) ⊟ ((.k 1466 4) ⊠ (.c 3))) ⊞ (.k 416 3)) ⊠ (.c 2)) ⊠ (.s 0)) ⊞ (((.k 178 3) ⊠ (.s 2)) ⊠ (.c 0))) ⊠ (.s 1)) ⊞ (((((.neg (.k 1466 4)) ⊠ (.s 3)) ⊟ ((.k 1125 5) ⊠ (.c 3))) ⊠ (.s 0)) ⊠ (.c 1))) ⊞ (((.k 178 3) ⊠ (.c 2)) ⊠ (.s 0))) ⊞ ((((((.k 1125 5) ⊠ (.s 3)) ⊟ ((.k 1466 4) ⊠ (.c 3))) ⊞ (.k 416 3)) ⊠ (.s 2)) ⊠ (.c 0))⟩,
    ⟨4, 3, (((((.neg (.s 3)) ⊠ (.c 2)) ⊠ (.s 0)) ⊠ (.s 1)) ⊞ (((.c 3) ⊠ (.s 0)) ⊠ (.c 1))) ⊟ (((.s 3) ⊠ (.s 2)) ⊠ (.c 0))⟩,
    ⟨4, 4, (((((.neg (.c 3)) ⊠ (.c 2)) ⊠ (.s 0)) ⊠ (.s 1)) ⊟ (((.s 3) ⊠ (.s 0)) ⊠ (.c 1))) ⊟ (((.c 3) ⊠ (.s 2)) ⊠ (.c 0))⟩,
    ⟨4, 5, (((.s 2) ⊠ (.s 0)) ⊠ (.s 1)) ⊟ ((.c 2) ⊠ (.c 0))⟩,
    ⟨5, 0, ((((((.neg (.k 416 3)) ⊠ (.s 3)) ⊟ (.k 1125 5)) ⊠ (.s 2)) ⊞ (((.k 102 5) ⊠ (.c 3)) ⊠ (.c 2))) ⊠ (.c 1)) ⊟ (((.k 102 5) ⊠ (.s 3)) ⊠ (.s 1))⟩,
    ⟨5, 1, (((((.k 1466 4) ⊟ ((.k 416 3) ⊠ (.c 3))) ⊠ (.s 2)) ⊟ (((.k 102 5) ⊠ (.s 3)) ⊠ (.c 2))) ⊠ (.c 1)) ⊟ (((.k 102 5) ⊠ (.c 3)) ⊠ (.s 1))⟩,
    ⟨5, 2, ((((.neg (.k 1466 4)) ⊠ (.s 3)) ⊟ ((.k 1125 5) ⊠ (.c 3))) ⊠ (.s 1)) ⊞ ((((((.neg (.k 1125 5)) ⊠ (.s 3)) ⊞ ((.k 1466 4) ⊠ (.c 3))) ⊟ (.k 416 3)) ⊠ (.c 2)) ⊠ (.c 1))⟩,
    ⟨5, 3, ((.c 3) ⊠ (.s 1)) ⊞ (((.s 3) ⊠ (.c 2)) ⊠ (.c 1))⟩,
    ⟨5, 4, (((.c 3) ⊠ (.c 2)) ⊠ (.c 1)) ⊟ ((.s 3) ⊠ (.s 1))⟩,
    ⟨5, 5, (.neg (.s 2)) ⊠ (.c 1)⟩]

/-- `ForceTransforms::Type_fr_HyABase_X_fr_Elbow_FE_COM` (transforms.impl.h:3628-3639, 3641-3688). -/
def force_fr_HyABase_X_fr_Elbow_FE_COM : Gen where
  rows := 6
  cols := 6
  ctor := [⟨3, 0, .k 0 0⟩,
    ⟨3, 1, .k 0 0⟩,
    ⟨3, 2, .k 0 0⟩,
    ⟨4, 0, .k 0 0⟩,
    ⟨4, 1, .k 0 0⟩,
    ⟨4, 2, .k 0 0⟩,
    ⟨5, 0, .k 0 0⟩,
    ⟨5, 1, .k 0 0⟩,
    ⟨5, 2, .k 0 0⟩]
  upd := [⟨0, 0, (((((.neg (.s 3)) ⊠ (.c 2)) ⊠ (.c 0)) ⊠ (.s 1)) ⊞ (((.c 3) ⊠ (.c 0)) ⊠ (.c 1))) ⊞ (((.s 3) ⊠ (.s 2)) ⊠ (.s 0))⟩,
    ⟨0, 1, (((((.neg (.c 3)) ⊠ (.c 2)) ⊠ (.c 0)) ⊠ (.s 1)) ⊟ (((.s 3) ⊠ (.c 0)) ⊠ (.c 1))) ⊞ (((.c 3) ⊠ (.s 2)) ⊠ (.s 0))⟩,
    ⟨0, 2, (((.s 2) ⊠ (.c 0)) ⊠ (.s 1)) ⊞ ((.c 2) ⊠ (.s 0))⟩,
    ⟨0, 3, ((((((((.k 178 3) ⊠ (.s 3)) ⊠ (.c 2)) ⊠ (.s 0)) ⊞ ((((((.k 416 3) ⊠ (.s 3)) ⊞ (.k 1125 5)) ⊠ (.s 2)) ⊟ (((.k 102 5) ⊠ (.c 3)) ⊠ (.c 2))) ⊠ (.c 0))) ⊠ (.s 1)) ⊞ (((((.neg (.k 178 3)) ⊠ (.c 3)) ⊠ (.s 0)) ⊟ (((.k 102 5) ⊠ (.s 3)) ⊠ (.c 0))) ⊠ (.c 1))) ⊞ (((((.k 102 5) ⊠ (.c 3)) ⊠ (.s 2)) ⊞ ((((.k 416 3) ⊠ (.s 3)) ⊞ (.k 1125 5)) ⊠ (.c 2))) ⊠ (.s 0))) ⊞ ((((.k 178 3) ⊠ (.s 3)) ⊠ (.s 2)) ⊠ (.c 0))⟩,
    ⟨0, 4, ((((((((.k 178 3) ⊠ (.c 3)) ⊠ (.c 2)) ⊠ (.s 0)) ⊞ ((((((.k 416 3) ⊠ (.c 3)) ⊟ (.k 1466 4)) ⊠ (.s 2)) ⊞ (((.k 102 5) ⊠ (.s 3)) ⊠ (.c 2))) ⊠ (.c 0))) ⊠ (.s 1)) ⊞ (((((.k 178 3) ⊠ (.s 3)) ⊠ (.s 0)) ⊟ (((.k 102 5) ⊠ (.c 3)) ⊠ (.c 0))) ⊠ (.c 1))) ⊞ ((((((.k 416 3) ⊠ (.c 3)) ⊟ (.k 1466 4)) ⊠ (.c 2)) ⊟ (((.k 102 5) ⊠ (.s 3)) ⊠ (.s 2))) ⊠ (.s 0))) ⊞ ((((.k 178 3) ⊠ (.c 3)) ⊠ (.s 2)) ⊠ (.c 0))⟩,
    ⟨0, 5, ((((((((((.k 1125 5) ⊠ (.s 3)) ⊟ ((.k 1466 4) ⊠ (.c 3))) ⊞ (.k 416 3)) ⊠ (.c 2)) ⊠ (.c 0)) ⊟ (((.k 178 3) ⊠ (.s 2)) ⊠ (.s 0))) ⊠ (.s 1)) ⊞ (((((.neg (.k 1466 4)) ⊠ (.s 3)) ⊟ ((.k 1125 5) ⊠ (.c 3))) ⊠ (.c 0)) ⊠ (.c 1))) ⊞ ((((((.neg (.k 1125 5)) ⊠ (.s 3)) ⊞ ((.k 1466 4) ⊠ (.c 3))) ⊟ (.k 416 3)) ⊠ (.s 2)) ⊠ (.s 0))) ⊞ (((.k 178 3) ⊠ (.c 2)) ⊠ (.c 0))⟩,
    ⟨1, 0, (((((.neg (.s 3)) ⊠ (.c 2)) ⊠ (.s 0)) ⊠ (.s 1)) ⊞ (((.c 3) ⊠ (.s 0)) ⊠ (.c 1))) ⊟ (((.s 3) ⊠ (.s 2)) ⊠ (.c 0))⟩,
    ⟨1, 1, (((((.neg (.c 3)) ⊠ (.c 2)) ⊠ (.s 0)) ⊠ (.s 1)) ⊟ (((.s 3) ⊠ (.s 0)) ⊠ (.c 1))) ⊟ (((.c 3) ⊠ (.s 2)) ⊠ (.c 0))⟩,
    ⟨1, 2, (((.s 2) ⊠ (.s 0)) ⊠ (.s 1)) ⊟ ((.c 2) ⊠ (.c 0))⟩,
    ⟨1, 3, ((((((((((.k 416 3) ⊠ (.s 3)) ⊞ (.k 1125 5)) ⊠ (.s 2)) ⊟ (((.k 102 5) ⊠ (.c 3)) ⊠ (.c 2))) ⊠ (.s 0)) ⊟ ((((.k 178 3) ⊠ (.s 3)) ⊠ (.c 2)) ⊠ (.c 0))) ⊠ (.s 1)) ⊞ (((((.k 178 3) ⊠ (.c 3)) ⊠ (.c 0)) ⊟ (((.k 102 5) ⊠ (.s 3)) ⊠ (.s 0))) ⊠ (.c 1))) ⊞ ((((.k 178 3) ⊠ (.s 3)) ⊠ (.s 2)) ⊠ (.s 0))) ⊞ ((((((.neg (.k 416 3)) ⊠ (.s 3)) ⊟ (.k 1125 5)) ⊠ (.c 2)) ⊟ (((.k 102 5) ⊠ (.c 3)) ⊠ (.s 2))) ⊠ (.c 0))⟩,
    ⟨1, 4, ((((((((((.k 416 3) ⊠ (.c 3)) ⊟ (.k 1466 4)) ⊠ (.s 2)) ⊞ (((.k 102 5) ⊠ (.s 3)) ⊠ (.c 2))) ⊠ (.s 0)) ⊟ ((((.k 178 3) ⊠ (.c 3)) ⊠ (.c 2)) ⊠ (.c 0))) ⊠ (.s 1)) ⊞ (((((.neg (.k 102 5)) ⊠ (.c 3)) ⊠ (.s 0)) ⊟ (((.k 178 3) ⊠ (.s 3)) ⊠ (.c 0))) ⊠ (.c 1))) ⊞ ((((.k 178 3) ⊠ (.c 3)) ⊠ (.s 2)) ⊠ (.s 0))) ⊞ (((((.k 102 5) ⊠ (.s 3)) ⊠ (.s 2)) ⊞ (((.k 1466 4) ⊟ ((.k 416 3) ⊠ (.c 3))) ⊠ (.c 2))) ⊠ (.c 0))⟩,
    ⟨1, 5, ((((((((((.k 1125 5) ⊠ (.s 3)) ⊟ ((.k 1466 4) ⊠ (.c 3))) ⊞ (.k 416 3)) ⊠ (.c 2)) ⊠ (.s 0)) ⊞ (((.k 178 3) ⊠ (.s 2)) ⊠ (.c 0))) ⊠ (.s 1)) ⊞ (((((.neg (.k 1466 4)) ⊠ (.s 3)) ⊟ ((.k 1125 5) ⊠ (.c 3))) ⊠ (.s 0)) ⊠ (.c 1))) ⊞ (((.k 178 3) ⊠ (.c 2)) ⊠ (.s 0))) ⊞ ((((((.k 1125 5) ⊠ (.s 3)) ⊟ ((.k 1466 4) ⊠ (.c 3))) ⊞ (.k 416 3)) ⊠ (.s 2)) ⊠ (.c 0))⟩,
    ⟨2, 0, ((.c 3) ⊠ (.s 1)) ⊞ (((.s 3) ⊠ (.c 2)) ⊠ (.c 1))⟩,
    ⟨2, 1, (((.c 3) ⊠ (.c 2)) ⊠ (.c 1)) ⊟ ((.s 3) ⊠ (.s 1))⟩,
    ⟨2, 2, (.neg (.s 2)) ⊠ (.c 1)⟩,
    ⟨2, 3, ((((((.neg (.k 416 3)) ⊠ (.s 3)) ⊟ (.k 1125 5)) ⊠ (.s 2)) ⊞ (((.k 102 5) ⊠ (.c 3)) ⊠ (.c 2))) ⊠ (.c 1)) ⊟ (((.k 102 5) ⊠ (.s 3)) ⊠ (.s 1))⟩,
    ⟨2, 4, (((((.k 1466 4) ⊟ ((.k 416 3) ⊠ (.c 3))) ⊠ (.s 2)) ⊟ (((.k 102 5) ⊠ (.s 3)) ⊠ (.c 2))) ⊠ (.c 1)) ⊟ (((.k 102 5) ⊠ (.c 3)) ⊠ (.s 1))⟩,
    ⟨2, 5, ((((.neg (.k 1466 4)) ⊠ (.s 3)) ⊟ ((.k 1125 5) ⊠ (.c 3))) ⊠ (.s 1)) ⊞ ((((((.neg (.k 1125 5)) ⊠ (.s 3)) ⊞ ((.k 1466 4) ⊠ (.c 3))) ⊟ (.k 416 3)) ⊠ (.c 2)) ⊠ (.c 1))⟩,
    ⟨3, 3, (((((.neg (.s 3)) ⊠ (.c 2)) ⊠ (.c 0)) ⊠ (.s 1)) ⊞ (((.c 3) ⊠ (.c 0)) ⊠ (.c 1))) ⊞ (((.s 3) ⊠ (.s 2)) ⊠ (.s 0))⟩,
    ⟨3, 4, (((((.neg (.c 3)) ⊠ (.c 2)) ⊠ (.c 0)) ⊠ (.s 1)) ⊟ (((.s 3) ⊠ (.c 0)) ⊠ (.c 1))) ⊞ (((.c 3) ⊠ (.s 2)) ⊠ (.s 0))⟩,
    ⟨3, 5, (((.s 2) ⊠ (.c 0)) ⊠ (.s 1)) ⊞ ((.c 2) ⊠ (.s 0))⟩,
    ⟨4, 3, (((((.neg (.s 3)) ⊠ (.c 2)) ⊠ (.s 0)) ⊠ (.s 1)) ⊞ (((.c 3) ⊠ (.s 0)) ⊠ (.c 1))) ⊟ (((.s 3) ⊠ (.s 2)) ⊠ (.c 0))⟩,
    ⟨4, 4, (((((.neg (.c 3)) ⊠ (.c 2)) ⊠ (.s 0)) ⊠ (.s 1)) ⊟ (((.s 3) ⊠ (.s 0)) ⊠ (.c 1))) ⊟ (((.c 3) ⊠ (.s 2)) ⊠ (.c 0))⟩,
    ⟨4, 5, (((.s 2) ⊠ (.s 0)) ⊠ (.s 1)) ⊟ ((.c 2) ⊠ (.c 0))⟩,
    ⟨5, 3, ((.c 3) ⊠ (.s 1)) ⊞ (((.s 3) ⊠ (.c 2)) ⊠ (.c 1))⟩,
    ⟨5, 4, (((.c 3) ⊠ (.c 2)) ⊠ (.c 1)) ⊟ ((.s 3) ⊠ (.s 1))⟩,
    ⟨5, 5, (.neg (.s 2)) ⊠ (.c 1)⟩]

/-- The transforms `fr_HyABase_X_fr_Elbow_FE_COM`. -/
def fr_HyABase_X_fr_Elbow_FE_COM : Trans := ⟨fr_HyABase, fr_Elbow_FE_COM, hom_fr_HyABase_X_fr_Elbow_FE_COM, motion_fr_HyABase_X_fr_Elbow_FE_COM, force_fr_HyABase_X_fr_Elbow_FE_COM⟩

/-- `HomogeneousTransforms::Type_fr_HyABase_X_fr_Wrist_R_COM` (transforms.impl.h:6319-6325, 6327-6363). -/
def hom_fr_HyABase_X_fr_Wrist_R_COM : Gen where
  rows := 4
  cols := 4
  ctor := [⟨3, 0, .k 0 0⟩,
    ⟨3, 1, .k 0 0⟩,
    ⟨3, 2, .k 0 0⟩,
    ⟨3, 3, .k 1 0⟩]
  upd := [⟨0, 0, (((((((.neg (.c 3)) ⊠ (.c 2)) ⊠ (.c 0)) ⊠ (.s 1)) ⊟ (((.s 3) ⊠ (.c 0)) ⊠ (.c 1))) ⊞ (((.c 3) ⊠ (.s 2)) ⊠ (.s 0))) ⊠ (.s 4)) ⊞ (((((.neg (.s 2)) ⊠ (.c 0)) ⊠ (.s 1)) ⊟ ((.c 2) ⊠ (.s 0))) ⊠ (.c 4))⟩,
    ⟨0, 1, ((((((.k 1 0) ⊠ (.s 2)) ⊠ (.c 0)) ⊠ (.s 1)) ⊞ ((.c 2) ⊠ (.s 0))) ⊠ (.s 4)) ⊞ (((((((.neg (.c 3)) ⊠ (.c 2)) ⊠ (.c 0)) ⊠ (.s 1)) ⊟ (((.s 3) ⊠ (.c 0)) ⊠ (.c 1))) ⊞ (((.c 3) ⊠ (.s 2)) ⊠ (.s 0))) ⊠ (.c 4))⟩,
    ⟨0, 2, (((((.neg (.s 3)) ⊠ (.c 2)) ⊠ (.c 0)) ⊠ (.s 1)) ⊞ (((.c 3) ⊠ (.c 0)) ⊠ (.c 1))) ⊞ (((.s 3) ⊠ (.s 2)) ⊠ (.s 0))⟩,
    ⟨0, 3, (((((((((((.neg (.k 261 5)) ⊠ (.s 2)) ⊟ (((.k 4 4) ⊠ (.c 3)) ⊠ (.c 2))) ⊠ (.c 0)) ⊠ (.s 1)) ⊟ ((((.k 4 4) ⊠ (.s 3)) ⊠ (.c 0)) ⊠ (.c 1))) ⊞ (((((.k 4 4) ⊠ (.c 3)) ⊠ (.s 2)) ⊟ ((.k 261 5) ⊠ (.c 2))) ⊠ (.s 0))) ⊠ (.s 4)) ⊞ (((((((((.k 261 5) ⊠ (.c 3)) ⊠ (.c 2)) ⊟ ((.k 4 4) ⊠ (.s 2))) ⊠ (.c 0)) ⊠ (.s 1)) ⊞ ((((.k 261 5) ⊠ (.s 3)) ⊠ (.c 0)) ⊠ (.c 1))) ⊞ (((((.neg (.k 261 5)) ⊠ (.c 3)) ⊠ (.s 2)) ⊟ ((.k 4 4) ⊠ (.c 2))) ⊠ (.s 0))) ⊠ (.c 4))) ⊟ (((((.k 8883 5) ⊠ (.s 3)) ⊠ (.c 2)) ⊠ (.c 0)) ⊠ (.s 1))) ⊞ (((((.k 8883 5) ⊠ (.c 3)) ⊞ (.k 416 3)) ⊠ (.c 0)) ⊠ (.c 1))) ⊞ ((((.k 8883 5) ⊠ (.s 3)) ⊠ (.s 2)) ⊠ (.s 0))⟩,
    ⟨1, 0, (((((((.neg (.c 3)) ⊠ (.c 2)) ⊠ (.s 0)) ⊠ (.s 1)) ⊟ (((.s 3) ⊠ (.s 0)) ⊠ (.c 1))) ⊟ (((.c 3) ⊠ (.s 2)) ⊠ (.c 0))) ⊠ (.s 4)) ⊞ (((((.k 1 0) ⊠ (.c 2)) ⊠ (.c 0)) ⊟ (((.s 2) ⊠ (.s 0)) ⊠ (.s 1))) ⊠ (.c 4))⟩,
    ⟨1, 1, ((((((.k 1 0) ⊠ (.s 2)) ⊠ (.s 0)) ⊠ (.s 1)) ⊟ ((.c 2) ⊠ (.c 0))) ⊠ (.s 4)) ⊞ (((((((.neg (.c 3)) ⊠ (.c 2)) ⊠ (.s 0)) ⊠ (.s 1)) ⊟ (((.s 3) ⊠ (.s 0)) ⊠ (.c 1))) ⊟ (((.c 3) ⊠ (.s 2)) ⊠ (.c 0))) ⊠ (.c 4))⟩,
    ⟨1, 2, (((((.neg (.s 3)) ⊠ (.c 2)) ⊠ (.s 0)) ⊠ (.s 1)) ⊞ (((.c 3) ⊠ (.s 0)) ⊠ (.c 1))) ⊟ (((.s 3) ⊠ (.s 2)) ⊠ (.c 0))⟩,
    ⟨1, 3, (((((((((((.neg (.k 261 5)) ⊠ (.s 2)) ⊟ (((.k 4 4) ⊠ (.c 3)) ⊠ (.c 2))) ⊠ (.s 0)) ⊠ (.s 1)) ⊟ ((((.k 4 4) ⊠ (.s 3)) ⊠ (.s 0)) ⊠ (.c 1))) ⊞ ((((.k 261 5) ⊠ (.c 2)) ⊟ (((.k 4 4) ⊠ (.c 3)) ⊠ (.s 2))) ⊠ (.c 0))) ⊠ (.s 4)) ⊞ (((((((((.k 261 5) ⊠ (.c 3)) ⊠ (.c 2)) ⊟ ((.k 4 4) ⊠ (.s 2))) ⊠ (.s 0)) ⊠ (.s 1)) ⊞ ((((.k 261 5) ⊠ (.s 3)) ⊠ (.s 0)) ⊠ (.c 1))) ⊞ (((((.k 261 5) ⊠ (.c 3)) ⊠ (.s 2)) ⊞ ((.k 4 4) ⊠ (.c 2))) ⊠ (.c 0))) ⊠ (.c 4))) ⊟ (((((.k 8883 5) ⊠ (.s 3)) ⊠ (.c 2)) ⊠ (.s 0)) ⊠ (.s 1))) ⊞ (((((.k 8883 5) ⊠ (.c 3)) ⊞ (.k 416 3)) ⊠ (.s 0)) ⊠ (.c 1))) ⊟ ((((.k 8883 5) ⊠ (.s 3)) ⊠ (.s 2)) ⊠ (.c 0))⟩,
    ⟨2, 0, ((((((.k 1 0) ⊠ (.c 3)) ⊠ (.c 2)) ⊠ (.c 1)) ⊟ ((.s 3) ⊠ (.s 1))) ⊠ (.s 4)) ⊞ (((.s 2) ⊠ (.c 1)) ⊠ (.c 4))⟩,
    ⟨2, 1, ((((((.k 1 0) ⊠ (.c 3)) ⊠ (.c 2)) ⊠ (.c 1)) ⊟ ((.s 3) ⊠ (.s 1))) ⊠ (.c 4)) ⊟ (((.s 2) ⊠ (.c 1)) ⊠ (.s 4))⟩,
    ⟨2, 2, ((.c 3) ⊠ (.s 1)) ⊞ (((.s 3) ⊠ (.c 2)) ⊠ (.c 1))⟩,
    ⟨2, 3, (((((((((.k 261 5) ⊠ (.s 2)) ⊞ (((.k 4 4) ⊠ (.c 3)) ⊠ (.c 2))) ⊠ (.c 1)) ⊟ (((.k 4 4) ⊠ (.s 3)) ⊠ (.s 1))) ⊠ (.s 4)) ⊞ (((((.k 261 5) ⊠ (.s 3)) ⊠ (.s 1)) ⊞ ((((.k 4 4) ⊠ (.s 2)) ⊟ (((.k 261 5) ⊠ (.c 3)) ⊠ (.c 2))) ⊠ (.c 1))) ⊠ (.c 4))) ⊞ ((((.k 8883 5) ⊠ (.c 3)) ⊞ (.k 416 3)) ⊠ (.s 1))) ⊞ ((((.k 8883 5) ⊠ (.s 3)) ⊠ (.c 2)) ⊠ (.c 1))) ⊞ (.k 178 3)⟩]

/-- `MotionTransforms::Type_fr_HyABase_X_fr_Wrist_R_COM` (transforms.impl.h:841-852, 854-905). -/
def motion_fr_HyABase_X_fr_Wrist_R_COM : Gen where
  rows := 6
  cols := 6
  ctor := [⟨0, 3, .k 0 0⟩,
    ⟨0, 4, .k 0 0⟩,
    ⟨0, 5, .k 0 0⟩,
    ⟨1, 3, .k 0 0⟩,
    ⟨1, 4, .k 0 0⟩,
    ⟨1, 5, .k 0 0⟩,
    ⟨2, 3, .k 0 0⟩,
    ⟨2, 4, .k 0 0⟩,
    ⟨2, 5, .k 0 0⟩]
  upd := [⟨0, 0, (((((((.neg (.c 3)) ⊠ (.c 2)) ⊠ (.c 0)) ⊠ (.s 1)) ⊟ (((.s 3) ⊠ (.c 0)) ⊠ (.c 1))) ⊞ (((.c 3) ⊠ (.s 2)) ⊠ (.s 0))) ⊠ (.s 4)) ⊞ (((((.neg (.s 2)) ⊠ (.c 0)) ⊠ (.s 1)) ⊟ ((.c 2) ⊠ (.s 0))) ⊠ (.c 4))⟩,
    ⟨0, 1, ((((((.k 1 0) ⊠ (.s 2)) ⊠ (.c 0)) ⊠ (.s 1)) ⊞ ((.c 2) ⊠ (.s 0))) ⊠ (.s 4)) ⊞ (((((((.neg (.c 3)) ⊠ (.c 2)) ⊠ (.c 0)) ⊠ (.s 1)) ⊟ (((.s 3) ⊠ (.c 0)) ⊠ (.c 1))) ⊞ (((.c 3) ⊠ (.s 2)) ⊠ (.s 0))) ⊠ (.c 4))⟩,
    ⟨0, 2, (((((.neg (.s 3)) ⊠ (.c 2)) ⊠ (.c 0)) ⊠ (.s 1)) ⊞ (((.c 3) ⊠ (.c 0)) ⊠ (.c 1))) ⊞ (((.s 3) ⊠ (.s 2)) ⊠ (.s 0))⟩,
    ⟨1, 0, (((((((.neg (.c 3)) ⊠ (.c 2)) ⊠ (.s 0)) ⊠ (.s 1)) ⊟ (((.s 3) ⊠ (.s 0)) ⊠ (.c 1))) ⊟ (((.c 3) ⊠ (.s 2)) ⊠ (.c 0))) ⊠ (.s 4)) ⊞ (((((.k 1 0) ⊠ (.c 2)) ⊠ (.c 0)) ⊟ (((.s 2) ⊠ (.s 0)) ⊠ (.s 1))) ⊠ (.c 4))⟩,
    ⟨1, 1, ((((((.k 1 0) ⊠ (.s 2)) ⊠ (.s 0)) ⊠ (.s 1)) ⊟ ((.c 2) ⊠ (.c 0))) ⊠ (.s 4)) ⊞ (((((((.neg (.c 3)) ⊠ (.c 2)) ⊠ (.s 0)) ⊠ (.s 1)) ⊟ (((.s 3) ⊠ (.s 0)) ⊠ (.c 1))) ⊟ (((.c 3) ⊠ (.s 2)) ⊠ (.c 0))) ⊠ (.c 4))⟩,
    ⟨1, 2, (((((.neg (.s 3)) ⊠ (.c 2)) ⊠ (.s 0)) ⊠ (.s 1)) ⊞ (((.c 3) ⊠ (.s 0)) ⊠ (.c 1))) ⊟ (((.s 3) ⊠ (.s 2)) ⊠ (.c 0))⟩,
    ⟨2, 0, ((((((.k 1 0) ⊠ (.c 3)) ⊠ (.c 2)) ⊠ (.c 1)) ⊟ ((.s 3) ⊠ (.s 1))) ⊠ (.s 4)) ⊞ (((.s 2) ⊠ (.c 1)) ⊠ (.c 4))⟩,
    ⟨2, 1, ((((((.k 1 0) ⊠ (.c 3)) ⊠ (.c 2)) ⊠ (.c 1)) ⊟ ((.s 3) ⊠ (.s 1))) ⊠ (.c 4)) ⊟ (((.s 2) ⊠ (.c 1)) ⊠ (.s 4))⟩,
    ⟨2, 2, ((.c 3) ⊠ (.s 1)) ⊞ (((.s 3) ⊠ (.c 2)) ⊠ (.c 1))⟩,
    ⟨3, 0, (((((((((((((.k 178 3) ⊠ (.c 3)) ⊠ (.c 2)) ⊠ (.s 0)) ⊞ (((((.k 416 3) ⊠ (.c 3)) ⊞ (.k 8883 5)) ⊠ (.s 2)) ⊠ (.c 0))) ⊠ (.s 1)) ⊞ ((((.k 178 3) ⊠ (.s 3)) ⊠ (.s 0)) ⊠ (.c 1))) ⊞ (((((.k 416 3) ⊠ (.c 3)) ⊞ (.k 8883 5)) ⊠ (.c 2)) ⊠ (.s 0))) ⊞ ((((.k 178 3) ⊠ (.c 3)) ⊠ (.s 2)) ⊠ (.c 0))) ⊠ (.s 4)) ⊞ (((((((((.k 178 3) ⊠ (.s 2)) ⊠ (.s 0)) ⊞ (((((.neg (.k 8883 5)) ⊠ (.c 3)) ⊟ (.k 416 3)) ⊠ (.c 2)) ⊠ (.c 0))) ⊠ (.s 1)) ⊟ ((((.k 8883 5) ⊠ (.s 3)) ⊠ (.c 0)) ⊠ (.c 1))) ⊞ (((((.k 8883 5) ⊠ (.c 3)) ⊞ (.k 416 3)) ⊠ (.s 2)) ⊠ (.s 0))) ⊟ (((.k 178 3) ⊠ (.c 2)) ⊠ (.c 0))) ⊠ (.c 4))) ⊟ (((((.k 261 5) ⊠ (.s 3)) ⊠ (.c 2)) ⊠ (.c 0)) ⊠ (.s 1))) ⊞ ((((.k 261 5) ⊠ (.c 3)) ⊠ (.c 0)) ⊠ (.c 1))) ⊞ ((((.k 261 5) ⊠ (.s 3)) ⊠ (.s 2)) ⊠ (.s 0))⟩,
    ⟨3, 1, ((((((((((((((.k 8883 5) ⊠ (.c 3)) ⊞ (.k 416 3)) ⊠ (.c 2)) ⊠ (.c 0)) ⊟ (((.k 178 3) ⊠ (.s 2)) ⊠ (.s 0))) ⊠ (.s 1)) ⊞ ((((.k 8883 5) ⊠ (.s 3)) ⊠ (.c 0)) ⊠ (.c 1))) ⊞ (((((.neg (.k 8883 5)) ⊠ (.c 3)) ⊟ (.k 416 3)) ⊠ (.s 2)) ⊠ (.s 0))) ⊞ (((.k 178 3) ⊠ (.c 2)) ⊠ (.c 0))) ⊠ (.s 4)) ⊞ ((((((((((.k 178 3) ⊠ (.c 3)) ⊠ (.c 2)) ⊠ (.s 0)) ⊞ (((((.k 416 3) ⊠ (.c 3)) ⊞ (.k 8883 5)) ⊠ (.s 2)) ⊠ (.c 0))) ⊠ (.s 1)) ⊞ ((((.k 178 3) ⊠ (.s 3)) ⊠ (.s 0)) ⊠ (.c 1))) ⊞ (((((.k 416 3) ⊠ (.c 3)) ⊞ (.k 8883 5)) ⊠ (.c 2)) ⊠ (.s 0))) ⊞ ((((.k 178 3) ⊠ (.c 3)) ⊠ (.s 2)) ⊠ (.c 0))) ⊠ (.c 4))) ⊟ (((((.k 4 4) ⊠ (.s 3)) ⊠ (.c 2)) ⊠ (.c 0)) ⊠ (.s 1))) ⊞ ((((.k 4 4) ⊠ (.c 3)) ⊠ (.c 0)) ⊠ (.c 1))) ⊞ ((((.k 4 4) ⊠ (.s 3)) ⊠ (.s 2)) ⊠ (.s 0))⟩,
    ⟨3, 2, (((((((((((((.k 261 5) ⊠ (.c 3)) ⊠ (.c 2)) ⊟ ((.k 4 4) ⊠ (.s 2))) ⊠ (.c 0)) ⊠ (.s 1)) ⊞ ((((.k 261 5) ⊠ (.s 3)) ⊠ (.c 0)) ⊠ (.c 1))) ⊞ (((((.neg (.k 261 5)) ⊠ (.c 3)) ⊠ (.s 2)) ⊟ ((.k 4 4) ⊠ (.c 2))) ⊠ (.s 0))) ⊠ (.s 4)) ⊞ ((((((((.k 261 5) ⊠ (.s 2)) ⊞ (((.k 4 4) ⊠ (.c 3)) ⊠ (.c 2))) ⊠ (.c 0)) ⊠ (.s 1)) ⊞ ((((.k 4 4) ⊠ (.s 3)) ⊠ (.c 0)) ⊠ (.c 1))) ⊞ ((((.k 261 5) ⊠ (.c 2)) ⊟ (((.k 4 4) ⊠ (.c 3)) ⊠ (.s 2))) ⊠ (.s 0))) ⊠ (.c 4))) ⊞ ((((((.k 178 3) ⊠ (.s 3)) ⊠ (.c 2)) ⊠ (.s 0)) ⊞ ((((.k 416 3) ⊠ (.s 3)) ⊠ (.s 2)) ⊠ (.c 0))) ⊠ (.s 1))) ⊟ ((((.k 178 3) ⊠ (.c 3)) ⊠ (.s 0)) ⊠ (.c 1))) ⊞ ((((.k 416 3) ⊠ (.s 3)) ⊠ (.c 2)) ⊠ (.s 0))) ⊞ ((((.k 178 3) ⊠ (.s 3)) ⊠ (.s 2)) ⊠ (.c 0))⟩,
    ⟨3, 3, (((((((.neg (.c 3)) ⊠ (.c 2)) ⊠ (.c 0)) ⊠ (.s 1)) ⊟ (((.s 3) ⊠ (.c 0)) ⊠ (.c 1))) ⊞ (((.c 3) ⊠ (.s 2)) ⊠ (.s 0))) ⊠ (.s 4)) ⊞ (((((.neg (.s 2)) ⊠ (.c 0)) ⊠ (.s 1)) ⊟ ((.c 2) ⊠ (.s 0))) ⊠ (.c 4))⟩,
    ⟨3, 4, ((((((.k 1 0) ⊠ (.s 2)) ⊠ (.c 0)) ⊠ (.s 1)) ⊞ ((.c 2) ⊠ (.s 0))) ⊠ (.s 4)) ⊞ (((((((.neg (.c 3)) ⊠ (.c 2)) ⊠ (.c 0)) ⊠ (.s 1)) ⊟ (((.s 3) ⊠ (.c 0)) ⊠ (.c 1))) ⊞ (((.c 3) ⊠ (.s 2)) ⊠ (.s 0))) ⊠ (.c 4))⟩,
    ⟨3, 5, (((((.neg (.s 3)) ⊠ (.c 2)) ⊠ (.c 0)) ⊠ (.s 1)) ⊞ (((.c 3) ⊠ (.c 0)) ⊠ (.c 1))) ⊞ (((.s 3) ⊠ (.s 2)) ⊠ (.s 0))⟩,
    ⟨4, 0, ((((((((((((((.k 416 3) ⊠ (.c 3)) ⊞ (.k 8883 5)) ⊠ (.s 2)) ⊠ (.s 0)) ⊟ ((((.k 178 3) ⊠ (.c 3)) ⊠ (.c 2)) ⊠ (.c 0))) ⊠ (.s 1)) ⊟ ((((.k 178 3) ⊠ (.s 3)) ⊠ (.c 0)) ⊠ (.c 1))) ⊞ ((((.k 178 3) ⊠ (.c 3)) ⊠ (.s 2)) ⊠ (.s 0))) ⊞ (((((.neg (.k 416 3)) ⊠ (.c 3)) ⊟ (.k 8883 5)) ⊠ (.c 2)) ⊠ (.c 0))) ⊠ (.s 4)) ⊞ (((((((((((.neg (.k 8883 5)) ⊠ (.c 3)) ⊟ (.k 416 3)) ⊠ (.c 2)) ⊠ (.s 0)) ⊟ (((.k 178 3) ⊠ (.s 2)) ⊠ (.c 0))) ⊠ (.s 1)) ⊟ ((((.k 8883 5) ⊠ (.s 3)) ⊠ (.s 0)) ⊠ (.c 1))) ⊟ (((.k 178 3) ⊠ (.c 2)) ⊠ (.s 0))) ⊞ (((((.neg (.k 8883 5)) ⊠ (.c 3)) ⊟ (.k 416 3)) ⊠ (.s 2)) ⊠ (.c 0))) ⊠ (.c 4))) ⊟ (((((.k 261 5) ⊠ (.s 3)) ⊠ (.c 2)) ⊠ (.s 0)) ⊠ (.s 1))) ⊞ ((((.k 261 5) ⊠ (.c 3)) ⊠ (.s 0)) ⊠ (.c 1))) ⊟ ((((.k 261 5) ⊠ (.s 3)) ⊠ (.s 2)) ⊠ (.c 0))⟩,
    ⟨4, 1, ((((((((((((((.k 8883 5) ⊠ (.c 3)) ⊞ (.k 416 3)) ⊠ (.c 2)) ⊠ (.s 0)) ⊞ (((.k 178 3) ⊠ (.s 2)) ⊠ (.c 0))) ⊠ (.s 1)) ⊞ ((((.k 8883 5) ⊠ (.s 3)) ⊠ (.s 0)) ⊠ (.c 1))) ⊞ (((.k 178 3) ⊠ (.c 2)) ⊠ (.s 0))) ⊞ (((((.k 8883 5) ⊠ (.c 3)) ⊞ (.k 416 3)) ⊠ (.s 2)) ⊠ (.c 0))) ⊠ (.s 4)) ⊞ (((((((((((.k 416 3) ⊠ (.c 3)) ⊞ (.k 8883 5)) ⊠ (.s 2)) ⊠ (.s 0)) ⊟ ((((.k 178 3) ⊠ (.c 3)) ⊠ (.c 2)) ⊠ (.c 0))) ⊠ (.s 1)) ⊟ ((((.k 178 3) ⊠ (.s 3)) ⊠ (.c 0)) ⊠ (.c 1))) ⊞ ((((.k 178 3) ⊠ (.c 3)) ⊠ (.s 2)) ⊠ (.s 0))) ⊞ (((((.neg (.k 416 3)) ⊠ (.c 3)) ⊟ (.k 8883 5)) ⊠ (.c 2)) ⊠ (.c 0))) ⊠ (.c 4))) ⊟ (((((.k 4 4) ⊠ (.s 3)) ⊠ (.c 2)) ⊠ (.s 0)) ⊠ (.s 1))) ⊞ ((((.k 4 4) ⊠ (.c 3)) ⊠ (.s 0)) ⊠ (.c 1))) ⊟ ((((.k 4 4) ⊠ (.s 3)) ⊠ (.s 2)) ⊠ (.c 0))⟩,
    ⟨4, 2, (((((((((((((.k 261 5) ⊠ (.c 3)) ⊠ (.c 2)) ⊟ ((.k 4 4) ⊠ (.s 2))) ⊠ (.s 0)) ⊠ (.s 1)) ⊞ ((((.k 261 5) ⊠ (.s 3)) ⊠ (.s 0)) ⊠ (.c 1))) ⊞ (((((.k 261 5) ⊠ (.c 3)) ⊠ (.s 2)) ⊞ ((.k 4 4) ⊠ (.c 2))) ⊠ (.c 0))) ⊠ (.s 4)) ⊞ ((((((((.k 261 5) ⊠ (.s 2)) ⊞ (((.k 4 4) ⊠ (.c 3)) ⊠ (.c 2))) ⊠ (.s 0)) ⊠ (.s 1)) ⊞ ((((.k 4 4) ⊠ (.s 3)) ⊠ (.s 0)) ⊠ (.c 1))) ⊞ (((((.k 4 4) ⊠ (.c 3)) ⊠ (.s 2)) ⊟ ((.k 261 5) ⊠ (.c 2))) ⊠ (.c 0))) ⊠ (.c 4))) ⊞ ((((((.k 416 3) ⊠ (.s 3)) ⊠ (.s 2)) ⊠ (.s 0)) ⊟ ((((.k 178 3) ⊠ (.s 3)) ⊠ (.c 2)) ⊠ (.c 0))) ⊠ (.s 1))) ⊞ ((((.k 178 3) ⊠ (.c 3)) ⊠ (.c 0)) ⊠ (.c 1))) ⊞ ((((.k 178 3) ⊠ (.s 3)) ⊠ (.s 2)) ⊠ (.s 0))) ⊟ ((((.k 416 3) ⊠ (.s 3)) ⊠ (.c 2)) ⊠ (.c 0))⟩,
    ⟨4, 3, (((((((.neg (.c 3)) ⊠ (.c 2)) ⊠ (.s 0)) ⊠ (.s 1)) ⊟ (((.s 3) ⊠ (.s 0)) ⊠ (.c 1))) ⊟ (((.c 3) ⊠ (.s 2)) ⊠ (.c 0))) ⊠ (.s 4)) ⊞ (((((.k 1 0) ⊠ (.c 2)) ⊠ (.c 0)) ⊟ (((.s 2) ⊠ (.s 0)) ⊠ (.s 1))) ⊠ (.c 4))⟩,
    ⟨4, 4, ((((((.k 1 0) ⊠ (.s 2)) ⊠ (.s 0)) ⊠ (.s 1)) ⊟ ((.c 2) ⊠ (.c 0))) ⊠ (.s 4)) ⊞ (((((((.neg (.c 3)) ⊠ (.c 2)) ⊠ (.s 0)) ⊠ (.s 1)) ⊟ (((.s 3) ⊠ (.s 0)) ⊠ (.c 1))) ⊟ (((.c 3) ⊠ (.s 2)) ⊠ (.c 0))) ⊠ (.c 4))⟩,
    ⟨4, 5, (((((.neg (.s 3)) ⊠ (.c 2)) ⊠ (.s 0)) ⊠ (.s 1)) ⊞ (((.c 3) ⊠ (.s 0)) ⊠ (.c 1))) ⊟ (((.s 3) ⊠ (.s 2)) ⊠ (.c 0))⟩,
    ⟨5, 0, ((((((((.neg (.k 416 3)) ⊠ (.c 3)) ⊟ (.k 8883 5)) ⊠ (.s 2)) ⊠ (.c 1)) ⊠ (.s 4)) ⊞ (((((((.k 8883 5) ⊠ (.c 3)) ⊞ (.k 416 3)) ⊠ (.c 2)) ⊠ (.c 1)) ⊟ (((.k 8883 5) ⊠ (.s 3)) ⊠ (.s 1))) ⊠ (.c 4))) ⊞ (((.k 261 5) ⊠ (.c 3)) ⊠ (.s 1))) ⊞ ((((.k 261 5) ⊠ (.s 3)) ⊠ (.c 2)) ⊠ (.c 1))⟩,
    ⟨5, 1, (((((((.k 8883 5) ⊠ (.s 3)) ⊠ (.s 1)) ⊞ (((((.neg (.k 8883 5)) ⊠ (.c 3)) ⊟ (.k 416 3)) ⊠ (.c 2)) ⊠ (.c 1))) ⊠ (.s 4)) ⊞ ((((((.neg (.k 416 3)) ⊠ (.c 3)) ⊟ (.k 8883 5)) ⊠ (.s 2)) ⊠ (.c 1)) ⊠ (.c 4))) ⊞ (((.k 4 4) ⊠ (.c 3)) ⊠ (.s 1))) ⊞ ((((.k 4 4) ⊠ (.s 3)) ⊠ (.c 2)) ⊠ (.c 1))⟩,
    ⟨5, 2, ((((((.k 261 5) ⊠ (.s 3)) ⊠ (.s 1)) ⊞ ((((.k 4 4) ⊠ (.s 2)) ⊟ (((.k 261 5) ⊠ (.c 3)) ⊠ (.c 2))) ⊠ (.c 1))) ⊠ (.s 4)) ⊞ (((((.k 4 4) ⊠ (.s 3)) ⊠ (.s 1)) ⊞ ((((.neg (.k 261 5)) ⊠ (.s 2)) ⊟ (((.k 4 4) ⊠ (.c 3)) ⊠ (.c 2))) ⊠ (.c 1))) ⊠ (.c 4))) ⊟ ((((.k 416 3) ⊠ (.s 3)) ⊠ (.s 2)) ⊠ (.c 1))⟩,
    ⟨5, 3, ((((((.k 1 0) ⊠ (.c 3)) ⊠ (.c 2)) ⊠ (.c 1)) ⊟ ((.s 3) ⊠ (.s 1))) ⊠ (.s 4)) ⊞ (((.s 2) ⊠ (.c 1)) ⊠ (.c 4))⟩,
    ⟨5, 4, ((((((.k 1 0) ⊠ (.c 3)) ⊠ (.c 2)) ⊠ (.c 1)) ⊟ ((.s 3) ⊠ (.s 1))) ⊠ (.c 4)) ⊟ (((.s 2) ⊠ (.c 1)) ⊠ (.s 4))⟩,
    ⟨5, 5, ((.c 3) ⊠ (.s 1)) ⊞ (((.s 3) ⊠ (.c 2)) ⊠ (.c 1))⟩]

/-- `ForceTransforms::Type_fr_HyABase_X_fr_Wrist_R_COM` (transforms.impl.h:3690-3701, 3703-3754). -/
def force_fr_HyABase_X_fr_Wrist_R_COM : Gen where
  rows := 6
  cols := 6
  ctor := [⟨3, 0, .k 0 0⟩,
    ⟨3, 1, .k 0 0⟩,
    ⟨3, 2, .k 0 0⟩,
    ⟨4, 0, .k 0 0⟩,
    ⟨4, 1, .k 0 0⟩,
    ⟨4, 2, .k 0 0⟩,
    ⟨5, 0, .k 0 0⟩,
    ⟨5, 1, .k 0 0⟩,
    ⟨5, 2, .k 0 0⟩]
  upd := [⟨0, 0, (((((((.neg (.c 3)) ⊠ (.c 2)) ⊠ (.c 0)) ⊠ (.s 1)) ⊟ (((.s 3) ⊠ (.c 0)) ⊠ (.c 1))) ⊞ (((.c 3) ⊠ (.s 2)) ⊠ (.s 0))) ⊠ (.s 4)) ⊞ (((((.neg (.s 2)) ⊠ (.c 0)) ⊠ (.s 1)) ⊟ ((.c 2) ⊠ (.s 0))) ⊠ (.c 4))⟩,
    ⟨0, 1, ((((((.k 1 0) ⊠ (.s 2)) ⊠ (.c 0)) ⊠ (.s 1)) ⊞ ((.c 2) ⊠ (.s 0))) ⊠ (.s 4)) ⊞ (((((((.neg (.c 3)) ⊠ (.c 2)) ⊠ (.c 0)) ⊠ (.s 1)) ⊟ (((.s 3) ⊠ (.c 0)) ⊠ (.c 1))) ⊞ (((.c 3) ⊠ (.s 2)) ⊠ (.s 0))) ⊠ (.c 4))⟩,
    ⟨0, 2, (((((.neg (.s 3)) ⊠ (.c 2)) ⊠ (.c 0)) ⊠ (.s 1)) ⊞ (((.c 3) ⊠ (.c 0)) ⊠ (.c 1))) ⊞ (((.s 3) ⊠ (.s 2)) ⊠ (.s 0))⟩,
    ⟨0, 3, (((((((((((((.k 178 3) ⊠ (.c 3)) ⊠ (.c 2)) ⊠ (.s 0)) ⊞ (((((.k 416 3) ⊠ (.c 3)) ⊞ (.k 8883 5)) ⊠ (.s 2)) ⊠ (.c 0))) ⊠ (.s 1)) ⊞ ((((.k 178 3) ⊠ (.s 3)) ⊠ (.s 0)) ⊠ (.c 1))) ⊞ (((((.k 416 3) ⊠ (.c 3)) ⊞ (.k 8883 5)) ⊠ (.c 2)) ⊠ (.s 0))) ⊞ ((((.k 178 3) ⊠ (.c 3)) ⊠ (.s 2)) ⊠ (.c 0))) ⊠ (.s 4)) ⊞ (((((((((.k 178 3) ⊠ (.s 2)) ⊠ (.s 0)) ⊞ (((((.neg (.k 8883 5)) ⊠ (.c 3)) ⊟ (.k 416 3)) ⊠ (.c 2)) ⊠ (.c 0))) ⊠ (.s 1)) ⊟ ((((.k 8883 5) ⊠ (.s 3)) ⊠ (.c 0)) ⊠ (.c 1))) ⊞ (((((.k 8883 5) ⊠ (.c 3)) ⊞ (.k 416 3)) ⊠ (.s 2)) ⊠ (.s 0))) ⊟ (((.k 178 3) ⊠ (.c 2)) ⊠ (.c 0))) ⊠ (.c 4))) ⊟ (((((.k 261 5) ⊠ (.s 3)) ⊠ (.c 2)) ⊠ (.c 0)) ⊠ (.s 1))) ⊞ ((((.k 261 5) ⊠ (.c 3)) ⊠ (.c 0)) ⊠ (.c 1))) ⊞ ((((.k 261 5) ⊠ (.s 3)) ⊠ (.s 2)) ⊠ (.s 0))⟩,
    ⟨0, 4, ((((((((((((((.k 8883 5) ⊠ (.c 3)) ⊞ (.k 416 3)) ⊠ (.c 2)) ⊠ (.c 0)) ⊟ (((.k 178 3) ⊠ (.s 2)) ⊠ (.s 0))) ⊠ (.s 1)) ⊞ ((((.k 8883 5) ⊠ (.s 3)) ⊠ (.c 0)) ⊠ (.c 1))) ⊞ (((((.neg (.k 8883 5)) ⊠ (.c 3)) ⊟ (.k 416 3)) ⊠ (.s 2)) ⊠ (.s 0))) ⊞ (((.k 178 3) ⊠ (.c 2)) ⊠ (.c 0))) ⊠ (.s 4)) ⊞ ((((((((((.k 178 3) ⊠ (.c 3)) ⊠ (.c 2)) ⊠ (.s 0)) ⊞ (((((.k 416 3) ⊠ (.c 3)) ⊞ (.k 8883 5)) ⊠ (.s 2)) ⊠ (.c 0))) ⊠ (.s 1)) ⊞ ((((.k 178 3) ⊠ (.s 3)) ⊠ (.s 0)) ⊠ (.c 1))) ⊞ (((((.k 416 3) ⊠ (.c 3)) ⊞ (.k 8883 5)) ⊠ (.c 2)) ⊠ (.s 0))) ⊞ ((((.k 178 3) ⊠ (.c 3)) ⊠ (.s 2)) ⊠ (.c 0))) ⊠ (.c 4))) ⊟ (((((.k 4 4) ⊠ (.s 3)) ⊠ (.c 2)) ⊠ (.c 0)) ⊠ (.s 1))) ⊞ ((((.k 4 4) ⊠ (.c 3)) ⊠ (.c 0)) ⊠ (.c 1))) ⊞ ((((.k 4 4) ⊠ (.s 3)) ⊠ (.s 2)) ⊠ (.s 0))⟩,
    ⟨0, 5, (((((((((((((.k 261 5) ⊠ (.c 3)) ⊠ (.c 2)) ⊟ ((.k 4 4) ⊠ (.s 2))) ⊠ (.c 0)) ⊠ (.s 1)) ⊞ ((((.k 261 5) ⊠ (.s 3)) ⊠ (.c 0)) ⊠ (.c 1))) ⊞ (((((.neg (.k 261 5)) ⊠ (.c 3)) ⊠ (.s 2)) ⊟ ((.k 4 4) ⊠ (.c 2))) ⊠ (.s 0))) ⊠ (.s 4)) ⊞ ((((((((.k 261 5) ⊠ (.s 2)) ⊞ (((.k 4 4) ⊠ (.c 3)) ⊠ (.c 2))) ⊠ (.c 0)) ⊠ (.s 1)) ⊞ ((((.k 4 4) ⊠ (.s 3)) ⊠ (.c 0)) ⊠ (.c 1))) ⊞ ((((.k 261 5) ⊠ (.c 2)) ⊟ (((.k 4 4) ⊠ (.c 3)) ⊠ (.s 2))) ⊠ (.s 0))) ⊠ (.c 4))) ⊞ ((((((.k 178 3) ⊠ (.s 3)) ⊠ (.c 2)) ⊠ (.s 0)) ⊞ ((((.k 416 3) ⊠ (.s 3)) ⊠ (.s 2)) ⊠ (.c 0))) ⊠ (.s 1))) ⊟ ((((.k 178 3) ⊠ (.c 3)) ⊠ (.s 0)) ⊠ (.c 1))) ⊞ ((((.k 416 3) ⊠ (.s 3)) ⊠ (.c 2)) ⊠ (.s 0))) ⊞ ((((.k 178 3) ⊠ (.s 3)) ⊠ (.s 2)) ⊠ (.c 0))⟩,
    ⟨1, 0, (((((((.neg (.c 3)) ⊠ (.c 2)) ⊠ (.s 0)) ⊠ (.s 1)) ⊟ (((.s 3) ⊠ (.s 0)) ⊠ (.c 1))) ⊟ (((.c 3) ⊠ (.s 2)) ⊠ (.c 0))) ⊠ (.s 4)) ⊞ (((((.k 1 0) ⊠ (.c 2)) ⊠ (.c 0)) ⊟ (((.s 2) ⊠ (.s 0)) ⊠ (.s 1))) ⊠ (.c 4))⟩,
    ⟨1, 1, ((((((.k 1 0) ⊠ (.s 2)) ⊠ (.s 0)) ⊠ (.s 1)) ⊟ ((.c 2) ⊠ (.c 0))) ⊠ (.s 4)) ⊞ (((((((.neg (.c 3)) ⊠ (.c 2)) ⊠ (.s 0)) ⊠ (.s 1)) ⊟ (((.s 3) ⊠ (.s 0)) ⊠ (.c 1))) ⊟ (((.c 3) ⊠ (.s 2)) ⊠ (.c 0))) ⊠ (.c 4))⟩,
    ⟨1, 2, (((((.neg (.s 3)) ⊠ (.c 2)) ⊠ (.s 0)) ⊠ (.s 1)) ⊞ (((.c 3) ⊠ (.s 0)) ⊠ (.c 1))) ⊟ (((.s 3) ⊠ (.s 2)) ⊠ (.c 0))⟩,
    ⟨1, 3, ((((((((((((((.k 416 3) ⊠ (.c 3)) ⊞ (.k 8883 5)) ⊠ (.s 2)) ⊠ (.s 0)) ⊟ ((((.k 178 3) ⊠ (.c 3)) ⊠ (.c 2)) ⊠ (.c 0))) ⊠ (.s 1)) ⊟ ((((.k 178 3) ⊠ (.s 3)) ⊠ (.c 0)) ⊠ (.c 1))) ⊞ ((((.k 178 3) ⊠ (.c 3)) ⊠ (.s 2)) ⊠ (.s 0))) ⊞ (((((.neg (.k 416 3)) ⊠ (.c 3)) ⊟ (.k 8883 5)) ⊠ (.c 2)) ⊠ (.c 0))) ⊠ (.s 4)) ⊞ (((((((((((.neg (.k 8883 5)) ⊠ (.c 3)) ⊟ (.k 416 3)) ⊠ (.c 2)) ⊠ (.s 0)) ⊟ (((.k 178 3) ⊠ (.s 2)) ⊠ (.c 0))) ⊠ (.s 1)) ⊟ ((((.k 8883 5) ⊠ (.s 3)) ⊠ (.s 0)) ⊠ (.c 1))) ⊟ (((.k 178 3) ⊠ (.c 2)) ⊠ (.s 0))) ⊞ (((((.neg (.k 8883 5)) ⊠ (.c 3)) ⊟ (.k 416 3)) ⊠ (.s 2)) ⊠ (.c 0))) ⊠ (.c 4))) ⊟ (((((.k 261 5) ⊠ (.s 3)) ⊠ (.c 2)) ⊠ (.s 0)) ⊠ (.s 1))) ⊞ ((((.k 261 5) ⊠ (.c 3)) ⊠ (.s 0)) ⊠ (.c 1))) ⊟ ((((.k 261 5) ⊠ (.s 3)) ⊠ (.s 2)) ⊠ (.c 0))⟩,
    ⟨1, 4, ((((((((((((((.k 8883 5) ⊠ (.c 3)) ⊞ (.k 416 3)) ⊠ (.c 2)) ⊠ (.s 0)) ⊞ (((.k 178 3) ⊠ (.s 2)) ⊠ (.c 0))) ⊠ (.s 1)) ⊞ ((((.k 8883 5) ⊠ (.s 3)) ⊠ (.s 0)) ⊠ (.c 1))) ⊞ (((.k 178 3) ⊠ (.c 2)) ⊠ (.s 0))) ⊞ (((((.k 8883 5) ⊠ (.c 3)) ⊞ (.k 416 3)) ⊠ (.s 2)) ⊠ (.c 0))) ⊠ (.s 4)) ⊞ (((((((((((.k 416 3) ⊠ (.c 3)) ⊞ (.k 8883 5)) ⊠ (.s 2)) ⊠ (.s 0)) ⊟ ((((.k 178 3) ⊠ (.c 3)) ⊠ (.c 2)) ⊠ (.c 0))) ⊠ (.s 1)) ⊟ ((((.k 178 3) ⊠ (.s 3)) ⊠ (.c 0)) ⊠ (.c 1))) ⊞ ((((.k 178 3) ⊠ (.c 3)) ⊠ (.s 2)) ⊠ (.s 0))) ⊞ (((((.neg (.k 416 3)) ⊠ (.c 3)) ⊟ (.k 8883 5)) ⊠ (.c 2)) ⊠ (.c 0))) ⊠ (.c 4))) ⊟ (((((.k 4 4) ⊠ (.s 3)) ⊠ (.c 2)) ⊠ (.s 0)) ⊠ (.s 1))) ⊞ ((((.k 4 4) ⊠ (.c 3)) ⊠ (.s 0)) ⊠ (.c 1))) ⊟ ((((.k 4 4) ⊠ (.s 3)) ⊠ (.s 2)) ⊠ (.c 0))⟩,
    ⟨1, 5, (((((((((((((.k 261 5) ⊠ (.c 3)) ⊠ (.c 2)) ⊟ ((.k 4 4) ⊠ (.s 2))) ⊠ (.s 0)) ⊠ (.s 1)) ⊞ ((((.k 261 5) ⊠ (.s 3)) ⊠ (.s 0)) ⊠ (.c 1))) ⊞ (((((.k 261 5) ⊠ (.c 3)) ⊠ (.s 2)) ⊞ ((.k 4 4) ⊠ (.c 2))) ⊠ (.c 0))) ⊠ (.s 4)) ⊞ ((((((((.k 261 5) ⊠ (.s 2)) ⊞ (((.k 4 4) ⊠ (.c 3)) ⊠ (.c 2))) ⊠ (.s 0)) ⊠ (.s 1)) ⊞ ((((.k 4 4) ⊠ (.s 3)) ⊠ (.s 0)) ⊠ (.c 1))) ⊞ (((((.k 4 4) ⊠ (.c 3)) ⊠ (.s 2)) ⊟ ((.k 261 5) ⊠ (.c 2))) ⊠ (.c 0))) ⊠ (.c 4))) ⊞ ((((((.k 416 3) ⊠ (.s 3)) ⊠ (.s 2)) ⊠ (.s 0)) ⊟ ((((.k 178 3) ⊠ (.s 3)) ⊠ (.c 2)) ⊠ (.c 0))) ⊠ (.s 1))) ⊞ ((((.k 178 3) ⊠ (.c 3)) ⊠ (.c 0)) ⊠ (.c 1))) ⊞ ((((.k 178 3) ⊠ (.s 3)) ⊠ (.s 2)) ⊠ (.s 0))) ⊟ ((((.k 416 3) ⊠ (.s 3)) ⊠ (.c 2)) ⊠ (.c 0))⟩,
    ⟨2, 0, ((((((.k 1 0) ⊠ (.c 3)) ⊠ (.c 2)) ⊠ (.c 1)) ⊟ ((.s 3) ⊠ (.s 1))) ⊠ (.s 4)) ⊞ (((.s 2) ⊠ (.c 1)) ⊠ (.c 4))⟩,
    ⟨2, 1, ((((((.k 1 0) ⊠ (.c 3)) ⊠ (.c 2)) ⊠ (.c 1)) ⊟ ((.s 3) ⊠ (.s 1))) ⊠ (.c 4)) ⊟ (((.s 2) ⊠ (.c 1)) ⊠ (.s 4))⟩,
    ⟨2, 2, ((.c 3) ⊠ (.s 1)) ⊞ (((.s 3) ⊠ (.c 2)) ⊠ (.c 1))⟩,
    ⟨2, 3, ((((((((.neg (.k 416 3)) ⊠ (.c 3)) ⊟ (.k 8883 5)) ⊠ (.s 2)) ⊠ (.c 1)) ⊠ (.s 4)) ⊞ (((((((.k 8883 5) ⊠ (.c 3)) ⊞ (.k 416 3)) ⊠ (.c 2)) ⊠ (.c 1)) ⊟ (((.k 8883 5) ⊠ (.s 3)) ⊠ (.s 1))) ⊠ (.c 4))) ⊞ (((.k 261 5) ⊠ (.c 3)) ⊠ (.s 1))) ⊞ ((((.k 261 5) ⊠ (.s 3)) ⊠ (.c 2)) ⊠ (.c 1))⟩,
    ⟨2, 4, (((((((.k 8883 5) ⊠ (.s 3)) ⊠ (.s 1)) ⊞ (((((.neg (.k 8883 5)) ⊠ (.c 3)) ⊟ (.k 416 3)) ⊠ (.c 2)) ⊠ (.c 1))) ⊠ (.s 4)) ⊞ ((((((.neg (.k 416 3)) ⊠ (.c 3)) ⊟ (.k 8883 5)) ⊠ (.s 2)) ⊠ (.c 1)) ⊠ (.c 4))) ⊞ (((.k 4 4) ⊠ (.c 3)) ⊠ (.s 1))) ⊞ ((((.k 4 4) ⊠ (.s 3)) ⊠ (.c 2)) ⊠ (.c 1))⟩,
    ⟨2, 5, ((((((.k 261 5) ⊠ (.s 3)) ⊠ (.s 1)) ⊞ ((((.k 4 4) ⊠ (.s 2)) ⊟ (((.k 261 5) ⊠ (.c 3)) ⊠ (.c 2))) ⊠ (.c 1))) ⊠ (.s 4)) ⊞ (((((.k 4 4) ⊠ (.s 3)) ⊠ (.s 1)) ⊞ ((((.neg (.k 261 5)) ⊠ (.s 2)) ⊟ (((.k 4 4) ⊠ (.c 3)) ⊠ (.c 2))) ⊠ (.c 1))) ⊠ (.c 4))) ⊟ ((((.k 416 3) ⊠ (.s 3)) ⊠ (.s 2)) ⊠ (.c 1))⟩,
    ⟨3, 3, (((((((.neg (.c 3)) ⊠ (.c 2)) ⊠ (.c 0)) ⊠ (.s 1)) ⊟ (((.s 3) ⊠ (.c 0)) ⊠ (.c 1))) ⊞ (((.c 3) ⊠ (.s 2)) ⊠ (.s 0))) ⊠ (.s 4)) ⊞ (((((.neg (.s 2)) ⊠ (.c 0)) ⊠ (.s 1)) ⊟ ((.c 2) ⊠ (.s 0))) ⊠ (.c 4))⟩,
    ⟨3, 4, ((((((.k 1 0) ⊠ (.s 2)) ⊠ (.c 0)) ⊠ (.s 1)) ⊞ ((.c 2) ⊠ (.s 0))) ⊠ (.s 4)) ⊞ (((((((.neg (.c 3)) ⊠ (.c 2)) ⊠ (.c 0)) ⊠ (.s 1)) ⊟ (((.s 3) ⊠ (.c 0)) ⊠ (.c 1))) ⊞ (((.c 3) ⊠ (.s 2)) ⊠ (.s 0))) ⊠ (.c 4))⟩,
    ⟨3, 5, (((((.neg (.s 3)) ⊠ (.c 2)) ⊠ (.c 0)) ⊠ (.s 1)) ⊞ (((.c 3) ⊠ (.c 0)) ⊠ (.c 1))) ⊞ (((.s 3) ⊠ (.s 2)) ⊠ (.s 0))⟩,
    ⟨4, 3, (((((((.neg (.c 3)) ⊠ (.c 2)) ⊠ (.s 0)) ⊠ (.s 1)) ⊟ (((.s 3) ⊠ (.s 0)) ⊠ (.c 1))) ⊟ (((.c 3) ⊠ (.s 2)) ⊠ (.c 0))) ⊠ (.s 4)) ⊞ (((((.k 1 0) ⊠ (.c 2)) ⊠ (.c 0)) ⊟ (((.s 2) ⊠ (.s 0)) ⊠ (.s 1))) ⊠ (.c 4))⟩,
    ⟨4, 4, ((((((.k 1 0) ⊠ (.s 2)) ⊠ (.s 0)) ⊠ (.s 1)) ⊟ ((.c 2) ⊠ (.c 0))) ⊠ (.s 4)) ⊞ (((((((.neg (.c 3)) ⊠ (.c 2)) ⊠ (.s 0)) ⊠ (.s 1)) ⊟ (((.s 3) ⊠ (.s 0)) ⊠ (.c 1))) ⊟ (((.c 3) ⊠ (.s 2)) ⊠ (.c 0))) ⊠ (.c 4))⟩,
    ⟨4, 5, (((((.neg (.s 3)) ⊠ (.c 2)) ⊠ (.s 0)) ⊠ (.s 1)) ⊞ (((.c 3) ⊠ (.s 0)) ⊠ (.c 1))) ⊟ (((.s 3) ⊠ (.s 2)) ⊠ (.c 0))⟩,
    ⟨5, 3, ((((((.k 1 0) ⊠ (.c 3)) ⊠ (.c 2)) ⊠ (.c 1)) ⊟ ((.s 3) ⊠ (.s 1))) ⊠ (.s 4)) ⊞ (((.s 2) ⊠ (.c 1)) ⊠ (.c 4))⟩,
    ⟨5, 4, ((((((.k 1 0) ⊠ (.c 3)) ⊠ (.c 2)) ⊠ (.c 1)) ⊟ ((.s 3) ⊠ (.s 1))) ⊠ (.c 4)) ⊟ (((.s 2) ⊠ (.c 1)) ⊠ (.s 4))⟩,
    ⟨5, 5, ((.c 3) ⊠ (.s 1)) ⊞ (((.s 3) ⊠ (.c 2)) ⊠ (.c 1))⟩]

/-- The transforms `fr_HyABase_X_fr_Wrist_R_COM`. -/
def fr_HyABase_X_fr_Wrist_R_COM : Trans := ⟨fr_HyABase, fr_Wrist_R_COM, hom_fr_HyABase_X_fr_Wrist_R_COM, motion_fr_HyABase_X_fr_Wrist_R_COM, force_fr_HyABase_X_fr_Wrist_R_COM⟩

/-- `HomogeneousTransforms::Type_fr_HyABase_X_fr_Wrist_FE_COM` (transforms.impl.h:6365-6371, 6373-6413). -/
def hom_fr_HyABase_X_fr_Wrist_FE_COM : Gen where
  rows := 4
  cols := 4
  ctor := [⟨3, 0, .k 0 0⟩,
    ⟨3, 1, .k 0 0⟩,
    ⟨3, 2, .k 0 0⟩,
    ⟨3, 3, .k 1 0⟩]
  upd := [⟨0, 0, (((((((((.neg (.c 3)) ⊠ (.c 2)) ⊠ (.c 0)) ⊠ (.s 1)) ⊟ (((.s 3) ⊠ (.c 0)) ⊠ (.c 1))) ⊞ (((.c 3) ⊠ (.s 2)) ⊠ (.s 0))) ⊠ (.s 5)) ⊠ (.s 4)) ⊞ ((((((.neg (.s 2)) ⊠ (.c 0)) ⊠ (.s 1)) ⊟ ((.c 2) ⊠ (.s 0))) ⊠ (.s 5)) ⊠ (.c 4))) ⊞ (((((((.neg (.s 3)) ⊠ (.c 2)) ⊠ (.c 0)) ⊠ (.s 1)) ⊞ (((.c 3) ⊠ (.c 0)) ⊠ (.c 1))) ⊞ (((.s 3) ⊠ (.s 2)) ⊠ (.s 0))) ⊠ (.c 5))⟩,
    ⟨0, 1, (((((((((.neg (.c 3)) ⊠ (.c 2)) ⊠ (.c 0)) ⊠ (.s 1)) ⊟ (((.s 3) ⊠ (.c 0)) ⊠ (.c 1))) ⊞ (((.c 3) ⊠ (.s 2)) ⊠ (.s 0))) ⊠ (.c 5)) ⊠ (.s 4)) ⊞ ((((((.neg (.s 2)) ⊠ (.c 0)) ⊠ (.s 1)) ⊟ ((.c 2) ⊠ (.s 0))) ⊠ (.c 5)) ⊠ (.c 4))) ⊞ ((((((((.k 1 0) ⊠ (.s 3)) ⊠ (.c 2)) ⊠ (.c 0)) ⊠ (.s 1)) ⊟ (((.c 3) ⊠ (.c 0)) ⊠ (.c 1))) ⊟ (((.s 3) ⊠ (.s 2)) ⊠ (.s 0))) ⊠ (.s 5))⟩,
    ⟨0, 2, ((((((.k 1 0) ⊠ (.s 2)) ⊠ (.c 0)) ⊠ (.s 1)) ⊞ ((.c 2) ⊠ (.s 0))) ⊠ (.s 4)) ⊞ (((((((.neg (.c 3)) ⊠ (.c 2)) ⊠ (.c 0)) ⊠ (.s 1)) ⊟ (((.s 3) ⊠ (.c 0)) ⊠ (.c 1))) ⊞ (((.c 3) ⊠ (.s 2)) ⊠ (.s 0))) ⊠ (.c 4))⟩,
    ⟨0, 3, ((((((((((((((((((.k 7876 5) ⊠ (.c 3)) ⊠ (.c 2)) ⊠ (.c 0)) ⊠ (.s 1)) ⊞ ((((.k 7876 5) ⊠ (.s 3)) ⊠ (.c 0)) ⊠ (.c 1))) ⊟ ((((.k 7876 5) ⊠ (.c 3)) ⊠ (.s 2)) ⊠ (.s 0))) ⊠ (.s 5)) ⊞ ((((((((.k 1063 5) ⊠ (.c 3)) ⊠ (.c 2)) ⊠ (.c 0)) ⊠ (.s 1)) ⊞ ((((.k 1063 5) ⊠ (.s 3)) ⊠ (.c 0)) ⊠ (.c 1))) ⊟ ((((.k 1063 5) ⊠ (.c 3)) ⊠ (.s 2)) ⊠ (.s 0))) ⊠ (.c 5))) ⊞ (((((.neg (.k 84 5)) ⊠ (.s 2)) ⊟ (((.k 2075 5) ⊠ (.c 3)) ⊠ (.c 2))) ⊠ (.c 0)) ⊠ (.s 1))) ⊟ ((((.k 2075 5) ⊠ (.s 3)) ⊠ (.c 0)) ⊠ (.c 1))) ⊞ (((((.k 2075 5) ⊠ (.c 3)) ⊠ (.s 2)) ⊟ ((.k 84 5) ⊠ (.c 2))) ⊠ (.s 0))) ⊠ (.s 4)) ⊞ (((((((((((.k 7876 5) ⊠ (.s 2)) ⊠ (.c 0)) ⊠ (.s 1)) ⊞ (((.k 7876 5) ⊠ (.c 2)) ⊠ (.s 0))) ⊠ (.s 5)) ⊞ ((((((.k 1063 5) ⊠ (.s 2)) ⊠ (.c 0)) ⊠ (.s 1)) ⊞ (((.k 1063 5) ⊠ (.c 2)) ⊠ (.s 0))) ⊠ (.c 5))) ⊞ ((((((.k 84 5) ⊠ (.c 3)) ⊠ (.c 2)) ⊟ ((.k 2075 5) ⊠ (.s 2))) ⊠ (.c 0)) ⊠ (.s 1))) ⊞ ((((.k 84 5) ⊠ (.s 3)) ⊠ (.c 0)) ⊠ (.c 1))) ⊞ (((((.neg (.k 84 5)) ⊠ (.c 3)) ⊠ (.s 2)) ⊟ ((.k 2075 5) ⊠ (.c 2))) ⊠ (.s 0))) ⊠ (.c 4))) ⊞ ((((((((.neg (.k 1063 5)) ⊠ (.s 3)) ⊠ (.c 2)) ⊠ (.c 0)) ⊠ (.s 1)) ⊞ ((((.k 1063 5) ⊠ (.c 3)) ⊠ (.c 0)) ⊠ (.c 1))) ⊞ ((((.k 1063 5) ⊠ (.s 3)) ⊠ (.s 2)) ⊠ (.s 0))) ⊠ (.s 5))) ⊞ ((((((((.k 7876 5) ⊠ (.s 3)) ⊠ (.c 2)) ⊠ (.c 0)) ⊠ (.s 1)) ⊟ ((((.k 7876 5) ⊠ (.c 3)) ⊠ (.c 0)) ⊠ (.c 1))) ⊟ ((((.k 7876 5) ⊠ (.s 3)) ⊠ (.s 2)) ⊠ (.s 0))) ⊠ (.c 5))) ⊟ (((((.k 296 3) ⊠ (.s 3)) ⊠ (.c 2)) ⊠ (.c 0)) ⊠ (.s 1))) ⊞ (((((.k 296 3) ⊠ (.c 3)) ⊞ (.k 416 3)) ⊠ (.c 0)) ⊠ (.c 1))) ⊞ ((((.k 296 3) ⊠ (.s 3)) ⊠ (.s 2)) ⊠ (.s 0))⟩,
    ⟨1, 0, (((((((((.neg (.c 3)) ⊠ (.c 2)) ⊠ (.s 0)) ⊠ (.s 1)) ⊟ (((.s 3) ⊠ (.s 0)) ⊠ (.c 1))) ⊟ (((.c 3) ⊠ (.s 2)) ⊠ (.c 0))) ⊠ (.s 5)) ⊠ (.s 4)) ⊞ ((((((.k 1 0) ⊠ (.c 2)) ⊠ (.c 0)) ⊟ (((.s 2) ⊠ (.s 0)) ⊠ (.s 1))) ⊠ (.s 5)) ⊠ (.c 4))) ⊞ (((((((.neg (.s 3)) ⊠ (.c 2)) ⊠ (.s 0)) ⊠ (.s 1)) ⊞ (((.c 3) ⊠ (.s 0)) ⊠ (.c 1))) ⊟ (((.s 3) ⊠ (.s 2)) ⊠ (.c 0))) ⊠ (.c 5))⟩,
    ⟨1, 1, (((((((((.neg (.c 3)) ⊠ (.c 2)) ⊠ (.s 0)) ⊠ (.s 1)) ⊟ (((.s 3) ⊠ (.s 0)) ⊠ (.c 1))) ⊟ (((.c 3) ⊠ (.s 2)) ⊠ (.c 0))) ⊠ (.c 5)) ⊠ (.s 4)) ⊞ ((((((.k 1 0) ⊠ (.c 2)) ⊠ (.c 0)) ⊟ (((.s 2) ⊠ (.s 0)) ⊠ (.s 1))) ⊠ (.c 5)) ⊠ (.c 4))) ⊞ ((((((((.k 1 0) ⊠ (.s 3)) ⊠ (.c 2)) ⊠ (.s 0)) ⊠ (.s 1)) ⊟ (((.c 3) ⊠ (.s 0)) ⊠ (.c 1))) ⊞ (((.s 3) ⊠ (.s 2)) ⊠ (.c 0))) ⊠ (.s 5))⟩,
    ⟨1, 2, ((((((.k 1 0) ⊠ (.s 2)) ⊠ (.s 0)) ⊠ (.s 1)) ⊟ ((.c 2) ⊠ (.c 0))) ⊠ (.s 4)) ⊞ (((((((.neg (.c 3)) ⊠ (.c 2)) ⊠ (.s 0)) ⊠ (.s 1)) ⊟ (((.s 3) ⊠ (.s 0)) ⊠ (.c 1))) ⊟ (((.c 3) ⊠ (.s 2)) ⊠ (.c 0))) ⊠ (.c 4))⟩,
    ⟨1, 3, ((((((((((((((((((.k 7876 5) ⊠ (.c 3)) ⊠ (.c 2)) ⊠ (.s 0)) ⊠ (.s 1)) ⊞ ((((.k 7876 5) ⊠ (.s 3)) ⊠ (.s 0)) ⊠ (.c 1))) ⊞ ((((.k 7876 5) ⊠ (.c 3)) ⊠ (.s 2)) ⊠ (.c 0))) ⊠ (.s 5)) ⊞ ((((((((.k 1063 5) ⊠ (.c 3)) ⊠ (.c 2)) ⊠ (.s 0)) ⊠ (.s 1)) ⊞ ((((.k 1063 5) ⊠ (.s 3)) ⊠ (.s 0)) ⊠ (.c 1))) ⊞ ((((.k 1063 5) ⊠ (.c 3)) ⊠ (.s 2)) ⊠ (.c 0))) ⊠ (.c 5))) ⊞ (((((.neg (.k 84 5)) ⊠ (.s 2)) ⊟ (((.k 2075 5) ⊠ (.c 3)) ⊠ (.c 2))) ⊠ (.s 0)) ⊠ (.s 1))) ⊟ ((((.k 2075 5) ⊠ (.s 3)) ⊠ (.s 0)) ⊠ (.c 1))) ⊞ ((((.k 84 5) ⊠ (.c 2)) ⊟ (((.k 2075 5) ⊠ (.c 3)) ⊠ (.s 2))) ⊠ (.c 0))) ⊠ (.s 4)) ⊞ (((((((((((.k 7876 5) ⊠ (.s 2)) ⊠ (.s 0)) ⊠ (.s 1)) ⊟ (((.k 7876 5) ⊠ (.c 2)) ⊠ (.c 0))) ⊠ (.s 5)) ⊞ ((((((.k 1063 5) ⊠ (.s 2)) ⊠ (.s 0)) ⊠ (.s 1)) ⊟ (((.k 1063 5) ⊠ (.c 2)) ⊠ (.c 0))) ⊠ (.c 5))) ⊞ ((((((.k 84 5) ⊠ (.c 3)) ⊠ (.c 2)) ⊟ ((.k 2075 5) ⊠ (.s 2))) ⊠ (.s 0)) ⊠ (.s 1))) ⊞ ((((.k 84 5) ⊠ (.s 3)) ⊠ (.s 0)) ⊠ (.c 1))) ⊞ (((((.k 84 5) ⊠ (.c 3)) ⊠ (.s 2)) ⊞ ((.k 2075 5) ⊠ (.c 2))) ⊠ (.c 0))) ⊠ (.c 4))) ⊞ ((((((((.neg (.k 1063 5)) ⊠ (.s 3)) ⊠ (.c 2)) ⊠ (.s 0)) ⊠ (.s 1)) ⊞ ((((.k 1063 5) ⊠ (.c 3)) ⊠ (.s 0)) ⊠ (.c 1))) ⊟ ((((.k 1063 5) ⊠ (.s 3)) ⊠ (.s 2)) ⊠ (.c 0))) ⊠ (.s 5))) ⊞ ((((((((.k 7876 5) ⊠ (.s 3)) ⊠ (.c 2)) ⊠ (.s 0)) ⊠ (.s 1)) ⊟ ((((.k 7876 5) ⊠ (.c 3)) ⊠ (.s 0)) ⊠ (.c 1))) ⊞ ((((.k 7876 5) ⊠ (.s 3)) ⊠ (.s 2)) ⊠ (.c 0))) ⊠ (.c 5))) ⊟ (((((.k 296 3) ⊠ (.s 3)) ⊠ (.c 2)) ⊠ (.s 0)) ⊠ (.s 1))) ⊞ (((((.k 296 3) ⊠ (.c 3)) ⊞ (.k 416 3)) ⊠ (.s 0)) ⊠ (.c 1))) ⊟ ((((.k 296 3) ⊠ (.s 3)) ⊠ (.s 2)) ⊠ (.c 0))⟩,
    ⟨2, 0, ((((((((.k 1 0) ⊠ (.c 3)) ⊠ (.c 2)) ⊠ (.c 1)) ⊟ ((.s 3) ⊠ (.s 1))) ⊠ (.s 5)) ⊠ (.s 4)) ⊞ ((((.s 2) ⊠ (.c 1)) ⊠ (.s 5)) ⊠ (.c 4))) ⊞ (((((.k 1 0) ⊠ (.c 3)) ⊠ (.s 1)) ⊞ (((.s 3) ⊠ (.c 2)) ⊠ (.c 1))) ⊠ (.c 5))⟩,
    ⟨2, 1, ((((((((.k 1 0) ⊠ (.c 3)) ⊠ (.c 2)) ⊠ (.c 1)) ⊟ ((.s 3) ⊠ (.s 1))) ⊠ (.c 5)) ⊠ (.s 4)) ⊞ ((((.s 2) ⊠ (.c 1)) ⊠ (.c 5)) ⊠ (.c 4))) ⊞ ((((.neg (.c 3)) ⊠ (.s 1)) ⊟ (((.s 3) ⊠ (.c 2)) ⊠ (.c 1))) ⊠ (.s 5))⟩,
    ⟨2, 2, ((((((.k 1 0) ⊠ (.c 3)) ⊠ (.c 2)) ⊠ (.c 1)) ⊟ ((.s 3) ⊠ (.s 1))) ⊠ (.c 4)) ⊟ (((.s 2) ⊠ (.c 1)) ⊠ (.s 4))⟩,
    ⟨2, 3, ((((((((((((((.k 7876 5) ⊠ (.s 3)) ⊠ (.s 1)) ⊟ ((((.k 7876 5) ⊠ (.c 3)) ⊠ (.c 2)) ⊠ (.c 1))) ⊠ (.s 5)) ⊞ (((((.k 1063 5) ⊠ (.s 3)) ⊠ (.s 1)) ⊟ ((((.k 1063 5) ⊠ (.c 3)) ⊠ (.c 2)) ⊠ (.c 1))) ⊠ (.c 5))) ⊟ (((.k 2075 5) ⊠ (.s 3)) ⊠ (.s 1))) ⊞ ((((.k 84 5) ⊠ (.s 2)) ⊞ (((.k 2075 5) ⊠ (.c 3)) ⊠ (.c 2))) ⊠ (.c 1))) ⊠ (.s 4)) ⊞ ((((((((.neg (.k 7876 5)) ⊠ (.s 2)) ⊠ (.c 1)) ⊠ (.s 5)) ⊟ ((((.k 1063 5) ⊠ (.s 2)) ⊠ (.c 1)) ⊠ (.c 5))) ⊞ (((.k 84 5) ⊠ (.s 3)) ⊠ (.s 1))) ⊞ ((((.k 2075 5) ⊠ (.s 2)) ⊟ (((.k 84 5) ⊠ (.c 3)) ⊠ (.c 2))) ⊠ (.c 1))) ⊠ (.c 4))) ⊞ (((((.k 1063 5) ⊠ (.c 3)) ⊠ (.s 1)) ⊞ ((((.k 1063 5) ⊠ (.s 3)) ⊠ (.c 2)) ⊠ (.c 1))) ⊠ (.s 5))) ⊞ (((((.neg (.k 7876 5)) ⊠ (.c 3)) ⊠ (.s 1)) ⊟ ((((.k 7876 5) ⊠ (.s 3)) ⊠ (.c 2)) ⊠ (.c 1))) ⊠ (.c 5))) ⊞ ((((.k 296 3) ⊠ (.c 3)) ⊞ (.k 416 3)) ⊠ (.s 1))) ⊞ ((((.k 296 3) ⊠ (.s 3)) ⊠ (.c 2)) ⊠ (.c 1))) ⊞ (.k 178 3)⟩]

/-- `MotionTransforms::Type_fr_HyABase_X_fr_Wrist_FE_COM` (transforms.impl.h:907-918, 920-975). -/
def motion_fr_HyABase_X_fr_Wrist_FE_COM : Gen where
  rows := 6
  cols := 6
  ctor := [⟨0, 3, .k 0 0⟩,
    ⟨0, 4, .k 0 0⟩,
    ⟨0, 5, .k 0 0⟩,
    ⟨1, 3, .k 0 0⟩,
    ⟨1, 4, .k 0 0⟩,
    ⟨1, 5, .k 0 0⟩,
    ⟨2, 3, .k 0 0⟩,
    ⟨2, 4, .k 0 0⟩,
    ⟨2, 5, .k 0 0⟩]
  upd := [⟨0, 0, (((((((((.neg (.c 3)) ⊠ (.c 2)) ⊠ (.c 0)) ⊠ (.s 1)) ⊟ (((.s 3) ⊠ (.c 0)) ⊠ (.c 1))) ⊞ (((.c 3) ⊠ (.s 2)) ⊠ (.s 0))) ⊠ (.s 5)) ⊠ (.s 4)) ⊞ ((((((.neg (.s 2)) ⊠ (.c 0)) ⊠ (.s 1)) ⊟ ((.c 2) ⊠ (.s 0))) ⊠ (.s 5)) ⊠ (.c 4))) ⊞ (((((((.neg (.s 3)) ⊠ (.c 2)) ⊠ (.c 0)) ⊠ (.s 1)) ⊞ (((.c 3) ⊠ (.c 0)) ⊠ (.c 1))) ⊞ (((.s 3) ⊠ (.s 2)) ⊠ (.s 0))) ⊠ (.c 5))⟩,
    ⟨0, 1, (((((((((.neg (.c 3)) ⊠ (.c 2)) ⊠ (.c 0)) ⊠ (.s 1)) ⊟ (((.s 3) ⊠ (.c 0)) ⊠ (.c 1))) ⊞ (((.c 3) ⊠ (.s 2)) ⊠ (.s 0))) ⊠ (.c 5)) ⊠ (.s 4)) ⊞ ((((((.neg (.s 2)) ⊠ (.c 0)) ⊠ (.s 1)) ⊟ ((.c 2) ⊠ (.s 0))) ⊠ (.c 5)) ⊠ (.c 4))) ⊞ ((((((((.k 1 0) ⊠ (.s 3)) ⊠ (.c 2)) ⊠ (.c 0)) ⊠ (.s 1)) ⊟ (((.c 3) ⊠ (.c 0)) ⊠ (.c 1))) ⊟ (((.s 3) ⊠ (.s 2)) ⊠ (.s 0))) ⊠ (.s 5))⟩,
    ⟨0, 2, ((((((.k 1 0) ⊠ (.s 2)) ⊠ (.c 0)) ⊠ (.s 1)) ⊞ ((.c 2) ⊠ (.s 0))) ⊠ (.s 4)) ⊞ (((((((.neg (.c 3)) ⊠ (.c 2)) ⊠ (.c 0)) ⊠ (.s 1)) ⊟ (((.s 3) ⊠ (.c 0)) ⊠ (.c 1))) ⊞ (((.c 3) ⊠ (.s 2)) ⊠ (.s 0))) ⊠ (.c 4))⟩,
    ⟨1, 0, (((((((((.neg (.c 3)) ⊠ (.c 2)) ⊠ (.s 0)) ⊠ (.s 1)) ⊟ (((.s 3) ⊠ (.s 0)) ⊠ (.c 1))) ⊟ (((.c 3) ⊠ (.s 2)) ⊠ (.c 0))) ⊠ (.s 5)) ⊠ (.s 4)) ⊞ ((((((.k 1 0) ⊠ (.c 2)) ⊠ (.c 0)) ⊟ (((.s 2) ⊠ (.s 0)) ⊠ (.s 1))) ⊠ (.s 5)) ⊠ (.c 4))) ⊞ (((((((.neg (.s 3)) ⊠ (.c 2)) ⊠ (.s 0)) ⊠ (.s 1)) ⊞ (((.c 3) ⊠ (.s 0)) ⊠ (.c 1))) ⊟ (((.s 3) ⊠ (.s 2)) ⊠ (.c 0))) ⊠ (.c 5))⟩,
    ⟨1, 1, (((((((((.neg (.c 3)) ⊠ (.c 2)) ⊠ (.s 0)) ⊠ (.s 1)) ⊟ (((.s 3) ⊠ (.s 0)) ⊠ (.c 1))) ⊟ (((.c 3) ⊠ (.s 2)) ⊠ (.c 0))) ⊠ (.c 5)) ⊠ (.s 4)) ⊞ ((((((.k 1 0) ⊠ (.c 2)) ⊠ (.c 0)) ⊟ (((.s 2) ⊠ (.s 0)) ⊠ (.s 1))) ⊠ (.c 5)) ⊠ (.c 4))) ⊞ ((((((((.k 1 0) ⊠ (.s 3)) ⊠ (.c 2)) ⊠ (.s 0)) ⊠ (.s 1)) ⊟ (((.c 3) ⊠ (.s 0)) ⊠ (.c 1))) ⊞ (((.s 3) ⊠ (.s 2)) ⊠ (.c 0))) ⊠ (.s 5))⟩,
    ⟨1, 2, ((((((.k 1 0) ⊠ (.s 2)) ⊠ (.s 0)) ⊠ (.s 1)) ⊟ ((.c 2) ⊠ (.c 0))) ⊠ (.s 4)) ⊞ (((((((.neg (.c 3)) ⊠ (.c 2)) ⊠ (.s 0)) ⊠ (.s 1)) ⊟ (((.s 3) ⊠ (.s 0)) ⊠ (.c 1))) ⊟ (((.c 3) ⊠ (.s 2)) ⊠ (.c 0))) ⊠ (.c 4))⟩,
    ⟨2, 0, ((((((((.k 1 0) ⊠ (.c 3)) ⊠ (.c 2)) ⊠ (.c 1)) ⊟ ((.s 3) ⊠ (.s 1))) ⊠ (.s 5)) ⊠ (.s 4)) ⊞ ((((.s 2) ⊠ (.c 1)) ⊠ (.s 5)) ⊠ (.c 4))) ⊞ (((((.k 1 0) ⊠ (.c 3)) ⊠ (.s 1)) ⊞ (((.s 3) ⊠ (.c 2)) ⊠ (.c 1))) ⊠ (.c 5))⟩,
    ⟨2, 1, ((((((((.k 1 0) ⊠ (.c 3)) ⊠ (.c 2)) ⊠ (.c 1)) ⊟ ((.s 3) ⊠ (.s 1))) ⊠ (.c 5)) ⊠ (.s 4)) ⊞ ((((.s 2) ⊠ (.c 1)) ⊠ (.c 5)) ⊠ (.c 4))) ⊞ ((((.neg (.c 3)) ⊠ (.s 1)) ⊟ (((.s 3) ⊠ (.c 2)) ⊠ (.c 1))) ⊠ (.s 5))⟩,
    ⟨2, 2, ((((((.k 1 0) ⊠ (.c 3)) ⊠ (.c 2)) ⊠ (.c 1)) ⊟ ((.s 3) ⊠ (.s 1))) ⊠ (.c 4)) ⊟ (((.s 2) ⊠ (.c 1)) ⊠ (.s 4))⟩,
    ⟨3, 0, ((((((((((((((((.k 178 3) ⊠ (.c 3)) ⊠ (.c 2)) ⊠ (.s 0)) ⊞ (((((.k 416 3) ⊠ (.c 3)) ⊞ (.k 296 3)) ⊠ (.s 2)) ⊠ (.c 0))) ⊠ (.s 1)) ⊞ ((((.k 178 3) ⊠ (.s 3)) ⊠ (.s 0)) ⊠ (.c 1))) ⊞ (((((.k 416 3) ⊠ (.c 3)) ⊞ (.k 296 3)) ⊠ (.c 2)) ⊠ (.s 0))) ⊞ ((((.k 178 3) ⊠ (.c 3)) ⊠ (.s 2)) ⊠ (.c 0))) ⊠ (.s 5)) ⊞ (((((((((.k 84 5) ⊠ (.c 3)) ⊠ (.c 2)) ⊟ ((.k 2075 5) ⊠ (.s 2))) ⊠ (.c 0)) ⊠ (.s 1)) ⊞ ((((.k 84 5) ⊠ (.s 3)) ⊠ (.c 0)) ⊠ (.c 1))) ⊞ (((((.neg (.k 84 5)) ⊠ (.c 3)) ⊠ (.s 2)) ⊟ ((.k 2075 5) ⊠ (.c 2))) ⊠ (.s 0))) ⊠ (.c 5))) ⊞ ((((.k 1063 5) ⊠ (.s 2)) ⊠ (.c 0)) ⊠ (.s 1))) ⊞ (((.k 1063 5) ⊠ (.c 2)) ⊠ (.s 0))) ⊠ (.s 4)) ⊞ ((((((((((((((.k 178 3) ⊠ (.s 2)) ⊠ (.s 0)) ⊞ (((((.neg (.k 296 3)) ⊠ (.c 3)) ⊟ (.k 416 3)) ⊠ (.c 2)) ⊠ (.c 0))) ⊠ (.s 1)) ⊟ ((((.k 296 3) ⊠ (.s 3)) ⊠ (.c 0)) ⊠ (.c 1))) ⊞ (((((.k 296 3) ⊠ (.c 3)) ⊞ (.k 416 3)) ⊠ (.s 2)) ⊠ (.s 0))) ⊟ (((.k 178 3) ⊠ (.c 2)) ⊠ (.c 0))) ⊠ (.s 5)) ⊞ ((((((((.k 84 5) ⊠ (.s 2)) ⊞ (((.k 2075 5) ⊠ (.c 3)) ⊠ (.c 2))) ⊠ (.c 0)) ⊠ (.s 1)) ⊞ ((((.k 2075 5) ⊠ (.s 3)) ⊠ (.c 0)) ⊠ (.c 1))) ⊞ ((((.k 84 5) ⊠ (.c 2)) ⊟ (((.k 2075 5) ⊠ (.c 3)) ⊠ (.s 2))) ⊠ (.s 0))) ⊠ (.c 5))) ⊟ (((((.k 1063 5) ⊠ (.c 3)) ⊠ (.c 2)) ⊠ (.c 0)) ⊠ (.s 1))) ⊟ ((((.k 1063 5) ⊠ (.s 3)) ⊠ (.c 0)) ⊠ (.c 1))) ⊞ ((((.k 1063 5) ⊠ (.c 3)) ⊠ (.s 2)) ⊠ (.s 0))) ⊠ (.c 4))) ⊞ ((((((((.neg (.k 84 5)) ⊠ (.s 3)) ⊠ (.c 2)) ⊠ (.c 0)) ⊠ (.s 1)) ⊞ ((((.k 84 5) ⊠ (.c 3)) ⊠ (.c 0)) ⊠ (.c 1))) ⊞ ((((.k 84 5) ⊠ (.s 3)) ⊠ (.s 2)) ⊠ (.s 0))) ⊠ (.s 5))) ⊞ ((((((((((.k 178 3) ⊠ (.s 3)) ⊠ (.c 2)) ⊠ (.s 0)) ⊞ ((((.k 416 3) ⊠ (.s 3)) ⊠ (.s 2)) ⊠ (.c 0))) ⊠ (.s 1)) ⊟ ((((.k 178 3) ⊠ (.c 3)) ⊠ (.s 0)) ⊠ (.c 1))) ⊞ ((((.k 416 3) ⊠ (.s 3)) ⊠ (.c 2)) ⊠ (.s 0))) ⊞ ((((.k 178 3) ⊠ (.s 3)) ⊠ (.s 2)) ⊠ (.c 0))) ⊠ (.c 5))⟩,
    ⟨3, 1, ((((((((((((((.k 2075 5) ⊠ (.s 2)) ⊟ (((.k 84 5) ⊠ (.c 3)) ⊠ (.c 2))) ⊠ (.c 0)) ⊠ (.s 1)) ⊟ ((((.k 84 5) ⊠ (.s 3)) ⊠ (.c 0)) ⊠ (.c 1))) ⊞ (((((.k 84 5) ⊠ (.c 3)) ⊠ (.s 2)) ⊞ ((.k 2075 5) ⊠ (.c 2))) ⊠ (.s 0))) ⊠ (.s 5)) ⊞ ((((((((((.k 178 3) ⊠ (.c 3)) ⊠ (.c 2)) ⊠ (.s 0)) ⊞ (((((.k 416 3) ⊠ (.c 3)) ⊞ (.k 296 3)) ⊠ (.s 2)) ⊠ (.c 0))) ⊠ (.s 1)) ⊞ ((((.k 178 3) ⊠ (.s 3)) ⊠ (.s 0)) ⊠ (.c 1))) ⊞ (((((.k 416 3) ⊠ (.c 3)) ⊞ (.k 296 3)) ⊠ (.c 2)) ⊠ (.s 0))) ⊞ ((((.k 178 3) ⊠ (.c 3)) ⊠ (.s 2)) ⊠ (.c 0))) ⊠ (.c 5))) ⊟ ((((.k 7876 5) ⊠ (.s 2)) ⊠ (.c 0)) ⊠ (.s 1))) ⊟ (((.k 7876 5) ⊠ (.c 2)) ⊠ (.s 0))) ⊠ (.s 4)) ⊞ (((((((((((((.neg (.k 84 5)) ⊠ (.s 2)) ⊟ (((.k 2075 5) ⊠ (.c 3)) ⊠ (.c 2))) ⊠ (.c 0)) ⊠ (.s 1)) ⊟ ((((.k 2075 5) ⊠ (.s 3)) ⊠ (.c 0)) ⊠ (.c 1))) ⊞ (((((.k 2075 5) ⊠ (.c 3)) ⊠ (.s 2)) ⊟ ((.k 84 5) ⊠ (.c 2))) ⊠ (.s 0))) ⊠ (.s 5)) ⊞ (((((((((.k 178 3) ⊠ (.s 2)) ⊠ (.s 0)) ⊞ (((((.neg (.k 296 3)) ⊠ (.c 3)) ⊟ (.k 416 3)) ⊠ (.c 2)) ⊠ (.c 0))) ⊠ (.s 1)) ⊟ ((((.k 296 3) ⊠ (.s 3)) ⊠ (.c 0)) ⊠ (.c 1))) ⊞ (((((.k 296 3) ⊠ (.c 3)) ⊞ (.k 416 3)) ⊠ (.s 2)) ⊠ (.s 0))) ⊟ (((.k 178 3) ⊠ (.c 2)) ⊠ (.c 0))) ⊠ (.c 5))) ⊞ (((((.k 7876 5) ⊠ (.c 3)) ⊠ (.c 2)) ⊠ (.c 0)) ⊠ (.s 1))) ⊞ ((((.k 7876 5) ⊠ (.s 3)) ⊠ (.c 0)) ⊠ (.c 1))) ⊟ ((((.k 7876 5) ⊠ (.c 3)) ⊠ (.s 2)) ⊠ (.s 0))) ⊠ (.c 4))) ⊞ ((((((((((.neg (.k 178 3)) ⊠ (.s 3)) ⊠ (.c 2)) ⊠ (.s 0)) ⊟ ((((.k 416 3) ⊠ (.s 3)) ⊠ (.s 2)) ⊠ (.c 0))) ⊠ (.s 1)) ⊞ ((((.k 178 3) ⊠ (.c 3)) ⊠ (.s 0)) ⊠ (.c 1))) ⊟ ((((.k 416 3) ⊠ (.s 3)) ⊠ (.c 2)) ⊠ (.s 0))) ⊟ ((((.k 178 3) ⊠ (.s 3)) ⊠ (.s 2)) ⊠ (.c 0))) ⊠ (.s 5))) ⊞ ((((((((.neg (.k 84 5)) ⊠ (.s 3)) ⊠ (.c 2)) ⊠ (.c 0)) ⊠ (.s 1)) ⊞ ((((.k 84 5) ⊠ (.c 3)) ⊠ (.c 0)) ⊠ (.c 1))) ⊞ ((((.k 84 5) ⊠ (.s 3)) ⊠ (.s 2)) ⊠ (.s 0))) ⊠ (.c 5))⟩,
    ⟨3, 2, (((((((((((((((((((.k 1063 5) ⊠ (.c 3)) ⊠ (.c 2)) ⊠ (.c 0)) ⊠ (.s 1)) ⊞ ((((.k 1063 5) ⊠ (.s 3)) ⊠ (.c 0)) ⊠ (.c 1))) ⊟ ((((.k 1063 5) ⊠ (.c 3)) ⊠ (.s 2)) ⊠ (.s 0))) ⊠ (.s 5)) ⊞ ((((((((.neg (.k 7876 5)) ⊠ (.c 3)) ⊠ (.c 2)) ⊠ (.c 0)) ⊠ (.s 1)) ⊟ ((((.k 7876 5) ⊠ (.s 3)) ⊠ (.c 0)) ⊠ (.c 1))) ⊞ ((((.k 7876 5) ⊠ (.c 3)) ⊠ (.s 2)) ⊠ (.s 0))) ⊠ (.c 5))) ⊞ (((((((.k 296 3) ⊠ (.c 3)) ⊞ (.k 416 3)) ⊠ (.c 2)) ⊠ (.c 0)) ⊟ (((.k 178 3) ⊠ (.s 2)) ⊠ (.s 0))) ⊠ (.s 1))) ⊞ ((((.k 296 3) ⊠ (.s 3)) ⊠ (.c 0)) ⊠ (.c 1))) ⊞ (((((.neg (.k 296 3)) ⊠ (.c 3)) ⊟ (.k 416 3)) ⊠ (.s 2)) ⊠ (.s 0))) ⊞ (((.k 178 3) ⊠ (.c 2)) ⊠ (.c 0))) ⊠ (.s 4)) ⊞ ((((((((((((.k 1063 5) ⊠ (.s 2)) ⊠ (.c 0)) ⊠ (.s 1)) ⊞ (((.k 1063 5) ⊠ (.c 2)) ⊠ (.s 0))) ⊠ (.s 5)) ⊞ ((((((.neg (.k 7876 5)) ⊠ (.s 2)) ⊠ (.c 0)) ⊠ (.s 1)) ⊟ (((.k 7876 5) ⊠ (.c 2)) ⊠ (.s 0))) ⊠ (.c 5))) ⊞ ((((((.k 178 3) ⊠ (.c 3)) ⊠ (.c 2)) ⊠ (.s 0)) ⊞ (((((.k 416 3) ⊠ (.c 3)) ⊞ (.k 296 3)) ⊠ (.s 2)) ⊠ (.c 0))) ⊠ (.s 1))) ⊞ ((((.k 178 3) ⊠ (.s 3)) ⊠ (.s 0)) ⊠ (.c 1))) ⊞ (((((.k 416 3) ⊠ (.c 3)) ⊞ (.k 296 3)) ⊠ (.c 2)) ⊠ (.s 0))) ⊞ ((((.k 178 3) ⊠ (.c 3)) ⊠ (.s 2)) ⊠ (.c 0))) ⊠ (.c 4))) ⊞ ((((((((.k 7876 5) ⊠ (.s 3)) ⊠ (.c 2)) ⊠ (.c 0)) ⊠ (.s 1)) ⊟ ((((.k 7876 5) ⊠ (.c 3)) ⊠ (.c 0)) ⊠ (.c 1))) ⊟ ((((.k 7876 5) ⊠ (.s 3)) ⊠ (.s 2)) ⊠ (.s 0))) ⊠ (.s 5))) ⊞ ((((((((.k 1063 5) ⊠ (.s 3)) ⊠ (.c 2)) ⊠ (.c 0)) ⊠ (.s 1)) ⊟ ((((.k 1063 5) ⊠ (.c 3)) ⊠ (.c 0)) ⊠ (.c 1))) ⊟ ((((.k 1063 5) ⊠ (.s 3)) ⊠ (.s 2)) ⊠ (.s 0))) ⊠ (.c 5))) ⊟ (((((.k 2075 5) ⊠ (.s 3)) ⊠ (.c 2)) ⊠ (.c 0)) ⊠ (.s 1))) ⊞ ((((.k 2075 5) ⊠ (.c 3)) ⊠ (.c 0)) ⊠ (.c 1))) ⊞ ((((.k 2075 5) ⊠ (.s 3)) ⊠ (.s 2)) ⊠ (.s 0))⟩,
    ⟨3, 3, (((((((((.neg (.c 3)) ⊠ (.c 2)) ⊠ (.c 0)) ⊠ (.s 1)) ⊟ (((.s 3) ⊠ (.c 0)) ⊠ (.c 1))) ⊞ (((.c 3) ⊠ (.s 2)) ⊠ (.s 0))) ⊠ (.s 5)) ⊠ (.s 4)) ⊞ ((((((.neg (.s 2)) ⊠ (.c 0)) ⊠ (.s 1)) ⊟ ((.c 2) ⊠ (.s 0))) ⊠ (.s 5)) ⊠ (.c 4))) ⊞ (((((((.neg (.s 3)) ⊠ (.c 2)) ⊠ (.c 0)) ⊠ (.s 1)) ⊞ (((.c 3) ⊠ (.c 0)) ⊠ (.c 1))) ⊞ (((.s 3) ⊠ (.s 2)) ⊠ (.s 0))) ⊠ (.c 5))⟩,
    ⟨3, 4, (((((((((.neg (.c 3)) ⊠ (.c 2)) ⊠ (.c 0)) ⊠ (.s 1)) ⊟ (((.s 3) ⊠ (.c 0)) ⊠ (.c 1))) ⊞ (((.c 3) ⊠ (.s 2)) ⊠ (.s 0))) ⊠ (.c 5)) ⊠ (.s 4)) ⊞ ((((((.neg (.s 2)) ⊠ (.c 0)) ⊠ (.s 1)) ⊟ ((.c 2) ⊠ (.s 0))) ⊠ (.c 5)) ⊠ (.c 4))) ⊞ ((((((((.k 1 0) ⊠ (.s 3)) ⊠ (.c 2)) ⊠ (.c 0)) ⊠ (.s 1)) ⊟ (((.c 3) ⊠ (.c 0)) ⊠ (.c 1))) ⊟ (((.s 3) ⊠ (.s 2)) ⊠ (.s 0))) ⊠ (.s 5))⟩,
    ⟨3, 5, ((((((.k 1 0) ⊠ (.s 2)) ⊠ (.c 0)) ⊠ (.s 1)) ⊞ ((.c 2) ⊠ (.s 0))) ⊠ (.s 4)) ⊞ (((((((.neg (.c 3)) ⊠ (.c 2)) ⊠ (.c 0)) ⊠ (.s 1)) ⊟ (((.s 3) ⊠ (.c 0)) ⊠ (.c 1))) ⊞ (((.c 3) ⊠ (.s 2)) ⊠ (.s 0))) ⊠ (.c 4))⟩,
    ⟨4, 0, (((((((((((((((((.k 416 3) ⊠ (.c 3)) ⊞ (.k 296 3)) ⊠ (.s 2)) ⊠ (.s 0)) ⊟ ((((.k 178 3) ⊠ (.c 3)) ⊠ (.c 2)) ⊠ (.c 0))) ⊠ (.s 1)) ⊟ ((((.k 178 3) ⊠ (.s 3)) ⊠ (.c 0)) ⊠ (.c 1))) ⊞ ((((.k 178 3) ⊠ (.c 3)) ⊠ (.s 2)) ⊠ (.s 0))) ⊞ (((((.neg (.k 416 3)) ⊠ (.c 3)) ⊟ (.k 296 3)) ⊠ (.c 2)) ⊠ (.c 0))) ⊠ (.s 5)) ⊞ (((((((((.k 84 5) ⊠ (.c 3)) ⊠ (.c 2)) ⊟ ((.k 2075 5) ⊠ (.s 2))) ⊠ (.s 0)) ⊠ (.s 1)) ⊞ ((((.k 84 5) ⊠ (.s 3)) ⊠ (.s 0)) ⊠ (.c 1))) ⊞ (((((.k 84 5) ⊠ (.c 3)) ⊠ (.s 2)) ⊞ ((.k 2075 5) ⊠ (.c 2))) ⊠ (.c 0))) ⊠ (.c 5))) ⊞ ((((.k 1063 5) ⊠ (.s 2)) ⊠ (.s 0)) ⊠ (.s 1))) ⊟ (((.k 1063 5) ⊠ (.c 2)) ⊠ (.c 0))) ⊠ (.s 4)) ⊞ ((((((((((((((((.neg (.k 296 3)) ⊠ (.c 3)) ⊟ (.k 416 3)) ⊠ (.c 2)) ⊠ (.s 0)) ⊟ (((.k 178 3) ⊠ (.s 2)) ⊠ (.c 0))) ⊠ (.s 1)) ⊟ ((((.k 296 3) ⊠ (.s 3)) ⊠ (.s 0)) ⊠ (.c 1))) ⊟ (((.k 178 3) ⊠ (.c 2)) ⊠ (.s 0))) ⊞ (((((.neg (.k 296 3)) ⊠ (.c 3)) ⊟ (.k 416 3)) ⊠ (.s 2)) ⊠ (.c 0))) ⊠ (.s 5)) ⊞ ((((((((.k 84 5) ⊠ (.s 2)) ⊞ (((.k 2075 5) ⊠ (.c 3)) ⊠ (.c 2))) ⊠ (.s 0)) ⊠ (.s 1)) ⊞ ((((.k 2075 5) ⊠ (.s 3)) ⊠ (.s 0)) ⊠ (.c 1))) ⊞ (((((.k 2075 5) ⊠ (.c 3)) ⊠ (.s 2)) ⊟ ((.k 84 5) ⊠ (.c 2))) ⊠ (.c 0))) ⊠ (.c 5))) ⊟ (((((.k 1063 5) ⊠ (.c 3)) ⊠ (.c 2)) ⊠ (.s 0)) ⊠ (.s 1))) ⊟ ((((.k 1063 5) ⊠ (.s 3)) ⊠ (.s 0)) ⊠ (.c 1))) ⊟ ((((.k 1063 5) ⊠ (.c 3)) ⊠ (.s 2)) ⊠ (.c 0))) ⊠ (.c 4))) ⊞ ((((((((.neg (.k 84 5)) ⊠ (.s 3)) ⊠ (.c 2)) ⊠ (.s 0)) ⊠ (.s 1)) ⊞ ((((.k 84 5) ⊠ (.c 3)) ⊠ (.s 0)) ⊠ (.c 1))) ⊟ ((((.k 84 5) ⊠ (.s 3)) ⊠ (.s 2)) ⊠ (.c 0))) ⊠ (.s 5))) ⊞ ((((((((((.k 416 3) ⊠ (.s 3)) ⊠ (.s 2)) ⊠ (.s 0)) ⊟ ((((.k 178 3) ⊠ (.s 3)) ⊠ (.c 2)) ⊠ (.c 0))) ⊠ (.s 1)) ⊞ ((((.k 178 3) ⊠ (.c 3)) ⊠ (.c 0)) ⊠ (.c 1))) ⊞ ((((.k 178 3) ⊠ (.s 3)) ⊠ (.s 2)) ⊠ (.s 0))) ⊟ ((((.k 416 3) ⊠ (.s 3)) ⊠ (.c 2)) ⊠ (.c 0))) ⊠ (.c 5))⟩,
    ⟨4, 1, ((((((((((((((.k 2075 5) ⊠ (.s 2)) ⊟ (((.k 84 5) ⊠ (.c 3)) ⊠ (.c 2))) ⊠ (.s 0)) ⊠ (.s 1)) ⊟ ((((.k 84 5) ⊠ (.s 3)) ⊠ (.s 0)) ⊠ (.c 1))) ⊞ (((((.neg (.k 84 5)) ⊠ (.c 3)) ⊠ (.s 2)) ⊟ ((.k 2075 5) ⊠ (.c 2))) ⊠ (.c 0))) ⊠ (.s 5)) ⊞ (((((((((((.k 416 3) ⊠ (.c 3)) ⊞ (.k 296 3)) ⊠ (.s 2)) ⊠ (.s 0)) ⊟ ((((.k 178 3) ⊠ (.c 3)) ⊠ (.c 2)) ⊠ (.c 0))) ⊠ (.s 1)) ⊟ ((((.k 178 3) ⊠ (.s 3)) ⊠ (.c 0)) ⊠ (.c 1))) ⊞ ((((.k 178 3) ⊠ (.c 3)) ⊠ (.s 2)) ⊠ (.s 0))) ⊞ (((((.neg (.k 416 3)) ⊠ (.c 3)) ⊟ (.k 296 3)) ⊠ (.c 2)) ⊠ (.c 0))) ⊠ (.c 5))) ⊟ ((((.k 7876 5) ⊠ (.s 2)) ⊠ (.s 0)) ⊠ (.s 1))) ⊞ (((.k 7876 5) ⊠ (.c 2)) ⊠ (.c 0))) ⊠ (.s 4)) ⊞ (((((((((((((.neg (.k 84 5)) ⊠ (.s 2)) ⊟ (((.k 2075 5) ⊠ (.c 3)) ⊠ (.c 2))) ⊠ (.s 0)) ⊠ (.s 1)) ⊟ ((((.k 2075 5) ⊠ (.s 3)) ⊠ (.s 0)) ⊠ (.c 1))) ⊞ ((((.k 84 5) ⊠ (.c 2)) ⊟ (((.k 2075 5) ⊠ (.c 3)) ⊠ (.s 2))) ⊠ (.c 0))) ⊠ (.s 5)) ⊞ (((((((((((.neg (.k 296 3)) ⊠ (.c 3)) ⊟ (.k 416 3)) ⊠ (.c 2)) ⊠ (.s 0)) ⊟ (((.k 178 3) ⊠ (.s 2)) ⊠ (.c 0))) ⊠ (.s 1)) ⊟ ((((.k 296 3) ⊠ (.s 3)) ⊠ (.s 0)) ⊠ (.c 1))) ⊟ (((.k 178 3) ⊠ (.c 2)) ⊠ (.s 0))) ⊞ (((((.neg (.k 296 3)) ⊠ (.c 3)) ⊟ (.k 416 3)) ⊠ (.s 2)) ⊠ (.c 0))) ⊠ (.c 5))) ⊞ (((((.k 7876 5) ⊠ (.c 3)) ⊠ (.c 2)) ⊠ (.s 0)) ⊠ (.s 1))) ⊞ ((((.k 7876 5) ⊠ (.s 3)) ⊠ (.s 0)) ⊠ (.c 1))) ⊞ ((((.k 7876 5) ⊠ (.c 3)) ⊠ (.s 2)) ⊠ (.c 0))) ⊠ (.c 4))) ⊞ ((((((((((.k 178 3) ⊠ (.s 3)) ⊠ (.c 2)) ⊠ (.c 0)) ⊟ ((((.k 416 3) ⊠ (.s 3)) ⊠ (.s 2)) ⊠ (.s 0))) ⊠ (.s 1)) ⊟ ((((.k 178 3) ⊠ (.c 3)) ⊠ (.c 0)) ⊠ (.c 1))) ⊟ ((((.k 178 3) ⊠ (.s 3)) ⊠ (.s 2)) ⊠ (.s 0))) ⊞ ((((.k 416 3) ⊠ (.s 3)) ⊠ (.c 2)) ⊠ (.c 0))) ⊠ (.s 5))) ⊞ ((((((((.neg (.k 84 5)) ⊠ (.s 3)) ⊠ (.c 2)) ⊠ (.s 0)) ⊠ (.s 1)) ⊞ ((((.k 84 5) ⊠ (.c 3)) ⊠ (.s 0)) ⊠ (.c 1))) ⊟ ((((.k 84 5) ⊠ (.s 3)) ⊠ (.s 2)) ⊠ (.c 0))) ⊠ (.c 5))⟩,
    ⟨4, 2, (((((((((((((((((((.k 1063 5) ⊠ (.c 3)) ⊠ (.c 2)) ⊠ (.s 0)) ⊠ (.s 1)) ⊞ ((((.k 1063 5) ⊠ (.s 3)) ⊠ (.s 0)) ⊠ (.c 1))) ⊞ ((((.k 1063 5) ⊠ (.c 3)) ⊠ (.s 2)) ⊠ (.c 0))) ⊠ (.s 5)) ⊞ ((((((((.neg (.k 7876 5)) ⊠ (.c 3)) ⊠ (.c 2)) ⊠ (.s 0)) ⊠ (.s 1)) ⊟ ((((.k 7876 5) ⊠ (.s 3)) ⊠ (.s 0)) ⊠ (.c 1))) ⊟ ((((.k 7876 5) ⊠ (.c 3)) ⊠ (.s 2)) ⊠ (.c 0))) ⊠ (.c 5))) ⊞ (((((((.k 296 3) ⊠ (.c 3)) ⊞ (.k 416 3)) ⊠ (.c 2)) ⊠ (.s 0)) ⊞ (((.k 178 3) ⊠ (.s 2)) ⊠ (.c 0))) ⊠ (.s 1))) ⊞ ((((.k 296 3) ⊠ (.s 3)) ⊠ (.s 0)) ⊠ (.c 1))) ⊞ (((.k 178 3) ⊠ (.c 2)) ⊠ (.s 0))) ⊞ (((((.k 296 3) ⊠ (.c 3)) ⊞ (.k 416 3)) ⊠ (.s 2)) ⊠ (.c 0))) ⊠ (.s 4)) ⊞ ((((((((((((.k 1063 5) ⊠ (.s 2)) ⊠ (.s 0)) ⊠ (.s 1)) ⊟ (((.k 1063 5) ⊠ (.c 2)) ⊠ (.c 0))) ⊠ (.s 5)) ⊞ (((((.k 7876 5) ⊠ (.c 2)) ⊠ (.c 0)) ⊟ ((((.k 7876 5) ⊠ (.s 2)) ⊠ (.s 0)) ⊠ (.s 1))) ⊠ (.c 5))) ⊞ (((((((.k 416 3) ⊠ (.c 3)) ⊞ (.k 296 3)) ⊠ (.s 2)) ⊠ (.s 0)) ⊟ ((((.k 178 3) ⊠ (.c 3)) ⊠ (.c 2)) ⊠ (.c 0))) ⊠ (.s 1))) ⊟ ((((.k 178 3) ⊠ (.s 3)) ⊠ (.c 0)) ⊠ (.c 1))) ⊞ ((((.k 178 3) ⊠ (.c 3)) ⊠ (.s 2)) ⊠ (.s 0))) ⊞ (((((.neg (.k 416 3)) ⊠ (.c 3)) ⊟ (.k 296 3)) ⊠ (.c 2)) ⊠ (.c 0))) ⊠ (.c 4))) ⊞ ((((((((.k 7876 5) ⊠ (.s 3)) ⊠ (.c 2)) ⊠ (.s 0)) ⊠ (.s 1)) ⊟ ((((.k 7876 5) ⊠ (.c 3)) ⊠ (.s 0)) ⊠ (.c 1))) ⊞ ((((.k 7876 5) ⊠ (.s 3)) ⊠ (.s 2)) ⊠ (.c 0))) ⊠ (.s 5))) ⊞ ((((((((.k 1063 5) ⊠ (.s 3)) ⊠ (.c 2)) ⊠ (.s 0)) ⊠ (.s 1)) ⊟ ((((.k 1063 5) ⊠ (.c 3)) ⊠ (.s 0)) ⊠ (.c 1))) ⊞ ((((.k 1063 5) ⊠ (.s 3)) ⊠ (.s 2)) ⊠ (.c 0))) ⊠ (.c 5))) ⊟ (((((.k 2075 5) ⊠ (.s 3)) ⊠ (.c 2)) ⊠ (.s 0)) ⊠ (.s 1))) ⊞ ((((.k 2075 5) ⊠ (.c 3)) ⊠ (.s 0)) ⊠ (.c 1))) ⊟ ((((.k 2075 5) ⊠ (.s 3)) ⊠ (.s 2)) ⊠ (.c 0))⟩,
    ⟨4, 3, (((((((((.neg (.c 3)) ⊠ (.c 2)) ⊠ (.s 0)) ⊠ (.s 1)) ⊟ (((.s 3) ⊠ (.s 0)) ⊠ (.c 1))) ⊟ (((.c 3) ⊠ (.s 2)) ⊠ (.c 0))) ⊠ (.s 5)) ⊠ (.s 4)) ⊞ ((((((.k 1 0) ⊠ (.c 2)) ⊠ (.c 0)) ⊟ (((.s 2) ⊠ (.s 0)) ⊠ (.s 1))) ⊠ (.s 5)) ⊠ (.c 4))) ⊞ (((((((.neg (.s 3)) ⊠ (.c 2)) ⊠ (.s 0)) ⊠ (.s 1)) ⊞ (((.c 3) ⊠ (.s 0)) ⊠ (.c 1))) ⊟ (((.s 3) ⊠ (.s 2)) ⊠ (.c 0))) ⊠ (.c 5))⟩,
    ⟨4, 4, (((((((((.neg (.c 3)) ⊠ (.c 2)) ⊠ (.s 0)) ⊠ (.s 1)) ⊟ (((.s 3) ⊠ (.s 0)) ⊠ (.c 1))) ⊟ (((.c 3) ⊠ (.s 2)) ⊠ (.c 0))) ⊠ (.c 5)) ⊠ (.s 4)) ⊞ ((((((.k 1 0) ⊠ (.c 2)) ⊠ (.c 0)) ⊟ (((.s 2) ⊠ (.s 0)) ⊠ (.s 1))) ⊠ (.c 5)) ⊠ (.c 4))) ⊞ ((((((((.k 1 0) ⊠ (.s 3)) ⊠ (.c 2)) ⊠ (.s 0)) ⊠ (.s 1)) ⊟ (((.c 3) ⊠ (.s 0)) ⊠ (.c 1))) ⊞ (((.s 3) ⊠ (.s 2)) ⊠ (.c 0))) ⊠ (.s 5))⟩,
    ⟨4, 5, ((((((.k 1 0) ⊠ (.s 2)) ⊠ (.s 0)) ⊠ (.s 1)) ⊟ ((.c 2) ⊠ (.c 0))) ⊠ (.s 4)) ⊞ (((((((.neg (.c 3)) ⊠ (.c 2)) ⊠ (.s 0)) ⊠ (.s 1)) ⊟ (((.s 3) ⊠ (.s 0)) ⊠ (.c 1))) ⊟ (((.c 3) ⊠ (.s 2)) ⊠ (.c 0))) ⊠ (.c 4))⟩,
    ⟨5, 0, (((((((((((.neg (.k 416 3)) ⊠ (.c 3)) ⊟ (.k 296 3)) ⊠ (.s 2)) ⊠ (.c 1)) ⊠ (.s 5)) ⊞ (((((.k 84 5) ⊠ (.s 3)) ⊠ (.s 1)) ⊞ ((((.k 2075 5) ⊠ (.s 2)) ⊟ (((.k 84 5) ⊠ (.c 3)) ⊠ (.c 2))) ⊠ (.c 1))) ⊠ (.c 5))) ⊟ (((.k 1063 5) ⊠ (.s 2)) ⊠ (.c 1))) ⊠ (.s 4)) ⊞ (((((((((((.k 296 3) ⊠ (.c 3)) ⊞ (.k 416 3)) ⊠ (.c 2)) ⊠ (.c 1)) ⊟ (((.k 296 3) ⊠ (.s 3)) ⊠ (.s 1))) ⊠ (.s 5)) ⊞ (((((.k 2075 5) ⊠ (.s 3)) ⊠ (.s 1)) ⊞ ((((.neg (.k 84 5)) ⊠ (.s 2)) ⊟ (((.k 2075 5) ⊠ (.c 3)) ⊠ (.c 2))) ⊠ (.c 1))) ⊠ (.c 5))) ⊟ (((.k 1063 5) ⊠ (.s 3)) ⊠ (.s 1))) ⊞ ((((.k 1063 5) ⊠ (.c 3)) ⊠ (.c 2)) ⊠ (.c 1))) ⊠ (.c 4))) ⊞ (((((.k 84 5) ⊠ (.c 3)) ⊠ (.s 1)) ⊞ ((((.k 84 5) ⊠ (.s 3)) ⊠ (.c 2)) ⊠ (.c 1))) ⊠ (.s 5))) ⊟ (((((.k 416 3) ⊠ (.s 3)) ⊠ (.s 2)) ⊠ (.c 1)) ⊠ (.c 5))⟩,
    ⟨5, 1, ((((((((((((.k 84 5) ⊠ (.c 3)) ⊠ (.c 2)) ⊟ ((.k 2075 5) ⊠ (.s 2))) ⊠ (.c 1)) ⊟ (((.k 84 5) ⊠ (.s 3)) ⊠ (.s 1))) ⊠ (.s 5)) ⊞ ((((((.neg (.k 416 3)) ⊠ (.c 3)) ⊟ (.k 296 3)) ⊠ (.s 2)) ⊠ (.c 1)) ⊠ (.c 5))) ⊞ (((.k 7876 5) ⊠ (.s 2)) ⊠ (.c 1))) ⊠ (.s 4)) ⊞ ((((((((((.k 84 5) ⊠ (.s 2)) ⊞ (((.k 2075 5) ⊠ (.c 3)) ⊠ (.c 2))) ⊠ (.c 1)) ⊟ (((.k 2075 5) ⊠ (.s 3)) ⊠ (.s 1))) ⊠ (.s 5)) ⊞ (((((((.k 296 3) ⊠ (.c 3)) ⊞ (.k 416 3)) ⊠ (.c 2)) ⊠ (.c 1)) ⊟ (((.k 296 3) ⊠ (.s 3)) ⊠ (.s 1))) ⊠ (.c 5))) ⊞ (((.k 7876 5) ⊠ (.s 3)) ⊠ (.s 1))) ⊟ ((((.k 7876 5) ⊠ (.c 3)) ⊠ (.c 2)) ⊠ (.c 1))) ⊠ (.c 4))) ⊞ (((((.k 416 3) ⊠ (.s 3)) ⊠ (.s 2)) ⊠ (.c 1)) ⊠ (.s 5))) ⊞ (((((.k 84 5) ⊠ (.c 3)) ⊠ (.s 1)) ⊞ ((((.k 84 5) ⊠ (.s 3)) ⊠ (.c 2)) ⊠ (.c 1))) ⊠ (.c 5))⟩,
    ⟨5, 2, (((((((((((((.k 1063 5) ⊠ (.s 3)) ⊠ (.s 1)) ⊟ ((((.k 1063 5) ⊠ (.c 3)) ⊠ (.c 2)) ⊠ (.c 1))) ⊠ (.s 5)) ⊞ ((((((.k 7876 5) ⊠ (.c 3)) ⊠ (.c 2)) ⊠ (.c 1)) ⊟ (((.k 7876 5) ⊠ (.s 3)) ⊠ (.s 1))) ⊠ (.c 5))) ⊞ (((.k 296 3) ⊠ (.s 3)) ⊠ (.s 1))) ⊞ (((((.neg (.k 296 3)) ⊠ (.c 3)) ⊟ (.k 416 3)) ⊠ (.c 2)) ⊠ (.c 1))) ⊠ (.s 4)) ⊞ (((((((.neg (.k 1063 5)) ⊠ (.s 2)) ⊠ (.c 1)) ⊠ (.s 5)) ⊞ ((((.k 7876 5) ⊠ (.s 2)) ⊠ (.c 1)) ⊠ (.c 5))) ⊞ (((((.neg (.k 416 3)) ⊠ (.c 3)) ⊟ (.k 296 3)) ⊠ (.s 2)) ⊠ (.c 1))) ⊠ (.c 4))) ⊞ (((((.neg (.k 7876 5)) ⊠ (.c 3)) ⊠ (.s 1)) ⊟ ((((.k 7876 5) ⊠ (.s 3)) ⊠ (.c 2)) ⊠ (.c 1))) ⊠ (.s 5))) ⊞ (((((.neg (.k 1063 5)) ⊠ (.c 3)) ⊠ (.s 1)) ⊟ ((((.k 1063 5) ⊠ (.s 3)) ⊠ (.c 2)) ⊠ (.c 1))) ⊠ (.c 5))) ⊞ (((.k 2075 5) ⊠ (.c 3)) ⊠ (.s 1))) ⊞ ((((.k 2075 5) ⊠ (.s 3)) ⊠ (.c 2)) ⊠ (.c 1))⟩,
    ⟨5, 3, ((((((((.k 1 0) ⊠ (.c 3)) ⊠ (.c 2)) ⊠ (.c 1)) ⊟ ((.s 3) ⊠ (.s 1))) ⊠ (.s 5)) ⊠ (.s 4)) ⊞ ((((.s 2) ⊠ (.c 1)) ⊠ (.s 5)) ⊠ (.c 4))) ⊞ (((((.k 1 0) ⊠ (.c 3)) ⊠ (.s 1)) ⊞ (((.s 3) ⊠ (.c 2)) ⊠ (.c 1))) ⊠ (.c 5))⟩,
    ⟨5, 4, ((((((((.k 1 0) ⊠ (.c 3)) ⊠ (.c 2)) ⊠ (.c 1)) ⊟ ((.s 3) ⊠ (.s 1))) ⊠ (.c 5)) ⊠ (.s 4)) ⊞ ((((.s 2) ⊠ (.c 1)) ⊠ (.c 5)) ⊠ (.c 4))) ⊞ ((((.neg (.c 3)) ⊠ (.s 1)) ⊟ (((.s 3) ⊠ (.c 2)) ⊠ (.c 1))) ⊠ (.s 5))⟩,
    ⟨5, 5, ((((((.k 1 0) ⊠ (.c 3)) ⊠ (.c 2)) ⊠ (.c 1)) ⊟ ((.s 3) ⊠ (.s 1))) ⊠ (.c 4)) ⊟ (((.s 2) ⊠ (.c 1)) ⊠ (.s 4))⟩]

/-- `ForceTransforms::Type_fr_HyABase_X_fr_Wrist_FE_COM` (transforms.impl.h:3756-3767, 3769-3824). -/
def force_fr_HyABase_X_fr_Wrist_FE_COM : Gen where
  rows := 6
  cols := 6
  ctor := [⟨3, 0, .k 0 0⟩,
    ⟨3, 1, .k 0 0⟩,
    ⟨3, 2, .k 0 0⟩,
    ⟨4, 0, .k 0 0⟩,
    ⟨4, 1, .k 0 0⟩,
    ⟨4, 2, .k 0 0⟩,
    ⟨5, 0, .k 0 0⟩,
    ⟨5, 1, .k 0 0⟩,
    ⟨5, 2, .k 0 0⟩]
  upd := [⟨0, 0, (((((((((.neg (.c 3)) ⊠ (.c 2)) ⊠ (.c 0)) ⊠ (.s 1)) ⊟ (((.s 3) ⊠ (.c 0)) ⊠ (.c 1))) ⊞ (((.c 3) ⊠ (.s 2)) ⊠ (.s 0))) ⊠ (.s 5)) ⊠ (.s 4)) ⊞ ((((((.neg (.s 2)) ⊠ (.c 0)) ⊠ (.s 1)) ⊟ ((.c 2) ⊠ (.s 0))) ⊠ (.s 5)) ⊠ (.c 4))) ⊞ (((((((.neg (.s 3)) ⊠ (.c 2)) ⊠ (.c 0)) ⊠ (.s 1)) ⊞ (((.c 3) ⊠ (.c 0)) ⊠ (.c 1))) ⊞ (((.s 3) ⊠ (.s 2)) ⊠ (.s 0))) ⊠ (.c 5))⟩,
    ⟨0, 1, (((((((((.neg (.c 3)) ⊠ (.c 2)) ⊠ (.c 0)) ⊠ (.s 1)) ⊟ (((.s 3) ⊠ (.c 0)) ⊠ (.c 1))) ⊞ (((.c 3) ⊠ (.s 2)) ⊠ (.s 0))) ⊠ (.c 5)) ⊠ (.s 4)) ⊞ ((((((.neg (.s 2)) ⊠ (.c 0)) ⊠ (.s 1)) ⊟ ((.c 2) ⊠ (.s 0))) ⊠ (.c 5)) ⊠ (.c 4))) ⊞ ((((((((.k 1 0) ⊠ (.s 3)) ⊠ (.c 2)) ⊠ (.c 0)) ⊠ (.s 1)) ⊟ (((.c 3) ⊠ (.c 0)) ⊠ (.c 1))) ⊟ (((.s 3) ⊠ (.s 2)) ⊠ (.s 0))) ⊠ (.s 5))⟩,
    ⟨0, 2, ((((((.k 1 0) ⊠ (.s 2)) ⊠ (.c 0)) ⊠ (.s 1)) ⊞ ((.c 2) ⊠ (.s 0))) ⊠ (.s 4)) ⊞ (((((((.neg (.c 3)) ⊠ (.c 2)) ⊠ (.c 0)) ⊠ (.s 1)) ⊟ (((.s 3) ⊠ (.c 0)) ⊠ (.c 1))) ⊞ (((.c 3) ⊠ (.s 2)) ⊠ (.s 0))) ⊠ (.c 4))⟩,
    ⟨0, 3, ((((((((((((((((.k 178 3) ⊠ (.c 3)) ⊠ (.c 2)) ⊠ (.s 0)) ⊞ (((((.k 416 3) ⊠ (.c 3)) ⊞ (.k 296 3)) ⊠ (.s 2)) ⊠ (.c 0))) ⊠ (.s 1)) ⊞ ((((.k 178 3) ⊠ (.s 3)) ⊠ (.s 0)) ⊠ (.c 1))) ⊞ (((((.k 416 3) ⊠ (.c 3)) ⊞ (.k 296 3)) ⊠ (.c 2)) ⊠ (.s 0))) ⊞ ((((.k 178 3) ⊠ (.c 3)) ⊠ (.s 2)) ⊠ (.c 0))) ⊠ (.s 5)) ⊞ (((((((((.k 84 5) ⊠ (.c 3)) ⊠ (.c 2)) ⊟ ((.k 2075 5) ⊠ (.s 2))) ⊠ (.c 0)) ⊠ (.s 1)) ⊞ ((((.k 84 5) ⊠ (.s 3)) ⊠ (.c 0)) ⊠ (.c 1))) ⊞ (((((.neg (.k 84 5)) ⊠ (.c 3)) ⊠ (.s 2)) ⊟ ((.k 2075 5) ⊠ (.c 2))) ⊠ (.s 0))) ⊠ (.c 5))) ⊞ ((((.k 1063 5) ⊠ (.s 2)) ⊠ (.c 0)) ⊠ (.s 1))) ⊞ (((.k 1063 5) ⊠ (.c 2)) ⊠ (.s 0))) ⊠ (.s 4)) ⊞ ((((((((((((((.k 178 3) ⊠ (.s 2)) ⊠ (.s 0)) ⊞ (((((.neg (.k 296 3)) ⊠ (.c 3)) ⊟ (.k 416 3)) ⊠ (.c 2)) ⊠ (.c 0))) ⊠ (.s 1)) ⊟ ((((.k 296 3) ⊠ (.s 3)) ⊠ (.c 0)) ⊠ (.c 1))) ⊞ (((((.k 296 3) ⊠ (.c 3)) ⊞ (.k 416 3)) ⊠ (.s 2)) ⊠ (.s 0))) ⊟ (((.k 178 3) ⊠ (.c 2)) ⊠ (.c 0))) ⊠ (.s 5)) ⊞ ((((((((.k 84 5) ⊠ (.s 2)) ⊞ (((.k 2075 5) ⊠ (.c 3)) ⊠ (.c 2))) ⊠ (.c 0)) ⊠ (.s 1)) ⊞ ((((.k 2075 5) ⊠ (.s 3)) ⊠ (.c 0)) ⊠ (.c 1))) ⊞ ((((.k 84 5) ⊠ (.c 2)) ⊟ (((.k 2075 5) ⊠ (.c 3)) ⊠ (.s 2))) ⊠ (.s 0))) ⊠ (.c 5))) ⊟ (((((.k 1063 5) ⊠ (.c 3)) ⊠ (.c 2)) ⊠ (.c 0)) ⊠ (.s 1))) ⊟ ((((.k 1063 5) ⊠ (.s 3)) ⊠ (.c 0)) ⊠ (.c 1))) ⊞ ((((.k 1063 5) ⊠ (.c 3)) ⊠ (.s 2)) ⊠ (.s 0))) ⊠ (.c 4))) ⊞ ((((((((.neg (.k 84 5)) ⊠ (.s 3)) ⊠ (.c 2)) ⊠ (.c 0)) ⊠ (.s 1)) ⊞ ((((.k 84 5) ⊠ (.c 3)) ⊠ (.c 0)) ⊠ (.c 1))) ⊞ ((((.k 84 5) ⊠ (.s 3)) ⊠ (.s 2)) ⊠ (.s 0))) ⊠ (.s 5))) ⊞ ((((((((((.k 178 3) ⊠ (.s 3)) ⊠ (.c 2)) ⊠ (.s 0)) ⊞ ((((.k 416 3) ⊠ (.s 3)) ⊠ (.s 2)) ⊠ (.c 0))) ⊠ (.s 1)) ⊟ ((((.k 178 3) ⊠ (.c 3)) ⊠ (.s 0)) ⊠ (.c 1))) ⊞ ((((.k 416 3) ⊠ (.s 3)) ⊠ (.c 2)) ⊠ (.s 0))) ⊞ ((((.k 178 3) ⊠ (.s 3)) ⊠ (.s 2)) ⊠ (.c 0))) ⊠ (.c 5))⟩,
    ⟨0, 4, ((((((((((((((.k 2075 5) ⊠ (.s 2)) ⊟ (((.k 84 5) ⊠ (.c 3)) ⊠ (.c 2))) ⊠ (.c 0)) ⊠ (.s 1)) ⊟ ((((.k 84 5) ⊠ (.s 3)) ⊠ (.c 0)) ⊠ (.c 1))) ⊞ (((((.k 84 5) ⊠ (.c 3)) ⊠ (.s 2)) ⊞ ((.k 2075 5) ⊠ (.c 2))) ⊠ (.s 0))) ⊠ (.s 5)) ⊞ ((((((((((.k 178 3) ⊠ (.c 3)) ⊠ (.c 2)) ⊠ (.s 0)) ⊞ (((((.k 416 3) ⊠ (.c 3)) ⊞ (.k 296 3)) ⊠ (.s 2)) ⊠ (.c 0))) ⊠ (.s 1)) ⊞ ((((.k 178 3) ⊠ (.s 3)) ⊠ (.s 0)) ⊠ (.c 1))) ⊞ (((((.k 416 3) ⊠ (.c 3)) ⊞ (.k 296 3)) ⊠ (.c 2)) ⊠ (.s 0))) ⊞ ((((.k 178 3) ⊠ (.c 3)) ⊠ (.s 2)) ⊠ (.c 0))) ⊠ (.c 5))) ⊟ ((((.k 7876 5) ⊠ (.s 2)) ⊠ (.c 0)) ⊠ (.s 1))) ⊟ (((.k 7876 5) ⊠ (.c 2)) ⊠ (.s 0))) ⊠ (.s 4)) ⊞ (((((((((((((.neg (.k 84 5)) ⊠ (.s 2)) ⊟ (((.k 2075 5) ⊠ (.c 3)) ⊠ (.c 2))) ⊠ (.c 0)) ⊠ (.s 1)) ⊟ ((((.k 2075 5) ⊠ (.s 3)) ⊠ (.c 0)) ⊠ (.c 1))) ⊞ (((((.k 2075 5) ⊠ (.c 3)) ⊠ (.s 2)) ⊟ ((.k 84 5) ⊠ (.c 2))) ⊠ (.s 0))) ⊠ (.s 5)) ⊞ (((((((((.k 178 3) ⊠ (.s 2)) ⊠ (.s 0)) ⊞ (((((.neg (.k 296 3)) ⊠ (.c 3)) ⊟ (.k 416 3)) ⊠ (.c 2)) ⊠ (.c 0))) ⊠ (.s 1)) ⊟ ((((.k 296 3) ⊠ (.s 3)) ⊠ (.c 0)) ⊠ (.c 1))) ⊞ (((((.k 296 3) ⊠ (.c 3)) ⊞ (.k 416 3)) ⊠ (.s 2)) ⊠ (.s 0))) ⊟ (((.k 178 3) ⊠ (.c 2)) ⊠ (.c 0))) ⊠ (.c 5))) ⊞ (((((.k 7876 5) ⊠ (.c 3)) ⊠ (.c 2)) ⊠ (.c 0)) ⊠ (.s 1))) ⊞ ((((.k 7876 5) ⊠ (.s 3)) ⊠ (.c 0)) ⊠ (.c 1))) ⊟ ((((.k 7876 5) ⊠ (.c 3)) ⊠ (.s 2)) ⊠ (.s 0))) ⊠ (.c 4))) ⊞ ((((((((((.neg (.k 178 3)) ⊠ (.s 3)) ⊠ (.c 2)) ⊠ (.s 0)) ⊟ ((((.k 416 3) ⊠ (.s 3)) ⊠ (.s 2)) ⊠ (.c 0))) ⊠ (.s 1)) ⊞ ((((.k 178 3) ⊠ (.c 3)) ⊠ (.s 0)) ⊠ (.c 1))) ⊟ ((((.k 416 3) ⊠ (.s 3)) ⊠ (.c 2)) ⊠ (.s 0))) ⊟ ((((.k 178 3) ⊠ (.s 3)) ⊠ (.s 2)) ⊠ (.c 0))) ⊠ (.s 5))) ⊞ ((((((((.neg (.k 84 5)) ⊠ (.s 3)) ⊠ (.c 2)) ⊠ (.c 0)) ⊠ (.s 1)) ⊞ ((((.k 84 5) ⊠ (.c 3)) ⊠ (.c 0)) ⊠ (.c 1))) ⊞ ((((.k 84 5) ⊠ (.s 3)) ⊠ (.s 2)) ⊠ (.s 0))) ⊠ (.c 5))⟩,
    ⟨0, 5, (((((((((((((((((((.k 1063 5) ⊠ (.c 3)) ⊠ (.c 2)) ⊠ (.c 0)) ⊠ (.s 1)) ⊞ ((((.k 1063 5) ⊠ (.s 3)) ⊠ (.c 0)) ⊠ (.c 1))) ⊟ ((((.k 1063 5) ⊠ (.c 3)) ⊠ (.s 2)) ⊠ (.s 0))) ⊠ (.s 5)) ⊞ ((((((((.neg (.k 7876 5)) ⊠ (.c 3)) ⊠ (.c 2)) ⊠ (.c 0)) ⊠ (.s 1)) ⊟ ((((.k 7876 5) ⊠ (.s 3)) ⊠ (.c 0)) ⊠ (.c 1))) ⊞ ((((.k 7876 5) ⊠ (.c 3)) ⊠ (.s 2)) ⊠ (.s 0))) ⊠ (.c 5))) ⊞ (((((((.k 296 3) ⊠ (.c 3)) ⊞ (.k 416 3)) ⊠ (.c 2)) ⊠ (.c 0)) ⊟ (((.k 178 3) ⊠ (.s 2)) ⊠ (.s 0))) ⊠ (.s 1))) ⊞ ((((.k 296 3) ⊠ (.s 3)) ⊠ (.c 0)) ⊠ (.c 1))) ⊞ (((((.neg (.k 296 3)) ⊠ (.c 3)) ⊟ (.k 416 3)) ⊠ (.s 2)) ⊠ (.s 0))) ⊞ (((.k 178 3) ⊠ (.c 2)) ⊠ (.c 0))) ⊠ (.s 4)) ⊞ ((((((((((((.k 1063 5) ⊠ (.s 2)) ⊠ (.c 0)) ⊠ (.s 1)) ⊞ (((.k 1063 5) ⊠ (.c 2)) ⊠ (.s 0))) ⊠ (.s 5)) ⊞ ((((((.neg (.k 7876 5)) ⊠ (.s 2)) ⊠ (.c 0)) ⊠ (.s 1)) ⊟ (((.k 7876 5) ⊠ (.c 2)) ⊠ (.s 0))) ⊠ (.c 5))) ⊞ ((((((.k 178 3) ⊠ (.c 3)) ⊠ (.c 2)) ⊠ (.s 0)) ⊞ (((((.k 416 3) ⊠ (.c 3)) ⊞ (.k 296 3)) ⊠ (.s 2)) ⊠ (.c 0))) ⊠ (.s 1))) ⊞ ((((.k 178 3) ⊠ (.s 3)) ⊠ (.s 0)) ⊠ (.c 1))) ⊞ (((((.k 416 3) ⊠ (.c 3)) ⊞ (.k 296 3)) ⊠ (.c 2)) ⊠ (.s 0))) ⊞ ((((.k 178 3) ⊠ (.c 3)) ⊠ (.s 2)) ⊠ (.c 0))) ⊠ (.c 4))) ⊞ ((((((((.k 7876 5) ⊠ (.s 3)) ⊠ (.c 2)) ⊠ (.c 0)) ⊠ (.s 1)) ⊟ ((((.k 7876 5) ⊠ (.c 3)) ⊠ (.c 0)) ⊠ (.c 1))) ⊟ ((((.k 7876 5) ⊠ (.s 3)) ⊠ (.s 2)) ⊠ (.s 0))) ⊠ (.s 5))) ⊞ ((((((((.k 1063 5) ⊠ (.s 3)) ⊠ (.c 2)) ⊠ (.c 0)) ⊠ (.s 1)) ⊟ ((((.k 1063 5) ⊠ (.c 3)) ⊠ (.c 0)) ⊠ (.c 1))) ⊟ ((((.k 1063 5) ⊠ (.s 3)) ⊠ (.s 2)) ⊠ (.s 0))) ⊠ (.c 5))) ⊟ (((((.k 2075 5) ⊠ (.s 3)) ⊠ (.c 2)) ⊠ (.c 0)) ⊠ (.s 1))) ⊞ ((((.k 2075 5) ⊠ (.c 3)) ⊠ (.c 0)) ⊠ (.c 1))) ⊞ ((((.k 2075 5) ⊠ (.s 3)) ⊠ (.s 2)) ⊠ (.s 0))⟩,
    ⟨1, 0, (((((((((.neg (.c 3)) ⊠ (.c 2)) ⊠ (.s 0)) ⊠ (.s 1)) ⊟ (((.s 3) ⊠ (.s 0)) ⊠ (.c 1))) ⊟ (((.c 3) ⊠ (.s 2)) ⊠ (.c 0))) ⊠ (.s 5)) ⊠ (.s 4)) ⊞ ((((((.k 1 0) ⊠ (.c 2)) ⊠ (.c 0)) ⊟ (((.s 2) ⊠ (.s 0)) ⊠ (.s 1))) ⊠ (.s 5)) ⊠ (.c 4))) ⊞ (((((((.neg (.s 3)) ⊠ (.c 2)) ⊠ (.s 0)) ⊠ (.s 1)) ⊞ (((.c 3) ⊠ (.s 0)) ⊠ (.c 1))) ⊟ (((.s 3) ⊠ (.s 2)) ⊠ (.c 0))) ⊠ (.c 5))⟩,
    ⟨1, 1, (((((((((.neg (.c 3)) ⊠ (.c 2)) ⊠ (.s 0)) ⊠ (.s 1)) ⊟ (((.s 3) ⊠ (.s 0)) ⊠ (.c 1))) ⊟ (((.c 3) ⊠ (.s 2)) ⊠ (.c 0))) ⊠ (.c 5)) ⊠ (.s 4)) ⊞ ((((((.k 1 0) ⊠ (.c 2)) ⊠ (.c 0)) ⊟ (((.s 2) ⊠ (.s 0)) ⊠ (.s 1))) ⊠ (.c 5)) ⊠ (.c 4))) ⊞ ((((((((.k 1 0) ⊠ (.s 3)) ⊠ (.c 2)) ⊠ (.s 0)) ⊠ (.s 1)) ⊟ (((.c 3) ⊠ (.s 0)) ⊠ (.c 1))) ⊞ (((.s 3) ⊠ (.s 2)) ⊠ (.c 0))) ⊠ (.s 5))⟩,
    ⟨1, 2, ((((((.k 1 0) ⊠ (.s 2)) ⊠ (.s 0)) ⊠ (.s 1)) ⊟ ((.c 2) ⊠ (.c 0))) ⊠ (.s 4)) ⊞ (((((((.neg (.c 3)) ⊠ (.c 2)) ⊠ (.s 0)) ⊠ (.s 1)) ⊟ (((.s 3) ⊠ (.s 0)) ⊠ (.c 1))) ⊟ (((.c 3) ⊠ (.s 2)) ⊠ (.c 0))) ⊠ (.c 4))⟩,
    ⟨1, 3, (((((((((((((((((.k 416 3) ⊠ (.c 3)) ⊞ (.k 296 3)) ⊠ (.s 2)) ⊠ (.s 0)) ⊟ ((((.k 178 3) ⊠ (.c 3)) ⊠ (.c 2)) ⊠ (.c 0))) ⊠ (.s 1)) ⊟ ((((.k 178 3) ⊠ (.s 3)) ⊠ (.c 0)) ⊠ (.c 1))) ⊞ ((((.k 178 3) ⊠ (.c 3)) ⊠ (.s 2)) ⊠ (.s 0))) ⊞ (((((.neg (.k 416 3)) ⊠ (.c 3)) ⊟ (.k 296 3)) ⊠ (.c 2)) ⊠ (.c 0))) ⊠ (.s 5)) ⊞ (((((((((.k 84 5) ⊠ (.c 3)) ⊠ (.c 2)) ⊟ ((.k 2075 5) ⊠ (.s 2))) ⊠ (.s 0)) ⊠ (.s 1)) ⊞ ((((.k 84 5) ⊠ (.s 3)) ⊠ (.s 0)) ⊠ (.c 1))) ⊞ (((((.k 84 5) ⊠ (.c 3)) ⊠ (.s 2)) ⊞ ((.k 2075 5) ⊠ (.c 2))) ⊠ (.c 0))) ⊠ (.c 5))) ⊞ ((((.k 1063 5) ⊠ (.s 2)) ⊠ (.s 0)) ⊠ (.s 1))) ⊟ (((.k 1063 5) ⊠ (.c 2)) ⊠ (.c 0))) ⊠ (.s 4)) ⊞ ((((((((((((((((.neg (.k 296 3)) ⊠ (.c 3)) ⊟ (.k 416 3)) ⊠ (.c 2)) ⊠ (.s 0)) ⊟ (((.k 178 3) ⊠ (.s 2)) ⊠ (.c 0))) ⊠ (.s 1)) ⊟ ((((.k 296 3) ⊠ (.s 3)) ⊠ (.s 0)) ⊠ (.c 1))) ⊟ (((.k 178 3) ⊠ (.c 2)) ⊠ (.s 0))) ⊞ (((((.neg (.k 296 3)) ⊠ (.c 3)) ⊟ (.k 416 3)) ⊠ (.s 2)) ⊠ (.c 0))) ⊠ (.s 5)) ⊞ ((((((((.k 84 5) ⊠ (.s 2)) ⊞ (((.k 2075 5) ⊠ (.c 3)) ⊠ (.c 2))) ⊠ (.s 0)) ⊠ (.s 1)) ⊞ ((((.k 2075 5) ⊠ (.s 3)) ⊠ (.s 0)) ⊠ (.c 1))) ⊞ (((((.k 2075 5) ⊠ (.c 3)) ⊠ (.s 2)) ⊟ ((.k 84 5) ⊠ (.c 2))) ⊠ (.c 0))) ⊠ (.c 5))) ⊟ (((((.k 1063 5) ⊠ (.c 3)) ⊠ (.c 2)) ⊠ (.s 0)) ⊠ (.s 1))) ⊟ ((((.k 1063 5) ⊠ (.s 3)) ⊠ (.s 0)) ⊠ (.c 1))) ⊟ ((((.k 1063 5) ⊠ (.c 3)) ⊠ (.s 2)) ⊠ (.c 0))) ⊠ (.c 4))) ⊞ ((((((((.neg (.k 84 5)) ⊠ (.s 3)) ⊠ (.c 2)) ⊠ (.s 0)) ⊠ (.s 1)) ⊞ ((((.k 84 5) ⊠ (.c 3)) ⊠ (.s 0)) ⊠ (.c 1))) ⊟ ((((.k 84 5) ⊠ (.s 3)) ⊠ (.s 2)) ⊠ (.c 0))) ⊠ (.s 5))) ⊞ ((((((((((.k 416 3) ⊠ (.s 3)) ⊠ (.s 2)) ⊠ (.s 0)) ⊟ ((((.k 178 3) ⊠ (.s 3)) ⊠ (.c 2)) ⊠ (.c 0))) ⊠ (.s 1)) ⊞ ((((.k 178 3) ⊠ (.c 3)) ⊠ (.c 0)) ⊠ (.c 1))) ⊞ ((((.k 178 3) ⊠ (.s 3)) ⊠ (.s 2)) ⊠ (.s 0))) ⊟ ((((.k 416 3) ⊠ (.s 3)) ⊠ (.c 2)) ⊠ (.c 0))) ⊠ (.c 5))⟩,
    ⟨1, 4, ((((((((((((((.k 2075 5) ⊠ (.s 2)) ⊟ (((.k 84 5) ⊠ (.c 3)) ⊠ (.c 2))) ⊠ (.s 0)) ⊠ (.s 1)) ⊟ ((((.k 84 5) ⊠ (.s 3)) ⊠ (.s 0)) ⊠ (.c 1))) ⊞ (((((.neg (.k 84 5)) ⊠ (.c 3)) ⊠ (.s 2)) ⊟ ((.k 2075 5) ⊠ (.c 2))) ⊠ (.c 0))) ⊠ (.s 5)) ⊞ (((((((((((.k 416 3) ⊠ (.c 3)) ⊞ (.k 296 3)) ⊠ (.s 2)) ⊠ (.s 0)) ⊟ ((((.k 178 3) ⊠ (.c 3)) ⊠ (.c 2)) ⊠ (.c 0))) ⊠ (.s 1)) ⊟ ((((.k 178 3) ⊠ (.s 3)) ⊠ (.c 0)) ⊠ (.c 1))) ⊞ ((((.k 178 3) ⊠ (.c 3)) ⊠ (.s 2)) ⊠ (.s 0))) ⊞ (((((.neg (.k 416 3)) ⊠ (.c 3)) ⊟ (.k 296 3)) ⊠ (.c 2)) ⊠ (.c 0))) ⊠ (.c 5))) ⊟ ((((.k 7876 5) ⊠ (.s 2)) ⊠ (.s 0)) ⊠ (.s 1))) ⊞ (((.k 7876 5) ⊠ (.c 2)) ⊠ (.c 0))) ⊠ (.s 4)) ⊞ (((((((((((((.neg (.k 84 5)) ⊠ (.s 2)) ⊟ (((.k 2075 5) ⊠ (.c 3)) ⊠ (.c 2))) ⊠ (.s 0)) ⊠ (.s 1)) ⊟ ((((.k 2075 5) ⊠ (.s 3)) ⊠ (.s 0)) ⊠ (.c 1))) ⊞ ((((.k 84 5) ⊠ (.c 2)) ⊟ (((.k 2075 5) ⊠ (.c 3)) ⊠ (.s 2))) ⊠ (.c 0))) ⊠ (.s 5)) ⊞ (((((((((((.neg (.k 296 3)) ⊠ (.c 3)) ⊟ (.k 416 3)) ⊠ (.c 2)) ⊠ (.s 0)) ⊟ (((.k 178 3) ⊠ (.s 2)) ⊠ (.c 0))) ⊠ (.s 1)) ⊟ ((((.k 296 3) ⊠ (.s 3)) ⊠ (.s 0)) ⊠ (.c 1))) ⊟ (((.k 178 3) ⊠ (.c 2)) ⊠ (.s 0))) ⊞ (((((.neg (.k 296 3)) ⊠ (.c 3)) ⊟ (.k 416 3)) ⊠ (.s 2)) ⊠ (.c 0))) ⊠ (.c 5))) ⊞ (((((.k 7876 5) ⊠ (.c 3)) ⊠ (.c 2)) ⊠ (.s 0)) ⊠ (.s 1))) ⊞ ((((.k 7876 5) ⊠ (.s 3)) ⊠ (.s 0)) ⊠ (.c 1))) ⊞ ((((.k 7876 5) ⊠ (.c 3)) ⊠ (.s 2)) ⊠ (.c 0))) ⊠ (.c 4))) ⊞ ((((((((((.k 178 3) ⊠ (.s 3)) ⊠ (.c 2)) ⊠ (.c 0)) ⊟ ((((.k 416 3) ⊠ (.s 3)) ⊠ (.s 2)) ⊠ (.s 0))) ⊠ (.s 1)) ⊟ ((((.k 178 3) ⊠ (.c 3)) ⊠ (.c 0)) ⊠ (.c 1))) ⊟ ((((.k 178 3) ⊠ (.s 3)) ⊠ (.s 2)) ⊠ (.s 0))) ⊞ ((((.k 416 3) ⊠ (.s 3)) ⊠ (.c 2)) ⊠ (.c 0))) ⊠ (.s 5))) ⊞ ((((((((.neg (.k 84 5)) ⊠ (.s 3)) ⊠ (.c 2)) ⊠ (.s 0)) ⊠ (.s 1)) ⊞ ((((.k 84 5) ⊠ (.c 3)) ⊠ (.s 0)) ⊠ (.c 1))) ⊟ ((((.k 84 5) ⊠ (.s 3)) ⊠ (.s 2)) ⊠ (.c 0))) ⊠ (.c 5))⟩,
    ⟨1, 5, (((((((((((((((((((.k 1063 5) ⊠ (.c 3)) ⊠ (.c 2)) ⊠ (.s 0)) ⊠ (.s 1)) ⊞ ((((.k 1063 5) ⊠ (.s 3)) ⊠ (.s 0)) ⊠ (.c 1))) ⊞ ((((.k 1063 5) ⊠ (.c 3)) ⊠ (.s 2)) ⊠ (.c 0))) ⊠ (.s 5)) ⊞ ((((((((.neg (.k 7876 5)) ⊠ (.c 3)) ⊠ (.c 2)) ⊠ (.s 0)) ⊠ (.s 1)) ⊟ ((((.k 7876 5) ⊠ (.s 3)) ⊠ (.s 0)) ⊠ (.c 1))) ⊟ ((((.k 7876 5) ⊠ (.c 3)) ⊠ (.s 2)) ⊠ (.c 0))) ⊠ (.c 5))) ⊞ (((((((.k 296 3) ⊠ (.c 3)) ⊞ (.k 416 3)) ⊠ (.c 2)) ⊠ (.s 0)) ⊞ (((.k 178 3) ⊠ (.s 2)) ⊠ (.c 0))) ⊠ (.s 1))) ⊞ ((((.k 296 3) ⊠ (.s 3)) ⊠ (.s 0)) ⊠ (.c 1))) ⊞ (((.k 178 3) ⊠ (.c 2)) ⊠ (.s 0))) ⊞ (((((.k 296 3) ⊠ (.c 3)) ⊞ (.k 416 3)) ⊠ (.s 2)) ⊠ (.c 0))) ⊠ (.s 4)) ⊞ ((((((((((((.k 1063 5) ⊠ (.s 2)) ⊠ (.s 0)) ⊠ (.s 1)) ⊟ (((.k 1063 5) ⊠ (.c 2)) ⊠ (.c 0))) ⊠ (.s 5)) ⊞ (((((.k 7876 5) ⊠ (.c 2)) ⊠ (.c 0)) ⊟ ((((.k 7876 5) ⊠ (.s 2)) ⊠ (.s 0)) ⊠ (.s 1))) ⊠ (.c 5))) ⊞ (((((((.k 416 3) ⊠ (.c 3)) ⊞ (.k 296 3)) ⊠ (.s 2)) ⊠ (.s 0)) ⊟ ((((.k 178 3) ⊠ (.c 3)) ⊠ (.c 2)) ⊠ (.c 0))) ⊠ (.s 1))) ⊟ ((((.k 178 3) ⊠ (.s 3)) ⊠ (.c 0)) ⊠ (.c 1))) ⊞ ((((.k 178 3) ⊠ (.c 3)) ⊠ (.s 2)) ⊠ (.s 0))) ⊞ (((((.neg (.k 416 3)) ⊠ (.c 3)) ⊟ (.k 296 3)) ⊠ (.c 2)) ⊠ (.c 0))) ⊠ (.c 4))) ⊞ ((((((((.k 7876 5) ⊠ (.s 3)) ⊠ (.c 2)) ⊠ (.s 0)) ⊠ (.s 1)) ⊟ ((((.k 7876 5) ⊠ (.c 3)) ⊠ (.s 0)) ⊠ (.c 1))) ⊞ ((((.k 7876 5) ⊠ (.s 3)) ⊠ (.s 2)) ⊠ (.c 0))) ⊠ (.s 5))) ⊞ ((((((((.k 1063 5) ⊠ (.s 3)) ⊠ (.c 2)) ⊠ (.s 0)) ⊠ (.s 1)) ⊟ ((((.k 1063 5) ⊠ (.c 3)) ⊠ (.s 0)) ⊠ (.c 1))) ⊞ ((((.k 1063 5) ⊠ (.s 3)) ⊠ (.s 2)) ⊠ (.c 0))) ⊠ (.c 5))) ⊟ (((((.k 2075 5) ⊠ (.s 3)) ⊠ (.c 2)) ⊠ (.s 0)) ⊠ (.s 1))) ⊞ ((((.k 2075 5) ⊠ (.c 3)) ⊠ (.s 0)) ⊠ (.c 1))) ⊟ ((((.k 2075 5) ⊠ (.s 3)) ⊠ (.s 2)) ⊠ (.c 0))⟩,
    ⟨2, 0, ((((((((.k 1 0) ⊠ (.c 3)) ⊠ (.c 2)) ⊠ (.c 1)) ⊟ ((.s 3) ⊠ (.s 1))) ⊠ (.s 5)) ⊠ (.s 4)) ⊞ ((((.s 2) ⊠ (.c 1)) ⊠ (.s 5)) ⊠ (.c 4))) ⊞ (((((.k 1 0) ⊠ (.c 3)) ⊠ (.s 1)) ⊞ (((.s 3) ⊠ (.c 2)) ⊠ (.c 1))) ⊠ (.c 5))⟩,
    ⟨2, 1, ((((((((.k 1 0) ⊠ (.c 3)) ⊠ (.c 2)) ⊠ (.c 1)) ⊟ ((.s 3) ⊠ (.s 1))) ⊠ (.c 5)) ⊠ (.s 4)) ⊞ ((((.s 2) ⊠ (.c 1)) ⊠ (.c 5)) ⊠ (.c 4))) ⊞ ((((.neg (.c 3)) ⊠ (.s 1)) ⊟ (((.s 3) ⊠ (.c 2)) ⊠ (.c 1))) ⊠ (.s 5))⟩,
    ⟨2, 2, ((((((.k 1 0) ⊠ (.c 3)) ⊠ (.c 2)) ⊠ (.c 1)) ⊟ ((.s 3) ⊠ (.s 1))) ⊠ (.c 4)) ⊟ (((.s 2) ⊠ (.c 1)) ⊠ (.s 4))⟩,
    ⟨2, 3, (((((((((((.neg (.k 416 3)) ⊠ (.c 3)) ⊟ (.k 296 3)) ⊠ (.s 2)) ⊠ (.c 1)) ⊠ (.s 5)) ⊞ (((((.k 84 5) ⊠ (.s 3)) ⊠ (.s 1)) ⊞ ((((.k 2075 5) ⊠ (.s 2)) ⊟ (((.k 84 5) ⊠ (.c 3)) ⊠ (.c 2))) ⊠ (.c 1))) ⊠ (.c 5))) ⊟ (((.k 1063 5) ⊠ (.s 2)) ⊠ (.c 1))) ⊠ (.s 4)) ⊞ (((((((((((.k 296 3) ⊠ (.c 3)) ⊞ (.k 416 3)) ⊠ (.c 2)) ⊠ (.c 1)) ⊟ (((.k 296 3) ⊠ (.s 3)) ⊠ (.s 1))) ⊠ (.s 5)) ⊞ (((((.k 2075 5) ⊠ (.s 3)) ⊠ (.s 1)) ⊞ ((((.neg (.k 84 5)) ⊠ (.s 2)) ⊟ (((.k 2075 5) ⊠ (.c 3)) ⊠ (.c 2))) ⊠ (.c 1))) ⊠ (.c 5))) ⊟ (((.k 1063 5) ⊠ (.s 3)) ⊠ (.s 1))) ⊞ ((((.k 1063 5) ⊠ (.c 3)) ⊠ (.c 2)) ⊠ (.c 1))) ⊠ (.c 4))) ⊞ (((((.k 84 5) ⊠ (.c 3)) ⊠ (.s 1)) ⊞ ((((.k 84 5) ⊠ (.s 3)) ⊠ (.c 2)) ⊠ (.c 1))) ⊠ (.s 5))) ⊟ (((((.k 416 3) ⊠ (.s 3)) ⊠ (.s 2)) ⊠ (.c 1)) ⊠ (.c 5))⟩,
    ⟨2, 4, ((((((((((((.k 84 5) ⊠ (.c 3)) ⊠ (.c 2)) ⊟ ((.k 2075 5) ⊠ (.s 2))) ⊠ (.c 1)) ⊟ (((.k 84 5) ⊠ (.s 3)) ⊠ (.s 1))) ⊠ (.s 5)) ⊞ ((((((.neg (.k 416 3)) ⊠ (.c 3)) ⊟ (.k 296 3)) ⊠ (.s 2)) ⊠ (.c 1)) ⊠ (.c 5))) ⊞ (((.k 7876 5) ⊠ (.s 2)) ⊠ (.c 1))) ⊠ (.s 4)) ⊞ ((((((((((.k 84 5) ⊠ (.s 2)) ⊞ (((.k 2075 5) ⊠ (.c 3)) ⊠ (.c 2))) ⊠ (.c 1)) ⊟ (((.k 2075 5) ⊠ (.s 3)) ⊠ (.s 1))) ⊠ (.s 5)) ⊞ (((((((.k 296 3) ⊠ (.c 3)) ⊞ (.k 416 3)) ⊠ (.c 2)) ⊠ (.c 1)) ⊟ (((.k 296 3) ⊠ (.s 3)) ⊠ (.s 1))) ⊠ (.c 5))) ⊞ (((.k 7876 5) ⊠ (.s 3)) ⊠ (.s 1))) ⊟ ((((.k 7876 5) ⊠ (.c 3)) ⊠ (.c 2)) ⊠ (.c 1))) ⊠ (.c 4))) ⊞ (((((.k 416 3) ⊠ (.s 3)) ⊠ (.s 2)) ⊠ (.c 1)) ⊠ (.s 5))) ⊞ (((((.k 84 5) ⊠ (.c 3)) ⊠ (.s 1)) ⊞ ((((.k 84 5) ⊠ (.s 3)) ⊠ (.c 2)) ⊠ (.c 1))) ⊠ (.c 5))⟩,
    ⟨2, 5, (((((((((((((.k 1063 5) ⊠ (.s 3)) ⊠ (.s 1)) ⊟ ((((.k 1063 5) ⊠ (.c 3)) ⊠ (.c 2)) ⊠ (.c 1))) ⊠ (.s 5)) ⊞ ((((((.k 7876 5) ⊠ (.c 3)) ⊠ (.c 2)) ⊠ (.c 1)) ⊟ (((.k 7876 5) ⊠ (.s 3)) ⊠ (.s 1))) ⊠ (.c 5))) ⊞ (((.k 296 3) ⊠ (.s 3)) ⊠ (.s 1))) ⊞ (((((.neg (.k 296 3)) ⊠ (.c 3)) ⊟ (.k 416 3)) ⊠ (.c 2)) ⊠ (.c 1))) ⊠ (.s 4)) ⊞ (((((((.neg (.k 1063 5)) ⊠ (.s 2)) ⊠ (.c 1)) ⊠ (.s 5)) ⊞ ((((.k 7876 5) ⊠ (.s 2)) ⊠ (.c 1)) ⊠ (.c 5))) ⊞ (((((.neg (.k 416 3)) ⊠ (.c 3)) ⊟ (.k 296 3)) ⊠ (.s 2)) ⊠ (.c 1))) ⊠ (.c 4))) ⊞ (((((.neg (.k 7876 5)) ⊠ (.c 3)) ⊠ (.s 1)) ⊟ ((((.k 7876 5) ⊠ (.s 3)) ⊠ (.c 2)) ⊠ (.c 1))) ⊠ (.s 5))) ⊞ (((((.neg (.k 1063 5)) ⊠ (.c 3)) ⊠ (.s 1)) ⊟ ((((.k 1063 5) ⊠ (.s 3)) ⊠ (.c 2)) ⊠ (.c 1))) ⊠ (.c 5))) ⊞ (((.k 2075 5) ⊠ (.c 3)) ⊠ (.s 1))) ⊞ ((((.k 2075 5) ⊠ (.s 3)) ⊠ (.c 2)) ⊠ (.c 1))⟩,
    ⟨3, 3, (((((((((.neg (.c 3)) ⊠ (.c 2)) ⊠ (.c 0)) ⊠ (.s 1)) ⊟ (((.s 3) ⊠ (.c 0)) ⊠ (.c 1))) ⊞ (((.c 3) ⊠ (.s 2)) ⊠ (.s 0))) ⊠ (.s 5)) ⊠ (.s 4)) ⊞ ((((((.neg (.s 2)) ⊠ (.c 0)) ⊠ (.s 1)) ⊟ ((.c 2) ⊠ (.s 0))) ⊠ (.s 5)) ⊠ (.c 4))) ⊞ (((((((.neg (.s 3)) ⊠ (.c 2)) ⊠ (.c 0)) ⊠ (.s 1)) ⊞ (((.c 3) ⊠ (.c 0)) ⊠ (.c 1))) ⊞ (((.s 3) ⊠ (.s 2)) ⊠ (.s 0))) ⊠ (.c 5))⟩,
    ⟨3, 4, (((((((((.neg (.c 3)) ⊠ (.c 2)) ⊠ (.c 0)) ⊠ (.s 1)) ⊟ (((.s 3) ⊠ (.c 0)) ⊠ (.c 1))) ⊞ (((.c 3) ⊠ (.s 2)) ⊠ (.s 0))) ⊠ (.c 5)) ⊠ (.s 4)) ⊞ ((((((.neg (.s 2)) ⊠ (.c 0)) ⊠ (.s 1)) ⊟ ((.c 2) ⊠ (.s 0))) ⊠ (.c 5)) ⊠ (.c 4))) ⊞ ((((((((.k 1 0) ⊠ (.s 3)) ⊠ (.c 2)) ⊠ (.c 0)) ⊠ (.s 1)) ⊟ (((.c 3) ⊠ (.c 0)) ⊠ (.c 1))) ⊟ (((.s 3) ⊠ (.s 2)) ⊠ (.s 0))) ⊠ (.s 5))⟩,
    ⟨3, 5, ((((((.k 1 0) ⊠ (.s 2)) ⊠ (.c 0)) ⊠ (.s 1)) ⊞ ((.c 2) ⊠ (.s 0))) ⊠ (.s 4)) ⊞ (((((((.neg (.c 3)) ⊠ (.c 2)) ⊠ (.c 0)) ⊠ (.s 1)) ⊟ (((.s 3) ⊠ (.c 0)) ⊠ (.c 1))) ⊞ (((.c 3) ⊠ (.s 2)) ⊠ (.s 0))) ⊠ (.c 4))⟩,
    ⟨4, 3, (((((((((.neg (.c 3)) ⊠ (.c 2)) ⊠ (.s 0)) ⊠ (.s 1)) ⊟ (((.s 3) ⊠ (.s 0)) ⊠ (.c 1))) ⊟ (((.c 3) ⊠ (.s 2)) ⊠ (.c 0))) ⊠ (.s 5)) ⊠ (.s 4)) ⊞ ((((((.k 1 0) ⊠ (.c 2)) ⊠ (.c 0)) ⊟ (((.s 2) ⊠ (.s 0)) ⊠ (.s 1))) ⊠ (.s 5)) ⊠ (.c 4))) ⊞ (((((((.neg (.s 3)) ⊠ (.c 2)) ⊠ (.s 0)) ⊠ (.s 1)) ⊞ (((.c 3) ⊠ (.s 0)) ⊠ (.c 1))) ⊟ (((.s 3) ⊠ (.s 2)) ⊠ (.c 0))) ⊠ (.c 5))⟩,
    ⟨4, 4, (((((((((.neg (.c 3)) ⊠ (.c 2)) ⊠ (.s 0)) ⊠ (.s 1)) ⊟ (((.s 3) ⊠ (.s 0)) ⊠ (.c 1))) ⊟ (((.c 3) ⊠ (.s 2)) ⊠ (.c 0))) ⊠ (.c 5)) ⊠ (.s 4)) ⊞ ((((((.k 1 0) ⊠ (.c 2)) ⊠ (.c 0)) ⊟ (((.s 2) ⊠ (.s 0)) ⊠ (.s 1))) ⊠ (.c 5)) ⊠ (.c 4))) ⊞ ((((((((.k 1 0) ⊠ (.s 3)) ⊠ (.c 2)) ⊠ (.s 0)) ⊠ (.s 1)) ⊟ (((.c 3) ⊠ (.s 0)) ⊠ (.c 1))) ⊞ (((.s 3) ⊠ (.s 2)) ⊠ (.c 0))) ⊠ (.s 5))⟩,
    ⟨4, 5, ((((((.k 1 0) ⊠ (.s 2)) ⊠ (.s 0)) ⊠ (.s 1)) ⊟ ((.c 2) ⊠ (.c 0))) ⊠ (.s 4)) ⊞ (((((((.neg (.c 3)) ⊠ (.c 2)) ⊠ (.s 0)) ⊠ (.s 1)) ⊟ (((.s 3) ⊠ (.s 0)) ⊠ (.c 1))) ⊟ (((.c 3) ⊠ (.s 2)) ⊠ (.c 0))) ⊠ (.c 4))⟩,
    ⟨5, 3, ((((((((.k 1 0) ⊠ (.c 3)) ⊠ (.c 2)) ⊠ (.c 1)) ⊟ ((.s 3) ⊠ (.s 1))) ⊠ (.s 5)) ⊠ (.s 4)) ⊞ ((((.s 2) ⊠ (.c 1)) ⊠ (.s 5)) ⊠ (.c 4))) ⊞ (((((.k 1 0) ⊠ (.c 3)) ⊠ (.s 1)) ⊞ (((.s 3) ⊠ (.c 2)) ⊠ (.c 1))) ⊠ (.c 5))⟩,
    ⟨5, 4, ((((((((.k 1 0) ⊠ (.c 3)) ⊠ (.c 2)) ⊠ (.c 1)) ⊟ ((.s 3) ⊠ (.s 1))) ⊠ (.c 5)) ⊠ (.s 4)) ⊞ ((((.s 2) ⊠ (.c 1)) ⊠ (.c 5)) ⊠ (.c 4))) ⊞ ((((.neg (.c 3)) ⊠ (.s 1)) ⊟ (((.s 3) ⊠ (.c 2)) ⊠ (.c 1))) ⊠ (.s 5))⟩,
    ⟨5, 5, ((((((.k 1 0) ⊠ (.c 3)) ⊠ (.c 2)) ⊠ (.c 1)) ⊟ ((.s 3) ⊠ (.s 1))) ⊠ (.c 4)) ⊟ (((.s 2) ⊠ (.c 1)) ⊠ (.s 4))⟩]

/-- The transforms `fr_HyABase_X_fr_Wrist_FE_COM`. -/
def fr_HyABase_X_fr_Wrist_FE_COM : Trans := ⟨fr_HyABase, fr_Wrist_FE_COM, hom_fr_HyABase_X_fr_Wrist_FE_COM, motion_fr_HyABase_X_fr_Wrist_FE_COM, force_fr_HyABase_X_fr_Wrist_FE_COM⟩

/-- `HomogeneousTransforms::Type_fr_HyABase_X_fr_Shoulder_AA_CTR` (transforms.impl.h:6415-6429, 6431-6443). -/
def hom_fr_HyABase_X_fr_Shoulder_AA_CTR : Gen where
  rows := 4
  cols := 4
  ctor := [⟨0, 2, .k 0 0⟩,
    ⟨0, 3, .k 0 0⟩,
    ⟨1, 2, .k 0 0⟩,
    ⟨1, 3, .k 0 0⟩,
    ⟨2, 0, .k 0 0⟩,
    ⟨2, 1, .k 0 0⟩,
    ⟨2, 2, .k 1 0⟩,
    ⟨2, 3, .k 89 3⟩,
    ⟨3, 0, .k 0 0⟩,
    ⟨3, 1, .k 0 0⟩,
    ⟨3, 2, .k 0 0⟩,
    ⟨3, 3, .k 1 0⟩]
  upd := [⟨0, 0, .c 0⟩,
    ⟨0, 1, .neg (.s 0)⟩,
    ⟨1, 0, .s 0⟩,
    ⟨1, 1, .c 0⟩]

/-- `MotionTransforms::Type_fr_HyABase_X_fr_Shoulder_AA_CTR` (transforms.impl.h:977-1003, 1005-1025). -/
def motion_fr_HyABase_X_fr_Shoulder_AA_CTR : Gen where
  rows := 6
  cols := 6
  ctor := [⟨0, 2, .k 0 0⟩,
    ⟨0, 3, .k 0 0⟩,
    ⟨0, 4, .k 0 0⟩,
    ⟨0, 5, .k 0 0⟩,
    ⟨1, 2, .k 0 0⟩,
    ⟨1, 3, .k 0 0⟩,
    ⟨1, 4, .k 0 0⟩,
    ⟨1, 5, .k 0 0⟩,
    ⟨2, 0, .k 0 0⟩,
    ⟨2, 1, .k 0 0⟩,
    ⟨2, 2, .k 1 0⟩,
    ⟨2, 3, .k 0 0⟩,
    ⟨2, 4, .k 0 0⟩,
    ⟨2, 5, .k 0 0⟩,
    ⟨3, 2, .k 0 0⟩,
    ⟨3, 5, .k 0 0⟩,
    ⟨4, 2, .k 0 0⟩,
    ⟨4, 5, .k 0 0⟩,
    ⟨5, 0, .k 0 0⟩,
    ⟨5, 1, .k 0 0⟩,
    ⟨5, 2, .k 0 0⟩,
    ⟨5, 3, .k 0 0⟩,
    ⟨5, 4, .k 0 0⟩,
    ⟨5, 5, .k 1 0⟩]
  upd := [⟨0, 0, .c 0⟩,
    ⟨0, 1, .neg (.s 0)⟩,
    ⟨1, 0, .s 0⟩,
    ⟨1, 1, .c 0⟩,
    ⟨3, 0, (.neg (.k 89 3)) ⊠ (.s 0)⟩,
    ⟨3, 1, (.neg (.k 89 3)) ⊠ (.c 0)⟩,
    ⟨3, 3, .c 0⟩,
    ⟨3, 4, .neg (.s 0)⟩,
    ⟨4, 0, (.k 89 3) ⊠ (.c 0)⟩,
    ⟨4, 1, (.neg (.k 89 3)) ⊠ (.s 0)⟩,
    ⟨4, 3, .s 0⟩,
    ⟨4, 4, .c 0⟩]

/-- `ForceTransforms::Type_fr_HyABase_X_fr_Shoulder_AA_CTR` (transforms.impl.h:3826-3852, 3854-3874). -/
def force_fr_HyABase_X_fr_Shoulder_AA_CTR : Gen where
  rows := 6
  cols := 6
  ctor := [⟨0, 2, .k 0 0⟩,
    ⟨0, 5, .k 0 0⟩,
    ⟨1, 2, .k 0 0⟩,
    ⟨1, 5, .k 0 0⟩,
    ⟨2, 0, .k 0 0⟩,
    ⟨2, 1, .k 0 0⟩,
    ⟨2, 2, .k 1 0⟩,
    ⟨2, 3, .k 0 0⟩,
    ⟨2, 4, .k 0 0⟩,
    ⟨2, 5, .k 0 0⟩,
    ⟨3, 0, .k 0 0⟩,
    ⟨3, 1, .k 0 0⟩,
    ⟨3, 2, .k 0 0⟩,
    ⟨3, 5, .k 0 0⟩,
    ⟨4, 0, .k 0 0⟩,
    ⟨4, 1, .k 0 0⟩,
    ⟨4, 2, .k 0 0⟩,
    ⟨4, 5, .k 0 0⟩,
    ⟨5, 0, .k 0 0⟩,
    ⟨5, 1, .k 0 0⟩,
    ⟨5, 2, .k 0 0⟩,
    ⟨5, 3, .k 0 0⟩,
    ⟨5, 4, .k 0 0⟩,
    ⟨5, 5, .k 1 0⟩]
  upd := [⟨0, 0, .c 0⟩,
    ⟨0, 1, .neg (.s 0)⟩,
    ⟨0, 3, (.neg (.k 89 3)) ⊠ (.s 0)⟩,
    ⟨0, 4, (.neg (.k 89 3)) ⊠ (.c 0)⟩,
    ⟨1, 0, .s 0⟩,
    ⟨1, 1, .c 0⟩,
    ⟨1, 3, (.k 89 3) ⊠ (.c 0)⟩,
    ⟨1, 4, (.neg (.k 89 3)) ⊠ (.s 0)⟩,
    ⟨3, 3, .c 0⟩,
    ⟨3, 4, .neg (.s 0)⟩,
    ⟨4, 3, .s 0⟩,
    ⟨4, 4, .c 0⟩]

/-- The transforms `fr_HyABase_X_fr_Shoulder_AA_CTR`. -/
def fr_HyABase_X_fr_Shoulder_AA_CTR : Trans := ⟨fr_HyABase, fr_Shoulder_AA_CTR, hom_fr_HyABase_X_fr_Shoulder_AA_CTR, motion_fr_HyABase_X_fr_Shoulder_AA_CTR, force_fr_HyABase_X_fr_Shoulder_AA_CTR⟩

/-- `HomogeneousTransforms::Type_fr_HyABase_X_fr_Shoulder_FE_CTR` (transforms.impl.h:6445-6452, 6454-6477). -/
def hom_fr_HyABase_X_fr_Shoulder_FE_CTR : Gen where
  rows := 4
  cols := 4
  ctor := [⟨2, 2, .k 0 0⟩,
    ⟨3, 0, .k 0 0⟩,
    ⟨3, 1, .k 0 0⟩,
    ⟨3, 2, .k 0 0⟩,
    ⟨3, 3, .k 1 0⟩]
  upd := [⟨0, 0, (.c 0) ⊠ (.c 1)⟩,
    ⟨0, 1, (.neg (.c 0)) ⊠ (.s 1)⟩,
    ⟨0, 2, .s 0⟩,
    ⟨0, 3, ((.k 56 3) ⊠ (.c 0)) ⊠ (.c 1)⟩,
    ⟨1, 0, (.s 0) ⊠ (.c 1)⟩,
    ⟨1, 1, (.neg (.s 0)) ⊠ (.s 1)⟩,
    ⟨1, 2, .neg (.c 0)⟩,
    ⟨1, 3, ((.k 56 3) ⊠ (.s 0)) ⊠ (.c 1)⟩,
    ⟨2, 0, .s 1⟩,
    ⟨2, 1, .c 1⟩,
    ⟨2, 3, ((.k 56 3) ⊠ (.s 1)) ⊞ (.k 178 3)⟩]

/-- `MotionTransforms::Type_fr_HyABase_X_fr_Shoulder_FE_CTR` (transforms.impl.h:1027-1042, 1044-1079). -/
def motion_fr_HyABase_X_fr_Shoulder_FE_CTR : Gen where
  rows := 6
  cols := 6
  ctor := [⟨0, 3, .k 0 0⟩,
    ⟨0, 4, .k 0 0⟩,
    ⟨0, 5, .k 0 0⟩,
    ⟨1, 3, .k 0 0⟩,
    ⟨1, 4, .k 0 0⟩,
    ⟨1, 5, .k 0 0⟩,
    ⟨2, 2, .k 0 0⟩,
    ⟨2, 3, .k 0 0⟩,
    ⟨2, 4, .k 0 0⟩,
    ⟨2, 5, .k 0 0⟩,
    ⟨5, 0, .k 0 0⟩,
    ⟨5, 1, .k 0 0⟩,
    ⟨5, 5, .k 0 0⟩]
  upd := [⟨0, 0, (.c 0) ⊠ (.c 1)⟩,
    ⟨0, 1, (.neg (.c 0)) ⊠ (.s 1)⟩,
    ⟨0, 2, .s 0⟩,
    ⟨1, 0, (.s 0) ⊠ (.c 1)⟩,
    ⟨1, 1, (.neg (.s 0)) ⊠ (.s 1)⟩,
    ⟨1, 2, .neg (.c 0)⟩,
    ⟨2, 0, .s 1⟩,
    ⟨2, 1, .c 1⟩,
    ⟨3, 0, ((.neg (.k 178 3)) ⊠ (.s 0)) ⊠ (.c 1)⟩,
    ⟨3, 1, (((.k 178 3) ⊠ (.s 0)) ⊠ (.s 1)) ⊞ ((.k 56 3) ⊠ (.s 0))⟩,
    ⟨3, 2, (((.k 56 3) ⊠ (.c 0)) ⊠ (.s 1)) ⊞ ((.k 178 3) ⊠ (.c 0))⟩,
    ⟨3, 3, (.c 0) ⊠ (.c 1)⟩,
    ⟨3, 4, (.neg (.c 0)) ⊠ (.s 1)⟩,
    ⟨3, 5, .s 0⟩,
    ⟨4, 0, ((.k 178 3) ⊠ (.c 0)) ⊠ (.c 1)⟩,
    ⟨4, 1, (((.neg (.k 178 3)) ⊠ (.c 0)) ⊠ (.s 1)) ⊟ ((.k 56 3) ⊠ (.c 0))⟩,
    ⟨4, 2, (((.k 56 3) ⊠ (.s 0)) ⊠ (.s 1)) ⊞ ((.k 178 3) ⊠ (.s 0))⟩,
    ⟨4, 3, (.s 0) ⊠ (.c 1)⟩,
    ⟨4, 4, (.neg (.s 0)) ⊠ (.s 1)⟩,
    ⟨4, 5, .neg (.c 0)⟩,
    ⟨5, 2, (.neg (.k 56 3)) ⊠ (.c 1)⟩,
    ⟨5, 3, .s 1⟩,
    ⟨5, 4, .c 1⟩]

/-- `ForceTransforms::Type_fr_HyABase_X_fr_Shoulder_FE_CTR` (transforms.impl.h:3876-3891, 3893-3928). -/
def force_fr_HyABase_X_fr_Shoulder_FE_CTR : Gen where
  rows := 6
  cols := 6
  ctor := [⟨2, 2, .k 0 0⟩,
    ⟨2, 3, .k 0 0⟩,
    ⟨2, 4, .k 0 0⟩,
    ⟨3, 0, .k 0 0⟩,
    ⟨3, 1, .k 0 0⟩,
    ⟨3, 2, .k 0 0⟩,
    ⟨4, 0, .k 0 0⟩,
    ⟨4, 1, .k 0 0⟩,
    ⟨4, 2, .k 0 0⟩,
    ⟨5, 0, .k 0 0⟩,
    ⟨5, 1, .k 0 0⟩,
    ⟨5, 2, .k 0 0⟩,
    ⟨5, 5, .k 0 0⟩]
  upd := [⟨0, 0, (.c 0) ⊠ (.c 1)⟩,
    ⟨0, 1, (.neg (.c 0)) ⊠ (.s 1)⟩,
    ⟨0, 2, .s 0⟩,
    ⟨0, 3, ((.neg (.k 178 3)) ⊠ (.s 0)) ⊠ (.c 1)⟩,
    ⟨0, 4, (((.k 178 3) ⊠ (.s 0)) ⊠ (.s 1)) ⊞ ((.k 56 3) ⊠ (.s 0))⟩,
    ⟨0, 5, (((.k 56 3) ⊠ (.c 0)) ⊠ (.s 1)) ⊞ ((.k 178 3) ⊠ (.c 0))⟩,
    ⟨1, 0, (.s 0) ⊠ (.c 1)⟩,
    ⟨1, 1, (.neg (.s 0)) ⊠ (.s 1)⟩,
    ⟨1, 2, .neg (.c 0)⟩,
    ⟨1, 3, ((.k 178 3) ⊠ (.c 0)) ⊠ (.c 1)⟩,
    ⟨1, 4, (((.neg (.k 178 3)) ⊠ (.c 0)) ⊠ (.s 1)) ⊟ ((.k 56 3) ⊠ (.c 0))⟩,
    ⟨1, 5, (((.k 56 3) ⊠ (.s 0)) ⊠ (.s 1)) ⊞ ((.k 178 3) ⊠ (.s 0))⟩,
    ⟨2, 0, .s 1⟩,
    ⟨2, 1, .c 1⟩,
    ⟨2, 5, (.neg (.k 56 3)) ⊠ (.c 1)⟩,
    ⟨3, 3, (.c 0) ⊠ (.c 1)⟩,
    ⟨3, 4, (.neg (.c 0)) ⊠ (.s 1)⟩,
    ⟨3, 5, .s 0⟩,
    ⟨4, 3, (.s 0) ⊠ (.c 1)⟩,
    ⟨4, 4, (.neg (.s 0)) ⊠ (.s 1)⟩,
    ⟨4, 5, .neg (.c 0)⟩,
    ⟨5, 3, .s 1⟩,
    ⟨5, 4, .c 1⟩]

/-- The transforms `fr_HyABase_X_fr_Shoulder_FE_CTR`. -/
def fr_HyABase_X_fr_Shoulder_FE_CTR : Trans := ⟨fr_HyABase, fr_Shoulder_FE_CTR, hom_fr_HyABase_X_fr_Shoulder_FE_CTR, motion_fr_HyABase_X_fr_Shoulder_FE_CTR, force_fr_HyABase_X_fr_Shoulder_FE_CTR⟩

/-- `HomogeneousTransforms::Type_fr_HyABase_X_fr_Humerus_R_CTR` (transforms.impl.h:6479-6485, 6487-6515). -/
def hom_fr_HyABase_X_fr_Humerus_R_CTR : Gen where
  rows := 4
  cols := 4
  ctor := [⟨3, 0, .k 0 0⟩,
    ⟨3, 1, .k 0 0⟩,
    ⟨3, 2, .k 0 0⟩,
    ⟨3, 3, .k 1 0⟩]
  upd := [⟨0, 0, (((.neg (.s 2)) ⊠ (.c 0)) ⊠ (.s 1)) ⊟ ((.c 2) ⊠ (.s 0))⟩,
    ⟨0, 1, ((.s 2) ⊠ (.s 0)) ⊟ (((.c 2) ⊠ (.c 0)) ⊠ (.s 1))⟩,
    ⟨0, 2, (.c 0) ⊠ (.c 1)⟩,
    ⟨0, 3, ((.k 264 3) ⊠ (.c 0)) ⊠ (.c 1)⟩,
    ⟨1, 0, ((.c 2) ⊠ (.c 0)) ⊟ (((.s 2) ⊠ (.s 0)) ⊠ (.s 1))⟩,
    ⟨1, 1, (((.neg (.c 2)) ⊠ (.s 0)) ⊠ (.s 1)) ⊟ ((.s 2) ⊠ (.c 0))⟩,
    ⟨1, 2, (.s 0) ⊠ (.c 1)⟩,
    ⟨1, 3, ((.k 264 3) ⊠ (.s 0)) ⊠ (.c 1)⟩,
    ⟨2, 0, (.s 2) ⊠ (.c 1)⟩,
    ⟨2, 1, (.c 2) ⊠ (.c 1)⟩,
    ⟨2, 2, .s 1⟩,
    ⟨2, 3, ((.k 264 3) ⊠ (.s 1)) ⊞ (.k 178 3)⟩]

/-- `MotionTransforms::Type_fr_HyABase_X_fr_Humerus_R_CTR` (transforms.impl.h:1081-1093, 1095-1137). -/
def motion_fr_HyABase_X_fr_Humerus_R_CTR : Gen where
  rows := 6
  cols := 6
  ctor := [⟨0, 3, .k 0 0⟩,
    ⟨0, 4, .k 0 0⟩,
    ⟨0, 5, .k 0 0⟩,
    ⟨1, 3, .k 0 0⟩,
    ⟨1, 4, .k 0 0⟩,
    ⟨1, 5, .k 0 0⟩,
    ⟨2, 3, .k 0 0⟩,
    ⟨2, 4, .k 0 0⟩,
    ⟨2, 5, .k 0 0⟩,
    ⟨5, 2, .k 0 0⟩]
  upd := [⟨0, 0, (((.neg (.s 2)) ⊠ (.c 0)) ⊠ (.s 1)) ⊟ ((.c 2) ⊠ (.s 0))⟩,
    ⟨0, 1, ((.s 2) ⊠ (.s 0)) ⊟ (((.c 2) ⊠ (.c 0)) ⊠ (.s 1))⟩,
    ⟨0, 2, (.c 0) ⊠ (.c 1)⟩,
    ⟨1, 0, ((.c 2) ⊠ (.c 0)) ⊟ (((.s 2) ⊠ (.s 0)) ⊠ (.s 1))⟩,
    ⟨1, 1, (((.neg (.c 2)) ⊠ (.s 0)) ⊠ (.s 1)) ⊟ ((.s 2) ⊠ (.c 0))⟩,
    ⟨1, 2, (.s 0) ⊠ (.c 1)⟩,
    ⟨2, 0, (.s 2) ⊠ (.c 1)⟩,
    ⟨2, 1, (.c 2) ⊠ (.c 1)⟩,
    ⟨2, 2, .s 1⟩,
    ⟨3, 0, ((((((.k 178 3) ⊠ (.s 2)) ⊠ (.s 0)) ⊟ (((.k 264 3) ⊠ (.c 2)) ⊠ (.c 0))) ⊠ (.s 1)) ⊞ (((.k 264 3) ⊠ (.s 2)) ⊠ (.s 0))) ⊟ (((.k 178 3) ⊠ (.c 2)) ⊠ (.c 0))⟩,
    ⟨3, 1, ((((((.k 178 3) ⊠ (.c 2)) ⊠ (.s 0)) ⊞ (((.k 264 3) ⊠ (.s 2)) ⊠ (.c 0))) ⊠ (.s 1)) ⊞ (((.k 264 3) ⊠ (.c 2)) ⊠ (.s 0))) ⊞ (((.k 178 3) ⊠ (.s 2)) ⊠ (.c 0))⟩,
    ⟨3, 2, ((.neg (.k 178 3)) ⊠ (.s 0)) ⊠ (.c 1)⟩,
    ⟨3, 3, (((.neg (.s 2)) ⊠ (.c 0)) ⊠ (.s 1)) ⊟ ((.c 2) ⊠ (.s 0))⟩,
    ⟨3, 4, ((.s 2) ⊠ (.s 0)) ⊟ (((.c 2) ⊠ (.c 0)) ⊠ (.s 1))⟩,
    ⟨3, 5, (.c 0) ⊠ (.c 1)⟩,
    ⟨4, 0, ((((((.neg (.k 264 3)) ⊠ (.c 2)) ⊠ (.s 0)) ⊟ (((.k 178 3) ⊠ (.s 2)) ⊠ (.c 0))) ⊠ (.s 1)) ⊟ (((.k 178 3) ⊠ (.c 2)) ⊠ (.s 0))) ⊟ (((.k 264 3) ⊠ (.s 2)) ⊠ (.c 0))⟩,
    ⟨4, 1, ((((((.k 264 3) ⊠ (.s 2)) ⊠ (.s 0)) ⊟ (((.k 178 3) ⊠ (.c 2)) ⊠ (.c 0))) ⊠ (.s 1)) ⊞ (((.k 178 3) ⊠ (.s 2)) ⊠ (.s 0))) ⊟ (((.k 264 3) ⊠ (.c 2)) ⊠ (.c 0))⟩,
    ⟨4, 2, ((.k 178 3) ⊠ (.c 0)) ⊠ (.c 1)⟩,
    ⟨4, 3, ((.c 2) ⊠ (.c 0)) ⊟ (((.s 2) ⊠ (.s 0)) ⊠ (.s 1))⟩,
    ⟨4, 4, (((.neg (.c 2)) ⊠ (.s 0)) ⊠ (.s 1)) ⊟ ((.s 2) ⊠ (.c 0))⟩,
    ⟨4, 5, (.s 0) ⊠ (.c 1)⟩,
    ⟨5, 0, ((.k 264 3) ⊠ (.c 2)) ⊠ (.c 1)⟩,
    ⟨5, 1, ((.neg (.k 264 3)) ⊠ (.s 2)) ⊠ (.c 1)⟩,
    ⟨5, 3, (.s 2) ⊠ (.c 1)⟩,
    ⟨5, 4, (.c 2) ⊠ (.c 1)⟩,
    ⟨5, 5, .s 1⟩]

/-- `ForceTransforms::Type_fr_HyABase_X_fr_Humerus_R_CTR` (transforms.impl.h:3930-3942, 3944-3986). -/
def force_fr_HyABase_X_fr_Humerus_R_CTR : Gen where
  rows := 6
  cols := 6
  ctor := [⟨2, 5, .k 0 0⟩,
    ⟨3, 0, .k 0 0⟩,
    ⟨3, 1, .k 0 0⟩,
    ⟨3, 2, .k 0 0⟩,
    ⟨4, 0, .k 0 0⟩,
    ⟨4, 1, .k 0 0⟩,
    ⟨4, 2, .k 0 0⟩,
    ⟨5, 0, .k 0 0⟩,
    ⟨5, 1, .k 0 0⟩,
    ⟨5, 2, .k 0 0⟩]
  upd := [⟨0, 0, (((.neg (.s 2)) ⊠ (.c 0)) ⊠ (.s 1)) ⊟ ((.c 2) ⊠ (.s 0))⟩,
    ⟨0, 1, ((.s 2) ⊠ (.s 0)) ⊟ (((.c 2) ⊠ (.c 0)) ⊠ (.s 1))⟩,
    ⟨0, 2, (.c 0) ⊠ (.c 1)⟩,
    ⟨0, 3, ((((((.k 178 3) ⊠ (.s 2)) ⊠ (.s 0)) ⊟ (((.k 264 3) ⊠ (.c 2)) ⊠ (.c 0))) ⊠ (.s 1)) ⊞ (((.k 264 3) ⊠ (.s 2)) ⊠ (.s 0))) ⊟ (((.k 178 3) ⊠ (.c 2)) ⊠ (.c 0))⟩,
    ⟨0, 4, ((((((.k 178 3) ⊠ (.c 2)) ⊠ (.s 0)) ⊞ (((.k 264 3) ⊠ (.s 2)) ⊠ (.c 0))) ⊠ (.s 1)) ⊞ (((.k 264 3) ⊠ (.c 2)) ⊠ (.s 0))) ⊞ (((.k 178 3) ⊠ (.s 2)) ⊠ (.c 0))⟩,
    ⟨0, 5, ((.neg (.k 178 3)) ⊠ (.s 0)) ⊠ (.c 1)⟩,
    ⟨1, 0, ((.c 2) ⊠ (.c 0)) ⊟ (((.s 2) ⊠ (.s 0)) ⊠ (.s 1))⟩,
    ⟨1, 1, (((.neg (.c 2)) ⊠ (.s 0)) ⊠ (.s 1)) ⊟ ((.s 2) ⊠ (.c 0))⟩,
    ⟨1, 2, (.s 0) ⊠ (.c 1)⟩,
    ⟨1, 3, ((((((.neg (.k 264 3)) ⊠ (.c 2)) ⊠ (.s 0)) ⊟ (((.k 178 3) ⊠ (.s 2)) ⊠ (.c 0))) ⊠ (.s 1)) ⊟ (((.k 178 3) ⊠ (.c 2)) ⊠ (.s 0))) ⊟ (((.k 264 3) ⊠ (.s 2)) ⊠ (.c 0))⟩,
    ⟨1, 4, ((((((.k 264 3) ⊠ (.s 2)) ⊠ (.s 0)) ⊟ (((.k 178 3) ⊠ (.c 2)) ⊠ (.c 0))) ⊠ (.s 1)) ⊞ (((.k 178 3) ⊠ (.s 2)) ⊠ (.s 0))) ⊟ (((.k 264 3) ⊠ (.c 2)) ⊠ (.c 0))⟩,
    ⟨1, 5, ((.k 178 3) ⊠ (.c 0)) ⊠ (.c 1)⟩,
    ⟨2, 0, (.s 2) ⊠ (.c 1)⟩,
    ⟨2, 1, (.c 2) ⊠ (.c 1)⟩,
    ⟨2, 2, .s 1⟩,
    ⟨2, 3, ((.k 264 3) ⊠ (.c 2)) ⊠ (.c 1)⟩,
    ⟨2, 4, ((.neg (.k 264 3)) ⊠ (.s 2)) ⊠ (.c 1)⟩,
    ⟨3, 3, (((.neg (.s 2)) ⊠ (.c 0)) ⊠ (.s 1)) ⊟ ((.c 2) ⊠ (.s 0))⟩,
    ⟨3, 4, ((.s 2) ⊠ (.s 0)) ⊟ (((.c 2) ⊠ (.c 0)) ⊠ (.s 1))⟩,
    ⟨3, 5, (.c 0) ⊠ (.c 1)⟩,
    ⟨4, 3, ((.c 2) ⊠ (.c 0)) ⊟ (((.s 2) ⊠ (.s 0)) ⊠ (.s 1))⟩,
    ⟨4, 4, (((.neg (.c 2)) ⊠ (.s 0)) ⊠ (.s 1)) ⊟ ((.s 2) ⊠ (.c 0))⟩,
    ⟨4, 5, (.s 0) ⊠ (.c 1)⟩,
    ⟨5, 3, (.s 2) ⊠ (.c 1)⟩,
    ⟨5, 4, (.c 2) ⊠ (.c 1)⟩,
    ⟨5, 5, .s 1⟩]

/-- The transforms `fr_HyABase_X_fr_Humerus_R_CTR`. -/
def fr_HyABase_X_fr_Humerus_R_CTR : Trans := ⟨fr_HyABase, fr_Humerus_R_CTR, hom_fr_HyABase_X_fr_Humerus_R_CTR, motion_fr_HyABase_X_fr_Humerus_R_CTR, force_fr_HyABase_X_fr_Humerus_R_CTR⟩

/-- `HomogeneousTransforms::Type_fr_HyABase_X_fr_Elbow_FE_CTR` (transforms.impl.h:6517-6523, 6525-6557). -/
def hom_fr_HyABase_X_fr_Elbow_FE_CTR : Gen where
  rows := 4
  cols := 4
  ctor := [⟨3, 0, .k 0 0⟩,
    ⟨3, 1, .k 0 0⟩,
    ⟨3, 2, .k 0 0⟩,
    ⟨3, 3, .k 1 0⟩]
  upd := [⟨0, 0, (((((.neg (.s 3)) ⊠ (.c 2)) ⊠ (.c 0)) ⊠ (.s 1)) ⊞ (((.c 3) ⊠ (.c 0)) ⊠ (.c 1))) ⊞ (((.s 3) ⊠ (.s 2)) ⊠ (.s 0))⟩,
    ⟨0, 1, (((((.neg (.c 3)) ⊠ (.c 2)) ⊠ (.c 0)) ⊠ (.s 1)) ⊟ (((.s 3) ⊠ (.c 0)) ⊠ (.c 1))) ⊞ (((.c 3) ⊠ (.s 2)) ⊠ (.s 0))⟩,
    ⟨0, 2, (((.s 2) ⊠ (.c 0)) ⊠ (.s 1)) ⊞ ((.c 2) ⊠ (.s 0))⟩,
    ⟨0, 3, ((((((.neg (.k 56 3)) ⊠ (.s 3)) ⊠ (.c 2)) ⊠ (.c 0)) ⊠ (.s 1)) ⊞ (((((.k 56 3) ⊠ (.c 3)) ⊞ (.k 416 3)) ⊠ (.c 0)) ⊠ (.c 1))) ⊞ ((((.k 56 3) ⊠ (.s 3)) ⊠ (.s 2)) ⊠ (.s 0))⟩,
    ⟨1, 0, (((((.neg (.s 3)) ⊠ (.c 2)) ⊠ (.s 0)) ⊠ (.s 1)) ⊞ (((.c 3) ⊠ (.s 0)) ⊠ (.c 1))) ⊟ (((.s 3) ⊠ (.s 2)) ⊠ (.c 0))⟩,
    ⟨1, 1, (((((.neg (.c 3)) ⊠ (.c 2)) ⊠ (.s 0)) ⊠ (.s 1)) ⊟ (((.s 3) ⊠ (.s 0)) ⊠ (.c 1))) ⊟ (((.c 3) ⊠ (.s 2)) ⊠ (.c 0))⟩,
    ⟨1, 2, (((.s 2) ⊠ (.s 0)) ⊠ (.s 1)) ⊟ ((.c 2) ⊠ (.c 0))⟩,
    ⟨1, 3, ((((((.neg (.k 56 3)) ⊠ (.s 3)) ⊠ (.c 2)) ⊠ (.s 0)) ⊠ (.s 1)) ⊞ (((((.k 56 3) ⊠ (.c 3)) ⊞ (.k 416 3)) ⊠ (.s 0)) ⊠ (.c 1))) ⊟ ((((.k 56 3) ⊠ (.s 3)) ⊠ (.s 2)) ⊠ (.c 0))⟩,
    ⟨2, 0, ((.c 3) ⊠ (.s 1)) ⊞ (((.s 3) ⊠ (.c 2)) ⊠ (.c 1))⟩,
    ⟨2, 1, (((.c 3) ⊠ (.c 2)) ⊠ (.c 1)) ⊟ ((.s 3) ⊠ (.s 1))⟩,
    ⟨2, 2, (.neg (.s 2)) ⊠ (.c 1)⟩,
    ⟨2, 3, (((((.k 56 3) ⊠ (.c 3)) ⊞ (.k 416 3)) ⊠ (.s 1)) ⊞ ((((.k 56 3) ⊠ (.s 3)) ⊠ (.c 2)) ⊠ (.c 1))) ⊞ (.k 178 3)⟩]

/-- `MotionTransforms::Type_fr_HyABase_X_fr_Elbow_FE_CTR` (transforms.impl.h:1139-1150, 1152-1199). -/
def motion_fr_HyABase_X_fr_Elbow_FE_CTR : Gen where
  rows := 6
  cols := 6
  ctor := [⟨0, 3, .k 0 0⟩,
    ⟨0, 4, .k 0 0⟩,
    ⟨0, 5, .k 0 0⟩,
    ⟨1, 3, .k 0 0⟩,
    ⟨1, 4, .k 0 0⟩,
    ⟨1, 5, .k 0 0⟩,
    ⟨2, 3, .k 0 0⟩,
    ⟨2, 4, .k 0 0⟩,
    ⟨2, 5, .k 0 0⟩]
  upd := [⟨0, 0, (((((.neg (.s 3)) ⊠ (.c 2)) ⊠ (.c 0)) ⊠ (.s 1)) ⊞ (((.c 3) ⊠ (.c 0)) ⊠ (.c 1))) ⊞ (((.s 3) ⊠ (.s 2)) ⊠ (.s 0))⟩,
    ⟨0, 1, (((((.neg (.c 3)) ⊠ (.c 2)) ⊠ (.c 0)) ⊠ (.s 1)) ⊟ (((.s 3) ⊠ (.c 0)) ⊠ (.c 1))) ⊞ (((.c 3) ⊠ (.s 2)) ⊠ (.s 0))⟩,
    ⟨0, 2, (((.s 2) ⊠ (.c 0)) ⊠ (.s 1)) ⊞ ((.c 2) ⊠ (.s 0))⟩,
    ⟨1, 0, (((((.neg (.s 3)) ⊠ (.c 2)) ⊠ (.s 0)) ⊠ (.s 1)) ⊞ (((.c 3) ⊠ (.s 0)) ⊠ (.c 1))) ⊟ (((.s 3) ⊠ (.s 2)) ⊠ (.c 0))⟩,
    ⟨1, 1, (((((.neg (.c 3)) ⊠ (.c 2)) ⊠ (.s 0)) ⊠ (.s 1)) ⊟ (((.s 3) ⊠ (.s 0)) ⊠ (.c 1))) ⊟ (((.c 3) ⊠ (.s 2)) ⊠ (.c 0))⟩,
    ⟨1, 2, (((.s 2) ⊠ (.s 0)) ⊠ (.s 1)) ⊟ ((.c 2) ⊠ (.c 0))⟩,
    ⟨2, 0, ((.c 3) ⊠ (.s 1)) ⊞ (((.s 3) ⊠ (.c 2)) ⊠ (.c 1))⟩,
    ⟨2, 1, (((.c 3) ⊠ (.c 2)) ⊠ (.c 1)) ⊟ ((.s 3) ⊠ (.s 1))⟩,
    ⟨2, 2, (.neg (.s 2)) ⊠ (.c 1)⟩,
    ⟨3, 0, ((((((((.k 178 3) ⊠ (.s 3)) ⊠ (.c 2)) ⊠ (.s 0)) ⊞ ((((.k 416 3) ⊠ (.s 3)) ⊠ (.s 2)) ⊠ (.c 0))) ⊠ (.s 1)) ⊟ ((((.k 178 3) ⊠ (.c 3)) ⊠ (.s 0)) ⊠ (.c 1))) ⊞ ((((.k 416 3) ⊠ (.s 3)) ⊠ (.c 2)) ⊠ (.s 0))) ⊞ ((((.k 178 3) ⊠ (.s 3)) ⊠ (.s 2)) ⊠ (.c 0))⟩,
    ⟨3, 1, ((((((((.k 178 3) ⊠ (.c 3)) ⊠ (.c 2)) ⊠ (.s 0)) ⊞ (((((.k 416 3) ⊠ (.c 3)) ⊞ (.k 56 3)) ⊠ (.s 2)) ⊠ (.c 0))) ⊠ (.s 1)) ⊞ ((((.k 178 3) ⊠ (.s 3)) ⊠ (.s 0)) ⊠ (.c 1))) ⊞ (((((.k 416 3) ⊠ (.c 3)) ⊞ (.k 56 3)) ⊠ (.c 2)) ⊠ (.s 0))) ⊞ ((((.k 178 3) ⊠ (.c 3)) ⊠ (.s 2)) ⊠ (.c 0))⟩,
    ⟨3, 2, (((((((((.k 56 3) ⊠ (.c 3)) ⊞ (.k 416 3)) ⊠ (.c 2)) ⊠ (.c 0)) ⊟ (((.k 178 3) ⊠ (.s 2)) ⊠ (.s 0))) ⊠ (.s 1)) ⊞ ((((.k 56 3) ⊠ (.s 3)) ⊠ (.c 0)) ⊠ (.c 1))) ⊞ (((((.neg (.k 56 3)) ⊠ (.c 3)) ⊟ (.k 416 3)) ⊠ (.s 2)) ⊠ (.s 0))) ⊞ (((.k 178 3) ⊠ (.c 2)) ⊠ (.c 0))⟩,
    ⟨3, 3, (((((.neg (.s 3)) ⊠ (.c 2)) ⊠ (.c 0)) ⊠ (.s 1)) ⊞ (((.c 3) ⊠ (.c 0)) ⊠ (.c 1))) ⊞ (((.s 3) ⊠ (.s 2)) ⊠ (.s 0))⟩,
    ⟨3, 4, (((((.neg (.c 3)) ⊠ (.c 2)) ⊠ (.c 0)) ⊠ (.s 1)) ⊟ (((.s 3) ⊠ (.c 0)) ⊠ (.c 1))) ⊞ (((.c 3) ⊠ (.s 2)) ⊠ (.s 0))⟩,
    ⟨3, 5, (((.s 2) ⊠ (.c 0)) ⊠ (.s 1)) ⊞ ((.c 2) ⊠ (.s 0))⟩,
    ⟨4, 0, ((((((((.k 416 3) ⊠ (.s 3)) ⊠ (.s 2)) ⊠ (.s 0)) ⊟ ((((.k 178 3) ⊠ (.s 3)) ⊠ (.c 2)) ⊠ (.c 0))) ⊠ (.s 1)) ⊞ ((((.k 178 3) ⊠ (.c 3)) ⊠ (.c 0)) ⊠ (.c 1))) ⊞ ((((.k 178 3) ⊠ (.s 3)) ⊠ (.s 2)) ⊠ (.s 0))) ⊟ ((((.k 416 3) ⊠ (.s 3)) ⊠ (.c 2)) ⊠ (.c 0))⟩,
    ⟨4, 1, (((((((((.k 416 3) ⊠ (.c 3)) ⊞ (.k 56 3)) ⊠ (.s 2)) ⊠ (.s 0)) ⊟ ((((.k 178 3) ⊠ (.c 3)) ⊠ (.c 2)) ⊠ (.c 0))) ⊠ (.s 1)) ⊟ ((((.k 178 3) ⊠ (.s 3)) ⊠ (.c 0)) ⊠ (.c 1))) ⊞ ((((.k 178 3) ⊠ (.c 3)) ⊠ (.s 2)) ⊠ (.s 0))) ⊞ (((((.neg (.k 416 3)) ⊠ (.c 3)) ⊟ (.k 56 3)) ⊠ (.c 2)) ⊠ (.c 0))⟩,
    ⟨4, 2, (((((((((.k 56 3) ⊠ (.c 3)) ⊞ (.k 416 3)) ⊠ (.c 2)) ⊠ (.s 0)) ⊞ (((.k 178 3) ⊠ (.s 2)) ⊠ (.c 0))) ⊠ (.s 1)) ⊞ ((((.k 56 3) ⊠ (.s 3)) ⊠ (.s 0)) ⊠ (.c 1))) ⊞ (((.k 178 3) ⊠ (.c 2)) ⊠ (.s 0))) ⊞ (((((.k 56 3) ⊠ (.c 3)) ⊞ (.k 416 3)) ⊠ (.s 2)) ⊠ (.c 0))⟩,
    ⟨4, 3, (((((.neg (.s 3)) ⊠ (.c 2)) ⊠ (.s 0)) ⊠ (.s 1)) ⊞ (((.c 3) ⊠ (.s 0)) ⊠ (.c 1))) ⊟ (((.s 3) ⊠ (.s 2)) ⊠ (.c 0))⟩,
    ⟨4, 4, (((((.neg (.c 3)) ⊠ (.c 2)) ⊠ (.s 0)) ⊠ (.s 1)) ⊟ (((.s 3) ⊠ (.s 0)) ⊠ (.c 1))) ⊟ (((.c 3) ⊠ (.s 2)) ⊠ (.c 0))⟩,
    ⟨4, 5, (((.s 2) ⊠ (.s 0)) ⊠ (.s 1)) ⊟ ((.c 2) ⊠ (.c 0))⟩,
    ⟨5, 0, (((.neg (.k 416 3)) ⊠ (.s 3)) ⊠ (.s 2)) ⊠ (.c 1)⟩,
    ⟨5, 1, ((((.neg (.k 416 3)) ⊠ (.c 3)) ⊟ (.k 56 3)) ⊠ (.s 2)) ⊠ (.c 1)⟩,
    ⟨5, 2, (((.k 56 3) ⊠ (.s 3)) ⊠ (.s 1)) ⊞ (((((.neg (.k 56 3)) ⊠ (.c 3)) ⊟ (.k 416 3)) ⊠ (.c 2)) ⊠ (.c 1))⟩,
    ⟨5, 3, ((.c 3) ⊠ (.s 1)) ⊞ (((.s 3) ⊠ (.c 2)) ⊠ (.c 1))⟩,
    ⟨5, 4, (((.c 3) ⊠ (.c 2)) ⊠ (.c 1)) ⊟ ((.s 3) ⊠ (.s 1))⟩,
    ⟨5, 5, (.neg (.s 2)) ⊠ (.c 1)⟩]

/-- `ForceTransforms::Type_fr_HyABase_X_fr_Elbow_FE_CTR` (transforms.impl.h:3988-3999, 4001-4048). -/
def force_fr_HyABase_X_fr_Elbow_FE_CTR : Gen where
  rows := 6
  cols := 6
  ctor := [⟨3, 0, .k 0 0⟩,
    ⟨3, 1, .k 0 0⟩,
    ⟨3, 2, .k 0 0⟩,
    ⟨4, 0, .k 0 0⟩,
    ⟨4, 1, .k 0 0⟩,
    ⟨4, 2, .k 0 0⟩,
    ⟨5, 0, .k 0 0⟩,
    ⟨5, 1, .k 0 0⟩,
    ⟨5, 2, .k 0 0⟩]
  upd := [⟨0, 0, (((((.neg (.s 3)) ⊠ (.c 2)) ⊠ (.c 0)) ⊠ (.s 1)) ⊞ (((.c 3) ⊠ (.c 0)) ⊠ (.c 1))) ⊞ (((.s 3) ⊠ (.s 2)) ⊠ (.s 0))⟩,
    ⟨0, 1, (((((.neg (.c 3)) ⊠ (.c 2)) ⊠ (.c 0)) ⊠ (.s 1)) ⊟ (((.s 3) ⊠ (.c 0)) ⊠ (.c 1))) ⊞ (((.c 3) ⊠ (.s 2)) ⊠ (.s 0))⟩,
    ⟨0, 2, (((.s 2) ⊠ (.c 0)) ⊠ (.s 1)) ⊞ ((.c 2) ⊠ (.s 0))⟩,
    ⟨0, 3, ((((((((.k 178 3) ⊠ (.s 3)) ⊠ (.c 2)) ⊠ (.s 0)) ⊞ ((((.k 416 3) ⊠ (.s 3)) ⊠ (.s 2)) ⊠ (.c 0))) ⊠ (.s 1)) ⊟ ((((.k 178 3) ⊠ (.c 3)) ⊠ (.s 0)) ⊠ (.c 1))) ⊞ ((((.k 416 3) ⊠ (.s 3)) ⊠ (.c 2)) ⊠ (.s 0))) ⊞ ((((.k 178 3) ⊠ (.s 3)) ⊠ (.s 2)) ⊠ (.c 0))⟩,
    ⟨0, 4, ((((((((.k 178 3) ⊠ (.c 3)) ⊠ (.c 2)) ⊠ (.s 0)) ⊞ (((((.k 416 3) ⊠ (.c 3)) ⊞ (.k 56 3)) ⊠ (.s 2)) ⊠ (.c 0))) ⊠ (.s 1)) ⊞ ((((.k 178 3) ⊠ (.s 3)) ⊠ (.s 0)) ⊠ (.c 1))) ⊞ (((((.k 416 3) ⊠ (.c 3)) ⊞ (.k 56 3)) ⊠ (.c 2)) ⊠ (.s 0))) ⊞ ((((.k 178 3) ⊠ (.c 3)) ⊠ (.s 2)) ⊠ (.c 0))⟩,
    ⟨0, 5, (((((((((.k 56 3) ⊠ (.c 3)) ⊞ (.k 416 3)) ⊠ (.c 2)) ⊠ (.c 0)) ⊟ (((.k 178 3) ⊠ (.s 2)) ⊠ (.s 0))) ⊠ (.s 1)) ⊞ ((((.k 56 3) ⊠ (.s 3)) ⊠ (.c 0)) ⊠ (.c 1))) ⊞ (((((.neg (.k 56 3)) ⊠ (.c 3)) ⊟ (.k 416 3)) ⊠ (.s 2)) ⊠ (.s 0))) ⊞ (((.k 178 3) ⊠ (.c 2)) ⊠ (.c 0))⟩,
    ⟨1, 0, (((((.neg (.s 3)) ⊠ (.c 2)) ⊠ (.s 0)) ⊠ (.s 1)) ⊞ (((.c 3) ⊠ (.s 0)) ⊠ (.c 1))) ⊟ (((.s 3) ⊠ (.s 2)) ⊠ (.c 0))⟩,
    ⟨1, 1, (((((.neg (.c 3)) ⊠ (.c 2)) ⊠ (.s 0)) ⊠ (.s 1)) ⊟ (((.s 3) ⊠ (.s 0)) ⊠ (.c 1))) ⊟ (((.c 3) ⊠ (.s 2)) ⊠ (.c 0))⟩,
    ⟨1, 2, (((.s 2) ⊠ (.s 0)) ⊠ (.s 1)) ⊟ ((.c 2) ⊠ (.c 0))⟩,
    ⟨1, 3, ((((((((.k 416 3) ⊠ (.s 3)) ⊠ (.s 2)) ⊠ (.s 0)) ⊟ ((((.k 178 3) ⊠ (.s 3)) ⊠ (.c 2)) ⊠ (.c 0))) ⊠ (.s 1)) ⊞ ((((.k 178 3) ⊠ (.c 3)) ⊠ (.c 0)) ⊠ (.c 1))) ⊞ ((((.k 178 3) ⊠ (.s 3)) ⊠ (.s 2)) ⊠ (.s 0))) ⊟ ((((.k 416 3) ⊠ (.s 3)) ⊠ (.c 2)) ⊠ (.c 0))⟩,
    ⟨1, 4, (((((((((.k 416 3) ⊠ (.c 3)) ⊞ (.k 56 3)) ⊠ (.s 2)) ⊠ (.s 0)) ⊟ ((((.k 178 3) ⊠ (.c 3)) ⊠ (.c 2)) ⊠ (.c 0))) ⊠ (.s 1)) ⊟ ((((.k 178 3) ⊠ (.s 3)) ⊠ (.c 0)) ⊠ (.c 1))) ⊞ ((((.k 178 3) ⊠ (.c 3)) ⊠ (.s 2)) ⊠ (.s 0))) ⊞ (((((.neg (.k 416 3)) ⊠ (.c 3)) ⊟ (.k 56 3)) ⊠ (.c 2)) ⊠ (.c 0))⟩,
    ⟨1, 5, (((((((((.k 56 3) ⊠ (.c 3)) ⊞ (.k 416 3)) ⊠ (.c 2)) ⊠ (.s 0)) ⊞ (((.k 178 3) ⊠ (.s 2)) ⊠ (.c 0))) ⊠ (.s 1)) ⊞ ((((.k 56 3) ⊠ (.s 3)) ⊠ (.s 0)) ⊠ (.c 1))) ⊞ (((.k 178 3) ⊠ (.c 2)) ⊠ (.s 0))) ⊞ (((((.k 56 3) ⊠ (.c 3)) ⊞ (.k 416 3)) ⊠ (.s 2)) ⊠ (.c 0))⟩,
    ⟨2, 0, ((.c 3) ⊠ (.s 1)) ⊞ (((.s 3) ⊠ (.c 2)) ⊠ (.c 1))⟩,
    ⟨2, 1, (((.c 3) ⊠ (.c 2)) ⊠ (.c 1)) ⊟ ((.s 3) ⊠ (.s 1))⟩,
    ⟨2, 2, (.neg (.s 2)) ⊠ (.c 1)⟩,
    ⟨2, 3, (((.neg (.k 416 3)) ⊠ (.s 3)) ⊠ (.s 2)) ⊠ (.c 1)⟩,
    ⟨2, 4, ((((.neg (.k 416 3)) ⊠ (.c 3)) ⊟ (.k 56 3)) ⊠ (.s 2)) ⊠ (.c 1)⟩,
    ⟨2, 5, (((.k 56 3) ⊠ (.s 3)) ⊠ (.s 1)) ⊞ (((((.neg (.k 56 3)) ⊠ (.c 3)) ⊟ (.k 416 3)) ⊠ (.c 2)) ⊠ (.c 1))⟩,
    ⟨3, 3, (((((.neg (.s 3)) ⊠ (.c 2)) ⊠ (.c 0)) ⊠ (.s 1)) ⊞ (((.c 3) ⊠ (.c 0)) ⊠ (.c 1))) ⊞ (((.s 3) ⊠ (.s 2)) ⊠ (.s 0))⟩,
    ⟨3, 4, (((((.neg (.c 3)) ⊠ (.c 2)) ⊠ (.c 0)) ⊠ (.s 1)) ⊟ (((.s 3) ⊠ (.c 0)) ⊠ (.c 1))) ⊞ (((.c 3) ⊠ (.s 2)) ⊠ (.s 0))⟩,
    ⟨3, 5, (((.s 2) ⊠ (.c 0)) ⊠ (.s 1)) ⊞ ((.c 2) ⊠ (.s 0))⟩,
    ⟨4, 3, (((((.neg (.s 3)) ⊠ (.c 2)) ⊠ (.s 0)) ⊠ (.s 1)) ⊞ (((.c 3) ⊠ (.s 0)) ⊠ (.c 1))) ⊟ (((.s 3) ⊠ (.s 2)) ⊠ (.c 0))⟩,
    ⟨4, 4, (((((.neg (.c 3)) ⊠ (.c 2)) ⊠ (.s 0)) ⊠ (.s 1)) ⊟ (((.s 3) ⊠ (.s 0)) ⊠ (.c 1))) ⊟ (((.c 3) ⊠ (.s 2)) ⊠ (.c 0))⟩,
    ⟨4, 5, (((.s 2) ⊠ (.s 0)) ⊠ (.s 1)) ⊟ ((.c 2) ⊠ (.c 0))⟩,
    ⟨5, 3, ((.c 3) ⊠ (.s 1)) ⊞ (((.s 3) ⊠ (.c 2)) ⊠ (.c 1))⟩,
    ⟨5, 4, (((.c 3) ⊠ (.c 2)) ⊠ (.c 1)) ⊟ ((.s 3) ⊠ (.s 1))⟩,
    ⟨5, 5, (.neg (.s 2)) ⊠ (.c 1)⟩]

/-- The transforms `fr_HyABase_X_fr_Elbow_FE_CTR`. -/
def fr_HyABase_X_fr_Elbow_FE_CTR : Trans := ⟨fr_HyABase, fr_Elbow_FE_CTR, hom_fr_HyABase_X_fr_Elbow_FE_CTR, motion_fr_HyABase_X_fr_Elbow_FE_CTR, force_fr_HyABase_X_fr_Elbow_FE_CTR⟩

/-- `HomogeneousTransforms::Type_fr_HyABase_X_fr_Wrist_R_CTR` (transforms.impl.h:6559-6565, 6567-6603). -/
def hom_fr_HyABase_X_fr_Wrist_R_CTR : Gen where
  rows := 4
  cols := 4
  ctor := [⟨3, 0, .k 0 0⟩,
    ⟨3, 1, .k 0 0⟩,
    ⟨3, 2, .k 0 0⟩,
    ⟨3, 3, .k 1 0⟩]
  upd := [⟨0, 0, (((((((.neg (.c 3)) ⊠ (.c 2)) ⊠ (.c 0)) ⊠ (.s 1)) ⊟ (((.s 3) ⊠ (.c 0)) ⊠ (.c 1))) ⊞ (((.c 3) ⊠ (.s 2)) ⊠ (.s 0))) ⊠ (.s 4)) ⊞ (((((.neg (.s 2)) ⊠ (.c 0)) ⊠ (.s 1)) ⊟ ((.c 2) ⊠ (.s 0))) ⊠ (.c 4))⟩,
    ⟨0, 1, (((((.s 2) ⊠ (.c 0)) ⊠ (.s 1)) ⊞ ((.c 2) ⊠ (.s 0))) ⊠ (.s 4)) ⊞ (((((((.neg (.c 3)) ⊠ (.c 2)) ⊠ (.c 0)) ⊠ (.s 1)) ⊟ (((.s 3) ⊠ (.c 0)) ⊠ (.c 1))) ⊞ (((.c 3) ⊠ (.s 2)) ⊠ (.s 0))) ⊠ (.c 4))⟩,
    ⟨0, 2, (((((.neg (.s 3)) ⊠ (.c 2)) ⊠ (.c 0)) ⊠ (.s 1)) ⊞ (((.c 3) ⊠ (.c 0)) ⊠ (.c 1))) ⊞ (((.s 3) ⊠ (.s 2)) ⊠ (.s 0))⟩,
    ⟨0, 3, ((((((.neg (.k 204 3)) ⊠ (.s 3)) ⊠ (.c 2)) ⊠ (.c 0)) ⊠ (.s 1)) ⊞ (((((.k 204 3) ⊠ (.c 3)) ⊞ (.k 416 3)) ⊠ (.c 0)) ⊠ (.c 1))) ⊞ ((((.k 204 3) ⊠ (.s 3)) ⊠ (.s 2)) ⊠ (.s 0))⟩,
    ⟨1, 0, (((((((.neg (.c 3)) ⊠ (.c 2)) ⊠ (.s 0)) ⊠ (.s 1)) ⊟ (((.s 3) ⊠ (.s 0)) ⊠ (.c 1))) ⊟ (((.c 3) ⊠ (.s 2)) ⊠ (.c 0))) ⊠ (.s 4)) ⊞ ((((.c 2) ⊠ (.c 0)) ⊟ (((.s 2) ⊠ (.s 0)) ⊠ (.s 1))) ⊠ (.c 4))⟩,
    ⟨1, 1, (((((.s 2) ⊠ (.s 0)) ⊠ (.s 1)) ⊟ ((.c 2) ⊠ (.c 0))) ⊠ (.s 4)) ⊞ (((((((.neg (.c 3)) ⊠ (.c 2)) ⊠ (.s 0)) ⊠ (.s 1)) ⊟ (((.s 3) ⊠ (.s 0)) ⊠ (.c 1))) ⊟ (((.c 3) ⊠ (.s 2)) ⊠ (.c 0))) ⊠ (.c 4))⟩,
    ⟨1, 2, (((((.neg (.s 3)) ⊠ (.c 2)) ⊠ (.s 0)) ⊠ (.s 1)) ⊞ (((.c 3) ⊠ (.s 0)) ⊠ (.c 1))) ⊟ (((.s 3) ⊠ (.s 2)) ⊠ (.c 0))⟩,
    ⟨1, 3, ((((((.neg (.k 204 3)) ⊠ (.s 3)) ⊠ (.c 2)) ⊠ (.s 0)) ⊠ (.s 1)) ⊞ (((((.k 204 3) ⊠ (.c 3)) ⊞ (.k 416 3)) ⊠ (.s 0)) ⊠ (.c 1))) ⊟ ((((.k 204 3) ⊠ (.s 3)) ⊠ (.s 2)) ⊠ (.c 0))⟩,
    ⟨2, 0, (((((.c 3) ⊠ (.c 2)) ⊠ (.c 1)) ⊟ ((.s 3) ⊠ (.s 1))) ⊠ (.s 4)) ⊞ (((.s 2) ⊠ (.c 1)) ⊠ (.c 4))⟩,
    ⟨2, 1, (((((.c 3) ⊠ (.c 2)) ⊠ (.c 1)) ⊟ ((.s 3) ⊠ (.s 1))) ⊠ (.c 4)) ⊟ (((.s 2) ⊠ (.c 1)) ⊠ (.s 4))⟩,
    ⟨2, 2, ((.c 3) ⊠ (.s 1)) ⊞ (((.s 3) ⊠ (.c 2)) ⊠ (.c 1))⟩,
    ⟨2, 3, (((((.k 204 3) ⊠ (.c 3)) ⊞ (.k 416 3)) ⊠ (.s 1)) ⊞ ((((.k 204 3) ⊠ (.s 3)) ⊠ (.c 2)) ⊠ (.c 1))) ⊞ (.k 178 3)⟩]

/-- `MotionTransforms::Type_fr_HyABase_X_fr_Wrist_R_CTR` (transforms.impl.h:1201-1212, 1214-1265). -/
def motion_fr_HyABase_X_fr_Wrist_R_CTR : Gen where
  rows := 6
  cols := 6
  ctor := [⟨0, 3, .k 0 0⟩,
    ⟨0, 4, .k 0 0⟩,
    ⟨0, 5, .k 0 0⟩,
    ⟨1, 3, .k 0 0⟩,
    ⟨1, 4, .k 0 0⟩,
    ⟨1, 5, .k 0 0⟩,
    ⟨2, 3, .k 0 0⟩,
    ⟨2, 4, .k 0 0⟩,
    ⟨2, 5, .k 0 0⟩]
  upd := [⟨0, 0, (((((((.neg (.c 3)) ⊠ (.c 2)) ⊠ (.c 0)) ⊠ (.s 1)) ⊟ (((.s 3) ⊠ (.c 0)) ⊠ (.c 1))) ⊞ (((.c 3) ⊠ (.s 2)) ⊠ (.s 0))) ⊠ (.s 4)) ⊞ (((((.neg (.s 2)) ⊠ (.c 0)) ⊠ (.s 1)) ⊟ ((.c 2) ⊠ (.s 0))) ⊠ (.c 4))⟩,
    ⟨0, 1, (((((.s 2) ⊠ (.c 0)) ⊠ (.s 1)) ⊞ ((.c 2) ⊠ (.s 0))) ⊠ (.s 4)) ⊞ (((((((.neg (.c 3)) ⊠ (.c 2)) ⊠ (.c 0)) ⊠ (.s 1)) ⊟ (((.s 3) ⊠ (.c 0)) ⊠ (.c 1))) ⊞ (((.c 3) ⊠ (.s 2)) ⊠ (.s 0))) ⊠ (.c 4))⟩,
    ⟨0, 2, (((((.neg (.s 3)) ⊠ (.c 2)) ⊠ (.c 0)) ⊠ (.s 1)) ⊞ (((.c 3) ⊠ (.c 0)) ⊠ (.c 1))) ⊞ (((.s 3) ⊠ (.s 2)) ⊠ (.s 0))⟩,
    ⟨1, 0, (((((((.neg (.c 3)) ⊠ (.c 2)) ⊠ (.s 0)) ⊠ (.s 1)) ⊟ (((.s 3) ⊠ (.s 0)) ⊠ (.c 1))) ⊟ (((.c 3) ⊠ (.s 2)) ⊠ (.c 0))) ⊠ (.s 4)) ⊞ ((((.c 2) ⊠ (.c 0)) ⊟ (((.s 2) ⊠ (.s 0)) ⊠ (.s 1))) ⊠ (.c 4))⟩,
    ⟨1, 1, (((((.s 2) ⊠ (.s 0)) ⊠ (.s 1)) ⊟ ((.c 2) ⊠ (.c 0))) ⊠ (.s 4)) ⊞ (((((((.neg (.c 3)) ⊠ (.c 2)) ⊠ (.s 0)) ⊠ (.s 1)) ⊟ (((.s 3) ⊠ (.s 0)) ⊠ (.c 1))) ⊟ (((.c 3) ⊠ (.s 2)) ⊠ (.c 0))) ⊠ (.c 4))⟩,
    ⟨1, 2, (((((.neg (.s 3)) ⊠ (.c 2)) ⊠ (.s 0)) ⊠ (.s 1)) ⊞ (((.c 3) ⊠ (.s 0)) ⊠ (.c 1))) ⊟ (((.s 3) ⊠ (.s 2)) ⊠ (.c 0))⟩,
    ⟨2, 0, (((((.c 3) ⊠ (.c 2)) ⊠ (.c 1)) ⊟ ((.s 3) ⊠ (.s 1))) ⊠ (.s 4)) ⊞ (((.s 2) ⊠ (.c 1)) ⊠ (.c 4))⟩,
    ⟨2, 1, (((((.c 3) ⊠ (.c 2)) ⊠ (.c 1)) ⊟ ((.s 3) ⊠ (.s 1))) ⊠ (.c 4)) ⊟ (((.s 2) ⊠ (.c 1)) ⊠ (.s 4))⟩,
    ⟨2, 2, ((.c 3) ⊠ (.s 1)) ⊞ (((.s 3) ⊠ (.c 2)) ⊠ (.c 1))⟩,
    ⟨3, 0, ((((((((((.k 178 3) ⊠ (.c 3)) ⊠ (.c 2)) ⊠ (.s 0)) ⊞ (((((.k 416 3) ⊠ (.c 3)) ⊞ (.k 204 3)) ⊠ (.s 2)) ⊠ (.c 0))) ⊠ (.s 1)) ⊞ ((((.k 178 3) ⊠ (.s 3)) ⊠ (.s 0)) ⊠ (.c 1))) ⊞ (((((.k 416 3) ⊠ (.c 3)) ⊞ (.k 204 3)) ⊠ (.c 2)) ⊠ (.s 0))) ⊞ ((((.k 178 3) ⊠ (.c 3)) ⊠ (.s 2)) ⊠ (.c 0))) ⊠ (.s 4)) ⊞ (((((((((.k 178 3) ⊠ (.s 2)) ⊠ (.s 0)) ⊞ (((((.neg (.k 204 3)) ⊠ (.c 3)) ⊟ (.k 416 3)) ⊠ (.c 2)) ⊠ (.c 0))) ⊠ (.s 1)) ⊟ ((((.k 204 3) ⊠ (.s 3)) ⊠ (.c 0)) ⊠ (.c 1))) ⊞ (((((.k 204 3) ⊠ (.c 3)) ⊞ (.k 416 3)) ⊠ (.s 2)) ⊠ (.s 0))) ⊟ (((.k 178 3) ⊠ (.c 2)) ⊠ (.c 0))) ⊠ (.c 4))⟩,
    ⟨3, 1, (((((((((((.k 204 3) ⊠ (.c 3)) ⊞ (.k 416 3)) ⊠ (.c 2)) ⊠ (.c 0)) ⊟ (((.k 178 3) ⊠ (.s 2)) ⊠ (.s 0))) ⊠ (.s 1)) ⊞ ((((.k 204 3) ⊠ (.s 3)) ⊠ (.c 0)) ⊠ (.c 1))) ⊞ (((((.neg (.k 204 3)) ⊠ (.c 3)) ⊟ (.k 416 3)) ⊠ (.s 2)) ⊠ (.s 0))) ⊞ (((.k 178 3) ⊠ (.c 2)) ⊠ (.c 0))) ⊠ (.s 4)) ⊞ ((((((((((.k 178 3) ⊠ (.c 3)) ⊠ (.c 2)) ⊠ (.s 0)) ⊞ (((((.k 416 3) ⊠ (.c 3)) ⊞ (.k 204 3)) ⊠ (.s 2)) ⊠ (.c 0))) ⊠ (.s 1)) ⊞ ((((.k 178 3) ⊠ (.s 3)) ⊠ (.s 0)) ⊠ (.c 1))) ⊞ (((((.k 416 3) ⊠ (.c 3)) ⊞ (.k 204 3)) ⊠ (.c 2)) ⊠ (.s 0))) ⊞ ((((.k 178 3) ⊠ (.c 3)) ⊠ (.s 2)) ⊠ (.c 0))) ⊠ (.c 4))⟩,
    ⟨3, 2, ((((((((.k 178 3) ⊠ (.s 3)) ⊠ (.c 2)) ⊠ (.s 0)) ⊞ ((((.k 416 3) ⊠ (.s 3)) ⊠ (.s 2)) ⊠ (.c 0))) ⊠ (.s 1)) ⊟ ((((.k 178 3) ⊠ (.c 3)) ⊠ (.s 0)) ⊠ (.c 1))) ⊞ ((((.k 416 3) ⊠ (.s 3)) ⊠ (.c 2)) ⊠ (.s 0))) ⊞ ((((.k 178 3) ⊠ (.s 3)) ⊠ (.s 2)) ⊠ (.c 0))⟩,
    ⟨3, 3, (((((((.neg (.c 3)) ⊠ (.c 2)) ⊠ (.c 0)) ⊠ (.s 1)) ⊟ (((.s 3) ⊠ (.c 0)) ⊠ (.c 1))) ⊞ (((.c 3) ⊠ (.s 2)) ⊠ (.s 0))) ⊠ (.s 4)) ⊞ (((((.neg (.s 2)) ⊠ (.c 0)) ⊠ (.s 1)) ⊟ ((.c 2) ⊠ (.s 0))) ⊠ (.c 4))⟩,
    ⟨3, 4, (((((.s 2) ⊠ (.c 0)) ⊠ (.s 1)) ⊞ ((.c 2) ⊠ (.s 0))) ⊠ (.s 4)) ⊞ (((((((.neg (.c 3)) ⊠ (.c 2)) ⊠ (.c 0)) ⊠ (.s 1)) ⊟ (((.s 3) ⊠ (.c 0)) ⊠ (.c 1))) ⊞ (((.c 3) ⊠ (.s 2)) ⊠ (.s 0))) ⊠ (.c 4))⟩,
    ⟨3, 5, (((((.neg (.s 3)) ⊠ (.c 2)) ⊠ (.c 0)) ⊠ (.s 1)) ⊞ (((.c 3) ⊠ (.c 0)) ⊠ (.c 1))) ⊞ (((.s 3) ⊠ (.s 2)) ⊠ (.s 0))⟩,
    ⟨4, 0, (((((((((((.k 416 3) ⊠ (.c 3)) ⊞ (.k 204 3)) ⊠ (.s 2)) ⊠ (.s 0)) ⊟ ((((.k 178 3) ⊠ (.c 3)) ⊠ (.c 2)) ⊠ (.c 0))) ⊠ (.s 1)) ⊟ ((((.k 178 3) ⊠ (.s 3)) ⊠ (.c 0)) ⊠ (.c 1))) ⊞ ((((.k 178 3) ⊠ (.c 3)) ⊠ (.s 2)) ⊠ (.s 0))) ⊞ (((((.neg (.k 416 3)) ⊠ (.c 3)) ⊟ (.k 204 3)) ⊠ (.c 2)) ⊠ (.c 0))) ⊠ (.s 4)) ⊞ (((((((((((.neg (.k 204 3)) ⊠ (.c 3)) ⊟ (.k 416 3)) ⊠ (.c 2)) ⊠ (.s 0)) ⊟ (((.k 178 3) ⊠ (.s 2)) ⊠ (.c 0))) ⊠ (.s 1)) ⊟ ((((.k 204 3) ⊠ (.s 3)) ⊠ (.s 0)) ⊠ (.c 1))) ⊟ (((.k 178 3) ⊠ (.c 2)) ⊠ (.s 0))) ⊞ (((((.neg (.k 204 3)) ⊠ (.c 3)) ⊟ (.k 416 3)) ⊠ (.s 2)) ⊠ (.c 0))) ⊠ (.c 4))⟩,
    ⟨4, 1, (((((((((((.k 204 3) ⊠ (.c 3)) ⊞ (.k 416 3)) ⊠ (.c 2)) ⊠ (.s 0)) ⊞ (((.k 178 3) ⊠ (.s 2)) ⊠ (.c 0))) ⊠ (.s 1)) ⊞ ((((.k 204 3) ⊠ (.s 3)) ⊠ (.s 0)) ⊠ (.c 1))) ⊞ (((.k 178 3) ⊠ (.c 2)) ⊠ (.s 0))) ⊞ (((((.k 204 3) ⊠ (.c 3)) ⊞ (.k 416 3)) ⊠ (.s 2)) ⊠ (.c 0))) ⊠ (.s 4)) ⊞ (((((((((((.k 416 3) ⊠ (.c 3)) ⊞ (.k 204 3)) ⊠ (.s 2)) ⊠ (.s 0)) ⊟ ((((.k 178 3) ⊠ (.c 3)) ⊠ (.c 2)) ⊠ (.c 0))) ⊠ (.s 1)) ⊟ ((((.k 178 3) ⊠ (.s 3)) ⊠ (.c 0)) ⊠ (.c 1))) ⊞ ((((.k 178 3) ⊠ (.c 3)) ⊠ (.s 2)) ⊠ (.s 0))) ⊞ (((((.neg (.k 416 3)) ⊠ (.c 3)) ⊟ (.k 204 3)) ⊠ (.c 2)) ⊠ (.c 0))) ⊠ (.c 4))⟩,
    ⟨4, 2, ((((((((.k 416 3) ⊠ (.s 3)) ⊠ (.s 2)) ⊠ (.s 0)) ⊟ ((((.k 178 3) ⊠ (.s 3)) ⊠ (.c 2)) ⊠ (.c 0))) ⊠ (.s 1)) ⊞ ((((.k 178 3) ⊠ (.c 3)) ⊠ (.c 0)) ⊠ (.c 1))) ⊞ ((((.k 178 3) ⊠ (.s 3)) ⊠ (.s 2)) ⊠ (.s 0))) ⊟ ((((.k 416 3) ⊠ (.s 3)) ⊠ (.c 2)) ⊠ (.c 0))⟩,
    ⟨4, 3, (((((((.neg (.c 3)) ⊠ (.c 2)) ⊠ (.s 0)) ⊠ (.s 1)) ⊟ (((.s 3) ⊠ (.s 0)) ⊠ (.c 1))) ⊟ (((.c 3) ⊠ (.s 2)) ⊠ (.c 0))) ⊠ (.s 4)) ⊞ ((((.c 2) ⊠ (.c 0)) ⊟ (((.s 2) ⊠ (.s 0)) ⊠ (.s 1))) ⊠ (.c 4))⟩,
    ⟨4, 4, (((((.s 2) ⊠ (.s 0)) ⊠ (.s 1)) ⊟ ((.c 2) ⊠ (.c 0))) ⊠ (.s 4)) ⊞ (((((((.neg (.c 3)) ⊠ (.c 2)) ⊠ (.s 0)) ⊠ (.s 1)) ⊟ (((.s 3) ⊠ (.s 0)) ⊠ (.c 1))) ⊟ (((.c 3) ⊠ (.s 2)) ⊠ (.c 0))) ⊠ (.c 4))⟩,
    ⟨4, 5, (((((.neg (.s 3)) ⊠ (.c 2)) ⊠ (.s 0)) ⊠ (.s 1)) ⊞ (((.c 3) ⊠ (.s 0)) ⊠ (.c 1))) ⊟ (((.s 3) ⊠ (.s 2)) ⊠ (.c 0))⟩,
    ⟨5, 0, ((((((.neg (.k 416 3)) ⊠ (.c 3)) ⊟ (.k 204 3)) ⊠ (.s 2)) ⊠ (.c 1)) ⊠ (.s 4)) ⊞ (((((((.k 204 3) ⊠ (.c 3)) ⊞ (.k 416 3)) ⊠ (.c 2)) ⊠ (.c 1)) ⊟ (((.k 204 3) ⊠ (.s 3)) ⊠ (.s 1))) ⊠ (.c 4))⟩,
    ⟨5, 1, (((((.k 204 3) ⊠ (.s 3)) ⊠ (.s 1)) ⊞ (((((.neg (.k 204 3)) ⊠ (.c 3)) ⊟ (.k 416 3)) ⊠ (.c 2)) ⊠ (.c 1))) ⊠ (.s 4)) ⊞ ((((((.neg (.k 416 3)) ⊠ (.c 3)) ⊟ (.k 204 3)) ⊠ (.s 2)) ⊠ (.c 1)) ⊠ (.c 4))⟩,
    ⟨5, 2, (((.neg (.k 416 3)) ⊠ (.s 3)) ⊠ (.s 2)) ⊠ (.c 1)⟩,
    ⟨5, 3, (((((.c 3) ⊠ (.c 2)) ⊠ (.c 1)) ⊟ ((.s 3) ⊠ (.s 1))) ⊠ (.s 4)) ⊞ (((.s 2) ⊠ (.c 1)) ⊠ (.c 4))⟩,
    ⟨5, 4, (((((.c 3) ⊠ (.c 2)) ⊠ (.c 1)) ⊟ ((.s 3) ⊠ (.s 1))) ⊠ (.c 4)) ⊟ (((.s 2) ⊠ (.c 1)) ⊠ (.s 4))⟩,
    ⟨5, 5, ((.c 3) ⊠ (.s 1)) ⊞ (((.s 3) ⊠ (.c 2)) ⊠ (.c 1))⟩]

/-- `ForceTransforms::Type_fr_HyABase_X_fr_Wrist_R_CTR` (transforms.impl.h:4050-4061, 4063-4114). -/
def force_fr_HyABase_X_fr_Wrist_R_CTR : Gen where
  rows := 6
  cols := 6
  ctor := [⟨3, 0, .k 0 0⟩,
    ⟨3, 1, .k 0 0⟩,
    ⟨3, 2, .k 0 0⟩,
    ⟨4, 0, .k 0 0⟩,
    ⟨4, 1, .k 0 0⟩,
    ⟨4, 2, .k 0 0⟩,
    ⟨5, 0, .k 0 0⟩,
    ⟨5, 1, .k 0 0⟩,
    ⟨5, 2, .k 0 0⟩]
  upd := [⟨0, 0, (((((((.neg (.c 3)) ⊠ (.c 2)) ⊠ (.c 0)) ⊠ (.s 1)) ⊟ (((.s 3) ⊠ (.c 0)) ⊠ (.c 1))) ⊞ (((.c 3) ⊠ (.s 2)) ⊠ (.s 0))) ⊠ (.s 4)) ⊞ (((((.neg (.s 2)) ⊠ (.c 0)) ⊠ (.s 1)) ⊟ ((.c 2) ⊠ (.s 0))) ⊠ (.c 4))⟩,
    ⟨0, 1, (((((.s 2) ⊠ (.c 0)) ⊠ (.s 1)) ⊞ ((.c 2) ⊠ (.s 0))) ⊠ (.s 4)) ⊞ (((((((.neg (.c 3)) ⊠ (.c 2)) ⊠ (.c 0)) ⊠ (.s 1)) ⊟ (((.s 3) ⊠ (.c 0)) ⊠ (.c 1))) ⊞ (((.c 3) ⊠ (.s 2)) ⊠ (.s 0))) ⊠ (.c 4))⟩,
    ⟨0, 2, (((((.neg (.s 3)) ⊠ (.c 2)) ⊠ (.c 0)) ⊠ (.s 1)) ⊞ (((.c 3) ⊠ (.c 0)) ⊠ (.c 1))) ⊞ (((.s 3) ⊠ (.s 2)) ⊠ (.s 0))⟩,
    ⟨0, 3, ((((((((((.k 178 3) ⊠ (.c 3)) ⊠ (.c 2)) ⊠ (.s 0)) ⊞ (((((.k 416 3) ⊠ (.c 3)) ⊞ (.k 204 3)) ⊠ (.s 2)) ⊠ (.c 0))) ⊠ (.s 1)) ⊞ ((((.k 178 3) ⊠ (.s 3)) ⊠ (.s 0)) ⊠ (.c 1))) ⊞ (((((.k 416 3) ⊠ (.c 3)) ⊞ (.k 204 3)) ⊠ (.c 2)) ⊠ (.s 0))) ⊞ ((((.k 178 3) ⊠ (.c 3)) ⊠ (.s 2)) ⊠ (.c 0))) ⊠ (.s 4)) ⊞ (((((((((.k 178 3) ⊠ (.s 2)) ⊠ (.s 0)) ⊞ (((((.neg (.k 204 3)) ⊠ (.c 3)) ⊟ (.k 416 3)) ⊠ (.c 2)) ⊠ (.c 0))) ⊠ (.s 1)) ⊟ ((((.k 204 3) ⊠ (.s 3)) ⊠ (.c 0)) ⊠ (.c 1))) ⊞ (((((.k 204 3) ⊠ (.c 3)) ⊞ (.k 416 3)) ⊠ (.s 2)) ⊠ (.s 0))) ⊟ (((.k 178 3) ⊠ (.c 2)) ⊠ (.c 0))) ⊠ (.c 4))⟩,
    ⟨0, 4, (((((((((((.k 204 3) ⊠ (.c 3)) ⊞ (.k 416 3)) ⊠ (.c 2)) ⊠ (.c 0)) ⊟ (((.k 178 3) ⊠ (.s 2)) ⊠ (.s 0))) ⊠ (.s 1)) ⊞ ((((.k 204 3) ⊠ (.s 3)) ⊠ (.c 0)) ⊠ (.c 1))) ⊞ (((((.neg (.k 204 3)) ⊠ (.c 3)) ⊟ (.k 416 3)) ⊠ (.s 2)) ⊠ (.s 0))) ⊞ (((.k 178 3) ⊠ (.c 2)) ⊠ (.c 0))) ⊠ (.s 4)) ⊞ ((((((((((.k 178 3) ⊠ (.c 3)) ⊠ (.c 2)) ⊠ (.s 0)) ⊞ (((((.k 416 3) ⊠ (.c 3)) ⊞ (.k 204 3)) ⊠ (.s 2)) ⊠ (.c 0))) ⊠ (.s 1)) ⊞ ((((.k 178 3) ⊠ (.s 3)) ⊠ (.s 0)) ⊠ (.c 1))) ⊞ (((((.k 416 3) ⊠ (.c 3)) ⊞ (.k 204 3)) ⊠ (.c 2)) ⊠ (.s 0))) ⊞ ((((.k 178 3) ⊠ (.c 3)) ⊠ (.s 2)) ⊠ (.c 0))) ⊠ (.c 4))⟩,
    ⟨0, 5, ((((((((.k 178 3) ⊠ (.s 3)) ⊠ (.c 2)) ⊠ (.s 0)) ⊞ ((((.k 416 3) ⊠ (.s 3)) ⊠ (.s 2)) ⊠ (.c 0))) ⊠ (.s 1)) ⊟ ((((.k 178 3) ⊠ (.c 3)) ⊠ (.s 0)) ⊠ (.c 1))) ⊞ ((((.k 416 3) ⊠ (.s 3)) ⊠ (.c 2)) ⊠ (.s 0))) ⊞ ((((.k 178 3) ⊠ (.s 3)) ⊠ (.s 2)) ⊠ (.c 0))⟩,
    ⟨1, 0, (((((((.neg (.c 3)) ⊠ (.c 2)) ⊠ (.s 0)) ⊠ (.s 1)) ⊟ (((.s 3) ⊠ (.s 0)) ⊠ (.c 1))) ⊟ (((.c 3) ⊠ (.s 2)) ⊠ (.c 0))) ⊠ (.s 4)) ⊞ ((((.c 2) ⊠ (.c 0)) ⊟ (((.s 2) ⊠ (.s 0)) ⊠ (.s 1))) ⊠ (.c 4))⟩,
    ⟨1, 1, (((((.s 2) ⊠ (.s 0)) ⊠ (.s 1)) ⊟ ((.c 2) ⊠ (.c 0))) ⊠ (.s 4)) ⊞ (((((((.neg (.c 3)) ⊠ (.c 2)) ⊠ (.s 0)) ⊠ (.s 1)) ⊟ (((.s 3) ⊠ (.s 0)) ⊠ (.c 1))) ⊟ (((.c 3) ⊠ (.s 2)) ⊠ (.c 0))) ⊠ (.c 4))⟩,
    ⟨1, 2, (((((.neg (.s 3)) ⊠ (.c 2)) ⊠ (.s 0)) ⊠ (.s 1)) ⊞ (((.c 3) ⊠ (.s 0)) ⊠ (.c 1))) ⊟ (((.s 3) ⊠ (.s 2)) ⊠ (.c 0))⟩,
    ⟨1, 3, (((((((((((.k 416 3) ⊠ (.c 3)) ⊞ (.k 204 3)) ⊠ (.s 2)) ⊠ (.s 0)) ⊟ ((((.k 178 3) ⊠ (.c 3)) ⊠ (.c 2)) ⊠ (.c 0))) ⊠ (.s 1)) ⊟ ((((.k 178 3) ⊠ (.s 3)) ⊠ (.c 0)) ⊠ (.c 1))) ⊞ ((((.k 178 3) ⊠ (.c 3)) ⊠ (.s 2)) ⊠ (.s 0))) ⊞ (((((.neg (.k 416 3)) ⊠ (.c 3)) ⊟ (.k 204 3)) ⊠ (.c 2)) ⊠ (.c 0))) ⊠ (.s 4)) ⊞ (((((((((((.neg (.k 204 3)) ⊠ (.c 3)) ⊟ (.k 416 3)) ⊠ (.c 2)) ⊠ (.s 0)) ⊟ (((.k 178 3) ⊠ (.s 2)) ⊠ (.c 0))) ⊠ (.s 1)) ⊟ ((((.k 204 3) ⊠ (.s 3)) ⊠ (.s 0)) ⊠ (.c 1))) ⊟ (((.k 178 3) ⊠ (.c 2)) ⊠ (.s 0))) ⊞ (((((.neg (.k 204 3)) ⊠ (.c 3)) ⊟ (.k 416 3)) ⊠ (.s 2)) ⊠ (.c 0))) ⊠ (.c 4))⟩,
    ⟨1, 4, (((((((((((.k 204 3) ⊠ (.c 3)) ⊞ (.k 416 3)) ⊠ (.c 2)) ⊠ (.s 0)) ⊞ (((.k 178 3) ⊠ (.s 2)) ⊠ (.c 0))) ⊠ (.s 1)) ⊞ ((((.k 204 3) ⊠ (.s 3)) ⊠ (.s 0)) ⊠ (.c 1))) ⊞ (((.k 178 3) ⊠ (.c 2)) ⊠ (.s 0))) ⊞ (((((.k 204 3) ⊠ (.c 3)) ⊞ (.k 416 3)) ⊠ (.s 2)) ⊠ (.c 0))) ⊠ (.s 4)) ⊞ (((((((((((.k 416 3) ⊠ (.c 3)) ⊞ (.k 204 3)) ⊠ (.s 2)) ⊠ (.s 0)) ⊟ ((((.k 178 3) ⊠ (.c 3)) ⊠ (.c 2)) ⊠ (.c 0))) ⊠ (.s 1)) ⊟ ((((.k 178 3) ⊠ (.s 3)) ⊠ (.c 0)) ⊠ (.c 1))) ⊞ ((((.k 178 3) ⊠ (.c 3)) ⊠ (.s 2)) ⊠ (.s 0))) ⊞ (((((.neg (.k 416 3)) ⊠ (.c 3)) ⊟ (.k 204 3)) ⊠ (.c 2)) ⊠ (.c 0))) ⊠ (.c 4))⟩,
    ⟨1, 5, ((((((((.k 416 3) ⊠ (.s 3)) ⊠ (.s 2)) ⊠ (.s 0)) ⊟ ((((.k 178 3) ⊠ (.s 3)) ⊠ (.c 2)) ⊠ (.c 0))) ⊠ (.s 1)) ⊞ ((((.k 178 3) ⊠ (.c 3)) ⊠ (.c 0)) ⊠ (.c 1))) ⊞ ((((.k 178 3) ⊠ (.s 3)) ⊠ (.s 2)) ⊠ (.s 0))) ⊟ ((((.k 416 3) ⊠ (.s 3)) ⊠ (.c 2)) ⊠ (.c 0))⟩,
    ⟨2, 0, (((((.c 3) ⊠ (.c 2)) ⊠ (.c 1)) ⊟ ((.s 3) ⊠ (.s 1))) ⊠ (.s 4)) ⊞ (((.s 2) ⊠ (.c 1)) ⊠ (.c 4))⟩,
    ⟨2, 1, (((((.c 3) ⊠ (.c 2)) ⊠ (.c 1)) ⊟ ((.s 3) ⊠ (.s 1))) ⊠ (.c 4)) ⊟ (((.s 2) ⊠ (.c 1)) ⊠ (.s 4))⟩,
    ⟨2, 2, ((.c 3) ⊠ (.s 1)) ⊞ (((.s 3) ⊠ (.c 2)) ⊠ (.c 1))⟩,
    ⟨2, 3, ((((((.neg (.k 416 3)) ⊠ (.c 3)) ⊟ (.k 204 3)) ⊠ (.s 2)) ⊠ (.c 1)) ⊠ (.s 4)) ⊞ (((((((.k 204 3) ⊠ (.c 3)) ⊞ (.k 416 3)) ⊠ (.c 2)) ⊠ (.c 1)) ⊟ (((.k 204 3) ⊠ (.s 3)) ⊠ (.s 1))) ⊠ (.c 4))⟩,
    ⟨2, 4, (((((.k 204 3) ⊠ (.s 3)) ⊠ (.s 1)) ⊞ (((((.neg (.k 204 3)) ⊠ (.c 3)) ⊟ (.k 416 3)) ⊠ (.c 2)) ⊠ (.c 1))) ⊠ (.s 4)) ⊞ ((((((.neg (.k 416 3)) ⊠ (.c 3)) ⊟ (.k 204 3)) ⊠ (.s 2)) ⊠ (.c 1)) ⊠ (.c 4))⟩,
    ⟨2, 5, (((.neg (.k 416 3)) ⊠ (.s 3)) ⊠ (.s 2)) ⊠ (.c 1)⟩,
    ⟨3, 3, (((((((.neg (.c 3)) ⊠ (.c 2)) ⊠ (.c 0)) ⊠ (.s 1)) ⊟ (((.s 3) ⊠ (.c 0)) ⊠ (.c 1))) ⊞ (((.c 3) ⊠ (.s 2)) ⊠ (.s 0))) ⊠ (.s 4)) ⊞ (((((.neg (.s 2)) ⊠ (.c 0)) ⊠ (.s 1)) ⊟ ((.c 2) ⊠ (.s 0))) ⊠ (.c 4))⟩,
    ⟨3, 4, (((((.s 2) ⊠ (.c 0)) ⊠ (.s 1)) ⊞ ((.c 2) ⊠ (.s 0))) ⊠ (.s 4)) ⊞ (((((((.neg (.c 3)) ⊠ (.c 2)) ⊠ (.c 0)) ⊠ (.s 1)) ⊟ (((.s 3) ⊠ (.c 0)) ⊠ (.c 1))) ⊞ (((.c 3) ⊠ (.s 2)) ⊠ (.s 0))) ⊠ (.c 4))⟩,
    ⟨3, 5, (((((.neg (.s 3)) ⊠ (.c 2)) ⊠ (.c 0)) ⊠ (.s 1)) ⊞ (((.c 3) ⊠ (.c 0)) ⊠ (.c 1))) ⊞ (((.s 3) ⊠ (.s 2)) ⊠ (.s 0))⟩,
    ⟨4, 3, (((((((.neg (.c 3)) ⊠ (.c 2)) ⊠ (.s 0)) ⊠ (.s 1)) ⊟ (((.s 3) ⊠ (.s 0)) ⊠ (.c 1))) ⊟ (((.c 3) ⊠ (.s 2)) ⊠ (.c 0))) ⊠ (.s 4)) ⊞ ((((.c 2) ⊠ (.c 0)) ⊟ (((.s 2) ⊠ (.s 0)) ⊠ (.s 1))) ⊠ (.c 4))⟩,
    ⟨4, 4, (((((.s 2) ⊠ (.s 0)) ⊠ (.s 1)) ⊟ ((.c 2) ⊠ (.c 0))) ⊠ (.s 4)) ⊞ (((((((.neg (.c 3)) ⊠ (.c 2)) ⊠ (.s 0)) ⊠ (.s 1)) ⊟ (((.s 3) ⊠ (.s 0)) ⊠ (.c 1))) ⊟ (((.c 3) ⊠ (.s 2)) ⊠ (.c 0))) ⊠ (.c 4))⟩,
    ⟨4, 5, (((((.neg (.s 3)) ⊠ (.c 2)) ⊠ (.s 0)) ⊠ (.s 1)) ⊞ (((.c 3) ⊠ (.s 0)) ⊠ (.c 1))) ⊟ (((.s 3) ⊠ (.s 2)) ⊠ (.c 0))⟩,
    ⟨5, 3, (((((.c 3) ⊠ (.c 2)) ⊠ (.c 1)) ⊟ ((.s 3) ⊠ (.s 1))) ⊠ (.s 4)) ⊞ (((.s 2) ⊠ (.c 1)) ⊠ (.c 4))⟩,
    ⟨5, 4, (((((.c 3) ⊠ (.c 2)) ⊠ (.c 1)) ⊟ ((.s 3) ⊠ (.s 1))) ⊠ (.c 4)) ⊟ (((.s 2) ⊠ (.c 1)) ⊠ (.s 4))⟩,
    ⟨5, 5, ((.c 3) ⊠ (.s 1)) ⊞ (((.s 3) ⊠ (.c 2)) ⊠ (.c 1))⟩]

/-- The transforms `fr_HyABase_X_fr_Wrist_R_CTR`. -/
def fr_HyABase_X_fr_Wrist_R_CTR : Trans := ⟨fr_HyABase, fr_Wrist_R_CTR, hom_fr_HyABase_X_fr_Wrist_R_CTR, motion_fr_HyABase_X_fr_Wrist_R_CTR, force_fr_HyABase_X_fr_Wrist_R_CTR⟩

/-- `HomogeneousTransforms::Type_fr_Shoulder_FE_X_fr_Wrist_FE` (transforms.impl.h:6605-6611, 6613-6645). -/
def hom_fr_Shoulder_FE_X_fr_Wrist_FE : Gen where
  rows := 4
  cols := 4
  ctor := [⟨3, 0, .k 0 0⟩,
    ⟨3, 1, .k 0 0⟩,
    ⟨3, 2, .k 0 0⟩,
    ⟨3, 3, .k 1 0⟩]
  upd := [⟨0, 0, ((.c 3) ⊠ (.c 5)) ⊟ (((.s 3) ⊠ (.s 5)) ⊠ (.s 4))⟩,
    ⟨0, 1, (((.neg (.s 3)) ⊠ (.c 5)) ⊠ (.s 4)) ⊟ ((.c 3) ⊠ (.s 5))⟩,
    ⟨0, 2, (.neg (.s 3)) ⊠ (.c 4)⟩,
    ⟨0, 3, ((((.neg (.k 2075 5)) ⊠ (.s 3)) ⊠ (.s 4)) ⊞ ((.k 296 3) ⊠ (.c 3))) ⊞ (.k 416 3)⟩,
    ⟨1, 0, (((((.c 3) ⊠ (.c 2)) ⊠ (.s 5)) ⊠ (.s 4)) ⊞ (((.s 2) ⊠ (.s 5)) ⊠ (.c 4))) ⊞ (((.s 3) ⊠ (.c 2)) ⊠ (.c 5))⟩,
    ⟨1, 1, (((((.c 3) ⊠ (.c 2)) ⊠ (.c 5)) ⊠ (.s 4)) ⊞ (((.s 2) ⊠ (.c 5)) ⊠ (.c 4))) ⊟ (((.s 3) ⊠ (.c 2)) ⊠ (.s 5))⟩,
    ⟨1, 2, (((.c 3) ⊠ (.c 2)) ⊠ (.c 4)) ⊟ ((.s 2) ⊠ (.s 4))⟩,
    ⟨1, 3, (((((.k 2075 5) ⊠ (.c 3)) ⊠ (.c 2)) ⊠ (.s 4)) ⊞ (((.k 2075 5) ⊠ (.s 2)) ⊠ (.c 4))) ⊞ (((.k 296 3) ⊠ (.s 3)) ⊠ (.c 2))⟩,
    ⟨2, 0, (((((.c 3) ⊠ (.s 2)) ⊠ (.s 5)) ⊠ (.s 4)) ⊟ (((.c 2) ⊠ (.s 5)) ⊠ (.c 4))) ⊞ (((.s 3) ⊠ (.s 2)) ⊠ (.c 5))⟩,
    ⟨2, 1, (((((.c 3) ⊠ (.s 2)) ⊠ (.c 5)) ⊠ (.s 4)) ⊟ (((.c 2) ⊠ (.c 5)) ⊠ (.c 4))) ⊟ (((.s 3) ⊠ (.s 2)) ⊠ (.s 5))⟩,
    ⟨2, 2, ((.c 2) ⊠ (.s 4)) ⊞ (((.c 3) ⊠ (.s 2)) ⊠ (.c 4))⟩,
    ⟨2, 3, (((((.k 2075 5) ⊠ (.c 3)) ⊠ (.s 2)) ⊠ (.s 4)) ⊟ (((.k 2075 5) ⊠ (.c 2)) ⊠ (.c 4))) ⊞ (((.k 296 3) ⊠ (.s 3)) ⊠ (.s 2))⟩]

/-- `MotionTransforms::Type_fr_Shoulder_FE_X_fr_Wrist_FE` (transforms.impl.h:1267-1278, 1280-1327). -/
def motion_fr_Shoulder_FE_X_fr_Wrist_FE : Gen where
  rows := 6
  cols := 6
  ctor := [⟨0, 3, .k 0 0⟩,
    ⟨0, 4, .k 0 0⟩,
    ⟨0, 5, .k 0 0⟩,
    ⟨1, 3, .k 0 0⟩,
    ⟨1, 4, .k 0 0⟩,
    ⟨1, 5, .k 0 0⟩,
    ⟨2, 3, .k 0 0⟩,
    ⟨2, 4, .k 0 0⟩,
    ⟨2, 5, .k 0 0⟩]
  upd := [⟨0, 0, ((.c 3) ⊠ (.c 5)) ⊟ (((.s 3) ⊠ (.s 5)) ⊠ (.s 4))⟩,
    ⟨0, 1, (((.neg (.s 3)) ⊠ (.c 5)) ⊠ (.s 4)) ⊟ ((.c 3) ⊠ (.s 5))⟩,
    ⟨0, 2, (.neg (.s 3)) ⊠ (.c 4)⟩,
    ⟨1, 0, (((((.c 3) ⊠ (.c 2)) ⊠ (.s 5)) ⊠ (.s 4)) ⊞ (((.s 2) ⊠ (.s 5)) ⊠ (.c 4))) ⊞ (((.s 3) ⊠ (.c 2)) ⊠ (.c 5))⟩,
    ⟨1, 1, (((((.c 3) ⊠ (.c 2)) ⊠ (.c 5)) ⊠ (.s 4)) ⊞ (((.s 2) ⊠ (.c 5)) ⊠ (.c 4))) ⊟ (((.s 3) ⊠ (.c 2)) ⊠ (.s 5))⟩,
    ⟨1, 2, (((.c 3) ⊠ (.c 2)) ⊠ (.c 4)) ⊟ ((.s 2) ⊠ (.s 4))⟩,
    ⟨2, 0, (((((.c 3) ⊠ (.s 2)) ⊠ (.s 5)) ⊠ (.s 4)) ⊟ (((.c 2) ⊠ (.s 5)) ⊠ (.c 4))) ⊞ (((.s 3) ⊠ (.s 2)) ⊠ (.c 5))⟩,
    ⟨2, 1, (((((.c 3) ⊠ (.s 2)) ⊠ (.c 5)) ⊠ (.s 4)) ⊟ (((.c 2) ⊠ (.c 5)) ⊠ (.c 4))) ⊟ (((.s 3) ⊠ (.s 2)) ⊠ (.s 5))⟩,
    ⟨2, 2, ((.c 2) ⊠ (.s 4)) ⊞ (((.c 3) ⊠ (.s 2)) ⊠ (.c 4))⟩,
    ⟨3, 0, ((((.k 2075 5) ⊠ (.s 3)) ⊠ (.c 5)) ⊟ (((.k 296 3) ⊠ (.s 3)) ⊠ (.s 5))) ⊠ (.c 4)⟩,
    ⟨3, 1, ((((.neg (.k 2075 5)) ⊠ (.s 3)) ⊠ (.s 5)) ⊟ (((.k 296 3) ⊠ (.s 3)) ⊠ (.c 5))) ⊠ (.c 4)⟩,
    ⟨3, 2, (((.k 296 3) ⊠ (.s 3)) ⊠ (.s 4)) ⊞ ((.k 2075 5) ⊠ (.c 3))⟩,
    ⟨3, 3, ((.c 3) ⊠ (.c 5)) ⊟ (((.s 3) ⊠ (.s 5)) ⊠ (.s 4))⟩,
    ⟨3, 4, (((.neg (.s 3)) ⊠ (.c 5)) ⊠ (.s 4)) ⊟ ((.c 3) ⊠ (.s 5))⟩,
    ⟨3, 5, (.neg (.s 3)) ⊠ (.c 4)⟩,
    ⟨4, 0, ((((((((.neg (.k 416 3)) ⊠ (.c 3)) ⊟ (.k 296 3)) ⊠ (.s 2)) ⊠ (.s 5)) ⊞ (((.k 2075 5) ⊠ (.s 2)) ⊠ (.c 5))) ⊠ (.s 4)) ⊞ (((((((.k 296 3) ⊠ (.c 3)) ⊞ (.k 416 3)) ⊠ (.c 2)) ⊠ (.s 5)) ⊟ ((((.k 2075 5) ⊠ (.c 3)) ⊠ (.c 2)) ⊠ (.c 5))) ⊠ (.c 4))) ⊟ ((((.k 416 3) ⊠ (.s 3)) ⊠ (.s 2)) ⊠ (.c 5))⟩,
    ⟨4, 1, ((((((((.neg (.k 416 3)) ⊠ (.c 3)) ⊟ (.k 296 3)) ⊠ (.s 2)) ⊠ (.c 5)) ⊟ (((.k 2075 5) ⊠ (.s 2)) ⊠ (.s 5))) ⊠ (.s 4)) ⊞ ((((((.k 2075 5) ⊠ (.c 3)) ⊠ (.c 2)) ⊠ (.s 5)) ⊞ (((((.k 296 3) ⊠ (.c 3)) ⊞ (.k 416 3)) ⊠ (.c 2)) ⊠ (.c 5))) ⊠ (.c 4))) ⊞ ((((.k 416 3) ⊠ (.s 3)) ⊠ (.s 2)) ⊠ (.s 5))⟩,
    ⟨4, 2, ((((((.neg (.k 296 3)) ⊠ (.c 3)) ⊟ (.k 416 3)) ⊠ (.c 2)) ⊠ (.s 4)) ⊞ (((((.neg (.k 416 3)) ⊠ (.c 3)) ⊟ (.k 296 3)) ⊠ (.s 2)) ⊠ (.c 4))) ⊞ (((.k 2075 5) ⊠ (.s 3)) ⊠ (.c 2))⟩,
    ⟨4, 3, (((((.c 3) ⊠ (.c 2)) ⊠ (.s 5)) ⊠ (.s 4)) ⊞ (((.s 2) ⊠ (.s 5)) ⊠ (.c 4))) ⊞ (((.s 3) ⊠ (.c 2)) ⊠ (.c 5))⟩,
    ⟨4, 4, (((((.c 3) ⊠ (.c 2)) ⊠ (.c 5)) ⊠ (.s 4)) ⊞ (((.s 2) ⊠ (.c 5)) ⊠ (.c 4))) ⊟ (((.s 3) ⊠ (.c 2)) ⊠ (.s 5))⟩,
    ⟨4, 5, (((.c 3) ⊠ (.c 2)) ⊠ (.c 4)) ⊟ ((.s 2) ⊠ (.s 4))⟩,
    ⟨5, 0, ((((((((.k 416 3) ⊠ (.c 3)) ⊞ (.k 296 3)) ⊠ (.c 2)) ⊠ (.s 5)) ⊟ (((.k 2075 5) ⊠ (.c 2)) ⊠ (.c 5))) ⊠ (.s 4)) ⊞ (((((((.k 296 3) ⊠ (.c 3)) ⊞ (.k 416 3)) ⊠ (.s 2)) ⊠ (.s 5)) ⊟ ((((.k 2075 5) ⊠ (.c 3)) ⊠ (.s 2)) ⊠ (.c 5))) ⊠ (.c 4))) ⊞ ((((.k 416 3) ⊠ (.s 3)) ⊠ (.c 2)) ⊠ (.c 5))⟩,
    ⟨5, 1, ((((((.k 2075 5) ⊠ (.c 2)) ⊠ (.s 5)) ⊞ (((((.k 416 3) ⊠ (.c 3)) ⊞ (.k 296 3)) ⊠ (.c 2)) ⊠ (.c 5))) ⊠ (.s 4)) ⊞ ((((((.k 2075 5) ⊠ (.c 3)) ⊠ (.s 2)) ⊠ (.s 5)) ⊞ (((((.k 296 3) ⊠ (.c 3)) ⊞ (.k 416 3)) ⊠ (.s 2)) ⊠ (.c 5))) ⊠ (.c 4))) ⊟ ((((.k 416 3) ⊠ (.s 3)) ⊠ (.c 2)) ⊠ (.s 5))⟩,
    ⟨5, 2, ((((((.neg (.k 296 3)) ⊠ (.c 3)) ⊟ (.k 416 3)) ⊠ (.s 2)) ⊠ (.s 4)) ⊞ (((((.k 416 3) ⊠ (.c 3)) ⊞ (.k 296 3)) ⊠ (.c 2)) ⊠ (.c 4))) ⊞ (((.k 2075 5) ⊠ (.s 3)) ⊠ (.s 2))⟩,
    ⟨5, 3, (((((.c 3) ⊠ (.s 2)) ⊠ (.s 5)) ⊠ (.s 4)) ⊟ (((.c 2) ⊠ (.s 5)) ⊠ (.c 4))) ⊞ (((.s 3) ⊠ (.s 2)) ⊠ (.c 5))⟩,
    ⟨5, 4, (((((.c 3) ⊠ (.s 2)) ⊠ (.c 5)) ⊠ (.s 4)) ⊟ (((.c 2) ⊠ (.c 5)) ⊠ (.c 4))) ⊟ (((.s 3) ⊠ (.s 2)) ⊠ (.s 5))⟩,
    ⟨5, 5, ((.c 2) ⊠ (.s 4)) ⊞ (((.c 3) ⊠ (.s 2)) ⊠ (.c 4))⟩]

/-- `ForceTransforms::Type_fr_Shoulder_FE_X_fr_Wrist_FE` (transforms.impl.h:4116-4127, 4129-4176). -/
def force_fr_Shoulder_FE_X_fr_Wrist_FE : Gen where
  rows := 6
  cols := 6
  ctor := [⟨3, 0, .k 0 0⟩,
    ⟨3, 1, .k 0 0⟩,
    ⟨3, 2, .k 0 0⟩,
    ⟨4, 0, .k 0 0⟩,
    ⟨4, 1, .k 0 0⟩,
    ⟨4, 2, .k 0 0⟩,
    ⟨5, 0, .k 0 0⟩,
    ⟨5, 1, .k 0 0⟩,
    ⟨5, 2, .k 0 0⟩]
  upd := [⟨0, 0, ((.c 3) ⊠ (.c 5)) ⊟ (((.s 3) ⊠ (.s 5)) ⊠ (.s 4))⟩,
    ⟨0, 1, (((.neg (.s 3)) ⊠ (.c 5)) ⊠ (.s 4)) ⊟ ((.c 3) ⊠ (.s 5))⟩,
    ⟨0, 2, (.neg (.s 3)) ⊠ (.c 4)⟩,
    ⟨0, 3, ((((.k 2075 5) ⊠ (.s 3)) ⊠ (.c 5)) ⊟ (((.k 296 3) ⊠ (.s 3)) ⊠ (.s 5))) ⊠ (.c 4)⟩,
    ⟨0, 4, ((((.neg (.k 2075 5)) ⊠ (.s 3)) ⊠ (.s 5)) ⊟ (((.k 296 3) ⊠ (.s 3)) ⊠ (.c 5))) ⊠ (.c 4)⟩,
    ⟨0, 5, (((.k 296 3) ⊠ (.s 3)) ⊠ (.s 4)) ⊞ ((.k 2075 5) ⊠ (.c 3))⟩,
    ⟨1, 0, (((((.c 3) ⊠ (.c 2)) ⊠ (.s 5)) ⊠ (.s 4)) ⊞ (((.s 2) ⊠ (.s 5)) ⊠ (.c 4))) ⊞ (((.s 3) ⊠ (.c 2)) ⊠ (.c 5))⟩,
    ⟨1, 1, (((((.c 3) ⊠ (.c 2)) ⊠ (.c 5)) ⊠ (.s 4)) ⊞ (((.s 2) ⊠ (.c 5)) ⊠ (.c 4))) ⊟ (((.s 3) ⊠ (.c 2)) ⊠ (.s 5))⟩,
    ⟨1, 2, (((.c 3) ⊠ (.c 2)) ⊠ (.c 4)) ⊟ ((.s 2) ⊠ (.s 4))⟩,
    ⟨1, 3, ((((((((.neg (.k 416 3)) ⊠ (.c 3)) ⊟ (.k 296 3)) ⊠ (.s 2)) ⊠ (.s 5)) ⊞ (((.k 2075 5) ⊠ (.s 2)) ⊠ (.c 5))) ⊠ (.s 4)) ⊞ (((((((.k 296 3) ⊠ (.c 3)) ⊞ (.k 416 3)) ⊠ (.c 2)) ⊠ (.s 5)) ⊟ ((((.k 2075 5) ⊠ (.c 3)) ⊠ (.c 2)) ⊠ (.c 5))) ⊠ (.c 4))) ⊟ ((((.k 416 3) ⊠ (.s 3)) ⊠ (.s 2)) ⊠ (.c 5))⟩,
    ⟨1, 4, ((((((((.neg (.k 416 3)) ⊠ (.c 3)) ⊟ (.k 296 3)) ⊠ (.s 2)) ⊠ (.c 5)) ⊟ (((.k 2075 5) ⊠ (.s 2)) ⊠ (.s 5))) ⊠ (.s 4)) ⊞ ((((((.k 2075 5) ⊠ (.c 3)) ⊠ (.c 2)) ⊠ (.s 5)) ⊞ (((((.k 296 3) ⊠ (.c 3)) ⊞ (.k 416 3)) ⊠ (.c 2)) ⊠ (.c 5))) ⊠ (.c 4))) ⊞ ((((.k 416 3) ⊠ (.s 3)) ⊠ (.s 2)) ⊠ (.s 5))⟩,
    ⟨1, 5, ((((((.neg (.k 296 3)) ⊠ (.c 3)) ⊟ (.k 416 3)) ⊠ (.c 2)) ⊠ (.s 4)) ⊞ (((((.neg (.k 416 3)) ⊠ (.c 3)) ⊟ (.k 296 3)) ⊠ (.s 2)) ⊠ (.c 4))) ⊞ (((.k 2075 5) ⊠ (.s 3)) ⊠ (.c 2))⟩,
    ⟨2, 0, (((((.c 3) ⊠ (.s 2)) ⊠ (.s 5)) ⊠ (.s 4)) ⊟ (((.c 2) ⊠ (.s 5)) ⊠ (.c 4))) ⊞ (((.s 3) ⊠ (.s 2)) ⊠ (.c 5))⟩,
    ⟨2, 1, (((((.c 3) ⊠ (.s 2)) ⊠ (.c 5)) ⊠ (.s 4)) ⊟ (((.c 2) ⊠ (.c 5)) ⊠ (.c 4))) ⊟ (((.s 3) ⊠ (.s 2)) ⊠ (.s 5))⟩,
    ⟨2, 2, ((.c 2) ⊠ (.s 4)) ⊞ (((.c 3) ⊠ (.s 2)) ⊠ (.c 4))⟩,
    ⟨2, 3, ((((((((.k 416 3) ⊠ (.c 3)) ⊞ (.k 296 3)) ⊠ (.c 2)) ⊠ (.s 5)) ⊟ (((.k 2075 5) ⊠ (.c 2)) ⊠ (.c 5))) ⊠ (.s 4)) ⊞ (((((((.k 296 3) ⊠ (.c 3)) ⊞ (.k 416 3)) ⊠ (.s 2)) ⊠ (.s 5)) ⊟ ((((.k 2075 5) ⊠ (.c 3)) ⊠ (.s 2)) ⊠ (.c 5))) ⊠ (.c 4))) ⊞ ((((.k 416 3) ⊠ (.s 3)) ⊠ (.c 2)) ⊠ (.c 5))⟩,
    ⟨2, 4, ((((((.k 2075 5) ⊠ (.c 2)) ⊠ (.s 5)) ⊞ (((((.k 416 3) ⊠ (.c 3)) ⊞ (.k 296 3)) ⊠ (.c 2)) ⊠ (.c 5))) ⊠ (.s 4)) ⊞ ((((((.k 2075 5) ⊠ (.c 3)) ⊠ (.s 2)) ⊠ (.s 5)) ⊞ (((((.k 296 3) ⊠ (.c 3)) ⊞ (.k 416 3)) ⊠ (.s 2)) ⊠ (.c 5))) ⊠ (.c 4))) ⊟ ((((.k 416 3) ⊠ (.s 3)) ⊠ (.c 2)) ⊠ (.s 5))⟩,
    ⟨2, 5, ((((((.neg (.k 296 3)) ⊠ (.c 3)) ⊟ (.k 416 3)) ⊠ (.s 2)) ⊠ (.s 4)) ⊞ (((((.k 416 3) ⊠ (.c 3)) ⊞ (.k 296 3)) ⊠ (.c 2)) ⊠ (.c 4))) ⊞ (((.k 2075 5) ⊠ (.s 3)) ⊠ (.s 2))⟩,
    ⟨3, 3, ((.c 3) ⊠ (.c 5)) ⊟ (((.s 3) ⊠ (.s 5)) ⊠ (.s 4))⟩,
    ⟨3, 4, (((.neg (.s 3)) ⊠ (.c 5)) ⊠ (.s 4)) ⊟ ((.c 3) ⊠ (.s 5))⟩,
    ⟨3, 5, (.neg (.s 3)) ⊠ (.c 4)⟩,
    ⟨4, 3, (((((.c 3) ⊠ (.c 2)) ⊠ (.s 5)) ⊠ (.s 4)) ⊞ (((.s 2) ⊠ (.s 5)) ⊠ (.c 4))) ⊞ (((.s 3) ⊠ (.c 2)) ⊠ (.c 5))⟩,
    ⟨4, 4, (((((.c 3) ⊠ (.c 2)) ⊠ (.c 5)) ⊠ (.s 4)) ⊞ (((.s 2) ⊠ (.c 5)) ⊠ (.c 4))) ⊟ (((.s 3) ⊠ (.c 2)) ⊠ (.s 5))⟩,
    ⟨4, 5, (((.c 3) ⊠ (.c 2)) ⊠ (.c 4)) ⊟ ((.s 2) ⊠ (.s 4))⟩,
    ⟨5, 3, (((((.c 3) ⊠ (.s 2)) ⊠ (.s 5)) ⊠ (.s 4)) ⊟ (((.c 2) ⊠ (.s 5)) ⊠ (.c 4))) ⊞ (((.s 3) ⊠ (.s 2)) ⊠ (.c 5))⟩,
    ⟨5, 4, (((((.c 3) ⊠ (.s 2)) ⊠ (.c 5)) ⊠ (.s 4)) ⊟ (((.c 2) ⊠ (.c 5)) ⊠ (.c 4))) ⊟ (((.s 3) ⊠ (.s 2)) ⊠ (.s 5))⟩,
    ⟨5, 5, ((.c 2) ⊠ (.s 4)) ⊞ (((.c 3) ⊠ (.s 2)) ⊠ (.c 4))⟩]

/-- The transforms `fr_Shoulder_FE_X_fr_Wrist_FE`. -/
def fr_Shoulder_FE_X_fr_Wrist_FE : Trans := ⟨fr_Shoulder_FE, fr_Wrist_FE, hom_fr_Shoulder_FE_X_fr_Wrist_FE, motion_fr_Shoulder_FE_X_fr_Wrist_FE, force_fr_Shoulder_FE_X_fr_Wrist_FE⟩

/-- `HomogeneousTransforms::Type_fr_Humerus_R_X_fr_Wrist_FE` (transforms.impl.h:6647-6653, 6655-6683). -/
def hom_fr_Humerus_R_X_fr_Wrist_FE : Gen where
  rows := 4
  cols := 4
  ctor := [⟨3, 0, .k 0 0⟩,
    ⟨3, 1, .k 0 0⟩,
    ⟨3, 2, .k 0 0⟩,
    ⟨3, 3, .k 1 0⟩]
  upd := [⟨0, 0, (.s 5) ⊠ (.c 4)⟩,
    ⟨0, 1, (.c 5) ⊠ (.c 4)⟩,
    ⟨0, 2, .neg (.s 4)⟩,
    ⟨0, 3, (.k 2075 5) ⊠ (.c 4)⟩,
    ⟨1, 0, (((.c 3) ⊠ (.s 5)) ⊠ (.s 4)) ⊞ ((.s 3) ⊠ (.c 5))⟩,
    ⟨1, 1, (((.c 3) ⊠ (.c 5)) ⊠ (.s 4)) ⊟ ((.s 3) ⊠ (.s 5))⟩,
    ⟨1, 2, (.c 3) ⊠ (.c 4)⟩,
    ⟨1, 3, (((.k 2075 5) ⊠ (.c 3)) ⊠ (.s 4)) ⊞ ((.k 296 3) ⊠ (.s 3))⟩,
    ⟨2, 0, ((.c 3) ⊠ (.c 5)) ⊟ (((.s 3) ⊠ (.s 5)) ⊠ (.s 4))⟩,
    ⟨2, 1, (((.neg (.s 3)) ⊠ (.c 5)) ⊠ (.s 4)) ⊟ ((.c 3) ⊠ (.s 5))⟩,
    ⟨2, 2, (.neg (.s 3)) ⊠ (.c 4)⟩,
    ⟨2, 3, ((((.neg (.k 2075 5)) ⊠ (.s 3)) ⊠ (.s 4)) ⊞ ((.k 296 3) ⊠ (.c 3))) ⊞ (.k 304 3)⟩]

/-- `MotionTransforms::Type_fr_Humerus_R_X_fr_Wrist_FE` (transforms.impl.h:1329-1340, 1342-1385). -/
def motion_fr_Humerus_R_X_fr_Wrist_FE : Gen where
  rows := 6
  cols := 6
  ctor := [⟨0, 3, .k 0 0⟩,
    ⟨0, 4, .k 0 0⟩,
    ⟨0, 5, .k 0 0⟩,
    ⟨1, 3, .k 0 0⟩,
    ⟨1, 4, .k 0 0⟩,
    ⟨1, 5, .k 0 0⟩,
    ⟨2, 3, .k 0 0⟩,
    ⟨2, 4, .k 0 0⟩,
    ⟨2, 5, .k 0 0⟩]
  upd := [⟨0, 0, (.s 5) ⊠ (.c 4)⟩,
    ⟨0, 1, (.c 5) ⊠ (.c 4)⟩,
    ⟨0, 2, .neg (.s 4)⟩,
    ⟨1, 0, (((.c 3) ⊠ (.s 5)) ⊠ (.s 4)) ⊞ ((.s 3) ⊠ (.c 5))⟩,
    ⟨1, 1, (((.c 3) ⊠ (.c 5)) ⊠ (.s 4)) ⊟ ((.s 3) ⊠ (.s 5))⟩,
    ⟨1, 2, (.c 3) ⊠ (.c 4)⟩,
    ⟨2, 0, ((.c 3) ⊠ (.c 5)) ⊟ (((.s 3) ⊠ (.s 5)) ⊠ (.s 4))⟩,
    ⟨2, 1, (((.neg (.s 3)) ⊠ (.c 5)) ⊠ (.s 4)) ⊟ ((.c 3) ⊠ (.s 5))⟩,
    ⟨2, 2, (.neg (.s 3)) ⊠ (.c 4)⟩,
    ⟨3, 0, ((((((.neg (.k 304 3)) ⊠ (.c 3)) ⊟ (.k 296 3)) ⊠ (.s 5)) ⊞ ((.k 2075 5) ⊠ (.c 5))) ⊠ (.s 4)) ⊟ (((.k 304 3) ⊠ (.s 3)) ⊠ (.c 5))⟩,
    ⟨3, 1, ((((((.neg (.k 304 3)) ⊠ (.c 3)) ⊟ (.k 296 3)) ⊠ (.c 5)) ⊟ ((.k 2075 5) ⊠ (.s 5))) ⊠ (.s 4)) ⊞ (((.k 304 3) ⊠ (.s 3)) ⊠ (.s 5))⟩,
    ⟨3, 2, (((.neg (.k 304 3)) ⊠ (.c 3)) ⊟ (.k 296 3)) ⊠ (.c 4)⟩,
    ⟨3, 3, (.s 5) ⊠ (.c 4)⟩,
    ⟨3, 4, (.c 5) ⊠ (.c 4)⟩,
    ⟨3, 5, .neg (.s 4)⟩,
    ⟨4, 0, (((((.k 296 3) ⊠ (.c 3)) ⊞ (.k 304 3)) ⊠ (.s 5)) ⊟ (((.k 2075 5) ⊠ (.c 3)) ⊠ (.c 5))) ⊠ (.c 4)⟩,
    ⟨4, 1, ((((.k 2075 5) ⊠ (.c 3)) ⊠ (.s 5)) ⊞ ((((.k 296 3) ⊠ (.c 3)) ⊞ (.k 304 3)) ⊠ (.c 5))) ⊠ (.c 4)⟩,
    ⟨4, 2, ((((.neg (.k 296 3)) ⊠ (.c 3)) ⊟ (.k 304 3)) ⊠ (.s 4)) ⊞ ((.k 2075 5) ⊠ (.s 3))⟩,
    ⟨4, 3, (((.c 3) ⊠ (.s 5)) ⊠ (.s 4)) ⊞ ((.s 3) ⊠ (.c 5))⟩,
    ⟨4, 4, (((.c 3) ⊠ (.c 5)) ⊠ (.s 4)) ⊟ ((.s 3) ⊠ (.s 5))⟩,
    ⟨4, 5, (.c 3) ⊠ (.c 4)⟩,
    ⟨5, 0, ((((.k 2075 5) ⊠ (.s 3)) ⊠ (.c 5)) ⊟ (((.k 296 3) ⊠ (.s 3)) ⊠ (.s 5))) ⊠ (.c 4)⟩,
    ⟨5, 1, ((((.neg (.k 2075 5)) ⊠ (.s 3)) ⊠ (.s 5)) ⊟ (((.k 296 3) ⊠ (.s 3)) ⊠ (.c 5))) ⊠ (.c 4)⟩,
    ⟨5, 2, (((.k 296 3) ⊠ (.s 3)) ⊠ (.s 4)) ⊞ ((.k 2075 5) ⊠ (.c 3))⟩,
    ⟨5, 3, ((.c 3) ⊠ (.c 5)) ⊟ (((.s 3) ⊠ (.s 5)) ⊠ (.s 4))⟩,
    ⟨5, 4, (((.neg (.s 3)) ⊠ (.c 5)) ⊠ (.s 4)) ⊟ ((.c 3) ⊠ (.s 5))⟩,
    ⟨5, 5, (.neg (.s 3)) ⊠ (.c 4)⟩]

/-- `ForceTransforms::Type_fr_Humerus_R_X_fr_Wrist_FE` (transforms.impl.h:4178-4189, 4191-4234). -/
def force_fr_Humerus_R_X_fr_Wrist_FE : Gen where
  rows := 6
  cols := 6
  ctor := [⟨3, 0, .k 0 0⟩,
    ⟨3, 1, .k 0 0⟩,
    ⟨3, 2, .k 0 0⟩,
    ⟨4, 0, .k 0 0⟩,
    ⟨4, 1, .k 0 0⟩,
    ⟨4, 2, .k 0 0⟩,
    ⟨5, 0, .k 0 0⟩,
    ⟨5, 1, .k 0 0⟩,
    ⟨5, 2, .k 0 0⟩]
  upd := [⟨0, 0, (.s 5) ⊠ (.c 4)⟩,
    ⟨0, 1, (.c 5) ⊠ (.c 4)⟩,
    ⟨0, 2, .neg (.s 4)⟩,
    ⟨0, 3, ((((((.neg (.k 304 3)) ⊠ (.c 3)) ⊟ (.k 296 3)) ⊠ (.s 5)) ⊞ ((.k 2075 5) ⊠ (.c 5))) ⊠ (.s 4)) ⊟ (((.k 304 3) ⊠ (.s 3)) ⊠ (.c 5))⟩,
    ⟨0, 4, ((((((.neg (.k 304 3)) ⊠ (.c 3)) ⊟ (.k 296 3)) ⊠ (.c 5)) ⊟ ((.k 2075 5) ⊠ (.s 5))) ⊠ (.s 4)) ⊞ (((.k 304 3) ⊠ (.s 3)) ⊠ (.s 5))⟩,
    ⟨0, 5, (((.neg (.k 304 3)) ⊠ (.c 3)) ⊟ (.k 296 3)) ⊠ (.c 4)⟩,
    ⟨1, 0, (((.c 3) ⊠ (.s 5)) ⊠ (.s 4)) ⊞ ((.s 3) ⊠ (.c 5))⟩,
    ⟨1, 1, (((.c 3) ⊠ (.c 5)) ⊠ (.s 4)) ⊟ ((.s 3) ⊠ (.s 5))⟩,
    ⟨1, 2, (.c 3) ⊠ (.c 4)⟩,
    ⟨1, 3, (((((.k 296 3) ⊠ (.c 3)) ⊞ (.k 304 3)) ⊠ (.s 5)) ⊟ (((.k 2075 5) ⊠ (.c 3)) ⊠ (.c 5))) ⊠ (.c 4)⟩,
    ⟨1, 4, ((((.k 2075 5) ⊠ (.c 3)) ⊠ (.s 5)) ⊞ ((((.k 296 3) ⊠ (.c 3)) ⊞ (.k 304 3)) ⊠ (.c 5))) ⊠ (.c 4)⟩,
    ⟨1, 5, ((((.neg (.k 296 3)) ⊠ (.c 3)) ⊟ (.k 304 3)) ⊠ (.s 4)) ⊞ ((.k 2075 5) ⊠ (.s 3))⟩,
    ⟨2, 0, ((.c 3) ⊠ (.c 5)) ⊟ (((.s 3) ⊠ (.s 5)) ⊠ (.s 4))⟩,
    ⟨2, 1, (((.neg (.s 3)) ⊠ (.c 5)) ⊠ (.s 4)) ⊟ ((.c 3) ⊠ (.s 5))⟩,
    ⟨2, 2, (.neg (.s 3)) ⊠ (.c 4)⟩,
    ⟨2, 3, ((((.k 2075 5) ⊠ (.s 3)) ⊠ (.c 5)) ⊟ (((.k 296 3) ⊠ (.s 3)) ⊠ (.s 5))) ⊠ (.c 4)⟩,
    ⟨2, 4, ((((.neg (.k 2075 5)) ⊠ (.s 3)) ⊠ (.s 5)) ⊟ (((.k 296 3) ⊠ (.s 3)) ⊠ (.c 5))) ⊠ (.c 4)⟩,
    ⟨2, 5, (((.k 296 3) ⊠ (.s 3)) ⊠ (.s 4)) ⊞ ((.k 2075 5) ⊠ (.c 3))⟩,
    ⟨3, 3, (.s 5) ⊠ (.c 4)⟩,
    ⟨3, 4, (.c 5) ⊠ (.c 4)⟩,
    ⟨3, 5, .neg (.s 4)⟩,
    ⟨4, 3, (((.c 3) ⊠ (.s 5)) ⊠ (.s 4)) ⊞ ((.s 3) ⊠ (.c 5))⟩,
    ⟨4, 4, (((.c 3) ⊠ (.c 5)) ⊠ (.s 4)) ⊟ ((.s 3) ⊠ (.s 5))⟩,
    ⟨4, 5, (.c 3) ⊠ (.c 4)⟩,
    ⟨5, 3, ((.c 3) ⊠ (.c 5)) ⊟ (((.s 3) ⊠ (.s 5)) ⊠ (.s 4))⟩,
    ⟨5, 4, (((.neg (.s 3)) ⊠ (.c 5)) ⊠ (.s 4)) ⊟ ((.c 3) ⊠ (.s 5))⟩,
    ⟨5, 5, (.neg (.s 3)) ⊠ (.c 4)⟩]

/-- The transforms `fr_Humerus_R_X_fr_Wrist_FE`. -/
def fr_Humerus_R_X_fr_Wrist_FE : Trans := ⟨fr_Humerus_R, fr_Wrist_FE, hom_fr_Humerus_R_X_fr_Wrist_FE, motion_fr_Humerus_R_X_fr_Wrist_FE, force_fr_Humerus_R_X_fr_Wrist_FE⟩

/-- `HomogeneousTransforms::Type_fr_Elbow_FE_X_fr_Wrist_FE` (transforms.impl.h:6685-6693, 6695-6717). -/
def hom_fr_Elbow_FE_X_fr_Wrist_FE : Gen where
  rows := 4
  cols := 4
  ctor := [⟨0, 2, .k 0 0⟩,
    ⟨0, 3, .k 296 3⟩,
    ⟨3, 0, .k 0 0⟩,
    ⟨3, 1, .k 0 0⟩,
    ⟨3, 2, .k 0 0⟩,
    ⟨3, 3, .k 1 0⟩]
  upd := [⟨0, 0, .c 5⟩,
    ⟨0, 1, .neg (.s 5)⟩,
    ⟨1, 0, (.s 5) ⊠ (.s 4)⟩,
    ⟨1, 1, (.c 5) ⊠ (.s 4)⟩,
    ⟨1, 2, .c 4⟩,
    ⟨1, 3, (.k 2075 5) ⊠ (.s 4)⟩,
    ⟨2, 0, (.neg (.s 5)) ⊠ (.c 4)⟩,
    ⟨2, 1, (.neg (.c 5)) ⊠ (.c 4)⟩,
    ⟨2, 2, .s 4⟩,
    ⟨2, 3, (.neg (.k 2075 5)) ⊠ (.c 4)⟩]

/-- `MotionTransforms::Type_fr_Elbow_FE_X_fr_Wrist_FE` (transforms.impl.h:1387-1403, 1405-1439). -/
def motion_fr_Elbow_FE_X_fr_Wrist_FE : Gen where
  rows := 6
  cols := 6
  ctor := [⟨0, 2, .k 0 0⟩,
    ⟨0, 3, .k 0 0⟩,
    ⟨0, 4, .k 0 0⟩,
    ⟨0, 5, .k 0 0⟩,
    ⟨1, 3, .k 0 0⟩,
    ⟨1, 4, .k 0 0⟩,
    ⟨1, 5, .k 0 0⟩,
    ⟨2, 3, .k 0 0⟩,
    ⟨2, 4, .k 0 0⟩,
    ⟨2, 5, .k 0 0⟩,
    ⟨3, 0, .k 0 0⟩,
    ⟨3, 1, .k 0 0⟩,
    ⟨3, 2, .k 2075 5⟩,
    ⟨3, 5, .k 0 0⟩]
  upd := [⟨0, 0, .c 5⟩,
    ⟨0, 1, .neg (.s 5)⟩,
    ⟨1, 0, (.s 5) ⊠ (.s 4)⟩,
    ⟨1, 1, (.c 5) ⊠ (.s 4)⟩,
    ⟨1, 2, .c 4⟩,
    ⟨2, 0, (.neg (.s 5)) ⊠ (.c 4)⟩,
    ⟨2, 1, (.neg (.c 5)) ⊠ (.c 4)⟩,
    ⟨2, 2, .s 4⟩,
    ⟨3, 3, .c 5⟩,
    ⟨3, 4, .neg (.s 5)⟩,
    ⟨4, 0, (((.k 296 3) ⊠ (.s 5)) ⊟ ((.k 2075 5) ⊠ (.c 5))) ⊠ (.c 4)⟩,
    ⟨4, 1, (((.k 2075 5) ⊠ (.s 5)) ⊞ ((.k 296 3) ⊠ (.c 5))) ⊠ (.c 4)⟩,
    ⟨4, 2, (.neg (.k 296 3)) ⊠ (.s 4)⟩,
    ⟨4, 3, (.s 5) ⊠ (.s 4)⟩,
    ⟨4, 4, (.c 5) ⊠ (.s 4)⟩,
    ⟨4, 5, .c 4⟩,
    ⟨5, 0, (((.k 296 3) ⊠ (.s 5)) ⊟ ((.k 2075 5) ⊠ (.c 5))) ⊠ (.s 4)⟩,
    ⟨5, 1, (((.k 2075 5) ⊠ (.s 5)) ⊞ ((.k 296 3) ⊠ (.c 5))) ⊠ (.s 4)⟩,
    ⟨5, 2, (.k 296 3) ⊠ (.c 4)⟩,
    ⟨5, 3, (.neg (.s 5)) ⊠ (.c 4)⟩,
    ⟨5, 4, (.neg (.c 5)) ⊠ (.c 4)⟩,
    ⟨5, 5, .s 4⟩]

/-- `ForceTransforms::Type_fr_Elbow_FE_X_fr_Wrist_FE` (transforms.impl.h:4236-4252, 4254-4288). -/
def force_fr_Elbow_FE_X_fr_Wrist_FE : Gen where
  rows := 6
  cols := 6
  ctor := [⟨0, 2, .k 0 0⟩,
    ⟨0, 3, .k 0 0⟩,
    ⟨0, 4, .k 0 0⟩,
    ⟨0, 5, .k 2075 5⟩,
    ⟨3, 0, .k 0 0⟩,
    ⟨3, 1, .k 0 0⟩,
    ⟨3, 2, .k 0 0⟩,
    ⟨3, 5, .k 0 0⟩,
    ⟨4, 0, .k 0 0⟩,
    ⟨4, 1, .k 0 0⟩,
    ⟨4, 2, .k 0 0⟩,
    ⟨5, 0, .k 0 0⟩,
    ⟨5, 1, .k 0 0⟩,
    ⟨5, 2, .k 0 0⟩]
  upd := [⟨0, 0, .c 5⟩,
    ⟨0, 1, .neg (.s 5)⟩,
    ⟨1, 0, (.s 5) ⊠ (.s 4)⟩,
    ⟨1, 1, (.c 5) ⊠ (.s 4)⟩,
    ⟨1, 2, .c 4⟩,
    ⟨1, 3, (((.k 296 3) ⊠ (.s 5)) ⊟ ((.k 2075 5) ⊠ (.c 5))) ⊠ (.c 4)⟩,
    ⟨1, 4, (((.k 2075 5) ⊠ (.s 5)) ⊞ ((.k 296 3) ⊠ (.c 5))) ⊠ (.c 4)⟩,
    ⟨1, 5, (.neg (.k 296 3)) ⊠ (.s 4)⟩,
    ⟨2, 0, (.neg (.s 5)) ⊠ (.c 4)⟩,
    ⟨2, 1, (.neg (.c 5)) ⊠ (.c 4)⟩,
    ⟨2, 2, .s 4⟩,
    ⟨2, 3, (((.k 296 3) ⊠ (.s 5)) ⊟ ((.k 2075 5) ⊠ (.c 5))) ⊠ (.s 4)⟩,
    ⟨2, 4, (((.k 2075 5) ⊠ (.s 5)) ⊞ ((.k 296 3) ⊠ (.c 5))) ⊠ (.s 4)⟩,
    ⟨2, 5, (.k 296 3) ⊠ (.c 4)⟩,
    ⟨3, 3, .c 5⟩,
    ⟨3, 4, .neg (.s 5)⟩,
    ⟨4, 3, (.s 5) ⊠ (.s 4)⟩,
    ⟨4, 4, (.c 5) ⊠ (.s 4)⟩,
    ⟨4, 5, .c 4⟩,
    ⟨5, 3, (.neg (.s 5)) ⊠ (.c 4)⟩,
    ⟨5, 4, (.neg (.c 5)) ⊠ (.c 4)⟩,
    ⟨5, 5, .s 4⟩]

/-- The transforms `fr_Elbow_FE_X_fr_Wrist_FE`. -/
def fr_Elbow_FE_X_fr_Wrist_FE : Trans := ⟨fr_Elbow_FE, fr_Wrist_FE, hom_fr_Elbow_FE_X_fr_Wrist_FE, motion_fr_Elbow_FE_X_fr_Wrist_FE, force_fr_Elbow_FE_X_fr_Wrist_FE⟩

/-- `HomogeneousTransforms::Type_fr_Wrist_R_X_fr_Wrist_FE` (transforms.impl.h:6719-6733, 6735-6747). -/
def hom_fr_Wrist_R_X_fr_Wrist_FE : Gen where
  rows := 4
  cols := 4
  ctor := [⟨0, 2, .k 0 0⟩,
    ⟨0, 3, .k 2075 5⟩,
    ⟨1, 0, .k 0 0⟩,
    ⟨1, 1, .k 0 0⟩,
    ⟨1, 2, .k 1 0⟩,
    ⟨1, 3, .k 0 0⟩,
    ⟨2, 2, .k 0 0⟩,
    ⟨2, 3, .k 184 3⟩,
    ⟨3, 0, .k 0 0⟩,
    ⟨3, 1, .k 0 0⟩,
    ⟨3, 2, .k 0 0⟩,
    ⟨3, 3, .k 1 0⟩]
  upd := [⟨0, 0, .s 5⟩,
    ⟨0, 1, .c 5⟩,
    ⟨2, 0, .c 5⟩,
    ⟨2, 1, .neg (.s 5)⟩]

/-- `MotionTransforms::Type_fr_Wrist_R_X_fr_Wrist_FE` (transforms.impl.h:1441-1469, 1471-1489). -/
def motion_fr_Wrist_R_X_fr_Wrist_FE : Gen where
  rows := 6
  cols := 6
  ctor := [⟨0, 2, .k 0 0⟩,
    ⟨0, 3, .k 0 0⟩,
    ⟨0, 4, .k 0 0⟩,
    ⟨0, 5, .k 0 0⟩,
    ⟨1, 0, .k 0 0⟩,
    ⟨1, 1, .k 0 0⟩,
    ⟨1, 2, .k 1 0⟩,
    ⟨1, 3, .k 0 0⟩,
    ⟨1, 4, .k 0 0⟩,
    ⟨1, 5, .k 0 0⟩,
    ⟨2, 2, .k 0 0⟩,
    ⟨2, 3, .k 0 0⟩,
    ⟨2, 4, .k 0 0⟩,
    ⟨2, 5, .k 0 0⟩,
    ⟨3, 0, .k 0 0⟩,
    ⟨3, 1, .k 0 0⟩,
    ⟨3, 2, .neg (.k 184 3)⟩,
    ⟨3, 5, .k 0 0⟩,
    ⟨4, 2, .k 0 0⟩,
    ⟨4, 3, .k 0 0⟩,
    ⟨4, 4, .k 0 0⟩,
    ⟨4, 5, .k 1 0⟩,
    ⟨5, 0, .k 0 0⟩,
    ⟨5, 1, .k 0 0⟩,
    ⟨5, 2, .k 2075 5⟩,
    ⟨5, 5, .k 0 0⟩]
  upd := [⟨0, 0, .s 5⟩,
    ⟨0, 1, .c 5⟩,
    ⟨2, 0, .c 5⟩,
    ⟨2, 1, .neg (.s 5)⟩,
    ⟨3, 3, .s 5⟩,
    ⟨3, 4, .c 5⟩,
    ⟨4, 0, ((.k 184 3) ⊠ (.s 5)) ⊟ ((.k 2075 5) ⊠ (.c 5))⟩,
    ⟨4, 1, ((.k 2075 5) ⊠ (.s 5)) ⊞ ((.k 184 3) ⊠ (.c 5))⟩,
    ⟨5, 3, .c 5⟩,
    ⟨5, 4, .neg (.s 5)⟩]

/-- `ForceTransforms::Type_fr_Wrist_R_X_fr_Wrist_FE` (transforms.impl.h:4290-4318, 4320-4338). -/
def force_fr_Wrist_R_X_fr_Wrist_FE : Gen where
  rows := 6
  cols := 6
  ctor := [⟨0, 2, .k 0 0⟩,
    ⟨0, 3, .k 0 0⟩,
    ⟨0, 4, .k 0 0⟩,
    ⟨0, 5, .neg (.k 184 3)⟩,
    ⟨1, 0, .k 0 0⟩,
    ⟨1, 1, .k 0 0⟩,
    ⟨1, 2, .k 1 0⟩,
    ⟨1, 5, .k 0 0⟩,
    ⟨2, 2, .k 0 0⟩,
    ⟨2, 3, .k 0 0⟩,
    ⟨2, 4, .k 0 0⟩,
    ⟨2, 5, .k 2075 5⟩,
    ⟨3, 0, .k 0 0⟩,
    ⟨3, 1, .k 0 0⟩,
    ⟨3, 2, .k 0 0⟩,
    ⟨3, 5, .k 0 0⟩,
    ⟨4, 0, .k 0 0⟩,
    ⟨4, 1, .k 0 0⟩,
    ⟨4, 2, .k 0 0⟩,
    ⟨4, 3, .k 0 0⟩,
    ⟨4, 4, .k 0 0⟩,
    ⟨4, 5, .k 1 0⟩,
    ⟨5, 0, .k 0 0⟩,
    ⟨5, 1, .k 0 0⟩,
    ⟨5, 2, .k 0 0⟩,
    ⟨5, 5, .k 0 0⟩]
  upd := [⟨0, 0, .s 5⟩,
    ⟨0, 1, .c 5⟩,
    ⟨1, 3, ((.k 184 3) ⊠ (.s 5)) ⊟ ((.k 2075 5) ⊠ (.c 5))⟩,
    ⟨1, 4, ((.k 2075 5) ⊠ (.s 5)) ⊞ ((.k 184 3) ⊠ (.c 5))⟩,
    ⟨2, 0, .c 5⟩,
    ⟨2, 1, .neg (.s 5)⟩,
    ⟨3, 3, .s 5⟩,
    ⟨3, 4, .c 5⟩,
    ⟨5, 3, .c 5⟩,
    ⟨5, 4, .neg (.s 5)⟩]

/-- The transforms `fr_Wrist_R_X_fr_Wrist_FE`. -/
def fr_Wrist_R_X_fr_Wrist_FE : Trans := ⟨fr_Wrist_R, fr_Wrist_FE, hom_fr_Wrist_R_X_fr_Wrist_FE, motion_fr_Wrist_R_X_fr_Wrist_FE, force_fr_Wrist_R_X_fr_Wrist_FE⟩

/-- `HomogeneousTransforms::Type_fr_Wrist_FE_X_fr_Shoulder_FE` (transforms.impl.h:6749-6755, 6757-6789). -/
def hom_fr_Wrist_FE_X_fr_Shoulder_FE : Gen where
  rows := 4
  cols := 4
  ctor := [⟨3, 0, .k 0 0⟩,
    ⟨3, 1, .k 0 0⟩,
    ⟨3, 2, .k 0 0⟩,
    ⟨3, 3, .k 1 0⟩]
  upd := [⟨0, 0, ((.c 3) ⊠ (.c 5)) ⊟ (((.s 3) ⊠ (.s 5)) ⊠ (.s 4))⟩,
    ⟨0, 1, (((((.c 3) ⊠ (.c 2)) ⊠ (.s 5)) ⊠ (.s 4)) ⊞ (((.s 2) ⊠ (.s 5)) ⊠ (.c 4))) ⊞ (((.s 3) ⊠ (.c 2)) ⊠ (.c 5))⟩,
    ⟨0, 2, (((((.c 3) ⊠ (.s 2)) ⊠ (.s 5)) ⊠ (.s 4)) ⊟ (((.c 2) ⊠ (.s 5)) ⊠ (.c 4))) ⊞ (((.s 3) ⊠ (.s 2)) ⊠ (.c 5))⟩,
    ⟨0, 3, (((((.k 416 3) ⊠ (.s 3)) ⊠ (.s 5)) ⊠ (.s 4)) ⊟ ((.k 2075 5) ⊠ (.s 5))) ⊞ ((((.neg (.k 416 3)) ⊠ (.c 3)) ⊟ (.k 296 3)) ⊠ (.c 5))⟩,
    ⟨1, 0, (((.neg (.s 3)) ⊠ (.c 5)) ⊠ (.s 4)) ⊟ ((.c 3) ⊠ (.s 5))⟩,
    ⟨1, 1, (((((.c 3) ⊠ (.c 2)) ⊠ (.c 5)) ⊠ (.s 4)) ⊞ (((.s 2) ⊠ (.c 5)) ⊠ (.c 4))) ⊟ (((.s 3) ⊠ (.c 2)) ⊠ (.s 5))⟩,
    ⟨1, 2, (((((.c 3) ⊠ (.s 2)) ⊠ (.c 5)) ⊠ (.s 4)) ⊟ (((.c 2) ⊠ (.c 5)) ⊠ (.c 4))) ⊟ (((.s 3) ⊠ (.s 2)) ⊠ (.s 5))⟩,
    ⟨1, 3, (((((.k 416 3) ⊠ (.s 3)) ⊠ (.c 5)) ⊠ (.s 4)) ⊞ ((((.k 416 3) ⊠ (.c 3)) ⊞ (.k 296 3)) ⊠ (.s 5))) ⊟ ((.k 2075 5) ⊠ (.c 5))⟩,
    ⟨2, 0, (.neg (.s 3)) ⊠ (.c 4)⟩,
    ⟨2, 1, (((.c 3) ⊠ (.c 2)) ⊠ (.c 4)) ⊟ ((.s 2) ⊠ (.s 4))⟩,
    ⟨2, 2, ((.c 2) ⊠ (.s 4)) ⊞ (((.c 3) ⊠ (.s 2)) ⊠ (.c 4))⟩,
    ⟨2, 3, ((.k 416 3) ⊠ (.s 3)) ⊠ (.c 4)⟩]

/-- `MotionTransforms::Type_fr_Wrist_FE_X_fr_Shoulder_FE` (transforms.impl.h:1491-1502, 1504-1551). -/
def motion_fr_Wrist_FE_X_fr_Shoulder_FE : Gen where
  rows := 6
  cols := 6
  ctor := [⟨0, 3, .k 0 0⟩,
    ⟨0, 4, .k 0 0⟩,
    ⟨0, 5, .k 0 0⟩,
    ⟨1, 3, .k 0 0⟩,
    ⟨1, 4, .k 0 0⟩,
    ⟨1, 5, .k 0 0⟩,
    ⟨2, 3, .k 0 0⟩,
    ⟨2, 4, .k 0 0⟩,
    ⟨2, 5, .k 0 0⟩]
  upd := [⟨0, 0, ((.c 3) ⊠ (.c 5)) ⊟ (((.s 3) ⊠ (.s 5)) ⊠ (.s 4))⟩,
    ⟨0, 1, (((((.c 3) ⊠ (.c 2)) ⊠ (.s 5)) ⊠ (.s 4)) ⊞ (((.s 2) ⊠ (.s 5)) ⊠ (.c 4))) ⊞ (((.s 3) ⊠ (.c 2)) ⊠ (.c 5))⟩,
    ⟨0, 2, (((((.c 3) ⊠ (.s 2)) ⊠ (.s 5)) ⊠ (.s 4)) ⊟ (((.c 2) ⊠ (.s 5)) ⊠ (.c 4))) ⊞ (((.s 3) ⊠ (.s 2)) ⊠ (.c 5))⟩,
    ⟨1, 0, (((.neg (.s 3)) ⊠ (.c 5)) ⊠ (.s 4)) ⊟ ((.c 3) ⊠ (.s 5))⟩,
    ⟨1, 1, (((((.c 3) ⊠ (.c 2)) ⊠ (.c 5)) ⊠ (.s 4)) ⊞ (((.s 2) ⊠ (.c 5)) ⊠ (.c 4))) ⊟ (((.s 3) ⊠ (.c 2)) ⊠ (.s 5))⟩,
    ⟨1, 2, (((((.c 3) ⊠ (.s 2)) ⊠ (.c 5)) ⊠ (.s 4)) ⊟ (((.c 2) ⊠ (.c 5)) ⊠ (.c 4))) ⊟ (((.s 3) ⊠ (.s 2)) ⊠ (.s 5))⟩,
    ⟨2, 0, (.neg (.s 3)) ⊠ (.c 4)⟩,
    ⟨2, 1, (((.c 3) ⊠ (.c 2)) ⊠ (.c 4)) ⊟ ((.s 2) ⊠ (.s 4))⟩,
    ⟨2, 2, ((.c 2) ⊠ (.s 4)) ⊞ (((.c 3) ⊠ (.s 2)) ⊠ (.c 4))⟩,
    ⟨3, 0, ((((.k 2075 5) ⊠ (.s 3)) ⊠ (.c 5)) ⊟ (((.k 296 3) ⊠ (.s 3)) ⊠ (.s 5))) ⊠ (.c 4)⟩,
    ⟨3, 1, ((((((((.neg (.k 416 3)) ⊠ (.c 3)) ⊟ (.k 296 3)) ⊠ (.s 2)) ⊠ (.s 5)) ⊞ (((.k 2075 5) ⊠ (.s 2)) ⊠ (.c 5))) ⊠ (.s 4)) ⊞ (((((((.k 296 3) ⊠ (.c 3)) ⊞ (.k 416 3)) ⊠ (.c 2)) ⊠ (.s 5)) ⊟ ((((.k 2075 5) ⊠ (.c 3)) ⊠ (.c 2)) ⊠ (.c 5))) ⊠ (.c 4))) ⊟ ((((.k 416 3) ⊠ (.s 3)) ⊠ (.s 2)) ⊠ (.c 5))⟩,
    ⟨3, 2, ((((((((.k 416 3) ⊠ (.c 3)) ⊞ (.k 296 3)) ⊠ (.c 2)) ⊠ (.s 5)) ⊟ (((.k 2075 5) ⊠ (.c 2)) ⊠ (.c 5))) ⊠ (.s 4)) ⊞ (((((((.k 296 3) ⊠ (.c 3)) ⊞ (.k 416 3)) ⊠ (.s 2)) ⊠ (.s 5)) ⊟ ((((.k 2075 5) ⊠ (.c 3)) ⊠ (.s 2)) ⊠ (.c 5))) ⊠ (.c 4))) ⊞ ((((.k 416 3) ⊠ (.s 3)) ⊠ (.c 2)) ⊠ (.c 5))⟩,
    ⟨3, 3, ((.c 3) ⊠ (.c 5)) ⊟ (((.s 3) ⊠ (.s 5)) ⊠ (.s 4))⟩,
    ⟨3, 4, (((((.c 3) ⊠ (.c 2)) ⊠ (.s 5)) ⊠ (.s 4)) ⊞ (((.s 2) ⊠ (.s 5)) ⊠ (.c 4))) ⊞ (((.s 3) ⊠ (.c 2)) ⊠ (.c 5))⟩,
    ⟨3, 5, (((((.c 3) ⊠ (.s 2)) ⊠ (.s 5)) ⊠ (.s 4)) ⊟ (((.c 2) ⊠ (.s 5)) ⊠ (.c 4))) ⊞ (((.s 3) ⊠ (.s 2)) ⊠ (.c 5))⟩,
    ⟨4, 0, ((((.neg (.k 2075 5)) ⊠ (.s 3)) ⊠ (.s 5)) ⊟ (((.k 296 3) ⊠ (.s 3)) ⊠ (.c 5))) ⊠ (.c 4)⟩,
    ⟨4, 1, ((((((((.neg (.k 416 3)) ⊠ (.c 3)) ⊟ (.k 296 3)) ⊠ (.s 2)) ⊠ (.c 5)) ⊟ (((.k 2075 5) ⊠ (.s 2)) ⊠ (.s 5))) ⊠ (.s 4)) ⊞ ((((((.k 2075 5) ⊠ (.c 3)) ⊠ (.c 2)) ⊠ (.s 5)) ⊞ (((((.k 296 3) ⊠ (.c 3)) ⊞ (.k 416 3)) ⊠ (.c 2)) ⊠ (.c 5))) ⊠ (.c 4))) ⊞ ((((.k 416 3) ⊠ (.s 3)) ⊠ (.s 2)) ⊠ (.s 5))⟩,
    ⟨4, 2, ((((((.k 2075 5) ⊠ (.c 2)) ⊠ (.s 5)) ⊞ (((((.k 416 3) ⊠ (.c 3)) ⊞ (.k 296 3)) ⊠ (.c 2)) ⊠ (.c 5))) ⊠ (.s 4)) ⊞ ((((((.k 2075 5) ⊠ (.c 3)) ⊠ (.s 2)) ⊠ (.s 5)) ⊞ (((((.k 296 3) ⊠ (.c 3)) ⊞ (.k 416 3)) ⊠ (.s 2)) ⊠ (.c 5))) ⊠ (.c 4))) ⊟ ((((.k 416 3) ⊠ (.s 3)) ⊠ (.c 2)) ⊠ (.s 5))⟩,
    ⟨4, 3, (((.neg (.s 3)) ⊠ (.c 5)) ⊠ (.s 4)) ⊟ ((.c 3) ⊠ (.s 5))⟩,
    ⟨4, 4, (((((.c 3) ⊠ (.c 2)) ⊠ (.c 5)) ⊠ (.s 4)) ⊞ (((.s 2) ⊠ (.c 5)) ⊠ (.c 4))) ⊟ (((.s 3) ⊠ (.c 2)) ⊠ (.s 5))⟩,
    ⟨4, 5, (((((.c 3) ⊠ (.s 2)) ⊠ (.c 5)) ⊠ (.s 4)) ⊟ (((.c 2) ⊠ (.c 5)) ⊠ (.c 4))) ⊟ (((.s 3) ⊠ (.s 2)) ⊠ (.s 5))⟩,
    ⟨5, 0, (((.k 296 3) ⊠ (.s 3)) ⊠ (.s 4)) ⊞ ((.k 2075 5) ⊠ (.c 3))⟩,
    ⟨5, 1, ((((((.neg (.k 296 3)) ⊠ (.c 3)) ⊟ (.k 416 3)) ⊠ (.c 2)) ⊠ (.s 4)) ⊞ (((((.neg (.k 416 3)) ⊠ (.c 3)) ⊟ (.k 296 3)) ⊠ (.s 2)) ⊠ (.c 4))) ⊞ (((.k 2075 5) ⊠ (.s 3)) ⊠ (.c 2))⟩,
    ⟨5, 2, ((((((.neg (.k 296 3)) ⊠ (.c 3)) ⊟ (.k 416 3)) ⊠ (.s 2)) ⊠ (.s 4)) ⊞ (((((.k 416 3) ⊠ (.c 3)) ⊞ (.k 296 3)) ⊠ (.c 2)) ⊠ (.c 4))) ⊞ (((.k 2075 5) ⊠ (.s 3)) ⊠ (.s 2))⟩,
    ⟨5, 3, (.neg (.s 3)) ⊠ (.c 4)⟩,
    ⟨5, 4, (((.c 3) ⊠ (.c 2)) ⊠ (.c 4)) ⊟ ((.s 2) ⊠ (.s 4))⟩,
    ⟨5, 5, ((.c 2) ⊠ (.s 4)) ⊞ (((.c 3) ⊠ (.s 2)) ⊠ (.c 4))⟩]

/-- `ForceTransforms::Type_fr_Wrist_FE_X_fr_Shoulder_FE` (transforms.impl.h:4340-4351, 4353-4400). -/
def force_fr_Wrist_FE_X_fr_Shoulder_FE : Gen where
  rows := 6
  cols := 6
  ctor := [⟨3, 0, .k 0 0⟩,
    ⟨3, 1, .k 0 0⟩,
    ⟨3, 2, .k 0 0⟩,
    ⟨4, 0, .k 0 0⟩,
    ⟨4, 1, .k 0 0⟩,
    ⟨4, 2, .k 0 0⟩,
    ⟨5, 0, .k 0 0⟩,
    ⟨5, 1, .k 0 0⟩,
    ⟨5, 2, .k 0 0⟩]
  upd := [⟨0, 0, ((.c 3) ⊠ (.c 5)) ⊟ (((.s 3) ⊠ (.s 5)) ⊠ (.s 4))⟩,
    ⟨0, 1, (((((.c 3) ⊠ (.c 2)) ⊠ (.s 5)) ⊠ (.s 4)) ⊞ (((.s 2) ⊠ (.s 5)) ⊠ (.c 4))) ⊞ (((.s 3) ⊠ (.c 2)) ⊠ (.c 5))⟩,
    ⟨0, 2, (((((.c 3) ⊠ (.s 2)) ⊠ (.s 5)) ⊠ (.s 4)) ⊟ (((.c 2) ⊠ (.s 5)) ⊠ (.c 4))) ⊞ (((.s 3) ⊠ (.s 2)) ⊠ (.c 5))⟩,
    ⟨0, 3, ((((.k 2075 5) ⊠ (.s 3)) ⊠ (.c 5)) ⊟ (((.k 296 3) ⊠ (.s 3)) ⊠ (.s 5))) ⊠ (.c 4)⟩,
    ⟨0, 4, ((((((((.neg (.k 416 3)) ⊠ (.c 3)) ⊟ (.k 296 3)) ⊠ (.s 2)) ⊠ (.s 5)) ⊞ (((.k 2075 5) ⊠ (.s 2)) ⊠ (.c 5))) ⊠ (.s 4)) ⊞ (((((((.k 296 3) ⊠ (.c 3)) ⊞ (.k 416 3)) ⊠ (.c 2)) ⊠ (.s 5)) ⊟ ((((.k 2075 5) ⊠ (.c 3)) ⊠ (.c 2)) ⊠ (.c 5))) ⊠ (.c 4))) ⊟ ((((.k 416 3) ⊠ (.s 3)) ⊠ (.s 2)) ⊠ (.c 5))⟩,
    ⟨0, 5, ((((((((.k 416 3) ⊠ (.c 3)) ⊞ (.k 296 3)) ⊠ (.c 2)) ⊠ (.s 5)) ⊟ (((.k 2075 5) ⊠ (.c 2)) ⊠ (.c 5))) ⊠ (.s 4)) ⊞ (((((((.k 296 3) ⊠ (.c 3)) ⊞ (.k 416 3)) ⊠ (.s 2)) ⊠ (.s 5)) ⊟ ((((.k 2075 5) ⊠ (.c 3)) ⊠ (.s 2)) ⊠ (.c 5))) ⊠ (.c 4))) ⊞ ((((.k 416 3) ⊠ (.s 3)) ⊠ (.c 2)) ⊠ (.c 5))⟩,
    ⟨1, 0, (((.neg (.s 3)) ⊠ (.c 5)) ⊠ (.s 4)) ⊟ ((.c 3) ⊠ (.s 5))⟩,
    ⟨1, 1, (((((.c 3) ⊠ (.c 2)) ⊠ (.c 5)) ⊠ (.s 4)) ⊞ (((.s 2) ⊠ (.c 5)) ⊠ (.c 4))) ⊟ (((.s 3) ⊠ (.c 2)) ⊠ (.s 5))⟩,
    ⟨1, 2, (((((.c 3) ⊠ (.s 2)) ⊠ (.c 5)) ⊠ (.s 4)) ⊟ (((.c 2) ⊠ (.c 5)) ⊠ (.c 4))) ⊟ (((.s 3) ⊠ (.s 2)) ⊠ (.s 5))⟩,
    ⟨1, 3, ((((.neg (.k 2075 5)) ⊠ (.s 3)) ⊠ (.s 5)) ⊟ (((.k 296 3) ⊠ (.s 3)) ⊠ (.c 5))) ⊠ (.c 4)⟩,
    ⟨1, 4, ((((((((.neg (.k 416 3)) ⊠ (.c 3)) ⊟ (.k 296 3)) ⊠ (.s 2)) ⊠ (.c 5)) ⊟ (((.k 2075 5) ⊠ (.s 2)) ⊠ (.s 5))) ⊠ (.s 4)) ⊞ ((((((.k 2075 5) ⊠ (.c 3)) ⊠ (.c 2)) ⊠ (.s 5)) ⊞ (((((.k 296 3) ⊠ (.c 3)) ⊞ (.k 416 3)) ⊠ (.c 2)) ⊠ (.c 5))) ⊠ (.c 4))) ⊞ ((((.k 416 3) ⊠ (.s 3)) ⊠ (.s 2)) ⊠ (.s 5))⟩,
    ⟨1, 5, ((((((.k 2075 5) ⊠ (.c 2)) ⊠ (.s 5)) ⊞ (((((.k 416 3) ⊠ (.c 3)) ⊞ (.k 296 3)) ⊠ (.c 2)) ⊠ (.c 5))) ⊠ (.s 4)) ⊞ ((((((.k 2075 5) ⊠ (.c 3)) ⊠ (.s 2)) ⊠ (.s 5)) ⊞ (((((.k 296 3) ⊠ (.c 3)) ⊞ (.k 416 3)) ⊠ (.s 2)) ⊠ (.c 5))) ⊠ (.c 4))) ⊟ ((((.k 416 3) ⊠ (.s 3)) ⊠ (.c 2)) ⊠ (.s 5))⟩,
    ⟨2, 0, (.neg (.s 3)) ⊠ (.c 4)⟩,
    ⟨2, 1, (((.c 3) ⊠ (.c 2)) ⊠ (.c 4)) ⊟ ((.s 2) ⊠ (.s 4))⟩,
    ⟨2, 2, ((.c 2) ⊠ (.s 4)) ⊞ (((.c 3) ⊠ (.s 2)) ⊠ (.c 4))⟩,
    ⟨2, 3, (((.k 296 3) ⊠ (.s 3)) ⊠ (.s 4)) ⊞ ((.k 2075 5) ⊠ (.c 3))⟩,
    ⟨2, 4, ((((((.neg (.k 296 3)) ⊠ (.c 3)) ⊟ (.k 416 3)) ⊠ (.c 2)) ⊠ (.s 4)) ⊞ (((((.neg (.k 416 3)) ⊠ (.c 3)) ⊟ (.k 296 3)) ⊠ (.s 2)) ⊠ (.c 4))) ⊞ (((.k 2075 5) ⊠ (.s 3)) ⊠ (.c 2))⟩,
    ⟨2, 5, ((((((.neg (.k 296 3)) ⊠ (.c 3)) ⊟ (.k 416 3)) ⊠ (.s 2)) ⊠ (.s 4)) ⊞ (((((.k 416 3) ⊠ (.c 3)) ⊞ (.k 296 3)) ⊠ (.c 2)) ⊠ (.c 4))) ⊞ (((.k 2075 5) ⊠ (.s 3)) ⊠ (.s 2))⟩,
    ⟨3, 3, ((.c 3) ⊠ (.c 5)) ⊟ (((.s 3) ⊠ (.s 5)) ⊠ (.s 4))⟩,
    ⟨3, 4, (((((.c 3) ⊠ (.c 2)) ⊠ (.s 5)) ⊠ (.s 4)) ⊞ (((.s 2) ⊠ (.s 5)) ⊠ (.c 4))) ⊞ (((.s 3) ⊠ (.c 2)) ⊠ (.c 5))⟩,
    ⟨3, 5, (((((.c 3) ⊠ (.s 2)) ⊠ (.s 5)) ⊠ (.s 4)) ⊟ (((.c 2) ⊠ (.s 5)) ⊠ (.c 4))) ⊞ (((.s 3) ⊠ (.s 2)) ⊠ (.c 5))⟩,
    ⟨4, 3, (((.neg (.s 3)) ⊠ (.c 5)) ⊠ (.s 4)) ⊟ ((.c 3) ⊠ (.s 5))⟩,
    ⟨4, 4, (((((.c 3) ⊠ (.c 2)) ⊠ (.c 5)) ⊠ (.s 4)) ⊞ (((.s 2) ⊠ (.c 5)) ⊠ (.c 4))) ⊟ (((.s 3) ⊠ (.c 2)) ⊠ (.s 5))⟩,
    ⟨4, 5, (((((.c 3) ⊠ (.s 2)) ⊠ (.c 5)) ⊠ (.s 4)) ⊟ (((.c 2) ⊠ (.c 5)) ⊠ (.c 4))) ⊟ (((.s 3) ⊠ (.s 2)) ⊠ (.s 5))⟩,
    ⟨5, 3, (.neg (.s 3)) ⊠ (.c 4)⟩,
    ⟨5, 4, (((.c 3) ⊠ (.c 2)) ⊠ (.c 4)) ⊟ ((.s 2) ⊠ (.s 4))⟩,
    ⟨5, 5, ((.c 2) ⊠ (.s 4)) ⊞ (((.c 3) ⊠ (.s 2)) ⊠ (.c 4))⟩]

/-- The transforms `fr_Wrist_FE_X_fr_Shoulder_FE`. -/
def fr_Wrist_FE_X_fr_Shoulder_FE : Trans := ⟨fr_Wrist_FE, fr_Shoulder_FE, hom_fr_Wrist_FE_X_fr_Shoulder_FE, motion_fr_Wrist_FE_X_fr_Shoulder_FE, force_fr_Wrist_FE_X_fr_Shoulder_FE⟩

/-- `HomogeneousTransforms::Type_fr_Shoulder_FE_X_fr_ee` (transforms.impl.h:6791-6797, 6799-6831). -/
def hom_fr_Shoulder_FE_X_fr_ee : Gen where
  rows := 4
  cols := 4
  ctor := [⟨3, 0, .k 0 0⟩,
    ⟨3, 1, .k 0 0⟩,
    ⟨3, 2, .k 0 0⟩,
    ⟨3, 3, .k 1 0⟩]
  upd := [⟨0, 0, ((.c 3) ⊠ (.c 5)) ⊟ (((.s 3) ⊠ (.s 5)) ⊠ (.s 4))⟩,
    ⟨0, 1, (((.neg (.s 3)) ⊠ (.c 5)) ⊠ (.s 4)) ⊟ ((.c 3) ⊠ (.s 5))⟩,
    ⟨0, 2, (.neg (.s 3)) ⊠ (.c 4)⟩,
    ⟨0, 3, (((((((.neg (.k 3 2)) ⊠ (.s 3)) ⊠ (.s 5)) ⊟ ((.k 2075 5) ⊠ (.s 3))) ⊠ (.s 4)) ⊞ (((.k 3 2) ⊠ (.c 3)) ⊠ (.c 5))) ⊞ ((.k 296 3) ⊠ (.c 3))) ⊞ (.k 416 3)⟩,
    ⟨1, 0, (((((.c 3) ⊠ (.c 2)) ⊠ (.s 5)) ⊠ (.s 4)) ⊞ (((.s 2) ⊠ (.s 5)) ⊠ (.c 4))) ⊞ (((.s 3) ⊠ (.c 2)) ⊠ (.c 5))⟩,
    ⟨1, 1, (((((.c 3) ⊠ (.c 2)) ⊠ (.c 5)) ⊠ (.s 4)) ⊞ (((.s 2) ⊠ (.c 5)) ⊠ (.c 4))) ⊟ (((.s 3) ⊠ (.c 2)) ⊠ (.s 5))⟩,
    ⟨1, 2, (((.c 3) ⊠ (.c 2)) ⊠ (.c 4)) ⊟ ((.s 2) ⊠ (.s 4))⟩,
    ⟨1, 3, ((((((((.k 3 2) ⊠ (.c 3)) ⊠ (.c 2)) ⊠ (.s 5)) ⊞ (((.k 2075 5) ⊠ (.c 3)) ⊠ (.c 2))) ⊠ (.s 4)) ⊞ (((((.k 3 2) ⊠ (.s 2)) ⊠ (.s 5)) ⊞ ((.k 2075 5) ⊠ (.s 2))) ⊠ (.c 4))) ⊞ ((((.k 3 2) ⊠ (.s 3)) ⊠ (.c 2)) ⊠ (.c 5))) ⊞ (((.k 296 3) ⊠ (.s 3)) ⊠ (.c 2))⟩,
    ⟨2, 0, (((((.c 3) ⊠ (.s 2)) ⊠ (.s 5)) ⊠ (.s 4)) ⊟ (((.c 2) ⊠ (.s 5)) ⊠ (.c 4))) ⊞ (((.s 3) ⊠ (.s 2)) ⊠ (.c 5))⟩,
    ⟨2, 1, (((((.c 3) ⊠ (.s 2)) ⊠ (.c 5)) ⊠ (.s 4)) ⊟ (((.c 2) ⊠ (.c 5)) ⊠ (.c 4))) ⊟ (((.s 3) ⊠ (.s 2)) ⊠ (.s 5))⟩,
    ⟨2, 2, ((.c 2) ⊠ (.s 4)) ⊞ (((.c 3) ⊠ (.s 2)) ⊠ (.c 4))⟩,
    ⟨2, 3, ((((((((.k 3 2) ⊠ (.c 3)) ⊠ (.s 2)) ⊠ (.s 5)) ⊞ (((.k 2075 5) ⊠ (.c 3)) ⊠ (.s 2))) ⊠ (.s 4)) ⊞ (((((.neg (.k 3 2)) ⊠ (.c 2)) ⊠ (.s 5)) ⊟ ((.k 2075 5) ⊠ (.c 2))) ⊠ (.c 4))) ⊞ ((((.k 3 2) ⊠ (.s 3)) ⊠ (.s 2)) ⊠ (.c 5))) ⊞ (((.k 296 3) ⊠ (.s 3)) ⊠ (.s 2))⟩]

/-- `MotionTransforms::Type_fr_Shoulder_FE_X_fr_ee` (transforms.impl.h:1553-1564, 1566-1613). -/
def motion_fr_Shoulder_FE_X_fr_ee : Gen where
  rows := 6
  cols := 6
  ctor := [⟨0, 3, .k 0 0⟩,
    ⟨0, 4, .k 0 0⟩,
    ⟨0, 5, .k 0 0⟩,
    ⟨1, 3, .k 0 0⟩,
    ⟨1, 4, .k 0 0⟩,
    ⟨1, 5, .k 0 0⟩,
    ⟨2, 3, .k 0 0⟩,
    ⟨2, 4, .k 0 0⟩,
    ⟨2, 5, .k 0 0⟩]
  upd := [⟨0, 0, ((.c 3) ⊠ (.c 5)) ⊟ (((.s 3) ⊠ (.s 5)) ⊠ (.s 4))⟩,
    ⟨0, 1, (((.neg (.s 3)) ⊠ (.c 5)) ⊠ (.s 4)) ⊟ ((.c 3) ⊠ (.s 5))⟩,
    ⟨0, 2, (.neg (.s 3)) ⊠ (.c 4)⟩,
    ⟨1, 0, (((((.c 3) ⊠ (.c 2)) ⊠ (.s 5)) ⊠ (.s 4)) ⊞ (((.s 2) ⊠ (.s 5)) ⊠ (.c 4))) ⊞ (((.s 3) ⊠ (.c 2)) ⊠ (.c 5))⟩,
    ⟨1, 1, (((((.c 3) ⊠ (.c 2)) ⊠ (.c 5)) ⊠ (.s 4)) ⊞ (((.s 2) ⊠ (.c 5)) ⊠ (.c 4))) ⊟ (((.s 3) ⊠ (.c 2)) ⊠ (.s 5))⟩,
    ⟨1, 2, (((.c 3) ⊠ (.c 2)) ⊠ (.c 4)) ⊟ ((.s 2) ⊠ (.s 4))⟩,
    ⟨2, 0, (((((.c 3) ⊠ (.s 2)) ⊠ (.s 5)) ⊠ (.s 4)) ⊟ (((.c 2) ⊠ (.s 5)) ⊠ (.c 4))) ⊞ (((.s 3) ⊠ (.s 2)) ⊠ (.c 5))⟩,
    ⟨2, 1, (((((.c 3) ⊠ (.s 2)) ⊠ (.c 5)) ⊠ (.s 4)) ⊟ (((.c 2) ⊠ (.c 5)) ⊠ (.c 4))) ⊟ (((.s 3) ⊠ (.s 2)) ⊠ (.s 5))⟩,
    ⟨2, 2, ((.c 2) ⊠ (.s 4)) ⊞ (((.c 3) ⊠ (.s 2)) ⊠ (.c 4))⟩,
    ⟨3, 0, ((((.k 2075 5) ⊠ (.s 3)) ⊠ (.c 5)) ⊟ (((.k 296 3) ⊠ (.s 3)) ⊠ (.s 5))) ⊠ (.c 4)⟩,
    ⟨3, 1, (((((.neg (.k 2075 5)) ⊠ (.s 3)) ⊠ (.s 5)) ⊟ (((.k 296 3) ⊠ (.s 3)) ⊠ (.c 5))) ⊟ ((.k 3 2) ⊠ (.s 3))) ⊠ (.c 4)⟩,
    ⟨3, 2, ((((((.k 3 2) ⊠ (.s 3)) ⊠ (.c 5)) ⊞ ((.k 296 3) ⊠ (.s 3))) ⊠ (.s 4)) ⊞ (((.k 3 2) ⊠ (.c 3)) ⊠ (.s 5))) ⊞ ((.k 2075 5) ⊠ (.c 3))⟩,
    ⟨3, 3, ((.c 3) ⊠ (.c 5)) ⊟ (((.s 3) ⊠ (.s 5)) ⊠ (.s 4))⟩,
    ⟨3, 4, (((.neg (.s 3)) ⊠ (.c 5)) ⊠ (.s 4)) ⊟ ((.c 3) ⊠ (.s 5))⟩,
    ⟨3, 5, (.neg (.s 3)) ⊠ (.c 4)⟩,
    ⟨4, 0, ((((((((.neg (.k 416 3)) ⊠ (.c 3)) ⊟ (.k 296 3)) ⊠ (.s 2)) ⊠ (.s 5)) ⊞ (((.k 2075 5) ⊠ (.s 2)) ⊠ (.c 5))) ⊠ (.s 4)) ⊞ (((((((.k 296 3) ⊠ (.c 3)) ⊞ (.k 416 3)) ⊠ (.c 2)) ⊠ (.s 5)) ⊟ ((((.k 2075 5) ⊠ (.c 3)) ⊠ (.c 2)) ⊠ (.c 5))) ⊠ (.c 4))) ⊟ ((((.k 416 3) ⊠ (.s 3)) ⊠ (.s 2)) ⊠ (.c 5))⟩,
    ⟨4, 1, (((((((.neg (.k 2075 5)) ⊠ (.s 2)) ⊠ (.s 5)) ⊞ (((((.neg (.k 416 3)) ⊠ (.c 3)) ⊟ (.k 296 3)) ⊠ (.s 2)) ⊠ (.c 5))) ⊟ ((.k 3 2) ⊠ (.s 2))) ⊠ (.s 4)) ⊞ (((((((.k 2075 5) ⊠ (.c 3)) ⊠ (.c 2)) ⊠ (.s 5)) ⊞ (((((.k 296 3) ⊠ (.c 3)) ⊞ (.k 416 3)) ⊠ (.c 2)) ⊠ (.c 5))) ⊞ (((.k 3 2) ⊠ (.c 3)) ⊠ (.c 2))) ⊠ (.c 4))) ⊞ ((((.k 416 3) ⊠ (.s 3)) ⊠ (.s 2)) ⊠ (.s 5))⟩,
    ⟨4, 2, ((((((((.neg (.k 296 3)) ⊠ (.c 3)) ⊟ (.k 416 3)) ⊠ (.c 2)) ⊟ ((((.k 3 2) ⊠ (.c 3)) ⊠ (.c 2)) ⊠ (.c 5))) ⊠ (.s 4)) ⊞ ((((((.neg (.k 416 3)) ⊠ (.c 3)) ⊟ (.k 296 3)) ⊠ (.s 2)) ⊟ (((.k 3 2) ⊠ (.s 2)) ⊠ (.c 5))) ⊠ (.c 4))) ⊞ ((((.k 3 2) ⊠ (.s 3)) ⊠ (.c 2)) ⊠ (.s 5))) ⊞ (((.k 2075 5) ⊠ (.s 3)) ⊠ (.c 2))⟩,
    ⟨4, 3, (((((.c 3) ⊠ (.c 2)) ⊠ (.s 5)) ⊠ (.s 4)) ⊞ (((.s 2) ⊠ (.s 5)) ⊠ (.c 4))) ⊞ (((.s 3) ⊠ (.c 2)) ⊠ (.c 5))⟩,
    ⟨4, 4, (((((.c 3) ⊠ (.c 2)) ⊠ (.c 5)) ⊠ (.s 4)) ⊞ (((.s 2) ⊠ (.c 5)) ⊠ (.c 4))) ⊟ (((.s 3) ⊠ (.c 2)) ⊠ (.s 5))⟩,
    ⟨4, 5, (((.c 3) ⊠ (.c 2)) ⊠ (.c 4)) ⊟ ((.s 2) ⊠ (.s 4))⟩,
    ⟨5, 0, ((((((((.k 416 3) ⊠ (.c 3)) ⊞ (.k 296 3)) ⊠ (.c 2)) ⊠ (.s 5)) ⊟ (((.k 2075 5) ⊠ (.c 2)) ⊠ (.c 5))) ⊠ (.s 4)) ⊞ (((((((.k 296 3) ⊠ (.c 3)) ⊞ (.k 416 3)) ⊠ (.s 2)) ⊠ (.s 5)) ⊟ ((((.k 2075 5) ⊠ (.c 3)) ⊠ (.s 2)) ⊠ (.c 5))) ⊠ (.c 4))) ⊞ ((((.k 416 3) ⊠ (.s 3)) ⊠ (.c 2)) ⊠ (.c 5))⟩,
    ⟨5, 1, (((((((.k 2075 5) ⊠ (.c 2)) ⊠ (.s 5)) ⊞ (((((.k 416 3) ⊠ (.c 3)) ⊞ (.k 296 3)) ⊠ (.c 2)) ⊠ (.c 5))) ⊞ ((.k 3 2) ⊠ (.c 2))) ⊠ (.s 4)) ⊞ (((((((.k 2075 5) ⊠ (.c 3)) ⊠ (.s 2)) ⊠ (.s 5)) ⊞ (((((.k 296 3) ⊠ (.c 3)) ⊞ (.k 416 3)) ⊠ (.s 2)) ⊠ (.c 5))) ⊞ (((.k 3 2) ⊠ (.c 3)) ⊠ (.s 2))) ⊠ (.c 4))) ⊟ ((((.k 416 3) ⊠ (.s 3)) ⊠ (.c 2)) ⊠ (.s 5))⟩,
    ⟨5, 2, ((((((((.neg (.k 296 3)) ⊠ (.c 3)) ⊟ (.k 416 3)) ⊠ (.s 2)) ⊟ ((((.k 3 2) ⊠ (.c 3)) ⊠ (.s 2)) ⊠ (.c 5))) ⊠ (.s 4)) ⊞ (((((.k 3 2) ⊠ (.c 2)) ⊠ (.c 5)) ⊞ ((((.k 416 3) ⊠ (.c 3)) ⊞ (.k 296 3)) ⊠ (.c 2))) ⊠ (.c 4))) ⊞ ((((.k 3 2) ⊠ (.s 3)) ⊠ (.s 2)) ⊠ (.s 5))) ⊞ (((.k 2075 5) ⊠ (.s 3)) ⊠ (.s 2))⟩,
    ⟨5, 3, (((((.c 3) ⊠ (.s 2)) ⊠ (.s 5)) ⊠ (.s 4)) ⊟ (((.c 2) ⊠ (.s 5)) ⊠ (.c 4))) ⊞ (((.s 3) ⊠ (.s 2)) ⊠ (.c 5))⟩,
    ⟨5, 4, (((((.c 3) ⊠ (.s 2)) ⊠ (.c 5)) ⊠ (.s 4)) ⊟ (((.c 2) ⊠ (.c 5)) ⊠ (.c 4))) ⊟ (((.s 3) ⊠ (.s 2)) ⊠ (.s 5))⟩,
    ⟨5, 5, ((.c 2) ⊠ (.s 4)) ⊞ (((.c 3) ⊠ (.s 2)) ⊠ (.c 4))⟩]

/-- `ForceTransforms::Type_fr_Shoulder_FE_X_fr_ee` (transforms.impl.h:4402-4413, 4415-4462). -/
def force_fr_Shoulder_FE_X_fr_ee : Gen where
  rows := 6
  cols := 6
  ctor := [⟨3, 0, .k 0 0⟩,
    ⟨3, 1, .k 0 0⟩,
    ⟨3, 2, .k 0 0⟩,
    ⟨4, 0, .k 0 0⟩,
    ⟨4, 1, .k 0 0⟩,
    ⟨4, 2, .k 0 0⟩,
    ⟨5, 0, .k 0 0⟩,
    ⟨5, 1, .k 0 0⟩,
    ⟨5, 2, .k 0 0⟩]
  upd := [⟨0, 0, ((.c 3) ⊠ (.c 5)) ⊟ (((.s 3) ⊠ (.s 5)) ⊠ (.s 4))⟩,
    ⟨0, 1, (((.neg (.s 3)) ⊠ (.c 5)) ⊠ (.s 4)) ⊟ ((.c 3) ⊠ (.s 5))⟩,
    ⟨0, 2, (.neg (.s 3)) ⊠ (.c 4)⟩,
    ⟨0, 3, ((((.k 2075 5) ⊠ (.s 3)) ⊠ (.c 5)) ⊟ (((.k 296 3) ⊠ (.s 3)) ⊠ (.s 5))) ⊠ (.c 4)⟩,
    ⟨0, 4, (((((.neg (.k 2075 5)) ⊠ (.s 3)) ⊠ (.s 5)) ⊟ (((.k 296 3) ⊠ (.s 3)) ⊠ (.c 5))) ⊟ ((.k 3 2) ⊠ (.s 3))) ⊠ (.c 4)⟩,
    ⟨0, 5, ((((((.k 3 2) ⊠ (.s 3)) ⊠ (.c 5)) ⊞ ((.k 296 3) ⊠ (.s 3))) ⊠ (.s 4)) ⊞ (((.k 3 2) ⊠ (.c 3)) ⊠ (.s 5))) ⊞ ((.k 2075 5) ⊠ (.c 3))⟩,
    ⟨1, 0, (((((.c 3) ⊠ (.c 2)) ⊠ (.s 5)) ⊠ (.s 4)) ⊞ (((.s 2) ⊠ (.s 5)) ⊠ (.c 4))) ⊞ (((.s 3) ⊠ (.c 2)) ⊠ (.c 5))⟩,
    ⟨1, 1, (((((.c 3) ⊠ (.c 2)) ⊠ (.c 5)) ⊠ (.s 4)) ⊞ (((.s 2) ⊠ (.c 5)) ⊠ (.c 4))) ⊟ (((.s 3) ⊠ (.c 2)) ⊠ (.s 5))⟩,
    ⟨1, 2, (((.c 3) ⊠ (.c 2)) ⊠ (.c 4)) ⊟ ((.s 2) ⊠ (.s 4))⟩,
    ⟨1, 3, ((((((((.neg (.k 416 3)) ⊠ (.c 3)) ⊟ (.k 296 3)) ⊠ (.s 2)) ⊠ (.s 5)) ⊞ (((.k 2075 5) ⊠ (.s 2)) ⊠ (.c 5))) ⊠ (.s 4)) ⊞ (((((((.k 296 3) ⊠ (.c 3)) ⊞ (.k 416 3)) ⊠ (.c 2)) ⊠ (.s 5)) ⊟ ((((.k 2075 5) ⊠ (.c 3)) ⊠ (.c 2)) ⊠ (.c 5))) ⊠ (.c 4))) ⊟ ((((.k 416 3) ⊠ (.s 3)) ⊠ (.s 2)) ⊠ (.c 5))⟩,
    ⟨1, 4, (((((((.neg (.k 2075 5)) ⊠ (.s 2)) ⊠ (.s 5)) ⊞ (((((.neg (.k 416 3)) ⊠ (.c 3)) ⊟ (.k 296 3)) ⊠ (.s 2)) ⊠ (.c 5))) ⊟ ((.k 3 2) ⊠ (.s 2))) ⊠ (.s 4)) ⊞ (((((((.k 2075 5) ⊠ (.c 3)) ⊠ (.c 2)) ⊠ (.s 5)) ⊞ (((((.k 296 3) ⊠ (.c 3)) ⊞ (.k 416 3)) ⊠ (.c 2)) ⊠ (.c 5))) ⊞ (((.k 3 2) ⊠ (.c 3)) ⊠ (.c 2))) ⊠ (.c 4))) ⊞ ((((.k 416 3) ⊠ (.s 3)) ⊠ (.s 2)) ⊠ (.s 5))⟩,
    ⟨1, 5, ((((((((.neg (.k 296 3)) ⊠ (.c 3)) ⊟ (.k 416 3)) ⊠ (.c 2)) ⊟ ((((.k 3 2) ⊠ (.c 3)) ⊠ (.c 2)) ⊠ (.c 5))) ⊠ (.s 4)) ⊞ ((((((.neg (.k 416 3)) ⊠ (.c 3)) ⊟ (.k 296 3)) ⊠ (.s 2)) ⊟ (((.k 3 2) ⊠ (.s 2)) ⊠ (.c 5))) ⊠ (.c 4))) ⊞ ((((.k 3 2) ⊠ (.s 3)) ⊠ (.c 2)) ⊠ (.s 5))) ⊞ (((.k 2075 5) ⊠ (.s 3)) ⊠ (.c 2))⟩,
    ⟨2, 0, (((((.c 3) ⊠ (.s 2)) ⊠ (.s 5)) ⊠ (.s 4)) ⊟ (((.c 2) ⊠ (.s 5)) ⊠ (.c 4))) ⊞ (((.s 3) ⊠ (.s 2)) ⊠ (.c 5))⟩,
    ⟨2, 1, (((((.c 3) ⊠ (.s 2)) ⊠ (.c 5)) ⊠ (.s 4)) ⊟ (((.c 2) ⊠ (.c 5)) ⊠ (.c 4))) ⊟ (((.s 3) ⊠ (.s 2)) ⊠ (.s 5))⟩,
    ⟨2, 2, ((.c 2) ⊠ (.s 4)) ⊞ (((.c 3) ⊠ (.s 2)) ⊠ (.c 4))⟩,
    ⟨2, 3, ((((((((.k 416 3) ⊠ (.c 3)) ⊞ (.k 296 3)) ⊠ (.c 2)) ⊠ (.s 5)) ⊟ (((.k 2075 5) ⊠ (.c 2)) ⊠ (.c 5))) ⊠ (.s 4)) ⊞ (((((((.k 296 3) ⊠ (.c 3)) ⊞ (.k 416 3)) ⊠ (.s 2)) ⊠ (.s 5)) ⊟ ((((.k 2075 5) ⊠ (.c 3)) ⊠ (.s 2)) ⊠ (.c 5))) ⊠ (.c 4))) ⊞ ((((.k 416 3) ⊠ (.s 3)) ⊠ (.c 2)) ⊠ (.c 5))⟩,
    ⟨2, 4, (((((((.k 2075 5) ⊠ (.c 2)) ⊠ (.s 5)) ⊞ (((((.k 416 3) ⊠ (.c 3)) ⊞ (.k 296 3)) ⊠ (.c 2)) ⊠ (.c 5))) ⊞ ((.k 3 2) ⊠ (.c 2))) ⊠ (.s 4)) ⊞ (((((((.k 2075 5) ⊠ (.c 3)) ⊠ (.s 2)) ⊠ (.s 5)) ⊞ (((((.k 296 3) ⊠ (.c 3)) ⊞ (.k 416 3)) ⊠ (.s 2)) ⊠ (.c 5))) ⊞ (((.k 3 2) ⊠ (.c 3)) ⊠ (.s 2))) ⊠ (.c 4))) ⊟ ((((.k 416 3) ⊠ (.s 3)) ⊠ (.c 2)) ⊠ (.s 5))⟩,
    ⟨2, 5, ((((((((.neg (.k 296 3)) ⊠ (.c 3)) ⊟ (.k 416 3)) ⊠ (.s 2)) ⊟ ((((.k 3 2) ⊠ (.c 3)) ⊠ (.s 2)) ⊠ (.c 5))) ⊠ (.s 4)) ⊞ (((((.k 3 2) ⊠ (.c 2)) ⊠ (.c 5)) ⊞ ((((.k 416 3) ⊠ (.c 3)) ⊞ (.k 296 3)) ⊠ (.c 2))) ⊠ (.c 4))) ⊞ ((((.k 3 2) ⊠ (.s 3)) ⊠ (.s 2)) ⊠ (.s 5))) ⊞ (((.k 2075 5) ⊠ (.s 3)) ⊠ (.s 2))⟩,
    ⟨3, 3, ((.c 3) ⊠ (.c 5)) ⊟ (((.s 3) ⊠ (.s 5)) ⊠ (.s 4))⟩,
    ⟨3, 4, (((.neg (.s 3)) ⊠ (.c 5)) ⊠ (.s 4)) ⊟ ((.c 3) ⊠ (.s 5))⟩,
    ⟨3, 5, (.neg (.s 3)) ⊠ (.c 4)⟩,
    ⟨4, 3, (((((.c 3) ⊠ (.c 2)) ⊠ (.s 5)) ⊠ (.s 4)) ⊞ (((.s 2) ⊠ (.s 5)) ⊠ (.c 4))) ⊞ (((.s 3) ⊠ (.c 2)) ⊠ (.c 5))⟩,
    ⟨4, 4, (((((.c 3) ⊠ (.c 2)) ⊠ (.c 5)) ⊠ (.s 4)) ⊞ (((.s 2) ⊠ (.c 5)) ⊠ (.c 4))) ⊟ (((.s 3) ⊠ (.c 2)) ⊠ (.s 5))⟩,
    ⟨4, 5, (((.c 3) ⊠ (.c 2)) ⊠ (.c 4)) ⊟ ((.s 2) ⊠ (.s 4))⟩,
    ⟨5, 3, (((((.c 3) ⊠ (.s 2)) ⊠ (.s 5)) ⊠ (.s 4)) ⊟ (((.c 2) ⊠ (.s 5)) ⊠ (.c 4))) ⊞ (((.s 3) ⊠ (.s 2)) ⊠ (.c 5))⟩,
    ⟨5, 4, (((((.c 3) ⊠ (.s 2)) ⊠ (.c 5)) ⊠ (.s 4)) ⊟ (((.c 2) ⊠ (.c 5)) ⊠ (.c 4))) ⊟ (((.s 3) ⊠ (.s 2)) ⊠ (.s 5))⟩,
    ⟨5, 5, ((.c 2) ⊠ (.s 4)) ⊞ (((.c 3) ⊠ (.s 2)) ⊠ (.c 4))⟩]

/-- The transforms `fr_Shoulder_FE_X_fr_ee`. -/
def fr_Shoulder_FE_X_fr_ee : Trans := ⟨fr_Shoulder_FE, fr_ee, hom_fr_Shoulder_FE_X_fr_ee, motion_fr_Shoulder_FE_X_fr_ee, force_fr_Shoulder_FE_X_fr_ee⟩

/-- `HomogeneousTransforms::Type_fr_Humerus_R_X_fr_ee` (transforms.impl.h:6833-6839, 6841-6869). -/
def hom_fr_Humerus_R_X_fr_ee : Gen where
  rows := 4
  cols := 4
  ctor := [⟨3, 0, .k 0 0⟩,
    ⟨3, 1, .k 0 0⟩,
    ⟨3, 2, .k 0 0⟩,
    ⟨3, 3, .k 1 0⟩]
  upd := [⟨0, 0, (.s 5) ⊠ (.c 4)⟩,
    ⟨0, 1, (.c 5) ⊠ (.c 4)⟩,
    ⟨0, 2, .neg (.s 4)⟩,
    ⟨0, 3, (((.k 3 2) ⊠ (.s 5)) ⊞ (.k 2075 5)) ⊠ (.c 4)⟩,
    ⟨1, 0, (((.c 3) ⊠ (.s 5)) ⊠ (.s 4)) ⊞ ((.s 3) ⊠ (.c 5))⟩,
    ⟨1, 1, (((.c 3) ⊠ (.c 5)) ⊠ (.s 4)) ⊟ ((.s 3) ⊠ (.s 5))⟩,
    ⟨1, 2, (.c 3) ⊠ (.c 4)⟩,
    ⟨1, 3, ((((((.k 3 2) ⊠ (.c 3)) ⊠ (.s 5)) ⊞ ((.k 2075 5) ⊠ (.c 3))) ⊠ (.s 4)) ⊞ (((.k 3 2) ⊠ (.s 3)) ⊠ (.c 5))) ⊞ ((.k 296 3) ⊠ (.s 3))⟩,
    ⟨2, 0, ((.c 3) ⊠ (.c 5)) ⊟ (((.s 3) ⊠ (.s 5)) ⊠ (.s 4))⟩,
    ⟨2, 1, (((.neg (.s 3)) ⊠ (.c 5)) ⊠ (.s 4)) ⊟ ((.c 3) ⊠ (.s 5))⟩,
    ⟨2, 2, (.neg (.s 3)) ⊠ (.c 4)⟩,
    ⟨2, 3, (((((((.neg (.k 3 2)) ⊠ (.s 3)) ⊠ (.s 5)) ⊟ ((.k 2075 5) ⊠ (.s 3))) ⊠ (.s 4)) ⊞ (((.k 3 2) ⊠ (.c 3)) ⊠ (.c 5))) ⊞ ((.k 296 3) ⊠ (.c 3))) ⊞ (.k 304 3)⟩]

/-- `MotionTransforms::Type_fr_Humerus_R_X_fr_ee` (transforms.impl.h:1615-1626, 1628-1671). -/
def motion_fr_Humerus_R_X_fr_ee : Gen where
  rows := 6
  cols := 6
  ctor := [⟨0, 3, .k 0 0⟩,
    ⟨0, 4, .k 0 0⟩,
    ⟨0, 5, .k 0 0⟩,
    ⟨1, 3, .k 0 0⟩,
    ⟨1, 4, .k 0 0⟩,
    ⟨1, 5, .k 0 0⟩,
    ⟨2, 3, .k 0 0⟩,
    ⟨2, 4, .k 0 0⟩,
    ⟨2, 5, .k 0 0⟩]
  upd := [⟨0, 0, (.s 5) ⊠ (.c 4)⟩,
    ⟨0, 1, (.c 5) ⊠ (.c 4)⟩,
    ⟨0, 2, .neg (.s 4)⟩,
    ⟨1, 0, (((.c 3) ⊠ (.s 5)) ⊠ (.s 4)) ⊞ ((.s 3) ⊠ (.c 5))⟩,
    ⟨1, 1, (((.c 3) ⊠ (.c 5)) ⊠ (.s 4)) ⊟ ((.s 3) ⊠ (.s 5))⟩,
    ⟨1, 2, (.c 3) ⊠ (.c 4)⟩,
    ⟨2, 0, ((.c 3) ⊠ (.c 5)) ⊟ (((.s 3) ⊠ (.s 5)) ⊠ (.s 4))⟩,
    ⟨2, 1, (((.neg (.s 3)) ⊠ (.c 5)) ⊠ (.s 4)) ⊟ ((.c 3) ⊠ (.s 5))⟩,
    ⟨2, 2, (.neg (.s 3)) ⊠ (.c 4)⟩,
    ⟨3, 0, ((((((.neg (.k 304 3)) ⊠ (.c 3)) ⊟ (.k 296 3)) ⊠ (.s 5)) ⊞ ((.k 2075 5) ⊠ (.c 5))) ⊠ (.s 4)) ⊟ (((.k 304 3) ⊠ (.s 3)) ⊠ (.c 5))⟩,
    ⟨3, 1, (((((.neg (.k 2075 5)) ⊠ (.s 5)) ⊞ ((((.neg (.k 304 3)) ⊠ (.c 3)) ⊟ (.k 296 3)) ⊠ (.c 5))) ⊟ (.k 3 2)) ⊠ (.s 4)) ⊞ (((.k 304 3) ⊠ (.s 3)) ⊠ (.s 5))⟩,
    ⟨3, 2, ((((.neg (.k 3 2)) ⊠ (.c 5)) ⊟ ((.k 304 3) ⊠ (.c 3))) ⊟ (.k 296 3)) ⊠ (.c 4)⟩,
    ⟨3, 3, (.s 5) ⊠ (.c 4)⟩,
    ⟨3, 4, (.c 5) ⊠ (.c 4)⟩,
    ⟨3, 5, .neg (.s 4)⟩,
    ⟨4, 0, (((((.k 296 3) ⊠ (.c 3)) ⊞ (.k 304 3)) ⊠ (.s 5)) ⊟ (((.k 2075 5) ⊠ (.c 3)) ⊠ (.c 5))) ⊠ (.c 4)⟩,
    ⟨4, 1, (((((.k 2075 5) ⊠ (.c 3)) ⊠ (.s 5)) ⊞ ((((.k 296 3) ⊠ (.c 3)) ⊞ (.k 304 3)) ⊠ (.c 5))) ⊞ ((.k 3 2) ⊠ (.c 3))) ⊠ (.c 4)⟩,
    ⟨4, 2, (((((((.neg (.k 3 2)) ⊠ (.c 3)) ⊠ (.c 5)) ⊟ ((.k 296 3) ⊠ (.c 3))) ⊟ (.k 304 3)) ⊠ (.s 4)) ⊞ (((.k 3 2) ⊠ (.s 3)) ⊠ (.s 5))) ⊞ ((.k 2075 5) ⊠ (.s 3))⟩,
    ⟨4, 3, (((.c 3) ⊠ (.s 5)) ⊠ (.s 4)) ⊞ ((.s 3) ⊠ (.c 5))⟩,
    ⟨4, 4, (((.c 3) ⊠ (.c 5)) ⊠ (.s 4)) ⊟ ((.s 3) ⊠ (.s 5))⟩,
    ⟨4, 5, (.c 3) ⊠ (.c 4)⟩,
    ⟨5, 0, ((((.k 2075 5) ⊠ (.s 3)) ⊠ (.c 5)) ⊟ (((.k 296 3) ⊠ (.s 3)) ⊠ (.s 5))) ⊠ (.c 4)⟩,
    ⟨5, 1, (((((.neg (.k 2075 5)) ⊠ (.s 3)) ⊠ (.s 5)) ⊟ (((.k 296 3) ⊠ (.s 3)) ⊠ (.c 5))) ⊟ ((.k 3 2) ⊠ (.s 3))) ⊠ (.c 4)⟩,
    ⟨5, 2, ((((((.k 3 2) ⊠ (.s 3)) ⊠ (.c 5)) ⊞ ((.k 296 3) ⊠ (.s 3))) ⊠ (.s 4)) ⊞ (((.k 3 2) ⊠ (.c 3)) ⊠ (.s 5))) ⊞ ((.k 2075 5) ⊠ (.c 3))⟩,
    ⟨5, 3, ((.c 3) ⊠ (.c 5)) ⊟ (((.s 3) ⊠ (.s 5)) ⊠ (.s 4))⟩,
    ⟨5, 4, (((.neg (.s 3)) ⊠ (.c 5)) ⊠ (.s 4)) ⊟ ((.c 3) ⊠ (.s 5))⟩,
    ⟨5, 5, (.neg (.s 3)) ⊠ (.c 4)⟩]

/-- `ForceTransforms::Type_fr_Humerus_R_X_fr_ee` (transforms.impl.h:4464-4475, 4477-4520). -/
def force_fr_Humerus_R_X_fr_ee : Gen where
  rows := 6
  cols := 6
  ctor := [⟨3, 0, .k 0 0⟩,
    ⟨3, 1, .k 0 0⟩,
    ⟨3, 2, .k 0 0⟩,
    ⟨4, 0, .k 0 0⟩,
    ⟨4, 1, .k 0 0⟩,
    ⟨4, 2, .k 0 0⟩,
    ⟨5, 0, .k 0 0⟩,
    ⟨5, 1, .k 0 0⟩,
    ⟨5, 2, .k 0 0⟩]
  upd := [⟨0, 0, (.s 5) ⊠ (.c 4)⟩,
    ⟨0, 1, (.c 5) ⊠ (.c 4)⟩,
    ⟨0, 2, .neg (.s 4)⟩,
    ⟨0, 3, ((((((.neg (.k 304 3)) ⊠ (.c 3)) ⊟ (.k 296 3)) ⊠ (.s 5)) ⊞ ((.k 2075 5) ⊠ (.c 5))) ⊠ (.s 4)) ⊟ (((.k 304 3) ⊠ (.s 3)) ⊠ (.c 5))⟩,
    ⟨0, 4, (((((.neg (.k 2075 5)) ⊠ (.s 5)) ⊞ ((((.neg (.k 304 3)) ⊠ (.c 3)) ⊟ (.k 296 3)) ⊠ (.c 5))) ⊟ (.k 3 2)) ⊠ (.s 4)) ⊞ (((.k 304 3) ⊠ (.s 3)) ⊠ (.s 5))⟩,
    ⟨0, 5, ((((.neg (.k 3 2)) ⊠ (.c 5)) ⊟ ((.k 304 3) ⊠ (.c 3))) ⊟ (.k 296 3)) ⊠ (.c 4)⟩,
    ⟨1, 0, (((.c 3) ⊠ (.s 5)) ⊠ (.s 4)) ⊞ ((.s 3) ⊠ (.c 5))⟩,
    ⟨1, 1, (((.c 3) ⊠ (.c 5)) ⊠ (.s 4)) ⊟ ((.s 3) ⊠ (.s 5))⟩,
    ⟨1, 2, (.c 3) ⊠ (.c 4)⟩,
    ⟨1, 3, (((((.k 296 3) ⊠ (.c 3)) ⊞ (.k 304 3)) ⊠ (.s 5)) ⊟ (((.k 2075 5) ⊠ (.c 3)) ⊠ (.c 5))) ⊠ (.c 4)⟩,
    ⟨1, 4, (((((.k 2075 5) ⊠ (.c 3)) ⊠ (.s 5)) ⊞ ((((.k 296 3) ⊠ (.c 3)) ⊞ (.k 304 3)) ⊠ (.c 5))) ⊞ ((.k 3 2) ⊠ (.c 3))) ⊠ (.c 4)⟩,
    ⟨1, 5, (((((((.neg (.k 3 2)) ⊠ (.c 3)) ⊠ (.c 5)) ⊟ ((.k 296 3) ⊠ (.c 3))) ⊟ (.k 304 3)) ⊠ (.s 4)) ⊞ (((.k 3 2) ⊠ (.s 3)) ⊠ (.s 5))) ⊞ ((.k 2075 5) ⊠ (.s 3))⟩,
    ⟨2, 0, ((.c 3) ⊠ (.c 5)) ⊟ (((.s 3) ⊠ (.s 5)) ⊠ (.s 4))⟩,
    ⟨2, 1, (((.neg (.s 3)) ⊠ (.c 5)) ⊠ (.s 4)) ⊟ ((.c 3) ⊠ (.s 5))⟩,
    ⟨2, 2, (.neg (.s 3)) ⊠ (.c 4)⟩,
    ⟨2, 3, ((((.k 2075 5) ⊠ (.s 3)) ⊠ (.c 5)) ⊟ (((.k 296 3) ⊠ (.s 3)) ⊠ (.s 5))) ⊠ (.c 4)⟩,
    ⟨2, 4, (((((.neg (.k 2075 5)) ⊠ (.s 3)) ⊠ (.s 5)) ⊟ (((.k 296 3) ⊠ (.s 3)) ⊠ (.c 5))) ⊟ ((.k 3 2) ⊠ (.s 3))) ⊠ (.c 4)⟩,
    ⟨2, 5, ((((((.k 3 2) ⊠ (.s 3)) ⊠ (.c 5)) ⊞ ((.k 296 3) ⊠ (.s 3))) ⊠ (.s 4)) ⊞ (((.k 3 2) ⊠ (.c 3)) ⊠ (.s 5))) ⊞ ((.k 2075 5) ⊠ (.c 3))⟩,
    ⟨3, 3, (.s 5) ⊠ (.c 4)⟩,
    ⟨3, 4, (.c 5) ⊠ (.c 4)⟩,
    ⟨3, 5, .neg (.s 4)⟩,
    ⟨4, 3, (((.c 3) ⊠ (.s 5)) ⊠ (.s 4)) ⊞ ((.s 3) ⊠ (.c 5))⟩,
    ⟨4, 4, (((.c 3) ⊠ (.c 5)) ⊠ (.s 4)) ⊟ ((.s 3) ⊠ (.s 5))⟩,
    ⟨4, 5, (.c 3) ⊠ (.c 4)⟩,
    ⟨5, 3, ((.c 3) ⊠ (.c 5)) ⊟ (((.s 3) ⊠ (.s 5)) ⊠ (.s 4))⟩,
    ⟨5, 4, (((.neg (.s 3)) ⊠ (.c 5)) ⊠ (.s 4)) ⊟ ((.c 3) ⊠ (.s 5))⟩,
    ⟨5, 5, (.neg (.s 3)) ⊠ (.c 4)⟩]

/-- The transforms `fr_Humerus_R_X_fr_ee`. -/
def fr_Humerus_R_X_fr_ee : Trans := ⟨fr_Humerus_R, fr_ee, hom_fr_Humerus_R_X_fr_ee, motion_fr_Humerus_R_X_fr_ee, force_fr_Humerus_R_X_fr_ee⟩

/-- `HomogeneousTransforms::Type_fr_Elbow_FE_X_fr_ee` (transforms.impl.h:6871-6878, 6880-6903). -/
def hom_fr_Elbow_FE_X_fr_ee : Gen where
  rows := 4
  cols := 4
  ctor := [⟨0, 2, .k 0 0⟩,
    ⟨3, 0, .k 0 0⟩,
    ⟨3, 1, .k 0 0⟩,
    ⟨3, 2, .k 0 0⟩,
    ⟨3, 3, .k 1 0⟩]
  upd := [⟨0, 0, .c 5⟩,
    ⟨0, 1, .neg (.s 5)⟩,
    ⟨0, 3, ((.k 3 2) ⊠ (.c 5)) ⊞ (.k 296 3)⟩,
    ⟨1, 0, (.s 5) ⊠ (.s 4)⟩,
    ⟨1, 1, (.c 5) ⊠ (.s 4)⟩,
    ⟨1, 2, .c 4⟩,
    ⟨1, 3, (((.k 3 2) ⊠ (.s 5)) ⊞ (.k 2075 5)) ⊠ (.s 4)⟩,
    ⟨2, 0, (.neg (.s 5)) ⊠ (.c 4)⟩,
    ⟨2, 1, (.neg (.c 5)) ⊠ (.c 4)⟩,
    ⟨2, 2, .s 4⟩,
    ⟨2, 3, (((.neg (.k 3 2)) ⊠ (.s 5)) ⊟ (.k 2075 5)) ⊠ (.c 4)⟩]

/-- `MotionTransforms::Type_fr_Elbow_FE_X_fr_ee` (transforms.impl.h:1673-1688, 1690-1725). -/
def motion_fr_Elbow_FE_X_fr_ee : Gen where
  rows := 6
  cols := 6
  ctor := [⟨0, 2, .k 0 0⟩,
    ⟨0, 3, .k 0 0⟩,
    ⟨0, 4, .k 0 0⟩,
    ⟨0, 5, .k 0 0⟩,
    ⟨1, 3, .k 0 0⟩,
    ⟨1, 4, .k 0 0⟩,
    ⟨1, 5, .k 0 0⟩,
    ⟨2, 3, .k 0 0⟩,
    ⟨2, 4, .k 0 0⟩,
    ⟨2, 5, .k 0 0⟩,
    ⟨3, 0, .k 0 0⟩,
    ⟨3, 1, .k 0 0⟩,
    ⟨3, 5, .k 0 0⟩]
  upd := [⟨0, 0, .c 5⟩,
    ⟨0, 1, .neg (.s 5)⟩,
    ⟨1, 0, (.s 5) ⊠ (.s 4)⟩,
    ⟨1, 1, (.c 5) ⊠ (.s 4)⟩,
    ⟨1, 2, .c 4⟩,
    ⟨2, 0, (.neg (.s 5)) ⊠ (.c 4)⟩,
    ⟨2, 1, (.neg (.c 5)) ⊠ (.c 4)⟩,
    ⟨2, 2, .s 4⟩,
    ⟨3, 2, ((.k 3 2) ⊠ (.s 5)) ⊞ (.k 2075 5)⟩,
    ⟨3, 3, .c 5⟩,
    ⟨3, 4, .neg (.s 5)⟩,
    ⟨4, 0, (((.k 296 3) ⊠ (.s 5)) ⊟ ((.k 2075 5) ⊠ (.c 5))) ⊠ (.c 4)⟩,
    ⟨4, 1, ((((.k 2075 5) ⊠ (.s 5)) ⊞ ((.k 296 3) ⊠ (.c 5))) ⊞ (.k 3 2)) ⊠ (.c 4)⟩,
    ⟨4, 2, (((.neg (.k 3 2)) ⊠ (.c 5)) ⊟ (.k 296 3)) ⊠ (.s 4)⟩,
    ⟨4, 3, (.s 5) ⊠ (.s 4)⟩,
    ⟨4, 4, (.c 5) ⊠ (.s 4)⟩,
    ⟨4, 5, .c 4⟩,
    ⟨5, 0, (((.k 296 3) ⊠ (.s 5)) ⊟ ((.k 2075 5) ⊠ (.c 5))) ⊠ (.s 4)⟩,
    ⟨5, 1, ((((.k 2075 5) ⊠ (.s 5)) ⊞ ((.k 296 3) ⊠ (.c 5))) ⊞ (.k 3 2)) ⊠ (.s 4)⟩,
    ⟨5, 2, (((.k 3 2) ⊠ (.c 5)) ⊞ (.k 296 3)) ⊠ (.c 4)⟩,
    ⟨5, 3, (.neg (.s 5)) ⊠ (.c 4)⟩,
    ⟨5, 4, (.neg (.c 5)) ⊠ (.c 4)⟩,
    ⟨5, 5, .s 4⟩]

/-- `ForceTransforms::Type_fr_Elbow_FE_X_fr_ee` (transforms.impl.h:4522-4537, 4539-4574). -/
def force_fr_Elbow_FE_X_fr_ee : Gen where
  rows := 6
  cols := 6
  ctor := [⟨0, 2, .k 0 0⟩,
    ⟨0, 3, .k 0 0⟩,
    ⟨0, 4, .k 0 0⟩,
    ⟨3, 0, .k 0 0⟩,
    ⟨3, 1, .k 0 0⟩,
    ⟨3, 2, .k 0 0⟩,
    ⟨3, 5, .k 0 0⟩,
    ⟨4, 0, .k 0 0⟩,
    ⟨4, 1, .k 0 0⟩,
    ⟨4, 2, .k 0 0⟩,
    ⟨5, 0, .k 0 0⟩,
    ⟨5, 1, .k 0 0⟩,
    ⟨5, 2, .k 0 0⟩]
  upd := [⟨0, 0, .c 5⟩,
    ⟨0, 1, .neg (.s 5)⟩,
    ⟨0, 5, ((.k 3 2) ⊠ (.s 5)) ⊞ (.k 2075 5)⟩,
    ⟨1, 0, (.s 5) ⊠ (.s 4)⟩,
    ⟨1, 1, (.c 5) ⊠ (.s 4)⟩,
    ⟨1, 2, .c 4⟩,
    ⟨1, 3, (((.k 296 3) ⊠ (.s 5)) ⊟ ((.k 2075 5) ⊠ (.c 5))) ⊠ (.c 4)⟩,
    ⟨1, 4, ((((.k 2075 5) ⊠ (.s 5)) ⊞ ((.k 296 3) ⊠ (.c 5))) ⊞ (.k 3 2)) ⊠ (.c 4)⟩,
    ⟨1, 5, (((.neg (.k 3 2)) ⊠ (.c 5)) ⊟ (.k 296 3)) ⊠ (.s 4)⟩,
    ⟨2, 0, (.neg (.s 5)) ⊠ (.c 4)⟩,
    ⟨2, 1, (.neg (.c 5)) ⊠ (.c 4)⟩,
    ⟨2, 2, .s 4⟩,
    ⟨2, 3, (((.k 296 3) ⊠ (.s 5)) ⊟ ((.k 2075 5) ⊠ (.c 5))) ⊠ (.s 4)⟩,
    ⟨2, 4, ((((.k 2075 5) ⊠ (.s 5)) ⊞ ((.k 296 3) ⊠ (.c 5))) ⊞ (.k 3 2)) ⊠ (.s 4)⟩,
    ⟨2, 5, (((.k 3 2) ⊠ (.c 5)) ⊞ (.k 296 3)) ⊠ (.c 4)⟩,
    ⟨3, 3, .c 5⟩,
    ⟨3, 4, .neg (.s 5)⟩,
    ⟨4, 3, (.s 5) ⊠ (.s 4)⟩,
    ⟨4, 4, (.c 5) ⊠ (.s 4)⟩,
    ⟨4, 5, .c 4⟩,
    ⟨5, 3, (.neg (.s 5)) ⊠ (.c 4)⟩,
    ⟨5, 4, (.neg (.c 5)) ⊠ (.c 4)⟩,
    ⟨5, 5, .s 4⟩]

/-- The transforms `fr_Elbow_FE_X_fr_ee`. -/
def fr_Elbow_FE_X_fr_ee : Trans := ⟨fr_Elbow_FE, fr_ee, hom_fr_Elbow_FE_X_fr_ee, motion_fr_Elbow_FE_X_fr_ee, force_fr_Elbow_FE_X_fr_ee⟩

/-- `HomogeneousTransforms::Type_fr_Wrist_R_X_fr_ee` (transforms.impl.h:6905-6917, 6919-6933). -/
def hom_fr_Wrist_R_X_fr_ee : Gen where
  rows := 4
  cols := 4
  ctor := [⟨0, 2, .k 0 0⟩,
    ⟨1, 0, .k 0 0⟩,
    ⟨1, 1, .k 0 0⟩,
    ⟨1, 2, .k 1 0⟩,
    ⟨1, 3, .k 0 0⟩,
    ⟨2, 2, .k 0 0⟩,
    ⟨3, 0, .k 0 0⟩,
    ⟨3, 1, .k 0 0⟩,
    ⟨3, 2, .k 0 0⟩,
    ⟨3, 3, .k 1 0⟩]
  upd := [⟨0, 0, .s 5⟩,
    ⟨0, 1, .c 5⟩,
    ⟨0, 3, ((.k 3 2) ⊠ (.s 5)) ⊞ (.k 2075 5)⟩,
    ⟨2, 0, .c 5⟩,
    ⟨2, 1, .neg (.s 5)⟩,
    ⟨2, 3, ((.k 3 2) ⊠ (.c 5)) ⊞ (.k 184 3)⟩]

/-- `MotionTransforms::Type_fr_Wrist_R_X_fr_ee` (transforms.impl.h:1727-1753, 1755-1775). -/
def motion_fr_Wrist_R_X_fr_ee : Gen where
  rows := 6
  cols := 6
  ctor := [⟨0, 2, .k 0 0⟩,
    ⟨0, 3, .k 0 0⟩,
    ⟨0, 4, .k 0 0⟩,
    ⟨0, 5, .k 0 0⟩,
    ⟨1, 0, .k 0 0⟩,
    ⟨1, 1, .k 0 0⟩,
    ⟨1, 2, .k 1 0⟩,
    ⟨1, 3, .k 0 0⟩,
    ⟨1, 4, .k 0 0⟩,
    ⟨1, 5, .k 0 0⟩,
    ⟨2, 2, .k 0 0⟩,
    ⟨2, 3, .k 0 0⟩,
    ⟨2, 4, .k 0 0⟩,
    ⟨2, 5, .k 0 0⟩,
    ⟨3, 0, .k 0 0⟩,
    ⟨3, 1, .k 0 0⟩,
    ⟨3, 5, .k 0 0⟩,
    ⟨4, 2, .k 0 0⟩,
    ⟨4, 3, .k 0 0⟩,
    ⟨4, 4, .k 0 0⟩,
    ⟨4, 5, .k 1 0⟩,
    ⟨5, 0, .k 0 0⟩,
    ⟨5, 1, .k 0 0⟩,
    ⟨5, 5, .k 0 0⟩]
  upd := [⟨0, 0, .s 5⟩,
    ⟨0, 1, .c 5⟩,
    ⟨2, 0, .c 5⟩,
    ⟨2, 1, .neg (.s 5)⟩,
    ⟨3, 2, ((.neg (.k 3 2)) ⊠ (.c 5)) ⊟ (.k 184 3)⟩,
    ⟨3, 3, .s 5⟩,
    ⟨3, 4, .c 5⟩,
    ⟨4, 0, ((.k 184 3) ⊠ (.s 5)) ⊟ ((.k 2075 5) ⊠ (.c 5))⟩,
    ⟨4, 1, (((.k 2075 5) ⊠ (.s 5)) ⊞ ((.k 184 3) ⊠ (.c 5))) ⊞ (.k 3 2)⟩,
    ⟨5, 2, ((.k 3 2) ⊠ (.s 5)) ⊞ (.k 2075 5)⟩,
    ⟨5, 3, .c 5⟩,
    ⟨5, 4, .neg (.s 5)⟩]

/-- `ForceTransforms::Type_fr_Wrist_R_X_fr_ee` (transforms.impl.h:4576-4602, 4604-4624). -/
def force_fr_Wrist_R_X_fr_ee : Gen where
  rows := 6
  cols := 6
  ctor := [⟨0, 2, .k 0 0⟩,
    ⟨0, 3, .k 0 0⟩,
    ⟨0, 4, .k 0 0⟩,
    ⟨1, 0, .k 0 0⟩,
    ⟨1, 1, .k 0 0⟩,
    ⟨1, 2, .k 1 0⟩,
    ⟨1, 5, .k 0 0⟩,
    ⟨2, 2, .k 0 0⟩,
    ⟨2, 3, .k 0 0⟩,
    ⟨2, 4, .k 0 0⟩,
    ⟨3, 0, .k 0 0⟩,
    ⟨3, 1, .k 0 0⟩,
    ⟨3, 2, .k 0 0⟩,
    ⟨3, 5, .k 0 0⟩,
    ⟨4, 0, .k 0 0⟩,
    ⟨4, 1, .k 0 0⟩,
    ⟨4, 2, .k 0 0⟩,
    ⟨4, 3, .k 0 0⟩,
    ⟨4, 4, .k 0 0⟩,
    ⟨4, 5, .k 1 0⟩,
    ⟨5, 0, .k 0 0⟩,
    ⟨5, 1, .k 0 0⟩,
    ⟨5, 2, .k 0 0⟩,
    ⟨5, 5, .k 0 0⟩]
  upd := [⟨0, 0, .s 5⟩,
    ⟨0, 1, .c 5⟩,
    ⟨0, 5, ((.neg (.k 3 2)) ⊠ (.c 5)) ⊟ (.k 184 3)⟩,
    ⟨1, 3, ((.k 184 3) ⊠ (.s 5)) ⊟ ((.k 2075 5) ⊠ (.c 5))⟩,
    ⟨1, 4, (((.k 2075 5) ⊠ (.s 5)) ⊞ ((.k 184 3) ⊠ (.c 5))) ⊞ (.k 3 2)⟩,
    ⟨2, 0, .c 5⟩,
    ⟨2, 1, .neg (.s 5)⟩,
    ⟨2, 5, ((.k 3 2) ⊠ (.s 5)) ⊞ (.k 2075 5)⟩,
    ⟨3, 3, .s 5⟩,
    ⟨3, 4, .c 5⟩,
    ⟨5, 3, .c 5⟩,
    ⟨5, 4, .neg (.s 5)⟩]

/-- The transforms `fr_Wrist_R_X_fr_ee`. -/
def fr_Wrist_R_X_fr_ee : Trans := ⟨fr_Wrist_R, fr_ee, hom_fr_Wrist_R_X_fr_ee, motion_fr_Wrist_R_X_fr_ee, force_fr_Wrist_R_X_fr_ee⟩

/-- `HomogeneousTransforms::Type_fr_Wrist_FE_X_fr_ee` (transforms.impl.h:6935-6953, 6955-6957). -/
def hom_fr_Wrist_FE_X_fr_ee : Gen where
  rows := 4
  cols := 4
  ctor := [⟨0, 0, .k 1 0⟩,
    ⟨0, 1, .k 0 0⟩,
    ⟨0, 2, .k 0 0⟩,
    ⟨0, 3, .k 3 2⟩,
    ⟨1, 0, .k 0 0⟩,
    ⟨1, 1, .k 1 0⟩,
    ⟨1, 2, .k 0 0⟩,
    ⟨1, 3, .k 0 0⟩,
    ⟨2, 0, .k 0 0⟩,
    ⟨2, 1, .k 0 0⟩,
    ⟨2, 2, .k 1 0⟩,
    ⟨2, 3, .k 0 0⟩,
    ⟨3, 0, .k 0 0⟩,
    ⟨3, 1, .k 0 0⟩,
    ⟨3, 2, .k 0 0⟩,
    ⟨3, 3, .k 1 0⟩]
  upd := []

/-- `MotionTransforms::Type_fr_Wrist_FE_X_fr_ee` (transforms.impl.h:1777-1815, 1817-1819). -/
def motion_fr_Wrist_FE_X_fr_ee : Gen where
  rows := 6
  cols := 6
  ctor := [⟨0, 0, .k 1 0⟩,
    ⟨0, 1, .k 0 0⟩,
    ⟨0, 2, .k 0 0⟩,
    ⟨0, 3, .k 0 0⟩,
    ⟨0, 4, .k 0 0⟩,
    ⟨0, 5, .k 0 0⟩,
    ⟨1, 0, .k 0 0⟩,
    ⟨1, 1, .k 1 0⟩,
    ⟨1, 2, .k 0 0⟩,
    ⟨1, 3, .k 0 0⟩,
    ⟨1, 4, .k 0 0⟩,
    ⟨1, 5, .k 0 0⟩,
    ⟨2, 0, .k 0 0⟩,
    ⟨2, 1, .k 0 0⟩,
    ⟨2, 2, .k 1 0⟩,
    ⟨2, 3, .k 0 0⟩,
    ⟨2, 4, .k 0 0⟩,
    ⟨2, 5, .k 0 0⟩,
    ⟨3, 0, .k 0 0⟩,
    ⟨3, 1, .k 0 0⟩,
    ⟨3, 2, .k 0 0⟩,
    ⟨3, 3, .k 1 0⟩,
    ⟨3, 4, .k 0 0⟩,
    ⟨3, 5, .k 0 0⟩,
    ⟨4, 0, .k 0 0⟩,
    ⟨4, 1, .k 0 0⟩,
    ⟨4, 2, .neg (.k 3 2)⟩,
    ⟨4, 3, .k 0 0⟩,
    ⟨4, 4, .k 1 0⟩,
    ⟨4, 5, .k 0 0⟩,
    ⟨5, 0, .k 0 0⟩,
    ⟨5, 1, .k 3 2⟩,
    ⟨5, 2, .k 0 0⟩,
    ⟨5, 3, .k 0 0⟩,
    ⟨5, 4, .k 0 0⟩,
    ⟨5, 5, .k 1 0⟩]
  upd := []

/-- `ForceTransforms::Type_fr_Wrist_FE_X_fr_ee` (transforms.impl.h:4626-4664, 4666-4668). -/
def force_fr_Wrist_FE_X_fr_ee : Gen where
  rows := 6
  cols := 6
  ctor := [⟨0, 0, .k 1 0⟩,
    ⟨0, 1, .k 0 0⟩,
    ⟨0, 2, .k 0 0⟩,
    ⟨0, 3, .k 0 0⟩,
    ⟨0, 4, .k 0 0⟩,
    ⟨0, 5, .k 0 0⟩,
    ⟨1, 0, .k 0 0⟩,
    ⟨1, 1, .k 1 0⟩,
    ⟨1, 2, .k 0 0⟩,
    ⟨1, 3, .k 0 0⟩,
    ⟨1, 4, .k 0 0⟩,
    ⟨1, 5, .neg (.k 3 2)⟩,
    ⟨2, 0, .k 0 0⟩,
    ⟨2, 1, .k 0 0⟩,
    ⟨2, 2, .k 1 0⟩,
    ⟨2, 3, .k 0 0⟩,
    ⟨2, 4, .k 3 2⟩,
    ⟨2, 5, .k 0 0⟩,
    ⟨3, 0, .k 0 0⟩,
    ⟨3, 1, .k 0 0⟩,
    ⟨3, 2, .k 0 0⟩,
    ⟨3, 3, .k 1 0⟩,
    ⟨3, 4, .k 0 0⟩,
    ⟨3, 5, .k 0 0⟩,
    ⟨4, 0, .k 0 0⟩,
    ⟨4, 1, .k 0 0⟩,
    ⟨4, 2, .k 0 0⟩,
    ⟨4, 3, .k 0 0⟩,
    ⟨4, 4, .k 1 0⟩,
    ⟨4, 5, .k 0 0⟩,
    ⟨5, 0, .k 0 0⟩,
    ⟨5, 1, .k 0 0⟩,
    ⟨5, 2, .k 0 0⟩,
    ⟨5, 3, .k 0 0⟩,
    ⟨5, 4, .k 0 0⟩,
    ⟨5, 5, .k 1 0⟩]
  upd := []

/-- The transforms `fr_Wrist_FE_X_fr_ee`. -/
def fr_Wrist_FE_X_fr_ee : Trans := ⟨fr_Wrist_FE, fr_ee, hom_fr_Wrist_FE_X_fr_ee, motion_fr_Wrist_FE_X_fr_ee, force_fr_Wrist_FE_X_fr_ee⟩

/-- `HomogeneousTransforms::Type_fr_Shoulder_AA_X_fr_HyABase` (transforms.impl.h:6959-6973, 6975-6987). -/
def hom_fr_Shoulder_AA_X_fr_HyABase : Gen where
  rows := 4
  cols := 4
  ctor := [⟨0, 2, .k 0 0⟩,
    ⟨0, 3, .k 0 0⟩,
    ⟨1, 2, .k 0 0⟩,
    ⟨1, 3, .k 0 0⟩,
    ⟨2, 0, .k 0 0⟩,
    ⟨2, 1, .k 0 0⟩,
    ⟨2, 2, .k 1 0⟩,
    ⟨2, 3, .k 0 0⟩,
    ⟨3, 0, .k 0 0⟩,
    ⟨3, 1, .k 0 0⟩,
    ⟨3, 2, .k 0 0⟩,
    ⟨3, 3, .k 1 0⟩]
  upd := [⟨0, 0, .c 0⟩,
    ⟨0, 1, .s 0⟩,
    ⟨1, 0, .neg (.s 0)⟩,
    ⟨1, 1, .c 0⟩]

/-- `MotionTransforms::Type_fr_Shoulder_AA_X_fr_HyABase` (transforms.impl.h:1821-1851, 1853-1869). -/
def motion_fr_Shoulder_AA_X_fr_HyABase : Gen where
  rows := 6
  cols := 6
  ctor := [⟨0, 2, .k 0 0⟩,
    ⟨0, 3, .k 0 0⟩,
    ⟨0, 4, .k 0 0⟩,
    ⟨0, 5, .k 0 0⟩,
    ⟨1, 2, .k 0 0⟩,
    ⟨1, 3, .k 0 0⟩,
    ⟨1, 4, .k 0 0⟩,
    ⟨1, 5, .k 0 0⟩,
    ⟨2, 0, .k 0 0⟩,
    ⟨2, 1, .k 0 0⟩,
    ⟨2, 2, .k 1 0⟩,
    ⟨2, 3, .k 0 0⟩,
    ⟨2, 4, .k 0 0⟩,
    ⟨2, 5, .k 0 0⟩,
    ⟨3, 0, .k 0 0⟩,
    ⟨3, 1, .k 0 0⟩,
    ⟨3, 2, .k 0 0⟩,
    ⟨3, 5, .k 0 0⟩,
    ⟨4, 0, .k 0 0⟩,
    ⟨4, 1, .k 0 0⟩,
    ⟨4, 2, .k 0 0⟩,
    ⟨4, 5, .k 0 0⟩,
    ⟨5, 0, .k 0 0⟩,
    ⟨5, 1, .k 0 0⟩,
    ⟨5, 2, .k 0 0⟩,
    ⟨5, 3, .k 0 0⟩,
    ⟨5, 4, .k 0 0⟩,
    ⟨5, 5, .k 1 0⟩]
  upd := [⟨0, 0, .c 0⟩,
    ⟨0, 1, .s 0⟩,
    ⟨1, 0, .neg (.s 0)⟩,
    ⟨1, 1, .c 0⟩,
    ⟨3, 3, .c 0⟩,
    ⟨3, 4, .s 0⟩,
    ⟨4, 3, .neg (.s 0)⟩,
    ⟨4, 4, .c 0⟩]

/-- `ForceTransforms::Type_fr_Shoulder_AA_X_fr_HyABase` (transforms.impl.h:4670-4700, 4702-4718). -/
def force_fr_Shoulder_AA_X_fr_HyABase : Gen where
  rows := 6
  cols := 6
  ctor := [⟨0, 2, .k 0 0⟩,
    ⟨0, 3, .k 0 0⟩,
    ⟨0, 4, .k 0 0⟩,
    ⟨0, 5, .k 0 0⟩,
    ⟨1, 2, .k 0 0⟩,
    ⟨1, 3, .k 0 0⟩,
    ⟨1, 4, .k 0 0⟩,
    ⟨1, 5, .k 0 0⟩,
    ⟨2, 0, .k 0 0⟩,
    ⟨2, 1, .k 0 0⟩,
    ⟨2, 2, .k 1 0⟩,
    ⟨2, 3, .k 0 0⟩,
    ⟨2, 4, .k 0 0⟩,
    ⟨2, 5, .k 0 0⟩,
    ⟨3, 0, .k 0 0⟩,
    ⟨3, 1, .k 0 0⟩,
    ⟨3, 2, .k 0 0⟩,
    ⟨3, 5, .k 0 0⟩,
    ⟨4, 0, .k 0 0⟩,
    ⟨4, 1, .k 0 0⟩,
    ⟨4, 2, .k 0 0⟩,
    ⟨4, 5, .k 0 0⟩,
    ⟨5, 0, .k 0 0⟩,
    ⟨5, 1, .k 0 0⟩,
    ⟨5, 2, .k 0 0⟩,
    ⟨5, 3, .k 0 0⟩,
    ⟨5, 4, .k 0 0⟩,
    ⟨5, 5, .k 1 0⟩]
  upd := [⟨0, 0, .c 0⟩,
    ⟨0, 1, .s 0⟩,
    ⟨1, 0, .neg (.s 0)⟩,
    ⟨1, 1, .c 0⟩,
    ⟨3, 3, .c 0⟩,
    ⟨3, 4, .s 0⟩,
    ⟨4, 3, .neg (.s 0)⟩,
    ⟨4, 4, .c 0⟩]

/-- The transforms `fr_Shoulder_AA_X_fr_HyABase`. -/
def fr_Shoulder_AA_X_fr_HyABase : Trans := ⟨fr_Shoulder_AA, fr_HyABase, hom_fr_Shoulder_AA_X_fr_HyABase, motion_fr_Shoulder_AA_X_fr_HyABase, force_fr_Shoulder_AA_X_fr_HyABase⟩

/-- `HomogeneousTransforms::Type_fr_Shoulder_FE_X_fr_HyABase` (transforms.impl.h:6989-6997, 6999-7021). -/
def hom_fr_Shoulder_FE_X_fr_HyABase : Gen where
  rows := 4
  cols := 4
  ctor := [⟨2, 2, .k 0 0⟩,
    ⟨2, 3, .k 0 0⟩,
    ⟨3, 0, .k 0 0⟩,
    ⟨3, 1, .k 0 0⟩,
    ⟨3, 2, .k 0 0⟩,
    ⟨3, 3, .k 1 0⟩]
  upd := [⟨0, 0, (.c 0) ⊠ (.c 1)⟩,
    ⟨0, 1, (.s 0) ⊠ (.c 1)⟩,
    ⟨0, 2, .s 1⟩,
    ⟨0, 3, (.neg (.k 178 3)) ⊠ (.s 1)⟩,
    ⟨1, 0, (.neg (.c 0)) ⊠ (.s 1)⟩,
    ⟨1, 1, (.neg (.s 0)) ⊠ (.s 1)⟩,
    ⟨1, 2, .c 1⟩,
    ⟨1, 3, (.neg (.k 178 3)) ⊠ (.c 1)⟩,
    ⟨2, 0, .s 0⟩,
    ⟨2, 1, .neg (.c 0)⟩]

/-- `MotionTransforms::Type_fr_Shoulder_FE_X_fr_HyABase` (transforms.impl.h:1871-1887, 1889-1923). -/
def motion_fr_Shoulder_FE_X_fr_HyABase : Gen where
  rows := 6
  cols := 6
  ctor := [⟨0, 3, .k 0 0⟩,
    ⟨0, 4, .k 0 0⟩,
    ⟨0, 5, .k 0 0⟩,
    ⟨1, 3, .k 0 0⟩,
    ⟨1, 4, .k 0 0⟩,
    ⟨1, 5, .k 0 0⟩,
    ⟨2, 2, .k 0 0⟩,
    ⟨2, 3, .k 0 0⟩,
    ⟨2, 4, .k 0 0⟩,
    ⟨2, 5, .k 0 0⟩,
    ⟨3, 2, .k 0 0⟩,
    ⟨4, 2, .k 0 0⟩,
    ⟨5, 2, .k 0 0⟩,
    ⟨5, 5, .k 0 0⟩]
  upd := [⟨0, 0, (.c 0) ⊠ (.c 1)⟩,
    ⟨0, 1, (.s 0) ⊠ (.c 1)⟩,
    ⟨0, 2, .s 1⟩,
    ⟨1, 0, (.neg (.c 0)) ⊠ (.s 1)⟩,
    ⟨1, 1, (.neg (.s 0)) ⊠ (.s 1)⟩,
    ⟨1, 2, .c 1⟩,
    ⟨2, 0, .s 0⟩,
    ⟨2, 1, .neg (.c 0)⟩,
    ⟨3, 0, ((.neg (.k 178 3)) ⊠ (.s 0)) ⊠ (.c 1)⟩,
    ⟨3, 1, ((.k 178 3) ⊠ (.c 0)) ⊠ (.c 1)⟩,
    ⟨3, 3, (.c 0) ⊠ (.c 1)⟩,
    ⟨3, 4, (.s 0) ⊠ (.c 1)⟩,
    ⟨3, 5, .s 1⟩,
    ⟨4, 0, ((.k 178 3) ⊠ (.s 0)) ⊠ (.s 1)⟩,
    ⟨4, 1, ((.neg (.k 178 3)) ⊠ (.c 0)) ⊠ (.s 1)⟩,
    ⟨4, 3, (.neg (.c 0)) ⊠ (.s 1)⟩,
    ⟨4, 4, (.neg (.s 0)) ⊠ (.s 1)⟩,
    ⟨4, 5, .c 1⟩,
    ⟨5, 0, (.k 178 3) ⊠ (.c 0)⟩,
    ⟨5, 1, (.k 178 3) ⊠ (.s 0)⟩,
    ⟨5, 3, .s 0⟩,
    ⟨5, 4, .neg (.c 0)⟩]

/-- `ForceTransforms::Type_fr_Shoulder_FE_X_fr_HyABase` (transforms.impl.h:4720-4736, 4738-4772). -/
def force_fr_Shoulder_FE_X_fr_HyABase : Gen where
  rows := 6
  cols := 6
  ctor := [⟨0, 5, .k 0 0⟩,
    ⟨1, 5, .k 0 0⟩,
    ⟨2, 2, .k 0 0⟩,
    ⟨2, 5, .k 0 0⟩,
    ⟨3, 0, .k 0 0⟩,
    ⟨3, 1, .k 0 0⟩,
    ⟨3, 2, .k 0 0⟩,
    ⟨4, 0, .k 0 0⟩,
    ⟨4, 1, .k 0 0⟩,
    ⟨4, 2, .k 0 0⟩,
    ⟨5, 0, .k 0 0⟩,
    ⟨5, 1, .k 0 0⟩,
    ⟨5, 2, .k 0 0⟩,
    ⟨5, 5, .k 0 0⟩]
  upd := [⟨0, 0, (.c 0) ⊠ (.c 1)⟩,
    ⟨0, 1, (.s 0) ⊠ (.c 1)⟩,
    ⟨0, 2, .s 1⟩,
    ⟨0, 3, ((.neg (.k 178 3)) ⊠ (.s 0)) ⊠ (.c 1)⟩,
    ⟨0, 4, ((.k 178 3) ⊠ (.c 0)) ⊠ (.c 1)⟩,
    ⟨1, 0, (.neg (.c 0)) ⊠ (.s 1)⟩,
    ⟨1, 1, (.neg (.s 0)) ⊠ (.s 1)⟩,
    ⟨1, 2, .c 1⟩,
    ⟨1, 3, ((.k 178 3) ⊠ (.s 0)) ⊠ (.s 1)⟩,
    ⟨1, 4, ((.neg (.k 178 3)) ⊠ (.c 0)) ⊠ (.s 1)⟩,
    ⟨2, 0, .s 0⟩,
    ⟨2, 1, .neg (.c 0)⟩,
    ⟨2, 3, (.k 178 3) ⊠ (.c 0)⟩,
    ⟨2, 4, (.k 178 3) ⊠ (.s 0)⟩,
    ⟨3, 3, (.c 0) ⊠ (.c 1)⟩,
    ⟨3, 4, (.s 0) ⊠ (.c 1)⟩,
    ⟨3, 5, .s 1⟩,
    ⟨4, 3, (.neg (.c 0)) ⊠ (.s 1)⟩,
    ⟨4, 4, (.neg (.s 0)) ⊠ (.s 1)⟩,
    ⟨4, 5, .c 1⟩,
    ⟨5, 3, .s 0⟩,
    ⟨5, 4, .neg (.c 0)⟩]

/-- The transforms `fr_Shoulder_FE_X_fr_HyABase`. -/
def fr_Shoulder_FE_X_fr_HyABase : Trans := ⟨fr_Shoulder_FE, fr_HyABase, hom_fr_Shoulder_FE_X_fr_HyABase, motion_fr_Shoulder_FE_X_fr_HyABase, force_fr_Shoulder_FE_X_fr_HyABase⟩

/-- `HomogeneousTransforms::Type_fr_Humerus_R_X_fr_HyABase` (transforms.impl.h:7023-7029, 7031-7059). -/
def hom_fr_Humerus_R_X_fr_HyABase : Gen where
  rows := 4
  cols := 4
  ctor := [⟨3, 0, .k 0 0⟩,
    ⟨3, 1, .k 0 0⟩,
    ⟨3, 2, .k 0 0⟩,
    ⟨3, 3, .k 1 0⟩]
  upd := [⟨0, 0, (((.neg (.s 2)) ⊠ (.c 0)) ⊠ (.s 1)) ⊟ ((.c 2) ⊠ (.s 0))⟩,
    ⟨0, 1, ((.c 2) ⊠ (.c 0)) ⊟ (((.s 2) ⊠ (.s 0)) ⊠ (.s 1))⟩,
    ⟨0, 2, (.s 2) ⊠ (.c 1)⟩,
    ⟨0, 3, ((.neg (.k 178 3)) ⊠ (.s 2)) ⊠ (.c 1)⟩,
    ⟨1, 0, ((.s 2) ⊠ (.s 0)) ⊟ (((.c 2) ⊠ (.c 0)) ⊠ (.s 1))⟩,
    ⟨1, 1, (((.neg (.c 2)) ⊠ (.s 0)) ⊠ (.s 1)) ⊟ ((.s 2) ⊠ (.c 0))⟩,
    ⟨1, 2, (.c 2) ⊠ (.c 1)⟩,
    ⟨1, 3, ((.neg (.k 178 3)) ⊠ (.c 2)) ⊠ (.c 1)⟩,
    ⟨2, 0, (.c 0) ⊠ (.c 1)⟩,
    ⟨2, 1, (.s 0) ⊠ (.c 1)⟩,
    ⟨2, 2, .s 1⟩,
    ⟨2, 3, ((.neg (.k 178 3)) ⊠ (.s 1)) ⊟ (.k 112 3)⟩]

/-- `MotionTransforms::Type_fr_Humerus_R_X_fr_HyABase` (transforms.impl.h:1925-1937, 1939-1981). -/
def motion_fr_Humerus_R_X_fr_HyABase : Gen where
  rows := 6
  cols := 6
  ctor := [⟨0, 3, .k 0 0⟩,
    ⟨0, 4, .k 0 0⟩,
    ⟨0, 5, .k 0 0⟩,
    ⟨1, 3, .k 0 0⟩,
    ⟨1, 4, .k 0 0⟩,
    ⟨1, 5, .k 0 0⟩,
    ⟨2, 3, .k 0 0⟩,
    ⟨2, 4, .k 0 0⟩,
    ⟨2, 5, .k 0 0⟩,
    ⟨5, 2, .k 0 0⟩]
  upd := [⟨0, 0, (((.neg (.s 2)) ⊠ (.c 0)) ⊠ (.s 1)) ⊟ ((.c 2) ⊠ (.s 0))⟩,
    ⟨0, 1, ((.c 2) ⊠ (.c 0)) ⊟ (((.s 2) ⊠ (.s 0)) ⊠ (.s 1))⟩,
    ⟨0, 2, (.s 2) ⊠ (.c 1)⟩,
    ⟨1, 0, ((.s 2) ⊠ (.s 0)) ⊟ (((.c 2) ⊠ (.c 0)) ⊠ (.s 1))⟩,
    ⟨1, 1, (((.neg (.c 2)) ⊠ (.s 0)) ⊠ (.s 1)) ⊟ ((.s 2) ⊠ (.c 0))⟩,
    ⟨1, 2, (.c 2) ⊠ (.c 1)⟩,
    ⟨2, 0, (.c 0) ⊠ (.c 1)⟩,
    ⟨2, 1, (.s 0) ⊠ (.c 1)⟩,
    ⟨2, 2, .s 1⟩,
    ⟨3, 0, ((((((.k 178 3) ⊠ (.s 2)) ⊠ (.s 0)) ⊟ (((.k 112 3) ⊠ (.c 2)) ⊠ (.c 0))) ⊠ (.s 1)) ⊞ (((.k 112 3) ⊠ (.s 2)) ⊠ (.s 0))) ⊟ (((.k 178 3) ⊠ (.c 2)) ⊠ (.c 0))⟩,
    ⟨3, 1, ((((((.neg (.k 112 3)) ⊠ (.c 2)) ⊠ (.s 0)) ⊟ (((.k 178 3) ⊠ (.s 2)) ⊠ (.c 0))) ⊠ (.s 1)) ⊟ (((.k 178 3) ⊠ (.c 2)) ⊠ (.s 0))) ⊟ (((.k 112 3) ⊠ (.s 2)) ⊠ (.c 0))⟩,
    ⟨3, 2, ((.k 112 3) ⊠ (.c 2)) ⊠ (.c 1)⟩,
    ⟨3, 3, (((.neg (.s 2)) ⊠ (.c 0)) ⊠ (.s 1)) ⊟ ((.c 2) ⊠ (.s 0))⟩,
    ⟨3, 4, ((.c 2) ⊠ (.c 0)) ⊟ (((.s 2) ⊠ (.s 0)) ⊠ (.s 1))⟩,
    ⟨3, 5, (.s 2) ⊠ (.c 1)⟩,
    ⟨4, 0, ((((((.k 178 3) ⊠ (.c 2)) ⊠ (.s 0)) ⊞ (((.k 112 3) ⊠ (.s 2)) ⊠ (.c 0))) ⊠ (.s 1)) ⊞ (((.k 112 3) ⊠ (.c 2)) ⊠ (.s 0))) ⊞ (((.k 178 3) ⊠ (.s 2)) ⊠ (.c 0))⟩,
    ⟨4, 1, ((((((.k 112 3) ⊠ (.s 2)) ⊠ (.s 0)) ⊟ (((.k 178 3) ⊠ (.c 2)) ⊠ (.c 0))) ⊠ (.s 1)) ⊞ (((.k 178 3) ⊠ (.s 2)) ⊠ (.s 0))) ⊟ (((.k 112 3) ⊠ (.c 2)) ⊠ (.c 0))⟩,
    ⟨4, 2, ((.neg (.k 112 3)) ⊠ (.s 2)) ⊠ (.c 1)⟩,
    ⟨4, 3, ((.s 2) ⊠ (.s 0)) ⊟ (((.c 2) ⊠ (.c 0)) ⊠ (.s 1))⟩,
    ⟨4, 4, (((.neg (.c 2)) ⊠ (.s 0)) ⊠ (.s 1)) ⊟ ((.s 2) ⊠ (.c 0))⟩,
    ⟨4, 5, (.c 2) ⊠ (.c 1)⟩,
    ⟨5, 0, ((.neg (.k 178 3)) ⊠ (.s 0)) ⊠ (.c 1)⟩,
    ⟨5, 1, ((.k 178 3) ⊠ (.c 0)) ⊠ (.c 1)⟩,
    ⟨5, 3, (.c 0) ⊠ (.c 1)⟩,
    ⟨5, 4, (.s 0) ⊠ (.c 1)⟩,
    ⟨5, 5, .s 1⟩]

/-- `ForceTransforms::Type_fr_Humerus_R_X_fr_HyABase` (transforms.impl.h:4774-4786, 4788-4830). -/
def force_fr_Humerus_R_X_fr_HyABase : Gen where
  rows := 6
  cols := 6
  ctor := [⟨2, 5, .k 0 0⟩,
    ⟨3, 0, .k 0 0⟩,
    ⟨3, 1, .k 0 0⟩,
    ⟨3, 2, .k 0 0⟩,
    ⟨4, 0, .k 0 0⟩,
    ⟨4, 1, .k 0 0⟩,
    ⟨4, 2, .k 0 0⟩,
    ⟨5, 0, .k 0 0⟩,
    ⟨5, 1, .k 0 0⟩,
    ⟨5, 2, .k 0 0⟩]
  upd := [⟨0, 0, (((.neg (.s 2)) ⊠ (.c 0)) ⊠ (.s 1)) ⊟ ((.c 2) ⊠ (.s 0))⟩,
    ⟨0, 1, ((.c 2) ⊠ (.c 0)) ⊟ (((.s 2) ⊠ (.s 0)) ⊠ (.s 1))⟩,
    ⟨0, 2, (.s 2) ⊠ (.c 1)⟩,
    ⟨0, 3, ((((((.k 178 3) ⊠ (.s 2)) ⊠ (.s 0)) ⊟ (((.k 112 3) ⊠ (.c 2)) ⊠ (.c 0))) ⊠ (.s 1)) ⊞ (((.k 112 3) ⊠ (.s 2)) ⊠ (.s 0))) ⊟ (((.k 178 3) ⊠ (.c 2)) ⊠ (.c 0))⟩,
    ⟨0, 4, ((((((.neg (.k 112 3)) ⊠ (.c 2)) ⊠ (.s 0)) ⊟ (((.k 178 3) ⊠ (.s 2)) ⊠ (.c 0))) ⊠ (.s 1)) ⊟ (((.k 178 3) ⊠ (.c 2)) ⊠ (.s 0))) ⊟ (((.k 112 3) ⊠ (.s 2)) ⊠ (.c 0))⟩,
    ⟨0, 5, ((.k 112 3) ⊠ (.c 2)) ⊠ (.c 1)⟩,
    ⟨1, 0, ((.s 2) ⊠ (.s 0)) ⊟ (((.c 2) ⊠ (.c 0)) ⊠ (.s 1))⟩,
    ⟨1, 1, (((.neg (.c 2)) ⊠ (.s 0)) ⊠ (.s 1)) ⊟ ((.s 2) ⊠ (.c 0))⟩,
    ⟨1, 2, (.c 2) ⊠ (.c 1)⟩,
    ⟨1, 3, ((((((.k 178 3) ⊠ (.c 2)) ⊠ (.s 0)) ⊞ (((.k 112 3) ⊠ (.s 2)) ⊠ (.c 0))) ⊠ (.s 1)) ⊞ (((.k 112 3) ⊠ (.c 2)) ⊠ (.s 0))) ⊞ (((.k 178 3) ⊠ (.s 2)) ⊠ (.c 0))⟩,
    ⟨1, 4, ((((((.k 112 3) ⊠ (.s 2)) ⊠ (.s 0)) ⊟ (((.k 178 3) ⊠ (.c 2)) ⊠ (.c 0))) ⊠ (.s 1)) ⊞ (((.k 178 3) ⊠ (.s 2)) ⊠ (.s 0))) ⊟ (((.k 112 3) ⊠ (.c 2)) ⊠ (.c 0))⟩,
    ⟨1, 5, ((.neg (.k 112 3)) ⊠ (.s 2)) ⊠ (.c 1)⟩,
    ⟨2, 0, (.c 0) ⊠ (.c 1)⟩,
    ⟨2, 1, (.s 0) ⊠ (.c 1)⟩,
    ⟨2, 2, .s 1⟩,
    ⟨2, 3, ((.neg (.k 178 3)) ⊠ (.s 0)) ⊠ (.c 1)⟩,
    ⟨2, 4, ((.k 178 3) ⊠ (.c 0)) ⊠ (.c 1)⟩,
    ⟨3, 3, (((.neg (.s 2)) ⊠ (.c 0)) ⊠ (.s 1)) ⊟ ((.c 2) ⊠ (.s 0))⟩,
    ⟨3, 4, ((.c 2) ⊠ (.c 0)) ⊟ (((.s 2) ⊠ (.s 0)) ⊠ (.s 1))⟩,
    ⟨3, 5, (.s 2) ⊠ (.c 1)⟩,
    ⟨4, 3, ((.s 2) ⊠ (.s 0)) ⊟ (((.c 2) ⊠ (.c 0)) ⊠ (.s 1))⟩,
    ⟨4, 4, (((.neg (.c 2)) ⊠ (.s 0)) ⊠ (.s 1)) ⊟ ((.s 2) ⊠ (.c 0))⟩,
    ⟨4, 5, (.c 2) ⊠ (.c 1)⟩,
    ⟨5, 3, (.c 0) ⊠ (.c 1)⟩,
    ⟨5, 4, (.s 0) ⊠ (.c 1)⟩,
    ⟨5, 5, .s 1⟩]

/-- The transforms `fr_Humerus_R_X_fr_HyABase`. -/
def fr_Humerus_R_X_fr_HyABase : Trans := ⟨fr_Humerus_R, fr_HyABase, hom_fr_Humerus_R_X_fr_HyABase, motion_fr_Humerus_R_X_fr_HyABase, force_fr_Humerus_R_X_fr_HyABase⟩

/-- `HomogeneousTransforms::Type_fr_Elbow_FE_X_fr_HyABase` (transforms.impl.h:7061-7067, 7069-7101). -/
def hom_fr_Elbow_FE_X_fr_HyABase : Gen where
  rows := 4
  cols := 4
  ctor := [⟨3, 0, .k 0 0⟩,
    ⟨3, 1, .k 0 0⟩,
    ⟨3, 2, .k 0 0⟩,
    ⟨3, 3, .k 1 0⟩]
  upd := [⟨0, 0, (((((.neg (.s 3)) ⊠ (.c 2)) ⊠ (.c 0)) ⊠ (.s 1)) ⊞ (((.c 3) ⊠ (.c 0)) ⊠ (.c 1))) ⊞ (((.s 3) ⊠ (.s 2)) ⊠ (.s 0))⟩,
    ⟨0, 1, (((((.neg (.s 3)) ⊠ (.c 2)) ⊠ (.s 0)) ⊠ (.s 1)) ⊞ (((.c 3) ⊠ (.s 0)) ⊠ (.c 1))) ⊟ (((.s 3) ⊠ (.s 2)) ⊠ (.c 0))⟩,
    ⟨0, 2, ((.c 3) ⊠ (.s 1)) ⊞ (((.s 3) ⊠ (.c 2)) ⊠ (.c 1))⟩,
    ⟨0, 3, ((((.neg (.k 178 3)) ⊠ (.c 3)) ⊠ (.s 1)) ⊟ ((((.k 178 3) ⊠ (.s 3)) ⊠ (.c 2)) ⊠ (.c 1))) ⊟ ((.k 416 3) ⊠ (.c 3))⟩,
    ⟨1, 0, (((((.neg (.c 3)) ⊠ (.c 2)) ⊠ (.c 0)) ⊠ (.s 1)) ⊟ (((.s 3) ⊠ (.c 0)) ⊠ (.c 1))) ⊞ (((.c 3) ⊠ (.s 2)) ⊠ (.s 0))⟩,
    ⟨1, 1, (((((.neg (.c 3)) ⊠ (.c 2)) ⊠ (.s 0)) ⊠ (.s 1)) ⊟ (((.s 3) ⊠ (.s 0)) ⊠ (.c 1))) ⊟ (((.c 3) ⊠ (.s 2)) ⊠ (.c 0))⟩,
    ⟨1, 2, (((.c 3) ⊠ (.c 2)) ⊠ (.c 1)) ⊟ ((.s 3) ⊠ (.s 1))⟩,
    ⟨1, 3, ((((.k 178 3) ⊠ (.s 3)) ⊠ (.s 1)) ⊟ ((((.k 178 3) ⊠ (.c 3)) ⊠ (.c 2)) ⊠ (.c 1))) ⊞ ((.k 416 3) ⊠ (.s 3))⟩,
    ⟨2, 0, (((.s 2) ⊠ (.c 0)) ⊠ (.s 1)) ⊞ ((.c 2) ⊠ (.s 0))⟩,
    ⟨2, 1, (((.s 2) ⊠ (.s 0)) ⊠ (.s 1)) ⊟ ((.c 2) ⊠ (.c 0))⟩,
    ⟨2, 2, (.neg (.s 2)) ⊠ (.c 1)⟩,
    ⟨2, 3, ((.k 178 3) ⊠ (.s 2)) ⊠ (.c 1)⟩]

/-- `MotionTransforms::Type_fr_Elbow_FE_X_fr_HyABase` (transforms.impl.h:1983-1994, 1996-2043). -/
def motion_fr_Elbow_FE_X_fr_HyABase : Gen where
  rows := 6
  cols := 6
  ctor := [⟨0, 3, .k 0 0⟩,
    ⟨0, 4, .k 0 0⟩,
    ⟨0, 5, .k 0 0⟩,
    ⟨1, 3, .k 0 0⟩,
    ⟨1, 4, .k 0 0⟩,
    ⟨1, 5, .k 0 0⟩,
    ⟨2, 3, .k 0 0⟩,
    ⟨2, 4, .k 0 0⟩,
    ⟨2, 5, .k 0 0⟩]
  upd := [⟨0, 0, (((((.neg (.s 3)) ⊠ (.c 2)) ⊠ (.c 0)) ⊠ (.s 1)) ⊞ (((.c 3) ⊠ (.c 0)) ⊠ (.c 1))) ⊞ (((.s 3) ⊠ (.s 2)) ⊠ (.s 0))⟩,
    ⟨0, 1, (((((.neg (.s 3)) ⊠ (.c 2)) ⊠ (.s 0)) ⊠ (.s 1)) ⊞ (((.c 3) ⊠ (.s 0)) ⊠ (.c 1))) ⊟ (((.s 3) ⊠ (.s 2)) ⊠ (.c 0))⟩,
    ⟨0, 2, ((.c 3) ⊠ (.s 1)) ⊞ (((.s 3) ⊠ (.c 2)) ⊠ (.c 1))⟩,
    ⟨1, 0, (((((.neg (.c 3)) ⊠ (.c 2)) ⊠ (.c 0)) ⊠ (.s 1)) ⊟ (((.s 3) ⊠ (.c 0)) ⊠ (.c 1))) ⊞ (((.c 3) ⊠ (.s 2)) ⊠ (.s 0))⟩,
    ⟨1, 1, (((((.neg (.c 3)) ⊠ (.c 2)) ⊠ (.s 0)) ⊠ (.s 1)) ⊟ (((.s 3) ⊠ (.s 0)) ⊠ (.c 1))) ⊟ (((.c 3) ⊠ (.s 2)) ⊠ (.c 0))⟩,
    ⟨1, 2, (((.c 3) ⊠ (.c 2)) ⊠ (.c 1)) ⊟ ((.s 3) ⊠ (.s 1))⟩,
    ⟨2, 0, (((.s 2) ⊠ (.c 0)) ⊠ (.s 1)) ⊞ ((.c 2) ⊠ (.s 0))⟩,
    ⟨2, 1, (((.s 2) ⊠ (.s 0)) ⊠ (.s 1)) ⊟ ((.c 2) ⊠ (.c 0))⟩,
    ⟨2, 2, (.neg (.s 2)) ⊠ (.c 1)⟩,
    ⟨3, 0, ((((((((.k 178 3) ⊠ (.s 3)) ⊠ (.c 2)) ⊠ (.s 0)) ⊞ ((((.k 416 3) ⊠ (.s 3)) ⊠ (.s 2)) ⊠ (.c 0))) ⊠ (.s 1)) ⊟ ((((.k 178 3) ⊠ (.c 3)) ⊠ (.s 0)) ⊠ (.c 1))) ⊞ ((((.k 416 3) ⊠ (.s 3)) ⊠ (.c 2)) ⊠ (.s 0))) ⊞ ((((.k 178 3) ⊠ (.s 3)) ⊠ (.s 2)) ⊠ (.c 0))⟩,
    ⟨3, 1, ((((((((.k 416 3) ⊠ (.s 3)) ⊠ (.s 2)) ⊠ (.s 0)) ⊟ ((((.k 178 3) ⊠ (.s 3)) ⊠ (.c 2)) ⊠ (.c 0))) ⊠ (.s 1)) ⊞ ((((.k 178 3) ⊠ (.c 3)) ⊠ (.c 0)) ⊠ (.c 1))) ⊞ ((((.k 178 3) ⊠ (.s 3)) ⊠ (.s 2)) ⊠ (.s 0))) ⊟ ((((.k 416 3) ⊠ (.s 3)) ⊠ (.c 2)) ⊠ (.c 0))⟩,
    ⟨3, 2, (((.neg (.k 416 3)) ⊠ (.s 3)) ⊠ (.s 2)) ⊠ (.c 1)⟩,
    ⟨3, 3, (((((.neg (.s 3)) ⊠ (.c 2)) ⊠ (.c 0)) ⊠ (.s 1)) ⊞ (((.c 3) ⊠ (.c 0)) ⊠ (.c 1))) ⊞ (((.s 3) ⊠ (.s 2)) ⊠ (.s 0))⟩,
    ⟨3, 4, (((((.neg (.s 3)) ⊠ (.c 2)) ⊠ (.s 0)) ⊠ (.s 1)) ⊞ (((.c 3) ⊠ (.s 0)) ⊠ (.c 1))) ⊟ (((.s 3) ⊠ (.s 2)) ⊠ (.c 0))⟩,
    ⟨3, 5, ((.c 3) ⊠ (.s 1)) ⊞ (((.s 3) ⊠ (.c 2)) ⊠ (.c 1))⟩,
    ⟨4, 0, ((((((((.k 178 3) ⊠ (.c 3)) ⊠ (.c 2)) ⊠ (.s 0)) ⊞ ((((.k 416 3) ⊠ (.c 3)) ⊠ (.s 2)) ⊠ (.c 0))) ⊠ (.s 1)) ⊞ ((((.k 178 3) ⊠ (.s 3)) ⊠ (.s 0)) ⊠ (.c 1))) ⊞ ((((.k 416 3) ⊠ (.c 3)) ⊠ (.c 2)) ⊠ (.s 0))) ⊞ ((((.k 178 3) ⊠ (.c 3)) ⊠ (.s 2)) ⊠ (.c 0))⟩,
    ⟨4, 1, ((((((((.k 416 3) ⊠ (.c 3)) ⊠ (.s 2)) ⊠ (.s 0)) ⊟ ((((.k 178 3) ⊠ (.c 3)) ⊠ (.c 2)) ⊠ (.c 0))) ⊠ (.s 1)) ⊟ ((((.k 178 3) ⊠ (.s 3)) ⊠ (.c 0)) ⊠ (.c 1))) ⊞ ((((.k 178 3) ⊠ (.c 3)) ⊠ (.s 2)) ⊠ (.s 0))) ⊟ ((((.k 416 3) ⊠ (.c 3)) ⊠ (.c 2)) ⊠ (.c 0))⟩,
    ⟨4, 2, (((.neg (.k 416 3)) ⊠ (.c 3)) ⊠ (.s 2)) ⊠ (.c 1)⟩,
    ⟨4, 3, (((((.neg (.c 3)) ⊠ (.c 2)) ⊠ (.c 0)) ⊠ (.s 1)) ⊟ (((.s 3) ⊠ (.c 0)) ⊠ (.c 1))) ⊞ (((.c 3) ⊠ (.s 2)) ⊠ (.s 0))⟩,
    ⟨4, 4, (((((.neg (.c 3)) ⊠ (.c 2)) ⊠ (.s 0)) ⊠ (.s 1)) ⊟ (((.s 3) ⊠ (.s 0)) ⊠ (.c 1))) ⊟ (((.c 3) ⊠ (.s 2)) ⊠ (.c 0))⟩,
    ⟨4, 5, (((.c 3) ⊠ (.c 2)) ⊠ (.c 1)) ⊟ ((.s 3) ⊠ (.s 1))⟩,
    ⟨5, 0, ((((((.k 416 3) ⊠ (.c 2)) ⊠ (.c 0)) ⊟ (((.k 178 3) ⊠ (.s 2)) ⊠ (.s 0))) ⊠ (.s 1)) ⊟ (((.k 416 3) ⊠ (.s 2)) ⊠ (.s 0))) ⊞ (((.k 178 3) ⊠ (.c 2)) ⊠ (.c 0))⟩,
    ⟨5, 1, ((((((.k 416 3) ⊠ (.c 2)) ⊠ (.s 0)) ⊞ (((.k 178 3) ⊠ (.s 2)) ⊠ (.c 0))) ⊠ (.s 1)) ⊞ (((.k 178 3) ⊠ (.c 2)) ⊠ (.s 0))) ⊞ (((.k 416 3) ⊠ (.s 2)) ⊠ (.c 0))⟩,
    ⟨5, 2, ((.neg (.k 416 3)) ⊠ (.c 2)) ⊠ (.c 1)⟩,
    ⟨5, 3, (((.s 2) ⊠ (.c 0)) ⊠ (.s 1)) ⊞ ((.c 2) ⊠ (.s 0))⟩,
    ⟨5, 4, (((.s 2) ⊠ (.s 0)) ⊠ (.s 1)) ⊟ ((.c 2) ⊠ (.c 0))⟩,
    ⟨5, 5, (.neg (.s 2)) ⊠ (.c 1)⟩]

/-- `ForceTransforms::Type_fr_Elbow_FE_X_fr_HyABase` (transforms.impl.h:4832-4843, 4845-4892). -/
def force_fr_Elbow_FE_X_fr_HyABase : Gen where
  rows := 6
  cols := 6
  ctor := [⟨3, 0, .k 0 0⟩,
    ⟨3, 1, .k 0 0⟩,
    ⟨3, 2, .k 0 0⟩,
    ⟨4, 0, .k 0 0⟩,
    ⟨4, 1, .k 0 0⟩,
    ⟨4, 2, .k 0 0⟩,
    ⟨5, 0, .k 0 0⟩,
    ⟨5, 1, .k 0 0⟩,
    ⟨5, 2, .k 0 0⟩]
  upd := [⟨0, 0, (((((.neg (.s 3)) ⊠ (.c 2)) ⊠ (.c 0)) ⊠ (.s 1)) ⊞ (((.c 3) ⊠ (.c 0)) ⊠ (.c 1))) ⊞ (((.s 3) ⊠ (.s 2)) ⊠ (.s 0))⟩,
    ⟨0, 1, (((((.neg (.s 3)) ⊠ (.c 2)) ⊠ (.s 0)) ⊠ (.s 1)) ⊞ (((.c 3) ⊠ (.s 0)) ⊠ (.c 1))) ⊟ (((.s 3) ⊠ (.s 2)) ⊠ (.c 0))⟩,
    ⟨0, 2, ((.c 3) ⊠ (.s 1)) ⊞ (((.s 3) ⊠ (.c 2)) ⊠ (.c 1))⟩,
    ⟨0, 3, ((((((((.k 178 3) ⊠ (.s 3)) ⊠ (.c 2)) ⊠ (.s 0)) ⊞ ((((.k 416 3) ⊠ (.s 3)) ⊠ (.s 2)) ⊠ (.c 0))) ⊠ (.s 1)) ⊟ ((((.k 178 3) ⊠ (.c 3)) ⊠ (.s 0)) ⊠ (.c 1))) ⊞ ((((.k 416 3) ⊠ (.s 3)) ⊠ (.c 2)) ⊠ (.s 0))) ⊞ ((((.k 178 3) ⊠ (.s 3)) ⊠ (.s 2)) ⊠ (.c 0))⟩,
    ⟨0, 4, ((((((((.k 416 3) ⊠ (.s 3)) ⊠ (.s 2)) ⊠ (.s 0)) ⊟ ((((.k 178 3) ⊠ (.s 3)) ⊠ (.c 2)) ⊠ (.c 0))) ⊠ (.s 1)) ⊞ ((((.k 178 3) ⊠ (.c 3)) ⊠ (.c 0)) ⊠ (.c 1))) ⊞ ((((.k 178 3) ⊠ (.s 3)) ⊠ (.s 2)) ⊠ (.s 0))) ⊟ ((((.k 416 3) ⊠ (.s 3)) ⊠ (.c 2)) ⊠ (.c 0))⟩,
    ⟨0, 5, (((.neg (.k 416 3)) ⊠ (.s 3)) ⊠ (.s 2)) ⊠ (.c 1)⟩,
    ⟨1, 0, (((((.neg (.c 3)) ⊠ (.c 2)) ⊠ (.c 0)) ⊠ (.s 1)) ⊟ (((.s 3) ⊠ (.c 0)) ⊠ (.c 1))) ⊞ (((.c 3) ⊠ (.s 2)) ⊠ (.s 0))⟩,
    ⟨1, 1, (((((.neg (.c 3)) ⊠ (.c 2)) ⊠ (.s 0)) ⊠ (.s 1)) ⊟ (((.s 3) ⊠ (.s 0)) ⊠ (.c 1))) ⊟ (((.c 3) ⊠ (.s 2)) ⊠ (.c 0))⟩,
    ⟨1, 2, (((.c 3) ⊠ (.c 2)) ⊠ (.c 1)) ⊟ ((.s 3) ⊠ (.s 1))⟩,
    ⟨1, 3, ((((((((.k 178 3) ⊠ (.c 3)) ⊠ (.c 2)) ⊠ (.s 0)) ⊞ ((((.k 416 3) ⊠ (.c 3)) ⊠ (.s 2)) ⊠ (.c 0))) ⊠ (.s 1)) ⊞ ((((.k 178 3) ⊠ (.s 3)) ⊠ (.s 0)) ⊠ (.c 1))) ⊞ ((((.k 416 3) ⊠ (.c 3)) ⊠ (.c 2)) ⊠ (.s 0))) ⊞ ((((.k 178 3) ⊠ (.c 3)) ⊠ (.s 2)) ⊠ (.c 0))⟩,
    ⟨1, 4, ((((((((.k 416 3) ⊠ (.c 3)) ⊠ (.s 2)) ⊠ (.s 0)) ⊟ ((((.k 178 3) ⊠ (.c 3)) ⊠ (.c 2)) ⊠ (.c 0))) ⊠ (.s 1)) ⊟ ((((.k 178 3) ⊠ (.s 3)) ⊠ (.c 0)) ⊠ (.c 1))) ⊞ ((((.k 178 3) ⊠ (.c 3)) ⊠ (.s 2)) ⊠ (.s 0))) ⊟ ((((.k 416 3) ⊠ (.c 3)) ⊠ (.c 2)) ⊠ (.c 0))⟩,
    ⟨1, 5, (((.neg (.k 416 3)) ⊠ (.c 3)) ⊠ (.s 2)) ⊠ (.c 1)⟩,
    ⟨2, 0, (((.s 2) ⊠ (.c 0)) ⊠ (.s 1)) ⊞ ((.c 2) ⊠ (.s 0))⟩,
    ⟨2, 1, (((.s 2) ⊠ (.s 0)) ⊠ (.s 1)) ⊟ ((.c 2) ⊠ (.c 0))⟩,
    ⟨2, 2, (.neg (.s 2)) ⊠ (.c 1)⟩,
    ⟨2, 3, ((((((.k 416 3) ⊠ (.c 2)) ⊠ (.c 0)) ⊟ (((.k 178 3) ⊠ (.s 2)) ⊠ (.s 0))) ⊠ (.s 1)) ⊟ (((.k 416 3) ⊠ (.s 2)) ⊠ (.s 0))) ⊞ (((.k 178 3) ⊠ (.c 2)) ⊠ (.c 0))⟩,
    ⟨2, 4, ((((((.k 416 3) ⊠ (.c 2)) ⊠ (.s 0)) ⊞ (((.k 178 3) ⊠ (.s 2)) ⊠ (.c 0))) ⊠ (.s 1)) ⊞ (((.k 178 3) ⊠ (.c 2)) ⊠ (.s 0))) ⊞ (((.k 416 3) ⊠ (.s 2)) ⊠ (.c 0))⟩,
    ⟨2, 5, ((.neg (.k 416 3)) ⊠ (.c 2)) ⊠ (.c 1)⟩,
    ⟨3, 3, (((((.neg (.s 3)) ⊠ (.c 2)) ⊠ (.c 0)) ⊠ (.s 1)) ⊞ (((.c 3) ⊠ (.c 0)) ⊠ (.c 1))) ⊞ (((.s 3) ⊠ (.s 2)) ⊠ (.s 0))⟩,
    ⟨3, 4, (((((.neg (.s 3)) ⊠ (.c 2)) ⊠ (.s 0)) ⊠ (.s 1)) ⊞ (((.c 3) ⊠ (.s 0)) ⊠ (.c 1))) ⊟ (((.s 3) ⊠ (.s 2)) ⊠ (.c 0))⟩,
    ⟨3, 5, ((.c 3) ⊠ (.s 1)) ⊞ (((.s 3) ⊠ (.c 2)) ⊠ (.c 1))⟩,
    ⟨4, 3, (((((.neg (.c 3)) ⊠ (.c 2)) ⊠ (.c 0)) ⊠ (.s 1)) ⊟ (((.s 3) ⊠ (.c 0)) ⊠ (.c 1))) ⊞ (((.c 3) ⊠ (.s 2)) ⊠ (.s 0))⟩,
    ⟨4, 4, (((((.neg (.c 3)) ⊠ (.c 2)) ⊠ (.s 0)) ⊠ (.s 1)) ⊟ (((.s 3) ⊠ (.s 0)) ⊠ (.c 1))) ⊟ (((.c 3) ⊠ (.s 2)) ⊠ (.c 0))⟩,
    ⟨4, 5, (((.c 3) ⊠ (.c 2)) ⊠ (.c 1)) ⊟ ((.s 3) ⊠ (.s 1))⟩,
    ⟨5, 3, (((.s 2) ⊠ (.c 0)) ⊠ (.s 1)) ⊞ ((.c 2) ⊠ (.s 0))⟩,
    ⟨5, 4, (((.s 2) ⊠ (.s 0)) ⊠ (.s 1)) ⊟ ((.c 2) ⊠ (.c 0))⟩,
    ⟨5, 5, (.neg (.s 2)) ⊠ (.c 1)⟩]

/-- The transforms `fr_Elbow_FE_X_fr_HyABase`. -/
def fr_Elbow_FE_X_fr_HyABase : Trans := ⟨fr_Elbow_FE, fr_HyABase, hom_fr_Elbow_FE_X_fr_HyABase, motion_fr_Elbow_FE_X_fr_HyABase, force_fr_Elbow_FE_X_fr_HyABase⟩

/-- `HomogeneousTransforms::Type_fr_Wrist_R_X_fr_HyABase` (transforms.impl.h:7103-7109, 7111-7147). -/
def hom_fr_Wrist_R_X_fr_HyABase : Gen where
  rows := 4
  cols := 4
  ctor := [⟨3, 0, .k 0 0⟩,
    ⟨3, 1, .k 0 0⟩,
    ⟨3, 2, .k 0 0⟩,
    ⟨3, 3, .k 1 0⟩]
  upd := [⟨0, 0, (((((((.neg (.c 3)) ⊠ (.c 2)) ⊠ (.c 0)) ⊠ (.s 1)) ⊟ (((.s 3) ⊠ (.c 0)) ⊠ (.c 1))) ⊞ (((.c 3) ⊠ (.s 2)) ⊠ (.s 0))) ⊠ (.s 4)) ⊞ (((((.neg (.s 2)) ⊠ (.c 0)) ⊠ (.s 1)) ⊟ ((.c 2) ⊠ (.s 0))) ⊠ (.c 4))⟩,
    ⟨0, 1, (((((((.neg (.c 3)) ⊠ (.c 2)) ⊠ (.s 0)) ⊠ (.s 1)) ⊟ (((.s 3) ⊠ (.s 0)) ⊠ (.c 1))) ⊟ (((.c 3) ⊠ (.s 2)) ⊠ (.c 0))) ⊠ (.s 4)) ⊞ ((((.c 2) ⊠ (.c 0)) ⊟ (((.s 2) ⊠ (.s 0)) ⊠ (.s 1))) ⊠ (.c 4))⟩,
    ⟨0, 2, ((((((.k 1 0) ⊠ (.c 3)) ⊠ (.c 2)) ⊠ (.c 1)) ⊟ ((.s 3) ⊠ (.s 1))) ⊠ (.s 4)) ⊞ (((.s 2) ⊠ (.c 1)) ⊠ (.c 4))⟩,
    ⟨0, 3, ((((((.k 178 3) ⊠ (.s 3)) ⊠ (.s 1)) ⊟ ((((.k 178 3) ⊠ (.c 3)) ⊠ (.c 2)) ⊠ (.c 1))) ⊞ ((.k 416 3) ⊠ (.s 3))) ⊠ (.s 4)) ⊟ ((((.k 178 3) ⊠ (.s 2)) ⊠ (.c 1)) ⊠ (.c 4))⟩,
    ⟨1, 0, (((((.s 2) ⊠ (.c 0)) ⊠ (.s 1)) ⊞ ((.c 2) ⊠ (.s 0))) ⊠ (.s 4)) ⊞ (((((((.neg (.c 3)) ⊠ (.c 2)) ⊠ (.c 0)) ⊠ (.s 1)) ⊟ (((.s 3) ⊠ (.c 0)) ⊠ (.c 1))) ⊞ (((.c 3) ⊠ (.s 2)) ⊠ (.s 0))) ⊠ (.c 4))⟩,
    ⟨1, 1, (((((.s 2) ⊠ (.s 0)) ⊠ (.s 1)) ⊟ ((.c 2) ⊠ (.c 0))) ⊠ (.s 4)) ⊞ (((((((.neg (.c 3)) ⊠ (.c 2)) ⊠ (.s 0)) ⊠ (.s 1)) ⊟ (((.s 3) ⊠ (.s 0)) ⊠ (.c 1))) ⊟ (((.c 3) ⊠ (.s 2)) ⊠ (.c 0))) ⊠ (.c 4))⟩,
    ⟨1, 2, ((((((.k 1 0) ⊠ (.c 3)) ⊠ (.c 2)) ⊠ (.c 1)) ⊟ ((.s 3) ⊠ (.s 1))) ⊠ (.c 4)) ⊟ (((.s 2) ⊠ (.c 1)) ⊠ (.s 4))⟩,
    ⟨1, 3, ((((.k 178 3) ⊠ (.s 2)) ⊠ (.c 1)) ⊠ (.s 4)) ⊞ ((((((.k 178 3) ⊠ (.s 3)) ⊠ (.s 1)) ⊟ ((((.k 178 3) ⊠ (.c 3)) ⊠ (.c 2)) ⊠ (.c 1))) ⊞ ((.k 416 3) ⊠ (.s 3))) ⊠ (.c 4))⟩,
    ⟨2, 0, (((((.neg (.s 3)) ⊠ (.c 2)) ⊠ (.c 0)) ⊠ (.s 1)) ⊞ (((.c 3) ⊠ (.c 0)) ⊠ (.c 1))) ⊞ (((.s 3) ⊠ (.s 2)) ⊠ (.s 0))⟩,
    ⟨2, 1, (((((.neg (.s 3)) ⊠ (.c 2)) ⊠ (.s 0)) ⊠ (.s 1)) ⊞ (((.c 3) ⊠ (.s 0)) ⊠ (.c 1))) ⊟ (((.s 3) ⊠ (.s 2)) ⊠ (.c 0))⟩,
    ⟨2, 2, ((.c 3) ⊠ (.s 1)) ⊞ (((.s 3) ⊠ (.c 2)) ⊠ (.c 1))⟩,
    ⟨2, 3, (((((.neg (.k 178 3)) ⊠ (.c 3)) ⊠ (.s 1)) ⊟ ((((.k 178 3) ⊠ (.s 3)) ⊠ (.c 2)) ⊠ (.c 1))) ⊟ ((.k 416 3) ⊠ (.c 3))) ⊟ (.k 112 3)⟩]

/-- `MotionTransforms::Type_fr_Wrist_R_X_fr_HyABase` (transforms.impl.h:2045-2056, 2058-2109). -/
def motion_fr_Wrist_R_X_fr_HyABase : Gen where
  rows := 6
  cols := 6
  ctor := [⟨0, 3, .k 0 0⟩,
    ⟨0, 4, .k 0 0⟩,
    ⟨0, 5, .k 0 0⟩,
    ⟨1, 3, .k 0 0⟩,
    ⟨1, 4, .k 0 0⟩,
    ⟨1, 5, .k 0 0⟩,
    ⟨2, 3, .k 0 0⟩,
    ⟨2, 4, .k 0 0⟩,
    ⟨2, 5, .k 0 0⟩]
  upd := [⟨0, 0, (((((((.neg (.c 3)) ⊠ (.c 2)) ⊠ (.c 0)) ⊠ (.s 1)) ⊟ (((.s 3) ⊠ (.c 0)) ⊠ (.c 1))) ⊞ (((.c 3) ⊠ (.s 2)) ⊠ (.s 0))) ⊠ (.s 4)) ⊞ (((((.neg (.s 2)) ⊠ (.c 0)) ⊠ (.s 1)) ⊟ ((.c 2) ⊠ (.s 0))) ⊠ (.c 4))⟩,
    ⟨0, 1, (((((((.neg (.c 3)) ⊠ (.c 2)) ⊠ (.s 0)) ⊠ (.s 1)) ⊟ (((.s 3) ⊠ (.s 0)) ⊠ (.c 1))) ⊟ (((.c 3) ⊠ (.s 2)) ⊠ (.c 0))) ⊠ (.s 4)) ⊞ ((((.c 2) ⊠ (.c 0)) ⊟ (((.s 2) ⊠ (.s 0)) ⊠ (.s 1))) ⊠ (.c 4))⟩,
    ⟨0, 2, ((((((.k 1 0) ⊠ (.c 3)) ⊠ (.c 2)) ⊠ (.c 1)) ⊟ ((.s 3) ⊠ (.s 1))) ⊠ (.s 4)) ⊞ (((.s 2) ⊠ (.c 1)) ⊠ (.c 4))⟩,
    ⟨1, 0, (((((.s 2) ⊠ (.c 0)) ⊠ (.s 1)) ⊞ ((.c 2) ⊠ (.s 0))) ⊠ (.s 4)) ⊞ (((((((.neg (.c 3)) ⊠ (.c 2)) ⊠ (.c 0)) ⊠ (.s 1)) ⊟ (((.s 3) ⊠ (.c 0)) ⊠ (.c 1))) ⊞ (((.c 3) ⊠ (.s 2)) ⊠ (.s 0))) ⊠ (.c 4))⟩,
    ⟨1, 1, (((((.s 2) ⊠ (.s 0)) ⊠ (.s 1)) ⊟ ((.c 2) ⊠ (.c 0))) ⊠ (.s 4)) ⊞ (((((((.neg (.c 3)) ⊠ (.c 2)) ⊠ (.s 0)) ⊠ (.s 1)) ⊟ (((.s 3) ⊠ (.s 0)) ⊠ (.c 1))) ⊟ (((.c 3) ⊠ (.s 2)) ⊠ (.c 0))) ⊠ (.c 4))⟩,
    ⟨1, 2, ((((((.k 1 0) ⊠ (.c 3)) ⊠ (.c 2)) ⊠ (.c 1)) ⊟ ((.s 3) ⊠ (.s 1))) ⊠ (.c 4)) ⊟ (((.s 2) ⊠ (.c 1)) ⊠ (.s 4))⟩,
    ⟨2, 0, (((((.neg (.s 3)) ⊠ (.c 2)) ⊠ (.c 0)) ⊠ (.s 1)) ⊞ (((.c 3) ⊠ (.c 0)) ⊠ (.c 1))) ⊞ (((.s 3) ⊠ (.s 2)) ⊠ (.s 0))⟩,
    ⟨2, 1, (((((.neg (.s 3)) ⊠ (.c 2)) ⊠ (.s 0)) ⊠ (.s 1)) ⊞ (((.c 3) ⊠ (.s 0)) ⊠ (.c 1))) ⊟ (((.s 3) ⊠ (.s 2)) ⊠ (.c 0))⟩,
    ⟨2, 2, ((.c 3) ⊠ (.s 1)) ⊞ (((.s 3) ⊠ (.c 2)) ⊠ (.c 1))⟩,
    ⟨3, 0, ((((((((((.k 178 3) ⊠ (.c 3)) ⊠ (.c 2)) ⊠ (.s 0)) ⊞ (((((.k 416 3) ⊠ (.c 3)) ⊞ (.k 112 3)) ⊠ (.s 2)) ⊠ (.c 0))) ⊠ (.s 1)) ⊞ ((((.k 178 3) ⊠ (.s 3)) ⊠ (.s 0)) ⊠ (.c 1))) ⊞ (((((.k 416 3) ⊠ (.c 3)) ⊞ (.k 112 3)) ⊠ (.c 2)) ⊠ (.s 0))) ⊞ ((((.k 178 3) ⊠ (.c 3)) ⊠ (.s 2)) ⊠ (.c 0))) ⊠ (.s 4)) ⊞ (((((((((.k 178 3) ⊠ (.s 2)) ⊠ (.s 0)) ⊞ (((((.neg (.k 112 3)) ⊠ (.c 3)) ⊟ (.k 416 3)) ⊠ (.c 2)) ⊠ (.c 0))) ⊠ (.s 1)) ⊟ ((((.k 112 3) ⊠ (.s 3)) ⊠ (.c 0)) ⊠ (.c 1))) ⊞ (((((.k 112 3) ⊠ (.c 3)) ⊞ (.k 416 3)) ⊠ (.s 2)) ⊠ (.s 0))) ⊟ (((.k 178 3) ⊠ (.c 2)) ⊠ (.c 0))) ⊠ (.c 4))⟩,
    ⟨3, 1, (((((((((((.k 416 3) ⊠ (.c 3)) ⊞ (.k 112 3)) ⊠ (.s 2)) ⊠ (.s 0)) ⊟ ((((.k 178 3) ⊠ (.c 3)) ⊠ (.c 2)) ⊠ (.c 0))) ⊠ (.s 1)) ⊟ ((((.k 178 3) ⊠ (.s 3)) ⊠ (.c 0)) ⊠ (.c 1))) ⊞ ((((.k 178 3) ⊠ (.c 3)) ⊠ (.s 2)) ⊠ (.s 0))) ⊞ (((((.neg (.k 416 3)) ⊠ (.c 3)) ⊟ (.k 112 3)) ⊠ (.c 2)) ⊠ (.c 0))) ⊠ (.s 4)) ⊞ (((((((((((.neg (.k 112 3)) ⊠ (.c 3)) ⊟ (.k 416 3)) ⊠ (.c 2)) ⊠ (.s 0)) ⊟ (((.k 178 3) ⊠ (.s 2)) ⊠ (.c 0))) ⊠ (.s 1)) ⊟ ((((.k 112 3) ⊠ (.s 3)) ⊠ (.s 0)) ⊠ (.c 1))) ⊟ (((.k 178 3) ⊠ (.c 2)) ⊠ (.s 0))) ⊞ (((((.neg (.k 112 3)) ⊠ (.c 3)) ⊟ (.k 416 3)) ⊠ (.s 2)) ⊠ (.c 0))) ⊠ (.c 4))⟩,
    ⟨3, 2, ((((((.neg (.k 416 3)) ⊠ (.c 3)) ⊟ (.k 112 3)) ⊠ (.s 2)) ⊠ (.c 1)) ⊠ (.s 4)) ⊞ (((((((.k 112 3) ⊠ (.c 3)) ⊞ (.k 416 3)) ⊠ (.c 2)) ⊠ (.c 1)) ⊟ (((.k 112 3) ⊠ (.s 3)) ⊠ (.s 1))) ⊠ (.c 4))⟩,
    ⟨3, 3, (((((((.neg (.c 3)) ⊠ (.c 2)) ⊠ (.c 0)) ⊠ (.s 1)) ⊟ (((.s 3) ⊠ (.c 0)) ⊠ (.c 1))) ⊞ (((.c 3) ⊠ (.s 2)) ⊠ (.s 0))) ⊠ (.s 4)) ⊞ (((((.neg (.s 2)) ⊠ (.c 0)) ⊠ (.s 1)) ⊟ ((.c 2) ⊠ (.s 0))) ⊠ (.c 4))⟩,
    ⟨3, 4, (((((((.neg (.c 3)) ⊠ (.c 2)) ⊠ (.s 0)) ⊠ (.s 1)) ⊟ (((.s 3) ⊠ (.s 0)) ⊠ (.c 1))) ⊟ (((.c 3) ⊠ (.s 2)) ⊠ (.c 0))) ⊠ (.s 4)) ⊞ ((((.c 2) ⊠ (.c 0)) ⊟ (((.s 2) ⊠ (.s 0)) ⊠ (.s 1))) ⊠ (.c 4))⟩,
    ⟨3, 5, ((((((.k 1 0) ⊠ (.c 3)) ⊠ (.c 2)) ⊠ (.c 1)) ⊟ ((.s 3) ⊠ (.s 1))) ⊠ (.s 4)) ⊞ (((.s 2) ⊠ (.c 1)) ⊠ (.c 4))⟩,
    ⟨4, 0, (((((((((((.k 112 3) ⊠ (.c 3)) ⊞ (.k 416 3)) ⊠ (.c 2)) ⊠ (.c 0)) ⊟ (((.k 178 3) ⊠ (.s 2)) ⊠ (.s 0))) ⊠ (.s 1)) ⊞ ((((.k 112 3) ⊠ (.s 3)) ⊠ (.c 0)) ⊠ (.c 1))) ⊞ (((((.neg (.k 112 3)) ⊠ (.c 3)) ⊟ (.k 416 3)) ⊠ (.s 2)) ⊠ (.s 0))) ⊞ (((.k 178 3) ⊠ (.c 2)) ⊠ (.c 0))) ⊠ (.s 4)) ⊞ ((((((((((.k 178 3) ⊠ (.c 3)) ⊠ (.c 2)) ⊠ (.s 0)) ⊞ (((((.k 416 3) ⊠ (.c 3)) ⊞ (.k 112 3)) ⊠ (.s 2)) ⊠ (.c 0))) ⊠ (.s 1)) ⊞ ((((.k 178 3) ⊠ (.s 3)) ⊠ (.s 0)) ⊠ (.c 1))) ⊞ (((((.k 416 3) ⊠ (.c 3)) ⊞ (.k 112 3)) ⊠ (.c 2)) ⊠ (.s 0))) ⊞ ((((.k 178 3) ⊠ (.c 3)) ⊠ (.s 2)) ⊠ (.c 0))) ⊠ (.c 4))⟩,
    ⟨4, 1, (((((((((((.k 112 3) ⊠ (.c 3)) ⊞ (.k 416 3)) ⊠ (.c 2)) ⊠ (.s 0)) ⊞ (((.k 178 3) ⊠ (.s 2)) ⊠ (.c 0))) ⊠ (.s 1)) ⊞ ((((.k 112 3) ⊠ (.s 3)) ⊠ (.s 0)) ⊠ (.c 1))) ⊞ (((.k 178 3) ⊠ (.c 2)) ⊠ (.s 0))) ⊞ (((((.k 112 3) ⊠ (.c 3)) ⊞ (.k 416 3)) ⊠ (.s 2)) ⊠ (.c 0))) ⊠ (.s 4)) ⊞ (((((((((((.k 416 3) ⊠ (.c 3)) ⊞ (.k 112 3)) ⊠ (.s 2)) ⊠ (.s 0)) ⊟ ((((.k 178 3) ⊠ (.c 3)) ⊠ (.c 2)) ⊠ (.c 0))) ⊠ (.s 1)) ⊟ ((((.k 178 3) ⊠ (.s 3)) ⊠ (.c 0)) ⊠ (.c 1))) ⊞ ((((.k 178 3) ⊠ (.c 3)) ⊠ (.s 2)) ⊠ (.s 0))) ⊞ (((((.neg (.k 416 3)) ⊠ (.c 3)) ⊟ (.k 112 3)) ⊠ (.c 2)) ⊠ (.c 0))) ⊠ (.c 4))⟩,
    ⟨4, 2, (((((.k 112 3) ⊠ (.s 3)) ⊠ (.s 1)) ⊞ (((((.neg (.k 112 3)) ⊠ (.c 3)) ⊟ (.k 416 3)) ⊠ (.c 2)) ⊠ (.c 1))) ⊠ (.s 4)) ⊞ ((((((.neg (.k 416 3)) ⊠ (.c 3)) ⊟ (.k 112 3)) ⊠ (.s 2)) ⊠ (.c 1)) ⊠ (.c 4))⟩,
    ⟨4, 3, (((((.s 2) ⊠ (.c 0)) ⊠ (.s 1)) ⊞ ((.c 2) ⊠ (.s 0))) ⊠ (.s 4)) ⊞ (((((((.neg (.c 3)) ⊠ (.c 2)) ⊠ (.c 0)) ⊠ (.s 1)) ⊟ (((.s 3) ⊠ (.c 0)) ⊠ (.c 1))) ⊞ (((.c 3) ⊠ (.s 2)) ⊠ (.s 0))) ⊠ (.c 4))⟩,
    ⟨4, 4, (((((.s 2) ⊠ (.s 0)) ⊠ (.s 1)) ⊟ ((.c 2) ⊠ (.c 0))) ⊠ (.s 4)) ⊞ (((((((.neg (.c 3)) ⊠ (.c 2)) ⊠ (.s 0)) ⊠ (.s 1)) ⊟ (((.s 3) ⊠ (.s 0)) ⊠ (.c 1))) ⊟ (((.c 3) ⊠ (.s 2)) ⊠ (.c 0))) ⊠ (.c 4))⟩,
    ⟨4, 5, ((((((.k 1 0) ⊠ (.c 3)) ⊠ (.c 2)) ⊠ (.c 1)) ⊟ ((.s 3) ⊠ (.s 1))) ⊠ (.c 4)) ⊟ (((.s 2) ⊠ (.c 1)) ⊠ (.s 4))⟩,
    ⟨5, 0, ((((((((.k 178 3) ⊠ (.s 3)) ⊠ (.c 2)) ⊠ (.s 0)) ⊞ ((((.k 416 3) ⊠ (.s 3)) ⊠ (.s 2)) ⊠ (.c 0))) ⊠ (.s 1)) ⊟ ((((.k 178 3) ⊠ (.c 3)) ⊠ (.s 0)) ⊠ (.c 1))) ⊞ ((((.k 416 3) ⊠ (.s 3)) ⊠ (.c 2)) ⊠ (.s 0))) ⊞ ((((.k 178 3) ⊠ (.s 3)) ⊠ (.s 2)) ⊠ (.c 0))⟩,
    ⟨5, 1, ((((((((.k 416 3) ⊠ (.s 3)) ⊠ (.s 2)) ⊠ (.s 0)) ⊟ ((((.k 178 3) ⊠ (.s 3)) ⊠ (.c 2)) ⊠ (.c 0))) ⊠ (.s 1)) ⊞ ((((.k 178 3) ⊠ (.c 3)) ⊠ (.c 0)) ⊠ (.c 1))) ⊞ ((((.k 178 3) ⊠ (.s 3)) ⊠ (.s 2)) ⊠ (.s 0))) ⊟ ((((.k 416 3) ⊠ (.s 3)) ⊠ (.c 2)) ⊠ (.c 0))⟩,
    ⟨5, 2, (((.neg (.k 416 3)) ⊠ (.s 3)) ⊠ (.s 2)) ⊠ (.c 1)⟩,
    ⟨5, 3, (((((.neg (.s 3)) ⊠ (.c 2)) ⊠ (.c 0)) ⊠ (.s 1)) ⊞ (((.c 3) ⊠ (.c 0)) ⊠ (.c 1))) ⊞ (((.s 3) ⊠ (.s 2)) ⊠ (.s 0))⟩,
    ⟨5, 4, (((((.neg (.s 3)) ⊠ (.c 2)) ⊠ (.s 0)) ⊠ (.s 1)) ⊞ (((.c 3) ⊠ (.s 0)) ⊠ (.c 1))) ⊟ (((.s 3) ⊠ (.s 2)) ⊠ (.c 0))⟩,
    ⟨5, 5, ((.c 3) ⊠ (.s 1)) ⊞ (((.s 3) ⊠ (.c 2)) ⊠ (.c 1))⟩]

/-- `ForceTransforms::Type_fr_Wrist_R_X_fr_HyABase` (transforms.impl.h:4894-4905, 4907-4958). -/
def force_fr_Wrist_R_X_fr_HyABase : Gen where
  rows := 6
  cols := 6
  ctor := [⟨3, 0, .k 0 0⟩,
    ⟨3, 1, .k 0 0⟩,
    ⟨3, 2, .k 0 0⟩,
    ⟨4, 0, .k 0 0⟩,
    ⟨4, 1, .k 0 0⟩,
    ⟨4, 2, .k 0 0⟩,
    ⟨5, 0, .k 0 0⟩,
    ⟨5, 1, .k 0 0⟩,
    ⟨5, 2, .k 0 0⟩]
  upd := [⟨0, 0, (((((((.neg (.c 3)) ⊠ (.c 2)) ⊠ (.c 0)) ⊠ (.s 1)) ⊟ (((.s 3) ⊠ (.c 0)) ⊠ (.c 1))) ⊞ (((.c 3) ⊠ (.s 2)) ⊠ (.s 0))) ⊠ (.s 4)) ⊞ (((((.neg (.s 2)) ⊠ (.c 0)) ⊠ (.s 1)) ⊟ ((.c 2) ⊠ (.s 0))) ⊠ (.c 4))⟩,
    ⟨0, 1, (((((((.neg (.c 3)) ⊠ (.c 2)) ⊠ (.s 0)) ⊠ (.s 1)) ⊟ (((.s 3) ⊠ (.s 0)) ⊠ (.c 1))) ⊟ (((.c 3) ⊠ (.s 2)) ⊠ (.c 0))) ⊠ (.s 4)) ⊞ ((((.c 2) ⊠ (.c 0)) ⊟ (((.s 2) ⊠ (.s 0)) ⊠ (.s 1))) ⊠ (.c 4))⟩,
    ⟨0, 2, ((((((.k 1 0) ⊠ (.c 3)) ⊠ (.c 2)) ⊠ (.c 1)) ⊟ ((.s 3) ⊠ (.s 1))) ⊠ (.s 4)) ⊞ (((.s 2) ⊠ (.c 1)) ⊠ (.c 4))⟩,
    ⟨0, 3, ((((((((((.k 178 3) ⊠ (.c 3)) ⊠ (.c 2)) ⊠ (.s 0)) ⊞ (((((.k 416 3) ⊠ (.c 3)) ⊞ (.k 112 3)) ⊠ (.s 2)) ⊠ (.c 0))) ⊠ (.s 1)) ⊞ ((((.k 178 3) ⊠ (.s 3)) ⊠ (.s 0)) ⊠ (.c 1))) ⊞ (((((.k 416 3) ⊠ (.c 3)) ⊞ (.k 112 3)) ⊠ (.c 2)) ⊠ (.s 0))) ⊞ ((((.k 178 3) ⊠ (.c 3)) ⊠ (.s 2)) ⊠ (.c 0))) ⊠ (.s 4)) ⊞ (((((((((.k 178 3) ⊠ (.s 2)) ⊠ (.s 0)) ⊞ (((((.neg (.k 112 3)) ⊠ (.c 3)) ⊟ (.k 416 3)) ⊠ (.c 2)) ⊠ (.c 0))) ⊠ (.s 1)) ⊟ ((((.k 112 3) ⊠ (.s 3)) ⊠ (.c 0)) ⊠ (.c 1))) ⊞ (((((.k 112 3) ⊠ (.c 3)) ⊞ (.k 416 3)) ⊠ (.s 2)) ⊠ (.s 0))) ⊟ (((.k 178 3) ⊠ (.c 2)) ⊠ (.c 0))) ⊠ (.c 4))⟩,
    ⟨0, 4, (((((((((((.k 416 3) ⊠ (.c 3)) ⊞ (.k 112 3)) ⊠ (.s 2)) ⊠ (.s 0)) ⊟ ((((.k 178 3) ⊠ (.c 3)) ⊠ (.c 2)) ⊠ (.c 0))) ⊠ (.s 1)) ⊟ ((((.k 178 3) ⊠ (.s 3)) ⊠ (.c 0)) ⊠ (.c 1))) ⊞ ((((.k 178 3) ⊠ (.c 3)) ⊠ (.s 2)) ⊠ (.s 0))) ⊞ (((((.neg (.k 416 3)) ⊠ (.c 3)) ⊟ (.k 112 3)) ⊠ (.c 2)) ⊠ (.c 0))) ⊠ (.s 4)) ⊞ (((((((((((.neg (.k 112 3)) ⊠ (.c 3)) ⊟ (.k 416 3)) ⊠ (.c 2)) ⊠ (.s 0)) ⊟ (((.k 178 3) ⊠ (.s 2)) ⊠ (.c 0))) ⊠ (.s 1)) ⊟ ((((.k 112 3) ⊠ (.s 3)) ⊠ (.s 0)) ⊠ (.c 1))) ⊟ (((.k 178 3) ⊠ (.c 2)) ⊠ (.s 0))) ⊞ (((((.neg (.k 112 3)) ⊠ (.c 3)) ⊟ (.k 416 3)) ⊠ (.s 2)) ⊠ (.c 0))) ⊠ (.c 4))⟩,
    ⟨0, 5, ((((((.neg (.k 416 3)) ⊠ (.c 3)) ⊟ (.k 112 3)) ⊠ (.s 2)) ⊠ (.c 1)) ⊠ (.s 4)) ⊞ (((((((.k 112 3) ⊠ (.c 3)) ⊞ (.k 416 3)) ⊠ (.c 2)) ⊠ (.c 1)) ⊟ (((.k 112 3) ⊠ (.s 3)) ⊠ (.s 1))) ⊠ (.c 4))⟩,
    ⟨1, 0, (((((.s 2) ⊠ (.c 0)) ⊠ (.s 1)) ⊞ ((.c 2) ⊠ (.s 0))) ⊠ (.s 4)) ⊞ (((((((.neg (.c 3)) ⊠ (.c 2)) ⊠ (.c 0)) ⊠ (.s 1)) ⊟ (((.s 3) ⊠ (.c 0)) ⊠ (.c 1))) ⊞ (((.c 3) ⊠ (.s 2)) ⊠ (.s 0))) ⊠ (.c 4))⟩,
    ⟨1, 1, (((((.s 2) ⊠ (.s 0)) ⊠ (.s 1)) ⊟ ((.c 2) ⊠ (.c 0))) ⊠ (.s 4)) ⊞ (((((((.neg (.c 3)) ⊠ (.c 2)) ⊠ (.s 0)) ⊠ (.s 1)) ⊟ (((.s 3) ⊠ (.s 0)) ⊠ (.c 1))) ⊟ (((.c 3) ⊠ (.s 2)) ⊠ (.c 0))) ⊠ (.c 4))⟩,
    ⟨1, 2, ((((((.k 1 0) ⊠ (.c 3)) ⊠ (.c 2)) ⊠ (.c 1)) ⊟ ((.s 3) ⊠ (.s 1))) ⊠ (.c 4)) ⊟ (((.s 2) ⊠ (.c 1)) ⊠ (.s 4))⟩,
    ⟨1, 3, (((((((((((.k 112 3) ⊠ (.c 3)) ⊞ (.k 416 3)) ⊠ (.c 2)) ⊠ (.c 0)) ⊟ (((.k 178 3) ⊠ (.s 2)) ⊠ (.s 0))) ⊠ (.s 1)) ⊞ ((((.k 112 3) ⊠ (.s 3)) ⊠ (.c 0)) ⊠ (.c 1))) ⊞ (((((.neg (.k 112 3)) ⊠ (.c 3)) ⊟ (.k 416 3)) ⊠ (.s 2)) ⊠ (.s 0))) ⊞ (((.k 178 3) ⊠ (.c 2)) ⊠ (.c 0))) ⊠ (.s 4)) ⊞ ((((((((((.k 178 3) ⊠ (.c 3)) ⊠ (.c 2)) ⊠ (.s 0)) ⊞ (((((.k 416 3) ⊠ (.c 3)) ⊞ (.k 112 3)) ⊠ (.s 2)) ⊠ (.c 0))) ⊠ (.s 1)) ⊞ ((((.k 178 3) ⊠ (.s 3)) ⊠ (.s 0)) ⊠ (.c 1))) ⊞ (((((.k 416 3) ⊠ (.c 3)) ⊞ (.k 112 3)) ⊠ (.c 2)) ⊠ (.s 0))) ⊞ ((((.k 178 3) ⊠ (.c 3)) ⊠ (.s 2)) ⊠ (.c 0))) ⊠ (.c 4))⟩,
    ⟨1, 4, (((((((((((.k 112 3) ⊠ (.c 3)) ⊞ (.k 416 3)) ⊠ (.c 2)) ⊠ (.s 0)) ⊞ (((.k 178 3) ⊠ (.s 2)) ⊠ (.c 0))) ⊠ (.s 1)) ⊞ ((((.k 112 3) ⊠ (.s 3)) ⊠ (.s 0)) ⊠ (.c 1))) ⊞ (((.k 178 3) ⊠ (.c 2)) ⊠ (.s 0))) ⊞ (((((.k 112 3) ⊠ (.c 3)) ⊞ (.k 416 3)) ⊠ (.s 2)) ⊠ (.c 0))) ⊠ (.s 4)) ⊞ (((((((((((.k 416 3) ⊠ (.c 3)) ⊞ (.k 112 3)) ⊠ (.s 2)) ⊠ (.s 0)) ⊟ ((((.k 178 3) ⊠ (.c 3)) ⊠ (.c 2)) ⊠ (.c 0))) ⊠ (.s 1)) ⊟ ((((.k 178 3) ⊠ (.s 3)) ⊠ (.c 0)) ⊠ (.c 1))) ⊞ ((((.k 178 3) ⊠ (.c 3)) ⊠ (.s 2)) ⊠ (.s 0))) ⊞ (((((.neg (.k 416 3)) ⊠ (.c 3)) ⊟ (.k 112 3)) ⊠ (.c 2)) ⊠ (.c 0))) ⊠ (.c 4))⟩,
    ⟨1, 5, (((((.k 112 3) ⊠ (.s 3)) ⊠ (.s 1)) ⊞ (((((.neg (.k 112 3)) ⊠ (.c 3)) ⊟ (.k 416 3)) ⊠ (.c 2)) ⊠ (.c 1))) ⊠ (.s 4)) ⊞ ((((((.neg (.k 416 3)) ⊠ (.c 3)) ⊟ (.k 112 3)) ⊠ (.s 2)) ⊠ (.c 1)) ⊠ (.c 4))⟩,
    ⟨2, 0, (((((.neg (.s 3)) ⊠ (.c 2)) ⊠ (.c 0)) ⊠ (.s 1)) ⊞ (((.c 3) ⊠ (.c 0)) ⊠ (.c 1))) ⊞ (((.s 3) ⊠ (.s 2)) ⊠ (.s 0))⟩,
    ⟨2, 1, (((((.neg (.s 3)) ⊠ (.c 2)) ⊠ (.s 0)) ⊠ (.s 1)) ⊞ (((.c 3) ⊠ (.s 0)) ⊠ (.c 1))) ⊟ (((.s 3) ⊠ (.s 2)) ⊠ (.c 0))⟩,
    ⟨2, 2, ((.c 3) ⊠ (.s 1)) ⊞ (((.s 3) ⊠ (.c 2)) ⊠ (.c 1))⟩,
    ⟨2, 3, ((((((((.k 178 3) ⊠ (.s 3)) ⊠ (.c 2)) ⊠ (.s 0)) ⊞ ((((.k 416 3) ⊠ (.s 3)) ⊠ (.s 2)) ⊠ (.c 0))) ⊠ (.s 1)) ⊟ ((((.k 178 3) ⊠ (.c 3)) ⊠ (.s 0)) ⊠ (.c 1))) ⊞ ((((.k 416 3) ⊠ (.s 3)) ⊠ (.c 2)) ⊠ (.s 0))) ⊞ ((((.k 178 3) ⊠ (.s 3)) ⊠ (.s 2)) ⊠ (.c 0))⟩,
    ⟨2, 4, ((((((((.k 416 3) ⊠ (.s 3)) ⊠ (.s 2)) ⊠ (.s 0)) ⊟ ((((.k 178 3) ⊠ (.s 3)) ⊠ (.c 2)) ⊠ (.c 0))) ⊠ (.s 1)) ⊞ ((((.k 178 3) ⊠ (.c 3)) ⊠ (.c 0)) ⊠ (.c 1))) ⊞ ((((.k 178 3) ⊠ (.s 3)) ⊠ (.s 2)) ⊠ (.s 0))) ⊟ ((((.k 416 3) ⊠ (.s 3)) ⊠ (.c 2)) ⊠ (.c 0))⟩,
    ⟨2, 5, (((.neg (.k 416 3)) ⊠ (.s 3)) ⊠ (.s 2)) ⊠ (.c 1)⟩,
    ⟨3, 3, (((((((.neg (.c 3)) ⊠ (.c 2)) ⊠ (.c 0)) ⊠ (.s 1)) ⊟ (((.s 3) ⊠ (.c 0)) ⊠ (.c 1))) ⊞ (((.c 3) ⊠ (.s 2)) ⊠ (.s 0))) ⊠ (.s 4)) ⊞ (((((.neg (.s 2)) ⊠ (.c 0)) ⊠ (.s 1)) ⊟ ((.c 2) ⊠ (.s 0))) ⊠ (.c 4))⟩,
    ⟨3, 4, (((((((.neg (.c 3)) ⊠ (.c 2)) ⊠ (.s 0)) ⊠ (.s 1)) ⊟ (((.s 3) ⊠ (.s 0)) ⊠ (.c 1))) ⊟ (((.c 3) ⊠ (.s 2)) ⊠ (.c 0))) ⊠ (.s 4)) ⊞ ((((.c 2) ⊠ (.c 0)) ⊟ (((.s 2) ⊠ (.s 0)) ⊠ (.s 1))) ⊠ (.c 4))⟩,
    ⟨3, 5, ((((((.k 1 0) ⊠ (.c 3)) ⊠ (.c 2)) ⊠ (.c 1)) ⊟ ((.s 3) ⊠ (.s 1))) ⊠ (.s 4)) ⊞ (((.s 2) ⊠ (.c 1)) ⊠ (.c 4))⟩,
    ⟨4, 3, (((((.s 2) ⊠ (.c 0)) ⊠ (.s 1)) ⊞ ((.c 2) ⊠ (.s 0))) ⊠ (.s 4)) ⊞ (((((((.neg (.c 3)) ⊠ (.c 2)) ⊠ (.c 0)) ⊠ (.s 1)) ⊟ (((.s 3) ⊠ (.c 0)) ⊠ (.c 1))) ⊞ (((.c 3) ⊠ (.s 2)) ⊠ (.s 0))) ⊠ (.c 4))⟩,
    ⟨4, 4, (((((.s 2) ⊠ (.s 0)) ⊠ (.s 1)) ⊟ ((.c 2) ⊠ (.c 0))) ⊠ (.s 4)) ⊞ (((((((.neg (.c 3)) ⊠ (.c 2)) ⊠ (.s 0)) ⊠ (.s 1)) ⊟ (((.s 3) ⊠ (.s 0)) ⊠ (.c 1))) ⊟ (((.c 3) ⊠ (.s 2)) ⊠ (.c 0))) ⊠ (.c 4))⟩,
    ⟨4, 5, ((((((.k 1 0) ⊠ (.c 3)) ⊠ (.c 2)) ⊠ (.c 1)) ⊟ ((.s 3) ⊠ (.s 1))) ⊠ (.c 4)) ⊟ (((.s 2) ⊠ (.c 1)) ⊠ (.s 4))⟩,
    ⟨5, 3, (((((.neg (.s 3)) ⊠ (.c 2)) ⊠ (.c 0)) ⊠ (.s 1)) ⊞ (((.c 3) ⊠ (.c 0)) ⊠ (.c 1))) ⊞ (((.s 3) ⊠ (.s 2)) ⊠ (.s 0))⟩,
    ⟨5, 4, (((((.neg (.s 3)) ⊠ (.c 2)) ⊠ (.s 0)) ⊠ (.s 1)) ⊞ (((.c 3) ⊠ (.s 0)) ⊠ (.c 1))) ⊟ (((.s 3) ⊠ (.s 2)) ⊠ (.c 0))⟩,
    ⟨5, 5, ((.c 3) ⊠ (.s 1)) ⊞ (((.s 3) ⊠ (.c 2)) ⊠ (.c 1))⟩]

/-- The transforms `fr_Wrist_R_X_fr_HyABase`. -/
def fr_Wrist_R_X_fr_HyABase : Trans := ⟨fr_Wrist_R, fr_HyABase, hom_fr_Wrist_R_X_fr_HyABase, motion_fr_Wrist_R_X_fr_HyABase, force_fr_Wrist_R_X_fr_HyABase⟩

/-- `HomogeneousTransforms::Type_fr_Wrist_FE_X_fr_HyABase` (transforms.impl.h:7149-7155, 7157-7197). -/
def hom_fr_Wrist_FE_X_fr_HyABase : Gen where
  rows := 4
  cols := 4
  ctor := [⟨3, 0, .k 0 0⟩,
    ⟨3, 1, .k 0 0⟩,
    ⟨3, 2, .k 0 0⟩,
    ⟨3, 3, .k 1 0⟩]
  upd := [⟨0, 0, (((((((((.neg (.c 3)) ⊠ (.c 2)) ⊠ (.c 0)) ⊠ (.s 1)) ⊟ (((.s 3) ⊠ (.c 0)) ⊠ (.c 1))) ⊞ (((.c 3) ⊠ (.s 2)) ⊠ (.s 0))) ⊠ (.s 5)) ⊠ (.s 4)) ⊞ ((((((.neg (.s 2)) ⊠ (.c 0)) ⊠ (.s 1)) ⊟ ((.c 2) ⊠ (.s 0))) ⊠ (.s 5)) ⊠ (.c 4))) ⊞ (((((((.neg (.s 3)) ⊠ (.c 2)) ⊠ (.c 0)) ⊠ (.s 1)) ⊞ (((.c 3) ⊠ (.c 0)) ⊠ (.c 1))) ⊞ (((.s 3) ⊠ (.s 2)) ⊠ (.s 0))) ⊠ (.c 5))⟩,
    ⟨0, 1, (((((((((.neg (.c 3)) ⊠ (.c 2)) ⊠ (.s 0)) ⊠ (.s 1)) ⊟ (((.s 3) ⊠ (.s 0)) ⊠ (.c 1))) ⊟ (((.c 3) ⊠ (.s 2)) ⊠ (.c 0))) ⊠ (.s 5)) ⊠ (.s 4)) ⊞ (((((.c 2) ⊠ (.c 0)) ⊟ (((.s 2) ⊠ (.s 0)) ⊠ (.s 1))) ⊠ (.s 5)) ⊠ (.c 4))) ⊞ (((((((.neg (.s 3)) ⊠ (.c 2)) ⊠ (.s 0)) ⊠ (.s 1)) ⊞ (((.c 3) ⊠ (.s 0)) ⊠ (.c 1))) ⊟ (((.s 3) ⊠ (.s 2)) ⊠ (.c 0))) ⊠ (.c 5))⟩,
    ⟨0, 2, ((((((((.k 1 0) ⊠ (.c 3)) ⊠ (.c 2)) ⊠ (.c 1)) ⊟ ((.s 3) ⊠ (.s 1))) ⊠ (.s 5)) ⊠ (.s 4)) ⊞ ((((.s 2) ⊠ (.c 1)) ⊠ (.s 5)) ⊠ (.c 4))) ⊞ (((((.k 1 0) ⊠ (.c 3)) ⊠ (.s 1)) ⊞ (((.s 3) ⊠ (.c 2)) ⊠ (.c 1))) ⊠ (.c 5))⟩,
    ⟨0, 3, (((((((((.k 178 3) ⊠ (.s 3)) ⊠ (.s 1)) ⊟ ((((.k 178 3) ⊠ (.c 3)) ⊠ (.c 2)) ⊠ (.c 1))) ⊞ ((.k 416 3) ⊠ (.s 3))) ⊠ (.s 5)) ⊠ (.s 4)) ⊟ (((((.k 178 3) ⊠ (.s 2)) ⊠ (.c 1)) ⊠ (.s 5)) ⊠ (.c 4))) ⊟ ((.k 2075 5) ⊠ (.s 5))) ⊞ (((((((.neg (.k 178 3)) ⊠ (.c 3)) ⊠ (.s 1)) ⊟ ((((.k 178 3) ⊠ (.s 3)) ⊠ (.c 2)) ⊠ (.c 1))) ⊟ ((.k 416 3) ⊠ (.c 3))) ⊟ (.k 296 3)) ⊠ (.c 5))⟩,
    ⟨1, 0, (((((((((.neg (.c 3)) ⊠ (.c 2)) ⊠ (.c 0)) ⊠ (.s 1)) ⊟ (((.s 3) ⊠ (.c 0)) ⊠ (.c 1))) ⊞ (((.c 3) ⊠ (.s 2)) ⊠ (.s 0))) ⊠ (.c 5)) ⊠ (.s 4)) ⊞ ((((((.neg (.s 2)) ⊠ (.c 0)) ⊠ (.s 1)) ⊟ ((.c 2) ⊠ (.s 0))) ⊠ (.c 5)) ⊠ (.c 4))) ⊞ (((((((.s 3) ⊠ (.c 2)) ⊠ (.c 0)) ⊠ (.s 1)) ⊟ (((.c 3) ⊠ (.c 0)) ⊠ (.c 1))) ⊟ (((.s 3) ⊠ (.s 2)) ⊠ (.s 0))) ⊠ (.s 5))⟩,
    ⟨1, 1, (((((((((.neg (.c 3)) ⊠ (.c 2)) ⊠ (.s 0)) ⊠ (.s 1)) ⊟ (((.s 3) ⊠ (.s 0)) ⊠ (.c 1))) ⊟ (((.c 3) ⊠ (.s 2)) ⊠ (.c 0))) ⊠ (.c 5)) ⊠ (.s 4)) ⊞ (((((.c 2) ⊠ (.c 0)) ⊟ (((.s 2) ⊠ (.s 0)) ⊠ (.s 1))) ⊠ (.c 5)) ⊠ (.c 4))) ⊞ (((((((.s 3) ⊠ (.c 2)) ⊠ (.s 0)) ⊠ (.s 1)) ⊟ (((.c 3) ⊠ (.s 0)) ⊠ (.c 1))) ⊞ (((.s 3) ⊠ (.s 2)) ⊠ (.c 0))) ⊠ (.s 5))⟩,
    ⟨1, 2, ((((((((.k 1 0) ⊠ (.c 3)) ⊠ (.c 2)) ⊠ (.c 1)) ⊟ ((.s 3) ⊠ (.s 1))) ⊠ (.c 5)) ⊠ (.s 4)) ⊞ ((((.s 2) ⊠ (.c 1)) ⊠ (.c 5)) ⊠ (.c 4))) ⊞ ((((.neg (.c 3)) ⊠ (.s 1)) ⊟ (((.s 3) ⊠ (.c 2)) ⊠ (.c 1))) ⊠ (.s 5))⟩,
    ⟨1, 3, (((((((((.k 178 3) ⊠ (.s 3)) ⊠ (.s 1)) ⊟ ((((.k 178 3) ⊠ (.c 3)) ⊠ (.c 2)) ⊠ (.c 1))) ⊞ ((.k 416 3) ⊠ (.s 3))) ⊠ (.c 5)) ⊠ (.s 4)) ⊟ (((((.k 178 3) ⊠ (.s 2)) ⊠ (.c 1)) ⊠ (.c 5)) ⊠ (.c 4))) ⊞ (((((((.k 178 3) ⊠ (.c 3)) ⊠ (.s 1)) ⊞ ((((.k 178 3) ⊠ (.s 3)) ⊠ (.c 2)) ⊠ (.c 1))) ⊞ ((.k 416 3) ⊠ (.c 3))) ⊞ (.k 296 3)) ⊠ (.s 5))) ⊟ ((.k 2075 5) ⊠ (.c 5))⟩,
    ⟨2, 0, (((((.s 2) ⊠ (.c 0)) ⊠ (.s 1)) ⊞ ((.c 2) ⊠ (.s 0))) ⊠ (.s 4)) ⊞ (((((((.neg (.c 3)) ⊠ (.c 2)) ⊠ (.c 0)) ⊠ (.s 1)) ⊟ (((.s 3) ⊠ (.c 0)) ⊠ (.c 1))) ⊞ (((.c 3) ⊠ (.s 2)) ⊠ (.s 0))) ⊠ (.c 4))⟩,
    ⟨2, 1, (((((.s 2) ⊠ (.s 0)) ⊠ (.s 1)) ⊟ ((.c 2) ⊠ (.c 0))) ⊠ (.s 4)) ⊞ (((((((.neg (.c 3)) ⊠ (.c 2)) ⊠ (.s 0)) ⊠ (.s 1)) ⊟ (((.s 3) ⊠ (.s 0)) ⊠ (.c 1))) ⊟ (((.c 3) ⊠ (.s 2)) ⊠ (.c 0))) ⊠ (.c 4))⟩,
    ⟨2, 2, ((((((.k 1 0) ⊠ (.c 3)) ⊠ (.c 2)) ⊠ (.c 1)) ⊟ ((.s 3) ⊠ (.s 1))) ⊠ (.c 4)) ⊟ (((.s 2) ⊠ (.c 1)) ⊠ (.s 4))⟩,
    ⟨2, 3, ((((.k 178 3) ⊠ (.s 2)) ⊠ (.c 1)) ⊠ (.s 4)) ⊞ ((((((.k 178 3) ⊠ (.s 3)) ⊠ (.s 1)) ⊟ ((((.k 178 3) ⊠ (.c 3)) ⊠ (.c 2)) ⊠ (.c 1))) ⊞ ((.k 416 3) ⊠ (.s 3))) ⊠ (.c 4))⟩]

/-- `MotionTransforms::Type_fr_Wrist_FE_X_fr_HyABase` (transforms.impl.h:2111-2122, 2124-2179). -/
def motion_fr_Wrist_FE_X_fr_HyABase : Gen where
  rows := 6
  cols := 6
  ctor := [⟨0, 3, .k 0 0⟩,
    ⟨0, 4, .k 0 0⟩,
    ⟨0, 5, .k 0 0⟩,
    ⟨1, 3, .k 0 0⟩,
    ⟨1, 4, .k 0 0⟩,
    ⟨1, 5, .k 0 0⟩,
    ⟨2, 3, .k 0 0⟩,
    ⟨2, 4, .k 0 0⟩,
    ⟨2, 5, .k 0 0⟩]
  upd := [⟨0, 0, (((((((((.neg (.c 3)) ⊠ (.c 2)) ⊠ (.c 0)) ⊠ (.s 1)) ⊟ (((.s 3) ⊠ (.c 0)) ⊠ (.c 1))) ⊞ (((.c 3) ⊠ (.s 2)) ⊠ (.s 0))) ⊠ (.s 5)) ⊠ (.s 4)) ⊞ ((((((.neg (.s 2)) ⊠ (.c 0)) ⊠ (.s 1)) ⊟ ((.c 2) ⊠ (.s 0))) ⊠ (.s 5)) ⊠ (.c 4))) ⊞ (((((((.neg (.s 3)) ⊠ (.c 2)) ⊠ (.c 0)) ⊠ (.s 1)) ⊞ (((.c 3) ⊠ (.c 0)) ⊠ (.c 1))) ⊞ (((.s 3) ⊠ (.s 2)) ⊠ (.s 0))) ⊠ (.c 5))⟩,
    ⟨0, 1, (((((((((.neg (.c 3)) ⊠ (.c 2)) ⊠ (.s 0)) ⊠ (.s 1)) ⊟ (((.s 3) ⊠ (.s 0)) ⊠ (.c 1))) ⊟ (((.c 3) ⊠ (.s 2)) ⊠ (.c 0))) ⊠ (.s 5)) ⊠ (.s 4)) ⊞ (((((.c 2) ⊠ (.c 0)) ⊟ (((.s 2) ⊠ (.s 0)) ⊠ (.s 1))) ⊠ (.s 5)) ⊠ (.c 4))) ⊞ (((((((.neg (.s 3)) ⊠ (.c 2)) ⊠ (.s 0)) ⊠ (.s 1)) ⊞ (((.c 3) ⊠ (.s 0)) ⊠ (.c 1))) ⊟ (((.s 3) ⊠ (.s 2)) ⊠ (.c 0))) ⊠ (.c 5))⟩,
    ⟨0, 2, ((((((((.k 1 0) ⊠ (.c 3)) ⊠ (.c 2)) ⊠ (.c 1)) ⊟ ((.s 3) ⊠ (.s 1))) ⊠ (.s 5)) ⊠ (.s 4)) ⊞ ((((.s 2) ⊠ (.c 1)) ⊠ (.s 5)) ⊠ (.c 4))) ⊞ (((((.k 1 0) ⊠ (.c 3)) ⊠ (.s 1)) ⊞ (((.s 3) ⊠ (.c 2)) ⊠ (.c 1))) ⊠ (.c 5))⟩,
    ⟨1, 0, (((((((((.neg (.c 3)) ⊠ (.c 2)) ⊠ (.c 0)) ⊠ (.s 1)) ⊟ (((.s 3) ⊠ (.c 0)) ⊠ (.c 1))) ⊞ (((.c 3) ⊠ (.s 2)) ⊠ (.s 0))) ⊠ (.c 5)) ⊠ (.s 4)) ⊞ ((((((.neg (.s 2)) ⊠ (.c 0)) ⊠ (.s 1)) ⊟ ((.c 2) ⊠ (.s 0))) ⊠ (.c 5)) ⊠ (.c 4))) ⊞ (((((((.s 3) ⊠ (.c 2)) ⊠ (.c 0)) ⊠ (.s 1)) ⊟ (((.c 3) ⊠ (.c 0)) ⊠ (.c 1))) ⊟ (((.s 3) ⊠ (.s 2)) ⊠ (.s 0))) ⊠ (.s 5))⟩,
    ⟨1, 1, (((((((((.neg (.c 3)) ⊠ (.c 2)) ⊠ (.s 0)) ⊠ (.s 1)) ⊟ (((.s 3) ⊠ (.s 0)) ⊠ (.c 1))) ⊟ (((.c 3) ⊠ (.s 2)) ⊠ (.c 0))) ⊠ (.c 5)) ⊠ (.s 4)) ⊞ (((((.c 2) ⊠ (.c 0)) ⊟ (((.s 2) ⊠ (.s 0)) ⊠ (.s 1))) ⊠ (.c 5)) ⊠ (.c 4))) ⊞ (((((((.s 3) ⊠ (.c 2)) ⊠ (.s 0)) ⊠ (.s 1)) ⊟ (((.c 3) ⊠ (.s 0)) ⊠ (.c 1))) ⊞ (((.s 3) ⊠ (.s 2)) ⊠ (.c 0))) ⊠ (.s 5))⟩,
    ⟨1, 2, ((((((((.k 1 0) ⊠ (.c 3)) ⊠ (.c 2)) ⊠ (.c 1)) ⊟ ((.s 3) ⊠ (.s 1))) ⊠ (.c 5)) ⊠ (.s 4)) ⊞ ((((.s 2) ⊠ (.c 1)) ⊠ (.c 5)) ⊠ (.c 4))) ⊞ ((((.neg (.c 3)) ⊠ (.s 1)) ⊟ (((.s 3) ⊠ (.c 2)) ⊠ (.c 1))) ⊠ (.s 5))⟩,
    ⟨2, 0, (((((.s 2) ⊠ (.c 0)) ⊠ (.s 1)) ⊞ ((.c 2) ⊠ (.s 0))) ⊠ (.s 4)) ⊞ (((((((.neg (.c 3)) ⊠ (.c 2)) ⊠ (.c 0)) ⊠ (.s 1)) ⊟ (((.s 3) ⊠ (.c 0)) ⊠ (.c 1))) ⊞ (((.c 3) ⊠ (.s 2)) ⊠ (.s 0))) ⊠ (.c 4))⟩,
    ⟨2, 1, (((((.s 2) ⊠ (.s 0)) ⊠ (.s 1)) ⊟ ((.c 2) ⊠ (.c 0))) ⊠ (.s 4)) ⊞ (((((((.neg (.c 3)) ⊠ (.c 2)) ⊠ (.s 0)) ⊠ (.s 1)) ⊟ (((.s 3) ⊠ (.s 0)) ⊠ (.c 1))) ⊟ (((.c 3) ⊠ (.s 2)) ⊠ (.c 0))) ⊠ (.c 4))⟩,
    ⟨2, 2, ((((((.k 1 0) ⊠ (.c 3)) ⊠ (.c 2)) ⊠ (.c 1)) ⊟ ((.s 3) ⊠ (.s 1))) ⊠ (.c 4)) ⊟ (((.s 2) ⊠ (.c 1)) ⊠ (.s 4))⟩,
    ⟨3, 0, (((((((((((((.k 178 3) ⊠ (.c 3)) ⊠ (.c 2)) ⊠ (.s 0)) ⊞ (((((.k 416 3) ⊠ (.c 3)) ⊞ (.k 296 3)) ⊠ (.s 2)) ⊠ (.c 0))) ⊠ (.s 1)) ⊞ ((((.k 178 3) ⊠ (.s 3)) ⊠ (.s 0)) ⊠ (.c 1))) ⊞ (((((.k 416 3) ⊠ (.c 3)) ⊞ (.k 296 3)) ⊠ (.c 2)) ⊠ (.s 0))) ⊞ ((((.k 178 3) ⊠ (.c 3)) ⊠ (.s 2)) ⊠ (.c 0))) ⊠ (.s 5)) ⊞ ((((((.neg (.k 2075 5)) ⊠ (.s 2)) ⊠ (.c 0)) ⊠ (.s 1)) ⊟ (((.k 2075 5) ⊠ (.c 2)) ⊠ (.s 0))) ⊠ (.c 5))) ⊠ (.s 4)) ⊞ (((((((((((.k 178 3) ⊠ (.s 2)) ⊠ (.s 0)) ⊞ (((((.neg (.k 296 3)) ⊠ (.c 3)) ⊟ (.k 416 3)) ⊠ (.c 2)) ⊠ (.c 0))) ⊠ (.s 1)) ⊟ ((((.k 296 3) ⊠ (.s 3)) ⊠ (.c 0)) ⊠ (.c 1))) ⊞ (((((.k 296 3) ⊠ (.c 3)) ⊞ (.k 416 3)) ⊠ (.s 2)) ⊠ (.s 0))) ⊟ (((.k 178 3) ⊠ (.c 2)) ⊠ (.c 0))) ⊠ (.s 5)) ⊞ ((((((((.k 2075 5) ⊠ (.c 3)) ⊠ (.c 2)) ⊠ (.c 0)) ⊠ (.s 1)) ⊞ ((((.k 2075 5) ⊠ (.s 3)) ⊠ (.c 0)) ⊠ (.c 1))) ⊟ ((((.k 2075 5) ⊠ (.c 3)) ⊠ (.s 2)) ⊠ (.s 0))) ⊠ (.c 5))) ⊠ (.c 4))) ⊞ ((((((((((.k 178 3) ⊠ (.s 3)) ⊠ (.c 2)) ⊠ (.s 0)) ⊞ ((((.k 416 3) ⊠ (.s 3)) ⊠ (.s 2)) ⊠ (.c 0))) ⊠ (.s 1)) ⊟ ((((.k 178 3) ⊠ (.c 3)) ⊠ (.s 0)) ⊠ (.c 1))) ⊞ ((((.k 416 3) ⊠ (.s 3)) ⊠ (.c 2)) ⊠ (.s 0))) ⊞ ((((.k 178 3) ⊠ (.s 3)) ⊠ (.s 2)) ⊠ (.c 0))) ⊠ (.c 5))⟩,
    ⟨3, 1, ((((((((((((((.k 416 3) ⊠ (.c 3)) ⊞ (.k 296 3)) ⊠ (.s 2)) ⊠ (.s 0)) ⊟ ((((.k 178 3) ⊠ (.c 3)) ⊠ (.c 2)) ⊠ (.c 0))) ⊠ (.s 1)) ⊟ ((((.k 178 3) ⊠ (.s 3)) ⊠ (.c 0)) ⊠ (.c 1))) ⊞ ((((.k 178 3) ⊠ (.c 3)) ⊠ (.s 2)) ⊠ (.s 0))) ⊞ (((((.neg (.k 416 3)) ⊠ (.c 3)) ⊟ (.k 296 3)) ⊠ (.c 2)) ⊠ (.c 0))) ⊠ (.s 5)) ⊞ (((((.k 2075 5) ⊠ (.c 2)) ⊠ (.c 0)) ⊟ ((((.k 2075 5) ⊠ (.s 2)) ⊠ (.s 0)) ⊠ (.s 1))) ⊠ (.c 5))) ⊠ (.s 4)) ⊞ (((((((((((((.neg (.k 296 3)) ⊠ (.c 3)) ⊟ (.k 416 3)) ⊠ (.c 2)) ⊠ (.s 0)) ⊟ (((.k 178 3) ⊠ (.s 2)) ⊠ (.c 0))) ⊠ (.s 1)) ⊟ ((((.k 296 3) ⊠ (.s 3)) ⊠ (.s 0)) ⊠ (.c 1))) ⊟ (((.k 178 3) ⊠ (.c 2)) ⊠ (.s 0))) ⊞ (((((.neg (.k 296 3)) ⊠ (.c 3)) ⊟ (.k 416 3)) ⊠ (.s 2)) ⊠ (.c 0))) ⊠ (.s 5)) ⊞ ((((((((.k 2075 5) ⊠ (.c 3)) ⊠ (.c 2)) ⊠ (.s 0)) ⊠ (.s 1)) ⊞ ((((.k 2075 5) ⊠ (.s 3)) ⊠ (.s 0)) ⊠ (.c 1))) ⊞ ((((.k 2075 5) ⊠ (.c 3)) ⊠ (.s 2)) ⊠ (.c 0))) ⊠ (.c 5))) ⊠ (.c 4))) ⊞ ((((((((((.k 416 3) ⊠ (.s 3)) ⊠ (.s 2)) ⊠ (.s 0)) ⊟ ((((.k 178 3) ⊠ (.s 3)) ⊠ (.c 2)) ⊠ (.c 0))) ⊠ (.s 1)) ⊞ ((((.k 178 3) ⊠ (.c 3)) ⊠ (.c 0)) ⊠ (.c 1))) ⊞ ((((.k 178 3) ⊠ (.s 3)) ⊠ (.s 2)) ⊠ (.s 0))) ⊟ ((((.k 416 3) ⊠ (.s 3)) ⊠ (.c 2)) ⊠ (.c 0))) ⊠ (.c 5))⟩,
    ⟨3, 2, (((((((((.neg (.k 416 3)) ⊠ (.c 3)) ⊟ (.k 296 3)) ⊠ (.s 2)) ⊠ (.c 1)) ⊠ (.s 5)) ⊞ ((((.k 2075 5) ⊠ (.s 2)) ⊠ (.c 1)) ⊠ (.c 5))) ⊠ (.s 4)) ⊞ (((((((((.k 296 3) ⊠ (.c 3)) ⊞ (.k 416 3)) ⊠ (.c 2)) ⊠ (.c 1)) ⊟ (((.k 296 3) ⊠ (.s 3)) ⊠ (.s 1))) ⊠ (.s 5)) ⊞ (((((.k 2075 5) ⊠ (.s 3)) ⊠ (.s 1)) ⊟ ((((.k 2075 5) ⊠ (.c 3)) ⊠ (.c 2)) ⊠ (.c 1))) ⊠ (.c 5))) ⊠ (.c 4))) ⊟ (((((.k 416 3) ⊠ (.s 3)) ⊠ (.s 2)) ⊠ (.c 1)) ⊠ (.c 5))⟩,
    ⟨3, 3, (((((((((.neg (.c 3)) ⊠ (.c 2)) ⊠ (.c 0)) ⊠ (.s 1)) ⊟ (((.s 3) ⊠ (.c 0)) ⊠ (.c 1))) ⊞ (((.c 3) ⊠ (.s 2)) ⊠ (.s 0))) ⊠ (.s 5)) ⊠ (.s 4)) ⊞ ((((((.neg (.s 2)) ⊠ (.c 0)) ⊠ (.s 1)) ⊟ ((.c 2) ⊠ (.s 0))) ⊠ (.s 5)) ⊠ (.c 4))) ⊞ (((((((.neg (.s 3)) ⊠ (.c 2)) ⊠ (.c 0)) ⊠ (.s 1)) ⊞ (((.c 3) ⊠ (.c 0)) ⊠ (.c 1))) ⊞ (((.s 3) ⊠ (.s 2)) ⊠ (.s 0))) ⊠ (.c 5))⟩,
    ⟨3, 4, (((((((((.neg (.c 3)) ⊠ (.c 2)) ⊠ (.s 0)) ⊠ (.s 1)) ⊟ (((.s 3) ⊠ (.s 0)) ⊠ (.c 1))) ⊟ (((.c 3) ⊠ (.s 2)) ⊠ (.c 0))) ⊠ (.s 5)) ⊠ (.s 4)) ⊞ (((((.c 2) ⊠ (.c 0)) ⊟ (((.s 2) ⊠ (.s 0)) ⊠ (.s 1))) ⊠ (.s 5)) ⊠ (.c 4))) ⊞ (((((((.neg (.s 3)) ⊠ (.c 2)) ⊠ (.s 0)) ⊠ (.s 1)) ⊞ (((.c 3) ⊠ (.s 0)) ⊠ (.c 1))) ⊟ (((.s 3) ⊠ (.s 2)) ⊠ (.c 0))) ⊠ (.c 5))⟩,
    ⟨3, 5, ((((((((.k 1 0) ⊠ (.c 3)) ⊠ (.c 2)) ⊠ (.c 1)) ⊟ ((.s 3) ⊠ (.s 1))) ⊠ (.s 5)) ⊠ (.s 4)) ⊞ ((((.s 2) ⊠ (.c 1)) ⊠ (.s 5)) ⊠ (.c 4))) ⊞ (((((.k 1 0) ⊠ (.c 3)) ⊠ (.s 1)) ⊞ (((.s 3) ⊠ (.c 2)) ⊠ (.c 1))) ⊠ (.c 5))⟩,
    ⟨4, 0, (((((((((.k 2075 5) ⊠ (.s 2)) ⊠ (.c 0)) ⊠ (.s 1)) ⊞ (((.k 2075 5) ⊠ (.c 2)) ⊠ (.s 0))) ⊠ (.s 5)) ⊞ ((((((((((.k 178 3) ⊠ (.c 3)) ⊠ (.c 2)) ⊠ (.s 0)) ⊞ (((((.k 416 3) ⊠ (.c 3)) ⊞ (.k 296 3)) ⊠ (.s 2)) ⊠ (.c 0))) ⊠ (.s 1)) ⊞ ((((.k 178 3) ⊠ (.s 3)) ⊠ (.s 0)) ⊠ (.c 1))) ⊞ (((((.k 416 3) ⊠ (.c 3)) ⊞ (.k 296 3)) ⊠ (.c 2)) ⊠ (.s 0))) ⊞ ((((.k 178 3) ⊠ (.c 3)) ⊠ (.s 2)) ⊠ (.c 0))) ⊠ (.c 5))) ⊠ (.s 4)) ⊞ ((((((((((.neg (.k 2075 5)) ⊠ (.c 3)) ⊠ (.c 2)) ⊠ (.c 0)) ⊠ (.s 1)) ⊟ ((((.k 2075 5) ⊠ (.s 3)) ⊠ (.c 0)) ⊠ (.c 1))) ⊞ ((((.k 2075 5) ⊠ (.c 3)) ⊠ (.s 2)) ⊠ (.s 0))) ⊠ (.s 5)) ⊞ (((((((((.k 178 3) ⊠ (.s 2)) ⊠ (.s 0)) ⊞ (((((.neg (.k 296 3)) ⊠ (.c 3)) ⊟ (.k 416 3)) ⊠ (.c 2)) ⊠ (.c 0))) ⊠ (.s 1)) ⊟ ((((.k 296 3) ⊠ (.s 3)) ⊠ (.c 0)) ⊠ (.c 1))) ⊞ (((((.k 296 3) ⊠ (.c 3)) ⊞ (.k 416 3)) ⊠ (.s 2)) ⊠ (.s 0))) ⊟ (((.k 178 3) ⊠ (.c 2)) ⊠ (.c 0))) ⊠ (.c 5))) ⊠ (.c 4))) ⊞ ((((((((((.neg (.k 178 3)) ⊠ (.s 3)) ⊠ (.c 2)) ⊠ (.s 0)) ⊟ ((((.k 416 3) ⊠ (.s 3)) ⊠ (.s 2)) ⊠ (.c 0))) ⊠ (.s 1)) ⊞ ((((.k 178 3) ⊠ (.c 3)) ⊠ (.s 0)) ⊠ (.c 1))) ⊟ ((((.k 416 3) ⊠ (.s 3)) ⊠ (.c 2)) ⊠ (.s 0))) ⊟ ((((.k 178 3) ⊠ (.s 3)) ⊠ (.s 2)) ⊠ (.c 0))) ⊠ (.s 5))⟩,
    ⟨4, 1, (((((((((.k 2075 5) ⊠ (.s 2)) ⊠ (.s 0)) ⊠ (.s 1)) ⊟ (((.k 2075 5) ⊠ (.c 2)) ⊠ (.c 0))) ⊠ (.s 5)) ⊞ (((((((((((.k 416 3) ⊠ (.c 3)) ⊞ (.k 296 3)) ⊠ (.s 2)) ⊠ (.s 0)) ⊟ ((((.k 178 3) ⊠ (.c 3)) ⊠ (.c 2)) ⊠ (.c 0))) ⊠ (.s 1)) ⊟ ((((.k 178 3) ⊠ (.s 3)) ⊠ (.c 0)) ⊠ (.c 1))) ⊞ ((((.k 178 3) ⊠ (.c 3)) ⊠ (.s 2)) ⊠ (.s 0))) ⊞ (((((.neg (.k 416 3)) ⊠ (.c 3)) ⊟ (.k 296 3)) ⊠ (.c 2)) ⊠ (.c 0))) ⊠ (.c 5))) ⊠ (.s 4)) ⊞ ((((((((((.neg (.k 2075 5)) ⊠ (.c 3)) ⊠ (.c 2)) ⊠ (.s 0)) ⊠ (.s 1)) ⊟ ((((.k 2075 5) ⊠ (.s 3)) ⊠ (.s 0)) ⊠ (.c 1))) ⊟ ((((.k 2075 5) ⊠ (.c 3)) ⊠ (.s 2)) ⊠ (.c 0))) ⊠ (.s 5)) ⊞ (((((((((((.neg (.k 296 3)) ⊠ (.c 3)) ⊟ (.k 416 3)) ⊠ (.c 2)) ⊠ (.s 0)) ⊟ (((.k 178 3) ⊠ (.s 2)) ⊠ (.c 0))) ⊠ (.s 1)) ⊟ ((((.k 296 3) ⊠ (.s 3)) ⊠ (.s 0)) ⊠ (.c 1))) ⊟ (((.k 178 3) ⊠ (.c 2)) ⊠ (.s 0))) ⊞ (((((.neg (.k 296 3)) ⊠ (.c 3)) ⊟ (.k 416 3)) ⊠ (.s 2)) ⊠ (.c 0))) ⊠ (.c 5))) ⊠ (.c 4))) ⊞ ((((((((((.k 178 3) ⊠ (.s 3)) ⊠ (.c 2)) ⊠ (.c 0)) ⊟ ((((.k 416 3) ⊠ (.s 3)) ⊠ (.s 2)) ⊠ (.s 0))) ⊠ (.s 1)) ⊟ ((((.k 178 3) ⊠ (.c 3)) ⊠ (.c 0)) ⊠ (.c 1))) ⊟ ((((.k 178 3) ⊠ (.s 3)) ⊠ (.s 2)) ⊠ (.s 0))) ⊞ ((((.k 416 3) ⊠ (.s 3)) ⊠ (.c 2)) ⊠ (.c 0))) ⊠ (.s 5))⟩,
    ⟨4, 2, (((((((((.neg (.k 416 3)) ⊠ (.c 3)) ⊟ (.k 296 3)) ⊠ (.s 2)) ⊠ (.c 1)) ⊠ (.c 5)) ⊟ ((((.k 2075 5) ⊠ (.s 2)) ⊠ (.c 1)) ⊠ (.s 5))) ⊠ (.s 4)) ⊞ ((((((((.k 2075 5) ⊠ (.c 3)) ⊠ (.c 2)) ⊠ (.c 1)) ⊟ (((.k 2075 5) ⊠ (.s 3)) ⊠ (.s 1))) ⊠ (.s 5)) ⊞ (((((((.k 296 3) ⊠ (.c 3)) ⊞ (.k 416 3)) ⊠ (.c 2)) ⊠ (.c 1)) ⊟ (((.k 296 3) ⊠ (.s 3)) ⊠ (.s 1))) ⊠ (.c 5))) ⊠ (.c 4))) ⊞ (((((.k 416 3) ⊠ (.s 3)) ⊠ (.s 2)) ⊠ (.c 1)) ⊠ (.s 5))⟩,
    ⟨4, 3, (((((((((.neg (.c 3)) ⊠ (.c 2)) ⊠ (.c 0)) ⊠ (.s 1)) ⊟ (((.s 3) ⊠ (.c 0)) ⊠ (.c 1))) ⊞ (((.c 3) ⊠ (.s 2)) ⊠ (.s 0))) ⊠ (.c 5)) ⊠ (.s 4)) ⊞ ((((((.neg (.s 2)) ⊠ (.c 0)) ⊠ (.s 1)) ⊟ ((.c 2) ⊠ (.s 0))) ⊠ (.c 5)) ⊠ (.c 4))) ⊞ (((((((.s 3) ⊠ (.c 2)) ⊠ (.c 0)) ⊠ (.s 1)) ⊟ (((.c 3) ⊠ (.c 0)) ⊠ (.c 1))) ⊟ (((.s 3) ⊠ (.s 2)) ⊠ (.s 0))) ⊠ (.s 5))⟩,
    ⟨4, 4, (((((((((.neg (.c 3)) ⊠ (.c 2)) ⊠ (.s 0)) ⊠ (.s 1)) ⊟ (((.s 3) ⊠ (.s 0)) ⊠ (.c 1))) ⊟ (((.c 3) ⊠ (.s 2)) ⊠ (.c 0))) ⊠ (.c 5)) ⊠ (.s 4)) ⊞ (((((.c 2) ⊠ (.c 0)) ⊟ (((.s 2) ⊠ (.s 0)) ⊠ (.s 1))) ⊠ (.c 5)) ⊠ (.c 4))) ⊞ (((((((.s 3) ⊠ (.c 2)) ⊠ (.s 0)) ⊠ (.s 1)) ⊟ (((.c 3) ⊠ (.s 0)) ⊠ (.c 1))) ⊞ (((.s 3) ⊠ (.s 2)) ⊠ (.c 0))) ⊠ (.s 5))⟩,
    ⟨4, 5, ((((((((.k 1 0) ⊠ (.c 3)) ⊠ (.c 2)) ⊠ (.c 1)) ⊟ ((.s 3) ⊠ (.s 1))) ⊠ (.c 5)) ⊠ (.s 4)) ⊞ ((((.s 2) ⊠ (.c 1)) ⊠ (.c 5)) ⊠ (.c 4))) ⊞ ((((.neg (.c 3)) ⊠ (.s 1)) ⊟ (((.s 3) ⊠ (.c 2)) ⊠ (.c 1))) ⊠ (.s 5))⟩,
    ⟨5, 0, ((((((((((((((.k 296 3) ⊠ (.c 3)) ⊞ (.k 416 3)) ⊠ (.c 2)) ⊠ (.c 0)) ⊟ (((.k 178 3) ⊠ (.s 2)) ⊠ (.s 0))) ⊠ (.s 1)) ⊞ ((((.k 296 3) ⊠ (.s 3)) ⊠ (.c 0)) ⊠ (.c 1))) ⊞ (((((.neg (.k 296 3)) ⊠ (.c 3)) ⊟ (.k 416 3)) ⊠ (.s 2)) ⊠ (.s 0))) ⊞ (((.k 178 3) ⊠ (.c 2)) ⊠ (.c 0))) ⊠ (.s 4)) ⊞ ((((((((((.k 178 3) ⊠ (.c 3)) ⊠ (.c 2)) ⊠ (.s 0)) ⊞ (((((.k 416 3) ⊠ (.c 3)) ⊞ (.k 296 3)) ⊠ (.s 2)) ⊠ (.c 0))) ⊠ (.s 1)) ⊞ ((((.k 178 3) ⊠ (.s 3)) ⊠ (.s 0)) ⊠ (.c 1))) ⊞ (((((.k 416 3) ⊠ (.c 3)) ⊞ (.k 296 3)) ⊠ (.c 2)) ⊠ (.s 0))) ⊞ ((((.k 178 3) ⊠ (.c 3)) ⊠ (.s 2)) ⊠ (.c 0))) ⊠ (.c 4))) ⊟ (((((.k 2075 5) ⊠ (.s 3)) ⊠ (.c 2)) ⊠ (.c 0)) ⊠ (.s 1))) ⊞ ((((.k 2075 5) ⊠ (.c 3)) ⊠ (.c 0)) ⊠ (.c 1))) ⊞ ((((.k 2075 5) ⊠ (.s 3)) ⊠ (.s 2)) ⊠ (.s 0))⟩,
    ⟨5, 1, ((((((((((((((.k 296 3) ⊠ (.c 3)) ⊞ (.k 416 3)) ⊠ (.c 2)) ⊠ (.s 0)) ⊞ (((.k 178 3) ⊠ (.s 2)) ⊠ (.c 0))) ⊠ (.s 1)) ⊞ ((((.k 296 3) ⊠ (.s 3)) ⊠ (.s 0)) ⊠ (.c 1))) ⊞ (((.k 178 3) ⊠ (.c 2)) ⊠ (.s 0))) ⊞ (((((.k 296 3) ⊠ (.c 3)) ⊞ (.k 416 3)) ⊠ (.s 2)) ⊠ (.c 0))) ⊠ (.s 4)) ⊞ (((((((((((.k 416 3) ⊠ (.c 3)) ⊞ (.k 296 3)) ⊠ (.s 2)) ⊠ (.s 0)) ⊟ ((((.k 178 3) ⊠ (.c 3)) ⊠ (.c 2)) ⊠ (.c 0))) ⊠ (.s 1)) ⊟ ((((.k 178 3) ⊠ (.s 3)) ⊠ (.c 0)) ⊠ (.c 1))) ⊞ ((((.k 178 3) ⊠ (.c 3)) ⊠ (.s 2)) ⊠ (.s 0))) ⊞ (((((.neg (.k 416 3)) ⊠ (.c 3)) ⊟ (.k 296 3)) ⊠ (.c 2)) ⊠ (.c 0))) ⊠ (.c 4))) ⊟ (((((.k 2075 5) ⊠ (.s 3)) ⊠ (.c 2)) ⊠ (.s 0)) ⊠ (.s 1))) ⊞ ((((.k 2075 5) ⊠ (.c 3)) ⊠ (.s 0)) ⊠ (.c 1))) ⊟ ((((.k 2075 5) ⊠ (.s 3)) ⊠ (.s 2)) ⊠ (.c 0))⟩,
    ⟨5, 2, (((((((.k 296 3) ⊠ (.s 3)) ⊠ (.s 1)) ⊞ (((((.neg (.k 296 3)) ⊠ (.c 3)) ⊟ (.k 416 3)) ⊠ (.c 2)) ⊠ (.c 1))) ⊠ (.s 4)) ⊞ ((((((.neg (.k 416 3)) ⊠ (.c 3)) ⊟ (.k 296 3)) ⊠ (.s 2)) ⊠ (.c 1)) ⊠ (.c 4))) ⊞ (((.k 2075 5) ⊠ (.c 3)) ⊠ (.s 1))) ⊞ ((((.k 2075 5) ⊠ (.s 3)) ⊠ (.c 2)) ⊠ (.c 1))⟩,
    ⟨5, 3, (((((.s 2) ⊠ (.c 0)) ⊠ (.s 1)) ⊞ ((.c 2) ⊠ (.s 0))) ⊠ (.s 4)) ⊞ (((((((.neg (.c 3)) ⊠ (.c 2)) ⊠ (.c 0)) ⊠ (.s 1)) ⊟ (((.s 3) ⊠ (.c 0)) ⊠ (.c 1))) ⊞ (((.c 3) ⊠ (.s 2)) ⊠ (.s 0))) ⊠ (.c 4))⟩,
    ⟨5, 4, (((((.s 2) ⊠ (.s 0)) ⊠ (.s 1)) ⊟ ((.c 2) ⊠ (.c 0))) ⊠ (.s 4)) ⊞ (((((((.neg (.c 3)) ⊠ (.c 2)) ⊠ (.s 0)) ⊠ (.s 1)) ⊟ (((.s 3) ⊠ (.s 0)) ⊠ (.c 1))) ⊟ (((.c 3) ⊠ (.s 2)) ⊠ (.c 0))) ⊠ (.c 4))⟩,
    ⟨5, 5, ((((((.k 1 0) ⊠ (.c 3)) ⊠ (.c 2)) ⊠ (.c 1)) ⊟ ((.s 3) ⊠ (.s 1))) ⊠ (.c 4)) ⊟ (((.s 2) ⊠ (.c 1)) ⊠ (.s 4))⟩]

/-- `ForceTransforms::Type_fr_Wrist_FE_X_fr_HyABase` (transforms.impl.h:4960-4971, 4973-5028). -/
def force_fr_Wrist_FE_X_fr_HyABase : Gen where
  rows := 6
  cols := 6
  ctor := [⟨3, 0, .k 0 0⟩,
    ⟨3, 1, .k 0 0⟩,
    ⟨3, 2, .k 0 0⟩,
    ⟨4, 0, .k 0 0⟩,
    ⟨4, 1, .k 0 0⟩,
    ⟨4, 2, .k 0 0⟩,
    ⟨5, 0, .k 0 0⟩,
    ⟨5, 1, .k 0 0⟩,
    ⟨5, 2, .k 0 0⟩]
  upd := [⟨0, 0, (((((((((.neg (.c 3)) ⊠ (.c 2)) ⊠ (.c 0)) ⊠ (.s 1)) ⊟ (((.s 3) ⊠ (.c 0)) ⊠ (.c 1))) ⊞ (((.c 3) ⊠ (.s 2)) ⊠ (.s 0))) ⊠ (.s 5)) ⊠ (.s 4)) ⊞ ((((((.neg (.s 2)) ⊠ (.c 0)) ⊠ (.s 1)) ⊟ ((.c 2) ⊠ (.s 0))) ⊠ (.s 5)) ⊠ (.c 4))) ⊞ (((((((.neg (.s 3)) ⊠ (.c 2)) ⊠ (.c 0)) ⊠ (.s 1)) ⊞ (((.c 3) ⊠ (.c 0)) ⊠ (.c 1))) ⊞ (((.s 3) ⊠ (.s 2)) ⊠ (.s 0))) ⊠ (.c 5))⟩,
    ⟨0, 1, (((((((((.neg (.c 3)) ⊠ (.c 2)) ⊠ (.s 0)) ⊠ (.s 1)) ⊟ (((.s 3) ⊠ (.s 0)) ⊠ (.c 1))) ⊟ (((.c 3) ⊠ (.s 2)) ⊠ (.c 0))) ⊠ (.s 5)) ⊠ (.s 4)) ⊞ (((((.c 2) ⊠ (.c 0)) ⊟ (((.s 2) ⊠ (.s 0)) ⊠ (.s 1))) ⊠ (.s 5)) ⊠ (.c 4))) ⊞ (((((((.neg (.s 3)) ⊠ (.c 2)) ⊠ (.s 0)) ⊠ (.s 1)) ⊞ (((.c 3) ⊠ (.s 0)) ⊠ (.c 1))) ⊟ (((.s 3) ⊠ (.s 2)) ⊠ (.c 0))) ⊠ (.c 5))⟩,
    ⟨0, 2, ((((((((.k 1 0) ⊠ (.c 3)) ⊠ (.c 2)) ⊠ (.c 1)) ⊟ ((.s 3) ⊠ (.s 1))) ⊠ (.s 5)) ⊠ (.s 4)) ⊞ ((((.s 2) ⊠ (.c 1)) ⊠ (.s 5)) ⊠ (.c 4))) ⊞ (((((.k 1 0) ⊠ (.c 3)) ⊠ (.s 1)) ⊞ (((.s 3) ⊠ (.c 2)) ⊠ (.c 1))) ⊠ (.c 5))⟩,
    ⟨0, 3, (((((((((((((.k 178 3) ⊠ (.c 3)) ⊠ (.c 2)) ⊠ (.s 0)) ⊞ (((((.k 416 3) ⊠ (.c 3)) ⊞ (.k 296 3)) ⊠ (.s 2)) ⊠ (.c 0))) ⊠ (.s 1)) ⊞ ((((.k 178 3) ⊠ (.s 3)) ⊠ (.s 0)) ⊠ (.c 1))) ⊞ (((((.k 416 3) ⊠ (.c 3)) ⊞ (.k 296 3)) ⊠ (.c 2)) ⊠ (.s 0))) ⊞ ((((.k 178 3) ⊠ (.c 3)) ⊠ (.s 2)) ⊠ (.c 0))) ⊠ (.s 5)) ⊞ ((((((.neg (.k 2075 5)) ⊠ (.s 2)) ⊠ (.c 0)) ⊠ (.s 1)) ⊟ (((.k 2075 5) ⊠ (.c 2)) ⊠ (.s 0))) ⊠ (.c 5))) ⊠ (.s 4)) ⊞ (((((((((((.k 178 3) ⊠ (.s 2)) ⊠ (.s 0)) ⊞ (((((.neg (.k 296 3)) ⊠ (.c 3)) ⊟ (.k 416 3)) ⊠ (.c 2)) ⊠ (.c 0))) ⊠ (.s 1)) ⊟ ((((.k 296 3) ⊠ (.s 3)) ⊠ (.c 0)) ⊠ (.c 1))) ⊞ (((((.k 296 3) ⊠ (.c 3)) ⊞ (.k 416 3)) ⊠ (.s 2)) ⊠ (.s 0))) ⊟ (((.k 178 3) ⊠ (.c 2)) ⊠ (.c 0))) ⊠ (.s 5)) ⊞ ((((((((.k 2075 5) ⊠ (.c 3)) ⊠ (.c 2)) ⊠ (.c 0)) ⊠ (.s 1)) ⊞ ((((.k 2075 5) ⊠ (.s 3)) ⊠ (.c 0)) ⊠ (.c 1))) ⊟ ((((.k 2075 5) ⊠ (.c 3)) ⊠ (.s 2)) ⊠ (.s 0))) ⊠ (.c 5))) ⊠ (.c 4))) ⊞ ((((((((((.k 178 3) ⊠ (.s 3)) ⊠ (.c 2)) ⊠ (.s 0)) ⊞ ((((.k 416 3) ⊠ (.s 3)) ⊠ (.s 2)) ⊠ (.c 0))) ⊠ (.s 1)) ⊟ ((((.k 178 3) ⊠ (.c 3)) ⊠ (.s 0)) ⊠ (.c 1))) ⊞ ((((.k 416 3) ⊠ (.s 3)) ⊠ (.c 2)) ⊠ (.s 0))) ⊞ ((((.k 178 3) ⊠ (.s 3)) ⊠ (.s 2)) ⊠ (.c 0))) ⊠ (.c 5))⟩,
    ⟨0, 4, ((((((((((((((.k 416 3) ⊠ (.c 3)) ⊞ (.k 296 3)) ⊠ (.s 2)) ⊠ (.s 0)) ⊟ ((((.k 178 3) ⊠ (.c 3)) ⊠ (.c 2)) ⊠ (.c 0))) ⊠ (.s 1)) ⊟ ((((.k 178 3) ⊠ (.s 3)) ⊠ (.c 0)) ⊠ (.c 1))) ⊞ ((((.k 178 3) ⊠ (.c 3)) ⊠ (.s 2)) ⊠ (.s 0))) ⊞ (((((.neg (.k 416 3)) ⊠ (.c 3)) ⊟ (.k 296 3)) ⊠ (.c 2)) ⊠ (.c 0))) ⊠ (.s 5)) ⊞ (((((.k 2075 5) ⊠ (.c 2)) ⊠ (.c 0)) ⊟ ((((.k 2075 5) ⊠ (.s 2)) ⊠ (.s 0)) ⊠ (.s 1))) ⊠ (.c 5))) ⊠ (.s 4)) ⊞ (((((((((((((.neg (.k 296 3)) ⊠ (.c 3)) ⊟ (.k 416 3)) ⊠ (.c 2)) ⊠ (.s 0)) ⊟ (((.k 178 3) ⊠ (.s 2)) ⊠ (.c 0))) ⊠ (.s 1)) ⊟ ((((.k 296 3) ⊠ (.s 3)) ⊠ (.s 0)) ⊠ (.c 1))) ⊟ (((.k 178 3) ⊠ (.c 2)) ⊠ (.s 0))) ⊞ (((((.neg (.k 296 3)) ⊠ (.c 3)) ⊟ (.k 416 3)) ⊠ (.s 2)) ⊠ (.c 0))) ⊠ (.s 5)) ⊞ ((((((((.k 2075 5) ⊠ (.c 3)) ⊠ (.c 2)) ⊠ (.s 0)) ⊠ (.s 1)) ⊞ ((((.k 2075 5) ⊠ (.s 3)) ⊠ (.s 0)) ⊠ (.c 1))) ⊞ ((((.k 2075 5) ⊠ (.c 3)) ⊠ (.s 2)) ⊠ (.c 0))) ⊠ (.c 5))) ⊠ (.c 4))) ⊞ ((((((((((.k 416 3) ⊠ (.s 3)) ⊠ (.s 2)) ⊠ (.s 0)) ⊟ ((((.k 178 3) ⊠ (.s 3)) ⊠ (.c 2)) ⊠ (.c 0))) ⊠ (.s 1)) ⊞ ((((.k 178 3) ⊠ (.c 3)) ⊠ (.c 0)) ⊠ (.c 1))) ⊞ ((((.k 178 3) ⊠ (.s 3)) ⊠ (.s 2)) ⊠ (.s 0))) ⊟ ((((.k 416 3) ⊠ (.s 3)) ⊠ (.c 2)) ⊠ (.c 0))) ⊠ (.c 5))⟩,
    ⟨0, 5, (((((((((.neg (.k 416 3)) ⊠ (.c 3)) ⊟ (.k 296 3)) ⊠ (.s 2)) ⊠ (.c 1)) ⊠ (.s 5)) ⊞ ((((.k 2075 5) ⊠ (.s 2)) ⊠ (.c 1)) ⊠ (.c 5))) ⊠ (.s 4)) ⊞ (((((((((.k 296 3) ⊠ (.c 3)) ⊞ (.k 416 3)) ⊠ (.c 2)) ⊠ (.c 1)) ⊟ (((.k 296 3) ⊠ (.s 3)) ⊠ (.s 1))) ⊠ (.s 5)) ⊞ (((((.k 2075 5) ⊠ (.s 3)) ⊠ (.s 1)) ⊟ ((((.k 2075 5) ⊠ (.c 3)) ⊠ (.c 2)) ⊠ (.c 1))) ⊠ (.c 5))) ⊠ (.c 4))) ⊟ (((((.k 416 3) ⊠ (.s 3)) ⊠ (.s 2)) ⊠ (.c 1)) ⊠ (.c 5))⟩,
    ⟨1, 0, (((((((((.neg (.c 3)) ⊠ (.c 2)) ⊠ (.c 0)) ⊠ (.s 1)) ⊟ (((.s 3) ⊠ (.c 0)) ⊠ (.c 1))) ⊞ (((.c 3) ⊠ (.s 2)) ⊠ (.s 0))) ⊠ (.c 5)) ⊠ (.s 4)) ⊞ ((((((.neg (.s 2)) ⊠ (.c 0)) ⊠ (.s 1)) ⊟ ((.c 2) ⊠ (.s 0))) ⊠ (.c 5)) ⊠ (.c 4))) ⊞ (((((((.s 3) ⊠ (.c 2)) ⊠ (.c 0)) ⊠ (.s 1)) ⊟ (((.c 3) ⊠ (.c 0)) ⊠ (.c 1))) ⊟ (((.s 3) ⊠ (.s 2)) ⊠ (.s 0))) ⊠ (.s 5))⟩,
    ⟨1, 1, (((((((((.neg (.c 3)) ⊠ (.c 2)) ⊠ (.s 0)) ⊠ (.s 1)) ⊟ (((.s 3) ⊠ (.s 0)) ⊠ (.c 1))) ⊟ (((.c 3) ⊠ (.s 2)) ⊠ (.c 0))) ⊠ (.c 5)) ⊠ (.s 4)) ⊞ (((((.c 2) ⊠ (.c 0)) ⊟ (((.s 2) ⊠ (.s 0)) ⊠ (.s 1))) ⊠ (.c 5)) ⊠ (.c 4))) ⊞ (((((((.s 3) ⊠ (.c 2)) ⊠ (.s 0)) ⊠ (.s 1)) ⊟ (((.c 3) ⊠ (.s 0)) ⊠ (.c 1))) ⊞ (((.s 3) ⊠ (.s 2)) ⊠ (.c 0))) ⊠ (.s 5))⟩,
    ⟨1, 2, ((((((((.k 1 0) ⊠ (.c 3)) ⊠ (.c 2)) ⊠ (.c 1)) ⊟ ((.s 3) ⊠ (.s 1))) ⊠ (.c 5)) ⊠ (.s 4)) ⊞ ((((.s 2) ⊠ (.c 1)) ⊠ (.c 5)) ⊠ (.c 4))) ⊞ ((((.neg (.c 3)) ⊠ (.s 1)) ⊟ (((.s 3) ⊠ (.c 2)) ⊠ (.c 1))) ⊠ (.s 5))⟩,
    ⟨1, 3, (((((((((.k 2075 5) ⊠ (.s 2)) ⊠ (.c 0)) ⊠ (.s 1)) ⊞ (((.k 2075 5) ⊠ (.c 2)) ⊠ (.s 0))) ⊠ (.s 5)) ⊞ ((((((((((.k 178 3) ⊠ (.c 3)) ⊠ (.c 2)) ⊠ (.s 0)) ⊞ (((((.k 416 3) ⊠ (.c 3)) ⊞ (.k 296 3)) ⊠ (.s 2)) ⊠ (.c 0))) ⊠ (.s 1)) ⊞ ((((.k 178 3) ⊠ (.s 3)) ⊠ (.s 0)) ⊠ (.c 1))) ⊞ (((((.k 416 3) ⊠ (.c 3)) ⊞ (.k 296 3)) ⊠ (.c 2)) ⊠ (.s 0))) ⊞ ((((.k 178 3) ⊠ (.c 3)) ⊠ (.s 2)) ⊠ (.c 0))) ⊠ (.c 5))) ⊠ (.s 4)) ⊞ ((((((((((.neg (.k 2075 5)) ⊠ (.c 3)) ⊠ (.c 2)) ⊠ (.c 0)) ⊠ (.s 1)) ⊟ ((((.k 2075 5) ⊠ (.s 3)) ⊠ (.c 0)) ⊠ (.c 1))) ⊞ ((((.k 2075 5) ⊠ (.c 3)) ⊠ (.s 2)) ⊠ (.s 0))) ⊠ (.s 5)) ⊞ (((((((((.k 178 3) ⊠ (.s 2)) ⊠ (.s 0)) ⊞ (((((.neg (.k 296 3)) ⊠ (.c 3)) ⊟ (.k 416 3)) ⊠ (.c 2)) ⊠ (.c 0))) ⊠ (.s 1)) ⊟ ((((.k 296 3) ⊠ (.s 3)) ⊠ (.c 0)) ⊠ (.c 1))) ⊞ (((((.k 296 3) ⊠ (.c 3)) ⊞ (.k 416 3)) ⊠ (.s 2)) ⊠ (.s 0))) ⊟ (((.k 178 3) ⊠ (.c 2)) ⊠ (.c 0))) ⊠ (.c 5))) ⊠ (.c 4))) ⊞ ((((((((((.neg (.k 178 3)) ⊠ (.s 3)) ⊠ (.c 2)) ⊠ (.s 0)) ⊟ ((((.k 416 3) ⊠ (.s 3)) ⊠ (.s 2)) ⊠ (.c 0))) ⊠ (.s 1)) ⊞ ((((.k 178 3) ⊠ (.c 3)) ⊠ (.s 0)) ⊠ (.c 1))) ⊟ ((((.k 416 3) ⊠ (.s 3)) ⊠ (.c 2)) ⊠ (.s 0))) ⊟ ((((.k 178 3) ⊠ (.s 3)) ⊠ (.s 2)) ⊠ (.c 0))) ⊠ (.s 5))⟩,
    ⟨1, 4, (((((((((.k 2075 5) ⊠ (.s 2)) ⊠ (.s 0)) ⊠ (.s 1)) ⊟ (((.k 2075 5) ⊠ (.c 2)) ⊠ (.c 0))) ⊠ (.s 5)) ⊞ (((((((((((.k 416 3) ⊠ (.c 3)) ⊞ (.k 296 3)) ⊠ (.s 2)) ⊠ (.s 0)) ⊟ ((((.k 178 3) ⊠ (.c 3)) ⊠ (.c 2)) ⊠ (.c 0))) ⊠ (.s 1)) ⊟ ((((.k 178 3) ⊠ (.s 3)) ⊠ (.c 0)) ⊠ (.c 1))) ⊞ ((((.k 178 3) ⊠ (.c 3)) ⊠ (.s 2)) ⊠ (.s 0))) ⊞ (((((.neg (.k 416 3)) ⊠ (.c 3)) ⊟ (.k 296 3)) ⊠ (.c 2)) ⊠ (.c 0))) ⊠ (.c 5))) ⊠ (.s 4)) ⊞ ((((((((((.neg (.k 2075 5)) ⊠ (.c 3)) ⊠ (.c 2)) ⊠ (.s 0)) ⊠ (.s 1)) ⊟ ((((.k 2075 5) ⊠ (.s 3)) ⊠ (.s 0)) ⊠ (.c 1))) ⊟ ((((.k 2075 5) ⊠ (.c 3)) ⊠ (.s 2)) ⊠ (.c 0))) ⊠ (.s 5)) ⊞ (((((((((((.neg (.k 296 3)) ⊠ (.c 3)) ⊟ (.k 416 3)) ⊠ (.c 2)) ⊠ (.s 0)) ⊟ (((.k 178 3) ⊠ (.s 2)) ⊠ (.c 0))) ⊠ (.s 1)) ⊟ ((((.k 296 3) ⊠ (.s 3)) ⊠ (.s 0)) ⊠ (.c 1))) ⊟ (((.k 178 3) ⊠ (.c 2)) ⊠ (.s 0))) ⊞ (((((.neg (.k 296 3)) ⊠ (.c 3)) ⊟ (.k 416 3)) ⊠ (.s 2)) ⊠ (.c 0))) ⊠ (.c 5))) ⊠ (.c 4))) ⊞ ((((((((((.k 178 3) ⊠ (.s 3)) ⊠ (.c 2)) ⊠ (.c 0)) ⊟ ((((.k 416 3) ⊠ (.s 3)) ⊠ (.s 2)) ⊠ (.s 0))) ⊠ (.s 1)) ⊟ ((((.k 178 3) ⊠ (.c 3)) ⊠ (.c 0)) ⊠ (.c 1))) ⊟ ((((.k 178 3) ⊠ (.s 3)) ⊠ (.s 2)) ⊠ (.s 0))) ⊞ ((((.k 416 3) ⊠ (.s 3)) ⊠ (.c 2)) ⊠ (.c 0))) ⊠ (.s 5))⟩,
    ⟨1, 5, (((((((((.neg (.k 416 3)) ⊠ (.c 3)) ⊟ (.k 296 3)) ⊠ (.s 2)) ⊠ (.c 1)) ⊠ (.c 5)) ⊟ ((((.k 2075 5) ⊠ (.s 2)) ⊠ (.c 1)) ⊠ (.s 5))) ⊠ (.s 4)) ⊞ ((((((((.k 2075 5) ⊠ (.c 3)) ⊠ (.c 2)) ⊠ (.c 1)) ⊟ (((.k 2075 5) ⊠ (.s 3)) ⊠ (.s 1))) ⊠ (.s 5)) ⊞ (((((((.k 296 3) ⊠ (.c 3)) ⊞ (.k 416 3)) ⊠ (.c 2)) ⊠ (.c 1)) ⊟ (((.k 296 3) ⊠ (.s 3)) ⊠ (.s 1))) ⊠ (.c 5))) ⊠ (.c 4))) ⊞ (((((.k 416 3) ⊠ (.s 3)) ⊠ (.s 2)) ⊠ (.c 1)) ⊠ (.s 5))⟩,
    ⟨2, 0, (((((.s 2) ⊠ (.c 0)) ⊠ (.s 1)) ⊞ ((.c 2) ⊠ (.s 0))) ⊠ (.s 4)) ⊞ (((((((.neg (.c 3)) ⊠ (.c 2)) ⊠ (.c 0)) ⊠ (.s 1)) ⊟ (((.s 3) ⊠ (.c 0)) ⊠ (.c 1))) ⊞ (((.c 3) ⊠ (.s 2)) ⊠ (.s 0))) ⊠ (.c 4))⟩,
    ⟨2, 1, (((((.s 2) ⊠ (.s 0)) ⊠ (.s 1)) ⊟ ((.c 2) ⊠ (.c 0))) ⊠ (.s 4)) ⊞ (((((((.neg (.c 3)) ⊠ (.c 2)) ⊠ (.s 0)) ⊠ (.s 1)) ⊟ (((.s 3) ⊠ (.s 0)) ⊠ (.c 1))) ⊟ (((.c 3) ⊠ (.s 2)) ⊠ (.c 0))) ⊠ (.c 4))⟩,
    ⟨2, 2, ((((((.k 1 0) ⊠ (.c 3)) ⊠ (.c 2)) ⊠ (.c 1)) ⊟ ((.s 3) ⊠ (.s 1))) ⊠ (.c 4)) ⊟ (((.s 2) ⊠ (.c 1)) ⊠ (.s 4))⟩,
    ⟨2, 3, ((((((((((((((.k 296 3) ⊠ (.c 3)) ⊞ (.k 416 3)) ⊠ (.c 2)) ⊠ (.c 0)) ⊟ (((.k 178 3) ⊠ (.s 2)) ⊠ (.s 0))) ⊠ (.s 1)) ⊞ ((((.k 296 3) ⊠ (.s 3)) ⊠ (.c 0)) ⊠ (.c 1))) ⊞ (((((.neg (.k 296 3)) ⊠ (.c 3)) ⊟ (.k 416 3)) ⊠ (.s 2)) ⊠ (.s 0))) ⊞ (((.k 178 3) ⊠ (.c 2)) ⊠ (.c 0))) ⊠ (.s 4)) ⊞ ((((((((((.k 178 3) ⊠ (.c 3)) ⊠ (.c 2)) ⊠ (.s 0)) ⊞ (((((.k 416 3) ⊠ (.c 3)) ⊞ (.k 296 3)) ⊠ (.s 2)) ⊠ (.c 0))) ⊠ (.s 1)) ⊞ ((((.k 178 3) ⊠ (.s 3)) ⊠ (.s 0)) ⊠ (.c 1))) ⊞ (((((.k 416 3) ⊠ (.c 3)) ⊞ (.k 296 3)) ⊠ (.c 2)) ⊠ (.s 0))) ⊞ ((((.k 178 3) ⊠ (.c 3)) ⊠ (.s 2)) ⊠ (.c 0))) ⊠ (.c 4))) ⊟ (((((.k 2075 5) ⊠ (.s 3)) ⊠ (.c 2)) ⊠ (.c 0)) ⊠ (.s 1))) ⊞ ((((.k 2075 5) ⊠ (.c 3)) ⊠ (.c 0)) ⊠ (.c 1))) ⊞ ((((.k 2075 5) ⊠ (.s 3)) ⊠ (.s 2)) ⊠ (.s 0))⟩,
    ⟨2, 4, ((((((((((((((.k 296 3) ⊠ (.c 3)) ⊞ (.k 416 3)) ⊠ (.c 2)) ⊠ (.s 0)) ⊞ (((.k 178 3) ⊠ (.s 2)) ⊠ (.c 0))) ⊠ (.s 1)) ⊞ ((((.k 296 3) ⊠ (.s 3)) ⊠ (.s 0)) ⊠ (.c 1))) ⊞ (((.k 178 3) ⊠ (.c 2)) ⊠ (.s 0))) ⊞ (((((.k 296 3) ⊠ (.c 3)) ⊞ (.k 416 3)) ⊠ (.s 2)) ⊠ (.c 0))) ⊠ (.s 4)) ⊞ (((((((((((.k 416 3) ⊠ (.c 3)) ⊞ (.k 296 3)) ⊠ (.s 2)) ⊠ (.s 0)) ⊟ ((((.k 178 3) ⊠ (.c 3)) ⊠ (.c 2)) ⊠ (.c 0))) ⊠ (.s 1)) ⊟ ((((.k 178 3) ⊠ (.s 3)) ⊠ (.c 0)) ⊠ (.c 1))) ⊞ ((((.k 178 3) ⊠ (.c 3)) ⊠ (.s 2)) ⊠ (.s 0))) ⊞ (((((.neg (.k 416 3)) ⊠ (.c 3)) ⊟ (.k 296 3)) ⊠ (.c 2)) ⊠ (.c 0))) ⊠ (.c 4))) ⊟ (((((.k 2075 5) ⊠ (.s 3)) ⊠ (.c 2)) ⊠ (.s 0)) ⊠ (.s 1))) ⊞ ((((.k 2075 5) ⊠ (.c 3)) ⊠ (.s 0)) ⊠ (.c 1))) ⊟ ((((.k 2075 5) ⊠ (.s 3)) ⊠ (.s 2)) ⊠ (.c 0))⟩,
    ⟨2, 5, (((((((.k 296 3) ⊠ (.s 3)) ⊠ (.s 1)) ⊞ (((((.neg (.k 296 3)) ⊠ (.c 3)) ⊟ (.k 416 3)) ⊠ (.c 2)) ⊠ (.c 1))) ⊠ (.s 4)) ⊞ ((((((.neg (.k 416 3)) ⊠ (.c 3)) ⊟ (.k 296 3)) ⊠ (.s 2)) ⊠ (.c 1)) ⊠ (.c 4))) ⊞ (((.k 2075 5) ⊠ (.c 3)) ⊠ (.s 1))) ⊞ ((((.k 2075 5) ⊠ (.s 3)) ⊠ (.c 2)) ⊠ (.c 1))⟩,
    ⟨3, 3, (((((((((.neg (.c 3)) ⊠ (.c 2)) ⊠ (.c 0)) ⊠ (.s 1)) ⊟ (((.s 3) ⊠ (.c 0)) ⊠ (.c 1))) ⊞ (((.c 3) ⊠ (.s 2)) ⊠ (.s 0))) ⊠ (.s 5)) ⊠ (.s 4)) ⊞ ((((((.neg (.s 2)) ⊠ (.c 0)) ⊠ (.s 1)) ⊟ ((.c 2) ⊠ (.s 0))) ⊠ (.s 5)) ⊠ (.c 4))) ⊞ (((((((.neg (.s 3)) ⊠ (.c 2)) ⊠ (.c 0)) ⊠ (.s 1)) ⊞ (((.c 3) ⊠ (.c 0)) ⊠ (.c 1))) ⊞ (((.s 3) ⊠ (.s 2)) ⊠ (.s 0))) ⊠ (.c 5))⟩,
    ⟨3, 4, (((((((((.neg (.c 3)) ⊠ (.c 2)) ⊠ (.s 0)) ⊠ (.s 1)) ⊟ (((.s 3) ⊠ (.s 0)) ⊠ (.c 1))) ⊟ (((.c 3) ⊠ (.s 2)) ⊠ (.c 0))) ⊠ (.s 5)) ⊠ (.s 4)) ⊞ (((((.c 2) ⊠ (.c 0)) ⊟ (((.s 2) ⊠ (.s 0)) ⊠ (.s 1))) ⊠ (.s 5)) ⊠ (.c 4))) ⊞ (((((((.neg (.s 3)) ⊠ (.c 2)) ⊠ (.s 0)) ⊠ (.s 1)) ⊞ (((.c 3) ⊠ (.s 0)) ⊠ (.c 1))) ⊟ (((.s 3) ⊠ (.s 2)) ⊠ (.c 0))) ⊠ (.c 5))⟩,
    ⟨3, 5, ((((((((.k 1 0) ⊠ (.c 3)) ⊠ (.c 2)) ⊠ (.c 1)) ⊟ ((.s 3) ⊠ (.s 1))) ⊠ (.s 5)) ⊠ (.s 4)) ⊞ ((((.s 2) ⊠ (.c 1)) ⊠ (.s 5)) ⊠ (.c 4))) ⊞ (((((.k 1 0) ⊠ (.c 3)) ⊠ (.s 1)) ⊞ (((.s 3) ⊠ (.c 2)) ⊠ (.c 1))) ⊠ (.c 5))⟩,
    ⟨4, 3, (((((((((.neg (.c 3)) ⊠ (.c 2)) ⊠ (.c 0)) ⊠ (.s 1)) ⊟ (((.s 3) ⊠ (.c 0)) ⊠ (.c 1))) ⊞ (((.c 3) ⊠ (.s 2)) ⊠ (.s 0))) ⊠ (.c 5)) ⊠ (.s 4)) ⊞ ((((((.neg (.s 2)) ⊠ (.c 0)) ⊠ (.s 1)) ⊟ ((.c 2) ⊠ (.s 0))) ⊠ (.c 5)) ⊠ (.c 4))) ⊞ (((((((.s 3) ⊠ (.c 2)) ⊠ (.c 0)) ⊠ (.s 1)) ⊟ (((.c 3) ⊠ (.c 0)) ⊠ (.c 1))) ⊟ (((.s 3) ⊠ (.s 2)) ⊠ (.s 0))) ⊠ (.s 5))⟩,
    ⟨4, 4, (((((((((.neg (.c 3)) ⊠ (.c 2)) ⊠ (.s 0)) ⊠ (.s 1)) ⊟ (((.s 3) ⊠ (.s 0)) ⊠ (.c 1))) ⊟ (((.c 3) ⊠ (.s 2)) ⊠ (.c 0))) ⊠ (.c 5)) ⊠ (.s 4)) ⊞ (((((.c 2) ⊠ (.c 0)) ⊟ (((.s 2) ⊠ (.s 0)) ⊠ (.s 1))) ⊠ (.c 5)) ⊠ (.c 4))) ⊞ (((((((.s 3) ⊠ (.c 2)) ⊠ (.s 0)) ⊠ (.s 1)) ⊟ (((.c 3) ⊠ (.s 0)) ⊠ (.c 1))) ⊞ (((.s 3) ⊠ (.s 2)) ⊠ (.c 0))) ⊠ (.s 5))⟩,
    ⟨4, 5, ((((((((.k 1 0) ⊠ (.c 3)) ⊠ (.c 2)) ⊠ (.c 1)) ⊟ ((.s 3) ⊠ (.s 1))) ⊠ (.c 5)) ⊠ (.s 4)) ⊞ ((((.s 2) ⊠ (.c 1)) ⊠ (.c 5)) ⊠ (.c 4))) ⊞ ((((.neg (.c 3)) ⊠ (.s 1)) ⊟ (((.s 3) ⊠ (.c 2)) ⊠ (.c 1))) ⊠ (.s 5))⟩,
    ⟨5, 3, (((((.s 2) ⊠ (.c 0)) ⊠ (.s 1)) ⊞ ((.c 2) ⊠ (.s 0))) ⊠ (.s 4)) ⊞ (((((((.neg (.c 3)) ⊠ (.c 2)) ⊠ (.c 0)) ⊠ (.s 1)) ⊟ (((.s 3) ⊠ (.c 0)) ⊠ (.c 1))) ⊞ (((.c 3) ⊠ (.s 2)) ⊠ (.s 0))) ⊠ (.c 4))⟩,
    ⟨5, 4, (((((.s 2) ⊠ (.s 0)) ⊠ (.s 1)) ⊟ ((.c 2) ⊠ (.c 0))) ⊠ (.s 4)) ⊞ (((((((.neg (.c 3)) ⊠ (.c 2)) ⊠ (.s 0)) ⊠ (.s 1)) ⊟ (((.s 3) ⊠ (.s 0)) ⊠ (.c 1))) ⊟ (((.c 3) ⊠ (.s 2)) ⊠ (.c 0))) ⊠ (.c 4))⟩,
    ⟨5, 5, ((((((.k 1 0) ⊠ (.c 3)) ⊠ (.c 2)) ⊠ (.c 1)) ⊟ ((.s 3) ⊠ (.s 1))) ⊠ (.c 4)) ⊟ (((.s 2) ⊠ (.c 1)) ⊠ (.s 4))⟩]

/-- The transforms `fr_Wrist_FE_X_fr_HyABase`. -/
def fr_Wrist_FE_X_fr_HyABase : Trans := ⟨fr_Wrist_FE, fr_HyABase, hom_fr_Wrist_FE_X_fr_HyABase, motion_fr_Wrist_FE_X_fr_HyABase, force_fr_Wrist_FE_X_fr_HyABase⟩

/-- `HomogeneousTransforms::Type_fr_ee_X_fr_HyABase` (transforms.impl.h:7199-7205, 7207-7247). -/
def hom_fr_ee_X_fr_HyABase : Gen where
  rows := 4
  cols := 4
  ctor := [⟨3, 0, .k 0 0⟩,
    ⟨3, 1, .k 0 0⟩,
    ⟨3, 2, .k 0 0⟩,
    ⟨3, 3, .k 1 0⟩]
  upd := [⟨0, 0, (((((((((.neg (.c 3)) ⊠ (.c 2)) ⊠ (.c 0)) ⊠ (.s 1)) ⊟ (((.s 3) ⊠ (.c 0)) ⊠ (.c 1))) ⊞ (((.c 3) ⊠ (.s 2)) ⊠ (.s 0))) ⊠ (.s 5)) ⊠ (.s 4)) ⊞ ((((((.neg (.s 2)) ⊠ (.c 0)) ⊠ (.s 1)) ⊟ ((.c 2) ⊠ (.s 0))) ⊠ (.s 5)) ⊠ (.c 4))) ⊞ (((((((.neg (.s 3)) ⊠ (.c 2)) ⊠ (.c 0)) ⊠ (.s 1)) ⊞ (((.c 3) ⊠ (.c 0)) ⊠ (.c 1))) ⊞ (((.s 3) ⊠ (.s 2)) ⊠ (.s 0))) ⊠ (.c 5))⟩,
    ⟨0, 1, (((((((((.neg (.c 3)) ⊠ (.c 2)) ⊠ (.s 0)) ⊠ (.s 1)) ⊟ (((.s 3) ⊠ (.s 0)) ⊠ (.c 1))) ⊟ (((.c 3) ⊠ (.s 2)) ⊠ (.c 0))) ⊠ (.s 5)) ⊠ (.s 4)) ⊞ (((((.c 2) ⊠ (.c 0)) ⊟ (((.s 2) ⊠ (.s 0)) ⊠ (.s 1))) ⊠ (.s 5)) ⊠ (.c 4))) ⊞ (((((((.neg (.s 3)) ⊠ (.c 2)) ⊠ (.s 0)) ⊠ (.s 1)) ⊞ (((.c 3) ⊠ (.s 0)) ⊠ (.c 1))) ⊟ (((.s 3) ⊠ (.s 2)) ⊠ (.c 0))) ⊠ (.c 5))⟩,
    ⟨0, 2, ((((((((.k 1 0) ⊠ (.c 3)) ⊠ (.c 2)) ⊠ (.c 1)) ⊟ ((.s 3) ⊠ (.s 1))) ⊠ (.s 5)) ⊠ (.s 4)) ⊞ ((((.s 2) ⊠ (.c 1)) ⊠ (.s 5)) ⊠ (.c 4))) ⊞ (((((.k 1 0) ⊠ (.c 3)) ⊠ (.s 1)) ⊞ (((.s 3) ⊠ (.c 2)) ⊠ (.c 1))) ⊠ (.c 5))⟩,
    ⟨0, 3, ((((((((((.k 178 3) ⊠ (.s 3)) ⊠ (.s 1)) ⊟ ((((.k 178 3) ⊠ (.c 3)) ⊠ (.c 2)) ⊠ (.c 1))) ⊞ ((.k 416 3) ⊠ (.s 3))) ⊠ (.s 5)) ⊠ (.s 4)) ⊟ (((((.k 178 3) ⊠ (.s 2)) ⊠ (.c 1)) ⊠ (.s 5)) ⊠ (.c 4))) ⊟ ((.k 2075 5) ⊠ (.s 5))) ⊞ (((((((.neg (.k 178 3)) ⊠ (.c 3)) ⊠ (.s 1)) ⊟ ((((.k 178 3) ⊠ (.s 3)) ⊠ (.c 2)) ⊠ (.c 1))) ⊟ ((.k 416 3) ⊠ (.c 3))) ⊟ (.k 296 3)) ⊠ (.c 5))) ⊟ (.k 3 2)⟩,
    ⟨1, 0, (((((((((.neg (.c 3)) ⊠ (.c 2)) ⊠ (.c 0)) ⊠ (.s 1)) ⊟ (((.s 3) ⊠ (.c 0)) ⊠ (.c 1))) ⊞ (((.c 3) ⊠ (.s 2)) ⊠ (.s 0))) ⊠ (.c 5)) ⊠ (.s 4)) ⊞ ((((((.neg (.s 2)) ⊠ (.c 0)) ⊠ (.s 1)) ⊟ ((.c 2) ⊠ (.s 0))) ⊠ (.c 5)) ⊠ (.c 4))) ⊞ (((((((.s 3) ⊠ (.c 2)) ⊠ (.c 0)) ⊠ (.s 1)) ⊟ (((.c 3) ⊠ (.c 0)) ⊠ (.c 1))) ⊟ (((.s 3) ⊠ (.s 2)) ⊠ (.s 0))) ⊠ (.s 5))⟩,
    ⟨1, 1, (((((((((.neg (.c 3)) ⊠ (.c 2)) ⊠ (.s 0)) ⊠ (.s 1)) ⊟ (((.s 3) ⊠ (.s 0)) ⊠ (.c 1))) ⊟ (((.c 3) ⊠ (.s 2)) ⊠ (.c 0))) ⊠ (.c 5)) ⊠ (.s 4)) ⊞ (((((.c 2) ⊠ (.c 0)) ⊟ (((.s 2) ⊠ (.s 0)) ⊠ (.s 1))) ⊠ (.c 5)) ⊠ (.c 4))) ⊞ (((((((.s 3) ⊠ (.c 2)) ⊠ (.s 0)) ⊠ (.s 1)) ⊟ (((.c 3) ⊠ (.s 0)) ⊠ (.c 1))) ⊞ (((.s 3) ⊠ (.s 2)) ⊠ (.c 0))) ⊠ (.s 5))⟩,
    ⟨1, 2, ((((((((.k 1 0) ⊠ (.c 3)) ⊠ (.c 2)) ⊠ (.c 1)) ⊟ ((.s 3) ⊠ (.s 1))) ⊠ (.c 5)) ⊠ (.s 4)) ⊞ ((((.s 2) ⊠ (.c 1)) ⊠ (.c 5)) ⊠ (.c 4))) ⊞ ((((.neg (.c 3)) ⊠ (.s 1)) ⊟ (((.s 3) ⊠ (.c 2)) ⊠ (.c 1))) ⊠ (.s 5))⟩,
    ⟨1, 3, (((((((((.k 178 3) ⊠ (.s 3)) ⊠ (.s 1)) ⊟ ((((.k 178 3) ⊠ (.c 3)) ⊠ (.c 2)) ⊠ (.c 1))) ⊞ ((.k 416 3) ⊠ (.s 3))) ⊠ (.c 5)) ⊠ (.s 4)) ⊟ (((((.k 178 3) ⊠ (.s 2)) ⊠ (.c 1)) ⊠ (.c 5)) ⊠ (.c 4))) ⊞ (((((((.k 178 3) ⊠ (.c 3)) ⊠ (.s 1)) ⊞ ((((.k 178 3) ⊠ (.s 3)) ⊠ (.c 2)) ⊠ (.c 1))) ⊞ ((.k 416 3) ⊠ (.c 3))) ⊞ (.k 296 3)) ⊠ (.s 5))) ⊟ ((.k 2075 5) ⊠ (.c 5))⟩,
    ⟨2, 0, (((((.s 2) ⊠ (.c 0)) ⊠ (.s 1)) ⊞ ((.c 2) ⊠ (.s 0))) ⊠ (.s 4)) ⊞ (((((((.neg (.c 3)) ⊠ (.c 2)) ⊠ (.c 0)) ⊠ (.s 1)) ⊟ (((.s 3) ⊠ (.c 0)) ⊠ (.c 1))) ⊞ (((.c 3) ⊠ (.s 2)) ⊠ (.s 0))) ⊠ (.c 4))⟩,
    ⟨2, 1, (((((.s 2) ⊠ (.s 0)) ⊠ (.s 1)) ⊟ ((.c 2) ⊠ (.c 0))) ⊠ (.s 4)) ⊞ (((((((.neg (.c 3)) ⊠ (.c 2)) ⊠ (.s 0)) ⊠ (.s 1)) ⊟ (((.s 3) ⊠ (.s 0)) ⊠ (.c 1))) ⊟ (((.c 3) ⊠ (.s 2)) ⊠ (.c 0))) ⊠ (.c 4))⟩,
    ⟨2, 2, ((((((.k 1 0) ⊠ (.c 3)) ⊠ (.c 2)) ⊠ (.c 1)) ⊟ ((.s 3) ⊠ (.s 1))) ⊠ (.c 4)) ⊟ (((.s 2) ⊠ (.c 1)) ⊠ (.s 4))⟩,
    ⟨2, 3, ((((.k 178 3) ⊠ (.s 2)) ⊠ (.c 1)) ⊠ (.s 4)) ⊞ ((((((.k 178 3) ⊠ (.s 3)) ⊠ (.s 1)) ⊟ ((((.k 178 3) ⊠ (.c 3)) ⊠ (.c 2)) ⊠ (.c 1))) ⊞ ((.k 416 3) ⊠ (.s 3))) ⊠ (.c 4))⟩]

/-- `MotionTransforms::Type_fr_ee_X_fr_HyABase` (transforms.impl.h:2181-2192, 2194-2249). -/
def motion_fr_ee_X_fr_HyABase : Gen where
  rows := 6
  cols := 6
  ctor := [⟨0, 3, .k 0 0⟩,
    ⟨0, 4, .k 0 0⟩,
    ⟨0, 5, .k 0 0⟩,
    ⟨1, 3, .k 0 0⟩,
    ⟨1, 4, .k 0 0⟩,
    ⟨1, 5, .k 0 0⟩,
    ⟨2, 3, .k 0 0⟩,
    ⟨2, 4, .k 0 0⟩,
    ⟨2, 5, .k 0 0⟩]
  upd := [⟨0, 0, (((((((((.neg (.c 3)) ⊠ (.c 2)) ⊠ (.c 0)) ⊠ (.s 1)) ⊟ (((.s 3) ⊠ (.c 0)) ⊠ (.c 1))) ⊞ (((.c 3) ⊠ (.s 2)) ⊠ (.s 0))) ⊠ (.s 5)) ⊠ (.s 4)) ⊞ ((((((.neg (.s 2)) ⊠ (.c 0)) ⊠ (.s 1)) ⊟ ((.c 2) ⊠ (.s 0))) ⊠ (.s 5)) ⊠ (.c 4))) ⊞ (((((((.neg (.s 3)) ⊠ (.c 2)) ⊠ (.c 0)) ⊠ (.s 1)) ⊞ (((.c 3) ⊠ (.c 0)) ⊠ (.c 1))) ⊞ (((.s 3) ⊠ (.s 2)) ⊠ (.s 0))) ⊠ (.c 5))⟩,
    ⟨0, 1, (((((((((.neg (.c 3)) ⊠ (.c 2)) ⊠ (.s 0)) ⊠ (.s 1)) ⊟ (((.s 3) ⊠ (.s 0)) ⊠ (.c 1))) ⊟ (((.c 3) ⊠ (.s 2)) ⊠ (.c 0))) ⊠ (.s 5)) ⊠ (.s 4)) ⊞ (((((.c 2) ⊠ (.c 0)) ⊟ (((.s 2) ⊠ (.s 0)) ⊠ (.s 1))) ⊠ (.s 5)) ⊠ (.c 4))) ⊞ (((((((.neg (.s 3)) ⊠ (.c 2)) ⊠ (.s 0)) ⊠ (.s 1)) ⊞ (((.c 3) ⊠ (.s 0)) ⊠ (.c 1))) ⊟ (((.s 3) ⊠ (.s 2)) ⊠ (.c 0))) ⊠ (.c 5))⟩,
    ⟨0, 2, ((((((((.k 1 0) ⊠ (.c 3)) ⊠ (.c 2)) ⊠ (.c 1)) ⊟ ((.s 3) ⊠ (.s 1))) ⊠ (.s 5)) ⊠ (.s 4)) ⊞ ((((.s 2) ⊠ (.c 1)) ⊠ (.s 5)) ⊠ (.c 4))) ⊞ (((((.k 1 0) ⊠ (.c 3)) ⊠ (.s 1)) ⊞ (((.s 3) ⊠ (.c 2)) ⊠ (.c 1))) ⊠ (.c 5))⟩,
    ⟨1, 0, (((((((((.neg (.c 3)) ⊠ (.c 2)) ⊠ (.c 0)) ⊠ (.s 1)) ⊟ (((.s 3) ⊠ (.c 0)) ⊠ (.c 1))) ⊞ (((.c 3) ⊠ (.s 2)) ⊠ (.s 0))) ⊠ (.c 5)) ⊠ (.s 4)) ⊞ ((((((.neg (.s 2)) ⊠ (.c 0)) ⊠ (.s 1)) ⊟ ((.c 2) ⊠ (.s 0))) ⊠ (.c 5)) ⊠ (.c 4))) ⊞ (((((((.s 3) ⊠ (.c 2)) ⊠ (.c 0)) ⊠ (.s 1)) ⊟ (((.c 3) ⊠ (.c 0)) ⊠ (.c 1))) ⊟ (((.s 3) ⊠ (.s 2)) ⊠ (.s 0))) ⊠ (.s 5))⟩,
    ⟨1, 1, (((((((((.neg (.c 3)) ⊠ (.c 2)) ⊠ (.s 0)) ⊠ (.s 1)) ⊟ (((.s 3) ⊠ (.s 0)) ⊠ (.c 1))) ⊟ (((.c 3) ⊠ (.s 2)) ⊠ (.c 0))) ⊠ (.c 5)) ⊠ (.s 4)) ⊞ (((((.c 2) ⊠ (.c 0)) ⊟ (((.s 2) ⊠ (.s 0)) ⊠ (.s 1))) ⊠ (.c 5)) ⊠ (.c 4))) ⊞ (((((((.s 3) ⊠ (.c 2)) ⊠ (.s 0)) ⊠ (.s 1)) ⊟ (((.c 3) ⊠ (.s 0)) ⊠ (.c 1))) ⊞ (((.s 3) ⊠ (.s 2)) ⊠ (.c 0))) ⊠ (.s 5))⟩,
    ⟨1, 2, ((((((((.k 1 0) ⊠ (.c 3)) ⊠ (.c 2)) ⊠ (.c 1)) ⊟ ((.s 3) ⊠ (.s 1))) ⊠ (.c 5)) ⊠ (.s 4)) ⊞ ((((.s 2) ⊠ (.c 1)) ⊠ (.c 5)) ⊠ (.c 4))) ⊞ ((((.neg (.c 3)) ⊠ (.s 1)) ⊟ (((.s 3) ⊠ (.c 2)) ⊠ (.c 1))) ⊠ (.s 5))⟩,
    ⟨2, 0, (((((.s 2) ⊠ (.c 0)) ⊠ (.s 1)) ⊞ ((.c 2) ⊠ (.s 0))) ⊠ (.s 4)) ⊞ (((((((.neg (.c 3)) ⊠ (.c 2)) ⊠ (.c 0)) ⊠ (.s 1)) ⊟ (((.s 3) ⊠ (.c 0)) ⊠ (.c 1))) ⊞ (((.c 3) ⊠ (.s 2)) ⊠ (.s 0))) ⊠ (.c 4))⟩,
    ⟨2, 1, (((((.s 2) ⊠ (.s 0)) ⊠ (.s 1)) ⊟ ((.c 2) ⊠ (.c 0))) ⊠ (.s 4)) ⊞ (((((((.neg (.c 3)) ⊠ (.c 2)) ⊠ (.s 0)) ⊠ (.s 1)) ⊟ (((.s 3) ⊠ (.s 0)) ⊠ (.c 1))) ⊟ (((.c 3) ⊠ (.s 2)) ⊠ (.c 0))) ⊠ (.c 4))⟩,
    ⟨2, 2, ((((((.k 1 0) ⊠ (.c 3)) ⊠ (.c 2)) ⊠ (.c 1)) ⊟ ((.s 3) ⊠ (.s 1))) ⊠ (.c 4)) ⊟ (((.s 2) ⊠ (.c 1)) ⊠ (.s 4))⟩,
    ⟨3, 0, (((((((((((((.k 178 3) ⊠ (.c 3)) ⊠ (.c 2)) ⊠ (.s 0)) ⊞ (((((.k 416 3) ⊠ (.c 3)) ⊞ (.k 296 3)) ⊠ (.s 2)) ⊠ (.c 0))) ⊠ (.s 1)) ⊞ ((((.k 178 3) ⊠ (.s 3)) ⊠ (.s 0)) ⊠ (.c 1))) ⊞ (((((.k 416 3) ⊠ (.c 3)) ⊞ (.k 296 3)) ⊠ (.c 2)) ⊠ (.s 0))) ⊞ ((((.k 178 3) ⊠ (.c 3)) ⊠ (.s 2)) ⊠ (.c 0))) ⊠ (.s 5)) ⊞ ((((((.neg (.k 2075 5)) ⊠ (.s 2)) ⊠ (.c 0)) ⊠ (.s 1)) ⊟ (((.k 2075 5) ⊠ (.c 2)) ⊠ (.s 0))) ⊠ (.c 5))) ⊠ (.s 4)) ⊞ (((((((((((.k 178 3) ⊠ (.s 2)) ⊠ (.s 0)) ⊞ (((((.neg (.k 296 3)) ⊠ (.c 3)) ⊟ (.k 416 3)) ⊠ (.c 2)) ⊠ (.c 0))) ⊠ (.s 1)) ⊟ ((((.k 296 3) ⊠ (.s 3)) ⊠ (.c 0)) ⊠ (.c 1))) ⊞ (((((.k 296 3) ⊠ (.c 3)) ⊞ (.k 416 3)) ⊠ (.s 2)) ⊠ (.s 0))) ⊟ (((.k 178 3) ⊠ (.c 2)) ⊠ (.c 0))) ⊠ (.s 5)) ⊞ ((((((((.k 2075 5) ⊠ (.c 3)) ⊠ (.c 2)) ⊠ (.c 0)) ⊠ (.s 1)) ⊞ ((((.k 2075 5) ⊠ (.s 3)) ⊠ (.c 0)) ⊠ (.c 1))) ⊟ ((((.k 2075 5) ⊠ (.c 3)) ⊠ (.s 2)) ⊠ (.s 0))) ⊠ (.c 5))) ⊠ (.c 4))) ⊞ ((((((((((.k 178 3) ⊠ (.s 3)) ⊠ (.c 2)) ⊠ (.s 0)) ⊞ ((((.k 416 3) ⊠ (.s 3)) ⊠ (.s 2)) ⊠ (.c 0))) ⊠ (.s 1)) ⊟ ((((.k 178 3) ⊠ (.c 3)) ⊠ (.s 0)) ⊠ (.c 1))) ⊞ ((((.k 416 3) ⊠ (.s 3)) ⊠ (.c 2)) ⊠ (.s 0))) ⊞ ((((.k 178 3) ⊠ (.s 3)) ⊠ (.s 2)) ⊠ (.c 0))) ⊠ (.c 5))⟩,
    ⟨3, 1, ((((((((((((((.k 416 3) ⊠ (.c 3)) ⊞ (.k 296 3)) ⊠ (.s 2)) ⊠ (.s 0)) ⊟ ((((.k 178 3) ⊠ (.c 3)) ⊠ (.c 2)) ⊠ (.c 0))) ⊠ (.s 1)) ⊟ ((((.k 178 3) ⊠ (.s 3)) ⊠ (.c 0)) ⊠ (.c 1))) ⊞ ((((.k 178 3) ⊠ (.c 3)) ⊠ (.s 2)) ⊠ (.s 0))) ⊞ (((((.neg (.k 416 3)) ⊠ (.c 3)) ⊟ (.k 296 3)) ⊠ (.c 2)) ⊠ (.c 0))) ⊠ (.s 5)) ⊞ (((((.k 2075 5) ⊠ (.c 2)) ⊠ (.c 0)) ⊟ ((((.k 2075 5) ⊠ (.s 2)) ⊠ (.s 0)) ⊠ (.s 1))) ⊠ (.c 5))) ⊠ (.s 4)) ⊞ (((((((((((((.neg (.k 296 3)) ⊠ (.c 3)) ⊟ (.k 416 3)) ⊠ (.c 2)) ⊠ (.s 0)) ⊟ (((.k 178 3) ⊠ (.s 2)) ⊠ (.c 0))) ⊠ (.s 1)) ⊟ ((((.k 296 3) ⊠ (.s 3)) ⊠ (.s 0)) ⊠ (.c 1))) ⊟ (((.k 178 3) ⊠ (.c 2)) ⊠ (.s 0))) ⊞ (((((.neg (.k 296 3)) ⊠ (.c 3)) ⊟ (.k 416 3)) ⊠ (.s 2)) ⊠ (.c 0))) ⊠ (.s 5)) ⊞ ((((((((.k 2075 5) ⊠ (.c 3)) ⊠ (.c 2)) ⊠ (.s 0)) ⊠ (.s 1)) ⊞ ((((.k 2075 5) ⊠ (.s 3)) ⊠ (.s 0)) ⊠ (.c 1))) ⊞ ((((.k 2075 5) ⊠ (.c 3)) ⊠ (.s 2)) ⊠ (.c 0))) ⊠ (.c 5))) ⊠ (.c 4))) ⊞ ((((((((((.k 416 3) ⊠ (.s 3)) ⊠ (.s 2)) ⊠ (.s 0)) ⊟ ((((.k 178 3) ⊠ (.s 3)) ⊠ (.c 2)) ⊠ (.c 0))) ⊠ (.s 1)) ⊞ ((((.k 178 3) ⊠ (.c 3)) ⊠ (.c 0)) ⊠ (.c 1))) ⊞ ((((.k 178 3) ⊠ (.s 3)) ⊠ (.s 2)) ⊠ (.s 0))) ⊟ ((((.k 416 3) ⊠ (.s 3)) ⊠ (.c 2)) ⊠ (.c 0))) ⊠ (.c 5))⟩,
    ⟨3, 2, (((((((((.neg (.k 416 3)) ⊠ (.c 3)) ⊟ (.k 296 3)) ⊠ (.s 2)) ⊠ (.c 1)) ⊠ (.s 5)) ⊞ ((((.k 2075 5) ⊠ (.s 2)) ⊠ (.c 1)) ⊠ (.c 5))) ⊠ (.s 4)) ⊞ (((((((((.k 296 3) ⊠ (.c 3)) ⊞ (.k 416 3)) ⊠ (.c 2)) ⊠ (.c 1)) ⊟ (((.k 296 3) ⊠ (.s 3)) ⊠ (.s 1))) ⊠ (.s 5)) ⊞ (((((.k 2075 5) ⊠ (.s 3)) ⊠ (.s 1)) ⊟ ((((.k 2075 5) ⊠ (.c 3)) ⊠ (.c 2)) ⊠ (.c 1))) ⊠ (.c 5))) ⊠ (.c 4))) ⊟ (((((.k 416 3) ⊠ (.s 3)) ⊠ (.s 2)) ⊠ (.c 1)) ⊠ (.c 5))⟩,
    ⟨3, 3, (((((((((.neg (.c 3)) ⊠ (.c 2)) ⊠ (.c 0)) ⊠ (.s 1)) ⊟ (((.s 3) ⊠ (.c 0)) ⊠ (.c 1))) ⊞ (((.c 3) ⊠ (.s 2)) ⊠ (.s 0))) ⊠ (.s 5)) ⊠ (.s 4)) ⊞ ((((((.neg (.s 2)) ⊠ (.c 0)) ⊠ (.s 1)) ⊟ ((.c 2) ⊠ (.s 0))) ⊠ (.s 5)) ⊠ (.c 4))) ⊞ (((((((.neg (.s 3)) ⊠ (.c 2)) ⊠ (.c 0)) ⊠ (.s 1)) ⊞ (((.c 3) ⊠ (.c 0)) ⊠ (.c 1))) ⊞ (((.s 3) ⊠ (.s 2)) ⊠ (.s 0))) ⊠ (.c 5))⟩,
    ⟨3, 4, (((((((((.neg (.c 3)) ⊠ (.c 2)) ⊠ (.s 0)) ⊠ (.s 1)) ⊟ (((.s 3) ⊠ (.s 0)) ⊠ (.c 1))) ⊟ (((.c 3) ⊠ (.s 2)) ⊠ (.c 0))) ⊠ (.s 5)) ⊠ (.s 4)) ⊞ (((((.c 2) ⊠ (.c 0)) ⊟ (((.s 2) ⊠ (.s 0)) ⊠ (.s 1))) ⊠ (.s 5)) ⊠ (.c 4))) ⊞ (((((((.neg (.s 3)) ⊠ (.c 2)) ⊠ (.s 0)) ⊠ (.s 1)) ⊞ (((.c 3) ⊠ (.s 0)) ⊠ (.c 1))) ⊟ (((.s 3) ⊠ (.s 2)) ⊠ (.c 0))) ⊠ (.c 5))⟩,
    ⟨3, 5, ((((((((.k 1 0) ⊠ (.c 3)) ⊠ (.c 2)) ⊠ (.c 1)) ⊟ ((.s 3) ⊠ (.s 1))) ⊠ (.s 5)) ⊠ (.s 4)) ⊞ ((((.s 2) ⊠ (.c 1)) ⊠ (.s 5)) ⊠ (.c 4))) ⊞ (((((.k 1 0) ⊠ (.c 3)) ⊠ (.s 1)) ⊞ (((.s 3) ⊠ (.c 2)) ⊠ (.c 1))) ⊠ (.c 5))⟩,
    ⟨4, 0, (((((((((((.k 2075 5) ⊠ (.s 2)) ⊠ (.c 0)) ⊠ (.s 1)) ⊞ (((.k 2075 5) ⊠ (.c 2)) ⊠ (.s 0))) ⊠ (.s 5)) ⊞ ((((((((((.k 178 3) ⊠ (.c 3)) ⊠ (.c 2)) ⊠ (.s 0)) ⊞ (((((.k 416 3) ⊠ (.c 3)) ⊞ (.k 296 3)) ⊠ (.s 2)) ⊠ (.c 0))) ⊠ (.s 1)) ⊞ ((((.k 178 3) ⊠ (.s 3)) ⊠ (.s 0)) ⊠ (.c 1))) ⊞ (((((.k 416 3) ⊠ (.c 3)) ⊞ (.k 296 3)) ⊠ (.c 2)) ⊠ (.s 0))) ⊞ ((((.k 178 3) ⊠ (.c 3)) ⊠ (.s 2)) ⊠ (.c 0))) ⊠ (.c 5))) ⊞ ((((.k 3 2) ⊠ (.s 2)) ⊠ (.c 0)) ⊠ (.s 1))) ⊞ (((.k 3 2) ⊠ (.c 2)) ⊠ (.s 0))) ⊠ (.s 4)) ⊞ (((((((((((((.neg (.k 2075 5)) ⊠ (.c 3)) ⊠ (.c 2)) ⊠ (.c 0)) ⊠ (.s 1)) ⊟ ((((.k 2075 5) ⊠ (.s 3)) ⊠ (.c 0)) ⊠ (.c 1))) ⊞ ((((.k 2075 5) ⊠ (.c 3)) ⊠ (.s 2)) ⊠ (.s 0))) ⊠ (.s 5)) ⊞ (((((((((.k 178 3) ⊠ (.s 2)) ⊠ (.s 0)) ⊞ (((((.neg (.k 296 3)) ⊠ (.c 3)) ⊟ (.k 416 3)) ⊠ (.c 2)) ⊠ (.c 0))) ⊠ (.s 1)) ⊟ ((((.k 296 3) ⊠ (.s 3)) ⊠ (.c 0)) ⊠ (.c 1))) ⊞ (((((.k 296 3) ⊠ (.c 3)) ⊞ (.k 416 3)) ⊠ (.s 2)) ⊠ (.s 0))) ⊟ (((.k 178 3) ⊠ (.c 2)) ⊠ (.c 0))) ⊠ (.c 5))) ⊟ (((((.k 3 2) ⊠ (.c 3)) ⊠ (.c 2)) ⊠ (.c 0)) ⊠ (.s 1))) ⊟ ((((.k 3 2) ⊠ (.s 3)) ⊠ (.c 0)) ⊠ (.c 1))) ⊞ ((((.k 3 2) ⊠ (.c 3)) ⊠ (.s 2)) ⊠ (.s 0))) ⊠ (.c 4))) ⊞ ((((((((((.neg (.k 178 3)) ⊠ (.s 3)) ⊠ (.c 2)) ⊠ (.s 0)) ⊟ ((((.k 416 3) ⊠ (.s 3)) ⊠ (.s 2)) ⊠ (.c 0))) ⊠ (.s 1)) ⊞ ((((.k 178 3) ⊠ (.c 3)) ⊠ (.s 0)) ⊠ (.c 1))) ⊟ ((((.k 416 3) ⊠ (.s 3)) ⊠ (.c 2)) ⊠ (.s 0))) ⊟ ((((.k 178 3) ⊠ (.s 3)) ⊠ (.s 2)) ⊠ (.c 0))) ⊠ (.s 5))⟩,
    ⟨4, 1, (((((((((((.k 2075 5) ⊠ (.s 2)) ⊠ (.s 0)) ⊠ (.s 1)) ⊟ (((.k 2075 5) ⊠ (.c 2)) ⊠ (.c 0))) ⊠ (.s 5)) ⊞ (((((((((((.k 416 3) ⊠ (.c 3)) ⊞ (.k 296 3)) ⊠ (.s 2)) ⊠ (.s 0)) ⊟ ((((.k 178 3) ⊠ (.c 3)) ⊠ (.c 2)) ⊠ (.c 0))) ⊠ (.s 1)) ⊟ ((((.k 178 3) ⊠ (.s 3)) ⊠ (.c 0)) ⊠ (.c 1))) ⊞ ((((.k 178 3) ⊠ (.c 3)) ⊠ (.s 2)) ⊠ (.s 0))) ⊞ (((((.neg (.k 416 3)) ⊠ (.c 3)) ⊟ (.k 296 3)) ⊠ (.c 2)) ⊠ (.c 0))) ⊠ (.c 5))) ⊞ ((((.k 3 2) ⊠ (.s 2)) ⊠ (.s 0)) ⊠ (.s 1))) ⊟ (((.k 3 2) ⊠ (.c 2)) ⊠ (.c 0))) ⊠ (.s 4)) ⊞ (((((((((((((.neg (.k 2075 5)) ⊠ (.c 3)) ⊠ (.c 2)) ⊠ (.s 0)) ⊠ (.s 1)) ⊟ ((((.k 2075 5) ⊠ (.s 3)) ⊠ (.s 0)) ⊠ (.c 1))) ⊟ ((((.k 2075 5) ⊠ (.c 3)) ⊠ (.s 2)) ⊠ (.c 0))) ⊠ (.s 5)) ⊞ (((((((((((.neg (.k 296 3)) ⊠ (.c 3)) ⊟ (.k 416 3)) ⊠ (.c 2)) ⊠ (.s 0)) ⊟ (((.k 178 3) ⊠ (.s 2)) ⊠ (.c 0))) ⊠ (.s 1)) ⊟ ((((.k 296 3) ⊠ (.s 3)) ⊠ (.s 0)) ⊠ (.c 1))) ⊟ (((.k 178 3) ⊠ (.c 2)) ⊠ (.s 0))) ⊞ (((((.neg (.k 296 3)) ⊠ (.c 3)) ⊟ (.k 416 3)) ⊠ (.s 2)) ⊠ (.c 0))) ⊠ (.c 5))) ⊟ (((((.k 3 2) ⊠ (.c 3)) ⊠ (.c 2)) ⊠ (.s 0)) ⊠ (.s 1))) ⊟ ((((.k 3 2) ⊠ (.s 3)) ⊠ (.s 0)) ⊠ (.c 1))) ⊟ ((((.k 3 2) ⊠ (.c 3)) ⊠ (.s 2)) ⊠ (.c 0))) ⊠ (.c 4))) ⊞ ((((((((((.k 178 3) ⊠ (.s 3)) ⊠ (.c 2)) ⊠ (.c 0)) ⊟ ((((.k 416 3) ⊠ (.s 3)) ⊠ (.s 2)) ⊠ (.s 0))) ⊠ (.s 1)) ⊟ ((((.k 178 3) ⊠ (.c 3)) ⊠ (.c 0)) ⊠ (.c 1))) ⊟ ((((.k 178 3) ⊠ (.s 3)) ⊠ (.s 2)) ⊠ (.s 0))) ⊞ ((((.k 416 3) ⊠ (.s 3)) ⊠ (.c 2)) ⊠ (.c 0))) ⊠ (.s 5))⟩,
    ⟨4, 2, ((((((((.neg (.k 2075 5)) ⊠ (.s 2)) ⊠ (.c 1)) ⊠ (.s 5)) ⊞ ((((((.neg (.k 416 3)) ⊠ (.c 3)) ⊟ (.k 296 3)) ⊠ (.s 2)) ⊠ (.c 1)) ⊠ (.c 5))) ⊟ (((.k 3 2) ⊠ (.s 2)) ⊠ (.c 1))) ⊠ (.s 4)) ⊞ ((((((((((.k 2075 5) ⊠ (.c 3)) ⊠ (.c 2)) ⊠ (.c 1)) ⊟ (((.k 2075 5) ⊠ (.s 3)) ⊠ (.s 1))) ⊠ (.s 5)) ⊞ (((((((.k 296 3) ⊠ (.c 3)) ⊞ (.k 416 3)) ⊠ (.c 2)) ⊠ (.c 1)) ⊟ (((.k 296 3) ⊠ (.s 3)) ⊠ (.s 1))) ⊠ (.c 5))) ⊟ (((.k 3 2) ⊠ (.s 3)) ⊠ (.s 1))) ⊞ ((((.k 3 2) ⊠ (.c 3)) ⊠ (.c 2)) ⊠ (.c 1))) ⊠ (.c 4))) ⊞ (((((.k 416 3) ⊠ (.s 3)) ⊠ (.s 2)) ⊠ (.c 1)) ⊠ (.s 5))⟩,
    ⟨4, 3, (((((((((.neg (.c 3)) ⊠ (.c 2)) ⊠ (.c 0)) ⊠ (.s 1)) ⊟ (((.s 3) ⊠ (.c 0)) ⊠ (.c 1))) ⊞ (((.c 3) ⊠ (.s 2)) ⊠ (.s 0))) ⊠ (.c 5)) ⊠ (.s 4)) ⊞ ((((((.neg (.s 2)) ⊠ (.c 0)) ⊠ (.s 1)) ⊟ ((.c 2) ⊠ (.s 0))) ⊠ (.c 5)) ⊠ (.c 4))) ⊞ (((((((.s 3) ⊠ (.c 2)) ⊠ (.c 0)) ⊠ (.s 1)) ⊟ (((.c 3) ⊠ (.c 0)) ⊠ (.c 1))) ⊟ (((.s 3) ⊠ (.s 2)) ⊠ (.s 0))) ⊠ (.s 5))⟩,
    ⟨4, 4, (((((((((.neg (.c 3)) ⊠ (.c 2)) ⊠ (.s 0)) ⊠ (.s 1)) ⊟ (((.s 3) ⊠ (.s 0)) ⊠ (.c 1))) ⊟ (((.c 3) ⊠ (.s 2)) ⊠ (.c 0))) ⊠ (.c 5)) ⊠ (.s 4)) ⊞ (((((.c 2) ⊠ (.c 0)) ⊟ (((.s 2) ⊠ (.s 0)) ⊠ (.s 1))) ⊠ (.c 5)) ⊠ (.c 4))) ⊞ (((((((.s 3) ⊠ (.c 2)) ⊠ (.s 0)) ⊠ (.s 1)) ⊟ (((.c 3) ⊠ (.s 0)) ⊠ (.c 1))) ⊞ (((.s 3) ⊠ (.s 2)) ⊠ (.c 0))) ⊠ (.s 5))⟩,
    ⟨4, 5, ((((((((.k 1 0) ⊠ (.c 3)) ⊠ (.c 2)) ⊠ (.c 1)) ⊟ ((.s 3) ⊠ (.s 1))) ⊠ (.c 5)) ⊠ (.s 4)) ⊞ ((((.s 2) ⊠ (.c 1)) ⊠ (.c 5)) ⊠ (.c 4))) ⊞ ((((.neg (.c 3)) ⊠ (.s 1)) ⊟ (((.s 3) ⊠ (.c 2)) ⊠ (.c 1))) ⊠ (.s 5))⟩,
    ⟨5, 0, (((((((((((((((((.k 3 2) ⊠ (.c 3)) ⊠ (.c 2)) ⊠ (.c 0)) ⊠ (.s 1)) ⊞ ((((.k 3 2) ⊠ (.s 3)) ⊠ (.c 0)) ⊠ (.c 1))) ⊟ ((((.k 3 2) ⊠ (.c 3)) ⊠ (.s 2)) ⊠ (.s 0))) ⊠ (.c 5)) ⊞ (((((((.k 296 3) ⊠ (.c 3)) ⊞ (.k 416 3)) ⊠ (.c 2)) ⊠ (.c 0)) ⊟ (((.k 178 3) ⊠ (.s 2)) ⊠ (.s 0))) ⊠ (.s 1))) ⊞ ((((.k 296 3) ⊠ (.s 3)) ⊠ (.c 0)) ⊠ (.c 1))) ⊞ (((((.neg (.k 296 3)) ⊠ (.c 3)) ⊟ (.k 416 3)) ⊠ (.s 2)) ⊠ (.s 0))) ⊞ (((.k 178 3) ⊠ (.c 2)) ⊠ (.c 0))) ⊠ (.s 4)) ⊞ (((((((((((.k 3 2) ⊠ (.s 2)) ⊠ (.c 0)) ⊠ (.s 1)) ⊞ (((.k 3 2) ⊠ (.c 2)) ⊠ (.s 0))) ⊠ (.c 5)) ⊞ ((((((.k 178 3) ⊠ (.c 3)) ⊠ (.c 2)) ⊠ (.s 0)) ⊞ (((((.k 416 3) ⊠ (.c 3)) ⊞ (.k 296 3)) ⊠ (.s 2)) ⊠ (.c 0))) ⊠ (.s 1))) ⊞ ((((.k 178 3) ⊠ (.s 3)) ⊠ (.s 0)) ⊠ (.c 1))) ⊞ (((((.k 416 3) ⊠ (.c 3)) ⊞ (.k 296 3)) ⊠ (.c 2)) ⊠ (.s 0))) ⊞ ((((.k 178 3) ⊠ (.c 3)) ⊠ (.s 2)) ⊠ (.c 0))) ⊠ (.c 4))) ⊞ ((((((((.neg (.k 3 2)) ⊠ (.s 3)) ⊠ (.c 2)) ⊠ (.c 0)) ⊠ (.s 1)) ⊞ ((((.k 3 2) ⊠ (.c 3)) ⊠ (.c 0)) ⊠ (.c 1))) ⊞ ((((.k 3 2) ⊠ (.s 3)) ⊠ (.s 2)) ⊠ (.s 0))) ⊠ (.s 5))) ⊟ (((((.k 2075 5) ⊠ (.s 3)) ⊠ (.c 2)) ⊠ (.c 0)) ⊠ (.s 1))) ⊞ ((((.k 2075 5) ⊠ (.c 3)) ⊠ (.c 0)) ⊠ (.c 1))) ⊞ ((((.k 2075 5) ⊠ (.s 3)) ⊠ (.s 2)) ⊠ (.s 0))⟩,
    ⟨5, 1, (((((((((((((((((.k 3 2) ⊠ (.c 3)) ⊠ (.c 2)) ⊠ (.s 0)) ⊠ (.s 1)) ⊞ ((((.k 3 2) ⊠ (.s 3)) ⊠ (.s 0)) ⊠ (.c 1))) ⊞ ((((.k 3 2) ⊠ (.c 3)) ⊠ (.s 2)) ⊠ (.c 0))) ⊠ (.c 5)) ⊞ (((((((.k 296 3) ⊠ (.c 3)) ⊞ (.k 416 3)) ⊠ (.c 2)) ⊠ (.s 0)) ⊞ (((.k 178 3) ⊠ (.s 2)) ⊠ (.c 0))) ⊠ (.s 1))) ⊞ ((((.k 296 3) ⊠ (.s 3)) ⊠ (.s 0)) ⊠ (.c 1))) ⊞ (((.k 178 3) ⊠ (.c 2)) ⊠ (.s 0))) ⊞ (((((.k 296 3) ⊠ (.c 3)) ⊞ (.k 416 3)) ⊠ (.s 2)) ⊠ (.c 0))) ⊠ (.s 4)) ⊞ (((((((((((.k 3 2) ⊠ (.s 2)) ⊠ (.s 0)) ⊠ (.s 1)) ⊟ (((.k 3 2) ⊠ (.c 2)) ⊠ (.c 0))) ⊠ (.c 5)) ⊞ (((((((.k 416 3) ⊠ (.c 3)) ⊞ (.k 296 3)) ⊠ (.s 2)) ⊠ (.s 0)) ⊟ ((((.k 178 3) ⊠ (.c 3)) ⊠ (.c 2)) ⊠ (.c 0))) ⊠ (.s 1))) ⊟ ((((.k 178 3) ⊠ (.s 3)) ⊠ (.c 0)) ⊠ (.c 1))) ⊞ ((((.k 178 3) ⊠ (.c 3)) ⊠ (.s 2)) ⊠ (.s 0))) ⊞ (((((.neg (.k 416 3)) ⊠ (.c 3)) ⊟ (.k 296 3)) ⊠ (.c 2)) ⊠ (.c 0))) ⊠ (.c 4))) ⊞ ((((((((.neg (.k 3 2)) ⊠ (.s 3)) ⊠ (.c 2)) ⊠ (.s 0)) ⊠ (.s 1)) ⊞ ((((.k 3 2) ⊠ (.c 3)) ⊠ (.s 0)) ⊠ (.c 1))) ⊟ ((((.k 3 2) ⊠ (.s 3)) ⊠ (.s 2)) ⊠ (.c 0))) ⊠ (.s 5))) ⊟ (((((.k 2075 5) ⊠ (.s 3)) ⊠ (.c 2)) ⊠ (.s 0)) ⊠ (.s 1))) ⊞ ((((.k 2075 5) ⊠ (.c 3)) ⊠ (.s 0)) ⊠ (.c 1))) ⊟ ((((.k 2075 5) ⊠ (.s 3)) ⊠ (.s 2)) ⊠ (.c 0))⟩,
    ⟨5, 2, (((((((((((.k 3 2) ⊠ (.s 3)) ⊠ (.s 1)) ⊟ ((((.k 3 2) ⊠ (.c 3)) ⊠ (.c 2)) ⊠ (.c 1))) ⊠ (.c 5)) ⊞ (((.k 296 3) ⊠ (.s 3)) ⊠ (.s 1))) ⊞ (((((.neg (.k 296 3)) ⊠ (.c 3)) ⊟ (.k 416 3)) ⊠ (.c 2)) ⊠ (.c 1))) ⊠ (.s 4)) ⊞ (((((((.neg (.k 416 3)) ⊠ (.c 3)) ⊟ (.k 296 3)) ⊠ (.s 2)) ⊠ (.c 1)) ⊟ ((((.k 3 2) ⊠ (.s 2)) ⊠ (.c 1)) ⊠ (.c 5))) ⊠ (.c 4))) ⊞ (((((.k 3 2) ⊠ (.c 3)) ⊠ (.s 1)) ⊞ ((((.k 3 2) ⊠ (.s 3)) ⊠ (.c 2)) ⊠ (.c 1))) ⊠ (.s 5))) ⊞ (((.k 2075 5) ⊠ (.c 3)) ⊠ (.s 1))) ⊞ ((((.k 2075 5) ⊠ (.s 3)) ⊠ (.c 2)) ⊠ (.c 1))⟩,
    ⟨5, 3, (((((.s 2) ⊠ (.c 0)) ⊠ (.s 1)) ⊞ ((.c 2) ⊠ (.s 0))) ⊠ (.s 4)) ⊞ (((((((.neg (.c 3)) ⊠ (.c 2)) ⊠ (.c 0)) ⊠ (.s 1)) ⊟ (((.s 3) ⊠ (.c 0)) ⊠ (.c 1))) ⊞ (((.c 3) ⊠ (.s 2)) ⊠ (.s 0))) ⊠ (.c 4))⟩,
    ⟨5, 4, (((((.s 2) ⊠ (.s 0)) ⊠ (.s 1)) ⊟ ((.c 2) ⊠ (.c 0))) ⊠ (.s 4)) ⊞ (((((((.neg (.c 3)) ⊠ (.c 2)) ⊠ (.s 0)) ⊠ (.s 1)) ⊟ (((.s 3) ⊠ (.s 0)) ⊠ (.c 1))) ⊟ (((.c 3) ⊠ (.s 2)) ⊠ (.c 0))) ⊠ (.c 4))⟩,
    ⟨5, 5, ((((((.k 1 0) ⊠ (.c 3)) ⊠ (.c 2)) ⊠ (.c 1)) ⊟ ((.s 3) ⊠ (.s 1))) ⊠ (.c 4)) ⊟ (((.s 2) ⊠ (.c 1)) ⊠ (.s 4))⟩]

/-- `ForceTransforms::Type_fr_ee_X_fr_HyABase` (transforms.impl.h:5030-5041, 5043-5098). -/
def force_fr_ee_X_fr_HyABase : Gen where
  rows := 6
  cols := 6
  ctor := [⟨3, 0, .k 0 0⟩,
    ⟨3, 1, .k 0 0⟩,
    ⟨3, 2, .k 0 0⟩,
    ⟨4, 0, .k 0 0⟩,
    ⟨4, 1, .k 0 0⟩,
    ⟨4, 2, .k 0 0⟩,
    ⟨5, 0, .k 0 0⟩,
    ⟨5, 1, .k 0 0⟩,
    ⟨5, 2, .k 0 0⟩]
  upd := [⟨0, 0, (((((((((.neg (.c 3)) ⊠ (.c 2)) ⊠ (.c 0)) ⊠ (.s 1)) ⊟ (((.s 3) ⊠ (.c 0)) ⊠ (.c 1))) ⊞ (((.c 3) ⊠ (.s 2)) ⊠ (.s 0))) ⊠ (.s 5)) ⊠ (.s 4)) ⊞ ((((((.neg (.s 2)) ⊠ (.c 0)) ⊠ (.s 1)) ⊟ ((.c 2) ⊠ (.s 0))) ⊠ (.s 5)) ⊠ (.c 4))) ⊞ (((((((.neg (.s 3)) ⊠ (.c 2)) ⊠ (.c 0)) ⊠ (.s 1)) ⊞ (((.c 3) ⊠ (.c 0)) ⊠ (.c 1))) ⊞ (((.s 3) ⊠ (.s 2)) ⊠ (.s 0))) ⊠ (.c 5))⟩,
    ⟨0, 1, (((((((((.neg (.c 3)) ⊠ (.c 2)) ⊠ (.s 0)) ⊠ (.s 1)) ⊟ (((.s 3) ⊠ (.s 0)) ⊠ (.c 1))) ⊟ (((.c 3) ⊠ (.s 2)) ⊠ (.c 0))) ⊠ (.s 5)) ⊠ (.s 4)) ⊞ (((((.c 2) ⊠ (.c 0)) ⊟ (((.s 2) ⊠ (.s 0)) ⊠ (.s 1))) ⊠ (.s 5)) ⊠ (.c 4))) ⊞ (((((((.neg (.s 3)) ⊠ (.c 2)) ⊠ (.s 0)) ⊠ (.s 1)) ⊞ (((.c 3) ⊠ (.s 0)) ⊠ (.c 1))) ⊟ (((.s 3) ⊠ (.s 2)) ⊠ (.c 0))) ⊠ (.c 5))⟩,
    ⟨0, 2, ((((((((.k 1 0) ⊠ (.c 3)) ⊠ (.c 2)) ⊠ (.c 1)) ⊟ ((.s 3) ⊠ (.s 1))) ⊠ (.s 5)) ⊠ (.s 4)) ⊞ ((((.s 2) ⊠ (.c 1)) ⊠ (.s 5)) ⊠ (.c 4))) ⊞ (((((.k 1 0) ⊠ (.c 3)) ⊠ (.s 1)) ⊞ (((.s 3) ⊠ (.c 2)) ⊠ (.c 1))) ⊠ (.c 5))⟩,
    ⟨0, 3, (((((((((((((.k 178 3) ⊠ (.c 3)) ⊠ (.c 2)) ⊠ (.s 0)) ⊞ (((((.k 416 3) ⊠ (.c 3)) ⊞ (.k 296 3)) ⊠ (.s 2)) ⊠ (.c 0))) ⊠ (.s 1)) ⊞ ((((.k 178 3) ⊠ (.s 3)) ⊠ (.s 0)) ⊠ (.c 1))) ⊞ (((((.k 416 3) ⊠ (.c 3)) ⊞ (.k 296 3)) ⊠ (.c 2)) ⊠ (.s 0))) ⊞ ((((.k 178 3) ⊠ (.c 3)) ⊠ (.s 2)) ⊠ (.c 0))) ⊠ (.s 5)) ⊞ ((((((.neg (.k 2075 5)) ⊠ (.s 2)) ⊠ (.c 0)) ⊠ (.s 1)) ⊟ (((.k 2075 5) ⊠ (.c 2)) ⊠ (.s 0))) ⊠ (.c 5))) ⊠ (.s 4)) ⊞ (((((((((((.k 178 3) ⊠ (.s 2)) ⊠ (.s 0)) ⊞ (((((.neg (.k 296 3)) ⊠ (.c 3)) ⊟ (.k 416 3)) ⊠ (.c 2)) ⊠ (.c 0))) ⊠ (.s 1)) ⊟ ((((.k 296 3) ⊠ (.s 3)) ⊠ (.c 0)) ⊠ (.c 1))) ⊞ (((((.k 296 3) ⊠ (.c 3)) ⊞ (.k 416 3)) ⊠ (.s 2)) ⊠ (.s 0))) ⊟ (((.k 178 3) ⊠ (.c 2)) ⊠ (.c 0))) ⊠ (.s 5)) ⊞ ((((((((.k 2075 5) ⊠ (.c 3)) ⊠ (.c 2)) ⊠ (.c 0)) ⊠ (.s 1)) ⊞ ((((.k 2075 5) ⊠ (.s 3)) ⊠ (.c 0)) ⊠ (.c 1))) ⊟ ((((.k 2075 5) ⊠ (.c 3)) ⊠ (.s 2)) ⊠ (.s 0))) ⊠ (.c 5))) ⊠ (.c 4))) ⊞ ((((((((((.k 178 3) ⊠ (.s 3)) ⊠ (.c 2)) ⊠ (.s 0)) ⊞ ((((.k 416 3) ⊠ (.s 3)) ⊠ (.s 2)) ⊠ (.c 0))) ⊠ (.s 1)) ⊟ ((((.k 178 3) ⊠ (.c 3)) ⊠ (.s 0)) ⊠ (.c 1))) ⊞ ((((.k 416 3) ⊠ (.s 3)) ⊠ (.c 2)) ⊠ (.s 0))) ⊞ ((((.k 178 3) ⊠ (.s 3)) ⊠ (.s 2)) ⊠ (.c 0))) ⊠ (.c 5))⟩,
    ⟨0, 4, ((((((((((((((.k 416 3) ⊠ (.c 3)) ⊞ (.k 296 3)) ⊠ (.s 2)) ⊠ (.s 0)) ⊟ ((((.k 178 3) ⊠ (.c 3)) ⊠ (.c 2)) ⊠ (.c 0))) ⊠ (.s 1)) ⊟ ((((.k 178 3) ⊠ (.s 3)) ⊠ (.c 0)) ⊠ (.c 1))) ⊞ ((((.k 178 3) ⊠ (.c 3)) ⊠ (.s 2)) ⊠ (.s 0))) ⊞ (((((.neg (.k 416 3)) ⊠ (.c 3)) ⊟ (.k 296 3)) ⊠ (.c 2)) ⊠ (.c 0))) ⊠ (.s 5)) ⊞ (((((.k 2075 5) ⊠ (.c 2)) ⊠ (.c 0)) ⊟ ((((.k 2075 5) ⊠ (.s 2)) ⊠ (.s 0)) ⊠ (.s 1))) ⊠ (.c 5))) ⊠ (.s 4)) ⊞ (((((((((((((.neg (.k 296 3)) ⊠ (.c 3)) ⊟ (.k 416 3)) ⊠ (.c 2)) ⊠ (.s 0)) ⊟ (((.k 178 3) ⊠ (.s 2)) ⊠ (.c 0))) ⊠ (.s 1)) ⊟ ((((.k 296 3) ⊠ (.s 3)) ⊠ (.s 0)) ⊠ (.c 1))) ⊟ (((.k 178 3) ⊠ (.c 2)) ⊠ (.s 0))) ⊞ (((((.neg (.k 296 3)) ⊠ (.c 3)) ⊟ (.k 416 3)) ⊠ (.s 2)) ⊠ (.c 0))) ⊠ (.s 5)) ⊞ ((((((((.k 2075 5) ⊠ (.c 3)) ⊠ (.c 2)) ⊠ (.s 0)) ⊠ (.s 1)) ⊞ ((((.k 2075 5) ⊠ (.s 3)) ⊠ (.s 0)) ⊠ (.c 1))) ⊞ ((((.k 2075 5) ⊠ (.c 3)) ⊠ (.s 2)) ⊠ (.c 0))) ⊠ (.c 5))) ⊠ (.c 4))) ⊞ ((((((((((.k 416 3) ⊠ (.s 3)) ⊠ (.s 2)) ⊠ (.s 0)) ⊟ ((((.k 178 3) ⊠ (.s 3)) ⊠ (.c 2)) ⊠ (.c 0))) ⊠ (.s 1)) ⊞ ((((.k 178 3) ⊠ (.c 3)) ⊠ (.c 0)) ⊠ (.c 1))) ⊞ ((((.k 178 3) ⊠ (.s 3)) ⊠ (.s 2)) ⊠ (.s 0))) ⊟ ((((.k 416 3) ⊠ (.s 3)) ⊠ (.c 2)) ⊠ (.c 0))) ⊠ (.c 5))⟩,
    ⟨0, 5, (((((((((.neg (.k 416 3)) ⊠ (.c 3)) ⊟ (.k 296 3)) ⊠ (.s 2)) ⊠ (.c 1)) ⊠ (.s 5)) ⊞ ((((.k 2075 5) ⊠ (.s 2)) ⊠ (.c 1)) ⊠ (.c 5))) ⊠ (.s 4)) ⊞ (((((((((.k 296 3) ⊠ (.c 3)) ⊞ (.k 416 3)) ⊠ (.c 2)) ⊠ (.c 1)) ⊟ (((.k 296 3) ⊠ (.s 3)) ⊠ (.s 1))) ⊠ (.s 5)) ⊞ (((((.k 2075 5) ⊠ (.s 3)) ⊠ (.s 1)) ⊟ ((((.k 2075 5) ⊠ (.c 3)) ⊠ (.c 2)) ⊠ (.c 1))) ⊠ (.c 5))) ⊠ (.c 4))) ⊟ (((((.k 416 3) ⊠ (.s 3)) ⊠ (.s 2)) ⊠ (.c 1)) ⊠ (.c 5))⟩,
    ⟨1, 0, (((((((((.neg (.c 3)) ⊠ (.c 2)) ⊠ (.c 0)) ⊠ (.s 1)) ⊟ (((.s 3) ⊠ (.c 0)) ⊠ (.c 1))) ⊞ (((.c 3) ⊠ (.s 2)) ⊠ (.s 0))) ⊠ (.c 5)) ⊠ (.s 4)) ⊞ ((((((.neg (.s 2)) ⊠ (.c 0)) ⊠ (.s 1)) ⊟ ((.c 2) ⊠ (.s 0))) ⊠ (.c 5)) ⊠ (.c 4))) ⊞ (((((((.s 3) ⊠ (.c 2)) ⊠ (.c 0)) ⊠ (.s 1)) ⊟ (((.c 3) ⊠ (.c 0)) ⊠ (.c 1))) ⊟ (((.s 3) ⊠ (.s 2)) ⊠ (.s 0))) ⊠ (.s 5))⟩,
    ⟨1, 1, (((((((((.neg (.c 3)) ⊠ (.c 2)) ⊠ (.s 0)) ⊠ (.s 1)) ⊟ (((.s 3) ⊠ (.s 0)) ⊠ (.c 1))) ⊟ (((.c 3) ⊠ (.s 2)) ⊠ (.c 0))) ⊠ (.c 5)) ⊠ (.s 4)) ⊞ (((((.c 2) ⊠ (.c 0)) ⊟ (((.s 2) ⊠ (.s 0)) ⊠ (.s 1))) ⊠ (.c 5)) ⊠ (.c 4))) ⊞ (((((((.s 3) ⊠ (.c 2)) ⊠ (.s 0)) ⊠ (.s 1)) ⊟ (((.c 3) ⊠ (.s 0)) ⊠ (.c 1))) ⊞ (((.s 3) ⊠ (.s 2)) ⊠ (.c 0))) ⊠ (.s 5))⟩,
    ⟨1, 2, ((((((((.k 1 0) ⊠ (.c 3)) ⊠ (.c 2)) ⊠ (.c 1)) ⊟ ((.s 3) ⊠ (.s 1))) ⊠ (.c 5)) ⊠ (.s 4)) ⊞ ((((.s 2) ⊠ (.c 1)) ⊠ (.c 5)) ⊠ (.c 4))) ⊞ ((((.neg (.c 3)) ⊠ (.s 1)) ⊟ (((.s 3) ⊠ (.c 2)) ⊠ (.c 1))) ⊠ (.s 5))⟩,
    ⟨1, 3, (((((((((((.k 2075 5) ⊠ (.s 2)) ⊠ (.c 0)) ⊠ (.s 1)) ⊞ (((.k 2075 5) ⊠ (.c 2)) ⊠ (.s 0))) ⊠ (.s 5)) ⊞ ((((((((((.k 178 3) ⊠ (.c 3)) ⊠ (.c 2)) ⊠ (.s 0)) ⊞ (((((.k 416 3) ⊠ (.c 3)) ⊞ (.k 296 3)) ⊠ (.s 2)) ⊠ (.c 0))) ⊠ (.s 1)) ⊞ ((((.k 178 3) ⊠ (.s 3)) ⊠ (.s 0)) ⊠ (.c 1))) ⊞ (((((.k 416 3) ⊠ (.c 3)) ⊞ (.k 296 3)) ⊠ (.c 2)) ⊠ (.s 0))) ⊞ ((((.k 178 3) ⊠ (.c 3)) ⊠ (.s 2)) ⊠ (.c 0))) ⊠ (.c 5))) ⊞ ((((.k 3 2) ⊠ (.s 2)) ⊠ (.c 0)) ⊠ (.s 1))) ⊞ (((.k 3 2) ⊠ (.c 2)) ⊠ (.s 0))) ⊠ (.s 4)) ⊞ (((((((((((((.neg (.k 2075 5)) ⊠ (.c 3)) ⊠ (.c 2)) ⊠ (.c 0)) ⊠ (.s 1)) ⊟ ((((.k 2075 5) ⊠ (.s 3)) ⊠ (.c 0)) ⊠ (.c 1))) ⊞ ((((.k 2075 5) ⊠ (.c 3)) ⊠ (.s 2)) ⊠ (.s 0))) ⊠ (.s 5)) ⊞ (((((((((.k 178 3) ⊠ (.s 2)) ⊠ (.s 0)) ⊞ (((((.neg (.k 296 3)) ⊠ (.c 3)) ⊟ (.k 416 3)) ⊠ (.c 2)) ⊠ (.c 0))) ⊠ (.s 1)) ⊟ ((((.k 296 3) ⊠ (.s 3)) ⊠ (.c 0)) ⊠ (.c 1))) ⊞ (((((.k 296 3) ⊠ (.c 3)) ⊞ (.k 416 3)) ⊠ (.s 2)) ⊠ (.s 0))) ⊟ (((.k 178 3) ⊠ (.c 2)) ⊠ (.c 0))) ⊠ (.c 5))) ⊟ (((((.k 3 2) ⊠ (.c 3)) ⊠ (.c 2)) ⊠ (.c 0)) ⊠ (.s 1))) ⊟ ((((.k 3 2) ⊠ (.s 3)) ⊠ (.c 0)) ⊠ (.c 1))) ⊞ ((((.k 3 2) ⊠ (.c 3)) ⊠ (.s 2)) ⊠ (.s 0))) ⊠ (.c 4))) ⊞ ((((((((((.neg (.k 178 3)) ⊠ (.s 3)) ⊠ (.c 2)) ⊠ (.s 0)) ⊟ ((((.k 416 3) ⊠ (.s 3)) ⊠ (.s 2)) ⊠ (.c 0))) ⊠ (.s 1)) ⊞ ((((.k 178 3) ⊠ (.c 3)) ⊠ (.s 0)) ⊠ (.c 1))) ⊟ ((((.k 416 3) ⊠ (.s 3)) ⊠ (.c 2)) ⊠ (.s 0))) ⊟ ((((.k 178 3) ⊠ (.s 3)) ⊠ (.s 2)) ⊠ (.c 0))) ⊠ (.s 5))⟩,
    ⟨1, 4, (((((((((((.k 2075 5) ⊠ (.s 2)) ⊠ (.s 0)) ⊠ (.s 1)) ⊟ (((.k 2075 5) ⊠ (.c 2)) ⊠ (.c 0))) ⊠ (.s 5)) ⊞ (((((((((((.k 416 3) ⊠ (.c 3)) ⊞ (.k 296 3)) ⊠ (.s 2)) ⊠ (.s 0)) ⊟ ((((.k 178 3) ⊠ (.c 3)) ⊠ (.c 2)) ⊠ (.c 0))) ⊠ (.s 1)) ⊟ ((((.k 178 3) ⊠ (.s 3)) ⊠ (.c 0)) ⊠ (.c 1))) ⊞ ((((.k 178 3) ⊠ (.c 3)) ⊠ (.s 2)) ⊠ (.s 0))) ⊞ (((((.neg (.k 416 3)) ⊠ (.c 3)) ⊟ (.k 296 3)) ⊠ (.c 2)) ⊠ (.c 0))) ⊠ (.c 5))) ⊞ ((((.k 3 2) ⊠ (.s 2)) ⊠ (.s 0)) ⊠ (.s 1))) ⊟ (((.k 3 2) ⊠ (.c 2)) ⊠ (.c 0))) ⊠ (.s 4)) ⊞ (((((((((((((.neg (.k 2075 5)) ⊠ (.c 3)) ⊠ (.c 2)) ⊠ (.s 0)) ⊠ (.s 1)) ⊟ ((((.k 2075 5) ⊠ (.s 3)) ⊠ (.s 0)) ⊠ (.c 1))) ⊟ ((((.k 2075 5) ⊠ (.c 3)) ⊠ (.s 2)) ⊠ (.c 0))) ⊠ (.s 5)) ⊞ (((((((((((.neg (.k 296 3)) ⊠ (.c 3)) ⊟ (.k 416 3)) ⊠ (.c 2)) ⊠ (.s 0)) ⊟ (((.k 178 3) ⊠ (.s 2)) ⊠ (.c 0))) ⊠ (.s 1)) ⊟ ((((.k 296 3) ⊠ (.s 3)) ⊠ (.s 0)) ⊠ (.c 1))) ⊟ (((.k 178 3) ⊠ (.c 2)) ⊠ (.s 0))) ⊞ (((((.neg (.k 296 3)) ⊠ (.c 3)) ⊟ (.k 416 3)) ⊠ (.s 2)) ⊠ (.c 0))) ⊠ (.c 5))) ⊟ (((((.k 3 2) ⊠ (.c 3)) ⊠ (.c 2)) ⊠ (.s 0)) ⊠ (.s 1))) ⊟ ((((.k 3 2) ⊠ (.s 3)) ⊠ (.s 0)) ⊠ (.c 1))) ⊟ ((((.k 3 2) ⊠ (.c 3)) ⊠ (.s 2)) ⊠ (.c 0))) ⊠ (.c 4))) ⊞ ((((((((((.k 178 3) ⊠ (.s 3)) ⊠ (.c 2)) ⊠ (.c 0)) ⊟ ((((.k 416 3) ⊠ (.s 3)) ⊠ (.s 2)) ⊠ (.s 0))) ⊠ (.s 1)) ⊟ ((((.k 178 3) ⊠ (.c 3)) ⊠ (.c 0)) ⊠ (.c 1))) ⊟ ((((.k 178 3) ⊠ (.s 3)) ⊠ (.s 2)) ⊠ (.s 0))) ⊞ ((((.k 416 3) ⊠ (.s 3)) ⊠ (.c 2)) ⊠ (.c 0))) ⊠ (.s 5))⟩,
    ⟨1, 5, ((((((((.neg (.k 2075 5)) ⊠ (.s 2)) ⊠ (.c 1)) ⊠ (.s 5)) ⊞ ((((((.neg (.k 416 3)) ⊠ (.c 3)) ⊟ (.k 296 3)) ⊠ (.s 2)) ⊠ (.c 1)) ⊠ (.c 5))) ⊟ (((.k 3 2) ⊠ (.s 2)) ⊠ (.c 1))) ⊠ (.s 4)) ⊞ ((((((((((.k 2075 5) ⊠ (.c 3)) ⊠ (.c 2)) ⊠ (.c 1)) ⊟ (((.k 2075 5) ⊠ (.s 3)) ⊠ (.s 1))) ⊠ (.s 5)) ⊞ (((((((.k 296 3) ⊠ (.c 3)) ⊞ (.k 416 3)) ⊠ (.c 2)) ⊠ (.c 1)) ⊟ (((.k 296 3) ⊠ (.s 3)) ⊠ (.s 1))) ⊠ (.c 5))) ⊟ (((.k 3 2) ⊠ (.s 3)) ⊠ (.s 1))) ⊞ ((((.k 3 2) ⊠ (.c 3)) ⊠ (.c 2)) ⊠ (.c 1))) ⊠ (.c 4))) ⊞ (((((.k 416 3) ⊠ (.s 3)) ⊠ (.s 2)) ⊠ (.c 1)) ⊠ (.s 5))⟩,
    ⟨2, 0, (((((.s 2) ⊠ (.c 0)) ⊠ (.s 1)) ⊞ ((.c 2) ⊠ (.s 0))) ⊠ (.s 4)) ⊞ (((((((.neg (.c 3)) ⊠ (.c 2)) ⊠ (.c 0)) ⊠ (.s 1)) ⊟ (((.s 3) ⊠ (.c 0)) ⊠ (.c 1))) ⊞ (((.c 3) ⊠ (.s 2)) ⊠ (.s 0))) ⊠ (.c 4))⟩,
    ⟨2, 1, (((((.s 2) ⊠ (.s 0)) ⊠ (.s 1)) ⊟ ((.c 2) ⊠ (.c 0))) ⊠ (.s 4)) ⊞ (((((((.neg (.c 3)) ⊠ (.c 2)) ⊠ (.s 0)) ⊠ (.s 1)) ⊟ (((.s 3) ⊠ (.s 0)) ⊠ (.c 1))) ⊟ (((.c 3) ⊠ (.s 2)) ⊠ (.c 0))) ⊠ (.c 4))⟩,
    ⟨2, 2, ((((((.k 1 0) ⊠ (.c 3)) ⊠ (.c 2)) ⊠ (.c 1)) ⊟ ((.s 3) ⊠ (.s 1))) ⊠ (.c 4)) ⊟ (((.s 2) ⊠ (.c 1)) ⊠ (.s 4))⟩,
    ⟨2, 3, (((((((((((((((((.k 3 2) ⊠ (.c 3)) ⊠ (.c 2)) ⊠ (.c 0)) ⊠ (.s 1)) ⊞ ((((.k 3 2) ⊠ (.s 3)) ⊠ (.c 0)) ⊠ (.c 1))) ⊟ ((((.k 3 2) ⊠ (.c 3)) ⊠ (.s 2)) ⊠ (.s 0))) ⊠ (.c 5)) ⊞ (((((((.k 296 3) ⊠ (.c 3)) ⊞ (.k 416 3)) ⊠ (.c 2)) ⊠ (.c 0)) ⊟ (((.k 178 3) ⊠ (.s 2)) ⊠ (.s 0))) ⊠ (.s 1))) ⊞ ((((.k 296 3) ⊠ (.s 3)) ⊠ (.c 0)) ⊠ (.c 1))) ⊞ (((((.neg (.k 296 3)) ⊠ (.c 3)) ⊟ (.k 416 3)) ⊠ (.s 2)) ⊠ (.s 0))) ⊞ (((.k 178 3) ⊠ (.c 2)) ⊠ (.c 0))) ⊠ (.s 4)) ⊞ (((((((((((.k 3 2) ⊠ (.s 2)) ⊠ (.c 0)) ⊠ (.s 1)) ⊞ (((.k 3 2) ⊠ (.c 2)) ⊠ (.s 0))) ⊠ (.c 5)) ⊞ ((((((.k 178 3) ⊠ (.c 3)) ⊠ (.c 2)) ⊠ (.s 0)) ⊞ (((((.k 416 3) ⊠ (.c 3)) ⊞ (.k 296 3)) ⊠ (.s 2)) ⊠ (.c 0))) ⊠ (.s 1))) ⊞ ((((.k 178 3) ⊠ (.s 3)) ⊠ (.s 0)) ⊠ (.c 1))) ⊞ (((((.k 416 3) ⊠ (.c 3)) ⊞ (.k 296 3)) ⊠ (.c 2)) ⊠ (.s 0))) ⊞ ((((.k 178 3) ⊠ (.c 3)) ⊠ (.s 2)) ⊠ (.c 0))) ⊠ (.c 4))) ⊞ ((((((((.neg (.k 3 2)) ⊠ (.s 3)) ⊠ (.c 2)) ⊠ (.c 0)) ⊠ (.s 1)) ⊞ ((((.k 3 2) ⊠ (.c 3)) ⊠ (.c 0)) ⊠ (.c 1))) ⊞ ((((.k 3 2) ⊠ (.s 3)) ⊠ (.s 2)) ⊠ (.s 0))) ⊠ (.s 5))) ⊟ (((((.k 2075 5) ⊠ (.s 3)) ⊠ (.c 2)) ⊠ (.c 0)) ⊠ (.s 1))) ⊞ ((((.k 2075 5) ⊠ (.c 3)) ⊠ (.c 0)) ⊠ (.c 1))) ⊞ ((((.k 2075 5) ⊠ (.s 3)) ⊠ (.s 2)) ⊠ (.s 0))⟩,
    ⟨2, 4, (((((((((((((((((.k 3 2) ⊠ (.c 3)) ⊠ (.c 2)) ⊠ (.s 0)) ⊠ (.s 1)) ⊞ ((((.k 3 2) ⊠ (.s 3)) ⊠ (.s 0)) ⊠ (.c 1))) ⊞ ((((.k 3 2) ⊠ (.c 3)) ⊠ (.s 2)) ⊠ (.c 0))) ⊠ (.c 5)) ⊞ (((((((.k 296 3) ⊠ (.c 3)) ⊞ (.k 416 3)) ⊠ (.c 2)) ⊠ (.s 0)) ⊞ (((.k 178 3) ⊠ (.s 2)) ⊠ (.c 0))) ⊠ (.s 1))) ⊞ ((((.k 296 3) ⊠ (.s 3)) ⊠ (.s 0)) ⊠ (.c 1))) ⊞ (((.k 178 3) ⊠ (.c 2)) ⊠ (.s 0))) ⊞ (((((.k 296 3) ⊠ (.c 3)) ⊞ (.k 416 3)) ⊠ (.s 2)) ⊠ (.c 0))) ⊠ (.s 4)) ⊞ (((((((((((.k 3 2) ⊠ (.s 2)) ⊠ (.s 0)) ⊠ (.s 1)) ⊟ (((.k 3 2) ⊠ (.c 2)) ⊠ (.c 0))) ⊠ (.c 5)) ⊞ (((((((.k 416 3) ⊠ (.c 3)) ⊞ (.k 296 3)) ⊠ (.s 2)) ⊠ (.s 0)) ⊟ ((((.k 178 3) ⊠ (.c 3)) ⊠ (.c 2)) ⊠ (.c 0))) ⊠ (.s 1))) ⊟ ((((.k 178 3) ⊠ (.s 3)) ⊠ (.c 0)) ⊠ (.c 1))) ⊞ ((((.k 178 3) ⊠ (.c 3)) ⊠ (.s 2)) ⊠ (.s 0))) ⊞ (((((.neg (.k 416 3)) ⊠ (.c 3)) ⊟ (.k 296 3)) ⊠ (.c 2)) ⊠ (.c 0))) ⊠ (.c 4))) ⊞ ((((((((.neg (.k 3 2)) ⊠ (.s 3)) ⊠ (.c 2)) ⊠ (.s 0)) ⊠ (.s 1)) ⊞ ((((.k 3 2) ⊠ (.c 3)) ⊠ (.s 0)) ⊠ (.c 1))) ⊟ ((((.k 3 2) ⊠ (.s 3)) ⊠ (.s 2)) ⊠ (.c 0))) ⊠ (.s 5))) ⊟ (((((.k 2075 5) ⊠ (.s 3)) ⊠ (.c 2)) ⊠ (.s 0)) ⊠ (.s 1))) ⊞ ((((.k 2075 5) ⊠ (.c 3)) ⊠ (.s 0)) ⊠ (.c 1))) ⊟ ((((.k 2075 5) ⊠ (.s 3)) ⊠ (.s 2)) ⊠ (.c 0))⟩,
    ⟨2, 5, (((((((((((.k 3 2) ⊠ (.s 3)) ⊠ (.s 1)) ⊟ ((((.k 3 2) ⊠ (.c 3)) ⊠ (.c 2)) ⊠ (.c 1))) ⊠ (.c 5)) ⊞ (((.k 296 3) ⊠ (.s 3)) ⊠ (.s 1))) ⊞ (((((.neg (.k 296 3)) ⊠ (.c 3)) ⊟ (.k 416 3)) ⊠ (.c 2)) ⊠ (.c 1))) ⊠ (.s 4)) ⊞ (((((((.neg (.k 416 3)) ⊠ (.c 3)) ⊟ (.k 296 3)) ⊠ (.s 2)) ⊠ (.c 1)) ⊟ ((((.k 3 2) ⊠ (.s 2)) ⊠ (.c 1)) ⊠ (.c 5))) ⊠ (.c 4))) ⊞ (((((.k 3 2) ⊠ (.c 3)) ⊠ (.s 1)) ⊞ ((((.k 3 2) ⊠ (.s 3)) ⊠ (.c 2)) ⊠ (.c 1))) ⊠ (.s 5))) ⊞ (((.k 2075 5) ⊠ (.c 3)) ⊠ (.s 1))) ⊞ ((((.k 2075 5) ⊠ (.s 3)) ⊠ (.c 2)) ⊠ (.c 1))⟩,
    ⟨3, 3, (((((((((.neg (.c 3)) ⊠ (.c 2)) ⊠ (.c 0)) ⊠ (.s 1)) ⊟ (((.s 3) ⊠ (.c 0)) ⊠ (.c 1))) ⊞ (((.c 3) ⊠ (.s 2)) ⊠ (.s 0))) ⊠ (.s 5)) ⊠ (.s 4)) ⊞ ((((((.neg (.s 2)) ⊠ (.c 0)) ⊠ (.s 1)) ⊟ ((.c 2) ⊠ (.s 0))) ⊠ (.s 5)) ⊠ (.c 4))) ⊞ (((((((.neg (.s 3)) ⊠ (.c 2)) ⊠ (.c 0)) ⊠ (.s 1)) ⊞ (((.c 3) ⊠ (.c 0)) ⊠ (.c 1))) ⊞ (((.s 3) ⊠ (.s 2)) ⊠ (.s 0))) ⊠ (.c 5))⟩,
    ⟨3, 4, (((((((((.neg (.c 3)) ⊠ (.c 2)) ⊠ (.s 0)) ⊠ (.s 1)) ⊟ (((.s 3) ⊠ (.s 0)) ⊠ (.c 1))) ⊟ (((.c 3) ⊠ (.s 2)) ⊠ (.c 0))) ⊠ (.s 5)) ⊠ (.s 4)) ⊞ (((((.c 2) ⊠ (.c 0)) ⊟ (((.s 2) ⊠ (.s 0)) ⊠ (.s 1))) ⊠ (.s 5)) ⊠ (.c 4))) ⊞ (((((((.neg (.s 3)) ⊠ (.c 2)) ⊠ (.s 0)) ⊠ (.s 1)) ⊞ (((.c 3) ⊠ (.s 0)) ⊠ (.c 1))) ⊟ (((.s 3) ⊠ (.s 2)) ⊠ (.c 0))) ⊠ (.c 5))⟩,
    ⟨3, 5, ((((((((.k 1 0) ⊠ (.c 3)) ⊠ (.c 2)) ⊠ (.c 1)) ⊟ ((.s 3) ⊠ (.s 1))) ⊠ (.s 5)) ⊠ (.s 4)) ⊞ ((((.s 2) ⊠ (.c 1)) ⊠ (.s 5)) ⊠ (.c 4))) ⊞ (((((.k 1 0) ⊠ (.c 3)) ⊠ (.s 1)) ⊞ (((.s 3) ⊠ (.c 2)) ⊠ (.c 1))) ⊠ (.c 5))⟩,
    ⟨4, 3, (((((((((.neg (.c 3)) ⊠ (.c 2)) ⊠ (.c 0)) ⊠ (.s 1)) ⊟ (((.s 3) ⊠ (.c 0)) ⊠ (.c 1))) ⊞ (((.c 3) ⊠ (.s 2)) ⊠ (.s 0))) ⊠ (.c 5)) ⊠ (.s 4)) ⊞ ((((((.neg (.s 2)) ⊠ (.c 0)) ⊠ (.s 1)) ⊟ ((.c 2) ⊠ (.s 0))) ⊠ (.c 5)) ⊠ (.c 4))) ⊞ (((((((.s 3) ⊠ (.c 2)) ⊠ (.c 0)) ⊠ (.s 1)) ⊟ (((.c 3) ⊠ (.c 0)) ⊠ (.c 1))) ⊟ (((.s 3) ⊠ (.s 2)) ⊠ (.s 0))) ⊠ (.s 5))⟩,
    ⟨4, 4, (((((((((.neg (.c 3)) ⊠ (.c 2)) ⊠ (.s 0)) ⊠ (.s 1)) ⊟ (((.s 3) ⊠ (.s 0)) ⊠ (.c 1))) ⊟ (((.c 3) ⊠ (.s 2)) ⊠ (.c 0))) ⊠ (.c 5)) ⊠ (.s 4)) ⊞ (((((.c 2) ⊠ (.c 0)) ⊟ (((.s 2) ⊠ (.s 0)) ⊠ (.s 1))) ⊠ (.c 5)) ⊠ (.c 4))) ⊞ (((((((.s 3) ⊠ (.c 2)) ⊠ (.s 0)) ⊠ (.s 1)) ⊟ (((.c 3) ⊠ (.s 0)) ⊠ (.c 1))) ⊞ (((.s 3) ⊠ (.s 2)) ⊠ (.c 0))) ⊠ (.s 5))⟩,
    ⟨4, 5, ((((((((.k 1 0) ⊠ (.c 3)) ⊠ (.c 2)) ⊠ (.c 1)) ⊟ ((.s 3) ⊠ (.s 1))) ⊠ (.c 5)) ⊠ (.s 4)) ⊞ ((((.s 2) ⊠ (.c 1)) ⊠ (.c 5)) ⊠ (.c 4))) ⊞ ((((.neg (.c 3)) ⊠ (.s 1)) ⊟ (((.s 3) ⊠ (.c 2)) ⊠ (.c 1))) ⊠ (.s 5))⟩,
    ⟨5, 3, (((((.s 2) ⊠ (.c 0)) ⊠ (.s 1)) ⊞ ((.c 2) ⊠ (.s 0))) ⊠ (.s 4)) ⊞ (((((((.neg (.c 3)) ⊠ (.c 2)) ⊠ (.c 0)) ⊠ (.s 1)) ⊟ (((.s 3) ⊠ (.c 0)) ⊠ (.c 1))) ⊞ (((.c 3) ⊠ (.s 2)) ⊠ (.s 0))) ⊠ (.c 4))⟩,
    ⟨5, 4, (((((.s 2) ⊠ (.s 0)) ⊠ (.s 1)) ⊟ ((.c 2) ⊠ (.c 0))) ⊠ (.s 4)) ⊞ (((((((.neg (.c 3)) ⊠ (.c 2)) ⊠ (.s 0)) ⊠ (.s 1)) ⊟ (((.s 3) ⊠ (.s 0)) ⊠ (.c 1))) ⊟ (((.c 3) ⊠ (.s 2)) ⊠ (.c 0))) ⊠ (.c 4))⟩,
    ⟨5, 5, ((((((.k 1 0) ⊠ (.c 3)) ⊠ (.c 2)) ⊠ (.c 1)) ⊟ ((.s 3) ⊠ (.s 1))) ⊠ (.c 4)) ⊟ (((.s 2) ⊠ (.c 1)) ⊠ (.s 4))⟩]

/-- The transforms `fr_ee_X_fr_HyABase`. -/
def fr_ee_X_fr_HyABase : Trans := ⟨fr_ee, fr_HyABase, hom_fr_ee_X_fr_HyABase, motion_fr_ee_X_fr_HyABase, force_fr_ee_X_fr_HyABase⟩

/-- `HomogeneousTransforms::Type_fr_HyABase_X_fr_SAA` (transforms.impl.h:7249-7267, 7269-7271). -/
def hom_fr_HyABase_X_fr_SAA : Gen where
  rows := 4
  cols := 4
  ctor := [⟨0, 0, .k 1 0⟩,
    ⟨0, 1, .k 0 0⟩,
    ⟨0, 2, .k 0 0⟩,
    ⟨0, 3, .k 0 0⟩,
    ⟨1, 0, .k 0 0⟩,
    ⟨1, 1, .k 1 0⟩,
    ⟨1, 2, .k 0 0⟩,
    ⟨1, 3, .k 0 0⟩,
    ⟨2, 0, .k 0 0⟩,
    ⟨2, 1, .k 0 0⟩,
    ⟨2, 2, .k 1 0⟩,
    ⟨2, 3, .k 0 0⟩,
    ⟨3, 0, .k 0 0⟩,
    ⟨3, 1, .k 0 0⟩,
    ⟨3, 2, .k 0 0⟩,
    ⟨3, 3, .k 1 0⟩]
  upd := []

/-- `MotionTransforms::Type_fr_HyABase_X_fr_SAA` (transforms.impl.h:2251-2289, 2291-2293). -/
def motion_fr_HyABase_X_fr_SAA : Gen where
  rows := 6
  cols := 6
  ctor := [⟨0, 0, .k 1 0⟩,
    ⟨0, 1, .k 0 0⟩,
    ⟨0, 2, .k 0 0⟩,
    ⟨0, 3, .k 0 0⟩,
    ⟨0, 4, .k 0 0⟩,
    ⟨0, 5, .k 0 0⟩,
    ⟨1, 0, .k 0 0⟩,
    ⟨1, 1, .k 1 0⟩,
    ⟨1, 2, .k 0 0⟩,
    ⟨1, 3, .k 0 0⟩,
    ⟨1, 4, .k 0 0⟩,
    ⟨1, 5, .k 0 0⟩,
    ⟨2, 0, .k 0 0⟩,
    ⟨2, 1, .k 0 0⟩,
    ⟨2, 2, .k 1 0⟩,
    ⟨2, 3, .k 0 0⟩,
    ⟨2, 4, .k 0 0⟩,
    ⟨2, 5, .k 0 0⟩,
    ⟨3, 0, .k 0 0⟩,
    ⟨3, 1, .k 0 0⟩,
    ⟨3, 2, .k 0 0⟩,
    ⟨3, 3, .k 1 0⟩,
    ⟨3, 4, .k 0 0⟩,
    ⟨3, 5, .k 0 0⟩,
    ⟨4, 0, .k 0 0⟩,
    ⟨4, 1, .k 0 0⟩,
    ⟨4, 2, .k 0 0⟩,
    ⟨4, 3, .k 0 0⟩,
    ⟨4, 4, .k 1 0⟩,
    ⟨4, 5, .k 0 0⟩,
    ⟨5, 0, .k 0 0⟩,
    ⟨5, 1, .k 0 0⟩,
    ⟨5, 2, .k 0 0⟩,
    ⟨5, 3, .k 0 0⟩,
    ⟨5, 4, .k 0 0⟩,
    ⟨5, 5, .k 1 0⟩]
  upd := []

/-- `ForceTransforms::Type_fr_HyABase_X_fr_SAA` (transforms.impl.h:5100-5138, 5140-5142). -/
def force_fr_HyABase_X_fr_SAA : Gen where
  rows := 6
  cols := 6
  ctor := [⟨0, 0, .k 1 0⟩,
    ⟨0, 1, .k 0 0⟩,
    ⟨0, 2, .k 0 0⟩,
    ⟨0, 3, .k 0 0⟩,
    ⟨0, 4, .k 0 0⟩,
    ⟨0, 5, .k 0 0⟩,
    ⟨1, 0, .k 0 0⟩,
    ⟨1, 1, .k 1 0⟩,
    ⟨1, 2, .k 0 0⟩,
    ⟨1, 3, .k 0 0⟩,
    ⟨1, 4, .k 0 0⟩,
    ⟨1, 5, .k 0 0⟩,
    ⟨2, 0, .k 0 0⟩,
    ⟨2, 1, .k 0 0⟩,
    ⟨2, 2, .k 1 0⟩,
    ⟨2, 3, .k 0 0⟩,
    ⟨2, 4, .k 0 0⟩,
    ⟨2, 5, .k 0 0⟩,
    ⟨3, 0, .k 0 0⟩,
    ⟨3, 1, .k 0 0⟩,
    ⟨3, 2, .k 0 0⟩,
    ⟨3, 3, .k 1 0⟩,
    ⟨3, 4, .k 0 0⟩,
    ⟨3, 5, .k 0 0⟩,
    ⟨4, 0, .k 0 0⟩,
    ⟨4, 1, .k 0 0⟩,
    ⟨4, 2, .k 0 0⟩,
    ⟨4, 3, .k 0 0⟩,
    ⟨4, 4, .k 1 0⟩,
    ⟨4, 5, .k 0 0⟩,
    ⟨5, 0, .k 0 0⟩,
    ⟨5, 1, .k 0 0⟩,
    ⟨5, 2, .k 0 0⟩,
    ⟨5, 3, .k 0 0⟩,
    ⟨5, 4, .k 0 0⟩,
    ⟨5, 5, .k 1 0⟩]
  upd := []

/-- The transforms `fr_HyABase_X_fr_SAA`. -/
def fr_HyABase_X_fr_SAA : Trans := ⟨fr_HyABase, fr_SAA, hom_fr_HyABase_X_fr_SAA, motion_fr_HyABase_X_fr_SAA, force_fr_HyABase_X_fr_SAA⟩

/-- `HomogeneousTransforms::Type_fr_HyABase_X_fr_SFE` (transforms.impl.h:7273-7287, 7289-7301). -/
def hom_fr_HyABase_X_fr_SFE : Gen where
  rows := 4
  cols := 4
  ctor := [⟨0, 1, .k 0 0⟩,
    ⟨0, 3, .k 0 0⟩,
    ⟨1, 1, .k 0 0⟩,
    ⟨1, 3, .k 0 0⟩,
    ⟨2, 0, .k 0 0⟩,
    ⟨2, 1, .k 1 0⟩,
    ⟨2, 2, .k 0 0⟩,
    ⟨2, 3, .k 178 3⟩,
    ⟨3, 0, .k 0 0⟩,
    ⟨3, 1, .k 0 0⟩,
    ⟨3, 2, .k 0 0⟩,
    ⟨3, 3, .k 1 0⟩]
  upd := [⟨0, 0, .c 0⟩,
    ⟨0, 2, .s 0⟩,
    ⟨1, 0, .s 0⟩,
    ⟨1, 2, .neg (.c 0)⟩]

/-- `MotionTransforms::Type_fr_HyABase_X_fr_SFE` (transforms.impl.h:2295-2321, 2323-2343). -/
def motion_fr_HyABase_X_fr_SFE : Gen where
  rows := 6
  cols := 6
  ctor := [⟨0, 1, .k 0 0⟩,
    ⟨0, 3, .k 0 0⟩,
    ⟨0, 4, .k 0 0⟩,
    ⟨0, 5, .k 0 0⟩,
    ⟨1, 1, .k 0 0⟩,
    ⟨1, 3, .k 0 0⟩,
    ⟨1, 4, .k 0 0⟩,
    ⟨1, 5, .k 0 0⟩,
    ⟨2, 0, .k 0 0⟩,
    ⟨2, 1, .k 1 0⟩,
    ⟨2, 2, .k 0 0⟩,
    ⟨2, 3, .k 0 0⟩,
    ⟨2, 4, .k 0 0⟩,
    ⟨2, 5, .k 0 0⟩,
    ⟨3, 1, .k 0 0⟩,
    ⟨3, 4, .k 0 0⟩,
    ⟨4, 1, .k 0 0⟩,
    ⟨4, 4, .k 0 0⟩,
    ⟨5, 0, .k 0 0⟩,
    ⟨5, 1, .k 0 0⟩,
    ⟨5, 2, .k 0 0⟩,
    ⟨5, 3, .k 0 0⟩,
    ⟨5, 4, .k 1 0⟩,
    ⟨5, 5, .k 0 0⟩]
  upd := [⟨0, 0, .c 0⟩,
    ⟨0, 2, .s 0⟩,
    ⟨1, 0, .s 0⟩,
    ⟨1, 2, .neg (.c 0)⟩,
    ⟨3, 0, (.neg (.k 178 3)) ⊠ (.s 0)⟩,
    ⟨3, 2, (.k 178 3) ⊠ (.c 0)⟩,
    ⟨3, 3, .c 0⟩,
    ⟨3, 5, .s 0⟩,
    ⟨4, 0, (.k 178 3) ⊠ (.c 0)⟩,
    ⟨4, 2, (.k 178 3) ⊠ (.s 0)⟩,
    ⟨4, 3, .s 0⟩,
    ⟨4, 5, .neg (.c 0)⟩]

/-- `ForceTransforms::Type_fr_HyABase_X_fr_SFE` (transforms.impl.h:5144-5170, 5172-5192). -/
def force_fr_HyABase_X_fr_SFE : Gen where
  rows := 6
  cols := 6
  ctor := [⟨0, 1, .k 0 0⟩,
    ⟨0, 4, .k 0 0⟩,
    ⟨1, 1, .k 0 0⟩,
    ⟨1, 4, .k 0 0⟩,
    ⟨2, 0, .k 0 0⟩,
    ⟨2, 1, .k 1 0⟩,
    ⟨2, 2, .k 0 0⟩,
    ⟨2, 3, .k 0 0⟩,
    ⟨2, 4, .k 0 0⟩,
    ⟨2, 5, .k 0 0⟩,
    ⟨3, 0, .k 0 0⟩,
    ⟨3, 1, .k 0 0⟩,
    ⟨3, 2, .k 0 0⟩,
    ⟨3, 4, .k 0 0⟩,
    ⟨4, 0, .k 0 0⟩,
    ⟨4, 1, .k 0 0⟩,
    ⟨4, 2, .k 0 0⟩,
    ⟨4, 4, .k 0 0⟩,
    ⟨5, 0, .k 0 0⟩,
    ⟨5, 1, .k 0 0⟩,
    ⟨5, 2, .k 0 0⟩,
    ⟨5, 3, .k 0 0⟩,
    ⟨5, 4, .k 1 0⟩,
    ⟨5, 5, .k 0 0⟩]
  upd := [⟨0, 0, .c 0⟩,
    ⟨0, 2, .s 0⟩,
    ⟨0, 3, (.neg (.k 178 3)) ⊠ (.s 0)⟩,
    ⟨0, 5, (.k 178 3) ⊠ (.c 0)⟩,
    ⟨1, 0, .s 0⟩,
    ⟨1, 2, .neg (.c 0)⟩,
    ⟨1, 3, (.k 178 3) ⊠ (.c 0)⟩,
    ⟨1, 5, (.k 178 3) ⊠ (.s 0)⟩,
    ⟨3, 3, .c 0⟩,
    ⟨3, 5, .s 0⟩,
    ⟨4, 3, .s 0⟩,
    ⟨4, 5, .neg (.c 0)⟩]

/-- The transforms `fr_HyABase_X_fr_SFE`. -/
def fr_HyABase_X_fr_SFE : Trans := ⟨fr_HyABase, fr_SFE, hom_fr_HyABase_X_fr_SFE, motion_fr_HyABase_X_fr_SFE, force_fr_HyABase_X_fr_SFE⟩

/-- `HomogeneousTransforms::Type_fr_HyABase_X_fr_HR` (transforms.impl.h:7303-7310, 7312-7335). -/
def hom_fr_HyABase_X_fr_HR : Gen where
  rows := 4
  cols := 4
  ctor := [⟨2, 0, .k 0 0⟩,
    ⟨3, 0, .k 0 0⟩,
    ⟨3, 1, .k 0 0⟩,
    ⟨3, 2, .k 0 0⟩,
    ⟨3, 3, .k 1 0⟩]
  upd := [⟨0, 0, .neg (.s 0)⟩,
    ⟨0, 1, (.neg (.c 0)) ⊠ (.s 1)⟩,
    ⟨0, 2, (.c 0) ⊠ (.c 1)⟩,
    ⟨0, 3, ((.k 112 3) ⊠ (.c 0)) ⊠ (.c 1)⟩,
    ⟨1, 0, .c 0⟩,
    ⟨1, 1, (.neg (.s 0)) ⊠ (.s 1)⟩,
    ⟨1, 2, (.s 0) ⊠ (.c 1)⟩,
    ⟨1, 3, ((.k 112 3) ⊠ (.s 0)) ⊠ (.c 1)⟩,
    ⟨2, 1, .c 1⟩,
    ⟨2, 2, .s 1⟩,
    ⟨2, 3, ((.k 112 3) ⊠ (.s 1)) ⊞ (.k 178 3)⟩]

/-- `MotionTransforms::Type_fr_HyABase_X_fr_HR` (transforms.impl.h:2345-2360, 2362-2397). -/
def motion_fr_HyABase_X_fr_HR : Gen where
  rows := 6
  cols := 6
  ctor := [⟨0, 3, .k 0 0⟩,
    ⟨0, 4, .k 0 0⟩,
    ⟨0, 5, .k 0 0⟩,
    ⟨1, 3, .k 0 0⟩,
    ⟨1, 4, .k 0 0⟩,
    ⟨1, 5, .k 0 0⟩,
    ⟨2, 0, .k 0 0⟩,
    ⟨2, 3, .k 0 0⟩,
    ⟨2, 4, .k 0 0⟩,
    ⟨2, 5, .k 0 0⟩,
    ⟨5, 1, .k 0 0⟩,
    ⟨5, 2, .k 0 0⟩,
    ⟨5, 3, .k 0 0⟩]
  upd := [⟨0, 0, .neg (.s 0)⟩,
    ⟨0, 1, (.neg (.c 0)) ⊠ (.s 1)⟩,
    ⟨0, 2, (.c 0) ⊠ (.c 1)⟩,
    ⟨1, 0, .c 0⟩,
    ⟨1, 1, (.neg (.s 0)) ⊠ (.s 1)⟩,
    ⟨1, 2, (.s 0) ⊠ (.c 1)⟩,
    ⟨2, 1, .c 1⟩,
    ⟨2, 2, .s 1⟩,
    ⟨3, 0, (((.neg (.k 112 3)) ⊠ (.c 0)) ⊠ (.s 1)) ⊟ ((.k 178 3) ⊠ (.c 0))⟩,
    ⟨3, 1, (((.k 178 3) ⊠ (.s 0)) ⊠ (.s 1)) ⊞ ((.k 112 3) ⊠ (.s 0))⟩,
    ⟨3, 2, ((.neg (.k 178 3)) ⊠ (.s 0)) ⊠ (.c 1)⟩,
    ⟨3, 3, .neg (.s 0)⟩,
    ⟨3, 4, (.neg (.c 0)) ⊠ (.s 1)⟩,
    ⟨3, 5, (.c 0) ⊠ (.c 1)⟩,
    ⟨4, 0, (((.neg (.k 112 3)) ⊠ (.s 0)) ⊠ (.s 1)) ⊟ ((.k 178 3) ⊠ (.s 0))⟩,
    ⟨4, 1, (((.neg (.k 178 3)) ⊠ (.c 0)) ⊠ (.s 1)) ⊟ ((.k 112 3) ⊠ (.c 0))⟩,
    ⟨4, 2, ((.k 178 3) ⊠ (.c 0)) ⊠ (.c 1)⟩,
    ⟨4, 3, .c 0⟩,
    ⟨4, 4, (.neg (.s 0)) ⊠ (.s 1)⟩,
    ⟨4, 5, (.s 0) ⊠ (.c 1)⟩,
    ⟨5, 0, (.k 112 3) ⊠ (.c 1)⟩,
    ⟨5, 4, .c 1⟩,
    ⟨5, 5, .s 1⟩]

/-- `ForceTransforms::Type_fr_HyABase_X_fr_HR` (transforms.impl.h:5194-5209, 5211-5246). -/
def force_fr_HyABase_X_fr_HR : Gen where
  rows := 6
  cols := 6
  ctor := [⟨2, 0, .k 0 0⟩,
    ⟨2, 4, .k 0 0⟩,
    ⟨2, 5, .k 0 0⟩,
    ⟨3, 0, .k 0 0⟩,
    ⟨3, 1, .k 0 0⟩,
    ⟨3, 2, .k 0 0⟩,
    ⟨4, 0, .k 0 0⟩,
    ⟨4, 1, .k 0 0⟩,
    ⟨4, 2, .k 0 0⟩,
    ⟨5, 0, .k 0 0⟩,
    ⟨5, 1, .k 0 0⟩,
    ⟨5, 2, .k 0 0⟩,
    ⟨5, 3, .k 0 0⟩]
  upd := [⟨0, 0, .neg (.s 0)⟩,
    ⟨0, 1, (.neg (.c 0)) ⊠ (.s 1)⟩,
    ⟨0, 2, (.c 0) ⊠ (.c 1)⟩,
    ⟨0, 3, (((.neg (.k 112 3)) ⊠ (.c 0)) ⊠ (.s 1)) ⊟ ((.k 178 3) ⊠ (.c 0))⟩,
    ⟨0, 4, (((.k 178 3) ⊠ (.s 0)) ⊠ (.s 1)) ⊞ ((.k 112 3) ⊠ (.s 0))⟩,
    ⟨0, 5, ((.neg (.k 178 3)) ⊠ (.s 0)) ⊠ (.c 1)⟩,
    ⟨1, 0, .c 0⟩,
    ⟨1, 1, (.neg (.s 0)) ⊠ (.s 1)⟩,
    ⟨1, 2, (.s 0) ⊠ (.c 1)⟩,
    ⟨1, 3, (((.neg (.k 112 3)) ⊠ (.s 0)) ⊠ (.s 1)) ⊟ ((.k 178 3) ⊠ (.s 0))⟩,
    ⟨1, 4, (((.neg (.k 178 3)) ⊠ (.c 0)) ⊠ (.s 1)) ⊟ ((.k 112 3) ⊠ (.c 0))⟩,
    ⟨1, 5, ((.k 178 3) ⊠ (.c 0)) ⊠ (.c 1)⟩,
    ⟨2, 1, .c 1⟩,
    ⟨2, 2, .s 1⟩,
    ⟨2, 3, (.k 112 3) ⊠ (.c 1)⟩,
    ⟨3, 3, .neg (.s 0)⟩,
    ⟨3, 4, (.neg (.c 0)) ⊠ (.s 1)⟩,
    ⟨3, 5, (.c 0) ⊠ (.c 1)⟩,
    ⟨4, 3, .c 0⟩,
    ⟨4, 4, (.neg (.s 0)) ⊠ (.s 1)⟩,
    ⟨4, 5, (.s 0) ⊠ (.c 1)⟩,
    ⟨5, 4, .c 1⟩,
    ⟨5, 5, .s 1⟩]

/-- The transforms `fr_HyABase_X_fr_HR`. -/
def fr_HyABase_X_fr_HR : Trans := ⟨fr_HyABase, fr_HR, hom_fr_HyABase_X_fr_HR, motion_fr_HyABase_X_fr_HR, force_fr_HyABase_X_fr_HR⟩

/-- `HomogeneousTransforms::Type_fr_HyABase_X_fr_EFE` (transforms.impl.h:7337-7343, 7345-7373). -/
def hom_fr_HyABase_X_fr_EFE : Gen where
  rows := 4
  cols := 4
  ctor := [⟨3, 0, .k 0 0⟩,
    ⟨3, 1, .k 0 0⟩,
    ⟨3, 2, .k 0 0⟩,
    ⟨3, 3, .k 1 0⟩]
  upd := [⟨0, 0, (.c 0) ⊠ (.c 1)⟩,
    ⟨0, 1, ((.s 2) ⊠ (.s 0)) ⊟ (((.c 2) ⊠ (.c 0)) ⊠ (.s 1))⟩,
    ⟨0, 2, (((.s 2) ⊠ (.c 0)) ⊠ (.s 1)) ⊞ ((.c 2) ⊠ (.s 0))⟩,
    ⟨0, 3, ((.k 416 3) ⊠ (.c 0)) ⊠ (.c 1)⟩,
    ⟨1, 0, (.s 0) ⊠ (.c 1)⟩,
    ⟨1, 1, (((.neg (.c 2)) ⊠ (.s 0)) ⊠ (.s 1)) ⊟ ((.s 2) ⊠ (.c 0))⟩,
    ⟨1, 2, (((.s 2) ⊠ (.s 0)) ⊠ (.s 1)) ⊟ ((.c 2) ⊠ (.c 0))⟩,
    ⟨1, 3, ((.k 416 3) ⊠ (.s 0)) ⊠ (.c 1)⟩,
    ⟨2, 0, .s 1⟩,
    ⟨2, 1, (.c 2) ⊠ (.c 1)⟩,
    ⟨2, 2, (.neg (.s 2)) ⊠ (.c 1)⟩,
    ⟨2, 3, ((.k 416 3) ⊠ (.s 1)) ⊞ (.k 178 3)⟩]

/-- `MotionTransforms::Type_fr_HyABase_X_fr_EFE` (transforms.impl.h:2399-2411, 2413-2455). -/
def motion_fr_HyABase_X_fr_EFE : Gen where
  rows := 6
  cols := 6
  ctor := [⟨0, 3, .k 0 0⟩,
    ⟨0, 4, .k 0 0⟩,
    ⟨0, 5, .k 0 0⟩,
    ⟨1, 3, .k 0 0⟩,
    ⟨1, 4, .k 0 0⟩,
    ⟨1, 5, .k 0 0⟩,
    ⟨2, 3, .k 0 0⟩,
    ⟨2, 4, .k 0 0⟩,
    ⟨2, 5, .k 0 0⟩,
    ⟨5, 0, .k 0 0⟩]
  upd := [⟨0, 0, (.c 0) ⊠ (.c 1)⟩,
    ⟨0, 1, ((.s 2) ⊠ (.s 0)) ⊟ (((.c 2) ⊠ (.c 0)) ⊠ (.s 1))⟩,
    ⟨0, 2, (((.s 2) ⊠ (.c 0)) ⊠ (.s 1)) ⊞ ((.c 2) ⊠ (.s 0))⟩,
    ⟨1, 0, (.s 0) ⊠ (.c 1)⟩,
    ⟨1, 1, (((.neg (.c 2)) ⊠ (.s 0)) ⊠ (.s 1)) ⊟ ((.s 2) ⊠ (.c 0))⟩,
    ⟨1, 2, (((.s 2) ⊠ (.s 0)) ⊠ (.s 1)) ⊟ ((.c 2) ⊠ (.c 0))⟩,
    ⟨2, 0, .s 1⟩,
    ⟨2, 1, (.c 2) ⊠ (.c 1)⟩,
    ⟨2, 2, (.neg (.s 2)) ⊠ (.c 1)⟩,
    ⟨3, 0, ((.neg (.k 178 3)) ⊠ (.s 0)) ⊠ (.c 1)⟩,
    ⟨3, 1, ((((((.k 178 3) ⊠ (.c 2)) ⊠ (.s 0)) ⊞ (((.k 416 3) ⊠ (.s 2)) ⊠ (.c 0))) ⊠ (.s 1)) ⊞ (((.k 416 3) ⊠ (.c 2)) ⊠ (.s 0))) ⊞ (((.k 178 3) ⊠ (.s 2)) ⊠ (.c 0))⟩,
    ⟨3, 2, ((((((.k 416 3) ⊠ (.c 2)) ⊠ (.c 0)) ⊟ (((.k 178 3) ⊠ (.s 2)) ⊠ (.s 0))) ⊠ (.s 1)) ⊟ (((.k 416 3) ⊠ (.s 2)) ⊠ (.s 0))) ⊞ (((.k 178 3) ⊠ (.c 2)) ⊠ (.c 0))⟩,
    ⟨3, 3, (.c 0) ⊠ (.c 1)⟩,
    ⟨3, 4, ((.s 2) ⊠ (.s 0)) ⊟ (((.c 2) ⊠ (.c 0)) ⊠ (.s 1))⟩,
    ⟨3, 5, (((.s 2) ⊠ (.c 0)) ⊠ (.s 1)) ⊞ ((.c 2) ⊠ (.s 0))⟩,
    ⟨4, 0, ((.k 178 3) ⊠ (.c 0)) ⊠ (.c 1)⟩,
    ⟨4, 1, ((((((.k 416 3) ⊠ (.s 2)) ⊠ (.s 0)) ⊟ (((.k 178 3) ⊠ (.c 2)) ⊠ (.c 0))) ⊠ (.s 1)) ⊞ (((.k 178 3) ⊠ (.s 2)) ⊠ (.s 0))) ⊟ (((.k 416 3) ⊠ (.c 2)) ⊠ (.c 0))⟩,
    ⟨4, 2, ((((((.k 416 3) ⊠ (.c 2)) ⊠ (.s 0)) ⊞ (((.k 178 3) ⊠ (.s 2)) ⊠ (.c 0))) ⊠ (.s 1)) ⊞ (((.k 178 3) ⊠ (.c 2)) ⊠ (.s 0))) ⊞ (((.k 416 3) ⊠ (.s 2)) ⊠ (.c 0))⟩,
    ⟨4, 3, (.s 0) ⊠ (.c 1)⟩,
    ⟨4, 4, (((.neg (.c 2)) ⊠ (.s 0)) ⊠ (.s 1)) ⊟ ((.s 2) ⊠ (.c 0))⟩,
    ⟨4, 5, (((.s 2) ⊠ (.s 0)) ⊠ (.s 1)) ⊟ ((.c 2) ⊠ (.c 0))⟩,
    ⟨5, 1, ((.neg (.k 416 3)) ⊠ (.s 2)) ⊠ (.c 1)⟩,
    ⟨5, 2, ((.neg (.k 416 3)) ⊠ (.c 2)) ⊠ (.c 1)⟩,
    ⟨5, 3, .s 1⟩,
    ⟨5, 4, (.c 2) ⊠ (.c 1)⟩,
    ⟨5, 5, (.neg (.s 2)) ⊠ (.c 1)⟩]

/-- `ForceTransforms::Type_fr_HyABase_X_fr_EFE` (transforms.impl.h:5248-5260, 5262-5304). -/
def force_fr_HyABase_X_fr_EFE : Gen where
  rows := 6
  cols := 6
  ctor := [⟨2, 3, .k 0 0⟩,
    ⟨3, 0, .k 0 0⟩,
    ⟨3, 1, .k 0 0⟩,
    ⟨3, 2, .k 0 0⟩,
    ⟨4, 0, .k 0 0⟩,
    ⟨4, 1, .k 0 0⟩,
    ⟨4, 2, .k 0 0⟩,
    ⟨5, 0, .k 0 0⟩,
    ⟨5, 1, .k 0 0⟩,
    ⟨5, 2, .k 0 0⟩]
  upd := [⟨0, 0, (.c 0) ⊠ (.c 1)⟩,
    ⟨0, 1, ((.s 2) ⊠ (.s 0)) ⊟ (((.c 2) ⊠ (.c 0)) ⊠ (.s 1))⟩,
    ⟨0, 2, (((.s 2) ⊠ (.c 0)) ⊠ (.s 1)) ⊞ ((.c 2) ⊠ (.s 0))⟩,
    ⟨0, 3, ((.neg (.k 178 3)) ⊠ (.s 0)) ⊠ (.c 1)⟩,
    ⟨0, 4, ((((((.k 178 3) ⊠ (.c 2)) ⊠ (.s 0)) ⊞ (((.k 416 3) ⊠ (.s 2)) ⊠ (.c 0))) ⊠ (.s 1)) ⊞ (((.k 416 3) ⊠ (.c 2)) ⊠ (.s 0))) ⊞ (((.k 178 3) ⊠ (.s 2)) ⊠ (.c 0))⟩,
    ⟨0, 5, ((((((.k 416 3) ⊠ (.c 2)) ⊠ (.c 0)) ⊟ (((.k 178 3) ⊠ (.s 2)) ⊠ (.s 0))) ⊠ (.s 1)) ⊟ (((.k 416 3) ⊠ (.s 2)) ⊠ (.s 0))) ⊞ (((.k 178 3) ⊠ (.c 2)) ⊠ (.c 0))⟩,
    ⟨1, 0, (.s 0) ⊠ (.c 1)⟩,
    ⟨1, 1, (((.neg (.c 2)) ⊠ (.s 0)) ⊠ (.s 1)) ⊟ ((.s 2) ⊠ (.c 0))⟩,
    ⟨1, 2, (((.s 2) ⊠ (.s 0)) ⊠ (.s 1)) ⊟ ((.c 2) ⊠ (.c 0))⟩,
    ⟨1, 3, ((.k 178 3) ⊠ (.c 0)) ⊠ (.c 1)⟩,
    ⟨1, 4, ((((((.k 416 3) ⊠ (.s 2)) ⊠ (.s 0)) ⊟ (((.k 178 3) ⊠ (.c 2)) ⊠ (.c 0))) ⊠ (.s 1)) ⊞ (((.k 178 3) ⊠ (.s 2)) ⊠ (.s 0))) ⊟ (((.k 416 3) ⊠ (.c 2)) ⊠ (.c 0))⟩,
    ⟨1, 5, ((((((.k 416 3) ⊠ (.c 2)) ⊠ (.s 0)) ⊞ (((.k 178 3) ⊠ (.s 2)) ⊠ (.c 0))) ⊠ (.s 1)) ⊞ (((.k 178 3) ⊠ (.c 2)) ⊠ (.s 0))) ⊞ (((.k 416 3) ⊠ (.s 2)) ⊠ (.c 0))⟩,
    ⟨2, 0, .s 1⟩,
    ⟨2, 1, (.c 2) ⊠ (.c 1)⟩,
    ⟨2, 2, (.neg (.s 2)) ⊠ (.c 1)⟩,
    ⟨2, 4, ((.neg (.k 416 3)) ⊠ (.s 2)) ⊠ (.c 1)⟩,
    ⟨2, 5, ((.neg (.k 416 3)) ⊠ (.c 2)) ⊠ (.c 1)⟩,
    ⟨3, 3, (.c 0) ⊠ (.c 1)⟩,
    ⟨3, 4, ((.s 2) ⊠ (.s 0)) ⊟ (((.c 2) ⊠ (.c 0)) ⊠ (.s 1))⟩,
    ⟨3, 5, (((.s 2) ⊠ (.c 0)) ⊠ (.s 1)) ⊞ ((.c 2) ⊠ (.s 0))⟩,
    ⟨4, 3, (.s 0) ⊠ (.c 1)⟩,
    ⟨4, 4, (((.neg (.c 2)) ⊠ (.s 0)) ⊠ (.s 1)) ⊟ ((.s 2) ⊠ (.c 0))⟩,
    ⟨4, 5, (((.s 2) ⊠ (.s 0)) ⊠ (.s 1)) ⊟ ((.c 2) ⊠ (.c 0))⟩,
    ⟨5, 3, .s 1⟩,
    ⟨5, 4, (.c 2) ⊠ (.c 1)⟩,
    ⟨5, 5, (.neg (.s 2)) ⊠ (.c 1)⟩]

/-- The transforms `fr_HyABase_X_fr_EFE`. -/
def fr_HyABase_X_fr_EFE : Trans := ⟨fr_HyABase, fr_EFE, hom_fr_HyABase_X_fr_EFE, motion_fr_HyABase_X_fr_EFE, force_fr_HyABase_X_fr_EFE⟩

/-- `HomogeneousTransforms::Type_fr_HyABase_X_fr_WR` (transforms.impl.h:7375-7381, 7383-7415). -/
def hom_fr_HyABase_X_fr_WR : Gen where
  rows := 4
  cols := 4
  ctor := [⟨3, 0, .k 0 0⟩,
    ⟨3, 1, .k 0 0⟩,
    ⟨3, 2, .k 0 0⟩,
    ⟨3, 3, .k 1 0⟩]
  upd := [⟨0, 0, (((.neg (.s 2)) ⊠ (.c 0)) ⊠ (.s 1)) ⊟ ((.c 2) ⊠ (.s 0))⟩,
    ⟨0, 1, (((((.neg (.c 3)) ⊠ (.c 2)) ⊠ (.c 0)) ⊠ (.s 1)) ⊟ (((.s 3) ⊠ (.c 0)) ⊠ (.c 1))) ⊞ (((.c 3) ⊠ (.s 2)) ⊠ (.s 0))⟩,
    ⟨0, 2, (((((.neg (.s 3)) ⊠ (.c 2)) ⊠ (.c 0)) ⊠ (.s 1)) ⊞ (((.c 3) ⊠ (.c 0)) ⊠ (.c 1))) ⊞ (((.s 3) ⊠ (.s 2)) ⊠ (.s 0))⟩,
    ⟨0, 3, ((((((.neg (.k 112 3)) ⊠ (.s 3)) ⊠ (.c 2)) ⊠ (.c 0)) ⊠ (.s 1)) ⊞ (((((.k 112 3) ⊠ (.c 3)) ⊞ (.k 416 3)) ⊠ (.c 0)) ⊠ (.c 1))) ⊞ ((((.k 112 3) ⊠ (.s 3)) ⊠ (.s 2)) ⊠ (.s 0))⟩,
    ⟨1, 0, ((.c 2) ⊠ (.c 0)) ⊟ (((.s 2) ⊠ (.s 0)) ⊠ (.s 1))⟩,
    ⟨1, 1, (((((.neg (.c 3)) ⊠ (.c 2)) ⊠ (.s 0)) ⊠ (.s 1)) ⊟ (((.s 3) ⊠ (.s 0)) ⊠ (.c 1))) ⊟ (((.c 3) ⊠ (.s 2)) ⊠ (.c 0))⟩,
    ⟨1, 2, (((((.neg (.s 3)) ⊠ (.c 2)) ⊠ (.s 0)) ⊠ (.s 1)) ⊞ (((.c 3) ⊠ (.s 0)) ⊠ (.c 1))) ⊟ (((.s 3) ⊠ (.s 2)) ⊠ (.c 0))⟩,
    ⟨1, 3, ((((((.neg (.k 112 3)) ⊠ (.s 3)) ⊠ (.c 2)) ⊠ (.s 0)) ⊠ (.s 1)) ⊞ (((((.k 112 3) ⊠ (.c 3)) ⊞ (.k 416 3)) ⊠ (.s 0)) ⊠ (.c 1))) ⊟ ((((.k 112 3) ⊠ (.s 3)) ⊠ (.s 2)) ⊠ (.c 0))⟩,
    ⟨2, 0, (.s 2) ⊠ (.c 1)⟩,
    ⟨2, 1, (((.c 3) ⊠ (.c 2)) ⊠ (.c 1)) ⊟ ((.s 3) ⊠ (.s 1))⟩,
    ⟨2, 2, ((.c 3) ⊠ (.s 1)) ⊞ (((.s 3) ⊠ (.c 2)) ⊠ (.c 1))⟩,
    ⟨2, 3, (((((.k 112 3) ⊠ (.c 3)) ⊞ (.k 416 3)) ⊠ (.s 1)) ⊞ ((((.k 112 3) ⊠ (.s 3)) ⊠ (.c 2)) ⊠ (.c 1))) ⊞ (.k 178 3)⟩]

/-- `MotionTransforms::Type_fr_HyABase_X_fr_WR` (transforms.impl.h:2457-2468, 2470-2517). -/
def motion_fr_HyABase_X_fr_WR : Gen where
  rows := 6
  cols := 6
  ctor := [⟨0, 3, .k 0 0⟩,
    ⟨0, 4, .k 0 0⟩,
    ⟨0, 5, .k 0 0⟩,
    ⟨1, 3, .k 0 0⟩,
    ⟨1, 4, .k 0 0⟩,
    ⟨1, 5, .k 0 0⟩,
    ⟨2, 3, .k 0 0⟩,
    ⟨2, 4, .k 0 0⟩,
    ⟨2, 5, .k 0 0⟩]
  upd := [⟨0, 0, (((.neg (.s 2)) ⊠ (.c 0)) ⊠ (.s 1)) ⊟ ((.c 2) ⊠ (.s 0))⟩,
    ⟨0, 1, (((((.neg (.c 3)) ⊠ (.c 2)) ⊠ (.c 0)) ⊠ (.s 1)) ⊟ (((.s 3) ⊠ (.c 0)) ⊠ (.c 1))) ⊞ (((.c 3) ⊠ (.s 2)) ⊠ (.s 0))⟩,
    ⟨0, 2, (((((.neg (.s 3)) ⊠ (.c 2)) ⊠ (.c 0)) ⊠ (.s 1)) ⊞ (((.c 3) ⊠ (.c 0)) ⊠ (.c 1))) ⊞ (((.s 3) ⊠ (.s 2)) ⊠ (.s 0))⟩,
    ⟨1, 0, ((.c 2) ⊠ (.c 0)) ⊟ (((.s 2) ⊠ (.s 0)) ⊠ (.s 1))⟩,
    ⟨1, 1, (((((.neg (.c 3)) ⊠ (.c 2)) ⊠ (.s 0)) ⊠ (.s 1)) ⊟ (((.s 3) ⊠ (.s 0)) ⊠ (.c 1))) ⊟ (((.c 3) ⊠ (.s 2)) ⊠ (.c 0))⟩,
    ⟨1, 2, (((((.neg (.s 3)) ⊠ (.c 2)) ⊠ (.s 0)) ⊠ (.s 1)) ⊞ (((.c 3) ⊠ (.s 0)) ⊠ (.c 1))) ⊟ (((.s 3) ⊠ (.s 2)) ⊠ (.c 0))⟩,
    ⟨2, 0, (.s 2) ⊠ (.c 1)⟩,
    ⟨2, 1, (((.c 3) ⊠ (.c 2)) ⊠ (.c 1)) ⊟ ((.s 3) ⊠ (.s 1))⟩,
    ⟨2, 2, ((.c 3) ⊠ (.s 1)) ⊞ (((.s 3) ⊠ (.c 2)) ⊠ (.c 1))⟩,
    ⟨3, 0, (((((((.k 178 3) ⊠ (.s 2)) ⊠ (.s 0)) ⊞ (((((.neg (.k 112 3)) ⊠ (.c 3)) ⊟ (.k 416 3)) ⊠ (.c 2)) ⊠ (.c 0))) ⊠ (.s 1)) ⊟ ((((.k 112 3) ⊠ (.s 3)) ⊠ (.c 0)) ⊠ (.c 1))) ⊞ (((((.k 112 3) ⊠ (.c 3)) ⊞ (.k 416 3)) ⊠ (.s 2)) ⊠ (.s 0))) ⊟ (((.k 178 3) ⊠ (.c 2)) ⊠ (.c 0))⟩,
    ⟨3, 1, ((((((((.k 178 3) ⊠ (.c 3)) ⊠ (.c 2)) ⊠ (.s 0)) ⊞ (((((.k 416 3) ⊠ (.c 3)) ⊞ (.k 112 3)) ⊠ (.s 2)) ⊠ (.c 0))) ⊠ (.s 1)) ⊞ ((((.k 178 3) ⊠ (.s 3)) ⊠ (.s 0)) ⊠ (.c 1))) ⊞ (((((.k 416 3) ⊠ (.c 3)) ⊞ (.k 112 3)) ⊠ (.c 2)) ⊠ (.s 0))) ⊞ ((((.k 178 3) ⊠ (.c 3)) ⊠ (.s 2)) ⊠ (.c 0))⟩,
    ⟨3, 2, ((((((((.k 178 3) ⊠ (.s 3)) ⊠ (.c 2)) ⊠ (.s 0)) ⊞ ((((.k 416 3) ⊠ (.s 3)) ⊠ (.s 2)) ⊠ (.c 0))) ⊠ (.s 1)) ⊟ ((((.k 178 3) ⊠ (.c 3)) ⊠ (.s 0)) ⊠ (.c 1))) ⊞ ((((.k 416 3) ⊠ (.s 3)) ⊠ (.c 2)) ⊠ (.s 0))) ⊞ ((((.k 178 3) ⊠ (.s 3)) ⊠ (.s 2)) ⊠ (.c 0))⟩,
    ⟨3, 3, (((.neg (.s 2)) ⊠ (.c 0)) ⊠ (.s 1)) ⊟ ((.c 2) ⊠ (.s 0))⟩,
    ⟨3, 4, (((((.neg (.c 3)) ⊠ (.c 2)) ⊠ (.c 0)) ⊠ (.s 1)) ⊟ (((.s 3) ⊠ (.c 0)) ⊠ (.c 1))) ⊞ (((.c 3) ⊠ (.s 2)) ⊠ (.s 0))⟩,
    ⟨3, 5, (((((.neg (.s 3)) ⊠ (.c 2)) ⊠ (.c 0)) ⊠ (.s 1)) ⊞ (((.c 3) ⊠ (.c 0)) ⊠ (.c 1))) ⊞ (((.s 3) ⊠ (.s 2)) ⊠ (.s 0))⟩,
    ⟨4, 0, (((((((((.neg (.k 112 3)) ⊠ (.c 3)) ⊟ (.k 416 3)) ⊠ (.c 2)) ⊠ (.s 0)) ⊟ (((.k 178 3) ⊠ (.s 2)) ⊠ (.c 0))) ⊠ (.s 1)) ⊟ ((((.k 112 3) ⊠ (.s 3)) ⊠ (.s 0)) ⊠ (.c 1))) ⊟ (((.k 178 3) ⊠ (.c 2)) ⊠ (.s 0))) ⊞ (((((.neg (.k 112 3)) ⊠ (.c 3)) ⊟ (.k 416 3)) ⊠ (.s 2)) ⊠ (.c 0))⟩,
    ⟨4, 1, (((((((((.k 416 3) ⊠ (.c 3)) ⊞ (.k 112 3)) ⊠ (.s 2)) ⊠ (.s 0)) ⊟ ((((.k 178 3) ⊠ (.c 3)) ⊠ (.c 2)) ⊠ (.c 0))) ⊠ (.s 1)) ⊟ ((((.k 178 3) ⊠ (.s 3)) ⊠ (.c 0)) ⊠ (.c 1))) ⊞ ((((.k 178 3) ⊠ (.c 3)) ⊠ (.s 2)) ⊠ (.s 0))) ⊞ (((((.neg (.k 416 3)) ⊠ (.c 3)) ⊟ (.k 112 3)) ⊠ (.c 2)) ⊠ (.c 0))⟩,
    ⟨4, 2, ((((((((.k 416 3) ⊠ (.s 3)) ⊠ (.s 2)) ⊠ (.s 0)) ⊟ ((((.k 178 3) ⊠ (.s 3)) ⊠ (.c 2)) ⊠ (.c 0))) ⊠ (.s 1)) ⊞ ((((.k 178 3) ⊠ (.c 3)) ⊠ (.c 0)) ⊠ (.c 1))) ⊞ ((((.k 178 3) ⊠ (.s 3)) ⊠ (.s 2)) ⊠ (.s 0))) ⊟ ((((.k 416 3) ⊠ (.s 3)) ⊠ (.c 2)) ⊠ (.c 0))⟩,
    ⟨4, 3, ((.c 2) ⊠ (.c 0)) ⊟ (((.s 2) ⊠ (.s 0)) ⊠ (.s 1))⟩,
    ⟨4, 4, (((((.neg (.c 3)) ⊠ (.c 2)) ⊠ (.s 0)) ⊠ (.s 1)) ⊟ (((.s 3) ⊠ (.s 0)) ⊠ (.c 1))) ⊟ (((.c 3) ⊠ (.s 2)) ⊠ (.c 0))⟩,
    ⟨4, 5, (((((.neg (.s 3)) ⊠ (.c 2)) ⊠ (.s 0)) ⊠ (.s 1)) ⊞ (((.c 3) ⊠ (.s 0)) ⊠ (.c 1))) ⊟ (((.s 3) ⊠ (.s 2)) ⊠ (.c 0))⟩,
    ⟨5, 0, (((((.k 112 3) ⊠ (.c 3)) ⊞ (.k 416 3)) ⊠ (.c 2)) ⊠ (.c 1)) ⊟ (((.k 112 3) ⊠ (.s 3)) ⊠ (.s 1))⟩,
    ⟨5, 1, ((((.neg (.k 416 3)) ⊠ (.c 3)) ⊟ (.k 112 3)) ⊠ (.s 2)) ⊠ (.c 1)⟩,
    ⟨5, 2, (((.neg (.k 416 3)) ⊠ (.s 3)) ⊠ (.s 2)) ⊠ (.c 1)⟩,
    ⟨5, 3, (.s 2) ⊠ (.c 1)⟩,
    ⟨5, 4, (((.c 3) ⊠ (.c 2)) ⊠ (.c 1)) ⊟ ((.s 3) ⊠ (.s 1))⟩,
    ⟨5, 5, ((.c 3) ⊠ (.s 1)) ⊞ (((.s 3) ⊠ (.c 2)) ⊠ (.c 1))⟩]

/-- `ForceTransforms::Type_fr_HyABase_X_fr_WR` (transforms.impl.h:5306-5317, 5319-5366). -/
def force_fr_HyABase_X_fr_WR : Gen where
  rows := 6
  cols := 6
  ctor := [⟨3, 0, .k 0 0⟩,
    ⟨3, 1, .k 0 0⟩,
    ⟨3, 2, .k 0 0⟩,
    ⟨4, 0, .k 0 0⟩,
    ⟨4, 1, .k 0 0⟩,
    ⟨4, 2, .k 0 0⟩,
    ⟨5, 0, .k 0 0⟩,
    ⟨5, 1, .k 0 0⟩,
    ⟨5, 2, .k 0 0⟩]
  upd := [⟨0, 0, (((.neg (.s 2)) ⊠ (.c 0)) ⊠ (.s 1)) ⊟ ((.c 2) ⊠ (.s 0))⟩,
    ⟨0, 1, (((((.neg (.c 3)) ⊠ (.c 2)) ⊠ (.c 0)) ⊠ (.s 1)) ⊟ (((.s 3) ⊠ (.c 0)) ⊠ (.c 1))) ⊞ (((.c 3) ⊠ (.s 2)) ⊠ (.s 0))⟩,
    ⟨0, 2, (((((.neg (.s 3)) ⊠ (.c 2)) ⊠ (.c 0)) ⊠ (.s 1)) ⊞ (((.c 3) ⊠ (.c 0)) ⊠ (.c 1))) ⊞ (((.s 3) ⊠ (.s 2)) ⊠ (.s 0))⟩,
    ⟨0, 3, (((((((.k 178 3) ⊠ (.s 2)) ⊠ (.s 0)) ⊞ (((((.neg (.k 112 3)) ⊠ (.c 3)) ⊟ (.k 416 3)) ⊠ (.c 2)) ⊠ (.c 0))) ⊠ (.s 1)) ⊟ ((((.k 112 3) ⊠ (.s 3)) ⊠ (.c 0)) ⊠ (.c 1))) ⊞ (((((.k 112 3) ⊠ (.c 3)) ⊞ (.k 416 3)) ⊠ (.s 2)) ⊠ (.s 0))) ⊟ (((.k 178 3) ⊠ (.c 2)) ⊠ (.c 0))⟩,
    ⟨0, 4, ((((((((.k 178 3) ⊠ (.c 3)) ⊠ (.c 2)) ⊠ (.s 0)) ⊞ (((((.k 416 3) ⊠ (.c 3)) ⊞ (.k 112 3)) ⊠ (.s 2)) ⊠ (.c 0))) ⊠ (.s 1)) ⊞ ((((.k 178 3) ⊠ (.s 3)) ⊠ (.s 0)) ⊠ (.c 1))) ⊞ (((((.k 416 3) ⊠ (.c 3)) ⊞ (.k 112 3)) ⊠ (.c 2)) ⊠ (.s 0))) ⊞ ((((.k 178 3) ⊠ (.c 3)) ⊠ (.s 2)) ⊠ (.c 0))⟩,
    ⟨0, 5, ((((((((.k 178 3) ⊠ (.s 3)) ⊠ (.c 2)) ⊠ (.s 0)) ⊞ ((((.k 416 3) ⊠ (.s 3)) ⊠ (.s 2)) ⊠ (.c 0))) ⊠ (.s 1)) ⊟ ((((.k 178 3) ⊠ (.c 3)) ⊠ (.s 0)) ⊠ (.c 1))) ⊞ ((((.k 416 3) ⊠ (.s 3)) ⊠ (.c 2)) ⊠ (.s 0))) ⊞ ((((.k 178 3) ⊠ (.s 3)) ⊠ (.s 2)) ⊠ (.c 0))⟩,
    ⟨1, 0, ((.c 2) ⊠ (.c 0)) ⊟ (((.s 2) ⊠ (.s 0)) ⊠ (.s 1))⟩,
    ⟨1, 1, (((((.neg (.c 3)) ⊠ (.c 2)) ⊠ (.s 0)) ⊠ (.s 1)) ⊟ (((.s 3) ⊠ (.s 0)) ⊠ (.c 1))) ⊟ (((.c 3) ⊠ (.s 2)) ⊠ (.c 0))⟩,
    ⟨1, 2, (((((.neg (.s 3)) ⊠ (.c 2)) ⊠ (.s 0)) ⊠ (.s 1)) ⊞ (((.c 3) ⊠ (.s 0)) ⊠ (.c 1))) ⊟ (((.s 3) ⊠ (.s 2)) ⊠ (.c 0))⟩,
    ⟨1, 3, (((((((((.neg (.k 112 3)) ⊠ (.c 3)) ⊟ (.k 416 3)) ⊠ (.c 2)) ⊠ (.s 0)) ⊟ (((.k 178 3) ⊠ (.s 2)) ⊠ (.c 0))) ⊠ (.s 1)) ⊟ ((((.k 112 3) ⊠ (.s 3)) ⊠ (.s 0)) ⊠ (.c 1))) ⊟ (((.k 178 3) ⊠ (.c 2)) ⊠ (.s 0))) ⊞ (((((.neg (.k 112 3)) ⊠ (.c 3)) ⊟ (.k 416 3)) ⊠ (.s 2)) ⊠ (.c 0))⟩,
    ⟨1, 4, (((((((((.k 416 3) ⊠ (.c 3)) ⊞ (.k 112 3)) ⊠ (.s 2)) ⊠ (.s 0)) ⊟ ((((.k 178 3) ⊠ (.c 3)) ⊠ (.c 2)) ⊠ (.c 0))) ⊠ (.s 1)) ⊟ ((((.k 178 3) ⊠ (.s 3)) ⊠ (.c 0)) ⊠ (.c 1))) ⊞ ((((.k 178 3) ⊠ (.c 3)) ⊠ (.s 2)) ⊠ (.s 0))) ⊞ (((((.neg (.k 416 3)) ⊠ (.c 3)) ⊟ (.k 112 3)) ⊠ (.c 2)) ⊠ (.c 0))⟩,
    ⟨1, 5, ((((((((.k 416 3) ⊠ (.s 3)) ⊠ (.s 2)) ⊠ (.s 0)) ⊟ ((((.k 178 3) ⊠ (.s 3)) ⊠ (.c 2)) ⊠ (.c 0))) ⊠ (.s 1)) ⊞ ((((.k 178 3) ⊠ (.c 3)) ⊠ (.c 0)) ⊠ (.c 1))) ⊞ ((((.k 178 3) ⊠ (.s 3)) ⊠ (.s 2)) ⊠ (.s 0))) ⊟ ((((.k 416 3) ⊠ (.s 3)) ⊠ (.c 2)) ⊠ (.c 0))⟩,
    ⟨2, 0, (.s 2) ⊠ (.c 1)⟩,
    ⟨2, 1, (((.c 3) ⊠ (.c 2)) ⊠ (.c 1)) ⊟ ((.s 3) ⊠ (.s 1))⟩,
    ⟨2, 2, ((.c 3) ⊠ (.s 1)) ⊞ (((.s 3) ⊠ (.c 2)) ⊠ (.c 1))⟩,
    ⟨2, 3, (((((.k 112 3) ⊠ (.c 3)) ⊞ (.k 416 3)) ⊠ (.c 2)) ⊠ (.c 1)) ⊟ (((.k 112 3) ⊠ (.s 3)) ⊠ (.s 1))⟩,
    ⟨2, 4, ((((.neg (.k 416 3)) ⊠ (.c 3)) ⊟ (.k 112 3)) ⊠ (.s 2)) ⊠ (.c 1)⟩,
    ⟨2, 5, (((.neg (.k 416 3)) ⊠ (.s 3)) ⊠ (.s 2)) ⊠ (.c 1)⟩,
    ⟨3, 3, (((.neg (.s 2)) ⊠ (.c 0)) ⊠ (.s 1)) ⊟ ((.c 2) ⊠ (.s 0))⟩,
    ⟨3, 4, (((((.neg (.c 3)) ⊠ (.c 2)) ⊠ (.c 0)) ⊠ (.s 1)) ⊟ (((.s 3) ⊠ (.c 0)) ⊠ (.c 1))) ⊞ (((.c 3) ⊠ (.s 2)) ⊠ (.s 0))⟩,
    ⟨3, 5, (((((.neg (.s 3)) ⊠ (.c 2)) ⊠ (.c 0)) ⊠ (.s 1)) ⊞ (((.c 3) ⊠ (.c 0)) ⊠ (.c 1))) ⊞ (((.s 3) ⊠ (.s 2)) ⊠ (.s 0))⟩,
    ⟨4, 3, ((.c 2) ⊠ (.c 0)) ⊟ (((.s 2) ⊠ (.s 0)) ⊠ (.s 1))⟩,
    ⟨4, 4, (((((.neg (.c 3)) ⊠ (.c 2)) ⊠ (.s 0)) ⊠ (.s 1)) ⊟ (((.s 3) ⊠ (.s 0)) ⊠ (.c 1))) ⊟ (((.c 3) ⊠ (.s 2)) ⊠ (.c 0))⟩,
    ⟨4, 5, (((((.neg (.s 3)) ⊠ (.c 2)) ⊠ (.s 0)) ⊠ (.s 1)) ⊞ (((.c 3) ⊠ (.s 0)) ⊠ (.c 1))) ⊟ (((.s 3) ⊠ (.s 2)) ⊠ (.c 0))⟩,
    ⟨5, 3, (.s 2) ⊠ (.c 1)⟩,
    ⟨5, 4, (((.c 3) ⊠ (.c 2)) ⊠ (.c 1)) ⊟ ((.s 3) ⊠ (.s 1))⟩,
    ⟨5, 5, ((.c 3) ⊠ (.s 1)) ⊞ (((.s 3) ⊠ (.c 2)) ⊠ (.c 1))⟩]

/-- The transforms `fr_HyABase_X_fr_WR`. -/
def fr_HyABase_X_fr_WR : Trans := ⟨fr_HyABase, fr_WR, hom_fr_HyABase_X_fr_WR, motion_fr_HyABase_X_fr_WR, force_fr_HyABase_X_fr_WR⟩

/-- `HomogeneousTransforms::Type_fr_HyABase_X_fr_WFE` (transforms.impl.h:7417-7423, 7425-7461). -/
def hom_fr_HyABase_X_fr_WFE : Gen where
  rows := 4
  cols := 4
  ctor := [⟨3, 0, .k 0 0⟩,
    ⟨3, 1, .k 0 0⟩,
    ⟨3, 2, .k 0 0⟩,
    ⟨3, 3, .k 1 0⟩]
  upd := [⟨0, 0, (((((.neg (.s 3)) ⊠ (.c 2)) ⊠ (.c 0)) ⊠ (.s 1)) ⊞ (((.c 3) ⊠ (.c 0)) ⊠ (.c 1))) ⊞ (((.s 3) ⊠ (.s 2)) ⊠ (.s 0))⟩,
    ⟨0, 1, (((((((.neg (.c 3)) ⊠ (.c 2)) ⊠ (.c 0)) ⊠ (.s 1)) ⊟ (((.s 3) ⊠ (.c 0)) ⊠ (.c 1))) ⊞ (((.c 3) ⊠ (.s 2)) ⊠ (.s 0))) ⊠ (.s 4)) ⊞ (((((.neg (.s 2)) ⊠ (.c 0)) ⊠ (.s 1)) ⊟ ((.c 2) ⊠ (.s 0))) ⊠ (.c 4))⟩,
    ⟨0, 2, ((((((.k 1 0) ⊠ (.s 2)) ⊠ (.c 0)) ⊠ (.s 1)) ⊞ ((.c 2) ⊠ (.s 0))) ⊠ (.s 4)) ⊞ (((((((.neg (.c 3)) ⊠ (.c 2)) ⊠ (.c 0)) ⊠ (.s 1)) ⊟ (((.s 3) ⊠ (.c 0)) ⊠ (.c 1))) ⊞ (((.c 3) ⊠ (.s 2)) ⊠ (.s 0))) ⊠ (.c 4))⟩,
    ⟨0, 3, (((((((((((.neg (.k 2075 5)) ⊠ (.c 3)) ⊠ (.c 2)) ⊠ (.c 0)) ⊠ (.s 1)) ⊟ ((((.k 2075 5) ⊠ (.s 3)) ⊠ (.c 0)) ⊠ (.c 1))) ⊞ ((((.k 2075 5) ⊠ (.c 3)) ⊠ (.s 2)) ⊠ (.s 0))) ⊠ (.s 4)) ⊞ ((((((.neg (.k 2075 5)) ⊠ (.s 2)) ⊠ (.c 0)) ⊠ (.s 1)) ⊟ (((.k 2075 5) ⊠ (.c 2)) ⊠ (.s 0))) ⊠ (.c 4))) ⊟ (((((.k 296 3) ⊠ (.s 3)) ⊠ (.c 2)) ⊠ (.c 0)) ⊠ (.s 1))) ⊞ (((((.k 296 3) ⊠ (.c 3)) ⊞ (.k 416 3)) ⊠ (.c 0)) ⊠ (.c 1))) ⊞ ((((.k 296 3) ⊠ (.s 3)) ⊠ (.s 2)) ⊠ (.s 0))⟩,
    ⟨1, 0, (((((.neg (.s 3)) ⊠ (.c 2)) ⊠ (.s 0)) ⊠ (.s 1)) ⊞ (((.c 3) ⊠ (.s 0)) ⊠ (.c 1))) ⊟ (((.s 3) ⊠ (.s 2)) ⊠ (.c 0))⟩,
    ⟨1, 1, (((((((.neg (.c 3)) ⊠ (.c 2)) ⊠ (.s 0)) ⊠ (.s 1)) ⊟ (((.s 3) ⊠ (.s 0)) ⊠ (.c 1))) ⊟ (((.c 3) ⊠ (.s 2)) ⊠ (.c 0))) ⊠ (.s 4)) ⊞ (((((.k 1 0) ⊠ (.c 2)) ⊠ (.c 0)) ⊟ (((.s 2) ⊠ (.s 0)) ⊠ (.s 1))) ⊠ (.c 4))⟩,
    ⟨1, 2, ((((((.k 1 0) ⊠ (.s 2)) ⊠ (.s 0)) ⊠ (.s 1)) ⊟ ((.c 2) ⊠ (.c 0))) ⊠ (.s 4)) ⊞ (((((((.neg (.c 3)) ⊠ (.c 2)) ⊠ (.s 0)) ⊠ (.s 1)) ⊟ (((.s 3) ⊠ (.s 0)) ⊠ (.c 1))) ⊟ (((.c 3) ⊠ (.s 2)) ⊠ (.c 0))) ⊠ (.c 4))⟩,
    ⟨1, 3, (((((((((((.neg (.k 2075 5)) ⊠ (.c 3)) ⊠ (.c 2)) ⊠ (.s 0)) ⊠ (.s 1)) ⊟ ((((.k 2075 5) ⊠ (.s 3)) ⊠ (.s 0)) ⊠ (.c 1))) ⊟ ((((.k 2075 5) ⊠ (.c 3)) ⊠ (.s 2)) ⊠ (.c 0))) ⊠ (.s 4)) ⊞ (((((.k 2075 5) ⊠ (.c 2)) ⊠ (.c 0)) ⊟ ((((.k 2075 5) ⊠ (.s 2)) ⊠ (.s 0)) ⊠ (.s 1))) ⊠ (.c 4))) ⊟ (((((.k 296 3) ⊠ (.s 3)) ⊠ (.c 2)) ⊠ (.s 0)) ⊠ (.s 1))) ⊞ (((((.k 296 3) ⊠ (.c 3)) ⊞ (.k 416 3)) ⊠ (.s 0)) ⊠ (.c 1))) ⊟ ((((.k 296 3) ⊠ (.s 3)) ⊠ (.s 2)) ⊠ (.c 0))⟩,
    ⟨2, 0, ((.c 3) ⊠ (.s 1)) ⊞ (((.s 3) ⊠ (.c 2)) ⊠ (.c 1))⟩,
    ⟨2, 1, ((((((.k 1 0) ⊠ (.c 3)) ⊠ (.c 2)) ⊠ (.c 1)) ⊟ ((.s 3) ⊠ (.s 1))) ⊠ (.s 4)) ⊞ (((.s 2) ⊠ (.c 1)) ⊠ (.c 4))⟩,
    ⟨2, 2, ((((((.k 1 0) ⊠ (.c 3)) ⊠ (.c 2)) ⊠ (.c 1)) ⊟ ((.s 3) ⊠ (.s 1))) ⊠ (.c 4)) ⊟ (((.s 2) ⊠ (.c 1)) ⊠ (.s 4))⟩,
    ⟨2, 3, (((((((((.k 2075 5) ⊠ (.c 3)) ⊠ (.c 2)) ⊠ (.c 1)) ⊟ (((.k 2075 5) ⊠ (.s 3)) ⊠ (.s 1))) ⊠ (.s 4)) ⊞ ((((.k 2075 5) ⊠ (.s 2)) ⊠ (.c 1)) ⊠ (.c 4))) ⊞ ((((.k 296 3) ⊠ (.c 3)) ⊞ (.k 416 3)) ⊠ (.s 1))) ⊞ ((((.k 296 3) ⊠ (.s 3)) ⊠ (.c 2)) ⊠ (.c 1))) ⊞ (.k 178 3)⟩]

/-- `MotionTransforms::Type_fr_HyABase_X_fr_WFE` (transforms.impl.h:2519-2530, 2532-2583). -/
def motion_fr_HyABase_X_fr_WFE : Gen where
  rows := 6
  cols := 6
  ctor := [⟨0, 3, .k 0 0⟩,
    ⟨0, 4, .k 0 0⟩,
    ⟨0, 5, .k 0 0⟩,
    ⟨1, 3, .k 0 0⟩,
    ⟨1, 4, .k 0 0⟩,
    ⟨1, 5, .k 0 0⟩,
    ⟨2, 3, .k 0 0⟩,
    ⟨2, 4, .k 0 0⟩,
    ⟨2, 5, .k 0 0⟩]
  upd := [⟨0, 0, (((((.neg (.s 3)) ⊠ (.c 2)) ⊠ (.c 0)) ⊠ (.s 1)) ⊞ (((.c 3) ⊠ (.c 0)) ⊠ (.c 1))) ⊞ (((.s 3) ⊠ (.s 2)) ⊠ (.s 0))⟩,
    ⟨0, 1, (((((((.neg (.c 3)) ⊠ (.c 2)) ⊠ (.c 0)) ⊠ (.s 1)) ⊟ (((.s 3) ⊠ (.c 0)) ⊠ (.c 1))) ⊞ (((.c 3) ⊠ (.s 2)) ⊠ (.s 0))) ⊠ (.s 4)) ⊞ (((((.neg (.s 2)) ⊠ (.c 0)) ⊠ (.s 1)) ⊟ ((.c 2) ⊠ (.s 0))) ⊠ (.c 4))⟩,
    ⟨0, 2, ((((((.k 1 0) ⊠ (.s 2)) ⊠ (.c 0)) ⊠ (.s 1)) ⊞ ((.c 2) ⊠ (.s 0))) ⊠ (.s 4)) ⊞ (((((((.neg (.c 3)) ⊠ (.c 2)) ⊠ (.c 0)) ⊠ (.s 1)) ⊟ (((.s 3) ⊠ (.c 0)) ⊠ (.c 1))) ⊞ (((.c 3) ⊠ (.s 2)) ⊠ (.s 0))) ⊠ (.c 4))⟩,
    ⟨1, 0, (((((.neg (.s 3)) ⊠ (.c 2)) ⊠ (.s 0)) ⊠ (.s 1)) ⊞ (((.c 3) ⊠ (.s 0)) ⊠ (.c 1))) ⊟ (((.s 3) ⊠ (.s 2)) ⊠ (.c 0))⟩,
    ⟨1, 1, (((((((.neg (.c 3)) ⊠ (.c 2)) ⊠ (.s 0)) ⊠ (.s 1)) ⊟ (((.s 3) ⊠ (.s 0)) ⊠ (.c 1))) ⊟ (((.c 3) ⊠ (.s 2)) ⊠ (.c 0))) ⊠ (.s 4)) ⊞ (((((.k 1 0) ⊠ (.c 2)) ⊠ (.c 0)) ⊟ (((.s 2) ⊠ (.s 0)) ⊠ (.s 1))) ⊠ (.c 4))⟩,
    ⟨1, 2, ((((((.k 1 0) ⊠ (.s 2)) ⊠ (.s 0)) ⊠ (.s 1)) ⊟ ((.c 2) ⊠ (.c 0))) ⊠ (.s 4)) ⊞ (((((((.neg (.c 3)) ⊠ (.c 2)) ⊠ (.s 0)) ⊠ (.s 1)) ⊟ (((.s 3) ⊠ (.s 0)) ⊠ (.c 1))) ⊟ (((.c 3) ⊠ (.s 2)) ⊠ (.c 0))) ⊠ (.c 4))⟩,
    ⟨2, 0, ((.c 3) ⊠ (.s 1)) ⊞ (((.s 3) ⊠ (.c 2)) ⊠ (.c 1))⟩,
    ⟨2, 1, ((((((.k 1 0) ⊠ (.c 3)) ⊠ (.c 2)) ⊠ (.c 1)) ⊟ ((.s 3) ⊠ (.s 1))) ⊠ (.s 4)) ⊞ (((.s 2) ⊠ (.c 1)) ⊠ (.c 4))⟩,
    ⟨2, 2, ((((((.k 1 0) ⊠ (.c 3)) ⊠ (.c 2)) ⊠ (.c 1)) ⊟ ((.s 3) ⊠ (.s 1))) ⊠ (.c 4)) ⊟ (((.s 2) ⊠ (.c 1)) ⊠ (.s 4))⟩,
    ⟨3, 0, ((((((((((.neg (.k 2075 5)) ⊠ (.s 2)) ⊠ (.c 0)) ⊠ (.s 1)) ⊟ (((.k 2075 5) ⊠ (.c 2)) ⊠ (.s 0))) ⊠ (.s 4)) ⊞ ((((((((.k 2075 5) ⊠ (.c 3)) ⊠ (.c 2)) ⊠ (.c 0)) ⊠ (.s 1)) ⊞ ((((.k 2075 5) ⊠ (.s 3)) ⊠ (.c 0)) ⊠ (.c 1))) ⊟ ((((.k 2075 5) ⊠ (.c 3)) ⊠ (.s 2)) ⊠ (.s 0))) ⊠ (.c 4))) ⊞ ((((((.k 178 3) ⊠ (.s 3)) ⊠ (.c 2)) ⊠ (.s 0)) ⊞ ((((.k 416 3) ⊠ (.s 3)) ⊠ (.s 2)) ⊠ (.c 0))) ⊠ (.s 1))) ⊟ ((((.k 178 3) ⊠ (.c 3)) ⊠ (.s 0)) ⊠ (.c 1))) ⊞ ((((.k 416 3) ⊠ (.s 3)) ⊠ (.c 2)) ⊠ (.s 0))) ⊞ ((((.k 178 3) ⊠ (.s 3)) ⊠ (.s 2)) ⊠ (.c 0))⟩,
    ⟨3, 1, ((((((((((.k 178 3) ⊠ (.c 3)) ⊠ (.c 2)) ⊠ (.s 0)) ⊞ (((((.k 416 3) ⊠ (.c 3)) ⊞ (.k 296 3)) ⊠ (.s 2)) ⊠ (.c 0))) ⊠ (.s 1)) ⊞ ((((.k 178 3) ⊠ (.s 3)) ⊠ (.s 0)) ⊠ (.c 1))) ⊞ (((((.k 416 3) ⊠ (.c 3)) ⊞ (.k 296 3)) ⊠ (.c 2)) ⊠ (.s 0))) ⊞ ((((.k 178 3) ⊠ (.c 3)) ⊠ (.s 2)) ⊠ (.c 0))) ⊠ (.s 4)) ⊞ (((((((((.k 178 3) ⊠ (.s 2)) ⊠ (.s 0)) ⊞ (((((.neg (.k 296 3)) ⊠ (.c 3)) ⊟ (.k 416 3)) ⊠ (.c 2)) ⊠ (.c 0))) ⊠ (.s 1)) ⊟ ((((.k 296 3) ⊠ (.s 3)) ⊠ (.c 0)) ⊠ (.c 1))) ⊞ (((((.k 296 3) ⊠ (.c 3)) ⊞ (.k 416 3)) ⊠ (.s 2)) ⊠ (.s 0))) ⊟ (((.k 178 3) ⊠ (.c 2)) ⊠ (.c 0))) ⊠ (.c 4))⟩,
    ⟨3, 2, ((((((((((((((.k 296 3) ⊠ (.c 3)) ⊞ (.k 416 3)) ⊠ (.c 2)) ⊠ (.c 0)) ⊟ (((.k 178 3) ⊠ (.s 2)) ⊠ (.s 0))) ⊠ (.s 1)) ⊞ ((((.k 296 3) ⊠ (.s 3)) ⊠ (.c 0)) ⊠ (.c 1))) ⊞ (((((.neg (.k 296 3)) ⊠ (.c 3)) ⊟ (.k 416 3)) ⊠ (.s 2)) ⊠ (.s 0))) ⊞ (((.k 178 3) ⊠ (.c 2)) ⊠ (.c 0))) ⊠ (.s 4)) ⊞ ((((((((((.k 178 3) ⊠ (.c 3)) ⊠ (.c 2)) ⊠ (.s 0)) ⊞ (((((.k 416 3) ⊠ (.c 3)) ⊞ (.k 296 3)) ⊠ (.s 2)) ⊠ (.c 0))) ⊠ (.s 1)) ⊞ ((((.k 178 3) ⊠ (.s 3)) ⊠ (.s 0)) ⊠ (.c 1))) ⊞ (((((.k 416 3) ⊠ (.c 3)) ⊞ (.k 296 3)) ⊠ (.c 2)) ⊠ (.s 0))) ⊞ ((((.k 178 3) ⊠ (.c 3)) ⊠ (.s 2)) ⊠ (.c 0))) ⊠ (.c 4))) ⊟ (((((.k 2075 5) ⊠ (.s 3)) ⊠ (.c 2)) ⊠ (.c 0)) ⊠ (.s 1))) ⊞ ((((.k 2075 5) ⊠ (.c 3)) ⊠ (.c 0)) ⊠ (.c 1))) ⊞ ((((.k 2075 5) ⊠ (.s 3)) ⊠ (.s 2)) ⊠ (.s 0))⟩,
    ⟨3, 3, (((((.neg (.s 3)) ⊠ (.c 2)) ⊠ (.c 0)) ⊠ (.s 1)) ⊞ (((.c 3) ⊠ (.c 0)) ⊠ (.c 1))) ⊞ (((.s 3) ⊠ (.s 2)) ⊠ (.s 0))⟩,
    ⟨3, 4, (((((((.neg (.c 3)) ⊠ (.c 2)) ⊠ (.c 0)) ⊠ (.s 1)) ⊟ (((.s 3) ⊠ (.c 0)) ⊠ (.c 1))) ⊞ (((.c 3) ⊠ (.s 2)) ⊠ (.s 0))) ⊠ (.s 4)) ⊞ (((((.neg (.s 2)) ⊠ (.c 0)) ⊠ (.s 1)) ⊟ ((.c 2) ⊠ (.s 0))) ⊠ (.c 4))⟩,
    ⟨3, 5, ((((((.k 1 0) ⊠ (.s 2)) ⊠ (.c 0)) ⊠ (.s 1)) ⊞ ((.c 2) ⊠ (.s 0))) ⊠ (.s 4)) ⊞ (((((((.neg (.c 3)) ⊠ (.c 2)) ⊠ (.c 0)) ⊠ (.s 1)) ⊟ (((.s 3) ⊠ (.c 0)) ⊠ (.c 1))) ⊞ (((.c 3) ⊠ (.s 2)) ⊠ (.s 0))) ⊠ (.c 4))⟩,
    ⟨4, 0, (((((((((.k 2075 5) ⊠ (.c 2)) ⊠ (.c 0)) ⊟ ((((.k 2075 5) ⊠ (.s 2)) ⊠ (.s 0)) ⊠ (.s 1))) ⊠ (.s 4)) ⊞ ((((((((.k 2075 5) ⊠ (.c 3)) ⊠ (.c 2)) ⊠ (.s 0)) ⊠ (.s 1)) ⊞ ((((.k 2075 5) ⊠ (.s 3)) ⊠ (.s 0)) ⊠ (.c 1))) ⊞ ((((.k 2075 5) ⊠ (.c 3)) ⊠ (.s 2)) ⊠ (.c 0))) ⊠ (.c 4))) ⊞ ((((((.k 416 3) ⊠ (.s 3)) ⊠ (.s 2)) ⊠ (.s 0)) ⊟ ((((.k 178 3) ⊠ (.s 3)) ⊠ (.c 2)) ⊠ (.c 0))) ⊠ (.s 1))) ⊞ ((((.k 178 3) ⊠ (.c 3)) ⊠ (.c 0)) ⊠ (.c 1))) ⊞ ((((.k 178 3) ⊠ (.s 3)) ⊠ (.s 2)) ⊠ (.s 0))) ⊟ ((((.k 416 3) ⊠ (.s 3)) ⊠ (.c 2)) ⊠ (.c 0))⟩,
    ⟨4, 1, (((((((((((.k 416 3) ⊠ (.c 3)) ⊞ (.k 296 3)) ⊠ (.s 2)) ⊠ (.s 0)) ⊟ ((((.k 178 3) ⊠ (.c 3)) ⊠ (.c 2)) ⊠ (.c 0))) ⊠ (.s 1)) ⊟ ((((.k 178 3) ⊠ (.s 3)) ⊠ (.c 0)) ⊠ (.c 1))) ⊞ ((((.k 178 3) ⊠ (.c 3)) ⊠ (.s 2)) ⊠ (.s 0))) ⊞ (((((.neg (.k 416 3)) ⊠ (.c 3)) ⊟ (.k 296 3)) ⊠ (.c 2)) ⊠ (.c 0))) ⊠ (.s 4)) ⊞ (((((((((((.neg (.k 296 3)) ⊠ (.c 3)) ⊟ (.k 416 3)) ⊠ (.c 2)) ⊠ (.s 0)) ⊟ (((.k 178 3) ⊠ (.s 2)) ⊠ (.c 0))) ⊠ (.s 1)) ⊟ ((((.k 296 3) ⊠ (.s 3)) ⊠ (.s 0)) ⊠ (.c 1))) ⊟ (((.k 178 3) ⊠ (.c 2)) ⊠ (.s 0))) ⊞ (((((.neg (.k 296 3)) ⊠ (.c 3)) ⊟ (.k 416 3)) ⊠ (.s 2)) ⊠ (.c 0))) ⊠ (.c 4))⟩,
    ⟨4, 2, ((((((((((((((.k 296 3) ⊠ (.c 3)) ⊞ (.k 416 3)) ⊠ (.c 2)) ⊠ (.s 0)) ⊞ (((.k 178 3) ⊠ (.s 2)) ⊠ (.c 0))) ⊠ (.s 1)) ⊞ ((((.k 296 3) ⊠ (.s 3)) ⊠ (.s 0)) ⊠ (.c 1))) ⊞ (((.k 178 3) ⊠ (.c 2)) ⊠ (.s 0))) ⊞ (((((.k 296 3) ⊠ (.c 3)) ⊞ (.k 416 3)) ⊠ (.s 2)) ⊠ (.c 0))) ⊠ (.s 4)) ⊞ (((((((((((.k 416 3) ⊠ (.c 3)) ⊞ (.k 296 3)) ⊠ (.s 2)) ⊠ (.s 0)) ⊟ ((((.k 178 3) ⊠ (.c 3)) ⊠ (.c 2)) ⊠ (.c 0))) ⊠ (.s 1)) ⊟ ((((.k 178 3) ⊠ (.s 3)) ⊠ (.c 0)) ⊠ (.c 1))) ⊞ ((((.k 178 3) ⊠ (.c 3)) ⊠ (.s 2)) ⊠ (.s 0))) ⊞ (((((.neg (.k 416 3)) ⊠ (.c 3)) ⊟ (.k 296 3)) ⊠ (.c 2)) ⊠ (.c 0))) ⊠ (.c 4))) ⊟ (((((.k 2075 5) ⊠ (.s 3)) ⊠ (.c 2)) ⊠ (.s 0)) ⊠ (.s 1))) ⊞ ((((.k 2075 5) ⊠ (.c 3)) ⊠ (.s 0)) ⊠ (.c 1))) ⊟ ((((.k 2075 5) ⊠ (.s 3)) ⊠ (.s 2)) ⊠ (.c 0))⟩,
    ⟨4, 3, (((((.neg (.s 3)) ⊠ (.c 2)) ⊠ (.s 0)) ⊠ (.s 1)) ⊞ (((.c 3) ⊠ (.s 0)) ⊠ (.c 1))) ⊟ (((.s 3) ⊠ (.s 2)) ⊠ (.c 0))⟩,
    ⟨4, 4, (((((((.neg (.c 3)) ⊠ (.c 2)) ⊠ (.s 0)) ⊠ (.s 1)) ⊟ (((.s 3) ⊠ (.s 0)) ⊠ (.c 1))) ⊟ (((.c 3) ⊠ (.s 2)) ⊠ (.c 0))) ⊠ (.s 4)) ⊞ (((((.k 1 0) ⊠ (.c 2)) ⊠ (.c 0)) ⊟ (((.s 2) ⊠ (.s 0)) ⊠ (.s 1))) ⊠ (.c 4))⟩,
    ⟨4, 5, ((((((.k 1 0) ⊠ (.s 2)) ⊠ (.s 0)) ⊠ (.s 1)) ⊟ ((.c 2) ⊠ (.c 0))) ⊠ (.s 4)) ⊞ (((((((.neg (.c 3)) ⊠ (.c 2)) ⊠ (.s 0)) ⊠ (.s 1)) ⊟ (((.s 3) ⊠ (.s 0)) ⊠ (.c 1))) ⊟ (((.c 3) ⊠ (.s 2)) ⊠ (.c 0))) ⊠ (.c 4))⟩,
    ⟨5, 0, (((((.k 2075 5) ⊠ (.s 2)) ⊠ (.c 1)) ⊠ (.s 4)) ⊞ (((((.k 2075 5) ⊠ (.s 3)) ⊠ (.s 1)) ⊟ ((((.k 2075 5) ⊠ (.c 3)) ⊠ (.c 2)) ⊠ (.c 1))) ⊠ (.c 4))) ⊟ ((((.k 416 3) ⊠ (.s 3)) ⊠ (.s 2)) ⊠ (.c 1))⟩,
    ⟨5, 1, ((((((.neg (.k 416 3)) ⊠ (.c 3)) ⊟ (.k 296 3)) ⊠ (.s 2)) ⊠ (.c 1)) ⊠ (.s 4)) ⊞ (((((((.k 296 3) ⊠ (.c 3)) ⊞ (.k 416 3)) ⊠ (.c 2)) ⊠ (.c 1)) ⊟ (((.k 296 3) ⊠ (.s 3)) ⊠ (.s 1))) ⊠ (.c 4))⟩,
    ⟨5, 2, (((((((.k 296 3) ⊠ (.s 3)) ⊠ (.s 1)) ⊞ (((((.neg (.k 296 3)) ⊠ (.c 3)) ⊟ (.k 416 3)) ⊠ (.c 2)) ⊠ (.c 1))) ⊠ (.s 4)) ⊞ ((((((.neg (.k 416 3)) ⊠ (.c 3)) ⊟ (.k 296 3)) ⊠ (.s 2)) ⊠ (.c 1)) ⊠ (.c 4))) ⊞ (((.k 2075 5) ⊠ (.c 3)) ⊠ (.s 1))) ⊞ ((((.k 2075 5) ⊠ (.s 3)) ⊠ (.c 2)) ⊠ (.c 1))⟩,
    ⟨5, 3, ((.c 3) ⊠ (.s 1)) ⊞ (((.s 3) ⊠ (.c 2)) ⊠ (.c 1))⟩,
    ⟨5, 4, ((((((.k 1 0) ⊠ (.c 3)) ⊠ (.c 2)) ⊠ (.c 1)) ⊟ ((.s 3) ⊠ (.s 1))) ⊠ (.s 4)) ⊞ (((.s 2) ⊠ (.c 1)) ⊠ (.c 4))⟩,
    ⟨5, 5, ((((((.k 1 0) ⊠ (.c 3)) ⊠ (.c 2)) ⊠ (.c 1)) ⊟ ((.s 3) ⊠ (.s 1))) ⊠ (.c 4)) ⊟ (((.s 2) ⊠ (.c 1)) ⊠ (.s 4))⟩]

/-- `ForceTransforms::Type_fr_HyABase_X_fr_WFE` (transforms.impl.h:5368-5379, 5381-5432). -/
def force_fr_HyABase_X_fr_WFE : Gen where
  rows := 6
  cols := 6
  ctor := [⟨3, 0, .k 0 0⟩,
    ⟨3, 1, .k 0 0⟩,
    ⟨3, 2, .k 0 0⟩,
    ⟨4, 0, .k 0 0⟩,
    ⟨4, 1, .k 0 0⟩,
    ⟨4, 2, .k 0 0⟩,
    ⟨5, 0, .k 0 0⟩,
    ⟨5, 1, .k 0 0⟩,
    ⟨5, 2, .k 0 0⟩]
  upd := [⟨0, 0, (((((.neg (.s 3)) ⊠ (.c 2)) ⊠ (.c 0)) ⊠ (.s 1)) ⊞ (((.c 3) ⊠ (.c 0)) ⊠ (.c 1))) ⊞ (((.s 3) ⊠ (.s 2)) ⊠ (.s 0))⟩,
    ⟨0, 1, (((((((.neg (.c 3)) ⊠ (.c 2)) ⊠ (.c 0)) ⊠ (.s 1)) ⊟ (((.s 3) ⊠ (.c 0)) ⊠ (.c 1))) ⊞ (((.c 3) ⊠ (.s 2)) ⊠ (.s 0))) ⊠ (.s 4)) ⊞ (((((.neg (.s 2)) ⊠ (.c 0)) ⊠ (.s 1)) ⊟ ((.c 2) ⊠ (.s 0))) ⊠ (.c 4))⟩,
    ⟨0, 2, ((((((.k 1 0) ⊠ (.s 2)) ⊠ (.c 0)) ⊠ (.s 1)) ⊞ ((.c 2) ⊠ (.s 0))) ⊠ (.s 4)) ⊞ (((((((.neg (.c 3)) ⊠ (.c 2)) ⊠ (.c 0)) ⊠ (.s 1)) ⊟ (((.s 3) ⊠ (.c 0)) ⊠ (.c 1))) ⊞ (((.c 3) ⊠ (.s 2)) ⊠ (.s 0))) ⊠ (.c 4))⟩,
    ⟨0, 3, ((((((((((.neg (.k 2075 5)) ⊠ (.s 2)) ⊠ (.c 0)) ⊠ (.s 1)) ⊟ (((.k 2075 5) ⊠ (.c 2)) ⊠ (.s 0))) ⊠ (.s 4)) ⊞ ((((((((.k 2075 5) ⊠ (.c 3)) ⊠ (.c 2)) ⊠ (.c 0)) ⊠ (.s 1)) ⊞ ((((.k 2075 5) ⊠ (.s 3)) ⊠ (.c 0)) ⊠ (.c 1))) ⊟ ((((.k 2075 5) ⊠ (.c 3)) ⊠ (.s 2)) ⊠ (.s 0))) ⊠ (.c 4))) ⊞ ((((((.k 178 3) ⊠ (.s 3)) ⊠ (.c 2)) ⊠ (.s 0)) ⊞ ((((.k 416 3) ⊠ (.s 3)) ⊠ (.s 2)) ⊠ (.c 0))) ⊠ (.s 1))) ⊟ ((((.k 178 3) ⊠ (.c 3)) ⊠ (.s 0)) ⊠ (.c 1))) ⊞ ((((.k 416 3) ⊠ (.s 3)) ⊠ (.c 2)) ⊠ (.s 0))) ⊞ ((((.k 178 3) ⊠ (.s 3)) ⊠ (.s 2)) ⊠ (.c 0))⟩,
    ⟨0, 4, ((((((((((.k 178 3) ⊠ (.c 3)) ⊠ (.c 2)) ⊠ (.s 0)) ⊞ (((((.k 416 3) ⊠ (.c 3)) ⊞ (.k 296 3)) ⊠ (.s 2)) ⊠ (.c 0))) ⊠ (.s 1)) ⊞ ((((.k 178 3) ⊠ (.s 3)) ⊠ (.s 0)) ⊠ (.c 1))) ⊞ (((((.k 416 3) ⊠ (.c 3)) ⊞ (.k 296 3)) ⊠ (.c 2)) ⊠ (.s 0))) ⊞ ((((.k 178 3) ⊠ (.c 3)) ⊠ (.s 2)) ⊠ (.c 0))) ⊠ (.s 4)) ⊞ (((((((((.k 178 3) ⊠ (.s 2)) ⊠ (.s 0)) ⊞ (((((.neg (.k 296 3)) ⊠ (.c 3)) ⊟ (.k 416 3)) ⊠ (.c 2)) ⊠ (.c 0))) ⊠ (.s 1)) ⊟ ((((.k 296 3) ⊠ (.s 3)) ⊠ (.c 0)) ⊠ (.c 1))) ⊞ (((((.k 296 3) ⊠ (.c 3)) ⊞ (.k 416 3)) ⊠ (.s 2)) ⊠ (.s 0))) ⊟ (((.k 178 3) ⊠ (.c 2)) ⊠ (.c 0))) ⊠ (.c 4))⟩,
    ⟨0, 5, ((((((((((((((.k 296 3) ⊠ (.c 3)) ⊞ (.k 416 3)) ⊠ (.c 2)) ⊠ (.c 0)) ⊟ (((.k 178 3) ⊠ (.s 2)) ⊠ (.s 0))) ⊠ (.s 1)) ⊞ ((((.k 296 3) ⊠ (.s 3)) ⊠ (.c 0)) ⊠ (.c 1))) ⊞ (((((.neg (.k 296 3)) ⊠ (.c 3)) ⊟ (.k 416 3)) ⊠ (.s 2)) ⊠ (.s 0))) ⊞ (((.k 178 3) ⊠ (.c 2)) ⊠ (.c 0))) ⊠ (.s 4)) ⊞ ((((((((((.k 178 3) ⊠ (.c 3)) ⊠ (.c 2)) ⊠ (.s 0)) ⊞ (((((.k 416 3) ⊠ (.c 3)) ⊞ (.k 296 3)) ⊠ (.s 2)) ⊠ (.c 0))) ⊠ (.s 1)) ⊞ ((((.k 178 3) ⊠ (.s 3)) ⊠ (.s 0)) ⊠ (.c 1))) ⊞ (((((.k 416 3) ⊠ (.c 3)) ⊞ (.k 296 3)) ⊠ (.c 2)) ⊠ (.s 0))) ⊞ ((((.k 178 3) ⊠ (.c 3)) ⊠ (.s 2)) ⊠ (.c 0))) ⊠ (.c 4))) ⊟ (((((.k 2075 5) ⊠ (.s 3)) ⊠ (.c 2)) ⊠ (.c 0)) ⊠ (.s 1))) ⊞ ((((.k 2075 5) ⊠ (.c 3)) ⊠ (.c 0)) ⊠ (.c 1))) ⊞ ((((.k 2075 5) ⊠ (.s 3)) ⊠ (.s 2)) ⊠ (.s 0))⟩,
    ⟨1, 0, (((((.neg (.s 3)) ⊠ (.c 2)) ⊠ (.s 0)) ⊠ (.s 1)) ⊞ (((.c 3) ⊠ (.s 0)) ⊠ (.c 1))) ⊟ (((.s 3) ⊠ (.s 2)) ⊠ (.c 0))⟩,
    ⟨1, 1, (((((((.neg (.c 3)) ⊠ (.c 2)) ⊠ (.s 0)) ⊠ (.s 1)) ⊟ (((.s 3) ⊠ (.s 0)) ⊠ (.c 1))) ⊟ (((.c 3) ⊠ (.s 2)) ⊠ (.c 0))) ⊠ (.s 4)) ⊞ (((((.k 1 0) ⊠ (.c 2)) ⊠ (.c 0)) ⊟ (((.s 2) ⊠ (.s 0)) ⊠ (.s 1))) ⊠ (.c 4))⟩,
    ⟨1, 2, ((((((.k 1 0) ⊠ (.s 2)) ⊠ (.s 0)) ⊠ (.s 1)) ⊟ ((.c 2) ⊠ (.c 0))) ⊠ (.s 4)) ⊞ (((((((.neg (.c 3)) ⊠ (.c 2)) ⊠ (.s 0)) ⊠ (.s 1)) ⊟ (((.s 3) ⊠ (.s 0)) ⊠ (.c 1))) ⊟ (((.c 3) ⊠ (.s 2)) ⊠ (.c 0))) ⊠ (.c 4))⟩,
    ⟨1, 3, (((((((((.k 2075 5) ⊠ (.c 2)) ⊠ (.c 0)) ⊟ ((((.k 2075 5) ⊠ (.s 2)) ⊠ (.s 0)) ⊠ (.s 1))) ⊠ (.s 4)) ⊞ ((((((((.k 2075 5) ⊠ (.c 3)) ⊠ (.c 2)) ⊠ (.s 0)) ⊠ (.s 1)) ⊞ ((((.k 2075 5) ⊠ (.s 3)) ⊠ (.s 0)) ⊠ (.c 1))) ⊞ ((((.k 2075 5) ⊠ (.c 3)) ⊠ (.s 2)) ⊠ (.c 0))) ⊠ (.c 4))) ⊞ ((((((.k 416 3) ⊠ (.s 3)) ⊠ (.s 2)) ⊠ (.s 0)) ⊟ ((((.k 178 3) ⊠ (.s 3)) ⊠ (.c 2)) ⊠ (.c 0))) ⊠ (.s 1))) ⊞ ((((.k 178 3) ⊠ (.c 3)) ⊠ (.c 0)) ⊠ (.c 1))) ⊞ ((((.k 178 3) ⊠ (.s 3)) ⊠ (.s 2)) ⊠ (.s 0))) ⊟ ((((.k 416 3) ⊠ (.s 3)) ⊠ (.c 2)) ⊠ (.c 0))⟩,
    ⟨1, 4, (((((((((((.k 416 3) ⊠ (.c 3)) ⊞ (.k 296 3)) ⊠ (.s 2)) ⊠ (.s 0)) ⊟ ((((.k 178 3) ⊠ (.c 3)) ⊠ (.c 2)) ⊠ (.c 0))) ⊠ (.s 1)) ⊟ ((((.k 178 3) ⊠ (.s 3)) ⊠ (.c 0)) ⊠ (.c 1))) ⊞ ((((.k 178 3) ⊠ (.c 3)) ⊠ (.s 2)) ⊠ (.s 0))) ⊞ (((((.neg (.k 416 3)) ⊠ (.c 3)) ⊟ (.k 296 3)) ⊠ (.c 2)) ⊠ (.c 0))) ⊠ (.s 4)) ⊞ (((((((((((.neg (.k 296 3)) ⊠ (.c 3)) ⊟ (.k 416 3)) ⊠ (.c 2)) ⊠ (.s 0)) ⊟ (((.k 178 3) ⊠ (.s 2)) ⊠ (.c 0))) ⊠ (.s 1)) ⊟ ((((.k 296 3) ⊠ (.s 3)) ⊠ (.s 0)) ⊠ (.c 1))) ⊟ (((.k 178 3) ⊠ (.c 2)) ⊠ (.s 0))) ⊞ (((((.neg (.k 296 3)) ⊠ (.c 3)) ⊟ (.k 416 3)) ⊠ (.s 2)) ⊠ (.c 0))) ⊠ (.c 4))⟩,
    ⟨1, 5, ((((((((((((((.k 296 3) ⊠ (.c 3)) ⊞ (.k 416 3)) ⊠ (.c 2)) ⊠ (.s 0)) ⊞ (((.k 178 3) ⊠ (.s 2)) ⊠ (.c 0))) ⊠ (.s 1)) ⊞ ((((.k 296 3) ⊠ (.s 3)) ⊠ (.s 0)) ⊠ (.c 1))) ⊞ (((.k 178 3) ⊠ (.c 2)) ⊠ (.s 0))) ⊞ (((((.k 296 3) ⊠ (.c 3)) ⊞ (.k 416 3)) ⊠ (.s 2)) ⊠ (.c 0))) ⊠ (.s 4)) ⊞ (((((((((((.k 416 3) ⊠ (.c 3)) ⊞ (.k 296 3)) ⊠ (.s 2)) ⊠ (.s 0)) ⊟ ((((.k 178 3) ⊠ (.c 3)) ⊠ (.c 2)) ⊠ (.c 0))) ⊠ (.s 1)) ⊟ ((((.k 178 3) ⊠ (.s 3)) ⊠ (.c 0)) ⊠ (.c 1))) ⊞ ((((.k 178 3) ⊠ (.c 3)) ⊠ (.s 2)) ⊠ (.s 0))) ⊞ (((((.neg (.k 416 3)) ⊠ (.c 3)) ⊟ (.k 296 3)) ⊠ (.c 2)) ⊠ (.c 0))) ⊠ (.c 4))) ⊟ (((((.k 2075 5) ⊠ (.s 3)) ⊠ (.c 2)) ⊠ (.s 0)) ⊠ (.s 1))) ⊞ ((((.k 2075 5) ⊠ (.c 3)) ⊠ (.s 0)) ⊠ (.c 1))) ⊟ ((((.k 2075 5) ⊠ (.s 3)) ⊠ (.s 2)) ⊠ (.c 0))⟩,
    ⟨2, 0, ((.c 3) ⊠ (.s 1)) ⊞ (((.s 3) ⊠ (.c 2)) ⊠ (.c 1))⟩,
    ⟨2, 1, ((((((.k 1 0) ⊠ (.c 3)) ⊠ (.c 2)) ⊠ (.c 1)) ⊟ ((.s 3) ⊠ (.s 1))) ⊠ (.s 4)) ⊞ (((.s 2) ⊠ (.c 1)) ⊠ (.c 4))⟩,
    ⟨2, 2, ((((((.k 1 0) ⊠ (.c 3)) ⊠ (.c 2)) ⊠ (.c 1)) ⊟ ((.s 3) ⊠ (.s 1))) ⊠ (.c 4)) ⊟ (((.s 2) ⊠ (.c 1)) ⊠ (.s 4))⟩,
    ⟨2, 3, (((((.k 2075 5) ⊠ (.s 2)) ⊠ (.c 1)) ⊠ (.s 4)) ⊞ (((((.k 2075 5) ⊠ (.s 3)) ⊠ (.s 1)) ⊟ ((((.k 2075 5) ⊠ (.c 3)) ⊠ (.c 2)) ⊠ (.c 1))) ⊠ (.c 4))) ⊟ ((((.k 416 3) ⊠ (.s 3)) ⊠ (.s 2)) ⊠ (.c 1))⟩,
    ⟨2, 4, ((((((.neg (.k 416 3)) ⊠ (.c 3)) ⊟ (.k 296 3)) ⊠ (.s 2)) ⊠ (.c 1)) ⊠ (.s 4)) ⊞ (((((((.k 296 3) ⊠ (.c 3)) ⊞ (.k 416 3)) ⊠ (.c 2)) ⊠ (.c 1)) ⊟ (((.k 296 3) ⊠ (.s 3)) ⊠ (.s 1))) ⊠ (.c 4))⟩,
    ⟨2, 5, (((((((.k 296 3) ⊠ (.s 3)) ⊠ (.s 1)) ⊞ (((((.neg (.k 296 3)) ⊠ (.c 3)) ⊟ (.k 416 3)) ⊠ (.c 2)) ⊠ (.c 1))) ⊠ (.s 4)) ⊞ ((((((.neg (.k 416 3)) ⊠ (.c 3)) ⊟ (.k 296 3)) ⊠ (.s 2)) ⊠ (.c 1)) ⊠ (.c 4))) ⊞ (((.k 2075 5) ⊠ (.c 3)) ⊠ (.s 1))) ⊞ ((((.k 2075 5) ⊠ (.s 3)) ⊠ (.c 2)) ⊠ (.c 1))⟩,
    ⟨3, 3, (((((.neg (.s 3)) ⊠ (.c 2)) ⊠ (.c 0)) ⊠ (.s 1)) ⊞ (((.c 3) ⊠ (.c 0)) ⊠ (.c 1))) ⊞ (((.s 3) ⊠ (.s 2)) ⊠ (.s 0))⟩,
    ⟨3, 4, (((((((.neg (.c 3)) ⊠ (.c 2)) ⊠ (.c 0)) ⊠ (.s 1)) ⊟ (((.s 3) ⊠ (.c 0)) ⊠ (.c 1))) ⊞ (((.c 3) ⊠ (.s 2)) ⊠ (.s 0))) ⊠ (.s 4)) ⊞ (((((.neg (.s 2)) ⊠ (.c 0)) ⊠ (.s 1)) ⊟ ((.c 2) ⊠ (.s 0))) ⊠ (.c 4))⟩,
    ⟨3, 5, ((((((.k 1 0) ⊠ (.s 2)) ⊠ (.c 0)) ⊠ (.s 1)) ⊞ ((.c 2) ⊠ (.s 0))) ⊠ (.s 4)) ⊞ (((((((.neg (.c 3)) ⊠ (.c 2)) ⊠ (.c 0)) ⊠ (.s 1)) ⊟ (((.s 3) ⊠ (.c 0)) ⊠ (.c 1))) ⊞ (((.c 3) ⊠ (.s 2)) ⊠ (.s 0))) ⊠ (.c 4))⟩,
    ⟨4, 3, (((((.neg (.s 3)) ⊠ (.c 2)) ⊠ (.s 0)) ⊠ (.s 1)) ⊞ (((.c 3) ⊠ (.s 0)) ⊠ (.c 1))) ⊟ (((.s 3) ⊠ (.s 2)) ⊠ (.c 0))⟩,
    ⟨4, 4, (((((((.neg (.c 3)) ⊠ (.c 2)) ⊠ (.s 0)) ⊠ (.s 1)) ⊟ (((.s 3) ⊠ (.s 0)) ⊠ (.c 1))) ⊟ (((.c 3) ⊠ (.s 2)) ⊠ (.c 0))) ⊠ (.s 4)) ⊞ (((((.k 1 0) ⊠ (.c 2)) ⊠ (.c 0)) ⊟ (((.s 2) ⊠ (.s 0)) ⊠ (.s 1))) ⊠ (.c 4))⟩,
    ⟨4, 5, ((((((.k 1 0) ⊠ (.s 2)) ⊠ (.s 0)) ⊠ (.s 1)) ⊟ ((.c 2) ⊠ (.c 0))) ⊠ (.s 4)) ⊞ (((((((.neg (.c 3)) ⊠ (.c 2)) ⊠ (.s 0)) ⊠ (.s 1)) ⊟ (((.s 3) ⊠ (.s 0)) ⊠ (.c 1))) ⊟ (((.c 3) ⊠ (.s 2)) ⊠ (.c 0))) ⊠ (.c 4))⟩,
    ⟨5, 3, ((.c 3) ⊠ (.s 1)) ⊞ (((.s 3) ⊠ (.c 2)) ⊠ (.c 1))⟩,
    ⟨5, 4, ((((((.k 1 0) ⊠ (.c 3)) ⊠ (.c 2)) ⊠ (.c 1)) ⊟ ((.s 3) ⊠ (.s 1))) ⊠ (.s 4)) ⊞ (((.s 2) ⊠ (.c 1)) ⊠ (.c 4))⟩,
    ⟨5, 5, ((((((.k 1 0) ⊠ (.c 3)) ⊠ (.c 2)) ⊠ (.c 1)) ⊟ ((.s 3) ⊠ (.s 1))) ⊠ (.c 4)) ⊟ (((.s 2) ⊠ (.c 1)) ⊠ (.s 4))⟩]

/-- The transforms `fr_HyABase_X_fr_WFE`. -/
def fr_HyABase_X_fr_WFE : Trans := ⟨fr_HyABase, fr_WFE, hom_fr_HyABase_X_fr_WFE, motion_fr_HyABase_X_fr_WFE, force_fr_HyABase_X_fr_WFE⟩

/-- `HomogeneousTransforms::Type_fr_Shoulder_FE_X_fr_Shoulder_AA` (transforms.impl.h:7463-7475, 7477-7491). -/
def hom_fr_Shoulder_FE_X_fr_Shoulder_AA : Gen where
  rows := 4
  cols := 4
  ctor := [⟨0, 1, .k 0 0⟩,
    ⟨1, 1, .k 0 0⟩,
    ⟨2, 0, .k 0 0⟩,
    ⟨2, 1, .neg (.k 1 0)⟩,
    ⟨2, 2, .k 0 0⟩,
    ⟨2, 3, .k 0 0⟩,
    ⟨3, 0, .k 0 0⟩,
    ⟨3, 1, .k 0 0⟩,
    ⟨3, 2, .k 0 0⟩,
    ⟨3, 3, .k 1 0⟩]
  upd := [⟨0, 0, .c 1⟩,
    ⟨0, 2, .s 1⟩,
    ⟨0, 3, (.neg (.k 178 3)) ⊠ (.s 1)⟩,
    ⟨1, 0, .neg (.s 1)⟩,
    ⟨1, 2, .c 1⟩,
    ⟨1, 3, (.neg (.k 178 3)) ⊠ (.c 1)⟩]

/-- `MotionTransforms::Type_fr_Shoulder_FE_X_fr_Shoulder_AA` (transforms.impl.h:2585-2613, 2615-2633). -/
def motion_fr_Shoulder_FE_X_fr_Shoulder_AA : Gen where
  rows := 6
  cols := 6
  ctor := [⟨0, 1, .k 0 0⟩,
    ⟨0, 3, .k 0 0⟩,
    ⟨0, 4, .k 0 0⟩,
    ⟨0, 5, .k 0 0⟩,
    ⟨1, 1, .k 0 0⟩,
    ⟨1, 3, .k 0 0⟩,
    ⟨1, 4, .k 0 0⟩,
    ⟨1, 5, .k 0 0⟩,
    ⟨2, 0, .k 0 0⟩,
    ⟨2, 1, .neg (.k 1 0)⟩,
    ⟨2, 2, .k 0 0⟩,
    ⟨2, 3, .k 0 0⟩,
    ⟨2, 4, .k 0 0⟩,
    ⟨2, 5, .k 0 0⟩,
    ⟨3, 0, .k 0 0⟩,
    ⟨3, 2, .k 0 0⟩,
    ⟨3, 4, .k 0 0⟩,
    ⟨4, 0, .k 0 0⟩,
    ⟨4, 2, .k 0 0⟩,
    ⟨4, 4, .k 0 0⟩,
    ⟨5, 0, .k 178 3⟩,
    ⟨5, 1, .k 0 0⟩,
    ⟨5, 2, .k 0 0⟩,
    ⟨5, 3, .k 0 0⟩,
    ⟨5, 4, .neg (.k 1 0)⟩,
    ⟨5, 5, .k 0 0⟩]
  upd := [⟨0, 0, .c 1⟩,
    ⟨0, 2, .s 1⟩,
    ⟨1, 0, .neg (.s 1)⟩,
    ⟨1, 2, .c 1⟩,
    ⟨3, 1, (.k 178 3) ⊠ (.c 1)⟩,
    ⟨3, 3, .c 1⟩,
    ⟨3, 5, .s 1⟩,
    ⟨4, 1, (.neg (.k 178 3)) ⊠ (.s 1)⟩,
    ⟨4, 3, .neg (.s 1)⟩,
    ⟨4, 5, .c 1⟩]

/-- `ForceTransforms::Type_fr_Shoulder_FE_X_fr_Shoulder_AA` (transforms.impl.h:5434-5462, 5464-5482). -/
def force_fr_Shoulder_FE_X_fr_Shoulder_AA : Gen where
  rows := 6
  cols := 6
  ctor := [⟨0, 1, .k 0 0⟩,
    ⟨0, 3, .k 0 0⟩,
    ⟨0, 5, .k 0 0⟩,
    ⟨1, 1, .k 0 0⟩,
    ⟨1, 3, .k 0 0⟩,
    ⟨1, 5, .k 0 0⟩,
    ⟨2, 0, .k 0 0⟩,
    ⟨2, 1, .neg (.k 1 0)⟩,
    ⟨2, 2, .k 0 0⟩,
    ⟨2, 3, .k 178 3⟩,
    ⟨2, 4, .k 0 0⟩,
    ⟨2, 5, .k 0 0⟩,
    ⟨3, 0, .k 0 0⟩,
    ⟨3, 1, .k 0 0⟩,
    ⟨3, 2, .k 0 0⟩,
    ⟨3, 4, .k 0 0⟩,
    ⟨4, 0, .k 0 0⟩,
    ⟨4, 1, .k 0 0⟩,
    ⟨4, 2, .k 0 0⟩,
    ⟨4, 4, .k 0 0⟩,
    ⟨5, 0, .k 0 0⟩,
    ⟨5, 1, .k 0 0⟩,
    ⟨5, 2, .k 0 0⟩,
    ⟨5, 3, .k 0 0⟩,
    ⟨5, 4, .neg (.k 1 0)⟩,
    ⟨5, 5, .k 0 0⟩]
  upd := [⟨0, 0, .c 1⟩,
    ⟨0, 2, .s 1⟩,
    ⟨0, 4, (.k 178 3) ⊠ (.c 1)⟩,
    ⟨1, 0, .neg (.s 1)⟩,
    ⟨1, 2, .c 1⟩,
    ⟨1, 4, (.neg (.k 178 3)) ⊠ (.s 1)⟩,
    ⟨3, 3, .c 1⟩,
    ⟨3, 5, .s 1⟩,
    ⟨4, 3, .neg (.s 1)⟩,
    ⟨4, 5, .c 1⟩]

/-- The transforms `fr_Shoulder_FE_X_fr_Shoulder_AA`. -/
def fr_Shoulder_FE_X_fr_Shoulder_AA : Trans := ⟨fr_Shoulder_FE, fr_Shoulder_AA, hom_fr_Shoulder_FE_X_fr_Shoulder_AA, motion_fr_Shoulder_FE_X_fr_Shoulder_AA, force_fr_Shoulder_FE_X_fr_Shoulder_AA⟩

/-- `HomogeneousTransforms::Type_fr_Shoulder_AA_X_fr_Shoulder_FE` (transforms.impl.h:7493-7507, 7509-7521). -/
def hom_fr_Shoulder_AA_X_fr_Shoulder_FE : Gen where
  rows := 4
  cols := 4
  ctor := [⟨0, 2, .k 0 0⟩,
    ⟨0, 3, .k 0 0⟩,
    ⟨1, 0, .k 0 0⟩,
    ⟨1, 1, .k 0 0⟩,
    ⟨1, 2, .neg (.k 1 0)⟩,
    ⟨1, 3, .k 0 0⟩,
    ⟨2, 2, .k 0 0⟩,
    ⟨2, 3, .k 178 3⟩,
    ⟨3, 0, .k 0 0⟩,
    ⟨3, 1, .k 0 0⟩,
    ⟨3, 2, .k 0 0⟩,
    ⟨3, 3, .k 1 0⟩]
  upd := [⟨0, 0, .c 1⟩,
    ⟨0, 1, .neg (.s 1)⟩,
    ⟨2, 0, .s 1⟩,
    ⟨2, 1, .c 1⟩]

/-- `MotionTransforms::Type_fr_Shoulder_AA_X_fr_Shoulder_FE` (transforms.impl.h:2635-2663, 2665-2683). -/
def motion_fr_Shoulder_AA_X_fr_Shoulder_FE : Gen where
  rows := 6
  cols := 6
  ctor := [⟨0, 2, .k 0 0⟩,
    ⟨0, 3, .k 0 0⟩,
    ⟨0, 4, .k 0 0⟩,
    ⟨0, 5, .k 0 0⟩,
    ⟨1, 0, .k 0 0⟩,
    ⟨1, 1, .k 0 0⟩,
    ⟨1, 2, .neg (.k 1 0)⟩,
    ⟨1, 3, .k 0 0⟩,
    ⟨1, 4, .k 0 0⟩,
    ⟨1, 5, .k 0 0⟩,
    ⟨2, 2, .k 0 0⟩,
    ⟨2, 3, .k 0 0⟩,
    ⟨2, 4, .k 0 0⟩,
    ⟨2, 5, .k 0 0⟩,
    ⟨3, 0, .k 0 0⟩,
    ⟨3, 1, .k 0 0⟩,
    ⟨3, 2, .k 178 3⟩,
    ⟨3, 5, .k 0 0⟩,
    ⟨4, 2, .k 0 0⟩,
    ⟨4, 3, .k 0 0⟩,
    ⟨4, 4, .k 0 0⟩,
    ⟨4, 5, .neg (.k 1 0)⟩,
    ⟨5, 0, .k 0 0⟩,
    ⟨5, 1, .k 0 0⟩,
    ⟨5, 2, .k 0 0⟩,
    ⟨5, 5, .k 0 0⟩]
  upd := [⟨0, 0, .c 1⟩,
    ⟨0, 1, .neg (.s 1)⟩,
    ⟨2, 0, .s 1⟩,
    ⟨2, 1, .c 1⟩,
    ⟨3, 3, .c 1⟩,
    ⟨3, 4, .neg (.s 1)⟩,
    ⟨4, 0, (.k 178 3) ⊠ (.c 1)⟩,
    ⟨4, 1, (.neg (.k 178 3)) ⊠ (.s 1)⟩,
    ⟨5, 3, .s 1⟩,
    ⟨5, 4, .c 1⟩]

/-- `ForceTransforms::Type_fr_Shoulder_AA_X_fr_Shoulder_FE` (transforms.impl.h:5484-5512, 5514-5532). -/
def force_fr_Shoulder_AA_X_fr_Shoulder_FE : Gen where
  rows := 6
  cols := 6
  ctor := [⟨0, 2, .k 0 0⟩,
    ⟨0, 3, .k 0 0⟩,
    ⟨0, 4, .k 0 0⟩,
    ⟨0, 5, .k 178 3⟩,
    ⟨1, 0, .k 0 0⟩,
    ⟨1, 1, .k 0 0⟩,
    ⟨1, 2, .neg (.k 1 0)⟩,
    ⟨1, 5, .k 0 0⟩,
    ⟨2, 2, .k 0 0⟩,
    ⟨2, 3, .k 0 0⟩,
    ⟨2, 4, .k 0 0⟩,
    ⟨2, 5, .k 0 0⟩,
    ⟨3, 0, .k 0 0⟩,
    ⟨3, 1, .k 0 0⟩,
    ⟨3, 2, .k 0 0⟩,
    ⟨3, 5, .k 0 0⟩,
    ⟨4, 0, .k 0 0⟩,
    ⟨4, 1, .k 0 0⟩,
    ⟨4, 2, .k 0 0⟩,
    ⟨4, 3, .k 0 0⟩,
    ⟨4, 4, .k 0 0⟩,
    ⟨4, 5, .neg (.k 1 0)⟩,
    ⟨5, 0, .k 0 0⟩,
    ⟨5, 1, .k 0 0⟩,
    ⟨5, 2, .k 0 0⟩,
    ⟨5, 5, .k 0 0⟩]
  upd := [⟨0, 0, .c 1⟩,
    ⟨0, 1, .neg (.s 1)⟩,
    ⟨1, 3, (.k 178 3) ⊠ (.c 1)⟩,
    ⟨1, 4, (.neg (.k 178 3)) ⊠ (.s 1)⟩,
    ⟨2, 0, .s 1⟩,
    ⟨2, 1, .c 1⟩,
    ⟨3, 3, .c 1⟩,
    ⟨3, 4, .neg (.s 1)⟩,
    ⟨5, 3, .s 1⟩,
    ⟨5, 4, .c 1⟩]

/-- The transforms `fr_Shoulder_AA_X_fr_Shoulder_FE`. -/
def fr_Shoulder_AA_X_fr_Shoulder_FE : Trans := ⟨fr_Shoulder_AA, fr_Shoulder_FE, hom_fr_Shoulder_AA_X_fr_Shoulder_FE, motion_fr_Shoulder_AA_X_fr_Shoulder_FE, force_fr_Shoulder_AA_X_fr_Shoulder_FE⟩

/-- `HomogeneousTransforms::Type_fr_Humerus_R_X_fr_Shoulder_FE` (transforms.impl.h:7523-7537, 7539-7551). -/
def hom_fr_Humerus_R_X_fr_Shoulder_FE : Gen where
  rows := 4
  cols := 4
  ctor := [⟨0, 0, .k 0 0⟩,
    ⟨0, 3, .k 0 0⟩,
    ⟨1, 0, .k 0 0⟩,
    ⟨1, 3, .k 0 0⟩,
    ⟨2, 0, .k 1 0⟩,
    ⟨2, 1, .k 0 0⟩,
    ⟨2, 2, .k 0 0⟩,
    ⟨2, 3, .neg (.k 112 3)⟩,
    ⟨3, 0, .k 0 0⟩,
    ⟨3, 1, .k 0 0⟩,
    ⟨3, 2, .k 0 0⟩,
    ⟨3, 3, .k 1 0⟩]
  upd := [⟨0, 1, .s 2⟩,
    ⟨0, 2, .neg (.c 2)⟩,
    ⟨1, 1, .c 2⟩,
    ⟨1, 2, .s 2⟩]

/-- `MotionTransforms::Type_fr_Humerus_R_X_fr_Shoulder_FE` (transforms.impl.h:2685-2711, 2713-2733). -/
def motion_fr_Humerus_R_X_fr_Shoulder_FE : Gen where
  rows := 6
  cols := 6
  ctor := [⟨0, 0, .k 0 0⟩,
    ⟨0, 3, .k 0 0⟩,
    ⟨0, 4, .k 0 0⟩,
    ⟨0, 5, .k 0 0⟩,
    ⟨1, 0, .k 0 0⟩,
    ⟨1, 3, .k 0 0⟩,
    ⟨1, 4, .k 0 0⟩,
    ⟨1, 5, .k 0 0⟩,
    ⟨2, 0, .k 1 0⟩,
    ⟨2, 1, .k 0 0⟩,
    ⟨2, 2, .k 0 0⟩,
    ⟨2, 3, .k 0 0⟩,
    ⟨2, 4, .k 0 0⟩,
    ⟨2, 5, .k 0 0⟩,
    ⟨3, 0, .k 0 0⟩,
    ⟨3, 3, .k 0 0⟩,
    ⟨4, 0, .k 0 0⟩,
    ⟨4, 3, .k 0 0⟩,
    ⟨5, 0, .k 0 0⟩,
    ⟨5, 1, .k 0 0⟩,
    ⟨5, 2, .k 0 0⟩,
    ⟨5, 3, .k 1 0⟩,
    ⟨5, 4, .k 0 0⟩,
    ⟨5, 5, .k 0 0⟩]
  upd := [⟨0, 1, .s 2⟩,
    ⟨0, 2, .neg (.c 2)⟩,
    ⟨1, 1, .c 2⟩,
    ⟨1, 2, .s 2⟩,
    ⟨3, 1, (.k 112 3) ⊠ (.c 2)⟩,
    ⟨3, 2, (.k 112 3) ⊠ (.s 2)⟩,
    ⟨3, 4, .s 2⟩,
    ⟨3, 5, .neg (.c 2)⟩,
    ⟨4, 1, (.neg (.k 112 3)) ⊠ (.s 2)⟩,
    ⟨4, 2, (.k 112 3) ⊠ (.c 2)⟩,
    ⟨4, 4, .c 2⟩,
    ⟨4, 5, .s 2⟩]

/-- `ForceTransforms::Type_fr_Humerus_R_X_fr_Shoulder_FE` (transforms.impl.h:5534-5560, 5562-5582). -/
def force_fr_Humerus_R_X_fr_Shoulder_FE : Gen where
  rows := 6
  cols := 6
  ctor := [⟨0, 0, .k 0 0⟩,
    ⟨0, 3, .k 0 0⟩,
    ⟨1, 0, .k 0 0⟩,
    ⟨1, 3, .k 0 0⟩,
    ⟨2, 0, .k 1 0⟩,
    ⟨2, 1, .k 0 0⟩,
    ⟨2, 2, .k 0 0⟩,
    ⟨2, 3, .k 0 0⟩,
    ⟨2, 4, .k 0 0⟩,
    ⟨2, 5, .k 0 0⟩,
    ⟨3, 0, .k 0 0⟩,
    ⟨3, 1, .k 0 0⟩,
    ⟨3, 2, .k 0 0⟩,
    ⟨3, 3, .k 0 0⟩,
    ⟨4, 0, .k 0 0⟩,
    ⟨4, 1, .k 0 0⟩,
    ⟨4, 2, .k 0 0⟩,
    ⟨4, 3, .k 0 0⟩,
    ⟨5, 0, .k 0 0⟩,
    ⟨5, 1, .k 0 0⟩,
    ⟨5, 2, .k 0 0⟩,
    ⟨5, 3, .k 1 0⟩,
    ⟨5, 4, .k 0 0⟩,
    ⟨5, 5, .k 0 0⟩]
  upd := [⟨0, 1, .s 2⟩,
    ⟨0, 2, .neg (.c 2)⟩,
    ⟨0, 4, (.k 112 3) ⊠ (.c 2)⟩,
    ⟨0, 5, (.k 112 3) ⊠ (.s 2)⟩,
    ⟨1, 1, .c 2⟩,
    ⟨1, 2, .s 2⟩,
    ⟨1, 4, (.neg (.k 112 3)) ⊠ (.s 2)⟩,
    ⟨1, 5, (.k 112 3) ⊠ (.c 2)⟩,
    ⟨3, 4, .s 2⟩,
    ⟨3, 5, .neg (.c 2)⟩,
    ⟨4, 4, .c 2⟩,
    ⟨4, 5, .s 2⟩]

/-- The transforms `fr_Humerus_R_X_fr_Shoulder_FE`. -/
def fr_Humerus_R_X_fr_Shoulder_FE : Trans := ⟨fr_Humerus_R, fr_Shoulder_FE, hom_fr_Humerus_R_X_fr_Shoulder_FE, motion_fr_Humerus_R_X_fr_Shoulder_FE, force_fr_Humerus_R_X_fr_Shoulder_FE⟩

/-- `HomogeneousTransforms::Type_fr_Shoulder_FE_X_fr_Humerus_R` (transforms.impl.h:7553-7567, 7569-7581). -/
def hom_fr_Shoulder_FE_X_fr_Humerus_R : Gen where
  rows := 4
  cols := 4
  ctor := [⟨0, 0, .k 0 0⟩,
    ⟨0, 1, .k 0 0⟩,
    ⟨0, 2, .k 1 0⟩,
    ⟨0, 3, .k 112 3⟩,
    ⟨1, 2, .k 0 0⟩,
    ⟨1, 3, .k 0 0⟩,
    ⟨2, 2, .k 0 0⟩,
    ⟨2, 3, .k 0 0⟩,
    ⟨3, 0, .k 0 0⟩,
    ⟨3, 1, .k 0 0⟩,
    ⟨3, 2, .k 0 0⟩,
    ⟨3, 3, .k 1 0⟩]
  upd := [⟨1, 0, .s 2⟩,
    ⟨1, 1, .c 2⟩,
    ⟨2, 0, .neg (.c 2)⟩,
    ⟨2, 1, .s 2⟩]

/-- `MotionTransforms::Type_fr_Shoulder_FE_X_fr_Humerus_R` (transforms.impl.h:2735-2761, 2763-2783). -/
def motion_fr_Shoulder_FE_X_fr_Humerus_R : Gen where
  rows := 6
  cols := 6
  ctor := [⟨0, 0, .k 0 0⟩,
    ⟨0, 1, .k 0 0⟩,
    ⟨0, 2, .k 1 0⟩,
    ⟨0, 3, .k 0 0⟩,
    ⟨0, 4, .k 0 0⟩,
    ⟨0, 5, .k 0 0⟩,
    ⟨1, 2, .k 0 0⟩,
    ⟨1, 3, .k 0 0⟩,
    ⟨1, 4, .k 0 0⟩,
    ⟨1, 5, .k 0 0⟩,
    ⟨2, 2, .k 0 0⟩,
    ⟨2, 3, .k 0 0⟩,
    ⟨2, 4, .k 0 0⟩,
    ⟨2, 5, .k 0 0⟩,
    ⟨3, 0, .k 0 0⟩,
    ⟨3, 1, .k 0 0⟩,
    ⟨3, 2, .k 0 0⟩,
    ⟨3, 3, .k 0 0⟩,
    ⟨3, 4, .k 0 0⟩,
    ⟨3, 5, .k 1 0⟩,
    ⟨4, 2, .k 0 0⟩,
    ⟨4, 5, .k 0 0⟩,
    ⟨5, 2, .k 0 0⟩,
    ⟨5, 5, .k 0 0⟩]
  upd := [⟨1, 0, .s 2⟩,
    ⟨1, 1, .c 2⟩,
    ⟨2, 0, .neg (.c 2)⟩,
    ⟨2, 1, .s 2⟩,
    ⟨4, 0, (.k 112 3) ⊠ (.c 2)⟩,
    ⟨4, 1, (.neg (.k 112 3)) ⊠ (.s 2)⟩,
    ⟨4, 3, .s 2⟩,
    ⟨4, 4, .c 2⟩,
    ⟨5, 0, (.k 112 3) ⊠ (.s 2)⟩,
    ⟨5, 1, (.k 112 3) ⊠ (.c 2)⟩,
    ⟨5, 3, .neg (.c 2)⟩,
    ⟨5, 4, .s 2⟩]

/-- `ForceTransforms::Type_fr_Shoulder_FE_X_fr_Humerus_R` (transforms.impl.h:5584-5610, 5612-5632). -/
def force_fr_Shoulder_FE_X_fr_Humerus_R : Gen where
  rows := 6
  cols := 6
  ctor := [⟨0, 0, .k 0 0⟩,
    ⟨0, 1, .k 0 0⟩,
    ⟨0, 2, .k 1 0⟩,
    ⟨0, 3, .k 0 0⟩,
    ⟨0, 4, .k 0 0⟩,
    ⟨0, 5, .k 0 0⟩,
    ⟨1, 2, .k 0 0⟩,
    ⟨1, 5, .k 0 0⟩,
    ⟨2, 2, .k 0 0⟩,
    ⟨2, 5, .k 0 0⟩,
    ⟨3, 0, .k 0 0⟩,
    ⟨3, 1, .k 0 0⟩,
    ⟨3, 2, .k 0 0⟩,
    ⟨3, 3, .k 0 0⟩,
    ⟨3, 4, .k 0 0⟩,
    ⟨3, 5, .k 1 0⟩,
    ⟨4, 0, .k 0 0⟩,
    ⟨4, 1, .k 0 0⟩,
    ⟨4, 2, .k 0 0⟩,
    ⟨4, 5, .k 0 0⟩,
    ⟨5, 0, .k 0 0⟩,
    ⟨5, 1, .k 0 0⟩,
    ⟨5, 2, .k 0 0⟩,
    ⟨5, 5, .k 0 0⟩]
  upd := [⟨1, 0, .s 2⟩,
    ⟨1, 1, .c 2⟩,
    ⟨1, 3, (.k 112 3) ⊠ (.c 2)⟩,
    ⟨1, 4, (.neg (.k 112 3)) ⊠ (.s 2)⟩,
    ⟨2, 0, .neg (.c 2)⟩,
    ⟨2, 1, .s 2⟩,
    ⟨2, 3, (.k 112 3) ⊠ (.s 2)⟩,
    ⟨2, 4, (.k 112 3) ⊠ (.c 2)⟩,
    ⟨4, 3, .s 2⟩,
    ⟨4, 4, .c 2⟩,
    ⟨5, 3, .neg (.c 2)⟩,
    ⟨5, 4, .s 2⟩]

/-- The transforms `fr_Shoulder_FE_X_fr_Humerus_R`. -/
def fr_Shoulder_FE_X_fr_Humerus_R : Trans := ⟨fr_Shoulder_FE, fr_Humerus_R, hom_fr_Shoulder_FE_X_fr_Humerus_R, motion_fr_Shoulder_FE_X_fr_Humerus_R, force_fr_Shoulder_FE_X_fr_Humerus_R⟩

/-- `HomogeneousTransforms::Type_fr_Elbow_FE_X_fr_Humerus_R` (transforms.impl.h:7583-7595, 7597-7611). -/
def hom_fr_Elbow_FE_X_fr_Humerus_R : Gen where
  rows := 4
  cols := 4
  ctor := [⟨0, 0, .k 0 0⟩,
    ⟨1, 0, .k 0 0⟩,
    ⟨2, 0, .neg (.k 1 0)⟩,
    ⟨2, 1, .k 0 0⟩,
    ⟨2, 2, .k 0 0⟩,
    ⟨2, 3, .k 0 0⟩,
    ⟨3, 0, .k 0 0⟩,
    ⟨3, 1, .k 0 0⟩,
    ⟨3, 2, .k 0 0⟩,
    ⟨3, 3, .k 1 0⟩]
  upd := [⟨0, 1, .s 3⟩,
    ⟨0, 2, .c 3⟩,
    ⟨0, 3, (.neg (.k 304 3)) ⊠ (.c 3)⟩,
    ⟨1, 1, .c 3⟩,
    ⟨1, 2, .neg (.s 3)⟩,
    ⟨1, 3, (.k 304 3) ⊠ (.s 3)⟩]

/-- `MotionTransforms::Type_fr_Elbow_FE_X_fr_Humerus_R` (transforms.impl.h:2785-2813, 2815-2833). -/
def motion_fr_Elbow_FE_X_fr_Humerus_R : Gen where
  rows := 6
  cols := 6
  ctor := [⟨0, 0, .k 0 0⟩,
    ⟨0, 3, .k 0 0⟩,
    ⟨0, 4, .k 0 0⟩,
    ⟨0, 5, .k 0 0⟩,
    ⟨1, 0, .k 0 0⟩,
    ⟨1, 3, .k 0 0⟩,
    ⟨1, 4, .k 0 0⟩,
    ⟨1, 5, .k 0 0⟩,
    ⟨2, 0, .neg (.k 1 0)⟩,
    ⟨2, 1, .k 0 0⟩,
    ⟨2, 2, .k 0 0⟩,
    ⟨2, 3, .k 0 0⟩,
    ⟨2, 4, .k 0 0⟩,
    ⟨2, 5, .k 0 0⟩,
    ⟨3, 1, .k 0 0⟩,
    ⟨3, 2, .k 0 0⟩,
    ⟨3, 3, .k 0 0⟩,
    ⟨4, 1, .k 0 0⟩,
    ⟨4, 2, .k 0 0⟩,
    ⟨4, 3, .k 0 0⟩,
    ⟨5, 0, .k 0 0⟩,
    ⟨5, 1, .neg (.k 304 3)⟩,
    ⟨5, 2, .k 0 0⟩,
    ⟨5, 3, .neg (.k 1 0)⟩,
    ⟨5, 4, .k 0 0⟩,
    ⟨5, 5, .k 0 0⟩]
  upd := [⟨0, 1, .s 3⟩,
    ⟨0, 2, .c 3⟩,
    ⟨1, 1, .c 3⟩,
    ⟨1, 2, .neg (.s 3)⟩,
    ⟨3, 0, (.neg (.k 304 3)) ⊠ (.s 3)⟩,
    ⟨3, 4, .s 3⟩,
    ⟨3, 5, .c 3⟩,
    ⟨4, 0, (.neg (.k 304 3)) ⊠ (.c 3)⟩,
    ⟨4, 4, .c 3⟩,
    ⟨4, 5, .neg (.s 3)⟩]

/-- `ForceTransforms::Type_fr_Elbow_FE_X_fr_Humerus_R` (transforms.impl.h:5634-5662, 5664-5682). -/
def force_fr_Elbow_FE_X_fr_Humerus_R : Gen where
  rows := 6
  cols := 6
  ctor := [⟨0, 0, .k 0 0⟩,
    ⟨0, 4, .k 0 0⟩,
    ⟨0, 5, .k 0 0⟩,
    ⟨1, 0, .k 0 0⟩,
    ⟨1, 4, .k 0 0⟩,
    ⟨1, 5, .k 0 0⟩,
    ⟨2, 0, .neg (.k 1 0)⟩,
    ⟨2, 1, .k 0 0⟩,
    ⟨2, 2, .k 0 0⟩,
    ⟨2, 3, .k 0 0⟩,
    ⟨2, 4, .neg (.k 304 3)⟩,
    ⟨2, 5, .k 0 0⟩,
    ⟨3, 0, .k 0 0⟩,
    ⟨3, 1, .k 0 0⟩,
    ⟨3, 2, .k 0 0⟩,
    ⟨3, 3, .k 0 0⟩,
    ⟨4, 0, .k 0 0⟩,
    ⟨4, 1, .k 0 0⟩,
    ⟨4, 2, .k 0 0⟩,
    ⟨4, 3, .k 0 0⟩,
    ⟨5, 0, .k 0 0⟩,
    ⟨5, 1, .k 0 0⟩,
    ⟨5, 2, .k 0 0⟩,
    ⟨5, 3, .neg (.k 1 0)⟩,
    ⟨5, 4, .k 0 0⟩,
    ⟨5, 5, .k 0 0⟩]
  upd := [⟨0, 1, .s 3⟩,
    ⟨0, 2, .c 3⟩,
    ⟨0, 3, (.neg (.k 304 3)) ⊠ (.s 3)⟩,
    ⟨1, 1, .c 3⟩,
    ⟨1, 2, .neg (.s 3)⟩,
    ⟨1, 3, (.neg (.k 304 3)) ⊠ (.c 3)⟩,
    ⟨3, 4, .s 3⟩,
    ⟨3, 5, .c 3⟩,
    ⟨4, 4, .c 3⟩,
    ⟨4, 5, .neg (.s 3)⟩]

/-- The transforms `fr_Elbow_FE_X_fr_Humerus_R`. -/
def fr_Elbow_FE_X_fr_Humerus_R : Trans := ⟨fr_Elbow_FE, fr_Humerus_R, hom_fr_Elbow_FE_X_fr_Humerus_R, motion_fr_Elbow_FE_X_fr_Humerus_R, force_fr_Elbow_FE_X_fr_Humerus_R⟩

/-- `HomogeneousTransforms::Type_fr_Humerus_R_X_fr_Elbow_FE` (transforms.impl.h:7613-7627, 7629-7641). -/
def hom_fr_Humerus_R_X_fr_Elbow_FE : Gen where
  rows := 4
  cols := 4
  ctor := [⟨0, 0, .k 0 0⟩,
    ⟨0, 1, .k 0 0⟩,
    ⟨0, 2, .neg (.k 1 0)⟩,
    ⟨0, 3, .k 0 0⟩,
    ⟨1, 2, .k 0 0⟩,
    ⟨1, 3, .k 0 0⟩,
    ⟨2, 2, .k 0 0⟩,
    ⟨2, 3, .k 304 3⟩,
    ⟨3, 0, .k 0 0⟩,
    ⟨3, 1, .k 0 0⟩,
    ⟨3, 2, .k 0 0⟩,
    ⟨3, 3, .k 1 0⟩]
  upd := [⟨1, 0, .s 3⟩,
    ⟨1, 1, .c 3⟩,
    ⟨2, 0, .c 3⟩,
    ⟨2, 1, .neg (.s 3)⟩]

/-- `MotionTransforms::Type_fr_Humerus_R_X_fr_Elbow_FE` (transforms.impl.h:2835-2863, 2865-2883). -/
def motion_fr_Humerus_R_X_fr_Elbow_FE : Gen where
  rows := 6
  cols := 6
  ctor := [⟨0, 0, .k 0 0⟩,
    ⟨0, 1, .k 0 0⟩,
    ⟨0, 2, .neg (.k 1 0)⟩,
    ⟨0, 3, .k 0 0⟩,
    ⟨0, 4, .k 0 0⟩,
    ⟨0, 5, .k 0 0⟩,
    ⟨1, 2, .k 0 0⟩,
    ⟨1, 3, .k 0 0⟩,
    ⟨1, 4, .k 0 0⟩,
    ⟨1, 5, .k 0 0⟩,
    ⟨2, 2, .k 0 0⟩,
    ⟨2, 3, .k 0 0⟩,
    ⟨2, 4, .k 0 0⟩,
    ⟨2, 5, .k 0 0⟩,
    ⟨3, 2, .k 0 0⟩,
    ⟨3, 3, .k 0 0⟩,
    ⟨3, 4, .k 0 0⟩,
    ⟨3, 5, .neg (.k 1 0)⟩,
    ⟨4, 0, .k 0 0⟩,
    ⟨4, 1, .k 0 0⟩,
    ⟨4, 2, .neg (.k 304 3)⟩,
    ⟨4, 5, .k 0 0⟩,
    ⟨5, 0, .k 0 0⟩,
    ⟨5, 1, .k 0 0⟩,
    ⟨5, 2, .k 0 0⟩,
    ⟨5, 5, .k 0 0⟩]
  upd := [⟨1, 0, .s 3⟩,
    ⟨1, 1, .c 3⟩,
    ⟨2, 0, .c 3⟩,
    ⟨2, 1, .neg (.s 3)⟩,
    ⟨3, 0, (.neg (.k 304 3)) ⊠ (.s 3)⟩,
    ⟨3, 1, (.neg (.k 304 3)) ⊠ (.c 3)⟩,
    ⟨4, 3, .s 3⟩,
    ⟨4, 4, .c 3⟩,
    ⟨5, 3, .c 3⟩,
    ⟨5, 4, .neg (.s 3)⟩]

/-- `ForceTransforms::Type_fr_Humerus_R_X_fr_Elbow_FE` (transforms.impl.h:5684-5712, 5714-5732). -/
def force_fr_Humerus_R_X_fr_Elbow_FE : Gen where
  rows := 6
  cols := 6
  ctor := [⟨0, 0, .k 0 0⟩,
    ⟨0, 1, .k 0 0⟩,
    ⟨0, 2, .neg (.k 1 0)⟩,
    ⟨0, 5, .k 0 0⟩,
    ⟨1, 2, .k 0 0⟩,
    ⟨1, 3, .k 0 0⟩,
    ⟨1, 4, .k 0 0⟩,
    ⟨1, 5, .neg (.k 304 3)⟩,
    ⟨2, 2, .k 0 0⟩,
    ⟨2, 3, .k 0 0⟩,
    ⟨2, 4, .k 0 0⟩,
    ⟨2, 5, .k 0 0⟩,
    ⟨3, 0, .k 0 0⟩,
    ⟨3, 1, .k 0 0⟩,
    ⟨3, 2, .k 0 0⟩,
    ⟨3, 3, .k 0 0⟩,
    ⟨3, 4, .k 0 0⟩,
    ⟨3, 5, .neg (.k 1 0)⟩,
    ⟨4, 0, .k 0 0⟩,
    ⟨4, 1, .k 0 0⟩,
    ⟨4, 2, .k 0 0⟩,
    ⟨4, 5, .k 0 0⟩,
    ⟨5, 0, .k 0 0⟩,
    ⟨5, 1, .k 0 0⟩,
    ⟨5, 2, .k 0 0⟩,
    ⟨5, 5, .k 0 0⟩]
  upd := [⟨0, 3, (.neg (.k 304 3)) ⊠ (.s 3)⟩,
    ⟨0, 4, (.neg (.k 304 3)) ⊠ (.c 3)⟩,
    ⟨1, 0, .s 3⟩,
    ⟨1, 1, .c 3⟩,
    ⟨2, 0, .c 3⟩,
    ⟨2, 1, .neg (.s 3)⟩,
    ⟨4, 3, .s 3⟩,
    ⟨4, 4, .c 3⟩,
    ⟨5, 3, .c 3⟩,
    ⟨5, 4, .neg (.s 3)⟩]

/-- The transforms `fr_Humerus_R_X_fr_Elbow_FE`. -/
def fr_Humerus_R_X_fr_Elbow_FE : Trans := ⟨fr_Humerus_R, fr_Elbow_FE, hom_fr_Humerus_R_X_fr_Elbow_FE, motion_fr_Humerus_R_X_fr_Elbow_FE, force_fr_Humerus_R_X_fr_Elbow_FE⟩

/-- `HomogeneousTransforms::Type_fr_Wrist_R_X_fr_Elbow_FE` (transforms.impl.h:7643-7657, 7659-7671). -/
def hom_fr_Wrist_R_X_fr_Elbow_FE : Gen where
  rows := 4
  cols := 4
  ctor := [⟨0, 0, .k 0 0⟩,
    ⟨0, 3, .k 0 0⟩,
    ⟨1, 0, .k 0 0⟩,
    ⟨1, 3, .k 0 0⟩,
    ⟨2, 0, .k 1 0⟩,
    ⟨2, 1, .k 0 0⟩,
    ⟨2, 2, .k 0 0⟩,
    ⟨2, 3, .neg (.k 112 3)⟩,
    ⟨3, 0, .k 0 0⟩,
    ⟨3, 1, .k 0 0⟩,
    ⟨3, 2, .k 0 0⟩,
    ⟨3, 3, .k 1 0⟩]
  upd := [⟨0, 1, .s 4⟩,
    ⟨0, 2, .neg (.c 4)⟩,
    ⟨1, 1, .c 4⟩,
    ⟨1, 2, .s 4⟩]

/-- `MotionTransforms::Type_fr_Wrist_R_X_fr_Elbow_FE` (transforms.impl.h:2885-2911, 2913-2933). -/
def motion_fr_Wrist_R_X_fr_Elbow_FE : Gen where
  rows := 6
  cols := 6
  ctor := [⟨0, 0, .k 0 0⟩,
    ⟨0, 3, .k 0 0⟩,
    ⟨0, 4, .k 0 0⟩,
    ⟨0, 5, .k 0 0⟩,
    ⟨1, 0, .k 0 0⟩,
    ⟨1, 3, .k 0 0⟩,
    ⟨1, 4, .k 0 0⟩,
    ⟨1, 5, .k 0 0⟩,
    ⟨2, 0, .k 1 0⟩,
    ⟨2, 1, .k 0 0⟩,
    ⟨2, 2, .k 0 0⟩,
    ⟨2, 3, .k 0 0⟩,
    ⟨2, 4, .k 0 0⟩,
    ⟨2, 5, .k 0 0⟩,
    ⟨3, 0, .k 0 0⟩,
    ⟨3, 3, .k 0 0⟩,
    ⟨4, 0, .k 0 0⟩,
    ⟨4, 3, .k 0 0⟩,
    ⟨5, 0, .k 0 0⟩,
    ⟨5, 1, .k 0 0⟩,
    ⟨5, 2, .k 0 0⟩,
    ⟨5, 3, .k 1 0⟩,
    ⟨5, 4, .k 0 0⟩,
    ⟨5, 5, .k 0 0⟩]
  upd := [⟨0, 1, .s 4⟩,
    ⟨0, 2, .neg (.c 4)⟩,
    ⟨1, 1, .c 4⟩,
    ⟨1, 2, .s 4⟩,
    ⟨3, 1, (.k 112 3) ⊠ (.c 4)⟩,
    ⟨3, 2, (.k 112 3) ⊠ (.s 4)⟩,
    ⟨3, 4, .s 4⟩,
    ⟨3, 5, .neg (.c 4)⟩,
    ⟨4, 1, (.neg (.k 112 3)) ⊠ (.s 4)⟩,
    ⟨4, 2, (.k 112 3) ⊠ (.c 4)⟩,
    ⟨4, 4, .c 4⟩,
    ⟨4, 5, .s 4⟩]

/-- `ForceTransforms::Type_fr_Wrist_R_X_fr_Elbow_FE` (transforms.impl.h:5734-5760, 5762-5782). -/
def force_fr_Wrist_R_X_fr_Elbow_FE : Gen where
  rows := 6
  cols := 6
  ctor := [⟨0, 0, .k 0 0⟩,
    ⟨0, 3, .k 0 0⟩,
    ⟨1, 0, .k 0 0⟩,
    ⟨1, 3, .k 0 0⟩,
    ⟨2, 0, .k 1 0⟩,
    ⟨2, 1, .k 0 0⟩,
    ⟨2, 2, .k 0 0⟩,
    ⟨2, 3, .k 0 0⟩,
    ⟨2, 4, .k 0 0⟩,
    ⟨2, 5, .k 0 0⟩,
    ⟨3, 0, .k 0 0⟩,
    ⟨3, 1, .k 0 0⟩,
    ⟨3, 2, .k 0 0⟩,
    ⟨3, 3, .k 0 0⟩,
    ⟨4, 0, .k 0 0⟩,
    ⟨4, 1, .k 0 0⟩,
    ⟨4, 2, .k 0 0⟩,
    ⟨4, 3, .k 0 0⟩,
    ⟨5, 0, .k 0 0⟩,
    ⟨5, 1, .k 0 0⟩,
    ⟨5, 2, .k 0 0⟩,
    ⟨5, 3, .k 1 0⟩,
    ⟨5, 4, .k 0 0⟩,
    ⟨5, 5, .k 0 0⟩]
  upd := [⟨0, 1, .s 4⟩,
    ⟨0, 2, .neg (.c 4)⟩,
    ⟨0, 4, (.k 112 3) ⊠ (.c 4)⟩,
    ⟨0, 5, (.k 112 3) ⊠ (.s 4)⟩,
    ⟨1, 1, .c 4⟩,
    ⟨1, 2, .s 4⟩,
    ⟨1, 4, (.neg (.k 112 3)) ⊠ (.s 4)⟩,
    ⟨1, 5, (.k 112 3) ⊠ (.c 4)⟩,
    ⟨3, 4, .s 4⟩,
    ⟨3, 5, .neg (.c 4)⟩,
    ⟨4, 4, .c 4⟩,
    ⟨4, 5, .s 4⟩]

/-- The transforms `fr_Wrist_R_X_fr_Elbow_FE`. -/
def fr_Wrist_R_X_fr_Elbow_FE : Trans := ⟨fr_Wrist_R, fr_Elbow_FE, hom_fr_Wrist_R_X_fr_Elbow_FE, motion_fr_Wrist_R_X_fr_Elbow_FE, force_fr_Wrist_R_X_fr_Elbow_FE⟩

/-- `HomogeneousTransforms::Type_fr_Elbow_FE_X_fr_Wrist_R` (transforms.impl.h:7673-7687, 7689-7701). -/
def hom_fr_Elbow_FE_X_fr_Wrist_R : Gen where
  rows := 4
  cols := 4
  ctor := [⟨0, 0, .k 0 0⟩,
    ⟨0, 1, .k 0 0⟩,
    ⟨0, 2, .k 1 0⟩,
    ⟨0, 3, .k 112 3⟩,
    ⟨1, 2, .k 0 0⟩,
    ⟨1, 3, .k 0 0⟩,
    ⟨2, 2, .k 0 0⟩,
    ⟨2, 3, .k 0 0⟩,
    ⟨3, 0, .k 0 0⟩,
    ⟨3, 1, .k 0 0⟩,
    ⟨3, 2, .k 0 0⟩,
    ⟨3, 3, .k 1 0⟩]
  upd := [⟨1, 0, .s 4⟩,
    ⟨1, 1, .c 4⟩,
    ⟨2, 0, .neg (.c 4)⟩,
    ⟨2, 1, .s 4⟩]

/-- `MotionTransforms::Type_fr_Elbow_FE_X_fr_Wrist_R` (transforms.impl.h:2935-2961, 2963-2983). -/
def motion_fr_Elbow_FE_X_fr_Wrist_R : Gen where
  rows := 6
  cols := 6
  ctor := [⟨0, 0, .k 0 0⟩,
    ⟨0, 1, .k 0 0⟩,
    ⟨0, 2, .k 1 0⟩,
    ⟨0, 3, .k 0 0⟩,
    ⟨0, 4, .k 0 0⟩,
    ⟨0, 5, .k 0 0⟩,
    ⟨1, 2, .k 0 0⟩,
    ⟨1, 3, .k 0 0⟩,
    ⟨1, 4, .k 0 0⟩,
    ⟨1, 5, .k 0 0⟩,
    ⟨2, 2, .k 0 0⟩,
    ⟨2, 3, .k 0 0⟩,
    ⟨2, 4, .k 0 0⟩,
    ⟨2, 5, .k 0 0⟩,
    ⟨3, 0, .k 0 0⟩,
    ⟨3, 1, .k 0 0⟩,
    ⟨3, 2, .k 0 0⟩,
    ⟨3, 3, .k 0 0⟩,
    ⟨3, 4, .k 0 0⟩,
    ⟨3, 5, .k 1 0⟩,
    ⟨4, 2, .k 0 0⟩,
    ⟨4, 5, .k 0 0⟩,
    ⟨5, 2, .k 0 0⟩,
    ⟨5, 5, .k 0 0⟩]
  upd := [⟨1, 0, .s 4⟩,
    ⟨1, 1, .c 4⟩,
    ⟨2, 0, .neg (.c 4)⟩,
    ⟨2, 1, .s 4⟩,
    ⟨4, 0, (.k 112 3) ⊠ (.c 4)⟩,
    ⟨4, 1, (.neg (.k 112 3)) ⊠ (.s 4)⟩,
    ⟨4, 3, .s 4⟩,
    ⟨4, 4, .c 4⟩,
    ⟨5, 0, (.k 112 3) ⊠ (.s 4)⟩,
    ⟨5, 1, (.k 112 3) ⊠ (.c 4)⟩,
    ⟨5, 3, .neg (.c 4)⟩,
    ⟨5, 4, .s 4⟩]

/-- `ForceTransforms::Type_fr_Elbow_FE_X_fr_Wrist_R` (transforms.impl.h:5784-5810, 5812-5832). -/
def force_fr_Elbow_FE_X_fr_Wrist_R : Gen where
  rows := 6
  cols := 6
  ctor := [⟨0, 0, .k 0 0⟩,
    ⟨0, 1, .k 0 0⟩,
    ⟨0, 2, .k 1 0⟩,
    ⟨0, 3, .k 0 0⟩,
    ⟨0, 4, .k 0 0⟩,
    ⟨0, 5, .k 0 0⟩,
    ⟨1, 2, .k 0 0⟩,
    ⟨1, 5, .k 0 0⟩,
    ⟨2, 2, .k 0 0⟩,
    ⟨2, 5, .k 0 0⟩,
    ⟨3, 0, .k 0 0⟩,
    ⟨3, 1, .k 0 0⟩,
    ⟨3, 2, .k 0 0⟩,
    ⟨3, 3, .k 0 0⟩,
    ⟨3, 4, .k 0 0⟩,
    ⟨3, 5, .k 1 0⟩,
    ⟨4, 0, .k 0 0⟩,
    ⟨4, 1, .k 0 0⟩,
    ⟨4, 2, .k 0 0⟩,
    ⟨4, 5, .k 0 0⟩,
    ⟨5, 0, .k 0 0⟩,
    ⟨5, 1, .k 0 0⟩,
    ⟨5, 2, .k 0 0⟩,
    ⟨5, 5, .k 0 0⟩]
  upd := [⟨1, 0, .s 4⟩,
    ⟨1, 1, .c 4⟩,
    ⟨1, 3, (.k 112 3) ⊠ (.c 4)⟩,
    ⟨1, 4, (.neg (.k 112 3)) ⊠ (.s 4)⟩,
    ⟨2, 0, .neg (.c 4)⟩,
    ⟨2, 1, .s 4⟩,
    ⟨2, 3, (.k 112 3) ⊠ (.s 4)⟩,
    ⟨2, 4, (.k 112 3) ⊠ (.c 4)⟩,
    ⟨4, 3, .s 4⟩,
    ⟨4, 4, .c 4⟩,
    ⟨5, 3, .neg (.c 4)⟩,
    ⟨5, 4, .s 4⟩]

/-- The transforms `fr_Elbow_FE_X_fr_Wrist_R`. -/
def fr_Elbow_FE_X_fr_Wrist_R : Trans := ⟨fr_Elbow_FE, fr_Wrist_R, hom_fr_Elbow_FE_X_fr_Wrist_R, motion_fr_Elbow_FE_X_fr_Wrist_R, force_fr_Elbow_FE_X_fr_Wrist_R⟩

/-- `HomogeneousTransforms::Type_fr_Wrist_FE_X_fr_Wrist_R` (transforms.impl.h:7703-7715, 7717-7731). -/
def hom_fr_Wrist_FE_X_fr_Wrist_R : Gen where
  rows := 4
  cols := 4
  ctor := [⟨0, 1, .k 0 0⟩,
    ⟨1, 1, .k 0 0⟩,
    ⟨2, 0, .k 0 0⟩,
    ⟨2, 1, .k 1 0⟩,
    ⟨2, 2, .k 0 0⟩,
    ⟨2, 3, .k 0 0⟩,
    ⟨3, 0, .k 0 0⟩,
    ⟨3, 1, .k 0 0⟩,
    ⟨3, 2, .k 0 0⟩,
    ⟨3, 3, .k 1 0⟩]
  upd := [⟨0, 0, .s 5⟩,
    ⟨0, 2, .c 5⟩,
    ⟨0, 3, ((.neg (.k 2075 5)) ⊠ (.s 5)) ⊟ ((.k 184 3) ⊠ (.c 5))⟩,
    ⟨1, 0, .c 5⟩,
    ⟨1, 2, .neg (.s 5)⟩,
    ⟨1, 3, ((.k 184 3) ⊠ (.s 5)) ⊟ ((.k 2075 5) ⊠ (.c 5))⟩]

/-- `MotionTransforms::Type_fr_Wrist_FE_X_fr_Wrist_R` (transforms.impl.h:2985-3013, 3015-3033). -/
def motion_fr_Wrist_FE_X_fr_Wrist_R : Gen where
  rows := 6
  cols := 6
  ctor := [⟨0, 1, .k 0 0⟩,
    ⟨0, 3, .k 0 0⟩,
    ⟨0, 4, .k 0 0⟩,
    ⟨0, 5, .k 0 0⟩,
    ⟨1, 1, .k 0 0⟩,
    ⟨1, 3, .k 0 0⟩,
    ⟨1, 4, .k 0 0⟩,
    ⟨1, 5, .k 0 0⟩,
    ⟨2, 0, .k 0 0⟩,
    ⟨2, 1, .k 1 0⟩,
    ⟨2, 2, .k 0 0⟩,
    ⟨2, 3, .k 0 0⟩,
    ⟨2, 4, .k 0 0⟩,
    ⟨2, 5, .k 0 0⟩,
    ⟨3, 0, .k 0 0⟩,
    ⟨3, 2, .k 0 0⟩,
    ⟨3, 4, .k 0 0⟩,
    ⟨4, 0, .k 0 0⟩,
    ⟨4, 2, .k 0 0⟩,
    ⟨4, 4, .k 0 0⟩,
    ⟨5, 0, .neg (.k 184 3)⟩,
    ⟨5, 1, .k 0 0⟩,
    ⟨5, 2, .k 2075 5⟩,
    ⟨5, 3, .k 0 0⟩,
    ⟨5, 4, .k 1 0⟩,
    ⟨5, 5, .k 0 0⟩]
  upd := [⟨0, 0, .s 5⟩,
    ⟨0, 2, .c 5⟩,
    ⟨1, 0, .c 5⟩,
    ⟨1, 2, .neg (.s 5)⟩,
    ⟨3, 1, ((.k 184 3) ⊠ (.s 5)) ⊟ ((.k 2075 5) ⊠ (.c 5))⟩,
    ⟨3, 3, .s 5⟩,
    ⟨3, 5, .c 5⟩,
    ⟨4, 1, ((.k 2075 5) ⊠ (.s 5)) ⊞ ((.k 184 3) ⊠ (.c 5))⟩,
    ⟨4, 3, .c 5⟩,
    ⟨4, 5, .neg (.s 5)⟩]

/-- `ForceTransforms::Type_fr_Wrist_FE_X_fr_Wrist_R` (transforms.impl.h:5834-5862, 5864-5882). -/
def force_fr_Wrist_FE_X_fr_Wrist_R : Gen where
  rows := 6
  cols := 6
  ctor := [⟨0, 1, .k 0 0⟩,
    ⟨0, 3, .k 0 0⟩,
    ⟨0, 5, .k 0 0⟩,
    ⟨1, 1, .k 0 0⟩,
    ⟨1, 3, .k 0 0⟩,
    ⟨1, 5, .k 0 0⟩,
    ⟨2, 0, .k 0 0⟩,
    ⟨2, 1, .k 1 0⟩,
    ⟨2, 2, .k 0 0⟩,
    ⟨2, 3, .neg (.k 184 3)⟩,
    ⟨2, 4, .k 0 0⟩,
    ⟨2, 5, .k 2075 5⟩,
    ⟨3, 0, .k 0 0⟩,
    ⟨3, 1, .k 0 0⟩,
    ⟨3, 2, .k 0 0⟩,
    ⟨3, 4, .k 0 0⟩,
    ⟨4, 0, .k 0 0⟩,
    ⟨4, 1, .k 0 0⟩,
    ⟨4, 2, .k 0 0⟩,
    ⟨4, 4, .k 0 0⟩,
    ⟨5, 0, .k 0 0⟩,
    ⟨5, 1, .k 0 0⟩,
    ⟨5, 2, .k 0 0⟩,
    ⟨5, 3, .k 0 0⟩,
    ⟨5, 4, .k 1 0⟩,
    ⟨5, 5, .k 0 0⟩]
  upd := [⟨0, 0, .s 5⟩,
    ⟨0, 2, .c 5⟩,
    ⟨0, 4, ((.k 184 3) ⊠ (.s 5)) ⊟ ((.k 2075 5) ⊠ (.c 5))⟩,
    ⟨1, 0, .c 5⟩,
    ⟨1, 2, .neg (.s 5)⟩,
    ⟨1, 4, ((.k 2075 5) ⊠ (.s 5)) ⊞ ((.k 184 3) ⊠ (.c 5))⟩,
    ⟨3, 3, .s 5⟩,
    ⟨3, 5, .c 5⟩,
    ⟨4, 3, .c 5⟩,
    ⟨4, 5, .neg (.s 5)⟩]

/-- The transforms `fr_Wrist_FE_X_fr_Wrist_R`. -/
def fr_Wrist_FE_X_fr_Wrist_R : Trans := ⟨fr_Wrist_FE, fr_Wrist_R, hom_fr_Wrist_FE_X_fr_Wrist_R, motion_fr_Wrist_FE_X_fr_Wrist_R, force_fr_Wrist_FE_X_fr_Wrist_R⟩

/-- All pairs of frames for which transforms are generated. -/
def transforms : List Trans :=
  [fr_HyABase_X_fr_Shoulder_AA,
    fr_HyABase_X_fr_Shoulder_FE,
    fr_HyABase_X_fr_Humerus_R,
    fr_HyABase_X_fr_Elbow_FE,
    fr_HyABase_X_fr_Wrist_R,
    fr_HyABase_X_fr_Wrist_FE,
    fr_HyABase_X_fr_ee,
    fr_HyABase_X_fr_Shoulder_AA_COM,
    fr_HyABase_X_fr_Shoulder_FE_COM,
    fr_HyABase_X_fr_Humerus_R_COM,
    fr_HyABase_X_fr_Elbow_FE_COM,
    fr_HyABase_X_fr_Wrist_R_COM,
    fr_HyABase_X_fr_Wrist_FE_COM,
    fr_HyABase_X_fr_Shoulder_AA_CTR,
    fr_HyABase_X_fr_Shoulder_FE_CTR,
    fr_HyABase_X_fr_Humerus_R_CTR,
    fr_HyABase_X_fr_Elbow_FE_CTR,
    fr_HyABase_X_fr_Wrist_R_CTR,
    fr_Shoulder_FE_X_fr_Wrist_FE,
    fr_Humerus_R_X_fr_Wrist_FE,
    fr_Elbow_FE_X_fr_Wrist_FE,
    fr_Wrist_R_X_fr_Wrist_FE,
    fr_Wrist_FE_X_fr_Shoulder_FE,
    fr_Shoulder_FE_X_fr_ee,
    fr_Humerus_R_X_fr_ee,
    fr_Elbow_FE_X_fr_ee,
    fr_Wrist_R_X_fr_ee,
    fr_Wrist_FE_X_fr_ee,
    fr_Shoulder_AA_X_fr_HyABase,
    fr_Shoulder_FE_X_fr_HyABase,
    fr_Humerus_R_X_fr_HyABase,
    fr_Elbow_FE_X_fr_HyABase,
    fr_Wrist_R_X_fr_HyABase,
    fr_Wrist_FE_X_fr_HyABase,
    fr_ee_X_fr_HyABase,
    fr_HyABase_X_fr_SAA,
    fr_HyABase_X_fr_SFE,
    fr_HyABase_X_fr_HR,
    fr_HyABase_X_fr_EFE,
    fr_HyABase_X_fr_WR,
    fr_HyABase_X_fr_WFE,
    fr_Shoulder_FE_X_fr_Shoulder_AA,
    fr_Shoulder_AA_X_fr_Shoulder_FE,
    fr_Humerus_R_X_fr_Shoulder_FE,
    fr_Shoulder_FE_X_fr_Humerus_R,
    fr_Elbow_FE_X_fr_Humerus_R,
    fr_Humerus_R_X_fr_Elbow_FE,
    fr_Wrist_R_X_fr_Elbow_FE,
    fr_Elbow_FE_X_fr_Wrist_R,
    fr_Wrist_FE_X_fr_Wrist_R]

/-! ### Jacobians -/

/-- `Jacobians::Type_fr_HyABase_J_fr_ee` (jacobians.impl.h:30-37, 40-99). -/
def gen_fr_HyABase_J_fr_ee : Gen where
  rows := 6
  cols := 6
  ctor := [⟨0, 0, .k 0 0⟩,
    ⟨1, 0, .k 0 0⟩,
    ⟨2, 0, .k 1 0⟩,
    ⟨2, 1, .k 0 0⟩,
    ⟨5, 0, .k 0 0⟩]
  upd := [⟨0, 1, .s 0⟩,
    ⟨0, 2, (.c 0) ⊠ (.c 1)⟩,
    ⟨0, 3, (((.s 2) ⊠ (.c 0)) ⊠ (.s 1)) ⊞ ((.c 2) ⊠ (.s 0))⟩,
    ⟨0, 4, (((((.neg (.s 3)) ⊠ (.c 2)) ⊠ (.c 0)) ⊠ (.s 1)) ⊞ (((.c 3) ⊠ (.c 0)) ⊠ (.c 1))) ⊞ (((.s 3) ⊠ (.s 2)) ⊠ (.s 0))⟩,
    ⟨0, 5, (((((.s 2) ⊠ (.c 0)) ⊠ (.s 1)) ⊞ ((.c 2) ⊠ (.s 0))) ⊠ (.s 4)) ⊞ (((((((.neg (.c 3)) ⊠ (.c 2)) ⊠ (.c 0)) ⊠ (.s 1)) ⊟ (((.s 3) ⊠ (.c 0)) ⊠ (.c 1))) ⊞ (((.c 3) ⊠ (.s 2)) ⊠ (.s 0))) ⊠ (.c 4))⟩,
    ⟨1, 1, .neg (.c 0)⟩,
    ⟨1, 2, (.s 0) ⊠ (.c 1)⟩,
    ⟨1, 3, (((.s 2) ⊠ (.s 0)) ⊠ (.s 1)) ⊟ ((.c 2) ⊠ (.c 0))⟩,
    ⟨1, 4, (((((.neg (.s 3)) ⊠ (.c 2)) ⊠ (.s 0)) ⊠ (.s 1)) ⊞ (((.c 3) ⊠ (.s 0)) ⊠ (.c 1))) ⊟ (((.s 3) ⊠ (.s 2)) ⊠ (.c 0))⟩,
    ⟨1, 5, (((((.s 2) ⊠ (.s 0)) ⊠ (.s 1)) ⊟ ((.c 2) ⊠ (.c 0))) ⊠ (.s 4)) ⊞ (((((((.neg (.c 3)) ⊠ (.c 2)) ⊠ (.s 0)) ⊠ (.s 1)) ⊟ (((.s 3) ⊠ (.s 0)) ⊠ (.c 1))) ⊟ (((.c 3) ⊠ (.s 2)) ⊠ (.c 0))) ⊠ (.c 4))⟩,
    ⟨2, 2, .s 1⟩,
    ⟨2, 3, (.neg (.s 2)) ⊠ (.c 1)⟩,
    ⟨2, 4, ((.c 3) ⊠ (.s 1)) ⊞ (((.s 3) ⊠ (.c 2)) ⊠ (.c 1))⟩,
    ⟨2, 5, (((((.c 3) ⊠ (.c 2)) ⊠ (.c 1)) ⊟ ((.s 3) ⊠ (.s 1))) ⊠ (.c 4)) ⊟ (((.s 2) ⊠ (.c 1)) ⊠ (.s 4))⟩,
    ⟨3, 0, ((((((((((((((((.k 3 2) ⊠ (.c 3)) ⊠ (.c 2)) ⊠ (.s 0)) ⊠ (.s 1)) ⊞ ((((.k 3 2) ⊠ (.s 3)) ⊠ (.s 0)) ⊠ (.c 1))) ⊞ ((((.k 3 2) ⊠ (.c 3)) ⊠ (.s 2)) ⊠ (.c 0))) ⊠ (.s 5)) ⊞ (((((.k 2075 5) ⊠ (.c 3)) ⊠ (.c 2)) ⊠ (.s 0)) ⊠ (.s 1))) ⊞ ((((.k 2075 5) ⊠ (.s 3)) ⊠ (.s 0)) ⊠ (.c 1))) ⊞ ((((.k 2075 5) ⊠ (.c 3)) ⊠ (.s 2)) ⊠ (.c 0))) ⊠ (.s 4)) ⊞ (((((((((.k 3 2) ⊠ (.s 2)) ⊠ (.s 0)) ⊠ (.s 1)) ⊟ (((.k 3 2) ⊠ (.c 2)) ⊠ (.c 0))) ⊠ (.s 5)) ⊞ ((((.k 2075 5) ⊠ (.s 2)) ⊠ (.s 0)) ⊠ (.s 1))) ⊟ (((.k 2075 5) ⊠ (.c 2)) ⊠ (.c 0))) ⊠ (.c 4))) ⊞ ((((((((.k 3 2) ⊠ (.s 3)) ⊠ (.c 2)) ⊠ (.s 0)) ⊠ (.s 1)) ⊟ ((((.k 3 2) ⊠ (.c 3)) ⊠ (.s 0)) ⊠ (.c 1))) ⊞ ((((.k 3 2) ⊠ (.s 3)) ⊠ (.s 2)) ⊠ (.c 0))) ⊠ (.c 5))) ⊞ (((((.k 296 3) ⊠ (.s 3)) ⊠ (.c 2)) ⊠ (.s 0)) ⊠ (.s 1))) ⊞ (((((.neg (.k 296 3)) ⊠ (.c 3)) ⊟ (.k 416 3)) ⊠ (.s 0)) ⊠ (.c 1))) ⊞ ((((.k 296 3) ⊠ (.s 3)) ⊠ (.s 2)) ⊠ (.c 0))⟩,
    ⟨3, 1, ((((((((((((.k 3 2) ⊠ (.s 3)) ⊠ (.c 0)) ⊠ (.s 1)) ⊟ (((((.k 3 2) ⊠ (.c 3)) ⊠ (.c 2)) ⊠ (.c 0)) ⊠ (.c 1))) ⊠ (.s 5)) ⊞ ((((.k 2075 5) ⊠ (.s 3)) ⊠ (.c 0)) ⊠ (.s 1))) ⊟ (((((.k 2075 5) ⊠ (.c 3)) ⊠ (.c 2)) ⊠ (.c 0)) ⊠ (.c 1))) ⊠ (.s 4)) ⊞ (((((((.neg (.k 3 2)) ⊠ (.s 2)) ⊠ (.c 0)) ⊠ (.c 1)) ⊠ (.s 5)) ⊟ ((((.k 2075 5) ⊠ (.s 2)) ⊠ (.c 0)) ⊠ (.c 1))) ⊠ (.c 4))) ⊞ ((((((.neg (.k 3 2)) ⊠ (.c 3)) ⊠ (.c 0)) ⊠ (.s 1)) ⊟ (((((.k 3 2) ⊠ (.s 3)) ⊠ (.c 2)) ⊠ (.c 0)) ⊠ (.c 1))) ⊠ (.c 5))) ⊞ (((((.neg (.k 296 3)) ⊠ (.c 3)) ⊟ (.k 416 3)) ⊠ (.c 0)) ⊠ (.s 1))) ⊟ (((((.k 296 3) ⊠ (.s 3)) ⊠ (.c 2)) ⊠ (.c 0)) ⊠ (.c 1))⟩,
    ⟨3, 2, (((((((((((((.k 3 2) ⊠ (.c 3)) ⊠ (.s 2)) ⊠ (.c 0)) ⊠ (.s 1)) ⊞ ((((.k 3 2) ⊠ (.c 3)) ⊠ (.c 2)) ⊠ (.s 0))) ⊠ (.s 5)) ⊞ (((((.k 2075 5) ⊠ (.c 3)) ⊠ (.s 2)) ⊠ (.c 0)) ⊠ (.s 1))) ⊞ ((((.k 2075 5) ⊠ (.c 3)) ⊠ (.c 2)) ⊠ (.s 0))) ⊠ (.s 4)) ⊞ ((((((((.k 3 2) ⊠ (.s 2)) ⊠ (.s 0)) ⊟ ((((.k 3 2) ⊠ (.c 2)) ⊠ (.c 0)) ⊠ (.s 1))) ⊠ (.s 5)) ⊟ ((((.k 2075 5) ⊠ (.c 2)) ⊠ (.c 0)) ⊠ (.s 1))) ⊞ (((.k 2075 5) ⊠ (.s 2)) ⊠ (.s 0))) ⊠ (.c 4))) ⊞ (((((((.k 3 2) ⊠ (.s 3)) ⊠ (.s 2)) ⊠ (.c 0)) ⊠ (.s 1)) ⊞ ((((.k 3 2) ⊠ (.s 3)) ⊠ (.c 2)) ⊠ (.s 0))) ⊠ (.c 5))) ⊞ (((((.k 296 3) ⊠ (.s 3)) ⊠ (.s 2)) ⊠ (.c 0)) ⊠ (.s 1))) ⊞ ((((.k 296 3) ⊠ (.s 3)) ⊠ (.c 2)) ⊠ (.s 0))⟩,
    ⟨3, 3, (((((((((((((((.k 3 2) ⊠ (.s 3)) ⊠ (.c 2)) ⊠ (.c 0)) ⊠ (.s 1)) ⊟ ((((.k 3 2) ⊠ (.c 3)) ⊠ (.c 0)) ⊠ (.c 1))) ⊟ ((((.k 3 2) ⊠ (.s 3)) ⊠ (.s 2)) ⊠ (.s 0))) ⊠ (.s 5)) ⊞ (((((.k 2075 5) ⊠ (.s 3)) ⊠ (.c 2)) ⊠ (.c 0)) ⊠ (.s 1))) ⊟ ((((.k 2075 5) ⊠ (.c 3)) ⊠ (.c 0)) ⊠ (.c 1))) ⊟ ((((.k 2075 5) ⊠ (.s 3)) ⊠ (.s 2)) ⊠ (.s 0))) ⊠ (.s 4)) ⊞ ((((((((.neg (.k 3 2)) ⊠ (.c 3)) ⊠ (.c 2)) ⊠ (.c 0)) ⊠ (.s 1)) ⊟ ((((.k 3 2) ⊠ (.s 3)) ⊠ (.c 0)) ⊠ (.c 1))) ⊞ ((((.k 3 2) ⊠ (.c 3)) ⊠ (.s 2)) ⊠ (.s 0))) ⊠ (.c 5))) ⊟ (((((.k 296 3) ⊠ (.c 3)) ⊠ (.c 2)) ⊠ (.c 0)) ⊠ (.s 1))) ⊟ ((((.k 296 3) ⊠ (.s 3)) ⊠ (.c 0)) ⊠ (.c 1))) ⊞ ((((.k 296 3) ⊠ (.c 3)) ⊠ (.s 2)) ⊠ (.s 0))⟩,
    ⟨3, 4, (((((((((.k 3 2) ⊠ (.s 2)) ⊠ (.c 0)) ⊠ (.s 1)) ⊞ (((.k 3 2) ⊠ (.c 2)) ⊠ (.s 0))) ⊠ (.s 5)) ⊞ ((((.k 2075 5) ⊠ (.s 2)) ⊠ (.c 0)) ⊠ (.s 1))) ⊞ (((.k 2075 5) ⊠ (.c 2)) ⊠ (.s 0))) ⊠ (.s 4)) ⊞ ((((((((((((.neg (.k 3 2)) ⊠ (.c 3)) ⊠ (.c 2)) ⊠ (.c 0)) ⊠ (.s 1)) ⊟ ((((.k 3 2) ⊠ (.s 3)) ⊠ (.c 0)) ⊠ (.c 1))) ⊞ ((((.k 3 2) ⊠ (.c 3)) ⊠ (.s 2)) ⊠ (.s 0))) ⊠ (.s 5)) ⊟ (((((.k 2075 5) ⊠ (.c 3)) ⊠ (.c 2)) ⊠ (.c 0)) ⊠ (.s 1))) ⊟ ((((.k 2075 5) ⊠ (.s 3)) ⊠ (.c 0)) ⊠ (.c 1))) ⊞ ((((.k 2075 5) ⊠ (.c 3)) ⊠ (.s 2)) ⊠ (.s 0))) ⊠ (.c 4))⟩,
    ⟨3, 5, ((((((((((.neg (.k 3 2)) ⊠ (.c 3)) ⊠ (.c 2)) ⊠ (.c 0)) ⊠ (.s 1)) ⊟ ((((.k 3 2) ⊠ (.s 3)) ⊠ (.c 0)) ⊠ (.c 1))) ⊞ ((((.k 3 2) ⊠ (.c 3)) ⊠ (.s 2)) ⊠ (.s 0))) ⊠ (.c 5)) ⊠ (.s 4)) ⊞ (((((((.neg (.k 3 2)) ⊠ (.s 2)) ⊠ (.c 0)) ⊠ (.s 1)) ⊟ (((.k 3 2) ⊠ (.c 2)) ⊠ (.s 0))) ⊠ (.c 5)) ⊠ (.c 4))) ⊞ ((((((((.k 3 2) ⊠ (.s 3)) ⊠ (.c 2)) ⊠ (.c 0)) ⊠ (.s 1)) ⊟ ((((.k 3 2) ⊠ (.c 3)) ⊠ (.c 0)) ⊠ (.c 1))) ⊟ ((((.k 3 2) ⊠ (.s 3)) ⊠ (.s 2)) ⊠ (.s 0))) ⊠ (.s 5))⟩,
    ⟨4, 0, ((((((((((((((((.neg (.k 3 2)) ⊠ (.c 3)) ⊠ (.c 2)) ⊠ (.c 0)) ⊠ (.s 1)) ⊟ ((((.k 3 2) ⊠ (.s 3)) ⊠ (.c 0)) ⊠ (.c 1))) ⊞ ((((.k 3 2) ⊠ (.c 3)) ⊠ (.s 2)) ⊠ (.s 0))) ⊠ (.s 5)) ⊟ (((((.k 2075 5) ⊠ (.c 3)) ⊠ (.c 2)) ⊠ (.c 0)) ⊠ (.s 1))) ⊟ ((((.k 2075 5) ⊠ (.s 3)) ⊠ (.c 0)) ⊠ (.c 1))) ⊞ ((((.k 2075 5) ⊠ (.c 3)) ⊠ (.s 2)) ⊠ (.s 0))) ⊠ (.s 4)) ⊞ (((((((((.neg (.k 3 2)) ⊠ (.s 2)) ⊠ (.c 0)) ⊠ (.s 1)) ⊟ (((.k 3 2) ⊠ (.c 2)) ⊠ (.s 0))) ⊠ (.s 5)) ⊟ ((((.k 2075 5) ⊠ (.s 2)) ⊠ (.c 0)) ⊠ (.s 1))) ⊟ (((.k 2075 5) ⊠ (.c 2)) ⊠ (.s 0))) ⊠ (.c 4))) ⊞ ((((((((.neg (.k 3 2)) ⊠ (.s 3)) ⊠ (.c 2)) ⊠ (.c 0)) ⊠ (.s 1)) ⊞ ((((.k 3 2) ⊠ (.c 3)) ⊠ (.c 0)) ⊠ (.c 1))) ⊞ ((((.k 3 2) ⊠ (.s 3)) ⊠ (.s 2)) ⊠ (.s 0))) ⊠ (.c 5))) ⊟ (((((.k 296 3) ⊠ (.s 3)) ⊠ (.c 2)) ⊠ (.c 0)) ⊠ (.s 1))) ⊞ (((((.k 296 3) ⊠ (.c 3)) ⊞ (.k 416 3)) ⊠ (.c 0)) ⊠ (.c 1))) ⊞ ((((.k 296 3) ⊠ (.s 3)) ⊠ (.s 2)) ⊠ (.s 0))⟩,
    ⟨4, 1, ((((((((((((.k 3 2) ⊠ (.s 3)) ⊠ (.s 0)) ⊠ (.s 1)) ⊟ (((((.k 3 2) ⊠ (.c 3)) ⊠ (.c 2)) ⊠ (.s 0)) ⊠ (.c 1))) ⊠ (.s 5)) ⊞ ((((.k 2075 5) ⊠ (.s 3)) ⊠ (.s 0)) ⊠ (.s 1))) ⊟ (((((.k 2075 5) ⊠ (.c 3)) ⊠ (.c 2)) ⊠ (.s 0)) ⊠ (.c 1))) ⊠ (.s 4)) ⊞ (((((((.neg (.k 3 2)) ⊠ (.s 2)) ⊠ (.s 0)) ⊠ (.c 1)) ⊠ (.s 5)) ⊟ ((((.k 2075 5) ⊠ (.s 2)) ⊠ (.s 0)) ⊠ (.c 1))) ⊠ (.c 4))) ⊞ ((((((.neg (.k 3 2)) ⊠ (.c 3)) ⊠ (.s 0)) ⊠ (.s 1)) ⊟ (((((.k 3 2) ⊠ (.s 3)) ⊠ (.c 2)) ⊠ (.s 0)) ⊠ (.c 1))) ⊠ (.c 5))) ⊞ (((((.neg (.k 296 3)) ⊠ (.c 3)) ⊟ (.k 416 3)) ⊠ (.s 0)) ⊠ (.s 1))) ⊟ (((((.k 296 3) ⊠ (.s 3)) ⊠ (.c 2)) ⊠ (.s 0)) ⊠ (.c 1))⟩,
    ⟨4, 2, (((((((((((((.k 3 2) ⊠ (.c 3)) ⊠ (.s 2)) ⊠ (.s 0)) ⊠ (.s 1)) ⊟ ((((.k 3 2) ⊠ (.c 3)) ⊠ (.c 2)) ⊠ (.c 0))) ⊠ (.s 5)) ⊞ (((((.k 2075 5) ⊠ (.c 3)) ⊠ (.s 2)) ⊠ (.s 0)) ⊠ (.s 1))) ⊟ ((((.k 2075 5) ⊠ (.c 3)) ⊠ (.c 2)) ⊠ (.c 0))) ⊠ (.s 4)) ⊞ (((((((((.neg (.k 3 2)) ⊠ (.c 2)) ⊠ (.s 0)) ⊠ (.s 1)) ⊟ (((.k 3 2) ⊠ (.s 2)) ⊠ (.c 0))) ⊠ (.s 5)) ⊟ ((((.k 2075 5) ⊠ (.c 2)) ⊠ (.s 0)) ⊠ (.s 1))) ⊟ (((.k 2075 5) ⊠ (.s 2)) ⊠ (.c 0))) ⊠ (.c 4))) ⊞ (((((((.k 3 2) ⊠ (.s 3)) ⊠ (.s 2)) ⊠ (.s 0)) ⊠ (.s 1)) ⊟ ((((.k 3 2) ⊠ (.s 3)) ⊠ (.c 2)) ⊠ (.c 0))) ⊠ (.c 5))) ⊞ (((((.k 296 3) ⊠ (.s 3)) ⊠ (.s 2)) ⊠ (.s 0)) ⊠ (.s 1))) ⊟ ((((.k 296 3) ⊠ (.s 3)) ⊠ (.c 2)) ⊠ (.c 0))⟩,
    ⟨4, 3, (((((((((((((((.k 3 2) ⊠ (.s 3)) ⊠ (.c 2)) ⊠ (.s 0)) ⊠ (.s 1)) ⊟ ((((.k 3 2) ⊠ (.c 3)) ⊠ (.s 0)) ⊠ (.c 1))) ⊞ ((((.k 3 2) ⊠ (.s 3)) ⊠ (.s 2)) ⊠ (.c 0))) ⊠ (.s 5)) ⊞ (((((.k 2075 5) ⊠ (.s 3)) ⊠ (.c 2)) ⊠ (.s 0)) ⊠ (.s 1))) ⊟ ((((.k 2075 5) ⊠ (.c 3)) ⊠ (.s 0)) ⊠ (.c 1))) ⊞ ((((.k 2075 5) ⊠ (.s 3)) ⊠ (.s 2)) ⊠ (.c 0))) ⊠ (.s 4)) ⊞ ((((((((.neg (.k 3 2)) ⊠ (.c 3)) ⊠ (.c 2)) ⊠ (.s 0)) ⊠ (.s 1)) ⊟ ((((.k 3 2) ⊠ (.s 3)) ⊠ (.s 0)) ⊠ (.c 1))) ⊟ ((((.k 3 2) ⊠ (.c 3)) ⊠ (.s 2)) ⊠ (.c 0))) ⊠ (.c 5))) ⊟ (((((.k 296 3) ⊠ (.c 3)) ⊠ (.c 2)) ⊠ (.s 0)) ⊠ (.s 1))) ⊟ ((((.k 296 3) ⊠ (.s 3)) ⊠ (.s 0)) ⊠ (.c 1))) ⊟ ((((.k 296 3) ⊠ (.c 3)) ⊠ (.s 2)) ⊠ (.c 0))⟩,
    ⟨4, 4, (((((((((.k 3 2) ⊠ (.s 2)) ⊠ (.s 0)) ⊠ (.s 1)) ⊟ (((.k 3 2) ⊠ (.c 2)) ⊠ (.c 0))) ⊠ (.s 5)) ⊞ ((((.k 2075 5) ⊠ (.s 2)) ⊠ (.s 0)) ⊠ (.s 1))) ⊟ (((.k 2075 5) ⊠ (.c 2)) ⊠ (.c 0))) ⊠ (.s 4)) ⊞ ((((((((((((.neg (.k 3 2)) ⊠ (.c 3)) ⊠ (.c 2)) ⊠ (.s 0)) ⊠ (.s 1)) ⊟ ((((.k 3 2) ⊠ (.s 3)) ⊠ (.s 0)) ⊠ (.c 1))) ⊟ ((((.k 3 2) ⊠ (.c 3)) ⊠ (.s 2)) ⊠ (.c 0))) ⊠ (.s 5)) ⊟ (((((.k 2075 5) ⊠ (.c 3)) ⊠ (.c 2)) ⊠ (.s 0)) ⊠ (.s 1))) ⊟ ((((.k 2075 5) ⊠ (.s 3)) ⊠ (.s 0)) ⊠ (.c 1))) ⊟ ((((.k 2075 5) ⊠ (.c 3)) ⊠ (.s 2)) ⊠ (.c 0))) ⊠ (.c 4))⟩,
    ⟨4, 5, ((((((((((.neg (.k 3 2)) ⊠ (.c 3)) ⊠ (.c 2)) ⊠ (.s 0)) ⊠ (.s 1)) ⊟ ((((.k 3 2) ⊠ (.s 3)) ⊠ (.s 0)) ⊠ (.c 1))) ⊟ ((((.k 3 2) ⊠ (.c 3)) ⊠ (.s 2)) ⊠ (.c 0))) ⊠ (.c 5)) ⊠ (.s 4)) ⊞ ((((((.k 3 2) ⊠ (.c 2)) ⊠ (.c 0)) ⊟ ((((.k 3 2) ⊠ (.s 2)) ⊠ (.s 0)) ⊠ (.s 1))) ⊠ (.c 5)) ⊠ (.c 4))) ⊞ ((((((((.k 3 2) ⊠ (.s 3)) ⊠ (.c 2)) ⊠ (.s 0)) ⊠ (.s 1)) ⊟ ((((.k 3 2) ⊠ (.c 3)) ⊠ (.s 0)) ⊠ (.c 1))) ⊞ ((((.k 3 2) ⊠ (.s 3)) ⊠ (.s 2)) ⊠ (.c 0))) ⊠ (.s 5))⟩,
    ⟨5, 1, ((((((((((((.neg (.k 3 2)) ⊠ (.c 3)) ⊠ (.c 2)) ⊠ (.s 1)) ⊟ (((.k 3 2) ⊠ (.s 3)) ⊠ (.c 1))) ⊠ (.s 5)) ⊟ ((((.k 2075 5) ⊠ (.c 3)) ⊠ (.c 2)) ⊠ (.s 1))) ⊟ (((.k 2075 5) ⊠ (.s 3)) ⊠ (.c 1))) ⊠ (.s 4)) ⊞ ((((((.neg (.k 3 2)) ⊠ (.s 2)) ⊠ (.s 1)) ⊠ (.s 5)) ⊟ (((.k 2075 5) ⊠ (.s 2)) ⊠ (.s 1))) ⊠ (.c 4))) ⊞ (((((.k 3 2) ⊠ (.c 3)) ⊠ (.c 1)) ⊟ ((((.k 3 2) ⊠ (.s 3)) ⊠ (.c 2)) ⊠ (.s 1))) ⊠ (.c 5))) ⊟ ((((.k 296 3) ⊠ (.s 3)) ⊠ (.c 2)) ⊠ (.s 1))) ⊞ ((((.k 296 3) ⊠ (.c 3)) ⊞ (.k 416 3)) ⊠ (.c 1))⟩,
    ⟨5, 2, (((((((((.neg (.k 3 2)) ⊠ (.c 3)) ⊠ (.s 2)) ⊠ (.c 1)) ⊠ (.s 5)) ⊟ ((((.k 2075 5) ⊠ (.c 3)) ⊠ (.s 2)) ⊠ (.c 1))) ⊠ (.s 4)) ⊞ ((((((.k 3 2) ⊠ (.c 2)) ⊠ (.c 1)) ⊠ (.s 5)) ⊞ (((.k 2075 5) ⊠ (.c 2)) ⊠ (.c 1))) ⊠ (.c 4))) ⊟ (((((.k 3 2) ⊠ (.s 3)) ⊠ (.s 2)) ⊠ (.c 1)) ⊠ (.c 5))) ⊟ ((((.k 296 3) ⊠ (.s 3)) ⊠ (.s 2)) ⊠ (.c 1))⟩,
    ⟨5, 3, ((((((((((.neg (.k 3 2)) ⊠ (.c 3)) ⊠ (.s 1)) ⊟ ((((.k 3 2) ⊠ (.s 3)) ⊠ (.c 2)) ⊠ (.c 1))) ⊠ (.s 5)) ⊟ (((.k 2075 5) ⊠ (.c 3)) ⊠ (.s 1))) ⊟ ((((.k 2075 5) ⊠ (.s 3)) ⊠ (.c 2)) ⊠ (.c 1))) ⊠ (.s 4)) ⊞ ((((((.k 3 2) ⊠ (.c 3)) ⊠ (.c 2)) ⊠ (.c 1)) ⊟ (((.k 3 2) ⊠ (.s 3)) ⊠ (.s 1))) ⊠ (.c 5))) ⊟ (((.k 296 3) ⊠ (.s 3)) ⊠ (.s 1))) ⊞ ((((.k 296 3) ⊠ (.c 3)) ⊠ (.c 2)) ⊠ (.c 1))⟩,
    ⟨5, 4, ((((((.neg (.k 3 2)) ⊠ (.s 2)) ⊠ (.c 1)) ⊠ (.s 5)) ⊟ (((.k 2075 5) ⊠ (.s 2)) ⊠ (.c 1))) ⊠ (.s 4)) ⊞ (((((((((.k 3 2) ⊠ (.c 3)) ⊠ (.c 2)) ⊠ (.c 1)) ⊟ (((.k 3 2) ⊠ (.s 3)) ⊠ (.s 1))) ⊠ (.s 5)) ⊟ (((.k 2075 5) ⊠ (.s 3)) ⊠ (.s 1))) ⊞ ((((.k 2075 5) ⊠ (.c 3)) ⊠ (.c 2)) ⊠ (.c 1))) ⊠ (.c 4))⟩,
    ⟨5, 5, ((((((((.k 3 2) ⊠ (.c 3)) ⊠ (.c 2)) ⊠ (.c 1)) ⊟ (((.k 3 2) ⊠ (.s 3)) ⊠ (.s 1))) ⊠ (.c 5)) ⊠ (.s 4)) ⊞ (((((.k 3 2) ⊠ (.s 2)) ⊠ (.c 1)) ⊠ (.c 5)) ⊠ (.c 4))) ⊞ (((((.neg (.k 3 2)) ⊠ (.c 3)) ⊠ (.s 1)) ⊟ ((((.k 3 2) ⊠ (.s 3)) ⊠ (.c 2)) ⊠ (.c 1))) ⊠ (.s 5))⟩]

/-- The Jacobian `fr_HyABase_J_fr_ee`. -/
def fr_HyABase_J_fr_ee : Jac := ⟨fr_ee, gen_fr_HyABase_J_fr_ee⟩

/-- `Jacobians::Type_fr_HyABase_J_fr_Wrist_FE_COM` (jacobians.impl.h:101-108, 111-170). -/
def gen_fr_HyABase_J_fr_Wrist_FE_COM : Gen where
  rows := 6
  cols := 6
  ctor := [⟨0, 0, .k 0 0⟩,
    ⟨1, 0, .k 0 0⟩,
    ⟨2, 0, .k 1 0⟩,
    ⟨2, 1, .k 0 0⟩,
    ⟨5, 0, .k 0 0⟩]
  upd := [⟨0, 1, .s 0⟩,
    ⟨0, 2, (.c 0) ⊠ (.c 1)⟩,
    ⟨0, 3, (((.s 2) ⊠ (.c 0)) ⊠ (.s 1)) ⊞ ((.c 2) ⊠ (.s 0))⟩,
    ⟨0, 4, (((((.neg (.s 3)) ⊠ (.c 2)) ⊠ (.c 0)) ⊠ (.s 1)) ⊞ (((.c 3) ⊠ (.c 0)) ⊠ (.c 1))) ⊞ (((.s 3) ⊠ (.s 2)) ⊠ (.s 0))⟩,
    ⟨0, 5, (((((.s 2) ⊠ (.c 0)) ⊠ (.s 1)) ⊞ ((.c 2) ⊠ (.s 0))) ⊠ (.s 4)) ⊞ (((((((.neg (.c 3)) ⊠ (.c 2)) ⊠ (.c 0)) ⊠ (.s 1)) ⊟ (((.s 3) ⊠ (.c 0)) ⊠ (.c 1))) ⊞ (((.c 3) ⊠ (.s 2)) ⊠ (.s 0))) ⊠ (.c 4))⟩,
    ⟨1, 1, .neg (.c 0)⟩,
    ⟨1, 2, (.s 0) ⊠ (.c 1)⟩,
    ⟨1, 3, (((.s 2) ⊠ (.s 0)) ⊠ (.s 1)) ⊟ ((.c 2) ⊠ (.c 0))⟩,
    ⟨1, 4, (((((.neg (.s 3)) ⊠ (.c 2)) ⊠ (.s 0)) ⊠ (.s 1)) ⊞ (((.c 3) ⊠ (.s 0)) ⊠ (.c 1))) ⊟ (((.s 3) ⊠ (.s 2)) ⊠ (.c 0))⟩,
    ⟨1, 5, (((((.s 2) ⊠ (.s 0)) ⊠ (.s 1)) ⊟ ((.c 2) ⊠ (.c 0))) ⊠ (.s 4)) ⊞ (((((((.neg (.c 3)) ⊠ (.c 2)) ⊠ (.s 0)) ⊠ (.s 1)) ⊟ (((.s 3) ⊠ (.s 0)) ⊠ (.c 1))) ⊟ (((.c 3) ⊠ (.s 2)) ⊠ (.c 0))) ⊠ (.c 4))⟩,
    ⟨2, 2, .s 1⟩,
    ⟨2, 3, (.neg (.s 2)) ⊠ (.c 1)⟩,
    ⟨2, 4, ((.c 3) ⊠ (.s 1)) ⊞ (((.s 3) ⊠ (.c 2)) ⊠ (.c 1))⟩,
    ⟨2, 5, (((((.c 3) ⊠ (.c 2)) ⊠ (.c 1)) ⊟ ((.s 3) ⊠ (.s 1))) ⊠ (.c 4)) ⊟ (((.s 2) ⊠ (.c 1)) ⊠ (.s 4))⟩,
    ⟨3, 0, ((((((((((((((((((.neg (.k 7876 5)) ⊠ (.c 3)) ⊠ (.c 2)) ⊠ (.s 0)) ⊠ (.s 1)) ⊟ ((((.k 7876 5) ⊠ (.s 3)) ⊠ (.s 0)) ⊠ (.c 1))) ⊟ ((((.k 7876 5) ⊠ (.c 3)) ⊠ (.s 2)) ⊠ (.c 0))) ⊠ (.s 5)) ⊞ ((((((((.neg (.k 1063 5)) ⊠ (.c 3)) ⊠ (.c 2)) ⊠ (.s 0)) ⊠ (.s 1)) ⊟ ((((.k 1063 5) ⊠ (.s 3)) ⊠ (.s 0)) ⊠ (.c 1))) ⊟ ((((.k 1063 5) ⊠ (.c 3)) ⊠ (.s 2)) ⊠ (.c 0))) ⊠ (.c 5))) ⊞ (((((.k 84 5) ⊠ (.s 2)) ⊞ (((.k 2075 5) ⊠ (.c 3)) ⊠ (.c 2))) ⊠ (.s 0)) ⊠ (.s 1))) ⊞ ((((.k 2075 5) ⊠ (.s 3)) ⊠ (.s 0)) ⊠ (.c 1))) ⊞ (((((.k 2075 5) ⊠ (.c 3)) ⊠ (.s 2)) ⊟ ((.k 84 5) ⊠ (.c 2))) ⊠ (.c 0))) ⊠ (.s 4)) ⊞ ((((((((((.k 7876 5) ⊠ (.c 2)) ⊠ (.c 0)) ⊟ ((((.k 7876 5) ⊠ (.s 2)) ⊠ (.s 0)) ⊠ (.s 1))) ⊠ (.s 5)) ⊞ (((((.k 1063 5) ⊠ (.c 2)) ⊠ (.c 0)) ⊟ ((((.k 1063 5) ⊠ (.s 2)) ⊠ (.s 0)) ⊠ (.s 1))) ⊠ (.c 5))) ⊞ (((((.k 2075 5) ⊠ (.s 2)) ⊟ (((.k 84 5) ⊠ (.c 3)) ⊠ (.c 2))) ⊠ (.s 0)) ⊠ (.s 1))) ⊟ ((((.k 84 5) ⊠ (.s 3)) ⊠ (.s 0)) ⊠ (.c 1))) ⊞ (((((.neg (.k 84 5)) ⊠ (.c 3)) ⊠ (.s 2)) ⊟ ((.k 2075 5) ⊠ (.c 2))) ⊠ (.c 0))) ⊠ (.c 4))) ⊞ ((((((((.k 1063 5) ⊠ (.s 3)) ⊠ (.c 2)) ⊠ (.s 0)) ⊠ (.s 1)) ⊟ ((((.k 1063 5) ⊠ (.c 3)) ⊠ (.s 0)) ⊠ (.c 1))) ⊞ ((((.k 1063 5) ⊠ (.s 3)) ⊠ (.s 2)) ⊠ (.c 0))) ⊠ (.s 5))) ⊞ ((((((((.neg (.k 7876 5)) ⊠ (.s 3)) ⊠ (.c 2)) ⊠ (.s 0)) ⊠ (.s 1)) ⊞ ((((.k 7876 5) ⊠ (.c 3)) ⊠ (.s 0)) ⊠ (.c 1))) ⊟ ((((.k 7876 5) ⊠ (.s 3)) ⊠ (.s 2)) ⊠ (.c 0))) ⊠ (.c 5))) ⊞ (((((.k 296 3) ⊠ (.s 3)) ⊠ (.c 2)) ⊠ (.s 0)) ⊠ (.s 1))) ⊞ (((((.neg (.k 296 3)) ⊠ (.c 3)) ⊟ (.k 416 3)) ⊠ (.s 0)) ⊠ (.c 1))) ⊞ ((((.k 296 3) ⊠ (.s 3)) ⊠ (.s 2)) ⊠ (.c 0))⟩,
    ⟨3, 1, (((((((((((((((.k 7876 5) ⊠ (.c 3)) ⊠ (.c 2)) ⊠ (.c 0)) ⊠ (.c 1)) ⊟ ((((.k 7876 5) ⊠ (.s 3)) ⊠ (.c 0)) ⊠ (.s 1))) ⊠ (.s 5)) ⊞ (((((((.k 1063 5) ⊠ (.c 3)) ⊠ (.c 2)) ⊠ (.c 0)) ⊠ (.c 1)) ⊟ ((((.k 1063 5) ⊠ (.s 3)) ⊠ (.c 0)) ⊠ (.s 1))) ⊠ (.c 5))) ⊞ ((((.k 2075 5) ⊠ (.s 3)) ⊠ (.c 0)) ⊠ (.s 1))) ⊞ (((((.neg (.k 84 5)) ⊠ (.s 2)) ⊟ (((.k 2075 5) ⊠ (.c 3)) ⊠ (.c 2))) ⊠ (.c 0)) ⊠ (.c 1))) ⊠ (.s 4)) ⊞ (((((((((.k 7876 5) ⊠ (.s 2)) ⊠ (.c 0)) ⊠ (.c 1)) ⊠ (.s 5)) ⊞ (((((.k 1063 5) ⊠ (.s 2)) ⊠ (.c 0)) ⊠ (.c 1)) ⊠ (.c 5))) ⊟ ((((.k 84 5) ⊠ (.s 3)) ⊠ (.c 0)) ⊠ (.s 1))) ⊞ ((((((.k 84 5) ⊠ (.c 3)) ⊠ (.c 2)) ⊟ ((.k 2075 5) ⊠ (.s 2))) ⊠ (.c 0)) ⊠ (.c 1))) ⊠ (.c 4))) ⊞ ((((((.neg (.k 1063 5)) ⊠ (.c 3)) ⊠ (.c 0)) ⊠ (.s 1)) ⊟ (((((.k 1063 5) ⊠ (.s 3)) ⊠ (.c 2)) ⊠ (.c 0)) ⊠ (.c 1))) ⊠ (.s 5))) ⊞ ((((((.k 7876 5) ⊠ (.c 3)) ⊠ (.c 0)) ⊠ (.s 1)) ⊞ (((((.k 7876 5) ⊠ (.s 3)) ⊠ (.c 2)) ⊠ (.c 0)) ⊠ (.c 1))) ⊠ (.c 5))) ⊞ (((((.neg (.k 296 3)) ⊠ (.c 3)) ⊟ (.k 416 3)) ⊠ (.c 0)) ⊠ (.s 1))) ⊟ (((((.k 296 3) ⊠ (.s 3)) ⊠ (.c 2)) ⊠ (.c 0)) ⊠ (.c 1))⟩,
    ⟨3, 2, (((((((((((((((.neg (.k 7876 5)) ⊠ (.c 3)) ⊠ (.s 2)) ⊠ (.c 0)) ⊠ (.s 1)) ⊟ ((((.k 7876 5) ⊠ (.c 3)) ⊠ (.c 2)) ⊠ (.s 0))) ⊠ (.s 5)) ⊞ (((((((.neg (.k 1063 5)) ⊠ (.c 3)) ⊠ (.s 2)) ⊠ (.c 0)) ⊠ (.s 1)) ⊟ ((((.k 1063 5) ⊠ (.c 3)) ⊠ (.c 2)) ⊠ (.s 0))) ⊠ (.c 5))) ⊞ ((((((.k 2075 5) ⊠ (.c 3)) ⊠ (.s 2)) ⊟ ((.k 84 5) ⊠ (.c 2))) ⊠ (.c 0)) ⊠ (.s 1))) ⊞ ((((.k 84 5) ⊠ (.s 2)) ⊞ (((.k 2075 5) ⊠ (.c 3)) ⊠ (.c 2))) ⊠ (.s 0))) ⊠ (.s 4)) ⊞ ((((((((((.k 7876 5) ⊠ (.c 2)) ⊠ (.c 0)) ⊠ (.s 1)) ⊟ (((.k 7876 5) ⊠ (.s 2)) ⊠ (.s 0))) ⊠ (.s 5)) ⊞ ((((((.k 1063 5) ⊠ (.c 2)) ⊠ (.c 0)) ⊠ (.s 1)) ⊟ (((.k 1063 5) ⊠ (.s 2)) ⊠ (.s 0))) ⊠ (.c 5))) ⊞ ((((((.neg (.k 84 5)) ⊠ (.c 3)) ⊠ (.s 2)) ⊟ ((.k 2075 5) ⊠ (.c 2))) ⊠ (.c 0)) ⊠ (.s 1))) ⊞ ((((.k 2075 5) ⊠ (.s 2)) ⊟ (((.k 84 5) ⊠ (.c 3)) ⊠ (.c 2))) ⊠ (.s 0))) ⊠ (.c 4))) ⊞ (((((((.k 1063 5) ⊠ (.s 3)) ⊠ (.s 2)) ⊠ (.c 0)) ⊠ (.s 1)) ⊞ ((((.k 1063 5) ⊠ (.s 3)) ⊠ (.c 2)) ⊠ (.s 0))) ⊠ (.s 5))) ⊞ (((((((.neg (.k 7876 5)) ⊠ (.s 3)) ⊠ (.s 2)) ⊠ (.c 0)) ⊠ (.s 1)) ⊟ ((((.k 7876 5) ⊠ (.s 3)) ⊠ (.c 2)) ⊠ (.s 0))) ⊠ (.c 5))) ⊞ (((((.k 296 3) ⊠ (.s 3)) ⊠ (.s 2)) ⊠ (.c 0)) ⊠ (.s 1))) ⊞ ((((.k 296 3) ⊠ (.s 3)) ⊠ (.c 2)) ⊠ (.s 0))⟩,
    ⟨3, 3, ((((((((((((((((((.neg (.k 7876 5)) ⊠ (.s 3)) ⊠ (.c 2)) ⊠ (.c 0)) ⊠ (.s 1)) ⊞ ((((.k 7876 5) ⊠ (.c 3)) ⊠ (.c 0)) ⊠ (.c 1))) ⊞ ((((.k 7876 5) ⊠ (.s 3)) ⊠ (.s 2)) ⊠ (.s 0))) ⊠ (.s 5)) ⊞ ((((((((.neg (.k 1063 5)) ⊠ (.s 3)) ⊠ (.c 2)) ⊠ (.c 0)) ⊠ (.s 1)) ⊞ ((((.k 1063 5) ⊠ (.c 3)) ⊠ (.c 0)) ⊠ (.c 1))) ⊞ ((((.k 1063 5) ⊠ (.s 3)) ⊠ (.s 2)) ⊠ (.s 0))) ⊠ (.c 5))) ⊞ (((((.k 2075 5) ⊠ (.s 3)) ⊠ (.c 2)) ⊠ (.c 0)) ⊠ (.s 1))) ⊟ ((((.k 2075 5) ⊠ (.c 3)) ⊠ (.c 0)) ⊠ (.c 1))) ⊟ ((((.k 2075 5) ⊠ (.s 3)) ⊠ (.s 2)) ⊠ (.s 0))) ⊠ (.s 4)) ⊞ ((((((((.neg (.k 84 5)) ⊠ (.s 3)) ⊠ (.c 2)) ⊠ (.c 0)) ⊠ (.s 1)) ⊞ ((((.k 84 5) ⊠ (.c 3)) ⊠ (.c 0)) ⊠ (.c 1))) ⊞ ((((.k 84 5) ⊠ (.s 3)) ⊠ (.s 2)) ⊠ (.s 0))) ⊠ (.c 4))) ⊞ ((((((((.neg (.k 1063 5)) ⊠ (.c 3)) ⊠ (.c 2)) ⊠ (.c 0)) ⊠ (.s 1)) ⊟ ((((.k 1063 5) ⊠ (.s 3)) ⊠ (.c 0)) ⊠ (.c 1))) ⊞ ((((.k 1063 5) ⊠ (.c 3)) ⊠ (.s 2)) ⊠ (.s 0))) ⊠ (.s 5))) ⊞ ((((((((.k 7876 5) ⊠ (.c 3)) ⊠ (.c 2)) ⊠ (.c 0)) ⊠ (.s 1)) ⊞ ((((.k 7876 5) ⊠ (.s 3)) ⊠ (.c 0)) ⊠ (.c 1))) ⊟ ((((.k 7876 5) ⊠ (.c 3)) ⊠ (.s 2)) ⊠ (.s 0))) ⊠ (.c 5))) ⊟ (((((.k 296 3) ⊠ (.c 3)) ⊠ (.c 2)) ⊠ (.c 0)) ⊠ (.s 1))) ⊟ ((((.k 296 3) ⊠ (.s 3)) ⊠ (.c 0)) ⊠ (.c 1))) ⊞ ((((.k 296 3) ⊠ (.c 3)) ⊠ (.s 2)) ⊠ (.s 0))⟩,
    ⟨3, 4, (((((((((((.neg (.k 7876 5)) ⊠ (.s 2)) ⊠ (.c 0)) ⊠ (.s 1)) ⊟ (((.k 7876 5) ⊠ (.c 2)) ⊠ (.s 0))) ⊠ (.s 5)) ⊞ ((((((.neg (.k 1063 5)) ⊠ (.s 2)) ⊠ (.c 0)) ⊠ (.s 1)) ⊟ (((.k 1063 5) ⊠ (.c 2)) ⊠ (.s 0))) ⊠ (.c 5))) ⊞ (((((.k 2075 5) ⊠ (.s 2)) ⊟ (((.k 84 5) ⊠ (.c 3)) ⊠ (.c 2))) ⊠ (.c 0)) ⊠ (.s 1))) ⊟ ((((.k 84 5) ⊠ (.s 3)) ⊠ (.c 0)) ⊠ (.c 1))) ⊞ (((((.k 84 5) ⊠ (.c 3)) ⊠ (.s 2)) ⊞ ((.k 2075 5) ⊠ (.c 2))) ⊠ (.s 0))) ⊠ (.s 4)) ⊞ (((((((((((((.k 7876 5) ⊠ (.c 3)) ⊠ (.c 2)) ⊠ (.c 0)) ⊠ (.s 1)) ⊞ ((((.k 7876 5) ⊠ (.s 3)) ⊠ (.c 0)) ⊠ (.c 1))) ⊟ ((((.k 7876 5) ⊠ (.c 3)) ⊠ (.s 2)) ⊠ (.s 0))) ⊠ (.s 5)) ⊞ ((((((((.k 1063 5) ⊠ (.c 3)) ⊠ (.c 2)) ⊠ (.c 0)) ⊠ (.s 1)) ⊞ ((((.k 1063 5) ⊠ (.s 3)) ⊠ (.c 0)) ⊠ (.c 1))) ⊟ ((((.k 1063 5) ⊠ (.c 3)) ⊠ (.s 2)) ⊠ (.s 0))) ⊠ (.c 5))) ⊞ (((((.neg (.k 84 5)) ⊠ (.s 2)) ⊟ (((.k 2075 5) ⊠ (.c 3)) ⊠ (.c 2))) ⊠ (.c 0)) ⊠ (.s 1))) ⊟ ((((.k 2075 5) ⊠ (.s 3)) ⊠ (.c 0)) ⊠ (.c 1))) ⊞ (((((.k 2075 5) ⊠ (.c 3)) ⊠ (.s 2)) ⊟ ((.k 84 5) ⊠ (.c 2))) ⊠ (.s 0))) ⊠ (.c 4))⟩,
    ⟨3, 5, ((((((((((((.neg (.k 1063 5)) ⊠ (.c 3)) ⊠ (.c 2)) ⊠ (.c 0)) ⊠ (.s 1)) ⊟ ((((.k 1063 5) ⊠ (.s 3)) ⊠ (.c 0)) ⊠ (.c 1))) ⊞ ((((.k 1063 5) ⊠ (.c 3)) ⊠ (.s 2)) ⊠ (.s 0))) ⊠ (.s 5)) ⊞ ((((((((.k 7876 5) ⊠ (.c 3)) ⊠ (.c 2)) ⊠ (.c 0)) ⊠ (.s 1)) ⊞ ((((.k 7876 5) ⊠ (.s 3)) ⊠ (.c 0)) ⊠ (.c 1))) ⊟ ((((.k 7876 5) ⊠ (.c 3)) ⊠ (.s 2)) ⊠ (.s 0))) ⊠ (.c 5))) ⊠ (.s 4)) ⊞ ((((((((.neg (.k 1063 5)) ⊠ (.s 2)) ⊠ (.c 0)) ⊠ (.s 1)) ⊟ (((.k 1063 5) ⊠ (.c 2)) ⊠ (.s 0))) ⊠ (.s 5)) ⊞ ((((((.k 7876 5) ⊠ (.s 2)) ⊠ (.c 0)) ⊠ (.s 1)) ⊞ (((.k 7876 5) ⊠ (.c 2)) ⊠ (.s 0))) ⊠ (.c 5))) ⊠ (.c 4))) ⊞ ((((((((.neg (.k 7876 5)) ⊠ (.s 3)) ⊠ (.c 2)) ⊠ (.c 0)) ⊠ (.s 1)) ⊞ ((((.k 7876 5) ⊠ (.c 3)) ⊠ (.c 0)) ⊠ (.c 1))) ⊞ ((((.k 7876 5) ⊠ (.s 3)) ⊠ (.s 2)) ⊠ (.s 0))) ⊠ (.s 5))) ⊞ ((((((((.neg (.k 1063 5)) ⊠ (.s 3)) ⊠ (.c 2)) ⊠ (.c 0)) ⊠ (.s 1)) ⊞ ((((.k 1063 5) ⊠ (.c 3)) ⊠ (.c 0)) ⊠ (.c 1))) ⊞ ((((.k 1063 5) ⊠ (.s 3)) ⊠ (.s 2)) ⊠ (.s 0))) ⊠ (.c 5))⟩,
    ⟨4, 0, ((((((((((((((((((.k 7876 5) ⊠ (.c 3)) ⊠ (.c 2)) ⊠ (.c 0)) ⊠ (.s 1)) ⊞ ((((.k 7876 5) ⊠ (.s 3)) ⊠ (.c 0)) ⊠ (.c 1))) ⊟ ((((.k 7876 5) ⊠ (.c 3)) ⊠ (.s 2)) ⊠ (.s 0))) ⊠ (.s 5)) ⊞ ((((((((.k 1063 5) ⊠ (.c 3)) ⊠ (.c 2)) ⊠ (.c 0)) ⊠ (.s 1)) ⊞ ((((.k 1063 5) ⊠ (.s 3)) ⊠ (.c 0)) ⊠ (.c 1))) ⊟ ((((.k 1063 5) ⊠ (.c 3)) ⊠ (.s 2)) ⊠ (.s 0))) ⊠ (.c 5))) ⊞ (((((.neg (.k 84 5)) ⊠ (.s 2)) ⊟ (((.k 2075 5) ⊠ (.c 3)) ⊠ (.c 2))) ⊠ (.c 0)) ⊠ (.s 1))) ⊟ ((((.k 2075 5) ⊠ (.s 3)) ⊠ (.c 0)) ⊠ (.c 1))) ⊞ (((((.k 2075 5) ⊠ (.c 3)) ⊠ (.s 2)) ⊟ ((.k 84 5) ⊠ (.c 2))) ⊠ (.s 0))) ⊠ (.s 4)) ⊞ (((((((((((.k 7876 5) ⊠ (.s 2)) ⊠ (.c 0)) ⊠ (.s 1)) ⊞ (((.k 7876 5) ⊠ (.c 2)) ⊠ (.s 0))) ⊠ (.s 5)) ⊞ ((((((.k 1063 5) ⊠ (.s 2)) ⊠ (.c 0)) ⊠ (.s 1)) ⊞ (((.k 1063 5) ⊠ (.c 2)) ⊠ (.s 0))) ⊠ (.c 5))) ⊞ ((((((.k 84 5) ⊠ (.c 3)) ⊠ (.c 2)) ⊟ ((.k 2075 5) ⊠ (.s 2))) ⊠ (.c 0)) ⊠ (.s 1))) ⊞ ((((.k 84 5) ⊠ (.s 3)) ⊠ (.c 0)) ⊠ (.c 1))) ⊞ (((((.neg (.k 84 5)) ⊠ (.c 3)) ⊠ (.s 2)) ⊟ ((.k 2075 5) ⊠ (.c 2))) ⊠ (.s 0))) ⊠ (.c 4))) ⊞ ((((((((.neg (.k 1063 5)) ⊠ (.s 3)) ⊠ (.c 2)) ⊠ (.c 0)) ⊠ (.s 1)) ⊞ ((((.k 1063 5) ⊠ (.c 3)) ⊠ (.c 0)) ⊠ (.c 1))) ⊞ ((((.k 1063 5) ⊠ (.s 3)) ⊠ (.s 2)) ⊠ (.s 0))) ⊠ (.s 5))) ⊞ ((((((((.k 7876 5) ⊠ (.s 3)) ⊠ (.c 2)) ⊠ (.c 0)) ⊠ (.s 1)) ⊟ ((((.k 7876 5) ⊠ (.c 3)) ⊠ (.c 0)) ⊠ (.c 1))) ⊟ ((((.k 7876 5) ⊠ (.s 3)) ⊠ (.s 2)) ⊠ (.s 0))) ⊠ (.c 5))) ⊟ (((((.k 296 3) ⊠ (.s 3)) ⊠ (.c 2)) ⊠ (.c 0)) ⊠ (.s 1))) ⊞ (((((.k 296 3) ⊠ (.c 3)) ⊞ (.k 416 3)) ⊠ (.c 0)) ⊠ (.c 1))) ⊞ ((((.k 296 3) ⊠ (.s 3)) ⊠ (.s 2)) ⊠ (.s 0))⟩,
    ⟨4, 1, (((((((((((((((.k 7876 5) ⊠ (.c 3)) ⊠ (.c 2)) ⊠ (.s 0)) ⊠ (.c 1)) ⊟ ((((.k 7876 5) ⊠ (.s 3)) ⊠ (.s 0)) ⊠ (.s 1))) ⊠ (.s 5)) ⊞ (((((((.k 1063 5) ⊠ (.c 3)) ⊠ (.c 2)) ⊠ (.s 0)) ⊠ (.c 1)) ⊟ ((((.k 1063 5) ⊠ (.s 3)) ⊠ (.s 0)) ⊠ (.s 1))) ⊠ (.c 5))) ⊞ ((((.k 2075 5) ⊠ (.s 3)) ⊠ (.s 0)) ⊠ (.s 1))) ⊞ (((((.neg (.k 84 5)) ⊠ (.s 2)) ⊟ (((.k 2075 5) ⊠ (.c 3)) ⊠ (.c 2))) ⊠ (.s 0)) ⊠ (.c 1))) ⊠ (.s 4)) ⊞ (((((((((.k 7876 5) ⊠ (.s 2)) ⊠ (.s 0)) ⊠ (.c 1)) ⊠ (.s 5)) ⊞ (((((.k 1063 5) ⊠ (.s 2)) ⊠ (.s 0)) ⊠ (.c 1)) ⊠ (.c 5))) ⊟ ((((.k 84 5) ⊠ (.s 3)) ⊠ (.s 0)) ⊠ (.s 1))) ⊞ ((((((.k 84 5) ⊠ (.c 3)) ⊠ (.c 2)) ⊟ ((.k 2075 5) ⊠ (.s 2))) ⊠ (.s 0)) ⊠ (.c 1))) ⊠ (.c 4))) ⊞ ((((((.neg (.k 1063 5)) ⊠ (.c 3)) ⊠ (.s 0)) ⊠ (.s 1)) ⊟ (((((.k 1063 5) ⊠ (.s 3)) ⊠ (.c 2)) ⊠ (.s 0)) ⊠ (.c 1))) ⊠ (.s 5))) ⊞ ((((((.k 7876 5) ⊠ (.c 3)) ⊠ (.s 0)) ⊠ (.s 1)) ⊞ (((((.k 7876 5) ⊠ (.s 3)) ⊠ (.c 2)) ⊠ (.s 0)) ⊠ (.c 1))) ⊠ (.c 5))) ⊞ (((((.neg (.k 296 3)) ⊠ (.c 3)) ⊟ (.k 416 3)) ⊠ (.s 0)) ⊠ (.s 1))) ⊟ (((((.k 296 3) ⊠ (.s 3)) ⊠ (.c 2)) ⊠ (.s 0)) ⊠ (.c 1))⟩,
    ⟨4, 2, ((((((((((((((.k 7876 5) ⊠ (.c 3)) ⊠ (.c 2)) ⊠ (.c 0)) ⊟ (((((.k 7876 5) ⊠ (.c 3)) ⊠ (.s 2)) ⊠ (.s 0)) ⊠ (.s 1))) ⊠ (.s 5)) ⊞ ((((((.k 1063 5) ⊠ (.c 3)) ⊠ (.c 2)) ⊠ (.c 0)) ⊟ (((((.k 1063 5) ⊠ (.c 3)) ⊠ (.s 2)) ⊠ (.s 0)) ⊠ (.s 1))) ⊠ (.c 5))) ⊞ ((((((.k 2075 5) ⊠ (.c 3)) ⊠ (.s 2)) ⊟ ((.k 84 5) ⊠ (.c 2))) ⊠ (.s 0)) ⊠ (.s 1))) ⊞ ((((.neg (.k 84 5)) ⊠ (.s 2)) ⊟ (((.k 2075 5) ⊠ (.c 3)) ⊠ (.c 2))) ⊠ (.c 0))) ⊠ (.s 4)) ⊞ ((((((((((.k 7876 5) ⊠ (.c 2)) ⊠ (.s 0)) ⊠ (.s 1)) ⊞ (((.k 7876 5) ⊠ (.s 2)) ⊠ (.c 0))) ⊠ (.s 5)) ⊞ ((((((.k 1063 5) ⊠ (.c 2)) ⊠ (.s 0)) ⊠ (.s 1)) ⊞ (((.k 1063 5) ⊠ (.s 2)) ⊠ (.c 0))) ⊠ (.c 5))) ⊞ ((((((.neg (.k 84 5)) ⊠ (.c 3)) ⊠ (.s 2)) ⊟ ((.k 2075 5) ⊠ (.c 2))) ⊠ (.s 0)) ⊠ (.s 1))) ⊞ (((((.k 84 5) ⊠ (.c 3)) ⊠ (.c 2)) ⊟ ((.k 2075 5) ⊠ (.s 2))) ⊠ (.c 0))) ⊠ (.c 4))) ⊞ (((((((.k 1063 5) ⊠ (.s 3)) ⊠ (.s 2)) ⊠ (.s 0)) ⊠ (.s 1)) ⊟ ((((.k 1063 5) ⊠ (.s 3)) ⊠ (.c 2)) ⊠ (.c 0))) ⊠ (.s 5))) ⊞ ((((((.k 7876 5) ⊠ (.s 3)) ⊠ (.c 2)) ⊠ (.c 0)) ⊟ (((((.k 7876 5) ⊠ (.s 3)) ⊠ (.s 2)) ⊠ (.s 0)) ⊠ (.s 1))) ⊠ (.c 5))) ⊞ (((((.k 296 3) ⊠ (.s 3)) ⊠ (.s 2)) ⊠ (.s 0)) ⊠ (.s 1))) ⊟ ((((.k 296 3) ⊠ (.s 3)) ⊠ (.c 2)) ⊠ (.c 0))⟩,
    ⟨4, 3, ((((((((((((((((((.neg (.k 7876 5)) ⊠ (.s 3)) ⊠ (.c 2)) ⊠ (.s 0)) ⊠ (.s 1)) ⊞ ((((.k 7876 5) ⊠ (.c 3)) ⊠ (.s 0)) ⊠ (.c 1))) ⊟ ((((.k 7876 5) ⊠ (.s 3)) ⊠ (.s 2)) ⊠ (.c 0))) ⊠ (.s 5)) ⊞ ((((((((.neg (.k 1063 5)) ⊠ (.s 3)) ⊠ (.c 2)) ⊠ (.s 0)) ⊠ (.s 1)) ⊞ ((((.k 1063 5) ⊠ (.c 3)) ⊠ (.s 0)) ⊠ (.c 1))) ⊟ ((((.k 1063 5) ⊠ (.s 3)) ⊠ (.s 2)) ⊠ (.c 0))) ⊠ (.c 5))) ⊞ (((((.k 2075 5) ⊠ (.s 3)) ⊠ (.c 2)) ⊠ (.s 0)) ⊠ (.s 1))) ⊟ ((((.k 2075 5) ⊠ (.c 3)) ⊠ (.s 0)) ⊠ (.c 1))) ⊞ ((((.k 2075 5) ⊠ (.s 3)) ⊠ (.s 2)) ⊠ (.c 0))) ⊠ (.s 4)) ⊞ ((((((((.neg (.k 84 5)) ⊠ (.s 3)) ⊠ (.c 2)) ⊠ (.s 0)) ⊠ (.s 1)) ⊞ ((((.k 84 5) ⊠ (.c 3)) ⊠ (.s 0)) ⊠ (.c 1))) ⊟ ((((.k 84 5) ⊠ (.s 3)) ⊠ (.s 2)) ⊠ (.c 0))) ⊠ (.c 4))) ⊞ ((((((((.neg (.k 1063 5)) ⊠ (.c 3)) ⊠ (.c 2)) ⊠ (.s 0)) ⊠ (.s 1)) ⊟ ((((.k 1063 5) ⊠ (.s 3)) ⊠ (.s 0)) ⊠ (.c 1))) ⊟ ((((.k 1063 5) ⊠ (.c 3)) ⊠ (.s 2)) ⊠ (.c 0))) ⊠ (.s 5))) ⊞ ((((((((.k 7876 5) ⊠ (.c 3)) ⊠ (.c 2)) ⊠ (.s 0)) ⊠ (.s 1)) ⊞ ((((.k 7876 5) ⊠ (.s 3)) ⊠ (.s 0)) ⊠ (.c 1))) ⊞ ((((.k 7876 5) ⊠ (.c 3)) ⊠ (.s 2)) ⊠ (.c 0))) ⊠ (.c 5))) ⊟ (((((.k 296 3) ⊠ (.c 3)) ⊠ (.c 2)) ⊠ (.s 0)) ⊠ (.s 1))) ⊟ ((((.k 296 3) ⊠ (.s 3)) ⊠ (.s 0)) ⊠ (.c 1))) ⊟ ((((.k 296 3) ⊠ (.c 3)) ⊠ (.s 2)) ⊠ (.c 0))⟩,
    ⟨4, 4, ((((((((((.k 7876 5) ⊠ (.c 2)) ⊠ (.c 0)) ⊟ ((((.k 7876 5) ⊠ (.s 2)) ⊠ (.s 0)) ⊠ (.s 1))) ⊠ (.s 5)) ⊞ (((((.k 1063 5) ⊠ (.c 2)) ⊠ (.c 0)) ⊟ ((((.k 1063 5) ⊠ (.s 2)) ⊠ (.s 0)) ⊠ (.s 1))) ⊠ (.c 5))) ⊞ (((((.k 2075 5) ⊠ (.s 2)) ⊟ (((.k 84 5) ⊠ (.c 3)) ⊠ (.c 2))) ⊠ (.s 0)) ⊠ (.s 1))) ⊟ ((((.k 84 5) ⊠ (.s 3)) ⊠ (.s 0)) ⊠ (.c 1))) ⊞ (((((.neg (.k 84 5)) ⊠ (.c 3)) ⊠ (.s 2)) ⊟ ((.k 2075 5) ⊠ (.c 2))) ⊠ (.c 0))) ⊠ (.s 4)) ⊞ (((((((((((((.k 7876 5) ⊠ (.c 3)) ⊠ (.c 2)) ⊠ (.s 0)) ⊠ (.s 1)) ⊞ ((((.k 7876 5) ⊠ (.s 3)) ⊠ (.s 0)) ⊠ (.c 1))) ⊞ ((((.k 7876 5) ⊠ (.c 3)) ⊠ (.s 2)) ⊠ (.c 0))) ⊠ (.s 5)) ⊞ ((((((((.k 1063 5) ⊠ (.c 3)) ⊠ (.c 2)) ⊠ (.s 0)) ⊠ (.s 1)) ⊞ ((((.k 1063 5) ⊠ (.s 3)) ⊠ (.s 0)) ⊠ (.c 1))) ⊞ ((((.k 1063 5) ⊠ (.c 3)) ⊠ (.s 2)) ⊠ (.c 0))) ⊠ (.c 5))) ⊞ (((((.neg (.k 84 5)) ⊠ (.s 2)) ⊟ (((.k 2075 5) ⊠ (.c 3)) ⊠ (.c 2))) ⊠ (.s 0)) ⊠ (.s 1))) ⊟ ((((.k 2075 5) ⊠ (.s 3)) ⊠ (.s 0)) ⊠ (.c 1))) ⊞ ((((.k 84 5) ⊠ (.c 2)) ⊟ (((.k 2075 5) ⊠ (.c 3)) ⊠ (.s 2))) ⊠ (.c 0))) ⊠ (.c 4))⟩,
    ⟨4, 5, ((((((((((((.neg (.k 1063 5)) ⊠ (.c 3)) ⊠ (.c 2)) ⊠ (.s 0)) ⊠ (.s 1)) ⊟ ((((.k 1063 5) ⊠ (.s 3)) ⊠ (.s 0)) ⊠ (.c 1))) ⊟ ((((.k 1063 5) ⊠ (.c 3)) ⊠ (.s 2)) ⊠ (.c 0))) ⊠ (.s 5)) ⊞ ((((((((.k 7876 5) ⊠ (.c 3)) ⊠ (.c 2)) ⊠ (.s 0)) ⊠ (.s 1)) ⊞ ((((.k 7876 5) ⊠ (.s 3)) ⊠ (.s 0)) ⊠ (.c 1))) ⊞ ((((.k 7876 5) ⊠ (.c 3)) ⊠ (.s 2)) ⊠ (.c 0))) ⊠ (.c 5))) ⊠ (.s 4)) ⊞ (((((((.k 1063 5) ⊠ (.c 2)) ⊠ (.c 0)) ⊟ ((((.k 1063 5) ⊠ (.s 2)) ⊠ (.s 0)) ⊠ (.s 1))) ⊠ (.s 5)) ⊞ ((((((.k 7876 5) ⊠ (.s 2)) ⊠ (.s 0)) ⊠ (.s 1)) ⊟ (((.k 7876 5) ⊠ (.c 2)) ⊠ (.c 0))) ⊠ (.c 5))) ⊠ (.c 4))) ⊞ ((((((((.neg (.k 7876 5)) ⊠ (.s 3)) ⊠ (.c 2)) ⊠ (.s 0)) ⊠ (.s 1)) ⊞ ((((.k 7876 5) ⊠ (.c 3)) ⊠ (.s 0)) ⊠ (.c 1))) ⊟ ((((.k 7876 5) ⊠ (.s 3)) ⊠ (.s 2)) ⊠ (.c 0))) ⊠ (.s 5))) ⊞ ((((((((.neg (.k 1063 5)) ⊠ (.s 3)) ⊠ (.c 2)) ⊠ (.s 0)) ⊠ (.s 1)) ⊞ ((((.k 1063 5) ⊠ (.c 3)) ⊠ (.s 0)) ⊠ (.c 1))) ⊟ ((((.k 1063 5) ⊠ (.s 3)) ⊠ (.s 2)) ⊠ (.c 0))) ⊠ (.c 5))⟩,
    ⟨5, 1, ((((((((((((((.k 7876 5) ⊠ (.c 3)) ⊠ (.c 2)) ⊠ (.s 1)) ⊞ (((.k 7876 5) ⊠ (.s 3)) ⊠ (.c 1))) ⊠ (.s 5)) ⊞ ((((((.k 1063 5) ⊠ (.c 3)) ⊠ (.c 2)) ⊠ (.s 1)) ⊞ (((.k 1063 5) ⊠ (.s 3)) ⊠ (.c 1))) ⊠ (.c 5))) ⊞ ((((.neg (.k 84 5)) ⊠ (.s 2)) ⊟ (((.k 2075 5) ⊠ (.c 3)) ⊠ (.c 2))) ⊠ (.s 1))) ⊟ (((.k 2075 5) ⊠ (.s 3)) ⊠ (.c 1))) ⊠ (.s 4)) ⊞ ((((((((.k 7876 5) ⊠ (.s 2)) ⊠ (.s 1)) ⊠ (.s 5)) ⊞ ((((.k 1063 5) ⊠ (.s 2)) ⊠ (.s 1)) ⊠ (.c 5))) ⊞ (((((.k 84 5) ⊠ (.c 3)) ⊠ (.c 2)) ⊟ ((.k 2075 5) ⊠ (.s 2))) ⊠ (.s 1))) ⊞ (((.k 84 5) ⊠ (.s 3)) ⊠ (.c 1))) ⊠ (.c 4))) ⊞ (((((.k 1063 5) ⊠ (.c 3)) ⊠ (.c 1)) ⊟ ((((.k 1063 5) ⊠ (.s 3)) ⊠ (.c 2)) ⊠ (.s 1))) ⊠ (.s 5))) ⊞ ((((((.k 7876 5) ⊠ (.s 3)) ⊠ (.c 2)) ⊠ (.s 1)) ⊟ (((.k 7876 5) ⊠ (.c 3)) ⊠ (.c 1))) ⊠ (.c 5))) ⊟ ((((.k 296 3) ⊠ (.s 3)) ⊠ (.c 2)) ⊠ (.s 1))) ⊞ ((((.k 296 3) ⊠ (.c 3)) ⊞ (.k 416 3)) ⊠ (.c 1))⟩,
    ⟨5, 2, (((((((((((.k 7876 5) ⊠ (.c 3)) ⊠ (.s 2)) ⊠ (.c 1)) ⊠ (.s 5)) ⊞ (((((.k 1063 5) ⊠ (.c 3)) ⊠ (.s 2)) ⊠ (.c 1)) ⊠ (.c 5))) ⊞ ((((.k 84 5) ⊠ (.c 2)) ⊟ (((.k 2075 5) ⊠ (.c 3)) ⊠ (.s 2))) ⊠ (.c 1))) ⊠ (.s 4)) ⊞ (((((((.neg (.k 7876 5)) ⊠ (.c 2)) ⊠ (.c 1)) ⊠ (.s 5)) ⊟ ((((.k 1063 5) ⊠ (.c 2)) ⊠ (.c 1)) ⊠ (.c 5))) ⊞ (((((.k 84 5) ⊠ (.c 3)) ⊠ (.s 2)) ⊞ ((.k 2075 5) ⊠ (.c 2))) ⊠ (.c 1))) ⊠ (.c 4))) ⊟ (((((.k 1063 5) ⊠ (.s 3)) ⊠ (.s 2)) ⊠ (.c 1)) ⊠ (.s 5))) ⊞ (((((.k 7876 5) ⊠ (.s 3)) ⊠ (.s 2)) ⊠ (.c 1)) ⊠ (.c 5))) ⊟ ((((.k 296 3) ⊠ (.s 3)) ⊠ (.s 2)) ⊠ (.c 1))⟩,
    ⟨5, 3, (((((((((((((.k 7876 5) ⊠ (.c 3)) ⊠ (.s 1)) ⊞ ((((.k 7876 5) ⊠ (.s 3)) ⊠ (.c 2)) ⊠ (.c 1))) ⊠ (.s 5)) ⊞ (((((.k 1063 5) ⊠ (.c 3)) ⊠ (.s 1)) ⊞ ((((.k 1063 5) ⊠ (.s 3)) ⊠ (.c 2)) ⊠ (.c 1))) ⊠ (.c 5))) ⊟ (((.k 2075 5) ⊠ (.c 3)) ⊠ (.s 1))) ⊟ ((((.k 2075 5) ⊠ (.s 3)) ⊠ (.c 2)) ⊠ (.c 1))) ⊠ (.s 4)) ⊞ (((((.k 84 5) ⊠ (.c 3)) ⊠ (.s 1)) ⊞ ((((.k 84 5) ⊠ (.s 3)) ⊠ (.c 2)) ⊠ (.c 1))) ⊠ (.c 4))) ⊞ ((((((.k 1063 5) ⊠ (.c 3)) ⊠ (.c 2)) ⊠ (.c 1)) ⊟ (((.k 1063 5) ⊠ (.s 3)) ⊠ (.s 1))) ⊠ (.s 5))) ⊞ (((((.k 7876 5) ⊠ (.s 3)) ⊠ (.s 1)) ⊟ ((((.k 7876 5) ⊠ (.c 3)) ⊠ (.c 2)) ⊠ (.c 1))) ⊠ (.c 5))) ⊟ (((.k 296 3) ⊠ (.s 3)) ⊠ (.s 1))) ⊞ ((((.k 296 3) ⊠ (.c 3)) ⊠ (.c 2)) ⊠ (.c 1))⟩,
    ⟨5, 4, ((((((((.k 7876 5) ⊠ (.s 2)) ⊠ (.c 1)) ⊠ (.s 5)) ⊞ ((((.k 1063 5) ⊠ (.s 2)) ⊠ (.c 1)) ⊠ (.c 5))) ⊟ (((.k 84 5) ⊠ (.s 3)) ⊠ (.s 1))) ⊞ (((((.k 84 5) ⊠ (.c 3)) ⊠ (.c 2)) ⊟ ((.k 2075 5) ⊠ (.s 2))) ⊠ (.c 1))) ⊠ (.s 4)) ⊞ (((((((((.k 7876 5) ⊠ (.s 3)) ⊠ (.s 1)) ⊟ ((((.k 7876 5) ⊠ (.c 3)) ⊠ (.c 2)) ⊠ (.c 1))) ⊠ (.s 5)) ⊞ (((((.k 1063 5) ⊠ (.s 3)) ⊠ (.s 1)) ⊟ ((((.k 1063 5) ⊠ (.c 3)) ⊠ (.c 2)) ⊠ (.c 1))) ⊠ (.c 5))) ⊟ (((.k 2075 5) ⊠ (.s 3)) ⊠ (.s 1))) ⊞ ((((.k 84 5) ⊠ (.s 2)) ⊞ (((.k 2075 5) ⊠ (.c 3)) ⊠ (.c 2))) ⊠ (.c 1))) ⊠ (.c 4))⟩,
    ⟨5, 5, ((((((((((.k 1063 5) ⊠ (.c 3)) ⊠ (.c 2)) ⊠ (.c 1)) ⊟ (((.k 1063 5) ⊠ (.s 3)) ⊠ (.s 1))) ⊠ (.s 5)) ⊞ (((((.k 7876 5) ⊠ (.s 3)) ⊠ (.s 1)) ⊟ ((((.k 7876 5) ⊠ (.c 3)) ⊠ (.c 2)) ⊠ (.c 1))) ⊠ (.c 5))) ⊠ (.s 4)) ⊞ ((((((.k 1063 5) ⊠ (.s 2)) ⊠ (.c 1)) ⊠ (.s 5)) ⊟ ((((.k 7876 5) ⊠ (.s 2)) ⊠ (.c 1)) ⊠ (.c 5))) ⊠ (.c 4))) ⊞ (((((.k 7876 5) ⊠ (.c 3)) ⊠ (.s 1)) ⊞ ((((.k 7876 5) ⊠ (.s 3)) ⊠ (.c 2)) ⊠ (.c 1))) ⊠ (.s 5))) ⊞ (((((.k 1063 5) ⊠ (.c 3)) ⊠ (.s 1)) ⊞ ((((.k 1063 5) ⊠ (.s 3)) ⊠ (.c 2)) ⊠ (.c 1))) ⊠ (.c 5))⟩]

/-- The Jacobian `fr_HyABase_J_fr_Wrist_FE_COM`. -/
def fr_HyABase_J_fr_Wrist_FE_COM : Jac := ⟨fr_Wrist_FE_COM, gen_fr_HyABase_J_fr_Wrist_FE_COM⟩

/-- `Jacobians::Type_fr_HyABase_J_fr_Wrist_FE` (jacobians.impl.h:172-182, 185-237). -/
def gen_fr_HyABase_J_fr_Wrist_FE : Gen where
  rows := 6
  cols := 6
  ctor := [⟨0, 0, .k 0 0⟩,
    ⟨1, 0, .k 0 0⟩,
    ⟨2, 0, .k 1 0⟩,
    ⟨2, 1, .k 0 0⟩,
    ⟨3, 5, .k 0 0⟩,
    ⟨4, 5, .k 0 0⟩,
    ⟨5, 0, .k 0 0⟩,
    ⟨5, 5, .k 0 0⟩]
  upd := [⟨0, 1, .s 0⟩,
    ⟨0, 2, (.c 0) ⊠ (.c 1)⟩,
    ⟨0, 3, (((.s 2) ⊠ (.c 0)) ⊠ (.s 1)) ⊞ ((.c 2) ⊠ (.s 0))⟩,
    ⟨0, 4, (((((.neg (.s 3)) ⊠ (.c 2)) ⊠ (.c 0)) ⊠ (.s 1)) ⊞ (((.c 3) ⊠ (.c 0)) ⊠ (.c 1))) ⊞ (((.s 3) ⊠ (.s 2)) ⊠ (.s 0))⟩,
    ⟨0, 5, (((((.s 2) ⊠ (.c 0)) ⊠ (.s 1)) ⊞ ((.c 2) ⊠ (.s 0))) ⊠ (.s 4)) ⊞ (((((((.neg (.c 3)) ⊠ (.c 2)) ⊠ (.c 0)) ⊠ (.s 1)) ⊟ (((.s 3) ⊠ (.c 0)) ⊠ (.c 1))) ⊞ (((.c 3) ⊠ (.s 2)) ⊠ (.s 0))) ⊠ (.c 4))⟩,
    ⟨1, 1, .neg (.c 0)⟩,
    ⟨1, 2, (.s 0) ⊠ (.c 1)⟩,
    ⟨1, 3, (((.s 2) ⊠ (.s 0)) ⊠ (.s 1)) ⊟ ((.c 2) ⊠ (.c 0))⟩,
    ⟨1, 4, (((((.neg (.s 3)) ⊠ (.c 2)) ⊠ (.s 0)) ⊠ (.s 1)) ⊞ (((.c 3) ⊠ (.s 0)) ⊠ (.c 1))) ⊟ (((.s 3) ⊠ (.s 2)) ⊠ (.c 0))⟩,
    ⟨1, 5, (((((.s 2) ⊠ (.s 0)) ⊠ (.s 1)) ⊟ ((.c 2) ⊠ (.c 0))) ⊠ (.s 4)) ⊞ (((((((.neg (.c 3)) ⊠ (.c 2)) ⊠ (.s 0)) ⊠ (.s 1)) ⊟ (((.s 3) ⊠ (.s 0)) ⊠ (.c 1))) ⊟ (((.c 3) ⊠ (.s 2)) ⊠ (.c 0))) ⊠ (.c 4))⟩,
    ⟨2, 2, .s 1⟩,
    ⟨2, 3, (.neg (.s 2)) ⊠ (.c 1)⟩,
    ⟨2, 4, ((.c 3) ⊠ (.s 1)) ⊞ (((.s 3) ⊠ (.c 2)) ⊠ (.c 1))⟩,
    ⟨2, 5, (((((.c 3) ⊠ (.c 2)) ⊠ (.c 1)) ⊟ ((.s 3) ⊠ (.s 1))) ⊠ (.c 4)) ⊟ (((.s 2) ⊠ (.c 1)) ⊠ (.s 4))⟩,
    ⟨3, 0, (((((((((((.k 2075 5) ⊠ (.c 3)) ⊠ (.c 2)) ⊠ (.s 0)) ⊠ (.s 1)) ⊞ ((((.k 2075 5) ⊠ (.s 3)) ⊠ (.s 0)) ⊠ (.c 1))) ⊞ ((((.k 2075 5) ⊠ (.c 3)) ⊠ (.s 2)) ⊠ (.c 0))) ⊠ (.s 4)) ⊞ ((((((.k 2075 5) ⊠ (.s 2)) ⊠ (.s 0)) ⊠ (.s 1)) ⊟ (((.k 2075 5) ⊠ (.c 2)) ⊠ (.c 0))) ⊠ (.c 4))) ⊞ (((((.k 296 3) ⊠ (.s 3)) ⊠ (.c 2)) ⊠ (.s 0)) ⊠ (.s 1))) ⊞ (((((.neg (.k 296 3)) ⊠ (.c 3)) ⊟ (.k 416 3)) ⊠ (.s 0)) ⊠ (.c 1))) ⊞ ((((.k 296 3) ⊠ (.s 3)) ⊠ (.s 2)) ⊠ (.c 0))⟩,
    ⟨3, 1, ((((((((.k 2075 5) ⊠ (.s 3)) ⊠ (.c 0)) ⊠ (.s 1)) ⊟ (((((.k 2075 5) ⊠ (.c 3)) ⊠ (.c 2)) ⊠ (.c 0)) ⊠ (.c 1))) ⊠ (.s 4)) ⊟ (((((.k 2075 5) ⊠ (.s 2)) ⊠ (.c 0)) ⊠ (.c 1)) ⊠ (.c 4))) ⊞ (((((.neg (.k 296 3)) ⊠ (.c 3)) ⊟ (.k 416 3)) ⊠ (.c 0)) ⊠ (.s 1))) ⊟ (((((.k 296 3) ⊠ (.s 3)) ⊠ (.c 2)) ⊠ (.c 0)) ⊠ (.c 1))⟩,
    ⟨3, 2, (((((((((.k 2075 5) ⊠ (.c 3)) ⊠ (.s 2)) ⊠ (.c 0)) ⊠ (.s 1)) ⊞ ((((.k 2075 5) ⊠ (.c 3)) ⊠ (.c 2)) ⊠ (.s 0))) ⊠ (.s 4)) ⊞ (((((.k 2075 5) ⊠ (.s 2)) ⊠ (.s 0)) ⊟ ((((.k 2075 5) ⊠ (.c 2)) ⊠ (.c 0)) ⊠ (.s 1))) ⊠ (.c 4))) ⊞ (((((.k 296 3) ⊠ (.s 3)) ⊠ (.s 2)) ⊠ (.c 0)) ⊠ (.s 1))) ⊞ ((((.k 296 3) ⊠ (.s 3)) ⊠ (.c 2)) ⊠ (.s 0))⟩,
    ⟨3, 3, ((((((((((.k 2075 5) ⊠ (.s 3)) ⊠ (.c 2)) ⊠ (.c 0)) ⊠ (.s 1)) ⊟ ((((.k 2075 5) ⊠ (.c 3)) ⊠ (.c 0)) ⊠ (.c 1))) ⊟ ((((.k 2075 5) ⊠ (.s 3)) ⊠ (.s 2)) ⊠ (.s 0))) ⊠ (.s 4)) ⊟ (((((.k 296 3) ⊠ (.c 3)) ⊠ (.c 2)) ⊠ (.c 0)) ⊠ (.s 1))) ⊟ ((((.k 296 3) ⊠ (.s 3)) ⊠ (.c 0)) ⊠ (.c 1))) ⊞ ((((.k 296 3) ⊠ (.c 3)) ⊠ (.s 2)) ⊠ (.s 0))⟩,
    ⟨3, 4, ((((((.k 2075 5) ⊠ (.s 2)) ⊠ (.c 0)) ⊠ (.s 1)) ⊞ (((.k 2075 5) ⊠ (.c 2)) ⊠ (.s 0))) ⊠ (.s 4)) ⊞ ((((((((.neg (.k 2075 5)) ⊠ (.c 3)) ⊠ (.c 2)) ⊠ (.c 0)) ⊠ (.s 1)) ⊟ ((((.k 2075 5) ⊠ (.s 3)) ⊠ (.c 0)) ⊠ (.c 1))) ⊞ ((((.k 2075 5) ⊠ (.c 3)) ⊠ (.s 2)) ⊠ (.s 0))) ⊠ (.c 4))⟩,
    ⟨4, 0, (((((((((((.neg (.k 2075 5)) ⊠ (.c 3)) ⊠ (.c 2)) ⊠ (.c 0)) ⊠ (.s 1)) ⊟ ((((.k 2075 5) ⊠ (.s 3)) ⊠ (.c 0)) ⊠ (.c 1))) ⊞ ((((.k 2075 5) ⊠ (.c 3)) ⊠ (.s 2)) ⊠ (.s 0))) ⊠ (.s 4)) ⊞ ((((((.neg (.k 2075 5)) ⊠ (.s 2)) ⊠ (.c 0)) ⊠ (.s 1)) ⊟ (((.k 2075 5) ⊠ (.c 2)) ⊠ (.s 0))) ⊠ (.c 4))) ⊟ (((((.k 296 3) ⊠ (.s 3)) ⊠ (.c 2)) ⊠ (.c 0)) ⊠ (.s 1))) ⊞ (((((.k 296 3) ⊠ (.c 3)) ⊞ (.k 416 3)) ⊠ (.c 0)) ⊠ (.c 1))) ⊞ ((((.k 296 3) ⊠ (.s 3)) ⊠ (.s 2)) ⊠ (.s 0))⟩,
    ⟨4, 1, ((((((((.k 2075 5) ⊠ (.s 3)) ⊠ (.s 0)) ⊠ (.s 1)) ⊟ (((((.k 2075 5) ⊠ (.c 3)) ⊠ (.c 2)) ⊠ (.s 0)) ⊠ (.c 1))) ⊠ (.s 4)) ⊟ (((((.k 2075 5) ⊠ (.s 2)) ⊠ (.s 0)) ⊠ (.c 1)) ⊠ (.c 4))) ⊞ (((((.neg (.k 296 3)) ⊠ (.c 3)) ⊟ (.k 416 3)) ⊠ (.s 0)) ⊠ (.s 1))) ⊟ (((((.k 296 3) ⊠ (.s 3)) ⊠ (.c 2)) ⊠ (.s 0)) ⊠ (.c 1))⟩,
    ⟨4, 2, (((((((((.k 2075 5) ⊠ (.c 3)) ⊠ (.s 2)) ⊠ (.s 0)) ⊠ (.s 1)) ⊟ ((((.k 2075 5) ⊠ (.c 3)) ⊠ (.c 2)) ⊠ (.c 0))) ⊠ (.s 4)) ⊞ ((((((.neg (.k 2075 5)) ⊠ (.c 2)) ⊠ (.s 0)) ⊠ (.s 1)) ⊟ (((.k 2075 5) ⊠ (.s 2)) ⊠ (.c 0))) ⊠ (.c 4))) ⊞ (((((.k 296 3) ⊠ (.s 3)) ⊠ (.s 2)) ⊠ (.s 0)) ⊠ (.s 1))) ⊟ ((((.k 296 3) ⊠ (.s 3)) ⊠ (.c 2)) ⊠ (.c 0))⟩,
    ⟨4, 3, ((((((((((.k 2075 5) ⊠ (.s 3)) ⊠ (.c 2)) ⊠ (.s 0)) ⊠ (.s 1)) ⊟ ((((.k 2075 5) ⊠ (.c 3)) ⊠ (.s 0)) ⊠ (.c 1))) ⊞ ((((.k 2075 5) ⊠ (.s 3)) ⊠ (.s 2)) ⊠ (.c 0))) ⊠ (.s 4)) ⊟ (((((.k 296 3) ⊠ (.c 3)) ⊠ (.c 2)) ⊠ (.s 0)) ⊠ (.s 1))) ⊟ ((((.k 296 3) ⊠ (.s 3)) ⊠ (.s 0)) ⊠ (.c 1))) ⊟ ((((.k 296 3) ⊠ (.c 3)) ⊠ (.s 2)) ⊠ (.c 0))⟩,
    ⟨4, 4, ((((((.k 2075 5) ⊠ (.s 2)) ⊠ (.s 0)) ⊠ (.s 1)) ⊟ (((.k 2075 5) ⊠ (.c 2)) ⊠ (.c 0))) ⊠ (.s 4)) ⊞ ((((((((.neg (.k 2075 5)) ⊠ (.c 3)) ⊠ (.c 2)) ⊠ (.s 0)) ⊠ (.s 1)) ⊟ ((((.k 2075 5) ⊠ (.s 3)) ⊠ (.s 0)) ⊠ (.c 1))) ⊟ ((((.k 2075 5) ⊠ (.c 3)) ⊠ (.s 2)) ⊠ (.c 0))) ⊠ (.c 4))⟩,
    ⟨5, 1, ((((((((.neg (.k 2075 5)) ⊠ (.c 3)) ⊠ (.c 2)) ⊠ (.s 1)) ⊟ (((.k 2075 5) ⊠ (.s 3)) ⊠ (.c 1))) ⊠ (.s 4)) ⊟ ((((.k 2075 5) ⊠ (.s 2)) ⊠ (.s 1)) ⊠ (.c 4))) ⊟ ((((.k 296 3) ⊠ (.s 3)) ⊠ (.c 2)) ⊠ (.s 1))) ⊞ ((((.k 296 3) ⊠ (.c 3)) ⊞ (.k 416 3)) ⊠ (.c 1))⟩,
    ⟨5, 2, ((((((.neg (.k 2075 5)) ⊠ (.c 3)) ⊠ (.s 2)) ⊠ (.c 1)) ⊠ (.s 4)) ⊞ ((((.k 2075 5) ⊠ (.c 2)) ⊠ (.c 1)) ⊠ (.c 4))) ⊟ ((((.k 296 3) ⊠ (.s 3)) ⊠ (.s 2)) ⊠ (.c 1))⟩,
    ⟨5, 3, ((((((.neg (.k 2075 5)) ⊠ (.c 3)) ⊠ (.s 1)) ⊟ ((((.k 2075 5) ⊠ (.s 3)) ⊠ (.c 2)) ⊠ (.c 1))) ⊠ (.s 4)) ⊟ (((.k 296 3) ⊠ (.s 3)) ⊠ (.s 1))) ⊞ ((((.k 296 3) ⊠ (.c 3)) ⊠ (.c 2)) ⊠ (.c 1))⟩,
    ⟨5, 4, ((((((.k 2075 5) ⊠ (.c 3)) ⊠ (.c 2)) ⊠ (.c 1)) ⊟ (((.k 2075 5) ⊠ (.s 3)) ⊠ (.s 1))) ⊠ (.c 4)) ⊟ ((((.k 2075 5) ⊠ (.s 2)) ⊠ (.c 1)) ⊠ (.s 4))⟩]

/-- The Jacobian `fr_HyABase_J_fr_Wrist_FE`. -/
def fr_HyABase_J_fr_Wrist_FE : Jac := ⟨fr_Wrist_FE, gen_fr_HyABase_J_fr_Wrist_FE⟩

/-- `Jacobians::Type_fr_HyABase_J_fr_Wrist_R_COM` (jacobians.impl.h:239-246, 249-298). -/
def gen_fr_HyABase_J_fr_Wrist_R_COM : Gen where
  rows := 6
  cols := 5
  ctor := [⟨0, 0, .k 0 0⟩,
    ⟨1, 0, .k 0 0⟩,
    ⟨2, 0, .k 1 0⟩,
    ⟨2, 1, .k 0 0⟩,
    ⟨5, 0, .k 0 0⟩]
  upd := [⟨0, 1, .s 0⟩,
    ⟨0, 2, (.c 0) ⊠ (.c 1)⟩,
    ⟨0, 3, (((.s 2) ⊠ (.c 0)) ⊠ (.s 1)) ⊞ ((.c 2) ⊠ (.s 0))⟩,
    ⟨0, 4, (((((.neg (.s 3)) ⊠ (.c 2)) ⊠ (.c 0)) ⊠ (.s 1)) ⊞ (((.c 3) ⊠ (.c 0)) ⊠ (.c 1))) ⊞ (((.s 3) ⊠ (.s 2)) ⊠ (.s 0))⟩,
    ⟨1, 1, .neg (.c 0)⟩,
    ⟨1, 2, (.s 0) ⊠ (.c 1)⟩,
    ⟨1, 3, (((.s 2) ⊠ (.s 0)) ⊠ (.s 1)) ⊟ ((.c 2) ⊠ (.c 0))⟩,
    ⟨1, 4, (((((.neg (.s 3)) ⊠ (.c 2)) ⊠ (.s 0)) ⊠ (.s 1)) ⊞ (((.c 3) ⊠ (.s 0)) ⊠ (.c 1))) ⊟ (((.s 3) ⊠ (.s 2)) ⊠ (.c 0))⟩,
    ⟨2, 2, .s 1⟩,
    ⟨2, 3, (.neg (.s 2)) ⊠ (.c 1)⟩,
    ⟨2, 4, ((.c 3) ⊠ (.s 1)) ⊞ (((.s 3) ⊠ (.c 2)) ⊠ (.c 1))⟩,
    ⟨3, 0, (((((((((((.k 261 5) ⊠ (.s 2)) ⊞ (((.k 4 4) ⊠ (.c 3)) ⊠ (.c 2))) ⊠ (.s 0)) ⊠ (.s 1)) ⊞ ((((.k 4 4) ⊠ (.s 3)) ⊠ (.s 0)) ⊠ (.c 1))) ⊞ (((((.k 4 4) ⊠ (.c 3)) ⊠ (.s 2)) ⊟ ((.k 261 5) ⊠ (.c 2))) ⊠ (.c 0))) ⊠ (.s 4)) ⊞ ((((((((.k 4 4) ⊠ (.s 2)) ⊟ (((.k 261 5) ⊠ (.c 3)) ⊠ (.c 2))) ⊠ (.s 0)) ⊠ (.s 1)) ⊟ ((((.k 261 5) ⊠ (.s 3)) ⊠ (.s 0)) ⊠ (.c 1))) ⊞ (((((.neg (.k 261 5)) ⊠ (.c 3)) ⊠ (.s 2)) ⊟ ((.k 4 4) ⊠ (.c 2))) ⊠ (.c 0))) ⊠ (.c 4))) ⊞ (((((.k 8883 5) ⊠ (.s 3)) ⊠ (.c 2)) ⊠ (.s 0)) ⊠ (.s 1))) ⊞ (((((.neg (.k 8883 5)) ⊠ (.c 3)) ⊟ (.k 416 3)) ⊠ (.s 0)) ⊠ (.c 1))) ⊞ ((((.k 8883 5) ⊠ (.s 3)) ⊠ (.s 2)) ⊠ (.c 0))⟩,
    ⟨3, 1, ((((((((.k 4 4) ⊠ (.s 3)) ⊠ (.c 0)) ⊠ (.s 1)) ⊞ (((((.neg (.k 261 5)) ⊠ (.s 2)) ⊟ (((.k 4 4) ⊠ (.c 3)) ⊠ (.c 2))) ⊠ (.c 0)) ⊠ (.c 1))) ⊠ (.s 4)) ⊞ ((((((((.k 261 5) ⊠ (.c 3)) ⊠ (.c 2)) ⊟ ((.k 4 4) ⊠ (.s 2))) ⊠ (.c 0)) ⊠ (.c 1)) ⊟ ((((.k 261 5) ⊠ (.s 3)) ⊠ (.c 0)) ⊠ (.s 1))) ⊠ (.c 4))) ⊞ (((((.neg (.k 8883 5)) ⊠ (.c 3)) ⊟ (.k 416 3)) ⊠ (.c 0)) ⊠ (.s 1))) ⊟ (((((.k 8883 5) ⊠ (.s 3)) ⊠ (.c 2)) ⊠ (.c 0)) ⊠ (.c 1))⟩,
    ⟨3, 2, ((((((((((.k 4 4) ⊠ (.c 3)) ⊠ (.s 2)) ⊟ ((.k 261 5) ⊠ (.c 2))) ⊠ (.c 0)) ⊠ (.s 1)) ⊞ ((((.k 261 5) ⊠ (.s 2)) ⊞ (((.k 4 4) ⊠ (.c 3)) ⊠ (.c 2))) ⊠ (.s 0))) ⊠ (.s 4)) ⊞ ((((((((.neg (.k 261 5)) ⊠ (.c 3)) ⊠ (.s 2)) ⊟ ((.k 4 4) ⊠ (.c 2))) ⊠ (.c 0)) ⊠ (.s 1)) ⊞ ((((.k 4 4) ⊠ (.s 2)) ⊟ (((.k 261 5) ⊠ (.c 3)) ⊠ (.c 2))) ⊠ (.s 0))) ⊠ (.c 4))) ⊞ (((((.k 8883 5) ⊠ (.s 3)) ⊠ (.s 2)) ⊠ (.c 0)) ⊠ (.s 1))) ⊞ ((((.k 8883 5) ⊠ (.s 3)) ⊠ (.c 2)) ⊠ (.s 0))⟩,
    ⟨3, 3, (((((((((((.k 4 4) ⊠ (.s 3)) ⊠ (.c 2)) ⊠ (.c 0)) ⊠ (.s 1)) ⊟ ((((.k 4 4) ⊠ (.c 3)) ⊠ (.c 0)) ⊠ (.c 1))) ⊟ ((((.k 4 4) ⊠ (.s 3)) ⊠ (.s 2)) ⊠ (.s 0))) ⊠ (.s 4)) ⊞ ((((((((.neg (.k 261 5)) ⊠ (.s 3)) ⊠ (.c 2)) ⊠ (.c 0)) ⊠ (.s 1)) ⊞ ((((.k 261 5) ⊠ (.c 3)) ⊠ (.c 0)) ⊠ (.c 1))) ⊞ ((((.k 261 5) ⊠ (.s 3)) ⊠ (.s 2)) ⊠ (.s 0))) ⊠ (.c 4))) ⊟ (((((.k 8883 5) ⊠ (.c 3)) ⊠ (.c 2)) ⊠ (.c 0)) ⊠ (.s 1))) ⊟ ((((.k 8883 5) ⊠ (.s 3)) ⊠ (.c 0)) ⊠ (.c 1))) ⊞ ((((.k 8883 5) ⊠ (.c 3)) ⊠ (.s 2)) ⊠ (.s 0))⟩,
    ⟨3, 4, ((((((((.k 4 4) ⊠ (.s 2)) ⊟ (((.k 261 5) ⊠ (.c 3)) ⊠ (.c 2))) ⊠ (.c 0)) ⊠ (.s 1)) ⊟ ((((.k 261 5) ⊠ (.s 3)) ⊠ (.c 0)) ⊠ (.c 1))) ⊞ (((((.k 261 5) ⊠ (.c 3)) ⊠ (.s 2)) ⊞ ((.k 4 4) ⊠ (.c 2))) ⊠ (.s 0))) ⊠ (.s 4)) ⊞ ((((((((.neg (.k 261 5)) ⊠ (.s 2)) ⊟ (((.k 4 4) ⊠ (.c 3)) ⊠ (.c 2))) ⊠ (.c 0)) ⊠ (.s 1)) ⊟ ((((.k 4 4) ⊠ (.s 3)) ⊠ (.c 0)) ⊠ (.c 1))) ⊞ (((((.k 4 4) ⊠ (.c 3)) ⊠ (.s 2)) ⊟ ((.k 261 5) ⊠ (.c 2))) ⊠ (.s 0))) ⊠ (.c 4))⟩,
    ⟨4, 0, (((((((((((.neg (.k 261 5)) ⊠ (.s 2)) ⊟ (((.k 4 4) ⊠ (.c 3)) ⊠ (.c 2))) ⊠ (.c 0)) ⊠ (.s 1)) ⊟ ((((.k 4 4) ⊠ (.s 3)) ⊠ (.c 0)) ⊠ (.c 1))) ⊞ (((((.k 4 4) ⊠ (.c 3)) ⊠ (.s 2)) ⊟ ((.k 261 5) ⊠ (.c 2))) ⊠ (.s 0))) ⊠ (.s 4)) ⊞ (((((((((.k 261 5) ⊠ (.c 3)) ⊠ (.c 2)) ⊟ ((.k 4 4) ⊠ (.s 2))) ⊠ (.c 0)) ⊠ (.s 1)) ⊞ ((((.k 261 5) ⊠ (.s 3)) ⊠ (.c 0)) ⊠ (.c 1))) ⊞ (((((.neg (.k 261 5)) ⊠ (.c 3)) ⊠ (.s 2)) ⊟ ((.k 4 4) ⊠ (.c 2))) ⊠ (.s 0))) ⊠ (.c 4))) ⊟ (((((.k 8883 5) ⊠ (.s 3)) ⊠ (.c 2)) ⊠ (.c 0)) ⊠ (.s 1))) ⊞ (((((.k 8883 5) ⊠ (.c 3)) ⊞ (.k 416 3)) ⊠ (.c 0)) ⊠ (.c 1))) ⊞ ((((.k 8883 5) ⊠ (.s 3)) ⊠ (.s 2)) ⊠ (.s 0))⟩,
    ⟨4, 1, ((((((((.k 4 4) ⊠ (.s 3)) ⊠ (.s 0)) ⊠ (.s 1)) ⊞ (((((.neg (.k 261 5)) ⊠ (.s 2)) ⊟ (((.k 4 4) ⊠ (.c 3)) ⊠ (.c 2))) ⊠ (.s 0)) ⊠ (.c 1))) ⊠ (.s 4)) ⊞ ((((((((.k 261 5) ⊠ (.c 3)) ⊠ (.c 2)) ⊟ ((.k 4 4) ⊠ (.s 2))) ⊠ (.s 0)) ⊠ (.c 1)) ⊟ ((((.k 261 5) ⊠ (.s 3)) ⊠ (.s 0)) ⊠ (.s 1))) ⊠ (.c 4))) ⊞ (((((.neg (.k 8883 5)) ⊠ (.c 3)) ⊟ (.k 416 3)) ⊠ (.s 0)) ⊠ (.s 1))) ⊟ (((((.k 8883 5) ⊠ (.s 3)) ⊠ (.c 2)) ⊠ (.s 0)) ⊠ (.c 1))⟩,
    ⟨4, 2, ((((((((((.k 4 4) ⊠ (.c 3)) ⊠ (.s 2)) ⊟ ((.k 261 5) ⊠ (.c 2))) ⊠ (.s 0)) ⊠ (.s 1)) ⊞ ((((.neg (.k 261 5)) ⊠ (.s 2)) ⊟ (((.k 4 4) ⊠ (.c 3)) ⊠ (.c 2))) ⊠ (.c 0))) ⊠ (.s 4)) ⊞ ((((((((.neg (.k 261 5)) ⊠ (.c 3)) ⊠ (.s 2)) ⊟ ((.k 4 4) ⊠ (.c 2))) ⊠ (.s 0)) ⊠ (.s 1)) ⊞ (((((.k 261 5) ⊠ (.c 3)) ⊠ (.c 2)) ⊟ ((.k 4 4) ⊠ (.s 2))) ⊠ (.c 0))) ⊠ (.c 4))) ⊞ (((((.k 8883 5) ⊠ (.s 3)) ⊠ (.s 2)) ⊠ (.s 0)) ⊠ (.s 1))) ⊟ ((((.k 8883 5) ⊠ (.s 3)) ⊠ (.c 2)) ⊠ (.c 0))⟩,
    ⟨4, 3, (((((((((((.k 4 4) ⊠ (.s 3)) ⊠ (.c 2)) ⊠ (.s 0)) ⊠ (.s 1)) ⊟ ((((.k 4 4) ⊠ (.c 3)) ⊠ (.s 0)) ⊠ (.c 1))) ⊞ ((((.k 4 4) ⊠ (.s 3)) ⊠ (.s 2)) ⊠ (.c 0))) ⊠ (.s 4)) ⊞ ((((((((.neg (.k 261 5)) ⊠ (.s 3)) ⊠ (.c 2)) ⊠ (.s 0)) ⊠ (.s 1)) ⊞ ((((.k 261 5) ⊠ (.c 3)) ⊠ (.s 0)) ⊠ (.c 1))) ⊟ ((((.k 261 5) ⊠ (.s 3)) ⊠ (.s 2)) ⊠ (.c 0))) ⊠ (.c 4))) ⊟ (((((.k 8883 5) ⊠ (.c 3)) ⊠ (.c 2)) ⊠ (.s 0)) ⊠ (.s 1))) ⊟ ((((.k 8883 5) ⊠ (.s 3)) ⊠ (.s 0)) ⊠ (.c 1))) ⊟ ((((.k 8883 5) ⊠ (.c 3)) ⊠ (.s 2)) ⊠ (.c 0))⟩,
    ⟨4, 4, ((((((((.k 4 4) ⊠ (.s 2)) ⊟ (((.k 261 5) ⊠ (.c 3)) ⊠ (.c 2))) ⊠ (.s 0)) ⊠ (.s 1)) ⊟ ((((.k 261 5) ⊠ (.s 3)) ⊠ (.s 0)) ⊠ (.c 1))) ⊞ (((((.neg (.k 261 5)) ⊠ (.c 3)) ⊠ (.s 2)) ⊟ ((.k 4 4) ⊠ (.c 2))) ⊠ (.c 0))) ⊠ (.s 4)) ⊞ ((((((((.neg (.k 261 5)) ⊠ (.s 2)) ⊟ (((.k 4 4) ⊠ (.c 3)) ⊠ (.c 2))) ⊠ (.s 0)) ⊠ (.s 1)) ⊟ ((((.k 4 4) ⊠ (.s 3)) ⊠ (.s 0)) ⊠ (.c 1))) ⊞ ((((.k 261 5) ⊠ (.c 2)) ⊟ (((.k 4 4) ⊠ (.c 3)) ⊠ (.s 2))) ⊠ (.c 0))) ⊠ (.c 4))⟩,
    ⟨5, 1, ((((((((.neg (.k 261 5)) ⊠ (.s 2)) ⊟ (((.k 4 4) ⊠ (.c 3)) ⊠ (.c 2))) ⊠ (.s 1)) ⊟ (((.k 4 4) ⊠ (.s 3)) ⊠ (.c 1))) ⊠ (.s 4)) ⊞ (((((((.k 261 5) ⊠ (.c 3)) ⊠ (.c 2)) ⊟ ((.k 4 4) ⊠ (.s 2))) ⊠ (.s 1)) ⊞ (((.k 261 5) ⊠ (.s 3)) ⊠ (.c 1))) ⊠ (.c 4))) ⊟ ((((.k 8883 5) ⊠ (.s 3)) ⊠ (.c 2)) ⊠ (.s 1))) ⊞ ((((.k 8883 5) ⊠ (.c 3)) ⊞ (.k 416 3)) ⊠ (.c 1))⟩,
    ⟨5, 2, ((((((.k 261 5) ⊠ (.c 2)) ⊟ (((.k 4 4) ⊠ (.c 3)) ⊠ (.s 2))) ⊠ (.c 1)) ⊠ (.s 4)) ⊞ ((((((.k 261 5) ⊠ (.c 3)) ⊠ (.s 2)) ⊞ ((.k 4 4) ⊠ (.c 2))) ⊠ (.c 1)) ⊠ (.c 4))) ⊟ ((((.k 8883 5) ⊠ (.s 3)) ⊠ (.s 2)) ⊠ (.c 1))⟩,
    ⟨5, 3, (((((((.neg (.k 4 4)) ⊠ (.c 3)) ⊠ (.s 1)) ⊟ ((((.k 4 4) ⊠ (.s 3)) ⊠ (.c 2)) ⊠ (.c 1))) ⊠ (.s 4)) ⊞ (((((.k 261 5) ⊠ (.c 3)) ⊠ (.s 1)) ⊞ ((((.k 261 5) ⊠ (.s 3)) ⊠ (.c 2)) ⊠ (.c 1))) ⊠ (.c 4))) ⊟ (((.k 8883 5) ⊠ (.s 3)) ⊠ (.s 1))) ⊞ ((((.k 8883 5) ⊠ (.c 3)) ⊠ (.c 2)) ⊠ (.c 1))⟩,
    ⟨5, 4, (((((((.k 261 5) ⊠ (.c 3)) ⊠ (.c 2)) ⊟ ((.k 4 4) ⊠ (.s 2))) ⊠ (.c 1)) ⊟ (((.k 261 5) ⊠ (.s 3)) ⊠ (.s 1))) ⊠ (.s 4)) ⊞ ((((((.k 261 5) ⊠ (.s 2)) ⊞ (((.k 4 4) ⊠ (.c 3)) ⊠ (.c 2))) ⊠ (.c 1)) ⊟ (((.k 4 4) ⊠ (.s 3)) ⊠ (.s 1))) ⊠ (.c 4))⟩]

/-- The Jacobian `fr_HyABase_J_fr_Wrist_R_COM`. -/
def fr_HyABase_J_fr_Wrist_R_COM : Jac := ⟨fr_Wrist_R_COM, gen_fr_HyABase_J_fr_Wrist_R_COM⟩

/-- `Jacobians::Type_fr_HyABase_J_fr_Wrist_R` (jacobians.impl.h:300-310, 313-355). -/
def gen_fr_HyABase_J_fr_Wrist_R : Gen where
  rows := 6
  cols := 5
  ctor := [⟨0, 0, .k 0 0⟩,
    ⟨1, 0, .k 0 0⟩,
    ⟨2, 0, .k 1 0⟩,
    ⟨2, 1, .k 0 0⟩,
    ⟨3, 4, .k 0 0⟩,
    ⟨4, 4, .k 0 0⟩,
    ⟨5, 0, .k 0 0⟩,
    ⟨5, 4, .k 0 0⟩]
  upd := [⟨0, 1, .s 0⟩,
    ⟨0, 2, (.c 0) ⊠ (.c 1)⟩,
    ⟨0, 3, (((.s 2) ⊠ (.c 0)) ⊠ (.s 1)) ⊞ ((.c 2) ⊠ (.s 0))⟩,
    ⟨0, 4, (((((.neg (.s 3)) ⊠ (.c 2)) ⊠ (.c 0)) ⊠ (.s 1)) ⊞ (((.c 3) ⊠ (.c 0)) ⊠ (.c 1))) ⊞ (((.s 3) ⊠ (.s 2)) ⊠ (.s 0))⟩,
    ⟨1, 1, .neg (.c 0)⟩,
    ⟨1, 2, (.s 0) ⊠ (.c 1)⟩,
    ⟨1, 3, (((.s 2) ⊠ (.s 0)) ⊠ (.s 1)) ⊟ ((.c 2) ⊠ (.c 0))⟩,
    ⟨1, 4, (((((.neg (.s 3)) ⊠ (.c 2)) ⊠ (.s 0)) ⊠ (.s 1)) ⊞ (((.c 3) ⊠ (.s 0)) ⊠ (.c 1))) ⊟ (((.s 3) ⊠ (.s 2)) ⊠ (.c 0))⟩,
    ⟨2, 2, .s 1⟩,
    ⟨2, 3, (.neg (.s 2)) ⊠ (.c 1)⟩,
    ⟨2, 4, ((.c 3) ⊠ (.s 1)) ⊞ (((.s 3) ⊠ (.c 2)) ⊠ (.c 1))⟩,
    ⟨3, 0, ((((((.k 112 3) ⊠ (.s 3)) ⊠ (.c 2)) ⊠ (.s 0)) ⊠ (.s 1)) ⊞ (((((.neg (.k 112 3)) ⊠ (.c 3)) ⊟ (.k 416 3)) ⊠ (.s 0)) ⊠ (.c 1))) ⊞ ((((.k 112 3) ⊠ (.s 3)) ⊠ (.s 2)) ⊠ (.c 0))⟩,
    ⟨3, 1, (((((.neg (.k 112 3)) ⊠ (.c 3)) ⊟ (.k 416 3)) ⊠ (.c 0)) ⊠ (.s 1)) ⊟ (((((.k 112 3) ⊠ (.s 3)) ⊠ (.c 2)) ⊠ (.c 0)) ⊠ (.c 1))⟩,
    ⟨3, 2, (((((.k 112 3) ⊠ (.s 3)) ⊠ (.s 2)) ⊠ (.c 0)) ⊠ (.s 1)) ⊞ ((((.k 112 3) ⊠ (.s 3)) ⊠ (.c 2)) ⊠ (.s 0))⟩,
    ⟨3, 3, ((((((.neg (.k 112 3)) ⊠ (.c 3)) ⊠ (.c 2)) ⊠ (.c 0)) ⊠ (.s 1)) ⊟ ((((.k 112 3) ⊠ (.s 3)) ⊠ (.c 0)) ⊠ (.c 1))) ⊞ ((((.k 112 3) ⊠ (.c 3)) ⊠ (.s 2)) ⊠ (.s 0))⟩,
    ⟨4, 0, ((((((.neg (.k 112 3)) ⊠ (.s 3)) ⊠ (.c 2)) ⊠ (.c 0)) ⊠ (.s 1)) ⊞ (((((.k 112 3) ⊠ (.c 3)) ⊞ (.k 416 3)) ⊠ (.c 0)) ⊠ (.c 1))) ⊞ ((((.k 112 3) ⊠ (.s 3)) ⊠ (.s 2)) ⊠ (.s 0))⟩,
    ⟨4, 1, (((((.neg (.k 112 3)) ⊠ (.c 3)) ⊟ (.k 416 3)) ⊠ (.s 0)) ⊠ (.s 1)) ⊟ (((((.k 112 3) ⊠ (.s 3)) ⊠ (.c 2)) ⊠ (.s 0)) ⊠ (.c 1))⟩,
    ⟨4, 2, (((((.k 112 3) ⊠ (.s 3)) ⊠ (.s 2)) ⊠ (.s 0)) ⊠ (.s 1)) ⊟ ((((.k 112 3) ⊠ (.s 3)) ⊠ (.c 2)) ⊠ (.c 0))⟩,
    ⟨4, 3, ((((((.neg (.k 112 3)) ⊠ (.c 3)) ⊠ (.c 2)) ⊠ (.s 0)) ⊠ (.s 1)) ⊟ ((((.k 112 3) ⊠ (.s 3)) ⊠ (.s 0)) ⊠ (.c 1))) ⊟ ((((.k 112 3) ⊠ (.c 3)) ⊠ (.s 2)) ⊠ (.c 0))⟩,
    ⟨5, 1, ((((.k 112 3) ⊠ (.c 3)) ⊞ (.k 416 3)) ⊠ (.c 1)) ⊟ ((((.k 112 3) ⊠ (.s 3)) ⊠ (.c 2)) ⊠ (.s 1))⟩,
    ⟨5, 2, (((.neg (.k 112 3)) ⊠ (.s 3)) ⊠ (.s 2)) ⊠ (.c 1)⟩,
    ⟨5, 3, ((((.k 112 3) ⊠ (.c 3)) ⊠ (.c 2)) ⊠ (.c 1)) ⊟ (((.k 112 3) ⊠ (.s 3)) ⊠ (.s 1))⟩]

/-- The Jacobian `fr_HyABase_J_fr_Wrist_R`. -/
def fr_HyABase_J_fr_Wrist_R : Jac := ⟨fr_Wrist_R, gen_fr_HyABase_J_fr_Wrist_R⟩

/-- `Jacobians::Type_fr_HyABase_J_fr_Wrist_R_CTR` (jacobians.impl.h:357-367, 370-412). -/
def gen_fr_HyABase_J_fr_Wrist_R_CTR : Gen where
  rows := 6
  cols := 5
  ctor := [⟨0, 0, .k 0 0⟩,
    ⟨1, 0, .k 0 0⟩,
    ⟨2, 0, .k 1 0⟩,
    ⟨2, 1, .k 0 0⟩,
    ⟨3, 4, .k 0 0⟩,
    ⟨4, 4, .k 0 0⟩,
    ⟨5, 0, .k 0 0⟩,
    ⟨5, 4, .k 0 0⟩]
  upd := [⟨0, 1, .s 0⟩,
    ⟨0, 2, (.c 0) ⊠ (.c 1)⟩,
    ⟨0, 3, (((.s 2) ⊠ (.c 0)) ⊠ (.s 1)) ⊞ ((.c 2) ⊠ (.s 0))⟩,
    ⟨0, 4, (((((.neg (.s 3)) ⊠ (.c 2)) ⊠ (.c 0)) ⊠ (.s 1)) ⊞ (((.c 3) ⊠ (.c 0)) ⊠ (.c 1))) ⊞ (((.s 3) ⊠ (.s 2)) ⊠ (.s 0))⟩,
    ⟨1, 1, .neg (.c 0)⟩,
    ⟨1, 2, (.s 0) ⊠ (.c 1)⟩,
    ⟨1, 3, (((.s 2) ⊠ (.s 0)) ⊠ (.s 1)) ⊟ ((.c 2) ⊠ (.c 0))⟩,
    ⟨1, 4, (((((.neg (.s 3)) ⊠ (.c 2)) ⊠ (.s 0)) ⊠ (.s 1)) ⊞ (((.c 3) ⊠ (.s 0)) ⊠ (.c 1))) ⊟ (((.s 3) ⊠ (.s 2)) ⊠ (.c 0))⟩,
    ⟨2, 2, .s 1⟩,
    ⟨2, 3, (.neg (.s 2)) ⊠ (.c 1)⟩,
    ⟨2, 4, ((.c 3) ⊠ (.s 1)) ⊞ (((.s 3) ⊠ (.c 2)) ⊠ (.c 1))⟩,
    ⟨3, 0, ((((((.k 204 3) ⊠ (.s 3)) ⊠ (.c 2)) ⊠ (.s 0)) ⊠ (.s 1)) ⊞ (((((.neg (.k 204 3)) ⊠ (.c 3)) ⊟ (.k 416 3)) ⊠ (.s 0)) ⊠ (.c 1))) ⊞ ((((.k 204 3) ⊠ (.s 3)) ⊠ (.s 2)) ⊠ (.c 0))⟩,
    ⟨3, 1, (((((.neg (.k 204 3)) ⊠ (.c 3)) ⊟ (.k 416 3)) ⊠ (.c 0)) ⊠ (.s 1)) ⊟ (((((.k 204 3) ⊠ (.s 3)) ⊠ (.c 2)) ⊠ (.c 0)) ⊠ (.c 1))⟩,
    ⟨3, 2, (((((.k 204 3) ⊠ (.s 3)) ⊠ (.s 2)) ⊠ (.c 0)) ⊠ (.s 1)) ⊞ ((((.k 204 3) ⊠ (.s 3)) ⊠ (.c 2)) ⊠ (.s 0))⟩,
    ⟨3, 3, ((((((.neg (.k 204 3)) ⊠ (.c 3)) ⊠ (.c 2)) ⊠ (.c 0)) ⊠ (.s 1)) ⊟ ((((.k 204 3) ⊠ (.s 3)) ⊠ (.c 0)) ⊠ (.c 1))) ⊞ ((((.k 204 3) ⊠ (.c 3)) ⊠ (.s 2)) ⊠ (.s 0))⟩,
    ⟨4, 0, ((((((.neg (.k 204 3)) ⊠ (.s 3)) ⊠ (.c 2)) ⊠ (.c 0)) ⊠ (.s 1)) ⊞ (((((.k 204 3) ⊠ (.c 3)) ⊞ (.k 416 3)) ⊠ (.c 0)) ⊠ (.c 1))) ⊞ ((((.k 204 3) ⊠ (.s 3)) ⊠ (.s 2)) ⊠ (.s 0))⟩,
    ⟨4, 1, (((((.neg (.k 204 3)) ⊠ (.c 3)) ⊟ (.k 416 3)) ⊠ (.s 0)) ⊠ (.s 1)) ⊟ (((((.k 204 3) ⊠ (.s 3)) ⊠ (.c 2)) ⊠ (.s 0)) ⊠ (.c 1))⟩,
    ⟨4, 2, (((((.k 204 3) ⊠ (.s 3)) ⊠ (.s 2)) ⊠ (.s 0)) ⊠ (.s 1)) ⊟ ((((.k 204 3) ⊠ (.s 3)) ⊠ (.c 2)) ⊠ (.c 0))⟩,
    ⟨4, 3, ((((((.neg (.k 204 3)) ⊠ (.c 3)) ⊠ (.c 2)) ⊠ (.s 0)) ⊠ (.s 1)) ⊟ ((((.k 204 3) ⊠ (.s 3)) ⊠ (.s 0)) ⊠ (.c 1))) ⊟ ((((.k 204 3) ⊠ (.c 3)) ⊠ (.s 2)) ⊠ (.c 0))⟩,
    ⟨5, 1, ((((.k 204 3) ⊠ (.c 3)) ⊞ (.k 416 3)) ⊠ (.c 1)) ⊟ ((((.k 204 3) ⊠ (.s 3)) ⊠ (.c 2)) ⊠ (.s 1))⟩,
    ⟨5, 2, (((.neg (.k 204 3)) ⊠ (.s 3)) ⊠ (.s 2)) ⊠ (.c 1)⟩,
    ⟨5, 3, ((((.k 204 3) ⊠ (.c 3)) ⊠ (.c 2)) ⊠ (.c 1)) ⊟ (((.k 204 3) ⊠ (.s 3)) ⊠ (.s 1))⟩]

/-- The Jacobian `fr_HyABase_J_fr_Wrist_R_CTR`. -/
def fr_HyABase_J_fr_Wrist_R_CTR : Jac := ⟨fr_Wrist_R_CTR, gen_fr_HyABase_J_fr_Wrist_R_CTR⟩

/-- `Jacobians::Type_fr_HyABase_J_fr_Elbow_FE_COM` (jacobians.impl.h:414-421, 424-463). -/
def gen_fr_HyABase_J_fr_Elbow_FE_COM : Gen where
  rows := 6
  cols := 4
  ctor := [⟨0, 0, .k 0 0⟩,
    ⟨1, 0, .k 0 0⟩,
    ⟨2, 0, .k 1 0⟩,
    ⟨2, 1, .k 0 0⟩,
    ⟨5, 0, .k 0 0⟩]
  upd := [⟨0, 1, .s 0⟩,
    ⟨0, 2, (.c 0) ⊠ (.c 1)⟩,
    ⟨0, 3, (((.s 2) ⊠ (.c 0)) ⊠ (.s 1)) ⊞ ((.c 2) ⊠ (.s 0))⟩,
    ⟨1, 1, .neg (.c 0)⟩,
    ⟨1, 2, (.s 0) ⊠ (.c 1)⟩,
    ⟨1, 3, (((.s 2) ⊠ (.s 0)) ⊠ (.s 1)) ⊟ ((.c 2) ⊠ (.c 0))⟩,
    ⟨2, 2, .s 1⟩,
    ⟨2, 3, (.neg (.s 2)) ⊠ (.c 1)⟩,
    ⟨3, 0, ((((((((.neg (.k 1466 4)) ⊠ (.s 3)) ⊟ ((.k 1125 5) ⊠ (.c 3))) ⊠ (.c 2)) ⊟ ((.k 102 5) ⊠ (.s 2))) ⊠ (.s 0)) ⊠ (.s 1)) ⊞ ((((((.neg (.k 1125 5)) ⊠ (.s 3)) ⊞ ((.k 1466 4) ⊠ (.c 3))) ⊟ (.k 416 3)) ⊠ (.s 0)) ⊠ (.c 1))) ⊞ ((((((.neg (.k 1466 4)) ⊠ (.s 3)) ⊟ ((.k 1125 5) ⊠ (.c 3))) ⊠ (.s 2)) ⊞ ((.k 102 5) ⊠ (.c 2))) ⊠ (.c 0))⟩,
    ⟨3, 1, ((((((.neg (.k 1125 5)) ⊠ (.s 3)) ⊞ ((.k 1466 4) ⊠ (.c 3))) ⊟ (.k 416 3)) ⊠ (.c 0)) ⊠ (.s 1)) ⊞ (((((.k 102 5) ⊠ (.s 2)) ⊞ ((((.k 1466 4) ⊠ (.s 3)) ⊞ ((.k 1125 5) ⊠ (.c 3))) ⊠ (.c 2))) ⊠ (.c 0)) ⊠ (.c 1))⟩,
    ⟨3, 2, (((((((.neg (.k 1466 4)) ⊠ (.s 3)) ⊟ ((.k 1125 5) ⊠ (.c 3))) ⊠ (.s 2)) ⊞ ((.k 102 5) ⊠ (.c 2))) ⊠ (.c 0)) ⊠ (.s 1)) ⊞ ((((((.neg (.k 1466 4)) ⊠ (.s 3)) ⊟ ((.k 1125 5) ⊠ (.c 3))) ⊠ (.c 2)) ⊟ ((.k 102 5) ⊠ (.s 2))) ⊠ (.s 0))⟩,
    ⟨3, 3, (((((((.k 1466 4) ⊠ (.c 3)) ⊟ ((.k 1125 5) ⊠ (.s 3))) ⊠ (.c 2)) ⊠ (.c 0)) ⊠ (.s 1)) ⊞ (((((.k 1466 4) ⊠ (.s 3)) ⊞ ((.k 1125 5) ⊠ (.c 3))) ⊠ (.c 0)) ⊠ (.c 1))) ⊞ (((((.k 1125 5) ⊠ (.s 3)) ⊟ ((.k 1466 4) ⊠ (.c 3))) ⊠ (.s 2)) ⊠ (.s 0))⟩,
    ⟨4, 0, ((((((.k 102 5) ⊠ (.s 2)) ⊞ ((((.k 1466 4) ⊠ (.s 3)) ⊞ ((.k 1125 5) ⊠ (.c 3))) ⊠ (.c 2))) ⊠ (.c 0)) ⊠ (.s 1)) ⊞ ((((((.k 1125 5) ⊠ (.s 3)) ⊟ ((.k 1466 4) ⊠ (.c 3))) ⊞ (.k 416 3)) ⊠ (.c 0)) ⊠ (.c 1))) ⊞ ((((((.neg (.k 1466 4)) ⊠ (.s 3)) ⊟ ((.k 1125 5) ⊠ (.c 3))) ⊠ (.s 2)) ⊞ ((.k 102 5) ⊠ (.c 2))) ⊠ (.s 0))⟩,
    ⟨4, 1, ((((((.neg (.k 1125 5)) ⊠ (.s 3)) ⊞ ((.k 1466 4) ⊠ (.c 3))) ⊟ (.k 416 3)) ⊠ (.s 0)) ⊠ (.s 1)) ⊞ (((((.k 102 5) ⊠ (.s 2)) ⊞ ((((.k 1466 4) ⊠ (.s 3)) ⊞ ((.k 1125 5) ⊠ (.c 3))) ⊠ (.c 2))) ⊠ (.s 0)) ⊠ (.c 1))⟩,
    ⟨4, 2, (((((((.neg (.k 1466 4)) ⊠ (.s 3)) ⊟ ((.k 1125 5) ⊠ (.c 3))) ⊠ (.s 2)) ⊞ ((.k 102 5) ⊠ (.c 2))) ⊠ (.s 0)) ⊠ (.s 1)) ⊞ ((((.k 102 5) ⊠ (.s 2)) ⊞ ((((.k 1466 4) ⊠ (.s 3)) ⊞ ((.k 1125 5) ⊠ (.c 3))) ⊠ (.c 2))) ⊠ (.c 0))⟩,
    ⟨4, 3, (((((((.k 1466 4) ⊠ (.c 3)) ⊟ ((.k 1125 5) ⊠ (.s 3))) ⊠ (.c 2)) ⊠ (.s 0)) ⊠ (.s 1)) ⊞ (((((.k 1466 4) ⊠ (.s 3)) ⊞ ((.k 1125 5) ⊠ (.c 3))) ⊠ (.s 0)) ⊠ (.c 1))) ⊞ (((((.k 1466 4) ⊠ (.c 3)) ⊟ ((.k 1125 5) ⊠ (.s 3))) ⊠ (.s 2)) ⊠ (.c 0))⟩,
    ⟨5, 1, ((((.k 102 5) ⊠ (.s 2)) ⊞ ((((.k 1466 4) ⊠ (.s 3)) ⊞ ((.k 1125 5) ⊠ (.c 3))) ⊠ (.c 2))) ⊠ (.s 1)) ⊞ (((((.k 1125 5) ⊠ (.s 3)) ⊟ ((.k 1466 4) ⊠ (.c 3))) ⊞ (.k 416 3)) ⊠ (.c 1))⟩,
    ⟨5, 2, (((((.k 1466 4) ⊠ (.s 3)) ⊞ ((.k 1125 5) ⊠ (.c 3))) ⊠ (.s 2)) ⊟ ((.k 102 5) ⊠ (.c 2))) ⊠ (.c 1)⟩,
    ⟨5, 3, ((((.k 1466 4) ⊠ (.s 3)) ⊞ ((.k 1125 5) ⊠ (.c 3))) ⊠ (.s 1)) ⊞ (((((.k 1125 5) ⊠ (.s 3)) ⊟ ((.k 1466 4) ⊠ (.c 3))) ⊠ (.c 2)) ⊠ (.c 1))⟩]

/-- The Jacobian `fr_HyABase_J_fr_Elbow_FE_COM`. -/
def fr_HyABase_J_fr_Elbow_FE_COM : Jac := ⟨fr_Elbow_FE_COM, gen_fr_HyABase_J_fr_Elbow_FE_COM⟩

/-- `Jacobians::Type_fr_HyABase_J_fr_Elbow_FE` (jacobians.impl.h:465-478, 481-510). -/
def gen_fr_HyABase_J_fr_Elbow_FE : Gen where
  rows := 6
  cols := 4
  ctor := [⟨0, 0, .k 0 0⟩,
    ⟨1, 0, .k 0 0⟩,
    ⟨2, 0, .k 1 0⟩,
    ⟨2, 1, .k 0 0⟩,
    ⟨3, 2, .k 0 0⟩,
    ⟨3, 3, .k 0 0⟩,
    ⟨4, 2, .k 0 0⟩,
    ⟨4, 3, .k 0 0⟩,
    ⟨5, 0, .k 0 0⟩,
    ⟨5, 2, .k 0 0⟩,
    ⟨5, 3, .k 0 0⟩]
  upd := [⟨0, 1, .s 0⟩,
    ⟨0, 2, (.c 0) ⊠ (.c 1)⟩,
    ⟨0, 3, (((.s 2) ⊠ (.c 0)) ⊠ (.s 1)) ⊞ ((.c 2) ⊠ (.s 0))⟩,
    ⟨1, 1, .neg (.c 0)⟩,
    ⟨1, 2, (.s 0) ⊠ (.c 1)⟩,
    ⟨1, 3, (((.s 2) ⊠ (.s 0)) ⊠ (.s 1)) ⊟ ((.c 2) ⊠ (.c 0))⟩,
    ⟨2, 2, .s 1⟩,
    ⟨2, 3, (.neg (.s 2)) ⊠ (.c 1)⟩,
    ⟨3, 0, ((.neg (.k 416 3)) ⊠ (.s 0)) ⊠ (.c 1)⟩,
    ⟨3, 1, ((.neg (.k 416 3)) ⊠ (.c 0)) ⊠ (.s 1)⟩,
    ⟨4, 0, ((.k 416 3) ⊠ (.c 0)) ⊠ (.c 1)⟩,
    ⟨4, 1, ((.neg (.k 416 3)) ⊠ (.s 0)) ⊠ (.s 1)⟩,
    ⟨5, 1, (.k 416 3) ⊠ (.c 1)⟩]

/-- The Jacobian `fr_HyABase_J_fr_Elbow_FE`. -/
def fr_HyABase_J_fr_Elbow_FE : Jac := ⟨fr_Elbow_FE, gen_fr_HyABase_J_fr_Elbow_FE⟩

/-- `Jacobians::Type_fr_HyABase_J_fr_Elbow_FE_CTR` (jacobians.impl.h:512-519, 522-561). -/
def gen_fr_HyABase_J_fr_Elbow_FE_CTR : Gen where
  rows := 6
  cols := 4
  ctor := [⟨0, 0, .k 0 0⟩,
    ⟨1, 0, .k 0 0⟩,
    ⟨2, 0, .k 1 0⟩,
    ⟨2, 1, .k 0 0⟩,
    ⟨5, 0, .k 0 0⟩]
  upd := [⟨0, 1, .s 0⟩,
    ⟨0, 2, (.c 0) ⊠ (.c 1)⟩,
    ⟨0, 3, (((.s 2) ⊠ (.c 0)) ⊠ (.s 1)) ⊞ ((.c 2) ⊠ (.s 0))⟩,
    ⟨1, 1, .neg (.c 0)⟩,
    ⟨1, 2, (.s 0) ⊠ (.c 1)⟩,
    ⟨1, 3, (((.s 2) ⊠ (.s 0)) ⊠ (.s 1)) ⊟ ((.c 2) ⊠ (.c 0))⟩,
    ⟨2, 2, .s 1⟩,
    ⟨2, 3, (.neg (.s 2)) ⊠ (.c 1)⟩,
    ⟨3, 0, ((((((.k 56 3) ⊠ (.s 3)) ⊠ (.c 2)) ⊠ (.s 0)) ⊠ (.s 1)) ⊞ (((((.neg (.k 56 3)) ⊠ (.c 3)) ⊟ (.k 416 3)) ⊠ (.s 0)) ⊠ (.c 1))) ⊞ ((((.k 56 3) ⊠ (.s 3)) ⊠ (.s 2)) ⊠ (.c 0))⟩,
    ⟨3, 1, (((((.neg (.k 56 3)) ⊠ (.c 3)) ⊟ (.k 416 3)) ⊠ (.c 0)) ⊠ (.s 1)) ⊟ (((((.k 56 3) ⊠ (.s 3)) ⊠ (.c 2)) ⊠ (.c 0)) ⊠ (.c 1))⟩,
    ⟨3, 2, (((((.k 56 3) ⊠ (.s 3)) ⊠ (.s 2)) ⊠ (.c 0)) ⊠ (.s 1)) ⊞ ((((.k 56 3) ⊠ (.s 3)) ⊠ (.c 2)) ⊠ (.s 0))⟩,
    ⟨3, 3, ((((((.neg (.k 56 3)) ⊠ (.c 3)) ⊠ (.c 2)) ⊠ (.c 0)) ⊠ (.s 1)) ⊟ ((((.k 56 3) ⊠ (.s 3)) ⊠ (.c 0)) ⊠ (.c 1))) ⊞ ((((.k 56 3) ⊠ (.c 3)) ⊠ (.s 2)) ⊠ (.s 0))⟩,
    ⟨4, 0, ((((((.neg (.k 56 3)) ⊠ (.s 3)) ⊠ (.c 2)) ⊠ (.c 0)) ⊠ (.s 1)) ⊞ (((((.k 56 3) ⊠ (.c 3)) ⊞ (.k 416 3)) ⊠ (.c 0)) ⊠ (.c 1))) ⊞ ((((.k 56 3) ⊠ (.s 3)) ⊠ (.s 2)) ⊠ (.s 0))⟩,
    ⟨4, 1, (((((.neg (.k 56 3)) ⊠ (.c 3)) ⊟ (.k 416 3)) ⊠ (.s 0)) ⊠ (.s 1)) ⊟ (((((.k 56 3) ⊠ (.s 3)) ⊠ (.c 2)) ⊠ (.s 0)) ⊠ (.c 1))⟩,
    ⟨4, 2, (((((.k 56 3) ⊠ (.s 3)) ⊠ (.s 2)) ⊠ (.s 0)) ⊠ (.s 1)) ⊟ ((((.k 56 3) ⊠ (.s 3)) ⊠ (.c 2)) ⊠ (.c 0))⟩,
    ⟨4, 3, ((((((.neg (.k 56 3)) ⊠ (.c 3)) ⊠ (.c 2)) ⊠ (.s 0)) ⊠ (.s 1)) ⊟ ((((.k 56 3) ⊠ (.s 3)) ⊠ (.s 0)) ⊠ (.c 1))) ⊟ ((((.k 56 3) ⊠ (.c 3)) ⊠ (.s 2)) ⊠ (.c 0))⟩,
    ⟨5, 1, ((((.k 56 3) ⊠ (.c 3)) ⊞ (.k 416 3)) ⊠ (.c 1)) ⊟ ((((.k 56 3) ⊠ (.s 3)) ⊠ (.c 2)) ⊠ (.s 1))⟩,
    ⟨5, 2, (((.neg (.k 56 3)) ⊠ (.s 3)) ⊠ (.s 2)) ⊠ (.c 1)⟩,
    ⟨5, 3, ((((.k 56 3) ⊠ (.c 3)) ⊠ (.c 2)) ⊠ (.c 1)) ⊟ (((.k 56 3) ⊠ (.s 3)) ⊠ (.s 1))⟩]

/-- The Jacobian `fr_HyABase_J_fr_Elbow_FE_CTR`. -/
def fr_HyABase_J_fr_Elbow_FE_CTR : Jac := ⟨fr_Elbow_FE_CTR, gen_fr_HyABase_J_fr_Elbow_FE_CTR⟩

/-- `Jacobians::Type_fr_HyABase_J_fr_Humerus_R_COM` (jacobians.impl.h:563-570, 573-602). -/
def gen_fr_HyABase_J_fr_Humerus_R_COM : Gen where
  rows := 6
  cols := 3
  ctor := [⟨0, 0, .k 0 0⟩,
    ⟨1, 0, .k 0 0⟩,
    ⟨2, 0, .k 1 0⟩,
    ⟨2, 1, .k 0 0⟩,
    ⟨5, 0, .k 0 0⟩]
  upd := [⟨0, 1, .s 0⟩,
    ⟨0, 2, (.c 0) ⊠ (.c 1)⟩,
    ⟨1, 1, .neg (.c 0)⟩,
    ⟨1, 2, (.s 0) ⊠ (.c 1)⟩,
    ⟨2, 2, .s 1⟩,
    ⟨3, 0, ((((((.k 618 5) ⊠ (.c 2)) ⊟ ((.k 239 5) ⊠ (.s 2))) ⊠ (.s 0)) ⊠ (.s 1)) ⊟ (((.k 8646 5) ⊠ (.s 0)) ⊠ (.c 1))) ⊞ ((((.k 618 5) ⊠ (.s 2)) ⊞ ((.k 239 5) ⊠ (.c 2))) ⊠ (.c 0))⟩,
    ⟨3, 1, (((((.k 239 5) ⊠ (.s 2)) ⊟ ((.k 618 5) ⊠ (.c 2))) ⊠ (.c 0)) ⊠ (.c 1)) ⊟ (((.k 8646 5) ⊠ (.c 0)) ⊠ (.s 1))⟩,
    ⟨3, 2, (((((.k 618 5) ⊠ (.s 2)) ⊞ ((.k 239 5) ⊠ (.c 2))) ⊠ (.c 0)) ⊠ (.s 1)) ⊞ ((((.k 618 5) ⊠ (.c 2)) ⊟ ((.k 239 5) ⊠ (.s 2))) ⊠ (.s 0))⟩,
    ⟨4, 0, ((((((.k 239 5) ⊠ (.s 2)) ⊟ ((.k 618 5) ⊠ (.c 2))) ⊠ (.c 0)) ⊠ (.s 1)) ⊞ (((.k 8646 5) ⊠ (.c 0)) ⊠ (.c 1))) ⊞ ((((.k 618 5) ⊠ (.s 2)) ⊞ ((.k 239 5) ⊠ (.c 2))) ⊠ (.s 0))⟩,
    ⟨4, 1, (((((.k 239 5) ⊠ (.s 2)) ⊟ ((.k 618 5) ⊠ (.c 2))) ⊠ (.s 0)) ⊠ (.c 1)) ⊟ (((.k 8646 5) ⊠ (.s 0)) ⊠ (.s 1))⟩,
    ⟨4, 2, (((((.k 618 5) ⊠ (.s 2)) ⊞ ((.k 239 5) ⊠ (.c 2))) ⊠ (.s 0)) ⊠ (.s 1)) ⊞ ((((.k 239 5) ⊠ (.s 2)) ⊟ ((.k 618 5) ⊠ (.c 2))) ⊠ (.c 0))⟩,
    ⟨5, 1, ((((.k 239 5) ⊠ (.s 2)) ⊟ ((.k 618 5) ⊠ (.c 2))) ⊠ (.s 1)) ⊞ ((.k 8646 5) ⊠ (.c 1))⟩,
    ⟨5, 2, (((.neg (.k 618 5)) ⊠ (.s 2)) ⊟ ((.k 239 5) ⊠ (.c 2))) ⊠ (.c 1)⟩]

/-- The Jacobian `fr_HyABase_J_fr_Humerus_R_COM`. -/
def fr_HyABase_J_fr_Humerus_R_COM : Jac := ⟨fr_Humerus_R_COM, gen_fr_HyABase_J_fr_Humerus_R_COM⟩

/-- `Jacobians::Type_fr_HyABase_J_fr_Humerus_R` (jacobians.impl.h:604-614, 617-639). -/
def gen_fr_HyABase_J_fr_Humerus_R : Gen where
  rows := 6
  cols := 3
  ctor := [⟨0, 0, .k 0 0⟩,
    ⟨1, 0, .k 0 0⟩,
    ⟨2, 0, .k 1 0⟩,
    ⟨2, 1, .k 0 0⟩,
    ⟨3, 2, .k 0 0⟩,
    ⟨4, 2, .k 0 0⟩,
    ⟨5, 0, .k 0 0⟩,
    ⟨5, 2, .k 0 0⟩]
  upd := [⟨0, 1, .s 0⟩,
    ⟨0, 2, (.c 0) ⊠ (.c 1)⟩,
    ⟨1, 1, .neg (.c 0)⟩,
    ⟨1, 2, (.s 0) ⊠ (.c 1)⟩,
    ⟨2, 2, .s 1⟩,
    ⟨3, 0, ((.neg (.k 112 3)) ⊠ (.s 0)) ⊠ (.c 1)⟩,
    ⟨3, 1, ((.neg (.k 112 3)) ⊠ (.c 0)) ⊠ (.s 1)⟩,
    ⟨4, 0, ((.k 112 3) ⊠ (.c 0)) ⊠ (.c 1)⟩,
    ⟨4, 1, ((.neg (.k 112 3)) ⊠ (.s 0)) ⊠ (.s 1)⟩,
    ⟨5, 1, (.k 112 3) ⊠ (.c 1)⟩]

/-- The Jacobian `fr_HyABase_J_fr_Humerus_R`. -/
def fr_HyABase_J_fr_Humerus_R : Jac := ⟨fr_Humerus_R, gen_fr_HyABase_J_fr_Humerus_R⟩

/-- `Jacobians::Type_fr_HyABase_J_fr_Humerus_R_CTR` (jacobians.impl.h:641-651, 654-676). -/
def gen_fr_HyABase_J_fr_Humerus_R_CTR : Gen where
  rows := 6
  cols := 3
  ctor := [⟨0, 0, .k 0 0⟩,
    ⟨1, 0, .k 0 0⟩,
    ⟨2, 0, .k 1 0⟩,
    ⟨2, 1, .k 0 0⟩,
    ⟨3, 2, .k 0 0⟩,
    ⟨4, 2, .k 0 0⟩,
    ⟨5, 0, .k 0 0⟩,
    ⟨5, 2, .k 0 0⟩]
  upd := [⟨0, 1, .s 0⟩,
    ⟨0, 2, (.c 0) ⊠ (.c 1)⟩,
    ⟨1, 1, .neg (.c 0)⟩,
    ⟨1, 2, (.s 0) ⊠ (.c 1)⟩,
    ⟨2, 2, .s 1⟩,
    ⟨3, 0, ((.neg (.k 264 3)) ⊠ (.s 0)) ⊠ (.c 1)⟩,
    ⟨3, 1, ((.neg (.k 264 3)) ⊠ (.c 0)) ⊠ (.s 1)⟩,
    ⟨4, 0, ((.k 264 3) ⊠ (.c 0)) ⊠ (.c 1)⟩,
    ⟨4, 1, ((.neg (.k 264 3)) ⊠ (.s 0)) ⊠ (.s 1)⟩,
    ⟨5, 1, (.k 264 3) ⊠ (.c 1)⟩]

/-- The Jacobian `fr_HyABase_J_fr_Humerus_R_CTR`. -/
def fr_HyABase_J_fr_Humerus_R_CTR : Jac := ⟨fr_Humerus_R_CTR, gen_fr_HyABase_J_fr_Humerus_R_CTR⟩

/-- `Jacobians::Type_fr_HyABase_J_fr_Shoulder_AA_CTR` (jacobians.impl.h:678-686, 689-691). -/
def gen_fr_HyABase_J_fr_Shoulder_AA_CTR : Gen where
  rows := 6
  cols := 1
  ctor := [⟨0, 0, .k 0 0⟩,
    ⟨1, 0, .k 0 0⟩,
    ⟨2, 0, .k 1 0⟩,
    ⟨3, 0, .k 0 0⟩,
    ⟨4, 0, .k 0 0⟩,
    ⟨5, 0, .k 0 0⟩]
  upd := []

/-- The Jacobian `fr_HyABase_J_fr_Shoulder_AA_CTR`. -/
def fr_HyABase_J_fr_Shoulder_AA_CTR : Jac := ⟨fr_Shoulder_AA_CTR, gen_fr_HyABase_J_fr_Shoulder_AA_CTR⟩

/-- `Jacobians::Type_fr_HyABase_J_fr_Shoulder_FE_CTR` (jacobians.impl.h:693-700, 703-722). -/
def gen_fr_HyABase_J_fr_Shoulder_FE_CTR : Gen where
  rows := 6
  cols := 2
  ctor := [⟨0, 0, .k 0 0⟩,
    ⟨1, 0, .k 0 0⟩,
    ⟨2, 0, .k 1 0⟩,
    ⟨2, 1, .k 0 0⟩,
    ⟨5, 0, .k 0 0⟩]
  upd := [⟨0, 1, .s 0⟩,
    ⟨1, 1, .neg (.c 0)⟩,
    ⟨3, 0, ((.neg (.k 56 3)) ⊠ (.s 0)) ⊠ (.c 1)⟩,
    ⟨3, 1, ((.neg (.k 56 3)) ⊠ (.c 0)) ⊠ (.s 1)⟩,
    ⟨4, 0, ((.k 56 3) ⊠ (.c 0)) ⊠ (.c 1)⟩,
    ⟨4, 1, ((.neg (.k 56 3)) ⊠ (.s 0)) ⊠ (.s 1)⟩,
    ⟨5, 1, (.k 56 3) ⊠ (.c 1)⟩]

/-- The Jacobian `fr_HyABase_J_fr_Shoulder_FE_CTR`. -/
def fr_HyABase_J_fr_Shoulder_FE_CTR : Jac := ⟨fr_Shoulder_FE_CTR, gen_fr_HyABase_J_fr_Shoulder_FE_CTR⟩

/-- All Jacobians. -/
def jacobians : List Jac :=
  [fr_HyABase_J_fr_ee,
    fr_HyABase_J_fr_Wrist_FE_COM,
    fr_HyABase_J_fr_Wrist_FE,
    fr_HyABase_J_fr_Wrist_R_COM,
    fr_HyABase_J_fr_Wrist_R,
    fr_HyABase_J_fr_Wrist_R_CTR,
    fr_HyABase_J_fr_Elbow_FE_COM,
    fr_HyABase_J_fr_Elbow_FE,
    fr_HyABase_J_fr_Elbow_FE_CTR,
    fr_HyABase_J_fr_Humerus_R_COM,
    fr_HyABase_J_fr_Humerus_R,
    fr_HyABase_J_fr_Humerus_R_CTR,
    fr_HyABase_J_fr_Shoulder_AA_CTR,
    fr_HyABase_J_fr_Shoulder_FE_CTR]

end CT.Robots.HyA.Kin
