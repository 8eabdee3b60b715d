import Verif.Model.GenKin

/-!
# QuadrotorWithLoad: generated kinematics

Translation of all coordinate transforms and Jacobians in
`ct_models/include/ct/models/QuadrotorWithLoad/generated/transforms.impl.h` and `jacobians.impl.h`, one entry for each
assignment, written by `tools/gen_kin.py`.  Line numbers are those of these two files.
-/

namespace CT.Robots.QuadrotorWithLoad.Kin

open CT.GenKin

/-! ### Frames, in the order of the links and then of their appearance -/

abbrev fr_body : ℕ := 0
abbrev fr_link1 : ℕ := 1
abbrev fr_link2 : ℕ := 2
abbrev fr_ee : ℕ := 3
abbrev fr_com0 : ℕ := 4
abbrev fr_com1 : ℕ := 5
abbrev fr_jA : ℕ := 6
abbrev fr_jB : ℕ := 7

/-! ### Joints (declarations.h) -/

abbrev JA : ℕ := 0
abbrev JB : ℕ := 1

/-! ### Coordinate transforms -/

/-- `HomogeneousTransforms::Type_fr_body_X_fr_link1` (transforms.impl.h:1477-1491, 1493-1505). -/
def hom_fr_body_X_fr_link1 : Gen where
  rows := 4
  cols := 4
  ctor := [⟨0, 2, .k 0 0⟩,
    ⟨0, 3, .k 0 0⟩,
    ⟨1, 2, .k 0 0⟩,
    ⟨1, 3, .k 0 0⟩,
    ⟨2, 0, .k 0 0⟩,
    ⟨2, 1, .k 0 0⟩,
    ⟨2, 2, .k 1 0⟩,
    ⟨2, 3, .k 0 0⟩,
    ⟨3, 0, .k 0 0⟩,
    ⟨3, 1, .k 0 0⟩,
    ⟨3, 2, .k 0 0⟩,
    ⟨3, 3, .k 1 0⟩]
  upd := [⟨0, 0, .c 0⟩,
    ⟨0, 1, .neg (.s 0)⟩,
    ⟨1, 0, .s 0⟩,
    ⟨1, 1, .c 0⟩]

/-- `MotionTransforms::Type_fr_body_X_fr_link1` (transforms.impl.h:79-109, 111-127). -/
def motion_fr_body_X_fr_link1 : Gen where
  rows := 6
  cols := 6
  ctor := [⟨0, 2, .k 0 0⟩,
    ⟨0, 3, .k 0 0⟩,
    ⟨0, 4, .k 0 0⟩,
    ⟨0, 5, .k 0 0⟩,
    ⟨1, 2, .k 0 0⟩,
    ⟨1, 3, .k 0 0⟩,
    ⟨1, 4, .k 0 0⟩,
    ⟨1, 5, .k 0 0⟩,
    ⟨2, 0, .k 0 0⟩,
    ⟨2, 1, .k 0 0⟩,
    ⟨2, 2, .k 1 0⟩,
    ⟨2, 3, .k 0 0⟩,
    ⟨2, 4, .k 0 0⟩,
    ⟨2, 5, .k 0 0⟩,
    ⟨3, 0, .k 0 0⟩,
    ⟨3, 1, .k 0 0⟩,
    ⟨3, 2, .k 0 0⟩,
    ⟨3, 5, .k 0 0⟩,
    ⟨4, 0, .k 0 0⟩,
    ⟨4, 1, .k 0 0⟩,
    ⟨4, 2, .k 0 0⟩,
    ⟨4, 5, .k 0 0⟩,
    ⟨5, 0, .k 0 0⟩,
    ⟨5, 1, .k 0 0⟩,
    ⟨5, 2, .k 0 0⟩,
    ⟨5, 3, .k 0 0⟩,
    ⟨5, 4, .k 0 0⟩,
    ⟨5, 5, .k 1 0⟩]
  upd := [⟨0, 0, .c 0⟩,
    ⟨0, 1, .neg (.s 0)⟩,
    ⟨1, 0, .s 0⟩,
    ⟨1, 1, .c 0⟩,
    ⟨3, 3, .c 0⟩,
    ⟨3, 4, .neg (.s 0)⟩,
    ⟨4, 3, .s 0⟩,
    ⟨4, 4, .c 0⟩]

/-- `ForceTransforms::Type_fr_body_X_fr_link1` (transforms.impl.h:778-808, 810-826). -/
def force_fr_body_X_fr_link1 : Gen where
  rows := 6
  cols := 6
  ctor := [⟨0, 2, .k 0 0⟩,
    ⟨0, 3, .k 0 0⟩,
    ⟨0, 4, .k 0 0⟩,
    ⟨0, 5, .k 0 0⟩,
    ⟨1, 2, .k 0 0⟩,
    ⟨1, 3, .k 0 0⟩,
    ⟨1, 4, .k 0 0⟩,
    ⟨1, 5, .k 0 0⟩,
    ⟨2, 0, .k 0 0⟩,
    ⟨2, 1, .k 0 0⟩,
    ⟨2, 2, .k 1 0⟩,
    ⟨2, 3, .k 0 0⟩,
    ⟨2, 4, .k 0 0⟩,
    ⟨2, 5, .k 0 0⟩,
    ⟨3, 0, .k 0 0⟩,
    ⟨3, 1, .k 0 0⟩,
    ⟨3, 2, .k 0 0⟩,
    ⟨3, 5, .k 0 0⟩,
    ⟨4, 0, .k 0 0⟩,
    ⟨4, 1, .k 0 0⟩,
    ⟨4, 2, .k 0 0⟩,
    ⟨4, 5, .k 0 0⟩,
    ⟨5, 0, .k 0 0⟩,
    ⟨5, 1, .k 0 0⟩,
    ⟨5, 2, .k 0 0⟩,
    ⟨5, 3, .k 0 0⟩,
    ⟨5, 4, .k 0 0⟩,
    ⟨5, 5, .k 1 0⟩]
  upd := [⟨0, 0, .c 0⟩,
    ⟨0, 1, .neg (.s 0)⟩,
    ⟨1, 0, .s 0⟩,
    ⟨1, 1, .c 0⟩,
    ⟨3, 3, .c 0⟩,
    ⟨3, 4, .neg (.s 0)⟩,
    ⟨4, 3, .s 0⟩,
    ⟨4, 4, .c 0⟩]

/-- The transforms `fr_body_X_fr_link1`. -/
def fr_body_X_fr_link1 : Trans := ⟨fr_body, fr_link1, hom_fr_body_X_fr_link1, motion_fr_body_X_fr_link1, force_fr_body_X_fr_link1⟩

/-- `HomogeneousTransforms::Type_fr_body_X_fr_link2` (transforms.impl.h:1507-1517, 1519-1539). -/
def hom_fr_body_X_fr_link2 : Gen where
  rows := 4
  cols := 4
  ctor := [⟨0, 3, .k 0 0⟩,
    ⟨1, 3, .k 0 0⟩,
    ⟨2, 2, .k 0 0⟩,
    ⟨2, 3, .neg (.k 1 1)⟩,
    ⟨3, 0, .k 0 0⟩,
    ⟨3, 1, .k 0 0⟩,
    ⟨3, 2, .k 0 0⟩,
    ⟨3, 3, .k 1 0⟩]
  upd := [⟨0, 0, (.c 0) ⊠ (.s 1)⟩,
    ⟨0, 1, (.c 0) ⊠ (.c 1)⟩,
    ⟨0, 2, .s 0⟩,
    ⟨1, 0, (.s 0) ⊠ (.s 1)⟩,
    ⟨1, 1, (.s 0) ⊠ (.c 1)⟩,
    ⟨1, 2, .neg (.c 0)⟩,
    ⟨2, 0, .neg (.c 1)⟩,
    ⟨2, 1, .s 1⟩]

/-- `MotionTransforms::Type_fr_body_X_fr_link2` (transforms.impl.h:129-145, 147-181). -/
def motion_fr_body_X_fr_link2 : Gen where
  rows := 6
  cols := 6
  ctor := [⟨0, 3, .k 0 0⟩,
    ⟨0, 4, .k 0 0⟩,
    ⟨0, 5, .k 0 0⟩,
    ⟨1, 3, .k 0 0⟩,
    ⟨1, 4, .k 0 0⟩,
    ⟨1, 5, .k 0 0⟩,
    ⟨2, 2, .k 0 0⟩,
    ⟨2, 3, .k 0 0⟩,
    ⟨2, 4, .k 0 0⟩,
    ⟨2, 5, .k 0 0⟩,
    ⟨5, 0, .k 0 0⟩,
    ⟨5, 1, .k 0 0⟩,
    ⟨5, 2, .k 0 0⟩,
    ⟨5, 5, .k 0 0⟩]
  upd := [⟨0, 0, (.c 0) ⊠ (.s 1)⟩,
    ⟨0, 1, (.c 0) ⊠ (.c 1)⟩,
    ⟨0, 2, .s 0⟩,
    ⟨1, 0, (.s 0) ⊠ (.s 1)⟩,
    ⟨1, 1, (.s 0) ⊠ (.c 1)⟩,
    ⟨1, 2, .neg (.c 0)⟩,
    ⟨2, 0, .neg (.c 1)⟩,
    ⟨2, 1, .s 1⟩,
    ⟨3, 0, ((.k 1 1) ⊠ (.s 0)) ⊠ (.s 1)⟩,
    ⟨3, 1, ((.k 1 1) ⊠ (.s 0)) ⊠ (.c 1)⟩,
    ⟨3, 2, (.neg (.k 1 1)) ⊠ (.c 0)⟩,
    ⟨3, 3, (.c 0) ⊠ (.s 1)⟩,
    ⟨3, 4, (.c 0) ⊠ (.c 1)⟩,
    ⟨3, 5, .s 0⟩,
    ⟨4, 0, ((.neg (.k 1 1)) ⊠ (.c 0)) ⊠ (.s 1)⟩,
    ⟨4, 1, ((.neg (.k 1 1)) ⊠ (.c 0)) ⊠ (.c 1)⟩,
    ⟨4, 2, (.neg (.k 1 1)) ⊠ (.s 0)⟩,
    ⟨4, 3, (.s 0) ⊠ (.s 1)⟩,
    ⟨4, 4, (.s 0) ⊠ (.c 1)⟩,
    ⟨4, 5, .neg (.c 0)⟩,
    ⟨5, 3, .neg (.c 1)⟩,
    ⟨5, 4, .s 1⟩]

/-- `ForceTransforms::Type_fr_body_X_fr_link2` (transforms.impl.h:828-844, 846-880). -/
def force_fr_body_X_fr_link2 : Gen where
  rows := 6
  cols := 6
  ctor := [⟨2, 2, .k 0 0⟩,
    ⟨2, 3, .k 0 0⟩,
    ⟨2, 4, .k 0 0⟩,
    ⟨2, 5, .k 0 0⟩,
    ⟨3, 0, .k 0 0⟩,
    ⟨3, 1, .k 0 0⟩,
    ⟨3, 2, .k 0 0⟩,
    ⟨4, 0, .k 0 0⟩,
    ⟨4, 1, .k 0 0⟩,
    ⟨4, 2, .k 0 0⟩,
    ⟨5, 0, .k 0 0⟩,
    ⟨5, 1, .k 0 0⟩,
    ⟨5, 2, .k 0 0⟩,
    ⟨5, 5, .k 0 0⟩]
  upd := [⟨0, 0, (.c 0) ⊠ (.s 1)⟩,
    ⟨0, 1, (.c 0) ⊠ (.c 1)⟩,
    ⟨0, 2, .s 0⟩,
    ⟨0, 3, ((.k 1 1) ⊠ (.s 0)) ⊠ (.s 1)⟩,
    ⟨0, 4, ((.k 1 1) ⊠ (.s 0)) ⊠ (.c 1)⟩,
    ⟨0, 5, (.neg (.k 1 1)) ⊠ (.c 0)⟩,
    ⟨1, 0, (.s 0) ⊠ (.s 1)⟩,
    ⟨1, 1, (.s 0) ⊠ (.c 1)⟩,
    ⟨1, 2, .neg (.c 0)⟩,
    ⟨1, 3, ((.neg (.k 1 1)) ⊠ (.c 0)) ⊠ (.s 1)⟩,
    ⟨1, 4, ((.neg (.k 1 1)) ⊠ (.c 0)) ⊠ (.c 1)⟩,
    ⟨1, 5, (.neg (.k 1 1)) ⊠ (.s 0)⟩,
    ⟨2, 0, .neg (.c 1)⟩,
    ⟨2, 1, .s 1⟩,
    ⟨3, 3, (.c 0) ⊠ (.s 1)⟩,
    ⟨3, 4, (.c 0) ⊠ (.c 1)⟩,
    ⟨3, 5, .s 0⟩,
    ⟨4, 3, (.s 0) ⊠ (.s 1)⟩,
    ⟨4, 4, (.s 0) ⊠ (.c 1)⟩,
    ⟨4, 5, .neg (.c 0)⟩,
    ⟨5, 3, .neg (.c 1)⟩,
    ⟨5, 4, .s 1⟩]

/-- The transforms `fr_body_X_fr_link2`. -/
def fr_body_X_fr_link2 : Trans := ⟨fr_body, fr_link2, hom_fr_body_X_fr_link2, motion_fr_body_X_fr_link2, force_fr_body_X_fr_link2⟩

/-- `HomogeneousTransforms::Type_fr_body_X_fr_ee` (transforms.impl.h:1541-1548, 1550-1573). -/
def hom_fr_body_X_fr_ee : Gen where
  rows := 4
  cols := 4
  ctor := [⟨2, 2, .k 0 0⟩,
    ⟨3, 0, .k 0 0⟩,
    ⟨3, 1, .k 0 0⟩,
    ⟨3, 2, .k 0 0⟩,
    ⟨3, 3, .k 1 0⟩]
  upd := [⟨0, 0, (.c 0) ⊠ (.s 1)⟩,
    ⟨0, 1, (.c 0) ⊠ (.c 1)⟩,
    ⟨0, 2, .s 0⟩,
    ⟨0, 3, ((.k 7 1) ⊠ (.c 0)) ⊠ (.s 1)⟩,
    ⟨1, 0, (.s 0) ⊠ (.s 1)⟩,
    ⟨1, 1, (.s 0) ⊠ (.c 1)⟩,
    ⟨1, 2, .neg (.c 0)⟩,
    ⟨1, 3, ((.k 7 1) ⊠ (.s 0)) ⊠ (.s 1)⟩,
    ⟨2, 0, .neg (.c 1)⟩,
    ⟨2, 1, .s 1⟩,
    ⟨2, 3, ((.neg (.k 7 1)) ⊠ (.c 1)) ⊟ (.k 1 1)⟩]

/-- `MotionTransforms::Type_fr_body_X_fr_ee` (transforms.impl.h:183-198, 200-235). -/
def motion_fr_body_X_fr_ee : Gen where
  rows := 6
  cols := 6
  ctor := [⟨0, 3, .k 0 0⟩,
    ⟨0, 4, .k 0 0⟩,
    ⟨0, 5, .k 0 0⟩,
    ⟨1, 3, .k 0 0⟩,
    ⟨1, 4, .k 0 0⟩,
    ⟨1, 5, .k 0 0⟩,
    ⟨2, 2, .k 0 0⟩,
    ⟨2, 3, .k 0 0⟩,
    ⟨2, 4, .k 0 0⟩,
    ⟨2, 5, .k 0 0⟩,
    ⟨5, 0, .k 0 0⟩,
    ⟨5, 1, .k 0 0⟩,
    ⟨5, 5, .k 0 0⟩]
  upd := [⟨0, 0, (.c 0) ⊠ (.s 1)⟩,
    ⟨0, 1, (.c 0) ⊠ (.c 1)⟩,
    ⟨0, 2, .s 0⟩,
    ⟨1, 0, (.s 0) ⊠ (.s 1)⟩,
    ⟨1, 1, (.s 0) ⊠ (.c 1)⟩,
    ⟨1, 2, .neg (.c 0)⟩,
    ⟨2, 0, .neg (.c 1)⟩,
    ⟨2, 1, .s 1⟩,
    ⟨3, 0, ((.k 1 1) ⊠ (.s 0)) ⊠ (.s 1)⟩,
    ⟨3, 1, (((.k 1 1) ⊠ (.s 0)) ⊠ (.c 1)) ⊞ ((.k 7 1) ⊠ (.s 0))⟩,
    ⟨3, 2, (((.neg (.k 7 1)) ⊠ (.c 0)) ⊠ (.c 1)) ⊟ ((.k 1 1) ⊠ (.c 0))⟩,
    ⟨3, 3, (.c 0) ⊠ (.s 1)⟩,
    ⟨3, 4, (.c 0) ⊠ (.c 1)⟩,
    ⟨3, 5, .s 0⟩,
    ⟨4, 0, ((.neg (.k 1 1)) ⊠ (.c 0)) ⊠ (.s 1)⟩,
    ⟨4, 1, (((.neg (.k 1 1)) ⊠ (.c 0)) ⊠ (.c 1)) ⊟ ((.k 7 1) ⊠ (.c 0))⟩,
    ⟨4, 2, (((.neg (.k 7 1)) ⊠ (.s 0)) ⊠ (.c 1)) ⊟ ((.k 1 1) ⊠ (.s 0))⟩,
    ⟨4, 3, (.s 0) ⊠ (.s 1)⟩,
    ⟨4, 4, (.s 0) ⊠ (.c 1)⟩,
    ⟨4, 5, .neg (.c 0)⟩,
    ⟨5, 2, (.neg (.k 7 1)) ⊠ (.s 1)⟩,
    ⟨5, 3, .neg (.c 1)⟩,
    ⟨5, 4, .s 1⟩]

/-- `ForceTransforms::Type_fr_body_X_fr_ee` (transforms.impl.h:882-897, 899-934). -/
def force_fr_body_X_fr_ee : Gen where
  rows := 6
  cols := 6
  ctor := [⟨2, 2, .k 0 0⟩,
    ⟨2, 3, .k 0 0⟩,
    ⟨2, 4, .k 0 0⟩,
    ⟨3, 0, .k 0 0⟩,
    ⟨3, 1, .k 0 0⟩,
    ⟨3, 2, .k 0 0⟩,
    ⟨4, 0, .k 0 0⟩,
    ⟨4, 1, .k 0 0⟩,
    ⟨4, 2, .k 0 0⟩,
    ⟨5, 0, .k 0 0⟩,
    ⟨5, 1, .k 0 0⟩,
    ⟨5, 2, .k 0 0⟩,
    ⟨5, 5, .k 0 0⟩]
  upd := [⟨0, 0, (.c 0) ⊠ (.s 1)⟩,
    ⟨0, 1, (.c 0) ⊠ (.c 1)⟩,
    ⟨0, 2, .s 0⟩,
    ⟨0, 3, ((.k 1 1) ⊠ (.s 0)) ⊠ (.s 1)⟩,
    ⟨0, 4, (((.k 1 1) ⊠ (.s 0)) ⊠ (.c 1)) ⊞ ((.k 7 1) ⊠ (.s 0))⟩,
    ⟨0, 5, (((.neg (.k 7 1)) ⊠ (.c 0)) ⊠ (.c 1)) ⊟ ((.k 1 1) ⊠ (.c 0))⟩,
    ⟨1, 0, (.s 0) ⊠ (.s 1)⟩,
    ⟨1, 1, (.s 0) ⊠ (.c 1)⟩,
    ⟨1, 2, .neg (.c 0)⟩,
    ⟨1, 3, ((.neg (.k 1 1)) ⊠ (.c 0)) ⊠ (.s 1)⟩,
    ⟨1, 4, (((.neg (.k 1 1)) ⊠ (.c 0)) ⊠ (.c 1)) ⊟ ((.k 7 1) ⊠ (.c 0))⟩,
    ⟨1, 5, (((.neg (.k 7 1)) ⊠ (.s 0)) ⊠ (.c 1)) ⊟ ((.k 1 1) ⊠ (.s 0))⟩,
    ⟨2, 0, .neg (.c 1)⟩,
    ⟨2, 1, .s 1⟩,
    ⟨2, 5, (.neg (.k 7 1)) ⊠ (.s 1)⟩,
    ⟨3, 3, (.c 0) ⊠ (.s 1)⟩,
    ⟨3, 4, (.c 0) ⊠ (.c 1)⟩,
    ⟨3, 5, .s 0⟩,
    ⟨4, 3, (.s 0) ⊠ (.s 1)⟩,
    ⟨4, 4, (.s 0) ⊠ (.c 1)⟩,
    ⟨4, 5, .neg (.c 0)⟩,
    ⟨5, 3, .neg (.c 1)⟩,
    ⟨5, 4, .s 1⟩]

/-- The transforms `fr_body_X_fr_ee`. -/
def fr_body_X_fr_ee : Trans := ⟨fr_body, fr_ee, hom_fr_body_X_fr_ee, motion_fr_body_X_fr_ee, force_fr_body_X_fr_ee⟩

/-- `HomogeneousTransforms::Type_fr_body_X_fr_com0` (transforms.impl.h:1575-1593, 1595-1597). -/
def hom_fr_body_X_fr_com0 : Gen where
  rows := 4
  cols := 4
  ctor := [⟨0, 0, .k 1 0⟩,
    ⟨0, 1, .k 0 0⟩,
    ⟨0, 2, .k 0 0⟩,
    ⟨0, 3, .k 0 0⟩,
    ⟨1, 0, .k 0 0⟩,
    ⟨1, 1, .k 1 0⟩,
    ⟨1, 2, .k 0 0⟩,
    ⟨1, 3, .k 0 0⟩,
    ⟨2, 0, .k 0 0⟩,
    ⟨2, 1, .k 0 0⟩,
    ⟨2, 2, .k 1 0⟩,
    ⟨2, 3, .k 0 0⟩,
    ⟨3, 0, .k 0 0⟩,
    ⟨3, 1, .k 0 0⟩,
    ⟨3, 2, .k 0 0⟩,
    ⟨3, 3, .k 1 0⟩]
  upd := []

/-- `MotionTransforms::Type_fr_body_X_fr_com0` (transforms.impl.h:237-275, 277-279). -/
def motion_fr_body_X_fr_com0 : Gen where
  rows := 6
  cols := 6
  ctor := [⟨0, 0, .k 1 0⟩,
    ⟨0, 1, .k 0 0⟩,
    ⟨0, 2, .k 0 0⟩,
    ⟨0, 3, .k 0 0⟩,
    ⟨0, 4, .k 0 0⟩,
    ⟨0, 5, .k 0 0⟩,
    ⟨1, 0, .k 0 0⟩,
    ⟨1, 1, .k 1 0⟩,
    ⟨1, 2, .k 0 0⟩,
    ⟨1, 3, .k 0 0⟩,
    ⟨1, 4, .k 0 0⟩,
    ⟨1, 5, .k 0 0⟩,
    ⟨2, 0, .k 0 0⟩,
    ⟨2, 1, .k 0 0⟩,
    ⟨2, 2, .k 1 0⟩,
    ⟨2, 3, .k 0 0⟩,
    ⟨2, 4, .k 0 0⟩,
    ⟨2, 5, .k 0 0⟩,
    ⟨3, 0, .k 0 0⟩,
    ⟨3, 1, .k 0 0⟩,
    ⟨3, 2, .k 0 0⟩,
    ⟨3, 3, .k 1 0⟩,
    ⟨3, 4, .k 0 0⟩,
    ⟨3, 5, .k 0 0⟩,
    ⟨4, 0, .k 0 0⟩,
    ⟨4, 1, .k 0 0⟩,
    ⟨4, 2, .k 0 0⟩,
    ⟨4, 3, .k 0 0⟩,
    ⟨4, 4, .k 1 0⟩,
    ⟨4, 5, .k 0 0⟩,
    ⟨5, 0, .k 0 0⟩,
    ⟨5, 1, .k 0 0⟩,
    ⟨5, 2, .k 0 0⟩,
    ⟨5, 3, .k 0 0⟩,
    ⟨5, 4, .k 0 0⟩,
    ⟨5, 5, .k 1 0⟩]
  upd := []

/-- `ForceTransforms::Type_fr_body_X_fr_com0` (transforms.impl.h:936-974, 976-978). -/
def force_fr_body_X_fr_com0 : Gen where
  rows := 6
  cols := 6
  ctor := [⟨0, 0, .k 1 0⟩,
    ⟨0, 1, .k 0 0⟩,
    ⟨0, 2, .k 0 0⟩,
    ⟨0, 3, .k 0 0⟩,
    ⟨0, 4, .k 0 0⟩,
    ⟨0, 5, .k 0 0⟩,
    ⟨1, 0, .k 0 0⟩,
    ⟨1, 1, .k 1 0⟩,
    ⟨1, 2, .k 0 0⟩,
    ⟨1, 3, .k 0 0⟩,
    ⟨1, 4, .k 0 0⟩,
    ⟨1, 5, .k 0 0⟩,
    ⟨2, 0, .k 0 0⟩,
    ⟨2, 1, .k 0 0⟩,
    ⟨2, 2, .k 1 0⟩,
    ⟨2, 3, .k 0 0⟩,
    ⟨2, 4, .k 0 0⟩,
    ⟨2, 5, .k 0 0⟩,
    ⟨3, 0, .k 0 0⟩,
    ⟨3, 1, .k 0 0⟩,
    ⟨3, 2, .k 0 0⟩,
    ⟨3, 3, .k 1 0⟩,
    ⟨3, 4, .k 0 0⟩,
    ⟨3, 5, .k 0 0⟩,
    ⟨4, 0, .k 0 0⟩,
    ⟨4, 1, .k 0 0⟩,
    ⟨4, 2, .k 0 0⟩,
    ⟨4, 3, .k 0 0⟩,
    ⟨4, 4, .k 1 0⟩,
    ⟨4, 5, .k 0 0⟩,
    ⟨5, 0, .k 0 0⟩,
    ⟨5, 1, .k 0 0⟩,
    ⟨5, 2, .k 0 0⟩,
    ⟨5, 3, .k 0 0⟩,
    ⟨5, 4, .k 0 0⟩,
    ⟨5, 5, .k 1 0⟩]
  upd := []

/-- The transforms `fr_body_X_fr_com0`. -/
def fr_body_X_fr_com0 : Trans := ⟨fr_body, fr_com0, hom_fr_body_X_fr_com0, motion_fr_body_X_fr_com0, force_fr_body_X_fr_com0⟩

/-- `HomogeneousTransforms::Type_fr_body_X_fr_com1` (transforms.impl.h:1599-1613, 1615-1627). -/
def hom_fr_body_X_fr_com1 : Gen where
  rows := 4
  cols := 4
  ctor := [⟨0, 2, .k 0 0⟩,
    ⟨0, 3, .k 0 0⟩,
    ⟨1, 2, .k 0 0⟩,
    ⟨1, 3, .k 0 0⟩,
    ⟨2, 0, .k 0 0⟩,
    ⟨2, 1, .k 0 0⟩,
    ⟨2, 2, .k 1 0⟩,
    ⟨2, 3, .neg (.k 5 2)⟩,
    ⟨3, 0, .k 0 0⟩,
    ⟨3, 1, .k 0 0⟩,
    ⟨3, 2, .k 0 0⟩,
    ⟨3, 3, .k 1 0⟩]
  upd := [⟨0, 0, .c 0⟩,
    ⟨0, 1, .neg (.s 0)⟩,
    ⟨1, 0, .s 0⟩,
    ⟨1, 1, .c 0⟩]

/-- `MotionTransforms::Type_fr_body_X_fr_com1` (transforms.impl.h:281-307, 309-329). -/
def motion_fr_body_X_fr_com1 : Gen where
  rows := 6
  cols := 6
  ctor := [⟨0, 2, .k 0 0⟩,
    ⟨0, 3, .k 0 0⟩,
    ⟨0, 4, .k 0 0⟩,
    ⟨0, 5, .k 0 0⟩,
    ⟨1, 2, .k 0 0⟩,
    ⟨1, 3, .k 0 0⟩,
    ⟨1, 4, .k 0 0⟩,
    ⟨1, 5, .k 0 0⟩,
    ⟨2, 0, .k 0 0⟩,
    ⟨2, 1, .k 0 0⟩,
    ⟨2, 2, .k 1 0⟩,
    ⟨2, 3, .k 0 0⟩,
    ⟨2, 4, .k 0 0⟩,
    ⟨2, 5, .k 0 0⟩,
    ⟨3, 2, .k 0 0⟩,
    ⟨3, 5, .k 0 0⟩,
    ⟨4, 2, .k 0 0⟩,
    ⟨4, 5, .k 0 0⟩,
    ⟨5, 0, .k 0 0⟩,
    ⟨5, 1, .k 0 0⟩,
    ⟨5, 2, .k 0 0⟩,
    ⟨5, 3, .k 0 0⟩,
    ⟨5, 4, .k 0 0⟩,
    ⟨5, 5, .k 1 0⟩]
  upd := [⟨0, 0, .c 0⟩,
    ⟨0, 1, .neg (.s 0)⟩,
    ⟨1, 0, .s 0⟩,
    ⟨1, 1, .c 0⟩,
    ⟨3, 0, (.k 5 2) ⊠ (.s 0)⟩,
    ⟨3, 1, (.k 5 2) ⊠ (.c 0)⟩,
    ⟨3, 3, .c 0⟩,
    ⟨3, 4, .neg (.s 0)⟩,
    ⟨4, 0, (.neg (.k 5 2)) ⊠ (.c 0)⟩,
    ⟨4, 1, (.k 5 2) ⊠ (.s 0)⟩,
    ⟨4, 3, .s 0⟩,
    ⟨4, 4, .c 0⟩]

/-- `ForceTransforms::Type_fr_body_X_fr_com1` (transforms.impl.h:980-1006, 1008-1028). -/
def force_fr_body_X_fr_com1 : Gen where
  rows := 6
  cols := 6
  ctor := [⟨0, 2, .k 0 0⟩,
    ⟨0, 5, .k 0 0⟩,
    ⟨1, 2, .k 0 0⟩,
    ⟨1, 5, .k 0 0⟩,
    ⟨2, 0, .k 0 0⟩,
    ⟨2, 1, .k 0 0⟩,
    ⟨2, 2, .k 1 0⟩,
    ⟨2, 3, .k 0 0⟩,
    ⟨2, 4, .k 0 0⟩,
    ⟨2, 5, .k 0 0⟩,
    ⟨3, 0, .k 0 0⟩,
    ⟨3, 1, .k 0 0⟩,
    ⟨3, 2, .k 0 0⟩,
    ⟨3, 5, .k 0 0⟩,
    ⟨4, 0, .k 0 0⟩,
    ⟨4, 1, .k 0 0⟩,
    ⟨4, 2, .k 0 0⟩,
    ⟨4, 5, .k 0 0⟩,
    ⟨5, 0, .k 0 0⟩,
    ⟨5, 1, .k 0 0⟩,
    ⟨5, 2, .k 0 0⟩,
    ⟨5, 3, .k 0 0⟩,
    ⟨5, 4, .k 0 0⟩,
    ⟨5, 5, .k 1 0⟩]
  upd := [⟨0, 0, .c 0⟩,
    ⟨0, 1, .neg (.s 0)⟩,
    ⟨0, 3, (.k 5 2) ⊠ (.s 0)⟩,
    ⟨0, 4, (.k 5 2) ⊠ (.c 0)⟩,
    ⟨1, 0, .s 0⟩,
    ⟨1, 1, .c 0⟩,
    ⟨1, 3, (.neg (.k 5 2)) ⊠ (.c 0)⟩,
    ⟨1, 4, (.k 5 2) ⊠ (.s 0)⟩,
    ⟨3, 3, .c 0⟩,
    ⟨3, 4, .neg (.s 0)⟩,
    ⟨4, 3, .s 0⟩,
    ⟨4, 4, .c 0⟩]

/-- The transforms `fr_body_X_fr_com1`. -/
def fr_body_X_fr_com1 : Trans := ⟨fr_body, fr_com1, hom_fr_body_X_fr_com1, motion_fr_body_X_fr_com1, force_fr_body_X_fr_com1⟩

/-- `HomogeneousTransforms::Type_fr_link1_X_fr_body` (transforms.impl.h:1629-1643, 1645-1657). -/
def hom_fr_link1_X_fr_body : Gen where
  rows := 4
  cols := 4
  ctor := [⟨0, 2, .k 0 0⟩,
    ⟨0, 3, .k 0 0⟩,
    ⟨1, 2, .k 0 0⟩,
    ⟨1, 3, .k 0 0⟩,
    ⟨2, 0, .k 0 0⟩,
    ⟨2, 1, .k 0 0⟩,
    ⟨2, 2, .k 1 0⟩,
    ⟨2, 3, .k 0 0⟩,
    ⟨3, 0, .k 0 0⟩,
    ⟨3, 1, .k 0 0⟩,
    ⟨3, 2, .k 0 0⟩,
    ⟨3, 3, .k 1 0⟩]
  upd := [⟨0, 0, .c 0⟩,
    ⟨0, 1, .s 0⟩,
    ⟨1, 0, .neg (.s 0)⟩,
    ⟨1, 1, .c 0⟩]

/-- `MotionTransforms::Type_fr_link1_X_fr_body` (transforms.impl.h:331-361, 363-379). -/
def motion_fr_link1_X_fr_body : Gen where
  rows := 6
  cols := 6
  ctor := [⟨0, 2, .k 0 0⟩,
    ⟨0, 3, .k 0 0⟩,
    ⟨0, 4, .k 0 0⟩,
    ⟨0, 5, .k 0 0⟩,
    ⟨1, 2, .k 0 0⟩,
    ⟨1, 3, .k 0 0⟩,
    ⟨1, 4, .k 0 0⟩,
    ⟨1, 5, .k 0 0⟩,
    ⟨2, 0, .k 0 0⟩,
    ⟨2, 1, .k 0 0⟩,
    ⟨2, 2, .k 1 0⟩,
    ⟨2, 3, .k 0 0⟩,
    ⟨2, 4, .k 0 0⟩,
    ⟨2, 5, .k 0 0⟩,
    ⟨3, 0, .k 0 0⟩,
    ⟨3, 1, .k 0 0⟩,
    ⟨3, 2, .k 0 0⟩,
    ⟨3, 5, .k 0 0⟩,
    ⟨4, 0, .k 0 0⟩,
    ⟨4, 1, .k 0 0⟩,
    ⟨4, 2, .k 0 0⟩,
    ⟨4, 5, .k 0 0⟩,
    ⟨5, 0, .k 0 0⟩,
    ⟨5, 1, .k 0 0⟩,
    ⟨5, 2, .k 0 0⟩,
    ⟨5, 3, .k 0 0⟩,
    ⟨5, 4, .k 0 0⟩,
    ⟨5, 5, .k 1 0⟩]
  upd := [⟨0, 0, .c 0⟩,
    ⟨0, 1, .s 0⟩,
    ⟨1, 0, .neg (.s 0)⟩,
    ⟨1, 1, .c 0⟩,
    ⟨3, 3, .c 0⟩,
    ⟨3, 4, .s 0⟩,
    ⟨4, 3, .neg (.s 0)⟩,
    ⟨4, 4, .c 0⟩]

/-- `ForceTransforms::Type_fr_link1_X_fr_body` (transforms.impl.h:1030-1060, 1062-1078). -/
def force_fr_link1_X_fr_body : Gen where
  rows := 6
  cols := 6
  ctor := [⟨0, 2, .k 0 0⟩,
    ⟨0, 3, .k 0 0⟩,
    ⟨0, 4, .k 0 0⟩,
    ⟨0, 5, .k 0 0⟩,
    ⟨1, 2, .k 0 0⟩,
    ⟨1, 3, .k 0 0⟩,
    ⟨1, 4, .k 0 0⟩,
    ⟨1, 5, .k 0 0⟩,
    ⟨2, 0, .k 0 0⟩,
    ⟨2, 1, .k 0 0⟩,
    ⟨2, 2, .k 1 0⟩,
    ⟨2, 3, .k 0 0⟩,
    ⟨2, 4, .k 0 0⟩,
    ⟨2, 5, .k 0 0⟩,
    ⟨3, 0, .k 0 0⟩,
    ⟨3, 1, .k 0 0⟩,
    ⟨3, 2, .k 0 0⟩,
    ⟨3, 5, .k 0 0⟩,
    ⟨4, 0, .k 0 0⟩,
    ⟨4, 1, .k 0 0⟩,
    ⟨4, 2, .k 0 0⟩,
    ⟨4, 5, .k 0 0⟩,
    ⟨5, 0, .k 0 0⟩,
    ⟨5, 1, .k 0 0⟩,
    ⟨5, 2, .k 0 0⟩,
    ⟨5, 3, .k 0 0⟩,
    ⟨5, 4, .k 0 0⟩,
    ⟨5, 5, .k 1 0⟩]
  upd := [⟨0, 0, .c 0⟩,
    ⟨0, 1, .s 0⟩,
    ⟨1, 0, .neg (.s 0)⟩,
    ⟨1, 1, .c 0⟩,
    ⟨3, 3, .c 0⟩,
    ⟨3, 4, .s 0⟩,
    ⟨4, 3, .neg (.s 0)⟩,
    ⟨4, 4, .c 0⟩]

/-- The transforms `fr_link1_X_fr_body`. -/
def fr_link1_X_fr_body : Trans := ⟨fr_link1, fr_body, hom_fr_link1_X_fr_body, motion_fr_link1_X_fr_body, force_fr_link1_X_fr_body⟩

/-- `HomogeneousTransforms::Type_fr_link2_X_fr_body` (transforms.impl.h:1659-1667, 1669-1691). -/
def hom_fr_link2_X_fr_body : Gen where
  rows := 4
  cols := 4
  ctor := [⟨2, 2, .k 0 0⟩,
    ⟨2, 3, .k 0 0⟩,
    ⟨3, 0, .k 0 0⟩,
    ⟨3, 1, .k 0 0⟩,
    ⟨3, 2, .k 0 0⟩,
    ⟨3, 3, .k 1 0⟩]
  upd := [⟨0, 0, (.c 0) ⊠ (.s 1)⟩,
    ⟨0, 1, (.s 0) ⊠ (.s 1)⟩,
    ⟨0, 2, .neg (.c 1)⟩,
    ⟨0, 3, (.neg (.k 1 1)) ⊠ (.c 1)⟩,
    ⟨1, 0, (.c 0) ⊠ (.c 1)⟩,
    ⟨1, 1, (.s 0) ⊠ (.c 1)⟩,
    ⟨1, 2, .s 1⟩,
    ⟨1, 3, (.k 1 1) ⊠ (.s 1)⟩,
    ⟨2, 0, .s 0⟩,
    ⟨2, 1, .neg (.c 0)⟩]

/-- `MotionTransforms::Type_fr_link2_X_fr_body` (transforms.impl.h:381-397, 399-433). -/
def motion_fr_link2_X_fr_body : Gen where
  rows := 6
  cols := 6
  ctor := [⟨0, 3, .k 0 0⟩,
    ⟨0, 4, .k 0 0⟩,
    ⟨0, 5, .k 0 0⟩,
    ⟨1, 3, .k 0 0⟩,
    ⟨1, 4, .k 0 0⟩,
    ⟨1, 5, .k 0 0⟩,
    ⟨2, 2, .k 0 0⟩,
    ⟨2, 3, .k 0 0⟩,
    ⟨2, 4, .k 0 0⟩,
    ⟨2, 5, .k 0 0⟩,
    ⟨3, 2, .k 0 0⟩,
    ⟨4, 2, .k 0 0⟩,
    ⟨5, 2, .k 0 0⟩,
    ⟨5, 5, .k 0 0⟩]
  upd := [⟨0, 0, (.c 0) ⊠ (.s 1)⟩,
    ⟨0, 1, (.s 0) ⊠ (.s 1)⟩,
    ⟨0, 2, .neg (.c 1)⟩,
    ⟨1, 0, (.c 0) ⊠ (.c 1)⟩,
    ⟨1, 1, (.s 0) ⊠ (.c 1)⟩,
    ⟨1, 2, .s 1⟩,
    ⟨2, 0, .s 0⟩,
    ⟨2, 1, .neg (.c 0)⟩,
    ⟨3, 0, ((.k 1 1) ⊠ (.s 0)) ⊠ (.s 1)⟩,
    ⟨3, 1, ((.neg (.k 1 1)) ⊠ (.c 0)) ⊠ (.s 1)⟩,
    ⟨3, 3, (.c 0) ⊠ (.s 1)⟩,
    ⟨3, 4, (.s 0) ⊠ (.s 1)⟩,
    ⟨3, 5, .neg (.c 1)⟩,
    ⟨4, 0, ((.k 1 1) ⊠ (.s 0)) ⊠ (.c 1)⟩,
    ⟨4, 1, ((.neg (.k 1 1)) ⊠ (.c 0)) ⊠ (.c 1)⟩,
    ⟨4, 3, (.c 0) ⊠ (.c 1)⟩,
    ⟨4, 4, (.s 0) ⊠ (.c 1)⟩,
    ⟨4, 5, .s 1⟩,
    ⟨5, 0, (.neg (.k 1 1)) ⊠ (.c 0)⟩,
    ⟨5, 1, (.neg (.k 1 1)) ⊠ (.s 0)⟩,
    ⟨5, 3, .s 0⟩,
    ⟨5, 4, .neg (.c 0)⟩]

/-- `ForceTransforms::Type_fr_link2_X_fr_body` (transforms.impl.h:1080-1096, 1098-1132). -/
def force_fr_link2_X_fr_body : Gen where
  rows := 6
  cols := 6
  ctor := [⟨0, 5, .k 0 0⟩,
    ⟨1, 5, .k 0 0⟩,
    ⟨2, 2, .k 0 0⟩,
    ⟨2, 5, .k 0 0⟩,
    ⟨3, 0, .k 0 0⟩,
    ⟨3, 1, .k 0 0⟩,
    ⟨3, 2, .k 0 0⟩,
    ⟨4, 0, .k 0 0⟩,
    ⟨4, 1, .k 0 0⟩,
    ⟨4, 2, .k 0 0⟩,
    ⟨5, 0, .k 0 0⟩,
    ⟨5, 1, .k 0 0⟩,
    ⟨5, 2, .k 0 0⟩,
    ⟨5, 5, .k 0 0⟩]
  upd := [⟨0, 0, (.c 0) ⊠ (.s 1)⟩,
    ⟨0, 1, (.s 0) ⊠ (.s 1)⟩,
    ⟨0, 2, .neg (.c 1)⟩,
    ⟨0, 3, ((.k 1 1) ⊠ (.s 0)) ⊠ (.s 1)⟩,
    ⟨0, 4, ((.neg (.k 1 1)) ⊠ (.c 0)) ⊠ (.s 1)⟩,
    ⟨1, 0, (.c 0) ⊠ (.c 1)⟩,
    ⟨1, 1, (.s 0) ⊠ (.c 1)⟩,
    ⟨1, 2, .s 1⟩,
    ⟨1, 3, ((.k 1 1) ⊠ (.s 0)) ⊠ (.c 1)⟩,
    ⟨1, 4, ((.neg (.k 1 1)) ⊠ (.c 0)) ⊠ (.c 1)⟩,
    ⟨2, 0, .s 0⟩,
    ⟨2, 1, .neg (.c 0)⟩,
    ⟨2, 3, (.neg (.k 1 1)) ⊠ (.c 0)⟩,
    ⟨2, 4, (.neg (.k 1 1)) ⊠ (.s 0)⟩,
    ⟨3, 3, (.c 0) ⊠ (.s 1)⟩,
    ⟨3, 4, (.s 0) ⊠ (.s 1)⟩,
    ⟨3, 5, .neg (.c 1)⟩,
    ⟨4, 3, (.c 0) ⊠ (.c 1)⟩,
    ⟨4, 4, (.s 0) ⊠ (.c 1)⟩,
    ⟨4, 5, .s 1⟩,
    ⟨5, 3, .s 0⟩,
    ⟨5, 4, .neg (.c 0)⟩]

/-- The transforms `fr_link2_X_fr_body`. -/
def fr_link2_X_fr_body : Trans := ⟨fr_link2, fr_body, hom_fr_link2_X_fr_body, motion_fr_link2_X_fr_body, force_fr_link2_X_fr_body⟩

/-- `HomogeneousTransforms::Type_fr_ee_X_fr_body` (transforms.impl.h:1693-1701, 1703-1725). -/
def hom_fr_ee_X_fr_body : Gen where
  rows := 4
  cols := 4
  ctor := [⟨2, 2, .k 0 0⟩,
    ⟨2, 3, .k 0 0⟩,
    ⟨3, 0, .k 0 0⟩,
    ⟨3, 1, .k 0 0⟩,
    ⟨3, 2, .k 0 0⟩,
    ⟨3, 3, .k 1 0⟩]
  upd := [⟨0, 0, (.c 0) ⊠ (.s 1)⟩,
    ⟨0, 1, (.s 0) ⊠ (.s 1)⟩,
    ⟨0, 2, .neg (.c 1)⟩,
    ⟨0, 3, ((.neg (.k 1 1)) ⊠ (.c 1)) ⊟ (.k 7 1)⟩,
    ⟨1, 0, (.c 0) ⊠ (.c 1)⟩,
    ⟨1, 1, (.s 0) ⊠ (.c 1)⟩,
    ⟨1, 2, .s 1⟩,
    ⟨1, 3, (.k 1 1) ⊠ (.s 1)⟩,
    ⟨2, 0, .s 0⟩,
    ⟨2, 1, .neg (.c 0)⟩]

/-- `MotionTransforms::Type_fr_ee_X_fr_body` (transforms.impl.h:435-450, 452-487). -/
def motion_fr_ee_X_fr_body : Gen where
  rows := 6
  cols := 6
  ctor := [⟨0, 3, .k 0 0⟩,
    ⟨0, 4, .k 0 0⟩,
    ⟨0, 5, .k 0 0⟩,
    ⟨1, 3, .k 0 0⟩,
    ⟨1, 4, .k 0 0⟩,
    ⟨1, 5, .k 0 0⟩,
    ⟨2, 2, .k 0 0⟩,
    ⟨2, 3, .k 0 0⟩,
    ⟨2, 4, .k 0 0⟩,
    ⟨2, 5, .k 0 0⟩,
    ⟨3, 2, .k 0 0⟩,
    ⟨4, 2, .k 0 0⟩,
    ⟨5, 5, .k 0 0⟩]
  upd := [⟨0, 0, (.c 0) ⊠ (.s 1)⟩,
    ⟨0, 1, (.s 0) ⊠ (.s 1)⟩,
    ⟨0, 2, .neg (.c 1)⟩,
    ⟨1, 0, (.c 0) ⊠ (.c 1)⟩,
    ⟨1, 1, (.s 0) ⊠ (.c 1)⟩,
    ⟨1, 2, .s 1⟩,
    ⟨2, 0, .s 0⟩,
    ⟨2, 1, .neg (.c 0)⟩,
    ⟨3, 0, ((.k 1 1) ⊠ (.s 0)) ⊠ (.s 1)⟩,
    ⟨3, 1, ((.neg (.k 1 1)) ⊠ (.c 0)) ⊠ (.s 1)⟩,
    ⟨3, 3, (.c 0) ⊠ (.s 1)⟩,
    ⟨3, 4, (.s 0) ⊠ (.s 1)⟩,
    ⟨3, 5, .neg (.c 1)⟩,
    ⟨4, 0, (((.k 1 1) ⊠ (.s 0)) ⊠ (.c 1)) ⊞ ((.k 7 1) ⊠ (.s 0))⟩,
    ⟨4, 1, (((.neg (.k 1 1)) ⊠ (.c 0)) ⊠ (.c 1)) ⊟ ((.k 7 1) ⊠ (.c 0))⟩,
    ⟨4, 3, (.c 0) ⊠ (.c 1)⟩,
    ⟨4, 4, (.s 0) ⊠ (.c 1)⟩,
    ⟨4, 5, .s 1⟩,
    ⟨5, 0, (((.neg (.k 7 1)) ⊠ (.c 0)) ⊠ (.c 1)) ⊟ ((.k 1 1) ⊠ (.c 0))⟩,
    ⟨5, 1, (((.neg (.k 7 1)) ⊠ (.s 0)) ⊠ (.c 1)) ⊟ ((.k 1 1) ⊠ (.s 0))⟩,
    ⟨5, 2, (.neg (.k 7 1)) ⊠ (.s 1)⟩,
    ⟨5, 3, .s 0⟩,
    ⟨5, 4, .neg (.c 0)⟩]

/-- `ForceTransforms::Type_fr_ee_X_fr_body` (transforms.impl.h:1134-1149, 1151-1186). -/
def force_fr_ee_X_fr_body : Gen where
  rows := 6
  cols := 6
  ctor := [⟨0, 5, .k 0 0⟩,
    ⟨1, 5, .k 0 0⟩,
    ⟨2, 2, .k 0 0⟩,
    ⟨3, 0, .k 0 0⟩,
    ⟨3, 1, .k 0 0⟩,
    ⟨3, 2, .k 0 0⟩,
    ⟨4, 0, .k 0 0⟩,
    ⟨4, 1, .k 0 0⟩,
    ⟨4, 2, .k 0 0⟩,
    ⟨5, 0, .k 0 0⟩,
    ⟨5, 1, .k 0 0⟩,
    ⟨5, 2, .k 0 0⟩,
    ⟨5, 5, .k 0 0⟩]
  upd := [⟨0, 0, (.c 0) ⊠ (.s 1)⟩,
    ⟨0, 1, (.s 0) ⊠ (.s 1)⟩,
    ⟨0, 2, .neg (.c 1)⟩,
    ⟨0, 3, ((.k 1 1) ⊠ (.s 0)) ⊠ (.s 1)⟩,
    ⟨0, 4, ((.neg (.k 1 1)) ⊠ (.c 0)) ⊠ (.s 1)⟩,
    ⟨1, 0, (.c 0) ⊠ (.c 1)⟩,
    ⟨1, 1, (.s 0) ⊠ (.c 1)⟩,
    ⟨1, 2, .s 1⟩,
    ⟨1, 3, (((.k 1 1) ⊠ (.s 0)) ⊠ (.c 1)) ⊞ ((.k 7 1) ⊠ (.s 0))⟩,
    ⟨1, 4, (((.neg (.k 1 1)) ⊠ (.c 0)) ⊠ (.c 1)) ⊟ ((.k 7 1) ⊠ (.c 0))⟩,
    ⟨2, 0, .s 0⟩,
    ⟨2, 1, .neg (.c 0)⟩,
    ⟨2, 3, (((.neg (.k 7 1)) ⊠ (.c 0)) ⊠ (.c 1)) ⊟ ((.k 1 1) ⊠ (.c 0))⟩,
    ⟨2, 4, (((.neg (.k 7 1)) ⊠ (.s 0)) ⊠ (.c 1)) ⊟ ((.k 1 1) ⊠ (.s 0))⟩,
    ⟨2, 5, (.neg (.k 7 1)) ⊠ (.s 1)⟩,
    ⟨3, 3, (.c 0) ⊠ (.s 1)⟩,
    ⟨3, 4, (.s 0) ⊠ (.s 1)⟩,
    ⟨3, 5, .neg (.c 1)⟩,
    ⟨4, 3, (.c 0) ⊠ (.c 1)⟩,
    ⟨4, 4, (.s 0) ⊠ (.c 1)⟩,
    ⟨4, 5, .s 1⟩,
    ⟨5, 3, .s 0⟩,
    ⟨5, 4, .neg (.c 0)⟩]

/-- The transforms `fr_ee_X_fr_body`. -/
def fr_ee_X_fr_body : Trans := ⟨fr_ee, fr_body, hom_fr_ee_X_fr_body, motion_fr_ee_X_fr_body, force_fr_ee_X_fr_body⟩

/-- `HomogeneousTransforms::Type_fr_com0_X_fr_body` (transforms.impl.h:1727-1745, 1747-1749). -/
def hom_fr_com0_X_fr_body : Gen where
  rows := 4
  cols := 4
  ctor := [⟨0, 0, .k 1 0⟩,
    ⟨0, 1, .k 0 0⟩,
    ⟨0, 2, .k 0 0⟩,
    ⟨0, 3, .k 0 0⟩,
    ⟨1, 0, .k 0 0⟩,
    ⟨1, 1, .k 1 0⟩,
    ⟨1, 2, .k 0 0⟩,
    ⟨1, 3, .k 0 0⟩,
    ⟨2, 0, .k 0 0⟩,
    ⟨2, 1, .k 0 0⟩,
    ⟨2, 2, .k 1 0⟩,
    ⟨2, 3, .k 0 0⟩,
    ⟨3, 0, .k 0 0⟩,
    ⟨3, 1, .k 0 0⟩,
    ⟨3, 2, .k 0 0⟩,
    ⟨3, 3, .k 1 0⟩]
  upd := []

/-- `MotionTransforms::Type_fr_com0_X_fr_body` (transforms.impl.h:489-527, 529-531). -/
def motion_fr_com0_X_fr_body : Gen where
  rows := 6
  cols := 6
  ctor := [⟨0, 0, .k 1 0⟩,
    ⟨0, 1, .k 0 0⟩,
    ⟨0, 2, .k 0 0⟩,
    ⟨0, 3, .k 0 0⟩,
    ⟨0, 4, .k 0 0⟩,
    ⟨0, 5, .k 0 0⟩,
    ⟨1, 0, .k 0 0⟩,
    ⟨1, 1, .k 1 0⟩,
    ⟨1, 2, .k 0 0⟩,
    ⟨1, 3, .k 0 0⟩,
    ⟨1, 4, .k 0 0⟩,
    ⟨1, 5, .k 0 0⟩,
    ⟨2, 0, .k 0 0⟩,
    ⟨2, 1, .k 0 0⟩,
    ⟨2, 2, .k 1 0⟩,
    ⟨2, 3, .k 0 0⟩,
    ⟨2, 4, .k 0 0⟩,
    ⟨2, 5, .k 0 0⟩,
    ⟨3, 0, .k 0 0⟩,
    ⟨3, 1, .k 0 0⟩,
    ⟨3, 2, .k 0 0⟩,
    ⟨3, 3, .k 1 0⟩,
    ⟨3, 4, .k 0 0⟩,
    ⟨3, 5, .k 0 0⟩,
    ⟨4, 0, .k 0 0⟩,
    ⟨4, 1, .k 0 0⟩,
    ⟨4, 2, .k 0 0⟩,
    ⟨4, 3, .k 0 0⟩,
    ⟨4, 4, .k 1 0⟩,
    ⟨4, 5, .k 0 0⟩,
    ⟨5, 0, .k 0 0⟩,
    ⟨5, 1, .k 0 0⟩,
    ⟨5, 2, .k 0 0⟩,
    ⟨5, 3, .k 0 0⟩,
    ⟨5, 4, .k 0 0⟩,
    ⟨5, 5, .k 1 0⟩]
  upd := []

/-- `ForceTransforms::Type_fr_com0_X_fr_body` (transforms.impl.h:1188-1226, 1228-1230). -/
def force_fr_com0_X_fr_body : Gen where
  rows := 6
  cols := 6
  ctor := [⟨0, 0, .k 1 0⟩,
    ⟨0, 1, .k 0 0⟩,
    ⟨0, 2, .k 0 0⟩,
    ⟨0, 3, .k 0 0⟩,
    ⟨0, 4, .k 0 0⟩,
    ⟨0, 5, .k 0 0⟩,
    ⟨1, 0, .k 0 0⟩,
    ⟨1, 1, .k 1 0⟩,
    ⟨1, 2, .k 0 0⟩,
    ⟨1, 3, .k 0 0⟩,
    ⟨1, 4, .k 0 0⟩,
    ⟨1, 5, .k 0 0⟩,
    ⟨2, 0, .k 0 0⟩,
    ⟨2, 1, .k 0 0⟩,
    ⟨2, 2, .k 1 0⟩,
    ⟨2, 3, .k 0 0⟩,
    ⟨2, 4, .k 0 0⟩,
    ⟨2, 5, .k 0 0⟩,
    ⟨3, 0, .k 0 0⟩,
    ⟨3, 1, .k 0 0⟩,
    ⟨3, 2, .k 0 0⟩,
    ⟨3, 3, .k 1 0⟩,
    ⟨3, 4, .k 0 0⟩,
    ⟨3, 5, .k 0 0⟩,
    ⟨4, 0, .k 0 0⟩,
    ⟨4, 1, .k 0 0⟩,
    ⟨4, 2, .k 0 0⟩,
    ⟨4, 3, .k 0 0⟩,
    ⟨4, 4, .k 1 0⟩,
    ⟨4, 5, .k 0 0⟩,
    ⟨5, 0, .k 0 0⟩,
    ⟨5, 1, .k 0 0⟩,
    ⟨5, 2, .k 0 0⟩,
    ⟨5, 3, .k 0 0⟩,
    ⟨5, 4, .k 0 0⟩,
    ⟨5, 5, .k 1 0⟩]
  upd := []

/-- The transforms `fr_com0_X_fr_body`. -/
def fr_com0_X_fr_body : Trans := ⟨fr_com0, fr_body, hom_fr_com0_X_fr_body, motion_fr_com0_X_fr_body, force_fr_com0_X_fr_body⟩

/-- `HomogeneousTransforms::Type_fr_com1_X_fr_body` (transforms.impl.h:1751-1765, 1767-1779). -/
def hom_fr_com1_X_fr_body : Gen where
  rows := 4
  cols := 4
  ctor := [⟨0, 2, .k 0 0⟩,
    ⟨0, 3, .k 0 0⟩,
    ⟨1, 2, .k 0 0⟩,
    ⟨1, 3, .k 0 0⟩,
    ⟨2, 0, .k 0 0⟩,
    ⟨2, 1, .k 0 0⟩,
    ⟨2, 2, .k 1 0⟩,
    ⟨2, 3, .k 5 2⟩,
    ⟨3, 0, .k 0 0⟩,
    ⟨3, 1, .k 0 0⟩,
    ⟨3, 2, .k 0 0⟩,
    ⟨3, 3, .k 1 0⟩]
  upd := [⟨0, 0, .c 0⟩,
    ⟨0, 1, .s 0⟩,
    ⟨1, 0, .neg (.s 0)⟩,
    ⟨1, 1, .c 0⟩]

/-- `MotionTransforms::Type_fr_com1_X_fr_body` (transforms.impl.h:533-559, 561-581). -/
def motion_fr_com1_X_fr_body : Gen where
  rows := 6
  cols := 6
  ctor := [⟨0, 2, .k 0 0⟩,
    ⟨0, 3, .k 0 0⟩,
    ⟨0, 4, .k 0 0⟩,
    ⟨0, 5, .k 0 0⟩,
    ⟨1, 2, .k 0 0⟩,
    ⟨1, 3, .k 0 0⟩,
    ⟨1, 4, .k 0 0⟩,
    ⟨1, 5, .k 0 0⟩,
    ⟨2, 0, .k 0 0⟩,
    ⟨2, 1, .k 0 0⟩,
    ⟨2, 2, .k 1 0⟩,
    ⟨2, 3, .k 0 0⟩,
    ⟨2, 4, .k 0 0⟩,
    ⟨2, 5, .k 0 0⟩,
    ⟨3, 2, .k 0 0⟩,
    ⟨3, 5, .k 0 0⟩,
    ⟨4, 2, .k 0 0⟩,
    ⟨4, 5, .k 0 0⟩,
    ⟨5, 0, .k 0 0⟩,
    ⟨5, 1, .k 0 0⟩,
    ⟨5, 2, .k 0 0⟩,
    ⟨5, 3, .k 0 0⟩,
    ⟨5, 4, .k 0 0⟩,
    ⟨5, 5, .k 1 0⟩]
  upd := [⟨0, 0, .c 0⟩,
    ⟨0, 1, .s 0⟩,
    ⟨1, 0, .neg (.s 0)⟩,
    ⟨1, 1, .c 0⟩,
    ⟨3, 0, (.k 5 2) ⊠ (.s 0)⟩,
    ⟨3, 1, (.neg (.k 5 2)) ⊠ (.c 0)⟩,
    ⟨3, 3, .c 0⟩,
    ⟨3, 4, .s 0⟩,
    ⟨4, 0, (.k 5 2) ⊠ (.c 0)⟩,
    ⟨4, 1, (.k 5 2) ⊠ (.s 0)⟩,
    ⟨4, 3, .neg (.s 0)⟩,
    ⟨4, 4, .c 0⟩]

/-- `ForceTransforms::Type_fr_com1_X_fr_body` (transforms.impl.h:1232-1258, 1260-1280). -/
def force_fr_com1_X_fr_body : Gen where
  rows := 6
  cols := 6
  ctor := [⟨0, 2, .k 0 0⟩,
    ⟨0, 5, .k 0 0⟩,
    ⟨1, 2, .k 0 0⟩,
    ⟨1, 5, .k 0 0⟩,
    ⟨2, 0, .k 0 0⟩,
    ⟨2, 1, .k 0 0⟩,
    ⟨2, 2, .k 1 0⟩,
    ⟨2, 3, .k 0 0⟩,
    ⟨2, 4, .k 0 0⟩,
    ⟨2, 5, .k 0 0⟩,
    ⟨3, 0, .k 0 0⟩,
    ⟨3, 1, .k 0 0⟩,
    ⟨3, 2, .k 0 0⟩,
    ⟨3, 5, .k 0 0⟩,
    ⟨4, 0, .k 0 0⟩,
    ⟨4, 1, .k 0 0⟩,
    ⟨4, 2, .k 0 0⟩,
    ⟨4, 5, .k 0 0⟩,
    ⟨5, 0, .k 0 0⟩,
    ⟨5, 1, .k 0 0⟩,
    ⟨5, 2, .k 0 0⟩,
    ⟨5, 3, .k 0 0⟩,
    ⟨5, 4, .k 0 0⟩,
    ⟨5, 5, .k 1 0⟩]
  upd := [⟨0, 0, .c 0⟩,
    ⟨0, 1, .s 0⟩,
    ⟨0, 3, (.k 5 2) ⊠ (.s 0)⟩,
    ⟨0, 4, (.neg (.k 5 2)) ⊠ (.c 0)⟩,
    ⟨1, 0, .neg (.s 0)⟩,
    ⟨1, 1, .c 0⟩,
    ⟨1, 3, (.k 5 2) ⊠ (.c 0)⟩,
    ⟨1, 4, (.k 5 2) ⊠ (.s 0)⟩,
    ⟨3, 3, .c 0⟩,
    ⟨3, 4, .s 0⟩,
    ⟨4, 3, .neg (.s 0)⟩,
    ⟨4, 4, .c 0⟩]

/-- The transforms `fr_com1_X_fr_body`. -/
def fr_com1_X_fr_body : Trans := ⟨fr_com1, fr_body, hom_fr_com1_X_fr_body, motion_fr_com1_X_fr_body, force_fr_com1_X_fr_body⟩

/-- `HomogeneousTransforms::Type_fr_body_X_fr_jA` (transforms.impl.h:1781-1799, 1801-1803). -/
def hom_fr_body_X_fr_jA : Gen where
  rows := 4
  cols := 4
  ctor := [⟨0, 0, .k 1 0⟩,
    ⟨0, 1, .k 0 0⟩,
    ⟨0, 2, .k 0 0⟩,
    ⟨0, 3, .k 0 0⟩,
    ⟨1, 0, .k 0 0⟩,
    ⟨1, 1, .k 1 0⟩,
    ⟨1, 2, .k 0 0⟩,
    ⟨1, 3, .k 0 0⟩,
    ⟨2, 0, .k 0 0⟩,
    ⟨2, 1, .k 0 0⟩,
    ⟨2, 2, .k 1 0⟩,
    ⟨2, 3, .k 0 0⟩,
    ⟨3, 0, .k 0 0⟩,
    ⟨3, 1, .k 0 0⟩,
    ⟨3, 2, .k 0 0⟩,
    ⟨3, 3, .k 1 0⟩]
  upd := []

/-- `MotionTransforms::Type_fr_body_X_fr_jA` (transforms.impl.h:583-621, 623-625). -/
def motion_fr_body_X_fr_jA : Gen where
  rows := 6
  cols := 6
  ctor := [⟨0, 0, .k 1 0⟩,
    ⟨0, 1, .k 0 0⟩,
    ⟨0, 2, .k 0 0⟩,
    ⟨0, 3, .k 0 0⟩,
    ⟨0, 4, .k 0 0⟩,
    ⟨0, 5, .k 0 0⟩,
    ⟨1, 0, .k 0 0⟩,
    ⟨1, 1, .k 1 0⟩,
    ⟨1, 2, .k 0 0⟩,
    ⟨1, 3, .k 0 0⟩,
    ⟨1, 4, .k 0 0⟩,
    ⟨1, 5, .k 0 0⟩,
    ⟨2, 0, .k 0 0⟩,
    ⟨2, 1, .k 0 0⟩,
    ⟨2, 2, .k 1 0⟩,
    ⟨2, 3, .k 0 0⟩,
    ⟨2, 4, .k 0 0⟩,
    ⟨2, 5, .k 0 0⟩,
    ⟨3, 0, .k 0 0⟩,
    ⟨3, 1, .k 0 0⟩,
    ⟨3, 2, .k 0 0⟩,
    ⟨3, 3, .k 1 0⟩,
    ⟨3, 4, .k 0 0⟩,
    ⟨3, 5, .k 0 0⟩,
    ⟨4, 0, .k 0 0⟩,
    ⟨4, 1, .k 0 0⟩,
    ⟨4, 2, .k 0 0⟩,
    ⟨4, 3, .k 0 0⟩,
    ⟨4, 4, .k 1 0⟩,
    ⟨4, 5, .k 0 0⟩,
    ⟨5, 0, .k 0 0⟩,
    ⟨5, 1, .k 0 0⟩,
    ⟨5, 2, .k 0 0⟩,
    ⟨5, 3, .k 0 0⟩,
    ⟨5, 4, .k 0 0⟩,
    ⟨5, 5, .k 1 0⟩]
  upd := []

/-- `ForceTransforms::Type_fr_body_X_fr_jA` (transforms.impl.h:1282-1320, 1322-1324). -/
def force_fr_body_X_fr_jA : Gen where
  rows := 6
  cols := 6
  ctor := [⟨0, 0, .k 1 0⟩,
    ⟨0, 1, .k 0 0⟩,
    ⟨0, 2, .k 0 0⟩,
    ⟨0, 3, .k 0 0⟩,
    ⟨0, 4, .k 0 0⟩,
    ⟨0, 5, .k 0 0⟩,
    ⟨1, 0, .k 0 0⟩,
    ⟨1, 1, .k 1 0⟩,
    ⟨1, 2, .k 0 0⟩,
    ⟨1, 3, .k 0 0⟩,
    ⟨1, 4, .k 0 0⟩,
    ⟨1, 5, .k 0 0⟩,
    ⟨2, 0, .k 0 0⟩,
    ⟨2, 1, .k 0 0⟩,
    ⟨2, 2, .k 1 0⟩,
    ⟨2, 3, .k 0 0⟩,
    ⟨2, 4, .k 0 0⟩,
    ⟨2, 5, .k 0 0⟩,
    ⟨3, 0, .k 0 0⟩,
    ⟨3, 1, .k 0 0⟩,
    ⟨3, 2, .k 0 0⟩,
    ⟨3, 3, .k 1 0⟩,
    ⟨3, 4, .k 0 0⟩,
    ⟨3, 5, .k 0 0⟩,
    ⟨4, 0, .k 0 0⟩,
    ⟨4, 1, .k 0 0⟩,
    ⟨4, 2, .k 0 0⟩,
    ⟨4, 3, .k 0 0⟩,
    ⟨4, 4, .k 1 0⟩,
    ⟨4, 5, .k 0 0⟩,
    ⟨5, 0, .k 0 0⟩,
    ⟨5, 1, .k 0 0⟩,
    ⟨5, 2, .k 0 0⟩,
    ⟨5, 3, .k 0 0⟩,
    ⟨5, 4, .k 0 0⟩,
    ⟨5, 5, .k 1 0⟩]
  upd := []

/-- The transforms `fr_body_X_fr_jA`. -/
def fr_body_X_fr_jA : Trans := ⟨fr_body, fr_jA, hom_fr_body_X_fr_jA, motion_fr_body_X_fr_jA, force_fr_body_X_fr_jA⟩

/-- `HomogeneousTransforms::Type_fr_body_X_fr_jB` (transforms.impl.h:1805-1819, 1821-1833). -/
def hom_fr_body_X_fr_jB : Gen where
  rows := 4
  cols := 4
  ctor := [⟨0, 0, .k 0 0⟩,
    ⟨0, 3, .k 0 0⟩,
    ⟨1, 0, .k 0 0⟩,
    ⟨1, 3, .k 0 0⟩,
    ⟨2, 0, .neg (.k 1 0)⟩,
    ⟨2, 1, .k 0 0⟩,
    ⟨2, 2, .k 0 0⟩,
    ⟨2, 3, .neg (.k 1 1)⟩,
    ⟨3, 0, .k 0 0⟩,
    ⟨3, 1, .k 0 0⟩,
    ⟨3, 2, .k 0 0⟩,
    ⟨3, 3, .k 1 0⟩]
  upd := [⟨0, 1, .c 0⟩,
    ⟨0, 2, .s 0⟩,
    ⟨1, 1, .s 0⟩,
    ⟨1, 2, .neg (.c 0)⟩]

/-- `MotionTransforms::Type_fr_body_X_fr_jB` (transforms.impl.h:627-653, 655-675). -/
def motion_fr_body_X_fr_jB : Gen where
  rows := 6
  cols := 6
  ctor := [⟨0, 0, .k 0 0⟩,
    ⟨0, 3, .k 0 0⟩,
    ⟨0, 4, .k 0 0⟩,
    ⟨0, 5, .k 0 0⟩,
    ⟨1, 0, .k 0 0⟩,
    ⟨1, 3, .k 0 0⟩,
    ⟨1, 4, .k 0 0⟩,
    ⟨1, 5, .k 0 0⟩,
    ⟨2, 0, .neg (.k 1 0)⟩,
    ⟨2, 1, .k 0 0⟩,
    ⟨2, 2, .k 0 0⟩,
    ⟨2, 3, .k 0 0⟩,
    ⟨2, 4, .k 0 0⟩,
    ⟨2, 5, .k 0 0⟩,
    ⟨3, 0, .k 0 0⟩,
    ⟨3, 3, .k 0 0⟩,
    ⟨4, 0, .k 0 0⟩,
    ⟨4, 3, .k 0 0⟩,
    ⟨5, 0, .k 0 0⟩,
    ⟨5, 1, .k 0 0⟩,
    ⟨5, 2, .k 0 0⟩,
    ⟨5, 3, .neg (.k 1 0)⟩,
    ⟨5, 4, .k 0 0⟩,
    ⟨5, 5, .k 0 0⟩]
  upd := [⟨0, 1, .c 0⟩,
    ⟨0, 2, .s 0⟩,
    ⟨1, 1, .s 0⟩,
    ⟨1, 2, .neg (.c 0)⟩,
    ⟨3, 1, (.k 1 1) ⊠ (.s 0)⟩,
    ⟨3, 2, (.neg (.k 1 1)) ⊠ (.c 0)⟩,
    ⟨3, 4, .c 0⟩,
    ⟨3, 5, .s 0⟩,
    ⟨4, 1, (.neg (.k 1 1)) ⊠ (.c 0)⟩,
    ⟨4, 2, (.neg (.k 1 1)) ⊠ (.s 0)⟩,
    ⟨4, 4, .s 0⟩,
    ⟨4, 5, .neg (.c 0)⟩]

/-- `ForceTransforms::Type_fr_body_X_fr_jB` (transforms.impl.h:1326-1352, 1354-1374). -/
def force_fr_body_X_fr_jB : Gen where
  rows := 6
  cols := 6
  ctor := [⟨0, 0, .k 0 0⟩,
    ⟨0, 3, .k 0 0⟩,
    ⟨1, 0, .k 0 0⟩,
    ⟨1, 3, .k 0 0⟩,
    ⟨2, 0, .neg (.k 1 0)⟩,
    ⟨2, 1, .k 0 0⟩,
    ⟨2, 2, .k 0 0⟩,
    ⟨2, 3, .k 0 0⟩,
    ⟨2, 4, .k 0 0⟩,
    ⟨2, 5, .k 0 0⟩,
    ⟨3, 0, .k 0 0⟩,
    ⟨3, 1, .k 0 0⟩,
    ⟨3, 2, .k 0 0⟩,
    ⟨3, 3, .k 0 0⟩,
    ⟨4, 0, .k 0 0⟩,
    ⟨4, 1, .k 0 0⟩,
    ⟨4, 2, .k 0 0⟩,
    ⟨4, 3, .k 0 0⟩,
    ⟨5, 0, .k 0 0⟩,
    ⟨5, 1, .k 0 0⟩,
    ⟨5, 2, .k 0 0⟩,
    ⟨5, 3, .neg (.k 1 0)⟩,
    ⟨5, 4, .k 0 0⟩,
    ⟨5, 5, .k 0 0⟩]
  upd := [⟨0, 1, .c 0⟩,
    ⟨0, 2, .s 0⟩,
    ⟨0, 4, (.k 1 1) ⊠ (.s 0)⟩,
    ⟨0, 5, (.neg (.k 1 1)) ⊠ (.c 0)⟩,
    ⟨1, 1, .s 0⟩,
    ⟨1, 2, .neg (.c 0)⟩,
    ⟨1, 4, (.neg (.k 1 1)) ⊠ (.c 0)⟩,
    ⟨1, 5, (.neg (.k 1 1)) ⊠ (.s 0)⟩,
    ⟨3, 4, .c 0⟩,
    ⟨3, 5, .s 0⟩,
    ⟨4, 4, .s 0⟩,
    ⟨4, 5, .neg (.c 0)⟩]

/-- The transforms `fr_body_X_fr_jB`. -/
def fr_body_X_fr_jB : Trans := ⟨fr_body, fr_jB, hom_fr_body_X_fr_jB, motion_fr_body_X_fr_jB, force_fr_body_X_fr_jB⟩

/-- `HomogeneousTransforms::Type_fr_link2_X_fr_link1` (transforms.impl.h:1835-1847, 1849-1863). -/
def hom_fr_link2_X_fr_link1 : Gen where
  rows := 4
  cols := 4
  ctor := [⟨0, 1, .k 0 0⟩,
    ⟨1, 1, .k 0 0⟩,
    ⟨2, 0, .k 0 0⟩,
    ⟨2, 1, .neg (.k 1 0)⟩,
    ⟨2, 2, .k 0 0⟩,
    ⟨2, 3, .k 0 0⟩,
    ⟨3, 0, .k 0 0⟩,
    ⟨3, 1, .k 0 0⟩,
    ⟨3, 2, .k 0 0⟩,
    ⟨3, 3, .k 1 0⟩]
  upd := [⟨0, 0, .s 1⟩,
    ⟨0, 2, .neg (.c 1)⟩,
    ⟨0, 3, (.neg (.k 1 1)) ⊠ (.c 1)⟩,
    ⟨1, 0, .c 1⟩,
    ⟨1, 2, .s 1⟩,
    ⟨1, 3, (.k 1 1) ⊠ (.s 1)⟩]

/-- `MotionTransforms::Type_fr_link2_X_fr_link1` (transforms.impl.h:677-705, 707-725). -/
def motion_fr_link2_X_fr_link1 : Gen where
  rows := 6
  cols := 6
  ctor := [⟨0, 1, .k 0 0⟩,
    ⟨0, 3, .k 0 0⟩,
    ⟨0, 4, .k 0 0⟩,
    ⟨0, 5, .k 0 0⟩,
    ⟨1, 1, .k 0 0⟩,
    ⟨1, 3, .k 0 0⟩,
    ⟨1, 4, .k 0 0⟩,
    ⟨1, 5, .k 0 0⟩,
    ⟨2, 0, .k 0 0⟩,
    ⟨2, 1, .neg (.k 1 0)⟩,
    ⟨2, 2, .k 0 0⟩,
    ⟨2, 3, .k 0 0⟩,
    ⟨2, 4, .k 0 0⟩,
    ⟨2, 5, .k 0 0⟩,
    ⟨3, 0, .k 0 0⟩,
    ⟨3, 2, .k 0 0⟩,
    ⟨3, 4, .k 0 0⟩,
    ⟨4, 0, .k 0 0⟩,
    ⟨4, 2, .k 0 0⟩,
    ⟨4, 4, .k 0 0⟩,
    ⟨5, 0, .neg (.k 1 1)⟩,
    ⟨5, 1, .k 0 0⟩,
    ⟨5, 2, .k 0 0⟩,
    ⟨5, 3, .k 0 0⟩,
    ⟨5, 4, .neg (.k 1 0)⟩,
    ⟨5, 5, .k 0 0⟩]
  upd := [⟨0, 0, .s 1⟩,
    ⟨0, 2, .neg (.c 1)⟩,
    ⟨1, 0, .c 1⟩,
    ⟨1, 2, .s 1⟩,
    ⟨3, 1, (.neg (.k 1 1)) ⊠ (.s 1)⟩,
    ⟨3, 3, .s 1⟩,
    ⟨3, 5, .neg (.c 1)⟩,
    ⟨4, 1, (.neg (.k 1 1)) ⊠ (.c 1)⟩,
    ⟨4, 3, .c 1⟩,
    ⟨4, 5, .s 1⟩]

/-- `ForceTransforms::Type_fr_link2_X_fr_link1` (transforms.impl.h:1376-1404, 1406-1424). -/
def force_fr_link2_X_fr_link1 : Gen where
  rows := 6
  cols := 6
  ctor := [⟨0, 1, .k 0 0⟩,
    ⟨0, 3, .k 0 0⟩,
    ⟨0, 5, .k 0 0⟩,
    ⟨1, 1, .k 0 0⟩,
    ⟨1, 3, .k 0 0⟩,
    ⟨1, 5, .k 0 0⟩,
    ⟨2, 0, .k 0 0⟩,
    ⟨2, 1, .neg (.k 1 0)⟩,
    ⟨2, 2, .k 0 0⟩,
    ⟨2, 3, .neg (.k 1 1)⟩,
    ⟨2, 4, .k 0 0⟩,
    ⟨2, 5, .k 0 0⟩,
    ⟨3, 0, .k 0 0⟩,
    ⟨3, 1, .k 0 0⟩,
    ⟨3, 2, .k 0 0⟩,
    ⟨3, 4, .k 0 0⟩,
    ⟨4, 0, .k 0 0⟩,
    ⟨4, 1, .k 0 0⟩,
    ⟨4, 2, .k 0 0⟩,
    ⟨4, 4, .k 0 0⟩,
    ⟨5, 0, .k 0 0⟩,
    ⟨5, 1, .k 0 0⟩,
    ⟨5, 2, .k 0 0⟩,
    ⟨5, 3, .k 0 0⟩,
    ⟨5, 4, .neg (.k 1 0)⟩,
    ⟨5, 5, .k 0 0⟩]
  upd := [⟨0, 0, .s 1⟩,
    ⟨0, 2, .neg (.c 1)⟩,
    ⟨0, 4, (.neg (.k 1 1)) ⊠ (.s 1)⟩,
    ⟨1, 0, .c 1⟩,
    ⟨1, 2, .s 1⟩,
    ⟨1, 4, (.neg (.k 1 1)) ⊠ (.c 1)⟩,
    ⟨3, 3, .s 1⟩,
    ⟨3, 5, .neg (.c 1)⟩,
    ⟨4, 3, .c 1⟩,
    ⟨4, 5, .s 1⟩]

/-- The transforms `fr_link2_X_fr_link1`. -/
def fr_link2_X_fr_link1 : Trans := ⟨fr_link2, fr_link1, hom_fr_link2_X_fr_link1, motion_fr_link2_X_fr_link1, force_fr_link2_X_fr_link1⟩

/-- `HomogeneousTransforms::Type_fr_link1_X_fr_link2` (transforms.impl.h:1865-1879, 1881-1893). -/
def hom_fr_link1_X_fr_link2 : Gen where
  rows := 4
  cols := 4
  ctor := [⟨0, 2, .k 0 0⟩,
    ⟨0, 3, .k 0 0⟩,
    ⟨1, 0, .k 0 0⟩,
    ⟨1, 1, .k 0 0⟩,
    ⟨1, 2, .neg (.k 1 0)⟩,
    ⟨1, 3, .k 0 0⟩,
    ⟨2, 2, .k 0 0⟩,
    ⟨2, 3, .neg (.k 1 1)⟩,
    ⟨3, 0, .k 0 0⟩,
    ⟨3, 1, .k 0 0⟩,
    ⟨3, 2, .k 0 0⟩,
    ⟨3, 3, .k 1 0⟩]
  upd := [⟨0, 0, .s 1⟩,
    ⟨0, 1, .c 1⟩,
    ⟨2, 0, .neg (.c 1)⟩,
    ⟨2, 1, .s 1⟩]

/-- `MotionTransforms::Type_fr_link1_X_fr_link2` (transforms.impl.h:727-755, 757-775). -/
def motion_fr_link1_X_fr_link2 : Gen where
  rows := 6
  cols := 6
  ctor := [⟨0, 2, .k 0 0⟩,
    ⟨0, 3, .k 0 0⟩,
    ⟨0, 4, .k 0 0⟩,
    ⟨0, 5, .k 0 0⟩,
    ⟨1, 0, .k 0 0⟩,
    ⟨1, 1, .k 0 0⟩,
    ⟨1, 2, .neg (.k 1 0)⟩,
    ⟨1, 3, .k 0 0⟩,
    ⟨1, 4, .k 0 0⟩,
    ⟨1, 5, .k 0 0⟩,
    ⟨2, 2, .k 0 0⟩,
    ⟨2, 3, .k 0 0⟩,
    ⟨2, 4, .k 0 0⟩,
    ⟨2, 5, .k 0 0⟩,
    ⟨3, 0, .k 0 0⟩,
    ⟨3, 1, .k 0 0⟩,
    ⟨3, 2, .neg (.k 1 1)⟩,
    ⟨3, 5, .k 0 0⟩,
    ⟨4, 2, .k 0 0⟩,
    ⟨4, 3, .k 0 0⟩,
    ⟨4, 4, .k 0 0⟩,
    ⟨4, 5, .neg (.k 1 0)⟩,
    ⟨5, 0, .k 0 0⟩,
    ⟨5, 1, .k 0 0⟩,
    ⟨5, 2, .k 0 0⟩,
    ⟨5, 5, .k 0 0⟩]
  upd := [⟨0, 0, .s 1⟩,
    ⟨0, 1, .c 1⟩,
    ⟨2, 0, .neg (.c 1)⟩,
    ⟨2, 1, .s 1⟩,
    ⟨3, 3, .s 1⟩,
    ⟨3, 4, .c 1⟩,
    ⟨4, 0, (.neg (.k 1 1)) ⊠ (.s 1)⟩,
    ⟨4, 1, (.neg (.k 1 1)) ⊠ (.c 1)⟩,
    ⟨5, 3, .neg (.c 1)⟩,
    ⟨5, 4, .s 1⟩]

/-- `ForceTransforms::Type_fr_link1_X_fr_link2` (transforms.impl.h:1426-1454, 1456-1474). -/
def force_fr_link1_X_fr_link2 : Gen where
  rows := 6
  cols := 6
  ctor := [⟨0, 2, .k 0 0⟩,
    ⟨0, 3, .k 0 0⟩,
    ⟨0, 4, .k 0 0⟩,
    ⟨0, 5, .neg (.k 1 1)⟩,
    ⟨1, 0, .k 0 0⟩,
    ⟨1, 1, .k 0 0⟩,
    ⟨1, 2, .neg (.k 1 0)⟩,
    ⟨1, 5, .k 0 0⟩,
    ⟨2, 2, .k 0 0⟩,
    ⟨2, 3, .k 0 0⟩,
    ⟨2, 4, .k 0 0⟩,
    ⟨2, 5, .k 0 0⟩,
    ⟨3, 0, .k 0 0⟩,
    ⟨3, 1, .k 0 0⟩,
    ⟨3, 2, .k 0 0⟩,
    ⟨3, 5, .k 0 0⟩,
    ⟨4, 0, .k 0 0⟩,
    ⟨4, 1, .k 0 0⟩,
    ⟨4, 2, .k 0 0⟩,
    ⟨4, 3, .k 0 0⟩,
    ⟨4, 4, .k 0 0⟩,
    ⟨4, 5, .neg (.k 1 0)⟩,
    ⟨5, 0, .k 0 0⟩,
    ⟨5, 1, .k 0 0⟩,
    ⟨5, 2, .k 0 0⟩,
    ⟨5, 5, .k 0 0⟩]
  upd := [⟨0, 0, .s 1⟩,
    ⟨0, 1, .c 1⟩,
    ⟨1, 3, (.neg (.k 1 1)) ⊠ (.s 1)⟩,
    ⟨1, 4, (.neg (.k 1 1)) ⊠ (.c 1)⟩,
    ⟨2, 0, .neg (.c 1)⟩,
    ⟨2, 1, .s 1⟩,
    ⟨3, 3, .s 1⟩,
    ⟨3, 4, .c 1⟩,
    ⟨5, 3, .neg (.c 1)⟩,
    ⟨5, 4, .s 1⟩]

/-- The transforms `fr_link1_X_fr_link2`. -/
def fr_link1_X_fr_link2 : Trans := ⟨fr_link1, fr_link2, hom_fr_link1_X_fr_link2, motion_fr_link1_X_fr_link2, force_fr_link1_X_fr_link2⟩

/-- All pairs of frames for which transforms are generated. -/
def transforms : List Trans :=
  [fr_body_X_fr_link1,
    fr_body_X_fr_link2,
    fr_body_X_fr_ee,
    fr_body_X_fr_com0,
    fr_body_X_fr_com1,
    fr_link1_X_fr_body,
    fr_link2_X_fr_body,
    fr_ee_X_fr_body,
    fr_com0_X_fr_body,
    fr_com1_X_fr_body,
    fr_body_X_fr_jA,
    fr_body_X_fr_jB,
    fr_link2_X_fr_link1,
    fr_link1_X_fr_link2]

/-! ### Jacobians -/

/-- `Jacobians::Type_fr_body_J_fr_ee` (jacobians.impl.h:17-24, 27-46). -/
def gen_fr_body_J_fr_ee : Gen where
  rows := 6
  cols := 2
  ctor := [⟨0, 0, .k 0 0⟩,
    ⟨1, 0, .k 0 0⟩,
    ⟨2, 0, .k 1 0⟩,
    ⟨2, 1, .k 0 0⟩,
    ⟨5, 0, .k 0 0⟩]
  upd := [⟨0, 1, .s 0⟩,
    ⟨1, 1, .neg (.c 0)⟩,
    ⟨3, 0, ((.neg (.k 7 1)) ⊠ (.s 0)) ⊠ (.s 1)⟩,
    ⟨3, 1, ((.k 7 1) ⊠ (.c 0)) ⊠ (.c 1)⟩,
    ⟨4, 0, ((.k 7 1) ⊠ (.c 0)) ⊠ (.s 1)⟩,
    ⟨4, 1, ((.k 7 1) ⊠ (.s 0)) ⊠ (.c 1)⟩,
    ⟨5, 1, (.k 7 1) ⊠ (.s 1)⟩]

/-- The Jacobian `fr_body_J_fr_ee`. -/
def fr_body_J_fr_ee : Jac := ⟨fr_ee, gen_fr_body_J_fr_ee⟩

/-- All Jacobians. -/
def jacobians : List Jac :=
  [fr_body_J_fr_ee]

end CT.Robots.QuadrotorWithLoad.Kin
