import Verif.Model.GenKin

/-!
# DoubleInvertedPendulum: generated kinematics

Translation of all coordinate transforms and Jacobians in
`ct_models/include/ct/models/DoubleInvertedPendulum/generated/transforms.impl.h` and `jacobians.impl.h`, one entry for each
assignment, written by `tools/gen_kin.py`.  Line numbers are those of these two files.
-/

namespace CT.Robots.DoubleInvertedPendulum.Kin

open CT.GenKin

/-! ### Frames, in the order of the links and then of their appearance -/

abbrev fr_DoubleInvertedPendulumBase : ℕ := 0
abbrev fr_Link1 : ℕ := 1
abbrev fr_Link2 : ℕ := 2
abbrev fr_ee : ℕ := 3
abbrev fr_Joint1 : ℕ := 4
abbrev fr_Joint2 : ℕ := 5

/-! ### Joints (declarations.h) -/

abbrev JOINT1 : ℕ := 0
abbrev JOINT2 : ℕ := 1

/-! ### Coordinate transforms -/

/-- `HomogeneousTransforms::Type_fr_DoubleInvertedPendulumBase_X_fr_Link1` (transforms.impl.h:1089-1103, 1105-1117). -/
def hom_fr_DoubleInvertedPendulumBase_X_fr_Link1 : Gen where
  rows := 4
  cols := 4
  ctor := [⟨0, 0, .k 0 0⟩,
    ⟨0, 1, .k 0 0⟩,
    ⟨0, 2, .k 1 0⟩,
    ⟨0, 3, .k 0 0⟩,
    ⟨1, 2, .k 0 0⟩,
    ⟨1, 3, .k 0 0⟩,
    ⟨2, 2, .k 0 0⟩,
    ⟨2, 3, .k 0 0⟩,
    ⟨3, 0, .k 0 0⟩,
    ⟨3, 1, .k 0 0⟩,
    ⟨3, 2, .k 0 0⟩,
    ⟨3, 3, .k 1 0⟩]
  upd := [⟨1, 0, .neg (.s 0)⟩,
    ⟨1, 1, .neg (.c 0)⟩,
    ⟨2, 0, .c 0⟩,
    ⟨2, 1, .neg (.s 0)⟩]

/-- `MotionTransforms::Type_fr_DoubleInvertedPendulumBase_X_fr_Link1` (transforms.impl.h:67-97, 99-115). -/
def motion_fr_DoubleInvertedPendulumBase_X_fr_Link1 : Gen where
  rows := 6
  cols := 6
  ctor := [⟨0, 0, .k 0 0⟩,
    ⟨0, 1, .k 0 0⟩,
    ⟨0, 2, .k 1 0⟩,
    ⟨0, 3, .k 0 0⟩,
    ⟨0, 4, .k 0 0⟩,
    ⟨0, 5, .k 0 0⟩,
    ⟨1, 2, .k 0 0⟩,
    ⟨1, 3, .k 0 0⟩,
    ⟨1, 4, .k 0 0⟩,
    ⟨1, 5, .k 0 0⟩,
    ⟨2, 2, .k 0 0⟩,
    ⟨2, 3, .k 0 0⟩,
    ⟨2, 4, .k 0 0⟩,
    ⟨2, 5, .k 0 0⟩,
    ⟨3, 0, .k 0 0⟩,
    ⟨3, 1, .k 0 0⟩,
    ⟨3, 2, .k 0 0⟩,
    ⟨3, 3, .k 0 0⟩,
    ⟨3, 4, .k 0 0⟩,
    ⟨3, 5, .k 1 0⟩,
    ⟨4, 0, .k 0 0⟩,
    ⟨4, 1, .k 0 0⟩,
    ⟨4, 2, .k 0 0⟩,
    ⟨4, 5, .k 0 0⟩,
    ⟨5, 0, .k 0 0⟩,
    ⟨5, 1, .k 0 0⟩,
    ⟨5, 2, .k 0 0⟩,
    ⟨5, 5, .k 0 0⟩]
  upd := [⟨1, 0, .neg (.s 0)⟩,
    ⟨1, 1, .neg (.c 0)⟩,
    ⟨2, 0, .c 0⟩,
    ⟨2, 1, .neg (.s 0)⟩,
    ⟨4, 3, .neg (.s 0)⟩,
    ⟨4, 4, .neg (.c 0)⟩,
    ⟨5, 3, .c 0⟩,
    ⟨5, 4, .neg (.s 0)⟩]

/-- `ForceTransforms::Type_fr_DoubleInvertedPendulumBase_X_fr_Link1` (transforms.impl.h:578-608, 610-626). -/
def force_fr_DoubleInvertedPendulumBase_X_fr_Link1 : Gen where
  rows := 6
  cols := 6
  ctor := [⟨0, 0, .k 0 0⟩,
    ⟨0, 1, .k 0 0⟩,
    ⟨0, 2, .k 1 0⟩,
    ⟨0, 3, .k 0 0⟩,
    ⟨0, 4, .k 0 0⟩,
    ⟨0, 5, .k 0 0⟩,
    ⟨1, 2, .k 0 0⟩,
    ⟨1, 3, .k 0 0⟩,
    ⟨1, 4, .k 0 0⟩,
    ⟨1, 5, .k 0 0⟩,
    ⟨2, 2, .k 0 0⟩,
    ⟨2, 3, .k 0 0⟩,
    ⟨2, 4, .k 0 0⟩,
    ⟨2, 5, .k 0 0⟩,
    ⟨3, 0, .k 0 0⟩,
    ⟨3, 1, .k 0 0⟩,
    ⟨3, 2, .k 0 0⟩,
    ⟨3, 3, .k 0 0⟩,
    ⟨3, 4, .k 0 0⟩,
    ⟨3, 5, .k 1 0⟩,
    ⟨4, 0, .k 0 0⟩,
    ⟨4, 1, .k 0 0⟩,
    ⟨4, 2, .k 0 0⟩,
    ⟨4, 5, .k 0 0⟩,
    ⟨5, 0, .k 0 0⟩,
    ⟨5, 1, .k 0 0⟩,
    ⟨5, 2, .k 0 0⟩,
    ⟨5, 5, .k 0 0⟩]
  upd := [⟨1, 0, .neg (.s 0)⟩,
    ⟨1, 1, .neg (.c 0)⟩,
    ⟨2, 0, .c 0⟩,
    ⟨2, 1, .neg (.s 0)⟩,
    ⟨4, 3, .neg (.s 0)⟩,
    ⟨4, 4, .neg (.c 0)⟩,
    ⟨5, 3, .c 0⟩,
    ⟨5, 4, .neg (.s 0)⟩]

/-- The transforms `fr_DoubleInvertedPendulumBase_X_fr_Link1`. -/
def fr_DoubleInvertedPendulumBase_X_fr_Link1 : Trans := ⟨fr_DoubleInvertedPendulumBase, fr_Link1, hom_fr_DoubleInvertedPendulumBase_X_fr_Link1, motion_fr_DoubleInvertedPendulumBase_X_fr_Link1, force_fr_DoubleInvertedPendulumBase_X_fr_Link1⟩

/-- `HomogeneousTransforms::Type_fr_DoubleInvertedPendulumBase_X_fr_Link2` (transforms.impl.h:1119-1131, 1133-1151). -/
def hom_fr_DoubleInvertedPendulumBase_X_fr_Link2 : Gen where
  rows := 4
  cols := 4
  ctor := [⟨0, 0, .k 0 0⟩,
    ⟨0, 1, .k 0 0⟩,
    ⟨0, 2, .k 1 0⟩,
    ⟨0, 3, .k 0 0⟩,
    ⟨1, 2, .k 0 0⟩,
    ⟨2, 2, .k 0 0⟩,
    ⟨3, 0, .k 0 0⟩,
    ⟨3, 1, .k 0 0⟩,
    ⟨3, 2, .k 0 0⟩,
    ⟨3, 3, .k 1 0⟩]
  upd := [⟨1, 0, ((.neg (.c 0)) ⊠ (.s 1)) ⊟ ((.s 0) ⊠ (.c 1))⟩,
    ⟨1, 1, ((.s 0) ⊠ (.s 1)) ⊟ ((.c 0) ⊠ (.c 1))⟩,
    ⟨1, 3, .neg (.s 0)⟩,
    ⟨2, 0, ((.c 0) ⊠ (.c 1)) ⊟ ((.s 0) ⊠ (.s 1))⟩,
    ⟨2, 1, ((.neg (.c 0)) ⊠ (.s 1)) ⊟ ((.s 0) ⊠ (.c 1))⟩,
    ⟨2, 3, .c 0⟩]

/-- `MotionTransforms::Type_fr_DoubleInvertedPendulumBase_X_fr_Link2` (transforms.impl.h:117-143, 145-169). -/
def motion_fr_DoubleInvertedPendulumBase_X_fr_Link2 : Gen where
  rows := 6
  cols := 6
  ctor := [⟨0, 0, .k 0 0⟩,
    ⟨0, 1, .k 0 0⟩,
    ⟨0, 2, .k 1 0⟩,
    ⟨0, 3, .k 0 0⟩,
    ⟨0, 4, .k 0 0⟩,
    ⟨0, 5, .k 0 0⟩,
    ⟨1, 2, .k 0 0⟩,
    ⟨1, 3, .k 0 0⟩,
    ⟨1, 4, .k 0 0⟩,
    ⟨1, 5, .k 0 0⟩,
    ⟨2, 2, .k 0 0⟩,
    ⟨2, 3, .k 0 0⟩,
    ⟨2, 4, .k 0 0⟩,
    ⟨2, 5, .k 0 0⟩,
    ⟨3, 2, .k 0 0⟩,
    ⟨3, 3, .k 0 0⟩,
    ⟨3, 4, .k 0 0⟩,
    ⟨3, 5, .k 1 0⟩,
    ⟨4, 0, .k 0 0⟩,
    ⟨4, 1, .k 0 0⟩,
    ⟨4, 5, .k 0 0⟩,
    ⟨5, 0, .k 0 0⟩,
    ⟨5, 1, .k 0 0⟩,
    ⟨5, 5, .k 0 0⟩]
  upd := [⟨1, 0, ((.neg (.c 0)) ⊠ (.s 1)) ⊟ ((.s 0) ⊠ (.c 1))⟩,
    ⟨1, 1, ((.s 0) ⊠ (.s 1)) ⊟ ((.c 0) ⊠ (.c 1))⟩,
    ⟨2, 0, ((.c 0) ⊠ (.c 1)) ⊟ ((.s 0) ⊠ (.s 1))⟩,
    ⟨2, 1, ((.neg (.c 0)) ⊠ (.s 1)) ⊟ ((.s 0) ⊠ (.c 1))⟩,
    ⟨3, 0, .s 1⟩,
    ⟨3, 1, .c 1⟩,
    ⟨4, 2, .c 0⟩,
    ⟨4, 3, ((.neg (.c 0)) ⊠ (.s 1)) ⊟ ((.s 0) ⊠ (.c 1))⟩,
    ⟨4, 4, ((.s 0) ⊠ (.s 1)) ⊟ ((.c 0) ⊠ (.c 1))⟩,
    ⟨5, 2, .s 0⟩,
    ⟨5, 3, ((.c 0) ⊠ (.c 1)) ⊟ ((.s 0) ⊠ (.s 1))⟩,
    ⟨5, 4, ((.neg (.c 0)) ⊠ (.s 1)) ⊟ ((.s 0) ⊠ (.c 1))⟩]

/-- `ForceTransforms::Type_fr_DoubleInvertedPendulumBase_X_fr_Link2` (transforms.impl.h:628-654, 656-680). -/
def force_fr_DoubleInvertedPendulumBase_X_fr_Link2 : Gen where
  rows := 6
  cols := 6
  ctor := [⟨0, 0, .k 0 0⟩,
    ⟨0, 1, .k 0 0⟩,
    ⟨0, 2, .k 1 0⟩,
    ⟨0, 5, .k 0 0⟩,
    ⟨1, 2, .k 0 0⟩,
    ⟨1, 3, .k 0 0⟩,
    ⟨1, 4, .k 0 0⟩,
    ⟨2, 2, .k 0 0⟩,
    ⟨2, 3, .k 0 0⟩,
    ⟨2, 4, .k 0 0⟩,
    ⟨3, 0, .k 0 0⟩,
    ⟨3, 1, .k 0 0⟩,
    ⟨3, 2, .k 0 0⟩,
    ⟨3, 3, .k 0 0⟩,
    ⟨3, 4, .k 0 0⟩,
    ⟨3, 5, .k 1 0⟩,
    ⟨4, 0, .k 0 0⟩,
    ⟨4, 1, .k 0 0⟩,
    ⟨4, 2, .k 0 0⟩,
    ⟨4, 5, .k 0 0⟩,
    ⟨5, 0, .k 0 0⟩,
    ⟨5, 1, .k 0 0⟩,
    ⟨5, 2, .k 0 0⟩,
    ⟨5, 5, .k 0 0⟩]
  upd := [⟨0, 3, .s 1⟩,
    ⟨0, 4, .c 1⟩,
    ⟨1, 0, ((.neg (.c 0)) ⊠ (.s 1)) ⊟ ((.s 0) ⊠ (.c 1))⟩,
    ⟨1, 1, ((.s 0) ⊠ (.s 1)) ⊟ ((.c 0) ⊠ (.c 1))⟩,
    ⟨1, 5, .c 0⟩,
    ⟨2, 0, ((.c 0) ⊠ (.c 1)) ⊟ ((.s 0) ⊠ (.s 1))⟩,
    ⟨2, 1, ((.neg (.c 0)) ⊠ (.s 1)) ⊟ ((.s 0) ⊠ (.c 1))⟩,
    ⟨2, 5, .s 0⟩,
    ⟨4, 3, ((.neg (.c 0)) ⊠ (.s 1)) ⊟ ((.s 0) ⊠ (.c 1))⟩,
    ⟨4, 4, ((.s 0) ⊠ (.s 1)) ⊟ ((.c 0) ⊠ (.c 1))⟩,
    ⟨5, 3, ((.c 0) ⊠ (.c 1)) ⊟ ((.s 0) ⊠ (.s 1))⟩,
    ⟨5, 4, ((.neg (.c 0)) ⊠ (.s 1)) ⊟ ((.s 0) ⊠ (.c 1))⟩]

/-- The transforms `fr_DoubleInvertedPendulumBase_X_fr_Link2`. -/
def fr_DoubleInvertedPendulumBase_X_fr_Link2 : Trans := ⟨fr_DoubleInvertedPendulumBase, fr_Link2, hom_fr_DoubleInvertedPendulumBase_X_fr_Link2, motion_fr_DoubleInvertedPendulumBase_X_fr_Link2, force_fr_DoubleInvertedPendulumBase_X_fr_Link2⟩

/-- `HomogeneousTransforms::Type_fr_DoubleInvertedPendulumBase_X_fr_ee` (transforms.impl.h:1153-1165, 1167-1185). -/
def hom_fr_DoubleInvertedPendulumBase_X_fr_ee : Gen where
  rows := 4
  cols := 4
  ctor := [⟨0, 0, .k 0 0⟩,
    ⟨0, 1, .k 0 0⟩,
    ⟨0, 2, .k 1 0⟩,
    ⟨0, 3, .k 0 0⟩,
    ⟨1, 2, .k 0 0⟩,
    ⟨2, 2, .k 0 0⟩,
    ⟨3, 0, .k 0 0⟩,
    ⟨3, 1, .k 0 0⟩,
    ⟨3, 2, .k 0 0⟩,
    ⟨3, 3, .k 1 0⟩]
  upd := [⟨1, 0, ((.neg (.c 0)) ⊠ (.s 1)) ⊟ ((.s 0) ⊠ (.c 1))⟩,
    ⟨1, 1, ((.s 0) ⊠ (.s 1)) ⊟ ((.c 0) ⊠ (.c 1))⟩,
    ⟨1, 3, (((.neg (.c 0)) ⊠ (.s 1)) ⊟ ((.s 0) ⊠ (.c 1))) ⊟ (.s 0)⟩,
    ⟨2, 0, ((.c 0) ⊠ (.c 1)) ⊟ ((.s 0) ⊠ (.s 1))⟩,
    ⟨2, 1, ((.neg (.c 0)) ⊠ (.s 1)) ⊟ ((.s 0) ⊠ (.c 1))⟩,
    ⟨2, 3, (((.neg (.s 0)) ⊠ (.s 1)) ⊞ ((.c 0) ⊠ (.c 1))) ⊞ (.c 0)⟩]

/-- `MotionTransforms::Type_fr_DoubleInvertedPendulumBase_X_fr_ee` (transforms.impl.h:171-197, 199-223). -/
def motion_fr_DoubleInvertedPendulumBase_X_fr_ee : Gen where
  rows := 6
  cols := 6
  ctor := [⟨0, 0, .k 0 0⟩,
    ⟨0, 1, .k 0 0⟩,
    ⟨0, 2, .k 1 0⟩,
    ⟨0, 3, .k 0 0⟩,
    ⟨0, 4, .k 0 0⟩,
    ⟨0, 5, .k 0 0⟩,
    ⟨1, 2, .k 0 0⟩,
    ⟨1, 3, .k 0 0⟩,
    ⟨1, 4, .k 0 0⟩,
    ⟨1, 5, .k 0 0⟩,
    ⟨2, 2, .k 0 0⟩,
    ⟨2, 3, .k 0 0⟩,
    ⟨2, 4, .k 0 0⟩,
    ⟨2, 5, .k 0 0⟩,
    ⟨3, 2, .k 0 0⟩,
    ⟨3, 3, .k 0 0⟩,
    ⟨3, 4, .k 0 0⟩,
    ⟨3, 5, .k 1 0⟩,
    ⟨4, 0, .k 0 0⟩,
    ⟨4, 1, .k 0 0⟩,
    ⟨4, 5, .k 0 0⟩,
    ⟨5, 0, .k 0 0⟩,
    ⟨5, 1, .k 0 0⟩,
    ⟨5, 5, .k 0 0⟩]
  upd := [⟨1, 0, ((.neg (.c 0)) ⊠ (.s 1)) ⊟ ((.s 0) ⊠ (.c 1))⟩,
    ⟨1, 1, ((.s 0) ⊠ (.s 1)) ⊟ ((.c 0) ⊠ (.c 1))⟩,
    ⟨2, 0, ((.c 0) ⊠ (.c 1)) ⊟ ((.s 0) ⊠ (.s 1))⟩,
    ⟨2, 1, ((.neg (.c 0)) ⊠ (.s 1)) ⊟ ((.s 0) ⊠ (.c 1))⟩,
    ⟨3, 0, .s 1⟩,
    ⟨3, 1, (.c 1) ⊞ (.k 1 0)⟩,
    ⟨4, 2, (((.neg (.s 0)) ⊠ (.s 1)) ⊞ ((.c 0) ⊠ (.c 1))) ⊞ (.c 0)⟩,
    ⟨4, 3, ((.neg (.c 0)) ⊠ (.s 1)) ⊟ ((.s 0) ⊠ (.c 1))⟩,
    ⟨4, 4, ((.s 0) ⊠ (.s 1)) ⊟ ((.c 0) ⊠ (.c 1))⟩,
    ⟨5, 2, (((.c 0) ⊠ (.s 1)) ⊞ ((.s 0) ⊠ (.c 1))) ⊞ (.s 0)⟩,
    ⟨5, 3, ((.c 0) ⊠ (.c 1)) ⊟ ((.s 0) ⊠ (.s 1))⟩,
    ⟨5, 4, ((.neg (.c 0)) ⊠ (.s 1)) ⊟ ((.s 0) ⊠ (.c 1))⟩]

/-- `ForceTransforms::Type_fr_DoubleInvertedPendulumBase_X_fr_ee` (transforms.impl.h:682-708, 710-734). -/
def force_fr_DoubleInvertedPendulumBase_X_fr_ee : Gen where
  rows := 6
  cols := 6
  ctor := [⟨0, 0, .k 0 0⟩,
    ⟨0, 1, .k 0 0⟩,
    ⟨0, 2, .k 1 0⟩,
    ⟨0, 5, .k 0 0⟩,
    ⟨1, 2, .k 0 0⟩,
    ⟨1, 3, .k 0 0⟩,
    ⟨1, 4, .k 0 0⟩,
    ⟨2, 2, .k 0 0⟩,
    ⟨2, 3, .k 0 0⟩,
    ⟨2, 4, .k 0 0⟩,
    ⟨3, 0, .k 0 0⟩,
    ⟨3, 1, .k 0 0⟩,
    ⟨3, 2, .k 0 0⟩,
    ⟨3, 3, .k 0 0⟩,
    ⟨3, 4, .k 0 0⟩,
    ⟨3, 5, .k 1 0⟩,
    ⟨4, 0, .k 0 0⟩,
    ⟨4, 1, .k 0 0⟩,
    ⟨4, 2, .k 0 0⟩,
    ⟨4, 5, .k 0 0⟩,
    ⟨5, 0, .k 0 0⟩,
    ⟨5, 1, .k 0 0⟩,
    ⟨5, 2, .k 0 0⟩,
    ⟨5, 5, .k 0 0⟩]
  upd := [⟨0, 3, .s 1⟩,
    ⟨0, 4, (.c 1) ⊞ (.k 1 0)⟩,
    ⟨1, 0, ((.neg (.c 0)) ⊠ (.s 1)) ⊟ ((.s 0) ⊠ (.c 1))⟩,
    ⟨1, 1, ((.s 0) ⊠ (.s 1)) ⊟ ((.c 0) ⊠ (.c 1))⟩,
    ⟨1, 5, (((.neg (.s 0)) ⊠ (.s 1)) ⊞ ((.c 0) ⊠ (.c 1))) ⊞ (.c 0)⟩,
    ⟨2, 0, ((.c 0) ⊠ (.c 1)) ⊟ ((.s 0) ⊠ (.s 1))⟩,
    ⟨2, 1, ((.neg (.c 0)) ⊠ (.s 1)) ⊟ ((.s 0) ⊠ (.c 1))⟩,
    ⟨2, 5, (((.c 0) ⊠ (.s 1)) ⊞ ((.s 0) ⊠ (.c 1))) ⊞ (.s 0)⟩,
    ⟨4, 3, ((.neg (.c 0)) ⊠ (.s 1)) ⊟ ((.s 0) ⊠ (.c 1))⟩,
    ⟨4, 4, ((.s 0) ⊠ (.s 1)) ⊟ ((.c 0) ⊠ (.c 1))⟩,
    ⟨5, 3, ((.c 0) ⊠ (.c 1)) ⊟ ((.s 0) ⊠ (.s 1))⟩,
    ⟨5, 4, ((.neg (.c 0)) ⊠ (.s 1)) ⊟ ((.s 0) ⊠ (.c 1))⟩]

/-- The transforms `fr_DoubleInvertedPendulumBase_X_fr_ee`. -/
def fr_DoubleInvertedPendulumBase_X_fr_ee : Trans := ⟨fr_DoubleInvertedPendulumBase, fr_ee, hom_fr_DoubleInvertedPendulumBase_X_fr_ee, motion_fr_DoubleInvertedPendulumBase_X_fr_ee, force_fr_DoubleInvertedPendulumBase_X_fr_ee⟩

/-- `HomogeneousTransforms::Type_fr_Link2_X_fr_DoubleInvertedPendulumBase` (transforms.impl.h:1187-1199, 1201-1219). -/
def hom_fr_Link2_X_fr_DoubleInvertedPendulumBase : Gen where
  rows := 4
  cols := 4
  ctor := [⟨0, 0, .k 0 0⟩,
    ⟨1, 0, .k 0 0⟩,
    ⟨2, 0, .k 1 0⟩,
    ⟨2, 1, .k 0 0⟩,
    ⟨2, 2, .k 0 0⟩,
    ⟨2, 3, .k 0 0⟩,
    ⟨3, 0, .k 0 0⟩,
    ⟨3, 1, .k 0 0⟩,
    ⟨3, 2, .k 0 0⟩,
    ⟨3, 3, .k 1 0⟩]
  upd := [⟨0, 1, ((.neg (.c 0)) ⊠ (.s 1)) ⊟ ((.s 0) ⊠ (.c 1))⟩,
    ⟨0, 2, ((.c 0) ⊠ (.c 1)) ⊟ ((.s 0) ⊠ (.s 1))⟩,
    ⟨0, 3, .neg (.c 1)⟩,
    ⟨1, 1, ((.s 0) ⊠ (.s 1)) ⊟ ((.c 0) ⊠ (.c 1))⟩,
    ⟨1, 2, ((.neg (.c 0)) ⊠ (.s 1)) ⊟ ((.s 0) ⊠ (.c 1))⟩,
    ⟨1, 3, .s 1⟩]

/-- `MotionTransforms::Type_fr_Link2_X_fr_DoubleInvertedPendulumBase` (transforms.impl.h:225-251, 253-277). -/
def motion_fr_Link2_X_fr_DoubleInvertedPendulumBase : Gen where
  rows := 6
  cols := 6
  ctor := [⟨0, 0, .k 0 0⟩,
    ⟨0, 3, .k 0 0⟩,
    ⟨0, 4, .k 0 0⟩,
    ⟨0, 5, .k 0 0⟩,
    ⟨1, 0, .k 0 0⟩,
    ⟨1, 3, .k 0 0⟩,
    ⟨1, 4, .k 0 0⟩,
    ⟨1, 5, .k 0 0⟩,
    ⟨2, 0, .k 1 0⟩,
    ⟨2, 1, .k 0 0⟩,
    ⟨2, 2, .k 0 0⟩,
    ⟨2, 3, .k 0 0⟩,
    ⟨2, 4, .k 0 0⟩,
    ⟨2, 5, .k 0 0⟩,
    ⟨3, 1, .k 0 0⟩,
    ⟨3, 2, .k 0 0⟩,
    ⟨3, 3, .k 0 0⟩,
    ⟨4, 1, .k 0 0⟩,
    ⟨4, 2, .k 0 0⟩,
    ⟨4, 3, .k 0 0⟩,
    ⟨5, 0, .k 0 0⟩,
    ⟨5, 3, .k 1 0⟩,
    ⟨5, 4, .k 0 0⟩,
    ⟨5, 5, .k 0 0⟩]
  upd := [⟨0, 1, ((.neg (.c 0)) ⊠ (.s 1)) ⊟ ((.s 0) ⊠ (.c 1))⟩,
    ⟨0, 2, ((.c 0) ⊠ (.c 1)) ⊟ ((.s 0) ⊠ (.s 1))⟩,
    ⟨1, 1, ((.s 0) ⊠ (.s 1)) ⊟ ((.c 0) ⊠ (.c 1))⟩,
    ⟨1, 2, ((.neg (.c 0)) ⊠ (.s 1)) ⊟ ((.s 0) ⊠ (.c 1))⟩,
    ⟨3, 0, .s 1⟩,
    ⟨3, 4, ((.neg (.c 0)) ⊠ (.s 1)) ⊟ ((.s 0) ⊠ (.c 1))⟩,
    ⟨3, 5, ((.c 0) ⊠ (.c 1)) ⊟ ((.s 0) ⊠ (.s 1))⟩,
    ⟨4, 0, .c 1⟩,
    ⟨4, 4, ((.s 0) ⊠ (.s 1)) ⊟ ((.c 0) ⊠ (.c 1))⟩,
    ⟨4, 5, ((.neg (.c 0)) ⊠ (.s 1)) ⊟ ((.s 0) ⊠ (.c 1))⟩,
    ⟨5, 1, .c 0⟩,
    ⟨5, 2, .s 0⟩]

/-- `ForceTransforms::Type_fr_Link2_X_fr_DoubleInvertedPendulumBase` (transforms.impl.h:736-762, 764-788). -/
def force_fr_Link2_X_fr_DoubleInvertedPendulumBase : Gen where
  rows := 6
  cols := 6
  ctor := [⟨0, 0, .k 0 0⟩,
    ⟨0, 4, .k 0 0⟩,
    ⟨0, 5, .k 0 0⟩,
    ⟨1, 0, .k 0 0⟩,
    ⟨1, 4, .k 0 0⟩,
    ⟨1, 5, .k 0 0⟩,
    ⟨2, 0, .k 1 0⟩,
    ⟨2, 1, .k 0 0⟩,
    ⟨2, 2, .k 0 0⟩,
    ⟨2, 3, .k 0 0⟩,
    ⟨3, 0, .k 0 0⟩,
    ⟨3, 1, .k 0 0⟩,
    ⟨3, 2, .k 0 0⟩,
    ⟨3, 3, .k 0 0⟩,
    ⟨4, 0, .k 0 0⟩,
    ⟨4, 1, .k 0 0⟩,
    ⟨4, 2, .k 0 0⟩,
    ⟨4, 3, .k 0 0⟩,
    ⟨5, 0, .k 0 0⟩,
    ⟨5, 1, .k 0 0⟩,
    ⟨5, 2, .k 0 0⟩,
    ⟨5, 3, .k 1 0⟩,
    ⟨5, 4, .k 0 0⟩,
    ⟨5, 5, .k 0 0⟩]
  upd := [⟨0, 1, ((.neg (.c 0)) ⊠ (.s 1)) ⊟ ((.s 0) ⊠ (.c 1))⟩,
    ⟨0, 2, ((.c 0) ⊠ (.c 1)) ⊟ ((.s 0) ⊠ (.s 1))⟩,
    ⟨0, 3, .s 1⟩,
    ⟨1, 1, ((.s 0) ⊠ (.s 1)) ⊟ ((.c 0) ⊠ (.c 1))⟩,
    ⟨1, 2, ((.neg (.c 0)) ⊠ (.s 1)) ⊟ ((.s 0) ⊠ (.c 1))⟩,
    ⟨1, 3, .c 1⟩,
    ⟨2, 4, .c 0⟩,
    ⟨2, 5, .s 0⟩,
    ⟨3, 4, ((.neg (.c 0)) ⊠ (.s 1)) ⊟ ((.s 0) ⊠ (.c 1))⟩,
    ⟨3, 5, ((.c 0) ⊠ (.c 1)) ⊟ ((.s 0) ⊠ (.s 1))⟩,
    ⟨4, 4, ((.s 0) ⊠ (.s 1)) ⊟ ((.c 0) ⊠ (.c 1))⟩,
    ⟨4, 5, ((.neg (.c 0)) ⊠ (.s 1)) ⊟ ((.s 0) ⊠ (.c 1))⟩]

/-- The transforms `fr_Link2_X_fr_DoubleInvertedPendulumBase`. -/
def fr_Link2_X_fr_DoubleInvertedPendulumBase : Trans := ⟨fr_Link2, fr_DoubleInvertedPendulumBase, hom_fr_Link2_X_fr_DoubleInvertedPendulumBase, motion_fr_Link2_X_fr_DoubleInvertedPendulumBase, force_fr_Link2_X_fr_DoubleInvertedPendulumBase⟩

/-- `HomogeneousTransforms::Type_fr_Link1_X_fr_DoubleInvertedPendulumBase` (transforms.impl.h:1221-1235, 1237-1249). -/
def hom_fr_Link1_X_fr_DoubleInvertedPendulumBase : Gen where
  rows := 4
  cols := 4
  ctor := [⟨0, 0, .k 0 0⟩,
    ⟨0, 3, .k 0 0⟩,
    ⟨1, 0, .k 0 0⟩,
    ⟨1, 3, .k 0 0⟩,
    ⟨2, 0, .k 1 0⟩,
    ⟨2, 1, .k 0 0⟩,
    ⟨2, 2, .k 0 0⟩,
    ⟨2, 3, .k 0 0⟩,
    ⟨3, 0, .k 0 0⟩,
    ⟨3, 1, .k 0 0⟩,
    ⟨3, 2, .k 0 0⟩,
    ⟨3, 3, .k 1 0⟩]
  upd := [⟨0, 1, .neg (.s 0)⟩,
    ⟨0, 2, .c 0⟩,
    ⟨1, 1, .neg (.c 0)⟩,
    ⟨1, 2, .neg (.s 0)⟩]

/-- `MotionTransforms::Type_fr_Link1_X_fr_DoubleInvertedPendulumBase` (transforms.impl.h:279-309, 311-327). -/
def motion_fr_Link1_X_fr_DoubleInvertedPendulumBase : Gen where
  rows := 6
  cols := 6
  ctor := [⟨0, 0, .k 0 0⟩,
    ⟨0, 3, .k 0 0⟩,
    ⟨0, 4, .k 0 0⟩,
    ⟨0, 5, .k 0 0⟩,
    ⟨1, 0, .k 0 0⟩,
    ⟨1, 3, .k 0 0⟩,
    ⟨1, 4, .k 0 0⟩,
    ⟨1, 5, .k 0 0⟩,
    ⟨2, 0, .k 1 0⟩,
    ⟨2, 1, .k 0 0⟩,
    ⟨2, 2, .k 0 0⟩,
    ⟨2, 3, .k 0 0⟩,
    ⟨2, 4, .k 0 0⟩,
    ⟨2, 5, .k 0 0⟩,
    ⟨3, 0, .k 0 0⟩,
    ⟨3, 1, .k 0 0⟩,
    ⟨3, 2, .k 0 0⟩,
    ⟨3, 3, .k 0 0⟩,
    ⟨4, 0, .k 0 0⟩,
    ⟨4, 1, .k 0 0⟩,
    ⟨4, 2, .k 0 0⟩,
    ⟨4, 3, .k 0 0⟩,
    ⟨5, 0, .k 0 0⟩,
    ⟨5, 1, .k 0 0⟩,
    ⟨5, 2, .k 0 0⟩,
    ⟨5, 3, .k 1 0⟩,
    ⟨5, 4, .k 0 0⟩,
    ⟨5, 5, .k 0 0⟩]
  upd := [⟨0, 1, .neg (.s 0)⟩,
    ⟨0, 2, .c 0⟩,
    ⟨1, 1, .neg (.c 0)⟩,
    ⟨1, 2, .neg (.s 0)⟩,
    ⟨3, 4, .neg (.s 0)⟩,
    ⟨3, 5, .c 0⟩,
    ⟨4, 4, .neg (.c 0)⟩,
    ⟨4, 5, .neg (.s 0)⟩]

/-- `ForceTransforms::Type_fr_Link1_X_fr_DoubleInvertedPendulumBase` (transforms.impl.h:790-820, 822-838). -/
def force_fr_Link1_X_fr_DoubleInvertedPendulumBase : Gen where
  rows := 6
  cols := 6
  ctor := [⟨0, 0, .k 0 0⟩,
    ⟨0, 3, .k 0 0⟩,
    ⟨0, 4, .k 0 0⟩,
    ⟨0, 5, .k 0 0⟩,
    ⟨1, 0, .k 0 0⟩,
    ⟨1, 3, .k 0 0⟩,
    ⟨1, 4, .k 0 0⟩,
    ⟨1, 5, .k 0 0⟩,
    ⟨2, 0, .k 1 0⟩,
    ⟨2, 1, .k 0 0⟩,
    ⟨2, 2, .k 0 0⟩,
    ⟨2, 3, .k 0 0⟩,
    ⟨2, 4, .k 0 0⟩,
    ⟨2, 5, .k 0 0⟩,
    ⟨3, 0, .k 0 0⟩,
    ⟨3, 1, .k 0 0⟩,
    ⟨3, 2, .k 0 0⟩,
    ⟨3, 3, .k 0 0⟩,
    ⟨4, 0, .k 0 0⟩,
    ⟨4, 1, .k 0 0⟩,
    ⟨4, 2, .k 0 0⟩,
    ⟨4, 3, .k 0 0⟩,
    ⟨5, 0, .k 0 0⟩,
    ⟨5, 1, .k 0 0⟩,
    ⟨5, 2, .k 0 0⟩,
    ⟨5, 3, .k 1 0⟩,
    ⟨5, 4, .k 0 0⟩,
    ⟨5, 5, .k 0 0⟩]
  upd := [⟨0, 1, .neg (.s 0)⟩,
    ⟨0, 2, .c 0⟩,
    ⟨1, 1, .neg (.c 0)⟩,
    ⟨1, 2, .neg (.s 0)⟩,
    ⟨3, 4, .neg (.s 0)⟩,
    ⟨3, 5, .c 0⟩,
    ⟨4, 4, .neg (.c 0)⟩,
    ⟨4, 5, .neg (.s 0)⟩]

/-- The transforms `fr_Link1_X_fr_DoubleInvertedPendulumBase`. -/
def fr_Link1_X_fr_DoubleInvertedPendulumBase : Trans := ⟨fr_Link1, fr_DoubleInvertedPendulumBase, hom_fr_Link1_X_fr_DoubleInvertedPendulumBase, motion_fr_Link1_X_fr_DoubleInvertedPendulumBase, force_fr_Link1_X_fr_DoubleInvertedPendulumBase⟩

/-- `HomogeneousTransforms::Type_fr_ee_X_fr_DoubleInvertedPendulumBase` (transforms.impl.h:1251-1263, 1265-1283). -/
def hom_fr_ee_X_fr_DoubleInvertedPendulumBase : Gen where
  rows := 4
  cols := 4
  ctor := [⟨0, 0, .k 0 0⟩,
    ⟨1, 0, .k 0 0⟩,
    ⟨2, 0, .k 1 0⟩,
    ⟨2, 1, .k 0 0⟩,
    ⟨2, 2, .k 0 0⟩,
    ⟨2, 3, .k 0 0⟩,
    ⟨3, 0, .k 0 0⟩,
    ⟨3, 1, .k 0 0⟩,
    ⟨3, 2, .k 0 0⟩,
    ⟨3, 3, .k 1 0⟩]
  upd := [⟨0, 1, ((.neg (.c 0)) ⊠ (.s 1)) ⊟ ((.s 0) ⊠ (.c 1))⟩,
    ⟨0, 2, ((.c 0) ⊠ (.c 1)) ⊟ ((.s 0) ⊠ (.s 1))⟩,
    ⟨0, 3, (.neg (.c 1)) ⊟ (.k 1 0)⟩,
    ⟨1, 1, ((.s 0) ⊠ (.s 1)) ⊟ ((.c 0) ⊠ (.c 1))⟩,
    ⟨1, 2, ((.neg (.c 0)) ⊠ (.s 1)) ⊟ ((.s 0) ⊠ (.c 1))⟩,
    ⟨1, 3, .s 1⟩]

/-- `MotionTransforms::Type_fr_ee_X_fr_DoubleInvertedPendulumBase` (transforms.impl.h:329-355, 357-381). -/
def motion_fr_ee_X_fr_DoubleInvertedPendulumBase : Gen where
  rows := 6
  cols := 6
  ctor := [⟨0, 0, .k 0 0⟩,
    ⟨0, 3, .k 0 0⟩,
    ⟨0, 4, .k 0 0⟩,
    ⟨0, 5, .k 0 0⟩,
    ⟨1, 0, .k 0 0⟩,
    ⟨1, 3, .k 0 0⟩,
    ⟨1, 4, .k 0 0⟩,
    ⟨1, 5, .k 0 0⟩,
    ⟨2, 0, .k 1 0⟩,
    ⟨2, 1, .k 0 0⟩,
    ⟨2, 2, .k 0 0⟩,
    ⟨2, 3, .k 0 0⟩,
    ⟨2, 4, .k 0 0⟩,
    ⟨2, 5, .k 0 0⟩,
    ⟨3, 1, .k 0 0⟩,
    ⟨3, 2, .k 0 0⟩,
    ⟨3, 3, .k 0 0⟩,
    ⟨4, 1, .k 0 0⟩,
    ⟨4, 2, .k 0 0⟩,
    ⟨4, 3, .k 0 0⟩,
    ⟨5, 0, .k 0 0⟩,
    ⟨5, 3, .k 1 0⟩,
    ⟨5, 4, .k 0 0⟩,
    ⟨5, 5, .k 0 0⟩]
  upd := [⟨0, 1, ((.neg (.c 0)) ⊠ (.s 1)) ⊟ ((.s 0) ⊠ (.c 1))⟩,
    ⟨0, 2, ((.c 0) ⊠ (.c 1)) ⊟ ((.s 0) ⊠ (.s 1))⟩,
    ⟨1, 1, ((.s 0) ⊠ (.s 1)) ⊟ ((.c 0) ⊠ (.c 1))⟩,
    ⟨1, 2, ((.neg (.c 0)) ⊠ (.s 1)) ⊟ ((.s 0) ⊠ (.c 1))⟩,
    ⟨3, 0, .s 1⟩,
    ⟨3, 4, ((.neg (.c 0)) ⊠ (.s 1)) ⊟ ((.s 0) ⊠ (.c 1))⟩,
    ⟨3, 5, ((.c 0) ⊠ (.c 1)) ⊟ ((.s 0) ⊠ (.s 1))⟩,
    ⟨4, 0, (.c 1) ⊞ (.k 1 0)⟩,
    ⟨4, 4, ((.s 0) ⊠ (.s 1)) ⊟ ((.c 0) ⊠ (.c 1))⟩,
    ⟨4, 5, ((.neg (.c 0)) ⊠ (.s 1)) ⊟ ((.s 0) ⊠ (.c 1))⟩,
    ⟨5, 1, (((.neg (.s 0)) ⊠ (.s 1)) ⊞ ((.c 0) ⊠ (.c 1))) ⊞ (.c 0)⟩,
    ⟨5, 2, (((.c 0) ⊠ (.s 1)) ⊞ ((.s 0) ⊠ (.c 1))) ⊞ (.s 0)⟩]

/-- `ForceTransforms::Type_fr_ee_X_fr_DoubleInvertedPendulumBase` (transforms.impl.h:840-866, 868-892). -/
def force_fr_ee_X_fr_DoubleInvertedPendulumBase : Gen where
  rows := 6
  cols := 6
  ctor := [⟨0, 0, .k 0 0⟩,
    ⟨0, 4, .k 0 0⟩,
    ⟨0, 5, .k 0 0⟩,
    ⟨1, 0, .k 0 0⟩,
    ⟨1, 4, .k 0 0⟩,
    ⟨1, 5, .k 0 0⟩,
    ⟨2, 0, .k 1 0⟩,
    ⟨2, 1, .k 0 0⟩,
    ⟨2, 2, .k 0 0⟩,
    ⟨2, 3, .k 0 0⟩,
    ⟨3, 0, .k 0 0⟩,
    ⟨3, 1, .k 0 0⟩,
    ⟨3, 2, .k 0 0⟩,
    ⟨3, 3, .k 0 0⟩,
    ⟨4, 0, .k 0 0⟩,
    ⟨4, 1, .k 0 0⟩,
    ⟨4, 2, .k 0 0⟩,
    ⟨4, 3, .k 0 0⟩,
    ⟨5, 0, .k 0 0⟩,
    ⟨5, 1, .k 0 0⟩,
    ⟨5, 2, .k 0 0⟩,
    ⟨5, 3, .k 1 0⟩,
    ⟨5, 4, .k 0 0⟩,
    ⟨5, 5, .k 0 0⟩]
  upd := [⟨0, 1, ((.neg (.c 0)) ⊠ (.s 1)) ⊟ ((.s 0) ⊠ (.c 1))⟩,
    ⟨0, 2, ((.c 0) ⊠ (.c 1)) ⊟ ((.s 0) ⊠ (.s 1))⟩,
    ⟨0, 3, .s 1⟩,
    ⟨1, 1, ((.s 0) ⊠ (.s 1)) ⊟ ((.c 0) ⊠ (.c 1))⟩,
    ⟨1, 2, ((.neg (.c 0)) ⊠ (.s 1)) ⊟ ((.s 0) ⊠ (.c 1))⟩,
    ⟨1, 3, (.c 1) ⊞ (.k 1 0)⟩,
    ⟨2, 4, (((.neg (.s 0)) ⊠ (.s 1)) ⊞ ((.c 0) ⊠ (.c 1))) ⊞ (.c 0)⟩,
    ⟨2, 5, (((.c 0) ⊠ (.s 1)) ⊞ ((.s 0) ⊠ (.c 1))) ⊞ (.s 0)⟩,
    ⟨3, 4, ((.neg (.c 0)) ⊠ (.s 1)) ⊟ ((.s 0) ⊠ (.c 1))⟩,
    ⟨3, 5, ((.c 0) ⊠ (.c 1)) ⊟ ((.s 0) ⊠ (.s 1))⟩,
    ⟨4, 4, ((.s 0) ⊠ (.s 1)) ⊟ ((.c 0) ⊠ (.c 1))⟩,
    ⟨4, 5, ((.neg (.c 0)) ⊠ (.s 1)) ⊟ ((.s 0) ⊠ (.c 1))⟩]

/-- The transforms `fr_ee_X_fr_DoubleInvertedPendulumBase`. -/
def fr_ee_X_fr_DoubleInvertedPendulumBase : Trans := ⟨fr_ee, fr_DoubleInvertedPendulumBase, hom_fr_ee_X_fr_DoubleInvertedPendulumBase, motion_fr_ee_X_fr_DoubleInvertedPendulumBase, force_fr_ee_X_fr_DoubleInvertedPendulumBase⟩

/-- `HomogeneousTransforms::Type_fr_DoubleInvertedPendulumBase_X_fr_Joint1` (transforms.impl.h:1285-1303, 1305-1307). -/
def hom_fr_DoubleInvertedPendulumBase_X_fr_Joint1 : Gen where
  rows := 4
  cols := 4
  ctor := [⟨0, 0, .k 0 0⟩,
    ⟨0, 1, .k 0 0⟩,
    ⟨0, 2, .k 1 0⟩,
    ⟨0, 3, .k 0 0⟩,
    ⟨1, 0, .k 0 0⟩,
    ⟨1, 1, .neg (.k 1 0)⟩,
    ⟨1, 2, .k 0 0⟩,
    ⟨1, 3, .k 0 0⟩,
    ⟨2, 0, .k 1 0⟩,
    ⟨2, 1, .k 0 0⟩,
    ⟨2, 2, .k 0 0⟩,
    ⟨2, 3, .k 0 0⟩,
    ⟨3, 0, .k 0 0⟩,
    ⟨3, 1, .k 0 0⟩,
    ⟨3, 2, .k 0 0⟩,
    ⟨3, 3, .k 1 0⟩]
  upd := []

/-- `MotionTransforms::Type_fr_DoubleInvertedPendulumBase_X_fr_Joint1` (transforms.impl.h:383-421, 423-425). -/
def motion_fr_DoubleInvertedPendulumBase_X_fr_Joint1 : Gen where
  rows := 6
  cols := 6
  ctor := [⟨0, 0, .k 0 0⟩,
    ⟨0, 1, .k 0 0⟩,
    ⟨0, 2, .k 1 0⟩,
    ⟨0, 3, .k 0 0⟩,
    ⟨0, 4, .k 0 0⟩,
    ⟨0, 5, .k 0 0⟩,
    ⟨1, 0, .k 0 0⟩,
    ⟨1, 1, .neg (.k 1 0)⟩,
    ⟨1, 2, .k 0 0⟩,
    ⟨1, 3, .k 0 0⟩,
    ⟨1, 4, .k 0 0⟩,
    ⟨1, 5, .k 0 0⟩,
    ⟨2, 0, .k 1 0⟩,
    ⟨2, 1, .k 0 0⟩,
    ⟨2, 2, .k 0 0⟩,
    ⟨2, 3, .k 0 0⟩,
    ⟨2, 4, .k 0 0⟩,
    ⟨2, 5, .k 0 0⟩,
    ⟨3, 0, .k 0 0⟩,
    ⟨3, 1, .k 0 0⟩,
    ⟨3, 2, .k 0 0⟩,
    ⟨3, 3, .k 0 0⟩,
    ⟨3, 4, .k 0 0⟩,
    ⟨3, 5, .k 1 0⟩,
    ⟨4, 0, .k 0 0⟩,
    ⟨4, 1, .k 0 0⟩,
    ⟨4, 2, .k 0 0⟩,
    ⟨4, 3, .k 0 0⟩,
    ⟨4, 4, .neg (.k 1 0)⟩,
    ⟨4, 5, .k 0 0⟩,
    ⟨5, 0, .k 0 0⟩,
    ⟨5, 1, .k 0 0⟩,
    ⟨5, 2, .k 0 0⟩,
    ⟨5, 3, .k 1 0⟩,
    ⟨5, 4, .k 0 0⟩,
    ⟨5, 5, .k 0 0⟩]
  upd := []

/-- `ForceTransforms::Type_fr_DoubleInvertedPendulumBase_X_fr_Joint1` (transforms.impl.h:894-932, 934-936). -/
def force_fr_DoubleInvertedPendulumBase_X_fr_Joint1 : Gen where
  rows := 6
  cols := 6
  ctor := [⟨0, 0, .k 0 0⟩,
    ⟨0, 1, .k 0 0⟩,
    ⟨0, 2, .k 1 0⟩,
    ⟨0, 3, .k 0 0⟩,
    ⟨0, 4, .k 0 0⟩,
    ⟨0, 5, .k 0 0⟩,
    ⟨1, 0, .k 0 0⟩,
    ⟨1, 1, .neg (.k 1 0)⟩,
    ⟨1, 2, .k 0 0⟩,
    ⟨1, 3, .k 0 0⟩,
    ⟨1, 4, .k 0 0⟩,
    ⟨1, 5, .k 0 0⟩,
    ⟨2, 0, .k 1 0⟩,
    ⟨2, 1, .k 0 0⟩,
    ⟨2, 2, .k 0 0⟩,
    ⟨2, 3, .k 0 0⟩,
    ⟨2, 4, .k 0 0⟩,
    ⟨2, 5, .k 0 0⟩,
    ⟨3, 0, .k 0 0⟩,
    ⟨3, 1, .k 0 0⟩,
    ⟨3, 2, .k 0 0⟩,
    ⟨3, 3, .k 0 0⟩,
    ⟨3, 4, .k 0 0⟩,
    ⟨3, 5, .k 1 0⟩,
    ⟨4, 0, .k 0 0⟩,
    ⟨4, 1, .k 0 0⟩,
    ⟨4, 2, .k 0 0⟩,
    ⟨4, 3, .k 0 0⟩,
    ⟨4, 4, .neg (.k 1 0)⟩,
    ⟨4, 5, .k 0 0⟩,
    ⟨5, 0, .k 0 0⟩,
    ⟨5, 1, .k 0 0⟩,
    ⟨5, 2, .k 0 0⟩,
    ⟨5, 3, .k 1 0⟩,
    ⟨5, 4, .k 0 0⟩,
    ⟨5, 5, .k 0 0⟩]
  upd := []

/-- The transforms `fr_DoubleInvertedPendulumBase_X_fr_Joint1`. -/
def fr_DoubleInvertedPendulumBase_X_fr_Joint1 : Trans := ⟨fr_DoubleInvertedPendulumBase, fr_Joint1, hom_fr_DoubleInvertedPendulumBase_X_fr_Joint1, motion_fr_DoubleInvertedPendulumBase_X_fr_Joint1, force_fr_DoubleInvertedPendulumBase_X_fr_Joint1⟩

/-- `HomogeneousTransforms::Type_fr_DoubleInvertedPendulumBase_X_fr_Joint2` (transforms.impl.h:1309-1321, 1323-1337). -/
def hom_fr_DoubleInvertedPendulumBase_X_fr_Joint2 : Gen where
  rows := 4
  cols := 4
  ctor := [⟨0, 0, .k 0 0⟩,
    ⟨0, 1, .k 0 0⟩,
    ⟨0, 2, .k 1 0⟩,
    ⟨0, 3, .k 0 0⟩,
    ⟨1, 2, .k 0 0⟩,
    ⟨2, 2, .k 0 0⟩,
    ⟨3, 0, .k 0 0⟩,
    ⟨3, 1, .k 0 0⟩,
    ⟨3, 2, .k 0 0⟩,
    ⟨3, 3, .k 1 0⟩]
  upd := [⟨1, 0, .neg (.s 0)⟩,
    ⟨1, 1, .neg (.c 0)⟩,
    ⟨1, 3, .neg (.s 0)⟩,
    ⟨2, 0, .c 0⟩,
    ⟨2, 1, .neg (.s 0)⟩,
    ⟨2, 3, .c 0⟩]

/-- `MotionTransforms::Type_fr_DoubleInvertedPendulumBase_X_fr_Joint2` (transforms.impl.h:427-455, 457-475). -/
def motion_fr_DoubleInvertedPendulumBase_X_fr_Joint2 : Gen where
  rows := 6
  cols := 6
  ctor := [⟨0, 0, .k 0 0⟩,
    ⟨0, 1, .k 0 0⟩,
    ⟨0, 2, .k 1 0⟩,
    ⟨0, 3, .k 0 0⟩,
    ⟨0, 4, .k 0 0⟩,
    ⟨0, 5, .k 0 0⟩,
    ⟨1, 2, .k 0 0⟩,
    ⟨1, 3, .k 0 0⟩,
    ⟨1, 4, .k 0 0⟩,
    ⟨1, 5, .k 0 0⟩,
    ⟨2, 2, .k 0 0⟩,
    ⟨2, 3, .k 0 0⟩,
    ⟨2, 4, .k 0 0⟩,
    ⟨2, 5, .k 0 0⟩,
    ⟨3, 0, .k 0 0⟩,
    ⟨3, 1, .k 1 0⟩,
    ⟨3, 2, .k 0 0⟩,
    ⟨3, 3, .k 0 0⟩,
    ⟨3, 4, .k 0 0⟩,
    ⟨3, 5, .k 1 0⟩,
    ⟨4, 0, .k 0 0⟩,
    ⟨4, 1, .k 0 0⟩,
    ⟨4, 5, .k 0 0⟩,
    ⟨5, 0, .k 0 0⟩,
    ⟨5, 1, .k 0 0⟩,
    ⟨5, 5, .k 0 0⟩]
  upd := [⟨1, 0, .neg (.s 0)⟩,
    ⟨1, 1, .neg (.c 0)⟩,
    ⟨2, 0, .c 0⟩,
    ⟨2, 1, .neg (.s 0)⟩,
    ⟨4, 2, .c 0⟩,
    ⟨4, 3, .neg (.s 0)⟩,
    ⟨4, 4, .neg (.c 0)⟩,
    ⟨5, 2, .s 0⟩,
    ⟨5, 3, .c 0⟩,
    ⟨5, 4, .neg (.s 0)⟩]

/-- `ForceTransforms::Type_fr_DoubleInvertedPendulumBase_X_fr_Joint2` (transforms.impl.h:938-966, 968-986). -/
def force_fr_DoubleInvertedPendulumBase_X_fr_Joint2 : Gen where
  rows := 6
  cols := 6
  ctor := [⟨0, 0, .k 0 0⟩,
    ⟨0, 1, .k 0 0⟩,
    ⟨0, 2, .k 1 0⟩,
    ⟨0, 3, .k 0 0⟩,
    ⟨0, 4, .k 1 0⟩,
    ⟨0, 5, .k 0 0⟩,
    ⟨1, 2, .k 0 0⟩,
    ⟨1, 3, .k 0 0⟩,
    ⟨1, 4, .k 0 0⟩,
    ⟨2, 2, .k 0 0⟩,
    ⟨2, 3, .k 0 0⟩,
    ⟨2, 4, .k 0 0⟩,
    ⟨3, 0, .k 0 0⟩,
    ⟨3, 1, .k 0 0⟩,
    ⟨3, 2, .k 0 0⟩,
    ⟨3, 3, .k 0 0⟩,
    ⟨3, 4, .k 0 0⟩,
    ⟨3, 5, .k 1 0⟩,
    ⟨4, 0, .k 0 0⟩,
    ⟨4, 1, .k 0 0⟩,
    ⟨4, 2, .k 0 0⟩,
    ⟨4, 5, .k 0 0⟩,
    ⟨5, 0, .k 0 0⟩,
    ⟨5, 1, .k 0 0⟩,
    ⟨5, 2, .k 0 0⟩,
    ⟨5, 5, .k 0 0⟩]
  upd := [⟨1, 0, .neg (.s 0)⟩,
    ⟨1, 1, .neg (.c 0)⟩,
    ⟨1, 5, .c 0⟩,
    ⟨2, 0, .c 0⟩,
    ⟨2, 1, .neg (.s 0)⟩,
    ⟨2, 5, .s 0⟩,
    ⟨4, 3, .neg (.s 0)⟩,
    ⟨4, 4, .neg (.c 0)⟩,
    ⟨5, 3, .c 0⟩,
    ⟨5, 4, .neg (.s 0)⟩]

/-- The transforms `fr_DoubleInvertedPendulumBase_X_fr_Joint2`. -/
def fr_DoubleInvertedPendulumBase_X_fr_Joint2 : Trans := ⟨fr_DoubleInvertedPendulumBase, fr_Joint2, hom_fr_DoubleInvertedPendulumBase_X_fr_Joint2, motion_fr_DoubleInvertedPendulumBase_X_fr_Joint2, force_fr_DoubleInvertedPendulumBase_X_fr_Joint2⟩

/-- `HomogeneousTransforms::Type_fr_Link2_X_fr_Link1` (transforms.impl.h:1339-1351, 1353-1367). -/
def hom_fr_Link2_X_fr_Link1 : Gen where
  rows := 4
  cols := 4
  ctor := [⟨0, 2, .k 0 0⟩,
    ⟨1, 2, .k 0 0⟩,
    ⟨2, 0, .k 0 0⟩,
    ⟨2, 1, .k 0 0⟩,
    ⟨2, 2, .k 1 0⟩,
    ⟨2, 3, .k 0 0⟩,
    ⟨3, 0, .k 0 0⟩,
    ⟨3, 1, .k 0 0⟩,
    ⟨3, 2, .k 0 0⟩,
    ⟨3, 3, .k 1 0⟩]
  upd := [⟨0, 0, .c 1⟩,
    ⟨0, 1, .s 1⟩,
    ⟨0, 3, .neg (.c 1)⟩,
    ⟨1, 0, .neg (.s 1)⟩,
    ⟨1, 1, .c 1⟩,
    ⟨1, 3, .s 1⟩]

/-- `MotionTransforms::Type_fr_Link2_X_fr_Link1` (transforms.impl.h:477-505, 507-525). -/
def motion_fr_Link2_X_fr_Link1 : Gen where
  rows := 6
  cols := 6
  ctor := [⟨0, 2, .k 0 0⟩,
    ⟨0, 3, .k 0 0⟩,
    ⟨0, 4, .k 0 0⟩,
    ⟨0, 5, .k 0 0⟩,
    ⟨1, 2, .k 0 0⟩,
    ⟨1, 3, .k 0 0⟩,
    ⟨1, 4, .k 0 0⟩,
    ⟨1, 5, .k 0 0⟩,
    ⟨2, 0, .k 0 0⟩,
    ⟨2, 1, .k 0 0⟩,
    ⟨2, 2, .k 1 0⟩,
    ⟨2, 3, .k 0 0⟩,
    ⟨2, 4, .k 0 0⟩,
    ⟨2, 5, .k 0 0⟩,
    ⟨3, 0, .k 0 0⟩,
    ⟨3, 1, .k 0 0⟩,
    ⟨3, 5, .k 0 0⟩,
    ⟨4, 0, .k 0 0⟩,
    ⟨4, 1, .k 0 0⟩,
    ⟨4, 5, .k 0 0⟩,
    ⟨5, 0, .k 0 0⟩,
    ⟨5, 1, .neg (.k 1 0)⟩,
    ⟨5, 2, .k 0 0⟩,
    ⟨5, 3, .k 0 0⟩,
    ⟨5, 4, .k 0 0⟩,
    ⟨5, 5, .k 1 0⟩]
  upd := [⟨0, 0, .c 1⟩,
    ⟨0, 1, .s 1⟩,
    ⟨1, 0, .neg (.s 1)⟩,
    ⟨1, 1, .c 1⟩,
    ⟨3, 2, .s 1⟩,
    ⟨3, 3, .c 1⟩,
    ⟨3, 4, .s 1⟩,
    ⟨4, 2, .c 1⟩,
    ⟨4, 3, .neg (.s 1)⟩,
    ⟨4, 4, .c 1⟩]

/-- `ForceTransforms::Type_fr_Link2_X_fr_Link1` (transforms.impl.h:988-1016, 1018-1036). -/
def force_fr_Link2_X_fr_Link1 : Gen where
  rows := 6
  cols := 6
  ctor := [⟨0, 2, .k 0 0⟩,
    ⟨0, 3, .k 0 0⟩,
    ⟨0, 4, .k 0 0⟩,
    ⟨1, 2, .k 0 0⟩,
    ⟨1, 3, .k 0 0⟩,
    ⟨1, 4, .k 0 0⟩,
    ⟨2, 0, .k 0 0⟩,
    ⟨2, 1, .k 0 0⟩,
    ⟨2, 2, .k 1 0⟩,
    ⟨2, 3, .k 0 0⟩,
    ⟨2, 4, .neg (.k 1 0)⟩,
    ⟨2, 5, .k 0 0⟩,
    ⟨3, 0, .k 0 0⟩,
    ⟨3, 1, .k 0 0⟩,
    ⟨3, 2, .k 0 0⟩,
    ⟨3, 5, .k 0 0⟩,
    ⟨4, 0, .k 0 0⟩,
    ⟨4, 1, .k 0 0⟩,
    ⟨4, 2, .k 0 0⟩,
    ⟨4, 5, .k 0 0⟩,
    ⟨5, 0, .k 0 0⟩,
    ⟨5, 1, .k 0 0⟩,
    ⟨5, 2, .k 0 0⟩,
    ⟨5, 3, .k 0 0⟩,
    ⟨5, 4, .k 0 0⟩,
    ⟨5, 5, .k 1 0⟩]
  upd := [⟨0, 0, .c 1⟩,
    ⟨0, 1, .s 1⟩,
    ⟨0, 5, .s 1⟩,
    ⟨1, 0, .neg (.s 1)⟩,
    ⟨1, 1, .c 1⟩,
    ⟨1, 5, .c 1⟩,
    ⟨3, 3, .c 1⟩,
    ⟨3, 4, .s 1⟩,
    ⟨4, 3, .neg (.s 1)⟩,
    ⟨4, 4, .c 1⟩]

/-- The transforms `fr_Link2_X_fr_Link1`. -/
def fr_Link2_X_fr_Link1 : Trans := ⟨fr_Link2, fr_Link1, hom_fr_Link2_X_fr_Link1, motion_fr_Link2_X_fr_Link1, force_fr_Link2_X_fr_Link1⟩

/-- `HomogeneousTransforms::Type_fr_Link1_X_fr_Link2` (transforms.impl.h:1369-1383, 1385-1397). -/
def hom_fr_Link1_X_fr_Link2 : Gen where
  rows := 4
  cols := 4
  ctor := [⟨0, 2, .k 0 0⟩,
    ⟨0, 3, .k 1 0⟩,
    ⟨1, 2, .k 0 0⟩,
    ⟨1, 3, .k 0 0⟩,
    ⟨2, 0, .k 0 0⟩,
    ⟨2, 1, .k 0 0⟩,
    ⟨2, 2, .k 1 0⟩,
    ⟨2, 3, .k 0 0⟩,
    ⟨3, 0, .k 0 0⟩,
    ⟨3, 1, .k 0 0⟩,
    ⟨3, 2, .k 0 0⟩,
    ⟨3, 3, .k 1 0⟩]
  upd := [⟨0, 0, .c 1⟩,
    ⟨0, 1, .neg (.s 1)⟩,
    ⟨1, 0, .s 1⟩,
    ⟨1, 1, .c 1⟩]

/-- `MotionTransforms::Type_fr_Link1_X_fr_Link2` (transforms.impl.h:527-555, 557-575). -/
def motion_fr_Link1_X_fr_Link2 : Gen where
  rows := 6
  cols := 6
  ctor := [⟨0, 2, .k 0 0⟩,
    ⟨0, 3, .k 0 0⟩,
    ⟨0, 4, .k 0 0⟩,
    ⟨0, 5, .k 0 0⟩,
    ⟨1, 2, .k 0 0⟩,
    ⟨1, 3, .k 0 0⟩,
    ⟨1, 4, .k 0 0⟩,
    ⟨1, 5, .k 0 0⟩,
    ⟨2, 0, .k 0 0⟩,
    ⟨2, 1, .k 0 0⟩,
    ⟨2, 2, .k 1 0⟩,
    ⟨2, 3, .k 0 0⟩,
    ⟨2, 4, .k 0 0⟩,
    ⟨2, 5, .k 0 0⟩,
    ⟨3, 0, .k 0 0⟩,
    ⟨3, 1, .k 0 0⟩,
    ⟨3, 2, .k 0 0⟩,
    ⟨3, 5, .k 0 0⟩,
    ⟨4, 0, .k 0 0⟩,
    ⟨4, 1, .k 0 0⟩,
    ⟨4, 2, .neg (.k 1 0)⟩,
    ⟨4, 5, .k 0 0⟩,
    ⟨5, 2, .k 0 0⟩,
    ⟨5, 3, .k 0 0⟩,
    ⟨5, 4, .k 0 0⟩,
    ⟨5, 5, .k 1 0⟩]
  upd := [⟨0, 0, .c 1⟩,
    ⟨0, 1, .neg (.s 1)⟩,
    ⟨1, 0, .s 1⟩,
    ⟨1, 1, .c 1⟩,
    ⟨3, 3, .c 1⟩,
    ⟨3, 4, .neg (.s 1)⟩,
    ⟨4, 3, .s 1⟩,
    ⟨4, 4, .c 1⟩,
    ⟨5, 0, .s 1⟩,
    ⟨5, 1, .c 1⟩]

/-- `ForceTransforms::Type_fr_Link1_X_fr_Link2` (transforms.impl.h:1038-1066, 1068-1086). -/
def force_fr_Link1_X_fr_Link2 : Gen where
  rows := 6
  cols := 6
  ctor := [⟨0, 2, .k 0 0⟩,
    ⟨0, 3, .k 0 0⟩,
    ⟨0, 4, .k 0 0⟩,
    ⟨0, 5, .k 0 0⟩,
    ⟨1, 2, .k 0 0⟩,
    ⟨1, 3, .k 0 0⟩,
    ⟨1, 4, .k 0 0⟩,
    ⟨1, 5, .neg (.k 1 0)⟩,
    ⟨2, 0, .k 0 0⟩,
    ⟨2, 1, .k 0 0⟩,
    ⟨2, 2, .k 1 0⟩,
    ⟨2, 5, .k 0 0⟩,
    ⟨3, 0, .k 0 0⟩,
    ⟨3, 1, .k 0 0⟩,
    ⟨3, 2, .k 0 0⟩,
    ⟨3, 5, .k 0 0⟩,
    ⟨4, 0, .k 0 0⟩,
    ⟨4, 1, .k 0 0⟩,
    ⟨4, 2, .k 0 0⟩,
    ⟨4, 5, .k 0 0⟩,
    ⟨5, 0, .k 0 0⟩,
    ⟨5, 1, .k 0 0⟩,
    ⟨5, 2, .k 0 0⟩,
    ⟨5, 3, .k 0 0⟩,
    ⟨5, 4, .k 0 0⟩,
    ⟨5, 5, .k 1 0⟩]
  upd := [⟨0, 0, .c 1⟩,
    ⟨0, 1, .neg (.s 1)⟩,
    ⟨1, 0, .s 1⟩,
    ⟨1, 1, .c 1⟩,
    ⟨2, 3, .s 1⟩,
    ⟨2, 4, .c 1⟩,
    ⟨3, 3, .c 1⟩,
    ⟨3, 4, .neg (.s 1)⟩,
    ⟨4, 3, .s 1⟩,
    ⟨4, 4, .c 1⟩]

/-- The transforms `fr_Link1_X_fr_Link2`. -/
def fr_Link1_X_fr_Link2 : Trans := ⟨fr_Link1, fr_Link2, hom_fr_Link1_X_fr_Link2, motion_fr_Link1_X_fr_Link2, force_fr_Link1_X_fr_Link2⟩

/-- All pairs of frames for which transforms are generated. -/
def transforms : List Trans :=
  [fr_DoubleInvertedPendulumBase_X_fr_Link1,
    fr_DoubleInvertedPendulumBase_X_fr_Link2,
    fr_DoubleInvertedPendulumBase_X_fr_ee,
    fr_Link2_X_fr_DoubleInvertedPendulumBase,
    fr_Link1_X_fr_DoubleInvertedPendulumBase,
    fr_ee_X_fr_DoubleInvertedPendulumBase,
    fr_DoubleInvertedPendulumBase_X_fr_Joint1,
    fr_DoubleInvertedPendulumBase_X_fr_Joint2,
    fr_Link2_X_fr_Link1,
    fr_Link1_X_fr_Link2]

/-! ### Jacobians -/

/-- `Jacobians::Type_fr_DoubleInvertedPendulumBase_J_fr_Link2` (jacobians.impl.h:19-31, 34-44). -/
def gen_fr_DoubleInvertedPendulumBase_J_fr_Link2 : Gen where
  rows := 6
  cols := 2
  ctor := [⟨0, 0, .k 1 0⟩,
    ⟨0, 1, .k 1 0⟩,
    ⟨1, 0, .k 0 0⟩,
    ⟨1, 1, .k 0 0⟩,
    ⟨2, 0, .k 0 0⟩,
    ⟨2, 1, .k 0 0⟩,
    ⟨3, 0, .k 0 0⟩,
    ⟨3, 1, .k 0 0⟩,
    ⟨4, 1, .k 0 0⟩,
    ⟨5, 1, .k 0 0⟩]
  upd := [⟨4, 0, .neg (.c 0)⟩,
    ⟨5, 0, .neg (.s 0)⟩]

/-- The Jacobian `fr_DoubleInvertedPendulumBase_J_fr_Link2`. -/
def fr_DoubleInvertedPendulumBase_J_fr_Link2 : Jac := ⟨fr_Link2, gen_fr_DoubleInvertedPendulumBase_J_fr_Link2⟩

/-- `Jacobians::Type_fr_DoubleInvertedPendulumBase_J_fr_Link1` (jacobians.impl.h:46-54, 57-59). -/
def gen_fr_DoubleInvertedPendulumBase_J_fr_Link1 : Gen where
  rows := 6
  cols := 1
  ctor := [⟨0, 0, .k 1 0⟩,
    ⟨1, 0, .k 0 0⟩,
    ⟨2, 0, .k 0 0⟩,
    ⟨3, 0, .k 0 0⟩,
    ⟨4, 0, .k 0 0⟩,
    ⟨5, 0, .k 0 0⟩]
  upd := []

/-- The Jacobian `fr_DoubleInvertedPendulumBase_J_fr_Link1`. -/
def fr_DoubleInvertedPendulumBase_J_fr_Link1 : Jac := ⟨fr_Link1, gen_fr_DoubleInvertedPendulumBase_J_fr_Link1⟩

/-- `Jacobians::Type_fr_DoubleInvertedPendulumBase_J_fr_ee` (jacobians.impl.h:61-71, 74-90). -/
def gen_fr_DoubleInvertedPendulumBase_J_fr_ee : Gen where
  rows := 6
  cols := 2
  ctor := [⟨0, 0, .k 1 0⟩,
    ⟨0, 1, .k 1 0⟩,
    ⟨1, 0, .k 0 0⟩,
    ⟨1, 1, .k 0 0⟩,
    ⟨2, 0, .k 0 0⟩,
    ⟨2, 1, .k 0 0⟩,
    ⟨3, 0, .k 0 0⟩,
    ⟨3, 1, .k 0 0⟩]
  upd := [⟨4, 0, (((.s 0) ⊠ (.s 1)) ⊟ ((.c 0) ⊠ (.c 1))) ⊟ (.c 0)⟩,
    ⟨4, 1, ((.s 0) ⊠ (.s 1)) ⊟ ((.c 0) ⊠ (.c 1))⟩,
    ⟨5, 0, (((.neg (.c 0)) ⊠ (.s 1)) ⊟ ((.s 0) ⊠ (.c 1))) ⊟ (.s 0)⟩,
    ⟨5, 1, ((.neg (.c 0)) ⊠ (.s 1)) ⊟ ((.s 0) ⊠ (.c 1))⟩]

/-- The Jacobian `fr_DoubleInvertedPendulumBase_J_fr_ee`. -/
def fr_DoubleInvertedPendulumBase_J_fr_ee : Jac := ⟨fr_ee, gen_fr_DoubleInvertedPendulumBase_J_fr_ee⟩

/-- All Jacobians. -/
def jacobians : List Jac :=
  [fr_DoubleInvertedPendulumBase_J_fr_Link2,
    fr_DoubleInvertedPendulumBase_J_fr_Link1,
    fr_DoubleInvertedPendulumBase_J_fr_ee]

end CT.Robots.DoubleInvertedPendulum.Kin
