import Verif.Model.GenKin

/-!
# InvertedPendulum: generated kinematics

Translation of all coordinate transforms and Jacobians in
`ct_models/include/ct/models/InvertedPendulum/generated/transforms.impl.h` and `jacobians.impl.h`, one entry for each
assignment, written by `tools/gen_kin.py`.  Line numbers are those of these two files.
-/

namespace CT.Robots.InvertedPendulum.Kin

open CT.GenKin

/-! ### Frames, in the order of the links and then of their appearance -/

abbrev fr_InvertedPendulumBase : ℕ := 0
abbrev fr_Link1 : ℕ := 1
abbrev fr_ee : ℕ := 2
abbrev fr_Joint1 : ℕ := 3

/-! ### Joints (declarations.h) -/

abbrev JOINT1 : ℕ := 0

/-! ### Coordinate transforms -/

/-- `HomogeneousTransforms::Type_fr_InvertedPendulumBase_X_fr_Link1` (transforms.impl.h:542-556, 558-570). -/
def hom_fr_InvertedPendulumBase_X_fr_Link1 : Gen where
  rows := 4
  cols := 4
  ctor := [⟨0, 0, .k 0 0⟩,
    ⟨0, 1, .k 0 0⟩,
    ⟨0, 2, .k 1 0⟩,
    ⟨0, 3, .k 0 0⟩,
    ⟨1, 2, .k 0 0⟩,
    ⟨1, 3, .k 0 0⟩,
    ⟨2, 2, .k 0 0⟩,
    ⟨2, 3, .k 0 0⟩,
    ⟨3, 0, .k 0 0⟩,
    ⟨3, 1, .k 0 0⟩,
    ⟨3, 2, .k 0 0⟩,
    ⟨3, 3, .k 1 0⟩]
  upd := [⟨1, 0, .neg (.s 0)⟩,
    ⟨1, 1, .neg (.c 0)⟩,
    ⟨2, 0, .c 0⟩,
    ⟨2, 1, .neg (.s 0)⟩]

/-- `MotionTransforms::Type_fr_InvertedPendulumBase_X_fr_Link1` (transforms.impl.h:52-82, 84-100). -/
def motion_fr_InvertedPendulumBase_X_fr_Link1 : Gen where
  rows := 6
  cols := 6
  ctor := [⟨0, 0, .k 0 0⟩,
    ⟨0, 1, .k 0 0⟩,
    ⟨0, 2, .k 1 0⟩,
    ⟨0, 3, .k 0 0⟩,
    ⟨0, 4, .k 0 0⟩,
    ⟨0, 5, .k 0 0⟩,
    ⟨1, 2, .k 0 0⟩,
    ⟨1, 3, .k 0 0⟩,
    ⟨1, 4, .k 0 0⟩,
    ⟨1, 5, .k 0 0⟩,
    ⟨2, 2, .k 0 0⟩,
    ⟨2, 3, .k 0 0⟩,
    ⟨2, 4, .k 0 0⟩,
    ⟨2, 5, .k 0 0⟩,
    ⟨3, 0, .k 0 0⟩,
    ⟨3, 1, .k 0 0⟩,
    ⟨3, 2, .k 0 0⟩,
    ⟨3, 3, .k 0 0⟩,
    ⟨3, 4, .k 0 0⟩,
    ⟨3, 5, .k 1 0⟩,
    ⟨4, 0, .k 0 0⟩,
    ⟨4, 1, .k 0 0⟩,
    ⟨4, 2, .k 0 0⟩,
    ⟨4, 5, .k 0 0⟩,
    ⟨5, 0, .k 0 0⟩,
    ⟨5, 1, .k 0 0⟩,
    ⟨5, 2, .k 0 0⟩,
    ⟨5, 5, .k 0 0⟩]
  upd := [⟨1, 0, .neg (.s 0)⟩,
    ⟨1, 1, .neg (.c 0)⟩,
    ⟨2, 0, .c 0⟩,
    ⟨2, 1, .neg (.s 0)⟩,
    ⟨4, 3, .neg (.s 0)⟩,
    ⟨4, 4, .neg (.c 0)⟩,
    ⟨5, 3, .c 0⟩,
    ⟨5, 4, .neg (.s 0)⟩]

/-- `ForceTransforms::Type_fr_InvertedPendulumBase_X_fr_Link1` (transforms.impl.h:297-327, 329-345). -/
def force_fr_InvertedPendulumBase_X_fr_Link1 : Gen where
  rows := 6
  cols := 6
  ctor := [⟨0, 0, .k 0 0⟩,
    ⟨0, 1, .k 0 0⟩,
    ⟨0, 2, .k 1 0⟩,
    ⟨0, 3, .k 0 0⟩,
    ⟨0, 4, .k 0 0⟩,
    ⟨0, 5, .k 0 0⟩,
    ⟨1, 2, .k 0 0⟩,
    ⟨1, 3, .k 0 0⟩,
    ⟨1, 4, .k 0 0⟩,
    ⟨1, 5, .k 0 0⟩,
    ⟨2, 2, .k 0 0⟩,
    ⟨2, 3, .k 0 0⟩,
    ⟨2, 4, .k 0 0⟩,
    ⟨2, 5, .k 0 0⟩,
    ⟨3, 0, .k 0 0⟩,
    ⟨3, 1, .k 0 0⟩,
    ⟨3, 2, .k 0 0⟩,
    ⟨3, 3, .k 0 0⟩,
    ⟨3, 4, .k 0 0⟩,
    ⟨3, 5, .k 1 0⟩,
    ⟨4, 0, .k 0 0⟩,
    ⟨4, 1, .k 0 0⟩,
    ⟨4, 2, .k 0 0⟩,
    ⟨4, 5, .k 0 0⟩,
    ⟨5, 0, .k 0 0⟩,
    ⟨5, 1, .k 0 0⟩,
    ⟨5, 2, .k 0 0⟩,
    ⟨5, 5, .k 0 0⟩]
  upd := [⟨1, 0, .neg (.s 0)⟩,
    ⟨1, 1, .neg (.c 0)⟩,
    ⟨2, 0, .c 0⟩,
    ⟨2, 1, .neg (.s 0)⟩,
    ⟨4, 3, .neg (.s 0)⟩,
    ⟨4, 4, .neg (.c 0)⟩,
    ⟨5, 3, .c 0⟩,
    ⟨5, 4, .neg (.s 0)⟩]

/-- The transforms `fr_InvertedPendulumBase_X_fr_Link1`. -/
def fr_InvertedPendulumBase_X_fr_Link1 : Trans := ⟨fr_InvertedPendulumBase, fr_Link1, hom_fr_InvertedPendulumBase_X_fr_Link1, motion_fr_InvertedPendulumBase_X_fr_Link1, force_fr_InvertedPendulumBase_X_fr_Link1⟩

/-- `HomogeneousTransforms::Type_fr_InvertedPendulumBase_X_fr_ee` (transforms.impl.h:572-584, 586-600). -/
def hom_fr_InvertedPendulumBase_X_fr_ee : Gen where
  rows := 4
  cols := 4
  ctor := [⟨0, 0, .k 0 0⟩,
    ⟨0, 1, .k 0 0⟩,
    ⟨0, 2, .k 1 0⟩,
    ⟨0, 3, .k 0 0⟩,
    ⟨1, 2, .k 0 0⟩,
    ⟨2, 2, .k 0 0⟩,
    ⟨3, 0, .k 0 0⟩,
    ⟨3, 1, .k 0 0⟩,
    ⟨3, 2, .k 0 0⟩,
    ⟨3, 3, .k 1 0⟩]
  upd := [⟨1, 0, .neg (.s 0)⟩,
    ⟨1, 1, .neg (.c 0)⟩,
    ⟨1, 3, (.neg (.k 435 3)) ⊠ (.s 0)⟩,
    ⟨2, 0, .c 0⟩,
    ⟨2, 1, .neg (.s 0)⟩,
    ⟨2, 3, (.k 435 3) ⊠ (.c 0)⟩]

/-- `MotionTransforms::Type_fr_InvertedPendulumBase_X_fr_ee` (transforms.impl.h:102-130, 132-150). -/
def motion_fr_InvertedPendulumBase_X_fr_ee : Gen where
  rows := 6
  cols := 6
  ctor := [⟨0, 0, .k 0 0⟩,
    ⟨0, 1, .k 0 0⟩,
    ⟨0, 2, .k 1 0⟩,
    ⟨0, 3, .k 0 0⟩,
    ⟨0, 4, .k 0 0⟩,
    ⟨0, 5, .k 0 0⟩,
    ⟨1, 2, .k 0 0⟩,
    ⟨1, 3, .k 0 0⟩,
    ⟨1, 4, .k 0 0⟩,
    ⟨1, 5, .k 0 0⟩,
    ⟨2, 2, .k 0 0⟩,
    ⟨2, 3, .k 0 0⟩,
    ⟨2, 4, .k 0 0⟩,
    ⟨2, 5, .k 0 0⟩,
    ⟨3, 0, .k 0 0⟩,
    ⟨3, 1, .k 435 3⟩,
    ⟨3, 2, .k 0 0⟩,
    ⟨3, 3, .k 0 0⟩,
    ⟨3, 4, .k 0 0⟩,
    ⟨3, 5, .k 1 0⟩,
    ⟨4, 0, .k 0 0⟩,
    ⟨4, 1, .k 0 0⟩,
    ⟨4, 5, .k 0 0⟩,
    ⟨5, 0, .k 0 0⟩,
    ⟨5, 1, .k 0 0⟩,
    ⟨5, 5, .k 0 0⟩]
  upd := [⟨1, 0, .neg (.s 0)⟩,
    ⟨1, 1, .neg (.c 0)⟩,
    ⟨2, 0, .c 0⟩,
    ⟨2, 1, .neg (.s 0)⟩,
    ⟨4, 2, (.k 435 3) ⊠ (.c 0)⟩,
    ⟨4, 3, .neg (.s 0)⟩,
    ⟨4, 4, .neg (.c 0)⟩,
    ⟨5, 2, (.k 435 3) ⊠ (.s 0)⟩,
    ⟨5, 3, .c 0⟩,
    ⟨5, 4, .neg (.s 0)⟩]

/-- `ForceTransforms::Type_fr_InvertedPendulumBase_X_fr_ee` (transforms.impl.h:347-375, 377-395). -/
def force_fr_InvertedPendulumBase_X_fr_ee : Gen where
  rows := 6
  cols := 6
  ctor := [⟨0, 0, .k 0 0⟩,
    ⟨0, 1, .k 0 0⟩,
    ⟨0, 2, .k 1 0⟩,
    ⟨0, 3, .k 0 0⟩,
    ⟨0, 4, .k 435 3⟩,
    ⟨0, 5, .k 0 0⟩,
    ⟨1, 2, .k 0 0⟩,
    ⟨1, 3, .k 0 0⟩,
    ⟨1, 4, .k 0 0⟩,
    ⟨2, 2, .k 0 0⟩,
    ⟨2, 3, .k 0 0⟩,
    ⟨2, 4, .k 0 0⟩,
    ⟨3, 0, .k 0 0⟩,
    ⟨3, 1, .k 0 0⟩,
    ⟨3, 2, .k 0 0⟩,
    ⟨3, 3, .k 0 0⟩,
    ⟨3, 4, .k 0 0⟩,
    ⟨3, 5, .k 1 0⟩,
    ⟨4, 0, .k 0 0⟩,
    ⟨4, 1, .k 0 0⟩,
    ⟨4, 2, .k 0 0⟩,
    ⟨4, 5, .k 0 0⟩,
    ⟨5, 0, .k 0 0⟩,
    ⟨5, 1, .k 0 0⟩,
    ⟨5, 2, .k 0 0⟩,
    ⟨5, 5, .k 0 0⟩]
  upd := [⟨1, 0, .neg (.s 0)⟩,
    ⟨1, 1, .neg (.c 0)⟩,
    ⟨1, 5, (.k 435 3) ⊠ (.c 0)⟩,
    ⟨2, 0, .c 0⟩,
    ⟨2, 1, .neg (.s 0)⟩,
    ⟨2, 5, (.k 435 3) ⊠ (.s 0)⟩,
    ⟨4, 3, .neg (.s 0)⟩,
    ⟨4, 4, .neg (.c 0)⟩,
    ⟨5, 3, .c 0⟩,
    ⟨5, 4, .neg (.s 0)⟩]

/-- The transforms `fr_InvertedPendulumBase_X_fr_ee`. -/
def fr_InvertedPendulumBase_X_fr_ee : Trans := ⟨fr_InvertedPendulumBase, fr_ee, hom_fr_InvertedPendulumBase_X_fr_ee, motion_fr_InvertedPendulumBase_X_fr_ee, force_fr_InvertedPendulumBase_X_fr_ee⟩

/-- `HomogeneousTransforms::Type_fr_Link1_X_fr_InvertedPendulumBase` (transforms.impl.h:602-616, 618-630). -/
def hom_fr_Link1_X_fr_InvertedPendulumBase : Gen where
  rows := 4
  cols := 4
  ctor := [⟨0, 0, .k 0 0⟩,
    ⟨0, 3, .k 0 0⟩,
    ⟨1, 0, .k 0 0⟩,
    ⟨1, 3, .k 0 0⟩,
    ⟨2, 0, .k 1 0⟩,
    ⟨2, 1, .k 0 0⟩,
    ⟨2, 2, .k 0 0⟩,
    ⟨2, 3, .k 0 0⟩,
    ⟨3, 0, .k 0 0⟩,
    ⟨3, 1, .k 0 0⟩,
    ⟨3, 2, .k 0 0⟩,
    ⟨3, 3, .k 1 0⟩]
  upd := [⟨0, 1, .neg (.s 0)⟩,
    ⟨0, 2, .c 0⟩,
    ⟨1, 1, .neg (.c 0)⟩,
    ⟨1, 2, .neg (.s 0)⟩]

/-- `MotionTransforms::Type_fr_Link1_X_fr_InvertedPendulumBase` (transforms.impl.h:152-182, 184-200). -/
def motion_fr_Link1_X_fr_InvertedPendulumBase : Gen where
  rows := 6
  cols := 6
  ctor := [⟨0, 0, .k 0 0⟩,
    ⟨0, 3, .k 0 0⟩,
    ⟨0, 4, .k 0 0⟩,
    ⟨0, 5, .k 0 0⟩,
    ⟨1, 0, .k 0 0⟩,
    ⟨1, 3, .k 0 0⟩,
    ⟨1, 4, .k 0 0⟩,
    ⟨1, 5, .k 0 0⟩,
    ⟨2, 0, .k 1 0⟩,
    ⟨2, 1, .k 0 0⟩,
    ⟨2, 2, .k 0 0⟩,
    ⟨2, 3, .k 0 0⟩,
    ⟨2, 4, .k 0 0⟩,
    ⟨2, 5, .k 0 0⟩,
    ⟨3, 0, .k 0 0⟩,
    ⟨3, 1, .k 0 0⟩,
    ⟨3, 2, .k 0 0⟩,
    ⟨3, 3, .k 0 0⟩,
    ⟨4, 0, .k 0 0⟩,
    ⟨4, 1, .k 0 0⟩,
    ⟨4, 2, .k 0 0⟩,
    ⟨4, 3, .k 0 0⟩,
    ⟨5, 0, .k 0 0⟩,
    ⟨5, 1, .k 0 0⟩,
    ⟨5, 2, .k 0 0⟩,
    ⟨5, 3, .k 1 0⟩,
    ⟨5, 4, .k 0 0⟩,
    ⟨5, 5, .k 0 0⟩]
  upd := [⟨0, 1, .neg (.s 0)⟩,
    ⟨0, 2, .c 0⟩,
    ⟨1, 1, .neg (.c 0)⟩,
    ⟨1, 2, .neg (.s 0)⟩,
    ⟨3, 4, .neg (.s 0)⟩,
    ⟨3, 5, .c 0⟩,
    ⟨4, 4, .neg (.c 0)⟩,
    ⟨4, 5, .neg (.s 0)⟩]

/-- `ForceTransforms::Type_fr_Link1_X_fr_InvertedPendulumBase` (transforms.impl.h:397-427, 429-445). -/
def force_fr_Link1_X_fr_InvertedPendulumBase : Gen where
  rows := 6
  cols := 6
  ctor := [⟨0, 0, .k 0 0⟩,
    ⟨0, 3, .k 0 0⟩,
    ⟨0, 4, .k 0 0⟩,
    ⟨0, 5, .k 0 0⟩,
    ⟨1, 0, .k 0 0⟩,
    ⟨1, 3, .k 0 0⟩,
    ⟨1, 4, .k 0 0⟩,
    ⟨1, 5, .k 0 0⟩,
    ⟨2, 0, .k 1 0⟩,
    ⟨2, 1, .k 0 0⟩,
    ⟨2, 2, .k 0 0⟩,
    ⟨2, 3, .k 0 0⟩,
    ⟨2, 4, .k 0 0⟩,
    ⟨2, 5, .k 0 0⟩,
    ⟨3, 0, .k 0 0⟩,
    ⟨3, 1, .k 0 0⟩,
    ⟨3, 2, .k 0 0⟩,
    ⟨3, 3, .k 0 0⟩,
    ⟨4, 0, .k 0 0⟩,
    ⟨4, 1, .k 0 0⟩,
    ⟨4, 2, .k 0 0⟩,
    ⟨4, 3, .k 0 0⟩,
    ⟨5, 0, .k 0 0⟩,
    ⟨5, 1, .k 0 0⟩,
    ⟨5, 2, .k 0 0⟩,
    ⟨5, 3, .k 1 0⟩,
    ⟨5, 4, .k 0 0⟩,
    ⟨5, 5, .k 0 0⟩]
  upd := [⟨0, 1, .neg (.s 0)⟩,
    ⟨0, 2, .c 0⟩,
    ⟨1, 1, .neg (.c 0)⟩,
    ⟨1, 2, .neg (.s 0)⟩,
    ⟨3, 4, .neg (.s 0)⟩,
    ⟨3, 5, .c 0⟩,
    ⟨4, 4, .neg (.c 0)⟩,
    ⟨4, 5, .neg (.s 0)⟩]

/-- The transforms `fr_Link1_X_fr_InvertedPendulumBase`. -/
def fr_Link1_X_fr_InvertedPendulumBase : Trans := ⟨fr_Link1, fr_InvertedPendulumBase, hom_fr_Link1_X_fr_InvertedPendulumBase, motion_fr_Link1_X_fr_InvertedPendulumBase, force_fr_Link1_X_fr_InvertedPendulumBase⟩

/-- `HomogeneousTransforms::Type_fr_ee_X_fr_InvertedPendulumBase` (transforms.impl.h:632-646, 648-660). -/
def hom_fr_ee_X_fr_InvertedPendulumBase : Gen where
  rows := 4
  cols := 4
  ctor := [⟨0, 0, .k 0 0⟩,
    ⟨0, 3, .neg (.k 435 3)⟩,
    ⟨1, 0, .k 0 0⟩,
    ⟨1, 3, .k 0 0⟩,
    ⟨2, 0, .k 1 0⟩,
    ⟨2, 1, .k 0 0⟩,
    ⟨2, 2, .k 0 0⟩,
    ⟨2, 3, .k 0 0⟩,
    ⟨3, 0, .k 0 0⟩,
    ⟨3, 1, .k 0 0⟩,
    ⟨3, 2, .k 0 0⟩,
    ⟨3, 3, .k 1 0⟩]
  upd := [⟨0, 1, .neg (.s 0)⟩,
    ⟨0, 2, .c 0⟩,
    ⟨1, 1, .neg (.c 0)⟩,
    ⟨1, 2, .neg (.s 0)⟩]

/-- `MotionTransforms::Type_fr_ee_X_fr_InvertedPendulumBase` (transforms.impl.h:202-230, 232-250). -/
def motion_fr_ee_X_fr_InvertedPendulumBase : Gen where
  rows := 6
  cols := 6
  ctor := [⟨0, 0, .k 0 0⟩,
    ⟨0, 3, .k 0 0⟩,
    ⟨0, 4, .k 0 0⟩,
    ⟨0, 5, .k 0 0⟩,
    ⟨1, 0, .k 0 0⟩,
    ⟨1, 3, .k 0 0⟩,
    ⟨1, 4, .k 0 0⟩,
    ⟨1, 5, .k 0 0⟩,
    ⟨2, 0, .k 1 0⟩,
    ⟨2, 1, .k 0 0⟩,
    ⟨2, 2, .k 0 0⟩,
    ⟨2, 3, .k 0 0⟩,
    ⟨2, 4, .k 0 0⟩,
    ⟨2, 5, .k 0 0⟩,
    ⟨3, 0, .k 0 0⟩,
    ⟨3, 1, .k 0 0⟩,
    ⟨3, 2, .k 0 0⟩,
    ⟨3, 3, .k 0 0⟩,
    ⟨4, 0, .k 435 3⟩,
    ⟨4, 1, .k 0 0⟩,
    ⟨4, 2, .k 0 0⟩,
    ⟨4, 3, .k 0 0⟩,
    ⟨5, 0, .k 0 0⟩,
    ⟨5, 3, .k 1 0⟩,
    ⟨5, 4, .k 0 0⟩,
    ⟨5, 5, .k 0 0⟩]
  upd := [⟨0, 1, .neg (.s 0)⟩,
    ⟨0, 2, .c 0⟩,
    ⟨1, 1, .neg (.c 0)⟩,
    ⟨1, 2, .neg (.s 0)⟩,
    ⟨3, 4, .neg (.s 0)⟩,
    ⟨3, 5, .c 0⟩,
    ⟨4, 4, .neg (.c 0)⟩,
    ⟨4, 5, .neg (.s 0)⟩,
    ⟨5, 1, (.k 435 3) ⊠ (.c 0)⟩,
    ⟨5, 2, (.k 435 3) ⊠ (.s 0)⟩]

/-- `ForceTransforms::Type_fr_ee_X_fr_InvertedPendulumBase` (transforms.impl.h:447-475, 477-495). -/
def force_fr_ee_X_fr_InvertedPendulumBase : Gen where
  rows := 6
  cols := 6
  ctor := [⟨0, 0, .k 0 0⟩,
    ⟨0, 3, .k 0 0⟩,
    ⟨0, 4, .k 0 0⟩,
    ⟨0, 5, .k 0 0⟩,
    ⟨1, 0, .k 0 0⟩,
    ⟨1, 3, .k 435 3⟩,
    ⟨1, 4, .k 0 0⟩,
    ⟨1, 5, .k 0 0⟩,
    ⟨2, 0, .k 1 0⟩,
    ⟨2, 1, .k 0 0⟩,
    ⟨2, 2, .k 0 0⟩,
    ⟨2, 3, .k 0 0⟩,
    ⟨3, 0, .k 0 0⟩,
    ⟨3, 1, .k 0 0⟩,
    ⟨3, 2, .k 0 0⟩,
    ⟨3, 3, .k 0 0⟩,
    ⟨4, 0, .k 0 0⟩,
    ⟨4, 1, .k 0 0⟩,
    ⟨4, 2, .k 0 0⟩,
    ⟨4, 3, .k 0 0⟩,
    ⟨5, 0, .k 0 0⟩,
    ⟨5, 1, .k 0 0⟩,
    ⟨5, 2, .k 0 0⟩,
    ⟨5, 3, .k 1 0⟩,
    ⟨5, 4, .k 0 0⟩,
    ⟨5, 5, .k 0 0⟩]
  upd := [⟨0, 1, .neg (.s 0)⟩,
    ⟨0, 2, .c 0⟩,
    ⟨1, 1, .neg (.c 0)⟩,
    ⟨1, 2, .neg (.s 0)⟩,
    ⟨2, 4, (.k 435 3) ⊠ (.c 0)⟩,
    ⟨2, 5, (.k 435 3) ⊠ (.s 0)⟩,
    ⟨3, 4, .neg (.s 0)⟩,
    ⟨3, 5, .c 0⟩,
    ⟨4, 4, .neg (.c 0)⟩,
    ⟨4, 5, .neg (.s 0)⟩]

/-- The transforms `fr_ee_X_fr_InvertedPendulumBase`. -/
def fr_ee_X_fr_InvertedPendulumBase : Trans := ⟨fr_ee, fr_InvertedPendulumBase, hom_fr_ee_X_fr_InvertedPendulumBase, motion_fr_ee_X_fr_InvertedPendulumBase, force_fr_ee_X_fr_InvertedPendulumBase⟩

/-- `HomogeneousTransforms::Type_fr_InvertedPendulumBase_X_fr_Joint1` (transforms.impl.h:662-680, 682-684). -/
def hom_fr_InvertedPendulumBase_X_fr_Joint1 : Gen where
  rows := 4
  cols := 4
  ctor := [⟨0, 0, .k 0 0⟩,
    ⟨0, 1, .k 0 0⟩,
    ⟨0, 2, .k 1 0⟩,
    ⟨0, 3, .k 0 0⟩,
    ⟨1, 0, .k 0 0⟩,
    ⟨1, 1, .neg (.k 1 0)⟩,
    ⟨1, 2, .k 0 0⟩,
    ⟨1, 3, .k 0 0⟩,
    ⟨2, 0, .k 1 0⟩,
    ⟨2, 1, .k 0 0⟩,
    ⟨2, 2, .k 0 0⟩,
    ⟨2, 3, .k 0 0⟩,
    ⟨3, 0, .k 0 0⟩,
    ⟨3, 1, .k 0 0⟩,
    ⟨3, 2, .k 0 0⟩,
    ⟨3, 3, .k 1 0⟩]
  upd := []

/-- `MotionTransforms::Type_fr_InvertedPendulumBase_X_fr_Joint1` (transforms.impl.h:252-290, 292-294). -/
def motion_fr_InvertedPendulumBase_X_fr_Joint1 : Gen where
  rows := 6
  cols := 6
  ctor := [⟨0, 0, .k 0 0⟩,
    ⟨0, 1, .k 0 0⟩,
    ⟨0, 2, .k 1 0⟩,
    ⟨0, 3, .k 0 0⟩,
    ⟨0, 4, .k 0 0⟩,
    ⟨0, 5, .k 0 0⟩,
    ⟨1, 0, .k 0 0⟩,
    ⟨1, 1, .neg (.k 1 0)⟩,
    ⟨1, 2, .k 0 0⟩,
    ⟨1, 3, .k 0 0⟩,
    ⟨1, 4, .k 0 0⟩,
    ⟨1, 5, .k 0 0⟩,
    ⟨2, 0, .k 1 0⟩,
    ⟨2, 1, .k 0 0⟩,
    ⟨2, 2, .k 0 0⟩,
    ⟨2, 3, .k 0 0⟩,
    ⟨2, 4, .k 0 0⟩,
    ⟨2, 5, .k 0 0⟩,
    ⟨3, 0, .k 0 0⟩,
    ⟨3, 1, .k 0 0⟩,
    ⟨3, 2, .k 0 0⟩,
    ⟨3, 3, .k 0 0⟩,
    ⟨3, 4, .k 0 0⟩,
    ⟨3, 5, .k 1 0⟩,
    ⟨4, 0, .k 0 0⟩,
    ⟨4, 1, .k 0 0⟩,
    ⟨4, 2, .k 0 0⟩,
    ⟨4, 3, .k 0 0⟩,
    ⟨4, 4, .neg (.k 1 0)⟩,
    ⟨4, 5, .k 0 0⟩,
    ⟨5, 0, .k 0 0⟩,
    ⟨5, 1, .k 0 0⟩,
    ⟨5, 2, .k 0 0⟩,
    ⟨5, 3, .k 1 0⟩,
    ⟨5, 4, .k 0 0⟩,
    ⟨5, 5, .k 0 0⟩]
  upd := []

/-- `ForceTransforms::Type_fr_InvertedPendulumBase_X_fr_Joint1` (transforms.impl.h:497-535, 537-539). -/
def force_fr_InvertedPendulumBase_X_fr_Joint1 : Gen where
  rows := 6
  cols := 6
  ctor := [⟨0, 0, .k 0 0⟩,
    ⟨0, 1, .k 0 0⟩,
    ⟨0, 2, .k 1 0⟩,
    ⟨0, 3, .k 0 0⟩,
    ⟨0, 4, .k 0 0⟩,
    ⟨0, 5, .k 0 0⟩,
    ⟨1, 0, .k 0 0⟩,
    ⟨1, 1, .neg (.k 1 0)⟩,
    ⟨1, 2, .k 0 0⟩,
    ⟨1, 3, .k 0 0⟩,
    ⟨1, 4, .k 0 0⟩,
    ⟨1, 5, .k 0 0⟩,
    ⟨2, 0, .k 1 0⟩,
    ⟨2, 1, .k 0 0⟩,
    ⟨2, 2, .k 0 0⟩,
    ⟨2, 3, .k 0 0⟩,
    ⟨2, 4, .k 0 0⟩,
    ⟨2, 5, .k 0 0⟩,
    ⟨3, 0, .k 0 0⟩,
    ⟨3, 1, .k 0 0⟩,
    ⟨3, 2, .k 0 0⟩,
    ⟨3, 3, .k 0 0⟩,
    ⟨3, 4, .k 0 0⟩,
    ⟨3, 5, .k 1 0⟩,
    ⟨4, 0, .k 0 0⟩,
    ⟨4, 1, .k 0 0⟩,
    ⟨4, 2, .k 0 0⟩,
    ⟨4, 3, .k 0 0⟩,
    ⟨4, 4, .neg (.k 1 0)⟩,
    ⟨4, 5, .k 0 0⟩,
    ⟨5, 0, .k 0 0⟩,
    ⟨5, 1, .k 0 0⟩,
    ⟨5, 2, .k 0 0⟩,
    ⟨5, 3, .k 1 0⟩,
    ⟨5, 4, .k 0 0⟩,
    ⟨5, 5, .k 0 0⟩]
  upd := []

/-- The transforms `fr_InvertedPendulumBase_X_fr_Joint1`. -/
def fr_InvertedPendulumBase_X_fr_Joint1 : Trans := ⟨fr_InvertedPendulumBase, fr_Joint1, hom_fr_InvertedPendulumBase_X_fr_Joint1, motion_fr_InvertedPendulumBase_X_fr_Joint1, force_fr_InvertedPendulumBase_X_fr_Joint1⟩

/-- All pairs of frames for which transforms are generated. -/
def transforms : List Trans :=
  [fr_InvertedPendulumBase_X_fr_Link1,
    fr_InvertedPendulumBase_X_fr_ee,
    fr_Link1_X_fr_InvertedPendulumBase,
    fr_ee_X_fr_InvertedPendulumBase,
    fr_InvertedPendulumBase_X_fr_Joint1]

/-! ### Jacobians -/

/-- `Jacobians::Type_fr_InvertedPendulumBase_J_fr_Link1` (jacobians.impl.h:18-26, 29-31). -/
def gen_fr_InvertedPendulumBase_J_fr_Link1 : Gen where
  rows := 6
  cols := 1
  ctor := [⟨0, 0, .k 1 0⟩,
    ⟨1, 0, .k 0 0⟩,
    ⟨2, 0, .k 0 0⟩,
    ⟨3, 0, .k 0 0⟩,
    ⟨4, 0, .k 0 0⟩,
    ⟨5, 0, .k 0 0⟩]
  upd := []

/-- The Jacobian `fr_InvertedPendulumBase_J_fr_Link1`. -/
def fr_InvertedPendulumBase_J_fr_Link1 : Jac := ⟨fr_Link1, gen_fr_InvertedPendulumBase_J_fr_Link1⟩

/-- `Jacobians::Type_fr_InvertedPendulumBase_J_fr_ee` (jacobians.impl.h:33-39, 42-52). -/
def gen_fr_InvertedPendulumBase_J_fr_ee : Gen where
  rows := 6
  cols := 1
  ctor := [⟨0, 0, .k 1 0⟩,
    ⟨1, 0, .k 0 0⟩,
    ⟨2, 0, .k 0 0⟩,
    ⟨3, 0, .k 0 0⟩]
  upd := [⟨4, 0, (.neg (.k 435 3)) ⊠ (.c 0)⟩,
    ⟨5, 0, (.neg (.k 435 3)) ⊠ (.s 0)⟩]

/-- The Jacobian `fr_InvertedPendulumBase_J_fr_ee`. -/
def fr_InvertedPendulumBase_J_fr_ee : Jac := ⟨fr_ee, gen_fr_InvertedPendulumBase_J_fr_ee⟩

/-- All Jacobians. -/
def jacobians : List Jac :=
  [fr_InvertedPendulumBase_J_fr_Link1,
    fr_InvertedPendulumBase_J_fr_ee]

end CT.Robots.InvertedPendulum.Kin
