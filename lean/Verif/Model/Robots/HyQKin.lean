import Verif.Model.GenKin

/-!
# HyQ: generated kinematics

Translation of all coordinate transforms and Jacobians in
`ct_models/include/ct/models/HyQ/generated/transforms.impl.h` and `jacobians.impl.h`, one entry for each
assignment, written by `tools/gen_kin.py`.  Line numbers are those of these two files.
-/

namespace CT.Robots.HyQ.Kin

open CT.GenKin

/-! ### Frames, in the order of the links and then of their appearance -/

abbrev fr_trunk : ℕ := 0
abbrev fr_LF_hipassembly : ℕ := 1
abbrev fr_LF_upperleg : ℕ := 2
abbrev fr_LF_lowerleg : ℕ := 3
abbrev fr_RF_hipassembly : ℕ := 4
abbrev fr_RF_upperleg : ℕ := 5
abbrev fr_RF_lowerleg : ℕ := 6
abbrev fr_LH_hipassembly : ℕ := 7
abbrev fr_LH_upperleg : ℕ := 8
abbrev fr_LH_lowerleg : ℕ := 9
abbrev fr_RH_hipassembly : ℕ := 10
abbrev fr_RH_upperleg : ℕ := 11
abbrev fr_RH_lowerleg : ℕ := 12
abbrev LF_hipassemblyCOM : ℕ := 13
abbrev RF_hipassemblyCOM : ℕ := 14
abbrev LH_hipassemblyCOM : ℕ := 15
abbrev RH_hipassemblyCOM : ℕ := 16
abbrev LF_upperlegCOM : ℕ := 17
abbrev RF_upperlegCOM : ℕ := 18
abbrev LH_upperlegCOM : ℕ := 19
abbrev RH_upperlegCOM : ℕ := 20
abbrev LF_lowerlegCOM : ℕ := 21
abbrev RF_lowerlegCOM : ℕ := 22
abbrev LH_lowerlegCOM : ℕ := 23
abbrev RH_lowerlegCOM : ℕ := 24
abbrev fr_LF_foot : ℕ := 25
abbrev fr_RF_foot : ℕ := 26
abbrev fr_LH_foot : ℕ := 27
abbrev fr_RH_foot : ℕ := 28
abbrev fr_LF_HAA : ℕ := 29
abbrev fr_RF_HAA : ℕ := 30
abbrev fr_LH_HAA : ℕ := 31
abbrev fr_RH_HAA : ℕ := 32
abbrev fr_LF_HFE : ℕ := 33
abbrev fr_RF_HFE : ℕ := 34
abbrev fr_LH_HFE : ℕ := 35
abbrev fr_RH_HFE : ℕ := 36
abbrev fr_LF_KFE : ℕ := 37
abbrev fr_RF_KFE : ℕ := 38
abbrev fr_LH_KFE : ℕ := 39
abbrev fr_RH_KFE : ℕ := 40

/-! ### Joints (declarations.h) -/

abbrev LF_HAA : ℕ := 0
abbrev LF_HFE : ℕ := 1
abbrev LF_KFE : ℕ := 2
abbrev RF_HAA : ℕ := 3
abbrev RF_HFE : ℕ := 4
abbrev RF_KFE : ℕ := 5
abbrev LH_HAA : ℕ := 6
abbrev LH_HFE : ℕ := 7
abbrev LH_KFE : ℕ := 8
abbrev RH_HAA : ℕ := 9
abbrev RH_HFE : ℕ := 10
abbrev RH_KFE : ℕ := 11

/-! ### Coordinate transforms -/

/-- `HomogeneousTransforms::Type_fr_trunk_X_fr_LF_hipassembly` (transforms.impl.h:8219-8233, 8235-8247). -/
def hom_fr_trunk_X_fr_LF_hipassembly : Gen where
  rows := 4
  cols := 4
  ctor := [⟨0, 0, .k 0 0⟩,
    ⟨0, 1, .k 0 0⟩,
    ⟨0, 2, .neg (.k 1 0)⟩,
    ⟨0, 3, .k 3735 4⟩,
    ⟨1, 2, .k 0 0⟩,
    ⟨1, 3, .k 207 3⟩,
    ⟨2, 2, .k 0 0⟩,
    ⟨2, 3, .k 0 0⟩,
    ⟨3, 0, .k 0 0⟩,
    ⟨3, 1, .k 0 0⟩,
    ⟨3, 2, .k 0 0⟩,
    ⟨3, 3, .k 1 0⟩]
  upd := [⟨1, 0, .neg (.s 0)⟩,
    ⟨1, 1, .neg (.c 0)⟩,
    ⟨2, 0, .neg (.c 0)⟩,
    ⟨2, 1, .s 0⟩]

/-- `MotionTransforms::Type_fr_trunk_X_fr_LF_hipassembly` (transforms.impl.h:265-289, 291-313). -/
def motion_fr_trunk_X_fr_LF_hipassembly : Gen where
  rows := 6
  cols := 6
  ctor := [⟨0, 0, .k 0 0⟩,
    ⟨0, 1, .k 0 0⟩,
    ⟨0, 2, .neg (.k 1 0)⟩,
    ⟨0, 3, .k 0 0⟩,
    ⟨0, 4, .k 0 0⟩,
    ⟨0, 5, .k 0 0⟩,
    ⟨1, 2, .k 0 0⟩,
    ⟨1, 3, .k 0 0⟩,
    ⟨1, 4, .k 0 0⟩,
    ⟨1, 5, .k 0 0⟩,
    ⟨2, 2, .k 0 0⟩,
    ⟨2, 3, .k 0 0⟩,
    ⟨2, 4, .k 0 0⟩,
    ⟨2, 5, .k 0 0⟩,
    ⟨3, 2, .k 0 0⟩,
    ⟨3, 3, .k 0 0⟩,
    ⟨3, 4, .k 0 0⟩,
    ⟨3, 5, .neg (.k 1 0)⟩,
    ⟨4, 2, .k 0 0⟩,
    ⟨4, 5, .k 0 0⟩,
    ⟨5, 2, .k 207 3⟩,
    ⟨5, 5, .k 0 0⟩]
  upd := [⟨1, 0, .neg (.s 0)⟩,
    ⟨1, 1, .neg (.c 0)⟩,
    ⟨2, 0, .neg (.c 0)⟩,
    ⟨2, 1, .s 0⟩,
    ⟨3, 0, (.neg (.k 207 3)) ⊠ (.c 0)⟩,
    ⟨3, 1, (.k 207 3) ⊠ (.s 0)⟩,
    ⟨4, 0, (.k 3735 4) ⊠ (.c 0)⟩,
    ⟨4, 1, (.neg (.k 3735 4)) ⊠ (.s 0)⟩,
    ⟨4, 3, .neg (.s 0)⟩,
    ⟨4, 4, .neg (.c 0)⟩,
    ⟨5, 0, (.neg (.k 3735 4)) ⊠ (.s 0)⟩,
    ⟨5, 1, (.neg (.k 3735 4)) ⊠ (.c 0)⟩,
    ⟨5, 3, .neg (.c 0)⟩,
    ⟨5, 4, .s 0⟩]

/-- `ForceTransforms::Type_fr_trunk_X_fr_LF_hipassembly` (transforms.impl.h:4242-4266, 4268-4290). -/
def force_fr_trunk_X_fr_LF_hipassembly : Gen where
  rows := 6
  cols := 6
  ctor := [⟨0, 0, .k 0 0⟩,
    ⟨0, 1, .k 0 0⟩,
    ⟨0, 2, .neg (.k 1 0)⟩,
    ⟨0, 5, .k 0 0⟩,
    ⟨1, 2, .k 0 0⟩,
    ⟨1, 5, .k 0 0⟩,
    ⟨2, 2, .k 0 0⟩,
    ⟨2, 5, .k 207 3⟩,
    ⟨3, 0, .k 0 0⟩,
    ⟨3, 1, .k 0 0⟩,
    ⟨3, 2, .k 0 0⟩,
    ⟨3, 3, .k 0 0⟩,
    ⟨3, 4, .k 0 0⟩,
    ⟨3, 5, .neg (.k 1 0)⟩,
    ⟨4, 0, .k 0 0⟩,
    ⟨4, 1, .k 0 0⟩,
    ⟨4, 2, .k 0 0⟩,
    ⟨4, 5, .k 0 0⟩,
    ⟨5, 0, .k 0 0⟩,
    ⟨5, 1, .k 0 0⟩,
    ⟨5, 2, .k 0 0⟩,
    ⟨5, 5, .k 0 0⟩]
  upd := [⟨0, 3, (.neg (.k 207 3)) ⊠ (.c 0)⟩,
    ⟨0, 4, (.k 207 3) ⊠ (.s 0)⟩,
    ⟨1, 0, .neg (.s 0)⟩,
    ⟨1, 1, .neg (.c 0)⟩,
    ⟨1, 3, (.k 3735 4) ⊠ (.c 0)⟩,
    ⟨1, 4, (.neg (.k 3735 4)) ⊠ (.s 0)⟩,
    ⟨2, 0, .neg (.c 0)⟩,
    ⟨2, 1, .s 0⟩,
    ⟨2, 3, (.neg (.k 3735 4)) ⊠ (.s 0)⟩,
    ⟨2, 4, (.neg (.k 3735 4)) ⊠ (.c 0)⟩,
    ⟨4, 3, .neg (.s 0)⟩,
    ⟨4, 4, .neg (.c 0)⟩,
    ⟨5, 3, .neg (.c 0)⟩,
    ⟨5, 4, .s 0⟩]

/-- The transforms `fr_trunk_X_fr_LF_hipassembly`. -/
def fr_trunk_X_fr_LF_hipassembly : Trans := ⟨fr_trunk, fr_LF_hipassembly, hom_fr_trunk_X_fr_LF_hipassembly, motion_fr_trunk_X_fr_LF_hipassembly, force_fr_trunk_X_fr_LF_hipassembly⟩

/-- `HomogeneousTransforms::Type_fr_trunk_X_fr_RF_hipassembly` (transforms.impl.h:8249-8263, 8265-8277). -/
def hom_fr_trunk_X_fr_RF_hipassembly : Gen where
  rows := 4
  cols := 4
  ctor := [⟨0, 0, .k 0 0⟩,
    ⟨0, 1, .k 0 0⟩,
    ⟨0, 2, .k 1 0⟩,
    ⟨0, 3, .k 3735 4⟩,
    ⟨1, 2, .k 0 0⟩,
    ⟨1, 3, .neg (.k 207 3)⟩,
    ⟨2, 2, .k 0 0⟩,
    ⟨2, 3, .k 0 0⟩,
    ⟨3, 0, .k 0 0⟩,
    ⟨3, 1, .k 0 0⟩,
    ⟨3, 2, .k 0 0⟩,
    ⟨3, 3, .k 1 0⟩]
  upd := [⟨1, 0, .s 3⟩,
    ⟨1, 1, .c 3⟩,
    ⟨2, 0, .neg (.c 3)⟩,
    ⟨2, 1, .s 3⟩]

/-- `MotionTransforms::Type_fr_trunk_X_fr_RF_hipassembly` (transforms.impl.h:315-339, 341-363). -/
def motion_fr_trunk_X_fr_RF_hipassembly : Gen where
  rows := 6
  cols := 6
  ctor := [⟨0, 0, .k 0 0⟩,
    ⟨0, 1, .k 0 0⟩,
    ⟨0, 2, .k 1 0⟩,
    ⟨0, 3, .k 0 0⟩,
    ⟨0, 4, .k 0 0⟩,
    ⟨0, 5, .k 0 0⟩,
    ⟨1, 2, .k 0 0⟩,
    ⟨1, 3, .k 0 0⟩,
    ⟨1, 4, .k 0 0⟩,
    ⟨1, 5, .k 0 0⟩,
    ⟨2, 2, .k 0 0⟩,
    ⟨2, 3, .k 0 0⟩,
    ⟨2, 4, .k 0 0⟩,
    ⟨2, 5, .k 0 0⟩,
    ⟨3, 2, .k 0 0⟩,
    ⟨3, 3, .k 0 0⟩,
    ⟨3, 4, .k 0 0⟩,
    ⟨3, 5, .k 1 0⟩,
    ⟨4, 2, .k 0 0⟩,
    ⟨4, 5, .k 0 0⟩,
    ⟨5, 2, .k 207 3⟩,
    ⟨5, 5, .k 0 0⟩]
  upd := [⟨1, 0, .s 3⟩,
    ⟨1, 1, .c 3⟩,
    ⟨2, 0, .neg (.c 3)⟩,
    ⟨2, 1, .s 3⟩,
    ⟨3, 0, (.k 207 3) ⊠ (.c 3)⟩,
    ⟨3, 1, (.neg (.k 207 3)) ⊠ (.s 3)⟩,
    ⟨4, 0, (.k 3735 4) ⊠ (.c 3)⟩,
    ⟨4, 1, (.neg (.k 3735 4)) ⊠ (.s 3)⟩,
    ⟨4, 3, .s 3⟩,
    ⟨4, 4, .c 3⟩,
    ⟨5, 0, (.k 3735 4) ⊠ (.s 3)⟩,
    ⟨5, 1, (.k 3735 4) ⊠ (.c 3)⟩,
    ⟨5, 3, .neg (.c 3)⟩,
    ⟨5, 4, .s 3⟩]

/-- `ForceTransforms::Type_fr_trunk_X_fr_RF_hipassembly` (transforms.impl.h:4292-4316, 4318-4340). -/
def force_fr_trunk_X_fr_RF_hipassembly : Gen where
  rows := 6
  cols := 6
  ctor := [⟨0, 0, .k 0 0⟩,
    ⟨0, 1, .k 0 0⟩,
    ⟨0, 2, .k 1 0⟩,
    ⟨0, 5, .k 0 0⟩,
    ⟨1, 2, .k 0 0⟩,
    ⟨1, 5, .k 0 0⟩,
    ⟨2, 2, .k 0 0⟩,
    ⟨2, 5, .k 207 3⟩,
    ⟨3, 0, .k 0 0⟩,
    ⟨3, 1, .k 0 0⟩,
    ⟨3, 2, .k 0 0⟩,
    ⟨3, 3, .k 0 0⟩,
    ⟨3, 4, .k 0 0⟩,
    ⟨3, 5, .k 1 0⟩,
    ⟨4, 0, .k 0 0⟩,
    ⟨4, 1, .k 0 0⟩,
    ⟨4, 2, .k 0 0⟩,
    ⟨4, 5, .k 0 0⟩,
    ⟨5, 0, .k 0 0⟩,
    ⟨5, 1, .k 0 0⟩,
    ⟨5, 2, .k 0 0⟩,
    ⟨5, 5, .k 0 0⟩]
  upd := [⟨0, 3, (.k 207 3) ⊠ (.c 3)⟩,
    ⟨0, 4, (.neg (.k 207 3)) ⊠ (.s 3)⟩,
    ⟨1, 0, .s 3⟩,
    ⟨1, 1, .c 3⟩,
    ⟨1, 3, (.k 3735 4) ⊠ (.c 3)⟩,
    ⟨1, 4, (.neg (.k 3735 4)) ⊠ (.s 3)⟩,
    ⟨2, 0, .neg (.c 3)⟩,
    ⟨2, 1, .s 3⟩,
    ⟨2, 3, (.k 3735 4) ⊠ (.s 3)⟩,
    ⟨2, 4, (.k 3735 4) ⊠ (.c 3)⟩,
    ⟨4, 3, .s 3⟩,
    ⟨4, 4, .c 3⟩,
    ⟨5, 3, .neg (.c 3)⟩,
    ⟨5, 4, .s 3⟩]

/-- The transforms `fr_trunk_X_fr_RF_hipassembly`. -/
def fr_trunk_X_fr_RF_hipassembly : Trans := ⟨fr_trunk, fr_RF_hipassembly, hom_fr_trunk_X_fr_RF_hipassembly, motion_fr_trunk_X_fr_RF_hipassembly, force_fr_trunk_X_fr_RF_hipassembly⟩

/-- `HomogeneousTransforms::Type_fr_trunk_X_fr_LH_hipassembly` (transforms.impl.h:8279-8293, 8295-8307). -/
def hom_fr_trunk_X_fr_LH_hipassembly : Gen where
  rows := 4
  cols := 4
  ctor := [⟨0, 0, .k 0 0⟩,
    ⟨0, 1, .k 0 0⟩,
    ⟨0, 2, .neg (.k 1 0)⟩,
    ⟨0, 3, .neg (.k 3735 4)⟩,
    ⟨1, 2, .k 0 0⟩,
    ⟨1, 3, .k 207 3⟩,
    ⟨2, 2, .k 0 0⟩,
    ⟨2, 3, .k 0 0⟩,
    ⟨3, 0, .k 0 0⟩,
    ⟨3, 1, .k 0 0⟩,
    ⟨3, 2, .k 0 0⟩,
    ⟨3, 3, .k 1 0⟩]
  upd := [⟨1, 0, .neg (.s 6)⟩,
    ⟨1, 1, .neg (.c 6)⟩,
    ⟨2, 0, .neg (.c 6)⟩,
    ⟨2, 1, .s 6⟩]

/-- `MotionTransforms::Type_fr_trunk_X_fr_LH_hipassembly` (transforms.impl.h:365-389, 391-413). -/
def motion_fr_trunk_X_fr_LH_hipassembly : Gen where
  rows := 6
  cols := 6
  ctor := [⟨0, 0, .k 0 0⟩,
    ⟨0, 1, .k 0 0⟩,
    ⟨0, 2, .neg (.k 1 0)⟩,
    ⟨0, 3, .k 0 0⟩,
    ⟨0, 4, .k 0 0⟩,
    ⟨0, 5, .k 0 0⟩,
    ⟨1, 2, .k 0 0⟩,
    ⟨1, 3, .k 0 0⟩,
    ⟨1, 4, .k 0 0⟩,
    ⟨1, 5, .k 0 0⟩,
    ⟨2, 2, .k 0 0⟩,
    ⟨2, 3, .k 0 0⟩,
    ⟨2, 4, .k 0 0⟩,
    ⟨2, 5, .k 0 0⟩,
    ⟨3, 2, .k 0 0⟩,
    ⟨3, 3, .k 0 0⟩,
    ⟨3, 4, .k 0 0⟩,
    ⟨3, 5, .neg (.k 1 0)⟩,
    ⟨4, 2, .k 0 0⟩,
    ⟨4, 5, .k 0 0⟩,
    ⟨5, 2, .k 207 3⟩,
    ⟨5, 5, .k 0 0⟩]
  upd := [⟨1, 0, .neg (.s 6)⟩,
    ⟨1, 1, .neg (.c 6)⟩,
    ⟨2, 0, .neg (.c 6)⟩,
    ⟨2, 1, .s 6⟩,
    ⟨3, 0, (.neg (.k 207 3)) ⊠ (.c 6)⟩,
    ⟨3, 1, (.k 207 3) ⊠ (.s 6)⟩,
    ⟨4, 0, (.neg (.k 3735 4)) ⊠ (.c 6)⟩,
    ⟨4, 1, (.k 3735 4) ⊠ (.s 6)⟩,
    ⟨4, 3, .neg (.s 6)⟩,
    ⟨4, 4, .neg (.c 6)⟩,
    ⟨5, 0, (.k 3735 4) ⊠ (.s 6)⟩,
    ⟨5, 1, (.k 3735 4) ⊠ (.c 6)⟩,
    ⟨5, 3, .neg (.c 6)⟩,
    ⟨5, 4, .s 6⟩]

/-- `ForceTransforms::Type_fr_trunk_X_fr_LH_hipassembly` (transforms.impl.h:4342-4366, 4368-4390). -/
def force_fr_trunk_X_fr_LH_hipassembly : Gen where
  rows := 6
  cols := 6
  ctor := [⟨0, 0, .k 0 0⟩,
    ⟨0, 1, .k 0 0⟩,
    ⟨0, 2, .neg (.k 1 0)⟩,
    ⟨0, 5, .k 0 0⟩,
    ⟨1, 2, .k 0 0⟩,
    ⟨1, 5, .k 0 0⟩,
    ⟨2, 2, .k 0 0⟩,
    ⟨2, 5, .k 207 3⟩,
    ⟨3, 0, .k 0 0⟩,
    ⟨3, 1, .k 0 0⟩,
    ⟨3, 2, .k 0 0⟩,
    ⟨3, 3, .k 0 0⟩,
    ⟨3, 4, .k 0 0⟩,
    ⟨3, 5, .neg (.k 1 0)⟩,
    ⟨4, 0, .k 0 0⟩,
    ⟨4, 1, .k 0 0⟩,
    ⟨4, 2, .k 0 0⟩,
    ⟨4, 5, .k 0 0⟩,
    ⟨5, 0, .k 0 0⟩,
    ⟨5, 1, .k 0 0⟩,
    ⟨5, 2, .k 0 0⟩,
    ⟨5, 5, .k 0 0⟩]
  upd := [⟨0, 3, (.neg (.k 207 3)) ⊠ (.c 6)⟩,
    ⟨0, 4, (.k 207 3) ⊠ (.s 6)⟩,
    ⟨1, 0, .neg (.s 6)⟩,
    ⟨1, 1, .neg (.c 6)⟩,
    ⟨1, 3, (.neg (.k 3735 4)) ⊠ (.c 6)⟩,
    ⟨1, 4, (.k 3735 4) ⊠ (.s 6)⟩,
    ⟨2, 0, .neg (.c 6)⟩,
    ⟨2, 1, .s 6⟩,
    ⟨2, 3, (.k 3735 4) ⊠ (.s 6)⟩,
    ⟨2, 4, (.k 3735 4) ⊠ (.c 6)⟩,
    ⟨4, 3, .neg (.s 6)⟩,
    ⟨4, 4, .neg (.c 6)⟩,
    ⟨5, 3, .neg (.c 6)⟩,
    ⟨5, 4, .s 6⟩]

/-- The transforms `fr_trunk_X_fr_LH_hipassembly`. -/
def fr_trunk_X_fr_LH_hipassembly : Trans := ⟨fr_trunk, fr_LH_hipassembly, hom_fr_trunk_X_fr_LH_hipassembly, motion_fr_trunk_X_fr_LH_hipassembly, force_fr_trunk_X_fr_LH_hipassembly⟩

/-- `HomogeneousTransforms::Type_fr_trunk_X_fr_RH_hipassembly` (transforms.impl.h:8309-8323, 8325-8337). -/
def hom_fr_trunk_X_fr_RH_hipassembly : Gen where
  rows := 4
  cols := 4
  ctor := [⟨0, 0, .k 0 0⟩,
    ⟨0, 1, .k 0 0⟩,
    ⟨0, 2, .k 1 0⟩,
    ⟨0, 3, .neg (.k 3735 4)⟩,
    ⟨1, 2, .k 0 0⟩,
    ⟨1, 3, .neg (.k 207 3)⟩,
    ⟨2, 2, .k 0 0⟩,
    ⟨2, 3, .k 0 0⟩,
    ⟨3, 0, .k 0 0⟩,
    ⟨3, 1, .k 0 0⟩,
    ⟨3, 2, .k 0 0⟩,
    ⟨3, 3, .k 1 0⟩]
  upd := [⟨1, 0, .s 9⟩,
    ⟨1, 1, .c 9⟩,
    ⟨2, 0, .neg (.c 9)⟩,
    ⟨2, 1, .s 9⟩]

/-- `MotionTransforms::Type_fr_trunk_X_fr_RH_hipassembly` (transforms.impl.h:415-439, 441-463). -/
def motion_fr_trunk_X_fr_RH_hipassembly : Gen where
  rows := 6
  cols := 6
  ctor := [⟨0, 0, .k 0 0⟩,
    ⟨0, 1, .k 0 0⟩,
    ⟨0, 2, .k 1 0⟩,
    ⟨0, 3, .k 0 0⟩,
    ⟨0, 4, .k 0 0⟩,
    ⟨0, 5, .k 0 0⟩,
    ⟨1, 2, .k 0 0⟩,
    ⟨1, 3, .k 0 0⟩,
    ⟨1, 4, .k 0 0⟩,
    ⟨1, 5, .k 0 0⟩,
    ⟨2, 2, .k 0 0⟩,
    ⟨2, 3, .k 0 0⟩,
    ⟨2, 4, .k 0 0⟩,
    ⟨2, 5, .k 0 0⟩,
    ⟨3, 2, .k 0 0⟩,
    ⟨3, 3, .k 0 0⟩,
    ⟨3, 4, .k 0 0⟩,
    ⟨3, 5, .k 1 0⟩,
    ⟨4, 2, .k 0 0⟩,
    ⟨4, 5, .k 0 0⟩,
    ⟨5, 2, .k 207 3⟩,
    ⟨5, 5, .k 0 0⟩]
  upd := [⟨1, 0, .s 9⟩,
    ⟨1, 1, .c 9⟩,
    ⟨2, 0, .neg (.c 9)⟩,
    ⟨2, 1, .s 9⟩,
    ⟨3, 0, (.k 207 3) ⊠ (.c 9)⟩,
    ⟨3, 1, (.neg (.k 207 3)) ⊠ (.s 9)⟩,
    ⟨4, 0, (.neg (.k 3735 4)) ⊠ (.c 9)⟩,
    ⟨4, 1, (.k 3735 4) ⊠ (.s 9)⟩,
    ⟨4, 3, .s 9⟩,
    ⟨4, 4, .c 9⟩,
    ⟨5, 0, (.neg (.k 3735 4)) ⊠ (.s 9)⟩,
    ⟨5, 1, (.neg (.k 3735 4)) ⊠ (.c 9)⟩,
    ⟨5, 3, .neg (.c 9)⟩,
    ⟨5, 4, .s 9⟩]

/-- `ForceTransforms::Type_fr_trunk_X_fr_RH_hipassembly` (transforms.impl.h:4392-4416, 4418-4440). -/
def force_fr_trunk_X_fr_RH_hipassembly : Gen where
  rows := 6
  cols := 6
  ctor := [⟨0, 0, .k 0 0⟩,
    ⟨0, 1, .k 0 0⟩,
    ⟨0, 2, .k 1 0⟩,
    ⟨0, 5, .k 0 0⟩,
    ⟨1, 2, .k 0 0⟩,
    ⟨1, 5, .k 0 0⟩,
    ⟨2, 2, .k 0 0⟩,
    ⟨2, 5, .k 207 3⟩,
    ⟨3, 0, .k 0 0⟩,
    ⟨3, 1, .k 0 0⟩,
    ⟨3, 2, .k 0 0⟩,
    ⟨3, 3, .k 0 0⟩,
    ⟨3, 4, .k 0 0⟩,
    ⟨3, 5, .k 1 0⟩,
    ⟨4, 0, .k 0 0⟩,
    ⟨4, 1, .k 0 0⟩,
    ⟨4, 2, .k 0 0⟩,
    ⟨4, 5, .k 0 0⟩,
    ⟨5, 0, .k 0 0⟩,
    ⟨5, 1, .k 0 0⟩,
    ⟨5, 2, .k 0 0⟩,
    ⟨5, 5, .k 0 0⟩]
  upd := [⟨0, 3, (.k 207 3) ⊠ (.c 9)⟩,
    ⟨0, 4, (.neg (.k 207 3)) ⊠ (.s 9)⟩,
    ⟨1, 0, .s 9⟩,
    ⟨1, 1, .c 9⟩,
    ⟨1, 3, (.neg (.k 3735 4)) ⊠ (.c 9)⟩,
    ⟨1, 4, (.k 3735 4) ⊠ (.s 9)⟩,
    ⟨2, 0, .neg (.c 9)⟩,
    ⟨2, 1, .s 9⟩,
    ⟨2, 3, (.neg (.k 3735 4)) ⊠ (.s 9)⟩,
    ⟨2, 4, (.neg (.k 3735 4)) ⊠ (.c 9)⟩,
    ⟨4, 3, .s 9⟩,
    ⟨4, 4, .c 9⟩,
    ⟨5, 3, .neg (.c 9)⟩,
    ⟨5, 4, .s 9⟩]

/-- The transforms `fr_trunk_X_fr_RH_hipassembly`. -/
def fr_trunk_X_fr_RH_hipassembly : Trans := ⟨fr_trunk, fr_RH_hipassembly, hom_fr_trunk_X_fr_RH_hipassembly, motion_fr_trunk_X_fr_RH_hipassembly, force_fr_trunk_X_fr_RH_hipassembly⟩

/-- `HomogeneousTransforms::Type_fr_trunk_X_fr_LF_upperleg` (transforms.impl.h:8339-8347, 8349-8371). -/
def hom_fr_trunk_X_fr_LF_upperleg : Gen where
  rows := 4
  cols := 4
  ctor := [⟨0, 2, .k 0 0⟩,
    ⟨0, 3, .k 3735 4⟩,
    ⟨3, 0, .k 0 0⟩,
    ⟨3, 1, .k 0 0⟩,
    ⟨3, 2, .k 0 0⟩,
    ⟨3, 3, .k 1 0⟩]
  upd := [⟨0, 0, .neg (.s 1)⟩,
    ⟨0, 1, .neg (.c 1)⟩,
    ⟨1, 0, (.neg (.s 0)) ⊠ (.c 1)⟩,
    ⟨1, 1, (.s 0) ⊠ (.s 1)⟩,
    ⟨1, 2, .c 0⟩,
    ⟨1, 3, (.k 207 3) ⊟ ((.k 8 2) ⊠ (.s 0))⟩,
    ⟨2, 0, (.neg (.c 0)) ⊠ (.c 1)⟩,
    ⟨2, 1, (.c 0) ⊠ (.s 1)⟩,
    ⟨2, 2, .neg (.s 0)⟩,
    ⟨2, 3, (.neg (.k 8 2)) ⊠ (.c 0)⟩]

/-- `MotionTransforms::Type_fr_trunk_X_fr_LF_upperleg` (transforms.impl.h:465-478, 480-517). -/
def motion_fr_trunk_X_fr_LF_upperleg : Gen where
  rows := 6
  cols := 6
  ctor := [⟨0, 2, .k 0 0⟩,
    ⟨0, 3, .k 0 0⟩,
    ⟨0, 4, .k 0 0⟩,
    ⟨0, 5, .k 0 0⟩,
    ⟨1, 3, .k 0 0⟩,
    ⟨1, 4, .k 0 0⟩,
    ⟨1, 5, .k 0 0⟩,
    ⟨2, 3, .k 0 0⟩,
    ⟨2, 4, .k 0 0⟩,
    ⟨2, 5, .k 0 0⟩,
    ⟨3, 5, .k 0 0⟩]
  upd := [⟨0, 0, .neg (.s 1)⟩,
    ⟨0, 1, .neg (.c 1)⟩,
    ⟨1, 0, (.neg (.s 0)) ⊠ (.c 1)⟩,
    ⟨1, 1, (.s 0) ⊠ (.s 1)⟩,
    ⟨1, 2, .c 0⟩,
    ⟨2, 0, (.neg (.c 0)) ⊠ (.c 1)⟩,
    ⟨2, 1, (.c 0) ⊠ (.s 1)⟩,
    ⟨2, 2, .neg (.s 0)⟩,
    ⟨3, 0, ((.neg (.k 207 3)) ⊠ (.c 0)) ⊠ (.c 1)⟩,
    ⟨3, 1, ((.k 207 3) ⊠ (.c 0)) ⊠ (.s 1)⟩,
    ⟨3, 2, (.k 8 2) ⊟ ((.k 207 3) ⊠ (.s 0))⟩,
    ⟨3, 3, .neg (.s 1)⟩,
    ⟨3, 4, .neg (.c 1)⟩,
    ⟨4, 0, (((.k 8 2) ⊠ (.c 0)) ⊠ (.s 1)) ⊞ (((.k 3735 4) ⊠ (.c 0)) ⊠ (.c 1))⟩,
    ⟨4, 1, (((.k 8 2) ⊠ (.c 0)) ⊠ (.c 1)) ⊟ (((.k 3735 4) ⊠ (.c 0)) ⊠ (.s 1))⟩,
    ⟨4, 2, (.k 3735 4) ⊠ (.s 0)⟩,
    ⟨4, 3, (.neg (.s 0)) ⊠ (.c 1)⟩,
    ⟨4, 4, (.s 0) ⊠ (.s 1)⟩,
    ⟨4, 5, .c 0⟩,
    ⟨5, 0, (((.k 207 3) ⊟ ((.k 8 2) ⊠ (.s 0))) ⊠ (.s 1)) ⊟ (((.k 3735 4) ⊠ (.s 0)) ⊠ (.c 1))⟩,
    ⟨5, 1, (((.k 3735 4) ⊠ (.s 0)) ⊠ (.s 1)) ⊞ (((.k 207 3) ⊟ ((.k 8 2) ⊠ (.s 0))) ⊠ (.c 1))⟩,
    ⟨5, 2, (.k 3735 4) ⊠ (.c 0)⟩,
    ⟨5, 3, (.neg (.c 0)) ⊠ (.c 1)⟩,
    ⟨5, 4, (.c 0) ⊠ (.s 1)⟩,
    ⟨5, 5, .neg (.s 0)⟩]

/-- `ForceTransforms::Type_fr_trunk_X_fr_LF_upperleg` (transforms.impl.h:4442-4455, 4457-4494). -/
def force_fr_trunk_X_fr_LF_upperleg : Gen where
  rows := 6
  cols := 6
  ctor := [⟨0, 2, .k 0 0⟩,
    ⟨3, 0, .k 0 0⟩,
    ⟨3, 1, .k 0 0⟩,
    ⟨3, 2, .k 0 0⟩,
    ⟨3, 5, .k 0 0⟩,
    ⟨4, 0, .k 0 0⟩,
    ⟨4, 1, .k 0 0⟩,
    ⟨4, 2, .k 0 0⟩,
    ⟨5, 0, .k 0 0⟩,
    ⟨5, 1, .k 0 0⟩,
    ⟨5, 2, .k 0 0⟩]
  upd := [⟨0, 0, .neg (.s 1)⟩,
    ⟨0, 1, .neg (.c 1)⟩,
    ⟨0, 3, ((.neg (.k 207 3)) ⊠ (.c 0)) ⊠ (.c 1)⟩,
    ⟨0, 4, ((.k 207 3) ⊠ (.c 0)) ⊠ (.s 1)⟩,
    ⟨0, 5, (.k 8 2) ⊟ ((.k 207 3) ⊠ (.s 0))⟩,
    ⟨1, 0, (.neg (.s 0)) ⊠ (.c 1)⟩,
    ⟨1, 1, (.s 0) ⊠ (.s 1)⟩,
    ⟨1, 2, .c 0⟩,
    ⟨1, 3, (((.k 8 2) ⊠ (.c 0)) ⊠ (.s 1)) ⊞ (((.k 3735 4) ⊠ (.c 0)) ⊠ (.c 1))⟩,
    ⟨1, 4, (((.k 8 2) ⊠ (.c 0)) ⊠ (.c 1)) ⊟ (((.k 3735 4) ⊠ (.c 0)) ⊠ (.s 1))⟩,
    ⟨1, 5, (.k 3735 4) ⊠ (.s 0)⟩,
    ⟨2, 0, (.neg (.c 0)) ⊠ (.c 1)⟩,
    ⟨2, 1, (.c 0) ⊠ (.s 1)⟩,
    ⟨2, 2, .neg (.s 0)⟩,
    ⟨2, 3, (((.k 207 3) ⊟ ((.k 8 2) ⊠ (.s 0))) ⊠ (.s 1)) ⊟ (((.k 3735 4) ⊠ (.s 0)) ⊠ (.c 1))⟩,
    ⟨2, 4, (((.k 3735 4) ⊠ (.s 0)) ⊠ (.s 1)) ⊞ (((.k 207 3) ⊟ ((.k 8 2) ⊠ (.s 0))) ⊠ (.c 1))⟩,
    ⟨2, 5, (.k 3735 4) ⊠ (.c 0)⟩,
    ⟨3, 3, .neg (.s 1)⟩,
    ⟨3, 4, .neg (.c 1)⟩,
    ⟨4, 3, (.neg (.s 0)) ⊠ (.c 1)⟩,
    ⟨4, 4, (.s 0) ⊠ (.s 1)⟩,
    ⟨4, 5, .c 0⟩,
    ⟨5, 3, (.neg (.c 0)) ⊠ (.c 1)⟩,
    ⟨5, 4, (.c 0) ⊠ (.s 1)⟩,
    ⟨5, 5, .neg (.s 0)⟩]

/-- The transforms `fr_trunk_X_fr_LF_upperleg`. -/
def fr_trunk_X_fr_LF_upperleg : Trans := ⟨fr_trunk, fr_LF_upperleg, hom_fr_trunk_X_fr_LF_upperleg, motion_fr_trunk_X_fr_LF_upperleg, force_fr_trunk_X_fr_LF_upperleg⟩

/-- `HomogeneousTransforms::Type_fr_trunk_X_fr_RF_upperleg` (transforms.impl.h:8373-8381, 8383-8405). -/
def hom_fr_trunk_X_fr_RF_upperleg : Gen where
  rows := 4
  cols := 4
  ctor := [⟨0, 2, .k 0 0⟩,
    ⟨0, 3, .k 3735 4⟩,
    ⟨3, 0, .k 0 0⟩,
    ⟨3, 1, .k 0 0⟩,
    ⟨3, 2, .k 0 0⟩,
    ⟨3, 3, .k 1 0⟩]
  upd := [⟨0, 0, .neg (.s 4)⟩,
    ⟨0, 1, .neg (.c 4)⟩,
    ⟨1, 0, (.s 3) ⊠ (.c 4)⟩,
    ⟨1, 1, (.neg (.s 3)) ⊠ (.s 4)⟩,
    ⟨1, 2, .c 3⟩,
    ⟨1, 3, ((.k 8 2) ⊠ (.s 3)) ⊟ (.k 207 3)⟩,
    ⟨2, 0, (.neg (.c 3)) ⊠ (.c 4)⟩,
    ⟨2, 1, (.c 3) ⊠ (.s 4)⟩,
    ⟨2, 2, .s 3⟩,
    ⟨2, 3, (.neg (.k 8 2)) ⊠ (.c 3)⟩]

/-- `MotionTransforms::Type_fr_trunk_X_fr_RF_upperleg` (transforms.impl.h:519-532, 534-571). -/
def motion_fr_trunk_X_fr_RF_upperleg : Gen where
  rows := 6
  cols := 6
  ctor := [⟨0, 2, .k 0 0⟩,
    ⟨0, 3, .k 0 0⟩,
    ⟨0, 4, .k 0 0⟩,
    ⟨0, 5, .k 0 0⟩,
    ⟨1, 3, .k 0 0⟩,
    ⟨1, 4, .k 0 0⟩,
    ⟨1, 5, .k 0 0⟩,
    ⟨2, 3, .k 0 0⟩,
    ⟨2, 4, .k 0 0⟩,
    ⟨2, 5, .k 0 0⟩,
    ⟨3, 5, .k 0 0⟩]
  upd := [⟨0, 0, .neg (.s 4)⟩,
    ⟨0, 1, .neg (.c 4)⟩,
    ⟨1, 0, (.s 3) ⊠ (.c 4)⟩,
    ⟨1, 1, (.neg (.s 3)) ⊠ (.s 4)⟩,
    ⟨1, 2, .c 3⟩,
    ⟨2, 0, (.neg (.c 3)) ⊠ (.c 4)⟩,
    ⟨2, 1, (.c 3) ⊠ (.s 4)⟩,
    ⟨2, 2, .s 3⟩,
    ⟨3, 0, ((.k 207 3) ⊠ (.c 3)) ⊠ (.c 4)⟩,
    ⟨3, 1, ((.neg (.k 207 3)) ⊠ (.c 3)) ⊠ (.s 4)⟩,
    ⟨3, 2, (.k 8 2) ⊟ ((.k 207 3) ⊠ (.s 3))⟩,
    ⟨3, 3, .neg (.s 4)⟩,
    ⟨3, 4, .neg (.c 4)⟩,
    ⟨4, 0, (((.k 8 2) ⊠ (.c 3)) ⊠ (.s 4)) ⊞ (((.k 3735 4) ⊠ (.c 3)) ⊠ (.c 4))⟩,
    ⟨4, 1, (((.k 8 2) ⊠ (.c 3)) ⊠ (.c 4)) ⊟ (((.k 3735 4) ⊠ (.c 3)) ⊠ (.s 4))⟩,
    ⟨4, 2, (.neg (.k 3735 4)) ⊠ (.s 3)⟩,
    ⟨4, 3, (.s 3) ⊠ (.c 4)⟩,
    ⟨4, 4, (.neg (.s 3)) ⊠ (.s 4)⟩,
    ⟨4, 5, .c 3⟩,
    ⟨5, 0, ((((.k 8 2) ⊠ (.s 3)) ⊟ (.k 207 3)) ⊠ (.s 4)) ⊞ (((.k 3735 4) ⊠ (.s 3)) ⊠ (.c 4))⟩,
    ⟨5, 1, ((((.k 8 2) ⊠ (.s 3)) ⊟ (.k 207 3)) ⊠ (.c 4)) ⊟ (((.k 3735 4) ⊠ (.s 3)) ⊠ (.s 4))⟩,
    ⟨5, 2, (.k 3735 4) ⊠ (.c 3)⟩,
    ⟨5, 3, (.neg (.c 3)) ⊠ (.c 4)⟩,
    ⟨5, 4, (.c 3) ⊠ (.s 4)⟩,
    ⟨5, 5, .s 3⟩]

/-- `ForceTransforms::Type_fr_trunk_X_fr_RF_upperleg` (transforms.impl.h:4496-4509, 4511-4548). -/
def force_fr_trunk_X_fr_RF_upperleg : Gen where
  rows := 6
  cols := 6
  ctor := [⟨0, 2, .k 0 0⟩,
    ⟨3, 0, .k 0 0⟩,
    ⟨3, 1, .k 0 0⟩,
    ⟨3, 2, .k 0 0⟩,
    ⟨3, 5, .k 0 0⟩,
    ⟨4, 0, .k 0 0⟩,
    ⟨4, 1, .k 0 0⟩,
    ⟨4, 2, .k 0 0⟩,
    ⟨5, 0, .k 0 0⟩,
    ⟨5, 1, .k 0 0⟩,
    ⟨5, 2, .k 0 0⟩]
  upd := [⟨0, 0, .neg (.s 4)⟩,
    ⟨0, 1, .neg (.c 4)⟩,
    ⟨0, 3, ((.k 207 3) ⊠ (.c 3)) ⊠ (.c 4)⟩,
    ⟨0, 4, ((.neg (.k 207 3)) ⊠ (.c 3)) ⊠ (.s 4)⟩,
    ⟨0, 5, (.k 8 2) ⊟ ((.k 207 3) ⊠ (.s 3))⟩,
    ⟨1, 0, (.s 3) ⊠ (.c 4)⟩,
    ⟨1, 1, (.neg (.s 3)) ⊠ (.s 4)⟩,
    ⟨1, 2, .c 3⟩,
    ⟨1, 3, (((.k 8 2) ⊠ (.c 3)) ⊠ (.s 4)) ⊞ (((.k 3735 4) ⊠ (.c 3)) ⊠ (.c 4))⟩,
    ⟨1, 4, (((.k 8 2) ⊠ (.c 3)) ⊠ (.c 4)) ⊟ (((.k 3735 4) ⊠ (.c 3)) ⊠ (.s 4))⟩,
    ⟨1, 5, (.neg (.k 3735 4)) ⊠ (.s 3)⟩,
    ⟨2, 0, (.neg (.c 3)) ⊠ (.c 4)⟩,
    ⟨2, 1, (.c 3) ⊠ (.s 4)⟩,
    ⟨2, 2, .s 3⟩,
    ⟨2, 3, ((((.k 8 2) ⊠ (.s 3)) ⊟ (.k 207 3)) ⊠ (.s 4)) ⊞ (((.k 3735 4) ⊠ (.s 3)) ⊠ (.c 4))⟩,
    ⟨2, 4, ((((.k 8 2) ⊠ (.s 3)) ⊟ (.k 207 3)) ⊠ (.c 4)) ⊟ (((.k 3735 4) ⊠ (.s 3)) ⊠ (.s 4))⟩,
    ⟨2, 5, (.k 3735 4) ⊠ (.c 3)⟩,
    ⟨3, 3, .neg (.s 4)⟩,
    ⟨3, 4, .neg (.c 4)⟩,
    ⟨4, 3, (.s 3) ⊠ (.c 4)⟩,
    ⟨4, 4, (.neg (.s 3)) ⊠ (.s 4)⟩,
    ⟨4, 5, .c 3⟩,
    ⟨5, 3, (.neg (.c 3)) ⊠ (.c 4)⟩,
    ⟨5, 4, (.c 3) ⊠ (.s 4)⟩,
    ⟨5, 5, .s 3⟩]

/-- The transforms `fr_trunk_X_fr_RF_upperleg`. -/
def fr_trunk_X_fr_RF_upperleg : Trans := ⟨fr_trunk, fr_RF_upperleg, hom_fr_trunk_X_fr_RF_upperleg, motion_fr_trunk_X_fr_RF_upperleg, force_fr_trunk_X_fr_RF_upperleg⟩

/-- `HomogeneousTransforms::Type_fr_trunk_X_fr_LH_upperleg` (transforms.impl.h:8407-8415, 8417-8439). -/
def hom_fr_trunk_X_fr_LH_upperleg : Gen where
  rows := 4
  cols := 4
  ctor := [⟨0, 2, .k 0 0⟩,
    ⟨0, 3, .neg (.k 3735 4)⟩,
    ⟨3, 0, .k 0 0⟩,
    ⟨3, 1, .k 0 0⟩,
    ⟨3, 2, .k 0 0⟩,
    ⟨3, 3, .k 1 0⟩]
  upd := [⟨0, 0, .neg (.s 7)⟩,
    ⟨0, 1, .neg (.c 7)⟩,
    ⟨1, 0, (.neg (.s 6)) ⊠ (.c 7)⟩,
    ⟨1, 1, (.s 6) ⊠ (.s 7)⟩,
    ⟨1, 2, .c 6⟩,
    ⟨1, 3, (.k 207 3) ⊟ ((.k 8 2) ⊠ (.s 6))⟩,
    ⟨2, 0, (.neg (.c 6)) ⊠ (.c 7)⟩,
    ⟨2, 1, (.c 6) ⊠ (.s 7)⟩,
    ⟨2, 2, .neg (.s 6)⟩,
    ⟨2, 3, (.neg (.k 8 2)) ⊠ (.c 6)⟩]

/-- `MotionTransforms::Type_fr_trunk_X_fr_LH_upperleg` (transforms.impl.h:573-586, 588-625). -/
def motion_fr_trunk_X_fr_LH_upperleg : Gen where
  rows := 6
  cols := 6
  ctor := [⟨0, 2, .k 0 0⟩,
    ⟨0, 3, .k 0 0⟩,
    ⟨0, 4, .k 0 0⟩,
    ⟨0, 5, .k 0 0⟩,
    ⟨1, 3, .k 0 0⟩,
    ⟨1, 4, .k 0 0⟩,
    ⟨1, 5, .k 0 0⟩,
    ⟨2, 3, .k 0 0⟩,
    ⟨2, 4, .k 0 0⟩,
    ⟨2, 5, .k 0 0⟩,
    ⟨3, 5, .k 0 0⟩]
  upd := [⟨0, 0, .neg (.s 7)⟩,
    ⟨0, 1, .neg (.c 7)⟩,
    ⟨1, 0, (.neg (.s 6)) ⊠ (.c 7)⟩,
    ⟨1, 1, (.s 6) ⊠ (.s 7)⟩,
    ⟨1, 2, .c 6⟩,
    ⟨2, 0, (.neg (.c 6)) ⊠ (.c 7)⟩,
    ⟨2, 1, (.c 6) ⊠ (.s 7)⟩,
    ⟨2, 2, .neg (.s 6)⟩,
    ⟨3, 0, ((.neg (.k 207 3)) ⊠ (.c 6)) ⊠ (.c 7)⟩,
    ⟨3, 1, ((.k 207 3) ⊠ (.c 6)) ⊠ (.s 7)⟩,
    ⟨3, 2, (.k 8 2) ⊟ ((.k 207 3) ⊠ (.s 6))⟩,
    ⟨3, 3, .neg (.s 7)⟩,
    ⟨3, 4, .neg (.c 7)⟩,
    ⟨4, 0, (((.k 8 2) ⊠ (.c 6)) ⊠ (.s 7)) ⊟ (((.k 3735 4) ⊠ (.c 6)) ⊠ (.c 7))⟩,
    ⟨4, 1, (((.k 3735 4) ⊠ (.c 6)) ⊠ (.s 7)) ⊞ (((.k 8 2) ⊠ (.c 6)) ⊠ (.c 7))⟩,
    ⟨4, 2, (.neg (.k 3735 4)) ⊠ (.s 6)⟩,
    ⟨4, 3, (.neg (.s 6)) ⊠ (.c 7)⟩,
    ⟨4, 4, (.s 6) ⊠ (.s 7)⟩,
    ⟨4, 5, .c 6⟩,
    ⟨5, 0, (((.k 207 3) ⊟ ((.k 8 2) ⊠ (.s 6))) ⊠ (.s 7)) ⊞ (((.k 3735 4) ⊠ (.s 6)) ⊠ (.c 7))⟩,
    ⟨5, 1, (((.k 207 3) ⊟ ((.k 8 2) ⊠ (.s 6))) ⊠ (.c 7)) ⊟ (((.k 3735 4) ⊠ (.s 6)) ⊠ (.s 7))⟩,
    ⟨5, 2, (.neg (.k 3735 4)) ⊠ (.c 6)⟩,
    ⟨5, 3, (.neg (.c 6)) ⊠ (.c 7)⟩,
    ⟨5, 4, (.c 6) ⊠ (.s 7)⟩,
    ⟨5, 5, .neg (.s 6)⟩]

/-- `ForceTransforms::Type_fr_trunk_X_fr_LH_upperleg` (transforms.impl.h:4550-4563, 4565-4602). -/
def force_fr_trunk_X_fr_LH_upperleg : Gen where
  rows := 6
  cols := 6
  ctor := [⟨0, 2, .k 0 0⟩,
    ⟨3, 0, .k 0 0⟩,
    ⟨3, 1, .k 0 0⟩,
    ⟨3, 2, .k 0 0⟩,
    ⟨3, 5, .k 0 0⟩,
    ⟨4, 0, .k 0 0⟩,
    ⟨4, 1, .k 0 0⟩,
    ⟨4, 2, .k 0 0⟩,
    ⟨5, 0, .k 0 0⟩,
    ⟨5, 1, .k 0 0⟩,
    ⟨5, 2, .k 0 0⟩]
  upd := [⟨0, 0, .neg (.s 7)⟩,
    ⟨0, 1, .neg (.c 7)⟩,
    ⟨0, 3, ((.neg (.k 207 3)) ⊠ (.c 6)) ⊠ (.c 7)⟩,
    ⟨0, 4, ((.k 207 3) ⊠ (.c 6)) ⊠ (.s 7)⟩,
    ⟨0, 5, (.k 8 2) ⊟ ((.k 207 3) ⊠ (.s 6))⟩,
    ⟨1, 0, (.neg (.s 6)) ⊠ (.c 7)⟩,
    ⟨1, 1, (.s 6) ⊠ (.s 7)⟩,
    ⟨1, 2, .c 6⟩,
    ⟨1, 3, (((.k 8 2) ⊠ (.c 6)) ⊠ (.s 7)) ⊟ (((.k 3735 4) ⊠ (.c 6)) ⊠ (.c 7))⟩,
    ⟨1, 4, (((.k 3735 4) ⊠ (.c 6)) ⊠ (.s 7)) ⊞ (((.k 8 2) ⊠ (.c 6)) ⊠ (.c 7))⟩,
    ⟨1, 5, (.neg (.k 3735 4)) ⊠ (.s 6)⟩,
    ⟨2, 0, (.neg (.c 6)) ⊠ (.c 7)⟩,
    ⟨2, 1, (.c 6) ⊠ (.s 7)⟩,
    ⟨2, 2, .neg (.s 6)⟩,
    ⟨2, 3, (((.k 207 3) ⊟ ((.k 8 2) ⊠ (.s 6))) ⊠ (.s 7)) ⊞ (((.k 3735 4) ⊠ (.s 6)) ⊠ (.c 7))⟩,
    ⟨2, 4, (((.k 207 3) ⊟ ((.k 8 2) ⊠ (.s 6))) ⊠ (.c 7)) ⊟ (((.k 3735 4) ⊠ (.s 6)) ⊠ (.s 7))⟩,
    ⟨2, 5, (.neg (.k 3735 4)) ⊠ (.c 6)⟩,
    ⟨3, 3, .neg (.s 7)⟩,
    ⟨3, 4, .neg (.c 7)⟩,
    ⟨4, 3, (.neg (.s 6)) ⊠ (.c 7)⟩,
    ⟨4, 4, (.s 6) ⊠ (.s 7)⟩,
    ⟨4, 5, .c 6⟩,
    ⟨5, 3, (.neg (.c 6)) ⊠ (.c 7)⟩,
    ⟨5, 4, (.c 6) ⊠ (.s 7)⟩,
    ⟨5, 5, .neg (.s 6)⟩]

/-- The transforms `fr_trunk_X_fr_LH_upperleg`. -/
def fr_trunk_X_fr_LH_upperleg : Trans := ⟨fr_trunk, fr_LH_upperleg, hom_fr_trunk_X_fr_LH_upperleg, motion_fr_trunk_X_fr_LH_upperleg, force_fr_trunk_X_fr_LH_upperleg⟩

/-- `HomogeneousTransforms::Type_fr_trunk_X_fr_RH_upperleg` (transforms.impl.h:8441-8449, 8451-8473). -/
def hom_fr_trunk_X_fr_RH_upperleg : Gen where
  rows := 4
  cols := 4
  ctor := [⟨0, 2, .k 0 0⟩,
    ⟨0, 3, .neg (.k 3735 4)⟩,
    ⟨3, 0, .k 0 0⟩,
    ⟨3, 1, .k 0 0⟩,
    ⟨3, 2, .k 0 0⟩,
    ⟨3, 3, .k 1 0⟩]
  upd := [⟨0, 0, .neg (.s 10)⟩,
    ⟨0, 1, .neg (.c 10)⟩,
    ⟨1, 0, (.s 9) ⊠ (.c 10)⟩,
    ⟨1, 1, (.neg (.s 9)) ⊠ (.s 10)⟩,
    ⟨1, 2, .c 9⟩,
    ⟨1, 3, ((.k 8 2) ⊠ (.s 9)) ⊟ (.k 207 3)⟩,
    ⟨2, 0, (.neg (.c 9)) ⊠ (.c 10)⟩,
    ⟨2, 1, (.c 9) ⊠ (.s 10)⟩,
    ⟨2, 2, .s 9⟩,
    ⟨2, 3, (.neg (.k 8 2)) ⊠ (.c 9)⟩]

/-- `MotionTransforms::Type_fr_trunk_X_fr_RH_upperleg` (transforms.impl.h:627-640, 642-679). -/
def motion_fr_trunk_X_fr_RH_upperleg : Gen where
  rows := 6
  cols := 6
  ctor := [⟨0, 2, .k 0 0⟩,
    ⟨0, 3, .k 0 0⟩,
    ⟨0, 4, .k 0 0⟩,
    ⟨0, 5, .k 0 0⟩,
    ⟨1, 3, .k 0 0⟩,
    ⟨1, 4, .k 0 0⟩,
    ⟨1, 5, .k 0 0⟩,
    ⟨2, 3, .k 0 0⟩,
    ⟨2, 4, .k 0 0⟩,
    ⟨2, 5, .k 0 0⟩,
    ⟨3, 5, .k 0 0⟩]
  upd := [⟨0, 0, .neg (.s 10)⟩,
    ⟨0, 1, .neg (.c 10)⟩,
    ⟨1, 0, (.s 9) ⊠ (.c 10)⟩,
    ⟨1, 1, (.neg (.s 9)) ⊠ (.s 10)⟩,
    ⟨1, 2, .c 9⟩,
    ⟨2, 0, (.neg (.c 9)) ⊠ (.c 10)⟩,
    ⟨2, 1, (.c 9) ⊠ (.s 10)⟩,
    ⟨2, 2, .s 9⟩,
    ⟨3, 0, ((.k 207 3) ⊠ (.c 9)) ⊠ (.c 10)⟩,
    ⟨3, 1, ((.neg (.k 207 3)) ⊠ (.c 9)) ⊠ (.s 10)⟩,
    ⟨3, 2, (.k 8 2) ⊟ ((.k 207 3) ⊠ (.s 9))⟩,
    ⟨3, 3, .neg (.s 10)⟩,
    ⟨3, 4, .neg (.c 10)⟩,
    ⟨4, 0, (((.k 8 2) ⊠ (.c 9)) ⊠ (.s 10)) ⊟ (((.k 3735 4) ⊠ (.c 9)) ⊠ (.c 10))⟩,
    ⟨4, 1, (((.k 3735 4) ⊠ (.c 9)) ⊠ (.s 10)) ⊞ (((.k 8 2) ⊠ (.c 9)) ⊠ (.c 10))⟩,
    ⟨4, 2, (.k 3735 4) ⊠ (.s 9)⟩,
    ⟨4, 3, (.s 9) ⊠ (.c 10)⟩,
    ⟨4, 4, (.neg (.s 9)) ⊠ (.s 10)⟩,
    ⟨4, 5, .c 9⟩,
    ⟨5, 0, ((((.k 8 2) ⊠ (.s 9)) ⊟ (.k 207 3)) ⊠ (.s 10)) ⊟ (((.k 3735 4) ⊠ (.s 9)) ⊠ (.c 10))⟩,
    ⟨5, 1, (((.k 3735 4) ⊠ (.s 9)) ⊠ (.s 10)) ⊞ ((((.k 8 2) ⊠ (.s 9)) ⊟ (.k 207 3)) ⊠ (.c 10))⟩,
    ⟨5, 2, (.neg (.k 3735 4)) ⊠ (.c 9)⟩,
    ⟨5, 3, (.neg (.c 9)) ⊠ (.c 10)⟩,
    ⟨5, 4, (.c 9) ⊠ (.s 10)⟩,
    ⟨5, 5, .s 9⟩]

/-- `ForceTransforms::Type_fr_trunk_X_fr_RH_upperleg` (transforms.impl.h:4604-4617, 4619-4656). -/
def force_fr_trunk_X_fr_RH_upperleg : Gen where
  rows := 6
  cols := 6
  ctor := [⟨0, 2, .k 0 0⟩,
    ⟨3, 0, .k 0 0⟩,
    ⟨3, 1, .k 0 0⟩,
    ⟨3, 2, .k 0 0⟩,
    ⟨3, 5, .k 0 0⟩,
    ⟨4, 0, .k 0 0⟩,
    ⟨4, 1, .k 0 0⟩,
    ⟨4, 2, .k 0 0⟩,
    ⟨5, 0, .k 0 0⟩,
    ⟨5, 1, .k 0 0⟩,
    ⟨5, 2, .k 0 0⟩]
  upd := [⟨0, 0, .neg (.s 10)⟩,
    ⟨0, 1, .neg (.c 10)⟩,
    ⟨0, 3, ((.k 207 3) ⊠ (.c 9)) ⊠ (.c 10)⟩,
    ⟨0, 4, ((.neg (.k 207 3)) ⊠ (.c 9)) ⊠ (.s 10)⟩,
    ⟨0, 5, (.k 8 2) ⊟ ((.k 207 3) ⊠ (.s 9))⟩,
    ⟨1, 0, (.s 9) ⊠ (.c 10)⟩,
    ⟨1, 1, (.neg (.s 9)) ⊠ (.s 10)⟩,
    ⟨1, 2, .c 9⟩,
    ⟨1, 3, (((.k 8 2) ⊠ (.c 9)) ⊠ (.s 10)) ⊟ (((.k 3735 4) ⊠ (.c 9)) ⊠ (.c 10))⟩,
    ⟨1, 4, (((.k 3735 4) ⊠ (.c 9)) ⊠ (.s 10)) ⊞ (((.k 8 2) ⊠ (.c 9)) ⊠ (.c 10))⟩,
    ⟨1, 5, (.k 3735 4) ⊠ (.s 9)⟩,
    ⟨2, 0, (.neg (.c 9)) ⊠ (.c 10)⟩,
    ⟨2, 1, (.c 9) ⊠ (.s 10)⟩,
    ⟨2, 2, .s 9⟩,
    ⟨2, 3, ((((.k 8 2) ⊠ (.s 9)) ⊟ (.k 207 3)) ⊠ (.s 10)) ⊟ (((.k 3735 4) ⊠ (.s 9)) ⊠ (.c 10))⟩,
    ⟨2, 4, (((.k 3735 4) ⊠ (.s 9)) ⊠ (.s 10)) ⊞ ((((.k 8 2) ⊠ (.s 9)) ⊟ (.k 207 3)) ⊠ (.c 10))⟩,
    ⟨2, 5, (.neg (.k 3735 4)) ⊠ (.c 9)⟩,
    ⟨3, 3, .neg (.s 10)⟩,
    ⟨3, 4, .neg (.c 10)⟩,
    ⟨4, 3, (.s 9) ⊠ (.c 10)⟩,
    ⟨4, 4, (.neg (.s 9)) ⊠ (.s 10)⟩,
    ⟨4, 5, .c 9⟩,
    ⟨5, 3, (.neg (.c 9)) ⊠ (.c 10)⟩,
    ⟨5, 4, (.c 9) ⊠ (.s 10)⟩,
    ⟨5, 5, .s 9⟩]

/-- The transforms `fr_trunk_X_fr_RH_upperleg`. -/
def fr_trunk_X_fr_RH_upperleg : Trans := ⟨fr_trunk, fr_RH_upperleg, hom_fr_trunk_X_fr_RH_upperleg, motion_fr_trunk_X_fr_RH_upperleg, force_fr_trunk_X_fr_RH_upperleg⟩

/-- `HomogeneousTransforms::Type_fr_trunk_X_fr_LF_lowerleg` (transforms.impl.h:8475-8482, 8484-8511). -/
def hom_fr_trunk_X_fr_LF_lowerleg : Gen where
  rows := 4
  cols := 4
  ctor := [⟨0, 2, .k 0 0⟩,
    ⟨3, 0, .k 0 0⟩,
    ⟨3, 1, .k 0 0⟩,
    ⟨3, 2, .k 0 0⟩,
    ⟨3, 3, .k 1 0⟩]
  upd := [⟨0, 0, ((.neg (.c 1)) ⊠ (.s 2)) ⊟ ((.s 1) ⊠ (.c 2))⟩,
    ⟨0, 1, ((.s 1) ⊠ (.s 2)) ⊟ ((.c 1) ⊠ (.c 2))⟩,
    ⟨0, 3, (.k 3735 4) ⊟ ((.k 35 2) ⊠ (.s 1))⟩,
    ⟨1, 0, (((.s 0) ⊠ (.s 1)) ⊠ (.s 2)) ⊟ (((.s 0) ⊠ (.c 1)) ⊠ (.c 2))⟩,
    ⟨1, 1, (((.s 0) ⊠ (.c 1)) ⊠ (.s 2)) ⊞ (((.s 0) ⊠ (.s 1)) ⊠ (.c 2))⟩,
    ⟨1, 2, .c 0⟩,
    ⟨1, 3, ((((.neg (.k 35 2)) ⊠ (.s 0)) ⊠ (.c 1)) ⊟ ((.k 8 2) ⊠ (.s 0))) ⊞ (.k 207 3)⟩,
    ⟨2, 0, (((.c 0) ⊠ (.s 1)) ⊠ (.s 2)) ⊟ (((.c 0) ⊠ (.c 1)) ⊠ (.c 2))⟩,
    ⟨2, 1, (((.c 0) ⊠ (.c 1)) ⊠ (.s 2)) ⊞ (((.c 0) ⊠ (.s 1)) ⊠ (.c 2))⟩,
    ⟨2, 2, .neg (.s 0)⟩,
    ⟨2, 3, (((.neg (.k 35 2)) ⊠ (.c 0)) ⊠ (.c 1)) ⊟ ((.k 8 2) ⊠ (.c 0))⟩]

/-- `MotionTransforms::Type_fr_trunk_X_fr_LF_lowerleg` (transforms.impl.h:681-694, 696-737). -/
def motion_fr_trunk_X_fr_LF_lowerleg : Gen where
  rows := 6
  cols := 6
  ctor := [⟨0, 2, .k 0 0⟩,
    ⟨0, 3, .k 0 0⟩,
    ⟨0, 4, .k 0 0⟩,
    ⟨0, 5, .k 0 0⟩,
    ⟨1, 3, .k 0 0⟩,
    ⟨1, 4, .k 0 0⟩,
    ⟨1, 5, .k 0 0⟩,
    ⟨2, 3, .k 0 0⟩,
    ⟨2, 4, .k 0 0⟩,
    ⟨2, 5, .k 0 0⟩,
    ⟨3, 5, .k 0 0⟩]
  upd := [⟨0, 0, ((.neg (.c 1)) ⊠ (.s 2)) ⊟ ((.s 1) ⊠ (.c 2))⟩,
    ⟨0, 1, ((.s 1) ⊠ (.s 2)) ⊟ ((.c 1) ⊠ (.c 2))⟩,
    ⟨1, 0, (((.s 0) ⊠ (.s 1)) ⊠ (.s 2)) ⊟ (((.s 0) ⊠ (.c 1)) ⊠ (.c 2))⟩,
    ⟨1, 1, (((.s 0) ⊠ (.c 1)) ⊠ (.s 2)) ⊞ (((.s 0) ⊠ (.s 1)) ⊠ (.c 2))⟩,
    ⟨1, 2, .c 0⟩,
    ⟨2, 0, (((.c 0) ⊠ (.s 1)) ⊠ (.s 2)) ⊟ (((.c 0) ⊠ (.c 1)) ⊠ (.c 2))⟩,
    ⟨2, 1, (((.c 0) ⊠ (.c 1)) ⊠ (.s 2)) ⊞ (((.c 0) ⊠ (.s 1)) ⊠ (.c 2))⟩,
    ⟨2, 2, .neg (.s 0)⟩,
    ⟨3, 0, ((((.k 207 3) ⊠ (.c 0)) ⊠ (.s 1)) ⊠ (.s 2)) ⊟ ((((.k 207 3) ⊠ (.c 0)) ⊠ (.c 1)) ⊠ (.c 2))⟩,
    ⟨3, 1, ((((.k 207 3) ⊠ (.c 0)) ⊠ (.c 1)) ⊠ (.s 2)) ⊞ ((((.k 207 3) ⊠ (.c 0)) ⊠ (.s 1)) ⊠ (.c 2))⟩,
    ⟨3, 2, (((.k 35 2) ⊠ (.c 1)) ⊟ ((.k 207 3) ⊠ (.s 0))) ⊞ (.k 8 2)⟩,
    ⟨3, 3, ((.neg (.c 1)) ⊠ (.s 2)) ⊟ ((.s 1) ⊠ (.c 2))⟩,
    ⟨3, 4, ((.s 1) ⊠ (.s 2)) ⊟ ((.c 1) ⊠ (.c 2))⟩,
    ⟨4, 0, ((((((.neg (.k 3735 4)) ⊠ (.c 0)) ⊠ (.s 1)) ⊞ (((.k 8 2) ⊠ (.c 0)) ⊠ (.c 1))) ⊞ ((.k 35 2) ⊠ (.c 0))) ⊠ (.s 2)) ⊞ (((((.k 8 2) ⊠ (.c 0)) ⊠ (.s 1)) ⊞ (((.k 3735 4) ⊠ (.c 0)) ⊠ (.c 1))) ⊠ (.c 2))⟩,
    ⟨4, 1, (((((.neg (.k 8 2)) ⊠ (.c 0)) ⊠ (.s 1)) ⊟ (((.k 3735 4) ⊠ (.c 0)) ⊠ (.c 1))) ⊠ (.s 2)) ⊞ ((((((.neg (.k 3735 4)) ⊠ (.c 0)) ⊠ (.s 1)) ⊞ (((.k 8 2) ⊠ (.c 0)) ⊠ (.c 1))) ⊞ ((.k 35 2) ⊠ (.c 0))) ⊠ (.c 2))⟩,
    ⟨4, 2, ((.k 3735 4) ⊠ (.s 0)) ⊟ (((.k 35 2) ⊠ (.s 0)) ⊠ (.s 1))⟩,
    ⟨4, 3, (((.s 0) ⊠ (.s 1)) ⊠ (.s 2)) ⊟ (((.s 0) ⊠ (.c 1)) ⊠ (.c 2))⟩,
    ⟨4, 4, (((.s 0) ⊠ (.c 1)) ⊠ (.s 2)) ⊞ (((.s 0) ⊠ (.s 1)) ⊠ (.c 2))⟩,
    ⟨4, 5, .c 0⟩,
    ⟨5, 0, ((((((.k 3735 4) ⊠ (.s 0)) ⊠ (.s 1)) ⊞ (((.k 207 3) ⊟ ((.k 8 2) ⊠ (.s 0))) ⊠ (.c 1))) ⊟ ((.k 35 2) ⊠ (.s 0))) ⊠ (.s 2)) ⊞ (((((.k 207 3) ⊟ ((.k 8 2) ⊠ (.s 0))) ⊠ (.s 1)) ⊟ (((.k 3735 4) ⊠ (.s 0)) ⊠ (.c 1))) ⊠ (.c 2))⟩,
    ⟨5, 1, ((((((.k 8 2) ⊠ (.s 0)) ⊟ (.k 207 3)) ⊠ (.s 1)) ⊞ (((.k 3735 4) ⊠ (.s 0)) ⊠ (.c 1))) ⊠ (.s 2)) ⊞ ((((((.k 3735 4) ⊠ (.s 0)) ⊠ (.s 1)) ⊞ (((.k 207 3) ⊟ ((.k 8 2) ⊠ (.s 0))) ⊠ (.c 1))) ⊟ ((.k 35 2) ⊠ (.s 0))) ⊠ (.c 2))⟩,
    ⟨5, 2, ((.k 3735 4) ⊠ (.c 0)) ⊟ (((.k 35 2) ⊠ (.c 0)) ⊠ (.s 1))⟩,
    ⟨5, 3, (((.c 0) ⊠ (.s 1)) ⊠ (.s 2)) ⊟ (((.c 0) ⊠ (.c 1)) ⊠ (.c 2))⟩,
    ⟨5, 4, (((.c 0) ⊠ (.c 1)) ⊠ (.s 2)) ⊞ (((.c 0) ⊠ (.s 1)) ⊠ (.c 2))⟩,
    ⟨5, 5, .neg (.s 0)⟩]

/-- `ForceTransforms::Type_fr_trunk_X_fr_LF_lowerleg` (transforms.impl.h:4658-4671, 4673-4714). -/
def force_fr_trunk_X_fr_LF_lowerleg : Gen where
  rows := 6
  cols := 6
  ctor := [⟨0, 2, .k 0 0⟩,
    ⟨3, 0, .k 0 0⟩,
    ⟨3, 1, .k 0 0⟩,
    ⟨3, 2, .k 0 0⟩,
    ⟨3, 5, .k 0 0⟩,
    ⟨4, 0, .k 0 0⟩,
    ⟨4, 1, .k 0 0⟩,
    ⟨4, 2, .k 0 0⟩,
    ⟨5, 0, .k 0 0⟩,
    ⟨5, 1, .k 0 0⟩,
    ⟨5, 2, .k 0 0⟩]
  upd := [⟨0, 0, ((.neg (.c 1)) ⊠ (.s 2)) ⊟ ((.s 1) ⊠ (.c 2))⟩,
    ⟨0, 1, ((.s 1) ⊠ (.s 2)) ⊟ ((.c 1) ⊠ (.c 2))⟩,
    ⟨0, 3, ((((.k 207 3) ⊠ (.c 0)) ⊠ (.s 1)) ⊠ (.s 2)) ⊟ ((((.k 207 3) ⊠ (.c 0)) ⊠ (.c 1)) ⊠ (.c 2))⟩,
    ⟨0, 4, ((((.k 207 3) ⊠ (.c 0)) ⊠ (.c 1)) ⊠ (.s 2)) ⊞ ((((.k 207 3) ⊠ (.c 0)) ⊠ (.s 1)) ⊠ (.c 2))⟩,
    ⟨0, 5, (((.k 35 2) ⊠ (.c 1)) ⊟ ((.k 207 3) ⊠ (.s 0))) ⊞ (.k 8 2)⟩,
    ⟨1, 0, (((.s 0) ⊠ (.s 1)) ⊠ (.s 2)) ⊟ (((.s 0) ⊠ (.c 1)) ⊠ (.c 2))⟩,
    ⟨1, 1, (((.s 0) ⊠ (.c 1)) ⊠ (.s 2)) ⊞ (((.s 0) ⊠ (.s 1)) ⊠ (.c 2))⟩,
    ⟨1, 2, .c 0⟩,
    ⟨1, 3, ((((((.neg (.k 3735 4)) ⊠ (.c 0)) ⊠ (.s 1)) ⊞ (((.k 8 2) ⊠ (.c 0)) ⊠ (.c 1))) ⊞ ((.k 35 2) ⊠ (.c 0))) ⊠ (.s 2)) ⊞ (((((.k 8 2) ⊠ (.c 0)) ⊠ (.s 1)) ⊞ (((.k 3735 4) ⊠ (.c 0)) ⊠ (.c 1))) ⊠ (.c 2))⟩,
    ⟨1, 4, (((((.neg (.k 8 2)) ⊠ (.c 0)) ⊠ (.s 1)) ⊟ (((.k 3735 4) ⊠ (.c 0)) ⊠ (.c 1))) ⊠ (.s 2)) ⊞ ((((((.neg (.k 3735 4)) ⊠ (.c 0)) ⊠ (.s 1)) ⊞ (((.k 8 2) ⊠ (.c 0)) ⊠ (.c 1))) ⊞ ((.k 35 2) ⊠ (.c 0))) ⊠ (.c 2))⟩,
    ⟨1, 5, ((.k 3735 4) ⊠ (.s 0)) ⊟ (((.k 35 2) ⊠ (.s 0)) ⊠ (.s 1))⟩,
    ⟨2, 0, (((.c 0) ⊠ (.s 1)) ⊠ (.s 2)) ⊟ (((.c 0) ⊠ (.c 1)) ⊠ (.c 2))⟩,
    ⟨2, 1, (((.c 0) ⊠ (.c 1)) ⊠ (.s 2)) ⊞ (((.c 0) ⊠ (.s 1)) ⊠ (.c 2))⟩,
    ⟨2, 2, .neg (.s 0)⟩,
    ⟨2, 3, ((((((.k 3735 4) ⊠ (.s 0)) ⊠ (.s 1)) ⊞ (((.k 207 3) ⊟ ((.k 8 2) ⊠ (.s 0))) ⊠ (.c 1))) ⊟ ((.k 35 2) ⊠ (.s 0))) ⊠ (.s 2)) ⊞ (((((.k 207 3) ⊟ ((.k 8 2) ⊠ (.s 0))) ⊠ (.s 1)) ⊟ (((.k 3735 4) ⊠ (.s 0)) ⊠ (.c 1))) ⊠ (.c 2))⟩,
    ⟨2, 4, ((((((.k 8 2) ⊠ (.s 0)) ⊟ (.k 207 3)) ⊠ (.s 1)) ⊞ (((.k 3735 4) ⊠ (.s 0)) ⊠ (.c 1))) ⊠ (.s 2)) ⊞ ((((((.k 3735 4) ⊠ (.s 0)) ⊠ (.s 1)) ⊞ (((.k 207 3) ⊟ ((.k 8 2) ⊠ (.s 0))) ⊠ (.c 1))) ⊟ ((.k 35 2) ⊠ (.s 0))) ⊠ (.c 2))⟩,
    ⟨2, 5, ((.k 3735 4) ⊠ (.c 0)) ⊟ (((.k 35 2) ⊠ (.c 0)) ⊠ (.s 1))⟩,
    ⟨3, 3, ((.neg (.c 1)) ⊠ (.s 2)) ⊟ ((.s 1) ⊠ (.c 2))⟩,
    ⟨3, 4, ((.s 1) ⊠ (.s 2)) ⊟ ((.c 1) ⊠ (.c 2))⟩,
    ⟨4, 3, (((.s 0) ⊠ (.s 1)) ⊠ (.s 2)) ⊟ (((.s 0) ⊠ (.c 1)) ⊠ (.c 2))⟩,
    ⟨4, 4, (((.s 0) ⊠ (.c 1)) ⊠ (.s 2)) ⊞ (((.s 0) ⊠ (.s 1)) ⊠ (.c 2))⟩,
    ⟨4, 5, .c 0⟩,
    ⟨5, 3, (((.c 0) ⊠ (.s 1)) ⊠ (.s 2)) ⊟ (((.c 0) ⊠ (.c 1)) ⊠ (.c 2))⟩,
    ⟨5, 4, (((.c 0) ⊠ (.c 1)) ⊠ (.s 2)) ⊞ (((.c 0) ⊠ (.s 1)) ⊠ (.c 2))⟩,
    ⟨5, 5, .neg (.s 0)⟩]

/-- The transforms `fr_trunk_X_fr_LF_lowerleg`. -/
def fr_trunk_X_fr_LF_lowerleg : Trans := ⟨fr_trunk, fr_LF_lowerleg, hom_fr_trunk_X_fr_LF_lowerleg, motion_fr_trunk_X_fr_LF_lowerleg, force_fr_trunk_X_fr_LF_lowerleg⟩

/-- `HomogeneousTransforms::Type_fr_trunk_X_fr_RF_lowerleg` (transforms.impl.h:8513-8520, 8522-8549). -/
def hom_fr_trunk_X_fr_RF_lowerleg : Gen where
  rows := 4
  cols := 4
  ctor := [⟨0, 2, .k 0 0⟩,
    ⟨3, 0, .k 0 0⟩,
    ⟨3, 1, .k 0 0⟩,
    ⟨3, 2, .k 0 0⟩,
    ⟨3, 3, .k 1 0⟩]
  upd := [⟨0, 0, ((.neg (.c 4)) ⊠ (.s 5)) ⊟ ((.s 4) ⊠ (.c 5))⟩,
    ⟨0, 1, ((.s 4) ⊠ (.s 5)) ⊟ ((.c 4) ⊠ (.c 5))⟩,
    ⟨0, 3, (.k 3735 4) ⊟ ((.k 35 2) ⊠ (.s 4))⟩,
    ⟨1, 0, (((.s 3) ⊠ (.c 4)) ⊠ (.c 5)) ⊟ (((.s 3) ⊠ (.s 4)) ⊠ (.s 5))⟩,
    ⟨1, 1, (((.neg (.s 3)) ⊠ (.c 4)) ⊠ (.s 5)) ⊟ (((.s 3) ⊠ (.s 4)) ⊠ (.c 5))⟩,
    ⟨1, 2, .c 3⟩,
    ⟨1, 3, ((((.k 35 2) ⊠ (.s 3)) ⊠ (.c 4)) ⊞ ((.k 8 2) ⊠ (.s 3))) ⊟ (.k 207 3)⟩,
    ⟨2, 0, (((.c 3) ⊠ (.s 4)) ⊠ (.s 5)) ⊟ (((.c 3) ⊠ (.c 4)) ⊠ (.c 5))⟩,
    ⟨2, 1, (((.c 3) ⊠ (.c 4)) ⊠ (.s 5)) ⊞ (((.c 3) ⊠ (.s 4)) ⊠ (.c 5))⟩,
    ⟨2, 2, .s 3⟩,
    ⟨2, 3, (((.neg (.k 35 2)) ⊠ (.c 3)) ⊠ (.c 4)) ⊟ ((.k 8 2) ⊠ (.c 3))⟩]

/-- `MotionTransforms::Type_fr_trunk_X_fr_RF_lowerleg` (transforms.impl.h:739-752, 754-795). -/
def motion_fr_trunk_X_fr_RF_lowerleg : Gen where
  rows := 6
  cols := 6
  ctor := [⟨0, 2, .k 0 0⟩,
    ⟨0, 3, .k 0 0⟩,
    ⟨0, 4, .k 0 0⟩,
    ⟨0, 5, .k 0 0⟩,
    ⟨1, 3, .k 0 0⟩,
    ⟨1, 4, .k 0 0⟩,
    ⟨1, 5, .k 0 0⟩,
    ⟨2, 3, .k 0 0⟩,
    ⟨2, 4, .k 0 0⟩,
    ⟨2, 5, .k 0 0⟩,
    ⟨3, 5, .k 0 0⟩]
  upd := [⟨0, 0, ((.neg (.c 4)) ⊠ (.s 5)) ⊟ ((.s 4) ⊠ (.c 5))⟩,
    ⟨0, 1, ((.s 4) ⊠ (.s 5)) ⊟ ((.c 4) ⊠ (.c 5))⟩,
    ⟨1, 0, (((.s 3) ⊠ (.c 4)) ⊠ (.c 5)) ⊟ (((.s 3) ⊠ (.s 4)) ⊠ (.s 5))⟩,
    ⟨1, 1, (((.neg (.s 3)) ⊠ (.c 4)) ⊠ (.s 5)) ⊟ (((.s 3) ⊠ (.s 4)) ⊠ (.c 5))⟩,
    ⟨1, 2, .c 3⟩,
    ⟨2, 0, (((.c 3) ⊠ (.s 4)) ⊠ (.s 5)) ⊟ (((.c 3) ⊠ (.c 4)) ⊠ (.c 5))⟩,
    ⟨2, 1, (((.c 3) ⊠ (.c 4)) ⊠ (.s 5)) ⊞ (((.c 3) ⊠ (.s 4)) ⊠ (.c 5))⟩,
    ⟨2, 2, .s 3⟩,
    ⟨3, 0, ((((.k 207 3) ⊠ (.c 3)) ⊠ (.c 4)) ⊠ (.c 5)) ⊟ ((((.k 207 3) ⊠ (.c 3)) ⊠ (.s 4)) ⊠ (.s 5))⟩,
    ⟨3, 1, ((((.neg (.k 207 3)) ⊠ (.c 3)) ⊠ (.c 4)) ⊠ (.s 5)) ⊟ ((((.k 207 3) ⊠ (.c 3)) ⊠ (.s 4)) ⊠ (.c 5))⟩,
    ⟨3, 2, (((.k 35 2) ⊠ (.c 4)) ⊟ ((.k 207 3) ⊠ (.s 3))) ⊞ (.k 8 2)⟩,
    ⟨3, 3, ((.neg (.c 4)) ⊠ (.s 5)) ⊟ ((.s 4) ⊠ (.c 5))⟩,
    ⟨3, 4, ((.s 4) ⊠ (.s 5)) ⊟ ((.c 4) ⊠ (.c 5))⟩,
    ⟨4, 0, ((((((.neg (.k 3735 4)) ⊠ (.c 3)) ⊠ (.s 4)) ⊞ (((.k 8 2) ⊠ (.c 3)) ⊠ (.c 4))) ⊞ ((.k 35 2) ⊠ (.c 3))) ⊠ (.s 5)) ⊞ (((((.k 8 2) ⊠ (.c 3)) ⊠ (.s 4)) ⊞ (((.k 3735 4) ⊠ (.c 3)) ⊠ (.c 4))) ⊠ (.c 5))⟩,
    ⟨4, 1, (((((.neg (.k 8 2)) ⊠ (.c 3)) ⊠ (.s 4)) ⊟ (((.k 3735 4) ⊠ (.c 3)) ⊠ (.c 4))) ⊠ (.s 5)) ⊞ ((((((.neg (.k 3735 4)) ⊠ (.c 3)) ⊠ (.s 4)) ⊞ (((.k 8 2) ⊠ (.c 3)) ⊠ (.c 4))) ⊞ ((.k 35 2) ⊠ (.c 3))) ⊠ (.c 5))⟩,
    ⟨4, 2, (((.k 35 2) ⊠ (.s 3)) ⊠ (.s 4)) ⊟ ((.k 3735 4) ⊠ (.s 3))⟩,
    ⟨4, 3, (((.s 3) ⊠ (.c 4)) ⊠ (.c 5)) ⊟ (((.s 3) ⊠ (.s 4)) ⊠ (.s 5))⟩,
    ⟨4, 4, (((.neg (.s 3)) ⊠ (.c 4)) ⊠ (.s 5)) ⊟ (((.s 3) ⊠ (.s 4)) ⊠ (.c 5))⟩,
    ⟨4, 5, .c 3⟩,
    ⟨5, 0, ((((((.neg (.k 3735 4)) ⊠ (.s 3)) ⊠ (.s 4)) ⊞ ((((.k 8 2) ⊠ (.s 3)) ⊟ (.k 207 3)) ⊠ (.c 4))) ⊞ ((.k 35 2) ⊠ (.s 3))) ⊠ (.s 5)) ⊞ ((((((.k 8 2) ⊠ (.s 3)) ⊟ (.k 207 3)) ⊠ (.s 4)) ⊞ (((.k 3735 4) ⊠ (.s 3)) ⊠ (.c 4))) ⊠ (.c 5))⟩,
    ⟨5, 1, (((((.k 207 3) ⊟ ((.k 8 2) ⊠ (.s 3))) ⊠ (.s 4)) ⊟ (((.k 3735 4) ⊠ (.s 3)) ⊠ (.c 4))) ⊠ (.s 5)) ⊞ ((((((.neg (.k 3735 4)) ⊠ (.s 3)) ⊠ (.s 4)) ⊞ ((((.k 8 2) ⊠ (.s 3)) ⊟ (.k 207 3)) ⊠ (.c 4))) ⊞ ((.k 35 2) ⊠ (.s 3))) ⊠ (.c 5))⟩,
    ⟨5, 2, ((.k 3735 4) ⊠ (.c 3)) ⊟ (((.k 35 2) ⊠ (.c 3)) ⊠ (.s 4))⟩,
    ⟨5, 3, (((.c 3) ⊠ (.s 4)) ⊠ (.s 5)) ⊟ (((.c 3) ⊠ (.c 4)) ⊠ (.c 5))⟩,
    ⟨5, 4, (((.c 3) ⊠ (.c 4)) ⊠ (.s 5)) ⊞ (((.c 3) ⊠ (.s 4)) ⊠ (.c 5))⟩,
    ⟨5, 5, .s 3⟩]

/-- `ForceTransforms::Type_fr_trunk_X_fr_RF_lowerleg` (transforms.impl.h:4716-4729, 4731-4772). -/
def force_fr_trunk_X_fr_RF_lowerleg : Gen where
  rows := 6
  cols := 6
  ctor := [⟨0, 2, .k 0 0⟩,
    ⟨3, 0, .k 0 0⟩,
    ⟨3, 1, .k 0 0⟩,
    ⟨3, 2, .k 0 0⟩,
    ⟨3, 5, .k 0 0⟩,
    ⟨4, 0, .k 0 0⟩,
    ⟨4, 1, .k 0 0⟩,
    ⟨4, 2, .k 0 0⟩,
    ⟨5, 0, .k 0 0⟩,
    ⟨5, 1, .k 0 0⟩,
    ⟨5, 2, .k 0 0⟩]
  upd := [⟨0, 0, ((.neg (.c 4)) ⊠ (.s 5)) ⊟ ((.s 4) ⊠ (.c 5))⟩,
    ⟨0, 1, ((.s 4) ⊠ (.s 5)) ⊟ ((.c 4) ⊠ (.c 5))⟩,
    ⟨0, 3, ((((.k 207 3) ⊠ (.c 3)) ⊠ (.c 4)) ⊠ (.c 5)) ⊟ ((((.k 207 3) ⊠ (.c 3)) ⊠ (.s 4)) ⊠ (.s 5))⟩,
    ⟨0, 4, ((((.neg (.k 207 3)) ⊠ (.c 3)) ⊠ (.c 4)) ⊠ (.s 5)) ⊟ ((((.k 207 3) ⊠ (.c 3)) ⊠ (.s 4)) ⊠ (.c 5))⟩,
    ⟨0, 5, (((.k 35 2) ⊠ (.c 4)) ⊟ ((.k 207 3) ⊠ (.s 3))) ⊞ (.k 8 2)⟩,
    ⟨1, 0, (((.s 3) ⊠ (.c 4)) ⊠ (.c 5)) ⊟ (((.s 3) ⊠ (.s 4)) ⊠ (.s 5))⟩,
    ⟨1, 1, (((.neg (.s 3)) ⊠ (.c 4)) ⊠ (.s 5)) ⊟ (((.s 3) ⊠ (.s 4)) ⊠ (.c 5))⟩,
    ⟨1, 2, .c 3⟩,
    ⟨1, 3, ((((((.neg (.k 3735 4)) ⊠ (.c 3)) ⊠ (.s 4)) ⊞ (((.k 8 2) ⊠ (.c 3)) ⊠ (.c 4))) ⊞ ((.k 35 2) ⊠ (.c 3))) ⊠ (.s 5)) ⊞ (((((.k 8 2) ⊠ (.c 3)) ⊠ (.s 4)) ⊞ (((.k 3735 4) ⊠ (.c 3)) ⊠ (.c 4))) ⊠ (.c 5))⟩,
    ⟨1, 4, (((((.neg (.k 8 2)) ⊠ (.c 3)) ⊠ (.s 4)) ⊟ (((.k 3735 4) ⊠ (.c 3)) ⊠ (.c 4))) ⊠ (.s 5)) ⊞ ((((((.neg (.k 3735 4)) ⊠ (.c 3)) ⊠ (.s 4)) ⊞ (((.k 8 2) ⊠ (.c 3)) ⊠ (.c 4))) ⊞ ((.k 35 2) ⊠ (.c 3))) ⊠ (.c 5))⟩,
    ⟨1, 5, (((.k 35 2) ⊠ (.s 3)) ⊠ (.s 4)) ⊟ ((.k 3735 4) ⊠ (.s 3))⟩,
    ⟨2, 0, (((.c 3) ⊠ (.s 4)) ⊠ (.s 5)) ⊟ (((.c 3) ⊠ (.c 4)) ⊠ (.c 5))⟩,
    ⟨2, 1, (((.c 3) ⊠ (.c 4)) ⊠ (.s 5)) ⊞ (((.c 3) ⊠ (.s 4)) ⊠ (.c 5))⟩,
    ⟨2, 2, .s 3⟩,
    ⟨2, 3, ((((((.neg (.k 3735 4)) ⊠ (.s 3)) ⊠ (.s 4)) ⊞ ((((.k 8 2) ⊠ (.s 3)) ⊟ (.k 207 3)) ⊠ (.c 4))) ⊞ ((.k 35 2) ⊠ (.s 3))) ⊠ (.s 5)) ⊞ ((((((.k 8 2) ⊠ (.s 3)) ⊟ (.k 207 3)) ⊠ (.s 4)) ⊞ (((.k 3735 4) ⊠ (.s 3)) ⊠ (.c 4))) ⊠ (.c 5))⟩,
    ⟨2, 4, (((((.k 207 3) ⊟ ((.k 8 2) ⊠ (.s 3))) ⊠ (.s 4)) ⊟ (((.k 3735 4) ⊠ (.s 3)) ⊠ (.c 4))) ⊠ (.s 5)) ⊞ ((((((.neg (.k 3735 4)) ⊠ (.s 3)) ⊠ (.s 4)) ⊞ ((((.k 8 2) ⊠ (.s 3)) ⊟ (.k 207 3)) ⊠ (.c 4))) ⊞ ((.k 35 2) ⊠ (.s 3))) ⊠ (.c 5))⟩,
    ⟨2, 5, ((.k 3735 4) ⊠ (.c 3)) ⊟ (((.k 35 2) ⊠ (.c 3)) ⊠ (.s 4))⟩,
    ⟨3, 3, ((.neg (.c 4)) ⊠ (.s 5)) ⊟ ((.s 4) ⊠ (.c 5))⟩,
    ⟨3, 4, ((.s 4) ⊠ (.s 5)) ⊟ ((.c 4) ⊠ (.c 5))⟩,
    ⟨4, 3, (((.s 3) ⊠ (.c 4)) ⊠ (.c 5)) ⊟ (((.s 3) ⊠ (.s 4)) ⊠ (.s 5))⟩,
    ⟨4, 4, (((.neg (.s 3)) ⊠ (.c 4)) ⊠ (.s 5)) ⊟ (((.s 3) ⊠ (.s 4)) ⊠ (.c 5))⟩,
    ⟨4, 5, .c 3⟩,
    ⟨5, 3, (((.c 3) ⊠ (.s 4)) ⊠ (.s 5)) ⊟ (((.c 3) ⊠ (.c 4)) ⊠ (.c 5))⟩,
    ⟨5, 4, (((.c 3) ⊠ (.c 4)) ⊠ (.s 5)) ⊞ (((.c 3) ⊠ (.s 4)) ⊠ (.c 5))⟩,
    ⟨5, 5, .s 3⟩]

/-- The transforms `fr_trunk_X_fr_RF_lowerleg`. -/
def fr_trunk_X_fr_RF_lowerleg : Trans := ⟨fr_trunk, fr_RF_lowerleg, hom_fr_trunk_X_fr_RF_lowerleg, motion_fr_trunk_X_fr_RF_lowerleg, force_fr_trunk_X_fr_RF_lowerleg⟩

/-- `HomogeneousTransforms::Type_fr_trunk_X_fr_LH_lowerleg` (transforms.impl.h:8551-8558, 8560-8587). -/
def hom_fr_trunk_X_fr_LH_lowerleg : Gen where
  rows := 4
  cols := 4
  ctor := [⟨0, 2, .k 0 0⟩,
    ⟨3, 0, .k 0 0⟩,
    ⟨3, 1, .k 0 0⟩,
    ⟨3, 2, .k 0 0⟩,
    ⟨3, 3, .k 1 0⟩]
  upd := [⟨0, 0, ((.neg (.c 7)) ⊠ (.s 8)) ⊟ ((.s 7) ⊠ (.c 8))⟩,
    ⟨0, 1, ((.s 7) ⊠ (.s 8)) ⊟ ((.c 7) ⊠ (.c 8))⟩,
    ⟨0, 3, ((.neg (.k 35 2)) ⊠ (.s 7)) ⊟ (.k 3735 4)⟩,
    ⟨1, 0, (((.s 6) ⊠ (.s 7)) ⊠ (.s 8)) ⊟ (((.s 6) ⊠ (.c 7)) ⊠ (.c 8))⟩,
    ⟨1, 1, (((.s 6) ⊠ (.c 7)) ⊠ (.s 8)) ⊞ (((.s 6) ⊠ (.s 7)) ⊠ (.c 8))⟩,
    ⟨1, 2, .c 6⟩,
    ⟨1, 3, ((((.neg (.k 35 2)) ⊠ (.s 6)) ⊠ (.c 7)) ⊟ ((.k 8 2) ⊠ (.s 6))) ⊞ (.k 207 3)⟩,
    ⟨2, 0, (((.c 6) ⊠ (.s 7)) ⊠ (.s 8)) ⊟ (((.c 6) ⊠ (.c 7)) ⊠ (.c 8))⟩,
    ⟨2, 1, (((.c 6) ⊠ (.c 7)) ⊠ (.s 8)) ⊞ (((.c 6) ⊠ (.s 7)) ⊠ (.c 8))⟩,
    ⟨2, 2, .neg (.s 6)⟩,
    ⟨2, 3, (((.neg (.k 35 2)) ⊠ (.c 6)) ⊠ (.c 7)) ⊟ ((.k 8 2) ⊠ (.c 6))⟩]

/-- `MotionTransforms::Type_fr_trunk_X_fr_LH_lowerleg` (transforms.impl.h:797-810, 812-853). -/
def motion_fr_trunk_X_fr_LH_lowerleg : Gen where
  rows := 6
  cols := 6
  ctor := [⟨0, 2, .k 0 0⟩,
    ⟨0, 3, .k 0 0⟩,
    ⟨0, 4, .k 0 0⟩,
    ⟨0, 5, .k 0 0⟩,
    ⟨1, 3, .k 0 0⟩,
    ⟨1, 4, .k 0 0⟩,
    ⟨1, 5, .k 0 0⟩,
    ⟨2, 3, .k 0 0⟩,
    ⟨2, 4, .k 0 0⟩,
    ⟨2, 5, .k 0 0⟩,
    ⟨3, 5, .k 0 0⟩]
  upd := [⟨0, 0, ((.neg (.c 7)) ⊠ (.s 8)) ⊟ ((.s 7) ⊠ (.c 8))⟩,
    ⟨0, 1, ((.s 7) ⊠ (.s 8)) ⊟ ((.c 7) ⊠ (.c 8))⟩,
    ⟨1, 0, (((.s 6) ⊠ (.s 7)) ⊠ (.s 8)) ⊟ (((.s 6) ⊠ (.c 7)) ⊠ (.c 8))⟩,
    ⟨1, 1, (((.s 6) ⊠ (.c 7)) ⊠ (.s 8)) ⊞ (((.s 6) ⊠ (.s 7)) ⊠ (.c 8))⟩,
    ⟨1, 2, .c 6⟩,
    ⟨2, 0, (((.c 6) ⊠ (.s 7)) ⊠ (.s 8)) ⊟ (((.c 6) ⊠ (.c 7)) ⊠ (.c 8))⟩,
    ⟨2, 1, (((.c 6) ⊠ (.c 7)) ⊠ (.s 8)) ⊞ (((.c 6) ⊠ (.s 7)) ⊠ (.c 8))⟩,
    ⟨2, 2, .neg (.s 6)⟩,
    ⟨3, 0, ((((.k 207 3) ⊠ (.c 6)) ⊠ (.s 7)) ⊠ (.s 8)) ⊟ ((((.k 207 3) ⊠ (.c 6)) ⊠ (.c 7)) ⊠ (.c 8))⟩,
    ⟨3, 1, ((((.k 207 3) ⊠ (.c 6)) ⊠ (.c 7)) ⊠ (.s 8)) ⊞ ((((.k 207 3) ⊠ (.c 6)) ⊠ (.s 7)) ⊠ (.c 8))⟩,
    ⟨3, 2, (((.k 35 2) ⊠ (.c 7)) ⊟ ((.k 207 3) ⊠ (.s 6))) ⊞ (.k 8 2)⟩,
    ⟨3, 3, ((.neg (.c 7)) ⊠ (.s 8)) ⊟ ((.s 7) ⊠ (.c 8))⟩,
    ⟨3, 4, ((.s 7) ⊠ (.s 8)) ⊟ ((.c 7) ⊠ (.c 8))⟩,
    ⟨4, 0, ((((((.k 3735 4) ⊠ (.c 6)) ⊠ (.s 7)) ⊞ (((.k 8 2) ⊠ (.c 6)) ⊠ (.c 7))) ⊞ ((.k 35 2) ⊠ (.c 6))) ⊠ (.s 8)) ⊞ (((((.k 8 2) ⊠ (.c 6)) ⊠ (.s 7)) ⊟ (((.k 3735 4) ⊠ (.c 6)) ⊠ (.c 7))) ⊠ (.c 8))⟩,
    ⟨4, 1, (((((.k 3735 4) ⊠ (.c 6)) ⊠ (.c 7)) ⊟ (((.k 8 2) ⊠ (.c 6)) ⊠ (.s 7))) ⊠ (.s 8)) ⊞ ((((((.k 3735 4) ⊠ (.c 6)) ⊠ (.s 7)) ⊞ (((.k 8 2) ⊠ (.c 6)) ⊠ (.c 7))) ⊞ ((.k 35 2) ⊠ (.c 6))) ⊠ (.c 8))⟩,
    ⟨4, 2, (((.neg (.k 35 2)) ⊠ (.s 6)) ⊠ (.s 7)) ⊟ ((.k 3735 4) ⊠ (.s 6))⟩,
    ⟨4, 3, (((.s 6) ⊠ (.s 7)) ⊠ (.s 8)) ⊟ (((.s 6) ⊠ (.c 7)) ⊠ (.c 8))⟩,
    ⟨4, 4, (((.s 6) ⊠ (.c 7)) ⊠ (.s 8)) ⊞ (((.s 6) ⊠ (.s 7)) ⊠ (.c 8))⟩,
    ⟨4, 5, .c 6⟩,
    ⟨5, 0, ((((((.neg (.k 3735 4)) ⊠ (.s 6)) ⊠ (.s 7)) ⊞ (((.k 207 3) ⊟ ((.k 8 2) ⊠ (.s 6))) ⊠ (.c 7))) ⊟ ((.k 35 2) ⊠ (.s 6))) ⊠ (.s 8)) ⊞ (((((.k 207 3) ⊟ ((.k 8 2) ⊠ (.s 6))) ⊠ (.s 7)) ⊞ (((.k 3735 4) ⊠ (.s 6)) ⊠ (.c 7))) ⊠ (.c 8))⟩,
    ⟨5, 1, ((((((.k 8 2) ⊠ (.s 6)) ⊟ (.k 207 3)) ⊠ (.s 7)) ⊟ (((.k 3735 4) ⊠ (.s 6)) ⊠ (.c 7))) ⊠ (.s 8)) ⊞ ((((((.neg (.k 3735 4)) ⊠ (.s 6)) ⊠ (.s 7)) ⊞ (((.k 207 3) ⊟ ((.k 8 2) ⊠ (.s 6))) ⊠ (.c 7))) ⊟ ((.k 35 2) ⊠ (.s 6))) ⊠ (.c 8))⟩,
    ⟨5, 2, (((.neg (.k 35 2)) ⊠ (.c 6)) ⊠ (.s 7)) ⊟ ((.k 3735 4) ⊠ (.c 6))⟩,
    ⟨5, 3, (((.c 6) ⊠ (.s 7)) ⊠ (.s 8)) ⊟ (((.c 6) ⊠ (.c 7)) ⊠ (.c 8))⟩,
    ⟨5, 4, (((.c 6) ⊠ (.c 7)) ⊠ (.s 8)) ⊞ (((.c 6) ⊠ (.s 7)) ⊠ (.c 8))⟩,
    ⟨5, 5, .neg (.s 6)⟩]

/-- `ForceTransforms::Type_fr_trunk_X_fr_LH_lowerleg` (transforms.impl.h:4774-4787, 4789-4830). -/
def force_fr_trunk_X_fr_LH_lowerleg : Gen where
  rows := 6
  cols := 6
  ctor := [⟨0, 2, .k 0 0⟩,
    ⟨3, 0, .k 0 0⟩,
    ⟨3, 1, .k 0 0⟩,
    ⟨3, 2, .k 0 0⟩,
    ⟨3, 5, .k 0 0⟩,
    ⟨4, 0, .k 0 0⟩,
    ⟨4, 1, .k 0 0⟩,
    ⟨4, 2, .k 0 0⟩,
    ⟨5, 0, .k 0 0⟩,
    ⟨5, 1, .k 0 0⟩,
    ⟨5, 2, .k 0 0⟩]
  upd := [⟨0, 0, ((.neg (.c 7)) ⊠ (.s 8)) ⊟ ((.s 7) ⊠ (.c 8))⟩,
    ⟨0, 1, ((.s 7) ⊠ (.s 8)) ⊟ ((.c 7) ⊠ (.c 8))⟩,
    ⟨0, 3, ((((.k 207 3) ⊠ (.c 6)) ⊠ (.s 7)) ⊠ (.s 8)) ⊟ ((((.k 207 3) ⊠ (.c 6)) ⊠ (.c 7)) ⊠ (.c 8))⟩,
    ⟨0, 4, ((((.k 207 3) ⊠ (.c 6)) ⊠ (.c 7)) ⊠ (.s 8)) ⊞ ((((.k 207 3) ⊠ (.c 6)) ⊠ (.s 7)) ⊠ (.c 8))⟩,
    ⟨0, 5, (((.k 35 2) ⊠ (.c 7)) ⊟ ((.k 207 3) ⊠ (.s 6))) ⊞ (.k 8 2)⟩,
    ⟨1, 0, (((.s 6) ⊠ (.s 7)) ⊠ (.s 8)) ⊟ (((.s 6) ⊠ (.c 7)) ⊠ (.c 8))⟩,
    ⟨1, 1, (((.s 6) ⊠ (.c 7)) ⊠ (.s 8)) ⊞ (((.s 6) ⊠ (.s 7)) ⊠ (.c 8))⟩,
    ⟨1, 2, .c 6⟩,
    ⟨1, 3, ((((((.k 3735 4) ⊠ (.c 6)) ⊠ (.s 7)) ⊞ (((.k 8 2) ⊠ (.c 6)) ⊠ (.c 7))) ⊞ ((.k 35 2) ⊠ (.c 6))) ⊠ (.s 8)) ⊞ (((((.k 8 2) ⊠ (.c 6)) ⊠ (.s 7)) ⊟ (((.k 3735 4) ⊠ (.c 6)) ⊠ (.c 7))) ⊠ (.c 8))⟩,
    ⟨1, 4, (((((.k 3735 4) ⊠ (.c 6)) ⊠ (.c 7)) ⊟ (((.k 8 2) ⊠ (.c 6)) ⊠ (.s 7))) ⊠ (.s 8)) ⊞ ((((((.k 3735 4) ⊠ (.c 6)) ⊠ (.s 7)) ⊞ (((.k 8 2) ⊠ (.c 6)) ⊠ (.c 7))) ⊞ ((.k 35 2) ⊠ (.c 6))) ⊠ (.c 8))⟩,
    ⟨1, 5, (((.neg (.k 35 2)) ⊠ (.s 6)) ⊠ (.s 7)) ⊟ ((.k 3735 4) ⊠ (.s 6))⟩,
    ⟨2, 0, (((.c 6) ⊠ (.s 7)) ⊠ (.s 8)) ⊟ (((.c 6) ⊠ (.c 7)) ⊠ (.c 8))⟩,
    ⟨2, 1, (((.c 6) ⊠ (.c 7)) ⊠ (.s 8)) ⊞ (((.c 6) ⊠ (.s 7)) ⊠ (.c 8))⟩,
    ⟨2, 2, .neg (.s 6)⟩,
    ⟨2, 3, ((((((.neg (.k 3735 4)) ⊠ (.s 6)) ⊠ (.s 7)) ⊞ (((.k 207 3) ⊟ ((.k 8 2) ⊠ (.s 6))) ⊠ (.c 7))) ⊟ ((.k 35 2) ⊠ (.s 6))) ⊠ (.s 8)) ⊞ (((((.k 207 3) ⊟ ((.k 8 2) ⊠ (.s 6))) ⊠ (.s 7)) ⊞ (((.k 3735 4) ⊠ (.s 6)) ⊠ (.c 7))) ⊠ (.c 8))⟩,
    ⟨2, 4, ((((((.k 8 2) ⊠ (.s 6)) ⊟ (.k 207 3)) ⊠ (.s 7)) ⊟ (((.k 3735 4) ⊠ (.s 6)) ⊠ (.c 7))) ⊠ (.s 8)) ⊞ ((((((.neg (.k 3735 4)) ⊠ (.s 6)) ⊠ (.s 7)) ⊞ (((.k 207 3) ⊟ ((.k 8 2) ⊠ (.s 6))) ⊠ (.c 7))) ⊟ ((.k 35 2) ⊠ (.s 6))) ⊠ (.c 8))⟩,
    ⟨2, 5, (((.neg (.k 35 2)) ⊠ (.c 6)) ⊠ (.s 7)) ⊟ ((.k 3735 4) ⊠ (.c 6))⟩,
    ⟨3, 3, ((.neg (.c 7)) ⊠ (.s 8)) ⊟ ((.s 7) ⊠ (.c 8))⟩,
    ⟨3, 4, ((.s 7) ⊠ (.s 8)) ⊟ ((.c 7) ⊠ (.c 8))⟩,
    ⟨4, 3, (((.s 6) ⊠ (.s 7)) ⊠ (.s 8)) ⊟ (((.s 6) ⊠ (.c 7)) ⊠ (.c 8))⟩,
    ⟨4, 4, (((.s 6) ⊠ (.c 7)) ⊠ (.s 8)) ⊞ (((.s 6) ⊠ (.s 7)) ⊠ (.c 8))⟩,
    ⟨4, 5, .c 6⟩,
    ⟨5, 3, (((.c 6) ⊠ (.s 7)) ⊠ (.s 8)) ⊟ (((.c 6) ⊠ (.c 7)) ⊠ (.c 8))⟩,
    ⟨5, 4, (((.c 6) ⊠ (.c 7)) ⊠ (.s 8)) ⊞ (((.c 6) ⊠ (.s 7)) ⊠ (.c 8))⟩,
    ⟨5, 5, .neg (.s 6)⟩]

/-- The transforms `fr_trunk_X_fr_LH_lowerleg`. -/
def fr_trunk_X_fr_LH_lowerleg : Trans := ⟨fr_trunk, fr_LH_lowerleg, hom_fr_trunk_X_fr_LH_lowerleg, motion_fr_trunk_X_fr_LH_lowerleg, force_fr_trunk_X_fr_LH_lowerleg⟩

/-- `HomogeneousTransforms::Type_fr_trunk_X_fr_RH_lowerleg` (transforms.impl.h:8589-8596, 8598-8625). -/
def hom_fr_trunk_X_fr_RH_lowerleg : Gen where
  rows := 4
  cols := 4
  ctor := [⟨0, 2, .k 0 0⟩,
    ⟨3, 0, .k 0 0⟩,
    ⟨3, 1, .k 0 0⟩,
    ⟨3, 2, .k 0 0⟩,
    ⟨3, 3, .k 1 0⟩]
  upd := [⟨0, 0, ((.neg (.c 10)) ⊠ (.s 11)) ⊟ ((.s 10) ⊠ (.c 11))⟩,
    ⟨0, 1, ((.s 10) ⊠ (.s 11)) ⊟ ((.c 10) ⊠ (.c 11))⟩,
    ⟨0, 3, ((.neg (.k 35 2)) ⊠ (.s 10)) ⊟ (.k 3735 4)⟩,
    ⟨1, 0, (((.s 9) ⊠ (.c 10)) ⊠ (.c 11)) ⊟ (((.s 9) ⊠ (.s 10)) ⊠ (.s 11))⟩,
    ⟨1, 1, (((.neg (.s 9)) ⊠ (.c 10)) ⊠ (.s 11)) ⊟ (((.s 9) ⊠ (.s 10)) ⊠ (.c 11))⟩,
    ⟨1, 2, .c 9⟩,
    ⟨1, 3, ((((.k 35 2) ⊠ (.s 9)) ⊠ (.c 10)) ⊞ ((.k 8 2) ⊠ (.s 9))) ⊟ (.k 207 3)⟩,
    ⟨2, 0, (((.c 9) ⊠ (.s 10)) ⊠ (.s 11)) ⊟ (((.c 9) ⊠ (.c 10)) ⊠ (.c 11))⟩,
    ⟨2, 1, (((.c 9) ⊠ (.c 10)) ⊠ (.s 11)) ⊞ (((.c 9) ⊠ (.s 10)) ⊠ (.c 11))⟩,
    ⟨2, 2, .s 9⟩,
    ⟨2, 3, (((.neg (.k 35 2)) ⊠ (.c 9)) ⊠ (.c 10)) ⊟ ((.k 8 2) ⊠ (.c 9))⟩]

/-- `MotionTransforms::Type_fr_trunk_X_fr_RH_lowerleg` (transforms.impl.h:855-868, 870-911). -/
def motion_fr_trunk_X_fr_RH_lowerleg : Gen where
  rows := 6
  cols := 6
  ctor := [⟨0, 2, .k 0 0⟩,
    ⟨0, 3, .k 0 0⟩,
    ⟨0, 4, .k 0 0⟩,
    ⟨0, 5, .k 0 0⟩,
    ⟨1, 3, .k 0 0⟩,
    ⟨1, 4, .k 0 0⟩,
    ⟨1, 5, .k 0 0⟩,
    ⟨2, 3, .k 0 0⟩,
    ⟨2, 4, .k 0 0⟩,
    ⟨2, 5, .k 0 0⟩,
    ⟨3, 5, .k 0 0⟩]
  upd := [⟨0, 0, ((.neg (.c 10)) ⊠ (.s 11)) ⊟ ((.s 10) ⊠ (.c 11))⟩,
    ⟨0, 1, ((.s 10) ⊠ (.s 11)) ⊟ ((.c 10) ⊠ (.c 11))⟩,
    ⟨1, 0, (((.s 9) ⊠ (.c 10)) ⊠ (.c 11)) ⊟ (((.s 9) ⊠ (.s 10)) ⊠ (.s 11))⟩,
    ⟨1, 1, (((.neg (.s 9)) ⊠ (.c 10)) ⊠ (.s 11)) ⊟ (((.s 9) ⊠ (.s 10)) ⊠ (.c 11))⟩,
    ⟨1, 2, .c 9⟩,
    ⟨2, 0, (((.c 9) ⊠ (.s 10)) ⊠ (.s 11)) ⊟ (((.c 9) ⊠ (.c 10)) ⊠ (.c 11))⟩,
    ⟨2, 1, (((.c 9) ⊠ (.c 10)) ⊠ (.s 11)) ⊞ (((.c 9) ⊠ (.s 10)) ⊠ (.c 11))⟩,
    ⟨2, 2, .s 9⟩,
    ⟨3, 0, ((((.k 207 3) ⊠ (.c 9)) ⊠ (.c 10)) ⊠ (.c 11)) ⊟ ((((.k 207 3) ⊠ (.c 9)) ⊠ (.s 10)) ⊠ (.s 11))⟩,
    ⟨3, 1, ((((.neg (.k 207 3)) ⊠ (.c 9)) ⊠ (.c 10)) ⊠ (.s 11)) ⊟ ((((.k 207 3) ⊠ (.c 9)) ⊠ (.s 10)) ⊠ (.c 11))⟩,
    ⟨3, 2, (((.k 35 2) ⊠ (.c 10)) ⊟ ((.k 207 3) ⊠ (.s 9))) ⊞ (.k 8 2)⟩,
    ⟨3, 3, ((.neg (.c 10)) ⊠ (.s 11)) ⊟ ((.s 10) ⊠ (.c 11))⟩,
    ⟨3, 4, ((.s 10) ⊠ (.s 11)) ⊟ ((.c 10) ⊠ (.c 11))⟩,
    ⟨4, 0, ((((((.k 3735 4) ⊠ (.c 9)) ⊠ (.s 10)) ⊞ (((.k 8 2) ⊠ (.c 9)) ⊠ (.c 10))) ⊞ ((.k 35 2) ⊠ (.c 9))) ⊠ (.s 11)) ⊞ (((((.k 8 2) ⊠ (.c 9)) ⊠ (.s 10)) ⊟ (((.k 3735 4) ⊠ (.c 9)) ⊠ (.c 10))) ⊠ (.c 11))⟩,
    ⟨4, 1, (((((.k 3735 4) ⊠ (.c 9)) ⊠ (.c 10)) ⊟ (((.k 8 2) ⊠ (.c 9)) ⊠ (.s 10))) ⊠ (.s 11)) ⊞ ((((((.k 3735 4) ⊠ (.c 9)) ⊠ (.s 10)) ⊞ (((.k 8 2) ⊠ (.c 9)) ⊠ (.c 10))) ⊞ ((.k 35 2) ⊠ (.c 9))) ⊠ (.c 11))⟩,
    ⟨4, 2, (((.k 35 2) ⊠ (.s 9)) ⊠ (.s 10)) ⊞ ((.k 3735 4) ⊠ (.s 9))⟩,
    ⟨4, 3, (((.s 9) ⊠ (.c 10)) ⊠ (.c 11)) ⊟ (((.s 9) ⊠ (.s 10)) ⊠ (.s 11))⟩,
    ⟨4, 4, (((.neg (.s 9)) ⊠ (.c 10)) ⊠ (.s 11)) ⊟ (((.s 9) ⊠ (.s 10)) ⊠ (.c 11))⟩,
    ⟨4, 5, .c 9⟩,
    ⟨5, 0, ((((((.k 3735 4) ⊠ (.s 9)) ⊠ (.s 10)) ⊞ ((((.k 8 2) ⊠ (.s 9)) ⊟ (.k 207 3)) ⊠ (.c 10))) ⊞ ((.k 35 2) ⊠ (.s 9))) ⊠ (.s 11)) ⊞ ((((((.k 8 2) ⊠ (.s 9)) ⊟ (.k 207 3)) ⊠ (.s 10)) ⊟ (((.k 3735 4) ⊠ (.s 9)) ⊠ (.c 10))) ⊠ (.c 11))⟩,
    ⟨5, 1, (((((.k 207 3) ⊟ ((.k 8 2) ⊠ (.s 9))) ⊠ (.s 10)) ⊞ (((.k 3735 4) ⊠ (.s 9)) ⊠ (.c 10))) ⊠ (.s 11)) ⊞ ((((((.k 3735 4) ⊠ (.s 9)) ⊠ (.s 10)) ⊞ ((((.k 8 2) ⊠ (.s 9)) ⊟ (.k 207 3)) ⊠ (.c 10))) ⊞ ((.k 35 2) ⊠ (.s 9))) ⊠ (.c 11))⟩,
    ⟨5, 2, (((.neg (.k 35 2)) ⊠ (.c 9)) ⊠ (.s 10)) ⊟ ((.k 3735 4) ⊠ (.c 9))⟩,
    ⟨5, 3, (((.c 9) ⊠ (.s 10)) ⊠ (.s 11)) ⊟ (((.c 9) ⊠ (.c 10)) ⊠ (.c 11))⟩,
    ⟨5, 4, (((.c 9) ⊠ (.c 10)) ⊠ (.s 11)) ⊞ (((.c 9) ⊠ (.s 10)) ⊠ (.c 11))⟩,
    ⟨5, 5, .s 9⟩]

/-- `ForceTransforms::Type_fr_trunk_X_fr_RH_lowerleg` (transforms.impl.h:4832-4845, 4847-4888). -/
def force_fr_trunk_X_fr_RH_lowerleg : Gen where
  rows := 6
  cols := 6
  ctor := [⟨0, 2, .k 0 0⟩,
    ⟨3, 0, .k 0 0⟩,
    ⟨3, 1, .k 0 0⟩,
    ⟨3, 2, .k 0 0⟩,
    ⟨3, 5, .k 0 0⟩,
    ⟨4, 0, .k 0 0⟩,
    ⟨4, 1, .k 0 0⟩,
    ⟨4, 2, .k 0 0⟩,
    ⟨5, 0, .k 0 0⟩,
    ⟨5, 1, .k 0 0⟩,
    ⟨5, 2, .k 0 0⟩]
  upd := [⟨0, 0, ((.neg (.c 10)) ⊠ (.s 11)) ⊟ ((.s 10) ⊠ (.c 11))⟩,
    ⟨0, 1, ((.s 10) ⊠ (.s 11)) ⊟ ((.c 10) ⊠ (.c 11))⟩,
    ⟨0, 3, ((((.k 207 3) ⊠ (.c 9)) ⊠ (.c 10)) ⊠ (.c 11)) ⊟ ((((.k 207 3) ⊠ (.c 9)) ⊠ (.s 10)) ⊠ (.s 11))⟩,
    ⟨0, 4, ((((.neg (.k 207 3)) ⊠ (.c 9)) ⊠ (.c 10)) ⊠ (.s 11)) ⊟ ((((.k 207 3) ⊠ (.c 9)) ⊠ (.s 10)) ⊠ (.c 11))⟩,
    ⟨0, 5, (((.k 35 2) ⊠ (.c 10)) ⊟ ((.k 207 3) ⊠ (.s 9))) ⊞ (.k 8 2)⟩,
    ⟨1, 0, (((.s 9) ⊠ (.c 10)) ⊠ (.c 11)) ⊟ (((.s 9) ⊠ (.s 10)) ⊠ (.s 11))⟩,
    ⟨1, 1, (((.neg (.s 9)) ⊠ (.c 10)) ⊠ (.s 11)) ⊟ (((.s 9) ⊠ (.s 10)) ⊠ (.c 11))⟩,
    ⟨1, 2, .c 9⟩,
    ⟨1, 3, ((((((.k 3735 4) ⊠ (.c 9)) ⊠ (.s 10)) ⊞ (((.k 8 2) ⊠ (.c 9)) ⊠ (.c 10))) ⊞ ((.k 35 2) ⊠ (.c 9))) ⊠ (.s 11)) ⊞ (((((.k 8 2) ⊠ (.c 9)) ⊠ (.s 10)) ⊟ (((.k 3735 4) ⊠ (.c 9)) ⊠ (.c 10))) ⊠ (.c 11))⟩,
    ⟨1, 4, (((((.k 3735 4) ⊠ (.c 9)) ⊠ (.c 10)) ⊟ (((.k 8 2) ⊠ (.c 9)) ⊠ (.s 10))) ⊠ (.s 11)) ⊞ ((((((.k 3735 4) ⊠ (.c 9)) ⊠ (.s 10)) ⊞ (((.k 8 2) ⊠ (.c 9)) ⊠ (.c 10))) ⊞ ((.k 35 2) ⊠ (.c 9))) ⊠ (.c 11))⟩,
    ⟨1, 5, (((.k 35 2) ⊠ (.s 9)) ⊠ (.s 10)) ⊞ ((.k 3735 4) ⊠ (.s 9))⟩,
    ⟨2, 0, (((.c 9) ⊠ (.s 10)) ⊠ (.s 11)) ⊟ (((.c 9) ⊠ (.c 10)) ⊠ (.c 11))⟩,
    ⟨2, 1, (((.c 9) ⊠ (.c 10)) ⊠ (.s 11)) ⊞ (((.c 9) ⊠ (.s 10)) ⊠ (.c 11))⟩,
    ⟨2, 2, .s 9⟩,
    ⟨2, 3, ((((((.k 3735 4) ⊠ (.s 9)) ⊠ (.s 10)) ⊞ ((((.k 8 2) ⊠ (.s 9)) ⊟ (.k 207 3)) ⊠ (.c 10))) ⊞ ((.k 35 2) ⊠ (.s 9))) ⊠ (.s 11)) ⊞ ((((((.k 8 2) ⊠ (.s 9)) ⊟ (.k 207 3)) ⊠ (.s 10)) ⊟ (((.k 3735 4) ⊠ (.s 9)) ⊠ (.c 10))) ⊠ (.c 11))⟩,
    ⟨2, 4, (((((.k 207 3) ⊟ ((.k 8 2) ⊠ (.s 9))) ⊠ (.s 10)) ⊞ (((.k 3735 4) ⊠ (.s 9)) ⊠ (.c 10))) ⊠ (.s 11)) ⊞ ((((((.k 3735 4) ⊠ (.s 9)) ⊠ (.s 10)) ⊞ ((((.k 8 2) ⊠ (.s 9)) ⊟ (.k 207 3)) ⊠ (.c 10))) ⊞ ((.k 35 2) ⊠ (.s 9))) ⊠ (.c 11))⟩,
    ⟨2, 5, (((.neg (.k 35 2)) ⊠ (.c 9)) ⊠ (.s 10)) ⊟ ((.k 3735 4) ⊠ (.c 9))⟩,
    ⟨3, 3, ((.neg (.c 10)) ⊠ (.s 11)) ⊟ ((.s 10) ⊠ (.c 11))⟩,
    ⟨3, 4, ((.s 10) ⊠ (.s 11)) ⊟ ((.c 10) ⊠ (.c 11))⟩,
    ⟨4, 3, (((.s 9) ⊠ (.c 10)) ⊠ (.c 11)) ⊟ (((.s 9) ⊠ (.s 10)) ⊠ (.s 11))⟩,
    ⟨4, 4, (((.neg (.s 9)) ⊠ (.c 10)) ⊠ (.s 11)) ⊟ (((.s 9) ⊠ (.s 10)) ⊠ (.c 11))⟩,
    ⟨4, 5, .c 9⟩,
    ⟨5, 3, (((.c 9) ⊠ (.s 10)) ⊠ (.s 11)) ⊟ (((.c 9) ⊠ (.c 10)) ⊠ (.c 11))⟩,
    ⟨5, 4, (((.c 9) ⊠ (.c 10)) ⊠ (.s 11)) ⊞ (((.c 9) ⊠ (.s 10)) ⊠ (.c 11))⟩,
    ⟨5, 5, .s 9⟩]

/-- The transforms `fr_trunk_X_fr_RH_lowerleg`. -/
def fr_trunk_X_fr_RH_lowerleg : Trans := ⟨fr_trunk, fr_RH_lowerleg, hom_fr_trunk_X_fr_RH_lowerleg, motion_fr_trunk_X_fr_RH_lowerleg, force_fr_trunk_X_fr_RH_lowerleg⟩

/-- `HomogeneousTransforms::Type_fr_LF_hipassembly_X_fr_trunk` (transforms.impl.h:8627-8639, 8641-8655). -/
def hom_fr_LF_hipassembly_X_fr_trunk : Gen where
  rows := 4
  cols := 4
  ctor := [⟨0, 0, .k 0 0⟩,
    ⟨1, 0, .k 0 0⟩,
    ⟨2, 0, .neg (.k 1 0)⟩,
    ⟨2, 1, .k 0 0⟩,
    ⟨2, 2, .k 0 0⟩,
    ⟨2, 3, .k 3735 4⟩,
    ⟨3, 0, .k 0 0⟩,
    ⟨3, 1, .k 0 0⟩,
    ⟨3, 2, .k 0 0⟩,
    ⟨3, 3, .k 1 0⟩]
  upd := [⟨0, 1, .neg (.s 0)⟩,
    ⟨0, 2, .neg (.c 0)⟩,
    ⟨0, 3, (.k 207 3) ⊠ (.s 0)⟩,
    ⟨1, 1, .neg (.c 0)⟩,
    ⟨1, 2, .s 0⟩,
    ⟨1, 3, (.k 207 3) ⊠ (.c 0)⟩]

/-- `MotionTransforms::Type_fr_LF_hipassembly_X_fr_trunk` (transforms.impl.h:913-937, 939-961). -/
def motion_fr_LF_hipassembly_X_fr_trunk : Gen where
  rows := 6
  cols := 6
  ctor := [⟨0, 0, .k 0 0⟩,
    ⟨0, 3, .k 0 0⟩,
    ⟨0, 4, .k 0 0⟩,
    ⟨0, 5, .k 0 0⟩,
    ⟨1, 0, .k 0 0⟩,
    ⟨1, 3, .k 0 0⟩,
    ⟨1, 4, .k 0 0⟩,
    ⟨1, 5, .k 0 0⟩,
    ⟨2, 0, .neg (.k 1 0)⟩,
    ⟨2, 1, .k 0 0⟩,
    ⟨2, 2, .k 0 0⟩,
    ⟨2, 3, .k 0 0⟩,
    ⟨2, 4, .k 0 0⟩,
    ⟨2, 5, .k 0 0⟩,
    ⟨3, 3, .k 0 0⟩,
    ⟨4, 3, .k 0 0⟩,
    ⟨5, 0, .k 0 0⟩,
    ⟨5, 1, .k 0 0⟩,
    ⟨5, 2, .k 207 3⟩,
    ⟨5, 3, .neg (.k 1 0)⟩,
    ⟨5, 4, .k 0 0⟩,
    ⟨5, 5, .k 0 0⟩]
  upd := [⟨0, 1, .neg (.s 0)⟩,
    ⟨0, 2, .neg (.c 0)⟩,
    ⟨1, 1, .neg (.c 0)⟩,
    ⟨1, 2, .s 0⟩,
    ⟨3, 0, (.neg (.k 207 3)) ⊠ (.c 0)⟩,
    ⟨3, 1, (.k 3735 4) ⊠ (.c 0)⟩,
    ⟨3, 2, (.neg (.k 3735 4)) ⊠ (.s 0)⟩,
    ⟨3, 4, .neg (.s 0)⟩,
    ⟨3, 5, .neg (.c 0)⟩,
    ⟨4, 0, (.k 207 3) ⊠ (.s 0)⟩,
    ⟨4, 1, (.neg (.k 3735 4)) ⊠ (.s 0)⟩,
    ⟨4, 2, (.neg (.k 3735 4)) ⊠ (.c 0)⟩,
    ⟨4, 4, .neg (.c 0)⟩,
    ⟨4, 5, .s 0⟩]

/-- `ForceTransforms::Type_fr_LF_hipassembly_X_fr_trunk` (transforms.impl.h:4890-4914, 4916-4938). -/
def force_fr_LF_hipassembly_X_fr_trunk : Gen where
  rows := 6
  cols := 6
  ctor := [⟨0, 0, .k 0 0⟩,
    ⟨1, 0, .k 0 0⟩,
    ⟨2, 0, .neg (.k 1 0)⟩,
    ⟨2, 1, .k 0 0⟩,
    ⟨2, 2, .k 0 0⟩,
    ⟨2, 3, .k 0 0⟩,
    ⟨2, 4, .k 0 0⟩,
    ⟨2, 5, .k 207 3⟩,
    ⟨3, 0, .k 0 0⟩,
    ⟨3, 1, .k 0 0⟩,
    ⟨3, 2, .k 0 0⟩,
    ⟨3, 3, .k 0 0⟩,
    ⟨4, 0, .k 0 0⟩,
    ⟨4, 1, .k 0 0⟩,
    ⟨4, 2, .k 0 0⟩,
    ⟨4, 3, .k 0 0⟩,
    ⟨5, 0, .k 0 0⟩,
    ⟨5, 1, .k 0 0⟩,
    ⟨5, 2, .k 0 0⟩,
    ⟨5, 3, .neg (.k 1 0)⟩,
    ⟨5, 4, .k 0 0⟩,
    ⟨5, 5, .k 0 0⟩]
  upd := [⟨0, 1, .neg (.s 0)⟩,
    ⟨0, 2, .neg (.c 0)⟩,
    ⟨0, 3, (.neg (.k 207 3)) ⊠ (.c 0)⟩,
    ⟨0, 4, (.k 3735 4) ⊠ (.c 0)⟩,
    ⟨0, 5, (.neg (.k 3735 4)) ⊠ (.s 0)⟩,
    ⟨1, 1, .neg (.c 0)⟩,
    ⟨1, 2, .s 0⟩,
    ⟨1, 3, (.k 207 3) ⊠ (.s 0)⟩,
    ⟨1, 4, (.neg (.k 3735 4)) ⊠ (.s 0)⟩,
    ⟨1, 5, (.neg (.k 3735 4)) ⊠ (.c 0)⟩,
    ⟨3, 4, .neg (.s 0)⟩,
    ⟨3, 5, .neg (.c 0)⟩,
    ⟨4, 4, .neg (.c 0)⟩,
    ⟨4, 5, .s 0⟩]

/-- The transforms `fr_LF_hipassembly_X_fr_trunk`. -/
def fr_LF_hipassembly_X_fr_trunk : Trans := ⟨fr_LF_hipassembly, fr_trunk, hom_fr_LF_hipassembly_X_fr_trunk, motion_fr_LF_hipassembly_X_fr_trunk, force_fr_LF_hipassembly_X_fr_trunk⟩

/-- `HomogeneousTransforms::Type_fr_RF_hipassembly_X_fr_trunk` (transforms.impl.h:8657-8669, 8671-8685). -/
def hom_fr_RF_hipassembly_X_fr_trunk : Gen where
  rows := 4
  cols := 4
  ctor := [⟨0, 0, .k 0 0⟩,
    ⟨1, 0, .k 0 0⟩,
    ⟨2, 0, .k 1 0⟩,
    ⟨2, 1, .k 0 0⟩,
    ⟨2, 2, .k 0 0⟩,
    ⟨2, 3, .neg (.k 3735 4)⟩,
    ⟨3, 0, .k 0 0⟩,
    ⟨3, 1, .k 0 0⟩,
    ⟨3, 2, .k 0 0⟩,
    ⟨3, 3, .k 1 0⟩]
  upd := [⟨0, 1, .s 3⟩,
    ⟨0, 2, .neg (.c 3)⟩,
    ⟨0, 3, (.k 207 3) ⊠ (.s 3)⟩,
    ⟨1, 1, .c 3⟩,
    ⟨1, 2, .s 3⟩,
    ⟨1, 3, (.k 207 3) ⊠ (.c 3)⟩]

/-- `MotionTransforms::Type_fr_RF_hipassembly_X_fr_trunk` (transforms.impl.h:963-987, 989-1011). -/
def motion_fr_RF_hipassembly_X_fr_trunk : Gen where
  rows := 6
  cols := 6
  ctor := [⟨0, 0, .k 0 0⟩,
    ⟨0, 3, .k 0 0⟩,
    ⟨0, 4, .k 0 0⟩,
    ⟨0, 5, .k 0 0⟩,
    ⟨1, 0, .k 0 0⟩,
    ⟨1, 3, .k 0 0⟩,
    ⟨1, 4, .k 0 0⟩,
    ⟨1, 5, .k 0 0⟩,
    ⟨2, 0, .k 1 0⟩,
    ⟨2, 1, .k 0 0⟩,
    ⟨2, 2, .k 0 0⟩,
    ⟨2, 3, .k 0 0⟩,
    ⟨2, 4, .k 0 0⟩,
    ⟨2, 5, .k 0 0⟩,
    ⟨3, 3, .k 0 0⟩,
    ⟨4, 3, .k 0 0⟩,
    ⟨5, 0, .k 0 0⟩,
    ⟨5, 1, .k 0 0⟩,
    ⟨5, 2, .k 207 3⟩,
    ⟨5, 3, .k 1 0⟩,
    ⟨5, 4, .k 0 0⟩,
    ⟨5, 5, .k 0 0⟩]
  upd := [⟨0, 1, .s 3⟩,
    ⟨0, 2, .neg (.c 3)⟩,
    ⟨1, 1, .c 3⟩,
    ⟨1, 2, .s 3⟩,
    ⟨3, 0, (.k 207 3) ⊠ (.c 3)⟩,
    ⟨3, 1, (.k 3735 4) ⊠ (.c 3)⟩,
    ⟨3, 2, (.k 3735 4) ⊠ (.s 3)⟩,
    ⟨3, 4, .s 3⟩,
    ⟨3, 5, .neg (.c 3)⟩,
    ⟨4, 0, (.neg (.k 207 3)) ⊠ (.s 3)⟩,
    ⟨4, 1, (.neg (.k 3735 4)) ⊠ (.s 3)⟩,
    ⟨4, 2, (.k 3735 4) ⊠ (.c 3)⟩,
    ⟨4, 4, .c 3⟩,
    ⟨4, 5, .s 3⟩]

/-- `ForceTransforms::Type_fr_RF_hipassembly_X_fr_trunk` (transforms.impl.h:4940-4964, 4966-4988). -/
def force_fr_RF_hipassembly_X_fr_trunk : Gen where
  rows := 6
  cols := 6
  ctor := [⟨0, 0, .k 0 0⟩,
    ⟨1, 0, .k 0 0⟩,
    ⟨2, 0, .k 1 0⟩,
    ⟨2, 1, .k 0 0⟩,
    ⟨2, 2, .k 0 0⟩,
    ⟨2, 3, .k 0 0⟩,
    ⟨2, 4, .k 0 0⟩,
    ⟨2, 5, .k 207 3⟩,
    ⟨3, 0, .k 0 0⟩,
    ⟨3, 1, .k 0 0⟩,
    ⟨3, 2, .k 0 0⟩,
    ⟨3, 3, .k 0 0⟩,
    ⟨4, 0, .k 0 0⟩,
    ⟨4, 1, .k 0 0⟩,
    ⟨4, 2, .k 0 0⟩,
    ⟨4, 3, .k 0 0⟩,
    ⟨5, 0, .k 0 0⟩,
    ⟨5, 1, .k 0 0⟩,
    ⟨5, 2, .k 0 0⟩,
    ⟨5, 3, .k 1 0⟩,
    ⟨5, 4, .k 0 0⟩,
    ⟨5, 5, .k 0 0⟩]
  upd := [⟨0, 1, .s 3⟩,
    ⟨0, 2, .neg (.c 3)⟩,
    ⟨0, 3, (.k 207 3) ⊠ (.c 3)⟩,
    ⟨0, 4, (.k 3735 4) ⊠ (.c 3)⟩,
    ⟨0, 5, (.k 3735 4) ⊠ (.s 3)⟩,
    ⟨1, 1, .c 3⟩,
    ⟨1, 2, .s 3⟩,
    ⟨1, 3, (.neg (.k 207 3)) ⊠ (.s 3)⟩,
    ⟨1, 4, (.neg (.k 3735 4)) ⊠ (.s 3)⟩,
    ⟨1, 5, (.k 3735 4) ⊠ (.c 3)⟩,
    ⟨3, 4, .s 3⟩,
    ⟨3, 5, .neg (.c 3)⟩,
    ⟨4, 4, .c 3⟩,
    ⟨4, 5, .s 3⟩]

/-- The transforms `fr_RF_hipassembly_X_fr_trunk`. -/
def fr_RF_hipassembly_X_fr_trunk : Trans := ⟨fr_RF_hipassembly, fr_trunk, hom_fr_RF_hipassembly_X_fr_trunk, motion_fr_RF_hipassembly_X_fr_trunk, force_fr_RF_hipassembly_X_fr_trunk⟩

/-- `HomogeneousTransforms::Type_fr_LH_hipassembly_X_fr_trunk` (transforms.impl.h:8687-8699, 8701-8715). -/
def hom_fr_LH_hipassembly_X_fr_trunk : Gen where
  rows := 4
  cols := 4
  ctor := [⟨0, 0, .k 0 0⟩,
    ⟨1, 0, .k 0 0⟩,
    ⟨2, 0, .neg (.k 1 0)⟩,
    ⟨2, 1, .k 0 0⟩,
    ⟨2, 2, .k 0 0⟩,
    ⟨2, 3, .neg (.k 3735 4)⟩,
    ⟨3, 0, .k 0 0⟩,
    ⟨3, 1, .k 0 0⟩,
    ⟨3, 2, .k 0 0⟩,
    ⟨3, 3, .k 1 0⟩]
  upd := [⟨0, 1, .neg (.s 6)⟩,
    ⟨0, 2, .neg (.c 6)⟩,
    ⟨0, 3, (.k 207 3) ⊠ (.s 6)⟩,
    ⟨1, 1, .neg (.c 6)⟩,
    ⟨1, 2, .s 6⟩,
    ⟨1, 3, (.k 207 3) ⊠ (.c 6)⟩]

/-- `MotionTransforms::Type_fr_LH_hipassembly_X_fr_trunk` (transforms.impl.h:1013-1037, 1039-1061). -/
def motion_fr_LH_hipassembly_X_fr_trunk : Gen where
  rows := 6
  cols := 6
  ctor := [⟨0, 0, .k 0 0⟩,
    ⟨0, 3, .k 0 0⟩,
    ⟨0, 4, .k 0 0⟩,
    ⟨0, 5, .k 0 0⟩,
    ⟨1, 0, .k 0 0⟩,
    ⟨1, 3, .k 0 0⟩,
    ⟨1, 4, .k 0 0⟩,
    ⟨1, 5, .k 0 0⟩,
    ⟨2, 0, .neg (.k 1 0)⟩,
    ⟨2, 1, .k 0 0⟩,
    ⟨2, 2, .k 0 0⟩,
    ⟨2, 3, .k 0 0⟩,
    ⟨2, 4, .k 0 0⟩,
    ⟨2, 5, .k 0 0⟩,
    ⟨3, 3, .k 0 0⟩,
    ⟨4, 3, .k 0 0⟩,
    ⟨5, 0, .k 0 0⟩,
    ⟨5, 1, .k 0 0⟩,
    ⟨5, 2, .k 207 3⟩,
    ⟨5, 3, .neg (.k 1 0)⟩,
    ⟨5, 4, .k 0 0⟩,
    ⟨5, 5, .k 0 0⟩]
  upd := [⟨0, 1, .neg (.s 6)⟩,
    ⟨0, 2, .neg (.c 6)⟩,
    ⟨1, 1, .neg (.c 6)⟩,
    ⟨1, 2, .s 6⟩,
    ⟨3, 0, (.neg (.k 207 3)) ⊠ (.c 6)⟩,
    ⟨3, 1, (.neg (.k 3735 4)) ⊠ (.c 6)⟩,
    ⟨3, 2, (.k 3735 4) ⊠ (.s 6)⟩,
    ⟨3, 4, .neg (.s 6)⟩,
    ⟨3, 5, .neg (.c 6)⟩,
    ⟨4, 0, (.k 207 3) ⊠ (.s 6)⟩,
    ⟨4, 1, (.k 3735 4) ⊠ (.s 6)⟩,
    ⟨4, 2, (.k 3735 4) ⊠ (.c 6)⟩,
    ⟨4, 4, .neg (.c 6)⟩,
    ⟨4, 5, .s 6⟩]

/-- `ForceTransforms::Type_fr_LH_hipassembly_X_fr_trunk` (transforms.impl.h:4990-5014, 5016-5038). -/
def force_fr_LH_hipassembly_X_fr_trunk : Gen where
  rows := 6
  cols := 6
  ctor := [⟨0, 0, .k 0 0⟩,
    ⟨1, 0, .k 0 0⟩,
    ⟨2, 0, .neg (.k 1 0)⟩,
    ⟨2, 1, .k 0 0⟩,
    ⟨2, 2, .k 0 0⟩,
    ⟨2, 3, .k 0 0⟩,
    ⟨2, 4, .k 0 0⟩,
    ⟨2, 5, .k 207 3⟩,
    ⟨3, 0, .k 0 0⟩,
    ⟨3, 1, .k 0 0⟩,
    ⟨3, 2, .k 0 0⟩,
    ⟨3, 3, .k 0 0⟩,
    ⟨4, 0, .k 0 0⟩,
    ⟨4, 1, .k 0 0⟩,
    ⟨4, 2, .k 0 0⟩,
    ⟨4, 3, .k 0 0⟩,
    ⟨5, 0, .k 0 0⟩,
    ⟨5, 1, .k 0 0⟩,
    ⟨5, 2, .k 0 0⟩,
    ⟨5, 3, .neg (.k 1 0)⟩,
    ⟨5, 4, .k 0 0⟩,
    ⟨5, 5, .k 0 0⟩]
  upd := [⟨0, 1, .neg (.s 6)⟩,
    ⟨0, 2, .neg (.c 6)⟩,
    ⟨0, 3, (.neg (.k 207 3)) ⊠ (.c 6)⟩,
    ⟨0, 4, (.neg (.k 3735 4)) ⊠ (.c 6)⟩,
    ⟨0, 5, (.k 3735 4) ⊠ (.s 6)⟩,
    ⟨1, 1, .neg (.c 6)⟩,
    ⟨1, 2, .s 6⟩,
    ⟨1, 3, (.k 207 3) ⊠ (.s 6)⟩,
    ⟨1, 4, (.k 3735 4) ⊠ (.s 6)⟩,
    ⟨1, 5, (.k 3735 4) ⊠ (.c 6)⟩,
    ⟨3, 4, .neg (.s 6)⟩,
    ⟨3, 5, .neg (.c 6)⟩,
    ⟨4, 4, .neg (.c 6)⟩,
    ⟨4, 5, .s 6⟩]

/-- The transforms `fr_LH_hipassembly_X_fr_trunk`. -/
def fr_LH_hipassembly_X_fr_trunk : Trans := ⟨fr_LH_hipassembly, fr_trunk, hom_fr_LH_hipassembly_X_fr_trunk, motion_fr_LH_hipassembly_X_fr_trunk, force_fr_LH_hipassembly_X_fr_trunk⟩

/-- `HomogeneousTransforms::Type_fr_RH_hipassembly_X_fr_trunk` (transforms.impl.h:8717-8729, 8731-8745). -/
def hom_fr_RH_hipassembly_X_fr_trunk : Gen where
  rows := 4
  cols := 4
  ctor := [⟨0, 0, .k 0 0⟩,
    ⟨1, 0, .k 0 0⟩,
    ⟨2, 0, .k 1 0⟩,
    ⟨2, 1, .k 0 0⟩,
    ⟨2, 2, .k 0 0⟩,
    ⟨2, 3, .k 3735 4⟩,
    ⟨3, 0, .k 0 0⟩,
    ⟨3, 1, .k 0 0⟩,
    ⟨3, 2, .k 0 0⟩,
    ⟨3, 3, .k 1 0⟩]
  upd := [⟨0, 1, .s 9⟩,
    ⟨0, 2, .neg (.c 9)⟩,
    ⟨0, 3, (.k 207 3) ⊠ (.s 9)⟩,
    ⟨1, 1, .c 9⟩,
    ⟨1, 2, .s 9⟩,
    ⟨1, 3, (.k 207 3) ⊠ (.c 9)⟩]

/-- `MotionTransforms::Type_fr_RH_hipassembly_X_fr_trunk` (transforms.impl.h:1063-1087, 1089-1111). -/
def motion_fr_RH_hipassembly_X_fr_trunk : Gen where
  rows := 6
  cols := 6
  ctor := [⟨0, 0, .k 0 0⟩,
    ⟨0, 3, .k 0 0⟩,
    ⟨0, 4, .k 0 0⟩,
    ⟨0, 5, .k 0 0⟩,
    ⟨1, 0, .k 0 0⟩,
    ⟨1, 3, .k 0 0⟩,
    ⟨1, 4, .k 0 0⟩,
    ⟨1, 5, .k 0 0⟩,
    ⟨2, 0, .k 1 0⟩,
    ⟨2, 1, .k 0 0⟩,
    ⟨2, 2, .k 0 0⟩,
    ⟨2, 3, .k 0 0⟩,
    ⟨2, 4, .k 0 0⟩,
    ⟨2, 5, .k 0 0⟩,
    ⟨3, 3, .k 0 0⟩,
    ⟨4, 3, .k 0 0⟩,
    ⟨5, 0, .k 0 0⟩,
    ⟨5, 1, .k 0 0⟩,
    ⟨5, 2, .k 207 3⟩,
    ⟨5, 3, .k 1 0⟩,
    ⟨5, 4, .k 0 0⟩,
    ⟨5, 5, .k 0 0⟩]
  upd := [⟨0, 1, .s 9⟩,
    ⟨0, 2, .neg (.c 9)⟩,
    ⟨1, 1, .c 9⟩,
    ⟨1, 2, .s 9⟩,
    ⟨3, 0, (.k 207 3) ⊠ (.c 9)⟩,
    ⟨3, 1, (.neg (.k 3735 4)) ⊠ (.c 9)⟩,
    ⟨3, 2, (.neg (.k 3735 4)) ⊠ (.s 9)⟩,
    ⟨3, 4, .s 9⟩,
    ⟨3, 5, .neg (.c 9)⟩,
    ⟨4, 0, (.neg (.k 207 3)) ⊠ (.s 9)⟩,
    ⟨4, 1, (.k 3735 4) ⊠ (.s 9)⟩,
    ⟨4, 2, (.neg (.k 3735 4)) ⊠ (.c 9)⟩,
    ⟨4, 4, .c 9⟩,
    ⟨4, 5, .s 9⟩]

/-- `ForceTransforms::Type_fr_RH_hipassembly_X_fr_trunk` (transforms.impl.h:5040-5064, 5066-5088). -/
def force_fr_RH_hipassembly_X_fr_trunk : Gen where
  rows := 6
  cols := 6
  ctor := [⟨0, 0, .k 0 0⟩,
    ⟨1, 0, .k 0 0⟩,
    ⟨2, 0, .k 1 0⟩,
    ⟨2, 1, .k 0 0⟩,
    ⟨2, 2, .k 0 0⟩,
    ⟨2, 3, .k 0 0⟩,
    ⟨2, 4, .k 0 0⟩,
    ⟨2, 5, .k 207 3⟩,
    ⟨3, 0, .k 0 0⟩,
    ⟨3, 1, .k 0 0⟩,
    ⟨3, 2, .k 0 0⟩,
    ⟨3, 3, .k 0 0⟩,
    ⟨4, 0, .k 0 0⟩,
    ⟨4, 1, .k 0 0⟩,
    ⟨4, 2, .k 0 0⟩,
    ⟨4, 3, .k 0 0⟩,
    ⟨5, 0, .k 0 0⟩,
    ⟨5, 1, .k 0 0⟩,
    ⟨5, 2, .k 0 0⟩,
    ⟨5, 3, .k 1 0⟩,
    ⟨5, 4, .k 0 0⟩,
    ⟨5, 5, .k 0 0⟩]
  upd := [⟨0, 1, .s 9⟩,
    ⟨0, 2, .neg (.c 9)⟩,
    ⟨0, 3, (.k 207 3) ⊠ (.c 9)⟩,
    ⟨0, 4, (.neg (.k 3735 4)) ⊠ (.c 9)⟩,
    ⟨0, 5, (.neg (.k 3735 4)) ⊠ (.s 9)⟩,
    ⟨1, 1, .c 9⟩,
    ⟨1, 2, .s 9⟩,
    ⟨1, 3, (.neg (.k 207 3)) ⊠ (.s 9)⟩,
    ⟨1, 4, (.k 3735 4) ⊠ (.s 9)⟩,
    ⟨1, 5, (.neg (.k 3735 4)) ⊠ (.c 9)⟩,
    ⟨3, 4, .s 9⟩,
    ⟨3, 5, .neg (.c 9)⟩,
    ⟨4, 4, .c 9⟩,
    ⟨4, 5, .s 9⟩]

/-- The transforms `fr_RH_hipassembly_X_fr_trunk`. -/
def fr_RH_hipassembly_X_fr_trunk : Trans := ⟨fr_RH_hipassembly, fr_trunk, hom_fr_RH_hipassembly_X_fr_trunk, motion_fr_RH_hipassembly_X_fr_trunk, force_fr_RH_hipassembly_X_fr_trunk⟩

/-- `HomogeneousTransforms::Type_fr_LF_upperleg_X_fr_trunk` (transforms.impl.h:8747-8754, 8756-8779). -/
def hom_fr_LF_upperleg_X_fr_trunk : Gen where
  rows := 4
  cols := 4
  ctor := [⟨2, 0, .k 0 0⟩,
    ⟨3, 0, .k 0 0⟩,
    ⟨3, 1, .k 0 0⟩,
    ⟨3, 2, .k 0 0⟩,
    ⟨3, 3, .k 1 0⟩]
  upd := [⟨0, 0, .neg (.s 1)⟩,
    ⟨0, 1, (.neg (.s 0)) ⊠ (.c 1)⟩,
    ⟨0, 2, (.neg (.c 0)) ⊠ (.c 1)⟩,
    ⟨0, 3, ((.k 3735 4) ⊠ (.s 1)) ⊞ ((((.k 207 3) ⊠ (.s 0)) ⊟ (.k 8 2)) ⊠ (.c 1))⟩,
    ⟨1, 0, .neg (.c 1)⟩,
    ⟨1, 1, (.s 0) ⊠ (.s 1)⟩,
    ⟨1, 2, (.c 0) ⊠ (.s 1)⟩,
    ⟨1, 3, (((.k 8 2) ⊟ ((.k 207 3) ⊠ (.s 0))) ⊠ (.s 1)) ⊞ ((.k 3735 4) ⊠ (.c 1))⟩,
    ⟨2, 1, .c 0⟩,
    ⟨2, 2, .neg (.s 0)⟩,
    ⟨2, 3, (.neg (.k 207 3)) ⊠ (.c 0)⟩]

/-- `MotionTransforms::Type_fr_LF_upperleg_X_fr_trunk` (transforms.impl.h:1113-1126, 1128-1165). -/
def motion_fr_LF_upperleg_X_fr_trunk : Gen where
  rows := 6
  cols := 6
  ctor := [⟨0, 3, .k 0 0⟩,
    ⟨0, 4, .k 0 0⟩,
    ⟨0, 5, .k 0 0⟩,
    ⟨1, 3, .k 0 0⟩,
    ⟨1, 4, .k 0 0⟩,
    ⟨1, 5, .k 0 0⟩,
    ⟨2, 0, .k 0 0⟩,
    ⟨2, 3, .k 0 0⟩,
    ⟨2, 4, .k 0 0⟩,
    ⟨2, 5, .k 0 0⟩,
    ⟨5, 3, .k 0 0⟩]
  upd := [⟨0, 0, .neg (.s 1)⟩,
    ⟨0, 1, (.neg (.s 0)) ⊠ (.c 1)⟩,
    ⟨0, 2, (.neg (.c 0)) ⊠ (.c 1)⟩,
    ⟨1, 0, .neg (.c 1)⟩,
    ⟨1, 1, (.s 0) ⊠ (.s 1)⟩,
    ⟨1, 2, (.c 0) ⊠ (.s 1)⟩,
    ⟨2, 1, .c 0⟩,
    ⟨2, 2, .neg (.s 0)⟩,
    ⟨3, 0, ((.neg (.k 207 3)) ⊠ (.c 0)) ⊠ (.c 1)⟩,
    ⟨3, 1, (((.k 8 2) ⊠ (.c 0)) ⊠ (.s 1)) ⊞ (((.k 3735 4) ⊠ (.c 0)) ⊠ (.c 1))⟩,
    ⟨3, 2, (((.k 207 3) ⊟ ((.k 8 2) ⊠ (.s 0))) ⊠ (.s 1)) ⊟ (((.k 3735 4) ⊠ (.s 0)) ⊠ (.c 1))⟩,
    ⟨3, 3, .neg (.s 1)⟩,
    ⟨3, 4, (.neg (.s 0)) ⊠ (.c 1)⟩,
    ⟨3, 5, (.neg (.c 0)) ⊠ (.c 1)⟩,
    ⟨4, 0, ((.k 207 3) ⊠ (.c 0)) ⊠ (.s 1)⟩,
    ⟨4, 1, (((.k 8 2) ⊠ (.c 0)) ⊠ (.c 1)) ⊟ (((.k 3735 4) ⊠ (.c 0)) ⊠ (.s 1))⟩,
    ⟨4, 2, (((.k 3735 4) ⊠ (.s 0)) ⊠ (.s 1)) ⊞ (((.k 207 3) ⊟ ((.k 8 2) ⊠ (.s 0))) ⊠ (.c 1))⟩,
    ⟨4, 3, .neg (.c 1)⟩,
    ⟨4, 4, (.s 0) ⊠ (.s 1)⟩,
    ⟨4, 5, (.c 0) ⊠ (.s 1)⟩,
    ⟨5, 0, (.k 8 2) ⊟ ((.k 207 3) ⊠ (.s 0))⟩,
    ⟨5, 1, (.k 3735 4) ⊠ (.s 0)⟩,
    ⟨5, 2, (.k 3735 4) ⊠ (.c 0)⟩,
    ⟨5, 4, .c 0⟩,
    ⟨5, 5, .neg (.s 0)⟩]

/-- `ForceTransforms::Type_fr_LF_upperleg_X_fr_trunk` (transforms.impl.h:5090-5103, 5105-5142). -/
def force_fr_LF_upperleg_X_fr_trunk : Gen where
  rows := 6
  cols := 6
  ctor := [⟨2, 0, .k 0 0⟩,
    ⟨3, 0, .k 0 0⟩,
    ⟨3, 1, .k 0 0⟩,
    ⟨3, 2, .k 0 0⟩,
    ⟨4, 0, .k 0 0⟩,
    ⟨4, 1, .k 0 0⟩,
    ⟨4, 2, .k 0 0⟩,
    ⟨5, 0, .k 0 0⟩,
    ⟨5, 1, .k 0 0⟩,
    ⟨5, 2, .k 0 0⟩,
    ⟨5, 3, .k 0 0⟩]
  upd := [⟨0, 0, .neg (.s 1)⟩,
    ⟨0, 1, (.neg (.s 0)) ⊠ (.c 1)⟩,
    ⟨0, 2, (.neg (.c 0)) ⊠ (.c 1)⟩,
    ⟨0, 3, ((.neg (.k 207 3)) ⊠ (.c 0)) ⊠ (.c 1)⟩,
    ⟨0, 4, (((.k 8 2) ⊠ (.c 0)) ⊠ (.s 1)) ⊞ (((.k 3735 4) ⊠ (.c 0)) ⊠ (.c 1))⟩,
    ⟨0, 5, (((.k 207 3) ⊟ ((.k 8 2) ⊠ (.s 0))) ⊠ (.s 1)) ⊟ (((.k 3735 4) ⊠ (.s 0)) ⊠ (.c 1))⟩,
    ⟨1, 0, .neg (.c 1)⟩,
    ⟨1, 1, (.s 0) ⊠ (.s 1)⟩,
    ⟨1, 2, (.c 0) ⊠ (.s 1)⟩,
    ⟨1, 3, ((.k 207 3) ⊠ (.c 0)) ⊠ (.s 1)⟩,
    ⟨1, 4, (((.k 8 2) ⊠ (.c 0)) ⊠ (.c 1)) ⊟ (((.k 3735 4) ⊠ (.c 0)) ⊠ (.s 1))⟩,
    ⟨1, 5, (((.k 3735 4) ⊠ (.s 0)) ⊠ (.s 1)) ⊞ (((.k 207 3) ⊟ ((.k 8 2) ⊠ (.s 0))) ⊠ (.c 1))⟩,
    ⟨2, 1, .c 0⟩,
    ⟨2, 2, .neg (.s 0)⟩,
    ⟨2, 3, (.k 8 2) ⊟ ((.k 207 3) ⊠ (.s 0))⟩,
    ⟨2, 4, (.k 3735 4) ⊠ (.s 0)⟩,
    ⟨2, 5, (.k 3735 4) ⊠ (.c 0)⟩,
    ⟨3, 3, .neg (.s 1)⟩,
    ⟨3, 4, (.neg (.s 0)) ⊠ (.c 1)⟩,
    ⟨3, 5, (.neg (.c 0)) ⊠ (.c 1)⟩,
    ⟨4, 3, .neg (.c 1)⟩,
    ⟨4, 4, (.s 0) ⊠ (.s 1)⟩,
    ⟨4, 5, (.c 0) ⊠ (.s 1)⟩,
    ⟨5, 4, .c 0⟩,
    ⟨5, 5, .neg (.s 0)⟩]

/-- The transforms `fr_LF_upperleg_X_fr_trunk`. -/
def fr_LF_upperleg_X_fr_trunk : Trans := ⟨fr_LF_upperleg, fr_trunk, hom_fr_LF_upperleg_X_fr_trunk, motion_fr_LF_upperleg_X_fr_trunk, force_fr_LF_upperleg_X_fr_trunk⟩

/-- `HomogeneousTransforms::Type_fr_RF_upperleg_X_fr_trunk` (transforms.impl.h:8781-8788, 8790-8813). -/
def hom_fr_RF_upperleg_X_fr_trunk : Gen where
  rows := 4
  cols := 4
  ctor := [⟨2, 0, .k 0 0⟩,
    ⟨3, 0, .k 0 0⟩,
    ⟨3, 1, .k 0 0⟩,
    ⟨3, 2, .k 0 0⟩,
    ⟨3, 3, .k 1 0⟩]
  upd := [⟨0, 0, .neg (.s 4)⟩,
    ⟨0, 1, (.s 3) ⊠ (.c 4)⟩,
    ⟨0, 2, (.neg (.c 3)) ⊠ (.c 4)⟩,
    ⟨0, 3, ((.k 3735 4) ⊠ (.s 4)) ⊞ ((((.k 207 3) ⊠ (.s 3)) ⊟ (.k 8 2)) ⊠ (.c 4))⟩,
    ⟨1, 0, .neg (.c 4)⟩,
    ⟨1, 1, (.neg (.s 3)) ⊠ (.s 4)⟩,
    ⟨1, 2, (.c 3) ⊠ (.s 4)⟩,
    ⟨1, 3, (((.k 8 2) ⊟ ((.k 207 3) ⊠ (.s 3))) ⊠ (.s 4)) ⊞ ((.k 3735 4) ⊠ (.c 4))⟩,
    ⟨2, 1, .c 3⟩,
    ⟨2, 2, .s 3⟩,
    ⟨2, 3, (.k 207 3) ⊠ (.c 3)⟩]

/-- `MotionTransforms::Type_fr_RF_upperleg_X_fr_trunk` (transforms.impl.h:1167-1180, 1182-1219). -/
def motion_fr_RF_upperleg_X_fr_trunk : Gen where
  rows := 6
  cols := 6
  ctor := [⟨0, 3, .k 0 0⟩,
    ⟨0, 4, .k 0 0⟩,
    ⟨0, 5, .k 0 0⟩,
    ⟨1, 3, .k 0 0⟩,
    ⟨1, 4, .k 0 0⟩,
    ⟨1, 5, .k 0 0⟩,
    ⟨2, 0, .k 0 0⟩,
    ⟨2, 3, .k 0 0⟩,
    ⟨2, 4, .k 0 0⟩,
    ⟨2, 5, .k 0 0⟩,
    ⟨5, 3, .k 0 0⟩]
  upd := [⟨0, 0, .neg (.s 4)⟩,
    ⟨0, 1, (.s 3) ⊠ (.c 4)⟩,
    ⟨0, 2, (.neg (.c 3)) ⊠ (.c 4)⟩,
    ⟨1, 0, .neg (.c 4)⟩,
    ⟨1, 1, (.neg (.s 3)) ⊠ (.s 4)⟩,
    ⟨1, 2, (.c 3) ⊠ (.s 4)⟩,
    ⟨2, 1, .c 3⟩,
    ⟨2, 2, .s 3⟩,
    ⟨3, 0, ((.k 207 3) ⊠ (.c 3)) ⊠ (.c 4)⟩,
    ⟨3, 1, (((.k 8 2) ⊠ (.c 3)) ⊠ (.s 4)) ⊞ (((.k 3735 4) ⊠ (.c 3)) ⊠ (.c 4))⟩,
    ⟨3, 2, ((((.k 8 2) ⊠ (.s 3)) ⊟ (.k 207 3)) ⊠ (.s 4)) ⊞ (((.k 3735 4) ⊠ (.s 3)) ⊠ (.c 4))⟩,
    ⟨3, 3, .neg (.s 4)⟩,
    ⟨3, 4, (.s 3) ⊠ (.c 4)⟩,
    ⟨3, 5, (.neg (.c 3)) ⊠ (.c 4)⟩,
    ⟨4, 0, ((.neg (.k 207 3)) ⊠ (.c 3)) ⊠ (.s 4)⟩,
    ⟨4, 1, (((.k 8 2) ⊠ (.c 3)) ⊠ (.c 4)) ⊟ (((.k 3735 4) ⊠ (.c 3)) ⊠ (.s 4))⟩,
    ⟨4, 2, ((((.k 8 2) ⊠ (.s 3)) ⊟ (.k 207 3)) ⊠ (.c 4)) ⊟ (((.k 3735 4) ⊠ (.s 3)) ⊠ (.s 4))⟩,
    ⟨4, 3, .neg (.c 4)⟩,
    ⟨4, 4, (.neg (.s 3)) ⊠ (.s 4)⟩,
    ⟨4, 5, (.c 3) ⊠ (.s 4)⟩,
    ⟨5, 0, (.k 8 2) ⊟ ((.k 207 3) ⊠ (.s 3))⟩,
    ⟨5, 1, (.neg (.k 3735 4)) ⊠ (.s 3)⟩,
    ⟨5, 2, (.k 3735 4) ⊠ (.c 3)⟩,
    ⟨5, 4, .c 3⟩,
    ⟨5, 5, .s 3⟩]

/-- `ForceTransforms::Type_fr_RF_upperleg_X_fr_trunk` (transforms.impl.h:5144-5157, 5159-5196). -/
def force_fr_RF_upperleg_X_fr_trunk : Gen where
  rows := 6
  cols := 6
  ctor := [⟨2, 0, .k 0 0⟩,
    ⟨3, 0, .k 0 0⟩,
    ⟨3, 1, .k 0 0⟩,
    ⟨3, 2, .k 0 0⟩,
    ⟨4, 0, .k 0 0⟩,
    ⟨4, 1, .k 0 0⟩,
    ⟨4, 2, .k 0 0⟩,
    ⟨5, 0, .k 0 0⟩,
    ⟨5, 1, .k 0 0⟩,
    ⟨5, 2, .k 0 0⟩,
    ⟨5, 3, .k 0 0⟩]
  upd := [⟨0, 0, .neg (.s 4)⟩,
    ⟨0, 1, (.s 3) ⊠ (.c 4)⟩,
    ⟨0, 2, (.neg (.c 3)) ⊠ (.c 4)⟩,
    ⟨0, 3, ((.k 207 3) ⊠ (.c 3)) ⊠ (.c 4)⟩,
    ⟨0, 4, (((.k 8 2) ⊠ (.c 3)) ⊠ (.s 4)) ⊞ (((.k 3735 4) ⊠ (.c 3)) ⊠ (.c 4))⟩,
    ⟨0, 5, ((((.k 8 2) ⊠ (.s 3)) ⊟ (.k 207 3)) ⊠ (.s 4)) ⊞ (((.k 3735 4) ⊠ (.s 3)) ⊠ (.c 4))⟩,
    ⟨1, 0, .neg (.c 4)⟩,
    ⟨1, 1, (.neg (.s 3)) ⊠ (.s 4)⟩,
    ⟨1, 2, (.c 3) ⊠ (.s 4)⟩,
    ⟨1, 3, ((.neg (.k 207 3)) ⊠ (.c 3)) ⊠ (.s 4)⟩,
    ⟨1, 4, (((.k 8 2) ⊠ (.c 3)) ⊠ (.c 4)) ⊟ (((.k 3735 4) ⊠ (.c 3)) ⊠ (.s 4))⟩,
    ⟨1, 5, ((((.k 8 2) ⊠ (.s 3)) ⊟ (.k 207 3)) ⊠ (.c 4)) ⊟ (((.k 3735 4) ⊠ (.s 3)) ⊠ (.s 4))⟩,
    ⟨2, 1, .c 3⟩,
    ⟨2, 2, .s 3⟩,
    ⟨2, 3, (.k 8 2) ⊟ ((.k 207 3) ⊠ (.s 3))⟩,
    ⟨2, 4, (.neg (.k 3735 4)) ⊠ (.s 3)⟩,
    ⟨2, 5, (.k 3735 4) ⊠ (.c 3)⟩,
    ⟨3, 3, .neg (.s 4)⟩,
    ⟨3, 4, (.s 3) ⊠ (.c 4)⟩,
    ⟨3, 5, (.neg (.c 3)) ⊠ (.c 4)⟩,
    ⟨4, 3, .neg (.c 4)⟩,
    ⟨4, 4, (.neg (.s 3)) ⊠ (.s 4)⟩,
    ⟨4, 5, (.c 3) ⊠ (.s 4)⟩,
    ⟨5, 4, .c 3⟩,
    ⟨5, 5, .s 3⟩]

/-- The transforms `fr_RF_upperleg_X_fr_trunk`. -/
def fr_RF_upperleg_X_fr_trunk : Trans := ⟨fr_RF_upperleg, fr_trunk, hom_fr_RF_upperleg_X_fr_trunk, motion_fr_RF_upperleg_X_fr_trunk, force_fr_RF_upperleg_X_fr_trunk⟩

/-- `HomogeneousTransforms::Type_fr_LH_upperleg_X_fr_trunk` (transforms.impl.h:8815-8822, 8824-8847). -/
def hom_fr_LH_upperleg_X_fr_trunk : Gen where
  rows := 4
  cols := 4
  ctor := [⟨2, 0, .k 0 0⟩,
    ⟨3, 0, .k 0 0⟩,
    ⟨3, 1, .k 0 0⟩,
    ⟨3, 2, .k 0 0⟩,
    ⟨3, 3, .k 1 0⟩]
  upd := [⟨0, 0, .neg (.s 7)⟩,
    ⟨0, 1, (.neg (.s 6)) ⊠ (.c 7)⟩,
    ⟨0, 2, (.neg (.c 6)) ⊠ (.c 7)⟩,
    ⟨0, 3, ((((.k 207 3) ⊠ (.s 6)) ⊟ (.k 8 2)) ⊠ (.c 7)) ⊟ ((.k 3735 4) ⊠ (.s 7))⟩,
    ⟨1, 0, .neg (.c 7)⟩,
    ⟨1, 1, (.s 6) ⊠ (.s 7)⟩,
    ⟨1, 2, (.c 6) ⊠ (.s 7)⟩,
    ⟨1, 3, (((.k 8 2) ⊟ ((.k 207 3) ⊠ (.s 6))) ⊠ (.s 7)) ⊟ ((.k 3735 4) ⊠ (.c 7))⟩,
    ⟨2, 1, .c 6⟩,
    ⟨2, 2, .neg (.s 6)⟩,
    ⟨2, 3, (.neg (.k 207 3)) ⊠ (.c 6)⟩]

/-- `MotionTransforms::Type_fr_LH_upperleg_X_fr_trunk` (transforms.impl.h:1221-1234, 1236-1273). -/
def motion_fr_LH_upperleg_X_fr_trunk : Gen where
  rows := 6
  cols := 6
  ctor := [⟨0, 3, .k 0 0⟩,
    ⟨0, 4, .k 0 0⟩,
    ⟨0, 5, .k 0 0⟩,
    ⟨1, 3, .k 0 0⟩,
    ⟨1, 4, .k 0 0⟩,
    ⟨1, 5, .k 0 0⟩,
    ⟨2, 0, .k 0 0⟩,
    ⟨2, 3, .k 0 0⟩,
    ⟨2, 4, .k 0 0⟩,
    ⟨2, 5, .k 0 0⟩,
    ⟨5, 3, .k 0 0⟩]
  upd := [⟨0, 0, .neg (.s 7)⟩,
    ⟨0, 1, (.neg (.s 6)) ⊠ (.c 7)⟩,
    ⟨0, 2, (.neg (.c 6)) ⊠ (.c 7)⟩,
    ⟨1, 0, .neg (.c 7)⟩,
    ⟨1, 1, (.s 6) ⊠ (.s 7)⟩,
    ⟨1, 2, (.c 6) ⊠ (.s 7)⟩,
    ⟨2, 1, .c 6⟩,
    ⟨2, 2, .neg (.s 6)⟩,
    ⟨3, 0, ((.neg (.k 207 3)) ⊠ (.c 6)) ⊠ (.c 7)⟩,
    ⟨3, 1, (((.k 8 2) ⊠ (.c 6)) ⊠ (.s 7)) ⊟ (((.k 3735 4) ⊠ (.c 6)) ⊠ (.c 7))⟩,
    ⟨3, 2, (((.k 207 3) ⊟ ((.k 8 2) ⊠ (.s 6))) ⊠ (.s 7)) ⊞ (((.k 3735 4) ⊠ (.s 6)) ⊠ (.c 7))⟩,
    ⟨3, 3, .neg (.s 7)⟩,
    ⟨3, 4, (.neg (.s 6)) ⊠ (.c 7)⟩,
    ⟨3, 5, (.neg (.c 6)) ⊠ (.c 7)⟩,
    ⟨4, 0, ((.k 207 3) ⊠ (.c 6)) ⊠ (.s 7)⟩,
    ⟨4, 1, (((.k 3735 4) ⊠ (.c 6)) ⊠ (.s 7)) ⊞ (((.k 8 2) ⊠ (.c 6)) ⊠ (.c 7))⟩,
    ⟨4, 2, (((.k 207 3) ⊟ ((.k 8 2) ⊠ (.s 6))) ⊠ (.c 7)) ⊟ (((.k 3735 4) ⊠ (.s 6)) ⊠ (.s 7))⟩,
    ⟨4, 3, .neg (.c 7)⟩,
    ⟨4, 4, (.s 6) ⊠ (.s 7)⟩,
    ⟨4, 5, (.c 6) ⊠ (.s 7)⟩,
    ⟨5, 0, (.k 8 2) ⊟ ((.k 207 3) ⊠ (.s 6))⟩,
    ⟨5, 1, (.neg (.k 3735 4)) ⊠ (.s 6)⟩,
    ⟨5, 2, (.neg (.k 3735 4)) ⊠ (.c 6)⟩,
    ⟨5, 4, .c 6⟩,
    ⟨5, 5, .neg (.s 6)⟩]

/-- `ForceTransforms::Type_fr_LH_upperleg_X_fr_trunk` (transforms.impl.h:5198-5211, 5213-5250). -/
def force_fr_LH_upperleg_X_fr_trunk : Gen where
  rows := 6
  cols := 6
  ctor := [⟨2, 0, .k 0 0⟩,
    ⟨3, 0, .k 0 0⟩,
    ⟨3, 1, .k 0 0⟩,
    ⟨3, 2, .k 0 0⟩,
    ⟨4, 0, .k 0 0⟩,
    ⟨4, 1, .k 0 0⟩,
    ⟨4, 2, .k 0 0⟩,
    ⟨5, 0, .k 0 0⟩,
    ⟨5, 1, .k 0 0⟩,
    ⟨5, 2, .k 0 0⟩,
    ⟨5, 3, .k 0 0⟩]
  upd := [⟨0, 0, .neg (.s 7)⟩,
    ⟨0, 1, (.neg (.s 6)) ⊠ (.c 7)⟩,
    ⟨0, 2, (.neg (.c 6)) ⊠ (.c 7)⟩,
    ⟨0, 3, ((.neg (.k 207 3)) ⊠ (.c 6)) ⊠ (.c 7)⟩,
    ⟨0, 4, (((.k 8 2) ⊠ (.c 6)) ⊠ (.s 7)) ⊟ (((.k 3735 4) ⊠ (.c 6)) ⊠ (.c 7))⟩,
    ⟨0, 5, (((.k 207 3) ⊟ ((.k 8 2) ⊠ (.s 6))) ⊠ (.s 7)) ⊞ (((.k 3735 4) ⊠ (.s 6)) ⊠ (.c 7))⟩,
    ⟨1, 0, .neg (.c 7)⟩,
    ⟨1, 1, (.s 6) ⊠ (.s 7)⟩,
    ⟨1, 2, (.c 6) ⊠ (.s 7)⟩,
    ⟨1, 3, ((.k 207 3) ⊠ (.c 6)) ⊠ (.s 7)⟩,
    ⟨1, 4, (((.k 3735 4) ⊠ (.c 6)) ⊠ (.s 7)) ⊞ (((.k 8 2) ⊠ (.c 6)) ⊠ (.c 7))⟩,
    ⟨1, 5, (((.k 207 3) ⊟ ((.k 8 2) ⊠ (.s 6))) ⊠ (.c 7)) ⊟ (((.k 3735 4) ⊠ (.s 6)) ⊠ (.s 7))⟩,
    ⟨2, 1, .c 6⟩,
    ⟨2, 2, .neg (.s 6)⟩,
    ⟨2, 3, (.k 8 2) ⊟ ((.k 207 3) ⊠ (.s 6))⟩,
    ⟨2, 4, (.neg (.k 3735 4)) ⊠ (.s 6)⟩,
    ⟨2, 5, (.neg (.k 3735 4)) ⊠ (.c 6)⟩,
    ⟨3, 3, .neg (.s 7)⟩,
    ⟨3, 4, (.neg (.s 6)) ⊠ (.c 7)⟩,
    ⟨3, 5, (.neg (.c 6)) ⊠ (.c 7)⟩,
    ⟨4, 3, .neg (.c 7)⟩,
    ⟨4, 4, (.s 6) ⊠ (.s 7)⟩,
    ⟨4, 5, (.c 6) ⊠ (.s 7)⟩,
    ⟨5, 4, .c 6⟩,
    ⟨5, 5, .neg (.s 6)⟩]

/-- The transforms `fr_LH_upperleg_X_fr_trunk`. -/
def fr_LH_upperleg_X_fr_trunk : Trans := ⟨fr_LH_upperleg, fr_trunk, hom_fr_LH_upperleg_X_fr_trunk, motion_fr_LH_upperleg_X_fr_trunk, force_fr_LH_upperleg_X_fr_trunk⟩

/-- `HomogeneousTransforms::Type_fr_RH_upperleg_X_fr_trunk` (transforms.impl.h:8849-8856, 8858-8881). -/
def hom_fr_RH_upperleg_X_fr_trunk : Gen where
  rows := 4
  cols := 4
  ctor := [⟨2, 0, .k 0 0⟩,
    ⟨3, 0, .k 0 0⟩,
    ⟨3, 1, .k 0 0⟩,
    ⟨3, 2, .k 0 0⟩,
    ⟨3, 3, .k 1 0⟩]
  upd := [⟨0, 0, .neg (.s 10)⟩,
    ⟨0, 1, (.s 9) ⊠ (.c 10)⟩,
    ⟨0, 2, (.neg (.c 9)) ⊠ (.c 10)⟩,
    ⟨0, 3, ((((.k 207 3) ⊠ (.s 9)) ⊟ (.k 8 2)) ⊠ (.c 10)) ⊟ ((.k 3735 4) ⊠ (.s 10))⟩,
    ⟨1, 0, .neg (.c 10)⟩,
    ⟨1, 1, (.neg (.s 9)) ⊠ (.s 10)⟩,
    ⟨1, 2, (.c 9) ⊠ (.s 10)⟩,
    ⟨1, 3, (((.k 8 2) ⊟ ((.k 207 3) ⊠ (.s 9))) ⊠ (.s 10)) ⊟ ((.k 3735 4) ⊠ (.c 10))⟩,
    ⟨2, 1, .c 9⟩,
    ⟨2, 2, .s 9⟩,
    ⟨2, 3, (.k 207 3) ⊠ (.c 9)⟩]

/-- `MotionTransforms::Type_fr_RH_upperleg_X_fr_trunk` (transforms.impl.h:1275-1288, 1290-1327). -/
def motion_fr_RH_upperleg_X_fr_trunk : Gen where
  rows := 6
  cols := 6
  ctor := [⟨0, 3, .k 0 0⟩,
    ⟨0, 4, .k 0 0⟩,
    ⟨0, 5, .k 0 0⟩,
    ⟨1, 3, .k 0 0⟩,
    ⟨1, 4, .k 0 0⟩,
    ⟨1, 5, .k 0 0⟩,
    ⟨2, 0, .k 0 0⟩,
    ⟨2, 3, .k 0 0⟩,
    ⟨2, 4, .k 0 0⟩,
    ⟨2, 5, .k 0 0⟩,
    ⟨5, 3, .k 0 0⟩]
  upd := [⟨0, 0, .neg (.s 10)⟩,
    ⟨0, 1, (.s 9) ⊠ (.c 10)⟩,
    ⟨0, 2, (.neg (.c 9)) ⊠ (.c 10)⟩,
    ⟨1, 0, .neg (.c 10)⟩,
    ⟨1, 1, (.neg (.s 9)) ⊠ (.s 10)⟩,
    ⟨1, 2, (.c 9) ⊠ (.s 10)⟩,
    ⟨2, 1, .c 9⟩,
    ⟨2, 2, .s 9⟩,
    ⟨3, 0, ((.k 207 3) ⊠ (.c 9)) ⊠ (.c 10)⟩,
    ⟨3, 1, (((.k 8 2) ⊠ (.c 9)) ⊠ (.s 10)) ⊟ (((.k 3735 4) ⊠ (.c 9)) ⊠ (.c 10))⟩,
    ⟨3, 2, ((((.k 8 2) ⊠ (.s 9)) ⊟ (.k 207 3)) ⊠ (.s 10)) ⊟ (((.k 3735 4) ⊠ (.s 9)) ⊠ (.c 10))⟩,
    ⟨3, 3, .neg (.s 10)⟩,
    ⟨3, 4, (.s 9) ⊠ (.c 10)⟩,
    ⟨3, 5, (.neg (.c 9)) ⊠ (.c 10)⟩,
    ⟨4, 0, ((.neg (.k 207 3)) ⊠ (.c 9)) ⊠ (.s 10)⟩,
    ⟨4, 1, (((.k 3735 4) ⊠ (.c 9)) ⊠ (.s 10)) ⊞ (((.k 8 2) ⊠ (.c 9)) ⊠ (.c 10))⟩,
    ⟨4, 2, (((.k 3735 4) ⊠ (.s 9)) ⊠ (.s 10)) ⊞ ((((.k 8 2) ⊠ (.s 9)) ⊟ (.k 207 3)) ⊠ (.c 10))⟩,
    ⟨4, 3, .neg (.c 10)⟩,
    ⟨4, 4, (.neg (.s 9)) ⊠ (.s 10)⟩,
    ⟨4, 5, (.c 9) ⊠ (.s 10)⟩,
    ⟨5, 0, (.k 8 2) ⊟ ((.k 207 3) ⊠ (.s 9))⟩,
    ⟨5, 1, (.k 3735 4) ⊠ (.s 9)⟩,
    ⟨5, 2, (.neg (.k 3735 4)) ⊠ (.c 9)⟩,
    ⟨5, 4, .c 9⟩,
    ⟨5, 5, .s 9⟩]

/-- `ForceTransforms::Type_fr_RH_upperleg_X_fr_trunk` (transforms.impl.h:5252-5265, 5267-5304). -/
def force_fr_RH_upperleg_X_fr_trunk : Gen where
  rows := 6
  cols := 6
  ctor := [⟨2, 0, .k 0 0⟩,
    ⟨3, 0, .k 0 0⟩,
    ⟨3, 1, .k 0 0⟩,
    ⟨3, 2, .k 0 0⟩,
    ⟨4, 0, .k 0 0⟩,
    ⟨4, 1, .k 0 0⟩,
    ⟨4, 2, .k 0 0⟩,
    ⟨5, 0, .k 0 0⟩,
    ⟨5, 1, .k 0 0⟩,
    ⟨5, 2, .k 0 0⟩,
    ⟨5, 3, .k 0 0⟩]
  upd := [⟨0, 0, .neg (.s 10)⟩,
    ⟨0, 1, (.s 9) ⊠ (.c 10)⟩,
    ⟨0, 2, (.neg (.c 9)) ⊠ (.c 10)⟩,
    ⟨0, 3, ((.k 207 3) ⊠ (.c 9)) ⊠ (.c 10)⟩,
    ⟨0, 4, (((.k 8 2) ⊠ (.c 9)) ⊠ (.s 10)) ⊟ (((.k 3735 4) ⊠ (.c 9)) ⊠ (.c 10))⟩,
    ⟨0, 5, ((((.k 8 2) ⊠ (.s 9)) ⊟ (.k 207 3)) ⊠ (.s 10)) ⊟ (((.k 3735 4) ⊠ (.s 9)) ⊠ (.c 10))⟩,
    ⟨1, 0, .neg (.c 10)⟩,
    ⟨1, 1, (.neg (.s 9)) ⊠ (.s 10)⟩,
    ⟨1, 2, (.c 9) ⊠ (.s 10)⟩,
    ⟨1, 3, ((.neg (.k 207 3)) ⊠ (.c 9)) ⊠ (.s 10)⟩,
    ⟨1, 4, (((.k 3735 4) ⊠ (.c 9)) ⊠ (.s 10)) ⊞ (((.k 8 2) ⊠ (.c 9)) ⊠ (.c 10))⟩,
    ⟨1, 5, (((.k 3735 4) ⊠ (.s 9)) ⊠ (.s 10)) ⊞ ((((.k 8 2) ⊠ (.s 9)) ⊟ (.k 207 3)) ⊠ (.c 10))⟩,
    ⟨2, 1, .c 9⟩,
    ⟨2, 2, .s 9⟩,
    ⟨2, 3, (.k 8 2) ⊟ ((.k 207 3) ⊠ (.s 9))⟩,
    ⟨2, 4, (.k 3735 4) ⊠ (.s 9)⟩,
    ⟨2, 5, (.neg (.k 3735 4)) ⊠ (.c 9)⟩,
    ⟨3, 3, .neg (.s 10)⟩,
    ⟨3, 4, (.s 9) ⊠ (.c 10)⟩,
    ⟨3, 5, (.neg (.c 9)) ⊠ (.c 10)⟩,
    ⟨4, 3, .neg (.c 10)⟩,
    ⟨4, 4, (.neg (.s 9)) ⊠ (.s 10)⟩,
    ⟨4, 5, (.c 9) ⊠ (.s 10)⟩,
    ⟨5, 4, .c 9⟩,
    ⟨5, 5, .s 9⟩]

/-- The transforms `fr_RH_upperleg_X_fr_trunk`. -/
def fr_RH_upperleg_X_fr_trunk : Trans := ⟨fr_RH_upperleg, fr_trunk, hom_fr_RH_upperleg_X_fr_trunk, motion_fr_RH_upperleg_X_fr_trunk, force_fr_RH_upperleg_X_fr_trunk⟩

/-- `HomogeneousTransforms::Type_fr_LF_lowerleg_X_fr_trunk` (transforms.impl.h:8883-8890, 8892-8919). -/
def hom_fr_LF_lowerleg_X_fr_trunk : Gen where
  rows := 4
  cols := 4
  ctor := [⟨2, 0, .k 0 0⟩,
    ⟨3, 0, .k 0 0⟩,
    ⟨3, 1, .k 0 0⟩,
    ⟨3, 2, .k 0 0⟩,
    ⟨3, 3, .k 1 0⟩]
  upd := [⟨0, 0, ((.neg (.c 1)) ⊠ (.s 2)) ⊟ ((.s 1) ⊠ (.c 2))⟩,
    ⟨0, 1, (((.s 0) ⊠ (.s 1)) ⊠ (.s 2)) ⊟ (((.s 0) ⊠ (.c 1)) ⊠ (.c 2))⟩,
    ⟨0, 2, (((.c 0) ⊠ (.s 1)) ⊠ (.s 2)) ⊟ (((.c 0) ⊠ (.c 1)) ⊠ (.c 2))⟩,
    ⟨0, 3, (((((.k 8 2) ⊟ ((.k 207 3) ⊠ (.s 0))) ⊠ (.s 1)) ⊞ ((.k 3735 4) ⊠ (.c 1))) ⊠ (.s 2)) ⊞ (((((.k 3735 4) ⊠ (.s 1)) ⊞ ((((.k 207 3) ⊠ (.s 0)) ⊟ (.k 8 2)) ⊠ (.c 1))) ⊟ (.k 35 2)) ⊠ (.c 2))⟩,
    ⟨1, 0, ((.s 1) ⊠ (.s 2)) ⊟ ((.c 1) ⊠ (.c 2))⟩,
    ⟨1, 1, (((.s 0) ⊠ (.c 1)) ⊠ (.s 2)) ⊞ (((.s 0) ⊠ (.s 1)) ⊠ (.c 2))⟩,
    ⟨1, 2, (((.c 0) ⊠ (.c 1)) ⊠ (.s 2)) ⊞ (((.c 0) ⊠ (.s 1)) ⊠ (.c 2))⟩,
    ⟨1, 3, (((((.neg (.k 3735 4)) ⊠ (.s 1)) ⊞ (((.k 8 2) ⊟ ((.k 207 3) ⊠ (.s 0))) ⊠ (.c 1))) ⊞ (.k 35 2)) ⊠ (.s 2)) ⊞ (((((.k 8 2) ⊟ ((.k 207 3) ⊠ (.s 0))) ⊠ (.s 1)) ⊞ ((.k 3735 4) ⊠ (.c 1))) ⊠ (.c 2))⟩,
    ⟨2, 1, .c 0⟩,
    ⟨2, 2, .neg (.s 0)⟩,
    ⟨2, 3, (.neg (.k 207 3)) ⊠ (.c 0)⟩]

/-- `MotionTransforms::Type_fr_LF_lowerleg_X_fr_trunk` (transforms.impl.h:1329-1342, 1344-1385). -/
def motion_fr_LF_lowerleg_X_fr_trunk : Gen where
  rows := 6
  cols := 6
  ctor := [⟨0, 3, .k 0 0⟩,
    ⟨0, 4, .k 0 0⟩,
    ⟨0, 5, .k 0 0⟩,
    ⟨1, 3, .k 0 0⟩,
    ⟨1, 4, .k 0 0⟩,
    ⟨1, 5, .k 0 0⟩,
    ⟨2, 0, .k 0 0⟩,
    ⟨2, 3, .k 0 0⟩,
    ⟨2, 4, .k 0 0⟩,
    ⟨2, 5, .k 0 0⟩,
    ⟨5, 3, .k 0 0⟩]
  upd := [⟨0, 0, ((.neg (.c 1)) ⊠ (.s 2)) ⊟ ((.s 1) ⊠ (.c 2))⟩,
    ⟨0, 1, (((.s 0) ⊠ (.s 1)) ⊠ (.s 2)) ⊟ (((.s 0) ⊠ (.c 1)) ⊠ (.c 2))⟩,
    ⟨0, 2, (((.c 0) ⊠ (.s 1)) ⊠ (.s 2)) ⊟ (((.c 0) ⊠ (.c 1)) ⊠ (.c 2))⟩,
    ⟨1, 0, ((.s 1) ⊠ (.s 2)) ⊟ ((.c 1) ⊠ (.c 2))⟩,
    ⟨1, 1, (((.s 0) ⊠ (.c 1)) ⊠ (.s 2)) ⊞ (((.s 0) ⊠ (.s 1)) ⊠ (.c 2))⟩,
    ⟨1, 2, (((.c 0) ⊠ (.c 1)) ⊠ (.s 2)) ⊞ (((.c 0) ⊠ (.s 1)) ⊠ (.c 2))⟩,
    ⟨2, 1, .c 0⟩,
    ⟨2, 2, .neg (.s 0)⟩,
    ⟨3, 0, ((((.k 207 3) ⊠ (.c 0)) ⊠ (.s 1)) ⊠ (.s 2)) ⊟ ((((.k 207 3) ⊠ (.c 0)) ⊠ (.c 1)) ⊠ (.c 2))⟩,
    ⟨3, 1, ((((((.neg (.k 3735 4)) ⊠ (.c 0)) ⊠ (.s 1)) ⊞ (((.k 8 2) ⊠ (.c 0)) ⊠ (.c 1))) ⊞ ((.k 35 2) ⊠ (.c 0))) ⊠ (.s 2)) ⊞ (((((.k 8 2) ⊠ (.c 0)) ⊠ (.s 1)) ⊞ (((.k 3735 4) ⊠ (.c 0)) ⊠ (.c 1))) ⊠ (.c 2))⟩,
    ⟨3, 2, ((((((.k 3735 4) ⊠ (.s 0)) ⊠ (.s 1)) ⊞ (((.k 207 3) ⊟ ((.k 8 2) ⊠ (.s 0))) ⊠ (.c 1))) ⊟ ((.k 35 2) ⊠ (.s 0))) ⊠ (.s 2)) ⊞ (((((.k 207 3) ⊟ ((.k 8 2) ⊠ (.s 0))) ⊠ (.s 1)) ⊟ (((.k 3735 4) ⊠ (.s 0)) ⊠ (.c 1))) ⊠ (.c 2))⟩,
    ⟨3, 3, ((.neg (.c 1)) ⊠ (.s 2)) ⊟ ((.s 1) ⊠ (.c 2))⟩,
    ⟨3, 4, (((.s 0) ⊠ (.s 1)) ⊠ (.s 2)) ⊟ (((.s 0) ⊠ (.c 1)) ⊠ (.c 2))⟩,
    ⟨3, 5, (((.c 0) ⊠ (.s 1)) ⊠ (.s 2)) ⊟ (((.c 0) ⊠ (.c 1)) ⊠ (.c 2))⟩,
    ⟨4, 0, ((((.k 207 3) ⊠ (.c 0)) ⊠ (.c 1)) ⊠ (.s 2)) ⊞ ((((.k 207 3) ⊠ (.c 0)) ⊠ (.s 1)) ⊠ (.c 2))⟩,
    ⟨4, 1, (((((.neg (.k 8 2)) ⊠ (.c 0)) ⊠ (.s 1)) ⊟ (((.k 3735 4) ⊠ (.c 0)) ⊠ (.c 1))) ⊠ (.s 2)) ⊞ ((((((.neg (.k 3735 4)) ⊠ (.c 0)) ⊠ (.s 1)) ⊞ (((.k 8 2) ⊠ (.c 0)) ⊠ (.c 1))) ⊞ ((.k 35 2) ⊠ (.c 0))) ⊠ (.c 2))⟩,
    ⟨4, 2, ((((((.k 8 2) ⊠ (.s 0)) ⊟ (.k 207 3)) ⊠ (.s 1)) ⊞ (((.k 3735 4) ⊠ (.s 0)) ⊠ (.c 1))) ⊠ (.s 2)) ⊞ ((((((.k 3735 4) ⊠ (.s 0)) ⊠ (.s 1)) ⊞ (((.k 207 3) ⊟ ((.k 8 2) ⊠ (.s 0))) ⊠ (.c 1))) ⊟ ((.k 35 2) ⊠ (.s 0))) ⊠ (.c 2))⟩,
    ⟨4, 3, ((.s 1) ⊠ (.s 2)) ⊟ ((.c 1) ⊠ (.c 2))⟩,
    ⟨4, 4, (((.s 0) ⊠ (.c 1)) ⊠ (.s 2)) ⊞ (((.s 0) ⊠ (.s 1)) ⊠ (.c 2))⟩,
    ⟨4, 5, (((.c 0) ⊠ (.c 1)) ⊠ (.s 2)) ⊞ (((.c 0) ⊠ (.s 1)) ⊠ (.c 2))⟩,
    ⟨5, 0, (((.k 35 2) ⊠ (.c 1)) ⊟ ((.k 207 3) ⊠ (.s 0))) ⊞ (.k 8 2)⟩,
    ⟨5, 1, ((.k 3735 4) ⊠ (.s 0)) ⊟ (((.k 35 2) ⊠ (.s 0)) ⊠ (.s 1))⟩,
    ⟨5, 2, ((.k 3735 4) ⊠ (.c 0)) ⊟ (((.k 35 2) ⊠ (.c 0)) ⊠ (.s 1))⟩,
    ⟨5, 4, .c 0⟩,
    ⟨5, 5, .neg (.s 0)⟩]

/-- `ForceTransforms::Type_fr_LF_lowerleg_X_fr_trunk` (transforms.impl.h:5306-5319, 5321-5362). -/
def force_fr_LF_lowerleg_X_fr_trunk : Gen where
  rows := 6
  cols := 6
  ctor := [⟨2, 0, .k 0 0⟩,
    ⟨3, 0, .k 0 0⟩,
    ⟨3, 1, .k 0 0⟩,
    ⟨3, 2, .k 0 0⟩,
    ⟨4, 0, .k 0 0⟩,
    ⟨4, 1, .k 0 0⟩,
    ⟨4, 2, .k 0 0⟩,
    ⟨5, 0, .k 0 0⟩,
    ⟨5, 1, .k 0 0⟩,
    ⟨5, 2, .k 0 0⟩,
    ⟨5, 3, .k 0 0⟩]
  upd := [⟨0, 0, ((.neg (.c 1)) ⊠ (.s 2)) ⊟ ((.s 1) ⊠ (.c 2))⟩,
    ⟨0, 1, (((.s 0) ⊠ (.s 1)) ⊠ (.s 2)) ⊟ (((.s 0) ⊠ (.c 1)) ⊠ (.c 2))⟩,
    ⟨0, 2, (((.c 0) ⊠ (.s 1)) ⊠ (.s 2)) ⊟ (((.c 0) ⊠ (.c 1)) ⊠ (.c 2))⟩,
    ⟨0, 3, ((((.k 207 3) ⊠ (.c 0)) ⊠ (.s 1)) ⊠ (.s 2)) ⊟ ((((.k 207 3) ⊠ (.c 0)) ⊠ (.c 1)) ⊠ (.c 2))⟩,
    ⟨0, 4, ((((((.neg (.k 3735 4)) ⊠ (.c 0)) ⊠ (.s 1)) ⊞ (((.k 8 2) ⊠ (.c 0)) ⊠ (.c 1))) ⊞ ((.k 35 2) ⊠ (.c 0))) ⊠ (.s 2)) ⊞ (((((.k 8 2) ⊠ (.c 0)) ⊠ (.s 1)) ⊞ (((.k 3735 4) ⊠ (.c 0)) ⊠ (.c 1))) ⊠ (.c 2))⟩,
    ⟨0, 5, ((((((.k 3735 4) ⊠ (.s 0)) ⊠ (.s 1)) ⊞ (((.k 207 3) ⊟ ((.k 8 2) ⊠ (.s 0))) ⊠ (.c 1))) ⊟ ((.k 35 2) ⊠ (.s 0))) ⊠ (.s 2)) ⊞ (((((.k 207 3) ⊟ ((.k 8 2) ⊠ (.s 0))) ⊠ (.s 1)) ⊟ (((.k 3735 4) ⊠ (.s 0)) ⊠ (.c 1))) ⊠ (.c 2))⟩,
    ⟨1, 0, ((.s 1) ⊠ (.s 2)) ⊟ ((.c 1) ⊠ (.c 2))⟩,
    ⟨1, 1, (((.s 0) ⊠ (.c 1)) ⊠ (.s 2)) ⊞ (((.s 0) ⊠ (.s 1)) ⊠ (.c 2))⟩,
    ⟨1, 2, (((.c 0) ⊠ (.c 1)) ⊠ (.s 2)) ⊞ (((.c 0) ⊠ (.s 1)) ⊠ (.c 2))⟩,
    ⟨1, 3, ((((.k 207 3) ⊠ (.c 0)) ⊠ (.c 1)) ⊠ (.s 2)) ⊞ ((((.k 207 3) ⊠ (.c 0)) ⊠ (.s 1)) ⊠ (.c 2))⟩,
    ⟨1, 4, (((((.neg (.k 8 2)) ⊠ (.c 0)) ⊠ (.s 1)) ⊟ (((.k 3735 4) ⊠ (.c 0)) ⊠ (.c 1))) ⊠ (.s 2)) ⊞ ((((((.neg (.k 3735 4)) ⊠ (.c 0)) ⊠ (.s 1)) ⊞ (((.k 8 2) ⊠ (.c 0)) ⊠ (.c 1))) ⊞ ((.k 35 2) ⊠ (.c 0))) ⊠ (.c 2))⟩,
    ⟨1, 5, ((((((.k 8 2) ⊠ (.s 0)) ⊟ (.k 207 3)) ⊠ (.s 1)) ⊞ (((.k 3735 4) ⊠ (.s 0)) ⊠ (.c 1))) ⊠ (.s 2)) ⊞ ((((((.k 3735 4) ⊠ (.s 0)) ⊠ (.s 1)) ⊞ (((.k 207 3) ⊟ ((.k 8 2) ⊠ (.s 0))) ⊠ (.c 1))) ⊟ ((.k 35 2) ⊠ (.s 0))) ⊠ (.c 2))⟩,
    ⟨2, 1, .c 0⟩,
    ⟨2, 2, .neg (.s 0)⟩,
    ⟨2, 3, (((.k 35 2) ⊠ (.c 1)) ⊟ ((.k 207 3) ⊠ (.s 0))) ⊞ (.k 8 2)⟩,
    ⟨2, 4, ((.k 3735 4) ⊠ (.s 0)) ⊟ (((.k 35 2) ⊠ (.s 0)) ⊠ (.s 1))⟩,
    ⟨2, 5, ((.k 3735 4) ⊠ (.c 0)) ⊟ (((.k 35 2) ⊠ (.c 0)) ⊠ (.s 1))⟩,
    ⟨3, 3, ((.neg (.c 1)) ⊠ (.s 2)) ⊟ ((.s 1) ⊠ (.c 2))⟩,
    ⟨3, 4, (((.s 0) ⊠ (.s 1)) ⊠ (.s 2)) ⊟ (((.s 0) ⊠ (.c 1)) ⊠ (.c 2))⟩,
    ⟨3, 5, (((.c 0) ⊠ (.s 1)) ⊠ (.s 2)) ⊟ (((.c 0) ⊠ (.c 1)) ⊠ (.c 2))⟩,
    ⟨4, 3, ((.s 1) ⊠ (.s 2)) ⊟ ((.c 1) ⊠ (.c 2))⟩,
    ⟨4, 4, (((.s 0) ⊠ (.c 1)) ⊠ (.s 2)) ⊞ (((.s 0) ⊠ (.s 1)) ⊠ (.c 2))⟩,
    ⟨4, 5, (((.c 0) ⊠ (.c 1)) ⊠ (.s 2)) ⊞ (((.c 0) ⊠ (.s 1)) ⊠ (.c 2))⟩,
    ⟨5, 4, .c 0⟩,
    ⟨5, 5, .neg (.s 0)⟩]

/-- The transforms `fr_LF_lowerleg_X_fr_trunk`. -/
def fr_LF_lowerleg_X_fr_trunk : Trans := ⟨fr_LF_lowerleg, fr_trunk, hom_fr_LF_lowerleg_X_fr_trunk, motion_fr_LF_lowerleg_X_fr_trunk, force_fr_LF_lowerleg_X_fr_trunk⟩

/-- `HomogeneousTransforms::Type_fr_RF_lowerleg_X_fr_trunk` (transforms.impl.h:8921-8928, 8930-8957). -/
def hom_fr_RF_lowerleg_X_fr_trunk : Gen where
  rows := 4
  cols := 4
  ctor := [⟨2, 0, .k 0 0⟩,
    ⟨3, 0, .k 0 0⟩,
    ⟨3, 1, .k 0 0⟩,
    ⟨3, 2, .k 0 0⟩,
    ⟨3, 3, .k 1 0⟩]
  upd := [⟨0, 0, ((.neg (.c 4)) ⊠ (.s 5)) ⊟ ((.s 4) ⊠ (.c 5))⟩,
    ⟨0, 1, (((.s 3) ⊠ (.c 4)) ⊠ (.c 5)) ⊟ (((.s 3) ⊠ (.s 4)) ⊠ (.s 5))⟩,
    ⟨0, 2, (((.c 3) ⊠ (.s 4)) ⊠ (.s 5)) ⊟ (((.c 3) ⊠ (.c 4)) ⊠ (.c 5))⟩,
    ⟨0, 3, (((((.k 8 2) ⊟ ((.k 207 3) ⊠ (.s 3))) ⊠ (.s 4)) ⊞ ((.k 3735 4) ⊠ (.c 4))) ⊠ (.s 5)) ⊞ (((((.k 3735 4) ⊠ (.s 4)) ⊞ ((((.k 207 3) ⊠ (.s 3)) ⊟ (.k 8 2)) ⊠ (.c 4))) ⊟ (.k 35 2)) ⊠ (.c 5))⟩,
    ⟨1, 0, ((.s 4) ⊠ (.s 5)) ⊟ ((.c 4) ⊠ (.c 5))⟩,
    ⟨1, 1, (((.neg (.s 3)) ⊠ (.c 4)) ⊠ (.s 5)) ⊟ (((.s 3) ⊠ (.s 4)) ⊠ (.c 5))⟩,
    ⟨1, 2, (((.c 3) ⊠ (.c 4)) ⊠ (.s 5)) ⊞ (((.c 3) ⊠ (.s 4)) ⊠ (.c 5))⟩,
    ⟨1, 3, (((((.neg (.k 3735 4)) ⊠ (.s 4)) ⊞ (((.k 8 2) ⊟ ((.k 207 3) ⊠ (.s 3))) ⊠ (.c 4))) ⊞ (.k 35 2)) ⊠ (.s 5)) ⊞ (((((.k 8 2) ⊟ ((.k 207 3) ⊠ (.s 3))) ⊠ (.s 4)) ⊞ ((.k 3735 4) ⊠ (.c 4))) ⊠ (.c 5))⟩,
    ⟨2, 1, .c 3⟩,
    ⟨2, 2, .s 3⟩,
    ⟨2, 3, (.k 207 3) ⊠ (.c 3)⟩]

/-- `MotionTransforms::Type_fr_RF_lowerleg_X_fr_trunk` (transforms.impl.h:1387-1400, 1402-1443). -/
def motion_fr_RF_lowerleg_X_fr_trunk : Gen where
  rows := 6
  cols := 6
  ctor := [⟨0, 3, .k 0 0⟩,
    ⟨0, 4, .k 0 0⟩,
    ⟨0, 5, .k 0 0⟩,
    ⟨1, 3, .k 0 0⟩,
    ⟨1, 4, .k 0 0⟩,
    ⟨1, 5, .k 0 0⟩,
    ⟨2, 0, .k 0 0⟩,
    ⟨2, 3, .k 0 0⟩,
    ⟨2, 4, .k 0 0⟩,
    ⟨2, 5, .k 0 0⟩,
    ⟨5, 3, .k 0 0⟩]
  upd := [⟨0, 0, ((.neg (.c 4)) ⊠ (.s 5)) ⊟ ((.s 4) ⊠ (.c 5))⟩,
    ⟨0, 1, (((.s 3) ⊠ (.c 4)) ⊠ (.c 5)) ⊟ (((.s 3) ⊠ (.s 4)) ⊠ (.s 5))⟩,
    ⟨0, 2, (((.c 3) ⊠ (.s 4)) ⊠ (.s 5)) ⊟ (((.c 3) ⊠ (.c 4)) ⊠ (.c 5))⟩,
    ⟨1, 0, ((.s 4) ⊠ (.s 5)) ⊟ ((.c 4) ⊠ (.c 5))⟩,
    ⟨1, 1, (((.neg (.s 3)) ⊠ (.c 4)) ⊠ (.s 5)) ⊟ (((.s 3) ⊠ (.s 4)) ⊠ (.c 5))⟩,
    ⟨1, 2, (((.c 3) ⊠ (.c 4)) ⊠ (.s 5)) ⊞ (((.c 3) ⊠ (.s 4)) ⊠ (.c 5))⟩,
    ⟨2, 1, .c 3⟩,
    ⟨2, 2, .s 3⟩,
    ⟨3, 0, ((((.k 207 3) ⊠ (.c 3)) ⊠ (.c 4)) ⊠ (.c 5)) ⊟ ((((.k 207 3) ⊠ (.c 3)) ⊠ (.s 4)) ⊠ (.s 5))⟩,
    ⟨3, 1, ((((((.neg (.k 3735 4)) ⊠ (.c 3)) ⊠ (.s 4)) ⊞ (((.k 8 2) ⊠ (.c 3)) ⊠ (.c 4))) ⊞ ((.k 35 2) ⊠ (.c 3))) ⊠ (.s 5)) ⊞ (((((.k 8 2) ⊠ (.c 3)) ⊠ (.s 4)) ⊞ (((.k 3735 4) ⊠ (.c 3)) ⊠ (.c 4))) ⊠ (.c 5))⟩,
    ⟨3, 2, ((((((.neg (.k 3735 4)) ⊠ (.s 3)) ⊠ (.s 4)) ⊞ ((((.k 8 2) ⊠ (.s 3)) ⊟ (.k 207 3)) ⊠ (.c 4))) ⊞ ((.k 35 2) ⊠ (.s 3))) ⊠ (.s 5)) ⊞ ((((((.k 8 2) ⊠ (.s 3)) ⊟ (.k 207 3)) ⊠ (.s 4)) ⊞ (((.k 3735 4) ⊠ (.s 3)) ⊠ (.c 4))) ⊠ (.c 5))⟩,
    ⟨3, 3, ((.neg (.c 4)) ⊠ (.s 5)) ⊟ ((.s 4) ⊠ (.c 5))⟩,
    ⟨3, 4, (((.s 3) ⊠ (.c 4)) ⊠ (.c 5)) ⊟ (((.s 3) ⊠ (.s 4)) ⊠ (.s 5))⟩,
    ⟨3, 5, (((.c 3) ⊠ (.s 4)) ⊠ (.s 5)) ⊟ (((.c 3) ⊠ (.c 4)) ⊠ (.c 5))⟩,
    ⟨4, 0, ((((.neg (.k 207 3)) ⊠ (.c 3)) ⊠ (.c 4)) ⊠ (.s 5)) ⊟ ((((.k 207 3) ⊠ (.c 3)) ⊠ (.s 4)) ⊠ (.c 5))⟩,
    ⟨4, 1, (((((.neg (.k 8 2)) ⊠ (.c 3)) ⊠ (.s 4)) ⊟ (((.k 3735 4) ⊠ (.c 3)) ⊠ (.c 4))) ⊠ (.s 5)) ⊞ ((((((.neg (.k 3735 4)) ⊠ (.c 3)) ⊠ (.s 4)) ⊞ (((.k 8 2) ⊠ (.c 3)) ⊠ (.c 4))) ⊞ ((.k 35 2) ⊠ (.c 3))) ⊠ (.c 5))⟩,
    ⟨4, 2, (((((.k 207 3) ⊟ ((.k 8 2) ⊠ (.s 3))) ⊠ (.s 4)) ⊟ (((.k 3735 4) ⊠ (.s 3)) ⊠ (.c 4))) ⊠ (.s 5)) ⊞ ((((((.neg (.k 3735 4)) ⊠ (.s 3)) ⊠ (.s 4)) ⊞ ((((.k 8 2) ⊠ (.s 3)) ⊟ (.k 207 3)) ⊠ (.c 4))) ⊞ ((.k 35 2) ⊠ (.s 3))) ⊠ (.c 5))⟩,
    ⟨4, 3, ((.s 4) ⊠ (.s 5)) ⊟ ((.c 4) ⊠ (.c 5))⟩,
    ⟨4, 4, (((.neg (.s 3)) ⊠ (.c 4)) ⊠ (.s 5)) ⊟ (((.s 3) ⊠ (.s 4)) ⊠ (.c 5))⟩,
    ⟨4, 5, (((.c 3) ⊠ (.c 4)) ⊠ (.s 5)) ⊞ (((.c 3) ⊠ (.s 4)) ⊠ (.c 5))⟩,
    ⟨5, 0, (((.k 35 2) ⊠ (.c 4)) ⊟ ((.k 207 3) ⊠ (.s 3))) ⊞ (.k 8 2)⟩,
    ⟨5, 1, (((.k 35 2) ⊠ (.s 3)) ⊠ (.s 4)) ⊟ ((.k 3735 4) ⊠ (.s 3))⟩,
    ⟨5, 2, ((.k 3735 4) ⊠ (.c 3)) ⊟ (((.k 35 2) ⊠ (.c 3)) ⊠ (.s 4))⟩,
    ⟨5, 4, .c 3⟩,
    ⟨5, 5, .s 3⟩]

/-- `ForceTransforms::Type_fr_RF_lowerleg_X_fr_trunk` (transforms.impl.h:5364-5377, 5379-5420). -/
def force_fr_RF_lowerleg_X_fr_trunk : Gen where
  rows := 6
  cols := 6
  ctor := [⟨2, 0, .k 0 0⟩,
    ⟨3, 0, .k 0 0⟩,
    ⟨3, 1, .k 0 0⟩,
    ⟨3, 2, .k 0 0⟩,
    ⟨4, 0, .k 0 0⟩,
    ⟨4, 1, .k 0 0⟩,
    ⟨4, 2, .k 0 0⟩,
    ⟨5, 0, .k 0 0⟩,
    ⟨5, 1, .k 0 0⟩,
    ⟨5, 2, .k 0 0⟩,
    ⟨5, 3, .k 0 0⟩]
  upd := [⟨0, 0, ((.neg (.c 4)) ⊠ (.s 5)) ⊟ ((.s 4) ⊠ (.c 5))⟩,
    ⟨0, 1, (((.s 3) ⊠ (.c 4)) ⊠ (.c 5)) ⊟ (((.s 3) ⊠ (.s 4)) ⊠ (.s 5))⟩,
    ⟨0, 2, (((.c 3) ⊠ (.s 4)) ⊠ (.s 5)) ⊟ (((.c 3) ⊠ (.c 4)) ⊠ (.c 5))⟩,
    ⟨0, 3, ((((.k 207 3) ⊠ (.c 3)) ⊠ (.c 4)) ⊠ (.c 5)) ⊟ ((((.k 207 3) ⊠ (.c 3)) ⊠ (.s 4)) ⊠ (.s 5))⟩,
    ⟨0, 4, ((((((.neg (.k 3735 4)) ⊠ (.c 3)) ⊠ (.s 4)) ⊞ (((.k 8 2) ⊠ (.c 3)) ⊠ (.c 4))) ⊞ ((.k 35 2) ⊠ (.c 3))) ⊠ (.s 5)) ⊞ (((((.k 8 2) ⊠ (.c 3)) ⊠ (.s 4)) ⊞ (((.k 3735 4) ⊠ (.c 3)) ⊠ (.c 4))) ⊠ (.c 5))⟩,
    ⟨0, 5, ((((((.neg (.k 3735 4)) ⊠ (.s 3)) ⊠ (.s 4)) ⊞ ((((.k 8 2) ⊠ (.s 3)) ⊟ (.k 207 3)) ⊠ (.c 4))) ⊞ ((.k 35 2) ⊠ (.s 3))) ⊠ (.s 5)) ⊞ ((((((.k 8 2) ⊠ (.s 3)) ⊟ (.k 207 3)) ⊠ (.s 4)) ⊞ (((.k 3735 4) ⊠ (.s 3)) ⊠ (.c 4))) ⊠ (.c 5))⟩,
    ⟨1, 0, ((.s 4) ⊠ (.s 5)) ⊟ ((.c 4) ⊠ (.c 5))⟩,
    ⟨1, 1, (((.neg (.s 3)) ⊠ (.c 4)) ⊠ (.s 5)) ⊟ (((.s 3) ⊠ (.s 4)) ⊠ (.c 5))⟩,
    ⟨1, 2, (((.c 3) ⊠ (.c 4)) ⊠ (.s 5)) ⊞ (((.c 3) ⊠ (.s 4)) ⊠ (.c 5))⟩,
    ⟨1, 3, ((((.neg (.k 207 3)) ⊠ (.c 3)) ⊠ (.c 4)) ⊠ (.s 5)) ⊟ ((((.k 207 3) ⊠ (.c 3)) ⊠ (.s 4)) ⊠ (.c 5))⟩,
    ⟨1, 4, (((((.neg (.k 8 2)) ⊠ (.c 3)) ⊠ (.s 4)) ⊟ (((.k 3735 4) ⊠ (.c 3)) ⊠ (.c 4))) ⊠ (.s 5)) ⊞ ((((((.neg (.k 3735 4)) ⊠ (.c 3)) ⊠ (.s 4)) ⊞ (((.k 8 2) ⊠ (.c 3)) ⊠ (.c 4))) ⊞ ((.k 35 2) ⊠ (.c 3))) ⊠ (.c 5))⟩,
    ⟨1, 5, (((((.k 207 3) ⊟ ((.k 8 2) ⊠ (.s 3))) ⊠ (.s 4)) ⊟ (((.k 3735 4) ⊠ (.s 3)) ⊠ (.c 4))) ⊠ (.s 5)) ⊞ ((((((.neg (.k 3735 4)) ⊠ (.s 3)) ⊠ (.s 4)) ⊞ ((((.k 8 2) ⊠ (.s 3)) ⊟ (.k 207 3)) ⊠ (.c 4))) ⊞ ((.k 35 2) ⊠ (.s 3))) ⊠ (.c 5))⟩,
    ⟨2, 1, .c 3⟩,
    ⟨2, 2, .s 3⟩,
    ⟨2, 3, (((.k 35 2) ⊠ (.c 4)) ⊟ ((.k 207 3) ⊠ (.s 3))) ⊞ (.k 8 2)⟩,
    ⟨2, 4, (((.k 35 2) ⊠ (.s 3)) ⊠ (.s 4)) ⊟ ((.k 3735 4) ⊠ (.s 3))⟩,
    ⟨2, 5, ((.k 3735 4) ⊠ (.c 3)) ⊟ (((.k 35 2) ⊠ (.c 3)) ⊠ (.s 4))⟩,
    ⟨3, 3, ((.neg (.c 4)) ⊠ (.s 5)) ⊟ ((.s 4) ⊠ (.c 5))⟩,
    ⟨3, 4, (((.s 3) ⊠ (.c 4)) ⊠ (.c 5)) ⊟ (((.s 3) ⊠ (.s 4)) ⊠ (.s 5))⟩,
    ⟨3, 5, (((.c 3) ⊠ (.s 4)) ⊠ (.s 5)) ⊟ (((.c 3) ⊠ (.c 4)) ⊠ (.c 5))⟩,
    ⟨4, 3, ((.s 4) ⊠ (.s 5)) ⊟ ((.c 4) ⊠ (.c 5))⟩,
    ⟨4, 4, (((.neg (.s 3)) ⊠ (.c 4)) ⊠ (.s 5)) ⊟ (((.s 3) ⊠ (.s 4)) ⊠ (.c 5))⟩,
    ⟨4, 5, (((.c 3) ⊠ (.c 4)) ⊠ (.s 5)) ⊞ (((.c 3) ⊠ (.s 4)) ⊠ (.c 5))⟩,
    ⟨5, 4, .c 3⟩,
    ⟨5, 5, .s 3⟩]

/-- The transforms `fr_RF_lowerleg_X_fr_trunk`. -/
def fr_RF_lowerleg_X_fr_trunk : Trans := ⟨fr_RF_lowerleg, fr_trunk, hom_fr_RF_lowerleg_X_fr_trunk, motion_fr_RF_lowerleg_X_fr_trunk, force_fr_RF_lowerleg_X_fr_trunk⟩

/-- `HomogeneousTransforms::Type_fr_LH_lowerleg_X_fr_trunk` (transforms.impl.h:8959-8966, 8968-8995). -/
def hom_fr_LH_lowerleg_X_fr_trunk : Gen where
  rows := 4
  cols := 4
  ctor := [⟨2, 0, .k 0 0⟩,
    ⟨3, 0, .k 0 0⟩,
    ⟨3, 1, .k 0 0⟩,
    ⟨3, 2, .k 0 0⟩,
    ⟨3, 3, .k 1 0⟩]
  upd := [⟨0, 0, ((.neg (.c 7)) ⊠ (.s 8)) ⊟ ((.s 7) ⊠ (.c 8))⟩,
    ⟨0, 1, (((.s 6) ⊠ (.s 7)) ⊠ (.s 8)) ⊟ (((.s 6) ⊠ (.c 7)) ⊠ (.c 8))⟩,
    ⟨0, 2, (((.c 6) ⊠ (.s 7)) ⊠ (.s 8)) ⊟ (((.c 6) ⊠ (.c 7)) ⊠ (.c 8))⟩,
    ⟨0, 3, (((((.k 8 2) ⊟ ((.k 207 3) ⊠ (.s 6))) ⊠ (.s 7)) ⊟ ((.k 3735 4) ⊠ (.c 7))) ⊠ (.s 8)) ⊞ (((((.neg (.k 3735 4)) ⊠ (.s 7)) ⊞ ((((.k 207 3) ⊠ (.s 6)) ⊟ (.k 8 2)) ⊠ (.c 7))) ⊟ (.k 35 2)) ⊠ (.c 8))⟩,
    ⟨1, 0, ((.s 7) ⊠ (.s 8)) ⊟ ((.c 7) ⊠ (.c 8))⟩,
    ⟨1, 1, (((.s 6) ⊠ (.c 7)) ⊠ (.s 8)) ⊞ (((.s 6) ⊠ (.s 7)) ⊠ (.c 8))⟩,
    ⟨1, 2, (((.c 6) ⊠ (.c 7)) ⊠ (.s 8)) ⊞ (((.c 6) ⊠ (.s 7)) ⊠ (.c 8))⟩,
    ⟨1, 3, (((((.k 3735 4) ⊠ (.s 7)) ⊞ (((.k 8 2) ⊟ ((.k 207 3) ⊠ (.s 6))) ⊠ (.c 7))) ⊞ (.k 35 2)) ⊠ (.s 8)) ⊞ (((((.k 8 2) ⊟ ((.k 207 3) ⊠ (.s 6))) ⊠ (.s 7)) ⊟ ((.k 3735 4) ⊠ (.c 7))) ⊠ (.c 8))⟩,
    ⟨2, 1, .c 6⟩,
    ⟨2, 2, .neg (.s 6)⟩,
    ⟨2, 3, (.neg (.k 207 3)) ⊠ (.c 6)⟩]

/-- `MotionTransforms::Type_fr_LH_lowerleg_X_fr_trunk` (transforms.impl.h:1445-1458, 1460-1501). -/
def motion_fr_LH_lowerleg_X_fr_trunk : Gen where
  rows := 6
  cols := 6
  ctor := [⟨0, 3, .k 0 0⟩,
    ⟨0, 4, .k 0 0⟩,
    ⟨0, 5, .k 0 0⟩,
    ⟨1, 3, .k 0 0⟩,
    ⟨1, 4, .k 0 0⟩,
    ⟨1, 5, .k 0 0⟩,
    ⟨2, 0, .k 0 0⟩,
    ⟨2, 3, .k 0 0⟩,
    ⟨2, 4, .k 0 0⟩,
    ⟨2, 5, .k 0 0⟩,
    ⟨5, 3, .k 0 0⟩]
  upd := [⟨0, 0, ((.neg (.c 7)) ⊠ (.s 8)) ⊟ ((.s 7) ⊠ (.c 8))⟩,
    ⟨0, 1, (((.s 6) ⊠ (.s 7)) ⊠ (.s 8)) ⊟ (((.s 6) ⊠ (.c 7)) ⊠ (.c 8))⟩,
    ⟨0, 2, (((.c 6) ⊠ (.s 7)) ⊠ (.s 8)) ⊟ (((.c 6) ⊠ (.c 7)) ⊠ (.c 8))⟩,
    ⟨1, 0, ((.s 7) ⊠ (.s 8)) ⊟ ((.c 7) ⊠ (.c 8))⟩,
    ⟨1, 1, (((.s 6) ⊠ (.c 7)) ⊠ (.s 8)) ⊞ (((.s 6) ⊠ (.s 7)) ⊠ (.c 8))⟩,
    ⟨1, 2, (((.c 6) ⊠ (.c 7)) ⊠ (.s 8)) ⊞ (((.c 6) ⊠ (.s 7)) ⊠ (.c 8))⟩,
    ⟨2, 1, .c 6⟩,
    ⟨2, 2, .neg (.s 6)⟩,
    ⟨3, 0, ((((.k 207 3) ⊠ (.c 6)) ⊠ (.s 7)) ⊠ (.s 8)) ⊟ ((((.k 207 3) ⊠ (.c 6)) ⊠ (.c 7)) ⊠ (.c 8))⟩,
    ⟨3, 1, ((((((.k 3735 4) ⊠ (.c 6)) ⊠ (.s 7)) ⊞ (((.k 8 2) ⊠ (.c 6)) ⊠ (.c 7))) ⊞ ((.k 35 2) ⊠ (.c 6))) ⊠ (.s 8)) ⊞ (((((.k 8 2) ⊠ (.c 6)) ⊠ (.s 7)) ⊟ (((.k 3735 4) ⊠ (.c 6)) ⊠ (.c 7))) ⊠ (.c 8))⟩,
    ⟨3, 2, ((((((.neg (.k 3735 4)) ⊠ (.s 6)) ⊠ (.s 7)) ⊞ (((.k 207 3) ⊟ ((.k 8 2) ⊠ (.s 6))) ⊠ (.c 7))) ⊟ ((.k 35 2) ⊠ (.s 6))) ⊠ (.s 8)) ⊞ (((((.k 207 3) ⊟ ((.k 8 2) ⊠ (.s 6))) ⊠ (.s 7)) ⊞ (((.k 3735 4) ⊠ (.s 6)) ⊠ (.c 7))) ⊠ (.c 8))⟩,
    ⟨3, 3, ((.neg (.c 7)) ⊠ (.s 8)) ⊟ ((.s 7) ⊠ (.c 8))⟩,
    ⟨3, 4, (((.s 6) ⊠ (.s 7)) ⊠ (.s 8)) ⊟ (((.s 6) ⊠ (.c 7)) ⊠ (.c 8))⟩,
    ⟨3, 5, (((.c 6) ⊠ (.s 7)) ⊠ (.s 8)) ⊟ (((.c 6) ⊠ (.c 7)) ⊠ (.c 8))⟩,
    ⟨4, 0, ((((.k 207 3) ⊠ (.c 6)) ⊠ (.c 7)) ⊠ (.s 8)) ⊞ ((((.k 207 3) ⊠ (.c 6)) ⊠ (.s 7)) ⊠ (.c 8))⟩,
    ⟨4, 1, (((((.k 3735 4) ⊠ (.c 6)) ⊠ (.c 7)) ⊟ (((.k 8 2) ⊠ (.c 6)) ⊠ (.s 7))) ⊠ (.s 8)) ⊞ ((((((.k 3735 4) ⊠ (.c 6)) ⊠ (.s 7)) ⊞ (((.k 8 2) ⊠ (.c 6)) ⊠ (.c 7))) ⊞ ((.k 35 2) ⊠ (.c 6))) ⊠ (.c 8))⟩,
    ⟨4, 2, ((((((.k 8 2) ⊠ (.s 6)) ⊟ (.k 207 3)) ⊠ (.s 7)) ⊟ (((.k 3735 4) ⊠ (.s 6)) ⊠ (.c 7))) ⊠ (.s 8)) ⊞ ((((((.neg (.k 3735 4)) ⊠ (.s 6)) ⊠ (.s 7)) ⊞ (((.k 207 3) ⊟ ((.k 8 2) ⊠ (.s 6))) ⊠ (.c 7))) ⊟ ((.k 35 2) ⊠ (.s 6))) ⊠ (.c 8))⟩,
    ⟨4, 3, ((.s 7) ⊠ (.s 8)) ⊟ ((.c 7) ⊠ (.c 8))⟩,
    ⟨4, 4, (((.s 6) ⊠ (.c 7)) ⊠ (.s 8)) ⊞ (((.s 6) ⊠ (.s 7)) ⊠ (.c 8))⟩,
    ⟨4, 5, (((.c 6) ⊠ (.c 7)) ⊠ (.s 8)) ⊞ (((.c 6) ⊠ (.s 7)) ⊠ (.c 8))⟩,
    ⟨5, 0, (((.k 35 2) ⊠ (.c 7)) ⊟ ((.k 207 3) ⊠ (.s 6))) ⊞ (.k 8 2)⟩,
    ⟨5, 1, (((.neg (.k 35 2)) ⊠ (.s 6)) ⊠ (.s 7)) ⊟ ((.k 3735 4) ⊠ (.s 6))⟩,
    ⟨5, 2, (((.neg (.k 35 2)) ⊠ (.c 6)) ⊠ (.s 7)) ⊟ ((.k 3735 4) ⊠ (.c 6))⟩,
    ⟨5, 4, .c 6⟩,
    ⟨5, 5, .neg (.s 6)⟩]

/-- `ForceTransforms::Type_fr_LH_lowerleg_X_fr_trunk` (transforms.impl.h:5422-5435, 5437-5478). -/
def force_fr_LH_lowerleg_X_fr_trunk : Gen where
  rows := 6
  cols := 6
  ctor := [⟨2, 0, .k 0 0⟩,
    ⟨3, 0, .k 0 0⟩,
    ⟨3, 1, .k 0 0⟩,
    ⟨3, 2, .k 0 0⟩,
    ⟨4, 0, .k 0 0⟩,
    ⟨4, 1, .k 0 0⟩,
    ⟨4, 2, .k 0 0⟩,
    ⟨5, 0, .k 0 0⟩,
    ⟨5, 1, .k 0 0⟩,
    ⟨5, 2, .k 0 0⟩,
    ⟨5, 3, .k 0 0⟩]
  upd := [⟨0, 0, ((.neg (.c 7)) ⊠ (.s 8)) ⊟ ((.s 7) ⊠ (.c 8))⟩,
    ⟨0, 1, (((.s 6) ⊠ (.s 7)) ⊠ (.s 8)) ⊟ (((.s 6) ⊠ (.c 7)) ⊠ (.c 8))⟩,
    ⟨0, 2, (((.c 6) ⊠ (.s 7)) ⊠ (.s 8)) ⊟ (((.c 6) ⊠ (.c 7)) ⊠ (.c 8))⟩,
    ⟨0, 3, ((((.k 207 3) ⊠ (.c 6)) ⊠ (.s 7)) ⊠ (.s 8)) ⊟ ((((.k 207 3) ⊠ (.c 6)) ⊠ (.c 7)) ⊠ (.c 8))⟩,
    ⟨0, 4, ((((((.k 3735 4) ⊠ (.c 6)) ⊠ (.s 7)) ⊞ (((.k 8 2) ⊠ (.c 6)) ⊠ (.c 7))) ⊞ ((.k 35 2) ⊠ (.c 6))) ⊠ (.s 8)) ⊞ (((((.k 8 2) ⊠ (.c 6)) ⊠ (.s 7)) ⊟ (((.k 3735 4) ⊠ (.c 6)) ⊠ (.c 7))) ⊠ (.c 8))⟩,
    ⟨0, 5, ((((((.neg (.k 3735 4)) ⊠ (.s 6)) ⊠ (.s 7)) ⊞ (((.k 207 3) ⊟ ((.k 8 2) ⊠ (.s 6))) ⊠ (.c 7))) ⊟ ((.k 35 2) ⊠ (.s 6))) ⊠ (.s 8)) ⊞ (((((.k 207 3) ⊟ ((.k 8 2) ⊠ (.s 6))) ⊠ (.s 7)) ⊞ (((.k 3735 4) ⊠ (.s 6)) ⊠ (.c 7))) ⊠ (.c 8))⟩,
    ⟨1, 0, ((.s 7) ⊠ (.s 8)) ⊟ ((.c 7) ⊠ (.c 8))⟩,
    ⟨1, 1, (((.s 6) ⊠ (.c 7)) ⊠ (.s 8)) ⊞ (((.s 6) ⊠ (.s 7)) ⊠ (.c 8))⟩,
    ⟨1, 2, (((.c 6) ⊠ (.c 7)) ⊠ (.s 8)) ⊞ (((.c 6) ⊠ (.s 7)) ⊠ (.c 8))⟩,
    ⟨1, 3, ((((.k 207 3) ⊠ (.c 6)) ⊠ (.c 7)) ⊠ (.s 8)) ⊞ ((((.k 207 3) ⊠ (.c 6)) ⊠ (.s 7)) ⊠ (.c 8))⟩,
    ⟨1, 4, (((((.k 3735 4) ⊠ (.c 6)) ⊠ (.c 7)) ⊟ (((.k 8 2) ⊠ (.c 6)) ⊠ (.s 7))) ⊠ (.s 8)) ⊞ ((((((.k 3735 4) ⊠ (.c 6)) ⊠ (.s 7)) ⊞ (((.k 8 2) ⊠ (.c 6)) ⊠ (.c 7))) ⊞ ((.k 35 2) ⊠ (.c 6))) ⊠ (.c 8))⟩,
    ⟨1, 5, ((((((.k 8 2) ⊠ (.s 6)) ⊟ (.k 207 3)) ⊠ (.s 7)) ⊟ (((.k 3735 4) ⊠ (.s 6)) ⊠ (.c 7))) ⊠ (.s 8)) ⊞ ((((((.neg (.k 3735 4)) ⊠ (.s 6)) ⊠ (.s 7)) ⊞ (((.k 207 3) ⊟ ((.k 8 2) ⊠ (.s 6))) ⊠ (.c 7))) ⊟ ((.k 35 2) ⊠ (.s 6))) ⊠ (.c 8))⟩,
    ⟨2, 1, .c 6⟩,
    ⟨2, 2, .neg (.s 6)⟩,
    ⟨2, 3, (((.k 35 2) ⊠ (.c 7)) ⊟ ((.k 207 3) ⊠ (.s 6))) ⊞ (.k 8 2)⟩,
    ⟨2, 4, (((.neg (.k 35 2)) ⊠ (.s 6)) ⊠ (.s 7)) ⊟ ((.k 3735 4) ⊠ (.s 6))⟩,
    ⟨2, 5, (((.neg (.k 35 2)) ⊠ (.c 6)) ⊠ (.s 7)) ⊟ ((.k 3735 4) ⊠ (.c 6))⟩,
    ⟨3, 3, ((.neg (.c 7)) ⊠ (.s 8)) ⊟ ((.s 7) ⊠ (.c 8))⟩,
    ⟨3, 4, (((.s 6) ⊠ (.s 7)) ⊠ (.s 8)) ⊟ (((.s 6) ⊠ (.c 7)) ⊠ (.c 8))⟩,
    ⟨3, 5, (((.c 6) ⊠ (.s 7)) ⊠ (.s 8)) ⊟ (((.c 6) ⊠ (.c 7)) ⊠ (.c 8))⟩,
    ⟨4, 3, ((.s 7) ⊠ (.s 8)) ⊟ ((.c 7) ⊠ (.c 8))⟩,
    ⟨4, 4, (((.s 6) ⊠ (.c 7)) ⊠ (.s 8)) ⊞ (((.s 6) ⊠ (.s 7)) ⊠ (.c 8))⟩,
    ⟨4, 5, (((.c 6) ⊠ (.c 7)) ⊠ (.s 8)) ⊞ (((.c 6) ⊠ (.s 7)) ⊠ (.c 8))⟩,
    ⟨5, 4, .c 6⟩,
    ⟨5, 5, .neg (.s 6)⟩]

/-- The transforms `fr_LH_lowerleg_X_fr_trunk`. -/
def fr_LH_lowerleg_X_fr_trunk : Trans := ⟨fr_LH_lowerleg, fr_trunk, hom_fr_LH_lowerleg_X_fr_trunk, motion_fr_LH_lowerleg_X_fr_trunk, force_fr_LH_lowerleg_X_fr_trunk⟩

/-- `HomogeneousTransforms::Type_fr_RH_lowerleg_X_fr_trunk` (transforms.impl.h:8997-9004, 9006-9033). -/
def hom_fr_RH_lowerleg_X_fr_trunk : Gen where
  rows := 4
  cols := 4
  ctor := [⟨2, 0, .k 0 0⟩,
    ⟨3, 0, .k 0 0⟩,
    ⟨3, 1, .k 0 0⟩,
    ⟨3, 2, .k 0 0⟩,
    ⟨3, 3, .k 1 0⟩]
  upd := [⟨0, 0, ((.neg (.c 10)) ⊠ (.s 11)) ⊟ ((.s 10) ⊠ (.c 11))⟩,
    ⟨0, 1, (((.s 9) ⊠ (.c 10)) ⊠ (.c 11)) ⊟ (((.s 9) ⊠ (.s 10)) ⊠ (.s 11))⟩,
    ⟨0, 2, (((.c 9) ⊠ (.s 10)) ⊠ (.s 11)) ⊟ (((.c 9) ⊠ (.c 10)) ⊠ (.c 11))⟩,
    ⟨0, 3, (((((.k 8 2) ⊟ ((.k 207 3) ⊠ (.s 9))) ⊠ (.s 10)) ⊟ ((.k 3735 4) ⊠ (.c 10))) ⊠ (.s 11)) ⊞ (((((.neg (.k 3735 4)) ⊠ (.s 10)) ⊞ ((((.k 207 3) ⊠ (.s 9)) ⊟ (.k 8 2)) ⊠ (.c 10))) ⊟ (.k 35 2)) ⊠ (.c 11))⟩,
    ⟨1, 0, ((.s 10) ⊠ (.s 11)) ⊟ ((.c 10) ⊠ (.c 11))⟩,
    ⟨1, 1, (((.neg (.s 9)) ⊠ (.c 10)) ⊠ (.s 11)) ⊟ (((.s 9) ⊠ (.s 10)) ⊠ (.c 11))⟩,
    ⟨1, 2, (((.c 9) ⊠ (.c 10)) ⊠ (.s 11)) ⊞ (((.c 9) ⊠ (.s 10)) ⊠ (.c 11))⟩,
    ⟨1, 3, (((((.k 3735 4) ⊠ (.s 10)) ⊞ (((.k 8 2) ⊟ ((.k 207 3) ⊠ (.s 9))) ⊠ (.c 10))) ⊞ (.k 35 2)) ⊠ (.s 11)) ⊞ (((((.k 8 2) ⊟ ((.k 207 3) ⊠ (.s 9))) ⊠ (.s 10)) ⊟ ((.k 3735 4) ⊠ (.c 10))) ⊠ (.c 11))⟩,
    ⟨2, 1, .c 9⟩,
    ⟨2, 2, .s 9⟩,
    ⟨2, 3, (.k 207 3) ⊠ (.c 9)⟩]

/-- `MotionTransforms::Type_fr_RH_lowerleg_X_fr_trunk` (transforms.impl.h:1503-1516, 1518-1559). -/
def motion_fr_RH_lowerleg_X_fr_trunk : Gen where
  rows := 6
  cols := 6
  ctor := [⟨0, 3, .k 0 0⟩,
    ⟨0, 4, .k 0 0⟩,
    ⟨0, 5, .k 0 0⟩,
    ⟨1, 3, .k 0 0⟩,
    ⟨1, 4, .k 0 0⟩,
    ⟨1, 5, .k 0 0⟩,
    ⟨2, 0, .k 0 0⟩,
    ⟨2, 3, .k 0 0⟩,
    ⟨2, 4, .k 0 0⟩,
    ⟨2, 5, .k 0 0⟩,
    ⟨5, 3, .k 0 0⟩]
  upd := [⟨0, 0, ((.neg (.c 10)) ⊠ (.s 11)) ⊟ ((.s 10) ⊠ (.c 11))⟩,
    ⟨0, 1, (((.s 9) ⊠ (.c 10)) ⊠ (.c 11)) ⊟ (((.s 9) ⊠ (.s 10)) ⊠ (.s 11))⟩,
    ⟨0, 2, (((.c 9) ⊠ (.s 10)) ⊠ (.s 11)) ⊟ (((.c 9) ⊠ (.c 10)) ⊠ (.c 11))⟩,
    ⟨1, 0, ((.s 10) ⊠ (.s 11)) ⊟ ((.c 10) ⊠ (.c 11))⟩,
    ⟨1, 1, (((.neg (.s 9)) ⊠ (.c 10)) ⊠ (.s 11)) ⊟ (((.s 9) ⊠ (.s 10)) ⊠ (.c 11))⟩,
    ⟨1, 2, (((.c 9) ⊠ (.c 10)) ⊠ (.s 11)) ⊞ (((.c 9) ⊠ (.s 10)) ⊠ (.c 11))⟩,
    ⟨2, 1, .c 9⟩,
    ⟨2, 2, .s 9⟩,
    ⟨3, 0, ((((.k 207 3) ⊠ (.c 9)) ⊠ (.c 10)) ⊠ (.c 11)) ⊟ ((((.k 207 3) ⊠ (.c 9)) ⊠ (.s 10)) ⊠ (.s 11))⟩,
    ⟨3, 1, ((((((.k 3735 4) ⊠ (.c 9)) ⊠ (.s 10)) ⊞ (((.k 8 2) ⊠ (.c 9)) ⊠ (.c 10))) ⊞ ((.k 35 2) ⊠ (.c 9))) ⊠ (.s 11)) ⊞ (((((.k 8 2) ⊠ (.c 9)) ⊠ (.s 10)) ⊟ (((.k 3735 4) ⊠ (.c 9)) ⊠ (.c 10))) ⊠ (.c 11))⟩,
    ⟨3, 2, ((((((.k 3735 4) ⊠ (.s 9)) ⊠ (.s 10)) ⊞ ((((.k 8 2) ⊠ (.s 9)) ⊟ (.k 207 3)) ⊠ (.c 10))) ⊞ ((.k 35 2) ⊠ (.s 9))) ⊠ (.s 11)) ⊞ ((((((.k 8 2) ⊠ (.s 9)) ⊟ (.k 207 3)) ⊠ (.s 10)) ⊟ (((.k 3735 4) ⊠ (.s 9)) ⊠ (.c 10))) ⊠ (.c 11))⟩,
    ⟨3, 3, ((.neg (.c 10)) ⊠ (.s 11)) ⊟ ((.s 10) ⊠ (.c 11))⟩,
    ⟨3, 4, (((.s 9) ⊠ (.c 10)) ⊠ (.c 11)) ⊟ (((.s 9) ⊠ (.s 10)) ⊠ (.s 11))⟩,
    ⟨3, 5, (((.c 9) ⊠ (.s 10)) ⊠ (.s 11)) ⊟ (((.c 9) ⊠ (.c 10)) ⊠ (.c 11))⟩,
    ⟨4, 0, ((((.neg (.k 207 3)) ⊠ (.c 9)) ⊠ (.c 10)) ⊠ (.s 11)) ⊟ ((((.k 207 3) ⊠ (.c 9)) ⊠ (.s 10)) ⊠ (.c 11))⟩,
    ⟨4, 1, (((((.k 3735 4) ⊠ (.c 9)) ⊠ (.c 10)) ⊟ (((.k 8 2) ⊠ (.c 9)) ⊠ (.s 10))) ⊠ (.s 11)) ⊞ ((((((.k 3735 4) ⊠ (.c 9)) ⊠ (.s 10)) ⊞ (((.k 8 2) ⊠ (.c 9)) ⊠ (.c 10))) ⊞ ((.k 35 2) ⊠ (.c 9))) ⊠ (.c 11))⟩,
    ⟨4, 2, (((((.k 207 3) ⊟ ((.k 8 2) ⊠ (.s 9))) ⊠ (.s 10)) ⊞ (((.k 3735 4) ⊠ (.s 9)) ⊠ (.c 10))) ⊠ (.s 11)) ⊞ ((((((.k 3735 4) ⊠ (.s 9)) ⊠ (.s 10)) ⊞ ((((.k 8 2) ⊠ (.s 9)) ⊟ (.k 207 3)) ⊠ (.c 10))) ⊞ ((.k 35 2) ⊠ (.s 9))) ⊠ (.c 11))⟩,
    ⟨4, 3, ((.s 10) ⊠ (.s 11)) ⊟ ((.c 10) ⊠ (.c 11))⟩,
    ⟨4, 4, (((.neg (.s 9)) ⊠ (.c 10)) ⊠ (.s 11)) ⊟ (((.s 9) ⊠ (.s 10)) ⊠ (.c 11))⟩,
    ⟨4, 5, (((.c 9) ⊠ (.c 10)) ⊠ (.s 11)) ⊞ (((.c 9) ⊠ (.s 10)) ⊠ (.c 11))⟩,
    ⟨5, 0, (((.k 35 2) ⊠ (.c 10)) ⊟ ((.k 207 3) ⊠ (.s 9))) ⊞ (.k 8 2)⟩,
    ⟨5, 1, (((.k 35 2) ⊠ (.s 9)) ⊠ (.s 10)) ⊞ ((.k 3735 4) ⊠ (.s 9))⟩,
    ⟨5, 2, (((.neg (.k 35 2)) ⊠ (.c 9)) ⊠ (.s 10)) ⊟ ((.k 3735 4) ⊠ (.c 9))⟩,
    ⟨5, 4, .c 9⟩,
    ⟨5, 5, .s 9⟩]

/-- `ForceTransforms::Type_fr_RH_lowerleg_X_fr_trunk` (transforms.impl.h:5480-5493, 5495-5536). -/
def force_fr_RH_lowerleg_X_fr_trunk : Gen where
  rows := 6
  cols := 6
  ctor := [⟨2, 0, .k 0 0⟩,
    ⟨3, 0, .k 0 0⟩,
    ⟨3, 1, .k 0 0⟩,
    ⟨3, 2, .k 0 0⟩,
    ⟨4, 0, .k 0 0⟩,
    ⟨4, 1, .k 0 0⟩,
    ⟨4, 2, .k 0 0⟩,
    ⟨5, 0, .k 0 0⟩,
    ⟨5, 1, .k 0 0⟩,
    ⟨5, 2, .k 0 0⟩,
    ⟨5, 3, .k 0 0⟩]
  upd := [⟨0, 0, ((.neg (.c 10)) ⊠ (.s 11)) ⊟ ((.s 10) ⊠ (.c 11))⟩,
    ⟨0, 1, (((.s 9) ⊠ (.c 10)) ⊠ (.c 11)) ⊟ (((.s 9) ⊠ (.s 10)) ⊠ (.s 11))⟩,
    ⟨0, 2, (((.c 9) ⊠ (.s 10)) ⊠ (.s 11)) ⊟ (((.c 9) ⊠ (.c 10)) ⊠ (.c 11))⟩,
    ⟨0, 3, ((((.k 207 3) ⊠ (.c 9)) ⊠ (.c 10)) ⊠ (.c 11)) ⊟ ((((.k 207 3) ⊠ (.c 9)) ⊠ (.s 10)) ⊠ (.s 11))⟩,
    ⟨0, 4, ((((((.k 3735 4) ⊠ (.c 9)) ⊠ (.s 10)) ⊞ (((.k 8 2) ⊠ (.c 9)) ⊠ (.c 10))) ⊞ ((.k 35 2) ⊠ (.c 9))) ⊠ (.s 11)) ⊞ (((((.k 8 2) ⊠ (.c 9)) ⊠ (.s 10)) ⊟ (((.k 3735 4) ⊠ (.c 9)) ⊠ (.c 10))) ⊠ (.c 11))⟩,
    ⟨0, 5, ((((((.k 3735 4) ⊠ (.s 9)) ⊠ (.s 10)) ⊞ ((((.k 8 2) ⊠ (.s 9)) ⊟ (.k 207 3)) ⊠ (.c 10))) ⊞ ((.k 35 2) ⊠ (.s 9))) ⊠ (.s 11)) ⊞ ((((((.k 8 2) ⊠ (.s 9)) ⊟ (.k 207 3)) ⊠ (.s 10)) ⊟ (((.k 3735 4) ⊠ (.s 9)) ⊠ (.c 10))) ⊠ (.c 11))⟩,
    ⟨1, 0, ((.s 10) ⊠ (.s 11)) ⊟ ((.c 10) ⊠ (.c 11))⟩,
    ⟨1, 1, (((.neg (.s 9)) ⊠ (.c 10)) ⊠ (.s 11)) ⊟ (((.s 9) ⊠ (.s 10)) ⊠ (.c 11))⟩,
    ⟨1, 2, (((.c 9) ⊠ (.c 10)) ⊠ (.s 11)) ⊞ (((.c 9) ⊠ (.s 10)) ⊠ (.c 11))⟩,
    ⟨1, 3, ((((.neg (.k 207 3)) ⊠ (.c 9)) ⊠ (.c 10)) ⊠ (.s 11)) ⊟ ((((.k 207 3) ⊠ (.c 9)) ⊠ (.s 10)) ⊠ (.c 11))⟩,
    ⟨1, 4, (((((.k 3735 4) ⊠ (.c 9)) ⊠ (.c 10)) ⊟ (((.k 8 2) ⊠ (.c 9)) ⊠ (.s 10))) ⊠ (.s 11)) ⊞ ((((((.k 3735 4) ⊠ (.c 9)) ⊠ (.s 10)) ⊞ (((.k 8 2) ⊠ (.c 9)) ⊠ (.c 10))) ⊞ ((.k 35 2) ⊠ (.c 9))) ⊠ (.c 11))⟩,
    ⟨1, 5, (((((.k 207 3) ⊟ ((.k 8 2) ⊠ (.s 9))) ⊠ (.s 10)) ⊞ (((.k 3735 4) ⊠ (.s 9)) ⊠ (.c 10))) ⊠ (.s 11)) ⊞ ((((((.k 3735 4) ⊠ (.s 9)) ⊠ (.s 10)) ⊞ ((((.k 8 2) ⊠ (.s 9)) ⊟ (.k 207 3)) ⊠ (.c 10))) ⊞ ((.k 35 2) ⊠ (.s 9))) ⊠ (.c 11))⟩,
    ⟨2, 1, .c 9⟩,
    ⟨2, 2, .s 9⟩,
    ⟨2, 3, (((.k 35 2) ⊠ (.c 10)) ⊟ ((.k 207 3) ⊠ (.s 9))) ⊞ (.k 8 2)⟩,
    ⟨2, 4, (((.k 35 2) ⊠ (.s 9)) ⊠ (.s 10)) ⊞ ((.k 3735 4) ⊠ (.s 9))⟩,
    ⟨2, 5, (((.neg (.k 35 2)) ⊠ (.c 9)) ⊠ (.s 10)) ⊟ ((.k 3735 4) ⊠ (.c 9))⟩,
    ⟨3, 3, ((.neg (.c 10)) ⊠ (.s 11)) ⊟ ((.s 10) ⊠ (.c 11))⟩,
    ⟨3, 4, (((.s 9) ⊠ (.c 10)) ⊠ (.c 11)) ⊟ (((.s 9) ⊠ (.s 10)) ⊠ (.s 11))⟩,
    ⟨3, 5, (((.c 9) ⊠ (.s 10)) ⊠ (.s 11)) ⊟ (((.c 9) ⊠ (.c 10)) ⊠ (.c 11))⟩,
    ⟨4, 3, ((.s 10) ⊠ (.s 11)) ⊟ ((.c 10) ⊠ (.c 11))⟩,
    ⟨4, 4, (((.neg (.s 9)) ⊠ (.c 10)) ⊠ (.s 11)) ⊟ (((.s 9) ⊠ (.s 10)) ⊠ (.c 11))⟩,
    ⟨4, 5, (((.c 9) ⊠ (.c 10)) ⊠ (.s 11)) ⊞ (((.c 9) ⊠ (.s 10)) ⊠ (.c 11))⟩,
    ⟨5, 4, .c 9⟩,
    ⟨5, 5, .s 9⟩]

/-- The transforms `fr_RH_lowerleg_X_fr_trunk`. -/
def fr_RH_lowerleg_X_fr_trunk : Trans := ⟨fr_RH_lowerleg, fr_trunk, hom_fr_RH_lowerleg_X_fr_trunk, motion_fr_RH_lowerleg_X_fr_trunk, force_fr_RH_lowerleg_X_fr_trunk⟩

/-- `HomogeneousTransforms::Type_fr_trunk_X_LF_hipassemblyCOM` (transforms.impl.h:9035-9047, 9049-9063). -/
def hom_fr_trunk_X_LF_hipassemblyCOM : Gen where
  rows := 4
  cols := 4
  ctor := [⟨0, 0, .k 0 0⟩,
    ⟨0, 1, .k 0 0⟩,
    ⟨0, 2, .neg (.k 1 0)⟩,
    ⟨0, 3, .k 2045 4⟩,
    ⟨1, 2, .k 0 0⟩,
    ⟨2, 2, .k 0 0⟩,
    ⟨3, 0, .k 0 0⟩,
    ⟨3, 1, .k 0 0⟩,
    ⟨3, 2, .k 0 0⟩,
    ⟨3, 3, .k 1 0⟩]
  upd := [⟨1, 0, .neg (.s 0)⟩,
    ⟨1, 1, .neg (.c 0)⟩,
    ⟨1, 3, (.k 207 3) ⊟ ((.k 43 3) ⊠ (.s 0))⟩,
    ⟨2, 0, .neg (.c 0)⟩,
    ⟨2, 1, .s 0⟩,
    ⟨2, 3, (.neg (.k 43 3)) ⊠ (.c 0)⟩]

/-- `MotionTransforms::Type_fr_trunk_X_LF_hipassemblyCOM` (transforms.impl.h:1561-1583, 1585-1609). -/
def motion_fr_trunk_X_LF_hipassemblyCOM : Gen where
  rows := 6
  cols := 6
  ctor := [⟨0, 0, .k 0 0⟩,
    ⟨0, 1, .k 0 0⟩,
    ⟨0, 2, .neg (.k 1 0)⟩,
    ⟨0, 3, .k 0 0⟩,
    ⟨0, 4, .k 0 0⟩,
    ⟨0, 5, .k 0 0⟩,
    ⟨1, 2, .k 0 0⟩,
    ⟨1, 3, .k 0 0⟩,
    ⟨1, 4, .k 0 0⟩,
    ⟨1, 5, .k 0 0⟩,
    ⟨2, 2, .k 0 0⟩,
    ⟨2, 3, .k 0 0⟩,
    ⟨2, 4, .k 0 0⟩,
    ⟨2, 5, .k 0 0⟩,
    ⟨3, 2, .k 0 0⟩,
    ⟨3, 3, .k 0 0⟩,
    ⟨3, 4, .k 0 0⟩,
    ⟨3, 5, .neg (.k 1 0)⟩,
    ⟨4, 5, .k 0 0⟩,
    ⟨5, 5, .k 0 0⟩]
  upd := [⟨1, 0, .neg (.s 0)⟩,
    ⟨1, 1, .neg (.c 0)⟩,
    ⟨2, 0, .neg (.c 0)⟩,
    ⟨2, 1, .s 0⟩,
    ⟨3, 0, (.neg (.k 207 3)) ⊠ (.c 0)⟩,
    ⟨3, 1, ((.k 207 3) ⊠ (.s 0)) ⊟ (.k 43 3)⟩,
    ⟨4, 0, (.k 2045 4) ⊠ (.c 0)⟩,
    ⟨4, 1, (.neg (.k 2045 4)) ⊠ (.s 0)⟩,
    ⟨4, 2, (.k 43 3) ⊠ (.c 0)⟩,
    ⟨4, 3, .neg (.s 0)⟩,
    ⟨4, 4, .neg (.c 0)⟩,
    ⟨5, 0, (.neg (.k 2045 4)) ⊠ (.s 0)⟩,
    ⟨5, 1, (.neg (.k 2045 4)) ⊠ (.c 0)⟩,
    ⟨5, 2, (.k 207 3) ⊟ ((.k 43 3) ⊠ (.s 0))⟩,
    ⟨5, 3, .neg (.c 0)⟩,
    ⟨5, 4, .s 0⟩]

/-- `ForceTransforms::Type_fr_trunk_X_LF_hipassemblyCOM` (transforms.impl.h:5538-5560, 5562-5586). -/
def force_fr_trunk_X_LF_hipassemblyCOM : Gen where
  rows := 6
  cols := 6
  ctor := [⟨0, 0, .k 0 0⟩,
    ⟨0, 1, .k 0 0⟩,
    ⟨0, 2, .neg (.k 1 0)⟩,
    ⟨0, 5, .k 0 0⟩,
    ⟨1, 2, .k 0 0⟩,
    ⟨2, 2, .k 0 0⟩,
    ⟨3, 0, .k 0 0⟩,
    ⟨3, 1, .k 0 0⟩,
    ⟨3, 2, .k 0 0⟩,
    ⟨3, 3, .k 0 0⟩,
    ⟨3, 4, .k 0 0⟩,
    ⟨3, 5, .neg (.k 1 0)⟩,
    ⟨4, 0, .k 0 0⟩,
    ⟨4, 1, .k 0 0⟩,
    ⟨4, 2, .k 0 0⟩,
    ⟨4, 5, .k 0 0⟩,
    ⟨5, 0, .k 0 0⟩,
    ⟨5, 1, .k 0 0⟩,
    ⟨5, 2, .k 0 0⟩,
    ⟨5, 5, .k 0 0⟩]
  upd := [⟨0, 3, (.neg (.k 207 3)) ⊠ (.c 0)⟩,
    ⟨0, 4, ((.k 207 3) ⊠ (.s 0)) ⊟ (.k 43 3)⟩,
    ⟨1, 0, .neg (.s 0)⟩,
    ⟨1, 1, .neg (.c 0)⟩,
    ⟨1, 3, (.k 2045 4) ⊠ (.c 0)⟩,
    ⟨1, 4, (.neg (.k 2045 4)) ⊠ (.s 0)⟩,
    ⟨1, 5, (.k 43 3) ⊠ (.c 0)⟩,
    ⟨2, 0, .neg (.c 0)⟩,
    ⟨2, 1, .s 0⟩,
    ⟨2, 3, (.neg (.k 2045 4)) ⊠ (.s 0)⟩,
    ⟨2, 4, (.neg (.k 2045 4)) ⊠ (.c 0)⟩,
    ⟨2, 5, (.k 207 3) ⊟ ((.k 43 3) ⊠ (.s 0))⟩,
    ⟨4, 3, .neg (.s 0)⟩,
    ⟨4, 4, .neg (.c 0)⟩,
    ⟨5, 3, .neg (.c 0)⟩,
    ⟨5, 4, .s 0⟩]

/-- The transforms `fr_trunk_X_LF_hipassemblyCOM`. -/
def fr_trunk_X_LF_hipassemblyCOM : Trans := ⟨fr_trunk, LF_hipassemblyCOM, hom_fr_trunk_X_LF_hipassemblyCOM, motion_fr_trunk_X_LF_hipassemblyCOM, force_fr_trunk_X_LF_hipassemblyCOM⟩

/-- `HomogeneousTransforms::Type_fr_trunk_X_RF_hipassemblyCOM` (transforms.impl.h:9065-9077, 9079-9093). -/
def hom_fr_trunk_X_RF_hipassemblyCOM : Gen where
  rows := 4
  cols := 4
  ctor := [⟨0, 0, .k 0 0⟩,
    ⟨0, 1, .k 0 0⟩,
    ⟨0, 2, .k 1 0⟩,
    ⟨0, 3, .k 2045 4⟩,
    ⟨1, 2, .k 0 0⟩,
    ⟨2, 2, .k 0 0⟩,
    ⟨3, 0, .k 0 0⟩,
    ⟨3, 1, .k 0 0⟩,
    ⟨3, 2, .k 0 0⟩,
    ⟨3, 3, .k 1 0⟩]
  upd := [⟨1, 0, .s 3⟩,
    ⟨1, 1, .c 3⟩,
    ⟨1, 3, ((.k 43 3) ⊠ (.s 3)) ⊟ (.k 207 3)⟩,
    ⟨2, 0, .neg (.c 3)⟩,
    ⟨2, 1, .s 3⟩,
    ⟨2, 3, (.neg (.k 43 3)) ⊠ (.c 3)⟩]

/-- `MotionTransforms::Type_fr_trunk_X_RF_hipassemblyCOM` (transforms.impl.h:1611-1633, 1635-1659). -/
def motion_fr_trunk_X_RF_hipassemblyCOM : Gen where
  rows := 6
  cols := 6
  ctor := [⟨0, 0, .k 0 0⟩,
    ⟨0, 1, .k 0 0⟩,
    ⟨0, 2, .k 1 0⟩,
    ⟨0, 3, .k 0 0⟩,
    ⟨0, 4, .k 0 0⟩,
    ⟨0, 5, .k 0 0⟩,
    ⟨1, 2, .k 0 0⟩,
    ⟨1, 3, .k 0 0⟩,
    ⟨1, 4, .k 0 0⟩,
    ⟨1, 5, .k 0 0⟩,
    ⟨2, 2, .k 0 0⟩,
    ⟨2, 3, .k 0 0⟩,
    ⟨2, 4, .k 0 0⟩,
    ⟨2, 5, .k 0 0⟩,
    ⟨3, 2, .k 0 0⟩,
    ⟨3, 3, .k 0 0⟩,
    ⟨3, 4, .k 0 0⟩,
    ⟨3, 5, .k 1 0⟩,
    ⟨4, 5, .k 0 0⟩,
    ⟨5, 5, .k 0 0⟩]
  upd := [⟨1, 0, .s 3⟩,
    ⟨1, 1, .c 3⟩,
    ⟨2, 0, .neg (.c 3)⟩,
    ⟨2, 1, .s 3⟩,
    ⟨3, 0, (.k 207 3) ⊠ (.c 3)⟩,
    ⟨3, 1, (.k 43 3) ⊟ ((.k 207 3) ⊠ (.s 3))⟩,
    ⟨4, 0, (.k 2045 4) ⊠ (.c 3)⟩,
    ⟨4, 1, (.neg (.k 2045 4)) ⊠ (.s 3)⟩,
    ⟨4, 2, (.neg (.k 43 3)) ⊠ (.c 3)⟩,
    ⟨4, 3, .s 3⟩,
    ⟨4, 4, .c 3⟩,
    ⟨5, 0, (.k 2045 4) ⊠ (.s 3)⟩,
    ⟨5, 1, (.k 2045 4) ⊠ (.c 3)⟩,
    ⟨5, 2, (.k 207 3) ⊟ ((.k 43 3) ⊠ (.s 3))⟩,
    ⟨5, 3, .neg (.c 3)⟩,
    ⟨5, 4, .s 3⟩]

/-- `ForceTransforms::Type_fr_trunk_X_RF_hipassemblyCOM` (transforms.impl.h:5588-5610, 5612-5636). -/
def force_fr_trunk_X_RF_hipassemblyCOM : Gen where
  rows := 6
  cols := 6
  ctor := [⟨0, 0, .k 0 0⟩,
    ⟨0, 1, .k 0 0⟩,
    ⟨0, 2, .k 1 0⟩,
    ⟨0, 5, .k 0 0⟩,
    ⟨1, 2, .k 0 0⟩,
    ⟨2, 2, .k 0 0⟩,
    ⟨3, 0, .k 0 0⟩,
    ⟨3, 1, .k 0 0⟩,
    ⟨3, 2, .k 0 0⟩,
    ⟨3, 3, .k 0 0⟩,
    ⟨3, 4, .k 0 0⟩,
    ⟨3, 5, .k 1 0⟩,
    ⟨4, 0, .k 0 0⟩,
    ⟨4, 1, .k 0 0⟩,
    ⟨4, 2, .k 0 0⟩,
    ⟨4, 5, .k 0 0⟩,
    ⟨5, 0, .k 0 0⟩,
    ⟨5, 1, .k 0 0⟩,
    ⟨5, 2, .k 0 0⟩,
    ⟨5, 5, .k 0 0⟩]
  upd := [⟨0, 3, (.k 207 3) ⊠ (.c 3)⟩,
    ⟨0, 4, (.k 43 3) ⊟ ((.k 207 3) ⊠ (.s 3))⟩,
    ⟨1, 0, .s 3⟩,
    ⟨1, 1, .c 3⟩,
    ⟨1, 3, (.k 2045 4) ⊠ (.c 3)⟩,
    ⟨1, 4, (.neg (.k 2045 4)) ⊠ (.s 3)⟩,
    ⟨1, 5, (.neg (.k 43 3)) ⊠ (.c 3)⟩,
    ⟨2, 0, .neg (.c 3)⟩,
    ⟨2, 1, .s 3⟩,
    ⟨2, 3, (.k 2045 4) ⊠ (.s 3)⟩,
    ⟨2, 4, (.k 2045 4) ⊠ (.c 3)⟩,
    ⟨2, 5, (.k 207 3) ⊟ ((.k 43 3) ⊠ (.s 3))⟩,
    ⟨4, 3, .s 3⟩,
    ⟨4, 4, .c 3⟩,
    ⟨5, 3, .neg (.c 3)⟩,
    ⟨5, 4, .s 3⟩]

/-- The transforms `fr_trunk_X_RF_hipassemblyCOM`. -/
def fr_trunk_X_RF_hipassemblyCOM : Trans := ⟨fr_trunk, RF_hipassemblyCOM, hom_fr_trunk_X_RF_hipassemblyCOM, motion_fr_trunk_X_RF_hipassemblyCOM, force_fr_trunk_X_RF_hipassemblyCOM⟩

/-- `HomogeneousTransforms::Type_fr_trunk_X_LH_hipassemblyCOM` (transforms.impl.h:9095-9107, 9109-9123). -/
def hom_fr_trunk_X_LH_hipassemblyCOM : Gen where
  rows := 4
  cols := 4
  ctor := [⟨0, 0, .k 0 0⟩,
    ⟨0, 1, .k 0 0⟩,
    ⟨0, 2, .neg (.k 1 0)⟩,
    ⟨0, 3, .neg (.k 2045 4)⟩,
    ⟨1, 2, .k 0 0⟩,
    ⟨2, 2, .k 0 0⟩,
    ⟨3, 0, .k 0 0⟩,
    ⟨3, 1, .k 0 0⟩,
    ⟨3, 2, .k 0 0⟩,
    ⟨3, 3, .k 1 0⟩]
  upd := [⟨1, 0, .neg (.s 6)⟩,
    ⟨1, 1, .neg (.c 6)⟩,
    ⟨1, 3, (.k 207 3) ⊟ ((.k 43 3) ⊠ (.s 6))⟩,
    ⟨2, 0, .neg (.c 6)⟩,
    ⟨2, 1, .s 6⟩,
    ⟨2, 3, (.neg (.k 43 3)) ⊠ (.c 6)⟩]

/-- `MotionTransforms::Type_fr_trunk_X_LH_hipassemblyCOM` (transforms.impl.h:1661-1683, 1685-1709). -/
def motion_fr_trunk_X_LH_hipassemblyCOM : Gen where
  rows := 6
  cols := 6
  ctor := [⟨0, 0, .k 0 0⟩,
    ⟨0, 1, .k 0 0⟩,
    ⟨0, 2, .neg (.k 1 0)⟩,
    ⟨0, 3, .k 0 0⟩,
    ⟨0, 4, .k 0 0⟩,
    ⟨0, 5, .k 0 0⟩,
    ⟨1, 2, .k 0 0⟩,
    ⟨1, 3, .k 0 0⟩,
    ⟨1, 4, .k 0 0⟩,
    ⟨1, 5, .k 0 0⟩,
    ⟨2, 2, .k 0 0⟩,
    ⟨2, 3, .k 0 0⟩,
    ⟨2, 4, .k 0 0⟩,
    ⟨2, 5, .k 0 0⟩,
    ⟨3, 2, .k 0 0⟩,
    ⟨3, 3, .k 0 0⟩,
    ⟨3, 4, .k 0 0⟩,
    ⟨3, 5, .neg (.k 1 0)⟩,
    ⟨4, 5, .k 0 0⟩,
    ⟨5, 5, .k 0 0⟩]
  upd := [⟨1, 0, .neg (.s 6)⟩,
    ⟨1, 1, .neg (.c 6)⟩,
    ⟨2, 0, .neg (.c 6)⟩,
    ⟨2, 1, .s 6⟩,
    ⟨3, 0, (.neg (.k 207 3)) ⊠ (.c 6)⟩,
    ⟨3, 1, ((.k 207 3) ⊠ (.s 6)) ⊟ (.k 43 3)⟩,
    ⟨4, 0, (.neg (.k 2045 4)) ⊠ (.c 6)⟩,
    ⟨4, 1, (.k 2045 4) ⊠ (.s 6)⟩,
    ⟨4, 2, (.k 43 3) ⊠ (.c 6)⟩,
    ⟨4, 3, .neg (.s 6)⟩,
    ⟨4, 4, .neg (.c 6)⟩,
    ⟨5, 0, (.k 2045 4) ⊠ (.s 6)⟩,
    ⟨5, 1, (.k 2045 4) ⊠ (.c 6)⟩,
    ⟨5, 2, (.k 207 3) ⊟ ((.k 43 3) ⊠ (.s 6))⟩,
    ⟨5, 3, .neg (.c 6)⟩,
    ⟨5, 4, .s 6⟩]

/-- `ForceTransforms::Type_fr_trunk_X_LH_hipassemblyCOM` (transforms.impl.h:5638-5660, 5662-5686). -/
def force_fr_trunk_X_LH_hipassemblyCOM : Gen where
  rows := 6
  cols := 6
  ctor := [⟨0, 0, .k 0 0⟩,
    ⟨0, 1, .k 0 0⟩,
    ⟨0, 2, .neg (.k 1 0)⟩,
    ⟨0, 5, .k 0 0⟩,
    ⟨1, 2, .k 0 0⟩,
    ⟨2, 2, .k 0 0⟩,
    ⟨3, 0, .k 0 0⟩,
    ⟨3, 1, .k 0 0⟩,
    ⟨3, 2, .k 0 0⟩,
    ⟨3, 3, .k 0 0⟩,
    ⟨3, 4, .k 0 0⟩,
    ⟨3, 5, .neg (.k 1 0)⟩,
    ⟨4, 0, .k 0 0⟩,
    ⟨4, 1, .k 0 0⟩,
    ⟨4, 2, .k 0 0⟩,
    ⟨4, 5, .k 0 0⟩,
    ⟨5, 0, .k 0 0⟩,
    ⟨5, 1, .k 0 0⟩,
    ⟨5, 2, .k 0 0⟩,
    ⟨5, 5, .k 0 0⟩]
  upd := [⟨0, 3, (.neg (.k 207 3)) ⊠ (.c 6)⟩,
    ⟨0, 4, ((.k 207 3) ⊠ (.s 6)) ⊟ (.k 43 3)⟩,
    ⟨1, 0, .neg (.s 6)⟩,
    ⟨1, 1, .neg (.c 6)⟩,
    ⟨1, 3, (.neg (.k 2045 4)) ⊠ (.c 6)⟩,
    ⟨1, 4, (.k 2045 4) ⊠ (.s 6)⟩,
    ⟨1, 5, (.k 43 3) ⊠ (.c 6)⟩,
    ⟨2, 0, .neg (.c 6)⟩,
    ⟨2, 1, .s 6⟩,
    ⟨2, 3, (.k 2045 4) ⊠ (.s 6)⟩,
    ⟨2, 4, (.k 2045 4) ⊠ (.c 6)⟩,
    ⟨2, 5, (.k 207 3) ⊟ ((.k 43 3) ⊠ (.s 6))⟩,
    ⟨4, 3, .neg (.s 6)⟩,
    ⟨4, 4, .neg (.c 6)⟩,
    ⟨5, 3, .neg (.c 6)⟩,
    ⟨5, 4, .s 6⟩]

/-- The transforms `fr_trunk_X_LH_hipassemblyCOM`. -/
def fr_trunk_X_LH_hipassemblyCOM : Trans := ⟨fr_trunk, LH_hipassemblyCOM, hom_fr_trunk_X_LH_hipassemblyCOM, motion_fr_trunk_X_LH_hipassemblyCOM, force_fr_trunk_X_LH_hipassemblyCOM⟩

/-- `HomogeneousTransforms::Type_fr_trunk_X_RH_hipassemblyCOM` (transforms.impl.h:9125-9137, 9139-9153). -/
def hom_fr_trunk_X_RH_hipassemblyCOM : Gen where
  rows := 4
  cols := 4
  ctor := [⟨0, 0, .k 0 0⟩,
    ⟨0, 1, .k 0 0⟩,
    ⟨0, 2, .k 1 0⟩,
    ⟨0, 3, .neg (.k 2045 4)⟩,
    ⟨1, 2, .k 0 0⟩,
    ⟨2, 2, .k 0 0⟩,
    ⟨3, 0, .k 0 0⟩,
    ⟨3, 1, .k 0 0⟩,
    ⟨3, 2, .k 0 0⟩,
    ⟨3, 3, .k 1 0⟩]
  upd := [⟨1, 0, .s 9⟩,
    ⟨1, 1, .c 9⟩,
    ⟨1, 3, ((.k 43 3) ⊠ (.s 9)) ⊟ (.k 207 3)⟩,
    ⟨2, 0, .neg (.c 9)⟩,
    ⟨2, 1, .s 9⟩,
    ⟨2, 3, (.neg (.k 43 3)) ⊠ (.c 9)⟩]

/-- `MotionTransforms::Type_fr_trunk_X_RH_hipassemblyCOM` (transforms.impl.h:1711-1733, 1735-1759). -/
def motion_fr_trunk_X_RH_hipassemblyCOM : Gen where
  rows := 6
  cols := 6
  ctor := [⟨0, 0, .k 0 0⟩,
    ⟨0, 1, .k 0 0⟩,
    ⟨0, 2, .k 1 0⟩,
    ⟨0, 3, .k 0 0⟩,
    ⟨0, 4, .k 0 0⟩,
    ⟨0, 5, .k 0 0⟩,
    ⟨1, 2, .k 0 0⟩,
    ⟨1, 3, .k 0 0⟩,
    ⟨1, 4, .k 0 0⟩,
    ⟨1, 5, .k 0 0⟩,
    ⟨2, 2, .k 0 0⟩,
    ⟨2, 3, .k 0 0⟩,
    ⟨2, 4, .k 0 0⟩,
    ⟨2, 5, .k 0 0⟩,
    ⟨3, 2, .k 0 0⟩,
    ⟨3, 3, .k 0 0⟩,
    ⟨3, 4, .k 0 0⟩,
    ⟨3, 5, .k 1 0⟩,
    ⟨4, 5, .k 0 0⟩,
    ⟨5, 5, .k 0 0⟩]
  upd := [⟨1, 0, .s 9⟩,
    ⟨1, 1, .c 9⟩,
    ⟨2, 0, .neg (.c 9)⟩,
    ⟨2, 1, .s 9⟩,
    ⟨3, 0, (.k 207 3) ⊠ (.c 9)⟩,
    ⟨3, 1, (.k 43 3) ⊟ ((.k 207 3) ⊠ (.s 9))⟩,
    ⟨4, 0, (.neg (.k 2045 4)) ⊠ (.c 9)⟩,
    ⟨4, 1, (.k 2045 4) ⊠ (.s 9)⟩,
    ⟨4, 2, (.neg (.k 43 3)) ⊠ (.c 9)⟩,
    ⟨4, 3, .s 9⟩,
    ⟨4, 4, .c 9⟩,
    ⟨5, 0, (.neg (.k 2045 4)) ⊠ (.s 9)⟩,
    ⟨5, 1, (.neg (.k 2045 4)) ⊠ (.c 9)⟩,
    ⟨5, 2, (.k 207 3) ⊟ ((.k 43 3) ⊠ (.s 9))⟩,
    ⟨5, 3, .neg (.c 9)⟩,
    ⟨5, 4, .s 9⟩]

/-- `ForceTransforms::Type_fr_trunk_X_RH_hipassemblyCOM` (transforms.impl.h:5688-5710, 5712-5736). -/
def force_fr_trunk_X_RH_hipassemblyCOM : Gen where
  rows := 6
  cols := 6
  ctor := [⟨0, 0, .k 0 0⟩,
    ⟨0, 1, .k 0 0⟩,
    ⟨0, 2, .k 1 0⟩,
    ⟨0, 5, .k 0 0⟩,
    ⟨1, 2, .k 0 0⟩,
    ⟨2, 2, .k 0 0⟩,
    ⟨3, 0, .k 0 0⟩,
    ⟨3, 1, .k 0 0⟩,
    ⟨3, 2, .k 0 0⟩,
    ⟨3, 3, .k 0 0⟩,
    ⟨3, 4, .k 0 0⟩,
    ⟨3, 5, .k 1 0⟩,
    ⟨4, 0, .k 0 0⟩,
    ⟨4, 1, .k 0 0⟩,
    ⟨4, 2, .k 0 0⟩,
    ⟨4, 5, .k 0 0⟩,
    ⟨5, 0, .k 0 0⟩,
    ⟨5, 1, .k 0 0⟩,
    ⟨5, 2, .k 0 0⟩,
    ⟨5, 5, .k 0 0⟩]
  upd := [⟨0, 3, (.k 207 3) ⊠ (.c 9)⟩,
    ⟨0, 4, (.k 43 3) ⊟ ((.k 207 3) ⊠ (.s 9))⟩,
    ⟨1, 0, .s 9⟩,
    ⟨1, 1, .c 9⟩,
    ⟨1, 3, (.neg (.k 2045 4)) ⊠ (.c 9)⟩,
    ⟨1, 4, (.k 2045 4) ⊠ (.s 9)⟩,
    ⟨1, 5, (.neg (.k 43 3)) ⊠ (.c 9)⟩,
    ⟨2, 0, .neg (.c 9)⟩,
    ⟨2, 1, .s 9⟩,
    ⟨2, 3, (.neg (.k 2045 4)) ⊠ (.s 9)⟩,
    ⟨2, 4, (.neg (.k 2045 4)) ⊠ (.c 9)⟩,
    ⟨2, 5, (.k 207 3) ⊟ ((.k 43 3) ⊠ (.s 9))⟩,
    ⟨4, 3, .s 9⟩,
    ⟨4, 4, .c 9⟩,
    ⟨5, 3, .neg (.c 9)⟩,
    ⟨5, 4, .s 9⟩]

/-- The transforms `fr_trunk_X_RH_hipassemblyCOM`. -/
def fr_trunk_X_RH_hipassemblyCOM : Trans := ⟨fr_trunk, RH_hipassemblyCOM, hom_fr_trunk_X_RH_hipassemblyCOM, motion_fr_trunk_X_RH_hipassemblyCOM, force_fr_trunk_X_RH_hipassemblyCOM⟩

/-- `HomogeneousTransforms::Type_fr_trunk_X_LF_upperlegCOM` (transforms.impl.h:9155-9162, 9164-9187). -/
def hom_fr_trunk_X_LF_upperlegCOM : Gen where
  rows := 4
  cols := 4
  ctor := [⟨0, 2, .k 0 0⟩,
    ⟨3, 0, .k 0 0⟩,
    ⟨3, 1, .k 0 0⟩,
    ⟨3, 2, .k 0 0⟩,
    ⟨3, 3, .k 1 0⟩]
  upd := [⟨0, 0, .neg (.s 1)⟩,
    ⟨0, 1, .neg (.c 1)⟩,
    ⟨0, 3, (((.neg (.k 151 3)) ⊠ (.s 1)) ⊞ ((.k 26 3) ⊠ (.c 1))) ⊞ (.k 3735 4)⟩,
    ⟨1, 0, (.neg (.s 0)) ⊠ (.c 1)⟩,
    ⟨1, 1, (.s 0) ⊠ (.s 1)⟩,
    ⟨1, 2, .c 0⟩,
    ⟨1, 3, (((((.neg (.k 26 3)) ⊠ (.s 0)) ⊠ (.s 1)) ⊟ (((.k 151 3) ⊠ (.s 0)) ⊠ (.c 1))) ⊟ ((.k 8 2) ⊠ (.s 0))) ⊞ (.k 207 3)⟩,
    ⟨2, 0, (.neg (.c 0)) ⊠ (.c 1)⟩,
    ⟨2, 1, (.c 0) ⊠ (.s 1)⟩,
    ⟨2, 2, .neg (.s 0)⟩,
    ⟨2, 3, ((((.neg (.k 26 3)) ⊠ (.c 0)) ⊠ (.s 1)) ⊟ (((.k 151 3) ⊠ (.c 0)) ⊠ (.c 1))) ⊟ ((.k 8 2) ⊠ (.c 0))⟩]

/-- `MotionTransforms::Type_fr_trunk_X_LF_upperlegCOM` (transforms.impl.h:1761-1774, 1776-1813). -/
def motion_fr_trunk_X_LF_upperlegCOM : Gen where
  rows := 6
  cols := 6
  ctor := [⟨0, 2, .k 0 0⟩,
    ⟨0, 3, .k 0 0⟩,
    ⟨0, 4, .k 0 0⟩,
    ⟨0, 5, .k 0 0⟩,
    ⟨1, 3, .k 0 0⟩,
    ⟨1, 4, .k 0 0⟩,
    ⟨1, 5, .k 0 0⟩,
    ⟨2, 3, .k 0 0⟩,
    ⟨2, 4, .k 0 0⟩,
    ⟨2, 5, .k 0 0⟩,
    ⟨3, 5, .k 0 0⟩]
  upd := [⟨0, 0, .neg (.s 1)⟩,
    ⟨0, 1, .neg (.c 1)⟩,
    ⟨1, 0, (.neg (.s 0)) ⊠ (.c 1)⟩,
    ⟨1, 1, (.s 0) ⊠ (.s 1)⟩,
    ⟨1, 2, .c 0⟩,
    ⟨2, 0, (.neg (.c 0)) ⊠ (.c 1)⟩,
    ⟨2, 1, (.c 0) ⊠ (.s 1)⟩,
    ⟨2, 2, .neg (.s 0)⟩,
    ⟨3, 0, ((.neg (.k 207 3)) ⊠ (.c 0)) ⊠ (.c 1)⟩,
    ⟨3, 1, ((.k 207 3) ⊠ (.c 0)) ⊠ (.s 1)⟩,
    ⟨3, 2, ((((.k 26 3) ⊠ (.s 1)) ⊞ ((.k 151 3) ⊠ (.c 1))) ⊟ ((.k 207 3) ⊠ (.s 0))) ⊞ (.k 8 2)⟩,
    ⟨3, 3, .neg (.s 1)⟩,
    ⟨3, 4, .neg (.c 1)⟩,
    ⟨4, 0, ((((.k 8 2) ⊠ (.c 0)) ⊠ (.s 1)) ⊞ (((.k 3735 4) ⊠ (.c 0)) ⊠ (.c 1))) ⊞ ((.k 26 3) ⊠ (.c 0))⟩,
    ⟨4, 1, ((((.neg (.k 3735 4)) ⊠ (.c 0)) ⊠ (.s 1)) ⊞ (((.k 8 2) ⊠ (.c 0)) ⊠ (.c 1))) ⊞ ((.k 151 3) ⊠ (.c 0))⟩,
    ⟨4, 2, ((((.neg (.k 151 3)) ⊠ (.s 0)) ⊠ (.s 1)) ⊞ (((.k 26 3) ⊠ (.s 0)) ⊠ (.c 1))) ⊞ ((.k 3735 4) ⊠ (.s 0))⟩,
    ⟨4, 3, (.neg (.s 0)) ⊠ (.c 1)⟩,
    ⟨4, 4, (.s 0) ⊠ (.s 1)⟩,
    ⟨4, 5, .c 0⟩,
    ⟨5, 0, ((((.k 207 3) ⊟ ((.k 8 2) ⊠ (.s 0))) ⊠ (.s 1)) ⊟ (((.k 3735 4) ⊠ (.s 0)) ⊠ (.c 1))) ⊟ ((.k 26 3) ⊠ (.s 0))⟩,
    ⟨5, 1, ((((.k 3735 4) ⊠ (.s 0)) ⊠ (.s 1)) ⊞ (((.k 207 3) ⊟ ((.k 8 2) ⊠ (.s 0))) ⊠ (.c 1))) ⊟ ((.k 151 3) ⊠ (.s 0))⟩,
    ⟨5, 2, ((((.neg (.k 151 3)) ⊠ (.c 0)) ⊠ (.s 1)) ⊞ (((.k 26 3) ⊠ (.c 0)) ⊠ (.c 1))) ⊞ ((.k 3735 4) ⊠ (.c 0))⟩,
    ⟨5, 3, (.neg (.c 0)) ⊠ (.c 1)⟩,
    ⟨5, 4, (.c 0) ⊠ (.s 1)⟩,
    ⟨5, 5, .neg (.s 0)⟩]

/-- `ForceTransforms::Type_fr_trunk_X_LF_upperlegCOM` (transforms.impl.h:5738-5751, 5753-5790). -/
def force_fr_trunk_X_LF_upperlegCOM : Gen where
  rows := 6
  cols := 6
  ctor := [⟨0, 2, .k 0 0⟩,
    ⟨3, 0, .k 0 0⟩,
    ⟨3, 1, .k 0 0⟩,
    ⟨3, 2, .k 0 0⟩,
    ⟨3, 5, .k 0 0⟩,
    ⟨4, 0, .k 0 0⟩,
    ⟨4, 1, .k 0 0⟩,
    ⟨4, 2, .k 0 0⟩,
    ⟨5, 0, .k 0 0⟩,
    ⟨5, 1, .k 0 0⟩,
    ⟨5, 2, .k 0 0⟩]
  upd := [⟨0, 0, .neg (.s 1)⟩,
    ⟨0, 1, .neg (.c 1)⟩,
    ⟨0, 3, ((.neg (.k 207 3)) ⊠ (.c 0)) ⊠ (.c 1)⟩,
    ⟨0, 4, ((.k 207 3) ⊠ (.c 0)) ⊠ (.s 1)⟩,
    ⟨0, 5, ((((.k 26 3) ⊠ (.s 1)) ⊞ ((.k 151 3) ⊠ (.c 1))) ⊟ ((.k 207 3) ⊠ (.s 0))) ⊞ (.k 8 2)⟩,
    ⟨1, 0, (.neg (.s 0)) ⊠ (.c 1)⟩,
    ⟨1, 1, (.s 0) ⊠ (.s 1)⟩,
    ⟨1, 2, .c 0⟩,
    ⟨1, 3, ((((.k 8 2) ⊠ (.c 0)) ⊠ (.s 1)) ⊞ (((.k 3735 4) ⊠ (.c 0)) ⊠ (.c 1))) ⊞ ((.k 26 3) ⊠ (.c 0))⟩,
    ⟨1, 4, ((((.neg (.k 3735 4)) ⊠ (.c 0)) ⊠ (.s 1)) ⊞ (((.k 8 2) ⊠ (.c 0)) ⊠ (.c 1))) ⊞ ((.k 151 3) ⊠ (.c 0))⟩,
    ⟨1, 5, ((((.neg (.k 151 3)) ⊠ (.s 0)) ⊠ (.s 1)) ⊞ (((.k 26 3) ⊠ (.s 0)) ⊠ (.c 1))) ⊞ ((.k 3735 4) ⊠ (.s 0))⟩,
    ⟨2, 0, (.neg (.c 0)) ⊠ (.c 1)⟩,
    ⟨2, 1, (.c 0) ⊠ (.s 1)⟩,
    ⟨2, 2, .neg (.s 0)⟩,
    ⟨2, 3, ((((.k 207 3) ⊟ ((.k 8 2) ⊠ (.s 0))) ⊠ (.s 1)) ⊟ (((.k 3735 4) ⊠ (.s 0)) ⊠ (.c 1))) ⊟ ((.k 26 3) ⊠ (.s 0))⟩,
    ⟨2, 4, ((((.k 3735 4) ⊠ (.s 0)) ⊠ (.s 1)) ⊞ (((.k 207 3) ⊟ ((.k 8 2) ⊠ (.s 0))) ⊠ (.c 1))) ⊟ ((.k 151 3) ⊠ (.s 0))⟩,
    ⟨2, 5, ((((.neg (.k 151 3)) ⊠ (.c 0)) ⊠ (.s 1)) ⊞ (((.k 26 3) ⊠ (.c 0)) ⊠ (.c 1))) ⊞ ((.k 3735 4) ⊠ (.c 0))⟩,
    ⟨3, 3, .neg (.s 1)⟩,
    ⟨3, 4, .neg (.c 1)⟩,
    ⟨4, 3, (.neg (.s 0)) ⊠ (.c 1)⟩,
    ⟨4, 4, (.s 0) ⊠ (.s 1)⟩,
    ⟨4, 5, .c 0⟩,
    ⟨5, 3, (.neg (.c 0)) ⊠ (.c 1)⟩,
    ⟨5, 4, (.c 0) ⊠ (.s 1)⟩,
    ⟨5, 5, .neg (.s 0)⟩]

/-- The transforms `fr_trunk_X_LF_upperlegCOM`. -/
def fr_trunk_X_LF_upperlegCOM : Trans := ⟨fr_trunk, LF_upperlegCOM, hom_fr_trunk_X_LF_upperlegCOM, motion_fr_trunk_X_LF_upperlegCOM, force_fr_trunk_X_LF_upperlegCOM⟩

/-- `HomogeneousTransforms::Type_fr_trunk_X_RF_upperlegCOM` (transforms.impl.h:9189-9196, 9198-9221). -/
def hom_fr_trunk_X_RF_upperlegCOM : Gen where
  rows := 4
  cols := 4
  ctor := [⟨0, 2, .k 0 0⟩,
    ⟨3, 0, .k 0 0⟩,
    ⟨3, 1, .k 0 0⟩,
    ⟨3, 2, .k 0 0⟩,
    ⟨3, 3, .k 1 0⟩]
  upd := [⟨0, 0, .neg (.s 4)⟩,
    ⟨0, 1, .neg (.c 4)⟩,
    ⟨0, 3, (((.neg (.k 151 3)) ⊠ (.s 4)) ⊞ ((.k 26 3) ⊠ (.c 4))) ⊞ (.k 3735 4)⟩,
    ⟨1, 0, (.s 3) ⊠ (.c 4)⟩,
    ⟨1, 1, (.neg (.s 3)) ⊠ (.s 4)⟩,
    ⟨1, 2, .c 3⟩,
    ⟨1, 3, (((((.k 26 3) ⊠ (.s 3)) ⊠ (.s 4)) ⊞ (((.k 151 3) ⊠ (.s 3)) ⊠ (.c 4))) ⊞ ((.k 8 2) ⊠ (.s 3))) ⊟ (.k 207 3)⟩,
    ⟨2, 0, (.neg (.c 3)) ⊠ (.c 4)⟩,
    ⟨2, 1, (.c 3) ⊠ (.s 4)⟩,
    ⟨2, 2, .s 3⟩,
    ⟨2, 3, ((((.neg (.k 26 3)) ⊠ (.c 3)) ⊠ (.s 4)) ⊟ (((.k 151 3) ⊠ (.c 3)) ⊠ (.c 4))) ⊟ ((.k 8 2) ⊠ (.c 3))⟩]

/-- `MotionTransforms::Type_fr_trunk_X_RF_upperlegCOM` (transforms.impl.h:1815-1828, 1830-1867). -/
def motion_fr_trunk_X_RF_upperlegCOM : Gen where
  rows := 6
  cols := 6
  ctor := [⟨0, 2, .k 0 0⟩,
    ⟨0, 3, .k 0 0⟩,
    ⟨0, 4, .k 0 0⟩,
    ⟨0, 5, .k 0 0⟩,
    ⟨1, 3, .k 0 0⟩,
    ⟨1, 4, .k 0 0⟩,
    ⟨1, 5, .k 0 0⟩,
    ⟨2, 3, .k 0 0⟩,
    ⟨2, 4, .k 0 0⟩,
    ⟨2, 5, .k 0 0⟩,
    ⟨3, 5, .k 0 0⟩]
  upd := [⟨0, 0, .neg (.s 4)⟩,
    ⟨0, 1, .neg (.c 4)⟩,
    ⟨1, 0, (.s 3) ⊠ (.c 4)⟩,
    ⟨1, 1, (.neg (.s 3)) ⊠ (.s 4)⟩,
    ⟨1, 2, .c 3⟩,
    ⟨2, 0, (.neg (.c 3)) ⊠ (.c 4)⟩,
    ⟨2, 1, (.c 3) ⊠ (.s 4)⟩,
    ⟨2, 2, .s 3⟩,
    ⟨3, 0, ((.k 207 3) ⊠ (.c 3)) ⊠ (.c 4)⟩,
    ⟨3, 1, ((.neg (.k 207 3)) ⊠ (.c 3)) ⊠ (.s 4)⟩,
    ⟨3, 2, ((((.k 26 3) ⊠ (.s 4)) ⊞ ((.k 151 3) ⊠ (.c 4))) ⊟ ((.k 207 3) ⊠ (.s 3))) ⊞ (.k 8 2)⟩,
    ⟨3, 3, .neg (.s 4)⟩,
    ⟨3, 4, .neg (.c 4)⟩,
    ⟨4, 0, ((((.k 8 2) ⊠ (.c 3)) ⊠ (.s 4)) ⊞ (((.k 3735 4) ⊠ (.c 3)) ⊠ (.c 4))) ⊞ ((.k 26 3) ⊠ (.c 3))⟩,
    ⟨4, 1, ((((.neg (.k 3735 4)) ⊠ (.c 3)) ⊠ (.s 4)) ⊞ (((.k 8 2) ⊠ (.c 3)) ⊠ (.c 4))) ⊞ ((.k 151 3) ⊠ (.c 3))⟩,
    ⟨4, 2, ((((.k 151 3) ⊠ (.s 3)) ⊠ (.s 4)) ⊟ (((.k 26 3) ⊠ (.s 3)) ⊠ (.c 4))) ⊟ ((.k 3735 4) ⊠ (.s 3))⟩,
    ⟨4, 3, (.s 3) ⊠ (.c 4)⟩,
    ⟨4, 4, (.neg (.s 3)) ⊠ (.s 4)⟩,
    ⟨4, 5, .c 3⟩,
    ⟨5, 0, (((((.k 8 2) ⊠ (.s 3)) ⊟ (.k 207 3)) ⊠ (.s 4)) ⊞ (((.k 3735 4) ⊠ (.s 3)) ⊠ (.c 4))) ⊞ ((.k 26 3) ⊠ (.s 3))⟩,
    ⟨5, 1, ((((.neg (.k 3735 4)) ⊠ (.s 3)) ⊠ (.s 4)) ⊞ ((((.k 8 2) ⊠ (.s 3)) ⊟ (.k 207 3)) ⊠ (.c 4))) ⊞ ((.k 151 3) ⊠ (.s 3))⟩,
    ⟨5, 2, ((((.neg (.k 151 3)) ⊠ (.c 3)) ⊠ (.s 4)) ⊞ (((.k 26 3) ⊠ (.c 3)) ⊠ (.c 4))) ⊞ ((.k 3735 4) ⊠ (.c 3))⟩,
    ⟨5, 3, (.neg (.c 3)) ⊠ (.c 4)⟩,
    ⟨5, 4, (.c 3) ⊠ (.s 4)⟩,
    ⟨5, 5, .s 3⟩]

/-- `ForceTransforms::Type_fr_trunk_X_RF_upperlegCOM` (transforms.impl.h:5792-5805, 5807-5844). -/
def force_fr_trunk_X_RF_upperlegCOM : Gen where
  rows := 6
  cols := 6
  ctor := [⟨0, 2, .k 0 0⟩,
    ⟨3, 0, .k 0 0⟩,
    ⟨3, 1, .k 0 0⟩,
    ⟨3, 2, .k 0 0⟩,
    ⟨3, 5, .k 0 0⟩,
    ⟨4, 0, .k 0 0⟩,
    ⟨4, 1, .k 0 0⟩,
    ⟨4, 2, .k 0 0⟩,
    ⟨5, 0, .k 0 0⟩,
    ⟨5, 1, .k 0 0⟩,
    ⟨5, 2, .k 0 0⟩]
  upd := [⟨0, 0, .neg (.s 4)⟩,
    ⟨0, 1, .neg (.c 4)⟩,
    ⟨0, 3, ((.k 207 3) ⊠ (.c 3)) ⊠ (.c 4)⟩,
    ⟨0, 4, ((.neg (.k 207 3)) ⊠ (.c 3)) ⊠ (.s 4)⟩,
    ⟨0, 5, ((((.k 26 3) ⊠ (.s 4)) ⊞ ((.k 151 3) ⊠ (.c 4))) ⊟ ((.k 207 3) ⊠ (.s 3))) ⊞ (.k 8 2)⟩,
    ⟨1, 0, (.s 3) ⊠ (.c 4)⟩,
    ⟨1, 1, (.neg (.s 3)) ⊠ (.s 4)⟩,
    ⟨1, 2, .c 3⟩,
    ⟨1, 3, ((((.k 8 2) ⊠ (.c 3)) ⊠ (.s 4)) ⊞ (((.k 3735 4) ⊠ (.c 3)) ⊠ (.c 4))) ⊞ ((.k 26 3) ⊠ (.c 3))⟩,
    ⟨1, 4, ((((.neg (.k 3735 4)) ⊠ (.c 3)) ⊠ (.s 4)) ⊞ (((.k 8 2) ⊠ (.c 3)) ⊠ (.c 4))) ⊞ ((.k 151 3) ⊠ (.c 3))⟩,
    ⟨1, 5, ((((.k 151 3) ⊠ (.s 3)) ⊠ (.s 4)) ⊟ (((.k 26 3) ⊠ (.s 3)) ⊠ (.c 4))) ⊟ ((.k 3735 4) ⊠ (.s 3))⟩,
    ⟨2, 0, (.neg (.c 3)) ⊠ (.c 4)⟩,
    ⟨2, 1, (.c 3) ⊠ (.s 4)⟩,
    ⟨2, 2, .s 3⟩,
    ⟨2, 3, (((((.k 8 2) ⊠ (.s 3)) ⊟ (.k 207 3)) ⊠ (.s 4)) ⊞ (((.k 3735 4) ⊠ (.s 3)) ⊠ (.c 4))) ⊞ ((.k 26 3) ⊠ (.s 3))⟩,
    ⟨2, 4, ((((.neg (.k 3735 4)) ⊠ (.s 3)) ⊠ (.s 4)) ⊞ ((((.k 8 2) ⊠ (.s 3)) ⊟ (.k 207 3)) ⊠ (.c 4))) ⊞ ((.k 151 3) ⊠ (.s 3))⟩,
    ⟨2, 5, ((((.neg (.k 151 3)) ⊠ (.c 3)) ⊠ (.s 4)) ⊞ (((.k 26 3) ⊠ (.c 3)) ⊠ (.c 4))) ⊞ ((.k 3735 4) ⊠ (.c 3))⟩,
    ⟨3, 3, .neg (.s 4)⟩,
    ⟨3, 4, .neg (.c 4)⟩,
    ⟨4, 3, (.s 3) ⊠ (.c 4)⟩,
    ⟨4, 4, (.neg (.s 3)) ⊠ (.s 4)⟩,
    ⟨4, 5, .c 3⟩,
    ⟨5, 3, (.neg (.c 3)) ⊠ (.c 4)⟩,
    ⟨5, 4, (.c 3) ⊠ (.s 4)⟩,
    ⟨5, 5, .s 3⟩]

/-- The transforms `fr_trunk_X_RF_upperlegCOM`. -/
def fr_trunk_X_RF_upperlegCOM : Trans := ⟨fr_trunk, RF_upperlegCOM, hom_fr_trunk_X_RF_upperlegCOM, motion_fr_trunk_X_RF_upperlegCOM, force_fr_trunk_X_RF_upperlegCOM⟩

/-- `HomogeneousTransforms::Type_fr_trunk_X_LH_upperlegCOM` (transforms.impl.h:9223-9230, 9232-9255). -/
def hom_fr_trunk_X_LH_upperlegCOM : Gen where
  rows := 4
  cols := 4
  ctor := [⟨0, 2, .k 0 0⟩,
    ⟨3, 0, .k 0 0⟩,
    ⟨3, 1, .k 0 0⟩,
    ⟨3, 2, .k 0 0⟩,
    ⟨3, 3, .k 1 0⟩]
  upd := [⟨0, 0, .neg (.s 7)⟩,
    ⟨0, 1, .neg (.c 7)⟩,
    ⟨0, 3, (((.neg (.k 151 3)) ⊠ (.s 7)) ⊟ ((.k 26 3) ⊠ (.c 7))) ⊟ (.k 3735 4)⟩,
    ⟨1, 0, (.neg (.s 6)) ⊠ (.c 7)⟩,
    ⟨1, 1, (.s 6) ⊠ (.s 7)⟩,
    ⟨1, 2, .c 6⟩,
    ⟨1, 3, (((((.k 26 3) ⊠ (.s 6)) ⊠ (.s 7)) ⊟ (((.k 151 3) ⊠ (.s 6)) ⊠ (.c 7))) ⊟ ((.k 8 2) ⊠ (.s 6))) ⊞ (.k 207 3)⟩,
    ⟨2, 0, (.neg (.c 6)) ⊠ (.c 7)⟩,
    ⟨2, 1, (.c 6) ⊠ (.s 7)⟩,
    ⟨2, 2, .neg (.s 6)⟩,
    ⟨2, 3, ((((.k 26 3) ⊠ (.c 6)) ⊠ (.s 7)) ⊟ (((.k 151 3) ⊠ (.c 6)) ⊠ (.c 7))) ⊟ ((.k 8 2) ⊠ (.c 6))⟩]

/-- `MotionTransforms::Type_fr_trunk_X_LH_upperlegCOM` (transforms.impl.h:1869-1882, 1884-1921). -/
def motion_fr_trunk_X_LH_upperlegCOM : Gen where
  rows := 6
  cols := 6
  ctor := [⟨0, 2, .k 0 0⟩,
    ⟨0, 3, .k 0 0⟩,
    ⟨0, 4, .k 0 0⟩,
    ⟨0, 5, .k 0 0⟩,
    ⟨1, 3, .k 0 0⟩,
    ⟨1, 4, .k 0 0⟩,
    ⟨1, 5, .k 0 0⟩,
    ⟨2, 3, .k 0 0⟩,
    ⟨2, 4, .k 0 0⟩,
    ⟨2, 5, .k 0 0⟩,
    ⟨3, 5, .k 0 0⟩]
  upd := [⟨0, 0, .neg (.s 7)⟩,
    ⟨0, 1, .neg (.c 7)⟩,
    ⟨1, 0, (.neg (.s 6)) ⊠ (.c 7)⟩,
    ⟨1, 1, (.s 6) ⊠ (.s 7)⟩,
    ⟨1, 2, .c 6⟩,
    ⟨2, 0, (.neg (.c 6)) ⊠ (.c 7)⟩,
    ⟨2, 1, (.c 6) ⊠ (.s 7)⟩,
    ⟨2, 2, .neg (.s 6)⟩,
    ⟨3, 0, ((.neg (.k 207 3)) ⊠ (.c 6)) ⊠ (.c 7)⟩,
    ⟨3, 1, ((.k 207 3) ⊠ (.c 6)) ⊠ (.s 7)⟩,
    ⟨3, 2, ((((.neg (.k 26 3)) ⊠ (.s 7)) ⊞ ((.k 151 3) ⊠ (.c 7))) ⊟ ((.k 207 3) ⊠ (.s 6))) ⊞ (.k 8 2)⟩,
    ⟨3, 3, .neg (.s 7)⟩,
    ⟨3, 4, .neg (.c 7)⟩,
    ⟨4, 0, ((((.k 8 2) ⊠ (.c 6)) ⊠ (.s 7)) ⊟ (((.k 3735 4) ⊠ (.c 6)) ⊠ (.c 7))) ⊟ ((.k 26 3) ⊠ (.c 6))⟩,
    ⟨4, 1, ((((.k 3735 4) ⊠ (.c 6)) ⊠ (.s 7)) ⊞ (((.k 8 2) ⊠ (.c 6)) ⊠ (.c 7))) ⊞ ((.k 151 3) ⊠ (.c 6))⟩,
    ⟨4, 2, ((((.neg (.k 151 3)) ⊠ (.s 6)) ⊠ (.s 7)) ⊟ (((.k 26 3) ⊠ (.s 6)) ⊠ (.c 7))) ⊟ ((.k 3735 4) ⊠ (.s 6))⟩,
    ⟨4, 3, (.neg (.s 6)) ⊠ (.c 7)⟩,
    ⟨4, 4, (.s 6) ⊠ (.s 7)⟩,
    ⟨4, 5, .c 6⟩,
    ⟨5, 0, ((((.k 207 3) ⊟ ((.k 8 2) ⊠ (.s 6))) ⊠ (.s 7)) ⊞ (((.k 3735 4) ⊠ (.s 6)) ⊠ (.c 7))) ⊞ ((.k 26 3) ⊠ (.s 6))⟩,
    ⟨5, 1, ((((.neg (.k 3735 4)) ⊠ (.s 6)) ⊠ (.s 7)) ⊞ (((.k 207 3) ⊟ ((.k 8 2) ⊠ (.s 6))) ⊠ (.c 7))) ⊟ ((.k 151 3) ⊠ (.s 6))⟩,
    ⟨5, 2, ((((.neg (.k 151 3)) ⊠ (.c 6)) ⊠ (.s 7)) ⊟ (((.k 26 3) ⊠ (.c 6)) ⊠ (.c 7))) ⊟ ((.k 3735 4) ⊠ (.c 6))⟩,
    ⟨5, 3, (.neg (.c 6)) ⊠ (.c 7)⟩,
    ⟨5, 4, (.c 6) ⊠ (.s 7)⟩,
    ⟨5, 5, .neg (.s 6)⟩]

/-- `ForceTransforms::Type_fr_trunk_X_LH_upperlegCOM` (transforms.impl.h:5846-5859, 5861-5898). -/
def force_fr_trunk_X_LH_upperlegCOM : Gen where
  rows := 6
  cols := 6
  ctor := [⟨0, 2, .k 0 0⟩,
    ⟨3, 0, .k 0 0⟩,
    ⟨3, 1, .k 0 0⟩,
    ⟨3, 2, .k 0 0⟩,
    ⟨3, 5, .k 0 0⟩,
    ⟨4, 0, .k 0 0⟩,
    ⟨4, 1, .k 0 0⟩,
    ⟨4, 2, .k 0 0⟩,
    ⟨5, 0, .k 0 0⟩,
    ⟨5, 1, .k 0 0⟩,
    ⟨5, 2, .k 0 0⟩]
  upd := [⟨0, 0, .neg (.s 7)⟩,
    ⟨0, 1, .neg (.c 7)⟩,
    ⟨0, 3, ((.neg (.k 207 3)) ⊠ (.c 6)) ⊠ (.c 7)⟩,
    ⟨0, 4, ((.k 207 3) ⊠ (.c 6)) ⊠ (.s 7)⟩,
    ⟨0, 5, ((((.neg (.k 26 3)) ⊠ (.s 7)) ⊞ ((.k 151 3) ⊠ (.c 7))) ⊟ ((.k 207 3) ⊠ (.s 6))) ⊞ (.k 8 2)⟩,
    ⟨1, 0, (.neg (.s 6)) ⊠ (.c 7)⟩,
    ⟨1, 1, (.s 6) ⊠ (.s 7)⟩,
    ⟨1, 2, .c 6⟩,
    ⟨1, 3, ((((.k 8 2) ⊠ (.c 6)) ⊠ (.s 7)) ⊟ (((.k 3735 4) ⊠ (.c 6)) ⊠ (.c 7))) ⊟ ((.k 26 3) ⊠ (.c 6))⟩,
    ⟨1, 4, ((((.k 3735 4) ⊠ (.c 6)) ⊠ (.s 7)) ⊞ (((.k 8 2) ⊠ (.c 6)) ⊠ (.c 7))) ⊞ ((.k 151 3) ⊠ (.c 6))⟩,
    ⟨1, 5, ((((.neg (.k 151 3)) ⊠ (.s 6)) ⊠ (.s 7)) ⊟ (((.k 26 3) ⊠ (.s 6)) ⊠ (.c 7))) ⊟ ((.k 3735 4) ⊠ (.s 6))⟩,
    ⟨2, 0, (.neg (.c 6)) ⊠ (.c 7)⟩,
    ⟨2, 1, (.c 6) ⊠ (.s 7)⟩,
    ⟨2, 2, .neg (.s 6)⟩,
    ⟨2, 3, ((((.k 207 3) ⊟ ((.k 8 2) ⊠ (.s 6))) ⊠ (.s 7)) ⊞ (((.k 3735 4) ⊠ (.s 6)) ⊠ (.c 7))) ⊞ ((.k 26 3) ⊠ (.s 6))⟩,
    ⟨2, 4, ((((.neg (.k 3735 4)) ⊠ (.s 6)) ⊠ (.s 7)) ⊞ (((.k 207 3) ⊟ ((.k 8 2) ⊠ (.s 6))) ⊠ (.c 7))) ⊟ ((.k 151 3) ⊠ (.s 6))⟩,
    ⟨2, 5, ((((.neg (.k 151 3)) ⊠ (.c 6)) ⊠ (.s 7)) ⊟ (((.k 26 3) ⊠ (.c 6)) ⊠ (.c 7))) ⊟ ((.k 3735 4) ⊠ (.c 6))⟩,
    ⟨3, 3, .neg (.s 7)⟩,
    ⟨3, 4, .neg (.c 7)⟩,
    ⟨4, 3, (.neg (.s 6)) ⊠ (.c 7)⟩,
    ⟨4, 4, (.s 6) ⊠ (.s 7)⟩,
    ⟨4, 5, .c 6⟩,
    ⟨5, 3, (.neg (.c 6)) ⊠ (.c 7)⟩,
    ⟨5, 4, (.c 6) ⊠ (.s 7)⟩,
    ⟨5, 5, .neg (.s 6)⟩]

/-- The transforms `fr_trunk_X_LH_upperlegCOM`. -/
def fr_trunk_X_LH_upperlegCOM : Trans := ⟨fr_trunk, LH_upperlegCOM, hom_fr_trunk_X_LH_upperlegCOM, motion_fr_trunk_X_LH_upperlegCOM, force_fr_trunk_X_LH_upperlegCOM⟩

/-- `HomogeneousTransforms::Type_fr_trunk_X_RH_upperlegCOM` (transforms.impl.h:9257-9264, 9266-9289). -/
def hom_fr_trunk_X_RH_upperlegCOM : Gen where
  rows := 4
  cols := 4
  ctor := [⟨0, 2, .k 0 0⟩,
    ⟨3, 0, .k 0 0⟩,
    ⟨3, 1, .k 0 0⟩,
    ⟨3, 2, .k 0 0⟩,
    ⟨3, 3, .k 1 0⟩]
  upd := [⟨0, 0, .neg (.s 10)⟩,
    ⟨0, 1, .neg (.c 10)⟩,
    ⟨0, 3, (((.neg (.k 151 3)) ⊠ (.s 10)) ⊟ ((.k 26 3) ⊠ (.c 10))) ⊟ (.k 3735 4)⟩,
    ⟨1, 0, (.s 9) ⊠ (.c 10)⟩,
    ⟨1, 1, (.neg (.s 9)) ⊠ (.s 10)⟩,
    ⟨1, 2, .c 9⟩,
    ⟨1, 3, (((((.neg (.k 26 3)) ⊠ (.s 9)) ⊠ (.s 10)) ⊞ (((.k 151 3) ⊠ (.s 9)) ⊠ (.c 10))) ⊞ ((.k 8 2) ⊠ (.s 9))) ⊟ (.k 207 3)⟩,
    ⟨2, 0, (.neg (.c 9)) ⊠ (.c 10)⟩,
    ⟨2, 1, (.c 9) ⊠ (.s 10)⟩,
    ⟨2, 2, .s 9⟩,
    ⟨2, 3, ((((.k 26 3) ⊠ (.c 9)) ⊠ (.s 10)) ⊟ (((.k 151 3) ⊠ (.c 9)) ⊠ (.c 10))) ⊟ ((.k 8 2) ⊠ (.c 9))⟩]

/-- `MotionTransforms::Type_fr_trunk_X_RH_upperlegCOM` (transforms.impl.h:1923-1936, 1938-1975). -/
def motion_fr_trunk_X_RH_upperlegCOM : Gen where
  rows := 6
  cols := 6
  ctor := [⟨0, 2, .k 0 0⟩,
    ⟨0, 3, .k 0 0⟩,
    ⟨0, 4, .k 0 0⟩,
    ⟨0, 5, .k 0 0⟩,
    ⟨1, 3, .k 0 0⟩,
    ⟨1, 4, .k 0 0⟩,
    ⟨1, 5, .k 0 0⟩,
    ⟨2, 3, .k 0 0⟩,
    ⟨2, 4, .k 0 0⟩,
    ⟨2, 5, .k 0 0⟩,
    ⟨3, 5, .k 0 0⟩]
  upd := [⟨0, 0, .neg (.s 10)⟩,
    ⟨0, 1, .neg (.c 10)⟩,
    ⟨1, 0, (.s 9) ⊠ (.c 10)⟩,
    ⟨1, 1, (.neg (.s 9)) ⊠ (.s 10)⟩,
    ⟨1, 2, .c 9⟩,
    ⟨2, 0, (.neg (.c 9)) ⊠ (.c 10)⟩,
    ⟨2, 1, (.c 9) ⊠ (.s 10)⟩,
    ⟨2, 2, .s 9⟩,
    ⟨3, 0, ((.k 207 3) ⊠ (.c 9)) ⊠ (.c 10)⟩,
    ⟨3, 1, ((.neg (.k 207 3)) ⊠ (.c 9)) ⊠ (.s 10)⟩,
    ⟨3, 2, ((((.neg (.k 26 3)) ⊠ (.s 10)) ⊞ ((.k 151 3) ⊠ (.c 10))) ⊟ ((.k 207 3) ⊠ (.s 9))) ⊞ (.k 8 2)⟩,
    ⟨3, 3, .neg (.s 10)⟩,
    ⟨3, 4, .neg (.c 10)⟩,
    ⟨4, 0, ((((.k 8 2) ⊠ (.c 9)) ⊠ (.s 10)) ⊟ (((.k 3735 4) ⊠ (.c 9)) ⊠ (.c 10))) ⊟ ((.k 26 3) ⊠ (.c 9))⟩,
    ⟨4, 1, ((((.k 3735 4) ⊠ (.c 9)) ⊠ (.s 10)) ⊞ (((.k 8 2) ⊠ (.c 9)) ⊠ (.c 10))) ⊞ ((.k 151 3) ⊠ (.c 9))⟩,
    ⟨4, 2, ((((.k 151 3) ⊠ (.s 9)) ⊠ (.s 10)) ⊞ (((.k 26 3) ⊠ (.s 9)) ⊠ (.c 10))) ⊞ ((.k 3735 4) ⊠ (.s 9))⟩,
    ⟨4, 3, (.s 9) ⊠ (.c 10)⟩,
    ⟨4, 4, (.neg (.s 9)) ⊠ (.s 10)⟩,
    ⟨4, 5, .c 9⟩,
    ⟨5, 0, (((((.k 8 2) ⊠ (.s 9)) ⊟ (.k 207 3)) ⊠ (.s 10)) ⊟ (((.k 3735 4) ⊠ (.s 9)) ⊠ (.c 10))) ⊟ ((.k 26 3) ⊠ (.s 9))⟩,
    ⟨5, 1, ((((.k 3735 4) ⊠ (.s 9)) ⊠ (.s 10)) ⊞ ((((.k 8 2) ⊠ (.s 9)) ⊟ (.k 207 3)) ⊠ (.c 10))) ⊞ ((.k 151 3) ⊠ (.s 9))⟩,
    ⟨5, 2, ((((.neg (.k 151 3)) ⊠ (.c 9)) ⊠ (.s 10)) ⊟ (((.k 26 3) ⊠ (.c 9)) ⊠ (.c 10))) ⊟ ((.k 3735 4) ⊠ (.c 9))⟩,
    ⟨5, 3, (.neg (.c 9)) ⊠ (.c 10)⟩,
    ⟨5, 4, (.c 9) ⊠ (.s 10)⟩,
    ⟨5, 5, .s 9⟩]

/-- `ForceTransforms::Type_fr_trunk_X_RH_upperlegCOM` (transforms.impl.h:5900-5913, 5915-5952). -/
def force_fr_trunk_X_RH_upperlegCOM : Gen where
  rows := 6
  cols := 6
  ctor := [⟨0, 2, .k 0 0⟩,
    ⟨3, 0, .k 0 0⟩,
    ⟨3, 1, .k 0 0⟩,
    ⟨3, 2, .k 0 0⟩,
    ⟨3, 5, .k 0 0⟩,
    ⟨4, 0, .k 0 0⟩,
    ⟨4, 1, .k 0 0⟩,
    ⟨4, 2, .k 0 0⟩,
    ⟨5, 0, .k 0 0⟩,
    ⟨5, 1, .k 0 0⟩,
    ⟨5, 2, .k 0 0⟩]
  upd := [⟨0, 0, .neg (.s 10)⟩,
    ⟨0, 1, .neg (.c 10)⟩,
    ⟨0, 3, ((.k 207 3) ⊠ (.c 9)) ⊠ (.c 10)⟩,
    ⟨0, 4, ((.neg (.k 207 3)) ⊠ (.c 9)) ⊠ (.s 10)⟩,
    ⟨0, 5, ((((.neg (.k 26 3)) ⊠ (.s 10)) ⊞ ((.k 151 3) ⊠ (.c 10))) ⊟ ((.k 207 3) ⊠ (.s 9))) ⊞ (.k 8 2)⟩,
    ⟨1, 0, (.s 9) ⊠ (.c 10)⟩,
    ⟨1, 1, (.neg (.s 9)) ⊠ (.s 10)⟩,
    ⟨1, 2, .c 9⟩,
    ⟨1, 3, ((((.k 8 2) ⊠ (.c 9)) ⊠ (.s 10)) ⊟ (((.k 3735 4) ⊠ (.c 9)) ⊠ (.c 10))) ⊟ ((.k 26 3) ⊠ (.c 9))⟩,
    ⟨1, 4, ((((.k 3735 4) ⊠ (.c 9)) ⊠ (.s 10)) ⊞ (((.k 8 2) ⊠ (.c 9)) ⊠ (.c 10))) ⊞ ((.k 151 3) ⊠ (.c 9))⟩,
    ⟨1, 5, ((((.k 151 3) ⊠ (.s 9)) ⊠ (.s 10)) ⊞ (((.k 26 3) ⊠ (.s 9)) ⊠ (.c 10))) ⊞ ((.k 3735 4) ⊠ (.s 9))⟩,
    ⟨2, 0, (.neg (.c 9)) ⊠ (.c 10)⟩,
    ⟨2, 1, (.c 9) ⊠ (.s 10)⟩,
    ⟨2, 2, .s 9⟩,
    ⟨2, 3, (((((.k 8 2) ⊠ (.s 9)) ⊟ (.k 207 3)) ⊠ (.s 10)) ⊟ (((.k 3735 4) ⊠ (.s 9)) ⊠ (.c 10))) ⊟ ((.k 26 3) ⊠ (.s 9))⟩,
    ⟨2, 4, ((((.k 3735 4) ⊠ (.s 9)) ⊠ (.s 10)) ⊞ ((((.k 8 2) ⊠ (.s 9)) ⊟ (.k 207 3)) ⊠ (.c 10))) ⊞ ((.k 151 3) ⊠ (.s 9))⟩,
    ⟨2, 5, ((((.neg (.k 151 3)) ⊠ (.c 9)) ⊠ (.s 10)) ⊟ (((.k 26 3) ⊠ (.c 9)) ⊠ (.c 10))) ⊟ ((.k 3735 4) ⊠ (.c 9))⟩,
    ⟨3, 3, .neg (.s 10)⟩,
    ⟨3, 4, .neg (.c 10)⟩,
    ⟨4, 3, (.s 9) ⊠ (.c 10)⟩,
    ⟨4, 4, (.neg (.s 9)) ⊠ (.s 10)⟩,
    ⟨4, 5, .c 9⟩,
    ⟨5, 3, (.neg (.c 9)) ⊠ (.c 10)⟩,
    ⟨5, 4, (.c 9) ⊠ (.s 10)⟩,
    ⟨5, 5, .s 9⟩]

/-- The transforms `fr_trunk_X_RH_upperlegCOM`. -/
def fr_trunk_X_RH_upperlegCOM : Trans := ⟨fr_trunk, RH_upperlegCOM, hom_fr_trunk_X_RH_upperlegCOM, motion_fr_trunk_X_RH_upperlegCOM, force_fr_trunk_X_RH_upperlegCOM⟩

/-- `HomogeneousTransforms::Type_fr_trunk_X_LF_lowerlegCOM` (transforms.impl.h:9291-9298, 9300-9327). -/
def hom_fr_trunk_X_LF_lowerlegCOM : Gen where
  rows := 4
  cols := 4
  ctor := [⟨0, 2, .k 0 0⟩,
    ⟨3, 0, .k 0 0⟩,
    ⟨3, 1, .k 0 0⟩,
    ⟨3, 2, .k 0 0⟩,
    ⟨3, 3, .k 1 0⟩]
  upd := [⟨0, 0, ((.neg (.c 1)) ⊠ (.s 2)) ⊟ ((.s 1) ⊠ (.c 2))⟩,
    ⟨0, 1, ((.s 1) ⊠ (.s 2)) ⊟ ((.c 1) ⊠ (.c 2))⟩,
    ⟨0, 3, (((((.neg (.k 125 3)) ⊠ (.c 1)) ⊠ (.s 2)) ⊟ (((.k 125 3) ⊠ (.s 1)) ⊠ (.c 2))) ⊟ ((.k 35 2) ⊠ (.s 1))) ⊞ (.k 3735 4)⟩,
    ⟨1, 0, (((.s 0) ⊠ (.s 1)) ⊠ (.s 2)) ⊟ (((.s 0) ⊠ (.c 1)) ⊠ (.c 2))⟩,
    ⟨1, 1, (((.s 0) ⊠ (.c 1)) ⊠ (.s 2)) ⊞ (((.s 0) ⊠ (.s 1)) ⊠ (.c 2))⟩,
    ⟨1, 2, .c 0⟩,
    ⟨1, 3, (((((((.k 125 3) ⊠ (.s 0)) ⊠ (.s 1)) ⊠ (.s 2)) ⊟ ((((.k 125 3) ⊠ (.s 0)) ⊠ (.c 1)) ⊠ (.c 2))) ⊟ (((.k 35 2) ⊠ (.s 0)) ⊠ (.c 1))) ⊟ ((.k 8 2) ⊠ (.s 0))) ⊞ (.k 207 3)⟩,
    ⟨2, 0, (((.c 0) ⊠ (.s 1)) ⊠ (.s 2)) ⊟ (((.c 0) ⊠ (.c 1)) ⊠ (.c 2))⟩,
    ⟨2, 1, (((.c 0) ⊠ (.c 1)) ⊠ (.s 2)) ⊞ (((.c 0) ⊠ (.s 1)) ⊠ (.c 2))⟩,
    ⟨2, 2, .neg (.s 0)⟩,
    ⟨2, 3, ((((((.k 125 3) ⊠ (.c 0)) ⊠ (.s 1)) ⊠ (.s 2)) ⊟ ((((.k 125 3) ⊠ (.c 0)) ⊠ (.c 1)) ⊠ (.c 2))) ⊟ (((.k 35 2) ⊠ (.c 0)) ⊠ (.c 1))) ⊟ ((.k 8 2) ⊠ (.c 0))⟩]

/-- `MotionTransforms::Type_fr_trunk_X_LF_lowerlegCOM` (transforms.impl.h:1977-1990, 1992-2033). -/
def motion_fr_trunk_X_LF_lowerlegCOM : Gen where
  rows := 6
  cols := 6
  ctor := [⟨0, 2, .k 0 0⟩,
    ⟨0, 3, .k 0 0⟩,
    ⟨0, 4, .k 0 0⟩,
    ⟨0, 5, .k 0 0⟩,
    ⟨1, 3, .k 0 0⟩,
    ⟨1, 4, .k 0 0⟩,
    ⟨1, 5, .k 0 0⟩,
    ⟨2, 3, .k 0 0⟩,
    ⟨2, 4, .k 0 0⟩,
    ⟨2, 5, .k 0 0⟩,
    ⟨3, 5, .k 0 0⟩]
  upd := [⟨0, 0, ((.neg (.c 1)) ⊠ (.s 2)) ⊟ ((.s 1) ⊠ (.c 2))⟩,
    ⟨0, 1, ((.s 1) ⊠ (.s 2)) ⊟ ((.c 1) ⊠ (.c 2))⟩,
    ⟨1, 0, (((.s 0) ⊠ (.s 1)) ⊠ (.s 2)) ⊟ (((.s 0) ⊠ (.c 1)) ⊠ (.c 2))⟩,
    ⟨1, 1, (((.s 0) ⊠ (.c 1)) ⊠ (.s 2)) ⊞ (((.s 0) ⊠ (.s 1)) ⊠ (.c 2))⟩,
    ⟨1, 2, .c 0⟩,
    ⟨2, 0, (((.c 0) ⊠ (.s 1)) ⊠ (.s 2)) ⊟ (((.c 0) ⊠ (.c 1)) ⊠ (.c 2))⟩,
    ⟨2, 1, (((.c 0) ⊠ (.c 1)) ⊠ (.s 2)) ⊞ (((.c 0) ⊠ (.s 1)) ⊠ (.c 2))⟩,
    ⟨2, 2, .neg (.s 0)⟩,
    ⟨3, 0, ((((.k 207 3) ⊠ (.c 0)) ⊠ (.s 1)) ⊠ (.s 2)) ⊟ ((((.k 207 3) ⊠ (.c 0)) ⊠ (.c 1)) ⊠ (.c 2))⟩,
    ⟨3, 1, ((((.k 207 3) ⊠ (.c 0)) ⊠ (.c 1)) ⊠ (.s 2)) ⊞ ((((.k 207 3) ⊠ (.c 0)) ⊠ (.s 1)) ⊠ (.c 2))⟩,
    ⟨3, 2, ((((((.neg (.k 125 3)) ⊠ (.s 1)) ⊠ (.s 2)) ⊞ (((.k 125 3) ⊠ (.c 1)) ⊠ (.c 2))) ⊞ ((.k 35 2) ⊠ (.c 1))) ⊟ ((.k 207 3) ⊠ (.s 0))) ⊞ (.k 8 2)⟩,
    ⟨3, 3, ((.neg (.c 1)) ⊠ (.s 2)) ⊟ ((.s 1) ⊠ (.c 2))⟩,
    ⟨3, 4, ((.s 1) ⊠ (.s 2)) ⊟ ((.c 1) ⊠ (.c 2))⟩,
    ⟨4, 0, ((((((.neg (.k 3735 4)) ⊠ (.c 0)) ⊠ (.s 1)) ⊞ (((.k 8 2) ⊠ (.c 0)) ⊠ (.c 1))) ⊞ ((.k 35 2) ⊠ (.c 0))) ⊠ (.s 2)) ⊞ (((((.k 8 2) ⊠ (.c 0)) ⊠ (.s 1)) ⊞ (((.k 3735 4) ⊠ (.c 0)) ⊠ (.c 1))) ⊠ (.c 2))⟩,
    ⟨4, 1, ((((((.neg (.k 8 2)) ⊠ (.c 0)) ⊠ (.s 1)) ⊟ (((.k 3735 4) ⊠ (.c 0)) ⊠ (.c 1))) ⊠ (.s 2)) ⊞ ((((((.neg (.k 3735 4)) ⊠ (.c 0)) ⊠ (.s 1)) ⊞ (((.k 8 2) ⊠ (.c 0)) ⊠ (.c 1))) ⊞ ((.k 35 2) ⊠ (.c 0))) ⊠ (.c 2))) ⊞ ((.k 125 3) ⊠ (.c 0))⟩,
    ⟨4, 2, ((((((.neg (.k 125 3)) ⊠ (.s 0)) ⊠ (.c 1)) ⊠ (.s 2)) ⊟ ((((.k 125 3) ⊠ (.s 0)) ⊠ (.s 1)) ⊠ (.c 2))) ⊟ (((.k 35 2) ⊠ (.s 0)) ⊠ (.s 1))) ⊞ ((.k 3735 4) ⊠ (.s 0))⟩,
    ⟨4, 3, (((.s 0) ⊠ (.s 1)) ⊠ (.s 2)) ⊟ (((.s 0) ⊠ (.c 1)) ⊠ (.c 2))⟩,
    ⟨4, 4, (((.s 0) ⊠ (.c 1)) ⊠ (.s 2)) ⊞ (((.s 0) ⊠ (.s 1)) ⊠ (.c 2))⟩,
    ⟨4, 5, .c 0⟩,
    ⟨5, 0, ((((((.k 3735 4) ⊠ (.s 0)) ⊠ (.s 1)) ⊞ (((.k 207 3) ⊟ ((.k 8 2) ⊠ (.s 0))) ⊠ (.c 1))) ⊟ ((.k 35 2) ⊠ (.s 0))) ⊠ (.s 2)) ⊞ (((((.k 207 3) ⊟ ((.k 8 2) ⊠ (.s 0))) ⊠ (.s 1)) ⊟ (((.k 3735 4) ⊠ (.s 0)) ⊠ (.c 1))) ⊠ (.c 2))⟩,
    ⟨5, 1, (((((((.k 8 2) ⊠ (.s 0)) ⊟ (.k 207 3)) ⊠ (.s 1)) ⊞ (((.k 3735 4) ⊠ (.s 0)) ⊠ (.c 1))) ⊠ (.s 2)) ⊞ ((((((.k 3735 4) ⊠ (.s 0)) ⊠ (.s 1)) ⊞ (((.k 207 3) ⊟ ((.k 8 2) ⊠ (.s 0))) ⊠ (.c 1))) ⊟ ((.k 35 2) ⊠ (.s 0))) ⊠ (.c 2))) ⊟ ((.k 125 3) ⊠ (.s 0))⟩,
    ⟨5, 2, ((((((.neg (.k 125 3)) ⊠ (.c 0)) ⊠ (.c 1)) ⊠ (.s 2)) ⊟ ((((.k 125 3) ⊠ (.c 0)) ⊠ (.s 1)) ⊠ (.c 2))) ⊟ (((.k 35 2) ⊠ (.c 0)) ⊠ (.s 1))) ⊞ ((.k 3735 4) ⊠ (.c 0))⟩,
    ⟨5, 3, (((.c 0) ⊠ (.s 1)) ⊠ (.s 2)) ⊟ (((.c 0) ⊠ (.c 1)) ⊠ (.c 2))⟩,
    ⟨5, 4, (((.c 0) ⊠ (.c 1)) ⊠ (.s 2)) ⊞ (((.c 0) ⊠ (.s 1)) ⊠ (.c 2))⟩,
    ⟨5, 5, .neg (.s 0)⟩]

/-- `ForceTransforms::Type_fr_trunk_X_LF_lowerlegCOM` (transforms.impl.h:5954-5967, 5969-6010). -/
def force_fr_trunk_X_LF_lowerlegCOM : Gen where
  rows := 6
  cols := 6
  ctor := [⟨0, 2, .k 0 0⟩,
    ⟨3, 0, .k 0 0⟩,
    ⟨3, 1, .k 0 0⟩,
    ⟨3, 2, .k 0 0⟩,
    ⟨3, 5, .k 0 0⟩,
    ⟨4, 0, .k 0 0⟩,
    ⟨4, 1, .k 0 0⟩,
    ⟨4, 2, .k 0 0⟩,
    ⟨5, 0, .k 0 0⟩,
    ⟨5, 1, .k 0 0⟩,
    ⟨5, 2, .k 0 0⟩]
  upd := [⟨0, 0, ((.neg (.c 1)) ⊠ (.s 2)) ⊟ ((.s 1) ⊠ (.c 2))⟩,
    ⟨0, 1, ((.s 1) ⊠ (.s 2)) ⊟ ((.c 1) ⊠ (.c 2))⟩,
    ⟨0, 3, ((((.k 207 3) ⊠ (.c 0)) ⊠ (.s 1)) ⊠ (.s 2)) ⊟ ((((.k 207 3) ⊠ (.c 0)) ⊠ (.c 1)) ⊠ (.c 2))⟩,
    ⟨0, 4, ((((.k 207 3) ⊠ (.c 0)) ⊠ (.c 1)) ⊠ (.s 2)) ⊞ ((((.k 207 3) ⊠ (.c 0)) ⊠ (.s 1)) ⊠ (.c 2))⟩,
    ⟨0, 5, ((((((.neg (.k 125 3)) ⊠ (.s 1)) ⊠ (.s 2)) ⊞ (((.k 125 3) ⊠ (.c 1)) ⊠ (.c 2))) ⊞ ((.k 35 2) ⊠ (.c 1))) ⊟ ((.k 207 3) ⊠ (.s 0))) ⊞ (.k 8 2)⟩,
    ⟨1, 0, (((.s 0) ⊠ (.s 1)) ⊠ (.s 2)) ⊟ (((.s 0) ⊠ (.c 1)) ⊠ (.c 2))⟩,
    ⟨1, 1, (((.s 0) ⊠ (.c 1)) ⊠ (.s 2)) ⊞ (((.s 0) ⊠ (.s 1)) ⊠ (.c 2))⟩,
    ⟨1, 2, .c 0⟩,
    ⟨1, 3, ((((((.neg (.k 3735 4)) ⊠ (.c 0)) ⊠ (.s 1)) ⊞ (((.k 8 2) ⊠ (.c 0)) ⊠ (.c 1))) ⊞ ((.k 35 2) ⊠ (.c 0))) ⊠ (.s 2)) ⊞ (((((.k 8 2) ⊠ (.c 0)) ⊠ (.s 1)) ⊞ (((.k 3735 4) ⊠ (.c 0)) ⊠ (.c 1))) ⊠ (.c 2))⟩,
    ⟨1, 4, ((((((.neg (.k 8 2)) ⊠ (.c 0)) ⊠ (.s 1)) ⊟ (((.k 3735 4) ⊠ (.c 0)) ⊠ (.c 1))) ⊠ (.s 2)) ⊞ ((((((.neg (.k 3735 4)) ⊠ (.c 0)) ⊠ (.s 1)) ⊞ (((.k 8 2) ⊠ (.c 0)) ⊠ (.c 1))) ⊞ ((.k 35 2) ⊠ (.c 0))) ⊠ (.c 2))) ⊞ ((.k 125 3) ⊠ (.c 0))⟩,
    ⟨1, 5, ((((((.neg (.k 125 3)) ⊠ (.s 0)) ⊠ (.c 1)) ⊠ (.s 2)) ⊟ ((((.k 125 3) ⊠ (.s 0)) ⊠ (.s 1)) ⊠ (.c 2))) ⊟ (((.k 35 2) ⊠ (.s 0)) ⊠ (.s 1))) ⊞ ((.k 3735 4) ⊠ (.s 0))⟩,
    ⟨2, 0, (((.c 0) ⊠ (.s 1)) ⊠ (.s 2)) ⊟ (((.c 0) ⊠ (.c 1)) ⊠ (.c 2))⟩,
    ⟨2, 1, (((.c 0) ⊠ (.c 1)) ⊠ (.s 2)) ⊞ (((.c 0) ⊠ (.s 1)) ⊠ (.c 2))⟩,
    ⟨2, 2, .neg (.s 0)⟩,
    ⟨2, 3, ((((((.k 3735 4) ⊠ (.s 0)) ⊠ (.s 1)) ⊞ (((.k 207 3) ⊟ ((.k 8 2) ⊠ (.s 0))) ⊠ (.c 1))) ⊟ ((.k 35 2) ⊠ (.s 0))) ⊠ (.s 2)) ⊞ (((((.k 207 3) ⊟ ((.k 8 2) ⊠ (.s 0))) ⊠ (.s 1)) ⊟ (((.k 3735 4) ⊠ (.s 0)) ⊠ (.c 1))) ⊠ (.c 2))⟩,
    ⟨2, 4, (((((((.k 8 2) ⊠ (.s 0)) ⊟ (.k 207 3)) ⊠ (.s 1)) ⊞ (((.k 3735 4) ⊠ (.s 0)) ⊠ (.c 1))) ⊠ (.s 2)) ⊞ ((((((.k 3735 4) ⊠ (.s 0)) ⊠ (.s 1)) ⊞ (((.k 207 3) ⊟ ((.k 8 2) ⊠ (.s 0))) ⊠ (.c 1))) ⊟ ((.k 35 2) ⊠ (.s 0))) ⊠ (.c 2))) ⊟ ((.k 125 3) ⊠ (.s 0))⟩,
    ⟨2, 5, ((((((.neg (.k 125 3)) ⊠ (.c 0)) ⊠ (.c 1)) ⊠ (.s 2)) ⊟ ((((.k 125 3) ⊠ (.c 0)) ⊠ (.s 1)) ⊠ (.c 2))) ⊟ (((.k 35 2) ⊠ (.c 0)) ⊠ (.s 1))) ⊞ ((.k 3735 4) ⊠ (.c 0))⟩,
    ⟨3, 3, ((.neg (.c 1)) ⊠ (.s 2)) ⊟ ((.s 1) ⊠ (.c 2))⟩,
    ⟨3, 4, ((.s 1) ⊠ (.s 2)) ⊟ ((.c 1) ⊠ (.c 2))⟩,
    ⟨4, 3, (((.s 0) ⊠ (.s 1)) ⊠ (.s 2)) ⊟ (((.s 0) ⊠ (.c 1)) ⊠ (.c 2))⟩,
    ⟨4, 4, (((.s 0) ⊠ (.c 1)) ⊠ (.s 2)) ⊞ (((.s 0) ⊠ (.s 1)) ⊠ (.c 2))⟩,
    ⟨4, 5, .c 0⟩,
    ⟨5, 3, (((.c 0) ⊠ (.s 1)) ⊠ (.s 2)) ⊟ (((.c 0) ⊠ (.c 1)) ⊠ (.c 2))⟩,
    ⟨5, 4, (((.c 0) ⊠ (.c 1)) ⊠ (.s 2)) ⊞ (((.c 0) ⊠ (.s 1)) ⊠ (.c 2))⟩,
    ⟨5, 5, .neg (.s 0)⟩]

/-- The transforms `fr_trunk_X_LF_lowerlegCOM`. -/
def fr_trunk_X_LF_lowerlegCOM : Trans := ⟨fr_trunk, LF_lowerlegCOM, hom_fr_trunk_X_LF_lowerlegCOM, motion_fr_trunk_X_LF_lowerlegCOM, force_fr_trunk_X_LF_lowerlegCOM⟩

/-- `HomogeneousTransforms::Type_fr_trunk_X_RF_lowerlegCOM` (transforms.impl.h:9329-9336, 9338-9365). -/
def hom_fr_trunk_X_RF_lowerlegCOM : Gen where
  rows := 4
  cols := 4
  ctor := [⟨0, 2, .k 0 0⟩,
    ⟨3, 0, .k 0 0⟩,
    ⟨3, 1, .k 0 0⟩,
    ⟨3, 2, .k 0 0⟩,
    ⟨3, 3, .k 1 0⟩]
  upd := [⟨0, 0, ((.neg (.c 4)) ⊠ (.s 5)) ⊟ ((.s 4) ⊠ (.c 5))⟩,
    ⟨0, 1, ((.s 4) ⊠ (.s 5)) ⊟ ((.c 4) ⊠ (.c 5))⟩,
    ⟨0, 3, ((((((.k 1 3) ⊠ (.s 4)) ⊟ ((.k 125 3) ⊠ (.c 4))) ⊠ (.s 5)) ⊞ ((((.neg (.k 125 3)) ⊠ (.s 4)) ⊟ ((.k 1 3) ⊠ (.c 4))) ⊠ (.c 5))) ⊟ ((.k 35 2) ⊠ (.s 4))) ⊞ (.k 3735 4)⟩,
    ⟨1, 0, (((.s 3) ⊠ (.c 4)) ⊠ (.c 5)) ⊟ (((.s 3) ⊠ (.s 4)) ⊠ (.s 5))⟩,
    ⟨1, 1, (((.neg (.s 3)) ⊠ (.c 4)) ⊠ (.s 5)) ⊟ (((.s 3) ⊠ (.s 4)) ⊠ (.c 5))⟩,
    ⟨1, 2, .c 3⟩,
    ⟨1, 3, ((((((((.neg (.k 125 3)) ⊠ (.s 3)) ⊠ (.s 4)) ⊟ (((.k 1 3) ⊠ (.s 3)) ⊠ (.c 4))) ⊠ (.s 5)) ⊞ (((((.k 125 3) ⊠ (.s 3)) ⊠ (.c 4)) ⊟ (((.k 1 3) ⊠ (.s 3)) ⊠ (.s 4))) ⊠ (.c 5))) ⊞ (((.k 35 2) ⊠ (.s 3)) ⊠ (.c 4))) ⊞ ((.k 8 2) ⊠ (.s 3))) ⊟ (.k 207 3)⟩,
    ⟨2, 0, (((.c 3) ⊠ (.s 4)) ⊠ (.s 5)) ⊟ (((.c 3) ⊠ (.c 4)) ⊠ (.c 5))⟩,
    ⟨2, 1, (((.c 3) ⊠ (.c 4)) ⊠ (.s 5)) ⊞ (((.c 3) ⊠ (.s 4)) ⊠ (.c 5))⟩,
    ⟨2, 2, .s 3⟩,
    ⟨2, 3, (((((((.k 125 3) ⊠ (.c 3)) ⊠ (.s 4)) ⊞ (((.k 1 3) ⊠ (.c 3)) ⊠ (.c 4))) ⊠ (.s 5)) ⊞ (((((.k 1 3) ⊠ (.c 3)) ⊠ (.s 4)) ⊟ (((.k 125 3) ⊠ (.c 3)) ⊠ (.c 4))) ⊠ (.c 5))) ⊟ (((.k 35 2) ⊠ (.c 3)) ⊠ (.c 4))) ⊟ ((.k 8 2) ⊠ (.c 3))⟩]

/-- `MotionTransforms::Type_fr_trunk_X_RF_lowerlegCOM` (transforms.impl.h:2035-2048, 2050-2091). -/
def motion_fr_trunk_X_RF_lowerlegCOM : Gen where
  rows := 6
  cols := 6
  ctor := [⟨0, 2, .k 0 0⟩,
    ⟨0, 3, .k 0 0⟩,
    ⟨0, 4, .k 0 0⟩,
    ⟨0, 5, .k 0 0⟩,
    ⟨1, 3, .k 0 0⟩,
    ⟨1, 4, .k 0 0⟩,
    ⟨1, 5, .k 0 0⟩,
    ⟨2, 3, .k 0 0⟩,
    ⟨2, 4, .k 0 0⟩,
    ⟨2, 5, .k 0 0⟩,
    ⟨3, 5, .k 0 0⟩]
  upd := [⟨0, 0, ((.neg (.c 4)) ⊠ (.s 5)) ⊟ ((.s 4) ⊠ (.c 5))⟩,
    ⟨0, 1, ((.s 4) ⊠ (.s 5)) ⊟ ((.c 4) ⊠ (.c 5))⟩,
    ⟨1, 0, (((.s 3) ⊠ (.c 4)) ⊠ (.c 5)) ⊟ (((.s 3) ⊠ (.s 4)) ⊠ (.s 5))⟩,
    ⟨1, 1, (((.neg (.s 3)) ⊠ (.c 4)) ⊠ (.s 5)) ⊟ (((.s 3) ⊠ (.s 4)) ⊠ (.c 5))⟩,
    ⟨1, 2, .c 3⟩,
    ⟨2, 0, (((.c 3) ⊠ (.s 4)) ⊠ (.s 5)) ⊟ (((.c 3) ⊠ (.c 4)) ⊠ (.c 5))⟩,
    ⟨2, 1, (((.c 3) ⊠ (.c 4)) ⊠ (.s 5)) ⊞ (((.c 3) ⊠ (.s 4)) ⊠ (.c 5))⟩,
    ⟨2, 2, .s 3⟩,
    ⟨3, 0, ((((.k 207 3) ⊠ (.c 3)) ⊠ (.c 4)) ⊠ (.c 5)) ⊟ ((((.k 207 3) ⊠ (.c 3)) ⊠ (.s 4)) ⊠ (.s 5))⟩,
    ⟨3, 1, ((((.neg (.k 207 3)) ⊠ (.c 3)) ⊠ (.c 4)) ⊠ (.s 5)) ⊟ ((((.k 207 3) ⊠ (.c 3)) ⊠ (.s 4)) ⊠ (.c 5))⟩,
    ⟨3, 2, (((((((.neg (.k 125 3)) ⊠ (.s 4)) ⊟ ((.k 1 3) ⊠ (.c 4))) ⊠ (.s 5)) ⊞ ((((.k 125 3) ⊠ (.c 4)) ⊟ ((.k 1 3) ⊠ (.s 4))) ⊠ (.c 5))) ⊞ ((.k 35 2) ⊠ (.c 4))) ⊟ ((.k 207 3) ⊠ (.s 3))) ⊞ (.k 8 2)⟩,
    ⟨3, 3, ((.neg (.c 4)) ⊠ (.s 5)) ⊟ ((.s 4) ⊠ (.c 5))⟩,
    ⟨3, 4, ((.s 4) ⊠ (.s 5)) ⊟ ((.c 4) ⊠ (.c 5))⟩,
    ⟨4, 0, (((((((.neg (.k 3735 4)) ⊠ (.c 3)) ⊠ (.s 4)) ⊞ (((.k 8 2) ⊠ (.c 3)) ⊠ (.c 4))) ⊞ ((.k 35 2) ⊠ (.c 3))) ⊠ (.s 5)) ⊞ (((((.k 8 2) ⊠ (.c 3)) ⊠ (.s 4)) ⊞ (((.k 3735 4) ⊠ (.c 3)) ⊠ (.c 4))) ⊠ (.c 5))) ⊟ ((.k 1 3) ⊠ (.c 3))⟩,
    ⟨4, 1, ((((((.neg (.k 8 2)) ⊠ (.c 3)) ⊠ (.s 4)) ⊟ (((.k 3735 4) ⊠ (.c 3)) ⊠ (.c 4))) ⊠ (.s 5)) ⊞ ((((((.neg (.k 3735 4)) ⊠ (.c 3)) ⊠ (.s 4)) ⊞ (((.k 8 2) ⊠ (.c 3)) ⊠ (.c 4))) ⊞ ((.k 35 2) ⊠ (.c 3))) ⊠ (.c 5))) ⊞ ((.k 125 3) ⊠ (.c 3))⟩,
    ⟨4, 2, (((((((.k 125 3) ⊠ (.s 3)) ⊠ (.c 4)) ⊟ (((.k 1 3) ⊠ (.s 3)) ⊠ (.s 4))) ⊠ (.s 5)) ⊞ (((((.k 125 3) ⊠ (.s 3)) ⊠ (.s 4)) ⊞ (((.k 1 3) ⊠ (.s 3)) ⊠ (.c 4))) ⊠ (.c 5))) ⊞ (((.k 35 2) ⊠ (.s 3)) ⊠ (.s 4))) ⊟ ((.k 3735 4) ⊠ (.s 3))⟩,
    ⟨4, 3, (((.s 3) ⊠ (.c 4)) ⊠ (.c 5)) ⊟ (((.s 3) ⊠ (.s 4)) ⊠ (.s 5))⟩,
    ⟨4, 4, (((.neg (.s 3)) ⊠ (.c 4)) ⊠ (.s 5)) ⊟ (((.s 3) ⊠ (.s 4)) ⊠ (.c 5))⟩,
    ⟨4, 5, .c 3⟩,
    ⟨5, 0, (((((((.neg (.k 3735 4)) ⊠ (.s 3)) ⊠ (.s 4)) ⊞ ((((.k 8 2) ⊠ (.s 3)) ⊟ (.k 207 3)) ⊠ (.c 4))) ⊞ ((.k 35 2) ⊠ (.s 3))) ⊠ (.s 5)) ⊞ ((((((.k 8 2) ⊠ (.s 3)) ⊟ (.k 207 3)) ⊠ (.s 4)) ⊞ (((.k 3735 4) ⊠ (.s 3)) ⊠ (.c 4))) ⊠ (.c 5))) ⊟ ((.k 1 3) ⊠ (.s 3))⟩,
    ⟨5, 1, ((((((.k 207 3) ⊟ ((.k 8 2) ⊠ (.s 3))) ⊠ (.s 4)) ⊟ (((.k 3735 4) ⊠ (.s 3)) ⊠ (.c 4))) ⊠ (.s 5)) ⊞ ((((((.neg (.k 3735 4)) ⊠ (.s 3)) ⊠ (.s 4)) ⊞ ((((.k 8 2) ⊠ (.s 3)) ⊟ (.k 207 3)) ⊠ (.c 4))) ⊞ ((.k 35 2) ⊠ (.s 3))) ⊠ (.c 5))) ⊞ ((.k 125 3) ⊠ (.s 3))⟩,
    ⟨5, 2, (((((((.k 1 3) ⊠ (.c 3)) ⊠ (.s 4)) ⊟ (((.k 125 3) ⊠ (.c 3)) ⊠ (.c 4))) ⊠ (.s 5)) ⊞ (((((.neg (.k 125 3)) ⊠ (.c 3)) ⊠ (.s 4)) ⊟ (((.k 1 3) ⊠ (.c 3)) ⊠ (.c 4))) ⊠ (.c 5))) ⊟ (((.k 35 2) ⊠ (.c 3)) ⊠ (.s 4))) ⊞ ((.k 3735 4) ⊠ (.c 3))⟩,
    ⟨5, 3, (((.c 3) ⊠ (.s 4)) ⊠ (.s 5)) ⊟ (((.c 3) ⊠ (.c 4)) ⊠ (.c 5))⟩,
    ⟨5, 4, (((.c 3) ⊠ (.c 4)) ⊠ (.s 5)) ⊞ (((.c 3) ⊠ (.s 4)) ⊠ (.c 5))⟩,
    ⟨5, 5, .s 3⟩]

/-- `ForceTransforms::Type_fr_trunk_X_RF_lowerlegCOM` (transforms.impl.h:6012-6025, 6027-6068). -/
def force_fr_trunk_X_RF_lowerlegCOM : Gen where
  rows := 6
  cols := 6
  ctor := [⟨0, 2, .k 0 0⟩,
    ⟨3, 0, .k 0 0⟩,
    ⟨3, 1, .k 0 0⟩,
    ⟨3, 2, .k 0 0⟩,
    ⟨3, 5, .k 0 0⟩,
    ⟨4, 0, .k 0 0⟩,
    ⟨4, 1, .k 0 0⟩,
    ⟨4, 2, .k 0 0⟩,
    ⟨5, 0, .k 0 0⟩,
    ⟨5, 1, .k 0 0⟩,
    ⟨5, 2, .k 0 0⟩]
  upd := [⟨0, 0, ((.neg (.c 4)) ⊠ (.s 5)) ⊟ ((.s 4) ⊠ (.c 5))⟩,
    ⟨0, 1, ((.s 4) ⊠ (.s 5)) ⊟ ((.c 4) ⊠ (.c 5))⟩,
    ⟨0, 3, ((((.k 207 3) ⊠ (.c 3)) ⊠ (.c 4)) ⊠ (.c 5)) ⊟ ((((.k 207 3) ⊠ (.c 3)) ⊠ (.s 4)) ⊠ (.s 5))⟩,
    ⟨0, 4, ((((.neg (.k 207 3)) ⊠ (.c 3)) ⊠ (.c 4)) ⊠ (.s 5)) ⊟ ((((.k 207 3) ⊠ (.c 3)) ⊠ (.s 4)) ⊠ (.c 5))⟩,
    ⟨0, 5, (((((((.neg (.k 125 3)) ⊠ (.s 4)) ⊟ ((.k 1 3) ⊠ (.c 4))) ⊠ (.s 5)) ⊞ ((((.k 125 3) ⊠ (.c 4)) ⊟ ((.k 1 3) ⊠ (.s 4))) ⊠ (.c 5))) ⊞ ((.k 35 2) ⊠ (.c 4))) ⊟ ((.k 207 3) ⊠ (.s 3))) ⊞ (.k 8 2)⟩,
    ⟨1, 0, (((.s 3) ⊠ (.c 4)) ⊠ (.c 5)) ⊟ (((.s 3) ⊠ (.s 4)) ⊠ (.s 5))⟩,
    ⟨1, 1, (((.neg (.s 3)) ⊠ (.c 4)) ⊠ (.s 5)) ⊟ (((.s 3) ⊠ (.s 4)) ⊠ (.c 5))⟩,
    ⟨1, 2, .c 3⟩,
    ⟨1, 3, (((((((.neg (.k 3735 4)) ⊠ (.c 3)) ⊠ (.s 4)) ⊞ (((.k 8 2) ⊠ (.c 3)) ⊠ (.c 4))) ⊞ ((.k 35 2) ⊠ (.c 3))) ⊠ (.s 5)) ⊞ (((((.k 8 2) ⊠ (.c 3)) ⊠ (.s 4)) ⊞ (((.k 3735 4) ⊠ (.c 3)) ⊠ (.c 4))) ⊠ (.c 5))) ⊟ ((.k 1 3) ⊠ (.c 3))⟩,
    ⟨1, 4, ((((((.neg (.k 8 2)) ⊠ (.c 3)) ⊠ (.s 4)) ⊟ (((.k 3735 4) ⊠ (.c 3)) ⊠ (.c 4))) ⊠ (.s 5)) ⊞ ((((((.neg (.k 3735 4)) ⊠ (.c 3)) ⊠ (.s 4)) ⊞ (((.k 8 2) ⊠ (.c 3)) ⊠ (.c 4))) ⊞ ((.k 35 2) ⊠ (.c 3))) ⊠ (.c 5))) ⊞ ((.k 125 3) ⊠ (.c 3))⟩,
    ⟨1, 5, (((((((.k 125 3) ⊠ (.s 3)) ⊠ (.c 4)) ⊟ (((.k 1 3) ⊠ (.s 3)) ⊠ (.s 4))) ⊠ (.s 5)) ⊞ (((((.k 125 3) ⊠ (.s 3)) ⊠ (.s 4)) ⊞ (((.k 1 3) ⊠ (.s 3)) ⊠ (.c 4))) ⊠ (.c 5))) ⊞ (((.k 35 2) ⊠ (.s 3)) ⊠ (.s 4))) ⊟ ((.k 3735 4) ⊠ (.s 3))⟩,
    ⟨2, 0, (((.c 3) ⊠ (.s 4)) ⊠ (.s 5)) ⊟ (((.c 3) ⊠ (.c 4)) ⊠ (.c 5))⟩,
    ⟨2, 1, (((.c 3) ⊠ (.c 4)) ⊠ (.s 5)) ⊞ (((.c 3) ⊠ (.s 4)) ⊠ (.c 5))⟩,
    ⟨2, 2, .s 3⟩,
    ⟨2, 3, (((((((.neg (.k 3735 4)) ⊠ (.s 3)) ⊠ (.s 4)) ⊞ ((((.k 8 2) ⊠ (.s 3)) ⊟ (.k 207 3)) ⊠ (.c 4))) ⊞ ((.k 35 2) ⊠ (.s 3))) ⊠ (.s 5)) ⊞ ((((((.k 8 2) ⊠ (.s 3)) ⊟ (.k 207 3)) ⊠ (.s 4)) ⊞ (((.k 3735 4) ⊠ (.s 3)) ⊠ (.c 4))) ⊠ (.c 5))) ⊟ ((.k 1 3) ⊠ (.s 3))⟩,
    ⟨2, 4, ((((((.k 207 3) ⊟ ((.k 8 2) ⊠ (.s 3))) ⊠ (.s 4)) ⊟ (((.k 3735 4) ⊠ (.s 3)) ⊠ (.c 4))) ⊠ (.s 5)) ⊞ ((((((.neg (.k 3735 4)) ⊠ (.s 3)) ⊠ (.s 4)) ⊞ ((((.k 8 2) ⊠ (.s 3)) ⊟ (.k 207 3)) ⊠ (.c 4))) ⊞ ((.k 35 2) ⊠ (.s 3))) ⊠ (.c 5))) ⊞ ((.k 125 3) ⊠ (.s 3))⟩,
    ⟨2, 5, (((((((.k 1 3) ⊠ (.c 3)) ⊠ (.s 4)) ⊟ (((.k 125 3) ⊠ (.c 3)) ⊠ (.c 4))) ⊠ (.s 5)) ⊞ (((((.neg (.k 125 3)) ⊠ (.c 3)) ⊠ (.s 4)) ⊟ (((.k 1 3) ⊠ (.c 3)) ⊠ (.c 4))) ⊠ (.c 5))) ⊟ (((.k 35 2) ⊠ (.c 3)) ⊠ (.s 4))) ⊞ ((.k 3735 4) ⊠ (.c 3))⟩,
    ⟨3, 3, ((.neg (.c 4)) ⊠ (.s 5)) ⊟ ((.s 4) ⊠ (.c 5))⟩,
    ⟨3, 4, ((.s 4) ⊠ (.s 5)) ⊟ ((.c 4) ⊠ (.c 5))⟩,
    ⟨4, 3, (((.s 3) ⊠ (.c 4)) ⊠ (.c 5)) ⊟ (((.s 3) ⊠ (.s 4)) ⊠ (.s 5))⟩,
    ⟨4, 4, (((.neg (.s 3)) ⊠ (.c 4)) ⊠ (.s 5)) ⊟ (((.s 3) ⊠ (.s 4)) ⊠ (.c 5))⟩,
    ⟨4, 5, .c 3⟩,
    ⟨5, 3, (((.c 3) ⊠ (.s 4)) ⊠ (.s 5)) ⊟ (((.c 3) ⊠ (.c 4)) ⊠ (.c 5))⟩,
    ⟨5, 4, (((.c 3) ⊠ (.c 4)) ⊠ (.s 5)) ⊞ (((.c 3) ⊠ (.s 4)) ⊠ (.c 5))⟩,
    ⟨5, 5, .s 3⟩]

/-- The transforms `fr_trunk_X_RF_lowerlegCOM`. -/
def fr_trunk_X_RF_lowerlegCOM : Trans := ⟨fr_trunk, RF_lowerlegCOM, hom_fr_trunk_X_RF_lowerlegCOM, motion_fr_trunk_X_RF_lowerlegCOM, force_fr_trunk_X_RF_lowerlegCOM⟩

/-- `HomogeneousTransforms::Type_fr_trunk_X_LH_lowerlegCOM` (transforms.impl.h:9367-9374, 9376-9403). -/
def hom_fr_trunk_X_LH_lowerlegCOM : Gen where
  rows := 4
  cols := 4
  ctor := [⟨0, 2, .k 0 0⟩,
    ⟨3, 0, .k 0 0⟩,
    ⟨3, 1, .k 0 0⟩,
    ⟨3, 2, .k 0 0⟩,
    ⟨3, 3, .k 1 0⟩]
  upd := [⟨0, 0, ((.neg (.c 7)) ⊠ (.s 8)) ⊟ ((.s 7) ⊠ (.c 8))⟩,
    ⟨0, 1, ((.s 7) ⊠ (.s 8)) ⊟ ((.c 7) ⊠ (.c 8))⟩,
    ⟨0, 3, ((((((.neg (.k 1 3)) ⊠ (.s 7)) ⊟ ((.k 125 3) ⊠ (.c 7))) ⊠ (.s 8)) ⊞ ((((.k 1 3) ⊠ (.c 7)) ⊟ ((.k 125 3) ⊠ (.s 7))) ⊠ (.c 8))) ⊟ ((.k 35 2) ⊠ (.s 7))) ⊟ (.k 3735 4)⟩,
    ⟨1, 0, (((.s 6) ⊠ (.s 7)) ⊠ (.s 8)) ⊟ (((.s 6) ⊠ (.c 7)) ⊠ (.c 8))⟩,
    ⟨1, 1, (((.s 6) ⊠ (.c 7)) ⊠ (.s 8)) ⊞ (((.s 6) ⊠ (.s 7)) ⊠ (.c 8))⟩,
    ⟨1, 2, .c 6⟩,
    ⟨1, 3, ((((((((.k 125 3) ⊠ (.s 6)) ⊠ (.s 7)) ⊟ (((.k 1 3) ⊠ (.s 6)) ⊠ (.c 7))) ⊠ (.s 8)) ⊞ (((((.neg (.k 1 3)) ⊠ (.s 6)) ⊠ (.s 7)) ⊟ (((.k 125 3) ⊠ (.s 6)) ⊠ (.c 7))) ⊠ (.c 8))) ⊟ (((.k 35 2) ⊠ (.s 6)) ⊠ (.c 7))) ⊟ ((.k 8 2) ⊠ (.s 6))) ⊞ (.k 207 3)⟩,
    ⟨2, 0, (((.c 6) ⊠ (.s 7)) ⊠ (.s 8)) ⊟ (((.c 6) ⊠ (.c 7)) ⊠ (.c 8))⟩,
    ⟨2, 1, (((.c 6) ⊠ (.c 7)) ⊠ (.s 8)) ⊞ (((.c 6) ⊠ (.s 7)) ⊠ (.c 8))⟩,
    ⟨2, 2, .neg (.s 6)⟩,
    ⟨2, 3, (((((((.k 125 3) ⊠ (.c 6)) ⊠ (.s 7)) ⊟ (((.k 1 3) ⊠ (.c 6)) ⊠ (.c 7))) ⊠ (.s 8)) ⊞ (((((.neg (.k 1 3)) ⊠ (.c 6)) ⊠ (.s 7)) ⊟ (((.k 125 3) ⊠ (.c 6)) ⊠ (.c 7))) ⊠ (.c 8))) ⊟ (((.k 35 2) ⊠ (.c 6)) ⊠ (.c 7))) ⊟ ((.k 8 2) ⊠ (.c 6))⟩]

/-- `MotionTransforms::Type_fr_trunk_X_LH_lowerlegCOM` (transforms.impl.h:2093-2106, 2108-2149). -/
def motion_fr_trunk_X_LH_lowerlegCOM : Gen where
  rows := 6
  cols := 6
  ctor := [⟨0, 2, .k 0 0⟩,
    ⟨0, 3, .k 0 0⟩,
    ⟨0, 4, .k 0 0⟩,
    ⟨0, 5, .k 0 0⟩,
    ⟨1, 3, .k 0 0⟩,
    ⟨1, 4, .k 0 0⟩,
    ⟨1, 5, .k 0 0⟩,
    ⟨2, 3, .k 0 0⟩,
    ⟨2, 4, .k 0 0⟩,
    ⟨2, 5, .k 0 0⟩,
    ⟨3, 5, .k 0 0⟩]
  upd := [⟨0, 0, ((.neg (.c 7)) ⊠ (.s 8)) ⊟ ((.s 7) ⊠ (.c 8))⟩,
    ⟨0, 1, ((.s 7) ⊠ (.s 8)) ⊟ ((.c 7) ⊠ (.c 8))⟩,
    ⟨1, 0, (((.s 6) ⊠ (.s 7)) ⊠ (.s 8)) ⊟ (((.s 6) ⊠ (.c 7)) ⊠ (.c 8))⟩,
    ⟨1, 1, (((.s 6) ⊠ (.c 7)) ⊠ (.s 8)) ⊞ (((.s 6) ⊠ (.s 7)) ⊠ (.c 8))⟩,
    ⟨1, 2, .c 6⟩,
    ⟨2, 0, (((.c 6) ⊠ (.s 7)) ⊠ (.s 8)) ⊟ (((.c 6) ⊠ (.c 7)) ⊠ (.c 8))⟩,
    ⟨2, 1, (((.c 6) ⊠ (.c 7)) ⊠ (.s 8)) ⊞ (((.c 6) ⊠ (.s 7)) ⊠ (.c 8))⟩,
    ⟨2, 2, .neg (.s 6)⟩,
    ⟨3, 0, ((((.k 207 3) ⊠ (.c 6)) ⊠ (.s 7)) ⊠ (.s 8)) ⊟ ((((.k 207 3) ⊠ (.c 6)) ⊠ (.c 7)) ⊠ (.c 8))⟩,
    ⟨3, 1, ((((.k 207 3) ⊠ (.c 6)) ⊠ (.c 7)) ⊠ (.s 8)) ⊞ ((((.k 207 3) ⊠ (.c 6)) ⊠ (.s 7)) ⊠ (.c 8))⟩,
    ⟨3, 2, (((((((.k 1 3) ⊠ (.c 7)) ⊟ ((.k 125 3) ⊠ (.s 7))) ⊠ (.s 8)) ⊞ ((((.k 1 3) ⊠ (.s 7)) ⊞ ((.k 125 3) ⊠ (.c 7))) ⊠ (.c 8))) ⊞ ((.k 35 2) ⊠ (.c 7))) ⊟ ((.k 207 3) ⊠ (.s 6))) ⊞ (.k 8 2)⟩,
    ⟨3, 3, ((.neg (.c 7)) ⊠ (.s 8)) ⊟ ((.s 7) ⊠ (.c 8))⟩,
    ⟨3, 4, ((.s 7) ⊠ (.s 8)) ⊟ ((.c 7) ⊠ (.c 8))⟩,
    ⟨4, 0, (((((((.k 3735 4) ⊠ (.c 6)) ⊠ (.s 7)) ⊞ (((.k 8 2) ⊠ (.c 6)) ⊠ (.c 7))) ⊞ ((.k 35 2) ⊠ (.c 6))) ⊠ (.s 8)) ⊞ (((((.k 8 2) ⊠ (.c 6)) ⊠ (.s 7)) ⊟ (((.k 3735 4) ⊠ (.c 6)) ⊠ (.c 7))) ⊠ (.c 8))) ⊞ ((.k 1 3) ⊠ (.c 6))⟩,
    ⟨4, 1, ((((((.k 3735 4) ⊠ (.c 6)) ⊠ (.c 7)) ⊟ (((.k 8 2) ⊠ (.c 6)) ⊠ (.s 7))) ⊠ (.s 8)) ⊞ ((((((.k 3735 4) ⊠ (.c 6)) ⊠ (.s 7)) ⊞ (((.k 8 2) ⊠ (.c 6)) ⊠ (.c 7))) ⊞ ((.k 35 2) ⊠ (.c 6))) ⊠ (.c 8))) ⊞ ((.k 125 3) ⊠ (.c 6))⟩,
    ⟨4, 2, (((((((.neg (.k 1 3)) ⊠ (.s 6)) ⊠ (.s 7)) ⊟ (((.k 125 3) ⊠ (.s 6)) ⊠ (.c 7))) ⊠ (.s 8)) ⊞ (((((.k 1 3) ⊠ (.s 6)) ⊠ (.c 7)) ⊟ (((.k 125 3) ⊠ (.s 6)) ⊠ (.s 7))) ⊠ (.c 8))) ⊟ (((.k 35 2) ⊠ (.s 6)) ⊠ (.s 7))) ⊟ ((.k 3735 4) ⊠ (.s 6))⟩,
    ⟨4, 3, (((.s 6) ⊠ (.s 7)) ⊠ (.s 8)) ⊟ (((.s 6) ⊠ (.c 7)) ⊠ (.c 8))⟩,
    ⟨4, 4, (((.s 6) ⊠ (.c 7)) ⊠ (.s 8)) ⊞ (((.s 6) ⊠ (.s 7)) ⊠ (.c 8))⟩,
    ⟨4, 5, .c 6⟩,
    ⟨5, 0, (((((((.neg (.k 3735 4)) ⊠ (.s 6)) ⊠ (.s 7)) ⊞ (((.k 207 3) ⊟ ((.k 8 2) ⊠ (.s 6))) ⊠ (.c 7))) ⊟ ((.k 35 2) ⊠ (.s 6))) ⊠ (.s 8)) ⊞ (((((.k 207 3) ⊟ ((.k 8 2) ⊠ (.s 6))) ⊠ (.s 7)) ⊞ (((.k 3735 4) ⊠ (.s 6)) ⊠ (.c 7))) ⊠ (.c 8))) ⊟ ((.k 1 3) ⊠ (.s 6))⟩,
    ⟨5, 1, (((((((.k 8 2) ⊠ (.s 6)) ⊟ (.k 207 3)) ⊠ (.s 7)) ⊟ (((.k 3735 4) ⊠ (.s 6)) ⊠ (.c 7))) ⊠ (.s 8)) ⊞ ((((((.neg (.k 3735 4)) ⊠ (.s 6)) ⊠ (.s 7)) ⊞ (((.k 207 3) ⊟ ((.k 8 2) ⊠ (.s 6))) ⊠ (.c 7))) ⊟ ((.k 35 2) ⊠ (.s 6))) ⊠ (.c 8))) ⊟ ((.k 125 3) ⊠ (.s 6))⟩,
    ⟨5, 2, (((((((.neg (.k 1 3)) ⊠ (.c 6)) ⊠ (.s 7)) ⊟ (((.k 125 3) ⊠ (.c 6)) ⊠ (.c 7))) ⊠ (.s 8)) ⊞ (((((.k 1 3) ⊠ (.c 6)) ⊠ (.c 7)) ⊟ (((.k 125 3) ⊠ (.c 6)) ⊠ (.s 7))) ⊠ (.c 8))) ⊟ (((.k 35 2) ⊠ (.c 6)) ⊠ (.s 7))) ⊟ ((.k 3735 4) ⊠ (.c 6))⟩,
    ⟨5, 3, (((.c 6) ⊠ (.s 7)) ⊠ (.s 8)) ⊟ (((.c 6) ⊠ (.c 7)) ⊠ (.c 8))⟩,
    ⟨5, 4, (((.c 6) ⊠ (.c 7)) ⊠ (.s 8)) ⊞ (((.c 6) ⊠ (.s 7)) ⊠ (.c 8))⟩,
    ⟨5, 5, .neg (.s 6)⟩]

/-- `ForceTransforms::Type_fr_trunk_X_LH_lowerlegCOM` (transforms.impl.h:6070-6083, 6085-6126). -/
def force_fr_trunk_X_LH_lowerlegCOM : Gen where
  rows := 6
  cols := 6
  ctor := [⟨0, 2, .k 0 0⟩,
    ⟨3, 0, .k 0 0⟩,
    ⟨3, 1, .k 0 0⟩,
    ⟨3, 2, .k 0 0⟩,
    ⟨3, 5, .k 0 0⟩,
    ⟨4, 0, .k 0 0⟩,
    ⟨4, 1, .k 0 0⟩,
    ⟨4, 2, .k 0 0⟩,
    ⟨5, 0, .k 0 0⟩,
    ⟨5, 1, .k 0 0⟩,
    ⟨5, 2, .k 0 0⟩]
  upd := [⟨0, 0, ((.neg (.c 7)) ⊠ (.s 8)) ⊟ ((.s 7) ⊠ (.c 8))⟩,
    ⟨0, 1, ((.s 7) ⊠ (.s 8)) ⊟ ((.c 7) ⊠ (.c 8))⟩,
    ⟨0, 3, ((((.k 207 3) ⊠ (.c 6)) ⊠ (.s 7)) ⊠ (.s 8)) ⊟ ((((.k 207 3) ⊠ (.c 6)) ⊠ (.c 7)) ⊠ (.c 8))⟩,
    ⟨0, 4, ((((.k 207 3) ⊠ (.c 6)) ⊠ (.c 7)) ⊠ (.s 8)) ⊞ ((((.k 207 3) ⊠ (.c 6)) ⊠ (.s 7)) ⊠ (.c 8))⟩,
    ⟨0, 5, (((((((.k 1 3) ⊠ (.c 7)) ⊟ ((.k 125 3) ⊠ (.s 7))) ⊠ (.s 8)) ⊞ ((((.k 1 3) ⊠ (.s 7)) ⊞ ((.k 125 3) ⊠ (.c 7))) ⊠ (.c 8))) ⊞ ((.k 35 2) ⊠ (.c 7))) ⊟ ((.k 207 3) ⊠ (.s 6))) ⊞ (.k 8 2)⟩,
    ⟨1, 0, (((.s 6) ⊠ (.s 7)) ⊠ (.s 8)) ⊟ (((.s 6) ⊠ (.c 7)) ⊠ (.c 8))⟩,
    ⟨1, 1, (((.s 6) ⊠ (.c 7)) ⊠ (.s 8)) ⊞ (((.s 6) ⊠ (.s 7)) ⊠ (.c 8))⟩,
    ⟨1, 2, .c 6⟩,
    ⟨1, 3, (((((((.k 3735 4) ⊠ (.c 6)) ⊠ (.s 7)) ⊞ (((.k 8 2) ⊠ (.c 6)) ⊠ (.c 7))) ⊞ ((.k 35 2) ⊠ (.c 6))) ⊠ (.s 8)) ⊞ (((((.k 8 2) ⊠ (.c 6)) ⊠ (.s 7)) ⊟ (((.k 3735 4) ⊠ (.c 6)) ⊠ (.c 7))) ⊠ (.c 8))) ⊞ ((.k 1 3) ⊠ (.c 6))⟩,
    ⟨1, 4, ((((((.k 3735 4) ⊠ (.c 6)) ⊠ (.c 7)) ⊟ (((.k 8 2) ⊠ (.c 6)) ⊠ (.s 7))) ⊠ (.s 8)) ⊞ ((((((.k 3735 4) ⊠ (.c 6)) ⊠ (.s 7)) ⊞ (((.k 8 2) ⊠ (.c 6)) ⊠ (.c 7))) ⊞ ((.k 35 2) ⊠ (.c 6))) ⊠ (.c 8))) ⊞ ((.k 125 3) ⊠ (.c 6))⟩,
    ⟨1, 5, (((((((.neg (.k 1 3)) ⊠ (.s 6)) ⊠ (.s 7)) ⊟ (((.k 125 3) ⊠ (.s 6)) ⊠ (.c 7))) ⊠ (.s 8)) ⊞ (((((.k 1 3) ⊠ (.s 6)) ⊠ (.c 7)) ⊟ (((.k 125 3) ⊠ (.s 6)) ⊠ (.s 7))) ⊠ (.c 8))) ⊟ (((.k 35 2) ⊠ (.s 6)) ⊠ (.s 7))) ⊟ ((.k 3735 4) ⊠ (.s 6))⟩,
    ⟨2, 0, (((.c 6) ⊠ (.s 7)) ⊠ (.s 8)) ⊟ (((.c 6) ⊠ (.c 7)) ⊠ (.c 8))⟩,
    ⟨2, 1, (((.c 6) ⊠ (.c 7)) ⊠ (.s 8)) ⊞ (((.c 6) ⊠ (.s 7)) ⊠ (.c 8))⟩,
    ⟨2, 2, .neg (.s 6)⟩,
    ⟨2, 3, (((((((.neg (.k 3735 4)) ⊠ (.s 6)) ⊠ (.s 7)) ⊞ (((.k 207 3) ⊟ ((.k 8 2) ⊠ (.s 6))) ⊠ (.c 7))) ⊟ ((.k 35 2) ⊠ (.s 6))) ⊠ (.s 8)) ⊞ (((((.k 207 3) ⊟ ((.k 8 2) ⊠ (.s 6))) ⊠ (.s 7)) ⊞ (((.k 3735 4) ⊠ (.s 6)) ⊠ (.c 7))) ⊠ (.c 8))) ⊟ ((.k 1 3) ⊠ (.s 6))⟩,
    ⟨2, 4, (((((((.k 8 2) ⊠ (.s 6)) ⊟ (.k 207 3)) ⊠ (.s 7)) ⊟ (((.k 3735 4) ⊠ (.s 6)) ⊠ (.c 7))) ⊠ (.s 8)) ⊞ ((((((.neg (.k 3735 4)) ⊠ (.s 6)) ⊠ (.s 7)) ⊞ (((.k 207 3) ⊟ ((.k 8 2) ⊠ (.s 6))) ⊠ (.c 7))) ⊟ ((.k 35 2) ⊠ (.s 6))) ⊠ (.c 8))) ⊟ ((.k 125 3) ⊠ (.s 6))⟩,
    ⟨2, 5, (((((((.neg (.k 1 3)) ⊠ (.c 6)) ⊠ (.s 7)) ⊟ (((.k 125 3) ⊠ (.c 6)) ⊠ (.c 7))) ⊠ (.s 8)) ⊞ (((((.k 1 3) ⊠ (.c 6)) ⊠ (.c 7)) ⊟ (((.k 125 3) ⊠ (.c 6)) ⊠ (.s 7))) ⊠ (.c 8))) ⊟ (((.k 35 2) ⊠ (.c 6)) ⊠ (.s 7))) ⊟ ((.k 3735 4) ⊠ (.c 6))⟩,
    ⟨3, 3, ((.neg (.c 7)) ⊠ (.s 8)) ⊟ ((.s 7) ⊠ (.c 8))⟩,
    ⟨3, 4, ((.s 7) ⊠ (.s 8)) ⊟ ((.c 7) ⊠ (.c 8))⟩,
    ⟨4, 3, (((.s 6) ⊠ (.s 7)) ⊠ (.s 8)) ⊟ (((.s 6) ⊠ (.c 7)) ⊠ (.c 8))⟩,
    ⟨4, 4, (((.s 6) ⊠ (.c 7)) ⊠ (.s 8)) ⊞ (((.s 6) ⊠ (.s 7)) ⊠ (.c 8))⟩,
    ⟨4, 5, .c 6⟩,
    ⟨5, 3, (((.c 6) ⊠ (.s 7)) ⊠ (.s 8)) ⊟ (((.c 6) ⊠ (.c 7)) ⊠ (.c 8))⟩,
    ⟨5, 4, (((.c 6) ⊠ (.c 7)) ⊠ (.s 8)) ⊞ (((.c 6) ⊠ (.s 7)) ⊠ (.c 8))⟩,
    ⟨5, 5, .neg (.s 6)⟩]

/-- The transforms `fr_trunk_X_LH_lowerlegCOM`. -/
def fr_trunk_X_LH_lowerlegCOM : Trans := ⟨fr_trunk, LH_lowerlegCOM, hom_fr_trunk_X_LH_lowerlegCOM, motion_fr_trunk_X_LH_lowerlegCOM, force_fr_trunk_X_LH_lowerlegCOM⟩

/-- `HomogeneousTransforms::Type_fr_trunk_X_RH_lowerlegCOM` (transforms.impl.h:9405-9412, 9414-9441). -/
def hom_fr_trunk_X_RH_lowerlegCOM : Gen where
  rows := 4
  cols := 4
  ctor := [⟨0, 2, .k 0 0⟩,
    ⟨3, 0, .k 0 0⟩,
    ⟨3, 1, .k 0 0⟩,
    ⟨3, 2, .k 0 0⟩,
    ⟨3, 3, .k 1 0⟩]
  upd := [⟨0, 0, ((.neg (.c 10)) ⊠ (.s 11)) ⊟ ((.s 10) ⊠ (.c 11))⟩,
    ⟨0, 1, ((.s 10) ⊠ (.s 11)) ⊟ ((.c 10) ⊠ (.c 11))⟩,
    ⟨0, 3, ((((((.neg (.k 5 4)) ⊠ (.s 10)) ⊟ ((.k 1254 4) ⊠ (.c 10))) ⊠ (.s 11)) ⊞ ((((.k 5 4) ⊠ (.c 10)) ⊟ ((.k 1254 4) ⊠ (.s 10))) ⊠ (.c 11))) ⊟ ((.k 35 2) ⊠ (.s 10))) ⊟ (.k 3735 4)⟩,
    ⟨1, 0, (((.s 9) ⊠ (.c 10)) ⊠ (.c 11)) ⊟ (((.s 9) ⊠ (.s 10)) ⊠ (.s 11))⟩,
    ⟨1, 1, (((.neg (.s 9)) ⊠ (.c 10)) ⊠ (.s 11)) ⊟ (((.s 9) ⊠ (.s 10)) ⊠ (.c 11))⟩,
    ⟨1, 2, .c 9⟩,
    ⟨1, 3, ((((((((.k 5 4) ⊠ (.s 9)) ⊠ (.c 10)) ⊟ (((.k 1254 4) ⊠ (.s 9)) ⊠ (.s 10))) ⊠ (.s 11)) ⊞ (((((.k 5 4) ⊠ (.s 9)) ⊠ (.s 10)) ⊞ (((.k 1254 4) ⊠ (.s 9)) ⊠ (.c 10))) ⊠ (.c 11))) ⊞ (((.k 35 2) ⊠ (.s 9)) ⊠ (.c 10))) ⊞ ((.k 8 2) ⊠ (.s 9))) ⊟ (.k 207 3)⟩,
    ⟨2, 0, (((.c 9) ⊠ (.s 10)) ⊠ (.s 11)) ⊟ (((.c 9) ⊠ (.c 10)) ⊠ (.c 11))⟩,
    ⟨2, 1, (((.c 9) ⊠ (.c 10)) ⊠ (.s 11)) ⊞ (((.c 9) ⊠ (.s 10)) ⊠ (.c 11))⟩,
    ⟨2, 2, .s 9⟩,
    ⟨2, 3, (((((((.k 1254 4) ⊠ (.c 9)) ⊠ (.s 10)) ⊟ (((.k 5 4) ⊠ (.c 9)) ⊠ (.c 10))) ⊠ (.s 11)) ⊞ (((((.neg (.k 5 4)) ⊠ (.c 9)) ⊠ (.s 10)) ⊟ (((.k 1254 4) ⊠ (.c 9)) ⊠ (.c 10))) ⊠ (.c 11))) ⊟ (((.k 35 2) ⊠ (.c 9)) ⊠ (.c 10))) ⊟ ((.k 8 2) ⊠ (.c 9))⟩]

/-- `MotionTransforms::Type_fr_trunk_X_RH_lowerlegCOM` (transforms.impl.h:2151-2164, 2166-2207). -/
def motion_fr_trunk_X_RH_lowerlegCOM : Gen where
  rows := 6
  cols := 6
  ctor := [⟨0, 2, .k 0 0⟩,
    ⟨0, 3, .k 0 0⟩,
    ⟨0, 4, .k 0 0⟩,
    ⟨0, 5, .k 0 0⟩,
    ⟨1, 3, .k 0 0⟩,
    ⟨1, 4, .k 0 0⟩,
    ⟨1, 5, .k 0 0⟩,
    ⟨2, 3, .k 0 0⟩,
    ⟨2, 4, .k 0 0⟩,
    ⟨2, 5, .k 0 0⟩,
    ⟨3, 5, .k 0 0⟩]
  upd := [⟨0, 0, ((.neg (.c 10)) ⊠ (.s 11)) ⊟ ((.s 10) ⊠ (.c 11))⟩,
    ⟨0, 1, ((.s 10) ⊠ (.s 11)) ⊟ ((.c 10) ⊠ (.c 11))⟩,
    ⟨1, 0, (((.s 9) ⊠ (.c 10)) ⊠ (.c 11)) ⊟ (((.s 9) ⊠ (.s 10)) ⊠ (.s 11))⟩,
    ⟨1, 1, (((.neg (.s 9)) ⊠ (.c 10)) ⊠ (.s 11)) ⊟ (((.s 9) ⊠ (.s 10)) ⊠ (.c 11))⟩,
    ⟨1, 2, .c 9⟩,
    ⟨2, 0, (((.c 9) ⊠ (.s 10)) ⊠ (.s 11)) ⊟ (((.c 9) ⊠ (.c 10)) ⊠ (.c 11))⟩,
    ⟨2, 1, (((.c 9) ⊠ (.c 10)) ⊠ (.s 11)) ⊞ (((.c 9) ⊠ (.s 10)) ⊠ (.c 11))⟩,
    ⟨2, 2, .s 9⟩,
    ⟨3, 0, ((((.k 207 3) ⊠ (.c 9)) ⊠ (.c 10)) ⊠ (.c 11)) ⊟ ((((.k 207 3) ⊠ (.c 9)) ⊠ (.s 10)) ⊠ (.s 11))⟩,
    ⟨3, 1, ((((.neg (.k 207 3)) ⊠ (.c 9)) ⊠ (.c 10)) ⊠ (.s 11)) ⊟ ((((.k 207 3) ⊠ (.c 9)) ⊠ (.s 10)) ⊠ (.c 11))⟩,
    ⟨3, 2, (((((((.k 5 4) ⊠ (.c 10)) ⊟ ((.k 1254 4) ⊠ (.s 10))) ⊠ (.s 11)) ⊞ ((((.k 5 4) ⊠ (.s 10)) ⊞ ((.k 1254 4) ⊠ (.c 10))) ⊠ (.c 11))) ⊞ ((.k 35 2) ⊠ (.c 10))) ⊟ ((.k 207 3) ⊠ (.s 9))) ⊞ (.k 8 2)⟩,
    ⟨3, 3, ((.neg (.c 10)) ⊠ (.s 11)) ⊟ ((.s 10) ⊠ (.c 11))⟩,
    ⟨3, 4, ((.s 10) ⊠ (.s 11)) ⊟ ((.c 10) ⊠ (.c 11))⟩,
    ⟨4, 0, (((((((.k 3735 4) ⊠ (.c 9)) ⊠ (.s 10)) ⊞ (((.k 8 2) ⊠ (.c 9)) ⊠ (.c 10))) ⊞ ((.k 35 2) ⊠ (.c 9))) ⊠ (.s 11)) ⊞ (((((.k 8 2) ⊠ (.c 9)) ⊠ (.s 10)) ⊟ (((.k 3735 4) ⊠ (.c 9)) ⊠ (.c 10))) ⊠ (.c 11))) ⊞ ((.k 5 4) ⊠ (.c 9))⟩,
    ⟨4, 1, ((((((.k 3735 4) ⊠ (.c 9)) ⊠ (.c 10)) ⊟ (((.k 8 2) ⊠ (.c 9)) ⊠ (.s 10))) ⊠ (.s 11)) ⊞ ((((((.k 3735 4) ⊠ (.c 9)) ⊠ (.s 10)) ⊞ (((.k 8 2) ⊠ (.c 9)) ⊠ (.c 10))) ⊞ ((.k 35 2) ⊠ (.c 9))) ⊠ (.c 11))) ⊞ ((.k 1254 4) ⊠ (.c 9))⟩,
    ⟨4, 2, (((((((.k 5 4) ⊠ (.s 9)) ⊠ (.s 10)) ⊞ (((.k 1254 4) ⊠ (.s 9)) ⊠ (.c 10))) ⊠ (.s 11)) ⊞ (((((.k 1254 4) ⊠ (.s 9)) ⊠ (.s 10)) ⊟ (((.k 5 4) ⊠ (.s 9)) ⊠ (.c 10))) ⊠ (.c 11))) ⊞ (((.k 35 2) ⊠ (.s 9)) ⊠ (.s 10))) ⊞ ((.k 3735 4) ⊠ (.s 9))⟩,
    ⟨4, 3, (((.s 9) ⊠ (.c 10)) ⊠ (.c 11)) ⊟ (((.s 9) ⊠ (.s 10)) ⊠ (.s 11))⟩,
    ⟨4, 4, (((.neg (.s 9)) ⊠ (.c 10)) ⊠ (.s 11)) ⊟ (((.s 9) ⊠ (.s 10)) ⊠ (.c 11))⟩,
    ⟨4, 5, .c 9⟩,
    ⟨5, 0, (((((((.k 3735 4) ⊠ (.s 9)) ⊠ (.s 10)) ⊞ ((((.k 8 2) ⊠ (.s 9)) ⊟ (.k 207 3)) ⊠ (.c 10))) ⊞ ((.k 35 2) ⊠ (.s 9))) ⊠ (.s 11)) ⊞ ((((((.k 8 2) ⊠ (.s 9)) ⊟ (.k 207 3)) ⊠ (.s 10)) ⊟ (((.k 3735 4) ⊠ (.s 9)) ⊠ (.c 10))) ⊠ (.c 11))) ⊞ ((.k 5 4) ⊠ (.s 9))⟩,
    ⟨5, 1, ((((((.k 207 3) ⊟ ((.k 8 2) ⊠ (.s 9))) ⊠ (.s 10)) ⊞ (((.k 3735 4) ⊠ (.s 9)) ⊠ (.c 10))) ⊠ (.s 11)) ⊞ ((((((.k 3735 4) ⊠ (.s 9)) ⊠ (.s 10)) ⊞ ((((.k 8 2) ⊠ (.s 9)) ⊟ (.k 207 3)) ⊠ (.c 10))) ⊞ ((.k 35 2) ⊠ (.s 9))) ⊠ (.c 11))) ⊞ ((.k 1254 4) ⊠ (.s 9))⟩,
    ⟨5, 2, (((((((.neg (.k 5 4)) ⊠ (.c 9)) ⊠ (.s 10)) ⊟ (((.k 1254 4) ⊠ (.c 9)) ⊠ (.c 10))) ⊠ (.s 11)) ⊞ (((((.k 5 4) ⊠ (.c 9)) ⊠ (.c 10)) ⊟ (((.k 1254 4) ⊠ (.c 9)) ⊠ (.s 10))) ⊠ (.c 11))) ⊟ (((.k 35 2) ⊠ (.c 9)) ⊠ (.s 10))) ⊟ ((.k 3735 4) ⊠ (.c 9))⟩,
    ⟨5, 3, (((.c 9) ⊠ (.s 10)) ⊠ (.s 11)) ⊟ (((.c 9) ⊠ (.c 10)) ⊠ (.c 11))⟩,
    ⟨5, 4, (((.c 9) ⊠ (.c 10)) ⊠ (.s 11)) ⊞ (((.c 9) ⊠ (.s 10)) ⊠ (.c 11))⟩,
    ⟨5, 5, .s 9⟩]

/-- `ForceTransforms::Type_fr_trunk_X_RH_lowerlegCOM` (transforms.impl.h:6128-6141, 6143-6184). -/
def force_fr_trunk_X_RH_lowerlegCOM : Gen where
  rows := 6
  cols := 6
  ctor := [⟨0, 2, .k 0 0⟩,
    ⟨3, 0, .k 0 0⟩,
    ⟨3, 1, .k 0 0⟩,
    ⟨3, 2, .k 0 0⟩,
    ⟨3, 5, .k 0 0⟩,
    ⟨4, 0, .k 0 0⟩,
    ⟨4, 1, .k 0 0⟩,
    ⟨4, 2, .k 0 0⟩,
    ⟨5, 0, .k 0 0⟩,
    ⟨5, 1, .k 0 0⟩,
    ⟨5, 2, .k 0 0⟩]
  upd := [⟨0, 0, ((.neg (.c 10)) ⊠ (.s 11)) ⊟ ((.s 10) ⊠ (.c 11))⟩,
    ⟨0, 1, ((.s 10) ⊠ (.s 11)) ⊟ ((.c 10) ⊠ (.c 11))⟩,
    ⟨0, 3, ((((.k 207 3) ⊠ (.c 9)) ⊠ (.c 10)) ⊠ (.c 11)) ⊟ ((((.k 207 3) ⊠ (.c 9)) ⊠ (.s 10)) ⊠ (.s 11))⟩,
    ⟨0, 4, ((((.neg (.k 207 3)) ⊠ (.c 9)) ⊠ (.c 10)) ⊠ (.s 11)) ⊟ ((((.k 207 3) ⊠ (.c 9)) ⊠ (.s 10)) ⊠ (.c 11))⟩,
    ⟨0, 5, (((((((.k 5 4) ⊠ (.c 10)) ⊟ ((.k 1254 4) ⊠ (.s 10))) ⊠ (.s 11)) ⊞ ((((.k 5 4) ⊠ (.s 10)) ⊞ ((.k 1254 4) ⊠ (.c 10))) ⊠ (.c 11))) ⊞ ((.k 35 2) ⊠ (.c 10))) ⊟ ((.k 207 3) ⊠ (.s 9))) ⊞ (.k 8 2)⟩,
    ⟨1, 0, (((.s 9) ⊠ (.c 10)) ⊠ (.c 11)) ⊟ (((.s 9) ⊠ (.s 10)) ⊠ (.s 11))⟩,
    ⟨1, 1, (((.neg (.s 9)) ⊠ (.c 10)) ⊠ (.s 11)) ⊟ (((.s 9) ⊠ (.s 10)) ⊠ (.c 11))⟩,
    ⟨1, 2, .c 9⟩,
    ⟨1, 3, (((((((.k 3735 4) ⊠ (.c 9)) ⊠ (.s 10)) ⊞ (((.k 8 2) ⊠ (.c 9)) ⊠ (.c 10))) ⊞ ((.k 35 2) ⊠ (.c 9))) ⊠ (.s 11)) ⊞ (((((.k 8 2) ⊠ (.c 9)) ⊠ (.s 10)) ⊟ (((.k 3735 4) ⊠ (.c 9)) ⊠ (.c 10))) ⊠ (.c 11))) ⊞ ((.k 5 4) ⊠ (.c 9))⟩,
    ⟨1, 4, ((((((.k 3735 4) ⊠ (.c 9)) ⊠ (.c 10)) ⊟ (((.k 8 2) ⊠ (.c 9)) ⊠ (.s 10))) ⊠ (.s 11)) ⊞ ((((((.k 3735 4) ⊠ (.c 9)) ⊠ (.s 10)) ⊞ (((.k 8 2) ⊠ (.c 9)) ⊠ (.c 10))) ⊞ ((.k 35 2) ⊠ (.c 9))) ⊠ (.c 11))) ⊞ ((.k 1254 4) ⊠ (.c 9))⟩,
    ⟨1, 5, (((((((.k 5 4) ⊠ (.s 9)) ⊠ (.s 10)) ⊞ (((.k 1254 4) ⊠ (.s 9)) ⊠ (.c 10))) ⊠ (.s 11)) ⊞ (((((.k 1254 4) ⊠ (.s 9)) ⊠ (.s 10)) ⊟ (((.k 5 4) ⊠ (.s 9)) ⊠ (.c 10))) ⊠ (.c 11))) ⊞ (((.k 35 2) ⊠ (.s 9)) ⊠ (.s 10))) ⊞ ((.k 3735 4) ⊠ (.s 9))⟩,
    ⟨2, 0, (((.c 9) ⊠ (.s 10)) ⊠ (.s 11)) ⊟ (((.c 9) ⊠ (.c 10)) ⊠ (.c 11))⟩,
    ⟨2, 1, (((.c 9) ⊠ (.c 10)) ⊠ (.s 11)) ⊞ (((.c 9) ⊠ (.s 10)) ⊠ (.c 11))⟩,
    ⟨2, 2, .s 9⟩,
    ⟨2, 3, (((((((.k 3735 4) ⊠ (.s 9)) ⊠ (.s 10)) ⊞ ((((.k 8 2) ⊠ (.s 9)) ⊟ (.k 207 3)) ⊠ (.c 10))) ⊞ ((.k 35 2) ⊠ (.s 9))) ⊠ (.s 11)) ⊞ ((((((.k 8 2) ⊠ (.s 9)) ⊟ (.k 207 3)) ⊠ (.s 10)) ⊟ (((.k 3735 4) ⊠ (.s 9)) ⊠ (.c 10))) ⊠ (.c 11))) ⊞ ((.k 5 4) ⊠ (.s 9))⟩,
    ⟨2, 4, ((((((.k 207 3) ⊟ ((.k 8 2) ⊠ (.s 9))) ⊠ (.s 10)) ⊞ (((.k 3735 4) ⊠ (.s 9)) ⊠ (.c 10))) ⊠ (.s 11)) ⊞ ((((((.k 3735 4) ⊠ (.s 9)) ⊠ (.s 10)) ⊞ ((((.k 8 2) ⊠ (.s 9)) ⊟ (.k 207 3)) ⊠ (.c 10))) ⊞ ((.k 35 2) ⊠ (.s 9))) ⊠ (.c 11))) ⊞ ((.k 1254 4) ⊠ (.s 9))⟩,
    ⟨2, 5, (((((((.neg (.k 5 4)) ⊠ (.c 9)) ⊠ (.s 10)) ⊟ (((.k 1254 4) ⊠ (.c 9)) ⊠ (.c 10))) ⊠ (.s 11)) ⊞ (((((.k 5 4) ⊠ (.c 9)) ⊠ (.c 10)) ⊟ (((.k 1254 4) ⊠ (.c 9)) ⊠ (.s 10))) ⊠ (.c 11))) ⊟ (((.k 35 2) ⊠ (.c 9)) ⊠ (.s 10))) ⊟ ((.k 3735 4) ⊠ (.c 9))⟩,
    ⟨3, 3, ((.neg (.c 10)) ⊠ (.s 11)) ⊟ ((.s 10) ⊠ (.c 11))⟩,
    ⟨3, 4, ((.s 10) ⊠ (.s 11)) ⊟ ((.c 10) ⊠ (.c 11))⟩,
    ⟨4, 3, (((.s 9) ⊠ (.c 10)) ⊠ (.c 11)) ⊟ (((.s 9) ⊠ (.s 10)) ⊠ (.s 11))⟩,
    ⟨4, 4, (((.neg (.s 9)) ⊠ (.c 10)) ⊠ (.s 11)) ⊟ (((.s 9) ⊠ (.s 10)) ⊠ (.c 11))⟩,
    ⟨4, 5, .c 9⟩,
    ⟨5, 3, (((.c 9) ⊠ (.s 10)) ⊠ (.s 11)) ⊟ (((.c 9) ⊠ (.c 10)) ⊠ (.c 11))⟩,
    ⟨5, 4, (((.c 9) ⊠ (.c 10)) ⊠ (.s 11)) ⊞ (((.c 9) ⊠ (.s 10)) ⊠ (.c 11))⟩,
    ⟨5, 5, .s 9⟩]

/-- The transforms `fr_trunk_X_RH_lowerlegCOM`. -/
def fr_trunk_X_RH_lowerlegCOM : Trans := ⟨fr_trunk, RH_lowerlegCOM, hom_fr_trunk_X_RH_lowerlegCOM, motion_fr_trunk_X_RH_lowerlegCOM, force_fr_trunk_X_RH_lowerlegCOM⟩

/-- `HomogeneousTransforms::Type_fr_LF_foot_X_fr_LF_lowerleg` (transforms.impl.h:9443-9461, 9463-9465). -/
def hom_fr_LF_foot_X_fr_LF_lowerleg : Gen where
  rows := 4
  cols := 4
  ctor := [⟨0, 0, .k 1 0⟩,
    ⟨0, 1, .k 0 0⟩,
    ⟨0, 2, .k 0 0⟩,
    ⟨0, 3, .neg (.k 33 2)⟩,
    ⟨1, 0, .k 0 0⟩,
    ⟨1, 1, .k 1 0⟩,
    ⟨1, 2, .k 0 0⟩,
    ⟨1, 3, .k 0 0⟩,
    ⟨2, 0, .k 0 0⟩,
    ⟨2, 1, .k 0 0⟩,
    ⟨2, 2, .k 1 0⟩,
    ⟨2, 3, .k 0 0⟩,
    ⟨3, 0, .k 0 0⟩,
    ⟨3, 1, .k 0 0⟩,
    ⟨3, 2, .k 0 0⟩,
    ⟨3, 3, .k 1 0⟩]
  upd := []

/-- `MotionTransforms::Type_fr_LF_foot_X_fr_LF_lowerleg` (transforms.impl.h:2209-2247, 2249-2251). -/
def motion_fr_LF_foot_X_fr_LF_lowerleg : Gen where
  rows := 6
  cols := 6
  ctor := [⟨0, 0, .k 1 0⟩,
    ⟨0, 1, .k 0 0⟩,
    ⟨0, 2, .k 0 0⟩,
    ⟨0, 3, .k 0 0⟩,
    ⟨0, 4, .k 0 0⟩,
    ⟨0, 5, .k 0 0⟩,
    ⟨1, 0, .k 0 0⟩,
    ⟨1, 1, .k 1 0⟩,
    ⟨1, 2, .k 0 0⟩,
    ⟨1, 3, .k 0 0⟩,
    ⟨1, 4, .k 0 0⟩,
    ⟨1, 5, .k 0 0⟩,
    ⟨2, 0, .k 0 0⟩,
    ⟨2, 1, .k 0 0⟩,
    ⟨2, 2, .k 1 0⟩,
    ⟨2, 3, .k 0 0⟩,
    ⟨2, 4, .k 0 0⟩,
    ⟨2, 5, .k 0 0⟩,
    ⟨3, 0, .k 0 0⟩,
    ⟨3, 1, .k 0 0⟩,
    ⟨3, 2, .k 0 0⟩,
    ⟨3, 3, .k 1 0⟩,
    ⟨3, 4, .k 0 0⟩,
    ⟨3, 5, .k 0 0⟩,
    ⟨4, 0, .k 0 0⟩,
    ⟨4, 1, .k 0 0⟩,
    ⟨4, 2, .k 33 2⟩,
    ⟨4, 3, .k 0 0⟩,
    ⟨4, 4, .k 1 0⟩,
    ⟨4, 5, .k 0 0⟩,
    ⟨5, 0, .k 0 0⟩,
    ⟨5, 1, .neg (.k 33 2)⟩,
    ⟨5, 2, .k 0 0⟩,
    ⟨5, 3, .k 0 0⟩,
    ⟨5, 4, .k 0 0⟩,
    ⟨5, 5, .k 1 0⟩]
  upd := []

/-- `ForceTransforms::Type_fr_LF_foot_X_fr_LF_lowerleg` (transforms.impl.h:6186-6224, 6226-6228). -/
def force_fr_LF_foot_X_fr_LF_lowerleg : Gen where
  rows := 6
  cols := 6
  ctor := [⟨0, 0, .k 1 0⟩,
    ⟨0, 1, .k 0 0⟩,
    ⟨0, 2, .k 0 0⟩,
    ⟨0, 3, .k 0 0⟩,
    ⟨0, 4, .k 0 0⟩,
    ⟨0, 5, .k 0 0⟩,
    ⟨1, 0, .k 0 0⟩,
    ⟨1, 1, .k 1 0⟩,
    ⟨1, 2, .k 0 0⟩,
    ⟨1, 3, .k 0 0⟩,
    ⟨1, 4, .k 0 0⟩,
    ⟨1, 5, .k 33 2⟩,
    ⟨2, 0, .k 0 0⟩,
    ⟨2, 1, .k 0 0⟩,
    ⟨2, 2, .k 1 0⟩,
    ⟨2, 3, .k 0 0⟩,
    ⟨2, 4, .neg (.k 33 2)⟩,
    ⟨2, 5, .k 0 0⟩,
    ⟨3, 0, .k 0 0⟩,
    ⟨3, 1, .k 0 0⟩,
    ⟨3, 2, .k 0 0⟩,
    ⟨3, 3, .k 1 0⟩,
    ⟨3, 4, .k 0 0⟩,
    ⟨3, 5, .k 0 0⟩,
    ⟨4, 0, .k 0 0⟩,
    ⟨4, 1, .k 0 0⟩,
    ⟨4, 2, .k 0 0⟩,
    ⟨4, 3, .k 0 0⟩,
    ⟨4, 4, .k 1 0⟩,
    ⟨4, 5, .k 0 0⟩,
    ⟨5, 0, .k 0 0⟩,
    ⟨5, 1, .k 0 0⟩,
    ⟨5, 2, .k 0 0⟩,
    ⟨5, 3, .k 0 0⟩,
    ⟨5, 4, .k 0 0⟩,
    ⟨5, 5, .k 1 0⟩]
  upd := []

/-- The transforms `fr_LF_foot_X_fr_LF_lowerleg`. -/
def fr_LF_foot_X_fr_LF_lowerleg : Trans := ⟨fr_LF_foot, fr_LF_lowerleg, hom_fr_LF_foot_X_fr_LF_lowerleg, motion_fr_LF_foot_X_fr_LF_lowerleg, force_fr_LF_foot_X_fr_LF_lowerleg⟩

/-- `HomogeneousTransforms::Type_fr_RF_foot_X_fr_RF_lowerleg` (transforms.impl.h:9467-9485, 9487-9489). -/
def hom_fr_RF_foot_X_fr_RF_lowerleg : Gen where
  rows := 4
  cols := 4
  ctor := [⟨0, 0, .k 1 0⟩,
    ⟨0, 1, .k 0 0⟩,
    ⟨0, 2, .k 0 0⟩,
    ⟨0, 3, .neg (.k 33 2)⟩,
    ⟨1, 0, .k 0 0⟩,
    ⟨1, 1, .k 1 0⟩,
    ⟨1, 2, .k 0 0⟩,
    ⟨1, 3, .k 0 0⟩,
    ⟨2, 0, .k 0 0⟩,
    ⟨2, 1, .k 0 0⟩,
    ⟨2, 2, .k 1 0⟩,
    ⟨2, 3, .k 0 0⟩,
    ⟨3, 0, .k 0 0⟩,
    ⟨3, 1, .k 0 0⟩,
    ⟨3, 2, .k 0 0⟩,
    ⟨3, 3, .k 1 0⟩]
  upd := []

/-- `MotionTransforms::Type_fr_RF_foot_X_fr_RF_lowerleg` (transforms.impl.h:2253-2291, 2293-2295). -/
def motion_fr_RF_foot_X_fr_RF_lowerleg : Gen where
  rows := 6
  cols := 6
  ctor := [⟨0, 0, .k 1 0⟩,
    ⟨0, 1, .k 0 0⟩,
    ⟨0, 2, .k 0 0⟩,
    ⟨0, 3, .k 0 0⟩,
    ⟨0, 4, .k 0 0⟩,
    ⟨0, 5, .k 0 0⟩,
    ⟨1, 0, .k 0 0⟩,
    ⟨1, 1, .k 1 0⟩,
    ⟨1, 2, .k 0 0⟩,
    ⟨1, 3, .k 0 0⟩,
    ⟨1, 4, .k 0 0⟩,
    ⟨1, 5, .k 0 0⟩,
    ⟨2, 0, .k 0 0⟩,
    ⟨2, 1, .k 0 0⟩,
    ⟨2, 2, .k 1 0⟩,
    ⟨2, 3, .k 0 0⟩,
    ⟨2, 4, .k 0 0⟩,
    ⟨2, 5, .k 0 0⟩,
    ⟨3, 0, .k 0 0⟩,
    ⟨3, 1, .k 0 0⟩,
    ⟨3, 2, .k 0 0⟩,
    ⟨3, 3, .k 1 0⟩,
    ⟨3, 4, .k 0 0⟩,
    ⟨3, 5, .k 0 0⟩,
    ⟨4, 0, .k 0 0⟩,
    ⟨4, 1, .k 0 0⟩,
    ⟨4, 2, .k 33 2⟩,
    ⟨4, 3, .k 0 0⟩,
    ⟨4, 4, .k 1 0⟩,
    ⟨4, 5, .k 0 0⟩,
    ⟨5, 0, .k 0 0⟩,
    ⟨5, 1, .neg (.k 33 2)⟩,
    ⟨5, 2, .k 0 0⟩,
    ⟨5, 3, .k 0 0⟩,
    ⟨5, 4, .k 0 0⟩,
    ⟨5, 5, .k 1 0⟩]
  upd := []

/-- `ForceTransforms::Type_fr_RF_foot_X_fr_RF_lowerleg` (transforms.impl.h:6230-6268, 6270-6272). -/
def force_fr_RF_foot_X_fr_RF_lowerleg : Gen where
  rows := 6
  cols := 6
  ctor := [⟨0, 0, .k 1 0⟩,
    ⟨0, 1, .k 0 0⟩,
    ⟨0, 2, .k 0 0⟩,
    ⟨0, 3, .k 0 0⟩,
    ⟨0, 4, .k 0 0⟩,
    ⟨0, 5, .k 0 0⟩,
    ⟨1, 0, .k 0 0⟩,
    ⟨1, 1, .k 1 0⟩,
    ⟨1, 2, .k 0 0⟩,
    ⟨1, 3, .k 0 0⟩,
    ⟨1, 4, .k 0 0⟩,
    ⟨1, 5, .k 33 2⟩,
    ⟨2, 0, .k 0 0⟩,
    ⟨2, 1, .k 0 0⟩,
    ⟨2, 2, .k 1 0⟩,
    ⟨2, 3, .k 0 0⟩,
    ⟨2, 4, .neg (.k 33 2)⟩,
    ⟨2, 5, .k 0 0⟩,
    ⟨3, 0, .k 0 0⟩,
    ⟨3, 1, .k 0 0⟩,
    ⟨3, 2, .k 0 0⟩,
    ⟨3, 3, .k 1 0⟩,
    ⟨3, 4, .k 0 0⟩,
    ⟨3, 5, .k 0 0⟩,
    ⟨4, 0, .k 0 0⟩,
    ⟨4, 1, .k 0 0⟩,
    ⟨4, 2, .k 0 0⟩,
    ⟨4, 3, .k 0 0⟩,
    ⟨4, 4, .k 1 0⟩,
    ⟨4, 5, .k 0 0⟩,
    ⟨5, 0, .k 0 0⟩,
    ⟨5, 1, .k 0 0⟩,
    ⟨5, 2, .k 0 0⟩,
    ⟨5, 3, .k 0 0⟩,
    ⟨5, 4, .k 0 0⟩,
    ⟨5, 5, .k 1 0⟩]
  upd := []

/-- The transforms `fr_RF_foot_X_fr_RF_lowerleg`. -/
def fr_RF_foot_X_fr_RF_lowerleg : Trans := ⟨fr_RF_foot, fr_RF_lowerleg, hom_fr_RF_foot_X_fr_RF_lowerleg, motion_fr_RF_foot_X_fr_RF_lowerleg, force_fr_RF_foot_X_fr_RF_lowerleg⟩

/-- `HomogeneousTransforms::Type_fr_LH_foot_X_fr_LH_lowerleg` (transforms.impl.h:9491-9509, 9511-9513). -/
def hom_fr_LH_foot_X_fr_LH_lowerleg : Gen where
  rows := 4
  cols := 4
  ctor := [⟨0, 0, .k 1 0⟩,
    ⟨0, 1, .k 0 0⟩,
    ⟨0, 2, .k 0 0⟩,
    ⟨0, 3, .neg (.k 33 2)⟩,
    ⟨1, 0, .k 0 0⟩,
    ⟨1, 1, .k 1 0⟩,
    ⟨1, 2, .k 0 0⟩,
    ⟨1, 3, .k 0 0⟩,
    ⟨2, 0, .k 0 0⟩,
    ⟨2, 1, .k 0 0⟩,
    ⟨2, 2, .k 1 0⟩,
    ⟨2, 3, .k 0 0⟩,
    ⟨3, 0, .k 0 0⟩,
    ⟨3, 1, .k 0 0⟩,
    ⟨3, 2, .k 0 0⟩,
    ⟨3, 3, .k 1 0⟩]
  upd := []

/-- `MotionTransforms::Type_fr_LH_foot_X_fr_LH_lowerleg` (transforms.impl.h:2297-2335, 2337-2339). -/
def motion_fr_LH_foot_X_fr_LH_lowerleg : Gen where
  rows := 6
  cols := 6
  ctor := [⟨0, 0, .k 1 0⟩,
    ⟨0, 1, .k 0 0⟩,
    ⟨0, 2, .k 0 0⟩,
    ⟨0, 3, .k 0 0⟩,
    ⟨0, 4, .k 0 0⟩,
    ⟨0, 5, .k 0 0⟩,
    ⟨1, 0, .k 0 0⟩,
    ⟨1, 1, .k 1 0⟩,
    ⟨1, 2, .k 0 0⟩,
    ⟨1, 3, .k 0 0⟩,
    ⟨1, 4, .k 0 0⟩,
    ⟨1, 5, .k 0 0⟩,
    ⟨2, 0, .k 0 0⟩,
    ⟨2, 1, .k 0 0⟩,
    ⟨2, 2, .k 1 0⟩,
    ⟨2, 3, .k 0 0⟩,
    ⟨2, 4, .k 0 0⟩,
    ⟨2, 5, .k 0 0⟩,
    ⟨3, 0, .k 0 0⟩,
    ⟨3, 1, .k 0 0⟩,
    ⟨3, 2, .k 0 0⟩,
    ⟨3, 3, .k 1 0⟩,
    ⟨3, 4, .k 0 0⟩,
    ⟨3, 5, .k 0 0⟩,
    ⟨4, 0, .k 0 0⟩,
    ⟨4, 1, .k 0 0⟩,
    ⟨4, 2, .k 33 2⟩,
    ⟨4, 3, .k 0 0⟩,
    ⟨4, 4, .k 1 0⟩,
    ⟨4, 5, .k 0 0⟩,
    ⟨5, 0, .k 0 0⟩,
    ⟨5, 1, .neg (.k 33 2)⟩,
    ⟨5, 2, .k 0 0⟩,
    ⟨5, 3, .k 0 0⟩,
    ⟨5, 4, .k 0 0⟩,
    ⟨5, 5, .k 1 0⟩]
  upd := []

/-- `ForceTransforms::Type_fr_LH_foot_X_fr_LH_lowerleg` (transforms.impl.h:6274-6312, 6314-6316). -/
def force_fr_LH_foot_X_fr_LH_lowerleg : Gen where
  rows := 6
  cols := 6
  ctor := [⟨0, 0, .k 1 0⟩,
    ⟨0, 1, .k 0 0⟩,
    ⟨0, 2, .k 0 0⟩,
    ⟨0, 3, .k 0 0⟩,
    ⟨0, 4, .k 0 0⟩,
    ⟨0, 5, .k 0 0⟩,
    ⟨1, 0, .k 0 0⟩,
    ⟨1, 1, .k 1 0⟩,
    ⟨1, 2, .k 0 0⟩,
    ⟨1, 3, .k 0 0⟩,
    ⟨1, 4, .k 0 0⟩,
    ⟨1, 5, .k 33 2⟩,
    ⟨2, 0, .k 0 0⟩,
    ⟨2, 1, .k 0 0⟩,
    ⟨2, 2, .k 1 0⟩,
    ⟨2, 3, .k 0 0⟩,
    ⟨2, 4, .neg (.k 33 2)⟩,
    ⟨2, 5, .k 0 0⟩,
    ⟨3, 0, .k 0 0⟩,
    ⟨3, 1, .k 0 0⟩,
    ⟨3, 2, .k 0 0⟩,
    ⟨3, 3, .k 1 0⟩,
    ⟨3, 4, .k 0 0⟩,
    ⟨3, 5, .k 0 0⟩,
    ⟨4, 0, .k 0 0⟩,
    ⟨4, 1, .k 0 0⟩,
    ⟨4, 2, .k 0 0⟩,
    ⟨4, 3, .k 0 0⟩,
    ⟨4, 4, .k 1 0⟩,
    ⟨4, 5, .k 0 0⟩,
    ⟨5, 0, .k 0 0⟩,
    ⟨5, 1, .k 0 0⟩,
    ⟨5, 2, .k 0 0⟩,
    ⟨5, 3, .k 0 0⟩,
    ⟨5, 4, .k 0 0⟩,
    ⟨5, 5, .k 1 0⟩]
  upd := []

/-- The transforms `fr_LH_foot_X_fr_LH_lowerleg`. -/
def fr_LH_foot_X_fr_LH_lowerleg : Trans := ⟨fr_LH_foot, fr_LH_lowerleg, hom_fr_LH_foot_X_fr_LH_lowerleg, motion_fr_LH_foot_X_fr_LH_lowerleg, force_fr_LH_foot_X_fr_LH_lowerleg⟩

/-- `HomogeneousTransforms::Type_fr_RH_foot_X_fr_RH_lowerleg` (transforms.impl.h:9515-9533, 9535-9537). -/
def hom_fr_RH_foot_X_fr_RH_lowerleg : Gen where
  rows := 4
  cols := 4
  ctor := [⟨0, 0, .k 1 0⟩,
    ⟨0, 1, .k 0 0⟩,
    ⟨0, 2, .k 0 0⟩,
    ⟨0, 3, .neg (.k 33 2)⟩,
    ⟨1, 0, .k 0 0⟩,
    ⟨1, 1, .k 1 0⟩,
    ⟨1, 2, .k 0 0⟩,
    ⟨1, 3, .k 0 0⟩,
    ⟨2, 0, .k 0 0⟩,
    ⟨2, 1, .k 0 0⟩,
    ⟨2, 2, .k 1 0⟩,
    ⟨2, 3, .k 0 0⟩,
    ⟨3, 0, .k 0 0⟩,
    ⟨3, 1, .k 0 0⟩,
    ⟨3, 2, .k 0 0⟩,
    ⟨3, 3, .k 1 0⟩]
  upd := []

/-- `MotionTransforms::Type_fr_RH_foot_X_fr_RH_lowerleg` (transforms.impl.h:2341-2379, 2381-2383). -/
def motion_fr_RH_foot_X_fr_RH_lowerleg : Gen where
  rows := 6
  cols := 6
  ctor := [⟨0, 0, .k 1 0⟩,
    ⟨0, 1, .k 0 0⟩,
    ⟨0, 2, .k 0 0⟩,
    ⟨0, 3, .k 0 0⟩,
    ⟨0, 4, .k 0 0⟩,
    ⟨0, 5, .k 0 0⟩,
    ⟨1, 0, .k 0 0⟩,
    ⟨1, 1, .k 1 0⟩,
    ⟨1, 2, .k 0 0⟩,
    ⟨1, 3, .k 0 0⟩,
    ⟨1, 4, .k 0 0⟩,
    ⟨1, 5, .k 0 0⟩,
    ⟨2, 0, .k 0 0⟩,
    ⟨2, 1, .k 0 0⟩,
    ⟨2, 2, .k 1 0⟩,
    ⟨2, 3, .k 0 0⟩,
    ⟨2, 4, .k 0 0⟩,
    ⟨2, 5, .k 0 0⟩,
    ⟨3, 0, .k 0 0⟩,
    ⟨3, 1, .k 0 0⟩,
    ⟨3, 2, .k 0 0⟩,
    ⟨3, 3, .k 1 0⟩,
    ⟨3, 4, .k 0 0⟩,
    ⟨3, 5, .k 0 0⟩,
    ⟨4, 0, .k 0 0⟩,
    ⟨4, 1, .k 0 0⟩,
    ⟨4, 2, .k 33 2⟩,
    ⟨4, 3, .k 0 0⟩,
    ⟨4, 4, .k 1 0⟩,
    ⟨4, 5, .k 0 0⟩,
    ⟨5, 0, .k 0 0⟩,
    ⟨5, 1, .neg (.k 33 2)⟩,
    ⟨5, 2, .k 0 0⟩,
    ⟨5, 3, .k 0 0⟩,
    ⟨5, 4, .k 0 0⟩,
    ⟨5, 5, .k 1 0⟩]
  upd := []

/-- `ForceTransforms::Type_fr_RH_foot_X_fr_RH_lowerleg` (transforms.impl.h:6318-6356, 6358-6360). -/
def force_fr_RH_foot_X_fr_RH_lowerleg : Gen where
  rows := 6
  cols := 6
  ctor := [⟨0, 0, .k 1 0⟩,
    ⟨0, 1, .k 0 0⟩,
    ⟨0, 2, .k 0 0⟩,
    ⟨0, 3, .k 0 0⟩,
    ⟨0, 4, .k 0 0⟩,
    ⟨0, 5, .k 0 0⟩,
    ⟨1, 0, .k 0 0⟩,
    ⟨1, 1, .k 1 0⟩,
    ⟨1, 2, .k 0 0⟩,
    ⟨1, 3, .k 0 0⟩,
    ⟨1, 4, .k 0 0⟩,
    ⟨1, 5, .k 33 2⟩,
    ⟨2, 0, .k 0 0⟩,
    ⟨2, 1, .k 0 0⟩,
    ⟨2, 2, .k 1 0⟩,
    ⟨2, 3, .k 0 0⟩,
    ⟨2, 4, .neg (.k 33 2)⟩,
    ⟨2, 5, .k 0 0⟩,
    ⟨3, 0, .k 0 0⟩,
    ⟨3, 1, .k 0 0⟩,
    ⟨3, 2, .k 0 0⟩,
    ⟨3, 3, .k 1 0⟩,
    ⟨3, 4, .k 0 0⟩,
    ⟨3, 5, .k 0 0⟩,
    ⟨4, 0, .k 0 0⟩,
    ⟨4, 1, .k 0 0⟩,
    ⟨4, 2, .k 0 0⟩,
    ⟨4, 3, .k 0 0⟩,
    ⟨4, 4, .k 1 0⟩,
    ⟨4, 5, .k 0 0⟩,
    ⟨5, 0, .k 0 0⟩,
    ⟨5, 1, .k 0 0⟩,
    ⟨5, 2, .k 0 0⟩,
    ⟨5, 3, .k 0 0⟩,
    ⟨5, 4, .k 0 0⟩,
    ⟨5, 5, .k 1 0⟩]
  upd := []

/-- The transforms `fr_RH_foot_X_fr_RH_lowerleg`. -/
def fr_RH_foot_X_fr_RH_lowerleg : Trans := ⟨fr_RH_foot, fr_RH_lowerleg, hom_fr_RH_foot_X_fr_RH_lowerleg, motion_fr_RH_foot_X_fr_RH_lowerleg, force_fr_RH_foot_X_fr_RH_lowerleg⟩

/-- `HomogeneousTransforms::Type_fr_trunk_X_fr_LF_foot` (transforms.impl.h:9539-9546, 9548-9575). -/
def hom_fr_trunk_X_fr_LF_foot : Gen where
  rows := 4
  cols := 4
  ctor := [⟨0, 2, .k 0 0⟩,
    ⟨3, 0, .k 0 0⟩,
    ⟨3, 1, .k 0 0⟩,
    ⟨3, 2, .k 0 0⟩,
    ⟨3, 3, .k 1 0⟩]
  upd := [⟨0, 0, ((.neg (.c 1)) ⊠ (.s 2)) ⊟ ((.s 1) ⊠ (.c 2))⟩,
    ⟨0, 1, ((.s 1) ⊠ (.s 2)) ⊟ ((.c 1) ⊠ (.c 2))⟩,
    ⟨0, 3, (((((.neg (.k 33 2)) ⊠ (.c 1)) ⊠ (.s 2)) ⊟ (((.k 33 2) ⊠ (.s 1)) ⊠ (.c 2))) ⊟ ((.k 35 2) ⊠ (.s 1))) ⊞ (.k 3735 4)⟩,
    ⟨1, 0, (((.s 0) ⊠ (.s 1)) ⊠ (.s 2)) ⊟ (((.s 0) ⊠ (.c 1)) ⊠ (.c 2))⟩,
    ⟨1, 1, (((.s 0) ⊠ (.c 1)) ⊠ (.s 2)) ⊞ (((.s 0) ⊠ (.s 1)) ⊠ (.c 2))⟩,
    ⟨1, 2, .c 0⟩,
    ⟨1, 3, (((((((.k 33 2) ⊠ (.s 0)) ⊠ (.s 1)) ⊠ (.s 2)) ⊟ ((((.k 33 2) ⊠ (.s 0)) ⊠ (.c 1)) ⊠ (.c 2))) ⊟ (((.k 35 2) ⊠ (.s 0)) ⊠ (.c 1))) ⊟ ((.k 8 2) ⊠ (.s 0))) ⊞ (.k 207 3)⟩,
    ⟨2, 0, (((.c 0) ⊠ (.s 1)) ⊠ (.s 2)) ⊟ (((.c 0) ⊠ (.c 1)) ⊠ (.c 2))⟩,
    ⟨2, 1, (((.c 0) ⊠ (.c 1)) ⊠ (.s 2)) ⊞ (((.c 0) ⊠ (.s 1)) ⊠ (.c 2))⟩,
    ⟨2, 2, .neg (.s 0)⟩,
    ⟨2, 3, ((((((.k 33 2) ⊠ (.c 0)) ⊠ (.s 1)) ⊠ (.s 2)) ⊟ ((((.k 33 2) ⊠ (.c 0)) ⊠ (.c 1)) ⊠ (.c 2))) ⊟ (((.k 35 2) ⊠ (.c 0)) ⊠ (.c 1))) ⊟ ((.k 8 2) ⊠ (.c 0))⟩]

/-- `MotionTransforms::Type_fr_trunk_X_fr_LF_foot` (transforms.impl.h:2385-2398, 2400-2441). -/
def motion_fr_trunk_X_fr_LF_foot : Gen where
  rows := 6
  cols := 6
  ctor := [⟨0, 2, .k 0 0⟩,
    ⟨0, 3, .k 0 0⟩,
    ⟨0, 4, .k 0 0⟩,
    ⟨0, 5, .k 0 0⟩,
    ⟨1, 3, .k 0 0⟩,
    ⟨1, 4, .k 0 0⟩,
    ⟨1, 5, .k 0 0⟩,
    ⟨2, 3, .k 0 0⟩,
    ⟨2, 4, .k 0 0⟩,
    ⟨2, 5, .k 0 0⟩,
    ⟨3, 5, .k 0 0⟩]
  upd := [⟨0, 0, ((.neg (.c 1)) ⊠ (.s 2)) ⊟ ((.s 1) ⊠ (.c 2))⟩,
    ⟨0, 1, ((.s 1) ⊠ (.s 2)) ⊟ ((.c 1) ⊠ (.c 2))⟩,
    ⟨1, 0, (((.s 0) ⊠ (.s 1)) ⊠ (.s 2)) ⊟ (((.s 0) ⊠ (.c 1)) ⊠ (.c 2))⟩,
    ⟨1, 1, (((.s 0) ⊠ (.c 1)) ⊠ (.s 2)) ⊞ (((.s 0) ⊠ (.s 1)) ⊠ (.c 2))⟩,
    ⟨1, 2, .c 0⟩,
    ⟨2, 0, (((.c 0) ⊠ (.s 1)) ⊠ (.s 2)) ⊟ (((.c 0) ⊠ (.c 1)) ⊠ (.c 2))⟩,
    ⟨2, 1, (((.c 0) ⊠ (.c 1)) ⊠ (.s 2)) ⊞ (((.c 0) ⊠ (.s 1)) ⊠ (.c 2))⟩,
    ⟨2, 2, .neg (.s 0)⟩,
    ⟨3, 0, ((((.k 207 3) ⊠ (.c 0)) ⊠ (.s 1)) ⊠ (.s 2)) ⊟ ((((.k 207 3) ⊠ (.c 0)) ⊠ (.c 1)) ⊠ (.c 2))⟩,
    ⟨3, 1, ((((.k 207 3) ⊠ (.c 0)) ⊠ (.c 1)) ⊠ (.s 2)) ⊞ ((((.k 207 3) ⊠ (.c 0)) ⊠ (.s 1)) ⊠ (.c 2))⟩,
    ⟨3, 2, ((((((.neg (.k 33 2)) ⊠ (.s 1)) ⊠ (.s 2)) ⊞ (((.k 33 2) ⊠ (.c 1)) ⊠ (.c 2))) ⊞ ((.k 35 2) ⊠ (.c 1))) ⊟ ((.k 207 3) ⊠ (.s 0))) ⊞ (.k 8 2)⟩,
    ⟨3, 3, ((.neg (.c 1)) ⊠ (.s 2)) ⊟ ((.s 1) ⊠ (.c 2))⟩,
    ⟨3, 4, ((.s 1) ⊠ (.s 2)) ⊟ ((.c 1) ⊠ (.c 2))⟩,
    ⟨4, 0, ((((((.neg (.k 3735 4)) ⊠ (.c 0)) ⊠ (.s 1)) ⊞ (((.k 8 2) ⊠ (.c 0)) ⊠ (.c 1))) ⊞ ((.k 35 2) ⊠ (.c 0))) ⊠ (.s 2)) ⊞ (((((.k 8 2) ⊠ (.c 0)) ⊠ (.s 1)) ⊞ (((.k 3735 4) ⊠ (.c 0)) ⊠ (.c 1))) ⊠ (.c 2))⟩,
    ⟨4, 1, ((((((.neg (.k 8 2)) ⊠ (.c 0)) ⊠ (.s 1)) ⊟ (((.k 3735 4) ⊠ (.c 0)) ⊠ (.c 1))) ⊠ (.s 2)) ⊞ ((((((.neg (.k 3735 4)) ⊠ (.c 0)) ⊠ (.s 1)) ⊞ (((.k 8 2) ⊠ (.c 0)) ⊠ (.c 1))) ⊞ ((.k 35 2) ⊠ (.c 0))) ⊠ (.c 2))) ⊞ ((.k 33 2) ⊠ (.c 0))⟩,
    ⟨4, 2, ((((((.neg (.k 33 2)) ⊠ (.s 0)) ⊠ (.c 1)) ⊠ (.s 2)) ⊟ ((((.k 33 2) ⊠ (.s 0)) ⊠ (.s 1)) ⊠ (.c 2))) ⊟ (((.k 35 2) ⊠ (.s 0)) ⊠ (.s 1))) ⊞ ((.k 3735 4) ⊠ (.s 0))⟩,
    ⟨4, 3, (((.s 0) ⊠ (.s 1)) ⊠ (.s 2)) ⊟ (((.s 0) ⊠ (.c 1)) ⊠ (.c 2))⟩,
    ⟨4, 4, (((.s 0) ⊠ (.c 1)) ⊠ (.s 2)) ⊞ (((.s 0) ⊠ (.s 1)) ⊠ (.c 2))⟩,
    ⟨4, 5, .c 0⟩,
    ⟨5, 0, ((((((.k 3735 4) ⊠ (.s 0)) ⊠ (.s 1)) ⊞ (((.k 207 3) ⊟ ((.k 8 2) ⊠ (.s 0))) ⊠ (.c 1))) ⊟ ((.k 35 2) ⊠ (.s 0))) ⊠ (.s 2)) ⊞ (((((.k 207 3) ⊟ ((.k 8 2) ⊠ (.s 0))) ⊠ (.s 1)) ⊟ (((.k 3735 4) ⊠ (.s 0)) ⊠ (.c 1))) ⊠ (.c 2))⟩,
    ⟨5, 1, (((((((.k 8 2) ⊠ (.s 0)) ⊟ (.k 207 3)) ⊠ (.s 1)) ⊞ (((.k 3735 4) ⊠ (.s 0)) ⊠ (.c 1))) ⊠ (.s 2)) ⊞ ((((((.k 3735 4) ⊠ (.s 0)) ⊠ (.s 1)) ⊞ (((.k 207 3) ⊟ ((.k 8 2) ⊠ (.s 0))) ⊠ (.c 1))) ⊟ ((.k 35 2) ⊠ (.s 0))) ⊠ (.c 2))) ⊟ ((.k 33 2) ⊠ (.s 0))⟩,
    ⟨5, 2, ((((((.neg (.k 33 2)) ⊠ (.c 0)) ⊠ (.c 1)) ⊠ (.s 2)) ⊟ ((((.k 33 2) ⊠ (.c 0)) ⊠ (.s 1)) ⊠ (.c 2))) ⊟ (((.k 35 2) ⊠ (.c 0)) ⊠ (.s 1))) ⊞ ((.k 3735 4) ⊠ (.c 0))⟩,
    ⟨5, 3, (((.c 0) ⊠ (.s 1)) ⊠ (.s 2)) ⊟ (((.c 0) ⊠ (.c 1)) ⊠ (.c 2))⟩,
    ⟨5, 4, (((.c 0) ⊠ (.c 1)) ⊠ (.s 2)) ⊞ (((.c 0) ⊠ (.s 1)) ⊠ (.c 2))⟩,
    ⟨5, 5, .neg (.s 0)⟩]

/-- `ForceTransforms::Type_fr_trunk_X_fr_LF_foot` (transforms.impl.h:6362-6375, 6377-6418). -/
def force_fr_trunk_X_fr_LF_foot : Gen where
  rows := 6
  cols := 6
  ctor := [⟨0, 2, .k 0 0⟩,
    ⟨3, 0, .k 0 0⟩,
    ⟨3, 1, .k 0 0⟩,
    ⟨3, 2, .k 0 0⟩,
    ⟨3, 5, .k 0 0⟩,
    ⟨4, 0, .k 0 0⟩,
    ⟨4, 1, .k 0 0⟩,
    ⟨4, 2, .k 0 0⟩,
    ⟨5, 0, .k 0 0⟩,
    ⟨5, 1, .k 0 0⟩,
    ⟨5, 2, .k 0 0⟩]
  upd := [⟨0, 0, ((.neg (.c 1)) ⊠ (.s 2)) ⊟ ((.s 1) ⊠ (.c 2))⟩,
    ⟨0, 1, ((.s 1) ⊠ (.s 2)) ⊟ ((.c 1) ⊠ (.c 2))⟩,
    ⟨0, 3, ((((.k 207 3) ⊠ (.c 0)) ⊠ (.s 1)) ⊠ (.s 2)) ⊟ ((((.k 207 3) ⊠ (.c 0)) ⊠ (.c 1)) ⊠ (.c 2))⟩,
    ⟨0, 4, ((((.k 207 3) ⊠ (.c 0)) ⊠ (.c 1)) ⊠ (.s 2)) ⊞ ((((.k 207 3) ⊠ (.c 0)) ⊠ (.s 1)) ⊠ (.c 2))⟩,
    ⟨0, 5, ((((((.neg (.k 33 2)) ⊠ (.s 1)) ⊠ (.s 2)) ⊞ (((.k 33 2) ⊠ (.c 1)) ⊠ (.c 2))) ⊞ ((.k 35 2) ⊠ (.c 1))) ⊟ ((.k 207 3) ⊠ (.s 0))) ⊞ (.k 8 2)⟩,
    ⟨1, 0, (((.s 0) ⊠ (.s 1)) ⊠ (.s 2)) ⊟ (((.s 0) ⊠ (.c 1)) ⊠ (.c 2))⟩,
    ⟨1, 1, (((.s 0) ⊠ (.c 1)) ⊠ (.s 2)) ⊞ (((.s 0) ⊠ (.s 1)) ⊠ (.c 2))⟩,
    ⟨1, 2, .c 0⟩,
    ⟨1, 3, ((((((.neg (.k 3735 4)) ⊠ (.c 0)) ⊠ (.s 1)) ⊞ (((.k 8 2) ⊠ (.c 0)) ⊠ (.c 1))) ⊞ ((.k 35 2) ⊠ (.c 0))) ⊠ (.s 2)) ⊞ (((((.k 8 2) ⊠ (.c 0)) ⊠ (.s 1)) ⊞ (((.k 3735 4) ⊠ (.c 0)) ⊠ (.c 1))) ⊠ (.c 2))⟩,
    ⟨1, 4, ((((((.neg (.k 8 2)) ⊠ (.c 0)) ⊠ (.s 1)) ⊟ (((.k 3735 4) ⊠ (.c 0)) ⊠ (.c 1))) ⊠ (.s 2)) ⊞ ((((((.neg (.k 3735 4)) ⊠ (.c 0)) ⊠ (.s 1)) ⊞ (((.k 8 2) ⊠ (.c 0)) ⊠ (.c 1))) ⊞ ((.k 35 2) ⊠ (.c 0))) ⊠ (.c 2))) ⊞ ((.k 33 2) ⊠ (.c 0))⟩,
    ⟨1, 5, ((((((.neg (.k 33 2)) ⊠ (.s 0)) ⊠ (.c 1)) ⊠ (.s 2)) ⊟ ((((.k 33 2) ⊠ (.s 0)) ⊠ (.s 1)) ⊠ (.c 2))) ⊟ (((.k 35 2) ⊠ (.s 0)) ⊠ (.s 1))) ⊞ ((.k 3735 4) ⊠ (.s 0))⟩,
    ⟨2, 0, (((.c 0) ⊠ (.s 1)) ⊠ (.s 2)) ⊟ (((.c 0) ⊠ (.c 1)) ⊠ (.c 2))⟩,
    ⟨2, 1, (((.c 0) ⊠ (.c 1)) ⊠ (.s 2)) ⊞ (((.c 0) ⊠ (.s 1)) ⊠ (.c 2))⟩,
    ⟨2, 2, .neg (.s 0)⟩,
    ⟨2, 3, ((((((.k 3735 4) ⊠ (.s 0)) ⊠ (.s 1)) ⊞ (((.k 207 3) ⊟ ((.k 8 2) ⊠ (.s 0))) ⊠ (.c 1))) ⊟ ((.k 35 2) ⊠ (.s 0))) ⊠ (.s 2)) ⊞ (((((.k 207 3) ⊟ ((.k 8 2) ⊠ (.s 0))) ⊠ (.s 1)) ⊟ (((.k 3735 4) ⊠ (.s 0)) ⊠ (.c 1))) ⊠ (.c 2))⟩,
    ⟨2, 4, (((((((.k 8 2) ⊠ (.s 0)) ⊟ (.k 207 3)) ⊠ (.s 1)) ⊞ (((.k 3735 4) ⊠ (.s 0)) ⊠ (.c 1))) ⊠ (.s 2)) ⊞ ((((((.k 3735 4) ⊠ (.s 0)) ⊠ (.s 1)) ⊞ (((.k 207 3) ⊟ ((.k 8 2) ⊠ (.s 0))) ⊠ (.c 1))) ⊟ ((.k 35 2) ⊠ (.s 0))) ⊠ (.c 2))) ⊟ ((.k 33 2) ⊠ (.s 0))⟩,
    ⟨2, 5, ((((((.neg (.k 33 2)) ⊠ (.c 0)) ⊠ (.c 1)) ⊠ (.s 2)) ⊟ ((((.k 33 2) ⊠ (.c 0)) ⊠ (.s 1)) ⊠ (.c 2))) ⊟ (((.k 35 2) ⊠ (.c 0)) ⊠ (.s 1))) ⊞ ((.k 3735 4) ⊠ (.c 0))⟩,
    ⟨3, 3, ((.neg (.c 1)) ⊠ (.s 2)) ⊟ ((.s 1) ⊠ (.c 2))⟩,
    ⟨3, 4, ((.s 1) ⊠ (.s 2)) ⊟ ((.c 1) ⊠ (.c 2))⟩,
    ⟨4, 3, (((.s 0) ⊠ (.s 1)) ⊠ (.s 2)) ⊟ (((.s 0) ⊠ (.c 1)) ⊠ (.c 2))⟩,
    ⟨4, 4, (((.s 0) ⊠ (.c 1)) ⊠ (.s 2)) ⊞ (((.s 0) ⊠ (.s 1)) ⊠ (.c 2))⟩,
    ⟨4, 5, .c 0⟩,
    ⟨5, 3, (((.c 0) ⊠ (.s 1)) ⊠ (.s 2)) ⊟ (((.c 0) ⊠ (.c 1)) ⊠ (.c 2))⟩,
    ⟨5, 4, (((.c 0) ⊠ (.c 1)) ⊠ (.s 2)) ⊞ (((.c 0) ⊠ (.s 1)) ⊠ (.c 2))⟩,
    ⟨5, 5, .neg (.s 0)⟩]

/-- The transforms `fr_trunk_X_fr_LF_foot`. -/
def fr_trunk_X_fr_LF_foot : Trans := ⟨fr_trunk, fr_LF_foot, hom_fr_trunk_X_fr_LF_foot, motion_fr_trunk_X_fr_LF_foot, force_fr_trunk_X_fr_LF_foot⟩

/-- `HomogeneousTransforms::Type_fr_trunk_X_fr_RF_foot` (transforms.impl.h:9577-9584, 9586-9613). -/
def hom_fr_trunk_X_fr_RF_foot : Gen where
  rows := 4
  cols := 4
  ctor := [⟨0, 2, .k 0 0⟩,
    ⟨3, 0, .k 0 0⟩,
    ⟨3, 1, .k 0 0⟩,
    ⟨3, 2, .k 0 0⟩,
    ⟨3, 3, .k 1 0⟩]
  upd := [⟨0, 0, ((.neg (.c 4)) ⊠ (.s 5)) ⊟ ((.s 4) ⊠ (.c 5))⟩,
    ⟨0, 1, ((.s 4) ⊠ (.s 5)) ⊟ ((.c 4) ⊠ (.c 5))⟩,
    ⟨0, 3, (((((.neg (.k 33 2)) ⊠ (.c 4)) ⊠ (.s 5)) ⊟ (((.k 33 2) ⊠ (.s 4)) ⊠ (.c 5))) ⊟ ((.k 35 2) ⊠ (.s 4))) ⊞ (.k 3735 4)⟩,
    ⟨1, 0, (((.s 3) ⊠ (.c 4)) ⊠ (.c 5)) ⊟ (((.s 3) ⊠ (.s 4)) ⊠ (.s 5))⟩,
    ⟨1, 1, (((.neg (.s 3)) ⊠ (.c 4)) ⊠ (.s 5)) ⊟ (((.s 3) ⊠ (.s 4)) ⊠ (.c 5))⟩,
    ⟨1, 2, .c 3⟩,
    ⟨1, 3, (((((((.neg (.k 33 2)) ⊠ (.s 3)) ⊠ (.s 4)) ⊠ (.s 5)) ⊞ ((((.k 33 2) ⊠ (.s 3)) ⊠ (.c 4)) ⊠ (.c 5))) ⊞ (((.k 35 2) ⊠ (.s 3)) ⊠ (.c 4))) ⊞ ((.k 8 2) ⊠ (.s 3))) ⊟ (.k 207 3)⟩,
    ⟨2, 0, (((.c 3) ⊠ (.s 4)) ⊠ (.s 5)) ⊟ (((.c 3) ⊠ (.c 4)) ⊠ (.c 5))⟩,
    ⟨2, 1, (((.c 3) ⊠ (.c 4)) ⊠ (.s 5)) ⊞ (((.c 3) ⊠ (.s 4)) ⊠ (.c 5))⟩,
    ⟨2, 2, .s 3⟩,
    ⟨2, 3, ((((((.k 33 2) ⊠ (.c 3)) ⊠ (.s 4)) ⊠ (.s 5)) ⊟ ((((.k 33 2) ⊠ (.c 3)) ⊠ (.c 4)) ⊠ (.c 5))) ⊟ (((.k 35 2) ⊠ (.c 3)) ⊠ (.c 4))) ⊟ ((.k 8 2) ⊠ (.c 3))⟩]

/-- `MotionTransforms::Type_fr_trunk_X_fr_RF_foot` (transforms.impl.h:2443-2456, 2458-2499). -/
def motion_fr_trunk_X_fr_RF_foot : Gen where
  rows := 6
  cols := 6
  ctor := [⟨0, 2, .k 0 0⟩,
    ⟨0, 3, .k 0 0⟩,
    ⟨0, 4, .k 0 0⟩,
    ⟨0, 5, .k 0 0⟩,
    ⟨1, 3, .k 0 0⟩,
    ⟨1, 4, .k 0 0⟩,
    ⟨1, 5, .k 0 0⟩,
    ⟨2, 3, .k 0 0⟩,
    ⟨2, 4, .k 0 0⟩,
    ⟨2, 5, .k 0 0⟩,
    ⟨3, 5, .k 0 0⟩]
  upd := [⟨0, 0, ((.neg (.c 4)) ⊠ (.s 5)) ⊟ ((.s 4) ⊠ (.c 5))⟩,
    ⟨0, 1, ((.s 4) ⊠ (.s 5)) ⊟ ((.c 4) ⊠ (.c 5))⟩,
    ⟨1, 0, (((.s 3) ⊠ (.c 4)) ⊠ (.c 5)) ⊟ (((.s 3) ⊠ (.s 4)) ⊠ (.s 5))⟩,
    ⟨1, 1, (((.neg (.s 3)) ⊠ (.c 4)) ⊠ (.s 5)) ⊟ (((.s 3) ⊠ (.s 4)) ⊠ (.c 5))⟩,
    ⟨1, 2, .c 3⟩,
    ⟨2, 0, (((.c 3) ⊠ (.s 4)) ⊠ (.s 5)) ⊟ (((.c 3) ⊠ (.c 4)) ⊠ (.c 5))⟩,
    ⟨2, 1, (((.c 3) ⊠ (.c 4)) ⊠ (.s 5)) ⊞ (((.c 3) ⊠ (.s 4)) ⊠ (.c 5))⟩,
    ⟨2, 2, .s 3⟩,
    ⟨3, 0, ((((.k 207 3) ⊠ (.c 3)) ⊠ (.c 4)) ⊠ (.c 5)) ⊟ ((((.k 207 3) ⊠ (.c 3)) ⊠ (.s 4)) ⊠ (.s 5))⟩,
    ⟨3, 1, ((((.neg (.k 207 3)) ⊠ (.c 3)) ⊠ (.c 4)) ⊠ (.s 5)) ⊟ ((((.k 207 3) ⊠ (.c 3)) ⊠ (.s 4)) ⊠ (.c 5))⟩,
    ⟨3, 2, ((((((.neg (.k 33 2)) ⊠ (.s 4)) ⊠ (.s 5)) ⊞ (((.k 33 2) ⊠ (.c 4)) ⊠ (.c 5))) ⊞ ((.k 35 2) ⊠ (.c 4))) ⊟ ((.k 207 3) ⊠ (.s 3))) ⊞ (.k 8 2)⟩,
    ⟨3, 3, ((.neg (.c 4)) ⊠ (.s 5)) ⊟ ((.s 4) ⊠ (.c 5))⟩,
    ⟨3, 4, ((.s 4) ⊠ (.s 5)) ⊟ ((.c 4) ⊠ (.c 5))⟩,
    ⟨4, 0, ((((((.neg (.k 3735 4)) ⊠ (.c 3)) ⊠ (.s 4)) ⊞ (((.k 8 2) ⊠ (.c 3)) ⊠ (.c 4))) ⊞ ((.k 35 2) ⊠ (.c 3))) ⊠ (.s 5)) ⊞ (((((.k 8 2) ⊠ (.c 3)) ⊠ (.s 4)) ⊞ (((.k 3735 4) ⊠ (.c 3)) ⊠ (.c 4))) ⊠ (.c 5))⟩,
    ⟨4, 1, ((((((.neg (.k 8 2)) ⊠ (.c 3)) ⊠ (.s 4)) ⊟ (((.k 3735 4) ⊠ (.c 3)) ⊠ (.c 4))) ⊠ (.s 5)) ⊞ ((((((.neg (.k 3735 4)) ⊠ (.c 3)) ⊠ (.s 4)) ⊞ (((.k 8 2) ⊠ (.c 3)) ⊠ (.c 4))) ⊞ ((.k 35 2) ⊠ (.c 3))) ⊠ (.c 5))) ⊞ ((.k 33 2) ⊠ (.c 3))⟩,
    ⟨4, 2, ((((((.k 33 2) ⊠ (.s 3)) ⊠ (.c 4)) ⊠ (.s 5)) ⊞ ((((.k 33 2) ⊠ (.s 3)) ⊠ (.s 4)) ⊠ (.c 5))) ⊞ (((.k 35 2) ⊠ (.s 3)) ⊠ (.s 4))) ⊟ ((.k 3735 4) ⊠ (.s 3))⟩,
    ⟨4, 3, (((.s 3) ⊠ (.c 4)) ⊠ (.c 5)) ⊟ (((.s 3) ⊠ (.s 4)) ⊠ (.s 5))⟩,
    ⟨4, 4, (((.neg (.s 3)) ⊠ (.c 4)) ⊠ (.s 5)) ⊟ (((.s 3) ⊠ (.s 4)) ⊠ (.c 5))⟩,
    ⟨4, 5, .c 3⟩,
    ⟨5, 0, ((((((.neg (.k 3735 4)) ⊠ (.s 3)) ⊠ (.s 4)) ⊞ ((((.k 8 2) ⊠ (.s 3)) ⊟ (.k 207 3)) ⊠ (.c 4))) ⊞ ((.k 35 2) ⊠ (.s 3))) ⊠ (.s 5)) ⊞ ((((((.k 8 2) ⊠ (.s 3)) ⊟ (.k 207 3)) ⊠ (.s 4)) ⊞ (((.k 3735 4) ⊠ (.s 3)) ⊠ (.c 4))) ⊠ (.c 5))⟩,
    ⟨5, 1, ((((((.k 207 3) ⊟ ((.k 8 2) ⊠ (.s 3))) ⊠ (.s 4)) ⊟ (((.k 3735 4) ⊠ (.s 3)) ⊠ (.c 4))) ⊠ (.s 5)) ⊞ ((((((.neg (.k 3735 4)) ⊠ (.s 3)) ⊠ (.s 4)) ⊞ ((((.k 8 2) ⊠ (.s 3)) ⊟ (.k 207 3)) ⊠ (.c 4))) ⊞ ((.k 35 2) ⊠ (.s 3))) ⊠ (.c 5))) ⊞ ((.k 33 2) ⊠ (.s 3))⟩,
    ⟨5, 2, ((((((.neg (.k 33 2)) ⊠ (.c 3)) ⊠ (.c 4)) ⊠ (.s 5)) ⊟ ((((.k 33 2) ⊠ (.c 3)) ⊠ (.s 4)) ⊠ (.c 5))) ⊟ (((.k 35 2) ⊠ (.c 3)) ⊠ (.s 4))) ⊞ ((.k 3735 4) ⊠ (.c 3))⟩,
    ⟨5, 3, (((.c 3) ⊠ (.s 4)) ⊠ (.s 5)) ⊟ (((.c 3) ⊠ (.c 4)) ⊠ (.c 5))⟩,
    ⟨5, 4, (((.c 3) ⊠ (.c 4)) ⊠ (.s 5)) ⊞ (((.c 3) ⊠ (.s 4)) ⊠ (.c 5))⟩,
    ⟨5, 5, .s 3⟩]

/-- `ForceTransforms::Type_fr_trunk_X_fr_RF_foot` (transforms.impl.h:6420-6433, 6435-6476). -/
def force_fr_trunk_X_fr_RF_foot : Gen where
  rows := 6
  cols := 6
  ctor := [⟨0, 2, .k 0 0⟩,
    ⟨3, 0, .k 0 0⟩,
    ⟨3, 1, .k 0 0⟩,
    ⟨3, 2, .k 0 0⟩,
    ⟨3, 5, .k 0 0⟩,
    ⟨4, 0, .k 0 0⟩,
    ⟨4, 1, .k 0 0⟩,
    ⟨4, 2, .k 0 0⟩,
    ⟨5, 0, .k 0 0⟩,
    ⟨5, 1, .k 0 0⟩,
    ⟨5, 2, .k 0 0⟩]
  upd := [⟨0, 0, ((.neg (.c 4)) ⊠ (.s 5)) ⊟ ((.s 4) ⊠ (.c 5))⟩,
    ⟨0, 1, ((.s 4) ⊠ (.s 5)) ⊟ ((.c 4) ⊠ (.c 5))⟩,
    ⟨0, 3, ((((.k 207 3) ⊠ (.c 3)) ⊠ (.c 4)) ⊠ (.c 5)) ⊟ ((((.k 207 3) ⊠ (.c 3)) ⊠ (.s 4)) ⊠ (.s 5))⟩,
    ⟨0, 4, ((((.neg (.k 207 3)) ⊠ (.c 3)) ⊠ (.c 4)) ⊠ (.s 5)) ⊟ ((((.k 207 3) ⊠ (.c 3)) ⊠ (.s 4)) ⊠ (.c 5))⟩,
    ⟨0, 5, ((((((.neg (.k 33 2)) ⊠ (.s 4)) ⊠ (.s 5)) ⊞ (((.k 33 2) ⊠ (.c 4)) ⊠ (.c 5))) ⊞ ((.k 35 2) ⊠ (.c 4))) ⊟ ((.k 207 3) ⊠ (.s 3))) ⊞ (.k 8 2)⟩,
    ⟨1, 0, (((.s 3) ⊠ (.c 4)) ⊠ (.c 5)) ⊟ (((.s 3) ⊠ (.s 4)) ⊠ (.s 5))⟩,
    ⟨1, 1, (((.neg (.s 3)) ⊠ (.c 4)) ⊠ (.s 5)) ⊟ (((.s 3) ⊠ (.s 4)) ⊠ (.c 5))⟩,
    ⟨1, 2, .c 3⟩,
    ⟨1, 3, ((((((.neg (.k 3735 4)) ⊠ (.c 3)) ⊠ (.s 4)) ⊞ (((.k 8 2) ⊠ (.c 3)) ⊠ (.c 4))) ⊞ ((.k 35 2) ⊠ (.c 3))) ⊠ (.s 5)) ⊞ (((((.k 8 2) ⊠ (.c 3)) ⊠ (.s 4)) ⊞ (((.k 3735 4) ⊠ (.c 3)) ⊠ (.c 4))) ⊠ (.c 5))⟩,
    ⟨1, 4, ((((((.neg (.k 8 2)) ⊠ (.c 3)) ⊠ (.s 4)) ⊟ (((.k 3735 4) ⊠ (.c 3)) ⊠ (.c 4))) ⊠ (.s 5)) ⊞ ((((((.neg (.k 3735 4)) ⊠ (.c 3)) ⊠ (.s 4)) ⊞ (((.k 8 2) ⊠ (.c 3)) ⊠ (.c 4))) ⊞ ((.k 35 2) ⊠ (.c 3))) ⊠ (.c 5))) ⊞ ((.k 33 2) ⊠ (.c 3))⟩,
    ⟨1, 5, ((((((.k 33 2) ⊠ (.s 3)) ⊠ (.c 4)) ⊠ (.s 5)) ⊞ ((((.k 33 2) ⊠ (.s 3)) ⊠ (.s 4)) ⊠ (.c 5))) ⊞ (((.k 35 2) ⊠ (.s 3)) ⊠ (.s 4))) ⊟ ((.k 3735 4) ⊠ (.s 3))⟩,
    ⟨2, 0, (((.c 3) ⊠ (.s 4)) ⊠ (.s 5)) ⊟ (((.c 3) ⊠ (.c 4)) ⊠ (.c 5))⟩,
    ⟨2, 1, (((.c 3) ⊠ (.c 4)) ⊠ (.s 5)) ⊞ (((.c 3) ⊠ (.s 4)) ⊠ (.c 5))⟩,
    ⟨2, 2, .s 3⟩,
    ⟨2, 3, ((((((.neg (.k 3735 4)) ⊠ (.s 3)) ⊠ (.s 4)) ⊞ ((((.k 8 2) ⊠ (.s 3)) ⊟ (.k 207 3)) ⊠ (.c 4))) ⊞ ((.k 35 2) ⊠ (.s 3))) ⊠ (.s 5)) ⊞ ((((((.k 8 2) ⊠ (.s 3)) ⊟ (.k 207 3)) ⊠ (.s 4)) ⊞ (((.k 3735 4) ⊠ (.s 3)) ⊠ (.c 4))) ⊠ (.c 5))⟩,
    ⟨2, 4, ((((((.k 207 3) ⊟ ((.k 8 2) ⊠ (.s 3))) ⊠ (.s 4)) ⊟ (((.k 3735 4) ⊠ (.s 3)) ⊠ (.c 4))) ⊠ (.s 5)) ⊞ ((((((.neg (.k 3735 4)) ⊠ (.s 3)) ⊠ (.s 4)) ⊞ ((((.k 8 2) ⊠ (.s 3)) ⊟ (.k 207 3)) ⊠ (.c 4))) ⊞ ((.k 35 2) ⊠ (.s 3))) ⊠ (.c 5))) ⊞ ((.k 33 2) ⊠ (.s 3))⟩,
    ⟨2, 5, ((((((.neg (.k 33 2)) ⊠ (.c 3)) ⊠ (.c 4)) ⊠ (.s 5)) ⊟ ((((.k 33 2) ⊠ (.c 3)) ⊠ (.s 4)) ⊠ (.c 5))) ⊟ (((.k 35 2) ⊠ (.c 3)) ⊠ (.s 4))) ⊞ ((.k 3735 4) ⊠ (.c 3))⟩,
    ⟨3, 3, ((.neg (.c 4)) ⊠ (.s 5)) ⊟ ((.s 4) ⊠ (.c 5))⟩,
    ⟨3, 4, ((.s 4) ⊠ (.s 5)) ⊟ ((.c 4) ⊠ (.c 5))⟩,
    ⟨4, 3, (((.s 3) ⊠ (.c 4)) ⊠ (.c 5)) ⊟ (((.s 3) ⊠ (.s 4)) ⊠ (.s 5))⟩,
    ⟨4, 4, (((.neg (.s 3)) ⊠ (.c 4)) ⊠ (.s 5)) ⊟ (((.s 3) ⊠ (.s 4)) ⊠ (.c 5))⟩,
    ⟨4, 5, .c 3⟩,
    ⟨5, 3, (((.c 3) ⊠ (.s 4)) ⊠ (.s 5)) ⊟ (((.c 3) ⊠ (.c 4)) ⊠ (.c 5))⟩,
    ⟨5, 4, (((.c 3) ⊠ (.c 4)) ⊠ (.s 5)) ⊞ (((.c 3) ⊠ (.s 4)) ⊠ (.c 5))⟩,
    ⟨5, 5, .s 3⟩]

/-- The transforms `fr_trunk_X_fr_RF_foot`. -/
def fr_trunk_X_fr_RF_foot : Trans := ⟨fr_trunk, fr_RF_foot, hom_fr_trunk_X_fr_RF_foot, motion_fr_trunk_X_fr_RF_foot, force_fr_trunk_X_fr_RF_foot⟩

/-- `HomogeneousTransforms::Type_fr_trunk_X_fr_LH_foot` (transforms.impl.h:9615-9622, 9624-9651). -/
def hom_fr_trunk_X_fr_LH_foot : Gen where
  rows := 4
  cols := 4
  ctor := [⟨0, 2, .k 0 0⟩,
    ⟨3, 0, .k 0 0⟩,
    ⟨3, 1, .k 0 0⟩,
    ⟨3, 2, .k 0 0⟩,
    ⟨3, 3, .k 1 0⟩]
  upd := [⟨0, 0, ((.neg (.c 7)) ⊠ (.s 8)) ⊟ ((.s 7) ⊠ (.c 8))⟩,
    ⟨0, 1, ((.s 7) ⊠ (.s 8)) ⊟ ((.c 7) ⊠ (.c 8))⟩,
    ⟨0, 3, (((((.neg (.k 33 2)) ⊠ (.c 7)) ⊠ (.s 8)) ⊟ (((.k 33 2) ⊠ (.s 7)) ⊠ (.c 8))) ⊟ ((.k 35 2) ⊠ (.s 7))) ⊟ (.k 3735 4)⟩,
    ⟨1, 0, (((.s 6) ⊠ (.s 7)) ⊠ (.s 8)) ⊟ (((.s 6) ⊠ (.c 7)) ⊠ (.c 8))⟩,
    ⟨1, 1, (((.s 6) ⊠ (.c 7)) ⊠ (.s 8)) ⊞ (((.s 6) ⊠ (.s 7)) ⊠ (.c 8))⟩,
    ⟨1, 2, .c 6⟩,
    ⟨1, 3, (((((((.k 33 2) ⊠ (.s 6)) ⊠ (.s 7)) ⊠ (.s 8)) ⊟ ((((.k 33 2) ⊠ (.s 6)) ⊠ (.c 7)) ⊠ (.c 8))) ⊟ (((.k 35 2) ⊠ (.s 6)) ⊠ (.c 7))) ⊟ ((.k 8 2) ⊠ (.s 6))) ⊞ (.k 207 3)⟩,
    ⟨2, 0, (((.c 6) ⊠ (.s 7)) ⊠ (.s 8)) ⊟ (((.c 6) ⊠ (.c 7)) ⊠ (.c 8))⟩,
    ⟨2, 1, (((.c 6) ⊠ (.c 7)) ⊠ (.s 8)) ⊞ (((.c 6) ⊠ (.s 7)) ⊠ (.c 8))⟩,
    ⟨2, 2, .neg (.s 6)⟩,
    ⟨2, 3, ((((((.k 33 2) ⊠ (.c 6)) ⊠ (.s 7)) ⊠ (.s 8)) ⊟ ((((.k 33 2) ⊠ (.c 6)) ⊠ (.c 7)) ⊠ (.c 8))) ⊟ (((.k 35 2) ⊠ (.c 6)) ⊠ (.c 7))) ⊟ ((.k 8 2) ⊠ (.c 6))⟩]

/-- `MotionTransforms::Type_fr_trunk_X_fr_LH_foot` (transforms.impl.h:2501-2514, 2516-2557). -/
def motion_fr_trunk_X_fr_LH_foot : Gen where
  rows := 6
  cols := 6
  ctor := [⟨0, 2, .k 0 0⟩,
    ⟨0, 3, .k 0 0⟩,
    ⟨0, 4, .k 0 0⟩,
    ⟨0, 5, .k 0 0⟩,
    ⟨1, 3, .k 0 0⟩,
    ⟨1, 4, .k 0 0⟩,
    ⟨1, 5, .k 0 0⟩,
    ⟨2, 3, .k 0 0⟩,
    ⟨2, 4, .k 0 0⟩,
    ⟨2, 5, .k 0 0⟩,
    ⟨3, 5, .k 0 0⟩]
  upd := [⟨0, 0, ((.neg (.c 7)) ⊠ (.s 8)) ⊟ ((.s 7) ⊠ (.c 8))⟩,
    ⟨0, 1, ((.s 7) ⊠ (.s 8)) ⊟ ((.c 7) ⊠ (.c 8))⟩,
    ⟨1, 0, (((.s 6) ⊠ (.s 7)) ⊠ (.s 8)) ⊟ (((.s 6) ⊠ (.c 7)) ⊠ (.c 8))⟩,
    ⟨1, 1, (((.s 6) ⊠ (.c 7)) ⊠ (.s 8)) ⊞ (((.s 6) ⊠ (.s 7)) ⊠ (.c 8))⟩,
    ⟨1, 2, .c 6⟩,
    ⟨2, 0, (((.c 6) ⊠ (.s 7)) ⊠ (.s 8)) ⊟ (((.c 6) ⊠ (.c 7)) ⊠ (.c 8))⟩,
    ⟨2, 1, (((.c 6) ⊠ (.c 7)) ⊠ (.s 8)) ⊞ (((.c 6) ⊠ (.s 7)) ⊠ (.c 8))⟩,
    ⟨2, 2, .neg (.s 6)⟩,
    ⟨3, 0, ((((.k 207 3) ⊠ (.c 6)) ⊠ (.s 7)) ⊠ (.s 8)) ⊟ ((((.k 207 3) ⊠ (.c 6)) ⊠ (.c 7)) ⊠ (.c 8))⟩,
    ⟨3, 1, ((((.k 207 3) ⊠ (.c 6)) ⊠ (.c 7)) ⊠ (.s 8)) ⊞ ((((.k 207 3) ⊠ (.c 6)) ⊠ (.s 7)) ⊠ (.c 8))⟩,
    ⟨3, 2, ((((((.neg (.k 33 2)) ⊠ (.s 7)) ⊠ (.s 8)) ⊞ (((.k 33 2) ⊠ (.c 7)) ⊠ (.c 8))) ⊞ ((.k 35 2) ⊠ (.c 7))) ⊟ ((.k 207 3) ⊠ (.s 6))) ⊞ (.k 8 2)⟩,
    ⟨3, 3, ((.neg (.c 7)) ⊠ (.s 8)) ⊟ ((.s 7) ⊠ (.c 8))⟩,
    ⟨3, 4, ((.s 7) ⊠ (.s 8)) ⊟ ((.c 7) ⊠ (.c 8))⟩,
    ⟨4, 0, ((((((.k 3735 4) ⊠ (.c 6)) ⊠ (.s 7)) ⊞ (((.k 8 2) ⊠ (.c 6)) ⊠ (.c 7))) ⊞ ((.k 35 2) ⊠ (.c 6))) ⊠ (.s 8)) ⊞ (((((.k 8 2) ⊠ (.c 6)) ⊠ (.s 7)) ⊟ (((.k 3735 4) ⊠ (.c 6)) ⊠ (.c 7))) ⊠ (.c 8))⟩,
    ⟨4, 1, ((((((.k 3735 4) ⊠ (.c 6)) ⊠ (.c 7)) ⊟ (((.k 8 2) ⊠ (.c 6)) ⊠ (.s 7))) ⊠ (.s 8)) ⊞ ((((((.k 3735 4) ⊠ (.c 6)) ⊠ (.s 7)) ⊞ (((.k 8 2) ⊠ (.c 6)) ⊠ (.c 7))) ⊞ ((.k 35 2) ⊠ (.c 6))) ⊠ (.c 8))) ⊞ ((.k 33 2) ⊠ (.c 6))⟩,
    ⟨4, 2, ((((((.neg (.k 33 2)) ⊠ (.s 6)) ⊠ (.c 7)) ⊠ (.s 8)) ⊟ ((((.k 33 2) ⊠ (.s 6)) ⊠ (.s 7)) ⊠ (.c 8))) ⊟ (((.k 35 2) ⊠ (.s 6)) ⊠ (.s 7))) ⊟ ((.k 3735 4) ⊠ (.s 6))⟩,
    ⟨4, 3, (((.s 6) ⊠ (.s 7)) ⊠ (.s 8)) ⊟ (((.s 6) ⊠ (.c 7)) ⊠ (.c 8))⟩,
    ⟨4, 4, (((.s 6) ⊠ (.c 7)) ⊠ (.s 8)) ⊞ (((.s 6) ⊠ (.s 7)) ⊠ (.c 8))⟩,
    ⟨4, 5, .c 6⟩,
    ⟨5, 0, ((((((.neg (.k 3735 4)) ⊠ (.s 6)) ⊠ (.s 7)) ⊞ (((.k 207 3) ⊟ ((.k 8 2) ⊠ (.s 6))) ⊠ (.c 7))) ⊟ ((.k 35 2) ⊠ (.s 6))) ⊠ (.s 8)) ⊞ (((((.k 207 3) ⊟ ((.k 8 2) ⊠ (.s 6))) ⊠ (.s 7)) ⊞ (((.k 3735 4) ⊠ (.s 6)) ⊠ (.c 7))) ⊠ (.c 8))⟩,
    ⟨5, 1, (((((((.k 8 2) ⊠ (.s 6)) ⊟ (.k 207 3)) ⊠ (.s 7)) ⊟ (((.k 3735 4) ⊠ (.s 6)) ⊠ (.c 7))) ⊠ (.s 8)) ⊞ ((((((.neg (.k 3735 4)) ⊠ (.s 6)) ⊠ (.s 7)) ⊞ (((.k 207 3) ⊟ ((.k 8 2) ⊠ (.s 6))) ⊠ (.c 7))) ⊟ ((.k 35 2) ⊠ (.s 6))) ⊠ (.c 8))) ⊟ ((.k 33 2) ⊠ (.s 6))⟩,
    ⟨5, 2, ((((((.neg (.k 33 2)) ⊠ (.c 6)) ⊠ (.c 7)) ⊠ (.s 8)) ⊟ ((((.k 33 2) ⊠ (.c 6)) ⊠ (.s 7)) ⊠ (.c 8))) ⊟ (((.k 35 2) ⊠ (.c 6)) ⊠ (.s 7))) ⊟ ((.k 3735 4) ⊠ (.c 6))⟩,
    ⟨5, 3, (((.c 6) ⊠ (.s 7)) ⊠ (.s 8)) ⊟ (((.c 6) ⊠ (.c 7)) ⊠ (.c 8))⟩,
    ⟨5, 4, (((.c 6) ⊠ (.c 7)) ⊠ (.s 8)) ⊞ (((.c 6) ⊠ (.s 7)) ⊠ (.c 8))⟩,
    ⟨5, 5, .neg (.s 6)⟩]

/-- `ForceTransforms::Type_fr_trunk_X_fr_LH_foot` (transforms.impl.h:6478-6491, 6493-6534). -/
def force_fr_trunk_X_fr_LH_foot : Gen where
  rows := 6
  cols := 6
  ctor := [⟨0, 2, .k 0 0⟩,
    ⟨3, 0, .k 0 0⟩,
    ⟨3, 1, .k 0 0⟩,
    ⟨3, 2, .k 0 0⟩,
    ⟨3, 5, .k 0 0⟩,
    ⟨4, 0, .k 0 0⟩,
    ⟨4, 1, .k 0 0⟩,
    ⟨4, 2, .k 0 0⟩,
    ⟨5, 0, .k 0 0⟩,
    ⟨5, 1, .k 0 0⟩,
    ⟨5, 2, .k 0 0⟩]
  upd := [⟨0, 0, ((.neg (.c 7)) ⊠ (.s 8)) ⊟ ((.s 7) ⊠ (.c 8))⟩,
    ⟨0, 1, ((.s 7) ⊠ (.s 8)) ⊟ ((.c 7) ⊠ (.c 8))⟩,
    ⟨0, 3, ((((.k 207 3) ⊠ (.c 6)) ⊠ (.s 7)) ⊠ (.s 8)) ⊟ ((((.k 207 3) ⊠ (.c 6)) ⊠ (.c 7)) ⊠ (.c 8))⟩,
    ⟨0, 4, ((((.k 207 3) ⊠ (.c 6)) ⊠ (.c 7)) ⊠ (.s 8)) ⊞ ((((.k 207 3) ⊠ (.c 6)) ⊠ (.s 7)) ⊠ (.c 8))⟩,
    ⟨0, 5, ((((((.neg (.k 33 2)) ⊠ (.s 7)) ⊠ (.s 8)) ⊞ (((.k 33 2) ⊠ (.c 7)) ⊠ (.c 8))) ⊞ ((.k 35 2) ⊠ (.c 7))) ⊟ ((.k 207 3) ⊠ (.s 6))) ⊞ (.k 8 2)⟩,
    ⟨1, 0, (((.s 6) ⊠ (.s 7)) ⊠ (.s 8)) ⊟ (((.s 6) ⊠ (.c 7)) ⊠ (.c 8))⟩,
    ⟨1, 1, (((.s 6) ⊠ (.c 7)) ⊠ (.s 8)) ⊞ (((.s 6) ⊠ (.s 7)) ⊠ (.c 8))⟩,
    ⟨1, 2, .c 6⟩,
    ⟨1, 3, ((((((.k 3735 4) ⊠ (.c 6)) ⊠ (.s 7)) ⊞ (((.k 8 2) ⊠ (.c 6)) ⊠ (.c 7))) ⊞ ((.k 35 2) ⊠ (.c 6))) ⊠ (.s 8)) ⊞ (((((.k 8 2) ⊠ (.c 6)) ⊠ (.s 7)) ⊟ (((.k 3735 4) ⊠ (.c 6)) ⊠ (.c 7))) ⊠ (.c 8))⟩,
    ⟨1, 4, ((((((.k 3735 4) ⊠ (.c 6)) ⊠ (.c 7)) ⊟ (((.k 8 2) ⊠ (.c 6)) ⊠ (.s 7))) ⊠ (.s 8)) ⊞ ((((((.k 3735 4) ⊠ (.c 6)) ⊠ (.s 7)) ⊞ (((.k 8 2) ⊠ (.c 6)) ⊠ (.c 7))) ⊞ ((.k 35 2) ⊠ (.c 6))) ⊠ (.c 8))) ⊞ ((.k 33 2) ⊠ (.c 6))⟩,
    ⟨1, 5, ((((((.neg (.k 33 2)) ⊠ (.s 6)) ⊠ (.c 7)) ⊠ (.s 8)) ⊟ ((((.k 33 2) ⊠ (.s 6)) ⊠ (.s 7)) ⊠ (.c 8))) ⊟ (((.k 35 2) ⊠ (.s 6)) ⊠ (.s 7))) ⊟ ((.k 3735 4) ⊠ (.s 6))⟩,
    ⟨2, 0, (((.c 6) ⊠ (.s 7)) ⊠ (.s 8)) ⊟ (((.c 6) ⊠ (.c 7)) ⊠ (.c 8))⟩,
    ⟨2, 1, (((.c 6) ⊠ (.c 7)) ⊠ (.s 8)) ⊞ (((.c 6) ⊠ (.s 7)) ⊠ (.c 8))⟩,
    ⟨2, 2, .neg (.s 6)⟩,
    ⟨2, 3, ((((((.neg (.k 3735 4)) ⊠ (.s 6)) ⊠ (.s 7)) ⊞ (((.k 207 3) ⊟ ((.k 8 2) ⊠ (.s 6))) ⊠ (.c 7))) ⊟ ((.k 35 2) ⊠ (.s 6))) ⊠ (.s 8)) ⊞ (((((.k 207 3) ⊟ ((.k 8 2) ⊠ (.s 6))) ⊠ (.s 7)) ⊞ (((.k 3735 4) ⊠ (.s 6)) ⊠ (.c 7))) ⊠ (.c 8))⟩,
    ⟨2, 4, (((((((.k 8 2) ⊠ (.s 6)) ⊟ (.k 207 3)) ⊠ (.s 7)) ⊟ (((.k 3735 4) ⊠ (.s 6)) ⊠ (.c 7))) ⊠ (.s 8)) ⊞ ((((((.neg (.k 3735 4)) ⊠ (.s 6)) ⊠ (.s 7)) ⊞ (((.k 207 3) ⊟ ((.k 8 2) ⊠ (.s 6))) ⊠ (.c 7))) ⊟ ((.k 35 2) ⊠ (.s 6))) ⊠ (.c 8))) ⊟ ((.k 33 2) ⊠ (.s 6))⟩,
    ⟨2, 5, ((((((.neg (.k 33 2)) ⊠ (.c 6)) ⊠ (.c 7)) ⊠ (.s 8)) ⊟ ((((.k 33 2) ⊠ (.c 6)) ⊠ (.s 7)) ⊠ (.c 8))) ⊟ (((.k 35 2) ⊠ (.c 6)) ⊠ (.s 7))) ⊟ ((.k 3735 4) ⊠ (.c 6))⟩,
    ⟨3, 3, ((.neg (.c 7)) ⊠ (.s 8)) ⊟ ((.s 7) ⊠ (.c 8))⟩,
    ⟨3, 4, ((.s 7) ⊠ (.s 8)) ⊟ ((.c 7) ⊠ (.c 8))⟩,
    ⟨4, 3, (((.s 6) ⊠ (.s 7)) ⊠ (.s 8)) ⊟ (((.s 6) ⊠ (.c 7)) ⊠ (.c 8))⟩,
    ⟨4, 4, (((.s 6) ⊠ (.c 7)) ⊠ (.s 8)) ⊞ (((.s 6) ⊠ (.s 7)) ⊠ (.c 8))⟩,
    ⟨4, 5, .c 6⟩,
    ⟨5, 3, (((.c 6) ⊠ (.s 7)) ⊠ (.s 8)) ⊟ (((.c 6) ⊠ (.c 7)) ⊠ (.c 8))⟩,
    ⟨5, 4, (((.c 6) ⊠ (.c 7)) ⊠ (.s 8)) ⊞ (((.c 6) ⊠ (.s 7)) ⊠ (.c 8))⟩,
    ⟨5, 5, .neg (.s 6)⟩]

/-- The transforms `fr_trunk_X_fr_LH_foot`. -/
def fr_trunk_X_fr_LH_foot : Trans := ⟨fr_trunk, fr_LH_foot, hom_fr_trunk_X_fr_LH_foot, motion_fr_trunk_X_fr_LH_foot, force_fr_trunk_X_fr_LH_foot⟩

/-- `HomogeneousTransforms::Type_fr_trunk_X_fr_RH_foot` (transforms.impl.h:9653-9660, 9662-9689). -/
def hom_fr_trunk_X_fr_RH_foot : Gen where
  rows := 4
  cols := 4
  ctor := [⟨0, 2, .k 0 0⟩,
    ⟨3, 0, .k 0 0⟩,
    ⟨3, 1, .k 0 0⟩,
    ⟨3, 2, .k 0 0⟩,
    ⟨3, 3, .k 1 0⟩]
  upd := [⟨0, 0, ((.neg (.c 10)) ⊠ (.s 11)) ⊟ ((.s 10) ⊠ (.c 11))⟩,
    ⟨0, 1, ((.s 10) ⊠ (.s 11)) ⊟ ((.c 10) ⊠ (.c 11))⟩,
    ⟨0, 3, (((((.neg (.k 33 2)) ⊠ (.c 10)) ⊠ (.s 11)) ⊟ (((.k 33 2) ⊠ (.s 10)) ⊠ (.c 11))) ⊟ ((.k 35 2) ⊠ (.s 10))) ⊟ (.k 3735 4)⟩,
    ⟨1, 0, (((.s 9) ⊠ (.c 10)) ⊠ (.c 11)) ⊟ (((.s 9) ⊠ (.s 10)) ⊠ (.s 11))⟩,
    ⟨1, 1, (((.neg (.s 9)) ⊠ (.c 10)) ⊠ (.s 11)) ⊟ (((.s 9) ⊠ (.s 10)) ⊠ (.c 11))⟩,
    ⟨1, 2, .c 9⟩,
    ⟨1, 3, (((((((.neg (.k 33 2)) ⊠ (.s 9)) ⊠ (.s 10)) ⊠ (.s 11)) ⊞ ((((.k 33 2) ⊠ (.s 9)) ⊠ (.c 10)) ⊠ (.c 11))) ⊞ (((.k 35 2) ⊠ (.s 9)) ⊠ (.c 10))) ⊞ ((.k 8 2) ⊠ (.s 9))) ⊟ (.k 207 3)⟩,
    ⟨2, 0, (((.c 9) ⊠ (.s 10)) ⊠ (.s 11)) ⊟ (((.c 9) ⊠ (.c 10)) ⊠ (.c 11))⟩,
    ⟨2, 1, (((.c 9) ⊠ (.c 10)) ⊠ (.s 11)) ⊞ (((.c 9) ⊠ (.s 10)) ⊠ (.c 11))⟩,
    ⟨2, 2, .s 9⟩,
    ⟨2, 3, ((((((.k 33 2) ⊠ (.c 9)) ⊠ (.s 10)) ⊠ (.s 11)) ⊟ ((((.k 33 2) ⊠ (.c 9)) ⊠ (.c 10)) ⊠ (.c 11))) ⊟ (((.k 35 2) ⊠ (.c 9)) ⊠ (.c 10))) ⊟ ((.k 8 2) ⊠ (.c 9))⟩]

/-- `MotionTransforms::Type_fr_trunk_X_fr_RH_foot` (transforms.impl.h:2559-2572, 2574-2615). -/
def motion_fr_trunk_X_fr_RH_foot : Gen where
  rows := 6
  cols := 6
  ctor := [⟨0, 2, .k 0 0⟩,
    ⟨0, 3, .k 0 0⟩,
    ⟨0, 4, .k 0 0⟩,
    ⟨0, 5, .k 0 0⟩,
    ⟨1, 3, .k 0 0⟩,
    ⟨1, 4, .k 0 0⟩,
    ⟨1, 5, .k 0 0⟩,
    ⟨2, 3, .k 0 0⟩,
    ⟨2, 4, .k 0 0⟩,
    ⟨2, 5, .k 0 0⟩,
    ⟨3, 5, .k 0 0⟩]
  upd := [⟨0, 0, ((.neg (.c 10)) ⊠ (.s 11)) ⊟ ((.s 10) ⊠ (.c 11))⟩,
    ⟨0, 1, ((.s 10) ⊠ (.s 11)) ⊟ ((.c 10) ⊠ (.c 11))⟩,
    ⟨1, 0, (((.s 9) ⊠ (.c 10)) ⊠ (.c 11)) ⊟ (((.s 9) ⊠ (.s 10)) ⊠ (.s 11))⟩,
    ⟨1, 1, (((.neg (.s 9)) ⊠ (.c 10)) ⊠ (.s 11)) ⊟ (((.s 9) ⊠ (.s 10)) ⊠ (.c 11))⟩,
    ⟨1, 2, .c 9⟩,
    ⟨2, 0, (((.c 9) ⊠ (.s 10)) ⊠ (.s 11)) ⊟ (((.c 9) ⊠ (.c 10)) ⊠ (.c 11))⟩,
    ⟨2, 1, (((.c 9) ⊠ (.c 10)) ⊠ (.s 11)) ⊞ (((.c 9) ⊠ (.s 10)) ⊠ (.c 11))⟩,
    ⟨2, 2, .s 9⟩,
    ⟨3, 0, ((((.k 207 3) ⊠ (.c 9)) ⊠ (.c 10)) ⊠ (.c 11)) ⊟ ((((.k 207 3) ⊠ (.c 9)) ⊠ (.s 10)) ⊠ (.s 11))⟩,
    ⟨3, 1, ((((.neg (.k 207 3)) ⊠ (.c 9)) ⊠ (.c 10)) ⊠ (.s 11)) ⊟ ((((.k 207 3) ⊠ (.c 9)) ⊠ (.s 10)) ⊠ (.c 11))⟩,
    ⟨3, 2, ((((((.neg (.k 33 2)) ⊠ (.s 10)) ⊠ (.s 11)) ⊞ (((.k 33 2) ⊠ (.c 10)) ⊠ (.c 11))) ⊞ ((.k 35 2) ⊠ (.c 10))) ⊟ ((.k 207 3) ⊠ (.s 9))) ⊞ (.k 8 2)⟩,
    ⟨3, 3, ((.neg (.c 10)) ⊠ (.s 11)) ⊟ ((.s 10) ⊠ (.c 11))⟩,
    ⟨3, 4, ((.s 10) ⊠ (.s 11)) ⊟ ((.c 10) ⊠ (.c 11))⟩,
    ⟨4, 0, ((((((.k 3735 4) ⊠ (.c 9)) ⊠ (.s 10)) ⊞ (((.k 8 2) ⊠ (.c 9)) ⊠ (.c 10))) ⊞ ((.k 35 2) ⊠ (.c 9))) ⊠ (.s 11)) ⊞ (((((.k 8 2) ⊠ (.c 9)) ⊠ (.s 10)) ⊟ (((.k 3735 4) ⊠ (.c 9)) ⊠ (.c 10))) ⊠ (.c 11))⟩,
    ⟨4, 1, ((((((.k 3735 4) ⊠ (.c 9)) ⊠ (.c 10)) ⊟ (((.k 8 2) ⊠ (.c 9)) ⊠ (.s 10))) ⊠ (.s 11)) ⊞ ((((((.k 3735 4) ⊠ (.c 9)) ⊠ (.s 10)) ⊞ (((.k 8 2) ⊠ (.c 9)) ⊠ (.c 10))) ⊞ ((.k 35 2) ⊠ (.c 9))) ⊠ (.c 11))) ⊞ ((.k 33 2) ⊠ (.c 9))⟩,
    ⟨4, 2, ((((((.k 33 2) ⊠ (.s 9)) ⊠ (.c 10)) ⊠ (.s 11)) ⊞ ((((.k 33 2) ⊠ (.s 9)) ⊠ (.s 10)) ⊠ (.c 11))) ⊞ (((.k 35 2) ⊠ (.s 9)) ⊠ (.s 10))) ⊞ ((.k 3735 4) ⊠ (.s 9))⟩,
    ⟨4, 3, (((.s 9) ⊠ (.c 10)) ⊠ (.c 11)) ⊟ (((.s 9) ⊠ (.s 10)) ⊠ (.s 11))⟩,
    ⟨4, 4, (((.neg (.s 9)) ⊠ (.c 10)) ⊠ (.s 11)) ⊟ (((.s 9) ⊠ (.s 10)) ⊠ (.c 11))⟩,
    ⟨4, 5, .c 9⟩,
    ⟨5, 0, ((((((.k 3735 4) ⊠ (.s 9)) ⊠ (.s 10)) ⊞ ((((.k 8 2) ⊠ (.s 9)) ⊟ (.k 207 3)) ⊠ (.c 10))) ⊞ ((.k 35 2) ⊠ (.s 9))) ⊠ (.s 11)) ⊞ ((((((.k 8 2) ⊠ (.s 9)) ⊟ (.k 207 3)) ⊠ (.s 10)) ⊟ (((.k 3735 4) ⊠ (.s 9)) ⊠ (.c 10))) ⊠ (.c 11))⟩,
    ⟨5, 1, ((((((.k 207 3) ⊟ ((.k 8 2) ⊠ (.s 9))) ⊠ (.s 10)) ⊞ (((.k 3735 4) ⊠ (.s 9)) ⊠ (.c 10))) ⊠ (.s 11)) ⊞ ((((((.k 3735 4) ⊠ (.s 9)) ⊠ (.s 10)) ⊞ ((((.k 8 2) ⊠ (.s 9)) ⊟ (.k 207 3)) ⊠ (.c 10))) ⊞ ((.k 35 2) ⊠ (.s 9))) ⊠ (.c 11))) ⊞ ((.k 33 2) ⊠ (.s 9))⟩,
    ⟨5, 2, ((((((.neg (.k 33 2)) ⊠ (.c 9)) ⊠ (.c 10)) ⊠ (.s 11)) ⊟ ((((.k 33 2) ⊠ (.c 9)) ⊠ (.s 10)) ⊠ (.c 11))) ⊟ (((.k 35 2) ⊠ (.c 9)) ⊠ (.s 10))) ⊟ ((.k 3735 4) ⊠ (.c 9))⟩,
    ⟨5, 3, (((.c 9) ⊠ (.s 10)) ⊠ (.s 11)) ⊟ (((.c 9) ⊠ (.c 10)) ⊠ (.c 11))⟩,
    ⟨5, 4, (((.c 9) ⊠ (.c 10)) ⊠ (.s 11)) ⊞ (((.c 9) ⊠ (.s 10)) ⊠ (.c 11))⟩,
    ⟨5, 5, .s 9⟩]

/-- `ForceTransforms::Type_fr_trunk_X_fr_RH_foot` (transforms.impl.h:6536-6549, 6551-6592). -/
def force_fr_trunk_X_fr_RH_foot : Gen where
  rows := 6
  cols := 6
  ctor := [⟨0, 2, .k 0 0⟩,
    ⟨3, 0, .k 0 0⟩,
    ⟨3, 1, .k 0 0⟩,
    ⟨3, 2, .k 0 0⟩,
    ⟨3, 5, .k 0 0⟩,
    ⟨4, 0, .k 0 0⟩,
    ⟨4, 1, .k 0 0⟩,
    ⟨4, 2, .k 0 0⟩,
    ⟨5, 0, .k 0 0⟩,
    ⟨5, 1, .k 0 0⟩,
    ⟨5, 2, .k 0 0⟩]
  upd := [⟨0, 0, ((.neg (.c 10)) ⊠ (.s 11)) ⊟ ((.s 10) ⊠ (.c 11))⟩,
    ⟨0, 1, ((.s 10) ⊠ (.s 11)) ⊟ ((.c 10) ⊠ (.c 11))⟩,
    ⟨0, 3, ((((.k 207 3) ⊠ (.c 9)) ⊠ (.c 10)) ⊠ (.c 11)) ⊟ ((((.k 207 3) ⊠ (.c 9)) ⊠ (.s 10)) ⊠ (.s 11))⟩,
    ⟨0, 4, ((((.neg (.k 207 3)) ⊠ (.c 9)) ⊠ (.c 10)) ⊠ (.s 11)) ⊟ ((((.k 207 3) ⊠ (.c 9)) ⊠ (.s 10)) ⊠ (.c 11))⟩,
    ⟨0, 5, ((((((.neg (.k 33 2)) ⊠ (.s 10)) ⊠ (.s 11)) ⊞ (((.k 33 2) ⊠ (.c 10)) ⊠ (.c 11))) ⊞ ((.k 35 2) ⊠ (.c 10))) ⊟ ((.k 207 3) ⊠ (.s 9))) ⊞ (.k 8 2)⟩,
    ⟨1, 0, (((.s 9) ⊠ (.c 10)) ⊠ (.c 11)) ⊟ (((.s 9) ⊠ (.s 10)) ⊠ (.s 11))⟩,
    ⟨1, 1, (((.neg (.s 9)) ⊠ (.c 10)) ⊠ (.s 11)) ⊟ (((.s 9) ⊠ (.s 10)) ⊠ (.c 11))⟩,
    ⟨1, 2, .c 9⟩,
    ⟨1, 3, ((((((.k 3735 4) ⊠ (.c 9)) ⊠ (.s 10)) ⊞ (((.k 8 2) ⊠ (.c 9)) ⊠ (.c 10))) ⊞ ((.k 35 2) ⊠ (.c 9))) ⊠ (.s 11)) ⊞ (((((.k 8 2) ⊠ (.c 9)) ⊠ (.s 10)) ⊟ (((.k 3735 4) ⊠ (.c 9)) ⊠ (.c 10))) ⊠ (.c 11))⟩,
    ⟨1, 4, ((((((.k 3735 4) ⊠ (.c 9)) ⊠ (.c 10)) ⊟ (((.k 8 2) ⊠ (.c 9)) ⊠ (.s 10))) ⊠ (.s 11)) ⊞ ((((((.k 3735 4) ⊠ (.c 9)) ⊠ (.s 10)) ⊞ (((.k 8 2) ⊠ (.c 9)) ⊠ (.c 10))) ⊞ ((.k 35 2) ⊠ (.c 9))) ⊠ (.c 11))) ⊞ ((.k 33 2) ⊠ (.c 9))⟩,
    ⟨1, 5, ((((((.k 33 2) ⊠ (.s 9)) ⊠ (.c 10)) ⊠ (.s 11)) ⊞ ((((.k 33 2) ⊠ (.s 9)) ⊠ (.s 10)) ⊠ (.c 11))) ⊞ (((.k 35 2) ⊠ (.s 9)) ⊠ (.s 10))) ⊞ ((.k 3735 4) ⊠ (.s 9))⟩,
    ⟨2, 0, (((.c 9) ⊠ (.s 10)) ⊠ (.s 11)) ⊟ (((.c 9) ⊠ (.c 10)) ⊠ (.c 11))⟩,
    ⟨2, 1, (((.c 9) ⊠ (.c 10)) ⊠ (.s 11)) ⊞ (((.c 9) ⊠ (.s 10)) ⊠ (.c 11))⟩,
    ⟨2, 2, .s 9⟩,
    ⟨2, 3, ((((((.k 3735 4) ⊠ (.s 9)) ⊠ (.s 10)) ⊞ ((((.k 8 2) ⊠ (.s 9)) ⊟ (.k 207 3)) ⊠ (.c 10))) ⊞ ((.k 35 2) ⊠ (.s 9))) ⊠ (.s 11)) ⊞ ((((((.k 8 2) ⊠ (.s 9)) ⊟ (.k 207 3)) ⊠ (.s 10)) ⊟ (((.k 3735 4) ⊠ (.s 9)) ⊠ (.c 10))) ⊠ (.c 11))⟩,
    ⟨2, 4, ((((((.k 207 3) ⊟ ((.k 8 2) ⊠ (.s 9))) ⊠ (.s 10)) ⊞ (((.k 3735 4) ⊠ (.s 9)) ⊠ (.c 10))) ⊠ (.s 11)) ⊞ ((((((.k 3735 4) ⊠ (.s 9)) ⊠ (.s 10)) ⊞ ((((.k 8 2) ⊠ (.s 9)) ⊟ (.k 207 3)) ⊠ (.c 10))) ⊞ ((.k 35 2) ⊠ (.s 9))) ⊠ (.c 11))) ⊞ ((.k 33 2) ⊠ (.s 9))⟩,
    ⟨2, 5, ((((((.neg (.k 33 2)) ⊠ (.c 9)) ⊠ (.c 10)) ⊠ (.s 11)) ⊟ ((((.k 33 2) ⊠ (.c 9)) ⊠ (.s 10)) ⊠ (.c 11))) ⊟ (((.k 35 2) ⊠ (.c 9)) ⊠ (.s 10))) ⊟ ((.k 3735 4) ⊠ (.c 9))⟩,
    ⟨3, 3, ((.neg (.c 10)) ⊠ (.s 11)) ⊟ ((.s 10) ⊠ (.c 11))⟩,
    ⟨3, 4, ((.s 10) ⊠ (.s 11)) ⊟ ((.c 10) ⊠ (.c 11))⟩,
    ⟨4, 3, (((.s 9) ⊠ (.c 10)) ⊠ (.c 11)) ⊟ (((.s 9) ⊠ (.s 10)) ⊠ (.s 11))⟩,
    ⟨4, 4, (((.neg (.s 9)) ⊠ (.c 10)) ⊠ (.s 11)) ⊟ (((.s 9) ⊠ (.s 10)) ⊠ (.c 11))⟩,
    ⟨4, 5, .c 9⟩,
    ⟨5, 3, (((.c 9) ⊠ (.s 10)) ⊠ (.s 11)) ⊟ (((.c 9) ⊠ (.c 10)) ⊠ (.c 11))⟩,
    ⟨5, 4, (((.c 9) ⊠ (.c 10)) ⊠ (.s 11)) ⊞ (((.c 9) ⊠ (.s 10)) ⊠ (.c 11))⟩,
    ⟨5, 5, .s 9⟩]

/-- The transforms `fr_trunk_X_fr_RH_foot`. -/
def fr_trunk_X_fr_RH_foot : Trans := ⟨fr_trunk, fr_RH_foot, hom_fr_trunk_X_fr_RH_foot, motion_fr_trunk_X_fr_RH_foot, force_fr_trunk_X_fr_RH_foot⟩

/-- `HomogeneousTransforms::Type_fr_LF_foot_X_fr_trunk` (transforms.impl.h:9691-9698, 9700-9727). -/
def hom_fr_LF_foot_X_fr_trunk : Gen where
  rows := 4
  cols := 4
  ctor := [⟨2, 0, .k 0 0⟩,
    ⟨3, 0, .k 0 0⟩,
    ⟨3, 1, .k 0 0⟩,
    ⟨3, 2, .k 0 0⟩,
    ⟨3, 3, .k 1 0⟩]
  upd := [⟨0, 0, ((.neg (.c 1)) ⊠ (.s 2)) ⊟ ((.s 1) ⊠ (.c 2))⟩,
    ⟨0, 1, (((.s 0) ⊠ (.s 1)) ⊠ (.s 2)) ⊟ (((.s 0) ⊠ (.c 1)) ⊠ (.c 2))⟩,
    ⟨0, 2, (((.c 0) ⊠ (.s 1)) ⊠ (.s 2)) ⊟ (((.c 0) ⊠ (.c 1)) ⊠ (.c 2))⟩,
    ⟨0, 3, ((((((.k 8 2) ⊟ ((.k 207 3) ⊠ (.s 0))) ⊠ (.s 1)) ⊞ ((.k 3735 4) ⊠ (.c 1))) ⊠ (.s 2)) ⊞ (((((.k 3735 4) ⊠ (.s 1)) ⊞ ((((.k 207 3) ⊠ (.s 0)) ⊟ (.k 8 2)) ⊠ (.c 1))) ⊟ (.k 35 2)) ⊠ (.c 2))) ⊟ (.k 33 2)⟩,
    ⟨1, 0, ((.s 1) ⊠ (.s 2)) ⊟ ((.c 1) ⊠ (.c 2))⟩,
    ⟨1, 1, (((.s 0) ⊠ (.c 1)) ⊠ (.s 2)) ⊞ (((.s 0) ⊠ (.s 1)) ⊠ (.c 2))⟩,
    ⟨1, 2, (((.c 0) ⊠ (.c 1)) ⊠ (.s 2)) ⊞ (((.c 0) ⊠ (.s 1)) ⊠ (.c 2))⟩,
    ⟨1, 3, (((((.neg (.k 3735 4)) ⊠ (.s 1)) ⊞ (((.k 8 2) ⊟ ((.k 207 3) ⊠ (.s 0))) ⊠ (.c 1))) ⊞ (.k 35 2)) ⊠ (.s 2)) ⊞ (((((.k 8 2) ⊟ ((.k 207 3) ⊠ (.s 0))) ⊠ (.s 1)) ⊞ ((.k 3735 4) ⊠ (.c 1))) ⊠ (.c 2))⟩,
    ⟨2, 1, .c 0⟩,
    ⟨2, 2, .neg (.s 0)⟩,
    ⟨2, 3, (.neg (.k 207 3)) ⊠ (.c 0)⟩]

/-- `MotionTransforms::Type_fr_LF_foot_X_fr_trunk` (transforms.impl.h:2617-2630, 2632-2673). -/
def motion_fr_LF_foot_X_fr_trunk : Gen where
  rows := 6
  cols := 6
  ctor := [⟨0, 3, .k 0 0⟩,
    ⟨0, 4, .k 0 0⟩,
    ⟨0, 5, .k 0 0⟩,
    ⟨1, 3, .k 0 0⟩,
    ⟨1, 4, .k 0 0⟩,
    ⟨1, 5, .k 0 0⟩,
    ⟨2, 0, .k 0 0⟩,
    ⟨2, 3, .k 0 0⟩,
    ⟨2, 4, .k 0 0⟩,
    ⟨2, 5, .k 0 0⟩,
    ⟨5, 3, .k 0 0⟩]
  upd := [⟨0, 0, ((.neg (.c 1)) ⊠ (.s 2)) ⊟ ((.s 1) ⊠ (.c 2))⟩,
    ⟨0, 1, (((.s 0) ⊠ (.s 1)) ⊠ (.s 2)) ⊟ (((.s 0) ⊠ (.c 1)) ⊠ (.c 2))⟩,
    ⟨0, 2, (((.c 0) ⊠ (.s 1)) ⊠ (.s 2)) ⊟ (((.c 0) ⊠ (.c 1)) ⊠ (.c 2))⟩,
    ⟨1, 0, ((.s 1) ⊠ (.s 2)) ⊟ ((.c 1) ⊠ (.c 2))⟩,
    ⟨1, 1, (((.s 0) ⊠ (.c 1)) ⊠ (.s 2)) ⊞ (((.s 0) ⊠ (.s 1)) ⊠ (.c 2))⟩,
    ⟨1, 2, (((.c 0) ⊠ (.c 1)) ⊠ (.s 2)) ⊞ (((.c 0) ⊠ (.s 1)) ⊠ (.c 2))⟩,
    ⟨2, 1, .c 0⟩,
    ⟨2, 2, .neg (.s 0)⟩,
    ⟨3, 0, ((((.k 207 3) ⊠ (.c 0)) ⊠ (.s 1)) ⊠ (.s 2)) ⊟ ((((.k 207 3) ⊠ (.c 0)) ⊠ (.c 1)) ⊠ (.c 2))⟩,
    ⟨3, 1, ((((((.neg (.k 3735 4)) ⊠ (.c 0)) ⊠ (.s 1)) ⊞ (((.k 8 2) ⊠ (.c 0)) ⊠ (.c 1))) ⊞ ((.k 35 2) ⊠ (.c 0))) ⊠ (.s 2)) ⊞ (((((.k 8 2) ⊠ (.c 0)) ⊠ (.s 1)) ⊞ (((.k 3735 4) ⊠ (.c 0)) ⊠ (.c 1))) ⊠ (.c 2))⟩,
    ⟨3, 2, ((((((.k 3735 4) ⊠ (.s 0)) ⊠ (.s 1)) ⊞ (((.k 207 3) ⊟ ((.k 8 2) ⊠ (.s 0))) ⊠ (.c 1))) ⊟ ((.k 35 2) ⊠ (.s 0))) ⊠ (.s 2)) ⊞ (((((.k 207 3) ⊟ ((.k 8 2) ⊠ (.s 0))) ⊠ (.s 1)) ⊟ (((.k 3735 4) ⊠ (.s 0)) ⊠ (.c 1))) ⊠ (.c 2))⟩,
    ⟨3, 3, ((.neg (.c 1)) ⊠ (.s 2)) ⊟ ((.s 1) ⊠ (.c 2))⟩,
    ⟨3, 4, (((.s 0) ⊠ (.s 1)) ⊠ (.s 2)) ⊟ (((.s 0) ⊠ (.c 1)) ⊠ (.c 2))⟩,
    ⟨3, 5, (((.c 0) ⊠ (.s 1)) ⊠ (.s 2)) ⊟ (((.c 0) ⊠ (.c 1)) ⊠ (.c 2))⟩,
    ⟨4, 0, ((((.k 207 3) ⊠ (.c 0)) ⊠ (.c 1)) ⊠ (.s 2)) ⊞ ((((.k 207 3) ⊠ (.c 0)) ⊠ (.s 1)) ⊠ (.c 2))⟩,
    ⟨4, 1, ((((((.neg (.k 8 2)) ⊠ (.c 0)) ⊠ (.s 1)) ⊟ (((.k 3735 4) ⊠ (.c 0)) ⊠ (.c 1))) ⊠ (.s 2)) ⊞ ((((((.neg (.k 3735 4)) ⊠ (.c 0)) ⊠ (.s 1)) ⊞ (((.k 8 2) ⊠ (.c 0)) ⊠ (.c 1))) ⊞ ((.k 35 2) ⊠ (.c 0))) ⊠ (.c 2))) ⊞ ((.k 33 2) ⊠ (.c 0))⟩,
    ⟨4, 2, (((((((.k 8 2) ⊠ (.s 0)) ⊟ (.k 207 3)) ⊠ (.s 1)) ⊞ (((.k 3735 4) ⊠ (.s 0)) ⊠ (.c 1))) ⊠ (.s 2)) ⊞ ((((((.k 3735 4) ⊠ (.s 0)) ⊠ (.s 1)) ⊞ (((.k 207 3) ⊟ ((.k 8 2) ⊠ (.s 0))) ⊠ (.c 1))) ⊟ ((.k 35 2) ⊠ (.s 0))) ⊠ (.c 2))) ⊟ ((.k 33 2) ⊠ (.s 0))⟩,
    ⟨4, 3, ((.s 1) ⊠ (.s 2)) ⊟ ((.c 1) ⊠ (.c 2))⟩,
    ⟨4, 4, (((.s 0) ⊠ (.c 1)) ⊠ (.s 2)) ⊞ (((.s 0) ⊠ (.s 1)) ⊠ (.c 2))⟩,
    ⟨4, 5, (((.c 0) ⊠ (.c 1)) ⊠ (.s 2)) ⊞ (((.c 0) ⊠ (.s 1)) ⊠ (.c 2))⟩,
    ⟨5, 0, ((((((.neg (.k 33 2)) ⊠ (.s 1)) ⊠ (.s 2)) ⊞ (((.k 33 2) ⊠ (.c 1)) ⊠ (.c 2))) ⊞ ((.k 35 2) ⊠ (.c 1))) ⊟ ((.k 207 3) ⊠ (.s 0))) ⊞ (.k 8 2)⟩,
    ⟨5, 1, ((((((.neg (.k 33 2)) ⊠ (.s 0)) ⊠ (.c 1)) ⊠ (.s 2)) ⊟ ((((.k 33 2) ⊠ (.s 0)) ⊠ (.s 1)) ⊠ (.c 2))) ⊟ (((.k 35 2) ⊠ (.s 0)) ⊠ (.s 1))) ⊞ ((.k 3735 4) ⊠ (.s 0))⟩,
    ⟨5, 2, ((((((.neg (.k 33 2)) ⊠ (.c 0)) ⊠ (.c 1)) ⊠ (.s 2)) ⊟ ((((.k 33 2) ⊠ (.c 0)) ⊠ (.s 1)) ⊠ (.c 2))) ⊟ (((.k 35 2) ⊠ (.c 0)) ⊠ (.s 1))) ⊞ ((.k 3735 4) ⊠ (.c 0))⟩,
    ⟨5, 4, .c 0⟩,
    ⟨5, 5, .neg (.s 0)⟩]

/-- `ForceTransforms::Type_fr_LF_foot_X_fr_trunk` (transforms.impl.h:6594-6607, 6609-6650). -/
def force_fr_LF_foot_X_fr_trunk : Gen where
  rows := 6
  cols := 6
  ctor := [⟨2, 0, .k 0 0⟩,
    ⟨3, 0, .k 0 0⟩,
    ⟨3, 1, .k 0 0⟩,
    ⟨3, 2, .k 0 0⟩,
    ⟨4, 0, .k 0 0⟩,
    ⟨4, 1, .k 0 0⟩,
    ⟨4, 2, .k 0 0⟩,
    ⟨5, 0, .k 0 0⟩,
    ⟨5, 1, .k 0 0⟩,
    ⟨5, 2, .k 0 0⟩,
    ⟨5, 3, .k 0 0⟩]
  upd := [⟨0, 0, ((.neg (.c 1)) ⊠ (.s 2)) ⊟ ((.s 1) ⊠ (.c 2))⟩,
    ⟨0, 1, (((.s 0) ⊠ (.s 1)) ⊠ (.s 2)) ⊟ (((.s 0) ⊠ (.c 1)) ⊠ (.c 2))⟩,
    ⟨0, 2, (((.c 0) ⊠ (.s 1)) ⊠ (.s 2)) ⊟ (((.c 0) ⊠ (.c 1)) ⊠ (.c 2))⟩,
    ⟨0, 3, ((((.k 207 3) ⊠ (.c 0)) ⊠ (.s 1)) ⊠ (.s 2)) ⊟ ((((.k 207 3) ⊠ (.c 0)) ⊠ (.c 1)) ⊠ (.c 2))⟩,
    ⟨0, 4, ((((((.neg (.k 3735 4)) ⊠ (.c 0)) ⊠ (.s 1)) ⊞ (((.k 8 2) ⊠ (.c 0)) ⊠ (.c 1))) ⊞ ((.k 35 2) ⊠ (.c 0))) ⊠ (.s 2)) ⊞ (((((.k 8 2) ⊠ (.c 0)) ⊠ (.s 1)) ⊞ (((.k 3735 4) ⊠ (.c 0)) ⊠ (.c 1))) ⊠ (.c 2))⟩,
    ⟨0, 5, ((((((.k 3735 4) ⊠ (.s 0)) ⊠ (.s 1)) ⊞ (((.k 207 3) ⊟ ((.k 8 2) ⊠ (.s 0))) ⊠ (.c 1))) ⊟ ((.k 35 2) ⊠ (.s 0))) ⊠ (.s 2)) ⊞ (((((.k 207 3) ⊟ ((.k 8 2) ⊠ (.s 0))) ⊠ (.s 1)) ⊟ (((.k 3735 4) ⊠ (.s 0)) ⊠ (.c 1))) ⊠ (.c 2))⟩,
    ⟨1, 0, ((.s 1) ⊠ (.s 2)) ⊟ ((.c 1) ⊠ (.c 2))⟩,
    ⟨1, 1, (((.s 0) ⊠ (.c 1)) ⊠ (.s 2)) ⊞ (((.s 0) ⊠ (.s 1)) ⊠ (.c 2))⟩,
    ⟨1, 2, (((.c 0) ⊠ (.c 1)) ⊠ (.s 2)) ⊞ (((.c 0) ⊠ (.s 1)) ⊠ (.c 2))⟩,
    ⟨1, 3, ((((.k 207 3) ⊠ (.c 0)) ⊠ (.c 1)) ⊠ (.s 2)) ⊞ ((((.k 207 3) ⊠ (.c 0)) ⊠ (.s 1)) ⊠ (.c 2))⟩,
    ⟨1, 4, ((((((.neg (.k 8 2)) ⊠ (.c 0)) ⊠ (.s 1)) ⊟ (((.k 3735 4) ⊠ (.c 0)) ⊠ (.c 1))) ⊠ (.s 2)) ⊞ ((((((.neg (.k 3735 4)) ⊠ (.c 0)) ⊠ (.s 1)) ⊞ (((.k 8 2) ⊠ (.c 0)) ⊠ (.c 1))) ⊞ ((.k 35 2) ⊠ (.c 0))) ⊠ (.c 2))) ⊞ ((.k 33 2) ⊠ (.c 0))⟩,
    ⟨1, 5, (((((((.k 8 2) ⊠ (.s 0)) ⊟ (.k 207 3)) ⊠ (.s 1)) ⊞ (((.k 3735 4) ⊠ (.s 0)) ⊠ (.c 1))) ⊠ (.s 2)) ⊞ ((((((.k 3735 4) ⊠ (.s 0)) ⊠ (.s 1)) ⊞ (((.k 207 3) ⊟ ((.k 8 2) ⊠ (.s 0))) ⊠ (.c 1))) ⊟ ((.k 35 2) ⊠ (.s 0))) ⊠ (.c 2))) ⊟ ((.k 33 2) ⊠ (.s 0))⟩,
    ⟨2, 1, .c 0⟩,
    ⟨2, 2, .neg (.s 0)⟩,
    ⟨2, 3, ((((((.neg (.k 33 2)) ⊠ (.s 1)) ⊠ (.s 2)) ⊞ (((.k 33 2) ⊠ (.c 1)) ⊠ (.c 2))) ⊞ ((.k 35 2) ⊠ (.c 1))) ⊟ ((.k 207 3) ⊠ (.s 0))) ⊞ (.k 8 2)⟩,
    ⟨2, 4, ((((((.neg (.k 33 2)) ⊠ (.s 0)) ⊠ (.c 1)) ⊠ (.s 2)) ⊟ ((((.k 33 2) ⊠ (.s 0)) ⊠ (.s 1)) ⊠ (.c 2))) ⊟ (((.k 35 2) ⊠ (.s 0)) ⊠ (.s 1))) ⊞ ((.k 3735 4) ⊠ (.s 0))⟩,
    ⟨2, 5, ((((((.neg (.k 33 2)) ⊠ (.c 0)) ⊠ (.c 1)) ⊠ (.s 2)) ⊟ ((((.k 33 2) ⊠ (.c 0)) ⊠ (.s 1)) ⊠ (.c 2))) ⊟ (((.k 35 2) ⊠ (.c 0)) ⊠ (.s 1))) ⊞ ((.k 3735 4) ⊠ (.c 0))⟩,
    ⟨3, 3, ((.neg (.c 1)) ⊠ (.s 2)) ⊟ ((.s 1) ⊠ (.c 2))⟩,
    ⟨3, 4, (((.s 0) ⊠ (.s 1)) ⊠ (.s 2)) ⊟ (((.s 0) ⊠ (.c 1)) ⊠ (.c 2))⟩,
    ⟨3, 5, (((.c 0) ⊠ (.s 1)) ⊠ (.s 2)) ⊟ (((.c 0) ⊠ (.c 1)) ⊠ (.c 2))⟩,
    ⟨4, 3, ((.s 1) ⊠ (.s 2)) ⊟ ((.c 1) ⊠ (.c 2))⟩,
    ⟨4, 4, (((.s 0) ⊠ (.c 1)) ⊠ (.s 2)) ⊞ (((.s 0) ⊠ (.s 1)) ⊠ (.c 2))⟩,
    ⟨4, 5, (((.c 0) ⊠ (.c 1)) ⊠ (.s 2)) ⊞ (((.c 0) ⊠ (.s 1)) ⊠ (.c 2))⟩,
    ⟨5, 4, .c 0⟩,
    ⟨5, 5, .neg (.s 0)⟩]

/-- The transforms `fr_LF_foot_X_fr_trunk`. -/
def fr_LF_foot_X_fr_trunk : Trans := ⟨fr_LF_foot, fr_trunk, hom_fr_LF_foot_X_fr_trunk, motion_fr_LF_foot_X_fr_trunk, force_fr_LF_foot_X_fr_trunk⟩

/-- `HomogeneousTransforms::Type_fr_RF_foot_X_fr_trunk` (transforms.impl.h:9729-9736, 9738-9765). -/
def hom_fr_RF_foot_X_fr_trunk : Gen where
  rows := 4
  cols := 4
  ctor := [⟨2, 0, .k 0 0⟩,
    ⟨3, 0, .k 0 0⟩,
    ⟨3, 1, .k 0 0⟩,
    ⟨3, 2, .k 0 0⟩,
    ⟨3, 3, .k 1 0⟩]
  upd := [⟨0, 0, ((.neg (.c 4)) ⊠ (.s 5)) ⊟ ((.s 4) ⊠ (.c 5))⟩,
    ⟨0, 1, (((.s 3) ⊠ (.c 4)) ⊠ (.c 5)) ⊟ (((.s 3) ⊠ (.s 4)) ⊠ (.s 5))⟩,
    ⟨0, 2, (((.c 3) ⊠ (.s 4)) ⊠ (.s 5)) ⊟ (((.c 3) ⊠ (.c 4)) ⊠ (.c 5))⟩,
    ⟨0, 3, ((((((.k 8 2) ⊟ ((.k 207 3) ⊠ (.s 3))) ⊠ (.s 4)) ⊞ ((.k 3735 4) ⊠ (.c 4))) ⊠ (.s 5)) ⊞ (((((.k 3735 4) ⊠ (.s 4)) ⊞ ((((.k 207 3) ⊠ (.s 3)) ⊟ (.k 8 2)) ⊠ (.c 4))) ⊟ (.k 35 2)) ⊠ (.c 5))) ⊟ (.k 33 2)⟩,
    ⟨1, 0, ((.s 4) ⊠ (.s 5)) ⊟ ((.c 4) ⊠ (.c 5))⟩,
    ⟨1, 1, (((.neg (.s 3)) ⊠ (.c 4)) ⊠ (.s 5)) ⊟ (((.s 3) ⊠ (.s 4)) ⊠ (.c 5))⟩,
    ⟨1, 2, (((.c 3) ⊠ (.c 4)) ⊠ (.s 5)) ⊞ (((.c 3) ⊠ (.s 4)) ⊠ (.c 5))⟩,
    ⟨1, 3, (((((.neg (.k 3735 4)) ⊠ (.s 4)) ⊞ (((.k 8 2) ⊟ ((.k 207 3) ⊠ (.s 3))) ⊠ (.c 4))) ⊞ (.k 35 2)) ⊠ (.s 5)) ⊞ (((((.k 8 2) ⊟ ((.k 207 3) ⊠ (.s 3))) ⊠ (.s 4)) ⊞ ((.k 3735 4) ⊠ (.c 4))) ⊠ (.c 5))⟩,
    ⟨2, 1, .c 3⟩,
    ⟨2, 2, .s 3⟩,
    ⟨2, 3, (.k 207 3) ⊠ (.c 3)⟩]

/-- `MotionTransforms::Type_fr_RF_foot_X_fr_trunk` (transforms.impl.h:2675-2688, 2690-2731). -/
def motion_fr_RF_foot_X_fr_trunk : Gen where
  rows := 6
  cols := 6
  ctor := [⟨0, 3, .k 0 0⟩,
    ⟨0, 4, .k 0 0⟩,
    ⟨0, 5, .k 0 0⟩,
    ⟨1, 3, .k 0 0⟩,
    ⟨1, 4, .k 0 0⟩,
    ⟨1, 5, .k 0 0⟩,
    ⟨2, 0, .k 0 0⟩,
    ⟨2, 3, .k 0 0⟩,
    ⟨2, 4, .k 0 0⟩,
    ⟨2, 5, .k 0 0⟩,
    ⟨5, 3, .k 0 0⟩]
  upd := [⟨0, 0, ((.neg (.c 4)) ⊠ (.s 5)) ⊟ ((.s 4) ⊠ (.c 5))⟩,
    ⟨0, 1, (((.s 3) ⊠ (.c 4)) ⊠ (.c 5)) ⊟ (((.s 3) ⊠ (.s 4)) ⊠ (.s 5))⟩,
    ⟨0, 2, (((.c 3) ⊠ (.s 4)) ⊠ (.s 5)) ⊟ (((.c 3) ⊠ (.c 4)) ⊠ (.c 5))⟩,
    ⟨1, 0, ((.s 4) ⊠ (.s 5)) ⊟ ((.c 4) ⊠ (.c 5))⟩,
    ⟨1, 1, (((.neg (.s 3)) ⊠ (.c 4)) ⊠ (.s 5)) ⊟ (((.s 3) ⊠ (.s 4)) ⊠ (.c 5))⟩,
    ⟨1, 2, (((.c 3) ⊠ (.c 4)) ⊠ (.s 5)) ⊞ (((.c 3) ⊠ (.s 4)) ⊠ (.c 5))⟩,
    ⟨2, 1, .c 3⟩,
    ⟨2, 2, .s 3⟩,
    ⟨3, 0, ((((.k 207 3) ⊠ (.c 3)) ⊠ (.c 4)) ⊠ (.c 5)) ⊟ ((((.k 207 3) ⊠ (.c 3)) ⊠ (.s 4)) ⊠ (.s 5))⟩,
    ⟨3, 1, ((((((.neg (.k 3735 4)) ⊠ (.c 3)) ⊠ (.s 4)) ⊞ (((.k 8 2) ⊠ (.c 3)) ⊠ (.c 4))) ⊞ ((.k 35 2) ⊠ (.c 3))) ⊠ (.s 5)) ⊞ (((((.k 8 2) ⊠ (.c 3)) ⊠ (.s 4)) ⊞ (((.k 3735 4) ⊠ (.c 3)) ⊠ (.c 4))) ⊠ (.c 5))⟩,
    ⟨3, 2, ((((((.neg (.k 3735 4)) ⊠ (.s 3)) ⊠ (.s 4)) ⊞ ((((.k 8 2) ⊠ (.s 3)) ⊟ (.k 207 3)) ⊠ (.c 4))) ⊞ ((.k 35 2) ⊠ (.s 3))) ⊠ (.s 5)) ⊞ ((((((.k 8 2) ⊠ (.s 3)) ⊟ (.k 207 3)) ⊠ (.s 4)) ⊞ (((.k 3735 4) ⊠ (.s 3)) ⊠ (.c 4))) ⊠ (.c 5))⟩,
    ⟨3, 3, ((.neg (.c 4)) ⊠ (.s 5)) ⊟ ((.s 4) ⊠ (.c 5))⟩,
    ⟨3, 4, (((.s 3) ⊠ (.c 4)) ⊠ (.c 5)) ⊟ (((.s 3) ⊠ (.s 4)) ⊠ (.s 5))⟩,
    ⟨3, 5, (((.c 3) ⊠ (.s 4)) ⊠ (.s 5)) ⊟ (((.c 3) ⊠ (.c 4)) ⊠ (.c 5))⟩,
    ⟨4, 0, ((((.neg (.k 207 3)) ⊠ (.c 3)) ⊠ (.c 4)) ⊠ (.s 5)) ⊟ ((((.k 207 3) ⊠ (.c 3)) ⊠ (.s 4)) ⊠ (.c 5))⟩,
    ⟨4, 1, ((((((.neg (.k 8 2)) ⊠ (.c 3)) ⊠ (.s 4)) ⊟ (((.k 3735 4) ⊠ (.c 3)) ⊠ (.c 4))) ⊠ (.s 5)) ⊞ ((((((.neg (.k 3735 4)) ⊠ (.c 3)) ⊠ (.s 4)) ⊞ (((.k 8 2) ⊠ (.c 3)) ⊠ (.c 4))) ⊞ ((.k 35 2) ⊠ (.c 3))) ⊠ (.c 5))) ⊞ ((.k 33 2) ⊠ (.c 3))⟩,
    ⟨4, 2, ((((((.k 207 3) ⊟ ((.k 8 2) ⊠ (.s 3))) ⊠ (.s 4)) ⊟ (((.k 3735 4) ⊠ (.s 3)) ⊠ (.c 4))) ⊠ (.s 5)) ⊞ ((((((.neg (.k 3735 4)) ⊠ (.s 3)) ⊠ (.s 4)) ⊞ ((((.k 8 2) ⊠ (.s 3)) ⊟ (.k 207 3)) ⊠ (.c 4))) ⊞ ((.k 35 2) ⊠ (.s 3))) ⊠ (.c 5))) ⊞ ((.k 33 2) ⊠ (.s 3))⟩,
    ⟨4, 3, ((.s 4) ⊠ (.s 5)) ⊟ ((.c 4) ⊠ (.c 5))⟩,
    ⟨4, 4, (((.neg (.s 3)) ⊠ (.c 4)) ⊠ (.s 5)) ⊟ (((.s 3) ⊠ (.s 4)) ⊠ (.c 5))⟩,
    ⟨4, 5, (((.c 3) ⊠ (.c 4)) ⊠ (.s 5)) ⊞ (((.c 3) ⊠ (.s 4)) ⊠ (.c 5))⟩,
    ⟨5, 0, ((((((.neg (.k 33 2)) ⊠ (.s 4)) ⊠ (.s 5)) ⊞ (((.k 33 2) ⊠ (.c 4)) ⊠ (.c 5))) ⊞ ((.k 35 2) ⊠ (.c 4))) ⊟ ((.k 207 3) ⊠ (.s 3))) ⊞ (.k 8 2)⟩,
    ⟨5, 1, ((((((.k 33 2) ⊠ (.s 3)) ⊠ (.c 4)) ⊠ (.s 5)) ⊞ ((((.k 33 2) ⊠ (.s 3)) ⊠ (.s 4)) ⊠ (.c 5))) ⊞ (((.k 35 2) ⊠ (.s 3)) ⊠ (.s 4))) ⊟ ((.k 3735 4) ⊠ (.s 3))⟩,
    ⟨5, 2, ((((((.neg (.k 33 2)) ⊠ (.c 3)) ⊠ (.c 4)) ⊠ (.s 5)) ⊟ ((((.k 33 2) ⊠ (.c 3)) ⊠ (.s 4)) ⊠ (.c 5))) ⊟ (((.k 35 2) ⊠ (.c 3)) ⊠ (.s 4))) ⊞ ((.k 3735 4) ⊠ (.c 3))⟩,
    ⟨5, 4, .c 3⟩,
    ⟨5, 5, .s 3⟩]

/-- `ForceTransforms::Type_fr_RF_foot_X_fr_trunk` (transforms.impl.h:6652-6665, 6667-6708). -/
def force_fr_RF_foot_X_fr_trunk : Gen where
  rows := 6
  cols := 6
  ctor := [⟨2, 0, .k 0 0⟩,
    ⟨3, 0, .k 0 0⟩,
    ⟨3, 1, .k 0 0⟩,
    ⟨3, 2, .k 0 0⟩,
    ⟨4, 0, .k 0 0⟩,
    ⟨4, 1, .k 0 0⟩,
    ⟨4, 2, .k 0 0⟩,
    ⟨5, 0, .k 0 0⟩,
    ⟨5, 1, .k 0 0⟩,
    ⟨5, 2, .k 0 0⟩,
    ⟨5, 3, .k 0 0⟩]
  upd := [⟨0, 0, ((.neg (.c 4)) ⊠ (.s 5)) ⊟ ((.s 4) ⊠ (.c 5))⟩,
    ⟨0, 1, (((.s 3) ⊠ (.c 4)) ⊠ (.c 5)) ⊟ (((.s 3) ⊠ (.s 4)) ⊠ (.s 5))⟩,
    ⟨0, 2, (((.c 3) ⊠ (.s 4)) ⊠ (.s 5)) ⊟ (((.c 3) ⊠ (.c 4)) ⊠ (.c 5))⟩,
    ⟨0, 3, ((((.k 207 3) ⊠ (.c 3)) ⊠ (.c 4)) ⊠ (.c 5)) ⊟ ((((.k 207 3) ⊠ (.c 3)) ⊠ (.s 4)) ⊠ (.s 5))⟩,
    ⟨0, 4, ((((((.neg (.k 3735 4)) ⊠ (.c 3)) ⊠ (.s 4)) ⊞ (((.k 8 2) ⊠ (.c 3)) ⊠ (.c 4))) ⊞ ((.k 35 2) ⊠ (.c 3))) ⊠ (.s 5)) ⊞ (((((.k 8 2) ⊠ (.c 3)) ⊠ (.s 4)) ⊞ (((.k 3735 4) ⊠ (.c 3)) ⊠ (.c 4))) ⊠ (.c 5))⟩,
    ⟨0, 5, ((((((.neg (.k 3735 4)) ⊠ (.s 3)) ⊠ (.s 4)) ⊞ ((((.k 8 2) ⊠ (.s 3)) ⊟ (.k 207 3)) ⊠ (.c 4))) ⊞ ((.k 35 2) ⊠ (.s 3))) ⊠ (.s 5)) ⊞ ((((((.k 8 2) ⊠ (.s 3)) ⊟ (.k 207 3)) ⊠ (.s 4)) ⊞ (((.k 3735 4) ⊠ (.s 3)) ⊠ (.c 4))) ⊠ (.c 5))⟩,
    ⟨1, 0, ((.s 4) ⊠ (.s 5)) ⊟ ((.c 4) ⊠ (.c 5))⟩,
    ⟨1, 1, (((.neg (.s 3)) ⊠ (.c 4)) ⊠ (.s 5)) ⊟ (((.s 3) ⊠ (.s 4)) ⊠ (.c 5))⟩,
    ⟨1, 2, (((.c 3) ⊠ (.c 4)) ⊠ (.s 5)) ⊞ (((.c 3) ⊠ (.s 4)) ⊠ (.c 5))⟩,
    ⟨1, 3, ((((.neg (.k 207 3)) ⊠ (.c 3)) ⊠ (.c 4)) ⊠ (.s 5)) ⊟ ((((.k 207 3) ⊠ (.c 3)) ⊠ (.s 4)) ⊠ (.c 5))⟩,
    ⟨1, 4, ((((((.neg (.k 8 2)) ⊠ (.c 3)) ⊠ (.s 4)) ⊟ (((.k 3735 4) ⊠ (.c 3)) ⊠ (.c 4))) ⊠ (.s 5)) ⊞ ((((((.neg (.k 3735 4)) ⊠ (.c 3)) ⊠ (.s 4)) ⊞ (((.k 8 2) ⊠ (.c 3)) ⊠ (.c 4))) ⊞ ((.k 35 2) ⊠ (.c 3))) ⊠ (.c 5))) ⊞ ((.k 33 2) ⊠ (.c 3))⟩,
    ⟨1, 5, ((((((.k 207 3) ⊟ ((.k 8 2) ⊠ (.s 3))) ⊠ (.s 4)) ⊟ (((.k 3735 4) ⊠ (.s 3)) ⊠ (.c 4))) ⊠ (.s 5)) ⊞ ((((((.neg (.k 3735 4)) ⊠ (.s 3)) ⊠ (.s 4)) ⊞ ((((.k 8 2) ⊠ (.s 3)) ⊟ (.k 207 3)) ⊠ (.c 4))) ⊞ ((.k 35 2) ⊠ (.s 3))) ⊠ (.c 5))) ⊞ ((.k 33 2) ⊠ (.s 3))⟩,
    ⟨2, 1, .c 3⟩,
    ⟨2, 2, .s 3⟩,
    ⟨2, 3, ((((((.neg (.k 33 2)) ⊠ (.s 4)) ⊠ (.s 5)) ⊞ (((.k 33 2) ⊠ (.c 4)) ⊠ (.c 5))) ⊞ ((.k 35 2) ⊠ (.c 4))) ⊟ ((.k 207 3) ⊠ (.s 3))) ⊞ (.k 8 2)⟩,
    ⟨2, 4, ((((((.k 33 2) ⊠ (.s 3)) ⊠ (.c 4)) ⊠ (.s 5)) ⊞ ((((.k 33 2) ⊠ (.s 3)) ⊠ (.s 4)) ⊠ (.c 5))) ⊞ (((.k 35 2) ⊠ (.s 3)) ⊠ (.s 4))) ⊟ ((.k 3735 4) ⊠ (.s 3))⟩,
    ⟨2, 5, ((((((.neg (.k 33 2)) ⊠ (.c 3)) ⊠ (.c 4)) ⊠ (.s 5)) ⊟ ((((.k 33 2) ⊠ (.c 3)) ⊠ (.s 4)) ⊠ (.c 5))) ⊟ (((.k 35 2) ⊠ (.c 3)) ⊠ (.s 4))) ⊞ ((.k 3735 4) ⊠ (.c 3))⟩,
    ⟨3, 3, ((.neg (.c 4)) ⊠ (.s 5)) ⊟ ((.s 4) ⊠ (.c 5))⟩,
    ⟨3, 4, (((.s 3) ⊠ (.c 4)) ⊠ (.c 5)) ⊟ (((.s 3) ⊠ (.s 4)) ⊠ (.s 5))⟩,
    ⟨3, 5, (((.c 3) ⊠ (.s 4)) ⊠ (.s 5)) ⊟ (((.c 3) ⊠ (.c 4)) ⊠ (.c 5))⟩,
    ⟨4, 3, ((.s 4) ⊠ (.s 5)) ⊟ ((.c 4) ⊠ (.c 5))⟩,
    ⟨4, 4, (((.neg (.s 3)) ⊠ (.c 4)) ⊠ (.s 5)) ⊟ (((.s 3) ⊠ (.s 4)) ⊠ (.c 5))⟩,
    ⟨4, 5, (((.c 3) ⊠ (.c 4)) ⊠ (.s 5)) ⊞ (((.c 3) ⊠ (.s 4)) ⊠ (.c 5))⟩,
    ⟨5, 4, .c 3⟩,
    ⟨5, 5, .s 3⟩]

/-- The transforms `fr_RF_foot_X_fr_trunk`. -/
def fr_RF_foot_X_fr_trunk : Trans := ⟨fr_RF_foot, fr_trunk, hom_fr_RF_foot_X_fr_trunk, motion_fr_RF_foot_X_fr_trunk, force_fr_RF_foot_X_fr_trunk⟩

/-- `HomogeneousTransforms::Type_fr_LH_foot_X_fr_trunk` (transforms.impl.h:9767-9774, 9776-9803). -/
def hom_fr_LH_foot_X_fr_trunk : Gen where
  rows := 4
  cols := 4
  ctor := [⟨2, 0, .k 0 0⟩,
    ⟨3, 0, .k 0 0⟩,
    ⟨3, 1, .k 0 0⟩,
    ⟨3, 2, .k 0 0⟩,
    ⟨3, 3, .k 1 0⟩]
  upd := [⟨0, 0, ((.neg (.c 7)) ⊠ (.s 8)) ⊟ ((.s 7) ⊠ (.c 8))⟩,
    ⟨0, 1, (((.s 6) ⊠ (.s 7)) ⊠ (.s 8)) ⊟ (((.s 6) ⊠ (.c 7)) ⊠ (.c 8))⟩,
    ⟨0, 2, (((.c 6) ⊠ (.s 7)) ⊠ (.s 8)) ⊟ (((.c 6) ⊠ (.c 7)) ⊠ (.c 8))⟩,
    ⟨0, 3, ((((((.k 8 2) ⊟ ((.k 207 3) ⊠ (.s 6))) ⊠ (.s 7)) ⊟ ((.k 3735 4) ⊠ (.c 7))) ⊠ (.s 8)) ⊞ (((((.neg (.k 3735 4)) ⊠ (.s 7)) ⊞ ((((.k 207 3) ⊠ (.s 6)) ⊟ (.k 8 2)) ⊠ (.c 7))) ⊟ (.k 35 2)) ⊠ (.c 8))) ⊟ (.k 33 2)⟩,
    ⟨1, 0, ((.s 7) ⊠ (.s 8)) ⊟ ((.c 7) ⊠ (.c 8))⟩,
    ⟨1, 1, (((.s 6) ⊠ (.c 7)) ⊠ (.s 8)) ⊞ (((.s 6) ⊠ (.s 7)) ⊠ (.c 8))⟩,
    ⟨1, 2, (((.c 6) ⊠ (.c 7)) ⊠ (.s 8)) ⊞ (((.c 6) ⊠ (.s 7)) ⊠ (.c 8))⟩,
    ⟨1, 3, (((((.k 3735 4) ⊠ (.s 7)) ⊞ (((.k 8 2) ⊟ ((.k 207 3) ⊠ (.s 6))) ⊠ (.c 7))) ⊞ (.k 35 2)) ⊠ (.s 8)) ⊞ (((((.k 8 2) ⊟ ((.k 207 3) ⊠ (.s 6))) ⊠ (.s 7)) ⊟ ((.k 3735 4) ⊠ (.c 7))) ⊠ (.c 8))⟩,
    ⟨2, 1, .c 6⟩,
    ⟨2, 2, .neg (.s 6)⟩,
    ⟨2, 3, (.neg (.k 207 3)) ⊠ (.c 6)⟩]

/-- `MotionTransforms::Type_fr_LH_foot_X_fr_trunk` (transforms.impl.h:2733-2746, 2748-2789). -/
def motion_fr_LH_foot_X_fr_trunk : Gen where
  rows := 6
  cols := 6
  ctor := [⟨0, 3, .k 0 0⟩,
    ⟨0, 4, .k 0 0⟩,
    ⟨0, 5, .k 0 0⟩,
    ⟨1, 3, .k 0 0⟩,
    ⟨1, 4, .k 0 0⟩,
    ⟨1, 5, .k 0 0⟩,
    ⟨2, 0, .k 0 0⟩,
    ⟨2, 3, .k 0 0⟩,
    ⟨2, 4, .k 0 0⟩,
    ⟨2, 5, .k 0 0⟩,
    ⟨5, 3, .k 0 0⟩]
  upd := [⟨0, 0, ((.neg (.c 7)) ⊠ (.s 8)) ⊟ ((.s 7) ⊠ (.c 8))⟩,
    ⟨0, 1, (((.s 6) ⊠ (.s 7)) ⊠ (.s 8)) ⊟ (((.s 6) ⊠ (.c 7)) ⊠ (.c 8))⟩,
    ⟨0, 2, (((.c 6) ⊠ (.s 7)) ⊠ (.s 8)) ⊟ (((.c 6) ⊠ (.c 7)) ⊠ (.c 8))⟩,
    ⟨1, 0, ((.s 7) ⊠ (.s 8)) ⊟ ((.c 7) ⊠ (.c 8))⟩,
    ⟨1, 1, (((.s 6) ⊠ (.c 7)) ⊠ (.s 8)) ⊞ (((.s 6) ⊠ (.s 7)) ⊠ (.c 8))⟩,
    ⟨1, 2, (((.c 6) ⊠ (.c 7)) ⊠ (.s 8)) ⊞ (((.c 6) ⊠ (.s 7)) ⊠ (.c 8))⟩,
    ⟨2, 1, .c 6⟩,
    ⟨2, 2, .neg (.s 6)⟩,
    ⟨3, 0, ((((.k 207 3) ⊠ (.c 6)) ⊠ (.s 7)) ⊠ (.s 8)) ⊟ ((((.k 207 3) ⊠ (.c 6)) ⊠ (.c 7)) ⊠ (.c 8))⟩,
    ⟨3, 1, ((((((.k 3735 4) ⊠ (.c 6)) ⊠ (.s 7)) ⊞ (((.k 8 2) ⊠ (.c 6)) ⊠ (.c 7))) ⊞ ((.k 35 2) ⊠ (.c 6))) ⊠ (.s 8)) ⊞ (((((.k 8 2) ⊠ (.c 6)) ⊠ (.s 7)) ⊟ (((.k 3735 4) ⊠ (.c 6)) ⊠ (.c 7))) ⊠ (.c 8))⟩,
    ⟨3, 2, ((((((.neg (.k 3735 4)) ⊠ (.s 6)) ⊠ (.s 7)) ⊞ (((.k 207 3) ⊟ ((.k 8 2) ⊠ (.s 6))) ⊠ (.c 7))) ⊟ ((.k 35 2) ⊠ (.s 6))) ⊠ (.s 8)) ⊞ (((((.k 207 3) ⊟ ((.k 8 2) ⊠ (.s 6))) ⊠ (.s 7)) ⊞ (((.k 3735 4) ⊠ (.s 6)) ⊠ (.c 7))) ⊠ (.c 8))⟩,
    ⟨3, 3, ((.neg (.c 7)) ⊠ (.s 8)) ⊟ ((.s 7) ⊠ (.c 8))⟩,
    ⟨3, 4, (((.s 6) ⊠ (.s 7)) ⊠ (.s 8)) ⊟ (((.s 6) ⊠ (.c 7)) ⊠ (.c 8))⟩,
    ⟨3, 5, (((.c 6) ⊠ (.s 7)) ⊠ (.s 8)) ⊟ (((.c 6) ⊠ (.c 7)) ⊠ (.c 8))⟩,
    ⟨4, 0, ((((.k 207 3) ⊠ (.c 6)) ⊠ (.c 7)) ⊠ (.s 8)) ⊞ ((((.k 207 3) ⊠ (.c 6)) ⊠ (.s 7)) ⊠ (.c 8))⟩,
    ⟨4, 1, ((((((.k 3735 4) ⊠ (.c 6)) ⊠ (.c 7)) ⊟ (((.k 8 2) ⊠ (.c 6)) ⊠ (.s 7))) ⊠ (.s 8)) ⊞ ((((((.k 3735 4) ⊠ (.c 6)) ⊠ (.s 7)) ⊞ (((.k 8 2) ⊠ (.c 6)) ⊠ (.c 7))) ⊞ ((.k 35 2) ⊠ (.c 6))) ⊠ (.c 8))) ⊞ ((.k 33 2) ⊠ (.c 6))⟩,
    ⟨4, 2, (((((((.k 8 2) ⊠ (.s 6)) ⊟ (.k 207 3)) ⊠ (.s 7)) ⊟ (((.k 3735 4) ⊠ (.s 6)) ⊠ (.c 7))) ⊠ (.s 8)) ⊞ ((((((.neg (.k 3735 4)) ⊠ (.s 6)) ⊠ (.s 7)) ⊞ (((.k 207 3) ⊟ ((.k 8 2) ⊠ (.s 6))) ⊠ (.c 7))) ⊟ ((.k 35 2) ⊠ (.s 6))) ⊠ (.c 8))) ⊟ ((.k 33 2) ⊠ (.s 6))⟩,
    ⟨4, 3, ((.s 7) ⊠ (.s 8)) ⊟ ((.c 7) ⊠ (.c 8))⟩,
    ⟨4, 4, (((.s 6) ⊠ (.c 7)) ⊠ (.s 8)) ⊞ (((.s 6) ⊠ (.s 7)) ⊠ (.c 8))⟩,
    ⟨4, 5, (((.c 6) ⊠ (.c 7)) ⊠ (.s 8)) ⊞ (((.c 6) ⊠ (.s 7)) ⊠ (.c 8))⟩,
    ⟨5, 0, ((((((.neg (.k 33 2)) ⊠ (.s 7)) ⊠ (.s 8)) ⊞ (((.k 33 2) ⊠ (.c 7)) ⊠ (.c 8))) ⊞ ((.k 35 2) ⊠ (.c 7))) ⊟ ((.k 207 3) ⊠ (.s 6))) ⊞ (.k 8 2)⟩,
    ⟨5, 1, ((((((.neg (.k 33 2)) ⊠ (.s 6)) ⊠ (.c 7)) ⊠ (.s 8)) ⊟ ((((.k 33 2) ⊠ (.s 6)) ⊠ (.s 7)) ⊠ (.c 8))) ⊟ (((.k 35 2) ⊠ (.s 6)) ⊠ (.s 7))) ⊟ ((.k 3735 4) ⊠ (.s 6))⟩,
    ⟨5, 2, ((((((.neg (.k 33 2)) ⊠ (.c 6)) ⊠ (.c 7)) ⊠ (.s 8)) ⊟ ((((.k 33 2) ⊠ (.c 6)) ⊠ (.s 7)) ⊠ (.c 8))) ⊟ (((.k 35 2) ⊠ (.c 6)) ⊠ (.s 7))) ⊟ ((.k 3735 4) ⊠ (.c 6))⟩,
    ⟨5, 4, .c 6⟩,
    ⟨5, 5, .neg (.s 6)⟩]

/-- `ForceTransforms::Type_fr_LH_foot_X_fr_trunk` (transforms.impl.h:6710-6723, 6725-6766). -/
def force_fr_LH_foot_X_fr_trunk : Gen where
  rows := 6
  cols := 6
  ctor := [⟨2, 0, .k 0 0⟩,
    ⟨3, 0, .k 0 0⟩,
    ⟨3, 1, .k 0 0⟩,
    ⟨3, 2, .k 0 0⟩,
    ⟨4, 0, .k 0 0⟩,
    ⟨4, 1, .k 0 0⟩,
    ⟨4, 2, .k 0 0⟩,
    ⟨5, 0, .k 0 0⟩,
    ⟨5, 1, .k 0 0⟩,
    ⟨5, 2, .k 0 0⟩,
    ⟨5, 3, .k 0 0⟩]
  upd := [⟨0, 0, ((.neg (.c 7)) ⊠ (.s 8)) ⊟ ((.s 7) ⊠ (.c 8))⟩,
    ⟨0, 1, (((.s 6) ⊠ (.s 7)) ⊠ (.s 8)) ⊟ (((.s 6) ⊠ (.c 7)) ⊠ (.c 8))⟩,
    ⟨0, 2, (((.c 6) ⊠ (.s 7)) ⊠ (.s 8)) ⊟ (((.c 6) ⊠ (.c 7)) ⊠ (.c 8))⟩,
    ⟨0, 3, ((((.k 207 3) ⊠ (.c 6)) ⊠ (.s 7)) ⊠ (.s 8)) ⊟ ((((.k 207 3) ⊠ (.c 6)) ⊠ (.c 7)) ⊠ (.c 8))⟩,
    ⟨0, 4, ((((((.k 3735 4) ⊠ (.c 6)) ⊠ (.s 7)) ⊞ (((.k 8 2) ⊠ (.c 6)) ⊠ (.c 7))) ⊞ ((.k 35 2) ⊠ (.c 6))) ⊠ (.s 8)) ⊞ (((((.k 8 2) ⊠ (.c 6)) ⊠ (.s 7)) ⊟ (((.k 3735 4) ⊠ (.c 6)) ⊠ (.c 7))) ⊠ (.c 8))⟩,
    ⟨0, 5, ((((((.neg (.k 3735 4)) ⊠ (.s 6)) ⊠ (.s 7)) ⊞ (((.k 207 3) ⊟ ((.k 8 2) ⊠ (.s 6))) ⊠ (.c 7))) ⊟ ((.k 35 2) ⊠ (.s 6))) ⊠ (.s 8)) ⊞ (((((.k 207 3) ⊟ ((.k 8 2) ⊠ (.s 6))) ⊠ (.s 7)) ⊞ (((.k 3735 4) ⊠ (.s 6)) ⊠ (.c 7))) ⊠ (.c 8))⟩,
    ⟨1, 0, ((.s 7) ⊠ (.s 8)) ⊟ ((.c 7) ⊠ (.c 8))⟩,
    ⟨1, 1, (((.s 6) ⊠ (.c 7)) ⊠ (.s 8)) ⊞ (((.s 6) ⊠ (.s 7)) ⊠ (.c 8))⟩,
    ⟨1, 2, (((.c 6) ⊠ (.c 7)) ⊠ (.s 8)) ⊞ (((.c 6) ⊠ (.s 7)) ⊠ (.c 8))⟩,
    ⟨1, 3, ((((.k 207 3) ⊠ (.c 6)) ⊠ (.c 7)) ⊠ (.s 8)) ⊞ ((((.k 207 3) ⊠ (.c 6)) ⊠ (.s 7)) ⊠ (.c 8))⟩,
    ⟨1, 4, ((((((.k 3735 4) ⊠ (.c 6)) ⊠ (.c 7)) ⊟ (((.k 8 2) ⊠ (.c 6)) ⊠ (.s 7))) ⊠ (.s 8)) ⊞ ((((((.k 3735 4) ⊠ (.c 6)) ⊠ (.s 7)) ⊞ (((.k 8 2) ⊠ (.c 6)) ⊠ (.c 7))) ⊞ ((.k 35 2) ⊠ (.c 6))) ⊠ (.c 8))) ⊞ ((.k 33 2) ⊠ (.c 6))⟩,
    ⟨1, 5, (((((((.k 8 2) ⊠ (.s 6)) ⊟ (.k 207 3)) ⊠ (.s 7)) ⊟ (((.k 3735 4) ⊠ (.s 6)) ⊠ (.c 7))) ⊠ (.s 8)) ⊞ ((((((.neg (.k 3735 4)) ⊠ (.s 6)) ⊠ (.s 7)) ⊞ (((.k 207 3) ⊟ ((.k 8 2) ⊠ (.s 6))) ⊠ (.c 7))) ⊟ ((.k 35 2) ⊠ (.s 6))) ⊠ (.c 8))) ⊟ ((.k 33 2) ⊠ (.s 6))⟩,
    ⟨2, 1, .c 6⟩,
    ⟨2, 2, .neg (.s 6)⟩,
    ⟨2, 3, ((((((.neg (.k 33 2)) ⊠ (.s 7)) ⊠ (.s 8)) ⊞ (((.k 33 2) ⊠ (.c 7)) ⊠ (.c 8))) ⊞ ((.k 35 2) ⊠ (.c 7))) ⊟ ((.k 207 3) ⊠ (.s 6))) ⊞ (.k 8 2)⟩,
    ⟨2, 4, ((((((.neg (.k 33 2)) ⊠ (.s 6)) ⊠ (.c 7)) ⊠ (.s 8)) ⊟ ((((.k 33 2) ⊠ (.s 6)) ⊠ (.s 7)) ⊠ (.c 8))) ⊟ (((.k 35 2) ⊠ (.s 6)) ⊠ (.s 7))) ⊟ ((.k 3735 4) ⊠ (.s 6))⟩,
    ⟨2, 5, ((((((.neg (.k 33 2)) ⊠ (.c 6)) ⊠ (.c 7)) ⊠ (.s 8)) ⊟ ((((.k 33 2) ⊠ (.c 6)) ⊠ (.s 7)) ⊠ (.c 8))) ⊟ (((.k 35 2) ⊠ (.c 6)) ⊠ (.s 7))) ⊟ ((.k 3735 4) ⊠ (.c 6))⟩,
    ⟨3, 3, ((.neg (.c 7)) ⊠ (.s 8)) ⊟ ((.s 7) ⊠ (.c 8))⟩,
    ⟨3, 4, (((.s 6) ⊠ (.s 7)) ⊠ (.s 8)) ⊟ (((.s 6) ⊠ (.c 7)) ⊠ (.c 8))⟩,
    ⟨3, 5, (((.c 6) ⊠ (.s 7)) ⊠ (.s 8)) ⊟ (((.c 6) ⊠ (.c 7)) ⊠ (.c 8))⟩,
    ⟨4, 3, ((.s 7) ⊠ (.s 8)) ⊟ ((.c 7) ⊠ (.c 8))⟩,
    ⟨4, 4, (((.s 6) ⊠ (.c 7)) ⊠ (.s 8)) ⊞ (((.s 6) ⊠ (.s 7)) ⊠ (.c 8))⟩,
    ⟨4, 5, (((.c 6) ⊠ (.c 7)) ⊠ (.s 8)) ⊞ (((.c 6) ⊠ (.s 7)) ⊠ (.c 8))⟩,
    ⟨5, 4, .c 6⟩,
    ⟨5, 5, .neg (.s 6)⟩]

/-- The transforms `fr_LH_foot_X_fr_trunk`. -/
def fr_LH_foot_X_fr_trunk : Trans := ⟨fr_LH_foot, fr_trunk, hom_fr_LH_foot_X_fr_trunk, motion_fr_LH_foot_X_fr_trunk, force_fr_LH_foot_X_fr_trunk⟩

/-- `HomogeneousTransforms::Type_fr_RH_foot_X_fr_trunk` (transforms.impl.h:9805-9812, 9814-9841). -/
def hom_fr_RH_foot_X_fr_trunk : Gen where
  rows := 4
  cols := 4
  ctor := [⟨2, 0, .k 0 0⟩,
    ⟨3, 0, .k 0 0⟩,
    ⟨3, 1, .k 0 0⟩,
    ⟨3, 2, .k 0 0⟩,
    ⟨3, 3, .k 1 0⟩]
  upd := [⟨0, 0, ((.neg (.c 10)) ⊠ (.s 11)) ⊟ ((.s 10) ⊠ (.c 11))⟩,
    ⟨0, 1, (((.s 9) ⊠ (.c 10)) ⊠ (.c 11)) ⊟ (((.s 9) ⊠ (.s 10)) ⊠ (.s 11))⟩,
    ⟨0, 2, (((.c 9) ⊠ (.s 10)) ⊠ (.s 11)) ⊟ (((.c 9) ⊠ (.c 10)) ⊠ (.c 11))⟩,
    ⟨0, 3, ((((((.k 8 2) ⊟ ((.k 207 3) ⊠ (.s 9))) ⊠ (.s 10)) ⊟ ((.k 3735 4) ⊠ (.c 10))) ⊠ (.s 11)) ⊞ (((((.neg (.k 3735 4)) ⊠ (.s 10)) ⊞ ((((.k 207 3) ⊠ (.s 9)) ⊟ (.k 8 2)) ⊠ (.c 10))) ⊟ (.k 35 2)) ⊠ (.c 11))) ⊟ (.k 33 2)⟩,
    ⟨1, 0, ((.s 10) ⊠ (.s 11)) ⊟ ((.c 10) ⊠ (.c 11))⟩,
    ⟨1, 1, (((.neg (.s 9)) ⊠ (.c 10)) ⊠ (.s 11)) ⊟ (((.s 9) ⊠ (.s 10)) ⊠ (.c 11))⟩,
    ⟨1, 2, (((.c 9) ⊠ (.c 10)) ⊠ (.s 11)) ⊞ (((.c 9) ⊠ (.s 10)) ⊠ (.c 11))⟩,
    ⟨1, 3, (((((.k 3735 4) ⊠ (.s 10)) ⊞ (((.k 8 2) ⊟ ((.k 207 3) ⊠ (.s 9))) ⊠ (.c 10))) ⊞ (.k 35 2)) ⊠ (.s 11)) ⊞ (((((.k 8 2) ⊟ ((.k 207 3) ⊠ (.s 9))) ⊠ (.s 10)) ⊟ ((.k 3735 4) ⊠ (.c 10))) ⊠ (.c 11))⟩,
    ⟨2, 1, .c 9⟩,
    ⟨2, 2, .s 9⟩,
    ⟨2, 3, (.k 207 3) ⊠ (.c 9)⟩]

/-- `MotionTransforms::Type_fr_RH_foot_X_fr_trunk` (transforms.impl.h:2791-2804, 2806-2847). -/
def motion_fr_RH_foot_X_fr_trunk : Gen where
  rows := 6
  cols := 6
  ctor := [⟨0, 3, .k 0 0⟩,
    ⟨0, 4, .k 0 0⟩,
    ⟨0, 5, .k 0 0⟩,
    ⟨1, 3, .k 0 0⟩,
    ⟨1, 4, .k 0 0⟩,
    ⟨1, 5, .k 0 0⟩,
    ⟨2, 0, .k 0 0⟩,
    ⟨2, 3, .k 0 0⟩,
    ⟨2, 4, .k 0 0⟩,
    ⟨2, 5, .k 0 0⟩,
    ⟨5, 3, .k 0 0⟩]
  upd := [⟨0, 0, ((.neg (.c 10)) ⊠ (.s 11)) ⊟ ((.s 10) ⊠ (.c 11))⟩,
    ⟨0, 1, (((.s 9) ⊠ (.c 10)) ⊠ (.c 11)) ⊟ (((.s 9) ⊠ (.s 10)) ⊠ (.s 11))⟩,
    ⟨0, 2, (((.c 9) ⊠ (.s 10)) ⊠ (.s 11)) ⊟ (((.c 9) ⊠ (.c 10)) ⊠ (.c 11))⟩,
    ⟨1, 0, ((.s 10) ⊠ (.s 11)) ⊟ ((.c 10) ⊠ (.c 11))⟩,
    ⟨1, 1, (((.neg (.s 9)) ⊠ (.c 10)) ⊠ (.s 11)) ⊟ (((.s 9) ⊠ (.s 10)) ⊠ (.c 11))⟩,
    ⟨1, 2, (((.c 9) ⊠ (.c 10)) ⊠ (.s 11)) ⊞ (((.c 9) ⊠ (.s 10)) ⊠ (.c 11))⟩,
    ⟨2, 1, .c 9⟩,
    ⟨2, 2, .s 9⟩,
    ⟨3, 0, ((((.k 207 3) ⊠ (.c 9)) ⊠ (.c 10)) ⊠ (.c 11)) ⊟ ((((.k 207 3) ⊠ (.c 9)) ⊠ (.s 10)) ⊠ (.s 11))⟩,
    ⟨3, 1, ((((((.k 3735 4) ⊠ (.c 9)) ⊠ (.s 10)) ⊞ (((.k 8 2) ⊠ (.c 9)) ⊠ (.c 10))) ⊞ ((.k 35 2) ⊠ (.c 9))) ⊠ (.s 11)) ⊞ (((((.k 8 2) ⊠ (.c 9)) ⊠ (.s 10)) ⊟ (((.k 3735 4) ⊠ (.c 9)) ⊠ (.c 10))) ⊠ (.c 11))⟩,
    ⟨3, 2, ((((((.k 3735 4) ⊠ (.s 9)) ⊠ (.s 10)) ⊞ ((((.k 8 2) ⊠ (.s 9)) ⊟ (.k 207 3)) ⊠ (.c 10))) ⊞ ((.k 35 2) ⊠ (.s 9))) ⊠ (.s 11)) ⊞ ((((((.k 8 2) ⊠ (.s 9)) ⊟ (.k 207 3)) ⊠ (.s 10)) ⊟ (((.k 3735 4) ⊠ (.s 9)) ⊠ (.c 10))) ⊠ (.c 11))⟩,
    ⟨3, 3, ((.neg (.c 10)) ⊠ (.s 11)) ⊟ ((.s 10) ⊠ (.c 11))⟩,
    ⟨3, 4, (((.s 9) ⊠ (.c 10)) ⊠ (.c 11)) ⊟ (((.s 9) ⊠ (.s 10)) ⊠ (.s 11))⟩,
    ⟨3, 5, (((.c 9) ⊠ (.s 10)) ⊠ (.s 11)) ⊟ (((.c 9) ⊠ (.c 10)) ⊠ (.c 11))⟩,
    ⟨4, 0, ((((.neg (.k 207 3)) ⊠ (.c 9)) ⊠ (.c 10)) ⊠ (.s 11)) ⊟ ((((.k 207 3) ⊠ (.c 9)) ⊠ (.s 10)) ⊠ (.c 11))⟩,
    ⟨4, 1, ((((((.k 3735 4) ⊠ (.c 9)) ⊠ (.c 10)) ⊟ (((.k 8 2) ⊠ (.c 9)) ⊠ (.s 10))) ⊠ (.s 11)) ⊞ ((((((.k 3735 4) ⊠ (.c 9)) ⊠ (.s 10)) ⊞ (((.k 8 2) ⊠ (.c 9)) ⊠ (.c 10))) ⊞ ((.k 35 2) ⊠ (.c 9))) ⊠ (.c 11))) ⊞ ((.k 33 2) ⊠ (.c 9))⟩,
    ⟨4, 2, ((((((.k 207 3) ⊟ ((.k 8 2) ⊠ (.s 9))) ⊠ (.s 10)) ⊞ (((.k 3735 4) ⊠ (.s 9)) ⊠ (.c 10))) ⊠ (.s 11)) ⊞ ((((((.k 3735 4) ⊠ (.s 9)) ⊠ (.s 10)) ⊞ ((((.k 8 2) ⊠ (.s 9)) ⊟ (.k 207 3)) ⊠ (.c 10))) ⊞ ((.k 35 2) ⊠ (.s 9))) ⊠ (.c 11))) ⊞ ((.k 33 2) ⊠ (.s 9))⟩,
    ⟨4, 3, ((.s 10) ⊠ (.s 11)) ⊟ ((.c 10) ⊠ (.c 11))⟩,
    ⟨4, 4, (((.neg (.s 9)) ⊠ (.c 10)) ⊠ (.s 11)) ⊟ (((.s 9) ⊠ (.s 10)) ⊠ (.c 11))⟩,
    ⟨4, 5, (((.c 9) ⊠ (.c 10)) ⊠ (.s 11)) ⊞ (((.c 9) ⊠ (.s 10)) ⊠ (.c 11))⟩,
    ⟨5, 0, ((((((.neg (.k 33 2)) ⊠ (.s 10)) ⊠ (.s 11)) ⊞ (((.k 33 2) ⊠ (.c 10)) ⊠ (.c 11))) ⊞ ((.k 35 2) ⊠ (.c 10))) ⊟ ((.k 207 3) ⊠ (.s 9))) ⊞ (.k 8 2)⟩,
    ⟨5, 1, ((((((.k 33 2) ⊠ (.s 9)) ⊠ (.c 10)) ⊠ (.s 11)) ⊞ ((((.k 33 2) ⊠ (.s 9)) ⊠ (.s 10)) ⊠ (.c 11))) ⊞ (((.k 35 2) ⊠ (.s 9)) ⊠ (.s 10))) ⊞ ((.k 3735 4) ⊠ (.s 9))⟩,
    ⟨5, 2, ((((((.neg (.k 33 2)) ⊠ (.c 9)) ⊠ (.c 10)) ⊠ (.s 11)) ⊟ ((((.k 33 2) ⊠ (.c 9)) ⊠ (.s 10)) ⊠ (.c 11))) ⊟ (((.k 35 2) ⊠ (.c 9)) ⊠ (.s 10))) ⊟ ((.k 3735 4) ⊠ (.c 9))⟩,
    ⟨5, 4, .c 9⟩,
    ⟨5, 5, .s 9⟩]

/-- `ForceTransforms::Type_fr_RH_foot_X_fr_trunk` (transforms.impl.h:6768-6781, 6783-6824). -/
def force_fr_RH_foot_X_fr_trunk : Gen where
  rows := 6
  cols := 6
  ctor := [⟨2, 0, .k 0 0⟩,
    ⟨3, 0, .k 0 0⟩,
    ⟨3, 1, .k 0 0⟩,
    ⟨3, 2, .k 0 0⟩,
    ⟨4, 0, .k 0 0⟩,
    ⟨4, 1, .k 0 0⟩,
    ⟨4, 2, .k 0 0⟩,
    ⟨5, 0, .k 0 0⟩,
    ⟨5, 1, .k 0 0⟩,
    ⟨5, 2, .k 0 0⟩,
    ⟨5, 3, .k 0 0⟩]
  upd := [⟨0, 0, ((.neg (.c 10)) ⊠ (.s 11)) ⊟ ((.s 10) ⊠ (.c 11))⟩,
    ⟨0, 1, (((.s 9) ⊠ (.c 10)) ⊠ (.c 11)) ⊟ (((.s 9) ⊠ (.s 10)) ⊠ (.s 11))⟩,
    ⟨0, 2, (((.c 9) ⊠ (.s 10)) ⊠ (.s 11)) ⊟ (((.c 9) ⊠ (.c 10)) ⊠ (.c 11))⟩,
    ⟨0, 3, ((((.k 207 3) ⊠ (.c 9)) ⊠ (.c 10)) ⊠ (.c 11)) ⊟ ((((.k 207 3) ⊠ (.c 9)) ⊠ (.s 10)) ⊠ (.s 11))⟩,
    ⟨0, 4, ((((((.k 3735 4) ⊠ (.c 9)) ⊠ (.s 10)) ⊞ (((.k 8 2) ⊠ (.c 9)) ⊠ (.c 10))) ⊞ ((.k 35 2) ⊠ (.c 9))) ⊠ (.s 11)) ⊞ (((((.k 8 2) ⊠ (.c 9)) ⊠ (.s 10)) ⊟ (((.k 3735 4) ⊠ (.c 9)) ⊠ (.c 10))) ⊠ (.c 11))⟩,
    ⟨0, 5, ((((((.k 3735 4) ⊠ (.s 9)) ⊠ (.s 10)) ⊞ ((((.k 8 2) ⊠ (.s 9)) ⊟ (.k 207 3)) ⊠ (.c 10))) ⊞ ((.k 35 2) ⊠ (.s 9))) ⊠ (.s 11)) ⊞ ((((((.k 8 2) ⊠ (.s 9)) ⊟ (.k 207 3)) ⊠ (.s 10)) ⊟ (((.k 3735 4) ⊠ (.s 9)) ⊠ (.c 10))) ⊠ (.c 11))⟩,
    ⟨1, 0, ((.s 10) ⊠ (.s 11)) ⊟ ((.c 10) ⊠ (.c 11))⟩,
    ⟨1, 1, (((.neg (.s 9)) ⊠ (.c 10)) ⊠ (.s 11)) ⊟ (((.s 9) ⊠ (.s 10)) ⊠ (.c 11))⟩,
    ⟨1, 2, (((.c 9) ⊠ (.c 10)) ⊠ (.s 11)) ⊞ (((.c 9) ⊠ (.s 10)) ⊠ (.c 11))⟩,
    ⟨1, 3, ((((.neg (.k 207 3)) ⊠ (.c 9)) ⊠ (.c 10)) ⊠ (.s 11)) ⊟ ((((.k 207 3) ⊠ (.c 9)) ⊠ (.s 10)) ⊠ (.c 11))⟩,
    ⟨1, 4, ((((((.k 3735 4) ⊠ (.c 9)) ⊠ (.c 10)) ⊟ (((.k 8 2) ⊠ (.c 9)) ⊠ (.s 10))) ⊠ (.s 11)) ⊞ ((((((.k 3735 4) ⊠ (.c 9)) ⊠ (.s 10)) ⊞ (((.k 8 2) ⊠ (.c 9)) ⊠ (.c 10))) ⊞ ((.k 35 2) ⊠ (.c 9))) ⊠ (.c 11))) ⊞ ((.k 33 2) ⊠ (.c 9))⟩,
    ⟨1, 5, ((((((.k 207 3) ⊟ ((.k 8 2) ⊠ (.s 9))) ⊠ (.s 10)) ⊞ (((.k 3735 4) ⊠ (.s 9)) ⊠ (.c 10))) ⊠ (.s 11)) ⊞ ((((((.k 3735 4) ⊠ (.s 9)) ⊠ (.s 10)) ⊞ ((((.k 8 2) ⊠ (.s 9)) ⊟ (.k 207 3)) ⊠ (.c 10))) ⊞ ((.k 35 2) ⊠ (.s 9))) ⊠ (.c 11))) ⊞ ((.k 33 2) ⊠ (.s 9))⟩,
    ⟨2, 1, .c 9⟩,
    ⟨2, 2, .s 9⟩,
    ⟨2, 3, ((((((.neg (.k 33 2)) ⊠ (.s 10)) ⊠ (.s 11)) ⊞ (((.k 33 2) ⊠ (.c 10)) ⊠ (.c 11))) ⊞ ((.k 35 2) ⊠ (.c 10))) ⊟ ((.k 207 3) ⊠ (.s 9))) ⊞ (.k 8 2)⟩,
    ⟨2, 4, ((((((.k 33 2) ⊠ (.s 9)) ⊠ (.c 10)) ⊠ (.s 11)) ⊞ ((((.k 33 2) ⊠ (.s 9)) ⊠ (.s 10)) ⊠ (.c 11))) ⊞ (((.k 35 2) ⊠ (.s 9)) ⊠ (.s 10))) ⊞ ((.k 3735 4) ⊠ (.s 9))⟩,
    ⟨2, 5, ((((((.neg (.k 33 2)) ⊠ (.c 9)) ⊠ (.c 10)) ⊠ (.s 11)) ⊟ ((((.k 33 2) ⊠ (.c 9)) ⊠ (.s 10)) ⊠ (.c 11))) ⊟ (((.k 35 2) ⊠ (.c 9)) ⊠ (.s 10))) ⊟ ((.k 3735 4) ⊠ (.c 9))⟩,
    ⟨3, 3, ((.neg (.c 10)) ⊠ (.s 11)) ⊟ ((.s 10) ⊠ (.c 11))⟩,
    ⟨3, 4, (((.s 9) ⊠ (.c 10)) ⊠ (.c 11)) ⊟ (((.s 9) ⊠ (.s 10)) ⊠ (.s 11))⟩,
    ⟨3, 5, (((.c 9) ⊠ (.s 10)) ⊠ (.s 11)) ⊟ (((.c 9) ⊠ (.c 10)) ⊠ (.c 11))⟩,
    ⟨4, 3, ((.s 10) ⊠ (.s 11)) ⊟ ((.c 10) ⊠ (.c 11))⟩,
    ⟨4, 4, (((.neg (.s 9)) ⊠ (.c 10)) ⊠ (.s 11)) ⊟ (((.s 9) ⊠ (.s 10)) ⊠ (.c 11))⟩,
    ⟨4, 5, (((.c 9) ⊠ (.c 10)) ⊠ (.s 11)) ⊞ (((.c 9) ⊠ (.s 10)) ⊠ (.c 11))⟩,
    ⟨5, 4, .c 9⟩,
    ⟨5, 5, .s 9⟩]

/-- The transforms `fr_RH_foot_X_fr_trunk`. -/
def fr_RH_foot_X_fr_trunk : Trans := ⟨fr_RH_foot, fr_trunk, hom_fr_RH_foot_X_fr_trunk, motion_fr_RH_foot_X_fr_trunk, force_fr_RH_foot_X_fr_trunk⟩

/-- `HomogeneousTransforms::Type_fr_trunk_X_fr_LF_HAA` (transforms.impl.h:9843-9861, 9863-9865). -/
def hom_fr_trunk_X_fr_LF_HAA : Gen where
  rows := 4
  cols := 4
  ctor := [⟨0, 0, .k 0 0⟩,
    ⟨0, 1, .k 0 0⟩,
    ⟨0, 2, .neg (.k 1 0)⟩,
    ⟨0, 3, .k 3735 4⟩,
    ⟨1, 0, .k 0 0⟩,
    ⟨1, 1, .neg (.k 1 0)⟩,
    ⟨1, 2, .k 0 0⟩,
    ⟨1, 3, .k 207 3⟩,
    ⟨2, 0, .neg (.k 1 0)⟩,
    ⟨2, 1, .k 0 0⟩,
    ⟨2, 2, .k 0 0⟩,
    ⟨2, 3, .k 0 0⟩,
    ⟨3, 0, .k 0 0⟩,
    ⟨3, 1, .k 0 0⟩,
    ⟨3, 2, .k 0 0⟩,
    ⟨3, 3, .k 1 0⟩]
  upd := []

/-- `MotionTransforms::Type_fr_trunk_X_fr_LF_HAA` (transforms.impl.h:2849-2887, 2889-2891). -/
def motion_fr_trunk_X_fr_LF_HAA : Gen where
  rows := 6
  cols := 6
  ctor := [⟨0, 0, .k 0 0⟩,
    ⟨0, 1, .k 0 0⟩,
    ⟨0, 2, .neg (.k 1 0)⟩,
    ⟨0, 3, .k 0 0⟩,
    ⟨0, 4, .k 0 0⟩,
    ⟨0, 5, .k 0 0⟩,
    ⟨1, 0, .k 0 0⟩,
    ⟨1, 1, .neg (.k 1 0)⟩,
    ⟨1, 2, .k 0 0⟩,
    ⟨1, 3, .k 0 0⟩,
    ⟨1, 4, .k 0 0⟩,
    ⟨1, 5, .k 0 0⟩,
    ⟨2, 0, .neg (.k 1 0)⟩,
    ⟨2, 1, .k 0 0⟩,
    ⟨2, 2, .k 0 0⟩,
    ⟨2, 3, .k 0 0⟩,
    ⟨2, 4, .k 0 0⟩,
    ⟨2, 5, .k 0 0⟩,
    ⟨3, 0, .neg (.k 207 3)⟩,
    ⟨3, 1, .k 0 0⟩,
    ⟨3, 2, .k 0 0⟩,
    ⟨3, 3, .k 0 0⟩,
    ⟨3, 4, .k 0 0⟩,
    ⟨3, 5, .neg (.k 1 0)⟩,
    ⟨4, 0, .k 3735 4⟩,
    ⟨4, 1, .k 0 0⟩,
    ⟨4, 2, .k 0 0⟩,
    ⟨4, 3, .k 0 0⟩,
    ⟨4, 4, .neg (.k 1 0)⟩,
    ⟨4, 5, .k 0 0⟩,
    ⟨5, 0, .k 0 0⟩,
    ⟨5, 1, .neg (.k 3735 4)⟩,
    ⟨5, 2, .k 207 3⟩,
    ⟨5, 3, .neg (.k 1 0)⟩,
    ⟨5, 4, .k 0 0⟩,
    ⟨5, 5, .k 0 0⟩]
  upd := []

/-- `ForceTransforms::Type_fr_trunk_X_fr_LF_HAA` (transforms.impl.h:6826-6864, 6866-6868). -/
def force_fr_trunk_X_fr_LF_HAA : Gen where
  rows := 6
  cols := 6
  ctor := [⟨0, 0, .k 0 0⟩,
    ⟨0, 1, .k 0 0⟩,
    ⟨0, 2, .neg (.k 1 0)⟩,
    ⟨0, 3, .neg (.k 207 3)⟩,
    ⟨0, 4, .k 0 0⟩,
    ⟨0, 5, .k 0 0⟩,
    ⟨1, 0, .k 0 0⟩,
    ⟨1, 1, .neg (.k 1 0)⟩,
    ⟨1, 2, .k 0 0⟩,
    ⟨1, 3, .k 3735 4⟩,
    ⟨1, 4, .k 0 0⟩,
    ⟨1, 5, .k 0 0⟩,
    ⟨2, 0, .neg (.k 1 0)⟩,
    ⟨2, 1, .k 0 0⟩,
    ⟨2, 2, .k 0 0⟩,
    ⟨2, 3, .k 0 0⟩,
    ⟨2, 4, .neg (.k 3735 4)⟩,
    ⟨2, 5, .k 207 3⟩,
    ⟨3, 0, .k 0 0⟩,
    ⟨3, 1, .k 0 0⟩,
    ⟨3, 2, .k 0 0⟩,
    ⟨3, 3, .k 0 0⟩,
    ⟨3, 4, .k 0 0⟩,
    ⟨3, 5, .neg (.k 1 0)⟩,
    ⟨4, 0, .k 0 0⟩,
    ⟨4, 1, .k 0 0⟩,
    ⟨4, 2, .k 0 0⟩,
    ⟨4, 3, .k 0 0⟩,
    ⟨4, 4, .neg (.k 1 0)⟩,
    ⟨4, 5, .k 0 0⟩,
    ⟨5, 0, .k 0 0⟩,
    ⟨5, 1, .k 0 0⟩,
    ⟨5, 2, .k 0 0⟩,
    ⟨5, 3, .neg (.k 1 0)⟩,
    ⟨5, 4, .k 0 0⟩,
    ⟨5, 5, .k 0 0⟩]
  upd := []

/-- The transforms `fr_trunk_X_fr_LF_HAA`. -/
def fr_trunk_X_fr_LF_HAA : Trans := ⟨fr_trunk, fr_LF_HAA, hom_fr_trunk_X_fr_LF_HAA, motion_fr_trunk_X_fr_LF_HAA, force_fr_trunk_X_fr_LF_HAA⟩

/-- `HomogeneousTransforms::Type_fr_trunk_X_fr_RF_HAA` (transforms.impl.h:9867-9885, 9887-9889). -/
def hom_fr_trunk_X_fr_RF_HAA : Gen where
  rows := 4
  cols := 4
  ctor := [⟨0, 0, .k 0 0⟩,
    ⟨0, 1, .k 0 0⟩,
    ⟨0, 2, .k 1 0⟩,
    ⟨0, 3, .k 3735 4⟩,
    ⟨1, 0, .k 0 0⟩,
    ⟨1, 1, .k 1 0⟩,
    ⟨1, 2, .k 0 0⟩,
    ⟨1, 3, .neg (.k 207 3)⟩,
    ⟨2, 0, .neg (.k 1 0)⟩,
    ⟨2, 1, .k 0 0⟩,
    ⟨2, 2, .k 0 0⟩,
    ⟨2, 3, .k 0 0⟩,
    ⟨3, 0, .k 0 0⟩,
    ⟨3, 1, .k 0 0⟩,
    ⟨3, 2, .k 0 0⟩,
    ⟨3, 3, .k 1 0⟩]
  upd := []

/-- `MotionTransforms::Type_fr_trunk_X_fr_RF_HAA` (transforms.impl.h:2893-2931, 2933-2935). -/
def motion_fr_trunk_X_fr_RF_HAA : Gen where
  rows := 6
  cols := 6
  ctor := [⟨0, 0, .k 0 0⟩,
    ⟨0, 1, .k 0 0⟩,
    ⟨0, 2, .k 1 0⟩,
    ⟨0, 3, .k 0 0⟩,
    ⟨0, 4, .k 0 0⟩,
    ⟨0, 5, .k 0 0⟩,
    ⟨1, 0, .k 0 0⟩,
    ⟨1, 1, .k 1 0⟩,
    ⟨1, 2, .k 0 0⟩,
    ⟨1, 3, .k 0 0⟩,
    ⟨1, 4, .k 0 0⟩,
    ⟨1, 5, .k 0 0⟩,
    ⟨2, 0, .neg (.k 1 0)⟩,
    ⟨2, 1, .k 0 0⟩,
    ⟨2, 2, .k 0 0⟩,
    ⟨2, 3, .k 0 0⟩,
    ⟨2, 4, .k 0 0⟩,
    ⟨2, 5, .k 0 0⟩,
    ⟨3, 0, .k 207 3⟩,
    ⟨3, 1, .k 0 0⟩,
    ⟨3, 2, .k 0 0⟩,
    ⟨3, 3, .k 0 0⟩,
    ⟨3, 4, .k 0 0⟩,
    ⟨3, 5, .k 1 0⟩,
    ⟨4, 0, .k 3735 4⟩,
    ⟨4, 1, .k 0 0⟩,
    ⟨4, 2, .k 0 0⟩,
    ⟨4, 3, .k 0 0⟩,
    ⟨4, 4, .k 1 0⟩,
    ⟨4, 5, .k 0 0⟩,
    ⟨5, 0, .k 0 0⟩,
    ⟨5, 1, .k 3735 4⟩,
    ⟨5, 2, .k 207 3⟩,
    ⟨5, 3, .neg (.k 1 0)⟩,
    ⟨5, 4, .k 0 0⟩,
    ⟨5, 5, .k 0 0⟩]
  upd := []

/-- `ForceTransforms::Type_fr_trunk_X_fr_RF_HAA` (transforms.impl.h:6870-6908, 6910-6912). -/
def force_fr_trunk_X_fr_RF_HAA : Gen where
  rows := 6
  cols := 6
  ctor := [⟨0, 0, .k 0 0⟩,
    ⟨0, 1, .k 0 0⟩,
    ⟨0, 2, .k 1 0⟩,
    ⟨0, 3, .k 207 3⟩,
    ⟨0, 4, .k 0 0⟩,
    ⟨0, 5, .k 0 0⟩,
    ⟨1, 0, .k 0 0⟩,
    ⟨1, 1, .k 1 0⟩,
    ⟨1, 2, .k 0 0⟩,
    ⟨1, 3, .k 3735 4⟩,
    ⟨1, 4, .k 0 0⟩,
    ⟨1, 5, .k 0 0⟩,
    ⟨2, 0, .neg (.k 1 0)⟩,
    ⟨2, 1, .k 0 0⟩,
    ⟨2, 2, .k 0 0⟩,
    ⟨2, 3, .k 0 0⟩,
    ⟨2, 4, .k 3735 4⟩,
    ⟨2, 5, .k 207 3⟩,
    ⟨3, 0, .k 0 0⟩,
    ⟨3, 1, .k 0 0⟩,
    ⟨3, 2, .k 0 0⟩,
    ⟨3, 3, .k 0 0⟩,
    ⟨3, 4, .k 0 0⟩,
    ⟨3, 5, .k 1 0⟩,
    ⟨4, 0, .k 0 0⟩,
    ⟨4, 1, .k 0 0⟩,
    ⟨4, 2, .k 0 0⟩,
    ⟨4, 3, .k 0 0⟩,
    ⟨4, 4, .k 1 0⟩,
    ⟨4, 5, .k 0 0⟩,
    ⟨5, 0, .k 0 0⟩,
    ⟨5, 1, .k 0 0⟩,
    ⟨5, 2, .k 0 0⟩,
    ⟨5, 3, .neg (.k 1 0)⟩,
    ⟨5, 4, .k 0 0⟩,
    ⟨5, 5, .k 0 0⟩]
  upd := []

/-- The transforms `fr_trunk_X_fr_RF_HAA`. -/
def fr_trunk_X_fr_RF_HAA : Trans := ⟨fr_trunk, fr_RF_HAA, hom_fr_trunk_X_fr_RF_HAA, motion_fr_trunk_X_fr_RF_HAA, force_fr_trunk_X_fr_RF_HAA⟩

/-- `HomogeneousTransforms::Type_fr_trunk_X_fr_LH_HAA` (transforms.impl.h:9891-9909, 9911-9913). -/
def hom_fr_trunk_X_fr_LH_HAA : Gen where
  rows := 4
  cols := 4
  ctor := [⟨0, 0, .k 0 0⟩,
    ⟨0, 1, .k 0 0⟩,
    ⟨0, 2, .neg (.k 1 0)⟩,
    ⟨0, 3, .neg (.k 3735 4)⟩,
    ⟨1, 0, .k 0 0⟩,
    ⟨1, 1, .neg (.k 1 0)⟩,
    ⟨1, 2, .k 0 0⟩,
    ⟨1, 3, .k 207 3⟩,
    ⟨2, 0, .neg (.k 1 0)⟩,
    ⟨2, 1, .k 0 0⟩,
    ⟨2, 2, .k 0 0⟩,
    ⟨2, 3, .k 0 0⟩,
    ⟨3, 0, .k 0 0⟩,
    ⟨3, 1, .k 0 0⟩,
    ⟨3, 2, .k 0 0⟩,
    ⟨3, 3, .k 1 0⟩]
  upd := []

/-- `MotionTransforms::Type_fr_trunk_X_fr_LH_HAA` (transforms.impl.h:2937-2975, 2977-2979). -/
def motion_fr_trunk_X_fr_LH_HAA : Gen where
  rows := 6
  cols := 6
  ctor := [⟨0, 0, .k 0 0⟩,
    ⟨0, 1, .k 0 0⟩,
    ⟨0, 2, .neg (.k 1 0)⟩,
    ⟨0, 3, .k 0 0⟩,
    ⟨0, 4, .k 0 0⟩,
    ⟨0, 5, .k 0 0⟩,
    ⟨1, 0, .k 0 0⟩,
    ⟨1, 1, .neg (.k 1 0)⟩,
    ⟨1, 2, .k 0 0⟩,
    ⟨1, 3, .k 0 0⟩,
    ⟨1, 4, .k 0 0⟩,
    ⟨1, 5, .k 0 0⟩,
    ⟨2, 0, .neg (.k 1 0)⟩,
    ⟨2, 1, .k 0 0⟩,
    ⟨2, 2, .k 0 0⟩,
    ⟨2, 3, .k 0 0⟩,
    ⟨2, 4, .k 0 0⟩,
    ⟨2, 5, .k 0 0⟩,
    ⟨3, 0, .neg (.k 207 3)⟩,
    ⟨3, 1, .k 0 0⟩,
    ⟨3, 2, .k 0 0⟩,
    ⟨3, 3, .k 0 0⟩,
    ⟨3, 4, .k 0 0⟩,
    ⟨3, 5, .neg (.k 1 0)⟩,
    ⟨4, 0, .neg (.k 3735 4)⟩,
    ⟨4, 1, .k 0 0⟩,
    ⟨4, 2, .k 0 0⟩,
    ⟨4, 3, .k 0 0⟩,
    ⟨4, 4, .neg (.k 1 0)⟩,
    ⟨4, 5, .k 0 0⟩,
    ⟨5, 0, .k 0 0⟩,
    ⟨5, 1, .k 3735 4⟩,
    ⟨5, 2, .k 207 3⟩,
    ⟨5, 3, .neg (.k 1 0)⟩,
    ⟨5, 4, .k 0 0⟩,
    ⟨5, 5, .k 0 0⟩]
  upd := []

/-- `ForceTransforms::Type_fr_trunk_X_fr_LH_HAA` (transforms.impl.h:6914-6952, 6954-6956). -/
def force_fr_trunk_X_fr_LH_HAA : Gen where
  rows := 6
  cols := 6
  ctor := [⟨0, 0, .k 0 0⟩,
    ⟨0, 1, .k 0 0⟩,
    ⟨0, 2, .neg (.k 1 0)⟩,
    ⟨0, 3, .neg (.k 207 3)⟩,
    ⟨0, 4, .k 0 0⟩,
    ⟨0, 5, .k 0 0⟩,
    ⟨1, 0, .k 0 0⟩,
    ⟨1, 1, .neg (.k 1 0)⟩,
    ⟨1, 2, .k 0 0⟩,
    ⟨1, 3, .neg (.k 3735 4)⟩,
    ⟨1, 4, .k 0 0⟩,
    ⟨1, 5, .k 0 0⟩,
    ⟨2, 0, .neg (.k 1 0)⟩,
    ⟨2, 1, .k 0 0⟩,
    ⟨2, 2, .k 0 0⟩,
    ⟨2, 3, .k 0 0⟩,
    ⟨2, 4, .k 3735 4⟩,
    ⟨2, 5, .k 207 3⟩,
    ⟨3, 0, .k 0 0⟩,
    ⟨3, 1, .k 0 0⟩,
    ⟨3, 2, .k 0 0⟩,
    ⟨3, 3, .k 0 0⟩,
    ⟨3, 4, .k 0 0⟩,
    ⟨3, 5, .neg (.k 1 0)⟩,
    ⟨4, 0, .k 0 0⟩,
    ⟨4, 1, .k 0 0⟩,
    ⟨4, 2, .k 0 0⟩,
    ⟨4, 3, .k 0 0⟩,
    ⟨4, 4, .neg (.k 1 0)⟩,
    ⟨4, 5, .k 0 0⟩,
    ⟨5, 0, .k 0 0⟩,
    ⟨5, 1, .k 0 0⟩,
    ⟨5, 2, .k 0 0⟩,
    ⟨5, 3, .neg (.k 1 0)⟩,
    ⟨5, 4, .k 0 0⟩,
    ⟨5, 5, .k 0 0⟩]
  upd := []

/-- The transforms `fr_trunk_X_fr_LH_HAA`. -/
def fr_trunk_X_fr_LH_HAA : Trans := ⟨fr_trunk, fr_LH_HAA, hom_fr_trunk_X_fr_LH_HAA, motion_fr_trunk_X_fr_LH_HAA, force_fr_trunk_X_fr_LH_HAA⟩

/-- `HomogeneousTransforms::Type_fr_trunk_X_fr_RH_HAA` (transforms.impl.h:9915-9933, 9935-9937). -/
def hom_fr_trunk_X_fr_RH_HAA : Gen where
  rows := 4
  cols := 4
  ctor := [⟨0, 0, .k 0 0⟩,
    ⟨0, 1, .k 0 0⟩,
    ⟨0, 2, .k 1 0⟩,
    ⟨0, 3, .neg (.k 3735 4)⟩,
    ⟨1, 0, .k 0 0⟩,
    ⟨1, 1, .k 1 0⟩,
    ⟨1, 2, .k 0 0⟩,
    ⟨1, 3, .neg (.k 207 3)⟩,
    ⟨2, 0, .neg (.k 1 0)⟩,
    ⟨2, 1, .k 0 0⟩,
    ⟨2, 2, .k 0 0⟩,
    ⟨2, 3, .k 0 0⟩,
    ⟨3, 0, .k 0 0⟩,
    ⟨3, 1, .k 0 0⟩,
    ⟨3, 2, .k 0 0⟩,
    ⟨3, 3, .k 1 0⟩]
  upd := []

/-- `MotionTransforms::Type_fr_trunk_X_fr_RH_HAA` (transforms.impl.h:2981-3019, 3021-3023). -/
def motion_fr_trunk_X_fr_RH_HAA : Gen where
  rows := 6
  cols := 6
  ctor := [⟨0, 0, .k 0 0⟩,
    ⟨0, 1, .k 0 0⟩,
    ⟨0, 2, .k 1 0⟩,
    ⟨0, 3, .k 0 0⟩,
    ⟨0, 4, .k 0 0⟩,
    ⟨0, 5, .k 0 0⟩,
    ⟨1, 0, .k 0 0⟩,
    ⟨1, 1, .k 1 0⟩,
    ⟨1, 2, .k 0 0⟩,
    ⟨1, 3, .k 0 0⟩,
    ⟨1, 4, .k 0 0⟩,
    ⟨1, 5, .k 0 0⟩,
    ⟨2, 0, .neg (.k 1 0)⟩,
    ⟨2, 1, .k 0 0⟩,
    ⟨2, 2, .k 0 0⟩,
    ⟨2, 3, .k 0 0⟩,
    ⟨2, 4, .k 0 0⟩,
    ⟨2, 5, .k 0 0⟩,
    ⟨3, 0, .k 207 3⟩,
    ⟨3, 1, .k 0 0⟩,
    ⟨3, 2, .k 0 0⟩,
    ⟨3, 3, .k 0 0⟩,
    ⟨3, 4, .k 0 0⟩,
    ⟨3, 5, .k 1 0⟩,
    ⟨4, 0, .neg (.k 3735 4)⟩,
    ⟨4, 1, .k 0 0⟩,
    ⟨4, 2, .k 0 0⟩,
    ⟨4, 3, .k 0 0⟩,
    ⟨4, 4, .k 1 0⟩,
    ⟨4, 5, .k 0 0⟩,
    ⟨5, 0, .k 0 0⟩,
    ⟨5, 1, .neg (.k 3735 4)⟩,
    ⟨5, 2, .k 207 3⟩,
    ⟨5, 3, .neg (.k 1 0)⟩,
    ⟨5, 4, .k 0 0⟩,
    ⟨5, 5, .k 0 0⟩]
  upd := []

/-- `ForceTransforms::Type_fr_trunk_X_fr_RH_HAA` (transforms.impl.h:6958-6996, 6998-7000). -/
def force_fr_trunk_X_fr_RH_HAA : Gen where
  rows := 6
  cols := 6
  ctor := [⟨0, 0, .k 0 0⟩,
    ⟨0, 1, .k 0 0⟩,
    ⟨0, 2, .k 1 0⟩,
    ⟨0, 3, .k 207 3⟩,
    ⟨0, 4, .k 0 0⟩,
    ⟨0, 5, .k 0 0⟩,
    ⟨1, 0, .k 0 0⟩,
    ⟨1, 1, .k 1 0⟩,
    ⟨1, 2, .k 0 0⟩,
    ⟨1, 3, .neg (.k 3735 4)⟩,
    ⟨1, 4, .k 0 0⟩,
    ⟨1, 5, .k 0 0⟩,
    ⟨2, 0, .neg (.k 1 0)⟩,
    ⟨2, 1, .k 0 0⟩,
    ⟨2, 2, .k 0 0⟩,
    ⟨2, 3, .k 0 0⟩,
    ⟨2, 4, .neg (.k 3735 4)⟩,
    ⟨2, 5, .k 207 3⟩,
    ⟨3, 0, .k 0 0⟩,
    ⟨3, 1, .k 0 0⟩,
    ⟨3, 2, .k 0 0⟩,
    ⟨3, 3, .k 0 0⟩,
    ⟨3, 4, .k 0 0⟩,
    ⟨3, 5, .k 1 0⟩,
    ⟨4, 0, .k 0 0⟩,
    ⟨4, 1, .k 0 0⟩,
    ⟨4, 2, .k 0 0⟩,
    ⟨4, 3, .k 0 0⟩,
    ⟨4, 4, .k 1 0⟩,
    ⟨4, 5, .k 0 0⟩,
    ⟨5, 0, .k 0 0⟩,
    ⟨5, 1, .k 0 0⟩,
    ⟨5, 2, .k 0 0⟩,
    ⟨5, 3, .neg (.k 1 0)⟩,
    ⟨5, 4, .k 0 0⟩,
    ⟨5, 5, .k 0 0⟩]
  upd := []

/-- The transforms `fr_trunk_X_fr_RH_HAA`. -/
def fr_trunk_X_fr_RH_HAA : Trans := ⟨fr_trunk, fr_RH_HAA, hom_fr_trunk_X_fr_RH_HAA, motion_fr_trunk_X_fr_RH_HAA, force_fr_trunk_X_fr_RH_HAA⟩

/-- `HomogeneousTransforms::Type_fr_trunk_X_fr_LF_HFE` (transforms.impl.h:9939-9951, 9953-9967). -/
def hom_fr_trunk_X_fr_LF_HFE : Gen where
  rows := 4
  cols := 4
  ctor := [⟨0, 0, .k 0 0⟩,
    ⟨0, 1, .neg (.k 1 0)⟩,
    ⟨0, 2, .k 0 0⟩,
    ⟨0, 3, .k 3735 4⟩,
    ⟨1, 1, .k 0 0⟩,
    ⟨2, 1, .k 0 0⟩,
    ⟨3, 0, .k 0 0⟩,
    ⟨3, 1, .k 0 0⟩,
    ⟨3, 2, .k 0 0⟩,
    ⟨3, 3, .k 1 0⟩]
  upd := [⟨1, 0, .neg (.s 0)⟩,
    ⟨1, 2, .c 0⟩,
    ⟨1, 3, (.k 207 3) ⊟ ((.k 8 2) ⊠ (.s 0))⟩,
    ⟨2, 0, .neg (.c 0)⟩,
    ⟨2, 2, .neg (.s 0)⟩,
    ⟨2, 3, (.neg (.k 8 2)) ⊠ (.c 0)⟩]

/-- `MotionTransforms::Type_fr_trunk_X_fr_LF_HFE` (transforms.impl.h:3025-3047, 3049-3073). -/
def motion_fr_trunk_X_fr_LF_HFE : Gen where
  rows := 6
  cols := 6
  ctor := [⟨0, 0, .k 0 0⟩,
    ⟨0, 1, .neg (.k 1 0)⟩,
    ⟨0, 2, .k 0 0⟩,
    ⟨0, 3, .k 0 0⟩,
    ⟨0, 4, .k 0 0⟩,
    ⟨0, 5, .k 0 0⟩,
    ⟨1, 1, .k 0 0⟩,
    ⟨1, 3, .k 0 0⟩,
    ⟨1, 4, .k 0 0⟩,
    ⟨1, 5, .k 0 0⟩,
    ⟨2, 1, .k 0 0⟩,
    ⟨2, 3, .k 0 0⟩,
    ⟨2, 4, .k 0 0⟩,
    ⟨2, 5, .k 0 0⟩,
    ⟨3, 1, .k 0 0⟩,
    ⟨3, 3, .k 0 0⟩,
    ⟨3, 4, .neg (.k 1 0)⟩,
    ⟨3, 5, .k 0 0⟩,
    ⟨4, 4, .k 0 0⟩,
    ⟨5, 4, .k 0 0⟩]
  upd := [⟨1, 0, .neg (.s 0)⟩,
    ⟨1, 2, .c 0⟩,
    ⟨2, 0, .neg (.c 0)⟩,
    ⟨2, 2, .neg (.s 0)⟩,
    ⟨3, 0, (.neg (.k 207 3)) ⊠ (.c 0)⟩,
    ⟨3, 2, (.k 8 2) ⊟ ((.k 207 3) ⊠ (.s 0))⟩,
    ⟨4, 0, (.k 3735 4) ⊠ (.c 0)⟩,
    ⟨4, 1, (.k 8 2) ⊠ (.c 0)⟩,
    ⟨4, 2, (.k 3735 4) ⊠ (.s 0)⟩,
    ⟨4, 3, .neg (.s 0)⟩,
    ⟨4, 5, .c 0⟩,
    ⟨5, 0, (.neg (.k 3735 4)) ⊠ (.s 0)⟩,
    ⟨5, 1, (.k 207 3) ⊟ ((.k 8 2) ⊠ (.s 0))⟩,
    ⟨5, 2, (.k 3735 4) ⊠ (.c 0)⟩,
    ⟨5, 3, .neg (.c 0)⟩,
    ⟨5, 5, .neg (.s 0)⟩]

/-- `ForceTransforms::Type_fr_trunk_X_fr_LF_HFE` (transforms.impl.h:7002-7024, 7026-7050). -/
def force_fr_trunk_X_fr_LF_HFE : Gen where
  rows := 6
  cols := 6
  ctor := [⟨0, 0, .k 0 0⟩,
    ⟨0, 1, .neg (.k 1 0)⟩,
    ⟨0, 2, .k 0 0⟩,
    ⟨0, 4, .k 0 0⟩,
    ⟨1, 1, .k 0 0⟩,
    ⟨2, 1, .k 0 0⟩,
    ⟨3, 0, .k 0 0⟩,
    ⟨3, 1, .k 0 0⟩,
    ⟨3, 2, .k 0 0⟩,
    ⟨3, 3, .k 0 0⟩,
    ⟨3, 4, .neg (.k 1 0)⟩,
    ⟨3, 5, .k 0 0⟩,
    ⟨4, 0, .k 0 0⟩,
    ⟨4, 1, .k 0 0⟩,
    ⟨4, 2, .k 0 0⟩,
    ⟨4, 4, .k 0 0⟩,
    ⟨5, 0, .k 0 0⟩,
    ⟨5, 1, .k 0 0⟩,
    ⟨5, 2, .k 0 0⟩,
    ⟨5, 4, .k 0 0⟩]
  upd := [⟨0, 3, (.neg (.k 207 3)) ⊠ (.c 0)⟩,
    ⟨0, 5, (.k 8 2) ⊟ ((.k 207 3) ⊠ (.s 0))⟩,
    ⟨1, 0, .neg (.s 0)⟩,
    ⟨1, 2, .c 0⟩,
    ⟨1, 3, (.k 3735 4) ⊠ (.c 0)⟩,
    ⟨1, 4, (.k 8 2) ⊠ (.c 0)⟩,
    ⟨1, 5, (.k 3735 4) ⊠ (.s 0)⟩,
    ⟨2, 0, .neg (.c 0)⟩,
    ⟨2, 2, .neg (.s 0)⟩,
    ⟨2, 3, (.neg (.k 3735 4)) ⊠ (.s 0)⟩,
    ⟨2, 4, (.k 207 3) ⊟ ((.k 8 2) ⊠ (.s 0))⟩,
    ⟨2, 5, (.k 3735 4) ⊠ (.c 0)⟩,
    ⟨4, 3, .neg (.s 0)⟩,
    ⟨4, 5, .c 0⟩,
    ⟨5, 3, .neg (.c 0)⟩,
    ⟨5, 5, .neg (.s 0)⟩]

/-- The transforms `fr_trunk_X_fr_LF_HFE`. -/
def fr_trunk_X_fr_LF_HFE : Trans := ⟨fr_trunk, fr_LF_HFE, hom_fr_trunk_X_fr_LF_HFE, motion_fr_trunk_X_fr_LF_HFE, force_fr_trunk_X_fr_LF_HFE⟩

/-- `HomogeneousTransforms::Type_fr_trunk_X_fr_RF_HFE` (transforms.impl.h:9969-9981, 9983-9997). -/
def hom_fr_trunk_X_fr_RF_HFE : Gen where
  rows := 4
  cols := 4
  ctor := [⟨0, 0, .k 0 0⟩,
    ⟨0, 1, .neg (.k 1 0)⟩,
    ⟨0, 2, .k 0 0⟩,
    ⟨0, 3, .k 3735 4⟩,
    ⟨1, 1, .k 0 0⟩,
    ⟨2, 1, .k 0 0⟩,
    ⟨3, 0, .k 0 0⟩,
    ⟨3, 1, .k 0 0⟩,
    ⟨3, 2, .k 0 0⟩,
    ⟨3, 3, .k 1 0⟩]
  upd := [⟨1, 0, .s 3⟩,
    ⟨1, 2, .c 3⟩,
    ⟨1, 3, ((.k 8 2) ⊠ (.s 3)) ⊟ (.k 207 3)⟩,
    ⟨2, 0, .neg (.c 3)⟩,
    ⟨2, 2, .s 3⟩,
    ⟨2, 3, (.neg (.k 8 2)) ⊠ (.c 3)⟩]

/-- `MotionTransforms::Type_fr_trunk_X_fr_RF_HFE` (transforms.impl.h:3075-3097, 3099-3123). -/
def motion_fr_trunk_X_fr_RF_HFE : Gen where
  rows := 6
  cols := 6
  ctor := [⟨0, 0, .k 0 0⟩,
    ⟨0, 1, .neg (.k 1 0)⟩,
    ⟨0, 2, .k 0 0⟩,
    ⟨0, 3, .k 0 0⟩,
    ⟨0, 4, .k 0 0⟩,
    ⟨0, 5, .k 0 0⟩,
    ⟨1, 1, .k 0 0⟩,
    ⟨1, 3, .k 0 0⟩,
    ⟨1, 4, .k 0 0⟩,
    ⟨1, 5, .k 0 0⟩,
    ⟨2, 1, .k 0 0⟩,
    ⟨2, 3, .k 0 0⟩,
    ⟨2, 4, .k 0 0⟩,
    ⟨2, 5, .k 0 0⟩,
    ⟨3, 1, .k 0 0⟩,
    ⟨3, 3, .k 0 0⟩,
    ⟨3, 4, .neg (.k 1 0)⟩,
    ⟨3, 5, .k 0 0⟩,
    ⟨4, 4, .k 0 0⟩,
    ⟨5, 4, .k 0 0⟩]
  upd := [⟨1, 0, .s 3⟩,
    ⟨1, 2, .c 3⟩,
    ⟨2, 0, .neg (.c 3)⟩,
    ⟨2, 2, .s 3⟩,
    ⟨3, 0, (.k 207 3) ⊠ (.c 3)⟩,
    ⟨3, 2, (.k 8 2) ⊟ ((.k 207 3) ⊠ (.s 3))⟩,
    ⟨4, 0, (.k 3735 4) ⊠ (.c 3)⟩,
    ⟨4, 1, (.k 8 2) ⊠ (.c 3)⟩,
    ⟨4, 2, (.neg (.k 3735 4)) ⊠ (.s 3)⟩,
    ⟨4, 3, .s 3⟩,
    ⟨4, 5, .c 3⟩,
    ⟨5, 0, (.k 3735 4) ⊠ (.s 3)⟩,
    ⟨5, 1, ((.k 8 2) ⊠ (.s 3)) ⊟ (.k 207 3)⟩,
    ⟨5, 2, (.k 3735 4) ⊠ (.c 3)⟩,
    ⟨5, 3, .neg (.c 3)⟩,
    ⟨5, 5, .s 3⟩]

/-- `ForceTransforms::Type_fr_trunk_X_fr_RF_HFE` (transforms.impl.h:7052-7074, 7076-7100). -/
def force_fr_trunk_X_fr_RF_HFE : Gen where
  rows := 6
  cols := 6
  ctor := [⟨0, 0, .k 0 0⟩,
    ⟨0, 1, .neg (.k 1 0)⟩,
    ⟨0, 2, .k 0 0⟩,
    ⟨0, 4, .k 0 0⟩,
    ⟨1, 1, .k 0 0⟩,
    ⟨2, 1, .k 0 0⟩,
    ⟨3, 0, .k 0 0⟩,
    ⟨3, 1, .k 0 0⟩,
    ⟨3, 2, .k 0 0⟩,
    ⟨3, 3, .k 0 0⟩,
    ⟨3, 4, .neg (.k 1 0)⟩,
    ⟨3, 5, .k 0 0⟩,
    ⟨4, 0, .k 0 0⟩,
    ⟨4, 1, .k 0 0⟩,
    ⟨4, 2, .k 0 0⟩,
    ⟨4, 4, .k 0 0⟩,
    ⟨5, 0, .k 0 0⟩,
    ⟨5, 1, .k 0 0⟩,
    ⟨5, 2, .k 0 0⟩,
    ⟨5, 4, .k 0 0⟩]
  upd := [⟨0, 3, (.k 207 3) ⊠ (.c 3)⟩,
    ⟨0, 5, (.k 8 2) ⊟ ((.k 207 3) ⊠ (.s 3))⟩,
    ⟨1, 0, .s 3⟩,
    ⟨1, 2, .c 3⟩,
    ⟨1, 3, (.k 3735 4) ⊠ (.c 3)⟩,
    ⟨1, 4, (.k 8 2) ⊠ (.c 3)⟩,
    ⟨1, 5, (.neg (.k 3735 4)) ⊠ (.s 3)⟩,
    ⟨2, 0, .neg (.c 3)⟩,
    ⟨2, 2, .s 3⟩,
    ⟨2, 3, (.k 3735 4) ⊠ (.s 3)⟩,
    ⟨2, 4, ((.k 8 2) ⊠ (.s 3)) ⊟ (.k 207 3)⟩,
    ⟨2, 5, (.k 3735 4) ⊠ (.c 3)⟩,
    ⟨4, 3, .s 3⟩,
    ⟨4, 5, .c 3⟩,
    ⟨5, 3, .neg (.c 3)⟩,
    ⟨5, 5, .s 3⟩]

/-- The transforms `fr_trunk_X_fr_RF_HFE`. -/
def fr_trunk_X_fr_RF_HFE : Trans := ⟨fr_trunk, fr_RF_HFE, hom_fr_trunk_X_fr_RF_HFE, motion_fr_trunk_X_fr_RF_HFE, force_fr_trunk_X_fr_RF_HFE⟩

/-- `HomogeneousTransforms::Type_fr_trunk_X_fr_LH_HFE` (transforms.impl.h:9999-10011, 10013-10027). -/
def hom_fr_trunk_X_fr_LH_HFE : Gen where
  rows := 4
  cols := 4
  ctor := [⟨0, 0, .k 0 0⟩,
    ⟨0, 1, .neg (.k 1 0)⟩,
    ⟨0, 2, .k 0 0⟩,
    ⟨0, 3, .neg (.k 3735 4)⟩,
    ⟨1, 1, .k 0 0⟩,
    ⟨2, 1, .k 0 0⟩,
    ⟨3, 0, .k 0 0⟩,
    ⟨3, 1, .k 0 0⟩,
    ⟨3, 2, .k 0 0⟩,
    ⟨3, 3, .k 1 0⟩]
  upd := [⟨1, 0, .neg (.s 6)⟩,
    ⟨1, 2, .c 6⟩,
    ⟨1, 3, (.k 207 3) ⊟ ((.k 8 2) ⊠ (.s 6))⟩,
    ⟨2, 0, .neg (.c 6)⟩,
    ⟨2, 2, .neg (.s 6)⟩,
    ⟨2, 3, (.neg (.k 8 2)) ⊠ (.c 6)⟩]

/-- `MotionTransforms::Type_fr_trunk_X_fr_LH_HFE` (transforms.impl.h:3125-3147, 3149-3173). -/
def motion_fr_trunk_X_fr_LH_HFE : Gen where
  rows := 6
  cols := 6
  ctor := [⟨0, 0, .k 0 0⟩,
    ⟨0, 1, .neg (.k 1 0)⟩,
    ⟨0, 2, .k 0 0⟩,
    ⟨0, 3, .k 0 0⟩,
    ⟨0, 4, .k 0 0⟩,
    ⟨0, 5, .k 0 0⟩,
    ⟨1, 1, .k 0 0⟩,
    ⟨1, 3, .k 0 0⟩,
    ⟨1, 4, .k 0 0⟩,
    ⟨1, 5, .k 0 0⟩,
    ⟨2, 1, .k 0 0⟩,
    ⟨2, 3, .k 0 0⟩,
    ⟨2, 4, .k 0 0⟩,
    ⟨2, 5, .k 0 0⟩,
    ⟨3, 1, .k 0 0⟩,
    ⟨3, 3, .k 0 0⟩,
    ⟨3, 4, .neg (.k 1 0)⟩,
    ⟨3, 5, .k 0 0⟩,
    ⟨4, 4, .k 0 0⟩,
    ⟨5, 4, .k 0 0⟩]
  upd := [⟨1, 0, .neg (.s 6)⟩,
    ⟨1, 2, .c 6⟩,
    ⟨2, 0, .neg (.c 6)⟩,
    ⟨2, 2, .neg (.s 6)⟩,
    ⟨3, 0, (.neg (.k 207 3)) ⊠ (.c 6)⟩,
    ⟨3, 2, (.k 8 2) ⊟ ((.k 207 3) ⊠ (.s 6))⟩,
    ⟨4, 0, (.neg (.k 3735 4)) ⊠ (.c 6)⟩,
    ⟨4, 1, (.k 8 2) ⊠ (.c 6)⟩,
    ⟨4, 2, (.neg (.k 3735 4)) ⊠ (.s 6)⟩,
    ⟨4, 3, .neg (.s 6)⟩,
    ⟨4, 5, .c 6⟩,
    ⟨5, 0, (.k 3735 4) ⊠ (.s 6)⟩,
    ⟨5, 1, (.k 207 3) ⊟ ((.k 8 2) ⊠ (.s 6))⟩,
    ⟨5, 2, (.neg (.k 3735 4)) ⊠ (.c 6)⟩,
    ⟨5, 3, .neg (.c 6)⟩,
    ⟨5, 5, .neg (.s 6)⟩]

/-- `ForceTransforms::Type_fr_trunk_X_fr_LH_HFE` (transforms.impl.h:7102-7124, 7126-7150). -/
def force_fr_trunk_X_fr_LH_HFE : Gen where
  rows := 6
  cols := 6
  ctor := [⟨0, 0, .k 0 0⟩,
    ⟨0, 1, .neg (.k 1 0)⟩,
    ⟨0, 2, .k 0 0⟩,
    ⟨0, 4, .k 0 0⟩,
    ⟨1, 1, .k 0 0⟩,
    ⟨2, 1, .k 0 0⟩,
    ⟨3, 0, .k 0 0⟩,
    ⟨3, 1, .k 0 0⟩,
    ⟨3, 2, .k 0 0⟩,
    ⟨3, 3, .k 0 0⟩,
    ⟨3, 4, .neg (.k 1 0)⟩,
    ⟨3, 5, .k 0 0⟩,
    ⟨4, 0, .k 0 0⟩,
    ⟨4, 1, .k 0 0⟩,
    ⟨4, 2, .k 0 0⟩,
    ⟨4, 4, .k 0 0⟩,
    ⟨5, 0, .k 0 0⟩,
    ⟨5, 1, .k 0 0⟩,
    ⟨5, 2, .k 0 0⟩,
    ⟨5, 4, .k 0 0⟩]
  upd := [⟨0, 3, (.neg (.k 207 3)) ⊠ (.c 6)⟩,
    ⟨0, 5, (.k 8 2) ⊟ ((.k 207 3) ⊠ (.s 6))⟩,
    ⟨1, 0, .neg (.s 6)⟩,
    ⟨1, 2, .c 6⟩,
    ⟨1, 3, (.neg (.k 3735 4)) ⊠ (.c 6)⟩,
    ⟨1, 4, (.k 8 2) ⊠ (.c 6)⟩,
    ⟨1, 5, (.neg (.k 3735 4)) ⊠ (.s 6)⟩,
    ⟨2, 0, .neg (.c 6)⟩,
    ⟨2, 2, .neg (.s 6)⟩,
    ⟨2, 3, (.k 3735 4) ⊠ (.s 6)⟩,
    ⟨2, 4, (.k 207 3) ⊟ ((.k 8 2) ⊠ (.s 6))⟩,
    ⟨2, 5, (.neg (.k 3735 4)) ⊠ (.c 6)⟩,
    ⟨4, 3, .neg (.s 6)⟩,
    ⟨4, 5, .c 6⟩,
    ⟨5, 3, .neg (.c 6)⟩,
    ⟨5, 5, .neg (.s 6)⟩]

/-- The transforms `fr_trunk_X_fr_LH_HFE`. -/
def fr_trunk_X_fr_LH_HFE : Trans := ⟨fr_trunk, fr_LH_HFE, hom_fr_trunk_X_fr_LH_HFE, motion_fr_trunk_X_fr_LH_HFE, force_fr_trunk_X_fr_LH_HFE⟩

/-- `HomogeneousTransforms::Type_fr_trunk_X_fr_RH_HFE` (transforms.impl.h:10029-10041, 10043-10057). -/
def hom_fr_trunk_X_fr_RH_HFE : Gen where
  rows := 4
  cols := 4
  ctor := [⟨0, 0, .k 0 0⟩,
    ⟨0, 1, .neg (.k 1 0)⟩,
    ⟨0, 2, .k 0 0⟩,
    ⟨0, 3, .neg (.k 3735 4)⟩,
    ⟨1, 1, .k 0 0⟩,
    ⟨2, 1, .k 0 0⟩,
    ⟨3, 0, .k 0 0⟩,
    ⟨3, 1, .k 0 0⟩,
    ⟨3, 2, .k 0 0⟩,
    ⟨3, 3, .k 1 0⟩]
  upd := [⟨1, 0, .s 9⟩,
    ⟨1, 2, .c 9⟩,
    ⟨1, 3, ((.k 8 2) ⊠ (.s 9)) ⊟ (.k 207 3)⟩,
    ⟨2, 0, .neg (.c 9)⟩,
    ⟨2, 2, .s 9⟩,
    ⟨2, 3, (.neg (.k 8 2)) ⊠ (.c 9)⟩]

/-- `MotionTransforms::Type_fr_trunk_X_fr_RH_HFE` (transforms.impl.h:3175-3197, 3199-3223). -/
def motion_fr_trunk_X_fr_RH_HFE : Gen where
  rows := 6
  cols := 6
  ctor := [⟨0, 0, .k 0 0⟩,
    ⟨0, 1, .neg (.k 1 0)⟩,
    ⟨0, 2, .k 0 0⟩,
    ⟨0, 3, .k 0 0⟩,
    ⟨0, 4, .k 0 0⟩,
    ⟨0, 5, .k 0 0⟩,
    ⟨1, 1, .k 0 0⟩,
    ⟨1, 3, .k 0 0⟩,
    ⟨1, 4, .k 0 0⟩,
    ⟨1, 5, .k 0 0⟩,
    ⟨2, 1, .k 0 0⟩,
    ⟨2, 3, .k 0 0⟩,
    ⟨2, 4, .k 0 0⟩,
    ⟨2, 5, .k 0 0⟩,
    ⟨3, 1, .k 0 0⟩,
    ⟨3, 3, .k 0 0⟩,
    ⟨3, 4, .neg (.k 1 0)⟩,
    ⟨3, 5, .k 0 0⟩,
    ⟨4, 4, .k 0 0⟩,
    ⟨5, 4, .k 0 0⟩]
  upd := [⟨1, 0, .s 9⟩,
    ⟨1, 2, .c 9⟩,
    ⟨2, 0, .neg (.c 9)⟩,
    ⟨2, 2, .s 9⟩,
    ⟨3, 0, (.k 207 3) ⊠ (.c 9)⟩,
    ⟨3, 2, (.k 8 2) ⊟ ((.k 207 3) ⊠ (.s 9))⟩,
    ⟨4, 0, (.neg (.k 3735 4)) ⊠ (.c 9)⟩,
    ⟨4, 1, (.k 8 2) ⊠ (.c 9)⟩,
    ⟨4, 2, (.k 3735 4) ⊠ (.s 9)⟩,
    ⟨4, 3, .s 9⟩,
    ⟨4, 5, .c 9⟩,
    ⟨5, 0, (.neg (.k 3735 4)) ⊠ (.s 9)⟩,
    ⟨5, 1, ((.k 8 2) ⊠ (.s 9)) ⊟ (.k 207 3)⟩,
    ⟨5, 2, (.neg (.k 3735 4)) ⊠ (.c 9)⟩,
    ⟨5, 3, .neg (.c 9)⟩,
    ⟨5, 5, .s 9⟩]

/-- `ForceTransforms::Type_fr_trunk_X_fr_RH_HFE` (transforms.impl.h:7152-7174, 7176-7200). -/
def force_fr_trunk_X_fr_RH_HFE : Gen where
  rows := 6
  cols := 6
  ctor := [⟨0, 0, .k 0 0⟩,
    ⟨0, 1, .neg (.k 1 0)⟩,
    ⟨0, 2, .k 0 0⟩,
    ⟨0, 4, .k 0 0⟩,
    ⟨1, 1, .k 0 0⟩,
    ⟨2, 1, .k 0 0⟩,
    ⟨3, 0, .k 0 0⟩,
    ⟨3, 1, .k 0 0⟩,
    ⟨3, 2, .k 0 0⟩,
    ⟨3, 3, .k 0 0⟩,
    ⟨3, 4, .neg (.k 1 0)⟩,
    ⟨3, 5, .k 0 0⟩,
    ⟨4, 0, .k 0 0⟩,
    ⟨4, 1, .k 0 0⟩,
    ⟨4, 2, .k 0 0⟩,
    ⟨4, 4, .k 0 0⟩,
    ⟨5, 0, .k 0 0⟩,
    ⟨5, 1, .k 0 0⟩,
    ⟨5, 2, .k 0 0⟩,
    ⟨5, 4, .k 0 0⟩]
  upd := [⟨0, 3, (.k 207 3) ⊠ (.c 9)⟩,
    ⟨0, 5, (.k 8 2) ⊟ ((.k 207 3) ⊠ (.s 9))⟩,
    ⟨1, 0, .s 9⟩,
    ⟨1, 2, .c 9⟩,
    ⟨1, 3, (.neg (.k 3735 4)) ⊠ (.c 9)⟩,
    ⟨1, 4, (.k 8 2) ⊠ (.c 9)⟩,
    ⟨1, 5, (.k 3735 4) ⊠ (.s 9)⟩,
    ⟨2, 0, .neg (.c 9)⟩,
    ⟨2, 2, .s 9⟩,
    ⟨2, 3, (.neg (.k 3735 4)) ⊠ (.s 9)⟩,
    ⟨2, 4, ((.k 8 2) ⊠ (.s 9)) ⊟ (.k 207 3)⟩,
    ⟨2, 5, (.neg (.k 3735 4)) ⊠ (.c 9)⟩,
    ⟨4, 3, .s 9⟩,
    ⟨4, 5, .c 9⟩,
    ⟨5, 3, .neg (.c 9)⟩,
    ⟨5, 5, .s 9⟩]

/-- The transforms `fr_trunk_X_fr_RH_HFE`. -/
def fr_trunk_X_fr_RH_HFE : Trans := ⟨fr_trunk, fr_RH_HFE, hom_fr_trunk_X_fr_RH_HFE, motion_fr_trunk_X_fr_RH_HFE, force_fr_trunk_X_fr_RH_HFE⟩

/-- `HomogeneousTransforms::Type_fr_trunk_X_fr_LF_KFE` (transforms.impl.h:10059-10066, 10068-10091). -/
def hom_fr_trunk_X_fr_LF_KFE : Gen where
  rows := 4
  cols := 4
  ctor := [⟨0, 2, .k 0 0⟩,
    ⟨3, 0, .k 0 0⟩,
    ⟨3, 1, .k 0 0⟩,
    ⟨3, 2, .k 0 0⟩,
    ⟨3, 3, .k 1 0⟩]
  upd := [⟨0, 0, .neg (.s 1)⟩,
    ⟨0, 1, .neg (.c 1)⟩,
    ⟨0, 3, (.k 3735 4) ⊟ ((.k 35 2) ⊠ (.s 1))⟩,
    ⟨1, 0, (.neg (.s 0)) ⊠ (.c 1)⟩,
    ⟨1, 1, (.s 0) ⊠ (.s 1)⟩,
    ⟨1, 2, .c 0⟩,
    ⟨1, 3, ((((.neg (.k 35 2)) ⊠ (.s 0)) ⊠ (.c 1)) ⊟ ((.k 8 2) ⊠ (.s 0))) ⊞ (.k 207 3)⟩,
    ⟨2, 0, (.neg (.c 0)) ⊠ (.c 1)⟩,
    ⟨2, 1, (.c 0) ⊠ (.s 1)⟩,
    ⟨2, 2, .neg (.s 0)⟩,
    ⟨2, 3, (((.neg (.k 35 2)) ⊠ (.c 0)) ⊠ (.c 1)) ⊟ ((.k 8 2) ⊠ (.c 0))⟩]

/-- `MotionTransforms::Type_fr_trunk_X_fr_LF_KFE` (transforms.impl.h:3225-3238, 3240-3277). -/
def motion_fr_trunk_X_fr_LF_KFE : Gen where
  rows := 6
  cols := 6
  ctor := [⟨0, 2, .k 0 0⟩,
    ⟨0, 3, .k 0 0⟩,
    ⟨0, 4, .k 0 0⟩,
    ⟨0, 5, .k 0 0⟩,
    ⟨1, 3, .k 0 0⟩,
    ⟨1, 4, .k 0 0⟩,
    ⟨1, 5, .k 0 0⟩,
    ⟨2, 3, .k 0 0⟩,
    ⟨2, 4, .k 0 0⟩,
    ⟨2, 5, .k 0 0⟩,
    ⟨3, 5, .k 0 0⟩]
  upd := [⟨0, 0, .neg (.s 1)⟩,
    ⟨0, 1, .neg (.c 1)⟩,
    ⟨1, 0, (.neg (.s 0)) ⊠ (.c 1)⟩,
    ⟨1, 1, (.s 0) ⊠ (.s 1)⟩,
    ⟨1, 2, .c 0⟩,
    ⟨2, 0, (.neg (.c 0)) ⊠ (.c 1)⟩,
    ⟨2, 1, (.c 0) ⊠ (.s 1)⟩,
    ⟨2, 2, .neg (.s 0)⟩,
    ⟨3, 0, ((.neg (.k 207 3)) ⊠ (.c 0)) ⊠ (.c 1)⟩,
    ⟨3, 1, ((.k 207 3) ⊠ (.c 0)) ⊠ (.s 1)⟩,
    ⟨3, 2, (((.k 35 2) ⊠ (.c 1)) ⊟ ((.k 207 3) ⊠ (.s 0))) ⊞ (.k 8 2)⟩,
    ⟨3, 3, .neg (.s 1)⟩,
    ⟨3, 4, .neg (.c 1)⟩,
    ⟨4, 0, (((.k 8 2) ⊠ (.c 0)) ⊠ (.s 1)) ⊞ (((.k 3735 4) ⊠ (.c 0)) ⊠ (.c 1))⟩,
    ⟨4, 1, ((((.neg (.k 3735 4)) ⊠ (.c 0)) ⊠ (.s 1)) ⊞ (((.k 8 2) ⊠ (.c 0)) ⊠ (.c 1))) ⊞ ((.k 35 2) ⊠ (.c 0))⟩,
    ⟨4, 2, ((.k 3735 4) ⊠ (.s 0)) ⊟ (((.k 35 2) ⊠ (.s 0)) ⊠ (.s 1))⟩,
    ⟨4, 3, (.neg (.s 0)) ⊠ (.c 1)⟩,
    ⟨4, 4, (.s 0) ⊠ (.s 1)⟩,
    ⟨4, 5, .c 0⟩,
    ⟨5, 0, (((.k 207 3) ⊟ ((.k 8 2) ⊠ (.s 0))) ⊠ (.s 1)) ⊟ (((.k 3735 4) ⊠ (.s 0)) ⊠ (.c 1))⟩,
    ⟨5, 1, ((((.k 3735 4) ⊠ (.s 0)) ⊠ (.s 1)) ⊞ (((.k 207 3) ⊟ ((.k 8 2) ⊠ (.s 0))) ⊠ (.c 1))) ⊟ ((.k 35 2) ⊠ (.s 0))⟩,
    ⟨5, 2, ((.k 3735 4) ⊠ (.c 0)) ⊟ (((.k 35 2) ⊠ (.c 0)) ⊠ (.s 1))⟩,
    ⟨5, 3, (.neg (.c 0)) ⊠ (.c 1)⟩,
    ⟨5, 4, (.c 0) ⊠ (.s 1)⟩,
    ⟨5, 5, .neg (.s 0)⟩]

/-- `ForceTransforms::Type_fr_trunk_X_fr_LF_KFE` (transforms.impl.h:7202-7215, 7217-7254). -/
def force_fr_trunk_X_fr_LF_KFE : Gen where
  rows := 6
  cols := 6
  ctor := [⟨0, 2, .k 0 0⟩,
    ⟨3, 0, .k 0 0⟩,
    ⟨3, 1, .k 0 0⟩,
    ⟨3, 2, .k 0 0⟩,
    ⟨3, 5, .k 0 0⟩,
    ⟨4, 0, .k 0 0⟩,
    ⟨4, 1, .k 0 0⟩,
    ⟨4, 2, .k 0 0⟩,
    ⟨5, 0, .k 0 0⟩,
    ⟨5, 1, .k 0 0⟩,
    ⟨5, 2, .k 0 0⟩]
  upd := [⟨0, 0, .neg (.s 1)⟩,
    ⟨0, 1, .neg (.c 1)⟩,
    ⟨0, 3, ((.neg (.k 207 3)) ⊠ (.c 0)) ⊠ (.c 1)⟩,
    ⟨0, 4, ((.k 207 3) ⊠ (.c 0)) ⊠ (.s 1)⟩,
    ⟨0, 5, (((.k 35 2) ⊠ (.c 1)) ⊟ ((.k 207 3) ⊠ (.s 0))) ⊞ (.k 8 2)⟩,
    ⟨1, 0, (.neg (.s 0)) ⊠ (.c 1)⟩,
    ⟨1, 1, (.s 0) ⊠ (.s 1)⟩,
    ⟨1, 2, .c 0⟩,
    ⟨1, 3, (((.k 8 2) ⊠ (.c 0)) ⊠ (.s 1)) ⊞ (((.k 3735 4) ⊠ (.c 0)) ⊠ (.c 1))⟩,
    ⟨1, 4, ((((.neg (.k 3735 4)) ⊠ (.c 0)) ⊠ (.s 1)) ⊞ (((.k 8 2) ⊠ (.c 0)) ⊠ (.c 1))) ⊞ ((.k 35 2) ⊠ (.c 0))⟩,
    ⟨1, 5, ((.k 3735 4) ⊠ (.s 0)) ⊟ (((.k 35 2) ⊠ (.s 0)) ⊠ (.s 1))⟩,
    ⟨2, 0, (.neg (.c 0)) ⊠ (.c 1)⟩,
    ⟨2, 1, (.c 0) ⊠ (.s 1)⟩,
    ⟨2, 2, .neg (.s 0)⟩,
    ⟨2, 3, (((.k 207 3) ⊟ ((.k 8 2) ⊠ (.s 0))) ⊠ (.s 1)) ⊟ (((.k 3735 4) ⊠ (.s 0)) ⊠ (.c 1))⟩,
    ⟨2, 4, ((((.k 3735 4) ⊠ (.s 0)) ⊠ (.s 1)) ⊞ (((.k 207 3) ⊟ ((.k 8 2) ⊠ (.s 0))) ⊠ (.c 1))) ⊟ ((.k 35 2) ⊠ (.s 0))⟩,
    ⟨2, 5, ((.k 3735 4) ⊠ (.c 0)) ⊟ (((.k 35 2) ⊠ (.c 0)) ⊠ (.s 1))⟩,
    ⟨3, 3, .neg (.s 1)⟩,
    ⟨3, 4, .neg (.c 1)⟩,
    ⟨4, 3, (.neg (.s 0)) ⊠ (.c 1)⟩,
    ⟨4, 4, (.s 0) ⊠ (.s 1)⟩,
    ⟨4, 5, .c 0⟩,
    ⟨5, 3, (.neg (.c 0)) ⊠ (.c 1)⟩,
    ⟨5, 4, (.c 0) ⊠ (.s 1)⟩,
    ⟨5, 5, .neg (.s 0)⟩]

/-- The transforms `fr_trunk_X_fr_LF_KFE`. -/
def fr_trunk_X_fr_LF_KFE : Trans := ⟨fr_trunk, fr_LF_KFE, hom_fr_trunk_X_fr_LF_KFE, motion_fr_trunk_X_fr_LF_KFE, force_fr_trunk_X_fr_LF_KFE⟩

/-- `HomogeneousTransforms::Type_fr_trunk_X_fr_RF_KFE` (transforms.impl.h:10093-10100, 10102-10125). -/
def hom_fr_trunk_X_fr_RF_KFE : Gen where
  rows := 4
  cols := 4
  ctor := [⟨0, 2, .k 0 0⟩,
    ⟨3, 0, .k 0 0⟩,
    ⟨3, 1, .k 0 0⟩,
    ⟨3, 2, .k 0 0⟩,
    ⟨3, 3, .k 1 0⟩]
  upd := [⟨0, 0, .neg (.s 4)⟩,
    ⟨0, 1, .neg (.c 4)⟩,
    ⟨0, 3, (.k 3735 4) ⊟ ((.k 35 2) ⊠ (.s 4))⟩,
    ⟨1, 0, (.s 3) ⊠ (.c 4)⟩,
    ⟨1, 1, (.neg (.s 3)) ⊠ (.s 4)⟩,
    ⟨1, 2, .c 3⟩,
    ⟨1, 3, ((((.k 35 2) ⊠ (.s 3)) ⊠ (.c 4)) ⊞ ((.k 8 2) ⊠ (.s 3))) ⊟ (.k 207 3)⟩,
    ⟨2, 0, (.neg (.c 3)) ⊠ (.c 4)⟩,
    ⟨2, 1, (.c 3) ⊠ (.s 4)⟩,
    ⟨2, 2, .s 3⟩,
    ⟨2, 3, (((.neg (.k 35 2)) ⊠ (.c 3)) ⊠ (.c 4)) ⊟ ((.k 8 2) ⊠ (.c 3))⟩]

/-- `MotionTransforms::Type_fr_trunk_X_fr_RF_KFE` (transforms.impl.h:3279-3292, 3294-3331). -/
def motion_fr_trunk_X_fr_RF_KFE : Gen where
  rows := 6
  cols := 6
  ctor := [⟨0, 2, .k 0 0⟩,
    ⟨0, 3, .k 0 0⟩,
    ⟨0, 4, .k 0 0⟩,
    ⟨0, 5, .k 0 0⟩,
    ⟨1, 3, .k 0 0⟩,
    ⟨1, 4, .k 0 0⟩,
    ⟨1, 5, .k 0 0⟩,
    ⟨2, 3, .k 0 0⟩,
    ⟨2, 4, .k 0 0⟩,
    ⟨2, 5, .k 0 0⟩,
    ⟨3, 5, .k 0 0⟩]
  upd := [⟨0, 0, .neg (.s 4)⟩,
    ⟨0, 1, .neg (.c 4)⟩,
    ⟨1, 0, (.s 3) ⊠ (.c 4)⟩,
    ⟨1, 1, (.neg (.s 3)) ⊠ (.s 4)⟩,
    ⟨1, 2, .c 3⟩,
    ⟨2, 0, (.neg (.c 3)) ⊠ (.c 4)⟩,
    ⟨2, 1, (.c 3) ⊠ (.s 4)⟩,
    ⟨2, 2, .s 3⟩,
    ⟨3, 0, ((.k 207 3) ⊠ (.c 3)) ⊠ (.c 4)⟩,
    ⟨3, 1, ((.neg (.k 207 3)) ⊠ (.c 3)) ⊠ (.s 4)⟩,
    ⟨3, 2, (((.k 35 2) ⊠ (.c 4)) ⊟ ((.k 207 3) ⊠ (.s 3))) ⊞ (.k 8 2)⟩,
    ⟨3, 3, .neg (.s 4)⟩,
    ⟨3, 4, .neg (.c 4)⟩,
    ⟨4, 0, (((.k 8 2) ⊠ (.c 3)) ⊠ (.s 4)) ⊞ (((.k 3735 4) ⊠ (.c 3)) ⊠ (.c 4))⟩,
    ⟨4, 1, ((((.neg (.k 3735 4)) ⊠ (.c 3)) ⊠ (.s 4)) ⊞ (((.k 8 2) ⊠ (.c 3)) ⊠ (.c 4))) ⊞ ((.k 35 2) ⊠ (.c 3))⟩,
    ⟨4, 2, (((.k 35 2) ⊠ (.s 3)) ⊠ (.s 4)) ⊟ ((.k 3735 4) ⊠ (.s 3))⟩,
    ⟨4, 3, (.s 3) ⊠ (.c 4)⟩,
    ⟨4, 4, (.neg (.s 3)) ⊠ (.s 4)⟩,
    ⟨4, 5, .c 3⟩,
    ⟨5, 0, ((((.k 8 2) ⊠ (.s 3)) ⊟ (.k 207 3)) ⊠ (.s 4)) ⊞ (((.k 3735 4) ⊠ (.s 3)) ⊠ (.c 4))⟩,
    ⟨5, 1, ((((.neg (.k 3735 4)) ⊠ (.s 3)) ⊠ (.s 4)) ⊞ ((((.k 8 2) ⊠ (.s 3)) ⊟ (.k 207 3)) ⊠ (.c 4))) ⊞ ((.k 35 2) ⊠ (.s 3))⟩,
    ⟨5, 2, ((.k 3735 4) ⊠ (.c 3)) ⊟ (((.k 35 2) ⊠ (.c 3)) ⊠ (.s 4))⟩,
    ⟨5, 3, (.neg (.c 3)) ⊠ (.c 4)⟩,
    ⟨5, 4, (.c 3) ⊠ (.s 4)⟩,
    ⟨5, 5, .s 3⟩]

/-- `ForceTransforms::Type_fr_trunk_X_fr_RF_KFE` (transforms.impl.h:7256-7269, 7271-7308). -/
def force_fr_trunk_X_fr_RF_KFE : Gen where
  rows := 6
  cols := 6
  ctor := [⟨0, 2, .k 0 0⟩,
    ⟨3, 0, .k 0 0⟩,
    ⟨3, 1, .k 0 0⟩,
    ⟨3, 2, .k 0 0⟩,
    ⟨3, 5, .k 0 0⟩,
    ⟨4, 0, .k 0 0⟩,
    ⟨4, 1, .k 0 0⟩,
    ⟨4, 2, .k 0 0⟩,
    ⟨5, 0, .k 0 0⟩,
    ⟨5, 1, .k 0 0⟩,
    ⟨5, 2, .k 0 0⟩]
  upd := [⟨0, 0, .neg (.s 4)⟩,
    ⟨0, 1, .neg (.c 4)⟩,
    ⟨0, 3, ((.k 207 3) ⊠ (.c 3)) ⊠ (.c 4)⟩,
    ⟨0, 4, ((.neg (.k 207 3)) ⊠ (.c 3)) ⊠ (.s 4)⟩,
    ⟨0, 5, (((.k 35 2) ⊠ (.c 4)) ⊟ ((.k 207 3) ⊠ (.s 3))) ⊞ (.k 8 2)⟩,
    ⟨1, 0, (.s 3) ⊠ (.c 4)⟩,
    ⟨1, 1, (.neg (.s 3)) ⊠ (.s 4)⟩,
    ⟨1, 2, .c 3⟩,
    ⟨1, 3, (((.k 8 2) ⊠ (.c 3)) ⊠ (.s 4)) ⊞ (((.k 3735 4) ⊠ (.c 3)) ⊠ (.c 4))⟩,
    ⟨1, 4, ((((.neg (.k 3735 4)) ⊠ (.c 3)) ⊠ (.s 4)) ⊞ (((.k 8 2) ⊠ (.c 3)) ⊠ (.c 4))) ⊞ ((.k 35 2) ⊠ (.c 3))⟩,
    ⟨1, 5, (((.k 35 2) ⊠ (.s 3)) ⊠ (.s 4)) ⊟ ((.k 3735 4) ⊠ (.s 3))⟩,
    ⟨2, 0, (.neg (.c 3)) ⊠ (.c 4)⟩,
    ⟨2, 1, (.c 3) ⊠ (.s 4)⟩,
    ⟨2, 2, .s 3⟩,
    ⟨2, 3, ((((.k 8 2) ⊠ (.s 3)) ⊟ (.k 207 3)) ⊠ (.s 4)) ⊞ (((.k 3735 4) ⊠ (.s 3)) ⊠ (.c 4))⟩,
    ⟨2, 4, ((((.neg (.k 3735 4)) ⊠ (.s 3)) ⊠ (.s 4)) ⊞ ((((.k 8 2) ⊠ (.s 3)) ⊟ (.k 207 3)) ⊠ (.c 4))) ⊞ ((.k 35 2) ⊠ (.s 3))⟩,
    ⟨2, 5, ((.k 3735 4) ⊠ (.c 3)) ⊟ (((.k 35 2) ⊠ (.c 3)) ⊠ (.s 4))⟩,
    ⟨3, 3, .neg (.s 4)⟩,
    ⟨3, 4, .neg (.c 4)⟩,
    ⟨4, 3, (.s 3) ⊠ (.c 4)⟩,
    ⟨4, 4, (.neg (.s 3)) ⊠ (.s 4)⟩,
    ⟨4, 5, .c 3⟩,
    ⟨5, 3, (.neg (.c 3)) ⊠ (.c 4)⟩,
    ⟨5, 4, (.c 3) ⊠ (.s 4)⟩,
    ⟨5, 5, .s 3⟩]

/-- The transforms `fr_trunk_X_fr_RF_KFE`. -/
def fr_trunk_X_fr_RF_KFE : Trans := ⟨fr_trunk, fr_RF_KFE, hom_fr_trunk_X_fr_RF_KFE, motion_fr_trunk_X_fr_RF_KFE, force_fr_trunk_X_fr_RF_KFE⟩

/-- `HomogeneousTransforms::Type_fr_trunk_X_fr_LH_KFE` (transforms.impl.h:10127-10134, 10136-10159). -/
def hom_fr_trunk_X_fr_LH_KFE : Gen where
  rows := 4
  cols := 4
  ctor := [⟨0, 2, .k 0 0⟩,
    ⟨3, 0, .k 0 0⟩,
    ⟨3, 1, .k 0 0⟩,
    ⟨3, 2, .k 0 0⟩,
    ⟨3, 3, .k 1 0⟩]
  upd := [⟨0, 0, .neg (.s 7)⟩,
    ⟨0, 1, .neg (.c 7)⟩,
    ⟨0, 3, ((.neg (.k 35 2)) ⊠ (.s 7)) ⊟ (.k 3735 4)⟩,
    ⟨1, 0, (.neg (.s 6)) ⊠ (.c 7)⟩,
    ⟨1, 1, (.s 6) ⊠ (.s 7)⟩,
    ⟨1, 2, .c 6⟩,
    ⟨1, 3, ((((.neg (.k 35 2)) ⊠ (.s 6)) ⊠ (.c 7)) ⊟ ((.k 8 2) ⊠ (.s 6))) ⊞ (.k 207 3)⟩,
    ⟨2, 0, (.neg (.c 6)) ⊠ (.c 7)⟩,
    ⟨2, 1, (.c 6) ⊠ (.s 7)⟩,
    ⟨2, 2, .neg (.s 6)⟩,
    ⟨2, 3, (((.neg (.k 35 2)) ⊠ (.c 6)) ⊠ (.c 7)) ⊟ ((.k 8 2) ⊠ (.c 6))⟩]

/-- `MotionTransforms::Type_fr_trunk_X_fr_LH_KFE` (transforms.impl.h:3333-3346, 3348-3385). -/
def motion_fr_trunk_X_fr_LH_KFE : Gen where
  rows := 6
  cols := 6
  ctor := [⟨0, 2, .k 0 0⟩,
    ⟨0, 3, .k 0 0⟩,
    ⟨0, 4, .k 0 0⟩,
    ⟨0, 5, .k 0 0⟩,
    ⟨1, 3, .k 0 0⟩,
    ⟨1, 4, .k 0 0⟩,
    ⟨1, 5, .k 0 0⟩,
    ⟨2, 3, .k 0 0⟩,
    ⟨2, 4, .k 0 0⟩,
    ⟨2, 5, .k 0 0⟩,
    ⟨3, 5, .k 0 0⟩]
  upd := [⟨0, 0, .neg (.s 7)⟩,
    ⟨0, 1, .neg (.c 7)⟩,
    ⟨1, 0, (.neg (.s 6)) ⊠ (.c 7)⟩,
    ⟨1, 1, (.s 6) ⊠ (.s 7)⟩,
    ⟨1, 2, .c 6⟩,
    ⟨2, 0, (.neg (.c 6)) ⊠ (.c 7)⟩,
    ⟨2, 1, (.c 6) ⊠ (.s 7)⟩,
    ⟨2, 2, .neg (.s 6)⟩,
    ⟨3, 0, ((.neg (.k 207 3)) ⊠ (.c 6)) ⊠ (.c 7)⟩,
    ⟨3, 1, ((.k 207 3) ⊠ (.c 6)) ⊠ (.s 7)⟩,
    ⟨3, 2, (((.k 35 2) ⊠ (.c 7)) ⊟ ((.k 207 3) ⊠ (.s 6))) ⊞ (.k 8 2)⟩,
    ⟨3, 3, .neg (.s 7)⟩,
    ⟨3, 4, .neg (.c 7)⟩,
    ⟨4, 0, (((.k 8 2) ⊠ (.c 6)) ⊠ (.s 7)) ⊟ (((.k 3735 4) ⊠ (.c 6)) ⊠ (.c 7))⟩,
    ⟨4, 1, ((((.k 3735 4) ⊠ (.c 6)) ⊠ (.s 7)) ⊞ (((.k 8 2) ⊠ (.c 6)) ⊠ (.c 7))) ⊞ ((.k 35 2) ⊠ (.c 6))⟩,
    ⟨4, 2, (((.neg (.k 35 2)) ⊠ (.s 6)) ⊠ (.s 7)) ⊟ ((.k 3735 4) ⊠ (.s 6))⟩,
    ⟨4, 3, (.neg (.s 6)) ⊠ (.c 7)⟩,
    ⟨4, 4, (.s 6) ⊠ (.s 7)⟩,
    ⟨4, 5, .c 6⟩,
    ⟨5, 0, (((.k 207 3) ⊟ ((.k 8 2) ⊠ (.s 6))) ⊠ (.s 7)) ⊞ (((.k 3735 4) ⊠ (.s 6)) ⊠ (.c 7))⟩,
    ⟨5, 1, ((((.neg (.k 3735 4)) ⊠ (.s 6)) ⊠ (.s 7)) ⊞ (((.k 207 3) ⊟ ((.k 8 2) ⊠ (.s 6))) ⊠ (.c 7))) ⊟ ((.k 35 2) ⊠ (.s 6))⟩,
    ⟨5, 2, (((.neg (.k 35 2)) ⊠ (.c 6)) ⊠ (.s 7)) ⊟ ((.k 3735 4) ⊠ (.c 6))⟩,
    ⟨5, 3, (.neg (.c 6)) ⊠ (.c 7)⟩,
    ⟨5, 4, (.c 6) ⊠ (.s 7)⟩,
    ⟨5, 5, .neg (.s 6)⟩]

/-- `ForceTransforms::Type_fr_trunk_X_fr_LH_KFE` (transforms.impl.h:7310-7323, 7325-7362). -/
def force_fr_trunk_X_fr_LH_KFE : Gen where
  rows := 6
  cols := 6
  ctor := [⟨0, 2, .k 0 0⟩,
    ⟨3, 0, .k 0 0⟩,
    ⟨3, 1, .k 0 0⟩,
    ⟨3, 2, .k 0 0⟩,
    ⟨3, 5, .k 0 0⟩,
    ⟨4, 0, .k 0 0⟩,
    ⟨4, 1, .k 0 0⟩,
    ⟨4, 2, .k 0 0⟩,
    ⟨5, 0, .k 0 0⟩,
    ⟨5, 1, .k 0 0⟩,
    ⟨5, 2, .k 0 0⟩]
  upd := [⟨0, 0, .neg (.s 7)⟩,
    ⟨0, 1, .neg (.c 7)⟩,
    ⟨0, 3, ((.neg (.k 207 3)) ⊠ (.c 6)) ⊠ (.c 7)⟩,
    ⟨0, 4, ((.k 207 3) ⊠ (.c 6)) ⊠ (.s 7)⟩,
    ⟨0, 5, (((.k 35 2) ⊠ (.c 7)) ⊟ ((.k 207 3) ⊠ (.s 6))) ⊞ (.k 8 2)⟩,
    ⟨1, 0, (.neg (.s 6)) ⊠ (.c 7)⟩,
    ⟨1, 1, (.s 6) ⊠ (.s 7)⟩,
    ⟨1, 2, .c 6⟩,
    ⟨1, 3, (((.k 8 2) ⊠ (.c 6)) ⊠ (.s 7)) ⊟ (((.k 3735 4) ⊠ (.c 6)) ⊠ (.c 7))⟩,
    ⟨1, 4, ((((.k 3735 4) ⊠ (.c 6)) ⊠ (.s 7)) ⊞ (((.k 8 2) ⊠ (.c 6)) ⊠ (.c 7))) ⊞ ((.k 35 2) ⊠ (.c 6))⟩,
    ⟨1, 5, (((.neg (.k 35 2)) ⊠ (.s 6)) ⊠ (.s 7)) ⊟ ((.k 3735 4) ⊠ (.s 6))⟩,
    ⟨2, 0, (.neg (.c 6)) ⊠ (.c 7)⟩,
    ⟨2, 1, (.c 6) ⊠ (.s 7)⟩,
    ⟨2, 2, .neg (.s 6)⟩,
    ⟨2, 3, (((.k 207 3) ⊟ ((.k 8 2) ⊠ (.s 6))) ⊠ (.s 7)) ⊞ (((.k 3735 4) ⊠ (.s 6)) ⊠ (.c 7))⟩,
    ⟨2, 4, ((((.neg (.k 3735 4)) ⊠ (.s 6)) ⊠ (.s 7)) ⊞ (((.k 207 3) ⊟ ((.k 8 2) ⊠ (.s 6))) ⊠ (.c 7))) ⊟ ((.k 35 2) ⊠ (.s 6))⟩,
    ⟨2, 5, (((.neg (.k 35 2)) ⊠ (.c 6)) ⊠ (.s 7)) ⊟ ((.k 3735 4) ⊠ (.c 6))⟩,
    ⟨3, 3, .neg (.s 7)⟩,
    ⟨3, 4, .neg (.c 7)⟩,
    ⟨4, 3, (.neg (.s 6)) ⊠ (.c 7)⟩,
    ⟨4, 4, (.s 6) ⊠ (.s 7)⟩,
    ⟨4, 5, .c 6⟩,
    ⟨5, 3, (.neg (.c 6)) ⊠ (.c 7)⟩,
    ⟨5, 4, (.c 6) ⊠ (.s 7)⟩,
    ⟨5, 5, .neg (.s 6)⟩]

/-- The transforms `fr_trunk_X_fr_LH_KFE`. -/
def fr_trunk_X_fr_LH_KFE : Trans := ⟨fr_trunk, fr_LH_KFE, hom_fr_trunk_X_fr_LH_KFE, motion_fr_trunk_X_fr_LH_KFE, force_fr_trunk_X_fr_LH_KFE⟩

/-- `HomogeneousTransforms::Type_fr_trunk_X_fr_RH_KFE` (transforms.impl.h:10161-10168, 10170-10193). -/
def hom_fr_trunk_X_fr_RH_KFE : Gen where
  rows := 4
  cols := 4
  ctor := [⟨0, 2, .k 0 0⟩,
    ⟨3, 0, .k 0 0⟩,
    ⟨3, 1, .k 0 0⟩,
    ⟨3, 2, .k 0 0⟩,
    ⟨3, 3, .k 1 0⟩]
  upd := [⟨0, 0, .neg (.s 10)⟩,
    ⟨0, 1, .neg (.c 10)⟩,
    ⟨0, 3, ((.neg (.k 35 2)) ⊠ (.s 10)) ⊟ (.k 3735 4)⟩,
    ⟨1, 0, (.s 9) ⊠ (.c 10)⟩,
    ⟨1, 1, (.neg (.s 9)) ⊠ (.s 10)⟩,
    ⟨1, 2, .c 9⟩,
    ⟨1, 3, ((((.k 35 2) ⊠ (.s 9)) ⊠ (.c 10)) ⊞ ((.k 8 2) ⊠ (.s 9))) ⊟ (.k 207 3)⟩,
    ⟨2, 0, (.neg (.c 9)) ⊠ (.c 10)⟩,
    ⟨2, 1, (.c 9) ⊠ (.s 10)⟩,
    ⟨2, 2, .s 9⟩,
    ⟨2, 3, (((.neg (.k 35 2)) ⊠ (.c 9)) ⊠ (.c 10)) ⊟ ((.k 8 2) ⊠ (.c 9))⟩]

/-- `MotionTransforms::Type_fr_trunk_X_fr_RH_KFE` (transforms.impl.h:3387-3400, 3402-3439). -/
def motion_fr_trunk_X_fr_RH_KFE : Gen where
  rows := 6
  cols := 6
  ctor := [⟨0, 2, .k 0 0⟩,
    ⟨0, 3, .k 0 0⟩,
    ⟨0, 4, .k 0 0⟩,
    ⟨0, 5, .k 0 0⟩,
    ⟨1, 3, .k 0 0⟩,
    ⟨1, 4, .k 0 0⟩,
    ⟨1, 5, .k 0 0⟩,
    ⟨2, 3, .k 0 0⟩,
    ⟨2, 4, .k 0 0⟩,
    ⟨2, 5, .k 0 0⟩,
    ⟨3, 5, .k 0 0⟩]
  upd := [⟨0, 0, .neg (.s 10)⟩,
    ⟨0, 1, .neg (.c 10)⟩,
    ⟨1, 0, (.s 9) ⊠ (.c 10)⟩,
    ⟨1, 1, (.neg (.s 9)) ⊠ (.s 10)⟩,
    ⟨1, 2, .c 9⟩,
    ⟨2, 0, (.neg (.c 9)) ⊠ (.c 10)⟩,
    ⟨2, 1, (.c 9) ⊠ (.s 10)⟩,
    ⟨2, 2, .s 9⟩,
    ⟨3, 0, ((.k 207 3) ⊠ (.c 9)) ⊠ (.c 10)⟩,
    ⟨3, 1, ((.neg (.k 207 3)) ⊠ (.c 9)) ⊠ (.s 10)⟩,
    ⟨3, 2, (((.k 35 2) ⊠ (.c 10)) ⊟ ((.k 207 3) ⊠ (.s 9))) ⊞ (.k 8 2)⟩,
    ⟨3, 3, .neg (.s 10)⟩,
    ⟨3, 4, .neg (.c 10)⟩,
    ⟨4, 0, (((.k 8 2) ⊠ (.c 9)) ⊠ (.s 10)) ⊟ (((.k 3735 4) ⊠ (.c 9)) ⊠ (.c 10))⟩,
    ⟨4, 1, ((((.k 3735 4) ⊠ (.c 9)) ⊠ (.s 10)) ⊞ (((.k 8 2) ⊠ (.c 9)) ⊠ (.c 10))) ⊞ ((.k 35 2) ⊠ (.c 9))⟩,
    ⟨4, 2, (((.k 35 2) ⊠ (.s 9)) ⊠ (.s 10)) ⊞ ((.k 3735 4) ⊠ (.s 9))⟩,
    ⟨4, 3, (.s 9) ⊠ (.c 10)⟩,
    ⟨4, 4, (.neg (.s 9)) ⊠ (.s 10)⟩,
    ⟨4, 5, .c 9⟩,
    ⟨5, 0, ((((.k 8 2) ⊠ (.s 9)) ⊟ (.k 207 3)) ⊠ (.s 10)) ⊟ (((.k 3735 4) ⊠ (.s 9)) ⊠ (.c 10))⟩,
    ⟨5, 1, ((((.k 3735 4) ⊠ (.s 9)) ⊠ (.s 10)) ⊞ ((((.k 8 2) ⊠ (.s 9)) ⊟ (.k 207 3)) ⊠ (.c 10))) ⊞ ((.k 35 2) ⊠ (.s 9))⟩,
    ⟨5, 2, (((.neg (.k 35 2)) ⊠ (.c 9)) ⊠ (.s 10)) ⊟ ((.k 3735 4) ⊠ (.c 9))⟩,
    ⟨5, 3, (.neg (.c 9)) ⊠ (.c 10)⟩,
    ⟨5, 4, (.c 9) ⊠ (.s 10)⟩,
    ⟨5, 5, .s 9⟩]

/-- `ForceTransforms::Type_fr_trunk_X_fr_RH_KFE` (transforms.impl.h:7364-7377, 7379-7416). -/
def force_fr_trunk_X_fr_RH_KFE : Gen where
  rows := 6
  cols := 6
  ctor := [⟨0, 2, .k 0 0⟩,
    ⟨3, 0, .k 0 0⟩,
    ⟨3, 1, .k 0 0⟩,
    ⟨3, 2, .k 0 0⟩,
    ⟨3, 5, .k 0 0⟩,
    ⟨4, 0, .k 0 0⟩,
    ⟨4, 1, .k 0 0⟩,
    ⟨4, 2, .k 0 0⟩,
    ⟨5, 0, .k 0 0⟩,
    ⟨5, 1, .k 0 0⟩,
    ⟨5, 2, .k 0 0⟩]
  upd := [⟨0, 0, .neg (.s 10)⟩,
    ⟨0, 1, .neg (.c 10)⟩,
    ⟨0, 3, ((.k 207 3) ⊠ (.c 9)) ⊠ (.c 10)⟩,
    ⟨0, 4, ((.neg (.k 207 3)) ⊠ (.c 9)) ⊠ (.s 10)⟩,
    ⟨0, 5, (((.k 35 2) ⊠ (.c 10)) ⊟ ((.k 207 3) ⊠ (.s 9))) ⊞ (.k 8 2)⟩,
    ⟨1, 0, (.s 9) ⊠ (.c 10)⟩,
    ⟨1, 1, (.neg (.s 9)) ⊠ (.s 10)⟩,
    ⟨1, 2, .c 9⟩,
    ⟨1, 3, (((.k 8 2) ⊠ (.c 9)) ⊠ (.s 10)) ⊟ (((.k 3735 4) ⊠ (.c 9)) ⊠ (.c 10))⟩,
    ⟨1, 4, ((((.k 3735 4) ⊠ (.c 9)) ⊠ (.s 10)) ⊞ (((.k 8 2) ⊠ (.c 9)) ⊠ (.c 10))) ⊞ ((.k 35 2) ⊠ (.c 9))⟩,
    ⟨1, 5, (((.k 35 2) ⊠ (.s 9)) ⊠ (.s 10)) ⊞ ((.k 3735 4) ⊠ (.s 9))⟩,
    ⟨2, 0, (.neg (.c 9)) ⊠ (.c 10)⟩,
    ⟨2, 1, (.c 9) ⊠ (.s 10)⟩,
    ⟨2, 2, .s 9⟩,
    ⟨2, 3, ((((.k 8 2) ⊠ (.s 9)) ⊟ (.k 207 3)) ⊠ (.s 10)) ⊟ (((.k 3735 4) ⊠ (.s 9)) ⊠ (.c 10))⟩,
    ⟨2, 4, ((((.k 3735 4) ⊠ (.s 9)) ⊠ (.s 10)) ⊞ ((((.k 8 2) ⊠ (.s 9)) ⊟ (.k 207 3)) ⊠ (.c 10))) ⊞ ((.k 35 2) ⊠ (.s 9))⟩,
    ⟨2, 5, (((.neg (.k 35 2)) ⊠ (.c 9)) ⊠ (.s 10)) ⊟ ((.k 3735 4) ⊠ (.c 9))⟩,
    ⟨3, 3, .neg (.s 10)⟩,
    ⟨3, 4, .neg (.c 10)⟩,
    ⟨4, 3, (.s 9) ⊠ (.c 10)⟩,
    ⟨4, 4, (.neg (.s 9)) ⊠ (.s 10)⟩,
    ⟨4, 5, .c 9⟩,
    ⟨5, 3, (.neg (.c 9)) ⊠ (.c 10)⟩,
    ⟨5, 4, (.c 9) ⊠ (.s 10)⟩,
    ⟨5, 5, .s 9⟩]

/-- The transforms `fr_trunk_X_fr_RH_KFE`. -/
def fr_trunk_X_fr_RH_KFE : Trans := ⟨fr_trunk, fr_RH_KFE, hom_fr_trunk_X_fr_RH_KFE, motion_fr_trunk_X_fr_RH_KFE, force_fr_trunk_X_fr_RH_KFE⟩

/-- `HomogeneousTransforms::Type_fr_LF_upperleg_X_fr_LF_hipassembly` (transforms.impl.h:10195-10207, 10209-10223). -/
def hom_fr_LF_upperleg_X_fr_LF_hipassembly : Gen where
  rows := 4
  cols := 4
  ctor := [⟨0, 1, .k 0 0⟩,
    ⟨1, 1, .k 0 0⟩,
    ⟨2, 0, .k 0 0⟩,
    ⟨2, 1, .neg (.k 1 0)⟩,
    ⟨2, 2, .k 0 0⟩,
    ⟨2, 3, .k 0 0⟩,
    ⟨3, 0, .k 0 0⟩,
    ⟨3, 1, .k 0 0⟩,
    ⟨3, 2, .k 0 0⟩,
    ⟨3, 3, .k 1 0⟩]
  upd := [⟨0, 0, .c 1⟩,
    ⟨0, 2, .s 1⟩,
    ⟨0, 3, (.neg (.k 8 2)) ⊠ (.c 1)⟩,
    ⟨1, 0, .neg (.s 1)⟩,
    ⟨1, 2, .c 1⟩,
    ⟨1, 3, (.k 8 2) ⊠ (.s 1)⟩]

/-- `MotionTransforms::Type_fr_LF_upperleg_X_fr_LF_hipassembly` (transforms.impl.h:3441-3469, 3471-3489). -/
def motion_fr_LF_upperleg_X_fr_LF_hipassembly : Gen where
  rows := 6
  cols := 6
  ctor := [⟨0, 1, .k 0 0⟩,
    ⟨0, 3, .k 0 0⟩,
    ⟨0, 4, .k 0 0⟩,
    ⟨0, 5, .k 0 0⟩,
    ⟨1, 1, .k 0 0⟩,
    ⟨1, 3, .k 0 0⟩,
    ⟨1, 4, .k 0 0⟩,
    ⟨1, 5, .k 0 0⟩,
    ⟨2, 0, .k 0 0⟩,
    ⟨2, 1, .neg (.k 1 0)⟩,
    ⟨2, 2, .k 0 0⟩,
    ⟨2, 3, .k 0 0⟩,
    ⟨2, 4, .k 0 0⟩,
    ⟨2, 5, .k 0 0⟩,
    ⟨3, 0, .k 0 0⟩,
    ⟨3, 2, .k 0 0⟩,
    ⟨3, 4, .k 0 0⟩,
    ⟨4, 0, .k 0 0⟩,
    ⟨4, 2, .k 0 0⟩,
    ⟨4, 4, .k 0 0⟩,
    ⟨5, 0, .k 0 0⟩,
    ⟨5, 1, .k 0 0⟩,
    ⟨5, 2, .neg (.k 8 2)⟩,
    ⟨5, 3, .k 0 0⟩,
    ⟨5, 4, .neg (.k 1 0)⟩,
    ⟨5, 5, .k 0 0⟩]
  upd := [⟨0, 0, .c 1⟩,
    ⟨0, 2, .s 1⟩,
    ⟨1, 0, .neg (.s 1)⟩,
    ⟨1, 2, .c 1⟩,
    ⟨3, 1, (.neg (.k 8 2)) ⊠ (.s 1)⟩,
    ⟨3, 3, .c 1⟩,
    ⟨3, 5, .s 1⟩,
    ⟨4, 1, (.neg (.k 8 2)) ⊠ (.c 1)⟩,
    ⟨4, 3, .neg (.s 1)⟩,
    ⟨4, 5, .c 1⟩]

/-- `ForceTransforms::Type_fr_LF_upperleg_X_fr_LF_hipassembly` (transforms.impl.h:7418-7446, 7448-7466). -/
def force_fr_LF_upperleg_X_fr_LF_hipassembly : Gen where
  rows := 6
  cols := 6
  ctor := [⟨0, 1, .k 0 0⟩,
    ⟨0, 3, .k 0 0⟩,
    ⟨0, 5, .k 0 0⟩,
    ⟨1, 1, .k 0 0⟩,
    ⟨1, 3, .k 0 0⟩,
    ⟨1, 5, .k 0 0⟩,
    ⟨2, 0, .k 0 0⟩,
    ⟨2, 1, .neg (.k 1 0)⟩,
    ⟨2, 2, .k 0 0⟩,
    ⟨2, 3, .k 0 0⟩,
    ⟨2, 4, .k 0 0⟩,
    ⟨2, 5, .neg (.k 8 2)⟩,
    ⟨3, 0, .k 0 0⟩,
    ⟨3, 1, .k 0 0⟩,
    ⟨3, 2, .k 0 0⟩,
    ⟨3, 4, .k 0 0⟩,
    ⟨4, 0, .k 0 0⟩,
    ⟨4, 1, .k 0 0⟩,
    ⟨4, 2, .k 0 0⟩,
    ⟨4, 4, .k 0 0⟩,
    ⟨5, 0, .k 0 0⟩,
    ⟨5, 1, .k 0 0⟩,
    ⟨5, 2, .k 0 0⟩,
    ⟨5, 3, .k 0 0⟩,
    ⟨5, 4, .neg (.k 1 0)⟩,
    ⟨5, 5, .k 0 0⟩]
  upd := [⟨0, 0, .c 1⟩,
    ⟨0, 2, .s 1⟩,
    ⟨0, 4, (.neg (.k 8 2)) ⊠ (.s 1)⟩,
    ⟨1, 0, .neg (.s 1)⟩,
    ⟨1, 2, .c 1⟩,
    ⟨1, 4, (.neg (.k 8 2)) ⊠ (.c 1)⟩,
    ⟨3, 3, .c 1⟩,
    ⟨3, 5, .s 1⟩,
    ⟨4, 3, .neg (.s 1)⟩,
    ⟨4, 5, .c 1⟩]

/-- The transforms `fr_LF_upperleg_X_fr_LF_hipassembly`. -/
def fr_LF_upperleg_X_fr_LF_hipassembly : Trans := ⟨fr_LF_upperleg, fr_LF_hipassembly, hom_fr_LF_upperleg_X_fr_LF_hipassembly, motion_fr_LF_upperleg_X_fr_LF_hipassembly, force_fr_LF_upperleg_X_fr_LF_hipassembly⟩

/-- `HomogeneousTransforms::Type_fr_LF_hipassembly_X_fr_LF_upperleg` (transforms.impl.h:10225-10239, 10241-10253). -/
def hom_fr_LF_hipassembly_X_fr_LF_upperleg : Gen where
  rows := 4
  cols := 4
  ctor := [⟨0, 2, .k 0 0⟩,
    ⟨0, 3, .k 8 2⟩,
    ⟨1, 0, .k 0 0⟩,
    ⟨1, 1, .k 0 0⟩,
    ⟨1, 2, .neg (.k 1 0)⟩,
    ⟨1, 3, .k 0 0⟩,
    ⟨2, 2, .k 0 0⟩,
    ⟨2, 3, .k 0 0⟩,
    ⟨3, 0, .k 0 0⟩,
    ⟨3, 1, .k 0 0⟩,
    ⟨3, 2, .k 0 0⟩,
    ⟨3, 3, .k 1 0⟩]
  upd := [⟨0, 0, .c 1⟩,
    ⟨0, 1, .neg (.s 1)⟩,
    ⟨2, 0, .s 1⟩,
    ⟨2, 1, .c 1⟩]

/-- `MotionTransforms::Type_fr_LF_hipassembly_X_fr_LF_upperleg` (transforms.impl.h:3491-3519, 3521-3539). -/
def motion_fr_LF_hipassembly_X_fr_LF_upperleg : Gen where
  rows := 6
  cols := 6
  ctor := [⟨0, 2, .k 0 0⟩,
    ⟨0, 3, .k 0 0⟩,
    ⟨0, 4, .k 0 0⟩,
    ⟨0, 5, .k 0 0⟩,
    ⟨1, 0, .k 0 0⟩,
    ⟨1, 1, .k 0 0⟩,
    ⟨1, 2, .neg (.k 1 0)⟩,
    ⟨1, 3, .k 0 0⟩,
    ⟨1, 4, .k 0 0⟩,
    ⟨1, 5, .k 0 0⟩,
    ⟨2, 2, .k 0 0⟩,
    ⟨2, 3, .k 0 0⟩,
    ⟨2, 4, .k 0 0⟩,
    ⟨2, 5, .k 0 0⟩,
    ⟨3, 0, .k 0 0⟩,
    ⟨3, 1, .k 0 0⟩,
    ⟨3, 2, .k 0 0⟩,
    ⟨3, 5, .k 0 0⟩,
    ⟨4, 2, .k 0 0⟩,
    ⟨4, 3, .k 0 0⟩,
    ⟨4, 4, .k 0 0⟩,
    ⟨4, 5, .neg (.k 1 0)⟩,
    ⟨5, 0, .k 0 0⟩,
    ⟨5, 1, .k 0 0⟩,
    ⟨5, 2, .neg (.k 8 2)⟩,
    ⟨5, 5, .k 0 0⟩]
  upd := [⟨0, 0, .c 1⟩,
    ⟨0, 1, .neg (.s 1)⟩,
    ⟨2, 0, .s 1⟩,
    ⟨2, 1, .c 1⟩,
    ⟨3, 3, .c 1⟩,
    ⟨3, 4, .neg (.s 1)⟩,
    ⟨4, 0, (.neg (.k 8 2)) ⊠ (.s 1)⟩,
    ⟨4, 1, (.neg (.k 8 2)) ⊠ (.c 1)⟩,
    ⟨5, 3, .s 1⟩,
    ⟨5, 4, .c 1⟩]

/-- `ForceTransforms::Type_fr_LF_hipassembly_X_fr_LF_upperleg` (transforms.impl.h:7468-7496, 7498-7516). -/
def force_fr_LF_hipassembly_X_fr_LF_upperleg : Gen where
  rows := 6
  cols := 6
  ctor := [⟨0, 2, .k 0 0⟩,
    ⟨0, 3, .k 0 0⟩,
    ⟨0, 4, .k 0 0⟩,
    ⟨0, 5, .k 0 0⟩,
    ⟨1, 0, .k 0 0⟩,
    ⟨1, 1, .k 0 0⟩,
    ⟨1, 2, .neg (.k 1 0)⟩,
    ⟨1, 5, .k 0 0⟩,
    ⟨2, 2, .k 0 0⟩,
    ⟨2, 3, .k 0 0⟩,
    ⟨2, 4, .k 0 0⟩,
    ⟨2, 5, .neg (.k 8 2)⟩,
    ⟨3, 0, .k 0 0⟩,
    ⟨3, 1, .k 0 0⟩,
    ⟨3, 2, .k 0 0⟩,
    ⟨3, 5, .k 0 0⟩,
    ⟨4, 0, .k 0 0⟩,
    ⟨4, 1, .k 0 0⟩,
    ⟨4, 2, .k 0 0⟩,
    ⟨4, 3, .k 0 0⟩,
    ⟨4, 4, .k 0 0⟩,
    ⟨4, 5, .neg (.k 1 0)⟩,
    ⟨5, 0, .k 0 0⟩,
    ⟨5, 1, .k 0 0⟩,
    ⟨5, 2, .k 0 0⟩,
    ⟨5, 5, .k 0 0⟩]
  upd := [⟨0, 0, .c 1⟩,
    ⟨0, 1, .neg (.s 1)⟩,
    ⟨1, 3, (.neg (.k 8 2)) ⊠ (.s 1)⟩,
    ⟨1, 4, (.neg (.k 8 2)) ⊠ (.c 1)⟩,
    ⟨2, 0, .s 1⟩,
    ⟨2, 1, .c 1⟩,
    ⟨3, 3, .c 1⟩,
    ⟨3, 4, .neg (.s 1)⟩,
    ⟨5, 3, .s 1⟩,
    ⟨5, 4, .c 1⟩]

/-- The transforms `fr_LF_hipassembly_X_fr_LF_upperleg`. -/
def fr_LF_hipassembly_X_fr_LF_upperleg : Trans := ⟨fr_LF_hipassembly, fr_LF_upperleg, hom_fr_LF_hipassembly_X_fr_LF_upperleg, motion_fr_LF_hipassembly_X_fr_LF_upperleg, force_fr_LF_hipassembly_X_fr_LF_upperleg⟩

/-- `HomogeneousTransforms::Type_fr_LF_lowerleg_X_fr_LF_upperleg` (transforms.impl.h:10255-10267, 10269-10283). -/
def hom_fr_LF_lowerleg_X_fr_LF_upperleg : Gen where
  rows := 4
  cols := 4
  ctor := [⟨0, 2, .k 0 0⟩,
    ⟨1, 2, .k 0 0⟩,
    ⟨2, 0, .k 0 0⟩,
    ⟨2, 1, .k 0 0⟩,
    ⟨2, 2, .k 1 0⟩,
    ⟨2, 3, .k 0 0⟩,
    ⟨3, 0, .k 0 0⟩,
    ⟨3, 1, .k 0 0⟩,
    ⟨3, 2, .k 0 0⟩,
    ⟨3, 3, .k 1 0⟩]
  upd := [⟨0, 0, .c 2⟩,
    ⟨0, 1, .s 2⟩,
    ⟨0, 3, (.neg (.k 35 2)) ⊠ (.c 2)⟩,
    ⟨1, 0, .neg (.s 2)⟩,
    ⟨1, 1, .c 2⟩,
    ⟨1, 3, (.k 35 2) ⊠ (.s 2)⟩]

/-- `MotionTransforms::Type_fr_LF_lowerleg_X_fr_LF_upperleg` (transforms.impl.h:3541-3569, 3571-3589). -/
def motion_fr_LF_lowerleg_X_fr_LF_upperleg : Gen where
  rows := 6
  cols := 6
  ctor := [⟨0, 2, .k 0 0⟩,
    ⟨0, 3, .k 0 0⟩,
    ⟨0, 4, .k 0 0⟩,
    ⟨0, 5, .k 0 0⟩,
    ⟨1, 2, .k 0 0⟩,
    ⟨1, 3, .k 0 0⟩,
    ⟨1, 4, .k 0 0⟩,
    ⟨1, 5, .k 0 0⟩,
    ⟨2, 0, .k 0 0⟩,
    ⟨2, 1, .k 0 0⟩,
    ⟨2, 2, .k 1 0⟩,
    ⟨2, 3, .k 0 0⟩,
    ⟨2, 4, .k 0 0⟩,
    ⟨2, 5, .k 0 0⟩,
    ⟨3, 0, .k 0 0⟩,
    ⟨3, 1, .k 0 0⟩,
    ⟨3, 5, .k 0 0⟩,
    ⟨4, 0, .k 0 0⟩,
    ⟨4, 1, .k 0 0⟩,
    ⟨4, 5, .k 0 0⟩,
    ⟨5, 0, .k 0 0⟩,
    ⟨5, 1, .neg (.k 35 2)⟩,
    ⟨5, 2, .k 0 0⟩,
    ⟨5, 3, .k 0 0⟩,
    ⟨5, 4, .k 0 0⟩,
    ⟨5, 5, .k 1 0⟩]
  upd := [⟨0, 0, .c 2⟩,
    ⟨0, 1, .s 2⟩,
    ⟨1, 0, .neg (.s 2)⟩,
    ⟨1, 1, .c 2⟩,
    ⟨3, 2, (.k 35 2) ⊠ (.s 2)⟩,
    ⟨3, 3, .c 2⟩,
    ⟨3, 4, .s 2⟩,
    ⟨4, 2, (.k 35 2) ⊠ (.c 2)⟩,
    ⟨4, 3, .neg (.s 2)⟩,
    ⟨4, 4, .c 2⟩]

/-- `ForceTransforms::Type_fr_LF_lowerleg_X_fr_LF_upperleg` (transforms.impl.h:7518-7546, 7548-7566). -/
def force_fr_LF_lowerleg_X_fr_LF_upperleg : Gen where
  rows := 6
  cols := 6
  ctor := [⟨0, 2, .k 0 0⟩,
    ⟨0, 3, .k 0 0⟩,
    ⟨0, 4, .k 0 0⟩,
    ⟨1, 2, .k 0 0⟩,
    ⟨1, 3, .k 0 0⟩,
    ⟨1, 4, .k 0 0⟩,
    ⟨2, 0, .k 0 0⟩,
    ⟨2, 1, .k 0 0⟩,
    ⟨2, 2, .k 1 0⟩,
    ⟨2, 3, .k 0 0⟩,
    ⟨2, 4, .neg (.k 35 2)⟩,
    ⟨2, 5, .k 0 0⟩,
    ⟨3, 0, .k 0 0⟩,
    ⟨3, 1, .k 0 0⟩,
    ⟨3, 2, .k 0 0⟩,
    ⟨3, 5, .k 0 0⟩,
    ⟨4, 0, .k 0 0⟩,
    ⟨4, 1, .k 0 0⟩,
    ⟨4, 2, .k 0 0⟩,
    ⟨4, 5, .k 0 0⟩,
    ⟨5, 0, .k 0 0⟩,
    ⟨5, 1, .k 0 0⟩,
    ⟨5, 2, .k 0 0⟩,
    ⟨5, 3, .k 0 0⟩,
    ⟨5, 4, .k 0 0⟩,
    ⟨5, 5, .k 1 0⟩]
  upd := [⟨0, 0, .c 2⟩,
    ⟨0, 1, .s 2⟩,
    ⟨0, 5, (.k 35 2) ⊠ (.s 2)⟩,
    ⟨1, 0, .neg (.s 2)⟩,
    ⟨1, 1, .c 2⟩,
    ⟨1, 5, (.k 35 2) ⊠ (.c 2)⟩,
    ⟨3, 3, .c 2⟩,
    ⟨3, 4, .s 2⟩,
    ⟨4, 3, .neg (.s 2)⟩,
    ⟨4, 4, .c 2⟩]

/-- The transforms `fr_LF_lowerleg_X_fr_LF_upperleg`. -/
def fr_LF_lowerleg_X_fr_LF_upperleg : Trans := ⟨fr_LF_lowerleg, fr_LF_upperleg, hom_fr_LF_lowerleg_X_fr_LF_upperleg, motion_fr_LF_lowerleg_X_fr_LF_upperleg, force_fr_LF_lowerleg_X_fr_LF_upperleg⟩

/-- `HomogeneousTransforms::Type_fr_LF_upperleg_X_fr_LF_lowerleg` (transforms.impl.h:10285-10299, 10301-10313). -/
def hom_fr_LF_upperleg_X_fr_LF_lowerleg : Gen where
  rows := 4
  cols := 4
  ctor := [⟨0, 2, .k 0 0⟩,
    ⟨0, 3, .k 35 2⟩,
    ⟨1, 2, .k 0 0⟩,
    ⟨1, 3, .k 0 0⟩,
    ⟨2, 0, .k 0 0⟩,
    ⟨2, 1, .k 0 0⟩,
    ⟨2, 2, .k 1 0⟩,
    ⟨2, 3, .k 0 0⟩,
    ⟨3, 0, .k 0 0⟩,
    ⟨3, 1, .k 0 0⟩,
    ⟨3, 2, .k 0 0⟩,
    ⟨3, 3, .k 1 0⟩]
  upd := [⟨0, 0, .c 2⟩,
    ⟨0, 1, .neg (.s 2)⟩,
    ⟨1, 0, .s 2⟩,
    ⟨1, 1, .c 2⟩]

/-- `MotionTransforms::Type_fr_LF_upperleg_X_fr_LF_lowerleg` (transforms.impl.h:3591-3619, 3621-3639). -/
def motion_fr_LF_upperleg_X_fr_LF_lowerleg : Gen where
  rows := 6
  cols := 6
  ctor := [⟨0, 2, .k 0 0⟩,
    ⟨0, 3, .k 0 0⟩,
    ⟨0, 4, .k 0 0⟩,
    ⟨0, 5, .k 0 0⟩,
    ⟨1, 2, .k 0 0⟩,
    ⟨1, 3, .k 0 0⟩,
    ⟨1, 4, .k 0 0⟩,
    ⟨1, 5, .k 0 0⟩,
    ⟨2, 0, .k 0 0⟩,
    ⟨2, 1, .k 0 0⟩,
    ⟨2, 2, .k 1 0⟩,
    ⟨2, 3, .k 0 0⟩,
    ⟨2, 4, .k 0 0⟩,
    ⟨2, 5, .k 0 0⟩,
    ⟨3, 0, .k 0 0⟩,
    ⟨3, 1, .k 0 0⟩,
    ⟨3, 2, .k 0 0⟩,
    ⟨3, 5, .k 0 0⟩,
    ⟨4, 0, .k 0 0⟩,
    ⟨4, 1, .k 0 0⟩,
    ⟨4, 2, .neg (.k 35 2)⟩,
    ⟨4, 5, .k 0 0⟩,
    ⟨5, 2, .k 0 0⟩,
    ⟨5, 3, .k 0 0⟩,
    ⟨5, 4, .k 0 0⟩,
    ⟨5, 5, .k 1 0⟩]
  upd := [⟨0, 0, .c 2⟩,
    ⟨0, 1, .neg (.s 2)⟩,
    ⟨1, 0, .s 2⟩,
    ⟨1, 1, .c 2⟩,
    ⟨3, 3, .c 2⟩,
    ⟨3, 4, .neg (.s 2)⟩,
    ⟨4, 3, .s 2⟩,
    ⟨4, 4, .c 2⟩,
    ⟨5, 0, (.k 35 2) ⊠ (.s 2)⟩,
    ⟨5, 1, (.k 35 2) ⊠ (.c 2)⟩]

/-- `ForceTransforms::Type_fr_LF_upperleg_X_fr_LF_lowerleg` (transforms.impl.h:7568-7596, 7598-7616). -/
def force_fr_LF_upperleg_X_fr_LF_lowerleg : Gen where
  rows := 6
  cols := 6
  ctor := [⟨0, 2, .k 0 0⟩,
    ⟨0, 3, .k 0 0⟩,
    ⟨0, 4, .k 0 0⟩,
    ⟨0, 5, .k 0 0⟩,
    ⟨1, 2, .k 0 0⟩,
    ⟨1, 3, .k 0 0⟩,
    ⟨1, 4, .k 0 0⟩,
    ⟨1, 5, .neg (.k 35 2)⟩,
    ⟨2, 0, .k 0 0⟩,
    ⟨2, 1, .k 0 0⟩,
    ⟨2, 2, .k 1 0⟩,
    ⟨2, 5, .k 0 0⟩,
    ⟨3, 0, .k 0 0⟩,
    ⟨3, 1, .k 0 0⟩,
    ⟨3, 2, .k 0 0⟩,
    ⟨3, 5, .k 0 0⟩,
    ⟨4, 0, .k 0 0⟩,
    ⟨4, 1, .k 0 0⟩,
    ⟨4, 2, .k 0 0⟩,
    ⟨4, 5, .k 0 0⟩,
    ⟨5, 0, .k 0 0⟩,
    ⟨5, 1, .k 0 0⟩,
    ⟨5, 2, .k 0 0⟩,
    ⟨5, 3, .k 0 0⟩,
    ⟨5, 4, .k 0 0⟩,
    ⟨5, 5, .k 1 0⟩]
  upd := [⟨0, 0, .c 2⟩,
    ⟨0, 1, .neg (.s 2)⟩,
    ⟨1, 0, .s 2⟩,
    ⟨1, 1, .c 2⟩,
    ⟨2, 3, (.k 35 2) ⊠ (.s 2)⟩,
    ⟨2, 4, (.k 35 2) ⊠ (.c 2)⟩,
    ⟨3, 3, .c 2⟩,
    ⟨3, 4, .neg (.s 2)⟩,
    ⟨4, 3, .s 2⟩,
    ⟨4, 4, .c 2⟩]

/-- The transforms `fr_LF_upperleg_X_fr_LF_lowerleg`. -/
def fr_LF_upperleg_X_fr_LF_lowerleg : Trans := ⟨fr_LF_upperleg, fr_LF_lowerleg, hom_fr_LF_upperleg_X_fr_LF_lowerleg, motion_fr_LF_upperleg_X_fr_LF_lowerleg, force_fr_LF_upperleg_X_fr_LF_lowerleg⟩

/-- `HomogeneousTransforms::Type_fr_RF_upperleg_X_fr_RF_hipassembly` (transforms.impl.h:10315-10327, 10329-10343). -/
def hom_fr_RF_upperleg_X_fr_RF_hipassembly : Gen where
  rows := 4
  cols := 4
  ctor := [⟨0, 1, .k 0 0⟩,
    ⟨1, 1, .k 0 0⟩,
    ⟨2, 0, .k 0 0⟩,
    ⟨2, 1, .k 1 0⟩,
    ⟨2, 2, .k 0 0⟩,
    ⟨2, 3, .k 0 0⟩,
    ⟨3, 0, .k 0 0⟩,
    ⟨3, 1, .k 0 0⟩,
    ⟨3, 2, .k 0 0⟩,
    ⟨3, 3, .k 1 0⟩]
  upd := [⟨0, 0, .c 4⟩,
    ⟨0, 2, .neg (.s 4)⟩,
    ⟨0, 3, (.neg (.k 8 2)) ⊠ (.c 4)⟩,
    ⟨1, 0, .neg (.s 4)⟩,
    ⟨1, 2, .neg (.c 4)⟩,
    ⟨1, 3, (.k 8 2) ⊠ (.s 4)⟩]

/-- `MotionTransforms::Type_fr_RF_upperleg_X_fr_RF_hipassembly` (transforms.impl.h:3641-3669, 3671-3689). -/
def motion_fr_RF_upperleg_X_fr_RF_hipassembly : Gen where
  rows := 6
  cols := 6
  ctor := [⟨0, 1, .k 0 0⟩,
    ⟨0, 3, .k 0 0⟩,
    ⟨0, 4, .k 0 0⟩,
    ⟨0, 5, .k 0 0⟩,
    ⟨1, 1, .k 0 0⟩,
    ⟨1, 3, .k 0 0⟩,
    ⟨1, 4, .k 0 0⟩,
    ⟨1, 5, .k 0 0⟩,
    ⟨2, 0, .k 0 0⟩,
    ⟨2, 1, .k 1 0⟩,
    ⟨2, 2, .k 0 0⟩,
    ⟨2, 3, .k 0 0⟩,
    ⟨2, 4, .k 0 0⟩,
    ⟨2, 5, .k 0 0⟩,
    ⟨3, 0, .k 0 0⟩,
    ⟨3, 2, .k 0 0⟩,
    ⟨3, 4, .k 0 0⟩,
    ⟨4, 0, .k 0 0⟩,
    ⟨4, 2, .k 0 0⟩,
    ⟨4, 4, .k 0 0⟩,
    ⟨5, 0, .k 0 0⟩,
    ⟨5, 1, .k 0 0⟩,
    ⟨5, 2, .k 8 2⟩,
    ⟨5, 3, .k 0 0⟩,
    ⟨5, 4, .k 1 0⟩,
    ⟨5, 5, .k 0 0⟩]
  upd := [⟨0, 0, .c 4⟩,
    ⟨0, 2, .neg (.s 4)⟩,
    ⟨1, 0, .neg (.s 4)⟩,
    ⟨1, 2, .neg (.c 4)⟩,
    ⟨3, 1, (.k 8 2) ⊠ (.s 4)⟩,
    ⟨3, 3, .c 4⟩,
    ⟨3, 5, .neg (.s 4)⟩,
    ⟨4, 1, (.k 8 2) ⊠ (.c 4)⟩,
    ⟨4, 3, .neg (.s 4)⟩,
    ⟨4, 5, .neg (.c 4)⟩]

/-- `ForceTransforms::Type_fr_RF_upperleg_X_fr_RF_hipassembly` (transforms.impl.h:7618-7646, 7648-7666). -/
def force_fr_RF_upperleg_X_fr_RF_hipassembly : Gen where
  rows := 6
  cols := 6
  ctor := [⟨0, 1, .k 0 0⟩,
    ⟨0, 3, .k 0 0⟩,
    ⟨0, 5, .k 0 0⟩,
    ⟨1, 1, .k 0 0⟩,
    ⟨1, 3, .k 0 0⟩,
    ⟨1, 5, .k 0 0⟩,
    ⟨2, 0, .k 0 0⟩,
    ⟨2, 1, .k 1 0⟩,
    ⟨2, 2, .k 0 0⟩,
    ⟨2, 3, .k 0 0⟩,
    ⟨2, 4, .k 0 0⟩,
    ⟨2, 5, .k 8 2⟩,
    ⟨3, 0, .k 0 0⟩,
    ⟨3, 1, .k 0 0⟩,
    ⟨3, 2, .k 0 0⟩,
    ⟨3, 4, .k 0 0⟩,
    ⟨4, 0, .k 0 0⟩,
    ⟨4, 1, .k 0 0⟩,
    ⟨4, 2, .k 0 0⟩,
    ⟨4, 4, .k 0 0⟩,
    ⟨5, 0, .k 0 0⟩,
    ⟨5, 1, .k 0 0⟩,
    ⟨5, 2, .k 0 0⟩,
    ⟨5, 3, .k 0 0⟩,
    ⟨5, 4, .k 1 0⟩,
    ⟨5, 5, .k 0 0⟩]
  upd := [⟨0, 0, .c 4⟩,
    ⟨0, 2, .neg (.s 4)⟩,
    ⟨0, 4, (.k 8 2) ⊠ (.s 4)⟩,
    ⟨1, 0, .neg (.s 4)⟩,
    ⟨1, 2, .neg (.c 4)⟩,
    ⟨1, 4, (.k 8 2) ⊠ (.c 4)⟩,
    ⟨3, 3, .c 4⟩,
    ⟨3, 5, .neg (.s 4)⟩,
    ⟨4, 3, .neg (.s 4)⟩,
    ⟨4, 5, .neg (.c 4)⟩]

/-- The transforms `fr_RF_upperleg_X_fr_RF_hipassembly`. -/
def fr_RF_upperleg_X_fr_RF_hipassembly : Trans := ⟨fr_RF_upperleg, fr_RF_hipassembly, hom_fr_RF_upperleg_X_fr_RF_hipassembly, motion_fr_RF_upperleg_X_fr_RF_hipassembly, force_fr_RF_upperleg_X_fr_RF_hipassembly⟩

/-- `HomogeneousTransforms::Type_fr_RF_hipassembly_X_fr_RF_upperleg` (transforms.impl.h:10345-10359, 10361-10373). -/
def hom_fr_RF_hipassembly_X_fr_RF_upperleg : Gen where
  rows := 4
  cols := 4
  ctor := [⟨0, 2, .k 0 0⟩,
    ⟨0, 3, .k 8 2⟩,
    ⟨1, 0, .k 0 0⟩,
    ⟨1, 1, .k 0 0⟩,
    ⟨1, 2, .k 1 0⟩,
    ⟨1, 3, .k 0 0⟩,
    ⟨2, 2, .k 0 0⟩,
    ⟨2, 3, .k 0 0⟩,
    ⟨3, 0, .k 0 0⟩,
    ⟨3, 1, .k 0 0⟩,
    ⟨3, 2, .k 0 0⟩,
    ⟨3, 3, .k 1 0⟩]
  upd := [⟨0, 0, .c 4⟩,
    ⟨0, 1, .neg (.s 4)⟩,
    ⟨2, 0, .neg (.s 4)⟩,
    ⟨2, 1, .neg (.c 4)⟩]

/-- `MotionTransforms::Type_fr_RF_hipassembly_X_fr_RF_upperleg` (transforms.impl.h:3691-3719, 3721-3739). -/
def motion_fr_RF_hipassembly_X_fr_RF_upperleg : Gen where
  rows := 6
  cols := 6
  ctor := [⟨0, 2, .k 0 0⟩,
    ⟨0, 3, .k 0 0⟩,
    ⟨0, 4, .k 0 0⟩,
    ⟨0, 5, .k 0 0⟩,
    ⟨1, 0, .k 0 0⟩,
    ⟨1, 1, .k 0 0⟩,
    ⟨1, 2, .k 1 0⟩,
    ⟨1, 3, .k 0 0⟩,
    ⟨1, 4, .k 0 0⟩,
    ⟨1, 5, .k 0 0⟩,
    ⟨2, 2, .k 0 0⟩,
    ⟨2, 3, .k 0 0⟩,
    ⟨2, 4, .k 0 0⟩,
    ⟨2, 5, .k 0 0⟩,
    ⟨3, 0, .k 0 0⟩,
    ⟨3, 1, .k 0 0⟩,
    ⟨3, 2, .k 0 0⟩,
    ⟨3, 5, .k 0 0⟩,
    ⟨4, 2, .k 0 0⟩,
    ⟨4, 3, .k 0 0⟩,
    ⟨4, 4, .k 0 0⟩,
    ⟨4, 5, .k 1 0⟩,
    ⟨5, 0, .k 0 0⟩,
    ⟨5, 1, .k 0 0⟩,
    ⟨5, 2, .k 8 2⟩,
    ⟨5, 5, .k 0 0⟩]
  upd := [⟨0, 0, .c 4⟩,
    ⟨0, 1, .neg (.s 4)⟩,
    ⟨2, 0, .neg (.s 4)⟩,
    ⟨2, 1, .neg (.c 4)⟩,
    ⟨3, 3, .c 4⟩,
    ⟨3, 4, .neg (.s 4)⟩,
    ⟨4, 0, (.k 8 2) ⊠ (.s 4)⟩,
    ⟨4, 1, (.k 8 2) ⊠ (.c 4)⟩,
    ⟨5, 3, .neg (.s 4)⟩,
    ⟨5, 4, .neg (.c 4)⟩]

/-- `ForceTransforms::Type_fr_RF_hipassembly_X_fr_RF_upperleg` (transforms.impl.h:7668-7696, 7698-7716). -/
def force_fr_RF_hipassembly_X_fr_RF_upperleg : Gen where
  rows := 6
  cols := 6
  ctor := [⟨0, 2, .k 0 0⟩,
    ⟨0, 3, .k 0 0⟩,
    ⟨0, 4, .k 0 0⟩,
    ⟨0, 5, .k 0 0⟩,
    ⟨1, 0, .k 0 0⟩,
    ⟨1, 1, .k 0 0⟩,
    ⟨1, 2, .k 1 0⟩,
    ⟨1, 5, .k 0 0⟩,
    ⟨2, 2, .k 0 0⟩,
    ⟨2, 3, .k 0 0⟩,
    ⟨2, 4, .k 0 0⟩,
    ⟨2, 5, .k 8 2⟩,
    ⟨3, 0, .k 0 0⟩,
    ⟨3, 1, .k 0 0⟩,
    ⟨3, 2, .k 0 0⟩,
    ⟨3, 5, .k 0 0⟩,
    ⟨4, 0, .k 0 0⟩,
    ⟨4, 1, .k 0 0⟩,
    ⟨4, 2, .k 0 0⟩,
    ⟨4, 3, .k 0 0⟩,
    ⟨4, 4, .k 0 0⟩,
    ⟨4, 5, .k 1 0⟩,
    ⟨5, 0, .k 0 0⟩,
    ⟨5, 1, .k 0 0⟩,
    ⟨5, 2, .k 0 0⟩,
    ⟨5, 5, .k 0 0⟩]
  upd := [⟨0, 0, .c 4⟩,
    ⟨0, 1, .neg (.s 4)⟩,
    ⟨1, 3, (.k 8 2) ⊠ (.s 4)⟩,
    ⟨1, 4, (.k 8 2) ⊠ (.c 4)⟩,
    ⟨2, 0, .neg (.s 4)⟩,
    ⟨2, 1, .neg (.c 4)⟩,
    ⟨3, 3, .c 4⟩,
    ⟨3, 4, .neg (.s 4)⟩,
    ⟨5, 3, .neg (.s 4)⟩,
    ⟨5, 4, .neg (.c 4)⟩]

/-- The transforms `fr_RF_hipassembly_X_fr_RF_upperleg`. -/
def fr_RF_hipassembly_X_fr_RF_upperleg : Trans := ⟨fr_RF_hipassembly, fr_RF_upperleg, hom_fr_RF_hipassembly_X_fr_RF_upperleg, motion_fr_RF_hipassembly_X_fr_RF_upperleg, force_fr_RF_hipassembly_X_fr_RF_upperleg⟩

/-- `HomogeneousTransforms::Type_fr_RF_lowerleg_X_fr_RF_upperleg` (transforms.impl.h:10375-10387, 10389-10403). -/
def hom_fr_RF_lowerleg_X_fr_RF_upperleg : Gen where
  rows := 4
  cols := 4
  ctor := [⟨0, 2, .k 0 0⟩,
    ⟨1, 2, .k 0 0⟩,
    ⟨2, 0, .k 0 0⟩,
    ⟨2, 1, .k 0 0⟩,
    ⟨2, 2, .k 1 0⟩,
    ⟨2, 3, .k 0 0⟩,
    ⟨3, 0, .k 0 0⟩,
    ⟨3, 1, .k 0 0⟩,
    ⟨3, 2, .k 0 0⟩,
    ⟨3, 3, .k 1 0⟩]
  upd := [⟨0, 0, .c 5⟩,
    ⟨0, 1, .s 5⟩,
    ⟨0, 3, (.neg (.k 35 2)) ⊠ (.c 5)⟩,
    ⟨1, 0, .neg (.s 5)⟩,
    ⟨1, 1, .c 5⟩,
    ⟨1, 3, (.k 35 2) ⊠ (.s 5)⟩]

/-- `MotionTransforms::Type_fr_RF_lowerleg_X_fr_RF_upperleg` (transforms.impl.h:3741-3769, 3771-3789). -/
def motion_fr_RF_lowerleg_X_fr_RF_upperleg : Gen where
  rows := 6
  cols := 6
  ctor := [⟨0, 2, .k 0 0⟩,
    ⟨0, 3, .k 0 0⟩,
    ⟨0, 4, .k 0 0⟩,
    ⟨0, 5, .k 0 0⟩,
    ⟨1, 2, .k 0 0⟩,
    ⟨1, 3, .k 0 0⟩,
    ⟨1, 4, .k 0 0⟩,
    ⟨1, 5, .k 0 0⟩,
    ⟨2, 0, .k 0 0⟩,
    ⟨2, 1, .k 0 0⟩,
    ⟨2, 2, .k 1 0⟩,
    ⟨2, 3, .k 0 0⟩,
    ⟨2, 4, .k 0 0⟩,
    ⟨2, 5, .k 0 0⟩,
    ⟨3, 0, .k 0 0⟩,
    ⟨3, 1, .k 0 0⟩,
    ⟨3, 5, .k 0 0⟩,
    ⟨4, 0, .k 0 0⟩,
    ⟨4, 1, .k 0 0⟩,
    ⟨4, 5, .k 0 0⟩,
    ⟨5, 0, .k 0 0⟩,
    ⟨5, 1, .neg (.k 35 2)⟩,
    ⟨5, 2, .k 0 0⟩,
    ⟨5, 3, .k 0 0⟩,
    ⟨5, 4, .k 0 0⟩,
    ⟨5, 5, .k 1 0⟩]
  upd := [⟨0, 0, .c 5⟩,
    ⟨0, 1, .s 5⟩,
    ⟨1, 0, .neg (.s 5)⟩,
    ⟨1, 1, .c 5⟩,
    ⟨3, 2, (.k 35 2) ⊠ (.s 5)⟩,
    ⟨3, 3, .c 5⟩,
    ⟨3, 4, .s 5⟩,
    ⟨4, 2, (.k 35 2) ⊠ (.c 5)⟩,
    ⟨4, 3, .neg (.s 5)⟩,
    ⟨4, 4, .c 5⟩]

/-- `ForceTransforms::Type_fr_RF_lowerleg_X_fr_RF_upperleg` (transforms.impl.h:7718-7746, 7748-7766). -/
def force_fr_RF_lowerleg_X_fr_RF_upperleg : Gen where
  rows := 6
  cols := 6
  ctor := [⟨0, 2, .k 0 0⟩,
    ⟨0, 3, .k 0 0⟩,
    ⟨0, 4, .k 0 0⟩,
    ⟨1, 2, .k 0 0⟩,
    ⟨1, 3, .k 0 0⟩,
    ⟨1, 4, .k 0 0⟩,
    ⟨2, 0, .k 0 0⟩,
    ⟨2, 1, .k 0 0⟩,
    ⟨2, 2, .k 1 0⟩,
    ⟨2, 3, .k 0 0⟩,
    ⟨2, 4, .neg (.k 35 2)⟩,
    ⟨2, 5, .k 0 0⟩,
    ⟨3, 0, .k 0 0⟩,
    ⟨3, 1, .k 0 0⟩,
    ⟨3, 2, .k 0 0⟩,
    ⟨3, 5, .k 0 0⟩,
    ⟨4, 0, .k 0 0⟩,
    ⟨4, 1, .k 0 0⟩,
    ⟨4, 2, .k 0 0⟩,
    ⟨4, 5, .k 0 0⟩,
    ⟨5, 0, .k 0 0⟩,
    ⟨5, 1, .k 0 0⟩,
    ⟨5, 2, .k 0 0⟩,
    ⟨5, 3, .k 0 0⟩,
    ⟨5, 4, .k 0 0⟩,
    ⟨5, 5, .k 1 0⟩]
  upd := [⟨0, 0, .c 5⟩,
    ⟨0, 1, .s 5⟩,
    ⟨0, 5, (.k 35 2) ⊠ (.s 5)⟩,
    ⟨1, 0, .neg (.s 5)⟩,
    ⟨1, 1, .c 5⟩,
    ⟨1, 5, (.k 35 2) ⊠ (.c 5)⟩,
    ⟨3, 3, .c 5⟩,
    ⟨3, 4, .s 5⟩,
    ⟨4, 3, .neg (.s 5)⟩,
    ⟨4, 4, .c 5⟩]

/-- The transforms `fr_RF_lowerleg_X_fr_RF_upperleg`. -/
def fr_RF_lowerleg_X_fr_RF_upperleg : Trans := ⟨fr_RF_lowerleg, fr_RF_upperleg, hom_fr_RF_lowerleg_X_fr_RF_upperleg, motion_fr_RF_lowerleg_X_fr_RF_upperleg, force_fr_RF_lowerleg_X_fr_RF_upperleg⟩

/-- `HomogeneousTransforms::Type_fr_RF_upperleg_X_fr_RF_lowerleg` (transforms.impl.h:10405-10419, 10421-10433). -/
def hom_fr_RF_upperleg_X_fr_RF_lowerleg : Gen where
  rows := 4
  cols := 4
  ctor := [⟨0, 2, .k 0 0⟩,
    ⟨0, 3, .k 35 2⟩,
    ⟨1, 2, .k 0 0⟩,
    ⟨1, 3, .k 0 0⟩,
    ⟨2, 0, .k 0 0⟩,
    ⟨2, 1, .k 0 0⟩,
    ⟨2, 2, .k 1 0⟩,
    ⟨2, 3, .k 0 0⟩,
    ⟨3, 0, .k 0 0⟩,
    ⟨3, 1, .k 0 0⟩,
    ⟨3, 2, .k 0 0⟩,
    ⟨3, 3, .k 1 0⟩]
  upd := [⟨0, 0, .c 5⟩,
    ⟨0, 1, .neg (.s 5)⟩,
    ⟨1, 0, .s 5⟩,
    ⟨1, 1, .c 5⟩]

/-- `MotionTransforms::Type_fr_RF_upperleg_X_fr_RF_lowerleg` (transforms.impl.h:3791-3819, 3821-3839). -/
def motion_fr_RF_upperleg_X_fr_RF_lowerleg : Gen where
  rows := 6
  cols := 6
  ctor := [⟨0, 2, .k 0 0⟩,
    ⟨0, 3, .k 0 0⟩,
    ⟨0, 4, .k 0 0⟩,
    ⟨0, 5, .k 0 0⟩,
    ⟨1, 2, .k 0 0⟩,
    ⟨1, 3, .k 0 0⟩,
    ⟨1, 4, .k 0 0⟩,
    ⟨1, 5, .k 0 0⟩,
    ⟨2, 0, .k 0 0⟩,
    ⟨2, 1, .k 0 0⟩,
    ⟨2, 2, .k 1 0⟩,
    ⟨2, 3, .k 0 0⟩,
    ⟨2, 4, .k 0 0⟩,
    ⟨2, 5, .k 0 0⟩,
    ⟨3, 0, .k 0 0⟩,
    ⟨3, 1, .k 0 0⟩,
    ⟨3, 2, .k 0 0⟩,
    ⟨3, 5, .k 0 0⟩,
    ⟨4, 0, .k 0 0⟩,
    ⟨4, 1, .k 0 0⟩,
    ⟨4, 2, .neg (.k 35 2)⟩,
    ⟨4, 5, .k 0 0⟩,
    ⟨5, 2, .k 0 0⟩,
    ⟨5, 3, .k 0 0⟩,
    ⟨5, 4, .k 0 0⟩,
    ⟨5, 5, .k 1 0⟩]
  upd := [⟨0, 0, .c 5⟩,
    ⟨0, 1, .neg (.s 5)⟩,
    ⟨1, 0, .s 5⟩,
    ⟨1, 1, .c 5⟩,
    ⟨3, 3, .c 5⟩,
    ⟨3, 4, .neg (.s 5)⟩,
    ⟨4, 3, .s 5⟩,
    ⟨4, 4, .c 5⟩,
    ⟨5, 0, (.k 35 2) ⊠ (.s 5)⟩,
    ⟨5, 1, (.k 35 2) ⊠ (.c 5)⟩]

/-- `ForceTransforms::Type_fr_RF_upperleg_X_fr_RF_lowerleg` (transforms.impl.h:7768-7796, 7798-7816). -/
def force_fr_RF_upperleg_X_fr_RF_lowerleg : Gen where
  rows := 6
  cols := 6
  ctor := [⟨0, 2, .k 0 0⟩,
    ⟨0, 3, .k 0 0⟩,
    ⟨0, 4, .k 0 0⟩,
    ⟨0, 5, .k 0 0⟩,
    ⟨1, 2, .k 0 0⟩,
    ⟨1, 3, .k 0 0⟩,
    ⟨1, 4, .k 0 0⟩,
    ⟨1, 5, .neg (.k 35 2)⟩,
    ⟨2, 0, .k 0 0⟩,
    ⟨2, 1, .k 0 0⟩,
    ⟨2, 2, .k 1 0⟩,
    ⟨2, 5, .k 0 0⟩,
    ⟨3, 0, .k 0 0⟩,
    ⟨3, 1, .k 0 0⟩,
    ⟨3, 2, .k 0 0⟩,
    ⟨3, 5, .k 0 0⟩,
    ⟨4, 0, .k 0 0⟩,
    ⟨4, 1, .k 0 0⟩,
    ⟨4, 2, .k 0 0⟩,
    ⟨4, 5, .k 0 0⟩,
    ⟨5, 0, .k 0 0⟩,
    ⟨5, 1, .k 0 0⟩,
    ⟨5, 2, .k 0 0⟩,
    ⟨5, 3, .k 0 0⟩,
    ⟨5, 4, .k 0 0⟩,
    ⟨5, 5, .k 1 0⟩]
  upd := [⟨0, 0, .c 5⟩,
    ⟨0, 1, .neg (.s 5)⟩,
    ⟨1, 0, .s 5⟩,
    ⟨1, 1, .c 5⟩,
    ⟨2, 3, (.k 35 2) ⊠ (.s 5)⟩,
    ⟨2, 4, (.k 35 2) ⊠ (.c 5)⟩,
    ⟨3, 3, .c 5⟩,
    ⟨3, 4, .neg (.s 5)⟩,
    ⟨4, 3, .s 5⟩,
    ⟨4, 4, .c 5⟩]

/-- The transforms `fr_RF_upperleg_X_fr_RF_lowerleg`. -/
def fr_RF_upperleg_X_fr_RF_lowerleg : Trans := ⟨fr_RF_upperleg, fr_RF_lowerleg, hom_fr_RF_upperleg_X_fr_RF_lowerleg, motion_fr_RF_upperleg_X_fr_RF_lowerleg, force_fr_RF_upperleg_X_fr_RF_lowerleg⟩

/-- `HomogeneousTransforms::Type_fr_LH_upperleg_X_fr_LH_hipassembly` (transforms.impl.h:10435-10447, 10449-10463). -/
def hom_fr_LH_upperleg_X_fr_LH_hipassembly : Gen where
  rows := 4
  cols := 4
  ctor := [⟨0, 1, .k 0 0⟩,
    ⟨1, 1, .k 0 0⟩,
    ⟨2, 0, .k 0 0⟩,
    ⟨2, 1, .neg (.k 1 0)⟩,
    ⟨2, 2, .k 0 0⟩,
    ⟨2, 3, .k 0 0⟩,
    ⟨3, 0, .k 0 0⟩,
    ⟨3, 1, .k 0 0⟩,
    ⟨3, 2, .k 0 0⟩,
    ⟨3, 3, .k 1 0⟩]
  upd := [⟨0, 0, .c 7⟩,
    ⟨0, 2, .s 7⟩,
    ⟨0, 3, (.neg (.k 8 2)) ⊠ (.c 7)⟩,
    ⟨1, 0, .neg (.s 7)⟩,
    ⟨1, 2, .c 7⟩,
    ⟨1, 3, (.k 8 2) ⊠ (.s 7)⟩]

/-- `MotionTransforms::Type_fr_LH_upperleg_X_fr_LH_hipassembly` (transforms.impl.h:3841-3869, 3871-3889). -/
def motion_fr_LH_upperleg_X_fr_LH_hipassembly : Gen where
  rows := 6
  cols := 6
  ctor := [⟨0, 1, .k 0 0⟩,
    ⟨0, 3, .k 0 0⟩,
    ⟨0, 4, .k 0 0⟩,
    ⟨0, 5, .k 0 0⟩,
    ⟨1, 1, .k 0 0⟩,
    ⟨1, 3, .k 0 0⟩,
    ⟨1, 4, .k 0 0⟩,
    ⟨1, 5, .k 0 0⟩,
    ⟨2, 0, .k 0 0⟩,
    ⟨2, 1, .neg (.k 1 0)⟩,
    ⟨2, 2, .k 0 0⟩,
    ⟨2, 3, .k 0 0⟩,
    ⟨2, 4, .k 0 0⟩,
    ⟨2, 5, .k 0 0⟩,
    ⟨3, 0, .k 0 0⟩,
    ⟨3, 2, .k 0 0⟩,
    ⟨3, 4, .k 0 0⟩,
    ⟨4, 0, .k 0 0⟩,
    ⟨4, 2, .k 0 0⟩,
    ⟨4, 4, .k 0 0⟩,
    ⟨5, 0, .k 0 0⟩,
    ⟨5, 1, .k 0 0⟩,
    ⟨5, 2, .neg (.k 8 2)⟩,
    ⟨5, 3, .k 0 0⟩,
    ⟨5, 4, .neg (.k 1 0)⟩,
    ⟨5, 5, .k 0 0⟩]
  upd := [⟨0, 0, .c 7⟩,
    ⟨0, 2, .s 7⟩,
    ⟨1, 0, .neg (.s 7)⟩,
    ⟨1, 2, .c 7⟩,
    ⟨3, 1, (.neg (.k 8 2)) ⊠ (.s 7)⟩,
    ⟨3, 3, .c 7⟩,
    ⟨3, 5, .s 7⟩,
    ⟨4, 1, (.neg (.k 8 2)) ⊠ (.c 7)⟩,
    ⟨4, 3, .neg (.s 7)⟩,
    ⟨4, 5, .c 7⟩]

/-- `ForceTransforms::Type_fr_LH_upperleg_X_fr_LH_hipassembly` (transforms.impl.h:7818-7846, 7848-7866). -/
def force_fr_LH_upperleg_X_fr_LH_hipassembly : Gen where
  rows := 6
  cols := 6
  ctor := [⟨0, 1, .k 0 0⟩,
    ⟨0, 3, .k 0 0⟩,
    ⟨0, 5, .k 0 0⟩,
    ⟨1, 1, .k 0 0⟩,
    ⟨1, 3, .k 0 0⟩,
    ⟨1, 5, .k 0 0⟩,
    ⟨2, 0, .k 0 0⟩,
    ⟨2, 1, .neg (.k 1 0)⟩,
    ⟨2, 2, .k 0 0⟩,
    ⟨2, 3, .k 0 0⟩,
    ⟨2, 4, .k 0 0⟩,
    ⟨2, 5, .neg (.k 8 2)⟩,
    ⟨3, 0, .k 0 0⟩,
    ⟨3, 1, .k 0 0⟩,
    ⟨3, 2, .k 0 0⟩,
    ⟨3, 4, .k 0 0⟩,
    ⟨4, 0, .k 0 0⟩,
    ⟨4, 1, .k 0 0⟩,
    ⟨4, 2, .k 0 0⟩,
    ⟨4, 4, .k 0 0⟩,
    ⟨5, 0, .k 0 0⟩,
    ⟨5, 1, .k 0 0⟩,
    ⟨5, 2, .k 0 0⟩,
    ⟨5, 3, .k 0 0⟩,
    ⟨5, 4, .neg (.k 1 0)⟩,
    ⟨5, 5, .k 0 0⟩]
  upd := [⟨0, 0, .c 7⟩,
    ⟨0, 2, .s 7⟩,
    ⟨0, 4, (.neg (.k 8 2)) ⊠ (.s 7)⟩,
    ⟨1, 0, .neg (.s 7)⟩,
    ⟨1, 2, .c 7⟩,
    ⟨1, 4, (.neg (.k 8 2)) ⊠ (.c 7)⟩,
    ⟨3, 3, .c 7⟩,
    ⟨3, 5, .s 7⟩,
    ⟨4, 3, .neg (.s 7)⟩,
    ⟨4, 5, .c 7⟩]

/-- The transforms `fr_LH_upperleg_X_fr_LH_hipassembly`. -/
def fr_LH_upperleg_X_fr_LH_hipassembly : Trans := ⟨fr_LH_upperleg, fr_LH_hipassembly, hom_fr_LH_upperleg_X_fr_LH_hipassembly, motion_fr_LH_upperleg_X_fr_LH_hipassembly, force_fr_LH_upperleg_X_fr_LH_hipassembly⟩

/-- `HomogeneousTransforms::Type_fr_LH_hipassembly_X_fr_LH_upperleg` (transforms.impl.h:10465-10479, 10481-10493). -/
def hom_fr_LH_hipassembly_X_fr_LH_upperleg : Gen where
  rows := 4
  cols := 4
  ctor := [⟨0, 2, .k 0 0⟩,
    ⟨0, 3, .k 8 2⟩,
    ⟨1, 0, .k 0 0⟩,
    ⟨1, 1, .k 0 0⟩,
    ⟨1, 2, .neg (.k 1 0)⟩,
    ⟨1, 3, .k 0 0⟩,
    ⟨2, 2, .k 0 0⟩,
    ⟨2, 3, .k 0 0⟩,
    ⟨3, 0, .k 0 0⟩,
    ⟨3, 1, .k 0 0⟩,
    ⟨3, 2, .k 0 0⟩,
    ⟨3, 3, .k 1 0⟩]
  upd := [⟨0, 0, .c 7⟩,
    ⟨0, 1, .neg (.s 7)⟩,
    ⟨2, 0, .s 7⟩,
    ⟨2, 1, .c 7⟩]

/-- `MotionTransforms::Type_fr_LH_hipassembly_X_fr_LH_upperleg` (transforms.impl.h:3891-3919, 3921-3939). -/
def motion_fr_LH_hipassembly_X_fr_LH_upperleg : Gen where
  rows := 6
  cols := 6
  ctor := [⟨0, 2, .k 0 0⟩,
    ⟨0, 3, .k 0 0⟩,
    ⟨0, 4, .k 0 0⟩,
    ⟨0, 5, .k 0 0⟩,
    ⟨1, 0, .k 0 0⟩,
    ⟨1, 1, .k 0 0⟩,
    ⟨1, 2, .neg (.k 1 0)⟩,
    ⟨1, 3, .k 0 0⟩,
    ⟨1, 4, .k 0 0⟩,
    ⟨1, 5, .k 0 0⟩,
    ⟨2, 2, .k 0 0⟩,
    ⟨2, 3, .k 0 0⟩,
    ⟨2, 4, .k 0 0⟩,
    ⟨2, 5, .k 0 0⟩,
    ⟨3, 0, .k 0 0⟩,
    ⟨3, 1, .k 0 0⟩,
    ⟨3, 2, .k 0 0⟩,
    ⟨3, 5, .k 0 0⟩,
    ⟨4, 2, .k 0 0⟩,
    ⟨4, 3, .k 0 0⟩,
    ⟨4, 4, .k 0 0⟩,
    ⟨4, 5, .neg (.k 1 0)⟩,
    ⟨5, 0, .k 0 0⟩,
    ⟨5, 1, .k 0 0⟩,
    ⟨5, 2, .neg (.k 8 2)⟩,
    ⟨5, 5, .k 0 0⟩]
  upd := [⟨0, 0, .c 7⟩,
    ⟨0, 1, .neg (.s 7)⟩,
    ⟨2, 0, .s 7⟩,
    ⟨2, 1, .c 7⟩,
    ⟨3, 3, .c 7⟩,
    ⟨3, 4, .neg (.s 7)⟩,
    ⟨4, 0, (.neg (.k 8 2)) ⊠ (.s 7)⟩,
    ⟨4, 1, (.neg (.k 8 2)) ⊠ (.c 7)⟩,
    ⟨5, 3, .s 7⟩,
    ⟨5, 4, .c 7⟩]

/-- `ForceTransforms::Type_fr_LH_hipassembly_X_fr_LH_upperleg` (transforms.impl.h:7868-7896, 7898-7916). -/
def force_fr_LH_hipassembly_X_fr_LH_upperleg : Gen where
  rows := 6
  cols := 6
  ctor := [⟨0, 2, .k 0 0⟩,
    ⟨0, 3, .k 0 0⟩,
    ⟨0, 4, .k 0 0⟩,
    ⟨0, 5, .k 0 0⟩,
    ⟨1, 0, .k 0 0⟩,
    ⟨1, 1, .k 0 0⟩,
    ⟨1, 2, .neg (.k 1 0)⟩,
    ⟨1, 5, .k 0 0⟩,
    ⟨2, 2, .k 0 0⟩,
    ⟨2, 3, .k 0 0⟩,
    ⟨2, 4, .k 0 0⟩,
    ⟨2, 5, .neg (.k 8 2)⟩,
    ⟨3, 0, .k 0 0⟩,
    ⟨3, 1, .k 0 0⟩,
    ⟨3, 2, .k 0 0⟩,
    ⟨3, 5, .k 0 0⟩,
    ⟨4, 0, .k 0 0⟩,
    ⟨4, 1, .k 0 0⟩,
    ⟨4, 2, .k 0 0⟩,
    ⟨4, 3, .k 0 0⟩,
    ⟨4, 4, .k 0 0⟩,
    ⟨4, 5, .neg (.k 1 0)⟩,
    ⟨5, 0, .k 0 0⟩,
    ⟨5, 1, .k 0 0⟩,
    ⟨5, 2, .k 0 0⟩,
    ⟨5, 5, .k 0 0⟩]
  upd := [⟨0, 0, .c 7⟩,
    ⟨0, 1, .neg (.s 7)⟩,
    ⟨1, 3, (.neg (.k 8 2)) ⊠ (.s 7)⟩,
    ⟨1, 4, (.neg (.k 8 2)) ⊠ (.c 7)⟩,
    ⟨2, 0, .s 7⟩,
    ⟨2, 1, .c 7⟩,
    ⟨3, 3, .c 7⟩,
    ⟨3, 4, .neg (.s 7)⟩,
    ⟨5, 3, .s 7⟩,
    ⟨5, 4, .c 7⟩]

/-- The transforms `fr_LH_hipassembly_X_fr_LH_upperleg`. -/
def fr_LH_hipassembly_X_fr_LH_upperleg : Trans := ⟨fr_LH_hipassembly, fr_LH_upperleg, hom_fr_LH_hipassembly_X_fr_LH_upperleg, motion_fr_LH_hipassembly_X_fr_LH_upperleg, force_fr_LH_hipassembly_X_fr_LH_upperleg⟩

/-- `HomogeneousTransforms::Type_fr_LH_lowerleg_X_fr_LH_upperleg` (transforms.impl.h:10495-10507, 10509-10523). -/
def hom_fr_LH_lowerleg_X_fr_LH_upperleg : Gen where
  rows := 4
  cols := 4
  ctor := [⟨0, 2, .k 0 0⟩,
    ⟨1, 2, .k 0 0⟩,
    ⟨2, 0, .k 0 0⟩,
    ⟨2, 1, .k 0 0⟩,
    ⟨2, 2, .k 1 0⟩,
    ⟨2, 3, .k 0 0⟩,
    ⟨3, 0, .k 0 0⟩,
    ⟨3, 1, .k 0 0⟩,
    ⟨3, 2, .k 0 0⟩,
    ⟨3, 3, .k 1 0⟩]
  upd := [⟨0, 0, .c 8⟩,
    ⟨0, 1, .s 8⟩,
    ⟨0, 3, (.neg (.k 35 2)) ⊠ (.c 8)⟩,
    ⟨1, 0, .neg (.s 8)⟩,
    ⟨1, 1, .c 8⟩,
    ⟨1, 3, (.k 35 2) ⊠ (.s 8)⟩]

/-- `MotionTransforms::Type_fr_LH_lowerleg_X_fr_LH_upperleg` (transforms.impl.h:3941-3969, 3971-3989). -/
def motion_fr_LH_lowerleg_X_fr_LH_upperleg : Gen where
  rows := 6
  cols := 6
  ctor := [⟨0, 2, .k 0 0⟩,
    ⟨0, 3, .k 0 0⟩,
    ⟨0, 4, .k 0 0⟩,
    ⟨0, 5, .k 0 0⟩,
    ⟨1, 2, .k 0 0⟩,
    ⟨1, 3, .k 0 0⟩,
    ⟨1, 4, .k 0 0⟩,
    ⟨1, 5, .k 0 0⟩,
    ⟨2, 0, .k 0 0⟩,
    ⟨2, 1, .k 0 0⟩,
    ⟨2, 2, .k 1 0⟩,
    ⟨2, 3, .k 0 0⟩,
    ⟨2, 4, .k 0 0⟩,
    ⟨2, 5, .k 0 0⟩,
    ⟨3, 0, .k 0 0⟩,
    ⟨3, 1, .k 0 0⟩,
    ⟨3, 5, .k 0 0⟩,
    ⟨4, 0, .k 0 0⟩,
    ⟨4, 1, .k 0 0⟩,
    ⟨4, 5, .k 0 0⟩,
    ⟨5, 0, .k 0 0⟩,
    ⟨5, 1, .neg (.k 35 2)⟩,
    ⟨5, 2, .k 0 0⟩,
    ⟨5, 3, .k 0 0⟩,
    ⟨5, 4, .k 0 0⟩,
    ⟨5, 5, .k 1 0⟩]
  upd := [⟨0, 0, .c 8⟩,
    ⟨0, 1, .s 8⟩,
    ⟨1, 0, .neg (.s 8)⟩,
    ⟨1, 1, .c 8⟩,
    ⟨3, 2, (.k 35 2) ⊠ (.s 8)⟩,
    ⟨3, 3, .c 8⟩,
    ⟨3, 4, .s 8⟩,
    ⟨4, 2, (.k 35 2) ⊠ (.c 8)⟩,
    ⟨4, 3, .neg (.s 8)⟩,
    ⟨4, 4, .c 8⟩]

/-- `ForceTransforms::Type_fr_LH_lowerleg_X_fr_LH_upperleg` (transforms.impl.h:7918-7946, 7948-7966). -/
def force_fr_LH_lowerleg_X_fr_LH_upperleg : Gen where
  rows := 6
  cols := 6
  ctor := [⟨0, 2, .k 0 0⟩,
    ⟨0, 3, .k 0 0⟩,
    ⟨0, 4, .k 0 0⟩,
    ⟨1, 2, .k 0 0⟩,
    ⟨1, 3, .k 0 0⟩,
    ⟨1, 4, .k 0 0⟩,
    ⟨2, 0, .k 0 0⟩,
    ⟨2, 1, .k 0 0⟩,
    ⟨2, 2, .k 1 0⟩,
    ⟨2, 3, .k 0 0⟩,
    ⟨2, 4, .neg (.k 35 2)⟩,
    ⟨2, 5, .k 0 0⟩,
    ⟨3, 0, .k 0 0⟩,
    ⟨3, 1, .k 0 0⟩,
    ⟨3, 2, .k 0 0⟩,
    ⟨3, 5, .k 0 0⟩,
    ⟨4, 0, .k 0 0⟩,
    ⟨4, 1, .k 0 0⟩,
    ⟨4, 2, .k 0 0⟩,
    ⟨4, 5, .k 0 0⟩,
    ⟨5, 0, .k 0 0⟩,
    ⟨5, 1, .k 0 0⟩,
    ⟨5, 2, .k 0 0⟩,
    ⟨5, 3, .k 0 0⟩,
    ⟨5, 4, .k 0 0⟩,
    ⟨5, 5, .k 1 0⟩]
  upd := [⟨0, 0, .c 8⟩,
    ⟨0, 1, .s 8⟩,
    ⟨0, 5, (.k 35 2) ⊠ (.s 8)⟩,
    ⟨1, 0, .neg (.s 8)⟩,
    ⟨1, 1, .c 8⟩,
    ⟨1, 5, (.k 35 2) ⊠ (.c 8)⟩,
    ⟨3, 3, .c 8⟩,
    ⟨3, 4, .s 8⟩,
    ⟨4, 3, .neg (.s 8)⟩,
    ⟨4, 4, .c 8⟩]

/-- The transforms `fr_LH_lowerleg_X_fr_LH_upperleg`. -/
def fr_LH_lowerleg_X_fr_LH_upperleg : Trans := ⟨fr_LH_lowerleg, fr_LH_upperleg, hom_fr_LH_lowerleg_X_fr_LH_upperleg, motion_fr_LH_lowerleg_X_fr_LH_upperleg, force_fr_LH_lowerleg_X_fr_LH_upperleg⟩

/-- `HomogeneousTransforms::Type_fr_LH_upperleg_X_fr_LH_lowerleg` (transforms.impl.h:10525-10539, 10541-10553). -/
def hom_fr_LH_upperleg_X_fr_LH_lowerleg : Gen where
  rows := 4
  cols := 4
  ctor := [⟨0, 2, .k 0 0⟩,
    ⟨0, 3, .k 35 2⟩,
    ⟨1, 2, .k 0 0⟩,
    ⟨1, 3, .k 0 0⟩,
    ⟨2, 0, .k 0 0⟩,
    ⟨2, 1, .k 0 0⟩,
    ⟨2, 2, .k 1 0⟩,
    ⟨2, 3, .k 0 0⟩,
    ⟨3, 0, .k 0 0⟩,
    ⟨3, 1, .k 0 0⟩,
    ⟨3, 2, .k 0 0⟩,
    ⟨3, 3, .k 1 0⟩]
  upd := [⟨0, 0, .c 8⟩,
    ⟨0, 1, .neg (.s 8)⟩,
    ⟨1, 0, .s 8⟩,
    ⟨1, 1, .c 8⟩]

/-- `MotionTransforms::Type_fr_LH_upperleg_X_fr_LH_lowerleg` (transforms.impl.h:3991-4019, 4021-4039). -/
def motion_fr_LH_upperleg_X_fr_LH_lowerleg : Gen where
  rows := 6
  cols := 6
  ctor := [⟨0, 2, .k 0 0⟩,
    ⟨0, 3, .k 0 0⟩,
    ⟨0, 4, .k 0 0⟩,
    ⟨0, 5, .k 0 0⟩,
    ⟨1, 2, .k 0 0⟩,
    ⟨1, 3, .k 0 0⟩,
    ⟨1, 4, .k 0 0⟩,
    ⟨1, 5, .k 0 0⟩,
    ⟨2, 0, .k 0 0⟩,
    ⟨2, 1, .k 0 0⟩,
    ⟨2, 2, .k 1 0⟩,
    ⟨2, 3, .k 0 0⟩,
    ⟨2, 4, .k 0 0⟩,
    ⟨2, 5, .k 0 0⟩,
    ⟨3, 0, .k 0 0⟩,
    ⟨3, 1, .k 0 0⟩,
    ⟨3, 2, .k 0 0⟩,
    ⟨3, 5, .k 0 0⟩,
    ⟨4, 0, .k 0 0⟩,
    ⟨4, 1, .k 0 0⟩,
    ⟨4, 2, .neg (.k 35 2)⟩,
    ⟨4, 5, .k 0 0⟩,
    ⟨5, 2, .k 0 0⟩,
    ⟨5, 3, .k 0 0⟩,
    ⟨5, 4, .k 0 0⟩,
    ⟨5, 5, .k 1 0⟩]
  upd := [⟨0, 0, .c 8⟩,
    ⟨0, 1, .neg (.s 8)⟩,
    ⟨1, 0, .s 8⟩,
    ⟨1, 1, .c 8⟩,
    ⟨3, 3, .c 8⟩,
    ⟨3, 4, .neg (.s 8)⟩,
    ⟨4, 3, .s 8⟩,
    ⟨4, 4, .c 8⟩,
    ⟨5, 0, (.k 35 2) ⊠ (.s 8)⟩,
    ⟨5, 1, (.k 35 2) ⊠ (.c 8)⟩]

/-- `ForceTransforms::Type_fr_LH_upperleg_X_fr_LH_lowerleg` (transforms.impl.h:7968-7996, 7998-8016). -/
def force_fr_LH_upperleg_X_fr_LH_lowerleg : Gen where
  rows := 6
  cols := 6
  ctor := [⟨0, 2, .k 0 0⟩,
    ⟨0, 3, .k 0 0⟩,
    ⟨0, 4, .k 0 0⟩,
    ⟨0, 5, .k 0 0⟩,
    ⟨1, 2, .k 0 0⟩,
    ⟨1, 3, .k 0 0⟩,
    ⟨1, 4, .k 0 0⟩,
    ⟨1, 5, .neg (.k 35 2)⟩,
    ⟨2, 0, .k 0 0⟩,
    ⟨2, 1, .k 0 0⟩,
    ⟨2, 2, .k 1 0⟩,
    ⟨2, 5, .k 0 0⟩,
    ⟨3, 0, .k 0 0⟩,
    ⟨3, 1, .k 0 0⟩,
    ⟨3, 2, .k 0 0⟩,
    ⟨3, 5, .k 0 0⟩,
    ⟨4, 0, .k 0 0⟩,
    ⟨4, 1, .k 0 0⟩,
    ⟨4, 2, .k 0 0⟩,
    ⟨4, 5, .k 0 0⟩,
    ⟨5, 0, .k 0 0⟩,
    ⟨5, 1, .k 0 0⟩,
    ⟨5, 2, .k 0 0⟩,
    ⟨5, 3, .k 0 0⟩,
    ⟨5, 4, .k 0 0⟩,
    ⟨5, 5, .k 1 0⟩]
  upd := [⟨0, 0, .c 8⟩,
    ⟨0, 1, .neg (.s 8)⟩,
    ⟨1, 0, .s 8⟩,
    ⟨1, 1, .c 8⟩,
    ⟨2, 3, (.k 35 2) ⊠ (.s 8)⟩,
    ⟨2, 4, (.k 35 2) ⊠ (.c 8)⟩,
    ⟨3, 3, .c 8⟩,
    ⟨3, 4, .neg (.s 8)⟩,
    ⟨4, 3, .s 8⟩,
    ⟨4, 4, .c 8⟩]

/-- The transforms `fr_LH_upperleg_X_fr_LH_lowerleg`. -/
def fr_LH_upperleg_X_fr_LH_lowerleg : Trans := ⟨fr_LH_upperleg, fr_LH_lowerleg, hom_fr_LH_upperleg_X_fr_LH_lowerleg, motion_fr_LH_upperleg_X_fr_LH_lowerleg, force_fr_LH_upperleg_X_fr_LH_lowerleg⟩

/-- `HomogeneousTransforms::Type_fr_RH_upperleg_X_fr_RH_hipassembly` (transforms.impl.h:10555-10567, 10569-10583). -/
def hom_fr_RH_upperleg_X_fr_RH_hipassembly : Gen where
  rows := 4
  cols := 4
  ctor := [⟨0, 1, .k 0 0⟩,
    ⟨1, 1, .k 0 0⟩,
    ⟨2, 0, .k 0 0⟩,
    ⟨2, 1, .k 1 0⟩,
    ⟨2, 2, .k 0 0⟩,
    ⟨2, 3, .k 0 0⟩,
    ⟨3, 0, .k 0 0⟩,
    ⟨3, 1, .k 0 0⟩,
    ⟨3, 2, .k 0 0⟩,
    ⟨3, 3, .k 1 0⟩]
  upd := [⟨0, 0, .c 10⟩,
    ⟨0, 2, .neg (.s 10)⟩,
    ⟨0, 3, (.neg (.k 8 2)) ⊠ (.c 10)⟩,
    ⟨1, 0, .neg (.s 10)⟩,
    ⟨1, 2, .neg (.c 10)⟩,
    ⟨1, 3, (.k 8 2) ⊠ (.s 10)⟩]

/-- `MotionTransforms::Type_fr_RH_upperleg_X_fr_RH_hipassembly` (transforms.impl.h:4041-4069, 4071-4089). -/
def motion_fr_RH_upperleg_X_fr_RH_hipassembly : Gen where
  rows := 6
  cols := 6
  ctor := [⟨0, 1, .k 0 0⟩,
    ⟨0, 3, .k 0 0⟩,
    ⟨0, 4, .k 0 0⟩,
    ⟨0, 5, .k 0 0⟩,
    ⟨1, 1, .k 0 0⟩,
    ⟨1, 3, .k 0 0⟩,
    ⟨1, 4, .k 0 0⟩,
    ⟨1, 5, .k 0 0⟩,
    ⟨2, 0, .k 0 0⟩,
    ⟨2, 1, .k 1 0⟩,
    ⟨2, 2, .k 0 0⟩,
    ⟨2, 3, .k 0 0⟩,
    ⟨2, 4, .k 0 0⟩,
    ⟨2, 5, .k 0 0⟩,
    ⟨3, 0, .k 0 0⟩,
    ⟨3, 2, .k 0 0⟩,
    ⟨3, 4, .k 0 0⟩,
    ⟨4, 0, .k 0 0⟩,
    ⟨4, 2, .k 0 0⟩,
    ⟨4, 4, .k 0 0⟩,
    ⟨5, 0, .k 0 0⟩,
    ⟨5, 1, .k 0 0⟩,
    ⟨5, 2, .k 8 2⟩,
    ⟨5, 3, .k 0 0⟩,
    ⟨5, 4, .k 1 0⟩,
    ⟨5, 5, .k 0 0⟩]
  upd := [⟨0, 0, .c 10⟩,
    ⟨0, 2, .neg (.s 10)⟩,
    ⟨1, 0, .neg (.s 10)⟩,
    ⟨1, 2, .neg (.c 10)⟩,
    ⟨3, 1, (.k 8 2) ⊠ (.s 10)⟩,
    ⟨3, 3, .c 10⟩,
    ⟨3, 5, .neg (.s 10)⟩,
    ⟨4, 1, (.k 8 2) ⊠ (.c 10)⟩,
    ⟨4, 3, .neg (.s 10)⟩,
    ⟨4, 5, .neg (.c 10)⟩]

/-- `ForceTransforms::Type_fr_RH_upperleg_X_fr_RH_hipassembly` (transforms.impl.h:8018-8046, 8048-8066). -/
def force_fr_RH_upperleg_X_fr_RH_hipassembly : Gen where
  rows := 6
  cols := 6
  ctor := [⟨0, 1, .k 0 0⟩,
    ⟨0, 3, .k 0 0⟩,
    ⟨0, 5, .k 0 0⟩,
    ⟨1, 1, .k 0 0⟩,
    ⟨1, 3, .k 0 0⟩,
    ⟨1, 5, .k 0 0⟩,
    ⟨2, 0, .k 0 0⟩,
    ⟨2, 1, .k 1 0⟩,
    ⟨2, 2, .k 0 0⟩,
    ⟨2, 3, .k 0 0⟩,
    ⟨2, 4, .k 0 0⟩,
    ⟨2, 5, .k 8 2⟩,
    ⟨3, 0, .k 0 0⟩,
    ⟨3, 1, .k 0 0⟩,
    ⟨3, 2, .k 0 0⟩,
    ⟨3, 4, .k 0 0⟩,
    ⟨4, 0, .k 0 0⟩,
    ⟨4, 1, .k 0 0⟩,
    ⟨4, 2, .k 0 0⟩,
    ⟨4, 4, .k 0 0⟩,
    ⟨5, 0, .k 0 0⟩,
    ⟨5, 1, .k 0 0⟩,
    ⟨5, 2, .k 0 0⟩,
    ⟨5, 3, .k 0 0⟩,
    ⟨5, 4, .k 1 0⟩,
    ⟨5, 5, .k 0 0⟩]
  upd := [⟨0, 0, .c 10⟩,
    ⟨0, 2, .neg (.s 10)⟩,
    ⟨0, 4, (.k 8 2) ⊠ (.s 10)⟩,
    ⟨1, 0, .neg (.s 10)⟩,
    ⟨1, 2, .neg (.c 10)⟩,
    ⟨1, 4, (.k 8 2) ⊠ (.c 10)⟩,
    ⟨3, 3, .c 10⟩,
    ⟨3, 5, .neg (.s 10)⟩,
    ⟨4, 3, .neg (.s 10)⟩,
    ⟨4, 5, .neg (.c 10)⟩]

/-- The transforms `fr_RH_upperleg_X_fr_RH_hipassembly`. -/
def fr_RH_upperleg_X_fr_RH_hipassembly : Trans := ⟨fr_RH_upperleg, fr_RH_hipassembly, hom_fr_RH_upperleg_X_fr_RH_hipassembly, motion_fr_RH_upperleg_X_fr_RH_hipassembly, force_fr_RH_upperleg_X_fr_RH_hipassembly⟩

/-- `HomogeneousTransforms::Type_fr_RH_hipassembly_X_fr_RH_upperleg` (transforms.impl.h:10585-10599, 10601-10613). -/
def hom_fr_RH_hipassembly_X_fr_RH_upperleg : Gen where
  rows := 4
  cols := 4
  ctor := [⟨0, 2, .k 0 0⟩,
    ⟨0, 3, .k 8 2⟩,
    ⟨1, 0, .k 0 0⟩,
    ⟨1, 1, .k 0 0⟩,
    ⟨1, 2, .k 1 0⟩,
    ⟨1, 3, .k 0 0⟩,
    ⟨2, 2, .k 0 0⟩,
    ⟨2, 3, .k 0 0⟩,
    ⟨3, 0, .k 0 0⟩,
    ⟨3, 1, .k 0 0⟩,
    ⟨3, 2, .k 0 0⟩,
    ⟨3, 3, .k 1 0⟩]
  upd := [⟨0, 0, .c 10⟩,
    ⟨0, 1, .neg (.s 10)⟩,
    ⟨2, 0, .neg (.s 10)⟩,
    ⟨2, 1, .neg (.c 10)⟩]

/-- `MotionTransforms::Type_fr_RH_hipassembly_X_fr_RH_upperleg` (transforms.impl.h:4091-4119, 4121-4139). -/
def motion_fr_RH_hipassembly_X_fr_RH_upperleg : Gen where
  rows := 6
  cols := 6
  ctor := [⟨0, 2, .k 0 0⟩,
    ⟨0, 3, .k 0 0⟩,
    ⟨0, 4, .k 0 0⟩,
    ⟨0, 5, .k 0 0⟩,
    ⟨1, 0, .k 0 0⟩,
    ⟨1, 1, .k 0 0⟩,
    ⟨1, 2, .k 1 0⟩,
    ⟨1, 3, .k 0 0⟩,
    ⟨1, 4, .k 0 0⟩,
    ⟨1, 5, .k 0 0⟩,
    ⟨2, 2, .k 0 0⟩,
    ⟨2, 3, .k 0 0⟩,
    ⟨2, 4, .k 0 0⟩,
    ⟨2, 5, .k 0 0⟩,
    ⟨3, 0, .k 0 0⟩,
    ⟨3, 1, .k 0 0⟩,
    ⟨3, 2, .k 0 0⟩,
    ⟨3, 5, .k 0 0⟩,
    ⟨4, 2, .k 0 0⟩,
    ⟨4, 3, .k 0 0⟩,
    ⟨4, 4, .k 0 0⟩,
    ⟨4, 5, .k 1 0⟩,
    ⟨5, 0, .k 0 0⟩,
    ⟨5, 1, .k 0 0⟩,
    ⟨5, 2, .k 8 2⟩,
    ⟨5, 5, .k 0 0⟩]
  upd := [⟨0, 0, .c 10⟩,
    ⟨0, 1, .neg (.s 10)⟩,
    ⟨2, 0, .neg (.s 10)⟩,
    ⟨2, 1, .neg (.c 10)⟩,
    ⟨3, 3, .c 10⟩,
    ⟨3, 4, .neg (.s 10)⟩,
    ⟨4, 0, (.k 8 2) ⊠ (.s 10)⟩,
    ⟨4, 1, (.k 8 2) ⊠ (.c 10)⟩,
    ⟨5, 3, .neg (.s 10)⟩,
    ⟨5, 4, .neg (.c 10)⟩]

/-- `ForceTransforms::Type_fr_RH_hipassembly_X_fr_RH_upperleg` (transforms.impl.h:8068-8096, 8098-8116). -/
def force_fr_RH_hipassembly_X_fr_RH_upperleg : Gen where
  rows := 6
  cols := 6
  ctor := [⟨0, 2, .k 0 0⟩,
    ⟨0, 3, .k 0 0⟩,
    ⟨0, 4, .k 0 0⟩,
    ⟨0, 5, .k 0 0⟩,
    ⟨1, 0, .k 0 0⟩,
    ⟨1, 1, .k 0 0⟩,
    ⟨1, 2, .k 1 0⟩,
    ⟨1, 5, .k 0 0⟩,
    ⟨2, 2, .k 0 0⟩,
    ⟨2, 3, .k 0 0⟩,
    ⟨2, 4, .k 0 0⟩,
    ⟨2, 5, .k 8 2⟩,
    ⟨3, 0, .k 0 0⟩,
    ⟨3, 1, .k 0 0⟩,
    ⟨3, 2, .k 0 0⟩,
    ⟨3, 5, .k 0 0⟩,
    ⟨4, 0, .k 0 0⟩,
    ⟨4, 1, .k 0 0⟩,
    ⟨4, 2, .k 0 0⟩,
    ⟨4, 3, .k 0 0⟩,
    ⟨4, 4, .k 0 0⟩,
    ⟨4, 5, .k 1 0⟩,
    ⟨5, 0, .k 0 0⟩,
    ⟨5, 1, .k 0 0⟩,
    ⟨5, 2, .k 0 0⟩,
    ⟨5, 5, .k 0 0⟩]
  upd := [⟨0, 0, .c 10⟩,
    ⟨0, 1, .neg (.s 10)⟩,
    ⟨1, 3, (.k 8 2) ⊠ (.s 10)⟩,
    ⟨1, 4, (.k 8 2) ⊠ (.c 10)⟩,
    ⟨2, 0, .neg (.s 10)⟩,
    ⟨2, 1, .neg (.c 10)⟩,
    ⟨3, 3, .c 10⟩,
    ⟨3, 4, .neg (.s 10)⟩,
    ⟨5, 3, .neg (.s 10)⟩,
    ⟨5, 4, .neg (.c 10)⟩]

/-- The transforms `fr_RH_hipassembly_X_fr_RH_upperleg`. -/
def fr_RH_hipassembly_X_fr_RH_upperleg : Trans := ⟨fr_RH_hipassembly, fr_RH_upperleg, hom_fr_RH_hipassembly_X_fr_RH_upperleg, motion_fr_RH_hipassembly_X_fr_RH_upperleg, force_fr_RH_hipassembly_X_fr_RH_upperleg⟩

/-- `HomogeneousTransforms::Type_fr_RH_lowerleg_X_fr_RH_upperleg` (transforms.impl.h:10615-10627, 10629-10643). -/
def hom_fr_RH_lowerleg_X_fr_RH_upperleg : Gen where
  rows := 4
  cols := 4
  ctor := [⟨0, 2, .k 0 0⟩,
    ⟨1, 2, .k 0 0⟩,
    ⟨2, 0, .k 0 0⟩,
    ⟨2, 1, .k 0 0⟩,
    ⟨2, 2, .k 1 0⟩,
    ⟨2, 3, .k 0 0⟩,
    ⟨3, 0, .k 0 0⟩,
    ⟨3, 1, .k 0 0⟩,
    ⟨3, 2, .k 0 0⟩,
    ⟨3, 3, .k 1 0⟩]
  upd := [⟨0, 0, .c 11⟩,
    ⟨0, 1, .s 11⟩,
    ⟨0, 3, (.neg (.k 35 2)) ⊠ (.c 11)⟩,
    ⟨1, 0, .neg (.s 11)⟩,
    ⟨1, 1, .c 11⟩,
    ⟨1, 3, (.k 35 2) ⊠ (.s 11)⟩]

/-- `MotionTransforms::Type_fr_RH_lowerleg_X_fr_RH_upperleg` (transforms.impl.h:4141-4169, 4171-4189). -/
def motion_fr_RH_lowerleg_X_fr_RH_upperleg : Gen where
  rows := 6
  cols := 6
  ctor := [⟨0, 2, .k 0 0⟩,
    ⟨0, 3, .k 0 0⟩,
    ⟨0, 4, .k 0 0⟩,
    ⟨0, 5, .k 0 0⟩,
    ⟨1, 2, .k 0 0⟩,
    ⟨1, 3, .k 0 0⟩,
    ⟨1, 4, .k 0 0⟩,
    ⟨1, 5, .k 0 0⟩,
    ⟨2, 0, .k 0 0⟩,
    ⟨2, 1, .k 0 0⟩,
    ⟨2, 2, .k 1 0⟩,
    ⟨2, 3, .k 0 0⟩,
    ⟨2, 4, .k 0 0⟩,
    ⟨2, 5, .k 0 0⟩,
    ⟨3, 0, .k 0 0⟩,
    ⟨3, 1, .k 0 0⟩,
    ⟨3, 5, .k 0 0⟩,
    ⟨4, 0, .k 0 0⟩,
    ⟨4, 1, .k 0 0⟩,
    ⟨4, 5, .k 0 0⟩,
    ⟨5, 0, .k 0 0⟩,
    ⟨5, 1, .neg (.k 35 2)⟩,
    ⟨5, 2, .k 0 0⟩,
    ⟨5, 3, .k 0 0⟩,
    ⟨5, 4, .k 0 0⟩,
    ⟨5, 5, .k 1 0⟩]
  upd := [⟨0, 0, .c 11⟩,
    ⟨0, 1, .s 11⟩,
    ⟨1, 0, .neg (.s 11)⟩,
    ⟨1, 1, .c 11⟩,
    ⟨3, 2, (.k 35 2) ⊠ (.s 11)⟩,
    ⟨3, 3, .c 11⟩,
    ⟨3, 4, .s 11⟩,
    ⟨4, 2, (.k 35 2) ⊠ (.c 11)⟩,
    ⟨4, 3, .neg (.s 11)⟩,
    ⟨4, 4, .c 11⟩]

/-- `ForceTransforms::Type_fr_RH_lowerleg_X_fr_RH_upperleg` (transforms.impl.h:8118-8146, 8148-8166). -/
def force_fr_RH_lowerleg_X_fr_RH_upperleg : Gen where
  rows := 6
  cols := 6
  ctor := [⟨0, 2, .k 0 0⟩,
    ⟨0, 3, .k 0 0⟩,
    ⟨0, 4, .k 0 0⟩,
    ⟨1, 2, .k 0 0⟩,
    ⟨1, 3, .k 0 0⟩,
    ⟨1, 4, .k 0 0⟩,
    ⟨2, 0, .k 0 0⟩,
    ⟨2, 1, .k 0 0⟩,
    ⟨2, 2, .k 1 0⟩,
    ⟨2, 3, .k 0 0⟩,
    ⟨2, 4, .neg (.k 35 2)⟩,
    ⟨2, 5, .k 0 0⟩,
    ⟨3, 0, .k 0 0⟩,
    ⟨3, 1, .k 0 0⟩,
    ⟨3, 2, .k 0 0⟩,
    ⟨3, 5, .k 0 0⟩,
    ⟨4, 0, .k 0 0⟩,
    ⟨4, 1, .k 0 0⟩,
    ⟨4, 2, .k 0 0⟩,
    ⟨4, 5, .k 0 0⟩,
    ⟨5, 0, .k 0 0⟩,
    ⟨5, 1, .k 0 0⟩,
    ⟨5, 2, .k 0 0⟩,
    ⟨5, 3, .k 0 0⟩,
    ⟨5, 4, .k 0 0⟩,
    ⟨5, 5, .k 1 0⟩]
  upd := [⟨0, 0, .c 11⟩,
    ⟨0, 1, .s 11⟩,
    ⟨0, 5, (.k 35 2) ⊠ (.s 11)⟩,
    ⟨1, 0, .neg (.s 11)⟩,
    ⟨1, 1, .c 11⟩,
    ⟨1, 5, (.k 35 2) ⊠ (.c 11)⟩,
    ⟨3, 3, .c 11⟩,
    ⟨3, 4, .s 11⟩,
    ⟨4, 3, .neg (.s 11)⟩,
    ⟨4, 4, .c 11⟩]

/-- The transforms `fr_RH_lowerleg_X_fr_RH_upperleg`. -/
def fr_RH_lowerleg_X_fr_RH_upperleg : Trans := ⟨fr_RH_lowerleg, fr_RH_upperleg, hom_fr_RH_lowerleg_X_fr_RH_upperleg, motion_fr_RH_lowerleg_X_fr_RH_upperleg, force_fr_RH_lowerleg_X_fr_RH_upperleg⟩

/-- `HomogeneousTransforms::Type_fr_RH_upperleg_X_fr_RH_lowerleg` (transforms.impl.h:10645-10659, 10661-10673). -/
def hom_fr_RH_upperleg_X_fr_RH_lowerleg : Gen where
  rows := 4
  cols := 4
  ctor := [⟨0, 2, .k 0 0⟩,
    ⟨0, 3, .k 35 2⟩,
    ⟨1, 2, .k 0 0⟩,
    ⟨1, 3, .k 0 0⟩,
    ⟨2, 0, .k 0 0⟩,
    ⟨2, 1, .k 0 0⟩,
    ⟨2, 2, .k 1 0⟩,
    ⟨2, 3, .k 0 0⟩,
    ⟨3, 0, .k 0 0⟩,
    ⟨3, 1, .k 0 0⟩,
    ⟨3, 2, .k 0 0⟩,
    ⟨3, 3, .k 1 0⟩]
  upd := [⟨0, 0, .c 11⟩,
    ⟨0, 1, .neg (.s 11)⟩,
    ⟨1, 0, .s 11⟩,
    ⟨1, 1, .c 11⟩]

/-- `MotionTransforms::Type_fr_RH_upperleg_X_fr_RH_lowerleg` (transforms.impl.h:4191-4219, 4221-4239). -/
def motion_fr_RH_upperleg_X_fr_RH_lowerleg : Gen where
  rows := 6
  cols := 6
  ctor := [⟨0, 2, .k 0 0⟩,
    ⟨0, 3, .k 0 0⟩,
    ⟨0, 4, .k 0 0⟩,
    ⟨0, 5, .k 0 0⟩,
    ⟨1, 2, .k 0 0⟩,
    ⟨1, 3, .k 0 0⟩,
    ⟨1, 4, .k 0 0⟩,
    ⟨1, 5, .k 0 0⟩,
    ⟨2, 0, .k 0 0⟩,
    ⟨2, 1, .k 0 0⟩,
    ⟨2, 2, .k 1 0⟩,
    ⟨2, 3, .k 0 0⟩,
    ⟨2, 4, .k 0 0⟩,
    ⟨2, 5, .k 0 0⟩,
    ⟨3, 0, .k 0 0⟩,
    ⟨3, 1, .k 0 0⟩,
    ⟨3, 2, .k 0 0⟩,
    ⟨3, 5, .k 0 0⟩,
    ⟨4, 0, .k 0 0⟩,
    ⟨4, 1, .k 0 0⟩,
    ⟨4, 2, .neg (.k 35 2)⟩,
    ⟨4, 5, .k 0 0⟩,
    ⟨5, 2, .k 0 0⟩,
    ⟨5, 3, .k 0 0⟩,
    ⟨5, 4, .k 0 0⟩,
    ⟨5, 5, .k 1 0⟩]
  upd := [⟨0, 0, .c 11⟩,
    ⟨0, 1, .neg (.s 11)⟩,
    ⟨1, 0, .s 11⟩,
    ⟨1, 1, .c 11⟩,
    ⟨3, 3, .c 11⟩,
    ⟨3, 4, .neg (.s 11)⟩,
    ⟨4, 3, .s 11⟩,
    ⟨4, 4, .c 11⟩,
    ⟨5, 0, (.k 35 2) ⊠ (.s 11)⟩,
    ⟨5, 1, (.k 35 2) ⊠ (.c 11)⟩]

/-- `ForceTransforms::Type_fr_RH_upperleg_X_fr_RH_lowerleg` (transforms.impl.h:8168-8196, 8198-8216). -/
def force_fr_RH_upperleg_X_fr_RH_lowerleg : Gen where
  rows := 6
  cols := 6
  ctor := [⟨0, 2, .k 0 0⟩,
    ⟨0, 3, .k 0 0⟩,
    ⟨0, 4, .k 0 0⟩,
    ⟨0, 5, .k 0 0⟩,
    ⟨1, 2, .k 0 0⟩,
    ⟨1, 3, .k 0 0⟩,
    ⟨1, 4, .k 0 0⟩,
    ⟨1, 5, .neg (.k 35 2)⟩,
    ⟨2, 0, .k 0 0⟩,
    ⟨2, 1, .k 0 0⟩,
    ⟨2, 2, .k 1 0⟩,
    ⟨2, 5, .k 0 0⟩,
    ⟨3, 0, .k 0 0⟩,
    ⟨3, 1, .k 0 0⟩,
    ⟨3, 2, .k 0 0⟩,
    ⟨3, 5, .k 0 0⟩,
    ⟨4, 0, .k 0 0⟩,
    ⟨4, 1, .k 0 0⟩,
    ⟨4, 2, .k 0 0⟩,
    ⟨4, 5, .k 0 0⟩,
    ⟨5, 0, .k 0 0⟩,
    ⟨5, 1, .k 0 0⟩,
    ⟨5, 2, .k 0 0⟩,
    ⟨5, 3, .k 0 0⟩,
    ⟨5, 4, .k 0 0⟩,
    ⟨5, 5, .k 1 0⟩]
  upd := [⟨0, 0, .c 11⟩,
    ⟨0, 1, .neg (.s 11)⟩,
    ⟨1, 0, .s 11⟩,
    ⟨1, 1, .c 11⟩,
    ⟨2, 3, (.k 35 2) ⊠ (.s 11)⟩,
    ⟨2, 4, (.k 35 2) ⊠ (.c 11)⟩,
    ⟨3, 3, .c 11⟩,
    ⟨3, 4, .neg (.s 11)⟩,
    ⟨4, 3, .s 11⟩,
    ⟨4, 4, .c 11⟩]

/-- The transforms `fr_RH_upperleg_X_fr_RH_lowerleg`. -/
def fr_RH_upperleg_X_fr_RH_lowerleg : Trans := ⟨fr_RH_upperleg, fr_RH_lowerleg, hom_fr_RH_upperleg_X_fr_RH_lowerleg, motion_fr_RH_upperleg_X_fr_RH_lowerleg, force_fr_RH_upperleg_X_fr_RH_lowerleg⟩

/-- All pairs of frames for which transforms are generated. -/
def transforms : List Trans :=
  [fr_trunk_X_fr_LF_hipassembly,
    fr_trunk_X_fr_RF_hipassembly,
    fr_trunk_X_fr_LH_hipassembly,
    fr_trunk_X_fr_RH_hipassembly,
    fr_trunk_X_fr_LF_upperleg,
    fr_trunk_X_fr_RF_upperleg,
    fr_trunk_X_fr_LH_upperleg,
    fr_trunk_X_fr_RH_upperleg,
    fr_trunk_X_fr_LF_lowerleg,
    fr_trunk_X_fr_RF_lowerleg,
    fr_trunk_X_fr_LH_lowerleg,
    fr_trunk_X_fr_RH_lowerleg,
    fr_LF_hipassembly_X_fr_trunk,
    fr_RF_hipassembly_X_fr_trunk,
    fr_LH_hipassembly_X_fr_trunk,
    fr_RH_hipassembly_X_fr_trunk,
    fr_LF_upperleg_X_fr_trunk,
    fr_RF_upperleg_X_fr_trunk,
    fr_LH_upperleg_X_fr_trunk,
    fr_RH_upperleg_X_fr_trunk,
    fr_LF_lowerleg_X_fr_trunk,
    fr_RF_lowerleg_X_fr_trunk,
    fr_LH_lowerleg_X_fr_trunk,
    fr_RH_lowerleg_X_fr_trunk,
    fr_trunk_X_LF_hipassemblyCOM,
    fr_trunk_X_RF_hipassemblyCOM,
    fr_trunk_X_LH_hipassemblyCOM,
    fr_trunk_X_RH_hipassemblyCOM,
    fr_trunk_X_LF_upperlegCOM,
    fr_trunk_X_RF_upperlegCOM,
    fr_trunk_X_LH_upperlegCOM,
    fr_trunk_X_RH_upperlegCOM,
    fr_trunk_X_LF_lowerlegCOM,
    fr_trunk_X_RF_lowerlegCOM,
    fr_trunk_X_LH_lowerlegCOM,
    fr_trunk_X_RH_lowerlegCOM,
    fr_LF_foot_X_fr_LF_lowerleg,
    fr_RF_foot_X_fr_RF_lowerleg,
    fr_LH_foot_X_fr_LH_lowerleg,
    fr_RH_foot_X_fr_RH_lowerleg,
    fr_trunk_X_fr_LF_foot,
    fr_trunk_X_fr_RF_foot,
    fr_trunk_X_fr_LH_foot,
    fr_trunk_X_fr_RH_foot,
    fr_LF_foot_X_fr_trunk,
    fr_RF_foot_X_fr_trunk,
    fr_LH_foot_X_fr_trunk,
    fr_RH_foot_X_fr_trunk,
    fr_trunk_X_fr_LF_HAA,
    fr_trunk_X_fr_RF_HAA,
    fr_trunk_X_fr_LH_HAA,
    fr_trunk_X_fr_RH_HAA,
    fr_trunk_X_fr_LF_HFE,
    fr_trunk_X_fr_RF_HFE,
    fr_trunk_X_fr_LH_HFE,
    fr_trunk_X_fr_RH_HFE,
    fr_trunk_X_fr_LF_KFE,
    fr_trunk_X_fr_RF_KFE,
    fr_trunk_X_fr_LH_KFE,
    fr_trunk_X_fr_RH_KFE,
    fr_LF_upperleg_X_fr_LF_hipassembly,
    fr_LF_hipassembly_X_fr_LF_upperleg,
    fr_LF_lowerleg_X_fr_LF_upperleg,
    fr_LF_upperleg_X_fr_LF_lowerleg,
    fr_RF_upperleg_X_fr_RF_hipassembly,
    fr_RF_hipassembly_X_fr_RF_upperleg,
    fr_RF_lowerleg_X_fr_RF_upperleg,
    fr_RF_upperleg_X_fr_RF_lowerleg,
    fr_LH_upperleg_X_fr_LH_hipassembly,
    fr_LH_hipassembly_X_fr_LH_upperleg,
    fr_LH_lowerleg_X_fr_LH_upperleg,
    fr_LH_upperleg_X_fr_LH_lowerleg,
    fr_RH_upperleg_X_fr_RH_hipassembly,
    fr_RH_hipassembly_X_fr_RH_upperleg,
    fr_RH_lowerleg_X_fr_RH_upperleg,
    fr_RH_upperleg_X_fr_RH_lowerleg]

/-! ### Jacobians -/

/-- `Jacobians::Type_fr_trunk_J_LF_hipassemblyCOM` (jacobians.impl.h:32-38, 41-51). -/
def gen_fr_trunk_J_LF_hipassemblyCOM : Gen where
  rows := 6
  cols := 1
  ctor := [⟨0, 0, .neg (.k 1 0)⟩,
    ⟨1, 0, .k 0 0⟩,
    ⟨2, 0, .k 0 0⟩,
    ⟨3, 0, .k 0 0⟩]
  upd := [⟨4, 0, (.neg (.k 43 3)) ⊠ (.c 0)⟩,
    ⟨5, 0, (.k 43 3) ⊠ (.s 0)⟩]

/-- The Jacobian `fr_trunk_J_LF_hipassemblyCOM`. -/
def fr_trunk_J_LF_hipassemblyCOM : Jac := ⟨LF_hipassemblyCOM, gen_fr_trunk_J_LF_hipassemblyCOM⟩

/-- `Jacobians::Type_fr_trunk_J_RF_hipassemblyCOM` (jacobians.impl.h:53-59, 62-72). -/
def gen_fr_trunk_J_RF_hipassemblyCOM : Gen where
  rows := 6
  cols := 1
  ctor := [⟨0, 0, .k 1 0⟩,
    ⟨1, 0, .k 0 0⟩,
    ⟨2, 0, .k 0 0⟩,
    ⟨3, 0, .k 0 0⟩]
  upd := [⟨4, 0, (.k 43 3) ⊠ (.c 3)⟩,
    ⟨5, 0, (.k 43 3) ⊠ (.s 3)⟩]

/-- The Jacobian `fr_trunk_J_RF_hipassemblyCOM`. -/
def fr_trunk_J_RF_hipassemblyCOM : Jac := ⟨RF_hipassemblyCOM, gen_fr_trunk_J_RF_hipassemblyCOM⟩

/-- `Jacobians::Type_fr_trunk_J_LH_hipassemblyCOM` (jacobians.impl.h:74-80, 83-93). -/
def gen_fr_trunk_J_LH_hipassemblyCOM : Gen where
  rows := 6
  cols := 1
  ctor := [⟨0, 0, .neg (.k 1 0)⟩,
    ⟨1, 0, .k 0 0⟩,
    ⟨2, 0, .k 0 0⟩,
    ⟨3, 0, .k 0 0⟩]
  upd := [⟨4, 0, (.neg (.k 43 3)) ⊠ (.c 6)⟩,
    ⟨5, 0, (.k 43 3) ⊠ (.s 6)⟩]

/-- The Jacobian `fr_trunk_J_LH_hipassemblyCOM`. -/
def fr_trunk_J_LH_hipassemblyCOM : Jac := ⟨LH_hipassemblyCOM, gen_fr_trunk_J_LH_hipassemblyCOM⟩

/-- `Jacobians::Type_fr_trunk_J_RH_hipassemblyCOM` (jacobians.impl.h:95-101, 104-114). -/
def gen_fr_trunk_J_RH_hipassemblyCOM : Gen where
  rows := 6
  cols := 1
  ctor := [⟨0, 0, .k 1 0⟩,
    ⟨1, 0, .k 0 0⟩,
    ⟨2, 0, .k 0 0⟩,
    ⟨3, 0, .k 0 0⟩]
  upd := [⟨4, 0, (.k 43 3) ⊠ (.c 9)⟩,
    ⟨5, 0, (.k 43 3) ⊠ (.s 9)⟩]

/-- The Jacobian `fr_trunk_J_RH_hipassemblyCOM`. -/
def fr_trunk_J_RH_hipassemblyCOM : Jac := ⟨RH_hipassemblyCOM, gen_fr_trunk_J_RH_hipassemblyCOM⟩

/-- `Jacobians::Type_fr_trunk_J_LF_upperlegCOM` (jacobians.impl.h:116-123, 126-145). -/
def gen_fr_trunk_J_LF_upperlegCOM : Gen where
  rows := 6
  cols := 2
  ctor := [⟨0, 0, .neg (.k 1 0)⟩,
    ⟨0, 1, .k 0 0⟩,
    ⟨1, 0, .k 0 0⟩,
    ⟨2, 0, .k 0 0⟩,
    ⟨3, 0, .k 0 0⟩]
  upd := [⟨1, 1, .c 0⟩,
    ⟨2, 1, .neg (.s 0)⟩,
    ⟨3, 1, ((.neg (.k 26 3)) ⊠ (.s 1)) ⊟ ((.k 151 3) ⊠ (.c 1))⟩,
    ⟨4, 0, ((((.neg (.k 26 3)) ⊠ (.c 0)) ⊠ (.s 1)) ⊟ (((.k 151 3) ⊠ (.c 0)) ⊠ (.c 1))) ⊟ ((.k 8 2) ⊠ (.c 0))⟩,
    ⟨4, 1, (((.k 151 3) ⊠ (.s 0)) ⊠ (.s 1)) ⊟ (((.k 26 3) ⊠ (.s 0)) ⊠ (.c 1))⟩,
    ⟨5, 0, ((((.k 26 3) ⊠ (.s 0)) ⊠ (.s 1)) ⊞ (((.k 151 3) ⊠ (.s 0)) ⊠ (.c 1))) ⊞ ((.k 8 2) ⊠ (.s 0))⟩,
    ⟨5, 1, (((.k 151 3) ⊠ (.c 0)) ⊠ (.s 1)) ⊟ (((.k 26 3) ⊠ (.c 0)) ⊠ (.c 1))⟩]

/-- The Jacobian `fr_trunk_J_LF_upperlegCOM`. -/
def fr_trunk_J_LF_upperlegCOM : Jac := ⟨LF_upperlegCOM, gen_fr_trunk_J_LF_upperlegCOM⟩

/-- `Jacobians::Type_fr_trunk_J_RF_upperlegCOM` (jacobians.impl.h:147-154, 157-176). -/
def gen_fr_trunk_J_RF_upperlegCOM : Gen where
  rows := 6
  cols := 2
  ctor := [⟨0, 0, .k 1 0⟩,
    ⟨0, 1, .k 0 0⟩,
    ⟨1, 0, .k 0 0⟩,
    ⟨2, 0, .k 0 0⟩,
    ⟨3, 0, .k 0 0⟩]
  upd := [⟨1, 1, .c 3⟩,
    ⟨2, 1, .s 3⟩,
    ⟨3, 1, ((.neg (.k 26 3)) ⊠ (.s 4)) ⊟ ((.k 151 3) ⊠ (.c 4))⟩,
    ⟨4, 0, ((((.k 26 3) ⊠ (.c 3)) ⊠ (.s 4)) ⊞ (((.k 151 3) ⊠ (.c 3)) ⊠ (.c 4))) ⊞ ((.k 8 2) ⊠ (.c 3))⟩,
    ⟨4, 1, (((.k 26 3) ⊠ (.s 3)) ⊠ (.c 4)) ⊟ (((.k 151 3) ⊠ (.s 3)) ⊠ (.s 4))⟩,
    ⟨5, 0, ((((.k 26 3) ⊠ (.s 3)) ⊠ (.s 4)) ⊞ (((.k 151 3) ⊠ (.s 3)) ⊠ (.c 4))) ⊞ ((.k 8 2) ⊠ (.s 3))⟩,
    ⟨5, 1, (((.k 151 3) ⊠ (.c 3)) ⊠ (.s 4)) ⊟ (((.k 26 3) ⊠ (.c 3)) ⊠ (.c 4))⟩]

/-- The Jacobian `fr_trunk_J_RF_upperlegCOM`. -/
def fr_trunk_J_RF_upperlegCOM : Jac := ⟨RF_upperlegCOM, gen_fr_trunk_J_RF_upperlegCOM⟩

/-- `Jacobians::Type_fr_trunk_J_LH_upperlegCOM` (jacobians.impl.h:178-185, 188-207). -/
def gen_fr_trunk_J_LH_upperlegCOM : Gen where
  rows := 6
  cols := 2
  ctor := [⟨0, 0, .neg (.k 1 0)⟩,
    ⟨0, 1, .k 0 0⟩,
    ⟨1, 0, .k 0 0⟩,
    ⟨2, 0, .k 0 0⟩,
    ⟨3, 0, .k 0 0⟩]
  upd := [⟨1, 1, .c 6⟩,
    ⟨2, 1, .neg (.s 6)⟩,
    ⟨3, 1, ((.k 26 3) ⊠ (.s 7)) ⊟ ((.k 151 3) ⊠ (.c 7))⟩,
    ⟨4, 0, ((((.k 26 3) ⊠ (.c 6)) ⊠ (.s 7)) ⊟ (((.k 151 3) ⊠ (.c 6)) ⊠ (.c 7))) ⊟ ((.k 8 2) ⊠ (.c 6))⟩,
    ⟨4, 1, (((.k 151 3) ⊠ (.s 6)) ⊠ (.s 7)) ⊞ (((.k 26 3) ⊠ (.s 6)) ⊠ (.c 7))⟩,
    ⟨5, 0, ((((.neg (.k 26 3)) ⊠ (.s 6)) ⊠ (.s 7)) ⊞ (((.k 151 3) ⊠ (.s 6)) ⊠ (.c 7))) ⊞ ((.k 8 2) ⊠ (.s 6))⟩,
    ⟨5, 1, (((.k 151 3) ⊠ (.c 6)) ⊠ (.s 7)) ⊞ (((.k 26 3) ⊠ (.c 6)) ⊠ (.c 7))⟩]

/-- The Jacobian `fr_trunk_J_LH_upperlegCOM`. -/
def fr_trunk_J_LH_upperlegCOM : Jac := ⟨LH_upperlegCOM, gen_fr_trunk_J_LH_upperlegCOM⟩

/-- `Jacobians::Type_fr_trunk_J_RH_upperlegCOM` (jacobians.impl.h:209-216, 219-238). -/
def gen_fr_trunk_J_RH_upperlegCOM : Gen where
  rows := 6
  cols := 2
  ctor := [⟨0, 0, .k 1 0⟩,
    ⟨0, 1, .k 0 0⟩,
    ⟨1, 0, .k 0 0⟩,
    ⟨2, 0, .k 0 0⟩,
    ⟨3, 0, .k 0 0⟩]
  upd := [⟨1, 1, .c 9⟩,
    ⟨2, 1, .s 9⟩,
    ⟨3, 1, ((.k 26 3) ⊠ (.s 10)) ⊟ ((.k 151 3) ⊠ (.c 10))⟩,
    ⟨4, 0, ((((.neg (.k 26 3)) ⊠ (.c 9)) ⊠ (.s 10)) ⊞ (((.k 151 3) ⊠ (.c 9)) ⊠ (.c 10))) ⊞ ((.k 8 2) ⊠ (.c 9))⟩,
    ⟨4, 1, (((.neg (.k 151 3)) ⊠ (.s 9)) ⊠ (.s 10)) ⊟ (((.k 26 3) ⊠ (.s 9)) ⊠ (.c 10))⟩,
    ⟨5, 0, ((((.neg (.k 26 3)) ⊠ (.s 9)) ⊠ (.s 10)) ⊞ (((.k 151 3) ⊠ (.s 9)) ⊠ (.c 10))) ⊞ ((.k 8 2) ⊠ (.s 9))⟩,
    ⟨5, 1, (((.k 151 3) ⊠ (.c 9)) ⊠ (.s 10)) ⊞ (((.k 26 3) ⊠ (.c 9)) ⊠ (.c 10))⟩]

/-- The Jacobian `fr_trunk_J_RH_upperlegCOM`. -/
def fr_trunk_J_RH_upperlegCOM : Jac := ⟨RH_upperlegCOM, gen_fr_trunk_J_RH_upperlegCOM⟩

/-- `Jacobians::Type_fr_trunk_J_LF_lowerlegCOM` (jacobians.impl.h:240-248, 251-279). -/
def gen_fr_trunk_J_LF_lowerlegCOM : Gen where
  rows := 6
  cols := 3
  ctor := [⟨0, 0, .neg (.k 1 0)⟩,
    ⟨0, 1, .k 0 0⟩,
    ⟨0, 2, .k 0 0⟩,
    ⟨1, 0, .k 0 0⟩,
    ⟨2, 0, .k 0 0⟩,
    ⟨3, 0, .k 0 0⟩]
  upd := [⟨1, 1, .c 0⟩,
    ⟨1, 2, .c 0⟩,
    ⟨2, 1, .neg (.s 0)⟩,
    ⟨2, 2, .neg (.s 0)⟩,
    ⟨3, 1, ((((.k 125 3) ⊠ (.s 1)) ⊠ (.s 2)) ⊟ (((.k 125 3) ⊠ (.c 1)) ⊠ (.c 2))) ⊟ ((.k 35 2) ⊠ (.c 1))⟩,
    ⟨3, 2, (((.k 125 3) ⊠ (.s 1)) ⊠ (.s 2)) ⊟ (((.k 125 3) ⊠ (.c 1)) ⊠ (.c 2))⟩,
    ⟨4, 0, ((((((.k 125 3) ⊠ (.c 0)) ⊠ (.s 1)) ⊠ (.s 2)) ⊟ ((((.k 125 3) ⊠ (.c 0)) ⊠ (.c 1)) ⊠ (.c 2))) ⊟ (((.k 35 2) ⊠ (.c 0)) ⊠ (.c 1))) ⊟ ((.k 8 2) ⊠ (.c 0))⟩,
    ⟨4, 1, (((((.k 125 3) ⊠ (.s 0)) ⊠ (.c 1)) ⊠ (.s 2)) ⊞ ((((.k 125 3) ⊠ (.s 0)) ⊠ (.s 1)) ⊠ (.c 2))) ⊞ (((.k 35 2) ⊠ (.s 0)) ⊠ (.s 1))⟩,
    ⟨4, 2, ((((.k 125 3) ⊠ (.s 0)) ⊠ (.c 1)) ⊠ (.s 2)) ⊞ ((((.k 125 3) ⊠ (.s 0)) ⊠ (.s 1)) ⊠ (.c 2))⟩,
    ⟨5, 0, ((((((.neg (.k 125 3)) ⊠ (.s 0)) ⊠ (.s 1)) ⊠ (.s 2)) ⊞ ((((.k 125 3) ⊠ (.s 0)) ⊠ (.c 1)) ⊠ (.c 2))) ⊞ (((.k 35 2) ⊠ (.s 0)) ⊠ (.c 1))) ⊞ ((.k 8 2) ⊠ (.s 0))⟩,
    ⟨5, 1, (((((.k 125 3) ⊠ (.c 0)) ⊠ (.c 1)) ⊠ (.s 2)) ⊞ ((((.k 125 3) ⊠ (.c 0)) ⊠ (.s 1)) ⊠ (.c 2))) ⊞ (((.k 35 2) ⊠ (.c 0)) ⊠ (.s 1))⟩,
    ⟨5, 2, ((((.k 125 3) ⊠ (.c 0)) ⊠ (.c 1)) ⊠ (.s 2)) ⊞ ((((.k 125 3) ⊠ (.c 0)) ⊠ (.s 1)) ⊠ (.c 2))⟩]

/-- The Jacobian `fr_trunk_J_LF_lowerlegCOM`. -/
def fr_trunk_J_LF_lowerlegCOM : Jac := ⟨LF_lowerlegCOM, gen_fr_trunk_J_LF_lowerlegCOM⟩

/-- `Jacobians::Type_fr_trunk_J_RF_lowerlegCOM` (jacobians.impl.h:281-289, 292-320). -/
def gen_fr_trunk_J_RF_lowerlegCOM : Gen where
  rows := 6
  cols := 3
  ctor := [⟨0, 0, .k 1 0⟩,
    ⟨0, 1, .k 0 0⟩,
    ⟨0, 2, .k 0 0⟩,
    ⟨1, 0, .k 0 0⟩,
    ⟨2, 0, .k 0 0⟩,
    ⟨3, 0, .k 0 0⟩]
  upd := [⟨1, 1, .c 3⟩,
    ⟨1, 2, .c 3⟩,
    ⟨2, 1, .s 3⟩,
    ⟨2, 2, .s 3⟩,
    ⟨3, 1, (((((.k 125 3) ⊠ (.s 4)) ⊞ ((.k 1 3) ⊠ (.c 4))) ⊠ (.s 5)) ⊞ ((((.k 1 3) ⊠ (.s 4)) ⊟ ((.k 125 3) ⊠ (.c 4))) ⊠ (.c 5))) ⊟ ((.k 35 2) ⊠ (.c 4))⟩,
    ⟨3, 2, ((((.k 125 3) ⊠ (.s 4)) ⊞ ((.k 1 3) ⊠ (.c 4))) ⊠ (.s 5)) ⊞ ((((.k 1 3) ⊠ (.s 4)) ⊟ ((.k 125 3) ⊠ (.c 4))) ⊠ (.c 5))⟩,
    ⟨4, 0, (((((((.neg (.k 125 3)) ⊠ (.c 3)) ⊠ (.s 4)) ⊟ (((.k 1 3) ⊠ (.c 3)) ⊠ (.c 4))) ⊠ (.s 5)) ⊞ (((((.k 125 3) ⊠ (.c 3)) ⊠ (.c 4)) ⊟ (((.k 1 3) ⊠ (.c 3)) ⊠ (.s 4))) ⊠ (.c 5))) ⊞ (((.k 35 2) ⊠ (.c 3)) ⊠ (.c 4))) ⊞ ((.k 8 2) ⊠ (.c 3))⟩,
    ⟨4, 1, ((((((.k 1 3) ⊠ (.s 3)) ⊠ (.s 4)) ⊟ (((.k 125 3) ⊠ (.s 3)) ⊠ (.c 4))) ⊠ (.s 5)) ⊞ (((((.neg (.k 125 3)) ⊠ (.s 3)) ⊠ (.s 4)) ⊟ (((.k 1 3) ⊠ (.s 3)) ⊠ (.c 4))) ⊠ (.c 5))) ⊟ (((.k 35 2) ⊠ (.s 3)) ⊠ (.s 4))⟩,
    ⟨4, 2, (((((.k 1 3) ⊠ (.s 3)) ⊠ (.s 4)) ⊟ (((.k 125 3) ⊠ (.s 3)) ⊠ (.c 4))) ⊠ (.s 5)) ⊞ (((((.neg (.k 125 3)) ⊠ (.s 3)) ⊠ (.s 4)) ⊟ (((.k 1 3) ⊠ (.s 3)) ⊠ (.c 4))) ⊠ (.c 5))⟩,
    ⟨5, 0, (((((((.neg (.k 125 3)) ⊠ (.s 3)) ⊠ (.s 4)) ⊟ (((.k 1 3) ⊠ (.s 3)) ⊠ (.c 4))) ⊠ (.s 5)) ⊞ (((((.k 125 3) ⊠ (.s 3)) ⊠ (.c 4)) ⊟ (((.k 1 3) ⊠ (.s 3)) ⊠ (.s 4))) ⊠ (.c 5))) ⊞ (((.k 35 2) ⊠ (.s 3)) ⊠ (.c 4))) ⊞ ((.k 8 2) ⊠ (.s 3))⟩,
    ⟨5, 1, ((((((.k 125 3) ⊠ (.c 3)) ⊠ (.c 4)) ⊟ (((.k 1 3) ⊠ (.c 3)) ⊠ (.s 4))) ⊠ (.s 5)) ⊞ (((((.k 125 3) ⊠ (.c 3)) ⊠ (.s 4)) ⊞ (((.k 1 3) ⊠ (.c 3)) ⊠ (.c 4))) ⊠ (.c 5))) ⊞ (((.k 35 2) ⊠ (.c 3)) ⊠ (.s 4))⟩,
    ⟨5, 2, (((((.k 125 3) ⊠ (.c 3)) ⊠ (.c 4)) ⊟ (((.k 1 3) ⊠ (.c 3)) ⊠ (.s 4))) ⊠ (.s 5)) ⊞ (((((.k 125 3) ⊠ (.c 3)) ⊠ (.s 4)) ⊞ (((.k 1 3) ⊠ (.c 3)) ⊠ (.c 4))) ⊠ (.c 5))⟩]

/-- The Jacobian `fr_trunk_J_RF_lowerlegCOM`. -/
def fr_trunk_J_RF_lowerlegCOM : Jac := ⟨RF_lowerlegCOM, gen_fr_trunk_J_RF_lowerlegCOM⟩

/-- `Jacobians::Type_fr_trunk_J_LH_lowerlegCOM` (jacobians.impl.h:322-330, 333-361). -/
def gen_fr_trunk_J_LH_lowerlegCOM : Gen where
  rows := 6
  cols := 3
  ctor := [⟨0, 0, .neg (.k 1 0)⟩,
    ⟨0, 1, .k 0 0⟩,
    ⟨0, 2, .k 0 0⟩,
    ⟨1, 0, .k 0 0⟩,
    ⟨2, 0, .k 0 0⟩,
    ⟨3, 0, .k 0 0⟩]
  upd := [⟨1, 1, .c 6⟩,
    ⟨1, 2, .c 6⟩,
    ⟨2, 1, .neg (.s 6)⟩,
    ⟨2, 2, .neg (.s 6)⟩,
    ⟨3, 1, (((((.k 125 3) ⊠ (.s 7)) ⊟ ((.k 1 3) ⊠ (.c 7))) ⊠ (.s 8)) ⊞ ((((.neg (.k 1 3)) ⊠ (.s 7)) ⊟ ((.k 125 3) ⊠ (.c 7))) ⊠ (.c 8))) ⊟ ((.k 35 2) ⊠ (.c 7))⟩,
    ⟨3, 2, ((((.k 125 3) ⊠ (.s 7)) ⊟ ((.k 1 3) ⊠ (.c 7))) ⊠ (.s 8)) ⊞ ((((.neg (.k 1 3)) ⊠ (.s 7)) ⊟ ((.k 125 3) ⊠ (.c 7))) ⊠ (.c 8))⟩,
    ⟨4, 0, (((((((.k 125 3) ⊠ (.c 6)) ⊠ (.s 7)) ⊟ (((.k 1 3) ⊠ (.c 6)) ⊠ (.c 7))) ⊠ (.s 8)) ⊞ (((((.neg (.k 1 3)) ⊠ (.c 6)) ⊠ (.s 7)) ⊟ (((.k 125 3) ⊠ (.c 6)) ⊠ (.c 7))) ⊠ (.c 8))) ⊟ (((.k 35 2) ⊠ (.c 6)) ⊠ (.c 7))) ⊟ ((.k 8 2) ⊠ (.c 6))⟩,
    ⟨4, 1, ((((((.k 1 3) ⊠ (.s 6)) ⊠ (.s 7)) ⊞ (((.k 125 3) ⊠ (.s 6)) ⊠ (.c 7))) ⊠ (.s 8)) ⊞ (((((.k 125 3) ⊠ (.s 6)) ⊠ (.s 7)) ⊟ (((.k 1 3) ⊠ (.s 6)) ⊠ (.c 7))) ⊠ (.c 8))) ⊞ (((.k 35 2) ⊠ (.s 6)) ⊠ (.s 7))⟩,
    ⟨4, 2, (((((.k 1 3) ⊠ (.s 6)) ⊠ (.s 7)) ⊞ (((.k 125 3) ⊠ (.s 6)) ⊠ (.c 7))) ⊠ (.s 8)) ⊞ (((((.k 125 3) ⊠ (.s 6)) ⊠ (.s 7)) ⊟ (((.k 1 3) ⊠ (.s 6)) ⊠ (.c 7))) ⊠ (.c 8))⟩,
    ⟨5, 0, (((((((.k 1 3) ⊠ (.s 6)) ⊠ (.c 7)) ⊟ (((.k 125 3) ⊠ (.s 6)) ⊠ (.s 7))) ⊠ (.s 8)) ⊞ (((((.k 1 3) ⊠ (.s 6)) ⊠ (.s 7)) ⊞ (((.k 125 3) ⊠ (.s 6)) ⊠ (.c 7))) ⊠ (.c 8))) ⊞ (((.k 35 2) ⊠ (.s 6)) ⊠ (.c 7))) ⊞ ((.k 8 2) ⊠ (.s 6))⟩,
    ⟨5, 1, ((((((.k 1 3) ⊠ (.c 6)) ⊠ (.s 7)) ⊞ (((.k 125 3) ⊠ (.c 6)) ⊠ (.c 7))) ⊠ (.s 8)) ⊞ (((((.k 125 3) ⊠ (.c 6)) ⊠ (.s 7)) ⊟ (((.k 1 3) ⊠ (.c 6)) ⊠ (.c 7))) ⊠ (.c 8))) ⊞ (((.k 35 2) ⊠ (.c 6)) ⊠ (.s 7))⟩,
    ⟨5, 2, (((((.k 1 3) ⊠ (.c 6)) ⊠ (.s 7)) ⊞ (((.k 125 3) ⊠ (.c 6)) ⊠ (.c 7))) ⊠ (.s 8)) ⊞ (((((.k 125 3) ⊠ (.c 6)) ⊠ (.s 7)) ⊟ (((.k 1 3) ⊠ (.c 6)) ⊠ (.c 7))) ⊠ (.c 8))⟩]

/-- The Jacobian `fr_trunk_J_LH_lowerlegCOM`. -/
def fr_trunk_J_LH_lowerlegCOM : Jac := ⟨LH_lowerlegCOM, gen_fr_trunk_J_LH_lowerlegCOM⟩

/-- `Jacobians::Type_fr_trunk_J_RH_lowerlegCOM` (jacobians.impl.h:363-371, 374-402). -/
def gen_fr_trunk_J_RH_lowerlegCOM : Gen where
  rows := 6
  cols := 3
  ctor := [⟨0, 0, .k 1 0⟩,
    ⟨0, 1, .k 0 0⟩,
    ⟨0, 2, .k 0 0⟩,
    ⟨1, 0, .k 0 0⟩,
    ⟨2, 0, .k 0 0⟩,
    ⟨3, 0, .k 0 0⟩]
  upd := [⟨1, 1, .c 9⟩,
    ⟨1, 2, .c 9⟩,
    ⟨2, 1, .s 9⟩,
    ⟨2, 2, .s 9⟩,
    ⟨3, 1, (((((.k 1254 4) ⊠ (.s 10)) ⊟ ((.k 5 4) ⊠ (.c 10))) ⊠ (.s 11)) ⊞ ((((.neg (.k 5 4)) ⊠ (.s 10)) ⊟ ((.k 1254 4) ⊠ (.c 10))) ⊠ (.c 11))) ⊟ ((.k 35 2) ⊠ (.c 10))⟩,
    ⟨3, 2, ((((.k 1254 4) ⊠ (.s 10)) ⊟ ((.k 5 4) ⊠ (.c 10))) ⊠ (.s 11)) ⊞ ((((.neg (.k 5 4)) ⊠ (.s 10)) ⊟ ((.k 1254 4) ⊠ (.c 10))) ⊠ (.c 11))⟩,
    ⟨4, 0, (((((((.k 5 4) ⊠ (.c 9)) ⊠ (.c 10)) ⊟ (((.k 1254 4) ⊠ (.c 9)) ⊠ (.s 10))) ⊠ (.s 11)) ⊞ (((((.k 5 4) ⊠ (.c 9)) ⊠ (.s 10)) ⊞ (((.k 1254 4) ⊠ (.c 9)) ⊠ (.c 10))) ⊠ (.c 11))) ⊞ (((.k 35 2) ⊠ (.c 9)) ⊠ (.c 10))) ⊞ ((.k 8 2) ⊠ (.c 9))⟩,
    ⟨4, 1, ((((((.neg (.k 5 4)) ⊠ (.s 9)) ⊠ (.s 10)) ⊟ (((.k 1254 4) ⊠ (.s 9)) ⊠ (.c 10))) ⊠ (.s 11)) ⊞ (((((.k 5 4) ⊠ (.s 9)) ⊠ (.c 10)) ⊟ (((.k 1254 4) ⊠ (.s 9)) ⊠ (.s 10))) ⊠ (.c 11))) ⊟ (((.k 35 2) ⊠ (.s 9)) ⊠ (.s 10))⟩,
    ⟨4, 2, (((((.neg (.k 5 4)) ⊠ (.s 9)) ⊠ (.s 10)) ⊟ (((.k 1254 4) ⊠ (.s 9)) ⊠ (.c 10))) ⊠ (.s 11)) ⊞ (((((.k 5 4) ⊠ (.s 9)) ⊠ (.c 10)) ⊟ (((.k 1254 4) ⊠ (.s 9)) ⊠ (.s 10))) ⊠ (.c 11))⟩,
    ⟨5, 0, (((((((.k 5 4) ⊠ (.s 9)) ⊠ (.c 10)) ⊟ (((.k 1254 4) ⊠ (.s 9)) ⊠ (.s 10))) ⊠ (.s 11)) ⊞ (((((.k 5 4) ⊠ (.s 9)) ⊠ (.s 10)) ⊞ (((.k 1254 4) ⊠ (.s 9)) ⊠ (.c 10))) ⊠ (.c 11))) ⊞ (((.k 35 2) ⊠ (.s 9)) ⊠ (.c 10))) ⊞ ((.k 8 2) ⊠ (.s 9))⟩,
    ⟨5, 1, ((((((.k 5 4) ⊠ (.c 9)) ⊠ (.s 10)) ⊞ (((.k 1254 4) ⊠ (.c 9)) ⊠ (.c 10))) ⊠ (.s 11)) ⊞ (((((.k 1254 4) ⊠ (.c 9)) ⊠ (.s 10)) ⊟ (((.k 5 4) ⊠ (.c 9)) ⊠ (.c 10))) ⊠ (.c 11))) ⊞ (((.k 35 2) ⊠ (.c 9)) ⊠ (.s 10))⟩,
    ⟨5, 2, (((((.k 5 4) ⊠ (.c 9)) ⊠ (.s 10)) ⊞ (((.k 1254 4) ⊠ (.c 9)) ⊠ (.c 10))) ⊠ (.s 11)) ⊞ (((((.k 1254 4) ⊠ (.c 9)) ⊠ (.s 10)) ⊟ (((.k 5 4) ⊠ (.c 9)) ⊠ (.c 10))) ⊠ (.c 11))⟩]

/-- The Jacobian `fr_trunk_J_RH_lowerlegCOM`. -/
def fr_trunk_J_RH_lowerlegCOM : Jac := ⟨RH_lowerlegCOM, gen_fr_trunk_J_RH_lowerlegCOM⟩

/-- `Jacobians::Type_fr_trunk_J_fr_LF_foot` (jacobians.impl.h:404-412, 415-443). -/
def gen_fr_trunk_J_fr_LF_foot : Gen where
  rows := 6
  cols := 3
  ctor := [⟨0, 0, .neg (.k 1 0)⟩,
    ⟨0, 1, .k 0 0⟩,
    ⟨0, 2, .k 0 0⟩,
    ⟨1, 0, .k 0 0⟩,
    ⟨2, 0, .k 0 0⟩,
    ⟨3, 0, .k 0 0⟩]
  upd := [⟨1, 1, .c 0⟩,
    ⟨1, 2, .c 0⟩,
    ⟨2, 1, .neg (.s 0)⟩,
    ⟨2, 2, .neg (.s 0)⟩,
    ⟨3, 1, ((((.k 33 2) ⊠ (.s 1)) ⊠ (.s 2)) ⊟ (((.k 33 2) ⊠ (.c 1)) ⊠ (.c 2))) ⊟ ((.k 35 2) ⊠ (.c 1))⟩,
    ⟨3, 2, (((.k 33 2) ⊠ (.s 1)) ⊠ (.s 2)) ⊟ (((.k 33 2) ⊠ (.c 1)) ⊠ (.c 2))⟩,
    ⟨4, 0, ((((((.k 33 2) ⊠ (.c 0)) ⊠ (.s 1)) ⊠ (.s 2)) ⊟ ((((.k 33 2) ⊠ (.c 0)) ⊠ (.c 1)) ⊠ (.c 2))) ⊟ (((.k 35 2) ⊠ (.c 0)) ⊠ (.c 1))) ⊟ ((.k 8 2) ⊠ (.c 0))⟩,
    ⟨4, 1, (((((.k 33 2) ⊠ (.s 0)) ⊠ (.c 1)) ⊠ (.s 2)) ⊞ ((((.k 33 2) ⊠ (.s 0)) ⊠ (.s 1)) ⊠ (.c 2))) ⊞ (((.k 35 2) ⊠ (.s 0)) ⊠ (.s 1))⟩,
    ⟨4, 2, ((((.k 33 2) ⊠ (.s 0)) ⊠ (.c 1)) ⊠ (.s 2)) ⊞ ((((.k 33 2) ⊠ (.s 0)) ⊠ (.s 1)) ⊠ (.c 2))⟩,
    ⟨5, 0, ((((((.neg (.k 33 2)) ⊠ (.s 0)) ⊠ (.s 1)) ⊠ (.s 2)) ⊞ ((((.k 33 2) ⊠ (.s 0)) ⊠ (.c 1)) ⊠ (.c 2))) ⊞ (((.k 35 2) ⊠ (.s 0)) ⊠ (.c 1))) ⊞ ((.k 8 2) ⊠ (.s 0))⟩,
    ⟨5, 1, (((((.k 33 2) ⊠ (.c 0)) ⊠ (.c 1)) ⊠ (.s 2)) ⊞ ((((.k 33 2) ⊠ (.c 0)) ⊠ (.s 1)) ⊠ (.c 2))) ⊞ (((.k 35 2) ⊠ (.c 0)) ⊠ (.s 1))⟩,
    ⟨5, 2, ((((.k 33 2) ⊠ (.c 0)) ⊠ (.c 1)) ⊠ (.s 2)) ⊞ ((((.k 33 2) ⊠ (.c 0)) ⊠ (.s 1)) ⊠ (.c 2))⟩]

/-- The Jacobian `fr_trunk_J_fr_LF_foot`. -/
def fr_trunk_J_fr_LF_foot : Jac := ⟨fr_LF_foot, gen_fr_trunk_J_fr_LF_foot⟩

/-- `Jacobians::Type_fr_trunk_J_fr_RF_foot` (jacobians.impl.h:445-453, 456-484). -/
def gen_fr_trunk_J_fr_RF_foot : Gen where
  rows := 6
  cols := 3
  ctor := [⟨0, 0, .k 1 0⟩,
    ⟨0, 1, .k 0 0⟩,
    ⟨0, 2, .k 0 0⟩,
    ⟨1, 0, .k 0 0⟩,
    ⟨2, 0, .k 0 0⟩,
    ⟨3, 0, .k 0 0⟩]
  upd := [⟨1, 1, .c 3⟩,
    ⟨1, 2, .c 3⟩,
    ⟨2, 1, .s 3⟩,
    ⟨2, 2, .s 3⟩,
    ⟨3, 1, ((((.k 33 2) ⊠ (.s 4)) ⊠ (.s 5)) ⊟ (((.k 33 2) ⊠ (.c 4)) ⊠ (.c 5))) ⊟ ((.k 35 2) ⊠ (.c 4))⟩,
    ⟨3, 2, (((.k 33 2) ⊠ (.s 4)) ⊠ (.s 5)) ⊟ (((.k 33 2) ⊠ (.c 4)) ⊠ (.c 5))⟩,
    ⟨4, 0, ((((((.neg (.k 33 2)) ⊠ (.c 3)) ⊠ (.s 4)) ⊠ (.s 5)) ⊞ ((((.k 33 2) ⊠ (.c 3)) ⊠ (.c 4)) ⊠ (.c 5))) ⊞ (((.k 35 2) ⊠ (.c 3)) ⊠ (.c 4))) ⊞ ((.k 8 2) ⊠ (.c 3))⟩,
    ⟨4, 1, (((((.neg (.k 33 2)) ⊠ (.s 3)) ⊠ (.c 4)) ⊠ (.s 5)) ⊟ ((((.k 33 2) ⊠ (.s 3)) ⊠ (.s 4)) ⊠ (.c 5))) ⊟ (((.k 35 2) ⊠ (.s 3)) ⊠ (.s 4))⟩,
    ⟨4, 2, ((((.neg (.k 33 2)) ⊠ (.s 3)) ⊠ (.c 4)) ⊠ (.s 5)) ⊟ ((((.k 33 2) ⊠ (.s 3)) ⊠ (.s 4)) ⊠ (.c 5))⟩,
    ⟨5, 0, ((((((.neg (.k 33 2)) ⊠ (.s 3)) ⊠ (.s 4)) ⊠ (.s 5)) ⊞ ((((.k 33 2) ⊠ (.s 3)) ⊠ (.c 4)) ⊠ (.c 5))) ⊞ (((.k 35 2) ⊠ (.s 3)) ⊠ (.c 4))) ⊞ ((.k 8 2) ⊠ (.s 3))⟩,
    ⟨5, 1, (((((.k 33 2) ⊠ (.c 3)) ⊠ (.c 4)) ⊠ (.s 5)) ⊞ ((((.k 33 2) ⊠ (.c 3)) ⊠ (.s 4)) ⊠ (.c 5))) ⊞ (((.k 35 2) ⊠ (.c 3)) ⊠ (.s 4))⟩,
    ⟨5, 2, ((((.k 33 2) ⊠ (.c 3)) ⊠ (.c 4)) ⊠ (.s 5)) ⊞ ((((.k 33 2) ⊠ (.c 3)) ⊠ (.s 4)) ⊠ (.c 5))⟩]

/-- The Jacobian `fr_trunk_J_fr_RF_foot`. -/
def fr_trunk_J_fr_RF_foot : Jac := ⟨fr_RF_foot, gen_fr_trunk_J_fr_RF_foot⟩

/-- `Jacobians::Type_fr_trunk_J_fr_LH_foot` (jacobians.impl.h:486-494, 497-525). -/
def gen_fr_trunk_J_fr_LH_foot : Gen where
  rows := 6
  cols := 3
  ctor := [⟨0, 0, .neg (.k 1 0)⟩,
    ⟨0, 1, .k 0 0⟩,
    ⟨0, 2, .k 0 0⟩,
    ⟨1, 0, .k 0 0⟩,
    ⟨2, 0, .k 0 0⟩,
    ⟨3, 0, .k 0 0⟩]
  upd := [⟨1, 1, .c 6⟩,
    ⟨1, 2, .c 6⟩,
    ⟨2, 1, .neg (.s 6)⟩,
    ⟨2, 2, .neg (.s 6)⟩,
    ⟨3, 1, ((((.k 33 2) ⊠ (.s 7)) ⊠ (.s 8)) ⊟ (((.k 33 2) ⊠ (.c 7)) ⊠ (.c 8))) ⊟ ((.k 35 2) ⊠ (.c 7))⟩,
    ⟨3, 2, (((.k 33 2) ⊠ (.s 7)) ⊠ (.s 8)) ⊟ (((.k 33 2) ⊠ (.c 7)) ⊠ (.c 8))⟩,
    ⟨4, 0, ((((((.k 33 2) ⊠ (.c 6)) ⊠ (.s 7)) ⊠ (.s 8)) ⊟ ((((.k 33 2) ⊠ (.c 6)) ⊠ (.c 7)) ⊠ (.c 8))) ⊟ (((.k 35 2) ⊠ (.c 6)) ⊠ (.c 7))) ⊟ ((.k 8 2) ⊠ (.c 6))⟩,
    ⟨4, 1, (((((.k 33 2) ⊠ (.s 6)) ⊠ (.c 7)) ⊠ (.s 8)) ⊞ ((((.k 33 2) ⊠ (.s 6)) ⊠ (.s 7)) ⊠ (.c 8))) ⊞ (((.k 35 2) ⊠ (.s 6)) ⊠ (.s 7))⟩,
    ⟨4, 2, ((((.k 33 2) ⊠ (.s 6)) ⊠ (.c 7)) ⊠ (.s 8)) ⊞ ((((.k 33 2) ⊠ (.s 6)) ⊠ (.s 7)) ⊠ (.c 8))⟩,
    ⟨5, 0, ((((((.neg (.k 33 2)) ⊠ (.s 6)) ⊠ (.s 7)) ⊠ (.s 8)) ⊞ ((((.k 33 2) ⊠ (.s 6)) ⊠ (.c 7)) ⊠ (.c 8))) ⊞ (((.k 35 2) ⊠ (.s 6)) ⊠ (.c 7))) ⊞ ((.k 8 2) ⊠ (.s 6))⟩,
    ⟨5, 1, (((((.k 33 2) ⊠ (.c 6)) ⊠ (.c 7)) ⊠ (.s 8)) ⊞ ((((.k 33 2) ⊠ (.c 6)) ⊠ (.s 7)) ⊠ (.c 8))) ⊞ (((.k 35 2) ⊠ (.c 6)) ⊠ (.s 7))⟩,
    ⟨5, 2, ((((.k 33 2) ⊠ (.c 6)) ⊠ (.c 7)) ⊠ (.s 8)) ⊞ ((((.k 33 2) ⊠ (.c 6)) ⊠ (.s 7)) ⊠ (.c 8))⟩]

/-- The Jacobian `fr_trunk_J_fr_LH_foot`. -/
def fr_trunk_J_fr_LH_foot : Jac := ⟨fr_LH_foot, gen_fr_trunk_J_fr_LH_foot⟩

/-- `Jacobians::Type_fr_trunk_J_fr_RH_foot` (jacobians.impl.h:527-535, 538-566). -/
def gen_fr_trunk_J_fr_RH_foot : Gen where
  rows := 6
  cols := 3
  ctor := [⟨0, 0, .k 1 0⟩,
    ⟨0, 1, .k 0 0⟩,
    ⟨0, 2, .k 0 0⟩,
    ⟨1, 0, .k 0 0⟩,
    ⟨2, 0, .k 0 0⟩,
    ⟨3, 0, .k 0 0⟩]
  upd := [⟨1, 1, .c 9⟩,
    ⟨1, 2, .c 9⟩,
    ⟨2, 1, .s 9⟩,
    ⟨2, 2, .s 9⟩,
    ⟨3, 1, ((((.k 33 2) ⊠ (.s 10)) ⊠ (.s 11)) ⊟ (((.k 33 2) ⊠ (.c 10)) ⊠ (.c 11))) ⊟ ((.k 35 2) ⊠ (.c 10))⟩,
    ⟨3, 2, (((.k 33 2) ⊠ (.s 10)) ⊠ (.s 11)) ⊟ (((.k 33 2) ⊠ (.c 10)) ⊠ (.c 11))⟩,
    ⟨4, 0, ((((((.neg (.k 33 2)) ⊠ (.c 9)) ⊠ (.s 10)) ⊠ (.s 11)) ⊞ ((((.k 33 2) ⊠ (.c 9)) ⊠ (.c 10)) ⊠ (.c 11))) ⊞ (((.k 35 2) ⊠ (.c 9)) ⊠ (.c 10))) ⊞ ((.k 8 2) ⊠ (.c 9))⟩,
    ⟨4, 1, (((((.neg (.k 33 2)) ⊠ (.s 9)) ⊠ (.c 10)) ⊠ (.s 11)) ⊟ ((((.k 33 2) ⊠ (.s 9)) ⊠ (.s 10)) ⊠ (.c 11))) ⊟ (((.k 35 2) ⊠ (.s 9)) ⊠ (.s 10))⟩,
    ⟨4, 2, ((((.neg (.k 33 2)) ⊠ (.s 9)) ⊠ (.c 10)) ⊠ (.s 11)) ⊟ ((((.k 33 2) ⊠ (.s 9)) ⊠ (.s 10)) ⊠ (.c 11))⟩,
    ⟨5, 0, ((((((.neg (.k 33 2)) ⊠ (.s 9)) ⊠ (.s 10)) ⊠ (.s 11)) ⊞ ((((.k 33 2) ⊠ (.s 9)) ⊠ (.c 10)) ⊠ (.c 11))) ⊞ (((.k 35 2) ⊠ (.s 9)) ⊠ (.c 10))) ⊞ ((.k 8 2) ⊠ (.s 9))⟩,
    ⟨5, 1, (((((.k 33 2) ⊠ (.c 9)) ⊠ (.c 10)) ⊠ (.s 11)) ⊞ ((((.k 33 2) ⊠ (.c 9)) ⊠ (.s 10)) ⊠ (.c 11))) ⊞ (((.k 35 2) ⊠ (.c 9)) ⊠ (.s 10))⟩,
    ⟨5, 2, ((((.k 33 2) ⊠ (.c 9)) ⊠ (.c 10)) ⊠ (.s 11)) ⊞ ((((.k 33 2) ⊠ (.c 9)) ⊠ (.s 10)) ⊠ (.c 11))⟩]

/-- The Jacobian `fr_trunk_J_fr_RH_foot`. -/
def fr_trunk_J_fr_RH_foot : Jac := ⟨fr_RH_foot, gen_fr_trunk_J_fr_RH_foot⟩

/-- All Jacobians. -/
def jacobians : List Jac :=
  [fr_trunk_J_LF_hipassemblyCOM,
    fr_trunk_J_RF_hipassemblyCOM,
    fr_trunk_J_LH_hipassemblyCOM,
    fr_trunk_J_RH_hipassemblyCOM,
    fr_trunk_J_LF_upperlegCOM,
    fr_trunk_J_RF_upperlegCOM,
    fr_trunk_J_LH_upperlegCOM,
    fr_trunk_J_RH_upperlegCOM,
    fr_trunk_J_LF_lowerlegCOM,
    fr_trunk_J_RF_lowerlegCOM,
    fr_trunk_J_LH_lowerlegCOM,
    fr_trunk_J_RH_lowerlegCOM,
    fr_trunk_J_fr_LF_foot,
    fr_trunk_J_fr_RF_foot,
    fr_trunk_J_fr_LH_foot,
    fr_trunk_J_fr_RH_foot]

end CT.Robots.HyQ.Kin
