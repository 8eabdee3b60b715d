import Verif.Model.Lookup
import Verif.Model.Robots.InvertedPendulumKin
import Verif.Model.Robots.DoubleInvertedPendulumKin
import Verif.Model.Robots.HyAKin
import Verif.Model.Robots.QuadrotorWithLoadKin
import Verif.Model.Robots.HyQKin

/-!
# The macros of the robots

Written by `tools/gen_lookup.py`.  The line numbers are those of `ct_models/include/ct/models/<robot>/<robot>.h`.
-/


namespace CT.Robots.InvertedPendulum.Kin

/-- The macros of the InvertedPendulum (InvertedPendulum.h:26-34). -/
def defs : Lookup.Defs where
  njoints := 1
  links := [(fr_InvertedPendulumBase_X_fr_Link1, fr_Link1_X_fr_InvertedPendulumBase)]
  ees := [⟨fr_InvertedPendulumBase_X_fr_ee, fr_InvertedPendulumBase_J_fr_ee, 1, 0, 0⟩]

end CT.Robots.InvertedPendulum.Kin

namespace CT.Robots.DoubleInvertedPendulum.Kin

/-- The macros of the DoubleInvertedPendulum (DoubleInvertedPendulum.h:26-35). -/
def defs : Lookup.Defs where
  njoints := 2
  links := [(fr_DoubleInvertedPendulumBase_X_fr_Link1, fr_Link1_X_fr_DoubleInvertedPendulumBase),
    (fr_DoubleInvertedPendulumBase_X_fr_Link2, fr_Link2_X_fr_DoubleInvertedPendulumBase)]
  ees := [⟨fr_DoubleInvertedPendulumBase_X_fr_ee, fr_DoubleInvertedPendulumBase_J_fr_ee, 2, 0, 1⟩]

end CT.Robots.DoubleInvertedPendulum.Kin

namespace CT.Robots.HyA.Kin

/-- The macros of the HyA (HyA.h:26-39). -/
def defs : Lookup.Defs where
  njoints := 6
  links := [(fr_HyABase_X_fr_Shoulder_AA, fr_Shoulder_AA_X_fr_HyABase),
    (fr_HyABase_X_fr_Shoulder_FE, fr_Shoulder_FE_X_fr_HyABase),
    (fr_HyABase_X_fr_Humerus_R, fr_Humerus_R_X_fr_HyABase),
    (fr_HyABase_X_fr_Elbow_FE, fr_Elbow_FE_X_fr_HyABase),
    (fr_HyABase_X_fr_Wrist_R, fr_Wrist_R_X_fr_HyABase),
    (fr_HyABase_X_fr_Wrist_FE, fr_Wrist_FE_X_fr_HyABase)]
  ees := [⟨fr_HyABase_X_fr_ee, fr_HyABase_J_fr_ee, 6, 0, 5⟩]

end CT.Robots.HyA.Kin

namespace CT.Robots.QuadrotorWithLoad.Kin

/-- The macros of the QuadrotorWithLoad (QuadrotorWithLoad.h:26-35).  There are no transforms
`fr_body_X_link1` and so on with the names defined for the links: the look-up of links of this robot does not compile
when it is used, and it has no links here; nothing is claimed about it. -/
def defs : Lookup.Defs where
  njoints := 2
  links := []
  ees := [⟨fr_body_X_fr_ee, fr_body_J_fr_ee, 1, 0, 1⟩]

end CT.Robots.QuadrotorWithLoad.Kin

namespace CT.Robots.HyQ.Kin

/-- The macros of the HyQ (HyQ.h:30-67). -/
def defs : Lookup.Defs where
  njoints := 12
  links := [(fr_trunk_X_fr_LF_hipassembly, fr_LF_hipassembly_X_fr_trunk),
    (fr_trunk_X_fr_LF_upperleg, fr_LF_upperleg_X_fr_trunk),
    (fr_trunk_X_fr_LF_lowerleg, fr_LF_lowerleg_X_fr_trunk),
    (fr_trunk_X_fr_RF_hipassembly, fr_RF_hipassembly_X_fr_trunk),
    (fr_trunk_X_fr_RF_upperleg, fr_RF_upperleg_X_fr_trunk),
    (fr_trunk_X_fr_RF_lowerleg, fr_RF_lowerleg_X_fr_trunk),
    (fr_trunk_X_fr_LH_hipassembly, fr_LH_hipassembly_X_fr_trunk),
    (fr_trunk_X_fr_LH_upperleg, fr_LH_upperleg_X_fr_trunk),
    (fr_trunk_X_fr_LH_lowerleg, fr_LH_lowerleg_X_fr_trunk),
    (fr_trunk_X_fr_RH_hipassembly, fr_RH_hipassembly_X_fr_trunk),
    (fr_trunk_X_fr_RH_upperleg, fr_RH_upperleg_X_fr_trunk),
    (fr_trunk_X_fr_RH_lowerleg, fr_RH_lowerleg_X_fr_trunk)]
  ees := [⟨fr_trunk_X_fr_LF_foot, fr_trunk_J_fr_LF_foot, 3, 0, 2⟩,
    ⟨fr_trunk_X_fr_RF_foot, fr_trunk_J_fr_RF_foot, 6, 3, 5⟩,
    ⟨fr_trunk_X_fr_LH_foot, fr_trunk_J_fr_LH_foot, 9, 6, 8⟩,
    ⟨fr_trunk_X_fr_RH_foot, fr_trunk_J_fr_RH_foot, 12, 9, 11⟩]

end CT.Robots.HyQ.Kin
