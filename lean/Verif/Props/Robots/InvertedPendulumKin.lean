import Verif.Props.Robots.InvertedPendulumMount

/-! # InvertedPendulum: transforms (written by `tools/gen_kin.py`) -/

namespace CT.Robots.InvertedPendulum.Kin

open CT.GenKin

theorem g_fr_InvertedPendulumBase_X_fr_Link1 : Good mountList fr_InvertedPendulumBase fr_Link1 fr_InvertedPendulumBase_X_fr_Link1.tri :=
  (mount_fr_Link1).congr [0] (by decide +kernel)

theorem o_fr_InvertedPendulumBase_X_fr_Link1 : fr_InvertedPendulumBase_X_fr_Link1.ok [0] = true := by decide +kernel

theorem g_fr_InvertedPendulumBase_X_fr_ee : Good mountList fr_InvertedPendulumBase fr_ee fr_InvertedPendulumBase_X_fr_ee.tri :=
  ((g_fr_InvertedPendulumBase_X_fr_Link1).comp wf_ok mount_fr_ee).congr [0] (by decide +kernel)

theorem o_fr_InvertedPendulumBase_X_fr_ee : fr_InvertedPendulumBase_X_fr_ee.ok [0] = true := by decide +kernel

theorem g_fr_Link1_X_fr_InvertedPendulumBase : Good mountList fr_Link1 fr_InvertedPendulumBase fr_Link1_X_fr_InvertedPendulumBase.tri :=
  ((mount_fr_Link1).inv wf_ok).congr [0] (by decide +kernel)

theorem o_fr_Link1_X_fr_InvertedPendulumBase : fr_Link1_X_fr_InvertedPendulumBase.ok [0] = true := by decide +kernel

theorem g_fr_ee_X_fr_InvertedPendulumBase : Good mountList fr_ee fr_InvertedPendulumBase fr_ee_X_fr_InvertedPendulumBase.tri :=
  (((mount_fr_ee).inv wf_ok).comp wf_ok g_fr_Link1_X_fr_InvertedPendulumBase).congr [0] (by decide +kernel)

theorem o_fr_ee_X_fr_InvertedPendulumBase : fr_ee_X_fr_InvertedPendulumBase.ok [0] = true := by decide +kernel

theorem g_fr_InvertedPendulumBase_X_fr_Joint1 : Good mountList fr_InvertedPendulumBase fr_Joint1 fr_InvertedPendulumBase_X_fr_Joint1.tri :=
  (mount_fr_Joint1).congr [] (by decide +kernel)

theorem o_fr_InvertedPendulumBase_X_fr_Joint1 : fr_InvertedPendulumBase_X_fr_Joint1.ok [] = true := by decide +kernel

end CT.Robots.InvertedPendulum.Kin
