import Verif.Props.Robots.DoubleInvertedPendulumMount

/-! # DoubleInvertedPendulum: transforms (written by `tools/gen_kin.py`) -/

namespace CT.Robots.DoubleInvertedPendulum.Kin

open CT.GenKin

theorem g_fr_DoubleInvertedPendulumBase_X_fr_Link1 : Good mountList fr_DoubleInvertedPendulumBase fr_Link1 fr_DoubleInvertedPendulumBase_X_fr_Link1.tri :=
  (mount_fr_Link1).congr [0] (by decide +kernel)

theorem o_fr_DoubleInvertedPendulumBase_X_fr_Link1 : fr_DoubleInvertedPendulumBase_X_fr_Link1.ok [0] = true := by decide +kernel

theorem g_fr_DoubleInvertedPendulumBase_X_fr_Link2 : Good mountList fr_DoubleInvertedPendulumBase fr_Link2 fr_DoubleInvertedPendulumBase_X_fr_Link2.tri :=
  ((g_fr_DoubleInvertedPendulumBase_X_fr_Link1).comp wf_ok mount_fr_Link2).congr [0, 1] (by decide +kernel)

theorem o_fr_DoubleInvertedPendulumBase_X_fr_Link2 : fr_DoubleInvertedPendulumBase_X_fr_Link2.ok [0, 1] = true := by decide +kernel

theorem g_fr_DoubleInvertedPendulumBase_X_fr_ee : Good mountList fr_DoubleInvertedPendulumBase fr_ee fr_DoubleInvertedPendulumBase_X_fr_ee.tri :=
  ((g_fr_DoubleInvertedPendulumBase_X_fr_Link2).comp wf_ok mount_fr_ee).congr [0, 1] (by decide +kernel)

theorem o_fr_DoubleInvertedPendulumBase_X_fr_ee : fr_DoubleInvertedPendulumBase_X_fr_ee.ok [0, 1] = true := by decide +kernel

theorem g_fr_Link1_X_fr_DoubleInvertedPendulumBase : Good mountList fr_Link1 fr_DoubleInvertedPendulumBase fr_Link1_X_fr_DoubleInvertedPendulumBase.tri :=
  ((mount_fr_Link1).inv wf_ok).congr [0] (by decide +kernel)

theorem o_fr_Link1_X_fr_DoubleInvertedPendulumBase : fr_Link1_X_fr_DoubleInvertedPendulumBase.ok [0] = true := by decide +kernel

theorem g_fr_DoubleInvertedPendulumBase_X_fr_Joint1 : Good mountList fr_DoubleInvertedPendulumBase fr_Joint1 fr_DoubleInvertedPendulumBase_X_fr_Joint1.tri :=
  (mount_fr_Joint1).congr [] (by decide +kernel)

theorem o_fr_DoubleInvertedPendulumBase_X_fr_Joint1 : fr_DoubleInvertedPendulumBase_X_fr_Joint1.ok [] = true := by decide +kernel

theorem g_fr_DoubleInvertedPendulumBase_X_fr_Joint2 : Good mountList fr_DoubleInvertedPendulumBase fr_Joint2 fr_DoubleInvertedPendulumBase_X_fr_Joint2.tri :=
  ((g_fr_DoubleInvertedPendulumBase_X_fr_Link1).comp wf_ok mount_fr_Joint2).congr [0] (by decide +kernel)

theorem o_fr_DoubleInvertedPendulumBase_X_fr_Joint2 : fr_DoubleInvertedPendulumBase_X_fr_Joint2.ok [0] = true := by decide +kernel

theorem g_fr_Link2_X_fr_Link1 : Good mountList fr_Link2 fr_Link1 fr_Link2_X_fr_Link1.tri :=
  ((mount_fr_Link2).inv wf_ok).congr [1] (by decide +kernel)

theorem o_fr_Link2_X_fr_Link1 : fr_Link2_X_fr_Link1.ok [1] = true := by decide +kernel

theorem g_fr_Link1_X_fr_Link2 : Good mountList fr_Link1 fr_Link2 fr_Link1_X_fr_Link2.tri :=
  (mount_fr_Link2).congr [1] (by decide +kernel)

theorem o_fr_Link1_X_fr_Link2 : fr_Link1_X_fr_Link2.ok [1] = true := by decide +kernel

theorem g_fr_Link2_X_fr_DoubleInvertedPendulumBase : Good mountList fr_Link2 fr_DoubleInvertedPendulumBase fr_Link2_X_fr_DoubleInvertedPendulumBase.tri :=
  (((mount_fr_Link2).inv wf_ok).comp wf_ok g_fr_Link1_X_fr_DoubleInvertedPendulumBase).congr [0, 1] (by decide +kernel)

theorem o_fr_Link2_X_fr_DoubleInvertedPendulumBase : fr_Link2_X_fr_DoubleInvertedPendulumBase.ok [0, 1] = true := by decide +kernel

theorem g_fr_ee_X_fr_DoubleInvertedPendulumBase : Good mountList fr_ee fr_DoubleInvertedPendulumBase fr_ee_X_fr_DoubleInvertedPendulumBase.tri :=
  (((mount_fr_ee).inv wf_ok).comp wf_ok g_fr_Link2_X_fr_DoubleInvertedPendulumBase).congr [0, 1] (by decide +kernel)

theorem o_fr_ee_X_fr_DoubleInvertedPendulumBase : fr_ee_X_fr_DoubleInvertedPendulumBase.ok [0, 1] = true := by decide +kernel

end CT.Robots.DoubleInvertedPendulum.Kin
