import Verif.Props.Robots.QuadrotorWithLoadMount

/-! # QuadrotorWithLoad: transforms (written by `tools/gen_kin.py`) -/

namespace CT.Robots.QuadrotorWithLoad.Kin

open CT.GenKin

theorem g_fr_body_X_fr_link1 : Good mountList fr_body fr_link1 fr_body_X_fr_link1.tri :=
  (mount_fr_link1).congr [0] (by decide +kernel)

theorem o_fr_body_X_fr_link1 : fr_body_X_fr_link1.ok [0] = true := by decide +kernel

theorem g_fr_body_X_fr_link2 : Good mountList fr_body fr_link2 fr_body_X_fr_link2.tri :=
  ((g_fr_body_X_fr_link1).comp wf_ok mount_fr_link2).congr [0, 1] (by decide +kernel)

theorem o_fr_body_X_fr_link2 : fr_body_X_fr_link2.ok [0, 1] = true := by decide +kernel

theorem g_fr_body_X_fr_ee : Good mountList fr_body fr_ee fr_body_X_fr_ee.tri :=
  ((g_fr_body_X_fr_link2).comp wf_ok mount_fr_ee).congr [0, 1] (by decide +kernel)

theorem o_fr_body_X_fr_ee : fr_body_X_fr_ee.ok [0, 1] = true := by decide +kernel

theorem g_fr_body_X_fr_com0 : Good mountList fr_body fr_com0 fr_body_X_fr_com0.tri :=
  (mount_fr_com0).congr [] (by decide +kernel)

theorem o_fr_body_X_fr_com0 : fr_body_X_fr_com0.ok [] = true := by decide +kernel

theorem g_fr_body_X_fr_com1 : Good mountList fr_body fr_com1 fr_body_X_fr_com1.tri :=
  ((g_fr_body_X_fr_link1).comp wf_ok mount_fr_com1).congr [0] (by decide +kernel)

theorem o_fr_body_X_fr_com1 : fr_body_X_fr_com1.ok [0] = true := by decide +kernel

theorem g_fr_link1_X_fr_body : Good mountList fr_link1 fr_body fr_link1_X_fr_body.tri :=
  ((mount_fr_link1).inv wf_ok).congr [0] (by decide +kernel)

theorem o_fr_link1_X_fr_body : fr_link1_X_fr_body.ok [0] = true := by decide +kernel

theorem g_fr_link2_X_fr_body : Good mountList fr_link2 fr_body fr_link2_X_fr_body.tri :=
  (((mount_fr_link2).inv wf_ok).comp wf_ok g_fr_link1_X_fr_body).congr [0, 1] (by decide +kernel)

theorem o_fr_link2_X_fr_body : fr_link2_X_fr_body.ok [0, 1] = true := by decide +kernel

theorem g_fr_ee_X_fr_body : Good mountList fr_ee fr_body fr_ee_X_fr_body.tri :=
  (((mount_fr_ee).inv wf_ok).comp wf_ok g_fr_link2_X_fr_body).congr [0, 1] (by decide +kernel)

theorem o_fr_ee_X_fr_body : fr_ee_X_fr_body.ok [0, 1] = true := by decide +kernel

theorem g_fr_com0_X_fr_body : Good mountList fr_com0 fr_body fr_com0_X_fr_body.tri :=
  ((mount_fr_com0).inv wf_ok).congr [] (by decide +kernel)

theorem o_fr_com0_X_fr_body : fr_com0_X_fr_body.ok [] = true := by decide +kernel

theorem g_fr_com1_X_fr_body : Good mountList fr_com1 fr_body fr_com1_X_fr_body.tri :=
  (((mount_fr_com1).inv wf_ok).comp wf_ok g_fr_link1_X_fr_body).congr [0] (by decide +kernel)

theorem o_fr_com1_X_fr_body : fr_com1_X_fr_body.ok [0] = true := by decide +kernel

theorem g_fr_body_X_fr_jA : Good mountList fr_body fr_jA fr_body_X_fr_jA.tri :=
  (mount_fr_jA).congr [] (by decide +kernel)

theorem o_fr_body_X_fr_jA : fr_body_X_fr_jA.ok [] = true := by decide +kernel

theorem g_fr_body_X_fr_jB : Good mountList fr_body fr_jB fr_body_X_fr_jB.tri :=
  ((g_fr_body_X_fr_link1).comp wf_ok mount_fr_jB).congr [0] (by decide +kernel)

theorem o_fr_body_X_fr_jB : fr_body_X_fr_jB.ok [0] = true := by decide +kernel

theorem g_fr_link2_X_fr_link1 : Good mountList fr_link2 fr_link1 fr_link2_X_fr_link1.tri :=
  ((mount_fr_link2).inv wf_ok).congr [1] (by decide +kernel)

theorem o_fr_link2_X_fr_link1 : fr_link2_X_fr_link1.ok [1] = true := by decide +kernel

theorem g_fr_link1_X_fr_link2 : Good mountList fr_link1 fr_link2 fr_link1_X_fr_link2.tri :=
  (mount_fr_link2).congr [1] (by decide +kernel)

theorem o_fr_link1_X_fr_link2 : fr_link1_X_fr_link2.ok [1] = true := by decide +kernel

end CT.Robots.QuadrotorWithLoad.Kin
