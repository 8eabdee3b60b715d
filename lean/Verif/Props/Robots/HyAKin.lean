import Verif.Props.Robots.HyAMount

/-! # HyA: transforms (written by `tools/gen_kin.py`) -/

namespace CT.Robots.HyA.Kin

open CT.GenKin

theorem g_fr_HyABase_X_fr_Shoulder_AA : Good mountList fr_HyABase fr_Shoulder_AA fr_HyABase_X_fr_Shoulder_AA.tri :=
  (mount_fr_Shoulder_AA).congr [0] (by decide +kernel)

theorem o_fr_HyABase_X_fr_Shoulder_AA : fr_HyABase_X_fr_Shoulder_AA.ok [0] = true := by decide +kernel

theorem g_fr_HyABase_X_fr_Shoulder_FE : Good mountList fr_HyABase fr_Shoulder_FE fr_HyABase_X_fr_Shoulder_FE.tri :=
  ((g_fr_HyABase_X_fr_Shoulder_AA).comp wf_ok mount_fr_Shoulder_FE).congr [0, 1] (by decide +kernel)

theorem o_fr_HyABase_X_fr_Shoulder_FE : fr_HyABase_X_fr_Shoulder_FE.ok [0, 1] = true := by decide +kernel

theorem g_fr_HyABase_X_fr_Humerus_R : Good mountList fr_HyABase fr_Humerus_R fr_HyABase_X_fr_Humerus_R.tri :=
  ((g_fr_HyABase_X_fr_Shoulder_FE).comp wf_ok mount_fr_Humerus_R).congr [0, 1, 2] (by decide +kernel)

theorem o_fr_HyABase_X_fr_Humerus_R : fr_HyABase_X_fr_Humerus_R.ok [0, 1, 2] = true := by decide +kernel

theorem g_fr_HyABase_X_fr_Elbow_FE : Good mountList fr_HyABase fr_Elbow_FE fr_HyABase_X_fr_Elbow_FE.tri :=
  ((g_fr_HyABase_X_fr_Humerus_R).comp wf_ok mount_fr_Elbow_FE).congr [0, 1, 2, 3] (by decide +kernel)

theorem o_fr_HyABase_X_fr_Elbow_FE : fr_HyABase_X_fr_Elbow_FE.ok [0, 1, 2, 3] = true := by decide +kernel

theorem g_fr_HyABase_X_fr_Wrist_R : Good mountList fr_HyABase fr_Wrist_R fr_HyABase_X_fr_Wrist_R.tri :=
  ((g_fr_HyABase_X_fr_Elbow_FE).comp wf_ok mount_fr_Wrist_R).congr [0, 1, 2, 3, 4] (by decide +kernel)

theorem o_fr_HyABase_X_fr_Wrist_R : fr_HyABase_X_fr_Wrist_R.ok [0, 1, 2, 3, 4] = true := by decide +kernel

theorem g_fr_HyABase_X_fr_Wrist_FE : Good mountList fr_HyABase fr_Wrist_FE fr_HyABase_X_fr_Wrist_FE.tri :=
  ((g_fr_HyABase_X_fr_Wrist_R).comp wf_ok mount_fr_Wrist_FE).congr [0, 1, 2, 3, 4, 5] (by decide +kernel)

theorem o_fr_HyABase_X_fr_Wrist_FE : fr_HyABase_X_fr_Wrist_FE.ok [0, 1, 2, 3, 4, 5] = true := by decide +kernel

theorem g_fr_HyABase_X_fr_ee : Good mountList fr_HyABase fr_ee fr_HyABase_X_fr_ee.tri :=
  ((g_fr_HyABase_X_fr_Wrist_FE).comp wf_ok mount_fr_ee).congr [0, 1, 2, 3, 4, 5] (by decide +kernel)

theorem o_fr_HyABase_X_fr_ee : fr_HyABase_X_fr_ee.ok [0, 1, 2, 3, 4, 5] = true := by decide +kernel

theorem g_fr_HyABase_X_fr_Shoulder_AA_COM : Good mountList fr_HyABase fr_Shoulder_AA_COM fr_HyABase_X_fr_Shoulder_AA_COM.tri :=
  ((g_fr_HyABase_X_fr_Shoulder_AA).comp wf_ok mount_fr_Shoulder_AA_COM).congr [0] (by decide +kernel)

theorem o_fr_HyABase_X_fr_Shoulder_AA_COM : fr_HyABase_X_fr_Shoulder_AA_COM.ok [0] = true := by decide +kernel

theorem g_fr_HyABase_X_fr_Shoulder_FE_COM : Good mountList fr_HyABase fr_Shoulder_FE_COM fr_HyABase_X_fr_Shoulder_FE_COM.tri :=
  ((g_fr_HyABase_X_fr_Shoulder_FE).comp wf_ok mount_fr_Shoulder_FE_COM).congr [0, 1] (by decide +kernel)

theorem o_fr_HyABase_X_fr_Shoulder_FE_COM : fr_HyABase_X_fr_Shoulder_FE_COM.ok [0, 1] = true := by decide +kernel

theorem g_fr_HyABase_X_fr_Humerus_R_COM : Good mountList fr_HyABase fr_Humerus_R_COM fr_HyABase_X_fr_Humerus_R_COM.tri :=
  ((g_fr_HyABase_X_fr_Humerus_R).comp wf_ok mount_fr_Humerus_R_COM).congr [0, 1, 2] (by decide +kernel)

theorem o_fr_HyABase_X_fr_Humerus_R_COM : fr_HyABase_X_fr_Humerus_R_COM.ok [0, 1, 2] = true := by decide +kernel

theorem g_fr_HyABase_X_fr_Elbow_FE_COM : Good mountList fr_HyABase fr_Elbow_FE_COM fr_HyABase_X_fr_Elbow_FE_COM.tri :=
  ((g_fr_HyABase_X_fr_Elbow_FE).comp wf_ok mount_fr_Elbow_FE_COM).congr [0, 1, 2, 3] (by decide +kernel)

theorem o_fr_HyABase_X_fr_Elbow_FE_COM : fr_HyABase_X_fr_Elbow_FE_COM.ok [0, 1, 2, 3] = true := by decide +kernel

theorem g_fr_HyABase_X_fr_Wrist_R_COM : Good mountList fr_HyABase fr_Wrist_R_COM fr_HyABase_X_fr_Wrist_R_COM.tri :=
  ((g_fr_HyABase_X_fr_Wrist_R).comp wf_ok mount_fr_Wrist_R_COM).congr [0, 1, 2, 3, 4] (by decide +kernel)

theorem o_fr_HyABase_X_fr_Wrist_R_COM : fr_HyABase_X_fr_Wrist_R_COM.ok [0, 1, 2, 3, 4] = true := by decide +kernel

theorem g_fr_HyABase_X_fr_Wrist_FE_COM : Good mountList fr_HyABase fr_Wrist_FE_COM fr_HyABase_X_fr_Wrist_FE_COM.tri :=
  ((g_fr_HyABase_X_fr_Wrist_FE).comp wf_ok mount_fr_Wrist_FE_COM).congr [0, 1, 2, 3, 4, 5] (by decide +kernel)

theorem o_fr_HyABase_X_fr_Wrist_FE_COM : fr_HyABase_X_fr_Wrist_FE_COM.ok [0, 1, 2, 3, 4, 5] = true := by decide +kernel

theorem g_fr_HyABase_X_fr_Shoulder_AA_CTR : Good mountList fr_HyABase fr_Shoulder_AA_CTR fr_HyABase_X_fr_Shoulder_AA_CTR.tri :=
  ((g_fr_HyABase_X_fr_Shoulder_AA).comp wf_ok mount_fr_Shoulder_AA_CTR).congr [0] (by decide +kernel)

theorem o_fr_HyABase_X_fr_Shoulder_AA_CTR : fr_HyABase_X_fr_Shoulder_AA_CTR.ok [0] = true := by decide +kernel

theorem g_fr_HyABase_X_fr_Shoulder_FE_CTR : Good mountList fr_HyABase fr_Shoulder_FE_CTR fr_HyABase_X_fr_Shoulder_FE_CTR.tri :=
  ((g_fr_HyABase_X_fr_Shoulder_FE).comp wf_ok mount_fr_Shoulder_FE_CTR).congr [0, 1] (by decide +kernel)

theorem o_fr_HyABase_X_fr_Shoulder_FE_CTR : fr_HyABase_X_fr_Shoulder_FE_CTR.ok [0, 1] = true := by decide +kernel

theorem g_fr_HyABase_X_fr_Humerus_R_CTR : Good mountList fr_HyABase fr_Humerus_R_CTR fr_HyABase_X_fr_Humerus_R_CTR.tri :=
  ((g_fr_HyABase_X_fr_Humerus_R).comp wf_ok mount_fr_Humerus_R_CTR).congr [0, 1, 2] (by decide +kernel)

theorem o_fr_HyABase_X_fr_Humerus_R_CTR : fr_HyABase_X_fr_Humerus_R_CTR.ok [0, 1, 2] = true := by decide +kernel

theorem g_fr_HyABase_X_fr_Elbow_FE_CTR : Good mountList fr_HyABase fr_Elbow_FE_CTR fr_HyABase_X_fr_Elbow_FE_CTR.tri :=
  ((g_fr_HyABase_X_fr_Elbow_FE).comp wf_ok mount_fr_Elbow_FE_CTR).congr [0, 1, 2, 3] (by decide +kernel)

theorem o_fr_HyABase_X_fr_Elbow_FE_CTR : fr_HyABase_X_fr_Elbow_FE_CTR.ok [0, 1, 2, 3] = true := by decide +kernel

theorem g_fr_HyABase_X_fr_Wrist_R_CTR : Good mountList fr_HyABase fr_Wrist_R_CTR fr_HyABase_X_fr_Wrist_R_CTR.tri :=
  ((g_fr_HyABase_X_fr_Wrist_R).comp wf_ok mount_fr_Wrist_R_CTR).congr [0, 1, 2, 3, 4] (by decide +kernel)

theorem o_fr_HyABase_X_fr_Wrist_R_CTR : fr_HyABase_X_fr_Wrist_R_CTR.ok [0, 1, 2, 3, 4] = true := by decide +kernel

theorem g_fr_Wrist_R_X_fr_Wrist_FE : Good mountList fr_Wrist_R fr_Wrist_FE fr_Wrist_R_X_fr_Wrist_FE.tri :=
  (mount_fr_Wrist_FE).congr [5] (by decide +kernel)

theorem o_fr_Wrist_R_X_fr_Wrist_FE : fr_Wrist_R_X_fr_Wrist_FE.ok [5] = true := by decide +kernel

theorem g_fr_Wrist_R_X_fr_ee : Good mountList fr_Wrist_R fr_ee fr_Wrist_R_X_fr_ee.tri :=
  ((g_fr_Wrist_R_X_fr_Wrist_FE).comp wf_ok mount_fr_ee).congr [5] (by decide +kernel)

theorem o_fr_Wrist_R_X_fr_ee : fr_Wrist_R_X_fr_ee.ok [5] = true := by decide +kernel

theorem g_fr_Wrist_FE_X_fr_ee : Good mountList fr_Wrist_FE fr_ee fr_Wrist_FE_X_fr_ee.tri :=
  (mount_fr_ee).congr [] (by decide +kernel)

theorem o_fr_Wrist_FE_X_fr_ee : fr_Wrist_FE_X_fr_ee.ok [] = true := by decide +kernel

theorem g_fr_Shoulder_AA_X_fr_HyABase : Good mountList fr_Shoulder_AA fr_HyABase fr_Shoulder_AA_X_fr_HyABase.tri :=
  ((mount_fr_Shoulder_AA).inv wf_ok).congr [0] (by decide +kernel)

theorem o_fr_Shoulder_AA_X_fr_HyABase : fr_Shoulder_AA_X_fr_HyABase.ok [0] = true := by decide +kernel

theorem g_fr_Shoulder_FE_X_fr_HyABase : Good mountList fr_Shoulder_FE fr_HyABase fr_Shoulder_FE_X_fr_HyABase.tri :=
  (((mount_fr_Shoulder_FE).inv wf_ok).comp wf_ok g_fr_Shoulder_AA_X_fr_HyABase).congr [0, 1] (by decide +kernel)

theorem o_fr_Shoulder_FE_X_fr_HyABase : fr_Shoulder_FE_X_fr_HyABase.ok [0, 1] = true := by decide +kernel

theorem g_fr_Humerus_R_X_fr_HyABase : Good mountList fr_Humerus_R fr_HyABase fr_Humerus_R_X_fr_HyABase.tri :=
  (((mount_fr_Humerus_R).inv wf_ok).comp wf_ok g_fr_Shoulder_FE_X_fr_HyABase).congr [0, 1, 2] (by decide +kernel)

theorem o_fr_Humerus_R_X_fr_HyABase : fr_Humerus_R_X_fr_HyABase.ok [0, 1, 2] = true := by decide +kernel

theorem g_fr_Elbow_FE_X_fr_HyABase : Good mountList fr_Elbow_FE fr_HyABase fr_Elbow_FE_X_fr_HyABase.tri :=
  (((mount_fr_Elbow_FE).inv wf_ok).comp wf_ok g_fr_Humerus_R_X_fr_HyABase).congr [0, 1, 2, 3] (by decide +kernel)

theorem o_fr_Elbow_FE_X_fr_HyABase : fr_Elbow_FE_X_fr_HyABase.ok [0, 1, 2, 3] = true := by decide +kernel

theorem g_fr_Wrist_R_X_fr_HyABase : Good mountList fr_Wrist_R fr_HyABase fr_Wrist_R_X_fr_HyABase.tri :=
  (((mount_fr_Wrist_R).inv wf_ok).comp wf_ok g_fr_Elbow_FE_X_fr_HyABase).congr [0, 1, 2, 3, 4] (by decide +kernel)

theorem o_fr_Wrist_R_X_fr_HyABase : fr_Wrist_R_X_fr_HyABase.ok [0, 1, 2, 3, 4] = true := by decide +kernel

theorem g_fr_Wrist_FE_X_fr_HyABase : Good mountList fr_Wrist_FE fr_HyABase fr_Wrist_FE_X_fr_HyABase.tri :=
  (((mount_fr_Wrist_FE).inv wf_ok).comp wf_ok g_fr_Wrist_R_X_fr_HyABase).congr [0, 1, 2, 3, 4, 5] (by decide +kernel)

theorem o_fr_Wrist_FE_X_fr_HyABase : fr_Wrist_FE_X_fr_HyABase.ok [0, 1, 2, 3, 4, 5] = true := by decide +kernel

theorem g_fr_ee_X_fr_HyABase : Good mountList fr_ee fr_HyABase fr_ee_X_fr_HyABase.tri :=
  (((mount_fr_ee).inv wf_ok).comp wf_ok g_fr_Wrist_FE_X_fr_HyABase).congr [0, 1, 2, 3, 4, 5] (by decide +kernel)

theorem o_fr_ee_X_fr_HyABase : fr_ee_X_fr_HyABase.ok [0, 1, 2, 3, 4, 5] = true := by decide +kernel

theorem g_fr_HyABase_X_fr_SAA : Good mountList fr_HyABase fr_SAA fr_HyABase_X_fr_SAA.tri :=
  (mount_fr_SAA).congr [] (by decide +kernel)

theorem o_fr_HyABase_X_fr_SAA : fr_HyABase_X_fr_SAA.ok [] = true := by decide +kernel

theorem g_fr_HyABase_X_fr_SFE : Good mountList fr_HyABase fr_SFE fr_HyABase_X_fr_SFE.tri :=
  ((g_fr_HyABase_X_fr_Shoulder_AA).comp wf_ok mount_fr_SFE).congr [0] (by decide +kernel)

theorem o_fr_HyABase_X_fr_SFE : fr_HyABase_X_fr_SFE.ok [0] = true := by decide +kernel

theorem g_fr_HyABase_X_fr_HR : Good mountList fr_HyABase fr_HR fr_HyABase_X_fr_HR.tri :=
  ((g_fr_HyABase_X_fr_Shoulder_FE).comp wf_ok mount_fr_HR).congr [0, 1] (by decide +kernel)

theorem o_fr_HyABase_X_fr_HR : fr_HyABase_X_fr_HR.ok [0, 1] = true := by decide +kernel

theorem g_fr_HyABase_X_fr_EFE : Good mountList fr_HyABase fr_EFE fr_HyABase_X_fr_EFE.tri :=
  ((g_fr_HyABase_X_fr_Humerus_R).comp wf_ok mount_fr_EFE).congr [0, 1, 2] (by decide +kernel)

theorem o_fr_HyABase_X_fr_EFE : fr_HyABase_X_fr_EFE.ok [0, 1, 2] = true := by decide +kernel

theorem g_fr_HyABase_X_fr_WR : Good mountList fr_HyABase fr_WR fr_HyABase_X_fr_WR.tri :=
  ((g_fr_HyABase_X_fr_Elbow_FE).comp wf_ok mount_fr_WR).congr [0, 1, 2, 3] (by decide +kernel)

theorem o_fr_HyABase_X_fr_WR : fr_HyABase_X_fr_WR.ok [0, 1, 2, 3] = true := by decide +kernel

theorem g_fr_HyABase_X_fr_WFE : Good mountList fr_HyABase fr_WFE fr_HyABase_X_fr_WFE.tri :=
  ((g_fr_HyABase_X_fr_Wrist_R).comp wf_ok mount_fr_WFE).congr [0, 1, 2, 3, 4] (by decide +kernel)

theorem o_fr_HyABase_X_fr_WFE : fr_HyABase_X_fr_WFE.ok [0, 1, 2, 3, 4] = true := by decide +kernel

theorem g_fr_Shoulder_FE_X_fr_Shoulder_AA : Good mountList fr_Shoulder_FE fr_Shoulder_AA fr_Shoulder_FE_X_fr_Shoulder_AA.tri :=
  ((mount_fr_Shoulder_FE).inv wf_ok).congr [1] (by decide +kernel)

theorem o_fr_Shoulder_FE_X_fr_Shoulder_AA : fr_Shoulder_FE_X_fr_Shoulder_AA.ok [1] = true := by decide +kernel

theorem g_fr_Shoulder_AA_X_fr_Shoulder_FE : Good mountList fr_Shoulder_AA fr_Shoulder_FE fr_Shoulder_AA_X_fr_Shoulder_FE.tri :=
  (mount_fr_Shoulder_FE).congr [1] (by decide +kernel)

theorem o_fr_Shoulder_AA_X_fr_Shoulder_FE : fr_Shoulder_AA_X_fr_Shoulder_FE.ok [1] = true := by decide +kernel

theorem g_fr_Humerus_R_X_fr_Shoulder_FE : Good mountList fr_Humerus_R fr_Shoulder_FE fr_Humerus_R_X_fr_Shoulder_FE.tri :=
  ((mount_fr_Humerus_R).inv wf_ok).congr [2] (by decide +kernel)

theorem o_fr_Humerus_R_X_fr_Shoulder_FE : fr_Humerus_R_X_fr_Shoulder_FE.ok [2] = true := by decide +kernel

theorem g_fr_Shoulder_FE_X_fr_Humerus_R : Good mountList fr_Shoulder_FE fr_Humerus_R fr_Shoulder_FE_X_fr_Humerus_R.tri :=
  (mount_fr_Humerus_R).congr [2] (by decide +kernel)

theorem o_fr_Shoulder_FE_X_fr_Humerus_R : fr_Shoulder_FE_X_fr_Humerus_R.ok [2] = true := by decide +kernel

theorem g_fr_Elbow_FE_X_fr_Humerus_R : Good mountList fr_Elbow_FE fr_Humerus_R fr_Elbow_FE_X_fr_Humerus_R.tri :=
  ((mount_fr_Elbow_FE).inv wf_ok).congr [3] (by decide +kernel)

theorem o_fr_Elbow_FE_X_fr_Humerus_R : fr_Elbow_FE_X_fr_Humerus_R.ok [3] = true := by decide +kernel

theorem g_fr_Humerus_R_X_fr_Elbow_FE : Good mountList fr_Humerus_R fr_Elbow_FE fr_Humerus_R_X_fr_Elbow_FE.tri :=
  (mount_fr_Elbow_FE).congr [3] (by decide +kernel)

theorem o_fr_Humerus_R_X_fr_Elbow_FE : fr_Humerus_R_X_fr_Elbow_FE.ok [3] = true := by decide +kernel

theorem g_fr_Wrist_R_X_fr_Elbow_FE : Good mountList fr_Wrist_R fr_Elbow_FE fr_Wrist_R_X_fr_Elbow_FE.tri :=
  ((mount_fr_Wrist_R).inv wf_ok).congr [4] (by decide +kernel)

theorem o_fr_Wrist_R_X_fr_Elbow_FE : fr_Wrist_R_X_fr_Elbow_FE.ok [4] = true := by decide +kernel

theorem g_fr_Elbow_FE_X_fr_Wrist_R : Good mountList fr_Elbow_FE fr_Wrist_R fr_Elbow_FE_X_fr_Wrist_R.tri :=
  (mount_fr_Wrist_R).congr [4] (by decide +kernel)

theorem o_fr_Elbow_FE_X_fr_Wrist_R : fr_Elbow_FE_X_fr_Wrist_R.ok [4] = true := by decide +kernel

theorem g_fr_Wrist_FE_X_fr_Wrist_R : Good mountList fr_Wrist_FE fr_Wrist_R fr_Wrist_FE_X_fr_Wrist_R.tri :=
  ((mount_fr_Wrist_FE).inv wf_ok).congr [5] (by decide +kernel)

theorem o_fr_Wrist_FE_X_fr_Wrist_R : fr_Wrist_FE_X_fr_Wrist_R.ok [5] = true := by decide +kernel

theorem g_fr_Elbow_FE_X_fr_Wrist_FE : Good mountList fr_Elbow_FE fr_Wrist_FE fr_Elbow_FE_X_fr_Wrist_FE.tri :=
  ((g_fr_Elbow_FE_X_fr_Wrist_R).comp wf_ok mount_fr_Wrist_FE).congr [4, 5] (by decide +kernel)

theorem o_fr_Elbow_FE_X_fr_Wrist_FE : fr_Elbow_FE_X_fr_Wrist_FE.ok [4, 5] = true := by decide +kernel

theorem g_fr_Elbow_FE_X_fr_ee : Good mountList fr_Elbow_FE fr_ee fr_Elbow_FE_X_fr_ee.tri :=
  ((g_fr_Elbow_FE_X_fr_Wrist_FE).comp wf_ok mount_fr_ee).congr [4, 5] (by decide +kernel)

theorem o_fr_Elbow_FE_X_fr_ee : fr_Elbow_FE_X_fr_ee.ok [4, 5] = true := by decide +kernel

theorem g_fr_Humerus_R_X_fr_Wrist_FE : Good mountList fr_Humerus_R fr_Wrist_FE fr_Humerus_R_X_fr_Wrist_FE.tri :=
  ((mount_fr_Elbow_FE).comp wf_ok g_fr_Elbow_FE_X_fr_Wrist_FE).congr [3, 4, 5] (by decide +kernel)

theorem o_fr_Humerus_R_X_fr_Wrist_FE : fr_Humerus_R_X_fr_Wrist_FE.ok [3, 4, 5] = true := by decide +kernel

theorem g_fr_Humerus_R_X_fr_ee : Good mountList fr_Humerus_R fr_ee fr_Humerus_R_X_fr_ee.tri :=
  ((g_fr_Humerus_R_X_fr_Wrist_FE).comp wf_ok mount_fr_ee).congr [3, 4, 5] (by decide +kernel)

theorem o_fr_Humerus_R_X_fr_ee : fr_Humerus_R_X_fr_ee.ok [3, 4, 5] = true := by decide +kernel

theorem g_fr_Shoulder_FE_X_fr_Wrist_FE : Good mountList fr_Shoulder_FE fr_Wrist_FE fr_Shoulder_FE_X_fr_Wrist_FE.tri :=
  ((mount_fr_Humerus_R).comp wf_ok g_fr_Humerus_R_X_fr_Wrist_FE).congr [2, 3, 4, 5] (by decide +kernel)

theorem o_fr_Shoulder_FE_X_fr_Wrist_FE : fr_Shoulder_FE_X_fr_Wrist_FE.ok [2, 3, 4, 5] = true := by decide +kernel

theorem g_fr_Shoulder_FE_X_fr_ee : Good mountList fr_Shoulder_FE fr_ee fr_Shoulder_FE_X_fr_ee.tri :=
  ((g_fr_Shoulder_FE_X_fr_Wrist_FE).comp wf_ok mount_fr_ee).congr [2, 3, 4, 5] (by decide +kernel)

theorem o_fr_Shoulder_FE_X_fr_ee : fr_Shoulder_FE_X_fr_ee.ok [2, 3, 4, 5] = true := by decide +kernel

theorem g_fr_Wrist_FE_X_fr_Shoulder_FE : Good mountList fr_Wrist_FE fr_Shoulder_FE fr_Wrist_FE_X_fr_Shoulder_FE.tri :=
  ((g_fr_Shoulder_FE_X_fr_Wrist_FE).inv wf_ok).congr [2, 3, 4, 5] (by decide +kernel)

theorem o_fr_Wrist_FE_X_fr_Shoulder_FE : fr_Wrist_FE_X_fr_Shoulder_FE.ok [2, 3, 4, 5] = true := by decide +kernel

end CT.Robots.HyA.Kin
