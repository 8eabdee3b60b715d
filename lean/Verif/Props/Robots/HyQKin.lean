import Verif.Props.Robots.HyQMount

/-! # HyQ: transforms (written by `tools/gen_kin.py`) -/

namespace CT.Robots.HyQ.Kin

open CT.GenKin

theorem g_fr_trunk_X_fr_LF_hipassembly : Good mountList fr_trunk fr_LF_hipassembly fr_trunk_X_fr_LF_hipassembly.tri :=
  (mount_fr_LF_hipassembly).congr [0] (by decide +kernel)

theorem o_fr_trunk_X_fr_LF_hipassembly : fr_trunk_X_fr_LF_hipassembly.ok [0] = true := by decide +kernel

theorem g_fr_trunk_X_fr_RF_hipassembly : Good mountList fr_trunk fr_RF_hipassembly fr_trunk_X_fr_RF_hipassembly.tri :=
  (mount_fr_RF_hipassembly).congr [3] (by decide +kernel)

theorem o_fr_trunk_X_fr_RF_hipassembly : fr_trunk_X_fr_RF_hipassembly.ok [3] = true := by decide +kernel

theorem g_fr_trunk_X_fr_LH_hipassembly : Good mountList fr_trunk fr_LH_hipassembly fr_trunk_X_fr_LH_hipassembly.tri :=
  (mount_fr_LH_hipassembly).congr [6] (by decide +kernel)

theorem o_fr_trunk_X_fr_LH_hipassembly : fr_trunk_X_fr_LH_hipassembly.ok [6] = true := by decide +kernel

theorem g_fr_trunk_X_fr_RH_hipassembly : Good mountList fr_trunk fr_RH_hipassembly fr_trunk_X_fr_RH_hipassembly.tri :=
  (mount_fr_RH_hipassembly).congr [9] (by decide +kernel)

theorem o_fr_trunk_X_fr_RH_hipassembly : fr_trunk_X_fr_RH_hipassembly.ok [9] = true := by decide +kernel

theorem g_fr_trunk_X_fr_LF_upperleg : Good mountList fr_trunk fr_LF_upperleg fr_trunk_X_fr_LF_upperleg.tri :=
  ((g_fr_trunk_X_fr_LF_hipassembly).comp wf_ok mount_fr_LF_upperleg).congr [0, 1] (by decide +kernel)

theorem o_fr_trunk_X_fr_LF_upperleg : fr_trunk_X_fr_LF_upperleg.ok [0, 1] = true := by decide +kernel

theorem g_fr_trunk_X_fr_RF_upperleg : Good mountList fr_trunk fr_RF_upperleg fr_trunk_X_fr_RF_upperleg.tri :=
  ((g_fr_trunk_X_fr_RF_hipassembly).comp wf_ok mount_fr_RF_upperleg).congr [3, 4] (by decide +kernel)

theorem o_fr_trunk_X_fr_RF_upperleg : fr_trunk_X_fr_RF_upperleg.ok [3, 4] = true := by decide +kernel

theorem g_fr_trunk_X_fr_LH_upperleg : Good mountList fr_trunk fr_LH_upperleg fr_trunk_X_fr_LH_upperleg.tri :=
  ((g_fr_trunk_X_fr_LH_hipassembly).comp wf_ok mount_fr_LH_upperleg).congr [6, 7] (by decide +kernel)

theorem o_fr_trunk_X_fr_LH_upperleg : fr_trunk_X_fr_LH_upperleg.ok [6, 7] = true := by decide +kernel

theorem g_fr_trunk_X_fr_RH_upperleg : Good mountList fr_trunk fr_RH_upperleg fr_trunk_X_fr_RH_upperleg.tri :=
  ((g_fr_trunk_X_fr_RH_hipassembly).comp wf_ok mount_fr_RH_upperleg).congr [9, 10] (by decide +kernel)

theorem o_fr_trunk_X_fr_RH_upperleg : fr_trunk_X_fr_RH_upperleg.ok [9, 10] = true := by decide +kernel

theorem g_fr_trunk_X_fr_LF_lowerleg : Good mountList fr_trunk fr_LF_lowerleg fr_trunk_X_fr_LF_lowerleg.tri :=
  ((g_fr_trunk_X_fr_LF_upperleg).comp wf_ok mount_fr_LF_lowerleg).congr [0, 1, 2] (by decide +kernel)

theorem o_fr_trunk_X_fr_LF_lowerleg : fr_trunk_X_fr_LF_lowerleg.ok [0, 1, 2] = true := by decide +kernel

theorem g_fr_trunk_X_fr_RF_lowerleg : Good mountList fr_trunk fr_RF_lowerleg fr_trunk_X_fr_RF_lowerleg.tri :=
  ((g_fr_trunk_X_fr_RF_upperleg).comp wf_ok mount_fr_RF_lowerleg).congr [3, 4, 5] (by decide +kernel)

theorem o_fr_trunk_X_fr_RF_lowerleg : fr_trunk_X_fr_RF_lowerleg.ok [3, 4, 5] = true := by decide +kernel

theorem g_fr_trunk_X_fr_LH_lowerleg : Good mountList fr_trunk fr_LH_lowerleg fr_trunk_X_fr_LH_lowerleg.tri :=
  ((g_fr_trunk_X_fr_LH_upperleg).comp wf_ok mount_fr_LH_lowerleg).congr [6, 7, 8] (by decide +kernel)

theorem o_fr_trunk_X_fr_LH_lowerleg : fr_trunk_X_fr_LH_lowerleg.ok [6, 7, 8] = true := by decide +kernel

theorem g_fr_trunk_X_fr_RH_lowerleg : Good mountList fr_trunk fr_RH_lowerleg fr_trunk_X_fr_RH_lowerleg.tri :=
  ((g_fr_trunk_X_fr_RH_upperleg).comp wf_ok mount_fr_RH_lowerleg).congr [9, 10, 11] (by decide +kernel)

theorem o_fr_trunk_X_fr_RH_lowerleg : fr_trunk_X_fr_RH_lowerleg.ok [9, 10, 11] = true := by decide +kernel

theorem g_fr_LF_hipassembly_X_fr_trunk : Good mountList fr_LF_hipassembly fr_trunk fr_LF_hipassembly_X_fr_trunk.tri :=
  ((mount_fr_LF_hipassembly).inv wf_ok).congr [0] (by decide +kernel)

theorem o_fr_LF_hipassembly_X_fr_trunk : fr_LF_hipassembly_X_fr_trunk.ok [0] = true := by decide +kernel

theorem g_fr_RF_hipassembly_X_fr_trunk : Good mountList fr_RF_hipassembly fr_trunk fr_RF_hipassembly_X_fr_trunk.tri :=
  ((mount_fr_RF_hipassembly).inv wf_ok).congr [3] (by decide +kernel)

theorem o_fr_RF_hipassembly_X_fr_trunk : fr_RF_hipassembly_X_fr_trunk.ok [3] = true := by decide +kernel

theorem g_fr_LH_hipassembly_X_fr_trunk : Good mountList fr_LH_hipassembly fr_trunk fr_LH_hipassembly_X_fr_trunk.tri :=
  ((mount_fr_LH_hipassembly).inv wf_ok).congr [6] (by decide +kernel)

theorem o_fr_LH_hipassembly_X_fr_trunk : fr_LH_hipassembly_X_fr_trunk.ok [6] = true := by decide +kernel

theorem g_fr_RH_hipassembly_X_fr_trunk : Good mountList fr_RH_hipassembly fr_trunk fr_RH_hipassembly_X_fr_trunk.tri :=
  ((mount_fr_RH_hipassembly).inv wf_ok).congr [9] (by decide +kernel)

theorem o_fr_RH_hipassembly_X_fr_trunk : fr_RH_hipassembly_X_fr_trunk.ok [9] = true := by decide +kernel

theorem g_fr_LF_upperleg_X_fr_trunk : Good mountList fr_LF_upperleg fr_trunk fr_LF_upperleg_X_fr_trunk.tri :=
  (((mount_fr_LF_upperleg).inv wf_ok).comp wf_ok g_fr_LF_hipassembly_X_fr_trunk).congr [0, 1] (by decide +kernel)

theorem o_fr_LF_upperleg_X_fr_trunk : fr_LF_upperleg_X_fr_trunk.ok [0, 1] = true := by decide +kernel

theorem g_fr_RF_upperleg_X_fr_trunk : Good mountList fr_RF_upperleg fr_trunk fr_RF_upperleg_X_fr_trunk.tri :=
  (((mount_fr_RF_upperleg).inv wf_ok).comp wf_ok g_fr_RF_hipassembly_X_fr_trunk).congr [3, 4] (by decide +kernel)

theorem o_fr_RF_upperleg_X_fr_trunk : fr_RF_upperleg_X_fr_trunk.ok [3, 4] = true := by decide +kernel

theorem g_fr_LH_upperleg_X_fr_trunk : Good mountList fr_LH_upperleg fr_trunk fr_LH_upperleg_X_fr_trunk.tri :=
  (((mount_fr_LH_upperleg).inv wf_ok).comp wf_ok g_fr_LH_hipassembly_X_fr_trunk).congr [6, 7] (by decide +kernel)

theorem o_fr_LH_upperleg_X_fr_trunk : fr_LH_upperleg_X_fr_trunk.ok [6, 7] = true := by decide +kernel

theorem g_fr_RH_upperleg_X_fr_trunk : Good mountList fr_RH_upperleg fr_trunk fr_RH_upperleg_X_fr_trunk.tri :=
  (((mount_fr_RH_upperleg).inv wf_ok).comp wf_ok g_fr_RH_hipassembly_X_fr_trunk).congr [9, 10] (by decide +kernel)

theorem o_fr_RH_upperleg_X_fr_trunk : fr_RH_upperleg_X_fr_trunk.ok [9, 10] = true := by decide +kernel

theorem g_fr_LF_lowerleg_X_fr_trunk : Good mountList fr_LF_lowerleg fr_trunk fr_LF_lowerleg_X_fr_trunk.tri :=
  (((mount_fr_LF_lowerleg).inv wf_ok).comp wf_ok g_fr_LF_upperleg_X_fr_trunk).congr [0, 1, 2] (by decide +kernel)

theorem o_fr_LF_lowerleg_X_fr_trunk : fr_LF_lowerleg_X_fr_trunk.ok [0, 1, 2] = true := by decide +kernel

theorem g_fr_RF_lowerleg_X_fr_trunk : Good mountList fr_RF_lowerleg fr_trunk fr_RF_lowerleg_X_fr_trunk.tri :=
  (((mount_fr_RF_lowerleg).inv wf_ok).comp wf_ok g_fr_RF_upperleg_X_fr_trunk).congr [3, 4, 5] (by decide +kernel)

theorem o_fr_RF_lowerleg_X_fr_trunk : fr_RF_lowerleg_X_fr_trunk.ok [3, 4, 5] = true := by decide +kernel

theorem g_fr_LH_lowerleg_X_fr_trunk : Good mountList fr_LH_lowerleg fr_trunk fr_LH_lowerleg_X_fr_trunk.tri :=
  (((mount_fr_LH_lowerleg).inv wf_ok).comp wf_ok g_fr_LH_upperleg_X_fr_trunk).congr [6, 7, 8] (by decide +kernel)

theorem o_fr_LH_lowerleg_X_fr_trunk : fr_LH_lowerleg_X_fr_trunk.ok [6, 7, 8] = true := by decide +kernel

theorem g_fr_RH_lowerleg_X_fr_trunk : Good mountList fr_RH_lowerleg fr_trunk fr_RH_lowerleg_X_fr_trunk.tri :=
  (((mount_fr_RH_lowerleg).inv wf_ok).comp wf_ok g_fr_RH_upperleg_X_fr_trunk).congr [9, 10, 11] (by decide +kernel)

theorem o_fr_RH_lowerleg_X_fr_trunk : fr_RH_lowerleg_X_fr_trunk.ok [9, 10, 11] = true := by decide +kernel

theorem g_fr_trunk_X_LF_hipassemblyCOM : Good mountList fr_trunk LF_hipassemblyCOM fr_trunk_X_LF_hipassemblyCOM.tri :=
  ((g_fr_trunk_X_fr_LF_hipassembly).comp wf_ok mount_LF_hipassemblyCOM).congr [0] (by decide +kernel)

theorem o_fr_trunk_X_LF_hipassemblyCOM : fr_trunk_X_LF_hipassemblyCOM.ok [0] = true := by decide +kernel

theorem g_fr_trunk_X_RF_hipassemblyCOM : Good mountList fr_trunk RF_hipassemblyCOM fr_trunk_X_RF_hipassemblyCOM.tri :=
  ((g_fr_trunk_X_fr_RF_hipassembly).comp wf_ok mount_RF_hipassemblyCOM).congr [3] (by decide +kernel)

theorem o_fr_trunk_X_RF_hipassemblyCOM : fr_trunk_X_RF_hipassemblyCOM.ok [3] = true := by decide +kernel

theorem g_fr_trunk_X_LH_hipassemblyCOM : Good mountList fr_trunk LH_hipassemblyCOM fr_trunk_X_LH_hipassemblyCOM.tri :=
  ((g_fr_trunk_X_fr_LH_hipassembly).comp wf_ok mount_LH_hipassemblyCOM).congr [6] (by decide +kernel)

theorem o_fr_trunk_X_LH_hipassemblyCOM : fr_trunk_X_LH_hipassemblyCOM.ok [6] = true := by decide +kernel

theorem g_fr_trunk_X_RH_hipassemblyCOM : Good mountList fr_trunk RH_hipassemblyCOM fr_trunk_X_RH_hipassemblyCOM.tri :=
  ((g_fr_trunk_X_fr_RH_hipassembly).comp wf_ok mount_RH_hipassemblyCOM).congr [9] (by decide +kernel)

theorem o_fr_trunk_X_RH_hipassemblyCOM : fr_trunk_X_RH_hipassemblyCOM.ok [9] = true := by decide +kernel

theorem g_fr_trunk_X_LF_upperlegCOM : Good mountList fr_trunk LF_upperlegCOM fr_trunk_X_LF_upperlegCOM.tri :=
  ((g_fr_trunk_X_fr_LF_upperleg).comp wf_ok mount_LF_upperlegCOM).congr [0, 1] (by decide +kernel)

theorem o_fr_trunk_X_LF_upperlegCOM : fr_trunk_X_LF_upperlegCOM.ok [0, 1] = true := by decide +kernel

theorem g_fr_trunk_X_RF_upperlegCOM : Good mountList fr_trunk RF_upperlegCOM fr_trunk_X_RF_upperlegCOM.tri :=
  ((g_fr_trunk_X_fr_RF_upperleg).comp wf_ok mount_RF_upperlegCOM).congr [3, 4] (by decide +kernel)

theorem o_fr_trunk_X_RF_upperlegCOM : fr_trunk_X_RF_upperlegCOM.ok [3, 4] = true := by decide +kernel

theorem g_fr_trunk_X_LH_upperlegCOM : Good mountList fr_trunk LH_upperlegCOM fr_trunk_X_LH_upperlegCOM.tri :=
  ((g_fr_trunk_X_fr_LH_upperleg).comp wf_ok mount_LH_upperlegCOM).congr [6, 7] (by decide +kernel)

theorem o_fr_trunk_X_LH_upperlegCOM : fr_trunk_X_LH_upperlegCOM.ok [6, 7] = true := by decide +kernel

theorem g_fr_trunk_X_RH_upperlegCOM : Good mountList fr_trunk RH_upperlegCOM fr_trunk_X_RH_upperlegCOM.tri :=
  ((g_fr_trunk_X_fr_RH_upperleg).comp wf_ok mount_RH_upperlegCOM).congr [9, 10] (by decide +kernel)

theorem o_fr_trunk_X_RH_upperlegCOM : fr_trunk_X_RH_upperlegCOM.ok [9, 10] = true := by decide +kernel

theorem g_fr_trunk_X_LF_lowerlegCOM : Good mountList fr_trunk LF_lowerlegCOM fr_trunk_X_LF_lowerlegCOM.tri :=
  ((g_fr_trunk_X_fr_LF_lowerleg).comp wf_ok mount_LF_lowerlegCOM).congr [0, 1, 2] (by decide +kernel)

theorem o_fr_trunk_X_LF_lowerlegCOM : fr_trunk_X_LF_lowerlegCOM.ok [0, 1, 2] = true := by decide +kernel

theorem g_fr_trunk_X_RF_lowerlegCOM : Good mountList fr_trunk RF_lowerlegCOM fr_trunk_X_RF_lowerlegCOM.tri :=
  ((g_fr_trunk_X_fr_RF_lowerleg).comp wf_ok mount_RF_lowerlegCOM).congr [3, 4, 5] (by decide +kernel)

theorem o_fr_trunk_X_RF_lowerlegCOM : fr_trunk_X_RF_lowerlegCOM.ok [3, 4, 5] = true := by decide +kernel

theorem g_fr_trunk_X_LH_lowerlegCOM : Good mountList fr_trunk LH_lowerlegCOM fr_trunk_X_LH_lowerlegCOM.tri :=
  ((g_fr_trunk_X_fr_LH_lowerleg).comp wf_ok mount_LH_lowerlegCOM).congr [6, 7, 8] (by decide +kernel)

theorem o_fr_trunk_X_LH_lowerlegCOM : fr_trunk_X_LH_lowerlegCOM.ok [6, 7, 8] = true := by decide +kernel

theorem g_fr_trunk_X_RH_lowerlegCOM : Good mountList fr_trunk RH_lowerlegCOM fr_trunk_X_RH_lowerlegCOM.tri :=
  ((g_fr_trunk_X_fr_RH_lowerleg).comp wf_ok mount_RH_lowerlegCOM).congr [9, 10, 11] (by decide +kernel)

theorem o_fr_trunk_X_RH_lowerlegCOM : fr_trunk_X_RH_lowerlegCOM.ok [9, 10, 11] = true := by decide +kernel

theorem g_fr_LF_foot_X_fr_LF_lowerleg : Good mountList fr_LF_foot fr_LF_lowerleg fr_LF_foot_X_fr_LF_lowerleg.tri :=
  ((mount_fr_LF_foot).inv wf_ok).congr [] (by decide +kernel)

theorem o_fr_LF_foot_X_fr_LF_lowerleg : fr_LF_foot_X_fr_LF_lowerleg.ok [] = true := by decide +kernel

theorem g_fr_RF_foot_X_fr_RF_lowerleg : Good mountList fr_RF_foot fr_RF_lowerleg fr_RF_foot_X_fr_RF_lowerleg.tri :=
  ((mount_fr_RF_foot).inv wf_ok).congr [] (by decide +kernel)

theorem o_fr_RF_foot_X_fr_RF_lowerleg : fr_RF_foot_X_fr_RF_lowerleg.ok [] = true := by decide +kernel

theorem g_fr_LH_foot_X_fr_LH_lowerleg : Good mountList fr_LH_foot fr_LH_lowerleg fr_LH_foot_X_fr_LH_lowerleg.tri :=
  ((mount_fr_LH_foot).inv wf_ok).congr [] (by decide +kernel)

theorem o_fr_LH_foot_X_fr_LH_lowerleg : fr_LH_foot_X_fr_LH_lowerleg.ok [] = true := by decide +kernel

theorem g_fr_RH_foot_X_fr_RH_lowerleg : Good mountList fr_RH_foot fr_RH_lowerleg fr_RH_foot_X_fr_RH_lowerleg.tri :=
  ((mount_fr_RH_foot).inv wf_ok).congr [] (by decide +kernel)

theorem o_fr_RH_foot_X_fr_RH_lowerleg : fr_RH_foot_X_fr_RH_lowerleg.ok [] = true := by decide +kernel

theorem g_fr_trunk_X_fr_LF_foot : Good mountList fr_trunk fr_LF_foot fr_trunk_X_fr_LF_foot.tri :=
  ((g_fr_trunk_X_fr_LF_lowerleg).comp wf_ok mount_fr_LF_foot).congr [0, 1, 2] (by decide +kernel)

theorem o_fr_trunk_X_fr_LF_foot : fr_trunk_X_fr_LF_foot.ok [0, 1, 2] = true := by decide +kernel

theorem g_fr_trunk_X_fr_RF_foot : Good mountList fr_trunk fr_RF_foot fr_trunk_X_fr_RF_foot.tri :=
  ((g_fr_trunk_X_fr_RF_lowerleg).comp wf_ok mount_fr_RF_foot).congr [3, 4, 5] (by decide +kernel)

theorem o_fr_trunk_X_fr_RF_foot : fr_trunk_X_fr_RF_foot.ok [3, 4, 5] = true := by decide +kernel

theorem g_fr_trunk_X_fr_LH_foot : Good mountList fr_trunk fr_LH_foot fr_trunk_X_fr_LH_foot.tri :=
  ((g_fr_trunk_X_fr_LH_lowerleg).comp wf_ok mount_fr_LH_foot).congr [6, 7, 8] (by decide +kernel)

theorem o_fr_trunk_X_fr_LH_foot : fr_trunk_X_fr_LH_foot.ok [6, 7, 8] = true := by decide +kernel

theorem g_fr_trunk_X_fr_RH_foot : Good mountList fr_trunk fr_RH_foot fr_trunk_X_fr_RH_foot.tri :=
  ((g_fr_trunk_X_fr_RH_lowerleg).comp wf_ok mount_fr_RH_foot).congr [9, 10, 11] (by decide +kernel)

theorem o_fr_trunk_X_fr_RH_foot : fr_trunk_X_fr_RH_foot.ok [9, 10, 11] = true := by decide +kernel

theorem g_fr_LF_foot_X_fr_trunk : Good mountList fr_LF_foot fr_trunk fr_LF_foot_X_fr_trunk.tri :=
  (((mount_fr_LF_foot).inv wf_ok).comp wf_ok g_fr_LF_lowerleg_X_fr_trunk).congr [0, 1, 2] (by decide +kernel)

theorem o_fr_LF_foot_X_fr_trunk : fr_LF_foot_X_fr_trunk.ok [0, 1, 2] = true := by decide +kernel

theorem g_fr_RF_foot_X_fr_trunk : Good mountList fr_RF_foot fr_trunk fr_RF_foot_X_fr_trunk.tri :=
  (((mount_fr_RF_foot).inv wf_ok).comp wf_ok g_fr_RF_lowerleg_X_fr_trunk).congr [3, 4, 5] (by decide +kernel)

theorem o_fr_RF_foot_X_fr_trunk : fr_RF_foot_X_fr_trunk.ok [3, 4, 5] = true := by decide +kernel

theorem g_fr_LH_foot_X_fr_trunk : Good mountList fr_LH_foot fr_trunk fr_LH_foot_X_fr_trunk.tri :=
  (((mount_fr_LH_foot).inv wf_ok).comp wf_ok g_fr_LH_lowerleg_X_fr_trunk).congr [6, 7, 8] (by decide +kernel)

theorem o_fr_LH_foot_X_fr_trunk : fr_LH_foot_X_fr_trunk.ok [6, 7, 8] = true := by decide +kernel

theorem g_fr_RH_foot_X_fr_trunk : Good mountList fr_RH_foot fr_trunk fr_RH_foot_X_fr_trunk.tri :=
  (((mount_fr_RH_foot).inv wf_ok).comp wf_ok g_fr_RH_lowerleg_X_fr_trunk).congr [9, 10, 11] (by decide +kernel)

theorem o_fr_RH_foot_X_fr_trunk : fr_RH_foot_X_fr_trunk.ok [9, 10, 11] = true := by decide +kernel

theorem g_fr_trunk_X_fr_LF_HAA : Good mountList fr_trunk fr_LF_HAA fr_trunk_X_fr_LF_HAA.tri :=
  (mount_fr_LF_HAA).congr [] (by decide +kernel)

theorem o_fr_trunk_X_fr_LF_HAA : fr_trunk_X_fr_LF_HAA.ok [] = true := by decide +kernel

theorem g_fr_trunk_X_fr_RF_HAA : Good mountList fr_trunk fr_RF_HAA fr_trunk_X_fr_RF_HAA.tri :=
  (mount_fr_RF_HAA).congr [] (by decide +kernel)

theorem o_fr_trunk_X_fr_RF_HAA : fr_trunk_X_fr_RF_HAA.ok [] = true := by decide +kernel

theorem g_fr_trunk_X_fr_LH_HAA : Good mountList fr_trunk fr_LH_HAA fr_trunk_X_fr_LH_HAA.tri :=
  (mount_fr_LH_HAA).congr [] (by decide +kernel)

theorem o_fr_trunk_X_fr_LH_HAA : fr_trunk_X_fr_LH_HAA.ok [] = true := by decide +kernel

theorem g_fr_trunk_X_fr_RH_HAA : Good mountList fr_trunk fr_RH_HAA fr_trunk_X_fr_RH_HAA.tri :=
  (mount_fr_RH_HAA).congr [] (by decide +kernel)

theorem o_fr_trunk_X_fr_RH_HAA : fr_trunk_X_fr_RH_HAA.ok [] = true := by decide +kernel

theorem g_fr_trunk_X_fr_LF_HFE : Good mountList fr_trunk fr_LF_HFE fr_trunk_X_fr_LF_HFE.tri :=
  ((g_fr_trunk_X_fr_LF_hipassembly).comp wf_ok mount_fr_LF_HFE).congr [0] (by decide +kernel)

theorem o_fr_trunk_X_fr_LF_HFE : fr_trunk_X_fr_LF_HFE.ok [0] = true := by decide +kernel

theorem g_fr_trunk_X_fr_RF_HFE : Good mountList fr_trunk fr_RF_HFE fr_trunk_X_fr_RF_HFE.tri :=
  ((g_fr_trunk_X_fr_RF_hipassembly).comp wf_ok mount_fr_RF_HFE).congr [3] (by decide +kernel)

theorem o_fr_trunk_X_fr_RF_HFE : fr_trunk_X_fr_RF_HFE.ok [3] = true := by decide +kernel

theorem g_fr_trunk_X_fr_LH_HFE : Good mountList fr_trunk fr_LH_HFE fr_trunk_X_fr_LH_HFE.tri :=
  ((g_fr_trunk_X_fr_LH_hipassembly).comp wf_ok mount_fr_LH_HFE).congr [6] (by decide +kernel)

theorem o_fr_trunk_X_fr_LH_HFE : fr_trunk_X_fr_LH_HFE.ok [6] = true := by decide +kernel

theorem g_fr_trunk_X_fr_RH_HFE : Good mountList fr_trunk fr_RH_HFE fr_trunk_X_fr_RH_HFE.tri :=
  ((g_fr_trunk_X_fr_RH_hipassembly).comp wf_ok mount_fr_RH_HFE).congr [9] (by decide +kernel)

theorem o_fr_trunk_X_fr_RH_HFE : fr_trunk_X_fr_RH_HFE.ok [9] = true := by decide +kernel

theorem g_fr_trunk_X_fr_LF_KFE : Good mountList fr_trunk fr_LF_KFE fr_trunk_X_fr_LF_KFE.tri :=
  ((g_fr_trunk_X_fr_LF_upperleg).comp wf_ok mount_fr_LF_KFE).congr [0, 1] (by decide +kernel)

theorem o_fr_trunk_X_fr_LF_KFE : fr_trunk_X_fr_LF_KFE.ok [0, 1] = true := by decide +kernel

theorem g_fr_trunk_X_fr_RF_KFE : Good mountList fr_trunk fr_RF_KFE fr_trunk_X_fr_RF_KFE.tri :=
  ((g_fr_trunk_X_fr_RF_upperleg).comp wf_ok mount_fr_RF_KFE).congr [3, 4] (by decide +kernel)

theorem o_fr_trunk_X_fr_RF_KFE : fr_trunk_X_fr_RF_KFE.ok [3, 4] = true := by decide +kernel

theorem g_fr_trunk_X_fr_LH_KFE : Good mountList fr_trunk fr_LH_KFE fr_trunk_X_fr_LH_KFE.tri :=
  ((g_fr_trunk_X_fr_LH_upperleg).comp wf_ok mount_fr_LH_KFE).congr [6, 7] (by decide +kernel)

theorem o_fr_trunk_X_fr_LH_KFE : fr_trunk_X_fr_LH_KFE.ok [6, 7] = true := by decide +kernel

theorem g_fr_trunk_X_fr_RH_KFE : Good mountList fr_trunk fr_RH_KFE fr_trunk_X_fr_RH_KFE.tri :=
  ((g_fr_trunk_X_fr_RH_upperleg).comp wf_ok mount_fr_RH_KFE).congr [9, 10] (by decide +kernel)

theorem o_fr_trunk_X_fr_RH_KFE : fr_trunk_X_fr_RH_KFE.ok [9, 10] = true := by decide +kernel

theorem g_fr_LF_upperleg_X_fr_LF_hipassembly : Good mountList fr_LF_upperleg fr_LF_hipassembly fr_LF_upperleg_X_fr_LF_hipassembly.tri :=
  ((mount_fr_LF_upperleg).inv wf_ok).congr [1] (by decide +kernel)

theorem o_fr_LF_upperleg_X_fr_LF_hipassembly : fr_LF_upperleg_X_fr_LF_hipassembly.ok [1] = true := by decide +kernel

theorem g_fr_LF_hipassembly_X_fr_LF_upperleg : Good mountList fr_LF_hipassembly fr_LF_upperleg fr_LF_hipassembly_X_fr_LF_upperleg.tri :=
  (mount_fr_LF_upperleg).congr [1] (by decide +kernel)

theorem o_fr_LF_hipassembly_X_fr_LF_upperleg : fr_LF_hipassembly_X_fr_LF_upperleg.ok [1] = true := by decide +kernel

theorem g_fr_LF_lowerleg_X_fr_LF_upperleg : Good mountList fr_LF_lowerleg fr_LF_upperleg fr_LF_lowerleg_X_fr_LF_upperleg.tri :=
  ((mount_fr_LF_lowerleg).inv wf_ok).congr [2] (by decide +kernel)

theorem o_fr_LF_lowerleg_X_fr_LF_upperleg : fr_LF_lowerleg_X_fr_LF_upperleg.ok [2] = true := by decide +kernel

theorem g_fr_LF_upperleg_X_fr_LF_lowerleg : Good mountList fr_LF_upperleg fr_LF_lowerleg fr_LF_upperleg_X_fr_LF_lowerleg.tri :=
  (mount_fr_LF_lowerleg).congr [2] (by decide +kernel)

theorem o_fr_LF_upperleg_X_fr_LF_lowerleg : fr_LF_upperleg_X_fr_LF_lowerleg.ok [2] = true := by decide +kernel

theorem g_fr_RF_upperleg_X_fr_RF_hipassembly : Good mountList fr_RF_upperleg fr_RF_hipassembly fr_RF_upperleg_X_fr_RF_hipassembly.tri :=
  ((mount_fr_RF_upperleg).inv wf_ok).congr [4] (by decide +kernel)

theorem o_fr_RF_upperleg_X_fr_RF_hipassembly : fr_RF_upperleg_X_fr_RF_hipassembly.ok [4] = true := by decide +kernel

theorem g_fr_RF_hipassembly_X_fr_RF_upperleg : Good mountList fr_RF_hipassembly fr_RF_upperleg fr_RF_hipassembly_X_fr_RF_upperleg.tri :=
  (mount_fr_RF_upperleg).congr [4] (by decide +kernel)

theorem o_fr_RF_hipassembly_X_fr_RF_upperleg : fr_RF_hipassembly_X_fr_RF_upperleg.ok [4] = true := by decide +kernel

theorem g_fr_RF_lowerleg_X_fr_RF_upperleg : Good mountList fr_RF_lowerleg fr_RF_upperleg fr_RF_lowerleg_X_fr_RF_upperleg.tri :=
  ((mount_fr_RF_lowerleg).inv wf_ok).congr [5] (by decide +kernel)

theorem o_fr_RF_lowerleg_X_fr_RF_upperleg : fr_RF_lowerleg_X_fr_RF_upperleg.ok [5] = true := by decide +kernel

theorem g_fr_RF_upperleg_X_fr_RF_lowerleg : Good mountList fr_RF_upperleg fr_RF_lowerleg fr_RF_upperleg_X_fr_RF_lowerleg.tri :=
  (mount_fr_RF_lowerleg).congr [5] (by decide +kernel)

theorem o_fr_RF_upperleg_X_fr_RF_lowerleg : fr_RF_upperleg_X_fr_RF_lowerleg.ok [5] = true := by decide +kernel

theorem g_fr_LH_upperleg_X_fr_LH_hipassembly : Good mountList fr_LH_upperleg fr_LH_hipassembly fr_LH_upperleg_X_fr_LH_hipassembly.tri :=
  ((mount_fr_LH_upperleg).inv wf_ok).congr [7] (by decide +kernel)

theorem o_fr_LH_upperleg_X_fr_LH_hipassembly : fr_LH_upperleg_X_fr_LH_hipassembly.ok [7] = true := by decide +kernel

theorem g_fr_LH_hipassembly_X_fr_LH_upperleg : Good mountList fr_LH_hipassembly fr_LH_upperleg fr_LH_hipassembly_X_fr_LH_upperleg.tri :=
  (mount_fr_LH_upperleg).congr [7] (by decide +kernel)

theorem o_fr_LH_hipassembly_X_fr_LH_upperleg : fr_LH_hipassembly_X_fr_LH_upperleg.ok [7] = true := by decide +kernel

theorem g_fr_LH_lowerleg_X_fr_LH_upperleg : Good mountList fr_LH_lowerleg fr_LH_upperleg fr_LH_lowerleg_X_fr_LH_upperleg.tri :=
  ((mount_fr_LH_lowerleg).inv wf_ok).congr [8] (by decide +kernel)

theorem o_fr_LH_lowerleg_X_fr_LH_upperleg : fr_LH_lowerleg_X_fr_LH_upperleg.ok [8] = true := by decide +kernel

theorem g_fr_LH_upperleg_X_fr_LH_lowerleg : Good mountList fr_LH_upperleg fr_LH_lowerleg fr_LH_upperleg_X_fr_LH_lowerleg.tri :=
  (mount_fr_LH_lowerleg).congr [8] (by decide +kernel)

theorem o_fr_LH_upperleg_X_fr_LH_lowerleg : fr_LH_upperleg_X_fr_LH_lowerleg.ok [8] = true := by decide +kernel

theorem g_fr_RH_upperleg_X_fr_RH_hipassembly : Good mountList fr_RH_upperleg fr_RH_hipassembly fr_RH_upperleg_X_fr_RH_hipassembly.tri :=
  ((mount_fr_RH_upperleg).inv wf_ok).congr [10] (by decide +kernel)

theorem o_fr_RH_upperleg_X_fr_RH_hipassembly : fr_RH_upperleg_X_fr_RH_hipassembly.ok [10] = true := by decide +kernel

theorem g_fr_RH_hipassembly_X_fr_RH_upperleg : Good mountList fr_RH_hipassembly fr_RH_upperleg fr_RH_hipassembly_X_fr_RH_upperleg.tri :=
  (mount_fr_RH_upperleg).congr [10] (by decide +kernel)

theorem o_fr_RH_hipassembly_X_fr_RH_upperleg : fr_RH_hipassembly_X_fr_RH_upperleg.ok [10] = true := by decide +kernel

theorem g_fr_RH_lowerleg_X_fr_RH_upperleg : Good mountList fr_RH_lowerleg fr_RH_upperleg fr_RH_lowerleg_X_fr_RH_upperleg.tri :=
  ((mount_fr_RH_lowerleg).inv wf_ok).congr [11] (by decide +kernel)

theorem o_fr_RH_lowerleg_X_fr_RH_upperleg : fr_RH_lowerleg_X_fr_RH_upperleg.ok [11] = true := by decide +kernel

theorem g_fr_RH_upperleg_X_fr_RH_lowerleg : Good mountList fr_RH_upperleg fr_RH_lowerleg fr_RH_upperleg_X_fr_RH_lowerleg.tri :=
  (mount_fr_RH_lowerleg).congr [11] (by decide +kernel)

theorem o_fr_RH_upperleg_X_fr_RH_lowerleg : fr_RH_upperleg_X_fr_RH_lowerleg.ok [11] = true := by decide +kernel

end CT.Robots.HyQ.Kin
