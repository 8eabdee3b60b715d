import Verif.Model.Robots.HyQKin
import Verif.Props.GenKinBase

/-! # HyQ: mounting poses of the frames (written by `tools/gen_kin.py`) -/

namespace CT.Robots.HyQ.Kin

open CT.GenKin

def m_fr_LF_hipassembly : Mount where
  id := fr_LF_hipassembly
  parent := fr_trunk
  joint := some LF_HAA
  R := [.k 0 0, .k 0 0, .k (-1) 0, .k 0 0, .k (-1) 0, .k 0 0, .k (-1) 0, .k 0 0, .k 0 0]
  p := [.k 3735 4, .k 207 3, .k 0 0]

def m_fr_LF_upperleg : Mount where
  id := fr_LF_upperleg
  parent := fr_LF_hipassembly
  joint := some LF_HFE
  R := [.k 1 0, .k 0 0, .k 0 0, .k 0 0, .k 0 0, .k (-1) 0, .k 0 0, .k 1 0, .k 0 0]
  p := [.k 8 2, .k 0 0, .k 0 0]

def m_fr_LF_lowerleg : Mount where
  id := fr_LF_lowerleg
  parent := fr_LF_upperleg
  joint := some LF_KFE
  R := [.k 1 0, .k 0 0, .k 0 0, .k 0 0, .k 1 0, .k 0 0, .k 0 0, .k 0 0, .k 1 0]
  p := [.k 35 2, .k 0 0, .k 0 0]

def m_fr_RF_hipassembly : Mount where
  id := fr_RF_hipassembly
  parent := fr_trunk
  joint := some RF_HAA
  R := [.k 0 0, .k 0 0, .k 1 0, .k 0 0, .k 1 0, .k 0 0, .k (-1) 0, .k 0 0, .k 0 0]
  p := [.k 3735 4, .k (-207) 3, .k 0 0]

def m_fr_RF_upperleg : Mount where
  id := fr_RF_upperleg
  parent := fr_RF_hipassembly
  joint := some RF_HFE
  R := [.k 1 0, .k 0 0, .k 0 0, .k 0 0, .k 0 0, .k 1 0, .k 0 0, .k (-1) 0, .k 0 0]
  p := [.k 8 2, .k 0 0, .k 0 0]

def m_fr_RF_lowerleg : Mount where
  id := fr_RF_lowerleg
  parent := fr_RF_upperleg
  joint := some RF_KFE
  R := [.k 1 0, .k 0 0, .k 0 0, .k 0 0, .k 1 0, .k 0 0, .k 0 0, .k 0 0, .k 1 0]
  p := [.k 35 2, .k 0 0, .k 0 0]

def m_fr_LH_hipassembly : Mount where
  id := fr_LH_hipassembly
  parent := fr_trunk
  joint := some LH_HAA
  R := [.k 0 0, .k 0 0, .k (-1) 0, .k 0 0, .k (-1) 0, .k 0 0, .k (-1) 0, .k 0 0, .k 0 0]
  p := [.k (-3735) 4, .k 207 3, .k 0 0]

def m_fr_LH_upperleg : Mount where
  id := fr_LH_upperleg
  parent := fr_LH_hipassembly
  joint := some LH_HFE
  R := [.k 1 0, .k 0 0, .k 0 0, .k 0 0, .k 0 0, .k (-1) 0, .k 0 0, .k 1 0, .k 0 0]
  p := [.k 8 2, .k 0 0, .k 0 0]

def m_fr_LH_lowerleg : Mount where
  id := fr_LH_lowerleg
  parent := fr_LH_upperleg
  joint := some LH_KFE
  R := [.k 1 0, .k 0 0, .k 0 0, .k 0 0, .k 1 0, .k 0 0, .k 0 0, .k 0 0, .k 1 0]
  p := [.k 35 2, .k 0 0, .k 0 0]

def m_fr_RH_hipassembly : Mount where
  id := fr_RH_hipassembly
  parent := fr_trunk
  joint := some RH_HAA
  R := [.k 0 0, .k 0 0, .k 1 0, .k 0 0, .k 1 0, .k 0 0, .k (-1) 0, .k 0 0, .k 0 0]
  p := [.k (-3735) 4, .k (-207) 3, .k 0 0]

def m_fr_RH_upperleg : Mount where
  id := fr_RH_upperleg
  parent := fr_RH_hipassembly
  joint := some RH_HFE
  R := [.k 1 0, .k 0 0, .k 0 0, .k 0 0, .k 0 0, .k 1 0, .k 0 0, .k (-1) 0, .k 0 0]
  p := [.k 8 2, .k 0 0, .k 0 0]

def m_fr_RH_lowerleg : Mount where
  id := fr_RH_lowerleg
  parent := fr_RH_upperleg
  joint := some RH_KFE
  R := [.k 1 0, .k 0 0, .k 0 0, .k 0 0, .k 1 0, .k 0 0, .k 0 0, .k 0 0, .k 1 0]
  p := [.k 35 2, .k 0 0, .k 0 0]

def m_LF_hipassemblyCOM : Mount where
  id := LF_hipassemblyCOM
  parent := fr_LF_hipassembly
  joint := none
  R := [.k 1 0, .k 0 0, .k 0 0, .k 0 0, .k 1 0, .k 0 0, .k 0 0, .k 0 0, .k 1 0]
  p := [.k 43 3, .k 0 0, .k 169 3]

def m_RF_hipassemblyCOM : Mount where
  id := RF_hipassemblyCOM
  parent := fr_RF_hipassembly
  joint := none
  R := [.k 1 0, .k 0 0, .k 0 0, .k 0 0, .k 1 0, .k 0 0, .k 0 0, .k 0 0, .k 1 0]
  p := [.k 43 3, .k 0 0, .k (-169) 3]

def m_LH_hipassemblyCOM : Mount where
  id := LH_hipassemblyCOM
  parent := fr_LH_hipassembly
  joint := none
  R := [.k 1 0, .k 0 0, .k 0 0, .k 0 0, .k 1 0, .k 0 0, .k 0 0, .k 0 0, .k 1 0]
  p := [.k 43 3, .k 0 0, .k (-169) 3]

def m_RH_hipassemblyCOM : Mount where
  id := RH_hipassemblyCOM
  parent := fr_RH_hipassembly
  joint := none
  R := [.k 1 0, .k 0 0, .k 0 0, .k 0 0, .k 1 0, .k 0 0, .k 0 0, .k 0 0, .k 1 0]
  p := [.k 43 3, .k 0 0, .k 169 3]

def m_LF_upperlegCOM : Mount where
  id := LF_upperlegCOM
  parent := fr_LF_upperleg
  joint := none
  R := [.k 1 0, .k 0 0, .k 0 0, .k 0 0, .k 1 0, .k 0 0, .k 0 0, .k 0 0, .k 1 0]
  p := [.k 151 3, .k (-26) 3, .k 0 0]

def m_RF_upperlegCOM : Mount where
  id := RF_upperlegCOM
  parent := fr_RF_upperleg
  joint := none
  R := [.k 1 0, .k 0 0, .k 0 0, .k 0 0, .k 1 0, .k 0 0, .k 0 0, .k 0 0, .k 1 0]
  p := [.k 151 3, .k (-26) 3, .k 0 0]

def m_LH_upperlegCOM : Mount where
  id := LH_upperlegCOM
  parent := fr_LH_upperleg
  joint := none
  R := [.k 1 0, .k 0 0, .k 0 0, .k 0 0, .k 1 0, .k 0 0, .k 0 0, .k 0 0, .k 1 0]
  p := [.k 151 3, .k 26 3, .k 0 0]

def m_RH_upperlegCOM : Mount where
  id := RH_upperlegCOM
  parent := fr_RH_upperleg
  joint := none
  R := [.k 1 0, .k 0 0, .k 0 0, .k 0 0, .k 1 0, .k 0 0, .k 0 0, .k 0 0, .k 1 0]
  p := [.k 151 3, .k 26 3, .k 0 0]

def m_LF_lowerlegCOM : Mount where
  id := LF_lowerlegCOM
  parent := fr_LF_lowerleg
  joint := none
  R := [.k 1 0, .k 0 0, .k 0 0, .k 0 0, .k 1 0, .k 0 0, .k 0 0, .k 0 0, .k 1 0]
  p := [.k 125 3, .k 0 0, .k 0 0]

def m_RF_lowerlegCOM : Mount where
  id := RF_lowerlegCOM
  parent := fr_RF_lowerleg
  joint := none
  R := [.k 1 0, .k 0 0, .k 0 0, .k 0 0, .k 1 0, .k 0 0, .k 0 0, .k 0 0, .k 1 0]
  p := [.k 125 3, .k 1 3, .k 0 0]

def m_LH_lowerlegCOM : Mount where
  id := LH_lowerlegCOM
  parent := fr_LH_lowerleg
  joint := none
  R := [.k 1 0, .k 0 0, .k 0 0, .k 0 0, .k 1 0, .k 0 0, .k 0 0, .k 0 0, .k 1 0]
  p := [.k 125 3, .k (-1) 3, .k 0 0]

def m_RH_lowerlegCOM : Mount where
  id := RH_lowerlegCOM
  parent := fr_RH_lowerleg
  joint := none
  R := [.k 1 0, .k 0 0, .k 0 0, .k 0 0, .k 1 0, .k 0 0, .k 0 0, .k 0 0, .k 1 0]
  p := [.k 1254 4, .k (-5) 4, .k 0 0]

def m_fr_LF_foot : Mount where
  id := fr_LF_foot
  parent := fr_LF_lowerleg
  joint := none
  R := [.k 1 0, .k 0 0, .k 0 0, .k 0 0, .k 1 0, .k 0 0, .k 0 0, .k 0 0, .k 1 0]
  p := [.k 33 2, .k 0 0, .k 0 0]

def m_fr_RF_foot : Mount where
  id := fr_RF_foot
  parent := fr_RF_lowerleg
  joint := none
  R := [.k 1 0, .k 0 0, .k 0 0, .k 0 0, .k 1 0, .k 0 0, .k 0 0, .k 0 0, .k 1 0]
  p := [.k 33 2, .k 0 0, .k 0 0]

def m_fr_LH_foot : Mount where
  id := fr_LH_foot
  parent := fr_LH_lowerleg
  joint := none
  R := [.k 1 0, .k 0 0, .k 0 0, .k 0 0, .k 1 0, .k 0 0, .k 0 0, .k 0 0, .k 1 0]
  p := [.k 33 2, .k 0 0, .k 0 0]

def m_fr_RH_foot : Mount where
  id := fr_RH_foot
  parent := fr_RH_lowerleg
  joint := none
  R := [.k 1 0, .k 0 0, .k 0 0, .k 0 0, .k 1 0, .k 0 0, .k 0 0, .k 0 0, .k 1 0]
  p := [.k 33 2, .k 0 0, .k 0 0]

def m_fr_LF_HAA : Mount where
  id := fr_LF_HAA
  parent := fr_trunk
  joint := none
  R := [.k 0 0, .k 0 0, .k (-1) 0, .k 0 0, .k (-1) 0, .k 0 0, .k (-1) 0, .k 0 0, .k 0 0]
  p := [.k 3735 4, .k 207 3, .k 0 0]

def m_fr_RF_HAA : Mount where
  id := fr_RF_HAA
  parent := fr_trunk
  joint := none
  R := [.k 0 0, .k 0 0, .k 1 0, .k 0 0, .k 1 0, .k 0 0, .k (-1) 0, .k 0 0, .k 0 0]
  p := [.k 3735 4, .k (-207) 3, .k 0 0]

def m_fr_LH_HAA : Mount where
  id := fr_LH_HAA
  parent := fr_trunk
  joint := none
  R := [.k 0 0, .k 0 0, .k (-1) 0, .k 0 0, .k (-1) 0, .k 0 0, .k (-1) 0, .k 0 0, .k 0 0]
  p := [.k (-3735) 4, .k 207 3, .k 0 0]

def m_fr_RH_HAA : Mount where
  id := fr_RH_HAA
  parent := fr_trunk
  joint := none
  R := [.k 0 0, .k 0 0, .k 1 0, .k 0 0, .k 1 0, .k 0 0, .k (-1) 0, .k 0 0, .k 0 0]
  p := [.k (-3735) 4, .k (-207) 3, .k 0 0]

def m_fr_LF_HFE : Mount where
  id := fr_LF_HFE
  parent := fr_LF_hipassembly
  joint := none
  R := [.k 1 0, .k 0 0, .k 0 0, .k 0 0, .k 0 0, .k (-1) 0, .k 0 0, .k 1 0, .k 0 0]
  p := [.k 8 2, .k 0 0, .k 0 0]

def m_fr_RF_HFE : Mount where
  id := fr_RF_HFE
  parent := fr_RF_hipassembly
  joint := none
  R := [.k 1 0, .k 0 0, .k 0 0, .k 0 0, .k 0 0, .k 1 0, .k 0 0, .k (-1) 0, .k 0 0]
  p := [.k 8 2, .k 0 0, .k 0 0]

def m_fr_LH_HFE : Mount where
  id := fr_LH_HFE
  parent := fr_LH_hipassembly
  joint := none
  R := [.k 1 0, .k 0 0, .k 0 0, .k 0 0, .k 0 0, .k (-1) 0, .k 0 0, .k 1 0, .k 0 0]
  p := [.k 8 2, .k 0 0, .k 0 0]

def m_fr_RH_HFE : Mount where
  id := fr_RH_HFE
  parent := fr_RH_hipassembly
  joint := none
  R := [.k 1 0, .k 0 0, .k 0 0, .k 0 0, .k 0 0, .k 1 0, .k 0 0, .k (-1) 0, .k 0 0]
  p := [.k 8 2, .k 0 0, .k 0 0]

def m_fr_LF_KFE : Mount where
  id := fr_LF_KFE
  parent := fr_LF_upperleg
  joint := none
  R := [.k 1 0, .k 0 0, .k 0 0, .k 0 0, .k 1 0, .k 0 0, .k 0 0, .k 0 0, .k 1 0]
  p := [.k 35 2, .k 0 0, .k 0 0]

def m_fr_RF_KFE : Mount where
  id := fr_RF_KFE
  parent := fr_RF_upperleg
  joint := none
  R := [.k 1 0, .k 0 0, .k 0 0, .k 0 0, .k 1 0, .k 0 0, .k 0 0, .k 0 0, .k 1 0]
  p := [.k 35 2, .k 0 0, .k 0 0]

def m_fr_LH_KFE : Mount where
  id := fr_LH_KFE
  parent := fr_LH_upperleg
  joint := none
  R := [.k 1 0, .k 0 0, .k 0 0, .k 0 0, .k 1 0, .k 0 0, .k 0 0, .k 0 0, .k 1 0]
  p := [.k 35 2, .k 0 0, .k 0 0]

def m_fr_RH_KFE : Mount where
  id := fr_RH_KFE
  parent := fr_RH_upperleg
  joint := none
  R := [.k 1 0, .k 0 0, .k 0 0, .k 0 0, .k 1 0, .k 0 0, .k 0 0, .k 0 0, .k 1 0]
  p := [.k 35 2, .k 0 0, .k 0 0]

def mountList : List Mount :=
  [m_fr_LF_hipassembly,
    m_fr_LF_upperleg,
    m_fr_LF_lowerleg,
    m_fr_RF_hipassembly,
    m_fr_RF_upperleg,
    m_fr_RF_lowerleg,
    m_fr_LH_hipassembly,
    m_fr_LH_upperleg,
    m_fr_LH_lowerleg,
    m_fr_RH_hipassembly,
    m_fr_RH_upperleg,
    m_fr_RH_lowerleg,
    m_LF_hipassemblyCOM,
    m_RF_hipassemblyCOM,
    m_LH_hipassemblyCOM,
    m_RH_hipassemblyCOM,
    m_LF_upperlegCOM,
    m_RF_upperlegCOM,
    m_LH_upperlegCOM,
    m_RH_upperlegCOM,
    m_LF_lowerlegCOM,
    m_RF_lowerlegCOM,
    m_LH_lowerlegCOM,
    m_RH_lowerlegCOM,
    m_fr_LF_foot,
    m_fr_RF_foot,
    m_fr_LH_foot,
    m_fr_RH_foot,
    m_fr_LF_HAA,
    m_fr_RF_HAA,
    m_fr_LH_HAA,
    m_fr_RH_HAA,
    m_fr_LF_HFE,
    m_fr_RF_HFE,
    m_fr_LH_HFE,
    m_fr_RH_HFE,
    m_fr_LF_KFE,
    m_fr_RF_KFE,
    m_fr_LH_KFE,
    m_fr_RH_KFE]

theorem wf_ok : wf mountList = true := by decide +kernel

theorem mount_fr_LF_hipassembly : Good mountList fr_trunk fr_LF_hipassembly m_fr_LF_hipassembly.tri :=
  Good.mount wf_ok (f := m_fr_LF_hipassembly) (List.mem_of_getElem? (i := 0) rfl)

theorem mount_fr_LF_upperleg : Good mountList fr_LF_hipassembly fr_LF_upperleg m_fr_LF_upperleg.tri :=
  Good.mount wf_ok (f := m_fr_LF_upperleg) (List.mem_of_getElem? (i := 1) rfl)

theorem mount_fr_LF_lowerleg : Good mountList fr_LF_upperleg fr_LF_lowerleg m_fr_LF_lowerleg.tri :=
  Good.mount wf_ok (f := m_fr_LF_lowerleg) (List.mem_of_getElem? (i := 2) rfl)

theorem mount_fr_RF_hipassembly : Good mountList fr_trunk fr_RF_hipassembly m_fr_RF_hipassembly.tri :=
  Good.mount wf_ok (f := m_fr_RF_hipassembly) (List.mem_of_getElem? (i := 3) rfl)

theorem mount_fr_RF_upperleg : Good mountList fr_RF_hipassembly fr_RF_upperleg m_fr_RF_upperleg.tri :=
  Good.mount wf_ok (f := m_fr_RF_upperleg) (List.mem_of_getElem? (i := 4) rfl)

theorem mount_fr_RF_lowerleg : Good mountList fr_RF_upperleg fr_RF_lowerleg m_fr_RF_lowerleg.tri :=
  Good.mount wf_ok (f := m_fr_RF_lowerleg) (List.mem_of_getElem? (i := 5) rfl)

theorem mount_fr_LH_hipassembly : Good mountList fr_trunk fr_LH_hipassembly m_fr_LH_hipassembly.tri :=
  Good.mount wf_ok (f := m_fr_LH_hipassembly) (List.mem_of_getElem? (i := 6) rfl)

theorem mount_fr_LH_upperleg : Good mountList fr_LH_hipassembly fr_LH_upperleg m_fr_LH_upperleg.tri :=
  Good.mount wf_ok (f := m_fr_LH_upperleg) (List.mem_of_getElem? (i := 7) rfl)

theorem mount_fr_LH_lowerleg : Good mountList fr_LH_upperleg fr_LH_lowerleg m_fr_LH_lowerleg.tri :=
  Good.mount wf_ok (f := m_fr_LH_lowerleg) (List.mem_of_getElem? (i := 8) rfl)

theorem mount_fr_RH_hipassembly : Good mountList fr_trunk fr_RH_hipassembly m_fr_RH_hipassembly.tri :=
  Good.mount wf_ok (f := m_fr_RH_hipassembly) (List.mem_of_getElem? (i := 9) rfl)

theorem mount_fr_RH_upperleg : Good mountList fr_RH_hipassembly fr_RH_upperleg m_fr_RH_upperleg.tri :=
  Good.mount wf_ok (f := m_fr_RH_upperleg) (List.mem_of_getElem? (i := 10) rfl)

theorem mount_fr_RH_lowerleg : Good mountList fr_RH_upperleg fr_RH_lowerleg m_fr_RH_lowerleg.tri :=
  Good.mount wf_ok (f := m_fr_RH_lowerleg) (List.mem_of_getElem? (i := 11) rfl)

theorem mount_LF_hipassemblyCOM : Good mountList fr_LF_hipassembly LF_hipassemblyCOM m_LF_hipassemblyCOM.tri :=
  Good.mount wf_ok (f := m_LF_hipassemblyCOM) (List.mem_of_getElem? (i := 12) rfl)

theorem mount_RF_hipassemblyCOM : Good mountList fr_RF_hipassembly RF_hipassemblyCOM m_RF_hipassemblyCOM.tri :=
  Good.mount wf_ok (f := m_RF_hipassemblyCOM) (List.mem_of_getElem? (i := 13) rfl)

theorem mount_LH_hipassemblyCOM : Good mountList fr_LH_hipassembly LH_hipassemblyCOM m_LH_hipassemblyCOM.tri :=
  Good.mount wf_ok (f := m_LH_hipassemblyCOM) (List.mem_of_getElem? (i := 14) rfl)

theorem mount_RH_hipassemblyCOM : Good mountList fr_RH_hipassembly RH_hipassemblyCOM m_RH_hipassemblyCOM.tri :=
  Good.mount wf_ok (f := m_RH_hipassemblyCOM) (List.mem_of_getElem? (i := 15) rfl)

theorem mount_LF_upperlegCOM : Good mountList fr_LF_upperleg LF_upperlegCOM m_LF_upperlegCOM.tri :=
  Good.mount wf_ok (f := m_LF_upperlegCOM) (List.mem_of_getElem? (i := 16) rfl)

theorem mount_RF_upperlegCOM : Good mountList fr_RF_upperleg RF_upperlegCOM m_RF_upperlegCOM.tri :=
  Good.mount wf_ok (f := m_RF_upperlegCOM) (List.mem_of_getElem? (i := 17) rfl)

theorem mount_LH_upperlegCOM : Good mountList fr_LH_upperleg LH_upperlegCOM m_LH_upperlegCOM.tri :=
  Good.mount wf_ok (f := m_LH_upperlegCOM) (List.mem_of_getElem? (i := 18) rfl)

theorem mount_RH_upperlegCOM : Good mountList fr_RH_upperleg RH_upperlegCOM m_RH_upperlegCOM.tri :=
  Good.mount wf_ok (f := m_RH_upperlegCOM) (List.mem_of_getElem? (i := 19) rfl)

theorem mount_LF_lowerlegCOM : Good mountList fr_LF_lowerleg LF_lowerlegCOM m_LF_lowerlegCOM.tri :=
  Good.mount wf_ok (f := m_LF_lowerlegCOM) (List.mem_of_getElem? (i := 20) rfl)

theorem mount_RF_lowerlegCOM : Good mountList fr_RF_lowerleg RF_lowerlegCOM m_RF_lowerlegCOM.tri :=
  Good.mount wf_ok (f := m_RF_lowerlegCOM) (List.mem_of_getElem? (i := 21) rfl)

theorem mount_LH_lowerlegCOM : Good mountList fr_LH_lowerleg LH_lowerlegCOM m_LH_lowerlegCOM.tri :=
  Good.mount wf_ok (f := m_LH_lowerlegCOM) (List.mem_of_getElem? (i := 22) rfl)

theorem mount_RH_lowerlegCOM : Good mountList fr_RH_lowerleg RH_lowerlegCOM m_RH_lowerlegCOM.tri :=
  Good.mount wf_ok (f := m_RH_lowerlegCOM) (List.mem_of_getElem? (i := 23) rfl)

theorem mount_fr_LF_foot : Good mountList fr_LF_lowerleg fr_LF_foot m_fr_LF_foot.tri :=
  Good.mount wf_ok (f := m_fr_LF_foot) (List.mem_of_getElem? (i := 24) rfl)

theorem mount_fr_RF_foot : Good mountList fr_RF_lowerleg fr_RF_foot m_fr_RF_foot.tri :=
  Good.mount wf_ok (f := m_fr_RF_foot) (List.mem_of_getElem? (i := 25) rfl)

theorem mount_fr_LH_foot : Good mountList fr_LH_lowerleg fr_LH_foot m_fr_LH_foot.tri :=
  Good.mount wf_ok (f := m_fr_LH_foot) (List.mem_of_getElem? (i := 26) rfl)

theorem mount_fr_RH_foot : Good mountList fr_RH_lowerleg fr_RH_foot m_fr_RH_foot.tri :=
  Good.mount wf_ok (f := m_fr_RH_foot) (List.mem_of_getElem? (i := 27) rfl)

theorem mount_fr_LF_HAA : Good mountList fr_trunk fr_LF_HAA m_fr_LF_HAA.tri :=
  Good.mount wf_ok (f := m_fr_LF_HAA) (List.mem_of_getElem? (i := 28) rfl)

theorem mount_fr_RF_HAA : Good mountList fr_trunk fr_RF_HAA m_fr_RF_HAA.tri :=
  Good.mount wf_ok (f := m_fr_RF_HAA) (List.mem_of_getElem? (i := 29) rfl)

theorem mount_fr_LH_HAA : Good mountList fr_trunk fr_LH_HAA m_fr_LH_HAA.tri :=
  Good.mount wf_ok (f := m_fr_LH_HAA) (List.mem_of_getElem? (i := 30) rfl)

theorem mount_fr_RH_HAA : Good mountList fr_trunk fr_RH_HAA m_fr_RH_HAA.tri :=
  Good.mount wf_ok (f := m_fr_RH_HAA) (List.mem_of_getElem? (i := 31) rfl)

theorem mount_fr_LF_HFE : Good mountList fr_LF_hipassembly fr_LF_HFE m_fr_LF_HFE.tri :=
  Good.mount wf_ok (f := m_fr_LF_HFE) (List.mem_of_getElem? (i := 32) rfl)

theorem mount_fr_RF_HFE : Good mountList fr_RF_hipassembly fr_RF_HFE m_fr_RF_HFE.tri :=
  Good.mount wf_ok (f := m_fr_RF_HFE) (List.mem_of_getElem? (i := 33) rfl)

theorem mount_fr_LH_HFE : Good mountList fr_LH_hipassembly fr_LH_HFE m_fr_LH_HFE.tri :=
  Good.mount wf_ok (f := m_fr_LH_HFE) (List.mem_of_getElem? (i := 34) rfl)

theorem mount_fr_RH_HFE : Good mountList fr_RH_hipassembly fr_RH_HFE m_fr_RH_HFE.tri :=
  Good.mount wf_ok (f := m_fr_RH_HFE) (List.mem_of_getElem? (i := 35) rfl)

theorem mount_fr_LF_KFE : Good mountList fr_LF_upperleg fr_LF_KFE m_fr_LF_KFE.tri :=
  Good.mount wf_ok (f := m_fr_LF_KFE) (List.mem_of_getElem? (i := 36) rfl)

theorem mount_fr_RF_KFE : Good mountList fr_RF_upperleg fr_RF_KFE m_fr_RF_KFE.tri :=
  Good.mount wf_ok (f := m_fr_RF_KFE) (List.mem_of_getElem? (i := 37) rfl)

theorem mount_fr_LH_KFE : Good mountList fr_LH_upperleg fr_LH_KFE m_fr_LH_KFE.tri :=
  Good.mount wf_ok (f := m_fr_LH_KFE) (List.mem_of_getElem? (i := 38) rfl)

theorem mount_fr_RH_KFE : Good mountList fr_RH_upperleg fr_RH_KFE m_fr_RH_KFE.tri :=
  Good.mount wf_ok (f := m_fr_RH_KFE) (List.mem_of_getElem? (i := 39) rfl)

end CT.Robots.HyQ.Kin
