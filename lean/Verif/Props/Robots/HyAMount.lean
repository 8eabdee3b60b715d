import Verif.Model.Robots.HyAKin
import Verif.Props.GenKinBase

/-! # HyA: mounting poses of the frames (written by `tools/gen_kin.py`) -/

namespace CT.Robots.HyA.Kin

open CT.GenKin

def m_fr_Shoulder_AA : Mount where
  id := fr_Shoulder_AA
  parent := fr_HyABase
  joint := some SAA
  R := [.k 1 0, .k 0 0, .k 0 0, .k 0 0, .k 1 0, .k 0 0, .k 0 0, .k 0 0, .k 1 0]
  p := [.k 0 0, .k 0 0, .k 0 0]

def m_fr_Shoulder_FE : Mount where
  id := fr_Shoulder_FE
  parent := fr_Shoulder_AA
  joint := some SFE
  R := [.k 1 0, .k 0 0, .k 0 0, .k 0 0, .k 0 0, .k (-1) 0, .k 0 0, .k 1 0, .k 0 0]
  p := [.k 0 0, .k 0 0, .k 178 3]

def m_fr_Humerus_R : Mount where
  id := fr_Humerus_R
  parent := fr_Shoulder_FE
  joint := some HR
  R := [.k 0 0, .k 0 0, .k 1 0, .k 0 0, .k 1 0, .k 0 0, .k (-1) 0, .k 0 0, .k 0 0]
  p := [.k 112 3, .k 0 0, .k 0 0]

def m_fr_Elbow_FE : Mount where
  id := fr_Elbow_FE
  parent := fr_Humerus_R
  joint := some EFE
  R := [.k 0 0, .k 0 0, .k (-1) 0, .k 0 0, .k 1 0, .k 0 0, .k 1 0, .k 0 0, .k 0 0]
  p := [.k 0 0, .k 0 0, .k 304 3]

def m_fr_Wrist_R : Mount where
  id := fr_Wrist_R
  parent := fr_Elbow_FE
  joint := some WR
  R := [.k 0 0, .k 0 0, .k 1 0, .k 0 0, .k 1 0, .k 0 0, .k (-1) 0, .k 0 0, .k 0 0]
  p := [.k 112 3, .k 0 0, .k 0 0]

def m_fr_Wrist_FE : Mount where
  id := fr_Wrist_FE
  parent := fr_Wrist_R
  joint := some WFE
  R := [.k 0 0, .k 1 0, .k 0 0, .k 0 0, .k 0 0, .k 1 0, .k 1 0, .k 0 0, .k 0 0]
  p := [.k 2075 5, .k 0 0, .k 184 3]

def m_fr_ee : Mount where
  id := fr_ee
  parent := fr_Wrist_FE
  joint := none
  R := [.k 1 0, .k 0 0, .k 0 0, .k 0 0, .k 1 0, .k 0 0, .k 0 0, .k 0 0, .k 1 0]
  p := [.k 3 2, .k 0 0, .k 0 0]

def m_fr_Shoulder_AA_COM : Mount where
  id := fr_Shoulder_AA_COM
  parent := fr_Shoulder_AA
  joint := none
  R := [.k 1 0, .k 0 0, .k 0 0, .k 0 0, .k 1 0, .k 0 0, .k 0 0, .k 0 0, .k 1 0]
  p := [.k (-2) 4, .k (-36) 5, .k 309 5]

def m_fr_Shoulder_FE_COM : Mount where
  id := fr_Shoulder_FE_COM
  parent := fr_Shoulder_FE
  joint := none
  R := [.k 1 0, .k 0 0, .k 0 0, .k 0 0, .k 1 0, .k 0 0, .k 0 0, .k 0 0, .k 1 0]
  p := [.k (-383) 5, .k (-2338) 5, .k 117 5]

def m_fr_Humerus_R_COM : Mount where
  id := fr_Humerus_R_COM
  parent := fr_Humerus_R
  joint := none
  R := [.k 1 0, .k 0 0, .k 0 0, .k 0 0, .k 1 0, .k 0 0, .k 0 0, .k 0 0, .k 1 0]
  p := [.k (-239) 5, .k 618 5, .k (-2554) 5]

def m_fr_Elbow_FE_COM : Mount where
  id := fr_Elbow_FE_COM
  parent := fr_Elbow_FE
  joint := none
  R := [.k 1 0, .k 0 0, .k 0 0, .k 0 0, .k 1 0, .k 0 0, .k 0 0, .k 0 0, .k 1 0]
  p := [.k (-1466) 4, .k (-1125) 5, .k 102 5]

def m_fr_Wrist_R_COM : Mount where
  id := fr_Wrist_R_COM
  parent := fr_Wrist_R
  joint := none
  R := [.k 1 0, .k 0 0, .k 0 0, .k 0 0, .k 1 0, .k 0 0, .k 0 0, .k 0 0, .k 1 0]
  p := [.k 4 4, .k (-261) 5, .k (-2317) 5]

def m_fr_Wrist_FE_COM : Mount where
  id := fr_Wrist_FE_COM
  parent := fr_Wrist_FE
  joint := none
  R := [.k 1 0, .k 0 0, .k 0 0, .k 0 0, .k 1 0, .k 0 0, .k 0 0, .k 0 0, .k 1 0]
  p := [.k (-7876) 5, .k (-1063) 5, .k (-84) 5]

def m_fr_Shoulder_AA_CTR : Mount where
  id := fr_Shoulder_AA_CTR
  parent := fr_Shoulder_AA
  joint := none
  R := [.k 1 0, .k 0 0, .k 0 0, .k 0 0, .k 1 0, .k 0 0, .k 0 0, .k 0 0, .k 1 0]
  p := [.k 0 0, .k 0 0, .k 89 3]

def m_fr_Shoulder_FE_CTR : Mount where
  id := fr_Shoulder_FE_CTR
  parent := fr_Shoulder_FE
  joint := none
  R := [.k 1 0, .k 0 0, .k 0 0, .k 0 0, .k 1 0, .k 0 0, .k 0 0, .k 0 0, .k 1 0]
  p := [.k 56 3, .k 0 0, .k 0 0]

def m_fr_Humerus_R_CTR : Mount where
  id := fr_Humerus_R_CTR
  parent := fr_Humerus_R
  joint := none
  R := [.k 1 0, .k 0 0, .k 0 0, .k 0 0, .k 1 0, .k 0 0, .k 0 0, .k 0 0, .k 1 0]
  p := [.k 0 0, .k 0 0, .k 152 3]

def m_fr_Elbow_FE_CTR : Mount where
  id := fr_Elbow_FE_CTR
  parent := fr_Elbow_FE
  joint := none
  R := [.k 1 0, .k 0 0, .k 0 0, .k 0 0, .k 1 0, .k 0 0, .k 0 0, .k 0 0, .k 1 0]
  p := [.k 56 3, .k 0 0, .k 0 0]

def m_fr_Wrist_R_CTR : Mount where
  id := fr_Wrist_R_CTR
  parent := fr_Wrist_R
  joint := none
  R := [.k 1 0, .k 0 0, .k 0 0, .k 0 0, .k 1 0, .k 0 0, .k 0 0, .k 0 0, .k 1 0]
  p := [.k 0 0, .k 0 0, .k 92 3]

def m_fr_SAA : Mount where
  id := fr_SAA
  parent := fr_HyABase
  joint := none
  R := [.k 1 0, .k 0 0, .k 0 0, .k 0 0, .k 1 0, .k 0 0, .k 0 0, .k 0 0, .k 1 0]
  p := [.k 0 0, .k 0 0, .k 0 0]

def m_fr_SFE : Mount where
  id := fr_SFE
  parent := fr_Shoulder_AA
  joint := none
  R := [.k 1 0, .k 0 0, .k 0 0, .k 0 0, .k 0 0, .k (-1) 0, .k 0 0, .k 1 0, .k 0 0]
  p := [.k 0 0, .k 0 0, .k 178 3]

def m_fr_HR : Mount where
  id := fr_HR
  parent := fr_Shoulder_FE
  joint := none
  R := [.k 0 0, .k 0 0, .k 1 0, .k 0 0, .k 1 0, .k 0 0, .k (-1) 0, .k 0 0, .k 0 0]
  p := [.k 112 3, .k 0 0, .k 0 0]

def m_fr_EFE : Mount where
  id := fr_EFE
  parent := fr_Humerus_R
  joint := none
  R := [.k 0 0, .k 0 0, .k (-1) 0, .k 0 0, .k 1 0, .k 0 0, .k 1 0, .k 0 0, .k 0 0]
  p := [.k 0 0, .k 0 0, .k 304 3]

def m_fr_WR : Mount where
  id := fr_WR
  parent := fr_Elbow_FE
  joint := none
  R := [.k 0 0, .k 0 0, .k 1 0, .k 0 0, .k 1 0, .k 0 0, .k (-1) 0, .k 0 0, .k 0 0]
  p := [.k 112 3, .k 0 0, .k 0 0]

def m_fr_WFE : Mount where
  id := fr_WFE
  parent := fr_Wrist_R
  joint := none
  R := [.k 0 0, .k 1 0, .k 0 0, .k 0 0, .k 0 0, .k 1 0, .k 1 0, .k 0 0, .k 0 0]
  p := [.k 2075 5, .k 0 0, .k 184 3]

def mountList : List Mount :=
  [m_fr_Shoulder_AA,
    m_fr_Shoulder_FE,
    m_fr_Humerus_R,
    m_fr_Elbow_FE,
    m_fr_Wrist_R,
    m_fr_Wrist_FE,
    m_fr_ee,
    m_fr_Shoulder_AA_COM,
    m_fr_Shoulder_FE_COM,
    m_fr_Humerus_R_COM,
    m_fr_Elbow_FE_COM,
    m_fr_Wrist_R_COM,
    m_fr_Wrist_FE_COM,
    m_fr_Shoulder_AA_CTR,
    m_fr_Shoulder_FE_CTR,
    m_fr_Humerus_R_CTR,
    m_fr_Elbow_FE_CTR,
    m_fr_Wrist_R_CTR,
    m_fr_SAA,
    m_fr_SFE,
    m_fr_HR,
    m_fr_EFE,
    m_fr_WR,
    m_fr_WFE]

theorem wf_ok : wf mountList = true := by decide +kernel

theorem mount_fr_Shoulder_AA : Good mountList fr_HyABase fr_Shoulder_AA m_fr_Shoulder_AA.tri :=
  Good.mount wf_ok (f := m_fr_Shoulder_AA) (List.mem_of_getElem? (i := 0) rfl)

theorem mount_fr_Shoulder_FE : Good mountList fr_Shoulder_AA fr_Shoulder_FE m_fr_Shoulder_FE.tri :=
  Good.mount wf_ok (f := m_fr_Shoulder_FE) (List.mem_of_getElem? (i := 1) rfl)

theorem mount_fr_Humerus_R : Good mountList fr_Shoulder_FE fr_Humerus_R m_fr_Humerus_R.tri :=
  Good.mount wf_ok (f := m_fr_Humerus_R) (List.mem_of_getElem? (i := 2) rfl)

theorem mount_fr_Elbow_FE : Good mountList fr_Humerus_R fr_Elbow_FE m_fr_Elbow_FE.tri :=
  Good.mount wf_ok (f := m_fr_Elbow_FE) (List.mem_of_getElem? (i := 3) rfl)

theorem mount_fr_Wrist_R : Good mountList fr_Elbow_FE fr_Wrist_R m_fr_Wrist_R.tri :=
  Good.mount wf_ok (f := m_fr_Wrist_R) (List.mem_of_getElem? (i := 4) rfl)

theorem mount_fr_Wrist_FE : Good mountList fr_Wrist_R fr_Wrist_FE m_fr_Wrist_FE.tri :=
  Good.mount wf_ok (f := m_fr_Wrist_FE) (List.mem_of_getElem? (i := 5) rfl)

theorem mount_fr_ee : Good mountList fr_Wrist_FE fr_ee m_fr_ee.tri :=
  Good.mount wf_ok (f := m_fr_ee) (List.mem_of_getElem? (i := 6) rfl)

theorem mount_fr_Shoulder_AA_COM : Good mountList fr_Shoulder_AA fr_Shoulder_AA_COM m_fr_Shoulder_AA_COM.tri :=
  Good.mount wf_ok (f := m_fr_Shoulder_AA_COM) (List.mem_of_getElem? (i := 7) rfl)

theorem mount_fr_Shoulder_FE_COM : Good mountList fr_Shoulder_FE fr_Shoulder_FE_COM m_fr_Shoulder_FE_COM.tri :=
  Good.mount wf_ok (f := m_fr_Shoulder_FE_COM) (List.mem_of_getElem? (i := 8) rfl)

theorem mount_fr_Humerus_R_COM : Good mountList fr_Humerus_R fr_Humerus_R_COM m_fr_Humerus_R_COM.tri :=
  Good.mount wf_ok (f := m_fr_Humerus_R_COM) (List.mem_of_getElem? (i := 9) rfl)

theorem mount_fr_Elbow_FE_COM : Good mountList fr_Elbow_FE fr_Elbow_FE_COM m_fr_Elbow_FE_COM.tri :=
  Good.mount wf_ok (f := m_fr_Elbow_FE_COM) (List.mem_of_getElem? (i := 10) rfl)

theorem mount_fr_Wrist_R_COM : Good mountList fr_Wrist_R fr_Wrist_R_COM m_fr_Wrist_R_COM.tri :=
  Good.mount wf_ok (f := m_fr_Wrist_R_COM) (List.mem_of_getElem? (i := 11) rfl)

theorem mount_fr_Wrist_FE_COM : Good mountList fr_Wrist_FE fr_Wrist_FE_COM m_fr_Wrist_FE_COM.tri :=
  Good.mount wf_ok (f := m_fr_Wrist_FE_COM) (List.mem_of_getElem? (i := 12) rfl)

theorem mount_fr_Shoulder_AA_CTR : Good mountList fr_Shoulder_AA fr_Shoulder_AA_CTR m_fr_Shoulder_AA_CTR.tri :=
  Good.mount wf_ok (f := m_fr_Shoulder_AA_CTR) (List.mem_of_getElem? (i := 13) rfl)

theorem mount_fr_Shoulder_FE_CTR : Good mountList fr_Shoulder_FE fr_Shoulder_FE_CTR m_fr_Shoulder_FE_CTR.tri :=
  Good.mount wf_ok (f := m_fr_Shoulder_FE_CTR) (List.mem_of_getElem? (i := 14) rfl)

theorem mount_fr_Humerus_R_CTR : Good mountList fr_Humerus_R fr_Humerus_R_CTR m_fr_Humerus_R_CTR.tri :=
  Good.mount wf_ok (f := m_fr_Humerus_R_CTR) (List.mem_of_getElem? (i := 15) rfl)

theorem mount_fr_Elbow_FE_CTR : Good mountList fr_Elbow_FE fr_Elbow_FE_CTR m_fr_Elbow_FE_CTR.tri :=
  Good.mount wf_ok (f := m_fr_Elbow_FE_CTR) (List.mem_of_getElem? (i := 16) rfl)

theorem mount_fr_Wrist_R_CTR : Good mountList fr_Wrist_R fr_Wrist_R_CTR m_fr_Wrist_R_CTR.tri :=
  Good.mount wf_ok (f := m_fr_Wrist_R_CTR) (List.mem_of_getElem? (i := 17) rfl)

theorem mount_fr_SAA : Good mountList fr_HyABase fr_SAA m_fr_SAA.tri :=
  Good.mount wf_ok (f := m_fr_SAA) (List.mem_of_getElem? (i := 18) rfl)

theorem mount_fr_SFE : Good mountList fr_Shoulder_AA fr_SFE m_fr_SFE.tri :=
  Good.mount wf_ok (f := m_fr_SFE) (List.mem_of_getElem? (i := 19) rfl)

theorem mount_fr_HR : Good mountList fr_Shoulder_FE fr_HR m_fr_HR.tri :=
  Good.mount wf_ok (f := m_fr_HR) (List.mem_of_getElem? (i := 20) rfl)

theorem mount_fr_EFE : Good mountList fr_Humerus_R fr_EFE m_fr_EFE.tri :=
  Good.mount wf_ok (f := m_fr_EFE) (List.mem_of_getElem? (i := 21) rfl)

theorem mount_fr_WR : Good mountList fr_Elbow_FE fr_WR m_fr_WR.tri :=
  Good.mount wf_ok (f := m_fr_WR) (List.mem_of_getElem? (i := 22) rfl)

theorem mount_fr_WFE : Good mountList fr_Wrist_R fr_WFE m_fr_WFE.tri :=
  Good.mount wf_ok (f := m_fr_WFE) (List.mem_of_getElem? (i := 23) rfl)

end CT.Robots.HyA.Kin
