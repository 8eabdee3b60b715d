import Verif.Model.Robots.QuadrotorWithLoadKin
import Verif.Props.GenKinBase

/-! # QuadrotorWithLoad: mounting poses of the frames (written by `tools/gen_kin.py`) -/

namespace CT.Robots.QuadrotorWithLoad.Kin

open CT.GenKin

def m_fr_link1 : Mount where
  id := fr_link1
  parent := fr_body
  joint := some JA
  R := [.k 1 0, .k 0 0, .k 0 0, .k 0 0, .k 1 0, .k 0 0, .k 0 0, .k 0 0, .k 1 0]
  p := [.k 0 0, .k 0 0, .k 0 0]

def m_fr_link2 : Mount where
  id := fr_link2
  parent := fr_link1
  joint := some JB
  R := [.k 0 0, .k 1 0, .k 0 0, .k 0 0, .k 0 0, .k (-1) 0, .k (-1) 0, .k 0 0, .k 0 0]
  p := [.k 0 0, .k 0 0, .k (-1) 1]

def m_fr_ee : Mount where
  id := fr_ee
  parent := fr_link2
  joint := none
  R := [.k 1 0, .k 0 0, .k 0 0, .k 0 0, .k 1 0, .k 0 0, .k 0 0, .k 0 0, .k 1 0]
  p := [.k 7 1, .k 0 0, .k 0 0]

def m_fr_com0 : Mount where
  id := fr_com0
  parent := fr_body
  joint := none
  R := [.k 1 0, .k 0 0, .k 0 0, .k 0 0, .k 1 0, .k 0 0, .k 0 0, .k 0 0, .k 1 0]
  p := [.k 0 0, .k 0 0, .k 0 0]

def m_fr_com1 : Mount where
  id := fr_com1
  parent := fr_link1
  joint := none
  R := [.k 1 0, .k 0 0, .k 0 0, .k 0 0, .k 1 0, .k 0 0, .k 0 0, .k 0 0, .k 1 0]
  p := [.k 0 0, .k 0 0, .k (-5) 2]

def m_fr_jA : Mount where
  id := fr_jA
  parent := fr_body
  joint := none
  R := [.k 1 0, .k 0 0, .k 0 0, .k 0 0, .k 1 0, .k 0 0, .k 0 0, .k 0 0, .k 1 0]
  p := [.k 0 0, .k 0 0, .k 0 0]

def m_fr_jB : Mount where
  id := fr_jB
  parent := fr_link1
  joint := none
  R := [.k 0 0, .k 1 0, .k 0 0, .k 0 0, .k 0 0, .k (-1) 0, .k (-1) 0, .k 0 0, .k 0 0]
  p := [.k 0 0, .k 0 0, .k (-1) 1]

def mountList : List Mount :=
  [m_fr_link1,
    m_fr_link2,
    m_fr_ee,
    m_fr_com0,
    m_fr_com1,
    m_fr_jA,
    m_fr_jB]

theorem wf_ok : wf mountList = true := by decide +kernel

theorem mount_fr_link1 : Good mountList fr_body fr_link1 m_fr_link1.tri :=
  Good.mount wf_ok (f := m_fr_link1) (List.mem_of_getElem? (i := 0) rfl)

theorem mount_fr_link2 : Good mountList fr_link1 fr_link2 m_fr_link2.tri :=
  Good.mount wf_ok (f := m_fr_link2) (List.mem_of_getElem? (i := 1) rfl)

theorem mount_fr_ee : Good mountList fr_link2 fr_ee m_fr_ee.tri :=
  Good.mount wf_ok (f := m_fr_ee) (List.mem_of_getElem? (i := 2) rfl)

theorem mount_fr_com0 : Good mountList fr_body fr_com0 m_fr_com0.tri :=
  Good.mount wf_ok (f := m_fr_com0) (List.mem_of_getElem? (i := 3) rfl)

theorem mount_fr_com1 : Good mountList fr_link1 fr_com1 m_fr_com1.tri :=
  Good.mount wf_ok (f := m_fr_com1) (List.mem_of_getElem? (i := 4) rfl)

theorem mount_fr_jA : Good mountList fr_body fr_jA m_fr_jA.tri :=
  Good.mount wf_ok (f := m_fr_jA) (List.mem_of_getElem? (i := 5) rfl)

theorem mount_fr_jB : Good mountList fr_link1 fr_jB m_fr_jB.tri :=
  Good.mount wf_ok (f := m_fr_jB) (List.mem_of_getElem? (i := 6) rfl)

end CT.Robots.QuadrotorWithLoad.Kin
