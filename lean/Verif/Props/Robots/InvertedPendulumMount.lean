import Verif.Model.Robots.InvertedPendulumKin
import Verif.Props.GenKinBase

/-! # InvertedPendulum: mounting poses of the frames (written by `tools/gen_kin.py`) -/

namespace CT.Robots.InvertedPendulum.Kin

open CT.GenKin

def m_fr_Link1 : Mount where
  id := fr_Link1
  parent := fr_InvertedPendulumBase
  joint := some JOINT1
  R := [.k 0 0, .k 0 0, .k 1 0, .k 0 0, .k (-1) 0, .k 0 0, .k 1 0, .k 0 0, .k 0 0]
  p := [.k 0 0, .k 0 0, .k 0 0]

def m_fr_ee : Mount where
  id := fr_ee
  parent := fr_Link1
  joint := none
  R := [.k 1 0, .k 0 0, .k 0 0, .k 0 0, .k 1 0, .k 0 0, .k 0 0, .k 0 0, .k 1 0]
  p := [.k 435 3, .k 0 0, .k 0 0]

def m_fr_Joint1 : Mount where
  id := fr_Joint1
  parent := fr_InvertedPendulumBase
  joint := none
  R := [.k 0 0, .k 0 0, .k 1 0, .k 0 0, .k (-1) 0, .k 0 0, .k 1 0, .k 0 0, .k 0 0]
  p := [.k 0 0, .k 0 0, .k 0 0]

def mountList : List Mount :=
  [m_fr_Link1,
    m_fr_ee,
    m_fr_Joint1]

theorem wf_ok : wf mountList = true := by decide +kernel

theorem mount_fr_Link1 : Good mountList fr_InvertedPendulumBase fr_Link1 m_fr_Link1.tri :=
  Good.mount wf_ok (f := m_fr_Link1) (List.mem_of_getElem? (i := 0) rfl)

theorem mount_fr_ee : Good mountList fr_Link1 fr_ee m_fr_ee.tri :=
  Good.mount wf_ok (f := m_fr_ee) (List.mem_of_getElem? (i := 1) rfl)

theorem mount_fr_Joint1 : Good mountList fr_InvertedPendulumBase fr_Joint1 m_fr_Joint1.tri :=
  Good.mount wf_ok (f := m_fr_Joint1) (List.mem_of_getElem? (i := 2) rfl)

end CT.Robots.InvertedPendulum.Kin
