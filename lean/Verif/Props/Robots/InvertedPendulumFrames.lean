import Verif.Props.Robots.InvertedPendulumKin
import Verif.Props.GenKinJac
import Verif.Props.GenKinDescr

/-! # InvertedPendulum: forward kinematics and Jacobians (written by `tools/gen_kin.py`) -/

namespace CT.Robots.InvertedPendulum.Kin

open CT.GenKin Spatial FrameJac

/-- The frames of the robot.  Each is mounted on the frame of a link (or of the base); the frames of the links
turn with their joint. -/
def frames : List Frame :=
  [⟨fr_Link1, fr_InvertedPendulumBase, some JOINT1⟩,
    ⟨fr_ee, fr_Link1, none⟩,
    ⟨fr_Joint1, fr_InvertedPendulumBase, none⟩]

theorem frames_eq : mountList.map Mount.toFrame = frames := rfl

/-- The poses in the description of the robot (`InvertedPendulum/model/ct_InvertedPendulum.kindsl`; the comments are line numbers). -/
def description : List Descr :=
  [⟨fr_Link1, 0, 0, 0, 0, 1, 2⟩,  -- 37-38
    ⟨fr_ee, 0.435, 0, 0, 0, 0, 0⟩,  -- 25-26
    ⟨fr_Joint1, 0, 0, 0, 0, 1, 2⟩]  -- 37-38

theorem described_ok : ∀ d ∈ description, mounts mountList d.id = d.pose :=
  List.forall_mem_cons.2 ⟨described wf_ok (m := m_fr_Link1) (List.mem_of_getElem? (i := 0) rfl) (by decide +kernel),
    List.forall_mem_cons.2 ⟨described wf_ok (m := m_fr_ee) (List.mem_of_getElem? (i := 1) rfl) (by decide +kernel),
    List.forall_mem_cons.2 ⟨described wf_ok (m := m_fr_Joint1) (List.mem_of_getElem? (i := 2) rfl) (by decide +kernel),
    List.forall_mem_nil _⟩⟩⟩

theorem transforms_right (q : ℕ → ℝ) :
    ∀ x ∈ transforms, x.Right q (Pose.rel (poses mountList q x.A) (poses mountList q x.B)) :=
  List.forall_mem_cons.2 ⟨Trans.right o_fr_InvertedPendulumBase_X_fr_Link1 g_fr_InvertedPendulumBase_X_fr_Link1 q,
    List.forall_mem_cons.2 ⟨Trans.right o_fr_InvertedPendulumBase_X_fr_ee g_fr_InvertedPendulumBase_X_fr_ee q,
    List.forall_mem_cons.2 ⟨Trans.right o_fr_Link1_X_fr_InvertedPendulumBase g_fr_Link1_X_fr_InvertedPendulumBase q,
    List.forall_mem_cons.2 ⟨Trans.right o_fr_ee_X_fr_InvertedPendulumBase g_fr_ee_X_fr_InvertedPendulumBase q,
    List.forall_mem_cons.2 ⟨Trans.right o_fr_InvertedPendulumBase_X_fr_Joint1 g_fr_InvertedPendulumBase_X_fr_Joint1 q,
    List.forall_mem_nil _⟩⟩⟩⟩⟩

/-- C130: all transforms of the InvertedPendulum are those between its frames, which are mounted as described. -/
theorem C130_InvertedPendulum_transforms :
    ∃ C : ℕ → Pose, (∀ f, IsRot (C f).R) ∧ (∀ d ∈ description, C d.id = d.pose) ∧
    ∀ q, ∃ G, Arranged frames C q G ∧ ∀ x ∈ transforms, x.Right q (Pose.rel (G x.A) (G x.B)) := by
  refine ⟨mounts mountList, mounts_rot wf_ok, described_ok, fun q => ⟨poses mountList q, ?_, transforms_right q⟩⟩
  rw [← frames_eq]
  exact arranged wf_ok q

theorem parents : ∀ g ∈ mountList, g.parent = 0 ∨ ∃ g' ∈ mountList, g'.id = g.parent := by decide +kernel

theorem j_fr_InvertedPendulumBase_J_fr_Link1 : fr_InvertedPendulumBase_J_fr_Link1.Right frames transforms := by
  rw [← frames_eq]
  exact Jac.right (cs := [(JOINT1, fr_InvertedPendulumBase_X_fr_Link1)]) wf_ok parents
    (Or.inr ⟨m_fr_Link1, List.mem_of_getElem? (i := 0) rfl, rfl⟩)
    (List.mem_of_getElem? (i := 0) rfl) o_fr_InvertedPendulumBase_X_fr_Link1 g_fr_InvertedPendulumBase_X_fr_Link1
    (List.forall_mem_cons.2 ⟨g_fr_InvertedPendulumBase_X_fr_Link1, List.forall_mem_nil _⟩)
    (by decide +kernel)

theorem j_fr_InvertedPendulumBase_J_fr_ee : fr_InvertedPendulumBase_J_fr_ee.Right frames transforms := by
  rw [← frames_eq]
  exact Jac.right (cs := [(JOINT1, fr_InvertedPendulumBase_X_fr_Link1)]) wf_ok parents
    (Or.inr ⟨m_fr_ee, List.mem_of_getElem? (i := 1) rfl, rfl⟩)
    (List.mem_of_getElem? (i := 1) rfl) o_fr_InvertedPendulumBase_X_fr_ee g_fr_InvertedPendulumBase_X_fr_ee
    (List.forall_mem_cons.2 ⟨g_fr_InvertedPendulumBase_X_fr_Link1, List.forall_mem_nil _⟩)
    (by decide +kernel)

/-- C131: all Jacobians of the InvertedPendulum map joint velocities to the velocities of their frames. -/
theorem C131_InvertedPendulum_jacobians : ∀ j ∈ jacobians, j.Right frames transforms :=
  List.forall_mem_cons.2 ⟨j_fr_InvertedPendulumBase_J_fr_Link1,
    List.forall_mem_cons.2 ⟨j_fr_InvertedPendulumBase_J_fr_ee,
    List.forall_mem_nil _⟩⟩

end CT.Robots.InvertedPendulum.Kin
