import Verif.Props.Robots.DoubleInvertedPendulumKin
import Verif.Props.GenKinJac
import Verif.Props.GenKinDescr

/-! # DoubleInvertedPendulum: forward kinematics and Jacobians (written by `tools/gen_kin.py`) -/

namespace CT.Robots.DoubleInvertedPendulum.Kin

open CT.GenKin Spatial FrameJac

/-- The frames of the robot.  Each is mounted on the frame of a link (or of the base); the frames of the links
turn with their joint. -/
def frames : List Frame :=
  [⟨fr_Link1, fr_DoubleInvertedPendulumBase, some JOINT1⟩,
    ⟨fr_Link2, fr_Link1, some JOINT2⟩,
    ⟨fr_ee, fr_Link2, none⟩,
    ⟨fr_Joint1, fr_DoubleInvertedPendulumBase, none⟩,
    ⟨fr_Joint2, fr_Link1, none⟩]

theorem frames_eq : mountList.map Mount.toFrame = frames := rfl

/-- The poses in the description of the robot (`DoubleInvertedPendulum/model/ct_DoubleInvertedPendulum.kindsl`; the comments are line numbers). -/
def description : List Descr :=
  [⟨fr_Link1, 0, 0, 0, 0, 1, 2⟩,  -- 57-58
    ⟨fr_Link2, 1, 0, 0, 0, 0, 0⟩,  -- 64-65
    ⟨fr_ee, 1, 0, 0, 0, 0, 0⟩,  -- 45-46
    ⟨fr_Joint1, 0, 0, 0, 0, 1, 2⟩,  -- 57-58
    ⟨fr_Joint2, 1, 0, 0, 0, 0, 0⟩]  -- 64-65

theorem described_ok : ∀ d ∈ description, mounts mountList d.id = d.pose :=
  List.forall_mem_cons.2 ⟨described wf_ok (m := m_fr_Link1) (List.mem_of_getElem? (i := 0) rfl) (by decide +kernel),
    List.forall_mem_cons.2 ⟨described wf_ok (m := m_fr_Link2) (List.mem_of_getElem? (i := 1) rfl) (by decide +kernel),
    List.forall_mem_cons.2 ⟨described wf_ok (m := m_fr_ee) (List.mem_of_getElem? (i := 2) rfl) (by decide +kernel),
    List.forall_mem_cons.2 ⟨described wf_ok (m := m_fr_Joint1) (List.mem_of_getElem? (i := 3) rfl) (by decide +kernel),
    List.forall_mem_cons.2 ⟨described wf_ok (m := m_fr_Joint2) (List.mem_of_getElem? (i := 4) rfl) (by decide +kernel),
    List.forall_mem_nil _⟩⟩⟩⟩⟩

theorem transforms_right (q : ℕ → ℝ) :
    ∀ x ∈ transforms, x.Right q (Pose.rel (poses mountList q x.A) (poses mountList q x.B)) :=
  List.forall_mem_cons.2 ⟨Trans.right o_fr_DoubleInvertedPendulumBase_X_fr_Link1 g_fr_DoubleInvertedPendulumBase_X_fr_Link1 q,
    List.forall_mem_cons.2 ⟨Trans.right o_fr_DoubleInvertedPendulumBase_X_fr_Link2 g_fr_DoubleInvertedPendulumBase_X_fr_Link2 q,
    List.forall_mem_cons.2 ⟨Trans.right o_fr_DoubleInvertedPendulumBase_X_fr_ee g_fr_DoubleInvertedPendulumBase_X_fr_ee q,
    List.forall_mem_cons.2 ⟨Trans.right o_fr_Link2_X_fr_DoubleInvertedPendulumBase g_fr_Link2_X_fr_DoubleInvertedPendulumBase q,
    List.forall_mem_cons.2 ⟨Trans.right o_fr_Link1_X_fr_DoubleInvertedPendulumBase g_fr_Link1_X_fr_DoubleInvertedPendulumBase q,
    List.forall_mem_cons.2 ⟨Trans.right o_fr_ee_X_fr_DoubleInvertedPendulumBase g_fr_ee_X_fr_DoubleInvertedPendulumBase q,
    List.forall_mem_cons.2 ⟨Trans.right o_fr_DoubleInvertedPendulumBase_X_fr_Joint1 g_fr_DoubleInvertedPendulumBase_X_fr_Joint1 q,
    List.forall_mem_cons.2 ⟨Trans.right o_fr_DoubleInvertedPendulumBase_X_fr_Joint2 g_fr_DoubleInvertedPendulumBase_X_fr_Joint2 q,
    List.forall_mem_cons.2 ⟨Trans.right o_fr_Link2_X_fr_Link1 g_fr_Link2_X_fr_Link1 q,
    List.forall_mem_cons.2 ⟨Trans.right o_fr_Link1_X_fr_Link2 g_fr_Link1_X_fr_Link2 q,
    List.forall_mem_nil _⟩⟩⟩⟩⟩⟩⟩⟩⟩⟩

/-- C130: all transforms of the DoubleInvertedPendulum are those between its frames, which are mounted as described. -/
theorem C130_DoubleInvertedPendulum_transforms :
    ∃ C : ℕ → Pose, (∀ f, IsRot (C f).R) ∧ (∀ d ∈ description, C d.id = d.pose) ∧
    ∀ q, ∃ G, Arranged frames C q G ∧ ∀ x ∈ transforms, x.Right q (Pose.rel (G x.A) (G x.B)) := by
  refine ⟨mounts mountList, mounts_rot wf_ok, described_ok, fun q => ⟨poses mountList q, ?_, transforms_right q⟩⟩
  rw [← frames_eq]
  exact arranged wf_ok q

theorem parents : ∀ g ∈ mountList, g.parent = 0 ∨ ∃ g' ∈ mountList, g'.id = g.parent := by decide +kernel

theorem j_fr_DoubleInvertedPendulumBase_J_fr_Link2 : fr_DoubleInvertedPendulumBase_J_fr_Link2.Right frames transforms := by
  rw [← frames_eq]
  exact Jac.right (cs := [(JOINT1, fr_DoubleInvertedPendulumBase_X_fr_Link1), (JOINT2, fr_DoubleInvertedPendulumBase_X_fr_Link2)]) wf_ok parents
    (Or.inr ⟨m_fr_Link2, List.mem_of_getElem? (i := 1) rfl, rfl⟩)
    (List.mem_of_getElem? (i := 1) rfl) o_fr_DoubleInvertedPendulumBase_X_fr_Link2 g_fr_DoubleInvertedPendulumBase_X_fr_Link2
    (List.forall_mem_cons.2 ⟨g_fr_DoubleInvertedPendulumBase_X_fr_Link1, List.forall_mem_cons.2 ⟨g_fr_DoubleInvertedPendulumBase_X_fr_Link2, List.forall_mem_nil _⟩⟩)
    (by decide +kernel)

theorem j_fr_DoubleInvertedPendulumBase_J_fr_Link1 : fr_DoubleInvertedPendulumBase_J_fr_Link1.Right frames transforms := by
  rw [← frames_eq]
  exact Jac.right (cs := [(JOINT1, fr_DoubleInvertedPendulumBase_X_fr_Link1)]) wf_ok parents
    (Or.inr ⟨m_fr_Link1, List.mem_of_getElem? (i := 0) rfl, rfl⟩)
    (List.mem_of_getElem? (i := 0) rfl) o_fr_DoubleInvertedPendulumBase_X_fr_Link1 g_fr_DoubleInvertedPendulumBase_X_fr_Link1
    (List.forall_mem_cons.2 ⟨g_fr_DoubleInvertedPendulumBase_X_fr_Link1, List.forall_mem_nil _⟩)
    (by decide +kernel)

theorem j_fr_DoubleInvertedPendulumBase_J_fr_ee : fr_DoubleInvertedPendulumBase_J_fr_ee.Right frames transforms := by
  rw [← frames_eq]
  exact Jac.right (cs := [(JOINT1, fr_DoubleInvertedPendulumBase_X_fr_Link1), (JOINT2, fr_DoubleInvertedPendulumBase_X_fr_Link2)]) wf_ok parents
    (Or.inr ⟨m_fr_ee, List.mem_of_getElem? (i := 2) rfl, rfl⟩)
    (List.mem_of_getElem? (i := 2) rfl) o_fr_DoubleInvertedPendulumBase_X_fr_ee g_fr_DoubleInvertedPendulumBase_X_fr_ee
    (List.forall_mem_cons.2 ⟨g_fr_DoubleInvertedPendulumBase_X_fr_Link1, List.forall_mem_cons.2 ⟨g_fr_DoubleInvertedPendulumBase_X_fr_Link2, List.forall_mem_nil _⟩⟩)
    (by decide +kernel)

/-- C131: all Jacobians of the DoubleInvertedPendulum map joint velocities to the velocities of their frames. -/
theorem C131_DoubleInvertedPendulum_jacobians : ∀ j ∈ jacobians, j.Right frames transforms :=
  List.forall_mem_cons.2 ⟨j_fr_DoubleInvertedPendulumBase_J_fr_Link2,
    List.forall_mem_cons.2 ⟨j_fr_DoubleInvertedPendulumBase_J_fr_Link1,
    List.forall_mem_cons.2 ⟨j_fr_DoubleInvertedPendulumBase_J_fr_ee,
    List.forall_mem_nil _⟩⟩⟩

end CT.Robots.DoubleInvertedPendulum.Kin
