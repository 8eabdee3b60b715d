import Verif.Props.Robots.QuadrotorWithLoadKin
import Verif.Props.GenKinJac
import Verif.Props.GenKinDescr

/-! # QuadrotorWithLoad: forward kinematics and Jacobians (written by `tools/gen_kin.py`) -/

namespace CT.Robots.QuadrotorWithLoad.Kin

open CT.GenKin Spatial FrameJac

/-- The frames of the robot.  Each is mounted on the frame of a link (or of the base); the frames of the links
turn with their joint. -/
def frames : List Frame :=
  [⟨fr_link1, fr_body, some JA⟩,
    ⟨fr_link2, fr_link1, some JB⟩,
    ⟨fr_ee, fr_link2, none⟩,
    ⟨fr_com0, fr_body, none⟩,
    ⟨fr_com1, fr_link1, none⟩,
    ⟨fr_jA, fr_body, none⟩,
    ⟨fr_jB, fr_link1, none⟩]

theorem frames_eq : mountList.map Mount.toFrame = frames := rfl

/-- The poses in the description of the robot (`QuadrotorWithLoad/model/ct_quadrotor.kindsl`; the comments are line numbers). -/
def description : List Descr :=
  [⟨fr_link1, 0, 0, 0, 0, 0, 0⟩,  -- 59-60
    ⟨fr_link2, 0, 0, (-0.1), 1, 0, -1⟩,  -- 66-67
    ⟨fr_ee, 0.7, 0, 0, 0, 0, 0⟩,  -- 50-51
    ⟨fr_com0, 0, 0, 0, 0, 0, 0⟩,  -- 14-15
    ⟨fr_com1, 0, 0, (-0.05), 0, 0, 0⟩,  -- 33-34
    ⟨fr_jA, 0, 0, 0, 0, 0, 0⟩,  -- 59-60
    ⟨fr_jB, 0, 0, (-0.1), 1, 0, -1⟩]  -- 66-67

theorem described_ok : ∀ d ∈ description, mounts mountList d.id = d.pose :=
  List.forall_mem_cons.2 ⟨described wf_ok (m := m_fr_link1) (List.mem_of_getElem? (i := 0) rfl) (by decide +kernel),
    List.forall_mem_cons.2 ⟨described wf_ok (m := m_fr_link2) (List.mem_of_getElem? (i := 1) rfl) (by decide +kernel),
    List.forall_mem_cons.2 ⟨described wf_ok (m := m_fr_ee) (List.mem_of_getElem? (i := 2) rfl) (by decide +kernel),
    List.forall_mem_cons.2 ⟨described wf_ok (m := m_fr_com0) (List.mem_of_getElem? (i := 3) rfl) (by decide +kernel),
    List.forall_mem_cons.2 ⟨described wf_ok (m := m_fr_com1) (List.mem_of_getElem? (i := 4) rfl) (by decide +kernel),
    List.forall_mem_cons.2 ⟨described wf_ok (m := m_fr_jA) (List.mem_of_getElem? (i := 5) rfl) (by decide +kernel),
    List.forall_mem_cons.2 ⟨described wf_ok (m := m_fr_jB) (List.mem_of_getElem? (i := 6) rfl) (by decide +kernel),
    List.forall_mem_nil _⟩⟩⟩⟩⟩⟩⟩

theorem transforms_right (q : ℕ → ℝ) :
    ∀ x ∈ transforms, x.Right q (Pose.rel (poses mountList q x.A) (poses mountList q x.B)) :=
  List.forall_mem_cons.2 ⟨Trans.right o_fr_body_X_fr_link1 g_fr_body_X_fr_link1 q,
    List.forall_mem_cons.2 ⟨Trans.right o_fr_body_X_fr_link2 g_fr_body_X_fr_link2 q,
    List.forall_mem_cons.2 ⟨Trans.right o_fr_body_X_fr_ee g_fr_body_X_fr_ee q,
    List.forall_mem_cons.2 ⟨Trans.right o_fr_body_X_fr_com0 g_fr_body_X_fr_com0 q,
    List.forall_mem_cons.2 ⟨Trans.right o_fr_body_X_fr_com1 g_fr_body_X_fr_com1 q,
    List.forall_mem_cons.2 ⟨Trans.right o_fr_link1_X_fr_body g_fr_link1_X_fr_body q,
    List.forall_mem_cons.2 ⟨Trans.right o_fr_link2_X_fr_body g_fr_link2_X_fr_body q,
    List.forall_mem_cons.2 ⟨Trans.right o_fr_ee_X_fr_body g_fr_ee_X_fr_body q,
    List.forall_mem_cons.2 ⟨Trans.right o_fr_com0_X_fr_body g_fr_com0_X_fr_body q,
    List.forall_mem_cons.2 ⟨Trans.right o_fr_com1_X_fr_body g_fr_com1_X_fr_body q,
    List.forall_mem_cons.2 ⟨Trans.right o_fr_body_X_fr_jA g_fr_body_X_fr_jA q,
    List.forall_mem_cons.2 ⟨Trans.right o_fr_body_X_fr_jB g_fr_body_X_fr_jB q,
    List.forall_mem_cons.2 ⟨Trans.right o_fr_link2_X_fr_link1 g_fr_link2_X_fr_link1 q,
    List.forall_mem_cons.2 ⟨Trans.right o_fr_link1_X_fr_link2 g_fr_link1_X_fr_link2 q,
    List.forall_mem_nil _⟩⟩⟩⟩⟩⟩⟩⟩⟩⟩⟩⟩⟩⟩

/-- C130: all transforms of the QuadrotorWithLoad are those between its frames, which are mounted as described. -/
theorem C130_QuadrotorWithLoad_transforms :
    ∃ C : ℕ → Pose, (∀ f, IsRot (C f).R) ∧ (∀ d ∈ description, C d.id = d.pose) ∧
    ∀ q, ∃ G, Arranged frames C q G ∧ ∀ x ∈ transforms, x.Right q (Pose.rel (G x.A) (G x.B)) := by
  refine ⟨mounts mountList, mounts_rot wf_ok, described_ok, fun q => ⟨poses mountList q, ?_, transforms_right q⟩⟩
  rw [← frames_eq]
  exact arranged wf_ok q

theorem parents : ∀ g ∈ mountList, g.parent = 0 ∨ ∃ g' ∈ mountList, g'.id = g.parent := by decide +kernel

theorem j_fr_body_J_fr_ee : fr_body_J_fr_ee.Right frames transforms := by
  rw [← frames_eq]
  exact Jac.right (cs := [(JA, fr_body_X_fr_link1), (JB, fr_body_X_fr_link2)]) wf_ok parents
    (Or.inr ⟨m_fr_ee, List.mem_of_getElem? (i := 2) rfl, rfl⟩)
    (List.mem_of_getElem? (i := 2) rfl) o_fr_body_X_fr_ee g_fr_body_X_fr_ee
    (List.forall_mem_cons.2 ⟨g_fr_body_X_fr_link1, List.forall_mem_cons.2 ⟨g_fr_body_X_fr_link2, List.forall_mem_nil _⟩⟩)
    (by decide +kernel)

/-- C131: all Jacobians of the QuadrotorWithLoad map joint velocities to the velocities of their frames. -/
theorem C131_QuadrotorWithLoad_jacobians : ∀ j ∈ jacobians, j.Right frames transforms :=
  List.forall_mem_cons.2 ⟨j_fr_body_J_fr_ee,
    List.forall_mem_nil _⟩

end CT.Robots.QuadrotorWithLoad.Kin
