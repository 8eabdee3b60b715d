import Verif.Props.Robots.HyQKin
import Verif.Props.GenKinJac
import Verif.Props.GenKinDescr

/-! # HyQ: forward kinematics and Jacobians (written by `tools/gen_kin.py`) -/

namespace CT.Robots.HyQ.Kin

open CT.GenKin Spatial FrameJac

/-- The frames of the robot.  Each is mounted on the frame of a link (or of the base); the frames of the links
turn with their joint. -/
def frames : List Frame :=
  [⟨fr_LF_hipassembly, fr_trunk, some LF_HAA⟩,
    ⟨fr_LF_upperleg, fr_LF_hipassembly, some LF_HFE⟩,
    ⟨fr_LF_lowerleg, fr_LF_upperleg, some LF_KFE⟩,
    ⟨fr_RF_hipassembly, fr_trunk, some RF_HAA⟩,
    ⟨fr_RF_upperleg, fr_RF_hipassembly, some RF_HFE⟩,
    ⟨fr_RF_lowerleg, fr_RF_upperleg, some RF_KFE⟩,
    ⟨fr_LH_hipassembly, fr_trunk, some LH_HAA⟩,
    ⟨fr_LH_upperleg, fr_LH_hipassembly, some LH_HFE⟩,
    ⟨fr_LH_lowerleg, fr_LH_upperleg, some LH_KFE⟩,
    ⟨fr_RH_hipassembly, fr_trunk, some RH_HAA⟩,
    ⟨fr_RH_upperleg, fr_RH_hipassembly, some RH_HFE⟩,
    ⟨fr_RH_lowerleg, fr_RH_upperleg, some RH_KFE⟩,
    ⟨LF_hipassemblyCOM, fr_LF_hipassembly, none⟩,
    ⟨RF_hipassemblyCOM, fr_RF_hipassembly, none⟩,
    ⟨LH_hipassemblyCOM, fr_LH_hipassembly, none⟩,
    ⟨RH_hipassemblyCOM, fr_RH_hipassembly, none⟩,
    ⟨LF_upperlegCOM, fr_LF_upperleg, none⟩,
    ⟨RF_upperlegCOM, fr_RF_upperleg, none⟩,
    ⟨LH_upperlegCOM, fr_LH_upperleg, none⟩,
    ⟨RH_upperlegCOM, fr_RH_upperleg, none⟩,
    ⟨LF_lowerlegCOM, fr_LF_lowerleg, none⟩,
    ⟨RF_lowerlegCOM, fr_RF_lowerleg, none⟩,
    ⟨LH_lowerlegCOM, fr_LH_lowerleg, none⟩,
    ⟨RH_lowerlegCOM, fr_RH_lowerleg, none⟩,
    ⟨fr_LF_foot, fr_LF_lowerleg, none⟩,
    ⟨fr_RF_foot, fr_RF_lowerleg, none⟩,
    ⟨fr_LH_foot, fr_LH_lowerleg, none⟩,
    ⟨fr_RH_foot, fr_RH_lowerleg, none⟩,
    ⟨fr_LF_HAA, fr_trunk, none⟩,
    ⟨fr_RF_HAA, fr_trunk, none⟩,
    ⟨fr_LH_HAA, fr_trunk, none⟩,
    ⟨fr_RH_HAA, fr_trunk, none⟩,
    ⟨fr_LF_HFE, fr_LF_hipassembly, none⟩,
    ⟨fr_RF_HFE, fr_RF_hipassembly, none⟩,
    ⟨fr_LH_HFE, fr_LH_hipassembly, none⟩,
    ⟨fr_RH_HFE, fr_RH_hipassembly, none⟩,
    ⟨fr_LF_KFE, fr_LF_upperleg, none⟩,
    ⟨fr_RF_KFE, fr_RF_upperleg, none⟩,
    ⟨fr_LH_KFE, fr_LH_upperleg, none⟩,
    ⟨fr_RH_KFE, fr_RH_upperleg, none⟩]

theorem frames_eq : mountList.map Mount.toFrame = frames := rfl

theorem transforms_right (q : ℕ → ℝ) :
    ∀ x ∈ transforms, x.Right q (Pose.rel (poses mountList q x.A) (poses mountList q x.B)) :=
  List.forall_mem_cons.2 ⟨Trans.right o_fr_trunk_X_fr_LF_hipassembly g_fr_trunk_X_fr_LF_hipassembly q,
    List.forall_mem_cons.2 ⟨Trans.right o_fr_trunk_X_fr_RF_hipassembly g_fr_trunk_X_fr_RF_hipassembly q,
    List.forall_mem_cons.2 ⟨Trans.right o_fr_trunk_X_fr_LH_hipassembly g_fr_trunk_X_fr_LH_hipassembly q,
    List.forall_mem_cons.2 ⟨Trans.right o_fr_trunk_X_fr_RH_hipassembly g_fr_trunk_X_fr_RH_hipassembly q,
    List.forall_mem_cons.2 ⟨Trans.right o_fr_trunk_X_fr_LF_upperleg g_fr_trunk_X_fr_LF_upperleg q,
    List.forall_mem_cons.2 ⟨Trans.right o_fr_trunk_X_fr_RF_upperleg g_fr_trunk_X_fr_RF_upperleg q,
    List.forall_mem_cons.2 ⟨Trans.right o_fr_trunk_X_fr_LH_upperleg g_fr_trunk_X_fr_LH_upperleg q,
    List.forall_mem_cons.2 ⟨Trans.right o_fr_trunk_X_fr_RH_upperleg g_fr_trunk_X_fr_RH_upperleg q,
    List.forall_mem_cons.2 ⟨Trans.right o_fr_trunk_X_fr_LF_lowerleg g_fr_trunk_X_fr_LF_lowerleg q,
    List.forall_mem_cons.2 ⟨Trans.right o_fr_trunk_X_fr_RF_lowerleg g_fr_trunk_X_fr_RF_lowerleg q,
    List.forall_mem_cons.2 ⟨Trans.right o_fr_trunk_X_fr_LH_lowerleg g_fr_trunk_X_fr_LH_lowerleg q,
    List.forall_mem_cons.2 ⟨Trans.right o_fr_trunk_X_fr_RH_lowerleg g_fr_trunk_X_fr_RH_lowerleg q,
    List.forall_mem_cons.2 ⟨Trans.right o_fr_LF_hipassembly_X_fr_trunk g_fr_LF_hipassembly_X_fr_trunk q,
    List.forall_mem_cons.2 ⟨Trans.right o_fr_RF_hipassembly_X_fr_trunk g_fr_RF_hipassembly_X_fr_trunk q,
    List.forall_mem_cons.2 ⟨Trans.right o_fr_LH_hipassembly_X_fr_trunk g_fr_LH_hipassembly_X_fr_trunk q,
    List.forall_mem_cons.2 ⟨Trans.right o_fr_RH_hipassembly_X_fr_trunk g_fr_RH_hipassembly_X_fr_trunk q,
    List.forall_mem_cons.2 ⟨Trans.right o_fr_LF_upperleg_X_fr_trunk g_fr_LF_upperleg_X_fr_trunk q,
    List.forall_mem_cons.2 ⟨Trans.right o_fr_RF_upperleg_X_fr_trunk g_fr_RF_upperleg_X_fr_trunk q,
    List.forall_mem_cons.2 ⟨Trans.right o_fr_LH_upperleg_X_fr_trunk g_fr_LH_upperleg_X_fr_trunk q,
    List.forall_mem_cons.2 ⟨Trans.right o_fr_RH_upperleg_X_fr_trunk g_fr_RH_upperleg_X_fr_trunk q,
    List.forall_mem_cons.2 ⟨Trans.right o_fr_LF_lowerleg_X_fr_trunk g_fr_LF_lowerleg_X_fr_trunk q,
    List.forall_mem_cons.2 ⟨Trans.right o_fr_RF_lowerleg_X_fr_trunk g_fr_RF_lowerleg_X_fr_trunk q,
    List.forall_mem_cons.2 ⟨Trans.right o_fr_LH_lowerleg_X_fr_trunk g_fr_LH_lowerleg_X_fr_trunk q,
    List.forall_mem_cons.2 ⟨Trans.right o_fr_RH_lowerleg_X_fr_trunk g_fr_RH_lowerleg_X_fr_trunk q,
    List.forall_mem_cons.2 ⟨Trans.right o_fr_trunk_X_LF_hipassemblyCOM g_fr_trunk_X_LF_hipassemblyCOM q,
    List.forall_mem_cons.2 ⟨Trans.right o_fr_trunk_X_RF_hipassemblyCOM g_fr_trunk_X_RF_hipassemblyCOM q,
    List.forall_mem_cons.2 ⟨Trans.right o_fr_trunk_X_LH_hipassemblyCOM g_fr_trunk_X_LH_hipassemblyCOM q,
    List.forall_mem_cons.2 ⟨Trans.right o_fr_trunk_X_RH_hipassemblyCOM g_fr_trunk_X_RH_hipassemblyCOM q,
    List.forall_mem_cons.2 ⟨Trans.right o_fr_trunk_X_LF_upperlegCOM g_fr_trunk_X_LF_upperlegCOM q,
    List.forall_mem_cons.2 ⟨Trans.right o_fr_trunk_X_RF_upperlegCOM g_fr_trunk_X_RF_upperlegCOM q,
    List.forall_mem_cons.2 ⟨Trans.right o_fr_trunk_X_LH_upperlegCOM g_fr_trunk_X_LH_upperlegCOM q,
    List.forall_mem_cons.2 ⟨Trans.right o_fr_trunk_X_RH_upperlegCOM g_fr_trunk_X_RH_upperlegCOM q,
    List.forall_mem_cons.2 ⟨Trans.right o_fr_trunk_X_LF_lowerlegCOM g_fr_trunk_X_LF_lowerlegCOM q,
    List.forall_mem_cons.2 ⟨Trans.right o_fr_trunk_X_RF_lowerlegCOM g_fr_trunk_X_RF_lowerlegCOM q,
    List.forall_mem_cons.2 ⟨Trans.right o_fr_trunk_X_LH_lowerlegCOM g_fr_trunk_X_LH_lowerlegCOM q,
    List.forall_mem_cons.2 ⟨Trans.right o_fr_trunk_X_RH_lowerlegCOM g_fr_trunk_X_RH_lowerlegCOM q,
    List.forall_mem_cons.2 ⟨Trans.right o_fr_LF_foot_X_fr_LF_lowerleg g_fr_LF_foot_X_fr_LF_lowerleg q,
    List.forall_mem_cons.2 ⟨Trans.right o_fr_RF_foot_X_fr_RF_lowerleg g_fr_RF_foot_X_fr_RF_lowerleg q,
    List.forall_mem_cons.2 ⟨Trans.right o_fr_LH_foot_X_fr_LH_lowerleg g_fr_LH_foot_X_fr_LH_lowerleg q,
    List.forall_mem_cons.2 ⟨Trans.right o_fr_RH_foot_X_fr_RH_lowerleg g_fr_RH_foot_X_fr_RH_lowerleg q,
    List.forall_mem_cons.2 ⟨Trans.right o_fr_trunk_X_fr_LF_foot g_fr_trunk_X_fr_LF_foot q,
    List.forall_mem_cons.2 ⟨Trans.right o_fr_trunk_X_fr_RF_foot g_fr_trunk_X_fr_RF_foot q,
    List.forall_mem_cons.2 ⟨Trans.right o_fr_trunk_X_fr_LH_foot g_fr_trunk_X_fr_LH_foot q,
    List.forall_mem_cons.2 ⟨Trans.right o_fr_trunk_X_fr_RH_foot g_fr_trunk_X_fr_RH_foot q,
    List.forall_mem_cons.2 ⟨Trans.right o_fr_LF_foot_X_fr_trunk g_fr_LF_foot_X_fr_trunk q,
    List.forall_mem_cons.2 ⟨Trans.right o_fr_RF_foot_X_fr_trunk g_fr_RF_foot_X_fr_trunk q,
    List.forall_mem_cons.2 ⟨Trans.right o_fr_LH_foot_X_fr_trunk g_fr_LH_foot_X_fr_trunk q,
    List.forall_mem_cons.2 ⟨Trans.right o_fr_RH_foot_X_fr_trunk g_fr_RH_foot_X_fr_trunk q,
    List.forall_mem_cons.2 ⟨Trans.right o_fr_trunk_X_fr_LF_HAA g_fr_trunk_X_fr_LF_HAA q,
    List.forall_mem_cons.2 ⟨Trans.right o_fr_trunk_X_fr_RF_HAA g_fr_trunk_X_fr_RF_HAA q,
    List.forall_mem_cons.2 ⟨Trans.right o_fr_trunk_X_fr_LH_HAA g_fr_trunk_X_fr_LH_HAA q,
    List.forall_mem_cons.2 ⟨Trans.right o_fr_trunk_X_fr_RH_HAA g_fr_trunk_X_fr_RH_HAA q,
    List.forall_mem_cons.2 ⟨Trans.right o_fr_trunk_X_fr_LF_HFE g_fr_trunk_X_fr_LF_HFE q,
    List.forall_mem_cons.2 ⟨Trans.right o_fr_trunk_X_fr_RF_HFE g_fr_trunk_X_fr_RF_HFE q,
    List.forall_mem_cons.2 ⟨Trans.right o_fr_trunk_X_fr_LH_HFE g_fr_trunk_X_fr_LH_HFE q,
    List.forall_mem_cons.2 ⟨Trans.right o_fr_trunk_X_fr_RH_HFE g_fr_trunk_X_fr_RH_HFE q,
    List.forall_mem_cons.2 ⟨Trans.right o_fr_trunk_X_fr_LF_KFE g_fr_trunk_X_fr_LF_KFE q,
    List.forall_mem_cons.2 ⟨Trans.right o_fr_trunk_X_fr_RF_KFE g_fr_trunk_X_fr_RF_KFE q,
    List.forall_mem_cons.2 ⟨Trans.right o_fr_trunk_X_fr_LH_KFE g_fr_trunk_X_fr_LH_KFE q,
    List.forall_mem_cons.2 ⟨Trans.right o_fr_trunk_X_fr_RH_KFE g_fr_trunk_X_fr_RH_KFE q,
    List.forall_mem_cons.2 ⟨Trans.right o_fr_LF_upperleg_X_fr_LF_hipassembly g_fr_LF_upperleg_X_fr_LF_hipassembly q,
    List.forall_mem_cons.2 ⟨Trans.right o_fr_LF_hipassembly_X_fr_LF_upperleg g_fr_LF_hipassembly_X_fr_LF_upperleg q,
    List.forall_mem_cons.2 ⟨Trans.right o_fr_LF_lowerleg_X_fr_LF_upperleg g_fr_LF_lowerleg_X_fr_LF_upperleg q,
    List.forall_mem_cons.2 ⟨Trans.right o_fr_LF_upperleg_X_fr_LF_lowerleg g_fr_LF_upperleg_X_fr_LF_lowerleg q,
    List.forall_mem_cons.2 ⟨Trans.right o_fr_RF_upperleg_X_fr_RF_hipassembly g_fr_RF_upperleg_X_fr_RF_hipassembly q,
    List.forall_mem_cons.2 ⟨Trans.right o_fr_RF_hipassembly_X_fr_RF_upperleg g_fr_RF_hipassembly_X_fr_RF_upperleg q,
    List.forall_mem_cons.2 ⟨Trans.right o_fr_RF_lowerleg_X_fr_RF_upperleg g_fr_RF_lowerleg_X_fr_RF_upperleg q,
    List.forall_mem_cons.2 ⟨Trans.right o_fr_RF_upperleg_X_fr_RF_lowerleg g_fr_RF_upperleg_X_fr_RF_lowerleg q,
    List.forall_mem_cons.2 ⟨Trans.right o_fr_LH_upperleg_X_fr_LH_hipassembly g_fr_LH_upperleg_X_fr_LH_hipassembly q,
    List.forall_mem_cons.2 ⟨Trans.right o_fr_LH_hipassembly_X_fr_LH_upperleg g_fr_LH_hipassembly_X_fr_LH_upperleg q,
    List.forall_mem_cons.2 ⟨Trans.right o_fr_LH_lowerleg_X_fr_LH_upperleg g_fr_LH_lowerleg_X_fr_LH_upperleg q,
    List.forall_mem_cons.2 ⟨Trans.right o_fr_LH_upperleg_X_fr_LH_lowerleg g_fr_LH_upperleg_X_fr_LH_lowerleg q,
    List.forall_mem_cons.2 ⟨Trans.right o_fr_RH_upperleg_X_fr_RH_hipassembly g_fr_RH_upperleg_X_fr_RH_hipassembly q,
    List.forall_mem_cons.2 ⟨Trans.right o_fr_RH_hipassembly_X_fr_RH_upperleg g_fr_RH_hipassembly_X_fr_RH_upperleg q,
    List.forall_mem_cons.2 ⟨Trans.right o_fr_RH_lowerleg_X_fr_RH_upperleg g_fr_RH_lowerleg_X_fr_RH_upperleg q,
    List.forall_mem_cons.2 ⟨Trans.right o_fr_RH_upperleg_X_fr_RH_lowerleg g_fr_RH_upperleg_X_fr_RH_lowerleg q,
    List.forall_mem_nil _⟩⟩⟩⟩⟩⟩⟩⟩⟩⟩⟩⟩⟩⟩⟩⟩⟩⟩⟩⟩⟩⟩⟩⟩⟩⟩⟩⟩⟩⟩⟩⟩⟩⟩⟩⟩⟩⟩⟩⟩⟩⟩⟩⟩⟩⟩⟩⟩⟩⟩⟩⟩⟩⟩⟩⟩⟩⟩⟩⟩⟩⟩⟩⟩⟩⟩⟩⟩⟩⟩⟩⟩⟩⟩⟩⟩

/-- C130: all transforms of the HyQ are those between its frames, which are mounted at fixed poses. -/
theorem C130_HyQ_transforms :
    ∃ C : ℕ → Pose, (∀ f, IsRot (C f).R) ∧
    ∀ q, ∃ G, Arranged frames C q G ∧ ∀ x ∈ transforms, x.Right q (Pose.rel (G x.A) (G x.B)) := by
  refine ⟨mounts mountList, mounts_rot wf_ok, fun q => ⟨poses mountList q, ?_, transforms_right q⟩⟩
  rw [← frames_eq]
  exact arranged wf_ok q

theorem parents : ∀ g ∈ mountList, g.parent = 0 ∨ ∃ g' ∈ mountList, g'.id = g.parent := by decide +kernel

theorem j_fr_trunk_J_LF_hipassemblyCOM : fr_trunk_J_LF_hipassemblyCOM.Right frames transforms := by
  rw [← frames_eq]
  exact Jac.right (cs := [(LF_HAA, fr_trunk_X_fr_LF_hipassembly)]) wf_ok parents
    (Or.inr ⟨m_LF_hipassemblyCOM, List.mem_of_getElem? (i := 12) rfl, rfl⟩)
    (List.mem_of_getElem? (i := 24) rfl) o_fr_trunk_X_LF_hipassemblyCOM g_fr_trunk_X_LF_hipassemblyCOM
    (List.forall_mem_cons.2 ⟨g_fr_trunk_X_fr_LF_hipassembly, List.forall_mem_nil _⟩)
    (by decide +kernel)

theorem j_fr_trunk_J_RF_hipassemblyCOM : fr_trunk_J_RF_hipassemblyCOM.Right frames transforms := by
  rw [← frames_eq]
  exact Jac.right (cs := [(RF_HAA, fr_trunk_X_fr_RF_hipassembly)]) wf_ok parents
    (Or.inr ⟨m_RF_hipassemblyCOM, List.mem_of_getElem? (i := 13) rfl, rfl⟩)
    (List.mem_of_getElem? (i := 25) rfl) o_fr_trunk_X_RF_hipassemblyCOM g_fr_trunk_X_RF_hipassemblyCOM
    (List.forall_mem_cons.2 ⟨g_fr_trunk_X_fr_RF_hipassembly, List.forall_mem_nil _⟩)
    (by decide +kernel)

theorem j_fr_trunk_J_LH_hipassemblyCOM : fr_trunk_J_LH_hipassemblyCOM.Right frames transforms := by
  rw [← frames_eq]
  exact Jac.right (cs := [(LH_HAA, fr_trunk_X_fr_LH_hipassembly)]) wf_ok parents
    (Or.inr ⟨m_LH_hipassemblyCOM, List.mem_of_getElem? (i := 14) rfl, rfl⟩)
    (List.mem_of_getElem? (i := 26) rfl) o_fr_trunk_X_LH_hipassemblyCOM g_fr_trunk_X_LH_hipassemblyCOM
    (List.forall_mem_cons.2 ⟨g_fr_trunk_X_fr_LH_hipassembly, List.forall_mem_nil _⟩)
    (by decide +kernel)

theorem j_fr_trunk_J_RH_hipassemblyCOM : fr_trunk_J_RH_hipassemblyCOM.Right frames transforms := by
  rw [← frames_eq]
  exact Jac.right (cs := [(RH_HAA, fr_trunk_X_fr_RH_hipassembly)]) wf_ok parents
    (Or.inr ⟨m_RH_hipassemblyCOM, List.mem_of_getElem? (i := 15) rfl, rfl⟩)
    (List.mem_of_getElem? (i := 27) rfl) o_fr_trunk_X_RH_hipassemblyCOM g_fr_trunk_X_RH_hipassemblyCOM
    (List.forall_mem_cons.2 ⟨g_fr_trunk_X_fr_RH_hipassembly, List.forall_mem_nil _⟩)
    (by decide +kernel)

theorem j_fr_trunk_J_LF_upperlegCOM : fr_trunk_J_LF_upperlegCOM.Right frames transforms := by
  rw [← frames_eq]
  exact Jac.right (cs := [(LF_HAA, fr_trunk_X_fr_LF_hipassembly), (LF_HFE, fr_trunk_X_fr_LF_upperleg)]) wf_ok parents
    (Or.inr ⟨m_LF_upperlegCOM, List.mem_of_getElem? (i := 16) rfl, rfl⟩)
    (List.mem_of_getElem? (i := 28) rfl) o_fr_trunk_X_LF_upperlegCOM g_fr_trunk_X_LF_upperlegCOM
    (List.forall_mem_cons.2 ⟨g_fr_trunk_X_fr_LF_hipassembly, List.forall_mem_cons.2 ⟨g_fr_trunk_X_fr_LF_upperleg, List.forall_mem_nil _⟩⟩)
    (by decide +kernel)

theorem j_fr_trunk_J_RF_upperlegCOM : fr_trunk_J_RF_upperlegCOM.Right frames transforms := by
  rw [← frames_eq]
  exact Jac.right (cs := [(RF_HAA, fr_trunk_X_fr_RF_hipassembly), (RF_HFE, fr_trunk_X_fr_RF_upperleg)]) wf_ok parents
    (Or.inr ⟨m_RF_upperlegCOM, List.mem_of_getElem? (i := 17) rfl, rfl⟩)
    (List.mem_of_getElem? (i := 29) rfl) o_fr_trunk_X_RF_upperlegCOM g_fr_trunk_X_RF_upperlegCOM
    (List.forall_mem_cons.2 ⟨g_fr_trunk_X_fr_RF_hipassembly, List.forall_mem_cons.2 ⟨g_fr_trunk_X_fr_RF_upperleg, List.forall_mem_nil _⟩⟩)
    (by decide +kernel)

theorem j_fr_trunk_J_LH_upperlegCOM : fr_trunk_J_LH_upperlegCOM.Right frames transforms := by
  rw [← frames_eq]
  exact Jac.right (cs := [(LH_HAA, fr_trunk_X_fr_LH_hipassembly), (LH_HFE, fr_trunk_X_fr_LH_upperleg)]) wf_ok parents
    (Or.inr ⟨m_LH_upperlegCOM, List.mem_of_getElem? (i := 18) rfl, rfl⟩)
    (List.mem_of_getElem? (i := 30) rfl) o_fr_trunk_X_LH_upperlegCOM g_fr_trunk_X_LH_upperlegCOM
    (List.forall_mem_cons.2 ⟨g_fr_trunk_X_fr_LH_hipassembly, List.forall_mem_cons.2 ⟨g_fr_trunk_X_fr_LH_upperleg, List.forall_mem_nil _⟩⟩)
    (by decide +kernel)

theorem j_fr_trunk_J_RH_upperlegCOM : fr_trunk_J_RH_upperlegCOM.Right frames transforms := by
  rw [← frames_eq]
  exact Jac.right (cs := [(RH_HAA, fr_trunk_X_fr_RH_hipassembly), (RH_HFE, fr_trunk_X_fr_RH_upperleg)]) wf_ok parents
    (Or.inr ⟨m_RH_upperlegCOM, List.mem_of_getElem? (i := 19) rfl, rfl⟩)
    (List.mem_of_getElem? (i := 31) rfl) o_fr_trunk_X_RH_upperlegCOM g_fr_trunk_X_RH_upperlegCOM
    (List.forall_mem_cons.2 ⟨g_fr_trunk_X_fr_RH_hipassembly, List.forall_mem_cons.2 ⟨g_fr_trunk_X_fr_RH_upperleg, List.forall_mem_nil _⟩⟩)
    (by decide +kernel)

theorem j_fr_trunk_J_LF_lowerlegCOM : fr_trunk_J_LF_lowerlegCOM.Right frames transforms := by
  rw [← frames_eq]
  exact Jac.right (cs := [(LF_HAA, fr_trunk_X_fr_LF_hipassembly), (LF_HFE, fr_trunk_X_fr_LF_upperleg), (LF_KFE, fr_trunk_X_fr_LF_lowerleg)]) wf_ok parents
    (Or.inr ⟨m_LF_lowerlegCOM, List.mem_of_getElem? (i := 20) rfl, rfl⟩)
    (List.mem_of_getElem? (i := 32) rfl) o_fr_trunk_X_LF_lowerlegCOM g_fr_trunk_X_LF_lowerlegCOM
    (List.forall_mem_cons.2 ⟨g_fr_trunk_X_fr_LF_hipassembly, List.forall_mem_cons.2 ⟨g_fr_trunk_X_fr_LF_upperleg, List.forall_mem_cons.2 ⟨g_fr_trunk_X_fr_LF_lowerleg, List.forall_mem_nil _⟩⟩⟩)
    (by decide +kernel)

theorem j_fr_trunk_J_RF_lowerlegCOM : fr_trunk_J_RF_lowerlegCOM.Right frames transforms := by
  rw [← frames_eq]
  exact Jac.right (cs := [(RF_HAA, fr_trunk_X_fr_RF_hipassembly), (RF_HFE, fr_trunk_X_fr_RF_upperleg), (RF_KFE, fr_trunk_X_fr_RF_lowerleg)]) wf_ok parents
    (Or.inr ⟨m_RF_lowerlegCOM, List.mem_of_getElem? (i := 21) rfl, rfl⟩)
    (List.mem_of_getElem? (i := 33) rfl) o_fr_trunk_X_RF_lowerlegCOM g_fr_trunk_X_RF_lowerlegCOM
    (List.forall_mem_cons.2 ⟨g_fr_trunk_X_fr_RF_hipassembly, List.forall_mem_cons.2 ⟨g_fr_trunk_X_fr_RF_upperleg, List.forall_mem_cons.2 ⟨g_fr_trunk_X_fr_RF_lowerleg, List.forall_mem_nil _⟩⟩⟩)
    (by decide +kernel)

theorem j_fr_trunk_J_LH_lowerlegCOM : fr_trunk_J_LH_lowerlegCOM.Right frames transforms := by
  rw [← frames_eq]
  exact Jac.right (cs := [(LH_HAA, fr_trunk_X_fr_LH_hipassembly), (LH_HFE, fr_trunk_X_fr_LH_upperleg), (LH_KFE, fr_trunk_X_fr_LH_lowerleg)]) wf_ok parents
    (Or.inr ⟨m_LH_lowerlegCOM, List.mem_of_getElem? (i := 22) rfl, rfl⟩)
    (List.mem_of_getElem? (i := 34) rfl) o_fr_trunk_X_LH_lowerlegCOM g_fr_trunk_X_LH_lowerlegCOM
    (List.forall_mem_cons.2 ⟨g_fr_trunk_X_fr_LH_hipassembly, List.forall_mem_cons.2 ⟨g_fr_trunk_X_fr_LH_upperleg, List.forall_mem_cons.2 ⟨g_fr_trunk_X_fr_LH_lowerleg, List.forall_mem_nil _⟩⟩⟩)
    (by decide +kernel)

theorem j_fr_trunk_J_RH_lowerlegCOM : fr_trunk_J_RH_lowerlegCOM.Right frames transforms := by
  rw [← frames_eq]
  exact Jac.right (cs := [(RH_HAA, fr_trunk_X_fr_RH_hipassembly), (RH_HFE, fr_trunk_X_fr_RH_upperleg), (RH_KFE, fr_trunk_X_fr_RH_lowerleg)]) wf_ok parents
    (Or.inr ⟨m_RH_lowerlegCOM, List.mem_of_getElem? (i := 23) rfl, rfl⟩)
    (List.mem_of_getElem? (i := 35) rfl) o_fr_trunk_X_RH_lowerlegCOM g_fr_trunk_X_RH_lowerlegCOM
    (List.forall_mem_cons.2 ⟨g_fr_trunk_X_fr_RH_hipassembly, List.forall_mem_cons.2 ⟨g_fr_trunk_X_fr_RH_upperleg, List.forall_mem_cons.2 ⟨g_fr_trunk_X_fr_RH_lowerleg, List.forall_mem_nil _⟩⟩⟩)
    (by decide +kernel)

theorem j_fr_trunk_J_fr_LF_foot : fr_trunk_J_fr_LF_foot.Right frames transforms := by
  rw [← frames_eq]
  exact Jac.right (cs := [(LF_HAA, fr_trunk_X_fr_LF_hipassembly), (LF_HFE, fr_trunk_X_fr_LF_upperleg), (LF_KFE, fr_trunk_X_fr_LF_lowerleg)]) wf_ok parents
    (Or.inr ⟨m_fr_LF_foot, List.mem_of_getElem? (i := 24) rfl, rfl⟩)
    (List.mem_of_getElem? (i := 40) rfl) o_fr_trunk_X_fr_LF_foot g_fr_trunk_X_fr_LF_foot
    (List.forall_mem_cons.2 ⟨g_fr_trunk_X_fr_LF_hipassembly, List.forall_mem_cons.2 ⟨g_fr_trunk_X_fr_LF_upperleg, List.forall_mem_cons.2 ⟨g_fr_trunk_X_fr_LF_lowerleg, List.forall_mem_nil _⟩⟩⟩)
    (by decide +kernel)

theorem j_fr_trunk_J_fr_RF_foot : fr_trunk_J_fr_RF_foot.Right frames transforms := by
  rw [← frames_eq]
  exact Jac.right (cs := [(RF_HAA, fr_trunk_X_fr_RF_hipassembly), (RF_HFE, fr_trunk_X_fr_RF_upperleg), (RF_KFE, fr_trunk_X_fr_RF_lowerleg)]) wf_ok parents
    (Or.inr ⟨m_fr_RF_foot, List.mem_of_getElem? (i := 25) rfl, rfl⟩)
    (List.mem_of_getElem? (i := 41) rfl) o_fr_trunk_X_fr_RF_foot g_fr_trunk_X_fr_RF_foot
    (List.forall_mem_cons.2 ⟨g_fr_trunk_X_fr_RF_hipassembly, List.forall_mem_cons.2 ⟨g_fr_trunk_X_fr_RF_upperleg, List.forall_mem_cons.2 ⟨g_fr_trunk_X_fr_RF_lowerleg, List.forall_mem_nil _⟩⟩⟩)
    (by decide +kernel)

theorem j_fr_trunk_J_fr_LH_foot : fr_trunk_J_fr_LH_foot.Right frames transforms := by
  rw [← frames_eq]
  exact Jac.right (cs := [(LH_HAA, fr_trunk_X_fr_LH_hipassembly), (LH_HFE, fr_trunk_X_fr_LH_upperleg), (LH_KFE, fr_trunk_X_fr_LH_lowerleg)]) wf_ok parents
    (Or.inr ⟨m_fr_LH_foot, List.mem_of_getElem? (i := 26) rfl, rfl⟩)
    (List.mem_of_getElem? (i := 42) rfl) o_fr_trunk_X_fr_LH_foot g_fr_trunk_X_fr_LH_foot
    (List.forall_mem_cons.2 ⟨g_fr_trunk_X_fr_LH_hipassembly, List.forall_mem_cons.2 ⟨g_fr_trunk_X_fr_LH_upperleg, List.forall_mem_cons.2 ⟨g_fr_trunk_X_fr_LH_lowerleg, List.forall_mem_nil _⟩⟩⟩)
    (by decide +kernel)

theorem j_fr_trunk_J_fr_RH_foot : fr_trunk_J_fr_RH_foot.Right frames transforms := by
  rw [← frames_eq]
  exact Jac.right (cs := [(RH_HAA, fr_trunk_X_fr_RH_hipassembly), (RH_HFE, fr_trunk_X_fr_RH_upperleg), (RH_KFE, fr_trunk_X_fr_RH_lowerleg)]) wf_ok parents
    (Or.inr ⟨m_fr_RH_foot, List.mem_of_getElem? (i := 27) rfl, rfl⟩)
    (List.mem_of_getElem? (i := 43) rfl) o_fr_trunk_X_fr_RH_foot g_fr_trunk_X_fr_RH_foot
    (List.forall_mem_cons.2 ⟨g_fr_trunk_X_fr_RH_hipassembly, List.forall_mem_cons.2 ⟨g_fr_trunk_X_fr_RH_upperleg, List.forall_mem_cons.2 ⟨g_fr_trunk_X_fr_RH_lowerleg, List.forall_mem_nil _⟩⟩⟩)
    (by decide +kernel)

/-- C131: all Jacobians of the HyQ map joint velocities to the velocities of their frames. -/
theorem C131_HyQ_jacobians : ∀ j ∈ jacobians, j.Right frames transforms :=
  List.forall_mem_cons.2 ⟨j_fr_trunk_J_LF_hipassemblyCOM,
    List.forall_mem_cons.2 ⟨j_fr_trunk_J_RF_hipassemblyCOM,
    List.forall_mem_cons.2 ⟨j_fr_trunk_J_LH_hipassemblyCOM,
    List.forall_mem_cons.2 ⟨j_fr_trunk_J_RH_hipassemblyCOM,
    List.forall_mem_cons.2 ⟨j_fr_trunk_J_LF_upperlegCOM,
    List.forall_mem_cons.2 ⟨j_fr_trunk_J_RF_upperlegCOM,
    List.forall_mem_cons.2 ⟨j_fr_trunk_J_LH_upperlegCOM,
    List.forall_mem_cons.2 ⟨j_fr_trunk_J_RH_upperlegCOM,
    List.forall_mem_cons.2 ⟨j_fr_trunk_J_LF_lowerlegCOM,
    List.forall_mem_cons.2 ⟨j_fr_trunk_J_RF_lowerlegCOM,
    List.forall_mem_cons.2 ⟨j_fr_trunk_J_LH_lowerlegCOM,
    List.forall_mem_cons.2 ⟨j_fr_trunk_J_RH_lowerlegCOM,
    List.forall_mem_cons.2 ⟨j_fr_trunk_J_fr_LF_foot,
    List.forall_mem_cons.2 ⟨j_fr_trunk_J_fr_RF_foot,
    List.forall_mem_cons.2 ⟨j_fr_trunk_J_fr_LH_foot,
    List.forall_mem_cons.2 ⟨j_fr_trunk_J_fr_RH_foot,
    List.forall_mem_nil _⟩⟩⟩⟩⟩⟩⟩⟩⟩⟩⟩⟩⟩⟩⟩⟩

end CT.Robots.HyQ.Kin
