import Verif.Props.Robots.HyAKin
import Verif.Props.GenKinJac
import Verif.Props.GenKinDescr

/-! # HyA: forward kinematics and Jacobians (written by `tools/gen_kin.py`) -/

namespace CT.Robots.HyA.Kin

open CT.GenKin Spatial FrameJac

/-- The frames of the robot.  Each is mounted on the frame of a link (or of the base); the frames of the links
turn with their joint. -/
def frames : List Frame :=
  [⟨fr_Shoulder_AA, fr_HyABase, some SAA⟩,
    ⟨fr_Shoulder_FE, fr_Shoulder_AA, some SFE⟩,
    ⟨fr_Humerus_R, fr_Shoulder_FE, some HR⟩,
    ⟨fr_Elbow_FE, fr_Humerus_R, some EFE⟩,
    ⟨fr_Wrist_R, fr_Elbow_FE, some WR⟩,
    ⟨fr_Wrist_FE, fr_Wrist_R, some WFE⟩,
    ⟨fr_ee, fr_Wrist_FE, none⟩,
    ⟨fr_Shoulder_AA_COM, fr_Shoulder_AA, none⟩,
    ⟨fr_Shoulder_FE_COM, fr_Shoulder_FE, none⟩,
    ⟨fr_Humerus_R_COM, fr_Humerus_R, none⟩,
    ⟨fr_Elbow_FE_COM, fr_Elbow_FE, none⟩,
    ⟨fr_Wrist_R_COM, fr_Wrist_R, none⟩,
    ⟨fr_Wrist_FE_COM, fr_Wrist_FE, none⟩,
    ⟨fr_Shoulder_AA_CTR, fr_Shoulder_AA, none⟩,
    ⟨fr_Shoulder_FE_CTR, fr_Shoulder_FE, none⟩,
    ⟨fr_Humerus_R_CTR, fr_Humerus_R, none⟩,
    ⟨fr_Elbow_FE_CTR, fr_Elbow_FE, none⟩,
    ⟨fr_Wrist_R_CTR, fr_Wrist_R, none⟩,
    ⟨fr_SAA, fr_HyABase, none⟩,
    ⟨fr_SFE, fr_Shoulder_AA, none⟩,
    ⟨fr_HR, fr_Shoulder_FE, none⟩,
    ⟨fr_EFE, fr_Humerus_R, none⟩,
    ⟨fr_WR, fr_Elbow_FE, none⟩,
    ⟨fr_WFE, fr_Wrist_R, none⟩]

theorem frames_eq : mountList.map Mount.toFrame = frames := rfl

/-- The poses in the description of the robot (`HyA/model/ct_HyA.kindsl`; the comments are line numbers). -/
def description : List Descr :=
  [⟨fr_Shoulder_AA, 0, 0, 0, 0, 0, 0⟩,  -- 171-172
    ⟨fr_Shoulder_FE, 0, 0, 0.178, 1, 0, 0⟩,  -- 178-179
    ⟨fr_Humerus_R, 0.112, 0, 0, 0, 1, 0⟩,  -- 185-186
    ⟨fr_Elbow_FE, 0, 0, 0.304, 0, -1, 0⟩,  -- 191-192
    ⟨fr_Wrist_R, 0.112, 0, 0, 0, 1, 0⟩,  -- 198-199
    ⟨fr_Wrist_FE, 0.02075, 0, 0.184, -1, 0, -1⟩,  -- 205-206
    ⟨fr_ee, 0.03, 0, 0, 0, 0, 0⟩,  -- 159-160
    ⟨fr_Shoulder_AA_CTR, 0, 0, 0.089, 0, 0, 0⟩,  -- 35-36
    ⟨fr_Shoulder_FE_CTR, 0.056, 0, 0, 0, 0, 0⟩,  -- 65-66
    ⟨fr_Humerus_R_CTR, 0, 0, 0.152, 0, 0, 0⟩,  -- 93-94
    ⟨fr_Elbow_FE_CTR, 0.056, 0, 0, 0, 0, 0⟩,  -- 120-121
    ⟨fr_Wrist_R_CTR, 0, 0, 0.092, 0, 0, 0⟩,  -- 143-144
    ⟨fr_SAA, 0, 0, 0, 0, 0, 0⟩,  -- 171-172
    ⟨fr_SFE, 0, 0, 0.178, 1, 0, 0⟩,  -- 178-179
    ⟨fr_HR, 0.112, 0, 0, 0, 1, 0⟩,  -- 185-186
    ⟨fr_EFE, 0, 0, 0.304, 0, -1, 0⟩,  -- 191-192
    ⟨fr_WR, 0.112, 0, 0, 0, 1, 0⟩,  -- 198-199
    ⟨fr_WFE, 0.02075, 0, 0.184, -1, 0, -1⟩]  -- 205-206

theorem described_ok : ∀ d ∈ description, mounts mountList d.id = d.pose :=
  List.forall_mem_cons.2 ⟨described wf_ok (m := m_fr_Shoulder_AA) (List.mem_of_getElem? (i := 0) rfl) (by decide +kernel),
    List.forall_mem_cons.2 ⟨described wf_ok (m := m_fr_Shoulder_FE) (List.mem_of_getElem? (i := 1) rfl) (by decide +kernel),
    List.forall_mem_cons.2 ⟨described wf_ok (m := m_fr_Humerus_R) (List.mem_of_getElem? (i := 2) rfl) (by decide +kernel),
    List.forall_mem_cons.2 ⟨described wf_ok (m := m_fr_Elbow_FE) (List.mem_of_getElem? (i := 3) rfl) (by decide +kernel),
    List.forall_mem_cons.2 ⟨described wf_ok (m := m_fr_Wrist_R) (List.mem_of_getElem? (i := 4) rfl) (by decide +kernel),
    List.forall_mem_cons.2 ⟨described wf_ok (m := m_fr_Wrist_FE) (List.mem_of_getElem? (i := 5) rfl) (by decide +kernel),
    List.forall_mem_cons.2 ⟨described wf_ok (m := m_fr_ee) (List.mem_of_getElem? (i := 6) rfl) (by decide +kernel),
    List.forall_mem_cons.2 ⟨described wf_ok (m := m_fr_Shoulder_AA_CTR) (List.mem_of_getElem? (i := 13) rfl) (by decide +kernel),
    List.forall_mem_cons.2 ⟨described wf_ok (m := m_fr_Shoulder_FE_CTR) (List.mem_of_getElem? (i := 14) rfl) (by decide +kernel),
    List.forall_mem_cons.2 ⟨described wf_ok (m := m_fr_Humerus_R_CTR) (List.mem_of_getElem? (i := 15) rfl) (by decide +kernel),
    List.forall_mem_cons.2 ⟨described wf_ok (m := m_fr_Elbow_FE_CTR) (List.mem_of_getElem? (i := 16) rfl) (by decide +kernel),
    List.forall_mem_cons.2 ⟨described wf_ok (m := m_fr_Wrist_R_CTR) (List.mem_of_getElem? (i := 17) rfl) (by decide +kernel),
    List.forall_mem_cons.2 ⟨described wf_ok (m := m_fr_SAA) (List.mem_of_getElem? (i := 18) rfl) (by decide +kernel),
    List.forall_mem_cons.2 ⟨described wf_ok (m := m_fr_SFE) (List.mem_of_getElem? (i := 19) rfl) (by decide +kernel),
    List.forall_mem_cons.2 ⟨described wf_ok (m := m_fr_HR) (List.mem_of_getElem? (i := 20) rfl) (by decide +kernel),
    List.forall_mem_cons.2 ⟨described wf_ok (m := m_fr_EFE) (List.mem_of_getElem? (i := 21) rfl) (by decide +kernel),
    List.forall_mem_cons.2 ⟨described wf_ok (m := m_fr_WR) (List.mem_of_getElem? (i := 22) rfl) (by decide +kernel),
    List.forall_mem_cons.2 ⟨described wf_ok (m := m_fr_WFE) (List.mem_of_getElem? (i := 23) rfl) (by decide +kernel),
    List.forall_mem_nil _⟩⟩⟩⟩⟩⟩⟩⟩⟩⟩⟩⟩⟩⟩⟩⟩⟩⟩

/-- The other poses in the description: the generated code has rounded these numbers. -/
def roundedDescription : List Descr :=
  [⟨fr_Shoulder_AA_COM, (-0.000196), (-0.000361), 0.003091, 0, 0, 0⟩,  -- 27-28
    ⟨fr_Shoulder_FE_COM, (-0.003832), (-0.023382), 0.0011662, 0, 0, 0⟩,  -- 56-57
    ⟨fr_Humerus_R_COM, (-0.00239), 0.00618, (-0.025544), 0, 0, 0⟩,  -- 85-86
    ⟨fr_Elbow_FE_COM, (-0.146648), (-0.011245), 0.001022, 0, 0, 0⟩,  -- 112-113
    ⟨fr_Wrist_R_COM, 0.000397, (-0.002608), (-0.023167), 0, 0, 0⟩,  -- 138-139
    ⟨fr_Wrist_FE_COM, (-0.078762), (-0.010631), (-0.000835), 0, 0, 0⟩]  -- 163-164

theorem rounded_ok : ∀ d ∈ roundedDescription, d.Rounded (mounts mountList d.id) :=
  List.forall_mem_cons.2 ⟨rounded wf_ok (m := m_fr_Shoulder_AA_COM) (x := (-0.0002)) (y := (-0.00036)) (z := 0.00309)
      (List.mem_of_getElem? (i := 7) rfl) (by decide +kernel),
    List.forall_mem_cons.2 ⟨rounded wf_ok (m := m_fr_Shoulder_FE_COM) (x := (-0.00383)) (y := (-0.02338)) (z := 0.00117)
      (List.mem_of_getElem? (i := 8) rfl) (by decide +kernel),
    List.forall_mem_cons.2 ⟨rounded wf_ok (m := m_fr_Humerus_R_COM) (x := (-0.00239)) (y := 0.00618) (z := (-0.02554))
      (List.mem_of_getElem? (i := 9) rfl) (by decide +kernel),
    List.forall_mem_cons.2 ⟨rounded wf_ok (m := m_fr_Elbow_FE_COM) (x := (-0.1466)) (y := (-0.01125)) (z := 0.00102)
      (List.mem_of_getElem? (i := 10) rfl) (by decide +kernel),
    List.forall_mem_cons.2 ⟨rounded wf_ok (m := m_fr_Wrist_R_COM) (x := 0.0004) (y := (-0.00261)) (z := (-0.02317))
      (List.mem_of_getElem? (i := 11) rfl) (by decide +kernel),
    List.forall_mem_cons.2 ⟨rounded wf_ok (m := m_fr_Wrist_FE_COM) (x := (-0.07876)) (y := (-0.01063)) (z := (-0.00084))
      (List.mem_of_getElem? (i := 12) rfl) (by decide +kernel),
    List.forall_mem_nil _⟩⟩⟩⟩⟩⟩

theorem transforms_right (q : ℕ → ℝ) :
    ∀ x ∈ transforms, x.Right q (Pose.rel (poses mountList q x.A) (poses mountList q x.B)) :=
  List.forall_mem_cons.2 ⟨Trans.right o_fr_HyABase_X_fr_Shoulder_AA g_fr_HyABase_X_fr_Shoulder_AA q,
    List.forall_mem_cons.2 ⟨Trans.right o_fr_HyABase_X_fr_Shoulder_FE g_fr_HyABase_X_fr_Shoulder_FE q,
    List.forall_mem_cons.2 ⟨Trans.right o_fr_HyABase_X_fr_Humerus_R g_fr_HyABase_X_fr_Humerus_R q,
    List.forall_mem_cons.2 ⟨Trans.right o_fr_HyABase_X_fr_Elbow_FE g_fr_HyABase_X_fr_Elbow_FE q,
    List.forall_mem_cons.2 ⟨Trans.right o_fr_HyABase_X_fr_Wrist_R g_fr_HyABase_X_fr_Wrist_R q,
    List.forall_mem_cons.2 ⟨Trans.right o_fr_HyABase_X_fr_Wrist_FE g_fr_HyABase_X_fr_Wrist_FE q,
    List.forall_mem_cons.2 ⟨Trans.right o_fr_HyABase_X_fr_ee g_fr_HyABase_X_fr_ee q,
    List.forall_mem_cons.2 ⟨Trans.right o_fr_HyABase_X_fr_Shoulder_AA_COM g_fr_HyABase_X_fr_Shoulder_AA_COM q,
    List.forall_mem_cons.2 ⟨Trans.right o_fr_HyABase_X_fr_Shoulder_FE_COM g_fr_HyABase_X_fr_Shoulder_FE_COM q,
    List.forall_mem_cons.2 ⟨Trans.right o_fr_HyABase_X_fr_Humerus_R_COM g_fr_HyABase_X_fr_Humerus_R_COM q,
    List.forall_mem_cons.2 ⟨Trans.right o_fr_HyABase_X_fr_Elbow_FE_COM g_fr_HyABase_X_fr_Elbow_FE_COM q,
    List.forall_mem_cons.2 ⟨Trans.right o_fr_HyABase_X_fr_Wrist_R_COM g_fr_HyABase_X_fr_Wrist_R_COM q,
    List.forall_mem_cons.2 ⟨Trans.right o_fr_HyABase_X_fr_Wrist_FE_COM g_fr_HyABase_X_fr_Wrist_FE_COM q,
    List.forall_mem_cons.2 ⟨Trans.right o_fr_HyABase_X_fr_Shoulder_AA_CTR g_fr_HyABase_X_fr_Shoulder_AA_CTR q,
    List.forall_mem_cons.2 ⟨Trans.right o_fr_HyABase_X_fr_Shoulder_FE_CTR g_fr_HyABase_X_fr_Shoulder_FE_CTR q,
    List.forall_mem_cons.2 ⟨Trans.right o_fr_HyABase_X_fr_Humerus_R_CTR g_fr_HyABase_X_fr_Humerus_R_CTR q,
    List.forall_mem_cons.2 ⟨Trans.right o_fr_HyABase_X_fr_Elbow_FE_CTR g_fr_HyABase_X_fr_Elbow_FE_CTR q,
    List.forall_mem_cons.2 ⟨Trans.right o_fr_HyABase_X_fr_Wrist_R_CTR g_fr_HyABase_X_fr_Wrist_R_CTR q,
    List.forall_mem_cons.2 ⟨Trans.right o_fr_Shoulder_FE_X_fr_Wrist_FE g_fr_Shoulder_FE_X_fr_Wrist_FE q,
    List.forall_mem_cons.2 ⟨Trans.right o_fr_Humerus_R_X_fr_Wrist_FE g_fr_Humerus_R_X_fr_Wrist_FE q,
    List.forall_mem_cons.2 ⟨Trans.right o_fr_Elbow_FE_X_fr_Wrist_FE g_fr_Elbow_FE_X_fr_Wrist_FE q,
    List.forall_mem_cons.2 ⟨Trans.right o_fr_Wrist_R_X_fr_Wrist_FE g_fr_Wrist_R_X_fr_Wrist_FE q,
    List.forall_mem_cons.2 ⟨Trans.right o_fr_Wrist_FE_X_fr_Shoulder_FE g_fr_Wrist_FE_X_fr_Shoulder_FE q,
    List.forall_mem_cons.2 ⟨Trans.right o_fr_Shoulder_FE_X_fr_ee g_fr_Shoulder_FE_X_fr_ee q,
    List.forall_mem_cons.2 ⟨Trans.right o_fr_Humerus_R_X_fr_ee g_fr_Humerus_R_X_fr_ee q,
    List.forall_mem_cons.2 ⟨Trans.right o_fr_Elbow_FE_X_fr_ee g_fr_Elbow_FE_X_fr_ee q,
    List.forall_mem_cons.2 ⟨Trans.right o_fr_Wrist_R_X_fr_ee g_fr_Wrist_R_X_fr_ee q,
    List.forall_mem_cons.2 ⟨Trans.right o_fr_Wrist_FE_X_fr_ee g_fr_Wrist_FE_X_fr_ee q,
    List.forall_mem_cons.2 ⟨Trans.right o_fr_Shoulder_AA_X_fr_HyABase g_fr_Shoulder_AA_X_fr_HyABase q,
    List.forall_mem_cons.2 ⟨Trans.right o_fr_Shoulder_FE_X_fr_HyABase g_fr_Shoulder_FE_X_fr_HyABase q,
    List.forall_mem_cons.2 ⟨Trans.right o_fr_Humerus_R_X_fr_HyABase g_fr_Humerus_R_X_fr_HyABase q,
    List.forall_mem_cons.2 ⟨Trans.right o_fr_Elbow_FE_X_fr_HyABase g_fr_Elbow_FE_X_fr_HyABase q,
    List.forall_mem_cons.2 ⟨Trans.right o_fr_Wrist_R_X_fr_HyABase g_fr_Wrist_R_X_fr_HyABase q,
    List.forall_mem_cons.2 ⟨Trans.right o_fr_Wrist_FE_X_fr_HyABase g_fr_Wrist_FE_X_fr_HyABase q,
    List.forall_mem_cons.2 ⟨Trans.right o_fr_ee_X_fr_HyABase g_fr_ee_X_fr_HyABase q,
    List.forall_mem_cons.2 ⟨Trans.right o_fr_HyABase_X_fr_SAA g_fr_HyABase_X_fr_SAA q,
    List.forall_mem_cons.2 ⟨Trans.right o_fr_HyABase_X_fr_SFE g_fr_HyABase_X_fr_SFE q,
    List.forall_mem_cons.2 ⟨Trans.right o_fr_HyABase_X_fr_HR g_fr_HyABase_X_fr_HR q,
    List.forall_mem_cons.2 ⟨Trans.right o_fr_HyABase_X_fr_EFE g_fr_HyABase_X_fr_EFE q,
    List.forall_mem_cons.2 ⟨Trans.right o_fr_HyABase_X_fr_WR g_fr_HyABase_X_fr_WR q,
    List.forall_mem_cons.2 ⟨Trans.right o_fr_HyABase_X_fr_WFE g_fr_HyABase_X_fr_WFE q,
    List.forall_mem_cons.2 ⟨Trans.right o_fr_Shoulder_FE_X_fr_Shoulder_AA g_fr_Shoulder_FE_X_fr_Shoulder_AA q,
    List.forall_mem_cons.2 ⟨Trans.right o_fr_Shoulder_AA_X_fr_Shoulder_FE g_fr_Shoulder_AA_X_fr_Shoulder_FE q,
    List.forall_mem_cons.2 ⟨Trans.right o_fr_Humerus_R_X_fr_Shoulder_FE g_fr_Humerus_R_X_fr_Shoulder_FE q,
    List.forall_mem_cons.2 ⟨Trans.right o_fr_Shoulder_FE_X_fr_Humerus_R g_fr_Shoulder_FE_X_fr_Humerus_R q,
    List.forall_mem_cons.2 ⟨Trans.right o_fr_Elbow_FE_X_fr_Humerus_R g_fr_Elbow_FE_X_fr_Humerus_R q,
    List.forall_mem_cons.2 ⟨Trans.right o_fr_Humerus_R_X_fr_Elbow_FE g_fr_Humerus_R_X_fr_Elbow_FE q,
    List.forall_mem_cons.2 ⟨Trans.right o_fr_Wrist_R_X_fr_Elbow_FE g_fr_Wrist_R_X_fr_Elbow_FE q,
    List.forall_mem_cons.2 ⟨Trans.right o_fr_Elbow_FE_X_fr_Wrist_R g_fr_Elbow_FE_X_fr_Wrist_R q,
    List.forall_mem_cons.2 ⟨Trans.right o_fr_Wrist_FE_X_fr_Wrist_R g_fr_Wrist_FE_X_fr_Wrist_R q,
    List.forall_mem_nil _⟩⟩⟩⟩⟩⟩⟩⟩⟩⟩⟩⟩⟩⟩⟩⟩⟩⟩⟩⟩⟩⟩⟩⟩⟩⟩⟩⟩⟩⟩⟩⟩⟩⟩⟩⟩⟩⟩⟩⟩⟩⟩⟩⟩⟩⟩⟩⟩⟩⟩

/-- C130: all transforms of the HyA are those between its frames, which are mounted as described (some after rounding). -/
theorem C130_HyA_transforms :
    ∃ C : ℕ → Pose, (∀ f, IsRot (C f).R) ∧ (∀ d ∈ description, C d.id = d.pose) ∧
    (∀ d ∈ roundedDescription, d.Rounded (C d.id)) ∧
    ∀ q, ∃ G, Arranged frames C q G ∧ ∀ x ∈ transforms, x.Right q (Pose.rel (G x.A) (G x.B)) := by
  refine ⟨mounts mountList, mounts_rot wf_ok, described_ok, rounded_ok, fun q => ⟨poses mountList q, ?_, transforms_right q⟩⟩
  rw [← frames_eq]
  exact arranged wf_ok q

theorem parents : ∀ g ∈ mountList, g.parent = 0 ∨ ∃ g' ∈ mountList, g'.id = g.parent := by decide +kernel

theorem j_fr_HyABase_J_fr_ee : fr_HyABase_J_fr_ee.Right frames transforms := by
  rw [← frames_eq]
  exact Jac.right (cs := [(SAA, fr_HyABase_X_fr_Shoulder_AA), (SFE, fr_HyABase_X_fr_Shoulder_FE), (HR, fr_HyABase_X_fr_Humerus_R), (EFE, fr_HyABase_X_fr_Elbow_FE), (WR, fr_HyABase_X_fr_Wrist_R), (WFE, fr_HyABase_X_fr_Wrist_FE)]) wf_ok parents
    (Or.inr ⟨m_fr_ee, List.mem_of_getElem? (i := 6) rfl, rfl⟩)
    (List.mem_of_getElem? (i := 6) rfl) o_fr_HyABase_X_fr_ee g_fr_HyABase_X_fr_ee
    (List.forall_mem_cons.2 ⟨g_fr_HyABase_X_fr_Shoulder_AA, List.forall_mem_cons.2 ⟨g_fr_HyABase_X_fr_Shoulder_FE, List.forall_mem_cons.2 ⟨g_fr_HyABase_X_fr_Humerus_R, List.forall_mem_cons.2 ⟨g_fr_HyABase_X_fr_Elbow_FE, List.forall_mem_cons.2 ⟨g_fr_HyABase_X_fr_Wrist_R, List.forall_mem_cons.2 ⟨g_fr_HyABase_X_fr_Wrist_FE, List.forall_mem_nil _⟩⟩⟩⟩⟩⟩)
    (by decide +kernel)

theorem j_fr_HyABase_J_fr_Wrist_FE_COM : fr_HyABase_J_fr_Wrist_FE_COM.Right frames transforms := by
  rw [← frames_eq]
  exact Jac.right (cs := [(SAA, fr_HyABase_X_fr_Shoulder_AA), (SFE, fr_HyABase_X_fr_Shoulder_FE), (HR, fr_HyABase_X_fr_Humerus_R), (EFE, fr_HyABase_X_fr_Elbow_FE), (WR, fr_HyABase_X_fr_Wrist_R), (WFE, fr_HyABase_X_fr_Wrist_FE)]) wf_ok parents
    (Or.inr ⟨m_fr_Wrist_FE_COM, List.mem_of_getElem? (i := 12) rfl, rfl⟩)
    (List.mem_of_getElem? (i := 12) rfl) o_fr_HyABase_X_fr_Wrist_FE_COM g_fr_HyABase_X_fr_Wrist_FE_COM
    (List.forall_mem_cons.2 ⟨g_fr_HyABase_X_fr_Shoulder_AA, List.forall_mem_cons.2 ⟨g_fr_HyABase_X_fr_Shoulder_FE, List.forall_mem_cons.2 ⟨g_fr_HyABase_X_fr_Humerus_R, List.forall_mem_cons.2 ⟨g_fr_HyABase_X_fr_Elbow_FE, List.forall_mem_cons.2 ⟨g_fr_HyABase_X_fr_Wrist_R, List.forall_mem_cons.2 ⟨g_fr_HyABase_X_fr_Wrist_FE, List.forall_mem_nil _⟩⟩⟩⟩⟩⟩)
    (by decide +kernel)

theorem j_fr_HyABase_J_fr_Wrist_FE : fr_HyABase_J_fr_Wrist_FE.Right frames transforms := by
  rw [← frames_eq]
  exact Jac.right (cs := [(SAA, fr_HyABase_X_fr_Shoulder_AA), (SFE, fr_HyABase_X_fr_Shoulder_FE), (HR, fr_HyABase_X_fr_Humerus_R), (EFE, fr_HyABase_X_fr_Elbow_FE), (WR, fr_HyABase_X_fr_Wrist_R), (WFE, fr_HyABase_X_fr_Wrist_FE)]) wf_ok parents
    (Or.inr ⟨m_fr_Wrist_FE, List.mem_of_getElem? (i := 5) rfl, rfl⟩)
    (List.mem_of_getElem? (i := 5) rfl) o_fr_HyABase_X_fr_Wrist_FE g_fr_HyABase_X_fr_Wrist_FE
    (List.forall_mem_cons.2 ⟨g_fr_HyABase_X_fr_Shoulder_AA, List.forall_mem_cons.2 ⟨g_fr_HyABase_X_fr_Shoulder_FE, List.forall_mem_cons.2 ⟨g_fr_HyABase_X_fr_Humerus_R, List.forall_mem_cons.2 ⟨g_fr_HyABase_X_fr_Elbow_FE, List.forall_mem_cons.2 ⟨g_fr_HyABase_X_fr_Wrist_R, List.forall_mem_cons.2 ⟨g_fr_HyABase_X_fr_Wrist_FE, List.forall_mem_nil _⟩⟩⟩⟩⟩⟩)
    (by decide +kernel)

theorem j_fr_HyABase_J_fr_Wrist_R_COM : fr_HyABase_J_fr_Wrist_R_COM.Right frames transforms := by
  rw [← frames_eq]
  exact Jac.right (cs := [(SAA, fr_HyABase_X_fr_Shoulder_AA), (SFE, fr_HyABase_X_fr_Shoulder_FE), (HR, fr_HyABase_X_fr_Humerus_R), (EFE, fr_HyABase_X_fr_Elbow_FE), (WR, fr_HyABase_X_fr_Wrist_R)]) wf_ok parents
    (Or.inr ⟨m_fr_Wrist_R_COM, List.mem_of_getElem? (i := 11) rfl, rfl⟩)
    (List.mem_of_getElem? (i := 11) rfl) o_fr_HyABase_X_fr_Wrist_R_COM g_fr_HyABase_X_fr_Wrist_R_COM
    (List.forall_mem_cons.2 ⟨g_fr_HyABase_X_fr_Shoulder_AA, List.forall_mem_cons.2 ⟨g_fr_HyABase_X_fr_Shoulder_FE, List.forall_mem_cons.2 ⟨g_fr_HyABase_X_fr_Humerus_R, List.forall_mem_cons.2 ⟨g_fr_HyABase_X_fr_Elbow_FE, List.forall_mem_cons.2 ⟨g_fr_HyABase_X_fr_Wrist_R, List.forall_mem_nil _⟩⟩⟩⟩⟩)
    (by decide +kernel)

theorem j_fr_HyABase_J_fr_Wrist_R : fr_HyABase_J_fr_Wrist_R.Right frames transforms := by
  rw [← frames_eq]
  exact Jac.right (cs := [(SAA, fr_HyABase_X_fr_Shoulder_AA), (SFE, fr_HyABase_X_fr_Shoulder_FE), (HR, fr_HyABase_X_fr_Humerus_R), (EFE, fr_HyABase_X_fr_Elbow_FE), (WR, fr_HyABase_X_fr_Wrist_R)]) wf_ok parents
    (Or.inr ⟨m_fr_Wrist_R, List.mem_of_getElem? (i := 4) rfl, rfl⟩)
    (List.mem_of_getElem? (i := 4) rfl) o_fr_HyABase_X_fr_Wrist_R g_fr_HyABase_X_fr_Wrist_R
    (List.forall_mem_cons.2 ⟨g_fr_HyABase_X_fr_Shoulder_AA, List.forall_mem_cons.2 ⟨g_fr_HyABase_X_fr_Shoulder_FE, List.forall_mem_cons.2 ⟨g_fr_HyABase_X_fr_Humerus_R, List.forall_mem_cons.2 ⟨g_fr_HyABase_X_fr_Elbow_FE, List.forall_mem_cons.2 ⟨g_fr_HyABase_X_fr_Wrist_R, List.forall_mem_nil _⟩⟩⟩⟩⟩)
    (by decide +kernel)

theorem j_fr_HyABase_J_fr_Wrist_R_CTR : fr_HyABase_J_fr_Wrist_R_CTR.Right frames transforms := by
  rw [← frames_eq]
  exact Jac.right (cs := [(SAA, fr_HyABase_X_fr_Shoulder_AA), (SFE, fr_HyABase_X_fr_Shoulder_FE), (HR, fr_HyABase_X_fr_Humerus_R), (EFE, fr_HyABase_X_fr_Elbow_FE), (WR, fr_HyABase_X_fr_Wrist_R)]) wf_ok parents
    (Or.inr ⟨m_fr_Wrist_R_CTR, List.mem_of_getElem? (i := 17) rfl, rfl⟩)
    (List.mem_of_getElem? (i := 17) rfl) o_fr_HyABase_X_fr_Wrist_R_CTR g_fr_HyABase_X_fr_Wrist_R_CTR
    (List.forall_mem_cons.2 ⟨g_fr_HyABase_X_fr_Shoulder_AA, List.forall_mem_cons.2 ⟨g_fr_HyABase_X_fr_Shoulder_FE, List.forall_mem_cons.2 ⟨g_fr_HyABase_X_fr_Humerus_R, List.forall_mem_cons.2 ⟨g_fr_HyABase_X_fr_Elbow_FE, List.forall_mem_cons.2 ⟨g_fr_HyABase_X_fr_Wrist_R, List.forall_mem_nil _⟩⟩⟩⟩⟩)
    (by decide +kernel)

theorem j_fr_HyABase_J_fr_Elbow_FE_COM : fr_HyABase_J_fr_Elbow_FE_COM.Right frames transforms := by
  rw [← frames_eq]
  exact Jac.right (cs := [(SAA, fr_HyABase_X_fr_Shoulder_AA), (SFE, fr_HyABase_X_fr_Shoulder_FE), (HR, fr_HyABase_X_fr_Humerus_R), (EFE, fr_HyABase_X_fr_Elbow_FE)]) wf_ok parents
    (Or.inr ⟨m_fr_Elbow_FE_COM, List.mem_of_getElem? (i := 10) rfl, rfl⟩)
    (List.mem_of_getElem? (i := 10) rfl) o_fr_HyABase_X_fr_Elbow_FE_COM g_fr_HyABase_X_fr_Elbow_FE_COM
    (List.forall_mem_cons.2 ⟨g_fr_HyABase_X_fr_Shoulder_AA, List.forall_mem_cons.2 ⟨g_fr_HyABase_X_fr_Shoulder_FE, List.forall_mem_cons.2 ⟨g_fr_HyABase_X_fr_Humerus_R, List.forall_mem_cons.2 ⟨g_fr_HyABase_X_fr_Elbow_FE, List.forall_mem_nil _⟩⟩⟩⟩)
    (by decide +kernel)

theorem j_fr_HyABase_J_fr_Elbow_FE : fr_HyABase_J_fr_Elbow_FE.Right frames transforms := by
  rw [← frames_eq]
  exact Jac.right (cs := [(SAA, fr_HyABase_X_fr_Shoulder_AA), (SFE, fr_HyABase_X_fr_Shoulder_FE), (HR, fr_HyABase_X_fr_Humerus_R), (EFE, fr_HyABase_X_fr_Elbow_FE)]) wf_ok parents
    (Or.inr ⟨m_fr_Elbow_FE, List.mem_of_getElem? (i := 3) rfl, rfl⟩)
    (List.mem_of_getElem? (i := 3) rfl) o_fr_HyABase_X_fr_Elbow_FE g_fr_HyABase_X_fr_Elbow_FE
    (List.forall_mem_cons.2 ⟨g_fr_HyABase_X_fr_Shoulder_AA, List.forall_mem_cons.2 ⟨g_fr_HyABase_X_fr_Shoulder_FE, List.forall_mem_cons.2 ⟨g_fr_HyABase_X_fr_Humerus_R, List.forall_mem_cons.2 ⟨g_fr_HyABase_X_fr_Elbow_FE, List.forall_mem_nil _⟩⟩⟩⟩)
    (by decide +kernel)

theorem j_fr_HyABase_J_fr_Elbow_FE_CTR : fr_HyABase_J_fr_Elbow_FE_CTR.Right frames transforms := by
  rw [← frames_eq]
  exact Jac.right (cs := [(SAA, fr_HyABase_X_fr_Shoulder_AA), (SFE, fr_HyABase_X_fr_Shoulder_FE), (HR, fr_HyABase_X_fr_Humerus_R), (EFE, fr_HyABase_X_fr_Elbow_FE)]) wf_ok parents
    (Or.inr ⟨m_fr_Elbow_FE_CTR, List.mem_of_getElem? (i := 16) rfl, rfl⟩)
    (List.mem_of_getElem? (i := 16) rfl) o_fr_HyABase_X_fr_Elbow_FE_CTR g_fr_HyABase_X_fr_Elbow_FE_CTR
    (List.forall_mem_cons.2 ⟨g_fr_HyABase_X_fr_Shoulder_AA, List.forall_mem_cons.2 ⟨g_fr_HyABase_X_fr_Shoulder_FE, List.forall_mem_cons.2 ⟨g_fr_HyABase_X_fr_Humerus_R, List.forall_mem_cons.2 ⟨g_fr_HyABase_X_fr_Elbow_FE, List.forall_mem_nil _⟩⟩⟩⟩)
    (by decide +kernel)

theorem j_fr_HyABase_J_fr_Humerus_R_COM : fr_HyABase_J_fr_Humerus_R_COM.Right frames transforms := by
  rw [← frames_eq]
  exact Jac.right (cs := [(SAA, fr_HyABase_X_fr_Shoulder_AA), (SFE, fr_HyABase_X_fr_Shoulder_FE), (HR, fr_HyABase_X_fr_Humerus_R)]) wf_ok parents
    (Or.inr ⟨m_fr_Humerus_R_COM, List.mem_of_getElem? (i := 9) rfl, rfl⟩)
    (List.mem_of_getElem? (i := 9) rfl) o_fr_HyABase_X_fr_Humerus_R_COM g_fr_HyABase_X_fr_Humerus_R_COM
    (List.forall_mem_cons.2 ⟨g_fr_HyABase_X_fr_Shoulder_AA, List.forall_mem_cons.2 ⟨g_fr_HyABase_X_fr_Shoulder_FE, List.forall_mem_cons.2 ⟨g_fr_HyABase_X_fr_Humerus_R, List.forall_mem_nil _⟩⟩⟩)
    (by decide +kernel)

theorem j_fr_HyABase_J_fr_Humerus_R : fr_HyABase_J_fr_Humerus_R.Right frames transforms := by
  rw [← frames_eq]
  exact Jac.right (cs := [(SAA, fr_HyABase_X_fr_Shoulder_AA), (SFE, fr_HyABase_X_fr_Shoulder_FE), (HR, fr_HyABase_X_fr_Humerus_R)]) wf_ok parents
    (Or.inr ⟨m_fr_Humerus_R, List.mem_of_getElem? (i := 2) rfl, rfl⟩)
    (List.mem_of_getElem? (i := 2) rfl) o_fr_HyABase_X_fr_Humerus_R g_fr_HyABase_X_fr_Humerus_R
    (List.forall_mem_cons.2 ⟨g_fr_HyABase_X_fr_Shoulder_AA, List.forall_mem_cons.2 ⟨g_fr_HyABase_X_fr_Shoulder_FE, List.forall_mem_cons.2 ⟨g_fr_HyABase_X_fr_Humerus_R, List.forall_mem_nil _⟩⟩⟩)
    (by decide +kernel)

theorem j_fr_HyABase_J_fr_Humerus_R_CTR : fr_HyABase_J_fr_Humerus_R_CTR.Right frames transforms := by
  rw [← frames_eq]
  exact Jac.right (cs := [(SAA, fr_HyABase_X_fr_Shoulder_AA), (SFE, fr_HyABase_X_fr_Shoulder_FE), (HR, fr_HyABase_X_fr_Humerus_R)]) wf_ok parents
    (Or.inr ⟨m_fr_Humerus_R_CTR, List.mem_of_getElem? (i := 15) rfl, rfl⟩)
    (List.mem_of_getElem? (i := 15) rfl) o_fr_HyABase_X_fr_Humerus_R_CTR g_fr_HyABase_X_fr_Humerus_R_CTR
    (List.forall_mem_cons.2 ⟨g_fr_HyABase_X_fr_Shoulder_AA, List.forall_mem_cons.2 ⟨g_fr_HyABase_X_fr_Shoulder_FE, List.forall_mem_cons.2 ⟨g_fr_HyABase_X_fr_Humerus_R, List.forall_mem_nil _⟩⟩⟩)
    (by decide +kernel)

theorem j_fr_HyABase_J_fr_Shoulder_AA_CTR : fr_HyABase_J_fr_Shoulder_AA_CTR.Right frames transforms := by
  rw [← frames_eq]
  exact Jac.right (cs := [(SAA, fr_HyABase_X_fr_Shoulder_AA)]) wf_ok parents
    (Or.inr ⟨m_fr_Shoulder_AA_CTR, List.mem_of_getElem? (i := 13) rfl, rfl⟩)
    (List.mem_of_getElem? (i := 13) rfl) o_fr_HyABase_X_fr_Shoulder_AA_CTR g_fr_HyABase_X_fr_Shoulder_AA_CTR
    (List.forall_mem_cons.2 ⟨g_fr_HyABase_X_fr_Shoulder_AA, List.forall_mem_nil _⟩)
    (by decide +kernel)

theorem j_fr_HyABase_J_fr_Shoulder_FE_CTR : fr_HyABase_J_fr_Shoulder_FE_CTR.Right frames transforms := by
  rw [← frames_eq]
  exact Jac.right (cs := [(SAA, fr_HyABase_X_fr_Shoulder_AA), (SFE, fr_HyABase_X_fr_Shoulder_FE)]) wf_ok parents
    (Or.inr ⟨m_fr_Shoulder_FE_CTR, List.mem_of_getElem? (i := 14) rfl, rfl⟩)
    (List.mem_of_getElem? (i := 14) rfl) o_fr_HyABase_X_fr_Shoulder_FE_CTR g_fr_HyABase_X_fr_Shoulder_FE_CTR
    (List.forall_mem_cons.2 ⟨g_fr_HyABase_X_fr_Shoulder_AA, List.forall_mem_cons.2 ⟨g_fr_HyABase_X_fr_Shoulder_FE, List.forall_mem_nil _⟩⟩)
    (by decide +kernel)

/-- C131: all Jacobians of the HyA map joint velocities to the velocities of their frames. -/
theorem C131_HyA_jacobians : ∀ j ∈ jacobians, j.Right frames transforms :=
  List.forall_mem_cons.2 ⟨j_fr_HyABase_J_fr_ee,
    List.forall_mem_cons.2 ⟨j_fr_HyABase_J_fr_Wrist_FE_COM,
    List.forall_mem_cons.2 ⟨j_fr_HyABase_J_fr_Wrist_FE,
    List.forall_mem_cons.2 ⟨j_fr_HyABase_J_fr_Wrist_R_COM,
    List.forall_mem_cons.2 ⟨j_fr_HyABase_J_fr_Wrist_R,
    List.forall_mem_cons.2 ⟨j_fr_HyABase_J_fr_Wrist_R_CTR,
    List.forall_mem_cons.2 ⟨j_fr_HyABase_J_fr_Elbow_FE_COM,
    List.forall_mem_cons.2 ⟨j_fr_HyABase_J_fr_Elbow_FE,
    List.forall_mem_cons.2 ⟨j_fr_HyABase_J_fr_Elbow_FE_CTR,
    List.forall_mem_cons.2 ⟨j_fr_HyABase_J_fr_Humerus_R_COM,
    List.forall_mem_cons.2 ⟨j_fr_HyABase_J_fr_Humerus_R,
    List.forall_mem_cons.2 ⟨j_fr_HyABase_J_fr_Humerus_R_CTR,
    List.forall_mem_cons.2 ⟨j_fr_HyABase_J_fr_Shoulder_AA_CTR,
    List.forall_mem_cons.2 ⟨j_fr_HyABase_J_fr_Shoulder_FE_CTR,
    List.forall_mem_nil _⟩⟩⟩⟩⟩⟩⟩⟩⟩⟩⟩⟩⟩⟩

end CT.Robots.HyA.Kin
