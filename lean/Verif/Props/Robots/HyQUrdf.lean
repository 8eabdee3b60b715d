import Verif.Props.Robots.HyQFrames

/-!
# C130: the frames of HyQ and its description

The description of HyQ is `ct_models/urdf/HyQ/hyqb.urdf.xacro` with the files in `links/`.  An `<origin>` element of this
format has a translation `xyz` and three angles `rpy`: the frame is turned by roll, pitch and yaw about the axes x, y
and z of the parent, in this order.  The constant `PI` of the description is taken as π.
-/

namespace CT.Robots.HyQ.Kin

open CT.GenKin Spatial FrameJac

/-! ### Specification -/

/-- The `<origin>` of a joint; angles in multiples of a right angle. -/
structure Origin where
  id : ℕ
  x : ℚ
  y : ℚ
  z : ℚ
  roll : ℤ
  pitch : ℤ
  yaw : ℤ

/-- The pose of the frame in the frame of the parent. -/
noncomputable def Origin.pose (d : Origin) : Pose :=
  ⟨rotZ (d.yaw * (Real.pi / 2)) * rotY (d.pitch * (Real.pi / 2)) * rotX (d.roll * (Real.pi / 2)), ![(d.x : ℝ), (d.y : ℝ), (d.z : ℝ)]⟩

/-- The joints HAA (hyqb.urdf.xacro:30-67, links/inertia.urdf.xacro:8-9) and KFE (links/leg.urdf.xacro:34-35,
links/inertia.urdf.xacro:11). -/
def hips_knees : List Origin :=
  [⟨fr_LF_hipassembly, (0.747/2), (0.414/2), 0, 0, 1, 2⟩,
   ⟨fr_LF_lowerleg, 0.35, 0, 0, 0, 0, 0⟩,
   ⟨fr_RF_hipassembly, (0.747/2), (-0.414/2), 0, 0, 1, 0⟩,
   ⟨fr_RF_lowerleg, 0.35, 0, 0, 0, 0, 0⟩,
   ⟨fr_LH_hipassembly, (-0.747/2), (0.414/2), 0, 0, 1, 2⟩,
   ⟨fr_LH_lowerleg, 0.35, 0, 0, 0, 0, 0⟩,
   ⟨fr_RH_hipassembly, (-0.747/2), (-0.414/2), 0, 0, 1, 0⟩,
   ⟨fr_RH_lowerleg, 0.35, 0, 0, 0, 0, 0⟩]

/-- The joints HFE (links/leg.urdf.xacro:21-22, links/inertia.urdf.xacro:10). -/
def hfe : List Origin :=
  [⟨fr_LF_upperleg, 0.082, 0, 0, (1), 0, 0⟩,
   ⟨fr_RF_upperleg, 0.082, 0, 0, (-1), 0, 0⟩,
   ⟨fr_LH_upperleg, 0.082, 0, 0, (1), 0, 0⟩,
   ⟨fr_RH_upperleg, 0.082, 0, 0, (-1), 0, 0⟩]

/-- The feet (links/leg.urdf.xacro:47-48). -/
def feet : List Origin :=
  [⟨fr_LF_foot, 0.35, 0, 0, 1, 0, (-1)⟩,
   ⟨fr_RF_foot, 0.35, 0, 0, 1, 0, (-1)⟩,
   ⟨fr_LH_foot, 0.35, 0, 0, 1, 0, (-1)⟩,
   ⟨fr_RH_foot, 0.35, 0, 0, 1, 0, (-1)⟩]

/-! ### Proofs -/

/-- The check of the described rotation. -/
def Origin.same (o : Origin) (d : Descr) : Bool :=
  let ca := icos d.a; let sa := isin d.a; let cb := icos d.b; let sb := isin d.b; let cc := icos d.c; let sc := isin d.c
  let cr := icos o.roll; let sr := isin o.roll; let cp := icos o.pitch; let sp := isin o.pitch; let cy := icos o.yaw; let sy := isin o.yaw
  decide (cy * cp = cb * cc) && decide (cy * sp * sr - sy * cr = -(cb * sc)) && decide (cy * sp * cr + sy * sr = sb)
  && decide (sy * cp = sa * sb * cc + ca * sc) && decide (sy * sp * sr + cy * cr = -(sa * sb * sc) + ca * cc)
  && decide (sy * sp * cr - cy * sr = -(sa * cb)) && decide (-sp = -(ca * sb * cc) + sa * sc)
  && decide (cp * sr = ca * sb * sc + sa * cc) && decide (cp * cr = ca * cb)

theorem Origin.rot_eq {o : Origin} {d : Descr} (h : o.same d = true) : o.pose.R = d.pose.R := by
  simp only [Origin.same, Bool.and_eq_true, decide_eq_true_eq] at h
  obtain ⟨⟨⟨⟨⟨⟨⟨⟨r0, r1⟩, r2⟩, r3⟩, r4⟩, r5⟩, r6⟩, r7⟩, r8⟩ := h
  obtain ⟨ca, sa⟩ := quarter d.a
  obtain ⟨cb, sb⟩ := quarter d.b
  obtain ⟨cc, sc⟩ := quarter d.c
  obtain ⟨cr, sr⟩ := quarter o.roll
  obtain ⟨cp, sp⟩ := quarter o.pitch
  obtain ⟨cy, sy⟩ := quarter o.yaw
  have c0 := congrArg (Int.cast : ℤ → ℝ) r0
  have c1 := congrArg (Int.cast : ℤ → ℝ) r1
  have c2 := congrArg (Int.cast : ℤ → ℝ) r2
  have c3 := congrArg (Int.cast : ℤ → ℝ) r3
  have c4 := congrArg (Int.cast : ℤ → ℝ) r4
  have c5 := congrArg (Int.cast : ℤ → ℝ) r5
  have c6 := congrArg (Int.cast : ℤ → ℝ) r6
  have c7 := congrArg (Int.cast : ℤ → ℝ) r7
  have c8 := congrArg (Int.cast : ℤ → ℝ) r8
  push_cast at c0 c1 c2 c3 c4 c5 c6 c7 c8
  rw [Origin.pose, Descr.pose]
  ext i j
  fin_cases i <;> fin_cases j <;>
    simp [rotX, rotY, rotZ, Matrix.mul_apply, Fin.sum_univ_three, ca, sa, cb, sb, cc, sc, cr, sr, cp, sp, cy, sy] <;>
    linarith

theorem pose_ext {a b : Pose} (h1 : a.R = b.R) (h2 : a.p = b.p) : a = b := by
  cases a; cases b; cases h1; cases h2; rfl

theorem origin_ok {m : Mount} (hm : m ∈ mountList) {o : Origin} {d : Descr} (h1 : m.is d = true) (h2 : o.id = d.id)
    (h3 : o.same d = true) : (mounts mountList o.id).R = o.pose.R ∧ (mounts mountList o.id).p = ![(d.x : ℝ), (d.y : ℝ), (d.z : ℝ)] := by
  have h4 := described wf_ok hm h1
  rw [h2, h4, Origin.rot_eq h3]
  exact ⟨rfl, rfl⟩

theorem hips_knees_ok : ∀ o ∈ hips_knees, mounts mountList o.id = o.pose :=
  List.forall_mem_cons.2 ⟨(by
      obtain ⟨h1, h2⟩ := origin_ok (m := m_fr_LF_hipassembly) (List.mem_of_getElem? (i := 0) rfl) (o := ⟨fr_LF_hipassembly, (0.747/2), (0.414/2), 0, 0, 1, 2⟩)
        (d := ⟨fr_LF_hipassembly, (0.747/2), (0.414/2), 0, 0, -1, 2⟩) (by decide +kernel) rfl (by decide +kernel)
      exact pose_ext h1 h2),
    List.forall_mem_cons.2 ⟨(by
      obtain ⟨h1, h2⟩ := origin_ok (m := m_fr_LF_lowerleg) (List.mem_of_getElem? (i := 2) rfl) (o := ⟨fr_LF_lowerleg, 0.35, 0, 0, 0, 0, 0⟩)
        (d := ⟨fr_LF_lowerleg, 0.35, 0, 0, 0, 0, 0⟩) (by decide +kernel) rfl (by decide +kernel)
      exact pose_ext h1 h2),
    List.forall_mem_cons.2 ⟨(by
      obtain ⟨h1, h2⟩ := origin_ok (m := m_fr_RF_hipassembly) (List.mem_of_getElem? (i := 3) rfl) (o := ⟨fr_RF_hipassembly, (0.747/2), (-0.414/2), 0, 0, 1, 0⟩)
        (d := ⟨fr_RF_hipassembly, (0.747/2), (-0.414/2), 0, 0, 1, 0⟩) (by decide +kernel) rfl (by decide +kernel)
      exact pose_ext h1 h2),
    List.forall_mem_cons.2 ⟨(by
      obtain ⟨h1, h2⟩ := origin_ok (m := m_fr_RF_lowerleg) (List.mem_of_getElem? (i := 5) rfl) (o := ⟨fr_RF_lowerleg, 0.35, 0, 0, 0, 0, 0⟩)
        (d := ⟨fr_RF_lowerleg, 0.35, 0, 0, 0, 0, 0⟩) (by decide +kernel) rfl (by decide +kernel)
      exact pose_ext h1 h2),
    List.forall_mem_cons.2 ⟨(by
      obtain ⟨h1, h2⟩ := origin_ok (m := m_fr_LH_hipassembly) (List.mem_of_getElem? (i := 6) rfl) (o := ⟨fr_LH_hipassembly, (-0.747/2), (0.414/2), 0, 0, 1, 2⟩)
        (d := ⟨fr_LH_hipassembly, (-0.747/2), (0.414/2), 0, 0, -1, 2⟩) (by decide +kernel) rfl (by decide +kernel)
      exact pose_ext h1 h2),
    List.forall_mem_cons.2 ⟨(by
      obtain ⟨h1, h2⟩ := origin_ok (m := m_fr_LH_lowerleg) (List.mem_of_getElem? (i := 8) rfl) (o := ⟨fr_LH_lowerleg, 0.35, 0, 0, 0, 0, 0⟩)
        (d := ⟨fr_LH_lowerleg, 0.35, 0, 0, 0, 0, 0⟩) (by decide +kernel) rfl (by decide +kernel)
      exact pose_ext h1 h2),
    List.forall_mem_cons.2 ⟨(by
      obtain ⟨h1, h2⟩ := origin_ok (m := m_fr_RH_hipassembly) (List.mem_of_getElem? (i := 9) rfl) (o := ⟨fr_RH_hipassembly, (-0.747/2), (-0.414/2), 0, 0, 1, 0⟩)
        (d := ⟨fr_RH_hipassembly, (-0.747/2), (-0.414/2), 0, 0, 1, 0⟩) (by decide +kernel) rfl (by decide +kernel)
      exact pose_ext h1 h2),
    List.forall_mem_cons.2 ⟨(by
      obtain ⟨h1, h2⟩ := origin_ok (m := m_fr_RH_lowerleg) (List.mem_of_getElem? (i := 11) rfl) (o := ⟨fr_RH_lowerleg, 0.35, 0, 0, 0, 0, 0⟩)
        (d := ⟨fr_RH_lowerleg, 0.35, 0, 0, 0, 0, 0⟩) (by decide +kernel) rfl (by decide +kernel)
      exact pose_ext h1 h2),
    List.forall_mem_nil _⟩⟩⟩⟩⟩⟩⟩⟩

theorem hfe_ok : ∀ o ∈ hfe, (mounts mountList o.id).R = o.pose.R ∧ (mounts mountList o.id).p = ![0.08, 0, 0] :=
  List.forall_mem_cons.2 ⟨(by
      obtain ⟨h1, h2⟩ := origin_ok (m := m_fr_LF_upperleg) (List.mem_of_getElem? (i := 1) rfl) (o := ⟨fr_LF_upperleg, 0.082, 0, 0, (1), 0, 0⟩)
        (d := ⟨fr_LF_upperleg, 0.08, 0, 0, 1, 0, 0⟩) (by decide +kernel) rfl (by decide +kernel)
      exact ⟨h1, h2.trans (by norm_num)⟩),
    List.forall_mem_cons.2 ⟨(by
      obtain ⟨h1, h2⟩ := origin_ok (m := m_fr_RF_upperleg) (List.mem_of_getElem? (i := 4) rfl) (o := ⟨fr_RF_upperleg, 0.082, 0, 0, (-1), 0, 0⟩)
        (d := ⟨fr_RF_upperleg, 0.08, 0, 0, -1, 0, 0⟩) (by decide +kernel) rfl (by decide +kernel)
      exact ⟨h1, h2.trans (by norm_num)⟩),
    List.forall_mem_cons.2 ⟨(by
      obtain ⟨h1, h2⟩ := origin_ok (m := m_fr_LH_upperleg) (List.mem_of_getElem? (i := 7) rfl) (o := ⟨fr_LH_upperleg, 0.082, 0, 0, (1), 0, 0⟩)
        (d := ⟨fr_LH_upperleg, 0.08, 0, 0, 1, 0, 0⟩) (by decide +kernel) rfl (by decide +kernel)
      exact ⟨h1, h2.trans (by norm_num)⟩),
    List.forall_mem_cons.2 ⟨(by
      obtain ⟨h1, h2⟩ := origin_ok (m := m_fr_RH_upperleg) (List.mem_of_getElem? (i := 10) rfl) (o := ⟨fr_RH_upperleg, 0.082, 0, 0, (-1), 0, 0⟩)
        (d := ⟨fr_RH_upperleg, 0.08, 0, 0, -1, 0, 0⟩) (by decide +kernel) rfl (by decide +kernel)
      exact ⟨h1, h2.trans (by norm_num)⟩),
    List.forall_mem_nil _⟩⟩⟩⟩

theorem feet_ok : ∀ o ∈ feet, mounts mountList o.id = ⟨1, ![0.33, 0, 0]⟩ :=
  List.forall_mem_cons.2 ⟨(by
      have h := described wf_ok (m := m_fr_LF_foot) (List.mem_of_getElem? (i := 24) rfl) (d := ⟨fr_LF_foot, 0.33, 0, 0, 0, 0, 0⟩) (by decide +kernel)
      refine h.trans (pose_ext ?_ ?_)
      · simp only [Descr.pose]
        ext i j
        fin_cases i <;> fin_cases j <;> simp [rotX, rotY, rotZ, Matrix.mul_apply, Fin.sum_univ_three]
      · simp only [Descr.pose]
        norm_num),
    List.forall_mem_cons.2 ⟨(by
      have h := described wf_ok (m := m_fr_RF_foot) (List.mem_of_getElem? (i := 25) rfl) (d := ⟨fr_RF_foot, 0.33, 0, 0, 0, 0, 0⟩) (by decide +kernel)
      refine h.trans (pose_ext ?_ ?_)
      · simp only [Descr.pose]
        ext i j
        fin_cases i <;> fin_cases j <;> simp [rotX, rotY, rotZ, Matrix.mul_apply, Fin.sum_univ_three]
      · simp only [Descr.pose]
        norm_num),
    List.forall_mem_cons.2 ⟨(by
      have h := described wf_ok (m := m_fr_LH_foot) (List.mem_of_getElem? (i := 26) rfl) (d := ⟨fr_LH_foot, 0.33, 0, 0, 0, 0, 0⟩) (by decide +kernel)
      refine h.trans (pose_ext ?_ ?_)
      · simp only [Descr.pose]
        ext i j
        fin_cases i <;> fin_cases j <;> simp [rotX, rotY, rotZ, Matrix.mul_apply, Fin.sum_univ_three]
      · simp only [Descr.pose]
        norm_num),
    List.forall_mem_cons.2 ⟨(by
      have h := described wf_ok (m := m_fr_RH_foot) (List.mem_of_getElem? (i := 27) rfl) (d := ⟨fr_RH_foot, 0.33, 0, 0, 0, 0, 0⟩) (by decide +kernel)
      refine h.trans (pose_ext ?_ ?_)
      · simp only [Descr.pose]
        ext i j
        fin_cases i <;> fin_cases j <;> simp [rotX, rotY, rotZ, Matrix.mul_apply, Fin.sum_univ_three]
      · simp only [Descr.pose]
        norm_num),
    List.forall_mem_nil _⟩⟩⟩⟩

/-- **C130 (HyQ), description.**  The frames of HyQ and its description: the joints HAA and KFE are mounted exactly as
described; the joints HFE have the described orientation but are 8 cm instead of 8.2 cm from the joint HAA; the
feet are 33 cm instead of 35 cm from the knee and turned with respect to the description. -/
theorem C130_HyQ_described_partial :
    ∃ C : ℕ → Pose, (∀ f, IsRot (C f).R)
    ∧ (∀ o ∈ hips_knees, C o.id = o.pose)
    ∧ (∀ o ∈ hfe, (C o.id).R = o.pose.R ∧ (C o.id).p = ![0.08, 0, 0] ∧ o.pose.p = ![0.082, 0, 0])
    ∧ (∀ o ∈ feet, C o.id = ⟨1, ![0.33, 0, 0]⟩ ∧ o.pose.p = ![0.35, 0, 0] ∧ o.pose.R ≠ 1)
    ∧ ∀ q, ∃ G, Arranged frames C q G ∧ ∀ x ∈ transforms, x.Right q (Pose.rel (G x.A) (G x.B)) := by
  refine ⟨mounts mountList, mounts_rot wf_ok, hips_knees_ok, fun o ho => ⟨(hfe_ok o ho).1, (hfe_ok o ho).2, ?_⟩,
    fun o ho => ⟨feet_ok o ho, ?_, ?_⟩, fun q => ⟨poses mountList q, ?_, transforms_right q⟩⟩
  · simp only [hfe, List.mem_cons, List.not_mem_nil, or_false] at ho
    rcases ho with rfl | rfl | rfl | rfl <;> norm_num [Origin.pose]
  · simp only [feet, List.mem_cons, List.not_mem_nil, or_false] at ho
    rcases ho with rfl | rfl | rfl | rfl <;> norm_num [Origin.pose]
  · intro h
    have h1 := congrFun (congrFun h 0) 0
    simp only [feet, List.mem_cons, List.not_mem_nil, or_false] at ho
    rcases ho with rfl | rfl | rfl | rfl <;>
      simp [Origin.pose, rotX, rotY, rotZ, Matrix.mul_apply, Fin.sum_univ_three] at h1
  · rw [← frames_eq]
    exact arranged wf_ok q

end CT.Robots.HyQ.Kin
