import Verif.Props.DescribedInertia
import Verif.Model.Robots.InvertedPendulum
import Verif.Model.Robots.DoubleInvertedPendulum
import Verif.Model.Robots.HyA
import Verif.Model.Robots.QuadrotorWithLoad

/-!
# C132: the inertia parameters of the robots (written by `tools/gen_inertia.py`)

Line numbers are those of the descriptions `<robot>/model/*.kindsl`.
-/

namespace CT.Robots

open CT.GenKin Spatial FrameJac

namespace InvertedPendulum.Described

/-- `Link1` (lines 16-20), in the frame fr_COM, lines 29-30. -/
def Link1 : Body where
  ref := ⟨0, 0.293, 0, 0, 0, 0, 0⟩
  m := 1.811
  cx := 0
  cy := 0
  cz := 0
  Ix := 0.00047
  Iy := 0.00047
  Iz := 0.009055
  Ixy := 0
  Ixz := 0
  Iyz := 0

theorem coded_Link1 (z : M6) : tensor_Link1 z = Coded.matrix ⟨1.811, 0.293, 0, 0, 0.00047, 0.15594256, 0.16452757, 0, 0, 0⟩ z := by
  simp only [tensor_Link1, Coded.matrix]
  norm_num

theorem ok_Link1 (z : M6) : Link1.Agrees (2e-7 : ℚ) (tensor_Link1 z) :=
  coded_Link1 z ▸ Body.agrees (by norm_num) (by decide +kernel) z

end InvertedPendulum.Described

/-- C132: the inertia parameters of the InvertedPendulum are those in its description, whatever the memory contained. -/
theorem C132_InvertedPendulum_inertia (z : InvertedPendulum.Inertias) :
    InvertedPendulum.Described.Link1.Agrees (2e-7 : ℚ) (InvertedPendulum.Inertias.new z).Link1 :=
  InvertedPendulum.Described.ok_Link1 _

namespace DoubleInvertedPendulum.Described

/-- `Link1` (lines 17-21), in the frame fr_COM_Link1, lines 28-29. -/
def Link1 : Body where
  ref := ⟨0, 0.5, 0, 0, 1, 0, 0⟩
  m := 1
  cx := 0
  cy := 0
  cz := 0
  Ix := 0.0005
  Iy := 0.0005
  Iz := 0.001
  Ixy := 0
  Ixz := 0
  Iyz := 0

theorem coded_Link1 (z : M6) : tensor_Link1 z = Coded.matrix ⟨1, 0.5, 0, 0, 0.0005, 0.251, 0.2505, 0, 0, (-0.000000000021855406)⟩ z := by
  simp only [tensor_Link1, Coded.matrix]
  norm_num

theorem ok_Link1 (z : M6) : Link1.Agrees (2e-7 : ℚ) (tensor_Link1 z) :=
  coded_Link1 z ▸ Body.agrees (by norm_num) (by decide +kernel) z

/-- `Link2` (lines 36-40), in the frame fr_COM_Link2, lines 49-50. -/
def Link2 : Body where
  ref := ⟨0, 0.5, 0, 0, 0, 0, 0⟩
  m := 1
  cx := 0
  cy := 0
  cz := 0
  Ix := 0.0005
  Iy := 0.0005
  Iz := 0.001
  Ixy := 0
  Ixz := 0
  Iyz := 0

theorem coded_Link2 (z : M6) : tensor_Link2 z = Coded.matrix ⟨1, 0.5, 0, 0, 0.0005, 0.2505, 0.251, 0, 0, 0⟩ z := by
  simp only [tensor_Link2, Coded.matrix]
  norm_num

theorem ok_Link2 (z : M6) : Link2.Agrees (2e-7 : ℚ) (tensor_Link2 z) :=
  coded_Link2 z ▸ Body.agrees (by norm_num) (by decide +kernel) z

end DoubleInvertedPendulum.Described

/-- C132: the inertia parameters of the DoubleInvertedPendulum are those in its description, whatever the memory contained. -/
theorem C132_DoubleInvertedPendulum_inertia (z : DoubleInvertedPendulum.Inertias) :
    DoubleInvertedPendulum.Described.Link1.Agrees (2e-7 : ℚ) (DoubleInvertedPendulum.Inertias.new z).Link1 ∧
    DoubleInvertedPendulum.Described.Link2.Agrees (2e-7 : ℚ) (DoubleInvertedPendulum.Inertias.new z).Link2 :=
  ⟨DoubleInvertedPendulum.Described.ok_Link1 _, DoubleInvertedPendulum.Described.ok_Link2 _⟩

namespace HyA.Described

/-- `Shoulder_AA` (lines 16-20), in the frame fr_SFE, lines 31-32. -/
def Shoulder_AA : Body where
  ref := ⟨0, 0, 0, 0.178, 1, 0, 0⟩
  m := 2.688
  cx := (-0.000196)
  cy := (-0.000361)
  cz := 0.003091
  Ix := 0.004985
  Iy := 0.007629
  Iz := 0.004716
  Ixy := 0.000585
  Ixz := (-0.000613)
  Iyz := (-0.000894)

theorem coded_Shoulder_AA (z : M6) : tensor_Shoulder_AA z = Coded.matrix ⟨2.688, (-0.000196), (-0.003091), 0.17763901, 0.08980614, 0.08953714, 0.007629, 0.000613, 0.000491221, (-0.0005849322)⟩ z := by
  simp only [tensor_Shoulder_AA, Coded.matrix]
  norm_num

theorem ok_Shoulder_AA (z : M6) : Shoulder_AA.Agrees (2e-7 : ℚ) (tensor_Shoulder_AA z) :=
  coded_Shoulder_AA z ▸ Body.agrees (by norm_num) (by decide +kernel) z

/-- `Shoulder_FE` (lines 45-49), in the frame fr_HR, lines 60-61. -/
def Shoulder_FE : Body where
  ref := ⟨0, 0.112, 0, 0, 0, 1, 0⟩
  m := 2.5924192
  cx := (-0.003832)
  cy := (-0.023382)
  cz := 0.0011662
  Ix := 0.018197
  Iy := 0.052659
  Iz := 0.039003
  Ixy := (-0.002752)
  Ixz := (-0.021739)
  Iyz := 0.001261

theorem coded_Shoulder_FE (z : M6) : tensor_Shoulder_FE z = Coded.matrix ⟨2.5924191, 0.113166206, (-0.023382), 0.003832, 0.039002996, 0.08585553, 0.051393528, (-0.0055279857), 0.022851627, 0.002752⟩ z := by
  simp only [tensor_Shoulder_FE, Coded.matrix]
  norm_num

theorem ok_Shoulder_FE (z : M6) : Shoulder_FE.Agrees (2e-7 : ℚ) (tensor_Shoulder_FE z) :=
  coded_Shoulder_FE z ▸ Body.agrees (by norm_num) (by decide +kernel) z

/-- `Humerus_R` (lines 74-78), in the frame fr_EFE, lines 89-90. -/
def Humerus_R : Body where
  ref := ⟨0, 0, 0, 0.304, 0, -1, 0⟩
  m := 2.327
  cx := (-0.025544)
  cy := 0.00618
  cz := 0.00239
  Ix := 0.01033
  Iy := 0.030957
  Iz := 0.023452
  Ixy := (-0.000572)
  Ixz := (-0.013406)
  Iyz := 0.000054

theorem coded_Humerus_R (z : M6) : tensor_Humerus_R z = Coded.matrix ⟨2.327, (-0.0023899989), 0.00618, 0.278456, 0.20236395, 0.20986895, 0.010329999, (-0.00005399998), 0.011715295, 0.0037997814⟩ z := by
  simp only [tensor_Humerus_R, Coded.matrix]
  norm_num

theorem ok_Humerus_R (z : M6) : Humerus_R.Agrees (2e-7 : ℚ) (tensor_Humerus_R z) :=
  coded_Humerus_R z ▸ Body.agrees (by norm_num) (by decide +kernel) z

/-- `Elbow_FE` (lines 101-105), in the frame fr_WR, lines 116-117. -/
def Elbow_FE : Body where
  ref := ⟨0, 0.112, 0, 0, 0, 1, 0⟩
  m := 1.7423721
  cx := 0
  cy := (-0.005)
  cz := (-0.02)
  Ix := 0.081658
  Iy := 0.004234
  Iz := 0.081661
  Ixy := (-0.002292)
  Ixz := (-0.000212)
  Iyz := (-0.00271)

theorem coded_Elbow_FE (z : M6) : tensor_Elbow_FE z = Coded.matrix ⟨1.7423722, 0.09200001, (-0.005), 0.00000000087422736, 0.081661, 0.01828449, 0.09570849, (-0.0036857284), 0.00021200017, 0.0022920002⟩ z := by
  simp only [tensor_Elbow_FE, Coded.matrix]
  norm_num

theorem ok_Elbow_FE (z : M6) : Elbow_FE.Agrees (2e-7 : ℚ) (tensor_Elbow_FE z) :=
  coded_Elbow_FE z ▸ Body.agrees (by norm_num) (by decide +kernel) z

/-- `Wrist_R` (lines 128-131), in the frame of the link. -/
def Wrist_R : Body where
  ref := ⟨0, 0, 0, 0, 0, 0, 0⟩
  m := 2.1032
  cx := 0
  cy := 0
  cz := 0.0275
  Ix := 0.019432
  Iy := 0.029115
  Iz := 0.011046
  Ixy := 0.001387
  Ixz := 0.012652
  Iyz := 0.001243

theorem coded_Wrist_R (z : M6) : tensor_Wrist_R z = Coded.matrix ⟨2.1032, 0, 0, 0.0275, 0.019432, 0.029115, 0.011046, 0.001387, 0.012652, 0.001243⟩ z := by
  simp only [tensor_Wrist_R, Coded.matrix]
  norm_num

theorem ok_Wrist_R (z : M6) : Wrist_R.Agrees (2e-7 : ℚ) (tensor_Wrist_R z) :=
  coded_Wrist_R z ▸ Body.agrees (by norm_num) (by decide +kernel) z

/-- `Wrist_FE` (lines 151-154), in the frame of the link. -/
def Wrist_FE : Body where
  ref := ⟨0, 0, 0, 0, 0, 0, 0⟩
  m := 1.547475
  cx := 0.025
  cy := 0
  cz := 0
  Ix := 0.010737
  Iy := 0.003227
  Iz := 0.009277
  Ixy := (-0.000198)
  Ixz := (-0.000015)
  Iyz := 0.000829

theorem coded_Wrist_FE (z : M6) : tensor_Wrist_FE z = Coded.matrix ⟨1.547475, 0.025, 0, 0, 0.010737, 0.003227, 0.009277, (-0.000198), (-0.000015), 0.000829⟩ z := by
  simp only [tensor_Wrist_FE, Coded.matrix]
  norm_num

theorem ok_Wrist_FE (z : M6) : Wrist_FE.Agrees (2e-7 : ℚ) (tensor_Wrist_FE z) :=
  coded_Wrist_FE z ▸ Body.agrees (by norm_num) (by decide +kernel) z

end HyA.Described

/-- C132: the inertia parameters of the HyA are those in its description, whatever the memory contained. -/
theorem C132_HyA_inertia (z : HyA.Inertias) :
    HyA.Described.Shoulder_AA.Agrees (2e-7 : ℚ) (HyA.Inertias.new z).Shoulder_AA ∧
    HyA.Described.Shoulder_FE.Agrees (2e-7 : ℚ) (HyA.Inertias.new z).Shoulder_FE ∧
    HyA.Described.Humerus_R.Agrees (2e-7 : ℚ) (HyA.Inertias.new z).Humerus_R ∧
    HyA.Described.Elbow_FE.Agrees (2e-7 : ℚ) (HyA.Inertias.new z).Elbow_FE ∧
    HyA.Described.Wrist_R.Agrees (2e-7 : ℚ) (HyA.Inertias.new z).Wrist_R ∧
    HyA.Described.Wrist_FE.Agrees (2e-7 : ℚ) (HyA.Inertias.new z).Wrist_FE :=
  ⟨HyA.Described.ok_Shoulder_AA _, HyA.Described.ok_Shoulder_FE _, HyA.Described.ok_Humerus_R _, HyA.Described.ok_Elbow_FE _, HyA.Described.ok_Wrist_R _, HyA.Described.ok_Wrist_FE _⟩

namespace QuadrotorWithLoad.Described

/-- `body` (lines 4-7), in the frame of the link. -/
def body : Body where
  ref := ⟨0, 0, 0, 0, 0, 0, 0⟩
  m := 0.5
  cx := 0
  cy := 0
  cz := 0
  Ix := 0.03
  Iy := 0.03
  Iz := 0.05
  Ixy := 0
  Ixz := 0
  Iyz := 0

theorem coded_body (z : M6) : tensor_body z = Coded.matrix ⟨0.5, 0, 0, 0, 0.03, 0.05, 0.03, 0, 0, 0⟩ z := by
  simp only [tensor_body, Coded.matrix]
  norm_num

/-- `link1` (lines 22-25), in the frame of the link. -/
def link1 : Body where
  ref := ⟨0, 0, 0, 0, 0, 0, 0⟩
  m := 0.025
  cx := 0
  cy := 0
  cz := (-0.05)
  Ix := 0.00002075
  Iy := 0.00002075
  Iz := 0.000001
  Ixy := 0
  Ixz := 0
  Iyz := 0

theorem coded_link1 (z : M6) : tensor_link1 z = Coded.matrix ⟨0.025, 0, 0, (-0.05), 0.00002075, 0.000001, 0.00002075, 0, 0, 0⟩ z := by
  simp only [tensor_link1, Coded.matrix]
  norm_num

/-- `link2` (lines 42-45), in the frame of the link. -/
def link2 : Body where
  ref := ⟨0, 0, 0, 0, 0, 0, 0⟩
  m := 0.1
  cx := 0.35
  cy := 0
  cz := 0
  Ix := 0.0000025
  Iy := 0.004084
  Iz := 0.004084
  Ixy := 0
  Ixz := 0
  Iyz := 0

theorem coded_link2 (z : M6) : tensor_link2 z = Coded.matrix ⟨0.1, 0.35, 0, 0, 0.004084, 0.004084, 0.0000025, 0, 0, 0⟩ z := by
  simp only [tensor_link2, Coded.matrix]
  norm_num

theorem no_body (z : M6) : ¬ body.Agrees (0.01 : ℚ) (tensor_body z) :=
  coded_body z ▸ Body.not_agrees (by norm_num [body]) (by decide +kernel) z

theorem no_link1 (z : M6) : ¬ link1.Agrees (0.00001 : ℚ) (tensor_link1 z) :=
  coded_link1 z ▸ Body.not_agrees (by norm_num [link1]) (by decide +kernel) z

theorem no_link2 (z : M6) : ¬ link2.Agrees (0.004 : ℚ) (tensor_link2 z) :=
  coded_link2 z ▸ Body.not_agrees (by norm_num [link2]) (by decide +kernel) z

end QuadrotorWithLoad.Described

/-- C132: the moments of inertia of all three links of the QuadrotorWithLoad are not those in its description.  The
largest moment of the body, 0.05, is about its z axis in the description and about its y axis in the code; the smallest
one of link1 is about z in the description and about y in the code, that of link2 about x in the description and
about z in the code. -/
theorem C132_QuadrotorWithLoad_inertia_violated (z : QuadrotorWithLoad.Inertias) :
    ¬ QuadrotorWithLoad.Described.body.Agrees (0.01 : ℚ) (QuadrotorWithLoad.Inertias.new z).body ∧
    ¬ QuadrotorWithLoad.Described.link1.Agrees (0.00001 : ℚ) (QuadrotorWithLoad.Inertias.new z).link1 ∧
    ¬ QuadrotorWithLoad.Described.link2.Agrees (0.004 : ℚ) (QuadrotorWithLoad.Inertias.new z).link2 :=
  ⟨QuadrotorWithLoad.Described.no_body _, QuadrotorWithLoad.Described.no_link1 _, QuadrotorWithLoad.Described.no_link2 _⟩

/-- Point masses as in the definition of `Agrees` exist for every link. -/
example : ∃ (κ : Type) (_ : Fintype κ) (μ : κ → ℝ) (r : κ → V3), HyA.Described.Shoulder_AA.Masses μ r :=
  Body.exists_masses _ (by norm_num [HyA.Described.Shoulder_AA])

end CT.Robots
