import Verif.Model.Spatial
import Verif.Model.Robots.InvertedPendulumKin
import Verif.Model.Robots.DoubleInvertedPendulumKin
import Verif.Model.Robots.HyAKin
import Verif.Model.Robots.QuadrotorWithLoadKin
import Verif.Model.Robots.HyQKin
import Verif.Model.Robots.InvertedPendulum
import Verif.Model.Robots.DoubleInvertedPendulum
import Verif.Model.Robots.HyA
import Verif.Model.Robots.QuadrotorWithLoad
import Verif.Model.Robots.HyQ

/-!
# Centre of mass of the whole robot

Models `getWholeBodyCOM` of the five robots (`ct_models/include/ct/models/<robot>/generated/miscellaneous.cpp`) with the getters
of `inertia_properties.h` and `Utils::transform` (`ct_rbd/include/ct/iit/rbd/utils.h`).

Simplification: of the object with the homogeneous transforms only those are kept that the function uses; they are numbered in
the order in which the function updates them.  Scalars are real numbers.
-/

namespace CT.Robots

open CT.GenKin Spatial FrameJac Matrix

abbrev M4 := Matrix (Fin 4) (Fin 4) ℝ

/-- The matrix a transform object is. -/
def m4 (m : Mem) : M4 := Matrix.of fun i j => m i j

/-- `Utils::positionVector`, `Utils::rotationMx`, `Utils::transform` (utils.h:143-146, 148-151, 174-181). -/
def transform (H : M4) (v : V3) : V3 :=
  !![H 0 0, H 0 1, H 0 2; H 1 0, H 1 1, H 1 2; H 2 0, H 2 1, H 2 2] *ᵥ v + ![H 0 3, H 1 3, H 2 3]

/-- The homogeneous transforms of a robot. -/
abbrev Ht (n : ℕ) := Fin n → Mem

/-- Construction; `z` is what the memory contained. -/
noncomputable def Ht.new {n : ℕ} (cls : Fin n → Gen) (z : Fin n → Mem) : Ht n := fun k => (cls k).new (z k)

/-- Call of a transform with joint positions (`update`). -/
noncomputable def Ht.call {n : ℕ} (cls : Fin n → Gen) (ht : Ht n) (c : Fin n × (ℕ → ℝ)) : Ht n :=
  Function.update ht c.1 ((cls c.1).update (ht c.1) c.2)

/-- The transforms after construction and calls. -/
noncomputable def Ht.after {n : ℕ} (cls : Fin n → Gen) (z : Fin n → Mem) (calls : List (Fin n × (ℕ → ℝ))) : Ht n :=
  calls.foldl (Ht.call cls) (Ht.new cls z)

namespace InvertedPendulum

/-- `com_Link1` (InvertedPendulum/generated/inertia_properties.impl.h:4) and `getCOM_Link1` (inertia_properties.h:58-60). -/
noncomputable def com_Link1 : V3 := ![0.293, 0.0, 0.0]

/-- `getTotalMass` (InvertedPendulum/generated/inertia_properties.h:63-65). -/
noncomputable def totalMass : ℝ := 1.811

/-- The transforms the function uses, in the order of the updates (InvertedPendulum/generated/miscellaneous.cpp:29-29). -/
def homs : Fin 1 → Gen := ![Kin.hom_fr_InvertedPendulumBase_X_fr_Link1]

/-- `getWholeBodyCOM` with the transforms as they are (InvertedPendulum/generated/miscellaneous.cpp:7-21). -/
noncomputable def wholeBodyCOM (i : Inertias) (ht : Ht 1) : V3 :=
  let tmpSum : V3 := 0
  let tmpX : M4 := 1
  let tmpX := tmpX * m4 (ht 0)
  let tmpSum := tmpSum + Inertia.getMass i.Link1 • transform tmpX com_Link1
  fun k => tmpSum k / totalMass

/-- `getWholeBodyCOM` with joint positions (InvertedPendulum/generated/miscellaneous.cpp:23-33): the position and the transforms afterwards. -/
noncomputable def wholeBodyCOMAt (i : Inertias) (q : ℕ → ℝ) (ht : Ht 1) : V3 × Ht 1 :=
  let ht := [0].foldl (fun ht k => Ht.call homs ht (k, q)) ht
  (wholeBodyCOM i ht, ht)

end InvertedPendulum

namespace DoubleInvertedPendulum

/-- `com_Link1` (DoubleInvertedPendulum/generated/inertia_properties.impl.h:4) and `getCOM_Link1` (inertia_properties.h:71-73). -/
noncomputable def com_Link1 : V3 := ![0.5, 0.0, 0.0]

/-- `com_Link2` (DoubleInvertedPendulum/generated/inertia_properties.impl.h:16) and `getCOM_Link2` (inertia_properties.h:75-77). -/
noncomputable def com_Link2 : V3 := ![0.5, 0.0, 0.0]

/-- `getTotalMass` (DoubleInvertedPendulum/generated/inertia_properties.h:80-82). -/
noncomputable def totalMass : ℝ := 1.0 + 1.0

/-- The transforms the function uses, in the order of the updates (DoubleInvertedPendulum/generated/miscellaneous.cpp:33-34). -/
def homs : Fin 2 → Gen := ![Kin.hom_fr_DoubleInvertedPendulumBase_X_fr_Link1, Kin.hom_fr_Link1_X_fr_Link2]

/-- `getWholeBodyCOM` with the transforms as they are (DoubleInvertedPendulum/generated/miscellaneous.cpp:7-25). -/
noncomputable def wholeBodyCOM (i : Inertias) (ht : Ht 2) : V3 :=
  let tmpSum : V3 := 0
  let tmpX : M4 := 1
  let tmpX := tmpX * m4 (ht 0)
  let tmpSum := tmpSum + Inertia.getMass i.Link1 • transform tmpX com_Link1
  let tmpX := tmpX * m4 (ht 1)
  let tmpSum := tmpSum + Inertia.getMass i.Link2 • transform tmpX com_Link2
  fun k => tmpSum k / totalMass

/-- `getWholeBodyCOM` with joint positions (DoubleInvertedPendulum/generated/miscellaneous.cpp:27-38): the position and the transforms afterwards. -/
noncomputable def wholeBodyCOMAt (i : Inertias) (q : ℕ → ℝ) (ht : Ht 2) : V3 × Ht 2 :=
  let ht := [0, 1].foldl (fun ht k => Ht.call homs ht (k, q)) ht
  (wholeBodyCOM i ht, ht)

end DoubleInvertedPendulum

namespace HyA

/-- `com_Shoulder_AA` (HyA/generated/inertia_properties.impl.h:4) and `getCOM_Shoulder_AA` (inertia_properties.h:125-127). -/
noncomputable def com_Shoulder_AA : V3 := ![-1.96E-4, -0.003091, 0.17763901]

/-- `com_Shoulder_FE` (HyA/generated/inertia_properties.impl.h:16) and `getCOM_Shoulder_FE` (inertia_properties.h:129-131). -/
noncomputable def com_Shoulder_FE : V3 := ![0.113166206, -0.023382, 0.003832]

/-- `com_Humerus_R` (HyA/generated/inertia_properties.impl.h:28) and `getCOM_Humerus_R` (inertia_properties.h:133-135). -/
noncomputable def com_Humerus_R : V3 := ![-0.0023899989, 0.00618, 0.278456]

/-- `com_Elbow_FE` (HyA/generated/inertia_properties.impl.h:40) and `getCOM_Elbow_FE` (inertia_properties.h:137-139). -/
noncomputable def com_Elbow_FE : V3 := ![0.09200001, -0.005, 8.7422736E-10]

/-- `com_Wrist_R` (HyA/generated/inertia_properties.impl.h:52) and `getCOM_Wrist_R` (inertia_properties.h:141-143). -/
noncomputable def com_Wrist_R : V3 := ![0.0, 0.0, 0.0275]

/-- `com_Wrist_FE` (HyA/generated/inertia_properties.impl.h:64) and `getCOM_Wrist_FE` (inertia_properties.h:145-147). -/
noncomputable def com_Wrist_FE : V3 := ![0.025, 0.0, 0.0]

/-- `getTotalMass` (HyA/generated/inertia_properties.h:150-152). -/
noncomputable def totalMass : ℝ := 2.688 + 2.5924191 + 2.327 + 1.7423722 + 2.1032 + 1.547475

/-- The transforms the function uses, in the order of the updates (HyA/generated/miscellaneous.cpp:49-54). -/
def homs : Fin 6 → Gen := ![Kin.hom_fr_HyABase_X_fr_Shoulder_AA, Kin.hom_fr_Shoulder_AA_X_fr_Shoulder_FE, Kin.hom_fr_Shoulder_FE_X_fr_Humerus_R, Kin.hom_fr_Humerus_R_X_fr_Elbow_FE, Kin.hom_fr_Elbow_FE_X_fr_Wrist_R, Kin.hom_fr_Wrist_R_X_fr_Wrist_FE]

/-- `getWholeBodyCOM` with the transforms as they are (HyA/generated/miscellaneous.cpp:7-41). -/
noncomputable def wholeBodyCOM (i : Inertias) (ht : Ht 6) : V3 :=
  let tmpSum : V3 := 0
  let tmpX : M4 := 1
  let tmpX := tmpX * m4 (ht 0)
  let tmpSum := tmpSum + Inertia.getMass i.Shoulder_AA • transform tmpX com_Shoulder_AA
  let tmpX := tmpX * m4 (ht 1)
  let tmpSum := tmpSum + Inertia.getMass i.Shoulder_FE • transform tmpX com_Shoulder_FE
  let tmpX := tmpX * m4 (ht 2)
  let tmpSum := tmpSum + Inertia.getMass i.Humerus_R • transform tmpX com_Humerus_R
  let tmpX := tmpX * m4 (ht 3)
  let tmpSum := tmpSum + Inertia.getMass i.Elbow_FE • transform tmpX com_Elbow_FE
  let tmpX := tmpX * m4 (ht 4)
  let tmpSum := tmpSum + Inertia.getMass i.Wrist_R • transform tmpX com_Wrist_R
  let tmpX := tmpX * m4 (ht 5)
  let tmpSum := tmpSum + Inertia.getMass i.Wrist_FE • transform tmpX com_Wrist_FE
  fun k => tmpSum k / totalMass

/-- `getWholeBodyCOM` with joint positions (HyA/generated/miscellaneous.cpp:43-58): the position and the transforms afterwards. -/
noncomputable def wholeBodyCOMAt (i : Inertias) (q : ℕ → ℝ) (ht : Ht 6) : V3 × Ht 6 :=
  let ht := [0, 1, 2, 3, 4, 5].foldl (fun ht k => Ht.call homs ht (k, q)) ht
  (wholeBodyCOM i ht, ht)

end HyA

namespace QuadrotorWithLoad

/-- `com_body` (QuadrotorWithLoad/generated/inertia_properties.impl.h:4) and `getCOM_body` (inertia_properties.h:85-87). -/
noncomputable def com_body : V3 := ![0.0, 0.0, 0.0]

/-- `com_link1` (QuadrotorWithLoad/generated/inertia_properties.impl.h:16) and `getCOM_link1` (inertia_properties.h:89-91). -/
noncomputable def com_link1 : V3 := ![0.0, 0.0, -0.05]

/-- `com_link2` (QuadrotorWithLoad/generated/inertia_properties.impl.h:28) and `getCOM_link2` (inertia_properties.h:93-95). -/
noncomputable def com_link2 : V3 := ![0.35, 0.0, 0.0]

/-- `getTotalMass` (QuadrotorWithLoad/generated/inertia_properties.h:98-100). -/
noncomputable def totalMass : ℝ := 0.5 + 0.025 + 0.1

/-- The transforms the function uses, in the order of the updates (QuadrotorWithLoad/generated/miscellaneous.cpp:34-35). -/
def homs : Fin 2 → Gen := ![Kin.hom_fr_body_X_fr_link1, Kin.hom_fr_link1_X_fr_link2]

/-- `getWholeBodyCOM` with the transforms as they are (QuadrotorWithLoad/generated/miscellaneous.cpp:7-26). -/
noncomputable def wholeBodyCOM (i : Inertias) (ht : Ht 2) : V3 :=
  let tmpSum : V3 := 0
  let tmpSum := tmpSum + Inertia.getMass i.body • com_body
  let tmpX : M4 := 1
  let tmpX := tmpX * m4 (ht 0)
  let tmpSum := tmpSum + Inertia.getMass i.link1 • transform tmpX com_link1
  let tmpX := tmpX * m4 (ht 1)
  let tmpSum := tmpSum + Inertia.getMass i.link2 • transform tmpX com_link2
  fun k => tmpSum k / totalMass

/-- `getWholeBodyCOM` with joint positions (QuadrotorWithLoad/generated/miscellaneous.cpp:28-39): the position and the transforms afterwards. -/
noncomputable def wholeBodyCOMAt (i : Inertias) (q : ℕ → ℝ) (ht : Ht 2) : V3 × Ht 2 :=
  let ht := [0, 1].foldl (fun ht k => Ht.call homs ht (k, q)) ht
  (wholeBodyCOM i ht, ht)

end QuadrotorWithLoad

namespace HyQ

/-- `com_trunk` (HyQ/generated/inertia_properties.impl.h:4) and `getCOM_trunk` (inertia_properties.h:216-218). -/
noncomputable def com_trunk : V3 := ![-0.0223, -1.0E-4, 0.0387]

/-- `com_LF_hipassembly` (HyQ/generated/inertia_properties.impl.h:16) and `getCOM_LF_hipassembly` (inertia_properties.h:220-222). -/
noncomputable def com_LF_hipassembly : V3 := ![0.04263, 0.0, 0.16931]

/-- `com_LF_upperleg` (HyQ/generated/inertia_properties.impl.h:28) and `getCOM_LF_upperleg` (inertia_properties.h:224-226). -/
noncomputable def com_LF_upperleg : V3 := ![0.15074, -0.02625, -0.0]

/-- `com_LF_lowerleg` (HyQ/generated/inertia_properties.impl.h:40) and `getCOM_LF_lowerleg` (inertia_properties.h:228-230). -/
noncomputable def com_LF_lowerleg : V3 := ![0.1254, 5.0E-4, -1.0E-4]

/-- `com_RF_hipassembly` (HyQ/generated/inertia_properties.impl.h:52) and `getCOM_RF_hipassembly` (inertia_properties.h:232-234). -/
noncomputable def com_RF_hipassembly : V3 := ![0.04263, -0.0, -0.16931]

/-- `com_RF_upperleg` (HyQ/generated/inertia_properties.impl.h:64) and `getCOM_RF_upperleg` (inertia_properties.h:236-238). -/
noncomputable def com_RF_upperleg : V3 := ![0.15074, -0.02625, -0.0]

/-- `com_RF_lowerleg` (HyQ/generated/inertia_properties.impl.h:76) and `getCOM_RF_lowerleg` (inertia_properties.h:240-242). -/
noncomputable def com_RF_lowerleg : V3 := ![0.1254, 5.0E-4, -1.0E-4]

/-- `com_LH_hipassembly` (HyQ/generated/inertia_properties.impl.h:88) and `getCOM_LH_hipassembly` (inertia_properties.h:244-246). -/
noncomputable def com_LH_hipassembly : V3 := ![0.04263, -0.0, -0.16931]

/-- `com_LH_upperleg` (HyQ/generated/inertia_properties.impl.h:100) and `getCOM_LH_upperleg` (inertia_properties.h:248-250). -/
noncomputable def com_LH_upperleg : V3 := ![0.15074, 0.02625, 0.0]

/-- `com_LH_lowerleg` (HyQ/generated/inertia_properties.impl.h:112) and `getCOM_LH_lowerleg` (inertia_properties.h:252-254). -/
noncomputable def com_LH_lowerleg : V3 := ![0.125, -0.001, 0.0]

/-- `com_RH_hipassembly` (HyQ/generated/inertia_properties.impl.h:124) and `getCOM_RH_hipassembly` (inertia_properties.h:256-258). -/
noncomputable def com_RH_hipassembly : V3 := ![0.04263, 0.0, 0.16931]

/-- `com_RH_upperleg` (HyQ/generated/inertia_properties.impl.h:136) and `getCOM_RH_upperleg` (inertia_properties.h:260-262). -/
noncomputable def com_RH_upperleg : V3 := ![0.15074, 0.02625, 0.0]

/-- `com_RH_lowerleg` (HyQ/generated/inertia_properties.impl.h:148) and `getCOM_RH_lowerleg` (inertia_properties.h:264-266). -/
noncomputable def com_RH_lowerleg : V3 := ![0.1254, -5.0E-4, 1.0E-4]

/-- `getTotalMass` (HyQ/generated/inertia_properties.h:269-271). -/
noncomputable def totalMass : ℝ := 53.433 + 3.44 + 3.146 + 0.881 + 3.44 + 3.146 + 0.881 + 3.44 + 3.146 + 0.881 + 3.44 + 3.146 + 0.881

/-- The transforms the function uses, in the order of the updates (HyQ/generated/miscellaneous.cpp:80-91). -/
def homs : Fin 12 → Gen := ![Kin.hom_fr_trunk_X_fr_LF_hipassembly, Kin.hom_fr_trunk_X_fr_RF_hipassembly, Kin.hom_fr_trunk_X_fr_LH_hipassembly, Kin.hom_fr_trunk_X_fr_RH_hipassembly, Kin.hom_fr_LF_hipassembly_X_fr_LF_upperleg, Kin.hom_fr_LF_upperleg_X_fr_LF_lowerleg, Kin.hom_fr_RF_hipassembly_X_fr_RF_upperleg, Kin.hom_fr_RF_upperleg_X_fr_RF_lowerleg, Kin.hom_fr_LH_hipassembly_X_fr_LH_upperleg, Kin.hom_fr_LH_upperleg_X_fr_LH_lowerleg, Kin.hom_fr_RH_hipassembly_X_fr_RH_upperleg, Kin.hom_fr_RH_upperleg_X_fr_RH_lowerleg]

/-- `getWholeBodyCOM` with the transforms as they are (HyQ/generated/miscellaneous.cpp:7-72). -/
noncomputable def wholeBodyCOM (i : Inertias) (ht : Ht 12) : V3 :=
  let tmpSum : V3 := 0
  let tmpSum := tmpSum + Inertia.getMass i.trunk • com_trunk
  let tmpX : M4 := 1
  let base_X_LF_HAA_chain := tmpX * m4 (ht 0)
  let tmpSum := tmpSum + Inertia.getMass i.LF_hipassembly • transform base_X_LF_HAA_chain com_LF_hipassembly
  let base_X_LF_HAA_chain := base_X_LF_HAA_chain * m4 (ht 4)
  let tmpSum := tmpSum + Inertia.getMass i.LF_upperleg • transform base_X_LF_HAA_chain com_LF_upperleg
  let base_X_LF_HAA_chain := base_X_LF_HAA_chain * m4 (ht 5)
  let tmpSum := tmpSum + Inertia.getMass i.LF_lowerleg • transform base_X_LF_HAA_chain com_LF_lowerleg
  let base_X_RF_HAA_chain := tmpX * m4 (ht 1)
  let tmpSum := tmpSum + Inertia.getMass i.RF_hipassembly • transform base_X_RF_HAA_chain com_RF_hipassembly
  let base_X_RF_HAA_chain := base_X_RF_HAA_chain * m4 (ht 6)
  let tmpSum := tmpSum + Inertia.getMass i.RF_upperleg • transform base_X_RF_HAA_chain com_RF_upperleg
  let base_X_RF_HAA_chain := base_X_RF_HAA_chain * m4 (ht 7)
  let tmpSum := tmpSum + Inertia.getMass i.RF_lowerleg • transform base_X_RF_HAA_chain com_RF_lowerleg
  let base_X_LH_HAA_chain := tmpX * m4 (ht 2)
  let tmpSum := tmpSum + Inertia.getMass i.LH_hipassembly • transform base_X_LH_HAA_chain com_LH_hipassembly
  let base_X_LH_HAA_chain := base_X_LH_HAA_chain * m4 (ht 8)
  let tmpSum := tmpSum + Inertia.getMass i.LH_upperleg • transform base_X_LH_HAA_chain com_LH_upperleg
  let base_X_LH_HAA_chain := base_X_LH_HAA_chain * m4 (ht 9)
  let tmpSum := tmpSum + Inertia.getMass i.LH_lowerleg • transform base_X_LH_HAA_chain com_LH_lowerleg
  let base_X_RH_HAA_chain := tmpX * m4 (ht 3)
  let tmpSum := tmpSum + Inertia.getMass i.RH_hipassembly • transform base_X_RH_HAA_chain com_RH_hipassembly
  let base_X_RH_HAA_chain := base_X_RH_HAA_chain * m4 (ht 10)
  let tmpSum := tmpSum + Inertia.getMass i.RH_upperleg • transform base_X_RH_HAA_chain com_RH_upperleg
  let base_X_RH_HAA_chain := base_X_RH_HAA_chain * m4 (ht 11)
  let tmpSum := tmpSum + Inertia.getMass i.RH_lowerleg • transform base_X_RH_HAA_chain com_RH_lowerleg
  fun k => tmpSum k / totalMass

/-- `getWholeBodyCOM` with joint positions (HyQ/generated/miscellaneous.cpp:74-95): the position and the transforms afterwards. -/
noncomputable def wholeBodyCOMAt (i : Inertias) (q : ℕ → ℝ) (ht : Ht 12) : V3 × Ht 12 :=
  let ht := [0, 1, 2, 3, 4, 5, 6, 7, 8, 9, 10, 11].foldl (fun ht k => Ht.call homs ht (k, q)) ht
  (wholeBodyCOM i ht, ht)

end HyQ

end CT.Robots
