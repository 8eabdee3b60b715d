import Mathlib.Analysis.SpecialFunctions.Trigonometric.Basic
import Verif.Model.Articulated

/-!
# QuadrotorWithLoad: generated dynamics

Translation of the code in `ct_models/include/ct/models/QuadrotorWithLoad/generated`, one `let` for each statement, written by
`tools/gen_robots.py`.  Line numbers are those of the files in that directory.

Simplifications: scalars are real numbers, and only the transforms that the dynamics use are here.  A
function takes and returns the members that it reads before it writes them; the other members are written
before they are read in every function and are local here.
-/

namespace CT.Robots.QuadrotorWithLoad

open Matrix Spatial Articulated FrameJac

/-! ### Identifiers (declarations.h) -/

/-- `JointState`. -/
abbrev Q := Fin 2 → ℝ

abbrev JA : Fin 2 := 0
abbrev JB : Fin 2 := 1

abbrev BODY : Fin 3 := 0
abbrev LINK1 : Fin 3 := 1
abbrev LINK2 : Fin 3 := 2

/-- `ExtForces`. -/
abbrev Ext := Fin 3 → V6

/-! ### Coordinate transforms -/

/-- Constructor of `MotionTransforms::fr_link1_X_fr_body` (QuadrotorWithLoad/generated/transforms.impl.h:331-361); `z` is what the memory contained. -/
noncomputable def motion_fr_link1_X_fr_body_new (z : M6) : M6 :=
  !![z 0 0, z 0 1, 0, 0, 0, 0;
     z 1 0, z 1 1, 0, 0, 0, 0;
     0, 0, 1, 0, 0, 0;
     0, 0, 0, z 3 3, z 3 4, 0;
     0, 0, 0, z 4 3, z 4 4, 0;
     0, 0, 0, 0, 0, 1]

/-- `MotionTransforms::fr_link1_X_fr_body::update` (QuadrotorWithLoad/generated/transforms.impl.h:363-379). -/
noncomputable def motion_fr_link1_X_fr_body_update (z : M6) (q : Q) : M6 :=
  let sin__q_jA__ := Real.sin (q JA)
  let cos__q_jA__ := Real.cos (q JA)
  !![cos__q_jA__, sin__q_jA__, z 0 2, z 0 3, z 0 4, z 0 5;
     -sin__q_jA__, cos__q_jA__, z 1 2, z 1 3, z 1 4, z 1 5;
     z 2 0, z 2 1, z 2 2, z 2 3, z 2 4, z 2 5;
     z 3 0, z 3 1, z 3 2, cos__q_jA__, sin__q_jA__, z 3 5;
     z 4 0, z 4 1, z 4 2, -sin__q_jA__, cos__q_jA__, z 4 5;
     z 5 0, z 5 1, z 5 2, z 5 3, z 5 4, z 5 5]

/-- Constructor of `MotionTransforms::fr_link2_X_fr_link1` (QuadrotorWithLoad/generated/transforms.impl.h:677-705); `z` is what the memory contained. -/
noncomputable def motion_fr_link2_X_fr_link1_new (z : M6) : M6 :=
  !![z 0 0, 0, z 0 2, 0, 0, 0;
     z 1 0, 0, z 1 2, 0, 0, 0;
     0, -1.0, 0, 0, 0, 0;
     0, z 3 1, 0, z 3 3, 0, z 3 5;
     0, z 4 1, 0, z 4 3, 0, z 4 5;
     -0.1, 0, 0, 0, -1, 0]

/-- `MotionTransforms::fr_link2_X_fr_link1::update` (QuadrotorWithLoad/generated/transforms.impl.h:707-725). -/
noncomputable def motion_fr_link2_X_fr_link1_update (z : M6) (q : Q) : M6 :=
  let sin__q_jB__ := Real.sin (q JB)
  let cos__q_jB__ := Real.cos (q JB)
  !![sin__q_jB__, z 0 1, -cos__q_jB__, z 0 3, z 0 4, z 0 5;
     cos__q_jB__, z 1 1, sin__q_jB__, z 1 3, z 1 4, z 1 5;
     z 2 0, z 2 1, z 2 2, z 2 3, z 2 4, z 2 5;
     z 3 0, (-0.1 * sin__q_jB__), z 3 2, sin__q_jB__, z 3 4, -cos__q_jB__;
     z 4 0, (-0.1 * cos__q_jB__), z 4 2, cos__q_jB__, z 4 4, sin__q_jB__;
     z 5 0, z 5 1, z 5 2, z 5 3, z 5 4, z 5 5]

/-- Constructor of `ForceTransforms::fr_link1_X_fr_link2` (QuadrotorWithLoad/generated/transforms.impl.h:1426-1454); `z` is what the memory contained. -/
noncomputable def force_fr_link1_X_fr_link2_new (z : M6) : M6 :=
  !![z 0 0, z 0 1, 0, 0, 0, -0.1;
     0, 0, -1.0, z 1 3, z 1 4, 0;
     z 2 0, z 2 1, 0, 0, 0, 0;
     0, 0, 0, z 3 3, z 3 4, 0;
     0, 0, 0, 0, 0, -1;
     0, 0, 0, z 5 3, z 5 4, 0]

/-- `ForceTransforms::fr_link1_X_fr_link2::update` (QuadrotorWithLoad/generated/transforms.impl.h:1456-1474). -/
noncomputable def force_fr_link1_X_fr_link2_update (z : M6) (q : Q) : M6 :=
  let sin__q_jB__ := Real.sin (q JB)
  let cos__q_jB__ := Real.cos (q JB)
  !![sin__q_jB__, cos__q_jB__, z 0 2, z 0 3, z 0 4, z 0 5;
     z 1 0, z 1 1, z 1 2, (-0.1 * sin__q_jB__), (-0.1 * cos__q_jB__), z 1 5;
     -cos__q_jB__, sin__q_jB__, z 2 2, z 2 3, z 2 4, z 2 5;
     z 3 0, z 3 1, z 3 2, sin__q_jB__, cos__q_jB__, z 3 5;
     z 4 0, z 4 1, z 4 2, z 4 3, z 4 4, z 4 5;
     z 5 0, z 5 1, z 5 2, -cos__q_jB__, sin__q_jB__, z 5 5]

/-- Constructor of `ForceTransforms::fr_body_X_fr_link1` (QuadrotorWithLoad/generated/transforms.impl.h:778-808); `z` is what the memory contained. -/
noncomputable def force_fr_body_X_fr_link1_new (z : M6) : M6 :=
  !![z 0 0, z 0 1, 0, 0, 0, 0;
     z 1 0, z 1 1, 0, 0, 0, 0;
     0, 0, 1, 0, 0, 0;
     0, 0, 0, z 3 3, z 3 4, 0;
     0, 0, 0, z 4 3, z 4 4, 0;
     0, 0, 0, 0, 0, 1]

/-- `ForceTransforms::fr_body_X_fr_link1::update` (QuadrotorWithLoad/generated/transforms.impl.h:810-826). -/
noncomputable def force_fr_body_X_fr_link1_update (z : M6) (q : Q) : M6 :=
  let sin__q_jA__ := Real.sin (q JA)
  let cos__q_jA__ := Real.cos (q JA)
  !![cos__q_jA__, -sin__q_jA__, z 0 2, z 0 3, z 0 4, z 0 5;
     sin__q_jA__, cos__q_jA__, z 1 2, z 1 3, z 1 4, z 1 5;
     z 2 0, z 2 1, z 2 2, z 2 3, z 2 4, z 2 5;
     z 3 0, z 3 1, z 3 2, cos__q_jA__, -sin__q_jA__, z 3 5;
     z 4 0, z 4 1, z 4 2, sin__q_jA__, cos__q_jA__, z 4 5;
     z 5 0, z 5 1, z 5 2, z 5 3, z 5 4, z 5 5]

/-- The motion transforms that the dynamics use. -/
structure MT where
  fr_link1_X_fr_body : M6
  fr_link2_X_fr_link1 : M6

/-- Construction; `z` is what the memory contained. -/
noncomputable def MT.new (z : MT) : MT where
  fr_link1_X_fr_body := motion_fr_link1_X_fr_body_new z.fr_link1_X_fr_body
  fr_link2_X_fr_link1 := motion_fr_link2_X_fr_link1_new z.fr_link2_X_fr_link1

/-- `setJointStatus` (QuadrotorWithLoad/generated/forward_dynamics.h:127-130; the one of `InverseDynamics` is the same). -/
noncomputable def MT.setJointStatus (m : MT) (q : Q) : MT where
  fr_link1_X_fr_body := motion_fr_link1_X_fr_body_update m.fr_link1_X_fr_body q
  fr_link2_X_fr_link1 := motion_fr_link2_X_fr_link1_update m.fr_link2_X_fr_link1 q

/-- The force transforms that `JSIM` uses. -/
structure FT where
  fr_link1_X_fr_link2 : M6
  fr_body_X_fr_link1 : M6

/-- Construction; `z` is what the memory contained. -/
noncomputable def FT.new (z : FT) : FT where
  fr_link1_X_fr_link2 := force_fr_link1_X_fr_link2_new z.fr_link1_X_fr_link2
  fr_body_X_fr_link1 := force_fr_body_X_fr_link1_new z.fr_body_X_fr_link1

/-- What `JSIM::update` does first (QuadrotorWithLoad/generated/jsim.impl.h:21-22). -/
noncomputable def FT.set (ft : FT) (q : Q) : FT where
  fr_link1_X_fr_link2 := force_fr_link1_X_fr_link2_update ft.fr_link1_X_fr_link2 q
  fr_body_X_fr_link1 := force_fr_body_X_fr_link1_update ft.fr_body_X_fr_link1 q

/-! ### Inertia parameters (QuadrotorWithLoad/generated/inertia_properties.impl.h) -/

/-- `InertiaProperties`. -/
structure Inertias where
  body : M6
  link1 : M6
  link2 : M6

/-- `tensor_body` (QuadrotorWithLoad/generated/inertia_properties.impl.h:4-14); `z` is what the memory contained. -/
noncomputable def tensor_body (z : M6) : M6 :=
  Inertia.fill (Inertia.new z) (0.5) ![0.0, 0.0, 0.0]
    (buildInertiaTensor (0.03) (0.05) (0.03) (0.0) (0.0) (0.0))

/-- `tensor_link1` (QuadrotorWithLoad/generated/inertia_properties.impl.h:16-26); `z` is what the memory contained. -/
noncomputable def tensor_link1 (z : M6) : M6 :=
  Inertia.fill (Inertia.new z) (0.025) ![0.0, 0.0, -0.05]
    (buildInertiaTensor (2.075E-5) (1.0E-6) (2.075E-5) (0.0) (0.0) (0.0))

/-- `tensor_link2` (QuadrotorWithLoad/generated/inertia_properties.impl.h:28-38); `z` is what the memory contained. -/
noncomputable def tensor_link2 (z : M6) : M6 :=
  Inertia.fill (Inertia.new z) (0.1) ![0.35, 0.0, 0.0]
    (buildInertiaTensor (0.004084) (0.004084) (2.5E-6) (0.0) (0.0) (0.0))

/-- Constructor of `InertiaProperties` (QuadrotorWithLoad/generated/inertia_properties.impl.h:1-40). -/
noncomputable def Inertias.new (z : Inertias) : Inertias where
  body := tensor_body z.body
  link1 := tensor_link1 z.link1
  link2 := tensor_link2 z.link2

/-! ### Forward dynamics -/

/-- The members of `ForwardDynamics` that survive from one call to the next. -/
structure FDState where
  vcross : M6
  Ia_r : M6

/-- Constructor (QuadrotorWithLoad/generated/forward_dynamics.impl.h:9-21). -/
def FDState.new : FDState where
  vcross := 0
  Ia_r := 0

/-- `fd` (QuadrotorWithLoad/generated/forward_dynamics.impl.h:24-114). -/
noncomputable def fd (s : FDState) (m : MT) (i : Inertias) (body_v g : V6) (qd tau : Q) (fext : Ext) : FDState × V6 × Q :=
  let vcross := s.vcross
  let Ia_r := s.Ia_r
  let body_AI : M6 := i.body
  let body_p : V6 := -(fext BODY)
  let link1_AI : M6 := i.link1
  let link1_p : V6 := -(fext LINK1)
  let link2_AI : M6 := i.link2
  let link2_p : V6 := -(fext LINK2)
  let link1_v : V6 := m.fr_link1_X_fr_body *ᵥ body_v
  let link1_v : V6 := bump link1_v (qd JA)
  let vcross : M6 := motionCrossProductMx link1_v vcross
  let link1_c : V6 := fun k => (fun k => vcross k 2) k * (qd JA)
  let link1_p : V6 := link1_p + (vxIv link1_v link1_AI)
  let link2_v : V6 := m.fr_link2_X_fr_link1 *ᵥ link1_v
  let link2_v : V6 := bump link2_v (qd JB)
  let vcross : M6 := motionCrossProductMx link2_v vcross
  let link2_c : V6 := fun k => (fun k => vcross k 2) k * (qd JB)
  let link2_p : V6 := link2_p + (vxIv link2_v link2_AI)
  let body_p : V6 := body_p + (vxIv body_v body_AI)
  let link2_u : ℝ := (tau JB) - (link2_p 2)
  let link2_U : V6 := fun k => link2_AI k 2
  let link2_D : ℝ := link2_U 2
  let Ia_r : M6 := computeIaRevolute link2_AI link2_U link2_D Ia_r
  let pa : V6 := (link2_p + (Ia_r *ᵥ link2_c)) + (fun k => (fun k => link2_U k * link2_u) k / link2_D)
  let IaB : M6 := ctransformIaRevolute Ia_r m.fr_link2_X_fr_link1
  let link1_AI : M6 := link1_AI + IaB
  let link1_p : V6 := link1_p + (m.fr_link2_X_fr_link1ᵀ *ᵥ pa)
  let link1_u : ℝ := (tau JA) - (link1_p 2)
  let link1_U : V6 := fun k => link1_AI k 2
  let link1_D : ℝ := link1_U 2
  let Ia_r : M6 := computeIaRevolute link1_AI link1_U link1_D Ia_r
  let pa : V6 := (link1_p + (Ia_r *ᵥ link1_c)) + (fun k => (fun k => link1_U k * link1_u) k / link1_D)
  let IaB : M6 := ctransformIaRevolute Ia_r m.fr_link1_X_fr_body
  let body_AI : M6 := body_AI + IaB
  let body_p : V6 := body_p + (m.fr_link1_X_fr_bodyᵀ *ᵥ pa)
  let body_a : V6 := -(body_AI⁻¹ *ᵥ body_p)
  let link1_a : V6 := (m.fr_link1_X_fr_body *ᵥ body_a) + link1_c
  let qdd_JA : ℝ := (link1_u - (link1_U ⬝ᵥ link1_a)) / link1_D
  let link1_a : V6 := bump link1_a qdd_JA
  let link2_a : V6 := (m.fr_link2_X_fr_link1 *ᵥ link1_a) + link2_c
  let qdd_JB : ℝ := (link2_u - (link2_U ⬝ᵥ link2_a)) / link2_D
  let link2_a : V6 := bump link2_a qdd_JB
  let body_a : V6 := body_a + g
  ({ vcross := vcross, Ia_r := Ia_r }, body_a, ![qdd_JA, qdd_JB])

/-! ### Inverse dynamics -/

/-- The members of `InverseDynamics` that survive from one call to the next. -/
structure IDState where
  vcross : M6

/-- Constructor (QuadrotorWithLoad/generated/inverse_dynamics.impl.h:8-25). -/
def IDState.new : IDState where
  vcross := 0

/-- `id` (QuadrotorWithLoad/generated/inverse_dynamics.impl.h:28-86). -/
noncomputable def id (s : IDState) (m : MT) (i : Inertias) (g body_v : V6) (qd qdd : Q) (fext : Ext) : IDState × V6 × Q :=
  let vcross := s.vcross
  let body_Ic : M6 := i.body
  let link1_Ic : M6 := i.link1
  let link1_v : V6 := m.fr_link1_X_fr_body *ᵥ body_v
  let link1_v : V6 := bump link1_v (qd JA)
  let vcross : M6 := motionCrossProductMx link1_v vcross
  let link1_a : V6 := fun k => (fun k => vcross k 2) k * (qd JA)
  let link1_a : V6 := bump link1_a (qdd JA)
  let link1_f : V6 := (i.link1 *ᵥ link1_a) + (vxIv link1_v i.link1)
  let link2_v : V6 := m.fr_link2_X_fr_link1 *ᵥ link1_v
  let link2_v : V6 := bump link2_v (qd JB)
  let vcross : M6 := motionCrossProductMx link2_v vcross
  let link2_a : V6 := (m.fr_link2_X_fr_link1 *ᵥ link1_a) + (fun k => (fun k => vcross k 2) k * (qd JB))
  let link2_a : V6 := bump link2_a (qdd JB)
  let link2_f : V6 := (i.link2 *ᵥ link2_a) + (vxIv link2_v i.link2)
  let body_f : V6 := vxIv body_v i.body
  let body_f : V6 := body_f - (fext BODY)
  let link1_f : V6 := link1_f - (fext LINK1)
  let link2_f : V6 := link2_f - (fext LINK2)
  let link1_Ic : M6 := Inertia.assign link1_Ic (link1_Ic + ((m.fr_link2_X_fr_link1ᵀ * i.link2) * m.fr_link2_X_fr_link1))
  let link1_f : V6 := link1_f + (m.fr_link2_X_fr_link1ᵀ *ᵥ link2_f)
  let body_Ic : M6 := Inertia.assign body_Ic (body_Ic + ((m.fr_link1_X_fr_bodyᵀ * link1_Ic) * m.fr_link1_X_fr_body))
  let body_f : V6 := body_f + (m.fr_link1_X_fr_bodyᵀ *ᵥ link1_f)
  let body_a : V6 := (-body_Ic⁻¹) *ᵥ body_f
  let link1_a : V6 := m.fr_link1_X_fr_body *ᵥ body_a
  let jForces_JA : ℝ := ((link1_Ic 2) ⬝ᵥ link1_a) + (link1_f 2)
  let link2_a : V6 := m.fr_link2_X_fr_link1 *ᵥ link1_a
  let jForces_JB : ℝ := ((i.link2 2) ⬝ᵥ link2_a) + (link2_f 2)
  let body_a : V6 := body_a + g
  ({ vcross := vcross }, body_a, ![jForces_JA, jForces_JB])

/-- `G_terms_fully_actuated`, with `secondPass_fullyActuated` (lines 176-184) (QuadrotorWithLoad/generated/inverse_dynamics.impl.h:89-107). -/
noncomputable def G_terms_fully_actuated (m : MT) (i : Inertias) (g : V6) : V6 × Q :=
  let body_a : V6 := -g
  let link1_a : V6 := m.fr_link1_X_fr_body *ᵥ body_a
  let link1_f : V6 := i.link1 *ᵥ link1_a
  let link2_a : V6 := m.fr_link2_X_fr_link1 *ᵥ link1_a
  let link2_f : V6 := i.link2 *ᵥ link2_a
  let body_f : V6 := i.body *ᵥ body_a
  let jForces_JB : ℝ := link2_f 2
  let link1_f : V6 := link1_f + (m.fr_link2_X_fr_link1ᵀ *ᵥ link2_f)
  let jForces_JA : ℝ := link1_f 2
  let body_f : V6 := body_f + (m.fr_link1_X_fr_bodyᵀ *ᵥ link1_f)
  let baseWrench : V6 := body_f
  (baseWrench, ![jForces_JA, jForces_JB])

/-- `C_terms_fully_actuated`, with `secondPass_fullyActuated` (lines 176-184) (QuadrotorWithLoad/generated/inverse_dynamics.impl.h:110-134). -/
noncomputable def C_terms_fully_actuated (s : IDState) (m : MT) (i : Inertias) (body_v : V6) (qd : Q) : IDState × V6 × Q :=
  let vcross := s.vcross
  let link1_v : V6 := m.fr_link1_X_fr_body *ᵥ body_v
  let link1_v : V6 := bump link1_v (qd JA)
  let vcross : M6 := motionCrossProductMx link1_v vcross
  let link1_a : V6 := fun k => (fun k => vcross k 2) k * (qd JA)
  let link1_f : V6 := (i.link1 *ᵥ link1_a) + (vxIv link1_v i.link1)
  let link2_v : V6 := m.fr_link2_X_fr_link1 *ᵥ link1_v
  let link2_v : V6 := bump link2_v (qd JB)
  let vcross : M6 := motionCrossProductMx link2_v vcross
  let link2_a : V6 := (m.fr_link2_X_fr_link1 *ᵥ link1_a) + (fun k => (fun k => vcross k 2) k * (qd JB))
  let link2_f : V6 := (i.link2 *ᵥ link2_a) + (vxIv link2_v i.link2)
  let body_f : V6 := vxIv body_v i.body
  let jForces_JB : ℝ := link2_f 2
  let link1_f : V6 := link1_f + (m.fr_link2_X_fr_link1ᵀ *ᵥ link2_f)
  let jForces_JA : ℝ := link1_f 2
  let body_f : V6 := body_f + (m.fr_link1_X_fr_bodyᵀ *ᵥ link1_f)
  let baseWrench : V6 := body_f
  ({ vcross := vcross }, baseWrench, ![jForces_JA, jForces_JB])

/-- `id_fully_actuated`, with `secondPass_fullyActuated` (lines 176-184) (QuadrotorWithLoad/generated/inverse_dynamics.impl.h:137-173). -/
noncomputable def id_fully_actuated (s : IDState) (m : MT) (i : Inertias) (g body_v baseAccel : V6) (qd qdd : Q) (fext : Ext) : IDState × V6 × Q :=
  let vcross := s.vcross
  let body_a : V6 := baseAccel - g
  let link1_v : V6 := m.fr_link1_X_fr_body *ᵥ body_v
  let link1_v : V6 := bump link1_v (qd JA)
  let vcross : M6 := motionCrossProductMx link1_v vcross
  let link1_a : V6 := (m.fr_link1_X_fr_body *ᵥ body_a) + (fun k => (fun k => vcross k 2) k * (qd JA))
  let link1_a : V6 := bump link1_a (qdd JA)
  let link1_f : V6 := ((i.link1 *ᵥ link1_a) + (vxIv link1_v i.link1)) - (fext LINK1)
  let link2_v : V6 := m.fr_link2_X_fr_link1 *ᵥ link1_v
  let link2_v : V6 := bump link2_v (qd JB)
  let vcross : M6 := motionCrossProductMx link2_v vcross
  let link2_a : V6 := (m.fr_link2_X_fr_link1 *ᵥ link1_a) + (fun k => (fun k => vcross k 2) k * (qd JB))
  let link2_a : V6 := bump link2_a (qdd JB)
  let link2_f : V6 := ((i.link2 *ᵥ link2_a) + (vxIv link2_v i.link2)) - (fext LINK2)
  let body_f : V6 := ((i.body *ᵥ body_a) + (vxIv body_v i.body)) - (fext BODY)
  let jForces_JB : ℝ := link2_f 2
  let link1_f : V6 := link1_f + (m.fr_link2_X_fr_link1ᵀ *ᵥ link2_f)
  let jForces_JA : ℝ := link1_f 2
  let body_f : V6 := body_f + (m.fr_link1_X_fr_bodyᵀ *ᵥ link1_f)
  let baseWrench : V6 := body_f
  ({ vcross := vcross }, baseWrench, ![jForces_JA, jForces_JB])

/-! ### Joint space inertia matrix -/

/-- `JSIM::update` after the transforms are up to date; `M` is the matrix before and `Ic_spare`
the member of that name.  Row `inl i` of the model is row `i` of the code and
row `inr j` is row `6 + j` (QuadrotorWithLoad/generated/jsim.impl.h:18-56). -/
noncomputable def jsim (_M : Matrix (Fin 6 ⊕ Fin 2) (Fin 6 ⊕ Fin 2) ℝ) (Ic_spare : M6) (ft : FT) (i : Inertias) : M6 × Matrix (Fin 6 ⊕ Fin 2) (Fin 6 ⊕ Fin 2) ℝ :=
  let body_Ic : M6 := i.body
  let link1_Ic : M6 := i.link1
  let Ic_spare : M6 := transformInertia i.link2 ft.fr_link1_X_fr_link2 Ic_spare
  let link1_Ic : M6 := Inertia.addAssign link1_Ic Ic_spare
  let F_JB : V6 := fun k => i.link2 k 2
  let DATA_JB_JB : ℝ := F_JB 2
  let F_JB : V6 := ft.fr_link1_X_fr_link2 *ᵥ F_JB
  let DATA_JB_JA : ℝ := F_JB 2
  let DATA_JA_JB : ℝ := DATA_JB_JA
  let F_JB : V6 := ft.fr_body_X_fr_link1 *ᵥ F_JB
  let Ic_spare : M6 := transformInertia link1_Ic ft.fr_body_X_fr_link1 Ic_spare
  let body_Ic : M6 := Inertia.addAssign body_Ic Ic_spare
  let F_JA : V6 := fun k => link1_Ic k 2
  let DATA_JA_JA : ℝ := F_JA 2
  let F_JA : V6 := ft.fr_body_X_fr_link1 *ᵥ F_JA
  let F : Matrix (Fin 6) (Fin 2) ℝ := fun k j => (![F_JA, F_JB] : Fin 2 → V6) j k
  let H : Matrix (Fin 2) (Fin 2) ℝ :=
    !![DATA_JA_JA, DATA_JA_JB;
     DATA_JB_JA, DATA_JB_JB]
  (Ic_spare, Matrix.fromBlocks body_Ic F Fᵀ H)

/-! ### Links and joints -/

/-- The branches of the robot, in the order in which the code adds them up. -/
def branches (m : MT) (ft : FT) (i : Inertias) (qd : Q) (fext : Ext) : List (List Joint) :=
  [[{ X := m.fr_link1_X_fr_body, XF := ft.fr_body_X_fr_link1, I := i.link1, fext := fext LINK1, qd := qd JA },
    { X := m.fr_link2_X_fr_link1, XF := ft.fr_link1_X_fr_link2, I := i.link2, fext := fext LINK2, qd := qd JB }]]

/-! ### The robot object -/

/-- The members of `RobCoGenContainer` (ct_rbd/include/ct/rbd/robot/RobCoGenContainer.h:204-211) that the
dynamics use.  `H` is the joint space inertia matrix. -/
structure Robot where
  m : MT
  ft : FT
  i : Inertias
  fds : FDState
  ids : IDState
  H : Matrix (Fin 6 ⊕ Fin 2) (Fin 6 ⊕ Fin 2) ℝ
  Ic_spare : M6

/-- Constructor of `RobCoGenContainer` (RobCoGenContainer.h:27-35) with the one of `JSIM`
(QuadrotorWithLoad/generated/jsim.impl.h:4-11); `z` is what the memory contained. -/
noncomputable def Robot.new (z : Robot) : Robot where
  m := MT.new z.m
  ft := FT.new z.ft
  i := Inertias.new z.i
  fds := FDState.new
  ids := IDState.new
  H := 0
  Ic_spare := Inertia.new z.Ic_spare

/-- `fd` with the joint positions (QuadrotorWithLoad/generated/forward_dynamics.h:133-143). -/
noncomputable def Robot.fd (o : Robot) (q : Q) (body_v g : V6) (qd tau : Q) (fext : Ext) : Robot × V6 × Q :=
  let m := o.m.setJointStatus q
  let r := Robots.QuadrotorWithLoad.fd o.fds m o.i body_v g qd tau fext
  ({ o with m := m, fds := r.1 }, r.2)

/-- `id` with the joint positions (QuadrotorWithLoad/generated/inverse_dynamics.h:223-232). -/
noncomputable def Robot.id (o : Robot) (q : Q) (g body_v : V6) (qd qdd : Q) (fext : Ext) : Robot × V6 × Q :=
  let m := o.m.setJointStatus q
  let r := Robots.QuadrotorWithLoad.id o.ids m o.i g body_v qd qdd fext
  ({ o with m := m, ids := r.1 }, r.2)

/-- `G_terms_fully_actuated` with the joint positions (QuadrotorWithLoad/generated/inverse_dynamics.h:235-241). -/
noncomputable def Robot.G_terms (o : Robot) (q : Q) (g : V6) : Robot × V6 × Q :=
  let m := o.m.setJointStatus q
  ({ o with m := m }, G_terms_fully_actuated m o.i g)

/-- `C_terms_fully_actuated` with the joint positions (QuadrotorWithLoad/generated/inverse_dynamics.h:244-250). -/
noncomputable def Robot.C_terms (o : Robot) (q : Q) (body_v : V6) (qd : Q) : Robot × V6 × Q :=
  let m := o.m.setJointStatus q
  let r := C_terms_fully_actuated o.ids m o.i body_v qd
  ({ o with m := m, ids := r.1 }, r.2)

/-- `id_fully_actuated` with the joint positions (QuadrotorWithLoad/generated/inverse_dynamics.h:253-261). -/
noncomputable def Robot.id_full (o : Robot) (q : Q) (g body_v baseAccel : V6) (qd qdd : Q) (fext : Ext) : Robot × V6 × Q :=
  let m := o.m.setJointStatus q
  let r := id_fully_actuated o.ids m o.i g body_v baseAccel qd qdd fext
  ({ o with m := m, ids := r.1 }, r.2)

/-- `JSIM::update` (QuadrotorWithLoad/generated/jsim.impl.h:18-56). -/
noncomputable def Robot.jsim (o : Robot) (q : Q) : Robot × Matrix (Fin 6 ⊕ Fin 2) (Fin 6 ⊕ Fin 2) ℝ :=
  let ft := o.ft.set q
  let r := Robots.QuadrotorWithLoad.jsim o.H o.Ic_spare ft o.i
  ({ o with ft := ft, Ic_spare := r.1, H := r.2 }, r.2)

/-- A call of one of the functions. -/
inductive Call where
  | fd (q : Q) (body_v g : V6) (qd tau : Q) (fext : Ext)
  | id (q : Q) (g body_v : V6) (qd qdd : Q) (fext : Ext)
  | G_terms (q : Q) (g : V6)
  | C_terms (q : Q) (body_v : V6) (qd : Q)
  | id_full (q : Q) (g body_v baseAccel : V6) (qd qdd : Q) (fext : Ext)
  | jsim (q : Q)

/-- What a call does to the object. -/
noncomputable def Robot.step (o : Robot) : Call → Robot
  | .fd q body_v g qd tau fext => (o.fd q body_v g qd tau fext).1
  | .id q g body_v qd qdd fext => (o.id q g body_v qd qdd fext).1
  | .G_terms q g => (o.G_terms q g).1
  | .C_terms q body_v qd => (o.C_terms q body_v qd).1
  | .id_full q g body_v baseAccel qd qdd fext => (o.id_full q g body_v baseAccel qd qdd fext).1
  | .jsim q => (o.jsim q).1

/-- The object after the given calls, `z` being what the memory contained before its construction. -/
noncomputable def Robot.after (z : Robot) (calls : List Call) : Robot := calls.foldl Robot.step (Robot.new z)

end CT.Robots.QuadrotorWithLoad
