import Mathlib.Analysis.SpecialFunctions.Trigonometric.Basic
import Verif.Model.Articulated

/-!
# DoubleInvertedPendulum: generated dynamics

Translation of the code in `ct_models/include/ct/models/DoubleInvertedPendulum/generated`, one `let` for each statement, written by
`tools/gen_robots.py`.  Line numbers are those of the files in that directory.

Simplifications: scalars are real numbers, and only the transforms that the dynamics use are here.  A
function takes and returns the members that it reads before it writes them; the other members are written
before they are read in every function and are local here.
-/

namespace CT.Robots.DoubleInvertedPendulum

open Matrix Spatial Articulated FrameJac

/-! ### Identifiers (declarations.h) -/

/-- `JointState`. -/
abbrev Q := Fin 2 → ℝ

abbrev JOINT1 : Fin 2 := 0
abbrev JOINT2 : Fin 2 := 1

abbrev DOUBLEINVERTEDPENDULUMBASE : Fin 3 := 0
abbrev LINK1 : Fin 3 := 1
abbrev LINK2 : Fin 3 := 2

/-- `ExtForces`. -/
abbrev Ext := Fin 3 → V6

/-! ### Coordinate transforms -/

/-- Constructor of `MotionTransforms::fr_Link1_X_fr_DoubleInvertedPendulumBase` (DoubleInvertedPendulum/generated/transforms.impl.h:279-309); `z` is what the memory contained. -/
noncomputable def motion_fr_Link1_X_fr_DoubleInvertedPendulumBase_new (z : M6) : M6 :=
  !![0, z 0 1, z 0 2, 0, 0, 0;
     0, z 1 1, z 1 2, 0, 0, 0;
     1, 0, 0, 0, 0, 0;
     0, 0, 0, 0, z 3 4, z 3 5;
     0, 0, 0, 0, z 4 4, z 4 5;
     0, 0, 0, 1, 0, 0]

/-- `MotionTransforms::fr_Link1_X_fr_DoubleInvertedPendulumBase::update` (DoubleInvertedPendulum/generated/transforms.impl.h:311-327). -/
noncomputable def motion_fr_Link1_X_fr_DoubleInvertedPendulumBase_update (z : M6) (q : Q) : M6 :=
  let s_q_Joint1_ := Real.sin (q JOINT1)
  let c_q_Joint1_ := Real.cos (q JOINT1)
  !![z 0 0, -s_q_Joint1_, c_q_Joint1_, z 0 3, z 0 4, z 0 5;
     z 1 0, -c_q_Joint1_, -s_q_Joint1_, z 1 3, z 1 4, z 1 5;
     z 2 0, z 2 1, z 2 2, z 2 3, z 2 4, z 2 5;
     z 3 0, z 3 1, z 3 2, z 3 3, -s_q_Joint1_, c_q_Joint1_;
     z 4 0, z 4 1, z 4 2, z 4 3, -c_q_Joint1_, -s_q_Joint1_;
     z 5 0, z 5 1, z 5 2, z 5 3, z 5 4, z 5 5]

/-- Constructor of `MotionTransforms::fr_Link2_X_fr_Link1` (DoubleInvertedPendulum/generated/transforms.impl.h:477-505); `z` is what the memory contained. -/
noncomputable def motion_fr_Link2_X_fr_Link1_new (z : M6) : M6 :=
  !![z 0 0, z 0 1, 0, 0, 0, 0;
     z 1 0, z 1 1, 0, 0, 0, 0;
     0, 0, 1.0, 0, 0, 0;
     0, 0, z 3 2, z 3 3, z 3 4, 0;
     0, 0, z 4 2, z 4 3, z 4 4, 0;
     0, -1.0, 0, 0, 0, 1]

/-- `MotionTransforms::fr_Link2_X_fr_Link1::update` (DoubleInvertedPendulum/generated/transforms.impl.h:507-525). -/
noncomputable def motion_fr_Link2_X_fr_Link1_update (z : M6) (q : Q) : M6 :=
  let s_q_Joint2_ := Real.sin (q JOINT2)
  let c_q_Joint2_ := Real.cos (q JOINT2)
  !![c_q_Joint2_, s_q_Joint2_, z 0 2, z 0 3, z 0 4, z 0 5;
     -s_q_Joint2_, c_q_Joint2_, z 1 2, z 1 3, z 1 4, z 1 5;
     z 2 0, z 2 1, z 2 2, z 2 3, z 2 4, z 2 5;
     z 3 0, z 3 1, s_q_Joint2_, c_q_Joint2_, s_q_Joint2_, z 3 5;
     z 4 0, z 4 1, c_q_Joint2_, -s_q_Joint2_, c_q_Joint2_, z 4 5;
     z 5 0, z 5 1, z 5 2, z 5 3, z 5 4, z 5 5]

/-- Constructor of `ForceTransforms::fr_Link1_X_fr_Link2` (DoubleInvertedPendulum/generated/transforms.impl.h:1038-1066); `z` is what the memory contained. -/
noncomputable def force_fr_Link1_X_fr_Link2_new (z : M6) : M6 :=
  !![z 0 0, z 0 1, 0, 0, 0, 0;
     z 1 0, z 1 1, 0, 0, 0, -1.0;
     0, 0, 1.0, z 2 3, z 2 4, 0;
     0, 0, 0, z 3 3, z 3 4, 0;
     0, 0, 0, z 4 3, z 4 4, 0;
     0, 0, 0, 0, 0, 1]

/-- `ForceTransforms::fr_Link1_X_fr_Link2::update` (DoubleInvertedPendulum/generated/transforms.impl.h:1068-1086). -/
noncomputable def force_fr_Link1_X_fr_Link2_update (z : M6) (q : Q) : M6 :=
  let s_q_Joint2_ := Real.sin (q JOINT2)
  let c_q_Joint2_ := Real.cos (q JOINT2)
  !![c_q_Joint2_, -s_q_Joint2_, z 0 2, z 0 3, z 0 4, z 0 5;
     s_q_Joint2_, c_q_Joint2_, z 1 2, z 1 3, z 1 4, z 1 5;
     z 2 0, z 2 1, z 2 2, s_q_Joint2_, c_q_Joint2_, z 2 5;
     z 3 0, z 3 1, z 3 2, c_q_Joint2_, -s_q_Joint2_, z 3 5;
     z 4 0, z 4 1, z 4 2, s_q_Joint2_, c_q_Joint2_, z 4 5;
     z 5 0, z 5 1, z 5 2, z 5 3, z 5 4, z 5 5]

/-- The motion transforms that the dynamics use. -/
structure MT where
  fr_Link1_X_fr_DoubleInvertedPendulumBase : M6
  fr_Link2_X_fr_Link1 : M6

/-- Construction; `z` is what the memory contained. -/
noncomputable def MT.new (z : MT) : MT where
  fr_Link1_X_fr_DoubleInvertedPendulumBase := motion_fr_Link1_X_fr_DoubleInvertedPendulumBase_new z.fr_Link1_X_fr_DoubleInvertedPendulumBase
  fr_Link2_X_fr_Link1 := motion_fr_Link2_X_fr_Link1_new z.fr_Link2_X_fr_Link1

/-- `setJointStatus` (DoubleInvertedPendulum/generated/forward_dynamics.h:114-117; the one of `InverseDynamics` is the same). -/
noncomputable def MT.setJointStatus (m : MT) (q : Q) : MT where
  fr_Link1_X_fr_DoubleInvertedPendulumBase := motion_fr_Link1_X_fr_DoubleInvertedPendulumBase_update m.fr_Link1_X_fr_DoubleInvertedPendulumBase q
  fr_Link2_X_fr_Link1 := motion_fr_Link2_X_fr_Link1_update m.fr_Link2_X_fr_Link1 q

/-- The force transforms that `JSIM` uses. -/
structure FT where
  fr_Link1_X_fr_Link2 : M6

/-- Construction; `z` is what the memory contained. -/
noncomputable def FT.new (z : FT) : FT where
  fr_Link1_X_fr_Link2 := force_fr_Link1_X_fr_Link2_new z.fr_Link1_X_fr_Link2

/-- What `JSIM::update` does first (DoubleInvertedPendulum/generated/jsim.impl.h:21-21). -/
noncomputable def FT.set (ft : FT) (q : Q) : FT where
  fr_Link1_X_fr_Link2 := force_fr_Link1_X_fr_Link2_update ft.fr_Link1_X_fr_Link2 q

/-! ### Inertia parameters (DoubleInvertedPendulum/generated/inertia_properties.impl.h) -/

/-- `InertiaProperties`. -/
structure Inertias where
  Link1 : M6
  Link2 : M6

/-- `tensor_Link1` (DoubleInvertedPendulum/generated/inertia_properties.impl.h:4-14); `z` is what the memory contained. -/
noncomputable def tensor_Link1 (z : M6) : M6 :=
  Inertia.fill (Inertia.new z) (1.0) ![0.5, 0.0, 0.0]
    (buildInertiaTensor (5.0E-4) (0.251) (0.2505) (0.0) (0.0) (-2.1855406E-11))

/-- `tensor_Link2` (DoubleInvertedPendulum/generated/inertia_properties.impl.h:16-26); `z` is what the memory contained. -/
noncomputable def tensor_Link2 (z : M6) : M6 :=
  Inertia.fill (Inertia.new z) (1.0) ![0.5, 0.0, 0.0]
    (buildInertiaTensor (5.0E-4) (0.2505) (0.251) (0.0) (0.0) (0.0))

/-- Constructor of `InertiaProperties` (DoubleInvertedPendulum/generated/inertia_properties.impl.h:1-28). -/
noncomputable def Inertias.new (z : Inertias) : Inertias where
  Link1 := tensor_Link1 z.Link1
  Link2 := tensor_Link2 z.Link2

/-! ### Forward dynamics -/

/-- The members of `ForwardDynamics` that survive from one call to the next. -/
structure FDState where
  Link1_v : V6
  vcross : M6
  Ia_r : M6

/-- Constructor (DoubleInvertedPendulum/generated/forward_dynamics.impl.h:8-20). -/
def FDState.new : FDState where
  Link1_v := 0
  vcross := 0
  Ia_r := 0

/-- `fd` (DoubleInvertedPendulum/generated/forward_dynamics.impl.h:23-92). -/
noncomputable def fd (s : FDState) (m : MT) (i : Inertias) (qd tau : Q) (fext : Ext) : FDState × Q :=
  let Link1_v := s.Link1_v
  let vcross := s.vcross
  let Ia_r := s.Ia_r
  let Link1_AI : M6 := i.Link1
  let Link1_p : V6 := -(fext LINK1)
  let Link2_AI : M6 := i.Link2
  let Link2_p : V6 := -(fext LINK2)
  let Link1_v : V6 := Function.update Link1_v 2 (qd JOINT1)
  let Link1_p : V6 := Link1_p + (vxIvz (qd JOINT1) Link1_AI)
  let Link2_v : V6 := m.fr_Link2_X_fr_Link1 *ᵥ Link1_v
  let Link2_v : V6 := bump Link2_v (qd JOINT2)
  let vcross : M6 := motionCrossProductMx Link2_v vcross
  let Link2_c : V6 := fun k => (fun k => vcross k 2) k * (qd JOINT2)
  let Link2_p : V6 := Link2_p + (vxIv Link2_v Link2_AI)
  let Link2_u : ℝ := (tau JOINT2) - (Link2_p 2)
  let Link2_U : V6 := fun k => Link2_AI k 2
  let Link2_D : ℝ := Link2_U 2
  let Ia_r : M6 := computeIaRevolute Link2_AI Link2_U Link2_D Ia_r
  let pa : V6 := (Link2_p + (Ia_r *ᵥ Link2_c)) + (fun k => (fun k => Link2_U k * Link2_u) k / Link2_D)
  let IaB : M6 := ctransformIaRevolute Ia_r m.fr_Link2_X_fr_Link1
  let Link1_AI : M6 := Link1_AI + IaB
  let Link1_p : V6 := Link1_p + (m.fr_Link2_X_fr_Link1ᵀ *ᵥ pa)
  let Link1_u : ℝ := (tau JOINT1) - (Link1_p 2)
  let Link1_U : V6 := fun k => Link1_AI k 2
  let Link1_D : ℝ := Link1_U 2
  let Link1_a : V6 := fun k => (fun k => m.fr_Link1_X_fr_DoubleInvertedPendulumBase k 5) k * grav
  let qdd_JOINT1 : ℝ := (Link1_u - (Link1_U ⬝ᵥ Link1_a)) / Link1_D
  let Link1_a : V6 := bump Link1_a qdd_JOINT1
  let Link2_a : V6 := (m.fr_Link2_X_fr_Link1 *ᵥ Link1_a) + Link2_c
  let qdd_JOINT2 : ℝ := (Link2_u - (Link2_U ⬝ᵥ Link2_a)) / Link2_D
  let Link2_a : V6 := bump Link2_a qdd_JOINT2
  ({ Link1_v := Link1_v, vcross := vcross, Ia_r := Ia_r }, ![qdd_JOINT1, qdd_JOINT2])

/-! ### Inverse dynamics -/

/-- The members of `InverseDynamics` that survive from one call to the next. -/
structure IDState where
  Link1_v : V6
  vcross : M6

/-- Constructor (DoubleInvertedPendulum/generated/inverse_dynamics.impl.h:7-21). -/
def IDState.new : IDState where
  Link1_v := 0
  vcross := 0

/-- `id`, with `firstPass` (lines 69-89) and `secondPass` (lines 92-99) (DoubleInvertedPendulum/generated/inverse_dynamics.impl.h:24-31). -/
noncomputable def id (s : IDState) (m : MT) (i : Inertias) (qd qdd : Q) (fext : Ext) : IDState × Q :=
  let Link1_v := s.Link1_v
  let vcross := s.vcross
  let Link1_a : V6 := fun k => (fun k => m.fr_Link1_X_fr_DoubleInvertedPendulumBase k 5) k * grav
  let Link1_a : V6 := bump Link1_a (qdd JOINT1)
  let Link1_v : V6 := Function.update Link1_v 2 (qd JOINT1)
  let Link1_f : V6 := ((i.Link1 *ᵥ Link1_a) + (vxIvz (qd JOINT1) i.Link1)) - (fext LINK1)
  let Link2_v : V6 := m.fr_Link2_X_fr_Link1 *ᵥ Link1_v
  let Link2_v : V6 := bump Link2_v (qd JOINT2)
  let vcross : M6 := motionCrossProductMx Link2_v vcross
  let Link2_a : V6 := (m.fr_Link2_X_fr_Link1 *ᵥ Link1_a) + (fun k => (fun k => vcross k 2) k * (qd JOINT2))
  let Link2_a : V6 := bump Link2_a (qdd JOINT2)
  let Link2_f : V6 := ((i.Link2 *ᵥ Link2_a) + (vxIv Link2_v i.Link2)) - (fext LINK2)
  let jForces_JOINT2 : ℝ := Link2_f 2
  let Link1_f : V6 := Link1_f + (m.fr_Link2_X_fr_Link1ᵀ *ᵥ Link2_f)
  let jForces_JOINT1 : ℝ := Link1_f 2
  ({ Link1_v := Link1_v, vcross := vcross }, ![jForces_JOINT1, jForces_JOINT2])

/-- `G_terms`, with `secondPass` (lines 92-99) (DoubleInvertedPendulum/generated/inverse_dynamics.impl.h:34-44). -/
noncomputable def G_terms (m : MT) (i : Inertias) : Q :=
  let Link1_a : V6 := fun k => (fun k => m.fr_Link1_X_fr_DoubleInvertedPendulumBase k 5) k * grav
  let Link1_f : V6 := i.Link1 *ᵥ Link1_a
  let Link2_a : V6 := m.fr_Link2_X_fr_Link1 *ᵥ Link1_a
  let Link2_f : V6 := i.Link2 *ᵥ Link2_a
  let jForces_JOINT2 : ℝ := Link2_f 2
  let Link1_f : V6 := Link1_f + (m.fr_Link2_X_fr_Link1ᵀ *ᵥ Link2_f)
  let jForces_JOINT1 : ℝ := Link1_f 2
  (![jForces_JOINT1, jForces_JOINT2])

/-- `C_terms`, with `secondPass` (lines 92-99) (DoubleInvertedPendulum/generated/inverse_dynamics.impl.h:47-66). -/
noncomputable def C_terms (s : IDState) (m : MT) (i : Inertias) (qd : Q) : IDState × Q :=
  let Link1_v := s.Link1_v
  let vcross := s.vcross
  let Link1_v : V6 := Function.update Link1_v 2 (qd JOINT1)
  let Link1_f : V6 := vxIvz (qd JOINT1) i.Link1
  let Link2_v : V6 := m.fr_Link2_X_fr_Link1 *ᵥ Link1_v
  let Link2_v : V6 := bump Link2_v (qd JOINT2)
  let vcross : M6 := motionCrossProductMx Link2_v vcross
  let Link2_a : V6 := fun k => (fun k => vcross k 2) k * (qd JOINT2)
  let Link2_f : V6 := (i.Link2 *ᵥ Link2_a) + (vxIv Link2_v i.Link2)
  let jForces_JOINT2 : ℝ := Link2_f 2
  let Link1_f : V6 := Link1_f + (m.fr_Link2_X_fr_Link1ᵀ *ᵥ Link2_f)
  let jForces_JOINT1 : ℝ := Link1_f 2
  ({ Link1_v := Link1_v, vcross := vcross }, ![jForces_JOINT1, jForces_JOINT2])

/-! ### Joint space inertia matrix -/

/-- `JSIM::update` after the transforms are up to date; `M` is the matrix before and `Ic_spare`
the member of that name (DoubleInvertedPendulum/generated/jsim.impl.h:17-46). -/
noncomputable def jsim (_M : Matrix (Fin 2) (Fin 2) ℝ) (Ic_spare : M6) (ft : FT) (i : Inertias) : M6 × Matrix (Fin 2) (Fin 2) ℝ :=
  let Link1_Ic : M6 := i.Link1
  let Ic_spare : M6 := transformInertia i.Link2 ft.fr_Link1_X_fr_Link2 Ic_spare
  let Link1_Ic : M6 := Inertia.addAssign Link1_Ic Ic_spare
  let F : V6 := fun k => i.Link2 k 2
  let DATA_JOINT2_JOINT2 : ℝ := F 2
  let F : V6 := ft.fr_Link1_X_fr_Link2 *ᵥ F
  let DATA_JOINT2_JOINT1 : ℝ := F 2
  let DATA_JOINT1_JOINT2 : ℝ := DATA_JOINT2_JOINT1
  let F : V6 := fun k => Link1_Ic k 2
  let DATA_JOINT1_JOINT1 : ℝ := F 2
  (Ic_spare,
    !![DATA_JOINT1_JOINT1, DATA_JOINT1_JOINT2;
     DATA_JOINT2_JOINT1, DATA_JOINT2_JOINT2])

/-! ### Links and joints -/

/-- The links of the robot, with the joints that carry them. -/
def links (m : MT) (ft : FT) (i : Inertias) (qd : Q) (fext : Ext) : List Joint :=
  [{ X := m.fr_Link1_X_fr_DoubleInvertedPendulumBase, XF := m.fr_Link1_X_fr_DoubleInvertedPendulumBaseᵀ, I := i.Link1, fext := fext LINK1, qd := qd JOINT1 },
   { X := m.fr_Link2_X_fr_Link1, XF := ft.fr_Link1_X_fr_Link2, I := i.Link2, fext := fext LINK2, qd := qd JOINT2 }]

/-! ### The robot object -/

/-- The members of `RobCoGenContainer` (ct_rbd/include/ct/rbd/robot/RobCoGenContainer.h:204-211) that the
dynamics use.  `H` is the joint space inertia matrix. -/
structure Robot where
  m : MT
  ft : FT
  i : Inertias
  fds : FDState
  ids : IDState
  H : Matrix (Fin 2) (Fin 2) ℝ
  Ic_spare : M6

/-- Constructor of `RobCoGenContainer` (RobCoGenContainer.h:27-35) with the one of `JSIM`
(DoubleInvertedPendulum/generated/jsim.impl.h:5-12); `z` is what the memory contained. -/
noncomputable def Robot.new (z : Robot) : Robot where
  m := MT.new z.m
  ft := FT.new z.ft
  i := Inertias.new z.i
  fds := FDState.new
  ids := IDState.new
  H := 0
  Ic_spare := Inertia.new z.Ic_spare

/-- `fd` with the joint positions (DoubleInvertedPendulum/generated/forward_dynamics.h:120-129). -/
noncomputable def Robot.fd (o : Robot) (q : Q) (qd tau : Q) (fext : Ext) : Robot × Q :=
  let m := o.m.setJointStatus q
  let r := Robots.DoubleInvertedPendulum.fd o.fds m o.i qd tau fext
  ({ o with m := m, fds := r.1 }, r.2)

/-- `id` with the joint positions (DoubleInvertedPendulum/generated/inverse_dynamics.h:182-189). -/
noncomputable def Robot.id (o : Robot) (q : Q) (qd qdd : Q) (fext : Ext) : Robot × Q :=
  let m := o.m.setJointStatus q
  let r := Robots.DoubleInvertedPendulum.id o.ids m o.i qd qdd fext
  ({ o with m := m, ids := r.1 }, r.2)

/-- `G_terms` with the joint positions (DoubleInvertedPendulum/generated/inverse_dynamics.h:168-172). -/
noncomputable def Robot.G_terms (o : Robot) (q : Q) : Robot × Q :=
  let m := o.m.setJointStatus q
  ({ o with m := m }, Robots.DoubleInvertedPendulum.G_terms m o.i)

/-- `C_terms` with the joint positions (DoubleInvertedPendulum/generated/inverse_dynamics.h:175-179). -/
noncomputable def Robot.C_terms (o : Robot) (q : Q) (qd : Q) : Robot × Q :=
  let m := o.m.setJointStatus q
  let r := Robots.DoubleInvertedPendulum.C_terms o.ids m o.i qd
  ({ o with m := m, ids := r.1 }, r.2)

/-- `JSIM::update` (DoubleInvertedPendulum/generated/jsim.impl.h:17-46). -/
noncomputable def Robot.jsim (o : Robot) (q : Q) : Robot × Matrix (Fin 2) (Fin 2) ℝ :=
  let ft := o.ft.set q
  let r := Robots.DoubleInvertedPendulum.jsim o.H o.Ic_spare ft o.i
  ({ o with ft := ft, Ic_spare := r.1, H := r.2 }, r.2)

/-- A call of one of the functions. -/
inductive Call where
  | fd (q : Q) (qd tau : Q) (fext : Ext)
  | id (q : Q) (qd qdd : Q) (fext : Ext)
  | G_terms (q : Q)
  | C_terms (q : Q) (qd : Q)
  | jsim (q : Q)

/-- What a call does to the object. -/
noncomputable def Robot.step (o : Robot) : Call → Robot
  | .fd q qd tau fext => (o.fd q qd tau fext).1
  | .id q qd qdd fext => (o.id q qd qdd fext).1
  | .G_terms q => (o.G_terms q).1
  | .C_terms q qd => (o.C_terms q qd).1
  | .jsim q => (o.jsim q).1

/-- The object after the given calls, `z` being what the memory contained before its construction. -/
noncomputable def Robot.after (z : Robot) (calls : List Call) : Robot := calls.foldl Robot.step (Robot.new z)

end CT.Robots.DoubleInvertedPendulum
