import Mathlib.Analysis.SpecialFunctions.Trigonometric.Basic
import Verif.Model.Articulated

/-!
# InvertedPendulum: generated dynamics

Translation of the code in `ct_models/include/ct/models/InvertedPendulum/generated`, one `let` for each statement, written by
`tools/gen_robots.py`.  Line numbers are those of the files in that directory.

Simplifications: scalars are real numbers, and only the transforms that the dynamics use are here.  A
function takes and returns the members that it reads before it writes them; the other members are written
before they are read in every function and are local here.
-/

namespace CT.Robots.InvertedPendulum

open Matrix Spatial Articulated FrameJac

/-! ### Identifiers (declarations.h) -/

/-- `JointState`. -/
abbrev Q := Fin 1 → ℝ

abbrev JOINT1 : Fin 1 := 0

abbrev INVERTEDPENDULUMBASE : Fin 2 := 0
abbrev LINK1 : Fin 2 := 1

/-- `ExtForces`. -/
abbrev Ext := Fin 2 → V6

/-! ### Coordinate transforms -/

/-- Constructor of `MotionTransforms::fr_Link1_X_fr_InvertedPendulumBase` (InvertedPendulum/generated/transforms.impl.h:152-182); `z` is what the memory contained. -/
noncomputable def motion_fr_Link1_X_fr_InvertedPendulumBase_new (z : M6) : M6 :=
  !![0, z 0 1, z 0 2, 0, 0, 0;
     0, z 1 1, z 1 2, 0, 0, 0;
     1, 0, 0, 0, 0, 0;
     0, 0, 0, 0, z 3 4, z 3 5;
     0, 0, 0, 0, z 4 4, z 4 5;
     0, 0, 0, 1, 0, 0]

/-- `MotionTransforms::fr_Link1_X_fr_InvertedPendulumBase::update` (InvertedPendulum/generated/transforms.impl.h:184-200). -/
noncomputable def motion_fr_Link1_X_fr_InvertedPendulumBase_update (z : M6) (q : Q) : M6 :=
  let s_q_Joint1_ := Real.sin (q JOINT1)
  let c_q_Joint1_ := Real.cos (q JOINT1)
  !![z 0 0, -s_q_Joint1_, c_q_Joint1_, z 0 3, z 0 4, z 0 5;
     z 1 0, -c_q_Joint1_, -s_q_Joint1_, z 1 3, z 1 4, z 1 5;
     z 2 0, z 2 1, z 2 2, z 2 3, z 2 4, z 2 5;
     z 3 0, z 3 1, z 3 2, z 3 3, -s_q_Joint1_, c_q_Joint1_;
     z 4 0, z 4 1, z 4 2, z 4 3, -c_q_Joint1_, -s_q_Joint1_;
     z 5 0, z 5 1, z 5 2, z 5 3, z 5 4, z 5 5]

/-- The motion transforms that the dynamics use. -/
structure MT where
  fr_Link1_X_fr_InvertedPendulumBase : M6

/-- Construction; `z` is what the memory contained. -/
noncomputable def MT.new (z : MT) : MT where
  fr_Link1_X_fr_InvertedPendulumBase := motion_fr_Link1_X_fr_InvertedPendulumBase_new z.fr_Link1_X_fr_InvertedPendulumBase

/-- `setJointStatus` (InvertedPendulum/generated/forward_dynamics.h:104-106; the one of `InverseDynamics` is the same). -/
noncomputable def MT.setJointStatus (m : MT) (q : Q) : MT where
  fr_Link1_X_fr_InvertedPendulumBase := motion_fr_Link1_X_fr_InvertedPendulumBase_update m.fr_Link1_X_fr_InvertedPendulumBase q

/-! ### Inertia parameters (InvertedPendulum/generated/inertia_properties.impl.h) -/

/-- `InertiaProperties`. -/
structure Inertias where
  Link1 : M6

/-- `tensor_Link1` (InvertedPendulum/generated/inertia_properties.impl.h:4-14); `z` is what the memory contained. -/
noncomputable def tensor_Link1 (z : M6) : M6 :=
  Inertia.fill (Inertia.new z) (1.811) ![0.293, 0.0, 0.0]
    (buildInertiaTensor (4.7E-4) (0.15594256) (0.16452757) (0.0) (0.0) (0.0))

/-- Constructor of `InertiaProperties` (InvertedPendulum/generated/inertia_properties.impl.h:1-16). -/
noncomputable def Inertias.new (z : Inertias) : Inertias where
  Link1 := tensor_Link1 z.Link1

/-! ### Forward dynamics -/

/-- The members of `ForwardDynamics` that survive from one call to the next. -/
structure FDState where
  Link1_v : V6
  vcross : M6
  Ia_r : M6

/-- Constructor (InvertedPendulum/generated/forward_dynamics.impl.h:8-18). -/
def FDState.new : FDState where
  Link1_v := 0
  vcross := 0
  Ia_r := 0

/-- `fd` (InvertedPendulum/generated/forward_dynamics.impl.h:21-61). -/
noncomputable def fd (s : FDState) (m : MT) (i : Inertias) (qd tau : Q) (fext : Ext) : FDState × Q :=
  let Link1_v := s.Link1_v
  let vcross := s.vcross
  let Ia_r := s.Ia_r
  let Link1_AI : M6 := i.Link1
  let Link1_p : V6 := -(fext LINK1)
  let Link1_v : V6 := Function.update Link1_v 2 (qd JOINT1)
  let Link1_p : V6 := Link1_p + (vxIvz (qd JOINT1) Link1_AI)
  let Link1_u : ℝ := (tau JOINT1) - (Link1_p 2)
  let Link1_U : V6 := fun k => Link1_AI k 2
  let Link1_D : ℝ := Link1_U 2
  let Link1_a : V6 := fun k => (fun k => m.fr_Link1_X_fr_InvertedPendulumBase k 5) k * grav
  let qdd_JOINT1 : ℝ := (Link1_u - (Link1_U ⬝ᵥ Link1_a)) / Link1_D
  let Link1_a : V6 := bump Link1_a qdd_JOINT1
  ({ Link1_v := Link1_v, vcross := vcross, Ia_r := Ia_r }, ![qdd_JOINT1])

/-! ### Inverse dynamics -/

/-- The members of `InverseDynamics` that survive from one call to the next. -/
structure IDState where
  Link1_v : V6
  vcross : M6

/-- Constructor (InvertedPendulum/generated/inverse_dynamics.impl.h:7-19). -/
def IDState.new : IDState where
  Link1_v := 0
  vcross := 0

/-- `id`, with `firstPass` (lines 54-63) and `secondPass` (lines 66-70) (InvertedPendulum/generated/inverse_dynamics.impl.h:22-29). -/
noncomputable def id (s : IDState) (m : MT) (i : Inertias) (qd qdd : Q) (fext : Ext) : IDState × Q :=
  let Link1_v := s.Link1_v
  let vcross := s.vcross
  let Link1_a : V6 := fun k => (fun k => m.fr_Link1_X_fr_InvertedPendulumBase k 5) k * grav
  let Link1_a : V6 := bump Link1_a (qdd JOINT1)
  let Link1_v : V6 := Function.update Link1_v 2 (qd JOINT1)
  let Link1_f : V6 := ((i.Link1 *ᵥ Link1_a) + (vxIvz (qd JOINT1) i.Link1)) - (fext LINK1)
  let jForces_JOINT1 : ℝ := Link1_f 2
  ({ Link1_v := Link1_v, vcross := vcross }, ![jForces_JOINT1])

/-- `G_terms`, with `secondPass` (lines 66-70) (InvertedPendulum/generated/inverse_dynamics.impl.h:32-39). -/
noncomputable def G_terms (m : MT) (i : Inertias) : Q :=
  let Link1_a : V6 := fun k => (fun k => m.fr_Link1_X_fr_InvertedPendulumBase k 5) k * grav
  let Link1_f : V6 := i.Link1 *ᵥ Link1_a
  let jForces_JOINT1 : ℝ := Link1_f 2
  (![jForces_JOINT1])

/-- `C_terms`, with `secondPass` (lines 66-70) (InvertedPendulum/generated/inverse_dynamics.impl.h:42-51). -/
noncomputable def C_terms (s : IDState) (m : MT) (i : Inertias) (qd : Q) : IDState × Q :=
  let Link1_v := s.Link1_v
  let vcross := s.vcross
  let Link1_v : V6 := Function.update Link1_v 2 (qd JOINT1)
  let Link1_f : V6 := vxIvz (qd JOINT1) i.Link1
  let jForces_JOINT1 : ℝ := Link1_f 2
  ({ Link1_v := Link1_v, vcross := vcross }, ![jForces_JOINT1])

/-! ### Joint space inertia matrix -/

/-- `JSIM::update` after the transforms are up to date; `M` is the matrix before (InvertedPendulum/generated/jsim.impl.h:17-33). -/
noncomputable def jsim (_M : Matrix (Fin 1) (Fin 1) ℝ) (i : Inertias) : Matrix (Fin 1) (Fin 1) ℝ :=
  let F : V6 := fun k => i.Link1 k 2
  let DATA_JOINT1_JOINT1 : ℝ := F 2
  !![DATA_JOINT1_JOINT1]

/-! ### Links and joints -/

/-- The links of the robot, with the joints that carry them. -/
def links (m : MT) (i : Inertias) (qd : Q) (fext : Ext) : List Joint :=
  [{ X := m.fr_Link1_X_fr_InvertedPendulumBase, XF := m.fr_Link1_X_fr_InvertedPendulumBaseᵀ, I := i.Link1, fext := fext LINK1, qd := qd JOINT1 }]

/-! ### The robot object -/

/-- The members of `RobCoGenContainer` (ct_rbd/include/ct/rbd/robot/RobCoGenContainer.h:204-211) that the
dynamics use.  `H` is the joint space inertia matrix. -/
structure Robot where
  m : MT
  i : Inertias
  fds : FDState
  ids : IDState
  H : Matrix (Fin 1) (Fin 1) ℝ

/-- Constructor of `RobCoGenContainer` (RobCoGenContainer.h:27-35) with the one of `JSIM`
(InvertedPendulum/generated/jsim.impl.h:5-12); `z` is what the memory contained. -/
noncomputable def Robot.new (z : Robot) : Robot where
  m := MT.new z.m
  i := Inertias.new z.i
  fds := FDState.new
  ids := IDState.new
  H := 0

/-- `fd` with the joint positions (InvertedPendulum/generated/forward_dynamics.h:109-118). -/
noncomputable def Robot.fd (o : Robot) (q : Q) (qd tau : Q) (fext : Ext) : Robot × Q :=
  let m := o.m.setJointStatus q
  let r := Robots.InvertedPendulum.fd o.fds m o.i qd tau fext
  ({ o with m := m, fds := r.1 }, r.2)

/-- `id` with the joint positions (InvertedPendulum/generated/inverse_dynamics.h:173-180). -/
noncomputable def Robot.id (o : Robot) (q : Q) (qd qdd : Q) (fext : Ext) : Robot × Q :=
  let m := o.m.setJointStatus q
  let r := Robots.InvertedPendulum.id o.ids m o.i qd qdd fext
  ({ o with m := m, ids := r.1 }, r.2)

/-- `G_terms` with the joint positions (InvertedPendulum/generated/inverse_dynamics.h:159-163). -/
noncomputable def Robot.G_terms (o : Robot) (q : Q) : Robot × Q :=
  let m := o.m.setJointStatus q
  ({ o with m := m }, Robots.InvertedPendulum.G_terms m o.i)

/-- `C_terms` with the joint positions (InvertedPendulum/generated/inverse_dynamics.h:166-170). -/
noncomputable def Robot.C_terms (o : Robot) (q : Q) (qd : Q) : Robot × Q :=
  let m := o.m.setJointStatus q
  let r := Robots.InvertedPendulum.C_terms o.ids m o.i qd
  ({ o with m := m, ids := r.1 }, r.2)

/-- `JSIM::update` (InvertedPendulum/generated/jsim.impl.h:17-33). -/
noncomputable def Robot.jsim (o : Robot) (_q : Q) : Robot × Matrix (Fin 1) (Fin 1) ℝ :=
  let r := Robots.InvertedPendulum.jsim o.H o.i
  ({ o with H := r }, r)

/-- A call of one of the functions. -/
inductive Call where
  | fd (q : Q) (qd tau : Q) (fext : Ext)
  | id (q : Q) (qd qdd : Q) (fext : Ext)
  | G_terms (q : Q)
  | C_terms (q : Q) (qd : Q)
  | jsim (q : Q)

/-- What a call does to the object. -/
noncomputable def Robot.step (o : Robot) : Call → Robot
  | .fd q qd tau fext => (o.fd q qd tau fext).1
  | .id q qd qdd fext => (o.id q qd qdd fext).1
  | .G_terms q => (o.G_terms q).1
  | .C_terms q qd => (o.C_terms q qd).1
  | .jsim q => (o.jsim q).1

/-- The object after the given calls, `z` being what the memory contained before its construction. -/
noncomputable def Robot.after (z : Robot) (calls : List Call) : Robot := calls.foldl Robot.step (Robot.new z)

end CT.Robots.InvertedPendulum
