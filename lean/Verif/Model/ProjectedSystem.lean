import Verif.Model.ContactDynamics
import Verif.Model.FloatingSystem
import Verif.Model.FrameJac

/-!
# System of a robot in contact

Models `ct_rbd/include/ct/rbd/systems/ProjectedFDSystem.h` on top of `ProjectedDynamics` (`Verif.Model.ContactDynamics`), the
constraint Jacobian (`Verif.Model.FrameJac`) and the states of floating-base robots (`Verif.Model.FloatingSystem`).

Simplification: constraint Jacobian and its derivative are computed from the state at hand; that the object which stores them
returns those of the last state is the subject of C112.  Not modelled: `clone` (ProjectedFDSystem.h:135-138), which always
throws.
-/

namespace CT.ProjSys

open CT.Spatial CT.Inverses CT.ConDyn CT.FrameJac CT.FloatSys CT.Robot

variable {n : ℕ}

/-- What the robot provides: generated mass matrix, Coriolis terms (base velocity, joint positions and velocities) and gravity
terms (gravity in the base, joint positions), positions of the end effectors in the base, and the columns of the rotational and
the translational part of `getJacobianBaseEEbyId`. -/
structure Code (n : ℕ) where
  M : (Fin n → ℝ) → Mat ℝ
  cor : V6 → (Fin n → ℝ) → (Fin n → ℝ) → ℕ → ℝ
  grav : V6 → (Fin n → ℝ) → ℕ → ℝ
  eePos : ℕ → (Fin n → ℝ) → V3
  rot : ℕ → (Fin n → ℝ) → ℕ → V3
  trans : ℕ → (Fin n → ℝ) → ℕ → V3

/-- A vector with `n` entries as a function of any index. -/
def ext (v : Fin n → ℝ) : ℕ → ℝ := fun j => if h : j < n then v ⟨j, h⟩ else 0

/-- Columns as numbered by the library: three angular, three linear velocities of the base, then the joints. -/
def byColumn (f : Fin 3 ⊕ (Fin 3 ⊕ Fin n) → ℝ) : ℕ → ℝ := fun j =>
  if h : j < 3 then f (.inl ⟨j, h⟩)
  else if h : j - 3 < 3 then f (.inr (.inl ⟨j - 3, h⟩))
  else if h : j - 6 < n then f (.inr (.inr ⟨j - 6, h⟩))
  else 0

/-- `ProjectedFDSystem` with `QUAT_INTEGRATION = quat`, number of end effectors and `eeInContact_`
(ProjectedFDSystem.h:55-59, 76, 141). -/
structure Sys where
  quat : Bool
  NEE : ℕ
  ee : ℕ → Bool

/-- What the members of `ProjectedDynamics` contain before a call: flags of the constraint Jacobian and work matrices. -/
structure Work where
  flags : ℕ → Bool
  red : Reduced
  d : ℕ → ℝ
  y : ℕ → ℝ
  X : Mat ℝ

variable (kd : Kindr) (co : Code n) (sy : Sys)

/-- The terms `ProjectedForwardDynamicsCommon` computes for a state (ProjectedDynamics.h:195-222, 251-264, with
`toCoordinateVelocity`, RBDState.h:144-150), after `setContactConfiguration` (ProjectedDynamics.h:67-72). -/
noncomputable def terms (w : Work) (s : RBD ℝ n) : Terms where
  M := co.M s.joints.pos
  cor := co.cor (twist s) s.joints.pos s.joints.vel
  grav := co.grav (gravityB6D kd s.pose) s.joints.pos
  J := fun p =>
    let st := resetStructure sy.NEE sy.ee w.flags
    byColumn (assemble st.1 st.2 (fun e => eeJacobian n (co.eePos e s.joints.pos) (co.trans e s.joints.pos)) p.1) p.2
  dJ := fun p =>
    let st := resetStructure sy.NEE sy.ee w.flags
    byColumn (assemble st.1 st.2
      (fun e => eeDerivative n (co.rot e s.joints.pos) (co.trans e s.joints.pos) (ext s.joints.vel)) p.1) p.2
  qd := byColumn (gv s.angVel s.linVel s.joints.vel)
  cross := fun e a => if h : a < 3 then
    FrameJac.cross s.angVel (eeVelocityInBase (cols n (co.trans e s.joints.pos)) (co.eePos e s.joints.pos) s.angVel s.linVel
      s.joints.vel) ⟨a, h⟩ else 0

/-- `Dynamics::ProjectedForwardDynamics` (Dynamics.h:197-207) with `ProjectedDynamics::ProjectedForwardDynamics`
(ProjectedDynamics.h:86-91), written to `xd`. -/
noncomputable def forward (w : Work) (s : RBD ℝ n) (u : Fin n → ℝ) (xd : Acc n) : Acc n :=
  let a := accelerations (forwardCommon (6 + n) sy.NEE sy.ee (terms kd co sy w s) (ext u) w.red w.d w.y w.X)
  { xd.setBase (fun i => a i) with joints := fun i => a (6 + i) }

/-- `RBDStateFromVector` (ProjectedFDSystem.h:95-116). -/
def Sys.stateFrom (x : List ℝ) : RBD ℝ n :=
  if sy.quat then (RBD.blank n false).fromStateVectorQuaternion kd.conv x
  else (RBD.blank n true).fromStateVectorEulerXyz kd.conv x

/-- `computeControlledDynamics` (ProjectedFDSystem.h:82-92) with `toStateDerivative` (118-132). -/
noncomputable def Sys.dynamics (w : Work) (x : List ℝ) (u : Fin n → ℝ) : List ℝ :=
  let s := sy.stateFrom kd x
  let xd := forward kd co sy w s u Acc.zero
  if sy.quat then xd.toQuat kd s else xd.toEuler kd s

end CT.ProjSys
