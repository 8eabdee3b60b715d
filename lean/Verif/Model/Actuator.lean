import Verif.Model.Res
import Verif.Model.RobotState
import Verif.Model.SecondOrder
import Mathlib.Data.Fin.Tuple.Basic
import Mathlib.Logic.Function.Basic

/-!
# Actuators and the fixed-base robot systems built on them

Models `ct_rbd/include/ct/rbd/robot/actuator/SEADynamicsFirstOrder-impl.h`,
`SecondOrderActuatorDynamics-impl.h`, the systems `ct_rbd/include/ct/rbd/systems/FixBaseFDSystem.h`,
`FixBaseAccSystem.h`, `FixBaseVelSystem.h`, `FixBaseFDSystemSymplectic.h` and the initial guesses of
`ct_rbd/include/ct/rbd/nloc/FixBaseNLOC-impl.h`.  Scalars are the reals.  The rigid body algorithms
(forward and inverse dynamics, force transformation), generated by the external tool RobCoGen, are
parameters.  A vector of fixed size is the list of its entries where blocks are cut out of it and a
function on `Fin` elsewhere.
-/

namespace CT.Actuator

open CT.Robot

variable {n m : ℕ}

/-- The interface `ActuatorDynamics` (robot/actuator/ActuatorDynamics.h:33-70): dynamics from joint
state, actuator state, time and control; output torque; state from a desired output. -/
structure Act (n m : ℕ) where
  dyn : Joints ℝ n → (Fin m → ℝ) → ℝ → (Fin n → ℝ) → (Fin m → ℝ)
  out : Joints ℝ n → (Fin m → ℝ) → (Fin n → ℝ)
  fromOut : Joints ℝ n → (Fin n → ℝ) → (Fin m → ℝ)

/-- `SEADynamicsFirstOrder(k_spring, gear_ratio)` (SEADynamicsFirstOrder-impl.h:12-15):
`computeActuatorDynamics` (29-37), `computeControlOutput` (40-46), `computeStateFromOutput` (49-55).
Division by a zero stiffness or gear ratio gives infinities in the code and zero here; the theorems
assume both are not zero. -/
noncomputable def sea (k r : ℝ) : Act n n where
  dyn _ _ _ u := fun i => u i / r
  out j a := fun i => (a i - j.pos i) * k
  fromOut j u := fun i => j.pos i + u i / k

open CT.SecondOrder in
/-- Constructor from one natural frequency and damping (SecondOrderActuatorDynamics-impl.h:12-15);
the gain passed is the squared frequency. -/
noncomputable def oscNew (w zeta : ℝ) : Fin n → Sys := fun _ => mk' w zeta (w * w)

open CT.SecondOrder in
/-- Constructor with an explicit gain (18-21). -/
noncomputable def oscNewGain (w zeta g : ℝ) : Fin n → Sys := fun _ => mk' w zeta g

open CT.SecondOrder in
/-- Constructor from one frequency and damping per joint (24-34). -/
noncomputable def oscNewList (n : ℕ) (w zeta : List ℝ) : Res (Fin n → Sys) :=
  if w.length ≠ n ∨ zeta.length ≠ n then .exc
  else .ok fun i => mk' (w.getD i 0) (zeta.getD i 0) (w.getD i 0 * w.getD i 0)

open CT.SecondOrder in
/-- Constructor from one frequency, damping and gain per joint (37-47). -/
noncomputable def oscNewListGain (n : ℕ) (w zeta g : List ℝ) : Res (Fin n → Sys) :=
  if w.length ≠ n ∨ zeta.length ≠ n ∨ g.length ≠ n then .exc
  else .ok fun i => mk' (w.getD i 0) (zeta.getD i 0) (g.getD i 0)

open CT.SecondOrder in
/-- `SecondOrderActuatorDynamics`: `computeActuatorDynamics` (61-83), `computeControlOutput`
(86-92), `computeStateFromOutput` (95-103).  Entry `i` of the state is the position of oscillator
`i`, entry `i + n` its velocity. -/
noncomputable def secondOrder (osc : Fin n → Sys) : Act n (n + n) where
  dyn _ x _ u := Fin.append
    (fun i => x (Fin.natAdd n i))
    (fun i => (CT.SecondOrder.dyn (osc i) (x (Fin.castAdd n i), x (Fin.natAdd n i)) (u i)).2)
  out _ x := fun i => x (Fin.castAdd n i)
  fromOut _ u := Fin.append u (fun _ => 0)

/-! ### Robot systems -/

/-- The rigid body algorithms of a robot with `n` joints whose control vector carries the forces of
`e` end effectors (`e = 0` when `EE_ARE_CONTROL_INPUTS` is false): `FixBaseForwardDynamics`,
`FixBaseID`, the link an end effector is attached to and `mapForceFromWorldToLink3d`.  `W` is the
type of link wrenches. -/
structure Rob (n e : ℕ) (W : Type) where
  fd : Joints ℝ n → (Fin n → ℝ) → (ℕ → W) → (Fin n → ℝ)
  idyn : Joints ℝ n → (Fin n → ℝ) → (Fin n → ℝ)
  linkId : Fin e → ℕ
  mapForce : (Fin 3 → ℝ) → (Fin n → ℝ) → Fin e → W

variable {e : ℕ} {W : Type} [Zero W]

/-- The external link forces of `computeControlledDynamics` (FixBaseFDSystem.h:104-119): zero, then
one *assignment* per end effector. -/
def Rob.linkForces (rb : Rob n e W) (control : List ℝ) (q : Fin n → ℝ) : ℕ → W :=
  (List.finRange e).foldl
    (fun lf i => Function.update lf (rb.linkId i) (rb.mapForce (seg control (n + i * 3) 3) q i))
    (fun _ => 0)

/-- `computeActuatorDynamics` (FixBaseFDSystem.h:130-160): without actuator states nothing happens;
with actuator states the derivative of the actuator part is written and the control replaced by
the actuator output (a null pointer is dereferenced if no actuators were given).  The code with
actuators and end effector forces together does not compile (sizes of the assigned control), so the
replaced control has just `n` entries. -/
def fdActuator (act : Option (Act n m)) (s : FixBase ℝ n m) (t : ℝ) (controlIn d : List ℝ) :
    Res (List ℝ × List ℝ) :=
  if m = 0 then .ok (d, controlIn)
  else match act with
    | none => .ub
    | some a => .ok (setSeg d (2 * n + m - m) (a.dyn s.joints s.act t (seg controlIn 0 n)),
        List.ofFn (a.out s.joints s.act))

/-- `FixBaseFDSystem::computeControlledDynamics` (FixBaseFDSystem.h:88-127); `d` is the vector the
caller passes for the derivative. -/
def Rob.fdDynamics (rb : Rob n e W) (act : Option (Act n m)) (state : List ℝ) (t : ℝ)
    (controlIn d : List ℝ) : Res (List ℝ) := do
  let s := (FixBase.mk ⟨fun _ => 0, fun _ => 0⟩ fun _ => 0 : FixBase ℝ n m).fromStateVector state
  let d := setSeg d 0 s.joints.vel
  let (d, control) ← fdActuator act s t controlIn d
  .ok (setSeg d n (rb.fd s.joints (seg control 0 n) (rb.linkForces control s.joints.pos)))

/-- `FixBaseAccSystem::computeControlledDynamics` (FixBaseAccSystem.h:39-48): state of size 2n. -/
def accDynamics (n : ℕ) (state control d : List ℝ) : List ℝ :=
  setSeg (setSeg d 0 (seg state (2 * n - n) n)) (2 * n - n) (seg control 0 n)

/-- `FixBaseVelSystem::computeControlledDynamics` (FixBaseVelSystem.h:39-45): state of size n. -/
def velDynamics (n : ℕ) (control d : List ℝ) : List ℝ := setSeg d 0 (seg control 0 n)

/-- `computeIDTorques` (FixBaseSystemBase.h:67-73) with the default acceleration, zero. -/
def Rob.idTorques (rb : Rob n e W) (j : Joints ℝ n) : Fin n → ℝ := rb.idyn j fun _ => 0

/-- `computeConsistentActuatorState` (FixBaseFDSystem.h:179-186), for a system with actuators. -/
def Rob.consistent (rb : Rob n e W) (a : Act n m) (j : Joints ℝ n) : Fin m → ℝ :=
  a.fromOut j (rb.idTorques j)

/-! ### Symplectic form -/

/-- The interface `ActuatorDynamicsSymplectic` (robot/actuator/ActuatorDynamicsSymplectic.h:40-65)
with `h` actuator positions and `h` velocities; the state `x` lists positions, then velocities. -/
structure ActSym (n h : ℕ) where
  pdot : Joints ℝ n → (Fin (h + h) → ℝ) → (Fin h → ℝ) → (Fin n → ℝ) → (Fin h → ℝ)
  vdot : Joints ℝ n → (Fin (h + h) → ℝ) → (Fin h → ℝ) → (Fin n → ℝ) → (Fin h → ℝ)
  out : Joints ℝ n → (Fin (h + h) → ℝ) → (Fin n → ℝ)

variable {h : ℕ}

/-- `jointStateFromVector` (FixBaseFDSystemSymplectic.h:246-252); STATE_DIM / 2 = n + h. -/
def symJoints (n h : ℕ) (x : List ℝ) : Joints ℝ n := ⟨seg x 0 n, seg x (n + h) n⟩

/-- `actuatorStateFromVector` (275-282); NSTATE / 2 = n. -/
def symActuator (n h : ℕ) (x : List ℝ) : Fin (h + h) → ℝ :=
  Fin.append (seg x n h) (seg x (2 * (n + h) - h) h)

/-- `toFullState` (285-294). -/
def symFull {n h : ℕ} (j : Joints ℝ n) (a : Fin (h + h) → ℝ) (junk : List ℝ) : List ℝ :=
  let f := setSeg junk 0 j.pos
  let f := setSeg f n (fun i : Fin h => a (Fin.castAdd h i))
  let f := setSeg f (n + h) j.vel
  setSeg f (2 * (n + h) - h) (fun i : Fin h => a (Fin.natAdd h i))

/-- `computePdot` and `computeActuatorPdot` (113-160). -/
def symPdot (act : Option (ActSym n h)) (x v : List ℝ) (controlIn pd : List ℝ) : Res (List ℝ) :=
  let pd := setSeg pd 0 (seg v 0 n)
  let j := symJoints n h x
  if h = 0 then .ok pd
  else match act with
    | none => .ub
    | some a =>
      let actPos := seg x n h
      let actVel := seg v (n + h - h) h
      .ok (setSeg pd (n + h - h) (a.pdot j (Fin.append actPos actVel) actVel (seg controlIn 0 n)))

/-- `computeVdot` and `computeActuatorVdot` (164-236). -/
def Rob.symVdot (rb : Rob n e W) (act : Option (ActSym n h)) (x p : List ℝ) (controlIn vd : List ℝ) :
    Res (List ℝ) := do
  let j := symJoints n h x
  let (vd, control) ← (if h = 0 then .ok (vd, controlIn)
    else match act with
      | none => .ub
      | some a =>
        let actPos := seg p n h
        let actVel := seg x (2 * (n + h) - h) h
        let actState := Fin.append actPos actVel
        .ok (setSeg vd (n + h - h) (a.vdot j actState actPos (seg controlIn 0 n)),
          List.ofFn (a.out j actState)) : Res (List ℝ × List ℝ))
  .ok (setSeg vd 0 (rb.fd j (seg control 0 n) (rb.linkForces control j.pos)))

/-- `SymplecticSystem::computeControlledDynamics`
(ct_core/.../systems/continuous_time/SymplecticSystem.h:68-80); `junkP`, `junkV` are the
uninitialised local vectors. -/
def Rob.symDynamics (rb : Rob n e W) (act : Option (ActSym n h)) (state control junkP junkV : List ℝ) :
    Res (List ℝ) := do
  let pd ← symPdot act state (state.drop (n + h)) control junkP
  let vd ← rb.symVdot act state (state.take (n + h)) control junkV
  .ok (pd ++ vd)

/-! ### Initial guesses of the optimal control solver -/

/-- A state as a vector (`toStateVector`); the contents of the uninitialised result do not matter
(C63_fixed_base), zeros are used here. -/
def vec (s : FixBase ℝ n m) : List ℝ := s.toStateVector (List.replicate (2 * n + m) 0)

/-- `initializeSteadyPose` (FixBaseNLOC-impl.h:73-99): feed-forward and reference states passed to
the solver. -/
noncomputable def Rob.steadyPose (rb : Rob n e W) (x0 : FixBase ℝ n m) (N : ℕ) : List (Fin n → ℝ) × List (List ℝ) :=
  let uRef : Fin n → ℝ := if m > 0 then fun _ => 0 else rb.idTorques x0.joints
  (List.replicate N uRef, List.replicate (N + 1) (vec x0))

/-- Joint state on the straight line from `a` to `b`, in the operation order of lines 133-135. -/
noncomputable def lineJoints (a b : Joints ℝ n) (i N : ℕ) : Joints ℝ n :=
  ⟨fun l => a.pos l + (b.pos l - a.pos l) * i / N, fun l => a.vel l + (b.vel l - a.vel l) * i / N⟩

/-- One pass of the loop of `initializeDirectInterpolation` (130-158); `tau` is the variable
`uff_torque`, which keeps its value when it is not assigned. -/
noncomputable def Rob.interpPass (rb : Rob n e W) (a : Act n m) (x0 xf : FixBase ℝ n m) (N : ℕ)
    (s : (Fin n → ℝ) × List (Fin n → ℝ) × List (List ℝ)) (i : ℕ) :
    (Fin n → ℝ) × List (Fin n → ℝ) × List (List ℝ) :=
  let j := lineJoints x0.joints xf.joints i N
  let tau := if i < N then rb.idTorques j else s.1
  let us := if i < N then s.2.1 ++ [if m > 0 then fun _ => 0 else tau] else s.2.1
  let act := if i > 0 ∧ m > 0 then a.fromOut j tau else x0.act
  (tau, us, s.2.2 ++ [vec ⟨j, act⟩])

/-- `initializeDirectInterpolation` (116-169): feed-forward and state arrays.  Simplified: `N` is a
natural number (the code divides by it; the theorems assume it is positive) and the arrays grow
instead of being resized first; every entry is assigned in order. -/
noncomputable def Rob.directInterpolation (rb : Rob n e W) (a : Act n m) (x0 xf : FixBase ℝ n m) (N : ℕ)
    (junk : Fin n → ℝ) : List (Fin n → ℝ) × List (List ℝ) :=
  ((List.range (N + 1)).foldl (rb.interpPass a x0 xf N) (junk, [], [])).2

end CT.Actuator
