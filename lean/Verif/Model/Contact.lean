import Verif.Model.Res
import Mathlib.Analysis.SpecialFunctions.Exp
import Mathlib.Analysis.SpecialFunctions.Trigonometric.DerivHyp

/-!
# Soft contact model

Models `/repo/ct_rbd/include/ct/rbd/physics/EEContactModel.h` over the reals. The kinematics of the robot –
position and velocity of every end effector in the world frame as functions of the state – are parameters.
-/

namespace CT.Contact

/-- `VELOCITY_SMOOTHING` (EEContactModel.h:82-88). `other` stands for any further value, which
`smoothing()` (175) lets a caller store. -/
inductive Smoothing where
  | NONE | SIGMOID | TANH | ABS | other
  deriving DecidableEq

/-- A vector in world coordinates. -/
structure Vec where
  x : ℝ
  y : ℝ
  z : ℝ

/-- `setZero()`. -/
def Vec.zero : Vec := ⟨0, 0, 0⟩

/-- Members (EEContactModel.h:284-295), `nEE` end effectors; `S` is the type of robot states. -/
structure Model (S : Type) (nEE : ℕ) where
  position : Fin nEE → S → Vec
  velocity : Fin nEE → S → Vec
  smoothing : Smoothing
  k : ℝ
  d : ℝ
  alpha : ℝ
  alpha_n : ℝ
  zOffset : ℝ
  active : Fin nEE → Bool

variable {S : Type} {nEE : ℕ}

/-- Constructor with all arguments (EEContactModel.h:100-118): every end effector is active. -/
def Model.new (position velocity : Fin nEE → S → Vec) (k d alpha alpha_n zOffset : ℝ) (smoothing : Smoothing) :
    Model S nEE :=
  ⟨position, velocity, smoothing, k, d, alpha, alpha_n, zOffset, fun _ => true⟩

/-- Constructor with default arguments (EEContactModel.h:100-106). -/
noncomputable def Model.default (position velocity : Fin nEE → S → Vec) : Model S nEE :=
  Model.new position velocity 5000 500 100 (-1) 0 .NONE

/-- `setActiveEE` (EEContactModel.h:141). -/
def Model.setActiveEE (c : Model S nEE) (a : Fin nEE → Bool) : Model S nEE := { c with active := a }

/-- `computePenetration` (EEContactModel.h:201-212). -/
def Model.computePenetration (c : Model S nEE) (i : Fin nEE) (s : S) : Vec := ⟨0, 0, (c.position i s).z⟩

open Classical in
/-- `eeInContact` (EEContactModel.h:185-191). -/
noncomputable def Model.eeInContact (c : Model S nEE) (pen : Vec) : Bool :=
  if c.smoothing = .NONE ∧ 0 < pen.z then false else true

/-- `computeDamperForce` (EEContactModel.h:265-268). -/
def Model.computeDamperForce (c : Model S nEE) (v : Vec) : Vec := ⟨-c.d * v.x, -c.d * v.y, -c.d * v.z⟩

/-- `force *= s`. -/
def Vec.scale (f : Vec) (s : ℝ) : Vec := ⟨f.x * s, f.y * s, f.z * s⟩

/-- `smoothEEForce` (EEContactModel.h:238-257). -/
noncomputable def Model.smoothEEForce (c : Model S nEE) (force pen : Vec) : Res Vec :=
  match c.smoothing with
  | .NONE => .ok force
  | .SIGMOID => .ok (force.scale (1 / (1 + Real.exp (pen.z * c.alpha))))
  | .TANH => .ok (force.scale (0.5 * Real.tanh (-0.5 * pen.z * c.alpha) + 0.5))
  | .ABS => .ok (force.scale (0.5 * -pen.z * c.alpha / (1 + |-pen.z * c.alpha|) + 0.5))
  | .other => .exc

open Classical in
/-- `computeNormalSpring` (EEContactModel.h:270-280). -/
noncomputable def Model.computeNormalSpring (c : Model S nEE) (force : Vec) (p_N : ℝ) : Vec :=
  if 0 < c.alpha_n then { force with z := force.z + c.k * Real.exp (-c.alpha_n * p_N) }
  else if p_N ≤ 0 then { force with z := force.z - c.k * p_N }
  else force

/-- `computeEEForce` (EEContactModel.h:220-231). -/
noncomputable def Model.computeEEForce (c : Model S nEE) (pen v : Vec) : Res Vec := do
  let f ← c.smoothEEForce (c.computeDamperForce v) pen
  .ok (c.computeNormalSpring f (pen.z - c.zOffset))

/-- `computeContactForces` (EEContactModel.h:147-170). `junk` is the content of the array of forces, which is
not initialised; the entries are computed one after the other. -/
noncomputable def Model.computeContactForces (c : Model S nEE) (junk : Fin nEE → Vec) (s : S) : Res (List Vec) :=
  (List.finRange nEE).mapM fun i =>
    if c.active i then
      let pen := c.computePenetration i s
      if c.eeInContact pen then c.computeEEForce pen (c.velocity i s) else .ok Vec.zero
    else .ok (junk i)

end CT.Contact
