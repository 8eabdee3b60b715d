import Verif.Model.RobotLookups
import Verif.Model.FloatingSystem

/-!
# Positions and velocities of the feet of HyQ as functions of the state

Models `hyqForwardKinematics` (`ct_models/src/HyQ/codegen/helperFunctions.h:57-75`), the function of which the generated Jacobians
are meant to be the derivative, with the queries of `Verif.Model.Lookup`.
-/

namespace CT.Robots.HyQ

open CT.FloatSys CT.Robot CT.FrameJac CT.Lookup

noncomputable section

/-- The state of a vector: a default constructed `RBDState` (RBDState.h:42-46) after `fromStateVectorEulerXyz`
(helperFunctions.h:61-62). -/
def footState (kd : Kindr) (x : Fin 36 → ℝ) : RBD ℝ 12 := (RBD.blank 12 true).fromStateVectorEulerXyz kd.conv (List.ofFn x)

/-- Joint quantities as the generated code numbers them. -/
def byJoint (v : Fin 12 → ℝ) : ℕ → ℝ := fun j => if h : j < 12 then v ⟨j, h⟩ else 0

/-- Position of a foot, `y.segment<3>(i * 6)` (helperFunctions.h:69-70); `hX` is the history of the transform. -/
def footPosition (kd : Kindr) (hX : Hist) (ee : ℕ) (x : Fin 36 → ℝ) : Res V3 :=
  let s := footState kd x
  Kin.defs.getEEPositionInWorld hX ee s.pose.position (rotationMatrix kd s.pose) (byJoint s.joints.pos)

/-- Velocity of a foot, `y.segment<3>(i * 6 + 3)` (helperFunctions.h:71); `hJ` and `hX` are the histories of the generated
Jacobian and transform. -/
def footVelocity (kd : Kindr) (hJ hX : Hist) (ee : ℕ) (x : Fin 36 → ℝ) : Res V3 :=
  let s := footState kd x
  Kin.defs.getEEVelocityInWorld hJ hX ee (rotationMatrix kd s.pose) s.angVel s.linVel (byJoint s.joints.pos) (byJoint s.joints.vel)

end

end CT.Robots.HyQ
