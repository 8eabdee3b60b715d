import Verif.Model.FloatingSystem
import Verif.Model.Robots.QuadrotorWithLoad

/-!
# The quadrotor with load as a controlled system

Models `ct_models/include/ct/models/QuadrotorWithLoad/QuadrotorWithLoadFDSystem.h`.  Scalars are the reals; an object on
which arbitrary calls were made before stands for the generated algorithms.  The time argument, which is not used, is left out.
-/

namespace CT.Robots.QuadrotorWithLoad

open Spatial FloatSys _root_.CT.Robot

/-- The algorithms that `dynamics_` calls (ct_rbd/include/ct/rbd/robot/Dynamics.h:275-288, 290-305, 307-320); no end effectors. -/
noncomputable def rob (y : Robot) (ds : List Call) : FRob 2 3 0 where
  fd q v g qd tau lf := ((Robot.after y ds).fd q v g qd tau lf).2
  idyn q g v qd qdd lf := ((Robot.after y ds).id q g v qd qdd lf).2
  idFull q g v acc qd qdd lf := ((Robot.after y ds).id_full q g v acc qd qdd lf).2
  linkId i := i.elim0
  mapForce _ _ _ i := i.elim0

/-- `mapControlInputsToLinkForces` (QuadrotorWithLoadFDSystem.h:69-83): entry 0 of the control is the thrust, entries 1 to 3 the
torques; the wrench of link 0 is set to zero, then its entry 5 and its first three entries are written. -/
def mapControl (control : List ℝ) (lf : Ext) : Ext :=
  let f0 : V6 := fun _ => 0
  let f1 : V6 := Function.update f0 5 (control.getD 0 0)
  let t := seg control 1 3
  let f2 : V6 := fun i => if h : i.val < 3 then t ⟨i.val, h⟩ else f1 i
  Function.update lf 0 f2

/-- `RBDStateFromVector` (QuadrotorWithLoadFDSystem.h:85-106). -/
def stateFrom (kd : Kindr) (quat : Bool) (x : List ℝ) : RBD ℝ 2 :=
  if quat then (RBD.blank 2 false).fromStateVectorQuaternion kd.conv x
  else (RBD.blank 2 true).fromStateVectorEulerXyz kd.conv x

/-- `toStateDerivative` (QuadrotorWithLoadFDSystem.h:108-122). -/
noncomputable def toDeriv (kd : Kindr) (quat : Bool) (a : Acc 2) (s : RBD ℝ 2) : List ℝ :=
  if quat then a.toQuat kd s else a.toEuler kd s

/-- `computeControlledDynamics` (QuadrotorWithLoadFDSystem.h:43-66): the joint forces are a damping of the joints. -/
noncomputable def systemDynamics (kd : Kindr) (rb : FRob 2 3 0) (quat : Bool) (x control : List ℝ) : List ℝ :=
  let s := stateFrom kd quat x
  let lf := mapControl control fun _ _ => 0
  let u : Fin 2 → ℝ := fun i => -0.0005 * s.joints.vel i
  toDeriv kd quat (forwardDynamics kd rb s u lf Acc.zero) s

end CT.Robots.QuadrotorWithLoad
