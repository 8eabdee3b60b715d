import Verif.Model.Actuator
import Verif.Model.FloatingSystem
import Verif.Model.Robots.InvertedPendulum
import Verif.Model.Robots.DoubleInvertedPendulum
import Verif.Model.Robots.HyA
import Verif.Model.Robots.HyQ

/-!
# The robots as the rigid body systems use them

`Dynamics` (ct_rbd/include/ct/rbd/robot/Dynamics.h) calls the generated algorithms through `kinematics_->robcogen()`.
An object on which arbitrary calls were made before stands for the generated algorithms.
-/

namespace CT.Robots

open Spatial

/-- Inverted pendulum: `FixBaseForwardDynamics` (Dynamics.h:248-256), `FixBaseID` (258-275) without link forces.
There are no end effector forces in the control vector. -/
noncomputable def InvertedPendulum.rob (y : InvertedPendulum.Robot) (ds : List InvertedPendulum.Call) : Actuator.Rob 1 0 V6 where
  fd j tau lf := ((InvertedPendulum.Robot.after y ds).fd j.pos j.vel tau fun i => lf i).2
  idyn j qdd := ((InvertedPendulum.Robot.after y ds).id j.pos j.vel qdd 0).2
  linkId i := i.elim0
  mapForce _ _ i := i.elim0

/-- Double inverted pendulum: likewise. -/
noncomputable def DoubleInvertedPendulum.rob (y : DoubleInvertedPendulum.Robot) (ds : List DoubleInvertedPendulum.Call) : Actuator.Rob 2 0 V6 where
  fd j tau lf := ((DoubleInvertedPendulum.Robot.after y ds).fd j.pos j.vel tau fun i => lf i).2
  idyn j qdd := ((DoubleInvertedPendulum.Robot.after y ds).id j.pos j.vel qdd 0).2
  linkId i := i.elim0
  mapForce _ _ i := i.elim0

/-- HyA: likewise. -/
noncomputable def HyA.rob (y : HyA.Robot) (ds : List HyA.Call) : Actuator.Rob 6 0 V6 where
  fd j tau lf := ((HyA.Robot.after y ds).fd j.pos j.vel tau fun i => lf i).2
  idyn j qdd := ((HyA.Robot.after y ds).id j.pos j.vel qdd 0).2
  linkId i := i.elim0
  mapForce _ _ i := i.elim0

/-- HyQ: the algorithms that `FloatingBaseForwardDynamics` (Dynamics.h:275-288), `FloatingBaseID` (290-305) and
`FloatingBaseFullyActuatedID` (307-320) call; `linkId` and `mapForce` as given. -/
noncomputable def HyQ.rob {e : ℕ} (y : HyQ.Robot) (ds : List HyQ.Call) (linkId : Fin e → Fin 13)
    (mapForce : FrameJac.V3 → Robot.Pose ℝ → (Fin 12 → ℝ) → Fin e → V6) : FloatSys.FRob 12 13 e where
  fd q v g qd tau lf := ((HyQ.Robot.after y ds).fd q v g qd tau lf).2
  idyn q g v qd qdd lf := ((HyQ.Robot.after y ds).id q g v qd qdd lf).2
  idFull q g v acc qd qdd lf := ((HyQ.Robot.after y ds).id_full q g v acc qd qdd lf).2
  linkId := linkId
  mapForce := mapForce

/-- The inertia matrix of HyQ with the entries of the base first, as Eigen stores it. -/
noncomputable def HyQ.inertia (z : HyQ.Robot) (cs : List HyQ.Call) (q : Fin 12 → ℝ) : Matrix (Fin (6 + 12)) (Fin (6 + 12)) ℝ :=
  (((HyQ.Robot.after z cs).jsim q).2).submatrix finSumFinEquiv.symm finSumFinEquiv.symm

end CT.Robots
