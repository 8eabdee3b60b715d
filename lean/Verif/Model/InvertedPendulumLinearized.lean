import Verif.Model.Robots.Systems
import Mathlib.Data.List.GetD

/-!
# The generated linearisation of the inverted pendulum with a series elastic actuator

`ct_models/include/ct/models/InvertedPendulum/codegen/InvertedPendulumActDynLinearizedForward.{h,cpp}`; the file names
below refer to them.  Numbers are reals; the literals of the code are read as the decimal numbers written there.
-/

namespace CT.Robots.InvertedPendulum

/-- The members `dFdx_`, `dFdu_` of `InvertedPendulumActDynLinearizedForward` as they lie in memory, column by column
(.h:51-52).  The empty arrays `vX_`, `vU_` (.h:53-54) are left out. -/
structure ActLin where
  dFdx : List ℝ
  dFdu : List ℝ

/-- `initialize` (.h:43-49), called by the constructor (.h:24-28) and the copy constructor (.h:30); `clone` (.h:33)
constructs anew. -/
noncomputable def ActLin.new : ActLin where
  dFdx := List.replicate 9 0
  dFdu := List.replicate 3 0

/-- A matrix with `r` rows read from memory, column by column. -/
noncomputable def colMajor (r c : ℕ) (l : List ℝ) : Matrix (Fin r) (Fin c) ℝ :=
  Matrix.of fun i j => l.getD (j.val * r + i.val) 0

/-- `getDerivativeState` (.cpp:13-29).  Of `x_in`, which is the state followed by the input, only the first entry is read. -/
noncomputable def ActLin.getDerivativeState (s : ActLin) (x : Fin 3 → ℝ) (_u : Fin 1 → ℝ) (_t : ℝ) :
    ActLin × Matrix (Fin 3) (Fin 3) ℝ :=
  let jac := s.dFdx
  let jac := jac.set 1 ((-180.9 - 0.530623 * 9.81 * (-Real.cos (x 0))) / 0.16452757)
  let jac := jac.set 3 1
  let jac := jac.set 7 1099.51177179606
  ({ s with dFdx := jac }, colMajor 3 3 jac)

/-- `getDerivativeControl` (.cpp:31-45). -/
noncomputable def ActLin.getDerivativeControl (s : ActLin) (_x : Fin 3 → ℝ) (_u : Fin 1 → ℝ) (_t : ℝ) :
    ActLin × Matrix (Fin 3) (Fin 1) ℝ :=
  let jac := s.dFdu
  let jac := jac.set 2 0.02
  ({ s with dFdu := jac }, colMajor 3 1 jac)

/-- A call of one of the functions. -/
inductive LinCall where
  | state (x : Fin 3 → ℝ) (u : Fin 1 → ℝ) (t : ℝ)
  | control (x : Fin 3 → ℝ) (u : Fin 1 → ℝ) (t : ℝ)

/-- What a call does to the object. -/
noncomputable def ActLin.step (s : ActLin) : LinCall → ActLin
  | .state x u t => (s.getDerivativeState x u t).1
  | .control x u t => (s.getDerivativeControl x u t).1

/-- The object after the given calls. -/
noncomputable def ActLin.after (calls : List LinCall) : ActLin := calls.foldl ActLin.step ActLin.new

/-- The system the code was generated from (ct_models/src/InvertedPendulum/codegen/InvertedPendulumWithActuatorCodeGen.cpp:20-21,
41-42): `FixBaseFDSystem` of the pendulum with `SEADynamicsFirstOrder(180.9, 50)`. -/
noncomputable def actuatedDynamics (y : Robot) (ds : List Call) (x : List ℝ) (t : ℝ) (u d : List ℝ) : Res (List ℝ) :=
  (rob y ds).fdDynamics (some (Actuator.sea 180.9 50 : Actuator.Act 1 1)) x t u d

end CT.Robots.InvertedPendulum
