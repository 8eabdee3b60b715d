import Verif.Model.SystemInterface
import Verif.Model.Sensitivity

/-!
# The system interface with real integrators and sensitivities

The parameters of `Model/SystemInterface.lean` filled with `Model/Integration.lean` and
`Model/Sensitivity.lean`: a nonlinear system is its dynamics, a linear system a pair of Jacobians.
-/

namespace CT.SysIf

open CT.Discretizer (IntType)
open CT.Sens

variable {ι κ : Type} [Fintype ι] [DecidableEq ι] [Fintype κ] [DecidableEq κ]

/-- Dynamics of a nonlinear system (`ControlledSystem::computeControlledDynamics`). -/
abbrev Dyn (ι κ : Type) := (ι → ℝ) → (κ → ℝ) → ℝ → (ι → ℝ)

/-- The steppers with a fixed step: `EULER` (0), `EULERCT` (7), `RK4` (1), `RK4CT` (8) of the enumeration
(Integrator.h:30-43); both variants of each compute the same formula (C15). The same grouping is used by
`SensitivityIntegrator::setStepper` (SensitivityIntegrator.h:83-104). -/
def kindOf : IntType → Option Kind
  | .plain k => if k = 0 ∨ k = 7 then some .euler else if k = 1 ∨ k = 8 then some .rk4 else none
  | _ => none

/-- `SensitivityApproximation::getAandB` (SensitivityApproximation.h:109-175) for the methods that need no
splitting of the state; `sym` is the symplectic one. -/
noncomputable def approxEval (sym : LinSys ι κ ℝ → ℝ → (ι → ℝ) → (κ → ℝ) → (ι → ℝ) → ℕ → AB ι κ ℝ) (ap : Approx)
    (l : LinSys ι κ ℝ) (dt : ℝ) (x : ι → ℝ) (u : κ → ℝ) (xNext : ι → ℝ) (n : ℕ) : AB ι κ ℝ :=
  match ap with
  | .forwardEuler => forwardEuler l dt x u n
  | .backwardEuler => backwardEuler l dt x u n
  | .symplecticEuler => sym l dt x u xNext n
  | .tustin => tustin l dt x xNext u n
  | .matrixExponential => matrixExponential l dt x u n

/-- The parameters of the interface. `other` and `otherAB` stand for the remaining integration types and
`isSym` for `System::isSymplectic`; nothing is assumed about them. -/
noncomputable def flowEnv (isSym : Dyn ι κ → Bool)
    (other : IntType → Dyn ι κ → (ι → ℝ) → (κ → ℝ) → ℝ → ℕ → ℝ → (ι → ℝ) × List (ι → ℝ))
    (otherAB : IntType → LinSys ι κ ℝ → ℝ → (ι → ℝ) → List (ι → ℝ) → List (κ → ℝ) → ℕ → ℕ → Res (AB ι κ ℝ))
    (sym : LinSys ι κ ℝ → ℝ → (ι → ℝ) → (κ → ℝ) → (ι → ℝ) → ℕ → AB ι κ ℝ) :
    Env ℝ (Dyn ι κ) (LinSys ι κ ℝ) (ι → ℝ) (κ → ℝ) (AB ι κ ℝ) where
  isSym := isSym
  run ty f x u t N dt := match kindOf ty with
    | some kd => ((Integration.nSteps (plantStep kd f u) x t dt N).1, recorded kd f u dt N x t)
    | none => other ty f x u t N dt
  integAB ty tv l dt x u y xs us n k := match kindOf ty with
    | some kd => if tv then integrateSensitivity kd l dt n k xs us
        else integrateSensitivityConst kd l dt x u n k xs us
    | none => otherAB ty l dt y xs us n k
  approxAB ap l dt x u y _ _ n _ := .ok (approxEval sym ap l dt x u y n)

end CT.SysIf
