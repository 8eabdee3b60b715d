import Mathlib.Data.Real.Basic
import Mathlib.Data.Fin.VecNotation
import Mathlib.Data.List.OfFn

/-!
# Adaptive integration

Models how `Integrator` (ct_core/include/ct/core/integration/Integrator.h and Integrator-impl.h) chooses its stepper and hands over
error tolerances (internal/StepperBase.h, internal/SteppersODEInt.h), and the arithmetic on Eigen vectors which it provides for the
error checker of boost odeint (eigenIntegration.h).

Simplifications: scalars are real numbers.  The steppers of boost odeint are not modelled; what is computed is which of them runs and
with which tolerances.  The object pointed to by `integratorStepper_` is only used by its integrator and is modelled by its value.
-/

namespace CT.Adaptive

noncomputable section

/-! ### The choice of the stepper -/

/-- `IntegrationType` (Integrator.h:29-42). -/
inductive IntType
  | euler | rk4 | modifiedMidpoint | ode45 | rk5variable | rk78 | bulirschStoer | eulerCT | rk4CT | eulerSym | rkSym
  deriving DecidableEq

/-- The steppers of boost odeint (internal/SteppersODEIntDefinitions.h:17-62). -/
inductive Method
  | euler | rk4 | modifiedMidpoint | dopri5 | fehlberg78 | bulirschStoer
  deriving DecidableEq

/-- The classes of steppers: `StepperEulerCT`, `StepperRK4CT`, `StepperODEInt` (SteppersODEInt.h:23), and
`StepperODEIntDenseOutput` (110) and `StepperODEIntControlled` (167) with the tolerances which `stepperDense_` and
`stepperControlled_` have been made with. -/
inductive Kind
  | eulerCT
  | rk4CT
  | odeint (m : Method)
  | dense (m : Method) (eAbs eRel : ℝ)
  | controlled (m : Method) (eAbs eRel : ℝ)

/-- A stepper: its class and the members of `StepperBase` (StepperBase.h:181-182). -/
structure Stepper where
  kind : Kind
  absErrTol : ℝ
  relErrTol : ℝ

/-- The initial tolerances (StepperBase.h:25). -/
def tol0 : ℝ := 1 / 10 ^ 8

/-- The constructors of steppers without further members (StepperBase.h:25, SteppersODEInt.h:28). -/
def Stepper.plain (k : Kind) : Stepper := ⟨k, tol0, tol0⟩

/-- `StepperODEIntDenseOutput()` (SteppersODEInt.h:116-119). -/
def Stepper.mkDense (m : Method) : Stepper :=
  let s := Stepper.plain (.odeint m)
  { s with kind := .dense m s.absErrTol s.relErrTol }

/-- `StepperODEIntControlled()` (SteppersODEInt.h:173-176). -/
def Stepper.mkControlled (m : Method) : Stepper :=
  let s := Stepper.plain (.odeint m)
  { s with kind := .controlled m s.absErrTol s.relErrTol }

/-- `setAdaptiveErrorTolerances` (StepperBase.h:174-178). -/
def Stepper.setTol (s : Stepper) (a r : ℝ) : Stepper := { s with absErrTol := a, relErrTol := r }

/-- `initializeCTSteppers` (Integrator-impl.h:137-158). -/
def initCT (t : IntType) (p : Option Stepper) : Option Stepper :=
  match t with
  | .eulerCT => some (.plain .eulerCT)
  | .rk4CT => some (.plain .rk4CT)
  | _ => p

/-- `initializeAdaptiveSteppers` (Integrator.h:243-286); `dbl` tells whether the scalar type is `double`. -/
def initAdaptive (dbl : Bool) (t : IntType) (p : Option Stepper) : Option Stepper :=
  if dbl then
    match t with
    | .ode45 => some (.mkControlled .dopri5)
    | .rk5variable => some (.mkDense .dopri5)
    | .bulirschStoer => some (.plain (.odeint .bulirschStoer))
    | _ => p
  else p

/-- `initializeODEIntSteppers` (Integrator.h:288-351). -/
def initODEInt (dbl : Bool) (t : IntType) (p : Option Stepper) : Option Stepper :=
  if dbl then
    match t with
    | .euler => some (.plain (.odeint .euler))
    | .rk4 => some (.plain (.odeint .rk4))
    | .modifiedMidpoint => some (.plain (.odeint .modifiedMidpoint))
    | .rk78 => some (.plain (.odeint .fehlberg78))
    | _ => p
  else p

/-- `changeIntegrationType` (Integrator-impl.h:32-40) on the pointer to the stepper; `none` is an exception. -/
def changeType (dbl : Bool) (t : IntType) (p : Option Stepper) : Option Stepper :=
  let p := initCT t p
  let p := initAdaptive dbl t p
  let p := initODEInt dbl t p
  p

/-- The constructor (Integrator-impl.h:12-30): the pointer is null at first; `none` is an exception. -/
def create (dbl : Bool) (t : IntType) : Option Stepper := changeType dbl t none

/-- Calls that change an integrator: `changeIntegrationType` (Integrator-impl.h:32-40) and `setApadativeErrorTolerances` (43-47). -/
inductive Op
  | change (t : IntType)
  | tol (a r : ℝ)

/-- One call; `none` is an exception. -/
def call (dbl : Bool) (s : Stepper) : Op → Option Stepper
  | .change t => changeType dbl t (some s)
  | .tol a r => some (s.setTol a r)

/-- A constructor followed by calls. -/
def history (dbl : Bool) (t : IntType) (ops : List Op) : Option Stepper :=
  ops.foldlM (call dbl) =<< create dbl t

/-- What `integrate_adaptive` does: it throws, or it runs a method with a fixed step size, or it runs a method and adjusts the step
size to tolerances. -/
inductive Run
  | thrown
  | fixed (m : Method)
  | adaptive (m : Method) (eAbs eRel : ℝ)

/-- `Integrator::integrate_adaptive` (Integrator-impl.h:97-121) with `integrate_adaptive` of the stepper (StepperBase.h, SteppersODEInt.h:68-85,
121-141, 178-196; not implemented by the steppers of SteppersCT.h).  boost odeint runs plain steppers with a fixed step size except
`bulirsch_stoer`, which controls its step size with tolerances of its own; `bs` are those of its default constructor. -/
def Stepper.integrateAdaptive (bs : ℝ × ℝ) (s : Stepper) : Run :=
  match s.kind with
  | .eulerCT => .thrown
  | .rk4CT => .thrown
  | .odeint .bulirschStoer => .adaptive .bulirschStoer bs.1 bs.2
  | .odeint m => .fixed m
  | .dense m a r => .adaptive m a r
  | .controlled m a r => .adaptive m a r

/-! ### The error of a step -/

variable {n : ℕ}

/-- `operator+(scalar, matrix)` (eigenIntegration.h:37-45 for Eigen 3.3 and newer, 70-77 for older versions). -/
def scalarPlus (eigen33 : Bool) (s : ℝ) (m : Fin n → ℝ) : Fin n → ℝ :=
  if eigen33 then
    let result := m
    fun i => result i * s
  else fun i => s + m i

/-- `abs(matrix)` (eigenIntegration.h:29-34, 91-97). -/
def absV (m : Fin n → ℝ) : Fin n → ℝ := fun i => |m i|

/-- `operator/(matrix, matrix)` (eigenIntegration.h:47-55, 80-88): entry by entry.  `none` stands for a quotient that is not a
finite number. -/
def divV (a b : Fin n → ℝ) : Fin n → Option ℝ := fun i => if b i = 0 then none else some (a i / b i)

/-- `lpNorm<Infinity>` (eigenIntegration.h:112-121); `none` if some entry is not a finite number. -/
def normInf (v : Fin n → Option ℝ) : Option ℝ :=
  (List.ofFn v).foldr (fun e m => do let e ← e; let m ← m; pure (max |e| m)) (some 0)

/-- The error which the error checker of boost odeint (`default_error_checker::error`, with `rel_error` and the default factors 1)
computes for a step of length `dt` from state `x` with derivative `dx`, if `e` is the estimated error, with the operators above:
`norm_inf(abs(e) / (eAbs + eRel * (1 * abs(x) + 1 * |dt| * abs(dx))))`.  Not part of the repository. -/
def stepError (eigen33 : Bool) (eAbs eRel dt : ℝ) (e x dx : Fin n → ℝ) : Option ℝ :=
  normInf (divV (absV e) (scalarPlus eigen33 eAbs (fun i => eRel * (1 * absV x i + 1 * |dt| * absV dx i))))

/-- A step is accepted if the error is at most 1 (`controlled_runge_kutta::try_step` of boost odeint; not part of the repository).
Simplified: an error that is not a finite number does not count as accepted; what becomes of such a step depends on how
floating-point numbers compare. -/
def Accepted (eigen33 : Bool) (eAbs eRel dt : ℝ) (e x dx : Fin n → ℝ) : Prop :=
  ∃ m, stepError eigen33 eAbs eRel dt e x dx = some m ∧ m ≤ 1

end

end CT.Adaptive
