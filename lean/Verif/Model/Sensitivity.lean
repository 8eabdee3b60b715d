import Verif.Model.Res
import Verif.Model.Integration
import Mathlib.LinearAlgebra.Matrix.NonsingularInverse
import Mathlib.Data.Matrix.ColumnRowPartitioned
import Mathlib.Analysis.Normed.Algebra.MatrixExponential

/-!
# Sensitivities of discretised dynamics

Models `ct_core/include/ct/core/integration/sensitivity/SensitivityApproximation.h` and
`SensitivityIntegrator.h`, together with the substep recorder
(`integration/EventHandlers/SubstepRecorder.h`). Index types `ι` (state) and `κ` (control) are
arbitrary finite types; for symplectic systems the state index is the disjoint union of position
and velocity indices. Matrix inversion by QR is exact inversion.
-/

namespace CT.Sens

open Matrix

variable {ι κ K : Type} [Fintype ι] [DecidableEq ι] [Fintype κ] [DecidableEq κ]

/-- `LinearSystem::getDerivativeState/getDerivativeControl` (LinearSystem.h:83-97): the
continuous-time Jacobians at state, control and time. -/
structure LinSys (ι κ K : Type) where
  dA : (ι → K) → (κ → K) → K → Matrix ι ι K
  dB : (ι → K) → (κ → K) → K → Matrix ι κ K

section Approx
variable [Field K]

/-- `forwardEuler` (SensitivityApproximation.h:179-195). -/
def forwardEuler (ls : LinSys ι κ K) (dt : K) (x : ι → K) (u : κ → K) (n : ℕ) :
    Matrix ι ι K × Matrix ι κ K :=
  (1 + dt • ls.dA x u (n * dt), dt • ls.dB x u (n * dt))

/-- `backwardEuler` (SensitivityApproximation.h:197-217) as called by `getAandB` (132) with `n + 1`:
the Jacobians are evaluated at the *start* state and the end time. -/
noncomputable def backwardEuler (ls : LinSys ι κ K) (dt : K) (x : ι → K) (u : κ → K) (n : ℕ) :
    Matrix ι ι K × Matrix ι κ K :=
  let Ac := ls.dA x u ((n + 1 : ℕ) * dt)
  let Bc := ls.dB x u ((n + 1 : ℕ) * dt)
  let A := (1 - dt • Ac)⁻¹
  (A, (dt • A) * Bc)

/-- Case `TUSTIN` of `getAandB` (SensitivityApproximation.h:140-166). -/
noncomputable def tustin (ls : LinSys ι κ K) (dt : K) (x xNext : ι → K) (u : κ → K) (n : ℕ) :
    Matrix ι ι K × Matrix ι κ K :=
  let AcFront := dt • ls.dA x u (n * dt)
  let BcFront := ls.dB x u (n * dt)
  let AcBack := dt • ls.dA xNext u ((n + 1 : ℕ) * dt)
  let aNewInv := (1 - AcBack)⁻¹
  (aNewInv * (1 + AcFront), (dt • aNewInv) * BcFront)

end Approx

/-- `matrixExponential` (SensitivityApproximation.h:220-235); `.exp()` is Eigen's matrix
exponential, taken to be exact. -/
noncomputable def matrixExponential (ls : LinSys ι κ ℝ) (dt : ℝ) (x : ι → ℝ) (u : κ → ℝ) (n : ℕ) :
    Matrix ι ι ℝ × Matrix ι κ ℝ :=
  let Ac := ls.dA x u (n * dt)
  let Bc := ls.dB x u (n * dt)
  let A := NormedSpace.exp (dt • Ac)
  (A, Ac⁻¹ * (A - 1) * Bc)

section Symplectic
variable {P V : Type} [Fintype P] [DecidableEq P] [Fintype V] [DecidableEq V] [Field K]

/-- `getSymplecticEulerApproximation` (SensitivityApproximation.h:309-345). -/
def symplecticApprox (dt : K) (Ac1 Ac2 : Matrix (P ⊕ V) (P ⊕ V) K) (Bc1 Bc2 : Matrix (P ⊕ V) κ K) :
    Matrix (P ⊕ V) (P ⊕ V) K × Matrix (P ⊕ V) κ K :=
  let A11 := Ac1.toBlocks₁₁
  let A12 := Ac1.toBlocks₁₂
  let B1 : Matrix P κ K := Bc1.toRows₁
  let A21 := Ac2.toBlocks₂₁
  let A22 := Ac2.toBlocks₂₂
  let B2 : Matrix V κ K := Bc2.toRows₂
  (fromBlocks (1 + dt • A11) (dt • A12) (dt • (A21 * (1 + dt • A11))) (1 + dt • (A22 + (dt • A21) * A12)),
   fromRows (dt • B1) (dt • (B2 + (dt • A21) * B1)))

/-- `symplecticEuler` (SensitivityApproximation.h:248-270). -/
def symplecticEuler (ls : LinSys (P ⊕ V) κ K) (dt : K) (x : P ⊕ V → K) (u : κ → K)
    (xNext : P ⊕ V → K) (n : ℕ) : Matrix (P ⊕ V) (P ⊕ V) K × Matrix (P ⊕ V) κ K :=
  -- lines 258-259
  let xInterm : P ⊕ V → K := Sum.elim (fun p => xNext (Sum.inl p)) (fun v => x (Sum.inr v))
  symplecticApprox dt (ls.dA x u (n * dt)) (ls.dA xInterm u (n * dt)) (ls.dB x u (n * dt))
    (ls.dB xInterm u (n * dt))

/-- `getSymplecticAandB` (SensitivityIntegrator.h:297-345). -/
def symplecticAB (dt : K) (Ac1 Ac2 : Matrix (P ⊕ V) (P ⊕ V) K) (Bc1 Bc2 : Matrix (P ⊕ V) κ K) :
    Matrix (P ⊕ V) (P ⊕ V) K × Matrix (P ⊕ V) κ K :=
  let A11 := Ac1.toBlocks₁₁
  let A12 := Ac1.toBlocks₁₂
  let B1 : Matrix P κ K := Bc1.toRows₁
  let A21 := Ac2.toBlocks₂₁
  let A22 := Ac2.toBlocks₂₂
  let B2 : Matrix V κ K := Bc2.toRows₂
  (fromBlocks A11 A12 (A21 * (1 + dt • A11)) (A22 + (dt • A21) * A12),
   fromRows B1 (B2 + (dt • A21) * B1))

end Symplectic

/-! ## Sensitivity integrator -/

section Integrator
variable [Field K]

/-- Steppers supported by `setStepper` (SensitivityIntegrator.h:79-108) for non-symplectic
integration. -/
inductive Kind where
  | euler
  | rk4
  deriving DecidableEq

/-- The matrix `[A B]` being integrated. -/
abbrev AB (ι κ K : Type) := Matrix ι ι K × Matrix ι κ K

/-- `dFdxDot_` with `integrateSensitivities` (SensitivityIntegrator.h:228-238, 242-294) for
`timeVarying_ == true` and the constant controller, whose `getDerivativeU0` is the identity
(ConstantController-impl.h:70-75); `s` is the value of `substep_`, the recorded arrays are read
with `operator[]`. -/
def rhs (ls : LinSys ι κ K) (xs : List (ι → K)) (us : List (κ → K)) (s : ℕ) (t : K) (m : AB ι κ K) :
    Res (AB ι κ K) := do
  let x ← idx xs s
  let u ← idx us s
  pure (ls.dA x u t * m.1, ls.dA x u t * m.2 + ls.dB x u t * (1 : Matrix κ κ K))

/-- `do_step` of the two steppers (SteppersCT.h:88-95, 114-126) with a right-hand side that also
depends on the number of earlier calls; returns the new matrix and the new counter. -/
def doStep (k : Kind) (g : ℕ → K → AB ι κ K → Res (AB ι κ K)) (s : ℕ) (m : AB ι κ K) (t dt : K) :
    Res (AB ι κ K × ℕ) :=
  match k with
  | .euler => do
      let d ← g s t m
      pure (m + dt • d, s + 1)
  | .rk4 => do
      let h : K := (1 / 2) * dt
      let k1 ← g s t m
      let k2 ← g (s + 1) (t + h) (m + h • k1)
      let k3 ← g (s + 2) (t + h) (m + h • k2)
      let k4 ← g (s + 3) (t + dt) (m + dt • k3)
      pure (m + ((1 / 6) * dt) • (k1 + (2 : K) • k2 + (2 : K) • k3 + k4), s + 4)

/-- Loop of `integrateSensitivity` (SensitivityIntegrator.h:145-148): every sub-step is made with
the same time `k * dt`. -/
def sensLoop (kd : Kind) (g : ℕ → K → AB ι κ K → Res (AB ι κ K)) (t dt : K) :
    ℕ → ℕ → AB ι κ K → Res (AB ι κ K)
  | 0, _, m => .ok m
  | n + 1, s, m => do
      let (m', s') ← doStep kd g s m t dt
      sensLoop kd g t dt n s' m'

/-- `getAandB`/`integrateSensitivity` (SensitivityIntegrator.h:134-152, 163-204) for
`timeVarying_ == true`. `dt` is the simulation step `dt_`, `k` the stage, `N` the number of
sub-steps, `xs`, `us` the recorded sub-step arrays of stage `k`. -/
def integrateSensitivity (kd : Kind) (ls : LinSys ι κ K) (dt : K) (k N : ℕ) (xs : List (ι → K))
    (us : List (κ → K)) : Res (AB ι κ K) :=
  sensLoop kd (rhs ls xs us) (k * dt) dt N 0 (1, 0)

/-- `dFdxDot_` for `timeVarying_ == false` (SensitivityIntegrator.h:242-261, 287-293): the recorded arrays
are still read, the matrices are constant. -/
def rhsConst (A : Matrix ι ι K) (B : Matrix ι κ K) (xs : List (ι → K)) (us : List (κ → K)) (s : ℕ) (_t : K)
    (m : AB ι κ K) : Res (AB ι κ K) := do
  let _ ← idx xs s
  let _ ← idx us s
  pure (A * m.1, A * m.2 + B * (1 : Matrix κ κ K))

/-- `getAandB`/`integrateSensitivity` (SensitivityIntegrator.h:134-152, 163-204) for
`timeVarying_ == false`: the Jacobians are taken once, at the start of the stage (197-201). -/
def integrateSensitivityConst (kd : Kind) (ls : LinSys ι κ K) (dt : K) (x : ι → K) (u : κ → K) (k N : ℕ)
    (xs : List (ι → K)) (us : List (κ → K)) : Res (AB ι κ K) :=
  sensLoop kd (rhsConst (ls.dA x u (k * dt)) (ls.dB x u (k * dt)) xs us) (k * dt) dt N 0 (1, 0)

/-- One step of the plant with the same stepper, held control `u`. -/
def plantStep (kd : Kind) (f : (ι → K) → (κ → K) → K → (ι → K)) (u : κ → K) :
    (ι → K) → K → K → (ι → K) :=
  match kd with
  | .euler => Integration.eulerStep (fun x t => f x u t)
  | .rk4 => Integration.rk4Step (fun x t => f x u t)

/-- States recorded by the sub-step recorder during one step: `systemFunction_` reports the state
of every evaluation of the dynamics (Integrator-impl.h:186-192, SubstepRecorder.h:52-57). -/
def stageStates (kd : Kind) (f : (ι → K) → (κ → K) → K → (ι → K)) (u : κ → K) (x : ι → K) (t dt : K) :
    List (ι → K) :=
  match kd with
  | .euler => [x]
  | .rk4 =>
      let h : K := (1 / 2) * dt
      let k1 := f x u t
      let k2 := f (x + h • k1) u (t + h)
      let k3 := f (x + h • k2) u (t + h)
      [x, x + h • k1, x + h • k2, x + dt • k3]

/-- States recorded during `N` steps. -/
def recorded (kd : Kind) (f : (ι → K) → (κ → K) → K → (ι → K)) (u : κ → K) (dt : K) :
    ℕ → (ι → K) → K → List (ι → K)
  | 0, _, _ => []
  | n + 1, x, t => stageStates kd f u x t dt ++ recorded kd f u dt n (plantStep kd f u x t dt) (t + dt)

end Integrator

section SymplecticIntegrator
variable {P V : Type} [Fintype P] [DecidableEq P] [Fintype V] [DecidableEq V] [Field K]

/-- One symplectic Euler step of the dynamics `f` with held control (IntegratorSymplectic-impl.h:
71-79 with SymplecticSystem.h:89-96, where the full dynamics stacks the position and velocity
derivative; see `Model/Symplectic.lean` for the stepper itself). -/
def symStep (f : (P ⊕ V → K) → (κ → K) → (P ⊕ V → K)) (u : κ → K) (dt : K) (x : P ⊕ V → K) :
    P ⊕ V → K :=
  let xi : P ⊕ V → K :=
    Sum.elim (fun p => x (Sum.inl p) + dt * f x u (Sum.inl p)) (fun v => x (Sum.inr v))
  Sum.elim (fun p => xi (Sum.inl p)) (fun v => x (Sum.inr v) + dt * f xi u (Sum.inr v))

/-- States recorded by the sub-step recorder during `N` symplectic steps: `observeInternal` is called
*after* the step with the new state (IntegratorSymplectic-impl.h:77). -/
def recordedSym (f : (P ⊕ V → K) → (κ → K) → (P ⊕ V → K)) (u : κ → K) (dt : K) :
    ℕ → (P ⊕ V → K) → List (P ⊕ V → K)
  | 0, _ => []
  | n + 1, x => symStep f u dt x :: recordedSym f u dt n (symStep f u dt x)

/-- `dFdxDot_` for `symplectic_ == true` (SensitivityIntegrator.h:262-275): the next state is the next
recorded one, or the end state `xEnd` passed to `getAandB` for the last sub-step. -/
def rhsSym (ls : LinSys (P ⊕ V) κ K) (dt : K) (xs : List (P ⊕ V → K)) (us : List (κ → K))
    (xEnd : P ⊕ V → K) (s : ℕ) (t : K) (m : AB (P ⊕ V) κ K) : Res (AB (P ⊕ V) κ K) := do
  let x ← idx xs s
  let u ← idx us s
  let xNext := (xs[s + 1]?).getD xEnd
  let xInterm : P ⊕ V → K := Sum.elim (fun p => xNext (Sum.inl p)) (fun v => x (Sum.inr v))
  let ab := symplecticAB dt (ls.dA x u t) (ls.dA xInterm u t) (ls.dB x u t) (ls.dB xInterm u t)
  pure (ab.1 * m.1, ab.1 * m.2 + ab.2 * (1 : Matrix κ κ K))

/-- `getAandB` with the stepper `EULER_SYM` (SensitivityIntegrator.h:81-88, 134-152, 163-204): the
sensitivity matrix itself is advanced by explicit Euler. -/
def integrateSensitivitySym (ls : LinSys (P ⊕ V) κ K) (dt : K) (k N : ℕ) (xs : List (P ⊕ V → K))
    (us : List (κ → K)) (xEnd : P ⊕ V → K) : Res (AB (P ⊕ V) κ K) :=
  sensLoop .euler (rhsSym ls dt xs us xEnd) (k * dt) dt N 0 (1, 0)

end SymplecticIntegrator

end CT.Sens
