import Verif.Model.Filter
import Verif.Model.Lqr
import Verif.Model.Integration

/-!
# Further parts of `ct_optcon/include/ct/optcon/filter`

The controller of a disturbed system and the correction of the steady-state Kalman filter.
-/

namespace CT.Filter

open Matrix

variable {n m p : Nat}

/-- `DisturbedSystemController::computeControl` (DisturbedSystemController-impl.h:33-46): the nominal controller
sees the first part of the augmented state; without one an exception is thrown. -/
def disturbedControl (c : Option ((Fin n → ℝ) → ℝ → Fin m → ℝ)) (s : (Fin n → ℝ) × (Fin m → ℝ)) (t : ℝ) :
    Res (Fin m → ℝ) :=
  match c with
  | none => .exc
  | some k => .ok (k s.1 t)

/-- `ControlledSystem::computeDynamics` (ct_core ControlledSystem.h: computeDynamics) of an input-disturbed system
with a nominal controller: control from the controller, then the controlled dynamics
(InputDisturbedSystem-impl.h:33-52). -/
def disturbedDynamics (f : (Fin n → ℝ) → ℝ → (Fin m → ℝ) → Fin n → ℝ) (k : (Fin n → ℝ) → ℝ → Fin m → ℝ)
    (s : (Fin n → ℝ) × (Fin m → ℝ)) (t : ℝ) : (Fin n → ℝ) × (Fin m → ℝ) :=
  inputDisturbed f s.1 s.2 t (k s.1 t)

/-- Members of `SteadyStateKalmanFilter` used by `update` (SteadyStateKalmanFilter.h:63-68). `A` is the matrix
stored by `predict`, which itself is not modelled: it calls the system model with three arguments
(SteadyStateKalmanFilter-impl.h:41-42) where the interface has four (SystemModelBase.h:33-42), so that the class
template cannot be instantiated as it stands. -/
structure Ssf (n p : Nat) where
  h : MeasModel n p
  Q : Matrix (Fin n) (Fin n) ℝ
  R : Matrix (Fin p) (Fin p) ℝ
  A : Matrix (Fin n) (Fin n) ℝ
  P : Matrix (Fin n) (Fin n) ℝ
  x : Fin n → ℝ
  maxIter : Nat

/-- `update` (SteadyStateKalmanFilter-impl.h:47-66): the Riccati equation is solved for the transposed system and
the gain applied with its sign reversed. `eig`, `epsH`, `norm` are those of the Riccati solver (see `Lqr.lean`),
`K0` is the uninitialised gain. -/
noncomputable def Ssf.update (eig : Matrix (Fin p) (Fin p) ℝ → Matrix (Fin p) (Fin p) ℝ × (Fin p → ℝ)) (epsH : ℝ)
    (norm : Matrix (Fin n) (Fin n) ℝ → ℝ) (K0 : Matrix (Fin p) (Fin n) ℝ) (s : Ssf n p) (y : Fin p → ℝ) (t : ℝ) :
    Res (Ssf n p) := do
  let H := s.h.dx s.x t
  let (P, K) ← CT.Lqr.dare (CT.Lqr.iterateRobust eig epsH s.Q s.R s.Aᵀ Hᵀ) norm (1 / 1000000) s.maxIter s.P K0
  pure { s with P := P, x := s.x - Kᵀ *ᵥ (y - s.h.h s.x t) }

end CT.Filter
