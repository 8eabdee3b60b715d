import Verif.Model.Res
import Mathlib.LinearAlgebra.Matrix.NonsingularInverse
import Mathlib.Analysis.SpecialFunctions.Sqrt
import Mathlib.Data.Fintype.BigOperators

/-! # State estimation (`ct_optcon/include/ct/optcon/filter`)

Numbers are reals. A matrix inverse is Mathlib's, which is zero for a singular matrix (Eigen's result is then
unspecified); the theorems only use it for invertible matrices. -/

namespace CT.Filter

open Matrix

variable {n m p : Nat}

/-- `SystemModelBase` (SystemModelBase.h:21-49): dynamics and derivatives at state, control, step and time. -/
structure SysModel (n m : Nat) where
  dyn : (Fin n → ℝ) → (Fin m → ℝ) → ℝ → ℝ → Fin n → ℝ
  dx : (Fin n → ℝ) → (Fin m → ℝ) → ℝ → ℝ → Matrix (Fin n) (Fin n) ℝ
  dv : (Fin n → ℝ) → (Fin m → ℝ) → ℝ → ℝ → Matrix (Fin n) (Fin n) ℝ

/-- `LinearMeasurementModel` (LinearMeasurementModel.h:22-39, MeasurementModelBase.h:20-22): measurement and
derivatives at state and time. -/
structure MeasModel (n p : Nat) where
  h : (Fin n → ℝ) → ℝ → Fin p → ℝ
  dx : (Fin n → ℝ) → ℝ → Matrix (Fin p) (Fin n) ℝ
  dw : (Fin n → ℝ) → ℝ → Matrix (Fin p) (Fin p) ℝ

/-! ### Extended Kalman filter -/

/-- Members of `ExtendedKalmanFilter` and its base (ExtendedKalmanFilter.h:60-70, EstimatorBase.h:60-67). -/
structure Ekf (n m p : Nat) where
  f : SysModel n m
  h : MeasModel n p
  Q : Matrix (Fin n) (Fin n) ℝ
  R : Matrix (Fin p) (Fin p) ℝ
  x : Fin n → ℝ
  P : Matrix (Fin n) (Fin n) ℝ

/-- `predict` (ExtendedKalmanFilter-impl.h:33-51). -/
def Ekf.predict (s : Ekf n m p) (u : Fin m → ℝ) (dt t : ℝ) : Ekf n m p :=
  let F := s.f.dx s.x u dt t
  let V := s.f.dv s.x u dt t
  { s with
    P := F * s.P * Fᵀ + V * (dt • s.Q) * Vᵀ
    x := s.f.dyn s.x u dt t }

/-- The gain of `update` (ExtendedKalmanFilter-impl.h:58-64). -/
noncomputable def Ekf.gain (s : Ekf n m p) (t : ℝ) : Matrix (Fin n) (Fin p) ℝ :=
  s.P * (s.h.dx s.x t)ᵀ *
    (s.h.dx s.x t * s.P * (s.h.dx s.x t)ᵀ + s.h.dw s.x t * s.R * (s.h.dw s.x t)ᵀ)⁻¹

/-- `update` (ExtendedKalmanFilter-impl.h:54-73). The measurement function is called with its default time
argument 0 (line 67, MeasurementModelBase.h:22), the derivatives with the given time. -/
noncomputable def Ekf.update (s : Ekf n m p) (y : Fin p → ℝ) (t : ℝ) : Ekf n m p :=
  { s with
    x := s.x + s.gain t *ᵥ (y - s.h.h s.x 0)
    P := s.P - s.gain t * s.h.dx s.x t * s.P }

/-- Calls on a filter; `setEstimate`, `setSystemModel` and `setMeasurementModel` are those of the base class
(EstimatorBase.h:50-56). The step argument of `update` is not used by the code and omitted. -/
inductive EkfOp (n m p : Nat)
  | predict (u : Fin m → ℝ) (dt t : ℝ)
  | update (y : Fin p → ℝ) (t : ℝ)
  | setEstimate (x : Fin n → ℝ)
  | setSystemModel (f : SysModel n m)
  | setMeasurementModel (h : MeasModel n p)

noncomputable def Ekf.step (s : Ekf n m p) : EkfOp n m p → Ekf n m p
  | .predict u dt t => s.predict u dt t
  | .update y t => s.update y t
  | .setEstimate x => { s with x := x }
  | .setSystemModel f => { s with f := f }
  | .setMeasurementModel h => { s with h := h }

noncomputable def Ekf.run (s : Ekf n m p) (ops : List (EkfOp n m p)) : Ekf n m p := ops.foldl Ekf.step s

/-! ### Unscented Kalman filter -/

/-- Index of a sigma point: column 0, columns `1..n`, columns `n+1..2n`. -/
abbrev Sigma (n : Nat) := Option (Fin n ⊕ Fin n)

/-- What `computeWeights` stores; the two weight vectors are constant from the second entry on. -/
structure Weights where
  gamma : ℝ
  m0 : ℝ
  c0 : ℝ
  i : ℝ

/-- `sigmaWeights_m_` as a vector. -/
def Weights.mean (w : Weights) : Sigma n → ℝ
  | none => w.m0
  | some _ => w.i

/-- `sigmaWeights_c_` as a vector. -/
def Weights.cov (w : Weights) : Sigma n → ℝ
  | none => w.c0
  | some _ => w.i

/-- Members of `UnscentedKalmanFilter` (UnscentedKalmanFilter.h:155-163). Members no constructor initialises are
`none` until they are assigned. -/
structure Ukf (n m p : Nat) where
  f : SysModel n m
  h : MeasModel n p
  alpha : ℝ
  beta : ℝ
  kappa : ℝ
  weights : Option Weights
  sigma : Option (Matrix (Fin n) (Sigma n) ℝ)
  x : Fin n → ℝ
  P : Matrix (Fin n) (Fin n) ℝ

/-- Constructors (UnscentedKalmanFilter-impl.h:53-78). -/
def Ukf.new (f : SysModel n m) (h : MeasModel n p) (x0 : Fin n → ℝ) (alpha beta kappa : ℝ)
    (P0 : Matrix (Fin n) (Fin n) ℝ) : Ukf n m p :=
  { f := f, h := h, alpha := alpha, beta := beta, kappa := kappa, weights := none, sigma := none, x := x0, P := P0 }

/-- The numbers of `computeWeights` (UnscentedKalmanFilter-impl.h:211-239). -/
noncomputable def weightsOf (n : Nat) (alpha beta kappa : ℝ) : Weights :=
  let L : ℝ := n
  let lambda := alpha * alpha * (L + kappa) - L
  let m0 := lambda / (L + lambda)
  { gamma := Real.sqrt (L + lambda), m0 := m0, c0 := m0 + (1 - alpha * alpha + beta),
    i := 1 / (2 * alpha * alpha * (L + kappa)) }

/-- `computeWeights` (UnscentedKalmanFilter-impl.h:211-239); its assertions are inactive in release builds. It is
public and not called anywhere in the repository. -/
noncomputable def Ukf.computeWeights (s : Ukf n m p) : Ukf n m p :=
  { s with weights := some (weightsOf n s.alpha s.beta s.kappa) }

/-- The points of `computeSigmaPoints` (UnscentedKalmanFilter-impl.h:132-139). -/
def sigmaPoints (gamma : ℝ) (S : Matrix (Fin n) (Fin n) ℝ) (x : Fin n → ℝ) : Matrix (Fin n) (Sigma n) ℝ :=
  of fun i j => match j with
    | none => x i
    | some (.inl k) => gamma * S i k + x i
    | some (.inr k) => -gamma * S i k + x i

/-- `computePredictionFromSigmaPoints` (UnscentedKalmanFilter-impl.h:264-271). Its return type in the code is the
state vector, so the filter compiles only for equal state and output dimensions; the model does not need that. -/
def weightedMean {k : Nat} (w : Weights) (X : Matrix (Fin k) (Sigma n) ℝ) : Fin k → ℝ := X *ᵥ w.mean

/-- Columns minus a vector. -/
def centred {k : Nat} (X : Matrix (Fin k) (Sigma n) ℝ) (mean : Fin k → ℝ) : Matrix (Fin k) (Sigma n) ℝ :=
  of fun i j => X i j - mean i

/-- `computeCovarianceFromSigmaPoints` (UnscentedKalmanFilter-impl.h:146-157). -/
def covariance {k : Nat} (w : Weights) (mean : Fin k → ℝ) (X : Matrix (Fin k) (Sigma n) ℝ)
    (noise : Matrix (Fin k) (Fin k) ℝ) : Matrix (Fin k) (Fin k) ℝ :=
  (of fun i j => centred X mean i j * w.cov j) * (centred X mean)ᵀ + noise

/-- Apply a map to every sigma point (UnscentedKalmanFilter-impl.h:242-266). -/
def mapCols {k l : Nat} (g : (Fin k → ℝ) → Fin l → ℝ) (X : Matrix (Fin k) (Sigma n) ℝ) : Matrix (Fin l) (Sigma n) ℝ :=
  of fun i j => g (fun a => X a j) i

/-- `predict` (UnscentedKalmanFilter-impl.h:81-94); `chol` is the Cholesky factorisation, `none` its failure. The
"noise covariance" handed over is the derivative of the dynamics with respect to the noise (line 91). -/
noncomputable def Ukf.predict (chol : Matrix (Fin n) (Fin n) ℝ → Option (Matrix (Fin n) (Fin n) ℝ)) (s : Ukf n m p)
    (u : Fin m → ℝ) (dt t : ℝ) : Res (Ukf n m p) :=
  match chol s.P with
  | none => .exc
  | some S =>
    match s.weights with
    | none => .ub
    | some w =>
      let X := mapCols (fun x => s.f.dyn x u dt t) (sigmaPoints w.gamma S s.x)
      let x' := weightedMean w X
      .ok { s with
        sigma := some X
        x := x'
        P := covariance w x' X (s.f.dv x' u dt t) }

/-- Innovation covariance of `update` (UnscentedKalmanFilter-impl.h:103-109). -/
noncomputable def Ukf.innovation (s : Ukf n m p) (w : Weights) (X : Matrix (Fin n) (Sigma n) ℝ) (t : ℝ) :
    Matrix (Fin p) (Fin p) ℝ :=
  let Y := mapCols (fun x => s.h.h x t) X
  covariance w (weightedMean w Y) Y (s.h.dw s.x t)

/-- `computeKalmanGain` (UnscentedKalmanFilter-impl.h:160-173). -/
noncomputable def Ukf.gain (s : Ukf n m p) (w : Weights) (X : Matrix (Fin n) (Sigma n) ℝ) (t : ℝ) :
    Matrix (Fin n) (Fin p) ℝ :=
  let Y := mapCols (fun x => s.h.h x t) X
  (of fun i j => centred X s.x i j * w.cov j) * (centred Y (weightedMean w Y))ᵀ * (s.innovation w X t)⁻¹

/-- `update` (UnscentedKalmanFilter-impl.h:97-121): uses the sigma points left by the last `predict`. -/
noncomputable def Ukf.update (s : Ukf n m p) (z : Fin p → ℝ) (t : ℝ) : Res (Ukf n m p) :=
  match s.weights, s.sigma with
  | some w, some X =>
    let y := weightedMean w (mapCols (fun x => s.h.h x t) X)
    .ok { s with
      x := s.x + s.gain w X t *ᵥ (z - y)
      P := s.P - s.gain w X t * s.innovation w X t * (s.gain w X t)ᵀ }
  | _, _ => .ub

/-- Calls on the unscented filter other than `computeWeights`. -/
inductive UkfOp (n m p : Nat)
  | predict (u : Fin m → ℝ) (dt t : ℝ)
  | update (z : Fin p → ℝ) (t : ℝ)

noncomputable def Ukf.step (chol : Matrix (Fin n) (Fin n) ℝ → Option (Matrix (Fin n) (Fin n) ℝ)) (s : Ukf n m p) :
    UkfOp n m p → Res (Ukf n m p)
  | .predict u dt t => s.predict chol u dt t
  | .update z t => s.update z t

/-! ### Models -/

/-- `LTIMeasurementModel` (LTIMeasurementModel-impl.h:20-52). -/
def lti (C : Matrix (Fin p) (Fin n) ℝ) (W : Matrix (Fin p) (Fin p) ℝ) : MeasModel n p :=
  { h := fun x _ => C *ᵥ x, dx := fun _ _ => C, dw := fun _ _ => W }

/-- `CTSystemModel` (CTSystemModel-impl.h:31-66): `integrate x u t dt` is one step of the integrator with the
constant control, `sens x u k dt` the state matrix of `getAandB` for stage index `k`, i.e. linearised at time
`k * dt`. `int(t / dt)` truncates. -/
noncomputable def ctModel (integrate : (Fin n → ℝ) → (Fin m → ℝ) → ℝ → ℝ → Fin n → ℝ)
    (sens : (Fin n → ℝ) → (Fin m → ℝ) → ℤ → ℝ → Matrix (Fin n) (Fin n) ℝ) (dFdv : Matrix (Fin n) (Fin n) ℝ) :
    SysModel n m :=
  { dyn := fun x u dt t => integrate x u t dt
    dx := fun x u dt t => sens x u (if 0 ≤ t / dt then ⌊t / dt⌋ else ⌈t / dt⌉) dt
    dv := fun _ _ _ _ => dFdv }

/-- `InputDisturbedSystem::computeControlledDynamics` (InputDisturbedSystem-impl.h:33-52): augmented state is the
state followed by the disturbance. -/
def inputDisturbed (f : (Fin n → ℝ) → ℝ → (Fin m → ℝ) → Fin n → ℝ) (x : Fin n → ℝ) (d : Fin m → ℝ) (t : ℝ)
    (u : Fin m → ℝ) : (Fin n → ℝ) × (Fin m → ℝ) := (f x t (u + d), 0)

end CT.Filter
