import Verif.Model.Lqr
import Verif.Model.Actuator

/-!
# LQR controller around inverse dynamics torques

Models `ct_rbd/include/ct/rbd/robot/control/InfiniteHorizonLQRwithInverseDynamics.h` for a robot without actuator
states, on top of the models of `LQR::compute` and of the fixed base system.  Scalars are the reals.
-/

namespace CT.LqrId

open CT.Lqr CT.Actuator Matrix

variable {n e : ℕ} {W : Type}

/-- The members `stateSetpoint_`, `id_torques_` and `K_` (InfiniteHorizonLQRwithInverseDynamics.h:129-131). -/
@[ext] structure Ctrl (n : ℕ) where
  set : Fin (n + n) → ℝ
  tau : Fin n → ℝ
  K : Matrix (Fin n) (Fin (n + n)) ℝ

/-- The constructor from two systems (29-38): everything zero. -/
def Ctrl.new (n : ℕ) : Ctrl n := ⟨0, 0, 0⟩

/-- `computeControl` (58-63). -/
def Ctrl.control (c : Ctrl n) (x : Fin (n + n) → ℝ) : Fin n → ℝ := c.tau - c.K *ᵥ (x - c.set)

/-- The joint state in a state vector: the conversion to `JointState` (JointState.h:39) in the call of `FixBaseID`
(120). -/
def joints (x : Fin (n + n) → ℝ) : Robot.Joints ℝ n := ⟨fun i => x (Fin.castAdd n i), fun i => x (Fin.natAdd n i)⟩

/-- The part of `LinearSystem` used (LinearSystem.h:80, 91), at time zero, the default argument. -/
structure LinSys (n : ℕ) where
  A : (Fin (n + n) → ℝ) → (Fin n → ℝ) → Matrix (Fin (n + n)) (Fin (n + n)) ℝ
  B : (Fin (n + n) → ℝ) → (Fin n → ℝ) → Matrix (Fin (n + n)) (Fin n) ℝ

/-- What `solveSchurIterative` uses from Eigen: approximate equality and the solution of linear equations. -/
structure Eig (n : ℕ) where
  approx : Matrix (Fin n ⊕ Fin n) (Fin n ⊕ Fin n) ℝ → Matrix (Fin n ⊕ Fin n) (Fin n ⊕ Fin n) ℝ → Bool
  lu : Matrix (Fin n ⊕ Fin n) (Fin n) ℝ → Matrix (Fin n ⊕ Fin n) (Fin n) ℝ → Matrix (Fin n) (Fin n) ℝ

/-- `LQR::compute` with `RisDiagonal` false and the iterative solver (LQR-impl.hpp:16-32, CARE-impl.hpp:51-77, with
100000 iterations, CARE.hpp:84).  The local variable `P` is not initialised: if the solver fails, `junk` is what
happens to be there. -/
noncomputable def compute {k m : ℕ} (eg : Eig k) (junk : Matrix (Fin k) (Fin k) ℝ) (Q : Matrix (Fin k) (Fin k) ℝ) (R : Matrix (Fin m) (Fin m) ℝ)
    (A : Matrix (Fin k) (Fin k) ℝ) (B : Matrix (Fin k) (Fin m) ℝ) : Bool × Matrix (Fin m) (Fin k) ℝ :=
  let Rinv := rInverse false R
  match solveSchurIterative eg.approx eg.lu 100000 (hamiltonian Q A B Rinv) with
  | some P => (true, lqrGain Rinv B P)
  | none => (false, lqrGain Rinv B junk)

/-- `designInfiniteHorizonLQR` (67-85) with `computeIDTorques` (114-121): the return value and the controller
afterwards.  The caller's gain receives `K` as well.  The overload without it (91-98) has the same effect. -/
noncomputable def Ctrl.design (rb : Rob n e W) (lin : LinSys n) (eg : Eig (n + n)) (junk : Matrix (Fin (n + n)) (Fin (n + n)) ℝ)
    (_c : Ctrl n) (set : Fin (n + n) → ℝ) (Q : Matrix (Fin (n + n)) (Fin (n + n)) ℝ) (R : Matrix (Fin n) (Fin n) ℝ) : Bool × Ctrl n :=
  let tau := rb.idTorques (joints set)
  let r := compute eg junk Q R (lin.A set tau) (lin.B set tau)
  (r.1, ⟨set, tau, r.2⟩)

end CT.LqrId
