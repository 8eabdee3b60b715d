import Verif.Model.Res
import Mathlib.Data.Matrix.Mul
import Mathlib.Data.Matrix.Block
import Mathlib.Data.Matrix.ColumnRowPartitioned
import Mathlib.Data.Real.Basic
import Mathlib.LinearAlgebra.Matrix.NonsingularInverse

/-!
# LQR design: algebraic Riccati equations

Models `ct_optcon/include/ct/optcon/lqr/`: the continuous-time solver (`riccati/CARE-impl.hpp`,
`LQR-impl.hpp`), the discrete recursion (`riccati/DynamicRiccatiEquation.hpp`, `riccati/DARE-impl.hpp`) and the
finite-horizon design (`FHDTLQR-impl.hpp`). Scalars are real numbers.
-/

namespace CT.Lqr

open Matrix

variable {n m : Nat}

/-! ### Continuous time -/

/-- Inverse of the control weight as used by `CARE::solve` (CARE-impl.hpp:60-68). -/
noncomputable def rInverse (RisDiagonal : Bool) (R : Matrix (Fin m) (Fin m) ℝ) : Matrix (Fin m) (Fin m) ℝ :=
  if RisDiagonal then diagonal fun i => (R i i)⁻¹ else R⁻¹

/-- The Hamiltonian matrix (CARE-impl.hpp:70-71). -/
def hamiltonian (Q A : Matrix (Fin n) (Fin n) ℝ) (B : Matrix (Fin n) (Fin m) ℝ) (Rinv : Matrix (Fin m) (Fin m) ℝ) :
    Matrix (Fin n ⊕ Fin n) (Fin n ⊕ Fin n) ℝ :=
  fromBlocks A (-(B * Rinv * Bᵀ)) (-Q) (-Aᵀ)

/-- Body of the loop of `solveSchurIterative` (CARE-impl.hpp:113-121). -/
noncomputable def signStep (W : Matrix (Fin n ⊕ Fin n) (Fin n ⊕ Fin n) ℝ) :
    Matrix (Fin n ⊕ Fin n) (Fin n ⊕ Fin n) ℝ := W - (1 / 2 : ℝ) • (W - W⁻¹)

/-- The loop of `solveSchurIterative` (CARE-impl.hpp:107-124). `approx` is Eigen's `isApprox(_, epsilon)`;
`fuel` iterations remain before `iterations > maxIterations`; `none` is the return value false. -/
noncomputable def signLoop (approx : Matrix (Fin n ⊕ Fin n) (Fin n ⊕ Fin n) ℝ → Matrix (Fin n ⊕ Fin n) (Fin n ⊕ Fin n) ℝ → Bool) :
    Nat → Matrix (Fin n ⊕ Fin n) (Fin n ⊕ Fin n) ℝ → Option (Matrix (Fin n ⊕ Fin n) (Fin n ⊕ Fin n) ℝ)
  | 0, _ => none
  | fuel + 1, W => if approx (signStep W) W then some (signStep W) else signLoop approx fuel (signStep W)

/-- `solveSchurIterative` (CARE-impl.hpp:97-146). `lu` is `FullPivLU::solve`. -/
noncomputable def solveSchurIterative
    (approx : Matrix (Fin n ⊕ Fin n) (Fin n ⊕ Fin n) ℝ → Matrix (Fin n ⊕ Fin n) (Fin n ⊕ Fin n) ℝ → Bool)
    (lu : Matrix (Fin n ⊕ Fin n) (Fin n) ℝ → Matrix (Fin n ⊕ Fin n) (Fin n) ℝ → Matrix (Fin n) (Fin n) ℝ)
    (maxIterations : Nat) (M : Matrix (Fin n ⊕ Fin n) (Fin n ⊕ Fin n) ℝ) : Option (Matrix (Fin n) (Fin n) ℝ) :=
  (signLoop approx (maxIterations + 1) M).map fun W =>
    let U := fromRows W.toBlocks₁₂ (W.toBlocks₂₂ + 1)
    let V := fromRows (W.toBlocks₁₁ + 1) W.toBlocks₂₁
    lu U (-V)

/-- `solveSchurDirect` (CARE-impl.hpp:149-207) after the reordering: `U` is the matrix of Schur vectors. -/
noncomputable def solveSchurDirect (U : Matrix (Fin n ⊕ Fin n) (Fin n ⊕ Fin n) ℝ) : Matrix (Fin n) (Fin n) ℝ :=
  U.toBlocks₂₁ * U.toBlocks₁₁⁻¹

/-- `LQR::compute` (LQR-impl.hpp:16-32): the gain. -/
def lqrGain (Rinv : Matrix (Fin m) (Fin m) ℝ) (B : Matrix (Fin n) (Fin m) ℝ) (P : Matrix (Fin n) (Fin n) ℝ) :
    Matrix (Fin m) (Fin n) ℝ := Rinv * (Bᵀ * P)

/-! ### Discrete time -/

/-- `iterateNaive` (DynamicRiccatiEquation.hpp:45-66): the new `P` and the gain. -/
noncomputable def iterateNaive (Q : Matrix (Fin n) (Fin n) ℝ) (R : Matrix (Fin m) (Fin m) ℝ)
    (A : Matrix (Fin n) (Fin n) ℝ) (B : Matrix (Fin n) (Fin m) ℝ) (P : Matrix (Fin n) (Fin n) ℝ) :
    Matrix (Fin n) (Fin n) ℝ × Matrix (Fin m) (Fin n) ℝ :=
  let H := R + Bᵀ * P * B
  let K := (-1 : ℝ) • (H⁻¹ * Bᵀ * P * A)
  let P' := Q + Aᵀ * P * A - Kᵀ * H * K
  ((1 / 2 : ℝ) • (P' + P'ᵀ), K)

/-- `iterateRobust` (DynamicRiccatiEquation.hpp:69-109). `eig` is the eigenvalue solver (real parts), `eps` the
member `epsilon_` (1e-5), which is always added to the eigenvalues. -/
noncomputable def iterateRobust (eig : Matrix (Fin m) (Fin m) ℝ → Matrix (Fin m) (Fin m) ℝ × (Fin m → ℝ)) (eps : ℝ)
    (Q : Matrix (Fin n) (Fin n) ℝ) (R : Matrix (Fin m) (Fin m) ℝ)
    (A : Matrix (Fin n) (Fin n) ℝ) (B : Matrix (Fin n) (Fin m) ℝ) (P : Matrix (Fin n) (Fin n) ℝ) :
    Matrix (Fin n) (Fin n) ℝ × Matrix (Fin m) (Fin n) ℝ :=
  let H0 := R + Bᵀ * P * B
  let H1 := (1 / 2 : ℝ) • (H0 + H0ᵀ)
  let V := (eig H1).1
  let d : Fin m → ℝ := fun i => max ((eig H1).2 i) 0 + eps
  let H := V * diagonal d * Vᵀ
  let Hinv := V * diagonal (fun i => (d i)⁻¹) * Vᵀ
  let K := (-1 : ℝ) • (Hinv * (Bᵀ * P * A))
  let P' := Q + Aᵀ * P * A - Kᵀ * H * K
  ((1 / 2 : ℝ) • (P' + P'ᵀ), K)

/-- The loop of `DARE::computeSteadyStateRiccatiMatrix` (DARE-impl.hpp:46-57): `step` is the call of
`iterateRobust`, `norm` the maximal absolute coefficient. The loop is entered while `diff >= eps` and
iterations remain. -/
noncomputable def dareLoop (step : Matrix (Fin n) (Fin n) ℝ → Matrix (Fin n) (Fin n) ℝ × Matrix (Fin m) (Fin n) ℝ)
    (norm : Matrix (Fin n) (Fin n) ℝ → ℝ) (eps : ℝ) :
    Nat → Matrix (Fin n) (Fin n) ℝ → Matrix (Fin m) (Fin n) ℝ → ℝ →
      Matrix (Fin n) (Fin n) ℝ × Matrix (Fin m) (Fin n) ℝ × ℝ
  | 0, P, K, diff => (P, K, diff)
  | it + 1, P, K, diff =>
    if eps ≤ diff then dareLoop step norm eps it (step P).1 (step P).2 (norm ((step P).1 - P)) else (P, K, diff)

/-- `DARE::computeSteadyStateRiccatiMatrix` (DARE-impl.hpp:31-68): initial guess `P`, caller's gain variable
`K`. Throws if the last change is not below `eps`. -/
noncomputable def dare (step : Matrix (Fin n) (Fin n) ℝ → Matrix (Fin n) (Fin n) ℝ × Matrix (Fin m) (Fin n) ℝ)
    (norm : Matrix (Fin n) (Fin n) ℝ → ℝ) (eps : ℝ) (maxIter : Nat) (P : Matrix (Fin n) (Fin n) ℝ)
    (K : Matrix (Fin m) (Fin n) ℝ) : Res (Matrix (Fin n) (Fin n) ℝ × Matrix (Fin m) (Fin n) ℝ) :=
  let r := dareLoop step norm eps maxIter P K 1
  if eps ≤ r.2.2 then .exc else .ok (r.1, r.2.1)

/-- The backward loop of `FHDTLQR::solve` (FHDTLQR-impl.hpp:116-155): cost-to-go after the stages `k..N-1`
have been processed, where `j = N - k`. `Q` and `R` are the weights of each stage, i.e. the second derivatives
of the cost function times `dt` (FHDTLQR-impl.hpp:118-122); the mixed derivative is not used. -/
noncomputable def fhP (eig : Matrix (Fin m) (Fin m) ℝ → Matrix (Fin m) (Fin m) ℝ × (Fin m → ℝ)) (eps : ℝ)
    (Q : Nat → Matrix (Fin n) (Fin n) ℝ) (R : Nat → Matrix (Fin m) (Fin m) ℝ)
    (A : Nat → Matrix (Fin n) (Fin n) ℝ) (B : Nat → Matrix (Fin n) (Fin m) ℝ) (PN : Matrix (Fin n) (Fin n) ℝ)
    (N : Nat) : Nat → Matrix (Fin n) (Fin n) ℝ
  | 0 => PN
  | j + 1 =>
    (iterateRobust eig eps (Q (N - (j + 1))) (R (N - (j + 1))) (A (N - (j + 1))) (B (N - (j + 1)))
      (fhP eig eps Q R A B PN N j)).1

/-- The gain `K[k]` stored by the same loop (FHDTLQR-impl.hpp:154). -/
noncomputable def fhK (eig : Matrix (Fin m) (Fin m) ℝ → Matrix (Fin m) (Fin m) ℝ × (Fin m → ℝ)) (eps : ℝ)
    (Q : Nat → Matrix (Fin n) (Fin n) ℝ) (R : Nat → Matrix (Fin m) (Fin m) ℝ)
    (A : Nat → Matrix (Fin n) (Fin n) ℝ) (B : Nat → Matrix (Fin n) (Fin m) ℝ) (PN : Matrix (Fin n) (Fin n) ℝ)
    (N k : Nat) : Matrix (Fin m) (Fin n) ℝ :=
  (iterateRobust eig eps (Q k) (R k) (A k) (B k) (fhP eig eps Q R A B PN N (N - (k + 1)))).2

end CT.Lqr
