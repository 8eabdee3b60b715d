import Verif.Model.Lqr
import Verif.Model.Res
import Mathlib.Algebra.BigOperators.Group.Finset.Basic

/-!
# The continuous-time regulator

`ct_optcon/include/ct/optcon/lqr/riccati/CARE-impl.hpp` with `CT_USE_LAPACK` and
`ct_optcon/include/ct/optcon/lqr/LQR-impl.hpp`.  Numbers are reals.  The Schur decomposition of Eigen and the
reordering of LAPACK are parameters.  Indices of the `2n × 2n` matrices are `Fin (n + n)`.
-/

namespace CT.Lqr

open Matrix

variable {n m : ℕ}

/-- What `Eigen::RealSchur::compute` leaves: nothing if `info() != Success`, else `matrixU()` and `matrixT()`. -/
abbrev SchurFn (N : ℕ) := Matrix (Fin N) (Fin N) ℝ → Option (Matrix (Fin N) (Fin N) ℝ × Matrix (Fin N) (Fin N) ℝ)

/-- What `dtrsen_` leaves: `U`, `T`, `MS`, `INFO`. -/
structure Reordered (N : ℕ) where
  U : Matrix (Fin N) (Fin N) ℝ
  T : Matrix (Fin N) (Fin N) ℝ
  MS : ℕ
  INFO : Int

/-- `dtrsen_("N", "V", SELECT, N, T, N, U, …)`; condition numbers are not computed and work space is left out. -/
abbrev ReorderFn (N : ℕ) := (Fin N → Bool) → Matrix (Fin N) (Fin N) ℝ → Matrix (Fin N) (Fin N) ℝ → Reordered N

/-- The loop that fills `SELECT` (CARE-impl.hpp:173-187) from index `i` on. -/
noncomputable def selectFrom {N : ℕ} (T : Matrix (Fin N) (Fin N) ℝ) (i : ℕ) (sel : Fin N → Bool) : Fin N → Bool :=
  if h : i < N then
    if h1 : i + 1 < N then
      if |T ⟨i + 1, h1⟩ ⟨i, h⟩| < 1e-12 then
        selectFrom T (i + 1) (Function.update sel ⟨i, h⟩ (decide (T ⟨i, h⟩ ⟨i, h⟩ < 0)))
      else
        let s := decide ((T ⟨i, h⟩ ⟨i, h⟩ + T ⟨i + 1, h1⟩ ⟨i + 1, h1⟩) / 2 < 0)
        selectFrom T (i + 2) (Function.update (Function.update sel ⟨i, h⟩ s) ⟨i + 1, h1⟩ s)
    else Function.update sel ⟨i, h⟩ (decide (T ⟨i, h⟩ ⟨i, h⟩ < 0))
  else sel
termination_by N - i

/-- `solveSchurDirect` (CARE-impl.hpp:149-208): success and `P`.  `junk` is what the memory of `SELECT` contained.
The inverse of a singular block is infinite in the code and zero here. -/
noncomputable def careDirect (schur : SchurFn (n + n)) (dtrsen : ReorderFn (n + n)) (junk : Fin (n + n) → Bool)
    (M : Matrix (Fin n ⊕ Fin n) (Fin n ⊕ Fin n) ℝ) : Res (Bool × Matrix (Fin n) (Fin n) ℝ) :=
  match schur (reindex finSumFinEquiv finSumFinEquiv M) with
  | none => .exc
  | some (U, T) =>
    let r := dtrsen (selectFrom T 0 junk) U T
    .ok (decide (r.INFO = 0), solveSchurDirect (reindex finSumFinEquiv.symm finSumFinEquiv.symm r.U))

/-- `LQR::compute` (LQR-impl.hpp:16-32) with `solveRiccatiIteratively = false`, through `CARE::solve`
(CARE-impl.hpp:51-77): success and gain. -/
noncomputable def lqrCompute (schur : SchurFn (n + n)) (dtrsen : ReorderFn (n + n)) (junk : Fin (n + n) → Bool)
    (Q : Matrix (Fin n) (Fin n) ℝ) (R : Matrix (Fin m) (Fin m) ℝ) (A : Matrix (Fin n) (Fin n) ℝ)
    (B : Matrix (Fin n) (Fin m) ℝ) (RisDiagonal : Bool) : Res (Bool × Matrix (Fin m) (Fin n) ℝ) := do
  let Rinv := rInverse RisDiagonal R
  let r ← careDirect schur dtrsen junk (hamiltonian Q A B Rinv)
  pure (r.1, lqrGain Rinv B r.2)

/-- Eigen's `isApprox` for two matrices with precision `prec`: the Frobenius norm of the difference is at most `prec`
times the smaller Frobenius norm. -/
noncomputable def isApprox {N : Type} [Fintype N] (prec : ℝ) (X Y : Matrix N N ℝ) : Bool :=
  decide (∑ i, ∑ j, (X i j - Y i j) ^ 2 ≤ prec ^ 2 * min (∑ i, ∑ j, X i j ^ 2) (∑ i, ∑ j, Y i j ^ 2))

/-- `LQR::compute` (LQR-impl.hpp:16-32) with `solveRiccatiIteratively = true`, through `CARE::solve`
(CARE-impl.hpp:51-77) and `solveSchurIterative` (CARE-impl.hpp:97-146): success and gain.  `epsilon` and
`maxIterations` have the defaults 1e-6 and 100000 (CARE.hpp:81-84).  `junk` is what the memory of the local variable
`P` contained; it is used if the iteration fails.  The inverse of a singular matrix is infinite in the code and zero
here. -/
noncomputable def lqrIterative
    (lu : Matrix (Fin n ⊕ Fin n) (Fin n) ℝ → Matrix (Fin n ⊕ Fin n) (Fin n) ℝ → Matrix (Fin n) (Fin n) ℝ)
    (epsilon : ℝ) (maxIterations : ℕ) (junk : Matrix (Fin n) (Fin n) ℝ)
    (Q : Matrix (Fin n) (Fin n) ℝ) (R : Matrix (Fin m) (Fin m) ℝ) (A : Matrix (Fin n) (Fin n) ℝ)
    (B : Matrix (Fin n) (Fin m) ℝ) (RisDiagonal : Bool) : Bool × Matrix (Fin m) (Fin n) ℝ :=
  let Rinv := rInverse RisDiagonal R
  match solveSchurIterative (isApprox epsilon) lu maxIterations (hamiltonian Q A B Rinv) with
  | some P => (true, lqrGain Rinv B P)
  | none => (false, lqrGain Rinv B junk)

end CT.Lqr
