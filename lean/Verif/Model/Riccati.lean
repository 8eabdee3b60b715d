import Verif.Model.Res
import Mathlib.Data.Matrix.Mul
import Mathlib.Data.Real.Basic
import Mathlib.LinearAlgebra.Matrix.NonsingularInverse

/-!
# The Riccati solver for linear-quadratic problems

Models `ct_optcon/include/ct/optcon/solver/lqp/GNRiccatiSolver-impl.hpp`, the problem data of
`problem/LQOCProblem.hpp` and the two-phase use of the solver in `nloc/NLOCBackendBase-impl.hpp`. Scalars
are real numbers.
-/

namespace CT.Riccati

open Matrix

variable {n m : Nat}

/-- The data of an unconstrained `LQOCProblem` (problem/LQOCProblem.hpp, LQOCProblem-impl.hpp:57-87):
number of stages `K_` and the arrays. The arrays are functions of the index here; their sizes
(`N` or `N + 1`) are accounted for by the bound check in `solveSingleStage`. -/
structure Problem (n m : Nat) where
  N : Nat
  A : Nat → Matrix (Fin n) (Fin n) ℝ
  B : Nat → Matrix (Fin n) (Fin m) ℝ
  b : Nat → Fin n → ℝ
  P : Nat → Matrix (Fin m) (Fin n) ℝ
  q : Nat → ℝ
  qv : Nat → Fin n → ℝ
  Q : Nat → Matrix (Fin n) (Fin n) ℝ
  rv : Nat → Fin m → ℝ
  R : Nat → Matrix (Fin m) (Fin m) ℝ

/-- The settings read by the solver (NLOptConSettings) and the eigenvalue solver it calls: `eig H` are the
eigenvectors and eigenvalues `Eigen::SelfAdjointEigenSolver` returns for `H`. -/
structure Settings (m : Nat) where
  fixedHessianCorrection : Bool
  epsilon : ℝ
  eig : Matrix (Fin m) (Fin m) ℝ → Matrix (Fin m) (Fin m) ℝ × (Fin m → ℝ)

/-- The arrays of the solver (GNRiccatiSolver.hpp:82-92, LQOCSolver.hpp). -/
structure Sol (n m : Nat) where
  S : Nat → Matrix (Fin n) (Fin n) ℝ
  sv : Nat → Fin n → ℝ
  G : Nat → Matrix (Fin m) (Fin n) ℝ
  gv : Nat → Fin m → ℝ
  H : Nat → Matrix (Fin m) (Fin m) ℝ
  Hi : Nat → Matrix (Fin m) (Fin m) ℝ
  HiInv : Nat → Matrix (Fin m) (Fin m) ℝ
  L : Nat → Matrix (Fin m) (Fin n) ℝ
  lv : Nat → Fin m → ℝ

/-- `selfadjointView<Eigen::Lower>()`: the symmetric matrix with the given lower triangle. -/
def lowerView {k : Nat} (M : Matrix (Fin k) (Fin k) ℝ) : Matrix (Fin k) (Fin k) ℝ :=
  Matrix.of fun (i : Fin k) (j : Fin k) => if j ≤ i then M i j else M j i

/-- `initializeCostToGo` (GNRiccatiSolver-impl.hpp:132-143). -/
def initializeCostToGo (p : Problem n m) (s : Sol n m) : Sol n m :=
  { s with S := Function.update s.S p.N (p.Q p.N), sv := Function.update s.sv p.N (p.qv p.N) }

/-- The corrected Hessian and the negative of its inverse (GNRiccatiSolver-impl.hpp:181-188, 221-222 and
232-253). `llt().solve(Identity)` is the inverse of the matrix whose lower triangle is given. -/
noncomputable def correct (c : Settings m) (H : Matrix (Fin m) (Fin m) ℝ) :
    Matrix (Fin m) (Fin m) ℝ × Matrix (Fin m) (Fin m) ℝ :=
  if c.fixedHessianCorrection then
    let Hi := if (1 : ℝ) / 10 ^ 10 < c.epsilon then H + c.epsilon • (1 : Matrix (Fin m) (Fin m) ℝ) else H
    (Hi, lowerView (-(lowerView Hi)⁻¹))
  else
    let V := (c.eig H).1
    let d : Fin m → ℝ := fun i => max ((c.eig H).2 i) c.epsilon
    (V * diagonal d * Vᵀ, V * diagonal (fun i => -1 * (d i)⁻¹) * Vᵀ)

/-- `designController` (GNRiccatiSolver-impl.hpp:165-260). -/
noncomputable def designController (c : Settings m) (p : Problem n m) (k : Nat) (s : Sol n m) : Sol n m :=
  let gv := p.rv k + (p.B k)ᵀ *ᵥ s.sv (k + 1) + ((p.B k)ᵀ * lowerView (s.S (k + 1))) *ᵥ p.b k
  let G := p.P k + (p.B k)ᵀ * lowerView (s.S (k + 1)) * p.A k
  let H := p.R k + (p.B k)ᵀ * lowerView (s.S (k + 1)) * p.B k
  let Hi := (correct c H).1
  let HiInv := (correct c H).2
  { s with
    gv := Function.update s.gv k gv
    G := Function.update s.G k G
    H := Function.update s.H k H
    Hi := Function.update s.Hi k Hi
    HiInv := Function.update s.HiInv k HiInv
    L := Function.update s.L k (HiInv * G)
    lv := Function.update s.lv k (HiInv *ᵥ gv) }

/-- `computeCostToGo` (GNRiccatiSolver-impl.hpp:147-161). -/
noncomputable def computeCostToGo (p : Problem n m) (k : Nat) (s : Sol n m) : Sol n m :=
  let M := p.Q k + (p.A k)ᵀ * s.S (k + 1) * p.A k - (s.L k)ᵀ * s.Hi k * s.L k
  { s with
    S := Function.update s.S k ((1 / 2 : ℝ) • (M + Mᵀ))
    sv := Function.update s.sv k
      (p.qv k + (p.A k)ᵀ *ᵥ s.sv (k + 1) + ((p.A k)ᵀ * s.S (k + 1)) *ᵥ p.b k + (s.G k)ᵀ *ᵥ s.lv k) }

/-- `solveSingleStage` (GNRiccatiSolver-impl.hpp:36-45). A stage index outside the arrays is undefined. -/
noncomputable def solveSingleStage (c : Settings m) (p : Problem n m) (k : Nat) (s : Sol n m) : Res (Sol n m) :=
  if p.N ≤ k then .ub
  else
    let s := if k + 1 = p.N then initializeCostToGo p s else s
    let s := designController c p k s
    .ok (if 0 < k then computeCostToGo p k s else s)

/-- The loop `for (int i = hi - 1; i >= lo; i--) solveSingleStage(i)`. -/
noncomputable def sweep (c : Settings m) (p : Problem n m) (hi lo : Nat) (s : Sol n m) : Res (Sol n m) :=
  ((List.range hi).drop lo).reverse.foldlM (fun s k => solveSingleStage c p k s) s

/-- `solve` (GNRiccatiSolver-impl.hpp:28-32). -/
noncomputable def solve (c : Settings m) (p : Problem n m) (s : Sol n m) : Res (Sol n m) := sweep c p p.N 0 s

/-- `prepareSolveLQProblem` with the Riccati solver (NLOCBackendBase-impl.hpp:1280-1300). -/
noncomputable def prepareSolve (c : Settings m) (p : Problem n m) (startIndex : Nat) (s : Sol n m) :
    Res (Sol n m) := sweep c p p.N startIndex s

/-- `finishSolveLQProblem` with the Riccati solver (NLOCBackendBase-impl.hpp:1304-1324), without the
forward pass. -/
noncomputable def finishSolve (c : Settings m) (p : Problem n m) (endIndex : Nat) (s : Sol n m) :
    Res (Sol n m) := sweep c p (endIndex + 1) 0 s

/-- `computeStatesAndControls` (GNRiccatiSolver-impl.hpp:56-70): the state array. -/
def xSol (p : Problem n m) (s : Sol n m) : Nat → Fin n → ℝ
  | 0 => 0
  | k + 1 => p.A k *ᵥ xSol p s k + p.B k *ᵥ (s.lv k + s.L k *ᵥ xSol p s k) + p.b k

/-- `computeStatesAndControls` (GNRiccatiSolver-impl.hpp:56-70): the control array. -/
def uSol (p : Problem n m) (s : Sol n m) (k : Nat) : Fin m → ℝ := s.lv k + s.L k *ᵥ xSol p s k

end CT.Riccati
