import Verif.Model.Res
import Mathlib.LinearAlgebra.Matrix.Rank
import Mathlib.Algebra.Order.Field.Basic

/-!
# Linear time-invariant systems: controllability, observability, Gramians

Model of `/repo/ct_core/include/ct/core/systems/continuous_time/linear/LTISystem.h` 128-190 and
`/repo/ct_core/include/ct/core/systems/discrete_time/linear/DiscreteLTISystem.h` 68-230 (the
functions are textually the same in both).  A block expression reaching outside its matrix is
undefined behaviour (an assertion failure in debug builds).  Simplification: `FullPivLU::rank` is the
exact rank.
-/

namespace CT.LTI

variable {K : Type} [Field K]

/-- Matrix storage with its dimensions. -/
structure Store (K : Type) where
  rows : ℕ
  cols : ℕ
  data : ℕ → ℕ → K

/-- `M.block<h, w>(r, c)` as a value. -/
def Store.readBlock (S : Store K) (h w r c : ℕ) : Res (Matrix (Fin h) (Fin w) K) :=
  if r + h ≤ S.rows ∧ c + w ≤ S.cols then Res.ok (Matrix.of fun i j => S.data (r + i) (c + j)) else Res.ub

/-- `M.block<h, w>(r, c) = V`. -/
def Store.writeBlock (S : Store K) {h w : ℕ} (r c : ℕ) (V : Matrix (Fin h) (Fin w) K) : Res (Store K) :=
  if r + h ≤ S.rows ∧ c + w ≤ S.cols then
    Res.ok { S with data := (fun i j =>
      if hij : (r ≤ i ∧ i - r < h) ∧ (c ≤ j ∧ j - c < w) then V ⟨i - r, hij.1.2⟩ ⟨j - c, hij.2.2⟩
      else S.data i j) }
  else Res.ub

/-- `computeControllabilityMatrix` (LTISystem.h:128-137, DiscreteLTISystem.h:110-119); `CO0` is the
caller's `n × (n m)` matrix. -/
def computeControllabilityMatrix {n m : ℕ} (A : Matrix (Fin n) (Fin n) K) (B : Matrix (Fin n) (Fin m) K)
    (CO0 : ℕ → ℕ → K) : Res (Store K) := do
  let CO ← (Store.mk n (n * m) CO0).writeBlock 0 0 B
  (List.range' 1 (n - 1)).foldlM (fun CO i => do
    let blk ← CO.readBlock n m 0 ((i - 1) * m)
    CO.writeBlock 0 (i * m) (A * blk)) CO

/-- `computeObservabilityMatrix` (LTISystem.h:161-170, DiscreteLTISystem.h:173-182); `O0` is the
caller's matrix, which has `n` rows and `n²` columns. -/
def computeObservabilityMatrix {n : ℕ} (A C : Matrix (Fin n) (Fin n) K) (O0 : ℕ → ℕ → K) : Res (Store K) := do
  let O ← (Store.mk n (n * n) O0).writeBlock 0 0 C
  (List.range' 1 (n - 1)).foldlM (fun O i => do
    let blk ← O.readBlock n n 0 ((i - 1) * n)
    O.writeBlock (i * n) 0 (blk * A)) O

/-- `isControllable` (LTISystem.h:145-152, DiscreteLTISystem.h:158-165). -/
noncomputable def isControllable {n m : ℕ} (A : Matrix (Fin n) (Fin n) K) (B : Matrix (Fin n) (Fin m) K)
    (CO0 : ℕ → ℕ → K) : Res Bool := do
  let CO ← computeControllabilityMatrix A B CO0
  pure (decide ((Matrix.of fun (i : Fin n) (j : Fin (n * m)) => CO.data i j).rank = n))

/-- `isObservable` (LTISystem.h:178-185, DiscreteLTISystem.h:221-228). -/
noncomputable def isObservable {n : ℕ} (A C : Matrix (Fin n) (Fin n) K) (O0 : ℕ → ℕ → K) : Res Bool := do
  let O ← computeObservabilityMatrix A C O0
  pure (decide ((Matrix.of fun (i : Fin n) (j : Fin (n * n)) => O.data i j).rank = n))

/-- `propagateControlledDynamics` (DiscreteLTISystem.h:78-84). -/
def propagate {n m : ℕ} (A : Matrix (Fin n) (Fin n) K) (B : Matrix (Fin n) (Fin m) K) (x : Fin n → K)
    (u : Fin m → K) : Fin n → K := A.mulVec x + B.mulVec u

/-- `lpNorm<1>()`. -/
def norm1 {n : ℕ} [LinearOrder K] (M : Matrix (Fin n) (Fin n) K) : K := ∑ i, ∑ j, |M i j|

/-- Loop of `computeControllabilityGramian` (DiscreteLTISystem.h:127-151); first argument: iterations
left until `max_iters`. -/
def ctrlGramLoop {n m : ℕ} [LinearOrder K] (A : Matrix (Fin n) (Fin n) K) (B : Matrix (Fin n) (Fin m) K) (tol : K) :
    ℕ → Matrix (Fin n) (Fin n) K → Matrix (Fin n) (Fin n) K → Matrix (Fin n) (Fin n) K → Matrix (Fin n) (Fin n) K
  | 0, _, CG, _ => CG
  | k + 1, CGprev, _, Aprev =>
      let CG := CGprev + Aprev * B * B.transpose * Aprev.transpose
      if norm1 (CGprev - CG) < tol then CG else ctrlGramLoop A B tol k CG CG (Aprev * A)

/-- `computeControllabilityGramian` (127-151). -/
def computeControllabilityGramian {n m : ℕ} [LinearOrder K] (A : Matrix (Fin n) (Fin n) K)
    (B : Matrix (Fin n) (Fin m) K) (maxIters : ℕ) (tol : K) : Matrix (Fin n) (Fin n) K :=
  ctrlGramLoop A B tol maxIters 0 0 1

/-- Loop of `computeObservabilityGramian` (190-214). -/
def obsGramLoop {n : ℕ} [LinearOrder K] (A C : Matrix (Fin n) (Fin n) K) (tol : K) :
    ℕ → Matrix (Fin n) (Fin n) K → Matrix (Fin n) (Fin n) K → Matrix (Fin n) (Fin n) K → Matrix (Fin n) (Fin n) K
  | 0, _, OG, _ => OG
  | k + 1, OGprev, _, Aprev =>
      let OG := OGprev + Aprev.transpose * C.transpose * C * Aprev
      if norm1 (OGprev - OG) < tol then OG else obsGramLoop A C tol k OG OG (Aprev * A)

/-- `computeObservabilityGramian` (190-214). -/
def computeObservabilityGramian {n : ℕ} [LinearOrder K] (A C : Matrix (Fin n) (Fin n) K) (maxIters : ℕ) (tol : K) :
    Matrix (Fin n) (Fin n) K := obsGramLoop A C tol maxIters 0 0 1

end CT.LTI
