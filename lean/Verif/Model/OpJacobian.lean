import Mathlib.Data.Matrix.Mul
import Mathlib.Data.Matrix.Diagonal
import Mathlib.Data.Real.Basic

/-!
# Operational-space Jacobians: right inverses, projectors and their caches

Models `ct_rbd/include/ct/rbd/robot/jacobian/OperationalJacobianBase.h`.  Scalars are real numbers (no
rounding).  The decompositions are those of the external library Eigen; they are parameters of the
class model (`Ext`), and what Eigen guarantees for them is stated by `Ldlt` and `SvdInverse` below.
-/

namespace CT.OpJac

open Matrix

variable {m n k : Type} [Fintype m] [DecidableEq m] [Fintype n] [DecidableEq n]

/-- What `A.ldlt()` of Eigen computes: `A = Pᵀ L D Lᵀ P` with a permutation `P`, a unit lower
triangular `L` and a diagonal `D`.  Only the invertibility of `C = Pᵀ L` is kept. -/
structure Ldlt (A : Matrix m m ℝ) where
  C : Matrix m m ℝ
  Cinv : Matrix m m ℝ
  d : m → ℝ
  inv : C * Cinv = 1
  eq : A = C * diagonal d * Cᵀ

/-- `ldlt().solve(B)` of Eigen: the diagonal is inverted where it is not zero, zero pivots give zeros
(`0⁻¹ = 0`). -/
noncomputable def Ldlt.solve {A : Matrix m m ℝ} (F : Ldlt A) (B : Matrix m k ℝ) : Matrix m k ℝ :=
  F.Cinvᵀ * (diagonal (fun i => (F.d i)⁻¹) * (F.Cinv * B))

/-- `G` is what `A.ldlt().solve(Identity)` returns. -/
def LdltInverse (A G : Matrix m m ℝ) : Prop := ∃ F : Ldlt A, G = F.solve 1

/-- The inverse computed from the thin singular value decomposition `A = U diag(s) Vᵀ`: singular
values up to `1e-9` are dropped (OperationalJacobianBase.h:88-92, ProjectedDynamics.h:234-238). -/
def SvdInverse (A : Matrix m n ℝ) (X : Matrix n m ℝ) : Prop :=
  ∃ (r : ℕ) (U : Matrix m (Fin r) ℝ) (V : Matrix n (Fin r) ℝ) (s : Fin r → ℝ),
    Uᵀ * U = 1 ∧ Vᵀ * V = 1 ∧ (∀ i, 0 ≤ s i) ∧ A = U * diagonal s * Vᵀ ∧
    X = V * diagonal (fun i => if s i > 1e-9 then (s i)⁻¹ else 0) * Uᵀ

/-- The pure virtual functions of the class (OperationalJacobianBase.h:139, 147) and the
decompositions of Eigen. -/
structure Ext (σ m n : Type) where
  jac : σ → Matrix m n ℝ
  djac : σ → Matrix m n ℝ
  ldltInv : Matrix m m ℝ → Matrix m m ℝ
  svdInv : Matrix m n ℝ → Matrix n m ℝ

/-- Data members (OperationalJacobianBase.h:151, 168-182).  Before the first evaluation the matrices
hold arbitrary values. -/
structure Obj (σ m n : Type) where
  JUpdated : Bool
  dJdtUpdated : Bool
  JdagerUpdated : Bool
  dJdagerdtUpdated : Bool
  PUpdated : Bool
  dPdtUpdated : Bool
  state : σ
  W : Matrix n n ℝ
  J : Matrix m n ℝ
  dJdt : Matrix m n ℝ
  Jdager : Matrix n m ℝ
  dJdagerdt : Matrix n m ℝ
  P : Matrix n n ℝ
  dPdt : Matrix n n ℝ

section
variable {σ : Type} (e : Ext σ m n)

omit [Fintype m] [DecidableEq m] [Fintype n] [DecidableEq n] in
/-- `resetUpdatedFlags` (OperationalJacobianBase.h:154-163).  The hook `resetUserUpdatedFlags` is empty
unless overridden (132). -/
def resetFlags (o : Obj σ m n) : Obj σ m n :=
  { o with JUpdated := false, dJdtUpdated := false, JdagerUpdated := false,
           dJdagerdtUpdated := false, PUpdated := false, dPdtUpdated := false }

omit [Fintype m] [DecidableEq m] [Fintype n] [DecidableEq n] in
/-- `updateState` (OperationalJacobianBase.h:41-46). -/
def updateState (o : Obj σ m n) (state : σ) (weighting : Matrix n n ℝ) : Obj σ m n :=
  { resetFlags o with state := state, W := weighting }

omit [Fintype m] [DecidableEq m] [Fintype n] [DecidableEq n] in
/-- `J()` (OperationalJacobianBase.h:49-57). -/
def getJ (o : Obj σ m n) : Obj σ m n × Matrix m n ℝ :=
  if o.JUpdated then (o, o.J)
  else
    let o := { o with JUpdated := true, J := e.jac o.state }
    (o, o.J)

omit [Fintype m] [DecidableEq m] [Fintype n] [DecidableEq n] in
/-- `dJdt()` (OperationalJacobianBase.h:60-68). -/
def getdJdt (o : Obj σ m n) : Obj σ m n × Matrix m n ℝ :=
  if o.dJdtUpdated then (o, o.dJdt)
  else
    let o := { o with dJdtUpdated := true, dJdt := e.djac o.state }
    (o, o.dJdt)

omit [Fintype m] [DecidableEq m] [DecidableEq n] in
/-- `JdagerLDLT()` (OperationalJacobianBase.h:71-80). -/
def getJdagerLDLT (o : Obj σ m n) : Obj σ m n × Matrix n m ℝ :=
  if o.JdagerUpdated then (o, o.Jdager)
  else
    let o := { o with JdagerUpdated := true }
    let (o, J) := getJ e o
    let o := { o with Jdager := o.W * Jᵀ * e.ldltInv (J * o.W * Jᵀ) }
    (o, o.Jdager)

omit [Fintype m] [DecidableEq m] [Fintype n] [DecidableEq n] in
/-- `JdagerSVD()` (OperationalJacobianBase.h:82-94): shares flag and result with `JdagerLDLT()`. -/
def getJdagerSVD (o : Obj σ m n) : Obj σ m n × Matrix n m ℝ :=
  if o.JdagerUpdated then (o, o.Jdager)
  else
    let o := { o with JdagerUpdated := true }
    let (o, J) := getJ e o
    let o := { o with Jdager := e.svdInv J }
    (o, o.Jdager)

omit [DecidableEq m] [DecidableEq n] in
/-- `dJdagerdt()` (OperationalJacobianBase.h:97-104): the test of the flag is commented out. -/
def getdJdagerdt (o : Obj σ m n) : Obj σ m n × Matrix n m ℝ :=
  let o := { o with dJdagerdtUpdated := true }
  let (o, X) := getJdagerLDLT e o
  let (o, dJ) := getdJdt e o
  let o := { o with dJdagerdt := -X * dJ * X }
  (o, o.dJdagerdt)

omit [DecidableEq m] in
/-- `P()` (OperationalJacobianBase.h:107-115). -/
def getP (o : Obj σ m n) : Obj σ m n × Matrix n n ℝ :=
  if o.PUpdated then (o, o.P)
  else
    let o := { o with PUpdated := true }
    let (o, X) := getJdagerLDLT e o
    let (o, J) := getJ e o
    let o := { o with P := 1 - X * J }
    (o, o.P)

omit [DecidableEq m] in
/-- `dPdt()` (OperationalJacobianBase.h:118-126). -/
def getdPdt (o : Obj σ m n) : Obj σ m n × Matrix n n ℝ :=
  if o.dPdtUpdated then (o, o.dPdt)
  else
    let o := { o with dPdtUpdated := true }
    let (o, X) := getJdagerLDLT e o
    let (o, dJ) := getdJdt e o
    let (o, P) := getP e o
    let o := { o with dPdt := -X * dJ * P }
    (o, o.dPdt)

/-- The public queries. -/
inductive Query
  | J | dJdt | JdagerLDLT | JdagerSVD | dJdagerdt | P | dPdt
deriving DecidableEq

/-- The answer to a query. -/
inductive Answer (m n : Type)
  | mn (M : Matrix m n ℝ)
  | nm (M : Matrix n m ℝ)
  | nn (M : Matrix n n ℝ)

omit [DecidableEq m] in
/-- One query. -/
def ask (o : Obj σ m n) : Query → Obj σ m n × Answer m n
  | .J => let r := getJ e o; (r.1, .mn r.2)
  | .dJdt => let r := getdJdt e o; (r.1, .mn r.2)
  | .JdagerLDLT => let r := getJdagerLDLT e o; (r.1, .nm r.2)
  | .JdagerSVD => let r := getJdagerSVD e o; (r.1, .nm r.2)
  | .dJdagerdt => let r := getdJdagerdt e o; (r.1, .nm r.2)
  | .P => let r := getP e o; (r.1, .nn r.2)
  | .dPdt => let r := getdPdt e o; (r.1, .nn r.2)

omit [DecidableEq m] in
/-- The object after a sequence of queries. -/
def askAll (o : Obj σ m n) (qs : List Query) : Obj σ m n := qs.foldl (fun o q => (ask e o q).1) o

end

end CT.OpJac
