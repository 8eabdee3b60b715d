import Verif.Model.OpJacobian

/-!
# Operational-space models

Models `ct_rbd/include/ct/rbd/operationalSpace/rigid_body/OperationalModel.h` and
`OperationalModelBase.h`.  The sum over contact points is over a finite index type `c`.
-/

namespace CT.OpModel

open Matrix CT.OpJac

variable {m n r c : Type} [Fintype m] [DecidableEq m] [Fintype n] [DecidableEq n] [Fintype r]
  [DecidableEq r]

/-- The coefficients of a model `M a + C + G = Sᵀ τ + Σ Jcᵀ λ` (OperationalModelBase.h:105-112). -/
structure Coeffs (m r c : Type) where
  M : Matrix m m ℝ
  MInverse : Matrix m m ℝ
  C : m → ℝ
  G : m → ℝ
  S : Matrix r m ℝ
  Jc : c → Matrix (Fin 3) m ℝ

/-- `OperationalModel::update` (OperationalModel.h:52-72), after the full model has been updated to
`full`: `J`, `dJdt` are the task Jacobian and its derivative, `qd` the coordinate velocity,
`ldltInv A` is `A.ldlt().solve(Identity)`; `JdagerLDLT()` is called right after `updateState`, so it is
computed with the weight `full.MInverse`. -/
def update (ldltInv : Matrix m m ℝ → Matrix m m ℝ) (full : Coeffs n r c) (J dJdt : Matrix m n ℝ)
    (qd : n → ℝ) : Coeffs m r c :=
  let Jdager := full.MInverse * Jᵀ * ldltInv (J * full.MInverse * Jᵀ)
  let M := Jdagerᵀ * full.M * Jdager
  { M := M
    MInverse := ldltInv M
    C := Jdagerᵀ *ᵥ full.C - (M * dJdt) *ᵥ qd
    G := Jdagerᵀ *ᵥ full.G
    S := full.S * Jdager
    Jc := fun i => full.Jc i * Jdager }

/-- `getVelocities` with a Jacobian (OperationalModelBase.h:78-84). -/
def getVelocities (J : Matrix m n ℝ) (qd : n → ℝ) : m → ℝ := J *ᵥ qd

/-- `getAccelerations` with a Jacobian (OperationalModelBase.h:87-93). -/
def getAccelerations (J dJdt : Matrix m n ℝ) (qd qdd : n → ℝ) : m → ℝ := J *ᵥ qdd + dJdt *ᵥ qd

/-- The weight of `STransposeDager` (OperationalModel.h:87-99): the mass matrix computed first is
replaced by the identity; `none` stands for an argument without columns. -/
def weight {o : Type} [Fintype o] (ldltInv : Matrix o o ℝ → Matrix o o ℝ)
    (orthogonalSystemS : Option (Matrix r o ℝ)) : Matrix r r ℝ :=
  let W0 : Matrix r r ℝ := 1
  match orthogonalSystemS with
  | some O => W0 - W0 * O * ldltInv (Oᵀ * W0 * O) * Oᵀ * W0
  | none => W0

/-- `STransposeDager` (OperationalModel.h:79-105); `S` is the selection matrix of the operational
model. -/
def STransposeDager {o : Type} [Fintype o] (ldltInvO : Matrix o o ℝ → Matrix o o ℝ)
    (ldltInv : Matrix m m ℝ → Matrix m m ℝ) (S : Matrix r m ℝ)
    (orthogonalSystemS : Option (Matrix r o ℝ)) : Matrix r m ℝ :=
  let W := weight ldltInvO orthogonalSystemS
  W * S * ldltInv (Sᵀ * W * S)

end CT.OpModel
