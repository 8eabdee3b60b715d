import Verif.Model.Lqr

/-!
# Finite-horizon LQR design on arrays

Models `FHDTLQR` (ct_optcon/include/ct/optcon/lqr/FHDTLQR-impl.hpp): the two `designController`
overloads, `linearizeModel` and `solve` with its argument and weight checks. Scalars are real numbers.
-/

namespace CT.Lqr

open Matrix

open scoped Classical in section

variable {n m : Nat}

/-- The second derivatives of the quadratic cost function at a state, control and time
(`setCurrentStateAndControl` followed by `stateSecondDerivativeIntermediate`,
`controlSecondDerivativeIntermediate`, `stateSecondDerivativeTerminal`; FHDTLQR-impl.hpp:107-108, 122-126). -/
structure FhCost (n m : Nat) where
  xx : (Fin n → ℝ) → (Fin m → ℝ) → ℝ → Matrix (Fin n) (Fin n) ℝ
  uu : (Fin n → ℝ) → (Fin m → ℝ) → ℝ → Matrix (Fin m) (Fin m) ℝ
  xxN : (Fin n → ℝ) → (Fin m → ℝ) → ℝ → Matrix (Fin n) (Fin n) ℝ

/-- What the design object is built from: the eigenvalue solver and `epsilon_` of the Riccati equation, the
eigenvalues used by the check of the terminal weight, the cost function. -/
structure FhObj (n m : Nat) where
  eig : Matrix (Fin m) (Fin m) ℝ → Matrix (Fin m) (Fin m) ℝ × (Fin m → ℝ)
  eps : ℝ
  eigN : Matrix (Fin n) (Fin n) ℝ → Fin n → ℝ
  cost : FhCost n m

/-- The weight checks of one stage that throw (FHDTLQR-impl.hpp:130-144). The warnings about non-diagonal
weights are printed only and left out. -/
def stageBad (Q : Matrix (Fin n) (Fin n) ℝ) (R : Matrix (Fin m) (Fin m) ℝ) : Prop :=
  (∃ i j, Q i j < 0) ∨ (∃ i j, R i j < 0) ∨ ∃ i, R i i ≤ 0

/-- The loop `for (int i = N - 1; i >= 0; i--)` (FHDTLQR-impl.hpp:120-157) for the stages `i-1, …, 0`, from
the cost-to-go `P`: the gains `K[0], …, K[i-1]`. The `int` counter is an unbounded number here. -/
noncomputable def fhLoop (o : FhObj n m) (dt : ℝ) (checks : Bool) (X : List (Fin n → ℝ)) (U : List (Fin m → ℝ))
    (A : List (Matrix (Fin n) (Fin n) ℝ)) (B : List (Matrix (Fin n) (Fin m) ℝ)) :
    Nat → Matrix (Fin n) (Fin n) ℝ → Res (List (Matrix (Fin m) (Fin n) ℝ))
  | 0, _ => .ok []
  | i + 1, P => do
    let x ← idx X i
    let u ← idx U i
    let Q := dt • o.cost.xx x u (i * dt)
    let R := dt • o.cost.uu x u (i * dt)
    if checks ∧ stageBad Q R then .exc
    else do
      let Ai ← idx A i
      let Bi ← idx B i
      let r := iterateRobust o.eig o.eps Q R Ai Bi P
      let Ks ← fhLoop o dt checks X U A B i r.1
      .ok (Ks ++ [r.2])

/-- `FHDTLQR::solve` (FHDTLQR-impl.hpp:73-158); `N` is a `size_t`, so `N + 1` wraps around. -/
noncomputable def fhSolve (o : FhObj n m) (X : List (Fin n → ℝ)) (U : List (Fin m → ℝ))
    (A : List (Matrix (Fin n) (Fin n) ℝ)) (B : List (Matrix (Fin n) (Fin m) ℝ)) (N : Nat) (dt : ℝ)
    (checks : Bool) : Res (List (Matrix (Fin m) (Fin n) ℝ)) :=
  if X.length ≠ (N + 1) % 2 ^ 64 then .exc
  else if U.length ≠ N then .exc
  else if A.length ≠ N then .exc
  else if B.length ≠ N then .exc
  else do
    let xN ← idx X N
    let P := o.cost.xxN xN 0 (dt * N)
    if checks ∧ ∃ i, o.eigN P i < 0 then .exc
    else fhLoop o dt checks X U A B N P

/-- `x_trajectory.size() - 1` in `size_t` arithmetic. -/
def fhStages {α : Type} (X : List α) : Nat := (X.length + (2 ^ 64 - 1)) % 2 ^ 64

/-- `designController` with given linearisations (FHDTLQR-impl.hpp:23-34). -/
noncomputable def fhDesign (o : FhObj n m) (X : List (Fin n → ℝ)) (U : List (Fin m → ℝ))
    (A : List (Matrix (Fin n) (Fin n) ℝ)) (B : List (Matrix (Fin n) (Fin m) ℝ)) (dt : ℝ) (checks : Bool) :
    Res (List (Matrix (Fin m) (Fin n) ℝ)) :=
  fhSolve o X U A B (fhStages X) dt checks

/-- `linearizeModel` (FHDTLQR-impl.hpp:55-71): `dX`, `dU` are `getDerivativeState` and
`getDerivativeControl` of the linear system. `A.resize(2^64 - 1)`, for an empty trajectory, throws. -/
noncomputable def fhLinearize (dX : (Fin n → ℝ) → (Fin m → ℝ) → Matrix (Fin n) (Fin n) ℝ)
    (dU : (Fin n → ℝ) → (Fin m → ℝ) → Matrix (Fin n) (Fin m) ℝ) (X : List (Fin n → ℝ)) (U : List (Fin m → ℝ))
    (N : Nat) (dt : ℝ) : Res (List (Matrix (Fin n) (Fin n) ℝ × Matrix (Fin n) (Fin m) ℝ)) :=
  if N = 2 ^ 64 - 1 then .exc
  else (List.range N).mapM fun i => do
    let x ← idx X i
    let u ← idx U i
    .ok (1 + dt • dX x u, dt • dU x u)

/-- `designController` with a linear system (FHDTLQR-impl.hpp:37-52). -/
noncomputable def fhDesignLin (o : FhObj n m) (dX : (Fin n → ℝ) → (Fin m → ℝ) → Matrix (Fin n) (Fin n) ℝ)
    (dU : (Fin n → ℝ) → (Fin m → ℝ) → Matrix (Fin n) (Fin m) ℝ) (X : List (Fin n → ℝ)) (U : List (Fin m → ℝ))
    (dt : ℝ) (checks : Bool) : Res (List (Matrix (Fin m) (Fin n) ℝ)) := do
  let AB ← fhLinearize dX dU X U (fhStages X) dt
  fhSolve o X U (AB.map Prod.fst) (AB.map Prod.snd) (fhStages X) dt checks

end

end CT.Lqr
