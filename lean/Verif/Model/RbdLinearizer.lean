import Verif.Model.FloatingSystem
import Verif.Model.NumDiff
import Mathlib.Data.Real.Basic

/-!
# Linearizer of rigid body systems

Models `ct_rbd/include/ct/rbd/systems/linear/RbdLinearizer.h`, its base class
`ct_core/include/ct/core/systems/continuous_time/linear/SystemLinearizer.h` and
`ct_rbd/include/ct/rbd/robot/control/SelectionMatrix-impl.h`.  Scalars are the reals.  A matrix of
`STATE_DIM = 2 H` rows is indexed by `Fin (H + H)`.
-/

namespace CT.RbdLin

open Matrix FrameJac FloatSys

/-! ### Blocks and the selection matrix -/

/-- `A.block<p, q>(r, c) = B`. -/
def setBlock {a b p q : ℕ} (A : Matrix (Fin a) (Fin b) ℝ) (r c : ℕ) (B : Matrix (Fin p) (Fin q) ℝ) :
    Matrix (Fin a) (Fin b) ℝ := fun i j =>
  if h : (r ≤ i.val ∧ i.val < r + p) ∧ (c ≤ j.val ∧ j.val < c + q) then
    B ⟨i.val - r, by omega⟩ ⟨j.val - c, by omega⟩
  else A i j

/-- `SelectionMatrix(floatingBase)` with `setIdentity` (SelectionMatrix-impl.h:19-52): identity in the bottom
right corner of `c × (s - 6)` or `c × c` of a `c × s` matrix. -/
def selection (c s : ℕ) (floatingBase : Bool) : Res (Matrix (Fin c) (Fin s) ℝ) :=
  let corner (k : ℕ) : Matrix (Fin c) (Fin s) ℝ := setBlock 0 0 (s - k) (Matrix.of fun (i : Fin c) (j : Fin k) => if i.val = j.val then (1 : ℝ) else 0)
  if 6 ≤ s then .ok (if floatingBase then corner (s - 6) else corner c)
  else if floatingBase then .exc
  else .ok (corner c)

/-! ### Generated Jacobians -/

/-- `JacobianOfRotationMultiplyVector` (RbdLinearizer.h:178-223), temporaries named as there. -/
noncomputable def jacRotVec (theta vector : V3) : M3 :=
  let t2 := Real.cos (theta 0)
  let t3 := Real.sin (theta 2)
  let t4 := Real.cos (theta 2)
  let t5 := Real.sin (theta 0)
  let t6 := Real.sin (theta 1)
  let t7 := Real.cos (theta 1)
  let t8 := t4 * t5
  let t9 := t2 * t3 * t6
  let t10 := t8 + t9
  let t11 := t2 * t4
  let t12 := t11 - t3 * t5 * t6
  let t13 := t6 * vector 0
  let t14 := t2 * t7 * vector 2
  let t15 := t13 + t14 - t5 * t7 * vector 1
  let t16 := t2 * t3
  let t17 := t4 * t5 * t6
  let t18 := t16 + t17
  let t19 := t3 * t5
  let t20 := t19 - t2 * t4 * t6
  !![t18 * vector 2 - t20 * vector 1, -t4 * t15, t10 * vector 2 + t12 * vector 1 - t3 * t7 * vector 0;
     -t10 * vector 1 + t12 * vector 2, t3 * t15, -t18 * vector 1 - t20 * vector 2 - t4 * t7 * vector 0;
     -t7 * (t2 * vector 1 + t5 * vector 2), t7 * vector 0 - t2 * t6 * vector 2 + t5 * t6 * vector 1, 0]

/-- The entries `y[0]`, …, `y[17]` written by `jacobianOfAngularVelocityMapping` (RbdLinearizer.h:236-283);
`v[8]` is assigned twice, its second value is `v8'`. -/
noncomputable def jacAngData (e w : V3) : Fin 18 → ℝ :=
  let x0 := e 0
  let x1 := e 1
  let x2 := e 2
  let x3 := w 0
  let x4 := w 1
  let _x5 := w 2
  let y9 := Real.sin x2
  let y10 := Real.cos x2
  let v0 := Real.cos x1
  let v1 := 1 / v0
  let y3 := v1 * y10
  let v2 := Real.sin x1
  let y1 := 0 - (0 - (0 - x4 * y9 + x3 * y10) * 1 / v0 * v1) * v2
  let v3 := Real.sin x2
  let v4 := 0 - v1
  let y4 := v4 * y9
  let v5 := y10
  let y2 := 0 - x3 * v1 * v3 + x4 * v4 * v5
  let y8 := 0 - x4 * v3 + x3 * v5
  let v6 := v1 * y9
  let v7 := v4 * y10
  let v8 := v2
  let y15 := v7 * v8
  let y16 := v6 * v8
  let v9 := x4 * v8
  let v8' := x3 * v8
  let y13 := (x4 * v6 + x3 * v7) * v0 - (0 - (v9 * y9 - v8' * y10) * 1 / v0 * v1) * v2
  let y14 := 0 - v8' * v4 * v3 + v9 * v1 * v5
  let _ := x0
  ![0, y1, y2, y3, y4, 0, 0, 0, y8, y9, y10, 0, 0, y13, y14, y15, y16, 1]

/-- `jacobianOfAngularVelocityMapping`: a 6 × 3 matrix stored by columns. -/
noncomputable def jacAngVel (e w : V3) : Matrix (Fin 6) (Fin 3) ℝ := fun i j =>
  jacAngData e w ⟨i.val + 6 * j.val, by omega⟩

/-! ### The linearizer -/

variable {H c : ℕ}

/-- The members of `SystemLinearizer` (SystemLinearizer.h) and `RbdLinearizer`: numerical linearizer
with the dynamics of the system, Jacobians and second-order flag. -/
structure Lin (H c : ℕ) where
  num : NumDiff.Linearizer (H + H) c ℝ
  dFdx : Matrix (Fin (H + H)) (Fin (H + H)) ℝ
  dFdu : Matrix (Fin (H + H)) (Fin c) ℝ
  secondOrder : Bool

/-- The defaults for a second-order system, `topLeftCorner().setZero()` and `topRightCorner().setIdentity()`. -/
def top (A : Matrix (Fin (H + H)) (Fin (H + H)) ℝ) : Matrix (Fin (H + H)) (Fin (H + H)) ℝ :=
  setBlock (setBlock A 0 0 (0 : Matrix (Fin H) (Fin H) ℝ)) 0 H (1 : Matrix (Fin H) (Fin H) ℝ)

/-- The constructor (RbdLinearizer.h:65-83, SystemLinearizer.h:75-97). -/
def Lin.new (num : NumDiff.Linearizer (H + H) c ℝ) (secondOrder : Bool) : Lin H c :=
  { num := num
    dFdx := top 0
    dFdu := setBlock 0 0 0 (0 : Matrix (Fin H) (Fin c) ℝ)
    secondOrder := secondOrder }

/-- `SystemLinearizer::getDerivativeState` (SystemLinearizer.h:137-150). -/
noncomputable def Lin.baseState (o : Lin H c) (x : Fin (H + H) → ℝ) (u : Fin c → ℝ) (t : ℝ) : Lin H c :=
  let num := o.num.getDerivativeState x u t
  { o with num := num, dFdx := if o.secondOrder then top num.dFdx else num.dFdx }

/-- Entry `i` of the state. -/
def at' (x : Fin (H + H) → ℝ) (i : ℕ) : ℝ := (List.ofFn x).getD i 0

/-- Three entries of the state: `x.segment<3>(i)`. -/
def seg3 (x : Fin (H + H) → ℝ) (i : ℕ) : V3 := ![at' x i, at' x (i + 1), at' x (i + 2)]

/-- `RbdLinearizer::getDerivativeState` (RbdLinearizer.h:88-129).  kindr's rotation matrix of the Euler angles
is `kd.eulerRot`. -/
noncomputable def Lin.getDerivativeState (kd : Kindr) (floatingBase : Bool) (o : Lin H c) (x : Fin (H + H) → ℝ)
    (u : Fin c → ℝ) (t : ℝ) : Lin H c :=
  if !floatingBase then o.baseState x u t
  else
    let o := o.baseState x u t
    let R := kd.eulerRot (seg3 x 0)
    let J := (jacAngVel (seg3 x 0) (seg3 x H))ᵀ
    let A := setBlock o.dFdx 0 0 (J.submatrix (id : Fin 3 → Fin 3) fun j : Fin 3 => (⟨j.val, by omega⟩ : Fin 6))
    let A := setBlock A 3 0 (-R * jacRotVec (seg3 x 0) (R *ᵥ seg3 x (H + 3)))
    let A := setBlock A 0 H (J.submatrix (id : Fin 3 → Fin 3) fun j : Fin 3 => (⟨j.val + 3, by omega⟩ : Fin 6))
    let A := setBlock A 3 (H + 3) R
    { o with dFdx := A }

/-- `RbdLinearizer::getDerivativeControl` (RbdLinearizer.h:131-166): `M` is the inertia matrix that the robot
computes for joint positions, `llt` the solution `llt_.solve(Identity)` of Eigen, `S` the selection matrix. -/
noncomputable def Lin.getDerivativeControl (M : (Fin c → ℝ) → Matrix (Fin H) (Fin H) ℝ)
    (llt : Matrix (Fin H) (Fin H) ℝ → Matrix (Fin H) (Fin H) ℝ) (S : Matrix (Fin c) (Fin H) ℝ) (floatingBase : Bool)
    (o : Lin H c) (x : Fin (H + H) → ℝ) : Lin H c :=
  let q : Fin c → ℝ := fun i => at' x ((if floatingBase then 6 else 0) + i.val)
  let Minv := llt (M q)
  { o with dFdu := setBlock o.dFdu H 0 (Minv * Sᵀ) }

/-- Calls on a linearizer. -/
inductive Call (H c : ℕ) where
  | state (x : Fin (H + H) → ℝ) (u : Fin c → ℝ) (t : ℝ)
  | control (x : Fin (H + H) → ℝ) (u : Fin c → ℝ) (t : ℝ)

/-- What the linearizer uses of its system. -/
structure Env (H c : ℕ) where
  kd : Kindr
  floatingBase : Bool
  M : (Fin c → ℝ) → Matrix (Fin H) (Fin H) ℝ
  llt : Matrix (Fin H) (Fin H) ℝ → Matrix (Fin H) (Fin H) ℝ
  S : Matrix (Fin c) (Fin H) ℝ

/-- One call. -/
noncomputable def Env.step (e : Env H c) (o : Lin H c) : Call H c → Lin H c
  | .state x u t => o.getDerivativeState e.kd e.floatingBase x u t
  | .control x _ _ => o.getDerivativeControl e.M e.llt e.S e.floatingBase x

/-- A linearizer after a sequence of calls. -/
noncomputable def Env.after (e : Env H c) (num : NumDiff.Linearizer (H + H) c ℝ) (so : Bool) (cs : List (Call H c)) : Lin H c :=
  cs.foldl e.step (Lin.new num so)

end CT.RbdLin
