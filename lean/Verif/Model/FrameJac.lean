import Mathlib.LinearAlgebra.Matrix.Notation
import Mathlib.Data.Matrix.Mul
import Mathlib.Data.Matrix.ColumnRowPartitioned
import Mathlib.Data.Real.Basic

/-!
# Floating-base Jacobians and end-effector kinematics

Models `ct_rbd/include/ct/rbd/robot/jacobian/FrameJacobian.h`,
`ct_rbd/include/ct/rbd/robot/jacobian/ConstraintJacobian.h` and the velocity and position queries of
`ct_rbd/include/ct/rbd/robot/Kinematics.h`.  The coordinates are indexed by `Fin 3 ⊕ (Fin 3 ⊕ ι)`:
angular velocity of the base, linear velocity of the base (both in base coordinates), joint
velocities.  A concatenation `<< A, B, C` of blocks is `cat A B C`.
-/

namespace CT.FrameJac

open Matrix

abbrev V3 := Fin 3 → ℝ
abbrev M3 := Matrix (Fin 3) (Fin 3) ℝ

variable {ι : Type} [Fintype ι]

omit [Fintype ι] in
/-- `out << A, B, C` with blocks side by side. -/
def cat (A B : M3) (C : Matrix (Fin 3) ι ℝ) : Matrix (Fin 3) (Fin 3 ⊕ (Fin 3 ⊕ ι)) ℝ :=
  Matrix.fromCols A (Matrix.fromCols B C)

/-- Eigen's `a.cross(b)`. -/
def cross (a b : V3) : V3 := ![a 1 * b 2 - a 2 * b 1, a 2 * b 0 - a 0 * b 2, a 0 * b 1 - a 1 * b 0]

/-- `CrossProductMatrix` (FrameJacobian.h:175-183). -/
def cpm (v : V3) : M3 := !![0, -v 2, v 1; v 2, 0, -v 0; -v 1, v 0, 0]

omit [Fintype ι] in
/-- `FromBaseJacToInertiaJacOrientation` (FrameJacobian.h:61-67). -/
def jacOrientation (R : M3) (J : Matrix (Fin 3) ι ℝ) : Matrix (Fin 3) (Fin 3 ⊕ (Fin 3 ⊕ ι)) ℝ :=
  cat R 0 (R * J)

omit [Fintype ι] in
/-- `FromBaseJacToInertiaJacTranslation` (FrameJacobian.h:77-83). -/
def jacTranslation (R : M3) (r : V3) (J : Matrix (Fin 3) ι ℝ) :
    Matrix (Fin 3) (Fin 3 ⊕ (Fin 3 ⊕ ι)) ℝ :=
  cat (-R * cpm r) R (R * J)

/-- The generalised velocities: angular and linear velocity of the base, joint velocities. -/
def gv (ω v : V3) (qd : ι → ℝ) : Fin 3 ⊕ (Fin 3 ⊕ ι) → ℝ := Sum.elim ω (Sum.elim v qd)

omit [Fintype ι] in
/-- `generalizedVelocities.head<3>()`. -/
def gvHead (g : Fin 3 ⊕ (Fin 3 ⊕ ι) → ℝ) : V3 := fun i => g (Sum.inl i)

omit [Fintype ι] in
/-- `generalizedVelocities.tail<NUM_JOINTS>()`. -/
def gvTail (g : Fin 3 ⊕ (Fin 3 ⊕ ι) → ℝ) : ι → ℝ := fun i => g (Sum.inr (Sum.inr i))

omit [Fintype ι] in
/-- `FromBaseJacobianDevToInertiaJacobianDevOrientation` (FrameJacobian.h:128-140). -/
def jacDevOrientation (g : Fin 3 ⊕ (Fin 3 ⊕ ι) → ℝ) (R : M3) (J dJ : Matrix (Fin 3) ι ℝ) :
    Matrix (Fin 3) (Fin 3 ⊕ (Fin 3 ⊕ ι)) ℝ :=
  let dR := R * cpm (gvHead g)
  cat dR 0 (dR * J + R * dJ)

/-- `FromBaseJacobianDevToInertiaJacobianDevTranslation` (FrameJacobian.h:153-168). -/
def jacDevTranslation (g : Fin 3 ⊕ (Fin 3 ⊕ ι) → ℝ) (R : M3) (r : V3) (J dJ : Matrix (Fin 3) ι ℝ) :
    Matrix (Fin 3) (Fin 3 ⊕ (Fin 3 ⊕ ι)) ℝ :=
  let v := J *ᵥ gvTail g
  let dR := R * cpm (gvHead g)
  cat (-dR * cpm r - R * cpm v) dR (dR * J + R * dJ)

/-- `getEEVelocityInBase` (Kinematics.h:112-127); `J` is the translational part of the Jacobian, `r` the
position of the end effector in the base. -/
def eeVelocityInBase (J : Matrix (Fin 3) ι ℝ) (r ω v : V3) (qd : ι → ℝ) : V3 :=
  J *ᵥ qd + v + cross ω r

/-- `getEEVelocityInWorld` (Kinematics.h:129-133). -/
def eeVelocityInWorld (R : M3) (J : Matrix (Fin 3) ι ℝ) (r ω v : V3) (qd : ι → ℝ) : V3 :=
  R *ᵥ eeVelocityInBase J r ω v qd

/-- `getEEPositionInWorld` (Kinematics.h:180-192). -/
def eePositionInWorld (pos : V3) (R : M3) (r : V3) : V3 := pos + R *ᵥ r

/-- `getEERotInWorld` (Kinematics.h:213-222). -/
def eeRotInWorld (R Ree : M3) : M3 := R * Ree

/-! ### The constraint Jacobian -/

/-- Joint columns of `getJacobianOriginDerivative` (ConstraintJacobian.h:100-117): `rot i`, `trans i`
are the columns of the rotational and translational part of the geometric Jacobian. -/
noncomputable def dJdtJoints (nj : ℕ) (rot trans : ℕ → V3) (qd : ℕ → ℝ) (i : ℕ) : V3 :=
  (List.range nj).foldl (fun acc j =>
    let dJidqj := if i ≥ j then cross (rot j) (trans i) else cross (rot i) (trans j)
    acc + qd j • dJidqj) 0

/-- Base columns of `getJacobianOriginDerivative` (ConstraintJacobian.h:119-126): the six entries are
assigned one by one to a zero matrix; columns 3 to 5 stay zero. -/
def dJdtBase (v : V3) : M3 := fun i j =>
  if i = 1 ∧ j = 2 then v 0
  else if i = 2 ∧ j = 1 then -v 0
  else if i = 0 ∧ j = 2 then -v 1
  else if i = 2 ∧ j = 0 then v 1
  else if i = 0 ∧ j = 1 then v 2
  else if i = 1 ∧ j = 0 then -v 2
  else 0

/-- Columns `f 0, …, f (nj - 1)` as a matrix. -/
def cols (nj : ℕ) (f : ℕ → V3) : Matrix (Fin 3) (Fin nj) ℝ := fun a i => f i a

/-- Rows of one end effector in `getJacobianOriginDerivative` (ConstraintJacobian.h:93-130). -/
noncomputable def eeDerivative (nj : ℕ) (rot trans : ℕ → V3) (qd : ℕ → ℝ) :
    Matrix (Fin 3) (Fin 3 ⊕ (Fin 3 ⊕ Fin nj)) ℝ :=
  let v := cols nj trans *ᵥ (fun j => qd j)
  cat (dJdtBase v) 0 (cols nj (dJdtJoints nj rot trans qd))

/-- Rows of one end effector in `getJacobianOrigin` (ConstraintJacobian.h:142-151). -/
def eeJacobian (nj : ℕ) (r : V3) (trans : ℕ → V3) : Matrix (Fin 3) (Fin 3 ⊕ (Fin 3 ⊕ Fin nj)) ℝ :=
  jacTranslation 1 r (cols nj trans)

/-- The loop that writes the blocks of the end effectors listed in `ee_indices_` into a zero matrix with
three rows per end effector (ConstraintJacobian.h:88-132, 137-153); `κ` indexes the columns. -/
def assemble {κ : Type} (ee_indices : List ℕ) (eeInContact : ℕ → Bool)
    (block : ℕ → Matrix (Fin 3) κ ℝ) : ℕ → κ → ℝ :=
  ee_indices.foldl (fun A e =>
    if eeInContact e then
      fun row c => if h : 3 * e ≤ row ∧ row < 3 * e + 3 then block e ⟨row - 3 * e, by omega⟩ c else A row c
    else A) (fun _ _ => 0)

/-- `ResetJacobianStructure` (ProjectedDynamics.h:279-296): the list of end effectors in contact and the
array of flags; flags are only ever set, `old` is the previous array. -/
def resetStructure (NEE : ℕ) (ee old : ℕ → Bool) : List ℕ × (ℕ → Bool) :=
  (List.range NEE).foldl (fun s e =>
    if ee e then (s.1 ++ [e], Function.update s.2 e (ee e)) else s) ([], old)

end CT.FrameJac
