import Verif.Model.Res
import Mathlib.Data.Matrix.Mul
import Mathlib.Data.Real.Sqrt
import Mathlib.LinearAlgebra.Matrix.NonsingularInverse

/-!
# Manipulability and joint velocities from a Jacobian

Models `ct_rbd/include/ct/rbd/common/math/implementation/JacobiSingularity.h`.  Scalars are the reals; the singular
value decomposition of Eigen is a parameter.
-/

namespace CT.Jacobi

open Matrix

variable {r c k : ℕ}

/-- The result of `JacobiSVD` with thin `U` and `V`: `k` is the smaller of the numbers of rows and columns.  `rank` is the
number of leading singular values that Eigen treats as different from zero. -/
structure Svd (r c k : ℕ) where
  U : Matrix (Fin r) (Fin k) ℝ
  s : Fin k → ℝ
  V : Matrix (Fin c) (Fin k) ℝ
  rank : ℕ

/-- `calc_singular_values` (JacobiSingularity.h:52-57, implementation): the dynamic vector is converted to one with
`ROWS` entries, which Eigen allows for vectors of this size only. -/
def singularValues (d : Svd r c k) : Res (Fin r → ℝ) :=
  if h : r = k then .ok fun i => d.s (Fin.cast h i) else .ub

/-- Largest and smallest coefficient of a vector that is not empty. -/
noncomputable def maxCoeff (v : Fin r → ℝ) (h : (Finset.univ : Finset (Fin r)).Nonempty) : ℝ := Finset.univ.sup' h v
noncomputable def minCoeff (v : Fin r → ℝ) (h : (Finset.univ : Finset (Fin r)).Nonempty) : ℝ := Finset.univ.inf' h v

/-- `calc_condition_number` (JacobiSingularity.h:18-22, implementation).  Division by zero gives infinity in the code and
zero here; the theorems assume that the smallest singular value is positive. -/
noncomputable def conditionNumber (d : Svd r c k) (h : (Finset.univ : Finset (Fin r)).Nonempty) : Res ℝ := do
  let sv ← singularValues d
  pure (maxCoeff sv h / minCoeff sv h)

/-- `calc_manipulability` (JacobiSingularity.h:26-48, implementation); `direct` is the method `DIRECT`. -/
noncomputable def manipulability (J : Matrix (Fin r) (Fin c) ℝ) (d : Svd r c k) (direct : Bool) : Res ℝ :=
  if direct then .ok (Real.sqrt (J * Jᵀ).det)
  else do
    let sv ← singularValues d
    pure ((List.finRange r).foldl (fun w i => w * sv i) 1)

/-- `calc_joint_vel` (JacobiSingularity.h:61-75, implementation): `svd.solve`.  The pseudo inverse computed next is not used. -/
noncomputable def jointVel (d : Svd r c k) (v : Fin r → ℝ) : Fin c → ℝ :=
  d.V *ᵥ (diagonal (fun i : Fin k => if i.val < d.rank then (d.s i)⁻¹ else 0) *ᵥ (d.Uᵀ *ᵥ v))

end CT.Jacobi
