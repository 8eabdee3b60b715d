import Verif.Model.Riccati

/-!
# First-stage feedback of the HPIPM interface

Models `computeFeedbackMatrices` of `/repo/ct_optcon/include/ct/optcon/solver/lqp/HPIPMInterface-impl.hpp` (317-345)
for stage zero, where HPIPM has no gain to offer.  `Lr` (the factor of the control Hessian of stage zero) and `S1` (the
cost-to-go matrix of stage one) are what `d_ocp_qp_ipm_get_ric_Lr` and `d_ocp_qp_ipm_get_ric_P` return; HPIPM itself is
not modelled.
-/

namespace CT.Hpipm
open Matrix CT.Riccati

variable {n m : Nat}

/-- Forward substitution against the identity (322-323): `triangularView<Lower>().solve(Identity)` uses the lower triangle
only and yields the inverse of that triangle. -/
noncomputable def lowerInverse (Lr : Matrix (Fin m) (Fin m) ℝ) : Matrix (Fin m) (Fin m) ℝ :=
  (Matrix.of (fun i j => if j ≤ i then Lr i j else 0) : Matrix (Fin m) (Fin m) ℝ)⁻¹

/-- `L_[0]` (333-344). -/
noncomputable def firstFeedback (p : Problem n m) (Lr : Matrix (Fin m) (Fin m) ℝ) (S1 : Matrix (Fin n) (Fin n) ℝ) :
    Matrix (Fin m) (Fin n) ℝ :=
  let Lr0inv := lowerInverse Lr
  let G := p.P 0 + (p.B 0)ᵀ * S1 * p.A 0
  (-Lr0invᵀ) * Lr0inv * G

end CT.Hpipm
