import Mathlib.Data.Real.Basic
import Mathlib.Algebra.BigOperators.Fin

/-!
# The norm of the defects

`ct_optcon/include/ct/optcon/nloc/NLOCBackendBase.hpp`.
-/

namespace CT.Nloc

/-- `NLOCBackendBase.hpp:631-644` and 661-667: `computeDefectsNorm<1>`: the loop of `computeDiscreteArrayNorm` over all
entries of the array, summing `lpNorm<1>`. -/
def computeDefectsNorm {n : ℕ} (d : List (Fin n → ℝ)) : ℝ :=
  d.foldl (fun norm v => norm + ∑ i, |v i|) 0

end CT.Nloc
