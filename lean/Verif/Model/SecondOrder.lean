import Mathlib.Analysis.SpecialFunctions.Sqrt

/-!
# Second-order system

Model of `/repo/ct_core/include/ct/core/systems/continuous_time/SecondOrderSystem.h` over the reals.
-/

namespace CT.SecondOrder

/-- Members (w_n_, w_n_square_, zeta_, g_dc_). -/
structure Sys where
  w : ℝ
  w2 : ℝ
  zeta : ℝ
  g : ℝ

/-- Value constructor (82-92) and `setDynamics` (130-136), which assign the same. -/
noncomputable def mk' (w zeta g : ℝ) : Sys := ⟨w, w * w, zeta, g⟩

/-- Spring-mass-damper constructor (112-119). -/
noncomputable def ofSpring (k m d g : ℝ) : Sys :=
  let w := Real.sqrt (k / m)
  ⟨w, w * w, d / (2 * m * k), g⟩

/-- `setDynamics` (130-136). -/
noncomputable def setDynamics (_s : Sys) (w zeta g : ℝ) : Sys := ⟨w, w * w, zeta, g⟩

/-- `computeControlledDynamics` (146-153): state (p, v), control `u`. -/
noncomputable def dyn (s : Sys) (x : ℝ × ℝ) (u : ℝ) : ℝ × ℝ :=
  (x.2, s.g * s.w2 * u - 2 * s.zeta * s.w * x.2 - s.w2 * x.1)

open Classical in
/-- `checkParameters` (159-183). -/
noncomputable def checkParameters (s : Sys) : Bool :=
  if s.zeta < 0 then false else if s.w < 0 then false else if s.g < 0 then false
  else if s.g = 0 then false else true

end CT.SecondOrder
