import Verif.Model.Res
import Mathlib.Algebra.Order.Floor.Ring
import Mathlib.Algebra.Order.Field.Basic
import Mathlib.Analysis.SpecialFunctions.Exp
import Mathlib.Analysis.SpecialFunctions.Trigonometric.Basic

/-!
# Activations

Models the classes in `ct_core/include/ct/core/common/activations/`.
-/

namespace CT.Activation

section Window
variable {K : Type} [Field K] [LinearOrder K]

/-- `SingleActivation` parameters (SingleActivation.hpp:37-40). -/
structure Single (K : Type) where
  t_on : K
  t_off : K

/-- `SingleActivation::isActive` (SingleActivation.hpp:28). -/
def Single.isActive (a : Single K) (t : K) : Bool := decide (a.t_on ≤ t) && decide (t < a.t_off)

/-- `SingleActivation::computeActivation` (SingleActivation.hpp:30). -/
def Single.compute (_ : Single K) (_ : K) : K := 1

/-- `LinearActivation` parameters (LinearActivation.hpp:45-48). -/
structure Linear (K : Type) where
  t_on : K
  t_off : K
  slope : K
  startVal : K

/-- `LinearActivation::isActive` (LinearActivation.hpp:35). -/
def Linear.isActive (a : Linear K) (t : K) : Bool := decide (a.t_on ≤ t) && decide (t < a.t_off)

/-- `LinearActivation::computeActivation` (LinearActivation.hpp:37). -/
def Linear.compute (a : Linear K) (t : K) : K := a.startVal + a.slope * (t - a.t_on)

/-- `PeriodicActivation` parameters (PeriodicActivation.hpp:92-97). `t_end = none` is an
uninitialised member. -/
structure Periodic (K : Type) where
  active_percentage : K
  period : K
  activation_offset : K
  period_offset : K
  t_end : Option K
  deriving DecidableEq

/-- Value constructor (PeriodicActivation.hpp:18-27): does not set `t_end_`. -/
def Periodic.new (pct period aoff poff : K) : Periodic K := ⟨pct, period, aoff, poff, none⟩

/-- `loadConfigFile` (PeriodicActivation.hpp:38-57), given the five numbers in the file: sets all
members, throws when the on-window does not fit into the period. -/
def Periodic.load (pct period aoff poff t_end : K) : Res (Periodic K) :=
  if period < aoff + pct * period then .exc else .ok ⟨pct, period, aoff, poff, some t_end⟩

variable [FloorRing K]

/-- `fmod(t, p)` for a non-negative dividend: the remainder of truncating division by `|p|`;
NaN (`none`) for `p = 0`. -/
def fmod (t p : K) : Option K := if p = 0 then none else some (t - |p| * (⌊t / |p|⌋ : K))

/-- `PeriodicActivation::isActive` for `double` (PeriodicActivation.hpp:60-73). Comparisons with
NaN are false. Reading the uninitialised `t_end_` is undefined. -/
def Periodic.isActive (a : Periodic K) (t : K) : Res Bool :=
  if a.period_offset ≤ t then
    match a.t_end with
    | none => .ub
    | some te =>
        if t < te then
          match fmod (t - a.period_offset) a.period with
          | none => .ok false
          | some r => .ok (decide (a.activation_offset ≤ r) &&
              decide (r < a.activation_offset + a.active_percentage * a.period))
        else .ok false
  else .ok false

end Window

/-! Barrier and Gaussian activations use the exponential and are modelled over `ℝ`. -/

/-- `BarrierActivation` members (BarrierActivation.hpp:151-160). -/
structure Barrier where
  ub_active : Bool
  lb_active : Bool
  ub : ℝ
  lb : ℝ
  alpha : ℝ

/-- Default constructor (BarrierActivation.hpp:33-35). -/
noncomputable def Barrier.default : Barrier := ⟨false, false, 0, 0, 0⟩

/-- Value constructor (BarrierActivation.hpp:42-45). -/
def Barrier.new (ub lb alpha : ℝ) : Barrier := ⟨true, true, ub, lb, alpha⟩

/-- `loadConfigFile` (BarrierActivation.hpp:49-88), given the file contents: `alpha` and the
bounds, `none` for a bound that is missing or malformed. A throw of the checks leaves the already
assigned members (state after exception is not used here). -/
noncomputable def Barrier.load (b : Barrier) (alpha : ℝ) (ub lb : Option ℝ) : Res Barrier :=
  let b1 : Barrier := { b with alpha := alpha }
  let b2 : Barrier := match ub with
    | some u => { b1 with ub := u }
    | none => { b1 with ub_active := false }
  let b3 : Barrier := match lb with
    | some l => { b2 with lb := l }
    | none => { b2 with lb_active := false }
  open Classical in
  if (b3.lb_active = true ∧ b3.ub_active = true) ∧ b3.ub < b3.lb then .exc
  else if b3.alpha < 0 then .exc
  else .ok b3

/-- `setLowerBoundOnly` (BarrierActivation.hpp:96-102). -/
def Barrier.setLowerBoundOnly (b : Barrier) (lb alpha : ℝ) : Barrier :=
  { b with lb_active := true, ub_active := false, lb := lb, alpha := alpha }

/-- `setUpperBoundOnly` (BarrierActivation.hpp:109-115). -/
def Barrier.setUpperBoundOnly (b : Barrier) (ub alpha : ℝ) : Barrier :=
  { b with lb_active := false, ub_active := true, ub := ub, alpha := alpha }

/-- `(SCALAR)flag`. -/
def flag (b : Bool) : ℝ := if b then 1 else 0

/-- `computeActivation` (BarrierActivation.hpp:118-122). -/
noncomputable def Barrier.compute (b : Barrier) (x : ℝ) : ℝ :=
  flag b.ub_active * Real.exp (b.alpha * (x - b.ub)) +
    flag b.lb_active * Real.exp (b.alpha * (b.lb - x))

/-- `firstOrderDerivative` (BarrierActivation.hpp:124-128). -/
noncomputable def Barrier.first (b : Barrier) (x : ℝ) : ℝ :=
  flag b.ub_active * b.alpha * Real.exp (b.alpha * (x - b.ub)) -
    flag b.lb_active * b.alpha * Real.exp (b.alpha * (b.lb - x))

/-- `secondOrderDerivative` (BarrierActivation.hpp:130-134). -/
noncomputable def Barrier.second (b : Barrier) (x : ℝ) : ℝ :=
  flag b.ub_active * b.alpha * b.alpha * Real.exp (b.alpha * (x - b.ub)) +
    flag b.lb_active * b.alpha * b.alpha * Real.exp (b.alpha * (b.lb - x))

/-- `RBFGaussActivation` members (RBFGaussActivation.h:54-57). -/
structure Gauss where
  mu : ℝ
  sigma : ℝ
  sigma2inv : ℝ
  factor : ℝ

/-- Value constructor (RBFGaussActivation.h:19-23). -/
noncomputable def Gauss.new (mu sigma : ℝ) : Gauss :=
  ⟨mu, sigma, 1 / (2 * sigma * sigma), 1 / Real.sqrt (2 * Real.pi * sigma * sigma)⟩

/-- `loadConfigFile` (RBFGaussActivation.h:30-39). -/
noncomputable def Gauss.load (mu sigma : ℝ) : Gauss :=
  ⟨mu, sigma, -1 / (2 * sigma * sigma), 1 / Real.sqrt (2 * Real.pi * sigma * sigma)⟩

/-- `computeActivation` (RBFGaussActivation.h:42-45). -/
noncomputable def Gauss.compute (g : Gauss) (t : ℝ) : ℝ :=
  g.factor * Real.exp ((t - g.mu) * (t - g.mu) * g.sigma2inv)

end CT.Activation
