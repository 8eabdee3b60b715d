import Verif.Model.Res
import Verif.Model.Activation
import Mathlib.Data.Matrix.Mul
import Mathlib.Data.Real.Basic
import Mathlib.Analysis.SpecialFunctions.Sqrt
import Mathlib.Analysis.SpecialFunctions.Pow.Real

/-!
# Cost terms and cost functions

Models the classes in `ct_optcon/include/ct/optcon/costfunction/`. Scalars are real numbers, state and
control vectors are `Fin n → ℝ` and `Fin m → ℝ`.
-/

namespace CT.Cost

open Matrix

variable {n m : Nat}

/-- A cost term: its value and the five derivative methods of `TermBase` (term/TermBase.hpp), together
with the time activation it points to (`c_i_`, TermBase-impl.hpp:41-54). Terms with fixed parameters
are values of this type; the `updateReference…` methods produce a new value. -/
structure Term (n m : Nat) where
  value : (Fin n → ℝ) → (Fin m → ℝ) → ℝ → ℝ
  gradX : (Fin n → ℝ) → (Fin m → ℝ) → ℝ → (Fin n → ℝ)
  hessX : (Fin n → ℝ) → (Fin m → ℝ) → ℝ → Matrix (Fin n) (Fin n) ℝ
  gradU : (Fin n → ℝ) → (Fin m → ℝ) → ℝ → (Fin m → ℝ)
  hessU : (Fin n → ℝ) → (Fin m → ℝ) → ℝ → Matrix (Fin m) (Fin m) ℝ
  cross : (Fin n → ℝ) → (Fin m → ℝ) → ℝ → Matrix (Fin m) (Fin n) ℝ
  active : ℝ → Bool := fun _ => true
  activation : ℝ → ℝ := fun _ => 1

/-- `TermBase::eval` (TermBase-impl.hpp:32-38): activation times `evaluate`. -/
def Term.eval (τ : Term n m) (x : Fin n → ℝ) (u : Fin m → ℝ) (t : ℝ) : ℝ :=
  τ.activation t * τ.value x u t

/-- `TermLinear` (term/TermLinear.hpp:90-97, TermLinear-impl.hpp:63-109). -/
def linear (a : Fin n → ℝ) (b : Fin m → ℝ) (c : ℝ) : Term n m where
  value x u _ := a ⬝ᵥ x + b ⬝ᵥ u + c
  gradX _ _ _ := a
  hessX _ _ _ := 0
  gradU _ _ _ := b
  hessU _ _ _ := 0
  cross _ _ _ := 0

/-- `TermMixed` (term/TermMixed.hpp:101-109, TermMixed-impl.hpp:88-137). -/
def mixed (P : Matrix (Fin m) (Fin n) ℝ) (xr : Fin n → ℝ) (ur : Fin m → ℝ) : Term n m where
  value x u _ := (u - ur) ⬝ᵥ (P *ᵥ (x - xr))
  gradX _ u _ := Pᵀ *ᵥ (u - ur)
  hessX _ _ _ := 0
  gradU x _ _ := P *ᵥ (x - xr)
  hessU _ _ _ := 0
  cross _ _ _ := P

/-- `TermQuadratic` (term/TermQuadratic.hpp evalLocal, TermQuadratic-impl.hpp:141-192). -/
def quadratic (Q : Matrix (Fin n) (Fin n) ℝ) (R : Matrix (Fin m) (Fin m) ℝ) (xr : Fin n → ℝ)
    (ur : Fin m → ℝ) : Term n m where
  value x u _ := (x - xr) ⬝ᵥ (Q *ᵥ (x - xr)) + (u - ur) ⬝ᵥ (R *ᵥ (u - ur))
  gradX x _ _ := (x - xr) ᵥ* Qᵀ + (x - xr) ᵥ* Q
  hessX _ _ _ := Q + Qᵀ
  gradU _ u _ := (u - ur) ᵥ* Rᵀ + (u - ur) ᵥ* R
  hessU _ _ _ := R + Rᵀ
  cross _ _ _ := 0

/-- `TermQuadMult` (term/TermQuadMult.hpp:103-112, TermQuadMult-impl.hpp:100-168). -/
def quadMult (Q : Matrix (Fin n) (Fin n) ℝ) (R : Matrix (Fin m) (Fin m) ℝ) (xr : Fin n → ℝ)
    (ur : Fin m → ℝ) : Term n m where
  value x u _ := ((x - xr) ⬝ᵥ (Q *ᵥ (x - xr))) * ((u - ur) ⬝ᵥ (R *ᵥ (u - ur)))
  gradX x u _ := ((u - ur) ⬝ᵥ (R *ᵥ (u - ur))) • ((x - xr) ᵥ* Qᵀ + (x - xr) ᵥ* Q)
  hessX _ u _ := ((u - ur) ⬝ᵥ (R *ᵥ (u - ur))) • (Q + Qᵀ)
  gradU x u _ := ((x - xr) ⬝ᵥ (Q *ᵥ (x - xr))) • ((u - ur) ᵥ* Rᵀ + (u - ur) ᵥ* R)
  hessU x _ _ := ((x - xr) ⬝ᵥ (Q *ᵥ (x - xr))) • (R + Rᵀ)
  cross x u _ := vecMulVec ((u - ur) ᵥ* Rᵀ + (u - ur) ᵥ* R) ((x - xr) ᵥ* Qᵀ + (x - xr) ᵥ* Q)

/-- `TermQuadTracking` (term/TermQuadTracking.hpp:97-112, TermQuadTracking-impl.hpp:87-143): the
references are read from trajectories at the evaluation time; the control reference is ignored unless
`trackControlTrajectory`. The trajectories are arbitrary functions of time here (their own behaviour is
C01-C04). -/
def quadTracking (Q : Matrix (Fin n) (Fin n) ℝ) (R : Matrix (Fin m) (Fin m) ℝ) (xr : ℝ → Fin n → ℝ)
    (ur : ℝ → Fin m → ℝ) (trackControl : Bool) : Term n m where
  value x u t :=
    (x - xr t) ⬝ᵥ (Q *ᵥ (x - xr t)) +
      (if trackControl then u - ur t else u) ⬝ᵥ (R *ᵥ (if trackControl then u - ur t else u))
  gradX x _ t := (x - xr t) ᵥ* Qᵀ + (x - xr t) ᵥ* Q
  hessX _ _ _ := Q + Qᵀ
  gradU _ u t :=
    (if trackControl then u - ur t else u) ᵥ* Rᵀ + (if trackControl then u - ur t else u) ᵥ* R
  hessU _ _ _ := R + Rᵀ
  cross _ _ _ := 0

/-- `TermSmoothAbs` (term/TermSmoothAbs.hpp:97-110, TermSmoothAbs-impl.hpp:67-131); `ssq` is the member
`alphaSquared_`. -/
noncomputable def smoothAbs (a : Fin n → ℝ) (xr : Fin n → ℝ) (b : Fin m → ℝ) (ur : Fin m → ℝ) (alpha : ℝ) :
    Term n m where
  value x u _ :=
    a ⬝ᵥ (fun i => √((x i - xr i) ^ 2 + alpha ^ 2)) + b ⬝ᵥ (fun i => √((u i - ur i) ^ 2 + alpha ^ 2))
  gradX x _ _ := fun i => a i * ((x i - xr i) * (√((x i - xr i) ^ 2 + alpha ^ 2))⁻¹)
  hessX x _ _ := diagonal fun i => a i * (alpha ^ 2 * (alpha ^ 2 + (x i - xr i) ^ 2) ^ (-(3 : ℝ) / 2))
  gradU _ u _ := fun i => b i * ((u i - ur i) * (√((u i - ur i) ^ 2 + alpha ^ 2))⁻¹)
  hessU _ u _ := diagonal fun i => b i * (alpha ^ 2 * (alpha ^ 2 + (u i - ur i) ^ 2) ^ (-(3 : ℝ) / 2))
  cross _ _ _ := 0

/-! ### `CostFunction` / `CostFunctionQuadratic` / `CostFunctionAnalytical` -/

/-- `CostFunction` members (CostFunction.hpp) and the two term lists of `CostFunctionQuadratic`. -/
structure CF (n m : Nat) where
  x : Fin n → ℝ
  u : Fin m → ℝ
  t : ℝ
  shift : ℝ
  inter : List (Term n m)
  fin : List (Term n m)

/-- Constructor (CostFunction-impl.hpp:12-16). -/
def CF.new : CF n m := ⟨0, 0, 0, 0, [], []⟩

/-- `setCurrentStateAndControl` (CostFunction-impl.hpp:30-37). -/
def CF.set (c : CF n m) (x : Fin n → ℝ) (u : Fin m → ℝ) (t : ℝ) : CF n m :=
  { c with x := x, u := u, t := t + c.shift }

/-- `shiftTime` (CostFunction-impl.hpp:50-53). -/
def CF.shiftTime (c : CF n m) (s : ℝ) : CF n m := { c with shift := s }

/-- `addIntermediateTerm` (CostFunctionQuadratic-impl.hpp:279-292): returns the index of the term. -/
def CF.addInter (c : CF n m) (τ : Term n m) : CF n m × Nat :=
  ({ c with inter := c.inter ++ [τ] }, c.inter.length)

/-- `addFinalTerm` (CostFunctionQuadratic-impl.hpp:294-306). -/
def CF.addFin (c : CF n m) (τ : Term n m) : CF n m × Nat :=
  ({ c with fin := c.fin ++ [τ] }, c.fin.length)

/-- `getIntermediateTermById` (CostFunctionQuadratic-impl.hpp:137-142): unchecked access. -/
def CF.interById (c : CF n m) (id : Nat) : Res (Term n m) := idx c.inter id

/-- `getFinalTermById` (CostFunctionQuadratic-impl.hpp:144-149). -/
def CF.finById (c : CF n m) (id : Nat) : Res (Term n m) := idx c.fin id

/-- The loop of `getIntermediateTermByName` and `getFinalTermByName` (CostFunctionQuadratic-impl.hpp:151-171): the
first term of that name, an exception if there is none. `name` stands for `TermBase::getName`. -/
def byName (name : Term n m → String) (l : List (Term n m)) (s : String) : Res (Term n m) :=
  match l with
  | [] => .exc
  | τ :: l => if name τ == s then .ok τ else byName name l s

/-- The loop shared by the seven intermediate methods: terms not active at `t_` are skipped, the others
contribute `computeActivation(t_) * g(term)`. -/
def CF.sumActive {V : Type} [AddCommMonoid V] [SMul ℝ V] (c : CF n m) (g : Term n m → V) : V :=
  c.inter.foldl (fun y τ => if τ.active c.t then y + τ.activation c.t • g τ else y) 0

/-- `evaluateIntermediateBase` (CostFunctionQuadratic-impl.hpp:310-324): the summand calls
`TermBase::eval`, which multiplies by the activation once more. -/
def CF.evaluateIntermediate (c : CF n m) : ℝ := c.sumActive fun τ => τ.eval c.x c.u c.t

/-- `stateDerivativeIntermediateBase` (CostFunctionQuadratic-impl.hpp:341-357). -/
def CF.stateDerivativeIntermediate (c : CF n m) : Fin n → ℝ := c.sumActive fun τ => τ.gradX c.x c.u c.t

/-- `stateSecondDerivativeIntermediateBase` (CostFunctionQuadratic-impl.hpp:374-390). -/
def CF.stateSecondDerivativeIntermediate (c : CF n m) : Matrix (Fin n) (Fin n) ℝ :=
  c.sumActive fun τ => τ.hessX c.x c.u c.t

/-- `controlDerivativeIntermediateBase` (CostFunctionQuadratic-impl.hpp:406-422). -/
def CF.controlDerivativeIntermediate (c : CF n m) : Fin m → ℝ :=
  c.sumActive fun τ => τ.gradU c.x c.u c.t

/-- `controlSecondDerivativeIntermediateBase` (CostFunctionQuadratic-impl.hpp:439-455). -/
def CF.controlSecondDerivativeIntermediate (c : CF n m) : Matrix (Fin m) (Fin m) ℝ :=
  c.sumActive fun τ => τ.hessU c.x c.u c.t

/-- `stateControlDerivativeIntermediateBase` (CostFunctionQuadratic-impl.hpp:472-488). -/
def CF.stateControlDerivativeIntermediate (c : CF n m) : Matrix (Fin m) (Fin n) ℝ :=
  c.sumActive fun τ => τ.cross c.x c.u c.t

/-- `evaluateTerminalBase` (CostFunctionQuadratic-impl.hpp:328-336): no activation. -/
def CF.evaluateTerminal (c : CF n m) : ℝ := c.fin.foldl (fun y τ => y + τ.value c.x c.u c.t) 0

/-- `stateDerivativeTerminalBase` (CostFunctionQuadratic-impl.hpp:361-370). -/
def CF.stateDerivativeTerminal (c : CF n m) : Fin n → ℝ :=
  c.fin.foldl (fun y τ => y + τ.gradX c.x c.u c.t) 0

/-- `stateSecondDerivativeTerminalBase` (CostFunctionQuadratic-impl.hpp:393-402). -/
def CF.stateSecondDerivativeTerminal (c : CF n m) : Matrix (Fin n) (Fin n) ℝ :=
  c.fin.foldl (fun y τ => y + τ.hessX c.x c.u c.t) 0

/-- Calls a user can make on an analytical cost function. -/
inductive Op (n m : Nat) where
  | addInter (τ : Term n m)
  | addFin (τ : Term n m)
  | set (x : Fin n → ℝ) (u : Fin m → ℝ) (t : ℝ)
  | shift (s : ℝ)

/-- Effect of one call. -/
def CF.step (c : CF n m) : Op n m → CF n m
  | .addInter τ => (c.addInter τ).1
  | .addFin τ => (c.addFin τ).1
  | .set x u t => c.set x u t
  | .shift s => c.shiftTime s

/-- A history of calls on a new object. -/
def CF.run (ops : List (Op n m)) : CF n m := ops.foldl CF.step CF.new

/-- One entry of `stateDerivativeIntermediateNumDiff` (CostFunctionQuadratic-impl.hpp:185-215) in its
two-sided version (`doubleSidedDerivative_ = true`, CostFunctionQuadratic.hpp:235). `x u t` are the
local copies taken on entry; the object is modified by the two `setCurrentStateAndControl` calls. -/
noncomputable def CF.numDiffStep (eps : ℝ) (x : Fin n → ℝ) (u : Fin m → ℝ) (t : ℝ)
    (s : CF n m × (Fin n → ℝ)) (i : Fin n) : CF n m × (Fin n → ℝ) :=
  let h := eps * max |x i| 1
  let c1 := s.1.set (Function.update x i (x i + h)) u t
  let c2 := c1.set (Function.update x i (x i - h)) u t
  (c2, Function.update s.2 i
    ((c1.evaluateIntermediate - c2.evaluateIntermediate) / ((x i + h - x i) + (x i - (x i - h)))))

/-- `stateDerivativeIntermediateNumDiff` (CostFunctionQuadratic-impl.hpp:174-218): result and object
afterwards. -/
noncomputable def CF.stateDerivativeNumDiff (eps : ℝ) (c : CF n m) : CF n m × (Fin n → ℝ) :=
  (List.finRange n).foldl (CF.numDiffStep eps c.x c.u c.t) (c, 0)

/-! ### `CostFunctionQuadraticSimple` -/

/-- Members of `CostFunctionQuadraticSimple` and its base class. -/
structure Simple (n m : Nat) where
  x : Fin n → ℝ
  u : Fin m → ℝ
  t : ℝ
  xdev : Fin n → ℝ
  udev : Fin m → ℝ
  xnom : Fin n → ℝ
  unom : Fin m → ℝ
  xfin : Fin n → ℝ
  Q : Matrix (Fin n) (Fin n) ℝ
  R : Matrix (Fin m) (Fin m) ℝ
  Qf : Matrix (Fin n) (Fin n) ℝ

/-- Value constructor (CostFunctionQuadraticSimple-impl.hpp:24-36). -/
def Simple.new (Q : Matrix (Fin n) (Fin n) ℝ) (R : Matrix (Fin m) (Fin m) ℝ) (xnom : Fin n → ℝ)
    (unom : Fin m → ℝ) (xfin : Fin n → ℝ) (Qf : Matrix (Fin n) (Fin n) ℝ) : Simple n m :=
  { x := 0, u := 0, t := 0, xdev := 0, udev := 0, xnom := xnom, unom := unom, xfin := xfin,
    Q := Q, R := R, Qf := Qf }

/-- `setCurrentStateAndControl` (CostFunctionQuadraticSimple-impl.hpp:65-76). -/
def Simple.set (c : Simple n m) (x : Fin n → ℝ) (u : Fin m → ℝ) (t : ℝ) : Simple n m :=
  { c with x := x, u := u, t := t, xdev := x - c.xnom, udev := u - c.unom }

/-- Copy constructor, used by `clone` (CostFunctionQuadraticSimple-impl.hpp:43-61): the base class is
default-constructed, so `x_`, `u_`, `t_` become zero. -/
def Simple.copy (c : Simple n m) : Simple n m := { c with x := 0, u := 0, t := 0 }

/-- `updateReferenceState` (CostFunctionQuadraticSimple-impl.hpp:142-146). -/
def Simple.updateReferenceState (c : Simple n m) (r : Fin n → ℝ) : Simple n m := { c with xnom := r }

/-- `evaluateIntermediate` (CostFunctionQuadraticSimple-impl.hpp:78-84). -/
noncomputable def Simple.evaluateIntermediate (c : Simple n m) : ℝ :=
  1 / 2 * (c.xdev ⬝ᵥ (c.Q *ᵥ c.xdev)) + 1 / 2 * (c.udev ⬝ᵥ (c.R *ᵥ c.udev))

/-- `stateDerivativeIntermediate` (CostFunctionQuadraticSimple-impl.hpp:86-91). -/
def Simple.stateDerivativeIntermediate (c : Simple n m) : Fin n → ℝ := c.Q *ᵥ c.xdev

/-- `controlDerivativeIntermediate` (CostFunctionQuadraticSimple-impl.hpp:100-105). -/
def Simple.controlDerivativeIntermediate (c : Simple n m) : Fin m → ℝ := c.R *ᵥ c.udev

/-- `evaluateTerminal` (CostFunctionQuadraticSimple-impl.hpp:121-126). -/
noncomputable def Simple.evaluateTerminal (c : Simple n m) : ℝ :=
  1 / 2 * ((c.x - c.xfin) ⬝ᵥ (c.Qf *ᵥ (c.x - c.xfin)))

/-- `stateDerivativeTerminal` (CostFunctionQuadraticSimple-impl.hpp:128-134). -/
def Simple.stateDerivativeTerminal (c : Simple n m) : Fin n → ℝ := c.Qf *ᵥ (c.x - c.xfin)

/-! ### `TermStateBarrier` -/

/-- Members of `TermStateBarrier`: bounds, weights and the vector `barriers_` (here the triples it was
filled with), plus the activation inherited from `TermBase`. -/
structure BarrierTerm (n : Nat) where
  ub : Fin n → ℝ
  lb : Fin n → ℝ
  alpha : Fin n → ℝ
  barriers : List (ℝ × ℝ × ℝ)
  active : ℝ → Bool
  activation : ℝ → ℝ

/-- Value constructor (TermStateBarrier-impl.hpp:11-17): `barriers_` stays empty. -/
def BarrierTerm.new (ub lb alpha : Fin n → ℝ) : BarrierTerm n :=
  ⟨ub, lb, alpha, [], fun _ => true, fun _ => 1⟩

/-- `initialize` (TermStateBarrier-impl.hpp:44-52). -/
def BarrierTerm.init (b : BarrierTerm n) : BarrierTerm n :=
  { b with barriers := (List.finRange n).map fun i => (b.ub i, b.lb i, b.alpha i) }

/-- `TermBase::setTimeActivation` (TermBase-impl.hpp). -/
def BarrierTerm.setTimeActivation (b : BarrierTerm n) (act : ℝ → Bool) (v : ℝ → ℝ) : BarrierTerm n :=
  { b with active := act, activation := v }

/-- Copy constructor, used by `clone` (TermStateBarrier-impl.hpp:25-30): base default-constructed,
barriers initialised. -/
def BarrierTerm.copy (b : BarrierTerm n) : BarrierTerm n :=
  ({ b with barriers := [], active := fun _ => true, activation := fun _ => 1 } : BarrierTerm n).init

/-- `evaluate` (TermStateBarrier-impl.hpp:54-64); `phi` stands for the value of
`BarrierActivation::computeActivation`, and `barriers_[i]` past the end is undefined. -/
def BarrierTerm.evaluate (phi : ℝ × ℝ × ℝ → ℝ → ℝ) (b : BarrierTerm n) (x : Fin n → ℝ) : Res ℝ :=
  (List.finRange n).foldlM (fun c i => do
    let p ← idx b.barriers i.val
    return c + phi p (x i)) 0

end CT.Cost
