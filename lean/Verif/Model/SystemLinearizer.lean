import Verif.Model.NumDiff
import Verif.Model.Actuator
import Mathlib.Data.Real.Basic

/-!
# Systems linearised numerically

Models `ct_core/include/ct/core/systems/continuous_time/linear/SystemLinearizer.h` and
`ct_core/include/ct/core/systems/discrete_time/linear/DiscreteSystemLinearizer.h` with the system objects they point to, on the
model of `DynamicsLinearizerNumDiff` in `Verif.Model.NumDiff`.

Simplifications: scalars are real numbers, also the index of a discrete-time system; a system is a function of state, time and
control without side effects, and its `clone` makes an object with the same function and type.
-/

namespace CT.SysLin

variable {n m : ℕ}

/-- A `ControlledSystem` or `DiscreteControlledSystem`: its dynamics, and whether `getType()` is `SECOND_ORDER`
(System.h:15-19, 75). -/
structure Sys (n m : ℕ) where
  dyn : (Fin n → ℝ) → ℝ → (Fin m → ℝ) → (Fin n → ℝ)
  second : Bool

/-- The members of the two classes: the pointer `nonlinearSystem_` as the number of an object, `linearizer_`, of which the function
handle is bound to that pointer (SystemLinearizer.h:78-83), Jacobians and flag (SystemLinearizer.h:183-191; without the flag
DiscreteSystemLinearizer.h:179-184).  `num.dyn` is what the handle gave when it was last called. -/
structure Lin (n m : ℕ) where
  discrete : Bool
  sys : ℕ
  num : NumDiff.Linearizer n m ℝ
  dFdx : Matrix (Fin n) (Fin n) ℝ
  dFdu : Matrix (Fin n) (Fin m) ℝ
  isSecond : Bool

/-- All objects. -/
structure World (n m : ℕ) where
  sys : List (Sys n m)
  lin : List (Lin n m)

/-- `DynamicsLinearizerNumDiff(dyn, doubleSidedDerivative)` (DynamicsLinearizerNumDiff.h:50-56): `eps` is the square root of the
machine precision, `junk` the content of `res_ref_`. -/
def newNum (eps : ℝ) (junk : Fin n → ℝ) (dyn : (Fin n → ℝ) → ℝ → (Fin m → ℝ) → (Fin n → ℝ)) (dbl : Bool) :
    NumDiff.Linearizer n m ℝ := ⟨dyn, dbl, eps, junk, 0, 0⟩

/-- `topLeftCorner<STATE_DIM / 2, STATE_DIM / 2>().setZero()` and `topRightCorner<…>().setIdentity()` (SystemLinearizer.h:145-146). -/
def topState (A : Matrix (Fin n) (Fin n) ℝ) : Matrix (Fin n) (Fin n) ℝ :=
  Matrix.of fun r c =>
    if r.val < n / 2 then
      if n - n / 2 ≤ c.val then if c.val - (n - n / 2) = r.val then 1 else 0
      else if c.val < n / 2 then 0 else A r c
    else A r c

/-- `topRows<STATE_DIM / 2>().setZero()` (SystemLinearizer.h:175). -/
def topControl (B : Matrix (Fin n) (Fin m) ℝ) : Matrix (Fin n) (Fin m) ℝ :=
  Matrix.of fun r c => if r.val < n / 2 then 0 else B r c

/-- `getDerivativeState` (SystemLinearizer.h:137-150, DiscreteSystemLinearizer.h:116-122) with the system pointed to. -/
noncomputable def Lin.getDerivativeState (o : Lin n m) (s : Sys n m) (x : Fin n → ℝ) (u : Fin m → ℝ) (t : ℝ) : Lin n m :=
  let num := ({ o.num with dyn := s.dyn } : NumDiff.Linearizer n m ℝ).getDerivativeState x u t
  { o with num := num, dFdx := if !o.discrete && o.isSecond then topState num.dFdx else num.dFdx }

/-- `getDerivativeControl` (SystemLinearizer.h:167-179, DiscreteSystemLinearizer.h:138-144). -/
noncomputable def Lin.getDerivativeControl (o : Lin n m) (s : Sys n m) (x : Fin n → ℝ) (u : Fin m → ℝ) (t : ℝ) : Lin n m :=
  let num := ({ o.num with dyn := s.dyn } : NumDiff.Linearizer n m ℝ).getDerivativeControl x u t
  { o with num := num, dFdu := if !o.discrete && o.isSecond then topControl num.dFdu else num.dFdu }

/-- Calls.  `newSystem` and `setDynamics` are the user's: making a system, changing its parameters.  `new` hands a pointer to a
linearizer, the null pointer being `none`. -/
inductive Op (n m : ℕ)
  | newSystem (s : Sys n m)
  | setDynamics (i : ℕ) (f : (Fin n → ℝ) → ℝ → (Fin m → ℝ) → (Fin n → ℝ))
  | new (discrete : Bool) (i : Option ℕ) (dbl : Bool) (junk : Fin n → ℝ)
  | copy (l : ℕ) (junk : Fin n → ℝ)
  | state (l : ℕ) (x : Fin n → ℝ) (u : Fin m → ℝ) (t : ℝ)
  | control (l : ℕ) (x : Fin n → ℝ) (u : Fin m → ℝ) (t : ℝ)
  | both (l : ℕ) (x : Fin n → ℝ) (u : Fin m → ℝ) (t : ℝ)

/-- A call.  Constructors: SystemLinearizer.h:75-97, DiscreteSystemLinearizer.h:60-75; the pointer is used (`getType()`) before it
is compared with null.  Copies: SystemLinearizer.h:99-113, DiscreteSystemLinearizer.h:79-92.  `both` is `getAandB`
(DiscreteSystemLinearizer.h:163-176).  Objects that do not exist are not used by programs. -/
noncomputable def step (eps : ℝ) (w : World n m) : Op n m → Res (World n m)
  | .newSystem s => .ok { w with sys := w.sys ++ [s] }
  | .setDynamics i f =>
    match w.sys[i]? with
    | none => .ub
    | some s => .ok { w with sys := w.sys.set i { s with dyn := f } }
  | .new d i dbl junk =>
    match i.bind fun i => w.sys[i]?.map fun s => (i, s) with
    | none => .ub
    | some (i, s) => .ok { w with lin := w.lin ++ [⟨d, i, newNum eps junk s.dyn dbl, 0, 0, s.second⟩] }
  | .copy l junk =>
    match w.lin[l]?.bind fun o => w.sys[o.sys]?.map fun s => (o, s) with
    | none => .ub
    | some (o, s) =>
      .ok { sys := w.sys ++ [s]
            lin := w.lin ++ [⟨o.discrete, w.sys.length, newNum eps junk s.dyn o.num.dbl, o.dFdx, o.dFdu, o.isSecond⟩] }
  | .state l x u t =>
    match w.lin[l]?.bind fun o => w.sys[o.sys]?.map fun s => (o, s) with
    | none => .ub
    | some (o, s) => .ok { w with lin := w.lin.set l (o.getDerivativeState s x u t) }
  | .control l x u t =>
    match w.lin[l]?.bind fun o => w.sys[o.sys]?.map fun s => (o, s) with
    | none => .ub
    | some (o, s) => .ok { w with lin := w.lin.set l (o.getDerivativeControl s x u t) }
  | .both l x u t =>
    match w.lin[l]?.bind fun o => w.sys[o.sys]?.map fun s => (o, s) with
    | none => .ub
    | some (o, s) => .ok { w with lin := w.lin.set l ((o.getDerivativeState s x u t).getDerivativeControl s x u t) }

/-- A history of calls. -/
noncomputable def run (eps : ℝ) : World n m → List (Op n m) → Res (World n m)
  | w, [] => .ok w
  | w, c :: cs => do run eps (← step eps w c) cs

open Actuator Robot in
/-- `FixBaseFDSystemSymplectic` with `a` actuator positions as such a system: its type is `SECOND_ORDER`
(FixBaseFDSystemSymplectic.h:77-89). -/
noncomputable def fixBase {e k a : ℕ} {W : Type} [Zero W] (rb : Rob k e W) (act : Option (ActSym k a)) (jp jv : List ℝ) : Sys (2 * (k + a)) k where
  dyn x _ u :=
    match rb.symDynamics act (List.ofFn x) (List.ofFn u) jp jv with
    | .ok l => fun i => l.getD i 0
    | _ => 0
  second := true

end CT.SysLin
