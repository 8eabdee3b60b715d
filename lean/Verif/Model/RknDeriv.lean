import Verif.Model.Res
import Mathlib.Data.Real.Basic
import Mathlib.Data.Matrix.Basic

/-!
# Sensitivities of the Euler and Runge-Kutta schemes

`ct_optcon/include/ct/optcon/dms/dms_core/RKnDerivatives.h`: derivatives of the states along a shot with
respect to its initial state and to the control nodes at both ends, computed from logged times and
Jacobians.  Scalars are the reals.  The assertions (absent from optimised builds) are not modelled.
-/

namespace CT.Rkn

variable {n m : ℕ}

/-- `DmsSettings::IntegrationType` (DmsSettings.h:28). -/
inductive Scheme where
  | euler
  | rk4
  | rk5

/-- The logs passed by `setLogs` (RKnDerivatives.h:73-84) that are used: times and the Jacobians of the
dynamics with respect to state and control.  The logs of states and controls are stored and never
read. -/
structure Logs (n m : ℕ) where
  t : List ℝ
  A : List (Matrix (Fin n) (Fin n) ℝ)
  B : List (Matrix (Fin n) (Fin m) ℝ)

/-- What the class holds: integration type, the logs (null pointers before `setLogs`) and the four
histories (RKnDerivatives.h:327-341); the shot index is fixed in the argument `spl` below. -/
structure Obj (n m : ℕ) where
  ty : Scheme
  logs : Option (Logs n m)
  dS : List (Matrix (Fin n) (Fin n) ℝ)
  dQ : List (Matrix (Fin n) (Fin m) ℝ)
  dQ1 : List (Matrix (Fin n) (Fin m) ℝ)
  dH : List (Fin n → ℝ)

/-- Constructor (RKnDerivatives.h:55-71). -/
def Obj.new (ty : Scheme) : Obj n m := ⟨ty, none, [], [], [], []⟩

/-- `setLogs` (RKnDerivatives.h:73-84). -/
def Obj.setLogs (o : Obj n m) (l : Logs n m) : Obj n m := { o with logs := some l }

/-- One pass of the Euler loop of `compute_dXdSi` (RKnDerivatives.h:98-105). -/
noncomputable def eulerS (l : Logs n m) (hist : List (Matrix (Fin n) (Fin n) ℝ)) (i : ℕ) :
    Res (List (Matrix (Fin n) (Fin n) ℝ)) := do
  let t1 ← idx l.t (i + 1)
  let t0 ← idx l.t i
  let A ← idx l.A i
  let X ← back hist
  pure (hist ++ [(1 + (t1 - t0) • A) * X])

/-- One pass of the Runge-Kutta loop of `compute_dXdSi` (RKnDerivatives.h:122-144). -/
noncomputable def rk4S (l : Logs n m) (hist : List (Matrix (Fin n) (Fin n) ℝ)) (i : ℕ) :
    Res (List (Matrix (Fin n) (Fin n) ℝ)) := do
  let t1 ← idx l.t ((i + 1) * 4)
  let t0 ← idx l.t (i * 4)
  let h := t1 - t0
  let X ← back hist
  let A1 ← idx l.A (i * 4)
  let K1 := A1 * X
  let A2 ← idx l.A (i * 4 + 1)
  let K2 := A2 * (X + (h * (1 / 2)) • K1)
  let A3 ← idx l.A (i * 4 + 2)
  let K3 := A3 * (X + (h * (1 / 2)) • K2)
  let A4 ← idx l.A (i * 4 + 3)
  let K4 := A4 * (X + (h * 1) • K3)
  pure (hist ++ [X + h • ((1 / 6 : ℝ) • K1 + (1 / 3 : ℝ) • K2 + (1 / 3 : ℝ) • K3 + (1 / 6 : ℝ) • K4)])

/-- One pass of the Euler loops of `compute_dXdQi` and `compute_dXdQip1` (RKnDerivatives.h:167-175,
250-261); `spl t` is the derivative of the spline with respect to the node at time `t`
(`splineDerivative_q_i` or `splineDerivative_q_iplus1` for the shot). -/
noncomputable def eulerQ (spl : ℝ → Res (Matrix (Fin m) (Fin m) ℝ)) (l : Logs n m)
    (hist : List (Matrix (Fin n) (Fin m) ℝ)) (i : ℕ) : Res (List (Matrix (Fin n) (Fin m) ℝ)) := do
  let t0 ← idx l.t i
  let D ← spl t0
  let t1 ← idx l.t (i + 1)
  let X ← back hist
  let A ← idx l.A i
  let B ← idx l.B i
  pure (hist ++ [X + (t1 - t0) • (A * X + B * D)])

/-- One pass of the Runge-Kutta loops of `compute_dXdQi` and `compute_dXdQip1` (RKnDerivatives.h:191-225,
278-312). -/
noncomputable def rk4Q (spl : ℝ → Res (Matrix (Fin m) (Fin m) ℝ)) (l : Logs n m)
    (hist : List (Matrix (Fin n) (Fin m) ℝ)) (i : ℕ) : Res (List (Matrix (Fin n) (Fin m) ℝ)) := do
  let t1 ← idx l.t ((i + 1) * 4)
  let t0 ← idx l.t (i * 4)
  let h := t1 - t0
  let X ← back hist
  let A1 ← idx l.A (i * 4)
  let B1 ← idx l.B (i * 4)
  let D1 ← spl t0
  let K1 := A1 * X + B1 * D1
  let A2 ← idx l.A (i * 4 + 1)
  let B2 ← idx l.B (i * 4 + 1)
  let D2 ← idx l.t (i * 4 + 1) >>= spl
  let K2 := A2 * (X + (h * (1 / 2)) • K1) + B2 * D2
  let A3 ← idx l.A (i * 4 + 2)
  let B3 ← idx l.B (i * 4 + 2)
  let D3 ← idx l.t (i * 4 + 2) >>= spl
  let K3 := A3 * (X + (h * (1 / 2)) • K2) + B3 * D3
  let A4 ← idx l.A (i * 4 + 3)
  let B4 ← idx l.B (i * 4 + 3)
  let D4 ← idx l.t (i * 4 + 3) >>= spl
  let K4 := A4 * (X + (h * 1) • K3) + B4 * D4
  pure (hist ++ [X + h • ((1 / 6 : ℝ) • K1 + (1 / 3 : ℝ) • K2 + (1 / 3 : ℝ) • K3 + (1 / 6 : ℝ) • K4)])

/-- How a computation ends that may also end the process (`exit(0)`). -/
inductive End (α : Type) where
  | done (a : α)
  | exited

/-- `compute_dXdSi` (RKnDerivatives.h:88-154). -/
noncomputable def Obj.computeS (o : Obj n m) : Res (End (Obj n m)) :=
  match o.ty, o.logs with
  | .rk5, _ => .ok .exited
  | _, none => .ub
  | .euler, some l => (List.range (l.A.length / 1)).foldlM (eulerS l) [1] >>= fun h => .ok (.done { o with dS := h })
  | .rk4, some l => (List.range (l.A.length / 4)).foldlM (rk4S l) [1] >>= fun h => .ok (.done { o with dS := h })

/-- `compute_dXdQi` (RKnDerivatives.h:158-235). -/
noncomputable def Obj.computeQ (spl : ℝ → Res (Matrix (Fin m) (Fin m) ℝ)) (o : Obj n m) : Res (End (Obj n m)) :=
  match o.ty, o.logs with
  | .rk5, _ => .ok .exited
  | _, none => .ub
  | .euler, some l => (List.range l.A.length).foldlM (eulerQ spl l) [0] >>= fun h => .ok (.done { o with dQ := h })
  | .rk4, some l => (List.range (l.A.length / 4)).foldlM (rk4Q spl l) [0] >>= fun h => .ok (.done { o with dQ := h })

/-- `compute_dXdQip1` (RKnDerivatives.h:239-321); this one throws for the third integration type. -/
noncomputable def Obj.computeQ1 (spl : ℝ → Res (Matrix (Fin m) (Fin m) ℝ)) (o : Obj n m) : Res (End (Obj n m)) :=
  match o.ty, o.logs with
  | .rk5, _ => .exc
  | _, none => .ub
  | .euler, some l => (List.range l.A.length).foldlM (eulerQ spl l) [0] >>= fun h => .ok (.done { o with dQ1 := h })
  | .rk4, some l => (List.range (l.A.length / 4)).foldlM (rk4Q spl l) [0] >>= fun h => .ok (.done { o with dQ1 := h })

/-- The getters (RKnDerivatives.h:323-326) copy the histories. -/
def Obj.getS (o : Obj n m) : List (Matrix (Fin n) (Fin n) ℝ) := o.dS
def Obj.getQ (o : Obj n m) : List (Matrix (Fin n) (Fin m) ℝ) := o.dQ
def Obj.getQ1 (o : Obj n m) : List (Matrix (Fin n) (Fin m) ℝ) := o.dQ1
def Obj.getH (o : Obj n m) : List (Fin n → ℝ) := o.dH

/-- Calls of the user. -/
inductive Call (n m : ℕ) where
  | setLogs (l : Logs n m)
  | computeS
  | computeQ
  | computeQ1

/-- One call; `spl`, `spl1` are the derivatives of the control spline. -/
noncomputable def Obj.call (spl spl1 : ℝ → Res (Matrix (Fin m) (Fin m) ℝ)) (o : Obj n m) : Call n m → Res (End (Obj n m))
  | .setLogs l => .ok (.done (o.setLogs l))
  | .computeS => o.computeS
  | .computeQ => o.computeQ spl
  | .computeQ1 => o.computeQ1 spl1

/-- A history of calls. -/
noncomputable def Obj.calls (spl spl1 : ℝ → Res (Matrix (Fin m) (Fin m) ℝ)) : List (Call n m) → Obj n m → Res (End (Obj n m))
  | [], o => .ok (.done o)
  | c :: cs, o => o.call spl spl1 c >>= fun r =>
    match r with
    | .done o' => Obj.calls spl spl1 cs o'
    | .exited => .ok .exited

end CT.Rkn
