import Mathlib.Data.List.Basic

/-!
# System models of filters that use the same system

Models `CTSystemModel` (ct_optcon/include/ct/optcon/filter/CTSystemModel-impl.h) with the objects it points to: systems, which are shared
with the caller and with other system models, and the constant controllers which the models hand over to them.

Simplifications: objects are numbered in the order of creation, the controller of model `m` has number `m`.  The scheme of the integrator,
`doStep`, is a parameter; derivatives are left out (C95).
-/

namespace CT.FilterShare

variable {X U T : Type}

/-- The controller of a system: none, the constant controller of a system model, or another one. -/
inductive Ctrl (X U T : Type)
  | none
  | const (m : ℕ)
  | law (k : X → T → U)

/-- `ControlledSystem` (ct_core/.../systems/continuous_time/ControlledSystem.h:125-146): controlled dynamics and `controller_`. -/
structure Sys (X U T : Type) where
  g : X → T → U → X
  ctrl : Ctrl X U T

/-- Systems, the controls kept by the constant controllers, and the systems used by the system models. -/
structure World (X U T : Type) where
  sys : List (Sys X U T)
  ctl : List U
  mdl : List ℕ

/-- What a program does. -/
inductive Op (X U T : Type)
  | system (g : X → T → U → X)
  | setController (s : ℕ) (k : X → T → U)
  | model (s : ℕ)
  | dynamics (m : ℕ) (x : X) (u : U) (dt t : T)

variable [Zero U]

/-- `CTSystemModel` (CTSystemModel-impl.h:11-28); the constant controller starts with zero (ConstantController-impl.h:13-16).  Without a system an
exception is thrown and there is no model. -/
def World.model (w : World X U T) (s : ℕ) : World X U T :=
  if s < w.sys.length then
    { sys := w.sys.modify s fun o => { o with ctrl := .const w.mdl.length }
      ctl := w.ctl ++ [0]
      mdl := w.mdl ++ [s] }
  else w

/-- `setController` of a system by the caller (ControlledSystem.h:93-96). -/
def World.setController (w : World X U T) (s : ℕ) (k : X → T → U) : World X U T :=
  { w with sys := w.sys.modify s fun o => { o with ctrl := .law k } }

/-- `ControlledSystem::computeDynamics` (ControlledSystem.h:125-135). -/
def World.rhs (w : World X U T) (o : Sys X U T) (x : X) (t : T) : X :=
  match o.ctrl with
  | .none => o.g x t 0
  | .const m => o.g x t ((w.ctl[m]?).getD 0)
  | .law k => o.g x t (k x t)

/-- `computeDynamics` of a system model (CTSystemModel-impl.h:30-40). -/
def World.computeDynamics (doStep : (X → T → X) → X → T → T → X) (w : World X U T) (m : ℕ) (x : X) (u : U) (dt t : T) :
    Option (World X U T × X) := do
  let s ← w.mdl[m]?
  let w := { w with ctl := w.ctl.set m u }
  let o ← w.sys[s]?
  some (w, doStep (w.rhs o) x t dt)

/-- One operation; those on objects that do not exist are not possible and change nothing. -/
def step (doStep : (X → T → X) → X → T → T → X) (w : World X U T) : Op X U T → World X U T
  | .system g => { w with sys := w.sys ++ [⟨g, .none⟩] }
  | .setController s k => w.setController s k
  | .model s => w.model s
  | .dynamics m x u dt t => ((w.computeDynamics doStep m x u dt t).map (·.1)).getD w

/-- A program. -/
def run (doStep : (X → T → X) → X → T → T → X) (ops : List (Op X U T)) : World X U T := ops.foldl (step doStep) ⟨[], [], []⟩

end CT.FilterShare
