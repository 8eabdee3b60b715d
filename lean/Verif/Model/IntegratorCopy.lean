import Mathlib.Data.List.Basic

/-!
# Integrators as objects

Models integrators with their identity: `Integrator` and its `Observer` keep functions that refer to the object they were made in
(ct_core/include/ct/core/integration/Integrator-impl.h, Observer-impl.h), and neither declares a copy constructor.

Simplifications: event handlers and assignment are left out.  Addresses are numbers that are given in the order of creation and not
used again; objects are looked up at the address which a function refers to.  The stepper is one of SteppersCT.h; its scheme `doStep` and
the type of states are parameters.  `none` as a result is undefined behaviour.
-/

namespace CT.IntCopy

/-- A system: derivative for state and time. -/
abbrev Sys (X T : Type) := X → T → X

/-- An integrator (Integrator.h:375-379): `system_`, the object `systemFunction_` refers to (Integrator-impl.h:186-192), the object whose
observer `observeWrapWithLogging` refers to (Observer-impl.h:14-17), and the points in `states_` and `times_` of its observer. -/
structure Obj (X T : Type) where
  system : Sys X T
  sysThis : ℕ
  obsThis : ℕ
  log : List (X × T)

/-- The objects made so far; `none` is an object that has been destroyed. -/
abbrev Heap (X T : Type) := List (Option (Obj X T))

variable {X T : Type}

/-- The object at an address, if it lives. -/
def live (h : Heap X T) (i : ℕ) : Option (Obj X T) := (h[i]?).join

/-- The constructor (Integrator-impl.h:12-20, 183-195; Observer-impl.h:11-21). -/
def make (h : Heap X T) (f : Sys X T) : Heap X T := h ++ [some ⟨f, h.length, h.length, []⟩]

/-- The implicit copy constructor of `Integrator` and `Observer`: member by member. -/
def copy (h : Heap X T) (i : ℕ) : Heap X T :=
  match live h i with
  | some o => h ++ [some o]
  | none => h

/-- The destructor. -/
def destroy (h : Heap X T) (i : ℕ) : Heap X T := h.set i none

variable [Add T]

/-- `StepperCTBase::integrate_n_steps` (internal/SteppersCT.h:42-57) with `systemFunction_` and `observeWrapWithLogging` of `o`. -/
def loop (doStep : Sys X T → X → T → T → X) (o : Obj X T) (dt : T) : ℕ → Heap X T → X → T → Option (Heap X T × X)
  | 0, h, x, _ => some (h, x)
  | n + 1, h, x, t => do
    let a ← live h o.sysThis
    let x := doStep a.system x t dt
    let t := t + dt
    let b ← live h o.obsThis
    let h := h.set o.obsThis (some { b with log := b.log ++ [(x, t)] })
    loop doStep o dt n h x t

/-- `integrate_n_steps` with recording (Integrator-impl.h:49-61, 160-173; Observer-impl.h:23-31) of the integrator at `i`; `out` is what
the given arrays hold before.  Returns the recorded points and the state. -/
def record (doStep : Sys X T → X → T → T → X) (h : Heap X T) (i : ℕ) (x : X) (t : T) (n : ℕ) (dt : T) (out : List (X × T)) :
    Option (Heap X T × List (X × T) × X) := do
  let o ← live h i
  let h := h.set i (some { o with log := [] })
  let (h, x) ← loop doStep o dt n h x t
  let o ← live h i
  let h := h.set i (some { o with log := out })
  some (h, o.log, x)

/-- What a program does with integrators. -/
inductive Op (X T : Type)
  | make (f : Sys X T)
  | copy (i : ℕ)
  | destroy (i : ℕ)
  | record (i : ℕ) (x : X) (t : T) (n : ℕ) (dt : T) (out : List (X × T))

/-- One operation. -/
def step (doStep : Sys X T → X → T → T → X) (h : Heap X T) : Op X T → Option (Heap X T)
  | .make f => some (make h f)
  | .copy i => some (copy h i)
  | .destroy i => some (destroy h i)
  | .record i x t n dt out => (record doStep h i x t n dt out).map (·.1)

/-- A program. -/
def run (doStep : Sys X T → X → T → T → X) (ops : List (Op X T)) : Option (Heap X T) := ops.foldlM (step doStep) []

end CT.IntCopy
