import Verif.Model.Switching

/-!
# `SwitchedLinearConstraintContainer`

Models `ct_optcon/include/ct/optcon/constraint/SwitchedLinearConstraintContainer-impl.h` with its base classes
(`ConstraintContainerBase-impl.h`, `LinearConstraintContainer-impl.h`).  The containers of the modes are held
by shared pointers, so they are objects in a store; a program holds any number of switched containers.
-/

namespace CT.SwitchedCon

open CT.Switching

variable {X U T V R : Type}

/-- What a container of one mode answers: `inter` and `term` stand for all answers for one kind of constraints
at a point (values, counts, Jacobians, sparsity patterns); bounds; whether `initialize` succeeds. Containers with
answers that depend on anything else than the current point are not modelled. -/
structure Con (X U T V R : Type) where
  inter : X → U → T → V
  term : X → U → T → V
  lbI : List R
  ubI : List R
  lbT : List R
  ubT : List R
  initOk : Bool

/-- A container of one mode in the store: its current point and whether it is initialised
(ConstraintContainerBase.h, LinearConstraintContainer-impl.h:38-49; one flag for the two, which `initialize` sets
together). -/
structure Obj (X U T V R : Type) where
  con : Con X U T V R
  x : X
  u : U
  t : T
  init : Bool

/-- `setCurrentStateAndControl` of a container of one mode (ConstraintContainerBase-impl.h:34-43). -/
def Obj.set (o : Obj X U T V R) (x : X) (u : U) (t : T) : Obj X U T V R := { o with x := x, u := u, t := t }

/-- `initialize` of a container of one mode (LinearConstraintContainer-impl.h:38-43). -/
def Obj.initialize (o : Obj X U T V R) : Obj X U T V R := { o with init := o.con.initOk }

/-- Bounds of a container of one mode: set by `initialize`, empty before
(e.g. ConstraintContainerAnalytical-impl.h:516-527). A failed one is taken to leave them empty. -/
def Obj.bounds (o : Obj X U T V R) (b : Con X U T V R → List R) : List R := if o.init then b o.con else []

/-- Answers of a container of one mode; they throw before the initialisation
(e.g. ConstraintContainerAnalytical-impl.h:574-586). -/
def Obj.answer (o : Obj X U T V R) (f : Con X U T V R → X → U → T → V) : Res V :=
  if o.init then .ok (f o.con o.x o.u o.t) else .exc

/-- `SwitchedLinearConstraintContainer` (SwitchedLinearConstraintContainer.h:116-119, ConstraintContainerBase.h and
LinearConstraintContainer.h members); containers are addresses in the store. -/
structure Sw (X U T R : Type) where
  conts : List ℕ
  modes : PhaseSeq ℕ T
  active : ℕ
  terminal : ℕ
  x : X
  u : U
  t : T
  lbI : List R
  ubI : List R
  lbT : List R
  ubT : List R
  initI : Bool
  initT : Bool

/-- The program: containers of modes and switched containers. -/
structure World (X U T V R : Type) where
  objs : List (Obj X U T V R)
  sws : List (Sw X U T R)

/-- `std::vector::at` with an unsigned index. -/
def atN {α : Type} (l : List α) (i : ℕ) : Res α :=
  match l[i]? with
  | some a => .ok a
  | none => .exc

variable [AddCommGroup T] [LinearOrder T]

/-- The objects at the given addresses. -/
def fetch (objs : List (Obj X U T V R)) : List ℕ → Res (List (Obj X U T V R))
  | [] => .ok []
  | c :: cs => do
      let o ← idx objs c
      let os ← fetch objs cs
      pure (o :: os)

/-- Constructor (SwitchedLinearConstraintContainer-impl.h:11-20; `getFinalPhase` Switching.h:72): the point is
zero, the containers are those of the user. Null pointers among them are undefined here already, in the code at their
first use. -/
def construct [Zero X] [Zero U] (w : World X U T V R) (conts : List ℕ) (modes : PhaseSeq ℕ T) : Res (World X U T V R) := do
  let a ← front conts
  let m ← back modes.phases
  let e ← atN conts m
  let _ ← fetch w.objs conts
  pure { w with sws := w.sws ++ [⟨conts, modes, a, e, 0, 0, 0, [], [], [], [], false, false⟩] }

/-- Copy constructor, `clone` (SwitchedLinearConstraintContainer-impl.h:22-38, 45-50, clones of the containers appended to the store; base classes
ConstraintContainerBase-impl.h:17-27, LinearConstraintContainer-impl.h:17-24). Clones of the containers of the modes are
taken to have the answers and the point of the original. -/
def copy (w : World X U T V R) (k : ℕ) : Res (World X U T V R) := do
  let s ← idx w.sws k
  let os ← fetch w.objs s.conts
  let conts := (List.range s.conts.length).map (w.objs.length + ·)
  let a ← front conts
  let m ← back s.modes.phases
  let e ← atN conts m
  pure { objs := w.objs ++ os, sws := w.sws ++ [{ s with conts := conts, active := a, terminal := e }] }

/-- `setCurrentStateAndControl` (ConstraintContainerBase-impl.h:34-43) with `update`
(SwitchedLinearConstraintContainer-impl.h:215-224). An exception of `at` leaves the point changed; what the program does
after exceptions is not modelled. -/
def setCurrent (w : World X U T V R) (k : ℕ) (x : X) (u : U) (t : T) : Res (World X U T V R) := do
  let s ← idx w.sws k
  let mode ← s.modes.phaseFromTime t
  let a ← atN s.conts mode
  let o ← idx w.objs a
  let o' := o.set x u t
  pure { objs := w.objs.set a o',
         sws := w.sws.set k { s with t := t, x := x, u := u, active := a, lbI := o'.bounds Con.lbI, ubI := o'.bounds Con.ubI } }

/-- The loop of `initializeIntermediate` (SwitchedLinearConstraintContainer-impl.h:190-204). -/
def initLoop (objs : List (Obj X U T V R)) : List ℕ → Res (List (Obj X U T V R) × Bool)
  | [] => .ok (objs, true)
  | c :: cs => do
      let o ← idx objs c
      let o' := o.initialize
      if o'.init then initLoop (objs.set c o') cs
      else pure (objs.set c o', false)

/-- `initialize` (LinearConstraintContainer-impl.h:38-43) with `initializeTerminal`
(SwitchedLinearConstraintContainer-impl.h:206-213). -/
def «initialize» (w : World X U T V R) (k : ℕ) : Res (World X U T V R) := do
  let s ← idx w.sws k
  let r ← initLoop w.objs s.conts
  let o ← idx r.1 s.terminal
  pure { objs := r.1, sws := w.sws.set k { s with initI := r.2, initT := true, lbT := o.bounds Con.lbT, ubT := o.bounds Con.ubT } }

/-- `isInitialized` (LinearConstraintContainer-impl.h:45-49). -/
def isInitialized (w : World X U T V R) (k : ℕ) : Res Bool := do
  let s ← idx w.sws k
  pure (s.initI && s.initT)

/-- `evaluateIntermediate` and the other answers for intermediate constraints
(SwitchedLinearConstraintContainer-impl.h:52-57, 66-70, 78-90, 106-118, 134-140, 150-156, 166-170, 178-182). -/
def inter (w : World X U T V R) (k : ℕ) : Res V := do
  let s ← idx w.sws k
  let o ← idx w.objs s.active
  o.answer Con.inter

/-- `evaluateTerminal` and the other answers for terminal constraints
(SwitchedLinearConstraintContainer-impl.h:59-64, 72-76, 92-104, 120-132, 142-148, 158-164, 172-176, 184-188). -/
def term (w : World X U T V R) (k : ℕ) : Res V := do
  let s ← idx w.sws k
  let o ← idx w.objs s.terminal
  o.answer Con.term

/-- `getLowerBoundsIntermediate`, `getUpperBoundsIntermediate` (ConstraintContainerBase-impl.h:51-56, 65-70). -/
def boundsI (w : World X U T V R) (k : ℕ) : Res (List R × List R) := do
  let s ← idx w.sws k
  pure (s.lbI, s.ubI)

/-- `getLowerBoundsTerminal`, `getUpperBoundsTerminal` (ConstraintContainerBase-impl.h:58-63, 72-77). -/
def boundsT (w : World X U T V R) (k : ℕ) : Res (List R × List R) := do
  let s ← idx w.sws k
  pure (s.lbT, s.ubT)

/-- What a program does: containers of modes are created, set and initialised by the user, switched containers
constructed, copied, set and initialised. -/
inductive Op (X U T V R : Type) where
  | newObj (c : Con X U T V R)
  | setObj (a : ℕ) (x : X) (u : U) (t : T)
  | initObj (a : ℕ)
  | construct (conts : List ℕ) (modes : PhaseSeq ℕ T)
  | copy (k : ℕ)
  | set (k : ℕ) (x : X) (u : U) (t : T)
  | «initialize» (k : ℕ)

/-- One step. -/
def step [Zero X] [Zero U] (w : World X U T V R) : Op X U T V R → Res (World X U T V R)
  | .newObj c => .ok { w with objs := w.objs ++ [⟨c, 0, 0, 0, false⟩] }
  | .setObj a x u t => do
      let o ← idx w.objs a
      pure { w with objs := w.objs.set a (o.set x u t) }
  | .initObj a => do
      let o ← idx w.objs a
      pure { w with objs := w.objs.set a o.initialize }
  | .construct conts modes => construct w conts modes
  | .copy k => copy w k
  | .set k x u t => setCurrent w k x u t
  | .initialize k => «initialize» w k

/-- A history of steps. -/
def run [Zero X] [Zero U] (w : World X U T V R) : List (Op X U T V R) → Res (World X U T V R)
  | [] => .ok w
  | o :: os => do
      let w' ← step w o
      run w' os

end CT.SwitchedCon
