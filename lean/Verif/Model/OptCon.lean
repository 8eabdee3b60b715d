import Mathlib.Order.Basic
import Mathlib.Order.Defs.LinearOrder
import Mathlib.Data.Rat.Defs
import Mathlib.Algebra.Order.Ring.Rat

/-!
# Optimal control problems and the solvers that use them

`OptConProblemBase` keeps shared pointers to objects of the user; the solvers copy these objects when they
are handed over. Objects of the user are addressed by numbers; their contents (a system, a linearisation, a
cost function, a set of constraints) are arbitrary types. Copying an object gives its contents at that time.
-/

namespace CT.OptCon

variable {T X S L C K : Type}

/-- A linearised system as an object: one written by the user, or the `LINEARIZER_T` made by the constructor of the
problem (OptConProblemBase-impl.h:30-33), which keeps a pointer to a system. -/
inductive LinPtr where
  | obj (i : ℕ)
  | numeric (sys : ℕ)
deriving DecidableEq, Repr

/-- What a copy of a linearised system linearises: the copy constructor of `SystemLinearizer` copies the system
it points to (SystemLinearizer.h:99-101; DiscreteSystemLinearizer.h:79-81). -/
inductive LinVal (S L : Type) where
  | user (l : L)
  | numeric (s : S)
deriving DecidableEq, Repr

/-- The objects of the user. Constraint containers come with the result of `isInitialized`
(LinearConstraintContainer-impl.h:46-49; the flags of intermediate and terminal constraints are one here). -/
structure Store (S L C K : Type) where
  sys : ℕ → S
  lin : ℕ → L
  cost : ℕ → C
  con : ℕ → K × Bool

/-- `clone()` of a linearised system. -/
def Store.copyLin (w : Store S L C K) : LinPtr → LinVal S L
  | .obj i => .user (w.lin i)
  | .numeric i => .numeric (w.sys i)

/-- The members of `OptConProblemBase` (OptConProblemBase.h:223-250). `none` is a null pointer; for the horizon and
the initial state it is an indeterminate value, left by the default constructor (OptConProblemBase.h:56). -/
structure Problem (T X : Type) where
  tf : Option T
  x0 : Option X
  sys : Option ℕ
  cost : Option ℕ
  lin : Option LinPtr
  inBox : Option ℕ
  stBox : Option ℕ
  gen : Option ℕ
deriving DecidableEq, Repr

/-- How a call ends. -/
inductive Out where
  | done
  | threw
  | ub
deriving DecidableEq, Repr

/-- Default constructor (OptConProblemBase.h:56). -/
def Problem.empty : Problem T X := ⟨none, none, none, none, none, none, none, none⟩

/-- Constructor without constraints (OptConProblemBase-impl.h:17-34): without a linearised system the default one is
made from the system, whose constructor dereferences the pointer before it compares it with null
(SystemLinearizer.h:75-87; DiscreteSystemLinearizer.h:60-72). -/
def Problem.simple [Zero T] [Zero X] (sys cost : Option ℕ) (lin : Option ℕ) : Problem T X × Out :=
  match lin, sys with
  | some l, _ => (⟨some 0, some 0, sys, cost, some (.obj l), none, none, none⟩, .done)
  | none, some s => (⟨some 0, some 0, sys, cost, some (.numeric s), none, none, none⟩, .done)
  | none, none => (.empty, .ub)

/-- Constructors with horizon and initial state, with constraints, and with both (OptConProblemBase-impl.h:43-53, 62-75,
84-101); the constraints are stored as they are. -/
def Problem.construct [Zero T] [Zero X] (start : Option (T × X)) (sys cost inBox stBox gen : Option ℕ)
    (lin : Option ℕ) : Problem T X × Out :=
  let r := Problem.simple (T := T) (X := X) sys cost lin
  let p := { r.1 with inBox := inBox, stBox := stBox, gen := gen }
  match start with
  | none => (p, r.2)
  | some (tf, x0) => ({ p with tf := some tf, x0 := some x0 }, r.2)

/-- `verify` (OptConProblemBase-impl.h:110-128). Comparing an indeterminate horizon has no defined result. -/
def Problem.verify [Zero T] [LinearOrder T] (p : Problem T X) : Out :=
  if p.sys.isNone then .threw
  else if p.lin.isNone then .threw
  else if p.cost.isNone then .threw
  else match p.tf with
    | none => .ub
    | some tf => if tf < 0 then .threw else .done

/-- `initialize()` of a container that is not initialised (OptConProblemBase-impl.h:215-216, 229-230, 243-244). That it
succeeds is assumed. -/
def Store.initCon (w : Store S L C K) (i : ℕ) : Store S L C K :=
  { w with con := fun j => if j = i then ((w.con j).1, true) else w.con j }

/-- A setter of the problem. -/
inductive POp (T X : Type) where
  | sys (p : Option ℕ)
  | lin (p : Option ℕ)
  | cost (p : Option ℕ)
  | inBox (p : Option ℕ)
  | stBox (p : Option ℕ)
  | gen (p : Option ℕ)
  | state (x : X)
  | horizon (tf : T)
deriving DecidableEq, Repr

/-- The setters (OptConProblemBase-impl.h:175-245, 308-312, 332-336). Those for constraints dereference the pointer after it
has been stored. -/
def POp.step (w : Store S L C K) (p : Problem T X) : POp T X → Store S L C K × Problem T X × Out
  | .sys q => (w, { p with sys := q }, .done)
  | .lin q => (w, { p with lin := q.map .obj }, .done)
  | .cost q => (w, { p with cost := q }, .done)
  | .inBox q => match q with
    | none => (w, { p with inBox := q }, .ub)
    | some i => (w.initCon i, { p with inBox := q }, .done)
  | .stBox q => match q with
    | none => (w, { p with stBox := q }, .ub)
    | some i => (w.initCon i, { p with stBox := q }, .done)
  | .gen q => match q with
    | none => (w, { p with gen := q }, .ub)
    | some i => (w.initCon i, { p with gen := q }, .done)
  | .state x => (w, { p with x0 := some x }, .done)
  | .horizon tf => (w, { p with tf := some tf }, .done)

/-! ### `NLOptConSolver` and its backend -/

/-- The parts of the problem kept by `NLOCBackendBase` and its system interface: one copy per thread and one for the
main thread. -/
structure Nloc (X S L C K : Type) where
  nThreads : ℕ
  stages : ℕ
  x0 : X
  sys : List S
  lin : List (LinVal S L)
  cost : List C
  inBox : List (Option (K × Bool))
  stBox : List (Option (K × Bool))
  gen : List (Option (K × Bool))
deriving DecidableEq, Repr

/-- `v.resize(n)` and an assignment to each of the first `n` entries; the entries are the copies made in each round
(NLOCBackendBase-impl.hpp:255-261, 283-289, 305-311, 328-334; OptconContinuousSystemInterface-impl.h:31-39, 48-52). -/
def fill {α : Type} (v : List α) (n : ℕ) (a : α) : List α :=
  (List.range n).foldl (fun v i => v.set i a) (v.take n ++ List.replicate (n - v.length) a)

/-- `.at(i)` and an assignment for each of the first `n` entries (OptconContinuousSystemInterface-impl.h:31-39, 48-52):
throws when there are fewer. -/
def fillAt {α : Type} (v : List α) (n : ℕ) (a : α) : List α × Out :=
  if n ≤ v.length then ((List.range n).foldl (fun v i => v.set i a) v, .done)
  else ((List.range v.length).foldl (fun v i => v.set i a) v, .threw)

/-- `changeTimeHorizon` (NLOCBackendBase-impl.hpp:190-235) as far as the number of stages is concerned; `steps` is
`computeK`, which is at least one. -/
def Nloc.changeHorizon [Zero T] [LinearOrder T] (steps : T → ℕ) (s : Nloc X S L C K) (tf : T) : Nloc X S L C K × Out :=
  if tf < 0 then (s, .threw)
  else if steps tf = s.stages then (s, .done)
  else if steps tf < 1 then (s, .threw)
  else ({ s with stages := steps tf }, .done)

/-- `changeInitialState` (NLOCBackendBase-impl.hpp:238-246). -/
def Nloc.changeState (s : Nloc X S L C K) (x : X) : Nloc X S L C K := { s with x0 := x }

/-- `changeCostFunction` (NLOCBackendBase-impl.hpp:249-267), without the cost of the trajectory. -/
def Nloc.changeCost (w : Store S L C K) (s : Nloc X S L C K) : Option ℕ → Nloc X S L C K × Out
  | none => (s, .threw)
  | some i => ({ s with cost := fill s.cost (s.nThreads + 1) (w.cost i) }, .done)

/-- `changeNonlinearSystem` (OptconContinuousSystemInterface-impl.h:25-40; OptconDiscreteSystemInterface-impl.h:44-56), without
controllers and discretizers (C119). -/
def Nloc.changeSys (w : Store S L C K) (s : Nloc X S L C K) : Option ℕ → Nloc X S L C K × Out
  | none => (s, .threw)
  | some i => let r := fillAt s.sys (s.nThreads + 1) (w.sys i); ({ s with sys := r.1 }, r.2)

/-- `changeLinearSystem` (OptconContinuousSystemInterface-impl.h:42-53; OptconDiscreteSystemInterface-impl.h:59-69). -/
def Nloc.changeLin (w : Store S L C K) (s : Nloc X S L C K) : Option LinPtr → Nloc X S L C K × Out
  | none => (s, .threw)
  | some i => let r := fillAt s.lin (s.nThreads + 1) (w.copyLin i); ({ s with lin := r.1 }, r.2)

/-- `changeInputBoxConstraints` of the backend (NLOCBackendBase-impl.hpp:277-296), without what is written to the linear
quadratic problem (C103, C106). -/
def Nloc.changeInBox (w : Store S L C K) (s : Nloc X S L C K) : Option ℕ → Nloc X S L C K × Out
  | none => (s, .threw)
  | some i => ({ s with inBox := fill s.inBox (s.nThreads + 1) (some (w.con i)) }, .done)

/-- `changeStateBoxConstraints` of the backend (NLOCBackendBase-impl.hpp:299-318). -/
def Nloc.changeStBox (w : Store S L C K) (s : Nloc X S L C K) : Option ℕ → Nloc X S L C K × Out
  | none => (s, .threw)
  | some i => ({ s with stBox := fill s.stBox (s.nThreads + 1) (some (w.con i)) }, .done)

/-- `changeGeneralConstraints` of the backend (NLOCBackendBase-impl.hpp:322-361). -/
def Nloc.changeGen (w : Store S L C K) (s : Nloc X S L C K) : Option ℕ → Nloc X S L C K × Out
  | none => (s, .threw)
  | some i => ({ s with gen := fill s.gen (s.nThreads + 1) (some (w.con i)) }, .done)

/-- One call after the other; the first one that does not end normally ends the whole. -/
def andThen {σ : Type} (r : σ × Out) (f : σ → σ × Out) : σ × Out :=
  match r.2 with
  | .done => f r.1
  | o => (r.1, o)

/-- A call only `if (pointer)`. -/
def ifSet {σ α : Type} (p : Option α) (f : σ → Option α → σ × Out) (s : σ) : σ × Out :=
  if p.isSome then f s p else (s, .done)

/-- The backend before the body of its constructor (NLOCBackendBase-impl.hpp:30-60): `x_` is empty, all constraints are
null. -/
def Nloc.blank (n : ℕ) (x : X) : Nloc X S L C K :=
  ⟨n, 0, x, [], [], [], List.replicate (n + 1) none, List.replicate (n + 1) none, List.replicate (n + 1) none⟩

/-- `initialize` of the system interfaces (OptconContinuousSystemInterface-impl.h:56-71; OptconDiscreteSystemInterface-impl.h:72-87)
dereferences both systems. The choice of integrators is not modelled (C119). -/
def Nloc.initIface (w : Store S L C K) (p : Problem T X) (s : Nloc X S L C K) : Nloc X S L C K × Out :=
  match p.sys, p.lin with
  | some i, some l =>
    ({ s with sys := fill s.sys (s.nThreads + 1) (w.sys i), lin := fill s.lin (s.nThreads + 1) (w.copyLin l) }, .done)
  | _, _ => (s, .ub)

/-- The constructor of the solver (NLOptConSolver-impl.hpp:11-16, 45-58; NLOCBackendBase-impl.hpp:30-84): the parts of the problem
are used without `verify`. -/
def Nloc.construct [Zero T] [LinearOrder T] (steps : T → ℕ) (w : Store S L C K) (p : Problem T X) (n : ℕ) (junk : X) :
    Nloc X S L C K × Out :=
  let r := Nloc.initIface w p (.blank n junk)
  let r := andThen r fun s => match p.tf with
    | none => (s, .ub)
    | some tf => s.changeHorizon steps tf
  let r := andThen r fun s => match p.x0 with
    | none => (s, .ub)
    | some x => (s.changeState x, .done)
  let r := andThen r fun s => s.changeCost w p.cost
  let r := andThen r (ifSet p.inBox fun s => s.changeInBox w)
  let r := andThen r (ifSet p.stBox fun s => s.changeStBox w)
  andThen r (ifSet p.gen fun s => s.changeGen w)

/-- `changeInputBoxConstraints`, `changeStateBoxConstraints` and `changeGeneralConstraints` of `NLOptConSolver`: not overridden
(NLOptConSolver.hpp), so the functions of the base class throw (OptConSolver.h:206-228). -/
def Nloc.solverConstraints (s : Nloc X S L C K) (_ : Option ℕ) : Nloc X S L C K × Out := (s, .threw)

/-- `setProblem` (OptConSolver.h:73-89). -/
def Nloc.setProblem [Zero T] [LinearOrder T] (steps : T → ℕ) (w : Store S L C K) (p : Problem T X) (s : Nloc X S L C K) :
    Nloc X S L C K × Out :=
  let r := (s, p.verify)
  let r := andThen r fun s => match p.tf with
    | none => (s, .ub)
    | some tf => s.changeHorizon steps tf
  let r := andThen r fun s => match p.x0 with
    | none => (s, .ub)
    | some x => (s.changeState x, .done)
  let r := andThen r fun s => s.changeCost w p.cost
  let r := andThen r fun s => s.changeSys w p.sys
  let r := andThen r fun s => s.changeLin w p.lin
  let r := andThen r (ifSet p.inBox Nloc.solverConstraints)
  let r := andThen r (ifSet p.stBox Nloc.solverConstraints)
  andThen r (ifSet p.gen Nloc.solverConstraints)

/-- Calls by the user: changes of their objects and of the problem, and calls on the solver. -/
inductive Op (T X S L C K : Type) where
  | editSys (i : ℕ) (s : S)
  | editLin (i : ℕ) (l : L)
  | editCost (i : ℕ) (c : C)
  | editCon (i : ℕ) (k : K × Bool)
  | problem (op : POp T X)
  | setProblem
  | horizon (tf : T)
  | state (x : X)
  | cost (p : Option ℕ)
  | sys (p : Option ℕ)
  | lin (p : Option ℕ)
  | inBox (p : Option ℕ)
  | stBox (p : Option ℕ)
  | gen (p : Option ℕ)
  | backendInBox (p : Option ℕ)
  | backendStBox (p : Option ℕ)
  | backendGen (p : Option ℕ)

/-- Changes of the user's objects. -/
def Op.edit (w : Store S L C K) : Op T X S L C K → Store S L C K
  | .editSys i s => { w with sys := fun j => if j = i then s else w.sys j }
  | .editLin i l => { w with lin := fun j => if j = i then l else w.lin j }
  | .editCost i c => { w with cost := fun j => if j = i then c else w.cost j }
  | .editCon i k => { w with con := fun j => if j = i then k else w.con j }
  | _ => w

/-- The user's objects, their problem and a solver. -/
structure State (T X S L C K : Type) (V : Type) where
  store : Store S L C K
  prob : Problem T X
  solver : V

/-- A call with a `NLOptConSolver` in place; the functions of the backend are reached with `getBackend`
(NLOptConSolver-impl.hpp:235-240). -/
def Nloc.step [Zero T] [LinearOrder T] (steps : T → ℕ) (q : State T X S L C K (Nloc X S L C K)) (op : Op T X S L C K) :
    State T X S L C K (Nloc X S L C K) × Out :=
  let put := fun (r : Nloc X S L C K × Out) => ({ q with solver := r.1 }, r.2)
  match op with
  | .problem o => let r := o.step q.store q.prob; (⟨r.1, r.2.1, q.solver⟩, r.2.2)
  | .setProblem => put (q.solver.setProblem steps q.store q.prob)
  | .horizon tf => put (q.solver.changeHorizon steps tf)
  | .state x => put (q.solver.changeState x, .done)
  | .cost p => put (q.solver.changeCost q.store p)
  | .sys p => put (q.solver.changeSys q.store p)
  | .lin p => put (q.solver.changeLin q.store (p.map .obj))
  | .inBox p => put (q.solver.solverConstraints p)
  | .stBox p => put (q.solver.solverConstraints p)
  | .gen p => put (q.solver.solverConstraints p)
  | .backendInBox p => put (q.solver.changeInBox q.store p)
  | .backendStBox p => put (q.solver.changeStBox q.store p)
  | .backendGen p => put (q.solver.changeGen q.store p)
  | op => ({ q with store := op.edit q.store }, .done)

/-- A history of calls; exceptions are caught by the user, undefined behaviour ends the history. -/
def runOps {σ ω : Type} (step : σ → ω → σ × Out) (q : σ) : List ω → σ × Out
  | [] => (q, .done)
  | op :: ops =>
    let r := step q op
    match r.2 with
    | .ub => (r.1, .ub)
    | _ => runOps step r.1 ops

/-! ### `DmsSolver` -/

/-- What `DmsProblem` works with (DmsProblem.h:62-169): systems, linearisations and cost functions of the shots, the cost
function of the cost evaluator, the path constraints, horizon and initial state. -/
structure DmsUsed (T X S L C K : Type) where
  sys : List S
  lin : List (LinVal S L)
  cost : List C
  evalCost : Option C
  cons : List (K × Bool)
  tf : T
  x0 : X
deriving DecidableEq, Repr

/-- The members of `DmsSolver` (DmsSolver.h:275-289). -/
structure Dms (T X S L C K : Type) where
  nShots : ℕ
  tf : T
  x0 : X
  sys : List S
  lin : List (LinVal S L)
  cost : List C
  inBox : List (K × Bool)
  stBox : List (K × Bool)
  gen : List (K × Bool)
  used : Option (DmsUsed T X S L C K)
deriving DecidableEq, Repr

/-- `changeTimeHorizon` (DmsSolver.h:162-167); the grid is modelled in C107. -/
def Dms.changeHorizon (s : Dms T X S L C K) (tf : T) : Dms T X S L C K :=
  { s with tf := tf, used := s.used.map fun u => { u with tf := tf } }

/-- `changeInitialState` (DmsSolver.h:169-174). -/
def Dms.changeState (s : Dms T X S L C K) (x : X) : Dms T X S L C K :=
  { s with x0 := x, used := s.used.map fun u => { u with x0 := x } }

/-- `changeCostFunction` (DmsSolver.h:176-182). Given null, the instances are resized; with at least one earlier call this
changes nothing, as the number of shots is fixed. The simplification: before the first call the instances would be
null, here there are none. -/
def Dms.changeCost (w : Store S L C K) (s : Dms T X S L C K) : Option ℕ → Dms T X S L C K
  | none => s
  | some i => { s with cost := fill s.cost s.nShots (w.cost i) }

/-- `changeNonlinearSystem` (DmsSolver.h:184-191); null as above. -/
def Dms.changeSys (w : Store S L C K) (s : Dms T X S L C K) : Option ℕ → Dms T X S L C K
  | none => s
  | some i => { s with sys := fill s.sys s.nShots (w.sys i) }

/-- `changeLinearSystem` (DmsSolver.h:193-200); null as above. -/
def Dms.changeLin (w : Store S L C K) (s : Dms T X S L C K) : Option LinPtr → Dms T X S L C K
  | none => s
  | some i => { s with lin := fill s.lin s.nShots (w.copyLin i) }

/-- `changeInputBoxConstraints` (DmsSolver.h:202-206): appends a copy; a null pointer is dereferenced. -/
def Dms.changeInBox (w : Store S L C K) (s : Dms T X S L C K) : Option ℕ → Dms T X S L C K × Out
  | none => (s, .ub)
  | some i => ({ s with inBox := s.inBox ++ [w.con i] }, .done)

/-- `changeStateBoxConstraints` (DmsSolver.h:208-212). -/
def Dms.changeStBox (w : Store S L C K) (s : Dms T X S L C K) : Option ℕ → Dms T X S L C K × Out
  | none => (s, .ub)
  | some i => ({ s with stBox := s.stBox ++ [w.con i] }, .done)

/-- `changeGeneralConstraints` (DmsSolver.h:214-217). -/
def Dms.changeGen (w : Store S L C K) (s : Dms T X S L C K) : Option ℕ → Dms T X S L C K × Out
  | none => (s, .ub)
  | some i => ({ s with gen := s.gen ++ [w.con i] }, .done)

/-- `setProblem` (OptConSolver.h:73-89) of this solver. -/
def Dms.setProblem [Zero T] [LinearOrder T] (w : Store S L C K) (p : Problem T X) (s : Dms T X S L C K) :
    Dms T X S L C K × Out :=
  let r := (s, p.verify)
  let r := andThen r fun s => match p.tf with
    | none => (s, .ub)
    | some tf => (s.changeHorizon tf, .done)
  let r := andThen r fun s => match p.x0 with
    | none => (s, .ub)
    | some x => (s.changeState x, .done)
  let r := andThen r fun s => (s.changeCost w p.cost, .done)
  let r := andThen r fun s => (s.changeSys w p.sys, .done)
  let r := andThen r fun s => (s.changeLin w p.lin, .done)
  let r := andThen r (ifSet p.inBox fun s => s.changeInBox w)
  let r := andThen r (ifSet p.stBox fun s => s.changeStBox w)
  andThen r (ifSet p.gen fun s => s.changeGen w)

/-- The constructor (DmsSolver.h:93-113) with `DmsProblem` (DmsProblem.h:109-169): of each kind of constraints the first
one is used. Settings and solver type are not modelled. -/
def Dms.construct [Zero T] [LinearOrder T] (w : Store S L C K) (p : Problem T X) (nShots : ℕ) (junkT : T) (junk : X) :
    Dms T X S L C K × Out :=
  let r := Dms.setProblem w p ⟨nShots, junkT, junk, [], [], [], [], [], [], none⟩
  andThen r fun s =>
    ({ s with used := some ⟨s.sys, s.lin, s.cost, s.cost.head?,
        s.inBox.head?.toList ++ s.stBox.head?.toList ++ s.gen.head?.toList, s.tf, s.x0⟩ }, .done)

/-- A call with a `DmsSolver` in place. There is no backend: the last three calls are those of the solver. -/
def Dms.step [Zero T] [LinearOrder T] (q : State T X S L C K (Dms T X S L C K)) (op : Op T X S L C K) :
    State T X S L C K (Dms T X S L C K) × Out :=
  let put := fun (r : Dms T X S L C K × Out) => ({ q with solver := r.1 }, r.2)
  match op with
  | .problem o => let r := o.step q.store q.prob; (⟨r.1, r.2.1, q.solver⟩, r.2.2)
  | .setProblem => put (q.solver.setProblem q.store q.prob)
  | .horizon tf => put (q.solver.changeHorizon tf, .done)
  | .state x => put (q.solver.changeState x, .done)
  | .cost p => put (q.solver.changeCost q.store p, .done)
  | .sys p => put (q.solver.changeSys q.store p, .done)
  | .lin p => put (q.solver.changeLin q.store (p.map .obj), .done)
  | .inBox p => put (q.solver.changeInBox q.store p)
  | .stBox p => put (q.solver.changeStBox q.store p)
  | .gen p => put (q.solver.changeGen q.store p)
  | .backendInBox p => put (q.solver.changeInBox q.store p)
  | .backendStBox p => put (q.solver.changeStBox q.store p)
  | .backendGen p => put (q.solver.changeGen q.store p)
  | op => ({ q with store := op.edit q.store }, .done)

end CT.OptCon
