import Verif.Model.Res
import Mathlib.Data.Fin.Tuple.Basic
import Mathlib.Data.Matrix.Basic
import Mathlib.Data.Real.Basic

/-!
# Linearisation by automatic differentiation

Models `ct_core/include/ct/core/internal/autodiff/SparsityPattern.h`, `DynamicsLinearizerADBase.h`,
`DynamicsLinearizerAD.h`, `DynamicsLinearizerADCG.h` in `ct_core/include/ct/core/systems/linearizer/` and the linear
systems built on them: `AutoDiffLinearizer.h`, `ADCodegenLinearizer.h` in `systems/continuous_time/linear/` and
`DiscreteSystemLinearizerAD.h`, `DiscreteSystemLinearizerADCG.h` in `systems/discrete_time/linear/`; further the classes
generated from `ct_core/templates/LinearSystem.tpl.*`, `DiscreteLinearSystem.tpl*` and `Jacobian.tpl.*` by
`CGHelpers.h` and `DerivativesCppadCG.h`.

CppAD and CppADCodeGen are not modelled: `Lib` holds what they return for a recorded function.  A function is recorded
for all inputs: branches in user code are not modelled.  Time of a discrete-time system is a real number here.
-/

namespace CT.ADLin

open Matrix

/-! ### Sparsity patterns -/

/-- `SparsityPattern` without the work areas (SparsityPattern.h:108-110). -/
structure Pattern where
  sparsity : List Bool
  row : List ℕ
  col : List ℕ
  deriving DecidableEq

/-- `initPattern` (SparsityPattern.h:35-65) for the matrix `s` with `rows` rows and `cols` columns; a linear index into
an Eigen matrix runs along the columns. -/
def initPattern (rows cols : ℕ) (s : ℕ → ℕ → Bool) : Pattern :=
  let es := (List.range rows).flatMap fun i => ((List.range cols).filter fun j => s i j).map fun j => (j, i)
  ⟨(List.range (rows * cols)).map fun i => s (i % rows) (i / rows), es.map (·.1), es.map (·.2)⟩

/-! ### The library -/

/-- A recorded function (`CppAD::ADFun`) with `N` inputs and `k` outputs. -/
abbrev Tape (N k : ℕ) := (Fin N → ℝ) → Fin k → ℝ

/-- What CppAD and the code generated by CppADCodeGen return: `sparse` are the entries of `jac` after
`SparseJacobianForward` or `SparseJacobianReverse` with a pattern, `dense` is `GenericModel::Jacobian`.  `skip` tells
which entries the code generator finds to be zero. -/
structure Lib (N k : ℕ) where
  sparse : Tape N k → (Fin N → ℝ) → Pattern → ℕ → ℝ
  dense : Tape N k → (Fin N → ℝ) → ℕ → ℝ
  skip : Tape N k → Pattern → ℕ → Bool

variable {N k n m : ℕ}

/-- A call of `SparseJacobianForward`: a work area filled by an earlier call must belong to the same pattern. Returns the
entries written and the work area. -/
def sparseJacobian (lib : Lib N k) (f : Tape N k) (x : Fin N → ℝ) (p : Pattern) (work : Option Pattern) :
    Res (List ℝ × Option Pattern) :=
  match work with
  | none => .ok ((List.range p.row.length).map (lib.sparse f x p), some p)
  | some q => if q = p then .ok ((List.range p.row.length).map (lib.sparse f x p), some p) else .ub

/-! ### `DynamicsLinearizerAD` -/

/-- `computeControlledDynamics` or `propagateControlledDynamics` of a system. -/
abbrev Dyn (n m : ℕ) := (Fin n → ℝ) → ℝ → (Fin m → ℝ) → Fin n → ℝ

/-- `recordTerms` (DynamicsLinearizerADBase.h:101-129): the time is 0. -/
def record (f : Dyn n m) : Tape (n + m) n :=
  fun z => f (fun i => z (Fin.castAdd m i)) 0 (fun j => z (Fin.natAdd n j))

/-- `setupSparsityA` (DynamicsLinearizerADBase.h:132-142). -/
def setupSparsityA (n m : ℕ) : Pattern := initPattern (n + m) n fun i _ => decide (i < n)

/-- `setupSparsityB` (DynamicsLinearizerADBase.h:145-155). -/
def setupSparsityB (n m : ℕ) : Pattern := initPattern (n + m) n fun i _ => decide (n + m - m ≤ i)

/-- `Eigen::Map` of an array to a matrix, column by column. -/
def colMajor (r c : ℕ) (l : List ℝ) : Matrix (Fin r) (Fin c) ℝ := Matrix.of fun i j => l.getD (j * r + i) 0

/-- The members of `DynamicsLinearizerAD` (DynamicsLinearizerAD.h:118-119, DynamicsLinearizerADBase.h:157-161) but the
function handle, with the work areas of the two patterns (SparsityPattern.h:111). -/
structure AD (n m : ℕ) where
  tape : Tape (n + m) n
  sparsityA : Pattern
  sparsityB : Pattern
  workA : Option Pattern
  workB : Option Pattern
  dFdx : Matrix (Fin n) (Fin n) ℝ
  dFdu : Matrix (Fin n) (Fin m) ℝ

/-- Constructor (DynamicsLinearizerAD.h:49-52, DynamicsLinearizerADBase.h:60, 93-98). -/
def AD.new (f : Dyn n m) : AD n m where
  tape := record f
  sparsityA := setupSparsityA n m
  sparsityB := setupSparsityB n m
  workA := none
  workB := none
  dFdx := 0
  dFdu := 0

/-- `getDerivativeState` (DynamicsLinearizerAD.h:60-64) with `computeA` (80-93); entries beyond `jac` would be written
outside, missing ones be uninitialised. -/
def AD.getDerivativeState (lib : Lib (n + m) n) (l : AD n m) (x : Fin n → ℝ) (u : Fin m → ℝ) (_t : ℝ) :
    Res (Matrix (Fin n) (Fin n) ℝ × AD n m) := do
  let r ← sparseJacobian lib l.tape (Fin.append x u) l.sparsityA l.workA
  if r.1.length = n * n then
    .ok (colMajor n n r.1, { l with dFdx := colMajor n n r.1, workA := r.2 })
  else .ub

/-- `getDerivativeControl` (DynamicsLinearizerAD.h:66-72) with `computeB` (100-113). -/
def AD.getDerivativeControl (lib : Lib (n + m) n) (l : AD n m) (x : Fin n → ℝ) (u : Fin m → ℝ) (_t : ℝ) :
    Res (Matrix (Fin n) (Fin m) ℝ × AD n m) := do
  let r ← sparseJacobian lib l.tape (Fin.append x u) l.sparsityB l.workB
  if r.1.length = n * m then
    .ok (colMajor n m r.1, { l with dFdu := colMajor n m r.1, workB := r.2 })
  else .ub

/-! ### `DynamicsLinearizerADCG` -/

/-- The members of `DynamicsLinearizerADCG` (DynamicsLinearizerADCG.h:247-265) but the function handle; `model` is the
function the library was compiled from (`compiled_` is `model.isSome`). Names of libraries and counters of temporary
variables are left out. -/
structure CG (n m : ℕ) where
  tape : Tape (n + m) n
  dFdx : Matrix (Fin n) (Fin n) ℝ
  dFdu : Matrix (Fin n) (Fin m) ℝ
  xCache : Fin n → ℝ
  uCache : Fin m → ℝ
  model : Option (Tape (n + m) n)
  cacheJac : Bool

/-- Constructor (DynamicsLinearizerADCG.h:52-65); `xr` and `ur` are the random vectors. -/
def CG.new (f : Dyn n m) (cacheJac : Bool) (xr : Fin n → ℝ) (ur : Fin m → ℝ) : CG n m where
  tape := record f
  dFdx := 0
  dFdu := 0
  xCache := xr
  uCache := ur
  model := none
  cacheJac := cacheJac

/-- Copy constructor (DynamicsLinearizerADCG.h:68-86): the function is recorded again, from the function handle of the
original, now being `f`; the library is loaded again. -/
def CG.copy (c : CG n m) (f : Dyn n m) : CG n m := { c with tape := record f }

/-- `compileJIT` (DynamicsLinearizerADCG.h:144-182). -/
def CG.compileJIT (c : CG n m) : CG n m :=
  match c.model with
  | some _ => c
  | none => { c with model := some c.tape }

/-- `computeJacobian` (DynamicsLinearizerADCG.h:227-244). -/
def CG.computeJacobian (lib : Lib (n + m) n) (c : CG n m) (f : Tape (n + m) n) (x : Fin n → ℝ) (u : Fin m → ℝ) :
    CG n m :=
  let out : Matrix (Fin (n + m)) (Fin n) ℝ := Matrix.of fun i j => lib.dense f (Fin.append x u) (j * (n + m) + i)
  { c with
    dFdx := (Matrix.of fun i j => out (Fin.castAdd m i) j)ᵀ
    dFdu := (Matrix.of fun i j => out (Fin.natAdd n i) j)ᵀ
    xCache := x
    uCache := u }

open Classical in
/-- The part common to `getDerivativeState` and `getDerivativeControl` (DynamicsLinearizerADCG.h:102-108, 126-132). -/
noncomputable def CG.refresh (lib : Lib (n + m) n) (c : CG n m) (x : Fin n → ℝ) (u : Fin m → ℝ) : Res (CG n m) :=
  match c.model with
  | none => .exc
  | some f => .ok (if c.cacheJac = false ∨ x ≠ c.xCache ∨ u ≠ c.uCache then c.computeJacobian lib f x u else c)

/-- `getDerivativeState` (DynamicsLinearizerADCG.h:98-111). -/
noncomputable def CG.getDerivativeState (lib : Lib (n + m) n) (c : CG n m) (x : Fin n → ℝ) (u : Fin m → ℝ) (_t : ℝ) :
    Res (Matrix (Fin n) (Fin n) ℝ × CG n m) := do
  let c ← c.refresh lib x u
  .ok (c.dFdx, c)

/-- `getDerivativeControl` (DynamicsLinearizerADCG.h:122-135). -/
noncomputable def CG.getDerivativeControl (lib : Lib (n + m) n) (c : CG n m) (x : Fin n → ℝ) (u : Fin m → ℝ) (_t : ℝ) :
    Res (Matrix (Fin n) (Fin m) ℝ × CG n m) := do
  let c ← c.refresh lib x u
  .ok (c.dFdu, c)

/-! ### Linear systems and the systems they are made from -/

/-- The two kinds of linear systems: `AutoDiffLinearizer`/`DiscreteSystemLinearizerAD` and
`ADCodegenLinearizer`/`DiscreteSystemLinearizerADCG`. -/
inductive Core (n m : ℕ) where
  | ad (l : AD n m)
  | cg (c : CG n m)

/-- A linear system: `sys` is the system it holds (`nonlinearSystem_`), `fn` the system the function handle of its
linearizer refers to, without holding it (`nonlinearSystem_.get()` in AutoDiffLinearizer.h:75-80).  The members `dFdx_`,
`dFdu_` of the linear systems are overwritten before they are returned and left out. -/
structure Lin (n m : ℕ) where
  sys : ℕ
  fn : ℕ
  core : Core n m

/-- Systems, each with its present dynamics and whether the user still holds it, and linear systems, `none` if
destroyed. -/
structure World (n m : ℕ) where
  syss : List (Dyn n m × Bool)
  lins : List (Option (Lin n m))

/-- A system lives as long as someone holds it (`std::shared_ptr`). -/
def World.alive (w : World n m) (k : ℕ) : Bool :=
  (w.syss[k]?.any (·.2)) || w.lins.any fun o => o.any (·.sys == k)

/-- Using a system: undefined if it has been destroyed. -/
def World.deref (w : World n m) (k : ℕ) : Res (Dyn n m) :=
  if w.alive k then (idx w.syss k) >>= fun s => .ok s.1 else .ub

/-- Using a linear system. -/
def World.lin (w : World n m) (l : ℕ) : Res (Lin n m) := do
  match ← idx w.lins l with
  | some a => .ok a
  | none => .ub

/-- `getDerivativeState` (AutoDiffLinearizer.h:121-127, ADCodegenLinearizer.h:123-129, DiscreteSystemLinearizerAD.h:120-124,
DiscreteSystemLinearizerADCG.h:121-125). -/
noncomputable def World.getDerivativeState (lib : Lib (n + m) n) (w : World n m) (l : ℕ) (x : Fin n → ℝ) (u : Fin m → ℝ)
    (t : ℝ) : Res (Matrix (Fin n) (Fin n) ℝ × World n m) := do
  let a ← w.lin l
  match a.core with
  | .ad c => do
    let r ← c.getDerivativeState lib x u t
    .ok (r.1, { w with lins := w.lins.set l (some { a with core := .ad r.2 }) })
  | .cg c => do
    let r ← c.getDerivativeState lib x u t
    .ok (r.1, { w with lins := w.lins.set l (some { a with core := .cg r.2 }) })

/-- `getDerivativeControl` (AutoDiffLinearizer.h:144-150, ADCodegenLinearizer.h:147-153,
DiscreteSystemLinearizerAD.h:141-147, DiscreteSystemLinearizerADCG.h:142-148). -/
noncomputable def World.getDerivativeControl (lib : Lib (n + m) n) (w : World n m) (l : ℕ) (x : Fin n → ℝ)
    (u : Fin m → ℝ) (t : ℝ) : Res (Matrix (Fin n) (Fin m) ℝ × World n m) := do
  let a ← w.lin l
  match a.core with
  | .ad c => do
    let r ← c.getDerivativeControl lib x u t
    .ok (r.1, { w with lins := w.lins.set l (some { a with core := .ad r.2 }) })
  | .cg c => do
    let r ← c.getDerivativeControl lib x u t
    .ok (r.1, { w with lins := w.lins.set l (some { a with core := .cg r.2 }) })

/-- `getAandB` of the discrete-time linear systems (DiscreteSystemLinearizerAD.h:166-179,
DiscreteSystemLinearizerADCG.h:167-180). -/
noncomputable def World.getAandB (lib : Lib (n + m) n) (w : World n m) (l : ℕ) (x : Fin n → ℝ) (u : Fin m → ℝ)
    (t : ℝ) : Res ((Matrix (Fin n) (Fin n) ℝ × Matrix (Fin n) (Fin m) ℝ) × World n m) := do
  let a ← w.getDerivativeState lib l x u t
  let b ← a.2.getDerivativeControl lib l x u t
  .ok ((a.1, b.1), b.2)

/-- What users do. `changeSystem` stands for any change of parameters of a system they hold. -/
inductive Op (n m : ℕ) where
  | newSystem (f : Dyn n m)
  | changeSystem (k : ℕ) (f : Dyn n m)
  | releaseSystem (k : ℕ)
  | newAD (k : ℕ)
  | newCG (k : ℕ) (cacheJac : Bool) (xr : Fin n → ℝ) (ur : Fin m → ℝ)
  | compileJIT (l : ℕ)
  | copy (l : ℕ)
  | destroy (l : ℕ)
  | getDerivativeState (l : ℕ) (x : Fin n → ℝ) (u : Fin m → ℝ) (t : ℝ)
  | getDerivativeControl (l : ℕ) (x : Fin n → ℝ) (u : Fin m → ℝ) (t : ℝ)

/-- Copy constructors. `AutoDiffLinearizer` (AutoDiffLinearizer.h:85-97, DiscreteSystemLinearizerAD.h:84-96) builds a new
linearizer for a clone of the system; `ADCodegenLinearizer` (ADCodegenLinearizer.h:91-99,
DiscreteSystemLinearizerADCG.h:89-97) clones the system, but copies the linearizer with its function handle. -/
def World.copy (w : World n m) (l : ℕ) : Res (World n m) := do
  let a ← w.lin l
  let g ← w.deref a.sys
  match a.core with
  | .ad _ => .ok ⟨w.syss ++ [(g, false)], w.lins ++ [some ⟨w.syss.length, w.syss.length, .ad (AD.new g)⟩]⟩
  | .cg c => do
    let f ← w.deref a.fn
    .ok ⟨w.syss ++ [(g, false)], w.lins ++ [some ⟨w.syss.length, a.fn, .cg (c.copy f)⟩]⟩

/-- One call. Constructors: AutoDiffLinearizer.h:70-82 and DiscreteSystemLinearizerAD.h:69-81 (`newAD`);
ADCodegenLinearizer.h:75-88 and DiscreteSystemLinearizerADCG.h:73-86 (`newCG`): the linearizer is constructed without
`cacheJac`. `compileJIT`: ADCodegenLinearizer.h:162, DiscreteSystemLinearizerADCG.h:189; `AutoDiffLinearizer` does not
have it. -/
noncomputable def World.step (lib : Lib (n + m) n) (w : World n m) : Op n m → Res (World n m)
  | .newSystem f => .ok { w with syss := w.syss ++ [(f, true)] }
  | .changeSystem k f => do
    let s ← idx w.syss k
    if s.2 then .ok { w with syss := w.syss.set k (f, true) } else .ub
  | .releaseSystem k => do
    let s ← idx w.syss k
    .ok { w with syss := w.syss.set k (s.1, false) }
  | .newAD k => do
    let f ← w.deref k
    .ok { w with lins := w.lins ++ [some ⟨k, k, .ad (AD.new f)⟩] }
  | .newCG k _cacheJac xr ur => do
    let f ← w.deref k
    .ok { w with lins := w.lins ++ [some ⟨k, k, .cg (CG.new f true xr ur)⟩] }
  | .compileJIT l => do
    let a ← w.lin l
    match a.core with
    | .ad _ => .ok w
    | .cg c => .ok { w with lins := w.lins.set l (some { a with core := .cg c.compileJIT }) }
  | .copy l => w.copy l
  | .destroy l => do
    let _ ← w.lin l
    .ok { w with lins := w.lins.set l none }
  | .getDerivativeState l x u t => do
    let r ← w.getDerivativeState lib l x u t
    .ok r.2
  | .getDerivativeControl l x u t => do
    let r ← w.getDerivativeControl lib l x u t
    .ok r.2

/-- A history. -/
noncomputable def World.run (lib : Lib (n + m) n) (w : World n m) (ops : List (Op n m)) : Res (World n m) :=
  ops.foldlM (fun w op => w.step lib op) w

/-- Nothing yet. -/
def World.empty : World n m := ⟨[], []⟩

/-! ### Generated classes -/

/-- `generateJacobianSource` (CGHelpers.h:50-93): assignments `jac[i] = …`.  The array `jac` of size `jacDim` is zero
(`CppAD::cg::CG` is initialised with zero) where `SparseJacobian…` does not write, and these entries are
found to be zero; entries found to be zero are left out if `ignoreZero`. -/
def generateJacobianSource (lib : Lib N k) (f : Tape N k) (p : Pattern) (jacDim : ℕ) (ignoreZero : Bool) :
    List (ℕ × ((Fin N → ℝ) → ℝ)) :=
  (List.range jacDim).filterMap fun i =>
    if i < p.row.length then
      if lib.skip f p i then (if ignoreZero then none else some (i, fun _ => 0)) else some (i, fun x => lib.sparse f x p i)
    else if ignoreZero then none else some (i, fun _ => 0)

/-- A generated function: assigns to the array of a member, which is zero at construction, also for copies
(LinearSystem.tpl.h:26-35, 45-51; Jacobian.tpl.h:22-36). -/
def runCode (src : List (ℕ × ((Fin N → ℝ) → ℝ))) (jac : ℕ → ℝ) (x : Fin N → ℝ) : ℕ → ℝ :=
  src.foldl (fun jac a => Function.update jac a.1 (a.2 x)) jac

/-- The member of a generated class after a history of calls at the points `xs`. -/
def calls (src : List (ℕ × ((Fin N → ℝ) → ℝ))) (xs : List (Fin N → ℝ)) : ℕ → ℝ :=
  xs.foldl (runCode src) fun _ => 0

/-- The matrix returned: the array is the data of an Eigen matrix (LinearSystem.tpl.cpp:20, 34; Jacobian.tpl.cpp:17). -/
def asMatrix (r c : ℕ) (jac : ℕ → ℝ) : Matrix (Fin r) (Fin c) ℝ := Matrix.of fun i j => jac (j * r + i)

/-- `generateCode` of the linearizer (DynamicsLinearizerADCG.h:196-210): the code of `getDerivativeState` (`.1`) and of
`getDerivativeControl` (`.2`) of the generated linear system. -/
def generateCode (lib : Lib (n + m) n) (f : Tape (n + m) n) (ignoreZero : Bool) :
    List (ℕ × ((Fin (n + m) → ℝ) → ℝ)) × List (ℕ × ((Fin (n + m) → ℝ) → ℝ)) :=
  (generateJacobianSource lib f (setupSparsityA n m) (n * n) ignoreZero,
   generateJacobianSource lib f (setupSparsityB n m) (n * m) ignoreZero)

/-- `DerivativesCppadCG::generateJacobianSource` (DerivativesCppadCG.h:92-111) with the pattern given by the user, one row
for every input. -/
def generateJacobian (lib : Lib N k) (f : Tape N k) (sparsity : ℕ → ℕ → Bool) (ignoreZero : Bool) :
    List (ℕ × ((Fin N → ℝ) → ℝ)) :=
  generateJacobianSource lib f (initPattern N k sparsity) (N * k) ignoreZero

/-- `DerivativesCppadCG`: the recorded function (DerivativesCppadCG.h:272), empty before it is recorded. -/
structure Deriv (N k : ℕ) where
  stdFun : Tape N k
  tape : Option (Tape N k)

/-- Constructor (DerivativesCppadCG.h:59-64). -/
def Deriv.new (f : Tape N k) : Deriv N k := ⟨f, if 0 < k ∧ 0 < N then some f else none⟩

/-- Copy constructor (DerivativesCppadCG.h:67-70). -/
def Deriv.copy (d : Deriv N k) : Deriv N k := ⟨d.stdFun, none⟩

/-- `generateJacobianSource` (DerivativesCppadCG.h:92-111): an empty function has no inputs, so that the pattern does not
fit. -/
def Deriv.generateJacobianSource (lib : Lib N k) (d : Deriv N k) (sparsity : ℕ → ℕ → Bool) (ignoreZero : Bool) :
    Res (List (ℕ × ((Fin N → ℝ) → ℝ))) :=
  match d.tape with
  | none => .ub
  | some f => .ok (generateJacobian lib f sparsity ignoreZero)

end CT.ADLin
