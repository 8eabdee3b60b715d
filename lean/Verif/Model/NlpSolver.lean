import Verif.Model.Nlp
import Mathlib.Data.Rat.Defs
import Mathlib.Logic.Function.Basic

/-! The adapters between a nonlinear program and the external solvers IPOPT and SNOPT
(`ct_optcon/include/ct/optcon/nlp/solver/implementation/IpoptSolver-impl.h`, `ct_optcon/src/nlp/solver/SnoptSolver.cpp`),
their settings (`nlp/solver/NlpSolverSettings.h`), the variables they share (`nlp/OptVector.h`) and the calls of
`nlp/Nlp.h` in between. The solvers themselves are external: their option tables, the callbacks they make, the status
and the solution they return are parameters. Not modelled: console output, reading settings from files, the statistics
read after a solve. -/

namespace CT.NlpSolver

open CT.Nlp

/-! ### Options -/

/-- A value in an option table of a solver. -/
inductive Val where
  | num (v : ℚ)
  | int (v : ℤ)
  | str (v : String)
  deriving DecidableEq

/-- Option table of a solver application: `none` if the option was never set (the solver then uses its default). -/
abbrev Options := String → Option Val

/-- `SetNumericValue`, `SetIntegerValue`, `SetStringValue` of IPOPT's option list and `setIntParameter`,
`setRealParameter` of SNOPT (external): overwrite. -/
def Options.set (o : Options) (k : String) (v : Val) : Options := Function.update o k (some v)

/-- `SetStringValueIfUnset` of IPOPT's option list (external): an option set before is kept. -/
def Options.setIfUnset (o : Options) (k : String) (v : Val) : Options := if (o k).isSome then o else o.set k v

/-- `IpoptSettings` (NlpSolverSettings.h:122-175), with the defaults of the constructor (128-152). -/
structure IpoptSettings where
  tol : ℚ := 1 / 100000000
  constrViolTol : ℚ := 1 / 10000
  maxIter : ℤ := 200
  restoTol : ℚ := 1 / 10000000
  acceptableTol : ℚ := 1 / 1000000
  restoAcceptableTol : ℚ := 1 / 10000000
  linearScalingOnDemand : String := "yes"
  hessianApproximation : String := "limited-memory"
  nlpScalingMethod : String := "gradient-based"
  printLevel : ℤ := 5
  printUserOptions : String := "no"
  printFrequencyIter : ℤ := 1
  printInfoString : String := "no"
  derivativeTest : String := "none"
  derivativeTestTol : ℚ := 1 / 10000
  derivativeTestPerturbation : ℚ := 1 / 100000000
  pointPerturbationRadius : ℚ := 10
  checkDerivativesForNaninf : String := "no"
  derivativeTestPrintAll : String := "no"
  linearSystemScaling : String := "none"
  linearSolver : String := "mumps"
  jacobianApproximation : String := "finite-difference-values"

/-- `IpoptSolver::setSolverOptions` (IpoptSolver-impl.h:41-62). -/
def ipoptOptions (s : IpoptSettings) (o : Options) : Options :=
  let o := o.set "tol" (.num s.tol)
  let o := o.set "constr_viol_tol" (.num s.constrViolTol)
  let o := o.set "max_iter" (.int s.maxIter)
  let o := o.setIfUnset "linear_scaling_on_demand" (.str s.linearScalingOnDemand)
  let o := o.setIfUnset "hessian_approximation" (.str s.hessianApproximation)
  let o := o.set "print_level" (.int s.printLevel)
  let o := o.setIfUnset "print_user_options" (.str s.printUserOptions)
  let o := o.setIfUnset "derivative_test" (.str s.derivativeTest)
  let o := o.set "print_level" (.int s.printLevel)
  let o := o.set "derivative_test_tol" (.num s.derivativeTestTol)
  let o := o.set "derivative_test_perturbation" (.num s.derivativeTestPerturbation)
  let o := o.set "point_perturbation_radius" (.num s.pointPerturbationRadius)
  let o := o.setIfUnset "linear_system_scaling" (.str s.linearSystemScaling)
  o.setIfUnset "linear_solver" (.str s.linearSolver)

/-- `(int)maxIterations` of a `size_t` (reduction modulo 2^32 as compilers do). -/
@[irreducible] def toInt (n : Nat) : ℤ := ((n : ℤ) + 2147483648) % 4294967296 - 2147483648

/-- The part of an `IpoptSolver` that depends on settings: the copy of the settings (IpoptSolver.h:154), the options
of the application (152). -/
structure Ipopt where
  settings : IpoptSettings
  opts : Options

/-- `IpoptSolver::configureDerived` (IpoptSolver-impl.h:32-38), called by `NlpSolver::configure` (NlpSolver.h:56-60). -/
def Ipopt.configure (a : Ipopt) (s : IpoptSettings) : Ipopt := { settings := s, opts := ipoptOptions s a.opts }

/-- Constructor (IpoptSolver-impl.h:12-20): a new application, then `configureDerived`. -/
def Ipopt.new (s : IpoptSettings) : Ipopt := Ipopt.configure { settings := s, opts := fun _ => none } s

/-- `IpoptSolver::prepareWarmStart` (IpoptSolver-impl.h:100-110). -/
def Ipopt.prepareWarmStart (a : Ipopt) (maxIterations : Nat) : Ipopt :=
  let o := a.opts.set "warm_start_init_point" (.str "yes")
  let o := o.set "warm_start_bound_push" (.num (1 / 1000000000))
  let o := o.set "warm_start_bound_frac" (.num (1 / 1000000000))
  let o := o.set "warm_start_slack_bound_frac" (.num (1 / 1000000000))
  let o := o.set "warm_start_slack_bound_push" (.num (1 / 1000000000))
  let o := o.set "warm_start_mult_bound_push" (.num (1 / 1000000000))
  let o := o.set "max_iter" (.int (toInt maxIterations))
  { a with opts := o.set "derivative_test" (.str "none") }

/-- What a user does to the settings of a solver. -/
inductive Adjust (S : Type) where
  | configure (s : S)
  | warmStart (maxIterations : Nat)

/-- One call on an IPOPT adapter. -/
def Ipopt.adjust (a : Ipopt) : Adjust IpoptSettings → Ipopt
  | .configure s => a.configure s
  | .warmStart k => a.prepareWarmStart k

/-- An IPOPT adapter created with `s0` after a history of calls. -/
def Ipopt.after (s0 : IpoptSettings) (h : List (Adjust IpoptSettings)) : Ipopt := h.foldl Ipopt.adjust (Ipopt.new s0)

/-- `SnoptSettings` (NlpSolverSettings.h:32-78), with the defaults of the constructor (39-59). -/
structure SnoptSettings where
  scaleOption : ℤ := 0
  derivativeOption : ℤ := 1
  verifyLevel : ℤ := -1
  majorIterationLimit : ℤ := 500
  minorIterationLimit : ℤ := 500
  iterationLimit : ℤ := 5000
  majorOptimalityTolerance : ℚ := 1 / 1000000
  majorFeasibilityTolerance : ℚ := 1 / 1000000
  minorFeasibilityTolerance : ℚ := 1 / 1000000
  printFile : ℤ := 0
  minorPrintLevel : ℤ := 0
  majorPrintLevel : ℤ := 0
  newBasisFile : ℤ := 0
  oldBasisFile : ℤ := 0
  backupBasisFile : ℤ := 0
  lineSearchTolerance : ℚ := 9 / 10
  crashOption : ℤ := 3
  hessianUpdates : ℤ := 5

/-- `SnoptSolver::setSolverOptions` (SnoptSolver.cpp:181-201). -/
def snoptOptions (s : SnoptSettings) (o : Options) : Options :=
  let o := o.set "Derivative option" (.int s.derivativeOption)
  let o := o.set "Verify level" (.int s.verifyLevel)
  let o := o.set "Major iterations limit" (.int s.majorIterationLimit)
  let o := o.set "Minor iterations limit" (.int s.minorIterationLimit)
  let o := o.set "Iterations limit" (.int s.iterationLimit)
  let o := o.set "Major optimality tolerance" (.num s.majorOptimalityTolerance)
  let o := o.set "Major feasibility tolerance" (.num s.majorFeasibilityTolerance)
  let o := o.set "Minor feasibility tolerance" (.num s.minorFeasibilityTolerance)
  let o := o.set "Print file" (.int s.printFile)
  let o := o.set "Minor print level" (.int s.minorPrintLevel)
  let o := o.set "Major print level" (.int s.majorPrintLevel)
  let o := o.set "New basis file" (.int s.newBasisFile)
  let o := o.set "Old basis file" (.int s.oldBasisFile)
  let o := o.set "Backup basis file" (.int s.backupBasisFile)
  let o := o.set "Linesearch tolerance" (.num s.lineSearchTolerance)
  let o := o.set "Crash option" (.int s.crashOption)
  o.set "Hessian updates" (.int s.hessianUpdates)

/-- The options set by `SnoptSolver::prepareWarmStart` (SnoptSolver.cpp:236-239). -/
def snoptWarmOptions (maxIterations : Nat) (o : Options) : Options :=
  let o := o.set "Major iterations limit" (.int (toInt maxIterations))
  let o := o.set "Minor iterations limit" (.int 50)
  let o := o.set "Iterations limit" (.int 500)
  o.set "Summary file" (.int 0)

/-! ### The problem -/

variable {α D : Type}

/-- What a problem computes (`Nlp` with its cost evaluator and constraint container). `update x` are the data a problem
prepares in `updateProblem` (Nlp.h:56) from the variables `x`, e.g. splines and integrated shots; evaluations read the
variables and these data. Simplification: the prepared data depend on the variables only. -/
structure Prob (α D : Type) where
  update : List α → D
  cost : List α → D → α
  grad : List α → D → List α
  cons : List α → D → List (Con α)
  hess : List α → D → α → List α → List α
  hessPattern : List (Nat × Nat)

/-- `OptVector` (OptVector.h:310-325). `xInit` is `none` as long as its elements are indeterminate. -/
structure OptVec (α : Type) where
  x : List α
  xInit : Option (List α)
  xLb : List α
  xUb : List α
  zUpper : List α
  zLow : List α
  lambda : List α
  xMul : List α
  xState : List ℤ
  zMul : List α
  zState : List ℤ
  updateCount : Nat

/-- Constructor (OptVector.h:39-56): `lowest`, `max` are the bounds of the number type; the initial guess is sized but
not initialised, the constraint variables are empty. -/
def OptVec.new [Zero α] (lowest max : α) (n : Nat) : OptVec α where
  x := List.replicate n 0
  xInit := none
  xLb := List.replicate n lowest
  xUb := List.replicate n max
  zUpper := List.replicate n 0
  zLow := List.replicate n 0
  lambda := []
  xMul := List.replicate n 0
  xState := List.replicate n 0
  zMul := []
  zState := []
  updateCount := 0

/-- `resizeConstraintVars` (OptVector.h:64-70). -/
def OptVec.resizeConstraintVars [Zero α] (v : OptVec α) (m : Nat) : OptVec α :=
  { v with zMul := List.replicate (m + 1) 0, zState := List.replicate (m + 1) 0 }

/-- `setZero` (OptVector.h:97-104). -/
def OptVec.setZero [Zero α] (v : OptVec α) : OptVec α :=
  { v with x := v.x.map fun _ => 0
           xInit := some (v.x.map fun _ => 0)
           lambda := v.lambda.map fun _ => 0
           zUpper := v.zUpper.map fun _ => 0
           zLow := v.zLow.map fun _ => 0 }

/-- `setInitialGuess` (OptVector.h:112-116). -/
def OptVec.setInitialGuess (v : OptVec α) (xinit : List α) : OptVec α := { v with x := xinit, xInit := some xinit }

/-- `setBounds` (OptVector.h:139-143). -/
def OptVec.setBounds (v : OptVec α) (lb ub : List α) : OptVec α := { v with xLb := lb, xUb := ub }

/-- `setOptimizationVars` (OptVector.h:290-294). -/
def OptVec.setOptimizationVars (v : OptVec α) (x : List α) : OptVec α :=
  { v with x := x, updateCount := v.updateCount + 1 }

/-- Copying a vector into memory of length `n` (`MapVecXs`, which cannot be resized). -/
def copyOut {β : Type} (n : Nat) (v : List β) : Res (List β) := if v.length = n then .ok v else .ub

/-- `getInitialGuess` (OptVector.h:235-239, Nlp.h:378-384); reading indeterminate elements is `ub`. -/
def OptVec.getInitialGuess (v : OptVec α) (n : Nat) : Res (List α) :=
  match v.xInit with
  | none => .ub
  | some x => copyOut n x

/-- `getBoundMultipliers` (OptVector.h:203-208, Nlp.h:426-432). -/
def OptVec.getBoundMultipliers (v : OptVec α) (n : Nat) : Res (List α × List α) := do
  let l ← copyOut n v.zLow
  let u ← copyOut n v.zUpper
  pure (l, u)

/-- `getLambdaVars` (OptVector.h:216-220, Nlp.h:440-446). -/
def OptVec.getLambdaVars (v : OptVec α) (m : Nat) : Res (List α) := copyOut m v.lambda

/-- `getLowerBounds`, `getUpperBounds` (OptVector.h:151, 157; `getVariableBounds`, Nlp.h:344-351). -/
def OptVec.getVariableBounds (v : OptVec α) (n : Nat) : Res (List α × List α) := do
  let l ← copyOut n v.xLb
  let u ← copyOut n v.xUb
  pure (l, u)

/-- `getOptimizationMultState` (OptVector.h:166-172, Nlp.h:395-401). -/
def OptVec.getOptimizationMultState (v : OptVec α) (n : Nat) : Res (List α × List ℤ) := do
  let m ← copyOut n v.xMul
  let s ← copyOut n v.xState
  pure (m, s)

/-- `getConstraintsMultState` (OptVector.h:182-188, Nlp.h:411-417). -/
def OptVec.getConstraintsMultState (v : OptVec α) (m : Nat) : Res (List α × List ℤ) := do
  let z ← copyOut m v.zMul
  let s ← copyOut m v.zState
  pure (z, s)

/-- A problem object: its variables and the data prepared by the last `updateProblem`. -/
structure State (α D : Type) where
  vars : OptVec α
  data : D

/-- `Nlp::extractOptimizationVars` (Nlp.h:360-370). -/
def State.extract (p : Prob α D) (s : State α D) (x : List α) (isNew : Bool) : State α D :=
  if isNew then { vars := s.vars.setOptimizationVars x, data := p.update x } else s

/-- Constraints as evaluated in the present state. -/
def State.cons (p : Prob α D) (s : State α D) : List (Con α) := p.cons s.vars.x s.data

/-! ### IPOPT callbacks -/

/-- The callbacks IPOPT makes while it solves. `n`, `m` and array sizes are those IPOPT was told in `get_nlp_info`; the
arrays it passes are given by their length. -/
inductive Query (α : Type) where
  | f (x : List α) (new : Bool)
  | gradF (x : List α) (new : Bool)
  | g (x : List α) (new : Bool) (m : Nat)
  | jacG (x : List α) (new : Bool) (nele : Nat)
  | jacPattern (nele : Nat)
  | h (x : List α) (new : Bool) (objFactor : α) (lambda : List α)
  | hPattern

/-- What a callback writes. -/
inductive Answer (α : Type) where
  | value (v : α)
  | vector (v : List α)
  | pattern (rows cols : List Nat)

/-- `eval_f` (IpoptSolver-impl.h:222-236), `eval_grad_f` (239-253), `eval_g` (256-274), `eval_jac_g` (277-318), `eval_h`
(321-362). The Hessian is handed through (`Nlp::evaluateHessian`, see C81). -/
def answer [Zero α] (p : Prob α D) (s : State α D) : Query α → Res (State α D × Answer α)
  | .f x new =>
    let s := s.extract p x new
    .ok (s, .value (p.cost s.vars.x s.data))
  | .gradF x new =>
    let s := s.extract p x new
    .ok (s, .vector (p.grad s.vars.x s.data))
  | .g x new m => do
    let s := s.extract p x new
    let v ← evalConstraints (s.cons p) (List.replicate m 0)
    pure (s, .vector v)
  | .jacG x new nele => do
    let s := s.extract p x new
    let v ← evalSparseJacobian (s.cons p) (List.replicate nele 0)
    pure (s, .vector v)
  | .jacPattern nele => do
    let (r, c) ← getSparsityPattern (s.cons p) (List.replicate nele 0) (List.replicate nele 0)
    pure (s, .pattern r c)
  | .h x new objFactor lambda =>
    let s := s.extract p x new
    .ok (s, .vector (p.hess s.vars.x s.data objFactor lambda))
  | .hPattern => .ok (s, .pattern (p.hessPattern.map (·.1)) (p.hessPattern.map (·.2)))

/-- A sequence of callbacks. -/
def answers [Zero α] (p : Prob α D) : State α D → List (Query α) → Res (State α D × List (Answer α))
  | s, [] => .ok (s, [])
  | s, q :: qs => do
    let (s, a) ← answer p s q
    let (s, as) ← answers p s qs
    pure (s, a :: as)

/-- `get_nlp_info` (IpoptSolver-impl.h:113-143): variables, constraints, nonzeros of the Jacobian, and the nonzeros of
the Hessian, which stay what they were (`nnzIn`) unless the settings ask for exact Hessians. -/
def nlpInfo (a : Ipopt) (p : Prob α D) (s : State α D) (nnzIn : Nat) : Nat × Nat × Nat × Nat :=
  (s.vars.x.length, constraintsCount (s.cons p), nonZerosCount (s.cons p),
    if a.settings.hessianApproximation = "exact" then p.hessPattern.length else nnzIn)

/-- `get_bounds_info` (IpoptSolver-impl.h:146-177). -/
def boundsInfo [Zero α] (p : Prob α D) (s : State α D) (n m : Nat) :
    Res ((List α × List α) × (List α × List α)) := do
  let x ← s.vars.getVariableBounds n
  let g ← getBounds (s.cons p) (List.replicate m 0) (List.replicate m 0)
  pure (x, g)

/-- `get_starting_point` (IpoptSolver-impl.h:180-219): what is asked for is written, nothing else. -/
def startingPoint (s : State α D) (n m : Nat) (initX initZ initLambda : Bool) :
    Res (Option (List α) × Option (List α × List α) × Option (List α)) := do
  let x ← if initX then (do pure (some (← s.vars.getInitialGuess n))) else pure none
  let z ← if initZ then (do pure (some (← s.vars.getBoundMultipliers n))) else pure none
  let l ← if initLambda then (do pure (some (← s.vars.getLambdaVars m))) else pure none
  pure (x, z, l)

/-- What IPOPT hands to `finalize_solution`. -/
structure IpoptSolution (α : Type) where
  x : List α
  zL : List α
  zU : List α
  lambda : List α

/-- `finalize_solution` (IpoptSolver-impl.h:365-386), `extractIpoptSolution` (Nlp.h:456-465), `setNewIpoptSolution`
(OptVector.h:250-259). -/
def State.finalize (s : State α D) (r : IpoptSolution α) : State α D :=
  { s with vars := { s.vars with x := r.x, zLow := r.zL, zUpper := r.zU, lambda := r.lambda } }

/-- The return values of IPOPT that matter here (`ApplicationReturnStatus`). -/
inductive IpoptStatus where
  | solveSucceeded
  | solvedToAcceptableLevel
  | other (code : ℤ)
  deriving DecidableEq

/-- One run of the external solver: the callbacks it makes, the solution it hands over, the status it returns. -/
structure IpoptRun (α : Type) where
  queries : List (Query α)
  solution : IpoptSolution α
  status : IpoptStatus

/-- `IpoptSolver::solve` (IpoptSolver-impl.h:65-97). The adapter is always initialised (37), so that the status of
`Initialize` never leads to an exception (67-69). -/
def ipoptSolve [Zero α] (p : Prob α D) (s : State α D) (run : IpoptRun α) : Res (State α D × Bool) := do
  let (s, _) ← answers p s run.queries
  pure (s.finalize run.solution,
    decide (run.status = .solveSucceeded ∨ run.status = .solvedToAcceptableLevel))

/-! ### SNOPT -/

/-- `SnoptMemory::mempool` (SnoptSolver.h:64, SnoptSolver.cpp:357) and the live memories: pairs of an owner and the index
it was given. Owners are the solver objects. -/
structure Pool where
  slots : List (Option Nat)
  live : List (Nat × Nat)

/-- Constructor of `SnoptMemory` (SnoptSolver.cpp:12-28): the first free slot, else a new one at the end. -/
def Pool.alloc (p : Pool) (owner : Nat) : Pool :=
  let i := p.slots.findIdx (· == none)
  if i = p.slots.length then { slots := p.slots ++ [some owner], live := (owner, p.slots.length) :: p.live }
  else { slots := p.slots.set i (some owner), live := (owner, i) :: p.live }

/-- Destructor of `SnoptMemory` (SnoptSolver.cpp:31-63): the slot found by searching for the object is freed. -/
def Pool.free (p : Pool) (owner : Nat) : Pool :=
  let i := p.slots.findIdx (· == some owner)
  if i = p.slots.length then { p with live := p.live.filter (·.1 ≠ owner) }
  else { slots := p.slots.set i none, live := p.live.filter (·.1 ≠ owner) }

/-- The static callback (SnoptSolver.cpp:291-309) with `iu[0]`: `at` throws outside the pool, a null entry is
dereferenced. -/
def Pool.lookup (p : Pool) (i : Nat) : Res Nat :=
  match p.slots[i]? with
  | none => .exc
  | some none => .ub
  | some (some owner) => .ok owner

/-- Solver objects come and go. -/
inductive PoolCall where
  | create (owner : Nat)
  | destroy (owner : Nat)

def Pool.step (p : Pool) : PoolCall → Pool
  | .create o => p.alloc o
  | .destroy o => p.free o

def Pool.after (h : List PoolCall) : Pool := h.foldl Pool.step { slots := [], live := [] }

/-- The arrays of `SnoptMemory` handed to SNOPT (SnoptSolver.h:44-62; `setupSnoptObjects`, SnoptSolver.cpp:169-178).
The arrays for linear parts are empty (`lenA_ = 0`) and left out. -/
structure Arrays (α : Type) where
  x : List α
  xlow : List α
  xupp : List α
  xmul : List α
  xstate : List ℤ
  F : List α
  Flow : List α
  Fupp : List α
  Fmul : List α
  Fstate : List ℤ
  iG : List Nat
  jG : List Nat

/-- `SnoptSolver` (SnoptSolver.h:255-270): sizes, options, start option, and the state arrays a warm start writes into.
`mem = none` before the first `init_memory`. -/
structure Snopt where
  settings : SnoptSettings
  opts : Options
  n : Nat
  neF : Nat
  lenG : Nat
  initialized : Bool
  warm : Bool
  mem : Option (List ℤ × List ℤ)

/-- Constructor (SnoptSolver.cpp:66-71): the settings are kept, but not passed on. -/
def Snopt.new (s : SnoptSettings) : Snopt where
  settings := s
  opts := fun _ => none
  n := 0
  neF := 0
  lenG := 0
  initialized := false
  warm := false
  mem := none

/-- `SnoptSolver::configureDerived` (SnoptSolver.cpp:149-166), `init_memory` (79-99). The new state arrays are
indeterminate; zero stands for their content here, which nothing below depends on. -/
def Snopt.configure (a : Snopt) (p : Prob α D) (st : State α D) (s : SnoptSettings) : Snopt :=
  let n := st.vars.x.length
  let neF := constraintsCount (st.cons p) + 1
  { a with
    settings := s
    n := n
    neF := neF
    lenG := n + nonZerosCount (st.cons p)
    mem := some (List.replicate n 0, List.replicate neF 0)
    opts := snoptOptions s a.opts
    initialized := true }

/-- `SnoptSolver::prepareWarmStart` (SnoptSolver.cpp:229-240); before `configure` the sizes are zero and nothing is
written through the null pointers. -/
def Snopt.prepareWarmStart (a : Snopt) (maxIterations : Nat) : Snopt :=
  { a with
    warm := true
    mem := a.mem.map fun _ => (List.replicate a.n 3, List.replicate a.neF 3)
    opts := snoptWarmOptions maxIterations a.opts }

/-- `SnoptSolver::fill_memory` (SnoptSolver.cpp:102-146). `lowest`, `max` as in `OptVec.new`. -/
def fillMemory [Zero α] (lowest max : α) (a : Snopt) (p : Prob α D) (s : State α D) : Res (Arrays α) := do
  let cs := s.cons p
  let m := constraintsCount cs
  let nnz := nonZerosCount cs
  -- maps of the constraint parts start at the second element, those of the Jacobian behind the gradient
  if m + 1 ≠ a.neF ∨ a.n + nnz ≠ a.lenG then Res.ub else
  let x ← s.vars.getInitialGuess a.n
  let (xl, xu) ← s.vars.getVariableBounds a.n
  let (xm, xs) ← s.vars.getOptimizationMultState a.n
  let (gl, gu) ← getBounds cs (List.replicate m 0) (List.replicate m 0)
  let (fm, fs) ← s.vars.getConstraintsMultState a.neF
  let (r, c) ← getSparsityPattern cs (List.replicate nnz 0) (List.replicate nnz 0)
  pure { x := x
         xlow := xl
         xupp := xu
         xmul := xm
         xstate := xs
         F := List.replicate a.neF 0
         Flow := lowest :: gl
         Fupp := max :: gu
         Fmul := fm
         Fstate := fs
         iG := List.replicate a.n 0 ++ r.map (· + 1)
         jG := List.range a.n ++ c }

/-- A callback of SNOPT. -/
structure SnoptQuery (α : Type) where
  x : List α
  needF : ℤ
  needG : ℤ
  F : List α
  G : List α

/-- Values in a callback (SnoptSolver.cpp:340-345): the cost, then the constraints behind it. -/
def snoptF [Zero α] (p : Prob α D) (s : State α D) (q : SnoptQuery α) : Res (List α) :=
  if q.needF > 0 then
    if q.F = [] then .ub else do
      let v ← evalConstraints (s.cons p) (q.F.drop 1)
      pure (p.cost s.vars.x s.data :: v)
  else .ok q.F

/-- Derivatives in a callback (SnoptSolver.cpp:347-354): the gradient, then the Jacobian behind it. -/
def snoptG [Zero α] (p : Prob α D) (s : State α D) (q : SnoptQuery α) : Res (List α) :=
  if q.needG > 0 then
    if q.G.length < s.vars.x.length then .ub else do
      let g ← copyOut s.vars.x.length (p.grad s.vars.x s.data)
      let v ← evalSparseJacobian (s.cons p) (q.G.drop s.vars.x.length)
      pure (g ++ v)
  else .ok q.G

/-- `SnoptSolver::NLP_Function` (SnoptSolver.cpp:312-355). `F` has `neF` elements and `G` has `neG`. The variables are
always taken over: the condition (334) tests the pointer `needG`. -/
def snoptAnswer [Zero α] (p : Prob α D) (s : State α D) (q : SnoptQuery α) : Res (State α D × List α × List α) := do
  let s := s.extract p q.x true
  let F ← snoptF p s q
  let G ← snoptG p s q
  pure (s, F, G)

/-- A sequence of callbacks. -/
def snoptAnswers [Zero α] (p : Prob α D) :
    State α D → List (SnoptQuery α) → Res (State α D × List (List α × List α))
  | s, [] => .ok (s, [])
  | s, q :: qs => do
    let (s, F, G) ← snoptAnswer p s q
    let (s, as) ← snoptAnswers p s qs
    pure (s, (F, G) :: as)

/-- What SNOPT leaves in its arrays. -/
structure SnoptSolution (α : Type) where
  x : List α
  xmul : List α
  xstate : List ℤ
  Fmul : List α
  Fstate : List ℤ

/-- One run of the external solver, which may depend on the arrays and options it is given. -/
structure SnoptRun (α : Type) where
  queries : List (SnoptQuery α)
  solution : SnoptSolution α
  status : ℤ

/-- `SnoptSolver::solve` (SnoptSolver.cpp:204-226), with `extractSnoptSolution` (Nlp.h:476-486) and
`setNewSnoptSolution` (OptVector.h:271-282). `solver` is the external solver: it gets the start option, the options and
the arrays. The state arrays in memory are overwritten by `fill_memory` (211) and by the solver. -/
def snoptSolve [Zero α] (lowest max : α) (solver : Bool → Options → Arrays α → SnoptRun α) (p : Prob α D)
    (a : Snopt) (s : State α D) : Res (Snopt × State α D × Bool) := do
  if !a.initialized then Res.exc else
  let arr ← fillMemory lowest max a p s
  let run := solver a.warm a.opts arr
  let (s, _) ← snoptAnswers p s run.queries
  let s := if run.status = 1 ∨ run.status = 31 ∨ run.status = 32 then
      { s with vars := { s.vars with x := run.solution.x
                                     xMul := run.solution.xmul
                                     xState := run.solution.xstate
                                     zMul := run.solution.Fmul
                                     zState := run.solution.Fstate } }
    else s
  pure ({ a with mem := some (run.solution.xstate, run.solution.Fstate) }, s, true)

end CT.NlpSolver
