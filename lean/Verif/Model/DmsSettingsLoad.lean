import Verif.Model.SettingsLoad
import Verif.Model.NlpSolver
import Verif.Model.DmsProblem
import Mathlib.Data.Rat.Floor

/-!
# Settings of the multiple shooting solver: loading, checking, and what the solver does with them

`load` and `parametersOk` of `SnoptSettings`, `IpoptSettings`, `NlpSolverSettings`
(`ct_optcon/include/ct/optcon/nlp/solver/NlpSolverSettings.h`), `DerivativesCppadSettings`
(`ct_core/include/ct/core/math/DerivativesCppadSettings.h`) and `DmsSettings` (`ct_optcon/include/ct/optcon/dms/dms_core/DmsSettings.h`);
constructor, `configure` and the choice of the solver in `DmsSolver.h`, with the switches over the settings in `DmsProblem.h` and
`ShotContainer.h`.

Simplifications.  The file has been parsed into a tree (`Model/CostLoad.lean`); conversions of texts are parameters.  Numbers are
rational.  If loading throws, the settings object keeps the entries read before; this is not modelled (`none`).  Printing is not
modelled.  Systems, costs and constraints are not modelled here.
-/

namespace CT.DmsLoad

open CT.CostLoad (Tree)
open CT.Settings (get keys)
open CT.NlpSolver (IpoptSettings SnoptSettings Options toInt ipoptOptions snoptOptions)

/-- Conversions of texts by the stream translators of `ptree::get`: `double`, `unsigned int`, `int`, `bool`. -/
structure Texts where
  num : String → Option ℚ
  uint : String → Option ℕ
  int : String → Option ℤ
  bool : String → Option Bool

/-- `IpoptSettings::setParameterIfExists` (NlpSolverSettings.h:241-253): an entry that exists must be understood. -/
def ifExists {α : Type} (f : String → Option α) (t : Tree) (path : String) (old : α) : Option α :=
  match t.walk (keys path) with
  | none => some old
  | some c => f c.data

/-- `SnoptSettings::load` (NlpSolverSettings.h:103-113). The members are of type `int`. -/
def loadSnopt (R : Texts) (t : Tree) (ns : String) (s : SnoptSettings) : Option SnoptSettings :=
  (get R.uint t (ns ++ ".MaxMinorIterations")).bind fun minor =>
  (get R.uint t (ns ++ ".MaxMajorIterations")).bind fun major =>
  (get R.uint t (ns ++ ".MinorPrintLevelVerbosity")).bind fun minorPrint =>
  (get R.uint t (ns ++ ".MajorPrintLevelVerbosity")).bind fun majorPrint =>
  (get R.num t (ns ++ ".OptimalityTolerance")).bind fun tol =>
  some { s with
    minorIterationLimit := toInt minor
    majorIterationLimit := toInt major
    minorPrintLevel := toInt minorPrint
    majorPrintLevel := toInt majorPrint
    majorOptimalityTolerance := tol }

/-- The optional entries of `IpoptSettings::load` (NlpSolverSettings.h:219-238); entries read more than once (220, 221, 225; 219,
238) are read once here. -/
def loadIpoptOptional (R : Texts) (t : Tree) (ns : String) (s : IpoptSettings) : Option IpoptSettings :=
  (ifExists some t (ns ++ ".jacobianApproximation") s.jacobianApproximation).bind fun jacobian =>
  (ifExists R.num t (ns ++ ".restoAcceptableTol") s.restoAcceptableTol).bind fun restoAcceptable =>
  (ifExists R.num t (ns ++ ".constr_viol_tol") s.constrViolTol).bind fun constrViol =>
  (ifExists R.num t (ns ++ ".restoTol") s.restoTol).bind fun resto =>
  (ifExists R.num t (ns ++ ".acceptableTol") s.acceptableTol).bind fun acceptable =>
  (ifExists some t (ns ++ ".linear_scaling_on_demand") s.linearScalingOnDemand).bind fun scalingOnDemand =>
  (ifExists some t (ns ++ ".nlp_scaling_method") s.nlpScalingMethod).bind fun nlpScaling =>
  (ifExists some t (ns ++ ".print_user_options") s.printUserOptions).bind fun userOptions =>
  (ifExists R.int t (ns ++ ".print_frequency_iter_") s.printFrequencyIter).bind fun frequency =>
  (ifExists some t (ns ++ ".printInfoString") s.printInfoString).bind fun infoString =>
  (ifExists R.num t (ns ++ ".derivativeTestTol") s.derivativeTestTol).bind fun testTol =>
  (ifExists R.num t (ns ++ ".derivativeTestPerturbation") s.derivativeTestPerturbation).bind fun testPerturbation =>
  (ifExists R.num t (ns ++ ".point_perturbation_radius") s.pointPerturbationRadius).bind fun radius =>
  (ifExists some t (ns ++ ".checkDerivativesForNaninf") s.checkDerivativesForNaninf).bind fun naninf =>
  (ifExists some t (ns ++ ".derivativeTestPrintAll") s.derivativeTestPrintAll).bind fun printAll =>
  (ifExists some t (ns ++ ".linear_solver") s.linearSolver).bind fun linearSolver =>
  (ifExists some t (ns ++ ".linearSystemScaling") s.linearSystemScaling).bind fun systemScaling =>
  some { s with
    jacobianApproximation := jacobian
    restoAcceptableTol := restoAcceptable
    constrViolTol := constrViol
    restoTol := resto
    acceptableTol := acceptable
    linearScalingOnDemand := scalingOnDemand
    nlpScalingMethod := nlpScaling
    printUserOptions := userOptions
    printFrequencyIter := frequency
    printInfoString := infoString
    derivativeTestTol := testTol
    derivativeTestPerturbation := testPerturbation
    pointPerturbationRadius := radius
    checkDerivativesForNaninf := naninf
    derivativeTestPrintAll := printAll
    linearSolver := linearSolver
    linearSystemScaling := systemScaling }

/-- `IpoptSettings::load` (NlpSolverSettings.h:200-239). -/
def loadIpopt (R : Texts) (t : Tree) (ns : String) (s : IpoptSettings) : Option IpoptSettings :=
  (get R.uint t (ns ++ ".MaxIterations")).bind fun maxIter =>
  (get R.bool t (ns ++ ".CheckDerivatives")).bind fun check =>
  (get R.bool t (ns ++ ".ExactHessian")).bind fun exact =>
  (get R.uint t (ns ++ ".Verbosity")).bind fun verbosity =>
  (get R.num t (ns ++ ".OptimalityTolerance")).bind fun tol =>
  loadIpoptOptional R t ns { s with
    maxIter := toInt maxIter
    derivativeTest := if check then "first-order" else "none"
    hessianApproximation := if exact then "exact" else "limited-memory"
    printLevel := toInt verbosity
    tol := tol }

/-- `NlpSolverSettings` (NlpSolverSettings.h:272-276). The solver type is the value of an enumeration over `uint8_t` (19-24). -/
structure Nlp where
  solverType : ℕ
  genGradient : Bool
  genJacobian : Bool
  snopt : SnoptSettings
  ipopt : IpoptSettings

/-- Default constructor (NlpSolverSettings.h:267-270). -/
def Nlp.default : Nlp := ⟨0, false, false, {}, {}⟩

/-- `NlpSolverSettings::parametersOk` (NlpSolverSettings.h:308-316); those of SNOPT and IPOPT are always true (95, 192). -/
def Nlp.ok (s : Nlp) : Bool := if s.solverType = 0 then true else if s.solverType = 1 then true else false

/-- `NlpSolverSettings::load` (NlpSolverSettings.h:325-344): the number is cast to the enumeration over `uint8_t`. -/
def Nlp.load (R : Texts) (t : Tree) (ns : String) (s : Nlp) : Option Nlp :=
  (get R.uint t (ns ++ ".SolverType")).bind fun type =>
  (get R.bool t (ns ++ ".UseGeneratedCostGradient")).bind fun grad =>
  (get R.bool t (ns ++ ".UseGeneratedConstraintJacobian")).bind fun jac =>
  let s : Nlp := { s with solverType := type % 256, genGradient := grad, genJacobian := jac }
  if s.solverType = 0 then (loadIpopt R t (ns ++ ".ipopt") s.ipopt).bind fun i => some { s with ipopt := i }
  else if s.solverType = 1 then (loadSnopt R t (ns ++ ".snopt") s.snopt).bind fun i => some { s with snopt := i }
  else some s

/-- `DerivativesCppadSettings::CompilerType` (DerivativesCppadSettings.h:27-32). -/
inductive Compiler where
  | gcc | clang
  deriving DecidableEq

/-- `DerivativesCppadSettings` (DerivativesCppadSettings.h:54-66). -/
structure Cppad where
  multiThreading : Bool
  forwardZero : Bool
  forwardOne : Bool
  reverseOne : Bool
  reverseTwo : Bool
  jacobian : Bool
  sparseJacobian : Bool
  hessian : Bool
  sparseHessian : Bool
  maxAssignments : ℕ
  compiler : Compiler
  sourceCode : Bool
  dynamicLibrary : Bool

/-- Default constructor (DerivativesCppadSettings.h:37-52). -/
def Cppad.default : Cppad := ⟨false, false, false, false, false, false, false, false, false, 20000, .gcc, false, true⟩

/-- `stringTocompiler` (DerivativesCppadSettings.h:158). -/
def compilers : List (String × Compiler) := [("GCC", .gcc), ("CLANG", .clang)]

/-- `DerivativesCppadSettings::load` (DerivativesCppadSettings.h:119-154): an unknown compiler is reported on the console only. -/
def Cppad.load (R : Texts) (t : Tree) (ns : String) (s : Cppad) : Option Cppad :=
  (get R.bool t (ns ++ ".MultiThreading")).bind fun multiThreading =>
  (get R.bool t (ns ++ ".CreateForwardZero")).bind fun forwardZero =>
  (get R.bool t (ns ++ ".CreateForwardOne")).bind fun forwardOne =>
  (get R.bool t (ns ++ ".CreateReverseOne")).bind fun reverseOne =>
  (get R.bool t (ns ++ ".CreateReverseTwo")).bind fun reverseTwo =>
  (get R.bool t (ns ++ ".CreateJacobian")).bind fun jacobian =>
  (get R.bool t (ns ++ ".CreateSparseJacobian")).bind fun sparseJacobian =>
  (get R.bool t (ns ++ ".CreateHessian")).bind fun hessian =>
  (get R.bool t (ns ++ ".CreateSparseHessian")).bind fun sparseHessian =>
  (get R.uint t (ns ++ ".MaxAssignements")).bind fun maxAssignments =>
  (get R.bool t (ns ++ ".GenerateSourceCode")).bind fun sourceCode =>
  (get R.bool t (ns ++ ".UseDynamicLibrary")).bind fun dynamicLibrary =>
  (get some t (ns ++ ".Compiler")).bind fun name =>
  some { multiThreading, forwardZero, forwardOne, reverseOne, reverseTwo, jacobian, sparseJacobian, hessian, sparseHessian,
         maxAssignments, compiler := (compilers.lookup name).getD s.compiler, sourceCode, dynamicLibrary }

/-- `DmsSettings` (DmsSettings.h:51-64); enumerations (26-29) as their values. -/
structure Dms where
  N : ℕ
  T : ℚ
  nThreads : ℕ
  splineType : ℕ
  costEvaluationType : ℕ
  objectiveType : ℕ
  hMin : ℚ
  integrationType : ℕ
  dtSim : ℚ
  absErrTol : ℚ
  relErrTol : ℚ
  solver : Nlp
  cppad : Cppad

/-- Default constructor (DmsSettings.h:36-49). -/
def Dms.default : Dms :=
  ⟨30, 5, 1, 0, 0, 0, 1 / 10, 1, 1 / 100, 1 / 10000000000, 1 / 10000000000, Nlp.default, Cppad.default⟩

/-- `static_cast` of a number to one of the enumerations of `DmsSettings`, all of which have the values 0 to 3: other numbers give
an unspecified value. -/
def castEnum (unspecified : ℕ → ℕ) (n : ℕ) : ℕ := if n ≤ 3 then n else unspecified n

/-- `DmsSettings::load` (DmsSettings.h:124-153). -/
def Dms.load (R : Texts) (unspecified : ℕ → ℕ) (t : Tree) (ns : String) (s : Dms) : Option Dms :=
  (get R.uint t (ns ++ ".N")).bind fun N =>
  (get R.num t (ns ++ ".T")).bind fun T =>
  (get R.uint t (ns ++ ".nThreads")).bind fun nThreads =>
  (get R.uint t (ns ++ ".InterpolationType")).bind fun spline =>
  (get R.uint t (ns ++ ".CostEvaluationType")).bind fun cost =>
  (get R.uint t (ns ++ ".ObjectiveType")).bind fun objective =>
  (get R.num t (ns ++ ".h_min")).bind fun hMin =>
  (get R.uint t (ns ++ ".IntegrationType")).bind fun integration =>
  (get R.num t (ns ++ ".dt_sim")).bind fun dtSim =>
  (get R.num t (ns ++ ".AbsErrTol")).bind fun absErrTol =>
  (get R.num t (ns ++ ".RelErrTol")).bind fun relErrTol =>
  (s.solver.load R t (ns ++ ".solver")).bind fun solver =>
  (s.cppad.load R t (ns ++ ".cppad")).bind fun cppad =>
  some { N, T, nThreads, splineType := castEnum unspecified spline, costEvaluationType := castEnum unspecified cost,
         objectiveType := castEnum unspecified objective, hMin, integrationType := castEnum unspecified integration, dtSim,
         absErrTol, relErrTol, solver, cppad }

/-- `DmsSettings::parametersOk` (DmsSettings.h:86-122). -/
def Dms.ok (s : Dms) : Bool :=
  if s.N < 1 ∨ s.N > 1000 then false
  else if s.T ≤ 0 then false
  else if s.nThreads < 1 ∨ s.nThreads > 32 then false
  else if ¬ s.splineType < 2 then false
  else if ¬ s.costEvaluationType < 2 then false
  else if ¬ s.objectiveType < 2 then false
  else if s.hMin < 1 / 100 ∨ s.hMin > s.T then false
  else if ¬ s.integrationType < 3 then false
  else if s.dtSim ≤ 0 ∨ s.dtSim > 100 then false
  else if s.absErrTol ≤ 1 / 100000000000000000000 ∨ s.absErrTol > 1 then false
  else if s.relErrTol ≤ 1 / 100000000000000000000 ∨ s.relErrTol > 1 then false
  else s.solver.ok

/-! ## The solver -/

/-- The NLP solver held by a `DmsSolver`, as far as it depends on settings. -/
inductive Backend where
  | ipopt (a : NlpSolver.Ipopt)
  | snopt (settings : SnoptSettings) (opts : Options) (initialized : Bool)

/-- `DmsSolver`: the NLP solver (`nullptr`: `none`), the settings, and the problem with its own settings. -/
structure Solver where
  nlp : Option Backend
  settings : Dms
  prob : Dms
  times : Dms.DmsSolver ℚ

/-- How a call ends: with a result, an exception, the end of the program (`exit(0)`), or undefined. -/
inductive Out (α : Type) where
  | ok (a : α)
  | exc
  | exit
  | ub

/-- The settings the times of a problem depend on. -/
def Dms.times (s : Dms) : Dms.DmsSettings ℚ := ⟨s.N, s.T, s.dtSim⟩

/-- The shots and the cost evaluator of the problem (DmsProblem.h:128-162, ShotContainer.h:94-122): RK5 throws, an unknown integration
type ends the program, an unknown cost evaluation type throws; without shots `costPtrs.front()` (150, 157) is undefined. -/
def shotsAndCost (n m : ℕ) (x0 junk : List ℚ) (s : Dms) : Out (Dms.DmsProblem ℚ) :=
  if s.N = 0 then if s.costEvaluationType < 2 then .ub else .exc
  else
    match CT.Dms.makeShots (CT.Dms.TimeGrid.mk' s.N s.T) s.dtSim 1 0 with
    | .ub => .ub
    | .exc => .exc
    | .ok _ =>
      if s.integrationType = 2 then .exc
      else if s.integrationType ≠ 0 ∧ s.integrationType ≠ 1 then .exit
      else
        match CT.Dms.DmsProblem.new n m s.times x0 junk with
        | .ub => .ub
        | .exc => .exc
        | .ok p => if s.costEvaluationType = 0 ∨ s.costEvaluationType = 1 then .ok p else .exc

/-- The constructor of `DmsProblem` (DmsProblem.h:62-169): the result of `parametersOk` (75) is not used; an unknown spline type throws
(94), an optimized time grid throws (99-102). -/
def makeProblem (n m : ℕ) (x0 junk : List ℚ) (s : Dms) : Out (Dms.DmsProblem ℚ) :=
  if s.splineType ≠ 0 ∧ s.splineType ≠ 1 then .exc
  else if s.objectiveType = 1 then .exc
  else shotsAndCost n m x0 junk s

/-- The choice of the NLP solver (DmsSolver.h:105-110): IPOPT is configured by its constructor (IpoptSolver-impl.h:12-20), SNOPT is not
(SnoptSolver.cpp:66-71); for any other type there is no solver. -/
def makeBackend (s : Nlp) : Option Backend :=
  if s.solverType = 1 then some (.snopt s.snopt (fun _ => none) false)
  else if s.solverType = 0 then some (.ipopt (NlpSolver.Ipopt.new s.ipopt))
  else none

/-- `DmsSolver::configure` (DmsSolver.h:121-126): only the problem gets the settings. -/
def Solver.configure (d : Solver) (s : Dms) : Res Solver := do
  let times ← d.times.configure s.times
  pure { d with prob := s, times := times }

/-- Constructor (DmsSolver.h:93-113). -/
def create (n m : ℕ) (tf : ℚ) (x0 junk : List ℚ) (s : Dms) : Out Solver :=
  match makeProblem n m x0 junk s with
  | .exc => .exc
  | .exit => .exit
  | .ub => .ub
  | .ok p =>
    match Solver.configure ⟨makeBackend s.solver, s, s, ⟨tf, x0, p⟩⟩ s with
    | .exc => .exc
    | .ub => .ub
    | .ok d => .ok d

/-- `DmsSolver::solve` (DmsSolver.h:128-134) up to the call of the NLP solver: the solver with the options it runs with. A missing
solver is a null pointer that is dereferenced. SNOPT is configured with the settings of the `DmsSolver` if it has not been before
(SnoptSolver.cpp:149-166). -/
def Solver.solve (d : Solver) : Res Backend :=
  match d.nlp with
  | none => .ub
  | some (.ipopt a) => .ok (.ipopt a)
  | some (.snopt s o true) => .ok (.snopt s o true)
  | some (.snopt _ o false) =>
    .ok (.snopt d.settings.solver.snopt (snoptOptions d.settings.solver.snopt o) true)

/-- The options a solver runs with. -/
def Backend.options : Backend → Options
  | .ipopt a => a.opts
  | .snopt _ o _ => o

end CT.DmsLoad
