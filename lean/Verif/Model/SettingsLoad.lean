import Verif.Model.CostLoad

/-!
# Loading settings and matrices from a configuration file

`loadScalar`, `loadMatrix` (`ct_core/include/ct/core/common/InfoFileParser.h`), `load` of the settings of the nonlinear optimal
control solver (`ct_optcon/include/ct/optcon/solver/NLOptConSettings.hpp`) and of the settings of the estimators
(`ct_optcon/include/ct/optcon/filter/FilterSettings.h`).

Simplifications.  The file has been parsed by `boost::property_tree` into a tree (`Model/CostLoad.lean`).  The conversions of a text
to a number, an integer, a natural number or a Boolean are parameters.  Scalars are real numbers.  Printing is not modelled.
-/

namespace CT.Settings

open CT.CostLoad (Tree)

/-- Splitting of a path at the dots, with the characters of the current key collected so far.
`boost::property_tree::string_path::reduce`: a dot at the end of the path opens no further key. -/
def frags (cur : List Char) : List Char → List String
  | [] => if cur = [] then [] else [String.ofList cur]
  | c :: t => if c = '.' then String.ofList cur :: frags [] t else frags (cur ++ [c]) t

/-- The keys of a path given as a string. -/
def keys (path : String) : List String := frags [] path.toList

/-- Conversions of texts by the stream translators of `ptree::get`. -/
structure Conv where
  num : String → Option ℝ
  int : String → Option Int
  nat : String → Option Nat
  bool : String → Option Bool

/-- `pt.get<T>(path)`; `none` stands for the exception that is thrown if the path does not exist or the text cannot be
converted. -/
def get {α : Type} (f : String → Option α) (t : Tree) (path : String) : Option α := (t.walk (keys path)).bind fun c => f c.data

/-- `try { member = pt.get<T>(path); } catch (...) {}`, and `pt.get<T>(path, default)`. -/
def getOr {α : Type} (f : String → Option α) (t : Tree) (path : String) (old : α) : α := (get f t path).getD old

/-- `ct::core::loadScalar` (InfoFileParser.h:30-37): no dot between the namespace and the name. -/
def loadScalar {α : Type} (f : String → Option α) (t : Tree) (ns name : String) : Res α :=
  match get f t (ns ++ name) with
  | some v => .ok v
  | none => .exc

/-- `ct::core::loadMatrix` (InfoFileParser.h:110-134): no dot between the namespace and the name. -/
def loadMatrix (C : Conv) (t : Tree) (ns name : String) (rows cols : Nat) : Matrix (Fin rows) (Fin cols) ℝ :=
  Matrix.of fun i j =>
    getOr C.num t (ns ++ name ++ ".scaling") 1 *
      getOr C.num t (ns ++ name ++ "." ++ "(" ++ toString (i : Nat) ++ "," ++ toString (j : Nat) ++ ")") 0

/-! ## Line search settings -/

/-- `LineSearchSettings::TYPE` (NLOptConSettings.hpp:25-32). -/
inductive LsType where
  | none | simple | armijo | goldstein
  deriving DecidableEq

/-- `LineSearchSettings` (NLOptConSettings.hpp:58-66). -/
structure LineSearch where
  type : LsType
  adaptive : Bool
  maxIterations : Nat
  alpha0 : ℝ
  alphaMax : ℝ
  nAlpha : ℝ
  armijo : ℝ
  debugPrint : Bool

/-- Default constructor (NLOptConSettings.hpp:44-54). -/
noncomputable def LineSearch.default : LineSearch := ⟨.none, false, 10, 1, 1, 1 / 2, 1 / 100, false⟩

/-- `stringToLineSearchType` (NLOptConSettings.hpp:39-40). -/
def lsTypes : List (String × LsType) := [("NONE", .none), ("SIMPLE", .simple), ("ARMIJO", .armijo), ("GOLDSTEIN", .goldstein)]

/-- How a function ends: normally, with an exception, or by ending the program (`exit(-1)`). -/
inductive End where
  | normal | thrown | exit

/-- The part of `LineSearchSettings::load` after the type has been set (NLOptConSettings.hpp:113-139). -/
def LineSearch.loadRest (C : Conv) (t : Tree) (ns : String) (s : LineSearch) : LineSearch × End :=
  match get C.nat t (ns ++ ".maxIterations") with
  | none => (s, .thrown)
  | some k =>
    let s : LineSearch := { s with maxIterations := k }
    match get C.num t (ns ++ ".alpha_0") with
    | none => (s, .thrown)
    | some a =>
      let s : LineSearch := { s with alpha0 := a }
      match get C.num t (ns ++ ".n_alpha") with
      | none => (s, .thrown)
      | some r =>
        let s : LineSearch := { s with nAlpha := r }
        match get C.bool t (ns ++ ".debugPrint") with
        | none => (s, .thrown)
        | some b =>
          let s : LineSearch := { s with debugPrint := b, alphaMax := s.alpha0, adaptive := false }
          let s : LineSearch := { s with armijo := getOr C.num t (ns ++ ".armijo_parameter") s.armijo }
          let s : LineSearch := { s with adaptive := getOr C.bool t (ns ++ ".adaptive") s.adaptive }
          let s : LineSearch := { s with alphaMax := getOr C.num t (ns ++ ".alpha_max") s.alphaMax }
          (s, .normal)

/-- `LineSearchSettings::load` (NLOptConSettings.hpp:87-146). -/
def LineSearch.load (C : Conv) (t : Tree) (ns : String) (s : LineSearch) : LineSearch × End :=
  match get some t (ns ++ ".type") with
  | none => (s, .thrown)
  | some name =>
    match lsTypes.lookup name with
    | none => (s, .exit)
    | some ty => LineSearch.loadRest C t ns { s with type := ty }

/-- `LineSearchSettings::parametersOk` (NLOptConSettings.hpp:57). -/
def LineSearch.Ok (s : LineSearch) : Prop := 0 < s.alpha0 ∧ 0 < s.nAlpha ∧ s.nAlpha < 1 ∧ 0 < s.alphaMax

/-! ## Solver settings -/

/-- `ct::core::IntegrationType` (Integrator.h:30-43). -/
inductive Integ where
  | euler | rk4 | modifiedMidpoint | ode45 | rk5variable | rk78 | bulirschStoer | eulerCT | rk4CT | eulerSym | rkSym
  deriving DecidableEq

/-- `SensitivityApproximationSettings::APPROXIMATION`. -/
inductive Approx where
  | forwardEuler | backwardEuler | symplecticEuler | tustin | matrixExponential
  deriving DecidableEq

/-- `NLOCP_ALGORITHM` (NLOptConSettings.hpp:202-212). -/
inductive Alg where
  | gnms | ilqr | msIlqr | ssOl | ssCl | gnmsMOl | gnmsMCl
  deriving DecidableEq

/-- `LQOCP_SOLVER` (NLOptConSettings.hpp:215-219). -/
inductive Solver where
  | gnriccati | hpipm
  deriving DecidableEq

/-- `stringToIntegrator` (NLOptConSettings.hpp:645-650). -/
def integNames : List (String × Integ) :=
  [("Euler", .euler), ("RK4", .rk4), ("MODIFIED_MIDPOINT", .modifiedMidpoint), ("ODE45", .ode45), ("RK5VARIABLE", .rk5variable),
    ("RK78", .rk78), ("BULIRSCHSTOER", .bulirschStoer), ("EulerCT", .eulerCT), ("RK4CT", .rk4CT), ("Euler_Sym", .eulerSym),
    ("Rk_Sym", .rkSym)]

/-- `stringToDiscretization` (NLOptConSettings.hpp:658-660). -/
def approxNames : List (String × Approx) :=
  [("Forward_euler", .forwardEuler), ("Backward_euler", .backwardEuler), ("Symplectic_euler", .symplecticEuler),
    ("Tustin", .tustin), ("Matrix_exponential", .matrixExponential)]

/-- `stringToNlocAlgorithm` (NLOptConSettings.hpp:670-671). -/
def algNames : List (String × Alg) :=
  [("GNMS", .gnms), ("ILQR", .ilqr), ("MS_ILQR", .msIlqr), ("SS_OL", .ssOl), ("SS_CL", .ssCl), ("GNMS_M_OL", .gnmsMOl),
    ("GNMS_M_CL", .gnmsMCl)]

/-- `stringToLqocSolver` (NLOptConSettings.hpp:683-684). -/
def solverNames : List (String × Solver) := [("GNRICCATI_SOLVER", .gnriccati), ("HPIPM_SOLVER", .hpipm)]

/-- `NLOptConSettings` (NLOptConSettings.hpp:255-280) with `LQOCSolverSettings` (NLOptConSettings.hpp:159-160). -/
structure NLOptCon where
  integrator : Integ
  discretization : Approx
  timeVaryingDiscretization : Bool
  algorithm : Alg
  solver : Solver
  loggingPrefix : String
  epsilon : ℝ
  dt : ℝ
  kSim : Int
  kShot : Int
  minCostImprovement : ℝ
  maxDefectSum : ℝ
  meritRho : ℝ
  meritRhoConstraints : ℝ
  maxIterations : Int
  fixedHessianCorrection : Bool
  recordSmallestEigenvalue : Bool
  nThreads : Int
  nThreadsEigen : Nat
  lineSearch : LineSearch
  lqocIterations : Int
  lqocDebugPrint : Bool
  debugPrint : Bool
  printSummary : Bool
  useSensitivityIntegrator : Bool
  logToMatlab : Bool

/-- Default constructors (NLOptConSettings.hpp:157, 227-253). -/
noncomputable def NLOptCon.default : NLOptCon :=
  ⟨.rk4, .backwardEuler, false, .gnms, .gnriccati, "alg", 1 / 100000, 1 / 1000, 1, 1, 1 / 100000, 1 / 100000, 0, 1, 100, false,
    false, 4, 4, .default, 10, false, false, true, false, false⟩

/-- The members that are read one by one (NLOptConSettings.hpp:402-517). -/
def NLOptCon.loadSingles (C : Conv) (t : Tree) (ns : String) (s : NLOptCon) : NLOptCon :=
  { s with
    epsilon := getOr C.num t (ns ++ ".epsilon") s.epsilon
    timeVaryingDiscretization := getOr C.bool t (ns ++ ".timeVaryingDiscretization") s.timeVaryingDiscretization
    minCostImprovement := getOr C.num t (ns ++ ".min_cost_improvement") s.minCostImprovement
    maxDefectSum := getOr C.num t (ns ++ ".maxDefectSum") s.maxDefectSum
    meritRho := getOr C.num t (ns ++ ".meritFunctionRho") s.meritRho
    meritRhoConstraints := getOr C.num t (ns ++ ".meritFunctionRhoConstraints") s.meritRhoConstraints
    maxIterations := getOr C.int t (ns ++ ".max_iterations") s.maxIterations
    nThreads := getOr C.int t (ns ++ ".nThreads") s.nThreads
    loggingPrefix := getOr some t (ns ++ ".loggingPrefix") s.loggingPrefix
    debugPrint := getOr C.bool t (ns ++ ".debugPrint") s.debugPrint
    printSummary := getOr C.bool t (ns ++ ".printSummary") s.printSummary
    useSensitivityIntegrator := getOr C.bool t (ns ++ ".useSensitivityIntegrator") s.useSensitivityIntegrator
    logToMatlab := getOr C.bool t (ns ++ ".logToMatlab") s.logToMatlab
    dt := getOr C.num t (ns ++ ".dt") s.dt
    kSim := getOr C.int t (ns ++ ".K_sim") s.kSim
    kShot := getOr C.int t (ns ++ ".K_shot") s.kShot
    nThreadsEigen := getOr C.nat t (ns ++ ".nThreadsEigen") s.nThreadsEigen
    recordSmallestEigenvalue := getOr C.bool t (ns ++ ".recordSmallestEigenvalue") s.recordSmallestEigenvalue
    fixedHessianCorrection := getOr C.bool t (ns ++ ".fixedHessianCorrection") s.fixedHessianCorrection }

/-- One name inside the last `try` block: read it, look it up, store it and go on. A missing name ends the block, an unknown
name ends the program. -/
def readName {α : Type} (names : List (String × α)) (t : Tree) (path : String) (s : NLOptCon) (store : α → NLOptCon)
    (next : NLOptCon → Option NLOptCon) : Option NLOptCon :=
  match get some t path with
  | none => some s
  | some name =>
    match names.lookup name with
    | none => none
    | some v => next (store v)

/-- The last `try` block of `NLOptConSettings::load` (NLOptConSettings.hpp:533-607); `none`: `exit(-1)`. -/
def NLOptCon.loadNames (t : Tree) (ns : String) (s : NLOptCon) : Option NLOptCon :=
  readName integNames t (ns ++ ".integrator") s (fun v => { s with integrator := v }) fun s =>
  readName approxNames t (ns ++ ".discretization") s (fun v => { s with discretization := v }) fun s =>
  readName algNames t (ns ++ ".nlocp_algorithm") s (fun v => { s with algorithm := v }) fun s =>
  readName solverNames t (ns ++ ".locp_solver") s (fun v => { s with solver := v }) some

/-- `LQOCSolverSettings::load` (NLOptConSettings.hpp:169-189). -/
def NLOptCon.loadLqoc (C : Conv) (t : Tree) (ns : String) (s : NLOptCon) : NLOptCon :=
  { s with
    lqocIterations := getOr C.int t (ns ++ ".num_lqoc_iterations") s.lqocIterations
    lqocDebugPrint := getOr C.bool t (ns ++ ".lqoc_debug_print") s.lqocDebugPrint }

/-- `NLOptConSettings::load` (NLOptConSettings.hpp:396-614); `none`: the program ends with `exit(-1)`. -/
def NLOptCon.load (C : Conv) (t : Tree) (ns : String) (s : NLOptCon) : Option NLOptCon :=
  let s := s.loadSingles C t ns
  match s.lineSearch.load C t (ns ++ ".line_search") with
  | (_, .exit) => none
  | (ls, _) => NLOptCon.loadNames t ns (NLOptCon.loadLqoc C t (ns ++ ".lqoc_solver_settings") { s with lineSearch := ls })

/-- `NLOptConSettings::fromConfigFile` (NLOptConSettings.hpp:624-631). -/
noncomputable def fromConfigFile (C : Conv) (t : Tree) (ns : String) : Option NLOptCon := NLOptCon.default.load C t ns

/-- `NLOptConSettings::parametersOk` (NLOptConSettings.hpp:349-386). -/
def NLOptCon.Ok (s : NLOptCon) : Prop :=
  ¬ s.dt ≤ 0 ∧ ¬ s.kSim ≤ 0 ∧ ¬ s.kShot ≤ 0 ∧ ¬ (1 < s.kShot ∧ s.algorithm = .ilqr) ∧
    ¬ (100 < s.nThreads ∨ 100 < s.nThreadsEigen) ∧ s.lineSearch.Ok

/-- `std::vector<…> v(nThreads + 1, nullptr)` (NLOCBackendBase-impl.hpp:55-57) and the access `v[nThreads]`
(NLOCBackendBase-impl.hpp:730, 754, 832). The argument of the constructor is converted to `size_t`; a length above the maximum throws. -/
def lastSlot (nThreads : Int) : Res Unit :=
  if nThreads + 1 < 0 then .exc
  else if 0 ≤ nThreads ∧ nThreads < nThreads + 1 then .ok () else .ub

/-! ## Settings of the estimators -/

/-- `StateObserverSettings` (FilterSettings.h:28-31). -/
structure Observer (p n : Nat) where
  C : Matrix (Fin p) (Fin n) ℝ
  Q : Matrix (Fin n) (Fin n) ℝ
  R : Matrix (Fin p) (Fin p) ℝ
  dFdv : Matrix (Fin n) (Fin n) ℝ

/-- `StateObserverSettings::load` (FilterSettings.h:47-65). -/
def Observer.load (C : Conv) (t : Tree) (ns : String) (p n : Nat) : Observer p n :=
  ⟨loadMatrix C t ns "C" p n, loadMatrix C t ns "Q" n n, loadMatrix C t ns "R" p p, loadMatrix C t ns "dFdv" n n⟩

/-- `SteadyStateKalmanFilterSettings::load` (FilterSettings.h:107-123): initial state and number of iterations. -/
def loadSteadyState (C : Conv) (t : Tree) (ns : String) (n : Nat) : (Fin n → ℝ) × Nat :=
  (fun i => loadMatrix C t ns "x0" n 1 i 0, getOr C.nat t (ns ++ ".maxDAREIterations") 1000)

/-- `ExtendedKalmanFilterSettings::load` (FilterSettings.h:154-170). -/
def loadExtended (C : Conv) (t : Tree) (ns : String) (n : Nat) : (Fin n → ℝ) × Matrix (Fin n) (Fin n) ℝ :=
  (fun i => loadMatrix C t ns "x0" n 1 i 0, loadMatrix C t ns "P0" n n)

/-- `UnscentedKalmanFilterSettings` (FilterSettings.h:184-188). -/
structure Unscented (n : Nat) where
  x0 : Fin n → ℝ
  alpha : ℝ
  beta : ℝ
  kappa : ℝ
  P0 : Matrix (Fin n) (Fin n) ℝ

/-- A Boolean assigned to a scalar. -/
def ofBool (b : Bool) : ℝ := if b then 1 else 0

/-- `UnscentedKalmanFilterSettings::load` (FilterSettings.h:207-226): the three parameters are read with `pt.get<bool>`. -/
def Unscented.load (C : Conv) (t : Tree) (ns : String) (n : Nat) : Res (Unscented n) :=
  match get C.bool t (ns ++ ".alpha") with
  | none => .exc
  | some a =>
    match get C.bool t (ns ++ ".beta") with
    | none => .exc
    | some b =>
      match get C.bool t (ns ++ ".kappa") with
      | none => .exc
      | some k =>
        .ok ⟨fun i => loadMatrix C t ns "x0" n 1 i 0, ofBool a, ofBool b, ofBool k, loadMatrix C t ns "P0" n n⟩

end CT.Settings
