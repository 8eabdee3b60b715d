import Mathlib.Tactic.NormNum
import Mathlib.Tactic.Linarith
import Verif.Model.SettingsLoad

/-!
# C180, C181: settings loaded from a file are the ones written in the file
-/

namespace CT.Settings

open CT.CostLoad (Tree)

/-! ## Specification: what the file says -/

/-- A section of a file, named by the keys that lead to it; no key contains a dot. -/
def IsSection (path : List String) : Prop := path ≠ [] ∧ ∀ k ∈ path, '.' ∉ k.toList

/-- The name of a section as it is passed to the toolbox: the keys separated by dots. -/
def dotted : List String → String
  | [] => ""
  | [k] => k
  | k :: k' :: l => k ++ "." ++ dotted (k' :: l)

/-- What is written in a section under a key, if it can be understood. -/
def entry {α : Type} (f : String → Option α) (t : Tree) (path : List String) (key : String) : Option α :=
  (t.walk (path ++ [key])).bind fun c => f c.data

/-- The names of the line search types. -/
def LsType.name : LsType → String
  | .none => "NONE"
  | .simple => "SIMPLE"
  | .armijo => "ARMIJO"
  | .goldstein => "GOLDSTEIN"

/-- The names of the integrators. -/
def Integ.name : Integ → String
  | .euler => "Euler"
  | .rk4 => "RK4"
  | .modifiedMidpoint => "MODIFIED_MIDPOINT"
  | .ode45 => "ODE45"
  | .rk5variable => "RK5VARIABLE"
  | .rk78 => "RK78"
  | .bulirschStoer => "BULIRSCHSTOER"
  | .eulerCT => "EulerCT"
  | .rk4CT => "RK4CT"
  | .eulerSym => "Euler_Sym"
  | .rkSym => "Rk_Sym"

/-- The names of the discretizations. -/
def Approx.name : Approx → String
  | .forwardEuler => "Forward_euler"
  | .backwardEuler => "Backward_euler"
  | .symplecticEuler => "Symplectic_euler"
  | .tustin => "Tustin"
  | .matrixExponential => "Matrix_exponential"

/-- The names of the algorithms. -/
def Alg.name : Alg → String
  | .gnms => "GNMS"
  | .ilqr => "ILQR"
  | .msIlqr => "MS_ILQR"
  | .ssOl => "SS_OL"
  | .ssCl => "SS_CL"
  | .gnmsMOl => "GNMS_M_OL"
  | .gnmsMCl => "GNMS_M_CL"

/-- The names of the solvers of the linear-quadratic problem. -/
def Solver.name : Solver → String
  | .gnriccati => "GNRICCATI_SOLVER"
  | .hpipm => "HPIPM_SOLVER"

/-! ## Paths -/

theorem frags_dot (a : List Char) (h : '.' ∉ a) : ∀ (cur b : List Char),
    frags cur (a ++ '.' :: b) = String.ofList (cur ++ a) :: frags [] b := by
  induction a with
  | nil => intro cur b; simp [frags]
  | cons c a ih =>
    intro cur b
    have hc : c ≠ '.' := fun e => h (e ▸ List.mem_cons_self)
    rw [List.cons_append, frags, if_neg hc, ih (fun hm => h (List.mem_cons_of_mem _ hm)), List.append_assoc]
    rfl

theorem frags_end (a : List Char) (h : '.' ∉ a) : ∀ cur : List Char, cur ++ a ≠ [] → frags cur a = [String.ofList (cur ++ a)] := by
  induction a with
  | nil => intro cur hne; rw [List.append_nil] at hne ⊢; rw [frags, if_neg hne]
  | cons c a ih =>
    intro cur _
    have hc : c ≠ '.' := fun e => h (e ▸ List.mem_cons_self)
    rw [frags, if_neg hc, ih (fun hm => h (List.mem_cons_of_mem _ hm)) _ (by simp), List.append_assoc]
    rfl

theorem frags_dotted : ∀ (path : List String), path ≠ [] → (∀ k ∈ path, '.' ∉ k.toList) → ∀ b : List Char,
    frags [] ((dotted path).toList ++ '.' :: b) = path ++ frags [] b
  | [], h, _, _ => absurd rfl h
  | [k], _, h, b => by
    rw [dotted, frags_dot _ (h k List.mem_cons_self), List.nil_append, String.ofList_toList]
    rfl
  | k :: k' :: l, _, h, b => by
    have e : (dotted (k :: k' :: l)).toList ++ '.' :: b = k.toList ++ '.' :: ((dotted (k' :: l)).toList ++ '.' :: b) := by
      simp [dotted, String.toList_append]
    rw [e, frags_dot _ (h k List.mem_cons_self), List.nil_append, String.ofList_toList,
      frags_dotted (k' :: l) (by simp) (fun x hx => h x (List.mem_cons_of_mem _ hx))]
    rfl

theorem keys_key {path : List String} (h : IsSection path) {k full : String} (hf : full.toList = '.' :: k.toList)
    (hd : '.' ∉ k.toList) (hne : k.toList ≠ []) : keys (dotted path ++ full) = path ++ [k] := by
  rw [keys, String.toList_append, hf, frags_dotted path h.1 h.2, frags_end _ hd _ (by simpa using hne), List.nil_append,
    String.ofList_toList]

theorem get_key {α : Type} (f : String → Option α) (t : Tree) {path : List String} (h : IsSection path) (k : String) {full : String}
    (hf : full.toList = '.' :: k.toList) (hd : '.' ∉ k.toList) (hne : k.toList ≠ []) :
    get f t (dotted path ++ full) = entry f t path k := by
  rw [get, keys_key h hf hd hne]
  rfl

theorem getOr_key {α : Type} (f : String → Option α) (t : Tree) {path : List String} (h : IsSection path) (k : String) {full : String}
    (hf : full.toList = '.' :: k.toList) (hd : '.' ∉ k.toList) (hne : k.toList ≠ []) (old : α) :
    getOr f t (dotted path ++ full) old = (entry f t path k).getD old := by
  rw [getOr, get_key f t h k hf hd hne]

theorem dotted_append : ∀ (path : List String), path ≠ [] → ∀ k, dotted (path ++ [k]) = dotted path ++ "." ++ k
  | [], h, _ => absurd rfl h
  | [a], _, k => rfl
  | a :: b :: l, _, k => by
    have ih := dotted_append (b :: l) (by simp) k
    simp only [List.cons_append, dotted] at ih ⊢
    rw [ih]
    simp [String.append_assoc]

theorem IsSection.append {path : List String} (h : IsSection path) {k : String} (hk : '.' ∉ k.toList) : IsSection (path ++ [k]) :=
  ⟨by simp, fun x hx => by
    rcases List.mem_append.1 hx with hx | hx
    · exact h.2 x hx
    · rw [List.mem_singleton.1 hx]; exact hk⟩

theorem sub_line {path : List String} (h : IsSection path) : dotted path ++ ".line_search" = dotted (path ++ ["line_search"]) := by
  rw [dotted_append path h.1, String.append_assoc]; rfl

theorem sub_lqoc {path : List String} (h : IsSection path) :
    dotted path ++ ".lqoc_solver_settings" = dotted (path ++ ["lqoc_solver_settings"]) := by
  rw [dotted_append path h.1, String.append_assoc]; rfl

/-- Proves the side conditions of `get_key` for a literal key. -/
macro "lit" : tactic => `(tactic| decide +kernel)

/-! ## The line search -/

theorem LsType.lookup (x : LsType) : lsTypes.lookup x.name = some x := by cases x <;> decide +kernel

theorem Integ.lookup (x : Integ) : integNames.lookup x.name = some x := by cases x <;> decide +kernel

theorem Approx.lookup (x : Approx) : approxNames.lookup x.name = some x := by cases x <;> decide +kernel

theorem Alg.lookup (x : Alg) : algNames.lookup x.name = some x := by cases x <;> decide +kernel

theorem Solver.lookup (x : Solver) : solverNames.lookup x.name = some x := by cases x <;> decide +kernel

theorem ls_complete {C : Conv} {t : Tree} {path : List String} (h : IsSection path) (s : LineSearch) {ty : LsType} {k : ℕ} {a r : ℝ}
    {b : Bool} (h1 : entry some t path "type" = some ty.name) (h2 : entry C.nat t path "maxIterations" = some k)
    (h3 : entry C.num t path "alpha_0" = some a) (h4 : entry C.num t path "n_alpha" = some r)
    (h5 : entry C.bool t path "debugPrint" = some b) :
    s.load C t (dotted path) = (⟨ty, (entry C.bool t path "adaptive").getD false, k, a, (entry C.num t path "alpha_max").getD a, r,
      (entry C.num t path "armijo_parameter").getD s.armijo, b⟩, .normal) := by
  rw [LineSearch.load, get_key some t h "type" (by lit) (by lit) (by lit), h1]
  simp only [LsType.lookup, LineSearch.loadRest]
  rw [get_key C.nat t h "maxIterations" (by lit) (by lit) (by lit), h2]
  simp only []
  rw [get_key C.num t h "alpha_0" (by lit) (by lit) (by lit), h3]
  simp only []
  rw [get_key C.num t h "n_alpha" (by lit) (by lit) (by lit), h4]
  simp only []
  rw [get_key C.bool t h "debugPrint" (by lit) (by lit) (by lit), h5]
  simp only []
  rw [getOr_key C.num t h "armijo_parameter" (full := ".armijo_parameter") (by lit) (by lit) (by lit),
    getOr_key C.bool t h "adaptive" (by lit) (by lit) (by lit),
    getOr_key C.num t h "alpha_max" (full := ".alpha_max") (by lit) (by lit) (by lit)]

theorem ls_missing {C : Conv} {t : Tree} {path : List String} (h : IsSection path) (s : LineSearch)
    (h1 : entry some t path "type" = none) : s.load C t (dotted path) = (s, .thrown) := by
  rw [LineSearch.load, get_key some t h "type" (by lit) (by lit) (by lit), h1]

theorem loadRest_end (C : Conv) (t : Tree) (ns : String) (s : LineSearch) : (s.loadRest C t ns).2 ≠ .exit := by
  unfold LineSearch.loadRest
  repeat' split
  all_goals simp

/-! ## The solver settings -/

/-- The parts of loading after the members that are read one by one. -/
theorem load_parts {C : Conv} {t : Tree} {path : List String} (h : IsSection path) {s s' : NLOptCon}
    (hl : s.load C t (dotted path) = some s') :
    ∃ ls e, s.lineSearch.load C t (dotted (path ++ ["line_search"])) = (ls, e) ∧
      NLOptCon.loadNames t (dotted path) (NLOptCon.loadLqoc C t (dotted (path ++ ["lqoc_solver_settings"]))
        { s.loadSingles C t (dotted path) with lineSearch := ls }) = some s' := by
  unfold NLOptCon.load at hl
  simp only [] at hl
  rw [sub_line h, sub_lqoc h] at hl
  have e0 : (s.loadSingles C t (dotted path)).lineSearch = s.lineSearch := rfl
  rw [e0] at hl
  rcases hls : s.lineSearch.load C t (dotted (path ++ ["line_search"])) with ⟨ls, e⟩
  rw [hls] at hl
  refine ⟨ls, e, rfl, ?_⟩
  cases e with
  | exit => cases hl
  | normal => exact hl
  | thrown => exact hl

theorem readName_keep {α β : Type} {names : List (String × α)} {t : Tree} {p : String} {s s' : NLOptCon} {store : α → NLOptCon}
    {next : NLOptCon → Option NLOptCon} (q : NLOptCon → β) (hs : ∀ v, q (store v) = q s)
    (hn : ∀ r r', next r = some r' → q r' = q r) (h : readName names t p s store next = some s') : q s' = q s := by
  unfold readName at h
  split at h
  · cases h; rfl
  · split at h
    · cases h
    · rw [hn _ _ h, hs]

/-- A quantity that does not depend on the four names is not changed by them. -/
theorem names_keep {β : Type} (q : NLOptCon → β) (hi : ∀ s v, q { s with integrator := v } = q s)
    (hd : ∀ s v, q { s with discretization := v } = q s) (ha : ∀ s v, q { s with algorithm := v } = q s)
    (hv : ∀ s v, q { s with solver := v } = q s) {t : Tree} {ns : String} {s s' : NLOptCon}
    (h : NLOptCon.loadNames t ns s = some s') : q s' = q s := by
  refine readName_keep q (fun v => hi s v) (fun r r' h => ?_) h
  refine readName_keep q (fun v => hd r v) (fun r r' h => ?_) h
  refine readName_keep q (fun v => ha r v) (fun r r' h => ?_) h
  refine readName_keep q (fun v => hv r v) (fun r r' h => ?_) h
  cases h; rfl

/-- The members that are read one by one, and those of the linear-quadratic solver. -/
def NLOptCon.plain (s : NLOptCon) : (ℝ × ℝ × ℝ × ℝ × ℝ × ℝ) × (Int × Int × Int × Int × Int) × (Bool × Bool × Bool × Bool × Bool × Bool × Bool × Bool) × ℕ × String :=
  ((s.epsilon, s.dt, s.minCostImprovement, s.maxDefectSum, s.meritRho, s.meritRhoConstraints),
    (s.kSim, s.kShot, s.maxIterations, s.nThreads, s.lqocIterations),
    (s.timeVaryingDiscretization, s.fixedHessianCorrection, s.recordSmallestEigenvalue, s.lqocDebugPrint, s.debugPrint, s.printSummary,
      s.useSensitivityIntegrator, s.logToMatlab), s.nThreadsEigen, s.loggingPrefix)

/-- **C180.** Numbers, switches and the prefix: after loading, each of these settings has the value written in the section under
its key, and the value it had before if nothing (or nothing that can be understood) is written there; whatever else is written
or missing in the file. -/
theorem C180_values {C : Conv} {t : Tree} {path : List String} (h : IsSection path) {s s' : NLOptCon}
    (hl : s.load C t (dotted path) = some s') :
    s'.epsilon = (entry C.num t path "epsilon").getD s.epsilon ∧
    s'.dt = (entry C.num t path "dt").getD s.dt ∧
    s'.minCostImprovement = (entry C.num t path "min_cost_improvement").getD s.minCostImprovement ∧
    s'.maxDefectSum = (entry C.num t path "maxDefectSum").getD s.maxDefectSum ∧
    s'.meritRho = (entry C.num t path "meritFunctionRho").getD s.meritRho ∧
    s'.meritRhoConstraints = (entry C.num t path "meritFunctionRhoConstraints").getD s.meritRhoConstraints ∧
    s'.kSim = (entry C.int t path "K_sim").getD s.kSim ∧
    s'.kShot = (entry C.int t path "K_shot").getD s.kShot ∧
    s'.maxIterations = (entry C.int t path "max_iterations").getD s.maxIterations ∧
    s'.nThreads = (entry C.int t path "nThreads").getD s.nThreads ∧
    s'.lqocIterations = (entry C.int t (path ++ ["lqoc_solver_settings"]) "num_lqoc_iterations").getD s.lqocIterations ∧
    s'.timeVaryingDiscretization = (entry C.bool t path "timeVaryingDiscretization").getD s.timeVaryingDiscretization ∧
    s'.fixedHessianCorrection = (entry C.bool t path "fixedHessianCorrection").getD s.fixedHessianCorrection ∧
    s'.recordSmallestEigenvalue = (entry C.bool t path "recordSmallestEigenvalue").getD s.recordSmallestEigenvalue ∧
    s'.lqocDebugPrint = (entry C.bool t (path ++ ["lqoc_solver_settings"]) "lqoc_debug_print").getD s.lqocDebugPrint ∧
    s'.debugPrint = (entry C.bool t path "debugPrint").getD s.debugPrint ∧
    s'.printSummary = (entry C.bool t path "printSummary").getD s.printSummary ∧
    s'.useSensitivityIntegrator = (entry C.bool t path "useSensitivityIntegrator").getD s.useSensitivityIntegrator ∧
    s'.logToMatlab = (entry C.bool t path "logToMatlab").getD s.logToMatlab ∧
    s'.nThreadsEigen = (entry C.nat t path "nThreadsEigen").getD s.nThreadsEigen ∧
    s'.loggingPrefix = (entry some t path "loggingPrefix").getD s.loggingPrefix := by
  obtain ⟨ls, e, _, hn⟩ := load_parts h hl
  have hp := names_keep NLOptCon.plain (fun _ _ => rfl) (fun _ _ => rfl) (fun _ _ => rfl) (fun _ _ => rfl) hn
  have h' : IsSection (path ++ ["lqoc_solver_settings"]) := h.append (by lit)
  simp only [NLOptCon.plain, NLOptCon.loadLqoc, NLOptCon.loadSingles, Prod.mk.injEq] at hp
  rw [getOr_key _ t h "epsilon" (by lit) (by lit) (by lit), getOr_key _ t h "dt" (by lit) (by lit) (by lit),
    getOr_key _ t h "min_cost_improvement" (by lit) (by lit) (by lit), getOr_key _ t h "maxDefectSum" (by lit) (by lit) (by lit),
    getOr_key _ t h "meritFunctionRho" (by lit) (by lit) (by lit),
    getOr_key _ t h "meritFunctionRhoConstraints" (by lit) (by lit) (by lit),
    getOr_key _ t h "K_sim" (by lit) (by lit) (by lit), getOr_key _ t h "K_shot" (by lit) (by lit) (by lit),
    getOr_key _ t h "max_iterations" (by lit) (by lit) (by lit), getOr_key _ t h "nThreads" (by lit) (by lit) (by lit),
    getOr_key _ t h' "num_lqoc_iterations" (by lit) (by lit) (by lit),
    getOr_key _ t h "timeVaryingDiscretization" (by lit) (by lit) (by lit),
    getOr_key _ t h "fixedHessianCorrection" (by lit) (by lit) (by lit),
    getOr_key _ t h "recordSmallestEigenvalue" (by lit) (by lit) (by lit),
    getOr_key _ t h' "lqoc_debug_print" (by lit) (by lit) (by lit),
    getOr_key _ t h "debugPrint" (by lit) (by lit) (by lit), getOr_key _ t h "printSummary" (by lit) (by lit) (by lit),
    getOr_key _ t h "useSensitivityIntegrator" (by lit) (by lit) (by lit),
    getOr_key _ t h "logToMatlab" (by lit) (by lit) (by lit), getOr_key _ t h "nThreadsEigen" (by lit) (by lit) (by lit),
    getOr_key _ t h "loggingPrefix" (by lit) (by lit) (by lit)] at hp
  obtain ⟨⟨a1, a2, a3, a4, a5, a6⟩, ⟨b1, b2, b3, b4, b5⟩, ⟨c1, c2, c3, c4, c5, c6, c7, c8⟩, d1, d2⟩ := hp
  exact ⟨a1, a2, a3, a4, a5, a6, b1, b2, b3, b4, b5, c1, c2, c3, c4, c5, c6, c7, c8, d1, d2⟩

/-- **C180.** The line search: if its section gives a known type, the number of iterations, the first step, the reduction and the
debug switch, all of them are taken; the largest step is the one written, or the first step if none is written; adaptation is
off unless written; the Armijo parameter keeps its value unless written. -/
theorem C180_line_search {C : Conv} {t : Tree} {path : List String} (h : IsSection path) {s s' : NLOptCon}
    (hl : s.load C t (dotted path) = some s') {ty : LsType} {k : ℕ} {a r : ℝ} {b : Bool}
    (h1 : entry some t (path ++ ["line_search"]) "type" = some ty.name)
    (h2 : entry C.nat t (path ++ ["line_search"]) "maxIterations" = some k)
    (h3 : entry C.num t (path ++ ["line_search"]) "alpha_0" = some a)
    (h4 : entry C.num t (path ++ ["line_search"]) "n_alpha" = some r)
    (h5 : entry C.bool t (path ++ ["line_search"]) "debugPrint" = some b) :
    s'.lineSearch = ⟨ty, (entry C.bool t (path ++ ["line_search"]) "adaptive").getD false, k, a,
      (entry C.num t (path ++ ["line_search"]) "alpha_max").getD a, r,
      (entry C.num t (path ++ ["line_search"]) "armijo_parameter").getD s.lineSearch.armijo, b⟩ := by
  obtain ⟨ls, e, hls, hn⟩ := load_parts h hl
  have hp := names_keep NLOptCon.lineSearch (fun _ _ => rfl) (fun _ _ => rfl) (fun _ _ => rfl) (fun _ _ => rfl) hn
  rw [hp]
  rw [ls_complete (h.append (by lit)) s.lineSearch h1 h2 h3 h4 h5] at hls
  cases hls
  rfl

theorem readName_some {α : Type} {names : List (String × α)} {t : Tree} {p name : String} {s : NLOptCon} {store : α → NLOptCon}
    {next : NLOptCon → Option NLOptCon} {v : α} (h : get some t p = some name) (hv : names.lookup name = some v) :
    readName names t p s store next = next (store v) := by
  unfold readName
  rw [h]
  simp only [hv]

/-- **C180.** The choices: if the section names a known integrator, discretization, algorithm and solver of the linear-quadratic
problem, all four are taken. -/
theorem C180_choices {C : Conv} {t : Tree} {path : List String} (h : IsSection path) {s s' : NLOptCon}
    (hl : s.load C t (dotted path) = some s') {i : Integ} {d : Approx} {a : Alg} {v : Solver}
    (h1 : entry some t path "integrator" = some i.name) (h2 : entry some t path "discretization" = some d.name)
    (h3 : entry some t path "nlocp_algorithm" = some a.name) (h4 : entry some t path "locp_solver" = some v.name) :
    s'.integrator = i ∧ s'.discretization = d ∧ s'.algorithm = a ∧ s'.solver = v := by
  obtain ⟨ls, e, hls, hn⟩ := load_parts h hl
  unfold NLOptCon.loadNames at hn
  rw [← get_key some t h "integrator" (full := ".integrator") (by lit) (by lit) (by lit)] at h1
  rw [← get_key some t h "discretization" (full := ".discretization") (by lit) (by lit) (by lit)] at h2
  rw [← get_key some t h "nlocp_algorithm" (full := ".nlocp_algorithm") (by lit) (by lit) (by lit)] at h3
  rw [← get_key some t h "locp_solver" (full := ".locp_solver") (by lit) (by lit) (by lit)] at h4
  rw [readName_some h1 i.lookup, readName_some h2 d.lookup, readName_some h3 a.lookup, readName_some h4 v.lookup] at hn
  cases hn
  exact ⟨rfl, rfl, rfl, rfl⟩

theorem readName_ne {α : Type} {names : List (String × α)} {t : Tree} {p : String} {s : NLOptCon} {store : α → NLOptCon}
    {next : NLOptCon → Option NLOptCon} (hk : ∀ n, get some t p = some n → ∃ v, names.lookup n = some v)
    (hn : ∀ r, next r ≠ none) : readName names t p s store next ≠ none := by
  unfold readName
  split
  · simp
  · rename_i n hg
    obtain ⟨v, hv⟩ := hk n hg
    rw [hv]
    exact hn _

/-- **C180.** Loading ends the program only because of a name in the file that is not known: if all names written in the section
are known, loading succeeds. -/
theorem C180_succeeds {C : Conv} {t : Tree} {path : List String} (h : IsSection path) (s : NLOptCon)
    (h0 : ∀ n, entry some t (path ++ ["line_search"]) "type" = some n → ∃ x : LsType, n = x.name)
    (h1 : ∀ n, entry some t path "integrator" = some n → ∃ x : Integ, n = x.name)
    (h2 : ∀ n, entry some t path "discretization" = some n → ∃ x : Approx, n = x.name)
    (h3 : ∀ n, entry some t path "nlocp_algorithm" = some n → ∃ x : Alg, n = x.name)
    (h4 : ∀ n, entry some t path "locp_solver" = some n → ∃ x : Solver, n = x.name) :
    ∃ s', s.load C t (dotted path) = some s' := by
  rw [← Option.isSome_iff_exists, ← Option.ne_none_iff_isSome]
  unfold NLOptCon.load
  simp only []
  rw [sub_line h, sub_lqoc h]
  have hex : ∀ l : LineSearch, (l.load C t (dotted (path ++ ["line_search"]))).2 ≠ .exit := by
    intro l
    rw [LineSearch.load, get_key some t (h.append (by lit)) "type" (by lit) (by lit) (by lit)]
    split
    · simp
    · rename_i n hg
      obtain ⟨x, rfl⟩ := h0 n hg
      rw [x.lookup]
      exact loadRest_end _ _ _ _
  split
  · rename_i ls he
    exact absurd (congrArg Prod.snd he) (hex _)
  · unfold NLOptCon.loadNames
    refine readName_ne (fun n hg => ?_) fun r => readName_ne (fun n hg => ?_) fun r => readName_ne (fun n hg => ?_) fun r =>
      readName_ne (fun n hg => ?_) fun r => by simp
    · rw [get_key some t h "integrator" (by lit) (by lit) (by lit)] at hg
      obtain ⟨x, rfl⟩ := h1 n hg
      exact ⟨_, x.lookup⟩
    · rw [get_key some t h "discretization" (by lit) (by lit) (by lit)] at hg
      obtain ⟨x, rfl⟩ := h2 n hg
      exact ⟨_, x.lookup⟩
    · rw [get_key some t h "nlocp_algorithm" (by lit) (by lit) (by lit)] at hg
      obtain ⟨x, rfl⟩ := h3 n hg
      exact ⟨_, x.lookup⟩
    · rw [get_key some t h "locp_solver" (by lit) (by lit) (by lit)] at hg
      obtain ⟨x, rfl⟩ := h4 n hg
      exact ⟨_, x.lookup⟩

/-- **C180.** An unknown name of the line search type or of the integrator ends the program. -/
theorem C180_unknown {C : Conv} {t : Tree} {path : List String} (h : IsSection path) (s : NLOptCon) {n : String}
    (hn : (entry some t (path ++ ["line_search"]) "type" = some n ∧ ∀ x : LsType, n ≠ x.name) ∨
      (entry some t path "integrator" = some n ∧ ∀ x : Integ, n ≠ x.name)) : s.load C t (dotted path) = none := by
  unfold NLOptCon.load
  simp only []
  rw [sub_line h, sub_lqoc h]
  have hnone : ∀ {α : Type} (f : α → String) (l : List (String × α)), (∀ p ∈ l, p.1 = f p.2) → (∀ x, n ≠ f x) →
      l.lookup n = none := by
    intro α f l hl hx
    rw [List.lookup_eq_none_iff]
    intro p hp
    have : n ≠ p.1 := fun e => hx p.2 (e.trans (hl p hp))
    simpa using this
  rcases hn with ⟨hn, hx⟩ | ⟨hn, hx⟩
  · have : ∀ l : LineSearch, l.load C t (dotted (path ++ ["line_search"])) = (l, .exit) := by
      intro l
      rw [LineSearch.load, get_key some t (h.append (by lit)) "type" (by lit) (by lit) (by lit), hn]
      simp only []
      rw [hnone LsType.name lsTypes (by decide +kernel) hx]
    rw [this]
  · split
    · rfl
    · unfold NLOptCon.loadNames readName
      rw [get_key some t h "integrator" (by lit) (by lit) (by lit), hn]
      simp only []
      rw [hnone Integ.name integNames (by decide +kernel) hx]

/-! ### Files -/

/-- A leaf of a file. -/
def leaf (s : String) : Tree := .node s []

/-- A section of a file. -/
def sect (l : List (String × Tree)) : Tree := .node "" l

theorem section_one {k : String} (h : '.' ∉ k.toList) : IsSection [k] := ⟨by simp, fun x hx => by
  rw [List.mem_singleton.1 hx]; exact h⟩

/-- A file that gives a complete line search and all names. -/
def goodFile : Tree :=
  sect [("ilqr", sect [("nlocp_algorithm", leaf "ILQR"), ("integrator", leaf "RK4"), ("discretization", leaf "Tustin"),
    ("locp_solver", leaf "HPIPM_SOLVER"), ("dt", leaf "2"),
    ("line_search", sect [("type", leaf "SIMPLE"), ("maxIterations", leaf "7"), ("alpha_0", leaf "2"), ("n_alpha", leaf "2"),
      ("debugPrint", leaf "true")])])]

/-- Reads the numbers and Booleans of the examples. -/
noncomputable def reader : Conv :=
  ⟨fun s => if s = "2" then some 2 else none, fun _ => none, fun s => if s = "7" then some 7 else none,
    fun s => if s = "true" then some true else none⟩

example : IsSection ["ilqr"] ∧ (∃ s', fromConfigFile reader goodFile (dotted ["ilqr"]) = some s') ∧
    entry some goodFile ["ilqr"] "integrator" = some Integ.rk4.name ∧
    entry some goodFile ["ilqr"] "discretization" = some Approx.tustin.name ∧
    entry some goodFile ["ilqr"] "nlocp_algorithm" = some Alg.ilqr.name ∧
    entry some goodFile ["ilqr"] "locp_solver" = some Solver.hpipm.name ∧
    entry some goodFile ["ilqr", "line_search"] "type" = some LsType.simple.name ∧
    entry reader.nat goodFile ["ilqr", "line_search"] "maxIterations" = some 7 ∧
    entry reader.num goodFile ["ilqr", "line_search"] "alpha_0" = some 2 ∧
    entry reader.num goodFile ["ilqr", "line_search"] "n_alpha" = some 2 ∧
    entry reader.bool goodFile ["ilqr", "line_search"] "debugPrint" = some true := by
  have key : ∀ p k v, goodFile.walk (p ++ [k]) = some (leaf v) → ∀ {α : Type} (f : String → Option α), entry f goodFile p k = f v := by
    intro p k v h α f
    rw [entry, h]; rfl
  refine ⟨section_one (by lit), ?_, key _ _ _ rfl _, key _ _ _ rfl _, key _ _ _ rfl _, key _ _ _ rfl _, key _ _ _ rfl _,
    (key _ _ "7" rfl _).trans ?_, (key _ _ "2" rfl _).trans ?_, (key _ _ "2" rfl _).trans ?_, (key _ _ "true" rfl _).trans ?_⟩
  · refine C180_succeeds (section_one (by lit)) _ (fun n hn => ⟨.simple, ?_⟩) (fun n hn => ⟨.rk4, ?_⟩) (fun n hn => ⟨.tustin, ?_⟩)
      (fun n hn => ⟨.ilqr, ?_⟩) (fun n hn => ⟨.hpipm, ?_⟩) <;>
      exact (Option.some.inj (hn.symm.trans (key _ _ _ rfl _)))
  all_goals simp [reader]

example : (entry some (sect [("ilqr", sect [("integrator", leaf "rk4")])]) ["ilqr"] "integrator" = some "rk4" ∧
    ∀ x : Integ, "rk4" ≠ x.name) := ⟨rfl, fun x => by cases x <;> decide +kernel⟩

/-- **C180, violated.** The names are read in one block that ends silently at the first missing one: this file selects iLQR and
the interior-point solver, but does not mention the integrator; it is loaded without an error, and the solver still runs
Gauss-Newton multiple shooting with the Riccati solver. -/
theorem C180_choices_violated (C : Conv) :
    let t := sect [("alg", sect [("discretization", leaf "Tustin"), ("nlocp_algorithm", leaf "ILQR"), ("locp_solver", leaf "HPIPM_SOLVER")])]
    entry some t ["alg"] "nlocp_algorithm" = some Alg.ilqr.name ∧ entry some t ["alg"] "locp_solver" = some Solver.hpipm.name ∧
      ∃ s, fromConfigFile C t (dotted ["alg"]) = some s ∧ s.algorithm = .gnms ∧ s.solver = .gnriccati ∧
        s.discretization = .backwardEuler := by
  intro t
  have hs := section_one (k := "alg") (by lit)
  have h1 : entry some t ["alg"] "nlocp_algorithm" = some Alg.ilqr.name := rfl
  have h2 : entry some t ["alg"] "locp_solver" = some Solver.hpipm.name := rfl
  have h3 : entry some t ["alg"] "discretization" = some Approx.tustin.name := rfl
  have h4 : entry some t ["alg"] "integrator" = none := rfl
  have h5 : entry some t (["alg"] ++ ["line_search"]) "type" = none := rfl
  refine ⟨h1, h2, ?_⟩
  obtain ⟨s, hl⟩ := C180_succeeds (C := C) hs NLOptCon.default (fun n hn => by rw [h5] at hn; cases hn)
    (fun n hn => by rw [h4] at hn; cases hn) (fun n hn => ⟨_, (Option.some.inj (hn.symm.trans h3))⟩)
    (fun n hn => ⟨_, (Option.some.inj (hn.symm.trans h1))⟩) (fun n hn => ⟨_, (Option.some.inj (hn.symm.trans h2))⟩)
  refine ⟨s, hl, ?_⟩
  obtain ⟨ls, e, _, hn⟩ := load_parts hs hl
  unfold NLOptCon.loadNames readName at hn
  rw [get_key some t hs "integrator" (by lit) (by lit) (by lit), h4] at hn
  cases hn
  exact ⟨rfl, rfl, rfl⟩

/-- **C180, violated.** The section of the line search is dropped without a message if it does not name the type, as in the
configuration file delivered with the inverted pendulum example: whatever the section says, all line search settings keep
their values. -/
theorem C180_line_search_violated {C : Conv} {t : Tree} {path : List String} (h : IsSection path) {s s' : NLOptCon}
    (hl : s.load C t (dotted path) = some s') (hno : entry some t (path ++ ["line_search"]) "type" = none) :
    s'.lineSearch = s.lineSearch := by
  obtain ⟨ls, e, hls, hn⟩ := load_parts h hl
  have hp := names_keep NLOptCon.lineSearch (fun _ _ => rfl) (fun _ _ => rfl) (fun _ _ => rfl) (fun _ _ => rfl) hn
  rw [hp]
  rw [ls_missing (h.append (by lit)) s.lineSearch hno] at hls
  cases hls
  rfl

example : let t := sect [("ilqr", sect [("line_search", sect [("active", leaf "true"), ("maxIterations", leaf "7")])])]
    IsSection ["ilqr"] ∧ (∃ s', fromConfigFile reader t (dotted ["ilqr"]) = some s') ∧
      entry some t (["ilqr"] ++ ["line_search"]) "type" = none ∧
      entry reader.nat t (["ilqr"] ++ ["line_search"]) "maxIterations" = some 7 ∧ NLOptCon.default.lineSearch.maxIterations = 10 := by
  intro t
  refine ⟨section_one (by lit), ?_, rfl, ?_, rfl⟩
  · refine C180_succeeds (section_one (by lit)) _ (fun n hn => ?_) (fun n hn => ?_) (fun n hn => ?_) (fun n hn => ?_)
      (fun n hn => ?_) <;> cases hn
  · have : entry reader.nat t (["ilqr"] ++ ["line_search"]) "maxIterations" = reader.nat "7" := rfl
    rw [this]; simp [reader]

/-- **C180, violated.** A line search section without the debug switch is read in part: type, first step and reduction are taken,
the largest step written in the file is not. -/
theorem C180_step_limit_violated {C : Conv} {t : Tree} {path : List String} (h : IsSection path) {s s' : NLOptCon}
    (hl : s.load C t (dotted path) = some s') {ty : LsType} {k : ℕ} {a r : ℝ}
    (h1 : entry some t (path ++ ["line_search"]) "type" = some ty.name)
    (h2 : entry C.nat t (path ++ ["line_search"]) "maxIterations" = some k)
    (h3 : entry C.num t (path ++ ["line_search"]) "alpha_0" = some a)
    (h4 : entry C.num t (path ++ ["line_search"]) "n_alpha" = some r)
    (h5 : entry C.bool t (path ++ ["line_search"]) "debugPrint" = none) :
    s'.lineSearch.type = ty ∧ s'.lineSearch.alpha0 = a ∧ s'.lineSearch.nAlpha = r ∧ s'.lineSearch.alphaMax = s.lineSearch.alphaMax := by
  have h' : IsSection (path ++ ["line_search"]) := h.append (by lit)
  obtain ⟨ls, e, hls, hn⟩ := load_parts h hl
  have hp := names_keep NLOptCon.lineSearch (fun _ _ => rfl) (fun _ _ => rfl) (fun _ _ => rfl) (fun _ _ => rfl) hn
  rw [hp]
  rw [LineSearch.load, get_key some t h' "type" (by lit) (by lit) (by lit), h1] at hls
  simp only [LsType.lookup, LineSearch.loadRest] at hls
  rw [get_key C.nat t h' "maxIterations" (by lit) (by lit) (by lit), h2] at hls
  simp only [] at hls
  rw [get_key C.num t h' "alpha_0" (by lit) (by lit) (by lit), h3] at hls
  simp only [] at hls
  rw [get_key C.num t h' "n_alpha" (by lit) (by lit) (by lit), h4] at hls
  simp only [] at hls
  rw [get_key C.bool t h' "debugPrint" (by lit) (by lit) (by lit), h5] at hls
  cases hls
  exact ⟨rfl, rfl, rfl, rfl⟩

example : let t := sect [("ilqr", sect [("line_search", sect [("type", leaf "SIMPLE"), ("maxIterations", leaf "7"), ("alpha_0", leaf "2"),
      ("n_alpha", leaf "2"), ("alpha_max", leaf "2")])])]
    IsSection ["ilqr"] ∧ (∃ s', fromConfigFile reader t (dotted ["ilqr"]) = some s') ∧
      entry some t (["ilqr"] ++ ["line_search"]) "type" = some LsType.simple.name ∧
      entry reader.nat t (["ilqr"] ++ ["line_search"]) "maxIterations" = some 7 ∧
      entry reader.num t (["ilqr"] ++ ["line_search"]) "alpha_0" = some 2 ∧
      entry reader.num t (["ilqr"] ++ ["line_search"]) "n_alpha" = some 2 ∧
      entry reader.bool t (["ilqr"] ++ ["line_search"]) "debugPrint" = none ∧
      entry reader.num t (["ilqr"] ++ ["line_search"]) "alpha_max" = some 2 ∧ NLOptCon.default.lineSearch.alphaMax = 1 := by
  intro t
  have key : ∀ p k v, t.walk (p ++ [k]) = some (leaf v) → ∀ {α : Type} (f : String → Option α), entry f t p k = f v := by
    intro p k v h α f
    rw [entry, h]; rfl
  refine ⟨section_one (by lit), ?_, key _ _ _ rfl _, (key _ _ "7" rfl _).trans ?_, (key _ _ "2" rfl _).trans ?_,
    (key _ _ "2" rfl _).trans ?_, rfl, (key _ _ "2" rfl _).trans ?_, rfl⟩
  · refine C180_succeeds (section_one (by lit)) _ (fun n hn => ⟨.simple, ?_⟩) (fun n hn => ?_) (fun n hn => ?_) (fun n hn => ?_)
      (fun n hn => ?_)
    · exact (Option.some.inj (hn.symm.trans (key _ _ _ rfl _)))
    all_goals cases hn
  all_goals simp [reader]

/-- **C180, violated.** The check of the settings accepts a negative number of threads; with it, the solver creates empty arrays
of constraints and reads behind their end. -/
theorem C180_check_violated : ∃ s : NLOptCon, s.Ok ∧ lastSlot s.nThreads = .ub := by
  refine ⟨{ NLOptCon.default with nThreads := -1 }, ?_, rfl⟩
  simp only [NLOptCon.Ok, NLOptCon.default, LineSearch.Ok, LineSearch.default]
  norm_num

/-! ## C181: matrices and estimator settings -/

theorem digits_no_dot (n : ℕ) : '.' ∉ (toString n).toList := by
  intro h
  have h' : '.' ∈ Nat.toDigits 10 n := by
    simpa [ToString.toString, Nat.repr] using h
  have := Nat.isDigit_of_mem_toDigits (by omega) (by omega) h'
  exact absurd this (by decide)

/-- **C181.** A matrix read from a file under a path: entries that are not written are zero, and the scaling, one if it is not
written, multiplies all of them. The path is the namespace followed directly by the name. -/
theorem C181_matrix (C : Conv) (t : Tree) {path : List String} (h : IsSection path) {ns name : String} (hp : ns ++ name = dotted path)
    {rows cols : ℕ} (r : Fin rows) (c : Fin cols) :
    loadMatrix C t ns name rows cols r c = (entry C.num t path "scaling").getD 1 *
      (entry C.num t path ("(" ++ toString (r : ℕ) ++ "," ++ toString (c : ℕ) ++ ")")).getD 0 := by
  simp only [loadMatrix, Matrix.of_apply, hp]
  rw [getOr_key C.num t h "scaling" (by lit) (by lit) (by lit)]
  have e : dotted path ++ "." ++ "(" ++ toString (r : ℕ) ++ "," ++ toString (c : ℕ) ++ ")" =
      dotted path ++ ("." ++ ("(" ++ toString (r : ℕ) ++ "," ++ toString (c : ℕ) ++ ")")) := by
    simp only [String.append_assoc]
  rw [e, getOr_key C.num t h ("(" ++ toString (r : ℕ) ++ "," ++ toString (c : ℕ) ++ ")") ?_ ?_ ?_]
  · rw [String.toList_append]; rfl
  · simp only [String.toList_append, List.mem_append, not_or]
    exact ⟨⟨⟨⟨by lit, digits_no_dot _⟩, by lit⟩, digits_no_dot _⟩, by lit⟩
  · simp [String.toList_append]

/-- The matrix written under a path of the file. -/
noncomputable def written (C : Conv) (t : Tree) (path : List String) (rows cols : ℕ) : Matrix (Fin rows) (Fin cols) ℝ :=
  Matrix.of fun r c => (entry C.num t path "scaling").getD 1 *
    (entry C.num t path ("(" ++ toString (r : ℕ) ++ "," ++ toString (c : ℕ) ++ ")")).getD 0

theorem matrix_sub (C : Conv) (t : Tree) {path : List String} (h : IsSection path) {name : String} (hn : '.' ∉ name.toList)
    (rows cols : ℕ) : loadMatrix C t (dotted path ++ ".") name rows cols = written C t (path ++ [name]) rows cols := by
  ext r c
  exact C181_matrix C t (h.append hn) (dotted_append path h.1 name).symm r c

/-- **C181.** The settings of the state observer and of the extended Kalman filter: if the section is passed with a dot at its end,
all matrices are those written in the section. -/
theorem C181_observer (C : Conv) (t : Tree) {path : List String} (h : IsSection path) (p n : ℕ) :
    Observer.load C t (dotted path ++ ".") p n = ⟨written C t (path ++ ["C"]) p n, written C t (path ++ ["Q"]) n n,
      written C t (path ++ ["R"]) p p, written C t (path ++ ["dFdv"]) n n⟩ ∧
    loadExtended C t (dotted path ++ ".") n = (fun i => written C t (path ++ ["x0"]) n 1 i 0, written C t (path ++ ["P0"]) n n) := by
  simp only [Observer.load, loadExtended, matrix_sub C t h (name := "C") (by lit), matrix_sub C t h (name := "Q") (by lit),
    matrix_sub C t h (name := "R") (by lit), matrix_sub C t h (name := "dFdv") (by lit), matrix_sub C t h (name := "x0") (by lit),
    matrix_sub C t h (name := "P0") (by lit), and_self]

example : IsSection ["filter"] := section_one (by lit)

theorem matrix_zero (C : Conv) (t : Tree) {key ns name : String} (hd : '.' ∉ key.toList) (hp : ns ++ name = key)
    (hno : t.find key = none) (rows cols : ℕ) : loadMatrix C t ns name rows cols = 0 := by
  ext r c
  rw [C181_matrix C t (section_one hd) (show ns ++ name = dotted [key] from hp)]
  simp [entry, Tree.walk, hno]

/-- **C181, violated.** The name of a section as all other settings take it, without a dot at its end, makes the estimators read
the keys `filterC`, `filterQ`, ... at the top of the file instead of `C`, `Q`, ... in the section `filter`. Without such keys,
all matrices of the observer and of the extended Kalman filter are zero, whatever the section says, and no error is reported. -/
theorem C181_section_violated (C : Conv) (t : Tree) {ns : String} (hd : '.' ∉ ns.toList)
    (hno : ∀ name ∈ ["C", "Q", "R", "dFdv", "x0", "P0"], t.find (ns ++ name) = none) (p n : ℕ) :
    Observer.load C t ns p n = ⟨0, 0, 0, 0⟩ ∧ loadExtended C t ns n = (0, 0) := by
  have key : ∀ name ∈ ["C", "Q", "R", "dFdv", "x0", "P0"], ∀ r c : ℕ, loadMatrix C t ns name r c = 0 := by
    intro name hm r c
    refine matrix_zero C t (key := ns ++ name) ?_ rfl (hno name hm) r c
    rw [String.toList_append, List.mem_append, not_or]
    refine ⟨hd, ?_⟩
    have : ∀ name ∈ ["C", "Q", "R", "dFdv", "x0", "P0"], '.' ∉ name.toList := by decide +kernel
    exact this name hm
  simp only [Observer.load, loadExtended, key "C" (by simp), key "Q" (by simp), key "R" (by simp), key "dFdv" (by simp),
    key "x0" (by simp), key "P0" (by simp), true_and]
  rfl

/-- A section with a measurement matrix. -/
def filterFile : Tree := sect [("filter", sect [("C", sect [("(0,0)", leaf "2")])])]

example : '.' ∉ "filter".toList ∧ (∀ name ∈ ["C", "Q", "R", "dFdv", "x0", "P0"], filterFile.find ("filter" ++ name) = none) ∧
    written reader filterFile ["filter", "C"] 1 1 0 0 = 2 := by
  refine ⟨by lit, by decide +kernel, ?_⟩
  have h1 : entry reader.num filterFile ["filter", "C"] "scaling" = none := rfl
  have h2 : entry reader.num filterFile ["filter", "C"] ("(" ++ toString ((0 : Fin 1) : ℕ) ++ "," ++ toString ((0 : Fin 1) : ℕ) ++ ")") =
      reader.num "2" := rfl
  simp only [written, Matrix.of_apply, h1, h2]
  simp [reader]

/-- **C181, violated.** No name of the section serves the settings of the steady-state Kalman filter: without a dot at its end
the initial state is zero, with a dot the number of iterations is the default, whatever the section says. -/
theorem C181_steady_state_violated (C : Conv) (l : List (String × Tree)) (hl : l.lookup "" = none) (n : ℕ) :
    (loadSteadyState C (sect [("filter", .node "" l)]) "filter" n).1 = 0 ∧
      (loadSteadyState C (sect [("filter", .node "" l)]) "filter." n).2 = 1000 := by
  constructor
  · funext i
    have : loadMatrix C (sect [("filter", .node "" l)]) "filter" "x0" n 1 = 0 :=
      matrix_zero C _ (key := "filterx0") (by lit) rfl rfl n 1
    simp only [loadSteadyState, this]
    rfl
  · have hk : keys ("filter." ++ ".maxDAREIterations") = ["filter", "", "maxDAREIterations"] := by decide +kernel
    have hf : (sect [("filter", .node "" l)]).find "filter" = some (.node "" l) := rfl
    have hf2 : (CostLoad.Tree.node "" l).find "" = none := hl
    have hw : (sect [("filter", .node "" l)]).walk ["filter", "", "maxDAREIterations"] = none := by
      rw [Tree.walk, hf]
      simp only []
      rw [Tree.walk, hf2]
    simp only [loadSteadyState]
    rw [getOr, get, hk, hw]
    rfl

example : ([("x0", sect [("(0,0)", leaf "2")]), ("maxDAREIterations", leaf "7")] : List (String × Tree)).lookup "" = none := rfl

/-- **C181, violated.** The parameters of the unscented Kalman filter are read as Booleans: from any file, only the values zero and
one can be loaded. A file that gives another number for one of them, such as the usual `beta = 2`, is rejected.
(`hb`: a text read as a Boolean is, if it is a number, zero or one.) -/
theorem C181_unscented_violated (C : Conv) (hb : ∀ s b, C.bool s = some b → ∀ v, C.num s = some v → v = 0 ∨ v = 1) (t : Tree)
    {path : List String} (h : IsSection path) (n : ℕ) :
    (∀ s, Unscented.load C t (dotted path) n = .ok s → (s.alpha = 0 ∨ s.alpha = 1) ∧ (s.beta = 0 ∨ s.beta = 1) ∧
      (s.kappa = 0 ∨ s.kappa = 1)) ∧
    ∀ key ∈ ["alpha", "beta", "kappa"], ∀ v, entry C.num t path key = some v → v ≠ 0 → v ≠ 1 →
      Unscented.load C t (dotted path) n = .exc := by
  have hof : ∀ b, ofBool b = 0 ∨ ofBool b = 1 := fun b => by cases b <;> simp [ofBool]
  have hno : ∀ key v, entry C.num t path key = some v → v ≠ 0 → v ≠ 1 → entry C.bool t path key = none := by
    intro key v hv h0 h1
    unfold entry at hv ⊢
    cases hw : t.walk (path ++ [key]) with
    | none => rfl
    | some c =>
      rw [hw] at hv
      simp only [Option.bind_some] at hv ⊢
      cases hbc : C.bool c.data with
      | none => rfl
      | some b =>
        rcases hb _ b hbc v hv with e | e
        · exact absurd e h0
        · exact absurd e h1
  unfold Unscented.load
  rw [get_key C.bool t h "alpha" (full := ".alpha") (by lit) (by lit) (by lit),
    get_key C.bool t h "beta" (full := ".beta") (by lit) (by lit) (by lit),
    get_key C.bool t h "kappa" (full := ".kappa") (by lit) (by lit) (by lit)]
  constructor
  · intro s hs
    split at hs
    · cases hs
    · split at hs
      · cases hs
      · split at hs
        · cases hs
        · cases hs
          exact ⟨hof _, hof _, hof _⟩
  · intro key hk v hv h0 h1
    have hn := hno key v hv h0 h1
    simp only [List.mem_cons, List.not_mem_nil, or_false] at hk
    rcases hk with rfl | rfl | rfl
    · rw [hn]
    · rw [hn]
      split <;> rfl
    · rw [hn]
      split
      · rfl
      · split <;> rfl

/-- The bool conversion of the standard streams and a number conversion for three texts. -/
noncomputable def streams : Conv :=
  ⟨fun s => if s = "2" then some 2 else if s = "1" then some 1 else if s = "0" then some 0 else none, fun _ => none, fun _ => none,
    fun s => if s = "1" ∨ s = "true" then some true else if s = "0" ∨ s = "false" then some false else none⟩

example : (∀ s b, streams.bool s = some b → ∀ v, streams.num s = some v → v = 0 ∨ v = 1) ∧ IsSection ["ukf"] ∧
    entry streams.num (sect [("ukf", sect [("beta", leaf "2")])]) ["ukf"] "beta" = some 2 := by
  refine ⟨?_, section_one (by lit), ?_⟩
  · intro s b h v hv
    simp only [streams] at h hv
    by_cases h2 : s = "2"
    · subst h2
      simp at h
    · rw [if_neg h2] at hv
      by_cases h1 : s = "1"
      · rw [if_pos h1] at hv; right; exact (Option.some.inj hv).symm
      · rw [if_neg h1] at hv
        by_cases h0 : s = "0"
        · rw [if_pos h0] at hv; left; exact (Option.some.inj hv).symm
        · rw [if_neg h0] at hv; cases hv
  · have : entry streams.num (sect [("ukf", sect [("beta", leaf "2")])]) ["ukf"] "beta" = streams.num "2" := rfl
    rw [this]; simp [streams]

end CT.Settings
