import Verif.Props.SettingsLoad
import Verif.Props.NlpSolver
import Verif.Props.DmsProblem
import Verif.Model.DmsSettingsLoad

/-!
# C184: the multiple shooting solver runs with the settings written in the file
-/

namespace CT.DmsLoad

open CT.CostLoad (Tree)
open CT.Settings (get keys entry dotted IsSection get_key keys_key dotted_append leaf sect section_one)
open CT.NlpSolver (IpoptSettings SnoptSettings Options toInt Val)

/-! ## Specification -/

/-- An optional entry: without it the member keeps its value, with it the member gets the value written there. -/
def Optional {α : Type} (f : String → Option α) (t : Tree) (path : List String) (key : String) (old new : α) : Prop :=
  match t.walk (path ++ [key]) with
  | none => new = old
  | some c => f c.data = some new

/-- The entry of a section can be understood. -/
def Has {α : Type} (f : String → Option α) (t : Tree) (path : List String) (key : String) : Prop := (entry f t path key).isSome

/-- The entry of a section is absent or can be understood. -/
def MayHave {α : Type} (f : String → Option α) (t : Tree) (path : List String) (key : String) : Prop :=
  ∀ c, t.walk (path ++ [key]) = some c → (f c.data).isSome

/-! ## Reading -/

theorem sub_key {path : List String} (h : IsSection path) {k full : String} (hf : full.toList = '.' :: k.toList) :
    dotted path ++ full = dotted (path ++ [k]) := by
  rw [dotted_append path h.1, String.append_assoc]
  congr 1
  apply String.toList_inj.1
  rw [hf, String.toList_append]
  rfl

/-- `ifExists` on a key of a section. -/
def mayRead {α : Type} (f : String → Option α) (t : Tree) (path : List String) (k : String) (old : α) : Option α :=
  match t.walk (path ++ [k]) with
  | none => some old
  | some c => f c.data

theorem ifExists_key {α : Type} (f : String → Option α) (t : Tree) {path : List String} (h : IsSection path) (k : String)
    {full : String} (hf : full.toList = '.' :: k.toList) (hd : '.' ∉ k.toList) (hne : k.toList ≠ []) (old : α) :
    ifExists f t (dotted path ++ full) old = mayRead f t path k old := by
  rw [ifExists, keys_key h hf hd hne]
  rfl

theorem mayRead_iff {α : Type} {f : String → Option α} {t : Tree} {path : List String} {k : String} {old v : α} :
    mayRead f t path k old = some v ↔ Optional f t path k old v := by
  unfold mayRead Optional
  split
  · simp [eq_comm]
  · rfl

theorem mayRead_some {α : Type} {f : String → Option α} {t : Tree} {path : List String} {k : String} {old : α} :
    (∃ v, mayRead f t path k old = some v) ↔ MayHave f t path k := by
  unfold mayRead MayHave
  split
  · rename_i hw; simp [hw]
  · rename_i c hw
    rw [hw]
    constructor
    · rintro ⟨v, hv⟩ c' hc
      cases hc
      simp [hv]
    · intro hc
      exact Option.isSome_iff_exists.1 (hc c rfl)

theorem Has.iff {α : Type} {f : String → Option α} {t : Tree} {path : List String} {k : String} :
    (∃ v, entry f t path k = some v) ↔ Has f t path k := by
  rw [Has, Option.isSome_iff_exists]

/-! ### SNOPT -/

theorem snopt_eq (R : Texts) (t : Tree) {path : List String} (h : IsSection path) (s : SnoptSettings) :
    loadSnopt R t (dotted path) s =
  (entry R.uint t path "MaxMinorIterations").bind fun v0 =>
  (entry R.uint t path "MaxMajorIterations").bind fun v1 =>
  (entry R.uint t path "MinorPrintLevelVerbosity").bind fun v2 =>
  (entry R.uint t path "MajorPrintLevelVerbosity").bind fun v3 =>
  (entry R.num t path "OptimalityTolerance").bind fun v4 =>
  some { s with
    minorIterationLimit := toInt v0, majorIterationLimit := toInt v1, minorPrintLevel := toInt v2,
    majorPrintLevel := toInt v3, majorOptimalityTolerance := v4 } := by
  rw [loadSnopt, get_key R.uint t h "MaxMinorIterations" (full := ".MaxMinorIterations") (by lit) (by lit) (by lit),
    get_key R.uint t h "MaxMajorIterations" (full := ".MaxMajorIterations") (by lit) (by lit) (by lit),
    get_key R.uint t h "MinorPrintLevelVerbosity" (full := ".MinorPrintLevelVerbosity") (by lit) (by lit) (by lit),
    get_key R.uint t h "MajorPrintLevelVerbosity" (full := ".MajorPrintLevelVerbosity") (by lit) (by lit) (by lit),
    get_key R.num t h "OptimalityTolerance" (full := ".OptimalityTolerance") (by lit) (by lit) (by lit)]

/-! ### IPOPT -/

theorem ipopt_eq (R : Texts) (t : Tree) {path : List String} (h : IsSection path) (s : IpoptSettings) :
    loadIpopt R t (dotted path) s =
  (entry R.uint t path "MaxIterations").bind fun v0 =>
  (entry R.bool t path "CheckDerivatives").bind fun v1 =>
  (entry R.bool t path "ExactHessian").bind fun v2 =>
  (entry R.uint t path "Verbosity").bind fun v3 =>
  (entry R.num t path "OptimalityTolerance").bind fun v4 =>
  loadIpoptOptional R t (dotted path) { s with
    maxIter := toInt v0, derivativeTest := if v1 then "first-order" else "none",
    hessianApproximation := if v2 then "exact" else "limited-memory", printLevel := toInt v3, tol := v4 } := by
  rw [loadIpopt, get_key R.uint t h "MaxIterations" (full := ".MaxIterations") (by lit) (by lit) (by lit),
    get_key R.bool t h "CheckDerivatives" (full := ".CheckDerivatives") (by lit) (by lit) (by lit),
    get_key R.bool t h "ExactHessian" (full := ".ExactHessian") (by lit) (by lit) (by lit),
    get_key R.uint t h "Verbosity" (full := ".Verbosity") (by lit) (by lit) (by lit),
    get_key R.num t h "OptimalityTolerance" (full := ".OptimalityTolerance") (by lit) (by lit) (by lit)]

theorem optional_eq (R : Texts) (t : Tree) {path : List String} (h : IsSection path) (s : IpoptSettings) :
    loadIpoptOptional R t (dotted path) s =
  (mayRead some t path "jacobianApproximation" s.jacobianApproximation).bind fun v0 =>
  (mayRead R.num t path "restoAcceptableTol" s.restoAcceptableTol).bind fun v1 =>
  (mayRead R.num t path "constr_viol_tol" s.constrViolTol).bind fun v2 =>
  (mayRead R.num t path "restoTol" s.restoTol).bind fun v3 =>
  (mayRead R.num t path "acceptableTol" s.acceptableTol).bind fun v4 =>
  (mayRead some t path "linear_scaling_on_demand" s.linearScalingOnDemand).bind fun v5 =>
  (mayRead some t path "nlp_scaling_method" s.nlpScalingMethod).bind fun v6 =>
  (mayRead some t path "print_user_options" s.printUserOptions).bind fun v7 =>
  (mayRead R.int t path "print_frequency_iter_" s.printFrequencyIter).bind fun v8 =>
  (mayRead some t path "printInfoString" s.printInfoString).bind fun v9 =>
  (mayRead R.num t path "derivativeTestTol" s.derivativeTestTol).bind fun v10 =>
  (mayRead R.num t path "derivativeTestPerturbation" s.derivativeTestPerturbation).bind fun v11 =>
  (mayRead R.num t path "point_perturbation_radius" s.pointPerturbationRadius).bind fun v12 =>
  (mayRead some t path "checkDerivativesForNaninf" s.checkDerivativesForNaninf).bind fun v13 =>
  (mayRead some t path "derivativeTestPrintAll" s.derivativeTestPrintAll).bind fun v14 =>
  (mayRead some t path "linear_solver" s.linearSolver).bind fun v15 =>
  (mayRead some t path "linearSystemScaling" s.linearSystemScaling).bind fun v16 =>
  some { s with
    jacobianApproximation := v0,
    restoAcceptableTol := v1,
    constrViolTol := v2,
    restoTol := v3,
    acceptableTol := v4,
    linearScalingOnDemand := v5,
    nlpScalingMethod := v6,
    printUserOptions := v7,
    printFrequencyIter := v8,
    printInfoString := v9,
    derivativeTestTol := v10,
    derivativeTestPerturbation := v11,
    pointPerturbationRadius := v12,
    checkDerivativesForNaninf := v13,
    derivativeTestPrintAll := v14,
    linearSolver := v15,
    linearSystemScaling := v16 } := by
  rw [loadIpoptOptional, ifExists_key some t h "jacobianApproximation" (full := ".jacobianApproximation") (by lit) (by lit) (by lit),
    ifExists_key R.num t h "restoAcceptableTol" (full := ".restoAcceptableTol") (by lit) (by lit) (by lit),
    ifExists_key R.num t h "constr_viol_tol" (full := ".constr_viol_tol") (by lit) (by lit) (by lit),
    ifExists_key R.num t h "restoTol" (full := ".restoTol") (by lit) (by lit) (by lit),
    ifExists_key R.num t h "acceptableTol" (full := ".acceptableTol") (by lit) (by lit) (by lit),
    ifExists_key some t h "linear_scaling_on_demand" (full := ".linear_scaling_on_demand") (by lit) (by lit) (by lit),
    ifExists_key some t h "nlp_scaling_method" (full := ".nlp_scaling_method") (by lit) (by lit) (by lit),
    ifExists_key some t h "print_user_options" (full := ".print_user_options") (by lit) (by lit) (by lit),
    ifExists_key R.int t h "print_frequency_iter_" (full := ".print_frequency_iter_") (by lit) (by lit) (by lit),
    ifExists_key some t h "printInfoString" (full := ".printInfoString") (by lit) (by lit) (by lit),
    ifExists_key R.num t h "derivativeTestTol" (full := ".derivativeTestTol") (by lit) (by lit) (by lit),
    ifExists_key R.num t h "derivativeTestPerturbation" (full := ".derivativeTestPerturbation") (by lit) (by lit) (by lit),
    ifExists_key R.num t h "point_perturbation_radius" (full := ".point_perturbation_radius") (by lit) (by lit) (by lit),
    ifExists_key some t h "checkDerivativesForNaninf" (full := ".checkDerivativesForNaninf") (by lit) (by lit) (by lit),
    ifExists_key some t h "derivativeTestPrintAll" (full := ".derivativeTestPrintAll") (by lit) (by lit) (by lit),
    ifExists_key some t h "linear_solver" (full := ".linear_solver") (by lit) (by lit) (by lit),
    ifExists_key some t h "linearSystemScaling" (full := ".linearSystemScaling") (by lit) (by lit) (by lit)]

/-! ### The other sections -/

theorem cppad_eq (R : Texts) (t : Tree) {path : List String} (h : IsSection path) (s : Cppad) :
    s.load R t (dotted path) =
  (entry R.bool t path "MultiThreading").bind fun v0 =>
  (entry R.bool t path "CreateForwardZero").bind fun v1 =>
  (entry R.bool t path "CreateForwardOne").bind fun v2 =>
  (entry R.bool t path "CreateReverseOne").bind fun v3 =>
  (entry R.bool t path "CreateReverseTwo").bind fun v4 =>
  (entry R.bool t path "CreateJacobian").bind fun v5 =>
  (entry R.bool t path "CreateSparseJacobian").bind fun v6 =>
  (entry R.bool t path "CreateHessian").bind fun v7 =>
  (entry R.bool t path "CreateSparseHessian").bind fun v8 =>
  (entry R.uint t path "MaxAssignements").bind fun v9 =>
  (entry R.bool t path "GenerateSourceCode").bind fun v10 =>
  (entry R.bool t path "UseDynamicLibrary").bind fun v11 =>
  (entry some t path "Compiler").bind fun v12 =>
  some ⟨v0, v1, v2, v3, v4, v5, v6, v7, v8, v9, (compilers.lookup v12).getD s.compiler, v10, v11⟩ := by
  rw [Cppad.load, get_key R.bool t h "MultiThreading" (full := ".MultiThreading") (by lit) (by lit) (by lit),
    get_key R.bool t h "CreateForwardZero" (full := ".CreateForwardZero") (by lit) (by lit) (by lit),
    get_key R.bool t h "CreateForwardOne" (full := ".CreateForwardOne") (by lit) (by lit) (by lit),
    get_key R.bool t h "CreateReverseOne" (full := ".CreateReverseOne") (by lit) (by lit) (by lit),
    get_key R.bool t h "CreateReverseTwo" (full := ".CreateReverseTwo") (by lit) (by lit) (by lit),
    get_key R.bool t h "CreateJacobian" (full := ".CreateJacobian") (by lit) (by lit) (by lit),
    get_key R.bool t h "CreateSparseJacobian" (full := ".CreateSparseJacobian") (by lit) (by lit) (by lit),
    get_key R.bool t h "CreateHessian" (full := ".CreateHessian") (by lit) (by lit) (by lit),
    get_key R.bool t h "CreateSparseHessian" (full := ".CreateSparseHessian") (by lit) (by lit) (by lit),
    get_key R.uint t h "MaxAssignements" (full := ".MaxAssignements") (by lit) (by lit) (by lit),
    get_key R.bool t h "GenerateSourceCode" (full := ".GenerateSourceCode") (by lit) (by lit) (by lit),
    get_key R.bool t h "UseDynamicLibrary" (full := ".UseDynamicLibrary") (by lit) (by lit) (by lit),
    get_key some t h "Compiler" (full := ".Compiler") (by lit) (by lit) (by lit)]

theorem nlp_eq (R : Texts) (t : Tree) {path : List String} (h : IsSection path) (s : Nlp) :
    s.load R t (dotted path) =
  (entry R.uint t path "SolverType").bind fun v0 =>
  (entry R.bool t path "UseGeneratedCostGradient").bind fun v1 =>
  (entry R.bool t path "UseGeneratedConstraintJacobian").bind fun v2 =>
  if v0 % 256 = 0 then (loadIpopt R t (dotted (path ++ ["ipopt"])) s.ipopt).bind fun i => some ⟨v0 % 256, v1, v2, s.snopt, i⟩
  else if v0 % 256 = 1 then (loadSnopt R t (dotted (path ++ ["snopt"])) s.snopt).bind fun i => some ⟨v0 % 256, v1, v2, i, s.ipopt⟩
  else some ⟨v0 % 256, v1, v2, s.snopt, s.ipopt⟩ := by
  rw [Nlp.load, get_key R.uint t h "SolverType" (full := ".SolverType") (by lit) (by lit) (by lit),
    get_key R.bool t h "UseGeneratedCostGradient" (full := ".UseGeneratedCostGradient") (by lit) (by lit) (by lit),
    get_key R.bool t h "UseGeneratedConstraintJacobian" (full := ".UseGeneratedConstraintJacobian") (by lit) (by lit) (by lit),
    sub_key h (k := "ipopt") (full := ".ipopt") (by lit), sub_key h (k := "snopt") (full := ".snopt") (by lit)]

theorem dms_eq (R : Texts) (u : ℕ → ℕ) (t : Tree) {path : List String} (h : IsSection path) (s : Dms) :
    s.load R u t (dotted path) =
  (entry R.uint t path "N").bind fun v0 =>
  (entry R.num t path "T").bind fun v1 =>
  (entry R.uint t path "nThreads").bind fun v2 =>
  (entry R.uint t path "InterpolationType").bind fun v3 =>
  (entry R.uint t path "CostEvaluationType").bind fun v4 =>
  (entry R.uint t path "ObjectiveType").bind fun v5 =>
  (entry R.num t path "h_min").bind fun v6 =>
  (entry R.uint t path "IntegrationType").bind fun v7 =>
  (entry R.num t path "dt_sim").bind fun v8 =>
  (entry R.num t path "AbsErrTol").bind fun v9 =>
  (entry R.num t path "RelErrTol").bind fun v10 =>
  (s.solver.load R t (dotted (path ++ ["solver"]))).bind fun v11 =>
  (s.cppad.load R t (dotted (path ++ ["cppad"]))).bind fun v12 =>
  some ⟨v0, v1, v2, castEnum u v3, castEnum u v4, castEnum u v5, v6, castEnum u v7, v8, v9, v10, v11, v12⟩ := by
  rw [Dms.load, get_key R.uint t h "N" (full := ".N") (by lit) (by lit) (by lit),
    get_key R.num t h "T" (full := ".T") (by lit) (by lit) (by lit),
    get_key R.uint t h "nThreads" (full := ".nThreads") (by lit) (by lit) (by lit),
    get_key R.uint t h "InterpolationType" (full := ".InterpolationType") (by lit) (by lit) (by lit),
    get_key R.uint t h "CostEvaluationType" (full := ".CostEvaluationType") (by lit) (by lit) (by lit),
    get_key R.uint t h "ObjectiveType" (full := ".ObjectiveType") (by lit) (by lit) (by lit),
    get_key R.num t h "h_min" (full := ".h_min") (by lit) (by lit) (by lit),
    get_key R.uint t h "IntegrationType" (full := ".IntegrationType") (by lit) (by lit) (by lit),
    get_key R.num t h "dt_sim" (full := ".dt_sim") (by lit) (by lit) (by lit),
    get_key R.num t h "AbsErrTol" (full := ".AbsErrTol") (by lit) (by lit) (by lit),
    get_key R.num t h "RelErrTol" (full := ".RelErrTol") (by lit) (by lit) (by lit),
    sub_key h (k := "solver") (full := ".solver") (by lit), sub_key h (k := "cppad") (full := ".cppad") (by lit)]
/-! ## What is read -/

theorem dms_parts {R : Texts} {u : ℕ → ℕ} {t : Tree} {path : List String} (h : IsSection path) {s s' : Dms}
    (hl : s.load R u t (dotted path) = some s') :
    s.solver.load R t (dotted (path ++ ["solver"])) = some s'.solver ∧ s.cppad.load R t (dotted (path ++ ["cppad"])) = some s'.cppad := by
  rw [dms_eq R u t h] at hl
  obtain ⟨v0, h0, hl⟩ := Option.bind_eq_some_iff.1 hl
  obtain ⟨v1, h1, hl⟩ := Option.bind_eq_some_iff.1 hl
  obtain ⟨v2, h2, hl⟩ := Option.bind_eq_some_iff.1 hl
  obtain ⟨v3, h3, hl⟩ := Option.bind_eq_some_iff.1 hl
  obtain ⟨v4, h4, hl⟩ := Option.bind_eq_some_iff.1 hl
  obtain ⟨v5, h5, hl⟩ := Option.bind_eq_some_iff.1 hl
  obtain ⟨v6, h6, hl⟩ := Option.bind_eq_some_iff.1 hl
  obtain ⟨v7, h7, hl⟩ := Option.bind_eq_some_iff.1 hl
  obtain ⟨v8, h8, hl⟩ := Option.bind_eq_some_iff.1 hl
  obtain ⟨v9, h9, hl⟩ := Option.bind_eq_some_iff.1 hl
  obtain ⟨v10, h10, hl⟩ := Option.bind_eq_some_iff.1 hl
  obtain ⟨v11, h11, hl⟩ := Option.bind_eq_some_iff.1 hl
  obtain ⟨v12, h12, hl⟩ := Option.bind_eq_some_iff.1 hl
  have e := hl
  cases e
  exact ⟨h11, h12⟩

/-- **C184 (own entries).** If loading succeeds, number of shots, horizon, threads, step sizes and tolerances are those written in the
section, and so are the choices if their numbers belong to the enumeration. -/
theorem C184_values {R : Texts} {u : ℕ → ℕ} {t : Tree} {path : List String} (h : IsSection path) {s s' : Dms}
    (hl : s.load R u t (dotted path) = some s') :
    entry R.uint t path "N" = some s'.N ∧
    entry R.num t path "T" = some s'.T ∧
    entry R.uint t path "nThreads" = some s'.nThreads ∧
    (∃ k, entry R.uint t path "InterpolationType" = some k ∧ (k ≤ 3 → s'.splineType = k)) ∧
    (∃ k, entry R.uint t path "CostEvaluationType" = some k ∧ (k ≤ 3 → s'.costEvaluationType = k)) ∧
    (∃ k, entry R.uint t path "ObjectiveType" = some k ∧ (k ≤ 3 → s'.objectiveType = k)) ∧
    entry R.num t path "h_min" = some s'.hMin ∧
    (∃ k, entry R.uint t path "IntegrationType" = some k ∧ (k ≤ 3 → s'.integrationType = k)) ∧
    entry R.num t path "dt_sim" = some s'.dtSim ∧
    entry R.num t path "AbsErrTol" = some s'.absErrTol ∧
    entry R.num t path "RelErrTol" = some s'.relErrTol := by
  have en : ∀ v, v ≤ 3 → castEnum u v = v := fun v hv => if_pos hv
  rw [dms_eq R u t h] at hl
  obtain ⟨v0, h0, hl⟩ := Option.bind_eq_some_iff.1 hl
  obtain ⟨v1, h1, hl⟩ := Option.bind_eq_some_iff.1 hl
  obtain ⟨v2, h2, hl⟩ := Option.bind_eq_some_iff.1 hl
  obtain ⟨v3, h3, hl⟩ := Option.bind_eq_some_iff.1 hl
  obtain ⟨v4, h4, hl⟩ := Option.bind_eq_some_iff.1 hl
  obtain ⟨v5, h5, hl⟩ := Option.bind_eq_some_iff.1 hl
  obtain ⟨v6, h6, hl⟩ := Option.bind_eq_some_iff.1 hl
  obtain ⟨v7, h7, hl⟩ := Option.bind_eq_some_iff.1 hl
  obtain ⟨v8, h8, hl⟩ := Option.bind_eq_some_iff.1 hl
  obtain ⟨v9, h9, hl⟩ := Option.bind_eq_some_iff.1 hl
  obtain ⟨v10, h10, hl⟩ := Option.bind_eq_some_iff.1 hl
  obtain ⟨v11, h11, hl⟩ := Option.bind_eq_some_iff.1 hl
  obtain ⟨v12, h12, hl⟩ := Option.bind_eq_some_iff.1 hl
  have e := hl
  cases e
  exact ⟨h0, h1, h2, ⟨v3, h3, en v3⟩, ⟨v4, h4, en v4⟩, ⟨v5, h5, en v5⟩, h6, ⟨v7, h7, en v7⟩, h8, h9, h10⟩

/-- **C184 (choice of the solver).** If loading succeeds, the type of the NLP solver is the number written in the section, if it is below
256, and the flags for generated derivatives are those written there. -/
theorem C184_solver {R : Texts} {u : ℕ → ℕ} {t : Tree} {path : List String} (h : IsSection path) {s s' : Dms}
    (hl : s.load R u t (dotted path) = some s') :
    (∃ k, entry R.uint t (path ++ ["solver"]) "SolverType" = some k ∧ (k < 256 → s'.solver.solverType = k)) ∧
    entry R.bool t (path ++ ["solver"]) "UseGeneratedCostGradient" = some s'.solver.genGradient ∧
    entry R.bool t (path ++ ["solver"]) "UseGeneratedConstraintJacobian" = some s'.solver.genJacobian := by
  have hs := (dms_parts h hl).1
  rw [nlp_eq R t (h.append (by lit))] at hs
  obtain ⟨v0, h0, hs⟩ := Option.bind_eq_some_iff.1 hs
  obtain ⟨v1, h1, hs⟩ := Option.bind_eq_some_iff.1 hs
  obtain ⟨v2, h2, hs⟩ := Option.bind_eq_some_iff.1 hs
  have e := hs
  refine ⟨⟨v0, h0, fun hk => ?_⟩, ?_⟩
  · have := Nat.mod_eq_of_lt hk
    split at e
    · obtain ⟨i, _, e⟩ := Option.bind_eq_some_iff.1 e
      have e := Option.some.inj e
      rw [← e]; exact this
    · split at e
      · obtain ⟨i, _, e⟩ := Option.bind_eq_some_iff.1 e
        have e := Option.some.inj e
        rw [← e]; exact this
      · have e := Option.some.inj e
        rw [← e]; exact this
  · split at e
    · obtain ⟨i, _, e⟩ := Option.bind_eq_some_iff.1 e
      have e := Option.some.inj e
      rw [← e]; exact ⟨h1, h2⟩
    · split at e
      · obtain ⟨i, _, e⟩ := Option.bind_eq_some_iff.1 e
        have e := Option.some.inj e
        rw [← e]; exact ⟨h1, h2⟩
      · have e := Option.some.inj e
        rw [← e]; exact ⟨h1, h2⟩

theorem nlp_ipopt {R : Texts} {u : ℕ → ℕ} {t : Tree} {path : List String} (h : IsSection path) {s s' : Dms}
    (hl : s.load R u t (dotted path) = some s') (h0 : s'.solver.solverType = 0) :
    loadIpopt R t (dotted (path ++ ["solver"] ++ ["ipopt"])) s.solver.ipopt = some s'.solver.ipopt ∧
      s'.solver.snopt = s.solver.snopt := by
  have hs := (dms_parts h hl).1
  rw [nlp_eq R t (h.append (by lit))] at hs
  obtain ⟨v0, hv, hs⟩ := Option.bind_eq_some_iff.1 hs
  obtain ⟨v1, h1, hs⟩ := Option.bind_eq_some_iff.1 hs
  obtain ⟨v2, h2, hs⟩ := Option.bind_eq_some_iff.1 hs
  have e := hs
  split at e
  · obtain ⟨i, hi, e⟩ := Option.bind_eq_some_iff.1 e
    have e := Option.some.inj e
    rw [← e]
    exact ⟨hi, rfl⟩
  · rename_i hne
    exfalso
    split at e
    · obtain ⟨i, _, e⟩ := Option.bind_eq_some_iff.1 e
      have e := Option.some.inj e
      rw [← e] at h0
      exact hne h0
    · have e := Option.some.inj e
      rw [← e] at h0
      exact hne h0

theorem nlp_snopt {R : Texts} {u : ℕ → ℕ} {t : Tree} {path : List String} (h : IsSection path) {s s' : Dms}
    (hl : s.load R u t (dotted path) = some s') (h0 : s'.solver.solverType = 1) :
    loadSnopt R t (dotted (path ++ ["solver"] ++ ["snopt"])) s.solver.snopt = some s'.solver.snopt ∧
      s'.solver.ipopt = s.solver.ipopt := by
  have hs := (dms_parts h hl).1
  rw [nlp_eq R t (h.append (by lit))] at hs
  obtain ⟨v0, hv, hs⟩ := Option.bind_eq_some_iff.1 hs
  obtain ⟨v1, h1, hs⟩ := Option.bind_eq_some_iff.1 hs
  obtain ⟨v2, h2, hs⟩ := Option.bind_eq_some_iff.1 hs
  have e := hs
  split at e
  · rename_i hz
    exfalso
    obtain ⟨i, hi, e⟩ := Option.bind_eq_some_iff.1 e
    have e := Option.some.inj e
    rw [← e] at h0
    have h0 : v0 % 256 = 1 := h0
    omega
  · split at e
    · obtain ⟨i, hi, e⟩ := Option.bind_eq_some_iff.1 e
      have e := Option.some.inj e
      rw [← e]
      exact ⟨hi, rfl⟩
    · rename_i hne
      exfalso
      have e := Option.some.inj e
      rw [← e] at h0
      exact hne h0

/-- **C184 (IPOPT).** If IPOPT is chosen, iteration limit, verbosity and tolerance are those written in its section (numbers below
`2^31`), the derivative check and the Hessian are as asked for, each optional entry is used if it is there and keeps its value
otherwise, and the settings of SNOPT keep their values. -/
theorem C184_ipopt {R : Texts} {u : ℕ → ℕ} {t : Tree} {path p : List String} (h : IsSection path) {s s' : Dms}
    (hl : s.load R u t (dotted path) = some s') (h0 : s'.solver.solverType = 0) (hp : p = path ++ ["solver", "ipopt"]) :
    (∃ k, entry R.uint t p "MaxIterations" = some k ∧ (k < 2147483648 → s'.solver.ipopt.maxIter = k)) ∧
    (∃ b, entry R.bool t p "CheckDerivatives" = some b ∧ s'.solver.ipopt.derivativeTest = if b then "first-order" else "none") ∧
    (∃ b, entry R.bool t p "ExactHessian" = some b ∧ s'.solver.ipopt.hessianApproximation = if b then "exact" else "limited-memory") ∧
    (∃ k, entry R.uint t p "Verbosity" = some k ∧ (k < 2147483648 → s'.solver.ipopt.printLevel = k)) ∧
    entry R.num t p "OptimalityTolerance" = some s'.solver.ipopt.tol ∧
    Optional some t p "jacobianApproximation" s.solver.ipopt.jacobianApproximation s'.solver.ipopt.jacobianApproximation ∧
    Optional R.num t p "restoAcceptableTol" s.solver.ipopt.restoAcceptableTol s'.solver.ipopt.restoAcceptableTol ∧
    Optional R.num t p "constr_viol_tol" s.solver.ipopt.constrViolTol s'.solver.ipopt.constrViolTol ∧
    Optional R.num t p "restoTol" s.solver.ipopt.restoTol s'.solver.ipopt.restoTol ∧
    Optional R.num t p "acceptableTol" s.solver.ipopt.acceptableTol s'.solver.ipopt.acceptableTol ∧
    Optional some t p "linear_scaling_on_demand" s.solver.ipopt.linearScalingOnDemand s'.solver.ipopt.linearScalingOnDemand ∧
    Optional some t p "nlp_scaling_method" s.solver.ipopt.nlpScalingMethod s'.solver.ipopt.nlpScalingMethod ∧
    Optional some t p "print_user_options" s.solver.ipopt.printUserOptions s'.solver.ipopt.printUserOptions ∧
    Optional R.int t p "print_frequency_iter_" s.solver.ipopt.printFrequencyIter s'.solver.ipopt.printFrequencyIter ∧
    Optional some t p "printInfoString" s.solver.ipopt.printInfoString s'.solver.ipopt.printInfoString ∧
    Optional R.num t p "derivativeTestTol" s.solver.ipopt.derivativeTestTol s'.solver.ipopt.derivativeTestTol ∧
    Optional R.num t p "derivativeTestPerturbation" s.solver.ipopt.derivativeTestPerturbation s'.solver.ipopt.derivativeTestPerturbation ∧
    Optional R.num t p "point_perturbation_radius" s.solver.ipopt.pointPerturbationRadius s'.solver.ipopt.pointPerturbationRadius ∧
    Optional some t p "checkDerivativesForNaninf" s.solver.ipopt.checkDerivativesForNaninf s'.solver.ipopt.checkDerivativesForNaninf ∧
    Optional some t p "derivativeTestPrintAll" s.solver.ipopt.derivativeTestPrintAll s'.solver.ipopt.derivativeTestPrintAll ∧
    Optional some t p "linear_solver" s.solver.ipopt.linearSolver s'.solver.ipopt.linearSolver ∧
    Optional some t p "linearSystemScaling" s.solver.ipopt.linearSystemScaling s'.solver.ipopt.linearSystemScaling ∧
    s'.solver.snopt = s.solver.snopt := by
  have hI : IsSection p := by
    have := (h.append (k := "solver") (by lit)).append (k := "ipopt") (by lit)
    rw [hp]; simpa using this
  obtain ⟨hs, hsn⟩ := nlp_ipopt h hl h0
  have ep : path ++ ["solver"] ++ ["ipopt"] = p := by rw [hp]; simp
  rw [ep, ipopt_eq R t hI] at hs
  obtain ⟨w0, k0, hs⟩ := Option.bind_eq_some_iff.1 hs
  obtain ⟨w1, k1, hs⟩ := Option.bind_eq_some_iff.1 hs
  obtain ⟨w2, k2, hs⟩ := Option.bind_eq_some_iff.1 hs
  obtain ⟨w3, k3, hs⟩ := Option.bind_eq_some_iff.1 hs
  obtain ⟨w4, k4, hs⟩ := Option.bind_eq_some_iff.1 hs
  have e := hs
  rw [optional_eq R t hI] at e
  obtain ⟨v0, h0, e⟩ := Option.bind_eq_some_iff.1 e
  obtain ⟨v1, h1, e⟩ := Option.bind_eq_some_iff.1 e
  obtain ⟨v2, h2, e⟩ := Option.bind_eq_some_iff.1 e
  obtain ⟨v3, h3, e⟩ := Option.bind_eq_some_iff.1 e
  obtain ⟨v4, h4, e⟩ := Option.bind_eq_some_iff.1 e
  obtain ⟨v5, h5, e⟩ := Option.bind_eq_some_iff.1 e
  obtain ⟨v6, h6, e⟩ := Option.bind_eq_some_iff.1 e
  obtain ⟨v7, h7, e⟩ := Option.bind_eq_some_iff.1 e
  obtain ⟨v8, h8, e⟩ := Option.bind_eq_some_iff.1 e
  obtain ⟨v9, h9, e⟩ := Option.bind_eq_some_iff.1 e
  obtain ⟨v10, h10, e⟩ := Option.bind_eq_some_iff.1 e
  obtain ⟨v11, h11, e⟩ := Option.bind_eq_some_iff.1 e
  obtain ⟨v12, h12, e⟩ := Option.bind_eq_some_iff.1 e
  obtain ⟨v13, h13, e⟩ := Option.bind_eq_some_iff.1 e
  obtain ⟨v14, h14, e⟩ := Option.bind_eq_some_iff.1 e
  obtain ⟨v15, h15, e⟩ := Option.bind_eq_some_iff.1 e
  obtain ⟨v16, h16, e⟩ := Option.bind_eq_some_iff.1 e
  replace h0 := mayRead_iff.1 h0
  replace h1 := mayRead_iff.1 h1
  replace h2 := mayRead_iff.1 h2
  replace h3 := mayRead_iff.1 h3
  replace h4 := mayRead_iff.1 h4
  replace h5 := mayRead_iff.1 h5
  replace h6 := mayRead_iff.1 h6
  replace h7 := mayRead_iff.1 h7
  replace h8 := mayRead_iff.1 h8
  replace h9 := mayRead_iff.1 h9
  replace h10 := mayRead_iff.1 h10
  replace h11 := mayRead_iff.1 h11
  replace h12 := mayRead_iff.1 h12
  replace h13 := mayRead_iff.1 h13
  replace h14 := mayRead_iff.1 h14
  replace h15 := mayRead_iff.1 h15
  replace h16 := mayRead_iff.1 h16
  have e := Option.some.inj e
  rw [← e]
  exact ⟨⟨w0, k0, NlpSolver.toInt_of_lt w0⟩, ⟨w1, k1, rfl⟩, ⟨w2, k2, rfl⟩, ⟨w3, k3, NlpSolver.toInt_of_lt w3⟩, k4, h0, h1, h2, h3, h4, h5, h6, h7, h8, h9, h10, h11, h12, h13, h14, h15, h16, hsn⟩

/-- **C184 (SNOPT).** If SNOPT is chosen, iteration limits, verbosity and tolerance are those written in its section (numbers below
`2^31`); the settings of IPOPT keep their values. -/
theorem C184_snopt {R : Texts} {u : ℕ → ℕ} {t : Tree} {path p : List String} (h : IsSection path) {s s' : Dms}
    (hl : s.load R u t (dotted path) = some s') (h0 : s'.solver.solverType = 1) (hp : p = path ++ ["solver", "snopt"]) :
    (∃ k, entry R.uint t p "MaxMinorIterations" = some k ∧ (k < 2147483648 → s'.solver.snopt.minorIterationLimit = k)) ∧
    (∃ k, entry R.uint t p "MaxMajorIterations" = some k ∧ (k < 2147483648 → s'.solver.snopt.majorIterationLimit = k)) ∧
    (∃ k, entry R.uint t p "MinorPrintLevelVerbosity" = some k ∧ (k < 2147483648 → s'.solver.snopt.minorPrintLevel = k)) ∧
    (∃ k, entry R.uint t p "MajorPrintLevelVerbosity" = some k ∧ (k < 2147483648 → s'.solver.snopt.majorPrintLevel = k)) ∧
    entry R.num t p "OptimalityTolerance" = some s'.solver.snopt.majorOptimalityTolerance ∧
    s'.solver.ipopt = s.solver.ipopt := by
  have hI : IsSection p := by
    have := (h.append (k := "solver") (by lit)).append (k := "snopt") (by lit)
    rw [hp]; simpa using this
  obtain ⟨hs, hsn⟩ := nlp_snopt h hl h0
  have ep : path ++ ["solver"] ++ ["snopt"] = p := by rw [hp]; simp
  rw [ep, snopt_eq R t hI] at hs
  obtain ⟨w0, k0, hs⟩ := Option.bind_eq_some_iff.1 hs
  obtain ⟨w1, k1, hs⟩ := Option.bind_eq_some_iff.1 hs
  obtain ⟨w2, k2, hs⟩ := Option.bind_eq_some_iff.1 hs
  obtain ⟨w3, k3, hs⟩ := Option.bind_eq_some_iff.1 hs
  obtain ⟨w4, k4, hs⟩ := Option.bind_eq_some_iff.1 hs
  have e := hs
  have e := Option.some.inj e
  rw [← e]
  exact ⟨⟨w0, k0, NlpSolver.toInt_of_lt w0⟩, ⟨w1, k1, NlpSolver.toInt_of_lt w1⟩, ⟨w2, k2, NlpSolver.toInt_of_lt w2⟩,
    ⟨w3, k3, NlpSolver.toInt_of_lt w3⟩, k4, hsn⟩

/-- The names of the compilers. -/
def Compiler.name : Compiler → String
  | .gcc => "GCC"
  | .clang => "CLANG"

theorem lookup_name (c : Compiler) : compilers.lookup c.name = some c := by cases c <;> decide +kernel

/-- **C184 (derivatives).** If loading succeeds, the settings for generated derivatives are those written in their section, and so is the
compiler if its name is known. -/
theorem C184_cppad {R : Texts} {u : ℕ → ℕ} {t : Tree} {path : List String} (h : IsSection path) {s s' : Dms}
    (hl : s.load R u t (dotted path) = some s') :
    entry R.bool t (path ++ ["cppad"]) "MultiThreading" = some s'.cppad.multiThreading ∧
    entry R.bool t (path ++ ["cppad"]) "CreateForwardZero" = some s'.cppad.forwardZero ∧
    entry R.bool t (path ++ ["cppad"]) "CreateForwardOne" = some s'.cppad.forwardOne ∧
    entry R.bool t (path ++ ["cppad"]) "CreateReverseOne" = some s'.cppad.reverseOne ∧
    entry R.bool t (path ++ ["cppad"]) "CreateReverseTwo" = some s'.cppad.reverseTwo ∧
    entry R.bool t (path ++ ["cppad"]) "CreateJacobian" = some s'.cppad.jacobian ∧
    entry R.bool t (path ++ ["cppad"]) "CreateSparseJacobian" = some s'.cppad.sparseJacobian ∧
    entry R.bool t (path ++ ["cppad"]) "CreateHessian" = some s'.cppad.hessian ∧
    entry R.bool t (path ++ ["cppad"]) "CreateSparseHessian" = some s'.cppad.sparseHessian ∧
    entry R.uint t (path ++ ["cppad"]) "MaxAssignements" = some s'.cppad.maxAssignments ∧
    entry R.bool t (path ++ ["cppad"]) "GenerateSourceCode" = some s'.cppad.sourceCode ∧
    entry R.bool t (path ++ ["cppad"]) "UseDynamicLibrary" = some s'.cppad.dynamicLibrary ∧
    Has some t (path ++ ["cppad"]) "Compiler" ∧ ∀ c : Compiler, entry some t (path ++ ["cppad"]) "Compiler" = some c.name → s'.cppad.compiler = c := by
  have hs := (dms_parts h hl).2
  rw [cppad_eq R t (h.append (by lit))] at hs
  obtain ⟨v0, h0, hs⟩ := Option.bind_eq_some_iff.1 hs
  obtain ⟨v1, h1, hs⟩ := Option.bind_eq_some_iff.1 hs
  obtain ⟨v2, h2, hs⟩ := Option.bind_eq_some_iff.1 hs
  obtain ⟨v3, h3, hs⟩ := Option.bind_eq_some_iff.1 hs
  obtain ⟨v4, h4, hs⟩ := Option.bind_eq_some_iff.1 hs
  obtain ⟨v5, h5, hs⟩ := Option.bind_eq_some_iff.1 hs
  obtain ⟨v6, h6, hs⟩ := Option.bind_eq_some_iff.1 hs
  obtain ⟨v7, h7, hs⟩ := Option.bind_eq_some_iff.1 hs
  obtain ⟨v8, h8, hs⟩ := Option.bind_eq_some_iff.1 hs
  obtain ⟨v9, h9, hs⟩ := Option.bind_eq_some_iff.1 hs
  obtain ⟨v10, h10, hs⟩ := Option.bind_eq_some_iff.1 hs
  obtain ⟨v11, h11, hs⟩ := Option.bind_eq_some_iff.1 hs
  obtain ⟨v12, h12, hs⟩ := Option.bind_eq_some_iff.1 hs
  have e := hs
  have e := Option.some.inj e
  rw [← e]
  refine ⟨h0, h1, h2, h3, h4, h5, h6, h7, h8, h9, h10, h11, Has.iff.1 ⟨_, h12⟩, fun c hc => ?_⟩
  have : v12 = c.name := Option.some.inj (h12.symm.trans hc)
  change (compilers.lookup v12).getD s.cppad.compiler = c
  rw [this, lookup_name]
  rfl

/-- The entries of the own section. -/
def OwnEntries (R : Texts) (t : Tree) (path : List String) : Prop :=
  (∀ k ∈ ["N", "nThreads", "InterpolationType", "CostEvaluationType", "ObjectiveType", "IntegrationType"], Has R.uint t path k) ∧
  ∀ k ∈ ["T", "h_min", "dt_sim", "AbsErrTol", "RelErrTol"], Has R.num t path k

/-- The entries of the section for generated derivatives. -/
def CppadEntries (R : Texts) (t : Tree) (path : List String) : Prop :=
  (∀ k ∈ ["MultiThreading", "CreateForwardZero", "CreateForwardOne", "CreateReverseOne", "CreateReverseTwo", "CreateJacobian",
    "CreateSparseJacobian", "CreateHessian", "CreateSparseHessian", "GenerateSourceCode", "UseDynamicLibrary"], Has R.bool t path k) ∧
  Has R.uint t path "MaxAssignements" ∧ Has some t path "Compiler"

/-- The entries of the section of SNOPT. -/
def SnoptEntries (R : Texts) (t : Tree) (path : List String) : Prop :=
  (∀ k ∈ ["MaxMinorIterations", "MaxMajorIterations", "MinorPrintLevelVerbosity", "MajorPrintLevelVerbosity"], Has R.uint t path k) ∧
  Has R.num t path "OptimalityTolerance"

/-- The entries of the section of IPOPT; optional ones may be absent. -/
def IpoptEntries (R : Texts) (t : Tree) (path : List String) : Prop :=
  (∀ k ∈ ["MaxIterations", "Verbosity"], Has R.uint t path k) ∧ (∀ k ∈ ["CheckDerivatives", "ExactHessian"], Has R.bool t path k) ∧
  Has R.num t path "OptimalityTolerance" ∧
  (∀ k ∈ ["restoAcceptableTol", "constr_viol_tol", "restoTol", "acceptableTol", "derivativeTestTol", "derivativeTestPerturbation",
    "point_perturbation_radius"], MayHave R.num t path k) ∧ MayHave R.int t path "print_frequency_iter_"

theorem may_text (t : Tree) (path : List String) (k : String) : MayHave some t path k := fun _ _ => rfl

theorem snopt_some {R : Texts} {t : Tree} {path : List String} (h : IsSection path) (s : SnoptSettings) :
    (∃ s', loadSnopt R t (dotted path) s = some s') ↔ SnoptEntries R t path := by
  rw [snopt_eq R t h]
  simp only [SnoptEntries, ← Has.iff, List.forall_mem_cons, List.not_mem_nil, false_imp_iff, forall_const,
    and_true]
  constructor
  · rintro ⟨_, e⟩
    obtain ⟨v0, h0, e⟩ := Option.bind_eq_some_iff.1 e
    obtain ⟨v1, h1, e⟩ := Option.bind_eq_some_iff.1 e
    obtain ⟨v2, h2, e⟩ := Option.bind_eq_some_iff.1 e
    obtain ⟨v3, h3, e⟩ := Option.bind_eq_some_iff.1 e
    obtain ⟨v4, h4, e⟩ := Option.bind_eq_some_iff.1 e
    exact ⟨⟨⟨v0, h0⟩, ⟨v1, h1⟩, ⟨v2, h2⟩, ⟨v3, h3⟩⟩, ⟨v4, h4⟩⟩
  · rintro ⟨⟨⟨v0, h0⟩, ⟨v1, h1⟩, ⟨v2, h2⟩, ⟨v3, h3⟩⟩, ⟨v4, h4⟩⟩
    exact ⟨_, Option.bind_eq_some_iff.2 ⟨v0, h0, Option.bind_eq_some_iff.2 ⟨v1, h1, Option.bind_eq_some_iff.2 ⟨v2, h2, Option.bind_eq_some_iff.2 ⟨v3, h3, Option.bind_eq_some_iff.2 ⟨v4, h4, rfl⟩⟩⟩⟩⟩⟩

theorem cppad_some {R : Texts} {t : Tree} {path : List String} (h : IsSection path) (s : Cppad) :
    (∃ s', s.load R t (dotted path) = some s') ↔ CppadEntries R t path := by
  rw [cppad_eq R t h]
  simp only [CppadEntries, ← Has.iff, List.forall_mem_cons, List.not_mem_nil, false_imp_iff, forall_const,
    and_true]
  constructor
  · rintro ⟨_, e⟩
    obtain ⟨v0, h0, e⟩ := Option.bind_eq_some_iff.1 e
    obtain ⟨v1, h1, e⟩ := Option.bind_eq_some_iff.1 e
    obtain ⟨v2, h2, e⟩ := Option.bind_eq_some_iff.1 e
    obtain ⟨v3, h3, e⟩ := Option.bind_eq_some_iff.1 e
    obtain ⟨v4, h4, e⟩ := Option.bind_eq_some_iff.1 e
    obtain ⟨v5, h5, e⟩ := Option.bind_eq_some_iff.1 e
    obtain ⟨v6, h6, e⟩ := Option.bind_eq_some_iff.1 e
    obtain ⟨v7, h7, e⟩ := Option.bind_eq_some_iff.1 e
    obtain ⟨v8, h8, e⟩ := Option.bind_eq_some_iff.1 e
    obtain ⟨v9, h9, e⟩ := Option.bind_eq_some_iff.1 e
    obtain ⟨v10, h10, e⟩ := Option.bind_eq_some_iff.1 e
    obtain ⟨v11, h11, e⟩ := Option.bind_eq_some_iff.1 e
    obtain ⟨v12, h12, e⟩ := Option.bind_eq_some_iff.1 e
    exact ⟨⟨⟨v0, h0⟩, ⟨v1, h1⟩, ⟨v2, h2⟩, ⟨v3, h3⟩, ⟨v4, h4⟩, ⟨v5, h5⟩, ⟨v6, h6⟩, ⟨v7, h7⟩, ⟨v8, h8⟩, ⟨v10, h10⟩, ⟨v11, h11⟩⟩,
      ⟨v9, h9⟩, ⟨v12, h12⟩⟩
  · rintro ⟨⟨⟨v0, h0⟩, ⟨v1, h1⟩, ⟨v2, h2⟩, ⟨v3, h3⟩, ⟨v4, h4⟩, ⟨v5, h5⟩, ⟨v6, h6⟩, ⟨v7, h7⟩, ⟨v8, h8⟩, ⟨v10, h10⟩, ⟨v11, h11⟩⟩,
      ⟨v9, h9⟩, ⟨v12, h12⟩⟩
    exact ⟨_, Option.bind_eq_some_iff.2 ⟨v0, h0, Option.bind_eq_some_iff.2 ⟨v1, h1, Option.bind_eq_some_iff.2 ⟨v2, h2, Option.bind_eq_some_iff.2 ⟨v3, h3, Option.bind_eq_some_iff.2 ⟨v4, h4, Option.bind_eq_some_iff.2 ⟨v5, h5, Option.bind_eq_some_iff.2 ⟨v6, h6, Option.bind_eq_some_iff.2 ⟨v7, h7, Option.bind_eq_some_iff.2 ⟨v8, h8, Option.bind_eq_some_iff.2 ⟨v9, h9, Option.bind_eq_some_iff.2 ⟨v10, h10, Option.bind_eq_some_iff.2 ⟨v11, h11, Option.bind_eq_some_iff.2 ⟨v12, h12, rfl⟩⟩⟩⟩⟩⟩⟩⟩⟩⟩⟩⟩⟩⟩

theorem ipopt_some {R : Texts} {t : Tree} {path : List String} (h : IsSection path) (s : IpoptSettings) :
    (∃ s', loadIpopt R t (dotted path) s = some s') ↔ IpoptEntries R t path := by
  rw [ipopt_eq R t h]
  simp only [IpoptEntries, ← Has.iff, List.forall_mem_cons, List.not_mem_nil, false_imp_iff, forall_const,
    and_true]
  constructor
  · rintro ⟨_, e⟩
    obtain ⟨w0, k0, e⟩ := Option.bind_eq_some_iff.1 e
    obtain ⟨w1, k1, e⟩ := Option.bind_eq_some_iff.1 e
    obtain ⟨w2, k2, e⟩ := Option.bind_eq_some_iff.1 e
    obtain ⟨w3, k3, e⟩ := Option.bind_eq_some_iff.1 e
    obtain ⟨w4, k4, e⟩ := Option.bind_eq_some_iff.1 e
    rw [optional_eq R t h] at e
    obtain ⟨v0, h0, e⟩ := Option.bind_eq_some_iff.1 e
    obtain ⟨v1, h1, e⟩ := Option.bind_eq_some_iff.1 e
    obtain ⟨v2, h2, e⟩ := Option.bind_eq_some_iff.1 e
    obtain ⟨v3, h3, e⟩ := Option.bind_eq_some_iff.1 e
    obtain ⟨v4, h4, e⟩ := Option.bind_eq_some_iff.1 e
    obtain ⟨v5, h5, e⟩ := Option.bind_eq_some_iff.1 e
    obtain ⟨v6, h6, e⟩ := Option.bind_eq_some_iff.1 e
    obtain ⟨v7, h7, e⟩ := Option.bind_eq_some_iff.1 e
    obtain ⟨v8, h8, e⟩ := Option.bind_eq_some_iff.1 e
    obtain ⟨v9, h9, e⟩ := Option.bind_eq_some_iff.1 e
    obtain ⟨v10, h10, e⟩ := Option.bind_eq_some_iff.1 e
    obtain ⟨v11, h11, e⟩ := Option.bind_eq_some_iff.1 e
    obtain ⟨v12, h12, e⟩ := Option.bind_eq_some_iff.1 e
    obtain ⟨v13, h13, e⟩ := Option.bind_eq_some_iff.1 e
    obtain ⟨v14, h14, e⟩ := Option.bind_eq_some_iff.1 e
    obtain ⟨v15, h15, e⟩ := Option.bind_eq_some_iff.1 e
    obtain ⟨v16, h16, e⟩ := Option.bind_eq_some_iff.1 e
    exact ⟨⟨⟨w0, k0⟩, ⟨w3, k3⟩⟩, ⟨⟨w1, k1⟩, ⟨w2, k2⟩⟩, ⟨w4, k4⟩, ⟨mayRead_some.1 ⟨_, h1⟩, mayRead_some.1 ⟨_, h2⟩, mayRead_some.1 ⟨_, h3⟩, mayRead_some.1 ⟨_, h4⟩, mayRead_some.1 ⟨_, h10⟩, mayRead_some.1 ⟨_, h11⟩, mayRead_some.1 ⟨_, h12⟩⟩, mayRead_some.1 ⟨_, h8⟩⟩
  · rintro ⟨⟨⟨w0, k0⟩, ⟨w3, k3⟩⟩, ⟨⟨w1, k1⟩, ⟨w2, k2⟩⟩, ⟨w4, k4⟩, ⟨f1, f2, f3, f4, f10, f11, f12⟩, f8⟩
    obtain ⟨v0, h0⟩ := (mayRead_some (old := s.jacobianApproximation)).2 (may_text t path "jacobianApproximation")
    obtain ⟨v1, h1⟩ := (mayRead_some (old := s.restoAcceptableTol)).2 f1
    obtain ⟨v2, h2⟩ := (mayRead_some (old := s.constrViolTol)).2 f2
    obtain ⟨v3, h3⟩ := (mayRead_some (old := s.restoTol)).2 f3
    obtain ⟨v4, h4⟩ := (mayRead_some (old := s.acceptableTol)).2 f4
    obtain ⟨v5, h5⟩ := (mayRead_some (old := s.linearScalingOnDemand)).2 (may_text t path "linear_scaling_on_demand")
    obtain ⟨v6, h6⟩ := (mayRead_some (old := s.nlpScalingMethod)).2 (may_text t path "nlp_scaling_method")
    obtain ⟨v7, h7⟩ := (mayRead_some (old := s.printUserOptions)).2 (may_text t path "print_user_options")
    obtain ⟨v8, h8⟩ := (mayRead_some (old := s.printFrequencyIter)).2 f8
    obtain ⟨v9, h9⟩ := (mayRead_some (old := s.printInfoString)).2 (may_text t path "printInfoString")
    obtain ⟨v10, h10⟩ := (mayRead_some (old := s.derivativeTestTol)).2 f10
    obtain ⟨v11, h11⟩ := (mayRead_some (old := s.derivativeTestPerturbation)).2 f11
    obtain ⟨v12, h12⟩ := (mayRead_some (old := s.pointPerturbationRadius)).2 f12
    obtain ⟨v13, h13⟩ := (mayRead_some (old := s.checkDerivativesForNaninf)).2 (may_text t path "checkDerivativesForNaninf")
    obtain ⟨v14, h14⟩ := (mayRead_some (old := s.derivativeTestPrintAll)).2 (may_text t path "derivativeTestPrintAll")
    obtain ⟨v15, h15⟩ := (mayRead_some (old := s.linearSolver)).2 (may_text t path "linear_solver")
    obtain ⟨v16, h16⟩ := (mayRead_some (old := s.linearSystemScaling)).2 (may_text t path "linearSystemScaling")
    exact ⟨_, Option.bind_eq_some_iff.2 ⟨w0, k0, Option.bind_eq_some_iff.2 ⟨w1, k1, Option.bind_eq_some_iff.2 ⟨w2, k2, Option.bind_eq_some_iff.2 ⟨w3, k3, Option.bind_eq_some_iff.2 ⟨w4, k4, (optional_eq R t h _).trans (Option.bind_eq_some_iff.2 ⟨v0, h0, Option.bind_eq_some_iff.2 ⟨v1, h1, Option.bind_eq_some_iff.2 ⟨v2, h2, Option.bind_eq_some_iff.2 ⟨v3, h3, Option.bind_eq_some_iff.2 ⟨v4, h4, Option.bind_eq_some_iff.2 ⟨v5, h5, Option.bind_eq_some_iff.2 ⟨v6, h6, Option.bind_eq_some_iff.2 ⟨v7, h7, Option.bind_eq_some_iff.2 ⟨v8, h8, Option.bind_eq_some_iff.2 ⟨v9, h9, Option.bind_eq_some_iff.2 ⟨v10, h10, Option.bind_eq_some_iff.2 ⟨v11, h11, Option.bind_eq_some_iff.2 ⟨v12, h12, Option.bind_eq_some_iff.2 ⟨v13, h13, Option.bind_eq_some_iff.2 ⟨v14, h14, Option.bind_eq_some_iff.2 ⟨v15, h15, Option.bind_eq_some_iff.2 ⟨v16, h16, rfl⟩⟩⟩⟩⟩⟩⟩⟩⟩⟩⟩⟩⟩⟩⟩⟩⟩)⟩⟩⟩⟩⟩⟩

/-- **C184 (when loading succeeds).** Loading succeeds exactly if every required entry of the sections that apply is there and can be
understood and no optional number is unreadable; otherwise it throws. -/
theorem C184_succeeds {R : Texts} {u : ℕ → ℕ} {t : Tree} {path : List String} (h : IsSection path) (s : Dms) :
    (∃ s', s.load R u t (dotted path) = some s') ↔
      OwnEntries R t path ∧ CppadEntries R t (path ++ ["cppad"]) ∧
      (∀ k ∈ ["UseGeneratedCostGradient", "UseGeneratedConstraintJacobian"], Has R.bool t (path ++ ["solver"]) k) ∧
      ∃ k, entry R.uint t (path ++ ["solver"]) "SolverType" = some k ∧
        (k % 256 = 0 → IpoptEntries R t (path ++ ["solver", "ipopt"])) ∧ (k % 256 = 1 → SnoptEntries R t (path ++ ["solver", "snopt"])) := by
  have hS : IsSection (path ++ ["solver"]) := h.append (by lit)
  have hI : IsSection (path ++ ["solver", "ipopt"]) := by simpa using hS.append (k := "ipopt") (by lit)
  have hN : IsSection (path ++ ["solver", "snopt"]) := by simpa using hS.append (k := "snopt") (by lit)
  have hC : IsSection (path ++ ["cppad"]) := h.append (by lit)
  have nl : (∃ n, s.solver.load R t (dotted (path ++ ["solver"])) = some n) ↔
      (∀ k ∈ ["UseGeneratedCostGradient", "UseGeneratedConstraintJacobian"], Has R.bool t (path ++ ["solver"]) k) ∧
      ∃ k, entry R.uint t (path ++ ["solver"]) "SolverType" = some k ∧
        (k % 256 = 0 → IpoptEntries R t (path ++ ["solver", "ipopt"])) ∧
        (k % 256 = 1 → SnoptEntries R t (path ++ ["solver", "snopt"])) := by
    rw [nlp_eq R t hS]
    simp only [← Has.iff, List.forall_mem_cons, List.not_mem_nil, false_imp_iff, forall_const, and_true,
      ← ipopt_some hI s.solver.ipopt, ← snopt_some hN s.solver.snopt]
    have eI : path ++ ["solver"] ++ ["ipopt"] = path ++ ["solver", "ipopt"] := by simp
    have eN : path ++ ["solver"] ++ ["snopt"] = path ++ ["solver", "snopt"] := by simp
    rw [eI, eN]
    constructor
    · rintro ⟨_, e⟩
      obtain ⟨v0, h0, e⟩ := Option.bind_eq_some_iff.1 e
      obtain ⟨v1, h1, e⟩ := Option.bind_eq_some_iff.1 e
      obtain ⟨v2, h2, e⟩ := Option.bind_eq_some_iff.1 e
      refine ⟨⟨⟨v1, h1⟩, ⟨v2, h2⟩⟩, v0, h0, fun hz => ?_, fun hz => ?_⟩
      · rw [if_pos hz, Option.bind_eq_some_iff] at e
        obtain ⟨i, hi, _⟩ := e
        exact ⟨i, hi⟩
      · rw [if_neg (by omega), if_pos hz, Option.bind_eq_some_iff] at e
        obtain ⟨i, hi, _⟩ := e
        exact ⟨i, hi⟩
    · rintro ⟨⟨⟨v1, h1⟩, ⟨v2, h2⟩⟩, v0, h0, hi, hn⟩
      by_cases z : v0 % 256 = 0
      · obtain ⟨i, hi⟩ := hi z
        exact ⟨_, Option.bind_eq_some_iff.2 ⟨v0, h0, Option.bind_eq_some_iff.2 ⟨v1, h1, Option.bind_eq_some_iff.2 ⟨v2, h2, by rw [if_pos z, hi]; rfl⟩⟩⟩⟩
      · by_cases z1 : v0 % 256 = 1
        · obtain ⟨i, hi⟩ := hn z1
          exact ⟨_, Option.bind_eq_some_iff.2 ⟨v0, h0, Option.bind_eq_some_iff.2 ⟨v1, h1, Option.bind_eq_some_iff.2 ⟨v2, h2, by rw [if_neg z, if_pos z1, hi]; rfl⟩⟩⟩⟩
        · exact ⟨_, Option.bind_eq_some_iff.2 ⟨v0, h0, Option.bind_eq_some_iff.2 ⟨v1, h1, Option.bind_eq_some_iff.2 ⟨v2, h2, by rw [if_neg z, if_neg z1]⟩⟩⟩⟩
  rw [dms_eq R u t h, ← nl, ← cppad_some hC s.cppad]
  simp only [OwnEntries, ← Has.iff, List.forall_mem_cons, List.not_mem_nil, false_imp_iff, forall_const,
    and_true]
  constructor
  · rintro ⟨_, e⟩
    obtain ⟨v0, h0, e⟩ := Option.bind_eq_some_iff.1 e
    obtain ⟨v1, h1, e⟩ := Option.bind_eq_some_iff.1 e
    obtain ⟨v2, h2, e⟩ := Option.bind_eq_some_iff.1 e
    obtain ⟨v3, h3, e⟩ := Option.bind_eq_some_iff.1 e
    obtain ⟨v4, h4, e⟩ := Option.bind_eq_some_iff.1 e
    obtain ⟨v5, h5, e⟩ := Option.bind_eq_some_iff.1 e
    obtain ⟨v6, h6, e⟩ := Option.bind_eq_some_iff.1 e
    obtain ⟨v7, h7, e⟩ := Option.bind_eq_some_iff.1 e
    obtain ⟨v8, h8, e⟩ := Option.bind_eq_some_iff.1 e
    obtain ⟨v9, h9, e⟩ := Option.bind_eq_some_iff.1 e
    obtain ⟨v10, h10, e⟩ := Option.bind_eq_some_iff.1 e
    obtain ⟨v11, h11, e⟩ := Option.bind_eq_some_iff.1 e
    obtain ⟨v12, h12, e⟩ := Option.bind_eq_some_iff.1 e
    exact ⟨⟨⟨⟨v0, h0⟩, ⟨v2, h2⟩, ⟨v3, h3⟩, ⟨v4, h4⟩, ⟨v5, h5⟩, ⟨v7, h7⟩⟩, ⟨v1, h1⟩, ⟨v6, h6⟩, ⟨v8, h8⟩, ⟨v9, h9⟩, ⟨v10, h10⟩⟩,
      ⟨v12, h12⟩, ⟨v11, h11⟩⟩
  · rintro ⟨⟨⟨⟨v0, h0⟩, ⟨v2, h2⟩, ⟨v3, h3⟩, ⟨v4, h4⟩, ⟨v5, h5⟩, ⟨v7, h7⟩⟩, ⟨v1, h1⟩, ⟨v6, h6⟩, ⟨v8, h8⟩, ⟨v9, h9⟩, ⟨v10, h10⟩⟩,
      ⟨v12, h12⟩, ⟨v11, h11⟩⟩
    exact ⟨_, Option.bind_eq_some_iff.2 ⟨v0, h0, Option.bind_eq_some_iff.2 ⟨v1, h1, Option.bind_eq_some_iff.2 ⟨v2, h2, Option.bind_eq_some_iff.2 ⟨v3, h3, Option.bind_eq_some_iff.2 ⟨v4, h4, Option.bind_eq_some_iff.2 ⟨v5, h5, Option.bind_eq_some_iff.2 ⟨v6, h6, Option.bind_eq_some_iff.2 ⟨v7, h7, Option.bind_eq_some_iff.2 ⟨v8, h8, Option.bind_eq_some_iff.2 ⟨v9, h9, Option.bind_eq_some_iff.2 ⟨v10, h10, Option.bind_eq_some_iff.2 ⟨v11, h11, Option.bind_eq_some_iff.2 ⟨v12, h12, rfl⟩⟩⟩⟩⟩⟩⟩⟩⟩⟩⟩⟩⟩⟩
/-! ## What the solver does with the settings -/

theorem create_parts {n m : ℕ} {tf : ℚ} {x0 junk : List ℚ} {s : Dms} {d : Solver} (h : create n m tf x0 junk s = .ok d) :
    d.nlp = makeBackend s.solver ∧ d.settings = s ∧ d.prob = s := by
  unfold create Solver.configure at h
  split at h
  · cases h
  · cases h
  · cases h
  · rename_i p _
    cases hd : CT.Dms.DmsSolver.configure (⟨tf, x0, p⟩ : CT.Dms.DmsSolver ℚ) s.times with
    | ok q => simp only [hd, Res.ok_bind, Res.pure_eq] at h; cases h; exact ⟨rfl, rfl, rfl⟩
    | exc => simp only [hd, Res.exc_bind] at h; cases h
    | ub => simp only [hd, Res.ub_bind] at h; cases h

theorem Optional.given {α : Type} {f : String → Option α} {t : Tree} {path : List String} {k : String} {old new v : α}
    (h : Optional f t path k old new) (hv : entry f t path k = some v) : new = v := by
  unfold Optional at h
  unfold entry at hv
  split at h
  · rename_i hw; rw [hw] at hv; cases hv
  · rename_i c hw
    rw [hw] at hv
    exact Option.some.inj (h.symm.trans hv)

/-- **C184 (effect, part).** A multiple shooting solver created with loaded settings that choose IPOPT runs IPOPT with the tolerance,
iteration limit, verbosity, derivative check and Hessian of the file, and with those of the optional entries that are listed.
Missing: the other optional entries have no effect (`C163_ignored_violated`). -/
theorem C184_effect_partial {R : Texts} {u : ℕ → ℕ} {t : Tree} {path p : List String} (h : IsSection path) {s s' : Dms}
    (hl : s.load R u t (dotted path) = some s') (h0 : s'.solver.solverType = 0) (hp : p = path ++ ["solver", "ipopt"])
    {n m : ℕ} {tf : ℚ} {x0 junk : List ℚ} {d : Solver} (hc : create n m tf x0 junk s' = .ok d) :
    ∃ b, d.solve = .ok b ∧
      (∃ v, entry R.num t p "OptimalityTolerance" = some v ∧ b.options "tol" = some (.num v)) ∧
      (∃ k, entry R.uint t p "MaxIterations" = some k ∧ (k < 2147483648 → b.options "max_iter" = some (.int k))) ∧
      (∃ k, entry R.uint t p "Verbosity" = some k ∧ (k < 2147483648 → b.options "print_level" = some (.int k))) ∧
      (∃ c, entry R.bool t p "CheckDerivatives" = some c ∧
        b.options "derivative_test" = some (.str (if c then "first-order" else "none"))) ∧
      (∃ c, entry R.bool t p "ExactHessian" = some c ∧
        b.options "hessian_approximation" = some (.str (if c then "exact" else "limited-memory"))) ∧
      (∀ v, entry R.num t p "constr_viol_tol" = some v → b.options "constr_viol_tol" = some (.num v)) ∧
      (∀ v, entry R.num t p "derivativeTestTol" = some v → b.options "derivative_test_tol" = some (.num v)) ∧
      (∀ v, entry R.num t p "derivativeTestPerturbation" = some v → b.options "derivative_test_perturbation" = some (.num v)) ∧
      (∀ v, entry R.num t p "point_perturbation_radius" = some v → b.options "point_perturbation_radius" = some (.num v)) ∧
      (∀ v, entry some t p "linear_scaling_on_demand" = some v → b.options "linear_scaling_on_demand" = some (.str v)) ∧
      (∀ v, entry some t p "print_user_options" = some v → b.options "print_user_options" = some (.str v)) ∧
      (∀ v, entry some t p "linear_solver" = some v → b.options "linear_solver" = some (.str v)) ∧
      ∀ v, entry some t p "linearSystemScaling" = some v → b.options "linear_system_scaling" = some (.str v) := by
  obtain ⟨⟨k, hk, ek⟩, ⟨c, hc1, ec⟩, ⟨x, hx, ex⟩, ⟨l, hlv, el⟩, ht, o0, o1, o2, o3, o4, o5, o6, o7, o8, o9, o10, o11, o12, o13, o14,
    o15, o16, -⟩ := C184_ipopt h hl h0 hp
  have hb : d.nlp = some (.ipopt (NlpSolver.Ipopt.new s'.solver.ipopt)) := by
    rw [(create_parts hc).1, makeBackend, if_neg (by omega), if_pos h0]
  refine ⟨.ipopt (NlpSolver.Ipopt.new s'.solver.ipopt), by rw [Solver.solve, hb], ⟨_, ht, ?_⟩, ⟨k, hk, fun hk' => ?_⟩,
    ⟨l, hlv, fun hl' => ?_⟩, ⟨c, hc1, ?_⟩, ⟨x, hx, ?_⟩, fun v hv => ?_, fun v hv => ?_, fun v hv => ?_, fun v hv => ?_, fun v hv => ?_,
    fun v hv => ?_, fun v hv => ?_, fun v hv => ?_⟩
  all_goals
    simp [Backend.options, NlpSolver.Ipopt.new, NlpSolver.Ipopt.configure, NlpSolver.ipoptOptions, NlpSolver.set_apply,
      NlpSolver.setIfUnset_apply]
  · exact ek hk'
  · exact el hl'
  · exact ec
  · exact ex
  · exact o2.given hv
  · exact o10.given hv
  · exact o11.given hv
  · exact o12.given hv
  · exact o5.given hv
  · exact o7.given hv
  · exact o15.given hv
  · exact o16.given hv

/-- **C184 (effect, SNOPT).** A multiple shooting solver created with loaded settings that choose SNOPT runs SNOPT with the iteration
limits, verbosity and tolerance of the file. -/
theorem C184_effect_snopt {R : Texts} {u : ℕ → ℕ} {t : Tree} {path p : List String} (h : IsSection path) {s s' : Dms}
    (hl : s.load R u t (dotted path) = some s') (h0 : s'.solver.solverType = 1) (hp : p = path ++ ["solver", "snopt"])
    {n m : ℕ} {tf : ℚ} {x0 junk : List ℚ} {d : Solver} (hc : create n m tf x0 junk s' = .ok d) :
    ∃ b, d.solve = .ok b ∧
      (∃ v, entry R.num t p "OptimalityTolerance" = some v ∧ b.options "Major optimality tolerance" = some (.num v)) ∧
      (∃ k, entry R.uint t p "MaxMajorIterations" = some k ∧ (k < 2147483648 → b.options "Major iterations limit" = some (.int k))) ∧
      (∃ k, entry R.uint t p "MaxMinorIterations" = some k ∧ (k < 2147483648 → b.options "Minor iterations limit" = some (.int k))) ∧
      (∃ k, entry R.uint t p "MajorPrintLevelVerbosity" = some k ∧ (k < 2147483648 → b.options "Major print level" = some (.int k))) ∧
      ∃ k, entry R.uint t p "MinorPrintLevelVerbosity" = some k ∧ (k < 2147483648 → b.options "Minor print level" = some (.int k)) := by
  obtain ⟨⟨k0, h0', e0⟩, ⟨k1, h1, e1⟩, ⟨k2, h2, e2⟩, ⟨k3, h3, e3⟩, ht, -⟩ := C184_snopt h hl h0 hp
  obtain ⟨q1, q2, -⟩ := create_parts hc
  have hb : d.nlp = some (.snopt s'.solver.snopt (fun _ => none) false) := by
    rw [q1, makeBackend, if_pos h0]
  refine ⟨_, by rw [Solver.solve, hb], ⟨_, ht, ?_⟩, ⟨k1, h1, fun hk' => ?_⟩, ⟨k0, h0', fun hk' => ?_⟩, ⟨k3, h3, fun hk' => ?_⟩,
    ⟨k2, h2, fun hk' => ?_⟩⟩
  all_goals
    rw [q2]
    simp [Backend.options, NlpSolver.snoptOptions, NlpSolver.set_apply]
  · exact e1 hk'
  · exact e0 hk'
  · exact e3 hk'
  · exact e2 hk'

/-- The first shot can be made if all can. -/
theorem first_shot (g : CT.Dms.TimeGrid ℚ) (dt : ℚ) (k : ℕ) {l : List (CT.Dms.ShotTime ℚ)}
    (h : CT.Dms.makeShots g dt (k + 1) 0 = .ok l) : ∃ l', CT.Dms.makeShots g dt 1 0 = .ok l' := by
  simp only [CT.Dms.makeShots] at h ⊢
  cases h1 : g.stop 0 with
  | ok b =>
    cases h2 : g.start 0 with
    | ok a =>
      cases h3 : CT.Dms.countSteps a b dt with
      | ok c => exact ⟨_, by simp only [h3, Res.ok_bind, Res.pure_eq]; rfl⟩
      | exc => simp [h1, h2, h3, Res.ok_bind, Res.exc_bind] at h
      | ub => simp [h1, h2, h3, Res.ok_bind, Res.ub_bind] at h
    | exc => simp [h1, h2, Res.ok_bind, Res.exc_bind] at h
    | ub => simp [h1, h2, Res.ok_bind, Res.ub_bind] at h
  | exc => simp [h1, Res.exc_bind] at h
  | ub => simp [h1, Res.ub_bind] at h

theorem create_ok {n m : ℕ} (tf : ℚ) {x0 junk : List ℚ} {s : Dms} (hN : s.N ≠ 0) (hT : 0 ≤ s.T) (hdt : 0 < s.dtSim)
    (hs : s.splineType < 2) (ho : s.objectiveType ≠ 1) (hi : s.integrationType < 2) (hc : s.costEvaluationType < 2)
    (hx : x0.length = n) (hj : junk.length = (s.N + 1) * (n + m)) : ∃ d, create n m tf x0 junk s = .ok d := by
  obtain ⟨p, q, h1, h2, -⟩ := CT.Dms.new_keeps n m s.N tf s.T s.dtSim hT hdt x0 junk hx hj
  obtain ⟨k, hk⟩ := Nat.exists_eq_succ_of_ne_zero hN
  obtain ⟨l', hl'⟩ : ∃ l', CT.Dms.makeShots (CT.Dms.TimeGrid.mk' s.N s.T) s.dtSim 1 0 = .ok l' := by
    obtain ⟨shots, hm, -⟩ := CT.Dms.makeShots_spec (CT.Dms.TimeGrid.mk' s.N s.T) s.N s.T s.dtSim (CT.Dms.uniform_mk s.N s.T) hT hdt
      s.N 0 (by omega)
    have hm' : CT.Dms.makeShots (CT.Dms.TimeGrid.mk' s.N s.T) s.dtSim (k + 1) 0 = .ok shots := by
      rw [← Nat.succ_eq_add_one, ← hk]; exact hm
    exact first_shot _ _ _ hm'
  have hp : makeProblem n m x0 junk s = .ok p := by
    rw [makeProblem, if_neg (by omega), if_neg ho, shotsAndCost, if_neg hN, hl']
    simp only []
    rw [if_neg (by omega), if_neg (by omega), show s.times = ⟨s.N, s.T, s.dtSim⟩ from rfl, h1]
    simp only []
    rw [if_pos (by omega)]
  have hq : CT.Dms.DmsSolver.configure (⟨tf, x0, p⟩ : CT.Dms.DmsSolver ℚ) s.times = .ok q := by
    rw [CT.Dms.DmsSolver.new, h1] at h2
    exact h2
  refine ⟨⟨makeBackend s.solver, s, s, q⟩, ?_⟩
  rw [create, hp]
  simp only [Solver.configure, hq, Res.ok_bind, Res.pure_eq]

theorem ok_parts {s : Dms} (h : s.ok = true) :
    s.N ≠ 0 ∧ 0 < s.T ∧ s.splineType < 2 ∧ s.costEvaluationType < 2 ∧ s.objectiveType < 2 ∧ s.integrationType < 3 ∧ 0 < s.dtSim ∧
      s.solver.solverType < 2 := by
  have key : ∀ (p : Prop) [Decidable p] (b : Bool), (if p then false else b) = true → ¬ p ∧ b = true := by
    intro p _ b hb
    split_ifs at hb with hp
    exact ⟨hp, hb⟩
  unfold Dms.ok at h
  obtain ⟨a1, h⟩ := key _ _ h
  obtain ⟨a2, h⟩ := key _ _ h
  obtain ⟨a3, h⟩ := key _ _ h
  obtain ⟨a4, h⟩ := key _ _ h
  obtain ⟨a5, h⟩ := key _ _ h
  obtain ⟨a6, h⟩ := key _ _ h
  obtain ⟨a7, h⟩ := key _ _ h
  obtain ⟨a8, h⟩ := key _ _ h
  obtain ⟨a9, h⟩ := key _ _ h
  obtain ⟨a10, h⟩ := key _ _ h
  obtain ⟨a11, h⟩ := key _ _ h
  have a12 : s.solver.solverType < 2 := by
    unfold Nlp.ok at h
    split_ifs at h <;> omega
  exact ⟨by omega, not_le.1 a2, by omega, by omega, by omega, by omega, not_le.1 (fun e => a9 (Or.inl e)), a12⟩

/-- **C184 (accepted settings, part).** Settings that pass the check, keep the time grid and do not ask for RK5 give a solver that can be
created and run, with the NLP solver that was chosen. Missing: settings that pass the check and ask for RK5 or for an
optimized time grid (`C184_accepted_violated`). -/
theorem C184_accepted_partial {n m : ℕ} (tf : ℚ) {x0 junk : List ℚ} {s : Dms} (h : s.ok = true) (ho : s.objectiveType = 0)
    (hi : s.integrationType ≠ 2) (hx : x0.length = n) (hj : junk.length = (s.N + 1) * (n + m)) :
    ∃ d b, create n m tf x0 junk s = .ok d ∧ d.solve = .ok b ∧
      ((s.solver.solverType = 0 ∧ ∃ a, b = .ipopt a) ∨ (s.solver.solverType = 1 ∧ ∃ c o, b = .snopt c o true)) := by
  obtain ⟨h1, h2, h3, h4, h5, h6, h7, h8⟩ := ok_parts h
  obtain ⟨d, hd⟩ := create_ok tf h1 h2.le h7 h3 (by omega) (by omega) h4 hx hj
  have hn := (create_parts hd).1
  rcases (show s.solver.solverType = 0 ∨ s.solver.solverType = 1 by omega) with hz | hz
  · rw [makeBackend, if_neg (by omega), if_pos hz] at hn
    exact ⟨d, _, hd, by rw [Solver.solve, hn], Or.inl ⟨hz, _, rfl⟩⟩
  · rw [makeBackend, if_pos hz] at hn
    exact ⟨d, _, hd, by rw [Solver.solve, hn], Or.inr ⟨hz, _, _, rfl⟩⟩

/-! ### A file -/

/-- Reads the texts of the example. -/
def reader : Texts where
  num s := if s = "2" then some 2 else if s = "0.5" then some (1 / 2) else none
  uint s := if s = "0" then some 0 else if s = "1" then some 1 else if s = "2" then some 2 else if s = "7" then some 7
    else if s = "256" then some 256 else if s = "3000000000" then some 3000000000 else none
  int s := if s = "5" then some 5 else none
  bool s := if s = "true" then some true else if s = "false" then some false else none

/-- A file for multiple shooting with chosen solver type, compiler, iteration limit, and additional entries for IPOPT. -/
def file (type compiler : String) (more : List (String × Tree)) (limit : String := "7") : Tree :=
  sect [("dms", sect [("N", leaf "2"), ("T", leaf "2"), ("nThreads", leaf "1"), ("InterpolationType", leaf "1"),
    ("CostEvaluationType", leaf "0"), ("ObjectiveType", leaf "0"), ("h_min", leaf "0.5"), ("IntegrationType", leaf "1"),
    ("dt_sim", leaf "0.5"), ("AbsErrTol", leaf "0.5"), ("RelErrTol", leaf "0.5"),
    ("solver", sect [("SolverType", leaf type), ("UseGeneratedCostGradient", leaf "false"),
      ("UseGeneratedConstraintJacobian", leaf "false"),
      ("ipopt", sect ([("MaxIterations", leaf limit), ("CheckDerivatives", leaf "true"), ("ExactHessian", leaf "false"),
        ("Verbosity", leaf "2"), ("OptimalityTolerance", leaf "0.5")] ++ more)),
      ("snopt", sect [("MaxMinorIterations", leaf "7"), ("MaxMajorIterations", leaf "2"), ("MinorPrintLevelVerbosity", leaf "0"),
        ("MajorPrintLevelVerbosity", leaf "1"), ("OptimalityTolerance", leaf "0.5")])]),
    ("cppad", sect [("MultiThreading", leaf "true"), ("CreateForwardZero", leaf "false"), ("CreateForwardOne", leaf "false"),
      ("CreateReverseOne", leaf "false"), ("CreateReverseTwo", leaf "false"), ("CreateJacobian", leaf "true"),
      ("CreateSparseJacobian", leaf "false"), ("CreateHessian", leaf "false"), ("CreateSparseHessian", leaf "false"),
      ("MaxAssignements", leaf "7"), ("GenerateSourceCode", leaf "false"), ("UseDynamicLibrary", leaf "true"),
      ("Compiler", leaf compiler)])])]

/-- Some of the settings. -/
structure Summary where
  N : ℕ
  T : ℚ
  splineType : ℕ
  solverType : ℕ
  tol : ℚ
  maxIter : ℤ
  majorLimit : ℤ
  maxAssignments : ℕ
  ok : Bool
  deriving DecidableEq

/-- The settings shown in the examples. -/
def summary (s : Dms) : Summary :=
  ⟨s.N, s.T, s.splineType, s.solver.solverType, s.solver.ipopt.tol, s.solver.ipopt.maxIter, s.solver.snopt.majorIterationLimit,
    s.cppad.maxAssignments, s.ok⟩

theorem dms_section : IsSection ["dms"] := section_one (by lit)

example : IsSection ["dms"] := dms_section

theorem loads_ipopt : ((Dms.default.load reader id (file "0" "GCC" []) "dms").map summary) =
    some ⟨2, 2, 1, 0, 1 / 2, 7, 500, 7, true⟩ := by decide +kernel

theorem loads_snopt : ((Dms.default.load reader id (file "1" "CLANG" []) "dms").map summary) =
    some ⟨2, 2, 1, 1, 1 / 100000000, 200, 2, 7, true⟩ := by decide +kernel

/-- The files are complete, so that the theorems apply to them. -/
example : (∃ s, Dms.default.load reader id (file "0" "GCC" []) (dotted ["dms"]) = some s ∧ s.solver.solverType = 0 ∧ s.ok = true) ∧
    ∃ s, Dms.default.load reader id (file "1" "CLANG" []) (dotted ["dms"]) = some s ∧ s.solver.solverType = 1 ∧ s.ok = true := by
  have e : dotted ["dms"] = "dms" := rfl
  rw [e]
  constructor
  · obtain ⟨s, h1, h2⟩ := Option.map_eq_some_iff.1 loads_ipopt
    simp only [summary, Summary.mk.injEq] at h2
    exact ⟨s, h1, h2.2.2.2.1, h2.2.2.2.2.2.2.2.2⟩
  · obtain ⟨s, h1, h2⟩ := Option.map_eq_some_iff.1 loads_snopt
    simp only [summary, Summary.mk.injEq] at h2
    exact ⟨s, h1, h2.2.2.2.1, h2.2.2.2.2.2.2.2.2⟩

/-- The settings of the default constructor are accepted and give a solver for one state and one input. -/
example : Dms.default.ok = true ∧ Dms.default.objectiveType = 0 ∧ Dms.default.integrationType ≠ 2 ∧ ([5] : List ℚ).length = 1 ∧
    (List.replicate 62 (0 : ℚ)).length = (Dms.default.N + 1) * (1 + 1) := by decide +kernel

/-! ## Failures -/

/-- **C184 is violated (unknown NLP solver).** A solver type other than IPOPT and SNOPT is loaded and the solver is created; the check
would have refused the settings, but its result is not used, the message says that the program exits, but it does not. Solving
then dereferences a null pointer. -/
theorem C184_unknown_solver_violated {n m : ℕ} (tf : ℚ) {x0 junk : List ℚ} {s : Dms} (hN : s.N ≠ 0) (hT : 0 ≤ s.T) (hdt : 0 < s.dtSim)
    (hs : s.splineType < 2) (ho : s.objectiveType ≠ 1) (hi : s.integrationType < 2) (hc : s.costEvaluationType < 2)
    (hx : x0.length = n) (hj : junk.length = (s.N + 1) * (n + m)) (hu : 2 ≤ s.solver.solverType) :
    s.ok = false ∧ ∃ d, create n m tf x0 junk s = .ok d ∧ d.solve = .ub := by
  obtain ⟨d, hd⟩ := create_ok tf hN hT hdt hs ho hi hc hx hj
  refine ⟨?_, d, hd, ?_⟩
  · by_contra h
    have := (ok_parts (by simpa using h)).2.2.2.2.2.2.2
    omega
  · rw [Solver.solve, (create_parts hd).1, makeBackend, if_neg (by omega), if_neg (by omega)]

/-- Such settings can be loaded from a file. -/
example : ((Dms.default.load reader id (file "7" "GCC" []) "dms").map summary) =
    some ⟨2, 2, 1, 7, 1 / 100000000, 200, 500, 7, false⟩ := by decide +kernel

/-- **C184 is violated (solver type reduced modulo 256).** A file that asks for the solver type 256, which does not exist, is loaded
with the type of IPOPT, and the check accepts the settings. -/
theorem C184_wrapped_solver_violated : ∃ s, entry reader.uint (file "256" "GCC" []) ["dms", "solver"] "SolverType" = some 256 ∧
    Dms.default.load reader id (file "256" "GCC" []) "dms" = some s ∧ s.solver.solverType = 0 ∧ s.ok = true := by
  have h : ((Dms.default.load reader id (file "256" "GCC" []) "dms").map summary) =
    some ⟨2, 2, 1, 0, 1 / 2, 7, 500, 7, true⟩ := by decide +kernel
  obtain ⟨s, h1, h2⟩ := Option.map_eq_some_iff.1 h
  simp only [summary, Summary.mk.injEq] at h2
  exact ⟨s, by decide +kernel, h1, h2.2.2.2.1, h2.2.2.2.2.2.2.2.2⟩

/-- **C184 is violated (settings that pass the check are refused).** Settings that pass the check but ask for an optimized time grid or for
the integrator RK5 make the constructor throw. -/
theorem C184_accepted_violated {n m : ℕ} (tf : ℚ) (x0 junk : List ℚ) {s : Dms} (h : s.ok = true)
    (hv : s.objectiveType = 1 ∨ s.integrationType = 2) : create n m tf x0 junk s = .exc := by
  obtain ⟨h1, h2, h3, h4, h5, h6, h7, h8⟩ := ok_parts h
  suffices hp : makeProblem n m x0 junk s = .exc by rw [create, hp]
  rw [makeProblem, if_neg (by omega)]
  split_ifs with ho
  · rfl
  · have hi : s.integrationType = 2 := hv.resolve_left ho
    obtain ⟨k, hk⟩ := Nat.exists_eq_succ_of_ne_zero h1
    obtain ⟨shots, hm, -⟩ := CT.Dms.makeShots_spec (CT.Dms.TimeGrid.mk' s.N s.T) s.N s.T s.dtSim (CT.Dms.uniform_mk s.N s.T) h2.le h7
      s.N 0 (by omega)
    have hm' : CT.Dms.makeShots (CT.Dms.TimeGrid.mk' s.N s.T) s.dtSim (k + 1) 0 = .ok shots := by
      rw [← Nat.succ_eq_add_one, ← hk]; exact hm
    obtain ⟨l', hl'⟩ := first_shot _ _ _ hm'
    rw [shotsAndCost, if_neg h1, hl']
    simp only []
    rw [if_pos hi]

/-- Such settings exist. -/
example : ({ Dms.default with objectiveType := 1 } : Dms).ok = true ∧ ({ Dms.default with integrationType := 2 } : Dms).ok = true := by
  decide +kernel

/-- **C184 is violated (unknown integration type).** An integration type that does not exist ends the whole program with the exit code of
success instead of an exception. -/
theorem C184_exit_violated {n m : ℕ} (tf : ℚ) (x0 junk : List ℚ) {s : Dms} (hN : s.N ≠ 0) (hT : 0 ≤ s.T) (hdt : 0 < s.dtSim)
    (hs : s.splineType < 2) (ho : s.objectiveType ≠ 1) (hi : 3 ≤ s.integrationType) : create n m tf x0 junk s = .exit := by
  suffices hp : makeProblem n m x0 junk s = .exit by rw [create, hp]
  rw [makeProblem, if_neg (by omega), if_neg ho]
  obtain ⟨k, hk⟩ := Nat.exists_eq_succ_of_ne_zero hN
  obtain ⟨shots, hm, -⟩ := CT.Dms.makeShots_spec (CT.Dms.TimeGrid.mk' s.N s.T) s.N s.T s.dtSim (CT.Dms.uniform_mk s.N s.T) hT hdt
    s.N 0 (by omega)
  have hm' : CT.Dms.makeShots (CT.Dms.TimeGrid.mk' s.N s.T) s.dtSim (k + 1) 0 = .ok shots := by
    rw [← Nat.succ_eq_add_one, ← hk]; exact hm
  obtain ⟨l', hl'⟩ := first_shot _ _ _ hm'
  rw [shotsAndCost, if_neg hN, hl']
  simp only []
  rw [if_neg (by omega), if_pos (by omega)]

/-- Settings for which the theorems on failures of the constructor apply. -/
example : let s : Dms := { Dms.default with integrationType := 3, solver := { Nlp.default with solverType := 7 } }
    s.N ≠ 0 ∧ 0 ≤ s.T ∧ 0 < s.dtSim ∧ s.splineType < 2 ∧ s.objectiveType ≠ 1 ∧ 3 ≤ s.integrationType ∧ s.costEvaluationType < 2 ∧
      2 ≤ s.solver.solverType := by decide +kernel

/-- **C184 is violated (configuring again).** Whatever settings are given to `configure` of a multiple shooting solver, the next solve uses
the NLP solver and the options of the construction. -/
theorem C184_configure_violated {d d' : Solver} {s : Dms} (h : d.configure s = .ok d') : d'.prob = s ∧ d'.solve = d.solve := by
  unfold Solver.configure at h
  cases hd : d.times.configure s.times with
  | ok q =>
    simp only [hd, Res.ok_bind, Res.pure_eq] at h
    have h := (Res.ok.inj h).symm
    rw [h]
    exact ⟨rfl, rfl⟩
  | exc => simp only [hd, Res.exc_bind] at h; cases h
  | ub => simp only [hd, Res.ub_bind] at h; cases h

/-- A solver for one state and one input, created with the tolerance of the default settings and then configured with another one, runs
with the first. -/
example : (let s0 : Dms := { Dms.default with N := 1, T := 1, dtSim := 1 / 2 }
    match create 1 1 1 [5] (List.replicate 4 0) s0 with
    | .ok d =>
      match d.configure { s0 with solver := { Nlp.default with ipopt := { tol := 1 / 10 } } } with
      | .ok d' =>
        match d'.solve with
        | .ok b => (b.options "tol", d'.prob.solver.ipopt.tol)
        | _ => (none, 0)
      | _ => (none, 0)
    | _ => (none, 0)) = (some (.num (1 / 100000000)), 1 / 10) := by decide +kernel

/-- **C184 is violated (unknown compiler).** A compiler that is not known is not an error: loading succeeds and the compiler of before is
used. -/
theorem C184_compiler_violated {R : Texts} {u : ℕ → ℕ} {t : Tree} {path : List String} (h : IsSection path) {s s' : Dms}
    (hl : s.load R u t (dotted path) = some s') {name : String} (hn : entry some t (path ++ ["cppad"]) "Compiler" = some name)
    (hu : ∀ c : Compiler, name ≠ c.name) : s'.cppad.compiler = s.cppad.compiler := by
  have hs := (dms_parts h hl).2
  rw [cppad_eq R t (h.append (by lit))] at hs
  obtain ⟨v0, h0, hs⟩ := Option.bind_eq_some_iff.1 hs
  obtain ⟨v1, h1, hs⟩ := Option.bind_eq_some_iff.1 hs
  obtain ⟨v2, h2, hs⟩ := Option.bind_eq_some_iff.1 hs
  obtain ⟨v3, h3, hs⟩ := Option.bind_eq_some_iff.1 hs
  obtain ⟨v4, h4, hs⟩ := Option.bind_eq_some_iff.1 hs
  obtain ⟨v5, h5, hs⟩ := Option.bind_eq_some_iff.1 hs
  obtain ⟨v6, h6, hs⟩ := Option.bind_eq_some_iff.1 hs
  obtain ⟨v7, h7, hs⟩ := Option.bind_eq_some_iff.1 hs
  obtain ⟨v8, h8, hs⟩ := Option.bind_eq_some_iff.1 hs
  obtain ⟨v9, h9, hs⟩ := Option.bind_eq_some_iff.1 hs
  obtain ⟨v10, h10, hs⟩ := Option.bind_eq_some_iff.1 hs
  obtain ⟨v11, h11, hs⟩ := Option.bind_eq_some_iff.1 hs
  obtain ⟨v12, h12, hs⟩ := Option.bind_eq_some_iff.1 hs
  have hv : v12 = name := Option.some.inj (h12.symm.trans hn)
  have e := Option.some.inj hs
  rw [← e]
  change (compilers.lookup v12).getD s.cppad.compiler = _
  rw [hv]
  have g : name ≠ "GCC" := hu .gcc
  have c : name ≠ "CLANG" := hu .clang
  have : compilers.lookup name = none := by
    simp [compilers, List.lookup, beq_false_of_ne g, beq_false_of_ne c]
  rw [this]
  rfl

example : (Dms.default.load reader id (file "0" "gcc-13" []) "dms").isSome ∧
    entry some (file "0" "gcc-13" []) ["dms", "cppad"] "Compiler" = some "gcc-13" ∧ ∀ c : Compiler, "gcc-13" ≠ c.name :=
  ⟨by decide +kernel, by decide +kernel, fun c => by cases c <;> decide +kernel⟩

/-- **C184 is violated (print frequency).** The entry `print_frequency_iter` of the section of IPOPT is not read: the key that is looked up
has an underscore at its end. -/
theorem C184_frequency_violated {R : Texts} {u : ℕ → ℕ} {t : Tree} {path p : List String} (h : IsSection path) {s s' : Dms}
    (hl : s.load R u t (dotted path) = some s') (h0 : s'.solver.solverType = 0) (hp : p = path ++ ["solver", "ipopt"]) {v : ℤ}
    (_hv : entry R.int t p "print_frequency_iter" = some v) (hne : v ≠ s.solver.ipopt.printFrequencyIter)
    (hn : t.walk (p ++ ["print_frequency_iter_"]) = none) : s'.solver.ipopt.printFrequencyIter ≠ v := by
  obtain ⟨-, -, -, -, -, -, -, -, -, -, -, -, -, o8, -⟩ := C184_ipopt h hl h0 hp
  unfold Optional at o8
  rw [hn] at o8
  simp only [] at o8
  rw [o8]
  exact hne.symm

example : let t := file "0" "GCC" [("print_frequency_iter", leaf "5")]
    (Dms.default.load reader id t "dms").isSome ∧ entry reader.int t ["dms", "solver", "ipopt"] "print_frequency_iter" = some 5 ∧
    5 ≠ Dms.default.solver.ipopt.printFrequencyIter ∧ (t.walk ["dms", "solver", "ipopt", "print_frequency_iter_"]).isNone :=
  ⟨by decide +kernel, by decide +kernel, by decide +kernel, by decide +kernel⟩

/-- **C184 is violated (large numbers).** An iteration limit of `2^31` or more, which is read as an unsigned number, becomes negative. -/
theorem C184_limit_violated {R : Texts} {u : ℕ → ℕ} {t : Tree} {path p : List String} (h : IsSection path) {s s' : Dms}
    (hl : s.load R u t (dotted path) = some s') (h0 : s'.solver.solverType = 0) (hp : p = path ++ ["solver", "ipopt"]) {k : ℕ}
    (hk : entry R.uint t p "MaxIterations" = some k) (h1 : 2147483648 ≤ k) (h2 : k < 4294967296) : s'.solver.ipopt.maxIter < 0 := by
  have hI : IsSection p := by
    have := (h.append (k := "solver") (by lit)).append (k := "ipopt") (by lit)
    rw [hp]; simpa using this
  obtain ⟨hs, -⟩ := nlp_ipopt h hl h0
  have ep : path ++ ["solver"] ++ ["ipopt"] = p := by rw [hp]; simp
  rw [ep, ipopt_eq R t hI] at hs
  obtain ⟨w0, k0, hs⟩ := Option.bind_eq_some_iff.1 hs
  obtain ⟨w1, k1, hs⟩ := Option.bind_eq_some_iff.1 hs
  obtain ⟨w2, k2, hs⟩ := Option.bind_eq_some_iff.1 hs
  obtain ⟨w3, k3, hs⟩ := Option.bind_eq_some_iff.1 hs
  obtain ⟨w4, k4, e⟩ := Option.bind_eq_some_iff.1 hs
  have hw : w0 = k := Option.some.inj (k0.symm.trans hk)
  have key : ∀ (q : IpoptSettings), loadIpoptOptional R t (dotted p) q = some s'.solver.ipopt → s'.solver.ipopt.maxIter = q.maxIter := by
    intro q e
    rw [optional_eq R t hI] at e
    iterate 17 obtain ⟨_, -, e⟩ := Option.bind_eq_some_iff.1 e
    rw [← Option.some.inj e]
  rw [key _ e]
  change toInt w0 < 0
  rw [hw]
  unfold toInt
  omega

example : let t := file "0" "GCC" [] "3000000000"
    ((Dms.default.load reader id t "dms").map fun s => (s.solver.solverType, s.ok)) = some (0, true) ∧
    entry reader.uint t ["dms", "solver", "ipopt"] "MaxIterations" = some 3000000000 :=
  ⟨by decide +kernel, by decide +kernel⟩

end CT.DmsLoad
