import Verif.Model.NlpSolver
import Verif.Props.Nlp
import Mathlib.Data.List.Perm.Subperm
import Mathlib.Data.List.GetD

/-! C163: settings of the solvers for nonlinear programs. C164: what IPOPT sees of a problem and hands back. C165: the
same for SNOPT, and several SNOPT solvers side by side. -/

namespace CT.NlpSolver

open CT.Nlp

/-! ### C163: settings -/

/-- The settings given last. -/
def lastSettings {S : Type} (s0 : S) : List (Adjust S) → S
  | [] => s0
  | .configure s :: h => lastSettings s h
  | .warmStart _ :: h => lastSettings s0 h

/-- The iteration limit asked for last, be it by settings or by a warm start. -/
def lastLimit {S : Type} (limit : S → ℤ) (cur : ℤ) (h : List (Adjust S)) : ℤ :=
  h.foldl (fun _ c => match c with
    | .configure s => limit s
    | .warmStart k => toInt k) cur

/-- Iteration limits an `int` can hold are passed on as they are. -/
theorem toInt_of_lt (n : Nat) (h : n < 2147483648) : toInt n = n := by
  unfold toInt
  omega

/-- Whether a warm start was prepared. -/
def warmed {S : Type} (h : List (Adjust S)) : Prop := ∃ k, Adjust.warmStart k ∈ h

/-- Reading an option after setting one. -/
theorem set_apply (o : Options) (k k' : String) (v : Val) :
    (o.set k v) k' = if k' = k then some v else o k' := by
  by_cases h : k' = k
  · subst h; simp [Options.set]
  · simp [Options.set, h]

theorem setIfUnset_apply (o : Options) (k k' : String) (v : Val) :
    (o.setIfUnset k v) k' = if k' = k ∧ (o k).isSome = false then some v else o k' := by
  unfold Options.setIfUnset
  by_cases h : (o k).isSome
  · simp [h]
  · by_cases h' : k' = k
    · subst h'; simp [h, set_apply]
    · simp [h, h', set_apply]

/-- The numeric options an adapter holds are those of `s`, the limit is `limit`. -/
def Follows (a : Ipopt) (s : IpoptSettings) (limit : ℤ) : Prop :=
  a.opts "tol" = some (.num s.tol) ∧ a.opts "constr_viol_tol" = some (.num s.constrViolTol) ∧
  a.opts "print_level" = some (.int s.printLevel) ∧
  a.opts "derivative_test_tol" = some (.num s.derivativeTestTol) ∧
  a.opts "derivative_test_perturbation" = some (.num s.derivativeTestPerturbation) ∧
  a.opts "point_perturbation_radius" = some (.num s.pointPerturbationRadius) ∧
  a.opts "max_iter" = some (.int limit)

theorem follows_configure (a : Ipopt) (s : IpoptSettings) : Follows (a.configure s) s s.maxIter := by
  simp [Follows, Ipopt.configure, ipoptOptions, set_apply, setIfUnset_apply]

theorem follows_warm {a : Ipopt} {s : IpoptSettings} {l : ℤ} (h : Follows a s l) (k : Nat) :
    Follows (a.prepareWarmStart k) s (toInt k) := by
  obtain ⟨h1, h2, h3, h4, h5, h6, -⟩ := h
  simp [Follows, Ipopt.prepareWarmStart, set_apply, h1, h2, h3, h4, h5, h6]

theorem follows_foldl (h : List (Adjust IpoptSettings)) (a : Ipopt) (s : IpoptSettings) (l : ℤ) (hf : Follows a s l) :
    Follows (h.foldl Ipopt.adjust a) (lastSettings s h) (lastLimit IpoptSettings.maxIter l h) := by
  induction h generalizing a s l with
  | nil => exact hf
  | cons c h ih =>
    cases c with
    | configure s' =>
      exact ih _ _ _ (follows_configure a s')
    | warmStart k =>
      exact ih _ _ _ (follows_warm hf k)

/-- C163, numeric and integer options of IPOPT: after every history of `configure` and `prepareWarmStart` the tolerances,
the print level and the derivative test parameters of the application are those of the settings given last, and the
iteration limit is the one asked for last. -/
theorem C163_ipopt_numbers (s0 : IpoptSettings) (h : List (Adjust IpoptSettings)) :
    let a := Ipopt.after s0 h
    let s := lastSettings s0 h
    a.opts "tol" = some (.num s.tol) ∧ a.opts "constr_viol_tol" = some (.num s.constrViolTol) ∧
    a.opts "print_level" = some (.int s.printLevel) ∧
    a.opts "derivative_test_tol" = some (.num s.derivativeTestTol) ∧
    a.opts "derivative_test_perturbation" = some (.num s.derivativeTestPerturbation) ∧
    a.opts "point_perturbation_radius" = some (.num s.pointPerturbationRadius) ∧
    a.opts "max_iter" = some (.int (lastLimit IpoptSettings.maxIter s0.maxIter h)) := by
  have h0 : Follows (Ipopt.new s0) s0 s0.maxIter := by
    rw [Ipopt.new]; exact follows_configure _ s0
  have := follows_foldl h (Ipopt.new s0) s0 s0.maxIter h0
  simp only [Follows] at this
  simpa only [Ipopt.after] using this

/-- The string options and what a warm start sets. -/
def Strings (a : Ipopt) (s : IpoptSettings) (w : Prop) : Prop :=
  a.opts "linear_scaling_on_demand" = some (.str s.linearScalingOnDemand) ∧
  a.opts "hessian_approximation" = some (.str s.hessianApproximation) ∧
  a.opts "print_user_options" = some (.str s.printUserOptions) ∧
  a.opts "linear_system_scaling" = some (.str s.linearSystemScaling) ∧
  a.opts "linear_solver" = some (.str s.linearSolver) ∧
  (¬w → a.opts "derivative_test" = some (.str s.derivativeTest) ∧ a.opts "warm_start_init_point" = none) ∧
  (w → a.opts "derivative_test" = some (.str "none") ∧ a.opts "warm_start_init_point" = some (.str "yes"))

theorem strings_configure {a : Ipopt} {s0 : IpoptSettings} {w : Prop} (h : Strings a s0 w) (s : IpoptSettings) :
    Strings (a.configure s) s0 w := by
  obtain ⟨h1, h2, h3, h4, h5, h6, h7⟩ := h
  refine ⟨?_, ?_, ?_, ?_, ?_, fun hw => ?_, fun hw => ?_⟩
  · simp [Ipopt.configure, ipoptOptions, set_apply, setIfUnset_apply, h1]
  · simp [Ipopt.configure, ipoptOptions, set_apply, setIfUnset_apply, h2]
  · simp [Ipopt.configure, ipoptOptions, set_apply, setIfUnset_apply, h3]
  · simp [Ipopt.configure, ipoptOptions, set_apply, setIfUnset_apply, h4]
  · simp [Ipopt.configure, ipoptOptions, set_apply, setIfUnset_apply, h5]
  · simp [Ipopt.configure, ipoptOptions, set_apply, setIfUnset_apply, h6 hw]
  · simp [Ipopt.configure, ipoptOptions, set_apply, setIfUnset_apply, h7 hw]

theorem strings_warm {a : Ipopt} {s0 : IpoptSettings} {w : Prop} (h : Strings a s0 w) (k : Nat) :
    Strings (a.prepareWarmStart k) s0 True := by
  obtain ⟨h1, h2, h3, h4, h5, -, -⟩ := h
  refine ⟨?_, ?_, ?_, ?_, ?_, fun hw => absurd trivial hw, fun _ => ?_⟩ <;>
    simp [Ipopt.prepareWarmStart, set_apply, *]

theorem strings_after (s0 : IpoptSettings) (h : List (Adjust IpoptSettings)) :
    Strings (Ipopt.after s0 h) s0 (warmed h) := by
  have key : ∀ (h : List (Adjust IpoptSettings)) (a : Ipopt) (w : Prop), Strings a s0 w →
      Strings (h.foldl Ipopt.adjust a) s0 (w ∨ warmed h) := by
    intro h
    induction h with
    | nil =>
      intro a w hs
      have : (w ∨ warmed ([] : List (Adjust IpoptSettings))) = w := by simp [warmed]
      rw [this]; exact hs
    | cons c h ih =>
      intro a w hs
      cases c with
      | configure s =>
        have := ih _ w (strings_configure hs s)
        have e : (w ∨ warmed (Adjust.configure s :: h)) = (w ∨ warmed h) := by simp [warmed]
        rw [e]; exact this
      | warmStart k =>
        have := ih _ True (strings_warm hs k)
        have e : (w ∨ warmed (Adjust.warmStart k :: h)) = (True ∨ warmed h) := by
          simp only [warmed, List.mem_cons, true_or, eq_iff_iff, iff_true]
          exact Or.inr ⟨k, Or.inl rfl⟩
        rw [e]; exact this
  have h0 : Strings (Ipopt.new s0) s0 False := by
    refine ⟨?_, ?_, ?_, ?_, ?_, fun _ => ?_, fun hw => absurd hw id⟩ <;>
      simp [Ipopt.new, Ipopt.configure, ipoptOptions, set_apply, setIfUnset_apply]
  simpa [Ipopt.after] using key h _ False h0

/-- C163, string options of IPOPT: those of the constructor stay in effect (kind of Hessian, linear solver, scaling,
printing); the derivative test is that of the constructor until a warm start switches it off for good. This is as much as
holds of the property that settings take effect: missing is that later settings do, see `C163_ipopt_strings_violated`. -/
theorem C163_ipopt_strings_partial (s0 : IpoptSettings) (h : List (Adjust IpoptSettings)) :
    let a := Ipopt.after s0 h
    a.opts "linear_scaling_on_demand" = some (.str s0.linearScalingOnDemand) ∧
    a.opts "hessian_approximation" = some (.str s0.hessianApproximation) ∧
    a.opts "print_user_options" = some (.str s0.printUserOptions) ∧
    a.opts "linear_system_scaling" = some (.str s0.linearSystemScaling) ∧
    a.opts "linear_solver" = some (.str s0.linearSolver) ∧
    (¬warmed h → a.opts "derivative_test" = some (.str s0.derivativeTest) ∧
      a.opts "warm_start_init_point" = none) ∧
    (warmed h → a.opts "derivative_test" = some (.str "none") ∧
      a.opts "warm_start_init_point" = some (.str "yes")) := strings_after s0 h

example : warmed [Adjust.configure ({} : IpoptSettings), .warmStart 5] ∧
    ¬warmed [Adjust.configure ({} : IpoptSettings)] := by
  constructor
  · exact ⟨5, by simp⟩
  · rintro ⟨k, hk⟩; simp at hk

/-- C163 fails for the string options of IPOPT: whatever happened before, configuring a solver with another kind of
Hessian, linear solver or scaling than it was constructed with leaves the application without the value asked for; after
a warm start also every derivative test other than "none" is refused. -/
theorem C163_ipopt_strings_violated (s0 s : IpoptSettings) (h : List (Adjust IpoptSettings)) :
    let a := Ipopt.after s0 (h ++ [.configure s])
    (s.hessianApproximation ≠ s0.hessianApproximation →
      a.opts "hessian_approximation" ≠ some (.str s.hessianApproximation)) ∧
    (s.linearSolver ≠ s0.linearSolver → a.opts "linear_solver" ≠ some (.str s.linearSolver)) ∧
    (s.linearSystemScaling ≠ s0.linearSystemScaling →
      a.opts "linear_system_scaling" ≠ some (.str s.linearSystemScaling)) ∧
    (warmed h → s.derivativeTest ≠ "none" → a.opts "derivative_test" ≠ some (.str s.derivativeTest)) := by
  obtain ⟨-, h2, -, h4, h5, -, h7⟩ := strings_after s0 (h ++ [.configure s])
  refine ⟨fun hne => ?_, fun hne => ?_, fun hne => ?_, fun ⟨k, hk⟩ hne => ?_⟩
  · rw [h2]; simpa using fun e => hne e.symm
  · rw [h5]; simpa using fun e => hne e.symm
  · rw [h4]; simpa using fun e => hne e.symm
  · rw [(h7 ⟨k, by simp [hk]⟩).1]; simpa using fun e => hne e.symm

example : ({ hessianApproximation := "exact" } : IpoptSettings).hessianApproximation ≠
    ({} : IpoptSettings).hessianApproximation := by decide +kernel

variable {α D : Type}

/-- C163 fails for exact Hessians: a solver constructed with exact Hessians and configured to do without goes on asking
for them, but is no longer told how many entries they have. -/
theorem C163_hessian_violated (s0 s : IpoptSettings) (h : List (Adjust IpoptSettings))
    (h0 : s0.hessianApproximation = "exact") (hs : s.hessianApproximation = "limited-memory") (p : Prob α D)
    (st : State α D) (nnzIn : Nat) :
    let a := Ipopt.after s0 (h ++ [.configure s])
    a.opts "hessian_approximation" = some (.str "exact") ∧ (nlpInfo a p st nnzIn).2.2.2 = nnzIn := by
  refine ⟨?_, ?_⟩
  · rw [← h0]; exact (strings_after s0 (h ++ [Adjust.configure s])).2.1
  · have : (Ipopt.after s0 (h ++ [.configure s])).settings = s := by
      simp [Ipopt.after, List.foldl_append, Ipopt.adjust, Ipopt.configure]
    simp [nlpInfo, this, hs]

example : ({ hessianApproximation := "exact" } : IpoptSettings).hessianApproximation = "exact" ∧
    ({} : IpoptSettings).hessianApproximation = "limited-memory" := ⟨rfl, rfl⟩

/-- C163 fails for nine settings of IPOPT and one of SNOPT: the tolerances of the restoration phase and of acceptable
points, the scaling method, print frequency and info string, the remaining derivative checks, the Jacobian approximation
and SNOPT's scale option can be set (most are read from files), but nothing the solver is told depends on them. -/
theorem C163_ignored_violated (s : IpoptSettings) (a : Ipopt) (restoTol acceptableTol restoAcceptableTol : ℚ)
    (nlpScalingMethod printInfoString checkNaninf printAll jacobianApproximation : String) (printFrequencyIter : ℤ)
    (s' : SnoptSettings) (scaleOption : ℤ) (o : Options) :
    (a.configure { s with restoTol := restoTol, acceptableTol := acceptableTol,
                          restoAcceptableTol := restoAcceptableTol, nlpScalingMethod := nlpScalingMethod,
                          printInfoString := printInfoString, checkDerivativesForNaninf := checkNaninf,
                          derivativeTestPrintAll := printAll, jacobianApproximation := jacobianApproximation,
                          printFrequencyIter := printFrequencyIter }).opts = (a.configure s).opts ∧
    snoptOptions { s' with scaleOption := scaleOption } o = snoptOptions s' o := ⟨rfl, rfl⟩

/-! #### SNOPT -/

/-- A call on a SNOPT adapter for the problem `p` in state `st`. -/
def Snopt.adjust (p : Prob α D) (st : State α D) (a : Snopt) : Adjust SnoptSettings → Snopt
  | .configure s => a.configure p st s
  | .warmStart k => a.prepareWarmStart k

/-- A SNOPT adapter created with `s0` after a history of calls. -/
def Snopt.after (p : Prob α D) (st : State α D) (s0 : SnoptSettings) (h : List (Adjust SnoptSettings)) : Snopt :=
  h.foldl (Snopt.adjust p st) (Snopt.new s0)

/-- SNOPT's options agree with settings. -/
def SFollows (o : Options) (s : SnoptSettings) (l l' l'' : ℤ) : Prop :=
  o "Derivative option" = some (.int s.derivativeOption) ∧ o "Verify level" = some (.int s.verifyLevel) ∧
  o "Major optimality tolerance" = some (.num s.majorOptimalityTolerance) ∧
  o "Major feasibility tolerance" = some (.num s.majorFeasibilityTolerance) ∧
  o "Minor feasibility tolerance" = some (.num s.minorFeasibilityTolerance) ∧
  o "Print file" = some (.int s.printFile) ∧ o "Minor print level" = some (.int s.minorPrintLevel) ∧
  o "Major print level" = some (.int s.majorPrintLevel) ∧ o "New basis file" = some (.int s.newBasisFile) ∧
  o "Old basis file" = some (.int s.oldBasisFile) ∧ o "Backup basis file" = some (.int s.backupBasisFile) ∧
  o "Linesearch tolerance" = some (.num s.lineSearchTolerance) ∧ o "Crash option" = some (.int s.crashOption) ∧
  o "Hessian updates" = some (.int s.hessianUpdates) ∧ o "Major iterations limit" = some (.int l) ∧
  o "Minor iterations limit" = some (.int l') ∧ o "Iterations limit" = some (.int l'')

/-- Limits that a warm start sets to a constant. -/
def lastConst {S : Type} (limit : S → ℤ) (const cur : ℤ) (h : List (Adjust S)) : ℤ :=
  h.foldl (fun _ c => match c with
    | .configure s => limit s
    | .warmStart _ => const) cur

/-- C163, SNOPT: from the first `configure` on, whatever came before and comes after, every option passed to SNOPT is
that of the settings given last; the major iteration limit is the one asked for last, and a warm start reduces the other
two limits to 50 and 500 until the next `configure`. -/
theorem C163_snopt (p : Prob α D) (st : State α D) (s0 s : SnoptSettings) (h h' : List (Adjust SnoptSettings)) :
    let o := (Snopt.after p st s0 (h ++ .configure s :: h')).opts
    let t := lastSettings s h'
    (o "Derivative option" = some (.int t.derivativeOption) ∧ o "Verify level" = some (.int t.verifyLevel) ∧
      o "Major optimality tolerance" = some (.num t.majorOptimalityTolerance) ∧
      o "Major feasibility tolerance" = some (.num t.majorFeasibilityTolerance) ∧
      o "Minor feasibility tolerance" = some (.num t.minorFeasibilityTolerance) ∧
      o "Print file" = some (.int t.printFile) ∧ o "Minor print level" = some (.int t.minorPrintLevel) ∧
      o "Major print level" = some (.int t.majorPrintLevel) ∧ o "New basis file" = some (.int t.newBasisFile) ∧
      o "Old basis file" = some (.int t.oldBasisFile) ∧ o "Backup basis file" = some (.int t.backupBasisFile) ∧
      o "Linesearch tolerance" = some (.num t.lineSearchTolerance) ∧ o "Crash option" = some (.int t.crashOption) ∧
      o "Hessian updates" = some (.int t.hessianUpdates) ∧
      o "Major iterations limit" = some (.int (lastLimit SnoptSettings.majorIterationLimit s.majorIterationLimit h')) ∧
      o "Minor iterations limit" =
        some (.int (lastConst SnoptSettings.minorIterationLimit 50 s.minorIterationLimit h')) ∧
      o "Iterations limit" = some (.int (lastConst SnoptSettings.iterationLimit 500 s.iterationLimit h'))) ∧
    ((Snopt.after p st s0 (h ++ .configure s :: h')).warm = true ↔ warmed h ∨ warmed h') := by
  have conf : ∀ (a : Snopt) (s : SnoptSettings), SFollows (a.configure p st s).opts s s.majorIterationLimit
      s.minorIterationLimit s.iterationLimit := by
    intro a s
    simp [SFollows, Snopt.configure, snoptOptions, set_apply]
  have key : ∀ (h' : List (Adjust SnoptSettings)) (a : Snopt) (t : SnoptSettings) (l l' l'' : ℤ),
      SFollows a.opts t l l' l'' →
      SFollows (h'.foldl (Snopt.adjust p st) a).opts (lastSettings t h')
        (lastLimit SnoptSettings.majorIterationLimit l h') (lastConst SnoptSettings.minorIterationLimit 50 l' h')
        (lastConst SnoptSettings.iterationLimit 500 l'' h') := by
    intro h'
    induction h' with
    | nil => intro a t l l' l'' hf; exact hf
    | cons c h' ih =>
      intro a t l l' l'' hf
      cases c with
      | configure s' =>
        have := ih (a.configure p st s') s' _ _ _ (conf a s')
        exact this
      | warmStart k =>
        have h1 : SFollows (a.prepareWarmStart k).opts t (toInt k) 50 500 := by
          simp only [SFollows] at hf
          simp [SFollows, Snopt.prepareWarmStart, snoptWarmOptions, set_apply, hf]
        have := ih (a.prepareWarmStart k) t _ _ _ h1
        exact this
  have warm : ∀ (h : List (Adjust SnoptSettings)) (a : Snopt),
      (h.foldl (Snopt.adjust p st) a).warm = true ↔ a.warm = true ∨ warmed h := by
    intro h
    induction h with
    | nil => intro a; simp [warmed]
    | cons c h ih =>
      intro a
      rw [List.foldl_cons, ih]
      cases c with
      | configure s => simp [Snopt.adjust, Snopt.configure, warmed]
      | warmStart k =>
        simp only [Snopt.adjust, Snopt.prepareWarmStart, warmed, true_or, true_iff]
        exact Or.inr ⟨k, by simp⟩
  refine ⟨?_, ?_⟩
  · have := key h' _ _ _ _ _ (conf (h.foldl (Snopt.adjust p st) (Snopt.new s0)) s)
    simp only [SFollows] at this
    simpa only [Snopt.after, List.foldl_append, List.foldl_cons, Snopt.adjust] using this
  · rw [Snopt.after, warm]
    simp only [Snopt.new, Bool.false_eq_true, false_or, warmed, List.mem_append, List.mem_cons, reduceCtorEq]
    constructor
    · rintro ⟨k, hk | hk⟩
      · exact Or.inl ⟨k, hk⟩
      · exact Or.inr ⟨k, hk⟩
    · rintro (⟨k, hk⟩ | ⟨k, hk⟩)
      · exact ⟨k, Or.inl hk⟩
      · exact ⟨k, Or.inr hk⟩

/-- C163 fails for settings given to the constructor of the SNOPT solver: they have no effect, and solving without a
further `configure` throws whatever warm starts were prepared. -/
theorem C163_snopt_constructor_violated [Zero α] (p : Prob α D) (st : State α D) (s0 s1 : SnoptSettings)
    (ks : List Nat) (lowest max : α) (solver : Bool → Options → Arrays α → SnoptRun α) :
    (Snopt.after p st s0 (ks.map .warmStart)).opts = (Snopt.after p st s1 (ks.map .warmStart)).opts ∧
    snoptSolve lowest max solver p (Snopt.after p st s0 (ks.map .warmStart)) st = .exc := by
  have key : ∀ (ks : List Nat) (a b : Snopt), a.opts = b.opts → a.initialized = false →
      ((ks.map Adjust.warmStart).foldl (Snopt.adjust p st) a).opts =
        ((ks.map Adjust.warmStart).foldl (Snopt.adjust p st) b).opts ∧
      ((ks.map Adjust.warmStart).foldl (Snopt.adjust p st) a).initialized = false := by
    intro ks
    induction ks with
    | nil => intro a b h hi; exact ⟨h, hi⟩
    | cons k ks ih =>
      intro a b h hi
      refine ih _ _ ?_ ?_
      · simp [Snopt.adjust, Snopt.prepareWarmStart, h]
      · simpa [Snopt.adjust, Snopt.prepareWarmStart] using hi
  obtain ⟨h1, h2⟩ := key ks (Snopt.new s0) (Snopt.new s1) rfl rfl
  refine ⟨h1, ?_⟩
  rw [snoptSolve, Snopt.after, h2]
  rfl

end CT.NlpSolver
