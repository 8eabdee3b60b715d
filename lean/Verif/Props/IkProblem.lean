import Verif.Model.IkProblem
import Verif.Props.NlpIpopt
import Verif.Props.TaskspaceTerms

/-! # C185: the inverse kinematics problem handed to the solver, and the solutions that are returned -/

namespace CT.IkProb

open CT.Nlp CT.NlpSolver CT.Taskspace

variable {n : ℕ}

/-! ### Specification -/

/-- Joint positions within the limits. -/
def Within (lower upper : Fin n → ℝ) (q : Fin n → ℝ) : Prop := ∀ i, lower i ≤ q i ∧ q i ≤ upper i

/-- The right answer of a problem with costs `E` to a callback: cost and gradient at the point asked about, the variables themselves as
constraints with the identity as Jacobian, and the lower triangle of the Hessian of the cost times the objective factor. -/
def Correct (E : Evaluator n) (pattern : List (ℕ × ℕ)) : Query ℝ → Answer ℝ → Prop
  | .f x _, .value v => v = E.cost (vec n x)
  | .gradF x _, .vector v => v = List.ofFn (E.grad (vec n x))
  | .g x _ _, .vector v => x.length = n → v = x
  | .jacG _ _ _, .vector v => v.length = n ∧ ∀ i j, i < n → j < n →
      dense (List.range n) (List.range n) v i j = if i = j then 1 else 0
  | .jacPattern _, .pattern r c => r = List.range n ∧ c = List.range n
  | .h x _ o _, .vector v => v.length = pattern.length ∧ ∀ i j : Fin n, j ≤ i →
      at' pattern v (i.1, j.1) = o * E.hess (vec n x) i j
  | .hPattern, .pattern r c => r.zip c = pattern ∧ r.length = c.length
  | _, _ => False

/-! ### The program -/

theorem limits_wf (lower upper : Fin n → ℝ) (x : List ℝ) : (jointLimits n lower upper x).Wf := by
  constructor <;> simp [jointLimits]

theorem program_wf (E : Evaluator n) (lower upper : Fin n → ℝ) (read : List ℝ → List ℝ) :
    (program E lower upper read).Wf n n := by
  constructor
  · intro x d c hc
    simp only [program, List.mem_singleton] at hc
    subst hc
    exact limits_wf _ _ _
  · intro x d; simp [program, constraintsCount, jointLimits]
  · intro x d; simp [program, nonZerosCount, jointLimits]
  · intro x d x' d'; simp [program, jointLimits]

theorem ofFn_vec {x : List ℝ} (h : x.length = n) : List.ofFn (vec n x) = x := by
  subst h
  refine List.ext_getElem (by simp) fun i h1 h2 => ?_
  simp [vec, List.getElem?_eq_getElem h2]

theorem vec_ofFn (q : Fin n → ℝ) : vec n (List.ofFn q) = q := by
  funext i; simp [vec]

theorem eval_limits (lower upper : Fin n → ℝ) (x : List ℝ) :
    evalConstraints [jointLimits n lower upper x] (List.replicate n 0) = .ok (List.ofFn (vec n x)) := by
  simp [evalConstraints, stack, writeSeg, jointLimits, Res.ok_bind]

theorem jac_limits (lower upper : Fin n → ℝ) (x : List ℝ) :
    evalSparseJacobian [jointLimits n lower upper x] (List.replicate n 0) = .ok (List.replicate n 1) := by
  simp [evalSparseJacobian, stack, writeSeg, jointLimits, Res.ok_bind]

theorem pattern_limits (lower upper : Fin n → ℝ) (x : List ℝ) :
    getSparsityPattern [jointLimits n lower upper x] (List.replicate n 0) (List.replicate n 0)
      = .ok (List.range n, List.range n) := by
  simp [getSparsityPattern, patternLoop, writeSeg, jointLimits, Res.ok_bind]

theorem bounds_limits (lower upper : Fin n → ℝ) (x : List ℝ) :
    getBounds [jointLimits n lower upper x] (List.replicate n 0) (List.replicate n 0)
      = .ok (List.ofFn lower, List.ofFn upper) := by
  simp [getBounds, stack, writeSeg, jointLimits, Res.ok_bind, Res.pure_eq]

theorem dense_identity (i j : ℕ) (hi : i < n) (hj : j < n) :
    dense (List.range n) (List.range n) (List.replicate n (1 : ℝ)) i j = if i = j then 1 else 0 := by
  have e : ((List.range n).zip (List.range n)).zip (List.replicate n (1 : ℝ)) =
      (List.range n).map fun k => ((k, k), (1 : ℝ)) := by
    refine List.ext_getElem (by simp) fun k h1 h2 => by simp
  rw [dense, e]
  by_cases h : i = j
  · subst h
    have : ((List.range n).map fun k => ((k, k), (1 : ℝ))).filter (fun t => t.1 = (i, i)) = [((i, i), 1)] := by
      rw [List.filter_map]
      have : (List.range n).filter ((fun t : (ℕ × ℕ) × ℝ => decide (t.1 = (i, i))) ∘ fun k => ((k, k), (1 : ℝ))) = [i] := by
        have : ((fun t : (ℕ × ℕ) × ℝ => decide (t.1 = (i, i))) ∘ fun k => ((k, k), (1 : ℝ))) = fun k => decide (k = i) := by
          funext k; simp
        rw [this]
        have := List.filter_eq (l := List.range n) i
        rw [List.count_eq_one_of_mem List.nodup_range (by simpa using hi)] at this
        simpa using this
      rw [this]; rfl
    rw [this]; simp
  · have : ((List.range n).map fun k => ((k, k), (1 : ℝ))).filter (fun t => t.1 = (i, j)) = [] := by
      simp only [List.filter_eq_nil_iff, List.mem_map, decide_eq_true_eq]
      rintro t ⟨k, -, rfl⟩
      simp only [Prod.mk.injEq]
      rintro ⟨rfl, rfl⟩
      exact h rfl
    rw [this]; simp [h]

theorem sparsity_getElem (i j : Fin n) : (IK.sparsity n)[i.1 * n + j.1]? = some (i.1, j.1) := by
  rw [IK.sparsity, flat_get (by simp) j.2]
  simp

theorem values_getElem (E : Evaluator n) (q : Fin n → ℝ) (c : ℝ) (i j : Fin n) :
    (E.hessValues q c)[i.1 * n + j.1]? = some (c * E.hess q j i) := by
  rw [Evaluator.hessValues, flat_get (by simp) j.2]
  simp

theorem sparsity_nodup : (IK.sparsity n).Nodup := by
  rw [IK.sparsity]
  refine List.nodup_flatMap.2 ⟨fun i _ => List.nodup_range.map fun a b h => by simpa using h, ?_⟩
  refine List.nodup_range.imp fun {a b} hab => ?_
  intro x hx hy
  simp only [List.mem_map] at hx hy
  obtain ⟨_, _, rfl⟩ := hx
  obtain ⟨_, _, h⟩ := hy
  exact hab (by simpa using (congrArg Prod.fst h).symm)

theorem at'_unique {ks : List (ℕ × ℕ)} (hk : ks.Nodup) : ∀ {vs : List ℝ} {m : ℕ} {k : ℕ × ℕ} {v : ℝ},
    ks[m]? = some k → vs[m]? = some v → at' ks vs k = v := by
  induction ks with
  | nil => intro vs m k v h; simp at h
  | cons a ks ih =>
    intro vs m k v h1 h2
    rw [List.nodup_cons] at hk
    cases vs with
    | nil => simp at h2
    | cons b vs =>
      cases m with
      | zero =>
        simp only [List.getElem?_cons_zero, Option.some.injEq] at h1 h2
        subst h1 h2
        have : ((ks.zip vs).filter fun t => t.1 = a) = [] := by
          simp only [List.filter_eq_nil_iff, decide_eq_true_eq]
          intro t ht e
          exact hk.1 (e ▸ (List.of_mem_zip ht).1)
        simp [at', this]
      | succ m =>
        have hm : k ∈ ks := List.mem_of_getElem? (by simpa using h1)
        have ha : a ≠ k := fun e => hk.1 (e ▸ hm)
        have := ih hk.2 (vs := vs) (m := m) (k := k) (v := v) (by simpa using h1) (by simpa using h2)
        simpa [at', ha] using this

/-- The positions handed to the solver are those of the lower triangle, each once. -/
theorem C185_pattern (E : Evaluator n) (lower upper : Fin n → ℝ) (read : List ℝ → List ℝ) :
    (program E lower upper read).hessPattern.Nodup ∧
    ∀ i j, (i, j) ∈ (program E lower upper read).hessPattern ↔ j ≤ i ∧ i < n := by
  constructor
  · exact (storedKeys_nodup _).filter _
  · intro i j
    simp only [program, nlpPattern, lowerKeys, List.mem_filter, mem_storedKeys, List.map_map, decide_eq_true_eq]
    have h0 : containerPattern [jointLimitsHess n] = [] := by
      simp [containerPattern, jointLimitsHess, storedKeys]
    simp only [h0, List.append_nil, Function.comp_def, List.map_id', IK.sparsity, List.mem_flatMap, List.mem_map, List.mem_range,
      Prod.mk.injEq]
    constructor
    · rintro ⟨⟨a, ha, b, hb, rfl, rfl⟩, h⟩
      exact ⟨h, ha⟩
    · rintro ⟨h, hi⟩
      exact ⟨⟨i, hi, j, by omega, rfl, rfl⟩, h⟩

theorem hessian_ok (E : Evaluator n) (q : Fin n → ℝ) (hs : (E.hess q).IsSymm) (c : ℝ) (lambda : List ℝ) :
    ∃ v, evaluateHessian (IK.sparsity n) (E.hessValues q c) [jointLimitsHess n] lambda = .ok v ∧
      v.length = (nlpPattern (IK.sparsity n) [jointLimitsHess n]).length ∧
      ∀ i j : Fin n, j ≤ i → at' (nlpPattern (IK.sparsity n) [jointLimitsHess n]) v (i.1, j.1) = c * E.hess q i j := by
  obtain ⟨v, h1, h2, -, -, h3⟩ := C81_aligned_partial (IK.sparsity n) (E.hessValues q c) [jointLimitsHess n] lambda
    (by simp [Evaluator.hessValues, IK.sparsity, List.length_flatMap])
    (by simp [jointLimitsHess]) (by simp [jointLimitsHess])
  refine ⟨v, h1, h2, fun i j hij => ?_⟩
  rw [h3 i.1 j.1 hij, at'_unique sparsity_nodup (sparsity_getElem i j) (values_getElem E q c i j)]
  simp [consEntry, jointLimitsHess, at', hs.apply i j]

/-! ### Callbacks -/

theorem answer_ik (E : Evaluator n) (hE : ∀ q, (E.hess q).IsSymm) (lower upper : Fin n → ℝ) (s : State ℝ Unit)
    (prev : Option (List ℝ)) (q : Query ℝ) (hs : ∀ y, prev = some y → s.vars.x = y) (hq : Protocol n n prev [q]) :
    ∃ s' a, answer (program E lower upper id) s q = .ok (s', a) ∧ Correct E (program E lower upper id).hessPattern q a ∧
      ∀ y, (q.point.map (·.1)).or prev = some y → s'.vars.x = y := by
  have ex : ∀ x new, (new = false → prev = some x) → (s.extract (program E lower upper id) x new).vars.x = x := by
    intro x new h
    cases new with
    | true => simp [State.extract, OptVec.setOptimizationVars]
    | false => simpa [State.extract] using hs x (h rfl)
  cases q with
  | f x new =>
    simp only [Protocol, Query.point, and_true, true_and] at hq
    refine ⟨_, _, rfl, ?_, ?_⟩
    · exact congrArg (fun y => E.cost (vec n y)) (ex x new hq)
    · simpa [Query.point] using ex x new hq
  | gradF x new =>
    simp only [Protocol, Query.point, and_true, true_and] at hq
    refine ⟨_, _, rfl, ?_, ?_⟩
    · exact congrArg (fun y => List.ofFn (E.grad (vec n y))) (ex x new hq)
    · simpa [Query.point] using ex x new hq
  | g x new m =>
    simp only [Protocol, Query.point, and_true] at hq
    obtain ⟨rfl, hq⟩ := hq
    refine ⟨s.extract (program E lower upper id) x new, .vector (List.ofFn (vec m x)), ?_, ?_, ?_⟩
    · have e : (s.extract (program E lower upper id) x new).cons (program E lower upper id) = [jointLimits m lower upper x] :=
        congrArg (fun y => [jointLimits m lower upper y]) (ex x new hq)
      simp only [answer, e, eval_limits, Res.ok_bind, Res.pure_eq]
    · exact fun h => ofFn_vec h
    · simpa [Query.point] using ex x new hq
  | jacG x new m =>
    simp only [Protocol, Query.point, and_true] at hq
    obtain ⟨rfl, hq⟩ := hq
    refine ⟨s.extract (program E lower upper id) x new, .vector (List.replicate m 1), ?_, ?_, ?_⟩
    · simp [answer, State.cons, program, jac_limits, Res.ok_bind, Res.pure_eq]
    · exact ⟨by simp, fun i j hi hj => dense_identity i j hi hj⟩
    · simpa [Query.point] using ex x new hq
  | jacPattern m =>
    simp only [Protocol, Query.point, and_true] at hq
    subst hq
    refine ⟨s, .pattern (List.range m) (List.range m), ?_, ⟨rfl, rfl⟩, ?_⟩
    · simp [answer, State.cons, program, pattern_limits, Res.ok_bind, Res.pure_eq]
    · simpa [Query.point] using hs
  | h x new o l =>
    simp only [Protocol, Query.point, and_true, true_and] at hq
    obtain ⟨v, h1, h2, h3⟩ := hessian_ok E (vec n x) (hE _) o l
    refine ⟨s.extract (program E lower upper id) x new, .vector v, ?_, ⟨h2, h3⟩, ?_⟩
    · have e : (program E lower upper id).hess (s.extract (program E lower upper id) x new).vars.x
          (s.extract (program E lower upper id) x new).data o l = v := by
        rw [ex x new hq]
        simp only [program, id_eq, h1, orEmpty]
      simp only [answer, e]
    · simpa [Query.point] using ex x new hq
  | hPattern =>
    refine ⟨s, _, rfl, ⟨?_, by simp⟩, by simpa [Query.point] using hs⟩
    rw [List.zip_map']
    simp

theorem answers_ik (E : Evaluator n) (hE : ∀ q, (E.hess q).IsSymm) (lower upper : Fin n → ℝ) (qs : List (Query ℝ)) :
    ∀ (s : State ℝ Unit) (prev : Option (List ℝ)), (∀ y, prev = some y → s.vars.x = y) → Protocol n n prev qs →
    ∃ s' as, answers (program E lower upper id) s qs = .ok (s', as) ∧
      List.Forall₂ (Correct E (program E lower upper id).hessPattern) qs as := by
  induction qs with
  | nil => exact fun s prev _ _ => ⟨s, [], rfl, .nil⟩
  | cons q qs ih =>
    intro s prev hs hq
    obtain ⟨hq1, hq2⟩ := protocol_cons hq
    obtain ⟨s1, a, h1, hc, hs1⟩ := answer_ik E hE lower upper s prev q hs hq1
    obtain ⟨s', as, h2, hcs⟩ := ih s1 _ hs1 hq2
    exact ⟨s', a :: as, by simp [answers, h1, h2, Res.ok_bind, Res.pure_eq], .cons hc hcs⟩

/-! ### Problems and evaluators -/

/-- What a user does besides solving: set the target or weights of an evaluator (any change of what it computes), create a problem,
set an initial guess. -/
inductive Op (n : ℕ) where
  | change (e : ℕ) (E : Evaluator n)
  | create (e : ℕ) (lower upper : Fin n → ℝ)
  | guess (k : ℕ) (q : Fin n → ℝ)

/-- The effect of a call. -/
noncomputable def World.op (lowest max : ℝ) (W : World n) : Op n → World n
  | .change e E => { W with evals := Function.update W.evals e E }
  | .create e lower upper => W.create lowest max e lower upper
  | .guess k q => W.setInitialGuess k q

/-- A history of calls. -/
noncomputable def World.ops (lowest max : ℝ) (W : World n) (h : List (Op n)) : World n := h.foldl (World.op lowest max) W

/-- The guess set last for problem `k`. -/
def lastGuess (k : ℕ) (g : Fin n → ℝ) : List (Op n) → Fin n → ℝ
  | [] => g
  | .guess k' q :: h => lastGuess k (if k' = k then q else g) h
  | _ :: h => lastGuess k g h

theorem ops_inv (lowest max : ℝ) (e k : ℕ) (lower upper : Fin n → ℝ) (h : List (Op n)) :
    ∀ (W : World n) (p : Problem n) (g : Fin n → ℝ), (∀ lo up, Op.create e lo up ∉ h) → W.w e = some k →
      W.problems[k]? = some p → p.evaluator = e → p.lower = lower → p.upper = upper → p.vars.x = List.ofFn g →
      p.vars.xInit = some (List.ofFn g) → p.vars.xLb = List.replicate n lowest → p.vars.xUb = List.replicate n max →
      ∃ p', (W.ops lowest max h).w e = some k ∧ (W.ops lowest max h).problems[k]? = some p' ∧ p'.evaluator = e ∧
        p'.lower = lower ∧ p'.upper = upper ∧ p'.vars.x = List.ofFn (lastGuess k g h) ∧
        p'.vars.xInit = some (List.ofFn (lastGuess k g h)) ∧ p'.vars.xLb = List.replicate n lowest ∧
        p'.vars.xUb = List.replicate n max := by
  induction h with
  | nil => exact fun W p g _ h1 h2 h3 h4 h5 h6 h7 h8 h9 => ⟨p, h1, h2, h3, h4, h5, h6, h7, h8, h9⟩
  | cons o h ih =>
    intro W p g hn h1 h2 h3 h4 h5 h6 h7 h8 h9
    have hn' : ∀ lo up, Op.create e lo up ∉ h := fun lo up hm => hn lo up (List.mem_cons_of_mem _ hm)
    cases o with
    | change e' E => exact ih _ p g hn' h1 h2 h3 h4 h5 h6 h7 h8 h9
    | create e' lo up =>
      have he : e' ≠ e := fun he => hn lo up (by simp [he])
      refine ih _ p g hn' ?_ ?_ h3 h4 h5 h6 h7 h8 h9
      · simpa [World.op, World.create, Function.update_of_ne he.symm] using h1
      · have hk : k < W.problems.length := (List.getElem?_eq_some_iff.1 h2).1
        simpa [World.op, World.create, List.getElem?_append_left hk] using h2
    | guess k' q =>
      by_cases hk : k' = k
      · subst hk
        refine ih (W.op lowest max (.guess k' q)) { p with vars := p.vars.setInitialGuess (List.ofFn q) }
          (if k' = k' then q else g) hn' h1 ?_ h3 h4 h5 ?_ ?_ h8 h9
        · simp [World.op, World.setInitialGuess, List.getElem?_modify_eq, h2]
        · simp [OptVec.setInitialGuess]
        · simp [OptVec.setInitialGuess]
      · refine ih (W.op lowest max (.guess k' q)) p (if k' = k then q else g) hn' h1 ?_ h3 h4 h5 ?_ ?_ h8 h9
        · simp [World.op, World.setInitialGuess, List.getElem?_modify, hk, h2]
        · simp [hk, h6]
        · simp [hk, h7]

theorem created (lowest max : ℝ) (W : World n) (e : ℕ) (lower upper : Fin n → ℝ) (h : List (Op n))
    (hn : ∀ lo up, Op.create e lo up ∉ h) :
    let W' := (W.create lowest max e lower upper).ops lowest max h
    ∃ p, W'.w e = some W.problems.length ∧ W'.problems[W.problems.length]? = some p ∧ p.evaluator = e ∧
        p.lower = lower ∧ p.upper = upper ∧ p.vars.x = List.ofFn (lastGuess W.problems.length 0 h) ∧
        p.vars.xInit = some (List.ofFn (lastGuess W.problems.length 0 h)) ∧ p.vars.xLb = List.replicate n lowest ∧
        p.vars.xUb = List.replicate n max := by
  have e0 : (List.ofFn (0 : Fin n → ℝ)) = List.replicate n 0 := List.ofFn_const n 0
  refine ops_inv lowest max e _ lower upper h _ ⟨e, lower, upper, (OptVec.new lowest max n).setZero⟩ 0 hn ?_ ?_ rfl rfl rfl ?_ ?_
    rfl rfl
  · simp [World.create]
  · simp [World.create]
  · simp [OptVec.setZero, OptVec.new, e0]
  · simp [OptVec.setZero, OptVec.new, e0]

theorem own_program (W : World n) (k : ℕ) (p : Problem n) (h : W.w p.evaluator = some k) :
    W.program k p = program (W.evals p.evaluator) p.lower p.upper id := by
  have : W.read k p.evaluator = id := by
    funext x; simp [World.read, h]
  rw [World.program, this]

/-- C185: whatever happened before and after the construction of a problem, as long as its evaluator is not given to another problem
afterwards: IPOPT is told the number of joints as number of variables and of constraints, no bounds for the variables, the joint limits
as bounds of the constraints, and the guess set last (else zero) as starting point. -/
theorem C185_description (lowest max : ℝ) (W : World n) (e : ℕ) (lower upper : Fin n → ℝ) (h : List (Op n))
    (hn : ∀ lo up, Op.create e lo up ∉ h) (a : Ipopt) (nnzIn : ℕ) :
    let k := W.problems.length
    let W' := (W.create lowest max e lower upper).ops lowest max h
    ∃ p, W'.problems[k]? = some p ∧
      nlpInfo a (W'.program k p) ⟨p.vars, ()⟩ nnzIn =
        (n, n, n, if a.settings.hessianApproximation = "exact" then (W'.program k p).hessPattern.length else nnzIn) ∧
      boundsInfo (W'.program k p) ⟨p.vars, ()⟩ n n =
        .ok ((List.replicate n lowest, List.replicate n max), (List.ofFn lower, List.ofFn upper)) ∧
      startingPoint (⟨p.vars, ()⟩ : State ℝ Unit) n n true false false =
        .ok (some (List.ofFn (lastGuess k 0 h)), none, none) := by
  intro k W'
  obtain ⟨p, h1, h2, h3, h4, h5, h6, h7, h8, h9⟩ := created lowest max W e lower upper h hn
  refine ⟨p, h2, ?_, ?_, ?_⟩
  · rw [own_program W' k p (by rw [h3]; exact h1)]
    simp [nlpInfo, h6, State.cons, program, constraintsCount, nonZerosCount, jointLimits]
  · rw [own_program W' k p (by rw [h3]; exact h1)]
    simp [boundsInfo, OptVec.getVariableBounds, copyOut, h8, h9, State.cons, program, bounds_limits, Res.ok_bind, Res.pure_eq, h4, h5]
  · simp [startingPoint, OptVec.getInitialGuess, copyOut, h7, Res.ok_bind, Res.pure_eq, k]

/-- C185: under the same condition every callback of IPOPT is answered correctly for the costs the evaluator stands for at that time,
whatever state the variables are in. Missing: an evaluator given to a second problem, see `C185_shared_violated`. -/
theorem C185_answers_partial (lowest max : ℝ) (W : World n) (e : ℕ) (lower upper : Fin n → ℝ) (h : List (Op n))
    (hn : ∀ lo up, Op.create e lo up ∉ h) :
    let k := W.problems.length
    let W' := (W.create lowest max e lower upper).ops lowest max h
    (∀ q, ((W'.evals e).hess q).IsSymm) →
    ∃ p, W'.problems[k]? = some p ∧ ∀ (s : State ℝ Unit) (qs : List (Query ℝ)), Protocol n n none qs →
      ∃ s' as, answers (W'.program k p) s qs = .ok (s', as) ∧
        List.Forall₂ (Correct (W'.evals e) (W'.program k p).hessPattern) qs as := by
  intro k W' hE
  obtain ⟨p, h1, h2, h3, h4, h5, -⟩ := created lowest max W e lower upper h hn
  refine ⟨p, h2, fun s qs hq => ?_⟩
  rw [own_program W' k p (by rw [h3]; exact h1), h3]
  exact answers_ik _ hE _ _ qs s none (by simp) hq

/-- The hypotheses are met: a target is set, another problem gets an evaluator of its own, a guess is set; IPOPT asks for the cost at a
new point, then for the gradient and the Hessian there. -/
example : ∃ (h : List (Op 2)) (E : Evaluator 2) (qs : List (Query ℝ)), h ≠ [] ∧ (∀ lo up, Op.create 0 lo up ∉ h) ∧
    (∀ q, (E.hess q).IsSymm) ∧ Op.change 0 E ∈ h ∧ Protocol 2 2 none qs ∧ 2 < qs.length :=
  ⟨[.change 0 ⟨fun q => q 0, fun _ => ![1, 0], fun _ => 0⟩, .create 1 0 1, .guess 0 1],
    ⟨fun q => q 0, fun _ => ![1, 0], fun _ => 0⟩, [.f [1, 2] true, .gradF [1, 2] false, .h [1, 2] false 1 [0, 0]],
    by simp, by simp, fun _ => Matrix.isSymm_zero, by simp, by simp [Protocol, Query.point], by simp⟩

/-- C185: the values of the constraints at `x` are between the bounds IPOPT is given exactly if the joint positions are within their
limits. -/
theorem C185_feasible (E : Evaluator n) (lower upper : Fin n → ℝ) (s s' : State ℝ Unit) (x v : List ℝ)
    (h : answer (program E lower upper id) s (.g x true n) = .ok (s', .vector v)) :
    (∀ (i : ℕ) (l c u : ℝ), (List.ofFn lower)[i]? = some l → v[i]? = some c → (List.ofFn upper)[i]? = some u → l ≤ c ∧ c ≤ u) ↔
      Within lower upper (vec n x) := by
  have e : (s.extract (program E lower upper id) x true).cons (program E lower upper id) = [jointLimits n lower upper x] := rfl
  simp only [answer, e, eval_limits, Res.ok_bind, Res.pure_eq, Res.ok.injEq, Prod.mk.injEq, Answer.vector.injEq] at h
  obtain ⟨-, rfl⟩ := h
  constructor
  · intro h i
    exact h i.1 _ _ _ (by simp) (by simp) (by simp)
  · intro h i l c u h1 h2 h3
    have hi : i < n := by
      by_contra hi
      rw [List.getElem?_eq_none (by simpa using hi)] at h1
      cases h1
    have := h ⟨i, hi⟩
    simp only [List.getElem?_ofFn, hi, dif_pos, Option.some.injEq] at h1 h2 h3
    subst h1 h2 h3
    exact this

/-- The hypothesis is met. -/
example (E : Evaluator 1) (lower upper : Fin 1 → ℝ) (s : State ℝ Unit) :
    ∃ s', answer (program E lower upper id) s (.g [3] true 1) = .ok (s', .vector [3]) :=
  ⟨s.extract (program E lower upper id) [3] true, by
    have e : (s.extract (program E lower upper id) [3] true).cons (program E lower upper id) = [jointLimits 1 lower upper [3]] := rfl
    have v : List.ofFn (vec 1 [3]) = [3] := ofFn_vec rfl
    simp only [answer, e, eval_limits, Res.ok_bind, Res.pure_eq, v]⟩

/-- C185 fails if an evaluator is given to two problems: from then on the costs and gradients of the first are those at the variables
of the second, whatever its own variables are. -/
theorem C185_shared_violated (lowest max : ℝ) (W : World n) (e : ℕ) (lower upper lower' upper' q : Fin n → ℝ) :
    let k := W.problems.length
    let W' := ((W.create lowest max e lower upper).create lowest max e lower' upper').setInitialGuess (k + 1) q
    ∃ p, W'.problems[k]? = some p ∧ ∀ (s : State ℝ Unit) (x : List ℝ),
      (∃ s', answer (W'.program k p) s (.f x true) = .ok (s', .value ((W.evals e).cost q)) ∧ s'.vars.x = x) ∧
      (∃ s', answer (W'.program k p) s (.gradF x true) = .ok (s', .vector (List.ofFn ((W.evals e).grad q)))) := by
  intro k W'
  have hr : ∀ x, W'.read k e x = List.ofFn q := by
    intro x
    simp [W', World.read, World.setInitialGuess, World.create, k, List.getElem?_modify_eq, OptVec.setInitialGuess]
  refine ⟨⟨e, lower, upper, (OptVec.new lowest max n).setZero⟩, ?_, fun s x =>
    ⟨⟨s.extract (W'.program k ⟨e, lower, upper, (OptVec.new lowest max n).setZero⟩) x true, ?_, rfl⟩,
      s.extract (W'.program k ⟨e, lower, upper, (OptVec.new lowest max n).setZero⟩) x true, ?_⟩⟩
  · simp [W', World.setInitialGuess, World.create, k, List.getElem?_modify]
  · simp only [answer, World.program, program, hr, vec_ofFn]; rfl
  · simp only [answer, World.program, program, hr, vec_ofFn]; rfl

/-! ### Solving -/

/-- The starting point of trial `k`: the guess `g` of the user in the first one and without randomisation, else the point which the
random numbers between 0 and 1 of this trial select between the limits. -/
def startOf (lower upper : Fin n → ℝ) (randomize : Bool) (noise : ℕ → Fin n → ℝ) (g : Fin n → ℝ) (k : ℕ) : Fin n → ℝ :=
  if randomize = true ∧ k ≠ 0 then fun i => lower i + (upper i - lower i) * noise k i else g

/-- A trial from the starting point `g`: IPOPT is given that point and hands over `x`. -/
def Trial (solver : ℕ → State ℝ Unit → IpoptRun ℝ) (k : ℕ) (g : Fin n → ℝ) (x : List ℝ) (st : IpoptStatus) : Prop :=
  ∃ s, startingPoint s n n true false false = .ok (some (List.ofFn g), none, none) ∧ (solver k s).solution.x = x ∧
    (solver k s).status = st

theorem starting {s : State ℝ Unit} {g : Fin n → ℝ} (h : s.vars.xInit = some (List.ofFn g)) :
    startingPoint s n n true false false = .ok (some (List.ofFn g), none, none) := by
  simp [startingPoint, OptVec.getInitialGuess, copyOut, h, Res.ok_bind, Res.pure_eq]

theorem trials_spec (E : Evaluator n) (lower upper : Fin n → ℝ) (near : List ℝ → Bool) (randomize : Bool)
    (noise : ℕ → Fin n → ℝ) (solver : ℕ → State ℝ Unit → IpoptRun ℝ)
    (hs : ∀ k s, Protocol n n none (solver k s).queries) (g : Fin n → ℝ) (left : ℕ) :
    ∀ (count : ℕ) (s : State ℝ Unit), (randomize = false ∨ count = 0 → s.vars.xInit = some (List.ofFn g)) →
    ∃ sols b s', trials (program E lower upper id) lower upper near randomize noise solver left count s = .ok (sols, b, s') ∧
      (left ≠ 0 → ∃ k, count ≤ k ∧ k < count + left ∧ (b = false → k + 1 = count + left) ∧
        (∃ x st, Trial solver k (startOf lower upper randomize noise g k) x st ∧ near x = b ∧ s'.vars.x = x ∧
          sols = if b then [x] else []) ∧
        s'.vars.xInit = some (List.ofFn (startOf lower upper randomize noise g k)) ∧
        ∀ k', count ≤ k' → k' < k → ∃ x st, Trial solver k' (startOf lower upper randomize noise g k') x st ∧ near x = false) ∧
      (left = 0 → sols = [] ∧ b = false ∧ s' = s) := by
  induction left with
  | zero => exact fun count s _ => ⟨[], false, s, rfl, by simp, by simp⟩
  | succ left ih =>
    intro count s hi
    set s0 : State ℝ Unit := if randomize && count != 0 then setGuess s (randomGuess lower upper (noise count)) else s with hs0
    have h0 : s0.vars.xInit = some (List.ofFn (startOf lower upper randomize noise g count)) := by
      by_cases hr : randomize = true ∧ count ≠ 0
      · have e : (randomize && count != 0) = true := by simp [hr.1, hr.2]
        simp [hs0, e, startOf, hr, setGuess, OptVec.setInitialGuess, randomGuess]
      · have e : (randomize && count != 0) = false := by
          rcases Bool.eq_false_or_eq_true randomize with h | h <;> simp_all
        have : randomize = false ∨ count = 0 := by
          rcases Bool.eq_false_or_eq_true randomize with h | h <;> simp_all
        simp only [hs0, e, startOf, hr, if_false]
        exact hi this
    obtain ⟨s1, b1, h1, hx, -, -, -, hxi, -, -, -⟩ := C164_solve (program E lower upper id) n n (program_wf E lower upper id) s0
      (solver count s0) (hs _ _)
    have hT : Trial solver count (startOf lower upper randomize noise g count) s1.vars.x (solver count s0).status :=
      ⟨s0, starting h0, hx.symm, rfl⟩
    by_cases hn : near s1.vars.x = true
    · refine ⟨[s1.vars.x], true, s1, ?_, fun _ => ⟨count, le_rfl, by omega, by simp,
        ⟨s1.vars.x, _, hT, hn, rfl, by simp⟩, by rw [hxi, h0], fun k' a b => by omega⟩, by simp⟩
      simp only [trials, ← hs0, h1, Res.ok_bind, hn, if_true, Res.pure_eq]
    · rw [Bool.not_eq_true] at hn
      have hi' : randomize = false ∨ count + 1 = 0 → s1.vars.xInit = some (List.ofFn g) := by
        rintro (h | h)
        · rw [hxi, h0]; simp [startOf, h]
        · omega
      obtain ⟨sols, b, s', e1, e2, e3⟩ := ih (count + 1) s1 hi'
      have et : trials (program E lower upper id) lower upper near randomize noise solver (left + 1) count s = .ok (sols, b, s') := by
        rw [trials]
        simp only [← hs0, h1, Res.ok_bind, hn]
        exact e1
      refine ⟨sols, b, s', et, fun _ => ?_, by simp⟩
      by_cases hl : left = 0
      · obtain ⟨rfl, rfl, rfl⟩ := e3 hl
        exact ⟨count, le_rfl, by omega, fun _ => by omega, ⟨s'.vars.x, _, hT, hn, rfl, by simp⟩, by rw [hxi, h0],
          fun k' a b => by omega⟩
      · obtain ⟨k, c1, c2, c3, c4, c5, c6⟩ := e2 hl
        refine ⟨k, by omega, by omega, fun h => by have := c3 h; omega, c4, c5, fun k' a b => ?_⟩
        by_cases hk : k' = count
        · subst hk
          exact ⟨_, _, hT, hn⟩
        · exact c6 k' (by omega) b

/-- C185: a call with the guess `g` ends, without undefined behaviour, after at most the number of trials of the settings. If it
reports success there is exactly one solution: the point IPOPT handed over in some trial, it passes the validation by forward
kinematics, and the points of all trials before did not. Otherwise there is no solution and no trial gave a point that passes. Every
trial starts from the guess of the user or, after the first one with randomisation, from the random point of this trial. -/
theorem C185_retries {T : Type} (evs : T → Evaluator n) (lower upper : Fin n → ℝ) (near : T → List ℝ → Bool) (st : IK.Settings)
    (noise : ℕ → Fin n → ℝ) (solver : ℕ → State ℝ Unit → IpoptRun ℝ) (hs : ∀ k s, Protocol n n none (solver k s).queries)
    (target : T) (s : State ℝ Unit) (g : Fin n → ℝ) :
    ∃ sols b s', compute evs lower upper near st noise solver target (setGuess s (List.ofFn g)) = .ok (sols, b, s') ∧
      (b = true → ∃ k x status, k < st.maxTrials ∧ sols = [x] ∧ near target x = true ∧ s'.vars.x = x ∧
        Trial solver k (startOf lower upper st.randomize noise g k) x status ∧
        ∀ k' < k, ∃ x' status', Trial solver k' (startOf lower upper st.randomize noise g k') x' status' ∧ near target x' = false) ∧
      (b = false → sols = [] ∧ ∀ k' < st.maxTrials, ∃ x' status',
        Trial solver k' (startOf lower upper st.randomize noise g k') x' status' ∧ near target x' = false) := by
  obtain ⟨sols, b, s', e1, e2, e3⟩ := trials_spec (evs target) lower upper (near target) st.randomize noise solver hs g st.maxTrials
    0 (setGuess s (List.ofFn g)) (fun _ => by simp [setGuess, OptVec.setInitialGuess])
  refine ⟨sols, b, s', e1, ?_, ?_⟩
  · rintro rfl
    have hm : st.maxTrials ≠ 0 := fun h => by have := (e3 h).2.1; simp at this
    obtain ⟨k, -, c2, -, ⟨x, stat, t1, t2, t3, t4⟩, -, c6⟩ := e2 hm
    exact ⟨k, x, stat, by omega, by simpa using t4, t2, t3, t1, fun k' hk => c6 k' (Nat.zero_le _) hk⟩
  · rintro rfl
    by_cases hm : st.maxTrials = 0
    · exact ⟨(e3 hm).1, fun k' hk => by omega⟩
    · obtain ⟨k, -, c2, c3, ⟨x, stat, t1, t2, t3, t4⟩, -, c6⟩ := e2 hm
      have hk := c3 rfl
      refine ⟨by simpa using t4, fun k' hk' => ?_⟩
      by_cases h : k' = k
      · subst h; exact ⟨x, stat, t1, t2⟩
      · exact c6 k' (Nat.zero_le _) (by omega)

/-- C185: random starting points are within the joint limits, for random numbers between 0 and 1 and limits in the right order. -/
theorem C185_random (lower upper : Fin n → ℝ) (noise : Fin n → ℝ) (hl : ∀ i, lower i ≤ upper i)
    (hn : ∀ i, 0 ≤ noise i ∧ noise i ≤ 1) :
    Within lower upper (vec n (randomGuess lower upper noise)) := by
  intro i
  rw [randomGuess, vec_ofFn]
  have h1 := mul_nonneg (sub_nonneg.2 (hl i)) (hn i).1
  have h2 := mul_le_mul_of_nonneg_left (hn i).2 (sub_nonneg.2 (hl i))
  constructor <;> linarith

example : ∃ lower upper noise : Fin 2 → ℝ, (∀ i, lower i ≤ upper i) ∧ ∀ i, 0 ≤ noise i ∧ noise i ≤ 1 :=
  ⟨0, 1, fun _ => 1 / 2, fun _ => by simp, fun _ => by norm_num⟩

/-- C185: a returned solution is within the joint limits, if IPOPT, when it reports success, hands over a point at which the
constraints hold, and the trial whose point was accepted ended with success. Missing: a trial that ends in another way, see
`C185_limits_violated`. -/
theorem C185_limits_partial {T : Type} (evs : T → Evaluator n) (lower upper : Fin n → ℝ) (near : T → List ℝ → Bool)
    (st : IK.Settings) (noise : ℕ → Fin n → ℝ) (solver : ℕ → State ℝ Unit → IpoptRun ℝ)
    (hs : ∀ k s, Protocol n n none (solver k s).queries)
    (hipopt : ∀ k s, (solver k s).status = .solveSucceeded → Within lower upper (vec n (solver k s).solution.x))
    (target : T) (hok : ∀ k s, near target (solver k s).solution.x = true → (solver k s).status = .solveSucceeded)
    (s : State ℝ Unit) (g : Fin n → ℝ) (sols : List (List ℝ)) (b : Bool) (s' : State ℝ Unit)
    (h : compute evs lower upper near st noise solver target (setGuess s (List.ofFn g)) = .ok (sols, b, s')) :
    ∀ x ∈ sols, Within lower upper (vec n x) := by
  obtain ⟨sols', b', s'', e1, e2, e3⟩ := C185_retries evs lower upper near st noise solver hs target s g
  rw [h] at e1
  simp only [Res.ok.injEq, Prod.mk.injEq] at e1
  obtain ⟨rfl, rfl, rfl⟩ := e1
  intro x hx
  cases b with
  | false => rw [(e3 rfl).1] at hx; simp at hx
  | true =>
    obtain ⟨k, y, stat, -, rfl, hy, -, ⟨s1, -, rfl, -⟩, -⟩ := e2 rfl
    rw [List.mem_singleton] at hx
    subst hx
    exact hipopt k s1 (hok k s1 hy)

/-- A solver that asks for the cost at the origin, stops there and reports success meets the hypotheses. -/
example : ∃ (solver : ℕ → State ℝ Unit → IpoptRun ℝ) (near : List ℝ → Bool),
    (∀ k s, Protocol 2 2 none (solver k s).queries) ∧
    (∀ k s, (solver k s).status = .solveSucceeded → Within (n := 2) (fun _ => -1) (fun _ => 1) (vec 2 (solver k s).solution.x)) ∧
    (∀ k s, near (solver k s).solution.x = true → (solver k s).status = .solveSucceeded) ∧
    ∃ k s, near (solver k s).solution.x = true := by
  refine ⟨fun _ _ => ⟨[.f [0, 0] true], ⟨[0, 0], [], [], []⟩, .solveSucceeded⟩, fun _ => true, ?_, ?_, ?_, 0,
    ⟨OptVec.new 0 1 2, ()⟩, rfl⟩
  · intro k s; simp [Protocol, Query.point]
  · intro k s _ i
    fin_cases i <;> simp [vec]
  · intro k s _; rfl

/-- C185 fails for the joint limits: what IPOPT reports is ignored. If it stops, say because of the limit on iterations, at a point
that has the required pose but violates a joint limit, this point is returned as a solution and success is reported. -/
theorem C185_limits_violated {T : Type} (evs : T → Evaluator n) (lower upper : Fin n → ℝ) (near : T → List ℝ → Bool)
    (st : IK.Settings) (hm : st.maxTrials ≠ 0) (noise : ℕ → Fin n → ℝ) (target : T) (x : List ℝ) (hx : near target x = true)
    (hout : ¬ Within lower upper (vec n x)) (s : State ℝ Unit) :
    ∃ solver : ℕ → State ℝ Unit → IpoptRun ℝ, (∀ k s, Protocol n n none (solver k s).queries) ∧
      (∀ k s, (solver k s).status = .solveSucceeded → Within lower upper (vec n (solver k s).solution.x)) ∧
      ∃ s', compute evs lower upper near st noise solver target s = .ok ([x], true, s') := by
  refine ⟨fun _ _ => ⟨[], ⟨x, [], [], []⟩, .other (-1)⟩, by simp [Protocol], (fun k s h => (by cases h)), ?_⟩
  obtain ⟨m, hm⟩ := Nat.exists_eq_succ_of_ne_zero hm
  refine ⟨s.finalize ⟨x, [], [], []⟩, ?_⟩
  simp [compute, hm, trials, ipoptSolve, answers, Res.ok_bind, Res.pure_eq, State.finalize, hx]

/-- The hypotheses are met: one joint with limits ±1, a validation that accepts the angle 2. -/
example : ∃ (near : Unit → List ℝ → Bool) (x : List ℝ), near () x = true ∧
    ¬ Within (n := 1) (fun _ => -1) (fun _ => 1) (vec 1 x) :=
  ⟨fun _ _ => true, [2], rfl, fun h => by have := (h 0).2; simp [vec] at this⟩

/-- C185 fails for the guess of the user: a call that retries with randomisation and finds no solution leaves the random point of its
last trial as the guess, and the next call starts from that point. -/
theorem C185_guess_violated {T : Type} (evs : T → Evaluator n) (lower upper : Fin n → ℝ) (near : T → List ℝ → Bool)
    (m : ℕ) (noise : ℕ → Fin n → ℝ) (solver : ℕ → State ℝ Unit → IpoptRun ℝ)
    (hs : ∀ k s, Protocol n n none (solver k s).queries) (target : T) (hfail : ∀ x, near target x = false)
    (s : State ℝ Unit) (g : Fin n → ℝ) :
    ∃ s', compute evs lower upper near ⟨m + 2, true⟩ noise solver target (setGuess s (List.ofFn g)) = .ok ([], false, s') ∧
      startingPoint s' n n true false false = .ok (some (randomGuess lower upper (noise (m + 1))), none, none) := by
  obtain ⟨sols, b, s', e1, e2, e3⟩ := trials_spec (evs target) lower upper (near target) true noise solver hs g (m + 2)
    0 (setGuess s (List.ofFn g)) (fun _ => by simp [setGuess, OptVec.setInitialGuess])
  obtain ⟨k, -, c2, c3, ⟨x, stat, t1, t2, t3, t4⟩, c5, -⟩ := e2 (by omega)
  obtain rfl : b = false := by rw [← t2]; exact hfail x
  have hk : k = m + 1 := by have := c3 rfl; omega
  subst hk
  obtain rfl : sols = [] := by simpa using t4
  refine ⟨s', e1, ?_⟩
  rw [starting c5]
  simp [startOf, randomGuess]

/-- The random point differs from the guess, in general. -/
example : ∃ (lower upper noise g : Fin 1 → ℝ), randomGuess lower upper noise ≠ List.ofFn g :=
  ⟨fun _ => -1, fun _ => 1, fun _ => 1, fun _ => 0, by simp [randomGuess]⟩

/-! ### The evaluator -/

open Matrix

/-- C185: the cost evaluator for the end effector of a robot is an evaluator as above, with a symmetric Hessian: its cost, gradient and
Hessian values do not fail at any joint positions. The gradient is that of the cost, for a multiple of the identity as weight of the
orientation and where the orientation is not half a turn away from the target. Missing: other weights and half turns, see C144. -/
theorem C185_evaluator_partial {er : EigenRot} (he : er.Ok) {d : Lookup.Defs} {k : Taskspace.IK n} (hp : EEPose d k.goal.eeInd)
    (hv : d.EEVelRight k.goal.eeInd) (hS : d.njoints ≤ n) (hQ : k.goal.Qpos.IsSymm) {c : ℝ} (hc : k.goal.Qrot = c • 1)
    (hR : FrameJac.IsRot k.goal.RRef)
    (hr : ∀ r, k.jointRef = some r → ∀ (w : ℝ → Fin n → ℝ) (wd : Fin n → ℝ) (t : ℝ), FrameJac.VDeriv w wd t →
      HasDerivAt (fun s => r.1 (w s)) (r.2.1 (w t) ⬝ᵥ wd) t)
    (hrs : ∀ r, k.jointRef = some r → ∀ q, (r.2.2 q).IsSymm)
    (hg : ∀ r, k.regularizer = some r → ∀ q, (r q).IsSymm) (h : Hists) :
    ∃ E : Evaluator n, (∀ q, (E.hess q).IsSymm) ∧
      (∀ q, { k with w := some q }.eval er d h = .ok (E.cost q) ∧ { k with w := some q }.evalGradient er d h = .ok (E.grad q) ∧
        ∀ o, { k with w := some q }.hessianValues d h o = .ok (E.hessValues q o)) ∧
      ∀ (w : ℝ → Fin n → ℝ) (wd : Fin n → ℝ) (t : ℝ), FrameJac.VDeriv w wd t →
        (∀ C, d.getEERotInBase h.X k.goal.eeInd (joints d.njoints (w t)) = .ok C → (C * k.goal.RRefᵀ).trace ≠ -1) →
        HasDerivAt (fun s => E.cost (w s)) (E.grad (w t) ⬝ᵥ wd) t := by
  have hrot : k.goal.Qrot.IsSymm := by rw [hc]; exact Matrix.isSymm_one.smul c
  have key : ∀ q : Fin n → ℝ, ∃ (v : ℝ) (gr : Fin n → ℝ) (H : Matrix (Fin n) (Fin n) ℝ), H.IsSymm ∧
      k.goal.evaluate er d h q = .ok v ∧ k.goal.stateDerivative er d h q = .ok gr ∧ k.goal.stateSecondDerivative d h q = .ok H := by
    intro q
    obtain ⟨H, p, C, -, -, e1, e2, e3, -⟩ := C145_hessian (x := fun _ => q) (xd := 0) (t := 0) hp hv hS hQ hrot
      (fun i => hasDerivAt_const _ _) h
    obtain ⟨p', C', J, k1, k2, k3, -⟩ := hv (fun _ => joints d.njoints q) 0 0 (fun _ => hasDerivAt_const _ _)
      (fun _ => h.X) (fun _ => h.X) h.J h.X
    have f1 : ∃ v, k.goal.evaluate er d h q = .ok v := ⟨_, by
      simp only [Geo.evaluate, world_pos (k1 0), k2 0, Res.ok_bind, Res.pure_eq]; rfl⟩
    have f2 : ∃ gr, k.goal.stateDerivative er d h q = .ok gr := ⟨_, by
      simp only [Geo.stateDerivative, k3, world_pos (k1 0), k2 0, Res.ok_bind, Res.pure_eq]; rfl⟩
    obtain ⟨v, f1⟩ := f1
    obtain ⟨gr, f2⟩ := f2
    exact ⟨v, gr, H, e2, f1, f2, e1⟩
  choose v gr H hH a1 a2 a3 using key
  let E : Evaluator n :=
    { cost := fun q => v q + k.jointRef.elim 0 fun r => r.1 q
      grad := fun q => gr q + k.jointRef.elim 0 fun r => r.2.1 q
      hess := fun q => H q + (k.jointRef.elim 0 fun r => r.2.2 q) + k.regularizer.elim 0 fun r => r q }
  have hval : ∀ q, { k with w := some q }.eval er d h = .ok (E.cost q) ∧
      { k with w := some q }.evalGradient er d h = .ok (E.grad q) ∧
      ∀ o, { k with w := some q }.hessianValues d h o = .ok (E.hessValues q o) := by
    intro q
    refine ⟨?_, ?_, fun o => ?_⟩
    · cases hj : k.jointRef <;> simp [Taskspace.IK.eval, a1, E, hj, Res.ok_bind, Res.pure_eq]
    · cases hj : k.jointRef <;> simp [Taskspace.IK.evalGradient, a2, E, hj, Res.ok_bind, Res.pure_eq]
    · cases hj : k.jointRef <;> cases hq : k.regularizer <;>
        simp [Taskspace.IK.hessianValues, a3, E, hj, hq, Evaluator.hessValues, Res.ok_bind, Res.pure_eq]
  refine ⟨E, fun q => ?_, hval, fun w wd t hw hhalf => ?_⟩
  · have h2 : (k.jointRef.elim (0 : Matrix (Fin n) (Fin n) ℝ) fun r => r.2.2 q).IsSymm := by
      cases hj : k.jointRef with
      | none => exact Matrix.isSymm_zero
      | some r => exact hrs r hj q
    have h3 : (k.regularizer.elim (0 : Matrix (Fin n) (Fin n) ℝ) fun r => r q).IsSymm := by
      cases hj : k.regularizer with
      | none => exact Matrix.isSymm_zero
      | some r => exact hg r hj q
    exact ((hH q).add h2).add h3
  · obtain ⟨cost, grad, b1, b2, b3⟩ := C146_gradient_partial he hp hv hS hQ hc hR hw (fun r hj => hr r hj w wd t hw) (fun _ => h) h
      hhalf
    have ec : cost = fun s => E.cost (w s) := by
      funext s
      have := (hval (w s)).1
      rw [b1 s] at this
      exact Res.ok.inj this
    have eg : grad = E.grad (w t) := by
      have := (hval (w t)).2.1
      rw [b2] at this
      exact Res.ok.inj this
    rw [ec, eg] at b3
    exact b3

/-- The hypotheses are met: the arm HyA with a quadratic term in the joint positions. -/
example : ∃ k : Taskspace.IK 6, EEPose Robots.HyA.Kin.defs k.goal.eeInd ∧ Robots.HyA.Kin.defs.EEVelRight k.goal.eeInd
    ∧ Robots.HyA.Kin.defs.njoints ≤ 6 ∧ k.goal.Qpos.IsSymm ∧ k.goal.Qrot = (2 : ℝ) • 1 ∧ FrameJac.IsRot k.goal.RRef
    ∧ k.jointRef.isSome ∧ (∀ r, k.jointRef = some r → ∀ q, (r.2.2 q).IsSymm) := by
  refine ⟨⟨some 0, ⟨0, 1, (2 : ℝ) • 1, 0, 1⟩, some (fun w => 1 / 2 * ∑ i, w i * w i, fun w => w, fun _ => 1), none⟩, eePose_HyA,
    Lookup.HyA.C134_HyA_velocity 0 (by decide), by decide, Matrix.isSymm_one, rfl, ⟨by simp, by simp⟩, rfl, fun r hr q => ?_⟩
  obtain rfl := Option.some.inj hr
  exact Matrix.isSymm_one

/-! ### Targets -/

/-- C185: the target set with a position and a quaternion of any length but zero is that position and the rotation the quaternion
stands for; nothing else changes. -/
theorem C185_target_quaternion (g : Geo) (p : Fin 3 → ℝ) (q : FloatSys.Q4) (hq : q ⬝ᵥ q = 1) (c : ℝ) (hc : 0 < c) :
    setTarget g p (c • q) = { g with xRef := p, RRef := FloatSys.quatMatrix q } := by
  have hn : q 0 * q 0 + q 1 * q 1 + q 2 * q 2 + q 3 * q 3 = 1 := by
    rw [← hq]; simp [dotProduct, Fin.sum_univ_four]
  have hs : c * q 0 * (c * q 0) + c * q 1 * (c * q 1) + c * q 2 * (c * q 2) + c * q 3 * (c * q 3) = c ^ 2 := by
    linear_combination c ^ 2 * hn
  have : quatNormalized (c • q) = q := by
    funext i
    fin_cases i <;> simp [quatNormalized, hs, Real.sqrt_sq hc.le, hc.ne']
  simp [setTarget, Geo.setReferencePosition, Geo.setReferenceOrientation, this]

/-- C185: the target set with a position and angles is that position and the rotation about x, y and z by the first column of the
matrix of angles, in this order. -/
theorem C185_target_euler (g : Geo) (p : Fin 3 → ℝ) (m : Matrix (Fin 3) (Fin 3) ℝ) :
    setTargetEuler g p m = { g with xRef := p, RRef := FloatSys.rotXYZ fun i => m i 0 } := by
  set q := FloatSys.quatMul (FloatSys.quatMul (FloatSys.axisQuat (m 0 0) ![1, 0, 0]) (FloatSys.axisQuat (m 1 0) ![0, 1, 0]))
    (FloatSys.axisQuat (m 2 0) ![0, 0, 1]) with hq
  have h1 : q ⬝ᵥ q = 1 := by
    rw [hq, FloatSys.quatMul_norm, FloatSys.quatMul_norm,
      FloatSys.axisQuat_norm _ ![1, 0, 0] (by simp [dotProduct, Fin.sum_univ_three]),
      FloatSys.axisQuat_norm _ ![0, 1, 0] (by simp [dotProduct, Fin.sum_univ_three]),
      FloatSys.axisQuat_norm _ ![0, 0, 1] (by simp [dotProduct, Fin.sum_univ_three])]
    norm_num
  have h2 := C185_target_quaternion g p q h1 1 one_pos
  rw [one_smul] at h2
  have h3 := FloatSys.eulerQuatMatrix_eq fun i => m i 0
  rw [setTargetEuler, ← hq, ← h3]
  exact h2

example : ∃ q : FloatSys.Q4, q ⬝ᵥ q = 1 ∧ q 1 ≠ 0 := ⟨![3 / 5, 4 / 5, 0, 0], by
  simp [dotProduct, Fin.sum_univ_four]; norm_num, by simp⟩

end CT.IkProb
