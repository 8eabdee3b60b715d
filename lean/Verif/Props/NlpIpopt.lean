import Verif.Props.NlpSolver

/-! C164: what IPOPT sees of a problem and hands back. -/

namespace CT.NlpSolver

open CT.Nlp

variable {α D : Type}

/-! ### Specification -/

/-- The point a callback asks about, and whether IPOPT announces it as new. -/
def Query.point : Query α → Option (List α × Bool)
  | .f x new => some (x, new)
  | .gradF x new => some (x, new)
  | .g x new _ => some (x, new)
  | .jacG x new _ => some (x, new)
  | .h x new _ _ => some (x, new)
  | .jacPattern _ => none
  | .hPattern => none

/-- What IPOPT promises: a point is called old only if the callback before that came with a point had the same one. Arrays
have the sizes announced by the adapter. -/
def Protocol (m nnz : Nat) : Option (List α) → List (Query α) → Prop
  | _, [] => True
  | prev, q :: qs =>
    (match q with
      | .g _ _ k => k = m
      | .jacG _ _ k => k = nnz
      | .jacPattern k => k = nnz
      | _ => True) ∧
    match q.point with
    | none => Protocol m nnz prev qs
    | some (x, new) => (new = false → prev = some x) ∧ Protocol m nnz (some x) qs

/-- A problem with `m` constraints and `nnz` entries in the Jacobian: constraints return what they report, and sizes and
patterns do not depend on the variables. -/
structure Prob.Wf (p : Prob α D) (m nnz : Nat) : Prop where
  con : ∀ x d, ∀ c ∈ p.cons x d, c.Wf
  count : ∀ x d, constraintsCount (p.cons x d) = m
  nonZeros : ∀ x d, nonZerosCount (p.cons x d) = nnz
  pattern : ∀ x d x' d', (p.cons x d).map (fun c => (c.size, c.nnz, c.rows, c.cols)) =
    (p.cons x' d').map (fun c => (c.size, c.nnz, c.rows, c.cols))

/-- The constraints of the problem at `x`. -/
def Prob.at (p : Prob α D) (x : List α) : List (Con α) := p.cons x (p.update x)

/-- The right answer to a callback: value, gradient and Hessian at the very point asked about; the values of constraint
`k` at its rows. -/
def Right (p : Prob α D) : Query α → Answer α → Prop
  | .f x _, .value v => v = p.cost x (p.update x)
  | .gradF x _, .vector v => v = p.grad x (p.update x)
  | .h x _ o l, .vector v => v = p.hess x (p.update x) o l
  | .hPattern, .pattern r c => r.zip c = p.hessPattern ∧ r.length = c.length
  | .g x _ m, .vector v => v.length = m ∧ ∀ (k : Nat) (hk : k < (p.at x).length) (i : Nat), i < (p.at x)[k].size →
      v[offset (p.at x) k + i]? = (p.at x)[k].eval[i]?
  | .jacG _ _ nele, .vector v => v.length = nele
  | .jacPattern nele, .pattern r c => r.length = nele ∧ c.length = nele
  | _, _ => False

/-! ### Callbacks -/

/-- Patterns are computed from sizes and patterns of the constraints. -/
theorem patternLoop_congr {cs cs' : List (Con α)}
    (h : cs.map (fun c => (c.size, c.nnz, c.rows, c.cols)) = cs'.map (fun c => (c.size, c.nnz, c.rows, c.cols)))
    (r c : List Nat) (i n : Nat) : patternLoop cs r c i n = patternLoop cs' r c i n := by
  induction cs generalizing cs' r c i n with
  | nil =>
    cases cs' with
    | nil => rfl
    | cons _ _ => simp at h
  | cons k cs ih =>
    cases cs' with
    | nil => simp at h
    | cons k' cs' =>
      simp only [List.map_cons, List.cons.injEq, Prod.mk.injEq] at h
      obtain ⟨⟨h1, h2, h3, h4⟩, ht⟩ := h
      simp only [patternLoop, h1, h2, h3, h4]
      congr 1; funext v
      congr 1; funext w
      exact ih ht _ _ _ _

theorem constraintsCount_congr {cs cs' : List (Con α)}
    (h : cs.map (fun c => (c.size, c.nnz, c.rows, c.cols)) = cs'.map (fun c => (c.size, c.nnz, c.rows, c.cols)))
    (k : Nat) : offset cs k = offset cs' k := by
  have : cs.map Con.size = cs'.map Con.size := by
    have := congrArg (List.map Prod.fst) h
    simpa [List.map_map, Function.comp_def] using this
  simp [offset, List.map_take, this]

/-- The state after a callback that came with the point `x`. -/
theorem extract_eq (p : Prob α D) (s : State α D) (x : List α) (new : Bool) (prev : Option (List α))
    (hp : new = false → prev = some x) (hs : ∀ y, prev = some y → s.vars.x = y ∧ s.data = p.update y) :
    (s.extract p x new).vars.x = x ∧ (s.extract p x new).data = p.update x := by
  cases new with
  | true => simp [State.extract, OptVec.setOptimizationVars]
  | false => simpa [State.extract] using hs x (hp rfl)

/-- The value answers, one by one: everything comes from the point asked about. -/
theorem answer_right [AddCommMonoid α] (p : Prob α D) (m nnz : Nat) (hw : p.Wf m nnz) (s : State α D) (prev : Option (List α))
    (q : Query α) (hs : ∀ y, prev = some y → s.vars.x = y ∧ s.data = p.update y) (hq : Protocol m nnz prev [q]) :
    ∃ s' a, answer p s q = .ok (s', a) ∧ Right p q a ∧
      (∀ y, (q.point.map (·.1)).or prev = some y → s'.vars.x = y ∧ s'.data = p.update y) ∧
      (∀ x new nele, q = .jacG x new nele →
        ∃ v, a = .vector v ∧ evalSparseJacobian (p.at x) (List.replicate nnz 0) = .ok v) ∧
      (∀ nele, q = .jacPattern nele → ∃ r c, a = .pattern r c ∧
        ∀ x d, getSparsityPattern (p.cons x d) (List.replicate nnz 0) (List.replicate nnz 0) = .ok (r, c)) ∧
      s'.vars.xInit = s.vars.xInit ∧ s'.vars.zLow = s.vars.zLow ∧ s'.vars.zUpper = s.vars.zUpper ∧
      s'.vars.lambda = s.vars.lambda ∧ s'.vars.xLb = s.vars.xLb ∧ s'.vars.xUb = s.vars.xUb := by
  have keep : ∀ (x : List α) (new : Bool), (s.extract p x new).vars.xInit = s.vars.xInit ∧
      (s.extract p x new).vars.zLow = s.vars.zLow ∧ (s.extract p x new).vars.zUpper = s.vars.zUpper ∧
      (s.extract p x new).vars.lambda = s.vars.lambda ∧ (s.extract p x new).vars.xLb = s.vars.xLb ∧
      (s.extract p x new).vars.xUb = s.vars.xUb := by
    intro x new
    cases new <;> simp [State.extract, OptVec.setOptimizationVars]
  cases q with
  | f x new =>
    have hx := extract_eq p s x new prev hq.2.1 hs
    refine ⟨_, _, rfl, ?_, ?_, by simp, by simp, keep x new⟩
    · simp [Right, hx.1, hx.2]
    · intro y hy; simp [Query.point] at hy; subst hy; exact hx
  | gradF x new =>
    have hx := extract_eq p s x new prev hq.2.1 hs
    refine ⟨_, _, rfl, ?_, ?_, by simp, by simp, keep x new⟩
    · simp [Right, hx.1, hx.2]
    · intro y hy; simp [Query.point] at hy; subst hy; exact hx
  | h x new o l =>
    have hx := extract_eq p s x new prev hq.2.1 hs
    refine ⟨_, _, rfl, ?_, ?_, by simp, by simp, keep x new⟩
    · simp [Right, hx.1, hx.2]
    · intro y hy; simp [Query.point] at hy; subst hy; exact hx
  | g x new k =>
    have hx := extract_eq p s x new prev hq.2.1 hs
    have hk : k = m := hq.1
    have hcs : (s.extract p x new).cons p = p.at x := by simp [State.cons, Prob.at, hx.1, hx.2]
    obtain ⟨v, l, u, hv, -, hvl, -, -, hval⟩ := C44_values (p.at x) (hw.con _ _) (List.replicate k 0)
      (List.replicate k 0) (List.replicate k 0) (by rw [Prob.at, hw.count]; simp [hk])
      (by rw [Prob.at, hw.count]; simp [hk]) (by rw [Prob.at, hw.count]; simp [hk])
    refine ⟨s.extract p x new, .vector v, ?_, ?_, ?_, by simp, by simp, keep x new⟩
    · simp [answer, hcs, hv, Res.ok_bind, Res.pure_eq]
    · refine ⟨by rw [hvl, Prob.at, hw.count, hk], fun k' hk' i hi => (hval k' hk' i hi).1⟩
    · intro y hy; simp [Query.point] at hy; subst hy; exact hx
  | jacG x new k =>
    have hx := extract_eq p s x new prev hq.2.1 hs
    have hk : k = nnz := hq.1
    have hcs : (s.extract p x new).cons p = p.at x := by simp [State.cons, Prob.at, hx.1, hx.2]
    obtain ⟨v, rs, js, hv, -, hvl, -⟩ := C44_jacobian (p.at x) (hw.con _ _) (List.replicate k 0) (List.replicate k 0)
      (List.replicate k 0) (by rw [Prob.at, hw.nonZeros]; simp [hk]) (by rw [Prob.at, hw.nonZeros]; simp [hk])
      (by rw [Prob.at, hw.nonZeros]; simp [hk])
    refine ⟨s.extract p x new, .vector v, ?_, ?_, ?_, ?_, by simp, keep x new⟩
    · simp [answer, hcs, hv, Res.ok_bind, Res.pure_eq]
    · show v.length = k
      rw [hvl, Prob.at, hw.nonZeros, hk]
    · intro y hy; simp [Query.point] at hy; subst hy; exact hx
    · intro x' new' nele' e
      cases e
      exact ⟨v, rfl, by rw [← hk]; exact hv⟩
  | jacPattern k =>
    have hk : k = nnz := hq.1
    obtain ⟨v, rs, js, -, hp, -, hrl, hjl, -⟩ := C44_jacobian (s.cons p) (hw.con _ _) (List.replicate k 0)
      (List.replicate k 0) (List.replicate k 0) (by rw [State.cons, hw.nonZeros]; simp [hk])
      (by rw [State.cons, hw.nonZeros]; simp [hk]) (by rw [State.cons, hw.nonZeros]; simp [hk])
    refine ⟨s, .pattern rs js, ?_, ?_, ?_, by simp, ?_, rfl, rfl, rfl, rfl, rfl, rfl⟩
    · simp [answer, hp, Res.ok_bind, Res.pure_eq]
    · refine ⟨?_, ?_⟩
      · rw [hrl, State.cons, hw.nonZeros, hk]
      · rw [hjl, State.cons, hw.nonZeros, hk]
    · intro y hy; exact hs y (by simpa [Query.point] using hy)
    · intro nele' e
      refine ⟨rs, js, rfl, fun x d => ?_⟩
      rw [← hk, ← hp]
      exact patternLoop_congr (hw.pattern _ _ _ _) _ _ _ _
  | hPattern =>
    refine ⟨s, _, rfl, ?_, ?_, by simp, by simp, rfl, rfl, rfl, rfl, rfl, rfl⟩
    · refine ⟨?_, by simp⟩
      generalize p.hessPattern = l
      induction l with
      | nil => rfl
      | cons a l ih => simp [ih]
    · intro y hy; exact hs y (by simpa [Query.point] using hy)

theorem protocol_cons {m nnz : Nat} {prev : Option (List α)} {q : Query α} {qs : List (Query α)}
    (h : Protocol m nnz prev (q :: qs)) :
    Protocol m nnz prev [q] ∧ Protocol m nnz ((q.point.map (·.1)).or prev) qs := by
  cases q <;> simp_all [Protocol, Query.point]

/-- The last point IPOPT asked about. -/
def lastPoint (prev : Option (List α)) : List (Query α) → Option (List α)
  | [] => prev
  | q :: qs => lastPoint ((q.point.map (·.1)).or prev) qs

theorem answers_right [AddCommMonoid α] (p : Prob α D) (m nnz : Nat) (hw : p.Wf m nnz) (qs : List (Query α))
    (s : State α D) (prev : Option (List α)) (hs : ∀ y, prev = some y → s.vars.x = y ∧ s.data = p.update y)
    (hq : Protocol m nnz prev qs) :
    ∃ s' as, answers p s qs = .ok (s', as) ∧ List.Forall₂ (Right p) qs as ∧
      (∀ y, lastPoint prev qs = some y → s'.vars.x = y ∧ s'.data = p.update y) ∧
      (∀ (i : Nat) (x : List α) (new : Bool) (nele : Nat) (a : Answer α), qs[i]? = some (.jacG x new nele) →
        as[i]? = some a →
        ∃ v, a = .vector v ∧ evalSparseJacobian (p.at x) (List.replicate nnz 0) = .ok v) ∧
      (∀ (i nele : Nat) (a : Answer α), qs[i]? = some (.jacPattern nele) → as[i]? = some a → ∃ r c, a = .pattern r c ∧
        ∀ x d, getSparsityPattern (p.cons x d) (List.replicate nnz 0) (List.replicate nnz 0) = .ok (r, c)) ∧
      s'.vars.xInit = s.vars.xInit ∧ s'.vars.zLow = s.vars.zLow ∧ s'.vars.zUpper = s.vars.zUpper ∧
      s'.vars.lambda = s.vars.lambda ∧ s'.vars.xLb = s.vars.xLb ∧ s'.vars.xUb = s.vars.xUb := by
  induction qs generalizing s prev with
  | nil => exact ⟨s, [], rfl, .nil, hs, by simp, by simp, rfl, rfl, rfl, rfl, rfl, rfl⟩
  | cons q qs ih =>
    obtain ⟨hq1, hq2⟩ := protocol_cons hq
    obtain ⟨s1, a, h1, hr, hs1, hj, hpat, e1, e2, e3, e4, e5, e6⟩ := answer_right p m nnz hw s prev q hs hq1
    obtain ⟨s', as, h2, hrs, hs', hjs, hps, f1, f2, f3, f4, f5, f6⟩ := ih s1 _ hs1 hq2
    refine ⟨s', a :: as, by simp [answers, h1, h2, Res.ok_bind, Res.pure_eq], .cons hr hrs, hs', ?_, ?_,
      f1.trans e1, f2.trans e2, f3.trans e3, f4.trans e4, f5.trans e5, f6.trans e6⟩
    · intro i x new nele a' hi ha
      cases i with
      | zero =>
        simp only [List.getElem?_cons_zero, Option.some.injEq] at hi ha
        subst ha
        exact hj x new nele hi
      | succ i => exact hjs i x new nele a' (by simpa using hi) (by simpa using ha)
    · intro i nele a' hi ha
      cases i with
      | zero =>
        simp only [List.getElem?_cons_zero, Option.some.injEq] at hi ha
        subst ha
        exact hpat nele hi
      | succ i => exact hps i nele a' (by simpa using hi) (by simpa using ha)

/-- C164, callbacks: whatever state a problem is in and whatever IPOPT asks, as long as it calls points old only if they
are, no callback fails and each of them is answered with the value of the point it asks about. -/
theorem C164_answers [AddCommMonoid α] (p : Prob α D) (m nnz : Nat) (hw : p.Wf m nnz) (s : State α D)
    (qs : List (Query α)) (hq : Protocol m nnz none qs) :
    ∃ s' as, answers p s qs = .ok (s', as) ∧ List.Forall₂ (Right p) qs as := by
  obtain ⟨s', as, h, hr, -⟩ := answers_right p m nnz hw qs s none (by simp) hq
  exact ⟨s', as, h, hr⟩

/-- C164, Jacobian: the sparsity pattern IPOPT was given by any callback and the values it was given by any other, before
or after, stand for the Jacobians of the constraints at the point of the latter, stacked. -/
theorem C164_jacobian [AddCommMonoid α] (p : Prob α D) (m nnz : Nat) (hw : p.Wf m nnz) (s s' : State α D)
    (qs : List (Query α)) (as : List (Answer α)) (hq : Protocol m nnz none qs) (h : answers p s qs = .ok (s', as))
    (i j : Nat) (x : List α) (new : Bool) (nele nele' : Nat) (r c : List Nat) (v : List α)
    (hi : qs[i]? = some (.jacPattern nele)) (hj : qs[j]? = some (.jacG x new nele'))
    (hai : as[i]? = some (.pattern r c)) (haj : as[j]? = some (.vector v)) (k : Nat) (hk : k < (p.at x).length)
    (row col : Nat) (hrow : row < (p.at x)[k].size) :
    dense r c v (offset (p.at x) k + row) col =
      dense (p.at x)[k].rows (p.at x)[k].cols (p.at x)[k].jac row col := by
  obtain ⟨s'', as', h', -, -, hjs, hps, -⟩ := answers_right p m nnz hw qs s none (by simp) hq
  rw [h] at h'
  simp only [Res.ok.injEq, Prod.mk.injEq] at h'
  obtain ⟨-, rfl⟩ := h'
  obtain ⟨v', hv', hv⟩ := hjs j x new nele' _ hj haj
  obtain ⟨r', c', hrc, hpat⟩ := hps i nele _ hi hai
  simp only [Answer.vector.injEq, Answer.pattern.injEq] at hv' hrc
  obtain ⟨rfl, rfl⟩ := hrc
  subst hv'
  obtain ⟨v2, r2, c2, hv2, hp2, -, -, -, hd, -⟩ := C44_jacobian (p.at x) (hw.con _ _) (List.replicate nnz 0)
    (List.replicate nnz 0) (List.replicate nnz 0) (by rw [Prob.at, hw.nonZeros]; simp)
    (by rw [Prob.at, hw.nonZeros]; simp) (by rw [Prob.at, hw.nonZeros]; simp)
  rw [hv] at hv2
  rw [show getSparsityPattern (p.at x) _ _ = _ from hpat x (p.update x)] at hp2
  simp only [Res.ok.injEq, Prod.mk.injEq] at hv2 hp2
  obtain ⟨rfl, rfl⟩ := hp2
  subst hv2
  exact hd k hk row col hrow

/-- C164, problem description: IPOPT is told the number of variables, of constraints and of entries of the Jacobian, and
gets the bounds of the variables and, at the rows of each constraint, the bounds of that constraint. -/
theorem C164_description [AddCommMonoid α] (a : Ipopt) (p : Prob α D) (m nnz : Nat) (hw : p.Wf m nnz) (s : State α D)
    (nnzIn : Nat) (hl : s.vars.xLb.length = s.vars.x.length) (hu : s.vars.xUb.length = s.vars.x.length) :
    (nlpInfo a p s nnzIn).1 = s.vars.x.length ∧ (nlpInfo a p s nnzIn).2.1 = m ∧ (nlpInfo a p s nnzIn).2.2.1 = nnz ∧
    (a.settings.hessianApproximation = "exact" → (nlpInfo a p s nnzIn).2.2.2 = p.hessPattern.length) ∧
    ∃ gl gu, boundsInfo p s s.vars.x.length m = .ok ((s.vars.xLb, s.vars.xUb), (gl, gu)) ∧
      gl.length = m ∧ gu.length = m ∧
      ∀ (k : Nat) (hk : k < (s.cons p).length) (i : Nat), i < (s.cons p)[k].size →
        gl[offset (s.cons p) k + i]? = (s.cons p)[k].lb[i]? ∧ gu[offset (s.cons p) k + i]? = (s.cons p)[k].ub[i]? := by
  have hc : constraintsCount (s.cons p) = m := hw.count _ _
  obtain ⟨v, l, u, -, hb, -, hll, hul, hval⟩ := C44_values (s.cons p) (hw.con _ _) (List.replicate m 0)
    (List.replicate m 0) (List.replicate m 0) (by simp [hc]) (by simp [hc]) (by simp [hc])
  refine ⟨rfl, hc, hw.nonZeros _ _, fun h => by simp [nlpInfo, h], l, u, ?_, hll.trans hc, hul.trans hc,
    fun k hk i hi => (hval k hk i hi).2⟩
  simp [boundsInfo, OptVec.getVariableBounds, copyOut, hl, hu, hb, Res.ok_bind, Res.pure_eq]

/-! ### Solves -/

/-- C164, results: a solve whose callbacks keep to the protocol does not fail; afterwards the problem holds the variables
and multipliers IPOPT found, its bounds and initial guess are untouched, and the value returned is true exactly if IPOPT
reports success or an acceptable point. -/
theorem C164_solve [AddCommMonoid α] (p : Prob α D) (m nnz : Nat) (hw : p.Wf m nnz) (s : State α D)
    (run : IpoptRun α) (hq : Protocol m nnz none run.queries) :
    ∃ s' b, ipoptSolve p s run = .ok (s', b) ∧ s'.vars.x = run.solution.x ∧ s'.vars.zLow = run.solution.zL ∧
      s'.vars.zUpper = run.solution.zU ∧ s'.vars.lambda = run.solution.lambda ∧ s'.vars.xInit = s.vars.xInit ∧
      s'.vars.xLb = s.vars.xLb ∧ s'.vars.xUb = s.vars.xUb ∧
      (b = true ↔ run.status = .solveSucceeded ∨ run.status = .solvedToAcceptableLevel) := by
  obtain ⟨s1, as, h, -, -, -, -, e1, e2, e3, e4, e5, e6⟩ := answers_right p m nnz hw run.queries s none (by simp) hq
  exact ⟨s1.finalize run.solution,
    decide (run.status = .solveSucceeded ∨ run.status = .solvedToAcceptableLevel),
    by simp [ipoptSolve, h, Res.ok_bind, Res.pure_eq], rfl, rfl, rfl, rfl, e1, e5, e6,
    by simp⟩

/-- What happens to a problem between construction and a solve. -/
inductive Act (α : Type) where
  | guess (x : List α)
  | bounds (lb ub : List α)
  | zero
  | solve (run : IpoptRun α)

/-- The effect of one action. -/
def State.act [Zero α] (p : Prob α D) (s : State α D) : Act α → Res (State α D)
  | .guess x => .ok { s with vars := s.vars.setInitialGuess x }
  | .bounds lb ub => .ok { s with vars := s.vars.setBounds lb ub }
  | .zero => .ok { s with vars := s.vars.setZero }
  | .solve run => do
    let (s, _) ← ipoptSolve p s run
    pure s

/-- A history of actions. -/
def State.acts [Zero α] (p : Prob α D) (s : State α D) : List (Act α) → Res (State α D)
  | [] => .ok s
  | a :: as => do
    let s ← s.act p a
    s.acts p as

/-- Vectors have the sizes of the problem, solves keep to the protocol. -/
def Act.Ok (n m nnz : Nat) : Act α → Prop
  | .guess x => x.length = n
  | .bounds lb ub => lb.length = n ∧ ub.length = n
  | .zero => True
  | .solve run => Protocol m nnz none run.queries ∧ run.solution.x.length = n ∧ run.solution.zL.length = n ∧
      run.solution.zU.length = n ∧ run.solution.lambda.length = m

/-- The guess given last. -/
def lastGuess [Zero α] (n : Nat) : Option (List α) → List (Act α) → Option (List α)
  | g, [] => g
  | _, .guess x :: h => lastGuess n (some x) h
  | _, .zero :: h => lastGuess n (some (List.replicate n 0)) h
  | g, _ :: h => lastGuess n g h

/-- The multipliers of the last solve, zero before. -/
def lastMult [Zero α] (n : Nat) : List α × List α → List (Act α) → List α × List α
  | z, [] => z
  | _, .solve run :: h => lastMult n (run.solution.zL, run.solution.zU) h
  | _, .zero :: h => lastMult n (List.replicate n 0, List.replicate n 0) h
  | z, _ :: h => lastMult n z h

/-- The constraint multipliers of the last solve, none before. -/
def lastLambda [Zero α] (m : Nat) : Option (List α) → List (Act α) → Option (List α)
  | l, [] => l
  | _, .solve run :: h => lastLambda m (some run.solution.lambda) h
  | l, .zero :: h => lastLambda m (l.map fun _ => List.replicate m 0) h
  | l, _ :: h => lastLambda m l h

/-- The bounds set last. -/
def lastBounds : List α × List α → List (Act α) → List α × List α
  | b, [] => b
  | _, .bounds lb ub :: h => lastBounds (lb, ub) h
  | b, _ :: h => lastBounds b h

theorem acts_inv [AddCommMonoid α] (p : Prob α D) (n m nnz : Nat) (hw : p.Wf m nnz) (h : List (Act α))
    (hok : ∀ a ∈ h, a.Ok n m nnz) (s : State α D) (g l : Option (List α)) (z b : List α × List α)
    (hx : s.vars.x.length = n) (hg : s.vars.xInit = g) (hgl : ∀ x, g = some x → x.length = n)
    (hz : (s.vars.zLow, s.vars.zUpper) = z) (hzl : z.1.length = n ∧ z.2.length = n)
    (hl : s.vars.lambda = l.getD []) (hll : ∀ x, l = some x → x.length = m)
    (hb : (s.vars.xLb, s.vars.xUb) = b) (hbl : b.1.length = n ∧ b.2.length = n) :
    ∃ s', s.acts p h = .ok s' ∧ s'.vars.x.length = n ∧ s'.vars.xInit = lastGuess n g h ∧
      (∀ x, lastGuess n g h = some x → x.length = n) ∧
      (s'.vars.zLow, s'.vars.zUpper) = lastMult n z h ∧
      ((lastMult n z h).1.length = n ∧ (lastMult n z h).2.length = n) ∧
      s'.vars.lambda = (lastLambda m l h).getD [] ∧ (∀ x, lastLambda m l h = some x → x.length = m) ∧
      (s'.vars.xLb, s'.vars.xUb) = lastBounds b h ∧
      ((lastBounds b h).1.length = n ∧ (lastBounds b h).2.length = n) := by
  induction h generalizing s g l z b with
  | nil => exact ⟨s, rfl, hx, hg, hgl, hz, hzl, hl, hll, hb, hbl⟩
  | cons a h ih =>
    have hok' : ∀ a ∈ h, a.Ok n m nnz := fun a ha => hok a (by simp [ha])
    have ha : a.Ok n m nnz := hok a (by simp)
    have hz' := Prod.mk.inj (hz.trans (Prod.mk.eta (p := z)).symm)
    have hb' := Prod.mk.inj (hb.trans (Prod.mk.eta (p := b)).symm)
    cases a with
    | guess x =>
      exact ih hok' { s with vars := s.vars.setInitialGuess x } (some x) l z b ha rfl
        (fun y hy => by cases hy; exact ha) hz hzl hl hll hb hbl
    | bounds lb ub =>
      exact ih hok' { s with vars := s.vars.setBounds lb ub } g l z (lb, ub) hx hg hgl hz hzl hl hll rfl ha
    | zero =>
      refine ih hok' { s with vars := s.vars.setZero } (some (List.replicate n 0))
        (l.map fun _ => List.replicate m 0) (List.replicate n 0, List.replicate n 0) b ?_ ?_ ?_ ?_ ?_ ?_ ?_ hb hbl
      · simp [OptVec.setZero, hx]
      · simp [OptVec.setZero, hx]
      · intro x e; cases e; simp
      · simp [OptVec.setZero, hz'.1, hz'.2, hzl.1, hzl.2]
      · simp
      · cases l with
        | none => simp [OptVec.setZero, hl]
        | some y => simp [OptVec.setZero, hl, hll y rfl]
      · intro x e
        cases l with
        | none => simp at e
        | some y => simp at e; subst e; simp
    | solve run =>
      obtain ⟨hq, h1, h2, h3, h4⟩ := ha
      obtain ⟨s1, b1, hs1, e1, e2, e3, e4, e5, e6, e7, -⟩ := C164_solve p m nnz hw s run hq
      obtain ⟨s', hs', hrest⟩ := ih hok' s1 g (some run.solution.lambda) (run.solution.zL, run.solution.zU) b
        (by rw [e1, h1]) (e5.trans hg) hgl (by rw [e2, e3]) ⟨h2, h3⟩ (by simp [e4])
        (fun x e => by cases e; exact h4) (by rw [e6, e7]; exact hb) hbl
      refine ⟨s', ?_, hrest⟩
      simp [State.acts, State.act, hs1, Res.ok_bind, Res.pure_eq, hs']

/-- C164, starting point: after every history of guesses, bounds, resets and solves on a problem, IPOPT is started at the
guess given last, with the bound multipliers of the last solve and the bounds set last. Missing from the full property,
that a solve continues where the last one ended: `C164_warm_start_violated`, `C164_lambda_violated`,
`C164_guess_violated`. -/
theorem C164_start_partial [AddCommMonoid α] (p : Prob α D) (n m nnz : Nat) (hw : p.Wf m nnz) (lowest max : α) (d : D)
    (h : List (Act α)) (hok : ∀ a ∈ h, a.Ok n m nnz) (g : List α) (hg : lastGuess n none h = some g) :
    ∃ s, State.acts p { vars := OptVec.new lowest max n, data := d } h = .ok s ∧
      startingPoint s n m true true false =
        .ok (some g, some (lastMult n (List.replicate n 0, List.replicate n 0) h), none) ∧
      (∀ l, lastLambda m none h = some l → startingPoint s n m true true true =
        .ok (some g, some (lastMult n (List.replicate n 0, List.replicate n 0) h), some l)) ∧
      s.vars.getVariableBounds n =
        .ok (lastBounds (List.replicate n lowest, List.replicate n max) h) := by
  obtain ⟨s, hs, -, h1, h2, h3, h4, h5, h6, h7, h8⟩ := acts_inv p n m nnz hw h hok
    { vars := OptVec.new lowest max n, data := d } none none (List.replicate n 0, List.replicate n 0)
    (List.replicate n lowest, List.replicate n max) (by simp [OptVec.new]) rfl (by simp) rfl (by simp) rfl (by simp) rfl
    (by simp)
  have e1 := congrArg Prod.fst h3
  have e2 := congrArg Prod.snd h3
  have f1 := congrArg Prod.fst h7
  have f2 := congrArg Prod.snd h7
  simp only at e1 e2 f1 f2
  have hx : s.vars.getInitialGuess n = .ok g := by
    simp [OptVec.getInitialGuess, h1, hg, copyOut, h2 g hg]
  have hz : s.vars.getBoundMultipliers n = .ok (lastMult n (List.replicate n 0, List.replicate n 0) h) := by
    simp [OptVec.getBoundMultipliers, copyOut, e1, e2, h4.1, h4.2, Res.ok_bind, Res.pure_eq]
  refine ⟨s, hs, ?_, fun l hl => ?_, ?_⟩
  · simp [startingPoint, hx, hz, Res.ok_bind, Res.pure_eq]
  · have : s.vars.getLambdaVars m = .ok l := by
      simp [OptVec.getLambdaVars, copyOut, h5, hl, h6 l hl]
    simp [startingPoint, hx, hz, this, Res.ok_bind, Res.pure_eq]
  · simp [OptVec.getVariableBounds, copyOut, f1, f2, h8.1, h8.2, Res.ok_bind, Res.pure_eq]

/-- C164 fails for warm starts: whatever a solve found, the next one starts at the guess that solve had started at, but
with the multipliers of the solution, unless the user passes the solution as a new guess. -/
theorem C164_warm_start_violated [AddCommMonoid α] (p : Prob α D) (n m nnz : Nat) (hw : p.Wf m nnz) (s : State α D)
    (g : List α) (hg : s.vars.xInit = some g) (hgl : g.length = n) (run : IpoptRun α)
    (hok : (Act.solve run).Ok n m nnz) :
    ∃ s' b, ipoptSolve p s run = .ok (s', b) ∧ s'.vars.x = run.solution.x ∧
      startingPoint s' n m true true true =
        .ok (some g, some (run.solution.zL, run.solution.zU), some run.solution.lambda) := by
  obtain ⟨hq, h1, h2, h3, h4⟩ := hok
  obtain ⟨s1, b1, hs1, e1, e2, e3, e4, e5, -⟩ := C164_solve p m nnz hw s run hq
  refine ⟨s1, b1, hs1, e1, ?_⟩
  simp [startingPoint, OptVec.getInitialGuess, OptVec.getBoundMultipliers, OptVec.getLambdaVars, copyOut, e2, e3, e4,
    e5, hg, hgl, h2, h3, h4, Res.ok_bind, Res.pure_eq]

/-- C164 fails for multipliers before the first solve: they are never given a size, so that a warm start of a problem with
constraints reads outside of them. -/
theorem C164_lambda_violated [AddCommMonoid α] (p : Prob α D) (n m nnz : Nat) (hw : p.Wf m nnz) (lowest max : α) (d : D)
    (h : List (Act α)) (hok : ∀ a ∈ h, a.Ok n m nnz) (hns : ∀ run, Act.solve run ∉ h) (hm : m ≠ 0) (initX initZ : Bool)
    (hgz : initX = true → ∃ g, lastGuess n none h = some g) :
    ∃ s, State.acts p { vars := OptVec.new lowest max n, data := d } h = .ok s ∧
      startingPoint s n m initX initZ true = .ub := by
  obtain ⟨s, hs, -, h1, h2, h3, h4, h5, h6, h7, h8⟩ := acts_inv p n m nnz hw h hok
    { vars := OptVec.new lowest max n, data := d } none none (List.replicate n 0, List.replicate n 0)
    (List.replicate n lowest, List.replicate n max) (by simp [OptVec.new]) rfl (by simp) rfl (by simp) rfl (by simp) rfl
    (by simp)
  have hl : lastLambda m (none : Option (List α)) h = none := by
    clear hok h1 h2 h3 h4 h5 h6 h7 h8 hs hgz
    induction h with
    | nil => rfl
    | cons a h ih =>
      have := ih fun run hr => hns run (by simp [hr])
      cases a with
      | guess x => exact this
      | bounds lb ub => exact this
      | zero => exact this
      | solve run => exact absurd (by simp) (hns run)
  have e1 := congrArg Prod.fst h3
  have e2 := congrArg Prod.snd h3
  simp only at e1 e2
  have hlv : s.vars.getLambdaVars m = .ub := by
    have : ¬ (0 = m) := fun e => hm e.symm
    simp [OptVec.getLambdaVars, copyOut, h5, hl, this]
  have hz : s.vars.getBoundMultipliers n = .ok (lastMult n (List.replicate n 0, List.replicate n 0) h) := by
    simp [OptVec.getBoundMultipliers, copyOut, e1, e2, h4.1, h4.2, Res.ok_bind, Res.pure_eq]
  refine ⟨s, hs, ?_⟩
  cases initX with
  | true =>
    obtain ⟨g, hg⟩ := hgz rfl
    have hx : s.vars.getInitialGuess n = .ok g := by simp [OptVec.getInitialGuess, h1, hg, copyOut, h2 g hg]
    cases initZ <;> simp [startingPoint, hx, hz, hlv, Res.ok_bind, Res.pure_eq]
  | false => cases initZ <;> simp [startingPoint, hz, hlv, Res.ok_bind, Res.pure_eq]

/-- C164 fails for problems without a guess: the starting point is memory that was never written. -/
theorem C164_guess_violated [Zero α] (n m : Nat) (lowest max : α) (d : D) (initZ initLambda : Bool) :
    startingPoint ({ vars := OptVec.new lowest max n, data := d } : State α D) n m true initZ initLambda = .ub := rfl

/-- C164, prepared data: if the last point IPOPT asked about is the one it returns, everything the problem computed from
its variables in advance (splines, integrated shots) belongs to the solution. Missing: `C164_prepared_violated`. -/
theorem C164_prepared_partial [AddCommMonoid α] (p : Prob α D) (m nnz : Nat) (hw : p.Wf m nnz) (s : State α D)
    (run : IpoptRun α) (hq : Protocol m nnz none run.queries)
    (hlast : lastPoint none run.queries = some run.solution.x) :
    ∃ s' b, ipoptSolve p s run = .ok (s', b) ∧ s'.vars.x = run.solution.x ∧ s'.data = p.update s'.vars.x := by
  obtain ⟨s1, as, h, -, hd, -⟩ := answers_right p m nnz hw run.queries s none (by simp) hq
  exact ⟨s1.finalize run.solution,
    decide (run.status = .solveSucceeded ∨ run.status = .solvedToAcceptableLevel),
    by simp [ipoptSolve, h, Res.ok_bind, Res.pure_eq], rfl,
    by simpa [State.finalize] using (hd _ hlast).2⟩

/-! ### Example: minimise `x` subject to `0 ≤ x² ≤ 9`, where `x²` is prepared in advance -/

/-- The example problem. -/
def exProb : Prob Int Int where
  update x := x.headD 0 * x.headD 0
  cost x _ := x.headD 0
  grad _ _ := [1]
  cons x d := [{ eval := [d], jac := [2 * x.headD 0], size := 1, nnz := 1, rows := [0], cols := [0], lb := [0], ub := [9] }]
  hess _ _ _ lambda := [2 * lambda.headD 0]
  hessPattern := [(0, 0)]

theorem exProb_wf : exProb.Wf 1 1 where
  con := by
    intro x d c hc
    simp [exProb] at hc
    subst hc
    exact ⟨rfl, rfl, rfl, rfl, rfl, rfl, by simp⟩
  count _ _ := rfl
  nonZeros _ _ := rfl
  pattern _ _ _ _ := rfl

/-- A run of a solver: pattern, values at 2 and at 1, solution 1. -/
def exRun : IpoptRun Int where
  queries := [.jacPattern 1, .f [2] true, .g [2] false 1, .jacG [2] false 1, .hPattern, .g [1] true 1, .f [1] false]
  solution := { x := [1], zL := [0], zU := [0], lambda := [5] }
  status := .solveSucceeded

theorem exRun_protocol : Protocol 1 1 none exRun.queries := by simp [exRun, Protocol, Query.point]

example : (Act.solve exRun).Ok 1 1 1 ∧ lastPoint none exRun.queries = some exRun.solution.x ∧
    (∀ a ∈ [Act.guess [3], .solve exRun], a.Ok 1 1 1) ∧
    lastGuess 1 none [Act.guess [3], .solve exRun] = some [3] ∧
    (∀ a ∈ [Act.guess [3], Act.zero], a.Ok 1 1 1) ∧ (∀ run, Act.solve run ∉ [Act.guess [(3 : Int)], Act.zero]) := by
  refine ⟨⟨exRun_protocol, rfl, rfl, rfl, rfl⟩, rfl, ?_, rfl, ?_, ?_⟩
  · intro a ha
    simp at ha
    rcases ha with rfl | rfl
    · rfl
    · exact ⟨exRun_protocol, rfl, rfl, rfl, rfl⟩
  · intro a ha
    simp at ha
    rcases ha with rfl | rfl
    · rfl
    · trivial
  · intro run; simp

/-- The answers in the example. -/
example : ∃ s', answers exProb { vars := OptVec.new (-100) 100 1, data := 7 } exRun.queries =
    .ok (s', [.pattern [0] [0], .value 2, .vector [4], .vector [4], .pattern [0] [0], .vector [1], .value 1]) :=
  ⟨_, rfl⟩

example : exRun.queries[0]? = some (.jacPattern 1) ∧ exRun.queries[3]? = some (.jacG [2] false 1) ∧
    0 < (exProb.at [2]).length := ⟨rfl, rfl, by decide⟩

/-- C164 fails for data prepared from the variables: if IPOPT returns another point than the one it asked about last, the
problem holds the solution together with data of that other point, and evaluates its constraints with them. -/
theorem C164_prepared_violated :
    ∃ (p : Prob Int Int) (s s' : State Int Int) (run : IpoptRun Int) (b : Bool), p.Wf 1 1 ∧
      Protocol 1 1 none run.queries ∧ run.status = .solveSucceeded ∧ ipoptSolve p s run = .ok (s', b) ∧ b = true ∧
      s'.vars.x = run.solution.x ∧ s'.data ≠ p.update s'.vars.x ∧
      (s'.cons p).map Con.eval ≠ (p.at s'.vars.x).map Con.eval :=
  ⟨exProb, { vars := OptVec.new (-100) 100 1, data := 7 }, _,
    { exRun with queries := exRun.queries ++ [.f [3] true] }, true, exProb_wf,
    by simp [exRun, Protocol, Query.point], rfl, rfl, rfl, rfl, by decide +kernel, by decide +kernel⟩

end CT.NlpSolver
