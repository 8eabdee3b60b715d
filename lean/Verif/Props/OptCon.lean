import Verif.Model.OptCon

/-!
# Optimal control problems and the solvers that use them (C154-C156)
-/

namespace CT.OptCon

variable {T X S L C K : Type}

/-! ### C154: the problem -/

/-- The value given last by setters picked out by `f`, otherwise `a`. -/
def lastGiven {α β : Type} (f : α → Option β) (ops : List α) (a : β) : β := (ops.filterMap f).getLast?.getD a

theorem lastGiven_cons {α β : Type} (f : α → Option β) (op : α) (ops : List α) (a : β) :
    lastGiven f (op :: ops) a = lastGiven f ops ((f op).getD a) := by
  unfold lastGiven
  cases h : f op with
  | none => simp [h]
  | some b =>
    simp only [List.filterMap_cons, h, Option.getD_some]
    cases hl : ops.filterMap f with
    | nil => simp
    | cons c l => simp [List.getLast?_cons]

/-- The user's objects and the problem after a history of setters. -/
def setters (q : Store S L C K × Problem T X) (ops : List (POp T X)) : (Store S L C K × Problem T X) × Out :=
  runOps (fun q o => let r := o.step q.1 q.2; ((r.1, r.2.1), r.2.2)) q ops

theorem setters_cons (q : Store S L C K × Problem T X) (o : POp T X) (ops : List (POp T X)) (r : Store S L C K × Problem T X)
    (h : setters q (o :: ops) = (r, .done)) :
    ∃ w p, o.step q.1 q.2 = (w, p, .done) ∧ setters (w, p) ops = (r, .done) := by
  unfold setters runOps at h
  rcases ho : o.step q.1 q.2 with ⟨w, p, out⟩
  rw [ho] at h
  cases out with
  | done => exact ⟨w, p, rfl, h⟩
  | ub => exact absurd (congrArg Prod.snd h) (by simp)
  | threw => cases o <;> simp only [POp.step] at ho <;> (try cases ho) <;> (split at ho <;> cases ho)

/-- C154: after any history of setters, each part of the problem is the one given last, or the one it had
before. -/
theorem C154_parts (w : Store S L C K) (p : Problem T X) (ops : List (POp T X)) (w' : Store S L C K) (p' : Problem T X)
    (h : setters (w, p) ops = ((w', p'), .done)) :
    p'.sys = lastGiven (fun | .sys q => some q | _ => none) ops p.sys ∧
    p'.lin = lastGiven (fun | .lin q => some (q.map .obj) | _ => none) ops p.lin ∧
    p'.cost = lastGiven (fun | .cost q => some q | _ => none) ops p.cost ∧
    p'.inBox = lastGiven (fun | .inBox q => some q | _ => none) ops p.inBox ∧
    p'.stBox = lastGiven (fun | .stBox q => some q | _ => none) ops p.stBox ∧
    p'.gen = lastGiven (fun | .gen q => some q | _ => none) ops p.gen ∧
    p'.x0 = lastGiven (fun | .state x => some (some x) | _ => none) ops p.x0 ∧
    p'.tf = lastGiven (fun | .horizon t => some (some t) | _ => none) ops p.tf := by
  induction ops generalizing w p with
  | nil =>
    simp only [setters, runOps] at h
    cases h
    simp [lastGiven]
  | cons o ops ih =>
    obtain ⟨w1, p1, h1, h2⟩ := setters_cons _ _ _ _ h
    have := ih w1 p1 h2
    simp only [lastGiven_cons]
    cases o <;> simp only [POp.step] at h1 <;> (try (split at h1)) <;> cases h1 <;> simpa using this

example : (setters (T := ℚ) (X := ℚ) (S := ℕ) (L := ℕ) (C := ℕ) (K := ℕ) (⟨id, id, id, fun i => (i, false)⟩, .empty)
    [.sys (some 1), .cost (some 2), .inBox (some 3), .sys (some 4), .horizon 5]).2 = .done := by decide +kernel

/-- C154: a problem made by a constructor with arguments is accepted by `verify`, after any history of setters, exactly
when it has a system, a linearisation, a cost function and a horizon that is not negative; otherwise `verify`
throws. -/
theorem C154_verify [Zero T] [LinearOrder T] [Zero X] (w : Store S L C K) (start : Option (T × X))
    (sys cost inBox stBox gen lin : Option ℕ) (p : Problem T X)
    (hp : Problem.construct start sys cost inBox stBox gen lin = (p, .done)) (ops : List (POp T X)) (w' : Store S L C K)
    (p' : Problem T X) (h : setters (w, p) ops = ((w', p'), .done)) :
    (p'.verify = .done ↔ (∃ s, p'.sys = some s) ∧ (∃ l, p'.lin = some l) ∧ (∃ c, p'.cost = some c) ∧
      ∃ t, p'.tf = some t ∧ 0 ≤ t) ∧ (p'.verify ≠ .done → p'.verify = .threw) := by
  have ht : ∃ t, p'.tf = some t := by
    have h0 : ∃ t, p.tf = some t := by
      rcases start with _ | ⟨t, x⟩ <;> rcases lin with _ | l <;> rcases sys with _ | s <;>
        simp only [Problem.construct, Problem.simple] at hp <;> cases hp <;> exact ⟨_, rfl⟩
    clear hp
    induction ops generalizing w p with
    | nil => simp only [setters, runOps] at h; cases h; exact h0
    | cons o ops ih =>
      obtain ⟨w1, p1, h1, h2⟩ := setters_cons _ _ _ _ h
      refine ih w1 p1 h2 ?_
      cases o <;> simp only [POp.step] at h1 <;> (try (split at h1)) <;> cases h1 <;> first | exact h0 | exact ⟨_, rfl⟩
  obtain ⟨t, ht⟩ := ht
  unfold Problem.verify
  rw [ht]
  cases p'.sys <;> cases p'.lin <;> cases p'.cost <;> by_cases h0 : t < 0 <;> simp [h0, not_le, le_of_not_gt]

example : (Problem.construct (T := ℚ) (X := ℚ) none (some 0) (some 0) none none none none).2 = .done := by decide +kernel

/-- C154: a constraint container given by a setter is initialised from then on, its contents and all other containers and
objects are as before. -/
theorem C154_initialised (w : Store S L C K) (p : Problem T X) (i : ℕ) (o : POp T X)
    (ho : o = .inBox (some i) ∨ o = .stBox (some i) ∨ o = .gen (some i)) :
    (o.step w p).2.2 = .done ∧ ((o.step w p).1.con i) = ((w.con i).1, true) ∧
      (∀ j, j ≠ i → (o.step w p).1.con j = w.con j) ∧
      (o.step w p).1.sys = w.sys ∧ (o.step w p).1.lin = w.lin ∧ (o.step w p).1.cost = w.cost := by
  rcases ho with rfl | rfl | rfl <;> simp +contextual [POp.step, Store.initCon]

/-- C154, default linearisation: a problem made without a linearisation linearises the system it was made with, as it is
when the linearisation is used, as long as neither is replaced. Missing: systems replaced by
`setNonlinearSystem`, see `C154_linearisation_violated`. -/
theorem C154_linearisation_partial [Zero T] [Zero X] (w : Store S L C K) (start : Option (T × X)) (s : ℕ)
    (cost inBox stBox gen : Option ℕ) (ops : List (POp T X)) (hs : ∀ q, POp.sys q ∉ ops) (hl : ∀ q, POp.lin q ∉ ops)
    (w' : Store S L C K) (p' : Problem T X)
    (h : setters (w, (Problem.construct start (some s) cost inBox stBox gen none).1) ops = ((w', p'), .done)) :
    ∃ l, p'.lin = some l ∧ p'.sys = some s ∧ ∀ v : Store S L C K, v.copyLin l = .numeric (v.sys s) := by
  have h0 := C154_parts _ _ _ _ _ h
  obtain ⟨e1, e2, -⟩ := h0
  have f1 : (ops.filterMap (fun | .sys q => some q | _ => none : POp T X → Option (Option ℕ))) = [] := by
    rw [List.filterMap_eq_nil_iff]
    intro o ho
    cases o <;> first | rfl | exact absurd ho (hs _)
  have f2 : (ops.filterMap (fun | .lin q => some (q.map LinPtr.obj) | _ => none : POp T X → Option (Option LinPtr))) = [] := by
    rw [List.filterMap_eq_nil_iff]
    intro o ho
    cases o <;> first | rfl | exact absurd ho (hl _)
  rw [lastGiven, f1] at e1
  rw [lastGiven, f2] at e2
  refine ⟨.numeric s, ?_, ?_, fun v => rfl⟩
  · rw [e2]; rcases start with _ | ⟨t, x⟩ <;> rfl
  · rw [e1]; rcases start with _ | ⟨t, x⟩ <;> rfl

/-- C154 is violated by `setNonlinearSystem`: the default linearisation remains that of the system before, which need
not have the same contents, and `verify` accepts the problem. -/
theorem C154_linearisation_violated [Zero T] [LinearOrder T] [Zero X] (w : Store S L C K) (s s' c : ℕ)
    (hne : w.sys s ≠ w.sys s') :
    ∃ p, setters (w, (Problem.construct (T := T) (X := X) none (some s) (some c) none none none none).1) [.sys (some s')]
        = ((w, p), .done) ∧ p.verify = .done ∧ p.sys = some s' ∧
      ∃ l, p.lin = some l ∧ w.copyLin l = .numeric (w.sys s) ∧ w.copyLin l ≠ .numeric (w.sys s') := by
  refine ⟨⟨some 0, some 0, some s', some c, some (.numeric s), none, none, none⟩, rfl, by simp [Problem.verify], rfl,
    .numeric s, rfl, rfl, ?_⟩
  simpa [Store.copyLin] using hne

example : ∃ w : Store ℕ ℕ ℕ ℕ, w.sys 0 ≠ w.sys 1 := ⟨⟨id, id, id, fun i => (i, false)⟩, by decide⟩

/-- C154 is violated by the constructors with constraints: containers given to them stay uninitialised, in contrast
to the setters, and `verify` accepts the problem. -/
theorem C154_uninitialised_violated [Zero T] [LinearOrder T] [Zero X] (w : Store S L C K) (s c k : ℕ)
    (hk : (w.con k).2 = false) :
    ∃ p : Problem T X, Problem.construct none (some s) (some c) (some k) none none none = (p, .done) ∧
      p.verify = .done ∧ p.inBox = some k ∧ (w.con k).2 = false ∧ (((POp.inBox (some k)).step w p).1.con k).2 = true := by
  refine ⟨⟨some 0, some 0, some s, some c, some (.numeric s), some k, none, none⟩, rfl, by simp [Problem.verify], rfl, hk, ?_⟩
  simp [POp.step, Store.initCon]

/-- C154 is violated by the default constructor: when all objects are set but the horizon is not, `verify` reads an
indeterminate value. -/
theorem C154_default_violated [Zero T] [LinearOrder T] (w : Store S L C K) (s l c : ℕ) (x : X) :
    ∃ p : Problem T X, setters (w, .empty) [.sys (some s), .lin (some l), .cost (some c), .state x] = ((w, p), .done) ∧
      p.verify = .ub :=
  ⟨⟨none, some x, some s, some c, some (.obj l), none, none, none⟩, rfl, rfl⟩

/-- C154 is violated by null pointers: a problem made without system and linearisation dereferences the null pointer,
although `verify` and the constructor of the linearisation check for it; so do the setters of constraints. -/
theorem C154_null_violated [Zero T] [Zero X] (w : Store S L C K) (p : Problem T X) (start : Option (T × X))
    (cost inBox stBox gen : Option ℕ) :
    (Problem.construct start none cost inBox stBox gen none).2 = .ub ∧
      ((POp.inBox none).step w p).2.2 = .ub ∧ ((POp.stBox none).step w p).2.2 = .ub ∧ ((POp.gen none).step w p).2.2 = .ub := by
  refine ⟨?_, rfl, rfl, rfl⟩
  rcases start with _ | ⟨t, x⟩ <;> rfl

/-! ### Specification of C155 and C156 -/

/-- What a solver is to work with: the contents of the objects at the time they were handed over. -/
structure Parts (T X S L C K : Type) where
  tf : T
  x0 : X
  sys : S
  lin : LinVal S L
  cost : C
  inBox : Option (K × Bool)
  stBox : Option (K × Bool)
  gen : Option (K × Bool)
deriving DecidableEq, Repr

/-- The contents of a complete problem. -/
def contents (w : Store S L C K) (p : Problem T X) : Option (Parts T X S L C K) :=
  match p.tf, p.x0, p.sys, p.lin, p.cost with
  | some tf, some x0, some s, some l, some c =>
    some ⟨tf, x0, w.sys s, w.copyLin l, w.cost c, p.inBox.map w.con, p.stBox.map w.con, p.gen.map w.con⟩
  | _, _, _, _, _ => none

/-- What was handed over to the solver after one more call; negative horizons, null pointers and problems that are not
complete are refused. The user's objects and the problem change as they do. -/
def hand [Zero T] [LinearOrder T] (g : State T X S L C K (Parts T X S L C K)) (op : Op T X S L C K) :
    State T X S L C K (Parts T X S L C K) :=
  let put := fun (r : Option (Parts T X S L C K)) => { g with solver := r.getD g.solver }
  match op with
  | .problem o => let r := o.step g.store g.prob; ⟨r.1, r.2.1, g.solver⟩
  | .setProblem => put ((contents g.store g.prob).bind fun q => if q.tf < 0 then none else some q)
  | .horizon tf => put (if tf < 0 then none else some { g.solver with tf := tf })
  | .state x => put (some { g.solver with x0 := x })
  | .cost p => put (p.map fun i => { g.solver with cost := g.store.cost i })
  | .sys p => put (p.map fun i => { g.solver with sys := g.store.sys i })
  | .lin p => put (p.map fun i => { g.solver with lin := .user (g.store.lin i) })
  | .inBox p | .backendInBox p => put (p.map fun i => { g.solver with inBox := some (g.store.con i) })
  | .stBox p | .backendStBox p => put (p.map fun i => { g.solver with stBox := some (g.store.con i) })
  | .gen p | .backendGen p => put (p.map fun i => { g.solver with gen := some (g.store.con i) })
  | op => { g with store := op.edit g.store }

/-- Histories covered by `C155_handed_partial`: constraints are changed through the backend only, and whole problems are
set when neither the problem nor the solver has constraints. -/
def Fine [Zero T] [LinearOrder T] : State T X S L C K (Parts T X S L C K) → List (Op T X S L C K) → Prop
  | _, [] => True
  | g, op :: ops =>
    (match op with
      | .setProblem => (g.prob.inBox = none ∧ g.prob.stBox = none ∧ g.prob.gen = none) ∧
          (g.solver.inBox = none ∧ g.solver.stBox = none ∧ g.solver.gen = none)
      | .inBox _ | .stBox _ | .gen _ => False
      | _ => True) ∧ Fine (hand g op) ops

/-- The solver works with these parts, in every thread. -/
def Nloc.Uses (steps : T → ℕ) (n : ℕ) (s : Nloc X S L C K) (q : Parts T X S L C K) : Prop :=
  s.nThreads = n ∧ s.stages = steps q.tf ∧ s.x0 = q.x0 ∧ s.sys = List.replicate (n + 1) q.sys ∧
    s.lin = List.replicate (n + 1) q.lin ∧ s.cost = List.replicate (n + 1) q.cost ∧
    s.inBox = List.replicate (n + 1) q.inBox ∧ s.stBox = List.replicate (n + 1) q.stBox ∧
    s.gen = List.replicate (n + 1) q.gen

/-! ### Loops that fill a vector -/

theorem set_range {α : Type} (a : α) (k : ℕ) : ∀ (v : List α), k ≤ v.length →
    (List.range k).foldl (fun v i => v.set i a) v = List.replicate k a ++ v.drop k := by
  induction k with
  | zero => intro v _; simp
  | succ k ih =>
    intro v hk
    rw [List.range_succ, List.foldl_append, ih v (by omega)]
    simp only [List.foldl_cons, List.foldl_nil]
    rw [List.set_append_right _ _ (by simp), List.length_replicate, Nat.sub_self,
      List.drop_eq_getElem_cons (show k < v.length by omega), List.set_cons_zero, List.replicate_succ', List.append_assoc]
    rfl

theorem fill_eq {α : Type} (v : List α) (n : ℕ) (a : α) : fill v n a = List.replicate n a := by
  have hl : (v.take n ++ List.replicate (n - v.length) a).length = n := by simp; omega
  rw [fill, set_range _ _ _ (by omega), List.drop_eq_nil_of_le (by omega), List.append_nil]

theorem fillAt_eq {α : Type} (b : α) (n : ℕ) (a : α) : fillAt (List.replicate n b) n a = (List.replicate n a, .done) := by
  rw [fillAt, if_pos (by simp), set_range _ _ _ (by simp), List.drop_eq_nil_of_le (by simp), List.append_nil]

theorem andThen_done {σ : Type} (s : σ) (f : σ → σ × Out) : andThen (s, .done) f = f s := rfl

/-! ### C155: the solver of the shooting methods -/

/-- C155, construction: a solver made from a problem that `verify` accepts works, in every thread, with copies of
everything the problem contains at that time. -/
theorem C155_construct [Zero T] [LinearOrder T] (steps : T → ℕ) (hst : ∀ t, 1 ≤ steps t) (w : Store S L C K)
    (p : Problem T X) (x : X) (hx : p.x0 = some x) (hv : p.verify = .done) (n : ℕ) (junk : X) :
    ∃ s q, contents w p = some q ∧ Nloc.construct steps w p n junk = (s, .done) ∧ s.Uses steps n q := by
  rcases p with ⟨tf, x0, sys, cost, lin, a, b, c⟩
  cases hx
  rcases sys with _ | s <;> rcases lin with _ | l <;> rcases cost with _ | d <;> rcases tf with _ | t <;>
    simp [Problem.verify] at hv
  have ht : ¬ t < 0 := not_lt.mpr hv
  have h1 : ¬ steps t = 0 := by have := hst t; omega
  have h2 : ¬ steps t < 1 := by have := hst t; omega
  rcases a with _ | a <;> rcases b with _ | b <;> rcases c with _ | c <;>
    exact ⟨_, _, rfl, by
      simp only [Nloc.construct, Nloc.initIface, andThen_done, Nloc.changeHorizon, ht, if_false, Nloc.blank, h1, h2,
        Nloc.changeState, Nloc.changeCost, ifSet, Option.isSome, Bool.false_eq_true, if_true, Nloc.changeInBox,
        Nloc.changeStBox, Nloc.changeGen, fill_eq]
      rfl, by simp [Nloc.Uses]⟩

theorem setProblem_uses [Zero T] [LinearOrder T] (steps : T → ℕ) (hst : ∀ t, 1 ≤ steps t) (w : Store S L C K)
    (p : Problem T X) (n : ℕ) (s : Nloc X S L C K) (q : Parts T X S L C K) (hu : s.Uses steps n q)
    (hp : p.inBox = none ∧ p.stBox = none ∧ p.gen = none) (hq : q.inBox = none ∧ q.stBox = none ∧ q.gen = none)
    (s' : Nloc X S L C K) (o : Out) (ho : o ≠ .ub) (h : s.setProblem steps w p = (s', o)) :
    s'.Uses steps n (((contents w p).bind fun q => if q.tf < 0 then none else some q).getD q) := by
  rcases p with ⟨tf, x0, sys, cost, lin, a, b, c⟩
  rcases s with ⟨n', st, y, ls, ll, lc, la, lb, lg⟩
  rcases q with ⟨qt, qx, qs, ql, qc, qa, qb, qg⟩
  obtain ⟨rfl, rfl, rfl⟩ := hp
  obtain ⟨rfl, rfl, rfl⟩ := hq
  obtain ⟨e0, e1, e2, e3, e4, e5, e6, e7, e8⟩ := hu
  simp only at e0 e1 e2 e3 e4 e5 e6 e7 e8
  subst e0 e1 e2 e3 e4 e5 e6 e7 e8
  rcases sys with _ | i <;> rcases lin with _ | l <;> rcases cost with _ | d
  case some.some.some =>
    rcases tf with _ | t
    · simp [Nloc.setProblem, Problem.verify, andThen] at h
      exact absurd h.2.symm ho
    · by_cases ht : t < 0
      · simp [Nloc.setProblem, Problem.verify, andThen, ht] at h
        obtain ⟨rfl, rfl⟩ := h
        rcases x0 with _ | x <;> simp [contents, ht, Nloc.Uses]
      · rcases x0 with _ | x
        · exfalso
          by_cases he : steps t = steps qt
          · simp [Nloc.setProblem, Problem.verify, andThen, ht, Nloc.changeHorizon, he] at h
            exact ho h.2.symm
          · have h2 : ¬ steps t = 0 := by have := hst t; omega
            simp [Nloc.setProblem, Problem.verify, andThen, ht, Nloc.changeHorizon, he, h2] at h
            exact ho h.2.symm
        · by_cases he : steps t = steps qt
          · simp [Nloc.setProblem, Problem.verify, andThen, ht, Nloc.changeHorizon, he, Nloc.changeState, Nloc.changeCost,
              Nloc.changeSys, Nloc.changeLin, fill_eq, fillAt_eq, ifSet] at h
            obtain ⟨rfl, rfl⟩ := h
            simp [contents, ht, Nloc.Uses, he]
          · have h2 : ¬ steps t = 0 := by have := hst t; omega
            simp [Nloc.setProblem, Problem.verify, andThen, ht, Nloc.changeHorizon, he, h2, Nloc.changeState, Nloc.changeCost,
              Nloc.changeSys, Nloc.changeLin, fill_eq, fillAt_eq, ifSet] at h
            obtain ⟨rfl, rfl⟩ := h
            simp [contents, ht, Nloc.Uses]
  all_goals
    simp [Nloc.setProblem, Problem.verify, andThen] at h
    obtain ⟨rfl, rfl⟩ := h
    have : ∀ z : Option (Parts T X S L C K), z = none → (z.bind fun q => if q.tf < 0 then none else some q) = none := by
      rintro _ rfl; rfl
    rw [this _ (by rcases tf with _ | t <;> rcases x0 with _ | x <;> rfl)]
    simp [Nloc.Uses]

theorem step_uses [Zero T] [LinearOrder T] (steps : T → ℕ) (hst : ∀ t, 1 ≤ steps t) (n : ℕ)
    (w : Store S L C K) (p : Problem T X) (s : Nloc X S L C K) (q : Parts T X S L C K) (hu : s.Uses steps n q)
    (op : Op T X S L C K) (ops : List (Op T X S L C K)) (hf : Fine ⟨w, p, q⟩ (op :: ops))
    (r : State T X S L C K (Nloc X S L C K)) (o : Out) (ho : o ≠ .ub) (h : Nloc.step steps ⟨w, p, s⟩ op = (r, o)) :
    r.store = (hand ⟨w, p, q⟩ op).store ∧ r.prob = (hand ⟨w, p, q⟩ op).prob ∧
      r.solver.Uses steps n (hand ⟨w, p, q⟩ op).solver := by
  cases op with
  | setProblem =>
    obtain ⟨⟨hp, hq⟩, -⟩ := hf
    simp only [Nloc.step] at h
    cases hs : s.setProblem steps w p with
    | mk s' o' =>
      rw [hs] at h
      cases h
      exact ⟨rfl, rfl, setProblem_uses steps hst w p n s q hu hp hq s' _ ho hs⟩
  | horizon t =>
    simp only [Nloc.step, Nloc.changeHorizon] at h
    by_cases ht : t < 0
    · simp only [ht, if_true] at h
      cases h
      exact ⟨rfl, rfl, by simpa [hand, ht] using hu⟩
    · have h2 : ¬ steps t < 1 := by have := hst t; omega
      by_cases he : steps t = s.stages
      · simp only [ht, if_false, he, if_true] at h
        cases h
        refine ⟨rfl, rfl, ?_⟩
        obtain ⟨e0, e1, e⟩ := hu
        simp only [hand, ht, if_false, Option.getD_some]
        exact ⟨e0, he.symm, e⟩
      · simp only [ht, if_false, he, h2] at h
        cases h
        refine ⟨rfl, rfl, ?_⟩
        obtain ⟨e0, e1, e⟩ := hu
        simp only [hand, ht, if_false, Option.getD_some]
        exact ⟨e0, rfl, e⟩
  | state x =>
    simp only [Nloc.step, Nloc.changeState] at h
    cases h
    obtain ⟨e0, e1, e2, e⟩ := hu
    exact ⟨rfl, rfl, e0, e1, rfl, e⟩
  | inBox p => exact absurd hf.1 id
  | stBox p => exact absurd hf.1 id
  | gen p => exact absurd hf.1 id
  | cost i =>
    obtain ⟨e0, e1, e2, e3, e4, e5, e6, e7, e8⟩ := hu
    rcases i with _ | i <;> simp only [Nloc.step, Nloc.changeCost, fill_eq] at h <;> cases h <;>
      refine ⟨rfl, rfl, ?_⟩ <;> simp [hand, Nloc.Uses, e0, e1, e2, e3, e4, e5, e6, e7, e8]
  | sys i =>
    obtain ⟨e0, e1, e2, e3, e4, e5, e6, e7, e8⟩ := hu
    rcases i with _ | i <;> simp only [Nloc.step, Nloc.changeSys, e0, e3, fillAt_eq] at h <;> cases h <;>
      refine ⟨rfl, rfl, ?_⟩ <;> simp [hand, Nloc.Uses, e0, e1, e2, e3, e4, e5, e6, e7, e8]
  | lin i =>
    obtain ⟨e0, e1, e2, e3, e4, e5, e6, e7, e8⟩ := hu
    rcases i with _ | i <;> simp only [Nloc.step, Nloc.changeLin, e0, e4, fillAt_eq, Option.map] at h <;> cases h <;>
      refine ⟨rfl, rfl, ?_⟩ <;> simp [hand, Nloc.Uses, e0, e1, e2, e3, e4, e5, e6, e7, e8, Store.copyLin]
  | backendInBox i =>
    obtain ⟨e0, e1, e2, e3, e4, e5, e6, e7, e8⟩ := hu
    rcases i with _ | i <;> simp only [Nloc.step, Nloc.changeInBox, fill_eq] at h <;> cases h <;>
      refine ⟨rfl, rfl, ?_⟩ <;> simp [hand, Nloc.Uses, e0, e1, e2, e3, e4, e5, e6, e7, e8]
  | backendStBox i =>
    obtain ⟨e0, e1, e2, e3, e4, e5, e6, e7, e8⟩ := hu
    rcases i with _ | i <;> simp only [Nloc.step, Nloc.changeStBox, fill_eq] at h <;> cases h <;>
      refine ⟨rfl, rfl, ?_⟩ <;> simp [hand, Nloc.Uses, e0, e1, e2, e3, e4, e5, e6, e7, e8]
  | backendGen i =>
    obtain ⟨e0, e1, e2, e3, e4, e5, e6, e7, e8⟩ := hu
    rcases i with _ | i <;> simp only [Nloc.step, Nloc.changeGen, fill_eq] at h <;> cases h <;>
      refine ⟨rfl, rfl, ?_⟩ <;> simp [hand, Nloc.Uses, e0, e1, e2, e3, e4, e5, e6, e7, e8]
  | problem o' => simp only [Nloc.step] at h; cases h; exact ⟨rfl, rfl, hu⟩
  | editSys i a => cases h; exact ⟨rfl, rfl, hu⟩
  | editLin i a => cases h; exact ⟨rfl, rfl, hu⟩
  | editCost i a => cases h; exact ⟨rfl, rfl, hu⟩
  | editCon i a => cases h; exact ⟨rfl, rfl, hu⟩

/-- C155: after its construction from a problem accepted by `verify` and any further history of calls, the solver works, in
every thread, with the horizon, initial state, systems, cost function and constraints handed over last, as they were
then: changes of the user's objects and of the problem, and calls that end with an exception, have no effect. Missing:
constraints changed by the functions of the solver and problems set while constraints are in use, see
`C155_constraints_violated` and `C155_reset_violated`. -/
theorem C155_handed_partial [Zero T] [LinearOrder T] (steps : T → ℕ) (hst : ∀ t, 1 ≤ steps t) (w : Store S L C K)
    (p : Problem T X) (x : X) (hx : p.x0 = some x) (hv : p.verify = .done) (n : ℕ) (junk : X) (ops : List (Op T X S L C K))
    (q0 : Parts T X S L C K) (hq0 : contents w p = some q0) (hf : Fine ⟨w, p, q0⟩ ops)
    (r : State T X S L C K (Nloc X S L C K))
    (h : runOps (Nloc.step steps) ⟨w, p, (Nloc.construct steps w p n junk).1⟩ ops = (r, .done)) :
    r.solver.Uses steps n (ops.foldl hand ⟨w, p, q0⟩).solver := by
  obtain ⟨s, q, hq, hs, hu⟩ := C155_construct steps hst w p x hx hv n junk
  rw [hq0] at hq
  cases hq
  rw [hs] at h
  clear hs hq0 hv hx
  simp only at h
  induction ops generalizing w p s q0 with
  | nil => simp only [runOps] at h; cases h; exact hu
  | cons op ops ih =>
    cases hstep : Nloc.step steps ⟨w, p, s⟩ op with
    | mk r1 o =>
      rw [runOps, hstep] at h
      have ho : o ≠ .ub := by
        rintro rfl
        exact absurd (congrArg Prod.snd h) (by simp)
      obtain ⟨e1, e2, e3⟩ := step_uses steps hst n w p s q0 hu op ops hf r1 o ho hstep
      have h' : runOps (Nloc.step steps) r1 ops = (r, .done) := by cases o <;> first | exact h | exact absurd rfl ho
      rw [List.foldl_cons]
      have hg : hand ⟨w, p, q0⟩ op = ⟨r1.store, r1.prob, (hand ⟨w, p, q0⟩ op).solver⟩ := by rw [e1, e2]
      have hf' := hf.2
      rw [hg] at hf' ⊢
      exact ih r1.store r1.prob _ hf' r1.solver h' e3

/-- Objects of a user whose contents are their numbers. -/
def demo : Store ℕ ℕ ℕ ℕ := ⟨id, id, id, fun i => (i, true)⟩

def demoProblem : Problem ℚ ℚ := ⟨some 3, some 1, some 1, some 2, some (.obj 3), none, none, none⟩

example : demoProblem.verify = .done ∧
    (runOps (Nloc.step fun _ => 1) ⟨demo, demoProblem, (Nloc.construct (fun _ : ℚ => 1) demo demoProblem 2 0).1⟩
      [.editCost 2 7, .cost none, .cost (some 5), .setProblem]).2 = .done := by decide +kernel

/-- C155 is violated by the functions of the solver for constraints: a solver that accepts constraints at
construction throws in all of them. A problem with constraints can therefore not be set: the call throws after
horizon, initial state, cost function and systems were replaced by those of the new problem, with the constraints
of the old one still in use. -/
theorem C155_constraints_violated [Zero T] [LinearOrder T] (steps : T → ℕ) (hst : ∀ t, 1 ≤ steps t) (w : Store S L C K)
    (p : Problem T X) (n : ℕ) (s : Nloc X S L C K) (q : Parts T X S L C K) (hu : s.Uses steps n q) :
    (∀ o ∈ ([.inBox p.inBox, .stBox p.stBox, .gen p.gen] : List (Op T X S L C K)),
      Nloc.step steps ⟨w, p, s⟩ o = (⟨w, p, s⟩, .threw)) ∧
    (∀ q' x, p.x0 = some x → p.verify = .done → contents w p = some q' →
      ¬ (p.inBox = none ∧ p.stBox = none ∧ p.gen = none) →
      ∃ s', s.setProblem steps w p = (s', .threw) ∧
        s'.Uses steps n { q' with inBox := q.inBox, stBox := q.stBox, gen := q.gen }) := by
  constructor
  · intro o ho
    simp only [List.mem_cons, List.not_mem_nil, or_false] at ho
    rcases ho with rfl | rfl | rfl <;> rfl
  · intro q' x hx hv hq' hp
    rcases p with ⟨tf, x0, sys, cost, lin, a, b, c⟩
    rcases s with ⟨n', st, y, ls, ll, lc, la, lb, lg⟩
    rcases q with ⟨qt, qx, qs, ql, qc, qa, qb, qg⟩
    obtain ⟨e0, e1, e2, e3, e4, e5, e6, e7, e8⟩ := hu
    simp only at e0 e1 e2 e3 e4 e5 e6 e7 e8 hx hp
    subst e0 e1 e2 e3 e4 e5 e6 e7 e8 hx
    rcases sys with _ | i <;> rcases lin with _ | l <;> rcases cost with _ | d <;> rcases tf with _ | t <;>
      simp [Problem.verify] at hv
    have ht : ¬ t < 0 := not_lt.mpr hv
    have h2 : ¬ steps t = 0 := by have := hst t; omega
    simp only [contents, Option.some.injEq] at hq'
    subst hq'
    by_cases he : steps t = steps qt <;> rcases a with _ | a <;> rcases b with _ | b <;> rcases c with _ | c <;>
      first
        | exact absurd ⟨rfl, rfl, rfl⟩ hp
        | (refine ⟨⟨n', steps t, x, List.replicate (n' + 1) (w.sys i), List.replicate (n' + 1) (w.copyLin l),
              List.replicate (n' + 1) (w.cost d), List.replicate (n' + 1) qa, List.replicate (n' + 1) qb,
              List.replicate (n' + 1) qg⟩, ?_, ?_⟩
           · simp [Nloc.setProblem, Problem.verify, andThen, ht, Nloc.changeHorizon, he, h2, Nloc.changeState,
              Nloc.changeCost, Nloc.changeSys, Nloc.changeLin, fill_eq, fillAt_eq, ifSet, Nloc.solverConstraints]
           · simp [Nloc.Uses])

example : ∃ s : Nloc ℚ ℕ ℕ ℕ ℕ, s.Uses (fun _ : ℚ => 1) 1 (⟨1, 1, 1, .user 1, 2, none, none, none⟩ : Parts ℚ ℚ ℕ ℕ ℕ ℕ) :=
  ⟨⟨1, 1, 1, [1, 1], [.user 1, .user 1], [2, 2], [none, none], [none, none], [none, none]⟩, by simp [Nloc.Uses]⟩

/-- C155 is violated by `setProblem` with a problem without constraints: the constraints of the problem before stay
in use. -/
theorem C155_reset_violated [Zero T] [LinearOrder T] (steps : T → ℕ) (hst : ∀ t, 1 ≤ steps t) (w : Store S L C K)
    (p p' : Problem T X) (x x' : X) (hx : p.x0 = some x) (hx' : p'.x0 = some x') (hv : p.verify = .done)
    (hv' : p'.verify = .done) (k : ℕ) (hk : p.inBox = some k) (hn : p'.inBox = none ∧ p'.stBox = none ∧ p'.gen = none)
    (n : ℕ) (junk : X) :
    ∃ s s', Nloc.construct steps w p n junk = (s, .done) ∧ s.setProblem steps w p' = (s', .done) ∧
      s'.inBox = List.replicate (n + 1) (some (w.con k)) ∧
      ∃ q', contents w p' = some q' ∧ q'.inBox = none := by
  obtain ⟨s, q, hq, hs, hu⟩ := C155_construct steps hst w p x hx hv n junk
  have hqk : q.inBox = some (w.con k) := by
    rcases p with ⟨tf, x0, sys, cost, lin, a, b, c⟩
    cases hx
    cases hk
    rcases sys with _ | i <;> rcases lin with _ | l <;> rcases cost with _ | d <;> rcases tf with _ | t <;>
      simp [contents] at hq
    rw [← hq]
  rcases p' with ⟨tf, x0, sys, cost, lin, a, b, c⟩
  rcases s with ⟨n', st, y, ls, ll, lc, la, lb, lg⟩
  rcases q with ⟨qt, qx, qs, ql, qc, qa, qb, qg⟩
  obtain ⟨e0, e1, e2, e3, e4, e5, e6, e7, e8⟩ := hu
  obtain ⟨rfl, rfl, rfl⟩ := hn
  simp only at e0 e1 e2 e3 e4 e5 e6 e7 e8 hx' hqk
  subst e0 e1 e2 e3 e4 e5 e6 e7 e8 hx' hqk
  rcases sys with _ | i <;> rcases lin with _ | l <;> rcases cost with _ | d <;> rcases tf with _ | t <;>
    simp [Problem.verify] at hv'
  have ht : ¬ t < 0 := not_lt.mpr hv'
  have h2 : ¬ steps t = 0 := by have := hst t; omega
  refine ⟨_, ⟨n', steps t, x', List.replicate (n' + 1) (w.sys i), List.replicate (n' + 1) (w.copyLin l),
    List.replicate (n' + 1) (w.cost d), List.replicate (n' + 1) (some (w.con k)), List.replicate (n' + 1) qb,
    List.replicate (n' + 1) qg⟩, hs, ?_, rfl, _, rfl, rfl⟩
  by_cases he : steps t = steps qt <;>
    simp [Nloc.setProblem, Problem.verify, andThen, ht, Nloc.changeHorizon, he, h2, Nloc.changeState,
      Nloc.changeCost, Nloc.changeSys, Nloc.changeLin, fill_eq, fillAt_eq, ifSet]

example : ({ demoProblem with inBox := some 4 } : Problem ℚ ℚ).verify = .done ∧ demoProblem.verify = .done := by decide +kernel

/-- C155 is violated by problems that are not complete: the constructor does not call `verify` and dereferences null
pointers for which `verify` throws. -/
theorem C155_unverified_violated [Zero T] [LinearOrder T] (steps : T → ℕ) (w : Store S L C K) (p : Problem T X)
    (hp : p.sys = none ∨ p.lin = none) (n : ℕ) (junk : X) :
    p.verify = .threw ∧ (Nloc.construct steps w p n junk).2 = .ub := by
  rcases p with ⟨tf, x0, sys, cost, lin, a, b, c⟩
  simp only at hp
  rcases hp with rfl | rfl
  · exact ⟨rfl, rfl⟩
  · rcases sys with _ | i <;> exact ⟨rfl, rfl⟩

/-! ### C156: the solver of direct multiple shooting -/

/-- C156, construction: a solver made from a problem that `verify` accepts works, in every shot, with copies of what the
problem contains at that time; the constraints come in the order input box, state box, general. -/
theorem C156_construct [Zero T] [LinearOrder T] (w : Store S L C K) (p : Problem T X) (x : X) (hx : p.x0 = some x)
    (hv : p.verify = .done) (n : ℕ) (hn : 0 < n) (junkT : T) (junk : X) :
    ∃ s u q, contents w p = some q ∧ Dms.construct w p n junkT junk = (s, .done) ∧ s.used = some u ∧
      u.sys = List.replicate n q.sys ∧ u.lin = List.replicate n q.lin ∧ u.cost = List.replicate n q.cost ∧
      u.evalCost = some q.cost ∧ u.cons = q.inBox.toList ++ q.stBox.toList ++ q.gen.toList ∧ u.tf = q.tf ∧ u.x0 = q.x0 := by
  obtain ⟨n, rfl⟩ : ∃ k, n = k + 1 := ⟨n - 1, by omega⟩
  rcases p with ⟨tf, x0, sys, cost, lin, a, b, c⟩
  cases hx
  rcases sys with _ | s <;> rcases lin with _ | l <;> rcases cost with _ | d <;> rcases tf with _ | t <;>
    simp [Problem.verify] at hv
  have ht : ¬ t < 0 := not_lt.mpr hv
  rcases a with _ | a <;> rcases b with _ | b <;> rcases c with _ | c <;>
    exact ⟨_, _, _, rfl, by
      simp [Dms.construct, Dms.setProblem, Problem.verify, ht, andThen, Dms.changeHorizon, Dms.changeState, Dms.changeCost,
        Dms.changeSys, Dms.changeLin, ifSet, Dms.changeInBox, Dms.changeStBox, Dms.changeGen, fill_eq]
      rfl, rfl, by simp, by simp, by simp, by simp [List.replicate_succ], by simp, rfl, rfl⟩

example : demoProblem.verify = .done ∧ demoProblem.x0 = some 1 := by decide +kernel

theorem andThen_used {P : Dms T X S L C K → Prop}
    (r : Dms T X S L C K × Out) (f : Dms T X S L C K → Dms T X S L C K × Out) (hr : P r.1) (hf : ∀ s, P s → P (f s).1) :
    P (andThen r f).1 := by
  unfold andThen
  split
  · exact hf _ hr
  · exact hr

/-- The parts of the problem that `DmsProblem` was made with. -/
def Dms.Keeps (s : Dms T X S L C K) (u : DmsUsed T X S L C K) : Prop :=
  ∃ v, s.used = some v ∧ v.sys = u.sys ∧ v.lin = u.lin ∧ v.cost = u.cost ∧ v.evalCost = u.evalCost ∧ v.cons = u.cons ∧
    v.tf = s.tf ∧ v.x0 = s.x0

theorem Dms.keeps_horizon {s : Dms T X S L C K} {u : DmsUsed T X S L C K} (h : s.Keeps u) (t : T) : (s.changeHorizon t).Keeps u := by
  obtain ⟨v, hv, a, b, c, d, e, f, g⟩ := h
  exact ⟨{ v with tf := t }, by simp [Dms.changeHorizon, hv], a, b, c, d, e, rfl, g⟩

theorem Dms.keeps_state {s : Dms T X S L C K} {u : DmsUsed T X S L C K} (h : s.Keeps u) (x : X) : (s.changeState x).Keeps u := by
  obtain ⟨v, hv, a, b, c, d, e, f, g⟩ := h
  exact ⟨{ v with x0 := x }, by simp [Dms.changeState, hv], a, b, c, d, e, f, rfl⟩

theorem Dms.keeps_cost (w : Store S L C K) {s : Dms T X S L C K} {u : DmsUsed T X S L C K} (h : s.Keeps u) (p : Option ℕ) :
    (s.changeCost w p).Keeps u := by cases p <;> exact h

theorem Dms.keeps_sys (w : Store S L C K) {s : Dms T X S L C K} {u : DmsUsed T X S L C K} (h : s.Keeps u) (p : Option ℕ) :
    (s.changeSys w p).Keeps u := by cases p <;> exact h

theorem Dms.keeps_lin (w : Store S L C K) {s : Dms T X S L C K} {u : DmsUsed T X S L C K} (h : s.Keeps u) (p : Option LinPtr) :
    (s.changeLin w p).Keeps u := by cases p <;> exact h

theorem Dms.keeps_inBox (w : Store S L C K) {s : Dms T X S L C K} {u : DmsUsed T X S L C K} (h : s.Keeps u) (p : Option ℕ) :
    (s.changeInBox w p).1.Keeps u := by cases p <;> exact h

theorem Dms.keeps_stBox (w : Store S L C K) {s : Dms T X S L C K} {u : DmsUsed T X S L C K} (h : s.Keeps u) (p : Option ℕ) :
    (s.changeStBox w p).1.Keeps u := by cases p <;> exact h

theorem Dms.keeps_gen (w : Store S L C K) {s : Dms T X S L C K} {u : DmsUsed T X S L C K} (h : s.Keeps u) (p : Option ℕ) :
    (s.changeGen w p).1.Keeps u := by cases p <;> exact h

theorem ifSet_keeps {α : Type} {P : Dms T X S L C K → Prop} (p : Option α) (f : Dms T X S L C K → Option α → Dms T X S L C K × Out)
    (hf : ∀ s, P s → P (f s p).1) (s : Dms T X S L C K) (h : P s) : P (ifSet p f s).1 := by
  unfold ifSet
  split
  · exact hf s h
  · exact h

theorem Dms.keeps_setProblem [Zero T] [LinearOrder T] (w : Store S L C K) (p : Problem T X) {s : Dms T X S L C K}
    {u : DmsUsed T X S L C K} (h : s.Keeps u) : (s.setProblem w p).1.Keeps u := by
  have A := fun (r : Dms T X S L C K × Out) f => andThen_used (P := fun s => s.Keeps u) r f
  refine A _ _ (A _ _ (A _ _ (A _ _ (A _ _ (A _ _ (A _ _ (A _ _ h ?_) ?_) ?_) ?_) ?_) ?_) ?_) ?_
  · intro s hs; cases p.tf with
    | none => exact hs
    | some t => exact Dms.keeps_horizon hs t
  · intro s hs; cases p.x0 with
    | none => exact hs
    | some t => exact Dms.keeps_state hs t
  · exact fun s hs => Dms.keeps_cost w hs _
  · exact fun s hs => Dms.keeps_sys w hs _
  · exact fun s hs => Dms.keeps_lin w hs _
  · exact ifSet_keeps _ _ fun s hs => Dms.keeps_inBox w hs _
  · exact ifSet_keeps _ _ fun s hs => Dms.keeps_stBox w hs _
  · exact ifSet_keeps _ _ fun s hs => Dms.keeps_gen w hs _

theorem Dms.keeps_run [Zero T] [LinearOrder T] (u : DmsUsed T X S L C K) (ops : List (Op T X S L C K)) :
    ∀ (q : State T X S L C K (Dms T X S L C K)), q.solver.Keeps u → (runOps Dms.step q ops).1.solver.Keeps u := by
  induction ops with
  | nil => intro q h; exact h
  | cons op ops ih =>
    intro q h
    have h1 : (Dms.step q op).1.solver.Keeps u := by
      cases op with
      | setProblem => exact Dms.keeps_setProblem _ _ h
      | horizon t => exact Dms.keeps_horizon h t
      | state x => exact Dms.keeps_state h x
      | cost p => exact Dms.keeps_cost _ h p
      | sys p => exact Dms.keeps_sys _ h p
      | lin p => exact Dms.keeps_lin _ h _
      | inBox p => exact Dms.keeps_inBox _ h p
      | stBox p => exact Dms.keeps_stBox _ h p
      | gen p => exact Dms.keeps_gen _ h p
      | backendInBox p => exact Dms.keeps_inBox _ h p
      | backendStBox p => exact Dms.keeps_stBox _ h p
      | backendGen p => exact Dms.keeps_gen _ h p
      | problem o => exact h
      | editSys i a => exact h
      | editLin i a => exact h
      | editCost i a => exact h
      | editCon i a => exact h
    rw [runOps]
    split
    · exact h1
    · exact ih _ h1

/-- C156 is violated by all changes after the construction but those of horizon and initial state: whatever is called
afterwards, including `changeCostFunction`, `changeNonlinearSystem`, `changeLinearSystem`, the functions for constraints and
`setProblem`, the solver works with the systems, cost functions and constraints of its construction. -/
theorem C156_fixed_violated [Zero T] [LinearOrder T] (w : Store S L C K) (p : Problem T X) (n : ℕ) (junkT : T) (junk : X)
    (s : Dms T X S L C K) (u : DmsUsed T X S L C K) (hs : Dms.construct w p n junkT junk = (s, .done)) (hu : s.used = some u)
    (ops : List (Op T X S L C K)) :
    ∃ v, (runOps Dms.step ⟨w, p, s⟩ ops).1.solver.used = some v ∧ v.sys = u.sys ∧ v.lin = u.lin ∧ v.cost = u.cost ∧
      v.evalCost = u.evalCost ∧ v.cons = u.cons := by
  have h0 : s.Keeps u := by
    refine ⟨u, hu, rfl, rfl, rfl, rfl, rfl, ?_, ?_⟩ <;>
    · simp only [Dms.construct] at hs
      unfold andThen at hs
      split at hs
      · cases hs
        cases hu
        rfl
      · rename_i ho
        exact absurd (congrArg Prod.snd hs) ho
  obtain ⟨v, hv, a, b, c, d, e, -⟩ := Dms.keeps_run u ops ⟨w, p, s⟩ h0
  exact ⟨v, hv, a, b, c, d, e⟩

/-- The accessors of the solver return the new cost function all the same. -/
theorem C156_accessor_violated [Zero T] [LinearOrder T] (w : Store S L C K) (p : Problem T X) (s : Dms T X S L C K) (i : ℕ) :
    (runOps Dms.step ⟨w, p, s⟩ [.cost (some i)]).1.solver.cost = List.replicate s.nShots (w.cost i) ∧
      (runOps Dms.step ⟨w, p, s⟩ [.cost (some i)]).1.solver.used = s.used := by
  simp [runOps, Dms.step, Dms.changeCost, fill_eq]

/-- C156, horizon and initial state: those changed last, directly or with a problem, are in use. Missing: everything
else, see `C156_fixed_violated`. -/
theorem C156_start_partial [Zero T] [LinearOrder T] (w : Store S L C K) (p : Problem T X) (n : ℕ) (junkT : T) (junk : X)
    (s : Dms T X S L C K) (u : DmsUsed T X S L C K) (hs : Dms.construct w p n junkT junk = (s, .done)) (hu : s.used = some u)
    (before after : List (Op T X S L C K)) (hsp : Op.setProblem ∉ after) (t : T) (x : X) (ht : ∀ t, Op.horizon t ∉ after)
    (hx : ∀ x, Op.state x ∉ after) (r : State T X S L C K (Dms T X S L C K))
    (h : runOps Dms.step ⟨w, p, s⟩ (before ++ [.horizon t, .state x] ++ after) = (r, .done)) :
    ∃ v, r.solver.used = some v ∧ v.tf = t ∧ v.x0 = x := by
  have h0 : s.Keeps u := by
    refine ⟨u, hu, rfl, rfl, rfl, rfl, rfl, ?_, ?_⟩ <;>
    · simp only [Dms.construct] at hs
      unfold andThen at hs
      split at hs
      · cases hs
        cases hu
        rfl
      · rename_i ho
        exact absurd (congrArg Prod.snd hs) ho
  have hk := Dms.keeps_run u (before ++ [.horizon t, .state x] ++ after) ⟨w, p, s⟩ h0
  rw [h] at hk
  obtain ⟨v, hv, -, -, -, -, -, e1, e2⟩ := hk
  have key : ∀ (ops : List (Op T X S L C K)) (q r : State T X S L C K (Dms T X S L C K)), Op.setProblem ∉ ops →
      (∀ t, Op.horizon t ∉ ops) → (∀ x, Op.state x ∉ ops) → runOps Dms.step q ops = (r, .done) →
      r.solver.tf = q.solver.tf ∧ r.solver.x0 = q.solver.x0 := by
    intro ops
    induction ops with
    | nil => intro q r _ _ _ h; simp only [runOps] at h; cases h; exact ⟨rfl, rfl⟩
    | cons op ops ih =>
      intro q r h1 h2 h3 h
      have hq : (Dms.step q op).1.solver.tf = q.solver.tf ∧ (Dms.step q op).1.solver.x0 = q.solver.x0 := by
        cases op with
        | setProblem => exact absurd List.mem_cons_self h1
        | horizon t => exact absurd List.mem_cons_self (h2 t)
        | state x => exact absurd List.mem_cons_self (h3 x)
        | cost p => cases p <;> exact ⟨rfl, rfl⟩
        | sys p => cases p <;> exact ⟨rfl, rfl⟩
        | lin p => cases p <;> exact ⟨rfl, rfl⟩
        | inBox p => cases p <;> exact ⟨rfl, rfl⟩
        | stBox p => cases p <;> exact ⟨rfl, rfl⟩
        | gen p => cases p <;> exact ⟨rfl, rfl⟩
        | backendInBox p => cases p <;> exact ⟨rfl, rfl⟩
        | backendStBox p => cases p <;> exact ⟨rfl, rfl⟩
        | backendGen p => cases p <;> exact ⟨rfl, rfl⟩
        | problem o => exact ⟨rfl, rfl⟩
        | editSys i a => exact ⟨rfl, rfl⟩
        | editLin i a => exact ⟨rfl, rfl⟩
        | editCost i a => exact ⟨rfl, rfl⟩
        | editCon i a => exact ⟨rfl, rfl⟩
      rw [runOps] at h
      split at h
      · exact absurd (congrArg Prod.snd h) (by simp)
      · have := ih _ r (fun hm => h1 (List.mem_cons_of_mem _ hm)) (fun t hm => h2 t (List.mem_cons_of_mem _ hm))
          (fun t hm => h3 t (List.mem_cons_of_mem _ hm)) h
        exact ⟨this.1.trans hq.1, this.2.trans hq.2⟩
  have split : ∀ (a b : List (Op T X S L C K)) (q r : State T X S L C K (Dms T X S L C K)),
      runOps Dms.step q (a ++ b) = (r, .done) → ∃ m, runOps Dms.step q a = (m, .done) ∧ runOps Dms.step m b = (r, .done) := by
    intro a
    induction a with
    | nil => intro b q r h; exact ⟨q, rfl, h⟩
    | cons op a ih =>
      intro b q r h
      rw [List.cons_append, runOps] at h
      rw [runOps]
      split at h
      · exact absurd (congrArg Prod.snd h) (by simp)
      · rename_i hne
        obtain ⟨m, h1, h2⟩ := ih b _ r h
        refine ⟨m, ?_, h2⟩
        exact h1
  obtain ⟨m, h1, h2⟩ := split _ _ _ _ h
  obtain ⟨m', h3, h4⟩ := split _ _ _ _ h1
  have e3 : m.solver.tf = t ∧ m.solver.x0 = x := by
    simp only [runOps, Dms.step] at h4
    cases h4
    exact ⟨rfl, rfl⟩
  obtain ⟨k1, k2⟩ := key after m r hsp ht hx h2
  exact ⟨v, hv, e1.trans (k1.trans e3.1), e2.trans (k2.trans e3.2)⟩

example : (runOps Dms.step ⟨demo, demoProblem, (Dms.construct demo demoProblem 3 0 0).1⟩
    [.cost (some 5), .horizon 2, .state 7, .editCost 2 9, .inBox (some 1)]).2 = .done := by decide +kernel

end CT.OptCon
