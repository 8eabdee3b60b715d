import Verif.Model.ConstraintAD
import Verif.Props.CodeGen

/-! # C152, C153: containers of automatically differentiated constraints and their copies -/

namespace CT.CodeGen

open CT.Cost Matrix

variable {n m : ℕ}

/-! ### Specification: independent objects -/

/-- What a user knows of a container: its constraints of both kinds, whether they are initialised, the
state, control and time set last, whether it still exists, and whether constraints can be added (not to those
made by the constructor with a point). -/
structure Obj (n m : ℕ) where
  cons : Side → List (CTerm n m)
  ready : Side → Bool
  x : Fin n → ℝ
  u : Fin m → ℝ
  t : ℝ
  alive : Bool
  canAdd : Bool

/-- Effect of one call on the objects of a program, listed in order of creation. A copy is a new object with
the contents of the copied one; calls on one object leave the others alone. -/
def objStep (l : List (Obj n m)) : KOp n m → List (Obj n m)
  | .new => l ++ [⟨fun _ => [], fun _ => false, 0, 0, 0, true, true⟩]
  | .newAt x u t => l ++ [⟨fun _ => [], fun _ => false, x, u, t, true, false⟩]
  | .add id s c => l.modify id fun o =>
      { o with cons := Function.update o.cons s (o.cons s ++ [c]), ready := Function.update o.ready s false }
  | .initialize id => l.modify id fun o => { o with ready := fun _ => true }
  | .set id x u t => l.modify id fun o => { o with x := x, u := u, t := t }
  | .clone id => l ++ (l[id]?.map fun o => { o with canAdd := true }).toList
  | .destroy id => l.modify id fun o => { o with alive := false }

/-- The objects after a history. -/
def objects (ops : List (KOp n m)) : List (Obj n m) := ops.foldl objStep []

/-- Only objects made by a constructor are copied; `l` tells for each object whether it is one. -/
def NoSecondCopy (l : List Bool) : List (KOp n m) → Prop
  | [] => True
  | .new :: ops => NoSecondCopy (l ++ [true]) ops
  | .newAt _ _ _ :: ops => NoSecondCopy (l ++ [true]) ops
  | .clone id :: ops => l[id]? = some true ∧ NoSecondCopy (l ++ [false]) ops
  | _ :: ops => NoSecondCopy l ops

/-- Calls on objects that exist; constraints are added only where they can be. -/
def Legal (l : List (Obj n m)) : List (KOp n m) → Prop
  | [] => True
  | op :: ops => (match op with
      | .new => True
      | .newAt _ _ _ => True
      | .add id _ _ => ∃ o, l[id]? = some o ∧ o.alive = true ∧ o.canAdd = true
      | .initialize id => ∃ o, l[id]? = some o ∧ o.alive = true
      | .set id _ _ _ => ∃ o, l[id]? = some o ∧ o.alive = true
      | .clone id => ∃ o, l[id]? = some o ∧ o.alive = true
      | .destroy id => ∃ o, l[id]? = some o ∧ o.alive = true) ∧ Legal (objStep l op) ops

/-- The values of constraints, one after the other. -/
def stacked (val : CTerm n m → ℕ → ℝ) (ts : List (CTerm n m)) : List ℝ :=
  ts.flatMap fun τ => (List.range τ.size).map (val τ)

/-- A constraint that does not depend on time. -/
def CTerm.TimeInvariant (τ : CTerm n m) : Prop := ∀ x u t, τ.cg x u t = τ.cg x u 0

/-- A constraint whose values are differentiable in state and control together. -/
def CTerm.Diff (τ : CTerm n m) : Prop := ∀ i < τ.size,
  Differentiable ℝ fun p : Fin (n + m) → ℝ => τ.cg (fun i => p (Fin.castAdd m i)) (fun i => p (Fin.natAdd n i)) 0 i

/-! ### Stacking -/

theorem segments_append (val : CTerm n m → ℕ → ℝ) (ts : List (CTerm n m)) (t : CTerm n m) :
    segments val (ts ++ [t]) = ((segments val ts).1 + t.size, fun i =>
      if (segments val ts).1 ≤ i ∧ i < (segments val ts).1 + t.size then val t (i - (segments val ts).1)
      else (segments val ts).2 i) := by
  unfold segments
  rw [List.foldl_append]
  rfl

theorem segments_fst (val : CTerm n m → ℕ → ℝ) (ts : List (CTerm n m)) : (segments val ts).1 = countOf ts := by
  induction ts using List.reverseRecOn with
  | nil => rfl
  | append_singleton ts t ih => rw [segments_append]; simp [ih, countOf]

theorem segments_stacked (val : CTerm n m → ℕ → ℝ) (ts : List (CTerm n m)) :
    (List.range (countOf ts)).map (segments val ts).2 = stacked val ts := by
  induction ts using List.reverseRecOn with
  | nil => rfl
  | append_singleton ts t ih =>
    have hc : countOf (ts ++ [t]) = countOf ts + t.size := by simp [countOf]
    rw [hc, List.range_add, List.map_append, segments_append]
    simp only [segments_fst]
    have h1 : (List.range (countOf ts)).map (fun i => if countOf ts ≤ i ∧ i < countOf ts + t.size
        then val t (i - countOf ts) else (segments val ts).2 i) = stacked val ts := by
      rw [← ih]
      refine List.map_congr_left fun i hi => ?_
      have := List.mem_range.1 hi
      rw [if_neg (by omega)]
    rw [h1, List.map_map]
    have h2 : (List.range t.size).map ((fun i => if countOf ts ≤ i ∧ i < countOf ts + t.size
        then val t (i - countOf ts) else (segments val ts).2 i) ∘ fun x => countOf ts + x)
        = (List.range t.size).map (val t) := by
      refine List.map_congr_left fun i hi => ?_
      have := List.mem_range.1 hi
      simp only [Function.comp]
      rw [if_pos (by omega)]
      congr 1
      omega
    rw [h2]
    simp [stacked]

theorem stacked_length (val : CTerm n m → ℕ → ℝ) (ts : List (CTerm n m)) : (stacked val ts).length = countOf ts := by
  rw [← segments_stacked]; simp

theorem segments_getD (val : CTerm n m → ℕ → ℝ) (ts : List (CTerm n m)) (i : ℕ) (hi : i < countOf ts) :
    (segments val ts).2 i = (stacked val ts).getD i 0 := by
  rw [← segments_stacked, List.getD_eq_getElem?_getD, List.getElem?_map, List.getElem?_range hi]
  rfl

theorem differentiable_segments (ts : List (CTerm n m)) (h : ∀ τ ∈ ts, τ.Diff) (i : ℕ) :
    Differentiable ℝ fun p : Fin (n + m) → ℝ => (evaluateCodegen ts).f p i := by
  simp only [evaluateCodegen]
  induction ts using List.reverseRecOn with
  | nil => exact differentiable_const 0
  | append_singleton ts t ih =>
    simp only [segments_append, segments_fst]
    by_cases hc : countOf ts ≤ i ∧ i < countOf ts + t.size
    · simp only [hc, and_self, if_true]
      exact h t (by simp) _ (by omega)
    · simp only [hc, if_false]
      exact ih fun τ hτ => h τ (by simp [hτ])

@[simp] theorem stack2_x (x : Fin n → ℝ) (u : Fin m → ℝ) (i : Fin n) : stack2 x u (Fin.castAdd m i) = x i := by
  simp [stack2]

@[simp] theorem stack2_u (x : Fin n → ℝ) (u : Fin m → ℝ) (i : Fin m) : stack2 x u (Fin.natAdd n i) = u i := by
  simp [stack2]

theorem stack2_ext {p q : Fin (n + m) → ℝ} (h1 : ∀ i, p (Fin.castAdd m i) = q (Fin.castAdd m i))
    (h2 : ∀ i, p (Fin.natAdd n i) = q (Fin.natAdd n i)) : p = q := by
  funext k
  exact Fin.addCases h1 h2 k

/-- `v ↦ stack2 v 0`. -/
noncomputable def emb2X : (Fin n → ℝ) →L[ℝ] (Fin (n + m) → ℝ) :=
  LinearMap.toContinuousLinearMap
    { toFun := fun v => stack2 v 0
      map_add' := fun a b => stack2_ext (by simp) (by simp)
      map_smul' := fun a b => stack2_ext (by simp) (by simp) }

/-- `v ↦ stack2 0 v`. -/
noncomputable def emb2U : (Fin m → ℝ) →L[ℝ] (Fin (n + m) → ℝ) :=
  LinearMap.toContinuousLinearMap
    { toFun := fun v => stack2 0 v
      map_add' := fun a b => stack2_ext (by simp) (by simp)
      map_smul' := fun a b => stack2_ext (by simp) (by simp) }

theorem isGrad_stack2X {Φ : (Fin (n + m) → ℝ) → ℝ} {g : Fin (n + m) → ℝ} {x : Fin n → ℝ} {u : Fin m → ℝ}
    (h : IsGrad Φ g (stack2 x u)) : IsGrad (fun y => Φ (stack2 y u)) (fun i => g (Fin.castAdd m i)) x := by
  have hd : HasFDerivAt (fun y : Fin n → ℝ => stack2 y u) (emb2X (m := m)) x := by
    have : (fun y : Fin n → ℝ => stack2 y u) = fun y => emb2X y + stack2 0 u := by
      funext y
      exact stack2_ext (fun i => by simp [emb2X]) (fun i => by simp [emb2X])
    rw [this]
    exact (ContinuousLinearMap.hasFDerivAt _).add_const _
  have h' : HasFDerivAt Φ (gradMap g) ((fun y => stack2 y u) x) := h
  refine (h'.comp x hd).congr_fderiv ?_
  ext v
  simp only [ContinuousLinearMap.comp_apply, gradMap_apply, dotProduct]
  rw [Fin.sum_univ_add]
  simp [emb2X]

theorem isGrad_stack2U {Φ : (Fin (n + m) → ℝ) → ℝ} {g : Fin (n + m) → ℝ} {x : Fin n → ℝ} {u : Fin m → ℝ}
    (h : IsGrad Φ g (stack2 x u)) : IsGrad (fun v => Φ (stack2 x v)) (fun i => g (Fin.natAdd n i)) u := by
  have hd : HasFDerivAt (fun v : Fin m → ℝ => stack2 x v) (emb2U (n := n)) u := by
    have : (fun v : Fin m → ℝ => stack2 x v) = fun v => emb2U v + stack2 x 0 := by
      funext y
      exact stack2_ext (fun i => by simp [emb2U]) (fun i => by simp [emb2U])
    rw [this]
    exact (ContinuousLinearMap.hasFDerivAt _).add_const _
  have h' : HasFDerivAt Φ (gradMap g) ((fun v => stack2 x v) u) := h
  refine (h'.comp u hd).congr_fderiv ?_
  ext v
  simp only [ContinuousLinearMap.comp_apply, gradMap_apply, dotProduct]
  rw [Fin.sum_univ_add]
  simp [emb2U]

theorem evaluateCodegen_k (ts : List (CTerm n m)) : (evaluateCodegen ts).k = countOf ts := segments_fst _ ts

theorem evaluateCodegen_getD (ts : List (CTerm n m)) (h : ∀ τ ∈ ts, τ.TimeInvariant) (x : Fin n → ℝ) (u : Fin m → ℝ)
    (t : ℝ) (i : ℕ) (hi : i < countOf ts) :
    (evaluateCodegen ts).f (stack2 x u) i = (stacked (fun τ => τ.cg x u t) ts).getD i 0 := by
  simp only [evaluateCodegen, stack2_x, stack2_u]
  rw [segments_getD _ ts i hi]
  congr 1
  simp only [stacked]
  refine List.flatMap_congr fun τ hτ => ?_
  rw [h τ hτ x u t]

/-! ### Pattern of state and control columns -/

theorem splitPattern_eq (k : ℕ) (pat : List (ℕ × ℕ)) :
    splitPattern k pat = (pat.filter (fun p => p.2 < k),
      (pat.filter (fun p => ¬ p.2 < k)).map fun p => (p.1, p.2 - k)) := by
  have gen : ∀ (pat : List (ℕ × ℕ)) (s : List (ℕ × ℕ) × List (ℕ × ℕ)),
      pat.foldl (fun s p => if p.2 < k then (s.1 ++ [p], s.2) else (s.1, s.2 ++ [(p.1, p.2 - k)])) s
      = (s.1 ++ pat.filter (fun p => p.2 < k),
        s.2 ++ (pat.filter (fun p => ¬ p.2 < k)).map fun p => (p.1, p.2 - k)) := by
    intro pat
    induction pat with
    | nil => intro s; simp
    | cons p pat ih =>
      intro s
      rw [List.foldl_cons, ih]
      by_cases h : p.2 < k
      · simp [h]
      · simp [h, not_lt.1 h]
  simpa [splitPattern] using gen pat ([], [])

/-! ### Invariant of the program -/

/-- The object holds compiled code of the constraints `ts`. -/
def Compiled (ad : AD (n + m)) (j : Jit (n + m)) (ts : List (CTerm n m)) : Prop :=
  j.outputDim = countOf ts ∧ j.model = some (evaluateCodegen ts, conSettings) ∧
    j.pattern = ad.pattern (evaluateCodegen ts)

/-- Invariant of the members for one kind of constraints. -/
structure InvHalf (ad : AD (n + m)) (hf : Half n m) (ts : List (CTerm n m)) (ready : Bool) : Prop where
  terms : hf.terms = ts
  init : hf.init = ready
  null : hf.gen = none → ts = []
  tape : ∀ j, hf.gen = some j → 0 < countOf ts → j.outputDim = countOf ts ∧ j.tape = some (evaluateCodegen ts) ∧
    (j.model = none ∨ Compiled ad j ts)
  none_ : ∀ j, hf.gen = some j → countOf ts = 0 → j.model = none ∧ j.outputDim = 0
  done : ready = true → 0 < countOf ts → (∃ j, hf.gen = some j ∧ Compiled ad j ts) ∧
    hf.lb = stacked (fun τ => τ.lb) ts ∧ hf.ub = stacked (fun τ => τ.ub) ts ∧
    (hf.patX, hf.patU) = splitPattern n (ad.pattern (evaluateCodegen ts))

theorem initialize_inv (ad : AD (n + m)) (hf hf' : Half n m) (ts : List (CTerm n m)) (r : Bool)
    (hi : InvHalf ad { hf with init := false } ts false) (h : hf.initialize ad = .ok hf') :
    InvHalf ad { hf' with init := r } ts r ∧ hf'.init = hf.init ∧ hf'.owner = hf.owner ∧
      (hf.gen ≠ none → hf'.gen ≠ none) := by
  have ht : hf.terms = ts := hi.terms
  unfold Half.initialize at h
  simp only [ht] at h
  by_cases hc : countOf ts > 0
  · rw [if_pos hc] at h
    cases hg : hf.gen with
    | none => rw [hg] at h; exact absurd h (by simp)
    | some j =>
      rw [hg] at h
      obtain ⟨o1, t1, m1⟩ := hi.tape j hg hc
      have key : ∃ k, j.compile ad conSettings = .ok k ∧ Compiled ad k ts ∧ k.tape = j.tape := by
        rcases m1 with m1 | m1
        · refine ⟨⟨j.outputDim, j.tape, some (evaluateCodegen ts, conSettings), ad.pattern (evaluateCodegen ts),
            ad.pattern (evaluateCodegen ts)⟩, ?_, ⟨o1, rfl, rfl⟩, rfl⟩
          simp [Jit.compile, m1, t1, conSettings]
        · refine ⟨j, ?_, m1, rfl⟩
          simp [Jit.compile, m1.2.1]
      obtain ⟨k, hk, hk', hk''⟩ := key
      have hp : k.getPattern = .ok (ad.pattern (evaluateCodegen ts)) := by
        simp [Jit.getPattern, hk'.2.1, conSettings, hk'.2.2]
      simp only [hk, hp, Res.ok_bind] at h
      have e := Res.ok.inj h
      subst e
      refine ⟨⟨rfl, rfl, fun h => absurd h (by simp), ?_, ?_, ?_⟩, rfl, rfl, fun _ => by simp⟩
      · intro l hl _
        have : k = l := by simpa using hl
        subst this
        exact ⟨hk'.1, hk''.trans t1, Or.inr hk'⟩
      · intro l hl h0
        omega
      · intro _ _
        exact ⟨⟨k, rfl, hk'⟩, segments_stacked _ ts, segments_stacked _ ts, rfl⟩
  · rw [if_neg hc] at h
    have e := Res.ok.inj h
    subst e
    exact ⟨⟨ht, rfl, hi.null, hi.tape, hi.none_, fun _ h => absurd h hc⟩, rfl, rfl, id⟩

theorem inv_forget {ad : AD (n + m)} {hf : Half n m} {ts : List (CTerm n m)} {r : Bool} (h : InvHalf ad hf ts r) :
    InvHalf ad { hf with init := false } ts false :=
  ⟨h.terms, rfl, h.null, h.tape, h.none_, fun h => absurd h (by simp)⟩

/-- Invariant of the program: `objs` are the objects of the specification, `l` tells which of them were made by
a constructor. -/
structure Inv (ad : AD (n + m)) (h : Heap n m) (objs : List (Obj n m)) (l : List Bool) : Prop where
  len : h.length = objs.length
  len' : h.length = l.length
  obj : ∀ (id : ℕ) (c : Cont n m), h[id]? = some (some c) → ∃ o : Obj n m, objs[id]? = some o ∧ (∀ s, InvHalf ad (c.half s) (o.cons s) (o.ready s)) ∧
    c.sc = stack2 o.x o.u ∧ (l[id]? = some true → ∀ s, (c.half s).owner = some id ∨ o.cons s = []) ∧
    (o.canAdd = true → ∀ s, (c.half s).gen ≠ none)
  live : ∀ (id : ℕ) (o : Obj n m), objs[id]? = some o → o.alive = true → ∃ c, h[id]? = some (some c)

theorem bind_ok' {α β : Type} {a : Res α} {f : α → Res β} {b : β} (h : (a >>= f) = .ok b) :
    ∃ x, a = .ok x ∧ f x = .ok b := by
  cases a with
  | ok x => exact ⟨x, rfl, h⟩
  | exc => exact absurd h (by simp [bind, Res.bind])
  | ub => exact absurd h (by simp [bind, Res.bind])

theorem get_ok {h : Heap n m} {id : ℕ} {c : Cont n m} (hg : h.get id = .ok c) : h[id]? = some (some c) := by
  unfold Heap.get at hg
  split at hg
  · rename_i c' h'
    rw [h', Res.ok.inj hg]
  · exact absurd hg (by simp)

theorem lt_of_get {α : Type} {l : List α} {id : ℕ} {a : α} (h : l[id]? = some a) : id < l.length := by
  by_contra hn
  rw [List.getElem?_eq_none (by omega)] at h
  exact absurd h (by simp)

/-- Adding a container at the end keeps the invariant of the others. -/
theorem inv_push {ad : AD (n + m)} {h : Heap n m} {objs : List (Obj n m)} {l : List Bool} (hi : Inv ad h objs l)
    (c : Cont n m) (o : Obj n m) (b : Bool) (hs : ∀ s, InvHalf ad (c.half s) (o.cons s) (o.ready s))
    (hsc : c.sc = stack2 o.x o.u) (hb : b = true → ∀ s, (c.half s).owner = some h.length ∨ o.cons s = [])
    (hca : o.canAdd = true → ∀ s, (c.half s).gen ≠ none) :
    Inv ad (h ++ [some c]) (objs ++ [o]) (l ++ [b]) := by
  refine ⟨by simp [hi.len], by simp [hi.len'], fun id d hd => ?_, fun id o' ho' ha => ?_⟩
  rotate_left
  · by_cases hlt : id < h.length
    · rw [List.getElem?_append_left (hi.len ▸ hlt)] at ho'
      rw [List.getElem?_append_left hlt]
      exact hi.live id o' ho' ha
    · have : id = h.length := by
        have := lt_of_get ho'
        simp [← hi.len] at this
        omega
      subst this
      exact ⟨c, by simp⟩
  by_cases hlt : id < h.length
  · rw [List.getElem?_append_left hlt] at hd
    obtain ⟨o', h1, h2, h3, h4, h5⟩ := hi.obj id d hd
    refine ⟨o', ?_, h2, h3, fun hl => h4 ?_, h5⟩
    · rw [List.getElem?_append_left (hi.len ▸ hlt)]; exact h1
    · rw [List.getElem?_append_left (hi.len' ▸ hlt)] at hl; exact hl
  · have : id = h.length := by
      have := lt_of_get hd
      simp at this
      omega
    subst this
    have : d = c := by simpa using hd.symm
    subst this
    refine ⟨o, ?_, hs, hsc, fun hl => hb ?_, hca⟩
    · rw [hi.len]; simp
    · rw [hi.len'] at hl; simpa using hl

/-- Changing one container keeps the invariant of the others. -/
theorem inv_modify {ad : AD (n + m)} {h : Heap n m} {objs : List (Obj n m)} {l : List Bool} (hi : Inv ad h objs l)
    {id : ℕ} {c c' : Cont n m} {o : Obj n m} (f : Obj n m → Obj n m) (hc : h[id]? = some (some c)) (ho : objs[id]? = some o)
    (hs : ∀ s, InvHalf ad (c'.half s) ((f o).cons s) ((f o).ready s)) (hsc : c'.sc = stack2 (f o).x (f o).u)
    (hb : l[id]? = some true → ∀ s, (c'.half s).owner = some id ∨ (f o).cons s = [])
    (hca : (f o).canAdd = true → ∀ s, (c'.half s).gen ≠ none) :
    Inv ad (h.set id (some c')) (objs.modify id f) l := by
  refine ⟨by simp [hi.len], by simp [hi.len'], fun k d hd => ?_, fun k o' ho' ha => ?_⟩
  rotate_left
  · by_cases e : k = id
    · subst e
      exact ⟨c', by rw [List.getElem?_set_self (lt_of_get hc)]⟩
    · have e' : ¬ id = k := fun h => e h.symm
      rw [List.getElem?_set_ne e']
      exact hi.live k o' (by simpa [List.getElem?_modify, e'] using ho') ha
  by_cases e : k = id
  · subst e
    have : d = c' := by
      rw [List.getElem?_set_self (lt_of_get hc)] at hd
      simpa using hd.symm
    subst this
    exact ⟨f o, by simp [List.getElem?_modify, ho], hs, hsc, hb, hca⟩
  · rw [List.getElem?_set_ne (fun h => e h.symm)] at hd
    obtain ⟨o', h1, h2, h3, h4, h5⟩ := hi.obj k d hd
    refine ⟨o', ?_, h2, h3, h4, h5⟩
    have e' : ¬ id = k := fun h => e h.symm
    simp [List.getElem?_modify, e', h1]

theorem newGen_inv {ad : AD (n + m)} (hN : 0 < n + m) {h : Heap n m} {id : ℕ} {c : Cont n m} (hc : h.get id = .ok c)
    (s : Side) (ts : List (CTerm n m)) (r : Bool) (hi : InvHalf ad (c.half s) ts r)
    (ho : (c.half s).owner = some id ∨ ts = []) {g : Jit (n + m)}
    (hg : newGen h (c.half s).owner s (countOf (c.half s).terms) = .ok g) :
    InvHalf ad { c.half s with gen := some g, init := false } ts false := by
  rw [hi.terms] at hg
  unfold newGen at hg
  by_cases h0 : countOf ts > 0 ∧ n + m > 0
  · rw [if_pos h0] at hg
    rcases ho with ho | ho
    · rw [ho] at hg
      simp only [record, hc, Res.ok_bind, hi.terms] at hg
      have e : Jit.new (evaluateCodegen ts) (countOf ts) = g := Res.ok.inj hg
      have e' : g = ⟨countOf ts, some (evaluateCodegen ts), none, [], []⟩ := by
        rw [← e]
        simp [Jit.new, Jit.update, h0]
      subst e'
      refine ⟨hi.terms, rfl, fun h => absurd h (by simp), fun j hj _ => ?_, fun j hj hz => absurd h0.1 (by omega),
        fun h => absurd h (by simp)⟩
      have := Option.some.inj hj
      subst this
      exact ⟨rfl, rfl, Or.inl rfl⟩
    · rw [ho] at h0
      exact absurd h0.1 (by simp [countOf])
  · rw [if_neg h0] at hg
    have e := Res.ok.inj hg
    subst e
    have hz : countOf ts = 0 := by
      by_contra hne
      exact h0 ⟨by omega, hN⟩
    refine ⟨hi.terms, rfl, fun h => absurd h (by simp), fun j hj hp => absurd hp (by omega), fun j hj _ => ?_,
      fun h => absurd h (by simp)⟩
    have := Option.some.inj hj
    subst this
    exact ⟨rfl, hz⟩

/-- Whether each object after a call was made by a constructor. -/
def origins (l : List Bool) : KOp n m → List Bool
  | .new => l ++ [true]
  | .newAt _ _ _ => l ++ [true]
  | .clone _ => l ++ [false]
  | _ => l

theorem step_inv (ad : AD (n + m)) (hN : 0 < n + m) (h h' : Heap n m) (objs : List (Obj n m)) (l : List Bool) (op : KOp n m)
    (hi : Inv ad h objs l) (hcl : ∀ id, op = .clone id → l[id]? = some true) (hs : Heap.step ad h op = .ok h') :
    Inv ad h' (objStep objs op) (origins l op) := by
  cases op with
  | new =>
    have e := Res.ok.inj hs
    subst e
    refine inv_push hi _ _ _ (fun s => ?_) ?_ (fun _ s => Or.inl rfl) (fun _ s => by simp [Cont.new])
    · refine ⟨rfl, rfl, fun h => absurd h (by simp [Cont.new]), fun j _ h => absurd h (by simp [countOf]), fun j hj _ => ?_,
        fun h => absurd h (by simp)⟩
      have := Option.some.inj hj
      subst this
      exact ⟨rfl, rfl⟩
    · exact stack2_ext (by simp [Cont.new]) (by simp [Cont.new])
  | newAt x u t =>
    have e := Res.ok.inj hs
    subst e
    refine inv_push hi _ _ _ (fun s => ?_) rfl (fun _ s => Or.inr rfl) (fun h => absurd h (by simp))
    exact ⟨rfl, rfl, fun _ => rfl, fun j hj => absurd hj (by simp [Cont.newAt]), fun j hj => absurd hj (by simp [Cont.newAt]),
      fun h => absurd h (by simp)⟩
  | add id s t =>
    obtain ⟨c, hc, hs⟩ := bind_ok' hs
    obtain ⟨c', hc', hs⟩ := bind_ok' hs
    have e := Res.ok.inj hs
    subst e
    obtain ⟨o, h1, h2, h3, h4, h5⟩ := hi.obj id c (get_ok hc)
    unfold Cont.add at hc'
    cases hg : (c.half s).gen with
    | none => simp only [hg] at hc'; exact absurd hc' (by simp)
    | some j =>
      simp only [hg] at hc'
      have e := Res.ok.inj hc'
      subst e
      refine inv_modify hi _ (get_ok hc) h1 (fun s' => ?_) h3 (fun hl s' => ?_) (fun hca s' => ?_)
      · by_cases hss : s' = s
        · subst hss
          simp only [Cont.setHalf, Function.update_self, (h2 s').terms]
          refine ⟨rfl, rfl, fun h => absurd h (by simp), fun k hk hp => ?_, fun k hk hz => ?_, fun h => absurd h (by simp)⟩
          · have := Option.some.inj hk
            subst this
            have hd : j.update (evaluateCodegen (o.cons s' ++ [t])) (countOf (o.cons s' ++ [t]))
                = { j with outputDim := countOf (o.cons s' ++ [t]), tape := some (evaluateCodegen (o.cons s' ++ [t])),
                           model := none } := by
              simp [Jit.update, hp, hN]
            rw [hd]
            exact ⟨rfl, rfl, Or.inl rfl⟩
          · have := Option.some.inj hk
            subst this
            have hz' : countOf (o.cons s') = 0 := by
              simp [countOf] at hz ⊢
              omega
            obtain ⟨m0, -⟩ := (h2 s').none_ j hg hz'
            rw [hz]
            simp [Jit.update, m0]
        · simp only [Cont.setHalf, Function.update_of_ne hss]
          exact h2 s'
      · by_cases hss : s' = s
        · subst hss
          left
          simp [Cont.setHalf]
        · simp only [Cont.setHalf, Function.update_of_ne hss]
          exact h4 hl s'
      · by_cases hss : s' = s
        · subst hss
          simp [Cont.setHalf]
        · simp only [Cont.setHalf, Function.update_of_ne hss]
          exact h5 hca s'
  | «initialize» id =>
    obtain ⟨c, hc, hs⟩ := bind_ok' hs
    obtain ⟨c', hc', hs⟩ := bind_ok' hs
    have e := Res.ok.inj hs
    subst e
    obtain ⟨o, h1, h2, h3, h4, h5⟩ := hi.obj id c (get_ok hc)
    obtain ⟨hf1, hh1, hc'⟩ := bind_ok' hc'
    obtain ⟨hf2, hh2, hc'⟩ := bind_ok' hc'
    have e := Res.ok.inj hc'
    subst e
    obtain ⟨a1, -, a3, a4⟩ := initialize_inv ad _ hf1 _ true (inv_forget (h2 .inter)) hh1
    obtain ⟨b1, -, b3, b4⟩ := initialize_inv ad _ hf2 _ true (inv_forget (h2 .term)) hh2
    refine inv_modify hi _ (get_ok hc) h1 (fun s' => ?_) h3 (fun hl s' => ?_) (fun hca s' => ?_)
    · cases s'
      · exact a1
      · exact b1
    · cases s'
      · have := h4 hl .inter
        rw [← a3] at this
        exact this
      · have := h4 hl .term
        rw [← b3] at this
        exact this
    · cases s'
      · exact a4 (h5 hca .inter)
      · exact b4 (h5 hca .term)
  | set id x u t =>
    obtain ⟨c, hc, hs⟩ := bind_ok' hs
    have e := Res.ok.inj hs
    subst e
    obtain ⟨o, h1, h2, h3, h4, h5⟩ := hi.obj id c (get_ok hc)
    exact inv_modify hi _ (get_ok hc) h1 h2 rfl h4 h5
  | clone id =>
    obtain ⟨c, hc, hs⟩ := bind_ok' hs
    obtain ⟨c', hc', hs⟩ := bind_ok' hs
    have e := Res.ok.inj hs
    subst e
    obtain ⟨o, h1, h2, h3, h4, h5⟩ := hi.obj id c (get_ok hc)
    have h4' := h4 (hcl id rfl)
    obtain ⟨g1, hg1, hc'⟩ := bind_ok' hc'
    obtain ⟨g2, hg2, hc'⟩ := bind_ok' hc'
    obtain ⟨hf1, hh1, hc'⟩ := bind_ok' hc'
    obtain ⟨hf2, hh2, hc'⟩ := bind_ok' hc'
    have e := Res.ok.inj hc'
    subst e
    have i1 := newGen_inv hN hc .inter _ _ (h2 .inter) (h4' .inter) hg1
    have i2 := newGen_inv hN hc .term _ _ (h2 .term) (h4' .term) hg2
    obtain ⟨a1, a2, -, a4⟩ := initialize_inv ad { c.half .inter with gen := some g1 } hf1 _ (o.ready .inter) i1 hh1
    obtain ⟨b1, b2, -, b4⟩ := initialize_inv ad { c.half .term with gen := some g2 } hf2 _ (o.ready .term) i2 hh2
    have ea : hf1.init = o.ready .inter := by rw [a2]; exact (h2 .inter).init
    have eb : hf2.init = o.ready .term := by rw [b2]; exact (h2 .term).init
    simp only [objStep, origins, h1, Option.map_some, Option.toList_some]
    refine inv_push hi _ { o with canAdd := true } false (fun s' => ?_) h3 (fun h => absurd h (by simp)) (fun _ s' => ?_)
    · cases s'
      · rw [← ea] at a1 ⊢; exact a1
      · rw [← eb] at b1 ⊢; exact b1
    · cases s'
      · exact a4 (by simp)
      · exact b4 (by simp)
  | destroy id =>
    obtain ⟨c, hc, hs⟩ := bind_ok' hs
    have e := Res.ok.inj hs
    subst e
    refine ⟨by simp [objStep, hi.len], by simp [origins, hi.len'], fun k d hd => ?_, fun k o' ho' ha => ?_⟩
    · by_cases e : k = id
      · subst e
        rw [List.getElem?_set_self (lt_of_get (get_ok hc))] at hd
        exact absurd hd (by simp)
      · have e' : ¬ id = k := fun h => e h.symm
        rw [List.getElem?_set_ne e'] at hd
        obtain ⟨o', h1, h2⟩ := hi.obj k d hd
        exact ⟨o', by simp [objStep, List.getElem?_modify, e', h1], h2⟩
    · by_cases e : k = id
      · subst e
        obtain ⟨o'', hk, rfl⟩ : ∃ o'', objs[k]? = some o'' ∧ { o'' with alive := false } = o' := by
          simpa [objStep, List.getElem?_modify, Option.map_eq_some_iff] using ho'
        exact absurd ha (by simp)
      · have e' : ¬ id = k := fun h => e h.symm
        rw [List.getElem?_set_ne e']
        exact hi.live k o' (by simpa [objStep, List.getElem?_modify, e'] using ho') ha

theorem run_inv' (ad : AD (n + m)) (hN : 0 < n + m) (ops : List (KOp n m)) (hcl : NoSecondCopy [] ops) (h : Heap n m)
    (hr : Heap.run ad ops = .ok h) : Inv ad h (objects ops) (ops.foldl origins []) := by
  have gen : ∀ (ops : List (KOp n m)) (h h' : Heap n m) (objs : List (Obj n m)) (l : List Bool), NoSecondCopy l ops →
      Inv ad h objs l → ops.foldlM (Heap.step ad) h = .ok h' → Inv ad h' (ops.foldl objStep objs) (ops.foldl origins l) := by
    intro ops
    induction ops with
    | nil =>
      intro h h' objs l _ hi hr
      have : h = h' := by simpa [pure, Res.pure_eq] using hr
      exact this ▸ hi
    | cons op ops ih =>
      intro h h' objs l hcl hi hr
      rw [List.foldlM_cons] at hr
      obtain ⟨d, hd, hr⟩ := bind_ok' hr
      have hcl' : NoSecondCopy (origins l op) ops ∧ ∀ id, op = .clone id → l[id]? = some true := by
        cases op <;> simp_all [NoSecondCopy, origins]
      exact ih d h' _ _ hcl'.1 (step_inv ad hN h d objs l op hi hcl'.2 hd) hr
  exact gen ops [] h [] [] hcl ⟨rfl, rfl, fun id c h => absurd h (by simp), fun id o h => absurd h (by simp)⟩ hr

theorem run_inv (ad : AD (n + m)) (hN : 0 < n + m) (ops : List (KOp n m)) (hcl : NoSecondCopy [] ops) (h : Heap n m)
    (hr : Heap.run ad ops = .ok h) : ∃ l, Inv ad h (objects ops) l := ⟨_, run_inv' ad hN ops hcl h hr⟩

/-! ### Legal histories run -/

theorem initialize_runs {ad : AD (n + m)} {hf : Half n m} {ts : List (CTerm n m)} {r : Bool} (hi : InvHalf ad hf ts r) :
    ∃ hf', hf.initialize ad = .ok hf' := by
  unfold Half.initialize
  simp only [hi.terms]
  by_cases hc : countOf ts > 0
  · rw [if_pos hc]
    cases hg : hf.gen with
    | none =>
      rw [hi.null hg] at hc
      exact absurd hc (by simp [countOf])
    | some j =>
      obtain ⟨o1, t1, m1⟩ := hi.tape j hg hc
      rcases m1 with m1 | m1
      · have hj : j.compile ad conSettings = .ok ⟨j.outputDim, j.tape, some (evaluateCodegen ts, conSettings),
            ad.pattern (evaluateCodegen ts), ad.pattern (evaluateCodegen ts)⟩ := by
          simp [Jit.compile, m1, t1, conSettings]
        simp only [hj, Res.ok_bind]
        exact ⟨_, rfl⟩
      · have hj : j.compile ad conSettings = .ok j := by simp [Jit.compile, m1.2.1]
        have hp : j.getPattern = .ok j.pattern := by simp [Jit.getPattern, m1.2.1, conSettings]
        simp only [hj, hp, Res.ok_bind]
        exact ⟨_, rfl⟩
  · rw [if_neg hc]
    exact ⟨_, rfl⟩

theorem initialize_init {ad : AD (n + m)} {hf hf' : Half n m} (h : hf.initialize ad = .ok hf') (b : Bool) :
    ∃ hf'', ({ hf with init := b } : Half n m).initialize ad = .ok hf'' := by
  unfold Half.initialize at h ⊢
  by_cases hc : countOf hf.terms > 0
  · simp only [hc, if_true] at h ⊢
    cases hg : hf.gen with
    | none => simp only [hg] at h; exact absurd h (by simp)
    | some j =>
      simp only [hg] at h ⊢
      obtain ⟨k, hk, h⟩ := bind_ok' h
      obtain ⟨p, hp, h⟩ := bind_ok' h
      simp only [hk, hp, Res.ok_bind]
      exact ⟨_, rfl⟩
  · simp only [hc, if_false]
    exact ⟨_, rfl⟩

theorem newGen_runs {ad : AD (n + m)} {h : Heap n m} {id : ℕ} {c : Cont n m} (hc : h.get id = .ok c)
    (s : Side) (ts : List (CTerm n m)) (r : Bool) (hi : InvHalf ad (c.half s) ts r)
    (ho : (c.half s).owner = some id ∨ ts = []) :
    ∃ g, newGen h (c.half s).owner s (countOf (c.half s).terms) = .ok g := by
  rw [hi.terms]
  unfold newGen
  split
  · rename_i h0
    rcases ho with ho | ho
    · simp only [ho, record, hc, Res.ok_bind]
      exact ⟨_, rfl⟩
    · rw [ho] at h0
      exact absurd h0.1 (by simp [countOf])
  · exact ⟨_, rfl⟩

theorem ok_of_get {h : Heap n m} {id : ℕ} {c : Cont n m} (hc : h[id]? = some (some c)) : h.get id = .ok c := by
  simp [Heap.get, hc]

theorem legal_runs (ad : AD (n + m)) (hN : 0 < n + m) (ops : List (KOp n m)) :
    ∀ (h : Heap n m) (objs : List (Obj n m)) (l : List Bool), NoSecondCopy l ops → Legal objs ops → Inv ad h objs l →
      ∃ h', ops.foldlM (Heap.step ad) h = .ok h' := by
  induction ops with
  | nil => intro h objs l _ _ _; exact ⟨h, rfl⟩
  | cons op ops ih =>
    intro h objs l hcl hle hi
    have hcl' : NoSecondCopy (origins l op) ops ∧ ∀ id, op = .clone id → l[id]? = some true := by
      cases op <;> simp_all [NoSecondCopy, origins]
    have hstep : ∃ d, Heap.step ad h op = .ok d := by
      cases op with
      | new => exact ⟨_, rfl⟩
      | newAt x u t => exact ⟨_, rfl⟩
      | add id s t =>
        obtain ⟨⟨o, ho, ha, hca⟩, -⟩ := hle
        obtain ⟨c, hc⟩ := hi.live id o ho ha
        obtain ⟨o', h1, -, -, -, h5⟩ := hi.obj id c hc
        have : o' = o := by rw [h1] at ho; exact Option.some.inj ho
        subst this
        cases hg : (c.half s).gen with
        | none => exact absurd hg (h5 hca s)
        | some j =>
          simp only [Heap.step, ok_of_get hc, Res.ok_bind, Cont.add, hg]
          exact ⟨_, rfl⟩
      | «initialize» id =>
        obtain ⟨⟨o, ho, ha⟩, -⟩ := hle
        obtain ⟨c, hc⟩ := hi.live id o ho ha
        obtain ⟨o', h1, h2, -⟩ := hi.obj id c hc
        obtain ⟨a, ha⟩ := initialize_runs (h2 .inter)
        obtain ⟨b, hb⟩ := initialize_runs (h2 .term)
        simp only [Heap.step, ok_of_get hc, Res.ok_bind, Cont.initialize, ha, hb]
        exact ⟨_, rfl⟩
      | set id x u t =>
        obtain ⟨⟨o, ho, ha⟩, -⟩ := hle
        obtain ⟨c, hc⟩ := hi.live id o ho ha
        simp only [Heap.step, ok_of_get hc, Res.ok_bind]
        exact ⟨_, rfl⟩
      | clone id =>
        obtain ⟨⟨o, ho, ha⟩, -⟩ := hle
        obtain ⟨c, hc⟩ := hi.live id o ho ha
        obtain ⟨o', h1, h2, -, h4, -⟩ := hi.obj id c hc
        have h4' := h4 (hcl'.2 id rfl)
        obtain ⟨g1, hg1⟩ := newGen_runs (ok_of_get hc) .inter _ _ (h2 .inter) (h4' .inter)
        obtain ⟨g2, hg2⟩ := newGen_runs (ok_of_get hc) .term _ _ (h2 .term) (h4' .term)
        obtain ⟨a, ha⟩ := initialize_runs (newGen_inv hN (ok_of_get hc) .inter _ _ (h2 .inter) (h4' .inter) hg1)
        obtain ⟨b, hb⟩ := initialize_runs (newGen_inv hN (ok_of_get hc) .term _ _ (h2 .term) (h4' .term) hg2)
        obtain ⟨a', ha'⟩ := initialize_init ha (c.half .inter).init
        obtain ⟨b', hb'⟩ := initialize_init hb (c.half .term).init
        simp only [Heap.step, ok_of_get hc, Res.ok_bind, Cont.copy, hg1, hg2]
        rw [show Half.initialize ad { c.half .inter with gen := some g1 } = .ok a' from ha',
          show Half.initialize ad { c.half .term with gen := some g2 } = .ok b' from hb']
        exact ⟨_, rfl⟩
      | destroy id =>
        obtain ⟨⟨o, ho, ha⟩, -⟩ := hle
        obtain ⟨c, hc⟩ := hi.live id o ho ha
        simp only [Heap.step, ok_of_get hc, Res.ok_bind]
        exact ⟨_, rfl⟩
    obtain ⟨d, hd⟩ := hstep
    obtain ⟨h', hh'⟩ := ih d _ _ hcl'.1 hle.2 (step_inv ad hN h d objs l op hi hcl'.2 hd)
    exact ⟨h', by rw [List.foldlM_cons, hd]; exact hh'⟩

/-! ### C152 -/

/-- C152: a history of calls on existing containers, in which constraints are added only to containers that were not
made by the constructor with a point and in which no copy is copied again, runs without error, and every
object not destroyed can be used. -/
theorem C152_runs_partial (ad : AD (n + m)) (hN : 0 < n + m) (ops : List (KOp n m)) (hcl : NoSecondCopy [] ops)
    (hle : Legal [] ops) : ∃ h, Heap.run ad ops = .ok h ∧
      ∀ id o, (objects ops)[id]? = some o → o.alive = true → ∃ c, h.get id = .ok c := by
  obtain ⟨h, hr⟩ := legal_runs ad hN ops [] [] [] hcl hle
    ⟨rfl, rfl, fun id c h => absurd h (by simp), fun id o h => absurd h (by simp)⟩
  obtain ⟨l, hi⟩ := run_inv ad hN ops hcl h hr
  refine ⟨h, hr, fun id o ho ha => ?_⟩
  obtain ⟨c, hc⟩ := hi.live id o ho ha
  exact ⟨c, ok_of_get hc⟩

/-- What is known of a container with initialised constraints. -/
theorem ready_state (ad : AD (n + m)) (hN : 0 < n + m) (ops : List (KOp n m)) (hcl : NoSecondCopy [] ops) (h : Heap n m)
    (hr : Heap.run ad ops = .ok h) (id : ℕ) (c : Cont n m) (hc : h.get id = .ok c) (s : Side) :
    ∃ o, (objects ops)[id]? = some o ∧ c.sc = stack2 o.x o.u ∧ InvHalf ad (c.half s) (o.cons s) (o.ready s) := by
  obtain ⟨l, hi⟩ := run_inv ad hN ops hcl h hr
  obtain ⟨o, h1, h2, h3, -⟩ := hi.obj id c (get_ok hc)
  exact ⟨o, h1, h3, h2 s⟩

theorem jacobian_eq (ad : AD (n + m)) {c : Cont n m} {s : Side} {o : Obj n m}
    (hinv : InvHalf ad (c.half s) (o.cons s) (o.ready s)) (hrd : o.ready s = true) (hpos : 0 < countOf (o.cons s)) :
    ∃ j, (c.half s).check = .ok () ∧ (c.half s).deref = .ok j ∧
      (c.half s).gen = some j ∧ Compiled ad j (o.cons s) ∧
      ∀ p, j.jacobian ad p = .ok ((List.range (countOf (o.cons s))).map fun i c =>
        ad.jac (evaluateCodegen (o.cons s)) p (i * (n + m) + c)) := by
  obtain ⟨⟨j, hj, hc⟩, -⟩ := hinv.done hrd hpos
  refine ⟨j, ?_, ?_, hj, hc, fun p => ?_⟩
  · simp [Half.check, hinv.init, hrd]
  · simp [Half.deref, hj]
  · have h0 : countOf (o.cons s) ≠ 0 := by omega
    simp [Jit.jacobian, hc.1, hc.2.1, conSettings, h0, evaluateCodegen_k]

/-- C152, values: after any history of constructions, additions, initialisations, new points, destructions and
copies (of objects made by a constructor), a container whose constraints of a kind are initialised, at least one of
them with a value, returns the values of the constraints added to it, one after the other, at the state and
control set last, and their bounds in the same order. Missing: constraints that depend on time, see
`C152_time_violated`; kinds without constraints, see `C152_empty_violated`; copies of copies, see C153. -/
theorem C152_values_partial (ad : AD (n + m)) (hN : 0 < n + m) (ops : List (KOp n m)) (hcl : NoSecondCopy [] ops)
    (h : Heap n m) (hr : Heap.run ad ops = .ok h) (id : ℕ) (c : Cont n m) (hc : h.get id = .ok c) (s : Side) :
    ∃ o, (objects ops)[id]? = some o ∧
      (o.ready s = true → stacked (fun τ => τ.lb) (o.cons s) ≠ [] → (∀ τ ∈ o.cons s, τ.TimeInvariant) →
        c.evaluate s = .ok (stacked (fun τ => τ.cg o.x o.u o.t) (o.cons s)) ∧
        (c.half s).lb = stacked (fun τ => τ.lb) (o.cons s) ∧ (c.half s).ub = stacked (fun τ => τ.ub) (o.cons s)) := by
  obtain ⟨o, h1, h2, hinv⟩ := ready_state ad hN ops hcl h hr id c hc s
  refine ⟨o, h1, fun hrd hne hti => ?_⟩
  have hpos : 0 < countOf (o.cons s) := by
    rw [← stacked_length (fun τ => τ.lb)]
    exact List.length_pos_of_ne_nil hne
  obtain ⟨⟨j, hj, hcmp⟩, hl, hu, -⟩ := hinv.done hrd hpos
  refine ⟨?_, hl, hu⟩
  have hck : (c.half s).check = .ok () := by simp [Half.check, hinv.init, hrd]
  have hdr : (c.half s).deref = .ok j := by simp [Half.deref, hj]
  have hv : (List.range (countOf (o.cons s))).map ((evaluateCodegen (o.cons s)).f (stack2 o.x o.u))
      = stacked (fun τ => τ.cg o.x o.u o.t) (o.cons s) := by
    refine List.ext_getElem (by simp [stacked_length]) fun i hi hi' => ?_
    rw [List.getElem_map, List.getElem_range,
      evaluateCodegen_getD _ hti o.x o.u o.t i (by simpa using hi), List.getD_eq_getElem?_getD,
      List.getElem?_eq_getElem hi']
    rfl
  simp only [Cont.evaluate, hck, hdr, Res.ok_bind, h2]
  simp [Jit.forwardZero, hcmp.2.1, conSettings, evaluateCodegen_k, hv]

/-- C152, Jacobians: row `k` of the Jacobians of an initialised container is the gradient of its `k`-th value
in state and control. Missing: as for the values. -/
theorem C152_jacobians_partial (ad : AD (n + m)) (hfa : ad.Faithful) (hN : 0 < n + m) (ops : List (KOp n m))
    (hcl : NoSecondCopy [] ops) (h : Heap n m) (hr : Heap.run ad ops = .ok h) (id : ℕ) (c : Cont n m)
    (hc : h.get id = .ok c) (s : Side) :
    ∃ o, (objects ops)[id]? = some o ∧
      (o.ready s = true → stacked (fun τ => τ.lb) (o.cons s) ≠ [] → (∀ τ ∈ o.cons s, τ.TimeInvariant ∧ τ.Diff) →
        ∃ JX JU, c.jacobianState ad s = .ok JX ∧ c.jacobianInput ad s = .ok JU ∧
          JX.length = (stacked (fun τ => τ.cg o.x o.u o.t) (o.cons s)).length ∧ JU.length = JX.length ∧
          (∀ k (hk : k < JX.length),
            IsGrad (fun y => (stacked (fun τ => τ.cg y o.u o.t) (o.cons s)).getD k 0) JX[k] o.x) ∧
          (∀ k (hk : k < JU.length),
            IsGrad (fun v => (stacked (fun τ => τ.cg o.x v o.t) (o.cons s)).getD k 0) JU[k] o.u)) := by
  obtain ⟨o, h1, h2, hinv⟩ := ready_state ad hN ops hcl h hr id c hc s
  refine ⟨o, h1, fun hrd hne hti => ?_⟩
  have hpos : 0 < countOf (o.cons s) := by
    rw [← stacked_length (fun τ => τ.lb)]
    exact List.length_pos_of_ne_nil hne
  obtain ⟨j, hck, hdr, -, -, hjac⟩ := jacobian_eq ad hinv hrd hpos
  have hgr : ∀ k < countOf (o.cons s), IsGrad (fun p => (evaluateCodegen (o.cons s)).f p k)
      (fun i => ad.jac (evaluateCodegen (o.cons s)) (stack2 o.x o.u) (k * (n + m) + i)) (stack2 o.x o.u) := by
    intro k hk
    have hd := isGrad_of_differentiable (differentiable_segments (o.cons s) (fun τ hτ => (hti τ hτ).2) k (stack2 o.x o.u))
    have e : (fun i : Fin (n + m) => ad.jac (evaluateCodegen (o.cons s)) (stack2 o.x o.u) (k * (n + m) + i)) = _ :=
      funext fun i => hfa.jac _ (stack2 o.x o.u) k (by rw [evaluateCodegen_k]; exact hk) _ hd i
    rw [e]
    exact hd
  refine ⟨(List.range (countOf (o.cons s))).map fun k i =>
      ad.jac (evaluateCodegen (o.cons s)) (stack2 o.x o.u) (k * (n + m) + (Fin.castAdd m i : Fin (n + m))),
    (List.range (countOf (o.cons s))).map fun k i =>
      ad.jac (evaluateCodegen (o.cons s)) (stack2 o.x o.u) (k * (n + m) + (Fin.natAdd n i : Fin (n + m))), ?_, ?_, ?_, ?_, ?_, ?_⟩
  · simp only [Cont.jacobianState, hck, hdr, h2, hjac, Res.ok_bind, List.map_map]
    rfl
  · simp only [Cont.jacobianInput, hck, hdr, h2, hjac, Res.ok_bind, List.map_map]
    rfl
  · simp [stacked_length]
  · simp
  · intro k hk
    have hk' : k < countOf (o.cons s) := by simpa using hk
    have := isGrad_stack2X (hgr k hk')
    simp only [evaluateCodegen_getD _ (fun τ hτ => (hti τ hτ).1) _ _ o.t k hk'] at this
    simpa using this
  · intro k hk
    have hk' : k < countOf (o.cons s) := by simpa using hk
    have := isGrad_stack2U (hgr k hk')
    simp only [evaluateCodegen_getD _ (fun τ hτ => (hti τ hτ).1) _ _ o.t k hk'] at this
    simpa using this

theorem mapM_entryAt {k : ℕ} (J : List (Fin k → ℝ)) (pos : List (ℕ × ℕ)) (h : ∀ p ∈ pos, p.1 < J.length ∧ p.2 < k) :
    ∃ vals, pos.mapM (entryAt J) = .ok vals ∧ vals.length = pos.length ∧
      ∀ l (h1 : l < pos.length) (h2 : l < vals.length), ∃ (hr : pos[l].1 < J.length) (hc : pos[l].2 < k),
        vals[l] = J[pos[l].1] ⟨pos[l].2, hc⟩ := by
  induction pos with
  | nil => exact ⟨[], rfl, rfl, fun l h1 => absurd h1 (by simp)⟩
  | cons p pos ih =>
    obtain ⟨vals, hv, hl, hx⟩ := ih fun q hq => h q (by simp [hq])
    obtain ⟨h1, h2⟩ := h p (by simp)
    have he : entryAt J p = .ok (J[p.1] ⟨p.2, h2⟩) := by
      simp [entryAt, List.getElem?_eq_getElem h1, h2]
    refine ⟨J[p.1] ⟨p.2, h2⟩ :: vals, ?_, by simp [hl], fun l => ?_⟩
    · rw [List.mapM_cons, he, Res.ok_bind, hv, Res.ok_bind]; rfl
    · cases l with
      | zero => intro _ _; exact ⟨h1, h2, rfl⟩
      | succ l =>
        intro a b
        exact hx l (by simpa using a) (by simpa using b)

/-- C152, sparse Jacobians: the positions listed for state and control are within the Jacobians and listed
once, the sparse Jacobian has one value per position, which is the entry of the Jacobian, and all other entries are zero.
Missing: as for the values. -/
theorem C152_sparse_partial (ad : AD (n + m)) (hfa : ad.Faithful) (hN : 0 < n + m) (ops : List (KOp n m))
    (hcl : NoSecondCopy [] ops) (h : Heap n m) (hr : Heap.run ad ops = .ok h) (id : ℕ) (c : Cont n m)
    (hc : h.get id = .ok c) (s : Side) :
    ∃ o, (objects ops)[id]? = some o ∧
      (o.ready s = true → stacked (fun τ => τ.lb) (o.cons s) ≠ [] →
        (∃ J pos vals, c.jacobianState ad s = .ok J ∧ c.patternState s = .ok pos ∧ c.jacobianStateSparse ad s = .ok vals ∧
          pos.Nodup ∧ vals.length = pos.length ∧
          (∀ l (h1 : l < pos.length) (h2 : l < vals.length), ∃ (hr : pos[l].1 < J.length) (hc : pos[l].2 < n),
            vals[l] = J[pos[l].1] ⟨pos[l].2, hc⟩) ∧
          (∀ k (hk : k < J.length) (i : Fin n), (k, i.val) ∉ pos → J[k] i = 0)) ∧
        (∃ J pos vals, c.jacobianInput ad s = .ok J ∧ c.patternInput s = .ok pos ∧ c.jacobianInputSparse ad s = .ok vals ∧
          pos.Nodup ∧ vals.length = pos.length ∧
          (∀ l (h1 : l < pos.length) (h2 : l < vals.length), ∃ (hr : pos[l].1 < J.length) (hc : pos[l].2 < m),
            vals[l] = J[pos[l].1] ⟨pos[l].2, hc⟩) ∧
          (∀ k (hk : k < J.length) (i : Fin m), (k, i.val) ∉ pos → J[k] i = 0))) := by
  obtain ⟨o, h1, h2, hinv⟩ := ready_state ad hN ops hcl h hr id c hc s
  refine ⟨o, h1, fun hrd hne => ?_⟩
  have hpos : 0 < countOf (o.cons s) := by
    rw [← stacked_length (fun τ => τ.lb)]
    exact List.length_pos_of_ne_nil hne
  obtain ⟨j, hck, hdr, -, -, hjac⟩ := jacobian_eq ad hinv hrd hpos
  obtain ⟨-, -, -, hpat⟩ := hinv.done hrd hpos
  rw [splitPattern_eq] at hpat
  obtain ⟨hpx, hpu⟩ := Prod.mk.inj hpat
  generalize hF : evaluateCodegen (o.cons s) = F at *
  have hk : F.k = countOf (o.cons s) := by rw [← hF]; exact evaluateCodegen_k _
  constructor
  · have hb : ∀ p ∈ (ad.pattern F).filter (fun p => p.2 < n), p.1 < ((List.range (countOf (o.cons s))).map
        fun k (i : Fin n) => ad.jac F c.sc (k * (n + m) + (Fin.castAdd m i : Fin (n + m)))).length ∧ p.2 < n := by
      intro p hp
      obtain ⟨hp1, hp2⟩ := List.mem_filter.1 hp
      exact ⟨by simpa [hk] using (hfa.bounds F p hp1).1, by simpa using hp2⟩
    obtain ⟨vals, hv, hl, hx⟩ := mapM_entryAt _ _ hb
    refine ⟨_, _, vals, ?_, ?_, ?_, ?_, hl, hx, ?_⟩
    · simp only [Cont.jacobianState, hck, hdr, hjac, Res.ok_bind, List.map_map]
      rfl
    · simp only [Cont.patternState, hck, Res.ok_bind, hpx]
      rfl
    · simp only [Cont.jacobianStateSparse, hck, hdr, hjac, Res.ok_bind, List.map_map, hpx]
      exact hv
    · exact (hfa.nodup F).filter _
    · intro k hk' i hn
      have hlt : k < F.k := by rw [hk]; simpa using hk'
      rw [List.getElem_map, List.getElem_range]
      refine hfa.zero F c.sc k (Fin.castAdd m i) hlt fun hm => hn ?_
      exact List.mem_filter.2 ⟨hm, by simp⟩
  · have hb : ∀ p ∈ ((ad.pattern F).filter (fun p => ¬ p.2 < n)).map (fun p => (p.1, p.2 - n)),
        p.1 < ((List.range (countOf (o.cons s))).map
        fun k (i : Fin m) => ad.jac F c.sc (k * (n + m) + (Fin.natAdd n i : Fin (n + m)))).length ∧ p.2 < m := by
      intro p hp
      obtain ⟨q, hq, rfl⟩ := List.mem_map.1 hp
      obtain ⟨hp1, hp2⟩ := List.mem_filter.1 hq
      have hb := hfa.bounds F q hp1
      have : n ≤ q.2 := by simpa using hp2
      exact ⟨by simpa [hk] using hb.1, by show q.2 - n < m; omega⟩
    obtain ⟨vals, hv, hl, hx⟩ := mapM_entryAt _ _ hb
    refine ⟨_, _, vals, ?_, ?_, ?_, ?_, hl, hx, ?_⟩
    · simp only [Cont.jacobianInput, hck, hdr, hjac, Res.ok_bind, List.map_map]
      rfl
    · simp only [Cont.patternInput, hck, Res.ok_bind, hpu]
      rfl
    · simp only [Cont.jacobianInputSparse, hck, hdr, hjac, Res.ok_bind, List.map_map, hpu]
      split <;> exact hv
    · refine List.Nodup.map_on ?_ ((hfa.nodup F).filter _)
      intro a ha b hb e
      have h1 : n ≤ a.2 := by simpa using (List.mem_filter.1 ha).2
      have h2 : n ≤ b.2 := by simpa using (List.mem_filter.1 hb).2
      have e1 := congrArg Prod.fst e
      have e2 := congrArg Prod.snd e
      dsimp only at e1 e2
      exact Prod.ext e1 (by omega)
    · intro k hk' i hn
      have hlt : k < F.k := by rw [hk]; simpa using hk'
      rw [List.getElem_map, List.getElem_range]
      refine hfa.zero F c.sc k (Fin.natAdd n i) hlt fun hm => hn ?_
      exact List.mem_map.2 ⟨_, List.mem_filter.2 ⟨hm, by simp⟩, by simp⟩

/-- C152: constraints that were not initialised after the last addition raise an error, in every method. -/
theorem C152_uninitialised (ad : AD (n + m)) (hN : 0 < n + m) (ops : List (KOp n m)) (hcl : NoSecondCopy [] ops)
    (h : Heap n m) (hr : Heap.run ad ops = .ok h) (id : ℕ) (c : Cont n m) (hc : h.get id = .ok c) (s : Side) :
    ∃ o, (objects ops)[id]? = some o ∧ (o.ready s = false →
      c.evaluate s = .exc ∧ c.jacobianState ad s = .exc ∧ c.jacobianInput ad s = .exc ∧
        c.patternState s = .exc ∧ c.patternInput s = .exc ∧ c.jacobianStateSparse ad s = .exc) := by
  obtain ⟨o, h1, -, hinv⟩ := ready_state ad hN ops hcl h hr id c hc s
  refine ⟨o, h1, fun hrd => ?_⟩
  have hck : (c.half s).check = .exc := by simp [Half.check, hinv.init, hrd]
  refine ⟨?_, ?_, ?_, ?_, ?_, ?_⟩
  · simp only [Cont.evaluate, hck]; rfl
  · simp only [Cont.jacobianState, hck]; rfl
  · simp only [Cont.jacobianInput, hck]; rfl
  · simp only [Cont.patternState, hck]; rfl
  · simp only [Cont.patternInput, hck]; rfl
  · simp only [Cont.jacobianStateSparse, hck]; rfl

/-- The constraint `x - u` with bounds -1 and 1. -/
def diffCon : CTerm 1 1 := ⟨1, fun x u _ _ => x 0 - u 0, fun _ => -1, fun _ => 1⟩

/-- A history with two containers, a copy and a destruction that meets the hypotheses of the theorems above. -/
example (ad : AD (1 + 1)) : ∃ (ops : List (KOp 1 1)) (h : Heap 1 1) (c : Cont 1 1) (o : Obj 1 1),
    NoSecondCopy [] ops ∧ Legal [] ops ∧ Heap.run ad ops = .ok h ∧ h.get 2 = .ok c ∧ (objects ops)[2]? = some o ∧
    o.ready .inter = true ∧ stacked (fun τ => τ.lb) (o.cons .inter) ≠ [] ∧
    (∀ τ ∈ o.cons .inter, τ.TimeInvariant ∧ τ.Diff) ∧ o.ready .term = true ∧ (o.cons .inter).length = 2 := by
  have hcl : NoSecondCopy [] ([.newAt 0 0 0, .new, .add 1 .inter diffCon, .add 1 .inter diffCon, .initialize 1, .clone 1,
    .set 2 1 2 3, .add 1 .term diffCon, .destroy 1] : List (KOp 1 1)) := ⟨rfl, trivial⟩
  have hle : Legal [] ([.newAt 0 0 0, .new, .add 1 .inter diffCon, .add 1 .inter diffCon, .initialize 1, .clone 1,
    .set 2 1 2 3, .add 1 .term diffCon, .destroy 1] : List (KOp 1 1)) :=
    ⟨trivial, trivial, ⟨_, rfl, rfl, rfl⟩, ⟨_, rfl, rfl, rfl⟩, ⟨_, rfl, rfl⟩, ⟨_, rfl, rfl⟩, ⟨_, rfl, rfl⟩,
      ⟨_, rfl, rfl, rfl⟩, ⟨_, rfl, rfl⟩, trivial⟩
  obtain ⟨h, hr, hlive⟩ := C152_runs_partial ad (by norm_num) _ hcl hle
  obtain ⟨c, hg⟩ := hlive 2 _ rfl rfl
  refine ⟨_, h, c, _, hcl, hle, hr, hg, rfl, rfl, ?_, ?_, rfl, rfl⟩
  · change stacked _ [diffCon, diffCon] ≠ []
    simp [stacked, diffCon]
  · intro τ hτ
    have hτ' : τ ∈ [diffCon, diffCon] := hτ
    have : τ = diffCon := by simpa using hτ'
    subst this
    refine ⟨fun x u t => rfl, fun i _ => ?_⟩
    simp only [diffCon]
    fun_prop

/-- C152 is violated by constraints that depend on time: they are evaluated at time zero, whatever time is
set. -/
theorem C152_time_violated (ad : AD (n + m)) (hN : 0 < n + m) (τ : CTerm n m) (hs : τ.size = 1) (x : Fin n → ℝ)
    (u : Fin m → ℝ) (t : ℝ) (ht : τ.cg x u t 0 ≠ τ.cg x u 0 0) :
    ∃ h c, Heap.run ad [.new, .add 0 .inter τ, .initialize 0, .set 0 x u t] = .ok h ∧ h.get 0 = .ok c ∧
      c.evaluate .inter = .ok [τ.cg x u 0 0] ∧ c.evaluate .inter ≠ .ok (stacked (fun σ => σ.cg x u t) [τ]) := by
  have hcl : NoSecondCopy [] ([.new, .add 0 .inter τ, .initialize 0, .set 0 x u t] : List (KOp n m)) := trivial
  obtain ⟨h, hr, hlive⟩ := C152_runs_partial ad hN [.new, .add 0 .inter τ, .initialize 0, .set 0 x u t] hcl
    ⟨trivial, ⟨_, rfl, rfl, rfl⟩, ⟨_, rfl, rfl⟩, ⟨_, rfl, rfl⟩, trivial⟩
  obtain ⟨c, hg⟩ := hlive 0 _ rfl rfl
  obtain ⟨o, ho, hsc, hinv⟩ := ready_state ad hN _ hcl h hr 0 c hg .inter
  have := Option.some.inj ho
  subst this
  obtain ⟨⟨j, hj, hcmp⟩, -⟩ := hinv.done rfl (by
    change 0 < countOf [τ]
    simp [countOf, hs])
  have hi : (c.half .inter).init = true := hinv.init
  have hm : j.model = some (evaluateCodegen [τ], conSettings) := hcmp.2.1
  have hsc : c.sc = stack2 x u := hsc
  have hv : c.evaluate .inter = .ok [τ.cg x u 0 0] := by
    have hck : (c.half .inter).check = .ok () := by simp [Half.check, hi]
    have hdr : (c.half .inter).deref = .ok j := by simp [Half.deref, hj]
    simp only [Cont.evaluate, hck, hdr, Res.ok_bind, hsc]
    simp [Jit.forwardZero, hm, conSettings, evaluateCodegen, segments, hs]
  refine ⟨h, c, hr, hg, hv, ?_⟩
  rw [hv]
  intro hbad
  have := Res.ok.inj hbad
  simp [stacked, hs] at this
  exact ht this.symm

example : ∃ (τ : CTerm 1 1), τ.size = 1 ∧ ∀ t : ℝ, t ≠ 0 → τ.cg 0 0 t 0 ≠ τ.cg 0 0 0 0 :=
  ⟨⟨1, fun _ _ t _ => t, 0, 0⟩, rfl, fun _ h => h⟩

/-- C152 is violated by kinds without constraints: an initialised container to which only intermediate
constraints were added raises an error when its terminal constraints are asked for, instead of
returning no values; likewise the other way round. -/
theorem C152_empty_violated (ad : AD (n + m)) (hN : 0 < n + m) (ops : List (KOp n m)) (hcl : NoSecondCopy [] ops)
    (h : Heap n m) (hr : Heap.run ad ops = .ok h) (id : ℕ) (c : Cont n m) (hc : h.get id = .ok c) (s : Side)
    (o : Obj n m) (ho : (objects ops)[id]? = some o) (hadd : o.canAdd = true) (hs : o.cons s = []) :
    c.evaluate s = .exc ∧ c.jacobianState ad s = .exc ∧ c.jacobianInput ad s = .exc ∧ c.jacobianStateSparse ad s = .exc := by
  obtain ⟨l, hi⟩ := run_inv ad hN ops hcl h hr
  obtain ⟨o', h1, h2, -, -, h5⟩ := hi.obj id c (get_ok hc)
  have : o' = o := by rw [h1] at ho; exact Option.some.inj ho
  subst this
  have hinv := h2 s
  cases hg : (c.half s).gen with
  | none => exact absurd hg (h5 hadd s)
  | some j =>
    obtain ⟨m0, d0⟩ := hinv.none_ j hg (by rw [hs]; rfl)
    have hdr : (c.half s).deref = .ok j := by simp [Half.deref, hg]
    have hf : j.forwardZero c.sc = .exc := by simp [Jit.forwardZero, m0]
    have hj : j.jacobian ad c.sc = .exc := by simp [Jit.jacobian, d0]
    cases hck : (c.half s).check with
    | ok _ =>
      refine ⟨?_, ?_, ?_, ?_⟩
      · simp only [Cont.evaluate, hck, hdr, Res.ok_bind, hf]
      · simp only [Cont.jacobianState, hck, hdr, Res.ok_bind, hj]; rfl
      · simp only [Cont.jacobianInput, hck, hdr, Res.ok_bind, hj]; rfl
      · simp only [Cont.jacobianStateSparse, hck, hdr, Res.ok_bind, hj]; rfl
    | exc =>
      refine ⟨?_, ?_, ?_, ?_⟩
      · simp only [Cont.evaluate, hck]; rfl
      · simp only [Cont.jacobianState, hck]; rfl
      · simp only [Cont.jacobianInput, hck]; rfl
      · simp only [Cont.jacobianStateSparse, hck]; rfl
    | ub =>
      unfold Half.check at hck
      split at hck <;> exact absurd hck (by simp)

/-- The container of the history below meets the hypotheses of `C152_empty_violated`, initialised and with an intermediate
constraint. -/
example (ad : AD (1 + 1)) : ∃ (ops : List (KOp 1 1)) (h : Heap 1 1) (c : Cont 1 1) (o : Obj 1 1),
    NoSecondCopy [] ops ∧ Heap.run ad ops = .ok h ∧ h.get 0 = .ok c ∧ (objects ops)[0]? = some o ∧
    o.canAdd = true ∧ o.cons .term = [] ∧ o.ready .term = true ∧ (o.cons .inter).length = 1 := by
  have hcl : NoSecondCopy [] ([.new, .add 0 .inter diffCon, .initialize 0] : List (KOp 1 1)) := trivial
  obtain ⟨h, hr, hlive⟩ := C152_runs_partial ad (by norm_num) [.new, .add 0 .inter diffCon, .initialize 0] hcl
    ⟨trivial, ⟨_, rfl, rfl, rfl⟩, ⟨_, rfl, rfl⟩, trivial⟩
  obtain ⟨c, hg⟩ := hlive 0 _ rfl rfl
  exact ⟨_, h, c, _, hcl, hr, hg, rfl, rfl, rfl, rfl, rfl⟩

/-- C152 is violated by the constructor with a state, control and time: adding a constraint to such a container
dereferences a null pointer. -/
theorem C152_point_constructor_violated (ad : AD (n + m)) (x : Fin n → ℝ) (u : Fin m → ℝ) (t : ℝ) (s : Side)
    (τ : CTerm n m) : Heap.run ad [.newAt x u t, .add 0 s τ] = .ub := by
  cases s <;> rfl

/-! ### C153 -/

/-- The objects a call changes. -/
def KOp.target : KOp n m → Option ℕ
  | .add id _ _ => some id
  | .initialize id => some id
  | .set id _ _ _ => some id
  | .destroy id => some id
  | _ => none

theorem objStep_kept (l : List (Obj n m)) (op : KOp n m) (k : ℕ) (hk : k < l.length) (h : op.target ≠ some k) :
    (objStep l op)[k]? = l[k]? ∧ k < (objStep l op).length := by
  cases op with
  | new => exact ⟨by simp [objStep, List.getElem?_append_left hk], by simp [objStep]; omega⟩
  | newAt x u t => exact ⟨by simp [objStep, List.getElem?_append_left hk], by simp [objStep]; omega⟩
  | clone id => exact ⟨by simp [objStep, List.getElem?_append_left hk], by simp [objStep]; omega⟩
  | add id s t =>
    have h' : ¬ id = k := by simpa [KOp.target] using h
    exact ⟨by simp [objStep, List.getElem?_modify, h'], by simpa [objStep] using hk⟩
  | «initialize» id =>
    have h' : ¬ id = k := by simpa [KOp.target] using h
    exact ⟨by simp [objStep, List.getElem?_modify, h'], by simpa [objStep] using hk⟩
  | set id x u t =>
    have h' : ¬ id = k := by simpa [KOp.target] using h
    exact ⟨by simp [objStep, List.getElem?_modify, h'], by simpa [objStep] using hk⟩
  | destroy id =>
    have h' : ¬ id = k := by simpa [KOp.target] using h
    exact ⟨by simp [objStep, List.getElem?_modify, h'], by simpa [objStep] using hk⟩

theorem objects_kept (ops : List (KOp n m)) : ∀ (l : List (Obj n m)) (k : ℕ), k < l.length →
    (∀ op ∈ ops, op.target ≠ some k) → (ops.foldl objStep l)[k]? = l[k]? := by
  induction ops with
  | nil => intro l k _ _; rfl
  | cons op ops ih =>
    intro l k hk h
    obtain ⟨h1, h2⟩ := objStep_kept l op k hk (h op (by simp))
    rw [List.foldl_cons, ih _ k h2 fun o ho => h o (by simp [ho]), h1]

/-- Containers with the same constraints, flags and point return the same. -/
theorem same_results (ad : AD (n + m)) {c d : Cont n m} {s : Side} {ts : List (CTerm n m)} {r : Bool}
    (hc : InvHalf ad (c.half s) ts r) (hd : InvHalf ad (d.half s) ts r) (hcg : (c.half s).gen ≠ none)
    (hdg : (d.half s).gen ≠ none) (hsc : c.sc = d.sc) :
    c.evaluate s = d.evaluate s ∧ c.jacobianState ad s = d.jacobianState ad s ∧
      c.jacobianInput ad s = d.jacobianInput ad s ∧ c.jacobianStateSparse ad s = d.jacobianStateSparse ad s ∧
      c.jacobianInputSparse ad s = d.jacobianInputSparse ad s := by
  cases r with
  | false =>
    have h1 : (c.half s).check = .exc := by simp [Half.check, hc.init]
    have h2 : (d.half s).check = .exc := by simp [Half.check, hd.init]
    obtain ⟨j, hj⟩ := Option.ne_none_iff_exists'.1 hcg
    obtain ⟨k, hk⟩ := Option.ne_none_iff_exists'.1 hdg
    have e1 : (c.half s).deref = .ok j := by simp [Half.deref, hj]
    have e2 : (d.half s).deref = .ok k := by simp [Half.deref, hk]
    refine ⟨?_, ?_, ?_, ?_, ?_⟩
    · simp only [Cont.evaluate, h1, h2]; rfl
    · simp only [Cont.jacobianState, h1, h2]; rfl
    · simp only [Cont.jacobianInput, h1, h2]; rfl
    · simp only [Cont.jacobianStateSparse, h1, h2]; rfl
    · have hjx : ∀ (j : Jit (n + m)) (p : Fin (n + m) → ℝ), (∃ F, j.model = some (F, conSettings) ∧ F.k = j.outputDim) ∨
          j.model = none → ∃ o, (o = Res.exc ∨ ∃ J, o = Res.ok J) ∧ j.jacobian ad p = o := by
        intro j p hm
        rcases hm with ⟨F, hm, hk⟩ | hm
        · by_cases h0 : j.outputDim = 0
          · exact ⟨_, Or.inl rfl, by simp [Jit.jacobian, h0]⟩
          · exact ⟨_, Or.inr ⟨_, rfl⟩, by simp [Jit.jacobian, h0, hm, conSettings, hk]; rfl⟩
        · exact ⟨_, Or.inl rfl, by simp [Jit.jacobian, hm]⟩
      have hmod : ∀ (hf : Half n m) (j : Jit (n + m)), InvHalf ad hf ts false → hf.gen = some j →
          (∃ F, j.model = some (F, conSettings) ∧ F.k = j.outputDim) ∨ j.model = none := by
        intro hf j hi hg
        by_cases h0 : 0 < countOf ts
        · obtain ⟨-, -, h⟩ := hi.tape j hg h0
          rcases h with h | h
          · exact Or.inr h
          · exact Or.inl ⟨_, h.2.1, by rw [evaluateCodegen_k, h.1]⟩
        · exact Or.inr (hi.none_ j hg (by omega)).1
      obtain ⟨o1, ho1, hj1⟩ := hjx j c.sc (hmod _ j hc hj)
      obtain ⟨o2, ho2, hj2⟩ := hjx k d.sc (hmod _ k hd hk)
      have aux : ∀ {e : Cont n m} {l : Jit (n + m)} {o : Res (List (Fin (n + m) → ℝ))}, (e.half s).check = .exc →
          (e.half s).deref = .ok l → l.jacobian ad e.sc = o → (o = Res.exc ∨ ∃ J, o = Res.ok J) →
          e.jacobianInputSparse ad s = .exc := by
        intro e l o a1 a2 a3 a4
        simp only [Cont.jacobianInputSparse, a1, a2, Res.ok_bind, a3]
        split
        · rfl
        · rcases a4 with rfl | ⟨J, rfl⟩ <;> rfl
      rw [aux h1 e1 hj1 ho1, aux h2 e2 hj2 ho2]
  | true =>
    have h1 : (c.half s).check = .ok () := by simp [Half.check, hc.init]
    have h2 : (d.half s).check = .ok () := by simp [Half.check, hd.init]
    obtain ⟨j, hj⟩ := Option.ne_none_iff_exists'.1 hcg
    obtain ⟨k, hk⟩ := Option.ne_none_iff_exists'.1 hdg
    have e1 : (c.half s).deref = .ok j := by simp [Half.deref, hj]
    have e2 : (d.half s).deref = .ok k := by simp [Half.deref, hk]
    have hf : ∀ p, j.forwardZero p = k.forwardZero p ∧ j.jacobian ad p = k.jacobian ad p := by
      intro p
      by_cases h0 : 0 < countOf ts
      · obtain ⟨⟨j', hj', cj⟩, -⟩ := hc.done rfl h0
        obtain ⟨⟨k', hk', ck⟩, -⟩ := hd.done rfl h0
        obtain rfl : j = j' := by rw [hj] at hj'; exact Option.some.inj hj'
        obtain rfl : k = k' := by rw [hk] at hk'; exact Option.some.inj hk'
        simp [Jit.forwardZero, Jit.jacobian, cj.1, cj.2.1, ck.1, ck.2.1]
      · obtain ⟨a, b⟩ := hc.none_ j hj (by omega)
        obtain ⟨a', b'⟩ := hd.none_ k hk (by omega)
        simp [Jit.forwardZero, Jit.jacobian, a, b, a', b']
    have hp : (c.half s).patX = (d.half s).patX ∧ (c.half s).patU = (d.half s).patU ∨ k.jacobian ad d.sc = .exc := by
      by_cases h0 : 0 < countOf ts
      · obtain ⟨-, -, -, a⟩ := hc.done rfl h0
        obtain ⟨-, -, -, b⟩ := hd.done rfl h0
        rw [← b] at a
        exact Or.inl (Prod.mk.inj a)
      · exact Or.inr (by simp [Jit.jacobian, (hd.none_ k hk (by omega)).2])
    refine ⟨?_, ?_, ?_, ?_, ?_⟩
    · simp only [Cont.evaluate, h1, h2, e1, e2, Res.ok_bind, hsc, (hf _).1]
    · simp only [Cont.jacobianState, h1, h2, e1, e2, Res.ok_bind, hsc, (hf _).2]
    · simp only [Cont.jacobianInput, h1, h2, e1, e2, Res.ok_bind, hsc, (hf _).2]
    · simp only [Cont.jacobianStateSparse, h1, h2, e1, e2, Res.ok_bind, hsc, (hf _).2]
      rcases hp with hp | hp
      · rw [hp.1]
      · rw [hp]; rfl
    · simp only [Cont.jacobianInputSparse, h1, h2, e1, e2, Res.ok_bind, hsc, (hf _).2]
      rcases hp with hp | hp
      · rw [hp.2]
      · rw [hp]; rfl

theorem noSecondCopy_prefix (a b : List (KOp n m)) : ∀ l, NoSecondCopy l (a ++ b) → NoSecondCopy l a := by
  induction a with
  | nil => intro l _; trivial
  | cons o a ih =>
    intro l h
    cases o with
    | clone id => exact ⟨h.1, ih _ h.2⟩
    | _ => exact ih _ h

/-- C153, what others do: a container (one that can receive constraints) returns the same values and derivatives before and
after any further calls on other containers: constructions, changes, destructions, copies, also of itself.
Missing: histories in which a copy is copied, see `C153_second_copy_violated`. -/
theorem C153_independent_partial (ad : AD (n + m)) (hN : 0 < n + m) (before after : List (KOp n m))
    (hcl : NoSecondCopy [] (before ++ after)) (h0 h : Heap n m) (hr0 : Heap.run ad before = .ok h0)
    (hr : Heap.run ad (before ++ after) = .ok h) (k : ℕ) (c0 c : Cont n m) (hc0 : h0.get k = .ok c0) (hc : h.get k = .ok c)
    (o : Obj n m) (ho : (objects before)[k]? = some o) (hadd : o.canAdd = true) (hn : ∀ op ∈ after, op.target ≠ some k)
    (s : Side) :
    c.evaluate s = c0.evaluate s ∧ c.jacobianState ad s = c0.jacobianState ad s ∧
      c.jacobianInput ad s = c0.jacobianInput ad s ∧ c.jacobianStateSparse ad s = c0.jacobianStateSparse ad s ∧
      c.jacobianInputSparse ad s = c0.jacobianInputSparse ad s := by
  obtain ⟨l0, hi0⟩ := run_inv ad hN before (noSecondCopy_prefix before after [] hcl) h0 hr0
  obtain ⟨l, hi⟩ := run_inv ad hN _ hcl h hr
  obtain ⟨o0, a1, a2, a3, -, a5⟩ := hi0.obj k c0 (get_ok hc0)
  obtain ⟨o1, b1, b2, b3, -, b5⟩ := hi.obj k c (get_ok hc)
  have e0 : o0 = o := by rw [a1] at ho; exact Option.some.inj ho
  subst e0
  have e1 : o1 = o0 := by
    rw [objects, List.foldl_append] at b1
    change (after.foldl objStep (objects before))[k]? = _ at b1
    rw [objects_kept after _ k (lt_of_get a1) hn, a1] at b1
    exact (Option.some.inj b1).symm
  subst e1
  exact same_results ad (b2 s) (a2 s) (b5 hadd s) (a5 hadd s) (b3.trans a3.symm)

/-- C153, copies: a copy of a container made by the default constructor returns what the original returns at the time
of the copy. Missing: copies of copies. -/
theorem C153_copy_partial (ad : AD (n + m)) (hN : 0 < n + m) (before : List (KOp n m)) (id : ℕ)
    (hcl : NoSecondCopy [] (before ++ [.clone id])) (h0 h : Heap n m) (hr0 : Heap.run ad before = .ok h0)
    (hr : Heap.run ad (before ++ [.clone id]) = .ok h) (c0 c : Cont n m) (hc0 : h0.get id = .ok c0)
    (hc : h.get h0.length = .ok c) (o : Obj n m) (ho : (objects before)[id]? = some o) (hadd : o.canAdd = true)
    (s : Side) :
    c.evaluate s = c0.evaluate s ∧ c.jacobianState ad s = c0.jacobianState ad s ∧
      c.jacobianInput ad s = c0.jacobianInput ad s ∧ c.jacobianStateSparse ad s = c0.jacobianStateSparse ad s ∧
      c.jacobianInputSparse ad s = c0.jacobianInputSparse ad s := by
  obtain ⟨l0, hi0⟩ := run_inv ad hN before (noSecondCopy_prefix before _ [] hcl) h0 hr0
  obtain ⟨l, hi⟩ := run_inv ad hN _ hcl h hr
  obtain ⟨o0, a1, a2, a3, -, a5⟩ := hi0.obj id c0 (get_ok hc0)
  obtain ⟨o1, b1, b2, b3, -, b5⟩ := hi.obj _ c (get_ok hc)
  have e0 : o0 = o := by rw [a1] at ho; exact Option.some.inj ho
  subst e0
  have e1 : o1 = { o0 with canAdd := true } := by
    rw [objects, List.foldl_append] at b1
    change (objStep (objects before) (.clone id))[h0.length]? = _ at b1
    simp only [objStep, a1, Option.map_some, Option.toList_some, hi0.len] at b1
    simpa using b1.symm
  subst e1
  exact same_results ad (b2 s) (a2 s) (b5 rfl s) (a5 hadd s) (b3.trans a3.symm)

/-- A history that meets the hypotheses of `C153_independent_partial` and `C153_copy_partial`: the original is changed and
destroyed after the copy was made. -/
example (ad : AD (1 + 1)) : ∃ (before : List (KOp 1 1)) (h0 h h2 : Heap 1 1) (c0 c c2 : Cont 1 1) (o : Obj 1 1),
    NoSecondCopy [] (before ++ [.clone 0] ++ [.add 0 .inter diffCon, .destroy 0]) ∧ Heap.run ad before = .ok h0 ∧
    Heap.run ad (before ++ [.clone 0]) = .ok h ∧
    Heap.run ad (before ++ [.clone 0] ++ [.add 0 .inter diffCon, .destroy 0]) = .ok h2 ∧
    h0.get 0 = .ok c0 ∧ h.get 1 = .ok c ∧ h2.get 1 = .ok c2 ∧ (objects before)[0]? = some o ∧ o.canAdd = true ∧
    o.ready .inter = true ∧ (o.cons .inter).length = 1 := by
  obtain ⟨h0, r0, l0⟩ := C152_runs_partial ad (by norm_num) ([.new, .add 0 .inter diffCon, .initialize 0] : List (KOp 1 1))
    trivial ⟨trivial, ⟨_, rfl, rfl, rfl⟩, ⟨_, rfl, rfl⟩, trivial⟩
  obtain ⟨h1, r1, l1⟩ := C152_runs_partial ad (by norm_num)
    ([.new, .add 0 .inter diffCon, .initialize 0, .clone 0] : List (KOp 1 1))
    ⟨rfl, trivial⟩ ⟨trivial, ⟨_, rfl, rfl, rfl⟩, ⟨_, rfl, rfl⟩, ⟨_, rfl, rfl⟩, trivial⟩
  obtain ⟨h2, r2, l2⟩ := C152_runs_partial ad (by norm_num)
    ([.new, .add 0 .inter diffCon, .initialize 0, .clone 0, .add 0 .inter diffCon, .destroy 0] : List (KOp 1 1))
    ⟨rfl, trivial⟩ ⟨trivial, ⟨_, rfl, rfl, rfl⟩, ⟨_, rfl, rfl⟩, ⟨_, rfl, rfl⟩, ⟨_, rfl, rfl, rfl⟩, ⟨_, rfl, rfl⟩, trivial⟩
  obtain ⟨c0, g0⟩ := l0 0 _ rfl rfl
  obtain ⟨c1, g1⟩ := l1 1 _ rfl rfl
  obtain ⟨c2, g2⟩ := l2 1 _ rfl rfl
  exact ⟨[.new, .add 0 .inter diffCon, .initialize 0], h0, h1, h2, c0, c1, c2, _, ⟨rfl, trivial⟩, r0, r1, r2, g0, g1, g2, rfl,
    rfl, rfl, rfl⟩

theorem initialize_keeps {ad : AD (n + m)} {hf hf' : Half n m} {g : Jit (n + m)}
    (h : Half.initialize ad { hf with gen := some g } = .ok hf') :
    hf'.owner = hf.owner ∧ hf'.terms = hf.terms ∧ hf'.init = hf.init ∧
      (0 < countOf hf.terms → ∃ j, g.compile ad conSettings = .ok j ∧ hf'.gen = some j) := by
  unfold Half.initialize at h
  by_cases h0 : countOf hf.terms > 0
  · simp only [h0, if_true] at h
    obtain ⟨j, hj, h⟩ := bind_ok' h
    obtain ⟨p, hp, h⟩ := bind_ok' h
    have e := Res.ok.inj h
    subst e
    exact ⟨rfl, rfl, rfl, fun _ => ⟨j, hj, rfl⟩⟩
  · simp only [h0, if_false] at h
    have e := Res.ok.inj h
    subst e
    exact ⟨rfl, rfl, rfl, fun h => absurd h h0⟩

/-- Members of a copy. -/
theorem copy_keeps {ad : AD (n + m)} {h : Heap n m} {c c' : Cont n m} (hc : c.copy ad h = .ok c') :
    c'.sc = c.sc ∧ ∀ s, (c'.half s).owner = (c.half s).owner ∧ (c'.half s).terms = (c.half s).terms ∧
      (c'.half s).init = (c.half s).init ∧
      (0 < countOf (c.half s).terms → ∃ g j, newGen h (c.half s).owner s (countOf (c.half s).terms) = .ok g ∧
        g.compile ad conSettings = .ok j ∧ (c'.half s).gen = some j) := by
  obtain ⟨g1, hg1, hc⟩ := bind_ok' hc
  obtain ⟨g2, hg2, hc⟩ := bind_ok' hc
  obtain ⟨a, ha, hc⟩ := bind_ok' hc
  obtain ⟨b, hb, hc⟩ := bind_ok' hc
  have e := Res.ok.inj hc
  subst e
  obtain ⟨a1, a2, a3, a4⟩ := initialize_keeps ha
  obtain ⟨b1, b2, b3, b4⟩ := initialize_keeps hb
  refine ⟨rfl, fun s => ?_⟩
  cases s
  · refine ⟨a1, a2, a3, fun h0 => ?_⟩
    obtain ⟨j, hj, e⟩ := a4 h0
    exact ⟨g1, j, hg1, hj, e⟩
  · refine ⟨b1, b2, b3, fun h0 => ?_⟩
    obtain ⟨j, hj, e⟩ := b4 h0
    exact ⟨g2, j, hg2, hj, e⟩

/-- C153 is violated by copies of copies: the second copy evaluates the constraints of the original container, which
was changed in between, rather than those of the copy it was made from; when the original has
been destroyed, it reads freed memory. -/
theorem C153_second_copy_violated (ad : AD (n + m)) (hN : 0 < n + m) (τ σ : CTerm n m) (hτ : τ.size = 1) (hσ : σ.size = 1)
    (x : Fin n → ℝ) (u : Fin m → ℝ) :
    (∃ h c1 c2, Heap.run ad [.new, .add 0 .inter τ, .initialize 0, .set 0 x u 0, .clone 0, .add 0 .inter σ, .clone 1] = .ok h ∧
      h.get 1 = .ok c1 ∧ h.get 2 = .ok c2 ∧
      c1.evaluate .inter = .ok [τ.cg x u 0 0] ∧ c2.evaluate .inter = .ok [τ.cg x u 0 0, σ.cg x u 0 0]) ∧
    Heap.run ad [.new, .add 0 .inter τ, .initialize 0, .set 0 x u 0, .clone 0, .destroy 0, .clone 1] = .ub := by
  have hcl0 : NoSecondCopy [] ([.new, .add 0 .inter τ, .initialize 0, .set 0 x u 0] : List (KOp n m)) := trivial
  obtain ⟨h0, r0, l0⟩ := C152_runs_partial ad hN [.new, .add 0 .inter τ, .initialize 0, .set 0 x u 0] hcl0
    ⟨trivial, ⟨_, rfl, rfl, rfl⟩, ⟨_, rfl, rfl⟩, ⟨_, rfl, rfl⟩, trivial⟩
  obtain ⟨c0, g0⟩ := l0 0 _ rfl rfl
  have hi0 := run_inv' ad hN _ hcl0 h0 r0
  have len0 : h0.length = 1 := hi0.len
  obtain ⟨d0, rfl⟩ : ∃ d0, h0 = [some d0] := by
    match h0, len0 with
    | [some d], _ => exact ⟨d, rfl⟩
    | [none], _ => exact absurd g0 (by simp [Heap.get])
  have e0 : d0 = c0 := Res.ok.inj g0
  subst e0
  obtain ⟨o, ho, hinv, hsc, hown, -⟩ := hi0.obj 0 d0 rfl
  have e := Option.some.inj ho
  subst e
  have ht0 : (d0.half .inter).terms = [τ] := (hinv .inter).terms
  have ht0' : (d0.half .term).terms = [] := (hinv .term).terms
  have hin0 : (d0.half .inter).init = true := (hinv .inter).init
  have hsc0 : d0.sc = stack2 x u := hsc
  obtain ⟨⟨j0, hj0, hcomp0⟩, -⟩ := (hinv .inter).done rfl (by change 0 < countOf [τ]; simp [countOf, hτ])
  have h1 : countOf [τ] = 1 := by simp [countOf, hτ]
  have hz : countOf ([] : List (CTerm n m)) = 0 := rfl
  -- the first copy
  obtain ⟨h4, r4, l4⟩ := C152_runs_partial ad hN [.new, .add 0 .inter τ, .initialize 0, .set 0 x u 0, .clone 0]
    ⟨rfl, trivial⟩ ⟨trivial, ⟨_, rfl, rfl, rfl⟩, ⟨_, rfl, rfl⟩, ⟨_, rfl, rfl⟩, ⟨_, rfl, rfl⟩, trivial⟩
  obtain ⟨lb4, hi4⟩ := run_inv ad hN [.new, .add 0 .inter τ, .initialize 0, .set 0 x u 0, .clone 0] ⟨rfl, trivial⟩ h4 r4
  have r4' := r4
  rw [show ([.new, .add 0 .inter τ, .initialize 0, .set 0 x u 0, .clone 0] : List (KOp n m))
    = [.new, .add 0 .inter τ, .initialize 0, .set 0 x u 0] ++ [.clone 0] from rfl, Heap.run, List.foldlM_append] at r4'
  change ((Heap.run ad _) >>= _) = _ at r4'
  rw [r0, Res.ok_bind, List.foldlM_cons] at r4'
  obtain ⟨h4', s4, r4'⟩ := bind_ok' r4'
  have e := Res.ok.inj r4'
  subst e
  have s4' : Heap.step ad [some d0] (.clone 0) = .ok h4' := s4
  obtain ⟨d0', q1, s4⟩ := bind_ok' s4
  have e : d0 = d0' := Res.ok.inj q1
  subst e
  obtain ⟨c1, hcp, s4⟩ := bind_ok' s4
  have e : [some d0, some c1] = h4' := Res.ok.inj s4
  subst e
  obtain ⟨sc1, keep⟩ := copy_keeps hcp
  obtain ⟨ow1, te1, in1, -⟩ := keep .inter
  obtain ⟨ow1', te1', in1', -⟩ := keep .term
  have hown0 : (d0.half .inter).owner = some 0 := by
    rcases hown rfl .inter with h | h
    · exact h
    · exact absurd (show [τ] = [] from h) (by simp)
  rw [hown0] at ow1
  rw [ht0] at te1
  rw [ht0'] at te1'
  rw [hin0] at in1
  constructor
  · -- the original gets a second constraint
    have hadd : ∃ d1, d0.add 0 .inter σ = .ok d1 ∧ (d1.half .inter).terms = [τ, σ] := by
      simp only [Cont.add, hj0, ht0]
      exact ⟨_, rfl, by simp [Cont.setHalf]⟩
    obtain ⟨d1, hd1, htd1⟩ := hadd
    have ng : newGen [some d1, some c1] (c1.half .inter).owner .inter (countOf (c1.half .inter).terms)
        = .ok (Jit.new (evaluateCodegen [τ, σ]) 1) := by
      rw [ow1, te1, h1, newGen, if_pos ⟨one_pos, hN⟩]
      simp [record, Heap.get, htd1]
    have ng' : newGen [some d1, some c1] (c1.half .term).owner .term (countOf (c1.half .term).terms)
        = .ok ⟨0, none, none, [], []⟩ := by
      rw [te1', hz, newGen, if_neg (by omega)]
    have hnew : Jit.new (evaluateCodegen [τ, σ]) 1 = (⟨1, some (evaluateCodegen [τ, σ]), none, [], []⟩ : Jit (n + m)) := by
      simp [Jit.new, Jit.update, hN]
    have hcmp : (Jit.new (evaluateCodegen [τ, σ]) 1 : Jit (n + m)).compile ad conSettings
        = .ok ⟨1, some (evaluateCodegen [τ, σ]), some (evaluateCodegen [τ, σ], conSettings),
          ad.pattern (evaluateCodegen [τ, σ]), ad.pattern (evaluateCodegen [τ, σ])⟩ := by
      rw [hnew]; rfl
    have hini : ∃ a, Half.initialize ad { c1.half .inter with gen := some (Jit.new (evaluateCodegen [τ, σ]) 1) } = .ok a := by
      simp only [Half.initialize, te1, h1, hcmp, Res.ok_bind]
      exact ⟨_, rfl⟩
    have hini' : ∃ a, Half.initialize ad { c1.half .term with gen := some ⟨0, none, none, [], []⟩ } = .ok a := by
      simp only [Half.initialize, te1', hz]
      exact ⟨_, rfl⟩
    obtain ⟨a, ha⟩ := hini
    obtain ⟨b, hb⟩ := hini'
    have hcopy : ∃ c2, c1.copy ad [some d1, some c1] = .ok c2 := by
      simp only [Cont.copy, ng, ng', Res.ok_bind, ha, hb]
      exact ⟨_, rfl⟩
    obtain ⟨c2, hc2⟩ := hcopy
    obtain ⟨sc2, keep2⟩ := copy_keeps hc2
    obtain ⟨-, -, in2, ge2⟩ := keep2 .inter
    obtain ⟨g, j, hg, hj, hgen⟩ := ge2 (by rw [te1, h1]; exact one_pos)
    rw [ng] at hg
    have e := Res.ok.inj hg
    subst e
    rw [hcmp] at hj
    have e := Res.ok.inj hj
    subst e
    refine ⟨[some d1, some c1, some c2], c1, c2, ?_, rfl, rfl, ?_, ?_⟩
    · rw [show ([.new, .add 0 .inter τ, .initialize 0, .set 0 x u 0, .clone 0, .add 0 .inter σ, .clone 1] : List (KOp n m))
        = [.new, .add 0 .inter τ, .initialize 0, .set 0 x u 0, .clone 0] ++ [.add 0 .inter σ, .clone 1] from rfl,
        Heap.run, List.foldlM_append]
      change ((Heap.run ad _) >>= _) = _
      rw [r4, Res.ok_bind]
      simp only [List.foldlM_cons, List.foldlM_nil, Heap.step, Heap.get, List.getElem?_cons_zero, Res.ok_bind, hd1,
        List.set_cons_zero, List.getElem?_cons_succ, hc2, Res.pure_eq]
      rfl
    · obtain ⟨o1, q1, q2, q3, -⟩ := hi4.obj 1 c1 rfl
      have e := Option.some.inj q1
      subst e
      obtain ⟨⟨j1, hj1, hc1⟩, -⟩ := (q2 .inter).done rfl (by change 0 < countOf [τ]; rw [h1]; exact one_pos)
      have m1 : j1.model = some (evaluateCodegen [τ], conSettings) := hc1.2.1
      have hck : (c1.half .inter).check = .ok () := by simp [Half.check, in1]
      have hdr : (c1.half .inter).deref = .ok j1 := by simp [Half.deref, hj1]
      simp only [Cont.evaluate, hck, hdr, Res.ok_bind, sc1, hsc0]
      simp [Jit.forwardZero, m1, conSettings, evaluateCodegen, segments, hτ]
    · have hck : (c2.half .inter).check = .ok () := by simp [Half.check, in2, in1]
      have hdr : (c2.half .inter).deref = .ok ⟨1, some (evaluateCodegen [τ, σ]), some (evaluateCodegen [τ, σ], conSettings),
          ad.pattern (evaluateCodegen [τ, σ]), ad.pattern (evaluateCodegen [τ, σ])⟩ := by rw [Half.deref, hgen]
      simp only [Cont.evaluate, hck, hdr, Res.ok_bind, sc2, sc1, hsc0]
      simp [Jit.forwardZero, conSettings, evaluateCodegen, segments, hτ, hσ, List.range_succ]
  · rw [show ([.new, .add 0 .inter τ, .initialize 0, .set 0 x u 0, .clone 0, .destroy 0, .clone 1] : List (KOp n m))
      = [.new, .add 0 .inter τ, .initialize 0, .set 0 x u 0, .clone 0] ++ [.destroy 0, .clone 1] from rfl,
      Heap.run, List.foldlM_append]
    change ((Heap.run ad _) >>= _) = _
    rw [r4, Res.ok_bind]
    have ng : newGen [none, some c1] (c1.half .inter).owner .inter (countOf (c1.half .inter).terms) = .ub := by
      rw [ow1, te1, h1, newGen, if_pos ⟨one_pos, hN⟩]
      rfl
    simp only [List.foldlM_cons, List.foldlM_nil, Heap.step, Heap.get, List.getElem?_cons_zero, Res.ok_bind,
      List.set_cons_zero, List.getElem?_cons_succ, Res.pure_eq, Cont.copy, ng]
    rfl

example : ∃ τ : CTerm 1 1, τ.size = 1 := ⟨diffCon, rfl⟩

end CT.CodeGen
