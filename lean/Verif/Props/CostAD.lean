import Verif.Props.CodeGen

/-! # C151: cost functions with automatically differentiated terms -/

namespace CT.CodeGen

open CT.Cost Matrix

variable {n m : ℕ}

/-! ### Specification -/

/-- Automatically differentiated intermediate terms after one call. -/
def adInter (l : List (Term n m)) : COp n m → List (Term n m)
  | .addInter τ => l ++ [τ]
  | .editInter id τ => l.set id τ
  | .load i _ => l ++ i
  | _ => l

/-- Automatically differentiated final terms after one call. -/
def adFin (l : List (Term n m)) : COp n m → List (Term n m)
  | .addFin τ => l ++ [τ]
  | .load _ f => l ++ f
  | _ => l

/-- Analytical intermediate terms after one call. -/
def anInter (l : List (Term n m)) : COp n m → List (Term n m)
  | .addInterAnalytic τ => l ++ [τ]
  | .load _ _ => []
  | _ => l

/-- Analytical final terms after one call. -/
def anFin (l : List (Term n m)) : COp n m → List (Term n m)
  | .addFinAnalytic τ => l ++ [τ]
  | .load _ _ => []
  | _ => l

/-- State, control and time after one call. -/
def pointStep (p : (Fin n → ℝ) × (Fin m → ℝ) × ℝ) : COp n m → (Fin n → ℝ) × (Fin m → ℝ) × ℝ
  | .set x u t => (x, u, t)
  | _ => p

/-- The intermediate cost for analytical terms `l` and automatically differentiated terms `a`. -/
noncomputable def interCost (l a : List (Term n m)) (x : Fin n → ℝ) (u : Fin m → ℝ) (t : ℝ) : ℝ :=
  expectedCost l x u t + (a.map fun τ => τ.value x u t).sum

/-- The final cost for analytical terms `l` and automatically differentiated terms `a`. -/
noncomputable def finCost (l a : List (Term n m)) (x : Fin n → ℝ) (u : Fin m → ℝ) (t : ℝ) : ℝ :=
  (l.map fun τ => τ.value x u t).sum + (a.map fun τ => τ.value x u t).sum

/-- A term whose value has continuous second derivatives in state, control and time together. -/
def Smooth (τ : Term n m) : Prop :=
  ContDiff ℝ 2 fun p : Fin (n + m + 1) → ℝ => τ.value (fun i => p (ix i)) (fun i => p (iu i)) (p it)

/-! ### Stacked vectors -/

@[simp] theorem stack_ix (x : Fin n → ℝ) (u : Fin m → ℝ) (t : ℝ) (i : Fin n) : stack x u t (ix i) = x i := by
  simp [stack, ix]

@[simp] theorem stack_iu (x : Fin n → ℝ) (u : Fin m → ℝ) (t : ℝ) (i : Fin m) : stack x u t (iu i) = u i := by
  simp [stack, iu]

@[simp] theorem stack_it (x : Fin n → ℝ) (u : Fin m → ℝ) (t : ℝ) : stack x u t it = t := by
  simp only [stack, it, Fin.append_right]

theorem sum_stack (f : Fin (n + m + 1) → ℝ) : ∑ p, f p = ∑ i, f (ix i) + ∑ i, f (iu i) + f it := by
  rw [Fin.sum_univ_add, Fin.sum_univ_add]
  simp [ix, iu, it]

theorem stack_ext {p q : Fin (n + m + 1) → ℝ} (h1 : ∀ i : Fin n, p (ix i) = q (ix i))
    (h2 : ∀ i : Fin m, p (iu i) = q (iu i)) (h3 : p it = q it) : p = q := by
  funext k
  refine Fin.addCases (fun k => ?_) (fun k => ?_) k
  · refine Fin.addCases (fun k => h1 k) (fun k => h2 k) k
  · rw [Subsingleton.elim k 0]; exact h3

/-- `v ↦ stack v 0 0`. -/
noncomputable def embX : (Fin n → ℝ) →L[ℝ] (Fin (n + m + 1) → ℝ) :=
  LinearMap.toContinuousLinearMap
    { toFun := fun v => stack v 0 0
      map_add' := fun a b => stack_ext (by simp) (by simp) (by simp)
      map_smul' := fun a b => stack_ext (by simp) (by simp) (by simp) }

/-- `v ↦ stack 0 v 0`. -/
noncomputable def embU : (Fin m → ℝ) →L[ℝ] (Fin (n + m + 1) → ℝ) :=
  LinearMap.toContinuousLinearMap
    { toFun := fun v => stack 0 v 0
      map_add' := fun a b => stack_ext (by simp) (by simp) (by simp)
      map_smul' := fun a b => stack_ext (by simp) (by simp) (by simp) }

theorem hasFDerivAt_stackX (u : Fin m → ℝ) (t : ℝ) (x : Fin n → ℝ) :
    HasFDerivAt (fun y : Fin n → ℝ => stack y u t) (embX (m := m)) x := by
  have : (fun y : Fin n → ℝ => stack y u t) = fun y => embX y + stack 0 u t := by
    funext y
    exact stack_ext (fun i => by simp [embX]) (fun i => by simp [embX]) (by simp [embX])
  rw [this]
  exact (ContinuousLinearMap.hasFDerivAt _).add_const _

theorem hasFDerivAt_stackU (x : Fin n → ℝ) (t : ℝ) (u : Fin m → ℝ) :
    HasFDerivAt (fun v : Fin m → ℝ => stack x v t) (embU (n := n)) u := by
  have : (fun v : Fin m → ℝ => stack x v t) = fun v => embU v + stack x 0 t := by
    funext y
    exact stack_ext (fun i => by simp [embU]) (fun i => by simp [embU]) (by simp [embU])
  rw [this]
  exact (ContinuousLinearMap.hasFDerivAt _).add_const _

theorem isGrad_stackX {Φ : (Fin (n + m + 1) → ℝ) → ℝ} {g : Fin (n + m + 1) → ℝ} {x : Fin n → ℝ} {u : Fin m → ℝ}
    {t : ℝ} (h : IsGrad Φ g (stack x u t)) : IsGrad (fun y => Φ (stack y u t)) (fun i => g (ix i)) x := by
  have h' : HasFDerivAt Φ (gradMap g) ((fun y => stack y u t) x) := h
  refine (h'.comp x (hasFDerivAt_stackX u t x)).congr_fderiv ?_
  ext v
  simp only [ContinuousLinearMap.comp_apply, gradMap_apply, dotProduct]
  rw [sum_stack]
  simp [embX]

theorem isGrad_stackU {Φ : (Fin (n + m + 1) → ℝ) → ℝ} {g : Fin (n + m + 1) → ℝ} {x : Fin n → ℝ} {u : Fin m → ℝ}
    {t : ℝ} (h : IsGrad Φ g (stack x u t)) : IsGrad (fun v => Φ (stack x v t)) (fun i => g (iu i)) u := by
  have h' : HasFDerivAt Φ (gradMap g) ((fun y => stack x y t) u) := h
  refine (h'.comp u (hasFDerivAt_stackU x t u)).congr_fderiv ?_
  ext v
  simp only [ContinuousLinearMap.comp_apply, gradMap_apply, dotProduct]
  rw [sum_stack]
  simp [embU]

/-! ### Compiled functions of the cost function -/

/-- The object holds compiled code of the terms `L`. -/
def Holds (j : Jit (n + m + 1)) (L : List (Term n m)) : Prop :=
  j.model = some (evaluateCg L, costSettings) ∧ j.outputDim = 1

theorem evaluateCg_eq (L : List (Term n m)) (x : Fin n → ℝ) (u : Fin m → ℝ) (t : ℝ) (i : ℕ) :
    (evaluateCg L).f (stack x u t) i = (L.map fun τ => τ.value x u t).sum := by
  simp only [evaluateCg, foldl_add, zero_add, stack_ix, stack_iu, stack_it]

theorem forwardZero_of_holds {j : Jit (n + m + 1)} {L : List (Term n m)} (h : Holds j L) (x : Fin n → ℝ)
    (u : Fin m → ℝ) (t : ℝ) :
    (j.forwardZero (stack x u t)).bind first = .ok (L.map fun τ => τ.value x u t).sum := by
  have : j.forwardZero (stack x u t) = .ok [(evaluateCg L).f (stack x u t) 0] := by
    simp [Jit.forwardZero, h.1, costSettings, evaluateCg]
  rw [this, evaluateCg_eq]
  rfl

/-- The parts of Jacobian and Hessian of the terms with respect to state and control. -/
theorem derivatives_of_smooth (L : List (Term n m)) (hL : ∀ τ ∈ L, Smooth τ) :
    ∃ (g : (Fin (n + m + 1) → ℝ) → Fin (n + m + 1) → ℝ)
      (H : (Fin (n + m + 1) → ℝ) → Matrix (Fin (n + m + 1)) (Fin (n + m + 1)) ℝ),
      (∀ p, IsGrad (fun q => (evaluateCg L).f q 0) (g p) p) ∧ ∀ p, IsJac g (H p) p := by
  refine exists_hessian ?_
  have : (fun q => (evaluateCg L).f q 0)
      = fun q => (L.map fun τ => τ.value (fun i => q (ix i)) (fun i => q (iu i)) (q it)).sum := by
    funext q
    simp only [evaluateCg, foldl_add, zero_add]
  rw [this]
  clear this
  induction L with
  | nil => simpa using contDiff_const
  | cons a L ih =>
    simp only [List.map_cons, List.sum_cons]
    exact (hL a (by simp)).add (ih fun τ h => hL τ (by simp [h]))

theorem jacTot_of_holds {ad : AD (n + m + 1)} (hf : ad.Faithful) {j : Jit (n + m + 1)} {L : List (Term n m)}
    (h : Holds j L) {p g : Fin (n + m + 1) → ℝ} (hg : IsGrad (fun q => (evaluateCg L).f q 0) g p) :
    jacTot ad j p = .ok g := by
  have e : (fun c : Fin (n + m + 1) => ad.jac (evaluateCg L) p (0 * (n + m + 1) + c)) = g := by
    funext c
    exact hf.jac _ p 0 (by simp [evaluateCg]) g hg c
  simp only [jacTot, Jit.jacobian, h.1, h.2, costSettings]
  simp only [evaluateCg, lt_irrefl, one_ne_zero, if_false, if_true, List.range_one, List.map_cons, List.map_nil]
  exact congrArg Res.ok e

theorem hesTot_of_holds {ad : AD (n + m + 1)} (hf : ad.Faithful) {j : Jit (n + m + 1)} {L : List (Term n m)}
    (h : Holds j L) {g : (Fin (n + m + 1) → ℝ) → Fin (n + m + 1) → ℝ} {p : Fin (n + m + 1) → ℝ}
    {H : Matrix (Fin (n + m + 1)) (Fin (n + m + 1)) ℝ} (hg : ∀ p, IsGrad (fun q => (evaluateCg L).f q 0) (g p) p)
    (hH : IsJac g H p) : hesTot ad j p = .ok H := by
  have e : (fun r c : Fin (n + m + 1) => ad.hess (evaluateCg L) p (fun _ => 1) (r * (n + m + 1) + c)) = H := by
    funext r c
    refine hf.hess _ p (fun _ => 1) g H (fun y => ?_) hH r c
    have : (fun z => ∑ i ∈ Finset.range (evaluateCg L).k, 1 * (evaluateCg L).f z i)
        = fun q => (evaluateCg L).f q 0 := by
      funext z
      simp [evaluateCg]
    rw [this]
    exact hg y
  simp only [hesTot, Jit.hessian, h.1, h.2, costSettings, one_ne_zero, if_false, if_true]
  exact congrArg Res.ok e

/-! ### Histories -/

theorem bind_ok_iff {α β : Type} {a : Res α} {f : α → Res β} {b : β} :
    (a >>= f) = .ok b ↔ ∃ x, a = .ok x ∧ f x = .ok b := by
  cases a <;> simp [bind, Res.bind]

theorem foldlM_track {σ ο φ : Type} {step : σ → ο → Res σ} (π : σ → φ) (ψ : φ → ο → φ)
    (hs : ∀ c o c', step c o = .ok c' → π c' = ψ (π c) o) (ops : List ο) :
    ∀ c c', ops.foldlM step c = .ok c' → π c' = ops.foldl ψ (π c) := by
  induction ops with
  | nil =>
    intro c c' h
    have : c = c' := by simpa [pure, Res.pure_eq] using h
    rw [this]; rfl
  | cons o ops ih =>
    intro c c' h
    rw [List.foldlM_cons, bind_ok_iff] at h
    obtain ⟨d, hd, hr⟩ := h
    rw [ih d c' hr, hs c o d hd]
    rfl

theorem update_compile (ad : AD (n + m + 1)) (j : Jit (n + m + 1)) (L : List (Term n m)) :
    ∃ k, (j.update (evaluateCg L) 1).compile ad costSettings = .ok k ∧ Holds k L := by
  have : 0 < n + m + 1 := by omega
  refine ⟨{ j with outputDim := 1, tape := some (evaluateCg L), model := some (evaluateCg L, costSettings) },
    ?_, rfl, rfl⟩
  simp [Jit.update, Jit.compile, this, costSettings]

theorem initialize_ok (ad : AD (n + m + 1)) (c : ADCost n m) :
    ∃ c', c.initialize ad = .ok c' ∧ Holds c'.interGen c.inter ∧ Holds c'.finGen c.fin ∧
      c'.inter = c.inter ∧ c'.fin = c.fin ∧ c'.base = c.base ∧ c'.sct = c.sct := by
  obtain ⟨k, hk, hk'⟩ := update_compile ad c.finGen c.fin
  obtain ⟨l, hl, hl'⟩ := update_compile ad c.interGen c.inter
  refine ⟨{ c with interGen := l, finGen := k }, ?_, hl', hk', rfl, rfl, rfl, rfl⟩
  simp only [ADCost.initialize, hk, hl, Res.ok_bind]
  rfl

theorem step_tracks (ad : AD (n + m + 1)) (c : ADCost n m) (o : COp n m) (c' : ADCost n m)
    (h : c.step ad o = .ok c') :
    (c'.inter = adInter c.inter o ∧ c'.fin = adFin c.fin o) ∧
    (c'.base.inter = anInter c.base.inter o ∧ c'.base.fin = anFin c.base.fin o) ∧
    ((c.sct = stack c.base.x c.base.u c.base.t → c'.sct = stack c'.base.x c'.base.u c'.base.t) ∧
      (c'.base.x, c'.base.u, c'.base.t) = pointStep (c.base.x, c.base.u, c.base.t) o) ∧
    (o ≠ .initialize → (c'.interGen.model = c.interGen.model ∧ c'.interGen.outputDim = c.interGen.outputDim) ∧
      c'.finGen.model = c.finGen.model ∧ c'.finGen.outputDim = c.finGen.outputDim) := by
  cases o with
  | «initialize» =>
    obtain ⟨d, hd, -, -, h1, h2, h3, h4⟩ := initialize_ok ad c
    have : d = c' := by
      have := h
      simp only [ADCost.step, hd] at this
      exact Res.ok.inj this
    subst this
    simp [h1, h2, h3, h4, adInter, adFin, anInter, anFin, pointStep]
  | editInter id τ =>
    simp only [ADCost.step, ADCost.editInter] at h
    split at h
    · have := Res.ok.inj h
      subst this
      simp [adInter, adFin, anInter, anFin, pointStep]
    · exact absurd h (by simp)
  | _ =>
    have := Res.ok.inj h
    subst this
    simp [adInter, adFin, anInter, anFin, pointStep, ADCost.addInter, ADCost.addFin, ADCost.load, ADCost.set,
      ADCost.copy, Jit.copy, CF.addInter, CF.addFin, CF.shiftTime]

/-- What is known of an object after a history. -/
theorem run_state (ad : AD (n + m + 1)) (ops : List (COp n m)) (c : ADCost n m) (h : ADCost.run ad ops = .ok c) :
    (c.inter = ops.foldl adInter [] ∧ c.fin = ops.foldl adFin []) ∧
    (c.base.inter = ops.foldl anInter [] ∧ c.base.fin = ops.foldl anFin []) ∧
    c.sct = stack c.base.x c.base.u c.base.t ∧
    (c.base.x, c.base.u, c.base.t) = ops.foldl pointStep (0, 0, 0) := by
  refine ⟨⟨?_, ?_⟩, ⟨?_, ?_⟩, ?_, ?_⟩
  · exact foldlM_track (fun c : ADCost n m => c.inter) adInter (fun c o c' h => (step_tracks ad c o c' h).1.1) ops _ _ h
  · exact foldlM_track (fun c : ADCost n m => c.fin) adFin (fun c o c' h => (step_tracks ad c o c' h).1.2) ops _ _ h
  · exact foldlM_track (fun c : ADCost n m => c.base.inter) anInter
      (fun c o c' h => (step_tracks ad c o c' h).2.1.1) ops _ _ h
  · exact foldlM_track (fun c : ADCost n m => c.base.fin) anFin
      (fun c o c' h => (step_tracks ad c o c' h).2.1.2) ops _ _ h
  · have gen : ∀ (ops : List (COp n m)) (c c' : ADCost n m), ops.foldlM (ADCost.step ad) c = .ok c' →
        c.sct = stack c.base.x c.base.u c.base.t → c'.sct = stack c'.base.x c'.base.u c'.base.t := by
      intro ops
      induction ops with
      | nil =>
        intro c c' h
        have : c = c' := by simpa [pure, Res.pure_eq] using h
        rw [this]; exact id
      | cons o ops ih =>
        intro c c' h h0
        rw [List.foldlM_cons, bind_ok_iff] at h
        obtain ⟨d, hd, hr⟩ := h
        exact ih d c' hr ((step_tracks ad c o d hd).2.2.1.1 h0)
    exact gen ops _ _ h rfl
  · exact foldlM_track (fun c : ADCost n m => (c.base.x, c.base.u, c.base.t)) pointStep
      (fun c o c' h => (step_tracks ad c o c' h).2.2.1.2) ops _ _ h

theorem models_kept (ad : AD (n + m + 1)) (ops : List (COp n m)) (hn : COp.initialize ∉ ops) :
    ∀ c c' : ADCost n m, ops.foldlM (ADCost.step ad) c = .ok c' →
      (c'.interGen.model = c.interGen.model ∧ c'.interGen.outputDim = c.interGen.outputDim) ∧
      c'.finGen.model = c.finGen.model ∧ c'.finGen.outputDim = c.finGen.outputDim := by
  induction ops with
  | nil =>
    intro c c' h
    have : c = c' := by simpa [pure, Res.pure_eq] using h
    rw [this]; exact ⟨⟨rfl, rfl⟩, rfl, rfl⟩
  | cons o ops ih =>
    intro c c' h
    rw [List.foldlM_cons, bind_ok_iff] at h
    obtain ⟨d, hd, hr⟩ := h
    obtain ⟨⟨a1, a2⟩, a3, a4⟩ := ih (fun h => hn (List.mem_cons_of_mem _ h)) d c' hr
    obtain ⟨⟨b1, b2⟩, b3, b4⟩ := (step_tracks ad c o d hd).2.2.2 (fun e => hn (e ▸ List.mem_cons_self ..))
    exact ⟨⟨a1.trans b1, a2.trans b2⟩, a3.trans b3, a4.trans b4⟩

/-- The compiled terms are those listed at the last `initialize`. -/
theorem run_holds (ad : AD (n + m + 1)) (before after : List (COp n m)) (hn : COp.initialize ∉ after)
    (c : ADCost n m) (h : ADCost.run ad (before ++ [.initialize] ++ after) = .ok c) :
    Holds c.interGen (before.foldl adInter []) ∧ Holds c.finGen (before.foldl adFin []) := by
  have h' := h
  rw [ADCost.run, List.append_assoc, List.foldlM_append, bind_ok_iff] at h
  obtain ⟨b, hb, h⟩ := h
  rw [List.singleton_append, List.foldlM_cons, bind_ok_iff] at h
  obtain ⟨d, hd, hr⟩ := h
  obtain ⟨e, he, h1, h2, -⟩ := initialize_ok ad b
  have : e = d := by
    have hd' : b.initialize ad = .ok d := hd
    rw [he] at hd'
    exact Res.ok.inj hd'
  subst this
  have hs := run_state ad before b hb
  rw [hs.1.1] at h1
  rw [hs.1.2] at h2
  obtain ⟨⟨a1, a2⟩, a3, a4⟩ := models_kept ad after hn e c hr
  exact ⟨⟨a1.trans h1.1, a2.trans h1.2⟩, a3.trans h2.1, a4.trans h2.2⟩

/-! ### C151 -/

/-- C151, values: after any history with an `initialize` (followed by anything but another one, copies
included) the cost is the sum of the analytical terms in force and of the automatically differentiated
terms in force at the last `initialize`, at the state, control and time set last; all analytical terms
being switched fully on or off at that time, as in `C37_value_partial`. Final costs likewise. -/
theorem C151_value (ad : AD (n + m + 1)) (before after : List (COp n m)) (hn : COp.initialize ∉ after)
    (c : ADCost n m) (h : ADCost.run ad (before ++ [.initialize] ++ after) = .ok c)
    (x : Fin n → ℝ) (u : Fin m → ℝ) (t : ℝ)
    (hp : (before ++ [COp.initialize] ++ after).foldl pointStep (0, 0, 0) = (x, u, t))
    (h01 : ∀ τ ∈ (before ++ [COp.initialize] ++ after).foldl anInter [], τ.active t = true →
      τ.activation t = 0 ∨ τ.activation t = 1) :
    c.evaluateIntermediate = .ok (interCost ((before ++ [COp.initialize] ++ after).foldl anInter [])
      (before.foldl adInter []) x u t) ∧
    c.evaluateTerminal = .ok (finCost ((before ++ [COp.initialize] ++ after).foldl anFin [])
      (before.foldl adFin []) x u t) := by
  obtain ⟨hi, hf⟩ := run_holds ad before after hn c h
  obtain ⟨-, ⟨b1, b2⟩, b3, b4⟩ := run_state ad _ c h
  rw [hp] at b4
  obtain ⟨ex, eu, et⟩ : c.base.x = x ∧ c.base.u = u ∧ c.base.t = t := by simpa using b4
  constructor
  · have := forwardZero_of_holds hi x u t
    have hb : c.base.evaluateIntermediate
        = expectedCost ((before ++ [COp.initialize] ++ after).foldl anInter []) x u t := by
      rw [evaluate_eq, b1, ex, eu, et, expectedCost]
      congr 1
      refine List.map_congr_left fun τ hτ => ?_
      by_cases ha : τ.active t = true
      · rcases h01 τ hτ ha with h | h <;> simp [weight, ha, h]
      · simp [weight, ha]
    rw [ADCost.evaluateIntermediate, b3, ex, eu, et, hb]
    cases hv : c.interGen.forwardZero (stack x u t) with
    | ok v =>
      rw [hv] at this
      change first v = _ at this
      change (first v >>= fun y => pure (_ + y)) = _
      rw [this]; rfl
    | exc => rw [hv] at this; exact absurd this (by simp [Res.bind])
    | ub => rw [hv] at this; exact absurd this (by simp [Res.bind])
  · have := forwardZero_of_holds hf x u t
    have hb : c.base.evaluateTerminal
        = (((before ++ [COp.initialize] ++ after).foldl anFin []).map fun τ : Term n m => τ.value x u t).sum := by
      rw [CF.evaluateTerminal, foldl_add, zero_add, b2, ex, eu, et]
    rw [ADCost.evaluateTerminal, b3, ex, eu, et, hb]
    cases hv : c.finGen.forwardZero (stack x u t) with
    | ok v =>
      rw [hv] at this
      change first v = _ at this
      change (first v >>= fun y => pure (_ + y)) = _
      rw [this]; rfl
    | exc => rw [hv] at this; exact absurd this (by simp [Res.bind])
    | ub => rw [hv] at this; exact absurd this (by simp [Res.bind])

/-- C151, derivatives: when moreover the analytical terms have exact derivatives and the automatically
differentiated ones are smooth, then for every state, control and time set afterwards the gradient methods
return the gradients of the cost, the second derivative methods the Jacobians of these gradients, for
intermediate and final costs, in state and control. -/
theorem C151_derivatives (ad : AD (n + m + 1)) (hfa : ad.Faithful) (before after : List (COp n m))
    (hn : COp.initialize ∉ after) (c : ADCost n m) (h : ADCost.run ad (before ++ [.initialize] ++ after) = .ok c)
    (hex : ∀ τ ∈ (before ++ [COp.initialize] ++ after).foldl anInter [], Exact τ)
    (hex' : ∀ τ ∈ (before ++ [COp.initialize] ++ after).foldl anFin [], Exact τ)
    (hsm : ∀ τ ∈ before.foldl adInter [], Smooth τ) (hsm' : ∀ τ ∈ before.foldl adFin [], Smooth τ) :
    ∃ (GX FX : (Fin n → ℝ) → (Fin m → ℝ) → ℝ → Fin n → ℝ) (GU FU : (Fin n → ℝ) → (Fin m → ℝ) → ℝ → Fin m → ℝ),
      ∀ x u t,
      (IsGrad (fun y => interCost ((before ++ [COp.initialize] ++ after).foldl anInter []) (before.foldl adInter []) y u t)
          (GX x u t) x ∧
        IsGrad (fun v => interCost ((before ++ [COp.initialize] ++ after).foldl anInter []) (before.foldl adInter []) x v t)
          (GU x u t) u) ∧
      (IsGrad (fun y => finCost ((before ++ [COp.initialize] ++ after).foldl anFin []) (before.foldl adFin []) y u t)
          (FX x u t) x ∧
        IsGrad (fun v => finCost ((before ++ [COp.initialize] ++ after).foldl anFin []) (before.foldl adFin []) x v t)
          (FU x u t) u) ∧
      ∃ c', c.step ad (.set x u t) = .ok c' ∧
      ∃ HX HU HC KX KU KC,
        (c'.stateDerivativeIntermediate ad = .ok (GX x u t) ∧
          c'.controlDerivativeIntermediate ad = .ok (GU x u t) ∧
          (c'.stateSecondDerivativeIntermediate ad = .ok HX ∧ IsJac (fun y => GX y u t) HX x) ∧
          (c'.controlSecondDerivativeIntermediate ad = .ok HU ∧ IsJac (fun v => GU x v t) HU u) ∧
          (c'.stateControlDerivativeIntermediate ad = .ok HC ∧ IsJac (fun y => GU y u t) HC x)) ∧
        (c'.stateDerivativeTerminal ad = .ok (FX x u t) ∧
          c'.controlDerivativeTerminal ad = .ok (FU x u t) ∧
          (c'.stateSecondDerivativeTerminal ad = .ok KX ∧ IsJac (fun y => FX y u t) KX x) ∧
          (c'.controlSecondDerivativeTerminal ad = .ok KU ∧ IsJac (fun v => FU x v t) KU u) ∧
          (c'.stateControlDerivativeTerminal ad = .ok KC ∧ IsJac (fun y => FU y u t) KC x)) := by
  obtain ⟨hi, hf⟩ := run_holds ad before after hn c h
  obtain ⟨-, ⟨b1, b2⟩, -, -⟩ := run_state ad _ c h
  generalize hA : (before ++ [COp.initialize] ++ after).foldl anInter [] = A at *
  generalize hB : (before ++ [COp.initialize] ++ after).foldl anFin [] = B at *
  generalize hP : before.foldl adInter [] = P at *
  generalize hQ : before.foldl adFin [] = Q at *
  obtain ⟨g, H, hg, hH⟩ := derivatives_of_smooth P hsm
  obtain ⟨k, K, hk, hK⟩ := derivatives_of_smooth Q hsm'
  refine ⟨fun x u t => (fun i => g (stack x u t) (ix i)) + (A.map fun τ => weight τ t • τ.gradX x u t).sum,
    fun x u t => (fun i => k (stack x u t) (ix i)) + (B.map fun τ => (1 : ℝ) • τ.gradX x u t).sum,
    fun x u t => (fun i => g (stack x u t) (iu i)) + (A.map fun τ => weight τ t • τ.gradU x u t).sum,
    fun x u t => (fun i => k (stack x u t) (iu i)) + (B.map fun τ => (1 : ℝ) • τ.gradU x u t).sum,
    fun x u t => ⟨⟨?_, ?_⟩, ⟨?_, ?_⟩, c.set x u t, rfl,
      Matrix.of (fun i j => H (stack x u t) (ix i) (ix j)) + (A.map fun τ => weight τ t • τ.hessX x u t).sum,
      Matrix.of (fun i j => H (stack x u t) (iu i) (iu j)) + (A.map fun τ => weight τ t • τ.hessU x u t).sum,
      Matrix.of (fun i j => H (stack x u t) (iu i) (ix j)) + (A.map fun τ => weight τ t • τ.cross x u t).sum,
      Matrix.of (fun i j => K (stack x u t) (ix i) (ix j)) + (B.map fun τ => (1 : ℝ) • τ.hessX x u t).sum,
      Matrix.of (fun i j => K (stack x u t) (iu i) (iu j)) + (B.map fun τ => (1 : ℝ) • τ.hessU x u t).sum,
      Matrix.of (fun i j => K (stack x u t) (iu i) (ix j)) + (B.map fun τ => (1 : ℝ) • τ.cross x u t).sum,
      ⟨?_, ?_, ⟨?_, ?_⟩, ⟨?_, ?_⟩, ⟨?_, ?_⟩⟩, ⟨?_, ?_, ⟨?_, ?_⟩, ⟨?_, ?_⟩, ⟨?_, ?_⟩⟩⟩⟩
  · have h1 := isGrad_stackX (hg (stack x u t))
    simp only [evaluateCg_eq] at h1
    have h2 := isGrad_list_sum A (fun τ => weight τ t) (fun τ y => τ.value y u t) (fun τ => τ.gradX x u t) x
      (fun τ hτ => (hex τ hτ).gradX x u t)
    have := isGrad_add h2 h1
    rw [add_comm (List.sum _)] at this
    exact this
  · have h1 := isGrad_stackU (hg (stack x u t))
    simp only [evaluateCg_eq] at h1
    have h2 := isGrad_list_sum A (fun τ => weight τ t) (fun τ v => τ.value x v t) (fun τ => τ.gradU x u t) u
      (fun τ hτ => (hex τ hτ).gradU x u t)
    have := isGrad_add h2 h1
    rw [add_comm (List.sum _)] at this
    exact this
  · have h1 := isGrad_stackX (hk (stack x u t))
    simp only [evaluateCg_eq] at h1
    have h2 := isGrad_list_sum B (fun _ => 1) (fun τ y => τ.value y u t) (fun τ => τ.gradX x u t) x
      (fun τ hτ => (hex' τ hτ).gradX x u t)
    simp only [one_mul] at h2
    have := isGrad_add h2 h1
    rw [add_comm (List.sum _)] at this
    exact this
  · have h1 := isGrad_stackU (hk (stack x u t))
    simp only [evaluateCg_eq] at h1
    have h2 := isGrad_list_sum B (fun _ => 1) (fun τ v => τ.value x v t) (fun τ => τ.gradU x u t) u
      (fun τ hτ => (hex' τ hτ).gradU x u t)
    simp only [one_mul] at h2
    have := isGrad_add h2 h1
    rw [add_comm (List.sum _)] at this
    exact this
  · have hj := jacTot_of_holds (j := (c.set x u t).interGen) hfa hi (hg (stack x u t))
    have hb : (c.set x u t).base.stateDerivativeIntermediate = (A.map fun τ => weight τ t • τ.gradX x u t).sum := by
      rw [CF.stateDerivativeIntermediate, sumActive_eq, filter_map_sum]
      simp only [ADCost.set, b1]
    rw [ADCost.stateDerivativeIntermediate, hb]
    rw [show (c.set x u t).sct = stack x u t from rfl, hj]
    rfl
  · have hj := jacTot_of_holds (j := (c.set x u t).interGen) hfa hi (hg (stack x u t))
    have hb : (c.set x u t).base.controlDerivativeIntermediate = (A.map fun τ => weight τ t • τ.gradU x u t).sum := by
      rw [CF.controlDerivativeIntermediate, sumActive_eq, filter_map_sum]
      simp only [ADCost.set, b1]
    rw [ADCost.controlDerivativeIntermediate, hb]
    rw [show (c.set x u t).sct = stack x u t from rfl, hj]
    rfl
  · have hj := hesTot_of_holds (j := (c.set x u t).interGen) hfa hi hg (hH (stack x u t))
    have hb : (c.set x u t).base.stateSecondDerivativeIntermediate = (A.map fun τ => weight τ t • τ.hessX x u t).sum := by
      rw [CF.stateSecondDerivativeIntermediate, sumActive_eq, filter_map_sum]
      simp only [ADCost.set, b1]
    rw [ADCost.stateSecondDerivativeIntermediate, hb]
    rw [show (c.set x u t).sct = stack x u t from rfl, hj]
    rfl
  · exact isJac_add (isJac_rows.2 fun i => isGrad_stackX (isJac_rows.1 (hH (stack x u t)) (ix i)))
      (isJac_list_sum A (fun τ => weight τ t) (fun τ y => τ.gradX y u t) (fun τ => τ.hessX x u t) x
        (fun τ hτ => (hex τ hτ).hessX x u t))
  · have hj := hesTot_of_holds (j := (c.set x u t).interGen) hfa hi hg (hH (stack x u t))
    have hb : (c.set x u t).base.controlSecondDerivativeIntermediate = (A.map fun τ => weight τ t • τ.hessU x u t).sum := by
      rw [CF.controlSecondDerivativeIntermediate, sumActive_eq, filter_map_sum]
      simp only [ADCost.set, b1]
    rw [ADCost.controlSecondDerivativeIntermediate, hb]
    rw [show (c.set x u t).sct = stack x u t from rfl, hj]
    rfl
  · exact isJac_add (isJac_rows.2 fun i => isGrad_stackU (isJac_rows.1 (hH (stack x u t)) (iu i)))
      (isJac_list_sum A (fun τ => weight τ t) (fun τ v => τ.gradU x v t) (fun τ => τ.hessU x u t) u
        (fun τ hτ => (hex τ hτ).hessU x u t))
  · have hj := hesTot_of_holds (j := (c.set x u t).interGen) hfa hi hg (hH (stack x u t))
    have hb : (c.set x u t).base.stateControlDerivativeIntermediate = (A.map fun τ => weight τ t • τ.cross x u t).sum := by
      rw [CF.stateControlDerivativeIntermediate, sumActive_eq, filter_map_sum]
      simp only [ADCost.set, b1]
    rw [ADCost.stateControlDerivativeIntermediate, hb]
    rw [show (c.set x u t).sct = stack x u t from rfl, hj]
    rfl
  · exact isJac_add (isJac_rows.2 fun i => isGrad_stackX (isJac_rows.1 (hH (stack x u t)) (iu i)))
      (isJac_list_sum A (fun τ => weight τ t) (fun τ y => τ.gradU y u t) (fun τ => τ.cross x u t) x
        (fun τ hτ => (hex τ hτ).crossX x u t))
  · have hj := jacTot_of_holds (j := (c.set x u t).finGen) hfa hf (hk (stack x u t))
    have hb : (c.set x u t).base.stateDerivativeTerminal = (B.map fun τ => (1 : ℝ) • τ.gradX x u t).sum := by
      simp only [CF.stateDerivativeTerminal, foldl_add, zero_add, one_smul, ADCost.set, b2]
    rw [ADCost.stateDerivativeTerminal, hb]
    rw [show (c.set x u t).sct = stack x u t from rfl, hj]
    rfl
  · have hj := jacTot_of_holds (j := (c.set x u t).finGen) hfa hf (hk (stack x u t))
    have hb : controlDerivativeTerminalBase (c.set x u t).base = (B.map fun τ => (1 : ℝ) • τ.gradU x u t).sum := by
      simp only [controlDerivativeTerminalBase, foldl_add, zero_add, one_smul, ADCost.set, b2]
    rw [ADCost.controlDerivativeTerminal, hb]
    rw [show (c.set x u t).sct = stack x u t from rfl, hj]
    rfl
  · have hj := hesTot_of_holds (j := (c.set x u t).finGen) hfa hf hk (hK (stack x u t))
    have hb : (c.set x u t).base.stateSecondDerivativeTerminal = (B.map fun τ => (1 : ℝ) • τ.hessX x u t).sum := by
      simp only [CF.stateSecondDerivativeTerminal, foldl_add, zero_add, one_smul, ADCost.set, b2]
    rw [ADCost.stateSecondDerivativeTerminal, hb]
    rw [show (c.set x u t).sct = stack x u t from rfl, hj]
    rfl
  · exact isJac_add (isJac_rows.2 fun i => isGrad_stackX (isJac_rows.1 (hK (stack x u t)) (ix i)))
      (isJac_list_sum B (fun _ => 1) (fun τ y => τ.gradX y u t) (fun τ => τ.hessX x u t) x
        (fun τ hτ => (hex' τ hτ).hessX x u t))
  · have hj := hesTot_of_holds (j := (c.set x u t).finGen) hfa hf hk (hK (stack x u t))
    have hb : controlSecondDerivativeTerminalBase (c.set x u t).base = (B.map fun τ => (1 : ℝ) • τ.hessU x u t).sum := by
      simp only [controlSecondDerivativeTerminalBase, foldl_add, zero_add, one_smul, ADCost.set, b2]
    rw [ADCost.controlSecondDerivativeTerminal, hb]
    rw [show (c.set x u t).sct = stack x u t from rfl, hj]
    rfl
  · exact isJac_add (isJac_rows.2 fun i => isGrad_stackU (isJac_rows.1 (hK (stack x u t)) (iu i)))
      (isJac_list_sum B (fun _ => 1) (fun τ v => τ.gradU x v t) (fun τ => τ.hessU x u t) u
        (fun τ hτ => (hex' τ hτ).hessU x u t))
  · have hj := hesTot_of_holds (j := (c.set x u t).finGen) hfa hf hk (hK (stack x u t))
    have hb : stateControlDerivativeTerminalBase (c.set x u t).base = (B.map fun τ => (1 : ℝ) • τ.cross x u t).sum := by
      simp only [stateControlDerivativeTerminalBase, foldl_add, zero_add, one_smul, ADCost.set, b2]
    rw [ADCost.stateControlDerivativeTerminal, hb]
    rw [show (c.set x u t).sct = stack x u t from rfl, hj]
    rfl
  · exact isJac_add (isJac_rows.2 fun i => isGrad_stackX (isJac_rows.1 (hK (stack x u t)) (iu i)))
      (isJac_list_sum B (fun _ => 1) (fun τ y => τ.gradU y u t) (fun τ => τ.cross x u t) x
        (fun τ hτ => (hex' τ hτ).crossX x u t))

theorem smooth_linear (a : Fin n → ℝ) (b : Fin m → ℝ) (k : ℝ) : Smooth (linear a b k) := by
  simp only [Smooth, linear, dotProduct]
  fun_prop

/-- A history with analytical and automatically differentiated terms of both kinds and a copy, which meets
the hypotheses of `C151_value` and `C151_derivatives`. -/
example (ad : AD (1 + 1 + 1)) : ∃ (before after : List (COp 1 1)) (c : ADCost 1 1), COp.initialize ∉ after ∧
    ADCost.run ad (before ++ [.initialize] ++ after) = .ok c ∧
    (∀ τ ∈ (before ++ [COp.initialize] ++ after).foldl anInter [], Exact τ ∧ ∀ t, τ.active t = true →
      τ.activation t = 0 ∨ τ.activation t = 1) ∧
    (∀ τ ∈ (before ++ [COp.initialize] ++ after).foldl anFin [], Exact τ) ∧
    (∀ τ ∈ before.foldl adInter [], Smooth τ) ∧ (∀ τ ∈ before.foldl adFin [], Smooth τ) ∧
    ((before ++ [COp.initialize] ++ after).foldl anInter []).length = 1 ∧ (before.foldl adInter []).length = 2 ∧
    (before.foldl adFin []).length = 1 := by
  have e : ∃ c, ADCost.run ad ([.addInter (linear 1 1 0), .addInterAnalytic (quadratic 1 1 0 0), .addInter (linear 1 0 0),
      .addFin (linear 2 1 0)] ++ [.initialize] ++ [.set 1 2 3, .clone]) = .ok c := ⟨_, rfl⟩
  obtain ⟨c, hc⟩ := e
  refine ⟨_, _, c, ?_, hc, ?_, ?_, ?_, ?_, rfl, rfl, rfl⟩
  · simp
  · intro τ h
    simp only [List.cons_append, List.nil_append, List.foldl_cons, List.foldl_nil, anInter, List.mem_cons,
      List.not_mem_nil, or_false] at h
    subst h
    exact ⟨exact_quadratic _ _ _ _, by simp [quadratic]⟩
  · intro τ h
    simp [anFin] at h
  · intro τ h
    simp only [List.cons_append, List.nil_append, List.foldl_cons, List.foldl_nil, adInter, List.mem_cons,
      List.not_mem_nil, or_false] at h
    rcases h with rfl | rfl <;> exact smooth_linear _ _ _
  · intro τ h
    simp only [List.nil_append, List.foldl_cons, List.foldl_nil, adFin, List.mem_cons, List.not_mem_nil, or_false] at h
    subst h
    exact smooth_linear _ _ _

/-- C151: without `initialize` every value and derivative raises an error, rather than returning the
analytical part only. -/
theorem C151_uninitialised (ad : AD (n + m + 1)) (ops : List (COp n m)) (hn : COp.initialize ∉ ops) (c : ADCost n m)
    (h : ADCost.run ad ops = .ok c) :
    (c.evaluateIntermediate = .exc ∧ c.evaluateTerminal = .exc) ∧
    (c.stateDerivativeIntermediate ad = .exc ∧ c.stateDerivativeTerminal ad = .exc ∧
      c.controlDerivativeIntermediate ad = .exc ∧ c.controlDerivativeTerminal ad = .exc) ∧
    (c.stateSecondDerivativeIntermediate ad = .exc ∧ c.stateSecondDerivativeTerminal ad = .exc ∧
      c.controlSecondDerivativeIntermediate ad = .exc ∧ c.controlSecondDerivativeTerminal ad = .exc ∧
      c.stateControlDerivativeIntermediate ad = .exc ∧ c.stateControlDerivativeTerminal ad = .exc) := by
  obtain ⟨⟨a1, a2⟩, a3, a4⟩ := models_kept ad ops hn _ c h
  have i1 : (ADCost.new : ADCost n m).interGen.model = none := by
    simp [ADCost.new, Jit.new, Jit.update]
  have i3 : (ADCost.new : ADCost n m).finGen.model = none := by
    simp [ADCost.new, Jit.new, Jit.update]
  rw [i1] at a1
  rw [i3] at a3
  have f1 : c.interGen.forwardZero c.sct = .exc := by simp [Jit.forwardZero, a1]
  have f3 : c.finGen.forwardZero c.sct = .exc := by simp [Jit.forwardZero, a3]
  have j1 : jacTot ad c.interGen c.sct = .exc := by
    have : c.interGen.jacobian ad c.sct = .exc := by simp [Jit.jacobian, a1]
    rw [jacTot, this]; rfl
  have j3 : jacTot ad c.finGen c.sct = .exc := by
    have : c.finGen.jacobian ad c.sct = .exc := by simp [Jit.jacobian, a3]
    rw [jacTot, this]; rfl
  have k1 : hesTot ad c.interGen c.sct = .exc := by simp [hesTot, Jit.hessian, a1]
  have k3 : hesTot ad c.finGen c.sct = .exc := by simp [hesTot, Jit.hessian, a3]
  refine ⟨⟨?_, ?_⟩, ⟨?_, ?_, ?_, ?_⟩, ?_, ?_, ?_, ?_, ?_, ?_⟩
  · rw [ADCost.evaluateIntermediate, f1]; rfl
  · rw [ADCost.evaluateTerminal, f3]; rfl
  · rw [ADCost.stateDerivativeIntermediate, j1]; rfl
  · rw [ADCost.stateDerivativeTerminal, j3]; rfl
  · rw [ADCost.controlDerivativeIntermediate, j1]; rfl
  · rw [ADCost.controlDerivativeTerminal, j3]; rfl
  · rw [ADCost.stateSecondDerivativeIntermediate, k1]; rfl
  · rw [ADCost.stateSecondDerivativeTerminal, k3]; rfl
  · rw [ADCost.controlSecondDerivativeIntermediate, k1]; rfl
  · rw [ADCost.controlSecondDerivativeTerminal, k3]; rfl
  · rw [ADCost.stateControlDerivativeIntermediate, k1]; rfl
  · rw [ADCost.stateControlDerivativeTerminal, k3]; rfl

example (ad : AD (1 + 1 + 1)) : ∃ c : ADCost 1 1, ADCost.run ad [.addInter (linear 1 1 0), .set 1 2 3] = .ok c := ⟨_, rfl⟩

/-- C151 is violated by terms with a time activation: an automatically differentiated term counts with its
full value at every time, also where it is to be inactive; the same term added analytically counts
with its weight. -/
theorem C151_activation_violated (ad : AD (n + m + 1)) (τ : Term n m) (x : Fin n → ℝ) (u : Fin m → ℝ) (t : ℝ)
    (hoff : τ.active t = false) (hv : τ.value x u t ≠ 0) :
    ∃ c d, ADCost.run ad [.addInter τ, .initialize, .set x u t] = .ok c ∧
      ADCost.run ad [.addInterAnalytic τ, .initialize, .set x u t] = .ok d ∧
      c.evaluateIntermediate = .ok (τ.value x u t) ∧ d.evaluateIntermediate = .ok 0 ∧
      expectedCost [τ] x u t = 0 ∧ c.evaluateIntermediate ≠ .ok (expectedCost [τ] x u t) := by
  obtain ⟨c, hc⟩ : ∃ c, ADCost.run ad ([.addInter τ] ++ [.initialize] ++ [.set x u t]) = .ok c := ⟨_, rfl⟩
  obtain ⟨d, hd⟩ : ∃ c, ADCost.run ad ([.addInterAnalytic τ] ++ [.initialize] ++ [.set x u t]) = .ok c := ⟨_, rfl⟩
  have v := (C151_value ad [.addInter τ] [.set x u t] (by simp) c hc x u t rfl (by simp [anInter])).1
  have w := (C151_value ad [.addInterAnalytic τ] [.set x u t] (by simp) d hd x u t rfl
    (by simp [anInter, hoff])).1
  have e : expectedCost [τ] x u t = 0 := by simp [expectedCost, weight, hoff]
  have v' : c.evaluateIntermediate = .ok (τ.value x u t) := by
    rw [v]
    simp [interCost, anInter, adInter, expectedCost]
  refine ⟨c, d, hc, hd, v', ?_, e, ?_⟩
  · rw [w]
    simp [interCost, anInter, adInter, expectedCost, weight, hoff]
  · rw [v', e]
    intro h
    exact hv (Res.ok.inj h)

example : ∃ (τ : Term 1 1) (x u : Fin 1 → ℝ) (t : ℝ), τ.active t = false ∧ τ.value x u t ≠ 0 :=
  ⟨{ linear 1 1 0 with active := fun _ => false }, 1, 0, 0, rfl, by simp [linear]⟩

/-- C151 is violated by `shiftTime`: the shift has no effect on an initialised cost function, whereas an
analytical cost function with the same term evaluates it at the shifted time. -/
theorem C151_shift_violated (ad : AD (n + m + 1)) (τ : Term n m) (hact : ∀ t, τ.active t = true ∧ τ.activation t = 1)
    (x : Fin n → ℝ) (u : Fin m → ℝ) (t s : ℝ) :
    ∃ c d, ADCost.run ad [.addInter τ, .shift s, .initialize, .set x u t] = .ok c ∧
      c.evaluateIntermediate = .ok (τ.value x u t) ∧
      ADCost.run ad [.addInterAnalytic τ, .shift s, .initialize, .set x u t] = .ok d ∧
      d.evaluateIntermediate = .ok (τ.value x u t) ∧
      (CF.run [.addInter τ, .shift s, .set x u t]).evaluateIntermediate = τ.value x u (t + s) := by
  obtain ⟨c, hc⟩ : ∃ c, ADCost.run ad ([.addInter τ, .shift s] ++ [.initialize] ++ [.set x u t]) = .ok c := ⟨_, rfl⟩
  obtain ⟨d, hd⟩ : ∃ c, ADCost.run ad ([.addInterAnalytic τ, .shift s] ++ [.initialize] ++ [.set x u t]) = .ok c := ⟨_, rfl⟩
  have v := (C151_value ad [.addInter τ, .shift s] [.set x u t] (by simp) c hc x u t rfl (by simp [anInter])).1
  have w := (C151_value ad [.addInterAnalytic τ, .shift s] [.set x u t] (by simp) d hd x u t rfl
    (by simp [anInter, hact])).1
  refine ⟨c, d, hc, ?_, hd, ?_, ?_⟩
  · rw [v]
    simp [interCost, anInter, adInter, expectedCost]
  · rw [w]
    simp [interCost, anInter, adInter, expectedCost, weight, hact]
  · rw [evaluate_eq]
    simp [CF.run, CF.step, CF.addInter, CF.shiftTime, CF.set, CF.new, weight, hact]

/-- A term whose value depends on time, so that the shift matters. -/
example : ∃ (τ : Term 1 1) (x u : Fin 1 → ℝ) (t s : ℝ), (∀ t, τ.active t = true ∧ τ.activation t = 1) ∧
    τ.value x u t ≠ τ.value x u (t + s) :=
  ⟨{ linear 1 1 0 with value := fun _ _ t => t, active := fun _ => true, activation := fun _ => 1 }, 0, 0, 0, 1,
    by simp, by norm_num⟩

/-- C151 is violated by changes after `initialize`: a term added then is not part of the cost, a term changed
then (for example given a new reference) keeps its old value, without any error. -/
theorem C151_stale_violated (ad : AD (n + m + 1)) (τ σ : Term n m) (x : Fin n → ℝ) (u : Fin m → ℝ) (t : ℝ) :
    ∃ c d, ADCost.run ad [.initialize, .addInter τ, .set x u t] = .ok c ∧ c.evaluateIntermediate = .ok 0 ∧
      ADCost.run ad [.addInter τ, .initialize, .editInter 0 σ, .set x u t] = .ok d ∧
      d.inter = [σ] ∧ d.evaluateIntermediate = .ok (τ.value x u t) := by
  obtain ⟨c, hc⟩ : ∃ c, ADCost.run ad ([] ++ [.initialize] ++ [.addInter τ, .set x u t]) = .ok c := ⟨_, rfl⟩
  obtain ⟨d, hd⟩ : ∃ c, ADCost.run ad ([.addInter τ] ++ [.initialize] ++ [.editInter 0 σ, .set x u t]) = .ok c := ⟨_, rfl⟩
  have v := (C151_value ad [] [.addInter τ, .set x u t] (by simp) c hc x u t rfl (by simp [anInter])).1
  have w := (C151_value ad [.addInter τ] [.editInter 0 σ, .set x u t] (by simp) d hd x u t rfl
    (by simp [anInter])).1
  refine ⟨c, d, hc, ?_, hd, ?_, ?_⟩
  · rw [v]
    simp [interCost, anInter, expectedCost]
  · rw [(run_state ad _ d hd).1.1]
    rfl
  · rw [w]
    simp [interCost, anInter, adInter, expectedCost]

/-- C151 is violated by reading a configuration twice: the analytical terms are replaced, the
automatically differentiated ones are kept, so that the terms of the file count twice. -/
theorem C151_reload_violated (ad : AD (n + m + 1)) (τ σ : Term n m) (x : Fin n → ℝ) (u : Fin m → ℝ) (t : ℝ) :
    ∃ c, ADCost.run ad [.addInterAnalytic σ, .load [τ] [], .load [τ] [], .initialize, .set x u t] = .ok c ∧
      c.evaluateIntermediate = .ok (2 * τ.value x u t) := by
  obtain ⟨c, hc⟩ : ∃ c, ADCost.run ad ([.addInterAnalytic σ, .load [τ] [], .load [τ] []] ++ [.initialize] ++
    [.set x u t]) = .ok c := ⟨_, rfl⟩
  have v := (C151_value ad [.addInterAnalytic σ, .load [τ] [], .load [τ] []] [.set x u t] (by simp) c hc x u t rfl
    (by simp [anInter])).1
  refine ⟨c, hc, ?_⟩
  rw [v]
  simp [interCost, anInter, adInter, expectedCost, two_mul]

end CT.CodeGen
