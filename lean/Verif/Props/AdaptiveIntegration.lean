import Verif.Model.AdaptiveIntegration
import Mathlib.Tactic.FinCases
import Mathlib.Tactic.Linarith
import Mathlib.Tactic.NormNum
import Mathlib.Tactic.Positivity
import Mathlib.Tactic.Ring
import Mathlib.Algebra.Order.Field.Basic

/-! # C197: adaptive integration keeps to the tolerances -/

namespace CT.Adaptive

/-! ### Specification -/

/-- The method behind an integration type. -/
def methodOf : IntType → Option Method
  | .euler => some .euler
  | .rk4 => some .rk4
  | .modifiedMidpoint => some .modifiedMidpoint
  | .ode45 => some .dopri5
  | .rk5variable => some .dopri5
  | .rk78 => some .fehlberg78
  | .bulirschStoer => some .bulirschStoer
  | .eulerCT => some .euler
  | .rk4CT => some .rk4
  | .eulerSym => none
  | .rkSym => none

/-- The types documented to adjust their step size. -/
def IsAdaptive (t : IntType) : Prop := t = .ode45 ∨ t = .rk5variable ∨ t = .bulirschStoer

/-- What the documentation of `integrate_adaptive` promises for type and tolerances: an adaptive stepper adjusts its step size to
the tolerances, others run with a fixed step size (Integrator.h:173-175, 197-199). -/
def Promised (t : IntType) (a r : ℝ) (run : Run) : Prop :=
  ∃ m, methodOf t = some m ∧ ((IsAdaptive t ∧ run = .adaptive m a r) ∨ (¬ IsAdaptive t ∧ run = .fixed m))

/-- The type chosen last. -/
def lastType (t : IntType) : List Op → IntType
  | [] => t
  | .change t' :: ops => lastType t' ops
  | .tol _ _ :: ops => lastType t ops

/-- The types which `Integrator` is made for, on which only types of that kind have been chosen. -/
def Supported (t : IntType) (ops : List Op) : Prop :=
  (methodOf t).isSome ∧ ∀ t', Op.change t' ∈ ops → (methodOf t').isSome

/-- The documented condition on the estimated error: not more than absolute tolerance plus relative tolerance times size. -/
def WithinTolerances {n : ℕ} (a r dt : ℝ) (e x dx : Fin n → ℝ) : Prop := ∀ i, |e i| ≤ a + r * (|x i| + |dt| * |dx i|)

/-! ### Proofs: choice of the stepper -/

/-- What a stepper is after its type has been chosen, whatever tolerances were set. -/
noncomputable def kindOf : IntType → Kind
  | .euler => .odeint .euler
  | .rk4 => .odeint .rk4
  | .modifiedMidpoint => .odeint .modifiedMidpoint
  | .ode45 => .controlled .dopri5 tol0 tol0
  | .rk5variable => .dense .dopri5 tol0 tol0
  | .rk78 => .odeint .fehlberg78
  | .bulirschStoer => .odeint .bulirschStoer
  | .eulerCT => .eulerCT
  | .rk4CT => .rk4CT
  | .eulerSym => .eulerCT
  | .rkSym => .eulerCT

theorem changeType_kind {t : IntType} (h : (methodOf t).isSome) (p : Option Stepper) :
    changeType true t p = some ⟨kindOf t, tol0, tol0⟩ := by
  cases t <;> first | rfl | simp [methodOf] at h

theorem calls_kind (ops : List Op) : ∀ (t : IntType) (s : Stepper), s.kind = kindOf t →
    (∀ t', Op.change t' ∈ ops → (methodOf t').isSome) →
    ∃ s', ops.foldlM (call true) s = some s' ∧ s'.kind = kindOf (lastType t ops) := by
  induction ops with
  | nil => exact fun t s h _ => ⟨s, rfl, h⟩
  | cons o ops ih =>
    intro t s h hs
    cases o with
    | change t' =>
      have h1 := changeType_kind (hs t' (by simp)) (some s)
      obtain ⟨s', e, k⟩ := ih t' ⟨kindOf t', tol0, tol0⟩ rfl fun t'' h' => hs t'' (by simp [h'])
      refine ⟨s', ?_, k⟩
      simp only [List.foldlM_cons, call, h1]
      exact e
    | tol a r =>
      obtain ⟨s', e, k⟩ := ih t (s.setTol a r) h fun t'' h' => hs t'' (by simp [h'])
      exact ⟨s', e, k⟩

theorem history_kind {t : IntType} {ops : List Op} (h : Supported t ops) :
    ∃ s, history true t ops = some s ∧ s.kind = kindOf (lastType t ops) := by
  have h1 := changeType_kind h.1 none
  obtain ⟨s, e, k⟩ := calls_kind ops t ⟨kindOf t, tol0, tol0⟩ rfl h.2
  refine ⟨s, ?_, k⟩
  rw [history, create, h1]
  exact e

/-- C197, choice of the method: as long as supported types are asked for, no call throws and the method that runs is that of the type
chosen last; those with a fixed step size are as promised, except the two own steppers. -/
theorem C197_method_partial (bs : ℝ × ℝ) {t : IntType} {ops : List Op} (h : Supported t ops)
    (hc : lastType t ops ≠ .eulerCT ∧ lastType t ops ≠ .rk4CT) :
    ∃ s, history true t ops = some s ∧ ∃ a r, Promised (lastType t ops) a r (s.integrateAdaptive bs) := by
  obtain ⟨s, e, k⟩ := history_kind h
  refine ⟨s, e, ?_⟩
  have hm : (methodOf (lastType t ops)).isSome := by
    clear e k hc s
    obtain ⟨h1, h2⟩ := h
    induction ops generalizing t with
    | nil => exact h1
    | cons o ops ih =>
      cases o with
      | change t' => exact ih (h2 t' (by simp)) fun t'' h' => h2 t'' (by simp [h'])
      | tol a r => exact ih h1 fun t'' h' => h2 t'' (by simp [h'])
  revert k hm hc
  generalize lastType t ops = l
  intro hc k hm
  simp only [Stepper.integrateAdaptive, k]
  cases l <;> simp_all [kindOf, Promised, methodOf, IsAdaptive]

/-- C197, tolerances that were set have no effect: after any history that ends in setting tolerances, the methods ODE45 and
RK5VARIABLE run with `1e-8`, and the Bulirsch-Stoer method with the tolerances of the library. -/
theorem C197_tolerances_violated (bs : ℝ × ℝ) {t : IntType} {ops : List Op} (h : Supported t ops) (a r : ℝ)
    (ha : IsAdaptive (lastType t ops)) (h8 : a ≠ 1 / 10 ^ 8) (hbs : a ≠ bs.1) :
    ∃ s, history true t (ops ++ [.tol a r]) = some s ∧ ¬ Promised (lastType t ops) a r (s.integrateAdaptive bs)
      ∧ (lastType t ops ≠ .bulirschStoer → s.integrateAdaptive bs = .adaptive .dopri5 (1 / 10 ^ 8) (1 / 10 ^ 8))
      ∧ (lastType t ops = .bulirschStoer → s.integrateAdaptive bs = .adaptive .bulirschStoer bs.1 bs.2) := by
  obtain ⟨s, e, k⟩ := history_kind h
  refine ⟨s.setTol a r, ?_, ?_⟩
  · cases hcr : create true t with
    | none =>
      rw [history, hcr] at e
      cases e
    | some s0 =>
      simp only [history, hcr] at e ⊢
      change List.foldlM (call true) s0 ops = some s at e
      change List.foldlM (call true) s0 (ops ++ [.tol a r]) = _
      rw [List.foldlM_append, e]
      rfl
  · have k' : (s.setTol a r).kind = kindOf (lastType t ops) := k
    simp only [Stepper.integrateAdaptive, k']
    rcases ha with ha | ha | ha <;> rw [ha] <;> simp [kindOf, Promised, methodOf, IsAdaptive, tol0]
    · exact fun h' => absurd (by rw [← h']; norm_num) h8
    · exact fun h' => absurd (by rw [← h']; norm_num) h8
    · exact fun h' => absurd h'.symm hbs

/-- C197, own steppers: with the default type and with RK4CT, integration with a fixed step size is promised but an exception is
thrown. -/
theorem C197_own_violated (bs : ℝ × ℝ) {t : IntType} {ops : List Op} (h : Supported t ops)
    (hc : lastType t ops = .eulerCT ∨ lastType t ops = .rk4CT) :
    ∃ s, history true t ops = some s ∧ s.integrateAdaptive bs = .thrown := by
  obtain ⟨s, e, k⟩ := history_kind h
  refine ⟨s, e, ?_⟩
  rcases hc with hc | hc <;> simp [Stepper.integrateAdaptive, k, hc, kindOf]

/-- C197, unsupported types: the constructor refuses them, but changing to one of them does nothing, without an exception. -/
theorem C197_unsupported_violated (dbl : Bool) {t : IntType} (h : methodOf t = none) (s : Stepper) :
    create dbl t = none ∧ call dbl s (.change t) = some s := by
  cases t <;> first | (simp [methodOf] at h; done) | cases dbl <;> exact ⟨rfl, rfl⟩

/-! ### Proofs: the error of a step -/

theorem fold_le {l : List (Option ℝ)} {b : ℝ} (hb : 0 ≤ b) :
    (∃ m, l.foldr (fun e m => do let e ← e; let m ← m; pure (max |e| m)) (some (0 : ℝ)) = some m ∧ m ≤ b)
      ↔ ∀ e ∈ l, ∃ y, e = some y ∧ |y| ≤ b := by
  induction l with
  | nil => simpa using hb
  | cons e l ih =>
    rw [List.forall_mem_cons, ← ih]
    cases e with
    | none => simp
    | some y =>
      rw [List.foldr_cons]
      generalize l.foldr (fun e m => do let e ← e; let m ← m; pure (max |e| m)) (some (0 : ℝ)) = q
      cases q with
      | none => simp
      | some m => simp [and_comm]

theorem accepted_iff {n : ℕ} {v : Bool} {a r dt : ℝ} {e x dx : Fin n → ℝ} :
    Accepted v a r dt e x dx ↔ ∀ i, scalarPlus v a (fun i => r * (1 * absV x i + 1 * |dt| * absV dx i)) i ≠ 0
      ∧ |e i| ≤ |scalarPlus v a (fun i => r * (1 * absV x i + 1 * |dt| * absV dx i)) i| := by
  unfold Accepted stepError normInf
  rw [fold_le zero_le_one]
  simp only [List.forall_mem_ofFn_iff, divV]
  refine forall_congr' fun i => ?_
  generalize scalarPlus v a (fun i => r * (1 * absV x i + 1 * |dt| * absV dx i)) i = d
  by_cases h : d = 0
  · simp [h]
  · simp only [h, if_false, ne_eq, not_false_eq_true, true_and, Option.some.injEq, exists_eq_left', absV, abs_div, abs_abs]
    rw [div_le_one (abs_pos.2 h)]

/-- C197, error of a step with old versions of Eigen: a step is accepted exactly if its error is within the tolerances. -/
theorem C197_error_partial {n : ℕ} {a r dt : ℝ} (ha : 0 < a) (hr : 0 ≤ r) (e x dx : Fin n → ℝ) :
    Accepted false a r dt e x dx ↔ WithinTolerances a r dt e x dx := by
  rw [accepted_iff]
  refine forall_congr' fun i => ?_
  have h : 0 < a + r * (|x i| + |dt| * |dx i|) := by positivity
  simp only [scalarPlus, absV, one_mul, Bool.false_eq_true, if_false]
  rw [abs_of_pos h]
  exact and_iff_right h.ne'

/-- C197, error of a step with Eigen 3.3 and newer, where adding a number to a vector multiplies by it: a step is accepted exactly if
its error is within the product of both tolerances and the size, and no component rests at zero; if one does, its error is not a
finite number, although an error of zero is within all tolerances. -/
theorem C197_error_violated {n : ℕ} {a r dt : ℝ} (ha : 0 < a) (hr : 0 < r) (e x dx : Fin n → ℝ) :
    (Accepted true a r dt e x dx ↔ ∀ i, 0 < |x i| + |dt| * |dx i| ∧ |e i| ≤ a * r * (|x i| + |dt| * |dx i|))
      ∧ ((∃ i, x i = 0 ∧ dx i = 0) → ¬ Accepted true a r dt e x dx ∧ WithinTolerances a r dt (fun _ : Fin n => 0) x dx) := by
  have h1 : Accepted true a r dt e x dx ↔ ∀ i, 0 < |x i| + |dt| * |dx i| ∧ |e i| ≤ a * r * (|x i| + |dt| * |dx i|) := by
    rw [accepted_iff]
    refine forall_congr' fun i => ?_
    have h0 : 0 ≤ |x i| + |dt| * |dx i| := by positivity
    have h : scalarPlus true a (fun i => r * (1 * absV x i + 1 * |dt| * absV dx i)) i = a * r * (|x i| + |dt| * |dx i|) := by
      simp only [scalarPlus, absV, one_mul, if_true]
      ring
    have h2 : 0 ≤ a * r * (|x i| + |dt| * |dx i|) := by positivity
    rw [h, abs_of_nonneg h2]
    refine and_congr_left fun _ => ?_
    rw [mul_ne_zero_iff, h0.lt_iff_ne']
    exact and_iff_right (mul_pos ha hr).ne'
  refine ⟨h1, ?_⟩
  rintro ⟨i, hx, hd⟩
  refine ⟨fun h => ?_, fun j => ?_⟩
  · have := (h1.1 h i).1
    simp [hx, hd] at this
  · rw [abs_zero]
    positivity

/-- C197, both kinds of deviation: with the default tolerances a step with an error within them is refused; with larger ones a step
with an error beyond them is accepted. -/
theorem C197_error_both_violated :
    (WithinTolerances (1 / 10 ^ 8) (1 / 10 ^ 8) 1 ![1 / 10 ^ 9] ![1] ![0]
      ∧ ¬ Accepted true (1 / 10 ^ 8) (1 / 10 ^ 8) 1 ![1 / 10 ^ 9] ![1] ![0])
    ∧ (¬ WithinTolerances 10 (1 / 2) 1 ![40] ![10] ![0] ∧ Accepted true 10 (1 / 2) 1 ![40] ![10] ![0]) := by
  refine ⟨⟨fun i => ?_, fun h => ?_⟩, fun h => ?_, ?_⟩
  · fin_cases i
    norm_num
  · have := ((C197_error_violated (by norm_num) (by norm_num) _ _ _).1.1 h 0).2
    norm_num at this
  · have := h 0
    norm_num at this
  · refine (C197_error_violated (by norm_num) (by norm_num) _ _ _).1.2 fun i => ?_
    fin_cases i
    norm_num

/-! ### The hypotheses can be met -/

example : Supported .eulerCT [.tol 1 1, .change .rk78, .change .ode45, .tol 2 2]
    ∧ lastType .eulerCT [.tol 1 1, .change .rk78, .change .ode45, .tol 2 2] = .ode45 := by
  refine ⟨⟨rfl, fun t' h => ?_⟩, rfl⟩
  simp only [List.mem_cons, Op.change.injEq, reduceCtorEq, List.not_mem_nil, or_false, false_or] at h
  rcases h with rfl | rfl <;> rfl

example : IsAdaptive (lastType .bulirschStoer []) ∧ methodOf .eulerSym = none ∧ lastType .rk4 [.change .eulerCT] = .eulerCT :=
  ⟨Or.inr (Or.inr rfl), rfl, rfl⟩

example : ∃ i : Fin 2, (![1, 0] : Fin 2 → ℝ) i = 0 ∧ (![5, 0] : Fin 2 → ℝ) i = 0 := ⟨1, rfl, rfl⟩

end CT.Adaptive
