import Verif.Model.SystemLinearizer
import Verif.Model.SecondOrder
import Verif.Props.NumDiff
import Mathlib.Analysis.Calculus.Deriv.Mul

/-! # C195: systems linearised numerically -/

namespace CT.SysLin

variable {n m : ℕ}

/-! ### Specification -/

/-- Difference quotient of component `r` of `f` in direction `c`, with a step relative to the coordinate. -/
noncomputable def quotient {k l : ℕ} (f : (Fin k → ℝ) → (Fin l → ℝ)) (dbl : Bool) (eps : ℝ) (x : Fin k → ℝ) : Matrix (Fin l) (Fin k) ℝ :=
  Matrix.of fun r c =>
    let h := eps * max |x c| 1
    let f' := fun d => f (Function.update x c (x c + d)) r
    if dbl then (f' h - f' (-h)) / (2 * h) else (f' h - f x r) / h

/-- What linearizers stand for: the systems there are, and for each linearizer its kind, the number of its system and the scheme.
A linearizer follows the system it was given; a copy gets a system of its own, equal to that of the original at the time of
copying. -/
structure View (n m : ℕ) where
  sys : List (Sys n m)
  lin : List (Bool × ℕ × Bool)

/-- What a call means. -/
def View.after (v : View n m) : Op n m → View n m
  | .newSystem s => { v with sys := v.sys ++ [s] }
  | .setDynamics i f => { v with sys := v.sys.modify i fun s => { s with dyn := f } }
  | .new d (some i) dbl _ => { v with lin := v.lin ++ [(d, i, dbl)] }
  | .copy l _ =>
    match v.lin[l]? with
    | some (d, i, dbl) =>
      match v.sys[i]? with
      | some s => { sys := v.sys ++ [s], lin := v.lin ++ [(d, v.sys.length, dbl)] }
      | none => v
    | none => v
  | _ => v

/-- The type of a system is right: in a system of second order the first half of the state changes with the second half. -/
def Honest (s : Sys n m) : Prop :=
  s.second = true → ∀ (x : Fin n → ℝ) (t : ℝ) (u : Fin m → ℝ) (r c : Fin n), r.val < n / 2 → c.val = n - n / 2 + r.val →
    s.dyn x t u r = x c

/-! ### Proofs -/

/-- Object and view belong together. -/
structure Fits (eps : ℝ) (w : World n m) (v : View n m) : Prop where
  sys : w.sys = v.sys
  lin : w.lin.map (fun o => (o.discrete, o.sys, o.num.dbl)) = v.lin
  eps : ∀ o ∈ w.lin, o.num.eps = eps
  second : ∀ o ∈ w.lin, ∃ s, w.sys[o.sys]? = some s ∧ o.isSecond = s.second

theorem find {eps : ℝ} {w : World n m} {v : View n m} (h : Fits eps w v) {l : ℕ} {d : Bool} {i : ℕ} {dbl : Bool}
    (hl : v.lin[l]? = some (d, i, dbl)) {s : Sys n m} (hs : v.sys[i]? = some s) :
    ∃ o, w.lin[l]? = some o ∧ o.discrete = d ∧ o.sys = i ∧ o.num.dbl = dbl ∧ o.num.eps = eps ∧ o.isSecond = s.second
      ∧ w.sys[o.sys]? = some s := by
  rw [← h.lin, List.getElem?_map] at hl
  rcases ho : w.lin[l]? with _ | o
  · simp [ho] at hl
  simp only [ho, Option.map_some, Option.some.injEq, Prod.mk.injEq] at hl
  obtain ⟨h1, h2, h3⟩ := hl
  obtain ⟨s', k1, k2⟩ := h.second o (List.mem_of_getElem? ho)
  have : s' = s := by
    rw [h.sys, h2, hs] at k1
    exact (Option.some.inj k1).symm
  subst this
  exact ⟨o, rfl, h1, h2, h3, h.eps o (List.mem_of_getElem? ho), k2, k1⟩

theorem fits_set {eps : ℝ} {w : World n m} {v : View n m} (h : Fits eps w v) {l : ℕ} {o o' : Lin n m} (ho : w.lin[l]? = some o)
    (hd : o'.discrete = o.discrete) (hs : o'.sys = o.sys) (hb : o'.num.dbl = o.num.dbl) (he : o'.num.eps = o.num.eps)
    (h2 : o'.isSecond = o.isSecond) : Fits eps { w with lin := w.lin.set l o' } v := by
  have hm := List.mem_of_getElem? ho
  refine ⟨h.sys, ?_, fun a ha => ?_, fun a ha => ?_⟩
  · rw [← h.lin, List.map_set]
    obtain ⟨hlt, he⟩ := List.getElem?_eq_some_iff.1 ho
    apply List.ext_getElem (by simp)
    intro k k1 k2
    by_cases hk : l = k
    · subst hk; simp [he, hd, hs, hb]
    · simp [List.getElem_set_ne hk]
  · rcases List.mem_or_eq_of_mem_set ha with ha | rfl
    · exact h.eps a ha
    · rw [he, h.eps o hm]
  · rcases List.mem_or_eq_of_mem_set ha with ha | rfl
    · exact h.second a ha
    · obtain ⟨s, k1, k2⟩ := h.second o hm
      exact ⟨s, by rw [hs]; exact k1, by rw [h2, k2]⟩

theorem fits_step {eps : ℝ} {w w' : World n m} {v : View n m} (h : Fits eps w v) {op : Op n m} (hw : step eps w op = .ok w') :
    Fits eps w' (v.after op) := by
  cases op with
  | newSystem s =>
    simp only [step, Res.ok.injEq] at hw
    subst hw
    refine ⟨by simp [View.after, h.sys], by simp [View.after, h.lin], h.eps, fun o ho => ?_⟩
    obtain ⟨s', k1, k2⟩ := h.second o ho
    exact ⟨s', by simp only; rw [List.getElem?_append_left (List.getElem?_eq_some_iff.1 k1).1, k1], k2⟩
  | setDynamics i f =>
    rcases hi : w.sys[i]? with _ | s
    · simp [step, hi] at hw
    simp only [step, hi, Res.ok.injEq] at hw
    subst hw
    obtain ⟨hlt, he⟩ := List.getElem?_eq_some_iff.1 hi
    refine ⟨?_, by simp [View.after, h.lin], h.eps, fun o ho => ?_⟩
    · simp only [View.after, ← h.sys]
      apply List.ext_getElem (by simp)
      intro k k1 k2
      by_cases hk : i = k
      · subst hk; simp [he]
      · simp [List.getElem_set_ne hk, List.getElem_modify, hk]
    · obtain ⟨s', k1, k2⟩ := h.second o ho
      by_cases hk : i = o.sys
      · subst hk
        rw [hi] at k1
        cases k1
        exact ⟨{ s with dyn := f }, by simp [hlt], k2⟩
      · exact ⟨s', by simp only; rw [List.getElem?_set_ne hk, k1], k2⟩
  | new d i dbl junk =>
    cases i with
    | none => simp [step] at hw
    | some i =>
      rcases hi : w.sys[i]? with _ | s
      · simp [step, hi] at hw
      simp only [step, hi, Option.bind_some, Option.map_some, Res.ok.injEq] at hw
      subst hw
      refine ⟨by simp [View.after, h.sys], by simp [View.after, h.lin, newNum], fun o ho => ?_, fun o ho => ?_⟩
      · rcases List.mem_append.1 ho with ho | ho
        · exact h.eps o ho
        · rw [List.mem_singleton.1 ho]; rfl
      · rcases List.mem_append.1 ho with ho | ho
        · exact h.second o ho
        · rw [List.mem_singleton.1 ho]; exact ⟨s, hi, rfl⟩
  | copy l junk =>
    rcases ho : w.lin[l]? with _ | o
    · simp [step, ho] at hw
    obtain ⟨s, k1, k2⟩ := h.second o (List.mem_of_getElem? ho)
    simp only [step, ho, Option.bind_some, k1, Option.map_some, Res.ok.injEq] at hw
    subst hw
    have hv : v.lin[l]? = some (o.discrete, o.sys, o.num.dbl) := by rw [← h.lin, List.getElem?_map, ho]; rfl
    have k1' := k1
    rw [h.sys] at k1'
    refine ⟨by simp [View.after, hv, k1', h.sys], by simp [View.after, hv, k1', h.lin, newNum, h.sys], fun a ha => ?_, fun a ha => ?_⟩
    · rcases List.mem_append.1 ha with ha | ha
      · exact h.eps a ha
      · rw [List.mem_singleton.1 ha]; rfl
    · rcases List.mem_append.1 ha with ha | ha
      · obtain ⟨s', j1, j2⟩ := h.second a ha
        exact ⟨s', by simp only; rw [List.getElem?_append_left (List.getElem?_eq_some_iff.1 j1).1, j1], j2⟩
      · rw [List.mem_singleton.1 ha]
        exact ⟨s, by simp, k2⟩
  | state l x u t =>
    rcases ho : w.lin[l]? with _ | o
    · simp [step, ho] at hw
    obtain ⟨s, k1, k2⟩ := h.second o (List.mem_of_getElem? ho)
    simp only [step, ho, Option.bind_some, k1, Option.map_some, Res.ok.injEq] at hw
    subst hw
    exact fits_set h ho rfl rfl rfl rfl rfl
  | control l x u t =>
    rcases ho : w.lin[l]? with _ | o
    · simp [step, ho] at hw
    obtain ⟨s, k1, k2⟩ := h.second o (List.mem_of_getElem? ho)
    simp only [step, ho, Option.bind_some, k1, Option.map_some, Res.ok.injEq] at hw
    subst hw
    exact fits_set h ho rfl rfl rfl rfl rfl
  | both l x u t =>
    rcases ho : w.lin[l]? with _ | o
    · simp [step, ho] at hw
    obtain ⟨s, k1, k2⟩ := h.second o (List.mem_of_getElem? ho)
    simp only [step, ho, Option.bind_some, k1, Option.map_some, Res.ok.injEq] at hw
    subst hw
    exact fits_set h ho rfl rfl rfl rfl rfl

theorem fits_run {eps : ℝ} (ops : List (Op n m)) {w w' : World n m} {v : View n m} (h : Fits eps w v) (hw : run eps w ops = .ok w') :
    Fits eps w' (ops.foldl View.after v) := by
  induction ops generalizing w v with
  | nil =>
    cases hw
    exact h
  | cons c cs ih =>
    rw [run] at hw
    rcases hc : step eps w c with w1 | _ | _
    · rw [hc] at hw
      exact ih (fits_step h hc) hw
    · rw [hc] at hw; cases hw
    · rw [hc] at hw; cases hw

theorem fits_empty (eps : ℝ) : Fits (n := n) (m := m) eps ⟨[], []⟩ ⟨[], []⟩ :=
  ⟨rfl, rfl, fun _ h => (List.not_mem_nil h).elim, fun _ h => (List.not_mem_nil h).elim⟩

theorem column_quotient {k l : ℕ} (f : (Fin k → ℝ) → (Fin l → ℝ)) (dbl : Bool) (eps : ℝ) (x : Fin k → ℝ) (ref : Fin l → ℝ)
    (J0 : Matrix (Fin l) (Fin k) ℝ) : NumDiff.jacLoop f dbl eps (if !dbl then f x else ref) x J0 = quotient f dbl eps x := by
  ext r c
  rw [NumDiff.jacLoop_apply]
  cases dbl
  · simp only [NumDiff.column, quotient, Matrix.of_apply, Bool.not_false, if_true, Bool.false_eq_true, if_false, Pi.smul_apply,
      Pi.sub_apply, smul_eq_mul, add_sub_cancel_left]
    rw [div_eq_inv_mul]
  · simp only [NumDiff.column, quotient, Matrix.of_apply, if_true, Pi.smul_apply, Pi.sub_apply, smul_eq_mul, add_sub_cancel_left,
      sub_sub_cancel]
    rw [div_eq_inv_mul, two_mul, ← sub_eq_add_neg]

theorem step_ne' {eps : ℝ} (he : eps ≠ 0) (a : ℝ) : eps * max |a| 1 ≠ 0 := NumDiff.step_ne he a

/-- In the first half of a system of second order the quotients are zero and one. -/
theorem top_state {s : Sys n m} (hs : Honest s) (h2 : s.second = true) {eps : ℝ} (he : eps ≠ 0) (dbl : Bool) (x : Fin n → ℝ)
    (u : Fin m → ℝ) (t : ℝ) :
    topState (quotient (fun z => s.dyn z t u) dbl eps x) = quotient (fun z => s.dyn z t u) dbl eps x := by
  ext r c
  by_cases hr : r.val < n / 2
  · have hk : n - n / 2 + r.val < n := by omega
    have hd := fun z => hs h2 z t u r ⟨n - n / 2 + r.val, hk⟩ hr rfl
    have hstep := step_ne' he (x c)
    have key : quotient (fun z => s.dyn z t u) dbl eps x r c = if c.val = n - n / 2 + r.val then 1 else 0 := by
      simp only [quotient, Matrix.of_apply, hd, Function.update_apply]
      by_cases hc : c.val = n - n / 2 + r.val
      · have : (⟨n - n / 2 + r.val, hk⟩ : Fin n) = c := Fin.ext hc.symm
        rw [if_pos hc]
        simp only [this, if_true]
        cases dbl
        · simp only [Bool.false_eq_true, if_false]; field_simp; ring
        · simp only [if_true]; field_simp; ring
      · have : (⟨n - n / 2 + r.val, hk⟩ : Fin n) ≠ c := fun h => hc (congrArg Fin.val h).symm
        rw [if_neg hc]
        simp [this]
    simp only [topState, Matrix.of_apply, hr, if_true]
    rw [key]
    split_ifs <;> first | rfl | omega
  · simp [topState, hr]

theorem top_control {s : Sys n m} (hs : Honest s) (h2 : s.second = true) {eps : ℝ} (dbl : Bool) (x : Fin n → ℝ)
    (u : Fin m → ℝ) (t : ℝ) :
    topControl (quotient (fun z => s.dyn x t z) dbl eps u) = quotient (fun z => s.dyn x t z) dbl eps u := by
  ext r c
  by_cases hr : r.val < n / 2
  · have hk : n - n / 2 + r.val < n := by omega
    have hd := fun z => hs h2 x t z r ⟨n - n / 2 + r.val, hk⟩ hr rfl
    simp [topControl, hr, quotient, hd]
  · simp [topControl, hr]

/-- C195, the part that holds: whatever was called before, a linearizer returns the difference quotients of the system it stands
for, in all rows, provided that the type of the system is right (continuous time) or without condition (discrete time). -/
theorem C195_linearise_partial {eps : ℝ} (he : eps ≠ 0) (ops : List (Op n m)) {w : World n m}
    (hw : run eps ⟨[], []⟩ ops = .ok w) {l : ℕ} {d : Bool} {i : ℕ} {dbl : Bool} {s : Sys n m}
    (hl : (ops.foldl View.after ⟨[], []⟩).lin[l]? = some (d, i, dbl)) (hs : (ops.foldl View.after ⟨[], []⟩).sys[i]? = some s)
    (ht : d = true ∨ Honest s) (x : Fin n → ℝ) (u : Fin m → ℝ) (t : ℝ) :
    (∃ w' o, step eps w (.state l x u t) = .ok w' ∧ w'.lin[l]? = some o
      ∧ o.dFdx = quotient (fun z => s.dyn z t u) dbl eps x)
    ∧ (∃ w' o, step eps w (.control l x u t) = .ok w' ∧ w'.lin[l]? = some o
      ∧ o.dFdu = quotient (fun z => s.dyn x t z) dbl eps u)
    ∧ ∃ w' o, step eps w (.both l x u t) = .ok w' ∧ w'.lin[l]? = some o
      ∧ o.dFdx = quotient (fun z => s.dyn z t u) dbl eps x ∧ o.dFdu = quotient (fun z => s.dyn x t z) dbl eps u := by
  obtain ⟨o, k1, k2, k3, k4, k5, k6, k7⟩ := find (fits_run ops (fits_empty eps) hw) hl hs
  have hlt := (List.getElem?_eq_some_iff.1 k1).1
  have e1 : ∀ q : Lin n m, q.discrete = d → q.num.dbl = dbl → q.num.eps = eps → q.isSecond = s.second →
      (q.getDerivativeState s x u t).dFdx = quotient (fun z => s.dyn z t u) dbl eps x := by
    intro q q1 q2 q3 q4
    simp only [Lin.getDerivativeState, NumDiff.Linearizer.getDerivativeState, q1, q2, q3, q4, column_quotient]
    cases d
    · rcases ht with ht | ht
      · cases ht
      · cases h2 : s.second
        · rfl
        · exact top_state ht h2 he dbl x u t
    · rfl
  have e2 : ∀ q : Lin n m, q.discrete = d → q.num.dbl = dbl → q.num.eps = eps → q.isSecond = s.second →
      (q.getDerivativeControl s x u t).dFdu = quotient (fun z => s.dyn x t z) dbl eps u := by
    intro q q1 q2 q3 q4
    simp only [Lin.getDerivativeControl, NumDiff.Linearizer.getDerivativeControl, q1, q2, q3, q4]
    have := column_quotient (fun z => s.dyn x t z) dbl eps u q.num.resRef q.num.dFdu
    rw [this]
    cases d
    · rcases ht with ht | ht
      · cases ht
      · cases h2 : s.second
        · rfl
        · exact top_control ht h2 dbl x u t
    · rfl
  refine ⟨⟨{ w with lin := w.lin.set l (o.getDerivativeState s x u t) }, o.getDerivativeState s x u t, ?_, ?_, e1 o k2 k4 k5 k6⟩,
    ⟨{ w with lin := w.lin.set l (o.getDerivativeControl s x u t) }, o.getDerivativeControl s x u t, ?_, ?_, e2 o k2 k4 k5 k6⟩,
    { w with lin := w.lin.set l ((o.getDerivativeState s x u t).getDerivativeControl s x u t) },
    (o.getDerivativeState s x u t).getDerivativeControl s x u t, ?_, ?_, ?_, ?_⟩
  · simp only [step, k1, Option.bind_some, k7, Option.map_some]
  · simp [hlt]
  · simp only [step, k1, Option.bind_some, k7, Option.map_some]
  · simp [hlt]
  · simp only [step, k1, Option.bind_some, k7, Option.map_some]
  · simp [hlt]
  · exact e1 o k2 k4 k5 k6
  · exact e2 _ k2 k4 k5 k6

/-- C195 for dynamics affine in state and control: exactly their matrices, in both schemes. -/
theorem C195_affine {eps : ℝ} (he : eps ≠ 0) {s : Sys n m} {A : ℝ → Matrix (Fin n) (Fin n) ℝ} {B : ℝ → Matrix (Fin n) (Fin m) ℝ}
    {c : ℝ → Fin n → ℝ} (hdyn : ∀ x t u r, s.dyn x t u r = c t r + ∑ p, A t r p * x p + ∑ p, B t r p * u p) (dbl : Bool)
    (x : Fin n → ℝ) (u : Fin m → ℝ) (t : ℝ) :
    quotient (fun z => s.dyn z t u) dbl eps x = A t ∧ quotient (fun z => s.dyn x t z) dbl eps u = B t := by
  have h := NumDiff.C23_linearizer (⟨s.dyn, dbl, eps, 0, 0, 0⟩ : NumDiff.Linearizer n m ℝ) he A B c hdyn x u t
  constructor
  · rw [← h.1, NumDiff.Linearizer.getDerivativeState]
    exact (column_quotient (fun z => s.dyn z t u) dbl eps x 0 0).symm
  · rw [← h.2.1, NumDiff.Linearizer.getDerivativeControl]
    exact (column_quotient (fun z => s.dyn x t z) dbl eps u 0 0).symm

/-- A system with the right type, a mass with a spring, for which the hypotheses of `C195_linearise_partial` hold: the original,
changed after a copy was made, and the copy. -/
example (eps : ℝ) :
    let spring : ℝ → (Fin 2 → ℝ) → ℝ → (Fin 1 → ℝ) → (Fin 2 → ℝ) := fun k x _ u => ![x 1, u 0 - k * x 0]
    let ops : List (Op 2 1) := [.newSystem ⟨spring 1, true⟩, .new false (some 0) true 0, .copy 0 0, .setDynamics 0 (spring 5)]
    (∃ w, run eps ⟨[], []⟩ ops = .ok w)
      ∧ (ops.foldl View.after ⟨[], []⟩).lin = [(false, 0, true), (false, 1, true)]
      ∧ (ops.foldl View.after ⟨[], []⟩).sys = [⟨spring 5, true⟩, ⟨spring 1, true⟩]
      ∧ ∀ k, Honest (⟨spring k, true⟩ : Sys 2 1) := by
  refine ⟨⟨_, rfl⟩, rfl, rfl, fun k _ x t u r c hr hc => ?_⟩
  have hr0 : r = 0 := Fin.ext (by simpa using hr)
  subst hr0
  have hc1 : c = 1 := Fin.ext (by simpa using hc)
  subst hc1
  rfl

open Actuator Robot in
/-- C195: `FixBaseFDSystemSymplectic` without actuators has the right type, for every robot (`jp` is the uninitialised vector of
derivatives). -/
theorem C195_fixBase {e k : ℕ} {W : Type} [Zero W] (rb : Rob k e W) (jp jv : List ℝ) (hp : jp.length = k) :
    Honest (fixBase rb (none : Option (ActSym k 0)) jp jv) := by
  intro _ x t u r c hr hc
  have hr' : r.val < k := by omega
  have hc' : c.val = k + r.val := by omega
  have h1 : List.drop k jp = [] := by simp [hp]
  simp only [fixBase, Rob.symDynamics, symPdot, Rob.symVdot, bind, Res.bind, if_true, setSeg, List.take_zero, List.nil_append, zero_add,
    h1, List.append_nil, Nat.add_zero]
  rw [List.getD_eq_getElem?_getD, List.getElem?_append_left (by simpa using hr'), List.getElem?_eq_getElem (by simpa using hr')]
  simp only [List.getElem_ofFn, seg, zero_add, List.getD_eq_getElem?_getD, List.getElem?_drop, Option.getD_some]
  rw [List.getElem?_eq_getElem (by simpa using (by omega : k + r.val < 2 * (k + 0)))]
  simp only [List.getElem_ofFn, Option.getD_some]
  congr 1
  exact Fin.ext hc'.symm

/-- C195: `SecondOrderSystem` has the right type, for all parameters (SecondOrderSystem.h:82-92, 146-153). -/
theorem C195_secondOrder (p : SecondOrder.Sys) :
    Honest (⟨fun x _ u => ![(SecondOrder.dyn p (x 0, x 1) (u 0)).1, (SecondOrder.dyn p (x 0, x 1) (u 0)).2], true⟩ : Sys 2 1) := by
  intro _ x t u r c hr hc
  have hr0 : r = 0 := Fin.ext (by simpa using hr)
  subst hr0
  have hc1 : c = 1 := Fin.ext (by simpa using hc)
  subst hc1
  rfl

/-- C195 fails where the type of a system is wrong: the first half of the state is not differentiated. -/
theorem C195_type_violated {eps : ℝ} {s : Sys n m} (h2 : s.second = true) (dbl : Bool) (junk : Fin n → ℝ) (x : Fin n → ℝ) (u : Fin m → ℝ) (t : ℝ) :
    ∃ w w' o, run eps ⟨[], []⟩ [.newSystem s, .new false (some 0) dbl junk] = .ok w ∧ step eps w (.both 0 x u t) = .ok w'
      ∧ w'.lin[0]? = some o
      ∧ (∀ r c : Fin n, r.val < n / 2 → n - n / 2 ≤ c.val → o.dFdx r c = if c.val - (n - n / 2) = r.val then 1 else 0)
      ∧ ∀ (r : Fin n) (c : Fin m), r.val < n / 2 → o.dFdu r c = 0 := by
  refine ⟨_, _, _, rfl, rfl, rfl, fun r c hr hc => ?_, fun r c hr => ?_⟩
  · simp only [Lin.getDerivativeState, Lin.getDerivativeControl, h2, topState, Bool.not_false, Bool.and_self, if_true, Matrix.of_apply, hr, hc]
  · simp [Lin.getDerivativeControl, Lin.getDerivativeState, h2, topControl, hr]

open Actuator Robot in
/-- C195 fails for `FixBaseFDSystemSymplectic` with actuators, which calls itself second-order: with an actuator of which the
position changes by twice its velocity, for any robot with one joint, the entry returned is 1, although the derivative is 2. -/
theorem C195_actuator_violated {e : ℕ} {W : Type} [Zero W] (rb : Rob 1 e W) (vdot : _) (out : _) (eps : ℝ) (dbl : Bool) (junk x : Fin 4 → ℝ)
    (u : Fin 1 → ℝ) (t : ℝ) (a b : ℝ) :
    let s : Sys 4 1 := fixBase rb (some (⟨fun _ _ v _ => (2 : ℝ) • v, vdot, out⟩ : ActSym 1 1)) [a, b] [a, b]
    (∃ w w' o, run eps ⟨[], []⟩ [.newSystem s, .new false (some 0) dbl junk] = .ok w ∧ step eps w (.both 0 x u t) = .ok w'
      ∧ w'.lin[0]? = some o ∧ o.dFdx 1 3 = 1)
    ∧ HasDerivAt (fun y => s.dyn (Function.update x 3 y) t u 1) 2 (x 3) := by
  intro s
  constructor
  · obtain ⟨w, w', o, h1, h2, h3, h4, -⟩ := C195_type_violated (eps := eps) (s := s) rfl dbl junk x u t
    exact ⟨w, w', o, h1, h2, h3, by simpa using h4 1 3 (by decide) (by decide)⟩
  · have key : ∀ z : Fin 4 → ℝ, s.dyn z t u 1 = 2 * z 3 := by
      intro z
      simp [s, fixBase, Rob.symDynamics, symPdot, Rob.symVdot, bind, Res.bind, setSeg, seg, List.ofFn_succ]
    simp only [key, Function.update_self]
    simpa using HasDerivAt.const_mul (2 : ℝ) (hasDerivAt_id' (x 3))

/-- C195 fails for the null pointer: it is used before it is checked, so that nothing is thrown. -/
theorem C195_null_violated (eps : ℝ) (w : World n m) (d dbl : Bool) (junk : Fin n → ℝ) :
    step eps w (.new d none dbl junk) = .ub := rfl

end CT.SysLin
