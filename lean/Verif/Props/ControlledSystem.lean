import Verif.Model.ControlledSystem
import Verif.Props.PID
import Mathlib.Tactic.Linarith

/-!
# Controlled systems (C167)
-/

namespace CT.Ctl

variable {C X T U : Type} [Zero U]

/-! ### Specification -/

/-- `getController()` (ControlledSystem.h:112). -/
def World.getController (w : World C X T U) (s : ℕ) : Option ℕ := w.syss[s]? >>= (·.ctl)

/-- An operation that neither concerns the system `s` nor the controller `k`: it does not evaluate the system, does not
give it a controller, does not change the controller and does not give it to another system. -/
def Avoids (s k : ℕ) : Op C X T U → Prop
  | .newSys (some k') _ => k' ≠ k
  | .setController r k' => r ≠ s ∧ k' ≠ k
  | .change k' _ => k' ≠ k
  | .dynamics r _ _ => r ≠ s
  | _ => True

/-! ### Invariants -/

theorem idx_eq_ok {α : Type} {l : List α} {i : ℕ} {a : α} : idx l i = .ok a ↔ l[i]? = some a := by
  unfold idx
  cases l[i]? <;> simp

/-- Every controller held by a system exists. -/
def WF (w : World C X T U) : Prop := ∀ sy ∈ w.syss, ∀ k, sy.ctl = some k → k < w.ctls.length

omit [Zero U] in
theorem lt_of_idx {α : Type} {l : List α} {i : ℕ} {a : α} (h : idx l i = .ok a) : i < l.length := by
  rw [idx_eq_ok] at h
  exact (List.getElem?_eq_some_iff.1 h).1

theorem dynamics_ok {cl : Class C X T U} {w : World C X T U} {s : ℕ} {x : X} {t : T} {d : X} {w' : World C X T U}
    (h : w.dynamics cl s x t = .ok (d, w')) :
    ∃ sy, w.syss[s]? = some sy ∧
      ((∃ k c u c', sy.ctl = some k ∧ w.ctls[k]? = some c ∧ cl.compute c x t = .ok (u, c') ∧ d = sy.f x t u
          ∧ w' = ⟨w.ctls.set k c', w.syss.set s { sy with action := some u }⟩)
        ∨ (sy.ctl = none ∧ d = sy.f x t 0 ∧ w' = { w with syss := w.syss.set s { sy with action := some 0 } })) := by
  simp only [World.dynamics, Res.bind_eq_ok, idx_eq_ok] at h
  obtain ⟨sy, e1, h⟩ := h
  refine ⟨sy, e1, ?_⟩
  cases hc : sy.ctl with
  | none =>
    simp only [hc, Res.pure_eq, Res.ok.injEq, Prod.mk.injEq] at h
    exact Or.inr ⟨rfl, h.1.symm, h.2.symm⟩
  | some k =>
    simp only [hc, Res.bind_eq_ok, idx_eq_ok, Res.pure_eq, Res.ok.injEq, Prod.mk.injEq, Prod.exists] at h
    obtain ⟨c, e2, u, c', e3, e4, e5⟩ := h
    exact Or.inl ⟨k, c, u, c', rfl, e2, e3, e4.symm, e5.symm⟩

theorem wf_step {disc : Bool} {cl : Class C X T U} {w w' : World C X T U} {op : Op C X T U} (h : WF w)
    (hs : w.step disc cl op = .ok w') : WF w' ∧ w.ctls.length ≤ w'.ctls.length ∧ w.syss.length ≤ w'.syss.length := by
  cases op with
  | newCtl c =>
    simp only [World.step, Res.pure_eq, Res.ok.injEq] at hs
    subst hs
    refine ⟨fun sy hsy k hk => ?_, by simp, le_refl _⟩
    have := h sy hsy k hk
    simp only [List.length_append, List.length_singleton]
    omega
  | newSys k f =>
    cases k with
    | none =>
      simp only [World.step, Res.pure_eq, Res.ok.injEq] at hs
      subst hs
      refine ⟨fun sy hsy k hk => ?_, le_refl _, by simp⟩
      rcases List.mem_append.1 hsy with h1 | h1
      · exact h sy h1 k hk
      · simp only [List.mem_singleton] at h1
        subst h1
        simp at hk
    | some k =>
      simp only [World.step, Res.bind_eq_ok, Res.pure_eq, Res.ok.injEq] at hs
      obtain ⟨c, e1, rfl⟩ := hs
      refine ⟨fun sy hsy k' hk => ?_, le_refl _, by simp⟩
      rcases List.mem_append.1 hsy with h1 | h1
      · exact h sy h1 k' hk
      · simp only [List.mem_singleton] at h1
        subst h1
        simp only [Option.some.injEq] at hk
        subst hk
        exact lt_of_idx e1
  | setController s k =>
    simp only [World.step, Res.bind_eq_ok, Res.pure_eq, Res.ok.injEq] at hs
    obtain ⟨sy, e1, c, e2, rfl⟩ := hs
    refine ⟨fun sy hsy k' hk => ?_, le_refl _, by simp⟩
    rcases List.mem_or_eq_of_mem_set hsy with h1 | h1
    · exact h sy h1 k' hk
    · subst h1
      simp only [Option.some.injEq] at hk
      subst hk
      exact lt_of_idx e2
  | change k g =>
    simp only [World.step, Res.bind_eq_ok, Res.pure_eq, Res.ok.injEq] at hs
    obtain ⟨c, e1, rfl⟩ := hs
    refine ⟨fun sy hsy k' hk => ?_, by simp, le_refl _⟩
    simpa using h sy hsy k' hk
  | copy s =>
    cases disc with
    | true =>
      simp only [World.step, if_true, World.copyDisc, Res.bind_eq_ok, Res.pure_eq, Res.ok.injEq] at hs
      obtain ⟨sy, e1, rfl⟩ := hs
      refine ⟨fun sy' hsy k' hk => ?_, le_refl _, by simp⟩
      rcases List.mem_append.1 hsy with h1 | h1
      · exact h sy' h1 k' hk
      · simp only [List.mem_singleton] at h1
        subst h1
        exact h sy' (List.mem_of_getElem? (idx_eq_ok.1 e1)) k' hk
    | false =>
      simp only [World.step, Bool.false_eq_true, if_false, World.copyCont, Res.bind_eq_ok] at hs
      obtain ⟨sy, e1, hs⟩ := hs
      cases hc : sy.ctl with
      | none =>
        simp only [hc, Res.pure_eq, Res.ok.injEq] at hs
        subst hs
        refine ⟨fun sy' hsy k' hk => ?_, le_refl _, by simp⟩
        rcases List.mem_append.1 hsy with h1 | h1
        · exact h sy' h1 k' hk
        · simp only [List.mem_singleton] at h1
          subst h1
          simp [hc] at hk
      | some k =>
        simp only [hc, Res.bind_eq_ok, Res.pure_eq, Res.ok.injEq] at hs
        obtain ⟨c, e2, c', e3, rfl⟩ := hs
        refine ⟨fun sy' hsy k' hk => ?_, by simp, by simp⟩
        simp only [List.length_append, List.length_singleton]
        rcases List.mem_append.1 hsy with h1 | h1
        · have := h sy' h1 k' hk
          omega
        · simp only [List.mem_singleton] at h1
          subst h1
          simp only [Option.some.injEq] at hk
          omega
  | dynamics s x t =>
    simp only [World.step, Res.bind_eq_ok, Res.pure_eq, Res.ok.injEq, Prod.exists] at hs
    obtain ⟨d, w1, e1, rfl⟩ := hs
    obtain ⟨sy, e2, h3⟩ := dynamics_ok e1
    have hm := List.mem_of_getElem? e2
    rcases h3 with ⟨k, c, u, c', e3, e4, e5, e6, rfl⟩ | ⟨e3, e4, rfl⟩
    · refine ⟨fun sy' hsy k' hk => ?_, by simp, by simp⟩
      simp only [List.length_set]
      rcases List.mem_or_eq_of_mem_set hsy with h1 | h1
      · exact h sy' h1 k' hk
      · subst h1
        exact h sy hm k' hk
    · refine ⟨fun sy' hsy k' hk => ?_, by simp, by simp⟩
      rcases List.mem_or_eq_of_mem_set hsy with h1 | h1
      · exact h sy' h1 k' hk
      · subst h1
        exact h sy hm k' hk

theorem wf_run {disc : Bool} {cl : Class C X T U} {ops : List (Op C X T U)} {w w' : World C X T U} (h : WF w)
    (hs : w.run disc cl ops = .ok w') : WF w' := by
  induction ops generalizing w with
  | nil =>
    simp only [World.run, Res.pure_eq, Res.ok.injEq] at hs
    exact hs ▸ h
  | cons op ops ih =>
    simp only [World.run, Res.bind_eq_ok] at hs
    obtain ⟨w1, e1, e2⟩ := hs
    exact ih (wf_step h e1).1 e2

theorem wf_empty : WF (World.empty : World C X T U) := fun _ h => absurd h (by simp [World.empty])

/-- System `s` has no controller, or holds controller `k`, which nobody else does. -/
def Excl (s k : ℕ) (w : World C X T U) : Prop :=
  ∃ sy, w.syss[s]? = some sy ∧ (sy.ctl = none ∨ sy.ctl = some k ∧ k < w.ctls.length
    ∧ ∀ r sy', w.syss[r]? = some sy' → sy'.ctl = some k → r = s)

/-- What the derivative of a system depends on. -/
def Same (s k : ℕ) (w w' : World C X T U) : Prop :=
  w'.syss[s]? = w.syss[s]? ∧ ((∃ sy, w.syss[s]? = some sy ∧ sy.ctl = none) ∨ w'.ctls[k]? = w.ctls[k]?)

theorem same_derivative {cl : Class C X T U} {s k : ℕ} {w w' : World C X T U} (he : Excl s k w) (h : Same s k w w') (x : X)
    (t : T) : w'.derivative cl s x t = w.derivative cl s x t := by
  obtain ⟨sy, e1, e2⟩ := he
  obtain ⟨h1, h2⟩ := h
  have e1' : w'.syss[s]? = some sy := h1.trans e1
  simp only [World.derivative, World.dynamics, idx, e1, e1', Res.ok_bind]
  rcases e2 with e2 | ⟨e2, -⟩
  · simp only [e2, Res.pure_eq, Res.ok_bind]
  · rcases h2 with ⟨sy', e3, e4⟩ | h2
    · rw [e1] at e3
      obtain rfl := Option.some.inj e3
      rw [e2] at e4
      exact absurd e4 (by simp)
    · simp only [e2, h2]
      cases w.ctls[k]? with
      | none => rfl
      | some c =>
        simp only [Res.ok_bind]
        cases cl.compute c x t <;> rfl

theorem getElem?_append_some {α : Type} {l l' : List α} {i : ℕ} {a : α} (h : l[i]? = some a) : (l ++ l')[i]? = some a := by
  rw [List.getElem?_append_left (List.getElem?_eq_some_iff.1 h).1, h]

/-- A system that an operation does not concern stays as it is. -/
theorem step_sys {disc : Bool} {cl : Class C X T U} {s k : ℕ} {w w' : World C X T U} {op : Op C X T U}
    (ha : Avoids s k op) (hlt : s < w.syss.length) (hs : w.step disc cl op = .ok w') : w'.syss[s]? = w.syss[s]? := by
  cases op with
  | newCtl c =>
    simp only [World.step, Res.pure_eq, Res.ok.injEq] at hs
    subst hs
    rfl
  | newSys k' f =>
    cases k' with
    | none =>
      simp only [World.step, Res.pure_eq, Res.ok.injEq] at hs
      subst hs
      exact List.getElem?_append_left hlt
    | some k' =>
      simp only [World.step, Res.bind_eq_ok, Res.pure_eq, Res.ok.injEq] at hs
      obtain ⟨c, -, rfl⟩ := hs
      exact List.getElem?_append_left hlt
  | setController r k' =>
    simp only [World.step, Res.bind_eq_ok, Res.pure_eq, Res.ok.injEq] at hs
    obtain ⟨sr, e4, c, -, rfl⟩ := hs
    exact List.getElem?_set_ne ha.1
  | change k' g =>
    simp only [World.step, Res.bind_eq_ok, Res.pure_eq, Res.ok.injEq] at hs
    obtain ⟨c, -, rfl⟩ := hs
    rfl
  | copy r =>
    cases disc with
    | true =>
      simp only [World.step, if_true, World.copyDisc, Res.bind_eq_ok, Res.pure_eq, Res.ok.injEq] at hs
      obtain ⟨sr, -, rfl⟩ := hs
      exact List.getElem?_append_left hlt
    | false =>
      simp only [World.step, Bool.false_eq_true, if_false, World.copyCont, Res.bind_eq_ok] at hs
      obtain ⟨sr, e4, hs⟩ := hs
      cases hc : sr.ctl with
      | none =>
        simp only [hc, Res.pure_eq, Res.ok.injEq] at hs
        subst hs
        exact List.getElem?_append_left hlt
      | some k' =>
        simp only [hc, Res.bind_eq_ok, Res.pure_eq, Res.ok.injEq] at hs
        obtain ⟨c, -, c', -, rfl⟩ := hs
        exact List.getElem?_append_left hlt
  | dynamics r x t =>
    simp only [World.step, Res.bind_eq_ok, Res.pure_eq, Res.ok.injEq, Prod.exists] at hs
    obtain ⟨d, w1, e1, rfl⟩ := hs
    obtain ⟨sy, e2, h3⟩ := dynamics_ok e1
    rcases h3 with ⟨k, c, u, c', -, -, -, -, rfl⟩ | ⟨-, -, rfl⟩
    · exact List.getElem?_set_ne ha
    · exact List.getElem?_set_ne ha

theorem last_elem {α : Type} {l : List α} {a b : α} {r : ℕ} (h : (l ++ [a])[r]? = some b) (hr : ¬ r < l.length) : b = a := by
  rw [List.getElem?_append_right (by omega)] at h
  simpa using List.mem_of_getElem? h

theorem step_frame {cl : Class C X T U} {s k : ℕ} {w w' : World C X T U} {op : Op C X T U} (he : Excl s k w)
    (ha : Avoids s k op) (hs : w.step false cl op = .ok w') : Excl s k w' ∧ Same s k w w' := by
  obtain ⟨sy, e1, e2⟩ := he
  have hlt := (List.getElem?_eq_some_iff.1 e1).1
  have hsame := step_sys ha hlt hs
  rcases e2 with e2 | ⟨e2, ek, e3⟩
  · exact ⟨⟨sy, hsame.trans e1, Or.inl e2⟩, hsame, Or.inl ⟨sy, e1, e2⟩⟩
  suffices k < w'.ctls.length ∧ (∀ r sy', w'.syss[r]? = some sy' → sy'.ctl = some k → r = s) ∧ w'.ctls[k]? = w.ctls[k]? from
    ⟨⟨sy, hsame.trans e1, Or.inr ⟨e2, this.1, this.2.1⟩⟩, hsame, Or.inr this.2.2⟩
  cases op with
  | newCtl c =>
    simp only [World.step, Res.pure_eq, Res.ok.injEq] at hs
    subst hs
    exact ⟨by simp; omega, e3, List.getElem?_append_left ek⟩
  | newSys k' f =>
    cases k' with
    | none =>
      simp only [World.step, Res.pure_eq, Res.ok.injEq] at hs
      subst hs
      refine ⟨ek, fun r sy' h1 h2 => ?_, rfl⟩
      by_cases hr : r < w.syss.length
      · exact e3 r sy' (by rwa [List.getElem?_append_left hr] at h1) h2
      · obtain rfl := last_elem h1 hr
        simp at h2
    | some k' =>
      simp only [World.step, Res.bind_eq_ok, Res.pure_eq, Res.ok.injEq] at hs
      obtain ⟨c, -, rfl⟩ := hs
      refine ⟨ek, fun r sy' h1 h2 => ?_, rfl⟩
      by_cases hr : r < w.syss.length
      · exact e3 r sy' (by rwa [List.getElem?_append_left hr] at h1) h2
      · obtain rfl := last_elem h1 hr
        simp only [Option.some.injEq] at h2
        exact absurd h2 ha
  | setController r k' =>
    simp only [World.step, Res.bind_eq_ok, Res.pure_eq, Res.ok.injEq] at hs
    obtain ⟨sr, e4, c, -, rfl⟩ := hs
    obtain ⟨a1, a2⟩ := ha
    refine ⟨ek, fun r' sy' h1 h2 => ?_, rfl⟩
    by_cases hr : r = r'
    · subst hr
      rw [List.getElem?_set_self (lt_of_idx e4)] at h1
      obtain rfl := Option.some.inj h1
      simp only [Option.some.injEq] at h2
      exact absurd h2 a2
    · rw [List.getElem?_set_ne hr] at h1
      exact e3 r' sy' h1 h2
  | change k' g =>
    simp only [World.step, Res.bind_eq_ok, Res.pure_eq, Res.ok.injEq] at hs
    obtain ⟨c, -, rfl⟩ := hs
    exact ⟨by simpa using ek, e3, List.getElem?_set_ne ha⟩
  | copy r =>
    simp only [World.step, Bool.false_eq_true, if_false, World.copyCont, Res.bind_eq_ok] at hs
    obtain ⟨sr, e4, hs⟩ := hs
    cases hc : sr.ctl with
    | none =>
      simp only [hc, Res.pure_eq, Res.ok.injEq] at hs
      subst hs
      refine ⟨ek, fun r' sy' h1 h2 => ?_, rfl⟩
      by_cases hr : r' < w.syss.length
      · exact e3 r' sy' (by rwa [List.getElem?_append_left hr] at h1) h2
      · obtain rfl := last_elem h1 hr
        simp [hc] at h2
    | some k' =>
      simp only [hc, Res.bind_eq_ok, Res.pure_eq, Res.ok.injEq] at hs
      obtain ⟨c, -, c', -, rfl⟩ := hs
      refine ⟨by simp; omega, fun r' sy' h1 h2 => ?_, List.getElem?_append_left ek⟩
      by_cases hr : r' < w.syss.length
      · exact e3 r' sy' (by rwa [List.getElem?_append_left hr] at h1) h2
      · obtain rfl := last_elem h1 hr
        simp only [Option.some.injEq] at h2
        omega
  | dynamics r x t =>
    simp only [World.step, Res.bind_eq_ok, Res.pure_eq, Res.ok.injEq, Prod.exists] at hs
    obtain ⟨d, w1, e4, rfl⟩ := hs
    obtain ⟨sr, e5, h3⟩ := dynamics_ok e4
    have hset : ∀ (u : U) r' sy', (w.syss.set r { sr with action := some u })[r']? = some sy' → sy'.ctl = some k → r' = s := by
      intro u r' sy' h1 h2
      by_cases hr : r = r'
      · subst hr
        rw [List.getElem?_set_self (List.getElem?_eq_some_iff.1 e5).1] at h1
        obtain rfl := Option.some.inj h1
        exact e3 r sr e5 h2
      · rw [List.getElem?_set_ne hr] at h1
        exact e3 r' sy' h1 h2
    rcases h3 with ⟨k', c, u, c', e6, -, -, -, rfl⟩ | ⟨-, -, rfl⟩
    · refine ⟨by simpa using ek, hset u, List.getElem?_set_ne fun h => ?_⟩
      subst h
      exact ha (e3 r sr e5 e6)
    · exact ⟨ek, hset 0, rfl⟩

theorem run_frame {cl : Class C X T U} {s k : ℕ} {ops : List (Op C X T U)} {w w' : World C X T U} (he : Excl s k w)
    (ha : ∀ op ∈ ops, Avoids s k op) (hs : w.run false cl ops = .ok w') (x : X) (t : T) :
    w'.derivative cl s x t = w.derivative cl s x t := by
  induction ops generalizing w with
  | nil =>
    simp only [World.run, Res.pure_eq, Res.ok.injEq] at hs
    rw [hs]
  | cons op ops ih =>
    simp only [World.run, Res.bind_eq_ok] at hs
    obtain ⟨w1, e1, e2⟩ := hs
    obtain ⟨h1, h2⟩ := step_frame he (ha op (by simp)) e1
    rw [ih h1 (fun o ho => ha o (by simp [ho])) e2, same_derivative he h2]

/-! ### C167 -/

/-- C167: a system works with the controller given to it last, as this controller is at the time of the call, whatever
happened in between. -/
theorem C167_in_force {disc : Bool} {cl : Class C X T U} {hist ops : List (Op C X T U)} {w w1 w2 : World C X T U} {s k : ℕ}
    (_h0 : World.run disc cl World.empty hist = .ok w) (h1 : w.step disc cl (.setController s k) = .ok w1)
    (h2 : w1.run disc cl ops = .ok w2) (ho : ∀ op ∈ ops, ∀ k', op ≠ .setController s k') :
    ∃ f : X → T → U → X, (∃ sy, w.syss[s]? = some sy ∧ sy.f = f) ∧ ∀ x t,
      w2.derivative cl s x t = (do let c ← idx w2.ctls k; let r ← cl.compute c x t; pure (f x t r.1)) := by
  simp only [World.step, Res.bind_eq_ok, Res.pure_eq, Res.ok.injEq, idx_eq_ok] at h1
  obtain ⟨sy, e1, c, e2, rfl⟩ := h1
  refine ⟨sy.f, ⟨sy, e1, rfl⟩, ?_⟩
  have hlt := (List.getElem?_eq_some_iff.1 e1).1
  have key : ∀ (ops : List (Op C X T U)) (w1 : World C X T U), (∃ sy1, w1.syss[s]? = some sy1 ∧ sy1.f = sy.f ∧ sy1.ctl = some k) →
      (∀ op ∈ ops, ∀ k', op ≠ .setController s k') → w1.run disc cl ops = .ok w2 →
      ∃ sy1, w2.syss[s]? = some sy1 ∧ sy1.f = sy.f ∧ sy1.ctl = some k := by
    intro ops
    induction ops with
    | nil =>
      intro w1 hw _ h
      simp only [World.run, Res.pure_eq, Res.ok.injEq] at h
      exact h ▸ hw
    | cons op ops ih =>
      intro w1 hw ho h
      simp only [World.run, Res.bind_eq_ok] at h
      obtain ⟨w3, e3, e4⟩ := h
      refine ih w3 ?_ (fun o h => ho o (by simp [h])) e4
      obtain ⟨sy1, f1, f2, f3⟩ := hw
      have hl := (List.getElem?_eq_some_iff.1 f1).1
      by_cases hd : ∃ x t, op = .dynamics s x t
      · obtain ⟨x, t, rfl⟩ := hd
        simp only [World.step, Res.bind_eq_ok, Res.pure_eq, Res.ok.injEq, Prod.exists] at e3
        obtain ⟨d, w4, e5, rfl⟩ := e3
        obtain ⟨sr, e6, h3⟩ := dynamics_ok e5
        obtain rfl : sy1 = sr := Option.some.inj (f1.symm.trans e6)
        rcases h3 with ⟨k', c, u, c', -, -, -, -, rfl⟩ | ⟨-, -, rfl⟩
        · exact ⟨_, List.getElem?_set_self hl, f2, f3⟩
        · exact ⟨_, List.getElem?_set_self hl, f2, f3⟩
      · by_cases hk' : ∃ k' : ℕ, Avoids s k' op
        · obtain ⟨k', hk'⟩ := hk'
          exact ⟨sy1, (step_sys hk' hl e3).trans f1, f2, f3⟩
        · exfalso
          apply hk'
          have h5 := ho op (by simp)
          cases op with
          | newCtl c => exact ⟨0, trivial⟩
          | newSys k' f =>
            cases k' with
            | none => exact ⟨0, trivial⟩
            | some k' => exact ⟨k' + 1, by simp [Avoids]⟩
          | setController r k' => exact ⟨k' + 1, fun h => h5 k' (by rw [h]), by simp⟩
          | change k' g => exact ⟨k' + 1, by simp [Avoids]⟩
          | copy r => exact ⟨0, trivial⟩
          | dynamics r x t => exact ⟨0, fun h => hd ⟨x, t, by rw [h]⟩⟩
  obtain ⟨sy1, f1, f2, f3⟩ := key ops _ ⟨{ sy with ctl := some k }, List.getElem?_set_self hlt, rfl, rfl⟩ ho h2
  intro x t
  simp only [World.derivative, World.dynamics, idx_eq_ok.2 f1, Res.ok_bind, f3, f2]
  cases idx w2.ctls k with
  | exc => rfl
  | ub => rfl
  | ok c =>
    simp only [Res.ok_bind]
    cases cl.compute c x t <;> rfl

/-- C167: without a controller the control is zero. -/
theorem C167_no_controller {cl : Class C X T U} {w : World C X T U} {s : ℕ} {sy : Sys X T U} (h : w.syss[s]? = some sy)
    (hn : w.getController s = none) (x : X) (t : T) : w.derivative cl s x t = .ok (sy.f x t 0) := by
  have : sy.ctl = none := by simpa [World.getController, h] using hn
  simp only [World.derivative, World.dynamics, idx_eq_ok.2 h, Res.ok_bind, this, Res.pure_eq]

/-- C167: the last control action is the one the derivative was computed with. -/
theorem C167_last_action {cl : Class C X T U} {w w' : World C X T U} {s : ℕ} {x : X} {t : T} {d : X}
    (h : w.dynamics cl s x t = .ok (d, w')) :
    ∃ u sy, w.syss[s]? = some sy ∧ d = sy.f x t u ∧ w'.lastAction s = .ok u := by
  obtain ⟨sy, e1, h3⟩ := dynamics_ok h
  have hl := (List.getElem?_eq_some_iff.1 e1).1
  rcases h3 with ⟨k', c, u, c', -, -, -, e, rfl⟩ | ⟨-, e, rfl⟩
  · exact ⟨u, sy, e1, e, by simp [World.lastAction, idx, hl]⟩
  · exact ⟨0, sy, e1, e, by simp [World.lastAction, idx, hl]⟩

/-- C167: the copy of a continuous-time system gives the derivatives of the original, provided its controller can be
copied. -/
theorem C167_copy_same {cl : Class C X T U} {hist : List (Op C X T U)} {w : World C X T U} {s : ℕ} {sy : Sys X T U}
    (h0 : World.run false cl World.empty hist = .ok w) (hs : w.syss[s]? = some sy) (hcl : ∀ c, cl.clone c = .ok c) :
    ∃ w1, w.step false cl (.copy s) = .ok w1 ∧ ∀ x t,
      w1.derivative cl w.syss.length x t = w.derivative cl s x t
      ∧ w1.derivative cl s x t = w.derivative cl s x t := by
  have hw := wf_run wf_empty h0
  have hlt := (List.getElem?_eq_some_iff.1 hs).1
  cases hc : sy.ctl with
  | none =>
    refine ⟨⟨w.ctls, w.syss ++ [sy]⟩, by simp [World.step, World.copyCont, idx, hs, hc], fun x t => ?_⟩
    constructor <;>
      simp [World.derivative, World.dynamics, idx, hs, hc, List.getElem?_append_left hlt]
  | some k =>
    have hk := hw sy (List.mem_of_getElem? hs) k hc
    obtain ⟨c, hkc⟩ : ∃ c, w.ctls[k]? = some c := ⟨_, List.getElem?_eq_getElem hk⟩
    refine ⟨⟨w.ctls ++ [c], w.syss ++ [{ sy with ctl := some w.ctls.length }]⟩,
      by simp [World.step, World.copyCont, idx, hs, hc, hkc, hcl], fun x t => ?_⟩
    constructor
    · simp only [World.derivative, World.dynamics, idx, hs, hc, hkc, Res.ok_bind, List.getElem?_concat_length]
      cases cl.compute c x t <;> rfl
    · simp only [World.derivative, World.dynamics, idx, hs, hc, hkc, Res.ok_bind, List.getElem?_append_left hlt,
        List.getElem?_append_left hk]
      cases cl.compute c x t <;> rfl

/-- C167: the copy of a continuous-time system has a controller of its own: whatever is done afterwards to anything else,
the original and its controller among it, does not change its derivatives. -/
theorem C167_copy_independent {cl : Class C X T U} {hist ops : List (Op C X T U)} {w w1 w2 : World C X T U} {s : ℕ}
    (h0 : World.run false cl World.empty hist = .ok w) (h1 : w.step false cl (.copy s) = .ok w1)
    (h2 : w1.run false cl ops = .ok w2) (ho : ∀ op ∈ ops, Avoids w.syss.length w.ctls.length op) (x : X) (t : T) :
    w2.derivative cl w.syss.length x t = w1.derivative cl w.syss.length x t := by
  have hw := wf_run wf_empty h0
  refine run_frame ?_ ho h2 x t
  simp only [World.step, Bool.false_eq_true, if_false, World.copyCont, Res.bind_eq_ok] at h1
  obtain ⟨sy, e1, h1⟩ := h1
  cases hc : sy.ctl with
  | none =>
    simp only [hc, Res.pure_eq, Res.ok.injEq] at h1
    subst h1
    exact ⟨sy, List.getElem?_concat_length, Or.inl hc⟩
  | some k =>
    simp only [hc, Res.bind_eq_ok, Res.pure_eq, Res.ok.injEq] at h1
    obtain ⟨c, -, c', -, rfl⟩ := h1
    refine ⟨_, List.getElem?_concat_length, Or.inr ⟨rfl, by simp, fun r sy' h3 h4 => ?_⟩⟩
    by_cases hr : r < w.syss.length
    · rw [List.getElem?_append_left hr] at h3
      have := hw sy' (List.mem_of_getElem? h3) _ h4
      omega
    · have := (List.getElem?_eq_some_iff.1 h3).1
      simp only [List.length_append, List.length_singleton] at this
      omega

/-- C167: nor does anything done to the copy change the original, provided that it did not share its controller `k`
before. -/
theorem C167_original_independent {cl : Class C X T U} {hist ops : List (Op C X T U)} {w w1 w2 : World C X T U} {s k : ℕ}
    (h0 : World.run false cl World.empty hist = .ok w) (hk : w.getController s = some k)
    (hx : ∀ r, w.getController r = some k → r = s) (h1 : w.step false cl (.copy s) = .ok w1)
    (h2 : w1.run false cl ops = .ok w2) (ho : ∀ op ∈ ops, Avoids s k op) (x : X) (t : T) :
    w2.derivative cl s x t = w.derivative cl s x t := by
  have hw := wf_run wf_empty h0
  have h3 : w.run false cl (.copy s :: ops) = .ok w2 := by
    simp only [World.run, h1, Res.ok_bind, h2]
  refine run_frame (k := k) ?_ ?_ h3 x t
  · simp only [World.getController, Option.bind_eq_bind, Option.bind_eq_some_iff] at hk
    obtain ⟨sy, e1, e2⟩ := hk
    exact ⟨sy, e1, Or.inr ⟨e2, hw sy (List.mem_of_getElem? e1) k e2, fun r sy' h4 h5 => hx r (by simp [World.getController, h4, h5])⟩⟩
  · intro op hop
    rcases List.mem_cons.1 hop with rfl | h
    · trivial
    · exact ho op h

/-- The history of the examples: a constant controller 2, a system `x + u` with it. -/
def exHist : List (Op ℤ ℤ ℤ ℤ) := [.newCtl 2, .newSys (some 0) fun x _ u => x + u]

/-- Hypotheses of the theorems: the system is copied, the control of the original set to 5, and the original evaluated;
the copy goes on with 2. -/
example : ∃ w w1 w2, World.run false (constantClass ℤ ℤ ℤ) World.empty exHist = .ok w
    ∧ w.step false (constantClass ℤ ℤ ℤ) (.copy 0) = .ok w1 ∧ w.getController 0 = some 0
    ∧ w1.run false (constantClass ℤ ℤ ℤ) [.change 0 fun _ => 5, .dynamics 0 1 0] = .ok w2
    ∧ (∀ op ∈ ([.change 0 fun _ => 5, .dynamics 0 1 0] : List (Op ℤ ℤ ℤ ℤ)), Avoids w.syss.length w.ctls.length op)
    ∧ w2.derivative (constantClass ℤ ℤ ℤ) 1 10 0 = .ok 12 ∧ w2.derivative (constantClass ℤ ℤ ℤ) 0 10 0 = .ok 15 :=
  ⟨_, _, _, rfl, rfl, rfl, rfl, by simp [Avoids, World.empty], rfl, rfl⟩

example : ∃ w w1, World.run false (constantClass ℤ ℤ ℤ) World.empty exHist = .ok w
    ∧ w.step false (constantClass ℤ ℤ ℤ) (.setController 0 0) = .ok w1 := ⟨_, _, rfl, rfl⟩

/-- C167 fails for discrete-time systems: the copy shares the controller with the original, so that a change of the control
by way of the copy changes what the original does. -/
theorem C167_discrete_violated : ∃ w w1 w2 : World ℤ ℤ ℤ ℤ, ∃ k,
    World.run true (constantClass ℤ ℤ ℤ) World.empty exHist = .ok w
    ∧ w.step true (constantClass ℤ ℤ ℤ) (.copy 0) = .ok w1 ∧ w1.getController 1 = some k
    ∧ w1.step true (constantClass ℤ ℤ ℤ) (.change k fun _ => 5) = .ok w2
    ∧ w1.derivative (constantClass ℤ ℤ ℤ) 0 10 0 = .ok 12 ∧ w2.derivative (constantClass ℤ ℤ ℤ) 0 10 0 = .ok 15 :=
  ⟨_, _, _, 0, rfl, rfl, rfl, rfl, rfl, rfl⟩

/-- C167 fails for `getLastControlAction` before the first evaluation of a system constructed without a controller: the
member is not initialised. -/
theorem C167_last_action_violated (disc : Bool) (cl : Class C X T U) (f : X → T → U → X) :
    ∃ w, World.run disc cl World.empty [.newSys none f] = .ok w ∧ w.lastAction 0 = .ub := ⟨_, rfl, rfl⟩

end CT.Ctl
