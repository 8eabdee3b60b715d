import Verif.Model.FilterSharing
import Mathlib.Data.List.Induction
import Mathlib.Algebra.Ring.Int.Defs
import Mathlib.Tactic.Common

/-! # C199: system models of filters advance the state with the control they are given -/

namespace CT.FilterShare

variable {X U T : Type}

/-! ### Specification -/

/-- The systems made by a program, in order: their controlled dynamics. -/
def systems (ops : List (Op X U T)) : List (X → T → U → X) :=
  ops.filterMap fun o => match o with
    | .system g => some g
    | _ => none

/-- The systems used by the system models made by a program, in order. -/
def models (ops : List (Op X U T)) : List ℕ :=
  (ops.foldl (fun (c : ℕ × List ℕ) o => match o with
    | .system _ => (c.1 + 1, c.2)
    | .model s => if s < c.1 then (c.1, c.2 ++ [s]) else c
    | _ => c) (0, [])).2

/-- No further model of system `s` is made and its controller is not replaced. -/
def Untouched (s : ℕ) (ops : List (Op X U T)) : Prop := ∀ o ∈ ops, o ≠ .model s ∧ ∀ k, o ≠ .setController s k

/-- The control last given to model `m`, `c` if there was none. -/
def lastControl (m : ℕ) (c : U) : List (Op X U T) → U
  | [] => c
  | .dynamics m' _ u _ _ :: ops => lastControl m (if m' = m then u else c) ops
  | _ :: ops => lastControl m c ops

/-! ### Proofs -/

variable [Zero U] (doStep : (X → T → X) → X → T → T → X)

theorem step_lists (w : World X U T) (o : Op X U T) :
    (step doStep w o).sys.map (·.g) = w.sys.map (·.g) ++ systems [o]
    ∧ (step doStep w o).mdl = (match o with | .model s => if s < w.sys.length then w.mdl ++ [s] else w.mdl | _ => w.mdl)
    ∧ ((step doStep w o).ctl.length = w.ctl.length + ((step doStep w o).mdl.length - w.mdl.length)) := by
  have hm : ∀ (s : ℕ) (c : Ctrl X U T), (w.sys.modify s fun o => { o with ctrl := c }).map (·.g) = w.sys.map (·.g) := by
    intro s c
    apply List.ext_getElem?
    intro i
    simp only [List.getElem?_map, List.getElem?_modify]
    cases w.sys[i]? with
    | none => rfl
    | some o =>
      by_cases e : s = i <;> simp [e]
  cases o with
  | system g => simp [step, systems]
  | setController s k => simp [step, systems, World.setController, hm]
  | model s =>
    simp only [step, systems, World.model]
    split <;> simp [hm]
  | dynamics m x u dt t =>
    have : ∀ v, (w.computeDynamics doStep m x u dt t) = some v → v.1.sys = w.sys ∧ v.1.mdl = w.mdl ∧ v.1.ctl.length = w.ctl.length := by
      intro v hv
      simp only [World.computeDynamics, Option.bind_eq_bind, Option.bind_eq_some_iff] at hv
      obtain ⟨s, _, o, _, e⟩ := hv
      cases e
      simp
    simp only [step, systems]
    cases h : w.computeDynamics doStep m x u dt t with
    | none => simp
    | some v =>
      obtain ⟨h1, h2, h3⟩ := this v h
      simp [h1, h2, h3]

theorem run_lists (ops : List (Op X U T)) :
    (run doStep ops).sys.map (·.g) = systems ops ∧ (run doStep ops).mdl = models ops ∧ (run doStep ops).ctl.length = (models ops).length := by
  have : ∀ (ops : List (Op X U T)) (w : World X U T), w.ctl.length = w.mdl.length →
      (ops.foldl (step doStep) w).sys.map (·.g) = w.sys.map (·.g) ++ systems ops
      ∧ (ops.foldl (step doStep) w).mdl = (ops.foldl (fun (c : ℕ × List ℕ) o => match o with
        | .system _ => (c.1 + 1, c.2)
        | .model s => if s < c.1 then (c.1, c.2 ++ [s]) else c
        | _ => c) (w.sys.length, w.mdl)).2
      ∧ (ops.foldl (step doStep) w).ctl.length = (ops.foldl (step doStep) w).mdl.length := by
    intro ops
    induction ops with
    | nil => intro w hw; simp [systems, hw]
    | cons o ops ih =>
      intro w hw
      obtain ⟨h1, h2, h3⟩ := step_lists doStep w o
      have hl : (step doStep w o).sys.length = w.sys.length + (systems [o]).length := by
        have := congrArg List.length h1
        simpa using this
      have hw' : (step doStep w o).ctl.length = (step doStep w o).mdl.length := by
        have : w.mdl.length ≤ (step doStep w o).mdl.length := by
          rw [h2]; cases o <;> simp; split <;> simp
        omega
      obtain ⟨i1, i2, i3⟩ := ih (step doStep w o) hw'
      refine ⟨?_, ?_, i3⟩
      · rw [List.foldl_cons, i1, h1, List.append_assoc]
        congr 1
        rw [show o :: ops = [o] ++ ops from rfl]
        simp only [systems, List.filterMap_append]
      · rw [List.foldl_cons, i2, List.foldl_cons, hl, h2]
        cases o with
        | system g => rfl
        | setController s k => rfl
        | dynamics m x u dt t => rfl
        | model s =>
          congr 2
          simp only [systems, List.filterMap_cons, List.filterMap_nil, List.length_nil, Nat.add_zero]
          split <;> rfl
  obtain ⟨h1, h2, h3⟩ := this ops ⟨[], [], []⟩ rfl
  refine ⟨by simpa [run] using h1, h2, ?_⟩
  rw [← show (run doStep ops).mdl = models ops from h2]
  exact h3

/-- System `s` is governed by the controller of model `m`, which keeps `c`. -/
structure Gov (w : World X U T) (s m : ℕ) (g : X → T → U → X) (c : U) : Prop where
  sys : w.sys[s]? = some ⟨g, .const m⟩
  ctl : w.ctl[m]? = some c

theorem gov_step {w : World X U T} {s m : ℕ} {g : X → T → U → X} {c : U} (hg : Gov w s m g c) (hlen : w.ctl.length = w.mdl.length)
    (hall : ∀ (j s' : ℕ), w.mdl[j]? = some s' → s' < w.sys.length) (o : Op X U T)
    (ho : o ≠ .model s ∧ ∀ k, o ≠ .setController s k) : Gov (step doStep w o) s m g (lastControl m c [o]) := by
  have hs := (List.getElem?_eq_some_iff.1 hg.sys).1
  have hm := (List.getElem?_eq_some_iff.1 hg.ctl).1
  cases o with
  | system f => exact ⟨by simp only [step]; rw [List.getElem?_append_left hs]; exact hg.sys, hg.ctl⟩
  | setController s' k =>
    have : s' ≠ s := fun e => ho.2 k (by rw [e])
    exact ⟨by simp [step, World.setController, this, hg.sys], hg.ctl⟩
  | model s' =>
    have : s' ≠ s := fun e => ho.1 (by rw [e])
    simp only [step, World.model, lastControl]
    split
    · exact ⟨by simp [this, hg.sys], by rw [List.getElem?_append_left hm]; exact hg.ctl⟩
    · exact hg
  | dynamics m' x u dt t =>
    simp only [step, lastControl]
    cases hm' : w.mdl[m']? with
    | none =>
      have : m' ≠ m := by
        rintro rfl
        rw [List.getElem?_eq_none_iff] at hm'
        omega
      simpa [World.computeDynamics, hm', this] using hg
    | some s' =>
      obtain ⟨o, ho'⟩ : ∃ o, w.sys[s']? = some o := ⟨_, List.getElem?_eq_getElem (hall _ _ hm')⟩
      simp only [World.computeDynamics, hm', ho', Option.bind_eq_bind, Option.bind_some, Option.map_some, Option.getD_some]
      refine ⟨hg.sys, ?_⟩
      rw [List.getElem?_set]
      split
      · next e => subst e; simp [hm]
      · exact hg.ctl

omit [Zero U] in
theorem models_lt (ops : List (Op X U T)) : ∀ (j s : ℕ), (models ops)[j]? = some s → s < (systems ops).length := by
  have : ∀ (ops : List (Op X U T)) (n : ℕ) (l : List ℕ), (∀ s ∈ l, s < n) →
      ∀ s ∈ (ops.foldl (fun (c : ℕ × List ℕ) o => match o with
        | .system _ => (c.1 + 1, c.2)
        | .model s => if s < c.1 then (c.1, c.2 ++ [s]) else c
        | _ => c) (n, l)).2, s < n + (systems ops).length := by
    intro ops
    induction ops with
    | nil => intro n l h s hs; simpa [systems] using h s hs
    | cons o ops ih =>
      intro n l h s hs
      cases o with
      | system g =>
        have := ih (n + 1) l (fun s hs => Nat.lt_succ_of_lt (h s hs)) s hs
        simp only [systems, List.filterMap_cons, List.length_cons] at this ⊢
        omega
      | setController s' k => exact ih n l h s hs
      | dynamics m x u dt t => exact ih n l h s hs
      | model s' =>
        simp only [List.foldl_cons] at hs
        split at hs
        · next hlt =>
          refine ih n (l ++ [s']) (fun a ha => ?_) s hs
          rcases List.mem_append.1 ha with ha | ha
          · exact h a ha
          · rw [List.mem_singleton] at ha; subst ha; exact hlt
        · exact ih n l h s hs
  intro j s hj
  simpa using this ops 0 [] (by simp) s (List.mem_of_getElem? hj)

theorem run_snoc (ops : List (Op X U T)) (o : Op X U T) : run doStep (ops ++ [o]) = step doStep (run doStep ops) o := by
  simp [run]

theorem run_ok (ops : List (Op X U T)) : (run doStep ops).ctl.length = (run doStep ops).mdl.length
    ∧ ∀ (j s' : ℕ), (run doStep ops).mdl[j]? = some s' → s' < (run doStep ops).sys.length := by
  obtain ⟨h1, h2, h3⟩ := run_lists doStep ops
  refine ⟨by rw [h2, h3], fun j s' hj => ?_⟩
  rw [h2] at hj
  have := models_lt ops j s' hj
  rw [← h1] at this
  simpa using this

omit [Zero U] in
theorem lastControl_snoc (m : ℕ) (ops : List (Op X U T)) (o : Op X U T) : ∀ c : U,
    lastControl m c (ops ++ [o]) = lastControl m (lastControl m c ops) [o] := by
  induction ops with
  | nil => intro c; rfl
  | cons a ops ih => intro c; cases a <;> exact ih _

theorem gov_run {ops : List (Op X U T)} {s : ℕ} {g : X → T → U → X} (hs : (systems ops)[s]? = some g) (ops' : List (Op X U T))
    (hu : Untouched s ops') :
    Gov (run doStep (ops ++ [.model s] ++ ops')) s (models ops).length g (lastControl (models ops).length 0 ops') := by
  induction ops' using List.reverseRecOn with
  | nil =>
    obtain ⟨h1, h2, h3⟩ := run_lists doStep ops
    obtain ⟨o, ho, hg⟩ : ∃ o, (run doStep ops).sys[s]? = some o ∧ o.g = g := by
      rw [← h1, List.getElem?_map, Option.map_eq_some_iff] at hs
      exact hs
    have hlt := (List.getElem?_eq_some_iff.1 ho).1
    rw [List.append_nil, run_snoc]
    simp only [step, World.model, if_pos hlt, lastControl]
    constructor
    · simp [ho, h2, ← hg]
    · simp [← h3]
  | append_singleton ops' o ih =>
    have ih := ih fun a ha => hu a (by simp [ha])
    rw [← List.append_assoc, run_snoc, lastControl_snoc]
    obtain ⟨k1, k2⟩ := run_ok doStep (ops ++ [.model s] ++ ops')
    exact gov_step doStep ih k1 k2 o (hu o (by simp))

/-- C199, one model per system: a model that was made of a system after all others and after all controllers were set advances the state by
one step of the integrator with the given control, whatever it was asked for before. -/
theorem C199_given_control_partial {ops : List (Op X U T)} {s : ℕ} {g : X → T → U → X} (hs : (systems ops)[s]? = some g)
    {ops' : List (Op X U T)} (hu : Untouched s ops') (x : X) (u : U) (dt t : T) :
    ∃ w', (run doStep (ops ++ [.model s] ++ ops')).computeDynamics doStep (models ops).length x u dt t
      = some (w', doStep (fun x t => g x t u) x t dt) := by
  have hg := gov_run doStep hs ops' hu
  have hm : (run doStep (ops ++ [.model s] ++ ops')).mdl[(models ops).length]? = some s := by
    have hlt : s < (systems ops).length := (List.getElem?_eq_some_iff.1 hs).1
    have h0 := run_lists doStep ops
    have h0l : (run doStep ops).sys.length = (systems ops).length := by rw [← h0.1]; simp
    clear hg hu
    induction ops' using List.reverseRecOn with
    | nil =>
      rw [List.append_nil, run_snoc]
      simp [step, World.model, h0l, hlt, h0.2.1]
    | append_singleton ops' o ih =>
      rw [← List.append_assoc, run_snoc, (step_lists doStep _ o).2.1]
      have hl := (List.getElem?_eq_some_iff.1 ih).1
      cases o with
      | model s' =>
        simp only
        split
        · rw [List.getElem?_append_left hl]; exact ih
        · exact ih
      | _ => exact ih
  have hc := (List.getElem?_eq_some_iff.1 hg.ctl).1
  refine ⟨{ run doStep (ops ++ [.model s] ++ ops') with ctl := (run doStep (ops ++ [.model s] ++ ops')).ctl.set (models ops).length u }, ?_⟩
  simp only [World.computeDynamics, hm, hg.sys, Option.bind_eq_bind, Option.bind_some]
  congr 2
  refine congrArg (fun f => doStep f x t dt) ?_
  funext x t
  simp only [World.rhs]
  rw [List.getElem?_set_self hc]
  rfl

/-- C199, two models of a system: a model made before another model of the same system ignores the control it is given and advances with
the control last given to the other one, zero if there was none. -/
theorem C199_two_models_violated {ops : List (Op X U T)} {s m : ℕ} {g : X → T → U → X} (hs : (systems ops)[s]? = some g)
    (hm : (models ops)[m]? = some s) {ops' : List (Op X U T)} (hu : Untouched s ops') (x : X) (u : U) (dt t : T) :
    ∃ w', (run doStep (ops ++ [.model s] ++ ops')).computeDynamics doStep m x u dt t
      = some (w', doStep (fun x t => g x t (lastControl (models ops).length 0 ops')) x t dt) := by
  have hg := gov_run doStep hs ops' hu
  have hlm := (List.getElem?_eq_some_iff.1 hm).1
  have hm' : (run doStep (ops ++ [.model s] ++ ops')).mdl[m]? = some s := by
    have : ∀ l : List (Op X U T), (run doStep (ops ++ l)).mdl[m]? = some s := by
      intro l
      induction l using List.reverseRecOn with
      | nil => rw [List.append_nil, (run_lists doStep ops).2.1]; exact hm
      | append_singleton l o ih =>
        rw [← List.append_assoc, run_snoc, (step_lists doStep _ o).2.1]
        have hl := (List.getElem?_eq_some_iff.1 ih).1
        cases o with
        | model s' =>
          simp only
          split
          · rw [List.getElem?_append_left hl]; exact ih
          · exact ih
        | _ => exact ih
    rw [List.append_assoc]
    exact this _
  refine ⟨{ run doStep (ops ++ [.model s] ++ ops') with ctl := (run doStep (ops ++ [.model s] ++ ops')).ctl.set m u }, ?_⟩
  simp only [World.computeDynamics, hm', hg.sys, Option.bind_eq_bind, Option.bind_some]
  congr 2
  refine congrArg (fun f => doStep f x t dt) ?_
  funext x t
  simp only [World.rhs]
  rw [List.getElem?_set_ne (by omega), hg.ctl]
  rfl

/-- C199, the given control does matter: two models of a scalar system with input; the first is asked to advance with control 5 and
with control 7 and moves as if the control were the 1 that was given to the second. -/
theorem C199_two_models_example_violated :
    ∃ ops : List (Op ℤ ℤ ℤ), ∀ u : ℤ,
      ((run (fun f x t dt => x + dt * f x t) ops).computeDynamics (fun f x t dt => x + dt * f x t) 0 10 u 2 0).map (·.2) = some 12 :=
  ⟨[.system fun _ _ u => u, .model 0, .model 0, .dynamics 1 0 1 1 0], fun _ => rfl⟩

/-- The dynamics and the controller `k` of system `s` survive all that leaves it untouched. -/
theorem law_run {ops : List (Op X U T)} {s : ℕ} {g : X → T → U → X} (hs : (systems ops)[s]? = some g) (k : X → T → U)
    (ops' : List (Op X U T)) (hu : Untouched s ops') : (run doStep (ops ++ [.setController s k] ++ ops')).sys[s]? = some ⟨g, .law k⟩ := by
  induction ops' using List.reverseRecOn with
  | nil =>
    obtain ⟨o, ho, hg⟩ : ∃ o, (run doStep ops).sys[s]? = some o ∧ o.g = g := by
      rw [← (run_lists doStep ops).1, List.getElem?_map, Option.map_eq_some_iff] at hs
      exact hs
    rw [List.append_nil, run_snoc]
    simp [step, World.setController, ho, ← hg]
  | append_singleton ops' o ih =>
    have ih := ih fun a ha => hu a (by simp [ha])
    have ho := hu o (by simp)
    rw [← List.append_assoc, run_snoc]
    generalize run doStep (ops ++ [.setController s k] ++ ops') = w at ih
    have hl := (List.getElem?_eq_some_iff.1 ih).1
    cases o with
    | system f => simp only [step]; rw [List.getElem?_append_left hl]; exact ih
    | setController s' k' =>
      have : s' ≠ s := fun e => ho.2 k' (by rw [e])
      simp [step, World.setController, this, ih]
    | model s' =>
      have : s' ≠ s := fun e => ho.1 (by rw [e])
      simp only [step, World.model]
      split
      · simp [this, ih]
      · exact ih
    | dynamics m' x u dt t =>
      simp only [step]
      cases h : w.computeDynamics doStep m' x u dt t with
      | none => exact ih
      | some v =>
        simp only [World.computeDynamics, Option.bind_eq_bind, Option.bind_eq_some_iff] at h
        obtain ⟨_, _, _, _, e⟩ := h
        cases e
        exact ih

/-- C199, a controller set later: once the caller gives the system another controller, the models made of it before ignore the control they
are given and advance with that controller. -/
theorem C199_controller_violated {ops : List (Op X U T)} {s m : ℕ} {g : X → T → U → X} (hs : (systems ops)[s]? = some g)
    (hm : (models ops)[m]? = some s) (k : X → T → U) {ops' : List (Op X U T)} (hu : Untouched s ops') (x : X) (u : U) (dt t : T) :
    ∃ w', (run doStep (ops ++ [.setController s k] ++ ops')).computeDynamics doStep m x u dt t
      = some (w', doStep (fun x t => g x t (k x t)) x t dt) := by
  have hg := law_run doStep hs k ops' hu
  have hm' : (run doStep (ops ++ ([.setController s k] ++ ops'))).mdl[m]? = some s := by
    generalize [.setController s k] ++ ops' = l
    induction l using List.reverseRecOn with
    | nil => rw [List.append_nil, (run_lists doStep ops).2.1]; exact hm
    | append_singleton l o ih =>
      rw [← List.append_assoc, run_snoc, (step_lists doStep _ o).2.1]
      have hl := (List.getElem?_eq_some_iff.1 ih).1
      cases o with
      | model s' =>
        simp only
        split
        · rw [List.getElem?_append_left hl]; exact ih
        · exact ih
      | _ => exact ih
  rw [← List.append_assoc] at hm'
  refine ⟨{ run doStep (ops ++ [.setController s k] ++ ops') with
    ctl := (run doStep (ops ++ [.setController s k] ++ ops')).ctl.set m u }, ?_⟩
  simp only [World.computeDynamics, hm', hg, Option.bind_eq_bind, Option.bind_some]
  rfl

/-! ### The hypotheses can be met -/

example : (systems [.system fun _ _ u => u, .model 0, (.system fun x _ u => x + u : Op ℤ ℤ ℤ), .model 1])[1]?.isSome
    ∧ models [.system fun _ _ u => u, .model 0, (.system fun x _ u => x + u : Op ℤ ℤ ℤ), .model 1] = [0, 1]
    ∧ Untouched 1 ([.model 0, .dynamics 1 3 4 1 0, .setController 0 fun x _ => x] : List (Op ℤ ℤ ℤ)) := by
  refine ⟨rfl, rfl, fun o ho => ?_⟩
  simp only [List.mem_cons, List.not_mem_nil, or_false] at ho
  rcases ho with rfl | rfl | rfl <;> exact ⟨by simp, fun k h => by cases h⟩

end CT.FilterShare
