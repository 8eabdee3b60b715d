import Verif.Model.Discretizer
import Mathlib.Algebra.Field.Rat

/-! # Property C73: a discretised system propagates with its configured integrator -/

namespace CT.Discretizer

variable {K S X U : Type} [Field K]

/-- Specification: the configuration a user has asked for - control step, number of sub-steps,
integration type, system - and the integration type in force when the system was last set. -/
structure Config (K S : Type) where
  dt : K
  k : ℕ
  type : IntType
  sys : S
  typeAtSet : IntType

/-- Effect of a call on the requested configuration. -/
def Config.apply (c : Config K S) : Op K S X U → Config K S
  | .setType ty => { c with type := ty }
  | .setParameters dt k => { c with dt := dt, k := k }
  | .changeSystem s => { c with sys := s, typeAtSet := c.type }
  | .propagate _ _ _ => c

/-- Coupling between members and requested configuration. -/
def Inv (e : Env K S X U) (d : Disc K S X) (c : Config K S) : Prop :=
  d.dt = c.dt ∧ d.kSim = c.k ∧ d.dtSim = c.dt / c.k ∧ d.type = c.type ∧ d.sys = some c.sys ∧
  (c.typeAtSet.isSym = false → d.integ = some (c.typeAtSet, c.sys)) ∧
  (e.isSym c.sys = true → d.symInteg = some c.sys)

theorem inv_construct (e : Env K S X U) (s : S) (dt : K) (ty : IntType) (k : ℕ) :
    Inv e (construct e s dt ty k) ⟨dt, k, ty, s, ty⟩ := by
  refine ⟨rfl, rfl, rfl, rfl, rfl, ?_, ?_⟩
  · intro h; simp [construct, changeSystem, initIntegrators] at h ⊢; simp [h]
  · intro h; simp [construct, changeSystem, initIntegrators] at h ⊢; simp [h]

theorem inv_sub (e : Env K S X U) (d : Disc K S X) (c : Config K S) (l : List X) (h : Inv e d c) :
    Inv e { d with sub := l } c := h

theorem inv_apply (e : Env K S X U) (d : Disc K S X) (c : Config K S) (op : Op K S X U)
    (h : Inv e d c) : Inv e (apply e d op) (c.apply op) := by
  obtain ⟨h1, h2, h3, h4, h5, h6, h7⟩ := h
  cases op with
  | setType ty => exact ⟨h1, h2, h3, rfl, h5, h6, h7⟩
  | setParameters dt k => exact ⟨rfl, rfl, rfl, h4, h5, h6, h7⟩
  | changeSystem s =>
      refine ⟨h1, h2, h3, h4, rfl, ?_, ?_⟩
      · intro h
        simp only [Config.apply] at h
        simp [apply, changeSystem, initIntegrators, h4, h, Config.apply]
      · intro h
        simp only [Config.apply] at h
        simp [apply, changeSystem, initIntegrators, h, Config.apply]
  | propagate x n u =>
      simp only [apply, propagate, h5]
      split <;> rename_i heq
      · split at heq
        · split at heq
          · cases heq
          · split at heq
            · cases heq
            · cases heq; exact ⟨h1, h2, h3, h4, rfl, h6, h7⟩
        · split at heq
          · cases heq
          · cases heq; exact ⟨h1, h2, h3, h4, rfl, h6, h7⟩
      · exact ⟨h1, h2, h3, h4, rfl, h6, h7⟩

theorem inv_propagate (e : Env K S X U) (d : Disc K S X) (c : Config K S) (hinv : Inv e d c)
    (htype : c.type = c.typeAtSet) (x : X) (n : ℕ) (u : U) :
    (c.type.isSym = true → e.isSym c.sys = false → propagate e d x n u = .exc) ∧
    ((c.type.isSym = true → e.isSym c.sys = true) →
      propagate e d x n u = .ok ((e.run c.type c.sys x u (n * c.dt) c.k (c.dt / c.k)).1,
        { d with sub := if c.type = .rkSym then []
                  else (e.run c.type c.sys x u (n * c.dt) c.k (c.dt / c.k)).2 })) := by
  obtain ⟨h1, h2, h3, h4, h5, h6, h7⟩ := hinv
  constructor
  · intro a b
    simp [propagate, h5, h4, a, b]
  · intro a
    rcases hs : c.type with j | _ | _
    · rw [hs] at htype
      have h6' := h6 (by rw [← htype]; rfl)
      simp [propagate, h5, h4, hs, IntType.isSym, h6', ← htype, h1, h2, h3]
    · rw [hs] at a
      have h7' := h7 (a rfl)
      simp [propagate, h5, h4, hs, IntType.isSym, h7', a rfl, h1, h2, h3]
    · rw [hs] at a
      have h7' := h7 (a rfl)
      simp [propagate, h5, h4, hs, IntType.isSym, h7', a rfl, h1, h2, h3]

/-- C73 (partial): after every history of calls in which the integration type was last changed before
the system was last set, propagating state `x` at stage `n` with control `u` performs exactly the
requested number `k` of sub-steps of length `dt / k`, from time `n dt`, with the requested type, on the
system last set; a symplectic type on a non-symplectic system throws; the recorder afterwards holds
exactly the sub-states of this propagation (none for the symplectic Runge-Kutta type).

Missing: changes of the integration type that are not followed by setting the system
(`C73_set_type_violated`), and cloning (`C73_clone_violated`). -/
theorem C73_propagate_partial (e : Env K S X U) (s : S) (dt : K) (ty : IntType) (k : ℕ)
    (hist : List (Op K S X U)) (c : Config K S) (hc : c = hist.foldl Config.apply ⟨dt, k, ty, s, ty⟩)
    (htype : c.type = c.typeAtSet) (x : X) (n : ℕ) (u : U) (r : Res (X × Disc K S X))
    (hr : r = propagate e (hist.foldl (apply e) (construct e s dt ty k)) x n u) :
    (c.type.isSym = true → e.isSym c.sys = false → r = .exc) ∧
    ((c.type.isSym = true → e.isSym c.sys = true) → ∃ d',
      r = .ok ((e.run c.type c.sys x u (n * c.dt) c.k (c.dt / c.k)).1, d') ∧
      d'.sub = if c.type = .rkSym then [] else (e.run c.type c.sys x u (n * c.dt) c.k (c.dt / c.k)).2) := by
  have hinv : Inv e (hist.foldl (apply e) (construct e s dt ty k)) c := by
    rw [hc]
    have : ∀ (hist : List (Op K S X U)) (d : Disc K S X) (c : Config K S), Inv e d c →
        Inv e (hist.foldl (apply e) d) (hist.foldl Config.apply c) := by
      intro hist
      induction hist with
      | nil => intro d c h; exact h
      | cons op l ih => intro d c h; exact ih _ _ (inv_apply e d c op h)
    exact this _ _ _ (inv_construct e s dt ty k)
  subst hr
  have h := inv_propagate e _ c hinv htype x n u
  exact ⟨h.1, fun a => ⟨_, h.2 a, rfl⟩⟩

example : ∃ (hist : List (Op ℚ Unit ℚ ℚ)) (c : Config ℚ Unit),
    c = hist.foldl Config.apply ⟨1, 4, .plain 0, (), .plain 0⟩ ∧ c.type = c.typeAtSet ∧ hist.length = 4 :=
  ⟨[Op.setType (.plain 1), Op.propagate 0 0 0, Op.changeSystem (), Op.setParameters 2 3], _, rfl, rfl, rfl⟩

/-- C73 is violated by `setIntegrationType`: between plain types it has no effect at all, whatever the
integrators do; the integrator built earlier keeps being used. -/
theorem C73_set_type_violated (e : Env K S X U) (s : S) (dt : K) (i j k n : ℕ) (x : X) (u : U) :
    (∃ d', propagate e (setType (construct e s dt (.plain i) k) (.plain j)) x n u =
      .ok ((e.run (.plain i) s x u (n * dt) k (dt / k)).1, d')) ∧
    propagate e (setType (construct e s dt .eulerSym k) (.plain j)) x n u = .ub := by
  constructor
  · simp [propagate, setType, construct, changeSystem, initIntegrators, IntType.isSym]
  · simp [propagate, setType, construct, changeSystem, initIntegrators, IntType.isSym]

/-- C73 is violated by `clone`: copying any discretiser is undefined behaviour. -/
theorem C73_clone_violated (e : Env K S X U) (d : Disc K S X) : copy e d = .ub := rfl

end CT.Discretizer
