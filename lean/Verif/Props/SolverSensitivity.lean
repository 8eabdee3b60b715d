import Verif.Model.SolverSensitivity
import Verif.Props.SystemInterface
import Verif.Props.Sensitivity

/-!
# Property C120: the linearisation a solver uses is the derivative of its own roll-out

`HasFDerivAt Φ (lin A B) (x, u)` says that `A`, `B` are the Jacobians of `Φ` at `(x, u)`; `IsJac f l t` says
that the linear system `l` supplies the Jacobians of the dynamics `f` at time `t`.
-/

namespace CT.SysIf

open CT.Discretizer (IntType)
open CT.Sens Matrix

variable {ι κ : Type} [Fintype ι] [DecidableEq ι] [Fintype κ] [DecidableEq κ]

/-- Specification: at stage `n`, thread `tid` rolls out some map `Φ`, and thread `tid'`, given the sub-steps
recorded by that roll-out and the held control, answers with the derivative of `Φ`. -/
def LinearisesRollout (e : Env ℝ (Dyn ι κ) (LinSys ι κ ℝ) (ι → ℝ) (κ → ℝ) (AB ι κ ℝ))
    (i : Iface ℝ (Dyn ι κ) (LinSys ι κ ℝ) (ι → ℝ)) (n kSim tid tid' : ℕ) : Prop :=
  ∃ Φ : (ι → ℝ) × (κ → ℝ) → (ι → ℝ), ∀ x u, ∃ i' xs A B,
    propagate e i x n u tid = .ok (Φ (x, u), i') ∧ getSubstates i' tid = .ok xs ∧
    getAandB e i x u (Φ (x, u)) xs (List.replicate xs.length u) n kSim tid' = .ok (A, B) ∧
    HasFDerivAt Φ (lin A B) (x, u)

theorem kindOf_not_sym {ty : IntType} {kd : Kind} (h : kindOf ty = some kd) :
    ty.isSym = false ∧ ty ≠ .rkSym ∧ sensSupported ty = true := by
  rcases ty with k | _ | _
  · refine ⟨rfl, by simp, ?_⟩
    simp only [kindOf] at h
    simp only [sensSupported]
    split at h
    · rename_i hk; rcases hk with rfl | rfl <;> rfl
    · split at h
      · rename_i hk; rcases hk with rfl | rfl <;> rfl
      · cases h
  · cases h
  · cases h

theorem const_eq (kd : Kind) (l : LinSys ι κ ℝ) (hA : ∀ x u t x' u' t', l.dA x u t = l.dA x' u' t')
    (hB : ∀ x u t x' u' t', l.dB x u t = l.dB x' u' t') (dt : ℝ) (x : ι → ℝ) (u : κ → ℝ) (n k : ℕ)
    (xs : List (ι → ℝ)) (us : List (κ → ℝ)) :
    integrateSensitivityConst kd l dt x u n k xs us = integrateSensitivity kd l dt n k xs us := by
  have : rhsConst (l.dA x u (n * dt)) (l.dB x u (n * dt)) xs us = rhs l xs us := by
    funext s t m
    simp only [rhsConst, rhs]
    congr 1; funext y; congr 1; funext v
    rw [hA x u _ y v t, hB x u _ y v t]
  simp only [integrateSensitivityConst, integrateSensitivity, this]

section
variable (isSym : Dyn ι κ → Bool)
  (other : IntType → Dyn ι κ → (ι → ℝ) → (κ → ℝ) → ℝ → ℕ → ℝ → (ι → ℝ) × List (ι → ℝ))
  (otherAB : IntType → LinSys ι κ ℝ → ℝ → (ι → ℝ) → List (ι → ℝ) → List (κ → ℝ) → ℕ → ℕ → Res (AB ι κ ℝ))
  (sym : LinSys ι κ ℝ → ℝ → (ι → ℝ) → (κ → ℝ) → (ι → ℝ) → ℕ → AB ι κ ℝ)

/-- C120 (partial), sensitivity integrator: whatever calls have been made, if the linear system last set
supplies the Jacobians of the nonlinear system last set and an Euler or Runge-Kutta-4 integrator is
configured, then on all threads and at all stages the `A`, `B` obtained from the recorded sub-steps are
exactly the derivative of the roll-out map of that stage,

* with time-varying sensitivities, for all time-invariant systems and, with one sub-step per stage, for all
  systems;
* with constant sensitivities, for systems with constant Jacobians.

Missing: several sub-steps on time-varying systems (`C120_time_violated`), constant sensitivities on
nonlinear systems (`C120_const_violated`), adaptive and symplectic integrators. -/
theorem C120_integrator_partial (s : Dyn ι κ) (l : LinSys ι κ ℝ) (s0 : Settings ℝ)
    (hist : List (Op ℝ (Dyn ι κ) (LinSys ι κ ℝ) (ι → ℝ) (κ → ℝ))) (hcov : ∀ op ∈ hist, Covered s0 op)
    (c : Conf ℝ (Dyn ι κ) (LinSys ι κ ℝ)) (hc : c = hist.foldl Conf.apply ⟨s, l, s0⟩)
    (kd : Kind) (hint : kindOf s0.integrator = some kd) (hint' : kindOf c.set.integrator = some kd)
    (huse : c.set.useSens = true) (hJ : ∀ t, IsJac c.sys c.lin t)
    (hok : (c.set.timeVarying = true ∧ ((∀ x u t t', c.sys x u t = c.sys x u t') ∨ c.set.kSim = 1)) ∨
      ((∀ x u t t', c.sys x u t = c.sys x u t') ∧ (∀ x u t x' u' t', c.lin.dA x u t = c.lin.dA x' u' t') ∧
        ∀ x u t x' u' t', c.lin.dB x u t = c.lin.dB x' u' t')) :
    ∃ i i', initIface (flowEnv isSym other otherAB sym) (construct s l s0) = .ok i ∧
      run (flowEnv isSym other otherAB sym) hist i = .ok i' ∧
      ∀ n, ∀ tid ≤ s0.nThreads, ∀ tid' ≤ s0.nThreads,
        LinearisesRollout (flowEnv isSym other otherAB sym) i' n c.set.kSim tid tid' := by
  obtain ⟨i, i', e1, e2, h⟩ := C119_partial (flowEnv isSym other otherAB sym) s l s0
    (fun _ => (kindOf_not_sym hint).2.2) hist hcov c hc
  refine ⟨i, i', e1, e2, fun n tid htid tid' htid' => ?_⟩
  set dt := c.set.dt / c.set.kSim with hdt
  refine ⟨fun z => (Integration.nSteps (plantStep kd c.sys z.2) z.1 (n * c.set.dt) dt c.set.kSim).1, ?_⟩
  intro x u
  have hns := kindOf_not_sym hint'
  obtain ⟨i2, p1, p2⟩ := ((h tid htid).1 x n u).2 (fun hs => by rw [hns.1] at hs; cases hs)
  have hab := (h tid' htid').2
  rw [if_neg hns.2.1] at p2
  simp only [flowEnv, hint'] at p1 p2
  set xs := recorded kd c.sys u dt c.set.kSim x (n * c.set.dt) with hxs
  have key : ∃ A B, integrateSensitivity kd c.lin dt n c.set.kSim xs (List.replicate xs.length u) = .ok (A, B) ∧
      HasFDerivAt (fun z : (ι → ℝ) × (κ → ℝ) =>
        (Integration.nSteps (plantStep kd c.sys z.2) z.1 (n * c.set.dt) dt c.set.kSim).1) (lin A B) (x, u) := by
    have hti : (∀ x u t t', c.sys x u t = c.sys x u t') ∨ c.set.kSim = 1 := by
      rcases hok with h | h
      · exact h.2
      · exact Or.inl h.1
    rcases hti with hti | hk
    · exact C20_time_invariant_partial kd c.sys c.lin hti hJ dt (n * c.set.dt) n c.set.kSim x u xs _ hxs rfl
    · have hd : dt = c.set.dt := by simp [hdt, hk]
      have := C20_single_step_partial kd c.sys c.lin hJ dt n x u xs (List.replicate xs.length u)
        (by rw [hxs, hk, hd]) rfl
      obtain ⟨A, B, a, b⟩ := this
      refine ⟨A, B, by rw [hk]; exact a, ?_⟩
      rw [hk, ← hd]
      exact b
  obtain ⟨A, B, a, b⟩ := key
  refine ⟨i2, xs, A, B, p1, p2, ?_, b⟩
  rw [hab, if_pos huse]
  simp only [flowEnv, hint']
  rcases hok with h | h
  · rw [if_pos h.1]; exact a
  · by_cases htv : c.set.timeVarying = true
    · rw [if_pos htv]; exact a
    · rw [if_neg htv, const_eq kd c.lin h.2.1 h.2.2]; exact a

/-- C120 (partial), forward Euler approximation: with an Euler integrator making one step per stage, the
approximation is the exact derivative of the roll-out map, for arbitrary nonlinear time-varying systems.

Missing: several sub-steps, and the other approximations, which are not derivatives of what the roll-out
does (C19). -/
theorem C120_forward_euler_partial (s : Dyn ι κ) (l : LinSys ι κ ℝ) (s0 : Settings ℝ)
    (hsup : s0.useSens = true → sensSupported s0.integrator = true)
    (hist : List (Op ℝ (Dyn ι κ) (LinSys ι κ ℝ) (ι → ℝ) (κ → ℝ))) (hcov : ∀ op ∈ hist, Covered s0 op)
    (c : Conf ℝ (Dyn ι κ) (LinSys ι κ ℝ)) (hc : c = hist.foldl Conf.apply ⟨s, l, s0⟩)
    (hint : kindOf c.set.integrator = some .euler) (huse : c.set.useSens = false)
    (hap : c.set.discretization = .forwardEuler) (hk : c.set.kSim = 1) (hJ : ∀ t, IsJac c.sys c.lin t) :
    ∃ i i', initIface (flowEnv isSym other otherAB sym) (construct s l s0) = .ok i ∧
      run (flowEnv isSym other otherAB sym) hist i = .ok i' ∧
      ∀ n, ∀ tid ≤ s0.nThreads, ∀ tid' ≤ s0.nThreads,
        LinearisesRollout (flowEnv isSym other otherAB sym) i' n 1 tid tid' := by
  obtain ⟨i, i', e1, e2, h⟩ := C119_partial (flowEnv isSym other otherAB sym) s l s0 hsup hist hcov c hc
  refine ⟨i, i', e1, e2, fun n tid htid tid' htid' => ?_⟩
  refine ⟨fun z => z.1 + c.set.dt • c.sys z.1 z.2 (n * c.set.dt), fun x u => ?_⟩
  have hns := kindOf_not_sym hint
  obtain ⟨i2, p1, p2⟩ := ((h tid htid).1 x n u).2 (fun hs => by rw [hns.1] at hs; cases hs)
  have hab := (h tid' htid').2
  rw [if_neg hns.2.1] at p2
  simp only [flowEnv, hint, hk, Nat.cast_one, div_one] at p1 p2
  refine ⟨i2, _, _, _, p1, p2, ?_, C19_forward_euler c.sys c.lin c.set.dt n (hJ _) x u⟩
  rw [hab, huse]
  simp [flowEnv, hap, approxEval]

end

/-- The hypotheses of `C120_integrator_partial` and `C120_forward_euler_partial` are met: a linear system
with Runge-Kutta 4, four sub-steps and three threads, reconfigured to another step after a propagation; and
an Euler integrator with one sub-step. -/
example (A : Matrix (Fin 2) (Fin 2) ℝ) (B : Matrix (Fin 2) (Fin 1) ℝ) :
    ∃ (s0 : Settings ℝ) (hist : List (Op ℝ (Dyn (Fin 2) (Fin 1)) (LinSys (Fin 2) (Fin 1) ℝ) (Fin 2 → ℝ) (Fin 1 → ℝ)))
      (c : Conf ℝ (Dyn (Fin 2) (Fin 1)) (LinSys (Fin 2) (Fin 1) ℝ)),
      (∀ op ∈ hist, Covered s0 op) ∧
      c = hist.foldl Conf.apply ⟨fun x u _ => A *ᵥ x + B *ᵥ u, ⟨fun _ _ _ => A, fun _ _ _ => B⟩, s0⟩ ∧
      kindOf s0.integrator = some .rk4 ∧ kindOf c.set.integrator = some .rk4 ∧ c.set.useSens = true ∧
      (∀ t, IsJac c.sys c.lin t) ∧ c.set.timeVarying = true ∧ (∀ x u t t', c.sys x u t = c.sys x u t') ∧
      c.set.kSim = 4 ∧ c.set.dt = 1 / 5 :=
  ⟨⟨3, 1/10, 2, .plain 1, true, true, .tustin⟩,
    [.propagate 0 0 0 3, .configure ⟨3, 1/5, 4, .plain 1, true, true, .tustin⟩], _,
    by simp [Covered], rfl, rfl, rfl, rfl, fun t => isJac_linear A B t, rfl, fun _ _ _ _ => rfl, rfl, rfl⟩

example (A : Matrix (Fin 2) (Fin 2) ℝ) (B : Matrix (Fin 2) (Fin 1) ℝ) :
    ∃ (c : Conf ℝ (Dyn (Fin 2) (Fin 1)) (LinSys (Fin 2) (Fin 1) ℝ)),
      kindOf c.set.integrator = some .euler ∧ c.set.useSens = false ∧
      c.set.discretization = .forwardEuler ∧ c.set.kSim = 1 ∧ (∀ t, IsJac c.sys c.lin t) :=
  ⟨⟨fun x u _ => A *ᵥ x + B *ᵥ u, ⟨fun _ _ _ => A, fun _ _ _ => B⟩,
    ⟨3, 1/10, 1, .plain 0, false, true, .forwardEuler⟩⟩, rfl, rfl, rfl, rfl, fun t => isJac_linear A B t⟩

theorem not_linearises (e : Env ℝ (Dyn ι κ) (LinSys ι κ ℝ) (ι → ℝ) (κ → ℝ) (AB ι κ ℝ))
    (i : Iface ℝ (Dyn ι κ) (LinSys ι κ ℝ) (ι → ℝ)) (n kSim tid tid' : ℕ)
    (Ψ : (ι → ℝ) × (κ → ℝ) → (ι → ℝ)) (rec : (ι → ℝ) → (κ → ℝ) → List (ι → ℝ))
    (hΨ : ∀ x u, ∃ i', propagate e i x n u tid = .ok (Ψ (x, u), i') ∧ getSubstates i' tid = .ok (rec x u))
    (x : ι → ℝ) (u : κ → ℝ) (A A' : Matrix ι ι ℝ) (B B' : Matrix ι κ ℝ)
    (hab : getAandB e i x u (Ψ (x, u)) (rec x u) (List.replicate (rec x u).length u) n kSim tid' = .ok (A, B))
    (hd : HasFDerivAt Ψ (lin A' B') (x, u)) (hne : A ≠ A') :
    ¬ LinearisesRollout e i n kSim tid tid' := by
  rintro ⟨Φ, h⟩
  have hΦ : Φ = Ψ := by
    funext z
    obtain ⟨j, xs, _, _, p, -⟩ := h z.1 z.2
    obtain ⟨j', q, -⟩ := hΨ z.1 z.2
    rw [p] at q
    exact congrArg Prod.fst (Res.ok.inj q)
  subst hΦ
  obtain ⟨j, xs, A1, B1, p, p2, p3, p4⟩ := h x u
  obtain ⟨j', q, q2⟩ := hΨ x u
  rw [p] at q
  cases Res.ok.inj q
  rw [p2] at q2
  cases Res.ok.inj q2
  rw [hab] at p3
  cases Res.ok.inj p3
  exact hne (lin_injective (hd.unique p4)).1.symm

/-- C120 is violated for time-varying systems with several sub-steps: the sensitivity integrator evaluates
the Jacobians of stage `n` at time `n dt / K_sim` instead of `n dt`, for all sub-steps. For `ẋ = t x`, two
Euler sub-steps of length 1 and stage 1 the roll-out map is `x ↦ 12 x` but the answer is `A = 4`. -/
theorem C120_time_violated (isSym : Dyn Unit Unit → Bool) (other) (otherAB) (sym) :
    ∃ (f : Dyn Unit Unit) (l : LinSys Unit Unit ℝ) (s0 : Settings ℝ) (i : Iface ℝ _ _ _),
      (∀ t, IsJac f l t) ∧ kindOf s0.integrator = some .euler ∧ s0.useSens = true ∧ s0.timeVarying = true ∧
      initIface (flowEnv isSym other otherAB sym) (construct f l s0) = .ok i ∧
      ¬ LinearisesRollout (flowEnv isSym other otherAB sym) i 1 s0.kSim 0 0 := by
  let f : Dyn Unit Unit := fun x _ t => t • x
  let l : LinSys Unit Unit ℝ := ⟨fun _ _ t => t • 1, fun _ _ _ => 0⟩
  let s0 : Settings ℝ := ⟨1, 2, 2, .plain 0, true, true, .forwardEuler⟩
  obtain ⟨i, i', e1, e2, h⟩ := C119_partial (flowEnv isSym other otherAB sym) f l s0 (fun _ => rfl) []
    (by simp) _ rfl
  cases Res.ok.inj e2
  refine ⟨f, l, s0, i, ?_, rfl, rfl, rfl, e1, ?_⟩
  · intro t x u
    have h := isJac_linear (t • (1 : Matrix Unit Unit ℝ)) (0 : Matrix Unit Unit ℝ) t x u
    simpa [Matrix.smul_mulVec, f, l] using h
  · refine not_linearises _ i 1 s0.kSim 0 0
      (fun z => (Integration.nSteps (plantStep .euler f z.2) z.1 (1 * 2) (2 / 2) 2).1)
      (fun x u => recorded .euler f u (2 / 2) 2 x (1 * 2)) ?_ 0 0 ((4 : ℝ) • 1) ((12 : ℝ) • 1) 0 0 ?_ ?_ ?_
    · intro x u
      obtain ⟨i2, p1, p2⟩ := ((h 0 (by simp [s0])).1 x 1 u).2 (by intro h; cases h)
      refine ⟨i2, ?_, ?_⟩
      · rw [p1]; simp [flowEnv, kindOf, s0]
      · rw [p2]; simp [flowEnv, kindOf, s0]
    · rw [(h 0 (by simp [s0])).2]
      simp [flowEnv, kindOf, s0, integrateSensitivity, sensLoop, doStep, rhs, recorded, stageStates, idx, l]
      ext
      simp
      norm_num
    · have h := (lin ((12 : ℝ) • (1 : Matrix Unit Unit ℝ)) (0 : Matrix Unit Unit ℝ)).hasFDerivAt (x := (0, 0))
      refine h.congr_of_eventuallyEq (Filter.Eventually.of_forall fun z => ?_)
      ext
      simp [Integration.nSteps, plantStep, Integration.eulerStep, f, Matrix.smul_mulVec]
      ring
    · intro h
      have := congrFun (congrFun h ()) ()
      norm_num at this

/-- C120 is violated with constant sensitivities (`timeVaryingDiscretization` false, the default) on
nonlinear systems: for `ẋ = x²`, two Euler sub-steps of length 1 from `x = 1`, the derivative of the roll-out
is 15 but the answer is `A = 9`. -/
theorem C120_const_violated (isSym : Dyn Unit Unit → Bool) (other) (otherAB) (sym) :
    ∃ (f : Dyn Unit Unit) (l : LinSys Unit Unit ℝ) (s0 : Settings ℝ) (i : Iface ℝ _ _ _),
      (∀ t, IsJac f l t) ∧ (∀ x u t t', f x u t = f x u t') ∧ kindOf s0.integrator = some .euler ∧
      s0.useSens = true ∧ s0.timeVarying = false ∧
      initIface (flowEnv isSym other otherAB sym) (construct f l s0) = .ok i ∧
      ¬ LinearisesRollout (flowEnv isSym other otherAB sym) i 0 s0.kSim 0 0 := by
  let f : Dyn Unit Unit := fun x _ _ => fun _ => x () ^ 2
  let l : LinSys Unit Unit ℝ := ⟨fun x _ _ => (2 * x ()) • 1, fun _ _ _ => 0⟩
  let s0 : Settings ℝ := ⟨1, 2, 2, .plain 0, true, false, .forwardEuler⟩
  obtain ⟨i, i', e1, e2, h⟩ := C119_partial (flowEnv isSym other otherAB sym) f l s0 (fun _ => rfl) []
    (by simp) _ rfl
  cases Res.ok.inj e2
  refine ⟨f, l, s0, i, ?_, fun _ _ _ _ => rfl, rfl, rfl, rfl, e1, ?_⟩
  · intro t x u
    refine hasFDerivAt_scalar (φ := fun y => y ^ 2) (x, u) ?_
    have := hasDerivAt_pow 2 (x ())
    simpa using this
  · refine not_linearises _ i 0 s0.kSim 0 0
      (fun z => (Integration.nSteps (plantStep .euler f z.2) z.1 (0 * 2) (2 / 2) 2).1)
      (fun x u => recorded .euler f u (2 / 2) 2 x (0 * 2)) ?_ (fun _ => 1) 0 ((9 : ℝ) • 1) ((15 : ℝ) • 1) 0 0 ?_ ?_ ?_
    · intro x u
      obtain ⟨i2, p1, p2⟩ := ((h 0 (by simp [s0])).1 x 0 u).2 (by intro h; cases h)
      refine ⟨i2, ?_, ?_⟩
      · rw [p1]; simp [flowEnv, kindOf, s0]
      · rw [p2]; simp [flowEnv, kindOf, s0]
    · rw [(h 0 (by simp [s0])).2]
      simp [flowEnv, kindOf, s0, integrateSensitivityConst, sensLoop, doStep, rhsConst, recorded, stageStates, idx, l]
      ext
      simp
      norm_num
    · have e : (fun z : (Unit → ℝ) × (Unit → ℝ) =>
          (Integration.nSteps (plantStep .euler f z.2) z.1 (0 * 2) (2 / 2) 2).1) =
          fun z => fun _ => (fun y : ℝ => y + y ^ 2 + (y + y ^ 2) ^ 2) (z.1 ()) := by
        funext z w
        simp [Integration.nSteps, plantStep, Integration.eulerStep, f]
      rw [e]
      refine hasFDerivAt_scalar (φ := fun y : ℝ => y + y ^ 2 + (y + y ^ 2) ^ 2) ((fun _ => 1), 0) ?_
      have h1 : HasDerivAt (fun y : ℝ => y + y ^ 2) (1 + 2 * 1) 1 := by
        have := (hasDerivAt_id' (1 : ℝ)).add (hasDerivAt_pow 2 (1 : ℝ))
        exact this.congr_deriv (by norm_num)
      have h2 := h1.add (h1.pow 2)
      refine (h2.congr_deriv ?_)
      norm_num
    · intro h
      have := congrFun (congrFun h ()) ()
      norm_num at this

end CT.SysIf
