import Verif.Model.SystemInterface
import Verif.Props.Discretizer
import Verif.Props.DmsGrid
import Verif.Props.DmsVector
import Mathlib.Algebra.Field.Rat

/-!
# Property C119: the solver works on the configured systems, step and method

Specification: `Conf` is what the user has last asked for. A call that the interface refuses (a null
system, another thread count or integrator) asks for nothing.
-/

namespace CT.SysIf

open CT.Discretizer (IntType Disc)

variable {K S L X U M : Type} [Field K]

/-- What the user has asked for: nonlinear system, linear system, settings. -/
structure Conf (K S L : Type) where
  sys : S
  lin : L
  set : Settings K

/-- Effect of a call on what the user has asked for. -/
def Conf.apply (c : Conf K S L) : Op K S L X U → Conf K S L
  | .configure set =>
    if set.nThreads = c.set.nThreads ∧ set.integrator = c.set.integrator then { c with set := set } else c
  | .changeNonlinear (some s) => { c with sys := s }
  | .changeNonlinear none => c
  | .changeLinear (some l) => { c with lin := l }
  | .changeLinear none => c
  | .mutateLinear g => { c with lin := g c.lin }
  | .propagate _ _ _ _ => c

/-- Calls covered by the theorem: the kind of sensitivity computation stays as it was when the solver
was created, and only existing threads are used. -/
def Covered (s0 : Settings K) : Op K S L X U → Prop
  | .configure set => set.useSens = s0.useSens ∧ set.timeVarying = s0.timeVarying
  | .propagate _ _ _ tid => tid ≤ s0.nThreads
  | _ => True

/-- The discretiser configuration requested. -/
def dconf (c : Conf K S L) : Discretizer.Config K S :=
  ⟨c.set.dt, c.set.kSim, c.set.integrator, c.sys, c.set.integrator⟩

def sensOf (set : Settings K) (a : ℕ) : SensObj K :=
  if set.useSens then .integ (set.dt / set.kSim) a set.integrator set.timeVarying
  else .approx set.dt a set.discretization

def TInv (e : Env K S L X U M) (c : Conf K S L) (heap : List L) (t : Thread K S X) : Prop :=
  Discretizer.Inv e.toEnv t.disc (dconf c) ∧ heap[t.lin]? = some c.lin ∧ t.sens = sensOf c.set t.lin

def GInv (e : Env K S L X U M) (s0 : Settings K) (c : Conf K S L) (i : Iface K S L X) : Prop :=
  i.settings = c.set ∧ c.set.useSens = s0.useSens ∧ c.set.timeVarying = s0.timeVarying ∧
  c.set.nThreads = s0.nThreads ∧ i.threads.length = s0.nThreads + 1 ∧
  i.threads.Pairwise (fun a b => a.lin ≠ b.lin) ∧ ∀ t ∈ i.threads, TInv e c i.heap t

theorem init_inv (e : Env K S L X U M) (s : S) (l : L) (set : Settings K)
    (hs : set.useSens = true → sensSupported set.integrator = true) :
    ∃ i, initIface e (construct s l set) = .ok i ∧ GInv e set ⟨s, l, set⟩ i := by
  have h1 : ∀ k, initThread e (construct s l set) k =
      .ok ⟨s, k, Discretizer.construct e.toEnv s set.dt set.integrator set.kSim, sensOf set k⟩ := by
    intro k
    by_cases h : set.useSens = true
    · simp [initThread, construct, h, hs h, sensOf, Settings.simStep]
    · simp [initThread, construct, h, sensOf]
  have h2 := Dms.mapM_ok (List.range (set.nThreads + 1)) (fun k => initThread e (construct s l set) k)
    (fun k => (⟨s, k, Discretizer.construct e.toEnv s set.dt set.integrator set.kSim, sensOf set k⟩ :
      Thread K S X)) (fun k _ => h1 k)
  have h3 : initIface e (construct s l set) = .ok
      { (construct s l set : Iface K S L X) with
        threads := (List.range (set.nThreads + 1)).map fun k => ⟨s, k,
          Discretizer.construct e.toEnv s set.dt set.integrator set.kSim, sensOf set k⟩
        heap := [] ++ List.replicate (set.nThreads + 1) l } := by
    simp only [initIface]
    have : (fun k => initThread e (construct s l set) ((construct s l set : Iface K S L X).heap.length + k)) =
        fun k => initThread e (construct s l set) k := by
      funext k; simp [construct]
    rw [this]
    have h3 : (construct s l set : Iface K S L X).settings.nThreads = set.nThreads := rfl
    rw [h3, h2]
    rfl
  refine ⟨_, h3, ?_⟩
  · refine ⟨rfl, rfl, rfl, rfl, by simp, ?_, ?_⟩
    · rw [List.pairwise_iff_getElem]
      intro a b ha hb hab
      simp
      omega
    · intro t ht
      simp only [List.mem_map, List.mem_range] at ht
      obtain ⟨k, hk, rfl⟩ := ht
      exact ⟨Discretizer.inv_construct _ _ _ _ _, by simp [construct, hk], rfl⟩

theorem modify_fold {T : Type} (addr : T → ℕ) (g : L → L) (ts : List T) (h : List L)
    (hd : ts.Pairwise (fun a b => addr a ≠ addr b)) :
    ∀ t ∈ ts, (ts.foldl (fun h t => h.modify (addr t) g) h)[addr t]? = (h[addr t]?).map g := by
  have hout : ∀ (ts : List T) (h : List L) (a : ℕ), (∀ t ∈ ts, addr t ≠ a) →
      (ts.foldl (fun h t => h.modify (addr t) g) h)[a]? = h[a]? := by
    intro ts
    induction ts with
    | nil => intro h a _; rfl
    | cons t ts ih =>
      intro h a ha
      rw [List.foldl_cons, ih _ _ fun t' ht' => ha t' (List.mem_cons_of_mem _ ht')]
      rw [List.getElem?_modify]
      simp [ha t List.mem_cons_self]
  induction ts generalizing h with
  | nil => intro t ht; cases ht
  | cons t ts ih =>
    intro t' ht'
    rw [List.pairwise_cons] at hd
    rcases List.mem_cons.1 ht' with rfl | ht'
    · rw [List.foldl_cons, hout ts _ _ fun t'' h'' => (hd.1 t'' h'').symm]
      rw [List.getElem?_modify]
      simp
    · rw [List.foldl_cons, ih _ hd.2 t' ht', List.getElem?_modify]
      simp [hd.1 t' ht']

theorem sens_conf (s s' : Settings K) (a : ℕ) (h1 : s'.useSens = s.useSens)
    (h2 : s'.timeVarying = s.timeVarying) (h3 : s'.integrator = s.integrator) :
    (if s'.useSens then ((sensOf s a).setApproximation s'.discretization).setTimeDiscretization s'.simStep
      else ((sensOf s a).setApproximation s'.discretization).setTimeDiscretization s'.dt) = sensOf s' a := by
  cases h : s.useSens <;>
    simp [sensOf, h1, h2, h3, h, SensObj.setApproximation, SensObj.setTimeDiscretization, Settings.simStep]

theorem pairwise_set (ts : List (Thread K S X)) (h : ts.Pairwise (fun a b => a.lin ≠ b.lin)) (k : ℕ)
    (t : Thread K S X) (hk : k < ts.length) (ht : t.lin = ts[k].lin) :
    (ts.set k t).Pairwise (fun a b => a.lin ≠ b.lin) := by
  rw [← List.pairwise_map] at h ⊢
  rw [List.map_set, ht, ← List.getElem_map (fun t : Thread K S X => t.lin) (h := by simpa using hk),
    List.set_getElem_self]
  exact h

theorem apply_inv (e : Env K S L X U M) (s0 : Settings K) (c : Conf K S L) (i : Iface K S L X)
    (op : Op K S L X U) (hop : Covered s0 op) (h : GInv e s0 c i) :
    ∃ i', apply e i op = .ok i' ∧ GInv e s0 (c.apply op) i' := by
  obtain ⟨h1, h2, h3, h4, h5, h6, h7⟩ := h
  have hlen : ¬ i.threads.length < i.settings.nThreads + 1 := by rw [h5, h1, h4]; omega
  cases op with
  | configure set =>
    by_cases hn : set.nThreads = c.set.nThreads
    · by_cases hi : set.integrator = c.set.integrator
      · have hl : ¬ i.threads.length < set.nThreads + 1 := by rw [h5, hn, h4]; omega
        refine ⟨{ i with threads := i.threads.map (confThread set), settings := set }, ?_, ?_⟩
        · simp [apply, configure, h1, hn, hi, hn ▸ hl]
        · simp only [Conf.apply, hn, hi, and_self, if_true]
          refine ⟨rfl, hop.1, hop.2, hn.trans h4, by simpa using h5, ?_, ?_⟩
          · rw [List.pairwise_map]; exact h6
          · intro t ht
            obtain ⟨t, ht', rfl⟩ := List.mem_map.1 ht
            obtain ⟨d1, d2, d3⟩ := h7 t ht'
            refine ⟨?_, d2, ?_⟩
            · have := Discretizer.inv_apply e.toEnv t.disc _ (.setParameters set.dt set.kSim) d1
              simpa [Discretizer.Config.apply, dconf, hi, Discretizer.apply, confThread] using this
            · simp only [confThread, d3]
              exact sens_conf _ _ _ (hop.1.trans h2.symm) (hop.2.trans h3.symm) hi
      · refine ⟨i, by simp [apply, configure, h1, hn, hi], ?_⟩
        simp only [Conf.apply, hn, hi, and_false, if_false]
        exact ⟨h1, h2, h3, h4, h5, h6, h7⟩
    · refine ⟨i, by simp [apply, configure, h1, hn], ?_⟩
      simp only [Conf.apply, hn, false_and, if_false]
      exact ⟨h1, h2, h3, h4, h5, h6, h7⟩
  | changeNonlinear dyn =>
    cases dyn with
    | none => exact ⟨i, rfl, h1, h2, h3, h4, h5, h6, h7⟩
    | some s =>
      refine ⟨_, by simp only [apply, changeNonlinear, hlen, if_false]; rfl, ?_⟩
      refine ⟨h1, h2, h3, h4, by simpa using h5, ?_, ?_⟩
      · rw [List.pairwise_map]; exact h6
      · intro t ht
        obtain ⟨t, ht', rfl⟩ := List.mem_map.1 ht
        obtain ⟨d1, d2, d3⟩ := h7 t ht'
        refine ⟨?_, d2, d3⟩
        rw [h1]
        exact Discretizer.inv_construct _ _ _ _ _
  | changeLinear lin =>
    cases lin with
    | none => exact ⟨i, rfl, h1, h2, h3, h4, h5, h6, h7⟩
    | some l =>
      refine ⟨_, by simp only [apply, changeLinear, hlen, if_false]; rfl, ?_⟩
      refine ⟨h1, h2, h3, h4, by simpa using h5, ?_, ?_⟩
      · rw [List.pairwise_iff_getElem]
        intro a b ha hb hab
        simp
        omega
      · intro t ht
        obtain ⟨k, hk, rfl⟩ := List.mem_mapIdx.1 ht
        obtain ⟨d1, d2, d3⟩ := h7 _ (List.getElem_mem hk)
        refine ⟨d1, by simp [Conf.apply, hk], ?_⟩
        simp only [d3, Conf.apply]
        cases h : c.set.useSens <;> simp [sensOf, h, SensObj.setLinearSystem]
  | mutateLinear g =>
    refine ⟨_, rfl, h1, h2, h3, h4, h5, h6, ?_⟩
    intro t ht
    obtain ⟨d1, d2, d3⟩ := h7 t ht
    refine ⟨d1, ?_, d3⟩
    have := modify_fold (fun t : Thread K S X => t.lin) g i.threads i.heap h6 t ht
    simp only [mutateLinear, Conf.apply]
    rw [this, d2]; rfl
  | propagate x n u tid =>
    have htid : tid < i.threads.length := by rw [h5]; exact Nat.lt_succ_of_le hop
    obtain ⟨d1, d2, d3⟩ := h7 _ (List.getElem_mem htid)
    have hidx : idx i.threads tid = .ok i.threads[tid] := CT.Dms.idx_eq (List.getElem?_eq_getElem htid)
    have hp := Discretizer.inv_propagate e.toEnv _ _ d1 rfl x n u
    by_cases hsym : c.set.integrator.isSym = true → e.isSym c.sys = true
    · have hp' := hp.2 hsym
      refine ⟨_, by simp only [apply, propagate, hidx, Res.ok_bind, hp', Res.pure_eq]; rfl, ?_⟩
      refine ⟨h1, h2, h3, h4, by simpa using h5, ?_, ?_⟩
      · exact pairwise_set _ h6 tid _ htid rfl
      · intro t ht
        rcases List.mem_or_eq_of_mem_set ht with ht | rfl
        · exact h7 t ht
        · exact ⟨d1, d2, d3⟩
    · have hs' : c.set.integrator.isSym = true ∧ e.isSym c.sys = false := by
        simpa using hsym
      have hp' := hp.1 hs'.1 hs'.2
      refine ⟨i, by simp only [apply, propagate, hidx, Res.ok_bind, hp', Res.exc_bind], ?_⟩
      exact ⟨h1, h2, h3, h4, h5, h6, h7⟩

theorem run_inv (e : Env K S L X U M) (s0 : Settings K) (hist : List (Op K S L X U))
    (hcov : ∀ op ∈ hist, Covered s0 op) (c : Conf K S L) (i : Iface K S L X) (h : GInv e s0 c i) :
    ∃ i', run e hist i = .ok i' ∧ GInv e s0 (hist.foldl Conf.apply c) i' := by
  induction hist generalizing c i with
  | nil => exact ⟨i, rfl, h⟩
  | cons op ops ih =>
    obtain ⟨i1, e1, h1⟩ := apply_inv e s0 c i op (hcov op List.mem_cons_self) h
    obtain ⟨i2, e2, h2⟩ := ih (fun o ho => hcov o (List.mem_cons_of_mem _ ho)) _ _ h1
    exact ⟨i2, by simp only [run, e1, Res.ok_bind, e2], h2⟩

/-- C119 (partial): whatever sequence of reconfigurations, system changes, in-place changes of the linear
systems and propagations a solver has made through its interface, on every thread

* propagating a state performs the requested number of sub-steps, of the requested length, with the
  requested integrator, on the nonlinear system last set, and hands out the sub-states of this very
  propagation; a symplectic integrator on a system that is not symplectic throws;
* `A`, `B` are computed with the requested method and step from the linear system last set, including
  later in-place changes of it.

Missing: reconfigurations that switch between sensitivity integrator and approximation
(`C119_switch_violated`) or between time-varying and constant sensitivities
(`C119_time_varying_violated`), and in-place changes of the nonlinear systems
(`C119_instances_violated`). -/
theorem C119_partial (e : Env K S L X U M) (s : S) (l : L) (s0 : Settings K)
    (hs : s0.useSens = true → sensSupported s0.integrator = true)
    (hist : List (Op K S L X U)) (hcov : ∀ op ∈ hist, Covered s0 op) (c : Conf K S L)
    (hc : c = hist.foldl Conf.apply ⟨s, l, s0⟩) :
    ∃ i i', initIface e (construct s l s0) = .ok i ∧ run e hist i = .ok i' ∧
      ∀ tid ≤ s0.nThreads,
        (∀ x n u, (c.set.integrator.isSym = true → e.isSym c.sys = false → propagate e i' x n u tid = .exc) ∧
          ((c.set.integrator.isSym = true → e.isSym c.sys = true) → ∃ i'',
            propagate e i' x n u tid = .ok ((e.run c.set.integrator c.sys x u (n * c.set.dt) c.set.kSim
              (c.set.dt / c.set.kSim)).1, i'') ∧
            getSubstates i'' tid = .ok (if c.set.integrator = .rkSym then []
              else (e.run c.set.integrator c.sys x u (n * c.set.dt) c.set.kSim
                (c.set.dt / c.set.kSim)).2))) ∧
        (∀ x u y xs us n k, getAandB e i' x u y xs us n k tid =
          if c.set.useSens then
            e.integAB c.set.integrator c.set.timeVarying c.lin (c.set.dt / c.set.kSim) x u y xs us n k
          else e.approxAB c.set.discretization c.lin c.set.dt x u y xs us n k) := by
  obtain ⟨i, e1, h1⟩ := init_inv e s l s0 hs
  obtain ⟨i', e2, h2⟩ := run_inv e s0 hist hcov _ _ h1
  rw [← hc] at h2
  obtain ⟨-, -, -, -, h5, -, h7⟩ := h2
  refine ⟨i, i', e1, e2, fun tid htid => ?_⟩
  have htid' : tid < i'.threads.length := by omega
  have hidx : idx i'.threads tid = .ok i'.threads[tid] := CT.Dms.idx_eq (List.getElem?_eq_getElem htid')
  obtain ⟨d1, d2, d3⟩ := h7 _ (List.getElem_mem htid')
  constructor
  · intro x n u
    have hp := Discretizer.inv_propagate e.toEnv _ _ d1 rfl x n u
    constructor
    · intro a b
      simp only [propagate, hidx, Res.ok_bind, hp.1 a b, Res.exc_bind]
    · intro a
      refine ⟨_, by simp only [propagate, hidx, Res.ok_bind, hp.2 a, Res.pure_eq]; rfl, ?_⟩
      simp only [getSubstates]
      rw [CT.Dms.idx_eq (b := _) (by rw [List.getElem?_set_self htid'])]
      rfl
  · intro x u y xs us n k
    simp only [getAandB, hidx, Res.ok_bind, d3, sensOf]
    cases h : c.set.useSens <;> simp [CT.Dms.idx_eq d2]

/-- The hypotheses of `C119_partial` are met by a history with every kind of call. -/
example : ∃ (s0 : Settings ℚ) (hist : List (Op ℚ ℕ ℕ ℚ ℚ)),
    (s0.useSens = true → sensSupported s0.integrator = true) ∧ (∀ op ∈ hist, Covered s0 op) ∧
    hist.length = 6 ∧ s0.nThreads = 3 ∧
    (hist.foldl Conf.apply (⟨5, 7, s0⟩ : Conf ℚ ℕ ℕ)).lin = 20 :=
  ⟨⟨3, 1/10, 4, .plain 1, true, true, .tustin⟩,
    [.propagate 0 0 0 3, .configure ⟨3, 1/5, 2, .plain 1, true, true, .forwardEuler⟩,
      .configure ⟨2, 1/5, 2, .plain 1, true, true, .forwardEuler⟩,
      .changeNonlinear (some 6), .changeLinear (some 10), .mutateLinear (2 * ·)],
    by decide, by simp [Covered], rfl, rfl, rfl⟩

/-- C119 is violated when `configure` switches the sensitivity integrator on or off: the solver keeps the
kind of sensitivity computation it was created with, but runs it with the step meant for the other kind.
Switching on after creation gives the approximation of a step of length `dt / K_sim` although the roll-out
makes `K_sim` of them; switching off gives `K_sim` integration steps of length `dt`. -/
theorem C119_switch_violated (e : Env K S L X U M) (s : S) (l : L) (s0 : Settings K) (b : Bool)
    (hb : s0.useSens = b) (hs : b = true → sensSupported s0.integrator = true) :
    ∃ i i', initIface e (construct s l s0) = .ok i ∧ configure i { s0 with useSens := !b } = .ok i' ∧
      ∀ tid ≤ s0.nThreads, ∀ x u y xs us n k, getAandB e i' x u y xs us n k tid =
        if b then e.integAB s0.integrator s0.timeVarying l s0.dt x u y xs us n k
        else e.approxAB s0.discretization l (s0.dt / s0.kSim) x u y xs us n k := by
  obtain ⟨i, e1, h1, -, -, -, h5, h6, h7⟩ := init_inv e s l s0 (by rw [hb]; exact hs)
  have hl : ¬ i.threads.length < s0.nThreads + 1 := by omega
  refine ⟨i, _, e1, by simp only [configure, h1, ne_eq, not_true, if_false, hl]; rfl, ?_⟩
  intro tid htid x u y xs us n k
  have htid' : tid < i.threads.length := by omega
  obtain ⟨d1, d2, d3⟩ := h7 _ (List.getElem_mem htid')
  have hidx : ∀ f : Thread K S X → Thread K S X, idx (i.threads.map f) tid = .ok (f i.threads[tid]) :=
    fun f => CT.Dms.idx_eq (by simp [htid'])
  simp only [getAandB, hidx, Res.ok_bind, confThread, d3]
  cases b <;> simp [sensOf, hb, SensObj.setApproximation, SensObj.setTimeDiscretization, CT.Dms.idx_eq d2,
    Settings.simStep]

/-- C119 is violated when `configure` changes `timeVaryingDiscretization`: the sensitivity integrator keeps
the value it was created with. -/
theorem C119_time_varying_violated (e : Env K S L X U M) (s : S) (l : L) (s0 : Settings K)
    (hu : s0.useSens = true) (hs : sensSupported s0.integrator = true) (tv : Bool) :
    ∃ i i', initIface e (construct s l s0) = .ok i ∧ configure i { s0 with timeVarying := tv } = .ok i' ∧
      ∀ tid ≤ s0.nThreads, ∀ x u y xs us n k, getAandB e i' x u y xs us n k tid =
        e.integAB s0.integrator s0.timeVarying l (s0.dt / s0.kSim) x u y xs us n k := by
  obtain ⟨i, e1, h1, -, -, -, h5, h6, h7⟩ := init_inv e s l s0 (fun _ => hs)
  have hl : ¬ i.threads.length < s0.nThreads + 1 := by omega
  refine ⟨i, _, e1, by simp only [configure, h1, ne_eq, not_true, if_false, hl]; rfl, ?_⟩
  intro tid htid x u y xs us n k
  have htid' : tid < i.threads.length := by omega
  obtain ⟨d1, d2, d3⟩ := h7 _ (List.getElem_mem htid')
  have hidx : ∀ f : Thread K S X → Thread K S X, idx (i.threads.map f) tid = .ok (f i.threads[tid]) :=
    fun f => CT.Dms.idx_eq (by simp [htid'])
  simp only [getAandB, hidx, Res.ok_bind, confThread, d3]
  simp [sensOf, hu, SensObj.setApproximation, SensObj.setTimeDiscretization, CT.Dms.idx_eq d2,
    Settings.simStep]

/-- C119 is violated by the direct access to the nonlinear systems (`getNonlinearSystemsInstances`): every
thread's discretiser works on its own clone, so in-place changes of the instances never reach the
roll-out, although the instances returned are the changed ones. -/
theorem C119_instances_violated (e : Env K S L X U M) (s : S) (l : L) (s0 : Settings K) (g : S → S)
    (hs : s0.useSens = true → sensSupported s0.integrator = true)
    (hsym : s0.integrator.isSym = false) :
    ∃ i, initIface e (construct s l s0) = .ok i ∧
      (mutateNonlinear i g).threads.map (·.sys) = List.replicate (s0.nThreads + 1) (g s) ∧
      ∀ tid ≤ s0.nThreads, ∀ x n u, ∃ i',
        propagate e (mutateNonlinear i g) x n u tid =
          .ok ((e.run s0.integrator s x u (n * s0.dt) s0.kSim (s0.dt / s0.kSim)).1, i') := by
  obtain ⟨i, e1, h⟩ := init_inv e s l s0 hs
  have hsys : i.threads.map (·.sys) = List.replicate (s0.nThreads + 1) s := by
    have h5 := h.2.2.2.2.1
    rw [List.eq_replicate_iff]
    refine ⟨by simpa using h5, fun b hb => ?_⟩
    simp only [initIface, Res.pure_eq] at e1
    rw [Res.bind_eq_ok] at e1
    obtain ⟨ts, e2, e3⟩ := e1
    cases e3
    have key : ∀ (ks : List ℕ) (ts : List (Thread K S X)),
        ks.mapM (fun k => initThread e (construct s l s0) ((construct s l s0 : Iface K S L X).heap.length + k)) =
          .ok ts → ∀ t ∈ ts, t.sys = s := by
      intro ks
      induction ks with
      | nil => intro ts h t ht; cases h; cases ht
      | cons k ks ih =>
        intro ts h t ht
        rw [List.mapM_cons, Res.bind_eq_ok] at h
        obtain ⟨t1, a1, a2⟩ := h
        rw [Res.bind_eq_ok] at a2
        obtain ⟨ts', a3, a4⟩ := a2
        cases a4
        rcases List.mem_cons.1 ht with rfl | ht
        · simp only [initThread] at a1
          split at a1
          · split at a1
            · cases a1
            · cases a1; rfl
          · cases a1; rfl
        · exact ih _ a3 t ht
    obtain ⟨t, ht, rfl⟩ := List.mem_map.1 hb
    exact key _ _ e2 t ht
  obtain ⟨h1, -, -, -, h5, h6, h7⟩ := h
  refine ⟨i, e1, ?_, fun tid htid x n u => ?_⟩
  · have : (mutateNonlinear i g).threads.map (·.sys) = (i.threads.map (·.sys)).map g := by
      simp [mutateNonlinear, Function.comp_def]
    rw [this, hsys, List.map_replicate]
  · have htid' : tid < i.threads.length := by omega
    obtain ⟨d1, d2, d3⟩ := h7 _ (List.getElem_mem htid')
    have hidx : idx (mutateNonlinear i g).threads tid =
        .ok { i.threads[tid] with sys := g i.threads[tid].sys } := CT.Dms.idx_eq (by simp [mutateNonlinear, htid'])
    have hp := Discretizer.inv_propagate e.toEnv _ _ d1 rfl x n u
    have hp' := hp.2 (by intro h; simp only [dconf] at h; rw [hsym] at h; cases h)
    exact ⟨_, by simp only [propagate, hidx, Res.ok_bind, hp', Res.pure_eq]; rfl⟩

/-- C119, calls in the wrong order: before `initialize`, changing a system throws and reconfiguring is
undefined behaviour. -/
theorem C119_before_initialize (e : Env K S L X U M) (s : S) (l : L) (s0 set : Settings K) (s' : S) (l' : L) :
    changeNonlinear e (construct s l s0) (some s') = .exc ∧
    changeLinear (construct s l s0 : Iface K S L X) (some l') = .exc ∧
    (set.nThreads = s0.nThreads → set.integrator = s0.integrator →
      configure (construct s l s0 : Iface K S L X) set = .ub) := by
  refine ⟨by simp [changeNonlinear, construct], by simp [changeLinear, construct], fun a b => ?_⟩
  simp [configure, construct, a, b]

/-- Effect of a call on the systems the user of a discrete-time solver has asked for. -/
def want (c : S × L) : DOp S L → S × L
  | .configure _ => c
  | .changeNonlinear (some s) => (s, c.2)
  | .changeNonlinear none => c
  | .changeLinear (some l) => (c.1, l)
  | .changeLinear none => c
  | .mutateNonlinear g => (g c.1, c.2)
  | .mutateLinear g => (c.1, g c.2)

/-- C119, discrete time: whatever calls have been made, every thread propagates with the nonlinear system
last set and linearises with the linear system last set, in-place changes through the instance accessors
included. -/
theorem C119_discrete (step : S → X → ℕ → U → X) (ab : L → X → U → X → ℕ → ℕ → M) (s : S) (l : L) (N : ℕ)
    (hist : List (DOp S L)) (i : DIface S L)
    (hi : i = hist.foldl DIface.apply (DIface.init ⟨s, l, N, [], []⟩)) (tid : ℕ) (htid : tid ≤ N) :
    (∀ x n u, i.propagate step x n u tid = .ok (step (hist.foldl want (s, l)).1 x n u)) ∧
    (∀ x u y n k, i.getAandB ab x u y n k tid = .ok (ab (hist.foldl want (s, l)).2 x u y n k)) := by
  have key : ∀ (hist : List (DOp S L)) (i : DIface S L) (c : S × L),
      i.nThreads = N ∧ i.systems = List.replicate (N + 1) c.1 ∧ i.linears = List.replicate (N + 1) c.2 →
      (hist.foldl DIface.apply i).nThreads = N ∧
      (hist.foldl DIface.apply i).systems = List.replicate (N + 1) (hist.foldl want c).1 ∧
      (hist.foldl DIface.apply i).linears = List.replicate (N + 1) (hist.foldl want c).2 := by
    intro hist
    induction hist with
    | nil => intro i c h; exact h
    | cons op hist ih =>
      intro i c h
      refine ih _ _ ?_
      obtain ⟨a, b, d⟩ := h
      rcases op with n | (_ | s') | (_ | l') | g | g
      · by_cases hn : n = N <;>
          simp [DIface.apply, DIface.configure, want, a, b, d, hn]
      all_goals simp [DIface.apply, DIface.changeNonlinear, DIface.changeLinear, DIface.mutateNonlinear,
        DIface.mutateLinear, want, a, b, d]
  obtain ⟨-, h2, h3⟩ := key hist (DIface.init ⟨s, l, N, [], []⟩) (s, l) ⟨rfl, rfl, rfl⟩
  rw [← hi] at h2 h3
  have hlt : tid < N + 1 := by omega
  constructor
  · intro x n u
    rw [DIface.propagate, CT.Dms.idx_eq (b := (hist.foldl want (s, l)).1) (by rw [h2]; simp [hlt])]
    rfl
  · intro x u y n k
    rw [DIface.getAandB, CT.Dms.idx_eq (b := (hist.foldl want (s, l)).2) (by rw [h3]; simp [hlt])]
    rfl

end CT.SysIf
