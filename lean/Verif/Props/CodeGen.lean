import Verif.Model.CodeGen
import Verif.Props.Cost
import Mathlib.Analysis.Calculus.ContDiff.Basic
import Mathlib.Analysis.Calculus.ContDiff.Operations
import Mathlib.Analysis.Calculus.ContDiff.Polynomial

/-! # C150: functions differentiated by generated code -/

namespace CT.CodeGen

open CT.Cost Matrix

variable {N : ℕ}

/-! ### Specification of the generated code -/

/-- The generated code returns derivatives wherever they exist, and its pattern lists, once each and inside
the matrix, every position where a derivative can be other than zero. -/
structure AD.Faithful (ad : AD N) : Prop where
  jac : ∀ (F : Fun N) (x : Fin N → ℝ) (i : ℕ), i < F.k → ∀ g, IsGrad (fun y => F.f y i) g x →
    ∀ c : Fin N, ad.jac F x (i * N + c) = g c
  hess : ∀ (F : Fun N) (x : Fin N → ℝ) (w : ℕ → ℝ) (g : (Fin N → ℝ) → Fin N → ℝ) (H : Matrix (Fin N) (Fin N) ℝ),
    (∀ y, IsGrad (fun z => ∑ i ∈ Finset.range F.k, w i * F.f z i) (g y) y) → IsJac g H x →
    ∀ r c : Fin N, ad.hess F x w (r * N + c) = H r c
  nodup : ∀ F : Fun N, (ad.pattern F).Nodup
  bounds : ∀ F : Fun N, ∀ p ∈ ad.pattern F, p.1 < F.k ∧ p.2 < N
  zero : ∀ (F : Fun N) (x : Fin N → ℝ) (i : ℕ) (c : Fin N), i < F.k → (i, c.val) ∉ ad.pattern F →
    ad.jac F x (i * N + c) = 0

theorem isGrad_of_differentiable {f : (Fin N → ℝ) → ℝ} {x : Fin N → ℝ} (h : DifferentiableAt ℝ f x) :
    IsGrad f (fun i => fderiv ℝ f x (Pi.single i 1)) x := by
  refine h.hasFDerivAt.congr_fderiv ?_
  ext v
  simp only [gradMap_apply, dotProduct]
  conv_lhs => rw [show v = ∑ i, v i • (Pi.single i (1 : ℝ) : Fin N → ℝ) by
    funext j; simp [Finset.sum_apply, Pi.single_apply]]
  rw [map_sum]
  exact Finset.sum_congr rfl fun i _ => by rw [map_smul, smul_eq_mul, mul_comm]

theorem isJac_rows {k : ℕ} {F : (Fin N → ℝ) → (Fin k → ℝ)} {A : Matrix (Fin k) (Fin N) ℝ} {x : Fin N → ℝ} :
    IsJac F A x ↔ ∀ i, IsGrad (fun y => F y i) (A i) x := by
  rw [IsJac, hasFDerivAt_pi']
  refine forall_congr' fun i => ?_
  rw [IsGrad]
  have : (ContinuousLinearMap.proj i).comp (jacMap A) = gradMap (A i) := by
    ext v; simp [mulVec]
  rw [this]

/-- A function with second derivatives has a gradient and a Hessian at every point. -/
theorem exists_hessian {Φ : (Fin N → ℝ) → ℝ} (h : ContDiff ℝ 2 Φ) :
    ∃ (g : (Fin N → ℝ) → Fin N → ℝ) (H : (Fin N → ℝ) → Matrix (Fin N) (Fin N) ℝ),
      (∀ p, IsGrad Φ (g p) p) ∧ ∀ p, IsJac g (H p) p := by
  have hd : Differentiable ℝ Φ := h.differentiable (by norm_num)
  have h1 : ContDiff ℝ 1 (fderiv ℝ Φ) := h.fderiv_right (by norm_num)
  refine ⟨fun p i => fderiv ℝ Φ p (Pi.single i 1),
    fun p => Matrix.of fun i => fun j => fderiv ℝ (fun q => fderiv ℝ Φ q (Pi.single i 1)) p (Pi.single j 1),
    fun p => isGrad_of_differentiable (hd p), fun p => isJac_rows.2 fun i => ?_⟩
  have : DifferentiableAt ℝ (fun q => fderiv ℝ Φ q (Pi.single i (1 : ℝ))) p :=
    ((h1.differentiable (by norm_num)) p).clm_apply (differentiableAt_const _)
  exact isGrad_of_differentiable this

theorem isJac_unique {k : ℕ} {F : (Fin N → ℝ) → (Fin k → ℝ)} {A B : Matrix (Fin k) (Fin N) ℝ} {x : Fin N → ℝ}
    (h : IsJac F A x) (h' : IsJac F B x) : A = B := by
  ext i j
  exact congrFun (isGrad_unique (isJac_rows.1 h i) (isJac_rows.1 h' i)) j

open Classical in
/-- Faithful generated code exists for every number of inputs: hypotheses `ad.Faithful` can be met. -/
theorem exists_faithful (N : ℕ) : ∃ ad : AD N, ad.Faithful := by
  refine ⟨{ jac := fun F x idx => if h : idx % N < N then
              fderiv ℝ (fun y => F.f y (idx / N)) x (Pi.single ⟨idx % N, h⟩ 1) else 0
            hess := fun F x w idx => if h : idx / N < N ∧ idx % N < N then
              (if e : ∃ gH : ((Fin N → ℝ) → Fin N → ℝ) × Matrix (Fin N) (Fin N) ℝ,
                  (∀ y, IsGrad (fun z => ∑ i ∈ Finset.range F.k, w i * F.f z i) (gH.1 y) y) ∧ IsJac gH.1 gH.2 x
                then e.choose.2 ⟨idx / N, h.1⟩ ⟨idx % N, h.2⟩ else 0) else 0
            pattern := fun F => (List.range F.k).product (List.range N) }, ?_⟩
  constructor
  · intro F x i hi g hg c
    have hN : 0 < N := c.pos
    have e1 : (i * N + c) / N = i := by
      rw [mul_comm, Nat.mul_add_div hN, Nat.div_eq_of_lt c.isLt, add_zero]
    have e2 : (i * N + c) % N = c := by
      rw [mul_comm, Nat.mul_add_mod, Nat.mod_eq_of_lt c.isLt]
    simp only [e1, e2, c.isLt, dif_pos]
    have := HasFDerivAt.fderiv hg
    rw [this]
    simp
  · intro F x w g H hg hH r c
    have hN : 0 < N := c.pos
    have e1 : (r * N + c) / N = (r : ℕ) := by
      rw [mul_comm, Nat.mul_add_div hN, Nat.div_eq_of_lt c.isLt, add_zero]
    have e2 : (r * N + c) % N = (c : ℕ) := by
      rw [mul_comm, Nat.mul_add_mod, Nat.mod_eq_of_lt c.isLt]
    have e : ∃ gH : ((Fin N → ℝ) → Fin N → ℝ) × Matrix (Fin N) (Fin N) ℝ,
        (∀ y, IsGrad (fun z => ∑ i ∈ Finset.range F.k, w i * F.f z i) (gH.1 y) y) ∧ IsJac gH.1 gH.2 x :=
      ⟨(g, H), hg, hH⟩
    have hc := e.choose_spec
    have eg : e.choose.1 = g := by
      funext y
      exact isGrad_unique (hc.1 y) (hg y)
    have hJ := hc.2
    rw [eg] at hJ
    simp only [e1, e2, r.isLt, c.isLt, and_self, dif_pos, e]
    rw [isJac_unique hJ hH]
  · intro F
    exact List.Nodup.product List.nodup_range List.nodup_range
  · intro F p hp
    have := List.mem_product.1 (show (p.1, p.2) ∈ _ from hp)
    simpa using this
  · intro F x i c hi hn
    exact absurd (List.mem_product.2 ⟨List.mem_range.2 hi, List.mem_range.2 c.isLt⟩) hn

/-! ### C150 -/

theorem run_append (ad : AD N) (j : Jit N) (a b : List (JOp N)) :
    Jit.run ad j (a ++ b) = (Jit.run ad j a).bind fun k => Jit.run ad k b := by
  simp only [Jit.run, List.foldlM_append]; rfl

/-- Calls that keep a function that is not compiled. -/
theorem run_waiting (ad : AD N) (f : Fun N) (d : ℕ) (ops : List (JOp N))
    (hu : ∀ g e, JOp.update g e ∉ ops) (hc : ∀ s, JOp.compile s ∉ ops) :
    ∀ j : Jit N, j.tape = some f → j.model = none → j.outputDim = d →
    ∃ k, Jit.run ad j ops = .ok k ∧ k.tape = some f ∧ k.model = none ∧ k.outputDim = d := by
  induction ops with
  | nil => intro j h1 h2 h3; exact ⟨j, rfl, h1, h2, h3⟩
  | cons o ops ih =>
    intro j h1 h2 h3
    cases o with
    | update g e => exact absurd (List.mem_cons_self ..) (hu g e)
    | compile s => exact absurd (List.mem_cons_self ..) (hc s)
    | clone =>
      obtain ⟨k, hk, h⟩ := ih (fun g e h => hu g e (List.mem_cons_of_mem _ h))
        (fun s h => hc s (List.mem_cons_of_mem _ h)) j.copy h1 h2 h3
      exact ⟨k, hk, h⟩

/-- Calls that keep a compiled function. -/
theorem run_compiled (ad : AD N) (f : Fun N) (s : Settings) (d : ℕ) (ops : List (JOp N))
    (hu : ∀ g e, JOp.update g e ∉ ops) :
    ∀ j : Jit N, j.model = some (f, s) → j.outputDim = d →
    ∃ k, Jit.run ad j ops = .ok k ∧ k.model = some (f, s) ∧ k.outputDim = d ∧
      (JOp.clone ∉ ops → k.patternStd = j.patternStd ∧ k.pattern = j.pattern) := by
  induction ops with
  | nil => intro j h1 h2; exact ⟨j, rfl, h1, h2, fun _ => ⟨rfl, rfl⟩⟩
  | cons o ops ih =>
    intro j h1 h2
    have hu' : ∀ g e, JOp.update g e ∉ ops := fun g e h => hu g e (List.mem_cons_of_mem _ h)
    cases o with
    | update g e => exact absurd (List.mem_cons_self ..) (hu g e)
    | compile s' =>
      obtain ⟨k, hk, h3, h4, h5⟩ := ih hu' j h1 h2
      refine ⟨k, ?_, h3, h4, fun hn => h5 fun h => hn (List.mem_cons_of_mem _ h)⟩
      have : Jit.compile ad j s' = .ok j := by simp [Jit.compile, h1]
      simp only [Jit.run, List.foldlM_cons, Jit.step, this, Res.ok_bind]
      exact hk
    | clone =>
      obtain ⟨k, hk, h3, h4, h5⟩ := ih hu' j.copy h1 h2
      exact ⟨k, hk, h3, h4, fun hn => absurd (List.mem_cons_self ..) hn⟩

/-- State reached by setting a function, compiling it and any further calls but `update`. -/
theorem run_all (ad : AD N) (hN : 0 < N) (j : Jit N) (f : Fun N) (d : ℕ) (hd : 0 < d) (s : Settings)
    (mid after : List (JOp N)) (hmu : ∀ g e, JOp.update g e ∉ mid) (hmc : ∀ s, JOp.compile s ∉ mid)
    (hau : ∀ g e, JOp.update g e ∉ after) :
    ∃ k, Jit.run ad j ([.update f d] ++ mid ++ [.compile s] ++ after) = .ok k ∧
      k.model = some (f, s) ∧ k.outputDim = d ∧
      (s.sparseJacobian = true → JOp.clone ∉ after → k.patternStd = ad.pattern f ∧ k.pattern = ad.pattern f) := by
  have hu : j.update f d = { j with outputDim := d, tape := some f, model := none } := by
    simp [Jit.update, hd, hN]
  obtain ⟨k1, r1, t1, m1, o1⟩ := run_waiting ad f d mid hmu hmc (j.update f d) (by rw [hu]) (by rw [hu]) (by rw [hu])
  have r0 : Jit.run ad j [.update f d] = .ok (j.update f d) := rfl
  have hcomp : ∃ k2, Jit.run ad k1 [.compile s] = .ok k2 ∧ k2.model = some (f, s) ∧ k2.outputDim = d ∧
      (s.sparseJacobian = true → k2.patternStd = ad.pattern f ∧ k2.pattern = ad.pattern f) := by
    by_cases hs : s.sparseJacobian = true
    · refine ⟨{ k1 with model := some (f, s), patternStd := ad.pattern f, pattern := ad.pattern f }, ?_, rfl, o1,
        fun _ => ⟨rfl, rfl⟩⟩
      simp [Jit.run, Jit.step, Jit.compile, t1, m1, hs]
    · refine ⟨{ k1 with model := some (f, s) }, ?_, rfl, o1, fun h => absurd h hs⟩
      simp [Jit.run, Jit.step, Jit.compile, t1, m1, hs]
  obtain ⟨k2, r2, m2, o2, p2⟩ := hcomp
  obtain ⟨k3, r3, m3, o3, p3⟩ := run_compiled ad f s d after hau k2 m2 o2
  refine ⟨k3, ?_, m3, o3, fun hs hn => ?_⟩
  · rw [run_append, run_append, run_append, r0]
    change ((Jit.run ad (j.update f d) mid).bind fun k => Jit.run ad k _).bind _ = _
    rw [r1]
    change (Jit.run ad k1 [.compile s]).bind _ = _
    rw [r2]
    exact r3
  · obtain ⟨a, b⟩ := p3 hn
    obtain ⟨c, e⟩ := p2 hs
    exact ⟨a.trans c, b.trans e⟩

/-- C150: whatever was done before, after a function `f` has been set with `update` and compiled, and
whatever is called afterwards except another `update` (copies, further compilations), the object
evaluates `f` and returns its derivatives; which of them are available is decided by the settings of the
first compilation after the `update`. -/
theorem C150_latest (ad : AD N) (hf : ad.Faithful) (hN : 0 < N) (j : Jit N) (f : Fun N) (hd : 0 < f.k)
    (s : Settings) (mid after : List (JOp N)) (hmu : ∀ g e, JOp.update g e ∉ mid) (hmc : ∀ s, JOp.compile s ∉ mid)
    (hau : ∀ g e, JOp.update g e ∉ after) :
    ∃ k, Jit.run ad j ([.update f f.k] ++ mid ++ [.compile s] ++ after) = .ok k ∧
      (∀ x, k.forwardZero x = if s.forwardZero then .ok ((List.range f.k).map (f.f x)) else .exc) ∧
      (∀ x G, (∀ i < f.k, IsGrad (fun y => f.f y i) (G i) x) →
        k.jacobian ad x = if s.jacobian then .ok ((List.range f.k).map G) else .exc) ∧
      (∀ x w g H, (∀ y, IsGrad (fun z => ∑ i ∈ Finset.range f.k, w i * f.f z i) (g y) y) → IsJac g H x →
        k.hessian ad x w = if s.hessian then .ok H else .exc) := by
  obtain ⟨k, hr, hm, ho, -⟩ := run_all ad hN j f f.k hd s mid after hmu hmc hau
  refine ⟨k, hr, fun x => ?_, fun x G hG => ?_, fun x w g H hg hH => ?_⟩
  · simp [Jit.forwardZero, hm]
  · have h0 : k.outputDim ≠ 0 := by omega
    have hl : (List.range f.k).map (fun i (c : Fin N) => ad.jac f x (i * N + c)) = (List.range f.k).map G := by
      refine List.map_congr_left fun i hi => ?_
      funext c
      exact hf.jac f x i (List.mem_range.1 hi) _ (hG i (List.mem_range.1 hi)) c
    simp only [Jit.jacobian, hm, h0, if_false, ho, lt_irrefl, hl, hd.ne']
  · have h0 : k.outputDim ≠ 0 := by omega
    simp only [Jit.hessian, hm, h0, if_false]
    split
    · congr 1
      funext r c
      exact hf.hess f x w g H hg hH r c
    · rfl

/-- Two functions in turn, with copies and a second compilation: the hypotheses of `C150_latest` hold, and the
value is that of the second function. -/
example (ad : AD 1) (hf : ad.Faithful) : ∃ k, Jit.run ad (Jit.new ⟨1, fun x _ => x 0⟩ 1)
    ([.compile { forwardZero := true }] ++ ([.update ⟨2, fun x i => x 0 + i⟩ 2] ++ [.clone] ++
      [.compile { forwardZero := true }] ++ [.compile {}, .clone])) = .ok k ∧
    k.forwardZero (fun _ => 5) = .ok [5, 6] := by
  obtain ⟨k, hr, h, -⟩ := C150_latest ad hf one_pos
    ((Jit.new ⟨1, fun x _ => x 0⟩ 1 : Jit 1).update ⟨1, fun x _ => x 0⟩ 1) ⟨2, fun x i => x 0 + i⟩ two_pos
    { forwardZero := true } [.clone] [.compile {}, .clone] (by simp) (by simp) (by simp)
  obtain ⟨k1, hk1⟩ : ∃ k1, Jit.run ad (Jit.new ⟨1, fun x _ => x 0⟩ 1 : Jit 1) [.compile { forwardZero := true }] = .ok k1 :=
    ⟨_, rfl⟩
  obtain ⟨k2, hr2, h2, -⟩ := C150_latest ad hf one_pos k1 ⟨2, fun x i => x 0 + i⟩ two_pos
    { forwardZero := true } [.clone] [.compile {}, .clone] (by simp) (by simp) (by simp)
  refine ⟨k2, ?_, ?_⟩
  · rw [run_append, hk1]
    exact hr2
  · rw [h2]
    simp [List.range_succ]
    norm_num

/-- C150: before the first compilation of a function, values and derivatives raise an error; those of the
function set before are never returned. -/
theorem C150_uncompiled (ad : AD N) (hN : 0 < N) (j : Jit N) (f : Fun N) (d : ℕ) (hd : 0 < d) (mid : List (JOp N))
    (hmu : ∀ g e, JOp.update g e ∉ mid) (hmc : ∀ s, JOp.compile s ∉ mid) (x : Fin N → ℝ) (w : ℕ → ℝ) :
    ∃ k, Jit.run ad j ([.update f d] ++ mid) = .ok k ∧ k.forwardZero x = .exc ∧ k.jacobian ad x = .exc ∧
      k.hessian ad x w = .exc ∧ k.sparseJacobian ad x = .exc := by
  have hu : j.update f d = { j with outputDim := d, tape := some f, model := none } := by
    simp [Jit.update, hd, hN]
  obtain ⟨k, r1, t1, m1, o1⟩ := run_waiting ad f d mid hmu hmc (j.update f d) (by rw [hu]) (by rw [hu]) (by rw [hu])
  refine ⟨k, ?_, ?_, ?_, ?_, ?_⟩
  · rw [run_append]; exact r1
  all_goals simp [Jit.forwardZero, Jit.jacobian, Jit.hessian, Jit.sparseJacobian, m1]

example : ∃ (mid : List (JOp 1)), mid ≠ [] ∧ (∀ g e, JOp.update g e ∉ mid) ∧ (∀ s, JOp.compile s ∉ mid) :=
  ⟨[.clone], by simp, by simp, by simp⟩

/-- C150, sparse Jacobians: without a copy after the compilation, the values and positions returned
belong together, one value per position, all derivatives not listed are zero, and the number of non-zeros
is the length of both lists. Missing: objects copied after the compilation, see
`C150_clone_violated`. -/
theorem C150_sparse_partial (ad : AD N) (hf : ad.Faithful) (hN : 0 < N) (j : Jit N) (f : Fun N) (hd : 0 < f.k)
    (s : Settings) (hs : s.sparseJacobian = true) (mid after : List (JOp N)) (hmu : ∀ g e, JOp.update g e ∉ mid)
    (hmc : ∀ s, JOp.compile s ∉ mid) (hau : ∀ g e, JOp.update g e ∉ after) (hac : JOp.clone ∉ after)
    (x : Fin N → ℝ) (G : ℕ → Fin N → ℝ) (hG : ∀ i < f.k, IsGrad (fun y => f.f y i) (G i) x) :
    ∃ k k' vals pos, Jit.run ad j ([.update f f.k] ++ mid ++ [.compile s] ++ after) = .ok k ∧
      k.sparseJacobian ad x = .ok (k', vals, pos) ∧ k.getPattern = .ok pos ∧ k.numNonZeros = .ok pos.length ∧
      vals.length = pos.length ∧ pos.Nodup ∧
      (∀ l (h : l < pos.length) (h' : l < vals.length), ∃ hc : pos[l].2 < N,
        pos[l].1 < f.k ∧ vals[l] = G pos[l].1 ⟨pos[l].2, hc⟩) ∧
      (∀ i < f.k, ∀ c : Fin N, (i, c.val) ∉ pos → G i c = 0) := by
  obtain ⟨k, hr, hm, ho, hp⟩ := run_all ad hN j f f.k hd s mid after hmu hmc hau
  obtain ⟨hp1, hp2⟩ := hp hs hac
  have h0 : k.outputDim ≠ 0 := by omega
  refine ⟨k, { k with patternStd := ad.pattern f }, (ad.pattern f).map (fun p => ad.jac f x (p.1 * N + p.2)),
    ad.pattern f, hr, ?_, ?_, ?_, by simp, hf.nodup f, ?_, ?_⟩
  · simp [Jit.sparseJacobian, hm, h0, hs, hp2]
  · simp [Jit.getPattern, hm, hs, hp2]
  · simp [Jit.numNonZeros, hm, hs, hp1]
  · intro l h h'
    obtain ⟨b1, b2⟩ := hf.bounds f _ (List.getElem_mem h)
    refine ⟨b2, b1, ?_⟩
    rw [List.getElem_map]
    exact hf.jac f x _ b1 _ (hG _ b1) ⟨_, b2⟩
  · intro i hi c hn
    rw [← hf.jac f x i hi _ (hG i hi) c]
    exact hf.zero f x i c hi hn

/-- The function `x ↦ x` with its gradient meets the hypotheses of `C150_sparse_partial`. -/
example : ∃ (f : Fun 1) (G : ℕ → Fin 1 → ℝ), 0 < f.k ∧ ∀ x, ∀ i < f.k, IsGrad (fun y => f.f y i) (G i) x := by
  refine ⟨⟨1, fun x _ => x 0⟩, fun _ => 1, one_pos, fun x i _ => ?_⟩
  have := isJac_rows.1 (isJac_id (n := 1) x) 0
  convert this using 1
  funext j
  rw [Subsingleton.elim j 0]
  simp

/-- C150 is violated by copies: for every function with a derivative that can be non-zero, a copy of
the compiled object claims to have no non-zeros and returns values without positions. -/
theorem C150_clone_violated (ad : AD N) (hf : ad.Faithful) (hN : 0 < N) (f : Fun N) (hd : 0 < f.k) (x : Fin N → ℝ)
    (i : ℕ) (hi : i < f.k) (g : Fin N → ℝ) (hg : IsGrad (fun y => f.f y i) g x) (hg0 : g ≠ 0) :
    ∃ k k' vals, Jit.run ad (Jit.new f f.k) [.compile { sparseJacobian := true }, .clone] = .ok k ∧
      k.numNonZeros = .ok 0 ∧ k.getPattern = .ok [] ∧ k.sparseJacobian ad x = .ok (k', vals, []) ∧
      vals ≠ [] := by
  have hn : Jit.new f f.k = ⟨f.k, some f, none, [], []⟩ := by simp [Jit.new, Jit.update, hd, hN]
  have h0 : f.k ≠ 0 := by omega
  refine ⟨⟨f.k, some f, some (f, { sparseJacobian := true }), [], []⟩,
    ⟨f.k, some f, some (f, { sparseJacobian := true }), ad.pattern f, []⟩,
    (ad.pattern f).map (fun p => ad.jac f x (p.1 * N + p.2)), ?_, ?_, ?_, ?_, ?_⟩
  · rw [hn]; rfl
  · rfl
  · rfl
  · simp [Jit.sparseJacobian, h0]
  · intro hnil
    rw [List.map_eq_nil_iff] at hnil
    apply hg0
    funext c
    rw [← hf.jac f x i hi g hg c]
    exact hf.zero f x i c hi (by simp [hnil])

example : ∃ (f : Fun 1) (g : Fin 1 → ℝ), 0 < f.k ∧ IsGrad (fun y => f.f y 0) g 0 ∧ g ≠ 0 := by
  refine ⟨⟨1, fun x _ => x 0⟩, 1, one_pos, ?_, one_ne_zero⟩
  have := isJac_rows.1 (isJac_id (n := 1) 0) 0
  convert this using 1
  funext j
  rw [Subsingleton.elim j 0]
  simp

/-- C150 is violated by a function without outputs: after it has been set, the values of the function
before it are still returned. -/
theorem C150_empty_violated (ad : AD N) (hN : 0 < N) (f g : Fun N) (hd : 0 < f.k) (x : Fin N → ℝ) :
    ∃ k, Jit.run ad (Jit.new f f.k) [.compile { forwardZero := true }, .update g 0] = .ok k ∧
      k.forwardZero x = .ok ((List.range f.k).map (f.f x)) := by
  have hn : Jit.new f f.k = ⟨f.k, some f, none, [], []⟩ := by simp [Jit.new, Jit.update, hd, hN]
  refine ⟨⟨0, some f, some (f, { forwardZero := true }), [], []⟩, ?_, ?_⟩
  · rw [hn]; rfl
  · rfl

end CT.CodeGen
