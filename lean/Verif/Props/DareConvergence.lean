import Verif.Props.Lqr
import Mathlib.Topology.Instances.Matrix
import Mathlib.Topology.Algebra.InfiniteSum.Real
import Mathlib.Topology.Order.MonotoneConvergence
import Mathlib.Analysis.SpecificLimits.Basic

/-!
# Convergence of the steady-state Riccati iteration (C171)
-/

namespace CT.Lqr

open Matrix CT.Riccati Filter Topology

variable {n m : Nat}

/-! ### Specification -/

/-- The states of `x⁺ = A x + B u` under a sequence of controls. -/
def states (A : Matrix (Fin n) (Fin n) ℝ) (B : Matrix (Fin n) (Fin m) ℝ) (x : Fin n → ℝ) (w : ℕ → Fin m → ℝ) :
    ℕ → Fin n → ℝ
  | 0 => x
  | j + 1 => A *ᵥ states A B x w j + B *ᵥ w j

/-- The cost of the first `N` stages. -/
noncomputable def runningCost (Q : Matrix (Fin n) (Fin n) ℝ) (R : Matrix (Fin m) (Fin m) ℝ) (A : Matrix (Fin n) (Fin n) ℝ)
    (B : Matrix (Fin n) (Fin m) ℝ) (x : Fin n → ℝ) (w : ℕ → Fin m → ℝ) (N : ℕ) : ℝ :=
  ∑ j ∈ Finset.range N, (states A B x w j ⬝ᵥ (Q *ᵥ states A B x w j) + w j ⬝ᵥ (R *ᵥ w j))

/-- Every state can be controlled at finite total cost. -/
def FiniteCost (Q : Matrix (Fin n) (Fin n) ℝ) (R : Matrix (Fin m) (Fin m) ℝ) (A : Matrix (Fin n) (Fin n) ℝ)
    (B : Matrix (Fin n) (Fin m) ℝ) : Prop :=
  ∀ x, ∃ w c, ∀ N, runningCost Q R A B x w N ≤ c

/-- The states under the feedback `u = K x`. -/
def closedLoop (A : Matrix (Fin n) (Fin n) ℝ) (B : Matrix (Fin n) (Fin m) ℝ) (K : Matrix (Fin m) (Fin n) ℝ)
    (x : Fin n → ℝ) : ℕ → Fin n → ℝ
  | 0 => x
  | j + 1 => A *ᵥ closedLoop A B K x j + B *ᵥ (K *ᵥ closedLoop A B K x j)

/-- Detectability: a motion along which controls and state cost vanish vanishes itself. -/
def Detectable (Q A : Matrix (Fin n) (Fin n) ℝ) (B : Matrix (Fin n) (Fin m) ℝ) : Prop :=
  ∀ x w, Tendsto w atTop (𝓝 0) → Tendsto (fun j => states A B x w j ⬝ᵥ (Q *ᵥ states A B x w j)) atTop (𝓝 0) →
    Tendsto (states A B x w) atTop (𝓝 0)

/-- The norm the solver uses: the largest absolute value of a coefficient. -/
def IsMaxAbs (norm : Matrix (Fin n) (Fin n) ℝ → ℝ) : Prop :=
  ∀ M, (∀ i j, |M i j| ≤ norm M) ∧ ∃ i j, norm M = |M i j|

/-- `P` is the least total cost over an infinite horizon and `K` the feedback that attains it. -/
structure SteadyState (Q : Matrix (Fin n) (Fin n) ℝ) (R : Matrix (Fin m) (Fin m) ℝ) (A : Matrix (Fin n) (Fin n) ℝ)
    (B : Matrix (Fin n) (Fin m) ℝ) (P : Matrix (Fin n) (Fin n) ℝ) (K : Matrix (Fin m) (Fin n) ℝ) : Prop where
  psd : Psd P
  least : ∀ x w c, (∀ N, runningCost Q R A B x w N ≤ c) → x ⬝ᵥ (P *ᵥ x) ≤ c
  attained : ∀ x N, runningCost Q R A B x (fun j => K *ᵥ closedLoop A B K x j) N ≤ x ⬝ᵥ (P *ᵥ x)

/-! ### Dynamic programming -/

/-- Cost of `N` stages with a terminal weight. -/
noncomputable def costT (Q : Matrix (Fin n) (Fin n) ℝ) (R : Matrix (Fin m) (Fin m) ℝ) (A : Matrix (Fin n) (Fin n) ℝ)
    (B : Matrix (Fin n) (Fin m) ℝ) (T : Matrix (Fin n) (Fin n) ℝ) (N : ℕ) (x : Fin n → ℝ) (w : ℕ → Fin m → ℝ) : ℝ :=
  runningCost Q R A B x w N + states A B x w N ⬝ᵥ (T *ᵥ states A B x w N)

section

variable {Q : Matrix (Fin n) (Fin n) ℝ} {R : Matrix (Fin m) (Fin m) ℝ} {A : Matrix (Fin n) (Fin n) ℝ}
  {B : Matrix (Fin n) (Fin m) ℝ}

theorem states_succ (x : Fin n → ℝ) (w : ℕ → Fin m → ℝ) (j : ℕ) :
    states A B x w (j + 1) = states A B (A *ᵥ x + B *ᵥ w 0) (fun i => w (i + 1)) j := by
  induction j with
  | zero => rfl
  | succ j ih => rw [states, ih, states]

theorem runningCost_succ (x : Fin n → ℝ) (w : ℕ → Fin m → ℝ) (N : ℕ) :
    runningCost Q R A B x w (N + 1) = x ⬝ᵥ (Q *ᵥ x) + w 0 ⬝ᵥ (R *ᵥ w 0)
      + runningCost Q R A B (A *ᵥ x + B *ᵥ w 0) (fun i => w (i + 1)) N := by
  unfold runningCost
  rw [Finset.sum_range_succ']
  simp only [states_succ]
  rw [states]
  exact add_comm _ _

theorem costT_succ (T : Matrix (Fin n) (Fin n) ℝ) (N : ℕ) (x : Fin n → ℝ) (w : ℕ → Fin m → ℝ) :
    costT Q R A B T (N + 1) x w = x ⬝ᵥ (Q *ᵥ x) + w 0 ⬝ᵥ (R *ᵥ w 0)
      + costT Q R A B T N (A *ᵥ x + B *ᵥ w 0) (fun i => w (i + 1)) := by
  unfold costT
  rw [runningCost_succ, states_succ]
  ring

/-- The map of the iteration. -/
noncomputable def ric (Q : Matrix (Fin n) (Fin n) ℝ) (R : Matrix (Fin m) (Fin m) ℝ) (A : Matrix (Fin n) (Fin n) ℝ)
    (B : Matrix (Fin n) (Fin m) ℝ) (P : Matrix (Fin n) (Fin n) ℝ) : Matrix (Fin n) (Fin n) ℝ := (iterateNaive Q R A B P).1

theorem iter_psd (hQ : Psd Q) (hR : Pd R) {P : Matrix (Fin n) (Fin n) ℝ} (hP : Psd P) (N : ℕ) :
    Psd ((ric Q R A B)^[N] P) := by
  induction N with
  | zero => exact hP
  | succ N ih => rw [Function.iterate_succ']; exact naive_psd hQ hR ih

theorem iter_le (hQ : Psd Q) (hR : Pd R) {P : Matrix (Fin n) (Fin n) ℝ} (hP : Psd P) (N : ℕ) (x : Fin n → ℝ)
    (w : ℕ → Fin m → ℝ) : x ⬝ᵥ ((ric Q R A B)^[N] P *ᵥ x) ≤ costT Q R A B P N x w := by
  induction N generalizing x w with
  | zero => simp [costT, runningCost, states]
  | succ N ih =>
    have hN := iter_psd (A := A) (B := B) hQ hR hP N
    rw [Function.iterate_succ', Function.comp, costT_succ]
    have h1 := ih (A *ᵥ x + B *ᵥ w 0) (fun i => w (i + 1))
    have h2 := ((C41_naive_step Q R A B _ hQ hR hN x).2 (w 0)).1
    unfold ric at *
    linarith

theorem iter_attained (hQ : Psd Q) (hR : Pd R) {P : Matrix (Fin n) (Fin n) ℝ} (hP : Psd P) (N : ℕ) (x : Fin n → ℝ) :
    ∃ w, x ⬝ᵥ ((ric Q R A B)^[N] P *ᵥ x) = costT Q R A B P N x w := by
  induction N generalizing x with
  | zero => exact ⟨0, by simp [costT, runningCost, states]⟩
  | succ N ih =>
    have hN := iter_psd (A := A) (B := B) hQ hR hP N
    let u := (iterateNaive Q R A B ((ric Q R A B)^[N] P)).2 *ᵥ x
    obtain ⟨w, hw⟩ := ih (A *ᵥ x + B *ᵥ u)
    refine ⟨fun j => Nat.casesOn j u w, ?_⟩
    rw [Function.iterate_succ', Function.comp, costT_succ]
    have h2 := ((C41_naive_step Q R A B _ hQ hR hN x).2 u).2.2 rfl
    show x ⬝ᵥ ((iterateNaive Q R A B ((ric Q R A B)^[N] P)).1 *ᵥ x) = _
    rw [h2, hw]
    rfl

theorem iter_mono (hQ : Psd Q) (hR : Pd R) {P P' : Matrix (Fin n) (Fin n) ℝ} (hP : Psd P) (hP' : Psd P')
    (h : ∀ x, x ⬝ᵥ (P *ᵥ x) ≤ x ⬝ᵥ (P' *ᵥ x)) (N : ℕ) (x : Fin n → ℝ) :
    x ⬝ᵥ ((ric Q R A B)^[N] P *ᵥ x) ≤ x ⬝ᵥ ((ric Q R A B)^[N] P' *ᵥ x) := by
  obtain ⟨w, hw⟩ := iter_attained (A := A) (B := B) hQ hR hP' N x
  rw [hw]
  refine (iter_le hQ hR hP N x w).trans ?_
  unfold costT
  have := h (states A B x w N)
  linarith

theorem psd_zero {k : ℕ} : Psd (0 : Matrix (Fin k) (Fin k) ℝ) := ⟨by simp, fun v => by simp⟩

theorem costT_zero (N : ℕ) (x : Fin n → ℝ) (w : ℕ → Fin m → ℝ) :
    costT Q R A B 0 N x w = runningCost Q R A B x w N := by simp [costT]

theorem runningCost_mono (hQ : Psd Q) (hR : Pd R) (x : Fin n → ℝ) (w : ℕ → Fin m → ℝ) :
    Monotone (runningCost Q R A B x w) := by
  refine monotone_nat_of_le_succ fun N => ?_
  unfold runningCost
  rw [Finset.sum_range_succ]
  have h1 := hQ.2 (states A B x w N)
  have h2 := hR.psd.2 (w N)
  linarith

theorem iter_zero_mono (hQ : Psd Q) (hR : Pd R) (x : Fin n → ℝ) :
    Monotone fun N => x ⬝ᵥ ((ric Q R A B)^[N] 0 *ᵥ x) := by
  refine monotone_nat_of_le_succ fun N => ?_
  obtain ⟨w, hw⟩ := iter_attained (A := A) (B := B) hQ hR psd_zero (N + 1) x
  have h1 := iter_le (A := A) (B := B) hQ hR psd_zero N x w
  show _ ≤ x ⬝ᵥ ((ric Q R A B)^[N + 1] 0 *ᵥ x)
  rw [hw, costT_zero]
  rw [costT_zero] at h1
  exact h1.trans (runningCost_mono hQ hR x w (Nat.le_succ N))

theorem ric_zero (hQ : Qᵀ = Q) : ric Q R A B 0 = Q := by
  unfold ric iterateNaive
  simp [hQ]
  rw [← two_smul ℝ, smul_smul]
  norm_num

/-! ### Convergence of matrices -/

/-- Entries of a symmetric matrix from its quadratic form. -/
theorem entry_eq {k : ℕ} {M : Matrix (Fin k) (Fin k) ℝ} (hM : Mᵀ = M) (i j : Fin k) :
    M i j = ((Pi.single i 1 + Pi.single j 1) ⬝ᵥ (M *ᵥ (Pi.single i 1 + Pi.single j 1)) - Pi.single i 1 ⬝ᵥ (M *ᵥ Pi.single i 1)
      - Pi.single j 1 ⬝ᵥ (M *ᵥ Pi.single j 1)) / 2 := by
  have hs : M j i = M i j := congrFun (congrFun hM i) j
  simp [mulVec_add, add_dotProduct, dotProduct_add, hs]
  ring

theorem form_ext {k : ℕ} {M M' : Matrix (Fin k) (Fin k) ℝ} (hM : Mᵀ = M) (hM' : M'ᵀ = M')
    (h : ∀ x, x ⬝ᵥ (M *ᵥ x) = x ⬝ᵥ (M' *ᵥ x)) : M = M' := by
  ext i j
  rw [entry_eq hM, entry_eq hM', h, h, h]

theorem tendsto_of_form {k : ℕ} {P : ℕ → Matrix (Fin k) (Fin k) ℝ} {M : Matrix (Fin k) (Fin k) ℝ} (hP : ∀ N, (P N)ᵀ = P N)
    (hM : Mᵀ = M) (h : ∀ x, Tendsto (fun N => x ⬝ᵥ (P N *ᵥ x)) atTop (𝓝 (x ⬝ᵥ (M *ᵥ x)))) : Tendsto P atTop (𝓝 M) := by
  refine tendsto_pi_nhds.2 fun i => tendsto_pi_nhds.2 fun j => ?_
  rw [entry_eq hM i j]
  simp only [fun N => entry_eq (hP N) i j]
  exact (((h _).sub (h _)).sub (h _)).div_const 2

theorem form_tendsto {k : ℕ} {P : ℕ → Matrix (Fin k) (Fin k) ℝ} {M : Matrix (Fin k) (Fin k) ℝ} (h : Tendsto P atTop (𝓝 M))
    (x : Fin k → ℝ) : Tendsto (fun N => x ⬝ᵥ (P N *ᵥ x)) atTop (𝓝 (x ⬝ᵥ (M *ᵥ x))) := by
  have hc : Continuous fun M : Matrix (Fin k) (Fin k) ℝ => x ⬝ᵥ (M *ᵥ x) :=
    continuous_const.dotProduct (continuous_id.matrix_mulVec continuous_const)
  exact (hc.tendsto M).comp h

/-- The limit of a sequence whose quadratic forms converge. -/
theorem exists_limit {k : ℕ} {P : ℕ → Matrix (Fin k) (Fin k) ℝ} (hP : ∀ N, Psd (P N))
    (h : ∀ x, ∃ l, Tendsto (fun N => x ⬝ᵥ (P N *ᵥ x)) atTop (𝓝 l)) : ∃ M, Psd M ∧ Tendsto P atTop (𝓝 M) := by
  choose l hl using h
  let M : Matrix (Fin k) (Fin k) ℝ := Matrix.of fun i j =>
    (l (Pi.single i 1 + Pi.single j 1) - l (Pi.single i 1) - l (Pi.single j 1)) / 2
  have ht : Tendsto P atTop (𝓝 M) := by
    refine tendsto_pi_nhds.2 fun i => tendsto_pi_nhds.2 fun j => ?_
    simp only [fun N => entry_eq (hP N).1 i j]
    exact (((hl _).sub (hl _)).sub (hl _)).div_const 2
  refine ⟨M, ⟨?_, fun x => ?_⟩, ht⟩
  · ext i j
    simp only [M, transpose_apply, of_apply]
    rw [add_comm (Pi.single j 1 : Fin k → ℝ)]
    ring
  · exact ge_of_tendsto' (form_tendsto ht x) fun N => (hP N).2 x

theorem inv_continuousAt {k : ℕ} {H : Matrix (Fin k) (Fin k) ℝ} (h : IsUnit H.det) :
    ContinuousAt (fun H : Matrix (Fin k) (Fin k) ℝ => H⁻¹) H := by
  simp only [Matrix.inv_def, Ring.inverse_eq_inv']
  have h1 : Continuous fun H : Matrix (Fin k) (Fin k) ℝ => H.det := continuous_id.matrix_det
  have h2 : Continuous fun H : Matrix (Fin k) (Fin k) ℝ => H.adjugate := continuous_id.matrix_adjugate
  exact (h1.continuousAt.inv₀ h.ne_zero).smul h2.continuousAt

theorem gain_continuousAt (hR : Pd R) {P : Matrix (Fin n) (Fin n) ℝ} (hP : Psd P) :
    ContinuousAt (fun P => (iterateNaive Q R A B P).2) P := by
  simp only [iterateNaive]
  have hH : Continuous fun P : Matrix (Fin n) (Fin n) ℝ => R + Bᵀ * P * B := by fun_prop
  have hi : ContinuousAt (fun P : Matrix (Fin n) (Fin n) ℝ => (R + Bᵀ * P * B)⁻¹) P :=
    ContinuousAt.comp (f := fun P : Matrix (Fin n) (Fin n) ℝ => R + Bᵀ * P * B)
      (inv_continuousAt (curv_pd hR hP).isUnit) hH.continuousAt
  fun_prop

theorem ric_continuousAt (hR : Pd R) {P : Matrix (Fin n) (Fin n) ℝ} (hP : Psd P) : ContinuousAt (ric Q R A B) P := by
  have hK : ContinuousAt (fun P => (iterateNaive Q R A B P).2) P := gain_continuousAt hR hP
  have e : ric Q R A B = fun P => (1 / 2 : ℝ) • ((Q + Aᵀ * P * A - ((iterateNaive Q R A B P).2)ᵀ * (R + Bᵀ * P * B) *
      (iterateNaive Q R A B P).2) + (Q + Aᵀ * P * A - ((iterateNaive Q R A B P).2)ᵀ * (R + Bᵀ * P * B) *
      (iterateNaive Q R A B P).2)ᵀ) := rfl
  have hT : Continuous fun p : Matrix (Fin n) (Fin n) ℝ × Matrix (Fin m) (Fin n) ℝ => p.2ᵀ := continuous_snd.matrix_transpose
  have hG : Continuous fun p : Matrix (Fin n) (Fin n) ℝ × Matrix (Fin m) (Fin n) ℝ =>
      Q + Aᵀ * p.1 * A - p.2ᵀ * (R + Bᵀ * p.1 * B) * p.2 := by fun_prop
  have hT2 : Continuous fun M : Matrix (Fin n) (Fin n) ℝ => Mᵀ := continuous_id.matrix_transpose
  have hS : Continuous fun M : Matrix (Fin n) (Fin n) ℝ => (1 / 2 : ℝ) • (M + Mᵀ) := by fun_prop
  rw [e]
  exact ContinuousAt.comp
    (f := fun P => (P, (iterateNaive Q R A B P).2))
    (g := fun p : Matrix (Fin n) (Fin n) ℝ × Matrix (Fin m) (Fin n) ℝ => (1 / 2 : ℝ) •
      ((Q + Aᵀ * p.1 * A - p.2ᵀ * (R + Bᵀ * p.1 * B) * p.2) + (Q + Aᵀ * p.1 * A - p.2ᵀ * (R + Bᵀ * p.1 * B) * p.2)ᵀ))
    (hS.comp hG).continuousAt (continuousAt_id.prodMk hK)

/-! ### The limit -/

/-- The iteration started from zero converges to a fixed point. -/
theorem limit_zero (hQ : Psd Q) (hR : Pd R) (hfin : FiniteCost Q R A B) :
    ∃ M, Psd M ∧ Tendsto (fun N => (ric Q R A B)^[N] 0) atTop (𝓝 M) ∧ ric Q R A B M = M ∧
      ∀ N x, x ⬝ᵥ ((ric Q R A B)^[N] 0 *ᵥ x) ≤ x ⬝ᵥ (M *ᵥ x) := by
  obtain ⟨M, hM, ht⟩ := exists_limit (P := fun N => (ric Q R A B)^[N] 0) (fun N => iter_psd hQ hR psd_zero N) fun x => by
    obtain ⟨w, c, hw⟩ := hfin x
    refine ⟨_, tendsto_atTop_ciSup (iter_zero_mono hQ hR x) ⟨c, ?_⟩⟩
    rintro _ ⟨N, rfl⟩
    exact (iter_le hQ hR psd_zero N x w).trans (by rw [costT_zero]; exact hw N)
  refine ⟨M, hM, ht, ?_, fun N x => ?_⟩
  · have h1 : Tendsto (fun N => (ric Q R A B)^[N + 1] 0) atTop (𝓝 M) := ht.comp (tendsto_add_atTop_nat 1)
    have h2 : Tendsto (fun N => ric Q R A B ((ric Q R A B)^[N] 0)) atTop (𝓝 (ric Q R A B M)) :=
      (ric_continuousAt hR hM).tendsto.comp ht
    simp only [Function.iterate_succ', Function.comp] at h1
    exact tendsto_nhds_unique h2 h1
  · exact (iter_zero_mono hQ hR x).ge_of_tendsto (form_tendsto ht x) N

theorem closedLoop_eq (K : Matrix (Fin m) (Fin n) ℝ) (x : Fin n → ℝ) :
    closedLoop A B K x = states A B x (fun j => K *ᵥ closedLoop A B K x j) := by
  funext j
  induction j with
  | zero => rfl
  | succ j ih => rw [closedLoop, states, ← ih]

/-- Along the closed loop of a fixed point the cost-to-go is spent. -/
theorem fixed_cost (hQ : Psd Q) (hR : Pd R) {M : Matrix (Fin n) (Fin n) ℝ} (hM : Psd M) (hfix : ric Q R A B M = M)
    (x : Fin n → ℝ) (N : ℕ) :
    costT Q R A B M N x (fun j => (iterateNaive Q R A B M).2 *ᵥ closedLoop A B (iterateNaive Q R A B M).2 x j)
      = x ⬝ᵥ (M *ᵥ x) := by
  unfold costT
  rw [← closedLoop_eq]
  induction N with
  | zero => simp [runningCost, closedLoop]
  | succ N ih =>
    set K := (iterateNaive Q R A B M).2 with hK
    rw [← ih]
    unfold runningCost
    rw [Finset.sum_range_succ, ← closedLoop_eq]
    have h := ((C41_naive_step Q R A B M hQ hR hM (closedLoop A B K x N)).2 (K *ᵥ closedLoop A B K x N)).2.2 rfl
    have h' : (iterateNaive Q R A B M).1 = M := hfix
    rw [h'] at h
    rw [h, closedLoop]
    ring

theorem fixed_running (hQ : Psd Q) (hR : Pd R) {M : Matrix (Fin n) (Fin n) ℝ} (hM : Psd M) (hfix : ric Q R A B M = M)
    (x : Fin n → ℝ) (N : ℕ) :
    runningCost Q R A B x (fun j => (iterateNaive Q R A B M).2 *ᵥ closedLoop A B (iterateNaive Q R A B M).2 x j) N
      ≤ x ⬝ᵥ (M *ᵥ x) := by
  rw [← fixed_cost hQ hR hM hfix x N]
  unfold costT
  have := hM.2 (states A B x (fun j => (iterateNaive Q R A B M).2 *ᵥ closedLoop A B (iterateNaive Q R A B M).2 x j) N)
  linarith

/-- The limit is the least total cost. -/
theorem limit_steady (hQ : Psd Q) (hR : Pd R) {M : Matrix (Fin n) (Fin n) ℝ} (hM : Psd M)
    (ht : Tendsto (fun N => (ric Q R A B)^[N] 0) atTop (𝓝 M)) (hfix : ric Q R A B M = M) :
    SteadyState Q R A B M (iterateNaive Q R A B M).2 where
  psd := hM
  least := fun x w c h => le_of_tendsto' (form_tendsto ht x) fun N =>
    (iter_le hQ hR psd_zero N x w).trans (by rw [costT_zero]; exact h N)
  attained := fixed_running hQ hR hM hfix

theorem steady_unique (hQ : Psd Q) (hR : Pd R) {P M : Matrix (Fin n) (Fin n) ℝ} {K L : Matrix (Fin m) (Fin n) ℝ}
    (h : SteadyState Q R A B P K) (h' : SteadyState Q R A B M L) (hfix : ric Q R A B M = M) :
    P = M ∧ K = (iterateNaive Q R A B M).2 := by
  have hPM : P = M := form_ext h.psd.1 h'.psd.1 fun x =>
    le_antisymm (h.least x _ _ (h'.attained x)) (h'.least x _ _ (h.attained x))
  subst hPM
  refine ⟨rfl, ?_⟩
  have hx : ∀ x, K *ᵥ x = (iterateNaive Q R A B P).2 *ᵥ x := by
    intro x
    have hmin := (C41_naive_step Q R A B P hQ hR h.psd x).2 (K *ᵥ x)
    have hfix' : (iterateNaive Q R A B P).1 = P := hfix
    rw [hfix'] at hmin
    refine hmin.2.1 (le_antisymm hmin.1 ?_)
    have h1 : ∀ N, runningCost Q R A B (A *ᵥ x + B *ᵥ (K *ᵥ x)) (fun j => K *ᵥ closedLoop A B K x (j + 1)) N
        ≤ x ⬝ᵥ (P *ᵥ x) - (x ⬝ᵥ (Q *ᵥ x) + (K *ᵥ x) ⬝ᵥ (R *ᵥ (K *ᵥ x))) := by
      intro N
      have h2 := h.attained x (N + 1)
      rw [runningCost_succ] at h2
      simp only [closedLoop] at h2 ⊢
      linarith
    have h3 := h.least _ _ _ h1
    linarith
  ext i j
  have := congrFun (hx (Pi.single j 1)) i
  simpa using this

/-! ### Stability -/

/-- A coordinate is bounded by a positive definite form. -/
theorem pd_coord {k : ℕ} {M : Matrix (Fin k) (Fin k) ℝ} (hM : Pd M) (v : Fin k → ℝ) (i : Fin k) :
    v i ^ 2 ≤ M⁻¹ i i * (v ⬝ᵥ (M *ᵥ v)) := by
  set z := M⁻¹ *ᵥ Pi.single i 1 with hz
  have hMz : M *ᵥ z = Pi.single i 1 := by
    rw [hz, mulVec_mulVec, Matrix.mul_nonsing_inv _ hM.isUnit, one_mulVec]
  have hzi : z i = M⁻¹ i i := by simp [hz]
  have hz0 : z ≠ 0 := by
    intro h0
    rw [h0, mulVec_zero] at hMz
    have := congrFun hMz i
    simp at this
  have hpos : 0 < z i := by
    have := hM.2 z hz0
    rw [hMz] at this
    simpa using this
  have hform : ∀ t : ℝ, (v - t • z) ⬝ᵥ (M *ᵥ (v - t • z)) = v ⬝ᵥ (M *ᵥ v) - 2 * t * v i + t ^ 2 * z i := by
    intro t
    have h1 : z ⬝ᵥ (M *ᵥ v) = v i := by
      rw [bil_sym hM.1, hMz]; simp
    have h2 : v ⬝ᵥ (M *ᵥ z) = v i := by rw [hMz]; simp
    have h3 : z ⬝ᵥ (M *ᵥ z) = z i := by rw [hMz]; simp
    rw [mulVec_sub, mulVec_smul, sub_dotProduct, dotProduct_sub, dotProduct_sub, smul_dotProduct, smul_dotProduct,
      dotProduct_smul, dotProduct_smul, h1, h2, h3]
    simp only [smul_eq_mul]
    ring
  have h0 := hM.psd.2 (v - (v i / z i) • z)
  rw [hform] at h0
  rw [← hzi]
  have e : v ⬝ᵥ (M *ᵥ v) - 2 * (v i / z i) * v i + (v i / z i) ^ 2 * z i = v ⬝ᵥ (M *ᵥ v) - v i ^ 2 / z i := by
    field_simp
    ring
  rw [e, sub_nonneg, div_le_iff₀ hpos] at h0
  linarith

theorem pd_tendsto {k : ℕ} {M : Matrix (Fin k) (Fin k) ℝ} (hM : Pd M) {v : ℕ → Fin k → ℝ}
    (h : Tendsto (fun j => v j ⬝ᵥ (M *ᵥ v j)) atTop (𝓝 0)) : Tendsto v atTop (𝓝 0) := by
  refine tendsto_pi_nhds.2 fun i => ?_
  have h1 : Tendsto (fun j => M⁻¹ i i * (v j ⬝ᵥ (M *ᵥ v j))) atTop (𝓝 0) := by simpa using h.const_mul (M⁻¹ i i)
  have h2 : Tendsto (fun j => v j i ^ 2) atTop (𝓝 0) :=
    squeeze_zero (fun j => sq_nonneg _) (fun j => pd_coord hM (v j) i) h1
  have h3 : Tendsto (fun j => Real.sqrt (v j i ^ 2)) atTop (𝓝 (Real.sqrt 0)) := (Real.continuous_sqrt.tendsto 0).comp h2
  simp only [Real.sqrt_sq_eq_abs, Real.sqrt_zero] at h3
  exact tendsto_zero_iff_abs_tendsto_zero _ |>.2 h3

/-- A positive definite state weight sees every motion. -/
theorem detectable_of_pd (hQ : Pd Q) : Detectable Q A B := fun _ _ _ h => pd_tendsto hQ h

theorem stage_vanish (hQ : Psd Q) (hR : Pd R) {x : Fin n → ℝ} {w : ℕ → Fin m → ℝ} {c : ℝ}
    (h : ∀ N, runningCost Q R A B x w N ≤ c) :
    Tendsto (fun j => states A B x w j ⬝ᵥ (Q *ᵥ states A B x w j)) atTop (𝓝 0) ∧
    Tendsto (fun j => w j ⬝ᵥ (R *ᵥ w j)) atTop (𝓝 0) := by
  have h0 : ∀ j, 0 ≤ states A B x w j ⬝ᵥ (Q *ᵥ states A B x w j) + w j ⬝ᵥ (R *ᵥ w j) := fun j =>
    add_nonneg (hQ.2 _) (hR.psd.2 _)
  have hs := (summable_of_sum_range_le h0 h).tendsto_atTop_zero
  exact ⟨squeeze_zero (fun j => hQ.2 _) (fun j => le_add_of_nonneg_right (hR.psd.2 _)) hs,
    squeeze_zero (fun j => hR.psd.2 _) (fun j => le_add_of_nonneg_left (hQ.2 _)) hs⟩

theorem steady_stable (hQ : Psd Q) (hR : Pd R) (hd : Detectable Q A B) {P : Matrix (Fin n) (Fin n) ℝ}
    {K : Matrix (Fin m) (Fin n) ℝ} (h : SteadyState Q R A B P K) (x : Fin n → ℝ) :
    Tendsto (closedLoop A B K x) atTop (𝓝 0) := by
  obtain ⟨h1, h2⟩ := stage_vanish hQ hR (h.attained x)
  rw [closedLoop_eq]
  exact hd x _ (pd_tendsto hR h2) h1

/-- From every initial guess. -/
theorem limit_any (hQ : Psd Q) (hR : Pd R) (hd : Detectable Q A B) {M : Matrix (Fin n) (Fin n) ℝ} (hM : Psd M)
    (ht : Tendsto (fun N => (ric Q R A B)^[N] 0) atTop (𝓝 M)) (hfix : ric Q R A B M = M)
    {P0 : Matrix (Fin n) (Fin n) ℝ} (hP0 : Psd P0) : Tendsto (fun N => (ric Q R A B)^[N] P0) atTop (𝓝 M) := by
  refine tendsto_of_form (fun N => (iter_psd hQ hR hP0 N).1) hM.1 fun x => ?_
  have hst := limit_steady hQ hR hM ht hfix
  set K := (iterateNaive Q R A B M).2
  have hcl := steady_stable hQ hR hd hst x
  have hup : Tendsto (fun N => x ⬝ᵥ (M *ᵥ x) + closedLoop A B K x N ⬝ᵥ (P0 *ᵥ closedLoop A B K x N)) atTop
      (𝓝 (x ⬝ᵥ (M *ᵥ x))) := by
    have hc : Continuous fun v : Fin n → ℝ => v ⬝ᵥ (P0 *ᵥ v) :=
      continuous_id.dotProduct (continuous_const.matrix_mulVec continuous_id)
    have := (hc.tendsto 0).comp hcl
    simp only [mulVec_zero, dotProduct_zero] at this
    simpa using this.const_add (x ⬝ᵥ (M *ᵥ x))
  refine tendsto_of_tendsto_of_tendsto_of_le_of_le (form_tendsto ht x) hup (fun N => ?_) (fun N => ?_)
  · refine iter_mono hQ hR psd_zero hP0 (fun y => ?_) N x
    simpa using hP0.2 y
  · refine (iter_le hQ hR hP0 N x (fun j => K *ᵥ closedLoop A B K x j)).trans ?_
    unfold costT
    rw [← closedLoop_eq]
    have := hst.attained x N
    linarith

end

/-! ### The solver -/

section

variable {Q : Matrix (Fin n) (Fin n) ℝ} {R : Matrix (Fin m) (Fin m) ℝ} {A : Matrix (Fin n) (Fin n) ℝ}
  {B : Matrix (Fin n) (Fin m) ℝ} {eig : Matrix (Fin m) (Fin m) ℝ → Matrix (Fin m) (Fin m) ℝ × (Fin m → ℝ)} {epsH : ℝ}

theorem robust_iter (heig : EigenSolver eig) (heH : 0 < epsH) (hQ : Psd Q) (hR : Psd R) {P0 : Matrix (Fin n) (Fin n) ℝ}
    (hP0 : Psd P0) (N : ℕ) :
    (fun X => (iterateRobust eig epsH Q R A B X).1)^[N] P0 = (ric Q (regularised epsH R) A B)^[N] P0 := by
  induction N with
  | zero => rfl
  | succ N ih =>
    rw [Function.iterate_succ', Function.iterate_succ', Function.comp, Function.comp, ih,
      C41_robust_is_regularised heig heH _ _ _ _ _ hR (iter_psd hQ (regularised_pd heH hR) hP0 N)]
    rfl

theorem solves_of_fix (hR : Pd R) (hQ : Qᵀ = Q) {P : Matrix (Fin n) (Fin n) ℝ} (hP : Psd P) :
    ric Q R A B P = P ↔ SolvesDARE Q R A B P := by
  have hHs := curv_sym (B := B) hR.1 hP.1
  have hHu := (curv_pd (B := B) hR hP).isUnit
  unfold SolvesDARE ric iterateNaive
  simp only
  set H := R + Bᵀ * P * B with hH
  have hHi : (H⁻¹)ᵀ = H⁻¹ := by rw [transpose_nonsing_inv, hHs]
  have hKK : ((-1 : ℝ) • (H⁻¹ * Bᵀ * P * A))ᵀ * H * ((-1 : ℝ) • (H⁻¹ * Bᵀ * P * A))
      = Aᵀ * P * B * H⁻¹ * Bᵀ * P * A := by
    simp only [neg_one_smul, transpose_neg, transpose_mul, hHi, transpose_transpose, hP.1, Matrix.neg_mul,
      Matrix.mul_neg, neg_neg]
    have : H * (H⁻¹ * (Bᵀ * (P * A))) = Bᵀ * (P * A) := by
      rw [← Matrix.mul_assoc, Matrix.mul_nonsing_inv _ hHu, Matrix.one_mul]
    simp only [Matrix.mul_assoc, this]
  have hs : (Q + Aᵀ * P * A - Aᵀ * P * B * H⁻¹ * Bᵀ * P * A)ᵀ
      = Q + Aᵀ * P * A - Aᵀ * P * B * H⁻¹ * Bᵀ * P * A := by
    simp only [transpose_sub, transpose_add, transpose_mul, transpose_transpose, hQ, hP.1, hHi, Matrix.mul_assoc]
  rw [hKK, hs, ← two_smul ℝ, smul_smul]
  norm_num
  exact ⟨fun h => h.symm, fun h => h.symm⟩

/-- C171: whenever every state can be controlled at finite cost, there is exactly one steady state: the least total cost
is a quadratic form, attained by one linear feedback only. -/
theorem C171_exists_unique (hQ : Psd Q) (hR : Pd R) (hfin : FiniteCost Q R A B) :
    ∃! PK : Matrix (Fin n) (Fin n) ℝ × Matrix (Fin m) (Fin n) ℝ, SteadyState Q R A B PK.1 PK.2 := by
  obtain ⟨M, hM, ht, hfix, -⟩ := limit_zero hQ hR hfin
  refine ⟨(M, (iterateNaive Q R A B M).2), limit_steady hQ hR hM ht hfix, ?_⟩
  rintro ⟨P, K⟩ h
  obtain ⟨h1, h2⟩ := steady_unique hQ hR h (limit_steady hQ hR hM ht hfix) hfix
  exact Prod.ext h1 h2

/-- C171: the iteration of the solver, started from `Q`, converges to the least total cost and its gains to the optimal
feedback; the limit is the smallest positive semi-definite solution of the algebraic Riccati equation (for the control
weight the solver works with). -/
theorem C171_converges (heig : EigenSolver eig) (heH : 0 < epsH) (hQ : Psd Q) (hR : Psd R)
    {P : Matrix (Fin n) (Fin n) ℝ} {K : Matrix (Fin m) (Fin n) ℝ} (hs : SteadyState Q (regularised epsH R) A B P K) :
    Tendsto (fun N => (fun X => (iterateRobust eig epsH Q R A B X).1)^[N] Q) atTop (𝓝 P) ∧
    Tendsto (fun N => (iterateRobust eig epsH Q R A B ((fun X => (iterateRobust eig epsH Q R A B X).1)^[N] Q)).2) atTop (𝓝 K) ∧
    SolvesDARE Q (regularised epsH R) A B P ∧
    ∀ X, Psd X → SolvesDARE Q (regularised epsH R) A B X → ∀ x, x ⬝ᵥ (P *ᵥ x) ≤ x ⬝ᵥ (X *ᵥ x) := by
  have hR' := regularised_pd heH hR
  have hfin : FiniteCost Q (regularised epsH R) A B := fun x => ⟨_, _, hs.attained x⟩
  obtain ⟨M, hM, ht, hfix, -⟩ := limit_zero hQ hR' hfin
  obtain ⟨rfl, rfl⟩ := steady_unique hQ hR' hs (limit_steady hQ hR' hM ht hfix) hfix
  have h1 : Tendsto (fun N => (fun X => (iterateRobust eig epsH Q R A B X).1)^[N] Q) atTop (𝓝 P) := by
    have h2 := ht.comp (tendsto_add_atTop_nat 1)
    refine h2.congr fun N => ?_
    show (ric Q (regularised epsH R) A B)^[N + 1] 0 = _
    rw [Function.iterate_succ, Function.comp, ric_zero hQ.1, robust_iter heig heH hQ hR hQ]
  refine ⟨h1, ?_, (solves_of_fix hR' hQ.1 hM).1 hfix, fun X hX hXs x => ?_⟩
  · have h2 := (gain_continuousAt (Q := Q) (A := A) (B := B) hR' hM).tendsto.comp h1
    refine h2.congr fun N => ?_
    have hpsd : Psd ((fun X => (iterateRobust eig epsH Q R A B X).1)^[N] Q) := by
      rw [robust_iter heig heH hQ hR hQ]
      exact iter_psd hQ hR' hQ N
    show (iterateNaive Q (regularised epsH R) A B _).2 = _
    rw [C41_robust_is_regularised heig heH _ _ _ _ _ hR hpsd]
  · have hXf := (solves_of_fix (A := A) (B := B) hR' hQ.1 hX).2 hXs
    refine le_of_tendsto' (form_tendsto ht x) fun N => ?_
    have := iter_mono (A := A) (B := B) hQ hR' psd_zero hX (fun y => by simpa using hX.2 y) N x
    rwa [Function.iterate_fixed hXf] at this

/-- C171: if the cost sees every motion, the optimal feedback brings every state to rest, and the iteration converges to
the same limit from every initial guess. -/
theorem C171_stabilises (heig : EigenSolver eig) (heH : 0 < epsH) (hQ : Psd Q) (hR : Psd R)
    {P : Matrix (Fin n) (Fin n) ℝ} {K : Matrix (Fin m) (Fin n) ℝ} (hs : SteadyState Q (regularised epsH R) A B P K)
    (hd : Detectable Q A B) :
    (∀ x, Tendsto (closedLoop A B K x) atTop (𝓝 0)) ∧
    ∀ P0, Psd P0 → Tendsto (fun N => (fun X => (iterateRobust eig epsH Q R A B X).1)^[N] P0) atTop (𝓝 P) := by
  have hR' := regularised_pd heH hR
  have hfin : FiniteCost Q (regularised epsH R) A B := fun x => ⟨_, _, hs.attained x⟩
  obtain ⟨M, hM, ht, hfix, -⟩ := limit_zero hQ hR' hfin
  obtain ⟨rfl, rfl⟩ := steady_unique hQ hR' hs (limit_steady hQ hR' hM ht hfix) hfix
  refine ⟨steady_stable hQ hR' hd hs, fun P0 hP0 => ?_⟩
  refine (limit_any hQ hR' hd hM ht hfix hP0).congr fun N => ?_
  rw [robust_iter heig heH hQ hR hP0]

/-- The loop ends with a small change as soon as one change is small. -/
theorem dareLoop_ends (step : Matrix (Fin n) (Fin n) ℝ → Matrix (Fin n) (Fin n) ℝ × Matrix (Fin m) (Fin n) ℝ)
    (norm : Matrix (Fin n) (Fin n) ℝ → ℝ) (eps : ℝ) (i it : ℕ) (hi : i < it) (P : Matrix (Fin n) (Fin n) ℝ)
    (K : Matrix (Fin m) (Fin n) ℝ) (diff : ℝ)
    (h : norm ((fun X => (step X).1)^[i + 1] P - (fun X => (step X).1)^[i] P) < eps) :
    (dareLoop step norm eps it P K diff).2.2 < eps := by
  induction i generalizing it P K diff with
  | zero =>
    obtain ⟨it, rfl⟩ : ∃ k, it = k + 1 := ⟨it - 1, by omega⟩
    rw [dareLoop]
    split
    · have h' : norm ((step P).1 - P) < eps := h
      cases it with
      | zero => exact h'
      | succ it => rw [dareLoop, if_neg (not_le.2 h')]; exact h'
    · rename_i hd
      exact not_le.1 hd
  | succ i ih =>
    obtain ⟨it, rfl⟩ : ∃ k, it = k + 1 := ⟨it - 1, by omega⟩
    rw [dareLoop]
    split
    · exact ih it (by omega) _ _ _ h
    · rename_i hd
      exact not_le.1 hd

/-- C171: given enough iterations the solver returns a result, whatever the tolerance. -/
theorem C171_returns (heig : EigenSolver eig) (heH : 0 < epsH) (hQ : Psd Q) (hR : Psd R)
    (hfin : FiniteCost Q (regularised epsH R) A B) {norm : Matrix (Fin n) (Fin n) ℝ → ℝ} (hn : IsMaxAbs norm) {eps : ℝ}
    (he : 0 < eps) (P0 : Matrix (Fin n) (Fin n) ℝ) (hP0 : P0 = Q ∨ Psd P0 ∧ Detectable Q A B) (K0 : Matrix (Fin m) (Fin n) ℝ) :
    ∃ enough, ∀ maxIter, enough ≤ maxIter →
      ∃ P K, dare (iterateRobust eig epsH Q R A B) norm eps maxIter P0 K0 = .ok (P, K) := by
  obtain ⟨⟨P, K⟩, hs, -⟩ := C171_exists_unique hQ (regularised_pd heH hR) hfin
  have ht : Tendsto (fun N => (fun X => (iterateRobust eig epsH Q R A B X).1)^[N] P0) atTop (𝓝 P) := by
    rcases hP0 with rfl | ⟨h, hd⟩
    · exact (C171_converges heig heH hQ hR hs).1
    · exact (C171_stabilises heig heH hQ hR hs hd).2 P0 h
  have hdiff := (ht.comp (tendsto_add_atTop_nat 1)).sub ht
  rw [sub_self] at hdiff
  have hev : ∀ᶠ N in atTop, ∀ i j, |((fun X => (iterateRobust eig epsH Q R A B X).1)^[N + 1] P0
      - (fun X => (iterateRobust eig epsH Q R A B X).1)^[N] P0) i j| < eps := by
    refine eventually_all.2 fun i => eventually_all.2 fun j => ?_
    have h1 := (tendsto_pi_nhds.1 (tendsto_pi_nhds.1 hdiff i) j)
    have h2 := (tendsto_zero_iff_abs_tendsto_zero _).1 h1
    exact h2.eventually (gt_mem_nhds he)
  obtain ⟨N, hN⟩ := hev.exists
  refine ⟨N + 1, fun maxIter hmax => ?_⟩
  have hlt : norm ((fun X => (iterateRobust eig epsH Q R A B X).1)^[N + 1] P0
      - (fun X => (iterateRobust eig epsH Q R A B X).1)^[N] P0) < eps := by
    obtain ⟨i, j, hij⟩ := (hn _).2
    rw [hij]; exact hN i j
  have h := dareLoop_ends (iterateRobust eig epsH Q R A B) norm eps N maxIter (by omega) P0 K0 1 hlt
  refine ⟨(dareLoop (iterateRobust eig epsH Q R A B) norm eps maxIter P0 K0 1).1,
    (dareLoop (iterateRobust eig epsH Q R A B) norm eps maxIter P0 K0 1).2.1, ?_⟩
  unfold dare
  rw [if_neg (not_le.2 h)]

/-- Iterates and gains converge. -/
theorem both_tendsto (heig : EigenSolver eig) (heH : 0 < epsH) (hQ : Psd Q) (hR : Psd R)
    {P : Matrix (Fin n) (Fin n) ℝ} {K : Matrix (Fin m) (Fin n) ℝ} (hs : SteadyState Q (regularised epsH R) A B P K)
    {P0 : Matrix (Fin n) (Fin n) ℝ} (hP0 : P0 = Q ∨ Psd P0 ∧ Detectable Q A B) :
    Tendsto (fun N => (fun X => (iterateRobust eig epsH Q R A B X).1)^[N] P0) atTop (𝓝 P) ∧
    Tendsto (fun N => (iterateRobust eig epsH Q R A B ((fun X => (iterateRobust eig epsH Q R A B X).1)^[N] P0)).2) atTop
      (𝓝 K) := by
  rcases hP0 with rfl | ⟨hP0, hd⟩
  · exact ⟨(C171_converges heig heH hQ hR hs).1, (C171_converges heig heH hQ hR hs).2.1⟩
  · have hR' := regularised_pd heH hR
    have h1 := (C171_stabilises heig heH hQ hR hs hd).2 P0 hP0
    refine ⟨h1, ?_⟩
    have hfin : FiniteCost Q (regularised epsH R) A B := fun x => ⟨_, _, hs.attained x⟩
    obtain ⟨M, hM, ht, hfix, -⟩ := limit_zero hQ hR' hfin
    obtain ⟨rfl, rfl⟩ := steady_unique hQ hR' hs (limit_steady hQ hR' hM ht hfix) hfix
    have h2 := (gain_continuousAt (Q := Q) (A := A) (B := B) hR' hM).tendsto.comp h1
    refine h2.congr fun N => ?_
    have hpsd : Psd ((fun X => (iterateRobust eig epsH Q R A B X).1)^[N] P0) := by
      rw [robust_iter heig heH hQ hR hP0]
      exact iter_psd hQ hR' hP0 N
    show (iterateNaive Q (regularised epsH R) A B _).2 = _
    rw [C41_robust_is_regularised heig heH _ _ _ _ _ hR hpsd]

theorem exists_gap (d : ℕ → ℝ) (M : ℕ) : ∃ e : ℝ, 0 < e ∧ e ≤ 1 ∧ ∀ i < M, 0 < d i → e ≤ d i := by
  induction M with
  | zero => exact ⟨1, one_pos, le_rfl, fun i hi => absurd hi (Nat.not_lt_zero i)⟩
  | succ M ih =>
    obtain ⟨e, he, he1, h⟩ := ih
    by_cases hM : 0 < d M
    · refine ⟨min e (d M), lt_min he hM, (min_le_left _ _).trans he1, fun i hi hd => ?_⟩
      rcases Nat.lt_succ_iff_lt_or_eq.1 hi with h1 | rfl
      · exact (min_le_left _ _).trans (h i h1 hd)
      · exact min_le_right _ _
    · refine ⟨e, he, he1, fun i hi hd => ?_⟩
      rcases Nat.lt_succ_iff_lt_or_eq.1 hi with h1 | rfl
      · exact h i h1 hd
      · exact absurd hd hM

theorem entries_close {k l : ℕ} {X : ℕ → Matrix (Fin k) (Fin l) ℝ} {Y : Matrix (Fin k) (Fin l) ℝ} (h : Tendsto X atTop (𝓝 Y))
    {δ : ℝ} (hδ : 0 < δ) : ∀ᶠ N in atTop, ∀ i j, |X N i j - Y i j| < δ := by
  refine eventually_all.2 fun i => eventually_all.2 fun j => ?_
  have h1 : Tendsto (fun N => X N i j - Y i j) atTop (𝓝 0) := by
    have := (tendsto_pi_nhds.1 (tendsto_pi_nhds.1 h i) j).sub_const (Y i j)
    rwa [sub_self] at this
  exact ((tendsto_zero_iff_abs_tendsto_zero _).1 h1).eventually (gt_mem_nhds hδ)

/-- C171: the results get as close to the least total cost and the optimal feedback as desired by making the tolerance
small enough; there is no need to know how many iterations are allowed. -/
theorem C171_accuracy (heig : EigenSolver eig) (heH : 0 < epsH) (hQ : Psd Q) (hR : Psd R)
    {P : Matrix (Fin n) (Fin n) ℝ} {K : Matrix (Fin m) (Fin n) ℝ} (hs : SteadyState Q (regularised epsH R) A B P K)
    {norm : Matrix (Fin n) (Fin n) ℝ → ℝ} (hn : IsMaxAbs norm) (P0 : Matrix (Fin n) (Fin n) ℝ)
    (hP0 : P0 = Q ∨ Psd P0 ∧ Detectable Q A B) (K0 : Matrix (Fin m) (Fin n) ℝ) {δ : ℝ} (hδ : 0 < δ) :
    ∃ eps0, 0 < eps0 ∧ ∀ eps, eps ≤ eps0 → ∀ maxIter P' K',
      dare (iterateRobust eig epsH Q R A B) norm eps maxIter P0 K0 = .ok (P', K') →
      (∀ i j, |P' i j - P i j| < δ) ∧ ∀ i j, |K' i j - K i j| < δ := by
  obtain ⟨h1, h2⟩ := both_tendsto heig heH hQ hR hs hP0
  set F := fun X => (iterateRobust eig epsH Q R A B X).1 with hF
  obtain ⟨M, hM⟩ := eventually_atTop.1 ((entries_close h1 hδ).and (entries_close h2 hδ))
  obtain ⟨e, he, he1, hgap⟩ := exists_gap (fun i => norm (F^[i + 1] P0 - F^[i] P0)) M
  refine ⟨e, he, fun eps hle maxIter P' K' h => ?_⟩
  unfold dare at h
  simp only at h
  split at h
  · cases h
  rename_i hlt
  rw [not_le] at hlt
  rcases dareLoop_spec (iterateRobust eig epsH Q R A B) norm eps maxIter P0 K0 1 with h3 | ⟨i, -, h3⟩
  · rw [h3] at hlt
    exact absurd hlt (not_lt.2 (hle.trans he1))
  · rw [h3] at h hlt
    obtain ⟨hP, hK⟩ := Prod.mk.inj (Res.ok.inj h)
    simp only at hP hK hlt
    have hsucc : (iterateRobust eig epsH Q R A B (F^[i] P0)).1 = F^[i + 1] P0 := by
      rw [Function.iterate_succ', Function.comp]
    rw [← hP, ← hK]
    by_cases hi : M ≤ i
    · refine ⟨?_, (hM i hi).2⟩
      rw [hsucc]
      exact (hM (i + 1) (by omega)).1
    · have h0 : ¬ 0 < norm (F^[i + 1] P0 - F^[i] P0) := fun hpos => by
        have := hgap i (by omega) hpos
        rw [hsucc] at hlt
        linarith
      have hfix : F (F^[i] P0) = F^[i] P0 := by
        ext a b
        have h4 := ((hn (F^[i + 1] P0 - F^[i] P0)).1 a b).trans (not_lt.1 h0)
        have h5 := abs_nonpos_iff.1 h4
        rw [Function.iterate_succ', Function.comp] at h5
        exact sub_eq_zero.1 h5
      have hcon : F^[M] P0 = F^[i] P0 := by
        have : M = (M - i) + i := by omega
        rw [this, Function.iterate_add, Function.comp, Function.iterate_fixed hfix]
      have hMM := hM M le_rfl
      rw [hcon] at hMM
      refine ⟨?_, hMM.2⟩
      rw [hsucc, Function.iterate_succ', Function.comp, hfix]
      exact hMM.1

end

/-! ### The hypotheses can be met -/

/-- The scalar integrator `x⁺ = x + u`: finite costs (move to the origin at once), detectable. -/
example : FiniteCost (1 : Matrix (Fin 1) (Fin 1) ℝ) (regularised (1 / 100000) 1) 1 (1 : Matrix (Fin 1) (Fin 1) ℝ) ∧
    Detectable (1 : Matrix (Fin 1) (Fin 1) ℝ) 1 (1 : Matrix (Fin 1) (Fin 1) ℝ) := by
  refine ⟨fun x => ?_, detectable_of_pd ⟨by simp, fun v hv => ?_⟩⟩
  · let w : ℕ → Fin 1 → ℝ := fun j => if j = 0 then -x else 0
    have hst : ∀ j, states (1 : Matrix (Fin 1) (Fin 1) ℝ) (1 : Matrix (Fin 1) (Fin 1) ℝ) x w (j + 1) = 0 := by
      intro j
      induction j with
      | zero => simp [states, w]
      | succ j ih => rw [states, ih]; simp [w]
    refine ⟨w, x ⬝ᵥ x + w 0 ⬝ᵥ (regularised (1 / 100000) 1 *ᵥ w 0), fun N => ?_⟩
    cases N with
    | zero =>
      simp only [runningCost, Finset.range_zero, Finset.sum_empty]
      refine add_nonneg ?_ ((regularised_pd (by norm_num) psd_one).psd.2 _)
      simpa using (psd_one (k := 1)).2 x
    | succ N =>
      unfold runningCost
      rw [Finset.sum_range_succ']
      have : ∀ j ∈ Finset.range N, (states (1 : Matrix (Fin 1) (Fin 1) ℝ) (1 : Matrix (Fin 1) (Fin 1) ℝ) x w (j + 1) ⬝ᵥ
          ((1 : Matrix (Fin 1) (Fin 1) ℝ) *ᵥ states (1 : Matrix (Fin 1) (Fin 1) ℝ) (1 : Matrix (Fin 1) (Fin 1) ℝ) x w (j + 1))
          + w (j + 1) ⬝ᵥ (regularised (1 / 100000) 1 *ᵥ w (j + 1))) = 0 := by
        intro j _
        rw [hst]
        simp [w]
      rw [Finset.sum_eq_zero this]
      simp [states]
  · have h0 := (psd_one (k := 1)).2 v
    refine lt_of_le_of_ne h0 fun h => hv ?_
    rw [one_mulVec] at h
    exact dotProduct_self_eq_zero.1 h.symm

example : IsMaxAbs (fun M : Matrix (Fin 1) (Fin 1) ℝ => |M 0 0|) := fun M =>
  ⟨fun i j => by rw [Subsingleton.elim i 0, Subsingleton.elim j 0], 0, 0, rfl⟩

/-- C171 violated: a small change does not mean that there is a steady state.  For `x⁺ = x` without influence of the
control and a state weight of half the tolerance the solver returns a result after one iteration, although every
control leads to unbounded cost. -/
theorem C171_no_steady_state_violated (eps : ℝ) (he : 0 < eps) (he1 : eps ≤ 1) (epsH : ℝ) (heH : 0 < epsH) (maxIter : ℕ)
    (K0 : Matrix (Fin 1) (Fin 1) ℝ) :
    Psd ((eps / 2) • (1 : Matrix (Fin 1) (Fin 1) ℝ)) ∧
    (∀ P K, ¬ SteadyState ((eps / 2) • 1) (regularised epsH 1) 1 (0 : Matrix (Fin 1) (Fin 1) ℝ) P K) ∧
    ∃ K, dare (iterateRobust eig1 epsH ((eps / 2) • 1) 1 1 (0 : Matrix (Fin 1) (Fin 1) ℝ)) (fun M => |M 0 0|) eps (maxIter + 1)
      ((eps / 2) • 1) K0 = .ok (eps • 1, K) := by
  have hpsd : Psd ((eps / 2) • (1 : Matrix (Fin 1) (Fin 1) ℝ)) := by
    refine ⟨by simp, fun v => ?_⟩
    rw [smul_mulVec, dotProduct_smul]
    exact smul_nonneg (by positivity) (psd_one.2 v)
  refine ⟨hpsd, fun P K hs => ?_, ?_⟩
  · have hcl : ∀ N, closedLoop (1 : Matrix (Fin 1) (Fin 1) ℝ) 0 K (fun _ => 1) N = fun _ => 1 := by
      intro N
      induction N with
      | zero => rfl
      | succ N ih => rw [closedLoop, ih]; simp
    have h : ∀ N : ℕ, N * (eps / 2) ≤ (fun _ => 1) ⬝ᵥ (P *ᵥ (fun _ => 1)) := by
      intro N
      refine le_trans ?_ (hs.attained (fun _ => 1) N)
      unfold runningCost
      rw [← closedLoop_eq]
      have : ∀ j ∈ Finset.range N, eps / 2 ≤ closedLoop (1 : Matrix (Fin 1) (Fin 1) ℝ) 0 K (fun _ => 1) j ⬝ᵥ
          (((eps / 2) • (1 : Matrix (Fin 1) (Fin 1) ℝ)) *ᵥ closedLoop (1 : Matrix (Fin 1) (Fin 1) ℝ) 0 K (fun _ => 1) j)
          + (K *ᵥ closedLoop (1 : Matrix (Fin 1) (Fin 1) ℝ) 0 K (fun _ => 1) j) ⬝ᵥ
            (regularised epsH 1 *ᵥ (K *ᵥ closedLoop (1 : Matrix (Fin 1) (Fin 1) ℝ) 0 K (fun _ => 1) j)) := by
        intro j _
        have h1 := (regularised_pd heH (psd_one (k := 1))).psd.2 (K *ᵥ closedLoop (1 : Matrix (Fin 1) (Fin 1) ℝ) 0 K (fun _ => 1) j)
        rw [hcl] at h1 ⊢
        have h2 : (fun _ : Fin 1 => (1 : ℝ)) ⬝ᵥ (((eps / 2) • (1 : Matrix (Fin 1) (Fin 1) ℝ)) *ᵥ fun _ => 1) = eps / 2 := by
          rw [smul_mulVec, one_mulVec]; simp [dotProduct]
        rw [h2]
        linarith
      have := Finset.card_nsmul_le_sum _ _ _ this
      simpa using this
    obtain ⟨N, hN⟩ := exists_nat_gt (((fun _ => 1) ⬝ᵥ (P *ᵥ (fun _ => 1))) / (eps / 2))
    have h1 := h N
    rw [div_lt_iff₀ (by positivity)] at hN
    linarith
  · have hstep : (iterateRobust eig1 epsH ((eps / 2) • 1) 1 1 (0 : Matrix (Fin 1) (Fin 1) ℝ) ((eps / 2) • 1)).1
        = eps • (1 : Matrix (Fin 1) (Fin 1) ℝ) := by
      rw [C41_robust_is_regularised eig1_ok heH _ _ _ _ _ psd_one hpsd]
      ext i j; fin_cases i; fin_cases j
      simp [iterateNaive]
      ring
    refine ⟨(iterateRobust eig1 epsH ((eps / 2) • 1) 1 1 (0 : Matrix (Fin 1) (Fin 1) ℝ) ((eps / 2) • 1)).2, ?_⟩
    have hdiff : |(eps • (1 : Matrix (Fin 1) (Fin 1) ℝ) - (eps / 2) • 1) 0 0| = eps / 2 := by
      simp
      rw [abs_of_nonneg (by linarith)]
      ring
    have hn : ¬ eps ≤ eps / 2 := by linarith
    unfold dare
    rw [dareLoop, if_pos he1, hstep]
    simp only [hdiff]
    cases maxIter with
    | zero => exact if_neg hn
    | succ k => rw [dareLoop, if_neg hn]; exact if_neg hn

end CT.Lqr
