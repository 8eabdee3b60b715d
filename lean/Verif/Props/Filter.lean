import Verif.Model.Filter
import Verif.Props.Lqr
import Mathlib.Tactic.NormNum
import Mathlib.Tactic.Module

/-! # C42, C43, C80: state estimation -/

namespace CT.Filter

open Matrix CT.Riccati CT.Lqr

variable {n m p : Nat}

/-! ### C42 -/

/-- Covariance of the estimation error after a correction with the gain `L`: error covariance `P` before,
measurement matrix `H`, measurement noise covariance `N`. -/
def errorCov (P : Matrix (Fin n) (Fin n) ℝ) (H : Matrix (Fin p) (Fin n) ℝ) (N : Matrix (Fin p) (Fin p) ℝ)
    (L : Matrix (Fin n) (Fin p) ℝ) : Matrix (Fin n) (Fin n) ℝ :=
  (1 - L * H) * P * (1 - L * H)ᵀ + L * N * Lᵀ

/-- Covariance of the measurement noise as seen by the filter. -/
def measCov (s : Ekf n m p) (t : ℝ) : Matrix (Fin p) (Fin p) ℝ := s.h.dw s.x t * s.R * (s.h.dw s.x t)ᵀ

/-- The measurement noise is not degenerate. -/
def MeasOk (R : Matrix (Fin p) (Fin p) ℝ) (h : MeasModel n p) : Prop := ∀ x t, Pd (h.dw x t * R * (h.dw x t)ᵀ)

/-- Calls considered: prediction over non-negative steps, measurement models with non-degenerate noise. -/
def OpOk (R : Matrix (Fin p) (Fin p) ℝ) : EkfOp n m p → Prop
  | .predict _ dt _ => 0 ≤ dt
  | .setMeasurementModel h => MeasOk R h
  | _ => True

theorem psd_add {k : Nat} {M N : Matrix (Fin k) (Fin k) ℝ} (hM : Psd M) (hN : Psd N) : Psd (M + N) := by
  refine ⟨by rw [transpose_add, hM.1, hN.1], fun v => ?_⟩
  rw [add_mulVec, dotProduct_add]
  exact add_nonneg (hM.2 v) (hN.2 v)

theorem psd_conj {k l : Nat} {M : Matrix (Fin k) (Fin k) ℝ} (F : Matrix (Fin l) (Fin k) ℝ) (hM : Psd M) :
    Psd (F * M * Fᵀ) := by
  refine ⟨by simp [transpose_mul, hM.1, Matrix.mul_assoc], fun v => ?_⟩
  have : v ⬝ᵥ ((F * M * Fᵀ) *ᵥ v) = (Fᵀ *ᵥ v) ⬝ᵥ (M *ᵥ (Fᵀ *ᵥ v)) := by
    have h := dot_tr Fᵀ v (M *ᵥ (Fᵀ *ᵥ v))
    rw [transpose_transpose] at h
    rw [← h, mulVec_mulVec, mulVec_mulVec, Matrix.mul_assoc]
  rw [this]
  exact hM.2 _

theorem psd_smul {k : Nat} {c : ℝ} (hc : 0 ≤ c) {M : Matrix (Fin k) (Fin k) ℝ} (hM : Psd M) : Psd (c • M) := by
  refine ⟨by rw [transpose_smul, hM.1], fun v => ?_⟩
  rw [smul_mulVec, dotProduct_smul]
  exact mul_nonneg hc (hM.2 v)

/-- The correction step is one step of the Riccati recursion for the dual system. -/
theorem dual_step {P : Matrix (Fin n) (Fin n) ℝ} (H : Matrix (Fin p) (Fin n) ℝ) {N : Matrix (Fin p) (Fin p) ℝ}
    (hP : Psd P) (hN : Pd N) :
    iterateNaive 0 N 1 (-Hᵀ) P
      = (P - P * Hᵀ * (H * P * Hᵀ + N)⁻¹ * H * P, (P * Hᵀ * (H * P * Hᵀ + N)⁻¹)ᵀ) := by
  have hS : N + (-Hᵀ)ᵀ * P * -Hᵀ = H * P * Hᵀ + N := by
    simp [transpose_neg, add_comm]
  have hpd : Pd (H * P * Hᵀ + N) := by
    rw [← hS]; exact curv_pd hN hP
  have hSi : ((H * P * Hᵀ + N)⁻¹)ᵀ = (H * P * Hᵀ + N)⁻¹ := by rw [transpose_nonsing_inv, hpd.1]
  have hSu := hpd.isUnit
  simp only [iterateNaive, hS]
  generalize H * P * Hᵀ + N = S at hSi hSu
  have hK : (-1 : ℝ) • (S⁻¹ * (-Hᵀ)ᵀ * P * (1 : Matrix (Fin n) (Fin n) ℝ)) = (P * Hᵀ * S⁻¹)ᵀ := by
    simp [transpose_mul, hP.1, hSi, Matrix.mul_assoc]
  rw [hK, transpose_transpose]
  have hKSK : P * Hᵀ * S⁻¹ * S * (P * Hᵀ * S⁻¹)ᵀ = P * Hᵀ * S⁻¹ * H * P := by
    have e : P * Hᵀ * S⁻¹ * S = P * Hᵀ := by
      rw [Matrix.mul_assoc, Matrix.nonsing_inv_mul _ hSu, Matrix.mul_one]
    rw [e]
    simp [transpose_mul, hP.1, hSi, Matrix.mul_assoc]
  rw [hKSK]
  congr 1
  have hsym : (0 + (1 : Matrix (Fin n) (Fin n) ℝ)ᵀ * P * 1 - P * Hᵀ * S⁻¹ * H * P)ᵀ
      = 0 + (1 : Matrix (Fin n) (Fin n) ℝ)ᵀ * P * 1 - P * Hᵀ * S⁻¹ * H * P := by
    simp [transpose_mul, hP.1, hSi, Matrix.mul_assoc]
  rw [hsym, ← two_smul ℝ, smul_smul]
  norm_num

theorem update_P (s : Ekf n m p) (y : Fin p → ℝ) (t : ℝ) :
    (s.update y t).P
      = s.P - s.P * (s.h.dx s.x t)ᵀ * (s.h.dx s.x t * s.P * (s.h.dx s.x t)ᵀ + measCov s t)⁻¹ * s.h.dx s.x t * s.P := by
  simp only [Ekf.update, Ekf.gain, measCov]

/-- C42: any sequence of calls keeps the covariance symmetric positive semi-definite. -/
theorem C42_psd (s : Ekf n m p) (ops : List (EkfOp n m p)) (hP : Psd s.P) (hQ : Psd s.Q) (hh : MeasOk s.R s.h)
    (hops : ∀ op ∈ ops, OpOk s.R op) : Psd (s.run ops).P := by
  induction ops generalizing s with
  | nil => exact hP
  | cons op ops ih =>
    have hop := hops op (by simp)
    have hrest : ∀ o ∈ ops, OpOk s.R o := fun o ho => hops o (by simp [ho])
    rw [Ekf.run, List.foldl_cons]
    cases op with
    | predict u dt t =>
      exact ih (s.predict u dt t) (psd_add (psd_conj _ hP) (psd_conj _ (psd_smul hop hQ))) hQ hh hrest
    | update y t =>
      refine ih (s.update y t) ?_ hQ hh hrest
      rw [update_P]
      have h := naive_psd (A := 1) (B := -(s.h.dx s.x t)ᵀ) (psd_smul le_rfl (psd_one (k := n))) (hh s.x t) hP
      rw [zero_smul, dual_step _ hP (hh s.x t)] at h
      exact h
    | setEstimate x => exact ih { s with x := x } hP hQ hh hrest
    | setSystemModel f => exact ih { s with f := f } hP hQ hh hrest
    | setMeasurementModel h => exact ih { s with h := h } hP hQ hop hrest

theorem errorCov_form (P : Matrix (Fin n) (Fin n) ℝ) (H : Matrix (Fin p) (Fin n) ℝ) (N : Matrix (Fin p) (Fin p) ℝ)
    (L : Matrix (Fin n) (Fin p) ℝ) (x : Fin n → ℝ) :
    x ⬝ᵥ (errorCov P H N L *ᵥ x) = x ⬝ᵥ ((0 : Matrix (Fin n) (Fin n) ℝ) *ᵥ x) + (Lᵀ *ᵥ x) ⬝ᵥ (N *ᵥ (Lᵀ *ᵥ x)) +
      ((1 : Matrix (Fin n) (Fin n) ℝ) *ᵥ x + (-Hᵀ) *ᵥ (Lᵀ *ᵥ x)) ⬝ᵥ
        (P *ᵥ ((1 : Matrix (Fin n) (Fin n) ℝ) *ᵥ x + (-Hᵀ) *ᵥ (Lᵀ *ᵥ x))) := by
  have hc : ∀ {k : Nat} (F : Matrix (Fin n) (Fin k) ℝ) (M : Matrix (Fin k) (Fin k) ℝ),
      x ⬝ᵥ ((F * M * Fᵀ) *ᵥ x) = (Fᵀ *ᵥ x) ⬝ᵥ (M *ᵥ (Fᵀ *ᵥ x)) := by
    intro k F M
    have h := dot_tr Fᵀ x (M *ᵥ (Fᵀ *ᵥ x))
    rw [transpose_transpose] at h
    rw [← h, mulVec_mulVec, mulVec_mulVec, Matrix.mul_assoc]
  have hv : (1 - L * H)ᵀ *ᵥ x = (1 : Matrix (Fin n) (Fin n) ℝ) *ᵥ x + (-Hᵀ) *ᵥ (Lᵀ *ᵥ x) := by
    rw [transpose_sub, transpose_one, transpose_mul, sub_mulVec, mulVec_mulVec, Matrix.neg_mul, neg_mulVec, sub_eq_add_neg]
  rw [errorCov, add_mulVec, dotProduct_add, hc, hc, hv]
  simp [add_comm]

/-- C42: the covariance after an update is the error covariance of the filter's own gain; no gain gives a
smaller one (in the order of quadratic forms), the filter's gain is the only one that attains it, and the update
never increases the covariance. -/
theorem C42_minimum_variance (s : Ekf n m p) (y : Fin p → ℝ) (t : ℝ) (hP : Psd s.P) (hN : Pd (measCov s t)) :
    (s.update y t).P = errorCov s.P (s.h.dx s.x t) (measCov s t) (s.gain t) ∧
    (∀ L, Psd (errorCov s.P (s.h.dx s.x t) (measCov s t) L - (s.update y t).P)) ∧
    (∀ L, errorCov s.P (s.h.dx s.x t) (measCov s t) L = (s.update y t).P → L = s.gain t) ∧
    Psd (s.P - (s.update y t).P) := by
  have hd := dual_step (s.h.dx s.x t) hP hN
  have hgain : s.gain t = s.P * (s.h.dx s.x t)ᵀ * (s.h.dx s.x t * s.P * (s.h.dx s.x t)ᵀ + measCov s t)⁻¹ := rfl
  have hupd : (s.update y t).P = (iterateNaive 0 (measCov s t) 1 (-(s.h.dx s.x t)ᵀ) s.P).1 := by rw [hd, update_P]
  have hK : (iterateNaive 0 (measCov s t) 1 (-(s.h.dx s.x t)ᵀ) s.P).2 = (s.gain t)ᵀ := by rw [hd, hgain]
  have h0 : Psd (0 : Matrix (Fin n) (Fin n) ℝ) := ⟨by simp, fun v => by simp⟩
  have hstep := C41_naive_step 0 (measCov s t) 1 (-(s.h.dx s.x t)ᵀ) s.P h0 hN hP
  have hsymL : ∀ L, (errorCov s.P (s.h.dx s.x t) (measCov s t) L)ᵀ = errorCov s.P (s.h.dx s.x t) (measCov s t) L := by
    intro L
    simp only [errorCov, transpose_add, transpose_mul, transpose_transpose, hP.1, hN.1, Matrix.mul_assoc]
  have hsymU : ((s.update y t).P)ᵀ = (s.update y t).P := by rw [hupd]; exact (hstep 0).1.1
  have hle : ∀ L, Psd (errorCov s.P (s.h.dx s.x t) (measCov s t) L - (s.update y t).P) := by
    intro L
    refine ⟨by rw [transpose_sub, hsymL, hsymU], fun x => ?_⟩
    rw [sub_mulVec, dotProduct_sub, errorCov_form, hupd]
    have := ((hstep x).2 (Lᵀ *ᵥ x)).1
    linarith
  -- symmetric matrices with equal quadratic forms agree
  have hext : ∀ M M' : Matrix (Fin n) (Fin n) ℝ, Mᵀ = M → M'ᵀ = M' →
      (∀ x, x ⬝ᵥ (M *ᵥ x) = x ⬝ᵥ (M' *ᵥ x)) → M = M' := by
    intro M M' hM hM' hx
    have hbil : ∀ x y, x ⬝ᵥ (M *ᵥ y) = x ⬝ᵥ (M' *ᵥ y) := by
      intro x y
      have h1 := hx (x + y)
      simp only [mulVec_add, dotProduct_add, add_dotProduct] at h1
      rw [bil_sym hM y x, bil_sym hM' y x, hx x, hx y] at h1
      linarith
    ext i j
    have := hbil (Pi.single i 1) (Pi.single j 1)
    simpa using this
  refine ⟨?_, hle, ?_, ?_⟩
  · refine hext _ _ hsymU (hsymL _) fun x => ?_
    rw [errorCov_form, hupd]
    exact (((hstep x).2 ((s.gain t)ᵀ *ᵥ x)).2).2 (by rw [hK])
  · intro L hL
    have : ∀ x, Lᵀ *ᵥ x = (s.gain t)ᵀ *ᵥ x := by
      intro x
      have h1 := ((hstep x).2 (Lᵀ *ᵥ x)).2.1
      rw [← errorCov_form, ← hupd, hL] at h1
      rw [h1 rfl, hK]
    have ht : Lᵀ = (s.gain t)ᵀ := by
      ext i j
      have := congrFun (this (Pi.single j 1)) i
      simpa using this
    exact transpose_injective ht
  · have h1 := hle 0
    have h2 : errorCov s.P (s.h.dx s.x t) (measCov s t) (0 : Matrix (Fin n) (Fin p) ℝ) = s.P := by simp [errorCov]
    rwa [h2] at h1

theorem pd_one {k : Nat} : Pd (1 : Matrix (Fin k) (Fin k) ℝ) := by
  refine ⟨by simp, fun v hv => ?_⟩
  have h0 := (psd_one (k := k)).2 v
  rw [one_mulVec] at h0 ⊢
  exact lt_of_le_of_ne h0 fun h => hv (dotProduct_self_eq_zero.1 h.symm)

/-- A filter meeting the hypotheses of both theorems. -/
example : MeasOk (1 : Matrix (Fin 2) (Fin 2) ℝ) (lti (n := 3) 0 1) ∧ Psd (1 : Matrix (Fin 3) (Fin 3) ℝ) :=
  ⟨fun _ _ => by simpa [lti] using pd_one, psd_one⟩

/-! ### C43 -/

theorem sum_sigma (g : Sigma n → ℝ) : ∑ j, g j = g none + (∑ k, g (some (.inl k)) + ∑ k, g (some (.inr k))) := by
  rw [Fintype.sum_option, Fintype.sum_sum_type]

/-- Relations between the weights. -/
structure GoodWeights (n : Nat) (w : Weights) : Prop where
  sum : w.m0 + 2 * n * w.i = 1
  spread : 2 * w.i * (w.gamma * w.gamma) = 1

theorem weightsOf_good {alpha beta kappa : ℝ} (h : 0 < alpha * alpha * (n + kappa)) :
    GoodWeights n (weightsOf n alpha beta kappa) := by
  have hne := h.ne'
  have hl : (n : ℝ) + (alpha * alpha * (n + kappa) - n) = alpha * alpha * (n + kappa) := by ring
  have hi : (weightsOf n alpha beta kappa).i = 1 / (2 * (alpha * alpha * (n + kappa))) := by
    simp only [weightsOf]; congr 1; ring
  have hm : (weightsOf n alpha beta kappa).m0
      = (alpha * alpha * (n + kappa) - n) / (alpha * alpha * (n + kappa)) := by
    simp only [weightsOf, hl]
  have hg : (weightsOf n alpha beta kappa).gamma * (weightsOf n alpha beta kappa).gamma
      = alpha * alpha * (n + kappa) := by
    simp only [weightsOf, hl]
    exact Real.mul_self_sqrt h.le
  constructor
  · rw [hm, hi]
    generalize alpha * alpha * (n + kappa) = q at h hne
    field_simp
    ring
  · rw [hi, hg]
    generalize alpha * alpha * (n + kappa) = q at h hne
    field_simp

/-- C43: the mean weights sum to one. -/
theorem C43_weights {alpha beta kappa : ℝ} (h : 0 < alpha * alpha * (n + kappa)) :
    ∑ j : Sigma n, (weightsOf n alpha beta kappa).mean j = 1 := by
  rw [sum_sigma]
  have := (weightsOf_good (beta := beta) h).sum
  simp only [Weights.mean, Finset.sum_const, Finset.card_univ, Fintype.card_fin, nsmul_eq_mul]
  linarith

theorem mean_affine {l : Nat} {w : Weights} (hw : GoodWeights n w) (A : Matrix (Fin l) (Fin n) ℝ) (c : Fin l → ℝ)
    (S : Matrix (Fin n) (Fin n) ℝ) (x : Fin n → ℝ) :
    weightedMean w (mapCols (fun v => A *ᵥ v + c) (sigmaPoints w.gamma S x)) = A *ᵥ x + c := by
  funext i
  have h1 : ∀ k, (A *ᵥ fun a => w.gamma * S a k + x a) i = w.gamma * (A * S) i k + (A *ᵥ x) i := by
    intro k
    simp only [mulVec, dotProduct, mul_apply, Finset.mul_sum, ← Finset.sum_add_distrib]
    exact Finset.sum_congr rfl fun a _ => by ring
  have h2 : ∀ k, (A *ᵥ fun a => -w.gamma * S a k + x a) i = -w.gamma * (A * S) i k + (A *ᵥ x) i := by
    intro k
    simp only [mulVec, dotProduct, mul_apply, Finset.mul_sum, ← Finset.sum_add_distrib]
    exact Finset.sum_congr rfl fun a _ => by ring
  rw [weightedMean, mulVec, dotProduct, sum_sigma]
  simp only [mapCols, sigmaPoints, of_apply, Weights.mean, Pi.add_apply, h1, h2]
  rw [← Finset.sum_mul, ← Finset.sum_mul]
  simp only [Finset.sum_add_distrib, Finset.sum_const, Finset.card_univ, Fintype.card_fin, nsmul_eq_mul,
    ← Finset.mul_sum]
  have := hw.sum
  linear_combination ((A *ᵥ x) i + c i) * this

theorem centred_affine {l : Nat} {w : Weights} (hw : GoodWeights n w) (A : Matrix (Fin l) (Fin n) ℝ) (c : Fin l → ℝ)
    (S : Matrix (Fin n) (Fin n) ℝ) (x : Fin n → ℝ) (i : Fin l) :
    let X := mapCols (fun v => A *ᵥ v + c) (sigmaPoints w.gamma S x)
    centred X (weightedMean w X) i none = 0 ∧
    (∀ k, centred X (weightedMean w X) i (some (.inl k)) = w.gamma * (A * S) i k) ∧
    ∀ k, centred X (weightedMean w X) i (some (.inr k)) = -w.gamma * (A * S) i k := by
  intro X
  have h1 : ∀ k, (A *ᵥ fun a => w.gamma * S a k + x a) i = w.gamma * (A * S) i k + (A *ᵥ x) i := by
    intro k
    simp only [mulVec, dotProduct, mul_apply, Finset.mul_sum, ← Finset.sum_add_distrib]
    exact Finset.sum_congr rfl fun a _ => by ring
  have h2 : ∀ k, (A *ᵥ fun a => -w.gamma * S a k + x a) i = -w.gamma * (A * S) i k + (A *ᵥ x) i := by
    intro k
    simp only [mulVec, dotProduct, mul_apply, Finset.mul_sum, ← Finset.sum_add_distrib]
    exact Finset.sum_congr rfl fun a _ => by ring
  have hm : weightedMean w X = A *ᵥ x + c := mean_affine hw A c S x
  rw [hm]
  refine ⟨?_, fun k => ?_, fun k => ?_⟩
  · simp [centred, X, mapCols, sigmaPoints]
  · simp only [centred, X, mapCols, sigmaPoints, of_apply, Pi.add_apply, h1]; ring
  · simp only [centred, X, mapCols, sigmaPoints, of_apply, Pi.add_apply, h2]; ring

/-- Weighted products of centred points are products of covariances. -/
theorem cross_affine {l r : Nat} {w : Weights} (hw : GoodWeights n w) (A : Matrix (Fin l) (Fin n) ℝ)
    (A' : Matrix (Fin r) (Fin n) ℝ) (S : Matrix (Fin n) (Fin n) ℝ)
    (X : Matrix (Fin l) (Sigma n) ℝ) (Y : Matrix (Fin r) (Sigma n) ℝ)
    (hX : ∀ i, X i none = 0 ∧ (∀ k, X i (some (.inl k)) = w.gamma * (A * S) i k) ∧
      ∀ k, X i (some (.inr k)) = -w.gamma * (A * S) i k)
    (hY : ∀ i, Y i none = 0 ∧ (∀ k, Y i (some (.inl k)) = w.gamma * (A' * S) i k) ∧
      ∀ k, Y i (some (.inr k)) = -w.gamma * (A' * S) i k) :
    (of fun i j => X i j * w.cov j : Matrix (Fin l) (Sigma n) ℝ) * Yᵀ = A * (S * Sᵀ) * A'ᵀ := by
  have e : A * (S * Sᵀ) * A'ᵀ = (A * S) * (A' * S)ᵀ := by
    rw [transpose_mul]; simp only [Matrix.mul_assoc]
  rw [e]
  ext i j
  rw [mul_apply, mul_apply, sum_sigma]
  simp only [of_apply, transpose_apply, (hX i).1, (hX i).2.1, (hX i).2.2, (hY j).1, (hY j).2.1, (hY j).2.2, Weights.cov]
  rw [zero_mul, zero_mul, zero_add, ← Finset.sum_add_distrib]
  refine Finset.sum_congr rfl fun k _ => ?_
  linear_combination ((A * S) i k * (A' * S) j k) * hw.spread

/-- C43: the sigma points of any square root `S` of the covariance reproduce mean and covariance, also after an
affine map. -/
theorem C43_transform {l : Nat} {alpha beta kappa : ℝ} (h : 0 < alpha * alpha * (n + kappa))
    (A : Matrix (Fin l) (Fin n) ℝ) (c : Fin l → ℝ) (S : Matrix (Fin n) (Fin n) ℝ) (x : Fin n → ℝ)
    (noise : Matrix (Fin l) (Fin l) ℝ) :
    let w := weightsOf n alpha beta kappa
    let X := mapCols (fun v => A *ᵥ v + c) (sigmaPoints w.gamma S x)
    weightedMean w X = A *ᵥ x + c ∧
    covariance w (weightedMean w X) X noise = A * (S * Sᵀ) * Aᵀ + noise := by
  intro w X
  have hw : GoodWeights n w := weightsOf_good h
  refine ⟨mean_affine hw A c S x, ?_⟩
  rw [covariance, cross_affine hw A A S _ _ (centred_affine hw A c S x) (centred_affine hw A c S x)]

/-- C43, prediction: once `computeWeights` was called and the Cholesky factor is exact, predicting with affine
dynamics gives the mean and covariance of the Kalman filter, with the noise matrix of the model taken as the
noise covariance. Missing: a constructed filter has no weights (see `C43_uninitialised_violated`). -/
theorem C43_predict_partial (chol) (s : Ukf n m p) (h : 0 < s.alpha * s.alpha * (n + s.kappa))
    (S : Matrix (Fin n) (Fin n) ℝ) (hS : chol s.P = some S) (hSS : S * Sᵀ = s.P)
    (u : Fin m → ℝ) (dt t : ℝ) (A : Matrix (Fin n) (Fin n) ℝ) (c : Fin n → ℝ)
    (hf : ∀ x, s.f.dyn x u dt t = A *ᵥ x + c) :
    ∃ s', s.computeWeights.predict chol u dt t = .ok s' ∧ s'.x = A *ᵥ s.x + c ∧
      s'.P = A * s.P * Aᵀ + s.f.dv (A *ᵥ s.x + c) u dt t := by
  have hfun : (fun x => s.f.dyn x u dt t) = fun x => A *ᵥ x + c := funext hf
  have ht := C43_transform (beta := s.beta) h A c S s.x
  refine ⟨_, by rw [Ukf.predict, show s.computeWeights.P = s.P from rfl, hS]; rfl, ?_, ?_⟩
  · dsimp only
    rw [show s.computeWeights.f = s.f from rfl, hfun]
    exact (ht 0).1
  · dsimp only
    rw [show s.computeWeights.f = s.f from rfl, hfun]
    have h2 := (ht (s.f.dv (A *ᵥ s.x + c) u dt t)).2
    have h1 := (ht 0).1
    rw [hSS] at h2
    rw [← h2]
    congr 1
    exact congrArg (fun v => s.f.dv v u dt t) h1

/-- C43, correction after a prediction: with affine measurements the correction is the Kalman correction *for
the predicted covariance without process noise* `A P Aᵀ`, and hence the Kalman correction proper if the process
noise vanishes. Missing: with process noise see `C43_update_violated`. -/
theorem C43_update_partial (chol) (s s1 : Ukf n m p) (h : 0 < s.alpha * s.alpha * (n + s.kappa))
    (S : Matrix (Fin n) (Fin n) ℝ) (hS : chol s.P = some S) (hSS : S * Sᵀ = s.P)
    (u : Fin m → ℝ) (dt t : ℝ) (A : Matrix (Fin n) (Fin n) ℝ) (c : Fin n → ℝ)
    (hf : ∀ x, s.f.dyn x u dt t = A *ᵥ x + c) (hs1 : s.computeWeights.predict chol u dt t = .ok s1)
    (C : Matrix (Fin p) (Fin n) ℝ) (d : Fin p → ℝ) (hh : ∀ x, s.h.h x t = C *ᵥ x + d) (z : Fin p → ℝ) :
    ∃ s2, s1.update z t = .ok s2 ∧
      let S0 := A * s.P * Aᵀ
      let Pyy := C * S0 * Cᵀ + s.h.dw s1.x t
      let K := S0 * Cᵀ * Pyy⁻¹
      s2.x = s1.x + K *ᵥ (z - (C *ᵥ s1.x + d)) ∧ s2.P = s1.P - K * Pyy * Kᵀ := by
  have hw : GoodWeights n (weightsOf n s.alpha s.beta s.kappa) := weightsOf_good h
  have hfun : (fun x => s.f.dyn x u dt t) = fun x => A *ᵥ x + c := funext hf
  have hhfun : (fun x => s.h.h x t) = fun x => C *ᵥ x + d := funext hh
  rw [Ukf.predict, show s.computeWeights.P = s.P from rfl, hS] at hs1
  simp only [Ukf.computeWeights, hfun] at hs1
  set w := weightsOf n s.alpha s.beta s.kappa
  set X := mapCols (fun v => A *ᵥ v + c) (sigmaPoints w.gamma S s.x) with hX
  obtain rfl := Res.ok.inj hs1
  have hmx : weightedMean w X = A *ᵥ s.x + c := mean_affine hw A c S s.x
  -- measured points are the affine image of the original ones
  have hY : mapCols (fun x => s.h.h x t) X
      = mapCols (fun v => (C * A) *ᵥ v + (C *ᵥ c + d)) (sigmaPoints w.gamma S s.x) := by
    rw [hhfun, hX]
    ext i j
    simp only [mapCols, of_apply]
    have : (fun a => (A *ᵥ (fun b => sigmaPoints w.gamma S s.x b j) + c) a)
        = A *ᵥ (fun b => sigmaPoints w.gamma S s.x b j) + c := rfl
    rw [this, mulVec_add, mulVec_mulVec, add_assoc]
  have hmy : weightedMean w (mapCols (fun x => s.h.h x t) X) = C *ᵥ (A *ᵥ s.x + c) + d := by
    rw [hY, mean_affine hw, mulVec_add, mulVec_mulVec, add_assoc]
  have hcY := fun i => centred_affine hw (C * A) (C *ᵥ c + d) S s.x i
  have hcX := fun i => centred_affine hw A c S s.x i
  have hPyy : ∀ N, covariance w (weightedMean w (mapCols (fun x => s.h.h x t) X)) (mapCols (fun x => s.h.h x t) X) N
      = C * (A * s.P * Aᵀ) * Cᵀ + N := by
    intro N
    rw [covariance, hY, cross_affine hw (C * A) (C * A) S _ _ hcY hcY, hSS, transpose_mul]
    simp only [Matrix.mul_assoc]
  have hPxy : (of fun i j => centred X (weightedMean w X) i j * w.cov j : Matrix (Fin n) (Sigma n) ℝ) *
      (centred (mapCols (fun x => s.h.h x t) X) (weightedMean w (mapCols (fun x => s.h.h x t) X)))ᵀ
      = A * s.P * Aᵀ * Cᵀ := by
    rw [hY, cross_affine hw A (C * A) S _ _ hcX hcY, hSS, transpose_mul]
    simp only [Matrix.mul_assoc]
  refine ⟨_, rfl, ?_, ?_⟩
  · simp only [Ukf.gain, Ukf.innovation, hPyy, hPxy]
    rw [hmy, hmx]
  · simp only [Ukf.gain, Ukf.innovation, hPyy, hPxy]

/-- The hypotheses are met by a scalar filter with default parameters. -/
example : ∃ (chol : Matrix (Fin 1) (Fin 1) ℝ → Option (Matrix (Fin 1) (Fin 1) ℝ)) (S : Matrix (Fin 1) (Fin 1) ℝ),
    chol 1 = some S ∧ S * Sᵀ = 1 ∧ (0 : ℝ) < 1 * 1 * ((1 : Nat) + 0) :=
  ⟨fun _ => some 1, 1, rfl, by simp, by norm_num⟩

/-- A filter as constructed cannot be used: whatever the arguments, the first call either fails or reads members
no constructor initialises. -/
theorem C43_uninitialised_violated (chol) (f : SysModel n m) (h : MeasModel n p) (x0 : Fin n → ℝ)
    (alpha beta kappa : ℝ) (P0 : Matrix (Fin n) (Fin n) ℝ) (op : UkfOp n m p) :
    ∀ s, (Ukf.new f h x0 alpha beta kappa P0).step chol op ≠ .ok s := by
  intro s
  cases op with
  | predict u dt t =>
    simp only [Ukf.step, Ukf.predict, Ukf.new]
    cases chol P0 <;> simp
  | update z t => simp [Ukf.step, Ukf.update, Ukf.new]

/-- With process noise the correction is not that of the Kalman filter: scalar system with identity dynamics,
unit covariance and unit noise matrices. The Kalman filter ends with covariance 2/3, this filter with 3/2. -/
theorem C43_update_violated : ∃ (s s1 s2 : Ukf 1 1 1) (chol : Matrix (Fin 1) (Fin 1) ℝ → Option (Matrix (Fin 1) (Fin 1) ℝ)),
    (∀ x u dt t, s.f.dyn x u dt t = x) ∧ (∀ x u dt t, s.f.dv x u dt t = 1) ∧ s.h = lti 1 1 ∧ s.P = 1 ∧
    s.computeWeights.predict chol 0 1 0 = .ok s1 ∧ s1.P = (2 : ℝ) • 1 ∧ s1.update 0 0 = .ok s2 ∧
    s2.P = (3 / 2 : ℝ) • 1 ∧ s1.P - s1.P * (s1.P + 1)⁻¹ * s1.P = (2 / 3 : ℝ) • 1 := by
  let f : SysModel 1 1 := { dyn := fun x _ _ _ => x, dx := fun _ _ _ _ => 1, dv := fun _ _ _ _ => 1 }
  let s : Ukf 1 1 1 := Ukf.new f (lti 1 1) 0 1 2 0 1
  let chol : Matrix (Fin 1) (Fin 1) ℝ → Option (Matrix (Fin 1) (Fin 1) ℝ) := fun _ => some 1
  have hpos : 0 < s.alpha * s.alpha * ((1 : Nat) + s.kappa) := by norm_num [s, Ukf.new]
  have hf : ∀ x, s.f.dyn x 0 1 0 = (1 : Matrix (Fin 1) (Fin 1) ℝ) *ᵥ x + 0 := by intro x; simp [s, Ukf.new, f]
  have hh : ∀ x, s.h.h x 0 = (1 : Matrix (Fin 1) (Fin 1) ℝ) *ᵥ x + 0 := by intro x; simp [s, Ukf.new, lti]
  have hinv : ∀ a : ℝ, a ≠ 0 → (a • (1 : Matrix (Fin 1) (Fin 1) ℝ))⁻¹ = a⁻¹ • 1 := by
    intro a ha
    apply inv_eq_left_inv
    rw [Matrix.smul_mul, Matrix.mul_smul, smul_smul, Matrix.mul_one, inv_mul_cancel₀ ha, one_smul]
  have htwo : (1 : Matrix (Fin 1) (Fin 1) ℝ) + 1 = (2 : ℝ) • 1 := (two_smul ℝ _).symm
  obtain ⟨s1, hs1, _, hP1⟩ := C43_predict_partial chol s hpos 1 rfl (by simp [s, Ukf.new]) 0 1 0 1 0 hf
  obtain ⟨s2, hs2, _, hP2⟩ := C43_update_partial chol s s1 hpos 1 rfl (by simp [s, Ukf.new]) 0 1 0 1 0 hf hs1 1 0 hh 0
  have hP1' : s1.P = (2 : ℝ) • 1 := by
    rw [hP1, ← htwo]; simp [s, Ukf.new, f]
  refine ⟨s, s1, s2, chol, fun _ _ _ _ => rfl, fun _ _ _ _ => rfl, rfl, rfl, hs1, hP1', hs2, ?_, ?_⟩
  · have hPyy : (1 : Matrix (Fin 1) (Fin 1) ℝ) * (1 * s.P * 1ᵀ) * 1ᵀ + s.h.dw s1.x 0 = (2 : ℝ) • 1 := by
      rw [← htwo]; simp [s, Ukf.new, lti]
    rw [hP2, hPyy, hP1', hinv 2 (by norm_num)]
    ext i j; fin_cases i; fin_cases j
    simp [s, Ukf.new]
    norm_num
  · have h3 : (2 : ℝ) • (1 : Matrix (Fin 1) (Fin 1) ℝ) + 1 = (3 : ℝ) • 1 := by
      rw [show (3 : ℝ) = 2 + 1 by norm_num, add_smul, one_smul]
    rw [hP1', h3, hinv 3 (by norm_num)]
    ext i j; fin_cases i; fin_cases j
    simp
    norm_num

/-! ### C80 -/

/-- C80: with a measurement function that does not depend on time the correction uses the innovation of the
measurement's time. Missing: time-varying measurement functions, see `C80_measurement_time_violated`. -/
theorem C80_update_partial (s : Ekf n m p) (y : Fin p → ℝ) (t : ℝ) (h : ∀ x t t', s.h.h x t = s.h.h x t') :
    (s.update y t).x = s.x + s.gain t *ᵥ (y - s.h.h s.x t) := by
  rw [h s.x t 0]; rfl

/-- The scalar measurement `x + t`, perfectly predicted at time 1, still moves the estimate. -/
theorem C80_measurement_time_violated : ∃ (s : Ekf 1 1 1) (y : Fin 1 → ℝ),
    Psd s.P ∧ Pd (measCov s 1) ∧ y = s.h.h s.x 1 ∧ s.x = 0 ∧ (s.update y 1).x = fun _ => 1 / 2 := by
  let h : MeasModel 1 1 := { h := fun x t i => x i + t, dx := fun _ _ => 1, dw := fun _ _ => 1 }
  let f : SysModel 1 1 := { dyn := fun x _ _ _ => x, dx := fun _ _ _ _ => 1, dv := fun _ _ _ _ => 1 }
  let s : Ekf 1 1 1 := { f := f, h := h, Q := 1, R := 1, x := 0, P := 1 }
  have htwo : (1 : Matrix (Fin 1) (Fin 1) ℝ) + 1 = (2 : ℝ) • 1 := (two_smul ℝ _).symm
  have hinv : ((2 : ℝ) • (1 : Matrix (Fin 1) (Fin 1) ℝ))⁻¹ = (2 : ℝ)⁻¹ • 1 := by
    apply inv_eq_left_inv
    rw [Matrix.smul_mul, Matrix.mul_smul, smul_smul, Matrix.mul_one, inv_mul_cancel₀ (by norm_num), one_smul]
  refine ⟨s, fun _ => 1, psd_one, by simpa [measCov, s, h] using pd_one, ?_, rfl, ?_⟩
  · funext i; simp [s, h]
  · have hg : s.gain 1 = (2 : ℝ)⁻¹ • 1 := by
      simp only [Ekf.gain, s, h]
      simp only [transpose_one, Matrix.mul_one, htwo, hinv, Matrix.one_mul]
    simp only [Ekf.update, hg, smul_mulVec, one_mulVec]
    funext i
    simp [s, h]

/-- C80, prediction with a continuous-time model: the state matrix belongs to a stage index whose time is at
most `dt` before the filter's time, and exactly the filter's time if that is a multiple of the step. -/
theorem C80_linearisation_time_partial (integrate) (sens : (Fin n → ℝ) → (Fin m → ℝ) → ℤ → ℝ → Matrix (Fin n) (Fin n) ℝ)
    (V : Matrix (Fin n) (Fin n) ℝ) (x : Fin n → ℝ) (u : Fin m → ℝ) (dt t : ℝ) (hdt : 0 < dt) (ht : 0 ≤ t) :
    ∃ k : ℤ, (ctModel integrate sens V).dx x u dt t = sens x u k dt ∧ k * dt ≤ t ∧ t < k * dt + dt ∧
      ((∃ j : ℤ, t = j * dt) → t = k * dt) := by
  have h0 : 0 ≤ t / dt := div_nonneg ht hdt.le
  refine ⟨⌊t / dt⌋, by simp [ctModel, h0], ?_, ?_, ?_⟩
  · have := Int.floor_le (t / dt)
    rwa [le_div_iff₀ hdt] at this
  · have := Int.lt_floor_add_one (t / dt)
    rw [div_lt_iff₀ hdt] at this
    linarith
  · rintro ⟨j, rfl⟩
    have : (j : ℝ) * dt / dt = j := by field_simp
    rw [this, Int.floor_intCast]

/-- Between multiples of the step the linearisation belongs to another time than the dynamics: for the scalar
time-varying system `x⁺ = x + dt t x` the derivative is not that of the dynamics. -/
theorem C80_linearisation_time_violated : ∃ (integrate : (Fin 1 → ℝ) → (Fin 1 → ℝ) → ℝ → ℝ → Fin 1 → ℝ)
    (sens : (Fin 1 → ℝ) → (Fin 1 → ℝ) → ℤ → ℝ → Matrix (Fin 1) (Fin 1) ℝ) (t : ℝ),
    (∀ x u (k : ℤ) dt y, integrate y u (k * dt) dt - integrate x u (k * dt) dt = sens x u k dt *ᵥ (y - x)) ∧
    ∃ y, integrate y 0 t 1 - integrate 0 0 t 1 ≠ (ctModel integrate sens 1).dx 0 0 1 t *ᵥ (y - 0) := by
  refine ⟨fun x _ t dt => x + (dt * t) • x, fun _ _ k dt => (1 + dt * (k * dt)) • 1, 1 / 2, ?_, fun _ => 1, ?_⟩
  · intro x u k dt y
    rw [smul_mulVec, one_mulVec]
    module
  · intro h
    have h' := congrFun h 0
    have hf : ⌊((1 : ℝ) / 2) / 1⌋ = 0 := by norm_num
    simp only [ctModel, hf] at h'
    norm_num [smul_mulVec] at h'

end CT.Filter
