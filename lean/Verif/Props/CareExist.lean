import Verif.Props.CareStable
import Verif.Props.DareConvergence
import Mathlib.Tactic.Abel

/-!
# Existence of the stabilising solution of the Riccati equation

By policy iteration: Lyapunov equations give a decreasing sequence of costs of stabilising feedbacks.
-/

set_option linter.unusedSectionVars false

namespace CT.Care

open Matrix Filter Topology CT.LinOde CT.Lqr

variable {n m : ℕ} {Q A : Matrix (Fin n) (Fin n) ℝ} {B : Matrix (Fin n) (Fin m) ℝ} {R : Matrix (Fin m) (Fin m) ℝ}

/-- Expands products of rectangular matrices. -/
macro "rect" : tactic => `(tactic|
  (simp only [Matrix.mul_sub, Matrix.sub_mul, Matrix.mul_add, Matrix.add_mul, Matrix.mul_assoc, Matrix.mul_neg,
    Matrix.neg_mul] <;> abel))

/-- Lyapunov: a semi-definite form that decreases wherever an unstable mode could be. -/
theorem hurwitz_of_form {F P W : Matrix (Fin n) (Fin n) ℝ} (hP : Psd P) (hW : Psd W) (h : Fᵀ * P + P * F = -W)
    (hz : ∀ (μ : ℂ) (v : Fin n → ℂ), v ≠ 0 → cx F *ᵥ v = μ • v → cx W *ᵥ v = 0 → μ.re < 0) : Hurwitz F := by
  intro μ v hv e
  change cx F *ᵥ v = μ • v at e
  by_contra hμ
  rw [not_lt] at hμ
  set p := star v ⬝ᵥ (cx P *ᵥ v) with hp
  have h1 : star v ⬝ᵥ (cx (P * F) *ᵥ v) = μ * p := by
    rw [cx_mul, ← mulVec_mulVec, e, mulVec_smul, dotProduct_smul, smul_eq_mul]
  have h2 : star v ⬝ᵥ (cx (Fᵀ * P) *ᵥ v) = star μ * p := by
    rw [cx_mul, ← mulVec_mulVec, cx_transpose, mulVec_transpose, ← dotProduct_comm, ← dotProduct_mulVec, ← star_cx, e,
      star_smul, dotProduct_smul, smul_eq_mul, dotProduct_comm]
  have hs : (star v ⬝ᵥ (cx (Fᵀ * P + P * F) *ᵥ v)).re = 2 * μ.re * p.re := by
    rw [cx_add, add_mulVec, dotProduct_add, h1, h2]
    simp
    ring
  have hpos : 0 ≤ p.re := by
    rw [hp, cx_form_re]
    exact add_nonneg (hP.2 _) (hP.2 _)
  have hWv : (star v ⬝ᵥ (cx W *ᵥ v)).re = -(2 * μ.re * p.re) := by
    rw [← hs, h, cx_form_re, cx_form_re]
    simp [neg_mulVec]
    ring
  have hW0 : 0 ≤ (star v ⬝ᵥ (cx W *ᵥ v)).re := by
    rw [cx_form_re]
    exact add_nonneg (hW.2 _) (hW.2 _)
  have hk : (star v ⬝ᵥ (cx W *ᵥ v)).re = 0 := by
    have := mul_nonneg hμ hpos
    linarith
  exact absurd (hz μ v hv e (cx_psd_ker hW hk)) (not_lt.2 hμ)

theorem form_congr (K : Matrix (Fin m) (Fin n) ℝ) (v : Fin n → ℝ) :
    v ⬝ᵥ ((Kᵀ * R * K) *ᵥ v) = (K *ᵥ v) ⬝ᵥ (R *ᵥ (K *ᵥ v)) := by
  rw [← mulVec_mulVec, ← mulVec_mulVec, mulVec_transpose, ← dotProduct_comm, ← dotProduct_mulVec, dotProduct_comm]

theorem psd_congr (hR : Psd R) (K : Matrix (Fin m) (Fin n) ℝ) : Psd (Kᵀ * R * K) :=
  ⟨by simp [transpose_mul, hR.1, Matrix.mul_assoc], fun v => by rw [form_congr]; exact hR.2 _⟩

theorem psd_add {k : ℕ} {M N : Matrix (Fin k) (Fin k) ℝ} (hM : Psd M) (hN : Psd N) : Psd (M + N) :=
  ⟨by rw [transpose_add, hM.1, hN.1], fun v => by
    rw [add_mulVec, dotProduct_add]; exact add_nonneg (hM.2 v) (hN.2 v)⟩

/-- A feedback of finite cost stabilises a detectable system. -/
theorem closed_hurwitz (hQ : Psd Q) (hR : Pd R) (hd : Detectable A Q) {P Z : Matrix (Fin n) (Fin n) ℝ} (hP : Psd P)
    (hZ : Psd Z) {K : Matrix (Fin m) (Fin n) ℝ}
    (h : (A - B * K)ᵀ * P + P * (A - B * K) = -(Q + Kᵀ * R * K + Z)) : Hurwitz (A - B * K) := by
  have hK := psd_congr hR.psd K
  refine hurwitz_of_form hP (psd_add (psd_add hQ hK) hZ) h fun μ v hv e hW => ?_
  have key : ∀ w : Fin n → ℝ, (Q + Kᵀ * R * K + Z) *ᵥ w = 0 → Q *ᵥ w = 0 ∧ K *ᵥ w = 0 := by
    intro w hw
    have h0 : w ⬝ᵥ ((Q + Kᵀ * R * K + Z) *ᵥ w) = 0 := by rw [hw, dotProduct_zero]
    rw [add_mulVec, add_mulVec, dotProduct_add, dotProduct_add] at h0
    have h1 := hQ.2 w
    have h2 := hK.2 w
    have h3 := hZ.2 w
    refine ⟨psd_ker hQ (by linarith), ?_⟩
    by_contra hne
    have := hR.2 _ hne
    rw [form_congr] at h0 h2
    linarith
  have hr := cx_re (Q + Kᵀ * R * K + Z) v
  have hi := cx_im (Q + Kᵀ * R * K + Z) v
  rw [hW] at hr hi
  have hr := key _ hr.symm
  have hi := key _ hi.symm
  refine hd.hautus hv ?_ (cx_zero hr.1 hi.1)
  have hKv : cx K *ᵥ v = 0 := cx_zero hr.2 hi.2
  have hA : cx A = cx (A - B * K) + cx B * cx K := by rw [← cx_mul, ← cx_add, sub_add_cancel]
  rw [hA, add_mulVec, ← mulVec_mulVec, hKv, mulVec_zero, add_zero, e]

/-- The cost of a stabilising feedback. -/
theorem feedback_value (hQ : Psd Q) (hR : Pd R) {K : Matrix (Fin m) (Fin n) ℝ} (hK : Hurwitz (A - B * K)) :
    ∃ P, Psd P ∧ (A - B * K)ᵀ * P + P * (A - B * K) = -(Q + Kᵀ * R * K) := by
  obtain ⟨P, hP⟩ := hK.lyapunov (Q + Kᵀ * R * K)
  have hG := psd_add hQ (psd_congr hR.psd K)
  refine ⟨P, ⟨?_, fun x => hK.nonneg hP hG.2 x⟩, hP⟩
  have h2 := congrArg transpose hP
  rw [transpose_add, transpose_mul, transpose_mul, transpose_transpose, transpose_neg, hG.1, ← hP] at h2
  have : Pᵀ - P = 0 := by
    refine hK.sylvester hK ?_
    rw [Matrix.mul_sub, Matrix.sub_mul, sub_add_sub_comm, sub_eq_zero, add_comm, h2]
  exact sub_eq_zero.1 this

theorem r_gain (hR : Pd R) (P : Matrix (Fin n) (Fin n) ℝ) : R * lqrGain R⁻¹ B P = Bᵀ * P := by
  rw [lqrGain, ← Matrix.mul_assoc, Matrix.mul_nonsing_inv _ hR.isUnit, Matrix.one_mul]

theorem gain_r (hR : Pd R) {P : Matrix (Fin n) (Fin n) ℝ} (hP : Pᵀ = P) : (lqrGain R⁻¹ B P)ᵀ * R = P * B := by
  have := congrArg transpose (r_gain (B := B) hR P)
  rwa [transpose_mul, transpose_mul, transpose_transpose, hR.1, hP] at this

/-- Changing the feedback. -/
theorem improve (hR : Pd R) {P : Matrix (Fin n) (Fin n) ℝ} (hP : Pᵀ = P) {K : Matrix (Fin m) (Fin n) ℝ}
    (h : (A - B * K)ᵀ * P + P * (A - B * K) = -(Q + Kᵀ * R * K)) :
    (A - B * lqrGain R⁻¹ B P)ᵀ * P + P * (A - B * lqrGain R⁻¹ B P) =
      -(Q + (lqrGain R⁻¹ B P)ᵀ * R * lqrGain R⁻¹ B P +
        (K - lqrGain R⁻¹ B P)ᵀ * R * (K - lqrGain R⁻¹ B P)) := by
  have e1 := r_gain (B := B) hR P
  have e2 := gain_r (B := B) hR hP
  set L := lqrGain R⁻¹ B P
  have hA : (A - B * L)ᵀ * P + P * (A - B * L) =
      ((A - B * K)ᵀ * P + P * (A - B * K)) + ((K - L)ᵀ * (Bᵀ * P) + P * B * (K - L)) := by
    simp only [transpose_sub, transpose_mul]
    rect
  rw [hA, h, ← e1, ← e2]
  simp only [transpose_sub]
  rect

/-- A stabilisable and detectable system has a positive semi-definite solution of the Riccati equation whose feedback
stabilises. -/
theorem exists_solution (hQ : Psd Q) (hR : Pd R) (hst : Stabilisable A B) (hd : Detectable A Q) :
    ∃ P, Psd P ∧ SolvesCARE Q A B R P ∧ Hurwitz (A - B * lqrGain R⁻¹ B P) := by
  obtain ⟨K0, hK0⟩ := hst
  have hK0 : Hurwitz (A - B * -K0) := by rwa [Matrix.mul_neg, sub_neg_eq_add]
  let val : {K : Matrix (Fin m) (Fin n) ℝ // Hurwitz (A - B * K)} → Matrix (Fin n) (Fin n) ℝ :=
    fun K => (feedback_value hQ hR K.2).choose
  have hval : ∀ K, Psd (val K) ∧ (A - B * K.1)ᵀ * val K + val K * (A - B * K.1) = -(Q + K.1ᵀ * R * K.1) :=
    fun K => (feedback_value hQ hR K.2).choose_spec
  let next : {K : Matrix (Fin m) (Fin n) ℝ // Hurwitz (A - B * K)} → {K : Matrix (Fin m) (Fin n) ℝ // Hurwitz (A - B * K)} :=
    fun K => ⟨lqrGain R⁻¹ B (val K), closed_hurwitz hQ hR hd (hval K).1
      (psd_congr hR.psd (K.1 - lqrGain R⁻¹ B (val K))) (improve hR (hval K).1.1 (hval K).2)⟩
  let K : ℕ → {K : Matrix (Fin m) (Fin n) ℝ // Hurwitz (A - B * K)} := fun k => next^[k] ⟨-K0, hK0⟩
  have hK : ∀ k, K (k + 1) = next (K k) := fun k => Function.iterate_succ_apply' next k _
  have hmono : ∀ k x, x ⬝ᵥ (val (K (k + 1)) *ᵥ x) ≤ x ⬝ᵥ (val (K k) *ᵥ x) := by
    intro k x
    have h1 := improve hR (hval (K k)).1.1 (hval (K k)).2
    have h2 := (hval (K (k + 1))).2
    have e : (K (k + 1)).1 = lqrGain R⁻¹ B (val (K k)) := by rw [hK]
    have hH := (K (k + 1)).2
    rw [e] at h2 hH
    set L := lqrGain R⁻¹ B (val (K k))
    have h3 : (A - B * L)ᵀ * (val (K k) - val (K (k + 1))) + (val (K k) - val (K (k + 1))) * (A - B * L) =
        -(((K k).1 - L)ᵀ * R * ((K k).1 - L)) := by
      rw [Matrix.mul_sub, Matrix.sub_mul, sub_add_sub_comm, h1, h2]
      abel
    have := hH.nonneg h3 (psd_congr hR.psd _).2 x
    rw [sub_mulVec, dotProduct_sub] at this
    linarith
  obtain ⟨P, hP, ht⟩ := exists_limit (P := fun k => val (K k)) (fun k => (hval _).1) fun x =>
    ⟨_, tendsto_atTop_ciInf (antitone_nat_of_succ_le fun k => hmono k x) ⟨0, by
      rintro _ ⟨k, rfl⟩; exact (hval _).1.2 x⟩⟩
  have ht1 : Tendsto (fun k => val (K (k + 1))) atTop (𝓝 P) := ht.comp (tendsto_add_atTop_nat 1)
  have hc : Continuous fun p : Matrix (Fin n) (Fin n) ℝ × Matrix (Fin n) (Fin n) ℝ =>
      (A - B * lqrGain R⁻¹ B p.1)ᵀ * p.2 + p.2 * (A - B * lqrGain R⁻¹ B p.1) +
        (Q + (lqrGain R⁻¹ B p.1)ᵀ * R * lqrGain R⁻¹ B p.1) := by
    have hg : Continuous fun p : Matrix (Fin n) (Fin n) ℝ × Matrix (Fin n) (Fin n) ℝ => lqrGain R⁻¹ B p.1 := by
      unfold lqrGain; fun_prop
    have hgt := hg.matrix_transpose
    have hAt : Continuous fun p : Matrix (Fin n) (Fin n) ℝ × Matrix (Fin n) (Fin n) ℝ => (A - B * lqrGain R⁻¹ B p.1)ᵀ :=
      Continuous.matrix_transpose (by fun_prop)
    fun_prop
  have hl := (hc.tendsto (P, P)).comp (ht.prodMk_nhds ht1)
  have hz : ∀ k, (A - B * lqrGain R⁻¹ B (val (K k)))ᵀ * val (K (k + 1)) +
      val (K (k + 1)) * (A - B * lqrGain R⁻¹ B (val (K k))) +
        (Q + (lqrGain R⁻¹ B (val (K k)))ᵀ * R * lqrGain R⁻¹ B (val (K k))) = 0 := by
    intro k
    have h2 := (hval (K (k + 1))).2
    have e : (K (k + 1)).1 = lqrGain R⁻¹ B (val (K k)) := by rw [hK]
    rw [e] at h2
    rw [h2, neg_add_cancel]
  have hlim : (A - B * lqrGain R⁻¹ B P)ᵀ * P + P * (A - B * lqrGain R⁻¹ B P) +
      (Q + (lqrGain R⁻¹ B P)ᵀ * R * lqrGain R⁻¹ B P) = 0 := by
    refine tendsto_nhds_unique hl ?_
    refine tendsto_const_nhds.congr fun k => ?_
    exact (hz k).symm
  refine ⟨P, hP, ?_, closed_hurwitz hQ hR hd hP (Z := 0) ⟨by simp, fun v => by simp⟩ (by
    rw [add_zero]; exact eq_neg_of_add_eq_zero_left hlim)⟩
  have e1 := r_gain (B := B) hR P
  have e2 := gain_r (B := B) hR hP.1
  have e3 : P * B * R⁻¹ * Bᵀ * P = P * B * lqrGain R⁻¹ B P := by rw [lqrGain]; simp only [Matrix.mul_assoc]
  rw [SolvesCARE, e3, ← hlim]
  set L := lqrGain R⁻¹ B P
  have e4 : (A - B * L)ᵀ * P = Aᵀ * P - Lᵀ * (R * L) := by rw [e1, transpose_sub, transpose_mul]; rect
  rw [e4, ← e2]
  have e5 : P * (A - B * L) = P * A - Lᵀ * R * L := by rw [e2]; rect
  rw [e5]
  rect

end CT.Care
