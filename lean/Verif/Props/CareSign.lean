import Verif.Props.CareExist
import Mathlib.LinearAlgebra.Matrix.AbsoluteValue
import Mathlib.Data.Matrix.Block

/-!
# Newton's iteration for the sign of the Hamiltonian matrix

Classical facts for C174.
-/

set_option linter.unusedSectionVars false

namespace CT.Care

open Matrix Filter Topology CT.LinOde CT.Lqr

variable {n m : ℕ}

/-! ### Stable matrices -/

/-- One step of the iteration. -/
noncomputable def newton {ι : Type*} [Fintype ι] [DecidableEq ι] (W : Matrix ι ι ℝ) : Matrix ι ι ℝ :=
  W - (1 / 2 : ℝ) • (W - W⁻¹)

theorem isUnit_of_inj {ι : Type*} [Fintype ι] [DecidableEq ι] {M : Matrix ι ι ℝ} (h : ∀ v, M *ᵥ v = 0 → v = 0) :
    IsUnit M.det := by
  rw [isUnit_iff_ne_zero]
  intro h0
  obtain ⟨v, hv, e⟩ := Matrix.exists_mulVec_eq_zero_iff.2 h0
  exact hv (h v e)

theorem sub_one_unit {a : Matrix (Fin n) (Fin n) ℝ} (ha : Hurwitz a) : IsUnit (a - 1).det := by
  refine isUnit_of_inj fun v hv => ?_
  by_contra hne
  rw [sub_mulVec, one_mulVec, sub_eq_zero] at hv
  have := ha 1 (fun i => (v i : ℂ)) (fun h => hne (by ext i; simpa using congrFun h i)) (by
    ext i
    have := congrFun hv i
    simp only [mulVec, dotProduct, map_apply, one_smul] at this ⊢
    rw [← this]
    push_cast
    rfl)
  norm_num at this

/-- The Cayley transform. -/
noncomputable def cayley (a : Matrix (Fin n) (Fin n) ℝ) : Matrix (Fin n) (Fin n) ℝ := (a + 1) * (a - 1)⁻¹

theorem cayley_pow_vec {a : Matrix (Fin n) (Fin n) ℝ} (ha : Hurwitz a) (v : Fin n → ℝ) :
    Tendsto (fun N : ℕ => cayley a ^ N *ᵥ v) atTop (𝓝 0) := by
  obtain ⟨X, hX⟩ := ha.lyapunov 1
  have hXn : ∀ x, 0 ≤ x ⬝ᵥ (X *ᵥ x) := fun x => ha.nonneg hX (fun y => by
    rw [one_mulVec]; exact Finset.sum_nonneg fun i _ => mul_self_nonneg _) x
  have hu := sub_one_unit ha
  set z : ℕ → Fin n → ℝ := fun N => cayley a ^ N *ᵥ v with hz
  set w : ℕ → Fin n → ℝ := fun N => (a - 1)⁻¹ *ᵥ z N with hw
  have h1 : ∀ N, z N = a *ᵥ w N - w N := fun N => by
    have : (a - 1) *ᵥ w N = z N := by rw [hw, mulVec_mulVec, Matrix.mul_nonsing_inv _ hu, one_mulVec]
    rw [← this, sub_mulVec, one_mulVec]
  have h2 : ∀ N, z (N + 1) = a *ᵥ w N + w N := fun N => by
    simp only [hz, hw]
    rw [pow_succ', ← mulVec_mulVec, cayley, ← mulVec_mulVec, add_mulVec, one_mulVec]
  have hstep : ∀ N, z N ⬝ᵥ (X *ᵥ z N) - z (N + 1) ⬝ᵥ (X *ᵥ z (N + 1)) = 2 * (w N ⬝ᵥ w N) := by
    intro N
    have hl : w N ⬝ᵥ ((aᵀ * X + X * a) *ᵥ w N) = -(w N ⬝ᵥ w N) := by
      rw [hX, neg_mulVec, one_mulVec, dotProduct_neg]
    rw [add_mulVec, dotProduct_add, ← mulVec_mulVec, ← mulVec_mulVec, mulVec_transpose, ← dotProduct_comm,
      ← dotProduct_mulVec, dotProduct_comm] at hl
    rw [h1, h2]
    simp only [mulVec_sub, mulVec_add, dotProduct_sub, dotProduct_add, sub_dotProduct, add_dotProduct]
    linarith
  have hanti : Antitone fun N => z N ⬝ᵥ (X *ᵥ z N) := antitone_nat_of_succ_le fun N => by
    have h3 := hstep N
    have h4 : 0 ≤ w N ⬝ᵥ w N := Finset.sum_nonneg fun i _ => mul_self_nonneg _
    linarith
  have hconv := tendsto_atTop_ciInf hanti ⟨0, by rintro _ ⟨N, rfl⟩; exact hXn _⟩
  have hww : Tendsto (fun N => w N ⬝ᵥ w N) atTop (𝓝 0) := by
    have := (hconv.sub (hconv.comp (tendsto_add_atTop_nat 1))).div_const 2
    rw [sub_self, zero_div] at this
    refine this.congr fun N => ?_
    have := hstep N
    simp only [Function.comp]
    linarith
  have hw0 : Tendsto w atTop (𝓝 0) := by
    refine tendsto_pi_nhds.2 fun i => ?_
    have hsq : Tendsto (fun N => w N i * w N i) atTop (𝓝 0) :=
      squeeze_zero (fun N => mul_self_nonneg _) (fun N =>
        Finset.single_le_sum (f := fun i => w N i * w N i) (fun j _ => mul_self_nonneg _) (Finset.mem_univ i)) hww
    have := hsq.sqrt
    rw [Real.sqrt_zero] at this
    refine (tendsto_zero_iff_abs_tendsto_zero _).2 (this.congr fun N => ?_)
    exact Real.sqrt_mul_self_eq_abs _
  have hc : Continuous fun w : Fin n → ℝ => a *ᵥ w - w :=
    (continuous_const.matrix_mulVec continuous_id).sub continuous_id
  have := (hc.tendsto 0).comp hw0
  rw [mulVec_zero, sub_zero] at this
  exact this.congr fun N => (h1 N).symm

theorem cayley_pow {a : Matrix (Fin n) (Fin n) ℝ} (ha : Hurwitz a) : Tendsto (fun N : ℕ => cayley a ^ N) atTop (𝓝 0) := by
  refine tendsto_pi_nhds.2 fun i => tendsto_pi_nhds.2 fun j => ?_
  have := tendsto_pi_nhds.1 (cayley_pow_vec ha (Pi.single j 1)) i
  refine this.congr fun N => ?_
  simp

theorem pow_vec_fix {D : Matrix (Fin n) (Fin n) ℝ} {v : Fin n → ℝ} (h : D *ᵥ v = v) (k : ℕ) : D ^ k *ᵥ v = v := by
  induction k with
  | zero => simp
  | succ k ih => rw [pow_succ, ← mulVec_mulVec, h, ih]

theorem cayley_unit {a : Matrix (Fin n) (Fin n) ℝ} (ha : Hurwitz a) {N : ℕ} (hN : 0 < N) :
    IsUnit (1 - cayley a ^ N).det ∧ IsUnit (1 + cayley a ^ N).det := by
  have key : ∀ v, (cayley a ^ (N * 2)) *ᵥ v = v → v = 0 := by
    intro v hv
    have h1 : Tendsto (fun k : ℕ => cayley a ^ (N * 2 * k) *ᵥ v) atTop (𝓝 0) :=
      (cayley_pow_vec ha v).comp (tendsto_id.const_mul_atTop' (by omega))
    have h2 : (fun k : ℕ => cayley a ^ (N * 2 * k) *ᵥ v) = fun _ => v := by
      funext k
      rw [pow_mul, pow_vec_fix hv]
    rw [h2] at h1
    exact tendsto_nhds_unique tendsto_const_nhds h1
  refine ⟨isUnit_of_inj fun v hv => key v ?_, isUnit_of_inj fun v hv => key v ?_⟩
  · rw [sub_mulVec, one_mulVec, sub_eq_zero] at hv
    rw [pow_mul, pow_two, ← mulVec_mulVec, ← hv, ← hv]
  · rw [add_mulVec, one_mulVec, add_comm, ← eq_neg_iff_add_eq_zero] at hv
    rw [pow_mul, pow_two, ← mulVec_mulVec, hv, mulVec_neg, hv, neg_neg]

/-- The inverse of the Cayley transform. -/
noncomputable def decay (D : Matrix (Fin n) (Fin n) ℝ) : Matrix (Fin n) (Fin n) ℝ := -((1 + D) * (1 - D)⁻¹)

theorem decay_inv {D : Matrix (Fin n) (Fin n) ℝ} (h1 : IsUnit (1 - D).det) (h2 : IsUnit (1 + D).det) :
    decay D * -((1 - D) * (1 + D)⁻¹) = 1 := by
  rw [decay, neg_mul_neg, Matrix.mul_assoc, ← Matrix.mul_assoc (1 - D)⁻¹, Matrix.nonsing_inv_mul _ h1, Matrix.one_mul,
    Matrix.mul_nonsing_inv _ h2]

theorem newton_decay {D : Matrix (Fin n) (Fin n) ℝ} (h1 : IsUnit (1 - D).det) (h2 : IsUnit (1 + D).det) :
    newton (decay D) = decay (D ^ 2) := by
  have hp : (1 - D) * (1 + D) = 1 - D ^ 2 := by noncomm_ring
  have hp' : (1 + D) * (1 - D) = 1 - D ^ 2 := by noncomm_ring
  have hu : IsUnit (1 - D ^ 2).det := by rw [← hp, det_mul]; exact h1.mul h2
  have e1 : decay D * (1 - D ^ 2) = -((1 + D) * (1 + D)) := by
    rw [decay, ← hp, Matrix.neg_mul, Matrix.mul_assoc, ← Matrix.mul_assoc (1 - D)⁻¹, Matrix.nonsing_inv_mul _ h1, Matrix.one_mul]
  have e2 : (decay D)⁻¹ * (1 - D ^ 2) = -((1 - D) * (1 - D)) := by
    rw [Matrix.inv_eq_right_inv (decay_inv h1 h2), ← hp', Matrix.neg_mul, Matrix.mul_assoc, ← Matrix.mul_assoc (1 + D)⁻¹,
      Matrix.nonsing_inv_mul _ h2, Matrix.one_mul]
  have e3 : newton (decay D) * (1 - D ^ 2) = -(1 + D ^ 2) := by
    rw [newton, Matrix.sub_mul, smul_mul_assoc, Matrix.sub_mul, e1, e2]
    have : -((1 + D) * (1 + D)) - (1 / 2 : ℝ) • (-((1 + D) * (1 + D)) - -((1 - D) * (1 - D))) =
        (1 / 2 : ℝ) • (-((1 + D) * (1 + D)) + -((1 - D) * (1 - D))) := by
      rw [smul_sub, smul_add]
      have h : ∀ M : Matrix (Fin n) (Fin n) ℝ, M = (1 / 2 : ℝ) • M + (1 / 2 : ℝ) • M := fun M => by
        rw [← add_smul]; norm_num
      conv_lhs => lhs; rw [h (-((1 + D) * (1 + D)))]
      abel
    rw [this]
    have h3 : -((1 + D) * (1 + D)) + -((1 - D) * (1 - D)) = (2 : ℝ) • -(1 + D ^ 2) := by
      rw [two_smul]; noncomm_ring
    rw [h3, smul_smul]
    norm_num
  rw [decay.eq_def (D ^ 2), ← Matrix.neg_mul, ← e3, Matrix.mul_assoc, Matrix.mul_nonsing_inv _ hu, Matrix.mul_one]

theorem decay_cayley {a : Matrix (Fin n) (Fin n) ℝ} (ha : Hurwitz a) : decay (cayley a) = a := by
  have hu := sub_one_unit ha
  have h1 := (cayley_unit ha one_pos).1
  rw [pow_one] at h1
  have e : a * (1 - cayley a) = -(1 + cayley a) := by
    have hI : (a - 1) * (a - 1)⁻¹ = 1 := Matrix.mul_nonsing_inv _ hu
    have h2 : 1 - cayley a = (-2 : ℝ) • (a - 1)⁻¹ := by
      rw [cayley]
      nth_rw 1 [← hI]
      rw [← Matrix.sub_mul]
      have : a - 1 - (a + 1) = (-2 : ℝ) • (1 : Matrix (Fin n) (Fin n) ℝ) := by
        rw [neg_smul, two_smul]; abel
      rw [this, smul_mul_assoc, Matrix.one_mul]
    have h3 : 1 + cayley a = (2 : ℝ) • (a * (a - 1)⁻¹) := by
      rw [cayley]
      nth_rw 1 [← hI]
      rw [← Matrix.add_mul]
      have : a - 1 + (a + 1) = (2 : ℝ) • a := by rw [two_smul]; abel
      rw [this, smul_mul_assoc]
    rw [h2, h3, mul_smul_comm, neg_smul]
  rw [decay, ← Matrix.neg_mul, ← e, Matrix.mul_assoc, Matrix.mul_nonsing_inv _ h1, Matrix.mul_one]

theorem newton_iterate {a : Matrix (Fin n) (Fin n) ℝ} (ha : Hurwitz a) (k : ℕ) :
    newton^[k] a = decay (cayley a ^ 2 ^ k) := by
  induction k with
  | zero => simp [decay_cayley ha]
  | succ k ih =>
    have h := cayley_unit ha (N := 2 ^ k) (by positivity)
    rw [Function.iterate_succ_apply', ih, newton_decay h.1 h.2, ← pow_mul, pow_succ]

theorem newton_unit {a : Matrix (Fin n) (Fin n) ℝ} (ha : Hurwitz a) (k : ℕ) : IsUnit (newton^[k] a).det := by
  have h := cayley_unit ha (N := 2 ^ k) (by positivity)
  rw [newton_iterate ha]
  exact Matrix.isUnit_det_of_right_inverse (decay_inv h.1 h.2)

/-- For a stable matrix the iteration tends to minus the identity. -/
theorem newton_tendsto {a : Matrix (Fin n) (Fin n) ℝ} (ha : Hurwitz a) : Tendsto (fun k => newton^[k] a) atTop (𝓝 (-1)) := by
  have h1 : Tendsto (fun k : ℕ => cayley a ^ 2 ^ k) atTop (𝓝 0) :=
    (cayley_pow ha).comp (tendsto_pow_atTop_atTop_of_one_lt (by norm_num))
  have hc : ContinuousAt (decay (n := n)) 0 := by
    unfold decay
    have hi : ContinuousAt (fun D : Matrix (Fin n) (Fin n) ℝ => (1 - D)⁻¹) 0 :=
      ContinuousAt.comp (f := fun D : Matrix (Fin n) (Fin n) ℝ => 1 - D)
        (inv_continuousAt (by rw [sub_zero]; simp)) (by fun_prop)
    fun_prop
  have := hc.tendsto.comp h1
  have h0 : decay (0 : Matrix (Fin n) (Fin n) ℝ) = -1 := by simp [decay]
  rw [h0] at this
  exact this.congr fun k => (newton_iterate ha k).symm

/-! ### The Hamiltonian matrix -/

variable {Q A : Matrix (Fin n) (Fin n) ℝ} {B : Matrix (Fin n) (Fin m) ℝ} {R : Matrix (Fin m) (Fin m) ℝ}

theorem newton_neg_transpose {x : Matrix (Fin n) (Fin n) ℝ} (hx : IsUnit x.det) : newton (-xᵀ) = -(newton x)ᵀ := by
  have h : (-xᵀ)⁻¹ = -(x⁻¹)ᵀ := by
    refine Matrix.inv_eq_right_inv ?_
    rw [neg_mul_neg, ← transpose_mul, Matrix.nonsing_inv_mul _ hx, transpose_one]
  simp only [newton, h, transpose_sub, transpose_smul]
  rw [neg_sub_neg, neg_sub, ← neg_sub xᵀ, smul_neg, sub_neg_eq_add, add_comm, ← sub_eq_add_neg]

theorem signStep_conj {T T' : Matrix (Fin n ⊕ Fin n) (Fin n ⊕ Fin n) ℝ} (hT : T * T' = 1)
    {x y : Matrix (Fin n) (Fin n) ℝ} (hx : IsUnit x.det) (hy : IsUnit y.det) :
    signStep (T * fromBlocks x 0 0 y * T') = T * fromBlocks (newton x) 0 0 (newton y) * T' := by
  have hT' : T' * T = 1 := mul_eq_one_comm.1 hT
  have hi : (T * fromBlocks x 0 0 y * T')⁻¹ = T * fromBlocks x⁻¹ 0 0 y⁻¹ * T' := by
    refine Matrix.inv_eq_right_inv ?_
    have : fromBlocks x 0 0 y * fromBlocks x⁻¹ 0 0 y⁻¹ = 1 := by
      rw [fromBlocks_multiply]
      simp [Matrix.mul_nonsing_inv _ hx, Matrix.mul_nonsing_inv _ hy, fromBlocks_one]
    calc T * fromBlocks x 0 0 y * T' * (T * fromBlocks x⁻¹ 0 0 y⁻¹ * T') =
        T * (fromBlocks x 0 0 y * (T' * T) * fromBlocks x⁻¹ 0 0 y⁻¹) * T' := by simp only [Matrix.mul_assoc]
      _ = 1 := by rw [hT', Matrix.mul_one, this, Matrix.mul_one, hT]
  rw [signStep, hi]
  have : fromBlocks (newton x) 0 0 (newton y) = fromBlocks x 0 0 y - (1 / 2 : ℝ) •
      (fromBlocks x 0 0 y - fromBlocks x⁻¹ 0 0 y⁻¹) := by
    ext i j
    rcases i with i | i <;> rcases j with j | j <;> simp [newton]
  rw [this]
  simp only [Matrix.mul_sub, Matrix.sub_mul, mul_smul_comm, smul_mul_assoc]

/-- The sign of the Hamiltonian matrix. -/
noncomputable def signLimit (P Y : Matrix (Fin n) (Fin n) ℝ) : Matrix (Fin n ⊕ Fin n) (Fin n ⊕ Fin n) ℝ :=
  fromBlocks 1 Y P (P * Y + 1) * fromBlocks (-1) 0 0 1 * fromBlocks (1 + Y * P) (-Y) (-P) 1

theorem basis_inv (P Y : Matrix (Fin n) (Fin n) ℝ) :
    fromBlocks 1 Y P (P * Y + 1) * fromBlocks (1 + Y * P) (-Y) (-P) 1 = 1 := by
  rw [fromBlocks_multiply, ← fromBlocks_one]
  congr 1 <;> noncomm_ring

/-- The iteration for the Hamiltonian matrix converges. -/
theorem sign_tendsto (hR : Pd R) {P : Matrix (Fin n) (Fin n) ℝ} (hP : Psd P) (hc : SolvesCARE Q A B R P)
    (hH : Hurwitz (A - B * lqrGain R⁻¹ B P)) :
    ∃ Y, Tendsto (fun k => signStep^[k] (hamiltonian Q A B R⁻¹)) atTop (𝓝 (signLimit P Y)) ∧
      ∀ k, IsUnit (signStep^[k] (hamiltonian Q A B R⁻¹)).det := by
  set F := A - B * lqrGain R⁻¹ B P with hF
  have hFt : Hurwitz Fᵀ := hurwitz_transpose.2 hH
  obtain ⟨Y, hY⟩ := hFt.lyapunov (-(B * R⁻¹ * Bᵀ))
  rw [transpose_transpose, neg_neg] at hY
  set T : Matrix (Fin n ⊕ Fin n) (Fin n ⊕ Fin n) ℝ := fromBlocks 1 Y P (P * Y + 1) with hT
  set T' : Matrix (Fin n ⊕ Fin n) (Fin n ⊕ Fin n) ℝ := fromBlocks (1 + Y * P) (-Y) (-P) 1 with hT'
  have hTT : T * T' = 1 := basis_inv P Y
  have hG : F = A - B * R⁻¹ * Bᵀ * P := by rw [hF, lqrGain]; simp only [Matrix.mul_assoc]
  have hS : (B * R⁻¹ * Bᵀ)ᵀ = B * R⁻¹ * Bᵀ := (s_psd hR).1
  have hFT : Fᵀ = Aᵀ - P * (B * R⁻¹ * Bᵀ) := by
    rw [hG, transpose_sub, transpose_mul, hS, hP.1]
  set S := B * R⁻¹ * Bᵀ with hSdef
  have hcare : Aᵀ * P + P * A - P * S * P + Q = 0 := by
    have := hc
    rw [SolvesCARE] at this
    rw [hSdef]
    simpa only [Matrix.mul_assoc] using this
  have hQ' : Q = P * S * P - Aᵀ * P - P * A := by
    have : Q = (Aᵀ * P + P * A - P * S * P + Q) + (P * S * P - Aᵀ * P - P * A) := by abel
    rw [this, hcare, zero_add]
  have hM : hamiltonian Q A B R⁻¹ = T * fromBlocks F 0 0 (-Fᵀ) * T' := by
    have h1 : hamiltonian Q A B R⁻¹ * T = T * fromBlocks F 0 0 (-Fᵀ) := by
      rw [hamiltonian, hT, fromBlocks_multiply, fromBlocks_multiply]
      have e12 : A * Y + -S * (P * Y + 1) = 1 * 0 + Y * -Fᵀ := by
        have : Y * Fᵀ = S - F * Y := by rw [← hY]; abel
        rw [Matrix.mul_neg, this, hG]
        noncomm_ring
      have e22 : -Q * Y + -Aᵀ * (P * Y + 1) = P * 0 + (P * Y + 1) * -Fᵀ := by
        have : Y * Fᵀ = S - F * Y := by rw [← hY]; abel
        rw [Matrix.mul_neg, Matrix.add_mul, Matrix.mul_assoc, this, Matrix.one_mul, hFT, hG, hQ']
        noncomm_ring
      have e11 : A * 1 + -S * P = 1 * F + Y * 0 := by rw [hG]; noncomm_ring
      have e21 : -Q * 1 + -Aᵀ * P = P * F + (P * Y + 1) * 0 := by rw [hG, hQ']; noncomm_ring
      rw [e11, e12, e21, e22]
    rw [← h1, Matrix.mul_assoc, hTT, Matrix.mul_one]
  have hneg : ∀ k, IsUnit (-(newton^[k] F)ᵀ).det := fun k => by
    rw [det_neg, det_transpose]
    exact IsUnit.mul (IsUnit.pow _ isUnit_one.neg) (newton_unit hH k)
  have hit : ∀ k, signStep^[k] (hamiltonian Q A B R⁻¹) = T * fromBlocks (newton^[k] F) 0 0 (-(newton^[k] F)ᵀ) * T' := by
    intro k
    induction k with
    | zero => exact hM
    | succ k ih =>
      have hu := newton_unit hH k
      rw [Function.iterate_succ_apply', ih, signStep_conj hTT hu (hneg k), newton_neg_transpose hu,
        ← Function.iterate_succ_apply' newton]
  refine ⟨Y, ?_, fun k => ?_⟩
  swap
  · rw [hit k, det_mul, det_mul, det_fromBlocks_zero₂₁]
    exact ((Matrix.isUnit_det_of_right_inverse hTT).mul ((newton_unit hH k).mul (hneg k))).mul
      (Matrix.isUnit_det_of_left_inverse hTT)
  have ht := newton_tendsto hH
  have hcont : Continuous fun x : Matrix (Fin n) (Fin n) ℝ => T * fromBlocks x 0 0 (-xᵀ) * T' := by
    have : Continuous fun x : Matrix (Fin n) (Fin n) ℝ => (fromBlocks x 0 0 (-xᵀ) : Matrix (Fin n ⊕ Fin n) (Fin n ⊕ Fin n) ℝ) :=
      Continuous.matrix_fromBlocks continuous_id continuous_const continuous_const continuous_id.matrix_transpose.neg
    fun_prop
  have hl := (hcont.tendsto (-1)).comp ht
  have e : T * fromBlocks (-1) 0 0 (-(-1 : Matrix (Fin n) (Fin n) ℝ)ᵀ) * T' = signLimit P Y := by
    rw [signLimit, transpose_neg, transpose_one, neg_neg]
  rw [e] at hl
  exact hl.congr fun k => (hit k).symm

theorem signLimit_eq (P Y : Matrix (Fin n) (Fin n) ℝ) : signLimit P Y =
    fromBlocks (-1 - (2 : ℝ) • (Y * P)) ((2 : ℝ) • Y) (-((2 : ℝ) • (P + P * Y * P))) ((2 : ℝ) • (P * Y) + 1) := by
  rw [signLimit, fromBlocks_multiply, fromBlocks_multiply]
  congr 1 <;> simp only [two_smul] <;> noncomm_ring

end CT.Care
