import Verif.Props.CareSign
import Verif.Props.CareDirect

/-!
# C174: the continuous-time regulator with the iterative Riccati solver

With a small enough tolerance and enough iterations the solver reports success, and the gain it returns is as close to
the optimal one as desired.
-/

set_option linter.unusedSectionVars false

namespace CT.Care

open Matrix Filter Topology CT.LinOde CT.Lqr

variable {n m : ℕ}

/-! ### What the library promises -/

/-- `Eigen::FullPivLU` for a matrix `U` of full column rank: after pivoting, `U = L W` where no entry of `L` exceeds one
(every pivot is the largest remaining entry) and `L` is unit triangular in the rows `f` chosen as pivots; `solve`
returns the matrix that satisfies the equations of those rows.  Rank is decided exactly. -/
def LuOk (lu : Matrix (Fin n ⊕ Fin n) (Fin n) ℝ → Matrix (Fin n ⊕ Fin n) (Fin n) ℝ → Matrix (Fin n) (Fin n) ℝ) : Prop :=
  ∀ U V : Matrix (Fin n ⊕ Fin n) (Fin n) ℝ, (∃ T : Matrix (Fin n) (Fin n ⊕ Fin n) ℝ, T * U = 1) →
    ∃ (L : Matrix (Fin n ⊕ Fin n) (Fin n) ℝ) (W : Matrix (Fin n) (Fin n) ℝ) (f : Fin n → Fin n ⊕ Fin n),
      U = L * W ∧ (∀ i j, |L i j| ≤ 1) ∧ |(L.submatrix f id).det| = 1 ∧
      U.submatrix f id * lu U V = V.submatrix f id

/-! ### The last linear system -/

/-- The matrices of the last linear system. -/
def sysU (W : Matrix (Fin n ⊕ Fin n) (Fin n ⊕ Fin n) ℝ) : Matrix (Fin n ⊕ Fin n) (Fin n) ℝ :=
  fromRows W.toBlocks₁₂ (W.toBlocks₂₂ + 1)

def sysV (W : Matrix (Fin n ⊕ Fin n) (Fin n ⊕ Fin n) ℝ) : Matrix (Fin n ⊕ Fin n) (Fin n) ℝ :=
  fromRows (W.toBlocks₁₁ + 1) W.toBlocks₂₁

theorem sysU_continuous : Continuous (sysU (n := n)) := by
  refine continuous_matrix fun i j => ?_
  rcases i with i | i
  · exact continuous_apply_apply (Sum.inl i) (Sum.inr j)
  · exact (continuous_apply_apply (Sum.inr i) (Sum.inr j)).add continuous_const

theorem sysV_continuous : Continuous (sysV (n := n)) := by
  refine continuous_matrix fun i j => ?_
  rcases i with i | i
  · exact (continuous_apply_apply (Sum.inl i) (Sum.inl j)).add continuous_const
  · exact continuous_apply_apply (Sum.inr i) (Sum.inl j)

/-- A left inverse of the limit of the system matrix. -/
noncomputable def leftInv (P : Matrix (Fin n) (Fin n) ℝ) : Matrix (Fin n) (Fin n ⊕ Fin n) ℝ :=
  (1 / 2 : ℝ) • fromCols (-P) 1

theorem limit_left (P Y : Matrix (Fin n) (Fin n) ℝ) : leftInv P * sysU (signLimit P Y) = 1 := by
  rw [sysU, signLimit_eq, toBlocks_fromBlocks₁₂, toBlocks_fromBlocks₂₂, leftInv, Matrix.smul_mul, fromCols_mul_fromRows]
  have : -P * (2 : ℝ) • Y + 1 * ((2 : ℝ) • (P * Y) + 1 + 1) = (2 : ℝ) • (1 : Matrix (Fin n) (Fin n) ℝ) := by
    simp only [two_smul]; noncomm_ring
  rw [this, smul_smul]
  norm_num

theorem limit_solution (P Y : Matrix (Fin n) (Fin n) ℝ) :
    sysU (signLimit P Y) * P = -sysV (signLimit P Y) := by
  rw [sysU, sysV, signLimit_eq, toBlocks_fromBlocks₁₂, toBlocks_fromBlocks₂₂, toBlocks_fromBlocks₁₁,
    toBlocks_fromBlocks₂₁, fromRows_mul]
  ext i j
  rcases i with i | i
  · have : (2 : ℝ) • Y * P = -(-1 - (2 : ℝ) • (Y * P) + 1) := by simp only [two_smul]; noncomm_ring
    exact congrFun (congrFun this i) j
  · have : ((2 : ℝ) • (P * Y) + 1 + 1) * P = - -((2 : ℝ) • (P + P * Y * P)) := by simp only [two_smul]; noncomm_ring
    exact congrFun (congrFun this i) j

theorem adjugate_bound {k : ℕ} {L : Matrix (Fin k) (Fin k) ℝ} (h : ∀ i j, |L i j| ≤ 1) (i j : Fin k) :
    |L.adjugate i j| ≤ k.factorial := by
  rw [adjugate_apply]
  have := Matrix.det_le (A := L.updateRow j (Pi.single i 1)) (abv := IsAbsoluteValue.toAbsoluteValue (abs : ℝ → ℝ)) (x := 1)
    (fun r c => by
      change |L.updateRow j (Pi.single i 1) r c| ≤ 1
      rw [updateRow_apply]
      split_ifs
      · rw [Pi.single_apply]; split_ifs <;> simp
      · exact h r c)
  simpa using this

/-- The error of the solved system is bounded by the residual of the solution of the limit. -/
theorem lu_bound {lu : Matrix (Fin n ⊕ Fin n) (Fin n) ℝ → Matrix (Fin n ⊕ Fin n) (Fin n) ℝ → Matrix (Fin n) (Fin n) ℝ}
    (hlu : LuOk lu) {U V : Matrix (Fin n ⊕ Fin n) (Fin n) ℝ} {T : Matrix (Fin n) (Fin n ⊕ Fin n) ℝ} (hT : T * U = 1)
    (P : Matrix (Fin n) (Fin n) ℝ) (i j : Fin n) :
    |lu U V i j - P i j| ≤ (∑ a, |T i a|) * (n * (n * (n.factorial * ∑ r, |(V - U * P) r j|))) := by
  obtain ⟨L, W, f, hU, hL, hdet, hsol⟩ := hlu U V ⟨T, hT⟩
  set X := lu U V with hX
  set Lf := L.submatrix f id with hLf
  set E := V - U * P with hE
  have hunit : IsUnit Lf.det := isUnit_iff_ne_zero.2 fun h => by rw [h] at hdet; norm_num at hdet
  have hsub : ∀ Z : Matrix (Fin n) (Fin n) ℝ, (U * Z).submatrix f id = U.submatrix f id * Z := fun Z => by
    ext r c; rfl
  have hUf : U.submatrix f id = Lf * W := by rw [hU]; ext r c; rfl
  have h1 : Lf * (W * (X - P)) = E.submatrix f id := by
    rw [← Matrix.mul_assoc, ← hUf, Matrix.mul_sub, hsol, ← hsub]
    rfl
  have h2 : W * (X - P) = Lf⁻¹ * E.submatrix f id := by
    rw [← h1, ← Matrix.mul_assoc, Matrix.nonsing_inv_mul _ hunit, Matrix.one_mul]
  have h3 : X - P = T * (L * (Lf⁻¹ * E.submatrix f id)) := by
    rw [← h2, ← Matrix.mul_assoc L, ← hU, ← Matrix.mul_assoc, hT, Matrix.one_mul]
  have hLfi : ∀ r c, |Lf⁻¹ r c| ≤ n.factorial := fun r c => by
    rw [Matrix.inv_def, Ring.inverse_eq_inv', Matrix.smul_apply, smul_eq_mul, abs_mul, abs_inv, hdet, inv_one, one_mul]
    exact adjugate_bound (fun i j => hL _ _) r c
  set e := ∑ r, |E r j| with he
  have he0 : 0 ≤ e := Finset.sum_nonneg fun _ _ => abs_nonneg _
  have hEf : ∀ c, |E (f c) j| ≤ e := fun c =>
    Finset.single_le_sum (f := fun r => |E r j|) (fun _ _ => abs_nonneg _) (Finset.mem_univ (f c))
  have h4 : ∀ r, |(Lf⁻¹ * E.submatrix f id) r j| ≤ n * (n.factorial * e) := fun r => by
    rw [Matrix.mul_apply]
    refine (Finset.abs_sum_le_sum_abs _ _).trans ?_
    refine (Finset.sum_le_card_nsmul _ _ (n.factorial * e) fun c _ => ?_).trans (by simp)
    rw [abs_mul]
    exact mul_le_mul (hLfi r c) (hEf c) (abs_nonneg _) (by positivity)
  have h5 : ∀ r, |(L * (Lf⁻¹ * E.submatrix f id)) r j| ≤ n * (n * (n.factorial * e)) := fun r => by
    rw [Matrix.mul_apply]
    refine (Finset.abs_sum_le_sum_abs _ _).trans ?_
    refine (Finset.sum_le_card_nsmul _ _ (n * (n.factorial * e)) fun c _ => ?_).trans (by simp)
    rw [abs_mul]
    calc _ ≤ 1 * (n * (n.factorial * e)) := mul_le_mul (hL r c) (h4 c) (abs_nonneg _) zero_le_one
      _ = _ := one_mul _
  have h6 : X i j - P i j = (X - P) i j := rfl
  rw [h6, h3, Matrix.mul_apply, Finset.sum_mul]
  refine (Finset.abs_sum_le_sum_abs _ _).trans (Finset.sum_le_sum fun a _ => ?_)
  rw [abs_mul]
  exact mul_le_mul_of_nonneg_left (h5 a) (abs_nonneg _)

/-- Near the limit the solved system is near the solution. -/
theorem lu_near {lu : Matrix (Fin n ⊕ Fin n) (Fin n) ℝ → Matrix (Fin n ⊕ Fin n) (Fin n) ℝ → Matrix (Fin n) (Fin n) ℝ}
    (hlu : LuOk lu) (P Y : Matrix (Fin n) (Fin n) ℝ) {δ : ℝ} (hδ : 0 < δ) :
    ∀ᶠ W in 𝓝 (signLimit P Y), ∀ i j, |lu (sysU W) (-sysV W) i j - P i j| < δ := by
  set S := signLimit P Y with hS
  set G : Matrix (Fin n ⊕ Fin n) (Fin n ⊕ Fin n) ℝ → Matrix (Fin n) (Fin n) ℝ := fun W => leftInv P * sysU W with hG
  have hUc : Continuous (sysU (n := n)) := sysU_continuous
  have hVc : Continuous (sysV (n := n)) := sysV_continuous
  have hGc : Continuous G := continuous_const.matrix_mul hUc
  have hGS : G S = 1 := limit_left P Y
  have hGu : IsUnit (G S).det := by rw [hGS]; simp
  have hGi : ContinuousAt (fun W => (G W)⁻¹) S :=
    ContinuousAt.comp (f := G) (inv_continuousAt hGu) hGc.continuousAt
  have hTc : ContinuousAt (fun W => (G W)⁻¹ * leftInv P) S := by fun_prop
  have hEc : Continuous fun W => -sysV W - sysU W * P := by fun_prop
  have hES : -sysV S - sysU S * P = 0 := by rw [limit_solution, sub_self]
  have hev : ∀ᶠ W in 𝓝 S, IsUnit (G W).det := by
    have : ∀ᶠ W in 𝓝 S, (G W).det ≠ 0 :=
      (hGc.matrix_det.continuousAt).eventually_ne hGu.ne_zero
    filter_upwards [this] with W h using isUnit_iff_ne_zero.2 h
  have hb : ∀ i j, ∀ᶠ W in 𝓝 S, (∑ a, |((G W)⁻¹ * leftInv P) i a|) *
      (n * (n * (n.factorial * ∑ r, |(-sysV W - sysU W * P) r j|))) < δ := by
    intro i j
    have hT1 : ContinuousAt (fun W => ∑ a, |((G W)⁻¹ * leftInv P) i a|) S :=
      tendsto_finsetSum _ fun a _ => (((continuous_apply_apply i a).continuousAt (x := (G S)⁻¹ * leftInv P)).tendsto.comp hTc.tendsto).abs
    have hE1 : Continuous fun W : Matrix (Fin n ⊕ Fin n) (Fin n ⊕ Fin n) ℝ => ∑ r, |(-sysV W - sysU W * P) r j| :=
      continuous_finsetSum _ fun r _ => ((continuous_apply_apply r j).comp hEc).abs
    have hprod : ContinuousAt (fun W => (∑ a, |((G W)⁻¹ * leftInv P) i a|) *
      (n * (n * (n.factorial * ∑ r, |(-sysV W - sysU W * P) r j|)))) S :=
      hT1.mul ((continuous_const.mul (continuous_const.mul (continuous_const.mul hE1))).continuousAt)
    have h0 : (∑ a, |((G S)⁻¹ * leftInv P) i a|) *
      ((n : ℝ) * (n * (n.factorial * ∑ r, |(-sysV S - sysU S * P) r j|))) = 0 := by
      rw [hES]; simp
    refine hprod.tendsto.eventually_lt_const ?_
    rw [h0]
    exact hδ
  have hall : ∀ᶠ W in 𝓝 S, ∀ i j, (∑ a, |((G W)⁻¹ * leftInv P) i a|) *
      (n * (n * (n.factorial * ∑ r, |(-sysV W - sysU W * P) r j|))) < δ :=
    eventually_all.2 fun i => eventually_all.2 fun j => hb i j
  filter_upwards [hev, hall] with W hu h i j
  refine (lu_bound hlu (T := (G W)⁻¹ * leftInv P) ?_ P i j).trans_lt (h i j)
  rw [Matrix.mul_assoc]
  exact Matrix.nonsing_inv_mul _ hu

/-! ### The loop -/

theorem signLoop_spec (approx : Matrix (Fin n ⊕ Fin n) (Fin n ⊕ Fin n) ℝ → Matrix (Fin n ⊕ Fin n) (Fin n ⊕ Fin n) ℝ → Bool)
    (fuel : ℕ) (W : Matrix (Fin n ⊕ Fin n) (Fin n ⊕ Fin n) ℝ)
    (h : ∃ j < fuel, approx (signStep^[j + 1] W) (signStep^[j] W) = true) :
    ∃ j, approx (signStep^[j + 1] W) (signStep^[j] W) = true ∧ signLoop approx fuel W = some (signStep^[j + 1] W) := by
  induction fuel generalizing W with
  | zero => obtain ⟨j, hj, _⟩ := h; omega
  | succ fuel ih =>
    rw [signLoop]
    by_cases h0 : approx (signStep W) W = true
    · exact ⟨0, h0, by rw [if_pos h0]; rfl⟩
    · rw [if_neg h0]
      obtain ⟨j, hj, ha⟩ := h
      cases j with
      | zero => exact absurd ha h0
      | succ j =>
        obtain ⟨i, h1, h2⟩ := ih (signStep W) ⟨j, by omega, ha⟩
        exact ⟨i + 1, h1, h2⟩

theorem sumsq_zero {N : Type} [Fintype N] {X : Matrix N N ℝ} (h : ∑ i, ∑ j, X i j ^ 2 ≤ 0) : X = 0 := by
  have h0 : ∑ i, ∑ j, X i j ^ 2 = 0 := le_antisymm h (Finset.sum_nonneg fun _ _ => Finset.sum_nonneg fun _ _ => sq_nonneg _)
  ext i j
  have h1 := (Finset.sum_eq_zero_iff_of_nonneg fun i _ => Finset.sum_nonneg fun j _ => sq_nonneg (X i j)).1 h0 i (Finset.mem_univ _)
  have h2 := (Finset.sum_eq_zero_iff_of_nonneg fun j _ => sq_nonneg (X i j)).1 h1 j (Finset.mem_univ _)
  simpa using h2

theorem sumsq_continuous {N : Type} [Fintype N] : Continuous fun X : Matrix N N ℝ => ∑ i, ∑ j, X i j ^ 2 :=
  continuous_finsetSum _ fun i _ => continuous_finsetSum _ fun j _ => (continuous_apply_apply i j).pow 2

/-- The loop ends near the limit. -/
theorem loop_near {M S : Matrix (Fin n ⊕ Fin n) (Fin n ⊕ Fin n) ℝ}
    (hW : Tendsto (fun k => signStep^[k] M) atTop (𝓝 S)) (hS : n ≠ 0 → S ≠ 0)
    {Φ : Matrix (Fin n ⊕ Fin n) (Fin n ⊕ Fin n) ℝ → Prop} (hΦ : ∀ᶠ W in 𝓝 S, Φ W) :
    ∃ ε₀ > 0, ∀ ε, 0 < ε → ε ≤ ε₀ → ∃ N, ∀ maxIt ≥ N, ∃ W, signLoop (isApprox ε) (maxIt + 1) M = some W ∧ Φ W := by
  obtain ⟨K, hK⟩ := eventually_atTop.1 (hW.eventually hΦ)
  -- an early stop at a small tolerance is a stop at the limit
  have hstop : ∀ᶠ ε : ℝ in 𝓝[>] 0, ∀ j < K, isApprox ε (signStep^[j + 1] M) (signStep^[j] M) = true →
      Φ (signStep^[j + 1] M) := by
    refine (Set.finite_lt_nat K).eventually_all.2 fun j _ => ?_
    by_cases he : signStep^[j + 1] M = signStep^[j] M
    · refine Eventually.of_forall fun ε _ => ?_
      have hfix : ∀ i, signStep^[j + i] M = signStep^[j] M := by
        intro i
        induction i with
        | zero => rfl
        | succ i ih => rw [← add_assoc, Function.iterate_succ_apply', ih, ← Function.iterate_succ_apply' signStep, he]
      have := hK (j + (K + 1)) (by omega)
      rw [hfix] at this
      rw [he]
      exact this
    · have hd : 0 < ∑ a, ∑ b, ((signStep^[j + 1] M) a b - (signStep^[j] M) a b) ^ 2 := by
        by_contra hn
        exact he (sub_eq_zero.1 (sumsq_zero (X := signStep^[j + 1] M - signStep^[j] M) (not_lt.1 hn)))
      have hc : Tendsto (fun ε : ℝ => ε ^ 2 * min (∑ a, ∑ b, (signStep^[j + 1] M) a b ^ 2) (∑ a, ∑ b, (signStep^[j] M) a b ^ 2))
          (𝓝[>] 0) (𝓝 0) := by
        have : Continuous fun ε : ℝ => ε ^ 2 * min (∑ a, ∑ b, (signStep^[j + 1] M) a b ^ 2) (∑ a, ∑ b, (signStep^[j] M) a b ^ 2) :=
          (continuous_id.pow 2).mul continuous_const
        have h := this.tendsto 0
        simp only [ne_eq, OfNat.ofNat_ne_zero, not_false_eq_true, zero_pow, zero_mul] at h
        exact h.mono_left nhdsWithin_le_nhds
      filter_upwards [hc.eventually_lt_const hd] with ε hε ha
      rw [isApprox, decide_eq_true_eq] at ha
      exact absurd ha (not_le.2 hε)
  obtain ⟨ε₀, hε₀, hsub⟩ := mem_nhdsGT_iff_exists_Ioc_subset.1 hstop
  refine ⟨ε₀, hε₀, fun ε h0 h1 => ?_⟩
  have hpost : ∀ j, isApprox ε (signStep^[j + 1] M) (signStep^[j] M) = true → Φ (signStep^[j + 1] M) := fun j hj => by
    by_cases hjK : j < K
    · exact hsub ⟨h0, h1⟩ j hjK hj
    · exact hK (j + 1) (by omega)
  -- the loop ends
  have hend : ∃ j, isApprox ε (signStep^[j + 1] M) (signStep^[j] M) = true := by
    by_cases hn : n = 0
    · subst hn
      exact ⟨0, by simp [isApprox]⟩
    · have hSpos : 0 < ∑ a, ∑ b, S a b ^ 2 := by
        by_contra h
        exact hS hn (sumsq_zero (not_lt.1 h))
      have hW' := hW.comp (tendsto_add_atTop_nat 1)
      have hl : Tendsto (fun k => ∑ a, ∑ b, ((signStep^[k + 1] M) a b - (signStep^[k] M) a b) ^ 2) atTop (𝓝 0) := by
        have := (sumsq_continuous.tendsto (S - S)).comp (hW'.sub hW)
        simpa [Function.comp_def] using this
      have hr : Tendsto (fun k => ε ^ 2 * min (∑ a, ∑ b, (signStep^[k + 1] M) a b ^ 2) (∑ a, ∑ b, (signStep^[k] M) a b ^ 2))
          atTop (𝓝 (ε ^ 2 * ∑ a, ∑ b, S a b ^ 2)) := by
        have := (((sumsq_continuous.tendsto S).comp hW').min ((sumsq_continuous.tendsto S).comp hW)).const_mul (ε ^ 2)
        rw [min_self] at this
        exact this
      obtain ⟨k, hk⟩ := (hl.eventually_lt hr (by positivity)).exists
      exact ⟨k, by rw [isApprox, decide_eq_true_eq]; exact hk.le⟩
  obtain ⟨N, hN⟩ := hend
  refine ⟨N, fun maxIt hmax => ?_⟩
  obtain ⟨j, hj, hs⟩ := signLoop_spec (isApprox ε) (maxIt + 1) M ⟨N, by omega, hN⟩
  exact ⟨_, hs, hpost j hj⟩

theorem signLimit_ne (hn : n ≠ 0) (P Y : Matrix (Fin n) (Fin n) ℝ) : signLimit P Y ≠ 0 := by
  intro h
  have h1 := limit_left P Y
  rw [h] at h1
  have h2 := limit_solution P Y
  rw [h] at h2
  have h3 : signLimit P Y * signLimit P Y = 1 := by
    have hT' : fromBlocks (1 + Y * P) (-Y) (-P) 1 * fromBlocks 1 Y P (P * Y + 1) = 1 := mul_eq_one_comm.1 (basis_inv P Y)
    have hD : (fromBlocks (-1) 0 0 1 : Matrix (Fin n ⊕ Fin n) (Fin n ⊕ Fin n) ℝ) * fromBlocks (-1) 0 0 1 = 1 := by
      rw [fromBlocks_multiply]; simp [fromBlocks_one]
    rw [signLimit, Matrix.mul_assoc, ← Matrix.mul_assoc (fromBlocks (1 + Y * P) (-Y) (-P) 1),
      ← Matrix.mul_assoc (fromBlocks (1 + Y * P) (-Y) (-P) 1), hT', Matrix.one_mul, Matrix.mul_assoc,
      ← Matrix.mul_assoc (fromBlocks (-1) 0 0 1), hD, Matrix.one_mul, basis_inv]
  rw [h, Matrix.mul_zero] at h3
  have := congrFun (congrFun h3 (Sum.inl ⟨0, by omega⟩)) (Sum.inl ⟨0, by omega⟩)
  simp at this

/-! ### Feedback with a slightly wrong gain -/

variable {Q A : Matrix (Fin n) (Fin n) ℝ} {B : Matrix (Fin n) (Fin m) ℝ} {R : Matrix (Fin m) (Fin m) ℝ}

/-- Stability survives small changes of the matrix. -/
theorem hurwitz_open {F : Matrix (Fin n) (Fin n) ℝ} (hF : Hurwitz F) : ∀ᶠ F' in 𝓝 F, Hurwitz F' := by
  have hQ1 : Psd (1 : Matrix (Fin n) (Fin n) ℝ) := ⟨transpose_one, fun v => by
    rw [one_mulVec]; exact Finset.sum_nonneg fun i _ => mul_self_nonneg _⟩
  obtain ⟨X, hX, hlyap⟩ : ∃ X, Psd X ∧ Fᵀ * X + X * F = -1 := by
    obtain ⟨X, hX, h⟩ := feedback_value (A := F) (B := (0 : Matrix (Fin n) (Fin n) ℝ)) (R := 1) (K := 0) hQ1
      ⟨transpose_one, fun v hv => by
        rw [one_mulVec]
        exact lt_of_le_of_ne (dot_self_nonneg v) fun h => hv (dotProduct_self_eq_zero.1 h.symm)⟩ (by simpa using hF)
    exact ⟨X, hX, by simpa using h⟩
  set D : Matrix (Fin n) (Fin n) ℝ → Matrix (Fin n) (Fin n) ℝ := fun F' => (F' - F)ᵀ * X + X * (F' - F) with hD
  have hDc : Continuous D := by fun_prop
  have hD0 : D F = 0 := by simp [hD]
  have hsmall : ∀ᶠ F' in 𝓝 F, ∀ i j, |D F' i j| < 1 / (2 * (n + 1)) := by
    refine eventually_all.2 fun i => eventually_all.2 fun j => ?_
    have hc : Continuous fun F' => |D F' i j| := ((continuous_apply_apply i j).comp hDc).abs
    refine (hc.tendsto F).eventually_lt_const ?_
    rw [hD0]
    simp
    positivity
  filter_upwards [hsmall] with F' h
  have hl : F'ᵀ * X + X * F' = -(1 - D F') := by
    have : F'ᵀ * X + X * F' = (Fᵀ * X + X * F) + D F' := by
      simp only [hD, transpose_sub, Matrix.sub_mul, Matrix.mul_sub]; abel
    rw [this, hlyap]; abel
  have hform : ∀ v, v ⬝ᵥ (D F' *ᵥ v) ≤ 1 / 2 * (v ⬝ᵥ v) := by
    intro v
    have hb : ∀ i j, v i * (D F' i j * v j) ≤ 1 / (2 * (n + 1)) * ((v i * v i + v j * v j) / 2) := by
      intro i j
      have h1 : v i * (D F' i j * v j) ≤ |D F' i j| * (|v i| * |v j|) := by
        have := le_abs_self (v i * (D F' i j * v j))
        rw [abs_mul, abs_mul] at this
        linarith
      have h2 : |v i| * |v j| ≤ (v i * v i + v j * v j) / 2 := by
        have h3 := sq_nonneg (|v i| - |v j|)
        have h4 := abs_mul_abs_self (v i)
        have h5 := abs_mul_abs_self (v j)
        nlinarith
      exact h1.trans (mul_le_mul (h i j).le h2 (by positivity) (by positivity))
    calc v ⬝ᵥ (D F' *ᵥ v) = ∑ i, ∑ j, v i * (D F' i j * v j) := by
          simp only [dotProduct, mulVec, Finset.mul_sum]
      _ ≤ ∑ i, ∑ j, 1 / (2 * ((n : ℝ) + 1)) * ((v i * v i + v j * v j) / 2) :=
          Finset.sum_le_sum fun i _ => Finset.sum_le_sum fun j _ => hb i j
      _ = 1 / (2 * ((n : ℝ) + 1)) * (n * (v ⬝ᵥ v)) := by
          simp only [dotProduct, ← Finset.mul_sum, ← Finset.sum_div, Finset.sum_add_distrib, Finset.sum_const,
            Finset.card_univ, Fintype.card_fin, nsmul_eq_mul]
          simp only [mul_left_comm (v _) (n : ℝ)]
          rw [← Finset.mul_sum]
          ring
      _ ≤ 1 / 2 * (v ⬝ᵥ v) := by
          have hv := dot_self_nonneg v
          rw [div_mul_eq_mul_div, one_mul, div_le_iff₀ (by positivity)]
          nlinarith [(Nat.cast_nonneg n : (0 : ℝ) ≤ n)]
  have hDs : (D F')ᵀ = D F' := by
    simp only [hD, transpose_add, transpose_mul, transpose_transpose, hX.1]; rw [add_comm]
  have hWf : ∀ v, 1 / 2 * (v ⬝ᵥ v) ≤ v ⬝ᵥ ((1 - D F') *ᵥ v) := fun v => by
    rw [sub_mulVec, one_mulVec, dotProduct_sub]
    linarith [hform v]
  have hWp : Psd (1 - D F') := ⟨by rw [transpose_sub, transpose_one, hDs], fun v =>
    (by have := dot_self_nonneg v; positivity : (0 : ℝ) ≤ 1 / 2 * (v ⬝ᵥ v)).trans (hWf v)⟩
  refine hurwitz_of_form hX hWp hl fun μ v hv _ hz => absurd ?_ hv
  have hu : IsUnit (1 - D F').det := isUnit_of_inj fun v hv => by
    have := hWf v
    rw [hv, dotProduct_zero] at this
    have h0 : v ⬝ᵥ v = 0 := le_antisymm (by linarith) (dot_self_nonneg v)
    exact dotProduct_self_eq_zero.1 h0
  have : cx (1 - D F')⁻¹ *ᵥ (cx (1 - D F') *ᵥ v) = 0 := by rw [hz, mulVec_zero]
  rw [mulVec_mulVec, ← cx_mul, Matrix.nonsing_inv_mul _ hu] at this
  simpa [cx] using this

/-! ### C174 -/

theorem lu_tendsto {lu : Matrix (Fin n ⊕ Fin n) (Fin n) ℝ → Matrix (Fin n ⊕ Fin n) (Fin n) ℝ → Matrix (Fin n) (Fin n) ℝ}
    (hlu : LuOk lu) (P Y : Matrix (Fin n) (Fin n) ℝ) :
    Tendsto (fun W => lu (sysU W) (-sysV W)) (𝓝 (signLimit P Y)) (𝓝 P) := by
  refine tendsto_pi_nhds.2 fun i => tendsto_pi_nhds.2 fun j => Metric.tendsto_nhds.2 fun δ hδ => ?_
  filter_upwards [lu_near hlu P Y hδ] with W h
  exact h i j

theorem iterative_near (hR : Pd R) {P : Matrix (Fin n) (Fin n) ℝ} (h1 : Psd P) (h2 : SolvesCARE Q A B R P)
    (h3 : Hurwitz (A - B * lqrGain R⁻¹ B P))
    {lu : Matrix (Fin n ⊕ Fin n) (Fin n) ℝ → Matrix (Fin n ⊕ Fin n) (Fin n) ℝ → Matrix (Fin n) (Fin n) ℝ}
    (hlu : LuOk lu) {Ψ : Matrix (Fin n) (Fin n) ℝ → Prop} (hΨ : ∀ᶠ P' in 𝓝 P, Ψ P') :
    ∃ ε₀ > 0, ∀ ε, 0 < ε → ε ≤ ε₀ → ∃ N, ∀ maxIt ≥ N, ∃ P',
      solveSchurIterative (isApprox ε) lu maxIt (hamiltonian Q A B R⁻¹) = some P' ∧ Ψ P' := by
  obtain ⟨Y, hY, -⟩ := sign_tendsto hR h1 h2 h3
  obtain ⟨ε₀, h0, h⟩ := loop_near hY (fun hn => signLimit_ne hn P Y) ((lu_tendsto hlu P Y).eventually hΨ)
  refine ⟨ε₀, h0, fun ε hε hle => ?_⟩
  obtain ⟨N, hN⟩ := h ε hε hle
  refine ⟨N, fun maxIt hm => ?_⟩
  obtain ⟨W, hW, hΨW⟩ := hN maxIt hm
  exact ⟨_, by rw [solveSchurIterative, hW]; rfl, hΨW⟩

/-- C174, Riccati equation: for a stabilisable and detectable system the algebraic Riccati equation has exactly one
positive semi-definite solution `P`; for every desired accuracy there is a tolerance such that with that or any smaller
tolerance, and enough iterations, the iterative solver reports success and its result is that close to `P`.

Missing: the tolerance of the code is fixed at 1e-6; see `C174_tolerance_violated`. -/
theorem C174_riccati_partial (hQ : Psd Q) (hR : Pd R) (hst : Stabilisable A B) (hd : Detectable A Q) (flag : Bool)
    (hflag : flag = true → R.IsDiag ∧ ∀ i, R i i ≠ 0)
    (lu : Matrix (Fin n ⊕ Fin n) (Fin n) ℝ → Matrix (Fin n ⊕ Fin n) (Fin n) ℝ → Matrix (Fin n) (Fin n) ℝ)
    (hlu : LuOk lu) :
    ∃ P, Psd P ∧ SolvesCARE Q A B R P ∧ (∀ P', Psd P' → SolvesCARE Q A B R P' → P' = P) ∧
      ∀ δ > 0, ∃ ε₀ > 0, ∀ ε, 0 < ε → ε ≤ ε₀ → ∃ N, ∀ maxIt ≥ N, ∃ P',
        solveSchurIterative (isApprox ε) lu maxIt (hamiltonian Q A B (rInverse flag R)) = some P' ∧
        ∀ i j, |P' i j - P i j| < δ := by
  rw [rInverse_eq flag R hflag]
  obtain ⟨P, h1, h2, h3⟩ := exists_solution hQ hR hst hd
  refine ⟨P, h1, h2, fun P' hP' hc' => care_unique hQ hR hd h1 h2 h3 hP' hc', fun δ hδ =>
    iterative_near hR h1 h2 h3 hlu (Ψ := fun P' => ∀ i j, |P' i j - P i j| < δ) ?_⟩
  refine eventually_all.2 fun i => eventually_all.2 fun j => ?_
  exact Metric.tendsto_nhds.1 ((continuous_apply_apply i j).tendsto P) δ hδ

/-- C174, feedback: under the same conditions there is an optimal feedback, and with a small enough tolerance and enough
iterations `LQR::compute` reports success and returns a gain as close to the optimal one as desired, under which every
motion comes to rest.

Missing: the tolerance of the code is fixed at 1e-6; see `C174_tolerance_violated`. -/
theorem C174_feedback_partial (hQ : Psd Q) (hR : Pd R) (hst : Stabilisable A B) (hd : Detectable A Q) (flag : Bool)
    (hflag : flag = true → R.IsDiag ∧ ∀ i, R i i ≠ 0)
    (lu : Matrix (Fin n ⊕ Fin n) (Fin n) ℝ → Matrix (Fin n ⊕ Fin n) (Fin n) ℝ → Matrix (Fin n) (Fin n) ℝ)
    (hlu : LuOk lu) :
    ∃ K, OptimalFeedback Q R A B K ∧
      ∀ δ > 0, ∃ ε₀ > 0, ∀ ε, 0 < ε → ε ≤ ε₀ → ∃ N, ∀ maxIt ≥ N, ∀ junk, ∃ K',
        lqrIterative lu ε maxIt junk Q R A B flag = (true, K') ∧ (∀ i j, |K' i j - K i j| < δ) ∧
        ∀ x u, Motion A B x u → (∀ t, u t = -(K' *ᵥ x t)) → Tendsto x atTop (𝓝 0) := by
  have hRi := rInverse_eq flag R hflag
  obtain ⟨P, h1, h2, h3⟩ := exists_solution hQ hR hst hd
  refine ⟨_, optimal_feedback hQ hR hd h1 h2 h3, fun δ hδ => ?_⟩
  have hg : Continuous fun P' : Matrix (Fin n) (Fin n) ℝ => lqrGain R⁻¹ B P' := by unfold lqrGain; fun_prop
  have hc : Continuous fun P' : Matrix (Fin n) (Fin n) ℝ => A - B * lqrGain R⁻¹ B P' := by fun_prop
  have hev : ∀ᶠ P' in 𝓝 P, (∀ i j, |lqrGain R⁻¹ B P' i j - lqrGain R⁻¹ B P i j| < δ) ∧
      Hurwitz (A - B * lqrGain R⁻¹ B P') := by
    refine Eventually.and ?_ ((hc.tendsto P).eventually (hurwitz_open h3))
    refine eventually_all.2 fun i => eventually_all.2 fun j => ?_
    exact Metric.tendsto_nhds.1 (((continuous_apply_apply i j).comp hg).tendsto P) δ hδ
  obtain ⟨ε₀, h0, h⟩ := iterative_near hR h1 h2 h3 hlu hev
  refine ⟨ε₀, h0, fun ε hε hle => ?_⟩
  obtain ⟨N, hN⟩ := h ε hε hle
  refine ⟨N, fun maxIt hm junk => ?_⟩
  obtain ⟨P', hP', hclose, hH⟩ := hN maxIt hm
  exact ⟨lqrGain R⁻¹ B P', by rw [lqrIterative, hRi]; simp only [hP'], hclose, fun x u hmo hu => motion_tendsto hH hmo hu⟩

/-- C174, inverses: none of the matrices that the iteration inverts is singular. -/
theorem C174_invertible (hQ : Psd Q) (hR : Pd R) (hst : Stabilisable A B) (hd : Detectable A Q) (flag : Bool)
    (hflag : flag = true → R.IsDiag ∧ ∀ i, R i i ≠ 0) (k : ℕ) :
    IsUnit (signStep^[k] (hamiltonian Q A B (rInverse flag R))).det := by
  rw [rInverse_eq flag R hflag]
  obtain ⟨P, h1, h2, h3⟩ := exists_solution hQ hR hst hd
  obtain ⟨Y, -, h⟩ := sign_tendsto hR h1 h2 h3
  exact h k

/-! ### A case that meets the conditions, and one that does not -/

/-- For one column, elimination with the larger of the two entries as pivot. -/
noncomputable def exLu (U V : Matrix (Fin 1 ⊕ Fin 1) (Fin 1) ℝ) : Matrix (Fin 1) (Fin 1) ℝ :=
  if |U (.inr 0) 0| ≤ |U (.inl 0) 0| then Matrix.of fun _ _ => V (.inl 0) 0 / U (.inl 0) 0
  else Matrix.of fun _ _ => V (.inr 0) 0 / U (.inr 0) 0

theorem exLu_ok : LuOk exLu := by
  rintro U V ⟨T, hT⟩
  have hne : U (.inl 0) 0 ≠ 0 ∨ U (.inr 0) 0 ≠ 0 := by
    by_contra hn
    rw [not_or, not_not, not_not] at hn
    have := congrFun (congrFun hT 0) 0
    simp [Matrix.mul_apply, hn.1, hn.2] at this
  have key : ∀ r : Fin 1 ⊕ Fin 1, U r 0 ≠ 0 → (∀ i, |U i 0| ≤ |U r 0|) →
      exLu U V = Matrix.of (fun _ _ => V r 0 / U r 0) →
      ∃ (L : Matrix (Fin 1 ⊕ Fin 1) (Fin 1) ℝ) (W : Matrix (Fin 1) (Fin 1) ℝ) (f : Fin 1 → Fin 1 ⊕ Fin 1),
      U = L * W ∧ (∀ i j, |L i j| ≤ 1) ∧ |(L.submatrix f id).det| = 1 ∧
      U.submatrix f id * exLu U V = V.submatrix f id := by
    intro r hr hmax he
    refine ⟨Matrix.of fun i _ => U i 0 / U r 0, Matrix.of fun _ _ => U r 0, fun _ => r, ?_, fun i j => ?_, ?_, ?_⟩
    · ext i j
      fin_cases j
      simp [Matrix.mul_apply, hr]
    · simp only [Matrix.of_apply, abs_div]
      exact div_le_one_of_le₀ (hmax i) (abs_nonneg _)
    · simp [hr]
    · rw [he]
      ext i j
      fin_cases i; fin_cases j
      simp [Matrix.mul_apply]
      field_simp
  by_cases h : |U (.inr 0) 0| ≤ |U (.inl 0) 0|
  · refine key (.inl 0) (fun h0 => ?_) (fun i => ?_) (by rw [exLu, if_pos h])
    · rw [h0, abs_zero] at h
      rcases hne with h1 | h1
      · exact h1 h0
      · exact h1 (abs_eq_zero.1 (le_antisymm h (abs_nonneg _)))
    · rcases i with i | i <;> fin_cases i
      · exact le_rfl
      · exact h
  · rw [not_le] at h
    refine key (.inr 0) (fun h0 => ?_) (fun i => ?_) (by rw [exLu, if_neg (not_le.2 h)])
    · rw [h0, abs_zero] at h
      exact absurd h (not_lt.2 (abs_nonneg _))
    · rcases i with i | i <;> fin_cases i
      · exact h.le
      · exact le_rfl

/-- The scalar integrator with weights `16/9` and `1` meets the conditions: the gain is near an optimal one. -/
example : ∃ K, OptimalFeedback ((16 / 9 : ℝ) • (1 : Matrix (Fin 1) (Fin 1) ℝ)) 1 0 (1 : Matrix (Fin 1) (Fin 1) ℝ) K ∧
    ∀ δ > 0, ∃ ε₀ > 0, ∀ ε, 0 < ε → ε ≤ ε₀ → ∃ N, ∀ maxIt ≥ N, ∀ junk, ∃ K',
      lqrIterative exLu ε maxIt junk ((16 / 9 : ℝ) • (1 : Matrix (Fin 1) (Fin 1) ℝ)) 1 0 1 false = (true, K') ∧
      (∀ i j, |K' i j - K i j| < δ) ∧
      ∀ x u, Motion 0 1 x u → (∀ t, u t = -(K' *ᵥ x t)) → Tendsto x atTop (𝓝 0) := by
  refine C174_feedback_partial (pd_scalar (by norm_num)).psd (by simpa using pd_scalar one_pos) ⟨-1, hurwitz_scalar (by simp)⟩
    ⟨-1, hurwitz_scalar (by simp)⟩ false (by simp) exLu exLu_ok

/-- C174 fails for systems that cannot be stabilised: for the unstable system `ẋ = x` without input the solver reports
success after one iteration, with every tolerance and every decomposition, although no gain brings the system to
rest. -/
theorem C174_unstabilisable_violated :
    (∀ lu ε maxIt junk, 0 < ε →
      (lqrIterative lu ε maxIt junk (1 : Matrix (Fin 1) (Fin 1) ℝ) (1 : Matrix (Fin 1) (Fin 1) ℝ) 1 0 false).1 = true) ∧
    ∀ K : Matrix (Fin 1) (Fin 1) ℝ, ∃ x u, Motion (1 : Matrix (Fin 1) (Fin 1) ℝ) (0 : Matrix (Fin 1) (Fin 1) ℝ) x u ∧
      (∀ t, u t = -(K *ᵥ x t)) ∧ ¬ Tendsto x atTop (𝓝 0) := by
  constructor
  · intro lu ε maxIt junk hε
    set M := hamiltonian (1 : Matrix (Fin 1) (Fin 1) ℝ) 1 (0 : Matrix (Fin 1) (Fin 1) ℝ) (rInverse false 1) with hM
    have hinv : M⁻¹ = M := by
      refine Matrix.inv_eq_right_inv ?_
      rw [hM, hamiltonian, fromBlocks_multiply, ← fromBlocks_one]
      simp
    have hstep : signStep M = M := by rw [signStep, hinv, sub_self, smul_zero, sub_zero]
    have happ : isApprox ε M M = true := by
      rw [isApprox, decide_eq_true_eq]
      simp only [sub_self, min_self, ne_eq, OfNat.ofNat_ne_zero, not_false_eq_true, zero_pow, Finset.sum_const_zero]
      exact mul_nonneg (sq_nonneg _) (Finset.sum_nonneg fun _ _ => Finset.sum_nonneg fun _ _ => sq_nonneg _)
    have hs : ∃ P, solveSchurIterative (isApprox ε) lu maxIt M = some P := by
      rw [solveSchurIterative, signLoop, hstep, if_pos happ]
      exact ⟨_, rfl⟩
    obtain ⟨P, hP⟩ := hs
    rw [lqrIterative]
    simp only [← hM, hP]
  · intro K
    refine ⟨fun t _ => Real.exp t, fun t => -(K *ᵥ fun _ => Real.exp t), fun t => ?_, fun t => rfl, fun h => ?_⟩
    · rw [one_mulVec, zero_mulVec, add_zero]
      exact hasDerivAt_pi.2 fun _ => Real.hasDerivAt_exp t
    · exact not_tendsto_nhds_of_tendsto_atTop Real.tendsto_exp_atTop 0 (tendsto_pi_nhds.1 h 0)

/-! ### The tolerance of the code -/

/-- Slope of the example, its input weight is `10 ^ 13`. -/
noncomputable def exA : ℝ := 10000009 / 10000000

/-- Square of the eigenvalues of the Hamiltonian matrix. -/
noncomputable def exL : ℝ := exA ^ 2 + 1 / 10 ^ 13

/-- What one step of the iteration multiplies the matrix with. -/
noncomputable def exC : ℝ := (1 + 1 / exL) / 2

/-- C174 fails for the tolerance of the code: for the system `ẋ = 1.0000009 x + u`, which can be stabilised, with the
weights `1` and `10 ^ 13` the iterative solver stops after one step and reports success, whatever the permitted number
of iterations; under the returned feedback motions diverge. -/
theorem C174_tolerance_violated :
    Psd (1 : Matrix (Fin 1) (Fin 1) ℝ) ∧ Pd ((10 : ℝ) ^ 13 • (1 : Matrix (Fin 1) (Fin 1) ℝ)) ∧
    Stabilisable (exA • (1 : Matrix (Fin 1) (Fin 1) ℝ)) (1 : Matrix (Fin 1) (Fin 1) ℝ) ∧
    Detectable (exA • (1 : Matrix (Fin 1) (Fin 1) ℝ)) (1 : Matrix (Fin 1) (Fin 1) ℝ) ∧
    ∀ lu, LuOk lu → ∀ maxIt junk, ∃ K,
      lqrIterative lu (1 / 10 ^ 6) maxIt junk (1 : Matrix (Fin 1) (Fin 1) ℝ) ((10 : ℝ) ^ 13 • 1) (exA • 1)
        (1 : Matrix (Fin 1) (Fin 1) ℝ) true = (true, K) ∧
      ∃ x u, Motion (exA • (1 : Matrix (Fin 1) (Fin 1) ℝ)) (1 : Matrix (Fin 1) (Fin 1) ℝ) x u ∧
        (∀ t, u t = -(K *ᵥ x t)) ∧ Tendsto (fun t => x t 0) atTop atTop := by
  have hL : 0 < exL := by unfold exL; positivity
  have hC0 : 0 < exC := by unfold exC; positivity
  have hC1 : exC ≤ 1 := by unfold exC exL exA; norm_num
  refine ⟨by simpa using (pd_scalar one_pos).psd, pd_scalar (by positivity),
    ⟨(-2 : ℝ) • 1, hurwitz_scalar (by simp [exA]; norm_num)⟩, ⟨(-2 : ℝ) • 1, hurwitz_scalar (by simp [exA]; norm_num)⟩,
    fun lu hlu maxIt junk => ?_⟩
  have hRi : rInverse true ((10 : ℝ) ^ 13 • (1 : Matrix (Fin 1) (Fin 1) ℝ)) = (1 / (10 : ℝ) ^ 13) • 1 := by
    ext i j
    fin_cases i; fin_cases j
    simp [rInverse]
  set M := hamiltonian (1 : Matrix (Fin 1) (Fin 1) ℝ) (exA • 1) (1 : Matrix (Fin 1) (Fin 1) ℝ)
    ((1 / (10 : ℝ) ^ 13) • 1) with hM
  have hMM : M * M = exL • 1 := by
    rw [hM, hamiltonian, fromBlocks_multiply, ← fromBlocks_one, fromBlocks_smul]
    congr 1 <;> ext i j <;> fin_cases i <;> fin_cases j <;> simp [exL] <;> ring
  have hinv : M⁻¹ = (1 / exL) • M := by
    refine Matrix.inv_eq_right_inv ?_
    rw [Matrix.mul_smul, hMM, smul_smul, one_div_mul_cancel hL.ne', one_smul]
  have hstep : signStep M = exC • M := by
    rw [signStep, hinv, exC]
    module
  have happ : isApprox (1 / 10 ^ 6) (exC • M) M = true := by
    rw [isApprox, decide_eq_true_eq]
    set σ := ∑ i, ∑ j, M i j ^ 2 with hσ
    have hσ0 : 0 ≤ σ := Finset.sum_nonneg fun _ _ => Finset.sum_nonneg fun _ _ => sq_nonneg _
    have e1 : ∑ i, ∑ j, ((exC • M) i j - M i j) ^ 2 = (exC - 1) ^ 2 * σ := by
      rw [hσ]
      simp only [Finset.mul_sum, Matrix.smul_apply, smul_eq_mul]
      exact Finset.sum_congr rfl fun i _ => Finset.sum_congr rfl fun j _ => by ring
    have e2 : ∑ i, ∑ j, (exC • M) i j ^ 2 = exC ^ 2 * σ := by
      rw [hσ]
      simp only [Finset.mul_sum, Matrix.smul_apply, smul_eq_mul]
      exact Finset.sum_congr rfl fun i _ => Finset.sum_congr rfl fun j _ => by ring
    rw [e1, e2, min_eq_left (by nlinarith [mul_nonneg hσ0 (by nlinarith : 0 ≤ 1 - exC ^ 2)]), ← mul_assoc]
    refine mul_le_mul_of_nonneg_right ?_ hσ0
    unfold exC exL exA
    norm_num
  have hloop : signLoop (isApprox (1 / 10 ^ 6)) (maxIt + 1) M = some (exC • M) := by
    rw [signLoop, hstep, if_pos happ]
  set U := sysU (exC • M) with hU
  set V := sysV (exC • M) with hV
  have hU1 : U (.inl 0) 0 = -(exC / 10 ^ 13) := by
    simp [hU, sysU, hM, hamiltonian, toBlocks₁₂]
    ring
  have hU2 : U (.inr 0) 0 = 1 - exC * exA := by
    simp [hU, sysU, hM, hamiltonian, toBlocks₂₂]
    ring
  have hV2 : V (.inr 0) 0 = -exC := by
    simp [hV, sysV, hM, hamiltonian, toBlocks₂₁]
  have hneg : 1 - exC * exA < 0 := by unfold exC exL exA; norm_num
  have hbig : exC / 10 ^ 13 < exC * exA - 1 := by unfold exC exL exA; norm_num
  obtain ⟨L, W, f, hLW, hLb, hLd, hsol⟩ := hlu U (-V) ⟨Matrix.of fun _ r => if r = .inr 0 then 1 / U (.inr 0) 0 else 0, by
    ext i j
    fin_cases i; fin_cases j
    simp [Matrix.mul_apply, hU2, hneg.ne]⟩
  have hrow : f 0 = .inr 0 := by
    rcases hf : f 0 with r | r
    · fin_cases r
      exfalso
      have hl : |L (.inl 0) 0| = 1 := by
        have := hLd
        rw [det_fin_one, submatrix_apply, hf] at this
        exact this
      have h1 : |U (.inl 0) 0| = |W 0 0| := by
        rw [hLW, Matrix.mul_apply]
        simp [hl]
      have h2 : |U (.inr 0) 0| ≤ |W 0 0| := by
        rw [hLW, Matrix.mul_apply]
        simp only [Finset.univ_unique, Fin.default_eq_zero, Finset.sum_singleton, abs_mul]
        calc _ ≤ 1 * |W 0 0| := mul_le_mul_of_nonneg_right (hLb _ _) (abs_nonneg _)
          _ = _ := one_mul _
      rw [← h1, hU1, hU2, abs_neg, abs_of_neg hneg, abs_of_pos (div_pos hC0 (by positivity))] at h2
      linarith
    · fin_cases r
      rfl
  have hX : (1 - exC * exA) * lu U (-V) 0 0 = exC := by
    have := congrFun (congrFun hsol 0) 0
    simpa [Matrix.mul_apply, hrow, hU2, hV2] using this
  set X := lu U (-V) with hXdef
  have hXneg : X 0 0 < 0 := by
    by_contra hn
    nlinarith [mul_nonneg (neg_nonneg.2 hneg.le) (not_lt.1 hn)]
  refine ⟨lqrGain ((1 / (10 : ℝ) ^ 13) • 1) 1 X, ?_, fun t _ => Real.exp ((exA - X 0 0 / 10 ^ 13) * t),
    fun t => -(lqrGain ((1 / (10 : ℝ) ^ 13) • 1) 1 X *ᵥ fun _ => Real.exp ((exA - X 0 0 / 10 ^ 13) * t)), fun t => ?_,
    fun t => rfl, ?_⟩
  · have hs : solveSchurIterative (isApprox (1 / 10 ^ 6)) lu maxIt M = some X := by
      rw [solveSchurIterative, hloop]
      rfl
    rw [lqrIterative, hRi]
    simp only [← hM, hs]
  · refine hasDerivAt_pi.2 fun i => ?_
    fin_cases i
    have h1 : HasDerivAt (fun t => (exA - X 0 0 / 10 ^ 13) * t) ((exA - X 0 0 / 10 ^ 13) * 1) t :=
      (hasDerivAt_id t).const_mul _
    refine h1.exp.congr_deriv ?_
    simp [lqrGain, mulVec, dotProduct]
    ring
  · refine Real.tendsto_exp_atTop.comp (tendsto_id.const_mul_atTop ?_)
    have : 0 < exA := by unfold exA; norm_num
    have : X 0 0 / 10 ^ 13 < 0 := div_neg_of_neg_of_pos hXneg (by positivity)
    linarith

end CT.Care
