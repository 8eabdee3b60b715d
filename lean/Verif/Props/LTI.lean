import Verif.Model.LTI
import Mathlib.LinearAlgebra.Matrix.PosDef
import Mathlib.LinearAlgebra.Matrix.ToLin
import Mathlib.LinearAlgebra.Matrix.Notation
import Mathlib.Data.Real.StarOrdered
import Mathlib.Analysis.Matrix.PosDef
import Mathlib.Logic.Equiv.Fin.Basic
import Mathlib.Algebra.BigOperators.Intervals
import Mathlib.Tactic.Ring

/-! # Properties C25, C74, C75: Kalman matrices, reachability, Gramians -/

namespace CT.LTI

variable {K : Type} [Field K]

theorem readBlock_eq (S : Store K) {h w r c : ℕ} (hb : r + h ≤ S.rows ∧ c + w ≤ S.cols) :
    S.readBlock h w r c = Res.ok (Matrix.of fun (i : Fin h) (j : Fin w) => S.data (r + i) (c + j)) := if_pos hb

theorem ctrl_loop {n m : ℕ} (A : Matrix (Fin n) (Fin n) K) (B : Matrix (Fin n) (Fin m) K) (CO0 : ℕ → ℕ → K) :
    ∀ k, k < n → ∃ d, ((Store.mk n (n * m) CO0).writeBlock 0 0 B >>= fun CO =>
      (List.range' 1 k).foldlM (fun CO i => do
        let blk ← CO.readBlock n m 0 ((i - 1) * m)
        CO.writeBlock 0 (i * m) (A * blk)) CO) = Res.ok (Store.mk n (n * m) d) ∧
      ∀ i ≤ k, ∀ (r : Fin n) (j : Fin m), d r (i * m + j) = (A ^ i * B) r j := by
  intro k
  induction k with
  | zero =>
      intro hn
      have hb : 0 + n ≤ n ∧ 0 + m ≤ n * m := ⟨by omega, by rw [zero_add]; exact Nat.le_mul_of_pos_left m hn⟩
      refine ⟨_, by simp only [Store.writeBlock, if_pos hb]; rfl, ?_⟩
      intro i hi r j
      obtain rfl : i = 0 := by omega
      simp
  | succ k ih =>
      intro hk
      obtain ⟨d, h1, h2⟩ := ih (by omega)
      rw [List.range'_concat]
      simp only [List.foldlM_append]
      have hassoc : ∀ (r : Res (Store K)) (f g : Store K → Res (Store K)),
          (r >>= fun s => f s >>= g) = ((r >>= f) >>= g) := by
        intro r f g; cases r <;> rfl
      rw [hassoc, h1]
      have hbr : 0 + n ≤ n ∧ (1 + 1 * k - 1) * m + m ≤ n * m := by
        refine ⟨by omega, ?_⟩
        rw [show 1 + 1 * k - 1 = k by omega, ← Nat.succ_mul]
        exact Nat.mul_le_mul_right m (by omega)
      have hbw : 0 + n ≤ n ∧ (1 + 1 * k) * m + m ≤ n * m := by
        refine ⟨by omega, ?_⟩
        rw [show 1 + 1 * k = k + 1 by omega, ← Nat.succ_mul]
        exact Nat.mul_le_mul_right m (by omega)
      simp only [List.foldlM_cons, List.foldlM_nil, Res.ok_bind, Store.readBlock, if_pos hbr, Store.writeBlock,
        if_pos hbw, Res.pure_eq]
      refine ⟨_, rfl, ?_⟩
      intro i hi r j
      have e1 : 1 + 1 * k = k + 1 := by omega
      simp only [e1, Nat.add_sub_cancel, Nat.zero_le, Nat.sub_zero, r.2, and_self, true_and]
      rcases Nat.lt_or_ge i (k + 1) with h | h
      · rw [dif_neg]
        · exact h2 i (by omega) r j
        · rintro ⟨h3, -⟩
          have : (i + 1) * m ≤ (k + 1) * m := Nat.mul_le_mul_right m (by omega)
          rw [Nat.succ_mul] at this
          have := j.2
          omega
      · obtain rfl : i = k + 1 := by omega
        rw [dif_pos ⟨Nat.le_add_right _ _, by rw [Nat.add_sub_cancel_left]; exact j.2⟩]
        have hm : (A ^ (k + 1) * B) = A * (A ^ k * B) := by rw [pow_succ', Matrix.mul_assoc]
        rw [hm, Matrix.mul_apply, Matrix.mul_apply]
        refine Finset.sum_congr rfl (fun p _ => ?_)
        simp only [Matrix.of_apply, zero_add, Fin.eta, Nat.add_sub_cancel_left]
        rw [h2 k le_rfl p j]

/-- C25: the controllability matrix has `A^i B` as block column `i`, for every state and control
dimension, without leaving the matrix. -/
theorem C25_controllability {n m : ℕ} (hn : 0 < n) (A : Matrix (Fin n) (Fin n) K) (B : Matrix (Fin n) (Fin m) K)
    (CO0 : ℕ → ℕ → K) :
    ∃ d, computeControllabilityMatrix A B CO0 = Res.ok ⟨n, n * m, d⟩ ∧
      ∀ i < n, ∀ (r : Fin n) (j : Fin m), d r (i * m + j) = (A ^ i * B) r j := by
  obtain ⟨d, h1, h2⟩ := ctrl_loop A B CO0 (n - 1) (by omega)
  exact ⟨d, h1, fun i hi => h2 i (by omega)⟩

/-- C25, disagreement: for every system with two or more states the observability matrix
computation writes a block below the last row. -/
theorem C25_observability_violated {n : ℕ} (hn : 2 ≤ n) (A C : Matrix (Fin n) (Fin n) K) (O0 : ℕ → ℕ → K) :
    computeObservabilityMatrix A C O0 = Res.ub ∧ isObservable A C O0 = Res.ub := by
  have h : computeObservabilityMatrix A C O0 = Res.ub := by
    obtain ⟨k, rfl⟩ : ∃ k, n = k + 2 := ⟨n - 2, by omega⟩
    have hb : 0 + (k + 2) ≤ k + 2 ∧ 0 + (k + 2) ≤ (k + 2) * (k + 2) := by
      refine ⟨by omega, ?_⟩
      rw [zero_add]; exact Nat.le_mul_of_pos_left _ (by omega)
    have e : k + 2 - 1 = k + 1 := by omega
    unfold computeObservabilityMatrix
    simp only [Store.writeBlock, if_pos hb, Res.ok_bind, e, List.range'_succ, List.foldlM_cons]
    rw [readBlock_eq]
    · simp only [Res.ok_bind]
      rw [if_neg]
      · rfl
      · rintro ⟨h1, -⟩
        simp at h1
    · refine ⟨by simp, ?_⟩
      simp only [Nat.sub_self, zero_mul, zero_add]
      exact Nat.le_mul_of_pos_left _ (by omega)
  refine ⟨h, ?_⟩
  unfold isObservable
  rw [h]; rfl

/-- C25, what remains: with a single state the observability matrix is `C`, as it should be. -/
theorem C25_observability_partial (A C : Matrix (Fin 1) (Fin 1) K) (O0 : ℕ → ℕ → K) :
    ∃ d, computeObservabilityMatrix A C O0 = Res.ok ⟨1, 1, d⟩ ∧ d 0 0 = C 0 0 := by
  refine ⟨_, by simp [computeObservabilityMatrix, Store.writeBlock]; rfl, ?_⟩
  simp

/-- C25, what remains of the test: with a single state it reports whether the output sees that state. -/
theorem C25_observability_test_partial [DecidableEq K] (A C : Matrix (Fin 1) (Fin 1) K) (O0 : ℕ → ℕ → K) :
    isObservable A C O0 = Res.ok (decide (C 0 0 ≠ 0)) := by
  obtain ⟨d, h1, h2⟩ := C25_observability_partial A C O0
  unfold isObservable
  rw [h1, Res.ok_bind]
  show Res.ok _ = Res.ok _
  congr 1
  refine decide_eq_decide.mpr ?_
  have e : (Matrix.of fun (i : Fin 1) (j : Fin (1 * 1)) => d i j) = C := by
    ext i j
    have hi : i = 0 := Subsingleton.elim _ _
    have hj : j = (0 : Fin 1) := Subsingleton.elim (α := Fin 1) j 0
    subst hi; subst hj
    exact h2
  rw [e]
  constructor
  · intro hr hc
    have : C = 0 := by
      ext i j
      rw [Subsingleton.elim i 0, Subsingleton.elim j 0]; exact hc
    rw [this, Matrix.rank_zero] at hr
    exact absurd hr (by decide)
  · intro hc
    have hu : IsUnit C := by
      rw [Matrix.isUnit_iff_isUnit_det, Matrix.det_fin_one]
      exact isUnit_iff_ne_zero.mpr hc
    rw [Matrix.rank_of_isUnit C hu, Fintype.card_fin]

/-! ### C74: the controllability test means reachability -/

/-- Specification: state after the inputs `u 0, …, u (k-1)` from the origin. -/
def stateAfter {n m : ℕ} (A : Matrix (Fin n) (Fin n) K) (B : Matrix (Fin n) (Fin m) K) (u : ℕ → Fin m → K) :
    ℕ → Fin n → K
  | 0 => 0
  | k + 1 => propagate A B (stateAfter A B u k) (u k)

theorem stateAfter_eq {n m : ℕ} (A : Matrix (Fin n) (Fin n) K) (B : Matrix (Fin n) (Fin m) K) (u : ℕ → Fin m → K)
    (k : ℕ) : stateAfter A B u k = ∑ i ∈ Finset.range k, (A ^ i * B).mulVec (u (k - 1 - i)) := by
  induction k with
  | zero => rfl
  | succ k ih =>
      rw [stateAfter, propagate, ih, Finset.sum_range_succ', Matrix.mulVec_sum]
      congr 1
      · refine Finset.sum_congr rfl (fun i hi => ?_)
        rw [Matrix.mulVec_mulVec, pow_succ', Matrix.mul_assoc, show k + 1 - 1 - (i + 1) = k - 1 - i by omega]
      · simp

/-- C74: `isControllable` answers yes exactly when every state can be reached from the origin in `n`
steps of the discrete system with a suitable input sequence. -/
theorem C74_reachable {n m : ℕ} (hn : 0 < n) (A : Matrix (Fin n) (Fin n) K) (B : Matrix (Fin n) (Fin m) K)
    (CO0 : ℕ → ℕ → K) :
    ∃ b, isControllable A B CO0 = Res.ok b ∧
      (b = true ↔ ∀ x : Fin n → K, ∃ u : ℕ → Fin m → K, stateAfter A B u n = x) := by
  obtain ⟨d, h1, h2⟩ := C25_controllability hn A B CO0
  refine ⟨_, by unfold isControllable; rw [h1]; rfl, ?_⟩
  rw [decide_eq_true_iff]
  set M : Matrix (Fin n) (Fin (n * m)) K := Matrix.of fun (i : Fin n) (j : Fin (n * m)) => d i j with hM
  have hmul : ∀ v : Fin (n * m) → K, M.mulVec v =
      ∑ i : Fin n, (A ^ (i : ℕ) * B).mulVec (fun j => v (finProdFinEquiv (i, j))) := by
    intro v
    ext r
    rw [Matrix.mulVec, dotProduct, ← finProdFinEquiv.sum_comp, Fintype.sum_prod_type, Finset.sum_apply]
    refine Finset.sum_congr rfl (fun i _ => ?_)
    rw [Matrix.mulVec, dotProduct]
    refine Finset.sum_congr rfl (fun j _ => ?_)
    rw [← h2 i i.2 r j]
    simp only [hM, Matrix.of_apply, finProdFinEquiv_apply_val]
    rw [Nat.add_comm (i * m : ℕ) j, Nat.mul_comm (i : ℕ) m]
  have hrank : M.rank = n ↔ Function.Surjective M.mulVec := by
    rw [Matrix.rank, ← Matrix.coe_mulVecLin, ← LinearMap.range_eq_top]
    constructor
    · intro h
      exact Submodule.eq_top_of_finrank_eq (by rw [h]; simp)
    · intro h
      rw [h]; simp
  rw [hrank]
  constructor
  · intro h x
    obtain ⟨v, hv⟩ := h x
    refine ⟨fun k j => if hk : n - 1 - k < n then v (finProdFinEquiv (⟨n - 1 - k, hk⟩, j)) else 0, ?_⟩
    rw [stateAfter_eq, ← hv, hmul, Finset.sum_range]
    refine Finset.sum_congr rfl (fun i _ => ?_)
    congr 1
    ext j
    have e : n - 1 - (n - 1 - (i : ℕ)) = i := by omega
    rw [dif_pos (by omega)]
    congr 2
    simp only [Prod.mk.injEq, and_true]
    exact Fin.ext e
  · intro h x
    obtain ⟨u, hu⟩ := h x
    refine ⟨fun q => u (n - 1 - (finProdFinEquiv.symm q).1) (finProdFinEquiv.symm q).2, ?_⟩
    rw [hmul, ← hu, stateAfter_eq, Finset.sum_range]
    refine Finset.sum_congr rfl (fun i _ => ?_)
    simp

/-! ### C75: Gramians -/

section gram
variable [LinearOrder K] [IsStrictOrderedRing K]

/-- Specification: `k`-th term of the controllability series. -/
def ctrlTerm {n m : ℕ} (A : Matrix (Fin n) (Fin n) K) (B : Matrix (Fin n) (Fin m) K) (k : ℕ) : Matrix (Fin n) (Fin n) K :=
  A ^ k * B * B.transpose * (A ^ k).transpose

/-- Specification: `k`-th term of the observability series. -/
def obsTerm {n : ℕ} (A C : Matrix (Fin n) (Fin n) K) (k : ℕ) : Matrix (Fin n) (Fin n) K :=
  (A ^ k).transpose * C.transpose * C * A ^ k

/-- Specification: sum of absolute values of all entries. -/
def absSum {n : ℕ} (M : Matrix (Fin n) (Fin n) K) : K := ∑ i, ∑ j, |M i j|

omit [IsStrictOrderedRing K] in
theorem norm1_neg_add {n : ℕ} [IsStrictOrderedRing K] (P T : Matrix (Fin n) (Fin n) K) : norm1 (P - (P + T)) = absSum T := by
  unfold norm1 absSum
  refine Finset.sum_congr rfl (fun i _ => Finset.sum_congr rfl (fun j _ => ?_))
  simp [abs_neg]

theorem ctrlLoop_spec {n m : ℕ} (A : Matrix (Fin n) (Fin n) K) (B : Matrix (Fin n) (Fin m) K) (tol : K) :
    ∀ (k s : ℕ) (_ : ∀ i < s, tol ≤ absSum (ctrlTerm A B i)),
      ∃ N, N ≤ s + k ∧ ctrlGramLoop A B tol k (∑ i ∈ Finset.range s, ctrlTerm A B i)
          (∑ i ∈ Finset.range s, ctrlTerm A B i) (A ^ s) = ∑ i ∈ Finset.range N, ctrlTerm A B i ∧
        (∀ i, i + 1 < N → tol ≤ absSum (ctrlTerm A B i)) ∧
        (N = s + k ∨ (0 < N ∧ absSum (ctrlTerm A B (N - 1)) < tol)) := by
  intro k
  induction k with
  | zero =>
      intro s hs
      exact ⟨s, by omega, rfl, fun i hi => hs i (by omega), Or.inl rfl⟩
  | succ k ih =>
      intro s hs
      rw [ctrlGramLoop]
      have he : A ^ s * B * B.transpose * (A ^ s).transpose = ctrlTerm A B s := rfl
      simp only [he, norm1_neg_add]
      by_cases h : absSum (ctrlTerm A B s) < tol
      · rw [if_pos h]
        refine ⟨s + 1, by omega, (Finset.sum_range_succ _ _).symm, fun i hi => hs i (by omega), Or.inr ⟨by omega, ?_⟩⟩
        simpa using h
      · rw [if_neg h, ← Finset.sum_range_succ, ← pow_succ]
        obtain ⟨N, h1, h2, h3, h4⟩ := ih (s + 1) (fun i hi => by
          rcases Nat.lt_or_ge i s with h' | h'
          · exact hs i h'
          · obtain rfl : i = s := by omega
            exact not_lt.1 h)
        exact ⟨N, by omega, h2, h3, by rcases h4 with h4 | h4; exact Or.inl (by omega); exact Or.inr h4⟩

theorem obsLoop_spec {n : ℕ} (A C : Matrix (Fin n) (Fin n) K) (tol : K) :
    ∀ (k s : ℕ) (_ : ∀ i < s, tol ≤ absSum (obsTerm A C i)),
      ∃ N, N ≤ s + k ∧ obsGramLoop A C tol k (∑ i ∈ Finset.range s, obsTerm A C i)
          (∑ i ∈ Finset.range s, obsTerm A C i) (A ^ s) = ∑ i ∈ Finset.range N, obsTerm A C i ∧
        (∀ i, i + 1 < N → tol ≤ absSum (obsTerm A C i)) ∧
        (N = s + k ∨ (0 < N ∧ absSum (obsTerm A C (N - 1)) < tol)) := by
  intro k
  induction k with
  | zero =>
      intro s hs
      exact ⟨s, by omega, rfl, fun i hi => hs i (by omega), Or.inl rfl⟩
  | succ k ih =>
      intro s hs
      rw [obsGramLoop]
      have he : (A ^ s).transpose * C.transpose * C * A ^ s = obsTerm A C s := rfl
      simp only [he, norm1_neg_add]
      by_cases h : absSum (obsTerm A C s) < tol
      · rw [if_pos h]
        refine ⟨s + 1, by omega, (Finset.sum_range_succ _ _).symm, fun i hi => hs i (by omega), Or.inr ⟨by omega, ?_⟩⟩
        simpa using h
      · rw [if_neg h, ← Finset.sum_range_succ, ← pow_succ]
        obtain ⟨N, h1, h2, h3, h4⟩ := ih (s + 1) (fun i hi => by
          rcases Nat.lt_or_ge i s with h' | h'
          · exact hs i h'
          · obtain rfl : i = s := by omega
            exact not_lt.1 h)
        exact ⟨N, by omega, h2, h3, by rcases h4 with h4 | h4; exact Or.inl (by omega); exact Or.inr h4⟩

/-- C75: the controllability Gramian returned is the partial sum `Σ_{k<N} A^k B Bᵀ (A^k)ᵀ`, where the
sum stops at the first term smaller than the tolerance (that term included) or at the iteration
limit. -/
theorem C75_controllability_gramian {n m : ℕ} (A : Matrix (Fin n) (Fin n) K) (B : Matrix (Fin n) (Fin m) K)
    (maxIters : ℕ) (tol : K) :
    ∃ N ≤ maxIters, computeControllabilityGramian A B maxIters tol = ∑ k ∈ Finset.range N, ctrlTerm A B k ∧
      (∀ k, k + 1 < N → tol ≤ absSum (ctrlTerm A B k)) ∧
      (N = maxIters ∨ (0 < N ∧ absSum (ctrlTerm A B (N - 1)) < tol)) := by
  obtain ⟨N, h1, h2, h3, h4⟩ := ctrlLoop_spec A B tol maxIters 0 (by simp)
  refine ⟨N, by omega, ?_, h3, by simpa using h4⟩
  simpa [computeControllabilityGramian] using h2

/-- C75: the same for the observability Gramian `Σ_{k<N} (A^k)ᵀ Cᵀ C A^k`. -/
theorem C75_observability_gramian {n : ℕ} (A C : Matrix (Fin n) (Fin n) K) (maxIters : ℕ) (tol : K) :
    ∃ N ≤ maxIters, computeObservabilityGramian A C maxIters tol = ∑ k ∈ Finset.range N, obsTerm A C k ∧
      (∀ k, k + 1 < N → tol ≤ absSum (obsTerm A C k)) ∧
      (N = maxIters ∨ (0 < N ∧ absSum (obsTerm A C (N - 1)) < tol)) := by
  obtain ⟨N, h1, h2, h3, h4⟩ := obsLoop_spec A C tol maxIters 0 (by simp)
  refine ⟨N, by omega, ?_, h3, by simpa using h4⟩
  simpa [computeObservabilityGramian] using h2

/-- C75, Lyapunov equation: when the loop stops by tolerance before the limit, the returned matrix
satisfies the discrete Lyapunov equation `X = A X' Aᵀ + B Bᵀ` with some `X'` that differs from it by
less than the tolerance (sum of absolute entries). -/
theorem C75_lyapunov {n m : ℕ} (A : Matrix (Fin n) (Fin n) K) (B : Matrix (Fin n) (Fin m) K)
    (maxIters : ℕ) (tol : K) (hconv : ∃ k, k + 1 < maxIters ∧ absSum (ctrlTerm A B k) < tol) :
    ∃ X', computeControllabilityGramian A B maxIters tol = A * X' * A.transpose + B * B.transpose ∧
      absSum (computeControllabilityGramian A B maxIters tol - X') < tol := by
  obtain ⟨N, h1, h2, h3, h4⟩ := C75_controllability_gramian A B maxIters tol
  obtain ⟨k, hk, hkt⟩ := hconv
  have hN : 0 < N ∧ absSum (ctrlTerm A B (N - 1)) < tol := by
    rcases h4 with h4 | h4
    · exact absurd (h3 k (by omega)) (not_le.2 hkt)
    · exact h4
  obtain ⟨M, rfl⟩ : ∃ M, N = M + 1 := ⟨N - 1, by omega⟩
  refine ⟨∑ k ∈ Finset.range M, ctrlTerm A B k, ?_, ?_⟩
  · rw [h2, Finset.sum_range_succ', Matrix.mul_sum, Matrix.sum_mul]
    congr 1
    · refine Finset.sum_congr rfl (fun i _ => ?_)
      simp only [ctrlTerm, pow_succ', Matrix.transpose_mul, Matrix.mul_assoc]
    · simp [ctrlTerm]
  · rw [h2, Finset.sum_range_succ, add_sub_cancel_left]
    simpa using hN.2

end gram

/-- C75, positive semidefinite: both Gramians are symmetric positive semidefinite (reals), whatever
the iteration limit and tolerance. -/
theorem C75_posSemidef {n m : ℕ} (A C : Matrix (Fin n) (Fin n) ℝ) (B : Matrix (Fin n) (Fin m) ℝ)
    (maxIters : ℕ) (tol : ℝ) :
    (computeControllabilityGramian A B maxIters tol).PosSemidef ∧
    (computeObservabilityGramian A C maxIters tol).PosSemidef := by
  obtain ⟨N, -, h2, -⟩ := C75_controllability_gramian A B maxIters tol
  obtain ⟨N', -, h2', -⟩ := C75_observability_gramian A C maxIters tol
  rw [h2, h2']
  constructor
  · refine Matrix.posSemidef_sum _ (fun k _ => ?_)
    have := Matrix.posSemidef_self_mul_conjTranspose (A ^ k * B)
    rw [Matrix.conjTranspose_eq_transpose_of_trivial, Matrix.transpose_mul, ← Matrix.mul_assoc] at this
    exact this
  · refine Matrix.posSemidef_sum _ (fun k _ => ?_)
    have := Matrix.posSemidef_conjTranspose_mul_self (C * A ^ k)
    rw [Matrix.conjTranspose_eq_transpose_of_trivial, Matrix.transpose_mul, ← Matrix.mul_assoc] at this
    exact this

/-- Non-vacuous: a stable scalar system for which the tolerance is met before the limit. -/
example : ∃ k, k + 1 < 100 ∧ absSum (ctrlTerm (!![1/2] : Matrix (Fin 1) (Fin 1) ℚ) (!![1] : Matrix (Fin 1) (Fin 1) ℚ) k) < 1/1000 :=
  ⟨10, by norm_num, by simp [absSum, ctrlTerm, Matrix.transpose_pow]; decide +kernel⟩

/-- Non-vacuous: the double integrator's controllability matrix. -/
example : ∃ d, computeControllabilityMatrix (!![1, 1; 0, 1] : Matrix (Fin 2) (Fin 2) ℚ) (!![0; 1] : Matrix (Fin 2) (Fin 1) ℚ)
    (fun _ _ => 7) = Res.ok ⟨2, 2, d⟩ ∧ d 0 0 = 0 ∧ d 1 0 = 1 ∧ d 0 1 = 1 ∧ d 1 1 = 1 := by
  obtain ⟨d, h1, h2⟩ := C25_controllability (by norm_num) (!![1, 1; 0, 1] : Matrix (Fin 2) (Fin 2) ℚ)
    (!![0; 1] : Matrix (Fin 2) (Fin 1) ℚ) (fun _ _ => 7)
  exact ⟨d, h1, by simpa using h2 0 (by norm_num) 0 0, by simpa using h2 0 (by norm_num) 1 0,
    by simpa using h2 1 (by norm_num) 0 0, by simpa using h2 1 (by norm_num) 1 0⟩

end CT.LTI
