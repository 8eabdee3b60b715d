import Verif.Model.Riccati
import Mathlib.Analysis.Matrix.PosDef
import Mathlib.Data.Real.StarOrdered
import Mathlib.Tactic.Ring
import Mathlib.Tactic.Linarith
import Mathlib.Tactic.LinearCombination
import Mathlib.Tactic.FieldSimp

/-! # C38, C39: the Riccati solver -/

namespace CT.Riccati

open Matrix

variable {n m : Nat}

/-! ### Specification -/

/-- Cost of stage `k` at deviation `x`, `u` (LQOCProblem.hpp, class documentation). -/
noncomputable def stageCost (p : Problem n m) (k : Nat) (x : Fin n → ℝ) (u : Fin m → ℝ) : ℝ :=
  p.q k + x ⬝ᵥ p.qv k + u ⬝ᵥ p.rv k + 1 / 2 * (x ⬝ᵥ (p.Q k *ᵥ x)) + 1 / 2 * (u ⬝ᵥ (p.R k *ᵥ u))
    + u ⬝ᵥ (p.P k *ᵥ x)

/-- Cost of the last state. -/
noncomputable def terminalCost (p : Problem n m) (x : Fin n → ℝ) : ℝ :=
  p.q p.N + x ⬝ᵥ p.qv p.N + 1 / 2 * (x ⬝ᵥ (p.Q p.N *ᵥ x))

/-- The dynamics of the problem. -/
def next (p : Problem n m) (k : Nat) (x : Fin n → ℝ) (u : Fin m → ℝ) : Fin n → ℝ :=
  p.A k *ᵥ x + p.B k *ᵥ u + p.b k

/-- Cost of the control sequence `w` over `j` stages starting at stage `k` in state `x`, plus the terminal
cost. -/
noncomputable def tailCost (p : Problem n m) : Nat → Nat → (Fin n → ℝ) → (Nat → Fin m → ℝ) → ℝ
  | 0, _, x, _ => terminalCost p x
  | j + 1, k, x, w => stageCost p k x (w k) + tailCost p j (k + 1) (next p k x (w k)) w

/-- Cost of a control sequence for the problem; the deviation of the initial state is zero. -/
noncomputable def cost (p : Problem n m) (w : Nat → Fin m → ℝ) : ℝ := tailCost p p.N 0 0 w

/-- States reached under a control sequence. -/
def states (p : Problem n m) (w : Nat → Fin m → ℝ) : Nat → Fin n → ℝ
  | 0 => 0
  | k + 1 => next p k (states p w k) (w k)

/-- What `Eigen::SelfAdjointEigenSolver` is trusted for: an orthogonal eigendecomposition of symmetric
matrices. -/
def EigenSolver (eig : Matrix (Fin m) (Fin m) ℝ → Matrix (Fin m) (Fin m) ℝ × (Fin m → ℝ)) : Prop :=
  ∀ H, Hᵀ = H → (eig H).1 * (eig H).1ᵀ = 1 ∧ (eig H).1 * diagonal (eig H).2 * (eig H).1ᵀ = H

/-- No regularisation is needed for `H`: it is positive definite and its eigenvalues are at least the
`epsilon` of the settings (eigenvalue clamping), or the fixed correction is switched off by a negligible
`epsilon`. -/
def NoReg (c : Settings m) (H : Matrix (Fin m) (Fin m) ℝ) : Prop :=
  H.PosDef ∧ if c.fixedHessianCorrection then c.epsilon ≤ 1 / 10 ^ 10
    else EigenSolver c.eig ∧ ∀ v : Fin m → ℝ, c.epsilon * (v ⬝ᵥ v) ≤ v ⬝ᵥ (H *ᵥ v)

theorem bil_sym {k : Nat} {M : Matrix (Fin k) (Fin k) ℝ} (h : Mᵀ = M) (a b : Fin k → ℝ) :
    a ⬝ᵥ (M *ᵥ b) = b ⬝ᵥ (M *ᵥ a) := by
  rw [dotProduct_mulVec, ← mulVec_transpose, h, dotProduct_comm]

theorem dot_tr {k l : Nat} (M : Matrix (Fin k) (Fin l) ℝ) (a : Fin l → ℝ) (b : Fin k → ℝ) :
    a ⬝ᵥ (Mᵀ *ᵥ b) = (M *ᵥ a) ⬝ᵥ b := by
  rw [dotProduct_mulVec, vecMul_transpose]

/-! ### What a sweep leaves in the arrays -/

theorem lowerView_sym {k : Nat} (M : Matrix (Fin k) (Fin k) ℝ) (h : Mᵀ = M) : lowerView M = M := by
  ext i j
  have : M j i = M i j := congrFun (congrFun h i) j
  simp [lowerView, this]

/-- Array entries of stage `k` after the stage was solved. -/
structure Stage (c : Settings m) (p : Problem n m) (s : Sol n m) (k : Nat) : Prop where
  gv : s.gv k = p.rv k + (p.B k)ᵀ *ᵥ s.sv (k + 1) + ((p.B k)ᵀ * lowerView (s.S (k + 1))) *ᵥ p.b k
  G : s.G k = p.P k + (p.B k)ᵀ * lowerView (s.S (k + 1)) * p.A k
  H : s.H k = p.R k + (p.B k)ᵀ * lowerView (s.S (k + 1)) * p.B k
  Hi : s.Hi k = (correct c (s.H k)).1
  HiInv : s.HiInv k = (correct c (s.H k)).2
  L : s.L k = s.HiInv k * s.G k
  lv : s.lv k = s.HiInv k *ᵥ s.gv k
  S : 0 < k → s.S k = (1 / 2 : ℝ) • ((p.Q k + (p.A k)ᵀ * s.S (k + 1) * p.A k - (s.L k)ᵀ * s.Hi k * s.L k)
    + (p.Q k + (p.A k)ᵀ * s.S (k + 1) * p.A k - (s.L k)ᵀ * s.Hi k * s.L k)ᵀ)
  sv : 0 < k → s.sv k = p.qv k + (p.A k)ᵀ *ᵥ s.sv (k + 1) + ((p.A k)ᵀ * s.S (k + 1)) *ᵥ p.b k
    + (s.G k)ᵀ *ᵥ s.lv k

/-- All stages from `lo` on are solved. -/
structure Solved (c : Settings m) (p : Problem n m) (lo : Nat) (s : Sol n m) : Prop where
  S : lo < p.N → s.S p.N = p.Q p.N
  sv : lo < p.N → s.sv p.N = p.qv p.N
  stage : ∀ k, lo ≤ k → k < p.N → Stage c p s k

theorem sweep_self (c : Settings m) (p : Problem n m) (lo : Nat) (s : Sol n m) : sweep c p lo lo s = .ok s := by
  have : (List.range lo).drop lo = [] := by simp
  simp [sweep, this, Res.pure_eq]

theorem sweep_succ (c : Settings m) (p : Problem n m) {h lo : Nat} (hl : lo ≤ h) (s : Sol n m) :
    sweep c p (h + 1) lo s = solveSingleStage c p h s >>= sweep c p h lo := by
  have : (List.range (h + 1)).drop lo = (List.range h).drop lo ++ [h] := by
    rw [List.range_succ, List.drop_append_of_le_length (by simpa using hl)]
  unfold sweep
  rw [this, List.reverse_append]
  simp [List.foldlM_cons]

theorem solveSingleStage_solved (c : Settings m) (p : Problem n m) {h : Nat} (hN : h < p.N) (s : Sol n m)
    (hs : Solved c p (h + 1) s) : ∃ s', solveSingleStage c p h s = .ok s' ∧ Solved c p h s' := by
  have hne : ¬ p.N ≤ h := by omega
  refine ⟨_, by rw [solveSingleStage, if_neg hne], ?_⟩
  -- the state the stage is designed from
  set s0 := if h + 1 = p.N then initializeCostToGo p s else s with hs0
  have hS0 : s0.S p.N = p.Q p.N ∧ s0.sv p.N = p.qv p.N := by
    by_cases e : h + 1 = p.N
    · simp [hs0, e, initializeCostToGo]
    · simp only [hs0, if_neg e]
      exact ⟨hs.S (by omega), hs.sv (by omega)⟩
  have hst : ∀ k, h + 1 ≤ k → k < p.N → Stage c p s0 k := by
    intro k hk hk'
    have e : ¬ h + 1 = p.N := by omega
    simp only [hs0, if_neg e]
    exact hs.stage k hk hk'
  clear_value s0
  by_cases h0 : 0 < h
  · simp only [if_pos h0]
    refine ⟨fun _ => ?_, fun _ => ?_, fun k hk hk' => ?_⟩
    · have : p.N ≠ h := by omega
      simp [computeCostToGo, designController, this, hS0.1]
    · have : p.N ≠ h := by omega
      simp [computeCostToGo, designController, this, hS0.2]
    · by_cases e : k = h
      · subst e
        constructor <;> simp [computeCostToGo, designController]
      · have t := hst k (by omega) hk'
        have e2 : k + 1 ≠ h := by omega
        obtain ⟨a1, a2, a3, a4, a5, a6, a7, a8, a9⟩ := t
        constructor <;> simp only [computeCostToGo, designController, Function.update_of_ne e, Function.update_of_ne e2] <;> assumption
  · have h00 : h = 0 := by omega
    subst h00
    simp only [lt_self_iff_false, if_false]
    refine ⟨fun _ => ?_, fun _ => ?_, fun k hk hk' => ?_⟩
    · simp [designController, hS0.1]
    · simp [designController, hS0.2]
    · by_cases e : k = 0
      · subst e
        constructor <;> simp [designController]
      · have t := hst k (by omega) hk'
        obtain ⟨a1, a2, a3, a4, a5, a6, a7, a8, a9⟩ := t
        constructor <;> simp only [designController, Function.update_of_ne e] <;> assumption

theorem sweep_solved (c : Settings m) (p : Problem n m) (h : Nat) (hN : h ≤ p.N) (s : Sol n m)
    (hs : Solved c p h s) : ∃ s', sweep c p h 0 s = .ok s' ∧ Solved c p 0 s' := by
  induction h generalizing s with
  | zero => exact ⟨s, sweep_self _ _ _ _, hs⟩
  | succ h ih =>
    obtain ⟨s1, e1, h1⟩ := solveSingleStage_solved c p (by omega) s hs
    obtain ⟨s2, e2, h2⟩ := ih (by omega) s1 h1
    exact ⟨s2, by rw [sweep_succ _ _ (Nat.zero_le h), e1, Res.ok_bind, e2], h2⟩

theorem solve_solved (c : Settings m) (p : Problem n m) (s : Sol n m) :
    ∃ s', solve c p s = .ok s' ∧ Solved c p 0 s' :=
  sweep_solved c p p.N le_rfl s ⟨by omega, by omega, by intro k h1 h2; omega⟩

/-! ### The correction is the identity when no regularisation is needed -/

theorem correct_noReg (c : Settings m) (H : Matrix (Fin m) (Fin m) ℝ) (h : NoReg c H) :
    (correct c H).1 = H ∧ (correct c H).2 = -H⁻¹ := by
  obtain ⟨hpd, h⟩ := h
  have hsym : Hᵀ = H := by simpa [conjTranspose_eq_transpose_of_trivial] using hpd.isHermitian.eq
  have hdet : IsUnit H.det := hpd.det_pos.ne'.isUnit
  by_cases hf : c.fixedHessianCorrection = true
  · rw [if_pos hf] at h
    have h' : ¬ (1 : ℝ) / 10 ^ 10 < c.epsilon := not_lt.2 h
    simp only [correct, hf, if_true, if_neg h', lowerView_sym H hsym]
    refine ⟨trivial, lowerView_sym _ ?_⟩
    rw [transpose_neg, transpose_nonsing_inv, hsym]
  · rw [if_neg hf] at h
    obtain ⟨he, hev⟩ := h
    obtain ⟨hV, hD⟩ := he H hsym
    simp only [correct, hf]
    set V := (c.eig H).1
    set lam := (c.eig H).2
    have hV' : Vᵀ * V = 1 := mul_eq_one_comm.1 hV
    -- the eigenvalues are at least epsilon
    have hlam : ∀ i, c.epsilon ≤ lam i ∧ 0 < lam i := by
      intro i
      let v : Fin m → ℝ := V *ᵥ Pi.single i 1
      have hvv : v ⬝ᵥ v = 1 := by
        have : v ⬝ᵥ v = Pi.single i 1 ⬝ᵥ ((Vᵀ * V) *ᵥ (Pi.single i (1 : ℝ))) := by
          simp only [v]
          rw [← mulVec_mulVec, dot_tr]
        rw [this, hV', one_mulVec]
        simp
      have hvH : v ⬝ᵥ (H *ᵥ v) = lam i := by
        have : v ⬝ᵥ (H *ᵥ v)
            = Pi.single i 1 ⬝ᵥ ((Vᵀ * (V * diagonal lam * Vᵀ) * V) *ᵥ (Pi.single i (1 : ℝ))) := by
          rw [hD]
          simp only [v]
          rw [← mulVec_mulVec, ← mulVec_mulVec, dotProduct_mulVec (Pi.single i 1), vecMul_transpose]
        rw [this]
        have e : Vᵀ * (V * diagonal lam * Vᵀ) * V = diagonal lam := by
          rw [← Matrix.mul_assoc, ← Matrix.mul_assoc, hV', Matrix.one_mul, Matrix.mul_assoc, hV', Matrix.mul_one]
        rw [e]
        simp
      constructor
      · have := hev v
        rwa [hvv, hvH, mul_one] at this
      · have hv0 : v ≠ 0 := by
          intro h0
          rw [h0] at hvv
          simp at hvv
        have := hpd.dotProduct_mulVec_pos hv0
        simpa [hvH] using this
    have hmax : (fun i => max (lam i) c.epsilon) = lam := by
      funext i
      exact max_eq_left (hlam i).1
    simp only [Bool.false_eq_true, if_false]
    rw [show (fun i => max (lam i) c.epsilon) = lam from hmax]
    refine ⟨hD, ?_⟩
    have e1 : V * diagonal (fun i => -1 * (lam i)⁻¹) * Vᵀ
        = -(V * diagonal (fun i => (lam i)⁻¹) * Vᵀ) := by
      have : diagonal (fun i => -1 * (lam i)⁻¹) = -diagonal (fun i => (lam i)⁻¹) := by
        rw [diagonal_neg]
        congr 1
        funext i
        simp
      rw [this, Matrix.mul_neg, Matrix.neg_mul]
    have e2 : ∀ i, max (lam i) c.epsilon = lam i := fun i => max_eq_left (hlam i).1
    simp only [e2]
    rw [e1, neg_inj]
    refine (inv_eq_left_inv ?_).symm
    rw [← hD]
    calc V * diagonal (fun i => (lam i)⁻¹) * Vᵀ * (V * diagonal lam * Vᵀ)
        = V * diagonal (fun i => (lam i)⁻¹) * (Vᵀ * V) * diagonal lam * Vᵀ := by
          simp only [Matrix.mul_assoc]
      _ = V * (diagonal (fun i => (lam i)⁻¹) * diagonal lam) * Vᵀ := by
          rw [hV', Matrix.mul_one]; simp only [Matrix.mul_assoc]
      _ = 1 := by
          rw [diagonal_mul_diagonal]
          have : (fun i => (lam i)⁻¹ * lam i) = fun _ => 1 := by
            funext i
            exact inv_mul_cancel₀ (hlam i).2.ne'
          rw [this, diagonal_one, Matrix.mul_one, hV]

/-! ### Completing the square -/

/-- One step of dynamic programming: stage cost plus cost-to-go of the next state is the cost-to-go of the
present state plus a penalty on the deviation from the feedback law. -/
theorem stage_identity (A : Matrix (Fin n) (Fin n) ℝ) (B : Matrix (Fin n) (Fin m) ℝ) (b : Fin n → ℝ)
    (P L G : Matrix (Fin m) (Fin n) ℝ) (q c : ℝ) (qv sv : Fin n → ℝ) (Q S : Matrix (Fin n) (Fin n) ℝ)
    (rv lv gv : Fin m → ℝ) (R H : Matrix (Fin m) (Fin m) ℝ)
    (hS : Sᵀ = S) (hHs : Hᵀ = H) (hg : gv = rv + Bᵀ *ᵥ sv + (Bᵀ * S) *ᵥ b) (hG : G = P + Bᵀ * S * A)
    (hH : H = R + Bᵀ * S * B) (hL : H * L = -G) (hl : H *ᵥ lv = -gv) (x : Fin n → ℝ) (u : Fin m → ℝ) :
    let x' := A *ᵥ x + B *ᵥ u + b
    let M := Q + Aᵀ * S * A - Lᵀ * H * L
    let d := u - (lv + L *ᵥ x)
    (q + x ⬝ᵥ qv + u ⬝ᵥ rv + 1 / 2 * (x ⬝ᵥ (Q *ᵥ x)) + 1 / 2 * (u ⬝ᵥ (R *ᵥ u)) + u ⬝ᵥ (P *ᵥ x))
        + (1 / 2 * (x' ⬝ᵥ (S *ᵥ x')) + sv ⬝ᵥ x' + c)
      = 1 / 2 * (x ⬝ᵥ (((1 / 2 : ℝ) • (M + Mᵀ)) *ᵥ x))
        + (qv + Aᵀ *ᵥ sv + (Aᵀ * S) *ᵥ b + Gᵀ *ᵥ lv) ⬝ᵥ x
        + (q + c + 1 / 2 * (b ⬝ᵥ (S *ᵥ b)) + sv ⬝ᵥ b - 1 / 2 * (lv ⬝ᵥ (H *ᵥ lv)))
        + 1 / 2 * (d ⬝ᵥ (H *ᵥ d)) := by
  intro x' M d
  have e1 : u ⬝ᵥ (H *ᵥ u) = u ⬝ᵥ (R *ᵥ u) + (B *ᵥ u) ⬝ᵥ (S *ᵥ (B *ᵥ u)) := by
    rw [hH, add_mulVec, dotProduct_add, ← mulVec_mulVec, ← mulVec_mulVec, dot_tr]
  have e2 : u ⬝ᵥ (G *ᵥ x) = u ⬝ᵥ (P *ᵥ x) + (B *ᵥ u) ⬝ᵥ (S *ᵥ (A *ᵥ x)) := by
    rw [hG, add_mulVec, dotProduct_add, ← mulVec_mulVec, ← mulVec_mulVec, dot_tr]
  have e3 : u ⬝ᵥ gv = u ⬝ᵥ rv + (B *ᵥ u) ⬝ᵥ sv + (B *ᵥ u) ⬝ᵥ (S *ᵥ b) := by
    rw [hg, dotProduct_add, dotProduct_add, ← mulVec_mulVec, dot_tr, dot_tr]
  have e4 : x ⬝ᵥ (M *ᵥ x) = x ⬝ᵥ (Q *ᵥ x) + (A *ᵥ x) ⬝ᵥ (S *ᵥ (A *ᵥ x)) - (L *ᵥ x) ⬝ᵥ (H *ᵥ (L *ᵥ x)) := by
    simp only [M]
    rw [sub_mulVec, dotProduct_sub, add_mulVec, dotProduct_add, ← mulVec_mulVec, ← mulVec_mulVec,
      ← mulVec_mulVec, ← mulVec_mulVec, dot_tr, dot_tr]
  have e4' : x ⬝ᵥ (((1 / 2 : ℝ) • (M + Mᵀ)) *ᵥ x) = x ⬝ᵥ (M *ᵥ x) := by
    rw [smul_mulVec, dotProduct_smul, add_mulVec, dotProduct_add, dot_tr, dotProduct_comm (M *ᵥ x), smul_eq_mul]
    ring
  have e5 : (qv + Aᵀ *ᵥ sv + (Aᵀ * S) *ᵥ b + Gᵀ *ᵥ lv) ⬝ᵥ x
      = x ⬝ᵥ qv + (A *ᵥ x) ⬝ᵥ sv + (A *ᵥ x) ⬝ᵥ (S *ᵥ b) + lv ⬝ᵥ (G *ᵥ x) := by
    rw [dotProduct_comm, dotProduct_add, dotProduct_add, dotProduct_add, ← mulVec_mulVec, dot_tr, dot_tr, dot_tr,
      dotProduct_comm lv]
  have hLx : ∀ w : Fin m → ℝ, w ⬝ᵥ (H *ᵥ (L *ᵥ x)) = -(w ⬝ᵥ (G *ᵥ x)) := by
    intro w
    rw [mulVec_mulVec, hL, neg_mulVec, dotProduct_neg]
  have hlv : ∀ w : Fin m → ℝ, w ⬝ᵥ (H *ᵥ lv) = -(w ⬝ᵥ gv) := by
    intro w
    rw [hl, dotProduct_neg]
  have e6 : d ⬝ᵥ (H *ᵥ d) = u ⬝ᵥ (H *ᵥ u) - 2 * (u ⬝ᵥ (H *ᵥ (L *ᵥ x))) - 2 * (u ⬝ᵥ (H *ᵥ lv))
      + (L *ᵥ x) ⬝ᵥ (H *ᵥ (L *ᵥ x)) + 2 * (lv ⬝ᵥ (H *ᵥ (L *ᵥ x))) + lv ⬝ᵥ (H *ᵥ lv) := by
    simp only [d, mulVec_sub, mulVec_add, dotProduct_sub, dotProduct_add, sub_dotProduct, add_dotProduct]
    rw [bil_sym hHs (L *ᵥ x) u, bil_sym hHs lv u, bil_sym hHs (L *ᵥ x) lv]
    ring
  have e7 : x' ⬝ᵥ (S *ᵥ x') = (A *ᵥ x) ⬝ᵥ (S *ᵥ (A *ᵥ x)) + (B *ᵥ u) ⬝ᵥ (S *ᵥ (B *ᵥ u)) + b ⬝ᵥ (S *ᵥ b)
      + 2 * ((B *ᵥ u) ⬝ᵥ (S *ᵥ (A *ᵥ x))) + 2 * ((A *ᵥ x) ⬝ᵥ (S *ᵥ b)) + 2 * ((B *ᵥ u) ⬝ᵥ (S *ᵥ b)) := by
    simp only [x', mulVec_add, dotProduct_add, add_dotProduct]
    rw [bil_sym hS (A *ᵥ x) (B *ᵥ u), bil_sym hS b (A *ᵥ x), bil_sym hS b (B *ᵥ u)]
    ring
  have e8 : sv ⬝ᵥ x' = (A *ᵥ x) ⬝ᵥ sv + (B *ᵥ u) ⬝ᵥ sv + sv ⬝ᵥ b := by
    simp only [x', dotProduct_add]
    rw [dotProduct_comm sv, dotProduct_comm sv (B *ᵥ u)]
  rw [e4', e4, e5, e6, e7, e8, e1, hLx u, hlv u, hLx lv, e2, e3]
  ring

/-! ### Tail costs -/

/-- Cost-to-go matrices: the terminal weights at the end, the update formulas before. For `k ≥ 1` these are
the arrays of the solver (`ctg_eq`). -/
noncomputable def ctgS (p : Problem n m) (s : Sol n m) (k : Nat) : Matrix (Fin n) (Fin n) ℝ :=
  if k < p.N then
    (1 / 2 : ℝ) • ((p.Q k + (p.A k)ᵀ * s.S (k + 1) * p.A k - (s.L k)ᵀ * s.Hi k * s.L k)
      + (p.Q k + (p.A k)ᵀ * s.S (k + 1) * p.A k - (s.L k)ᵀ * s.Hi k * s.L k)ᵀ)
  else p.Q p.N

noncomputable def ctgs (p : Problem n m) (s : Sol n m) (k : Nat) : Fin n → ℝ :=
  if k < p.N then
    p.qv k + (p.A k)ᵀ *ᵥ s.sv (k + 1) + ((p.A k)ᵀ * s.S (k + 1)) *ᵥ p.b k + (s.G k)ᵀ *ᵥ s.lv k
  else p.qv p.N

theorem ctg_eq {c : Settings m} {p : Problem n m} {s : Sol n m} (h : Solved c p 0 s) {k : Nat} (h0 : 0 < k)
    (hk : k ≤ p.N) : s.S k = ctgS p s k ∧ s.sv k = ctgs p s k := by
  by_cases e : k < p.N
  · simp only [ctgS, ctgs, if_pos e]
    exact ⟨(h.stage k (Nat.zero_le k) e).S h0, (h.stage k (Nat.zero_le k) e).sv h0⟩
  · have : k = p.N := by omega
    subst this
    simp only [ctgS, ctgs, lt_self_iff_false, if_false]
    exact ⟨h.S h0, h.sv h0⟩

theorem ctgS_sym {p : Problem n m} {s : Sol n m} (hQ : (p.Q p.N)ᵀ = p.Q p.N) (k : Nat) :
    (ctgS p s k)ᵀ = ctgS p s k := by
  unfold ctgS
  split
  · rw [transpose_smul, transpose_add, transpose_transpose, add_comm]
  · exact hQ

/-- Penalty for deviating from the feedback law along a control sequence. -/
noncomputable def penalty (p : Problem n m) (s : Sol n m) : Nat → Nat → (Fin n → ℝ) → (Nat → Fin m → ℝ) → ℝ
  | 0, _, _, _ => 0
  | j + 1, k, x, w =>
    1 / 2 * ((w k - (s.lv k + s.L k *ᵥ x)) ⬝ᵥ (s.H k *ᵥ (w k - (s.lv k + s.L k *ᵥ x))))
      + penalty p s j (k + 1) (next p k x (w k)) w

theorem noReg_sym {c : Settings m} {H : Matrix (Fin m) (Fin m) ℝ} (h : NoReg c H) : Hᵀ = H := by
  simpa [conjTranspose_eq_transpose_of_trivial] using h.1.isHermitian.eq

theorem tail_eq {c : Settings m} {p : Problem n m} {s : Sol n m} (h : Solved c p 0 s)
    (hQ : (p.Q p.N)ᵀ = p.Q p.N) (j k : Nat) (hjk : k + j = p.N) (hH : ∀ i, k ≤ i → i < p.N → NoReg c (s.H i)) :
    ∃ r : ℝ, ∀ x w, tailCost p j k x w
      = 1 / 2 * (x ⬝ᵥ (ctgS p s k *ᵥ x)) + ctgs p s k ⬝ᵥ x + r + penalty p s j k x w := by
  induction j generalizing k with
  | zero =>
    refine ⟨p.q p.N, fun x w => ?_⟩
    have : ¬ k < p.N := by omega
    simp only [tailCost, terminalCost, ctgS, ctgs, if_neg this, penalty]
    rw [dotProduct_comm (p.qv p.N)]
    ring
  | succ j ih =>
    obtain ⟨r, hr⟩ := ih (k + 1) (by omega) (fun i hi hi' => hH i (by omega) hi')
    have hk : k < p.N := by omega
    have st := h.stage k (Nat.zero_le k) hk
    obtain ⟨hSe, hse⟩ := ctg_eq h (k := k + 1) (by omega) (by omega)
    have hSs : (s.S (k + 1))ᵀ = s.S (k + 1) := by rw [hSe]; exact ctgS_sym hQ _
    have hlow := lowerView_sym _ hSs
    have hreg := hH k le_rfl hk
    have hHs := noReg_sym hreg
    obtain ⟨c1, c2⟩ := correct_noReg c _ hreg
    have hdet : IsUnit (s.H k).det := hreg.1.det_pos.ne'.isUnit
    have hHi : s.Hi k = s.H k := by rw [st.Hi, c1]
    have hL : s.H k * s.L k = -s.G k := by
      rw [st.L, st.HiInv, c2, Matrix.neg_mul, Matrix.mul_neg, ← Matrix.mul_assoc, Matrix.mul_nonsing_inv _ hdet,
        Matrix.one_mul]
    have hl : s.H k *ᵥ s.lv k = -s.gv k := by
      rw [st.lv, st.HiInv, c2, neg_mulVec, mulVec_neg, mulVec_mulVec, Matrix.mul_nonsing_inv _ hdet, one_mulVec]
    have hg := st.gv
    have hG := st.G
    have hHH := st.H
    rw [hlow] at hg hG hHH
    refine ⟨p.q k + r + 1 / 2 * (p.b k ⬝ᵥ (s.S (k + 1) *ᵥ p.b k)) + s.sv (k + 1) ⬝ᵥ p.b k
      - 1 / 2 * (s.lv k ⬝ᵥ (s.H k *ᵥ s.lv k)), fun x w => ?_⟩
    have key := stage_identity (p.A k) (p.B k) (p.b k) (p.P k) (s.L k) (s.G k) (p.q k) r (p.qv k)
      (s.sv (k + 1)) (p.Q k) (s.S (k + 1)) (p.rv k) (s.lv k) (s.gv k) (p.R k) (s.H k) hSs hHs hg hG hHH hL hl x (w k)
    dsimp only at key
    simp only [tailCost, hr, penalty, stageCost, ctgS, ctgs, if_pos hk, hHi]
    rw [← ctgS, ← ctgs, ← hSe, ← hse]
    simp only [next] at *
    linear_combination key

theorem penalty_nonneg {c : Settings m} {p : Problem n m} {s : Sol n m} (j k : Nat) (hjk : k + j = p.N)
    (hH : ∀ i, k ≤ i → i < p.N → NoReg c (s.H i)) (x : Fin n → ℝ) (w : Nat → Fin m → ℝ) :
    0 ≤ penalty p s j k x w := by
  induction j generalizing k x with
  | zero => exact le_rfl
  | succ j ih =>
    have h1 := ih (k + 1) (by omega) (fun i hi hi' => hH i (by omega) hi') (next p k x (w k))
    have h2 := (hH k le_rfl (by omega)).1.posSemidef.dotProduct_mulVec_nonneg (w k - (s.lv k + s.L k *ᵥ x))
    simp only [star_trivial] at h2
    simp only [penalty]
    linarith

theorem penalty_zero {c : Settings m} {p : Problem n m} {s : Sol n m} (j k : Nat) (hjk : k + j = p.N)
    (hH : ∀ i, k ≤ i → i < p.N → NoReg c (s.H i)) (w : Nat → Fin m → ℝ)
    (h0 : penalty p s j k (xSol p s k) w = 0) : ∀ i, k ≤ i → i < p.N → w i = uSol p s i := by
  induction j generalizing k with
  | zero => intro i hi hi'; omega
  | succ j ih =>
    have h1 := penalty_nonneg (c := c) (s := s) j (k + 1) (by omega) (fun i hi hi' => hH i (by omega) hi')
      (next p k (xSol p s k) (w k)) w
    have hpd := (hH k le_rfl (by omega)).1
    have h2 := hpd.posSemidef.dotProduct_mulVec_nonneg (w k - (s.lv k + s.L k *ᵥ xSol p s k))
    simp only [star_trivial] at h2
    simp only [penalty] at h0
    have h3 : w k = uSol p s k := by
      by_contra hne
      have hd : w k - (s.lv k + s.L k *ᵥ xSol p s k) ≠ 0 := sub_ne_zero.2 hne
      have := hpd.dotProduct_mulVec_pos hd
      simp only [star_trivial] at this
      linarith
    have h4 : next p k (xSol p s k) (w k) = xSol p s (k + 1) := by
      rw [h3]; rfl
    rw [h4] at h0 h1
    have h5 := ih (k + 1) (by omega) (fun i hi hi' => hH i (by omega) hi') (by linarith)
    intro i hi hi'
    by_cases e : i = k
    · rw [e, h3]
    · exact h5 i (by omega) hi'

theorem penalty_sol (p : Problem n m) (s : Sol n m) (j k : Nat) :
    penalty p s j k (xSol p s k) (uSol p s) = 0 := by
  induction j generalizing k with
  | zero => rfl
  | succ j ih =>
    have h4 : next p k (xSol p s k) (uSol p s k) = xSol p s (k + 1) := rfl
    simp only [penalty, h4, ih]
    simp [uSol]

theorem optimal_of_solved {c : Settings m} {p : Problem n m} {s : Sol n m} (h : Solved c p 0 s)
    (hQ : (p.Q p.N)ᵀ = p.Q p.N) (hH : ∀ k, k < p.N → NoReg c (s.H k)) (w : Nat → Fin m → ℝ) :
    cost p (uSol p s) ≤ cost p w ∧ (cost p w = cost p (uSol p s) → ∀ k, k < p.N → w k = uSol p s k) := by
  have hH' : ∀ i, 0 ≤ i → i < p.N → NoReg c (s.H i) := fun i _ => hH i
  obtain ⟨r, hr⟩ := tail_eq h hQ p.N 0 (by omega) hH'
  have h1 : cost p (uSol p s) = ctgs p s 0 ⬝ᵥ 0 + r := by
    rw [cost, hr]
    have := penalty_sol p s p.N 0
    simp only [xSol] at this
    rw [this]
    simp
  have h2 : cost p w = ctgs p s 0 ⬝ᵥ 0 + r + penalty p s p.N 0 0 w := by
    rw [cost, hr]; simp
  have h3 := penalty_nonneg (c := c) (s := s) p.N 0 (by omega) hH' 0 w
  refine ⟨by linarith, fun heq => ?_⟩
  have h4 : penalty p s p.N 0 (xSol p s 0) w = 0 := by
    simp only [xSol]; linarith
  intro k hk
  exact penalty_zero p.N 0 (by omega) hH' w h4 k (Nat.zero_le k) hk

/-- C38. For every problem whose Hessians need no regularisation, the controls computed by the solver have
the least cost of all control sequences, no other sequence has that cost, and the returned states are those
reached under the returned controls. -/
theorem C38_optimal (c : Settings m) (p : Problem n m) (s0 s : Sol n m) (hs : solve c p s0 = .ok s)
    (hQ : (p.Q p.N)ᵀ = p.Q p.N) (hH : ∀ k, k < p.N → NoReg c (s.H k)) (w : Nat → Fin m → ℝ) :
    cost p (uSol p s) ≤ cost p w ∧ (cost p w = cost p (uSol p s) → ∀ k, k < p.N → w k = uSol p s k) ∧
      (∀ k, xSol p s k = states p (uSol p s) k) := by
  obtain ⟨s', e, h⟩ := solve_solved c p s0
  rw [hs] at e
  obtain rfl : s = s' := by injection e
  refine ⟨(optimal_of_solved h hQ hH w).1, (optimal_of_solved h hQ hH w).2, fun k => ?_⟩
  induction k with
  | zero => rfl
  | succ k ih => simp only [xSol, states, next, uSol, ← ih]

/-- C38, feedback: from every stage `k ≥ 1` and every state, the arrays of the solver give the least cost of
the remaining stages (up to a constant of the stage), attained by following the feedback law. -/
theorem C38_cost_to_go (c : Settings m) (p : Problem n m) (s0 s : Sol n m) (hs : solve c p s0 = .ok s)
    (hQ : (p.Q p.N)ᵀ = p.Q p.N) (hH : ∀ k, k < p.N → NoReg c (s.H k)) (k : Nat) (h0 : 0 < k) (hk : k ≤ p.N) :
    ∃ r : ℝ, ∀ x, IsLeast {J | ∃ w, J = tailCost p (p.N - k) k x w}
      (1 / 2 * (x ⬝ᵥ (s.S k *ᵥ x)) + s.sv k ⬝ᵥ x + r) := by
  obtain ⟨s', e, h⟩ := solve_solved c p s0
  rw [hs] at e
  obtain rfl : s = s' := by injection e
  have hH' : ∀ i, k ≤ i → i < p.N → NoReg c (s.H i) := fun i _ => hH i
  obtain ⟨r, hr⟩ := tail_eq h hQ (p.N - k) k (by omega) hH'
  obtain ⟨e1, e2⟩ := ctg_eq h h0 hk
  refine ⟨r, fun x => ⟨?_, ?_⟩⟩
  · -- controls that follow the feedback law from `x`
    have ex : ∀ (j k : Nat) (x : Fin n → ℝ), ∃ w, penalty p s j k x w = 0 := by
      intro j
      induction j with
      | zero => intro k x; exact ⟨fun _ => 0, rfl⟩
      | succ j ih =>
        intro k x
        obtain ⟨w, hw⟩ := ih (k + 1) (next p k x (s.lv k + s.L k *ᵥ x))
        have indep : ∀ (j k : Nat) (x : Fin n → ℝ) (w w' : Nat → Fin m → ℝ), (∀ i, k ≤ i → w i = w' i) →
            penalty p s j k x w = penalty p s j k x w' := by
          intro j
          induction j with
          | zero => intros; rfl
          | succ j ih2 =>
            intro k x w w' hww
            simp only [penalty, hww k le_rfl]
            rw [ih2 (k + 1) _ w w' fun i hi => hww i (by omega)]
        refine ⟨Function.update w k (s.lv k + s.L k *ᵥ x), ?_⟩
        simp only [penalty, Function.update_self, sub_self]
        rw [indep j (k + 1) _ _ w, hw]
        · simp
        · intro i hi
          exact Function.update_of_ne (by omega) _ _
    obtain ⟨w, hw⟩ := ex (p.N - k) k x
    exact ⟨w, by rw [hr, hw, e1, e2]; ring⟩
  · rintro J ⟨w, rfl⟩
    have := penalty_nonneg (c := c) (s := s) (p.N - k) k (by omega) hH' x w
    rw [hr, e1, e2]
    linarith

/-! ### Convex problems need no regularisation -/

/-- Conditions on the problem data alone: symmetric positive semi-definite terminal weight, stage costs whose
quadratic part is non-negative, symmetric control weights that are positive definite and bounded below by the
`epsilon` of the eigenvalue clamping. -/
structure Convex (c : Settings m) (p : Problem n m) : Prop where
  symN : (p.Q p.N)ᵀ = p.Q p.N
  psdN : ∀ x, 0 ≤ x ⬝ᵥ (p.Q p.N *ᵥ x)
  symR : ∀ k, k < p.N → (p.R k)ᵀ = p.R k
  stage : ∀ k, k < p.N → ∀ x u, 0 ≤ x ⬝ᵥ (p.Q k *ᵥ x) + 2 * (u ⬝ᵥ (p.P k *ᵥ x)) + u ⬝ᵥ (p.R k *ᵥ u)
  posR : ∀ k, k < p.N → ∀ u, u ≠ 0 → 0 < u ⬝ᵥ (p.R k *ᵥ u)
  eps : if c.fixedHessianCorrection then c.epsilon ≤ 1 / 10 ^ 10
    else EigenSolver c.eig ∧ ∀ k, k < p.N → ∀ u, c.epsilon * (u ⬝ᵥ u) ≤ u ⬝ᵥ (p.R k *ᵥ u)

theorem convex_noReg {c : Settings m} {p : Problem n m} (hc : Convex c p) {s : Sol n m} (h : Solved c p 0 s)
    (j : Nat) (hj : j ≤ p.N) :
    (∀ x, 0 ≤ x ⬝ᵥ (ctgS p s (p.N - j) *ᵥ x)) ∧ ∀ k, p.N - j ≤ k → k < p.N → NoReg c (s.H k) := by
  induction j with
  | zero =>
    refine ⟨fun x => ?_, fun k h1 h2 => by omega⟩
    simp only [ctgS, Nat.sub_zero, lt_self_iff_false, if_false]
    exact hc.psdN x
  | succ j ih =>
    obtain ⟨ihS, ihH⟩ := ih (by omega)
    set k := p.N - (j + 1) with hkdef
    have hk : k < p.N := by omega
    have hk1 : p.N - j = k + 1 := by omega
    rw [hk1] at ihS ihH
    have st := h.stage k (Nat.zero_le k) hk
    obtain ⟨hSe, -⟩ := ctg_eq h (k := k + 1) (by omega) (by omega)
    rw [← hSe] at ihS
    have hSs : (s.S (k + 1))ᵀ = s.S (k + 1) := by rw [hSe]; exact ctgS_sym hc.symN _
    have hlow := lowerView_sym _ hSs
    have hG := st.G
    have hH := st.H
    rw [hlow] at hG hH
    have hquad : ∀ u, u ⬝ᵥ (s.H k *ᵥ u) = u ⬝ᵥ (p.R k *ᵥ u) + (p.B k *ᵥ u) ⬝ᵥ (s.S (k + 1) *ᵥ (p.B k *ᵥ u)) := by
      intro u
      rw [hH, add_mulVec, dotProduct_add, ← mulVec_mulVec, ← mulVec_mulVec, dot_tr]
    have hHs : (s.H k)ᵀ = s.H k := by
      rw [hH, transpose_add, hc.symR k hk, transpose_mul, transpose_mul, transpose_transpose, hSs,
        Matrix.mul_assoc]
    have hpd : (s.H k).PosDef := by
      refine Matrix.PosDef.of_dotProduct_mulVec_pos ?_ ?_
      · simpa [IsHermitian, conjTranspose_eq_transpose_of_trivial] using hHs
      · intro u hu
        rw [star_trivial, hquad]
        have := hc.posR k hk u hu
        have := ihS (p.B k *ᵥ u)
        linarith
    have hreg : NoReg c (s.H k) := by
      refine ⟨hpd, ?_⟩
      have he := hc.eps
      by_cases hf : c.fixedHessianCorrection = true
      · rw [if_pos hf] at he ⊢; exact he
      · rw [if_neg hf] at he ⊢
        refine ⟨he.1, fun v => ?_⟩
        rw [hquad]
        have := he.2 k hk v
        have := ihS (p.B k *ᵥ v)
        linarith
    refine ⟨fun x => ?_, fun i hi hi' => ?_⟩
    · obtain ⟨c1, c2⟩ := correct_noReg c _ hreg
      have hdet : IsUnit (s.H k).det := hreg.1.det_pos.ne'.isUnit
      have hHi : s.Hi k = s.H k := by rw [st.Hi, c1]
      have hL : s.H k * s.L k = -s.G k := by
        rw [st.L, st.HiInv, c2, Matrix.neg_mul, Matrix.mul_neg, ← Matrix.mul_assoc,
          Matrix.mul_nonsing_inv _ hdet, Matrix.one_mul]
      have key := stage_identity (p.A k) (p.B k) 0 (p.P k) (s.L k) (s.G k) 0 0 0 0 (p.Q k) (s.S (k + 1)) 0 0 0
        (p.R k) (s.H k) hSs hHs (by simp) hG hH hL (by simp) x (s.L k *ᵥ x)
      have h1 := hc.stage k hk x (s.L k *ᵥ x)
      have h2 := ihS (p.A k *ᵥ x + p.B k *ᵥ (s.L k *ᵥ x))
      simp only [dotProduct_zero, zero_dotProduct, mulVec_zero, add_zero, zero_add, sub_self, mul_zero, sub_zero] at key
      simp only [ctgS, if_pos hk, hHi]
      linarith
    · by_cases e : i = k
      · rw [e]; exact hreg
      · exact ihH i (by omega) hi'

/-- C38 for convex problems, in terms of the problem data alone: the solver terminates without an undefined
access and returns the unique minimiser. -/
theorem C38_convex (c : Settings m) (p : Problem n m) (hc : Convex c p) (s0 : Sol n m) :
    ∃ s, solve c p s0 = .ok s ∧ ∀ w, cost p (uSol p s) ≤ cost p w ∧
      (cost p w = cost p (uSol p s) → ∀ k, k < p.N → w k = uSol p s k) := by
  obtain ⟨s, e, h⟩ := solve_solved c p s0
  refine ⟨s, e, fun w => ?_⟩
  have hH : ∀ k, k < p.N → NoReg c (s.H k) := fun k hk =>
    (convex_noReg hc h p.N le_rfl).2 k (by omega) hk
  have := C38_optimal c p s0 s e hc.symN hH w
  exact ⟨this.1, this.2.1⟩

/-- A double integrator with cross weights `P`, offset `b`, linear terms and seven stages, with the default
eigenvalue clamping: the hypotheses of `C38_convex` (and with it those of `C38_optimal`) hold. -/
example : ∃ (c : Settings 1) (p : Problem 2 1), c.fixedHessianCorrection = false ∧ c.epsilon = 1 / 10 ^ 5 ∧
    p.N = 7 ∧ p.P 0 ≠ 0 ∧ p.b 0 ≠ 0 ∧ Convex c p := by
  refine ⟨⟨false, 1 / 10 ^ 5, fun H => (1, fun i => H i i)⟩,
    { N := 7, A := fun _ => !![1, 1; 0, 1], B := fun _ => !![0; 1], b := fun _ => 1, P := fun _ => !![1, 0],
      q := fun _ => 0, qv := fun _ => 1, Q := fun _ => 1, rv := fun _ => 1, R := fun _ => 1 },
    rfl, rfl, rfl, ?_, ?_, ?_⟩
  · intro h
    have := congrFun (congrFun h 0) 0
    simp at this
  · intro h
    have := congrFun h 0
    simp at this
  · refine ⟨by simp, fun x => ?_, fun _ _ => by simp, fun k _ x u => ?_, fun k _ u hu => ?_, ?_⟩
    · simp [dotProduct, Fin.sum_univ_two]
      nlinarith [sq_nonneg (x 0), sq_nonneg (x 1)]
    · simp [Matrix.mulVec, dotProduct, Fin.sum_univ_two]
      nlinarith [sq_nonneg (x 0 + u 0), sq_nonneg (x 1)]
    · have : u 0 ≠ 0 := by
        intro h
        apply hu
        funext i
        fin_cases i
        exact h
      simp [dotProduct]
      positivity
    · simp only [Bool.false_eq_true, if_false]
      refine ⟨fun H hH => ⟨by simp, ?_⟩, fun k _ u => ?_⟩
      · ext i j
        fin_cases i; fin_cases j
        simp
      · simp [dotProduct]
        nlinarith [mul_self_nonneg (u 0)]

/-! ### What the regularised solver computes -/

/-- The problem with `D k` added to the control weights. -/
def addWeight (p : Problem n m) (D : Nat → Matrix (Fin m) (Fin m) ℝ) : Problem n m :=
  { p with R := fun k => p.R k + D k }

/-- Cost that the weights `D` put on the controls of the stages `k, …, k + j - 1`. -/
noncomputable def controlPenalty (D : Nat → Matrix (Fin m) (Fin m) ℝ) (w : Nat → Fin m → ℝ) : Nat → Nat → ℝ
  | 0, _ => 0
  | j + 1, k => 1 / 2 * (w k ⬝ᵥ (D k *ᵥ w k)) + controlPenalty D w j (k + 1)

theorem tailCost_addWeight (p : Problem n m) (D) (j k : Nat) (x : Fin n → ℝ) (w : Nat → Fin m → ℝ) :
    tailCost (addWeight p D) j k x w = tailCost p j k x w + controlPenalty D w j k := by
  induction j generalizing k x with
  | zero => simp [tailCost, controlPenalty, terminalCost, addWeight]
  | succ j ih =>
    simp only [tailCost, controlPenalty, ih]
    simp only [stageCost, addWeight, next, add_mulVec, dotProduct_add]
    ring

theorem solved_addWeight {c : Settings m} {p : Problem n m} {s : Sol n m} (h : Solved c p 0 s)
    (hsym : ∀ k, k < p.N → (s.Hi k)ᵀ = s.Hi k) (hinv : ∀ k, k < p.N → s.HiInv k = -(s.Hi k)⁻¹) :
    Solved ⟨true, 0, c.eig⟩ (addWeight p fun k => s.Hi k - s.H k) 0 { s with H := s.Hi } := by
  refine ⟨h.S, h.sv, fun k h1 h2 => ?_⟩
  have st := h.stage k h1 h2
  have hc : (correct ⟨true, 0, c.eig⟩ (s.Hi k)).1 = s.Hi k ∧
      (correct ⟨true, 0, c.eig⟩ (s.Hi k)).2 = -(s.Hi k)⁻¹ := by
    have h0 : ¬ (1 : ℝ) / 10 ^ 10 < 0 := by norm_num
    simp only [correct, if_true, if_neg h0, lowerView_sym _ (hsym k h2)]
    refine ⟨trivial, lowerView_sym _ ?_⟩
    rw [transpose_neg, transpose_nonsing_inv, hsym k h2]
  refine ⟨st.gv, st.G, ?_, hc.1.symm, ?_, st.L, st.lv, st.S, st.sv⟩
  · have := st.H
    simp only [addWeight]
    rw [add_right_comm, ← this]
    abel
  · rw [hc.2]
    exact hinv k h2

/-- The eigenvalue-clamped Hessian. -/
theorem correct_clamped (c : Settings m) (H : Matrix (Fin m) (Fin m) ℝ) (hf : c.fixedHessianCorrection = false)
    (he : EigenSolver c.eig) (hpos : 0 < c.epsilon) (hsym : Hᵀ = H) :
    ((correct c H).1)ᵀ = (correct c H).1 ∧ (correct c H).2 = -((correct c H).1)⁻¹ ∧
    (∀ v, c.epsilon * (v ⬝ᵥ v) ≤ v ⬝ᵥ ((correct c H).1 *ᵥ v)) ∧
    (∀ v, v ⬝ᵥ (H *ᵥ v) ≤ v ⬝ᵥ ((correct c H).1 *ᵥ v)) := by
  obtain ⟨hV, hD⟩ := he H hsym
  simp only [correct, hf, Bool.false_eq_true, if_false]
  set V := (c.eig H).1
  set lam := (c.eig H).2
  have hV' : Vᵀ * V = 1 := mul_eq_one_comm.1 hV
  set d : Fin m → ℝ := fun i => max (lam i) c.epsilon with hd
  have hdpos : ∀ i, 0 < d i := fun i => lt_of_lt_of_le hpos (le_max_right _ _)
  have quad : ∀ (e : Fin m → ℝ) (v : Fin m → ℝ),
      v ⬝ᵥ ((V * diagonal e * Vᵀ) *ᵥ v) = ∑ i, e i * ((Vᵀ *ᵥ v) i) ^ 2 := by
    intro e v
    rw [← mulVec_mulVec, ← mulVec_mulVec, dotProduct_mulVec, ← mulVec_transpose]
    simp only [dotProduct, mulVec_diagonal]
    refine Finset.sum_congr rfl fun i _ => ?_
    ring
  have sq : ∀ v : Fin m → ℝ, v ⬝ᵥ v = ∑ i, ((Vᵀ *ᵥ v) i) ^ 2 := by
    intro v
    have h1 := quad (fun _ => 1) v
    rw [diagonal_one, Matrix.mul_one, hV, one_mulVec] at h1
    simpa using h1
  refine ⟨?_, ?_, fun v => ?_, fun v => ?_⟩
  · rw [transpose_mul, transpose_mul, transpose_transpose, diagonal_transpose, Matrix.mul_assoc]
  · have e1 : V * diagonal (fun i => -1 * (d i)⁻¹) * Vᵀ = -(V * diagonal (fun i => (d i)⁻¹) * Vᵀ) := by
      have : diagonal (fun i => -1 * (d i)⁻¹) = -diagonal (fun i => (d i)⁻¹) := by
        rw [diagonal_neg]
        congr 1
        funext i
        simp
      rw [this, Matrix.mul_neg, Matrix.neg_mul]
    rw [e1, neg_inj]
    refine (inv_eq_left_inv ?_).symm
    calc V * diagonal (fun i => (d i)⁻¹) * Vᵀ * (V * diagonal d * Vᵀ)
        = V * diagonal (fun i => (d i)⁻¹) * (Vᵀ * V) * diagonal d * Vᵀ := by
          simp only [Matrix.mul_assoc]
      _ = V * (diagonal (fun i => (d i)⁻¹) * diagonal d) * Vᵀ := by
          rw [hV', Matrix.mul_one]; simp only [Matrix.mul_assoc]
      _ = 1 := by
          rw [diagonal_mul_diagonal]
          have : (fun i => (d i)⁻¹ * d i) = fun _ => 1 := by
            funext i
            exact inv_mul_cancel₀ (hdpos i).ne'
          rw [this, diagonal_one, Matrix.mul_one, hV]
  · rw [quad, sq, Finset.mul_sum]
    exact Finset.sum_le_sum fun i _ => mul_le_mul_of_nonneg_right (le_max_right _ _) (sq_nonneg _)
  · conv_lhs => rw [← hD]
    rw [quad, quad]
    exact Finset.sum_le_sum fun i _ => mul_le_mul_of_nonneg_right (le_max_left _ _) (sq_nonneg _)

theorem posDef_of_form {H : Matrix (Fin m) (Fin m) ℝ} {eps : ℝ} (hsym : Hᵀ = H) (he : 0 < eps)
    (h : ∀ v, eps * (v ⬝ᵥ v) ≤ v ⬝ᵥ (H *ᵥ v)) : H.PosDef := by
  refine Matrix.PosDef.of_dotProduct_mulVec_pos ?_ fun v hv => ?_
  · simpa [IsHermitian, conjTranspose_eq_transpose_of_trivial] using hsym
  · rw [star_trivial]
    have h1 : 0 < v ⬝ᵥ v := by
      have h2 : 0 ≤ v ⬝ᵥ v := by
        simp only [dotProduct]
        exact Finset.sum_nonneg fun i _ => mul_self_nonneg _
      exact lt_of_le_of_ne h2 fun h => hv (dotProduct_self_eq_zero.1 h.symm)
    have := h v
    have := mul_pos he h1
    linarith

theorem stage_sym {c : Settings m} {p : Problem n m} {s : Sol n m} (h : Solved c p 0 s)
    (hQ : (p.Q p.N)ᵀ = p.Q p.N) (hR : ∀ k, k < p.N → (p.R k)ᵀ = p.R k) (k : Nat) (hk : k < p.N) :
    (s.H k)ᵀ = s.H k := by
  obtain ⟨hSe, -⟩ := ctg_eq h (k := k + 1) (by omega) (by omega)
  have hSs : (s.S (k + 1))ᵀ = s.S (k + 1) := by rw [hSe]; exact ctgS_sym hQ _
  have hH := (h.stage k (Nat.zero_le k) hk).H
  rw [lowerView_sym _ hSs] at hH
  rw [hH, transpose_add, hR k hk, transpose_mul, transpose_mul, transpose_transpose, hSs, Matrix.mul_assoc]

/-- C38, eigenvalue clamping: whatever the Hessians – also for non-convex problems – the curvature the solver
uses is at least `epsilon` and at least that of the problem in every direction, and the controls are the
unique minimiser of the problem's cost plus the added curvature, in each stage, as a penalty on the
controls. -/
theorem C38_clamped (c : Settings m) (p : Problem n m) (s0 s : Sol n m) (hs : solve c p s0 = .ok s)
    (hf : c.fixedHessianCorrection = false) (he : EigenSolver c.eig) (hpos : 0 < c.epsilon)
    (hQ : (p.Q p.N)ᵀ = p.Q p.N) (hR : ∀ k, k < p.N → (p.R k)ᵀ = p.R k) :
    ∃ D : Nat → Matrix (Fin m) (Fin m) ℝ,
      (∀ k, k < p.N → ∀ v, 0 ≤ v ⬝ᵥ (D k *ᵥ v)) ∧
      (∀ k, k < p.N → ∀ v, c.epsilon * (v ⬝ᵥ v) ≤ v ⬝ᵥ ((s.H k + D k) *ᵥ v)) ∧
      ∀ w, cost p (uSol p s) + controlPenalty D (uSol p s) p.N 0 ≤ cost p w + controlPenalty D w p.N 0 ∧
        (cost p w + controlPenalty D w p.N 0 = cost p (uSol p s) + controlPenalty D (uSol p s) p.N 0 →
          ∀ k, k < p.N → w k = uSol p s k) := by
  obtain ⟨s', e, h⟩ := solve_solved c p s0
  rw [hs] at e
  obtain rfl : s = s' := by injection e
  have hcl := fun k (hk : k < p.N) => correct_clamped c (s.H k) hf he hpos (stage_sym h hQ hR k hk)
  have hHi := fun k (hk : k < p.N) => (h.stage k (Nat.zero_le k) hk).Hi
  have hHiInv := fun k (hk : k < p.N) => (h.stage k (Nat.zero_le k) hk).HiInv
  refine ⟨fun k => s.Hi k - s.H k, fun k hk v => ?_, fun k hk v => ?_, fun w => ?_⟩
  · rw [sub_mulVec, dotProduct_sub, hHi k hk]
    have := (hcl k hk).2.2.2 v
    linarith
  · rw [add_sub_cancel, hHi k hk]
    exact (hcl k hk).2.2.1 v
  · have hsv := solved_addWeight h (fun k hk => by rw [hHi k hk]; exact (hcl k hk).1)
      (fun k hk => by rw [hHi k hk, hHiInv k hk]; exact (hcl k hk).2.1)
    have hreg : ∀ k, k < p.N → NoReg ⟨true, 0, c.eig⟩ (s.Hi k) := fun k hk =>
      ⟨by rw [hHi k hk]; exact posDef_of_form (hcl k hk).1 hpos (hcl k hk).2.2.1, by norm_num⟩
    have hx : ∀ k, xSol (addWeight p fun k => s.Hi k - s.H k) { s with H := s.Hi } k = xSol p s k := by
      intro k
      induction k with
      | zero => rfl
      | succ k ih => simp only [xSol, ih]; rfl
    have hu : uSol (addWeight p fun k => s.Hi k - s.H k) { s with H := s.Hi } = uSol p s := by
      funext k
      simp only [uSol, hx]
    have := optimal_of_solved hsv hQ hreg w
    rw [hu] at this
    simp only [cost, tailCost_addWeight] at this
    exact this

/-- C38, fixed correction: with an `epsilon` above `1e-10`, the controls are the unique minimiser of the
problem's cost plus `epsilon / 2` times the squared norm of the controls of all stages, provided the
corrected Hessians are positive definite. -/
theorem C38_fixed_correction (c : Settings m) (p : Problem n m) (s0 s : Sol n m) (hs : solve c p s0 = .ok s)
    (hf : c.fixedHessianCorrection = true) (he : 1 / 10 ^ 10 < c.epsilon)
    (hQ : (p.Q p.N)ᵀ = p.Q p.N) (hR : ∀ k, k < p.N → (p.R k)ᵀ = p.R k)
    (hpd : ∀ k, k < p.N → (s.H k + c.epsilon • (1 : Matrix (Fin m) (Fin m) ℝ)).PosDef) (w : Nat → Fin m → ℝ) :
    cost p (uSol p s) + c.epsilon / 2 * ∑ k ∈ Finset.range p.N, uSol p s k ⬝ᵥ uSol p s k
      ≤ cost p w + c.epsilon / 2 * ∑ k ∈ Finset.range p.N, w k ⬝ᵥ w k ∧
    (cost p w + c.epsilon / 2 * ∑ k ∈ Finset.range p.N, w k ⬝ᵥ w k
        = cost p (uSol p s) + c.epsilon / 2 * ∑ k ∈ Finset.range p.N, uSol p s k ⬝ᵥ uSol p s k →
      ∀ k, k < p.N → w k = uSol p s k) := by
  obtain ⟨s', e, h⟩ := solve_solved c p s0
  rw [hs] at e
  obtain rfl : s = s' := by injection e
  have hHs := stage_sym h hQ hR
  have hHi : ∀ k, k < p.N → s.Hi k = s.H k + c.epsilon • (1 : Matrix (Fin m) (Fin m) ℝ) := fun k hk => by
    rw [(h.stage k (Nat.zero_le k) hk).Hi]
    simp only [correct, hf, if_true, if_pos he]
  have hsym : ∀ k, k < p.N → (s.Hi k)ᵀ = s.Hi k := fun k hk => by
    rw [hHi k hk, transpose_add, hHs k hk, transpose_smul, transpose_one]
  have hinv : ∀ k, k < p.N → s.HiInv k = -(s.Hi k)⁻¹ := fun k hk => by
    have e1 := (h.stage k (Nat.zero_le k) hk).HiInv
    have e2 := hHi k hk
    have e3 := hsym k hk
    rw [e1]
    simp only [correct, hf, if_true, if_pos he]
    rw [← e2, lowerView_sym _ e3]
    refine lowerView_sym _ ?_
    rw [transpose_neg, transpose_nonsing_inv, e3]
  have hsv := solved_addWeight h hsym hinv
  have hreg : ∀ k, k < p.N → NoReg ⟨true, 0, c.eig⟩ (s.Hi k) := fun k hk =>
    ⟨by rw [hHi k hk]; exact hpd k hk, by norm_num⟩
  have hx : ∀ k, xSol (addWeight p fun k => s.Hi k - s.H k) { s with H := s.Hi } k = xSol p s k := by
    intro k
    induction k with
    | zero => rfl
    | succ k ih => simp only [xSol, ih]; rfl
  have hu : uSol (addWeight p fun k => s.Hi k - s.H k) { s with H := s.Hi } = uSol p s := by
    funext k
    simp only [uSol, hx]
  have hpen : ∀ v : Nat → Fin m → ℝ, controlPenalty (fun k => s.Hi k - s.H k) v p.N 0
      = c.epsilon / 2 * ∑ k ∈ Finset.range p.N, v k ⬝ᵥ v k := by
    intro v
    have gen : ∀ j k, k + j ≤ p.N → controlPenalty (fun k => s.Hi k - s.H k) v j k
        = c.epsilon / 2 * ∑ i ∈ Finset.range j, v (k + i) ⬝ᵥ v (k + i) := by
      intro j
      induction j with
      | zero => intro k _; simp [controlPenalty]
      | succ j ih =>
        intro k hk
        simp only [controlPenalty]
        rw [ih (k + 1) (by omega), hHi k (by omega), add_sub_cancel_left, smul_mulVec, one_mulVec,
          dotProduct_smul, Finset.sum_range_succ']
        simp only [smul_eq_mul, Nat.add_zero]
        rw [show (∑ i ∈ Finset.range j, v (k + 1 + i) ⬝ᵥ v (k + 1 + i))
          = ∑ i ∈ Finset.range j, v (k + (i + 1)) ⬝ᵥ v (k + (i + 1)) from
            Finset.sum_congr rfl fun i _ => by rw [show k + 1 + i = k + (i + 1) by omega]]
        ring
    have := gen p.N 0 (by omega)
    simpa using this
  have := optimal_of_solved hsv hQ hreg w
  rw [hu] at this
  simp only [cost, tailCost_addWeight] at this
  have hN : (addWeight p fun k => s.Hi k - s.H k).N = p.N := rfl
  rw [hN, hpen, hpen] at this
  exact this

/-- A problem with negative control weight: the hypotheses of `C38_clamped` hold. -/
example : ∃ (c : Settings 1) (p : Problem 1 1), p.N = 3 ∧ p.R 0 0 0 < 0 ∧ c.fixedHessianCorrection = false ∧
    EigenSolver c.eig ∧ 0 < c.epsilon ∧ (p.Q p.N)ᵀ = p.Q p.N ∧ ∀ k, k < p.N → (p.R k)ᵀ = p.R k := by
  refine ⟨⟨false, 1 / 10 ^ 5, fun H => (1, fun i => H i i)⟩,
    { N := 3, A := fun _ => 1, B := fun _ => 1, b := fun _ => 1, P := fun _ => 0,
      q := fun _ => 0, qv := fun _ => 1, Q := fun _ => 1, rv := fun _ => 1, R := fun _ => !![-2] },
    rfl, by simp, rfl, fun H hH => ⟨by simp, ?_⟩, by norm_num, by simp, fun k _ => ?_⟩
  · ext i j
    fin_cases i; fin_cases j
    simp
  · ext i j
    fin_cases i; fin_cases j
    simp

/-- The hypotheses of `C38_fixed_correction` hold for a scalar problem. -/
example : ∃ (c : Settings 1) (p : Problem 1 1) (s : Sol 1 1), c.fixedHessianCorrection = true ∧
    1 / 10 ^ 10 < c.epsilon ∧ (∀ s0, ∃ s, solve c p s0 = .ok s) ∧ solve c p s = .ok s ∧
    (p.Q p.N)ᵀ = p.Q p.N ∧ (∀ k, k < p.N → (p.R k)ᵀ = p.R k) ∧
    ∀ k, k < p.N → (s.H k + c.epsilon • (1 : Matrix (Fin 1) (Fin 1) ℝ)).PosDef := by
  let c : Settings 1 := ⟨true, 1, fun H => (1, fun i => H i i)⟩
  let p : Problem 1 1 :=
    { N := 1, A := fun _ => 1, B := fun _ => 1, b := fun _ => 1, P := fun _ => 0,
      q := fun _ => 0, qv := fun _ => 1, Q := fun _ => 1, rv := fun _ => 1, R := fun _ => 1 }
  let s0 : Sol 1 1 := ⟨fun _ => 0, fun _ => 0, fun _ => 0, fun _ => 0, fun _ => 0, fun _ => 0, fun _ => 0, fun _ => 0, fun _ => 0⟩
  have idem : ∀ s : Sol 1 1, solve c p s = .ok (designController c p 0 (initializeCostToGo p s)) := by
    intro s
    have : solve c p s = sweep c p (0 + 1) 0 s := rfl
    rw [this, sweep_succ c p le_rfl]
    simp [solveSingleStage, sweep_self, p, Res.ok_bind]
  let s := designController c p 0 (initializeCostToGo p s0)
  have hfix : designController c p 0 (initializeCostToGo p s) = s := by
    simp [s, designController, initializeCostToGo, p]
  refine ⟨c, p, s, rfl, by norm_num [c], fun s0 => ⟨_, idem s0⟩, by rw [idem s, hfix], by simp [p],
    fun k _ => by simp [p], fun k hk => ?_⟩
  have hk0 : k = 0 := by simp only [p] at hk; omega
  subst hk0
  refine posDef_of_form (eps := 1) ?_ one_pos fun v => ?_
  · ext i j
    fin_cases i; fin_cases j
    rfl
  · simp [s, designController, initializeCostToGo, p, c, lowerView, dotProduct, Matrix.mulVec]
    nlinarith [mul_self_nonneg (v 0)]

/-! ### C39: the sweep in two parts -/

theorem sweep_split (c : Settings m) (p : Problem n m) (hi mid : Nat) (h : mid ≤ hi) (s : Sol n m) :
    sweep c p hi mid s >>= sweep c p mid 0 = sweep c p hi 0 s := by
  obtain ⟨d, rfl⟩ := Nat.exists_eq_add_of_le h
  induction d generalizing s with
  | zero => rw [Nat.add_zero, sweep_self, Res.ok_bind]
  | succ d ih =>
    rw [← Nat.add_assoc, sweep_succ c p (by omega), sweep_succ c p (by omega), bind_assoc]
    congr 1
    funext s'
    exact ih s' (by omega)

/-- Two problems with the same stages from `k` on. -/
structure AgreeFrom (p p' : Problem n m) (k : Nat) : Prop where
  N : p.N = p'.N
  stage : ∀ i, k ≤ i → p.A i = p'.A i ∧ p.B i = p'.B i ∧ p.b i = p'.b i ∧ p.P i = p'.P i ∧ p.qv i = p'.qv i ∧
    p.Q i = p'.Q i ∧ p.rv i = p'.rv i ∧ p.R i = p'.R i

theorem solveSingleStage_agree (c : Settings m) {p p' : Problem n m} {k : Nat} (h : AgreeFrom p p' k) {i : Nat}
    (hi : k ≤ i) (s : Sol n m) : solveSingleStage c p i s = solveSingleStage c p' i s := by
  unfold solveSingleStage
  by_cases hN : p.N ≤ i
  · rw [if_pos hN, if_pos (by rw [← h.N]; exact hN)]
  · have hN' : ¬ p'.N ≤ i := by rw [← h.N]; exact hN
    rw [if_neg hN, if_neg hN']
    obtain ⟨a1, a2, a3, a4, a5, a6, a7, a8⟩ := h.stage i hi
    obtain ⟨b1, b2, b3, b4, b5, b6, b7, b8⟩ := h.stage p.N (by omega)
    simp only [initializeCostToGo, designController, computeCostToGo, a1, a2, a3, a4, a5, a6, a7, a8, b5, b6,
      ← h.N]

theorem sweep_agree (c : Settings m) {p p' : Problem n m} {k : Nat} (h : AgreeFrom p p' k) (d : Nat)
    (s : Sol n m) : sweep c p (k + d) k s = sweep c p' (k + d) k s := by
  induction d generalizing s with
  | zero => simp only [Nat.add_zero, sweep_self]
  | succ d ih =>
    rw [← Nat.add_assoc, sweep_succ c p (by omega), sweep_succ c p' (by omega),
      solveSingleStage_agree c h (by omega)]
    congr 1
    funext s'
    exact ih s'

/-- C39. Solving the stages from `k` on in a preparation phase with problem data `p`, and the remaining ones
in a finishing phase with data `p'` that differ from `p` only before stage `k`, leaves exactly the arrays of
one full sweep on `p'`. -/
theorem C39_split (c : Settings m) (p p' : Problem n m) (k : Nat) (h0 : 0 < k) (hk : k ≤ p.N)
    (h : AgreeFrom p p' k) (s : Sol n m) :
    prepareSolve c p k s >>= finishSolve c p' (k - 1) = solve c p' s := by
  obtain ⟨d, hd⟩ := Nat.exists_eq_add_of_le hk
  have e : k - 1 + 1 = k := by omega
  unfold prepareSolve finishSolve solve
  rw [e, hd, sweep_agree c h d, ← hd, sweep_split c p' p.N k hk, h.N]

example : ∃ (p p' : Problem 1 1) (k : Nat), 0 < k ∧ k ≤ p.N ∧ AgreeFrom p p' k ∧ p.b 0 ≠ p'.b 0 := by
  let q : Problem 1 1 := { N := 5, A := fun _ => 1, B := fun _ => 1, b := fun _ => 0, P := fun _ => 0, q := fun _ => 0, qv := fun _ => 0, Q := fun _ => 1, rv := fun _ => 0, R := fun _ => 1 }
  refine ⟨q, { q with b := fun k => if k = 0 then 1 else 0 }, 2, by omega, by decide, ⟨rfl, ?_⟩, ?_⟩
  · intro i hi
    refine ⟨rfl, rfl, ?_, rfl, rfl, rfl, rfl, rfl⟩
    have : i ≠ 0 := by omega
    simp [q, this]
  · simp only [q, if_true]
    exact zero_ne_one

/-- C39, violated: with more steps per shot than stages (accepted by the settings check) the preparation does
nothing and the finishing phase starts outside the arrays, whereas one full sweep is fine. -/
theorem C39_long_shot_violated (c : Settings m) (p : Problem n m) (k : Nat) (hk : p.N < k) (s : Sol n m) :
    prepareSolve c p k s >>= finishSolve c p (k - 1) = .ub ∧ ∃ s', solve c p s = .ok s' := by
  constructor
  · have : (List.range p.N).drop k = [] := by simp; omega
    have e1 : prepareSolve c p k s = .ok s := by
      simp [prepareSolve, sweep, this, Res.pure_eq]
    have hle : p.N ≤ k - 1 := by omega
    rw [e1, Res.ok_bind, finishSolve, sweep_succ c p (Nat.zero_le _), solveSingleStage, if_pos hle, Res.ub_bind]
  · obtain ⟨s', e, -⟩ := solve_solved c p s
    exact ⟨s', e⟩

end CT.Riccati
