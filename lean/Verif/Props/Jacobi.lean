import Verif.Model.Jacobi
import Mathlib.LinearAlgebra.Matrix.DotProduct
import Mathlib.LinearAlgebra.Matrix.PosDef
import Mathlib.Analysis.Matrix.PosDef
import Mathlib.Algebra.BigOperators.Fin
import Mathlib.Tactic.NormNum
import Mathlib.Tactic.Linarith

/-!
# C148: manipulability, condition number and joint velocities

Specification: lengths of vectors, joint velocities that come closest to a velocity of the end effector.
-/

namespace CT.Jacobi

open Matrix

variable {r c k : ℕ}

/-- What Eigen promises: a thin singular value decomposition with decreasing singular values. -/
structure Svd.Ok (J : Matrix (Fin r) (Fin c) ℝ) (d : Svd r c k) : Prop where
  size : k = min r c
  orthU : d.Uᵀ * d.U = 1
  orthV : d.Vᵀ * d.V = 1
  prod : J = d.U * diagonal d.s * d.Vᵀ
  nonneg : ∀ i, 0 ≤ d.s i
  decreasing : Antitone d.s

theorem sq_nonneg' {n : ℕ} (v : Fin n → ℝ) : 0 ≤ v ⬝ᵥ v := Finset.sum_nonneg fun _ _ => mul_self_nonneg _

theorem dot_zero {n : ℕ} {v : Fin n → ℝ} (h : v ⬝ᵥ v ≤ 0) : v = 0 :=
  dotProduct_self_eq_zero.1 (le_antisymm h (sq_nonneg' v))

theorem move {a b : ℕ} (A : Matrix (Fin a) (Fin b) ℝ) (x : Fin a → ℝ) (y : Fin b → ℝ) : x ⬝ᵥ (A *ᵥ y) = (Aᵀ *ᵥ x) ⬝ᵥ y := by
  rw [dotProduct_mulVec, ← mulVec_transpose]

/-- C148, joint velocities: if Eigen treats exactly the vanishing singular values as zero, the joint velocities returned
bring the end effector as close to the desired velocity as possible, and of all joint velocities that do so they are the
smallest.  A velocity that can be reached is reached. -/
theorem C148_joint_vel {J : Matrix (Fin r) (Fin c) ℝ} {d : Svd r c k} (hd : d.Ok J) (hr : ∀ i, d.s i = 0 ↔ d.rank ≤ i.val)
    (v : Fin r → ℝ) :
    let qd := jointVel d v
    (∀ y, (J *ᵥ qd - v) ⬝ᵥ (J *ᵥ qd - v) ≤ (J *ᵥ y - v) ⬝ᵥ (J *ᵥ y - v))
    ∧ (∀ y, (J *ᵥ y - v) ⬝ᵥ (J *ᵥ y - v) = (J *ᵥ qd - v) ⬝ᵥ (J *ᵥ qd - v) → qd ⬝ᵥ qd ≤ y ⬝ᵥ y)
    ∧ ((∃ y, J *ᵥ y = v) → J *ᵥ qd = v) := by
  intro qd
  set e : Fin k → ℝ := fun i => if i.val < d.rank then (d.s i)⁻¹ else 0 with he
  have hqd : qd = d.V *ᵥ (diagonal e *ᵥ (d.Uᵀ *ᵥ v)) := rfl
  have hse : ∀ i, d.s i * (d.s i * e i) = d.s i ∧ d.s i * (e i * e i) = e i := by
    intro i
    by_cases hi : i.val < d.rank
    · have h0 : d.s i ≠ 0 := fun h => absurd ((hr i).1 h) (by omega)
      simp only [he, hi, if_true]
      constructor <;> field_simp
    · have h0 : d.s i = 0 := (hr i).2 (by omega)
      simp [he, hi, h0]
  have hJ : ∀ x, J *ᵥ x = d.U *ᵥ (diagonal d.s *ᵥ (d.Vᵀ *ᵥ x)) := fun x => by
    rw [hd.prod]; simp only [mulVec_mulVec, Matrix.mul_assoc]
  have hJt : ∀ x, Jᵀ *ᵥ x = d.V *ᵥ (diagonal d.s *ᵥ (d.Uᵀ *ᵥ x)) := fun x => by
    rw [hd.prod, transpose_mul, transpose_mul, transpose_transpose, diagonal_transpose]; simp only [mulVec_mulVec, Matrix.mul_assoc]
  have hUU : ∀ x, d.Uᵀ *ᵥ (d.U *ᵥ x) = x := fun x => by rw [mulVec_mulVec, hd.orthU, one_mulVec]
  have hVV : ∀ x, d.Vᵀ *ᵥ (d.V *ᵥ x) = x := fun x => by rw [mulVec_mulVec, hd.orthV, one_mulVec]
  -- the residual is orthogonal to everything that can be reached
  have hres : Jᵀ *ᵥ (J *ᵥ qd - v) = 0 := by
    rw [mulVec_sub, hJ, hqd, hVV, hJt, hJt, hUU, ← mulVec_sub]
    convert mulVec_zero d.V
    funext i
    simp only [Pi.sub_apply, mulVec_diagonal, Pi.zero_apply]
    rw [show d.s i * (d.s i * (e i * (d.Uᵀ *ᵥ v) i)) = d.s i * (d.s i * e i) * (d.Uᵀ *ᵥ v) i by ring, (hse i).1, sub_self]
  have hrow : qd = Jᵀ *ᵥ (d.U *ᵥ (diagonal (fun i => e i * e i) *ᵥ (d.Uᵀ *ᵥ v))) := by
    rw [hJt, hUU, hqd]
    congr 1
    funext i
    simp only [mulVec_diagonal]
    rw [show d.s i * (e i * e i * (d.Uᵀ *ᵥ v) i) = d.s i * (e i * e i) * (d.Uᵀ *ᵥ v) i by ring, (hse i).2]
  have hpyth : ∀ y, (J *ᵥ y - v) ⬝ᵥ (J *ᵥ y - v) = (J *ᵥ (y - qd)) ⬝ᵥ (J *ᵥ (y - qd)) + (J *ᵥ qd - v) ⬝ᵥ (J *ᵥ qd - v) := by
    intro y
    have h1 : J *ᵥ y - v = J *ᵥ (y - qd) + (J *ᵥ qd - v) := by rw [mulVec_sub]; abel
    have h2 : (J *ᵥ (y - qd)) ⬝ᵥ (J *ᵥ qd - v) = 0 := by
      rw [dotProduct_comm, move, hres, zero_dotProduct]
    rw [h1, add_dotProduct, dotProduct_add, dotProduct_add, dotProduct_comm (J *ᵥ qd - v) (J *ᵥ (y - qd)), h2]; ring
  refine ⟨fun y => ?_, fun y hy => ?_, fun ⟨y, hy⟩ => ?_⟩
  · rw [hpyth y]; linarith [sq_nonneg' (J *ᵥ (y - qd))]
  · rw [hpyth y] at hy
    have h0 : J *ᵥ (y - qd) = 0 := dot_zero (by linarith)
    have h1 : qd ⬝ᵥ (y - qd) = 0 := by
      conv_lhs => rw [hrow, ← move, ← hrow, h0, dotProduct_zero]
    have h2 : y = qd + (y - qd) := by abel
    have h3 : y ⬝ᵥ y = qd ⬝ᵥ qd + (y - qd) ⬝ᵥ (y - qd) := by
      conv_lhs => rw [h2, add_dotProduct, dotProduct_add, dotProduct_add, dotProduct_comm (y - qd) qd, h1]
      ring
    rw [h3]; linarith [sq_nonneg' (y - qd)]
  · have h1 := hpyth y
    rw [hy, sub_self, zero_dotProduct] at h1
    exact sub_eq_zero.1 (dot_zero (by linarith [sq_nonneg' (J *ᵥ (y - qd))]))

/-- C148, manipulability: it is positive exactly if the end effector can move with every velocity, and zero otherwise. -/
theorem C148_reachable (J : Matrix (Fin r) (Fin c) ℝ) (d : Svd r c k) :
    ∃ w, manipulability J d true = .ok w ∧ 0 ≤ w ∧ (0 < w ↔ ∀ v, ∃ qd, J *ᵥ qd = v) := by
  have hform : ∀ x : Fin r → ℝ, x ⬝ᵥ ((J * Jᵀ) *ᵥ x) = (Jᵀ *ᵥ x) ⬝ᵥ (Jᵀ *ᵥ x) := fun x => by
    rw [← mulVec_mulVec, move]
  have hpsd : (J * Jᵀ).PosSemidef := by
    refine PosSemidef.of_dotProduct_mulVec_nonneg ?_ fun x => ?_
    · rw [IsHermitian, conjTranspose_eq_transpose_of_trivial, transpose_mul, transpose_transpose]
    · simpa [hform] using sq_nonneg' (Jᵀ *ᵥ x)
  refine ⟨_, rfl, Real.sqrt_nonneg _, ?_⟩
  rw [Real.sqrt_pos]
  constructor
  · intro h v
    refine ⟨Jᵀ *ᵥ ((J * Jᵀ)⁻¹ *ᵥ v), ?_⟩
    rw [mulVec_mulVec, mulVec_mulVec, mul_nonsing_inv _ (isUnit_iff_ne_zero.2 h.ne'), one_mulVec]
  · intro h
    refine lt_of_le_of_ne hpsd.det_nonneg fun h0 => ?_
    obtain ⟨x, hx, hx0⟩ := exists_mulVec_eq_zero_iff.2 h0.symm
    obtain ⟨qd, hq⟩ := h x
    have h1 : Jᵀ *ᵥ x = 0 := dot_zero (by rw [← hform, hx0, dotProduct_zero])
    refine hx (dot_zero ?_)
    conv_lhs => rw [← hq, dotProduct_comm, hq, ← hq, move, hq, h1, zero_dotProduct]

/-- C148, joint velocities: if every velocity of the end effector can be reached, the result is the product with the pseudo
inverse that the documentation gives. -/
theorem C148_pseudo_inverse {J : Matrix (Fin r) (Fin c) ℝ} {d : Svd r c k} (hd : d.Ok J) (hr : ∀ i, d.s i = 0 ↔ d.rank ≤ i.val)
    (hJ : ∀ v, ∃ y, J *ᵥ y = v) (v : Fin r → ℝ) : jointVel d v = (Jᵀ * (J * Jᵀ)⁻¹) *ᵥ v := by
  obtain ⟨w, hw, -, hpos⟩ := C148_reachable J d
  have hdet : 0 < (J * Jᵀ).det := by
    have h1 := hpos.2 hJ
    rw [← Res.ok.inj hw] at h1
    exact Real.sqrt_pos.1 h1
  obtain ⟨-, hmin, hreach⟩ := C148_joint_vel hd hr v
  have hq := hreach (hJ v)
  set p := (Jᵀ * (J * Jᵀ)⁻¹) *ᵥ v with hp
  have hJp : J *ᵥ p = v := by
    rw [hp, mulVec_mulVec, ← Matrix.mul_assoc, mul_nonsing_inv _ (isUnit_iff_ne_zero.2 hdet.ne'), one_mulVec]
  have h1 : p ⬝ᵥ (jointVel d v - p) = 0 := by
    have h2 : p = Jᵀ *ᵥ ((J * Jᵀ)⁻¹ *ᵥ v) := by rw [hp, mulVec_mulVec]
    conv_lhs => rw [h2, ← move, ← h2, mulVec_sub, hq, hJp, sub_self, dotProduct_zero]
  have h2 := hmin p (by rw [hJp, hq])
  have h3 : jointVel d v ⬝ᵥ jointVel d v = p ⬝ᵥ p + (jointVel d v - p) ⬝ᵥ (jointVel d v - p) := by
    have h4 : jointVel d v = p + (jointVel d v - p) := by abel
    conv_lhs => rw [h4, add_dotProduct, dotProduct_add, dotProduct_add, dotProduct_comm (jointVel d v - p) p, h1]
    ring
  exact sub_eq_zero.1 (dot_zero (by linarith))

theorem foldl_prod {n : ℕ} (f : Fin n → ℝ) : (List.finRange n).foldl (fun w i => w * f i) 1 = ∏ i, f i := by
  rw [← List.foldl_map, ← List.prod_eq_foldl, ← List.ofFn_eq_map, List.prod_ofFn]

/-- C148, manipulability: the two methods agree unless the end effector has more velocities than the robot has joints. -/
theorem C148_methods_partial {J : Matrix (Fin r) (Fin c) ℝ} {d : Svd r c k} (hd : d.Ok J) (h : r ≤ c) :
    manipulability J d true = manipulability J d false := by
  obtain rfl : r = k := by rw [hd.size]; omega
  have h1 : (J * Jᵀ).det = (∏ i, d.s i) ^ 2 := by
    have hU : d.U.det * d.U.det = 1 := by
      have := congrArg det hd.orthU
      rwa [det_mul, det_transpose, det_one] at this
    have h2 : J * Jᵀ = d.U * diagonal d.s * diagonal d.s * d.Uᵀ := by
      conv_lhs => rw [hd.prod]
      rw [transpose_mul, transpose_mul, transpose_transpose, diagonal_transpose]
      calc d.U * diagonal d.s * d.Vᵀ * (d.V * (diagonal d.s * d.Uᵀ))
          = d.U * diagonal d.s * (d.Vᵀ * d.V) * diagonal d.s * d.Uᵀ := by simp only [Matrix.mul_assoc]
        _ = _ := by rw [hd.orthV, Matrix.mul_one]
    rw [h2, det_mul, det_mul, det_mul, det_transpose, det_diagonal]
    calc d.U.det * (∏ i, d.s i) * (∏ i, d.s i) * d.U.det = (d.U.det * d.U.det) * (∏ i, d.s i) ^ 2 := by ring
      _ = _ := by rw [hU, one_mul]
  simp only [manipulability, singularValues, if_true, Bool.false_eq_true, if_false, dif_pos, Fin.cast_eq_self, h1, Res.ok_bind, foldl_prod,
    Real.sqrt_sq (Finset.prod_nonneg fun i _ => hd.nonneg i)]
  rfl

/-- C148, negated for an end effector with more velocities than the robot has joints, for instance linear and angular
velocity of the foot of a leg with three joints: the singular values are written to a vector of the wrong size, and the
manipulability is zero whatever the position of the robot. -/
theorem C148_skinny_violated (J : Matrix (Fin r) (Fin c) ℝ) {d : Svd r c k} (hd : d.Ok J) (h : c < r) :
    singularValues d = .ub ∧ manipulability J d false = .ub ∧ manipulability J d true = .ok 0 := by
  have hk : ¬ r = k := by have := hd.size; omega
  have hs : singularValues d = .ub := by simp [singularValues, hk]
  refine ⟨hs, by simp only [manipulability, hs, Bool.false_eq_true, if_false]; rfl, ?_⟩
  obtain ⟨w, hw, hnn, hpos⟩ := C148_reachable J d
  rw [hw]
  congr 1
  refine le_antisymm (not_lt.1 fun h' => ?_) hnn
  have hsurj : Function.Surjective J.mulVecLin := fun v => (hpos.1 h') v
  have := LinearMap.finrank_le_finrank_of_surjective hsurj
  simp at this
  omega

/-- C148, condition number: the lengths of joint velocities per length of a generalised force of the end effector (and,
for a square Jacobian, the velocities it can reach) differ by at most the factor returned, which is attained. -/
theorem C148_condition {J : Matrix (Fin r) (Fin c) ℝ} {d : Svd r c k} (hd : d.Ok J) (h : r ≤ c)
    (hne : (Finset.univ : Finset (Fin r)).Nonempty) (hpos : ∀ i, 0 < d.s i) :
    ∃ κ, conditionNumber d hne = .ok κ
      ∧ (∀ x y : Fin r → ℝ, ((Jᵀ *ᵥ x) ⬝ᵥ (Jᵀ *ᵥ x)) * (y ⬝ᵥ y) ≤ κ ^ 2 * (((Jᵀ *ᵥ y) ⬝ᵥ (Jᵀ *ᵥ y)) * (x ⬝ᵥ x)))
      ∧ ∃ x y : Fin r → ℝ, x ≠ 0 ∧ y ≠ 0 ∧ ((Jᵀ *ᵥ x) ⬝ᵥ (Jᵀ *ᵥ x)) * (y ⬝ᵥ y) = κ ^ 2 * (((Jᵀ *ᵥ y) ⬝ᵥ (Jᵀ *ᵥ y)) * (x ⬝ᵥ x)) := by
  obtain rfl : r = k := by rw [hd.size]; omega
  have hsv : singularValues d = .ok d.s := by simp [singularValues]
  set M := maxCoeff d.s hne with hM
  set m := minCoeff d.s hne with hm
  have hm0 : 0 < m := by
    rw [hm, minCoeff, Finset.lt_inf'_iff]; exact fun i _ => hpos i
  have hmi : ∀ i, m ≤ d.s i := fun i => Finset.inf'_le _ (Finset.mem_univ i)
  have hMi : ∀ i, d.s i ≤ M := fun i => Finset.le_sup' _ (Finset.mem_univ i)
  have hJt : ∀ x, Jᵀ *ᵥ x = d.V *ᵥ (diagonal d.s *ᵥ (d.Uᵀ *ᵥ x)) := fun x => by
    rw [hd.prod, transpose_mul, transpose_mul, transpose_transpose, diagonal_transpose]; simp only [mulVec_mulVec, Matrix.mul_assoc]
  have hlen : ∀ x, (Jᵀ *ᵥ x) ⬝ᵥ (Jᵀ *ᵥ x) = ∑ i, d.s i ^ 2 * (d.Uᵀ *ᵥ x) i ^ 2 := fun x => by
    rw [hJt, move, mulVec_mulVec, hd.orthV, one_mulVec]
    simp only [dotProduct, mulVec_diagonal]
    exact Finset.sum_congr rfl fun i _ => by ring
  have hUU : d.U * d.Uᵀ = 1 := mul_eq_one_comm.1 hd.orthU
  have hx : ∀ x : Fin r → ℝ, x ⬝ᵥ x = ∑ i, (d.Uᵀ *ᵥ x) i ^ 2 := fun x => by
    have h1 : (d.Uᵀ *ᵥ x) ⬝ᵥ (d.Uᵀ *ᵥ x) = x ⬝ᵥ x := by rw [← move, mulVec_mulVec, hUU, one_mulVec]
    rw [← h1]; exact Finset.sum_congr rfl fun i _ => by ring
  have hup : ∀ x, (Jᵀ *ᵥ x) ⬝ᵥ (Jᵀ *ᵥ x) ≤ M ^ 2 * (x ⬝ᵥ x) := fun x => by
    rw [hlen, hx, Finset.mul_sum]
    exact Finset.sum_le_sum fun i _ => mul_le_mul_of_nonneg_right (pow_le_pow_left₀ (hpos i).le (hMi i) 2) (sq_nonneg _)
  have hlo : ∀ x, m ^ 2 * (x ⬝ᵥ x) ≤ (Jᵀ *ᵥ x) ⬝ᵥ (Jᵀ *ᵥ x) := fun x => by
    rw [hlen, hx, Finset.mul_sum]
    exact Finset.sum_le_sum fun i _ => mul_le_mul_of_nonneg_right (pow_le_pow_left₀ hm0.le (hmi i) 2) (sq_nonneg _)
  refine ⟨M / m, by rw [conditionNumber, hsv]; rfl, fun x y => ?_, ?_⟩
  · have hxx := sq_nonneg' x
    have hyy := sq_nonneg' y
    calc ((Jᵀ *ᵥ x) ⬝ᵥ (Jᵀ *ᵥ x)) * (y ⬝ᵥ y) ≤ M ^ 2 * (x ⬝ᵥ x) * (y ⬝ᵥ y) := mul_le_mul_of_nonneg_right (hup x) hyy
      _ = (M / m) ^ 2 * (m ^ 2 * (y ⬝ᵥ y) * (x ⬝ᵥ x)) := by field_simp
      _ ≤ _ := mul_le_mul_of_nonneg_left (mul_le_mul_of_nonneg_right (hlo y) hxx) (by positivity)
  · obtain ⟨i, -, hi⟩ := Finset.exists_mem_eq_sup' hne d.s
    obtain ⟨j, -, hj⟩ := Finset.exists_mem_eq_inf' hne d.s
    have hcol : ∀ l, d.Uᵀ *ᵥ (d.U *ᵥ Pi.single l 1) = Pi.single l (1 : ℝ) := fun l => by
      rw [mulVec_mulVec, hd.orthU, one_mulVec]
    have hone : ∀ l, (d.U *ᵥ Pi.single l (1 : ℝ)) ⬝ᵥ (d.U *ᵥ Pi.single l 1) = 1 := fun l => by
      rw [hx, hcol, Finset.sum_eq_single l] <;> simp +contextual [Pi.single_apply]
    have hsl : ∀ l, (Jᵀ *ᵥ (d.U *ᵥ Pi.single l (1 : ℝ))) ⬝ᵥ (Jᵀ *ᵥ (d.U *ᵥ Pi.single l 1)) = d.s l ^ 2 := fun l => by
      rw [hlen, hcol, Finset.sum_eq_single l] <;> simp +contextual [Pi.single_apply]
    have hne' : ∀ l, d.U *ᵥ Pi.single l (1 : ℝ) ≠ 0 := fun l h0 => by
      have := hone l; rw [h0] at this; simp at this
    refine ⟨d.U *ᵥ Pi.single i 1, d.U *ᵥ Pi.single j 1, hne' i, hne' j, ?_⟩
    have hMi' : M = d.s i := hi
    have hmj : m = d.s j := hj
    rw [hone, hone, hsl, hsl, ← hMi', ← hmj]
    field_simp

/-- A Jacobian with its decomposition: the hypotheses of the theorems above are met. -/
example : ∃ (J : Matrix (Fin 2) (Fin 3) ℝ) (d : Svd 2 3 2), d.Ok J ∧ (∀ i, d.s i = 0 ↔ d.rank ≤ i.val) ∧ ∀ i, 0 < d.s i := by
  refine ⟨!![0, 3, 0; 2, 0, 0], ⟨1, ![3, 2], !![0, 1; 1, 0; 0, 0], 2⟩, ⟨rfl, by simp, ?_, ?_, ?_, ?_⟩, ?_, ?_⟩
  · ext i j; fin_cases i <;> fin_cases j <;> simp [Matrix.mul_apply, Fin.sum_univ_succ]
  · ext i j; fin_cases i <;> fin_cases j <;> simp [Matrix.mul_apply, Fin.sum_univ_succ, diagonal]
  · intro i; fin_cases i <;> simp
  · intro i j h; fin_cases i <;> fin_cases j <;> simp_all <;> norm_num
  · intro i; fin_cases i <;> simp
  · intro i; fin_cases i <;> simp

/-- One with more rows than columns, which is singular as well: the singular value zero is not used. -/
example : ∃ (J : Matrix (Fin 3) (Fin 2) ℝ) (d : Svd 3 2 2), d.Ok J ∧ ∀ i, d.s i = 0 ↔ d.rank ≤ i.val := by
  refine ⟨!![0, 0; 5, 0; 0, 0], ⟨!![0, 1; 1, 0; 0, 0], ![5, 0], !![1, 0; 0, 1], 1⟩, ⟨rfl, ?_, ?_, ?_, ?_, ?_⟩, ?_⟩
  · ext i j; fin_cases i <;> fin_cases j <;> simp [Matrix.mul_apply, Fin.sum_univ_succ]
  · ext i j; fin_cases i <;> fin_cases j <;> simp [Matrix.mul_apply, Fin.sum_univ_succ]
  · ext i j; fin_cases i <;> fin_cases j <;> simp [Matrix.mul_apply, Fin.sum_univ_succ, diagonal, vecHead, vecTail]
  · intro i; fin_cases i <;> simp
  · intro i j h; fin_cases i <;> fin_cases j <;> simp_all
  · intro i; fin_cases i <;> simp

end CT.Jacobi
