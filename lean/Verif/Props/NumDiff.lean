import Verif.Model.NumDiff
import Mathlib.Algebra.Order.Field.Basic
import Mathlib.Algebra.BigOperators.Ring.Finset
import Mathlib.LinearAlgebra.Matrix.Notation
import Mathlib.Analysis.Calculus.Deriv.Slope
import Mathlib.Analysis.Calculus.FDeriv.Prod
import Mathlib.Analysis.Calculus.Deriv.Prod
import Mathlib.Analysis.Calculus.Deriv.Pi
import Mathlib.Analysis.Calculus.Deriv.Comp
import Mathlib.Tactic.FieldSimp
import Mathlib.Tactic.Ring
import Mathlib.Tactic.LinearCombination

/-! # Property C23: numerical differentiation -/

namespace CT.NumDiff

section generic
variable {K : Type} [Field K] [LinearOrder K]

theorem jacLoop_apply {n m : ℕ} (f : (Fin n → K) → (Fin m → K)) (dbl : Bool) (eps : K) (yref : Fin m → K)
    (x : Fin n → K) (J0 : Matrix (Fin m) (Fin n) K) (r : Fin m) (c : Fin n) :
    jacLoop f dbl eps yref x J0 r c = column f dbl eps yref x c r := by
  have key : ∀ (l : List (Fin n)) (J : Matrix (Fin m) (Fin n) K),
      (l.foldl (fun J i => setCol J i (column f dbl eps yref x i)) J) r c =
        if c ∈ l then column f dbl eps yref x c r else J r c := by
    intro l
    induction l with
    | nil => intro J; simp
    | cons a l ih =>
        intro J
        rw [List.foldl_cons, ih]
        by_cases h : c ∈ l
        · simp [h]
        · by_cases ha : c = a
          · simp [h, ha, setCol]
          · simp [h, ha, setCol]
  unfold jacLoop
  rw [key, if_pos (List.mem_finRange c)]
end generic

variable {K : Type} [Field K] [LinearOrder K] [IsStrictOrderedRing K]

theorem step_ne {eps : K} (he : eps ≠ 0) (a : K) : eps * max |a| 1 ≠ 0 :=
  mul_ne_zero he (lt_of_lt_of_le one_pos (le_max_right _ _)).ne'

/-- Specification: the scalar `c + b·x + Σ Q p q x_p x_q`. -/
def quad {n : ℕ} (c : K) (b : Fin n → K) (Q : Fin n → Fin n → K) (x : Fin n → K) : K :=
  c + ∑ p, b p * x p + ∑ p, ∑ q, Q p q * (x p * x q)

/-- Specification: its partial derivative with respect to coordinate `i`. -/
def quadDeriv {n : ℕ} (b : Fin n → K) (Q : Fin n → Fin n → K) (x : Fin n → K) (i : Fin n) : K :=
  b i + ∑ p, (Q i p + Q p i) * x p

theorem update_sum {n : ℕ} (b : Fin n → K) (x : Fin n → K) (i : Fin n) (s : K) :
    ∑ p, b p * Function.update x i (x i + s) p = ∑ p, b p * x p + b i * s := by
  have : ∀ p, b p * Function.update x i (x i + s) p = b p * x p + (if p = i then b i * s else 0) := by
    intro p
    by_cases h : p = i
    · subst h; simp; ring
    · simp [h]
  rw [Finset.sum_congr rfl (fun p _ => this p), Finset.sum_add_distrib]
  simp

theorem quad_update {n : ℕ} (c : K) (b : Fin n → K) (Q : Fin n → Fin n → K) (x : Fin n → K) (i : Fin n) (s : K) :
    quad c b Q (Function.update x i (x i + s)) = quad c b Q x + quadDeriv b Q x i * s + Q i i * s ^ 2 := by
  unfold quad quadDeriv
  rw [update_sum]
  have hQ : ∀ p, ∑ q, Q p q * (Function.update x i (x i + s) p * Function.update x i (x i + s) q) =
      Function.update x i (x i + s) p * (∑ q, Q p q * x q) + Function.update x i (x i + s) p * (Q p i * s) := by
    intro p
    rw [← mul_add, ← update_sum, Finset.mul_sum]
    exact Finset.sum_congr rfl (fun q _ => by ring)
  rw [Finset.sum_congr rfl (fun p _ => hQ p), Finset.sum_add_distrib]
  have e1 : ∑ p, Function.update x i (x i + s) p * (∑ q, Q p q * x q) =
      ∑ p, (∑ q, Q p q * x q) * x p + (∑ q, Q i q * x q) * s := by
    rw [← update_sum (fun p => ∑ q, Q p q * x q) x i s]
    exact Finset.sum_congr rfl (fun p _ => mul_comm _ _)
  have e2 : ∑ p, Function.update x i (x i + s) p * (Q p i * s) =
      (∑ p, Q p i * x p + Q i i * s) * s := by
    rw [← update_sum (fun p => Q p i) x i s, Finset.sum_mul]
    exact Finset.sum_congr rfl (fun p _ => by ring)
  have e3 : ∑ p, ∑ q, Q p q * (x p * x q) = ∑ p, (∑ q, Q p q * x q) * x p := by
    refine Finset.sum_congr rfl (fun p _ => ?_)
    rw [Finset.sum_mul]
    exact Finset.sum_congr rfl (fun q _ => by ring)
  have e4 : ∑ p, (Q i p + Q p i) * x p = (∑ q, Q i q * x q) + ∑ p, Q p i * x p := by
    rw [← Finset.sum_add_distrib]
    exact Finset.sum_congr rfl (fun q _ => by ring)
  rw [e1, e2, e3, e4]
  ring

/-- C23: the double-sided scheme is exact on every componentwise quadratic map, for every dimension,
point, non-zero step parameter and whatever the uninitialised locals contain. -/
theorem C23_double_sided {n m : ℕ} (c : Fin m → K) (b : Fin m → Fin n → K) (Q : Fin m → Fin n → Fin n → K)
    (eps : K) (he : eps ≠ 0) (y0 : Fin m → K) (J0 : Matrix (Fin m) (Fin n) K) (x : Fin n → K)
    (r : Fin m) (i : Fin n) :
    jacobian (fun z r => quad (c r) (b r) (Q r) z) true eps y0 J0 x r i = quadDeriv (b r) (Q r) x i := by
  unfold jacobian
  rw [jacLoop_apply]
  have hs := step_ne he (x i)
  simp only [column, if_true, Pi.smul_apply, Pi.sub_apply, smul_eq_mul]
  set h := eps * max |x i| 1
  rw [sub_eq_add_neg (x i) h, quad_update, quad_update]
  have h2 : (x i + h - x i + (x i - (x i + -h))) = 2 * h := by ring
  rw [h2]
  have : (2 : K) ≠ 0 := two_ne_zero
  field_simp
  ring

/-- C23: the forward scheme is exact on every affine map. -/
theorem C23_forward {n m : ℕ} (c : Fin m → K) (b : Matrix (Fin m) (Fin n) K)
    (eps : K) (he : eps ≠ 0) (y0 : Fin m → K) (J0 : Matrix (Fin m) (Fin n) K) (x : Fin n → K) :
    jacobian (fun z r => c r + ∑ p, b r p * z p) false eps y0 J0 x = b := by
  ext r i
  unfold jacobian
  rw [jacLoop_apply]
  have hs := step_ne he (x i)
  simp only [column, Bool.not_false, if_true, Bool.false_eq_true, if_false, Pi.smul_apply, Pi.sub_apply, smul_eq_mul]
  set h := eps * max |x i| 1
  rw [update_sum]
  have h2 : (x i + h - x i) = h := by ring
  rw [h2]
  field_simp
  ring

/-- C23: the forward scheme's error on quadratics is exactly step times second-order coefficient, so
it is exact on no map with a quadratic term. -/
theorem C23_forward_error {n m : ℕ} (c : Fin m → K) (b : Fin m → Fin n → K) (Q : Fin m → Fin n → Fin n → K)
    (eps : K) (he : eps ≠ 0) (y0 : Fin m → K) (J0 : Matrix (Fin m) (Fin n) K) (x : Fin n → K)
    (r : Fin m) (i : Fin n) :
    jacobian (fun z r => quad (c r) (b r) (Q r) z) false eps y0 J0 x r i =
      quadDeriv (b r) (Q r) x i + Q r i i * (eps * max |x i| 1) := by
  unfold jacobian
  rw [jacLoop_apply]
  have hs := step_ne he (x i)
  simp only [column, Bool.not_false, if_true, Bool.false_eq_true, if_false, Pi.smul_apply, Pi.sub_apply, smul_eq_mul]
  set h := eps * max |x i| 1
  rw [quad_update]
  have h2 : (x i + h - x i) = h := by ring
  rw [h2]
  field_simp
  ring

/-- C23, linearizer: differentiating dynamics affine in state and control gives the two matrices in
both schemes, at every time, and a derivative call leaves the other stored derivative, the dynamics
and the settings as they were. -/
theorem C23_linearizer {n m : ℕ} (s : Linearizer n m K) (he : s.eps ≠ 0)
    (A : K → Matrix (Fin n) (Fin n) K) (B : K → Matrix (Fin n) (Fin m) K) (c : K → Fin n → K)
    (hdyn : ∀ x t u r, s.dyn x t u r = c t r + ∑ p, A t r p * x p + ∑ p, B t r p * u p)
    (x : Fin n → K) (u : Fin m → K) (t : K) :
    (s.getDerivativeState x u t).dFdx = A t ∧ (s.getDerivativeControl x u t).dFdu = B t ∧
    (s.getDerivativeState x u t).dFdu = s.dFdu ∧ (s.getDerivativeControl x u t).dFdx = s.dFdx ∧
    (s.getDerivativeState x u t).dyn = s.dyn ∧ (s.getDerivativeControl x u t).dyn = s.dyn ∧
    (s.getDerivativeState x u t).eps = s.eps ∧ (s.getDerivativeControl x u t).eps = s.eps ∧
    (s.getDerivativeState x u t).dbl = s.dbl ∧ (s.getDerivativeControl x u t).dbl = s.dbl := by
  refine ⟨?_, ?_, rfl, rfl, rfl, rfl, rfl, rfl, rfl, rfl⟩
  · ext r i
    simp only [Linearizer.getDerivativeState]
    rw [jacLoop_apply]
    have hs := step_ne he (x i)
    have h2 : (2 : K) ≠ 0 := two_ne_zero
    cases hd : s.dbl
    · simp only [column, Bool.not_false, if_true, Bool.false_eq_true, if_false, Pi.smul_apply, Pi.sub_apply,
        smul_eq_mul, hdyn]
      set h := s.eps * max |x i| 1
      rw [update_sum, show (x i + h - x i) = h by ring]
      field_simp
      ring
    · simp only [column, if_true, Pi.smul_apply, Pi.sub_apply, smul_eq_mul, hdyn]
      set h := s.eps * max |x i| 1
      rw [sub_eq_add_neg (x i) h, update_sum, update_sum,
        show (x i + h - x i + (x i - (x i + -h))) = 2 * h by ring]
      field_simp
      ring
  · ext r i
    simp only [Linearizer.getDerivativeControl]
    rw [jacLoop_apply]
    have hs := step_ne he (u i)
    have h2 : (2 : K) ≠ 0 := two_ne_zero
    cases hd : s.dbl
    · simp only [column, Bool.not_false, if_true, Bool.false_eq_true, if_false, Pi.smul_apply, Pi.sub_apply,
        smul_eq_mul, hdyn]
      set h := s.eps * max |u i| 1
      rw [update_sum, show (u i + h - u i) = h by ring]
      field_simp
      ring
    · simp only [column, if_true, Pi.smul_apply, Pi.sub_apply, smul_eq_mul, hdyn]
      set h := s.eps * max |u i| 1
      rw [sub_eq_add_neg (u i) h, update_sum, update_sum,
        show (u i + h - u i + (u i - (u i + -h))) = 2 * h by ring]
      field_simp
      ring

open Filter Topology in
/-- C23, consistency: for every function differentiable at the point, both schemes converge to the
Jacobian as the step parameter goes to zero (reals). -/
theorem C23_consistent {n m : ℕ} (f : (Fin n → ℝ) → (Fin m → ℝ)) (f' : (Fin n → ℝ) →L[ℝ] (Fin m → ℝ))
    (x : Fin n → ℝ) (hf : HasFDerivAt f f' x) (dbl : Bool) (y0 : Fin m → ℝ) (J0 : Matrix (Fin m) (Fin n) ℝ)
    (r : Fin m) (i : Fin n) :
    Tendsto (fun eps => jacobian f dbl eps y0 J0 x r i) (𝓝[≠] 0) (𝓝 (f' (Pi.single i 1) r)) := by
  have hu : HasDerivAt (fun s => Function.update x i s) (Pi.single i (1 : ℝ)) (x i) := hasDerivAt_update x i (x i)
  have hf0 : HasFDerivAt f f' (Function.update x i (x i)) := by rwa [Function.update_eq_self]
  have hg := (hasDerivAt_pi.1 (hf0.comp_hasDerivAt (x i) hu)) r
  rw [hasDerivAt_iff_tendsto_slope_zero] at hg
  simp only [Function.comp_def, Function.update_eq_self, smul_eq_mul] at hg
  have hmax : (0 : ℝ) < max |x i| 1 := lt_of_lt_of_le one_pos (le_max_right _ _)
  have hstep : Tendsto (fun eps : ℝ => eps * max |x i| 1) (𝓝[≠] 0) (𝓝[≠] 0) := by
    refine tendsto_nhdsWithin_iff.2 ⟨?_, ?_⟩
    · have : Tendsto (fun eps : ℝ => eps * max |x i| 1) (𝓝 0) (𝓝 (0 * max |x i| 1)) :=
        (continuous_id.mul continuous_const).tendsto 0
      rw [zero_mul] at this
      exact this.mono_left nhdsWithin_le_nhds
    · filter_upwards [self_mem_nhdsWithin] with e he
      exact mul_ne_zero he hmax.ne'
  have hneg : Tendsto (fun e : ℝ => -e) (𝓝[≠] 0) (𝓝[≠] 0) := by
    refine tendsto_nhdsWithin_iff.2 ⟨?_, ?_⟩
    · have : Tendsto (fun e : ℝ => -e) (𝓝 0) (𝓝 (-0)) := continuous_neg.tendsto 0
      rw [neg_zero] at this
      exact this.mono_left nhdsWithin_le_nhds
    · filter_upwards [self_mem_nhdsWithin] with e he
      exact neg_ne_zero.2 he
  have hplus := hg.comp hstep
  have hminus := hg.comp (hneg.comp hstep)
  cases dbl
  · refine hplus.congr' ?_
    filter_upwards [self_mem_nhdsWithin] with e he
    simp only [Function.comp_def, jacobian, jacLoop_apply, column, Bool.not_false, if_true, Bool.false_eq_true, if_false,
      Pi.smul_apply, Pi.sub_apply, smul_eq_mul, add_sub_cancel_left]
  · have hav := (hplus.add hminus).mul_const ((2 : ℝ)⁻¹)
    have e0 : (f' (Pi.single i 1) r + f' (Pi.single i 1) r) * (2 : ℝ)⁻¹ = f' (Pi.single i 1) r := by ring
    rw [e0] at hav
    refine hav.congr' ?_
    filter_upwards [self_mem_nhdsWithin] with e he
    have hs : e * max |x i| 1 ≠ 0 := mul_ne_zero he hmax.ne'
    simp only [Function.comp_def, jacobian, jacLoop_apply, column, if_true,
      Pi.smul_apply, Pi.sub_apply, smul_eq_mul]
    set h := e * max |x i| 1
    rw [show (x i + h - x i + (x i - (x i - h))) = 2 * h by ring, ← sub_eq_add_neg]
    field_simp
    ring

/-- Non-vacuous: the quadratic `x₀² + 3 x₀ x₁` at (2, 5): derivative (19, 6), for a concrete step. -/
example : jacobian (K := ℚ) (n := 2) (m := 1)
    (fun z _ => quad 0 (fun _ => 0) (fun p q => if p = 0 then (if q = 0 then 1 else 3) else 0) z) true (1/1000) 0 0
      ![2, 5] = !![19, 6] := by decide +kernel

end CT.NumDiff
