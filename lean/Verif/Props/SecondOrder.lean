import Verif.Model.SecondOrder
import Mathlib.Tactic.FieldSimp
import Mathlib.Tactic.Ring
import Mathlib.Tactic.NormNum
import Mathlib.Tactic.LinearCombination
import Mathlib.Tactic.Linarith

/-! # Property C24: second-order system -/

namespace CT.SecondOrder

/-- C24: with constant input `u` the position `g u` at rest is the unique equilibrium, for every
non-zero frequency, both after construction and after `setDynamics`. -/
theorem C24_equilibrium (w zeta g u : ℝ) (hw : w ≠ 0) (x : ℝ × ℝ) (s : Sys) :
    (dyn (mk' w zeta g) x u = (0, 0) ↔ x = (g * u, 0)) ∧
    (dyn (setDynamics s w zeta g) x u = (0, 0) ↔ x = (g * u, 0)) := by
  have key : dyn (mk' w zeta g) x u = (0, 0) ↔ x = (g * u, 0) := by
    obtain ⟨p, v⟩ := x
    simp only [dyn, mk', Prod.mk.injEq]
    constructor
    · rintro ⟨rfl, h⟩
      refine ⟨?_, rfl⟩
      have h2 : w * w ≠ 0 := mul_ne_zero hw hw
      exact (mul_left_cancel₀ h2 (by linear_combination h)).symm
    · rintro ⟨rfl, rfl⟩
      exact ⟨rfl, by ring⟩
  exact ⟨key, key⟩

/-- C24: the documented second-order law `p'' + 2 ζ w p' + w² p = g w² u`. -/
theorem C24_law (w zeta g u p v : ℝ) :
    (dyn (mk' w zeta g) (p, v) u).1 = v ∧
    (dyn (mk' w zeta g) (p, v) u).2 + 2 * zeta * w * v + w ^ 2 * p = g * w ^ 2 * u := by
  simp only [dyn, mk', true_and]; ring

/-- C24, energy: without input, the energy `(v² + w² p²)/2` decreases at rate `2 ζ w v²`: never
increases for parameters accepted by `checkParameters`. -/
theorem C24_dissipates (s : Sys) (hw : s.w2 = s.w * s.w) (hs : checkParameters s = true) (p v : ℝ) :
    s.w2 * p * (dyn s (p, v) 0).1 + v * (dyn s (p, v) 0).2 ≤ 0 := by
  unfold checkParameters at hs
  simp only [Bool.if_false_left] at hs
  by_cases h1 : s.zeta < 0
  · simp [h1] at hs
  · by_cases h2 : s.w < 0
    · simp [h2] at hs
    · have := mul_nonneg (mul_nonneg (not_lt.1 h1) (not_lt.1 h2)) (mul_self_nonneg v)
      simp only [dyn]
      nlinarith

/-- C24, admissible parameters: the parameter check accepts exactly the systems with non-negative damping
ratio and eigenfrequency and a strictly positive gain. -/
theorem C24_parameters (w zeta g : ℝ) (s : Sys) :
    (checkParameters (mk' w zeta g) = true ↔ 0 ≤ zeta ∧ 0 ≤ w ∧ 0 < g) ∧
    (checkParameters (setDynamics s w zeta g) = true ↔ 0 ≤ zeta ∧ 0 ≤ w ∧ 0 < g) := by
  have key : checkParameters (mk' w zeta g) = true ↔ 0 ≤ zeta ∧ 0 ≤ w ∧ 0 < g := by
    simp only [checkParameters, mk']
    by_cases h1 : zeta < 0
    · simp [h1]
    by_cases h2 : w < 0
    · simp [h1, h2]
    by_cases h3 : g < 0
    · simp [h1, h2, h3, h3.le]
    by_cases h4 : g = 0
    · simp [h4]
    · simp [h1, h2, h3, h4, not_lt.1 h1, not_lt.1 h2, lt_of_le_of_ne (not_lt.1 h3) (Ne.symm h4)]
  exact ⟨key, key⟩

/-- C24, spring-mass-damper constructor, exact condition: the constructed system obeys
`m p'' = k g u - d p' - k p` for all states and inputs exactly when there is no damper or `k m = 1`. -/
theorem C24_spring_partial (k m d g : ℝ) (hk : 0 < k) (hm : 0 < m) :
    (∀ p v u, m * (dyn (ofSpring k m d g) (p, v) u).2 = k * g * u - d * v - k * p) ↔ d = 0 ∨ k * m = 1 := by
  have hkm : 0 < k / m := div_pos hk hm
  have hw : Real.sqrt (k / m) * Real.sqrt (k / m) = k / m := Real.mul_self_sqrt hkm.le
  have expand : ∀ p v u, m * (dyn (ofSpring k m d g) (p, v) u).2 =
      k * g * u - d * (Real.sqrt (k / m) / k) * v - k * p := by
    intro p v u
    simp only [dyn, ofSpring, hw]
    field_simp
  have hs : Real.sqrt (k / m) = k ↔ k * m = 1 := by
    rw [Real.sqrt_eq_iff_mul_self_eq_of_pos hk, eq_div_iff hm.ne']
    constructor
    · intro h
      exact mul_left_cancel₀ hk.ne' (by linarith)
    · intro h
      linear_combination k * h
  constructor
  · intro h
    have := h 0 1 0
    rw [expand] at this
    by_cases hd : d = 0
    · exact Or.inl hd
    · refine Or.inr (hs.1 ?_)
      have h1 : d * (Real.sqrt (k / m) / k) = d * 1 := by linarith
      exact (div_eq_one_iff_eq hk.ne').1 (mul_left_cancel₀ hd h1)
  · rintro (rfl | h) p v u
    · rw [expand]; ring
    · rw [expand, hs.2 h, div_self hk.ne']; ring

/-- C24, disagreement: a spring of stiffness 4, mass 1, damper 1 gives too little damping: the
constructed acceleration at velocity 1 is `-1/2` instead of `-1`. -/
theorem C24_spring_violated :
    (dyn (ofSpring 4 1 1 1) (0, 1) 0).2 = -1/2 ∧
    ¬ (∀ p v u, (1 : ℝ) * (dyn (ofSpring 4 1 1 1) (p, v) u).2 = 4 * 1 * u - 1 * v - 4 * p) := by
  constructor
  · have : Real.sqrt (4 / 1) = 2 := by
      rw [show (4 / 1 : ℝ) = 2 ^ 2 by norm_num]; exact Real.sqrt_sq (by norm_num)
    simp only [dyn, ofSpring, this]; norm_num
  · rw [C24_spring_partial 4 1 1 1 (by norm_num) (by norm_num)]
    norm_num

/-- Non-vacuous: admissible parameters exist, with and without damper. -/
example : checkParameters (mk' 2 1 1) = true ∧ (mk' 2 1 1).w2 = (mk' 2 1 1).w * (mk' 2 1 1).w := by
  constructor
  · simp [checkParameters, mk']
  · rfl

end CT.SecondOrder
