import Verif.Props.Robots.QuadrotorWithLoadPower

/-! # QuadrotorWithLoad: the inertia matrix is invertible at every position -/

set_option linter.unusedSimpArgs false

namespace CT.Robots.QuadrotorWithLoad

open Matrix Spatial Articulated FrameJac

/-- Twice the kinetic energy: `c s` and `k l` are cosine and sine of the joints, `p r w` the angular and `x y z` the linear velocity
in the frame of the first link. -/
noncomputable def kin (c s k l : ℝ) (v : V6) (α β : ℝ) : ℝ :=
  let p := c * v 0 + s * v 1
  let r := -s * v 0 + c * v 1
  let w := v 2 + α
  let x := c * v 3 + s * v 4
  let y := -s * v 3 + c * v 4
  let z := v 5
  0.03 * v 0 ^ 2 + 0.05 * v 1 ^ 2 + 0.03 * v 2 ^ 2 + 0.525 * (x ^ 2 + y ^ 2 + z ^ 2)
    + 0.00002075 * p ^ 2 + 0.000001 * r ^ 2 + 0.00002075 * w ^ 2 - 0.0025 * (x * r - y * p)
    + 0.004084 * (p ^ 2 + w ^ 2) + 0.0000025 * (β - r) ^ 2 + 0.1 * ((x - 0.1 * r) ^ 2 + z ^ 2 + (0.1 * p + y) ^ 2)
    + 0.07 * ((k * (x - 0.1 * r) + l * z) * (β - r) + (0.1 * p + y) * (k * p + l * w))

theorem link1_mulVec (q : Q) (v : V6) : (MT.at q).fr_link1_X_fr_body *ᵥ v
    = ![Real.cos (q JA) * v 0 + Real.sin (q JA) * v 1, -Real.sin (q JA) * v 0 + Real.cos (q JA) * v 1, v 2,
        Real.cos (q JA) * v 3 + Real.sin (q JA) * v 4, -Real.sin (q JA) * v 3 + Real.cos (q JA) * v 4, v 5] := by
  funext i
  fin_cases i <;> simp [MT.at, MT.new, MT.setJointStatus, motion_fr_link1_X_fr_body_update, motion_fr_link1_X_fr_body_new, mulVec, dotProduct, Fin.sum_univ_succ]

theorem link2_mulVec (q : Q) (v : V6) : (MT.at q).fr_link2_X_fr_link1 *ᵥ v
    = ![Real.sin (q JB) * v 0 - Real.cos (q JB) * v 2, Real.cos (q JB) * v 0 + Real.sin (q JB) * v 2, -v 1,
        Real.sin (q JB) * (v 3 - 0.1 * v 1) - Real.cos (q JB) * v 5, Real.cos (q JB) * (v 3 - 0.1 * v 1) + Real.sin (q JB) * v 5, -(0.1 * v 0 + v 4)] := by
  funext i
  fin_cases i <;> simp [MT.at, MT.new, MT.setJointStatus, motion_fr_link2_X_fr_link1_update, motion_fr_link2_X_fr_link1_new, mulVec, dotProduct, Fin.sum_univ_succ] <;> norm_num <;> ring

theorem body_quad (v : V6) : v ⬝ᵥ (Inertias.std.body *ᵥ v) = 0.03 * v 0 ^ 2 + 0.05 * v 1 ^ 2 + 0.03 * v 2 ^ 2 + 0.5 * (v 3 ^ 2 + v 4 ^ 2 + v 5 ^ 2) := by
  simp [Inertias.std, Inertias.new, tensor_body, Inertia.fill, Inertia.new, buildInertiaTensor, mulVec, dotProduct, Fin.sum_univ_succ]
  norm_num
  ring

theorem link1_quad (v : V6) : v ⬝ᵥ (Inertias.std.link1 *ᵥ v) = 0.00002075 * v 0 ^ 2 + 0.000001 * v 1 ^ 2 + 0.00002075 * v 2 ^ 2
    + 0.025 * (v 3 ^ 2 + v 4 ^ 2 + v 5 ^ 2) - 0.0025 * (v 3 * v 1 - v 4 * v 0) := by
  simp [Inertias.std, Inertias.new, tensor_link1, Inertia.fill, Inertia.new, buildInertiaTensor, mulVec, dotProduct, Fin.sum_univ_succ]
  norm_num
  ring

theorem link2_quad (v : V6) : v ⬝ᵥ (Inertias.std.link2 *ᵥ v) = 0.004084 * (v 0 ^ 2 + v 1 ^ 2) + 0.0000025 * v 2 ^ 2
    + 0.1 * (v 3 ^ 2 + v 4 ^ 2 + v 5 ^ 2) + 0.07 * (v 4 * v 2 - v 5 * v 1) := by
  simp [Inertias.std, Inertias.new, tensor_link2, Inertia.fill, Inertia.new, buildInertiaTensor, mulVec, dotProduct, Fin.sum_univ_succ]
  norm_num
  ring

theorem jsim_quad (z : Robot) (cs : List Call) (q : Q) (v : V6) (qd : Q) :
    Sum.elim v qd ⬝ᵥ (((Robot.after z cs).jsim q).2 *ᵥ Sum.elim v qd)
      = kin (Real.cos (q JA)) (Real.sin (q JA)) (Real.cos (q JB)) (Real.sin (q JB)) v (qd JA) (qd JB) := by
  have hA := Real.sin_sq_add_cos_sq (q JA)
  have hB := Real.sin_sq_add_cos_sq (q JB)
  rw [C128_QuadrotorWithLoad]
  simp only [branchesAt, branches, split, List.zipWith_cons_cons, List.zipWith_nil_left, List.zip_cons_cons, List.zip_nil_left, List.map_cons, List.map_nil, energy,
    List.sum_cons, List.sum_nil, body_quad, link1_quad, link2_quad, link1_mulVec, link2_mulVec]
  simp [axisZ, kin]
  generalize Real.cos (q JA) = c at *
  generalize Real.sin (q JA) = s at *
  generalize Real.cos (q JB) = k at *
  generalize Real.sin (q JB) = l at *
  linear_combination (-0.5) * (v 3 ^ 2 + v 4 ^ 2) * hA
    + (0.004084 * ((c * v 0 + s * v 1) ^ 2 + (v 2 + qd JA) ^ 2)
      + 0.1 * ((c * v 3 + s * v 4 - 0.1 * (-s * v 0 + c * v 1)) ^ 2 + v 5 ^ 2)) * hB

theorem cross_le (p w : ℝ) : 0.01 * |p * w| ≤ 0.018 * p ^ 2 + 0.0016 * w ^ 2 := by
  have : |p * w| ≤ 1.8 * p ^ 2 + 0.16 * w ^ 2 := by
    refine abs_le.2 ⟨?_, ?_⟩
    · nlinarith [sq_nonneg (1.25 * p + 0.4 * w), sq_nonneg p]
    · nlinarith [sq_nonneg (1.25 * p - 0.4 * w), sq_nonneg p]
  linarith

set_option maxHeartbeats 1000000 in
/-- The rotational part after the linear velocities are eliminated is positive. -/
theorem rot_pos {k l p r w o0 o1 o2 : ℝ} (hB : l ^ 2 + k ^ 2 = 1) (hn : p ^ 2 + r ^ 2 = o0 ^ 2 + o1 ^ 2)
    (h : 0.03 * o0 ^ 2 + 0.05 * o1 ^ 2 + 0.03 * o2 ^ 2 + 0.00002075 * p ^ 2 + 0.000001 * r ^ 2 + 0.00002075 * w ^ 2 + 0.004084 * (p ^ 2 + w ^ 2)
      + 0.0000025 * r ^ 2 + 0.001 * (r ^ 2 + p ^ 2) + 0.007 * k * r ^ 2 + 0.007 * p * (k * p + l * w)
      - 1.6 * (r ^ 2 * (0.01125 + 0.035 * k) ^ 2 + (0.035 * l * w + p * (0.01125 + 0.035 * k)) ^ 2 + (0.035 * l * r) ^ 2) ≤ 0) :
    o0 = 0 ∧ o1 = 0 ∧ o2 = 0 ∧ p = 0 ∧ r = 0 ∧ w = 0 := by
  have hk1 : k ≤ 1 := by nlinarith [sq_nonneg l]
  have hk2 : -1 ≤ k := by nlinarith [sq_nonneg l]
  have hl1 : l ≤ 1 := by nlinarith [sq_nonneg k]
  have hl2 : -1 ≤ l := by nlinarith [sq_nonneg k]
  obtain ⟨C, hC⟩ : ∃ C, C = l * (0.00574 - 0.00392 * k) := ⟨_, rfl⟩
  obtain ⟨A, hA⟩ : ∃ A, A = 0.03510475 + 0.007 * k - 1.6 * (0.01125 + 0.035 * k) ^ 2 := ⟨_, rfl⟩
  obtain ⟨B, hB'⟩ : ∃ B, B = 0.00410475 - 0.00196 * l ^ 2 := ⟨_, rfl⟩
  have hC1 : C ≤ 0.01 := by rw [hC]; nlinarith
  have hC2 : -0.01 ≤ C := by rw [hC]; nlinarith
  have hA1 : 0.024 ≤ A := by rw [hA]; nlinarith
  have hB1 : 0.002 ≤ B := by rw [hB']; nlinarith
  have h1 : 0.03 * (p ^ 2 + r ^ 2) ≤ 0.03 * o0 ^ 2 + 0.05 * o1 ^ 2 := by rw [hn]; linarith [sq_nonneg o1]
  have h2 : A * p ^ 2 + C * (p * w) + B * w ^ 2 + (0.0288 + 0.00574 * k) * r ^ 2 + 0.03 * o2 ^ 2 ≤ 0 := by
    rw [hA, hC, hB']
    have hr2 : r ^ 2 * (l ^ 2 + k ^ 2) = r ^ 2 := by rw [hB, mul_one]
    linarith [sq_nonneg r]
  have h3 : 0.023 * r ^ 2 ≤ (0.0288 + 0.00574 * k) * r ^ 2 := mul_le_mul_of_nonneg_right (by linarith) (sq_nonneg r)
  have h4 : 0.006 * p ^ 2 + 0.0004 * w ^ 2 ≤ A * p ^ 2 + C * (p * w) + B * w ^ 2 := by
    have a1 : 0.024 * p ^ 2 ≤ A * p ^ 2 := mul_le_mul_of_nonneg_right hA1 (sq_nonneg p)
    have a2 : 0.002 * w ^ 2 ≤ B * w ^ 2 := mul_le_mul_of_nonneg_right hB1 (sq_nonneg w)
    have a3 : -(0.01 * |p * w|) ≤ C * (p * w) := by
      have : |C * (p * w)| ≤ 0.01 * |p * w| := by
        rw [abs_mul]
        exact mul_le_mul_of_nonneg_right (abs_le.2 ⟨hC2, hC1⟩) (abs_nonneg _)
      linarith [neg_abs_le (C * (p * w))]
    have a4 := cross_le p w
    linarith
  have z : ∀ {a : ℝ}, a ^ 2 ≤ 0 → a = 0 := fun {a} ha => pow_eq_zero_iff (two_ne_zero) |>.1 (le_antisymm ha (sq_nonneg a))
  have hp : p = 0 := z (by linarith [sq_nonneg p, sq_nonneg w, sq_nonneg r, sq_nonneg o2])
  have hr : r = 0 := z (by linarith [sq_nonneg p, sq_nonneg w, sq_nonneg r, sq_nonneg o2])
  have hw : w = 0 := z (by linarith [sq_nonneg p, sq_nonneg w, sq_nonneg r, sq_nonneg o2])
  have ho2 : o2 = 0 := z (by linarith [sq_nonneg p, sq_nonneg w, sq_nonneg r, sq_nonneg o2])
  rw [hp, hr] at hn
  exact ⟨z (by linarith [sq_nonneg o1]), z (by linarith [sq_nonneg o0]), ho2, hp, hr, hw⟩

set_option maxHeartbeats 1000000 in
/-- Only the zero velocity has no coupling with any other. -/
theorem kin_nondeg {c s k l : ℝ} (hA : s ^ 2 + c ^ 2 = 1) (hB : l ^ 2 + k ^ 2 = 1) (v : V6) (α β : ℝ)
    (h : ∀ (u : V6) (γ δ : ℝ), kin c s k l (v + u) (α + γ) (β + δ) = kin c s k l v α β + kin c s k l u γ δ) :
    v = 0 ∧ α = 0 ∧ β = 0 := by
  have e := h ![v 0, v 1, v 2, v 3 + 0.112 * β * k * c, v 4 + 0.112 * β * k * s, v 5 + 0.112 * β * l] α (-β)
  obtain ⟨p, hp⟩ : ∃ p, p = c * v 0 + s * v 1 := ⟨_, rfl⟩
  obtain ⟨r, hr⟩ : ∃ r, r = -s * v 0 + c * v 1 := ⟨_, rfl⟩
  obtain ⟨w, hw⟩ : ∃ w, w = v 2 + α := ⟨_, rfl⟩
  obtain ⟨x, hx⟩ : ∃ x, x = c * v 3 + s * v 4 := ⟨_, rfl⟩
  obtain ⟨y, hy⟩ : ∃ y, y = -s * v 3 + c * v 4 := ⟨_, rfl⟩
  have hn : p ^ 2 + r ^ 2 = v 0 ^ 2 + v 1 ^ 2 := by rw [hp, hr]; linear_combination (v 0 ^ 2 + v 1 ^ 2) * hA
  have x1 : c * (v 3 + 0.112 * β * k * c) + s * (v 4 + 0.112 * β * k * s) = x + 0.112 * β * k := by
    rw [hx]; linear_combination 0.112 * β * k * hA
  have y1 : -s * (v 3 + 0.112 * β * k * c) + c * (v 4 + 0.112 * β * k * s) = y := by rw [hy]; ring
  have x2 : c * (v 3 + (v 3 + 0.112 * β * k * c)) + s * (v 4 + (v 4 + 0.112 * β * k * s)) = 2 * x + 0.112 * β * k := by
    rw [hx]; linear_combination 0.112 * β * k * hA
  have y2 : -s * (v 3 + (v 3 + 0.112 * β * k * c)) + c * (v 4 + (v 4 + 0.112 * β * k * s)) = 2 * y := by rw [hy]; ring
  have p2 : c * (v 0 + v 0) + s * (v 1 + v 1) = 2 * p := by rw [hp]; ring
  have r2 : -s * (v 0 + v 0) + c * (v 1 + v 1) = 2 * r := by rw [hr]; ring
  have w2 : v 2 + v 2 + (α + α) = 2 * w := by rw [hw]; ring
  simp only [kin, Pi.add_apply, cons_val, x1, y1, x2, y2, p2, r2, w2, ← hp, ← hr, ← hw, ← hx, ← hy] at e
  have e2 : 0.625 * ((x + 1.6 * (-(r * (0.01125 + 0.035 * k)) + 0.035 * β * k)) ^ 2
        + (y + 1.6 * (0.035 * l * w + p * (0.01125 + 0.035 * k))) ^ 2 + (v 5 + 1.6 * (-(0.035 * l * r) + 0.035 * β * l)) ^ 2)
      + 0.0019575 * β ^ 2
      + (0.03 * v 0 ^ 2 + 0.05 * v 1 ^ 2 + 0.03 * v 2 ^ 2 + 0.00002075 * p ^ 2 + 0.000001 * r ^ 2 + 0.00002075 * w ^ 2 + 0.004084 * (p ^ 2 + w ^ 2)
      + 0.0000025 * r ^ 2 + 0.001 * (r ^ 2 + p ^ 2) + 0.007 * k * r ^ 2 + 0.007 * p * (k * p + l * w)
      - 1.6 * (r ^ 2 * (0.01125 + 0.035 * k) ^ 2 + (0.035 * l * w + p * (0.01125 + 0.035 * k)) ^ 2 + (0.035 * l * r) ^ 2)) = 0 := by
    linear_combination (1 / 2) * e - 0.00196 * β ^ 2 * hB
  generalize hX : x + 1.6 * (-(r * (0.01125 + 0.035 * k)) + 0.035 * β * k) = X at e2
  generalize hY : y + 1.6 * (0.035 * l * w + p * (0.01125 + 0.035 * k)) = Y at e2
  generalize hZ : v 5 + 1.6 * (-(0.035 * l * r) + 0.035 * β * l) = Z at e2
  obtain ⟨h0, h1, h2, h3, h4, h5⟩ := rot_pos (k := k) (l := l) (p := p) (r := r) (w := w) (o0 := v 0) (o1 := v 1) (o2 := v 2) hB hn (by
    clear e h x1 y1 x2 y2 p2 r2 w2
    linarith [sq_nonneg X, sq_nonneg Y, sq_nonneg Z, sq_nonneg β])
  rw [h0, h1, h2, h3, h4, h5] at e2
  have z : ∀ {a : ℝ}, a ^ 2 ≤ 0 → a = 0 := fun {a} ha => pow_eq_zero_iff (two_ne_zero) |>.1 (le_antisymm ha (sq_nonneg a))
  have hX0 : X = 0 := z (by linarith [sq_nonneg X, sq_nonneg Y, sq_nonneg Z, sq_nonneg β])
  have hY0 : Y = 0 := z (by linarith [sq_nonneg X, sq_nonneg Y, sq_nonneg Z, sq_nonneg β])
  have hZ0 : Z = 0 := z (by linarith [sq_nonneg X, sq_nonneg Y, sq_nonneg Z, sq_nonneg β])
  have hβ : β = 0 := z (by linarith [sq_nonneg X, sq_nonneg Y, sq_nonneg Z, sq_nonneg β])
  have hα : α = 0 := by linarith
  rw [hX0, h4, hβ] at hX
  rw [hY0, h5, h3] at hY
  rw [hZ0, h4, hβ] at hZ
  have hx0 : x = 0 := by linarith
  have hy0 : y = 0 := by linarith
  have h50 : v 5 = 0 := by linarith
  have h30 : v 3 = 0 := by
    have : v 3 = c * x - s * y := by rw [hx, hy]; linear_combination -(v 3) * hA
    rw [this, hx0, hy0]; ring
  have h40 : v 4 = 0 := by
    have : v 4 = s * x + c * y := by rw [hx, hy]; linear_combination -(v 4) * hA
    rw [this, hx0, hy0]; ring
  refine ⟨?_, hα, hβ⟩
  funext i
  fin_cases i
  · exact h0
  · exact h1
  · exact h2
  · exact h30
  · exact h40
  · exact h50

/-- The inertia matrix moves every change of velocity. -/
theorem jsim_inj (z : Robot) (cs : List Call) (q : Q) (v : V6) (x : Q) (h : ((Robot.after z cs).jsim q).2 *ᵥ Sum.elim v x = 0) : v = 0 ∧ x = 0 := by
  have hs := C127_QuadrotorWithLoad_partial z cs q
  obtain ⟨h1, h2, h3⟩ := kin_nondeg (Real.sin_sq_add_cos_sq (q JA)) (Real.sin_sq_add_cos_sq (q JB)) v (x JA) (x JB) fun u γ δ => by
    have e1 := jsim_quad z cs q v x
    have e2 := jsim_quad z cs q u ![γ, δ]
    have e3 := jsim_quad z cs q (v + u) (x + ![γ, δ])
    have e4 : Sum.elim (v + u) (x + ![γ, δ]) = Sum.elim v x + Sum.elim u ![γ, δ] := by
      funext i; cases i <;> rfl
    have e5 : Sum.elim v x ⬝ᵥ (((Robot.after z cs).jsim q).2 *ᵥ Sum.elim u ![γ, δ]) = 0 := by
      rw [dotProduct_mulVec, ← mulVec_transpose, hs, h, zero_dotProduct]
    rw [h, dotProduct_zero] at e1
    rw [e4, mulVec_add, h, zero_add, add_dotProduct, e5, zero_add, e2] at e3
    rw [← e1, zero_add]
    exact e3.symm
  refine ⟨h1, ?_⟩
  funext i
  fin_cases i
  · exact h2
  · exact h3

/-- **C127 (QuadrotorWithLoad), in part.**  The joint space inertia matrix is invertible at every position although it is not
positive definite. -/
theorem C127_QuadrotorWithLoad_invertible_partial (z : Robot) (cs : List Call) (q : Q) : IsUnit (((Robot.after z cs).jsim q).2).det := by
  rw [isUnit_iff_ne_zero]
  intro hd
  obtain ⟨x, hx, h⟩ := exists_mulVec_eq_zero_iff.2 hd
  have := jsim_inj z cs q (x ∘ Sum.inl) (x ∘ Sum.inr) (by rw [Sum.elim_comp_inl_inr]; exact h)
  apply hx
  funext i
  cases i with
  | inl i => exact congrFun this.1 i
  | inr i => exact congrFun this.2 i

end CT.Robots.QuadrotorWithLoad
