import Verif.Model.Robots.Factor
import Verif.Props.JsimInverseBase
import Verif.Props.JsimBlocks
import Verif.Props.Robots.InvertedPendulum
import Verif.Props.Robots.DoubleInvertedPendulum
import Verif.Props.Robots.HyA
import Verif.Props.Robots.QuadrotorWithLoad
import Verif.Props.Robots.HyQ

/-!
# C129: the factorisation and the inverse of the joint space inertia matrix

`computeL()` is documented to compute the factor `L` of the factorisation `L^T L` of the joint space inertia
matrix, `computeInverse()` the inverse of that matrix (jsim.h of every robot, for example
HyA/generated/jsim.h:47-57).  `Factorises p pL pI H` says that for the matrix `H`, whatever the three members
contained before, the two functions stay inside the matrices, the factor is lower triangular with a positive
diagonal and `L^T L = H`, and the inverse is the inverse.

The three robots with a fixed base satisfy it at every position.  The two robots with a floating base have 6
more rows and columns than joints, and the generated statements number the joints from 0 as if these rows and
columns did not exist.  That this numbering is all that is wrong with them is shown by applying them to the block of
the joints alone (`C129_HyQ_joints_partial`, `C129_QuadrotorWithLoad_joints_partial`).
-/

namespace CT.JsimFactor

open CT

/-- What `computeL` and `computeInverse` are documented to do for the matrix `H`. -/
def Factorises {n : ℕ} (p pL pI : List Stmt) (H : Matrix (Fin n) (Fin n) ℝ) : Prop :=
  ∀ x : Fact, ∃ y w, computeL p H x = .ok y ∧ computeInverse n pL pI y = .ok w
    ∧ (∀ i j, i < j → mat n y.L i j = 0) ∧ (∀ i, 0 < mat n y.L i i)
    ∧ (mat n y.L).transpose * mat n y.L = H
    ∧ mat n w.L = mat n y.L ∧ H * mat n w.inverse = 1

/-- The matrix with its rows and columns numbered as in the code: the base first, then the joints. -/
def numbered {m : ℕ} (H : Matrix (Fin 6 ⊕ Fin m) (Fin 6 ⊕ Fin m) ℝ) : Matrix (Fin (6 + m)) (Fin (6 + m)) ℝ :=
  H.submatrix finSumFinEquiv.symm finSumFinEquiv.symm

/-- An entry on the diagonal that the statements do not touch is not the one of a factor, and a column of the
inverse that they do not touch is not the one of the inverse. -/
theorem untouched {n : ℕ} {p pL pI : List Stmt} (H : Matrix (Fin n) (Fin n) ℝ) (k : Fin n)
    (h1 : ∀ i : Fin n, ∀ s ∈ p, ((0, (i : ℕ), (k : ℕ)) : Cell) ≠ s.target)
    (h2 : ∀ i : Fin n, ∀ s ∈ pL ++ pI, ((2, (i : ℕ), (k : ℕ)) : Cell) ≠ s.target)
    (h3 : ∀ i : Fin n, ∀ s ∈ p, ((2, (i : ℕ), (k : ℕ)) : Cell) ≠ s.target)
    (hlast : ∀ i : Fin n, i ≤ k) (hin : ∀ s ∈ p ++ (pL ++ pI), s.indices.all (· < n) = true)
    (ha : H k k ≠ 0) (hb : H k k ≠ 1) :
    (∀ x, ∃ y, computeL p H x = .ok y ∧ (mat n y.L).transpose * mat n y.L ≠ H)
    ∧ ∃ x y w, computeL p H x = .ok y ∧ computeInverse n pL pI y = .ok w ∧ H * mat n w.inverse ≠ 1 := by
  have hy : ∀ x, computeL p H x = .ok (acts p { x with L := lower H }) := fun x =>
    run_eq (fun s h => hin s (List.mem_append_left _ h)) _
  have hcol : ∀ (x : Fact) (i : Fin n), (acts p { x with L := lower H }).L i k = if i = k then H k k else 0 := by
    intro x i
    have h4 : (acts p { x with L := lower H }).L i k = lower H i k :=
      acts_frame p { x with L := lower H } (c := (0, (i : ℕ), (k : ℕ))) (h1 i)
    rw [h4]
    by_cases hik : i = k
    · subst hik; simp [lower]
    · have h5 : ¬ (k : ℕ) ≤ i := by
        have h6 : (i : ℕ) ≤ k := hlast i
        have h7 : (i : ℕ) ≠ k := fun h => hik (Fin.ext h)
        omega
      simp [lower, h5, hik]
  refine ⟨fun x => ⟨_, hy x, fun h => ?_⟩, ?_⟩
  · have h4 := congrFun (congrFun h k) k
    rw [Matrix.mul_apply] at h4
    simp only [Matrix.transpose_apply, mat, hcol, mul_ite, ite_mul, zero_mul, mul_zero, Finset.sum_ite_eq',
      Finset.mem_univ, if_true] at h4
    have h5 : H k k * H k k = H k k := by simpa using h4
    exact hb (mul_left_cancel₀ ha (by rw [h5, mul_one]))
  · set x : Fact := { L := 0, Linv := 0, inverse := 0 }
    have hw : ∀ y, computeInverse n pL pI y = .ok (acts (pL ++ pI) y) := by
      intro y
      rw [computeInverse, run_eq (fun s h => hin s (List.mem_append_right _ (List.mem_append_left _ h))), acts_append]
      exact run_eq (fun s h => hin s (List.mem_append_right _ (List.mem_append_right _ h))) _
    refine ⟨x, _, _, hy x, hw _, fun h => ?_⟩
    have h4 := congrFun (congrFun h k) k
    rw [Matrix.mul_apply, Matrix.one_apply_eq] at h4
    have h5 : ∀ i : Fin n, (acts (pL ++ pI) (acts p { x with L := lower H })).inverse i k = 0 := by
      intro i
      have h6 : (acts (pL ++ pI) (acts p { x with L := lower H })).inverse i k = (acts p { x with L := lower H }).inverse i k :=
        acts_frame (pL ++ pI) _ (c := (2, (i : ℕ), (k : ℕ))) (h2 i)
      have h7 : (acts p { x with L := lower H }).inverse i k = x.inverse i k :=
        acts_frame p { x with L := lower H } (c := (2, (i : ℕ), (k : ℕ))) (h3 i)
      rw [h6, h7]
      rfl
    simp [mat, h5] at h4

end CT.JsimFactor

namespace CT.Robots.InvertedPendulum

open CT.JsimFactor

/-- **C129 (InvertedPendulum).**  `computeL` and `computeInverse` deliver the factor and the inverse of the joint
space inertia matrix at every position. -/
theorem C129_InvertedPendulum (z : Robot) (cs : List Call) (q : Q) :
    Factorises computeL_stmts computeLInverse_stmts computeInverse_stmts ((Robot.after z cs).jsim q).2 :=
  factor_correct (by decide) (by decide) ⟨by decide, by decide, by decide, by decide, by decide, by decide⟩ _
    (C127_InvertedPendulum z cs q).1 (C127_InvertedPendulum z cs q).2

end CT.Robots.InvertedPendulum

namespace CT.Robots.DoubleInvertedPendulum

open CT.JsimFactor

/-- **C129 (DoubleInvertedPendulum).**  `computeL` and `computeInverse` deliver the factor and the inverse of the
joint space inertia matrix at every position. -/
theorem C129_DoubleInvertedPendulum (z : Robot) (cs : List Call) (q : Q) :
    Factorises computeL_stmts computeLInverse_stmts computeInverse_stmts ((Robot.after z cs).jsim q).2 :=
  factor_correct (by decide) (by decide) ⟨by decide, by decide, by decide, by decide, by decide, by decide⟩ _
    (C127_DoubleInvertedPendulum z cs q).1 (C127_DoubleInvertedPendulum z cs q).2

end CT.Robots.DoubleInvertedPendulum

namespace CT.Robots.HyA

open CT.JsimFactor

/-- **C129 (HyA).**  `computeL` and `computeInverse` deliver the factor and the inverse of the joint space inertia
matrix at every position. -/
theorem C129_HyA (z : Robot) (cs : List Call) (q : Q) :
    Factorises computeL_stmts computeLInverse_stmts computeInverse_stmts ((Robot.after z cs).jsim q).2 :=
  factor_correct (by decide +kernel) (by decide +kernel)
    ⟨by decide +kernel, by decide +kernel, by decide +kernel, by decide +kernel, by decide +kernel, by decide +kernel⟩ _
    (C127_HyA z cs q).1 (C127_HyA z cs q).2

end CT.Robots.HyA

namespace CT.Robots.QuadrotorWithLoad

open CT.JsimFactor

/-- **C129 (QuadrotorWithLoad), violated.**  At no position does `computeL` deliver a factor of the joint space
inertia matrix, whatever the members contained, and `computeInverse` leaves entries of the inverse as they were. -/
theorem C129_QuadrotorWithLoad_violated (z : Robot) (cs : List Call) (q : Q) :
    (∀ x, ∃ y, computeL computeL_stmts (numbered ((Robot.after z cs).jsim q).2) x = .ok y
      ∧ (mat (6 + 2) y.L).transpose * mat (6 + 2) y.L ≠ numbered ((Robot.after z cs).jsim q).2)
    ∧ ∃ x y w, computeL computeL_stmts (numbered ((Robot.after z cs).jsim q).2) x = .ok y
      ∧ computeInverse (6 + 2) computeLInverse_stmts computeInverse_stmts y = .ok w
      ∧ numbered ((Robot.after z cs).jsim q).2 * mat (6 + 2) w.inverse ≠ 1 := by
  have h : numbered ((Robot.after z cs).jsim q).2 7 7 = 2.5E-6 := by
    have h1 : numbered ((Robot.after z cs).jsim q).2 7 7 = (Robot.after z cs).i.link2 2 2 := rfl
    rw [h1, (inv_after z cs).i]
    simp [Inertias.std, Inertias.new, tensor_link2, Spatial.Inertia.fill, Spatial.buildInertiaTensor]
  exact untouched _ 7 (by decide +kernel) (by decide +kernel) (by decide +kernel) (by decide +kernel) (by decide +kernel)
    (by rw [h]; norm_num) (by rw [h]; norm_num)

/-- **C129 (QuadrotorWithLoad), numbering.**  For a symmetric positive definite matrix of the size of the block of the
joints the generated statements deliver the factor and the inverse: what is missing is the offset of the 6 rows and
columns of the base. -/
theorem C129_QuadrotorWithLoad_joints_partial (H : Matrix (Fin 2) (Fin 2) ℝ) (hs : H.transpose = H)
    (hpd : ∀ x : Fin 2 → ℝ, x ≠ 0 → 0 < dotProduct x (H.mulVec x)) :
    Factorises computeL_stmts computeLInverse_stmts computeInverse_stmts H :=
  factor_correct (by decide) (by decide) ⟨by decide, by decide, by decide, by decide, by decide, by decide⟩ H hs hpd

/-- The hypotheses are met by a matrix with coupling. -/
example : ∃ H : Matrix (Fin 2) (Fin 2) ℝ, H 0 1 ≠ 0 ∧ H.transpose = H
    ∧ ∀ x : Fin 2 → ℝ, x ≠ 0 → 0 < dotProduct x (H.mulVec x) := by
  refine ⟨!![2, 1; 1, 1], by simp, by ext i j; fin_cases i <;> fin_cases j <;> rfl, fun x hx => ?_⟩
  have h : dotProduct x (Matrix.mulVec !![2, 1; 1, 1] x) = x 0 * x 0 + (x 0 + x 1) * (x 0 + x 1) := by
    simp [Matrix.mulVec, dotProduct, Fin.sum_univ_two]
    ring
  rw [h]
  by_cases h0 : x 0 = 0
  · have h1 : x 1 ≠ 0 := fun h1 => hx (by ext i; fin_cases i <;> simp [h0, h1])
    have := mul_self_pos.mpr h1
    rw [h0]
    linarith
  · have := mul_self_pos.mpr h0
    have := mul_self_nonneg (x 0 + x 1)
    linarith

end CT.Robots.QuadrotorWithLoad

namespace CT.Robots.HyQ

open CT.JsimFactor

/-- **C129 (HyQ), violated.**  At no position does `computeL` deliver a factor of the joint space inertia matrix,
whatever the members contained, and `computeInverse` leaves entries of the inverse as they were. -/
theorem C129_HyQ_violated (z : Robot) (cs : List Call) (q : Q) :
    (∀ x, ∃ y, computeL computeL_stmts (numbered ((Robot.after z cs).jsim q).2) x = .ok y
      ∧ (mat (6 + 12) y.L).transpose * mat (6 + 12) y.L ≠ numbered ((Robot.after z cs).jsim q).2)
    ∧ ∃ x y w, computeL computeL_stmts (numbered ((Robot.after z cs).jsim q).2) x = .ok y
      ∧ computeInverse (6 + 12) computeLInverse_stmts computeInverse_stmts y = .ok w
      ∧ numbered ((Robot.after z cs).jsim q).2 * mat (6 + 12) w.inverse ≠ 1 := by
  have h : numbered ((Robot.after z cs).jsim q).2 17 17 = 0.026181 := by
    have h1 : numbered ((Robot.after z cs).jsim q).2 17 17 = (Robot.after z cs).i.RH_lowerleg 2 2 := rfl
    rw [h1, (inv_after z cs).i]
    simp [Inertias.std, Inertias.new, tensor_RH_lowerleg, Spatial.Inertia.fill, Spatial.buildInertiaTensor]
  exact untouched _ 17 (by decide +kernel) (by decide +kernel) (by decide +kernel) (by decide +kernel) (by decide +kernel)
    (by rw [h]; norm_num) (by rw [h]; norm_num)

/-- **C129 (HyQ), numbering.**  Applied to the block of the joints of the joint space inertia matrix, at every position,
the generated statements deliver the factor, and the inverse if the entries of `inverse` between the legs, which they
never write, were zero before: what is missing is the offset of the 6 rows and columns of the base. -/
theorem C129_HyQ_joints_partial (z : Robot) (cs : List Call) (q : Q) (x : Fact)
    (hx : ∀ i j : Fin 12, (i : ℕ) / 3 ≠ (j : ℕ) / 3 → x.inverse i j = 0) :
    ∃ y w, computeL computeL_stmts ((Robot.after z cs).jsim q).2.toBlocks₂₂ x = .ok y
      ∧ computeInverse 12 computeLInverse_stmts computeInverse_stmts y = .ok w
      ∧ (∀ i j, i < j → mat 12 y.L i j = 0) ∧ (∀ i, 0 < mat 12 y.L i i)
      ∧ (mat 12 y.L).transpose * mat 12 y.L = ((Robot.after z cs).jsim q).2.toBlocks₂₂
      ∧ mat 12 w.L = mat 12 y.L ∧ ((Robot.after z cs).jsim q).2.toBlocks₂₂ * mat 12 w.inverse = 1 := by
  obtain ⟨hs, hpd⟩ := C127_HyQ z cs q
  have hz := jsim_cross (inv_after z cs) q
  generalize ((Robot.after z cs).jsim q).2 = H at hs hpd hz ⊢
  refine blocks_correct (b := 4) (w := 3) (p1 := computeL_stmts.filter fun s => inBlock 3 0 s.target)
    (pL1 := computeLInverse_stmts.filter fun s => inBlock 3 0 s.target)
    (pI1 := computeInverse_stmts.filter fun s => inBlock 3 0 s.target) (by norm_num)
    ⟨by decide +kernel, by decide +kernel, by decide +kernel⟩ ⟨by decide +kernel, by decide +kernel, by decide +kernel⟩
    ⟨by decide +kernel, by decide +kernel, by decide +kernel⟩ (by decide +kernel) (by decide +kernel)
    ⟨by decide +kernel, by decide +kernel, by decide +kernel, by decide +kernel, by decide +kernel, by decide +kernel⟩
    (by decide +kernel) H.toBlocks₂₂ ?_ (fun u hu => ?_) hz x hx
  · ext i j
    exact congrFun (congrFun hs (.inr i)) (.inr j)
  · have h1 := hpd (Sum.elim 0 u) (fun h => hu (funext fun i => congrFun h (.inr i)))
    have h2 : dotProduct (Sum.elim 0 u) (H.mulVec (Sum.elim 0 u)) = dotProduct u (H.toBlocks₂₂.mulVec u) := by
      simp [dotProduct, Matrix.mulVec, Matrix.toBlocks₂₂]
    rwa [h2] at h1

/-- Members that are zero meet the hypothesis. -/
example : ∀ i j : Fin 12, (i : ℕ) / 3 ≠ (j : ℕ) / 3 → (⟨0, 0, 0⟩ : Fact).inverse i j = 0 := fun _ _ _ => rfl


end CT.Robots.HyQ
