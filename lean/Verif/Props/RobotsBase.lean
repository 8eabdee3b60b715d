import Verif.Props.ArticulatedEnergy
import Verif.Props.InertiaMatrix

/-!
# Lemmas for the robots of ct_models
-/

namespace CT.Robots

open Matrix Spatial Articulated FrameJac

/-! ### Members that are written again -/

theorem cross_refill (v w : V6) (z : M6) : motionCrossProductMx v (motionCrossProductMx w z) = motionCrossProductMx v z := rfl

theorem Ia_refill (A B : M6) (u v : V6) (x y : ℝ) (z : M6) :
    computeIaRevolute A u x (computeIaRevolute B v y z) = computeIaRevolute A u x z := rfl

theorem transform_refill (A B X Y z : M6) : transformInertia A X (transformInertia B Y z) = transformInertia A X z := rfl

theorem vel_refill (v : V6) (x y : ℝ) : Function.update (Function.update v 2 x) 2 y = Function.update v 2 y :=
  Function.update_idem ..

theorem firstVel_refill (x y : ℝ) : Function.update (firstVel x) 2 y = firstVel y := Function.update_idem ..

theorem fill_fresh (z : M6) (M : ℝ) (c : V3) (T : M3) :
    Inertia.fill (Inertia.new z) M c T = Inertia.fill (Inertia.new 0) M c T := by
  ext i j
  fin_cases i <;> fin_cases j <;> simp [Inertia.fill, Inertia.new]

/-! ### Coordinate transforms -/

theorem isMotionX_of {X : M6} {E : M3} {o : V3} (hE : IsRot E) (h : X = blk E 0 (-(E * cpm o)) E) : IsMotionX X E o := by
  refine ⟨hE, fun ω v => ?_⟩
  rw [h, blk_mulVec]
  refine join_ext (by simp) ?_
  rw [mulVec_add, cross_anti ω o, ← cpm_mulVec, mulVec_neg, neg_mulVec, mulVec_mulVec]
  abel

/-! ### Inertia parameters -/

theorem pow_pos_two {x : ℝ} (h : x ≠ 0) : 0 < x ^ 2 := by positivity

/-- Thirteen points. -/
def pts : Fin 13 → V3 :=
  ![![0, 0, 0], ![1, 0, 0], ![-1, 0, 0], ![0, 1, 0], ![0, -1, 0], ![0, 0, 1], ![0, 0, -1], ![1, 1, 0], ![-1, -1, 0], ![1, 0, 1],
    ![-1, 0, -1], ![0, 1, 1], ![0, -1, -1]]

/-- Masses, possibly negative, at the thirteen points that have a given mass `M`, first moment `h` and second
moments `a`, `b`, `c`, `d`, `e`, `f`. -/
noncomputable def wts (M : ℝ) (h : V3) (a b c d e f : ℝ) : Fin 13 → ℝ :=
  ![M - (a - d - e) - (b - d - f) - (c - e - f) - d - e - f, (a - d - e + h 0) / 2, (a - d - e - h 0) / 2, (b - d - f + h 1) / 2,
    (b - d - f - h 1) / 2, (c - e - f + h 2) / 2, (c - e - f - h 2) / 2, d / 2, d / 2, e / 2, e / 2, f / 2, f / 2]

/-- Every object that `fill` has written describes a body if its mass is positive. -/
theorem isBody_fill (z : M6) {M : ℝ} (hM : 0 < M) (c : V3) (xx yy zz xy xz yz : ℝ) :
    IsBody (Inertia.fill (Inertia.new z) M c (buildInertiaTensor xx yy zz xy xz yz)) := by
  have hs : ∑ k, wts M (M • c) ((yy + zz - xx) / 2) ((xx + zz - yy) / 2) ((xx + yy - zz) / 2) xy xz yz k = M := by
    simp [Fin.sum_univ_succ, wts]
    ring
  refine ⟨Fin 13, inferInstance, wts M (M • c) ((yy + zz - xx) / 2) ((xx + zz - yy) / 2) ((xx + yy - zz) / 2) xy xz yz, pts, ?_, ?_⟩
  · rw [hs]; exact hM
  · rw [inertia_iff, hs]
    have hm : moment (wts M (M • c) ((yy + zz - xx) / 2) ((xx + zz - yy) / 2) ((xx + yy - zz) / 2) xy xz yz) pts = M • c := by
      funext i
      fin_cases i <;> simp [moment, Fin.sum_univ_succ, wts, pts] <;> ring
    have ht : tens (wts M (M • c) ((yy + zz - xx) / 2) ((xx + zz - yy) / 2) ((xx + yy - zz) / 2) xy xz yz) pts
        = buildInertiaTensor xx yy zz xy xz yz := by
      rw [tens_classical]
      ext i j
      fin_cases i <;> fin_cases j <;> simp [classicalTensor, buildInertiaTensor, Fin.sum_univ_succ, wts, pts] <;> ring
    rw [hm, ht]
    ext i j
    fin_cases i <;> fin_cases j <;> simp [Inertia.fill, Inertia.new, blk, cpm]

/-- A quadratic form in three variables with positive leading minors. -/
theorem quad3 {a b c d e f : ℝ} (h1 : 0 < a) (h2 : 0 < a * b - d * d)
    (h3 : 0 < a * (b * c - f * f) - d * (d * c - f * e) + e * (d * f - b * e)) (x y z : ℝ) (h : x ≠ 0 ∨ y ≠ 0 ∨ z ≠ 0) :
    0 < a * x * x + b * y * y + c * z * z + 2 * d * x * y + 2 * e * x * z + 2 * f * y * z := by
  set q := a * x * x + b * y * y + c * z * z + 2 * d * x * y + 2 * e * x * z + 2 * f * y * z with hq
  set D := a * (b * c - f * f) - d * (d * c - f * e) + e * (d * f - b * e) with hD
  have key : a * (a * b - d * d) * q = (a * b - d * d) * (a * x + d * y + e * z) ^ 2
      + ((a * b - d * d) * y + (a * f - d * e) * z) ^ 2 + a * D * z ^ 2 := by
    rw [hq, hD]; ring
  have hpos : 0 < a * (a * b - d * d) := mul_pos h1 h2
  by_cases hz : z = 0
  · by_cases hy : y = 0
    · have hx : x ≠ 0 := by tauto
      rw [hq, hz, hy]
      have := mul_pos h1 (mul_self_pos.mpr hx)
      nlinarith
    · have h4 : 0 < ((a * b - d * d) * y + (a * f - d * e) * z) ^ 2 := by
        rw [hz, mul_zero, add_zero]
        exact pow_pos_two (mul_ne_zero h2.ne' hy)
      have h5 : 0 ≤ (a * b - d * d) * (a * x + d * y + e * z) ^ 2 := by positivity
      have h6 : 0 ≤ a * D * z ^ 2 := by positivity
      exact (mul_pos_iff_of_pos_left hpos).mp (by linarith)
  · have h4 : 0 < a * D * z ^ 2 := mul_pos (mul_pos h1 h3) (pow_pos_two hz)
    have h5 : 0 ≤ (a * b - d * d) * (a * x + d * y + e * z) ^ 2 := by positivity
    have h6 : 0 ≤ ((a * b - d * d) * y + (a * f - d * e) * z) ^ 2 := by positivity
    exact (mul_pos_iff_of_pos_left hpos).mp (by linarith)

/-- The inertia that `fill` has written is positive definite if the mass is positive and the rotational
inertia about the centre of mass is. -/
theorem pos_fill (z : M6) {M : ℝ} (hM : 0 < M) (c : V3) (xx yy zz xy xz yz : ℝ)
    (h1 : 0 < xx - M * (c 1 * c 1 + c 2 * c 2))
    (h2 : 0 < (xx - M * (c 1 * c 1 + c 2 * c 2)) * (yy - M * (c 0 * c 0 + c 2 * c 2)) - (M * c 0 * c 1 - xy) * (M * c 0 * c 1 - xy))
    (h3 : 0 < (xx - M * (c 1 * c 1 + c 2 * c 2)) * ((yy - M * (c 0 * c 0 + c 2 * c 2)) * (zz - M * (c 0 * c 0 + c 1 * c 1))
          - (M * c 1 * c 2 - yz) * (M * c 1 * c 2 - yz))
        - (M * c 0 * c 1 - xy) * ((M * c 0 * c 1 - xy) * (zz - M * (c 0 * c 0 + c 1 * c 1)) - (M * c 1 * c 2 - yz) * (M * c 0 * c 2 - xz))
        + (M * c 0 * c 2 - xz) * ((M * c 0 * c 1 - xy) * (M * c 1 * c 2 - yz) - (yy - M * (c 0 * c 0 + c 2 * c 2)) * (M * c 0 * c 2 - xz)))
    (u : V6) (hu : u ≠ 0) :
    0 < u ⬝ᵥ (Inertia.fill (Inertia.new z) M c (buildInertiaTensor xx yy zz xy xz yz) *ᵥ u) := by
  have key : u ⬝ᵥ (Inertia.fill (Inertia.new z) M c (buildInertiaTensor xx yy zz xy xz yz) *ᵥ u)
      = M * ((u 3 + u 1 * c 2 - u 2 * c 1) ^ 2 + (u 4 + u 2 * c 0 - u 0 * c 2) ^ 2 + (u 5 + u 0 * c 1 - u 1 * c 0) ^ 2)
        + ((xx - M * (c 1 * c 1 + c 2 * c 2)) * u 0 * u 0 + (yy - M * (c 0 * c 0 + c 2 * c 2)) * u 1 * u 1
          + (zz - M * (c 0 * c 0 + c 1 * c 1)) * u 2 * u 2 + 2 * (M * c 0 * c 1 - xy) * u 0 * u 1
          + 2 * (M * c 0 * c 2 - xz) * u 0 * u 2 + 2 * (M * c 1 * c 2 - yz) * u 1 * u 2) := by
    simp [Matrix.mulVec, dotProduct, Fin.sum_univ_succ, Inertia.fill, Inertia.new, buildInertiaTensor]
    ring
  rw [key]
  by_cases hw : u 0 ≠ 0 ∨ u 1 ≠ 0 ∨ u 2 ≠ 0
  · have := quad3 h1 h2 h3 (u 0) (u 1) (u 2) hw
    have h4 : 0 ≤ M * ((u 3 + u 1 * c 2 - u 2 * c 1) ^ 2 + (u 4 + u 2 * c 0 - u 0 * c 2) ^ 2 + (u 5 + u 0 * c 1 - u 1 * c 0) ^ 2) := by
      positivity
    linarith
  · push Not at hw
    obtain ⟨w0, w1, w2⟩ := hw
    rw [w0, w1, w2]
    have h4 : 0 < u 3 ^ 2 + u 4 ^ 2 + u 5 ^ 2 := by
      have a3 := sq_nonneg (u 3)
      have a4 := sq_nonneg (u 4)
      have a5 := sq_nonneg (u 5)
      rcases (add_nonneg (add_nonneg a3 a4) a5).lt_or_eq with h | h
      · exact h
      · exfalso
        have h3 : u 3 = 0 := pow_eq_zero_iff (two_ne_zero) |>.mp (by linarith)
        have h4 : u 4 = 0 := pow_eq_zero_iff (two_ne_zero) |>.mp (by linarith)
        have h5 : u 5 = 0 := pow_eq_zero_iff (two_ne_zero) |>.mp (by linarith)
        apply hu
        funext i
        fin_cases i <;> assumption
    have h5 := mul_pos hM h4
    simpa using h5

/-! ### Lists and vectors -/

theorem ofFn_vecCons {α : Type} {n : ℕ} (a : α) (v : Fin n → α) : List.ofFn (vecCons a v) = a :: List.ofFn v := by
  rw [List.ofFn_succ]
  simp

theorem ofFn_rows {m n : ℕ} (r : Fin n → ℝ) (M : Fin m → Fin n → ℝ) :
    (List.ofFn fun k => List.ofFn (Matrix.of (vecCons r M) k)) = List.ofFn r :: List.ofFn fun k => List.ofFn (Matrix.of M k) := by
  rw [List.ofFn_succ]
  exact congrArg₂ _ rfl rfl

theorem mem_pairs {brs : List (List Joint)} {xss : List (List ℝ)} {br : List (Joint × ℝ)}
    (h : br ∈ List.zipWith List.zip brs xss) : ∃ js xs, js ∈ brs ∧ br = js.zip xs := by
  obtain ⟨i, hi, rfl⟩ := List.mem_iff_getElem.mp h
  rw [List.getElem_zipWith]
  exact ⟨_, _, List.getElem_mem _, rfl⟩

theorem split_pair {n : ℕ} {s : (Fin n → ℝ) → List (List ℝ)} (hs : ∀ {x y}, s x = s y → x = y) {a b : V6} {x y : Fin n → ℝ} :
    (a, s x) = (b, s y) ↔ (a, x) = (b, y) := by
  simp only [Prod.mk.injEq]
  exact and_congr_right fun _ => ⟨hs, fun h => by rw [h]⟩

theorem blocks_of {n : ℕ} {M : Matrix (Fin 6 ⊕ Fin n) (Fin 6 ⊕ Fin n) ℝ} {A : M6} {F : Matrix (Fin 6) (Fin n) ℝ}
    {H : Matrix (Fin n) (Fin n) ℝ} (h : M = fromBlocks A F Fᵀ H) :
    M = fromBlocks M.toBlocks₁₁ M.toBlocks₁₂ M.toBlocks₁₂ᵀ M.toBlocks₂₂ := by
  subst h
  rw [toBlocks_fromBlocks₁₁, toBlocks_fromBlocks₁₂, toBlocks_fromBlocks₂₂]

theorem foldl_body (junk : M6) : ∀ (brs : List (List Joint)) (A : M6), IsBody A → (∀ br ∈ brs, ∀ j ∈ br, j.Rigid) →
    IsBody (brs.foldl (fun (A : M6) br => match (crba (Inertia.new junk) br).1 with
      | none => A
      | some B => Inertia.addAssign A B) A)
  | [], _, hA, _ => hA
  | br :: brs, A, hA, h => by
    have hb := crba_body junk br (h br List.mem_cons_self)
    have ih := fun B hB => foldl_body junk brs B hB (fun x hx => h x (List.mem_cons_of_mem _ hx))
    rw [List.foldl_cons]
    cases hc : (crba (Inertia.new junk) br).1 with
    | none => exact ih A hA
    | some B => exact ih _ (by show IsBody (Inertia.addAssign A B); rw [addAssign_eq hA (hb B hc)]; exact hA.add (hb B hc))

theorem jsimFloat_symm (junk : M6) {I : M6} (hI : IsBody I) (brs : List (List Joint)) (h : ∀ br ∈ brs, ∀ j ∈ br, j.Rigid) :
    ((jsimFloat (Inertia.new junk) I brs).1)ᵀ = (jsimFloat (Inertia.new junk) I brs).1 :=
  (foldl_body junk brs I hI h).symm

theorem ofFn_inj' {n : ℕ} {f g : Fin n → ℝ} (h : List.ofFn f = List.ofFn g) : f = g := List.ofFn_injective h

theorem ladd_ofFn {n : ℕ} (f g : Fin n → ℝ) : ladd (List.ofFn f) (List.ofFn g) = List.ofFn (f + g) := by
  rw [ladd]
  apply List.ext_getElem <;> simp

theorem ldot_ofFn {n : ℕ} (f g : Fin n → ℝ) : ldot (List.ofFn f) (List.ofFn g) = f ⬝ᵥ g := by
  rw [ldot, dotProduct, ← List.sum_ofFn]
  congr 1
  apply List.ext_getElem <;> simp

theorem map_ofFn_ldot {n m : ℕ} (A : Matrix (Fin m) (Fin n) ℝ) (x : Fin n → ℝ) :
    (List.ofFn fun i => List.ofFn (A i)).map (ldot · (List.ofFn x)) = List.ofFn (A *ᵥ x) := by
  rw [List.map_ofFn]
  congr 1
  funext i
  exact ldot_ofFn _ _

end CT.Robots
