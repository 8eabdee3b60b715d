import Verif.Props.Articulated

/-!
# Branches of articulated bodies whose inertias need not be positive definite

As in `Verif.Props.Articulated`, for branches in which the forward dynamics divide by no zero.
-/

namespace CT.Articulated

open Matrix Spatial FrameJac

/-- A branch in which forward dynamics work: motion transforms, symmetric inertias, and no articulated inertia is zero about the joint. -/
def Regular (v : V6) : List (Joint × ℝ) → Prop
  | [] => True
  | (j, _) :: ls => (∃ E o, IsMotionX j.X E o) ∧ j.Iᵀ = j.I ∧ j.AI (up (j.vel v) ls) 2 2 ≠ 0 ∧ Regular (j.vel v) ls

theorem reg_lump_fst {j : Joint} (hj : ∃ E o, IsMotionX j.X E o) {A : M6} (hs : Aᵀ = A) (hD : A 2 2 ≠ 0) (p c : V6) (tau : ℝ) :
    (j.lump A p c tau).1 = j.Xᵀ * schur A * j.X := by
  obtain ⟨E, o, hX⟩ := hj
  have h1 : computeIaRevolute A (fun i => A i 2) (A 2 2) 0 = schur A :=
    computeIaRevolute_eq hs hD 0 (fun i => by simp)
  show ctransformIaRevolute (computeIaRevolute A (fun i => A i 2) (A 2 2) 0) j.X = _
  rw [h1]
  refine C122_ctransform_revolute (schur_symm hs) (fun k => ?_) hX
  rw [schur, Matrix.sub_apply, Matrix.smul_apply, vecMulVec_apply, smul_eq_mul, ← mul_assoc,
    inv_mul_cancel₀ hD, one_mul, sub_eq_zero]
  exact congrFun (congrFun hs k) 2

theorem reg_lump_snd (j : Joint) {A : M6} (hs : Aᵀ = A) (hD : A 2 2 ≠ 0) (p c : V6) (tau : ℝ) :
    (j.lump A p c tau).2
      = j.Xᵀ *ᵥ (p + schur A *ᵥ c + (((A 2 2)⁻¹ * (tau - p 2)) • fun i => A i 2)) := by
  have h1 : computeIaRevolute A (fun i => A i 2) (A 2 2) 0 = schur A :=
    computeIaRevolute_eq hs hD 0 (fun i => by simp)
  show j.Xᵀ *ᵥ (p + computeIaRevolute A (fun i => A i 2) (A 2 2) 0 *ᵥ c + _) = _
  rw [h1]
  congr 2
  funext i
  simp only [Pi.smul_apply, smul_eq_mul]
  rw [div_eq_mul_inv]
  ring

theorem reg_AI_symm {j : Joint} (hj : j.Iᵀ = j.I) {o : Option (M6 × V6)} (h : (cm o)ᵀ = cm o) : (j.AI o)ᵀ = j.AI o := by
  rw [Joint.AI, addM_eq, transpose_add, hj, h]

theorem reg_up_symm : ∀ (ls : List (Joint × ℝ)) (v : V6), Regular v ls → (cm (up v ls))ᵀ = cm (up v ls)
  | [], _, _ => by simp [up, cm]
  | (j, tau) :: ls, v, ⟨h1, h2, h3, h4⟩ => by
    have hA := reg_AI_symm h2 (reg_up_symm ls (j.vel v) h4)
    show ((j.lump _ _ _ _).1)ᵀ = (j.lump _ _ _ _).1
    rw [reg_lump_fst h1 hA h3, transpose_mul, transpose_mul, transpose_transpose, schur_symm hA, Matrix.mul_assoc]

theorem reg_link_force {A : M6} (hs : Aᵀ = A) (hD : A 2 2 ≠ 0) (p a : V6) (tau x : ℝ) :
    ((A *ᵥ (a + x • axisZ) + p) 2 = tau ↔ x = accel A p a tau)
    ∧ (x = accel A p a tau → A *ᵥ (a + x • axisZ) + p
        = schur A *ᵥ a + p + ((A 2 2)⁻¹ * (tau - p 2)) • fun i => A i 2) := by
  constructor
  · rw [Pi.add_apply, sym_row hs, dotProduct_add, dotProduct_smul, dotProduct_comm _ axisZ, axis_dot,
      show accel A p a tau = (tau - p 2 - (fun i => A i 2) ⬝ᵥ a) / A 2 2 from rfl, eq_div_iff hD, smul_eq_mul]
    constructor <;> intro h <;> linarith
  · intro hx
    rw [schur_mulVec, mulVec_add, mulVec_smul, axis_col, hx,
      show accel A p a tau = (tau - p 2 - (fun i => A i 2) ⬝ᵥ a) / A 2 2 from rfl, div_eq_mul_inv]
    funext i
    simp only [Pi.add_apply, Pi.smul_apply, Pi.sub_apply, smul_eq_mul]
    ring

theorem reg_chain : ∀ (ls : List (Joint × ℝ)) (v a : V6) (qdds : List ℝ), Regular v ls → qdds.length = ls.length →
    ((rnea v a ((ls.map Prod.fst).zip qdds)).2 = ls.map Prod.snd ↔ qdds = down v a ls)
    ∧ (qdds = down v a ls →
        cf (rnea v a ((ls.map Prod.fst).zip qdds)).1 = cm (up v ls) *ᵥ a + cv (up v ls))
  | [], v, a, qdds, _, hl => by
    have : qdds = [] := List.length_eq_zero_iff.mp hl
    subst this
    simp [rnea, down, up, cf, cm, cv]
  | (j, tau) :: ls, v, a, [], _, hl => by simp at hl
  | (j, tau) :: ls, v, a, x :: xs, ⟨g1, g2, g3, g4⟩, hl => by
    have hl' : xs.length = ls.length := by simpa using hl
    set w := j.vel v with hw
    set a1 := j.X *ᵥ a + j.cor v with ha1
    set r := up w ls with hr
    have hA : (j.AI r)ᵀ = j.AI r := reg_AI_symm g2 (reg_up_symm ls w g4)
    obtain ⟨ih1, ih2⟩ := reg_chain ls w (bump a1 x) xs g4 hl'
    set q := rnea w (bump a1 x) ((ls.map Prod.fst).zip xs) with hq
    have hrn : rnea v a ((((j, tau) :: ls).map Prod.fst).zip (x :: xs))
        = (some (j.Xᵀ *ᵥ addF (j.I *ᵥ bump a1 x + vxIv w j.I - j.fext) q.1),
            addF (j.I *ᵥ bump a1 x + vxIv w j.I - j.fext) q.1 2 :: q.2) := rfl
    have hdn : down v a ((j, tau) :: ls)
        = accel (j.AI r) (j.p v r) a1 tau :: down w (bump a1 (accel (j.AI r) (j.p v r) a1 tau)) ls := rfl
    have hup : up v ((j, tau) :: ls) = some (j.lump (j.AI r) (j.p v r) (j.cor v) tau) := rfl
    have hforce : xs = down w (bump a1 x) ls → addF (j.I *ᵥ bump a1 x + vxIv w j.I - j.fext) q.1
        = j.AI r *ᵥ (a1 + x • axisZ) + j.p v r := by
      intro hx
      rw [addF_eq, ih2 hx, Joint.AI, addM_eq, Joint.p, addV_eq, bump_eq, add_mulVec, ← hw]
      abel
    rw [hrn, hdn, hup]
    obtain ⟨lf1, lf2⟩ := reg_link_force hA g3 (j.p v r) a1 tau x
    constructor
    · simp only [List.map_cons, List.cons.injEq]
      constructor
      · rintro ⟨h1, h2⟩
        have hx := ih1.mp h2
        rw [hforce hx] at h1
        have := lf1.mp h1
        exact ⟨this, by rw [← this]; exact hx⟩
      · rintro ⟨h1, h2⟩
        rw [← h1] at h2
        exact ⟨by rw [hforce h2]; exact lf1.mpr h1, ih1.mpr h2⟩
    · intro hh
      simp only [List.cons.injEq] at hh
      obtain ⟨h1, h2⟩ := hh
      rw [← h1] at h2
      show j.Xᵀ *ᵥ addF (j.I *ᵥ bump a1 x + vxIv w j.I - j.fext) q.1
        = (j.lump _ _ _ _).1 *ᵥ a + (j.lump _ _ _ _).2
      rw [hforce h2, lf2 h1, reg_lump_fst g1 hA g3, reg_lump_snd j hA g3, ha1, Matrix.mul_assoc, ← mulVec_mulVec,
        ← mulVec_mulVec, ← mulVec_add]
      congr 1
      rw [mulVec_add]
      abel

theorem reg_branches (v a : V6) : ∀ (brs : List (List (Joint × ℝ))) (qdds : List (List ℝ)),
    (∀ br ∈ brs, Regular v br) → qdds.map List.length = brs.map List.length →
    (((withJoints brs qdds).map fun br => (rnea v a br).2) = brs.map (List.map Prod.snd)
        ↔ qdds = brs.map (down v a))
    ∧ (qdds = brs.map (down v a) → ((withJoints brs qdds).map fun br => cf (rnea v a br).1).sum
        = (brs.map fun br => cm (up v br)).sum *ᵥ a + (brs.map fun br => cv (up v br)).sum)
  | [], [], _, _ => by simp [withJoints]
  | [], _ :: _, _, hl => by simp at hl
  | _ :: _, [], _, hl => by simp at hl
  | br :: brs, x :: xs, h, hl => by
    simp only [List.map_cons, List.cons.injEq] at hl
    obtain ⟨c1, c2⟩ := reg_chain br v a x (h br List.mem_cons_self) hl.1
    obtain ⟨i1, i2⟩ := reg_branches v a brs xs (fun b hb => h b (List.mem_cons_of_mem _ hb)) hl.2
    have hz : withJoints (br :: brs) (x :: xs) = ((br.map Prod.fst).zip x) :: withJoints brs xs := rfl
    rw [hz]
    constructor
    · simp only [List.map_cons, List.cons.injEq]
      rw [c1, i1]
    · intro hh
      simp only [List.map_cons, List.cons.injEq] at hh
      simp only [List.map_cons, List.sum_cons]
      rw [c2 hh.1, i2 hh.2, add_mulVec]
      abel

/-- The forces of the inverse dynamics at the joint accelerations that the forward dynamics choose for an acceleration of the base. -/
theorem reg_idFull (b : Base) (g acc : V6) (brs : List (List (Joint × ℝ))) (h : ∀ br ∈ brs, Regular b.v br) :
    idFull b g acc (withJoints brs (brs.map (down b.v (acc - g))))
      = (b.AI brs *ᵥ (acc - g) + b.p brs, brs.map (List.map Prod.snd)) := by
  have hl : (brs.map (down b.v (acc - g))).map List.length = brs.map List.length := by
    simp [Function.comp_def, down_length]
  obtain ⟨b1, b2⟩ := reg_branches b.v (acc - g) brs _ h hl
  refine Prod.ext ?_ (b1.2 rfl)
  show (withJoints brs _).foldl (fun f br => addF f (rnea b.v (acc - g) br).1) _ = _
  rw [foldl_addF, b2 rfl, Base.AI, foldl_addM, Base.p, foldl_addV, add_mulVec]
  abel_nf

theorem reg_float {b : Base} (g acc : V6) (brs : List (List (Joint × ℝ))) (qdds : List (List ℝ))
    (h : ∀ br ∈ brs, Regular b.v br) (hdet : IsUnit (b.AI brs).det) (hl : qdds.map List.length = brs.map List.length) :
    idFull b g acc (withJoints brs qdds) = (0, brs.map (List.map Prod.snd)) ↔ (acc, qdds) = fdFloat b g brs := by
  obtain ⟨b1, -⟩ := reg_branches b.v (acc - g) brs qdds h hl
  have hsolve : b.AI brs *ᵥ (acc - g) + b.p brs = 0 ↔ acc - g = -((b.AI brs)⁻¹ *ᵥ b.p brs) := by
    constructor
    · intro h0
      have h1 : b.AI brs *ᵥ (acc - g) = -b.p brs := eq_neg_of_add_eq_zero_left h0
      rw [← mulVec_neg, ← h1, mulVec_mulVec, nonsing_inv_mul _ hdet, one_mulVec]
    · intro h0
      rw [h0, mulVec_neg, mulVec_mulVec, mul_nonsing_inv _ hdet, one_mulVec, neg_add_cancel]
  have hfd : fdFloat b g brs = (-((b.AI brs)⁻¹ *ᵥ b.p brs) + g, brs.map (down b.v (-((b.AI brs)⁻¹ *ᵥ b.p brs)))) := rfl
  constructor
  · intro h0
    have h2 : qdds = brs.map (down b.v (acc - g)) := b1.1 (congrArg Prod.snd h0)
    subst h2
    rw [reg_idFull b g acc brs h] at h0
    have h3 := hsolve.1 (congrArg Prod.fst h0)
    rw [hfd, ← h3]
    simp
  · intro h0
    rw [hfd, Prod.mk.injEq] at h0
    have h3 : acc - g = -((b.AI brs)⁻¹ *ᵥ b.p brs) := by rw [h0.1]; abel
    have h2 : qdds = brs.map (down b.v (acc - g)) := by rw [h3]; exact h0.2
    subst h2
    rw [reg_idFull b g acc brs h, hsolve.2 h3]

end CT.Articulated
