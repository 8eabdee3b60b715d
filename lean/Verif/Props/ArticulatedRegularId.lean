import Verif.Props.ArticulatedFloat

/-!
# Inverse dynamics of a floating base whose inertias need not be positive definite

As in `Verif.Props.ArticulatedFloat`, if the composite inertia of the whole robot is invertible.
-/

namespace CT.Articulated

open Matrix Spatial FrameJac

theorem reg_comp_body : ∀ (ls : List (Joint × ℝ)) (v : V6) (c : Option V6), (∀ e ∈ ls, e.1.Rigid) →
    ∀ s, comp v c ls = some s → IsBody s.1
  | [], _, _, _, s, h => by simp [comp] at h
  | (j, x) :: ls, v, c, hj, s, h => by
    have hg := hj (j, x) List.mem_cons_self
    have ih := reg_comp_body ls (j.vel v) (some (iacc j v c x)) (fun e he => hj e (List.mem_cons_of_mem _ he))
    rw [comp_cons] at h
    simp only [Option.some.injEq] at h
    have hA : IsBody (compA j (comp (j.vel v) (some (iacc j v c x)) ls)) := by
      cases hc : comp (j.vel v) (some (iacc j v c x)) ls with
      | none => exact hg.body
      | some r =>
        rw [compA, assign_eq hg.body (hg.body.add (ih r hc))]
        exact hg.body.add (ih r hc)
    rw [← h]
    exact hA.congr hg.motion

theorem reg_compA_eq {j : Joint} {x : ℝ} {ls : List (Joint × ℝ)} (hj : ∀ e ∈ (j, x) :: ls, e.1.Rigid) (v : V6) (c : Option V6) :
    compA j (comp v c ls) = j.I + cm (comp v c ls) := by
  have hg := hj (j, x) List.mem_cons_self
  have ih := reg_comp_body ls v c (fun e he => hj e (List.mem_cons_of_mem _ he))
  cases hc : comp v c ls with
  | none => simp [compA, cm]
  | some r =>
    rw [compA, assign_eq hg.body (hg.body.add (ih r hc))]
    rfl

theorem reg_comp_rnea : ∀ (ls : List (Joint × ℝ)) (v : V6) (c : Option V6) (ab : V6), (∀ e ∈ ls, e.1.Rigid) →
    cf (rnea v (ov c + ab) ls).1 = cm (comp v c ls) *ᵥ ab + cv (comp v c ls)
    ∧ (rnea v (ov c + ab) ls).2 = compDown v c ab ls
  | [], v, c, ab, _ => by simp [rnea, comp, compDown, cf, cm, cv]
  | (j, x) :: ls, v, c, ab, h => by
    obtain ⟨i1, i2⟩ := reg_comp_rnea ls (j.vel v) (some (iacc j v c x)) (j.X *ᵥ ab) (fun e he => h e (List.mem_cons_of_mem _ he))
    have ha : bump (j.X *ᵥ (ov c + ab) + j.cor v) x = ov (some (iacc j v c x)) + j.X *ᵥ ab := by
      rw [iacc, cacc_eq, ov, bump_eq, bump_eq, mulVec_add]; abel
    have hrn : rnea v (ov c + ab) ((j, x) :: ls)
        = (some (j.Xᵀ *ᵥ addF (j.I *ᵥ bump (j.X *ᵥ (ov c + ab) + j.cor v) x + vxIv (j.vel v) j.I - j.fext)
              (rnea (j.vel v) (bump (j.X *ᵥ (ov c + ab) + j.cor v) x) ls).1),
            addF (j.I *ᵥ bump (j.X *ᵥ (ov c + ab) + j.cor v) x + vxIv (j.vel v) j.I - j.fext)
              (rnea (j.vel v) (bump (j.X *ᵥ (ov c + ab) + j.cor v) x) ls).1 2
              :: (rnea (j.vel v) (bump (j.X *ᵥ (ov c + ab) + j.cor v) x) ls).2) := rfl
    have hf : addF (j.I *ᵥ bump (j.X *ᵥ (ov c + ab) + j.cor v) x + vxIv (j.vel v) j.I - j.fext)
          (rnea (j.vel v) (bump (j.X *ᵥ (ov c + ab) + j.cor v) x) ls).1
        = compA j (comp (j.vel v) (some (iacc j v c x)) ls) *ᵥ (j.X *ᵥ ab)
          + addV (j.I *ᵥ iacc j v c x + vxIv (j.vel v) j.I - j.fext) (comp (j.vel v) (some (iacc j v c x)) ls) := by
      rw [addF_eq, addV_eq, ha, i1, reg_compA_eq h, add_mulVec, mulVec_add, ov]
      abel
    rw [hrn, comp_cons, compDown_cons, hf]
    constructor
    · show j.Xᵀ *ᵥ _ = (j.Xᵀ * _ * j.X) *ᵥ ab + j.Xᵀ *ᵥ _
      rw [mulVec_add, Matrix.mul_assoc, ← mulVec_mulVec, ← mulVec_mulVec]
    · rw [ha, i2]
      rfl

theorem reg_wholeI (v : V6) : ∀ (brs : List (List (Joint × ℝ))) (A : M6), (∀ br ∈ brs, ∀ e ∈ br, e.1.Rigid) → IsBody A →
    brs.foldl (fun (A : M6) br => match comp v none br with
      | none => A
      | some s => Inertia.assign A (A + s.1)) A = A + (brs.map fun br => cm (comp v none br)).sum
  | [], A, _, _ => by simp
  | br :: brs, A, h, hA => by
    have hb := reg_comp_body br v none (h br List.mem_cons_self)
    have hbs : ∀ b ∈ brs, ∀ e ∈ b, e.1.Rigid := fun b hb => h b (List.mem_cons_of_mem _ hb)
    rw [List.foldl_cons, List.map_cons, List.sum_cons, ← add_assoc]
    cases hc : comp v none br with
    | none =>
      simp only [cm, add_zero]
      exact reg_wholeI v brs A hbs hA
    | some s =>
      simp only [cm]
      rw [assign_eq hA (hA.add (hb s hc))]
      exact reg_wholeI v brs (A + s.1) hbs (hA.add (hb s hc))

/-- `id` and `id_fully_actuated` agree if the composite inertia of the robot is invertible. -/
theorem reg_float_id {b : Base} (hb : IsBody b.I) (g acc : V6) (brs : List (List (Joint × ℝ))) (taus : List (List ℝ))
    (h : ∀ br ∈ brs, ∀ e ∈ br, e.1.Rigid) (hdet : IsUnit (b.I + (brs.map fun br => cm (comp b.v none br)).sum).det) :
    idFull b g acc brs = (0, taus) ↔ (acc, taus) = idFloat b g brs := by
  have hw := reg_wholeI b.v brs b.I h hb
  set W := b.I + (brs.map fun br => cm (comp b.v none br)).sum with hW
  set f := vxIv b.v b.I - b.fext + (brs.map fun br => cv (comp b.v none br)).sum with hf
  have hid : idFloat b g brs = (-(W⁻¹ *ᵥ f) + g, brs.map (compDown b.v none (-(W⁻¹ *ᵥ f)))) := by
    rw [← hw, hf, ← foldl_addV' (fun br => comp b.v none br)]
    rfl
  have hr : ∀ br ∈ brs, (rnea b.v (acc - g) br).2 = compDown b.v none (acc - g) br
      ∧ cf (rnea b.v (acc - g) br).1 = cm (comp b.v none br) *ᵥ (acc - g) + cv (comp b.v none br) := by
    intro br hbr
    obtain ⟨h1, h2⟩ := reg_comp_rnea br b.v none (acc - g) (h br hbr)
    rw [ov, zero_add] at h1 h2
    exact ⟨h2, h1⟩
  have hfull : idFull b g acc brs = (W *ᵥ (acc - g) + f, brs.map (compDown b.v none (acc - g))) := by
    show (brs.foldl (fun f br => addF f (rnea b.v (acc - g) br).1) _, _) = _
    rw [foldl_addF]
    refine Prod.ext ?_ (List.map_congr_left fun br hbr => (hr br hbr).1)
    show _ + (brs.map fun br => cf (rnea b.v (acc - g) br).1).sum = _
    rw [List.map_congr_left fun br hbr => (hr br hbr).2, sum_add', ← sum_mulVec', hW, add_mulVec, hf]
    abel
  have hsolve : W *ᵥ (acc - g) + f = 0 ↔ acc - g = -(W⁻¹ *ᵥ f) := by
    constructor
    · intro h0
      have h1 : W *ᵥ (acc - g) = -f := eq_neg_of_add_eq_zero_left h0
      rw [← mulVec_neg, ← h1, mulVec_mulVec, nonsing_inv_mul _ hdet, one_mulVec]
    · intro h0
      rw [h0, mulVec_neg, mulVec_mulVec, mul_nonsing_inv _ hdet, one_mulVec, neg_add_cancel]
  rw [hfull, hid, Prod.mk.injEq, Prod.mk.injEq, hsolve]
  constructor
  · rintro ⟨h1, h2⟩
    exact ⟨by rw [← h1]; abel, by rw [← h1, h2]⟩
  · rintro ⟨h1, h2⟩
    have h3 : acc - g = -(W⁻¹ *ᵥ f) := by rw [h1]; abel
    exact ⟨h3, by rw [h3, h2]⟩

end CT.Articulated
