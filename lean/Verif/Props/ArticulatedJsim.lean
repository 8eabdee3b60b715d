import Verif.Props.ArticulatedFloat

/-!
# Joint space inertia matrix of a floating base
-/

namespace CT.Articulated

open Matrix Spatial FrameJac

/-- Combination of the columns of all branches. -/
def fsum (Fs : List (List V6)) (xss : List (List ℝ)) : V6 := (List.zipWith lsum Fs xss).sum

/-- The joint forces of a branch when the base accelerates with `a`. -/
def rows (Fs : List V6) (H : List (List ℝ)) (a : V6) (xs : List ℝ) : List ℝ :=
  ladd (Fs.map (· ⬝ᵥ a)) (H.map (ldot · xs))

theorem foldl_comp (junk : M6) : ∀ (brs : List (List Joint)) (A : M6), IsBody A → (∀ br ∈ brs, ∀ j ∈ br, j.Rigid) →
    brs.foldl (fun (A : M6) br => match (crba (Inertia.new junk) br).1 with
      | none => A
      | some B => Inertia.addAssign A B) A
    = A + (brs.map fun br => cI (crba (Inertia.new junk) br).1).sum
  | [], A, _, _ => by simp
  | br :: brs, A, hA, h => by
    have hb := crba_body junk br (h br List.mem_cons_self)
    have ih := fun B hB => foldl_comp junk brs B hB (fun x hx => h x (List.mem_cons_of_mem _ hx))
    rw [List.foldl_cons]
    cases hc : (crba (Inertia.new junk) br).1 with
    | none =>
      simp only []
      rw [ih A hA]
      simp [hc, cI]
    | some B =>
      simp only []
      rw [addAssign_eq hA (hb B hc), ih _ (hA.add (hb B hc))]
      simp only [List.map_cons, List.sum_cons, hc, cI]
      abel

theorem foldl_addF' {α : Type} (g : α → Option V6) : ∀ (brs : List α) (p : V6),
    brs.foldl (fun p br => addF p (g br)) p = p + (brs.map fun br => cf (g br)).sum
  | [], A => by simp
  | br :: brs, A => by rw [List.foldl_cons, foldl_addF' g brs, addF_eq, List.map_cons, List.sum_cons, add_assoc]

theorem sum_zip (v a : V6) (junk : M6) (z : M6) (hz : z = Inertia.new junk) : ∀ (brs : List (List Joint)) (xss : List (List ℝ)),
    (∀ br ∈ brs, ∀ j ∈ br, j.Rigid) → (∀ br ∈ brs, ∀ j ∈ br, j.fext = 0) → xss.map List.length = brs.map List.length →
    ((List.zipWith List.zip brs xss).map fun br => cf (rnea v a br).1).sum
      = (brs.map fun br => cf (cterms v none br).1).sum + (brs.map fun br => cI (crba z br).1).sum *ᵥ a
        + fsum (brs.map fun br => (crba z br).2.1) xss
  | [], [], _, _, _ => by simp [fsum]
  | [], _ :: _, _, _, hl => by simp at hl
  | _ :: _, [], _, _, hl => by simp at hl
  | br :: brs, xs :: xss, h, h0, hl => by
    have hl1 : xs.length = br.length := by simp at hl; exact hl.1
    have hl2 : xss.map List.length = brs.map List.length := by simp at hl; simpa using hl.2
    have ih := sum_zip v a junk z hz brs xss (fun x hx => h x (List.mem_cons_of_mem _ hx))
      (fun x hx => h0 x (List.mem_cons_of_mem _ hx)) hl2
    obtain ⟨-, s2⟩ := rnea_split br v a none xs (h0 br List.mem_cons_self) hl1
    rw [ov, zero_add] at s2
    obtain ⟨i1, -⟩ := inert_crba junk br a xs (h br List.mem_cons_self) hl1
    rw [fsum] at ih
    simp only [List.zipWith_cons_cons, List.map_cons, List.sum_cons, fsum]
    rw [ih, s2, i1, add_mulVec, hz]
    abel

theorem branch_terms (junk : M6) (br : List Joint) (v g acc : V6) (xs : List ℝ) (h : ∀ j ∈ br, j.Rigid) (h0 : ∀ j ∈ br, j.fext = 0)
    (hl : xs.length = br.length) :
    (rnea v (acc - g) (br.zip xs)).2 = ladd (ladd (rows (crba (Inertia.new junk) br).2.1 (crba (Inertia.new junk) br).2.2 acc xs)
      (cterms v none br).2) (gterms (-g) br).2 := by
  obtain ⟨s1, -⟩ := rnea_split br v (acc - g) none xs h0 hl
  rw [ov, zero_add] at s1
  obtain ⟨-, i2⟩ := inert_crba junk br (acc - g) xs h hl
  obtain ⟨g1, -⟩ := gterms_crba junk br (-g) h
  rw [s1, i2, g1, rows, sub_eq_add_neg]
  have hs : ∀ Fs : List V6, Fs.map (· ⬝ᵥ (acc + -g)) = ladd (Fs.map (· ⬝ᵥ acc)) (Fs.map (· ⬝ᵥ (-g))) := by
    intro Fs
    induction Fs with
    | nil => simp [ladd]
    | cons F Fs ih =>
      simp only [ladd] at ih ⊢
      rw [List.map_cons, ih, dotProduct_add]
      rfl
  rw [hs]
  generalize (crba (Inertia.new junk) br).2.1.map (· ⬝ᵥ acc) = A
  generalize (crba (Inertia.new junk) br).2.1.map (· ⬝ᵥ (-g)) = B
  generalize (crba (Inertia.new junk) br).2.2.map (ldot · xs) = H
  generalize (cterms v none br).2 = C
  rw [ladd_comm C, ladd_assoc, ladd_assoc, ladd_assoc, ladd_assoc, ← ladd_assoc B, ladd_comm (ladd B H), ladd_comm B H, ← ladd_assoc C,
    ladd_comm C H, ladd_assoc]

/-- Inverse dynamics of a floating base is the sum of inertia, velocity and gravity terms. -/
theorem float_terms (junk : M6) {b : Base} (hb : IsBody b.I) (hb0 : b.fext = 0) (g acc : V6) (brs : List (List Joint))
    (xss : List (List ℝ)) (h : ∀ br ∈ brs, ∀ j ∈ br, j.Rigid) (h0 : ∀ br ∈ brs, ∀ j ∈ br, j.fext = 0)
    (hl : xss.map List.length = brs.map List.length) :
    (idFull b g acc (List.zipWith List.zip brs xss)).1
      = (jsimFloat (Inertia.new junk) b.I brs).1 *ᵥ acc + fsum (jsimFloat (Inertia.new junk) b.I brs).2.1 xss
        + (cFull b brs).1 + (gFull b g brs).1
    ∧ (idFull b g acc (List.zipWith List.zip brs xss)).2
      = List.zipWith ladd (List.zipWith ladd
          (List.zipWith (fun (FH : List V6 × List (List ℝ)) xs => rows FH.1 FH.2 acc xs)
            ((jsimFloat (Inertia.new junk) b.I brs).2.1.zip (jsimFloat (Inertia.new junk) b.I brs).2.2) xss)
          (cFull b brs).2) (gFull b g brs).2 := by
  constructor
  · have h1 : (idFull b g acc (List.zipWith List.zip brs xss)).1
        = (List.zipWith List.zip brs xss).foldl (fun f br => addF f (rnea b.v (acc - g) br).1)
          (b.I *ᵥ (acc - g) + vxIv b.v b.I - b.fext) := rfl
    have h2 : (cFull b brs).1 = brs.foldl (fun f br => addF f (cterms b.v none br).1) (vxIv b.v b.I) := rfl
    have h3 : (gFull b g brs).1 = brs.foldl (fun f br => addF f (gterms (-g) br).1) (b.I *ᵥ (-g)) := rfl
    have h4 : (jsimFloat (Inertia.new junk) b.I brs).1 = brs.foldl (fun (A : M6) br => match (crba (Inertia.new junk) br).1 with
      | none => A
      | some B => Inertia.addAssign A B) b.I := rfl
    have h5 : (jsimFloat (Inertia.new junk) b.I brs).2.1 = brs.map fun br => (crba (Inertia.new junk) br).2.1 := rfl
    have h6 : (brs.map fun br => cf (gterms (-g) br).1).sum = (brs.map fun br => cI (crba (Inertia.new junk) br).1).sum *ᵥ (-g) := by
      rw [sum_mulVec']
      congr 1
      apply List.map_congr_left
      intro br hbr
      exact (gterms_crba junk br (-g) (h br hbr)).2
    rw [h1, h2, h3, h4, h5, foldl_addF', foldl_addF', foldl_addF', foldl_comp junk brs _ hb h,
      sum_zip b.v (acc - g) junk _ rfl brs xss h h0 hl, h6, hb0, sub_eq_add_neg acc g]
    simp only [mulVec_add, add_mulVec, sub_zero]
    abel
  · have h1 : (idFull b g acc (List.zipWith List.zip brs xss)).2
        = (List.zipWith List.zip brs xss).map fun br => (rnea b.v (acc - g) br).2 := rfl
    have h2 : (cFull b brs).2 = brs.map fun br => (cterms b.v none br).2 := rfl
    have h3 : (gFull b g brs).2 = brs.map fun br => (gterms (-g) br).2 := rfl
    have h5 : (jsimFloat (Inertia.new junk) b.I brs).2.1.zip (jsimFloat (Inertia.new junk) b.I brs).2.2
        = brs.map fun br => (crba (Inertia.new junk) br).2 := by
      simp only [jsimFloat, List.zip_map']
    rw [h1, h2, h3, h5]
    clear h1 h2 h3 h5
    induction brs generalizing xss with
    | nil => simp
    | cons br brs ih =>
      cases xss with
      | nil => simp
      | cons xs xss =>
        have hl1 : xs.length = br.length := by simp at hl; exact hl.1
        have hl2 : xss.map List.length = brs.map List.length := by simp at hl; simpa using hl.2
        have ih' := ih xss (fun x hx => h x (List.mem_cons_of_mem _ hx)) (fun x hx => h0 x (List.mem_cons_of_mem _ hx)) hl2
        simp only [List.zipWith_cons_cons, List.map_cons, List.cons.injEq]
        exact ⟨branch_terms junk br b.v g acc xs (h br List.mem_cons_self) (h0 br List.mem_cons_self) hl1, ih'⟩

/-- The power of the inertia forces of a floating base is positive. -/
theorem float_pos (junk : M6) {I : M6} (hI : IsBody I) (hp : ∀ u : V6, u ≠ 0 → 0 < u ⬝ᵥ (I *ᵥ u)) (a : V6) (brs : List (List Joint))
    (xss : List (List ℝ)) (h : ∀ br ∈ brs, ∀ j ∈ br, j.Rigid) (hok : ∀ br ∈ brs, ∀ j ∈ br, j.Ok)
    (hl : xss.map List.length = brs.map List.length) (hx : a ≠ 0 ∨ ∃ xs ∈ xss, ∃ x ∈ xs, x ≠ 0) :
    0 < a ⬝ᵥ ((jsimFloat (Inertia.new junk) I brs).1 *ᵥ a + fsum (jsimFloat (Inertia.new junk) I brs).2.1 xss)
      + (List.zipWith ldot xss (List.zipWith (fun (FH : List V6 × List (List ℝ)) xs => rows FH.1 FH.2 a xs)
            ((jsimFloat (Inertia.new junk) I brs).2.1.zip (jsimFloat (Inertia.new junk) I brs).2.2) xss)).sum := by
  have h4 : (jsimFloat (Inertia.new junk) I brs).1 = brs.foldl (fun (A : M6) br => match (crba (Inertia.new junk) br).1 with
      | none => A
      | some B => Inertia.addAssign A B) I := rfl
  have h2 : (jsimFloat (Inertia.new junk) I brs).2.1 = brs.map fun br => (crba (Inertia.new junk) br).2.1 := rfl
  have h5 : (jsimFloat (Inertia.new junk) I brs).2.1.zip (jsimFloat (Inertia.new junk) I brs).2.2
      = brs.map fun br => (crba (Inertia.new junk) br).2 := by
    simp only [jsimFloat, List.zip_map']
  rw [h5, h2, h4, foldl_comp junk brs _ hI h]
  -- the contribution of the branches
  have key : ∀ (brs : List (List Joint)) (xss : List (List ℝ)), (∀ br ∈ brs, ∀ j ∈ br, j.Rigid) → (∀ br ∈ brs, ∀ j ∈ br, j.Ok) →
      xss.map List.length = brs.map List.length →
      a ⬝ᵥ ((brs.map fun br => cI (crba (Inertia.new junk) br).1).sum *ᵥ a + fsum (brs.map fun br => (crba (Inertia.new junk) br).2.1) xss)
        + (List.zipWith ldot xss (List.zipWith (fun (FH : List V6 × List (List ℝ)) xs => rows FH.1 FH.2 a xs)
            (brs.map fun br => (crba (Inertia.new junk) br).2) xss)).sum
      = (List.zipWith (fun br xs => a ⬝ᵥ (inert a (br.zip xs)).1 + ldot xs (inert a (br.zip xs)).2) brs xss).sum := by
    intro brs
    induction brs with
    | nil => intro xss _ _ hl; cases xss <;> simp [fsum] at hl ⊢
    | cons br brs ih =>
      intro xss h hok hl
      cases xss with
      | nil => simp at hl
      | cons xs xss =>
        have hl1 : xs.length = br.length := by simp at hl; exact hl.1
        have hl2 : xss.map List.length = brs.map List.length := by simp at hl; simpa using hl.2
        have ih' := ih xss (fun x hx => h x (List.mem_cons_of_mem _ hx)) (fun x hx => hok x (List.mem_cons_of_mem _ hx)) hl2
        obtain ⟨i1, i2⟩ := inert_crba junk br a xs (h br List.mem_cons_self) hl1
        simp only [fsum] at ih'
        simp only [List.zipWith_cons_cons, List.map_cons, List.sum_cons, fsum]
        rw [← ih', i1, i2, rows, add_mulVec]
        simp only [dotProduct_add]
        ring
  have hsplit : ∀ (A B : M6) (F : V6), a ⬝ᵥ ((A + B) *ᵥ a + F) = a ⬝ᵥ (A *ᵥ a) + a ⬝ᵥ (B *ᵥ a + F) := by
    intro A B F
    rw [add_mulVec, dotProduct_add, dotProduct_add, dotProduct_add]; ring
  rw [hsplit, add_assoc, key brs xss h hok hl]
  have hnn : ∀ (brs : List (List Joint)) (xss : List (List ℝ)), (∀ br ∈ brs, ∀ j ∈ br, j.Ok) →
      xss.map List.length = brs.map List.length →
      0 ≤ (List.zipWith (fun br xs => a ⬝ᵥ (inert a (br.zip xs)).1 + ldot xs (inert a (br.zip xs)).2) brs xss).sum := by
    intro brs
    induction brs with
    | nil => intro xss _ _; simp
    | cons br brs ih =>
      intro xss hok hl
      cases xss with
      | nil => simp
      | cons xs xss =>
        have hl1 : xs.length = br.length := by simp at hl; exact hl.1
        have hl2 : xss.map List.length = brs.map List.length := by simp at hl; simpa using hl.2
        simp only [List.zipWith_cons_cons, List.sum_cons]
        exact add_nonneg (inert_power br a xs (hok br List.mem_cons_self) hl1)
          (ih xss (fun x hx => hok x (List.mem_cons_of_mem _ hx)) hl2)
  by_cases ha : a = 0
  · subst ha
    replace hx : ∃ xs ∈ xss, ∃ x ∈ xs, x ≠ 0 := by simpa using hx
    simp only [mulVec_zero, dotProduct_zero, zero_add]
    clear key hsplit h4 h2 h5 h
    induction brs generalizing xss with
    | nil => cases xss <;> simp at hl hx
    | cons br brs ih =>
      cases xss with
      | nil => simp at hl
      | cons xs xss =>
        have hl1 : xs.length = br.length := by simp at hl; exact hl.1
        have hl2 : xss.map List.length = brs.map List.length := by simp at hl; simpa using hl.2
        have hok' : ∀ x ∈ brs, ∀ j ∈ x, j.Ok := fun x hx => hok x (List.mem_cons_of_mem _ hx)
        simp only [List.zipWith_cons_cons, List.sum_cons]
        obtain ⟨ys, hys, x, hx1, hx2⟩ := hx
        rcases List.mem_cons.mp hys with rfl | hys
        · have := inert_power_pos br ys (hok br List.mem_cons_self) hl1 ⟨x, hx1, hx2⟩
          have := hnn brs xss hok' hl2
          simp only [zero_dotProduct, zero_add] at this ⊢
          linarith
        · have h1 := inert_power br 0 xs (hok br List.mem_cons_self) hl1
          have h2 := ih xss hok' hl2 ⟨ys, hys, x, hx1, hx2⟩
          linarith
  · have h1 := hp a ha
    have h2 := hnn brs xss hok hl
    linarith

end CT.Articulated
