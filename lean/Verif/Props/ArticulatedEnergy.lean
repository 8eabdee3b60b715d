import Verif.Props.ArticulatedJsim

/-!
# The joint space inertia matrix and the kinetic energy
-/

namespace CT.Articulated

open Matrix Spatial FrameJac

/-- Twice the kinetic energy of the links of a branch when its parent has the velocity `v` and the joints
move with the given rates: the velocity of a link is the one of its parent, seen from the link, plus the
rotation about the joint axis; a link with spatial inertia `I` and velocity `u` has the energy `u · I u / 2`. -/
noncomputable def energy (v : V6) : List (Joint × ℝ) → ℝ
  | [] => 0
  | (j, x) :: ls => (j.X *ᵥ v + x • axisZ) ⬝ᵥ (j.I *ᵥ (j.X *ᵥ v + x • axisZ)) + energy (j.X *ᵥ v + x • axisZ) ls

theorem inert_energy : ∀ (js : List Joint) (a : V6) (xs : List ℝ), xs.length = js.length →
    a ⬝ᵥ (inert a (js.zip xs)).1 + ldot xs (inert a (js.zip xs)).2 = energy a (js.zip xs)
  | [], a, [], _ => by simp [inert, ldot, energy]
  | [], _, _ :: _, hl => by simp at hl
  | _ :: _, _, [], hl => by simp at hl
  | j :: js, a, x :: xs, hl => by
    have hl' : xs.length = js.length := by simpa using hl
    have ih := inert_energy js (j.X *ᵥ a + x • axisZ) xs hl'
    have he : energy a ((j :: js).zip (x :: xs)) = (j.X *ᵥ a + x • axisZ) ⬝ᵥ (j.I *ᵥ (j.X *ᵥ a + x • axisZ))
        + energy (j.X *ᵥ a + x • axisZ) (js.zip xs) := rfl
    rw [he, ← ih]
    set a1 := j.X *ᵥ a + x • axisZ with ha1
    set r := inert a1 (js.zip xs) with hr
    have hi : inert a ((j :: js).zip (x :: xs)) = (j.Xᵀ *ᵥ (j.I *ᵥ a1 + r.1), (j.I *ᵥ a1 + r.1) 2 :: r.2) := rfl
    rw [hi]
    show a ⬝ᵥ (j.Xᵀ *ᵥ (j.I *ᵥ a1 + r.1)) + ldot (x :: xs) ((j.I *ᵥ a1 + r.1) 2 :: r.2) = _
    rw [Matrix.dotProduct_mulVec, vecMul_transpose]
    have hc : ldot (x :: xs) ((j.I *ᵥ a1 + r.1) 2 :: r.2) = x * (j.I *ᵥ a1 + r.1) 2 + ldot xs r.2 := by simp [ldot]
    rw [hc, ← axis_dot (j.I *ᵥ a1 + r.1), ← smul_eq_mul, ← smul_dotProduct, ← add_assoc, ← add_dotProduct, ← ha1, dotProduct_add]
    ring

/-- The quadratic form of the joint space inertia matrix is twice the kinetic energy; fixed base. -/
theorem fixed_energy (junk : M6) (js : List Joint) (xs : List ℝ) (h : ∀ j ∈ js, j.Rigid) (hl : xs.length = js.length) :
    ldot xs ((jsimFixed (Inertia.new junk) js).map (ldot · xs)) = energy 0 (js.zip xs) := by
  have h1 := inert_energy js 0 xs hl
  rw [(inert_crba junk js 0 xs h hl).2, zero_dotProduct, zero_add] at h1
  have hlen := crba_lengths (Inertia.new junk) js
  have : (crba (Inertia.new junk) js).2.1.map (· ⬝ᵥ (0 : V6)) = List.replicate js.length 0 := by
    rw [List.eq_replicate_iff]
    refine ⟨by rw [List.length_map, hlen.1], fun b hb => ?_⟩
    obtain ⟨row, -, rfl⟩ := List.mem_map.mp hb
    simp
  rw [this, ladd_comm, ladd_zeros _ _ (by rw [List.length_map, hlen.2])] at h1
  exact h1

/-- The quadratic form of the joint space inertia matrix is twice the kinetic energy; floating base. -/
theorem float_energy (junk : M6) {I : M6} (hI : IsBody I) (a : V6) (brs : List (List Joint))
    (xss : List (List ℝ)) (h : ∀ br ∈ brs, ∀ j ∈ br, j.Rigid) (hl : xss.map List.length = brs.map List.length) :
    a ⬝ᵥ ((jsimFloat (Inertia.new junk) I brs).1 *ᵥ a + fsum (jsimFloat (Inertia.new junk) I brs).2.1 xss)
      + (List.zipWith ldot xss (List.zipWith (fun (FH : List V6 × List (List ℝ)) xs => rows FH.1 FH.2 a xs)
            ((jsimFloat (Inertia.new junk) I brs).2.1.zip (jsimFloat (Inertia.new junk) I brs).2.2) xss)).sum
      = a ⬝ᵥ (I *ᵥ a) + ((List.zipWith List.zip brs xss).map (energy a)).sum := by
  have h4 : (jsimFloat (Inertia.new junk) I brs).1 = I + (brs.map fun br => cI (crba (Inertia.new junk) br).1).sum :=
    foldl_comp junk brs I hI h
  have h2 : (jsimFloat (Inertia.new junk) I brs).2.1 = brs.map fun br => (crba (Inertia.new junk) br).2.1 := rfl
  have h5 : (jsimFloat (Inertia.new junk) I brs).2.1.zip (jsimFloat (Inertia.new junk) I brs).2.2
      = brs.map fun br => (crba (Inertia.new junk) br).2 := by
    simp only [jsimFloat, List.zip_map']
  rw [h5, h4, h2]
  have key : ∀ (brs : List (List Joint)) (xss : List (List ℝ)), (∀ br ∈ brs, ∀ j ∈ br, j.Rigid) →
      xss.map List.length = brs.map List.length →
      a ⬝ᵥ ((brs.map fun br => cI (crba (Inertia.new junk) br).1).sum *ᵥ a + fsum (brs.map fun br => (crba (Inertia.new junk) br).2.1) xss)
        + (List.zipWith ldot xss (List.zipWith (fun (FH : List V6 × List (List ℝ)) xs => rows FH.1 FH.2 a xs)
            (brs.map fun br => (crba (Inertia.new junk) br).2) xss)).sum
      = ((List.zipWith List.zip brs xss).map (energy a)).sum := by
    intro brs
    induction brs with
    | nil => intro xss _ hl; cases xss <;> simp [fsum] at hl ⊢
    | cons br brs ih =>
      intro xss h hl
      cases xss with
      | nil => simp at hl
      | cons xs xss =>
        have hl1 : xs.length = br.length := by simp at hl; exact hl.1
        have hl2 : xss.map List.length = brs.map List.length := by simp at hl; simpa using hl.2
        have ih' := ih xss (fun x hx => h x (List.mem_cons_of_mem _ hx)) hl2
        obtain ⟨i1, i2⟩ := inert_crba junk br a xs (h br List.mem_cons_self) hl1
        have ie := inert_energy br a xs hl1
        simp only [fsum] at ih'
        simp only [List.zipWith_cons_cons, List.map_cons, List.sum_cons, fsum]
        rw [← ih', ← ie, i1, i2, rows, add_mulVec]
        simp only [dotProduct_add]
        ring
  have hsplit : ∀ (A B : M6) (F : V6), a ⬝ᵥ ((A + B) *ᵥ a + F) = a ⬝ᵥ (A *ᵥ a) + a ⬝ᵥ (B *ᵥ a + F) := by
    intro A B F
    rw [add_mulVec, dotProduct_add, dotProduct_add, dotProduct_add]; ring
  rw [hsplit, add_assoc, key brs xss h hl]

end CT.Articulated
