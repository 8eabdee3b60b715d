import Verif.Props.ArticulatedTerms

/-!
# Robots on a fixed base and with a floating base: further lemmas
-/

namespace CT.Articulated

open Matrix Spatial FrameJac

/-! ### Fixed base -/

/-- The acceleration that stands for gravity. -/
noncomputable def gravAcc : V6 := ![0, 0, 0, 0, 0, grav]

theorem firstAcc_eq (X : M6) : firstAcc X = X *ᵥ gravAcc := by
  funext i
  simp [firstAcc, gravAcc, Matrix.mulVec, dotProduct, Fin.sum_univ_succ]

theorem firstVel_eq (j : Joint) : firstVel j.qd = j.vel 0 := by
  rw [Joint.vel, mulVec_zero, bump, firstVel]
  simp

theorem first_cor (j : Joint) : j.cor 0 = 0 := by
  funext i
  rw [Joint.cor, ← firstVel_eq]
  fin_cases i <;> simp [motionCrossProductMx, firstVel, Function.update]

/-- The defect of the single-axis `vxIv` is in a component that no joint force depends on. -/
theorem first_bias (j : Joint) : vxIvz j.qd j.I 2 = vxIv (j.vel 0) j.I 2 := by
  rw [← firstVel_eq]
  simp [vxIvz, vxIv, firstVel, Function.update]

theorem idFixed_eq (ls : List (Joint × ℝ)) : idFixed ls = (rnea 0 gravAcc ls).2 := by
  cases ls with
  | nil => rfl
  | cons e ls =>
    obtain ⟨j, x⟩ := e
    have h1 : (rnea 0 gravAcc ((j, x) :: ls)).2
        = addF (j.I *ᵥ bump (j.X *ᵥ gravAcc + j.cor 0) x + vxIv (j.vel 0) j.I - j.fext)
            (rnea (j.vel 0) (bump (j.X *ᵥ gravAcc + j.cor 0) x) ls).1 2
          :: (rnea (j.vel 0) (bump (j.X *ᵥ gravAcc + j.cor 0) x) ls).2 := rfl
    have h2 : idFixed ((j, x) :: ls)
        = addF (j.I *ᵥ bump (firstAcc j.X) x + vxIvz j.qd j.I - j.fext) (rnea (firstVel j.qd) (bump (firstAcc j.X) x) ls).1 2
          :: (rnea (firstVel j.qd) (bump (firstAcc j.X) x) ls).2 := rfl
    rw [h1, h2, first_cor, add_zero, ← firstAcc_eq, firstVel_eq]
    congr 1
    simp only [addF_eq, Pi.add_apply, Pi.sub_apply, first_bias]

theorem cFixed_eq (js : List Joint) : cFixed js = (cterms 0 none js).2 := by
  cases js with
  | nil => rfl
  | cons j js =>
    have h1 : (cterms 0 none (j :: js)).2
        = addF (j.I *ᵥ j.cor 0 + vxIv (j.vel 0) j.I) (cterms (j.vel 0) (some (j.cor 0)) js).1 2
          :: (cterms (j.vel 0) (some (j.cor 0)) js).2 := rfl
    have h2 : cFixed (j :: js) = addF (vxIvz j.qd j.I) (cterms (firstVel j.qd) none js).1 2
        :: (cterms (firstVel j.qd) none js).2 := rfl
    have h3 : ∀ (ls : List Joint) (v : V6), cterms v (some 0) ls = cterms v none ls := by
      intro ls v
      cases ls with
      | nil => rfl
      | cons k ls =>
        have : cacc k v (some 0) = cacc k v none := by simp [cacc]
        simp only [cterms, this]
    rw [h1, h2, first_cor, h3, firstVel_eq, mulVec_zero, zero_add]
    congr 1
    simp only [addF_eq, Pi.add_apply, first_bias]

theorem gFixed_eq (js : List Joint) : gFixed js = (gterms gravAcc js).2 := by
  cases js with
  | nil => rfl
  | cons j js =>
    have h1 : (gterms gravAcc (j :: js)).2 = addF (j.I *ᵥ (j.X *ᵥ gravAcc)) (gterms (j.X *ᵥ gravAcc) js).1 2
        :: (gterms (j.X *ᵥ gravAcc) js).2 := rfl
    have h2 : gFixed (j :: js) = addF (j.I *ᵥ firstAcc j.X) (gterms (firstAcc j.X) js).1 2
        :: (gterms (firstAcc j.X) js).2 := rfl
    rw [h1, h2, firstAcc_eq]

theorem ladd_assoc (x y z : List ℝ) : ladd (ladd x y) z = ladd x (ladd y z) := by
  induction x generalizing y z with
  | nil => simp [ladd]
  | cons a x ih =>
    cases y with
    | nil => simp [ladd]
    | cons b y =>
      cases z with
      | nil => simp [ladd]
      | cons c z =>
        have := ih y z
        simp only [ladd] at this ⊢
        simp [this, add_assoc]

theorem ladd_comm (x y : List ℝ) : ladd x y = ladd y x := by
  rw [ladd, ladd, List.zipWith_comm]
  congr 1
  funext a b
  exact add_comm _ _

theorem ldot_zero (n : ℕ) (row : List ℝ) : ldot row (List.replicate n 0) = 0 := by
  induction row generalizing n with
  | nil => simp [ldot]
  | cons a row ih =>
    cases n with
    | zero => simp [ldot]
    | succ n =>
      have := ih n
      simp only [ldot] at this ⊢
      simp [List.replicate_succ, this]

theorem ladd_zeros (x : List ℝ) (n : ℕ) (h : x.length = n) : ladd x (List.replicate n 0) = x := by
  subst h
  induction x with
  | nil => simp [ladd]
  | cons a x ih =>
    simp only [ladd] at ih ⊢
    simp [List.replicate_succ, ih]

/-- Gravity terms in terms of the columns of the composite inertias. -/
theorem gterms_crba (junk : M6) (js : List Joint) (a : V6) (h : ∀ j ∈ js, j.Rigid) :
    (gterms a js).2 = (crba (Inertia.new junk) js).2.1.map (· ⬝ᵥ a)
    ∧ cf (gterms a js).1 = cI (crba (Inertia.new junk) js).1 *ᵥ a := by
  obtain ⟨g1, g2⟩ := gterms_eq js a
  obtain ⟨i1, i2⟩ := inert_crba junk js a (List.replicate js.length 0) h (by simp)
  have hlen := crba_lengths (Inertia.new junk) js
  constructor
  · rw [g1, i2]
    have : ((crba (Inertia.new junk) js).2.2.map (ldot · (List.replicate js.length 0))) = List.replicate js.length 0 := by
      rw [List.eq_replicate_iff]
      refine ⟨by rw [List.length_map, hlen.2], fun b hb => ?_⟩
      obtain ⟨row, -, rfl⟩ := List.mem_map.mp hb
      exact ldot_zero _ _
    rw [this]
    exact ladd_zeros _ _ (by rw [List.length_map, hlen.1])
  · rw [g2, i1]
    have : ∀ (Fs : List V6) n, lsum Fs (List.replicate n 0) = 0 := by
      intro Fs
      induction Fs with
      | nil => intro n; simp [lsum]
      | cons F Fs ih =>
        intro n
        cases n with
        | zero => simp [lsum]
        | succ n => rw [List.replicate_succ, lsum_cons, ih n]; simp
    rw [this, add_zero]

theorem fixed_terms (junk : M6) (js : List Joint) (xs : List ℝ) (h : ∀ j ∈ js, j.Rigid) (h0 : ∀ j ∈ js, j.fext = 0)
    (hl : xs.length = js.length) :
    idFixed (js.zip xs)
      = ladd (ladd ((jsimFixed (Inertia.new junk) js).map (ldot · xs)) (cFixed js)) (gFixed js) := by
  obtain ⟨s1, -⟩ := rnea_split js 0 gravAcc none xs h0 hl
  rw [ov, zero_add] at s1
  rw [idFixed_eq, s1, (inert_crba junk js gravAcc xs h hl).2, cFixed_eq, gFixed_eq, (gterms_crba junk js gravAcc h).1, jsimFixed,
    ladd_comm ((crba (Inertia.new junk) js).2.1.map _), ← ladd_assoc, ladd_comm (cterms 0 none js).2]

/-! ### Positive definiteness -/

/-- Power of the accelerations: twice the kinetic energy of the velocities with these numbers. -/
theorem inert_power : ∀ (js : List Joint) (a : V6) (xs : List ℝ), (∀ j ∈ js, j.Ok) → xs.length = js.length →
    0 ≤ a ⬝ᵥ (inert a (js.zip xs)).1 + ldot xs (inert a (js.zip xs)).2
  | [], a, [], _, _ => by simp [inert, ldot]
  | [], _, _ :: _, _, hl => by simp at hl
  | _ :: _, _, [], _, hl => by simp at hl
  | j :: js, a, x :: xs, h, hl => by
    have hl' : xs.length = js.length := by simpa using hl
    have ih := inert_power js (j.X *ᵥ a + x • axisZ) xs (fun k hk => h k (List.mem_cons_of_mem _ hk)) hl'
    have hj := h j List.mem_cons_self
    set a1 := j.X *ᵥ a + x • axisZ with ha1
    set r := inert a1 (js.zip xs) with hr
    have hi : inert a ((j :: js).zip (x :: xs)) = (j.Xᵀ *ᵥ (j.I *ᵥ a1 + r.1), (j.I *ᵥ a1 + r.1) 2 :: r.2) := rfl
    have key : a ⬝ᵥ (j.Xᵀ *ᵥ (j.I *ᵥ a1 + r.1)) + ldot (x :: xs) ((j.I *ᵥ a1 + r.1) 2 :: r.2)
        = a1 ⬝ᵥ (j.I *ᵥ a1) + (a1 ⬝ᵥ r.1 + ldot xs r.2) := by
      rw [Matrix.dotProduct_mulVec, vecMul_transpose]
      have hc : ldot (x :: xs) ((j.I *ᵥ a1 + r.1) 2 :: r.2) = x * (j.I *ᵥ a1 + r.1) 2 + ldot xs r.2 := by simp [ldot]
      rw [hc, ← axis_dot (j.I *ᵥ a1 + r.1), ← smul_eq_mul, ← smul_dotProduct, ← add_assoc, ← add_dotProduct, ← ha1, dotProduct_add]
      ring
    rw [hi, key]
    by_cases h0 : a1 = 0
    · rw [h0, zero_dotProduct, zero_add]; rw [h0] at ih; exact ih
    · linarith [hj.pos a1 h0]

theorem inert_power_pos : ∀ (js : List Joint) (xs : List ℝ), (∀ j ∈ js, j.Ok) → xs.length = js.length →
    (∃ x ∈ xs, x ≠ 0) → 0 < ldot xs (inert 0 (js.zip xs)).2
  | _, [], _, _, hx => by simp at hx
  | [], _ :: _, _, hl, _ => by simp at hl
  | j :: js, x :: xs, h, hl, hx => by
    have hl' : xs.length = js.length := by simpa using hl
    have hjs : ∀ k ∈ js, k.Ok := fun k hk => h k (List.mem_cons_of_mem _ hk)
    have hj := h j List.mem_cons_self
    have hi : (inert 0 ((j :: js).zip (x :: xs))).2
        = (j.I *ᵥ (x • axisZ) + (inert (x • axisZ) (js.zip xs)).1) 2 :: (inert (x • axisZ) (js.zip xs)).2 := by
      show (_ :: _) = _
      rw [mulVec_zero, zero_add]
      rfl
    rw [hi]
    set r := inert (x • axisZ) (js.zip xs) with hr
    have key : ldot (x :: xs) ((j.I *ᵥ (x • axisZ) + r.1) 2 :: r.2)
        = (x • axisZ) ⬝ᵥ (j.I *ᵥ (x • axisZ)) + ((x • axisZ) ⬝ᵥ r.1 + ldot xs r.2) := by
      have hc : ldot (x :: xs) ((j.I *ᵥ (x • axisZ) + r.1) 2 :: r.2) = x * (j.I *ᵥ (x • axisZ) + r.1) 2 + ldot xs r.2 := by
        simp [ldot]
      rw [hc, ← axis_dot (j.I *ᵥ (x • axisZ) + r.1), ← smul_eq_mul, ← smul_dotProduct, dotProduct_add]
      ring
    rw [key]
    by_cases h0 : x = 0
    · have hx' : ∃ y ∈ xs, y ≠ 0 := by
        obtain ⟨y, hy, hy0⟩ := hx
        rcases List.mem_cons.mp hy with rfl | hy
        · exact absurd h0 hy0
        · exact ⟨y, hy, hy0⟩
      have := inert_power_pos js xs hjs hl' hx'
      rw [hr, h0, zero_smul]
      simpa using this
    · have hne : x • axisZ ≠ 0 := smul_ne_zero h0 axis_ne
      linarith [hj.pos _ hne, inert_power js (x • axisZ) xs hjs hl']

theorem Joint.Rigid.ok {j : Joint} (h : j.Rigid) (hp : ∀ u : V6, u ≠ 0 → 0 < u ⬝ᵥ (j.I *ᵥ u)) : j.Ok :=
  ⟨h.motion, h.body.symm, hp⟩

theorem jsim_pos (junk : M6) (js : List Joint) (xs : List ℝ) (h : ∀ j ∈ js, j.Rigid) (hp : ∀ j ∈ js, j.Ok)
    (hl : xs.length = js.length) (hx : ∃ x ∈ xs, x ≠ 0) :
    0 < ldot xs ((jsimFixed (Inertia.new junk) js).map (ldot · xs)) := by
  have h1 := inert_power_pos js xs hp hl hx
  rw [(inert_crba junk js 0 xs h hl).2] at h1
  have hlen := crba_lengths (Inertia.new junk) js
  have : (crba (Inertia.new junk) js).2.1.map (· ⬝ᵥ (0 : V6)) = List.replicate js.length 0 := by
    rw [List.eq_replicate_iff]
    refine ⟨by rw [List.length_map, hlen.1], fun b hb => ?_⟩
    obtain ⟨row, -, rfl⟩ := List.mem_map.mp hb
    simp
  rw [this, ladd_comm, ladd_zeros _ _ (by rw [List.length_map, hlen.2])] at h1
  exact h1

/-! ### Inverse dynamics of a floating base -/

/-- The composite inertia in `id`. -/
def compA (j : Joint) : Option (M6 × V6) → M6
  | none => j.I
  | some s => Inertia.assign j.I (j.I + s.1)

theorem comp_cons (v : V6) (c : Option V6) (j : Joint) (x : ℝ) (ls : List (Joint × ℝ)) :
    comp v c ((j, x) :: ls) = some
      (j.Xᵀ * compA j (comp (j.vel v) (some (iacc j v c x)) ls) * j.X,
        j.Xᵀ *ᵥ addV (j.I *ᵥ iacc j v c x + vxIv (j.vel v) j.I - j.fext) (comp (j.vel v) (some (iacc j v c x)) ls)) := by
  cases h : comp (j.vel v) (some (iacc j v c x)) ls <;> simp [comp, compA, h]

theorem compDown_cons (v : V6) (c : Option V6) (ab : V6) (j : Joint) (x : ℝ) (ls : List (Joint × ℝ)) :
    compDown v c ab ((j, x) :: ls)
      = (compA j (comp (j.vel v) (some (iacc j v c x)) ls) 2 ⬝ᵥ (j.X *ᵥ ab)
          + addV (j.I *ᵥ iacc j v c x + vxIv (j.vel v) j.I - j.fext) (comp (j.vel v) (some (iacc j v c x)) ls) 2)
        :: compDown (j.vel v) (some (iacc j v c x)) (j.X *ᵥ ab) ls := by
  cases h : comp (j.vel v) (some (iacc j v c x)) ls <;> simp [compDown, compA, h]

/-- A link that satisfies all hypotheses. -/
structure Joint.Good (j : Joint) : Prop where
  motion : ∃ E o, IsMotionX j.X E o
  body : IsBody j.I
  pos : ∀ u : V6, u ≠ 0 → 0 < u ⬝ᵥ (j.I *ᵥ u)

theorem Joint.Good.ok {j : Joint} (h : j.Good) : j.Ok := ⟨h.motion, h.body.symm, h.pos⟩

theorem PD.psd {A : M6} (h : PD A) : PSD A :=
  ⟨h.symm, fun u => by
    by_cases h0 : u = 0
    · rw [h0]; simp
    · exact (h.pos u h0).le⟩

theorem comp_body : ∀ (ls : List (Joint × ℝ)) (v : V6) (c : Option V6), (∀ e ∈ ls, e.1.Good) →
    ∀ s, comp v c ls = some s → IsBody s.1 ∧ PSD s.1
  | [], _, _, _, s, h => by simp [comp] at h
  | (j, x) :: ls, v, c, hj, s, h => by
    have hg := hj (j, x) List.mem_cons_self
    have ih := comp_body ls (j.vel v) (some (iacc j v c x)) (fun e he => hj e (List.mem_cons_of_mem _ he))
    rw [comp_cons] at h
    simp only [Option.some.injEq] at h
    have hA : IsBody (compA j (comp (j.vel v) (some (iacc j v c x)) ls))
        ∧ PD (compA j (comp (j.vel v) (some (iacc j v c x)) ls)) := by
      cases hc : comp (j.vel v) (some (iacc j v c x)) ls with
      | none => exact ⟨hg.body, ⟨hg.body.symm, hg.pos⟩⟩
      | some r =>
        obtain ⟨h1, h2⟩ := ih r hc
        rw [compA, assign_eq hg.body (hg.body.add h1)]
        exact ⟨hg.body.add h1, PD.add ⟨hg.body.symm, hg.pos⟩ h2⟩
    rw [← h]
    exact ⟨hA.1.congr hg.motion, congr_psd hA.2.psd _⟩

theorem compA_eq {j : Joint} {x : ℝ} {ls : List (Joint × ℝ)} (hj : ∀ e ∈ (j, x) :: ls, e.1.Good) (v : V6) (c : Option V6) :
    compA j (comp v c ls) = j.I + cm (comp v c ls) := by
  have hg := hj (j, x) List.mem_cons_self
  have ih := comp_body ls v c (fun e he => hj e (List.mem_cons_of_mem _ he))
  cases hc : comp v c ls with
  | none => simp [compA, cm]
  | some r =>
    rw [compA, assign_eq hg.body (hg.body.add (ih r hc).1)]
    rfl

theorem comp_rnea : ∀ (ls : List (Joint × ℝ)) (v : V6) (c : Option V6) (ab : V6), (∀ e ∈ ls, e.1.Good) →
    cf (rnea v (ov c + ab) ls).1 = cm (comp v c ls) *ᵥ ab + cv (comp v c ls)
    ∧ (rnea v (ov c + ab) ls).2 = compDown v c ab ls
  | [], v, c, ab, _ => by simp [rnea, comp, compDown, cf, cm, cv]
  | (j, x) :: ls, v, c, ab, h => by
    obtain ⟨i1, i2⟩ := comp_rnea ls (j.vel v) (some (iacc j v c x)) (j.X *ᵥ ab) (fun e he => h e (List.mem_cons_of_mem _ he))
    have ha : bump (j.X *ᵥ (ov c + ab) + j.cor v) x = ov (some (iacc j v c x)) + j.X *ᵥ ab := by
      rw [iacc, cacc_eq, ov, bump_eq, bump_eq, mulVec_add]; abel
    have hrn : rnea v (ov c + ab) ((j, x) :: ls)
        = (some (j.Xᵀ *ᵥ addF (j.I *ᵥ bump (j.X *ᵥ (ov c + ab) + j.cor v) x + vxIv (j.vel v) j.I - j.fext)
              (rnea (j.vel v) (bump (j.X *ᵥ (ov c + ab) + j.cor v) x) ls).1),
            addF (j.I *ᵥ bump (j.X *ᵥ (ov c + ab) + j.cor v) x + vxIv (j.vel v) j.I - j.fext)
              (rnea (j.vel v) (bump (j.X *ᵥ (ov c + ab) + j.cor v) x) ls).1 2
              :: (rnea (j.vel v) (bump (j.X *ᵥ (ov c + ab) + j.cor v) x) ls).2) := rfl
    have hf : addF (j.I *ᵥ bump (j.X *ᵥ (ov c + ab) + j.cor v) x + vxIv (j.vel v) j.I - j.fext)
          (rnea (j.vel v) (bump (j.X *ᵥ (ov c + ab) + j.cor v) x) ls).1
        = compA j (comp (j.vel v) (some (iacc j v c x)) ls) *ᵥ (j.X *ᵥ ab)
          + addV (j.I *ᵥ iacc j v c x + vxIv (j.vel v) j.I - j.fext) (comp (j.vel v) (some (iacc j v c x)) ls) := by
      rw [addF_eq, addV_eq, ha, i1, compA_eq h, add_mulVec, mulVec_add, ov]
      abel
    rw [hrn, comp_cons, compDown_cons, hf]
    constructor
    · show j.Xᵀ *ᵥ _ = (j.Xᵀ * _ * j.X) *ᵥ ab + j.Xᵀ *ᵥ _
      rw [mulVec_add, Matrix.mul_assoc, ← mulVec_mulVec, ← mulVec_mulVec]
    · rw [ha, i2]
      rfl

/-- Hypotheses on the base for `id`. -/
structure Base.Good (b : Base) : Prop where
  body : IsBody b.I
  pos : ∀ u : V6, u ≠ 0 → 0 < u ⬝ᵥ (b.I *ᵥ u)

theorem Base.Good.ok {b : Base} (h : b.Good) : b.Ok := ⟨h.body.symm, h.pos⟩

/-- The composite inertia of the whole robot in `id`. -/
def wholeI (b : Base) (brs : List (List (Joint × ℝ))) : M6 :=
  brs.foldl (fun (A : M6) br => match comp b.v none br with
    | none => A
    | some s => Inertia.assign A (A + s.1)) b.I

theorem wholeI_aux (v : V6) : ∀ (brs : List (List (Joint × ℝ))) (A : M6), (∀ br ∈ brs, ∀ e ∈ br, e.1.Good) → IsBody A → PD A →
    brs.foldl (fun (A : M6) br => match comp v none br with
      | none => A
      | some s => Inertia.assign A (A + s.1)) A = A + (brs.map fun br => cm (comp v none br)).sum
    ∧ PD (A + (brs.map fun br => cm (comp v none br)).sum)
  | [], A, _, _, hp => by simpa using hp
  | br :: brs, A, h, hA, hp => by
    have hb := comp_body br v none (h br List.mem_cons_self)
    have hbs : ∀ b ∈ brs, ∀ e ∈ b, e.1.Good := fun b hb => h b (List.mem_cons_of_mem _ hb)
    rw [List.foldl_cons, List.map_cons, List.sum_cons, ← add_assoc]
    cases hc : comp v none br with
    | none =>
      simp only [cm, add_zero]
      exact wholeI_aux v brs A hbs hA hp
    | some s =>
      obtain ⟨h1, h2⟩ := hb s hc
      simp only [cm]
      rw [assign_eq hA (hA.add h1)]
      exact wholeI_aux v brs (A + s.1) hbs (hA.add h1) (hp.add h2)

theorem foldl_addV' {α : Type} (g : α → Option (M6 × V6)) : ∀ (brs : List α) (p : V6),
    brs.foldl (fun p br => addV p (g br)) p = p + (brs.map fun br => cv (g br)).sum
  | [], A => by simp
  | br :: brs, A => by rw [List.foldl_cons, foldl_addV' g brs, addV_eq, List.map_cons, List.sum_cons, add_assoc]

theorem sum_mulVec' {α : Type} (g : α → M6) (u : V6) : ∀ brs : List α, (brs.map g).sum *ᵥ u = (brs.map fun b => g b *ᵥ u).sum
  | [] => by simp
  | b :: brs => by rw [List.map_cons, List.sum_cons, add_mulVec, sum_mulVec' g u brs, List.map_cons, List.sum_cons]

theorem sum_add' {α : Type} (g h : α → V6) : ∀ brs : List α,
    (brs.map fun b => g b + h b).sum = (brs.map g).sum + (brs.map h).sum
  | [] => by simp
  | b :: brs => by
    simp only [List.map_cons, List.sum_cons]
    rw [sum_add' g h brs]
    abel

/-- `id` and `id_fully_actuated` agree: with the base acceleration of `id` no force is needed at the base, and
there is no other such acceleration. -/
theorem float_id_iff {b : Base} (hb : b.Good) (g acc : V6) (brs : List (List (Joint × ℝ))) (taus : List (List ℝ))
    (h : ∀ br ∈ brs, ∀ e ∈ br, e.1.Good) :
    idFull b g acc brs = (0, taus) ↔ (acc, taus) = idFloat b g brs := by
  have hw := wholeI_aux b.v brs b.I h hb.body ⟨hb.body.symm, hb.pos⟩
  set W := b.I + (brs.map fun br => cm (comp b.v none br)).sum with hW
  set f := vxIv b.v b.I - b.fext + (brs.map fun br => cv (comp b.v none br)).sum with hf
  have hdet := hw.2.det
  have hid : idFloat b g brs = (-(W⁻¹ *ᵥ f) + g, brs.map (compDown b.v none (-(W⁻¹ *ᵥ f)))) := by
    rw [← hw.1, hf, ← foldl_addV' (fun br => comp b.v none br)]
    rfl
  have hr : ∀ br ∈ brs, (rnea b.v (acc - g) br).2 = compDown b.v none (acc - g) br
      ∧ cf (rnea b.v (acc - g) br).1 = cm (comp b.v none br) *ᵥ (acc - g) + cv (comp b.v none br) := by
    intro br hbr
    obtain ⟨h1, h2⟩ := comp_rnea br b.v none (acc - g) (h br hbr)
    rw [ov, zero_add] at h1 h2
    exact ⟨h2, h1⟩
  have hfull : idFull b g acc brs = (W *ᵥ (acc - g) + f, brs.map (compDown b.v none (acc - g))) := by
    show (brs.foldl (fun f br => addF f (rnea b.v (acc - g) br).1) _, _) = _
    rw [foldl_addF]
    refine Prod.ext ?_ (List.map_congr_left fun br hbr => (hr br hbr).1)
    show _ + (brs.map fun br => cf (rnea b.v (acc - g) br).1).sum = _
    rw [List.map_congr_left fun br hbr => (hr br hbr).2, sum_add', ← sum_mulVec', hW, add_mulVec, hf]
    abel
  have hsolve : W *ᵥ (acc - g) + f = 0 ↔ acc - g = -(W⁻¹ *ᵥ f) := by
    constructor
    · intro h0
      have h1 : W *ᵥ (acc - g) = -f := eq_neg_of_add_eq_zero_left h0
      rw [← mulVec_neg, ← h1, mulVec_mulVec, nonsing_inv_mul _ hdet, one_mulVec]
    · intro h0
      rw [h0, mulVec_neg, mulVec_mulVec, mul_nonsing_inv _ hdet, one_mulVec, neg_add_cancel]
  rw [hfull, hid, Prod.mk.injEq, Prod.mk.injEq, hsolve]
  constructor
  · rintro ⟨h1, h2⟩
    exact ⟨by rw [← h1]; abel, by rw [← h1, h2]⟩
  · rintro ⟨h1, h2⟩
    have h3 : acc - g = -(W⁻¹ *ᵥ f) := by rw [h1]; abel
    exact ⟨h3, by rw [h3, h2]⟩

end CT.Articulated
