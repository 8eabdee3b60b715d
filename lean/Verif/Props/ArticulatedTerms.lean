import Verif.Props.Articulated
import Verif.Props.InertiaMatrix

/-!
# Composite bodies, gravity, Coriolis and inertia terms of a branch
-/

namespace CT.Articulated

open Matrix Spatial FrameJac

/-- `I` is the inertia of a body: of a finite set of point masses with a positive total. -/
def IsBody (I : M6) : Prop :=
  ∃ (κ : Type) (_ : Fintype κ) (m : κ → ℝ) (r : κ → V3), 0 < ∑ k, m k ∧ IsInertiaOf I m r

theorem motion_transpose {X : M6} {E : M3} {o : V3} (h : IsMotionX X E o) (τ f : V3) :
    Xᵀ *ᵥ join τ f = join (Eᵀ *ᵥ τ + cross o (Eᵀ *ᵥ f)) (Eᵀ *ᵥ f) := by
  rw [h.eq, blk_transpose, blk_mulVec]
  refine join_ext ?_ (by simp)
  rw [transpose_neg, transpose_mul, cpm_transpose, Matrix.neg_mul, neg_neg, ← cpm_mulVec, mulVec_mulVec]

theorem motion_force {X : M6} {E : M3} {o : V3} (h : IsMotionX X E o) : IsForceX Xᵀ Eᵀ (-(E *ᵥ o)) := by
  refine ⟨IsRot.transpose h.rot, fun τ f => ?_⟩
  rw [motion_transpose h]
  refine join_ext ?_ rfl
  have h1 : cross (-(E *ᵥ o)) f = -cross (E *ᵥ o) f := by
    funext i; fin_cases i <;> simp [cross] <;> ring
  rw [h1, sub_neg_eq_add, mulVec_add, (IsRot.transpose h.rot).cross, mulVec_mulVec, h.rot.orth, one_mulVec]

theorem body_motion {X I : M6} {E : M3} {o : V3} (h : IsMotionX X E o) {κ : Type} [Fintype κ] {m : κ → ℝ} {r : κ → V3}
    (hI : IsInertiaOf I m r) : IsInertiaOf (Xᵀ * I * X) m (fun k => Eᵀ *ᵥ r k + o) := by
  intro ω v
  rw [← mulVec_mulVec, ← mulVec_mulVec, h.map, hI, motion_transpose h]
  have hl : Eᵀ *ᵥ linMomentum m r (E *ᵥ ω) (E *ᵥ (v + cross ω o)) = linMomentum m (fun k => Eᵀ *ᵥ r k + o) ω v := by
    rw [linMomentum, linMomentum, mulVec_sum]
    refine Finset.sum_congr rfl fun k _ => ?_
    rw [mulVec_smul, mulVec_add, mulVec_mulVec, h.rot.orth, one_mulVec, (IsRot.transpose h.rot).cross, mulVec_mulVec,
      h.rot.orth, one_mulVec, cross_add]
    congr 1; abel
  refine join_ext ?_ hl
  rw [hl, linMomentum, cross_sum, angMomentum, angMomentum, mulVec_sum, ← Finset.sum_add_distrib]
  refine Finset.sum_congr rfl fun k _ => ?_
  rw [mulVec_smul, (IsRot.transpose h.rot).cross, mulVec_add, mulVec_mulVec, h.rot.orth, one_mulVec,
    (IsRot.transpose h.rot).cross, mulVec_mulVec, h.rot.orth, one_mulVec, cross_smul, ← smul_add, add_cross, cross_add ω,
    add_assoc, add_comm (cross ω o)]

theorem inertia_unique {κ : Type} [Fintype κ] {m : κ → ℝ} {r : κ → V3} {I J : M6} (hI : IsInertiaOf I m r)
    (hJ : IsInertiaOf J m r) : I = J := ext_join fun a b => by rw [hI, hJ]

/-- `transformInertia` with the transpose of the motion transform is the congruence. -/
theorem transform_congr {X I : M6} (hX : ∃ E o, IsMotionX X E o) (hI : IsBody I) (junk : M6) :
    transformInertia I Xᵀ (Inertia.new junk) = Xᵀ * I * X := by
  obtain ⟨E, o, h⟩ := hX
  obtain ⟨κ, _, m, r, hm, hI⟩ := hI
  refine inertia_unique (C122_transform_inertia hI hm.ne' (motion_force h) junk) ?_
  have := body_motion h hI
  have he : (fun k => Eᵀ *ᵥ (r k - -(E *ᵥ o))) = fun k => Eᵀ *ᵥ r k + o := by
    funext k
    rw [sub_neg_eq_add, mulVec_add, mulVec_mulVec, h.rot.orth, one_mulVec]
  rw [he]
  exact this

theorem IsBody.congr {X I : M6} (hX : ∃ E o, IsMotionX X E o) (hI : IsBody I) : IsBody (Xᵀ * I * X) := by
  obtain ⟨E, o, h⟩ := hX
  obtain ⟨κ, i, m, r, hm, hI⟩ := hI
  exact ⟨κ, i, m, _, hm, body_motion h hI⟩

theorem inertia_add {κ κ' : Type} [Fintype κ] [Fintype κ'] {I J : M6} {m : κ → ℝ} {r : κ → V3} {m' : κ' → ℝ}
    {r' : κ' → V3} (h : IsInertiaOf I m r) (h' : IsInertiaOf J m' r') :
    IsInertiaOf (I + J) (Sum.elim m m') (Sum.elim r r') := by
  intro ω v
  rw [add_mulVec, h, h']
  simp only [angMomentum, linMomentum, Fintype.sum_sum_type, Sum.elim_inl, Sum.elim_inr]
  funext i
  fin_cases i <;> simp [join]

theorem IsBody.add {I J : M6} (hI : IsBody I) (hJ : IsBody J) : IsBody (I + J) := by
  obtain ⟨κ, i, m, r, hm, hI⟩ := hI
  obtain ⟨κ', i', m', r', hm', hJ⟩ := hJ
  exact ⟨κ ⊕ κ', inferInstance, _, _, by simp [Fintype.sum_sum_type]; linarith, inertia_add hI hJ⟩

theorem addAssign_eq {I J : M6} (hI : IsBody I) (hJ : IsBody J) : Inertia.addAssign I J = I + J := by
  obtain ⟨κ, i, m, r, hm, hI⟩ := hI
  obtain ⟨κ', i', m', r', hm', hJ⟩ := hJ
  exact inertia_unique (C123_add hI hJ) (inertia_add hI hJ)

theorem usable_of {κ : Type} [Fintype κ] {I : M6} {m : κ → ℝ} {r : κ → V3} (h : IsInertiaOf I m r) : Usable I := by
  refine Or.inr ⟨Fintype.card κ, m ∘ (Fintype.equivFin κ).symm, r ∘ (Fintype.equivFin κ).symm, fun ω v => ?_⟩
  rw [h]
  simp only [angMomentum, linMomentum, Function.comp_apply]
  rw [Equiv.sum_comp (Fintype.equivFin κ).symm fun k => m k • cross (r k) (v + cross ω (r k)),
    Equiv.sum_comp (Fintype.equivFin κ).symm fun k => m k • (v + cross ω (r k))]

theorem assign_eq {I J : M6} (hI : IsBody I) (hJ : IsBody J) : Inertia.assign I J = J := by
  obtain ⟨κ, i, m, r, hm, hI⟩ := hI
  obtain ⟨κ', i', m', r', hm', hJ⟩ := hJ
  exact C123_assign (usable_of hI) hJ

theorem IsBody.symm {I : M6} (hI : IsBody I) : Iᵀ = I := by
  obtain ⟨κ, i, m, r, hm, hI⟩ := hI
  rw [inertia_iff] at hI
  rw [hI, blk_transpose, tens_symm, cpm_transpose, transpose_neg, cpm_transpose, neg_neg, transpose_smul, transpose_one]

/-! ### The parts of the inverse dynamics -/

/-- Inverse dynamics without velocities and external forces. -/
def inert (a : V6) : List (Joint × ℝ) → V6 × List ℝ
  | [] => (0, [])
  | (j, x) :: ls =>
    let a1 := j.X *ᵥ a + x • axisZ
    let r := inert a1 ls
    let f := j.I *ᵥ a1 + r.1
    (j.Xᵀ *ᵥ f, f 2 :: r.2)

/-- Sum of two lists, entry by entry. -/
def ladd (x y : List ℝ) : List ℝ := List.zipWith (· + ·) x y

/-- Product of a row with a list. -/
def ldot (x y : List ℝ) : ℝ := (List.zipWith (· * ·) x y).sum

/-- The acceleration of the parent in `C_terms`. -/
def ov : Option V6 → V6
  | none => 0
  | some a => a

theorem cacc_eq (j : Joint) (v : V6) (a : Option V6) : cacc j v a = j.X *ᵥ ov a + j.cor v := by
  cases a <;> simp [cacc, ov]

theorem rnea_split : ∀ (js : List Joint) (v a : V6) (c : Option V6) (xs : List ℝ), (∀ j ∈ js, j.fext = 0) →
    xs.length = js.length →
    (rnea v (ov c + a) (js.zip xs)).2 = ladd (cterms v c js).2 (inert a (js.zip xs)).2
    ∧ cf (rnea v (ov c + a) (js.zip xs)).1 = cf (cterms v c js).1 + (inert a (js.zip xs)).1
  | [], v, a, c, [], _, _ => by simp [rnea, cterms, inert, cf, ladd]
  | [], _, _, _, _ :: _, _, hl => by simp at hl
  | _ :: _, _, _, _, [], _, hl => by simp at hl
  | j :: js, v, a, c, x :: xs, h, hl => by
    have hl' : xs.length = js.length := by simpa using hl
    have ha : bump (j.X *ᵥ (ov c + a) + j.cor v) x = ov (some (cacc j v c)) + (j.X *ᵥ a + x • axisZ) := by
      rw [bump_eq, cacc_eq, ov, mulVec_add]; abel
    obtain ⟨ih1, ih2⟩ := rnea_split js (j.vel v) (j.X *ᵥ a + x • axisZ) (some (cacc j v c)) xs
      (fun k hk => h k (List.mem_cons_of_mem _ hk)) hl'
    have hrn : rnea v (ov c + a) ((j :: js).zip (x :: xs))
        = (some (j.Xᵀ *ᵥ addF (j.I *ᵥ bump (j.X *ᵥ (ov c + a) + j.cor v) x + vxIv (j.vel v) j.I - j.fext)
              (rnea (j.vel v) (bump (j.X *ᵥ (ov c + a) + j.cor v) x) (js.zip xs)).1),
            addF (j.I *ᵥ bump (j.X *ᵥ (ov c + a) + j.cor v) x + vxIv (j.vel v) j.I - j.fext)
              (rnea (j.vel v) (bump (j.X *ᵥ (ov c + a) + j.cor v) x) (js.zip xs)).1 2
              :: (rnea (j.vel v) (bump (j.X *ᵥ (ov c + a) + j.cor v) x) (js.zip xs)).2) := rfl
    have hc : cterms v c (j :: js)
        = (some (j.Xᵀ *ᵥ addF (j.I *ᵥ cacc j v c + vxIv (j.vel v) j.I) (cterms (j.vel v) (some (cacc j v c)) js).1),
            addF (j.I *ᵥ cacc j v c + vxIv (j.vel v) j.I) (cterms (j.vel v) (some (cacc j v c)) js).1 2
              :: (cterms (j.vel v) (some (cacc j v c)) js).2) := rfl
    have hi : inert a ((j :: js).zip (x :: xs))
        = (j.Xᵀ *ᵥ (j.I *ᵥ (j.X *ᵥ a + x • axisZ) + (inert (j.X *ᵥ a + x • axisZ) (js.zip xs)).1),
            (j.I *ᵥ (j.X *ᵥ a + x • axisZ) + (inert (j.X *ᵥ a + x • axisZ) (js.zip xs)).1) 2
              :: (inert (j.X *ᵥ a + x • axisZ) (js.zip xs)).2) := rfl
    have hf : addF (j.I *ᵥ bump (j.X *ᵥ (ov c + a) + j.cor v) x + vxIv (j.vel v) j.I - j.fext)
          (rnea (j.vel v) (bump (j.X *ᵥ (ov c + a) + j.cor v) x) (js.zip xs)).1
        = addF (j.I *ᵥ cacc j v c + vxIv (j.vel v) j.I) (cterms (j.vel v) (some (cacc j v c)) js).1
          + (j.I *ᵥ (j.X *ᵥ a + x • axisZ) + (inert (j.X *ᵥ a + x • axisZ) (js.zip xs)).1) := by
      rw [addF_eq, addF_eq, ha, ih2, h j List.mem_cons_self, mulVec_add, ov, sub_zero]
      abel
    rw [hrn, hc, hi, hf]
    constructor
    · rw [ha, ih1]; rfl
    · show j.Xᵀ *ᵥ _ = j.Xᵀ *ᵥ _ + _
      rw [mulVec_add]

theorem inert_length : ∀ (js : List Joint) (a : V6) (xs : List ℝ), xs.length = js.length →
    (inert a (js.zip xs)).2.length = js.length
  | [], _, _, _ => rfl
  | _ :: _, _, [], hl => by simp at hl
  | j :: js, a, x :: xs, hl => by
    have := inert_length js (j.X *ᵥ a + x • axisZ) xs (by simpa using hl)
    simp [inert, this]

theorem gterms_eq : ∀ (js : List Joint) (a : V6),
    (gterms a js).2 = (inert a (js.zip (List.replicate js.length 0))).2
    ∧ cf (gterms a js).1 = (inert a (js.zip (List.replicate js.length 0))).1
  | [], a => by simp [gterms, inert, cf]
  | j :: js, a => by
    obtain ⟨i1, i2⟩ := gterms_eq js (j.X *ᵥ a)
    have hi : inert a ((j :: js).zip (List.replicate (j :: js).length 0))
        = (j.Xᵀ *ᵥ (j.I *ᵥ (j.X *ᵥ a + (0 : ℝ) • axisZ) + (inert (j.X *ᵥ a + (0 : ℝ) • axisZ) (js.zip (List.replicate js.length 0))).1),
            (j.I *ᵥ (j.X *ᵥ a + (0 : ℝ) • axisZ) + (inert (j.X *ᵥ a + (0 : ℝ) • axisZ) (js.zip (List.replicate js.length 0))).1) 2
              :: (inert (j.X *ᵥ a + (0 : ℝ) • axisZ) (js.zip (List.replicate js.length 0))).2) := rfl
    have hg : gterms a (j :: js) = (some (j.Xᵀ *ᵥ addF (j.I *ᵥ (j.X *ᵥ a)) (gterms (j.X *ᵥ a) js).1),
        addF (j.I *ᵥ (j.X *ᵥ a)) (gterms (j.X *ᵥ a) js).1 2 :: (gterms (j.X *ᵥ a) js).2) := rfl
    rw [hi, hg, zero_smul, add_zero, ← i1, ← i2, addF_eq]
    exact ⟨rfl, rfl⟩

/-! ### The joint space inertia matrix -/

/-- Hypotheses on the links for the joint space inertia matrix: the force transform is the transpose of the
motion transform, and the inertia belongs to a body. -/
structure Joint.Rigid (j : Joint) : Prop where
  motion : ∃ E o, IsMotionX j.X E o
  force : j.XF = j.Xᵀ
  body : IsBody j.I

/-- The composite inertia of a link and its subtree. -/
def compI (j : Joint) : Option M6 → M6
  | none => j.I
  | some B => Inertia.addAssign j.I B

/-- The inertia of an optional child. -/
def cI : Option M6 → M6
  | none => 0
  | some B => B

/-- Combination of columns. -/
def lsum (Fs : List V6) (xs : List ℝ) : V6 := (List.zipWith (fun F x => x • F) Fs xs).sum

theorem lsum_cons (F : V6) (Fs : List V6) (x : ℝ) (xs : List ℝ) : lsum (F :: Fs) (x :: xs) = x • F + lsum Fs xs := by
  simp [lsum]

theorem lsum_map (X : M6) : ∀ (Fs : List V6) (xs : List ℝ), lsum (Fs.map (X *ᵥ ·)) xs = X *ᵥ lsum Fs xs
  | [], _ => by simp [lsum]
  | _ :: _, [] => by simp [lsum]
  | F :: Fs, x :: xs => by rw [List.map_cons, lsum_cons, lsum_cons, lsum_map X Fs xs, mulVec_add, mulVec_smul]

theorem lsum_apply : ∀ (Fs : List V6) (xs : List ℝ), lsum Fs xs 2 = ldot (Fs.map (· 2)) xs
  | [], _ => by simp [lsum, ldot]
  | _ :: _, [] => by simp [lsum, ldot]
  | F :: Fs, x :: xs => by
    rw [lsum_cons, Pi.add_apply, lsum_apply Fs xs]
    simp [ldot, mul_comm]

theorem crba_cons (z : M6) (j : Joint) (js : List Joint) : crba z (j :: js)
    = (some (transformInertia (compI j (crba z js).1) j.XF z),
      (j.XF *ᵥ fun i => compI j (crba z js).1 i 2) :: (crba z js).2.1.map (j.XF *ᵥ ·),
      ((compI j (crba z js).1 2 2) :: (crba z js).2.1.map (· 2))
        :: List.zipWith (fun (G : V6) row => G 2 :: row) (crba z js).2.1 (crba z js).2.2) := by
  cases h : (crba z js).1 <;> simp [crba, compI, h]

theorem crba_body (junk : M6) : ∀ (js : List Joint), (∀ j ∈ js, j.Rigid) →
    ∀ B, (crba (Inertia.new junk) js).1 = some B → IsBody B
  | [], _, B, h => by simp [crba] at h
  | j :: js, hj, B, h => by
    have hr := hj j List.mem_cons_self
    have ih := crba_body junk js (fun k hk => hj k (List.mem_cons_of_mem _ hk))
    rw [crba_cons] at h
    simp only [Option.some.injEq] at h
    have hC : IsBody (compI j (crba (Inertia.new junk) js).1) := by
      cases hc : (crba (Inertia.new junk) js).1 with
      | none => exact hr.body
      | some B' => rw [compI, addAssign_eq hr.body (ih B' hc)]; exact hr.body.add (ih B' hc)
    rw [← h, hr.force, transform_congr hr.motion hC]
    exact hC.congr hr.motion

theorem compI_eq (junk : M6) (j : Joint) (js : List Joint) (hj : j.Rigid) (h : ∀ k ∈ js, k.Rigid) :
    compI j (crba (Inertia.new junk) js).1 = j.I + cI (crba (Inertia.new junk) js).1
    ∧ IsBody (compI j (crba (Inertia.new junk) js).1) := by
  have hb := crba_body junk js h
  cases hc : (crba (Inertia.new junk) js).1 with
  | none => exact ⟨by simp [compI, cI], hj.body⟩
  | some B => rw [compI, addAssign_eq hj.body (hb B hc)]; exact ⟨rfl, hj.body.add (hb B hc)⟩

theorem crba_lengths (z : M6) : ∀ (js : List Joint), (crba z js).2.1.length = js.length ∧ (crba z js).2.2.length = js.length
  | [] => ⟨rfl, rfl⟩
  | j :: js => by
    have := crba_lengths z js
    rw [crba_cons]
    simp [this]

/-- Forces and torques of the accelerations in terms of the composite inertias. -/
theorem inert_crba (junk : M6) : ∀ (js : List Joint) (a : V6) (xs : List ℝ), (∀ j ∈ js, j.Rigid) → xs.length = js.length →
    (inert a (js.zip xs)).1 = cI (crba (Inertia.new junk) js).1 *ᵥ a + lsum (crba (Inertia.new junk) js).2.1 xs
    ∧ (inert a (js.zip xs)).2 = ladd ((crba (Inertia.new junk) js).2.1.map (· ⬝ᵥ a))
        ((crba (Inertia.new junk) js).2.2.map (ldot · xs))
  | [], a, [], _, _ => by simp [inert, crba, cI, lsum, ladd]
  | [], _, _ :: _, _, hl => by simp at hl
  | _ :: _, _, [], _, hl => by simp at hl
  | j :: js, a, x :: xs, h, hl => by
    have hl' : xs.length = js.length := by simpa using hl
    have hj := h j List.mem_cons_self
    have hjs : ∀ k ∈ js, k.Rigid := fun k hk => h k (List.mem_cons_of_mem _ hk)
    obtain ⟨i1, i2⟩ := inert_crba junk js (j.X *ᵥ a + x • axisZ) xs hjs hl'
    obtain ⟨hC, hB⟩ := compI_eq junk j js hj hjs
    have hlen := crba_lengths (Inertia.new junk) js
    have hi : inert a ((j :: js).zip (x :: xs))
        = (j.Xᵀ *ᵥ (j.I *ᵥ (j.X *ᵥ a + x • axisZ) + (inert (j.X *ᵥ a + x • axisZ) (js.zip xs)).1),
            (j.I *ᵥ (j.X *ᵥ a + x • axisZ) + (inert (j.X *ᵥ a + x • axisZ) (js.zip xs)).1) 2
              :: (inert (j.X *ᵥ a + x • axisZ) (js.zip xs)).2) := rfl
    have hf : j.I *ᵥ (j.X *ᵥ a + x • axisZ) + (inert (j.X *ᵥ a + x • axisZ) (js.zip xs)).1
        = compI j (crba (Inertia.new junk) js).1 *ᵥ (j.X *ᵥ a + x • axisZ) + lsum (crba (Inertia.new junk) js).2.1 xs := by
      rw [i1, hC, add_mulVec]; abel
    rw [hi, hf, i2, crba_cons]
    set Ic := compI j (crba (Inertia.new junk) js).1 with hIc
    set Fs := (crba (Inertia.new junk) js).2.1 with hFs
    set H := (crba (Inertia.new junk) js).2.2 with hH
    rw [hj.force, transform_congr hj.motion hB]
    constructor
    · show j.Xᵀ *ᵥ _ = (j.Xᵀ * Ic * j.X) *ᵥ a + lsum (_ :: _) (x :: xs)
      rw [lsum_cons, lsum_map, Matrix.mul_assoc, ← mulVec_mulVec, ← mulVec_mulVec, ← mulVec_smul, ← mulVec_add, ← mulVec_add]
      congr 1
      rw [mulVec_add, mulVec_smul, axis_col, add_assoc]
    · have hdot : ∀ G : V6, (j.Xᵀ *ᵥ G) ⬝ᵥ a = G ⬝ᵥ (j.X *ᵥ a) := fun G => by
        rw [Matrix.dotProduct_mulVec, ← Matrix.mulVec_transpose]
      simp only [List.map_cons, ladd, List.zipWith_cons_cons, List.cons.injEq]
      constructor
      · rw [Pi.add_apply, sym_row hB.symm, dotProduct_add, dotProduct_smul, dotProduct_comm _ axisZ, axis_dot, lsum_apply,
          hdot]
        simp [ldot]
        ring
      · clear_value Fs H
        have : ∀ (Gs : List V6) (rows : List (List ℝ)),
            List.zipWith (· + ·) (Gs.map (· ⬝ᵥ (j.X *ᵥ a + x • axisZ))) (rows.map (ldot · xs))
              = List.zipWith (· + ·) ((Gs.map (j.Xᵀ *ᵥ ·)).map (· ⬝ᵥ a))
                ((List.zipWith (fun (G : V6) row => G 2 :: row) Gs rows).map (ldot · (x :: xs))) := by
          intro Gs
          induction Gs with
          | nil => intro rows; simp
          | cons G Gs ih =>
            intro rows
            cases rows with
            | nil => simp
            | cons row rows =>
              simp only [List.map_cons, List.zipWith_cons_cons, List.cons.injEq]
              refine ⟨?_, ih rows⟩
              rw [hdot, dotProduct_add, dotProduct_smul, dotProduct_comm G axisZ, axis_dot]
              simp [ldot]
              ring
        exact this Fs H

end CT.Articulated
