import Mathlib.Tactic.LinearCombination
import Mathlib.Tactic.Linarith
import Verif.Model.Articulated
import Verif.Props.Spatial

/-!
# Branches of articulated bodies

Lemmas about the recursions of `Verif.Model.Articulated`, for branches of any length.
-/

namespace CT.Articulated

open Matrix Spatial FrameJac

/-- The hypotheses on a link: the transform is the motion transform of some frame, and the inertia is
symmetric and gives every motion a positive kinetic energy. -/
structure Joint.Ok (j : Joint) : Prop where
  motion : ∃ E o, IsMotionX j.X E o
  symm : j.Iᵀ = j.I
  pos : ∀ u : V6, u ≠ 0 → 0 < u ⬝ᵥ (j.I *ᵥ u)

theorem bump_eq (a : V6) (x : ℝ) : bump a x = a + x • axisZ := by
  funext i
  fin_cases i <;> simp [bump, axisZ, Function.update]

theorem bump_zero (a : V6) : bump a 0 = a := by rw [bump_eq, zero_smul, add_zero]

theorem axis_col (A : M6) : A *ᵥ axisZ = fun i => A i 2 := by
  funext i
  simp [axisZ, Matrix.mulVec, dotProduct, Fin.sum_univ_succ]

theorem axis_dot (u : V6) : axisZ ⬝ᵥ u = u 2 := by
  simp [axisZ, dotProduct, Fin.sum_univ_succ]

theorem axis_ne : axisZ ≠ 0 := fun h => one_ne_zero (congrFun h 2)

/-- The inertia part of a contribution. -/
def cm : Option (M6 × V6) → M6
  | none => 0
  | some r => r.1

/-- The force part of a contribution. -/
def cv : Option (M6 × V6) → V6
  | none => 0
  | some r => r.2

/-- The force of an optional child. -/
def cf : Option V6 → V6
  | none => 0
  | some r => r

theorem addM_eq (A : M6) (o : Option (M6 × V6)) : addM A o = A + cm o := by
  cases o <;> simp [addM, cm]

theorem addV_eq (p : V6) (o : Option (M6 × V6)) : addV p o = p + cv o := by
  cases o <;> simp [addV, cv]

theorem addF_eq (p : V6) (o : Option V6) : addF p o = p + cf o := by
  cases o <;> simp [addF, cf]

/-! ### One link -/

theorem sym_dot {A : M6} (h : Aᵀ = A) (u w : V6) : u ⬝ᵥ (A *ᵥ w) = w ⬝ᵥ (A *ᵥ u) := by
  rw [Matrix.dotProduct_mulVec, ← Matrix.mulVec_transpose, h, dotProduct_comm]

theorem sym_row {A : M6} (h : Aᵀ = A) (u : V6) : (A *ᵥ u) 2 = (fun i => A i 2) ⬝ᵥ u := by
  rw [← axis_dot (A *ᵥ u), sym_dot h, axis_col, dotProduct_comm]

/-- Symmetric and positive definite. -/
structure PD (A : M6) : Prop where
  symm : Aᵀ = A
  pos : ∀ u : V6, u ≠ 0 → 0 < u ⬝ᵥ (A *ᵥ u)

/-- Symmetric and positive semidefinite. -/
structure PSD (A : M6) : Prop where
  symm : Aᵀ = A
  nonneg : ∀ u : V6, 0 ≤ u ⬝ᵥ (A *ᵥ u)

theorem PD.D {A : M6} (h : PD A) : 0 < A 2 2 := by
  have := h.pos axisZ axis_ne
  rwa [axis_dot, axis_col] at this

theorem PD.add {A B : M6} (hA : PD A) (hB : PSD B) : PD (A + B) :=
  ⟨by rw [transpose_add, hA.symm, hB.symm], fun u hu => by
    rw [add_mulVec, dotProduct_add]; linarith [hA.pos u hu, hB.nonneg u]⟩

theorem PSD.zero : PSD 0 := ⟨by simp, fun u => by simp⟩

/-- The inertia a link hands to its parent. -/
noncomputable def schur (A : M6) : M6 := A - (A 2 2)⁻¹ • vecMulVec (fun i => A i 2) (fun i => A i 2)

theorem schur_mulVec (A : M6) (u : V6) :
    schur A *ᵥ u = A *ᵥ u - ((A 2 2)⁻¹ * ((fun i => A i 2) ⬝ᵥ u)) • (fun i => A i 2) := by
  rw [schur, sub_mulVec, smul_mulVec, vecMulVec_mulVec]
  funext i
  simp
  ring

theorem schur_symm {A : M6} (h : Aᵀ = A) : (schur A)ᵀ = schur A := by
  rw [schur, transpose_sub, transpose_smul, transpose_vecMulVec, h]

theorem schur_psd {A : M6} (h : PD A) : PSD (schur A) := by
  refine ⟨schur_symm h.symm, fun u => ?_⟩
  have hD := h.D
  set U : V6 := fun i => A i 2 with hU
  set x : ℝ := -((A 2 2)⁻¹ * (U ⬝ᵥ u)) with hx
  have key : u ⬝ᵥ (schur A *ᵥ u) = (u + x • axisZ) ⬝ᵥ (A *ᵥ (u + x • axisZ)) := by
    rw [schur_mulVec, ← hU, mulVec_add, mulVec_smul, axis_col, ← hU]
    simp only [dotProduct_add, dotProduct_sub, add_dotProduct, smul_dotProduct, dotProduct_smul, smul_eq_mul, axis_dot]
    rw [sym_row h.symm, ← hU, dotProduct_comm u U, show U 2 = A 2 2 from rfl, hx]
    field_simp
    ring
  rw [key]
  by_cases h0 : u + x • axisZ = 0
  · rw [h0]; simp
  · exact (h.pos _ h0).le

theorem congr_psd {A : M6} (h : PSD A) (X : M6) : PSD (Xᵀ * A * X) := by
  refine ⟨by rw [transpose_mul, transpose_mul, transpose_transpose, h.symm, Matrix.mul_assoc], fun u => ?_⟩
  have := h.nonneg (X *ᵥ u)
  rwa [Matrix.mul_assoc, ← mulVec_mulVec, ← mulVec_mulVec, Matrix.dotProduct_mulVec u, ← Matrix.mulVec_transpose,
    transpose_transpose]

theorem lump_fst {j : Joint} (hj : j.Ok) {A : M6} (hA : PD A) (p c : V6) (tau : ℝ) :
    (j.lump A p c tau).1 = j.Xᵀ * schur A * j.X := by
  obtain ⟨E, o, hX⟩ := hj.motion
  have h1 : computeIaRevolute A (fun i => A i 2) (A 2 2) 0 = schur A :=
    computeIaRevolute_eq hA.symm hA.D.ne' 0 (fun i => by simp)
  show ctransformIaRevolute (computeIaRevolute A (fun i => A i 2) (A 2 2) 0) j.X = _
  rw [h1]
  refine C122_ctransform_revolute (schur_symm hA.symm) (fun k => ?_) hX
  rw [schur, Matrix.sub_apply, Matrix.smul_apply, vecMulVec_apply, smul_eq_mul, ← mul_assoc,
    inv_mul_cancel₀ hA.D.ne', one_mul, sub_eq_zero]
  exact congrFun (congrFun hA.symm k) 2

theorem lump_snd (j : Joint) {A : M6} (hA : PD A) (p c : V6) (tau : ℝ) :
    (j.lump A p c tau).2
      = j.Xᵀ *ᵥ (p + schur A *ᵥ c + (((A 2 2)⁻¹ * (tau - p 2)) • fun i => A i 2)) := by
  have h1 : computeIaRevolute A (fun i => A i 2) (A 2 2) 0 = schur A :=
    computeIaRevolute_eq hA.symm hA.D.ne' 0 (fun i => by simp)
  show j.Xᵀ *ᵥ (p + computeIaRevolute A (fun i => A i 2) (A 2 2) 0 *ᵥ c + _) = _
  rw [h1]
  congr 2
  funext i
  simp only [Pi.smul_apply, smul_eq_mul]
  rw [div_eq_mul_inv]
  ring

/-- All links of a branch satisfy the hypotheses. -/
def Branch (ls : List (Joint × ℝ)) : Prop := ∀ e ∈ ls, e.1.Ok

theorem Branch.tail {e : Joint × ℝ} {ls : List (Joint × ℝ)} (h : Branch (e :: ls)) : Branch ls :=
  fun x hx => h x (List.mem_cons_of_mem _ hx)

theorem Branch.head {e : Joint × ℝ} {ls : List (Joint × ℝ)} (h : Branch (e :: ls)) : e.1.Ok :=
  h e List.mem_cons_self

theorem AI_pd {j : Joint} (hj : j.Ok) {o : Option (M6 × V6)} (h : PSD (cm o)) : PD (j.AI o) := by
  rw [Joint.AI, addM_eq]
  exact PD.add ⟨hj.symm, hj.pos⟩ h

theorem up_psd : ∀ (ls : List (Joint × ℝ)) (v : V6), Branch ls → PSD (cm (up v ls))
  | [], _, _ => PSD.zero
  | (j, tau) :: ls, v, h => by
    have ih := up_psd ls (j.vel v) h.tail
    have hA := AI_pd h.head ih
    show PSD (j.lump _ _ _ _).1
    rw [lump_fst h.head hA]
    exact congr_psd (schur_psd hA) _

/-- The force and the torque of a link with its subtree in terms of the acceleration. -/
theorem link_force {A : M6} (hA : PD A) (p a : V6) (tau x : ℝ) :
    ((A *ᵥ (a + x • axisZ) + p) 2 = tau ↔ x = accel A p a tau)
    ∧ (x = accel A p a tau → A *ᵥ (a + x • axisZ) + p
        = schur A *ᵥ a + p + ((A 2 2)⁻¹ * (tau - p 2)) • fun i => A i 2) := by
  have hD := hA.D.ne'
  constructor
  · rw [Pi.add_apply, sym_row hA.symm, dotProduct_add, dotProduct_smul, dotProduct_comm _ axisZ, axis_dot,
      show accel A p a tau = (tau - p 2 - (fun i => A i 2) ⬝ᵥ a) / A 2 2 from rfl, eq_div_iff hD, smul_eq_mul]
    constructor <;> intro h <;> linarith
  · intro hx
    rw [schur_mulVec, mulVec_add, mulVec_smul, axis_col, hx,
      show accel A p a tau = (tau - p 2 - (fun i => A i 2) ⬝ᵥ a) / A 2 2 from rfl, div_eq_mul_inv]
    funext i
    simp only [Pi.add_apply, Pi.smul_apply, Pi.sub_apply, smul_eq_mul]
    ring

/-- The two recursions describe the same motion: the torques of the inverse dynamics are the given ones exactly
for the accelerations of the forward dynamics, and then the force on the parent is the one of the articulated
inertia. -/
theorem chain : ∀ (ls : List (Joint × ℝ)) (v a : V6) (qdds : List ℝ), Branch ls → qdds.length = ls.length →
    ((rnea v a ((ls.map Prod.fst).zip qdds)).2 = ls.map Prod.snd ↔ qdds = down v a ls)
    ∧ (qdds = down v a ls →
        cf (rnea v a ((ls.map Prod.fst).zip qdds)).1 = cm (up v ls) *ᵥ a + cv (up v ls))
  | [], v, a, qdds, _, hl => by
    have : qdds = [] := List.length_eq_zero_iff.mp hl
    subst this
    simp [rnea, down, up, cf, cm, cv]
  | (j, tau) :: ls, v, a, [], _, hl => by simp at hl
  | (j, tau) :: ls, v, a, x :: xs, h, hl => by
    have hl' : xs.length = ls.length := by simpa using hl
    set w := j.vel v with hw
    set a1 := j.X *ᵥ a + j.cor v with ha1
    set r := up w ls with hr
    have hA : PD (j.AI r) := AI_pd h.head (up_psd ls w h.tail)
    obtain ⟨ih1, ih2⟩ := chain ls w (bump a1 x) xs h.tail hl'
    set q := rnea w (bump a1 x) ((ls.map Prod.fst).zip xs) with hq
    have hrn : rnea v a ((((j, tau) :: ls).map Prod.fst).zip (x :: xs))
        = (some (j.Xᵀ *ᵥ addF (j.I *ᵥ bump a1 x + vxIv w j.I - j.fext) q.1),
            addF (j.I *ᵥ bump a1 x + vxIv w j.I - j.fext) q.1 2 :: q.2) := rfl
    have hdn : down v a ((j, tau) :: ls)
        = accel (j.AI r) (j.p v r) a1 tau :: down w (bump a1 (accel (j.AI r) (j.p v r) a1 tau)) ls := rfl
    have hup : up v ((j, tau) :: ls) = some (j.lump (j.AI r) (j.p v r) (j.cor v) tau) := rfl
    have hforce : xs = down w (bump a1 x) ls → addF (j.I *ᵥ bump a1 x + vxIv w j.I - j.fext) q.1
        = j.AI r *ᵥ (a1 + x • axisZ) + j.p v r := by
      intro hx
      rw [addF_eq, ih2 hx, Joint.AI, addM_eq, Joint.p, addV_eq, bump_eq, add_mulVec, ← hw]
      abel
    rw [hrn, hdn, hup]
    obtain ⟨lf1, lf2⟩ := link_force hA (j.p v r) a1 tau x
    constructor
    · simp only [List.map_cons, List.cons.injEq]
      constructor
      · rintro ⟨h1, h2⟩
        have hx := ih1.mp h2
        rw [hforce hx] at h1
        have := lf1.mp h1
        exact ⟨this, by rw [← this]; exact hx⟩
      · rintro ⟨h1, h2⟩
        rw [← h1] at h2
        exact ⟨by rw [hforce h2]; exact lf1.mpr h1, ih1.mpr h2⟩
    · intro hh
      simp only [List.cons.injEq] at hh
      obtain ⟨h1, h2⟩ := hh
      rw [← h1] at h2
      show j.Xᵀ *ᵥ addF (j.I *ᵥ bump a1 x + vxIv w j.I - j.fext) q.1
        = (j.lump _ _ _ _).1 *ᵥ a + (j.lump _ _ _ _).2
      rw [hforce h2, lf2 h1, lump_fst h.head hA, lump_snd j hA, ha1, Matrix.mul_assoc, ← mulVec_mulVec,
        ← mulVec_mulVec, ← mulVec_add]
      congr 1
      rw [mulVec_add]
      abel

/-! ### The whole robot -/

theorem fixed_iff : ∀ (ls : List (Joint × ℝ)) (qdds : List ℝ), Branch ls → qdds.length = ls.length →
    (idFixed ((ls.map Prod.fst).zip qdds) = ls.map Prod.snd ↔ qdds = fdFixed ls)
  | [], qdds, _, hl => by
    have : qdds = [] := List.length_eq_zero_iff.mp hl
    subst this
    simp [idFixed, fdFixed]
  | (j, tau) :: ls, [], _, hl => by simp at hl
  | (j, tau) :: ls, x :: xs, h, hl => by
    have hl' : xs.length = ls.length := by simpa using hl
    set w := firstVel j.qd with hw
    set a1 := firstAcc j.X with ha1
    set r := up w ls with hr
    have hA : PD (j.AI r) := AI_pd h.head (up_psd ls w h.tail)
    obtain ⟨ih1, ih2⟩ := chain ls w (bump a1 x) xs h.tail hl'
    set q := rnea w (bump a1 x) ((ls.map Prod.fst).zip xs) with hq
    set p := addV (-j.fext + vxIvz j.qd j.I) r with hp
    have hrn : idFixed ((((j, tau) :: ls).map Prod.fst).zip (x :: xs))
        = addF (j.I *ᵥ bump a1 x + vxIvz j.qd j.I - j.fext) q.1 2 :: q.2 := rfl
    have hdn : fdFixed ((j, tau) :: ls)
        = accel (j.AI r) p a1 tau :: down w (bump a1 (accel (j.AI r) p a1 tau)) ls := rfl
    have hforce : xs = down w (bump a1 x) ls → addF (j.I *ᵥ bump a1 x + vxIvz j.qd j.I - j.fext) q.1
        = j.AI r *ᵥ (a1 + x • axisZ) + p := by
      intro hx
      rw [addF_eq, ih2 hx, Joint.AI, addM_eq, hp, addV_eq, bump_eq, add_mulVec]
      abel
    rw [hrn, hdn]
    obtain ⟨lf1, -⟩ := link_force hA p a1 tau x
    simp only [List.map_cons, List.cons.injEq]
    constructor
    · rintro ⟨h1, h2⟩
      have hx := ih1.mp h2
      rw [hforce hx] at h1
      have := lf1.mp h1
      exact ⟨this, by rw [← this]; exact hx⟩
    · rintro ⟨h1, h2⟩
      rw [← h1] at h2
      exact ⟨by rw [hforce h2]; exact lf1.mpr h1, ih1.mpr h2⟩

theorem down_length : ∀ (ls : List (Joint × ℝ)) (v a : V6), (down v a ls).length = ls.length
  | [], _, _ => rfl
  | _ :: ls, _, _ => by simp [down, down_length ls]

theorem fdFixed_length (ls : List (Joint × ℝ)) : (fdFixed ls).length = ls.length := by
  cases ls <;> simp [fdFixed, down_length]

/-- Hypotheses on the base. -/
structure Base.Ok (b : Base) : Prop where
  symm : b.Iᵀ = b.I
  pos : ∀ u : V6, u ≠ 0 → 0 < u ⬝ᵥ (b.I *ᵥ u)

theorem foldl_addM (v : V6) : ∀ (brs : List (List (Joint × ℝ))) (A : M6),
    brs.foldl (fun A br => addM A (up v br)) A = A + (brs.map fun br => cm (up v br)).sum
  | [], A => by simp
  | br :: brs, A => by rw [List.foldl_cons, foldl_addM v brs, addM_eq, List.map_cons, List.sum_cons, add_assoc]

theorem foldl_addV (v : V6) : ∀ (brs : List (List (Joint × ℝ))) (p : V6),
    brs.foldl (fun p br => addV p (up v br)) p = p + (brs.map fun br => cv (up v br)).sum
  | [], A => by simp
  | br :: brs, A => by rw [List.foldl_cons, foldl_addV v brs, addV_eq, List.map_cons, List.sum_cons, add_assoc]

theorem foldl_addF {α : Type} (g : α → Option V6) : ∀ (brs : List α) (p : V6),
    brs.foldl (fun p br => addF p (g br)) p = p + (brs.map fun br => cf (g br)).sum
  | [], A => by simp
  | br :: brs, A => by rw [List.foldl_cons, foldl_addF g brs, addF_eq, List.map_cons, List.sum_cons, add_assoc]

theorem sum_psd (v : V6) : ∀ (brs : List (List (Joint × ℝ))), (∀ br ∈ brs, Branch br) →
    PSD (brs.map fun br => cm (up v br)).sum
  | [], _ => PSD.zero
  | br :: brs, h => by
    have h1 := up_psd br v (h br List.mem_cons_self)
    have h2 := sum_psd v brs (fun b hb => h b (List.mem_cons_of_mem _ hb))
    rw [List.map_cons, List.sum_cons]
    exact ⟨by rw [transpose_add, h1.symm, h2.symm], fun u => by
      rw [add_mulVec, dotProduct_add]; linarith [h1.nonneg u, h2.nonneg u]⟩

theorem PD.det {A : M6} (h : PD A) : IsUnit A.det := by
  by_contra hn
  rw [isUnit_iff_ne_zero, not_not, ← Matrix.exists_mulVec_eq_zero_iff] at hn
  obtain ⟨u, hu, h0⟩ := hn
  have := h.pos u hu
  rw [h0, dotProduct_zero] at this
  exact lt_irrefl _ this

theorem base_pd {b : Base} (hb : b.Ok) {brs : List (List (Joint × ℝ))} (h : ∀ br ∈ brs, Branch br) : PD (b.AI brs) := by
  rw [Base.AI, foldl_addM]
  exact PD.add ⟨hb.symm, hb.pos⟩ (sum_psd _ _ h)

/-- The branches with other numbers at the joints. -/
def withJoints (brs : List (List (Joint × ℝ))) (xs : List (List ℝ)) : List (List (Joint × ℝ)) :=
  List.zipWith (fun br x => (br.map Prod.fst).zip x) brs xs

theorem branches_iff (v a : V6) : ∀ (brs : List (List (Joint × ℝ))) (qdds : List (List ℝ)),
    (∀ br ∈ brs, Branch br) → qdds.map List.length = brs.map List.length →
    (((withJoints brs qdds).map fun br => (rnea v a br).2) = brs.map (List.map Prod.snd)
        ↔ qdds = brs.map (down v a))
    ∧ (qdds = brs.map (down v a) → ((withJoints brs qdds).map fun br => cf (rnea v a br).1).sum
        = (brs.map fun br => cm (up v br)).sum *ᵥ a + (brs.map fun br => cv (up v br)).sum)
  | [], [], _, _ => by simp [withJoints]
  | [], _ :: _, _, hl => by simp at hl
  | _ :: _, [], _, hl => by simp at hl
  | br :: brs, x :: xs, h, hl => by
    simp only [List.map_cons, List.cons.injEq] at hl
    obtain ⟨c1, c2⟩ := chain br v a x (h br List.mem_cons_self) hl.1
    obtain ⟨i1, i2⟩ := branches_iff v a brs xs (fun b hb => h b (List.mem_cons_of_mem _ hb)) hl.2
    have hz : withJoints (br :: brs) (x :: xs) = ((br.map Prod.fst).zip x) :: withJoints brs xs := rfl
    rw [hz]
    constructor
    · simp only [List.map_cons, List.cons.injEq]
      rw [c1, i1]
    · intro hh
      simp only [List.map_cons, List.cons.injEq] at hh
      simp only [List.map_cons, List.sum_cons]
      rw [c2 hh.1, i2 hh.2, add_mulVec]
      abel

theorem float_iff {b : Base} (hb : b.Ok) (g acc : V6) (brs : List (List (Joint × ℝ))) (qdds : List (List ℝ))
    (h : ∀ br ∈ brs, Branch br) (hl : qdds.map List.length = brs.map List.length) :
    idFull b g acc (withJoints brs qdds) = (0, brs.map (List.map Prod.snd)) ↔ (acc, qdds) = fdFloat b g brs := by
  have hA := base_pd hb h
  have hdet := hA.det
  obtain ⟨b1, b2⟩ := branches_iff b.v (acc - g) brs qdds h hl
  have hf : qdds = brs.map (down b.v (acc - g)) →
      (idFull b g acc (withJoints brs qdds)).1 = b.AI brs *ᵥ (acc - g) + b.p brs := by
    intro hq
    show (withJoints brs qdds).foldl (fun f br => addF f (rnea b.v (acc - g) br).1) _ = _
    rw [foldl_addF, b2 hq, Base.AI, foldl_addM, Base.p, foldl_addV, add_mulVec]
    abel
  have hsolve : b.AI brs *ᵥ (acc - g) + b.p brs = 0 ↔ acc - g = -((b.AI brs)⁻¹ *ᵥ b.p brs) := by
    constructor
    · intro h0
      have h1 : b.AI brs *ᵥ (acc - g) = -b.p brs := eq_neg_of_add_eq_zero_left h0
      rw [← mulVec_neg, ← h1, mulVec_mulVec, nonsing_inv_mul _ hdet, one_mulVec]
    · intro h0
      rw [h0, mulVec_neg, mulVec_mulVec, mul_nonsing_inv _ hdet, one_mulVec, neg_add_cancel]
  have hfd : fdFloat b g brs = (-((b.AI brs)⁻¹ *ᵥ b.p brs) + g, brs.map (down b.v (-((b.AI brs)⁻¹ *ᵥ b.p brs)))) := rfl
  have hid : idFull b g acc (withJoints brs qdds)
      = ((idFull b g acc (withJoints brs qdds)).1, (withJoints brs qdds).map fun br => (rnea b.v (acc - g) br).2) := rfl
  rw [hid, hfd, Prod.mk.injEq, Prod.mk.injEq, b1]
  constructor
  · rintro ⟨h1, h2⟩
    rw [hf h2] at h1
    have h3 := hsolve.mp h1
    exact ⟨by rw [← h3]; abel, by rw [← h3]; exact h2⟩
  · rintro ⟨h1, h2⟩
    have h3 : acc - g = -((b.AI brs)⁻¹ *ᵥ b.p brs) := by rw [h1]; abel
    rw [← h3] at h2
    exact ⟨by rw [hf h2]; exact hsolve.mpr h3, h2⟩

end CT.Articulated
