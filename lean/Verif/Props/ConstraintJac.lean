import Verif.Props.FrameJac

/-!
# C117: the time derivative of the constraint Jacobian

The Jacobian of the generated code is that of a kinematic chain; a branch of a kinematic tree is a
chain in which the joints of other branches are absent.
-/

namespace CT.FrameJac

open Matrix CT.OpJac

/-! ### Specification: a kinematic chain -/

/-- A joint: turning about an axis, sliding along an axis, or not on this branch of the tree. -/
inductive Kind
  | revolute | prismatic | absent
deriving DecidableEq

/-- One joint with the link that precedes it: fixed offset `d` and fixed rotation `C` from the previous
joint, axis `a` in the rotated frame, and the rotation `turn θ` by the angle `θ` about `a`. -/
structure Joint where
  kind : Kind
  d : V3
  C : M3
  a : V3
  turn : ℝ → M3

/-- `C` is a rotation and `turn` turns about the axis `a` at unit speed. -/
structure Joint.Valid (j : Joint) : Prop where
  C : IsRot j.C
  rot : ∀ θ, IsRot (j.turn θ)
  turns : ∀ θ (c : V3), VDeriv (fun θ => j.turn θ *ᵥ c) (cross j.a (j.turn θ *ᵥ c)) θ

/-- Orientation and position of the frame before joint `i`. -/
noncomputable def frame (c : ℕ → Joint) (q : ℕ → ℝ) : ℕ → M3 × V3
  | 0 => (1, 0)
  | i + 1 =>
    let R := (frame c q i).1
    let p := (frame c q i).2
    match (c i).kind with
    | .revolute => (R * (c i).C * (c i).turn (q i), p + R *ᵥ (c i).d)
    | .prismatic => (R * (c i).C, p + R *ᵥ (c i).d + q i • ((R * (c i).C) *ᵥ (c i).a))
    | .absent => (R, p)

/-- Position of the end effector, fixed at `tool` in the frame of the last of `nj` joints. -/
noncomputable def endEffector (c : ℕ → Joint) (tool : V3) (nj : ℕ) (q : ℕ → ℝ) : V3 :=
  (frame c q nj).2 + (frame c q nj).1 *ᵥ tool

/-- The axis of joint `i` in base coordinates. -/
noncomputable def axis (c : ℕ → Joint) (q : ℕ → ℝ) (i : ℕ) : V3 := ((frame c q i).1 * (c i).C) *ᵥ (c i).a

/-- A point on the axis of joint `i`, in base coordinates. -/
noncomputable def origin (c : ℕ → Joint) (q : ℕ → ℝ) (i : ℕ) : V3 :=
  (frame c q i).2 + (frame c q i).1 *ᵥ (c i).d

/-- Column `i` of the rotational part of the geometric Jacobian. -/
noncomputable def rotCol (c : ℕ → Joint) (q : ℕ → ℝ) (i : ℕ) : V3 :=
  match (c i).kind with
  | .revolute => axis c q i
  | _ => 0

/-- Column `i` of the translational part of the geometric Jacobian. -/
noncomputable def transCol (c : ℕ → Joint) (tool : V3) (nj : ℕ) (q : ℕ → ℝ) (i : ℕ) : V3 :=
  match (c i).kind with
  | .revolute => cross (axis c q i) (endEffector c tool nj q - origin c q i)
  | .prismatic => axis c q i
  | .absent => 0

/-! ### Derivatives along a motion -/

section
variable {c : ℕ → Joint} (hc : ∀ i, (c i).Valid)
include hc

theorem frame_rot (q : ℕ → ℝ) (i : ℕ) : IsRot (frame c q i).1 := by
  induction i with
  | zero => exact IsRot.one
  | succ i ih =>
    simp only [frame]
    cases (c i).kind with
    | revolute => exact (ih.mul (hc i).C).mul ((hc i).rot _)
    | prismatic => exact ih.mul (hc i).C
    | absent => exact ih

variable {q : ℝ → ℕ → ℝ} {qd : ℕ → ℝ} {t : ℝ} (hq : ∀ i, HasDerivAt (fun s => q s i) (qd i) t)
include hq

/-- The angular velocity of frame `i` is the sum of the columns before it. -/
theorem frame_turns (i : ℕ) (v : V3) :
    VDeriv (fun s => (frame c (q s) i).1 *ᵥ v)
      (cross (∑ j ∈ Finset.range i, qd j • rotCol c (q t) j) ((frame c (q t) i).1 *ᵥ v)) t := by
  induction i generalizing v with
  | zero =>
    simp only [frame, Finset.range_zero, Finset.sum_empty, zero_cross]
    exact VDeriv.const _ _
  | succ i ih =>
    have hM : MDeriv (fun s => (frame c (q s) i).1)
        (cpm (∑ j ∈ Finset.range i, qd j • rotCol c (q t) j) * (frame c (q t) i).1) t :=
      rot_matrix fun v => by rw [← Matrix.mulVec_mulVec, cpm_mulVec]; exact ih v
    rw [Finset.sum_range_succ, add_cross]
    cases hk : (c i).kind with
    | revolute =>
      have hr : rotCol c (q t) i = axis c (q t) i := by simp only [rotCol, hk]
      simp only [frame, hk]
      rw [hr]
      -- the turning joint as a function of time
      have ht : VDeriv (fun s => (c i).turn (q s i) *ᵥ v)
          (qd i • cross (c i).a ((c i).turn (q t i) *ᵥ v)) t := by
        intro a
        have := HasDerivAt.scomp t ((hc i).turns (q t i) v a) (hq i)
        simpa [Function.comp_def] using this
      have h1 := mulVec_deriv (hM.mul (MDeriv.const (c i).C t)) ht
      intro a
      have h2 := h1 a
      simp only [Matrix.mulVec_mulVec] at h2
      refine h2.congr_deriv ?_
      simp only [Pi.add_apply]
      have hR := (frame_rot hc (q t) i).mul (hc i).C
      have e1 : ((cpm (∑ j ∈ Finset.range i, qd j • rotCol c (q t) j) * (frame c (q t) i).1) * (c i).C +
            (frame c (q t) i).1 * (0 : M3)) * (c i).turn (q t i) =
          cpm (∑ j ∈ Finset.range i, qd j • rotCol c (q t) j) *
            ((frame c (q t) i).1 * (c i).C * (c i).turn (q t i)) := by
        simp only [Matrix.mul_zero, add_zero, Matrix.mul_assoc]
      rw [e1, ← Matrix.mulVec_mulVec _ (cpm _), cpm_mulVec]
      have e2 : ((frame c (q t) i).1 * (c i).C) *ᵥ (qd i • cross (c i).a ((c i).turn (q t i) *ᵥ v)) =
          cross (qd i • axis c (q t) i) (((frame c (q t) i).1 * (c i).C * (c i).turn (q t i)) *ᵥ v) := by
        rw [Matrix.mulVec_smul, hR.cross, smul_cross, Matrix.mulVec_mulVec]
        rfl
      rw [e2]
    | prismatic =>
      have hr : rotCol c (q t) i = 0 := by simp only [rotCol, hk]
      simp only [frame, hr, hk, smul_zero, zero_cross, add_zero]
      have h1 := ih ((c i).C *ᵥ v)
      simpa only [Matrix.mulVec_mulVec] using h1
    | absent =>
      have hr : rotCol c (q t) i = 0 := by simp only [rotCol, hk]
      simp only [frame, hr, hk, smul_zero, zero_cross, add_zero]
      exact ih v

theorem axis_deriv (i : ℕ) :
    VDeriv (fun s => axis c (q s) i)
      (cross (∑ j ∈ Finset.range i, qd j • rotCol c (q t) j) (axis c (q t) i)) t := by
  have h1 := frame_turns hc hq i ((c i).C *ᵥ (c i).a)
  simp only [Matrix.mulVec_mulVec] at h1
  exact h1

variable (tool : V3) (nj : ℕ)

/-- The velocity of the point before joint `i`. -/
theorem frame_moves (i : ℕ) :
    VDeriv (fun s => (frame c (q s) i).2)
      (∑ j ∈ Finset.range i, qd j • (transCol c tool nj (q t) j +
        cross (rotCol c (q t) j) ((frame c (q t) i).2 - endEffector c tool nj (q t)))) t := by
  induction i with
  | zero =>
    simp only [frame, Finset.range_zero, Finset.sum_empty]
    exact VDeriv.const _ _
  | succ i ih =>
    set e := endEffector c tool nj (q t) with he
    -- moving the reference point
    have shift : ∀ w : V3, ∑ j ∈ Finset.range i, qd j • (transCol c tool nj (q t) j +
          cross (rotCol c (q t) j) ((frame c (q t) i).2 - e)) +
        cross (∑ j ∈ Finset.range i, qd j • rotCol c (q t) j) w =
        ∑ j ∈ Finset.range i, qd j • (transCol c tool nj (q t) j +
          cross (rotCol c (q t) j) ((frame c (q t) i).2 + w - e)) := by
      intro w
      rw [sum_cross, ← Finset.sum_add_distrib]
      refine Finset.sum_congr rfl (fun j _ => ?_)
      rw [smul_cross, ← smul_add, add_assoc, ← cross_add]
      congr 3
      abel
    have ho := ih.add (frame_turns hc hq i (c i).d)
    rw [shift] at ho
    rw [Finset.sum_range_succ]
    cases hk : (c i).kind with
    | revolute =>
      simp only [frame, hk]
      have z : transCol c tool nj (q t) i + cross (rotCol c (q t) i)
          ((frame c (q t) i).2 + (frame c (q t) i).1 *ᵥ (c i).d - e) = 0 := by
        simp only [transCol, rotCol, hk, ← he, origin]
        rw [← cross_add]
        have : e - ((frame c (q t) i).2 + (frame c (q t) i).1 *ᵥ (c i).d) +
            ((frame c (q t) i).2 + (frame c (q t) i).1 *ᵥ (c i).d - e) = 0 := by abel
        rw [this, cross_zero]
      rw [z, smul_zero, add_zero]
      exact ho
    | prismatic =>
      simp only [frame, hk]
      have h1 := ho.add (VDeriv.smul (hq i) (axis_deriv hc hq i))
      intro a
      refine (h1 a).congr_deriv ?_
      refine congrFun ?_ a
      change _ = ∑ j ∈ Finset.range i, qd j • (transCol c tool nj (q t) j +
          cross (rotCol c (q t) j) ((frame c (q t) i).2 + (frame c (q t) i).1 *ᵥ (c i).d +
            q t i • axis c (q t) i - e)) + _
      rw [show transCol c tool nj (q t) i = axis c (q t) i by simp only [transCol, hk],
        show rotCol c (q t) i = 0 by simp only [rotCol, hk], zero_cross, add_zero, sum_cross,
        Finset.smul_sum, add_comm (qd i • _), ← add_assoc, ← Finset.sum_add_distrib]
      congr 1
      refine Finset.sum_congr rfl (fun j _ => ?_)
      rw [smul_cross, smul_comm (q t i), ← smul_add, add_assoc, ← cross_smul, ← cross_add]
      congr 3
      abel
    | absent =>
      simp only [frame, hk]
      rw [show transCol c tool nj (q t) i = 0 by simp only [transCol, hk],
        show rotCol c (q t) i = 0 by simp only [rotCol, hk], zero_cross, add_zero, smul_zero, add_zero]
      exact ih

/-- The columns are the Jacobian of the position of the end effector. -/
theorem endEffector_moves :
    VDeriv (fun s => endEffector c tool nj (q s))
      (∑ j ∈ Finset.range nj, qd j • transCol c tool nj (q t) j) t := by
  have h1 := (frame_moves hc hq tool nj nj).add (frame_turns hc hq nj tool)
  intro a
  refine (h1 a).congr_deriv (congrFun ?_ a)
  rw [sum_cross, ← Finset.sum_add_distrib]
  refine Finset.sum_congr rfl (fun j _ => ?_)
  rw [smul_cross, ← smul_add, add_assoc, ← cross_add]
  have : (frame c (q t) nj).2 - endEffector c tool nj (q t) + (frame c (q t) nj).1 *ᵥ tool = 0 := by
    simp only [endEffector]; abel
  rw [this, cross_zero, add_zero]

/-- The derivative of column `i`. -/
theorem transCol_deriv {i : ℕ} (hi : i < nj) :
    VDeriv (fun s => transCol c tool nj (q s) i)
      (∑ j ∈ Finset.range nj, qd j • (if i ≥ j then cross (rotCol c (q t) j) (transCol c tool nj (q t) i)
        else cross (rotCol c (q t) i) (transCol c tool nj (q t) j))) t := by
  have split : ∀ f : ℕ → V3, ∑ j ∈ Finset.range nj, f j =
      ∑ j ∈ Finset.range i, f j + f i + ∑ j ∈ Finset.Ico (i + 1) nj, f j := by
    intro f
    rw [← Finset.sum_range_succ, Finset.sum_range_add_sum_Ico _ (by omega : i + 1 ≤ nj)]
  have hlo : ∑ j ∈ Finset.range i, qd j • (if i ≥ j then
        cross (rotCol c (q t) j) (transCol c tool nj (q t) i)
        else cross (rotCol c (q t) i) (transCol c tool nj (q t) j)) =
      ∑ j ∈ Finset.range i, qd j • cross (rotCol c (q t) j) (transCol c tool nj (q t) i) := by
    refine Finset.sum_congr rfl (fun j hj => ?_)
    rw [Finset.mem_range] at hj
    rw [if_pos (by omega)]
  have hhi : ∑ j ∈ Finset.Ico (i + 1) nj, qd j • (if i ≥ j then
        cross (rotCol c (q t) j) (transCol c tool nj (q t) i)
        else cross (rotCol c (q t) i) (transCol c tool nj (q t) j)) =
      ∑ j ∈ Finset.Ico (i + 1) nj, qd j • cross (rotCol c (q t) i) (transCol c tool nj (q t) j) := by
    refine Finset.sum_congr rfl (fun j hj => ?_)
    rw [Finset.mem_Ico] at hj
    rw [if_neg (by omega)]
  rw [split, hlo, hhi, if_pos (le_refl i)]
  cases hk : (c i).kind with
  | revolute =>
    have hr : rotCol c (q t) i = axis c (q t) i := by simp only [rotCol, hk]
    have ht : ∀ s, transCol c tool nj (q s) i =
        cross (axis c (q s) i) (endEffector c tool nj (q s) - origin c (q s) i) := by
      intro s; simp only [transCol, hk]
    simp only [ht]
    have ho := (frame_moves hc hq tool nj i).add (frame_turns hc hq i (c i).d)
    have h1 := cross_deriv (axis_deriv hc hq i) ((endEffector_moves hc hq tool nj).sub ho)
    intro a
    refine (h1 a).congr_deriv (congrFun ?_ a)
    set e := endEffector c tool nj (q t) with he
    change cross _ (e - origin c (q t) i) + _ = _
    rw [hr]
    set z := axis c (q t) i
    set o := origin c (q t) i with hoo
    have e1 : ∑ j ∈ Finset.range i, qd j • (transCol c tool nj (q t) j +
          cross (rotCol c (q t) j) ((frame c (q t) i).2 - e)) +
        cross (∑ j ∈ Finset.range i, qd j • rotCol c (q t) j) ((frame c (q t) i).1 *ᵥ (c i).d) =
        ∑ j ∈ Finset.range i, qd j • transCol c tool nj (q t) j -
        ∑ j ∈ Finset.range i, qd j • cross (rotCol c (q t) j) (e - o) := by
      rw [sum_cross, ← Finset.sum_add_distrib, ← Finset.sum_sub_distrib]
      refine Finset.sum_congr rfl (fun j _ => ?_)
      rw [smul_cross, ← smul_add, ← smul_sub, add_assoc, ← cross_add]
      congr 1
      have : (frame c (q t) i).2 - e + (frame c (q t) i).1 *ᵥ (c i).d = -(e - o) := by
        rw [hoo, origin]; abel
      rw [this]
      funext b; fin_cases b <;> simp [cross] <;> ring
    rw [e1, split (fun j => qd j • transCol c tool nj (q t) j), ht t, ← he, ← hoo]
    have e2 : ∑ j ∈ Finset.range i, qd j • transCol c tool nj (q t) j + qd i • cross z (e - o) +
          ∑ j ∈ Finset.Ico (i + 1) nj, qd j • transCol c tool nj (q t) j -
        (∑ j ∈ Finset.range i, qd j • transCol c tool nj (q t) j -
          ∑ j ∈ Finset.range i, qd j • cross (rotCol c (q t) j) (e - o)) =
        ∑ j ∈ Finset.range i, qd j • cross (rotCol c (q t) j) (e - o) + qd i • cross z (e - o) +
          ∑ j ∈ Finset.Ico (i + 1) nj, qd j • transCol c tool nj (q t) j := by abel
    rw [e2, cross_add, cross_add, cross_sum, cross_sum, sum_cross, sum_cross, cross_smul, ← add_assoc,
      ← add_assoc, ← Finset.sum_add_distrib]
    refine congrArg₂ (· + ·) (congrArg₂ (· + ·) (Finset.sum_congr rfl fun j _ => ?_) rfl)
      (Finset.sum_congr rfl fun j _ => ?_)
    · rw [smul_cross, smul_cross, cross_smul, ← smul_add, jacobi]
    · rw [cross_smul]
  | prismatic =>
    have hr : rotCol c (q t) i = 0 := by simp only [rotCol, hk]
    have ht : ∀ s, transCol c tool nj (q s) i = axis c (q s) i := by
      intro s; simp only [transCol, hk]
    simp only [ht]
    intro a
    refine (axis_deriv hc hq i a).congr_deriv (congrFun ?_ a)
    simp only [hr, zero_cross, smul_zero, Finset.sum_const_zero, add_zero]
    rw [sum_cross]
    exact Finset.sum_congr rfl fun j _ => smul_cross _ _ _
  | absent =>
    have hr : rotCol c (q t) i = 0 := by simp only [rotCol, hk]
    have ht : ∀ s, transCol c tool nj (q s) i = 0 := by
      intro s; simp only [transCol, hk]
    simp only [ht, hr, zero_cross, cross_zero, smul_zero, Finset.sum_const_zero, add_zero]
    exact VDeriv.const _ _

end

/-! ### The code -/

theorem dJdtJoints_eq (nj : ℕ) (rot trans : ℕ → V3) (qd : ℕ → ℝ) (i : ℕ) :
    dJdtJoints nj rot trans qd i = ∑ j ∈ Finset.range nj, qd j •
      (if i ≥ j then cross (rot j) (trans i) else cross (rot i) (trans j)) := by
  unfold dJdtJoints
  induction nj with
  | zero => simp
  | succ n ih => rw [List.range_succ, List.foldl_append, ih, Finset.sum_range_succ]; rfl

theorem dJdtBase_eq (v : V3) : dJdtBase v = -cpm v := by
  ext i j
  fin_cases i <;> fin_cases j <;> simp [dJdtBase, cpm]

theorem cols_mulVec (nj : ℕ) (f : ℕ → V3) (x : ℕ → ℝ) :
    cols nj f *ᵥ (fun j : Fin nj => x j) = ∑ j ∈ Finset.range nj, x j • f j := by
  funext a
  simp only [cols, Matrix.mulVec, dotProduct, Finset.sum_apply, Pi.smul_apply, smul_eq_mul]
  rw [Finset.sum_range fun j => x j * f j a]
  exact Finset.sum_congr rfl fun j _ => mul_comm _ _

/-- **C117.** Along every motion of the joints, the rows that `getJacobianOriginDerivative` computes for
an end effector are the time derivatives of the rows that `getJacobianOrigin` computes for it, if the
generated code returns position and geometric Jacobian of a kinematic chain: any number of joints,
revolute or prismatic, or not on the branch that leads to the end effector. -/
theorem C117_dJdt {c : ℕ → Joint} (hc : ∀ i, (c i).Valid) (tool : V3) (nj : ℕ) {q : ℝ → ℕ → ℝ}
    {qd : ℕ → ℝ} {t : ℝ} (hq : ∀ i, HasDerivAt (fun s => q s i) (qd i) t) :
    MDeriv (fun s => eeJacobian nj (endEffector c tool nj (q s)) (transCol c tool nj (q s)))
      (eeDerivative nj (rotCol c (q t)) (transCol c tool nj (q t)) qd) t := by
  unfold eeJacobian eeDerivative jacTranslation
  simp only [cols_mulVec, dJdtBase_eq]
  refine cat_deriv ?_ (MDeriv.const 1 t) ?_
  · have h1 := MDeriv.neg' (cpm_deriv (endEffector_moves hc hq tool nj))
    intro i j
    have := h1 i j
    simpa only [Matrix.neg_mul, Matrix.one_mul] using this
  · intro a i
    have h1 := transCol_deriv hc hq tool nj i.2 a
    simp only [Matrix.one_mul, cols, dJdtJoints_eq]
    exact h1

/-- The joint columns of the constraint Jacobian are the Jacobian of the position of the end effector. -/
theorem C117_jacobian {c : ℕ → Joint} (hc : ∀ i, (c i).Valid) (tool : V3) (nj : ℕ) {q : ℝ → ℕ → ℝ}
    {qd : ℕ → ℝ} {t : ℝ} (hq : ∀ i, HasDerivAt (fun s => q s i) (qd i) t) :
    VDeriv (fun s => endEffector c tool nj (q s))
      (eeJacobian nj (endEffector c tool nj (q t)) (transCol c tool nj (q t)) *ᵥ
        gv 0 0 (fun j : Fin nj => qd j)) t := by
  have h1 := endEffector_moves hc hq tool nj
  unfold eeJacobian jacTranslation
  rw [cat_mulVec, Matrix.mulVec_zero, Matrix.mulVec_zero, add_zero, zero_add, Matrix.one_mul, cols_mulVec]
  exact h1

/-! ### Assembly of the rows -/

theorem resetStructure_spec (NEE : ℕ) (ee old : ℕ → Bool) :
    (resetStructure NEE ee old).1 = (List.range NEE).filter ee ∧
    ∀ e < NEE, ee e = true → (resetStructure NEE ee old).2 e = true := by
  unfold resetStructure
  induction NEE with
  | zero => simp
  | succ N ih =>
    obtain ⟨h1, h2⟩ := ih
    rw [List.range_succ, List.foldl_append, List.foldl_cons, List.foldl_nil, List.filter_append]
    by_cases h : ee N = true
    · rw [if_pos h]
      refine ⟨by rw [h1]; simp [h], fun e he hee => ?_⟩
      by_cases heN : e = N
      · subst heN; simp [h]
      · simp only [Function.update_of_ne heN]
        exact h2 e (by omega) hee
    · rw [if_neg h]
      refine ⟨by rw [h1]; simp [h], fun e he hee => ?_⟩
      exact h2 e (by rcases Nat.lt_succ_iff_lt_or_eq.1 he with h' | h' <;> [exact h'; (subst h'; exact absurd hee h)]) hee

theorem assemble_spec {κ : Type} (fl : ℕ → Bool) (block : ℕ → Matrix (Fin 3) κ ℝ) (l : List ℕ)
    (e : ℕ) (a : Fin 3) (x : κ) :
    assemble l fl block (3 * e + a) x = if e ∈ l ∧ fl e = true then block e a x else 0 := by
  unfold assemble
  induction l using List.reverseRecOn with
  | nil => simp
  | append_singleton l b ih =>
    rw [List.foldl_append, List.foldl_cons, List.foldl_nil]
    by_cases hb : fl b = true
    · rw [if_pos hb]
      by_cases he : e = b
      · subst he
        rw [dif_pos ⟨by omega, by omega⟩, if_pos ⟨by simp, hb⟩]
        congr 1
        ext
        simp
      · rw [dif_neg (by omega), ih]
        simp [he]
    · rw [if_neg hb, ih]
      by_cases he : e = b
      · subst he; simp [hb]
      · simp [he]

/-- **C117.** The assembled matrices have the block of the end effector in the rows of every end effector
in contact and zeros in the rows of the others, whatever contact configurations were set before. -/
theorem C117_rows {κ : Type} (NEE : ℕ) (ee old : ℕ → Bool) (block : ℕ → Matrix (Fin 3) κ ℝ) {e : ℕ}
    (he : e < NEE) (a : Fin 3) (x : κ) :
    let s := resetStructure NEE ee old
    assemble s.1 s.2 block (3 * e + a) x = if ee e then block e a x else 0 := by
  intro s
  obtain ⟨h1, h2⟩ := resetStructure_spec NEE ee old
  rw [assemble_spec, h1]
  by_cases h : ee e = true
  · rw [if_pos h, if_pos ⟨by simp [he, h], h2 e he h⟩]
  · rw [if_neg h, if_neg (by simp [h])]

/-! ### Contacts do not move -/

/-- The column of a coordinate in the matrices of the library: three angular, three linear velocities of
the base, then the joints. -/
def colOf {nj : ℕ} : Fin 3 ⊕ (Fin 3 ⊕ Fin nj) → ℕ
  | .inl i => i
  | .inr (.inl i) => 3 + i
  | .inr (.inr i) => 6 + i

theorem sum_colOf (nj : ℕ) (f : ℕ → ℝ) :
    ∑ j ∈ Finset.range (6 + nj), f j = ∑ x : Fin 3 ⊕ (Fin 3 ⊕ Fin nj), f (colOf x) := by
  rw [Fintype.sum_sum_type, Fintype.sum_sum_type, Finset.sum_range_add]
  simp only [colOf]
  rw [Finset.sum_range fun j => f (6 + j), show (6 : ℕ) = 3 + 3 from rfl, Finset.sum_range_add,
    Finset.sum_range, Finset.sum_range, add_assoc]

/-- **C117.** Contacts do not move: let a robot with a floating base and `NEE` branches move with the
accelerations `acc` at time `t` that solve the equations of C114, where constraint Jacobian, its
derivative and the product of velocities are those of the code.  Then the position of every end effector
in contact, in the world, has zero acceleration at that time. -/
theorem C117_contact {nj NEE : ℕ} {ee old : ℕ → Bool} {T : ConDyn.Terms} {u acc : ℕ → ℝ} {lam : ℕ → ℕ → ℝ}
    (hS : ConDyn.Solves (6 + nj) NEE ee T u acc lam)
    -- the robot
    {c : ℕ → ℕ → Joint} (hc : ∀ e i, (c e i).Valid) (tool : ℕ → V3)
    -- its motion
    {R : ℝ → M3} {r ω v : ℝ → V3} {q qd : ℝ → ℕ → ℝ} {t : ℝ}
    (hR : ∀ s w, VDeriv (fun s => R s *ᵥ w) (R s *ᵥ cross (ω s) w) s)
    (hr : ∀ s, VDeriv r (R s *ᵥ v s) s) (hq : ∀ s i, HasDerivAt (fun s => q s i) (qd s i) s)
    (hω : VDeriv ω (fun i => acc i) t) (hv : VDeriv v (fun i => acc (3 + i)) t)
    (hqd : ∀ i < nj, HasDerivAt (fun s => qd s i) (acc (6 + i)) t)
    -- what the code computes at time `t`
    (hJ : ∀ row (x : Fin 3 ⊕ (Fin 3 ⊕ Fin nj)), T.J (row, colOf x) =
      assemble (resetStructure NEE ee old).1 (resetStructure NEE ee old).2
        (fun e => eeJacobian nj (endEffector (c e) (tool e) nj (q t)) (transCol (c e) (tool e) nj (q t)))
        row x)
    (hdJ : ∀ row (x : Fin 3 ⊕ (Fin 3 ⊕ Fin nj)), T.dJ (row, colOf x) =
      assemble (resetStructure NEE ee old).1 (resetStructure NEE ee old).2
        (fun e => eeDerivative nj (rotCol (c e) (q t)) (transCol (c e) (tool e) nj (q t)) (qd t)) row x)
    (hTqd : ∀ x : Fin 3 ⊕ (Fin 3 ⊕ Fin nj), T.qd (colOf x) = gv (ω t) (v t) (fun j : Fin nj => qd t j) x)
    (hcr : ∀ e (a : Fin 3), T.cross e a = cross (ω t) (eeVelocityInBase
      (cols nj (transCol (c e) (tool e) nj (q t))) (endEffector (c e) (tool e) nj (q t)) (ω t) (v t)
      (fun j : Fin nj => qd t j)) a)
    {e : ℕ} (he : e < NEE) (hee : ee e = true) :
    ∃ vel : ℝ → V3,
      (∀ s, VDeriv (fun s => eePositionInWorld (r s) (R s) (endEffector (c e) (tool e) nj (q s))) (vel s) s) ∧
      VDeriv vel 0 t := by
  set J : ℝ → Matrix (Fin 3) (Fin nj) ℝ := fun s => cols nj (transCol (c e) (tool e) nj (q s)) with hJdef
  set p : ℝ → V3 := fun s => endEffector (c e) (tool e) nj (q s) with hp
  set qf : ℝ → Fin nj → ℝ := fun s j => qd s j with hqf
  have hm : ∀ s, Motion R r p ω v J qf s := by
    intro s
    refine ⟨hR s, hr s, ?_⟩
    have := endEffector_moves (hc e) (hq s) (tool e) nj
    rw [← cols_mulVec] at this
    exact this
  refine ⟨fun s => eeVelocityInWorld (R s) (J s) (p s) (ω s) (v s) (qf s), fun s => (C116_velocity (hm s)).1, ?_⟩
  -- the derivative of the joint columns
  have hdJ' : MDeriv J (cols nj (dJdtJoints nj (rotCol (c e) (q t)) (transCol (c e) (tool e) nj (q t)) (qd t))) t := by
    intro a i
    have h1 := transCol_deriv (hc e) (hq t) (tool e) nj i.2 a
    simp only [hJdef, cols, dJdtJoints_eq]
    exact h1
  have h1 := C116_acceleration (hm t) hdJ' hω hv (fun i => hqd i i.2)
  have key : jacTranslation 1 (p t) (J t) *ᵥ gv (fun i : Fin 3 => acc i) (fun i : Fin 3 => acc (3 + i))
        (fun i : Fin nj => acc (6 + i)) +
      jacDevTranslation (gv 0 (v t) (qf t)) 1 (p t) (J t) (cols nj (dJdtJoints nj (rotCol (c e) (q t))
        (transCol (c e) (tool e) nj (q t)) (qd t))) *ᵥ gv (ω t) (v t) (qf t) +
      cross (ω t) (eeVelocityInBase (J t) (p t) (ω t) (v t) (qf t)) = 0 := by
    have hdev : jacDevTranslation (gv 0 (v t) (qf t)) 1 (p t) (J t) (cols nj (dJdtJoints nj
        (rotCol (c e) (q t)) (transCol (c e) (tool e) nj (q t)) (qd t))) =
        eeDerivative nj (rotCol (c e) (q t)) (transCol (c e) (tool e) nj (q t)) (qd t) := by
      have z : cpm (gvHead (gv 0 (v t) (qf t))) = 0 := by
        ext i j; fin_cases i <;> fin_cases j <;> simp [cpm, gvHead, gv]
      have hq' : gvTail (gv 0 (v t) (qf t)) = qf t := rfl
      rw [jacDevTranslation, eeDerivative]
      simp only [z, hq', dJdtBase_eq, Matrix.mul_zero, Matrix.zero_mul, neg_zero, zero_sub, zero_add,
        Matrix.one_mul]
      rfl
    rw [hdev]
    funext a
    have hst := hS.still e he hee a a.2
    rw [sum_colOf, sum_colOf, hcr e a] at hst
    simp only [hJ, hdJ, hTqd, C117_rows NEE ee old _ he, hee, if_true] at hst
    rw [Pi.add_apply, Pi.add_apply, Pi.zero_apply, ← hst]
    refine congrArg₂ (· + ·) (congrArg₂ (· + ·) ?_ rfl) rfl
    simp only [Matrix.mulVec, dotProduct]
    refine Finset.sum_congr rfl fun x _ => ?_
    rcases x with i | i | i <;> rfl
  rw [key, Matrix.mulVec_zero] at h1
  exact h1

/-! ### The hypotheses are met -/

/-- A turn about the third axis. -/
noncomputable def turnZ (θ : ℝ) : M3 := !![Real.cos θ, -Real.sin θ, 0; Real.sin θ, Real.cos θ, 0; 0, 0, 1]

/-- A joint that turns about the third axis, one unit along the first axis after the previous one. -/
noncomputable def jointZ (k : Kind) : Joint := ⟨k, ![1, 0, 0], 1, ![0, 0, 1], turnZ⟩

theorem jointZ_valid (k : Kind) : (jointZ k).Valid := by
  refine ⟨IsRot.one, fun θ => ⟨?_, ?_⟩, fun θ w => ?_⟩
  · ext i j
    have := Real.cos_sq_add_sin_sq θ
    fin_cases i <;> fin_cases j <;>
      simp [jointZ, turnZ, Matrix.mul_apply, Fin.sum_univ_three] <;> linarith
  · have := Real.cos_sq_add_sin_sq θ
    simp [jointZ, turnZ, Matrix.det_fin_three]
    linarith
  · have hcos := Real.hasDerivAt_cos θ
    have hsin := Real.hasDerivAt_sin θ
    have e : ∀ s, (jointZ k).turn s *ᵥ w =
        ![Real.cos s * w 0 - Real.sin s * w 1, Real.sin s * w 0 + Real.cos s * w 1, w 2] := by
      intro s
      funext i
      fin_cases i <;> simp [jointZ, turnZ, Matrix.mulVec, dotProduct, Fin.sum_univ_three] <;> ring
    simp only [e]
    intro i
    fin_cases i
    · refine ((hcos.mul_const (w 0)).sub (hsin.mul_const (w 1))).congr_deriv ?_
      simp [jointZ, cross]; ring
    · refine ((hsin.mul_const (w 0)).add (hcos.mul_const (w 1))).congr_deriv ?_
      simp [jointZ, cross]; ring
    · refine (hasDerivAt_const θ (w 2)).congr_deriv ?_
      simp [jointZ, cross]

/-- A chain with turning and sliding joints and joints of another branch meets the hypotheses of C117, on
a motion with constant joint velocities. -/
example : ∃ c : ℕ → Joint, (∀ i, (c i).Valid) ∧ (c 0).kind = .revolute ∧ (c 1).kind = .absent ∧
    (c 2).kind = .prismatic ∧ (c 3).kind = .revolute ∧
    ∀ (t : ℝ) (i : ℕ), HasDerivAt (fun s : ℝ => s * i) i t :=
  ⟨fun i => jointZ (if i = 1 then .absent else if i = 2 then .prismatic else .revolute),
    fun _ => jointZ_valid _, rfl, rfl, rfl, rfl, fun t i => by simpa using (hasDerivAt_id t).mul_const (i : ℝ)⟩

/-- A base that turns about the third axis, with a point that slides along the first: the hypotheses of
C116 are met. -/
example (t : ℝ) : Motion (ι := Fin 1) turnZ (fun _ => 0) (fun s => ![s, 0, 0]) (fun _ => ![0, 0, 1])
    (fun _ => 0) (fun _ => !![1; 0; 0]) (fun _ _ => 1) t ∧ IsRot (turnZ t) ∧
    ∀ c : V3, VDeriv (fun s => turnZ s *ᵥ c)
      (cross ((!![0; 0; 1] : Matrix (Fin 3) (Fin 1) ℝ) *ᵥ (fun _ => 1)) (turnZ t *ᵥ c)) t := by
  have hv := jointZ_valid .revolute
  have ha : ((!![0; 0; 1] : Matrix (Fin 3) (Fin 1) ℝ) *ᵥ (fun _ => 1)) = ![0, 0, 1] := by
    funext i; fin_cases i <;> simp [Matrix.mulVec, dotProduct]
  have hz : turnZ t *ᵥ ![0, 0, 1] = ![0, 0, 1] := by
    funext i; fin_cases i <;> simp [turnZ, Matrix.mulVec, dotProduct, Fin.sum_univ_three]
  refine ⟨⟨fun c => ?_, ?_, ?_⟩, hv.rot t, fun c => ?_⟩
  · rw [IsRot.cross (R := turnZ t) (hv.rot t), hz]
    exact hv.turns t c
  · rw [Matrix.mulVec_zero]; exact VDeriv.const _ _
  · intro i
    fin_cases i
    · simpa [Matrix.mulVec, dotProduct] using hasDerivAt_id' t
    · simpa [Matrix.mulVec, dotProduct] using hasDerivAt_const t (0 : ℝ)
    · simpa [Matrix.mulVec, dotProduct] using hasDerivAt_const t (0 : ℝ)
  · rw [ha]; exact hv.turns t c

/-- Inverse of `colOf` for one joint. -/
def colInv (j : ℕ) : Fin 3 ⊕ (Fin 3 ⊕ Fin 1) :=
  if h : j < 3 then .inl ⟨j, h⟩ else if h : j < 6 then .inr (.inl ⟨j - 3, by omega⟩) else .inr (.inr 0)

theorem colInv_colOf (x : Fin 3 ⊕ (Fin 3 ⊕ Fin 1)) : colInv (colOf x) = x := by
  rcases x with i | i | i <;> fin_cases i <;> rfl

/-- A robot that stands on one foot straight below its base, on a skate that moves with unit velocity; its
only joint turns about the vertical axis. -/
noncomputable def standing : ConDyn.Terms where
  M := fun p => if p.1 = p.2 then 1 else 0
  cor := fun _ => 0
  grav := fun i => if i = 5 then 9.81 else 0
  J := fun p => assemble (resetStructure 1 (fun _ => true) (fun _ => false)).1
    (resetStructure 1 (fun _ => true) (fun _ => false)).2
    (fun _ => eeJacobian 1 (endEffector (fun _ => jointZ .revolute) ![-1, 0, -1] 1 (fun _ => 0))
      (transCol (fun _ => jointZ .revolute) ![-1, 0, -1] 1 (fun _ => 0))) p.1 (colInv p.2)
  dJ := fun p => assemble (resetStructure 1 (fun _ => true) (fun _ => false)).1
    (resetStructure 1 (fun _ => true) (fun _ => false)).2
    (fun _ => eeDerivative 1 (rotCol (fun _ => jointZ .revolute) (fun _ => 0))
      (transCol (fun _ => jointZ .revolute) ![-1, 0, -1] 1 (fun _ => 0)) (fun _ => 0)) p.1 (colInv p.2)
  qd := fun j => if j = 3 then 1 else 0
  cross := fun _ _ => 0

theorem standing_foot : endEffector (fun _ => jointZ .revolute) ![-1, 0, -1] 1 (fun _ => 0) = ![0, 0, -1] := by
  funext i
  fin_cases i <;> simp [endEffector, frame, jointZ, turnZ]

theorem standing_col : transCol (fun _ => jointZ .revolute) ![-1, 0, -1] 1 (fun _ => 0) 0 = ![0, -1, 0] := by
  have : transCol (fun _ => jointZ .revolute) ![-1, 0, -1] 1 (fun _ => 0) 0 =
      cross (axis (fun _ => jointZ .revolute) (fun _ => 0) 0)
        (endEffector (fun _ => jointZ .revolute) ![-1, 0, -1] 1 (fun _ => 0) -
          origin (fun _ => jointZ .revolute) (fun _ => 0) 0) := rfl
  rw [this, standing_foot]
  funext i
  fin_cases i <;> simp [cross, axis, origin, frame, jointZ, Matrix.mulVec, dotProduct, Fin.sum_univ_three]

theorem standing_J (a : Fin 3) (x : Fin 3 ⊕ (Fin 3 ⊕ Fin 1)) : standing.J (3 * 0 + a, colOf x) =
    cat (-(1 : M3) * cpm ![0, 0, -1]) 1 ((1 : M3) * (!![0; -1; 0] : Matrix (Fin 3) (Fin 1) ℝ)) a x := by
  have hcols : cols 1 (transCol (fun _ => jointZ .revolute) ![-1, 0, -1] 1 (fun _ => 0)) = !![0; -1; 0] := by
    ext i j
    fin_cases j
    simp only [cols, Fin.zero_eta, standing_col]
    fin_cases i <;> simp
  simp only [standing, colInv_colOf]
  rw [C117_rows 1 _ _ _ (by omega), if_pos rfl, eeJacobian, standing_foot, hcols, jacTranslation]

/-- The hypotheses of `C117_contact` are met by the standing robot: no acceleration, and the contact force
carries the weight. -/
example : ConDyn.Solves (6 + 1) 1 (fun _ => true) standing (fun _ => 0) (fun _ => 0)
      (fun _ a => if a = 2 then 9.81 else 0) ∧
    (∀ x : Fin 3 ⊕ (Fin 3 ⊕ Fin 1), standing.qd (colOf x) = gv 0 ![1, 0, 0] (fun _ => 0) x) ∧
    (∀ (s : ℝ) (w : V3), VDeriv (fun _ => (1 : M3) *ᵥ w) ((1 : M3) *ᵥ cross 0 w) s) ∧
    ∀ s : ℝ, VDeriv (fun s => ![s, 0, 0]) ((1 : M3) *ᵥ ![1, 0, 0]) s := by
  refine ⟨⟨fun i hi => ?_, fun e he _ a ha => ?_, fun e _ h => by cases h⟩, ?_, fun s w => ?_, fun s => ?_⟩
  · have hx : ∃ x : Fin 3 ⊕ (Fin 3 ⊕ Fin 1), i = colOf x := by
      interval_cases i
      exacts [⟨.inl 0, rfl⟩, ⟨.inl 1, rfl⟩, ⟨.inl 2, rfl⟩, ⟨.inr (.inl 0), rfl⟩, ⟨.inr (.inl 1), rfl⟩,
        ⟨.inr (.inl 2), rfl⟩, ⟨.inr (.inr 0), rfl⟩]
    obtain ⟨x, rfl⟩ := hx
    have hJ := fun a => standing_J a x
    have h0 := hJ 0
    have h1 := hJ 1
    have h2 := hJ 2
    simp only [Fin.val_zero, Fin.val_one, Fin.val_two] at h0 h1 h2
    simp only [Finset.sum_range_succ, Finset.sum_range_zero, if_true, zero_add, h2, mul_zero, add_zero,
      ite_self, OfNat.zero_ne_ofNat, OfNat.one_ne_ofNat, if_false]
    rcases x with i | i | i <;> fin_cases i <;>
      simp [standing, colOf, cat, cpm]
  · obtain rfl : e = 0 := by omega
    simp only [mul_zero, Finset.sum_const_zero, zero_add]
    rw [show standing.cross 0 a = 0 from rfl, add_zero, sum_colOf]
    refine Finset.sum_eq_zero fun x _ => ?_
    have : standing.dJ (a, colOf x) = eeDerivative 1 (rotCol (fun _ => jointZ .revolute) (fun _ => 0))
      (transCol (fun _ => jointZ .revolute) ![-1, 0, -1] 1 (fun _ => 0)) (fun _ => 0) ⟨a, ha⟩ x := by
      have h := C117_rows 1 (fun _ => true) (fun _ => false)
        (fun _ => eeDerivative 1 (rotCol (fun _ => jointZ .revolute) (fun _ => 0))
          (transCol (fun _ => jointZ .revolute) ![-1, 0, -1] 1 (fun _ => 0)) (fun _ => 0))
        (e := 0) (by omega) ⟨a, ha⟩ x
      simpa [standing, colInv_colOf] using h
    rw [this]
    rcases x with i | i | i <;> fin_cases i <;> simp [eeDerivative, cat, standing, colOf]
  · intro x
    rcases x with i | i | i <;> fin_cases i <;> simp [standing, colOf, gv]
  · rw [zero_cross, Matrix.mulVec_zero]; exact VDeriv.const _ _
  · rw [Matrix.one_mulVec]
    intro i
    fin_cases i
    · simpa using hasDerivAt_id' s
    · simpa using hasDerivAt_const s (0 : ℝ)
    · simpa using hasDerivAt_const s (0 : ℝ)

end CT.FrameJac
