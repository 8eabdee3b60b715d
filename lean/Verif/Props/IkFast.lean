import Verif.Model.IkFast
import Verif.Props.JointState
import Verif.Props.IK
import Mathlib.Data.List.GetD
import Mathlib.Data.Fintype.EquivFin
import Mathlib.Tactic.Ring
import Mathlib.Tactic.NormNum
import Mathlib.Tactic.FinCases
import Mathlib.Tactic.IntervalCases
import Mathlib.Analysis.Real.Pi.Bounds
import Mathlib.LinearAlgebra.Matrix.NonsingularInverse

/-!
# Properties C161 and C162: closed-form inverse kinematics
-/

namespace CT.IkFast

open FrameJac Matrix Lookup GenKin
open Robots.HyA.Kin (defs hom_fr_HyABase_X_fr_ee)

/-! ### The forward kinematics of the solver -/

private theorem fk_rot (h : Hist) (q : ℕ → ℝ) (i j : Fin 3) :
    call hom_fr_HyABase_X_fr_ee h q i j = (hyaFk q).eerot ⟨3 * i + j, by omega⟩ := by
  fin_cases i <;> fin_cases j <;>
    simp [call, Gen.update, hom_fr_HyABase_X_fr_ee, List.foldl, Asg.act, E.eval, hyaFk] <;> ring

private theorem fk_pos (h : Hist) (q : ℕ → ℝ) (i : Fin 3) :
    call hom_fr_HyABase_X_fr_ee h q i 3 = (hyaFk q).eetrans i := by
  fin_cases i <;>
    simp [call, Gen.update, hom_fr_HyABase_X_fr_ee, List.foldl, Asg.act, E.eval, hyaFk] <;> ring

/-- C161: the forward kinematics of the closed-form solver of the HyA and the kinematics of the robot give the same
position and rotation (row by row) of the end effector, for all joint positions and after any use of the kinematics. -/
theorem C161_forward_kinematics (h : Hist) (q : ℕ → ℝ) :
    defs.getEEPositionInBase h 0 q = .ok (hyaFk q).eetrans ∧
    defs.getEERotInBase h 0 q = .ok (fun i j => (hyaFk q).eerot ⟨3 * i + j, by omega⟩) := by
  constructor
  · exact congrArg Res.ok (funext fun i => fk_pos h q i)
  · exact congrArg Res.ok (funext fun i => funext fun j => fk_rot h q i j)

/-- Specification: `q` has the six joint positions of a configuration in which the end effector of the HyA has the
pose `T` relative to the base, whatever the kinematics was used for before. -/
def Reaches (q : List ℝ) (T : Pose) : Prop :=
  q.length = 6 ∧ ∀ h, defs.getEEPositionInBase h 0 (fun i => q.getD i 0) = .ok T.p ∧
    defs.getEERotInBase h 0 (fun i => q.getD i 0) = .ok T.R

/-- Specification: the same relative to the world, for the base in the pose `B`. -/
def ReachesInWorld (q : List ℝ) (B T : Pose) : Prop :=
  q.length = 6 ∧ ∀ h, defs.getEEPositionInWorld h 0 B.p B.R (fun i => q.getD i 0) = .ok T.p ∧
    defs.getEERotInWorld h 0 B.R (fun i => q.getD i 0) = .ok T.R

/-- Specification: every joint is within its limits. -/
def InLimits (q : List ℝ) : Prop :=
  (-(3.1416 : ℝ) ≤ q.getD 0 0 ∧ q.getD 0 0 ≤ 0.5236) ∧ (-(0.7679 : ℝ) ≤ q.getD 1 0 ∧ q.getD 1 0 ≤ 0.8552) ∧
  (-(1.6406 : ℝ) ≤ q.getD 2 0 ∧ q.getD 2 0 ≤ 0.0698) ∧ ((0 : ℝ) ≤ q.getD 3 0 ∧ q.getD 3 0 ≤ 2.2689) ∧
  (-(2.0944 : ℝ) ≤ q.getD 4 0 ∧ q.getD 4 0 ≤ 1.5708) ∧ (-(0.5236 : ℝ) ≤ q.getD 5 0 ∧ q.getD 5 0 ≤ 1.5708)

/-- Specification: the joint positions that a solution of the solver stands for, for a choice of the free ones. -/
noncomputable def position (v : ℕ → ℝ) (s : List Dof) (i : ℕ) : ℝ :=
  match s[i]? with
  | some d => if d.freeind < 0 then d.foffset else v d.freeind.toNat * d.fmul + d.foffset
  | none => 0

/-- Specification: what is assumed of the solver, which is told a position and nine numbers: its solutions have six
joint positions of reasonable size, for which its own forward kinematics gives these. -/
def Right (ik : Solver) : Prop := ∀ p r, ∀ s ∈ ik p r none,
  s.length = 6 ∧ (∀ d ∈ s, |d.foffset| ≤ 10 ^ 9) ∧ ∀ v, hyaFk (position v s) = ⟨p, r⟩

/-- Specification: the solutions for the pose `T` have no free joints. -/
def NoFree (ik : Solver) (T : Pose) : Prop := ∀ r : Fin 9 → ℝ, (∀ i j : Fin 3, r ⟨3 * i + j, by omega⟩ = T.R i j) →
  ∀ s ∈ ik T.p r none, ∀ d ∈ s, d.freeind < 0

/-- Specification: the solver finds all configurations that reach the pose `T`, up to whole turns. -/
def Complete (ik : Solver) (T : Pose) : Prop := ∀ r : Fin 9 → ℝ, (∀ i j : Fin 3, r ⟨3 * i + j, by omega⟩ = T.R i j) →
  ∀ q, Reaches q T → ∃ s ∈ ik T.p r none, ∃ v, ∀ i < 6, ∃ k : ℤ, q.getD i 0 = position v s i + k * (2 * Real.pi)

/-! ### Auxiliary facts -/

private theorem rowMajor_at (R : M3) (i j : Fin 3) : rowMajor R ⟨3 * i + j, by omega⟩ = R i j := by
  unfold rowMajor
  congr 1 <;> (apply Fin.ext; simp <;> omega)

private theorem rowMajor_unique (R : M3) (r : Fin 9 → ℝ) (hr : ∀ i j : Fin 3, r ⟨3 * i + j, by omega⟩ = R i j) :
    r = rowMajor R := by
  funext k
  have := hr ⟨k / 3, by omega⟩ ⟨k % 3, by omega⟩
  rw [show r k = r ⟨3 * (k / 3) + k % 3, by omega⟩ by congr 1; apply Fin.ext; simp; omega, this]
  rfl

/-- Two configurations that differ by whole turns have the same forward kinematics. -/
private theorem fk_turns {q q' : ℕ → ℝ} (h : ∀ i < 6, ∃ k : ℤ, q i = q' i + k * (2 * Real.pi)) : hyaFk q = hyaFk q' := by
  have hs : ∀ i < 6, Real.sin (q i) = Real.sin (q' i) := fun i hi => by
    obtain ⟨k, hk⟩ := h i hi; rw [hk, Real.sin_add_int_mul_two_pi]
  have hc : ∀ i < 6, Real.cos (q i) = Real.cos (q' i) := fun i hi => by
    obtain ⟨k, hk⟩ := h i hi; rw [hk, Real.cos_add_int_mul_two_pi]
  simp only [hyaFk, hs 0 (by omega), hs 1 (by omega), hs 2 (by omega), hs 3 (by omega), hs 4 (by omega),
    hs 5 (by omega), hc 0 (by omega), hc 1 (by omega), hc 2 (by omega), hc 3 (by omega), hc 4 (by omega),
    hc 5 (by omega)]

private theorem reaches_iff (q : List ℝ) (T : Pose) :
    Reaches q T ↔ q.length = 6 ∧ hyaFk (fun i => q.getD i 0) = ⟨T.p, rowMajor T.R⟩ := by
  unfold Reaches
  refine and_congr_right fun _ => ⟨fun h => ?_, fun h hist => ?_⟩
  · obtain ⟨h1, h2⟩ := h ⟨fun _ _ => 0, []⟩
    rw [(C161_forward_kinematics _ _).1] at h1
    rw [(C161_forward_kinematics _ _).2] at h2
    have e2 := rowMajor_unique T.R (hyaFk (fun i => q.getD i 0)).eerot fun i j => by
      have := congrFun (congrFun (Res.ok.inj h2) i) j
      exact this
    rw [← Res.ok.inj h1, ← e2]
  · rw [(C161_forward_kinematics _ _).1, (C161_forward_kinematics _ _).2, h]
    exact ⟨rfl, congrArg Res.ok (funext fun i => funext fun j => rowMajor_at T.R i j)⟩

private theorem getSolution_fixed {free : Option (List ℝ)} : ∀ {s : List Dof}, (∀ d ∈ s, d.freeind < 0) →
    getSolution free s = .ok (s.map Dof.foffset)
  | [], _ => rfl
  | d :: ds, h => by
    simp only [getSolution, Dof.value, if_pos (h d (by simp)), Res.ok_bind, Res.pure_eq,
      getSolution_fixed (free := free) fun d hd => h d (List.mem_cons_of_mem _ hd), List.map_cons]

private theorem position_fixed (v : ℕ → ℝ) {s : List Dof} (h : ∀ d ∈ s, d.freeind < 0) {i : ℕ} (hi : i < s.length) :
    position v s i = (s.map Dof.foffset)[i]'(by simpa using hi) := by
  simp [position, List.getElem?_eq_getElem hi, h _ (List.getElem_mem hi)]

private theorem in_limits_iff {q : List ℝ} (hq : q.length = 6) :
    Joint.checkPositionLimits 0 (q.zip (lower.zip upper)) = true ↔ InLimits q := by
  rw [Joint.C62_position_limits]
  match q, hq with
  | [a, b, c, d, e, f], _ =>
    simp [InLimits, lower, upper]
    norm_num

private theorem width (i : ℕ) (hi : i < 6) : upper.getD i 0 < lower.getD i 0 + 2 * Real.pi := by
  have := Real.pi_gt_three
  interval_cases i <;> simp [lower, upper] <;> linarith

private theorem in_limits_at {q : List ℝ} (h : InLimits q) (i : ℕ) (hi : i < 6) :
    lower.getD i 0 ≤ q.getD i 0 ∧ q.getD i 0 ≤ upper.getD i 0 := by
  obtain ⟨h0, h1, h2, h3, h4, h5⟩ := h
  norm_num at h0 h1 h2 h3 h4 h5
  interval_cases i <;> simp [lower, upper] <;> constructor <;> linarith

/-- What becomes of one solution. -/
private theorem one {s : List Dof} (hl : s.length = 6) (hb : ∀ d ∈ s, |d.foffset| ≤ 10 ^ 9)
    (hf : ∀ d ∈ s, d.freeind < 0) :
    ∃ q, Joint.toUniquePosition (2 * Real.pi) 0 (s.map Dof.foffset) lower = .ok q ∧ q.length = 6 ∧
      (∀ v, ∀ i < 6, ∃ k : ℤ, q.getD i 0 = position v s i + k * (2 * Real.pi)) ∧
      ∀ i < 6, lower.getD i 0 ≤ q.getD i 0 ∧ q.getD i 0 < lower.getD i 0 + 2 * Real.pi := by
  have hpi := Real.pi_gt_three
  have hlow : lower.length = 6 := rfl
  obtain ⟨q, hq, hql, hall⟩ := Joint.C62_unique (2 * Real.pi) 0 (by positivity) (s.map Dof.foffset) lower
    (by simp [hl, hlow]) (fun i h1 h2 => by
      have h1' : i < s.length := by simpa using h1
      have ho := abs_le.1 (hb _ (List.getElem_mem h1'))
      have hlo : -4 ≤ lower[i] ∧ lower[i] ≤ 4 := by
        have : i < 6 := hlow ▸ h2
        interval_cases i <;> simp [lower] <;> norm_num
      unfold Joint.Near
      simp only [sub_zero, add_zero, List.getElem_map, and_self]
      rw [abs_lt]
      constructor <;> nlinarith [ho.1, ho.2, hlo.1, hlo.2])
  rw [List.length_map, hl] at hql
  refine ⟨q, hq, hql, fun v i hi => ?_, fun i hi => ?_⟩
  · obtain ⟨⟨k, hk⟩, -⟩ := hall i (by simp [hl, hi]) (by omega) (by omega)
    refine ⟨-k, ?_⟩
    rw [List.getD_eq_getElem _ _ (by omega), hk, position_fixed v hf (by omega)]
    push_cast; ring
  · obtain ⟨-, -, h, -⟩ := hall i (by simp [hl, hi]) (by omega) (by omega)
    rw [List.getD_eq_getElem _ _ (by omega), List.getD_eq_getElem _ _ (by omega)]
    exact h rfl

private theorem same {l a b c : ℝ} (hc : 0 < c) (ha : l ≤ a ∧ a < l + c) (hb : l ≤ b ∧ b < l + c) {k : ℤ}
    (h : a = b + k * c) : a = b := by
  have h1 : (-1 : ℝ) < k := by
    by_contra hn
    have : (k : ℝ) ≤ -1 := not_lt.1 hn
    nlinarith [ha.1, hb.2]
  have h2 : (k : ℝ) < 1 := by
    by_contra hn
    have : (1 : ℝ) ≤ k := not_lt.1 hn
    nlinarith [ha.2, hb.1]
  have : k = 0 := by
    have h1' : (-1 : ℤ) < k := by exact_mod_cast h1
    have h2' : k < 1 := by exact_mod_cast h2
    omega
  rw [h, this]; simp

private theorem loop {ss : List (List Dof)} (hs : ∀ s ∈ ss, s.length = 6 ∧ (∀ d ∈ s, |d.foffset| ≤ 10 ^ 9) ∧
    ∀ d ∈ s, d.freeind < 0) : ∀ res, ∃ res', hyaLoop none ss res = .ok (res ++ res') ∧
      (∀ q ∈ res', q.length = 6 ∧ InLimits q ∧ ∃ s ∈ ss, ∀ v, ∀ i < 6, ∃ k : ℤ,
        q.getD i 0 = position v s i + k * (2 * Real.pi)) ∧
      (∀ q, q.length = 6 → InLimits q → (∃ s ∈ ss, ∃ v, ∀ i < 6, ∃ k : ℤ,
        q.getD i 0 = position v s i + k * (2 * Real.pi)) → q ∈ res') := by
  induction ss with
  | nil => exact fun res => ⟨[], by simp [hyaLoop], by simp, by simp⟩
  | cons s ss ih =>
    intro res
    obtain ⟨hl, hb, hf⟩ := hs s (by simp)
    obtain ⟨q, hq, hql, hqk, hqr⟩ := one hl hb hf
    have hdet : ∀ q', q'.length = 6 → InLimits q' → (∃ v, ∀ i < 6, ∃ k : ℤ,
        q'.getD i 0 = position v s i + k * (2 * Real.pi)) → q' = q := by
      rintro q' hl' hlim ⟨v, hv⟩
      refine List.ext_getElem (by omega) fun i h1 h2 => ?_
      have hi : i < 6 := by omega
      have hr' := in_limits_at hlim i hi
      obtain ⟨k, hk⟩ := hv i hi
      obtain ⟨k', hk'⟩ := hqk v i hi
      have := same (k := k - k') (c := 2 * Real.pi) (by positivity) ⟨hr'.1, lt_of_le_of_lt hr'.2 (width i hi)⟩
        (hqr i hi) (by rw [hk, hk']; push_cast; ring)
      rwa [List.getD_eq_getElem _ _ (by omega), List.getD_eq_getElem _ _ (by omega)] at this
    have ih' := ih fun s hs' => hs s (List.mem_cons_of_mem _ hs')
    by_cases hc : Joint.checkPositionLimits 0 (q.zip (lower.zip upper)) = true
    · obtain ⟨res', h1, h2, h3⟩ := ih' (res ++ [q])
      refine ⟨q :: res', ?_, ?_, ?_⟩
      · simp only [hyaLoop, getSolution_fixed hf, hq, Res.ok_bind, if_pos hc, h1]
        simp
      · intro q' hq'
        rcases List.mem_cons.1 hq' with rfl | hq'
        · exact ⟨hql, (in_limits_iff hql).1 hc, s, by simp, hqk⟩
        · obtain ⟨a, b, s', c, d⟩ := h2 q' hq'
          exact ⟨a, b, s', List.mem_cons_of_mem _ c, d⟩
      · rintro q' hl' hlim ⟨s', hs', hv⟩
        rcases List.mem_cons.1 hs' with rfl | hs'
        · rw [hdet q' hl' hlim hv]; simp
        · exact List.mem_cons_of_mem _ (h3 q' hl' hlim ⟨s', hs', hv⟩)
    · obtain ⟨res', h1, h2, h3⟩ := ih' res
      refine ⟨res', ?_, ?_, ?_⟩
      · simp only [hyaLoop, getSolution_fixed hf, hq, Res.ok_bind, if_neg hc, h1]
      · intro q' hq'
        obtain ⟨a, b, s', c, d⟩ := h2 q' hq'
        exact ⟨a, b, s', List.mem_cons_of_mem _ c, d⟩
      · rintro q' hl' hlim ⟨s', hs', hv⟩
        rcases List.mem_cons.1 hs' with rfl | hs'
        · exact absurd ((in_limits_iff hql).2 (hdet q' hl' hlim hv ▸ hlim)) hc
        · exact h3 q' hl' hlim ⟨s', hs', hv⟩

/-! ### The wrappers -/

/-- C162 (part: poses for which the solver reports no free joint): for every solver that is right, the inverse
kinematics of the HyA gives only configurations that are within the limits and reach the pose in the kinematics of
the robot; it returns `true` if and only if it gives any; and if the solver is complete it gives all there are. -/
theorem C162_hya_partial {ik : Solver} (hr : Right ik) {T : Pose} (hf : NoFree ik T) (old : List (List ℝ)) :
    ∃ b res, hyaBase ik old T [] = .ok (b, res) ∧ (b = true ↔ res ≠ []) ∧
      (∀ q ∈ res, InLimits q ∧ Reaches q T) ∧ (Complete ik T → ∀ q, InLimits q → Reaches q T → q ∈ res) := by
  have hrow := rowMajor_at T.R
  have hs : ∀ s ∈ ik T.p (rowMajor T.R) none, s.length = 6 ∧ (∀ d ∈ s, |d.foffset| ≤ 10 ^ 9) ∧
      ∀ d ∈ s, d.freeind < 0 := fun s h => ⟨(hr _ _ s h).1, (hr _ _ s h).2.1, hf _ hrow s h⟩
  obtain ⟨res, h1, h2, h3⟩ := loop hs []
  have hsound : ∀ q ∈ res, InLimits q ∧ Reaches q T := fun q hq => by
    obtain ⟨hl, hlim, s, hmem, hk⟩ := h2 q hq
    refine ⟨hlim, (reaches_iff q T).2 ⟨hl, ?_⟩⟩
    rw [fk_turns (hk 0)]
    exact (hr _ _ s hmem).2.2 0
  have hcompl : Complete ik T → ∀ q, InLimits q → Reaches q T → q ∈ res := fun hc q hlim hq =>
    h3 q hq.1 hlim (hc _ hrow q hq)
  by_cases he : (ik T.p (rowMajor T.R) none).length = 0
  · refine ⟨false, [], by simp [hyaBase, freePtr, List.eq_nil_of_length_eq_zero he], by simp, by simp, ?_⟩
    intro hc q hlim hq
    obtain ⟨s, hs, -⟩ := hc _ hrow q hq
    rw [List.eq_nil_of_length_eq_zero he] at hs
    simp at hs
  · by_cases hn : res.length = 0
    · refine ⟨false, res, ?_, by simp [List.eq_nil_of_length_eq_zero hn], hsound, hcompl⟩
      simp [hyaBase, freePtr, he, h1, Res.ok_bind] <;> simp_all
    · refine ⟨true, res, ?_, by simpa using hn, hsound, hcompl⟩
      simp [hyaBase, freePtr, he, h1, Res.ok_bind] <;> simp_all

private theorem world_iff {B : Pose} (hB : B.R * B.Rᵀ = 1) (q : List ℝ) (T : Pose) :
    ReachesInWorld q B T ↔ Reaches q (T.inReferenceFrame B) := by
  have hB' : B.Rᵀ * B.R = 1 := mul_eq_one_comm.1 hB
  unfold ReachesInWorld Reaches
  refine and_congr_right fun _ => forall_congr' fun h => ?_
  obtain ⟨p, hp⟩ : ∃ p, defs.getEEPositionInBase h 0 (fun i => q.getD i 0) = .ok p :=
    ⟨_, (C161_forward_kinematics _ _).1⟩
  obtain ⟨M, hM⟩ : ∃ M, defs.getEERotInBase h 0 (fun i => q.getD i 0) = .ok M := ⟨_, (C161_forward_kinematics _ _).2⟩
  simp only [Defs.getEEPositionInWorld, Defs.getEERotInWorld, hp, hM, Res.ok_bind, Res.pure_eq, Res.ok.injEq,
    eePositionInWorld, eeRotInWorld, Pose.inReferenceFrame]
  refine and_congr ⟨fun e => ?_, fun e => ?_⟩ ⟨fun e => ?_, fun e => ?_⟩
  · rw [← e, add_sub_cancel_left, mulVec_mulVec, hB', one_mulVec]
  · rw [e, mulVec_mulVec, hB, one_mulVec, add_sub_cancel]
  · rw [← e, ← Matrix.mul_assoc, hB', Matrix.one_mul]
  · rw [e, ← Matrix.mul_assoc, hB, Matrix.one_mul]

/-- C162 (part, as before), poses in world coordinates: the configurations given are within the limits and put the end
effector into the pose asked for in the world, for the base in the pose given. -/
theorem C162_hya_world_partial {ik : Solver} (hr : Right ik) {T B : Pose} (hB : B.R * B.Rᵀ = 1)
    (hf : NoFree ik (T.inReferenceFrame B)) (old : List (List ℝ)) :
    ∃ b res, hyaWorld ik old T B [] = .ok (b, res) ∧ (b = true ↔ res ≠ []) ∧
      (∀ q ∈ res, InLimits q ∧ ReachesInWorld q B T) ∧
      (Complete ik (T.inReferenceFrame B) → ∀ q, InLimits q → ReachesInWorld q B T → q ∈ res) := by
  simp only [world_iff hB]
  exact C162_hya_partial hr hf old

/-- C162 (part, as before), closest solution: if the call returns `true`, the configuration put out is within the
limits, reaches the pose, and – for a complete solver – no other such configuration is closer to the query; if it
returns `false`, the output is unchanged and – for a complete solver – there is no such configuration. -/
theorem C162_hya_closest_partial {ik : Solver} (hr : Right ik) {T B : Pose} (hB : B.R * B.Rᵀ = 1)
    (hf : NoFree ik (T.inReferenceFrame B)) (dist : List ℝ → ℝ) (old : List ℝ) :
    ∃ b q, hyaCloseTo ik dist old T B [] = .ok (b, q) ∧
      (b = true → InLimits q ∧ ReachesInWorld q B T ∧
        (Complete ik (T.inReferenceFrame B) → ∀ q', InLimits q' → ReachesInWorld q' B T → dist q ≤ dist q')) ∧
      (b = false → q = old ∧
        (Complete ik (T.inReferenceFrame B) → ∀ q', InLimits q' → ¬ ReachesInWorld q' B T)) := by
  obtain ⟨b, res, h1, h2, h3, h4⟩ := C162_hya_world_partial hr hB hf []
  obtain ⟨c1, c2, -⟩ := IK.C66_closest dist res old
  cases b with
  | false =>
    have he : res = [] := by
      by_contra hne
      exact absurd (h2.2 hne) (by simp)
    refine ⟨false, old, by simp only [hyaCloseTo, h1, Res.ok_bind, c1], by simp, fun _ => ⟨rfl, fun hc q' hl hq => ?_⟩⟩
    have := h4 hc q' hl hq
    simp [he] at this
  | true =>
    obtain ⟨pre, q, post, e1, e2, e3, -⟩ := c2 (h2.1 rfl)
    have hm : q ∈ res := by rw [e2]; simp
    exact ⟨true, q, by simp only [hyaCloseTo, h1, Res.ok_bind, e1], fun _ => ⟨(h3 q hm).1, (h3 q hm).2,
      fun hc q' hl hq => e3 q' (h4 hc q' hl hq)⟩, by simp⟩

/-- C162: the solvers have no free joints; a call that names some throws. -/
theorem C162_free_joints (ik : Solver) (old : List (List ℝ)) (T B : Pose) (free : List ℕ) (h : free ≠ []) :
    hyaBase ik old T free = .exc ∧ hyaWorld ik old T B free = .exc ∧
    irbBase ik old T free = .exc ∧ irbWorld ik old T B free = .exc := by
  have h0 : 0 ≠ free.length := fun e => h (List.eq_nil_of_length_eq_zero e.symm)
  simp only [hyaWorld, irbWorld, hyaBase, irbBase, if_pos h0, and_self]

private theorem irb_loop {ss : List (List Dof)} (hs : ∀ s ∈ ss, ∀ d ∈ s, d.freeind < 0) :
    ∀ res, irbLoop none ss res = .ok (res ++ ss.map fun s => s.map Dof.foffset) := by
  induction ss with
  | nil => simp [irbLoop]
  | cons s ss ih =>
    intro res
    simp only [irbLoop, getSolution_fixed (hs s (by simp)), Res.ok_bind,
      ih (fun s h => hs s (List.mem_cons_of_mem _ h))]
    simp

/-- C162 (part, as before): the inverse kinematics of the Irb4600 gives what its solver finds for the position and the
rows of the rotation, in the same order, and returns whether this is anything. -/
theorem C162_irb_partial (ik : Solver) (T : Pose) (hf : NoFree ik T) (old : List (List ℝ)) :
    ∃ r : Fin 9 → ℝ, (∀ i j : Fin 3, r ⟨3 * i + j, by omega⟩ = T.R i j) ∧
      irbBase ik old T [] = .ok (!(ik T.p r none).isEmpty, (ik T.p r none).map fun s => s.map Dof.foffset) := by
  refine ⟨rowMajor T.R, rowMajor_at T.R, ?_⟩
  have h1 := irb_loop (hf _ (rowMajor_at T.R)) []
  cases he : ik T.p (rowMajor T.R) none with
  | nil => simp [irbBase, freePtr, he]
  | cons s ss =>
    rw [he] at h1
    simp [irbBase, freePtr, he, h1, Res.ok_bind]

/-! ### Configurations with aligned joint axes -/

private theorem fk_aligned {q : ℕ → ℝ} (h : q 1 = Real.pi / 2) :
    hyaFk q = hyaFk (fun i => if i = 0 then q 0 + q 2 else if i = 2 then 0 else q i) := by
  simp only [hyaFk, h, Real.cos_pi_div_two, Real.sin_pi_div_two, Real.cos_add, Real.sin_add, Real.cos_zero,
    Real.sin_zero, one_ne_zero, if_false, OfNat.ofNat_ne_zero, reduceIte]
  norm_num
  refine ⟨⟨?_, ?_⟩, ?_⟩ <;> ring_nf <;> simp

/-- C161: at 90° of the second joint the axes of the first and the third are aligned: turning the one back by as much
as the other leaves the pose of the end effector as it is. -/
theorem C161_aligned (q : ℕ → ℝ) (h : q 1 = Real.pi / 2) (t : ℝ) :
    hyaFk (fun i => if i = 0 then q 0 - t else if i = 2 then q 2 + t else q i) = hyaFk q := by
  rw [fk_aligned h, fk_aligned (by simpa using h)]
  congr 1
  funext i
  by_cases h0 : i = 0
  · simp [h0]
  · by_cases h2 : i = 2 <;> simp [h0, h2]

private theorem loop_ub {ss : List (List Dof)} (hs : ∀ s ∈ ss, s.length = 6 ∧ ∀ d ∈ s, |d.foffset| ≤ 10 ^ 9)
    (h : ∃ s ∈ ss, ∃ d ∈ s, ¬ d.freeind < 0) : ∀ res, hyaLoop none ss res = .ub := by
  have hub : ∀ {s : List Dof}, (∃ d ∈ s, ¬ d.freeind < 0) → getSolution none s = .ub := by
    intro s
    induction s with
    | nil => simp
    | cons d ds ih =>
      rintro ⟨d', hd', hn⟩
      by_cases h0 : d.freeind < 0
      · have : d' ∈ ds := by
          rcases List.mem_cons.1 hd' with rfl | h'
          · exact absurd h0 hn
          · exact h'
        simp only [getSolution, Dof.value, if_pos h0, Res.ok_bind, ih ⟨d', this, hn⟩]
        rfl
      · simp only [getSolution, Dof.value, if_neg h0]
        rfl
  induction ss with
  | nil => simp at h
  | cons s ss ih =>
    intro res
    by_cases hf : ∃ d ∈ s, ¬ d.freeind < 0
    · simp only [hyaLoop, hub hf]
      rfl
    · have hf' : ∀ d ∈ s, d.freeind < 0 := fun d hd => by
        by_contra hn
        exact hf ⟨d, hd, hn⟩
      obtain ⟨q, hq, -⟩ := one (hs s (by simp)).1 (hs s (by simp)).2 hf'
      have hrest : ∃ s ∈ ss, ∃ d ∈ s, ¬ d.freeind < 0 := by
        obtain ⟨s', hs', hd⟩ := h
        rcases List.mem_cons.1 hs' with rfl | h'
        · exact absurd hd hf
        · exact ⟨s', h', hd⟩
      have ih' := ih (fun s h' => hs s (List.mem_cons_of_mem _ h')) hrest
      simp only [hyaLoop, getSolution_fixed hf', hq, Res.ok_bind, ih', ite_self]

/-- C162 fails for poses that can be reached with the axes of the first and the third joint aligned: infinitely many
configurations reach them, so a solver that is right and finds these reports a solution with a free joint – as the one
of the HyA does (transform6d.cpp:2214-2261) – and the inverse kinematics reads the value of the free joint through a
null pointer. -/
theorem C162_aligned_violated {ik : Solver} (hr : Right ik) {T : Pose} {q : List ℝ}
    (hc : ∀ r : Fin 9 → ℝ, (∀ i j : Fin 3, r ⟨3 * i + j, by omega⟩ = T.R i j) → ∀ t, ∃ s ∈ ik T.p r none, ∃ v,
      ∀ i < 6, ∃ k : ℤ, [q.getD 0 0 - t, q.getD 1 0, q.getD 2 0 + t, q.getD 3 0, q.getD 4 0, q.getD 5 0].getD i 0 =
        position v s i + k * (2 * Real.pi))
    (hq : Reaches q T) (h1 : q.getD 1 0 = Real.pi / 2) (old : List (List ℝ)) : hyaBase ik old T [] = .ub := by
  have hrow := rowMajor_at T.R
  have hpi := Real.pi_gt_three
  obtain ⟨hl, hfk⟩ := (reaches_iff q T).1 hq
  have hfree : ∃ s ∈ ik T.p (rowMajor T.R) none, ∃ d ∈ s, ¬ d.freeind < 0 := by
    by_contra hn
    have hf : ∀ s ∈ ik T.p (rowMajor T.R) none, ∀ d ∈ s, d.freeind < 0 := fun s hs d hd => by
      by_contra h
      exact hn ⟨s, hs, d, hd, h⟩
    let t : ℕ → ℝ := fun n => 1 / ((n : ℝ) + 1)
    have key : ∀ n : ℕ, ∃ k : Fin (ik T.p (rowMajor T.R) none).length, ∃ m : ℤ,
        q.getD 0 0 - t n = position 0 ((ik T.p (rowMajor T.R) none).get k) 0 + m * (2 * Real.pi) := by
      intro n
      obtain ⟨s, hs, v, hv⟩ := hc _ hrow (t n)
      obtain ⟨k, hk⟩ := List.get_of_mem hs
      obtain ⟨m, hm⟩ := hv 0 (by omega)
      refine ⟨k, m, ?_⟩
      have hlen := (hr _ _ s hs).1
      rw [hk, position_fixed 0 (hf s hs) (by omega), ← position_fixed v (hf s hs) (by omega), ← hm]
      rfl
    choose k hk using key
    obtain ⟨a, b, hab, he⟩ := Finite.exists_ne_map_eq_of_infinite k
    obtain ⟨m, hm⟩ := hk a
    obtain ⟨m', hm'⟩ := hk b
    rw [← he] at hm'
    have ht : ∀ n, 0 ≤ t n ∧ t n < 0 + 2 * Real.pi := fun n => by
      have h0 : (0 : ℝ) < (n : ℝ) + 1 := by positivity
      refine ⟨by positivity, ?_⟩
      have : t n ≤ 1 := by
        rw [div_le_one h0]
        linarith [(Nat.cast_nonneg n : (0 : ℝ) ≤ n)]
      linarith
    have hteq := same (k := m' - m) (by positivity) (ht a) (ht b) (by push_cast; linarith)
    have : (a : ℝ) = b := by
      simp only [t, one_div, _root_.inv_inj] at hteq
      linarith
    exact hab (by exact_mod_cast this)
  have hne : (ik T.p (rowMajor T.R) none).length ≠ 0 := by
    obtain ⟨s, hs, -⟩ := hfree
    intro h0
    rw [List.eq_nil_of_length_eq_zero h0] at hs
    simp at hs
  have := loop_ub (fun s hs => ⟨(hr _ _ s hs).1, (hr _ _ s hs).2.1⟩) hfree []
  simp only [hyaBase, freePtr, List.length_nil, ne_eq, not_true_eq_false, if_false, gt_iff_lt, lt_self_iff_false,
    if_neg hne, this]
  rfl

/-! ### The hypotheses can be met -/

/-- The pose of the end effector for the joint positions `q`. -/
private noncomputable def poseOf (q : List ℝ) : Pose :=
  ⟨fun i j => (hyaFk fun i => q.getD i 0).eerot ⟨3 * i + j, by omega⟩, (hyaFk fun i => q.getD i 0).eetrans⟩

private theorem reaches_poseOf (q : List ℝ) (h : q.length = 6) : Reaches q (poseOf q) :=
  ⟨h, fun hist => C161_forward_kinematics hist _⟩

open Classical in
/-- A solver that knows one solution. -/
private noncomputable def oneSolver (s : List Dof) : Solver := fun p r _ =>
  if (⟨p, r⟩ : Fk) = hyaFk (position 0 s) then [s] else []

/-- All joints at zero are within the limits, and the inverse kinematics gives them for the pose that they reach. -/
example : ∃ (ik : Solver) (T : Pose), Right ik ∧ NoFree ik T ∧ hyaBase ik [] T [] = .ok (true, [[0, 0, 0, 0, 0, 0]]) := by
  let s : List Dof := [⟨0, 0, -1⟩, ⟨0, 0, -1⟩, ⟨0, 0, -1⟩, ⟨0, 0, -1⟩, ⟨0, 0, -1⟩, ⟨0, 0, -1⟩]
  have hfix : ∀ d ∈ s, d.freeind < 0 := by simp [s]
  have hpos : ∀ v, position v s = fun i => [0, 0, 0, 0, 0, 0].getD i (0 : ℝ) := by
    intro v; funext i
    by_cases hi : i < 6
    · interval_cases i <;> simp [position, s]
    · simp [position, s, List.getElem?_eq_none (show s.length ≤ i by simp [s]; omega), List.getD,
        List.getElem?_eq_none (show [(0 : ℝ), 0, 0, 0, 0, 0].length ≤ i by simp; omega)]
  have hr : Right (oneSolver s) := by
    intro p r s' hs'
    unfold oneSolver at hs'
    split_ifs at hs' with h
    · rw [List.mem_singleton.1 hs']
      refine ⟨rfl, by simp [s], fun v => ?_⟩
      rw [hpos v, h, hpos 0]
    · simp at hs'
  have hf : NoFree (oneSolver s) (poseOf [0, 0, 0, 0, 0, 0]) := by
    intro r _ s' hs'
    unfold oneSolver at hs'
    split_ifs at hs'
    · rw [List.mem_singleton.1 hs']; exact hfix
    · simp at hs'
  refine ⟨oneSolver s, poseOf [0, 0, 0, 0, 0, 0], hr, hf, ?_⟩
  have hik : oneSolver s (poseOf [0, 0, 0, 0, 0, 0]).p (rowMajor (poseOf [0, 0, 0, 0, 0, 0]).R) none = [s] := by
    unfold oneSolver
    rw [if_pos]
    rw [hpos 0]
    exact ((reaches_iff _ _).1 (reaches_poseOf [0, 0, 0, 0, 0, 0] rfl)).2.symm
  have hu : Joint.toUniquePosition (2 * Real.pi) 0 [0, 0, 0, 0, 0, 0] lower = .ok [0, 0, 0, 0, 0, 0] := by
    have hpi := Real.pi_gt_three
    obtain ⟨q, hq, hl, hall⟩ := Joint.C62_unique (2 * Real.pi) 0 (by positivity) [0, 0, 0, 0, 0, 0] lower rfl (by
      intro i h1 h2
      have hi : i < 6 := h2
      have hlo : -4 ≤ lower[i] ∧ lower[i] ≤ 4 := by
        interval_cases i <;> simp [lower] <;> norm_num
      have h0 : ([0, 0, 0, 0, 0, 0] : List ℝ)[i] = 0 := by interval_cases i <;> rfl
      unfold Joint.Near
      simp only [sub_zero, add_zero, and_self, h0, zero_sub, abs_neg]
      generalize lower[i] = l at hlo ⊢
      rw [abs_lt]
      obtain ⟨a, b⟩ := hlo
      constructor <;> linarith)
    rw [hq]
    congr 1
    refine List.ext_getElem hl fun i h1 h2 => (hall i h2 (by simpa [lower] using h2) h1).2.2.2 (Or.inl ?_)
    have hi : i < 6 := h2
    have hlo : -4 ≤ lower[i] ∧ lower[i] ≤ 0 := by
      interval_cases i <;> simp [lower] <;> norm_num
    have h0 : ([0, 0, 0, 0, 0, 0] : List ℝ)[i] = 0 := by interval_cases i <;> rfl
    rw [h0, sub_zero]
    generalize lower[i] = l at hlo ⊢
    obtain ⟨a, b⟩ := hlo
    constructor <;> linarith
  have hc : Joint.checkPositionLimits 0 (([0, 0, 0, 0, 0, 0] : List ℝ).zip (lower.zip upper)) = true := by
    rw [in_limits_iff rfl]
    simp [InLimits]
    norm_num
  simp only [hyaBase, freePtr, List.length_nil, ne_eq, not_true_eq_false, if_false, gt_iff_lt, lt_self_iff_false, hik,
    List.length_cons, hyaLoop, getSolution_fixed hfix, Res.ok_bind]
  simp [s, hu, hc, Res.ok_bind]

/-- A solver that is right and finds the configurations with aligned axes. -/
example : ∃ (ik : Solver) (T : Pose) (q : List ℝ), Right ik ∧ Reaches q T ∧ q.getD 1 0 = Real.pi / 2 ∧
    ∀ r : Fin 9 → ℝ, (∀ i j : Fin 3, r ⟨3 * i + j, by omega⟩ = T.R i j) → ∀ t, ∃ s ∈ ik T.p r none, ∃ v,
      ∀ i < 6, ∃ k : ℤ, [q.getD 0 0 - t, q.getD 1 0, q.getD 2 0 + t, q.getD 3 0, q.getD 4 0, q.getD 5 0].getD i 0 =
        position v s i + k * (2 * Real.pi) := by
  let s : List Dof := [⟨-1, 0, 0⟩, ⟨0, Real.pi / 2, -1⟩, ⟨1, 0, 0⟩, ⟨0, 1, -1⟩, ⟨0, 0, -1⟩, ⟨0, 0, -1⟩]
  let q : List ℝ := [0, Real.pi / 2, 0, 1, 0, 0]
  have hpos : ∀ v, hyaFk (position v s) = hyaFk fun i => q.getD i 0 := by
    intro v
    rw [← C161_aligned (fun i => q.getD i 0) (by simp [q]) (v 0)]
    refine fk_turns fun i hi => ⟨0, ?_⟩
    interval_cases i <;> simp [position, s, q]
  refine ⟨oneSolver s, poseOf q, q, ?_, reaches_poseOf q rfl, rfl, ?_⟩
  · intro p r s' hs'
    unfold oneSolver at hs'
    split_ifs at hs' with h
    · rw [List.mem_singleton.1 hs']
      refine ⟨rfl, ?_, fun v => ?_⟩
      · have h3 := Real.pi_gt_three
        have h4 := Real.pi_le_four
        intro d hd
        simp only [s, List.mem_cons, List.not_mem_nil, or_false] at hd
        rcases hd with rfl | rfl | rfl | rfl | rfl | rfl <;> simp only [abs_le] <;> constructor <;> norm_num <;> linarith
      · rw [hpos v, h, hpos 0]
    · simp at hs'
  · intro r hr t
    refine ⟨s, ?_, fun _ => t, fun i hi => ⟨0, ?_⟩⟩
    · unfold oneSolver
      rw [if_pos]
      · simp
      · rw [hpos 0, rowMajor_unique _ r hr, ((reaches_iff _ _).1 (reaches_poseOf q rfl)).2]
    · interval_cases i <;> simp [position, s, q]

private theorem mul_bound {a b : ℝ} (ha : |a| ≤ 1) (hb : |b| ≤ 1) : |a * b| ≤ 1 := by
  rw [abs_mul]; exact mul_le_one₀ ha (abs_nonneg _) hb

/-- The end effector does not get ten metres above the base. -/
private theorem height (q : ℕ → ℝ) : (hyaFk q).eetrans 2 < 10 := by
  have s1 := Real.abs_sin_le_one (q 1)
  have c1 := Real.abs_cos_le_one (q 1)
  have s2 := Real.abs_sin_le_one (q 2)
  have c2 := Real.abs_cos_le_one (q 2)
  have s3 := Real.abs_sin_le_one (q 3)
  have c3 := Real.abs_cos_le_one (q 3)
  have s4 := Real.abs_sin_le_one (q 4)
  have c4 := Real.abs_cos_le_one (q 4)
  have s5 := Real.abs_sin_le_one (q 5)
  have c5 := Real.abs_cos_le_one (q 5)
  simp only [hyaFk, Matrix.cons_val]
  generalize Real.sin (q 1) = S1 at *; generalize Real.cos (q 1) = C1 at *
  generalize Real.sin (q 2) = S2 at *; generalize Real.cos (q 2) = C2 at *
  generalize Real.sin (q 3) = S3 at *; generalize Real.cos (q 3) = C3 at *
  generalize Real.sin (q 4) = S4 at *; generalize Real.cos (q 4) = C4 at *
  generalize Real.sin (q 5) = S5 at *; generalize Real.cos (q 5) = C5 at *
  have m1 := (abs_le.1 (mul_bound (mul_bound c4 s2) c1)).2
  have m2 := (abs_le.1 (mul_bound (mul_bound s4 s1) s3)).1
  have m3 := (abs_le.1 (mul_bound (mul_bound s4 c3) (mul_bound c2 c1))).2
  have m4 := (abs_le.1 s1).2
  have m5 := (abs_le.1 (mul_bound c2 (mul_bound c1 s3))).2
  have m6 := (abs_le.1 (mul_bound (mul_bound c5 s3) (mul_bound c2 c1))).2
  have m7 := (abs_le.1 (mul_bound (mul_bound c5 c3) s1)).2
  have m8 := (abs_le.1 (mul_bound c3 s1)).2
  have m9 := (abs_le.1 (mul_bound (mul_bound s5 c4) (mul_bound s2 c1))).2
  have m10 := (abs_le.1 (mul_bound (mul_bound s5 s4) (mul_bound (mul_bound c2 c3) c1))).2
  have m11 := (abs_le.1 (mul_bound (mul_bound s5 s4) (mul_bound s1 s3))).1
  nlinarith [m1, m2, m3, m4, m5, m6, m7, m8, m9, m10, m11]

/-- For a pose out of reach a solver without solutions is complete. -/
example : ∃ (ik : Solver) (T : Pose), Right ik ∧ NoFree ik T ∧ Complete ik T ∧ hyaBase ik [] T [] = .ok (false, []) := by
  refine ⟨fun _ _ _ => [], ⟨1, ![0, 0, 10]⟩, by simp [Right], by simp [NoFree], ?_, by simp [hyaBase]⟩
  intro r _ q hq
  have h := congrFun (congrArg Fk.eetrans ((reaches_iff _ _).1 hq).2) 2
  have h10 : (![0, 0, 10] : Fin 3 → ℝ) 2 = 10 := rfl
  exact absurd (h.trans h10) (height _).ne

end CT.IkFast
