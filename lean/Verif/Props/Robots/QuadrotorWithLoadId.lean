import Verif.Props.Robots.QuadrotorWithLoadInvertible
import Verif.Props.ArticulatedRegularId

/-! # QuadrotorWithLoad: the two inverse dynamics agree -/

namespace CT.Robots.QuadrotorWithLoad

open Matrix Spatial Articulated FrameJac OpJac

/-- With fixed joints the kinetic energy is positive. -/
theorem kin_fixed_pos {c s k l : ℝ} (hA : s ^ 2 + c ^ 2 = 1) (hB : l ^ 2 + k ^ 2 = 1) (v : V6) (h : kin c s k l v 0 0 ≤ 0) : v = 0 := by
  obtain ⟨p, hp⟩ : ∃ p, p = c * v 0 + s * v 1 := ⟨_, rfl⟩
  obtain ⟨r, hr⟩ : ∃ r, r = -s * v 0 + c * v 1 := ⟨_, rfl⟩
  obtain ⟨x, hx⟩ : ∃ x, x = c * v 3 + s * v 4 := ⟨_, rfl⟩
  obtain ⟨y, hy⟩ : ∃ y, y = -s * v 3 + c * v 4 := ⟨_, rfl⟩
  have hn : p ^ 2 + r ^ 2 = v 0 ^ 2 + v 1 ^ 2 := by
    rw [hp, hr]; linear_combination (v 0 ^ 2 + v 1 ^ 2) * hA
  have hm : x ^ 2 + y ^ 2 = v 3 ^ 2 + v 4 ^ 2 := by
    rw [hx, hy]; linear_combination (v 3 ^ 2 + v 4 ^ 2) * hA
  simp only [kin, ← hp, ← hr, ← hx, ← hy, add_zero, zero_sub] at h
  have h1 := sq_nonneg (x - 1.6 * r * (0.01125 + 0.035 * k))
  have h2 := sq_nonneg (y + 1.6 * (0.035 * l * v 2 + p * (0.01125 + 0.035 * k)))
  have h3 := sq_nonneg (v 5 - 1.6 * (0.035 * l * r))
  obtain ⟨o0, o1, o2, p0, r0, -⟩ := rot_pos (w := v 2) (o2 := v 2) hB hn (by linarith)
  rw [o0, o1, o2, p0, r0] at h
  have z : ∀ {a : ℝ}, a ^ 2 ≤ 0 → a = 0 := fun {a} ha => pow_eq_zero_iff (two_ne_zero) |>.1 (le_antisymm ha (sq_nonneg a))
  have hs : v 3 ^ 2 + v 4 ^ 2 + v 5 ^ 2 ≤ 0 := by rw [← hm]; linarith
  have o3 : v 3 = 0 := z (by linarith [sq_nonneg (v 4), sq_nonneg (v 5)])
  have o4 : v 4 = 0 := z (by linarith [sq_nonneg (v 3), sq_nonneg (v 5)])
  have o5 : v 5 = 0 := z (by linarith [sq_nonneg (v 3), sq_nonneg (v 4)])
  funext i
  fin_cases i <;> assumption

theorem quad_congr (X A : M6) (v : V6) : v ⬝ᵥ ((Xᵀ * A * X) *ᵥ v) = (X *ᵥ v) ⬝ᵥ (A *ᵥ (X *ᵥ v)) := by
  rw [← mulVec_mulVec, ← mulVec_mulVec, dotProduct_mulVec, vecMul_transpose]

/-- The composite inertia of the whole robot is invertible at every position. -/
theorem whole_unit (z : Robot) (q qd : Q) (fext : Ext) (qdd : Q) (v : V6) :
    IsUnit ((baseAt v fext).I + ((List.zipWith List.zip (branchesAt q qd fext) (split qdd)).map fun br => cm (comp v none br)).sum).det := by
  have hW : (baseAt v fext).I + ((List.zipWith List.zip (branchesAt q qd fext) (split qdd)).map fun br => cm (comp v none br)).sum
      = Inertias.std.body + (MT.at q).fr_link1_X_fr_bodyᵀ * (Inertias.std.link1
        + (MT.at q).fr_link2_X_fr_link1ᵀ * Inertias.std.link2 * (MT.at q).fr_link2_X_fr_link1) * (MT.at q).fr_link1_X_fr_body := by
    have hr := branches_rigid q qd fext
    simp only [branchesAt, branches, List.mem_cons, List.not_mem_nil, or_false, forall_eq] at hr
    obtain ⟨r1, r2⟩ : Joint.Rigid _ ∧ Joint.Rigid _ := ⟨hr _ (.inl rfl), hr _ (.inr rfl)⟩
    simp only [branchesAt, branches, split, List.zipWith_cons_cons, List.zipWith_nil_left, List.zip_cons_cons, List.zip_nil_left, List.map_cons,
      List.map_nil, List.sum_cons, List.sum_nil, add_zero]
    rw [comp_cons, cm, reg_compA_eq (x := 0), comp_cons]
    · rfl
    · intro e he
      rcases List.mem_cons.1 he with rfl | he
      · exact r1
      · rw [List.mem_singleton.1 he]
        exact r2
  rw [hW, isUnit_iff_ne_zero]
  intro hd
  obtain ⟨u, hu, h⟩ := exists_mulVec_eq_zero_iff.2 hd
  refine hu (kin_fixed_pos (Real.sin_sq_add_cos_sq (q JA)) (Real.sin_sq_add_cos_sq (q JB)) u ?_)
  have e := jsim_quad z [] q u 0
  rw [C128_QuadrotorWithLoad] at e
  have h0 := congrArg (u ⬝ᵥ ·) h
  simp only [add_mulVec, dotProduct_add, quad_congr, dotProduct_zero] at h0
  simp only [branchesAt, branches, split, List.zipWith_cons_cons, List.zipWith_nil_left, List.zip_cons_cons, List.zip_nil_left, List.map_cons, List.map_nil,
    energy, List.sum_cons, List.sum_nil, Pi.zero_apply, zero_smul, add_zero] at e
  rw [← e]
  exact h0.le

/-- **C125 (QuadrotorWithLoad).**  The acceleration of the base and the joint forces that `id` computes for given joint
accelerations are those for which `id_fully_actuated` computes these forces and no force on the base. -/
theorem C125_QuadrotorWithLoad_id (z y : Robot) (cs ds : List Call) (q : Q) (g v acc : V6) (qd tau qdd : Q) (fext : Ext) :
    ((Robot.after z cs).id_full q g v acc qd qdd fext).2 = (0, tau)
      ↔ (acc, tau) = ((Robot.after y ds).id q g v qd qdd fext).2 := by
  have h1 := full_eq (inv_after z cs) q g v acc qd qdd fext
  have h2 := id_eq (inv_after y ds) q g v qd qdd fext
  have hr : ∀ br ∈ List.zipWith List.zip (branchesAt q qd fext) (split qdd), ∀ e ∈ br, e.1.Rigid := by
    have hr := branches_rigid q qd fext
    simp only [branchesAt, branches, List.mem_cons, List.not_mem_nil, or_false, forall_eq] at hr
    intro br hbr e he
    simp only [branchesAt, branches, split, List.zipWith_cons_cons, List.zipWith_nil_left, List.zip_cons_cons, List.zip_nil_left, List.mem_cons,
      List.not_mem_nil, or_false] at hbr
    subst hbr
    simp only [List.mem_cons, List.not_mem_nil, or_false] at he
    rcases he with rfl | rfl
    · exact hr _ (.inl rfl)
    · exact hr _ (.inr rfl)
  have h3 := reg_float_id (b := baseAt v fext) (tensor_body_body 0) g acc (List.zipWith List.zip (branchesAt q qd fext) (split qdd)) (split tau)
    hr (whole_unit z q qd fext qdd v)
  rw [← h1, ← h2, split_pair split_inj, split_pair split_inj] at h3
  exact h3

end CT.Robots.QuadrotorWithLoad
