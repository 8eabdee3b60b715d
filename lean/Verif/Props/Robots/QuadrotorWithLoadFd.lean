import Verif.Props.Robots.QuadrotorWithLoadInvertible
import Verif.Props.ArticulatedRegular

/-! # QuadrotorWithLoad: forward dynamics and inverse dynamics agree, energy balance of forward dynamics -/

namespace CT.Robots.QuadrotorWithLoad

open Matrix Spatial Articulated FrameJac OpJac

/-- Changes of the accelerations and of the forces of `id_fully_actuated` are related by the inertia matrix, whatever
the external forces. -/
theorem full_diff (z : Robot) (cs : List Call) (q : Q) (g v a a' : V6) (qd x x' : Q) (fext : Ext)
    (h1 : ((Robot.after z cs).id_full q g v a' qd x' fext).2 = ((Robot.after z cs).id_full q g v a qd x fext).2) :
    ((Robot.after z cs).jsim q).2 *ᵥ Sum.elim (a' - a) (x' - x) = 0 := by
  refine dotProduct_eq _ _ fun w => ?_
  rw [zero_dotProduct, dotProduct_comm]
  have e1 := C135_QuadrotorWithLoad z z cs cs q g v a (w ∘ Sum.inl) qd x (w ∘ Sum.inr) fext
  have e2 := C135_QuadrotorWithLoad z z cs cs q g v a' (w ∘ Sum.inl) qd x' (w ∘ Sum.inr) fext
  rw [h1, ← e1] at e2
  have s : ∀ (u : V6) (y : Q), w ∘ Sum.inl ⬝ᵥ u + w ∘ Sum.inr ⬝ᵥ y = w ⬝ᵥ Sum.elim u y := fun u y => by
    simp [dotProduct, Fintype.sum_sum_type]
  rw [s, s, C126_QuadrotorWithLoad z z z z cs cs cs cs q g v a' qd x', C126_QuadrotorWithLoad z z z z cs cs cs cs q g v a qd x] at e2
  have e3 : Sum.elim (a' - a) (x' - x) = Sum.elim a' x' - Sum.elim a x := by
    funext i; cases i <;> rfl
  rw [e3, mulVec_sub, dotProduct_sub]
  simp only [dotProduct_add] at e2
  linarith

/-- The joints with their forces. -/
noncomputable def pairsAt (q qd : Q) (fext : Ext) (tau : Q) : List (List (Joint × ℝ)) :=
  List.zipWith List.zip (branchesAt q qd fext) (split tau)

theorem entry (X S : M6) : (Xᵀ * S * X) 2 2 = (X *ᵥ axisZ) ⬝ᵥ (S *ᵥ (X *ᵥ axisZ)) := by
  have h : axisZ ⬝ᵥ ((Xᵀ * S * X) *ᵥ axisZ) = (Xᵀ * S * X) 2 2 := by rw [axis_dot, axis_col]
  rw [← h, ← mulVec_mulVec, ← mulVec_mulVec, dotProduct_mulVec, vecMul_transpose]

theorem link2_D : Inertias.std.link2 2 2 = 0.0000025 := by
  simp [Inertias.std, Inertias.new, tensor_link2, Inertia.fill, Inertia.new, buildInertiaTensor]

theorem link1_D : Inertias.std.link1 2 2 = 0.00002075 := by
  simp [Inertias.std, Inertias.new, tensor_link1, Inertia.fill, Inertia.new, buildInertiaTensor]

theorem pairs_regular (q qd : Q) (fext : Ext) (tau : Q) (v : V6) : ∀ br ∈ pairsAt q qd fext tau, Regular v br := by
  have h2 := tensor_link2_body 0
  have h1 := tensor_link1_body 0
  have hm := motion_fr_link2_X_fr_link1_isMotion 0 q
  simp only [pairsAt, branchesAt, branches, split, List.zipWith_cons_cons, List.zipWith_nil_left, List.zip_cons_cons, List.zip_nil_left,
    List.mem_cons, List.not_mem_nil, or_false, forall_eq]
  refine ⟨⟨_, _, motion_fr_link1_X_fr_body_isMotion 0 q⟩, h1.symm, ?_, ⟨_, _, hm⟩, h2.symm, ?_, trivial⟩
  · have hl : ∀ (j : Joint) (pp c : V6) (tt : ℝ), j.X = (MT.at q).fr_link2_X_fr_link1 →
        (j.lump Inertias.std.link2 pp c tt).1 = (MT.at q).fr_link2_X_fr_link1ᵀ * schur Inertias.std.link2 * (MT.at q).fr_link2_X_fr_link1 :=
      fun j pp c tt hj => by
        rw [← hj]
        exact reg_lump_fst ⟨_, _, by rw [hj]; exact hm⟩ h2.symm (show Inertias.std.link2 2 2 ≠ 0 by rw [link2_D]; norm_num) pp c tt
    show (Inertias.std.link1 + (Joint.lump _ Inertias.std.link2 _ _ _).1) 2 2 ≠ 0
    rw [hl _ _ _ _ rfl]
    have hs := Real.sin_sq_add_cos_sq (q JB)
    have : ((MT.at q).fr_link2_X_fr_link1ᵀ * schur Inertias.std.link2 * (MT.at q).fr_link2_X_fr_link1) 2 2 = 0.004084 := by
      rw [entry, schur_mulVec, dotProduct_sub, link2_quad, link2_mulVec]
      simp [axisZ, Inertias.std, Inertias.new, tensor_link2, Inertia.fill, Inertia.new, buildInertiaTensor, dotProduct, Fin.sum_univ_succ]
      norm_num
    rw [Matrix.add_apply, this]
    show Inertias.std.link1 2 2 + _ ≠ 0
    rw [link1_D]
    norm_num
  · show Inertias.std.link2 2 2 ≠ 0
    rw [link2_D]; norm_num

/-- The articulated inertia of the base is invertible at every position. -/
theorem base_unit (z : Robot) (q qd : Q) (fext : Ext) (tau : Q) (v : V6) : IsUnit ((baseAt v fext).AI (pairsAt q qd fext tau)).det := by
  rw [isUnit_iff_ne_zero]
  intro hd
  obtain ⟨u, hu, h⟩ := exists_mulVec_eq_zero_iff.2 hd
  have hreg := pairs_regular q qd fext tau v
  have key : ∀ w : V6, ∃ x : Q, ((Robot.after z []).id_full q 0 v w qd x fext).2.1
        = (baseAt v fext).AI (pairsAt q qd fext tau) *ᵥ w + (baseAt v fext).p (pairsAt q qd fext tau)
      ∧ ((Robot.after z []).id_full q 0 v w qd x fext).2.2 = tau := by
    intro w
    have h1 := reg_idFull (baseAt v fext) 0 w (pairsAt q qd fext tau) hreg
    rw [sub_zero] at h1
    obtain ⟨x, hx⟩ : ∃ x : Q, (pairsAt q qd fext tau).map (down (baseAt v fext).v w) = split x :=
       ⟨![(((pairsAt q qd fext tau).map (down (baseAt v fext).v w)).getD 0 []).getD 0 0,
        (((pairsAt q qd fext tau).map (down (baseAt v fext).v w)).getD 0 []).getD 1 0], rfl⟩
    rw [hx] at h1
    have h2 := full_eq (inv_after z []) q 0 v w qd x fext
    have h3 := h2.trans h1
    exact ⟨x, congrArg Prod.fst h3, split_inj (congrArg Prod.snd h3)⟩
  obtain ⟨x1, a1, b1⟩ := key u
  obtain ⟨x0, a0, b0⟩ := key 0
  rw [h, zero_add] at a1
  rw [mulVec_zero, zero_add] at a0
  have := full_diff z [] q 0 v 0 u qd x0 x1 fext (Prod.ext (a1.trans a0.symm) (b1.trans b0.symm))
  rw [sub_zero] at this
  exact hu (jsim_inj _ _ q u _ this).1

/-- **C125 (QuadrotorWithLoad).**  The accelerations of base and joints that `fd` computes for given joint forces are those
for which `id_fully_actuated` computes these forces and no force on the base, whatever was called before on
the two objects - although the inertia matrix is not positive definite. -/
theorem C125_QuadrotorWithLoad_fd (z y : Robot) (cs ds : List Call) (q : Q) (g v acc : V6) (qd tau qdd : Q) (fext : Ext) :
    ((Robot.after z cs).id_full q g v acc qd qdd fext).2 = (0, tau)
      ↔ (acc, qdd) = ((Robot.after y ds).fd q v g qd tau fext).2 := by
  have h1 := full_eq (inv_after z cs) q g v acc qd qdd fext
  have h2 := fd_eq (inv_after y ds) q v g qd tau fext
  have h3 := reg_float (b := baseAt v fext) g acc (pairsAt q qd fext tau) (split qdd)
    (pairs_regular q qd fext tau v) (base_unit z q qd fext tau v) rfl
  rw [show withJoints (pairsAt q qd fext tau) (split qdd)
        = List.zipWith List.zip (branchesAt q qd fext) (split qdd) from rfl,
    show (pairsAt q qd fext tau).map (List.map Prod.snd) = split tau from rfl, pairsAt, ← h1, ← h2] at h3
  rw [split_pair split_inj, split_pair split_inj] at h3
  exact h3

/-- **C136 (QuadrotorWithLoad).**  Energy balance of `fd`: along every motion with the accelerations that `fd` computes, the sum of
the kinetic energy and the potential energy changes by the power of the joint forces and of the external forces. -/
theorem C136_QuadrotorWithLoad_fd (z y : Robot) (cs ds : List Call) {q qd : ℝ → Q} {R : ℝ → M3} {p ω v : ℝ → V3}
    {t : ℝ} (tau : Q) (fext : Ext) (hq : VDeriv q (qd t) t)
    (hqd : VDeriv qd ((Robot.after y ds).fd (q t) (join (ω t) (v t)) (gravIn (R t)) (qd t) tau fext).2.2 t)
    (hR : MDeriv R (R t * cpm (ω t)) t) (hp : VDeriv p (R t *ᵥ v t) t)
    (hv : VDeriv (fun s => join (ω s) (v s)) ((Robot.after y ds).fd (q t) (join (ω t) (v t)) (gravIn (R t)) (qd t) tau fext).2.1 t) :
    HasDerivAt (fun s => Sum.elim (join (ω s) (v s)) (qd s)
          ⬝ᵥ (((Robot.after z cs).jsim (q s)).2 *ᵥ Sum.elim (join (ω s) (v s)) (qd s)) / 2
        + grav * (lift (R s) (p s) Inertias.std.body + ((branchesAt (q s) (qd s) 0).map (height (R s) (p s))).sum))
      (qd t ⬝ᵥ tau + (join (ω t) (v t) ⬝ᵥ fext BODY
          + ((List.zipWith List.zip (branchesAt (q t) (qd t) fext) (split (qd t))).map (power (join (ω t) (v t)))).sum)) t := by
  obtain ⟨a, ha⟩ : ∃ a, ((Robot.after y ds).fd (q t) (join (ω t) (v t)) (gravIn (R t)) (qd t) tau fext).2 = a := ⟨_, rfl⟩
  rw [ha] at hqd hv
  have h := C136_QuadrotorWithLoad_id z z cs cs fext hq hqd hR hp hv
  rw [(C125_QuadrotorWithLoad_fd z y cs ds (q t) (gravIn (R t)) (join (ω t) (v t)) a.1 (qd t) tau a.2 fext).2 ha.symm, dotProduct_zero, zero_add] at h
  exact h

/-- Motions as in `C136_QuadrotorWithLoad_fd` exist through every state. -/
example (y : Robot) (ds : List Call) (q₀ qd₀ tau : Q) (R₀ : M3) (p₀ ω₀ v₀ : V3) (fext : Ext) :
    ∃ (q qd : ℝ → Q) (R : ℝ → M3) (p ω v : ℝ → V3), q 0 = q₀ ∧ qd 0 = qd₀ ∧ R 0 = R₀ ∧ p 0 = p₀ ∧ ω 0 = ω₀ ∧ v 0 = v₀ ∧
    VDeriv q (qd 0) 0 ∧ VDeriv qd ((Robot.after y ds).fd (q 0) (join (ω 0) (v 0)) (gravIn (R 0)) (qd 0) tau fext).2.2 0 ∧
    MDeriv R (R 0 * cpm (ω 0)) 0 ∧ VDeriv p (R 0 *ᵥ v 0) 0 ∧
    VDeriv (fun s => join (ω s) (v s)) ((Robot.after y ds).fd (q 0) (join (ω 0) (v 0)) (gravIn (R 0)) (qd 0) tau fext).2.1 0 :=
  line_motion_float q₀ qd₀ R₀ p₀ ω₀ v₀ fun q R ω v qd => ((Robot.after y ds).fd q (join ω v) (gravIn R) qd tau fext).2

end CT.Robots.QuadrotorWithLoad
