import Verif.Props.Taskspace
import Mathlib.Tactic.Positivity

/-! # C144 for the robots -/

namespace CT.Taskspace

open Matrix FrameJac FloatSys Lookup GenKin

theorem arranged_rot {fs : List Frame} {C G : ℕ → Pose} {q : ℕ → ℝ} (hC : ∀ f, IsRot (C f).R) (hG : Arranged fs C q G)
    {f : ℕ} {js : List ℕ} (hp : IsPath fs f js) : IsRot (G f).R := by
  induction hp with
  | base =>
    rw [hG.1]
    exact ⟨by simp [Pose.one], by simp [Pose.one]⟩
  | step hf _ ih =>
    rw [hG.2 _ hf]
    refine ih.mul ((hC _).mul ?_)
    cases (_ : Frame).joint with
    | none => exact ⟨by simp [Pose.one], by simp [Pose.one]⟩
    | some j => exact Pose.rot_turn _

theorem eePose_of {d : Defs} {fs : List Frame} {f : ℕ} {js : List ℕ} {C : ℕ → Pose} (hC : ∀ f, IsRot (C f).R)
    (h : ∀ q, ∃ G, Arranged fs C q G ∧ d.EEsRight [f] G q) (hp : IsPath fs f js) : EEPose d 0 := by
  choose G h1 h2 using h
  exact ⟨fun q => (G q f).p, fun q => (G q f).R, fun q => ⟨arranged_rot hC (h1 q) hp,
    fun w => ((h2 q).1 0 f rfl w).2⟩⟩

theorem eePose_InvertedPendulum : EEPose Robots.InvertedPendulum.Kin.defs 0 := by
  obtain ⟨C, c0, -, h⟩ := InvertedPendulum.C133_InvertedPendulum_lookup
  exact eePose_of c0 (fun q => (h q).imp fun _ k => ⟨k.1, k.2.2⟩) InvertedPendulum.path_fr_ee

theorem eePose_DoubleInvertedPendulum : EEPose Robots.DoubleInvertedPendulum.Kin.defs 0 := by
  obtain ⟨C, c0, -, h⟩ := DoubleInvertedPendulum.C133_DoubleInvertedPendulum_lookup
  exact eePose_of c0 (fun q => (h q).imp fun _ k => ⟨k.1, k.2.2⟩) DoubleInvertedPendulum.path_fr_ee

theorem eePose_HyA : EEPose Robots.HyA.Kin.defs 0 := by
  obtain ⟨C, c0, -, -, h⟩ := HyA.C133_HyA_lookup
  exact eePose_of c0 (fun q => (h q).imp fun _ k => ⟨k.1, k.2.2⟩) HyA.path_fr_ee

/-- The gradient of the term with goal `g` for the robot `d` is right for every motion of the state that does not pass
through an orientation a half turn away from the reference at `t`. -/
def GradientRight (S : ℕ) (er : EigenRot) (d : Defs) (g : Geo) : Prop :=
  ∀ (x : ℝ → Fin S → ℝ) (xd : Fin S → ℝ) (t : ℝ), VDeriv x xd t → ∀ (hh : ℝ → Hists) (h : Hists),
    (∀ C, d.getEERotInBase h.X g.eeInd (joints d.njoints (x t)) = .ok C → (C * g.RRefᵀ).trace ≠ -1) →
    ∃ (cost : ℝ → ℝ) (grad : Fin S → ℝ), (∀ s, g.evaluate er d (hh s) (x s) = .ok (cost s))
      ∧ g.stateDerivative er d h (x t) = .ok grad ∧ HasDerivAt cost (grad ⬝ᵥ xd) t

/-- C144 for three robots with a fixed base, without assumptions about their kinematics.  Missing: as in
`C144_gradient_partial`. -/
theorem C144_robots_partial {er : EigenRot} (he : er.Ok) {S : ℕ} {d : Defs}
    (hd : d = Robots.InvertedPendulum.Kin.defs ∨ d = Robots.DoubleInvertedPendulum.Kin.defs ∨ d = Robots.HyA.Kin.defs)
    (hS : d.njoints ≤ S) {g : Geo} (hk : g.eeInd = 0) (hQ : g.Qpos.IsSymm) {c : ℝ} (hc : g.Qrot = c • 1)
    (hR : IsRot g.RRef) : GradientRight S er d g := by
  intro x xd t hx hh h hhalf
  rcases hd with rfl | rfl | rfl
  · exact C144_gradient_partial he (hk ▸ eePose_InvertedPendulum)
      (hk ▸ InvertedPendulum.C134_InvertedPendulum_velocity 0 (by decide)) hS hQ hc hR hx hh h hhalf
  · exact C144_gradient_partial he (hk ▸ eePose_DoubleInvertedPendulum)
      (hk ▸ DoubleInvertedPendulum.C134_DoubleInvertedPendulum_velocity 0 (by decide)) hS hQ hc hR hx hh h hhalf
  · exact C144_gradient_partial he (hk ▸ eePose_HyA)
      (hk ▸ HyA.C134_HyA_velocity 0 (by decide)) hS hQ hc hR hx hh h hhalf

/-- The hypotheses are met: for instance by the arm HyA with 6 joints and a state of 12 entries. -/
example : ∃ er : EigenRot, er.Ok ∧ GradientRight 12 er Robots.HyA.Kin.defs ⟨0, 1, 1, ![1, 2, 3], 1⟩ := by
  obtain ⟨er, he⟩ := eigenRot_exists
  exact ⟨er, he, C144_robots_partial he (Or.inr (Or.inr rfl)) (by decide) rfl Matrix.isSymm_one (c := 1) (by simp)
    ⟨by simp, by simp⟩⟩

/-! ### Weights that differ between the axes -/

/-- Objects of the generated code that were just created, in memory full of zeros. -/
def fresh : Hists := ⟨⟨0, []⟩, ⟨0, []⟩⟩

theorem pendulum_rot (q : ℕ → ℝ) : Robots.InvertedPendulum.Kin.defs.getEERotInBase fresh.X 0 q
    = .ok !![0, 0, 1; -Real.sin (q 0), -Real.cos (q 0), 0; Real.cos (q 0), -Real.sin (q 0), 0] := by
  refine congrArg Res.ok (Matrix.ext fun i j => ?_)
  fin_cases i <;> fin_cases j <;>
    simp [call, Gen.update, Gen.after, Gen.new, fresh, Robots.InvertedPendulum.Kin.fr_InvertedPendulumBase_X_fr_ee,
      Robots.InvertedPendulum.Kin.hom_fr_InvertedPendulumBase_X_fr_ee, Asg.act, E.eval]

theorem pendulum_jac (q : ℕ → ℝ) : ∃ J, Robots.InvertedPendulum.Kin.defs.getJacobianBaseEEbyId fresh.J 0 q = .ok J
    ∧ ∀ j, J 0 j = 1 ∧ J 1 j = 0 ∧ J 2 j = 0 := by
  refine ⟨_, rfl, fun j => ?_⟩
  obtain rfl : j = ⟨0, by decide⟩ := Fin.ext (Nat.lt_one_iff.1 j.2)
  refine ⟨?_, ?_, ?_⟩ <;>
  simp [call, Gen.update, Gen.after, Gen.new, fresh, Robots.InvertedPendulum.Kin.fr_InvertedPendulumBase_J_fr_ee,
      Robots.InvertedPendulum.Kin.gen_fr_InvertedPendulumBase_J_fr_ee, Asg.act, E.eval]

/-- The goal: no weight on the position, weights 1, 1 and 2 on the axes of the orientation error, and an orientation from
which the one at the joint position 0 is turned about the direction (0, 1, 1). -/
noncomputable def skewGoal : Geo :=
  ⟨0, 0, Matrix.diagonal ![1, 1, 2], 0, !![-4 / 9, -4 / 9, -7 / 9; 8 / 9, -1 / 9, -4 / 9; 1 / 9, -8 / 9, 4 / 9]⟩

theorem skew_rot : IsRot skewGoal.RRef := by
  constructor
  · ext i j
    fin_cases i <;> fin_cases j <;> simp [skewGoal, Matrix.mul_apply, Fin.sum_univ_three] <;> norm_num
  · simp [skewGoal, Matrix.det_fin_three]
    norm_num

theorem skew_err (u : ℝ) : !![0, 0, 1; -Real.sin u, -Real.cos u, 0; Real.cos u, -Real.sin u, 0] * skewGoal.RRefᵀ
    = !![-7 / 9, -4 / 9, 4 / 9;
         (4 * Real.cos u + 4 * Real.sin u) / 9, (Real.cos u - 8 * Real.sin u) / 9, (8 * Real.cos u - Real.sin u) / 9;
         (4 * Real.sin u - 4 * Real.cos u) / 9, (Real.sin u + 8 * Real.cos u) / 9, (8 * Real.sin u + Real.cos u) / 9] := by
  ext i j
  fin_cases i <;> fin_cases j <;> simp [skewGoal, Matrix.mul_apply, Fin.sum_univ_three] <;> ring

/-- Angle and axis of the error, and the cost of the orientation. -/
theorem skew_qDiff {er : EigenRot} (he : er.Ok) (u : ℝ) :
    ∃ (θ : ℝ) (a : V3), skewGoal.qDiff er !![0, 0, 1; -Real.sin u, -Real.cos u, 0; Real.cos u, -Real.sin u, 0] = θ • a
      ∧ 0 ≤ θ ∧ θ ≤ Real.pi ∧ Real.cos θ = (Real.cos u - 8) / 9
      ∧ Real.sin θ * a 0 = Real.sin u / 9
      ∧ Real.sin θ * a 1 = (2 - 2 * Real.sin u + 2 * Real.cos u) / 9
      ∧ Real.sin θ * a 2 = (2 + 2 * Real.sin u + 2 * Real.cos u) / 9 := by
  have hr : IsRot !![0, 0, 1; -Real.sin u, -Real.cos u, 0; Real.cos u, -Real.sin u, 0] := by
    obtain ⟨p, C, h⟩ := eePose_InvertedPendulum
    have h1 := ((h fun _ => u).2 fresh.X).2
    rw [pendulum_rot] at h1
    exact (Res.ok.inj h1) ▸ (h fun _ => u).1
  obtain ⟨θ, a, e1, -, e3, e4, e5, e6, e7, e8⟩ := qDiff_spec he skew_rot hr
  rw [skew_err] at e5 e6 e7 e8
  simp only [Matrix.trace, Matrix.diag, Fin.sum_univ_three, Matrix.of_apply, Matrix.cons_val', Matrix.cons_val_zero,
    Matrix.cons_val_one, Matrix.cons_val] at e5 e6 e7 e8
  exact ⟨θ, a, e1, e3, e4, by linarith, by linarith, by linarith, by linarith⟩

/-- C144 fails for weights that differ between the axes of the orientation error: for the inverted pendulum and a goal
with symmetric positive weights and a rotation as reference, away from the half turn, the returned gradient is zero although
the cost changes when the joint moves. -/
theorem C144_weights_violated {er : EigenRot} (he : er.Ok) :
    ∃ (g : Geo) (w : V3) (h : Hists), g.eeInd = 0 ∧ g.Qpos = 0 ∧ g.Qrot = Matrix.diagonal w ∧ (∀ i, 0 < w i) ∧ IsRot g.RRef
      ∧ (∀ C, Robots.InvertedPendulum.Kin.defs.getEERotInBase h.X 0 (joints 1 fun _ : Fin 1 => 0) = .ok C → (C * g.RRefᵀ).trace ≠ -1)
      ∧ ∃ (cost : ℝ → ℝ) (rate : ℝ),
        (∀ s, g.evaluate er Robots.InvertedPendulum.Kin.defs h (fun _ : Fin 1 => s) = .ok (cost s))
        ∧ g.stateDerivative er Robots.InvertedPendulum.Kin.defs h (fun _ : Fin 1 => 0) = .ok 0
        ∧ HasDerivAt cost rate 0 ∧ 0 < rate := by
  obtain ⟨p, C, hpC⟩ := eePose_InvertedPendulum
  have j0 : ∀ s, joints Robots.InvertedPendulum.Kin.defs.njoints (fun _ : Fin 1 => s) 0 = s := fun s => by
    simp [joints, Robots.InvertedPendulum.Kin.defs]
  have hrot := fun s => pendulum_rot (joints Robots.InvertedPendulum.Kin.defs.njoints (fun _ : Fin 1 => s))
  simp only [j0] at hrot
  have hpos := fun s => world_pos ((hpC (joints Robots.InvertedPendulum.Kin.defs.njoints (fun _ : Fin 1 => s))).2 fresh.X).1
  refine ⟨skewGoal, ![1, 1, 2], fresh, rfl, rfl, rfl, fun i => by fin_cases i <;> simp, skew_rot, fun D hD => ?_, ?_⟩
  · have h0 := hrot 0
    rw [show joints Robots.InvertedPendulum.Kin.defs.njoints (fun _ : Fin 1 => (0 : ℝ)) = joints 1 fun _ : Fin 1 => 0 from rfl, hD] at h0
    rw [Res.ok.inj h0, skew_err]
    simp [Matrix.trace, Fin.sum_univ_three]
    norm_num
  refine ⟨fun s => (1 / 2 : ℝ) * ((skewGoal.qDiff er !![0, 0, 1; -Real.sin s, -Real.cos s, 0; Real.cos s, -Real.sin s, 0] ᵥ* skewGoal.Qrot)
      ⬝ᵥ skewGoal.qDiff er !![0, 0, 1; -Real.sin s, -Real.cos s, 0; Real.cos s, -Real.sin s, 0]),
    Real.arccos (-7 / 9) ^ 2 / 4, fun s => ?_, ?_, ?_, ?_⟩
  · have : skewGoal.eeInd = 0 := rfl
    simp only [Geo.evaluate, this, hpos, hrot, Res.ok_bind, Res.pure_eq]
    simp [skewGoal]
  · obtain ⟨J, hJ, hJ'⟩ := pendulum_jac (joints Robots.InvertedPendulum.Kin.defs.njoints (fun _ : Fin 1 => (0 : ℝ)))
    obtain ⟨θ, a, e1, -, -, e4, e5, -, -⟩ := skew_qDiff he 0
    have : skewGoal.eeInd = 0 := rfl
    simp only [Geo.stateDerivative, this, hJ, hpos, hrot, Res.ok_bind, Res.pure_eq]
    rw [e1]
    have ha : a 0 = 0 := by
      rw [Real.sin_zero, zero_div] at e5
      rcases mul_eq_zero.1 e5 with k | k
      · have := Real.sin_sq_add_cos_sq θ
        rw [k, e4, Real.cos_zero] at this
        norm_num at this
      · exact k
    refine congrArg Res.ok (funext fun i => ?_)
    have q0 : skewGoal.Qpos = 0 := rfl
    rw [q0]
    unfold setHead
    split
    · have j1 : ∀ j, topRows J 1 j = 0 := fun j => (hJ' j).2.1
      have j2 : ∀ j, topRows J 2 j = 0 := fun j => (hJ' j).2.2
      rw [Matrix.mul_zero, Matrix.zero_mulVec, zero_add, ← Matrix.mulVec_mulVec]
      simp [mulVec, dotProduct, Fin.sum_univ_three, j1, j2, skewGoal, ha, Matrix.diagonal]
    · rfl
  · -- the cost near 0
    have hloc : ∀ᶠ s in nhds (0 : ℝ), (1 / 2 : ℝ) * ((skewGoal.qDiff er !![0, 0, 1; -Real.sin s, -Real.cos s, 0; Real.cos s, -Real.sin s, 0] ᵥ* skewGoal.Qrot)
        ⬝ᵥ skewGoal.qDiff er !![0, 0, 1; -Real.sin s, -Real.cos s, 0; Real.cos s, -Real.sin s, 0])
        = Real.arccos ((Real.cos s - 8) / 9) ^ 2 / (2 * (1 - ((Real.cos s - 8) / 9) ^ 2))
          * ((Real.sin s / 9) ^ 2 + ((2 - 2 * Real.sin s + 2 * Real.cos s) / 9) ^ 2 + 2 * ((2 + 2 * Real.sin s + 2 * Real.cos s) / 9) ^ 2) := by
      have hc : ∀ᶠ s in nhds (0 : ℝ), 0 < Real.cos s :=
        Real.continuous_cos.continuousAt.eventually (lt_mem_nhds (by simp))
      filter_upwards [hc] with s hs
      obtain ⟨θ, a, e1, e2, e3, e4, e5, e6, e7⟩ := skew_qDiff he s
      rw [e1, ← e4, ← e5, ← e6, ← e7, Real.arccos_cos e2 e3, ← Real.sin_sq]
      have hne : Real.sin θ ≠ 0 := fun k => by
        have := Real.sin_sq_add_cos_sq θ
        rw [k, e4] at this
        nlinarith [Real.cos_le_one s]
      simp [skewGoal, vecMul, dotProduct, Fin.sum_univ_three]
      field_simp
    have dc := Real.hasDerivAt_cos 0
    have ds := Real.hasDerivAt_sin 0
    have dg : HasDerivAt (fun s => (Real.cos s - 8) / 9) 0 0 := by
      refine ((dc.sub_const 8).div_const 9).congr_deriv (by simp)
    have dA := ((Real.hasDerivAt_arccos (x := (Real.cos 0 - 8) / 9) (by norm_num) (by norm_num)).comp 0 dg).fun_pow 2
    have dB := (((dg.fun_pow 2).const_sub 1).const_mul 2)
    have dN := (((ds.div_const 9).fun_pow 2).add ((((ds.const_mul 2).const_sub 2).add (dc.const_mul 2)).div_const 9 |>.fun_pow 2)).add
      ((((((ds.const_mul 2).const_add 2).add (dc.const_mul 2)).div_const 9).fun_pow 2).const_mul 2)
    have d := (dA.div dB (by norm_num)).mul dN
    refine (d.congr_deriv ?_).congr_of_eventuallyEq hloc
    simp [Function.comp]
    norm_num
    ring
  · have : 0 < Real.arccos (-7 / 9) := Real.arccos_pos.2 (by norm_num)
    positivity

end CT.Taskspace
