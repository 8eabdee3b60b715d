import Verif.Props.Robots.QuadrotorWithLoad
import Verif.Props.ArticulatedPower

/-! # QuadrotorWithLoad: virtual work and energy (written by `tools/gen_power.py`) -/

set_option linter.unusedSimpArgs false
set_option maxRecDepth 4000

namespace CT.Robots.QuadrotorWithLoad

open Matrix Spatial Articulated FrameJac OpJac

theorem spin_fr_link1_X_fr_body (q : Q) : motion_fr_link1_X_fr_body_update (motion_fr_link1_X_fr_body_new 0) q = spin (q JA) * motion_fr_link1_X_fr_body_update (motion_fr_link1_X_fr_body_new 0) 0 := by
  have hE : (!![Real.cos (q JA), Real.sin (q JA), 0; -Real.sin (q JA), Real.cos (q JA), 0; 0, 0, 1] : M3)
      = tz (q JA) * !![Real.cos ((0 : Q) JA), Real.sin ((0 : Q) JA), 0; -Real.sin ((0 : Q) JA), Real.cos ((0 : Q) JA), 0; 0, 0, 1] := by
    ext i j; fin_cases i <;> fin_cases j <;> simp [tz, Matrix.mul_apply, Fin.sum_univ_succ]
  rw [(motion_fr_link1_X_fr_body_isMotion 0 q).eq, (spin_motion (motion_fr_link1_X_fr_body_isMotion 0 0) (q JA)).eq, hE]

theorem spin_fr_link2_X_fr_link1 (q : Q) : motion_fr_link2_X_fr_link1_update (motion_fr_link2_X_fr_link1_new 0) q = spin (q JB) * motion_fr_link2_X_fr_link1_update (motion_fr_link2_X_fr_link1_new 0) 0 := by
  have hE : (!![Real.sin (q JB), 0, -Real.cos (q JB); Real.cos (q JB), 0, Real.sin (q JB); 0, -1, 0] : M3)
      = tz (q JB) * !![Real.sin ((0 : Q) JB), 0, -Real.cos ((0 : Q) JB); Real.cos ((0 : Q) JB), 0, Real.sin ((0 : Q) JB); 0, -1, 0] := by
    ext i j; fin_cases i <;> fin_cases j <;> simp [tz, Matrix.mul_apply, Fin.sum_univ_succ]
  rw [(motion_fr_link2_X_fr_link1_isMotion 0 q).eq, (spin_motion (motion_fr_link2_X_fr_link1_isMotion 0 0) (q JB)).eq, hE]

theorem branches_moves {q qd : ℝ → Q} {qdd : Q} {t : ℝ} (fext : Ext) (hq : VDeriv q (qd t) t) (hqd : VDeriv qd qdd t) :
    MovesAll t (fun s => branchesAt (q s) (qd s) fext) (split qdd) :=
  .cons (.cons _ _ _ _ (fun s => q s JA) (fun s => spin_fr_link1_X_fr_body (q s)) (motion_fr_link1_X_fr_body_isMotion 0 0) (fun _ => rfl) (tensor_link1_body 0) (hq JA) (hqd JA) (.cons _ _ _ _ (fun s => q s JB) (fun s => spin_fr_link2_X_fr_link1 (q s)) (motion_fr_link2_X_fr_link1_isMotion 0 0) (fun _ => rfl) (tensor_link2_body 0) (hq JB) (hqd JB) .nil))
    .nil

theorem branches_free (q qd : Q) (fext : Ext) : branchesAt q qd 0 = (branchesAt q qd fext).map (List.map Joint.free) := rfl

/-- **C135 (QuadrotorWithLoad).**  External forces enter `id_fully_actuated` by virtual work: whatever the velocity `u` of the base and
the rates `x` of the joints, the power of the forces on base and joints without external forces is their power with
them plus the power of the external forces on base and links that move with these rates. -/
theorem C135_QuadrotorWithLoad (z y : Robot) (cs ds : List Call) (q : Q) (g v acc u : V6) (qd qdd x : Q) (fext : Ext) :
    u ⬝ᵥ ((Robot.after z cs).id_full q g v acc qd qdd 0).2.1 + x ⬝ᵥ ((Robot.after z cs).id_full q g v acc qd qdd 0).2.2
      = u ⬝ᵥ ((Robot.after y ds).id_full q g v acc qd qdd fext).2.1 + x ⬝ᵥ ((Robot.after y ds).id_full q g v acc qd qdd fext).2.2
        + (u ⬝ᵥ fext BODY + ((List.zipWith List.zip (branchesAt q qd fext) (split x)).map (power u)).sum) := by
  have h := float_power (baseAt v fext) g acc u (branchesAt q qd fext) (split qdd) (split x) rfl rfl
  have h1 := full_eq (inv_after z cs) q g v acc qd qdd 0
  have h2 := full_eq (inv_after y ds) q g v acc qd qdd fext
  rw [← branches_free, show { baseAt v fext with fext := 0 } = baseAt v 0 from rfl, ← h1, ← h2] at h
  simp only [split_dot] at h
  exact h

/-- **C136 (QuadrotorWithLoad).**  Energy balance of `id_fully_actuated`: along every motion of base and joints, the sum of the kinetic
energy (by the joint space inertia matrix) and the potential energy changes by the power of the forces on base and joints that
`id_fully_actuated` computes for the accelerations of the motion and of the external forces.  `R` and `p` are the orientation
and the position of the base. -/
theorem C136_QuadrotorWithLoad_id (z y : Robot) (cs ds : List Call) {q qd : ℝ → Q} {qdd : Q} {R : ℝ → M3} {p ω v : ℝ → V3} {acc : V6}
    {t : ℝ} (fext : Ext) (hq : VDeriv q (qd t) t) (hqd : VDeriv qd qdd t) (hR : MDeriv R (R t * cpm (ω t)) t)
    (hp : VDeriv p (R t *ᵥ v t) t) (hv : VDeriv (fun s => join (ω s) (v s)) acc t) :
    HasDerivAt (fun s => Sum.elim (join (ω s) (v s)) (qd s)
          ⬝ᵥ (((Robot.after z cs).jsim (q s)).2 *ᵥ Sum.elim (join (ω s) (v s)) (qd s)) / 2
        + grav * (lift (R s) (p s) Inertias.std.body + ((branchesAt (q s) (qd s) 0).map (height (R s) (p s))).sum))
      (join (ω t) (v t) ⬝ᵥ ((Robot.after y ds).id_full (q t) (gravIn (R t)) (join (ω t) (v t)) acc (qd t) qdd fext).2.1
        + qd t ⬝ᵥ ((Robot.after y ds).id_full (q t) (gravIn (R t)) (join (ω t) (v t)) acc (qd t) qdd fext).2.2
        + (join (ω t) (v t) ⬝ᵥ fext BODY
          + ((List.zipWith List.zip (branchesAt (q t) (qd t) fext) (split (qd t))).map (power (join (ω t) (v t)))).sum)) t := by
  have h := float_balance (branches_moves fext hq hqd) (b := baseAt (join (ω t) (v t)) fext) (tensor_body_body 0) rfl hv hR hp
  rw [← full_eq (inv_after y ds)] at h
  rw [← split_dot]
  refine h.congr_of_eventuallyEq (.of_forall fun s => ?_)
  show _ / 2 + _ = _ / 2 + _
  rw [C128_QuadrotorWithLoad, branches_free (q s) (qd s) fext, energies_free, heights_free]
  rfl

/-- Motions as in `C136_QuadrotorWithLoad_id` exist through every state with any accelerations. -/
example (q₀ qd₀ qdd₀ : Q) (R₀ : M3) (p₀ ω₀ v₀ : V3) (acc : V6) :
    ∃ (q qd : ℝ → Q) (R : ℝ → M3) (p ω v : ℝ → V3), q 0 = q₀ ∧ qd 0 = qd₀ ∧ R 0 = R₀ ∧ p 0 = p₀ ∧ ω 0 = ω₀ ∧ v 0 = v₀ ∧
    VDeriv q (qd 0) 0 ∧ VDeriv qd qdd₀ 0 ∧ MDeriv R (R 0 * cpm (ω 0)) 0 ∧ VDeriv p (R 0 *ᵥ v 0) 0 ∧
    VDeriv (fun s => join (ω s) (v s)) acc 0 :=
  line_motion_float q₀ qd₀ R₀ p₀ ω₀ v₀ fun _ _ _ _ _ => (acc, qdd₀)

end CT.Robots.QuadrotorWithLoad
