import Verif.Props.Robots.InvertedPendulum
import Verif.Props.ArticulatedPower

/-! # InvertedPendulum: virtual work and energy (written by `tools/gen_power.py`) -/

set_option linter.unusedSimpArgs false
set_option maxRecDepth 4000

namespace CT.Robots.InvertedPendulum

open Matrix Spatial Articulated FrameJac OpJac

theorem spin_fr_Link1_X_fr_InvertedPendulumBase (q : Q) : motion_fr_Link1_X_fr_InvertedPendulumBase_update (motion_fr_Link1_X_fr_InvertedPendulumBase_new 0) q = spin (q JOINT1) * motion_fr_Link1_X_fr_InvertedPendulumBase_update (motion_fr_Link1_X_fr_InvertedPendulumBase_new 0) 0 := by
  have hE : (!![0, -Real.sin (q JOINT1), Real.cos (q JOINT1); 0, -Real.cos (q JOINT1), -Real.sin (q JOINT1); 1, 0, 0] : M3)
      = tz (q JOINT1) * !![0, -Real.sin ((0 : Q) JOINT1), Real.cos ((0 : Q) JOINT1); 0, -Real.cos ((0 : Q) JOINT1), -Real.sin ((0 : Q) JOINT1); 1, 0, 0] := by
    ext i j; fin_cases i <;> fin_cases j <;> simp [tz, Matrix.mul_apply, Fin.sum_univ_succ]
  rw [(motion_fr_Link1_X_fr_InvertedPendulumBase_isMotion 0 q).eq, (spin_motion (motion_fr_Link1_X_fr_InvertedPendulumBase_isMotion 0 0) (q JOINT1)).eq, hE]

theorem links_moves {q qd : ℝ → Q} {qdd : Q} {t : ℝ} (fext : Ext) (hq : VDeriv q (qd t) t) (hqd : VDeriv qd qdd t) :
    Moves t (fun s => linksAt (q s) (qd s) fext) (List.ofFn qdd) :=
  .cons _ _ _ _ (fun s => q s JOINT1) (fun s => spin_fr_Link1_X_fr_InvertedPendulumBase (q s)) (motion_fr_Link1_X_fr_InvertedPendulumBase_isMotion 0 0) (fun _ => rfl) (tensor_Link1_body 0) (hq JOINT1) (hqd JOINT1) .nil

theorem links_free (q qd : Q) (fext : Ext) : linksAt q qd 0 = (linksAt q qd fext).map Joint.free := rfl

/-- **C135 (InvertedPendulum).**  External forces enter `id` by virtual work: whatever the rates `x` of the joints, the power
of the joint forces without external forces is the power of the joint forces with them plus the power of the
external forces on the links that move with these rates. -/
theorem C135_InvertedPendulum (z y : Robot) (cs ds : List Call) (q qd qdd x : Q) (fext : Ext) :
    x ⬝ᵥ ((Robot.after z cs).id q qd qdd 0).2
      = x ⬝ᵥ ((Robot.after y ds).id q qd qdd fext).2 + power 0 ((linksAt q qd fext).zip (List.ofFn x)) := by
  have h := fixed_power (linksAt q qd fext) (List.ofFn qdd) (List.ofFn x) (by simp [links_length]) (by simp [links_length])
  rw [← links_free, ← id_eq (inv_after z cs), ← id_eq (inv_after y ds), ldot_ofFn, ldot_ofFn] at h
  exact h

/-- **C136 (InvertedPendulum).**  Energy balance of `id`: along every motion, the sum of the kinetic energy (by the joint space
inertia matrix) and the potential energy changes by the power of the joint forces that `id` computes for the
accelerations of the motion and of the external forces. -/
theorem C136_InvertedPendulum_id (z y : Robot) (cs ds : List Call) {q qd : ℝ → Q} {qdd : Q} {t : ℝ} (fext : Ext)
    (hq : VDeriv q (qd t) t) (hqd : VDeriv qd qdd t) :
    HasDerivAt (fun s => qd s ⬝ᵥ (((Robot.after z cs).jsim (q s)).2 *ᵥ qd s) / 2 + grav * height 1 0 (linksAt (q s) (qd s) 0))
      (qd t ⬝ᵥ ((Robot.after y ds).id (q t) (qd t) qdd fext).2
        + power 0 ((linksAt (q t) (qd t) fext).zip (List.ofFn (qd t)))) t := by
  have h := fixed_balance (links_moves fext hq hqd)
  rw [← id_eq (inv_after y ds)] at h
  rw [← ldot_ofFn]
  refine h.congr_of_eventuallyEq (.of_forall fun s => ?_)
  show _ / 2 + _ = _ / 2 + _
  rw [C128_InvertedPendulum, links_free (q s) (qd s) fext, energy_free, height_free]
  rfl

/-- **C136 (InvertedPendulum).**  Energy balance of `fd`: along every motion with the accelerations that `fd` computes, the sum of
the kinetic energy and the potential energy changes by the power of the joint forces and of the external forces. -/
theorem C136_InvertedPendulum_fd (z y : Robot) (cs ds : List Call) {q qd : ℝ → Q} {t : ℝ} (tau : Q) (fext : Ext)
    (hq : VDeriv q (qd t) t) (hqd : VDeriv qd ((Robot.after y ds).fd (q t) (qd t) tau fext).2 t) :
    HasDerivAt (fun s => qd s ⬝ᵥ (((Robot.after z cs).jsim (q s)).2 *ᵥ qd s) / 2 + grav * height 1 0 (linksAt (q s) (qd s) 0))
      (qd t ⬝ᵥ tau + power 0 ((linksAt (q t) (qd t) fext).zip (List.ofFn (qd t)))) t := by
  have h := C136_InvertedPendulum_id z z cs cs fext hq hqd
  rwa [(C124_InvertedPendulum z y cs ds (q t) (qd t) tau _ fext).2 rfl] at h

/-- Motions as in `C136_InvertedPendulum_fd` exist through every state. -/
example (y : Robot) (ds : List Call) (q₀ qd₀ tau : Q) (fext : Ext) : ∃ q qd : ℝ → Q, q 0 = q₀ ∧ qd 0 = qd₀ ∧
    VDeriv q (qd 0) 0 ∧ VDeriv qd ((Robot.after y ds).fd (q 0) (qd 0) tau fext).2 0 :=
  line_motion q₀ qd₀ fun q qd => ((Robot.after y ds).fd q qd tau fext).2

end CT.Robots.InvertedPendulum
