import Verif.Props.Robots.HyA
import Verif.Props.ArticulatedPower

/-! # HyA: virtual work and energy (written by `tools/gen_power.py`) -/

set_option linter.unusedSimpArgs false
set_option maxRecDepth 4000

namespace CT.Robots.HyA

open Matrix Spatial Articulated FrameJac OpJac

theorem spin_fr_Shoulder_AA_X_fr_HyABase (q : Q) : motion_fr_Shoulder_AA_X_fr_HyABase_update (motion_fr_Shoulder_AA_X_fr_HyABase_new 0) q = spin (q SAA) * motion_fr_Shoulder_AA_X_fr_HyABase_update (motion_fr_Shoulder_AA_X_fr_HyABase_new 0) 0 := by
  have hE : (!![Real.cos (q SAA), Real.sin (q SAA), 0; -Real.sin (q SAA), Real.cos (q SAA), 0; 0, 0, 1] : M3)
      = tz (q SAA) * !![Real.cos ((0 : Q) SAA), Real.sin ((0 : Q) SAA), 0; -Real.sin ((0 : Q) SAA), Real.cos ((0 : Q) SAA), 0; 0, 0, 1] := by
    ext i j; fin_cases i <;> fin_cases j <;> simp [tz, Matrix.mul_apply, Fin.sum_univ_succ]
  rw [(motion_fr_Shoulder_AA_X_fr_HyABase_isMotion 0 q).eq, (spin_motion (motion_fr_Shoulder_AA_X_fr_HyABase_isMotion 0 0) (q SAA)).eq, hE]

theorem spin_fr_Shoulder_FE_X_fr_Shoulder_AA (q : Q) : motion_fr_Shoulder_FE_X_fr_Shoulder_AA_update (motion_fr_Shoulder_FE_X_fr_Shoulder_AA_new 0) q = spin (q SFE) * motion_fr_Shoulder_FE_X_fr_Shoulder_AA_update (motion_fr_Shoulder_FE_X_fr_Shoulder_AA_new 0) 0 := by
  have hE : (!![Real.cos (q SFE), 0, Real.sin (q SFE); -Real.sin (q SFE), 0, Real.cos (q SFE); 0, -1, 0] : M3)
      = tz (q SFE) * !![Real.cos ((0 : Q) SFE), 0, Real.sin ((0 : Q) SFE); -Real.sin ((0 : Q) SFE), 0, Real.cos ((0 : Q) SFE); 0, -1, 0] := by
    ext i j; fin_cases i <;> fin_cases j <;> simp [tz, Matrix.mul_apply, Fin.sum_univ_succ]
  rw [(motion_fr_Shoulder_FE_X_fr_Shoulder_AA_isMotion 0 q).eq, (spin_motion (motion_fr_Shoulder_FE_X_fr_Shoulder_AA_isMotion 0 0) (q SFE)).eq, hE]

theorem spin_fr_Humerus_R_X_fr_Shoulder_FE (q : Q) : motion_fr_Humerus_R_X_fr_Shoulder_FE_update (motion_fr_Humerus_R_X_fr_Shoulder_FE_new 0) q = spin (q HR) * motion_fr_Humerus_R_X_fr_Shoulder_FE_update (motion_fr_Humerus_R_X_fr_Shoulder_FE_new 0) 0 := by
  have hE : (!![0, Real.sin (q HR), -Real.cos (q HR); 0, Real.cos (q HR), Real.sin (q HR); 1, 0, 0] : M3)
      = tz (q HR) * !![0, Real.sin ((0 : Q) HR), -Real.cos ((0 : Q) HR); 0, Real.cos ((0 : Q) HR), Real.sin ((0 : Q) HR); 1, 0, 0] := by
    ext i j; fin_cases i <;> fin_cases j <;> simp [tz, Matrix.mul_apply, Fin.sum_univ_succ]
  rw [(motion_fr_Humerus_R_X_fr_Shoulder_FE_isMotion 0 q).eq, (spin_motion (motion_fr_Humerus_R_X_fr_Shoulder_FE_isMotion 0 0) (q HR)).eq, hE]

theorem spin_fr_Elbow_FE_X_fr_Humerus_R (q : Q) : motion_fr_Elbow_FE_X_fr_Humerus_R_update (motion_fr_Elbow_FE_X_fr_Humerus_R_new 0) q = spin (q EFE) * motion_fr_Elbow_FE_X_fr_Humerus_R_update (motion_fr_Elbow_FE_X_fr_Humerus_R_new 0) 0 := by
  have hE : (!![0, Real.sin (q EFE), Real.cos (q EFE); 0, Real.cos (q EFE), -Real.sin (q EFE); -1, 0, 0] : M3)
      = tz (q EFE) * !![0, Real.sin ((0 : Q) EFE), Real.cos ((0 : Q) EFE); 0, Real.cos ((0 : Q) EFE), -Real.sin ((0 : Q) EFE); -1, 0, 0] := by
    ext i j; fin_cases i <;> fin_cases j <;> simp [tz, Matrix.mul_apply, Fin.sum_univ_succ]
  rw [(motion_fr_Elbow_FE_X_fr_Humerus_R_isMotion 0 q).eq, (spin_motion (motion_fr_Elbow_FE_X_fr_Humerus_R_isMotion 0 0) (q EFE)).eq, hE]

theorem spin_fr_Wrist_R_X_fr_Elbow_FE (q : Q) : motion_fr_Wrist_R_X_fr_Elbow_FE_update (motion_fr_Wrist_R_X_fr_Elbow_FE_new 0) q = spin (q WR) * motion_fr_Wrist_R_X_fr_Elbow_FE_update (motion_fr_Wrist_R_X_fr_Elbow_FE_new 0) 0 := by
  have hE : (!![0, Real.sin (q WR), -Real.cos (q WR); 0, Real.cos (q WR), Real.sin (q WR); 1, 0, 0] : M3)
      = tz (q WR) * !![0, Real.sin ((0 : Q) WR), -Real.cos ((0 : Q) WR); 0, Real.cos ((0 : Q) WR), Real.sin ((0 : Q) WR); 1, 0, 0] := by
    ext i j; fin_cases i <;> fin_cases j <;> simp [tz, Matrix.mul_apply, Fin.sum_univ_succ]
  rw [(motion_fr_Wrist_R_X_fr_Elbow_FE_isMotion 0 q).eq, (spin_motion (motion_fr_Wrist_R_X_fr_Elbow_FE_isMotion 0 0) (q WR)).eq, hE]

theorem spin_fr_Wrist_FE_X_fr_Wrist_R (q : Q) : motion_fr_Wrist_FE_X_fr_Wrist_R_update (motion_fr_Wrist_FE_X_fr_Wrist_R_new 0) q = spin (q WFE) * motion_fr_Wrist_FE_X_fr_Wrist_R_update (motion_fr_Wrist_FE_X_fr_Wrist_R_new 0) 0 := by
  have hE : (!![Real.sin (q WFE), 0, Real.cos (q WFE); Real.cos (q WFE), 0, -Real.sin (q WFE); 0, 1, 0] : M3)
      = tz (q WFE) * !![Real.sin ((0 : Q) WFE), 0, Real.cos ((0 : Q) WFE); Real.cos ((0 : Q) WFE), 0, -Real.sin ((0 : Q) WFE); 0, 1, 0] := by
    ext i j; fin_cases i <;> fin_cases j <;> simp [tz, Matrix.mul_apply, Fin.sum_univ_succ]
  rw [(motion_fr_Wrist_FE_X_fr_Wrist_R_isMotion 0 q).eq, (spin_motion (motion_fr_Wrist_FE_X_fr_Wrist_R_isMotion 0 0) (q WFE)).eq, hE]

theorem links_moves {q qd : ℝ → Q} {qdd : Q} {t : ℝ} (fext : Ext) (hq : VDeriv q (qd t) t) (hqd : VDeriv qd qdd t) :
    Moves t (fun s => linksAt (q s) (qd s) fext) (List.ofFn qdd) :=
  .cons _ _ _ _ (fun s => q s SAA) (fun s => spin_fr_Shoulder_AA_X_fr_HyABase (q s)) (motion_fr_Shoulder_AA_X_fr_HyABase_isMotion 0 0) (fun _ => rfl) (tensor_Shoulder_AA_body 0) (hq SAA) (hqd SAA) (.cons _ _ _ _ (fun s => q s SFE) (fun s => spin_fr_Shoulder_FE_X_fr_Shoulder_AA (q s)) (motion_fr_Shoulder_FE_X_fr_Shoulder_AA_isMotion 0 0) (fun _ => rfl) (tensor_Shoulder_FE_body 0) (hq SFE) (hqd SFE) (.cons _ _ _ _ (fun s => q s HR) (fun s => spin_fr_Humerus_R_X_fr_Shoulder_FE (q s)) (motion_fr_Humerus_R_X_fr_Shoulder_FE_isMotion 0 0) (fun _ => rfl) (tensor_Humerus_R_body 0) (hq HR) (hqd HR) (.cons _ _ _ _ (fun s => q s EFE) (fun s => spin_fr_Elbow_FE_X_fr_Humerus_R (q s)) (motion_fr_Elbow_FE_X_fr_Humerus_R_isMotion 0 0) (fun _ => rfl) (tensor_Elbow_FE_body 0) (hq EFE) (hqd EFE) (.cons _ _ _ _ (fun s => q s WR) (fun s => spin_fr_Wrist_R_X_fr_Elbow_FE (q s)) (motion_fr_Wrist_R_X_fr_Elbow_FE_isMotion 0 0) (fun _ => rfl) (tensor_Wrist_R_body 0) (hq WR) (hqd WR) (.cons _ _ _ _ (fun s => q s WFE) (fun s => spin_fr_Wrist_FE_X_fr_Wrist_R (q s)) (motion_fr_Wrist_FE_X_fr_Wrist_R_isMotion 0 0) (fun _ => rfl) (tensor_Wrist_FE_body 0) (hq WFE) (hqd WFE) .nil)))))

theorem links_free (q qd : Q) (fext : Ext) : linksAt q qd 0 = (linksAt q qd fext).map Joint.free := rfl

/-- **C135 (HyA).**  External forces enter `id` by virtual work: whatever the rates `x` of the joints, the power
of the joint forces without external forces is the power of the joint forces with them plus the power of the
external forces on the links that move with these rates. -/
theorem C135_HyA (z y : Robot) (cs ds : List Call) (q qd qdd x : Q) (fext : Ext) :
    x ⬝ᵥ ((Robot.after z cs).id q qd qdd 0).2
      = x ⬝ᵥ ((Robot.after y ds).id q qd qdd fext).2 + power 0 ((linksAt q qd fext).zip (List.ofFn x)) := by
  have h := fixed_power (linksAt q qd fext) (List.ofFn qdd) (List.ofFn x) (by simp [links_length]) (by simp [links_length])
  rw [← links_free, ← id_eq (inv_after z cs), ← id_eq (inv_after y ds), ldot_ofFn, ldot_ofFn] at h
  exact h

/-- **C136 (HyA).**  Energy balance of `id`: along every motion, the sum of the kinetic energy (by the joint space
inertia matrix) and the potential energy changes by the power of the joint forces that `id` computes for the
accelerations of the motion and of the external forces. -/
theorem C136_HyA_id (z y : Robot) (cs ds : List Call) {q qd : ℝ → Q} {qdd : Q} {t : ℝ} (fext : Ext)
    (hq : VDeriv q (qd t) t) (hqd : VDeriv qd qdd t) :
    HasDerivAt (fun s => qd s ⬝ᵥ (((Robot.after z cs).jsim (q s)).2 *ᵥ qd s) / 2 + grav * height 1 0 (linksAt (q s) (qd s) 0))
      (qd t ⬝ᵥ ((Robot.after y ds).id (q t) (qd t) qdd fext).2
        + power 0 ((linksAt (q t) (qd t) fext).zip (List.ofFn (qd t)))) t := by
  have h := fixed_balance (links_moves fext hq hqd)
  rw [← id_eq (inv_after y ds)] at h
  rw [← ldot_ofFn]
  refine h.congr_of_eventuallyEq (.of_forall fun s => ?_)
  show _ / 2 + _ = _ / 2 + _
  rw [C128_HyA, links_free (q s) (qd s) fext, energy_free, height_free]
  rfl

/-- **C136 (HyA).**  Energy balance of `fd`: along every motion with the accelerations that `fd` computes, the sum of
the kinetic energy and the potential energy changes by the power of the joint forces and of the external forces. -/
theorem C136_HyA_fd (z y : Robot) (cs ds : List Call) {q qd : ℝ → Q} {t : ℝ} (tau : Q) (fext : Ext)
    (hq : VDeriv q (qd t) t) (hqd : VDeriv qd ((Robot.after y ds).fd (q t) (qd t) tau fext).2 t) :
    HasDerivAt (fun s => qd s ⬝ᵥ (((Robot.after z cs).jsim (q s)).2 *ᵥ qd s) / 2 + grav * height 1 0 (linksAt (q s) (qd s) 0))
      (qd t ⬝ᵥ tau + power 0 ((linksAt (q t) (qd t) fext).zip (List.ofFn (qd t)))) t := by
  have h := C136_HyA_id z z cs cs fext hq hqd
  rwa [(C124_HyA z y cs ds (q t) (qd t) tau _ fext).2 rfl] at h

/-- Motions as in `C136_HyA_fd` exist through every state. -/
example (y : Robot) (ds : List Call) (q₀ qd₀ tau : Q) (fext : Ext) : ∃ q qd : ℝ → Q, q 0 = q₀ ∧ qd 0 = qd₀ ∧
    VDeriv q (qd 0) 0 ∧ VDeriv qd ((Robot.after y ds).fd (q 0) (qd 0) tau fext).2 0 :=
  line_motion q₀ qd₀ fun q qd => ((Robot.after y ds).fd q qd tau fext).2

end CT.Robots.HyA
