import Verif.Props.Robots.HyQ
import Verif.Props.ArticulatedPower

/-! # HyQ: virtual work and energy (written by `tools/gen_power.py`) -/

set_option linter.unusedSimpArgs false
set_option maxRecDepth 4000

namespace CT.Robots.HyQ

open Matrix Spatial Articulated FrameJac OpJac

theorem spin_fr_LF_hipassembly_X_fr_trunk (q : Q) : motion_fr_LF_hipassembly_X_fr_trunk_update (motion_fr_LF_hipassembly_X_fr_trunk_new 0) q = spin (q LF_HAA) * motion_fr_LF_hipassembly_X_fr_trunk_update (motion_fr_LF_hipassembly_X_fr_trunk_new 0) 0 := by
  have hE : (!![0, -Real.sin (q LF_HAA), -Real.cos (q LF_HAA); 0, -Real.cos (q LF_HAA), Real.sin (q LF_HAA); -1, 0, 0] : M3)
      = tz (q LF_HAA) * !![0, -Real.sin ((0 : Q) LF_HAA), -Real.cos ((0 : Q) LF_HAA); 0, -Real.cos ((0 : Q) LF_HAA), Real.sin ((0 : Q) LF_HAA); -1, 0, 0] := by
    ext i j; fin_cases i <;> fin_cases j <;> simp [tz, Matrix.mul_apply, Fin.sum_univ_succ]
  rw [(motion_fr_LF_hipassembly_X_fr_trunk_isMotion 0 q).eq, (spin_motion (motion_fr_LF_hipassembly_X_fr_trunk_isMotion 0 0) (q LF_HAA)).eq, hE]

theorem spin_fr_LF_upperleg_X_fr_LF_hipassembly (q : Q) : motion_fr_LF_upperleg_X_fr_LF_hipassembly_update (motion_fr_LF_upperleg_X_fr_LF_hipassembly_new 0) q = spin (q LF_HFE) * motion_fr_LF_upperleg_X_fr_LF_hipassembly_update (motion_fr_LF_upperleg_X_fr_LF_hipassembly_new 0) 0 := by
  have hE : (!![Real.cos (q LF_HFE), 0, Real.sin (q LF_HFE); -Real.sin (q LF_HFE), 0, Real.cos (q LF_HFE); 0, -1, 0] : M3)
      = tz (q LF_HFE) * !![Real.cos ((0 : Q) LF_HFE), 0, Real.sin ((0 : Q) LF_HFE); -Real.sin ((0 : Q) LF_HFE), 0, Real.cos ((0 : Q) LF_HFE); 0, -1, 0] := by
    ext i j; fin_cases i <;> fin_cases j <;> simp [tz, Matrix.mul_apply, Fin.sum_univ_succ]
  rw [(motion_fr_LF_upperleg_X_fr_LF_hipassembly_isMotion 0 q).eq, (spin_motion (motion_fr_LF_upperleg_X_fr_LF_hipassembly_isMotion 0 0) (q LF_HFE)).eq, hE]

theorem spin_fr_LF_lowerleg_X_fr_LF_upperleg (q : Q) : motion_fr_LF_lowerleg_X_fr_LF_upperleg_update (motion_fr_LF_lowerleg_X_fr_LF_upperleg_new 0) q = spin (q LF_KFE) * motion_fr_LF_lowerleg_X_fr_LF_upperleg_update (motion_fr_LF_lowerleg_X_fr_LF_upperleg_new 0) 0 := by
  have hE : (!![Real.cos (q LF_KFE), Real.sin (q LF_KFE), 0; -Real.sin (q LF_KFE), Real.cos (q LF_KFE), 0; 0, 0, 1] : M3)
      = tz (q LF_KFE) * !![Real.cos ((0 : Q) LF_KFE), Real.sin ((0 : Q) LF_KFE), 0; -Real.sin ((0 : Q) LF_KFE), Real.cos ((0 : Q) LF_KFE), 0; 0, 0, 1] := by
    ext i j; fin_cases i <;> fin_cases j <;> simp [tz, Matrix.mul_apply, Fin.sum_univ_succ]
  rw [(motion_fr_LF_lowerleg_X_fr_LF_upperleg_isMotion 0 q).eq, (spin_motion (motion_fr_LF_lowerleg_X_fr_LF_upperleg_isMotion 0 0) (q LF_KFE)).eq, hE]

theorem spin_fr_RF_hipassembly_X_fr_trunk (q : Q) : motion_fr_RF_hipassembly_X_fr_trunk_update (motion_fr_RF_hipassembly_X_fr_trunk_new 0) q = spin (q RF_HAA) * motion_fr_RF_hipassembly_X_fr_trunk_update (motion_fr_RF_hipassembly_X_fr_trunk_new 0) 0 := by
  have hE : (!![0, Real.sin (q RF_HAA), -Real.cos (q RF_HAA); 0, Real.cos (q RF_HAA), Real.sin (q RF_HAA); 1, 0, 0] : M3)
      = tz (q RF_HAA) * !![0, Real.sin ((0 : Q) RF_HAA), -Real.cos ((0 : Q) RF_HAA); 0, Real.cos ((0 : Q) RF_HAA), Real.sin ((0 : Q) RF_HAA); 1, 0, 0] := by
    ext i j; fin_cases i <;> fin_cases j <;> simp [tz, Matrix.mul_apply, Fin.sum_univ_succ]
  rw [(motion_fr_RF_hipassembly_X_fr_trunk_isMotion 0 q).eq, (spin_motion (motion_fr_RF_hipassembly_X_fr_trunk_isMotion 0 0) (q RF_HAA)).eq, hE]

theorem spin_fr_RF_upperleg_X_fr_RF_hipassembly (q : Q) : motion_fr_RF_upperleg_X_fr_RF_hipassembly_update (motion_fr_RF_upperleg_X_fr_RF_hipassembly_new 0) q = spin (q RF_HFE) * motion_fr_RF_upperleg_X_fr_RF_hipassembly_update (motion_fr_RF_upperleg_X_fr_RF_hipassembly_new 0) 0 := by
  have hE : (!![Real.cos (q RF_HFE), 0, -Real.sin (q RF_HFE); -Real.sin (q RF_HFE), 0, -Real.cos (q RF_HFE); 0, 1, 0] : M3)
      = tz (q RF_HFE) * !![Real.cos ((0 : Q) RF_HFE), 0, -Real.sin ((0 : Q) RF_HFE); -Real.sin ((0 : Q) RF_HFE), 0, -Real.cos ((0 : Q) RF_HFE); 0, 1, 0] := by
    ext i j; fin_cases i <;> fin_cases j <;> simp [tz, Matrix.mul_apply, Fin.sum_univ_succ]
  rw [(motion_fr_RF_upperleg_X_fr_RF_hipassembly_isMotion 0 q).eq, (spin_motion (motion_fr_RF_upperleg_X_fr_RF_hipassembly_isMotion 0 0) (q RF_HFE)).eq, hE]

theorem spin_fr_RF_lowerleg_X_fr_RF_upperleg (q : Q) : motion_fr_RF_lowerleg_X_fr_RF_upperleg_update (motion_fr_RF_lowerleg_X_fr_RF_upperleg_new 0) q = spin (q RF_KFE) * motion_fr_RF_lowerleg_X_fr_RF_upperleg_update (motion_fr_RF_lowerleg_X_fr_RF_upperleg_new 0) 0 := by
  have hE : (!![Real.cos (q RF_KFE), Real.sin (q RF_KFE), 0; -Real.sin (q RF_KFE), Real.cos (q RF_KFE), 0; 0, 0, 1] : M3)
      = tz (q RF_KFE) * !![Real.cos ((0 : Q) RF_KFE), Real.sin ((0 : Q) RF_KFE), 0; -Real.sin ((0 : Q) RF_KFE), Real.cos ((0 : Q) RF_KFE), 0; 0, 0, 1] := by
    ext i j; fin_cases i <;> fin_cases j <;> simp [tz, Matrix.mul_apply, Fin.sum_univ_succ]
  rw [(motion_fr_RF_lowerleg_X_fr_RF_upperleg_isMotion 0 q).eq, (spin_motion (motion_fr_RF_lowerleg_X_fr_RF_upperleg_isMotion 0 0) (q RF_KFE)).eq, hE]

theorem spin_fr_LH_hipassembly_X_fr_trunk (q : Q) : motion_fr_LH_hipassembly_X_fr_trunk_update (motion_fr_LH_hipassembly_X_fr_trunk_new 0) q = spin (q LH_HAA) * motion_fr_LH_hipassembly_X_fr_trunk_update (motion_fr_LH_hipassembly_X_fr_trunk_new 0) 0 := by
  have hE : (!![0, -Real.sin (q LH_HAA), -Real.cos (q LH_HAA); 0, -Real.cos (q LH_HAA), Real.sin (q LH_HAA); -1, 0, 0] : M3)
      = tz (q LH_HAA) * !![0, -Real.sin ((0 : Q) LH_HAA), -Real.cos ((0 : Q) LH_HAA); 0, -Real.cos ((0 : Q) LH_HAA), Real.sin ((0 : Q) LH_HAA); -1, 0, 0] := by
    ext i j; fin_cases i <;> fin_cases j <;> simp [tz, Matrix.mul_apply, Fin.sum_univ_succ]
  rw [(motion_fr_LH_hipassembly_X_fr_trunk_isMotion 0 q).eq, (spin_motion (motion_fr_LH_hipassembly_X_fr_trunk_isMotion 0 0) (q LH_HAA)).eq, hE]

theorem spin_fr_LH_upperleg_X_fr_LH_hipassembly (q : Q) : motion_fr_LH_upperleg_X_fr_LH_hipassembly_update (motion_fr_LH_upperleg_X_fr_LH_hipassembly_new 0) q = spin (q LH_HFE) * motion_fr_LH_upperleg_X_fr_LH_hipassembly_update (motion_fr_LH_upperleg_X_fr_LH_hipassembly_new 0) 0 := by
  have hE : (!![Real.cos (q LH_HFE), 0, Real.sin (q LH_HFE); -Real.sin (q LH_HFE), 0, Real.cos (q LH_HFE); 0, -1, 0] : M3)
      = tz (q LH_HFE) * !![Real.cos ((0 : Q) LH_HFE), 0, Real.sin ((0 : Q) LH_HFE); -Real.sin ((0 : Q) LH_HFE), 0, Real.cos ((0 : Q) LH_HFE); 0, -1, 0] := by
    ext i j; fin_cases i <;> fin_cases j <;> simp [tz, Matrix.mul_apply, Fin.sum_univ_succ]
  rw [(motion_fr_LH_upperleg_X_fr_LH_hipassembly_isMotion 0 q).eq, (spin_motion (motion_fr_LH_upperleg_X_fr_LH_hipassembly_isMotion 0 0) (q LH_HFE)).eq, hE]

theorem spin_fr_LH_lowerleg_X_fr_LH_upperleg (q : Q) : motion_fr_LH_lowerleg_X_fr_LH_upperleg_update (motion_fr_LH_lowerleg_X_fr_LH_upperleg_new 0) q = spin (q LH_KFE) * motion_fr_LH_lowerleg_X_fr_LH_upperleg_update (motion_fr_LH_lowerleg_X_fr_LH_upperleg_new 0) 0 := by
  have hE : (!![Real.cos (q LH_KFE), Real.sin (q LH_KFE), 0; -Real.sin (q LH_KFE), Real.cos (q LH_KFE), 0; 0, 0, 1] : M3)
      = tz (q LH_KFE) * !![Real.cos ((0 : Q) LH_KFE), Real.sin ((0 : Q) LH_KFE), 0; -Real.sin ((0 : Q) LH_KFE), Real.cos ((0 : Q) LH_KFE), 0; 0, 0, 1] := by
    ext i j; fin_cases i <;> fin_cases j <;> simp [tz, Matrix.mul_apply, Fin.sum_univ_succ]
  rw [(motion_fr_LH_lowerleg_X_fr_LH_upperleg_isMotion 0 q).eq, (spin_motion (motion_fr_LH_lowerleg_X_fr_LH_upperleg_isMotion 0 0) (q LH_KFE)).eq, hE]

theorem spin_fr_RH_hipassembly_X_fr_trunk (q : Q) : motion_fr_RH_hipassembly_X_fr_trunk_update (motion_fr_RH_hipassembly_X_fr_trunk_new 0) q = spin (q RH_HAA) * motion_fr_RH_hipassembly_X_fr_trunk_update (motion_fr_RH_hipassembly_X_fr_trunk_new 0) 0 := by
  have hE : (!![0, Real.sin (q RH_HAA), -Real.cos (q RH_HAA); 0, Real.cos (q RH_HAA), Real.sin (q RH_HAA); 1, 0, 0] : M3)
      = tz (q RH_HAA) * !![0, Real.sin ((0 : Q) RH_HAA), -Real.cos ((0 : Q) RH_HAA); 0, Real.cos ((0 : Q) RH_HAA), Real.sin ((0 : Q) RH_HAA); 1, 0, 0] := by
    ext i j; fin_cases i <;> fin_cases j <;> simp [tz, Matrix.mul_apply, Fin.sum_univ_succ]
  rw [(motion_fr_RH_hipassembly_X_fr_trunk_isMotion 0 q).eq, (spin_motion (motion_fr_RH_hipassembly_X_fr_trunk_isMotion 0 0) (q RH_HAA)).eq, hE]

theorem spin_fr_RH_upperleg_X_fr_RH_hipassembly (q : Q) : motion_fr_RH_upperleg_X_fr_RH_hipassembly_update (motion_fr_RH_upperleg_X_fr_RH_hipassembly_new 0) q = spin (q RH_HFE) * motion_fr_RH_upperleg_X_fr_RH_hipassembly_update (motion_fr_RH_upperleg_X_fr_RH_hipassembly_new 0) 0 := by
  have hE : (!![Real.cos (q RH_HFE), 0, -Real.sin (q RH_HFE); -Real.sin (q RH_HFE), 0, -Real.cos (q RH_HFE); 0, 1, 0] : M3)
      = tz (q RH_HFE) * !![Real.cos ((0 : Q) RH_HFE), 0, -Real.sin ((0 : Q) RH_HFE); -Real.sin ((0 : Q) RH_HFE), 0, -Real.cos ((0 : Q) RH_HFE); 0, 1, 0] := by
    ext i j; fin_cases i <;> fin_cases j <;> simp [tz, Matrix.mul_apply, Fin.sum_univ_succ]
  rw [(motion_fr_RH_upperleg_X_fr_RH_hipassembly_isMotion 0 q).eq, (spin_motion (motion_fr_RH_upperleg_X_fr_RH_hipassembly_isMotion 0 0) (q RH_HFE)).eq, hE]

theorem spin_fr_RH_lowerleg_X_fr_RH_upperleg (q : Q) : motion_fr_RH_lowerleg_X_fr_RH_upperleg_update (motion_fr_RH_lowerleg_X_fr_RH_upperleg_new 0) q = spin (q RH_KFE) * motion_fr_RH_lowerleg_X_fr_RH_upperleg_update (motion_fr_RH_lowerleg_X_fr_RH_upperleg_new 0) 0 := by
  have hE : (!![Real.cos (q RH_KFE), Real.sin (q RH_KFE), 0; -Real.sin (q RH_KFE), Real.cos (q RH_KFE), 0; 0, 0, 1] : M3)
      = tz (q RH_KFE) * !![Real.cos ((0 : Q) RH_KFE), Real.sin ((0 : Q) RH_KFE), 0; -Real.sin ((0 : Q) RH_KFE), Real.cos ((0 : Q) RH_KFE), 0; 0, 0, 1] := by
    ext i j; fin_cases i <;> fin_cases j <;> simp [tz, Matrix.mul_apply, Fin.sum_univ_succ]
  rw [(motion_fr_RH_lowerleg_X_fr_RH_upperleg_isMotion 0 q).eq, (spin_motion (motion_fr_RH_lowerleg_X_fr_RH_upperleg_isMotion 0 0) (q RH_KFE)).eq, hE]

theorem branches_moves {q qd : ℝ → Q} {qdd : Q} {t : ℝ} (fext : Ext) (hq : VDeriv q (qd t) t) (hqd : VDeriv qd qdd t) :
    MovesAll t (fun s => branchesAt (q s) (qd s) fext) (split qdd) :=
  .cons (.cons _ _ _ _ (fun s => q s RH_HAA) (fun s => spin_fr_RH_hipassembly_X_fr_trunk (q s)) (motion_fr_RH_hipassembly_X_fr_trunk_isMotion 0 0) (fun _ => rfl) (tensor_RH_hipassembly_body 0) (hq RH_HAA) (hqd RH_HAA) (.cons _ _ _ _ (fun s => q s RH_HFE) (fun s => spin_fr_RH_upperleg_X_fr_RH_hipassembly (q s)) (motion_fr_RH_upperleg_X_fr_RH_hipassembly_isMotion 0 0) (fun _ => rfl) (tensor_RH_upperleg_body 0) (hq RH_HFE) (hqd RH_HFE) (.cons _ _ _ _ (fun s => q s RH_KFE) (fun s => spin_fr_RH_lowerleg_X_fr_RH_upperleg (q s)) (motion_fr_RH_lowerleg_X_fr_RH_upperleg_isMotion 0 0) (fun _ => rfl) (tensor_RH_lowerleg_body 0) (hq RH_KFE) (hqd RH_KFE) .nil)))
    (.cons (.cons _ _ _ _ (fun s => q s LH_HAA) (fun s => spin_fr_LH_hipassembly_X_fr_trunk (q s)) (motion_fr_LH_hipassembly_X_fr_trunk_isMotion 0 0) (fun _ => rfl) (tensor_LH_hipassembly_body 0) (hq LH_HAA) (hqd LH_HAA) (.cons _ _ _ _ (fun s => q s LH_HFE) (fun s => spin_fr_LH_upperleg_X_fr_LH_hipassembly (q s)) (motion_fr_LH_upperleg_X_fr_LH_hipassembly_isMotion 0 0) (fun _ => rfl) (tensor_LH_upperleg_body 0) (hq LH_HFE) (hqd LH_HFE) (.cons _ _ _ _ (fun s => q s LH_KFE) (fun s => spin_fr_LH_lowerleg_X_fr_LH_upperleg (q s)) (motion_fr_LH_lowerleg_X_fr_LH_upperleg_isMotion 0 0) (fun _ => rfl) (tensor_LH_lowerleg_body 0) (hq LH_KFE) (hqd LH_KFE) .nil)))
    (.cons (.cons _ _ _ _ (fun s => q s RF_HAA) (fun s => spin_fr_RF_hipassembly_X_fr_trunk (q s)) (motion_fr_RF_hipassembly_X_fr_trunk_isMotion 0 0) (fun _ => rfl) (tensor_RF_hipassembly_body 0) (hq RF_HAA) (hqd RF_HAA) (.cons _ _ _ _ (fun s => q s RF_HFE) (fun s => spin_fr_RF_upperleg_X_fr_RF_hipassembly (q s)) (motion_fr_RF_upperleg_X_fr_RF_hipassembly_isMotion 0 0) (fun _ => rfl) (tensor_RF_upperleg_body 0) (hq RF_HFE) (hqd RF_HFE) (.cons _ _ _ _ (fun s => q s RF_KFE) (fun s => spin_fr_RF_lowerleg_X_fr_RF_upperleg (q s)) (motion_fr_RF_lowerleg_X_fr_RF_upperleg_isMotion 0 0) (fun _ => rfl) (tensor_RF_lowerleg_body 0) (hq RF_KFE) (hqd RF_KFE) .nil)))
    (.cons (.cons _ _ _ _ (fun s => q s LF_HAA) (fun s => spin_fr_LF_hipassembly_X_fr_trunk (q s)) (motion_fr_LF_hipassembly_X_fr_trunk_isMotion 0 0) (fun _ => rfl) (tensor_LF_hipassembly_body 0) (hq LF_HAA) (hqd LF_HAA) (.cons _ _ _ _ (fun s => q s LF_HFE) (fun s => spin_fr_LF_upperleg_X_fr_LF_hipassembly (q s)) (motion_fr_LF_upperleg_X_fr_LF_hipassembly_isMotion 0 0) (fun _ => rfl) (tensor_LF_upperleg_body 0) (hq LF_HFE) (hqd LF_HFE) (.cons _ _ _ _ (fun s => q s LF_KFE) (fun s => spin_fr_LF_lowerleg_X_fr_LF_upperleg (q s)) (motion_fr_LF_lowerleg_X_fr_LF_upperleg_isMotion 0 0) (fun _ => rfl) (tensor_LF_lowerleg_body 0) (hq LF_KFE) (hqd LF_KFE) .nil)))
    .nil)))

theorem branches_free (q qd : Q) (fext : Ext) : branchesAt q qd 0 = (branchesAt q qd fext).map (List.map Joint.free) := rfl

/-- **C135 (HyQ).**  External forces enter `id_fully_actuated` by virtual work: whatever the velocity `u` of the base and
the rates `x` of the joints, the power of the forces on base and joints without external forces is their power with
them plus the power of the external forces on base and links that move with these rates. -/
theorem C135_HyQ (z y : Robot) (cs ds : List Call) (q : Q) (g v acc u : V6) (qd qdd x : Q) (fext : Ext) :
    u ⬝ᵥ ((Robot.after z cs).id_full q g v acc qd qdd 0).2.1 + x ⬝ᵥ ((Robot.after z cs).id_full q g v acc qd qdd 0).2.2
      = u ⬝ᵥ ((Robot.after y ds).id_full q g v acc qd qdd fext).2.1 + x ⬝ᵥ ((Robot.after y ds).id_full q g v acc qd qdd fext).2.2
        + (u ⬝ᵥ fext TRUNK + ((List.zipWith List.zip (branchesAt q qd fext) (split x)).map (power u)).sum) := by
  have h := float_power (baseAt v fext) g acc u (branchesAt q qd fext) (split qdd) (split x) rfl rfl
  have h1 := full_eq (inv_after z cs) q g v acc qd qdd 0
  have h2 := full_eq (inv_after y ds) q g v acc qd qdd fext
  rw [← branches_free, show { baseAt v fext with fext := 0 } = baseAt v 0 from rfl, ← h1, ← h2] at h
  simp only [split_dot] at h
  exact h

/-- **C136 (HyQ).**  Energy balance of `id_fully_actuated`: along every motion of base and joints, the sum of the kinetic
energy (by the joint space inertia matrix) and the potential energy changes by the power of the forces on base and joints that
`id_fully_actuated` computes for the accelerations of the motion and of the external forces.  `R` and `p` are the orientation
and the position of the base. -/
theorem C136_HyQ_id (z y : Robot) (cs ds : List Call) {q qd : ℝ → Q} {qdd : Q} {R : ℝ → M3} {p ω v : ℝ → V3} {acc : V6}
    {t : ℝ} (fext : Ext) (hq : VDeriv q (qd t) t) (hqd : VDeriv qd qdd t) (hR : MDeriv R (R t * cpm (ω t)) t)
    (hp : VDeriv p (R t *ᵥ v t) t) (hv : VDeriv (fun s => join (ω s) (v s)) acc t) :
    HasDerivAt (fun s => Sum.elim (join (ω s) (v s)) (qd s)
          ⬝ᵥ (((Robot.after z cs).jsim (q s)).2 *ᵥ Sum.elim (join (ω s) (v s)) (qd s)) / 2
        + grav * (lift (R s) (p s) Inertias.std.trunk + ((branchesAt (q s) (qd s) 0).map (height (R s) (p s))).sum))
      (join (ω t) (v t) ⬝ᵥ ((Robot.after y ds).id_full (q t) (gravIn (R t)) (join (ω t) (v t)) acc (qd t) qdd fext).2.1
        + qd t ⬝ᵥ ((Robot.after y ds).id_full (q t) (gravIn (R t)) (join (ω t) (v t)) acc (qd t) qdd fext).2.2
        + (join (ω t) (v t) ⬝ᵥ fext TRUNK
          + ((List.zipWith List.zip (branchesAt (q t) (qd t) fext) (split (qd t))).map (power (join (ω t) (v t)))).sum)) t := by
  have h := float_balance (branches_moves fext hq hqd) (b := baseAt (join (ω t) (v t)) fext) (tensor_trunk_body 0) rfl hv hR hp
  rw [← full_eq (inv_after y ds)] at h
  rw [← split_dot]
  refine h.congr_of_eventuallyEq (.of_forall fun s => ?_)
  show _ / 2 + _ = _ / 2 + _
  rw [C128_HyQ, branches_free (q s) (qd s) fext, energies_free, heights_free]
  rfl

/-- **C136 (HyQ).**  Energy balance of `fd`: along every motion with the accelerations that `fd` computes, the sum of
the kinetic energy and the potential energy changes by the power of the joint forces and of the external forces. -/
theorem C136_HyQ_fd (z y : Robot) (cs ds : List Call) {q qd : ℝ → Q} {R : ℝ → M3} {p ω v : ℝ → V3}
    {t : ℝ} (tau : Q) (fext : Ext) (hq : VDeriv q (qd t) t)
    (hqd : VDeriv qd ((Robot.after y ds).fd (q t) (join (ω t) (v t)) (gravIn (R t)) (qd t) tau fext).2.2 t)
    (hR : MDeriv R (R t * cpm (ω t)) t) (hp : VDeriv p (R t *ᵥ v t) t)
    (hv : VDeriv (fun s => join (ω s) (v s)) ((Robot.after y ds).fd (q t) (join (ω t) (v t)) (gravIn (R t)) (qd t) tau fext).2.1 t) :
    HasDerivAt (fun s => Sum.elim (join (ω s) (v s)) (qd s)
          ⬝ᵥ (((Robot.after z cs).jsim (q s)).2 *ᵥ Sum.elim (join (ω s) (v s)) (qd s)) / 2
        + grav * (lift (R s) (p s) Inertias.std.trunk + ((branchesAt (q s) (qd s) 0).map (height (R s) (p s))).sum))
      (qd t ⬝ᵥ tau + (join (ω t) (v t) ⬝ᵥ fext TRUNK
          + ((List.zipWith List.zip (branchesAt (q t) (qd t) fext) (split (qd t))).map (power (join (ω t) (v t)))).sum)) t := by
  obtain ⟨a, ha⟩ : ∃ a, ((Robot.after y ds).fd (q t) (join (ω t) (v t)) (gravIn (R t)) (qd t) tau fext).2 = a := ⟨_, rfl⟩
  rw [ha] at hqd hv
  have h := C136_HyQ_id z z cs cs fext hq hqd hR hp hv
  rw [(C125_HyQ_fd z y cs ds (q t) (gravIn (R t)) (join (ω t) (v t)) a.1 (qd t) tau a.2 fext).2 ha.symm, dotProduct_zero, zero_add] at h
  exact h

/-- Motions as in `C136_HyQ_fd` exist through every state. -/
example (y : Robot) (ds : List Call) (q₀ qd₀ tau : Q) (R₀ : M3) (p₀ ω₀ v₀ : V3) (fext : Ext) :
    ∃ (q qd : ℝ → Q) (R : ℝ → M3) (p ω v : ℝ → V3), q 0 = q₀ ∧ qd 0 = qd₀ ∧ R 0 = R₀ ∧ p 0 = p₀ ∧ ω 0 = ω₀ ∧ v 0 = v₀ ∧
    VDeriv q (qd 0) 0 ∧ VDeriv qd ((Robot.after y ds).fd (q 0) (join (ω 0) (v 0)) (gravIn (R 0)) (qd 0) tau fext).2.2 0 ∧
    MDeriv R (R 0 * cpm (ω 0)) 0 ∧ VDeriv p (R 0 *ᵥ v 0) 0 ∧
    VDeriv (fun s => join (ω s) (v s)) ((Robot.after y ds).fd (q 0) (join (ω 0) (v 0)) (gravIn (R 0)) (qd 0) tau fext).2.1 0 :=
  line_motion_float q₀ qd₀ R₀ p₀ ω₀ v₀ fun q R ω v qd => ((Robot.after y ds).fd q (join ω v) (gravIn R) qd tau fext).2

end CT.Robots.HyQ
