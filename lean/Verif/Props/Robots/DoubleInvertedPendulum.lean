import Verif.Model.Robots.DoubleInvertedPendulum
import Verif.Props.RobotsBase

/-!
# DoubleInvertedPendulum: the generated dynamics agree with each other

Written by `tools/gen_robot_props.py`.
-/

set_option linter.unusedSimpArgs false
set_option linter.unusedTactic false
set_option linter.unreachableTactic false
set_option maxRecDepth 4000

namespace CT.Robots.DoubleInvertedPendulum

open Matrix Spatial Articulated FrameJac

/-! ### Transforms -/

theorem motion_fr_Link1_X_fr_DoubleInvertedPendulumBase_fresh (z : M6) (q : Q) : motion_fr_Link1_X_fr_DoubleInvertedPendulumBase_update (motion_fr_Link1_X_fr_DoubleInvertedPendulumBase_new z) q = motion_fr_Link1_X_fr_DoubleInvertedPendulumBase_update (motion_fr_Link1_X_fr_DoubleInvertedPendulumBase_new 0) q := by
  simp only [motion_fr_Link1_X_fr_DoubleInvertedPendulumBase_new, motion_fr_Link1_X_fr_DoubleInvertedPendulumBase_update]
  simp

theorem motion_fr_Link1_X_fr_DoubleInvertedPendulumBase_again (z : M6) (p q : Q) : motion_fr_Link1_X_fr_DoubleInvertedPendulumBase_update (motion_fr_Link1_X_fr_DoubleInvertedPendulumBase_update z p) q = motion_fr_Link1_X_fr_DoubleInvertedPendulumBase_update z q := by
  simp only [motion_fr_Link1_X_fr_DoubleInvertedPendulumBase_update]
  simp

theorem motion_fr_Link2_X_fr_Link1_fresh (z : M6) (q : Q) : motion_fr_Link2_X_fr_Link1_update (motion_fr_Link2_X_fr_Link1_new z) q = motion_fr_Link2_X_fr_Link1_update (motion_fr_Link2_X_fr_Link1_new 0) q := by
  simp only [motion_fr_Link2_X_fr_Link1_new, motion_fr_Link2_X_fr_Link1_update]
  simp

theorem motion_fr_Link2_X_fr_Link1_again (z : M6) (p q : Q) : motion_fr_Link2_X_fr_Link1_update (motion_fr_Link2_X_fr_Link1_update z p) q = motion_fr_Link2_X_fr_Link1_update z q := by
  simp only [motion_fr_Link2_X_fr_Link1_update]
  simp

theorem force_fr_Link1_X_fr_Link2_fresh (z : M6) (q : Q) : force_fr_Link1_X_fr_Link2_update (force_fr_Link1_X_fr_Link2_new z) q = force_fr_Link1_X_fr_Link2_update (force_fr_Link1_X_fr_Link2_new 0) q := by
  simp only [force_fr_Link1_X_fr_Link2_new, force_fr_Link1_X_fr_Link2_update]
  simp

theorem force_fr_Link1_X_fr_Link2_again (z : M6) (p q : Q) : force_fr_Link1_X_fr_Link2_update (force_fr_Link1_X_fr_Link2_update z p) q = force_fr_Link1_X_fr_Link2_update z q := by
  simp only [force_fr_Link1_X_fr_Link2_update]
  simp

theorem motion_fr_Link1_X_fr_DoubleInvertedPendulumBase_isMotion (z : M6) (q : Q) : IsMotionX (motion_fr_Link1_X_fr_DoubleInvertedPendulumBase_update (motion_fr_Link1_X_fr_DoubleInvertedPendulumBase_new z) q)
    !![0, -Real.sin (q JOINT1), Real.cos (q JOINT1); 0, -Real.cos (q JOINT1), -Real.sin (q JOINT1); 1, 0, 0]
    ![0, 0, 0] := by
  have h := Real.sin_sq_add_cos_sq (q JOINT1)
  refine isMotionX_of ⟨?_, ?_⟩ ?_
  · ext i j; fin_cases i <;> fin_cases j <;> simp [Matrix.mul_apply, Fin.sum_univ_succ] <;> linarith
  · rw [Matrix.det_fin_three]; simp; linarith
  · rw [motion_fr_Link1_X_fr_DoubleInvertedPendulumBase_new, motion_fr_Link1_X_fr_DoubleInvertedPendulumBase_update]
    ext i j; fin_cases i <;> fin_cases j <;> simp [blk, cpm, Matrix.mul_apply, Fin.sum_univ_succ] <;> norm_num <;> ring

theorem motion_fr_Link2_X_fr_Link1_isMotion (z : M6) (q : Q) : IsMotionX (motion_fr_Link2_X_fr_Link1_update (motion_fr_Link2_X_fr_Link1_new z) q)
    !![Real.cos (q JOINT2), Real.sin (q JOINT2), 0; -Real.sin (q JOINT2), Real.cos (q JOINT2), 0; 0, 0, 1]
    ![1, 0, 0] := by
  have h := Real.sin_sq_add_cos_sq (q JOINT2)
  refine isMotionX_of ⟨?_, ?_⟩ ?_
  · ext i j; fin_cases i <;> fin_cases j <;> simp [Matrix.mul_apply, Fin.sum_univ_succ] <;> linarith
  · rw [Matrix.det_fin_three]; simp; linarith
  · rw [motion_fr_Link2_X_fr_Link1_new, motion_fr_Link2_X_fr_Link1_update]
    ext i j; fin_cases i <;> fin_cases j <;> simp [blk, cpm, Matrix.mul_apply, Fin.sum_univ_succ] <;> norm_num <;> ring

theorem force_fr_Link1_X_fr_Link2_transpose (z y : M6) (q : Q) :
    force_fr_Link1_X_fr_Link2_update (force_fr_Link1_X_fr_Link2_new z) q = (motion_fr_Link2_X_fr_Link1_update (motion_fr_Link2_X_fr_Link1_new y) q)ᵀ := by
  rw [force_fr_Link1_X_fr_Link2_new, force_fr_Link1_X_fr_Link2_update, motion_fr_Link2_X_fr_Link1_new, motion_fr_Link2_X_fr_Link1_update]
  ext i j; fin_cases i <;> fin_cases j <;> simp <;> norm_num

/-- The motion transforms at a position. -/
noncomputable def MT.at (q : Q) : MT := (MT.new ⟨0, 0⟩).setJointStatus q

/-- The force transforms at a position. -/
noncomputable def FT.at (q : Q) : FT := (FT.new ⟨0⟩).set q

/-- The inertia parameters. -/
noncomputable def Inertias.std : Inertias := Inertias.new ⟨0, 0⟩

/-! ### Inertia parameters -/

theorem tensor_Link1_fresh (z : M6) : tensor_Link1 z = tensor_Link1 0 := fill_fresh ..

theorem tensor_Link1_body (z : M6) : IsBody (tensor_Link1 z) := isBody_fill z (by norm_num) ..

theorem tensor_Link1_pos (z : M6) (v : V6) (hv : v ≠ 0) : 0 < v ⬝ᵥ (tensor_Link1 z *ᵥ v) :=
  pos_fill z (by norm_num) _ _ _ _ _ _ _ (by simp; norm_num) (by simp; norm_num) (by simp; norm_num) v hv

theorem tensor_Link2_fresh (z : M6) : tensor_Link2 z = tensor_Link2 0 := fill_fresh ..

theorem tensor_Link2_body (z : M6) : IsBody (tensor_Link2 z) := isBody_fill z (by norm_num) ..

theorem tensor_Link2_pos (z : M6) (v : V6) (hv : v ≠ 0) : 0 < v ⬝ᵥ (tensor_Link2 z *ᵥ v) :=
  pos_fill z (by norm_num) _ _ _ _ _ _ _ (by simp; norm_num) (by simp; norm_num) (by simp; norm_num) v hv

/-! ### State of the object -/

/-- What is true of the object between calls. -/
structure Inv (o : Robot) : Prop where
  m : ∀ q, o.m.setJointStatus q = MT.at q
  ft : ∀ q, o.ft.set q = FT.at q
  i : o.i = Inertias.std
  fv : ∀ x, Function.update o.fds.Link1_v 2 x = firstVel x
  iv : ∀ x, Function.update o.ids.Link1_v 2 x = firstVel x
  fc : ∀ v, motionCrossProductMx v o.fds.vcross = motionCrossProductMx v 0
  fa : ∀ A U D, computeIaRevolute A U D o.fds.Ia_r = computeIaRevolute A U D 0
  ic : ∀ v, motionCrossProductMx v o.ids.vcross = motionCrossProductMx v 0
  sp : ∃ junk, ∀ A X, transformInertia A X o.Ic_spare = transformInertia A X (Inertia.new junk)

theorem MT.refill (m : MT) (p q : Q) : (m.setJointStatus p).setJointStatus q = m.setJointStatus q := by
  simp only [MT.setJointStatus, motion_fr_Link1_X_fr_DoubleInvertedPendulumBase_again, motion_fr_Link2_X_fr_Link1_again]

theorem FT.refill (m : FT) (p q : Q) : (m.set p).set q = m.set q := by
  simp only [FT.set, force_fr_Link1_X_fr_Link2_again]

theorem inv_new (z : Robot) : Inv (Robot.new z) where
  m q := by
    simp only [Robot.new, MT.at, MT.new, MT.setJointStatus]
    rw [motion_fr_Link1_X_fr_DoubleInvertedPendulumBase_fresh z.m.fr_Link1_X_fr_DoubleInvertedPendulumBase, motion_fr_Link2_X_fr_Link1_fresh z.m.fr_Link2_X_fr_Link1]
  ft q := by
    simp only [Robot.new, FT.at, FT.new, FT.set]
    rw [force_fr_Link1_X_fr_Link2_fresh z.ft.fr_Link1_X_fr_Link2]
  i := by
    simp only [Robot.new, Inertias.std, Inertias.new]
    rw [tensor_Link1_fresh z.i.Link1, tensor_Link2_fresh z.i.Link2]
  fv _ := rfl
  iv _ := rfl
  fc _ := rfl
  fa _ _ _ := rfl
  ic _ := rfl
  sp := ⟨z.Ic_spare, fun _ _ => rfl⟩

theorem Inv.step {o : Robot} (h : Inv o) (c : Call) : Inv (o.step c) := by
  cases c with
  | fd q qd tau fext =>
    exact {
      m := fun p => (MT.refill o.m q p).trans (h.m p)
      ft := h.ft
      i := h.i
      fv := fun x => by simp -implicitDefEqProofs only [Robot.step, Robot.fd, Robots.DoubleInvertedPendulum.fd, vel_refill, firstVel_refill, h.fv]
      iv := h.iv
      fc := fun v => by simp -implicitDefEqProofs only [Robot.step, Robot.fd, Robots.DoubleInvertedPendulum.fd, cross_refill, h.fc]
      fa := fun A U D => by simp -implicitDefEqProofs only [Robot.step, Robot.fd, Robots.DoubleInvertedPendulum.fd, Ia_refill, h.fa]
      ic := h.ic
      sp := h.sp
    }
  | id q qd qdd fext =>
    exact {
      m := fun p => (MT.refill o.m q p).trans (h.m p)
      ft := h.ft
      i := h.i
      fv := h.fv
      iv := fun x => by simp -implicitDefEqProofs only [Robot.step, Robot.id, Robots.DoubleInvertedPendulum.id, vel_refill, firstVel_refill, h.iv]
      fc := h.fc
      fa := h.fa
      ic := fun v => by simp -implicitDefEqProofs only [Robot.step, Robot.id, Robots.DoubleInvertedPendulum.id, cross_refill, h.ic]
      sp := h.sp
    }
  | G_terms q =>
    exact {
      m := fun p => (MT.refill o.m q p).trans (h.m p)
      ft := h.ft
      i := h.i
      fv := h.fv
      iv := h.iv
      fc := h.fc
      fa := h.fa
      ic := h.ic
      sp := h.sp
    }
  | C_terms q qd =>
    exact {
      m := fun p => (MT.refill o.m q p).trans (h.m p)
      ft := h.ft
      i := h.i
      fv := h.fv
      iv := fun x => by simp -implicitDefEqProofs only [Robot.step, Robot.C_terms, Robots.DoubleInvertedPendulum.C_terms, vel_refill, firstVel_refill, h.iv]
      fc := h.fc
      fa := h.fa
      ic := fun v => by simp -implicitDefEqProofs only [Robot.step, Robot.C_terms, Robots.DoubleInvertedPendulum.C_terms, cross_refill, h.ic]
      sp := h.sp
    }
  | jsim q =>
    obtain ⟨junk, hs⟩ := h.sp
    exact {
      m := h.m
      ft := fun p => (FT.refill o.ft q p).trans (h.ft p)
      i := h.i
      fv := h.fv
      iv := h.iv
      fc := h.fc
      fa := h.fa
      ic := h.ic
      sp := ⟨junk, fun A X => by simp -implicitDefEqProofs only [Robot.step, Robot.jsim, Robots.DoubleInvertedPendulum.jsim, transform_refill, hs]⟩
    }

theorem inv_after (z : Robot) (calls : List Call) : Inv (Robot.after z calls) := by
  have : ∀ o, Inv o → Inv (calls.foldl Robot.step o) := by
    induction calls with
    | nil => exact fun o h => h
    | cons c cs ih => exact fun o h => ih _ (h.step c)
  exact this _ (inv_new z)

/-! ### The recursive form -/

/-- The links at a position. -/
noncomputable def linksAt (q qd : Q) (fext : Ext) : List Joint := links (MT.at q) (FT.at q) Inertias.std qd fext

theorem links_rigid (q qd : Q) (fext : Ext) : ∀ j ∈ linksAt q qd fext, j.Rigid := by
  intro j hj
  simp only [linksAt, links, List.mem_cons, List.not_mem_nil, or_false] at hj
  rcases hj with rfl | rfl
  · exact ⟨⟨_, _, motion_fr_Link1_X_fr_DoubleInvertedPendulumBase_isMotion 0 q⟩, rfl, tensor_Link1_body 0⟩
  · exact ⟨⟨_, _, motion_fr_Link2_X_fr_Link1_isMotion 0 q⟩, force_fr_Link1_X_fr_Link2_transpose 0 0 q, tensor_Link2_body 0⟩

theorem links_ok (q qd : Q) (fext : Ext) : ∀ j ∈ linksAt q qd fext, j.Ok := by
  intro j hj
  refine (links_rigid q qd fext j hj).ok ?_
  simp only [linksAt, links, List.mem_cons, List.not_mem_nil, or_false] at hj
  rcases hj with rfl | rfl
  · exact tensor_Link1_pos 0
  · exact tensor_Link2_pos 0

theorem links_length (q qd : Q) (fext : Ext) : (linksAt q qd fext).length = 2 := rfl

theorem fd_eq {o : Robot} (h : Inv o) (q qd tau : Q) (fext : Ext) :
    List.ofFn (o.fd q qd tau fext).2 = fdFixed ((linksAt q qd fext).zip (List.ofFn tau)) := by
  simp -implicitDefEqProofs only [Robot.fd, h.m, h.i, Robots.DoubleInvertedPendulum.fd, h.fv, h.fc, h.fa, cross_refill, Ia_refill]
  simp only [linksAt, links, List.ofFn_succ, List.ofFn_zero, List.zip_cons_cons, List.zip_nil_left, fdFixed, up, down, Joint.vel, Joint.cor, Joint.AI, Joint.p, Joint.lump, accel, addM, addV, firstAcc]
  rfl

theorem id_eq {o : Robot} (h : Inv o) (q qd qdd : Q) (fext : Ext) :
    List.ofFn (o.id q qd qdd fext).2 = idFixed ((linksAt q qd fext).zip (List.ofFn qdd)) := by
  simp -implicitDefEqProofs only [Robot.id, h.m, h.i, Robots.DoubleInvertedPendulum.id, h.iv, h.ic, cross_refill]
  simp only [linksAt, links, List.ofFn_succ, List.ofFn_zero, List.zip_cons_cons, List.zip_nil_left, idFixed, rnea, addF, Joint.vel, Joint.cor, Joint.AI, Joint.p, Joint.lump, accel, addM, addV, firstAcc]
  rfl

theorem G_eq {o : Robot} (h : Inv o) (q qd : Q) (fext : Ext) : List.ofFn (o.G_terms q).2 = gFixed (linksAt q qd fext) := by
  simp -implicitDefEqProofs only [Robot.G_terms, h.m, h.i, Robots.DoubleInvertedPendulum.G_terms]
  simp only [linksAt, links, List.ofFn_succ, List.ofFn_zero, List.zip_cons_cons, List.zip_nil_left, gFixed, gterms, addF, firstAcc]
  rfl

theorem C_eq {o : Robot} (h : Inv o) (q qd : Q) (fext : Ext) : List.ofFn (o.C_terms q qd).2 = cFixed (linksAt q qd fext) := by
  simp -implicitDefEqProofs only [Robot.C_terms, h.m, h.i, Robots.DoubleInvertedPendulum.C_terms, h.iv, h.ic, cross_refill]
  simp only [linksAt, links, List.ofFn_succ, List.ofFn_zero, List.zip_cons_cons, List.zip_nil_left, cFixed, cterms, cacc, addF, Joint.vel, Joint.cor]
  rfl

theorem jsim_eq {o : Robot} (h : Inv o) (q qd : Q) (fext : Ext) :
    ∃ junk, List.ofFn (fun i => List.ofFn ((o.jsim q).2 i)) = jsimFixed (Inertia.new junk) (linksAt q qd fext) := by
  obtain ⟨junk, hs⟩ := h.sp
  refine ⟨junk, ?_⟩
  simp -implicitDefEqProofs only [Robot.jsim, h.ft, h.i, Robots.DoubleInvertedPendulum.jsim, hs, transform_refill]
  simp -implicitDefEqProofs only [linksAt, links, ofFn_rows, ofFn_vecCons, List.ofFn_zero, jsimFixed, crba, List.map_cons, List.map_nil, List.zipWith_cons_cons, List.zipWith_nil_left]

theorem jsim_symm {o : Robot} (q : Q) : (o.jsim q).2ᵀ = (o.jsim q).2 := by
  ext i j; fin_cases i <;> fin_cases j <;> rfl

/-! ### Theorems -/

/-- **C124 (DoubleInvertedPendulum).**  The joint accelerations that `fd` computes for given joint forces are those for which
`id` computes these forces, whatever was called before on the two objects. -/
theorem C124_DoubleInvertedPendulum (z y : Robot) (cs ds : List Call) (q qd tau qdd : Q) (fext : Ext) :
    ((Robot.after z cs).id q qd qdd fext).2 = tau ↔ qdd = ((Robot.after y ds).fd q qd tau fext).2 := by
  have h1 := id_eq (inv_after z cs) q qd qdd fext
  have h2 := fd_eq (inv_after y ds) q qd tau fext
  have hl : (List.ofFn tau).length = (linksAt q qd fext).length := by rw [links_length, List.length_ofFn]
  have h3 := fixed_iff ((linksAt q qd fext).zip (List.ofFn tau)) (List.ofFn qdd)
    (fun e he => links_ok q qd fext _ (List.of_mem_zip (show (e.1, e.2) ∈ _ from he)).1) (by simp [links_length])
  rw [List.map_fst_zip hl.ge, List.map_snd_zip hl.le, ← h1, ← h2] at h3
  rw [List.ofFn_injective.eq_iff, List.ofFn_injective.eq_iff] at h3
  exact h3

/-- **C126 (DoubleInvertedPendulum).**  Without external forces, `id` is the product of the joint space inertia matrix and the
joint accelerations plus `C_terms` plus `G_terms`. -/
theorem C126_DoubleInvertedPendulum (a b c d : Robot) (ka kb kc kd : List Call) (q qd qdd : Q) :
    ((Robot.after a ka).id q qd qdd 0).2
      = ((Robot.after b kb).jsim q).2 *ᵥ qdd + ((Robot.after c kc).C_terms q qd).2 + ((Robot.after d kd).G_terms q).2 := by
  obtain ⟨junk, hj⟩ := jsim_eq (inv_after b kb) q qd 0
  have h := fixed_terms junk (linksAt q qd 0) (List.ofFn qdd) (links_rigid q qd 0)
    (by
      intro j hj
      simp only [linksAt, links, List.mem_cons, List.not_mem_nil, or_false] at hj
      rcases hj with rfl | rfl <;> rfl)
    (by simp [links_length])
  rw [← hj, map_ofFn_ldot, ← C_eq (inv_after c kc), ← G_eq (inv_after d kd), ← id_eq (inv_after a ka), ladd_ofFn, ladd_ofFn] at h
  exact List.ofFn_injective h

/-- **C127 (DoubleInvertedPendulum).**  The joint space inertia matrix is symmetric and positive definite at every position. -/
theorem C127_DoubleInvertedPendulum (z : Robot) (cs : List Call) (q : Q) :
    (((Robot.after z cs).jsim q).2)ᵀ = ((Robot.after z cs).jsim q).2
    ∧ ∀ x : Q, x ≠ 0 → 0 < x ⬝ᵥ (((Robot.after z cs).jsim q).2 *ᵥ x) := by
  refine ⟨jsim_symm q, fun x hx => ?_⟩
  obtain ⟨junk, hj⟩ := jsim_eq (inv_after z cs) q 0 0
  have hne : ∃ y ∈ List.ofFn x, y ≠ 0 := by
    obtain ⟨i, hi⟩ := Function.ne_iff.mp hx
    exact ⟨x i, List.mem_ofFn.mpr ⟨i, rfl⟩, hi⟩
  have h := jsim_pos junk (linksAt q 0 0) (List.ofFn x) (links_rigid q 0 0) (links_ok q 0 0) (by simp [links_length]) hne
  rw [← hj, map_ofFn_ldot, ldot_ofFn] at h
  exact h

/-- **C128 (DoubleInvertedPendulum).**  The quadratic form of the joint space inertia matrix is twice the kinetic energy of the
links when the joints move with the given rates. -/
theorem C128_DoubleInvertedPendulum (z : Robot) (cs : List Call) (q qd : Q) :
    qd ⬝ᵥ (((Robot.after z cs).jsim q).2 *ᵥ qd) = energy 0 ((linksAt q qd 0).zip (List.ofFn qd)) := by
  obtain ⟨junk, hj⟩ := jsim_eq (inv_after z cs) q qd 0
  have h := fixed_energy junk (linksAt q qd 0) (List.ofFn qd) (links_rigid q qd 0) (by simp [links_length])
  rw [← hj, map_ofFn_ldot, ldot_ofFn] at h
  exact h

end CT.Robots.DoubleInvertedPendulum
