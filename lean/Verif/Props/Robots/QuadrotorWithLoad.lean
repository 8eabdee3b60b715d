import Verif.Model.Robots.QuadrotorWithLoad
import Verif.Props.RobotsBase

/-!
# QuadrotorWithLoad: the generated dynamics agree with each other

Written by `tools/gen_robot_props.py`.
-/

set_option linter.unusedSimpArgs false
set_option linter.unusedTactic false
set_option linter.unreachableTactic false
set_option maxRecDepth 8000

namespace CT.Robots.QuadrotorWithLoad

open Matrix Spatial Articulated FrameJac

/-! ### Transforms -/

theorem motion_fr_link1_X_fr_body_fresh (z : M6) (q : Q) : motion_fr_link1_X_fr_body_update (motion_fr_link1_X_fr_body_new z) q = motion_fr_link1_X_fr_body_update (motion_fr_link1_X_fr_body_new 0) q := by
  simp only [motion_fr_link1_X_fr_body_new, motion_fr_link1_X_fr_body_update]
  simp

theorem motion_fr_link1_X_fr_body_again (z : M6) (p q : Q) : motion_fr_link1_X_fr_body_update (motion_fr_link1_X_fr_body_update z p) q = motion_fr_link1_X_fr_body_update z q := by
  simp only [motion_fr_link1_X_fr_body_update]
  simp

theorem motion_fr_link2_X_fr_link1_fresh (z : M6) (q : Q) : motion_fr_link2_X_fr_link1_update (motion_fr_link2_X_fr_link1_new z) q = motion_fr_link2_X_fr_link1_update (motion_fr_link2_X_fr_link1_new 0) q := by
  simp only [motion_fr_link2_X_fr_link1_new, motion_fr_link2_X_fr_link1_update]
  simp

theorem motion_fr_link2_X_fr_link1_again (z : M6) (p q : Q) : motion_fr_link2_X_fr_link1_update (motion_fr_link2_X_fr_link1_update z p) q = motion_fr_link2_X_fr_link1_update z q := by
  simp only [motion_fr_link2_X_fr_link1_update]
  simp

theorem force_fr_link1_X_fr_link2_fresh (z : M6) (q : Q) : force_fr_link1_X_fr_link2_update (force_fr_link1_X_fr_link2_new z) q = force_fr_link1_X_fr_link2_update (force_fr_link1_X_fr_link2_new 0) q := by
  simp only [force_fr_link1_X_fr_link2_new, force_fr_link1_X_fr_link2_update]
  simp

theorem force_fr_link1_X_fr_link2_again (z : M6) (p q : Q) : force_fr_link1_X_fr_link2_update (force_fr_link1_X_fr_link2_update z p) q = force_fr_link1_X_fr_link2_update z q := by
  simp only [force_fr_link1_X_fr_link2_update]
  simp

theorem force_fr_body_X_fr_link1_fresh (z : M6) (q : Q) : force_fr_body_X_fr_link1_update (force_fr_body_X_fr_link1_new z) q = force_fr_body_X_fr_link1_update (force_fr_body_X_fr_link1_new 0) q := by
  simp only [force_fr_body_X_fr_link1_new, force_fr_body_X_fr_link1_update]
  simp

theorem force_fr_body_X_fr_link1_again (z : M6) (p q : Q) : force_fr_body_X_fr_link1_update (force_fr_body_X_fr_link1_update z p) q = force_fr_body_X_fr_link1_update z q := by
  simp only [force_fr_body_X_fr_link1_update]
  simp

theorem motion_fr_link1_X_fr_body_isMotion (z : M6) (q : Q) : IsMotionX (motion_fr_link1_X_fr_body_update (motion_fr_link1_X_fr_body_new z) q)
    !![Real.cos (q JA), Real.sin (q JA), 0; -Real.sin (q JA), Real.cos (q JA), 0; 0, 0, 1]
    ![0, 0, 0] := by
  have h := Real.sin_sq_add_cos_sq (q JA)
  refine isMotionX_of ⟨?_, ?_⟩ ?_
  · ext i j; fin_cases i <;> fin_cases j <;> simp [Matrix.mul_apply, Fin.sum_univ_succ] <;> linarith
  · rw [Matrix.det_fin_three]; simp; linarith
  · rw [motion_fr_link1_X_fr_body_new, motion_fr_link1_X_fr_body_update]
    ext i j; fin_cases i <;> fin_cases j <;> simp [blk, cpm, Matrix.mul_apply, Fin.sum_univ_succ] <;> norm_num <;> ring

theorem motion_fr_link2_X_fr_link1_isMotion (z : M6) (q : Q) : IsMotionX (motion_fr_link2_X_fr_link1_update (motion_fr_link2_X_fr_link1_new z) q)
    !![Real.sin (q JB), 0, -Real.cos (q JB); Real.cos (q JB), 0, Real.sin (q JB); 0, -1, 0]
    ![0, 0, (-1 / 10)] := by
  have h := Real.sin_sq_add_cos_sq (q JB)
  refine isMotionX_of ⟨?_, ?_⟩ ?_
  · ext i j; fin_cases i <;> fin_cases j <;> simp [Matrix.mul_apply, Fin.sum_univ_succ] <;> linarith
  · rw [Matrix.det_fin_three]; simp; linarith
  · rw [motion_fr_link2_X_fr_link1_new, motion_fr_link2_X_fr_link1_update]
    ext i j; fin_cases i <;> fin_cases j <;> simp [blk, cpm, Matrix.mul_apply, Fin.sum_univ_succ] <;> norm_num <;> ring

theorem force_fr_link1_X_fr_link2_transpose (z y : M6) (q : Q) :
    force_fr_link1_X_fr_link2_update (force_fr_link1_X_fr_link2_new z) q = (motion_fr_link2_X_fr_link1_update (motion_fr_link2_X_fr_link1_new y) q)ᵀ := by
  rw [force_fr_link1_X_fr_link2_new, force_fr_link1_X_fr_link2_update, motion_fr_link2_X_fr_link1_new, motion_fr_link2_X_fr_link1_update]
  ext i j; fin_cases i <;> fin_cases j <;> simp <;> norm_num

theorem force_fr_body_X_fr_link1_transpose (z y : M6) (q : Q) :
    force_fr_body_X_fr_link1_update (force_fr_body_X_fr_link1_new z) q = (motion_fr_link1_X_fr_body_update (motion_fr_link1_X_fr_body_new y) q)ᵀ := by
  rw [force_fr_body_X_fr_link1_new, force_fr_body_X_fr_link1_update, motion_fr_link1_X_fr_body_new, motion_fr_link1_X_fr_body_update]
  ext i j; fin_cases i <;> fin_cases j <;> simp <;> norm_num

/-- The motion transforms at a position. -/
noncomputable def MT.at (q : Q) : MT := (MT.new ⟨0, 0⟩).setJointStatus q

/-- The force transforms at a position. -/
noncomputable def FT.at (q : Q) : FT := (FT.new ⟨0, 0⟩).set q

/-- The inertia parameters. -/
noncomputable def Inertias.std : Inertias := Inertias.new ⟨0, 0, 0⟩

/-! ### Inertia parameters -/

theorem tensor_body_fresh (z : M6) : tensor_body z = tensor_body 0 := fill_fresh ..

theorem tensor_body_body (z : M6) : IsBody (tensor_body z) := isBody_fill z (by norm_num) ..

theorem tensor_body_pos (z : M6) (v : V6) (hv : v ≠ 0) : 0 < v ⬝ᵥ (tensor_body z *ᵥ v) :=
  pos_fill z (by norm_num) _ _ _ _ _ _ _ (by simp; norm_num) (by simp; norm_num) (by simp; norm_num) v hv

theorem tensor_link1_fresh (z : M6) : tensor_link1 z = tensor_link1 0 := fill_fresh ..

theorem tensor_link1_body (z : M6) : IsBody (tensor_link1 z) := isBody_fill z (by norm_num) ..

theorem tensor_link2_fresh (z : M6) : tensor_link2 z = tensor_link2 0 := fill_fresh ..

theorem tensor_link2_body (z : M6) : IsBody (tensor_link2 z) := isBody_fill z (by norm_num) ..

/-! ### State of the object -/

/-- What is true of the object between calls. -/
structure Inv (o : Robot) : Prop where
  m : ∀ q, o.m.setJointStatus q = MT.at q
  ft : ∀ q, o.ft.set q = FT.at q
  i : o.i = Inertias.std
  fc : ∀ v, motionCrossProductMx v o.fds.vcross = motionCrossProductMx v 0
  fa : ∀ A U D, computeIaRevolute A U D o.fds.Ia_r = computeIaRevolute A U D 0
  ic : ∀ v, motionCrossProductMx v o.ids.vcross = motionCrossProductMx v 0
  sp : ∃ junk, ∀ A X, transformInertia A X o.Ic_spare = transformInertia A X (Inertia.new junk)

theorem MT.refill (m : MT) (p q : Q) : (m.setJointStatus p).setJointStatus q = m.setJointStatus q := by
  simp only [MT.setJointStatus, motion_fr_link1_X_fr_body_again, motion_fr_link2_X_fr_link1_again]

theorem FT.refill (m : FT) (p q : Q) : (m.set p).set q = m.set q := by
  simp only [FT.set, force_fr_link1_X_fr_link2_again, force_fr_body_X_fr_link1_again]

theorem inv_new (z : Robot) : Inv (Robot.new z) where
  m q := by
    simp only [Robot.new, MT.at, MT.new, MT.setJointStatus]
    rw [motion_fr_link1_X_fr_body_fresh z.m.fr_link1_X_fr_body, motion_fr_link2_X_fr_link1_fresh z.m.fr_link2_X_fr_link1]
  ft q := by
    simp only [Robot.new, FT.at, FT.new, FT.set]
    rw [force_fr_link1_X_fr_link2_fresh z.ft.fr_link1_X_fr_link2, force_fr_body_X_fr_link1_fresh z.ft.fr_body_X_fr_link1]
  i := by
    simp only [Robot.new, Inertias.std, Inertias.new]
    rw [tensor_body_fresh z.i.body, tensor_link1_fresh z.i.link1, tensor_link2_fresh z.i.link2]
  fc _ := rfl
  fa _ _ _ := rfl
  ic _ := rfl
  sp := ⟨z.Ic_spare, fun _ _ => rfl⟩

theorem Inv.step {o : Robot} (h : Inv o) (c : Call) : Inv (o.step c) := by
  cases c with
  | fd q body_v g qd tau fext =>
    exact {
      m := fun p => (MT.refill o.m q p).trans (h.m p)
      ft := h.ft
      i := h.i
      fc := fun v => by simp -implicitDefEqProofs only [Robot.step, Robot.fd, Robots.QuadrotorWithLoad.fd, cross_refill, h.fc]
      fa := fun A U D => by simp -implicitDefEqProofs only [Robot.step, Robot.fd, Robots.QuadrotorWithLoad.fd, Ia_refill, h.fa]
      ic := h.ic
      sp := h.sp
    }
  | id q g body_v qd qdd fext =>
    exact {
      m := fun p => (MT.refill o.m q p).trans (h.m p)
      ft := h.ft
      i := h.i
      fc := h.fc
      fa := h.fa
      ic := fun v => by simp -implicitDefEqProofs only [Robot.step, Robot.id, Robots.QuadrotorWithLoad.id, cross_refill, h.ic]
      sp := h.sp
    }
  | G_terms q g =>
    exact {
      m := fun p => (MT.refill o.m q p).trans (h.m p)
      ft := h.ft
      i := h.i
      fc := h.fc
      fa := h.fa
      ic := h.ic
      sp := h.sp
    }
  | C_terms q body_v qd =>
    exact {
      m := fun p => (MT.refill o.m q p).trans (h.m p)
      ft := h.ft
      i := h.i
      fc := h.fc
      fa := h.fa
      ic := fun v => by simp -implicitDefEqProofs only [Robot.step, Robot.C_terms, Robots.QuadrotorWithLoad.C_terms_fully_actuated, cross_refill, h.ic]
      sp := h.sp
    }
  | id_full q g body_v baseAccel qd qdd fext =>
    exact {
      m := fun p => (MT.refill o.m q p).trans (h.m p)
      ft := h.ft
      i := h.i
      fc := h.fc
      fa := h.fa
      ic := fun v => by simp -implicitDefEqProofs only [Robot.step, Robot.id_full, Robots.QuadrotorWithLoad.id_fully_actuated, cross_refill, h.ic]
      sp := h.sp
    }
  | jsim q =>
    obtain ⟨junk, hs⟩ := h.sp
    exact {
      m := h.m
      ft := fun p => (FT.refill o.ft q p).trans (h.ft p)
      i := h.i
      fc := h.fc
      fa := h.fa
      ic := h.ic
      sp := ⟨junk, fun A X => by simp -implicitDefEqProofs only [Robot.step, Robot.jsim, Robots.QuadrotorWithLoad.jsim, transform_refill, hs]⟩
    }

theorem inv_after (z : Robot) (calls : List Call) : Inv (Robot.after z calls) := by
  have : ∀ o, Inv o → Inv (calls.foldl Robot.step o) := by
    induction calls with
    | nil => exact fun o h => h
    | cons c cs ih => exact fun o h => ih _ (h.step c)
  exact this _ (inv_new z)

/-! ### The recursive form -/

/-- The joints by branch. -/
def split (x : Q) : List (List ℝ) :=
  [[x JA, x JB]]

/-- The columns of a matrix by branch. -/
def cols (F : Matrix (Fin 6) (Fin 2) ℝ) : List (List V6) :=
  [[fun k => F k JA, fun k => F k JB]]

/-- The blocks on the diagonal of a matrix by branch. -/
def blocks (H : Matrix (Fin 2) (Fin 2) ℝ) : List (List (List ℝ)) :=
  [[[H JA JA, H JA JB], [H JB JA, H JB JB]]]

theorem split_inj {x y : Q} (h : split x = split y) : x = y := by
  simp only [split, List.cons.injEq, and_true] at h
  funext i
  fin_cases i <;> simp_all

theorem split_add (x y : Q) : List.zipWith ladd (split x) (split y) = split (x + y) := rfl

theorem split_dot (x y : Q) : (List.zipWith ldot (split x) (split y)).sum = x ⬝ᵥ y := by
  simp [split, ldot, dotProduct, Fin.sum_univ_succ]
  try ring

theorem split_ne {x : Q} (h : x ≠ 0) : ∃ xs ∈ split x, ∃ y ∈ xs, y ≠ 0 := by
  by_contra hc
  push Not at hc
  apply h
  simp only [split, List.mem_cons, List.not_mem_nil, or_false, forall_eq_or_imp, forall_eq] at hc
  funext i
  fin_cases i <;> simp_all

theorem fsum_cols (F : Matrix (Fin 6) (Fin 2) ℝ) (x : Q) : fsum (cols F) (split x) = F *ᵥ x := by
  funext k
  simp [fsum, lsum, cols, split, mulVec, dotProduct, Fin.sum_univ_succ]
  try ring

theorem rows_blocks (F : Matrix (Fin 6) (Fin 2) ℝ) (H : Matrix (Fin 2) (Fin 2) ℝ) (a : V6) (x : Q) :
    List.zipWith (fun (FH : List V6 × List (List ℝ)) xs => rows FH.1 FH.2 a xs) ((cols F).zip (blocks H)) (split x)
      = split (Fᵀ *ᵥ a + H *ᵥ x) := by
  simp [cols, blocks, split, rows, ladd, ldot, mulVec, dotProduct, Fin.sum_univ_succ]

/-- The base. -/
noncomputable def baseAt (v : V6) (fext : Ext) : Base := { I := Inertias.std.body, fext := fext BODY, v := v }

/-- The branches at a position. -/
noncomputable def branchesAt (q qd : Q) (fext : Ext) : List (List Joint) := branches (MT.at q) (FT.at q) Inertias.std qd fext

theorem branches_rigid (q qd : Q) (fext : Ext) : ∀ br ∈ branchesAt q qd fext, ∀ j ∈ br, j.Rigid := by
  simp only [branchesAt, branches, List.mem_cons, List.not_mem_nil, or_false, forall_eq_or_imp, forall_eq]
  refine ⟨?_, ?_⟩
  · exact ⟨⟨_, _, motion_fr_link1_X_fr_body_isMotion 0 q⟩, force_fr_body_X_fr_link1_transpose 0 0 q, tensor_link1_body 0⟩
  · exact ⟨⟨_, _, motion_fr_link2_X_fr_link1_isMotion 0 q⟩, force_fr_link1_X_fr_link2_transpose 0 0 q, tensor_link2_body 0⟩

theorem fd_eq {o : Robot} (h : Inv o) (q : Q) (v g : V6) (qd tau : Q) (fext : Ext) :
    ((o.fd q v g qd tau fext).2.1, split (o.fd q v g qd tau fext).2.2) = fdFloat (baseAt v fext) g (List.zipWith List.zip (branchesAt q qd fext) (split tau)) := by
  simp -implicitDefEqProofs only [Robot.fd, h.m, h.i, Robots.QuadrotorWithLoad.fd, h.fc, h.fa, cross_refill, Ia_refill, Matrix.neg_mulVec]
  simp -implicitDefEqProofs only [baseAt, branchesAt, branches, split, List.zipWith_cons_cons, List.zipWith_nil_left, List.zip_cons_cons, List.zip_nil_left, List.foldl_cons, List.foldl_nil, List.map_cons, List.map_nil, fdFloat, Base.AI, Base.p, up, down, Joint.vel, Joint.cor, Joint.AI, Joint.p, Joint.lump, accel, addM, addV, firstAcc]
  rfl

theorem full_eq {o : Robot} (h : Inv o) (q : Q) (g v acc : V6) (qd qdd : Q) (fext : Ext) :
    ((o.id_full q g v acc qd qdd fext).2.1, split (o.id_full q g v acc qd qdd fext).2.2) = idFull (baseAt v fext) g acc (List.zipWith List.zip (branchesAt q qd fext) (split qdd)) := by
  simp -implicitDefEqProofs only [Robot.id_full, h.m, h.i, Robots.QuadrotorWithLoad.id_fully_actuated, h.ic, cross_refill]
  simp -implicitDefEqProofs only [baseAt, branchesAt, branches, split, List.zipWith_cons_cons, List.zipWith_nil_left, List.zip_cons_cons, List.zip_nil_left, List.foldl_cons, List.foldl_nil, List.map_cons, List.map_nil, idFull, rnea, addF, Joint.vel, Joint.cor, Joint.AI, Joint.p, Joint.lump, accel, addM, addV, firstAcc]
  rfl

theorem id_eq {o : Robot} (h : Inv o) (q : Q) (g v : V6) (qd qdd : Q) (fext : Ext) :
    ((o.id q g v qd qdd fext).2.1, split (o.id q g v qd qdd fext).2.2) = idFloat (baseAt v fext) g (List.zipWith List.zip (branchesAt q qd fext) (split qdd)) := by
  simp -implicitDefEqProofs only [Robot.id, h.m, h.i, Robots.QuadrotorWithLoad.id, h.ic, cross_refill, Matrix.neg_mulVec]
  simp -implicitDefEqProofs only [baseAt, branchesAt, branches, split, List.zipWith_cons_cons, List.zipWith_nil_left, List.zip_cons_cons, List.zip_nil_left, List.foldl_cons, List.foldl_nil, List.map_cons, List.map_nil, idFloat, Articulated.comp, compDown, iacc, cacc, addV, Joint.vel, Joint.cor, Joint.AI, Joint.p, Joint.lump, accel, addM, addV, firstAcc]
  rfl

theorem G_eq {o : Robot} (h : Inv o) (q : Q) (g v : V6) (qd : Q) (fext : Ext) :
    ((o.G_terms q g).2.1, split (o.G_terms q g).2.2) = gFull (baseAt v fext) g (branchesAt q qd fext) := by
  simp -implicitDefEqProofs only [Robot.G_terms, h.m, h.i, Robots.QuadrotorWithLoad.G_terms_fully_actuated]
  simp -implicitDefEqProofs only [baseAt, branchesAt, branches, split, List.zipWith_cons_cons, List.zipWith_nil_left, List.zip_cons_cons, List.zip_nil_left, List.foldl_cons, List.foldl_nil, List.map_cons, List.map_nil, gFull, gterms, addF]
  rfl

theorem C_eq {o : Robot} (h : Inv o) (q : Q) (v : V6) (qd : Q) (fext : Ext) :
    ((o.C_terms q v qd).2.1, split (o.C_terms q v qd).2.2) = cFull (baseAt v fext) (branchesAt q qd fext) := by
  simp -implicitDefEqProofs only [Robot.C_terms, h.m, h.i, Robots.QuadrotorWithLoad.C_terms_fully_actuated, h.ic, cross_refill]
  simp -implicitDefEqProofs only [baseAt, branchesAt, branches, split, List.zipWith_cons_cons, List.zipWith_nil_left, List.zip_cons_cons, List.zip_nil_left, List.foldl_cons, List.foldl_nil, List.map_cons, List.map_nil, cFull, cterms, cacc, addF, Joint.vel, Joint.cor]
  rfl

theorem jsim_eq {o : Robot} (h : Inv o) (q qd : Q) (fext : Ext) :
    ∃ junk, jsimFloat (Inertia.new junk) Inertias.std.body (branchesAt q qd fext)
      = ((o.jsim q).2.toBlocks₁₁, cols (o.jsim q).2.toBlocks₁₂, blocks (o.jsim q).2.toBlocks₂₂) := by
  obtain ⟨junk, hs⟩ := h.sp
  refine ⟨junk, ?_⟩
  simp -implicitDefEqProofs only [Robot.jsim, h.ft, h.i, Robots.QuadrotorWithLoad.jsim, hs, transform_refill, toBlocks_fromBlocks₁₁, toBlocks_fromBlocks₁₂, toBlocks_fromBlocks₂₂]
  simp -implicitDefEqProofs only [branchesAt, branches, cols, blocks, jsimFloat, crba, List.zipWith_cons_cons, List.zipWith_nil_left, List.zip_cons_cons, List.zip_nil_left, List.foldl_cons, List.foldl_nil, List.map_cons, List.map_nil]
  rfl

theorem jsim_blocks {o : Robot} (q : Q) :
    (o.jsim q).2 = fromBlocks (o.jsim q).2.toBlocks₁₁ (o.jsim q).2.toBlocks₁₂ (o.jsim q).2.toBlocks₁₂ᵀ (o.jsim q).2.toBlocks₂₂ := blocks_of rfl

theorem top_symm {o : Robot} (h : Inv o) (q : Q) : (o.jsim q).2.toBlocks₁₁ᵀ = (o.jsim q).2.toBlocks₁₁ := by
  obtain ⟨junk, hj⟩ := jsim_eq h q 0 0
  have h1 : (jsimFloat _ _ _).1 = (o.jsim q).2.toBlocks₁₁ := congrArg Prod.fst hj
  rw [← h1]
  exact jsimFloat_symm junk (tensor_body_body 0) _ (branches_rigid q 0 0)

theorem jsim_symm {o : Robot} (_h : Inv o) (q : Q) : (o.jsim q).2ᵀ = (o.jsim q).2 := by
  have hI : (o.jsim q).2.toBlocks₁₁ᵀ = (o.jsim q).2.toBlocks₁₁ := top_symm _h q
  have hH : (o.jsim q).2.toBlocks₂₂ᵀ = (o.jsim q).2.toBlocks₂₂ := by
    ext a b; fin_cases a <;> fin_cases b <;> rfl
  rw [jsim_blocks, fromBlocks_transpose, transpose_transpose, hI, hH]

/-! ### Theorems -/

theorem terms_eq (a b c d : Robot) (ka kb kc kd : List Call) (q : Q) (g v acc : V6) (qd qdd : Q) :
    ((Robot.after a ka).id_full q g v acc qd qdd 0).2.1
      = ((Robot.after b kb).jsim q).2.toBlocks₁₁ *ᵥ acc + ((Robot.after b kb).jsim q).2.toBlocks₁₂ *ᵥ qdd
        + ((Robot.after c kc).C_terms q v qd).2.1 + ((Robot.after d kd).G_terms q g).2.1
    ∧ ((Robot.after a ka).id_full q g v acc qd qdd 0).2.2
      = ((Robot.after b kb).jsim q).2.toBlocks₁₂ᵀ *ᵥ acc + ((Robot.after b kb).jsim q).2.toBlocks₂₂ *ᵥ qdd
        + ((Robot.after c kc).C_terms q v qd).2.2 + ((Robot.after d kd).G_terms q g).2.2 := by
  obtain ⟨junk, hj⟩ := jsim_eq (inv_after b kb) q qd 0
  have h := float_terms junk (b := baseAt v 0) (tensor_body_body 0) rfl g acc (branchesAt q qd 0) (split qdd) (branches_rigid q qd 0)
    (by
      simp only [branchesAt, branches, List.mem_cons, List.not_mem_nil, or_false, forall_eq_or_imp, forall_eq]
      simp)
    rfl
  rw [show (baseAt v 0).I = Inertias.std.body from rfl, hj, ← full_eq (inv_after a ka), ← C_eq (inv_after c kc), ← G_eq (inv_after d kd)] at h
  simp only [fsum_cols] at h
  rw [rows_blocks _ _ _ _, split_add, split_add] at h
  exact ⟨h.1, split_inj h.2⟩

/-- **C126 (QuadrotorWithLoad).**  Without external forces, `id_fully_actuated` is the product of the joint space inertia
matrix and the accelerations of base and joints plus `C_terms_fully_actuated` plus `G_terms_fully_actuated`. -/
theorem C126_QuadrotorWithLoad (a b c d : Robot) (ka kb kc kd : List Call) (q : Q) (g v acc : V6) (qd qdd : Q) :
    Sum.elim ((Robot.after a ka).id_full q g v acc qd qdd 0).2.1 ((Robot.after a ka).id_full q g v acc qd qdd 0).2.2
      = ((Robot.after b kb).jsim q).2 *ᵥ Sum.elim acc qdd
        + Sum.elim ((Robot.after c kc).C_terms q v qd).2.1 ((Robot.after c kc).C_terms q v qd).2.2
        + Sum.elim ((Robot.after d kd).G_terms q g).2.1 ((Robot.after d kd).G_terms q g).2.2 := by
  obtain ⟨h1, h2⟩ := terms_eq a b c d ka kb kc kd q g v acc qd qdd
  rw [jsim_blocks, fromBlocks_mulVec, h1, h2]
  funext k
  cases k <;> rfl

/-- **C128 (QuadrotorWithLoad).**  The quadratic form of the joint space inertia matrix is twice the kinetic energy of the
base and of the links when the base and the joints move with the given rates. -/
theorem C128_QuadrotorWithLoad (z : Robot) (cs : List Call) (q : Q) (v : V6) (qd : Q) :
    Sum.elim v qd ⬝ᵥ (((Robot.after z cs).jsim q).2 *ᵥ Sum.elim v qd)
      = v ⬝ᵥ (Inertias.std.body *ᵥ v) + ((List.zipWith List.zip (branchesAt q qd 0) (split qd)).map (energy v)).sum := by
  obtain ⟨junk, hj⟩ := jsim_eq (inv_after z cs) q qd 0
  have h := float_energy junk (I := Inertias.std.body) (tensor_body_body 0) v (branchesAt q qd 0) (split qd) (branches_rigid q qd 0) rfl
  rw [hj] at h
  simp only [fsum_cols] at h
  rw [rows_blocks _ _ _ _, split_dot] at h
  rw [jsim_blocks, fromBlocks_mulVec, dotProduct, Fintype.sum_sum_type, ← h]
  rfl

/-- **C127 (QuadrotorWithLoad), in part.**  The joint space inertia matrix is symmetric at every position.  Missing: it is
not positive definite, see `C127_QuadrotorWithLoad_violated`. -/
theorem C127_QuadrotorWithLoad_partial (z : Robot) (cs : List Call) (q : Q) :
    (((Robot.after z cs).jsim q).2)ᵀ = ((Robot.after z cs).jsim q).2 := jsim_symm (inv_after z cs) q

/-- **C127 (QuadrotorWithLoad), violated.**  The joint space inertia matrix is not positive definite: the parameters of the
two links are given about their centres of mass although the code takes them about the origin of the link. -/
theorem C127_QuadrotorWithLoad_violated (z : Robot) (cs : List Call) : ∃ q : Q, ∃ x,
    x ≠ 0 ∧ x ⬝ᵥ (((Robot.after z cs).jsim q).2 *ᵥ x) < 0 := by
  refine ⟨0, Sum.elim ![0, 0, 0, -0.05, 0, 0] ![0, 1], fun h => ?_, ?_⟩
  · have := congrFun h (.inr 1)
    simp at this
  · rw [C128_QuadrotorWithLoad]
    simp only [branchesAt, branches, split, List.zipWith_cons_cons, List.zipWith_nil_left, List.zip_cons_cons, List.zip_nil_left, List.map_cons, List.map_nil, energy]
    have e1 : (MT.at 0).fr_link1_X_fr_body *ᵥ ![0, 0, 0, -0.05, 0, 0] + (![0, 1] : Q) JA • axisZ = ![0, 0, 0, -0.05, 0, 0] := by
      funext k; fin_cases k <;> simp [MT.at, MT.new, MT.setJointStatus, motion_fr_link1_X_fr_body_update, motion_fr_link1_X_fr_body_new, mulVec, dotProduct, Fin.sum_univ_succ, axisZ]
    have e2 : (MT.at 0).fr_link2_X_fr_link1 *ᵥ ![0, 0, 0, -0.05, 0, 0] + (![0, 1] : Q) JB • axisZ = ![0, 0, 1, 0, -0.05, 0] := by
      funext k; fin_cases k <;> simp [MT.at, MT.new, MT.setJointStatus, motion_fr_link2_X_fr_link1_update, motion_fr_link2_X_fr_link1_new, mulVec, dotProduct, Fin.sum_univ_succ, axisZ]
    rw [e1, e2]
    simp [Inertias.std, Inertias.new, tensor_body, tensor_link1, tensor_link2, Inertia.fill, Inertia.new, buildInertiaTensor, mulVec, dotProduct, Fin.sum_univ_succ]
    norm_num

end CT.Robots.QuadrotorWithLoad
