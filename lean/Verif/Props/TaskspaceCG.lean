import Verif.Model.TaskspaceCG
import Verif.Props.TaskspaceSmooth
import Verif.Props.CodeGen
import Verif.Props.CostLoad

/-! # C187: the task-space pose term with generated code -/

namespace CT.TaskCG

open Matrix FrameJac FloatSys Lookup Taskspace CodeGen Cost

variable {S C : ℕ}

/-! ### Specification -/

/-- What a call means for the goal of the term, kept as a `TermTaskspacePose` without generated code: references are
replaced, a file gives all values, angles of rotations about x, y and z for the orientation, and everything else changes
nothing. -/
noncomputable def aim (g : PoseTerm) : Op S C → PoseTerm
  | .setPosition p => { g with pRef := p }
  | .setRotation R => { g with RRef := R }
  | .setOrientation q => { g with RRef := quatMatrix (quatNormalized q) }
  | .load _ P file term =>
    { eeInd := ((file.walk [term, "weights", "eeId"]).bind fun c => P.nat c.data).getD 0
      Qpos := CostLoad.loadMatrixCF P.toParse file "Q_pos" 3 3 term
      Qrot := CostLoad.getNumD P.toParse file [term, "weights", "Q_rot"] 0
      pRef := CostLoad.loadVectorCF P.toParse file "x_des" 3 term
      RRef := rotXYZ (CostLoad.loadVectorCF P.toParse file "eulerXyz_des" 3 term) }
  | _ => g

/-- The file has the three scalar entries, and names one of the first `m` end effectors. -/
def FileOk (m : ℕ) (P : Parse) (file : CostLoad.Tree) (term : String) : Prop :=
  (∃ ee < m, ((file.walk [term, "weights", "eeId"]).bind fun c => P.nat c.data) = some ee)
  ∧ (∃ r, ((file.walk [term, "weights", "Q_rot"]).bind fun c => P.num c.data) = some r)
  ∧ ∃ b, ((file.walk [term, "weights", "evalControlDerivatives"]).bind fun c => P.bool c.data) = some b

/-- Files that are loaded are in order; other calls are not restricted. -/
def OpOk (m : ℕ) : Op S C → Prop
  | .load _ P file term => FileOk m P file term
  | _ => True

/-- A call of a constructor and the goal it stands for. -/
inductive Constructed (e : Env S C) (m : ℕ) : Res (Term S C) → PoseTerm → Prop
  | quaternion {ee : ℕ} (h : ee < m) (w : Hists) (junk) (Qpos : M3) (Qrot : ℝ) (p : V3) (q : Q4) (b : Bool) :
    Constructed e m (Term.new e w junk ee Qpos Qrot p q b) ⟨ee, Qpos, Qrot, p, quatMatrix (quatNormalized q)⟩
  | euler {ee : ℕ} (h : ee < m) (w : Hists) (junk) (Qpos : M3) (Qrot : ℝ) (p : V3) (a : M3) (b : Bool) :
    Constructed e m (Term.newEuler e w junk ee Qpos Qrot p a b) ⟨ee, Qpos, Qrot, p, rotXYZ fun i => a i 0⟩
  | dummy {ee : ℕ} (h : ee < m) (w : Hists) (junk) (Qpos : M3) (Qrot : ℝ) (b : Bool) :
    Constructed e m (Term.newDummy e w junk ee Qpos Qrot b) ⟨ee, Qpos, Qrot, 0, !![-1, 0, 0; 0, -1, 0; 0, 0, 1]⟩
  | file {P : Parse} {file : CostLoad.Tree} {term : String} (h : FileOk m P file term) (w : Hists) (junk) (g : PoseTerm) :
    Constructed e m (Term.fromFile e w junk P file term) (aim (S := S) (C := C) g (.load w P file term))

/-- Right dimensions of the state: that of the robot. -/
def DimOk (e : Env S C) : Prop := S = if e.FB then 2 * (e.d.njoints + 6) else 2 * e.d.njoints

/-! ### Segments of the parameter vector -/

theorem put_at {k N : ℕ} (p : Fin N → ℝ) {f : Fin k → Fin N} (hf : Function.Injective f) (v : Fin k → ℝ) (i : Fin k) :
    put p f v (f i) = v i := by
  have h : ∃ a, f a = f i := ⟨i, rfl⟩
  simp only [put, h, dif_pos]
  rw [hf h.choose_spec]

theorem put_ne {k N : ℕ} (p : Fin N → ℝ) {f : Fin k → Fin N} (v : Fin k → ℝ) {j : Fin N} (h : ∀ i, f i ≠ j) : put p f v j = p j := by
  simp only [put]
  rw [dif_neg]
  rintro ⟨i, hi⟩
  exact h i hi

theorem px_inj : Function.Injective (px : Fin S → Fin (Dim S C)) := fun a b h => Fin.ext (by simpa [px] using h)
theorem pu_inj : Function.Injective (pu : Fin C → Fin (Dim S C)) := fun a b h => Fin.ext (by simpa [pu] using h)
theorem pp_inj : Function.Injective (pp : Fin 3 → Fin (Dim S C)) := fun a b h => Fin.ext (by simpa [pp] using h)
theorem pr_inj : Function.Injective (pr : Fin 9 → Fin (Dim S C)) := fun a b h => Fin.ext (by simpa [pr] using h)
theorem pt_inj : Function.Injective (fun _ : Fin 1 => (pt : Fin (Dim S C))) := fun a b _ => Subsingleton.elim a b

theorem ne_of_val {N : ℕ} {a b : Fin N} (h : a.1 ≠ b.1) : a ≠ b := fun k => h (congrArg Fin.val k)

/-- The parameter vector with another state, control and time. -/
noncomputable def at' (p : Fin (Dim S C) → ℝ) (x : Fin S → ℝ) (u : Fin C → ℝ) (t : ℝ) : Fin (Dim S C) → ℝ :=
  put (put (put p px x) pu u) (fun _ : Fin 1 => pt) fun _ => t

theorem at_px (p : Fin (Dim S C) → ℝ) (x : Fin S → ℝ) (u : Fin C → ℝ) (t : ℝ) (i : Fin S) : at' p x u t (px i) = x i := by
  rw [at', put_ne, put_ne, put_at _ px_inj]
  · exact fun j => ne_of_val (by simp [px, pu]; omega)
  · exact fun j => ne_of_val (by simp only [px, pt, Dim]; omega)

theorem at_pp (p : Fin (Dim S C) → ℝ) (x : Fin S → ℝ) (u : Fin C → ℝ) (t : ℝ) (i : Fin 3) : at' p x u t (pp i) = p (pp i) := by
  rw [at', put_ne, put_ne, put_ne]
  · exact fun j => ne_of_val (by simp [px, pp]; omega)
  · exact fun j => ne_of_val (by simp [pu, pp]; omega)
  · exact fun j => ne_of_val (by simp only [pp, pt, Dim]; omega)

theorem at_pr (p : Fin (Dim S C) → ℝ) (x : Fin S → ℝ) (u : Fin C → ℝ) (t : ℝ) (i : Fin 9) : at' p x u t (pr i) = p (pr i) := by
  rw [at', put_ne, put_ne, put_ne]
  · exact fun j => ne_of_val (by simp [px, pr]; omega)
  · exact fun j => ne_of_val (by simp [pu, pr]; omega)
  · exact fun j => ne_of_val (by simp only [pr, pt, Dim]; omega)

theorem state_at (p : Fin (Dim S C) → ℝ) (x : Fin S → ℝ) (u : Fin C → ℝ) (t : ℝ) : stateOf (at' p x u t) = x :=
  funext fun i => at_px p x u t i
theorem pos_at (p : Fin (Dim S C) → ℝ) (x : Fin S → ℝ) (u : Fin C → ℝ) (t : ℝ) : posOf (at' p x u t) = posOf p :=
  funext fun i => at_pp p x u t i
theorem rot_at (p : Fin (Dim S C) → ℝ) (x : Fin S → ℝ) (u : Fin C → ℝ) (t : ℝ) : rotOf (at' p x u t) = rotOf p := by
  ext i j
  exact at_pr p x u t _

theorem pos_setPos (p : Fin (Dim S C) → ℝ) (v : V3) : posOf (put p pp v) = v := funext fun i => put_at p pp_inj v i
theorem rot_setPos (p : Fin (Dim S C) → ℝ) (v : V3) : rotOf (put p pp v) = rotOf p := by
  ext i j
  exact put_ne _ _ fun j => ne_of_val (by simp [pp, pr]; omega)
theorem pos_setRot (p : Fin (Dim S C) → ℝ) (v : Fin 9 → ℝ) : posOf (put p pr v) = posOf p :=
  funext fun i => put_ne _ _ fun j => ne_of_val (by simp [pp, pr]; omega)
theorem rot_setRot (p : Fin (Dim S C) → ℝ) (R : M3) :
    rotOf (put p pr fun k => R ⟨k % 3, by omega⟩ ⟨k / 3, by omega⟩) = R := by
  ext i j
  simp only [rotOf, Matrix.of_apply]
  rw [put_at _ pr_inj]
  fin_cases i <;> fin_cases j <;> rfl

/-! ### Recording -/

theorem evalLocal_eq {e : Env S C} (hd : DimOk e) (ee : ℕ) (Qpos : M3) (Qrot : ℝ) (h : Hists) (p : Fin (Dim S C) → ℝ) :
    evalLocal e.d e.kd (baseState e.kd e.d.njoints e.FB) ee Qpos Qrot h p
      = PoseTerm.evaluate ⟨ee, Qpos, Qrot, posOf p, rotOf p⟩ e.kd e.d e.FB h (List.ofFn (stateOf p)) := by
  have : baseState e.kd e.d.njoints e.FB (List.ofFn (stateOf p)) = .ok (stateFrom e.kd e.d.njoints e.FB (List.ofFn (stateOf p))) := by
    rw [baseState, if_pos]
    rw [List.length_ofFn]
    exact hd
  simp only [evalLocal, this, Res.ok_bind]
  rfl

theorem getD_smooth (i : ℕ) : ContDiff ℝ 2 fun p : Fin (Dim S C) → ℝ => (List.ofFn (stateOf p)).getD i 0 := by
  by_cases h : i < S
  · have : (fun p : Fin (Dim S C) → ℝ => (List.ofFn (stateOf p)).getD i 0) = fun p => p (px ⟨i, h⟩) := by
      funext p
      simp [List.getD_eq_getElem?_getD, List.getElem?_ofFn, h, stateOf]
    rw [this]
    exact contDiff_apply ℝ ℝ _
  · have : (fun p : Fin (Dim S C) → ℝ => (List.ofFn (stateOf p)).getD i 0) = fun _ => 0 := by
      funext p
      simp [List.getD_eq_getElem?_getD, List.getElem?_ofFn, h]
    rw [this]
    exact contDiff_const

/-- The compiled function `F` is the cost of goal `g`, as a function of all parameters, and smooth. -/
structure Holds (e : Env S C) (g : PoseTerm) (j : Jit (Dim S C)) (F : Fun (Dim S C)) : Prop where
  model : j.model = some (F, settings)
  out : j.outputDim = 1
  k : F.k = 1
  smooth : ContDiff ℝ 2 fun p => F.f p 0
  value : ∀ p h, PoseTerm.evaluate ⟨g.eeInd, g.Qpos, g.Qrot, posOf p, rotOf p⟩ e.kd e.d e.FB h (List.ofFn (stateOf p)) = .ok (F.f p 0)

theorem Holds.copy {e : Env S C} {g : PoseTerm} {j : Jit (Dim S C)} {F : Fun (Dim S C)} (h : Holds e g j F) : Holds e g j.copy F :=
  ⟨h.model, h.out, h.k, h.smooth, h.value⟩

theorem Holds.congr {e : Env S C} {g g' : PoseTerm} {j : Jit (Dim S C)} {F : Fun (Dim S C)} (h : Holds e g j F)
    (h1 : g'.eeInd = g.eeInd) (h2 : g'.Qpos = g.Qpos) (h3 : g'.Qrot = g.Qrot) : Holds e g' j F :=
  ⟨h.model, h.out, h.k, h.smooth, by rw [h1, h2, h3]; exact h.value⟩

/-- `setup` compiles the cost. -/
theorem setup_ok {e : Env S C} (hd : DimOk e) {m : ℕ} (hm : EEsSmooth e.d m) (T : Term S C) (hT : T.eeInd < m) (h : Hists) :
    ∃ j F, T.setup e (baseState e.kd e.d.njoints e.FB) h = .ok { T with jit := some j }
      ∧ Holds e ⟨T.eeInd, T.Qpos, T.Qrot, 0, 0⟩ j F := by
  obtain ⟨v, hv, he⟩ := pose_smooth (hm _ hT) T.Qpos T.Qrot e.kd e.FB (x := fun p : Fin (Dim S C) → ℝ => List.ofFn (stateOf p))
    (r := posOf) (R := rotOf) getD_smooth (fun i => contDiff_apply ℝ ℝ _) (fun i j => contDiff_apply ℝ ℝ _)
  have hr : record (evalLocal e.d e.kd (baseState e.kd e.d.njoints e.FB) T.eeInd T.Qpos T.Qrot h)
      = .ok (⟨1, fun p _ => v p⟩ : Fun (Dim S C)) := by
    simp only [record, evalLocal_eq hd, he]
  refine ⟨⟨1, some ⟨1, fun p _ => v p⟩, some (⟨1, fun p _ => v p⟩, settings), [], []⟩, ⟨1, fun p _ => v p⟩, ?_,
    ⟨rfl, rfl, rfl, hv, he⟩⟩
  simp [Term.setup, hr, Res.ok_bind, Jit.new, Jit.update, Jit.compile, settings, Res.pure_eq]

/-- What holds between calls. -/
structure Inv (e : Env S C) (m : ℕ) (T : Term S C) (g : PoseTerm) : Prop where
  ee : T.eeInd = g.eeInd
  qp : T.Qpos = g.Qpos
  qr : T.Qrot = g.Qrot
  lt : g.eeInd < m
  pos : posOf T.par = g.pRef
  rot : rotOf T.par = g.RRef
  jit : ∃ j F, T.jit = some j ∧ Holds e g j F

theorem setup_inv {e : Env S C} (hd : DimOk e) {m : ℕ} (hm : EEsSmooth e.d m) (T : Term S C) (hT : T.eeInd < m) (h : Hists) :
    ∃ T', T.setup e (baseState e.kd e.d.njoints e.FB) h = .ok T' ∧ T'.activation = T.activation ∧ T'.evalU = T.evalU
      ∧ Inv e m T' ⟨T.eeInd, T.Qpos, T.Qrot, posOf T.par, rotOf T.par⟩ := by
  obtain ⟨j, F, h1, h2⟩ := setup_ok hd hm T hT h
  exact ⟨_, h1, rfl, rfl, rfl, rfl, rfl, hT, rfl, rfl, j, F, rfl, h2.congr rfl rfl rfl⟩

theorem eulerQuat_rot (a : V3) : quatMatrix (quatNormalized (eulerQuat a)) = rotXYZ a := by
  have hx := axisQuat_norm (a 0) ![1, 0, 0] (by simp [dotProduct, Fin.sum_univ_three])
  have hy := axisQuat_norm (a 1) ![0, 1, 0] (by simp [dotProduct, Fin.sum_univ_three])
  have hz := axisQuat_norm (a 2) ![0, 0, 1] (by simp [dotProduct, Fin.sum_univ_three])
  have hxy := quatMul_norm (axisQuat (a 0) ![1, 0, 0]) (axisQuat (a 1) ![0, 1, 0])
  rw [hx, hy, one_mul] at hxy
  have hxyz := quatMul_norm (quatMul (axisQuat (a 0) ![1, 0, 0]) (axisQuat (a 1) ![0, 1, 0])) (axisQuat (a 2) ![0, 0, 1])
  rw [hxy, hz, one_mul] at hxyz
  rw [← eulerQuatMatrix_eq, eulerQuatMatrix]
  have hn : ∀ q : Q4, q ⬝ᵥ q = 1 → quatNormalized q = q := fun q hq => by
    rw [quat_norm] at hq
    funext i
    fin_cases i <;> simp [quatNormalized, hq]
  rw [eulerQuat, hn _ hxyz]

theorem dummy_rot : quatMatrix (quatNormalized ![0, 0, 0, 1]) = !![-1, 0, 0; 0, -1, 0; 0, 0, 1] := by
  ext i j
  fin_cases i <;> fin_cases j <;> simp [quatMatrix, quatNormalized] <;> norm_num

/-! ### Calls -/

theorem setCurrent_inv {e : Env S C} {m : ℕ} {T : Term S C} {g : PoseTerm} (h : Inv e m T g) (x : Fin S → ℝ) (u : Fin C → ℝ) (t : ℝ) :
    Inv e m (T.setCurrent x u t) g :=
  ⟨h.ee, h.qp, h.qr, h.lt, (pos_at T.par x u t).trans h.pos, (rot_at T.par x u t).trans h.rot, h.jit⟩

theorem evaluate_holds {e : Env S C} {T : Term S C} {g : PoseTerm} {j : Jit (Dim S C)} {F : Fun (Dim S C)} (hj : T.jit = some j)
    (h : Holds e g j F) (x : Fin S → ℝ) (u : Fin C → ℝ) (t : ℝ) :
    T.evaluate x u t = .ok (F.f (at' T.par x u t) 0, T.setCurrent x u t) := by
  simp [Term.evaluate, Term.deref, Term.setCurrent, hj, Res.ok_bind, Jit.forwardZero, h.model, settings, h.k, first, Res.pure_eq, at']

theorem jacTot_holds {e : Env S C} {T : Term S C} {g : PoseTerm} {j : Jit (Dim S C)} {F : Fun (Dim S C)} (hj : T.jit = some j)
    (h : Holds e g j F) (x : Fin S → ℝ) (u : Fin C → ℝ) (t : ℝ) :
    T.jacTot e x u t = .ok (fun c => e.ad.jac F (at' T.par x u t) (0 * Dim S C + c), T.setCurrent x u t) := by
  simp [Term.jacTot, Term.deref, Term.setCurrent, hj, Res.ok_bind, Jit.jacobian, h.model, h.out, settings, h.k, first, Res.pure_eq, at']

theorem hesTot_holds {e : Env S C} {T : Term S C} {g : PoseTerm} {j : Jit (Dim S C)} {F : Fun (Dim S C)} (hj : T.jit = some j)
    (h : Holds e g j F) (x : Fin S → ℝ) (u : Fin C → ℝ) (t : ℝ) :
    T.hesTot e x u t = .ok (fun r c => e.ad.hess F (at' T.par x u t) (fun _ => 1) (r * Dim S C + c), T.setCurrent x u t) := by
  simp [Term.hesTot, Term.deref, Term.setCurrent, hj, Res.ok_bind, Jit.hessian, h.model, h.out, settings, Res.pure_eq, at']

theorem getBy_ok {α : Type} {f : String → Option α} {t : CostLoad.Tree} {path : List String} {v : α}
    (h : ((t.walk path).bind fun c => f c.data) = some v) : getBy f t path = .ok v := by
  simp [getBy, h]

theorem getNum_ok {P : CostLoad.Parse} {t : CostLoad.Tree} {path : List String} {v : ℝ}
    (h : ((t.walk path).bind fun c => P.num c.data) = some v) :
    CostLoad.getNum P t path = .ok v ∧ CostLoad.getNumD P t path 0 = v := by
  simp [CostLoad.getNum, CostLoad.getNumD, h]

theorem load_ok {e : Env S C} (hd : DimOk e) {m : ℕ} (hm : EEsSmooth e.d m) (T : Term S C) (g : PoseTerm) (h : Hists) {P : Parse}
    {file : CostLoad.Tree} {term : String} (hf : FileOk m P file term) :
    ∃ T', T.load e (baseState e.kd e.d.njoints e.FB) h P file term = (T', .ok ()) ∧ T'.activation = T.activation
      ∧ Inv e m T' (aim (S := S) (C := C) g (.load h P file term)) := by
  obtain ⟨⟨ee, hlt, he⟩, ⟨r, hr⟩, b, hb⟩ := hf
  obtain ⟨r1, r2⟩ := getNum_ok hr
  obtain ⟨T', k1, k2, -, k3⟩ := setup_inv hd hm
    ((({ T with eeInd := ee, Qrot := r, Qpos := CostLoad.loadMatrixCF P.toParse file "Q_pos" 3 3 term, evalU := b } : Term S C).setReferencePosition
      (CostLoad.loadVectorCF P.toParse file "x_des" 3 term)).setReferenceOrientation
        (eulerQuat (CostLoad.loadVectorCF P.toParse file "eulerXyz_des" 3 term))) hlt h
  refine ⟨T', ?_, k2, ?_⟩
  · simp only [Term.load, getBy_ok he, CostLoad.loadScalarCF, r1, getBy_ok hb]
    have k1' := k1
    simp only [Term.setReferencePosition, Term.setReferenceOrientation, Term.setReferenceRotation] at k1' ⊢
    rw [k1']
  · simp only [Term.setReferencePosition, Term.setReferenceOrientation, Term.setReferenceRotation, pos_setRot, pos_setPos,
      rot_setRot, eulerQuat_rot] at k3
    simpa only [aim, he, r2, Option.getD_some] using k3

theorem pos_ref (T : Term S C) (R : M3) : posOf (T.setReferenceRotation R).par = posOf T.par := by
  simp only [Term.setReferenceRotation, pos_setRot]

theorem step_inv {e : Env S C} (hsv : e.sv = baseState e.kd e.d.njoints e.FB) (hd : DimOk e) {m : ℕ} (hm : EEsSmooth e.d m)
    {T : Term S C} {g : PoseTerm} (h : Inv e m T g) {o : Op S C} (ho : OpOk m o) :
    ∃ T', T.step e o = .ok T' ∧ Inv e m T' (aim g o) := by
  obtain ⟨j, F, hj, hF⟩ := h.jit
  cases o with
  | setPosition p =>
    exact ⟨_, rfl, h.ee, h.qp, h.qr, h.lt, pos_setPos _ _, (rot_setPos _ _).trans h.rot, j, F, hj, hF.congr rfl rfl rfl⟩
  | setRotation R =>
    exact ⟨_, rfl, h.ee, h.qp, h.qr, h.lt, (pos_ref T _).trans h.pos, rot_setRot _ _, j, F, hj, hF.congr rfl rfl rfl⟩
  | setOrientation q =>
    exact ⟨_, rfl, h.ee, h.qp, h.qr, h.lt, (pos_ref T _).trans h.pos, rot_setRot _ _, j, F, hj, hF.congr rfl rfl rfl⟩
  | evaluate x u t =>
    exact ⟨T.setCurrent x u t, by simp [Term.step, evaluate_holds hj hF, Res.ok_bind, Res.pure_eq], setCurrent_inv h x u t⟩
  | stateDerivative x u t =>
    exact ⟨T.setCurrent x u t, by simp [Term.step, Term.stateDerivative, jacTot_holds hj hF, Res.ok_bind, Res.pure_eq],
      setCurrent_inv h x u t⟩
  | stateSecondDerivative x u t =>
    exact ⟨T.setCurrent x u t, by simp [Term.step, Term.stateSecondDerivative, hesTot_holds hj hF, Res.ok_bind, Res.pure_eq],
      setCurrent_inv h x u t⟩
  | controlDerivative x u t =>
    cases hb : T.evalU
    · exact ⟨T, by simp [Term.step, Term.controlDerivative, hb, Res.ok_bind, Res.pure_eq], h⟩
    · exact ⟨T.setCurrent x u t, by simp [Term.step, Term.controlDerivative, hb, jacTot_holds hj hF, Res.ok_bind, Res.pure_eq],
        setCurrent_inv h x u t⟩
  | controlSecondDerivative x u t =>
    cases hb : T.evalU
    · exact ⟨T, by simp [Term.step, Term.controlSecondDerivative, hb, Res.ok_bind, Res.pure_eq], h⟩
    · exact ⟨T.setCurrent x u t, by simp [Term.step, Term.controlSecondDerivative, hb, hesTot_holds hj hF, Res.ok_bind, Res.pure_eq],
        setCurrent_inv h x u t⟩
  | stateControlDerivative x u t =>
    cases hb : T.evalU
    · exact ⟨T, by simp [Term.step, Term.stateControlDerivative, hb, Res.ok_bind, Res.pure_eq], h⟩
    · exact ⟨T.setCurrent x u t, by simp [Term.step, Term.stateControlDerivative, hb, hesTot_holds hj hF, Res.ok_bind, Res.pure_eq],
        setCurrent_inv h x u t⟩
  | setActivation a => exact ⟨_, rfl, h.ee, h.qp, h.qr, h.lt, h.pos, h.rot, h.jit⟩
  | clone =>
    refine ⟨{ T with jit := some j.copy }, by simp [Term.step, Term.clone, hj], h.ee, h.qp, h.qr, h.lt, h.pos, h.rot, j.copy, F, rfl, hF.copy⟩
  | setup w =>
    obtain ⟨T', k1, -, -, k3⟩ := setup_inv hd hm T (h.ee ▸ h.lt) w
    refine ⟨T', by simp [Term.step, hsv, k1], ?_⟩
    rw [h.ee, h.qp, h.qr, h.pos, h.rot] at k3
    exact k3
  | load w P file term =>
    obtain ⟨T', k1, -, k3⟩ := load_ok hd hm T g w ho
    exact ⟨T', by simp [Term.step, hsv, k1], k3⟩

theorem run_inv {e : Env S C} (hsv : e.sv = baseState e.kd e.d.njoints e.FB) (hd : DimOk e) {m : ℕ} (hm : EEsSmooth e.d m)
    (ops : List (Op S C)) (ho : ∀ o ∈ ops, OpOk m o) {T : Term S C} {g : PoseTerm} (h : Inv e m T g) :
    ∃ T', T.run e ops = .ok T' ∧ Inv e m T' (ops.foldl aim g) := by
  induction ops generalizing T g with
  | nil => exact ⟨T, rfl, h⟩
  | cons o ops ih =>
    obtain ⟨T1, k1, k2⟩ := step_inv hsv hd hm h (ho o (by simp))
    obtain ⟨T2, k3, k4⟩ := ih (fun o' h' => ho o' (by simp [h'])) k2
    exact ⟨T2, by simpa [Term.run, List.foldlM_cons, k1, Res.ok_bind] using k3, k4⟩

theorem constructed_inv {e : Env S C} (hd : DimOk e) {m : ℕ} (hm : EEsSmooth e.d m) {r : Res (Term S C)} {g : PoseTerm}
    (h : Constructed e m r g) : ∃ T, r = .ok T ∧ T.activation = (fun _ => 1) ∧ Inv e m T g := by
  have new_ok : ∀ {ee : ℕ} (h : ee < m) (w : Hists) (junk) (Qpos : M3) (Qrot : ℝ) (p : V3) (q : Q4) (b : Bool),
      ∃ T, Term.new e w junk ee Qpos Qrot p q b = .ok T ∧ T.activation = (fun _ => 1)
        ∧ Inv e m T ⟨ee, Qpos, Qrot, p, quatMatrix (quatNormalized q)⟩ := fun h w junk Qpos Qrot p q b => by
    obtain ⟨T', k1, k2, -, k3⟩ := setup_inv hd hm
      (((⟨_, Qpos, Qrot, none, junk, b, fun _ => 1⟩ : Term S C).setReferencePosition p).setReferenceOrientation q) h w
    refine ⟨T', k1, k2, ?_⟩
    simpa only [Term.setReferencePosition, Term.setReferenceOrientation, Term.setReferenceRotation, pos_setRot, pos_setPos,
      rot_setRot] using k3
  cases h with
  | quaternion h w junk Qpos Qrot p q b => exact new_ok h w junk Qpos Qrot p q b
  | euler h w junk Qpos Qrot p a b =>
    have := new_ok h w junk Qpos Qrot p (eulerQuat fun i => a i 0) b
    rwa [eulerQuat_rot] at this
  | dummy h w junk Qpos Qrot b =>
    obtain ⟨T', k1, k2, -, k3⟩ := setup_inv hd hm
      (((⟨_, Qpos, Qrot, none, junk, b, fun _ => 1⟩ : Term S C).setReferenceOrientation ![0, 0, 0, 1]).setReferencePosition 0) h w
    refine ⟨T', k1, k2, ?_⟩
    simpa only [Term.setReferencePosition, Term.setReferenceOrientation, Term.setReferenceRotation, rot_setPos, pos_setPos,
      rot_setRot, dummy_rot] using k3
  | @file P file term hf w junk g' =>
    obtain ⟨T', k1, k2, k3⟩ := load_ok hd hm (Term.default junk) g' w hf
    exact ⟨T', by simp [Term.fromFile, k1], k2, k3⟩

/-! ### Derivatives along a segment of the parameters -/

/-- `v ↦ put 0 f v`. -/
noncomputable def emb {k N : ℕ} (f : Fin k → Fin N) (hf : Function.Injective f) : (Fin k → ℝ) →L[ℝ] (Fin N → ℝ) :=
  LinearMap.toContinuousLinearMap
    { toFun := fun v => put 0 f v
      map_add' := fun a b => by
        funext j
        by_cases h : ∃ i, f i = j
        · obtain ⟨i, rfl⟩ := h
          simp [put_at _ hf]
        · rw [Pi.add_apply, put_ne, put_ne, put_ne] <;> first | exact fun i hi => h ⟨i, hi⟩ | simp
      map_smul' := fun a b => by
        funext j
        by_cases h : ∃ i, f i = j
        · obtain ⟨i, rfl⟩ := h
          simp [put_at _ hf]
        · rw [Pi.smul_apply, put_ne, put_ne] <;> first | exact fun i hi => h ⟨i, hi⟩ | simp }

theorem isGrad_put {k N : ℕ} {Φ : (Fin N → ℝ) → ℝ} {g p : Fin N → ℝ} {f : Fin k → Fin N} (hf : Function.Injective f) {y : Fin k → ℝ}
    (h : IsGrad Φ g (put p f y)) : IsGrad (fun z => Φ (put p f z)) (fun i => g (f i)) y := by
  have e : (fun z => put p f z) = fun z => emb f hf z + put p f 0 := by
    funext z j
    by_cases h : ∃ i, f i = j
    · obtain ⟨i, rfl⟩ := h
      simp [put_at _ hf, emb]
    · have h' : ∀ i, f i ≠ j := fun i hi => h ⟨i, hi⟩
      simp [emb, put_ne _ _ h']
  have hd : HasFDerivAt (fun z => put p f z) (emb f hf) y := by
    rw [e]
    exact (ContinuousLinearMap.hasFDerivAt _).add_const _
  have h' : HasFDerivAt Φ (gradMap g) ((fun z => put p f z) y) := h
  refine (h'.comp y hd).congr_fderiv ?_
  ext v
  simp only [ContinuousLinearMap.comp_apply, gradMap_apply, dotProduct, emb, LinearMap.coe_toContinuousLinearMap',
    LinearMap.coe_mk, AddHom.coe_mk]
  rw [← Finset.sum_subset (Finset.subset_univ (Finset.univ.image f))]
  · rw [Finset.sum_image fun a _ b _ h => hf h]
    simp [put_at _ hf]
  · intro j _ hj
    rw [put_ne]
    · simp
    · exact fun i hi => hj (Finset.mem_image.2 ⟨i, Finset.mem_univ _, hi⟩)

theorem isJac_put {k l N : ℕ} {G : (Fin N → ℝ) → Fin l → ℝ} {A : Matrix (Fin l) (Fin N) ℝ} {p : Fin N → ℝ} {f : Fin k → Fin N}
    (hf : Function.Injective f) {y : Fin k → ℝ} (h : IsJac G A (put p f y)) :
    IsJac (fun z => G (put p f z)) (Matrix.of fun i j => A i (f j)) y :=
  isJac_rows.2 fun i => isGrad_put hf (isJac_rows.1 h i)

theorem put_comm {k l N : ℕ} (p : Fin N → ℝ) {f : Fin k → Fin N} {g : Fin l → Fin N} (hf : Function.Injective f)
    (hg : Function.Injective g) (h : ∀ i j, f i ≠ g j) (v : Fin k → ℝ) (w : Fin l → ℝ) :
    put (put p f v) g w = put (put p g w) f v := by
  funext j
  by_cases h1 : ∃ i, f i = j
  · obtain ⟨i, rfl⟩ := h1
    rw [put_at _ hf, put_ne _ _ fun a => (h i a).symm, put_at _ hf]
  · have h1' : ∀ i, f i ≠ j := fun i hi => h1 ⟨i, hi⟩
    rw [put_ne (put p g w) v h1']
    by_cases h2 : ∃ i, g i = j
    · obtain ⟨i, rfl⟩ := h2
      rw [put_at _ hg, put_at _ hg]
    · have h2' : ∀ i, g i ≠ j := fun i hi => h2 ⟨i, hi⟩
      rw [put_ne _ _ h2', put_ne _ _ h1', put_ne _ _ h2']

theorem at_x (p : Fin (Dim S C) → ℝ) (x : Fin S → ℝ) (u : Fin C → ℝ) (t : ℝ) :
    at' p x u t = put (put (put p pu u) (fun _ : Fin 1 => pt) fun _ => t) px x := by
  rw [at', put_comm p px_inj pu_inj (fun i j => ne_of_val (by simp [px, pu]; omega)),
    put_comm _ px_inj pt_inj (fun i j => ne_of_val (by simp only [px, pt, Dim]; omega))]

theorem at_u (p : Fin (Dim S C) → ℝ) (x : Fin S → ℝ) (u : Fin C → ℝ) (t : ℝ) :
    at' p x u t = put (put (put p px x) (fun _ : Fin 1 => pt) fun _ => t) pu u := by
  rw [at', put_comm _ pu_inj pt_inj (fun i j => ne_of_val (by simp only [pu, pt, Dim]; omega))]

/-! ### C187 -/

/-- C187, values: whatever constructor was used (quaternion, Euler angles, no target, file), whatever was called since
(references set, evaluations of every kind, copies, `setup`, files loaded), no call fails, the value is the cost of
`TermTaskspacePose` for the same weights and the references given last, `eval` multiplies it with the activation, and the
getters return these references. -/
theorem C187_value {e : Env S C} (hsv : e.sv = baseState e.kd e.d.njoints e.FB) (hd : DimOk e) {m : ℕ} (hm : EEsSmooth e.d m)
    {r : Res (Term S C)} {g : PoseTerm} (hc : Constructed e m r g) (ops : List (Op S C)) (ho : ∀ o ∈ ops, OpOk m o) :
    ∃ T0 T, r = .ok T0 ∧ T0.run e ops = .ok T ∧ T.getReferencePosition = (ops.foldl aim g).pRef
      ∧ (∀ er, T.getReferenceOrientation er = er.toQuat (ops.foldl aim g).RRef)
      ∧ ∀ x u t, ∃ v T', T.evaluate x u t = .ok (v, T') ∧ T.eval x u t = .ok (T.activation t * v, T')
        ∧ ∀ h, (ops.foldl aim g).evaluate e.kd e.d e.FB h (List.ofFn x) = .ok v := by
  obtain ⟨T0, k1, -, k2⟩ := constructed_inv hd hm hc
  obtain ⟨T, k3, k4⟩ := run_inv hsv hd hm ops ho k2
  obtain ⟨j, F, hj, hF⟩ := k4.jit
  refine ⟨T0, T, k1, k3, k4.pos, fun er => by rw [Term.getReferenceOrientation, k4.rot], fun x u t => ?_⟩
  refine ⟨_, _, evaluate_holds hj hF x u t, by rw [Term.eval, evaluate_holds hj hF x u t]; rfl, fun h => ?_⟩
  have := hF.value (at' T.par x u t) h
  rwa [pos_at, rot_at, state_at, k4.pos, k4.rot] at this

/-- C187, derivatives: under the same conditions, if the generated code returns derivatives, the derivatives returned with
respect to the state are gradient and Hessian of the value, and those with respect to the control, including the mixed ones,
are zero, as they are for a cost that depends on the state alone, whether or not their evaluation was asked for. -/
theorem C187_derivatives {e : Env S C} (hf : e.ad.Faithful) (hsv : e.sv = baseState e.kd e.d.njoints e.FB) (hd : DimOk e) {m : ℕ}
    (hm : EEsSmooth e.d m) {r : Res (Term S C)} {g : PoseTerm} (hc : Constructed e m r g) (ops : List (Op S C))
    (ho : ∀ o ∈ ops, OpOk m o) :
    ∃ T0 T, r = .ok T0 ∧ T0.run e ops = .ok T ∧ ∃ τ : Cost.Term S C, Exact τ ∧ ∀ x u t,
      (∃ T', T.evaluate x u t = .ok (τ.value x u t, T')) ∧ (∃ T', T.stateDerivative e x u t = .ok (τ.gradX x u t, T'))
      ∧ (∃ T', T.controlDerivative e x u t = .ok (τ.gradU x u t, T'))
      ∧ (∃ T', T.stateSecondDerivative e x u t = .ok (τ.hessX x u t, T'))
      ∧ (∃ T', T.controlSecondDerivative e x u t = .ok (τ.hessU x u t, T'))
      ∧ (∃ T', T.stateControlDerivative e x u t = .ok (τ.cross x u t, T'))
      ∧ τ.gradU x u t = 0 ∧ τ.hessU x u t = 0 ∧ τ.cross x u t = 0 := by
  obtain ⟨T0, k1, -, k2⟩ := constructed_inv hd hm hc
  obtain ⟨T, k3, k4⟩ := run_inv hsv hd hm ops ho k2
  obtain ⟨j, F, hj, hF⟩ := k4.jit
  obtain ⟨G, H, hG, hH⟩ := exists_hessian hF.smooth
  -- the value does not depend on control and time
  have hval : ∀ x u u' t, F.f (at' T.par x u t) 0 = F.f (at' T.par x u' t) 0 := fun x u u' t => by
    have a := hF.value (at' T.par x u t) ⟨⟨0, []⟩, ⟨0, []⟩⟩
    have b := hF.value (at' T.par x u' t) ⟨⟨0, []⟩, ⟨0, []⟩⟩
    rw [pos_at, rot_at, state_at] at a b
    exact Res.ok.inj (a.symm.trans b)
  have gx : ∀ x u t, IsGrad (fun y => F.f (at' T.par y u t) 0) (fun i => G (at' T.par x u t) (px i)) x := fun x u t => by
    have := hG (at' T.par x u t)
    rw [at_x] at this
    simp only [at_x]
    exact isGrad_put px_inj this
  have gu : ∀ x u t, (fun i => G (at' T.par x u t) (pu i)) = 0 := fun x u t => by
    have := hG (at' T.par x u t)
    rw [at_u] at this
    have h1 := isGrad_put pu_inj this
    simp only [← at_u] at h1
    have h2 : IsGrad (fun v => F.f (at' T.par x v t) 0) 0 u := by
      rw [show (fun v => F.f (at' T.par x v t) 0) = fun _ => F.f (at' T.par x u t) 0 from funext fun v => hval x v u t]
      exact isGrad_const _ _
    exact isGrad_unique h1 h2
  have hx : ∀ x u t, IsJac (fun y i => G (at' T.par y u t) (px i))
      (Matrix.of fun i j => H (at' T.par x u t) (px i) (px j)) x := fun x u t => by
    have := hH (at' T.par x u t)
    rw [at_x] at this
    have h1 := isJac_put px_inj this
    simp only [← at_x] at h1
    exact isJac_rows.2 fun i => isJac_rows.1 h1 (px i)
  have hu : ∀ x u t (i j : Fin C), H (at' T.par x u t) (pu i) (pu j) = 0 := fun x u t i j => by
    have := hH (at' T.par x u t)
    rw [at_u] at this
    have h1 := isJac_rows.1 (isJac_put pu_inj this) (pu i)
    simp only [← at_u] at h1
    have h2 : IsGrad (fun v => G (at' T.par x v t) (pu i)) 0 u := by
      rw [show (fun v => G (at' T.par x v t) (pu i)) = fun _ => 0 from funext fun v => congrFun (gu x v t) i]
      exact isGrad_const _ _
    exact congrFun (isGrad_unique h1 h2) j
  have hux : ∀ x u t (i : Fin C) (j : Fin S), H (at' T.par x u t) (pu i) (px j) = 0 := fun x u t i j => by
    have := hH (at' T.par x u t)
    rw [at_x] at this
    have h1 := isJac_rows.1 (isJac_put px_inj this) (pu i)
    simp only [← at_x] at h1
    have h2 : IsGrad (fun y => G (at' T.par y u t) (pu i)) 0 x := by
      rw [show (fun y => G (at' T.par y u t) (pu i)) = fun _ => 0 from funext fun y => congrFun (gu y u t) i]
      exact isGrad_const _ _
    exact congrFun (isGrad_unique h1 h2) j
  have gxu : ∀ x u u' t, (fun i => G (at' T.par x u t) (px i)) = fun i => G (at' T.par x u' t) (px i) := fun x u u' t => by
    have h1 := gx x u t
    rw [show (fun y => F.f (at' T.par y u t) 0) = fun y => F.f (at' T.par y u' t) 0 from funext fun y => hval y u u' t] at h1
    exact isGrad_unique h1 (gx x u' t)
  have hj1 : ∀ p (c : Fin (Dim S C)), e.ad.jac F p (0 * Dim S C + c) = G p c := fun p c =>
    hf.jac F p 0 (by rw [hF.k]; exact Nat.one_pos) (G p) (hG p) c
  have hh1 : ∀ p (a c : Fin (Dim S C)), e.ad.hess F p (fun _ => 1) (a * Dim S C + c) = H p a c := fun p a c => by
    refine hf.hess F p (fun _ => 1) G (H p) (fun y => ?_) (hH p) a c
    have : (fun z => ∑ i ∈ Finset.range F.k, 1 * F.f z i) = fun q => F.f q 0 := by
      funext z
      simp [hF.k]
    rw [this]
    exact hG y
  refine ⟨T0, T, k1, k3, ⟨fun x u t => F.f (at' T.par x u t) 0, fun x u t i => G (at' T.par x u t) (px i),
    fun x u t => Matrix.of fun i j => H (at' T.par x u t) (px i) (px j), fun _ _ _ => 0, fun _ _ _ => 0,
    fun _ _ _ => 0, fun _ => true, fun _ => 1⟩, ⟨gx, ?_, hx, ?_, ?_, ?_⟩, fun x u t => ⟨⟨_, evaluate_holds hj hF x u t⟩, ?_, ?_, ?_, ?_, ?_, rfl, rfl, rfl⟩⟩
  · intro x u t
    rw [show (fun v => F.f (at' T.par x v t) 0) = fun _ => F.f (at' T.par x u t) 0 from funext fun v => hval x v u t]
    exact isGrad_const _ _
  · exact fun x u t => isJac_const _ _
  · exact fun x u t => isJac_const _ _
  · intro x u t
    rw [Matrix.transpose_zero]
    rw [show (fun v i => G (at' T.par x v t) (px i)) = fun _ i => G (at' T.par x u t) (px i) from funext fun v => gxu x v u t]
    exact isJac_const _ _
  · exact ⟨T.setCurrent x u t, by rw [Term.stateDerivative, jacTot_holds hj hF, Res.ok_bind]; simp only [hj1, Res.pure_eq]⟩
  · cases hb : T.evalU
    · exact ⟨T, by simp [Term.controlDerivative, hb]⟩
    · refine ⟨T.setCurrent x u t, ?_⟩
      rw [Term.controlDerivative, if_pos hb, jacTot_holds hj hF, Res.ok_bind]
      simp only [hj1, Res.pure_eq, gu]
  · exact ⟨T.setCurrent x u t, by rw [Term.stateSecondDerivative, hesTot_holds hj hF, Res.ok_bind]; simp only [hh1, Res.pure_eq]⟩
  · cases hb : T.evalU
    · exact ⟨T, by simp [Term.controlSecondDerivative, hb]⟩
    · refine ⟨T.setCurrent x u t, ?_⟩
      rw [Term.controlSecondDerivative, if_pos hb, hesTot_holds hj hF, Res.ok_bind]
      simp only [hh1, Res.pure_eq, hu]
      rfl
  · cases hb : T.evalU
    · exact ⟨T, by simp [Term.stateControlDerivative, hb]⟩
    · refine ⟨T.setCurrent x u t, ?_⟩
      rw [Term.stateControlDerivative, if_pos hb, hesTot_holds hj hF, Res.ok_bind]
      simp only [hh1, Res.pure_eq, hux]
      rfl

/-- A robot, compiled code and kindr, for a state of the right dimension. -/
noncomputable def sample (S C : ℕ) (ad : AD (Dim S C)) (cv : Robot.Conv ℝ) (d : Defs) (FB : Bool) : Env S C :=
  ⟨ad, stdKindr cv, d, FB, baseState (stdKindr cv) d.njoints FB⟩

/-- The hypotheses are met by HyQ, with a floating base and the four feet as end effectors, by the arm HyA, and by faithful
generated code; the values differ from zero and depend on the reference. -/
example (cv : Robot.Conv ℝ) (w : Hists) : ∃ ad : AD (Dim 36 12), ad.Faithful ∧ DimOk (sample 36 12 ad cv Robots.HyQ.Kin.defs true)
    ∧ EEsSmooth Robots.HyQ.Kin.defs 4
    ∧ Constructed (sample 36 12 ad cv Robots.HyQ.Kin.defs true) 4
      (Term.new (sample 36 12 ad cv Robots.HyQ.Kin.defs true) w 0 3 1 1 ![1, 2, 3] ![1, 0, 0, 0] false)
      ⟨3, 1, 1, ![1, 2, 3], quatMatrix (quatNormalized ![1, 0, 0, 0])⟩
    ∧ (∀ o ∈ [Op.setPosition (S := 36) (C := 12) ![0, 1, 0], .clone, .evaluate 0 0 0], OpOk 4 o)
    ∧ ∃ ad', DimOk (sample 12 6 ad' cv Robots.HyA.Kin.defs false) ∧ EEsSmooth Robots.HyA.Kin.defs 1 := by
  obtain ⟨ad, h⟩ := exists_faithful (Dim 36 12)
  obtain ⟨ad', -⟩ := exists_faithful (Dim 12 6)
  refine ⟨ad, h, rfl, eesSmooth_HyQ, .quaternion (by decide) _ _ _ _ _ _ _, ?_, ad', rfl, eesSmooth_HyA⟩
  simp [OpOk]

/-- A file as the hypotheses ask for: three scalar entries. -/
example (P : Parse) (h1 : P.nat "0" = some 0) (h2 : P.num "1" = some 1) (h3 : P.bool "1" = some true) :
    FileOk 1 P (.node "" [("term0", .node "" [("weights", .node "" [("eeId", .node "0" []), ("Q_rot", .node "1" []),
      ("evalControlDerivatives", .node "1" [])])])]) "term0" :=
  ⟨⟨0, by decide, by simpa [CostLoad.Tree.walk, CostLoad.Tree.find, CostLoad.Tree.kids, CostLoad.Tree.data, List.lookup] using h1⟩,
   ⟨1, by simpa [CostLoad.Tree.walk, CostLoad.Tree.find, CostLoad.Tree.kids, CostLoad.Tree.data, List.lookup] using h2⟩,
   ⟨true, by simpa [CostLoad.Tree.walk, CostLoad.Tree.find, CostLoad.Tree.kids, CostLoad.Tree.data, List.lookup] using h3⟩⟩

/-! ### What the term does not do -/

/-- C187 fails for a term made by the default constructor: evaluating or copying it dereferences a null pointer. -/
theorem C187_default_violated (junk : ℕ × M3 × ℝ × (Fin (Dim S C) → ℝ) × Bool) (x : Fin S → ℝ) (u : Fin C → ℝ) (t : ℝ) :
    (Term.default junk).evaluate x u t = .ub ∧ (Term.default junk : Term S C).clone = .ub := ⟨rfl, rfl⟩

/-- C187 fails for files without an orientation: although the code means to reject them, the file is accepted, and the term
asks for the orientation of the world frame. -/
theorem C187_orientation_violated {e : Env S C} (hd : DimOk e) {m : ℕ} (hm : EEsSmooth e.d m) (T : Term S C) (w : Hists) {P : Parse}
    {file : CostLoad.Tree} {term : String} (hf : FileOk m P file term) (ht : term ≠ "")
    (hn : file.walk [term, "weights", "eulerXyz_des"] = none) :
    ∃ T', T.load e (baseState e.kd e.d.njoints e.FB) w P file term = (T', .ok ())
      ∧ ∀ er, T'.getReferenceOrientation er = er.toQuat 1 := by
  obtain ⟨T', k1, -, k3⟩ := load_ok hd hm T ⟨0, 0, 0, 0, 0⟩ w hf
  refine ⟨T', k1, fun er => ?_⟩
  have hw : ∀ (t : CostLoad.Tree) (a : List String) (k : String), t.walk a = none → t.walk (a ++ [k]) = none := by
    intro t a k
    induction a generalizing t with
    | nil => simp [CostLoad.Tree.walk]
    | cons b a ih =>
      simp only [CostLoad.Tree.walk, List.cons_append]
      cases t.find b with
      | none => exact fun _ => rfl
      | some c => exact ih c
  have h0 : CostLoad.loadVectorCF P.toParse file "eulerXyz_des" 3 term = fun _ => 0 := by
    funext i
    have := hw file _ (CostLoad.entryKey i 0) hn
    simp only [List.cons_append, List.nil_append] at this
    simp [CostLoad.loadVectorCF, CostLoad.loadMatrixCF, ht, CostLoad.getNumD, this]
  rw [Term.getReferenceOrientation, k3.rot]
  simp only [aim, h0]
  congr 1
  ext i j
  fin_cases i <;> fin_cases j <;> simp [rotXYZ, rotX, rotY, rotZ, Matrix.mul_apply, Fin.sum_univ_three]

/-- C187: a file in which one of the three scalar entries is missing, or is text that cannot be converted, is rejected, by the
constructor as well as by `loadConfigFile` of any term: no term is made with values the file does not give. -/
theorem C187_rejected {e : Env S C} (w : Hists) (junk : ℕ × M3 × ℝ × (Fin (Dim S C) → ℝ) × Bool) {P : Parse}
    {file : CostLoad.Tree} {term : String}
    (h : ((file.walk [term, "weights", "eeId"]).bind fun c => P.nat c.data) = none
      ∨ ((file.walk [term, "weights", "Q_rot"]).bind fun c => P.num c.data) = none
      ∨ ((file.walk [term, "weights", "evalControlDerivatives"]).bind fun c => P.bool c.data) = none) :
    Term.fromFile e w junk P file term = .exc ∧ ∀ T : Term S C, (T.load e e.sv w P file term).2 = .exc := by
  have key : ∀ (T : Term S C) (sv), (T.load e sv w P file term).2 = .exc := by
    intro T sv
    rcases h1 : (file.walk [term, "weights", "eeId"]).bind fun c => P.nat c.data with _ | ee
    · simp [Term.load, getBy, h1]
    rcases h2 : (file.walk [term, "weights", "Q_rot"]).bind fun c => P.num c.data with _ | r
    · simp [Term.load, getBy, h1, CostLoad.loadScalarCF, CostLoad.getNum, h2]
    rcases h3 : (file.walk [term, "weights", "evalControlDerivatives"]).bind fun c => P.bool c.data with _ | b
    · simp [Term.load, getBy, h1, CostLoad.loadScalarCF, CostLoad.getNum, h2, h3]
    · simp [h1, h2, h3] at h
  refine ⟨?_, fun T => key T e.sv⟩
  have k := key (Term.default junk) (baseState e.kd e.d.njoints e.FB)
  unfold Term.fromFile
  generalize Term.load _ _ _ _ _ _ _ = p at k
  obtain ⟨T, o⟩ := p
  subst k
  rfl

/-- The hypothesis of `C187_rejected` holds for the empty file. -/
example (P : Parse) : (((⟨"", []⟩ : CostLoad.Tree).walk ["t", "weights", "eeId"]).bind fun c => P.nat c.data) = none := rfl

/-- C187 fails after a file that cannot be loaded completely: `loadConfigFile` throws, and the term is left with the position
reference of the file and, in what it evaluates, the end effector and the weights it had before. -/
theorem C187_failed_load_violated {e : Env S C} (hsv : e.sv = baseState e.kd e.d.njoints e.FB) (hd : DimOk e) {m : ℕ}
    (hm : EEsSmooth e.d m) {r : Res (Term S C)} {g : PoseTerm} (hc : Constructed e m r g) (ops : List (Op S C))
    (ho : ∀ o ∈ ops, OpOk m o) (w : Hists) {P : Parse} {file : CostLoad.Tree} {term : String}
    (h1 : ((file.walk [term, "weights", "eeId"]).bind fun c => P.nat c.data) ≠ none)
    (h2 : ((file.walk [term, "weights", "Q_rot"]).bind fun c => P.num c.data) ≠ none)
    (h3 : file.walk [term, "weights", "evalControlDerivatives"] = none) :
    ∃ T0 T T', r = .ok T0 ∧ T0.run e ops = .ok T ∧ T.load e e.sv w P file term = (T', .exc)
      ∧ ∀ x u t, ∃ v T'', T'.evaluate x u t = .ok (v, T'')
        ∧ ∀ h, PoseTerm.evaluate { ops.foldl aim g with pRef := CostLoad.loadVectorCF P.toParse file "x_des" 3 term }
          e.kd e.d e.FB h (List.ofFn x) = .ok v := by
  obtain ⟨T0, k1, -, k2⟩ := constructed_inv hd hm hc
  obtain ⟨T, k3, k4⟩ := run_inv hsv hd hm ops ho k2
  obtain ⟨j, F, hj, hF⟩ := k4.jit
  obtain ⟨ee, he⟩ := Option.ne_none_iff_exists'.1 h1
  obtain ⟨q, hq⟩ := Option.ne_none_iff_exists'.1 h2
  have hb : getBy P.bool file [term, "weights", "evalControlDerivatives"] = .exc := by simp [getBy, h3]
  refine ⟨T0, T, ({ T with eeInd := ee, Qrot := q, Qpos := CostLoad.loadMatrixCF P.toParse file "Q_pos" 3 3 term } : Term S C).setReferencePosition
    (CostLoad.loadVectorCF P.toParse file "x_des" 3 term), k1, k3, ?_, fun x u t => ?_⟩
  · simp only [Term.load, getBy_ok he, CostLoad.loadScalarCF, (getNum_ok hq).1, hb]
  · have hj' : (({ T with eeInd := ee, Qrot := q, Qpos := CostLoad.loadMatrixCF P.toParse file "Q_pos" 3 3 term } : Term S C).setReferencePosition
      (CostLoad.loadVectorCF P.toParse file "x_des" 3 term)).jit = some j := hj
    refine ⟨_, _, evaluate_holds hj' hF x u t, fun h => ?_⟩
    have := hF.value (at' (put T.par pp (CostLoad.loadVectorCF P.toParse file "x_des" 3 term)) x u t) h
    rw [pos_at, rot_at, state_at, pos_setPos, rot_setPos, k4.rot] at this
    exact this

/-- C187 fails for a rotation matrix handed to a constructor: it is accepted, as Euler angles.  With the identity the term
asks for an orientation turned by one radian about x. -/
theorem C187_matrix_violated {e : Env S C} (hd : DimOk e) {m : ℕ} (hm : EEsSmooth e.d m) {ee : ℕ} (h : ee < m) (w : Hists)
    (junk : Fin (Dim S C) → ℝ) (Qpos : M3) (Qrot : ℝ) (p : V3) (b : Bool) :
    ∃ T, Term.newEuler e w junk ee Qpos Qrot p 1 b = .ok T ∧ ∃ R : M3, (∀ er, T.getReferenceOrientation er = er.toQuat R) ∧ R ≠ 1
      ∧ R = !![1, 0, 0; 0, Real.cos 1, -Real.sin 1; 0, Real.sin 1, Real.cos 1] := by
  obtain ⟨T, k1, -, k2⟩ := constructed_inv hd hm (.euler h w junk Qpos Qrot p 1 b)
  have hR : rotXYZ (fun i => (1 : M3) i 0) = !![1, 0, 0; 0, Real.cos 1, -Real.sin 1; 0, Real.sin 1, Real.cos 1] := by
    ext i j
    fin_cases i <;> fin_cases j <;> simp [rotXYZ, rotX, rotY, rotZ, Matrix.mul_apply, Fin.sum_univ_three]
  refine ⟨T, k1, _, fun er => by rw [Term.getReferenceOrientation, k2.rot], ?_, hR⟩
  rw [hR]
  intro h
  have := congrFun (congrFun h 2) 1
  simp at this
  exact (Real.sin_pos_of_pos_of_lt_pi one_pos (by linarith [Real.two_le_pi])).ne' this

/-- Calls that do not compile anew. -/
def Keeps : Op S C → Prop
  | .setup _ => False
  | .load _ _ _ _ => False
  | _ => True

theorem run_keeps {e : Env S C} (ops : List (Op S C)) (hk : ∀ o ∈ ops, Keeps o)
    (sv : List ℝ → Res (Robot.RBD ℝ e.d.njoints)) (T : Term S C) :
    T.run e ops = T.run { e with sv := sv } ops := by
  induction ops generalizing T with
  | nil => rfl
  | cons o ops ih =>
    have h1 : T.step e o = T.step { e with sv := sv } o := by
      have := hk o (by simp)
      cases o <;> first | rfl | exact this.elim
    simp only [Term.run, List.foldlM_cons, h1]
    exact congrArg _ (funext fun T' => ih (fun o' h' => hk o' (by simp [h'])) T')

/-- C187 fails for classes that override `setStateFromVector`: whatever the override `e.sv` is, until `setup` is called once
more the value is that of the term without the override. -/
theorem C187_override_violated {e : Env S C} (hd : DimOk e) {m : ℕ} (hm : EEsSmooth e.d m) {ee : ℕ} (h : ee < m) (w : Hists)
    (junk : Fin (Dim S C) → ℝ) (Qpos : M3) (Qrot : ℝ) (p : V3) (q : Q4) (b : Bool) (ops : List (Op S C)) (hk : ∀ o ∈ ops, Keeps o) :
    ∃ T0 T, Term.new e w junk ee Qpos Qrot p q b = .ok T0 ∧ T0.run e ops = .ok T ∧ ∀ x u t, ∃ v T', T.evaluate x u t = .ok (v, T')
      ∧ ∀ h, (ops.foldl aim ⟨ee, Qpos, Qrot, p, quatMatrix (quatNormalized q)⟩).evaluate e.kd e.d e.FB h (List.ofFn x) = .ok v := by
  have ho : ∀ o ∈ ops, OpOk m o := fun o hin => by
    have := hk o hin
    cases o <;> first | trivial | exact this.elim
  obtain ⟨T0, T, k1, k2, -, -, k3⟩ := C187_value (e := { e with sv := baseState e.kd e.d.njoints e.FB }) rfl hd hm
    (.quaternion h w junk Qpos Qrot p q b) ops ho
  refine ⟨T0, T, k1, (run_keeps ops hk _ T0).trans k2, fun x u t => ?_⟩
  obtain ⟨v, T', k4, -, k5⟩ := k3 x u t
  exact ⟨v, T', k4, k5⟩

/-- A class for the inverted pendulum whose state has the velocity first. -/
noncomputable def swapped (ad : AD (Dim 2 1)) (cv : Robot.Conv ℝ) : Env 2 1 where
  ad := ad
  kd := stdKindr cv
  d := Robots.InvertedPendulum.Kin.defs
  FB := false
  sv x := .ok { RBD.blank 1 true with joints := ⟨fun _ => x.getD 1 0, fun _ => x.getD 0 0⟩ }

theorem swapped_eval (ad : AD (Dim 2 1)) (cv : Robot.Conv ℝ) (p : Fin (Dim 2 1) → ℝ) :
    evalLocal (swapped ad cv).d (swapped ad cv).kd (swapped ad cv).sv 0 0 1 fresh p
      = .ok (∑ i, ∑ j, ((rotOf p)ᵀ * !![0, 0, 1; -Real.sin (stateOf p 1), -Real.cos (stateOf p 1), 0;
          Real.cos (stateOf p 1), -Real.sin (stateOf p 1), 0] - 1) i j ^ 2) := by
  obtain ⟨pos, rot, hpr⟩ := eePose_InvertedPendulum
  have hq : byNumber (fun _ : Fin Robots.InvertedPendulum.Kin.defs.njoints => (List.ofFn (stateOf p)).getD 1 0) 0 = stateOf p 1 := by
    simp [byNumber, List.ofFn_succ, Robots.InvertedPendulum.Kin.defs]
  have hrm : rotationMatrix (stdKindr cv) (RBD.blank 1 true).pose = 1 := by
    simp only [rotationMatrix, RBD.blank, Robot.Pose.init, if_true, eulerQuatMatrix_eq]
    ext i j
    fin_cases i <;> fin_cases j <;> simp [rotXYZ, rotX, rotY, rotZ, Matrix.mul_apply, Fin.sum_univ_three]
  have h1 := ((hpr (byNumber (fun _ : Fin Robots.InvertedPendulum.Kin.defs.njoints => (List.ofFn (stateOf p)).getD 1 0))).2 fresh.X).1
  have h2 := pendulum_rot (byNumber (fun _ : Fin Robots.InvertedPendulum.Kin.defs.njoints => (List.ofFn (stateOf p)).getD 1 0))
  rw [hq] at h2
  simp only [evalLocal, swapped, Res.ok_bind, Defs.getEEPositionInWorld, Defs.getEERotInWorld, hrm]
  rw [h1, h2]
  simp [Res.ok_bind, Res.pure_eq, eeRotInWorld]

/-- The effect for a class of which the state has the velocity first: with weight 1 on the orientation and the world frame as
reference, in the state with velocity 0 and position `π` the term returns 8, the value for position 0; after `setup` it
returns 4, which is right. -/
theorem C187_override_pendulum_violated (ad : AD (Dim 2 1)) (cv : Robot.Conv ℝ) (junk : Fin (Dim 2 1) → ℝ) (u : Fin 1 → ℝ) (t : ℝ) :
    ∃ T0 T1, Term.new (swapped ad cv) fresh junk 0 0 1 0 ![1, 0, 0, 0] true = .ok T0
      ∧ T0.step (swapped ad cv) (.setup fresh) = .ok T1
      ∧ (∃ T, T0.evaluate ![0, Real.pi] u t = .ok (8, T)) ∧ ∃ T, T1.evaluate ![0, Real.pi] u t = .ok (4, T) := by
  have hd : DimOk (swapped ad cv) := rfl
  obtain ⟨T0, k1, -, k2⟩ := constructed_inv hd eesSmooth_InvertedPendulum (.quaternion (ee := 0) (by decide) fresh junk 0 1 0 ![1, 0, 0, 0] true)
  have hid : quatMatrix (quatNormalized ![1, 0, 0, 0]) = 1 := by
    ext i j
    fin_cases i <;> fin_cases j <;> simp [quatMatrix, quatNormalized]
  obtain ⟨j, F, hj, hF⟩ := k2.jit
  have hr : record (evalLocal (swapped ad cv).d (swapped ad cv).kd (swapped ad cv).sv 0 0 1 fresh)
      = .ok (⟨1, fun p _ => ∑ i, ∑ j, ((rotOf p)ᵀ * !![0, 0, 1; -Real.sin (stateOf p 1), -Real.cos (stateOf p 1), 0;
          Real.cos (stateOf p 1), -Real.sin (stateOf p 1), 0] - 1) i j ^ 2⟩ : Fun (Dim 2 1)) := by
    simp only [record, swapped_eval]
  obtain ⟨f, hf⟩ : ∃ f : Fun (Dim 2 1), f = ⟨1, fun p _ => ∑ i, ∑ j, ((rotOf p)ᵀ * !![0, 0, 1; -Real.sin (stateOf p 1),
      -Real.cos (stateOf p 1), 0; Real.cos (stateOf p 1), -Real.sin (stateOf p 1), 0] - 1) i j ^ 2⟩ := ⟨_, rfl⟩
  rw [← hf] at hr
  have hs : T0.step (swapped ad cv) (.setup fresh) = .ok { T0 with jit := some ⟨1, some f, some (f, settings), [], []⟩ } := by
    simp only [Term.step, Term.setup, k2.ee, k2.qp, k2.qr, hr, Res.ok_bind]
    simp [Jit.new, Jit.update, Jit.compile, settings, Res.pure_eq, Res.ok_bind]
  refine ⟨T0, _, k1, hs, ⟨T0.setCurrent ![0, Real.pi] u t, ?_⟩, ⟨{ T0 with jit := some ⟨1, some f, some (f, settings), [], []⟩ }.setCurrent ![0, Real.pi] u t, ?_⟩⟩
  · rw [evaluate_holds hj hF]
    have := hF.value (at' T0.par ![0, Real.pi] u t) fresh
    rw [pos_at, rot_at, state_at, k2.pos, k2.rot, hid] at this
    obtain ⟨pos, rot, hpr⟩ := eePose_InvertedPendulum
    have hv := pose_value (fun q => (hpr q).2) 0 1 0 1 (swapped ad cv).kd false fresh (List.ofFn ![0, Real.pi])
    have hC : rot (vecPose false Robots.InvertedPendulum.Kin.defs.njoints (List.ofFn ![0, Real.pi])).2.2
        = !![0, 0, 1; 0, -1, 0; 1, 0, 0] := by
      have h1 := ((hpr (vecPose false Robots.InvertedPendulum.Kin.defs.njoints (List.ofFn ![0, Real.pi])).2.2).2 fresh.X).2
      rw [pendulum_rot] at h1
      rw [← Res.ok.inj h1]
      have : (vecPose false Robots.InvertedPendulum.Kin.defs.njoints (List.ofFn ![0, Real.pi])).2.2 0 = 0 := by
        simp [vecPose, Robots.InvertedPendulum.Kin.defs]
      rw [this]
      simp
    simp only [hC] at hv
    have e8 := Res.ok.inj (this.symm.trans hv)
    rw [e8]
    congr 2
    simp [vecPose, Fin.sum_univ_three, Matrix.one_apply]
    norm_num
  · simp [Term.evaluate, Term.deref, Term.setCurrent, Res.ok_bind, Jit.forwardZero, settings, hf, first, Res.pure_eq]
    have e1 := rot_at T0.par ![0, Real.pi] u t
    have e2 := state_at T0.par ![0, Real.pi] u t
    rw [k2.rot, hid] at e1
    unfold at' at e1 e2
    rw [e1, e2]
    simp [Fin.sum_univ_three, Matrix.one_apply]
    norm_num

end CT.TaskCG
