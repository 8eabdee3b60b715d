import Verif.Model.RbdLinearizer
import Verif.Props.FloatingSystem
import Verif.Props.NumDiff
import Verif.Props.Actuator

/-!
# C137, C138: Jacobians of the linearizer of rigid body systems
-/

namespace CT.RbdLin

open Matrix FrameJac OpJac Robot Spatial FloatSys

/-! ### The generated derivatives -/

theorem line3 (e : V3) (j : Fin 3) : VDeriv (fun s : ℝ => Function.update e j s) (Pi.single j 1) (e j) := by
  intro i
  by_cases h : i = j
  · subst h; simp only [Function.update_self, Pi.single_eq_same]; exact hasDerivAt_id' (e i)
  · simp only [Function.update_of_ne h, Pi.single_eq_of_ne h]; exact hasDerivAt_const _ _

theorem sin_d (a : ℝ) : HasDerivAt (fun s => Real.sin s) (Real.cos a) a := Real.hasDerivAt_sin a
theorem cos_d (a : ℝ) : HasDerivAt (fun s => Real.cos s) (-Real.sin a) a := Real.hasDerivAt_cos a

theorem rotX_d (a : ℝ) : MDeriv rotX !![0, 0, 0; 0, -Real.sin a, -Real.cos a; 0, Real.cos a, -Real.sin a] a := by
  intro i j
  fin_cases i <;> fin_cases j <;> simp [rotX] <;>
    first | exact hasDerivAt_const _ _ | exact sin_d a | exact cos_d a | exact (sin_d a).neg

theorem rotY_d (a : ℝ) : MDeriv rotY !![-Real.sin a, 0, Real.cos a; 0, 0, 0; -Real.cos a, 0, -Real.sin a] a := by
  intro i j
  fin_cases i <;> fin_cases j <;> simp [rotY] <;>
    first | exact hasDerivAt_const _ _ | exact sin_d a | exact cos_d a | exact (sin_d a).neg

theorem rotZ_d (a : ℝ) : MDeriv rotZ !![-Real.sin a, -Real.cos a, 0; Real.cos a, -Real.sin a, 0; 0, 0, 0] a := by
  intro i j
  fin_cases i <;> fin_cases j <;> simp [rotZ] <;>
    first | exact hasDerivAt_const _ _ | exact sin_d a | exact cos_d a | exact (sin_d a).neg

theorem tmulVec_deriv {A : ℝ → M3} {A' : M3} {t : ℝ} (h : MDeriv A A' t) (w : V3) :
    VDeriv (fun s => (A s)ᵀ *ᵥ w) (A'ᵀ *ᵥ w) t := by
  intro i
  simp only [mulVec, dotProduct, Fin.sum_univ_three, transpose_apply]
  exact (((h 0 i).mul_const _).add ((h 1 i).mul_const _)).add ((h 2 i).mul_const _)

/-- `JacobianOfRotationMultiplyVector` is the Jacobian of the inverse rotation of a vector. -/
theorem jacRotVec_deriv (e w : V3) (i j : Fin 3) :
    HasDerivAt (fun s : ℝ => ((rotXYZ (Function.update e j s))ᵀ *ᵥ w) i) (jacRotVec e w i j) (e j) := by
  have hX : MDeriv (fun s => rotXYZ (Function.update e 0 s)) _ (e 0) :=
    ((rotX_d (e 0)).mul (MDeriv.const (rotY (e 1)) (e 0))).mul (MDeriv.const (rotZ (e 2)) (e 0))
  have hY : MDeriv (fun s => rotXYZ (Function.update e 1 s)) _ (e 1) :=
    ((MDeriv.const (rotX (e 0)) (e 1)).mul (rotY_d (e 1))).mul (MDeriv.const (rotZ (e 2)) (e 1))
  have hZ : MDeriv (fun s => rotXYZ (Function.update e 2 s)) _ (e 2) :=
    ((MDeriv.const (rotX (e 0)) (e 2)).mul (MDeriv.const (rotY (e 1)) (e 2))).mul (rotZ_d (e 2))
  have h0 := tmulVec_deriv hX w i
  have h1 := tmulVec_deriv hY w i
  have h2 := tmulVec_deriv hZ w i
  fin_cases j
  · refine h0.congr_deriv ?_
    fin_cases i <;> simp [mulVec, dotProduct, Fin.sum_univ_three, jacRotVec, transpose_apply, rotY, rotZ, Matrix.mul_apply] <;> ring
  · refine h1.congr_deriv ?_
    fin_cases i <;> simp [mulVec, dotProduct, Fin.sum_univ_three, jacRotVec, transpose_apply, rotX, rotZ, Matrix.mul_apply] <;> ring
  · refine h2.congr_deriv ?_
    fin_cases i <;> simp [mulVec, dotProduct, Fin.sum_univ_three, jacRotVec, transpose_apply, rotX, rotY, Matrix.mul_apply] <;> ring

/-- The block for the position is the Jacobian of the rotated velocity. -/
theorem rotVec_deriv (e v : V3) (i j : Fin 3) :
    HasDerivAt (fun s : ℝ => (rotXYZ (Function.update e j s) *ᵥ v) i) ((-rotXYZ e * jacRotVec e (rotXYZ e *ᵥ v)) i j) (e j) := by
  have h := rotXYZ_deriv (line3 e j)
  rw [Function.update_eq_self] at h
  set b := bodyRate e (Pi.single j 1) with hb
  have h1 : ∀ k, jacRotVec e (rotXYZ e *ᵥ v) k j = ((rotXYZ e * cpm b)ᵀ *ᵥ (rotXYZ e *ᵥ v)) k := fun k =>
    (jacRotVec_deriv e (rotXYZ e *ᵥ v) k j).unique (tmulVec_deriv h (rotXYZ e *ᵥ v) k)
  have h2 := mulVec_deriv h (VDeriv.const v (e j)) i
  refine h2.congr_deriv ?_
  have h3 : (cpm b)ᵀ = -cpm b := by
    ext i j; fin_cases i <;> fin_cases j <;> simp [cpm]
  have h4 : (fun k => jacRotVec e (rotXYZ e *ᵥ v) k j) = -(cpm b *ᵥ v) := by
    funext k
    rw [h1, transpose_mul, mulVec_mulVec, Matrix.mul_assoc, (rotXYZ_rot e).orth, Matrix.mul_one, h3, neg_mulVec]
  have h5 : (-rotXYZ e * jacRotVec e (rotXYZ e *ᵥ v)) i j = (-rotXYZ e *ᵥ fun k => jacRotVec e (rotXYZ e *ᵥ v) k j) i := rfl
  rw [h5, h4, neg_mulVec_neg, mulVec_mulVec, mulVec_zero, add_zero]

theorem inv_d {a : ℝ} (h : Real.cos a ≠ 0) (k : ℝ) :
    HasDerivAt (fun s => k / Real.cos s) (k * Real.sin a / (Real.cos a) ^ 2) a :=
  ((cos_d a).fun_inv h |>.const_mul k).congr_deriv (by field_simp) |>.congr_of_eventuallyEq (.of_forall fun s => by simp [div_eq_mul_inv])

theorem tan_d {a : ℝ} (h : Real.cos a ≠ 0) (c k : ℝ) :
    HasDerivAt (fun s => c - Real.sin s * (k / Real.cos s)) (-(k / (Real.cos a) ^ 2)) a := by
  refine (((sin_d a).mul (inv_d h k)).const_sub c).congr_deriv ?_
  have := Real.sin_sq_add_cos_sq a
  field_simp
  linear_combination (-k) * this

/-- The first three columns that `jacobianOfAngularVelocityMapping` computes. -/
theorem eulerRate_angle (e w : V3) (hc : Real.cos (e 1) ≠ 0) (i j : Fin 3) :
    HasDerivAt (fun s : ℝ => eulerRate (Function.update e j s) w i) (jacAngVel e w ⟨j.val, by omega⟩ i) (e j) := by
  fin_cases j <;> fin_cases i
  · exact hasDerivAt_const (e 0) (eulerRate e w 0)
  · exact hasDerivAt_const (e 0) (eulerRate e w 1)
  · exact hasDerivAt_const (e 0) (eulerRate e w 2)
  · refine HasDerivAt.congr_deriv (f := fun s => (Real.cos (e 2) * w 0 - Real.sin (e 2) * w 1) / Real.cos s) (inv_d hc _) ?_
    show _ = 0 - (0 - (0 - w 1 * Real.sin (e 2) + w 0 * Real.cos (e 2)) * 1 / Real.cos (e 1) * (1 / Real.cos (e 1))) * Real.sin (e 1)
    field_simp; ring
  · exact hasDerivAt_const (e 1) (eulerRate e w 1)
  · refine HasDerivAt.congr_deriv (f := fun s => w 2 - Real.sin s * ((Real.cos (e 2) * w 0 - Real.sin (e 2) * w 1) / Real.cos s)) (tan_d hc _ _) ?_
    show _ = (w 1 * (1 / Real.cos (e 1) * Real.sin (e 2)) + w 0 * ((0 - 1 / Real.cos (e 1)) * Real.cos (e 2))) * Real.cos (e 1)
      - (0 - (w 1 * Real.sin (e 1) * Real.sin (e 2) - w 0 * Real.sin (e 1) * Real.cos (e 2)) * 1 / Real.cos (e 1) * (1 / Real.cos (e 1))) * Real.sin (e 1)
    have := Real.sin_sq_add_cos_sq (e 1)
    field_simp
    linear_combination (Real.cos (e 2) * w 0 - Real.sin (e 2) * w 1) * this
  · refine HasDerivAt.congr_deriv (f := fun s => (Real.cos s * w 0 - Real.sin s * w 1) / Real.cos (e 1))
      ((((cos_d (e 2)).mul_const _).sub ((sin_d (e 2)).mul_const _)).div_const _) ?_
    show _ = 0 - w 0 * (1 / Real.cos (e 1)) * Real.sin (e 2) + w 1 * (0 - 1 / Real.cos (e 1)) * Real.cos (e 2)
    field_simp; ring
  · refine HasDerivAt.congr_deriv (f := fun s => Real.sin s * w 0 + Real.cos s * w 1)
      (((sin_d (e 2)).mul_const _).add ((cos_d (e 2)).mul_const _)) ?_
    show _ = 0 - w 1 * Real.sin (e 2) + w 0 * Real.cos (e 2)
    ring
  · refine HasDerivAt.congr_deriv (f := fun s => w 2 - Real.sin (e 1) * ((Real.cos s * w 0 - Real.sin s * w 1) / Real.cos (e 1)))
      (((((cos_d (e 2)).mul_const _).sub ((sin_d (e 2)).mul_const _)).div_const _ |>.const_mul _).const_sub _) ?_
    show _ = 0 - w 0 * Real.sin (e 1) * (0 - 1 / Real.cos (e 1)) * Real.sin (e 2) + w 1 * Real.sin (e 1) * (1 / Real.cos (e 1)) * Real.cos (e 2)
    field_simp; ring

/-- The last three columns that `jacobianOfAngularVelocityMapping` computes: the rates are linear in the angular
velocity. -/
theorem eulerRate_linear (e w : V3) (i : Fin 3) :
    eulerRate e w i = ∑ j : Fin 3, jacAngVel e w ⟨j.val + 3, by omega⟩ i * w j := by
  rw [Fin.sum_univ_three]
  fin_cases i
  · show (Real.cos (e 2) * w 0 - Real.sin (e 2) * w 1) / Real.cos (e 1) = 1 / Real.cos (e 1) * Real.cos (e 2) * w 0
      + (0 - 1 / Real.cos (e 1)) * Real.sin (e 2) * w 1 + 0 * w 2
    ring
  · show Real.sin (e 2) * w 0 + Real.cos (e 2) * w 1 = Real.sin (e 2) * w 0 + Real.cos (e 2) * w 1 + 0 * w 2
    ring
  · show w 2 - Real.sin (e 1) * ((Real.cos (e 2) * w 0 - Real.sin (e 2) * w 1) / Real.cos (e 1))
      = (0 - 1 / Real.cos (e 1)) * Real.cos (e 2) * Real.sin (e 1) * w 0 + 1 / Real.cos (e 1) * Real.sin (e 2) * Real.sin (e 1) * w 1 + 1 * w 2
    ring

theorem jacAngVel_const (e w w' : V3) (i j : Fin 3) :
    jacAngVel e w ⟨j.val + 3, by omega⟩ i = jacAngVel e w' ⟨j.val + 3, by omega⟩ i := by
  fin_cases i <;> fin_cases j <;> simp [jacAngVel, jacAngData]

/-! ### Numerical columns and blocks -/

variable {H c n l e : ℕ}

/-- A row that depends on one entry of the state in an affine way is differentiated exactly by both schemes. -/
theorem num_affine (s : NumDiff.Linearizer (H + H) c ℝ) (he : s.eps ≠ 0) (x : Fin (H + H) → ℝ) (u : Fin c → ℝ) (t : ℝ)
    (i j : Fin (H + H)) (α β : ℝ) (h : ∀ r, s.dyn (Function.update x j r) t u i = α + β * r) :
    (s.getDerivativeState x u t).dFdx i j = β := by
  simp only [NumDiff.Linearizer.getDerivativeState]
  rw [NumDiff.jacLoop_apply]
  have hs := NumDiff.step_ne he (x j)
  have h0 : s.dyn x t u i = α + β * x j := by rw [← h, Function.update_eq_self]
  cases hd : s.dbl
  · simp only [NumDiff.column, Bool.not_false, if_true, Bool.false_eq_true, if_false, Pi.smul_apply, Pi.sub_apply,
      smul_eq_mul, h, h0]
    set k := s.eps * max |x j| 1
    rw [show (x j + k - x j) = k by ring]
    field_simp
    ring
  · simp only [NumDiff.column, if_true, Pi.smul_apply, Pi.sub_apply, smul_eq_mul, h]
    set k := s.eps * max |x j| 1
    rw [show (x j + k - x j + (x j - (x j - k))) = 2 * k by ring]
    field_simp
    ring

theorem at_update (x : Fin (H + H) → ℝ) (j : Fin (H + H)) (s : ℝ) (k : ℕ) :
    at' (Function.update x j s) k = if k = j.val then s else at' x k := by
  by_cases h : k < H + H
  · have e1 : ∀ y : Fin (H + H) → ℝ, at' y k = y ⟨k, h⟩ := fun y => by simp [at', List.getD, h]
    rw [e1, e1]
    by_cases hj : k = j.val
    · have : (⟨k, h⟩ : Fin (H + H)) = j := Fin.ext hj
      rw [this, Function.update_self, if_pos hj]
    · rw [Function.update_of_ne (fun hh => hj (congrArg Fin.val hh)), if_neg hj]
  · have e1 : ∀ y : Fin (H + H) → ℝ, at' y k = 0 := fun y => by simp [at', List.getD, h]
    rw [e1, e1, if_neg (by omega)]

theorem seg3_update (x : Fin (H + H) → ℝ) (j : Fin (H + H)) (s : ℝ) (k : ℕ) (r : Fin 3) (h : j.val = k + r.val) :
    seg3 (Function.update x j s) k = Function.update (seg3 x k) r s := by
  funext i
  fin_cases r <;> fin_cases i <;> simp_all [seg3, at_update, Function.update]

theorem seg3_other (x : Fin (H + H) → ℝ) (j : Fin (H + H)) (s : ℝ) (k : ℕ) (h : j.val < k ∨ k + 3 ≤ j.val) :
    seg3 (Function.update x j s) k = seg3 x k := by
  simp only [seg3, at_update]
  rw [if_neg (by omega), if_neg (by omega), if_neg (by omega)]

theorem seg3_eq (x : Fin (H + H) → ℝ) (k : ℕ) : seg3 x k = seg (List.ofFn x) k 3 := by
  funext i; fin_cases i <;> rfl

theorem seg3_entry (x : Fin (H + H) → ℝ) (j : Fin (H + H)) (k : ℕ) (r : Fin 3) (h : j.val = k + r.val) : seg3 x k r = x j := by
  have hj := j.isLt
  have e1 : ∀ m, m = j.val → at' x m = x j := fun m hm => by subst hm; simp [at', List.getD]
  fin_cases r <;> exact e1 _ h.symm

theorem after_num (ev : Env H c) (num : NumDiff.Linearizer (H + H) c ℝ) (so : Bool) (cs : List (Call H c)) :
    (ev.after num so cs).num.dyn = num.dyn ∧ (ev.after num so cs).num.eps = num.eps ∧ (ev.after num so cs).secondOrder = so := by
  have key : ∀ (cs : List (Call H c)) (o : Lin H c), (cs.foldl ev.step o).num.dyn = o.num.dyn
      ∧ (cs.foldl ev.step o).num.eps = o.num.eps ∧ (cs.foldl ev.step o).secondOrder = o.secondOrder := by
    intro cs
    induction cs with
    | nil => intro o; exact ⟨rfl, rfl, rfl⟩
    | cons a cs ih =>
        intro o
        obtain ⟨h1, h2, h3⟩ := ih (ev.step o a)
        rw [List.foldl_cons, h1, h2, h3]
        cases a with
        | state x u t => cases hb : ev.floatingBase <;> simp [Env.step, Lin.getDerivativeState, hb, Lin.baseState, NumDiff.Linearizer.getDerivativeState]
        | control x u t => exact ⟨rfl, rfl, rfl⟩
  exact key cs _

theorem setBlock_in {a b p q : ℕ} (A : Matrix (Fin a) (Fin b) ℝ) (r k : ℕ) (B : Matrix (Fin p) (Fin q) ℝ) (i : Fin a) (j : Fin b)
    (i' : Fin p) (j' : Fin q) (hi : i.val = r + i'.val) (hj : j.val = k + j'.val) : setBlock A r k B i j = B i' j' := by
  have h1 := i'.isLt
  have h2 := j'.isLt
  rw [setBlock, dif_pos (by omega)]
  congr 1 <;> ext <;> simp <;> omega

theorem setBlock_out {a b p q : ℕ} (A : Matrix (Fin a) (Fin b) ℝ) (r k : ℕ) (B : Matrix (Fin p) (Fin q) ℝ) (i : Fin a) (j : Fin b)
    (h : ¬((r ≤ i.val ∧ i.val < r + p) ∧ (k ≤ j.val ∧ j.val < k + q))) : setBlock A r k B i j = A i j := by
  rw [setBlock, dif_neg h]

/-! ### C138 -/

/-- `FloatingBaseFDSystem` with Euler angles or quaternions as a function of state, time and control vectors. -/
noncomputable def sysDyn (kd : Kindr) (rb : FRob n l e) (sy : Sys n e) {m : ℕ} (x : Fin m → ℝ) (_t : ℝ) (u : Fin c → ℝ) : Fin m → ℝ :=
  fun i => (sy.dynamics kd rb (List.ofFn x) (List.ofFn u)).getD i 0

theorem top_values {kd : Kindr} (rb : FRob n l e) (sy : Sys n e) (hq : sy.quat = false) (x : Fin ((6 + n) + (6 + n)) → ℝ)
    (t : ℝ) (u : Fin c → ℝ) (i : Fin ((6 + n) + (6 + n))) :
    (∀ r : Fin 3, i.val = r.val → sysDyn kd rb sy x t u i = kd.eulerDiff (seg3 x 0) (seg3 x (6 + n)) r)
    ∧ (∀ r : Fin 3, i.val = 3 + r.val → sysDyn kd rb sy x t u i = (rotXYZ (seg3 x 0) *ᵥ seg3 x (6 + n + 3)) r)
    ∧ (∀ r, r < n → i.val = 6 + r → sysDyn kd rb sy x t u i = at' x (6 + n + (6 + r))) := by
  simp only [sysDyn, seg3_eq]
  rw [dynamics_eq]
  have hS : sy.stateFrom kd (List.ofFn x) = (RBD.blank n true).fromStateVectorEulerXyz kd.conv (List.ofFn x) := by
    simp [Sys.stateFrom, hq]
  have hD : ∀ (a : Acc n) s, sy.toDeriv kd a s = a.toEuler kd s := fun a s => by simp [Sys.toDeriv, hq]
  rw [hD]
  obtain ⟨h1, h2, h3, _⟩ := euler_segs (kd := kd) (forwardDynamics kd rb (sy.stateFrom kd (List.ofFn x)) (seg (List.ofFn u) 0 n)
    (sy.linkForces rb (sy.stateFrom kd (List.ofFn x)) (List.ofFn u)) Acc.zero) (sy.stateFrom kd (List.ofFn x))
  generalize (Acc.toEuler kd _ _) = y at h1 h2 h3 ⊢
  generalize hX : List.ofFn x = X at hS h1 h2 h3 ⊢
  refine ⟨fun r hr => ?_, fun r hr => ?_, fun r hn hr => ?_⟩
  · have := congrFun h1 r
    rw [hS] at this
    simp only [RBD.fromStateVectorEulerXyz, RBD.blank, Pose.init, Pose.setEuler, Pose.getEuler] at this
    rw [hr, ← Nat.zero_add r.val]
    exact this
  · have := congrFun h2 r
    rw [hS] at this
    simp only [rotateBaseToInertia, RBD.fromStateVectorEulerXyz, RBD.blank, Pose.init, Pose.setEuler, eulerQuatMatrix_eq, rotationMatrix] at this
    rw [hr, show 6 + n + 3 = 9 + n by omega]
    exact this
  · have := congrFun h3 ⟨r, hn⟩
    rw [hS] at this
    simp only [RBD.fromStateVectorEulerXyz] at this
    rw [hr, at', hX, show 6 + n + (6 + r) = 2 * (n + 6) - n + r by omega]
    exact this

theorem base_dFdx (o : Lin H c) (hs : o.secondOrder = false) (x : Fin (H + H) → ℝ) (u : Fin c → ℝ) (t : ℝ) :
    (o.baseState x u t).dFdx = (o.num.getDerivativeState x u t).dFdx := by
  simp [Lin.baseState, hs]

/-- **C138, floating base.**  The linearizer of a floating-base robot with Euler angles: whatever it computed
before, after a call with state `x`, every entry of the upper half of the state Jacobian - the rows of the
orientation, position and joint angles - is exactly the partial derivative of the system's dynamics there, for
every finite-difference step and scheme, unless the pitch angle is singular. -/
theorem C138_floating (ev : Env (6 + n) c) (hf : ev.floatingBase = true) (hk : ev.kd.Ok) (rb : FRob n l e) (sy : Sys n e)
    (hq : sy.quat = false) (num : NumDiff.Linearizer ((6 + n) + (6 + n)) c ℝ) (hd : num.dyn = sysDyn ev.kd rb sy) (he : num.eps ≠ 0)
    (cs : List (Call (6 + n) c)) (x : Fin ((6 + n) + (6 + n)) → ℝ) (u : Fin c → ℝ) (t : ℝ) (hx : Real.cos (x ⟨1, by omega⟩) ≠ 0)
    (i j : Fin ((6 + n) + (6 + n))) (hi : i.val < 6 + n) :
    HasDerivAt (fun s => sysDyn ev.kd rb sy (Function.update x j s) t u i)
      ((ev.after num false (cs ++ [.state x u t])).dFdx i j) (x j) := by
  have hlast : ev.after num false (cs ++ [.state x u t]) = (ev.after num false cs).getDerivativeState ev.kd ev.floatingBase x u t := by
    simp only [Env.after, List.foldl_append, List.foldl_cons, List.foldl_nil, Env.step]
  obtain ⟨n1, n2, n3⟩ := after_num ev num false cs
  rw [hlast]
  generalize ev.after num false cs = o at n1 n2 n3 ⊢
  rw [hd] at n1
  rw [← n2] at he
  have hc : Real.cos (seg3 x 0 1) ≠ 0 := by rw [seg3_entry x ⟨1, by omega⟩ 0 1 rfl]; exact hx
  have aff : ∀ α β, (∀ r, sysDyn ev.kd rb sy (Function.update x j r) t u i = α + β * r) →
      HasDerivAt (fun s => sysDyn ev.kd rb sy (Function.update x j s) t u i) β (x j)
        ∧ (o.baseState x u t).dFdx i j = β := by
    intro α β hab
    constructor
    · rw [funext hab]
      exact (((hasDerivAt_id' (x j)).const_mul β).const_add α).congr_deriv (by ring)
    · rw [base_dFdx o n3]
      exact num_affine o.num he x u t i j α β (fun r => by rw [n1]; exact hab r)
  have tv := fun y => top_values (kd := ev.kd) (c := c) rb sy hq y t u i
  simp only [Lin.getDerivativeState, hf, Bool.not_true, Bool.false_eq_true, if_false]
  by_cases i0 : i.val < 3
  · -- orientation
    have tv0 := fun y => (tv y).1 ⟨i.val, i0⟩ rfl
    by_cases j0 : j.val < 3
    · have hj : j.val = 0 + (⟨j.val, j0⟩ : Fin 3).val := by simp
      rw [setBlock_out _ _ _ _ _ _ (by omega), setBlock_out _ _ _ _ _ _ (by omega), setBlock_out _ _ _ _ _ _ (by omega),
        setBlock_in _ 0 0 _ i j ⟨i.val, i0⟩ ⟨j.val, j0⟩ (by simp) hj]
      have hval : ∀ s, sysDyn ev.kd rb sy (Function.update x j s) t u i
          = ev.kd.eulerDiff (Function.update (seg3 x 0) ⟨j.val, j0⟩ s) (seg3 x (6 + n)) ⟨i.val, i0⟩ := fun s => by
        rw [tv0, seg3_update x j s 0 _ hj, seg3_other x j s (6 + n) (by omega)]
      rw [funext hval, ← seg3_entry x j 0 ⟨j.val, j0⟩ hj]
      refine (eulerRate_angle (seg3 x 0) (seg3 x (6 + n)) hc ⟨i.val, i0⟩ ⟨j.val, j0⟩).congr_of_eventuallyEq ?_
      have hcont : ContinuousAt (fun s => Real.cos (Function.update (seg3 x 0) ⟨j.val, j0⟩ s 1)) (seg3 x 0 ⟨j.val, j0⟩) :=
        Real.continuous_cos.continuousAt.comp (f := fun s => Function.update (seg3 x 0) ⟨j.val, j0⟩ s 1) (line3 _ _ 1).continuousAt
      have hne := hcont.eventually_ne (y := 0) (by simpa using hc)
      filter_upwards [hne] with s hs
      rw [hk.eulerDiff_eq _ _ hs]
    · by_cases j1 : 6 + n ≤ j.val ∧ j.val < 6 + n + 3
      · have hj : j.val = 6 + n + (⟨j.val - (6 + n), by omega⟩ : Fin 3).val := by simp; omega
        rw [setBlock_out _ _ _ _ _ _ (by omega), setBlock_in _ 0 (6 + n) _ i j ⟨i.val, i0⟩ ⟨j.val - (6 + n), by omega⟩ (by simp) hj]
        set k : Fin 3 := ⟨j.val - (6 + n), by omega⟩
        have hval : ∀ s, sysDyn ev.kd rb sy (Function.update x j s) t u i
            = ∑ m : Fin 3, jacAngVel (seg3 x 0) (seg3 x (6 + n)) ⟨m.val + 3, by omega⟩ ⟨i.val, i0⟩
                * Function.update (seg3 x (6 + n)) k s m := fun s => by
          rw [tv0, seg3_update x j s (6 + n) k hj, seg3_other x j s 0 (by omega), hk.eulerDiff_eq _ _ hc, eulerRate_linear]
          simp only [jacAngVel_const (seg3 x 0) (Function.update (seg3 x (6 + n)) k s) (seg3 x (6 + n))]
        rw [funext hval, ← seg3_entry x j (6 + n) k hj]
        have hl := line3 (seg3 x (6 + n)) k
        refine (HasDerivAt.fun_sum (u := Finset.univ) fun m _ => (hl m).const_mul
          (jacAngVel (seg3 x 0) (seg3 x (6 + n)) ⟨m.val + 3, by omega⟩ ⟨i.val, i0⟩)).congr_deriv ?_
        simp [Pi.single_apply, transpose_apply]
      · obtain ⟨a1, a2⟩ := aff (sysDyn ev.kd rb sy x t u i) 0 (fun r => by
          rw [tv0, tv0, seg3_other x j r 0 (by omega), seg3_other x j r (6 + n) (by omega)]; ring)
        rw [setBlock_out _ _ _ _ _ _ (by omega), setBlock_out _ _ _ _ _ _ (by omega), setBlock_out _ _ _ _ _ _ (by omega),
          setBlock_out _ _ _ _ _ _ (by omega), a2]
        exact a1
  · by_cases i1 : i.val < 6
    · -- position
      have hi1 : i.val = 3 + (⟨i.val - 3, by omega⟩ : Fin 3).val := by simp; omega
      set k : Fin 3 := ⟨i.val - 3, by omega⟩
      have tv1 := fun y => (tv y).2.1 k hi1
      by_cases j0 : j.val < 3
      · have hj : j.val = 0 + (⟨j.val, j0⟩ : Fin 3).val := by simp
        rw [setBlock_out _ _ _ _ _ _ (by omega), setBlock_out _ _ _ _ _ _ (by omega), setBlock_in _ 3 0 _ i j k ⟨j.val, j0⟩ hi1 hj]
        have hval : ∀ s, sysDyn ev.kd rb sy (Function.update x j s) t u i
            = (rotXYZ (Function.update (seg3 x 0) ⟨j.val, j0⟩ s) *ᵥ seg3 x (6 + n + 3)) k := fun s => by
          rw [tv1, seg3_update x j s 0 _ hj, seg3_other x j s (6 + n + 3) (by omega)]
        rw [funext hval, ← seg3_entry x j 0 ⟨j.val, j0⟩ hj, hk.eulerRot]
        exact rotVec_deriv _ _ _ _
      · by_cases j1 : 6 + n + 3 ≤ j.val ∧ j.val < 6 + n + 3 + 3
        · have hj : j.val = 6 + n + 3 + (⟨j.val - (6 + n + 3), by omega⟩ : Fin 3).val := by simp; omega
          rw [setBlock_in _ 3 (6 + n + 3) _ i j k ⟨j.val - (6 + n + 3), by omega⟩ hi1 hj]
          set m : Fin 3 := ⟨j.val - (6 + n + 3), by omega⟩
          have hval : ∀ s, sysDyn ev.kd rb sy (Function.update x j s) t u i
              = (rotXYZ (seg3 x 0) *ᵥ Function.update (seg3 x (6 + n + 3)) m s) k := fun s => by
            rw [tv1, seg3_update x j s (6 + n + 3) m hj, seg3_other x j s 0 (by omega)]
          rw [funext hval, ← seg3_entry x j (6 + n + 3) m hj, hk.eulerRot]
          have hl := line3 (seg3 x (6 + n + 3)) m
          refine (HasDerivAt.fun_sum (u := Finset.univ) fun r _ => (hl r).const_mul (rotXYZ (seg3 x 0) k r)).congr_deriv ?_
          simp [Pi.single_apply]
        · obtain ⟨a1, a2⟩ := aff (sysDyn ev.kd rb sy x t u i) 0 (fun r => by
            rw [tv1, tv1, seg3_other x j r 0 (by omega), seg3_other x j r (6 + n + 3) (by omega)]; ring)
          rw [setBlock_out _ _ _ _ _ _ (by omega), setBlock_out _ _ _ _ _ _ (by omega), setBlock_out _ _ _ _ _ _ (by omega),
            setBlock_out _ _ _ _ _ _ (by omega), a2]
          exact a1
    · -- joints
      have tv2 := fun y => (tv y).2.2 (i.val - 6) (by omega) (by omega)
      rw [setBlock_out _ _ _ _ _ _ (by omega), setBlock_out _ _ _ _ _ _ (by omega), setBlock_out _ _ _ _ _ _ (by omega),
        setBlock_out _ _ _ _ _ _ (by omega)]
      by_cases hj : 6 + n + (6 + (i.val - 6)) = j.val
      · obtain ⟨a1, a2⟩ := aff 0 1 (fun r => by rw [tv2, at_update, if_pos hj]; ring)
        rw [a2]; exact a1
      · obtain ⟨a1, a2⟩ := aff (sysDyn ev.kd rb sy x t u i) 0 (fun r => by rw [tv2, tv2, at_update, if_neg hj]; ring)
        rw [a2]; exact a1

/-- **C138, fixed base.**  The same for the system of a fixed-base robot, whether the rows are differentiated
numerically or, for second-order systems, set to zero and identity. -/
theorem C138_fixed {W : Type} [Zero W] (ev : Env n n) (hf : ev.floatingBase = false) (rb : Actuator.Rob n 0 W) (so : Bool)
    (num : NumDiff.Linearizer (n + n) n ℝ) (he : num.eps ≠ 0)
    (hd : ∀ x t u d, d.length = 2 * n →
      rb.fdDynamics (none : Option (Actuator.Act n 0)) (List.ofFn x) t (List.ofFn u) d = .ok (List.ofFn (num.dyn x t u)))
    (cs : List (Call n n)) (x : Fin (n + n) → ℝ) (u : Fin n → ℝ) (t : ℝ) (i j : Fin (n + n)) (hi : i.val < n) :
    HasDerivAt (fun s => num.dyn (Function.update x j s) t u i) ((ev.after num so (cs ++ [.state x u t])).dFdx i j) (x j) := by
  have hlast : ev.after num so (cs ++ [.state x u t]) = (ev.after num so cs).getDerivativeState ev.kd ev.floatingBase x u t := by
    simp only [Env.after, List.foldl_append, List.foldl_cons, List.foldl_nil, Env.step]
  obtain ⟨n1, n2, n3⟩ := after_num ev num so cs
  have htop : ∀ y : Fin (n + n) → ℝ, num.dyn y t u i = y ⟨n + i.val, by omega⟩ := by
    intro y
    have h1 := hd y t u (List.replicate (2 * n) 0) (by simp)
    have h2 := Actuator.C90_torques rb (fun k => y (Fin.castAdd n k)) (fun k => y (Fin.natAdd n k)) u [] t
      (List.replicate (2 * n) 0) none (by simp)
    rw [← List.ofFn_fin_append, Fin.append_castAdd_natAdd, List.append_nil, h1, ← List.ofFn_fin_append] at h2
    have h3 : List.ofFn (num.dyn y t u) = _ := Res.ok.inj h2
    have h4 := congrFun (List.ofFn_injective h3) i
    rw [h4]
    exact Fin.append_left _ _ (⟨i.val, hi⟩ : Fin n)
  have aff : ∀ α β, (∀ r, num.dyn (Function.update x j r) t u i = α + β * r) →
      HasDerivAt (fun s => num.dyn (Function.update x j s) t u i) β (x j)
        ∧ ((ev.after num so cs).num.getDerivativeState x u t).dFdx i j = β := by
    intro α β hab
    constructor
    · rw [funext hab]
      exact (((hasDerivAt_id' (x j)).const_mul β).const_add α).congr_deriv (by ring)
    · exact num_affine _ (by rw [n2]; exact he) x u t i j α β (fun r => by rw [n1]; exact hab r)
  rw [hlast]
  simp only [Lin.getDerivativeState, hf, Bool.not_false, if_true, Lin.baseState, n3]
  by_cases hj : j.val = n + i.val
  · obtain ⟨a1, a2⟩ := aff 0 1 (fun r => by
      rw [htop, show (⟨n + i.val, by omega⟩ : Fin (n + n)) = j from Fin.ext hj.symm, Function.update_self]; ring)
    cases so
    · simp only [Bool.false_eq_true, if_false, a2]; exact a1
    · simp only [if_true, top]
      rw [setBlock_in _ 0 n _ i j ⟨i.val, hi⟩ ⟨i.val, hi⟩ (by simp) hj, one_apply_eq]
      exact a1
  · obtain ⟨a1, a2⟩ := aff (num.dyn x t u i) 0 (fun r => by
      rw [htop, htop, Function.update_of_ne (fun hh => hj (congrArg Fin.val hh).symm)]; ring)
    cases so
    · simp only [Bool.false_eq_true, if_false, a2]; exact a1
    · simp only [if_true, top]
      have hjl := j.isLt
      by_cases hjn : n ≤ j.val
      · rw [setBlock_in _ 0 n _ i j ⟨i.val, hi⟩ ⟨j.val - n, by omega⟩ (by simp) (by simp; omega), one_apply_ne (by simp; omega)]
        exact a1
      · rw [setBlock_out _ _ _ _ _ _ (by omega), setBlock_in _ 0 0 _ i j ⟨i.val, hi⟩ ⟨j.val, by omega⟩ (by simp) (by simp)]
        exact a1

/-! ### C137 -/

theorem dFdu_top (ev : Env H c) (num : NumDiff.Linearizer (H + H) c ℝ) (so : Bool) (cs : List (Call H c)) (i : Fin (H + H)) (hi : i.val < H)
    (j : Fin c) : (ev.after num so cs).dFdu i j = 0 := by
  have key : ∀ (cs : List (Call H c)) (o : Lin H c), o.dFdu i j = 0 → (cs.foldl ev.step o).dFdu i j = 0 := by
    intro cs
    induction cs with
    | nil => intro o h; exact h
    | cons a cs ih =>
        intro o h
        rw [List.foldl_cons]
        apply ih
        cases a with
        | state x u t => cases hb : ev.floatingBase <;> simpa [Env.step, Lin.getDerivativeState, hb, Lin.baseState] using h
        | control x u t =>
            simp only [Env.step, Lin.getDerivativeControl]
            rw [setBlock_out _ _ _ _ _ _ (by omega), h]
  apply key
  simp only [Lin.new]
  rw [setBlock_in _ 0 0 _ i j ⟨i.val, hi⟩ j (by simp) (by simp)]
  rfl

theorem dFdu_low (ev : Env H c) (num : NumDiff.Linearizer (H + H) c ℝ) (so : Bool) (cs : List (Call H c)) (x : Fin (H + H) → ℝ)
    (u : Fin c → ℝ) (t : ℝ) (r : Fin H) (j : Fin c) :
    (ev.after num so (cs ++ [.control x u t])).dFdu (Fin.natAdd H r) j
      = (ev.llt (ev.M fun i => at' x ((if ev.floatingBase then 6 else 0) + i.val)) * ev.Sᵀ) r j := by
  simp only [Env.after, List.foldl_append, List.foldl_cons, List.foldl_nil, Env.step, Lin.getDerivativeControl]
  rw [setBlock_in _ H 0 _ _ j r j rfl (by simp)]

/-- What Eigen's Cholesky factorisation promises: solving with a symmetric positive definite matrix. -/
def LltOk (llt : Matrix (Fin H) (Fin H) ℝ → Matrix (Fin H) (Fin H) ℝ) : Prop :=
  ∀ A : Matrix (Fin H) (Fin H) ℝ, Aᵀ = A → (∀ x, x ≠ 0 → 0 < x ⬝ᵥ (A *ᵥ x)) → A * llt A = 1

theorem LltOk.solve {llt : Matrix (Fin H) (Fin H) ℝ → Matrix (Fin H) (Fin H) ℝ} (h : LltOk llt) {A : Matrix (Fin H) (Fin H) ℝ}
    (hs : Aᵀ = A) (hp : ∀ x, x ≠ 0 → 0 < x ⬝ᵥ (A *ᵥ x)) {x y : Fin H → ℝ} (hxy : A *ᵥ x = y) : x = llt A *ᵥ y := by
  have h1 := mul_eq_one_comm.1 (h A hs hp)
  rw [← hxy, mulVec_mulVec, h1, one_mulVec]

/-- C137: how torques act on the velocities.  With a floating base torque `i` acts on velocity `6 + i`, behind the
six of the base; otherwise the torques act on the last velocities.  Without six velocities a floating base is refused. -/
theorem C137_selection (c s : ℕ) :
    (selection c s true = .exc ↔ s < 6)
    ∧ (∀ S, selection c s true = .ok S → ∀ i j, S i j = if j.val = 6 + i.val then 1 else 0)
    ∧ (c ≤ s → ∃ S, selection c s false = .ok S ∧ ∀ i j, S i j = if j.val + c = s + i.val then 1 else 0) := by
  have key : ∀ (k : ℕ), k ≤ s → ∀ (i : Fin c) (j : Fin s), setBlock (0 : Matrix (Fin c) (Fin s) ℝ) 0 (s - k)
      (Matrix.of fun (i : Fin c) (j : Fin k) => if i.val = j.val then (1 : ℝ) else 0) i j = if j.val + k = s + i.val then 1 else 0 := by
    intro k hk i j
    have hi := i.isLt
    have hj := j.isLt
    by_cases h : s - k ≤ j.val
    · rw [setBlock_in _ _ _ _ i j i ⟨j.val - (s - k), by omega⟩ (by simp) (by simp; omega), of_apply]
      simp only
      congr 1
      simp only [eq_iff_iff]; omega
    · rw [setBlock_out _ _ _ _ _ _ (by omega), if_neg (by omega)]; rfl
  refine ⟨?_, ?_, ?_⟩
  · by_cases h : 6 ≤ s
    · simp only [selection, if_pos h, if_true]; exact ⟨fun h' => by simp at h', fun h' => by omega⟩
    · simp only [selection, if_neg h, if_true]; exact ⟨fun _ => by omega, fun _ => trivial⟩
  · intro S hS i j
    by_cases h : 6 ≤ s
    · simp only [selection, if_pos h, if_true] at hS
      rw [← Res.ok.inj hS, key (s - 6) (by omega)]
      have hj := j.isLt
      congr 1
      simp only [eq_iff_iff]; omega
    · simp only [selection, if_neg h, if_true] at hS
      cases hS
  · intro h
    refine ⟨_, by simp only [selection, Bool.false_eq_true, if_false, ite_self], key c h⟩

theorem selection_fixed {S : Matrix (Fin n) (Fin n) ℝ} (h : selection n n false = .ok S) : S = 1 := by
  have h' : selection n n false = .ok (1 : Matrix (Fin n) (Fin n) ℝ) := by
    have h1 : setBlock (0 : Matrix (Fin n) (Fin n) ℝ) 0 (n - n) (Matrix.of fun (i : Fin n) (j : Fin n) => if i.val = j.val then (1 : ℝ) else 0) = 1 := by
      ext i j
      rw [setBlock_in _ 0 (n - n) _ i j i j (by simp) (by simp), one_apply, of_apply]
      simp only [Fin.ext_iff]
    simp only [selection, Bool.false_eq_true, if_false, h1, ite_self]
  exact (Res.ok.inj (h'.symm.trans h)).symm

theorem selection_floating {S : Matrix (Fin n) (Fin (6 + n)) ℝ} (h : selection n (6 + n) true = .ok S) (w : Fin n → ℝ) :
    Sᵀ *ᵥ w = Fin.append (0 : Fin 6 → ℝ) w := by
  simp only [selection, if_true, if_pos (Nat.le_add_right 6 n)] at h
  have h := Res.ok.inj h
  subst h
  funext k
  simp only [mulVec, dotProduct, transpose_apply]
  refine Fin.addCases (fun k => ?_) (fun k => ?_) k
  · rw [Fin.append_left]
    refine Finset.sum_eq_zero fun i _ => ?_
    rw [setBlock_out _ _ _ _ _ _ (by simp)]
    simp
  · rw [Fin.append_right, Finset.sum_eq_single k]
    · rw [setBlock_in _ 0 _ _ k (Fin.natAdd 6 k) k ⟨k.val, by omega⟩ (by simp) (by simp)]
      simp
    · intro b _ hb
      rw [setBlock_in _ 0 _ _ b (Fin.natAdd 6 k) b ⟨k.val, by omega⟩ (by simp) (by simp)]
      rw [of_apply, if_neg (by simpa [Fin.ext_iff] using hb)]
      simp
    · simp

/-- **C137, fixed base.**  Whatever the linearizer of a fixed-base robot computed before, the control Jacobian it returns
describes the dependence of the dynamics on the joint forces exactly, for every change of the forces.  The hypotheses on
the robot are that the inertia matrix is symmetric and positive definite and maps changes of joint accelerations to changes
of joint forces. -/
theorem C137_fixed {W : Type} [Zero W] (ev : Env n n) (hf : ev.floatingBase = false) (hS : selection n n false = .ok ev.S)
    (hl : LltOk ev.llt) (rb : Actuator.Rob n 0 W) (hs : ∀ q, (ev.M q)ᵀ = ev.M q) (hp : ∀ q x, x ≠ 0 → 0 < x ⬝ᵥ (ev.M q *ᵥ x))
    (hfd : ∀ q v tau tau' lf, ev.M q *ᵥ (rb.fd ⟨q, v⟩ tau' lf - rb.fd ⟨q, v⟩ tau lf) = tau' - tau)
    (num : NumDiff.Linearizer (n + n) n ℝ) (so : Bool) (cs : List (Call n n)) (x : Fin (n + n) → ℝ) (u u' : Fin n → ℝ) (t : ℝ)
    (d : List ℝ) (hd : d.length = 2 * n) :
    ∃ y y' : Fin (n + n) → ℝ,
      rb.fdDynamics (none : Option (Actuator.Act n 0)) (List.ofFn x) t (List.ofFn u) d = .ok (List.ofFn y)
      ∧ rb.fdDynamics (none : Option (Actuator.Act n 0)) (List.ofFn x) t (List.ofFn u') d = .ok (List.ofFn y')
      ∧ y' = y + (ev.after num so (cs ++ [.control x u t])).dFdu *ᵥ (u' - u) := by
  have hx : List.ofFn x = List.ofFn (fun k => x (Fin.castAdd n k)) ++ List.ofFn (fun k => x (Fin.natAdd n k)) := by
    rw [← List.ofFn_fin_append, Fin.append_castAdd_natAdd]
  have key := fun w : Fin n → ℝ => Actuator.C90_torques rb (fun k => x (Fin.castAdd n k)) (fun k => x (Fin.natAdd n k)) w [] t
    d none hd
  have hlf : ∀ (w : Fin n → ℝ) q, rb.linkForces (List.ofFn w) q = fun _ => 0 := fun w q => by simp [Actuator.Rob.linkForces]
  simp only [List.append_nil, ← hx, ← List.ofFn_fin_append, hlf] at key
  refine ⟨_, _, key u, key u', ?_⟩
  funext i
  rw [Pi.add_apply]
  refine Fin.addCases (fun k => ?_) (fun k => ?_) i
  · rw [Fin.append_left, Fin.append_left]
    simp [mulVec, dotProduct, dFdu_top]
  · rw [Fin.append_right, Fin.append_right]
    have hq : (fun i : Fin n => at' x ((if ev.floatingBase then 6 else 0) + i.val)) = fun k => x (Fin.castAdd n k) := by
      funext k
      have hk : k.val < n + n := by omega
      simp only [hf, Bool.false_eq_true, if_false, Nat.zero_add, at', List.getD, List.getElem?_ofFn, hk, dif_pos, Option.getD_some]
      rfl
    have hrow : ((ev.after num so (cs ++ [.control x u t])).dFdu *ᵥ (u' - u)) (Fin.natAdd n k)
        = (ev.llt (ev.M fun k => x (Fin.castAdd n k)) *ᵥ (u' - u)) k := by
      simp only [mulVec, dotProduct, dFdu_low, hq, selection_fixed hS, transpose_one, Matrix.mul_one]
    rw [hrow, ← hl.solve (hs _) (hp _) (hfd (fun k => x (Fin.castAdd n k)) (fun k => x (Fin.natAdd n k)) u u' fun _ => 0)]
    simp

theorem low_values {kd : Kindr} (rb : FRob n l e) (sy : Sys n e) (hq : sy.quat = false) (x : Fin ((6 + n) + (6 + n)) → ℝ)
    (t : ℝ) (u : Fin n → ℝ) (k : Fin (6 + n)) :
    let s := sy.stateFrom kd (List.ofFn x)
    let r := rb.fd s.joints.pos (twist s) (gravityB6D kd s.pose) s.joints.vel u (sy.linkForces rb s (List.ofFn u))
    sysDyn kd rb sy x t u (Fin.natAdd (6 + n) k) = Fin.append r.1 r.2 k := by
  intro s r
  simp only [sysDyn]
  rw [dynamics_eq]
  have hD : ∀ (a : Acc n) s, sy.toDeriv kd a s = a.toEuler kd s := fun a s => by simp [Sys.toDeriv, hq]
  have hu : seg (List.ofFn u) 0 n = u := seg_at u _ [] [] (by simp) rfl
  rw [hD, hu]
  obtain ⟨-, -, -, h4, h5, h6⟩ := euler_segs (kd := kd) (forwardDynamics kd rb (sy.stateFrom kd (List.ofFn x)) u
    (sy.linkForces rb (sy.stateFrom kd (List.ofFn x)) (List.ofFn u)) Acc.zero) (sy.stateFrom kd (List.ofFn x))
  generalize (Acc.toEuler kd _ _) = y at h4 h5 h6 ⊢
  have e4 : ∀ m : Fin 3, y.getD (6 + n + m.val) 0 = (![r.1 0, r.1 1, r.1 2] : V3) m := fun m => congrFun h4 m
  have e5 : ∀ m : Fin 3, y.getD (9 + n + m.val) 0 = (![r.1 3, r.1 4, r.1 5] : V3) m := fun m => congrFun h5 m
  have e6 : ∀ m : Fin n, y.getD (2 * (n + 6) - n + m.val) 0 = r.2 m := fun m => congrFun h6 m
  refine Fin.addCases (fun k => ?_) (fun k => ?_) k
  · rw [Fin.append_left]
    show y.getD (6 + n + k.val) 0 = r.1 k
    fin_cases k
    · exact e4 0
    · exact e4 1
    · exact e4 2
    · exact (congrArg (y.getD · 0) (by simp; omega)).trans (e5 0)
    · exact (congrArg (y.getD · 0) (by simp; omega)).trans (e5 1)
    · exact (congrArg (y.getD · 0) (by simp; omega)).trans (e5 2)
  · rw [Fin.append_right, ← e6]
    exact congrArg (y.getD · 0) (by simp; omega)

/-- **C137, floating base.**  The same for a floating-base robot with Euler angles whose control vector holds the joint
forces, for every contact model. -/
theorem C137_floating (ev : Env (6 + n) n) (hf : ev.floatingBase = true) (hS : selection n (6 + n) true = .ok ev.S)
    (hl : LltOk ev.llt) (rb : FRob n l e) (hs : ∀ q, (ev.M q)ᵀ = ev.M q) (hp : ∀ q x, x ≠ 0 → 0 < x ⬝ᵥ (ev.M q *ᵥ x))
    (hfd : ∀ q v g qd tau tau' lf, ev.M q *ᵥ Fin.append ((rb.fd q v g qd tau' lf).1 - (rb.fd q v g qd tau lf).1)
      ((rb.fd q v g qd tau' lf).2 - (rb.fd q v g qd tau lf).2) = Fin.append (0 : Fin 6 → ℝ) (tau' - tau))
    (sy : Sys n e) (hq : sy.quat = false) (hee : sy.eeIn = false)
    (num : NumDiff.Linearizer ((6 + n) + (6 + n)) n ℝ) (so : Bool) (cs : List (Call (6 + n) n))
    (x : Fin ((6 + n) + (6 + n)) → ℝ) (u u' : Fin n → ℝ) (t : ℝ) :
    sysDyn ev.kd rb sy x t u' = sysDyn ev.kd rb sy x t u + (ev.after num so (cs ++ [.control x u t])).dFdu *ᵥ (u' - u) := by
  funext i
  rw [Pi.add_apply]
  refine Fin.addCases (fun k => ?_) (fun k => ?_) i
  · have h0 : ((ev.after num so (cs ++ [.control x u t])).dFdu *ᵥ (u' - u)) (Fin.castAdd (6 + n) k) = 0 := by
      simp [mulVec, dotProduct, dFdu_top]
    rw [h0, add_zero]
    by_cases k0 : k.val < 3
    · rw [(top_values rb sy hq x t u' _).1 ⟨k.val, k0⟩ rfl, (top_values rb sy hq x t u _).1 ⟨k.val, k0⟩ rfl]
    · by_cases k1 : k.val < 6
      · rw [(top_values rb sy hq x t u' _).2.1 ⟨k.val - 3, by omega⟩ (by simp; omega),
          (top_values rb sy hq x t u _).2.1 ⟨k.val - 3, by omega⟩ (by simp; omega)]
      · rw [(top_values rb sy hq x t u' _).2.2 (k.val - 6) (by omega) (by simp; omega),
          (top_values rb sy hq x t u _).2.2 (k.val - 6) (by omega) (by simp; omega)]
  · rw [low_values rb sy hq, low_values rb sy hq]
    have hlf : ∀ (w : Fin n → ℝ) s, sy.linkForces rb s (List.ofFn w) = sy.linkForces rb s [] := fun w s => by
      simp [Sys.linkForces, Sys.eeForces, hee]
    rw [hlf u, hlf u']
    have hjq : (fun i : Fin n => at' x ((if ev.floatingBase then 6 else 0) + i.val)) = (sy.stateFrom ev.kd (List.ofFn x)).joints.pos := by
      simp only [hf, if_true, Sys.stateFrom, hq, Bool.false_eq_true, if_false, RBD.fromStateVectorEulerXyz]
      rfl
    have hrow : ((ev.after num so (cs ++ [.control x u t])).dFdu *ᵥ (u' - u)) (Fin.natAdd (6 + n) k)
        = (ev.llt (ev.M (sy.stateFrom ev.kd (List.ofFn x)).joints.pos) *ᵥ (ev.Sᵀ *ᵥ (u' - u))) k := by
      rw [mulVec_mulVec]
      simp only [mulVec, dotProduct, dFdu_low, hjq]
    rw [hrow, selection_floating hS, ← hl.solve (hs _) (hp _) (hfd _ _ _ _ u u' _)]
    refine Fin.addCases (fun k => ?_) (fun k => ?_) k
    · rw [Fin.append_left, Fin.append_left, Fin.append_left]; exact (add_sub_cancel _ _).symm
    · rw [Fin.append_right, Fin.append_right, Fin.append_right]; exact (add_sub_cancel _ _).symm

end CT.RbdLin
