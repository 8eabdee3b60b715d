import Verif.Model.ProjectedSystem
import Verif.Props.FloatingSystem
import Verif.Props.ConstraintJac
import Mathlib.Analysis.Calculus.MeanValue

/-!
# C192: feet in contact stay where they are
-/

namespace CT.ProjSys

open Matrix CT.ConDyn CT.FrameJac CT.FloatSys CT.Robot CT.OpJac CT.Inverses

variable {n : ℕ} {kd : Kindr} {co : Code n} {sy : Sys}

/-! ### Specification -/

/-- The generated code returns positions and geometric Jacobians of kinematic chains, one for each end effector. -/
structure Code.Chains (co : Code n) (c : ℕ → ℕ → Joint) (tool : ℕ → V3) : Prop where
  valid : ∀ e i, (c e i).Valid
  pos : ∀ e q, co.eePos e q = endEffector (c e) (tool e) n (ext q)
  rot : ∀ e q, co.rot e q = rotCol (c e) (ext q)
  trans : ∀ e q, co.trans e q = transCol (c e) (tool e) n (ext q)

/-- `getEEPositionInWorld` for a state vector. -/
noncomputable def foot (kd : Kindr) (co : Code n) (sy : Sys) (e : ℕ) (x : List ℝ) : V3 :=
  let s : RBD ℝ n := sy.stateFrom kd x
  eePositionInWorld s.pose.position (rotationMatrix kd s.pose) (co.eePos e s.joints.pos)

/-! ### The state moves as its velocities and accelerations say -/

/-- Kinematics of the state and its accelerations. -/
structure Moves (kd : Kindr) (S : ℝ → RBD ℝ n) (a : Acc n) (t : ℝ) : Prop where
  rot : MDeriv (fun s => rotationMatrix kd (S s).pose) (rotationMatrix kd (S t).pose * cpm (S t).angVel) t
  pos : VDeriv (fun s => (S s).pose.position) (rotationMatrix kd (S t).pose *ᵥ (S t).linVel) t
  joints : VDeriv (fun s => (S s).joints.pos) (S t).joints.vel t
  ang : VDeriv (fun s => (S s).angVel) a.ang t
  lin : VDeriv (fun s => (S s).linVel) a.lin t
  jvel : VDeriv (fun s => (S s).joints.vel) a.joints t

theorem moves_euler (hk : kd.Ok) (hq : sy.quat = false) {x : ℝ → List ℝ} {t : ℝ} {a : Acc n}
    (hx : LDeriv x (a.toEuler kd (sy.stateFrom kd (x t))) t) (hc : Real.cos ((x t).getD 1 0) ≠ 0) :
    Moves kd (fun s => (sy.stateFrom kd (x s) : RBD ℝ n)) a t := by
  have hS : ∀ s, (sy.stateFrom kd (x s) : RBD ℝ n) = (RBD.blank n true).fromStateVectorEulerXyz kd.conv (x s) := fun s => by
    simp [Sys.stateFrom, hq]
  obtain ⟨h1, h2, h3, h4, h5, h6⟩ := euler_segs (kd := kd) a (sy.stateFrom kd (x t))
  have hR : ∀ s, rotationMatrix kd (sy.stateFrom kd (x s) : RBD ℝ n).pose = rotXYZ (seg (x s) 0 3) := fun s => by
    rw [hS]; simp [rotationMatrix, RBD.fromStateVectorEulerXyz, RBD.blank, Pose.init, Pose.setEuler, eulerQuatMatrix_eq]
  have hB : ∀ v, rotateBaseToInertia kd (sy.stateFrom kd (x t) : RBD ℝ n).pose v = rotXYZ (seg (x t) 0 3) *ᵥ v := fun v => by
    rw [← hR]; rw [hS]; simp [rotateBaseToInertia, RBD.fromStateVectorEulerXyz, RBD.blank, Pose.init, Pose.setEuler]
  have hE : (sy.stateFrom kd (x t) : RBD ℝ n).pose.getEuler kd.conv = seg (x t) 0 3 := by
    rw [hS]; simp [RBD.fromStateVectorEulerXyz, RBD.blank, Pose.init, Pose.setEuler, Pose.getEuler]
  have hcc : Real.cos (seg (x t) 0 3 1) ≠ 0 := hc
  rw [hE] at h1
  have d1 := hx.seg 0 3
  have d2 := hx.seg 3 3
  have d3 := hx.seg 6 n
  have d4 := hx.seg (6 + n) 3
  have d5 := hx.seg (9 + n) 3
  have d6 := hx.seg (2 * (n + 6) - n) n
  rw [h1] at d1
  rw [h2, hB] at d2
  rw [h3] at d3
  rw [h4] at d4
  rw [h5] at d5
  rw [h6] at d6
  refine ⟨?_, ?_, ?_, ?_, ?_, ?_⟩
  · simp only [hR]
    have := rotXYZ_deriv d1
    rwa [hk.rate _ _ hcc] at this
  · simp only [hR]
    simp only [hS] at d2 ⊢
    exact d2
  · simp only [hS] at d3 ⊢
    exact d3
  · simp only [hS]
    exact d4
  · simp only [hS]
    exact d5
  · simp only [hS]
    exact d6

theorem moves_quat (hk : kd.Ok) (hq : sy.quat = true) {x : ℝ → List ℝ} {t : ℝ} {a : Acc n}
    (hx : LDeriv x (a.toQuat kd (sy.stateFrom kd (x t))) t) (hc : ∀ s, seg (x s) 0 4 ⬝ᵥ seg (x s) 0 4 = 1) :
    Moves kd (fun s => (sy.stateFrom kd (x s) : RBD ℝ n)) a t := by
  have hS : ∀ s, (sy.stateFrom kd (x s) : RBD ℝ n) = (RBD.blank n false).fromStateVectorQuaternion kd.conv (x s) := fun s => by
    simp [Sys.stateFrom, hq]
  obtain ⟨h1, h2, h3, h4, h5, h6⟩ := quat_segs (kd := kd) a (sy.stateFrom kd (x t))
  have hR : ∀ s, rotationMatrix kd (sy.stateFrom kd (x s) : RBD ℝ n).pose = quatMatrix (seg (x s) 0 4) := fun s => by
    rw [hS, ← hk.quatRot _ (hc s)]; simp [rotationMatrix, RBD.fromStateVectorQuaternion, RBD.blank, Pose.init, Pose.setQuat]
  have hB : ∀ v, rotateBaseToInertia kd (sy.stateFrom kd (x t) : RBD ℝ n).pose v = quatMatrix (seg (x t) 0 4) *ᵥ v := fun v => by
    rw [hS, ← hk.quatRot _ (hc t)]; simp [rotateBaseToInertia, RBD.fromStateVectorQuaternion, RBD.blank, Pose.init, Pose.setQuat]
  have hE : (sy.stateFrom kd (x t) : RBD ℝ n).pose.getQuat kd.conv = seg (x t) 0 4 := by
    rw [hS]; simp [RBD.fromStateVectorQuaternion, RBD.blank, Pose.init, Pose.setQuat, Pose.getQuat]
  rw [hE, hk.quatDiff] at h1
  have d1 := hx.seg 0 4
  have d2 := hx.seg 4 3
  have d3 := hx.seg 7 n
  have d4 := hx.seg (7 + n) 3
  have d5 := hx.seg (10 + n) 3
  have d6 := hx.seg (2 * (n + 6) + 1 - n) n
  rw [h1] at d1
  rw [h2, hB] at d2
  rw [h3] at d3
  rw [h4] at d4
  rw [h5] at d5
  rw [h6] at d6
  refine ⟨?_, ?_, ?_, ?_, ?_, ?_⟩
  · simp only [hR]
    exact quatMatrix_deriv (hc t) d1
  · simp only [hR]
    simp only [hS] at d2 ⊢
    exact d2
  · simp only [hS] at d3 ⊢
    exact d3
  · simp only [hS]
    exact d4
  · simp only [hS]
    exact d5
  · simp only [hS]
    exact d6

/-- A quaternion that starts as a unit quaternion remains one. -/
theorem unit_stays (hk : kd.Ok) (hq : sy.quat = true) {x : ℝ → List ℝ} {a : ℝ → Acc n}
    (hx : ∀ t, LDeriv x ((a t).toQuat kd (sy.stateFrom kd (x t))) t) (h0 : seg (x 0) 0 4 ⬝ᵥ seg (x 0) 0 4 = 1) (s : ℝ) :
    seg (x s) 0 4 ⬝ᵥ seg (x s) 0 4 = 1 := by
  rw [← h0]
  refine is_const_of_deriv_eq_zero (f := fun s => seg (x s) 0 4 ⬝ᵥ seg (x s) 0 4) ?_ ?_ s 0
  all_goals
    intro t
    have hE : (sy.stateFrom kd (x t) : RBD ℝ n).pose.getQuat kd.conv = seg (x t) 0 4 := by
      simp [Sys.stateFrom, hq, RBD.fromStateVectorQuaternion, RBD.blank, Pose.init, Pose.setQuat, Pose.getQuat]
    have h1 := (quat_segs (kd := kd) (a t) (sy.stateFrom kd (x t))).1
    rw [hE, hk.quatDiff] at h1
    have d := (hx t).seg 0 4
    rw [h1] at d
    have hd : HasDerivAt (fun s => seg (x s) 0 4 ⬝ᵥ seg (x s) 0 4) 0 t := by
      have := (((d 0).mul (d 0)).add ((d 1).mul (d 1))).add (((d 2).mul (d 2)).add ((d 3).mul (d 3)))
      simp only [dotProduct, Fin.sum_univ_four]
      refine HasDerivAt.congr_deriv (this.congr_of_eventuallyEq (Filter.Eventually.of_forall fun s => ?_)) ?_
      · simp only [Pi.add_apply, Pi.mul_apply]; ring
      · simp [quatMul]; ring
  · exact hd.differentiableAt
  · exact hd.deriv

/-! ### Feet -/

theorem byColumn_colOf (f : Fin 3 ⊕ (Fin 3 ⊕ Fin n) → ℝ) (x : Fin 3 ⊕ (Fin 3 ⊕ Fin n)) : byColumn f (colOf x) = f x := by
  rcases x with i | i | i
  · simp [byColumn, colOf]
  · simp [byColumn, colOf]
  · have h1 : ¬ 6 + i.1 < 3 := by omega
    have h2 : ¬ 6 + i.1 - 3 < 3 := by omega
    simp [byColumn, colOf, h1, h2]

theorem ext_deriv {v : ℝ → Fin n → ℝ} {v' : Fin n → ℝ} {t : ℝ} (h : VDeriv v v' t) (i : ℕ) :
    HasDerivAt (fun s => ext (v s) i) (ext v' i) t := by
  by_cases hi : i < n
  · simp only [ext, dif_pos hi]
    exact h ⟨i, hi⟩
  · simp only [ext, dif_neg hi]
    exact hasDerivAt_const _ _

theorem ext_fin (v : Fin n → ℝ) : (fun j : Fin n => ext v j) = v := by
  funext j
  simp [ext]

/-- **C192.**  Along every solution of the system of a robot in contact, for any torques over time and whatever the members of
the dynamics contained before each call, every end effector in contact moves in the world with the velocity it started with; if
it was at rest, it stays where it is.  The orientation is given by Euler angles away from their singularity, or by quaternions
that start with unit length; mass matrix and contacts are regular. -/
theorem C192_feet_stay (hk : kd.Ok) {c : ℕ → ℕ → Joint} {tool : ℕ → V3} (hco : co.Chains c tool)
    {x : ℝ → List ℝ} {u : ℝ → Fin n → ℝ} {w : ℝ → Work}
    (hx : ∀ t, LDeriv x (sy.dynamics kd co (w t) (x t) (u t)) t)
    (hreg : if sy.quat then seg (x 0) 0 4 ⬝ᵥ seg (x 0) 0 4 = 1 else ∀ t, Real.cos ((x t).getD 1 0) ≠ 0)
    (hM : ∀ t, PosDef (6 + n) (terms kd co sy (w t) (sy.stateFrom kd (x t))).M)
    (hJ : ∀ t, Independent (6 + n) sy.NEE sy.ee (terms kd co sy (w t) (sy.stateFrom kd (x t))).J)
    {e : ℕ} (he : e < sy.NEE) (hee : sy.ee e = true) :
    (∃ v, VDeriv (fun t => foot kd co sy e (x t)) v 0) ∧
    (∀ v, VDeriv (fun t => foot kd co sy e (x t)) v 0 → ∀ t, foot kd co sy e (x t) = foot kd co sy e (x 0) + t • v) ∧
    (VDeriv (fun t => foot kd co sy e (x t)) 0 0 → ∀ t, foot kd co sy e (x t) = foot kd co sy e (x 0)) := by
  set S : ℝ → RBD ℝ n := fun s => sy.stateFrom kd (x s) with hSdef
  set A : ℝ → Acc n := fun t => forward kd co sy (w t) (S t) (u t) Acc.zero with hA
  have hm : ∀ t, Moves kd S (A t) t := by
    intro t
    cases hq : sy.quat
    · simp only [hq, Bool.false_eq_true, if_false] at hreg
      refine moves_euler hk hq ?_ (hreg t)
      have := hx t
      simp only [Sys.dynamics, hq, Bool.false_eq_true, if_false] at this
      exact this
    · simp only [hq, if_true] at hreg
      have hx' : ∀ t, LDeriv x ((A t).toQuat kd (sy.stateFrom kd (x t))) t := fun t => by
        have := hx t
        simp only [Sys.dynamics, hq, if_true] at this
        exact this
      exact moves_quat hk hq (hx' t) (unit_stays hk hq hx' hreg)
  -- the accelerations of every instant are zero
  have key : ∀ t, ∃ vel : ℝ → V3, (∀ s, VDeriv (fun t => foot kd co sy e (x t)) (vel s) s) ∧ VDeriv vel 0 t := by
    intro t
    have hS := (C114_forward (6 + n) sy.NEE sy.ee (terms kd co sy (w t) (S t)) (ext (u t)) (w t).red (w t).d (w t).y (w t).X
      (fun _ _ => 0) (hM t) (hJ t)).1
    have := C117_contact hS hco.valid tool (R := fun s => rotationMatrix kd (S s).pose) (r := fun s => (S s).pose.position)
      (ω := fun s => (S s).angVel) (v := fun s => (S s).linVel) (q := fun s => ext (S s).joints.pos)
      (qd := fun s => ext (S s).joints.vel) (t := t) (old := (w t).flags) ?_ (fun s => (hm s).pos)
      (fun s i => ext_deriv (hm s).joints i) ?_ ?_ ?_ ?_ ?_ ?_ ?_ he hee
    · simp only [foot, hco.pos]
      exact this
    · intro s v i
      have h1 := mulVec_deriv (hm s).rot (VDeriv.const v s) i
      rw [Matrix.mulVec_zero, add_zero, ← Matrix.mulVec_mulVec, cpm_mulVec] at h1
      exact h1
    · intro i
      have := (hm t).ang i
      refine this.congr_deriv ?_
      fin_cases i <;> rfl
    · intro i
      have := (hm t).lin i
      refine this.congr_deriv ?_
      fin_cases i <;> rfl
    · intro i hi
      have := ext_deriv (hm t).jvel i
      simp only [ext, dif_pos hi] at this ⊢
      exact this
    · intro row y
      simp only [terms, byColumn_colOf, hco.pos, hco.trans]
    · intro row y
      simp only [terms, byColumn_colOf, hco.rot, hco.trans]
    · intro y
      simp only [terms, byColumn_colOf, ext_fin]
    · intro e a
      simp only [terms, a.2, dite_true, hco.pos, hco.trans, ext_fin]
  obtain ⟨vel, hv, -⟩ := key 0
  have hv0 : ∀ t, VDeriv vel 0 t := by
    intro t
    obtain ⟨vel', hv', h0⟩ := key t
    have : vel' = vel := by
      funext s i
      exact (hv' s i).unique (hv s i)
    rwa [← this]
  have hconst : ∀ t, vel t = vel 0 := by
    intro t
    funext i
    exact is_const_of_deriv_eq_zero (f := fun s => vel s i) (fun s => (hv0 s i).differentiableAt) (fun s => (hv0 s i).deriv) t 0
  have hlin : ∀ v, VDeriv (fun t => foot kd co sy e (x t)) v 0 →
      ∀ t, foot kd co sy e (x t) = foot kd co sy e (x 0) + t • v := by
    intro v hv' t
    have hvv : v = vel 0 := by
      funext i
      exact (hv' i).unique (hv 0 i)
    funext i
    have hd : ∀ s, HasDerivAt (fun s => foot kd co sy e (x s) i - s * v i) 0 s := by
      intro s
      have h1 := (hv s i).sub ((hasDerivAt_id' s).mul_const (v i))
      refine h1.congr_deriv ?_
      rw [hconst s, hvv]
      ring
    have := is_const_of_deriv_eq_zero (f := fun s => foot kd co sy e (x s) i - s * v i)
      (fun s => (hd s).differentiableAt) (fun s => (hd s).deriv) t 0
    simp only [zero_mul, sub_zero] at this
    simp only [Pi.add_apply, Pi.smul_apply, smul_eq_mul]
    linarith
  refine ⟨⟨_, hv 0⟩, hlin, fun h t => ?_⟩
  have := hlin 0 h t
  rwa [smul_zero, add_zero] at this

/-! ### The hypotheses can be met -/

/-- A body of unit inertia without joints that stands on one foot straight below it, on a skate. -/
noncomputable def skater : Code 0 where
  M _ p := if p.1 = p.2 then 1 else 0
  cor _ _ _ _ := 0
  grav g _ i := if h : i < 6 then - g ⟨i, h⟩ else 0
  eePos _ q := endEffector (fun _ => jointZ .revolute) ![0, 0, -1] 0 (ext q)
  rot _ q := rotCol (fun _ => jointZ .revolute) (ext q)
  trans _ q := transCol (fun _ => jointZ .revolute) ![0, 0, -1] 0 (ext q)

theorem skater_chains : skater.Chains (fun _ _ => jointZ .revolute) (fun _ => ![0, 0, -1]) :=
  ⟨fun _ _ => jointZ_valid _, fun _ _ => rfl, fun _ _ => rfl, fun _ _ => rfl⟩

/-- Euler angles, one foot, in contact. -/
def skating : Sys := ⟨false, 1, fun _ => true⟩

/-- It slides along the x axis of the world. -/
def slide (t : ℝ) : List ℝ := [0, 0, 0, t, 0, 0, 0, 0, 0, 1, 0, 0]

theorem slide_rot : rotXYZ 0 = 1 := by
  simp [rotXYZ, rotX, rotY, rotZ]
  ext i j; fin_cases i <;> fin_cases j <;> simp

theorem slide_state (cv : Conv ℝ) (t : ℝ) : let s : RBD ℝ 0 := skating.stateFrom (stdKindr cv) (slide t)
    s.angVel = 0 ∧ s.linVel = ![1, 0, 0] ∧ s.pose.getEuler cv = 0 ∧ s.pose.position = ![t, 0, 0] ∧
    gravityB6D (stdKindr cv) s.pose = ![0, 0, 0, 0, 0, -9.81] ∧
    (∀ v, rotateBaseToInertia (stdKindr cv) s.pose v = v) ∧ rotationMatrix (stdKindr cv) s.pose = 1 := by
  intro s
  have hs : s = (RBD.blank 0 true).fromStateVectorEulerXyz cv (slide t) := by
    simp [s, Sys.stateFrom, skating, stdKindr]
  have he : (seg (slide t) 0 3 : V3) = 0 := by funext i; fin_cases i <;> rfl
  have hr : rotationMatrix (stdKindr cv) s.pose = 1 := by
    rw [hs]
    simp [rotationMatrix, RBD.fromStateVectorEulerXyz, RBD.blank, Pose.init, Pose.setEuler, eulerQuatMatrix_eq, he, slide_rot]
  refine ⟨?_, ?_, ?_, ?_, ?_, ?_, hr⟩
  · rw [hs]; funext i; fin_cases i <;> rfl
  · rw [hs]; funext i; fin_cases i <;> rfl
  · rw [hs]; simp [RBD.fromStateVectorEulerXyz, RBD.blank, Pose.init, Pose.setEuler, Pose.getEuler, he]
  · rw [hs]; funext i; fin_cases i <;> rfl
  · have : rotateInertiaToBase (stdKindr cv) s.pose gravity3DW = gravity3DW := by
      rw [hs]
      simp [rotateInertiaToBase, RBD.fromStateVectorEulerXyz, RBD.blank, Pose.init, Pose.setEuler, stdKindr, he, slide_rot]
    rw [gravityB6D, this]
    rfl
  · intro v
    rw [rotateBaseToInertia, hr, Matrix.one_mulVec, if_pos]
    rw [hs]; simp [RBD.fromStateVectorEulerXyz, RBD.blank, Pose.init, Pose.setEuler]

theorem skater_J (kd : Kindr) (w : Work) (s : RBD ℝ 0) (a : Fin 3) (x : Fin 3 ⊕ (Fin 3 ⊕ Fin 0)) :
    (terms kd skater skating w s).J (3 * 0 + a, colOf x) = cat (-(1 : M3) * cpm ![0, 0, -1]) 1 0 a x := by
  have h : endEffector (fun _ => jointZ .revolute) ![0, 0, -1] 0 (ext s.joints.pos) = ![0, 0, -1] := by
    funext i
    fin_cases i <;> simp [endEffector, frame]
  simp only [terms, byColumn_colOf]
  rw [C117_rows skating.NEE _ _ _ (by simp [skating]), if_pos (show skating.ee 0 = true from rfl), eeJacobian, jacTranslation]
  simp only [skater, h]
  rcases x with i | i | i
  · rfl
  · rfl
  · exact i.elim0

theorem skater_J' (kd : Kindr) (w : Work) (s : RBD ℝ 0) : ∀ a < 3, ∀ j < 6,
    (terms kd skater skating w s).J (a, j) =
      if j = a + 3 then 1 else if a = 0 ∧ j = 1 then -1 else if a = 1 ∧ j = 0 then 1 else 0 := by
  intro a ha j hj
  have h1 := fun (a i : Fin 3) => skater_J kd w s a (.inl i)
  have h2 := fun (a i : Fin 3) => skater_J kd w s a (.inr (.inl i))
  simp only [colOf, mul_zero, zero_add] at h1 h2
  by_cases h : j < 3
  · rw [h1 ⟨a, ha⟩ ⟨j, h⟩]
    interval_cases a <;> interval_cases j <;> simp [cat, cpm]
  · obtain ⟨i, rfl⟩ := Nat.exists_eq_add_of_le (Nat.le_of_not_lt h)
    rw [h2 ⟨a, ha⟩ ⟨i, by omega⟩]
    have : i < 3 := by omega
    interval_cases a <;> interval_cases i <;> simp [cat]

theorem skater_M (kd : Kindr) (w : Work) (s : RBD ℝ 0) : PosDef (6 + 0) (terms kd skater skating w s).M := by
  refine ⟨fun i _ j _ => by simp [terms, skater, eq_comm], fun v ⟨i, hi, hv⟩ => ?_⟩
  have : ∀ i ∈ Finset.range (6 + 0), ∑ j ∈ Finset.range (6 + 0), v i * ((terms kd skater skating w s).M (i, j) * v j) =
      v i ^ 2 := by
    intro i hi
    rw [Finset.sum_eq_single i]
    · simp [terms, skater]; ring
    · intro j _ hj; simp [terms, skater, hj.symm]
    · intro h; exact absurd hi h
  rw [Finset.sum_congr rfl this]
  exact Finset.sum_pos' (fun _ _ => sq_nonneg _) ⟨i, Finset.mem_range.2 hi, by positivity⟩

theorem skater_independent (kd : Kindr) (w : Work) (s : RBD ℝ 0) :
    Independent (6 + 0) skating.NEE skating.ee (terms kd skater skating w s).J := by
  intro l hl e he _ a ha
  obtain rfl : e = 0 := by simp [skating] at he; exact he
  have h := hl (a + 3) (by omega)
  have hJ := fun a' (h : a' < 3) => skater_J' kd w s a' h (a + 3) (by omega)
  simp only [skating, Finset.sum_range_succ, Finset.sum_range_zero, if_true, zero_add, mul_zero] at h
  simp only [skating] at hJ
  rw [hJ 0 (by omega), hJ 1 (by omega), hJ 2 (by omega)] at h
  interval_cases a <;> simpa using h

theorem slide_solves (cv : Conv ℝ) (w : Work) (t : ℝ) :
    Solves (6 + 0) skating.NEE skating.ee (terms (stdKindr cv) skater skating w (skating.stateFrom (stdKindr cv) (slide t)))
      (ext (fun _ => 0 : Fin 0 → ℝ)) (fun _ => 0) (fun _ a => if a = 2 then 9.81 else 0) := by
  obtain ⟨hang, hlin, -, -, hg, -, -⟩ := slide_state cv t
  set s : RBD ℝ 0 := skating.stateFrom (stdKindr cv) (slide t)
  refine ⟨fun i hi => ?_, fun e he _ a ha => ?_, fun e _ h => by cases h⟩
  · have hJ := fun a' (h : a' < 3) => skater_J' (stdKindr cv) w s a' h i (by omega)
    have hG : (terms (stdKindr cv) skater skating w s).grav i = if i = 5 then 9.81 else 0 := by
      have : (terms (stdKindr cv) skater skating w s).grav i = - (![0, 0, 0, 0, 0, -9.81] : Fin 6 → ℝ) ⟨i, by omega⟩ := by
        simp only [terms, skater, hg, dif_pos (show i < 6 by omega)]
      rw [this]
      have : i < 6 := by omega
      interval_cases i <;> simp
    have hC : (terms (stdKindr cv) skater skating w s).cor i = 0 := rfl
    rw [hG, hC, show skating.NEE = 1 from rfl]
    simp only [Finset.sum_range_succ, Finset.sum_range_zero, zero_add, mul_zero, add_zero]
    rw [if_pos (show skating.ee 0 = true from rfl), hJ 0 (by omega), hJ 1 (by omega), hJ 2 (by omega), if_pos (by omega : i < 6)]
    have : i < 6 := by omega
    interval_cases i <;> simp
  · obtain rfl : e = 0 := by simp [skating] at he; exact he
    have hcross : (terms (stdKindr cv) skater skating w s).cross 0 a = 0 := by
      simp only [terms, dif_pos ha, hang, zero_cross]
      rfl
    have hdJ : ∀ x : Fin 3 ⊕ (Fin 3 ⊕ Fin 0), (terms (stdKindr cv) skater skating w s).dJ (3 * 0 + (⟨a, ha⟩ : Fin 3), colOf x) = 0 := by
      generalize (⟨a, ha⟩ : Fin 3) = b
      intro x
      simp only [terms, byColumn_colOf]
      rw [C117_rows skating.NEE _ _ _ (by simp [skating]), if_pos (show skating.ee 0 = true from rfl), eeDerivative]
      have hv : cols 0 (skater.trans 0 s.joints.pos) *ᵥ (fun j : Fin 0 => ext s.joints.vel j) = 0 := by
        funext i; simp [Matrix.mulVec, dotProduct]
      rw [hv]
      rcases x with i | i | i
      · show dJdtBase 0 _ i = 0
        fin_cases b <;> fin_cases i <;> simp [dJdtBase]
      · rfl
      · exact i.elim0
    rw [hcross, add_zero, sum_colOf 0 fun j => (terms (stdKindr cv) skater skating w s).dJ (3 * 0 + a, j) * _]
    simp only [mul_zero, Finset.sum_const_zero, zero_add]
    refine Finset.sum_eq_zero fun x _ => ?_
    have := hdJ x
    simp only [mul_zero, zero_add] at this
    rw [this, zero_mul]

theorem slide_dynamics (cv : Conv ℝ) (w : Work) (t : ℝ) :
    skating.dynamics (stdKindr cv) skater w (slide t) (fun _ => 0) = [0, 0, 0, 1, 0, 0, 0, 0, 0, 0, 0, 0] := by
  obtain ⟨hang, hlin, he, -, -, hB, -⟩ := slide_state cv t
  have hu := ((C114_forward (6 + 0) skating.NEE skating.ee
    (terms (stdKindr cv) skater skating w (skating.stateFrom (stdKindr cv) (slide t))) (ext (fun _ => 0 : Fin 0 → ℝ)) w.red w.d w.y w.X
    (fun _ _ => 0) (skater_M _ _ _) (skater_independent _ _ _)).2 _ _ (slide_solves cv w t)).1
  have hf : forward (stdKindr cv) skater skating w (skating.stateFrom (stdKindr cv) (slide t)) (fun _ => 0) Acc.zero =
      (⟨fun _ => 0, fun _ => 0, Fin.elim0⟩ : Acc 0) := by
    simp only [forward, Acc.setBase]
    congr 1
    · funext i; fin_cases i
      exacts [(hu 0 (by omega)).symm, (hu 1 (by omega)).symm, (hu 2 (by omega)).symm]
    · funext i; fin_cases i
      exacts [(hu 3 (by omega)).symm, (hu 4 (by omega)).symm, (hu 5 (by omega)).symm]
    · funext i; exact i.elim0
  simp only [Sys.dynamics, hf]
  rw [if_neg (by simp [skating])]
  simp only [Acc.toEuler, hB, hang, hlin]
  rw [show (stdKindr cv).conv = cv from rfl, he]
  simp [stdKindr, eulerRate, List.ofFn_succ]

/-- All hypotheses of `C192_feet_stay` are met by the skater, whose foot has unit velocity. -/
example (cv : Conv ℝ) (w : ℝ → Work) :
    (∀ t, LDeriv slide (skating.dynamics (stdKindr cv) skater (w t) (slide t) (fun _ => 0)) t) ∧
    (if skating.quat then seg (slide 0) 0 4 ⬝ᵥ seg (slide 0) 0 4 = 1 else ∀ t, Real.cos ((slide t).getD 1 0) ≠ 0) ∧
    (stdKindr cv).Ok ∧ skater.Chains (fun _ _ => jointZ .revolute) (fun _ => ![0, 0, -1]) ∧
    foot (stdKindr cv) skater skating 0 (slide 2) = ![2, 0, -1] := by
  refine ⟨fun t i => ?_, ?_, stdKindr_ok cv, skater_chains, ?_⟩
  · rw [slide_dynamics]
    by_cases h : i < 12
    · interval_cases i
      case «3» => exact hasDerivAt_id' t
      case «9» => exact hasDerivAt_const t (1 : ℝ)
      all_goals exact hasDerivAt_const t (0 : ℝ)
    · obtain ⟨k, rfl⟩ := Nat.exists_eq_add_of_le (Nat.le_of_not_lt h)
      have : (fun s => (slide s).getD (12 + k) 0) = fun _ => (0 : ℝ) := by
        funext s
        simp [slide, List.getD]
      rw [this]
      refine (hasDerivAt_const t (0 : ℝ)).congr_deriv ?_
      simp [List.getD]
  · simp [skating, slide]
  · obtain ⟨-, -, -, hp, -, -, hr⟩ := slide_state cv 2
    simp only [foot, hp, hr, eePositionInWorld, Matrix.one_mulVec]
    have h : skater.eePos 0 (skating.stateFrom (stdKindr cv) (slide 2)).joints.pos = ![0, 0, -1] := by
      funext i
      fin_cases i <;> simp [skater, endEffector, frame]
    rw [h]
    funext i
    fin_cases i <;> simp

end CT.ProjSys
