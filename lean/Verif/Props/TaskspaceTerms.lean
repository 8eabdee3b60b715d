import Verif.Props.TaskspaceRobots
import Verif.Props.FloatingSystem
import Mathlib.LinearAlgebra.Matrix.PosDef

/-! # C145, C146: values and Hessians of the task-space terms, cost of the inverse kinematics problem -/

namespace CT.Taskspace

open Matrix FrameJac FloatSys Lookup

/-! ### C145: zero exactly at the goal -/

theorem frob_eq {E : M3} (h : IsRot E) : ∑ i, ∑ j, (E - 1) i j ^ 2 = 6 - 2 * E.trace := by
  have c00 := congrFun (congrFun h.orth 0) 0
  have c11 := congrFun (congrFun h.orth 1) 1
  have c22 := congrFun (congrFun h.orth 2) 2
  simp [Matrix.mul_apply, Fin.sum_univ_three] at c00 c11 c22
  simp [Fin.sum_univ_three, Matrix.trace, Matrix.one_apply]
  linear_combination c00 + c11 + c22

theorem frob_zero {D : M3} : ∑ i, ∑ j, D i j ^ 2 = 0 ↔ D = 0 := by
  constructor
  · intro h
    ext i j
    have h1 := (Finset.sum_eq_zero_iff_of_nonneg fun i _ => Finset.sum_nonneg fun j _ => sq_nonneg (D i j)).1 h i (Finset.mem_univ _)
    have h2 := (Finset.sum_eq_zero_iff_of_nonneg fun j _ => sq_nonneg (D i j)).1 h1 j (Finset.mem_univ _)
    simpa using h2
  · rintro rfl
    simp

theorem isRot_transpose {R : M3} (h : IsRot R) : IsRot Rᵀ :=
  ⟨by rw [transpose_transpose]; exact mul_eq_one_comm.1 h.orth, by rw [det_transpose]; exact h.det⟩

theorem eq_of_mul_transpose {A B : M3} (hB : IsRot B) (h : A * Bᵀ = 1) : A = B := by
  calc A = A * Bᵀ * B := by rw [mul_assoc, hB.orth, mul_one]
    _ = B := by rw [h, one_mul]

theorem eq_of_transpose_mul {A B : M3} (hB : IsRot B) (h : Bᵀ * A = 1) : A = B := by
  calc A = B * Bᵀ * A := by rw [mul_eq_one_comm.1 hB.orth, one_mul]
    _ = B := by rw [mul_assoc, h, mul_one]

/-- The weight makes every error cost something. -/
def Weight (Q : M3) : Prop := ∀ v : V3, v ≠ 0 → 0 < (v ᵥ* Q) ⬝ᵥ v

theorem Weight.nonneg {Q : M3} (h : Weight Q) (v : V3) : 0 ≤ (v ᵥ* Q) ⬝ᵥ v := by
  by_cases hv : v = 0
  · simp [hv]
  · exact (h v hv).le

theorem Weight.zero {Q : M3} (h : Weight Q) {v : V3} : (v ᵥ* Q) ⬝ᵥ v = 0 ↔ v = 0 :=
  ⟨fun k => by_contra fun hv => (h v hv).ne' k, by rintro rfl; simp⟩

/-- C145: the geometric term is never negative, and it is zero exactly if the end effector has the reference position
and the reference orientation. -/
theorem C145_geometric {er : EigenRot} (he : er.Ok) {d : Defs} {g : Geo} (hp : EEPose d g.eeInd) (h1 : Weight g.Qpos)
    (h2 : Weight g.Qrot) (hR : IsRot g.RRef) (h : Hists) (x : Fin S → ℝ) :
    ∃ (p : V3) (C : M3) (v : ℝ), d.getEEPositionInBase h.X g.eeInd (joints d.njoints x) = .ok p
      ∧ d.getEERotInBase h.X g.eeInd (joints d.njoints x) = .ok C
      ∧ g.evaluate er d h x = .ok v ∧ 0 ≤ v ∧ (v = 0 ↔ p = g.xRef ∧ C = g.RRef) := by
  obtain ⟨p, C, hpC⟩ := hp
  obtain ⟨hC, hl⟩ := hpC (joints d.njoints x)
  obtain ⟨l1, l2⟩ := hl h.X
  obtain ⟨θ, a, e1, e2, e3, e4, e5, -⟩ := qDiff_spec he hR hC
  refine ⟨_, _, (1 / 2 : ℝ) * (((p (joints d.njoints x) - g.xRef) ᵥ* g.Qpos) ⬝ᵥ (p (joints d.njoints x) - g.xRef))
      + (1 / 2 : ℝ) * ((g.qDiff er (C (joints d.njoints x)) ᵥ* g.Qrot) ⬝ᵥ g.qDiff er (C (joints d.njoints x))), l1, l2, ?_, ?_⟩
  · simp only [Geo.evaluate, world_pos l1, l2, Res.ok_bind, Res.pure_eq]
  · have k1 := h1.nonneg (p (joints d.njoints x) - g.xRef)
    have k2 := h2.nonneg (g.qDiff er (C (joints d.njoints x)))
    refine ⟨by linarith, ?_⟩
    have hq : g.qDiff er (C (joints d.njoints x)) = 0 ↔ C (joints d.njoints x) = g.RRef := by
      rw [e1]
      constructor
      · intro k
        have ht : θ = 0 := by
          rcases smul_eq_zero.1 k with k | k
          · exact k
          · rw [k] at e2
            simp at e2
        rw [ht, Real.cos_zero] at e5
        have hE := hC.mul (isRot_transpose hR)
        have hf := frob_eq hE
        rw [e5] at hf
        exact eq_of_mul_transpose hR (sub_eq_zero.1 (frob_zero.1 (by rw [hf]; norm_num)))
      · intro k
        rw [k, mul_eq_one_comm.1 hR.orth, Matrix.trace_one] at e5
        have hc : Real.cos θ = 1 := by
          norm_num at e5
          linarith
        have : θ = 0 := by rw [← Real.arccos_cos e3 e4, hc, Real.arccos_one]
        rw [this, zero_smul]
    rw [← hq, ← sub_eq_zero (a := p _), ← h1.zero, ← h2.zero (v := g.qDiff er _)]
    constructor
    · intro k
      constructor <;> linarith
    · rintro ⟨k3, k4⟩
      rw [k3, k4]
      norm_num

/-- The pose of the base and the joint positions that a state vector stands for: with a floating base the angles of the
rotations about x, y and z, the position and then the joints; with a fixed base only the joints. -/
noncomputable def vecPose (FB : Bool) (n : ℕ) (x : List ℝ) : M3 × V3 × (ℕ → ℝ) :=
  if FB then (rotXYZ fun i => x.getD i 0, fun i => x.getD (3 + i) 0, fun j => if j < n then x.getD (6 + j) 0 else 0)
  else (1, 0, fun j => if j < n then x.getD j 0 else 0)

theorem stateFrom_pose (kd : Kindr) (n : ℕ) (FB : Bool) (x : List ℝ) :
    rotationMatrix kd (stateFrom kd n FB x).pose = (vecPose FB n x).1
    ∧ (stateFrom kd n FB x).pose.position = (vecPose FB n x).2.1
    ∧ byNumber (stateFrom kd n FB x).joints.pos = (vecPose FB n x).2.2 := by
  cases FB
  · refine ⟨?_, rfl, ?_⟩
    · simp only [stateFrom, vecPose, rotationMatrix, RBD.blank, Robot.Pose.init, Bool.false_eq_true, if_false, if_true, eulerQuatMatrix_eq]
      have : rotXYZ (fun _ => 0) = 1 := by
        ext i j
        fin_cases i <;> fin_cases j <;> simp [rotXYZ, rotX, rotY, rotZ, Matrix.mul_apply, Fin.sum_univ_three]
      exact this
    · funext j
      simp [stateFrom, vecPose, byNumber, Robot.seg]
  · refine ⟨?_, ?_, ?_⟩
    · simp [stateFrom, vecPose, rotationMatrix, Robot.RBD.fromStateVectorEulerXyz, RBD.blank, Robot.Pose.init, Robot.Pose.setEuler,
        eulerQuatMatrix_eq]
      rfl
    · simp [stateFrom, vecPose, Robot.RBD.fromStateVectorEulerXyz]
      rfl
    · funext j
      simp [stateFrom, vecPose, Robot.RBD.fromStateVectorEulerXyz, byNumber, Robot.seg]

/-- C145: the pose term is never negative, and it is zero exactly if the end effector has the reference position and the
reference orientation in the world. -/
theorem C145_pose {d : Defs} {t : PoseTerm} (hp : EEPose d t.eeInd) (h1 : Weight t.Qpos) (h2 : 0 < t.Qrot)
    (hR : IsRot t.RRef) (kd : Kindr) (FB : Bool) (h : Hists) (x : List ℝ) :
    let b := vecPose FB d.njoints x
    ∃ (p : V3) (C : M3) (v : ℝ), d.getEEPositionInBase h.X t.eeInd b.2.2 = .ok p
      ∧ d.getEERotInBase h.X t.eeInd b.2.2 = .ok C
      ∧ t.evaluate kd d FB h x = .ok v ∧ 0 ≤ v ∧ (v = 0 ↔ b.2.1 + b.1 *ᵥ p = t.pRef ∧ b.1 * C = t.RRef) := by
  intro b
  obtain ⟨p, C, hpC⟩ := hp
  obtain ⟨hC, hl⟩ := hpC b.2.2
  obtain ⟨l1, l2⟩ := hl h.X
  obtain ⟨s1, s2, s3⟩ := stateFrom_pose kd d.njoints FB x
  refine ⟨_, _, ((b.2.1 + b.1 *ᵥ p b.2.2 - t.pRef) ᵥ* t.Qpos) ⬝ᵥ (b.2.1 + b.1 *ᵥ p b.2.2 - t.pRef)
    + t.Qrot * ∑ i, ∑ j, (t.RRefᵀ * (b.1 * C b.2.2) - 1) i j ^ 2, l1, l2, ?_, ?_, ?_⟩
  · simp only [PoseTerm.evaluate, s1, s2, s3]
    simp only [Defs.getEEPositionInWorld, Defs.getEERotInWorld, eePositionInWorld, eeRotInWorld]
    have l1' : d.getEEPositionInBase h.X t.eeInd (vecPose FB d.njoints x).2.2 = _ := l1
    have l2' : d.getEERotInBase h.X t.eeInd (vecPose FB d.njoints x).2.2 = _ := l2
    simp only [l1', l2', Res.ok_bind, Res.pure_eq]
    rfl
  · have k1 := h1.nonneg (b.2.1 + b.1 *ᵥ p b.2.2 - t.pRef)
    have k2 : 0 ≤ ∑ i, ∑ j, (t.RRefᵀ * (b.1 * C b.2.2) - 1) i j ^ 2 :=
      Finset.sum_nonneg fun i _ => Finset.sum_nonneg fun j _ => sq_nonneg _
    have := mul_nonneg h2.le k2
    linarith
  · have k1 := h1.nonneg (b.2.1 + b.1 *ᵥ p b.2.2 - t.pRef)
    have k2 : 0 ≤ ∑ i, ∑ j, (t.RRefᵀ * (b.1 * C b.2.2) - 1) i j ^ 2 :=
      Finset.sum_nonneg fun i _ => Finset.sum_nonneg fun j _ => sq_nonneg _
    have k3 := mul_nonneg h2.le k2
    have hq : t.Qrot * ∑ i, ∑ j, (t.RRefᵀ * (b.1 * C b.2.2) - 1) i j ^ 2 = 0 ↔ b.1 * C b.2.2 = t.RRef := by
      rw [mul_eq_zero, or_iff_right h2.ne', frob_zero, sub_eq_zero]
      exact ⟨eq_of_transpose_mul hR, fun k => by rw [k, hR.orth]⟩
    rw [← hq, ← sub_eq_zero (a := b.2.1 + _), ← h1.zero]
    constructor
    · intro k
      constructor <;> linarith
    · rintro ⟨k4, k5⟩
      rw [k4, k5, add_zero]

/-- The measure of the orientation error in the pose term, for a rotation by the angle `θ` between reference and present
orientation: `4 (1 - cos θ)`; see `axisQuat_matrix` for the trace of a rotation. -/
theorem C145_pose_angle {A B : M3} (hA : IsRot A) (hB : IsRot B) {θ : ℝ} (h : (Bᵀ * A).trace = 1 + 2 * Real.cos θ) :
    ∑ i, ∑ j, (Bᵀ * A - 1) i j ^ 2 = 4 * (1 - Real.cos θ) := by
  rw [frob_eq ((isRot_transpose hB).mul hA), h]
  ring

theorem weight_one : Weight (1 : M3) := fun v hv => by
  rw [Matrix.vecMul_one]
  obtain ⟨i, hi⟩ := Function.ne_iff.1 hv
  exact Finset.sum_pos' (fun j _ => mul_self_nonneg _) ⟨i, Finset.mem_univ _, mul_self_pos.2 hi⟩

/-- The hypotheses are met, for instance by the arm HyA. -/
example : EEPose Robots.HyA.Kin.defs 0 ∧ Weight (1 : M3) ∧ IsRot (1 : M3) ∧ ∃ er : EigenRot, er.Ok :=
  ⟨eePose_HyA, weight_one, ⟨by simp, by simp⟩, eigenRot_exists⟩

/-- C145: a reference given as any quaternion but zero is a rotation, the one of the normalised quaternion. -/
theorem C145_reference (g : Geo) {q : Q4} (hq : q ≠ 0) :
    IsRot (g.setReferenceOrientation q).RRef
    ∧ (Unit q → (g.setReferenceOrientation q).RRef = quatMatrix q)
    ∧ ∀ c : ℝ, 0 < c → (g.setReferenceOrientation (c • q)).RRef = (g.setReferenceOrientation q).RRef := by
  have hpos : 0 < q 0 * q 0 + q 1 * q 1 + q 2 * q 2 + q 3 * q 3 := by
    obtain ⟨i, hi⟩ := Function.ne_iff.1 hq
    have h0 := mul_self_nonneg (q 0)
    have h1 := mul_self_nonneg (q 1)
    have h2 := mul_self_nonneg (q 2)
    have h3 := mul_self_nonneg (q 3)
    have hm : 0 < q i * q i := mul_self_pos.2 hi
    clear hi
    fin_cases i <;> simp only [Fin.zero_eta, Fin.mk_one, Fin.reduceFinMk] at hm <;> linarith
  refine ⟨?_, ?_, ?_⟩
  · have hu : Unit (quatNormalized q) := by
      have hs := Real.sq_sqrt hpos.le
      have hn := (Real.sqrt_pos.2 hpos).ne'
      simp only [Unit, quatNormalized, Matrix.cons_val_zero, Matrix.cons_val_one, Matrix.cons_val]
      generalize Real.sqrt (q 0 * q 0 + q 1 * q 1 + q 2 * q 2 + q 3 * q 3) = r at *
      field_simp
      rw [hs]
      ring
    have h1 := quatMatrix_err hu hu
    have h2 : quatMul (quatNormalized q) (quatInv (quatNormalized q)) = ![1, 0, 0, 0] := by
      rw [quatInv_unit hu]
      unfold Unit at hu
      ext i
      fin_cases i <;> simp [quatMul] <;> linarith
    have h3 : quatMatrix ![1, 0, 0, 0] = 1 := by
      ext i j
      fin_cases i <;> fin_cases j <;> simp [quatMatrix]
    rw [h2, h3] at h1
    refine ⟨mul_eq_one_comm.1 h1.symm, ?_⟩
    simp only [Geo.setReferenceOrientation]
    rw [quatHom_eq hu]
    unfold Unit at hu
    generalize quatNormalized q = r at *
    simp only [quatHom, Matrix.det_fin_three, Matrix.of_apply, Matrix.cons_val', Matrix.cons_val_zero, Matrix.cons_val_one, Matrix.cons_val]
    have : (r 0 * r 0 + r 1 * r 1 + r 2 * r 2 + r 3 * r 3) ^ 3 = 1 := by rw [hu]; norm_num
    linear_combination this
  · intro hu
    unfold Unit at hu
    have : quatNormalized q = q := by
      ext i
      fin_cases i <;> simp [quatNormalized, hu]
    simp only [Geo.setReferenceOrientation, this]
  · intro c hc
    have : quatNormalized (c • q) = quatNormalized q := by
      have hs : Real.sqrt (c * q 0 * (c * q 0) + c * q 1 * (c * q 1) + c * q 2 * (c * q 2) + c * q 3 * (c * q 3))
          = c * Real.sqrt (q 0 * q 0 + q 1 * q 1 + q 2 * q 2 + q 3 * q 3) := by
        rw [show c * q 0 * (c * q 0) + c * q 1 * (c * q 1) + c * q 2 * (c * q 2) + c * q 3 * (c * q 3)
          = c ^ 2 * (q 0 * q 0 + q 1 * q 1 + q 2 * q 2 + q 3 * q 3) by ring, Real.sqrt_mul (sq_nonneg c), Real.sqrt_sq hc.le]
      simp only [quatNormalized, Pi.smul_apply, smul_eq_mul, hs, mul_div_mul_left _ _ hc.ne']
    simp only [Geo.setReferenceOrientation, this]

example : (![1, 2, 3, 4] : Q4) ≠ 0 := fun h => by simpa using congrFun h 0

/-- C145: after the reference position and orientation have been set, in either order and whatever they were before, the
geometric term is zero exactly if the end effector is at the position given and has the orientation given. -/
theorem C145_set_reference {er : EigenRot} (he : er.Ok) {d : Defs} {g : Geo} (hp : EEPose d g.eeInd) (h1 : Weight g.Qpos)
    (h2 : Weight g.Qrot) {q : Q4} (hq : Unit q) (r : V3) (h : Hists) (x : Fin S → ℝ) :
    ∃ (p : V3) (C : M3) (v : ℝ), d.getEEPositionInBase h.X g.eeInd (joints d.njoints x) = .ok p
      ∧ d.getEERotInBase h.X g.eeInd (joints d.njoints x) = .ok C
      ∧ ((g.setReferencePosition r).setReferenceOrientation q).evaluate er d h x = .ok v
      ∧ ((g.setReferenceOrientation q).setReferencePosition r).evaluate er d h x = .ok v
      ∧ (v = 0 ↔ p = r ∧ C = quatMatrix q) := by
  have hq0 : q ≠ 0 := by
    rintro rfl
    simp [Unit] at hq
  obtain ⟨i1, i2, -⟩ := C145_reference (g.setReferencePosition r) hq0
  obtain ⟨p, C, v, e1, e2, e3, -, e4⟩ := C145_geometric (g := (g.setReferencePosition r).setReferenceOrientation q)
    he hp h1 h2 i1 h x
  rw [i2 hq] at e4
  exact ⟨p, C, v, e1, e2, e3, e3, e4⟩

/-- The hypotheses are met: the arm HyA, unit weights and a turn by 180 degrees about z. -/
example : EEPose Robots.HyA.Kin.defs 0 ∧ Weight (1 : M3) ∧ Unit ![0, 0, 0, 1] ∧ ∃ er : EigenRot, er.Ok :=
  ⟨eePose_HyA, weight_one, by simp [Unit], eigenRot_exists⟩

/-- C145: the position term is, at every time, its activation times a value that is never negative, and zero exactly if the end effector has
the reference position in the world. -/
theorem C145_position {d : Defs} {t : PosTerm} (hp : EEPose d t.eeInd) (h1 : Weight t.Q) (kd : Kindr) (FB : Bool) (h : Hists) (x : List ℝ) :
    let b := vecPose FB d.njoints x
    ∃ (p : V3) (v : ℝ), d.getEEPositionInBase h.X t.eeInd b.2.2 = .ok p ∧ t.evaluate kd d FB h x = .ok v
      ∧ (∀ τ, t.eval kd d FB h x τ = .ok (t.activation τ * v)) ∧ 0 ≤ v ∧ (v = 0 ↔ b.2.1 + b.1 *ᵥ p = t.pRef) := by
  intro b
  obtain ⟨p, C, hpC⟩ := hp
  have l1 : d.getEEPositionInBase h.X t.eeInd (vecPose FB d.njoints x).2.2 = _ := ((hpC b.2.2).2 h.X).1
  obtain ⟨s1, s2, s3⟩ := stateFrom_pose kd d.njoints FB x
  have hv : t.evaluate kd d FB h x
      = .ok (((b.2.1 + b.1 *ᵥ p b.2.2 - t.pRef) ᵥ* t.Q) ⬝ᵥ (b.2.1 + b.1 *ᵥ p b.2.2 - t.pRef)) := by
    simp only [PosTerm.evaluate, s1, s2, s3, Defs.getEEPositionInWorld, eePositionInWorld, l1, Res.ok_bind, Res.pure_eq]
    rfl
  refine ⟨_, _, l1, hv, fun τ => ?_, h1.nonneg _, ?_⟩
  · simp only [PosTerm.eval, hv, Res.ok_bind, Res.pure_eq]
  · rw [h1.zero, sub_eq_zero]

/-- C145 fails for copies: the copy of a position term that is switched off is on. -/
theorem C145_clone_violated {d : Defs} {k : ℕ} (hp : EEPose d k) (kd : Kindr) (FB : Bool) (h : Hists) (x : List ℝ) (t : ℝ) :
    ∃ p : PosTerm, p.eeInd = k ∧ p.eval kd d FB h x t = .ok 0 ∧ p.clone.eval kd d FB h x t = .ok 1 := by
  obtain ⟨p, C, hpC⟩ := hp
  obtain ⟨s1, s2, s3⟩ := stateFrom_pose kd d.njoints FB x
  have l1 := ((hpC (vecPose FB d.njoints x).2.2).2 h.X).1
  generalize hP : eePositionInWorld (vecPose FB d.njoints x).2.1 (vecPose FB d.njoints x).1 (p (vecPose FB d.njoints x).2.2) = P
  have hv : ∀ a, PosTerm.evaluate ⟨k, 1, P - ![1, 0, 0], a⟩ kd d FB h x = .ok 1 := fun a => by
    simp only [PosTerm.evaluate, s1, s2, s3, Defs.getEEPositionInWorld, l1, Res.ok_bind, Res.pure_eq, hP]
    simp
  exact ⟨⟨k, 1, P - ![1, 0, 0], fun _ => 0⟩, rfl, by simp only [PosTerm.eval, hv, Res.ok_bind, Res.pure_eq, zero_mul],
    by simp only [PosTerm.eval, PosTerm.clone, hv, Res.ok_bind, Res.pure_eq, one_mul]⟩

example : EEPose Robots.InvertedPendulum.Kin.defs 0 := eePose_InvertedPendulum

/-! ### C145: Hessian -/

/-- The upper left block of a matrix, otherwise zero, as a quadratic form. -/
theorem corner_form {N : ℕ} (h : N ≤ S) (Q : Matrix (Fin N) (Fin N) ℝ) (xd : Fin S → ℝ) :
    xd ⬝ᵥ (Matrix.of (fun i j : Fin S => if hij : i.1 < N ∧ j.1 < N then Q ⟨i.1, hij.1⟩ ⟨j.1, hij.2⟩ else 0) *ᵥ xd)
      = (fun j : Fin N => joints N xd j) ⬝ᵥ (Q *ᵥ fun j : Fin N => joints N xd j) := by
  have e : Matrix.of (fun i j : Fin S => if hij : i.1 < N ∧ j.1 < N then Q ⟨i.1, hij.1⟩ ⟨j.1, hij.2⟩ else 0) *ᵥ xd
      = setHead (Q *ᵥ fun j : Fin N => joints N xd j) := by
    funext i
    by_cases hi : i.1 < N
    · have := setHead_dot h (Q ⟨i, hi⟩) xd
      simp only [setHead, hi, dif_pos, mulVec]
      rw [← this]
      congr 1
      funext j
      by_cases hj : j.1 < N <;> simp [setHead, hi, hj]
    · simp [setHead, hi, mulVec, dotProduct]
  rw [e, dotProduct_comm, setHead_dot h, dotProduct_comm]

/-- C145: the Hessian that the geometric term returns is symmetric.  As a quadratic form in the velocity of the state it
is the weighted square of the velocity of the end effector plus that of its angular velocity; so it is positive semidefinite
if the weights are. -/
theorem C145_hessian {d : Defs} {g : Geo} (hp : EEPose d g.eeInd) (hv : d.EEVelRight g.eeInd) (hS : d.njoints ≤ S)
    (h1 : g.Qpos.IsSymm) (h2 : g.Qrot.IsSymm) {x : ℝ → Fin S → ℝ} {xd : Fin S → ℝ} {t : ℝ} (hx : VDeriv x xd t)
    (h : Hists) :
    ∃ (H : Matrix (Fin S) (Fin S) ℝ) (p : ℝ → V3) (C : ℝ → M3) (v ω : V3), g.stateSecondDerivative d h (x t) = .ok H ∧ H.IsSymm
      ∧ (∀ s h', d.getEEPositionInBase h' g.eeInd (joints d.njoints (x s)) = .ok (p s)
        ∧ d.getEERotInBase h' g.eeInd (joints d.njoints (x s)) = .ok (C s))
      ∧ VDeriv p v t ∧ (∀ c : V3, VDeriv (fun s => C s *ᵥ c) (cross ω (C t *ᵥ c)) t)
      ∧ xd ⬝ᵥ (H *ᵥ xd) = v ⬝ᵥ (g.Qpos *ᵥ v) + ω ⬝ᵥ (g.Qrot *ᵥ ω) := by
  obtain ⟨p, C, hpC⟩ := hp
  obtain ⟨p', C', J, k1, k2, k3, ⟨k4, k5⟩, -⟩ := hv (fun s => joints d.njoints (x s)) (joints d.njoints xd) t
    (joints_deriv hx) (fun _ => h.X) (fun _ => h.X) h.J h.X
  have ep : ∀ s, p' s = p (joints d.njoints (x s)) := fun s => by
    have := k1 s
    rw [((hpC _).2 _).1] at this
    exact (Res.ok.inj this).symm
  have eC : ∀ s, C' s = C (joints d.njoints (x s)) := fun s => by
    have := k2 s
    rw [((hpC _).2 _).2] at this
    exact (Res.ok.inj this).symm
  have hsym : ((bottom J)ᵀ * g.Qpos * bottom J + (topRows J)ᵀ * g.Qrot * topRows J).IsSymm := by
    unfold Matrix.IsSymm
    simp only [transpose_add, transpose_mul, transpose_transpose, h1.eq, h2.eq, Matrix.mul_assoc]
  refine ⟨_, p', C', _, _, by simp only [Geo.stateSecondDerivative, k3, Res.ok_bind, Res.pure_eq]; rfl, ?_,
    fun s h' => ⟨by rw [ep]; exact ((hpC _).2 _).1, by rw [eC]; exact ((hpC _).2 _).2⟩, k4, k5, ?_⟩
  · ext i j
    simp only [transpose_apply, Matrix.of_apply]
    by_cases hi : i.1 < d.njoints <;> by_cases hj : j.1 < d.njoints <;> simp only [hi, hj, and_self, and_false, false_and, dif_pos, dif_neg, not_false_eq_true]
    exact hsym.apply _ _
  · refine (corner_form hS _ xd).trans ?_
    set y := fun j : Fin d.njoints => joints d.njoints xd j with hy
    have b1 : bottom J *ᵥ y = ![(J *ᵥ y) 3, (J *ᵥ y) 4, (J *ᵥ y) 5] := by
      ext i
      fin_cases i <;> rfl
    have b2 : topRows J *ᵥ y = ![(J *ᵥ y) 0, (J *ᵥ y) 1, (J *ᵥ y) 2] := by
      ext i
      fin_cases i <;> rfl
    rw [Matrix.add_mulVec, dotProduct_add]
    simp only [← Matrix.mulVec_mulVec, b1, b2]
    congr 1
    · rw [Matrix.mulVec_transpose, dotProduct_comm, ← Matrix.dotProduct_mulVec, b1, dotProduct_comm]
    · rw [Matrix.mulVec_transpose, dotProduct_comm, ← Matrix.dotProduct_mulVec, b2, dotProduct_comm]

example : EEPose Robots.HyA.Kin.defs 0 ∧ Robots.HyA.Kin.defs.EEVelRight 0 ∧ Robots.HyA.Kin.defs.njoints ≤ 12 :=
  ⟨eePose_HyA, HyA.C134_HyA_velocity 0 (by decide), by decide⟩

/-! ### C146: cost of the inverse kinematics problem -/

/-- C146: without optimisation variables every function throws. -/
theorem C146_unset {N : ℕ} (k : IK N) (hw : k.w = none) (er : EigenRot) (d : Defs) (h : Hists) (c : ℝ) :
    k.eval er d h = .exc ∧ k.evalGradient er d h = .exc ∧ k.hessianValues d h c = .exc := by
  simp [IK.eval, IK.evalGradient, IK.hessianValues, hw]

/-- C146: along any motion of the optimisation variables the cost changes with the returned gradient, if the term for the joint
reference has this property.  Missing: as in `C144_gradient_partial`. -/
theorem C146_gradient_partial {N : ℕ} {er : EigenRot} (he : er.Ok) {d : Defs} {k : IK N} (hp : EEPose d k.goal.eeInd)
    (hv : d.EEVelRight k.goal.eeInd) (hS : d.njoints ≤ N) (hQ : k.goal.Qpos.IsSymm) {c : ℝ} (hc : k.goal.Qrot = c • 1)
    (hR : IsRot k.goal.RRef) {w : ℝ → Fin N → ℝ} {wd : Fin N → ℝ} {t : ℝ} (hw : VDeriv w wd t)
    (hr : ∀ r, k.jointRef = some r → HasDerivAt (fun s => r.1 (w s)) (r.2.1 (w t) ⬝ᵥ wd) t) (hh : ℝ → Hists) (h : Hists)
    (hhalf : ∀ C, d.getEERotInBase h.X k.goal.eeInd (joints d.njoints (w t)) = .ok C → (C * k.goal.RRefᵀ).trace ≠ -1) :
    ∃ (cost : ℝ → ℝ) (grad : Fin N → ℝ), (∀ s, { k with w := some (w s) }.eval er d (hh s) = .ok (cost s))
      ∧ { k with w := some (w t) }.evalGradient er d h = .ok grad ∧ HasDerivAt cost (grad ⬝ᵥ wd) t := by
  obtain ⟨cost, grad, k1, k2, k3⟩ := C144_gradient_partial he hp hv hS hQ hc hR hw hh h hhalf
  cases hj : k.jointRef with
  | none =>
    exact ⟨cost, grad, fun s => by simp [IK.eval, k1, Res.ok_bind, Res.pure_eq],
      by simp [IK.evalGradient, k2, Res.ok_bind, Res.pure_eq], k3⟩
  | some r =>
    refine ⟨fun s => cost s + r.1 (w s), grad + r.2.1 (w t), fun s => by simp [IK.eval, k1, Res.ok_bind, Res.pure_eq],
      by simp [IK.evalGradient, k2, Res.ok_bind, Res.pure_eq], ?_⟩
    rw [add_dotProduct]
    exact k3.add (hr r hj)

theorem flat_get {α β : Type} {f : α → List β} {N : ℕ} (hf : ∀ a, (f a).length = N) {j : ℕ} (hj : j < N) :
    ∀ (l : List α) (i : ℕ), (l.flatMap f)[i * N + j]? = l[i]?.bind fun a => (f a)[j]?
  | [], i => by simp
  | a :: l, 0 => by
    rw [List.flatMap_cons, Nat.zero_mul, Nat.zero_add, List.getElem?_append_left (by rw [hf]; exact hj)]
    rfl
  | a :: l, i + 1 => by
    rw [List.flatMap_cons, List.getElem?_append_right (by rw [hf, Nat.succ_mul]; omega), hf,
      show (i + 1) * N + j - N = i * N + j by rw [Nat.succ_mul]; omega, flat_get hf hj l i]
    rfl

/-- C146: the values of the Hessian are listed in the order of the sparsity pattern, and they are the factor times the sum of
the Hessians of the goal, of the joint reference and of the regularizer, where present.  The matrix is stored by
columns and the pattern lists it by rows, which is the same as long as it is symmetric. -/
theorem C146_hessian {N : ℕ} {d : Defs} {k : IK N} (hp : EEPose d k.goal.eeInd) (hv : d.EEVelRight k.goal.eeInd)
    (hS : d.njoints ≤ N) (h1 : k.goal.Qpos.IsSymm) (h2 : k.goal.Qrot.IsSymm) {w : Fin N → ℝ} (hw : k.w = some w)
    (hr : ∀ r, k.jointRef = some r → (r.2.2 w).IsSymm) (hg : ∀ r, k.regularizer = some r → (r w).IsSymm) (h : Hists) (c : ℝ) :
    ∃ (H : Matrix (Fin N) (Fin N) ℝ) (vals : List ℝ), k.goal.stateSecondDerivative d h w = .ok H
      ∧ k.hessianValues d h c = .ok vals
      ∧ vals.length = N * N ∧ (IK.sparsity N).length = N * N
      ∧ ∀ i j : Fin N, (IK.sparsity N)[i.1 * N + j.1]? = some (i.1, j.1)
        ∧ vals[i.1 * N + j.1]? = some (c * (H i j + (k.jointRef.elim 0 fun r => r.2.2 w i j) + k.regularizer.elim 0 fun r => r w i j)) := by
  obtain ⟨H, -, -, -, -, e1, e2, -⟩ := C145_hessian (x := fun _ => w) (xd := 0) (t := 0) hp hv hS h1 h2
    (fun i => hasDerivAt_const _ _) h
  refine ⟨H, _, e1, by simp only [IK.hessianValues, hw, e1, Res.ok_bind, Res.pure_eq]; rfl, ?_, ?_, fun i j => ⟨?_, ?_⟩⟩
  · simp [List.length_flatMap]
  · simp [IK.sparsity, List.length_flatMap]
  · rw [IK.sparsity, flat_get (by simp) j.2]
    simp
  · rw [flat_get (by simp) j.2]
    have s1 := e2.apply i j
    cases hj : k.jointRef with
    | none =>
      cases hq : k.regularizer with
      | none => simp [s1]
      | some q => simp [s1, (hg q hq).apply i j]
    | some r =>
      cases hq : k.regularizer with
      | none => simp [s1, (hr r hj).apply i j]
      | some q => simp [s1, (hr r hj).apply i j, (hg q hq).apply i j]

/-- The hypotheses are met: the arm HyA with a quadratic term in the joint positions and without regularizer. -/
example : ∃ k : IK 6, EEPose Robots.HyA.Kin.defs k.goal.eeInd ∧ Robots.HyA.Kin.defs.EEVelRight k.goal.eeInd
    ∧ Robots.HyA.Kin.defs.njoints ≤ 6 ∧ k.goal.Qpos.IsSymm ∧ k.goal.Qrot = (2 : ℝ) • 1 ∧ IsRot k.goal.RRef
    ∧ (∀ r, k.jointRef = some r → ∀ (w : ℝ → Fin 6 → ℝ) (wd : Fin 6 → ℝ) (t : ℝ), VDeriv w wd t →
      HasDerivAt (fun s => r.1 (w s)) (r.2.1 (w t) ⬝ᵥ wd) t ∧ (r.2.2 (w t)).IsSymm) ∧ k.jointRef.isSome := by
  refine ⟨⟨some 0, ⟨0, 1, (2 : ℝ) • 1, 0, 1⟩, some (fun w => 1 / 2 * ∑ i, w i * w i, fun w => w, fun _ => 1), none⟩, eePose_HyA,
    HyA.C134_HyA_velocity 0 (by decide), by decide, Matrix.isSymm_one, rfl, ⟨by simp, by simp⟩, fun r hr w wd t hw => ?_, rfl⟩
  obtain rfl := Option.some.inj hr
  refine ⟨?_, Matrix.isSymm_one⟩
  have := (HasDerivAt.fun_sum (u := Finset.univ) fun i (_ : i ∈ Finset.univ) => (hw i).mul (hw i)).const_mul (1 / 2 : ℝ)
  refine this.congr_deriv ?_
  rw [dotProduct, Finset.mul_sum]
  exact Finset.sum_congr rfl fun i _ => by ring

end CT.Taskspace
