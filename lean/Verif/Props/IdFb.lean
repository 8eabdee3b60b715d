import Verif.Model.IdFb
import Verif.Props.FloatingSystem
import Verif.Props.ContactDynamics
import Mathlib.Analysis.SpecialFunctions.Complex.Arg
import Mathlib.Analysis.SpecialFunctions.Trigonometric.Inverse
import Mathlib.Analysis.Calculus.Deriv.MeanValue

/-!
# C149: inverse dynamics controller for floating base robots

Specification: the orientation matrix of a pose, Euler angles of the rotation between two orientations, velocities in
the world.
-/

namespace CT.IdFb

open Matrix FrameJac OpJac Robot Spatial FloatSys ConDyn CT.Inverses

variable {n : ℕ}

/-- The orientation of a pose, from base to world coordinates. -/
noncomputable def orient (p : Pose ℝ) : M3 := if p.storedAsEuler then rotXYZ p.euler else quatMatrix p.quat

/-- Quaternions of poses have length one. -/
def UnitPose (p : Pose ℝ) : Prop := p.storedAsEuler = false → p.quat ⬝ᵥ p.quat = 1

/-- What is used of kindr beyond `Kindr.Ok`: the quaternion of Euler angles, and unique Euler angles of a quaternion. -/
structure EulerOk (kd : Kindr) (euler : Q4 → V3) : Prop where
  unit : ∀ e, kd.conv.toQuat e ⬝ᵥ kd.conv.toQuat e = 1
  quat : ∀ e, quatMatrix (kd.conv.toQuat e) = rotXYZ e
  angles : ∀ q, q ⬝ᵥ q = 1 → rotXYZ (euler q) = quatMatrix q
  range : ∀ q, q ⬝ᵥ q = 1 → |euler q 0| ≤ Real.pi ∧ |euler q 1| ≤ Real.pi / 2 ∧ |euler q 2| ≤ Real.pi

/-! ### Orientation error -/

theorem quatInv_norm (q : Q4) : quatInv q ⬝ᵥ quatInv q = q ⬝ᵥ q := by simp [quat_norm, quatInv]; ring

theorem quatHom_inv (q : Q4) : quatHom (quatInv q) = (quatHom q)ᵀ := by
  ext i j; fin_cases i <;> fin_cases j <;> simp [quatHom, quatInv] <;> ring

theorem pose_quat {kd : Kindr} {euler : Q4 → V3} (h : EulerOk kd euler) {p : Pose ℝ} (hp : UnitPose p) :
    p.getQuat kd.conv ⬝ᵥ p.getQuat kd.conv = 1 ∧ quatMatrix (p.getQuat kd.conv) = orient p := by
  unfold Pose.getQuat orient
  cases hs : p.storedAsEuler
  · simpa using hp hs
  · simpa using ⟨h.unit _, h.quat _⟩

theorem orient_rot {p : Pose ℝ} (hp : UnitPose p) : IsRot (orient p) := by
  unfold orient
  cases hs : p.storedAsEuler
  · simpa using quatMatrix_rot (hp hs)
  · simpa using rotXYZ_rot _

theorem toBase {kd : Kindr} (hk : kd.Ok) {p : Pose ℝ} (hp : UnitPose p) (x : V3) : rotateInertiaToBase kd p x = (orient p)ᵀ *ᵥ x := by
  unfold rotateInertiaToBase orient
  cases hs : p.storedAsEuler
  · simp [hk.quatRot _ (hp hs)]
  · simp [hk.eulerRot]

theorem relative {kd : Kindr} {euler : Q4 → V3} (h : EulerOk kd euler) {p d : Pose ℝ} (hp : UnitPose p) (hd : UnitPose d) :
    let q := quatMul (quatInv (p.getQuat kd.conv)) (d.getQuat kd.conv)
    q ⬝ᵥ q = 1 ∧ quatMatrix q = (orient p)ᵀ * orient d := by
  obtain ⟨h1, h2⟩ := pose_quat h hp
  obtain ⟨h3, h4⟩ := pose_quat h hd
  have hq := quatMul_norm (quatInv (p.getQuat kd.conv)) (d.getQuat kd.conv)
  rw [quatInv_norm, h1, h3, one_mul] at hq
  refine ⟨hq, ?_⟩
  rw [quatMatrix_hom hq, quatHom_mul, quatHom_inv, ← quatMatrix_hom h1, ← quatMatrix_hom h3, h2, h4]

/-- Euler angles of this range vanish only without rotation. -/
theorem euler_zero {e : V3} (h0 : |e 0| ≤ Real.pi) (h1 : |e 1| ≤ Real.pi / 2) (h2 : |e 2| ≤ Real.pi) (h : rotXYZ e = 1) : e = 0 := by
  have hpi := Real.pi_pos
  have a := congrFun (congrFun h 0) 2
  have b := congrFun (congrFun h 0) 0
  have c := congrFun (congrFun h 2) 2
  simp [rotXYZ, rotX, rotY, rotZ, Matrix.mul_apply, Fin.sum_univ_three] at a b c
  rw [abs_le] at h0 h1 h2
  have e1 : e 1 = 0 := (Real.sin_eq_zero_iff_of_lt_of_lt (by linarith) (by linarith)).1 a
  rw [e1, Real.cos_zero] at b c
  have e2 : e 2 = 0 := (Real.cos_eq_one_iff_of_lt_of_lt (by linarith) (by linarith)).1 (by simpa using b)
  have e0 : e 0 = 0 := (Real.cos_eq_one_iff_of_lt_of_lt (by linarith) (by linarith)).1 (by simpa using c)
  funext i; fin_cases i <;> simp [e0, e1, e2]

/-- C149: the acceleration asked for.  Its angular part is the gain times the Euler angles, of the documented range, of
the rotation from the current to the desired orientation; its linear part is the weighted position error in the world,
in base coordinates; both with the weighted difference of the twists.  The joints are not accelerated. -/
theorem C149_acceleration {kd : Kindr} {euler : Q4 → V3} (hk : kd.Ok) (h : EulerOk kd euler) (c : Ctrl n) (s : RBD ℝ n)
    (hs : UnitPose s.pose) (hd : UnitPose c.des.pose) :
    ∃ e : V3, rotXYZ e = (orient s.pose)ᵀ * orient c.des.pose ∧ |e 0| ≤ Real.pi ∧ |e 1| ≤ Real.pi / 2 ∧ |e 2| ≤ Real.pi
      ∧ (c.desiredAcc kd euler s).ang
        = ![c.Kp 0 * e 0, c.Kp 1 * e 1, c.Kp 2 * e 2] + ![c.Kd 0, c.Kd 1, c.Kd 2] * (c.des.angVel - s.angVel)
      ∧ (c.desiredAcc kd euler s).lin
        = (orient s.pose)ᵀ *ᵥ (![c.Kp 3, c.Kp 4, c.Kp 5] * (c.des.pose.position - s.pose.position))
          + ![c.Kd 3, c.Kd 4, c.Kd 5] * (c.des.linVel - s.linVel)
      ∧ (c.desiredAcc kd euler s).joints = 0 := by
  obtain ⟨h1, h2⟩ := relative h hs hd
  obtain ⟨r0, r1, r2⟩ := h.range _ h1
  have hw : (![c.Kp 3, c.Kp 4, c.Kp 5] * (c.des.pose.position - s.pose.position) : V3)
      = ![c.Kp 3 * (c.des.pose.position 0 - s.pose.position 0), c.Kp 4 * (c.des.pose.position 1 - s.pose.position 1),
        c.Kp 5 * (c.des.pose.position 2 - s.pose.position 2)] := by
    funext i; fin_cases i <;> simp
  refine ⟨_, (h.angles _ h1).trans h2, r0, r1, r2, ?_, ?_, rfl⟩
  · funext i; fin_cases i <;> simp [Ctrl.desiredAcc, Acc.setBase, twist]
  · rw [hw, ← toBase hk hs]
    funext i; fin_cases i <;> simp [Ctrl.desiredAcc, Acc.setBase, twist]

/-- C149: at the desired pose with the desired twist no acceleration is asked for, whichever way the orientations are
stored and whatever the sign of the quaternions. -/
theorem C149_rest {kd : Kindr} {euler : Q4 → V3} (hk : kd.Ok) (h : EulerOk kd euler) (c : Ctrl n) (s : RBD ℝ n)
    (hs : UnitPose s.pose) (hd : UnitPose c.des.pose) (ho : orient s.pose = orient c.des.pose) (hp : s.pose.position = c.des.pose.position)
    (hω : s.angVel = c.des.angVel) (hv : s.linVel = c.des.linVel) : c.desiredAcc kd euler s = Acc.zero := by
  obtain ⟨e, he, r0, r1, r2, ha, hl, hj⟩ := C149_acceleration hk h c s hs hd
  rw [← ho, (orient_rot hs).orth] at he
  have h0 := euler_zero r0 r1 r2 he
  rw [h0, hω, sub_self] at ha
  rw [hp, sub_self, hv, sub_self] at hl
  have ha' : (c.desiredAcc kd euler s).ang = fun _ => 0 := by rw [ha]; funext i; fin_cases i <;> simp
  have hl' : (c.desiredAcc kd euler s).lin = fun _ => 0 := by rw [hl]; funext i; simp
  rcases hacc : c.desiredAcc kd euler s with ⟨a, b, j⟩
  rw [hacc] at ha' hl' hj
  simp only at ha' hl' hj
  rw [ha', hl', hj]; rfl

/-- C149: with positive gains and the desired twist, the desired pose is the only one at which no acceleration is asked
for. -/
theorem C149_only {kd : Kindr} {euler : Q4 → V3} (hk : kd.Ok) (h : EulerOk kd euler) (c : Ctrl n) (s : RBD ℝ n)
    (hs : UnitPose s.pose) (hd : UnitPose c.des.pose) (hK : ∀ i, 0 < c.Kp i) (hω : s.angVel = c.des.angVel) (hv : s.linVel = c.des.linVel)
    (hz : c.desiredAcc kd euler s = Acc.zero) :
    orient s.pose = orient c.des.pose ∧ s.pose.position = c.des.pose.position := by
  obtain ⟨e, he, -, -, -, ha, hl, -⟩ := C149_acceleration hk h c s hs hd
  have hoo : orient s.pose * (orient s.pose)ᵀ = 1 := mul_eq_one_comm.1 (orient_rot hs).orth
  rw [hz, hω, sub_self, mul_zero, add_zero] at ha
  rw [hz, hv, sub_self, mul_zero, add_zero] at hl
  constructor
  · have e0 : e = 0 := by
      funext i
      have := congrFun ha i
      fin_cases i <;> simpa [Acc.zero, (hK _).ne'] using this.symm
    have h1 : rotXYZ (0 : V3) = 1 := by
      ext i j; fin_cases i <;> fin_cases j <;> simp [rotXYZ, rotX, rotY, rotZ, Matrix.mul_apply, Fin.sum_univ_three]
    rw [e0, h1] at he
    calc orient s.pose = orient s.pose * ((orient s.pose)ᵀ * orient c.des.pose) := by rw [← he, Matrix.mul_one]
      _ = _ := by rw [← Matrix.mul_assoc, hoo, Matrix.one_mul]
  · have h1 := congrArg (fun x => orient s.pose *ᵥ x) hl
    simp only [mulVec_mulVec, hoo, one_mulVec] at h1
    rw [show (Acc.zero : Acc n).lin = 0 from rfl, mulVec_zero] at h1
    funext i
    have h2 := congrFun h1 i
    fin_cases i <;> simp [(hK _).ne', sub_eq_zero] at h2 <;> simpa using h2.symm

/-! ### Motion of the base -/

/-- Stiffness energy of the position error and kinetic energy per mass. -/
noncomputable def energy (c : Ctrl n) (s : RBD ℝ n) : ℝ :=
  (c.Kp 3 * (c.des.pose.position 0 - s.pose.position 0) ^ 2 + c.Kp 4 * (c.des.pose.position 1 - s.pose.position 1) ^ 2
    + c.Kp 5 * (c.des.pose.position 2 - s.pose.position 2) ^ 2) / 2
  + (s.linVel 0 ^ 2 + s.linVel 1 ^ 2 + s.linVel 2 ^ 2) / 2

/-- C149: if the base follows the acceleration asked for and is to stand still, the energy of its position error and
velocity decreases at the rate given by the damping, however the base turns meanwhile. -/
theorem C149_energy {kd : Kindr} {euler : Q4 → V3} (hk : kd.Ok) (h : EulerOk kd euler) (c : Ctrl n) (s : ℝ → RBD ℝ n) (t : ℝ)
    (hs : UnitPose (s t).pose) (hd : UnitPose c.des.pose) (hv : c.des.linVel = 0)
    (hp : VDeriv (fun t => (s t).pose.position) (orient (s t).pose *ᵥ (s t).linVel) t)
    (ha : VDeriv (fun t => (s t).linVel) (c.desiredAcc kd euler (s t)).lin t) :
    HasDerivAt (fun t => energy c (s t)) (-(c.Kd 3 * (s t).linVel 0 ^ 2 + c.Kd 4 * (s t).linVel 1 ^ 2 + c.Kd 5 * (s t).linVel 2 ^ 2)) t := by
  obtain ⟨-, -, -, -, -, -, hl, -⟩ := C149_acceleration hk h c (s t) hs hd
  rw [hl, hv] at ha
  have p := fun i => ((hp i).const_sub (c.des.pose.position i)).fun_pow 2
  have v := fun i => (ha i).fun_pow 2
  refine ((((((p 0).const_mul (c.Kp 3)).add ((p 1).const_mul (c.Kp 4))).add ((p 2).const_mul (c.Kp 5))).div_const 2).add
    ((((v 0).add (v 1)).add (v 2)).div_const 2)).congr_deriv ?_
  simp [mulVec, dotProduct, Fin.sum_univ_three]
  ring

/-- C149: so the position error never exceeds a bound given by the start. -/
theorem C149_bounded {kd : Kindr} {euler : Q4 → V3} (hk : kd.Ok) (h : EulerOk kd euler) (c : Ctrl n) (s : ℝ → RBD ℝ n)
    (hs : ∀ t, UnitPose (s t).pose) (hd : UnitPose c.des.pose) (hv : c.des.linVel = 0) (hKd : ∀ i, 0 ≤ c.Kd i) (hKp : ∀ i, 0 ≤ c.Kp i)
    (hp : ∀ t, VDeriv (fun t => (s t).pose.position) (orient (s t).pose *ᵥ (s t).linVel) t)
    (ha : ∀ t, VDeriv (fun t => (s t).linVel) (c.desiredAcc kd euler (s t)).lin t) {t0 t : ℝ} (ht : t0 ≤ t) (i : Fin 3) :
    c.Kp ⟨3 + i, by omega⟩ * (c.des.pose.position i - (s t).pose.position i) ^ 2 ≤ 2 * energy c (s t0) := by
  have hE := fun t => C149_energy hk h c s t (hs t) hd hv (hp t) (ha t)
  have hanti : Antitone fun t => energy c (s t) := antitone_of_hasDerivAt_nonpos hE fun t => by
    have := mul_nonneg (hKd 3) (sq_nonneg ((s t).linVel 0))
    have := mul_nonneg (hKd 4) (sq_nonneg ((s t).linVel 1))
    have := mul_nonneg (hKd 5) (sq_nonneg ((s t).linVel 2))
    show -(c.Kd 3 * (s t).linVel 0 ^ 2 + c.Kd 4 * (s t).linVel 1 ^ 2 + c.Kd 5 * (s t).linVel 2 ^ 2) ≤ (0 : ℝ)
    linarith
  have h1 : energy c (s t) ≤ energy c (s t0) := hanti ht
  have a0 := mul_nonneg (hKp 3) (sq_nonneg (c.des.pose.position 0 - (s t).pose.position 0))
  have a1 := mul_nonneg (hKp 4) (sq_nonneg (c.des.pose.position 1 - (s t).pose.position 1))
  have a2 := mul_nonneg (hKp 5) (sq_nonneg (c.des.pose.position 2 - (s t).pose.position 2))
  have b0 := sq_nonneg ((s t).linVel 0)
  have b1 := sq_nonneg ((s t).linVel 1)
  have b2 := sq_nonneg ((s t).linVel 2)
  unfold energy at h1 ⊢
  fin_cases i
  · show c.Kp 3 * _ ≤ _; simp only [Fin.zero_eta]; linarith
  · show c.Kp 4 * _ ≤ _; simp only [Fin.mk_one]; linarith
  · show c.Kp 5 * _ ≤ _; simp only [Fin.reduceFinMk]; linarith

/-! ### Torques -/

/-- `v` lists the accelerations of a robot: angular and linear acceleration of the base, then those of the joints. -/
def Stacks (a : Acc n) (v : ℕ → ℝ) : Prop :=
  (∀ i : Fin 3, v i = a.ang i) ∧ (∀ i : Fin 3, v (3 + i) = a.lin i) ∧ (∀ i : Fin n, v (6 + i) = a.joints i) ∧ ∀ i, 6 + n ≤ i → v i = 0

theorem stacks_iff {a : Acc n} {v : ℕ → ℝ} : Stacks a v ↔ v = coord a := by
  constructor
  · rintro ⟨h1, h2, h3, h4⟩
    funext i
    unfold coord
    split
    · next h => exact h1 ⟨i, h⟩
    · next h =>
      split
      · next h' =>
        have := h2 ⟨i - 3, by omega⟩
        rwa [show 3 + (i - 3) = i by omega] at this
      · next h' =>
        split
        · next h'' =>
          have := h3 ⟨i - 6, h''⟩
          rwa [show 6 + (i - 6) = i by omega] at this
        · exact h4 i (by omega)
  · rintro rfl
    refine ⟨fun i => ?_, fun i => ?_, fun i => ?_, fun i hi => ?_⟩
    · simp [coord, i.isLt]
    · have := i.isLt
      simp [coord]
      omega
    · simp [coord]
      omega
    · have h1 : ¬ i < 3 := by omega
      have h2 : ¬ i < 6 := by omega
      have h3 : ¬ i - 6 < n := by omega
      simp [coord, h1, h2, h3]

/-- C149: if the acceleration asked for can be produced at all with the contacts at rest, the torques returned produce it:
forward dynamics with these contacts returns it.  Without gravity compensation the same holds for a robot without
gravity. -/
theorem C149_torque (kd : Kindr) (euler : Q4 → V3) (c : Ctrl n) (s : RBD ℝ n) (comp : Bool) (NEE : ℕ) (ee : ℕ → Bool) (t : Terms)
    (s0 : Reduced) (d0 y0 : ℕ → ℝ) (X0 : Mat ℝ) (hM : PosDef (6 + n) t.M) (hJ : Independent (6 + n) NEE ee t.J)
    (hz : ∀ e < NEE, ee e = false → ∀ a < 3, ∀ i, t.J (3 * e + a, i) = 0)
    {G : Matrix (Fin (3 * NEE)) (Fin (3 * NEE)) ℝ}
    (hG : LdltInverse (toMat (3 * NEE) (6 + n) t.J * (1 : Matrix (Fin (6 + n)) (Fin (6 + n)) ℝ) * (toMat (3 * NEE) (6 + n) t.J)ᵀ) G)
    (svdInv : Matrix (Fin (6 + n)) (Fin n) ℝ → Matrix (Fin n) (Fin (6 + n)) ℝ)
    {P : Matrix (Fin (6 + n)) (Fin (6 + n)) ℝ}
    (hP : P = 1 - (1 : Matrix (Fin (6 + n)) (Fin (6 + n)) ℝ) * (toMat (3 * NEE) (6 + n) t.J)ᵀ * G * toMat (3 * NEE) (6 + n) t.J)
    {k : ℕ} {U : Matrix (Fin (6 + n)) (Fin k) ℝ} {V : Matrix (Fin n) (Fin k) ℝ} {sv : Fin k → ℝ}
    (hU : Uᵀ * U = 1) (hV : Vᵀ * V = 1) (hA : P * (selection n)ᵀ = U * diagonal sv * Vᵀ) (hsv : ∀ i, sv i = 0 ∨ sv i > 1e-9)
    (hX : svdInv (P * (selection n)ᵀ) = V * diagonal (fun i => if sv i > 1e-9 then (sv i)⁻¹ else 0) * Uᵀ)
    (u0 : ℕ → ℝ) (l0 : ℕ → ℕ → ℝ) {v : ℕ → ℝ} (hv : Stacks (c.desiredAcc kd euler s) v)
    (hreq : Solves (6 + n) NEE ee { t with grav := if comp then t.grav else 0 } u0 v l0)
    (u : ℕ → ℝ) (hu : ∀ i : Fin n, u i = c.torque kd euler svdInv P t s comp i) :
    ∀ i < 6 + n, accelerations (forwardCommon (6 + n) NEE ee { t with grav := if comp then t.grav else 0 } u s0 d0 y0 X0) i
      = v i := by
  rw [stacks_iff] at hv
  subst hv
  refine C115_roundtrip n NEE ee { t with grav := if comp then t.grav else 0 } s0 d0 y0 X0 hM hJ hz hG svdInv hP hU hV hA hsv hX
    (coord (c.desiredAcc kd euler s)) u0 l0 hreq u ?_
  funext i
  refine (hu i).trans ?_
  cases comp
  · simp only [Ctrl.torque, Bool.false_eq_true, if_false, Pi.zero_apply, add_zero]; rfl
  · simp only [Ctrl.torque, if_true]; rfl

/-! ### Desired velocities -/

/-- C149, negated for desired velocities: they are compared component by component although the current ones are in
coordinates of the current base and the desired ones in coordinates of the desired base.  A base that is at the desired
position and moves with the desired velocity in the world, but is turned, is accelerated. -/
theorem C149_frames_violated {kd : Kindr} {euler : Q4 → V3} (hk : kd.Ok) (h : EulerOk kd euler) :
    ∃ (c : Ctrl n) (s : RBD ℝ n), UnitPose s.pose ∧ UnitPose c.des.pose ∧ s.pose.position = c.des.pose.position
      ∧ orient s.pose *ᵥ s.linVel = orient c.des.pose *ᵥ c.des.linVel ∧ (c.desiredAcc kd euler s).lin ≠ 0 := by
  let pd : Pose ℝ := ⟨false, ![1, 0, 0, 0], 0, 0⟩
  let ps : Pose ℝ := ⟨false, ![0, 0, 0, 1], 0, 0⟩
  let c : Ctrl n := ⟨⟨pd, 0, ![1, 0, 0], ⟨0, 0⟩⟩, 1, 1⟩
  let s : RBD ℝ n := ⟨ps, 0, ![-1, 0, 0], ⟨0, 0⟩⟩
  have hs : UnitPose s.pose := fun _ => by simp [s, ps, quat_norm]
  have hd : UnitPose c.des.pose := fun _ => by simp [c, pd, quat_norm]
  refine ⟨c, s, hs, hd, rfl, ?_, fun h0 => ?_⟩
  · funext i; fin_cases i <;> simp [orient, s, c, ps, pd, quatMatrix, mulVec, dotProduct, Fin.sum_univ_three] <;> norm_num
  · obtain ⟨-, -, -, -, -, -, hl, -⟩ := C149_acceleration hk h c s hs hd
    rw [h0] at hl
    have := congrFun hl 0
    simp [c, s, ps, pd] at this
    norm_num at this

/-! ### The hypotheses can be met -/

theorem unit_angle {x y : ℝ} {m : ℝ} (hm : 0 ≤ m) (h : x ^ 2 + y ^ 2 = m ^ 2) : ∃ a, |a| ≤ Real.pi ∧ x = m * Real.cos a ∧ y = m * Real.sin a := by
  let z : ℂ := ⟨x, y⟩
  have hz : ‖z‖ = m := by
    rw [Complex.norm_def, Complex.normSq_mk, show x * x + y * y = m ^ 2 by linarith [h, sq x, sq y], Real.sqrt_sq hm]
  refine ⟨z.arg, Complex.abs_arg_le_pi z, ?_, ?_⟩
  · rw [← hz, Complex.norm_mul_cos_arg]
  · rw [← hz, Complex.norm_mul_sin_arg]

/-- Every rotation has Euler angles of the range used above. -/
theorem euler_exists {R : M3} (hR : IsRot R) : ∃ e : V3, rotXYZ e = R ∧ |e 0| ≤ Real.pi ∧ |e 1| ≤ Real.pi / 2 ∧ |e 2| ≤ Real.pi := by
  have hRR : R * Rᵀ = 1 := mul_eq_one_comm.1 hR.orth
  have row : R 0 0 ^ 2 + R 0 1 ^ 2 + R 0 2 ^ 2 = 1 := by
    have := congrFun (congrFun hRR 0) 0
    simp [Matrix.mul_apply, Fin.sum_univ_three] at this
    linarith
  have b1 : -1 ≤ R 0 2 := by nlinarith [sq_nonneg (R 0 0), sq_nonneg (R 0 1)]
  have b2 : R 0 2 ≤ 1 := by nlinarith [sq_nonneg (R 0 0), sq_nonneg (R 0 1)]
  set b := Real.arcsin (R 0 2) with hb
  have hsb : Real.sin b = R 0 2 := Real.sin_arcsin b1 b2
  have hcb : 0 ≤ Real.cos b := Real.cos_arcsin_nonneg _
  obtain ⟨g, hg, g1, g2⟩ := unit_angle (x := R 0 0) (y := -R 0 1) hcb (by have := Real.sin_sq_add_cos_sq b; rw [hsb] at this; linarith [neg_sq (R 0 1)])
  have g2' : R 0 1 = -(Real.cos b * Real.sin g) := by linarith
  -- what is left after the turns about y and z is a turn about x
  have hN := (rotY_rot b).mul (rotZ_rot g)
  generalize hNdef : rotY b * rotZ g = N at hN
  have hNN : N * Nᵀ = 1 := mul_eq_one_comm.1 hN.orth
  obtain ⟨X, hX⟩ : ∃ X, X = R * Nᵀ := ⟨_, rfl⟩
  have hXX : X * Xᵀ = 1 := by
    rw [hX, transpose_mul, transpose_transpose, Matrix.mul_assoc, ← Matrix.mul_assoc Nᵀ, hN.orth, Matrix.one_mul, hRR]
  have hXX' : Xᵀ * X = 1 := mul_eq_one_comm.1 hXX
  have hdet : X.det = 1 := by rw [hX, det_mul, det_transpose, hR.det, hN.det, one_mul]
  have x00 : X 0 0 = 1 := by
    have h1 := Real.sin_sq_add_cos_sq b
    have h2 := Real.sin_sq_add_cos_sq g
    simp only [hX, ← hNdef, Matrix.mul_apply, Fin.sum_univ_three, transpose_apply, g1, g2', ← hsb]
    simp [rotY, rotZ]
    linear_combination h1 + Real.cos b ^ 2 * h2
  have r := fun i j => congrFun (congrFun hXX i) j
  have q := fun i j => congrFun (congrFun hXX' i) j
  simp only [Matrix.mul_apply, Fin.sum_univ_three, transpose_apply] at r q
  have r00 := r 0 0
  have q00 := q 0 0
  simp [x00] at r00 q00
  have x01 : X 0 1 = 0 := by nlinarith [sq_nonneg (X 0 1), sq_nonneg (X 0 2)]
  have x02 : X 0 2 = 0 := by nlinarith [sq_nonneg (X 0 1), sq_nonneg (X 0 2)]
  have x10 : X 1 0 = 0 := by nlinarith [sq_nonneg (X 1 0), sq_nonneg (X 2 0)]
  have x20 : X 2 0 = 0 := by nlinarith [sq_nonneg (X 1 0), sq_nonneg (X 2 0)]
  have q11 := q 1 1
  have q12 := q 1 2
  have q22 := q 2 2
  rw [det_fin_three] at hdet
  simp [x00, x01, x02, x10, x20] at q11 q12 q22 hdet
  obtain ⟨a, ha, a1, a2⟩ := unit_angle (x := X 1 1) (y := X 2 1) zero_le_one (by linarith [sq (X 1 1), sq (X 2 1)])
  rw [one_mul] at a1 a2
  have x22 : X 2 2 = Real.cos a := by rw [← a1]; linear_combination X 1 1 * hdet + X 2 1 * q12 - X 2 2 * q11
  have x12 : X 1 2 = -Real.sin a := by rw [← a2]; linear_combination -X 2 1 * hdet + X 1 1 * q12 - X 1 2 * q11
  refine ⟨![a, b, g], ?_, by simpa using ha, ?_, by simpa using hg⟩
  · have hXa : X = rotX a := by
      ext i j; fin_cases i <;> fin_cases j <;> simp [rotX, x00, x01, x02, x10, x20, a1, a2, x22, x12]
    show rotX a * rotY b * rotZ g = R
    rw [Matrix.mul_assoc, hNdef, ← hXa, hX, Matrix.mul_assoc, hN.orth, Matrix.mul_one]
  · rw [abs_le]; exact ⟨Real.neg_pi_div_two_le_arcsin _, Real.arcsin_le_pi_div_two _⟩

/-- Quaternion of Euler angles. -/
noncomputable def stdQuat (e : V3) : Q4 :=
  quatMul (quatMul (axisQuat (e 0) ![1, 0, 0]) (axisQuat (e 1) ![0, 1, 0])) (axisQuat (e 2) ![0, 0, 1])

/-- Functions as `EulerOk` demands exist. -/
theorem eulerOk_exists : ∃ (kd : Kindr) (euler : Q4 → V3), kd.Ok ∧ EulerOk kd euler := by
  have hx : ∀ q : Q4, ∃ e : V3, q ⬝ᵥ q = 1 → rotXYZ e = quatMatrix q ∧ |e 0| ≤ Real.pi ∧ |e 1| ≤ Real.pi / 2 ∧ |e 2| ≤ Real.pi := fun q => by
    by_cases hq : q ⬝ᵥ q = 1
    · obtain ⟨e, he⟩ := euler_exists (quatMatrix_rot hq); exact ⟨e, fun _ => he⟩
    · exact ⟨0, fun h => absurd h hq⟩
  choose f hf using hx
  refine ⟨stdKindr ⟨f, stdQuat⟩, f, stdKindr_ok _, fun e => ?_, fun e => eulerQuatMatrix_eq e, fun q hq => (hf q hq).1, fun q hq => (hf q hq).2⟩
  show stdQuat e ⬝ᵥ stdQuat e = 1
  rw [stdQuat, quatMul_norm, quatMul_norm, axisQuat_norm, axisQuat_norm, axisQuat_norm] <;> simp [dotProduct, Fin.sum_univ_three]

/-- The hypotheses of `C149_rest`: the same orientation, stored as quaternions of opposite signs. -/
example : ∃ (c : Ctrl 1) (s : RBD ℝ 1), UnitPose s.pose ∧ UnitPose c.des.pose ∧ orient s.pose = orient c.des.pose
    ∧ s.pose.quat ≠ c.des.pose.quat ∧ s.pose.position = c.des.pose.position ∧ s.angVel = c.des.angVel ∧ s.linVel = c.des.linVel := by
  refine ⟨⟨⟨⟨false, ![0, 1, 0, 0], 0, 1⟩, 1, 1, ⟨0, 0⟩⟩, 1, 1⟩, ⟨⟨false, ![0, -1, 0, 0], 0, 1⟩, 1, 1, ⟨0, 0⟩⟩, ?_, ?_, ?_, ?_, rfl, rfl, rfl⟩
  · intro _; simp [quat_norm]
  · intro _; simp [quat_norm]
  · ext i j; fin_cases i <;> fin_cases j <;> simp [orient, quatMatrix]
  · intro h; have := congrFun h 1; simp at this; norm_num at this

/-- The hypotheses of `C149_energy` and `C149_bounded`: an undamped base swings about the desired position. -/
example {kd : Kindr} {euler : Q4 → V3} (hk : kd.Ok) (h : EulerOk kd euler) : ∃ (c : Ctrl 0) (s : ℝ → RBD ℝ 0),
    (∀ t, UnitPose (s t).pose) ∧ UnitPose c.des.pose ∧ c.des.linVel = 0 ∧ (∀ i, 0 ≤ c.Kd i) ∧ (∀ i, 0 ≤ c.Kp i)
    ∧ (∀ t, VDeriv (fun t => (s t).pose.position) (orient (s t).pose *ᵥ (s t).linVel) t)
    ∧ (∀ t, VDeriv (fun t => (s t).linVel) (c.desiredAcc kd euler (s t)).lin t) ∧ energy c (s 0) = 1 / 2 := by
  let c : Ctrl 0 := ⟨⟨⟨false, ![1, 0, 0, 0], 0, 0⟩, 0, 0, ⟨0, 0⟩⟩, 1, 0⟩
  let s : ℝ → RBD ℝ 0 := fun t => ⟨⟨false, ![1, 0, 0, 0], 0, ![Real.cos t, 0, 0]⟩, 0, ![-Real.sin t, 0, 0], ⟨0, 0⟩⟩
  have hs : ∀ t, UnitPose (s t).pose := fun t _ => by simp [s, quat_norm]
  have hd : UnitPose c.des.pose := fun _ => by simp [c, quat_norm]
  have ho : ∀ t, orient (s t).pose = 1 := fun t => by
    ext i j; fin_cases i <;> fin_cases j <;> simp [s, orient, quatMatrix]
  refine ⟨c, s, hs, hd, rfl, fun i => le_refl _, fun i => zero_le_one, fun t => ?_, fun t => ?_, by simp [energy, c, s]⟩
  · rw [ho, one_mulVec]
    intro i; fin_cases i
    · exact Real.hasDerivAt_cos t
    · exact hasDerivAt_const t 0
    · exact hasDerivAt_const t 0
  · obtain ⟨-, -, -, -, -, -, hl, -⟩ := C149_acceleration hk h c (s t) (hs t) hd
    rw [hl, ho, transpose_one, one_mulVec]
    intro i; fin_cases i
    · exact (Real.hasDerivAt_sin t).fun_neg.congr_deriv (by simp [c, s])
    · exact (hasDerivAt_const t (0 : ℝ)).congr_deriv (by simp [c, s])
    · exact (hasDerivAt_const t (0 : ℝ)).congr_deriv (by simp [c, s])

/-- The hypothesis of `C149_torque` about the acceleration, for the robot of the example of C115 with one foot in contact,
with velocity terms, gravity, torque and contact forces; the other hypotheses are shown there. -/
example (kd : Kindr) (euler : Q4 → V3) : ∃ (c : Ctrl 1) (s : RBD ℝ 1) (u0 : ℕ → ℝ) (l0 : ℕ → ℕ → ℝ) (v : ℕ → ℝ),
    Stacks (c.desiredAcc kd euler s) v ∧ Solves (6 + 1) 1 (fun _ => true) { exTerms with grav := if true then exTerms.grav else 0 } u0 v l0
    ∧ u0 0 = 7 ∧ l0 0 0 = 3 := by
  let c : Ctrl 1 := ⟨⟨⟨true, 0, 0, 0⟩, ![-1, -2, -3], ![-1, -1, -1], ⟨0, 0⟩⟩, 1, 1⟩
  let c' : Ctrl 1 := { c with Kp := 0 }
  let s : RBD ℝ 1 := ⟨⟨true, 0, 0, 0⟩, 0, 0, ⟨0, 0⟩⟩
  have hr : rotateInertiaToBase kd s.pose ![0, 0, 0] = 0 := by
    rw [show (![0, 0, 0] : V3) = 0 by funext i; fin_cases i <;> rfl]; simp [rotateInertiaToBase]
  have ha : ∀ i < 7, coord (c'.desiredAcc kd euler s) i = if 3 ≤ i ∧ i < 6 then -1 else if i = 6 then 0 else -(1 + (i : ℝ)) := by
    intro i hi
    have hp : ∀ j, c.des.pose.position j - s.pose.position j = 0 := fun j => by simp [c, s]
    interval_cases i <;> simp [coord, Ctrl.desiredAcc, Acc.setBase, Acc.zero, twist, c', hr] <;> simp [c, s] <;> norm_num
  refine ⟨c', s, fun _ => 7, fun _ a => 3 + a, _, stacks_iff.2 rfl, ⟨?_, ?_, ?_⟩, rfl, by norm_num⟩
  · intro i hi
    simp only [Finset.sum_range_succ, Finset.sum_range_zero, ha _ (by norm_num : (0 : ℕ) < 7), ha _ (by norm_num : (1 : ℕ) < 7),
      ha _ (by norm_num : (2 : ℕ) < 7), ha _ (by norm_num : (3 : ℕ) < 7), ha _ (by norm_num : (4 : ℕ) < 7),
      ha _ (by norm_num : (5 : ℕ) < 7), ha _ (by norm_num : (6 : ℕ) < 7), exTerms]
    interval_cases i <;> norm_num
  · intro e he _ a ha'
    have he0 : e = 0 := by omega
    subst he0
    simp only [Finset.sum_range_succ, Finset.sum_range_zero, ha _ (by norm_num : (0 : ℕ) < 7), ha _ (by norm_num : (1 : ℕ) < 7),
      ha _ (by norm_num : (2 : ℕ) < 7), ha _ (by norm_num : (3 : ℕ) < 7), ha _ (by norm_num : (4 : ℕ) < 7),
      ha _ (by norm_num : (5 : ℕ) < 7), ha _ (by norm_num : (6 : ℕ) < 7), exTerms]
    interval_cases a <;> norm_num
  · intro e he h
    simp at h

end CT.IdFb
