import Verif.Props.GenKinBase

/-!
# The mounting poses in the description of a robot

The code of a robot is generated from a description (`<robot>/model/*.kindsl`), in which every joint and every
frame has a translation and a rotation relative to the link that it is on.  The rotation is given by three
angles, for turns about the x, y and z axes of the moving frame in this order; all angles in the descriptions are
multiples of a right angle.
-/

namespace CT.GenKin

open Matrix FrameJac Spatial

/-! ### Specification -/

/-- Rotation about the x axis. -/
noncomputable def rotX (θ : ℝ) : M3 := !![1, 0, 0; 0, Real.cos θ, -Real.sin θ; 0, Real.sin θ, Real.cos θ]

/-- Rotation about the y axis. -/
noncomputable def rotY (θ : ℝ) : M3 := !![Real.cos θ, 0, Real.sin θ; 0, 1, 0; -Real.sin θ, 0, Real.cos θ]

/-- Rotation about the z axis. -/
noncomputable def rotZ (θ : ℝ) : M3 := !![Real.cos θ, -Real.sin θ, 0; Real.sin θ, Real.cos θ, 0; 0, 0, 1]

/-- An entry of the description: `translation = (x, y, z)`, `rotation = (a PI/2, b PI/2, c PI/2)`. -/
structure Descr where
  id : ℕ
  x : ℚ
  y : ℚ
  z : ℚ
  a : ℤ
  b : ℤ
  c : ℤ

/-- The pose that is described. -/
noncomputable def Descr.pose (d : Descr) : Pose :=
  ⟨rotX (d.a * (Real.pi / 2)) * rotY (d.b * (Real.pi / 2)) * rotZ (d.c * (Real.pi / 2)), ![(d.x : ℝ), (d.y : ℝ), (d.z : ℝ)]⟩

/-- The pose `a` has the described orientation, and its origin is less than a twentieth of a millimetre from where it should
be. -/
def Descr.Rounded (d : Descr) (a : Pose) : Prop := a.R = d.pose.R ∧ ∀ i, |a.p i - d.pose.p i| ≤ 5 / 10 ^ 5

/-! ### Right angles -/

/-- The cosine of a multiple of a right angle. -/
def icos (k : ℤ) : ℤ := if k % 4 = 0 then 1 else if k % 4 = 2 then -1 else 0

/-- The sine of a multiple of a right angle. -/
def isin (k : ℤ) : ℤ := if k % 4 = 1 then 1 else if k % 4 = 3 then -1 else 0

theorem quarter (k : ℤ) : Real.cos (k * (Real.pi / 2)) = icos k ∧ Real.sin (k * (Real.pi / 2)) = isin k := by
  have h4 : (k : ℝ) * (Real.pi / 2) = ((k % 4 : ℤ) : ℝ) * (Real.pi / 2) + ((k / 4 : ℤ) : ℝ) * (2 * Real.pi) := by
    have h : k = k % 4 + 4 * (k / 4) := by omega
    have h' : (k : ℝ) = ((k % 4 : ℤ) : ℝ) + 4 * ((k / 4 : ℤ) : ℝ) := by exact_mod_cast h
    rw [h']
    ring_nf
  rw [h4, Real.cos_add_int_mul_two_pi, Real.sin_add_int_mul_two_pi, icos, isin]
  have h : k % 4 = 0 ∨ k % 4 = 1 ∨ k % 4 = 2 ∨ k % 4 = 3 := by omega
  have e3 : (3 : ℝ) * (Real.pi / 2) = Real.pi / 2 + Real.pi := by ring
  have e2 : (2 : ℝ) * (Real.pi / 2) = Real.pi := by ring
  rcases h with h | h | h | h <;> simp [h, e2, e3, Real.cos_add_pi, Real.sin_add_pi]

/-! ### The check -/

/-- The value of an expression without joint positions. -/
def E.num : E → ℚ
  | .k m e => m / 10 ^ e
  | .s _ => 0
  | .c _ => 0
  | .add a b => a.num + b.num
  | .sub a b => a.num - b.num
  | .mul a b => a.num * b.num
  | .neg a => -a.num

theorem E.num_eval (q : ℕ → ℝ) : ∀ e : E, e.within [] = true → e.eval q = e.num
  | .k m e, _ => by simp [E.eval, E.num]
  | .s j, h => by simp [E.within] at h
  | .c j, h => by simp [E.within] at h
  | .add a b, h => by
    rw [E.within, Bool.and_eq_true] at h
    rw [E.eval, E.num, E.num_eval q a h.1, E.num_eval q b h.2]; push_cast; rfl
  | .sub a b, h => by
    rw [E.within, Bool.and_eq_true] at h
    rw [E.eval, E.num, E.num_eval q a h.1, E.num_eval q b h.2]; push_cast; rfl
  | .mul a b, h => by
    rw [E.within, Bool.and_eq_true] at h
    rw [E.eval, E.num, E.num_eval q a h.1, E.num_eval q b h.2]; push_cast; rfl
  | .neg a, h => by
    rw [E.within] at h
    rw [E.eval, E.num, E.num_eval q a h]; push_cast; rfl

/-- The mounting pose is as described. -/
def Mount.is (m : Mount) (d : Descr) : Bool :=
  let ca := icos d.a; let sa := isin d.a; let cb := icos d.b; let sb := isin d.b; let cc := icos d.c; let sc := isin d.c
  Nat.beq m.id d.id
  && decide ((nth m.p 0).num = d.x) && decide ((nth m.p 1).num = d.y) && decide ((nth m.p 2).num = d.z)
  && decide ((nth m.R 0).num = ((cb * cc : ℤ) : ℚ)) && decide ((nth m.R 1).num = ((-(cb * sc) : ℤ) : ℚ))
  && decide ((nth m.R 2).num = (sb : ℚ))
  && decide ((nth m.R 3).num = ((sa * sb * cc + ca * sc : ℤ) : ℚ))
  && decide ((nth m.R 4).num = ((-(sa * sb * sc) + ca * cc : ℤ) : ℚ)) && decide ((nth m.R 5).num = ((-(sa * cb) : ℤ) : ℚ))
  && decide ((nth m.R 6).num = ((-(ca * sb * cc) + sa * sc : ℤ) : ℚ))
  && decide ((nth m.R 7).num = ((ca * sb * sc + sa * cc : ℤ) : ℚ)) && decide ((nth m.R 8).num = ((ca * cb : ℤ) : ℚ))

theorem Mount.is_pose {m : Mount} (ho : m.ok = true) {d : Descr} (h : m.is d = true) : m.pose = d.pose := by
  simp only [Mount.ok, Bool.and_eq_true, List.all_eq_true, List.mem_range] at ho
  have hR := ho.1.1.1
  have hp := ho.1.1.2
  simp only [Mount.is, Bool.and_eq_true, decide_eq_true_eq] at h
  obtain ⟨⟨⟨⟨⟨⟨⟨⟨⟨⟨⟨⟨_, p0⟩, p1⟩, p2⟩, r0⟩, r1⟩, r2⟩, r3⟩, r4⟩, r5⟩, r6⟩, r7⟩, r8⟩ := h
  obtain ⟨ca, sa⟩ := quarter d.a
  obtain ⟨cb, sb⟩ := quarter d.b
  obtain ⟨cc, sc⟩ := quarter d.c
  have eR : ∀ i < 9, (nth m.R i).eval 0 = ((nth m.R i).num : ℝ) := fun i hi => E.num_eval 0 _ (hR i hi)
  have ep : ∀ i < 3, (nth m.p i).eval 0 = ((nth m.p i).num : ℝ) := fun i hi => E.num_eval 0 _ (hp i hi)
  have key : ∀ {R R' : M3} {p p' : V3}, R = R' → p = p' → Pose.mk R p = ⟨R', p'⟩ := by rintro _ _ _ _ rfl rfl; rfl
  refine key ?_ ?_
  · ext i j
    fin_cases i <;> fin_cases j <;>
      simp [rotX, rotY, rotZ, Matrix.mul_apply, Fin.sum_univ_three, ca, sa, cb, sb, cc, sc, eR, r0, r1, r2, r3, r4, r5,
        r6, r7, r8] <;> ring
  · funext i
    fin_cases i <;> simp [ep, p0, p1, p2]

theorem described {fs : List Mount} (h : wf fs = true) {m : Mount} (hm : m ∈ fs) {d : Descr} (hd : m.is d = true) :
    mounts fs d.id = d.pose := by
  have h1 : m.id = d.id := by
    simp only [Mount.is, Bool.and_eq_true] at hd
    exact Nat.eq_of_beq_eq_true hd.1.1.1.1.1.1.1.1.1.1.1.1
  have h2 : m.ok = true := by
    simp only [wf, Bool.and_eq_true, List.all_eq_true] at h
    exact (h.1 m hm).2
  rw [← h1, mounts_eq h hm, Mount.is_pose h2 hd]

/-- The description with other numbers. -/
def Descr.move (d : Descr) (x y z : ℚ) : Descr := { d with x := x, y := y, z := z }

/-- The check for a description that is only met approximately. -/
def Mount.near (m : Mount) (d : Descr) (x y z : ℚ) : Bool :=
  m.is (d.move x y z) && decide (x - d.x ≤ 5 / 10 ^ 5) && decide (d.x - x ≤ 5 / 10 ^ 5) && decide (y - d.y ≤ 5 / 10 ^ 5)
  && decide (d.y - y ≤ 5 / 10 ^ 5) && decide (z - d.z ≤ 5 / 10 ^ 5) && decide (d.z - z ≤ 5 / 10 ^ 5)

theorem rounded {fs : List Mount} (h : wf fs = true) {m : Mount} (hm : m ∈ fs) {d : Descr} {x y z : ℚ}
    (hd : m.near d x y z = true) : d.Rounded (mounts fs d.id) := by
  simp only [Mount.near, Bool.and_eq_true, decide_eq_true_eq] at hd
  obtain ⟨⟨⟨⟨⟨⟨h0, x1⟩, x2⟩, y1⟩, y2⟩, z1⟩, z2⟩ := hd
  have h1 : mounts fs d.id = (d.move x y z).pose := described h hm h0
  have key : ∀ a b : ℚ, a - b ≤ 5 / 10 ^ 5 → b - a ≤ 5 / 10 ^ 5 → |(a : ℝ) - (b : ℝ)| ≤ 5 / 10 ^ 5 := by
    intro a b h2 h3
    have h4 : ((a - b : ℚ) : ℝ) ≤ ((5 / 10 ^ 5 : ℚ) : ℝ) := by exact_mod_cast h2
    have h5 : ((b - a : ℚ) : ℝ) ≤ ((5 / 10 ^ 5 : ℚ) : ℝ) := by exact_mod_cast h3
    push_cast at h4 h5
    rw [abs_le]
    constructor <;> linarith
  rw [h1]
  refine ⟨rfl, fun i => ?_⟩
  fin_cases i
  · exact key _ _ x1 x2
  · exact key _ _ y1 y2
  · exact key _ _ z1 z2

end CT.GenKin
