import Verif.Props.GenKinPoly
import Verif.Props.Spatial

/-!
# Poses of the frames of a robot

The specification of the generated kinematics, and the rules by which the certificates of the robots are
assembled.
-/

namespace CT.GenKin

open Matrix FrameJac Spatial

/-! ### Specification -/

/-- Orientation and origin of a frame in the coordinates of another frame. -/
structure Pose where
  R : M3
  p : V3

namespace Pose

/-- The frame itself. -/
def one : Pose := ⟨1, 0⟩

/-- The pose `b` in the frame at the pose `a`. -/
def comp (a b : Pose) : Pose := ⟨a.R * b.R, a.R *ᵥ b.p + a.p⟩

/-- The pose of the other frame in this frame. -/
def inv (a : Pose) : Pose := ⟨a.Rᵀ, -(a.Rᵀ *ᵥ a.p)⟩

/-- The pose of the frame at `b` in the frame at `a`. -/
def rel (a b : Pose) : Pose := a.inv.comp b

/-- Rotation about the z axis. -/
noncomputable def turn (θ : ℝ) : Pose :=
  ⟨!![Real.cos θ, -Real.sin θ, 0; Real.sin θ, Real.cos θ, 0; 0, 0, 1], 0⟩

/-- The homogeneous matrix. -/
def hom (a : Pose) : Matrix (Fin 4) (Fin 4) ℝ :=
  !![a.R 0 0, a.R 0 1, a.R 0 2, a.p 0;
     a.R 1 0, a.R 1 1, a.R 1 2, a.p 1;
     a.R 2 0, a.R 2 1, a.R 2 2, a.p 2;
     0, 0, 0, 1]

/-- The matrix for spatial velocities. -/
def motion (a : Pose) : M6 := blk a.R 0 (cpm a.p * a.R) a.R

/-- The matrix for spatial forces. -/
def force (a : Pose) : M6 := blk a.R (cpm a.p * a.R) 0 a.R

end Pose

/-- A frame: the frame that it is mounted on and the joint that turns it about its z axis, if there is one. -/
structure Frame where
  id : ℕ
  parent : ℕ
  joint : Option ℕ

/-- `G` are the poses, in the frame 0, of the frames of a robot with the joint positions `q`, when each frame is
mounted on its parent at the pose `C` and then turned by its joint. -/
def Arranged (fs : List Frame) (C : ℕ → Pose) (q : ℕ → ℝ) (G : ℕ → Pose) : Prop :=
  G 0 = Pose.one ∧
  ∀ f ∈ fs, G f.id = (G f.parent).comp ((C f.id).comp (f.joint.elim Pose.one fun j => Pose.turn (q j)))

/-- The class stays inside its matrix, and `update` with the joint positions `q` leaves the matrix `M` there,
whatever was in the memory before construction and whatever `update` was called with before. -/
def Delivers {r c : ℕ} (g : Gen) (q : ℕ → ℝ) (M : Matrix (Fin r) (Fin c) ℝ) : Prop :=
  g.rows = r ∧ g.cols = c ∧ g.inside ∧
  ∀ z calls (i : Fin r) (j : Fin c), g.update (g.after z calls) q i j = M i j

/-! ### Rigid poses -/

namespace Pose

theorem rel_comp {a b : Pose} (hb : IsRot b.R) (c : Pose) : (rel a b).comp (rel b c) = rel a c := by
  have h := IsRot.orth' hb
  have h1 : a.Rᵀ * b.R * (b.Rᵀ * c.R) = a.Rᵀ * c.R := by
    rw [Matrix.mul_assoc, ← Matrix.mul_assoc b.R, h, Matrix.one_mul]
  have h2 : (a.Rᵀ * b.R) *ᵥ (b.Rᵀ *ᵥ c.p + -(b.Rᵀ *ᵥ b.p)) = a.Rᵀ *ᵥ c.p - a.Rᵀ *ᵥ b.p := by
    rw [← Matrix.mulVec_neg, ← Matrix.mulVec_add, Matrix.mulVec_mulVec, Matrix.mul_assoc, h, Matrix.mul_one,
      Matrix.mulVec_add, Matrix.mulVec_neg, sub_eq_add_neg]
  simp only [rel, comp, inv, h1, h2, Pose.mk.injEq, true_and]
  abel

theorem rel_one (a : Pose) : rel one a = a := by
  simp [rel, comp, inv, one]

theorem rel_inv {a b : Pose} (ha : IsRot a.R) (hb : IsRot b.R) : (rel a b).inv = rel b a := by
  have h1 : (a.Rᵀ * b.R)ᵀ = b.Rᵀ * a.R := by rw [Matrix.transpose_mul, Matrix.transpose_transpose]
  simp only [rel, comp, inv, h1, Pose.mk.injEq, true_and]
  rw [Matrix.mulVec_add, Matrix.mulVec_neg, Matrix.mulVec_mulVec, Matrix.mulVec_mulVec, Matrix.mul_assoc, (IsRot.orth' ha),
    Matrix.mul_one]
  abel

theorem rot_rel {a b : Pose} (ha : IsRot a.R) (hb : IsRot b.R) : IsRot (rel a b).R := IsRot.mul (IsRot.transpose ha) hb

/-- The product of the cross product matrix and the rotation, for a composition. -/
theorem skew_comp {a : Pose} (ha : IsRot a.R) (b : Pose) :
    cpm (a.comp b).p * (a.comp b).R = cpm a.p * a.R * b.R + a.R * (cpm b.p * b.R) := by
  have h : cpm (a.R *ᵥ b.p + a.p) = a.R * cpm b.p * a.Rᵀ + cpm a.p := by
    rw [cpm_rot ha]
    ext i j
    fin_cases i <;> fin_cases j <;> simp [cpm] <;> ring
  simp only [comp]
  rw [h, Matrix.add_mul, Matrix.mul_assoc (a.R * cpm b.p), ← Matrix.mul_assoc a.Rᵀ, ha.orth, Matrix.one_mul,
    Matrix.mul_assoc, Matrix.mul_assoc, add_comm]

/-- The same for the inverse. -/
theorem skew_inv {a : Pose} (ha : IsRot a.R) : cpm a.inv.p * a.inv.R = (cpm a.p * a.R)ᵀ := by
  have h : cpm (-(a.Rᵀ *ᵥ a.p)) = -(a.Rᵀ * cpm a.p * a.R) := by
    have h1 := cpm_rot (IsRot.transpose ha) a.p
    rw [Matrix.transpose_transpose] at h1
    rw [h1]
    ext i j
    fin_cases i <;> fin_cases j <;> simp [cpm]
  simp only [inv]
  rw [h, Matrix.neg_mul, Matrix.mul_assoc, (IsRot.orth' ha), Matrix.mul_one, Matrix.transpose_mul, cpm_transpose,
    Matrix.mul_neg]

theorem rot_turn (θ : ℝ) : IsRot (turn θ).R := by
  have h := Real.sin_sq_add_cos_sq θ
  refine ⟨?_, ?_⟩
  · ext i j
    fin_cases i <;> fin_cases j <;> simp [turn, Matrix.mul_apply, Fin.sum_univ_three] <;> nlinarith
  · simp [turn, Matrix.det_fin_three]
    nlinarith

end Pose

/-! ### The value of a matrix -/

/-- The last assignment to an entry. -/
def lookup (i j : ℕ) : List Asg → Option E
  | [] => none
  | a :: l => match lookup i j l with
    | some e => some e
    | none => bif Nat.beq i a.i && Nat.beq j a.j then some a.e else none

theorem foldl_act (q : ℕ → ℝ) (i j : ℕ) : ∀ (l : List Asg) (m : Mem),
    l.foldl (Asg.act q) m i j = ((lookup i j l).map (E.eval q)).getD (m i j)
  | [], m => rfl
  | a :: l, m => by
    rw [List.foldl_cons, foldl_act q i j l, lookup]
    cases h : lookup i j l with
    | some e => rfl
    | none =>
      cases hb : (Nat.beq i a.i && Nat.beq j a.j) with
      | true =>
        rw [Bool.and_eq_true] at hb
        simp [Asg.act, Nat.eq_of_beq_eq_true hb.1, Nat.eq_of_beq_eq_true hb.2]
      | false =>
        have : ¬ (i = a.i ∧ j = a.j) := by
          rintro ⟨rfl, rfl⟩
          rw [Nat.beq_refl, Nat.beq_refl] at hb
          exact absurd hb (by simp)
        simp [Asg.act, this]

/-- The expression that determines an entry. -/
def Gen.entry (g : Gen) (i j : ℕ) : E :=
  match lookup i j g.upd with
  | some e => e
  | none => match lookup i j g.ctor with
    | some e => e
    | none => .k 0 0

/-- Every entry is determined by `update`, or by a number in the constructor; the size is as given and no index is
outside. -/
def Gen.full (g : Gen) (r c : ℕ) : Bool :=
  Nat.beq g.rows r && Nat.beq g.cols c
  && (g.ctor.all fun a => Nat.blt a.i r && Nat.blt a.j c) && (g.upd.all fun a => Nat.blt a.i r && Nat.blt a.j c)
  && (List.range r).all fun i => (List.range c).all fun j =>
    match lookup i j g.upd with
    | some _ => true
    | none => match lookup i j g.ctor with
      | some e => e.within []
      | none => false

theorem const_eval {e : E} (h : e.within [] = true) (q q' : ℕ → ℝ) : e.eval q = e.eval q' := by
  rw [← E.poly_eval q [] e h, ← E.poly_eval q' [] e h]
  rfl

theorem Gen.value {g : Gen} {r c : ℕ} (h : g.full r c = true) (q : ℕ → ℝ) (z : Mem) (calls : List (ℕ → ℝ)) {i j : ℕ}
    (hi : i < r) (hj : j < c) : g.update (g.after z calls) q i j = (g.entry i j).eval q := by
  simp only [Gen.full, Bool.and_eq_true, List.all_eq_true, List.mem_range] at h
  have h1 := h.2 i hi j hj
  rw [Gen.update, foldl_act, Gen.entry]
  cases hu : lookup i j g.upd with
  | some e => rfl
  | none =>
    rw [hu] at h1
    have h2 : ∀ (cs : List (ℕ → ℝ)) (m : Mem), cs.foldl g.update m i j = m i j := by
      intro cs
      induction cs with
      | nil => intro m; rfl
      | cons q' cs ih => intro m; rw [List.foldl_cons, ih, Gen.update, foldl_act, hu]; rfl
    simp only [Option.map_none, Option.getD_none]
    rw [Gen.after, h2, Gen.new, foldl_act]
    cases hc : lookup i j g.ctor with
    | none => rw [hc] at h1; exact absurd h1 (by simp)
    | some e =>
      rw [hc] at h1
      exact const_eval h1 _ _

theorem Gen.full_inside {g : Gen} {r c : ℕ} (h : g.full r c = true) : g.rows = r ∧ g.cols = c ∧ g.inside := by
  simp only [Gen.full, Bool.and_eq_true, List.all_eq_true, Nat.blt_eq] at h
  obtain ⟨⟨⟨⟨h1, h2⟩, h3⟩, h4⟩, _⟩ := h
  have h1 := Nat.eq_of_beq_eq_true h1
  have h2 := Nat.eq_of_beq_eq_true h2
  refine ⟨h1, h2, fun a ha => ?_⟩
  rw [h1, h2]
  rcases List.mem_append.1 ha with ha | ha
  · exact h3 a ha
  · exact h4 a ha

/-! ### Symbolic poses -/

/-- Expressions for the rotation, the origin and the product of the cross product matrix of the origin and the
rotation. -/
structure Tri where
  R : ℕ → ℕ → E
  p : ℕ → E
  S : ℕ → ℕ → E

/-- The expressions have the values of the pose. -/
structure Holds (q : ℕ → ℝ) (t : Tri) (T : Pose) : Prop where
  R : ∀ i j : Fin 3, (t.R i j).eval q = T.R i j
  p : ∀ i : Fin 3, (t.p i).eval q = T.p i
  S : ∀ i j : Fin 3, (t.S i j).eval q = (cpm T.p * T.R) i j

def sum3 (f : ℕ → E) : E := (f 0 ⊞ f 1) ⊞ f 2

theorem sum3_eval (q : ℕ → ℝ) (f : ℕ → E) : (sum3 f).eval q = ∑ k : Fin 3, (f k).eval q := by
  simp [sum3, E.eval, Fin.sum_univ_three]

def Tri.comp (a b : Tri) : Tri where
  R i j := sum3 fun k => a.R i k ⊠ b.R k j
  p i := (sum3 fun k => a.R i k ⊠ b.p k) ⊞ a.p i
  S i j := (sum3 fun k => a.S i k ⊠ b.R k j) ⊞ (sum3 fun k => a.R i k ⊠ b.S k j)

def Tri.inv (a : Tri) : Tri where
  R i j := a.R j i
  p i := .neg (sum3 fun k => a.R k i ⊠ a.p k)
  S i j := a.S j i

theorem Holds.comp {q : ℕ → ℝ} {a b : Tri} {A B : Pose} (ha : Holds q a A) (hb : Holds q b B) (hA : IsRot A.R) :
    Holds q (a.comp b) (A.comp B) := by
  refine ⟨fun i j => ?_, fun i => ?_, fun i j => ?_⟩
  · simp only [Tri.comp, sum3_eval, E.eval, ha.R, hb.R, Pose.comp, Matrix.mul_apply]
  · simp only [Tri.comp, sum3_eval, E.eval, ha.R, hb.p, ha.p, Pose.comp, Pi.add_apply, Matrix.mulVec, dotProduct]
  · rw [Pose.skew_comp hA, Matrix.add_apply, Matrix.mul_apply, Matrix.mul_apply (M := A.R)]
    simp only [Tri.comp, sum3_eval, E.eval, ha.R, hb.R, ha.S, hb.S]

theorem Holds.inv {q : ℕ → ℝ} {a : Tri} {A : Pose} (ha : Holds q a A) (hA : IsRot A.R) : Holds q a.inv A.inv := by
  refine ⟨fun i j => ?_, fun i => ?_, fun i j => ?_⟩
  · simp only [Tri.inv, ha.R, Pose.inv, Matrix.transpose_apply]
  · simp only [Tri.inv, sum3_eval, E.eval, ha.R, ha.p, Pose.inv, Pi.neg_apply, Matrix.mulVec, dotProduct,
      Matrix.transpose_apply]
  · rw [Pose.skew_inv hA, Matrix.transpose_apply]
    simp only [Tri.inv, ha.S]

/-- Equality of the expressions. -/
def eqTri (vs : List ℕ) (a b : Tri) : Bool :=
  (List.range 3).all fun i => eqE vs (a.p i) (b.p i)
    && (List.range 3).all fun j => eqE vs (a.R i j) (b.R i j) && eqE vs (a.S i j) (b.S i j)

theorem Holds.congr {q : ℕ → ℝ} {vs : List ℕ} {a b : Tri} {A : Pose} (ha : Holds q a A) (h : eqTri vs a b = true) :
    Holds q b A := by
  simp only [eqTri, List.all_eq_true, List.mem_range, Bool.and_eq_true] at h
  refine ⟨fun i j => ?_, fun i => ?_, fun i j => ?_⟩
  · rw [← ha.R, eqE_sound ((h i i.2).2 j j.2).1]
  · rw [← ha.p, eqE_sound (h i i.2).1]
  · rw [← ha.S, eqE_sound ((h i i.2).2 j j.2).2]

/-! ### The arrangement -/

/-- A frame and the numbers of its mounting pose. -/
structure Mount extends Frame where
  R : List E
  p : List E

/-- An entry of a list of numbers. -/
def nth (l : List E) (i : ℕ) : E :=
  match l, i with
  | [], _ => .k 0 0
  | e :: _, 0 => e
  | _ :: l, i + 1 => nth l i

/-- The mounting pose. -/
noncomputable def Mount.pose (f : Mount) : Pose :=
  ⟨fun i j => (nth f.R (3 * i + j)).eval 0, fun i => (nth f.p i).eval 0⟩

/-- The pose of the frame in its parent. -/
noncomputable def Mount.local (f : Mount) (q : ℕ → ℝ) : Pose :=
  f.pose.comp (f.joint.elim Pose.one fun j => Pose.turn (q j))

/-- The mounting pose is a rotation and a shift, given by numbers. -/
def Mount.ok (f : Mount) : Bool :=
  ((List.range 9).all fun i => (nth f.R i).within []) && ((List.range 3).all fun i => (nth f.p i).within [])
  && ((List.range 3).all fun i => (List.range 3).all fun j =>
    eqE [] (sum3 fun k => nth f.R (3 * k + i) ⊠ nth f.R (3 * k + j)) (bif Nat.beq i j then .k 1 0 else .k 0 0))
  && eqE [] (((nth f.R 0 ⊠ ((nth f.R 4 ⊠ nth f.R 8) ⊟ (nth f.R 5 ⊠ nth f.R 7)))
      ⊟ (nth f.R 1 ⊠ ((nth f.R 3 ⊠ nth f.R 8) ⊟ (nth f.R 5 ⊠ nth f.R 6))))
      ⊞ (nth f.R 2 ⊠ ((nth f.R 3 ⊠ nth f.R 7) ⊟ (nth f.R 4 ⊠ nth f.R 6)))) (.k 1 0)

theorem Mount.rot {f : Mount} (h : f.ok = true) : IsRot f.pose.R := by
  simp only [Mount.ok, Bool.and_eq_true, List.all_eq_true, List.mem_range] at h
  obtain ⟨⟨_, h1⟩, h2⟩ := h
  refine ⟨?_, ?_⟩
  · ext i j
    have h3 := eqE_sound (h1 i i.2 j j.2) 0
    rw [sum3_eval] at h3
    rw [Matrix.mul_apply]
    refine Eq.trans (Eq.trans (Finset.sum_congr rfl fun k _ => ?_) h3) ?_
    · rfl
    · fin_cases i <;> fin_cases j <;> simp [E.eval, Nat.beq]
  · have h3 := eqE_sound h2 0
    simp only [E.eval] at h3
    rw [Matrix.det_fin_three]
    simp only [Mount.pose, Fin.val_zero, Fin.val_one, Fin.val_two]
    norm_num at h3 ⊢
    linarith

theorem Mount.rot_local {f : Mount} (h : f.ok = true) (q : ℕ → ℝ) : IsRot (f.local q).R := by
  refine (Mount.rot h).mul ?_
  cases f.joint with
  | none => exact IsRot.one
  | some j => exact Pose.rot_turn _

/-- The poses of all frames. -/
noncomputable def poses (fs : List Mount) (q : ℕ → ℝ) : ℕ → Pose :=
  fs.foldl (fun G f => Function.update G f.id ((G f.parent).comp (f.local q))) fun _ => Pose.one

/-- The frames are numbered in ascending order from their parents on, and the numbers of their mounting poses make
sense. -/
def wf (fs : List Mount) : Bool :=
  fs.all (fun f => Nat.blt f.parent f.id && f.ok) && decide (fs.Pairwise fun f g => f.id < g.id)

theorem poses_spec {fs : List Mount} (h : wf fs = true) (q : ℕ → ℝ) :
    (∀ i, IsRot (poses fs q i).R) ∧ poses fs q 0 = Pose.one ∧
    ∀ f ∈ fs, poses fs q f.id = (poses fs q f.parent).comp (f.local q) := by
  simp only [wf, Bool.and_eq_true, List.all_eq_true, decide_eq_true_eq, Nat.blt_eq] at h
  obtain ⟨h1, h2⟩ := h
  induction fs using List.reverseRecOn with
  | nil => exact ⟨fun i => IsRot.one, rfl, by simp⟩
  | append_singleton fs f ih =>
    have h3 := List.pairwise_append.1 h2
    obtain ⟨i1, i2, i3⟩ := ih (fun g hg => h1 g (List.mem_append_left _ hg)) h3.1
    have hf := h1 f (by simp)
    have hlt : ∀ g ∈ fs, g.id < f.id := fun g hg => h3.2.2 g hg f (by simp)
    have hp : poses (fs ++ [f]) q = Function.update (poses fs q) f.id ((poses fs q f.parent).comp (f.local q)) := by
      rw [poses, List.foldl_append]
      rfl
    rw [hp]
    refine ⟨fun i => ?_, ?_, fun g hg => ?_⟩
    · by_cases hi : i = f.id
      · subst hi
        rw [Function.update_self]
        exact (i1 _).mul (Mount.rot_local hf.2 q)
      · rw [Function.update_of_ne hi]
        exact i1 i
    · rw [Function.update_of_ne (by omega), i2]
    · rcases List.mem_append.1 hg with hg | hg
      · have := hlt g hg
        have := (h1 g (List.mem_append_left _ hg)).1
        rw [Function.update_of_ne (by omega), Function.update_of_ne (by omega), i3 g hg]
      · rw [List.mem_singleton] at hg
        subst hg
        rw [Function.update_self, Function.update_of_ne (by omega)]

/-- The mounting poses as a function. -/
noncomputable def mounts (fs : List Mount) (i : ℕ) : Pose := ((fs.find? fun f => f.id == i).map Mount.pose).getD Pose.one

theorem mounts_rot {fs : List Mount} (h : wf fs = true) (i : ℕ) : IsRot (mounts fs i).R := by
  rw [mounts]
  cases hf : fs.find? fun f => f.id == i with
  | none => exact IsRot.one
  | some f =>
    simp only [wf, Bool.and_eq_true, List.all_eq_true] at h
    exact Mount.rot (h.1 f (List.mem_of_find?_eq_some hf)).2

theorem mounts_eq {fs : List Mount} (h : wf fs = true) {f : Mount} (hf : f ∈ fs) : mounts fs f.id = f.pose := by
  simp only [wf, Bool.and_eq_true, decide_eq_true_eq] at h
  have h2 := h.2
  clear h
  induction fs with
  | nil => simp at hf
  | cons g fs ih =>
    rw [List.pairwise_cons] at h2
    rw [mounts, List.find?_cons]
    rcases List.mem_cons.1 hf with rfl | hf
    · simp
    · have : (g.id == f.id) = false := by
        have := h2.1 f hf
        simp only [beq_eq_false_iff_ne]
        omega
      rw [this]
      exact ih hf h2.2

theorem arranged {fs : List Mount} (h : wf fs = true) (q : ℕ → ℝ) :
    Arranged (fs.map Mount.toFrame) (mounts fs) q (poses fs q) := by
  obtain ⟨_, h2, h3⟩ := poses_spec h q
  refine ⟨h2, fun f hf => ?_⟩
  obtain ⟨g, hg, rfl⟩ := List.mem_map.1 hf
  rw [h3 g hg, mounts_eq h hg]
  rfl

/-! ### Rules -/

/-- The expressions give the pose of the frame `B` in the frame `A` at all joint positions. -/
def Good (fs : List Mount) (A B : ℕ) (t : Tri) : Prop :=
  ∀ q, Holds q t (Pose.rel (poses fs q A) (poses fs q B))

/-- The pose of a frame in its parent. -/
def Mount.tri (f : Mount) : Tri :=
  let R : ℕ → ℕ → E := fun i j => match f.joint with
    | none => nth f.R (3 * i + j)
    | some q => match j with
      | 0 => (nth f.R (3 * i) ⊠ .c q) ⊞ (nth f.R (3 * i + 1) ⊠ .s q)
      | 1 => (nth f.R (3 * i + 1) ⊠ .c q) ⊟ (nth f.R (3 * i) ⊠ .s q)
      | _ => nth f.R (3 * i + 2)
  ⟨R, nth f.p, fun i j => match i with
    | 0 => (nth f.p 1 ⊠ R 2 j) ⊟ (nth f.p 2 ⊠ R 1 j)
    | 1 => (nth f.p 2 ⊠ R 0 j) ⊟ (nth f.p 0 ⊠ R 2 j)
    | _ => (nth f.p 0 ⊠ R 1 j) ⊟ (nth f.p 1 ⊠ R 0 j)⟩

theorem Mount.holds {f : Mount} (h : f.ok = true) (q : ℕ → ℝ) : Holds q f.tri (f.local q) := by
  simp only [Mount.ok, Bool.and_eq_true, List.all_eq_true, List.mem_range] at h
  have hR : ∀ i j : Fin 3, (nth f.R (3 * i + j)).eval q = f.pose.R i j := by
    intro i j
    exact const_eval (h.1.1.1 (3 * i + j) (by omega)) q 0
  have hp : ∀ i : Fin 3, (nth f.p i).eval q = f.pose.p i := fun i => const_eval (h.1.1.2 i i.2) q 0
  have hlp : (f.local q).p = f.pose.p := by
    have h0 : (f.joint.elim Pose.one fun j => Pose.turn (q j)).p = 0 := by
      cases f.joint <;> rfl
    rw [Mount.local, Pose.comp, h0, Matrix.mulVec_zero, zero_add]
  have h1 : ∀ i j : Fin 3, (f.tri.R i j).eval q = (f.local q).R i j := by
    intro i j
    show _ = (f.pose.R * (f.joint.elim Pose.one fun j => Pose.turn (q j)).R) i j
    cases hj : f.joint with
    | none =>
      simp only [Mount.tri, hj, Option.elim_none, Pose.one, Matrix.mul_one]
      exact hR i j
    | some k =>
      have a0 := hR i 0
      have a1 := hR i 1
      have a2 := hR i 2
      simp only [Fin.val_zero, Fin.val_one, Fin.val_two, add_zero] at a0 a1 a2
      simp only [Option.elim_some, Matrix.mul_apply, Fin.sum_univ_three]
      fin_cases j <;> simp [Mount.tri, hj, E.eval, a0, a1, a2, Pose.turn] <;> ring
  have h2 : ∀ i : Fin 3, (f.tri.p i).eval q = (f.local q).p i := fun i => by rw [hlp]; exact hp i
  refine ⟨h1, h2, fun i j => ?_⟩
  rw [Matrix.mul_apply, Fin.sum_univ_three]
  simp only [← h1, hlp]
  have p0 := hp 0
  have p1 := hp 1
  have p2 := hp 2
  simp only [Fin.val_zero, Fin.val_one, Fin.val_two] at p0 p1 p2
  fin_cases i <;> simp [Mount.tri, E.eval, cpm, p0, p1, p2] <;> ring

theorem Good.mount {fs : List Mount} (h : wf fs = true) {f : Mount} (hf : f ∈ fs) : Good fs f.parent f.id f.tri := by
  intro q
  obtain ⟨h1, _, h3⟩ := poses_spec h q
  simp only [wf, Bool.and_eq_true, List.all_eq_true] at h
  have hl : Pose.rel (poses fs q f.parent) (poses fs q f.id) = f.local q := by
    rw [h3 f hf]
    set a := poses fs q f.parent
    have ha : IsRot a.R := h1 _
    have e : ∀ b : Pose, Pose.rel a (a.comp b) = b := by
      intro b
      simp only [Pose.rel, Pose.comp, Pose.inv]
      rw [← Matrix.mul_assoc, ha.orth, Matrix.one_mul, Matrix.mulVec_add, Matrix.mulVec_mulVec, ha.orth, Matrix.one_mulVec]
      simp
    exact e _
  rw [hl]
  exact Mount.holds (h.1 f hf).2 q

theorem Good.inv {fs : List Mount} (h : wf fs = true) {A B : ℕ} {t : Tri} (ht : Good fs A B t) : Good fs B A t.inv := by
  intro q
  have h1 := (poses_spec h q).1
  rw [← Pose.rel_inv (h1 A) (h1 B)]
  exact (ht q).inv (Pose.rot_rel (h1 A) (h1 B))

theorem Good.comp {fs : List Mount} (h : wf fs = true) {A B C : ℕ} {t s : Tri} (ht : Good fs A B t) (hs : Good fs B C s) :
    Good fs A C (t.comp s) := by
  intro q
  have h1 := (poses_spec h q).1
  rw [← Pose.rel_comp (h1 B)]
  exact (ht q).comp (hs q) (Pose.rot_rel (h1 A) (h1 B))

theorem Good.congr {fs : List Mount} {A B : ℕ} {t s : Tri} (ht : Good fs A B t) (vs : List ℕ) (h : eqTri vs t s = true) :
    Good fs A B s := fun q => (ht q).congr h

/-! ### The generated transforms -/

/-- The expressions in the homogeneous transform, and those in the lower left corner of the transform of spatial
velocities. -/
def Trans.tri (x : Trans) : Tri where
  R := x.hom.entry
  p i := x.hom.entry i 3
  S i j := x.motion.entry (3 + i) j

/-- The other entries are as they should be. -/
def Trans.ok (vs : List ℕ) (x : Trans) : Bool :=
  x.hom.full 4 4 && x.motion.full 6 6 && x.force.full 6 6
  && ((List.range 3).all fun j => eqE [] (x.hom.entry 3 j) (.k 0 0)) && eqE [] (x.hom.entry 3 3) (.k 1 0)
  && (List.range 3).all fun i => (List.range 3).all fun j =>
    eqE vs (x.motion.entry i j) (x.hom.entry i j) && eqE vs (x.motion.entry i (3 + j)) (.k 0 0)
    && eqE vs (x.motion.entry (3 + i) (3 + j)) (x.hom.entry i j)
    && eqE vs (x.force.entry i j) (x.hom.entry i j) && eqE vs (x.force.entry i (3 + j)) (x.motion.entry (3 + i) j)
    && eqE vs (x.force.entry (3 + i) j) (.k 0 0) && eqE vs (x.force.entry (3 + i) (3 + j)) (x.hom.entry i j)

/-- The three matrices of a pair of frames. -/
def Trans.Right (x : Trans) (q : ℕ → ℝ) (T : Pose) : Prop :=
  Delivers x.hom q T.hom ∧ Delivers x.motion q T.motion ∧ Delivers x.force q T.force

theorem Trans.right {fs : List Mount} {x : Trans} {vs : List ℕ} (hx : x.ok vs = true) (hg : Good fs x.A x.B x.tri)
    (q : ℕ → ℝ) : x.Right q (Pose.rel (poses fs q x.A) (poses fs q x.B)) := by
  set T := Pose.rel (poses fs q x.A) (poses fs q x.B) with hT
  have hq : Holds q x.tri T := hg q
  clear_value T
  simp only [Trans.ok, Bool.and_eq_true, List.all_eq_true, List.mem_range] at hx
  obtain ⟨⟨⟨⟨⟨f1, f2⟩, f3⟩, h30⟩, h33⟩, hb⟩ := hx
  have hR : ∀ i j : Fin 3, (x.hom.entry i j).eval q = T.R i j := hq.R
  have hp : ∀ i : Fin 3, (x.hom.entry i 3).eval q = T.p i := hq.p
  have hS : ∀ i j : Fin 3, (x.motion.entry (3 + i) j).eval q = (cpm T.p * T.R) i j := hq.S
  refine ⟨⟨(Gen.full_inside f1).1, (Gen.full_inside f1).2.1, (Gen.full_inside f1).2.2, fun z calls i j => ?_⟩,
    ⟨(Gen.full_inside f2).1, (Gen.full_inside f2).2.1, (Gen.full_inside f2).2.2, fun z calls i j => ?_⟩,
    ⟨(Gen.full_inside f3).1, (Gen.full_inside f3).2.1, (Gen.full_inside f3).2.2, fun z calls i j => ?_⟩⟩
  · rw [Gen.value f1 q z calls i.2 j.2]
    have r00 := hR 0 0
    have r01 := hR 0 1
    have r02 := hR 0 2
    have r10 := hR 1 0
    have r11 := hR 1 1
    have r12 := hR 1 2
    have r20 := hR 2 0
    have r21 := hR 2 1
    have r22 := hR 2 2
    have p0 := hp 0
    have p1 := hp 1
    have p2 := hp 2
    have z0 := eqE_sound (h30 0 (by omega)) q
    have z1 := eqE_sound (h30 1 (by omega)) q
    have z2 := eqE_sound (h30 2 (by omega)) q
    have z3 := eqE_sound h33 q
    simp only [E.eval, Int.cast_zero, Int.cast_one, zero_div, pow_zero, div_one] at z0 z1 z2 z3
    fin_cases i <;> fin_cases j <;> first | assumption
  · rw [Gen.value f2 q z calls i.2 j.2]
    have e1 : ∀ i j : Fin 3, (x.motion.entry i j).eval q = T.R i j := fun i j => by
      rw [eqE_sound (hb i i.2 j j.2).1.1.1.1.1.1 q, hR]
    have e2 : ∀ i j : Fin 3, (x.motion.entry i (3 + j)).eval q = 0 := fun i j => by
      rw [eqE_sound (hb i i.2 j j.2).1.1.1.1.1.2 q]; simp [E.eval]
    have e4 : ∀ i j : Fin 3, (x.motion.entry (3 + i) (3 + j)).eval q = T.R i j := fun i j => by
      rw [eqE_sound (hb i i.2 j j.2).1.1.1.1.2 q, hR]
    fin_cases i <;> fin_cases j <;>
      first
      | exact e1 0 0 | exact e1 0 1 | exact e1 0 2 | exact e1 1 0 | exact e1 1 1 | exact e1 1 2
      | exact e1 2 0 | exact e1 2 1 | exact e1 2 2
      | exact e2 0 0 | exact e2 0 1 | exact e2 0 2 | exact e2 1 0 | exact e2 1 1 | exact e2 1 2
      | exact e2 2 0 | exact e2 2 1 | exact e2 2 2
      | exact hS 0 0 | exact hS 0 1 | exact hS 0 2 | exact hS 1 0 | exact hS 1 1 | exact hS 1 2
      | exact hS 2 0 | exact hS 2 1 | exact hS 2 2
      | exact e4 0 0 | exact e4 0 1 | exact e4 0 2 | exact e4 1 0 | exact e4 1 1 | exact e4 1 2
      | exact e4 2 0 | exact e4 2 1 | exact e4 2 2
  · rw [Gen.value f3 q z calls i.2 j.2]
    have e1 : ∀ i j : Fin 3, (x.force.entry i j).eval q = T.R i j := fun i j => by
      rw [eqE_sound (hb i i.2 j j.2).1.1.1.2 q, hR]
    have e2 : ∀ i j : Fin 3, (x.force.entry i (3 + j)).eval q = (cpm T.p * T.R) i j := fun i j => by
      rw [eqE_sound (hb i i.2 j j.2).1.1.2 q, hS]
    have e3 : ∀ i j : Fin 3, (x.force.entry (3 + i) j).eval q = 0 := fun i j => by
      rw [eqE_sound (hb i i.2 j j.2).1.2 q]; simp [E.eval]
    have e4 : ∀ i j : Fin 3, (x.force.entry (3 + i) (3 + j)).eval q = T.R i j := fun i j => by
      rw [eqE_sound (hb i i.2 j j.2).2 q, hR]
    fin_cases i <;> fin_cases j <;>
      first
      | exact e1 0 0 | exact e1 0 1 | exact e1 0 2 | exact e1 1 0 | exact e1 1 1 | exact e1 1 2
      | exact e1 2 0 | exact e1 2 1 | exact e1 2 2
      | exact e2 0 0 | exact e2 0 1 | exact e2 0 2 | exact e2 1 0 | exact e2 1 1 | exact e2 1 2
      | exact e2 2 0 | exact e2 2 1 | exact e2 2 2
      | exact e3 0 0 | exact e3 0 1 | exact e3 0 2 | exact e3 1 0 | exact e3 1 1 | exact e3 1 2
      | exact e3 2 0 | exact e3 2 1 | exact e3 2 2
      | exact e4 0 0 | exact e4 0 1 | exact e4 0 2 | exact e4 1 0 | exact e4 1 1 | exact e4 1 2
      | exact e4 2 0 | exact e4 2 1 | exact e4 2 2

end CT.GenKin
