import Mathlib.Data.Fin.VecNotation
import Verif.Model.RobotState
import Mathlib.Tactic.FinCases
import Mathlib.Data.List.OfFn

/-! # Properties C63 and C86: robot states, their vector forms and the storage of orientations -/

namespace CT.Robot

variable {K : Type} [Zero K]

/-! ### Blocks -/

theorem seg_ofFn_append {n : ℕ} (x : Fin n → K) (a b : List K) :
    seg (a ++ (List.ofFn x ++ b)) a.length n = x := by
  funext i
  simp [seg, List.getD, List.getElem?_append_right, List.getElem?_append_left]

omit [Zero K] in
theorem setSeg_append {n : ℕ} (x : Fin n → K) (a old b : List K) (h : old.length = n) :
    setSeg (a ++ (old ++ b)) a.length x = a ++ (List.ofFn x ++ b) := by
  subst h
  simp [setSeg, List.drop_append]

theorem ofFn_seg (v : List K) (off n : ℕ) (h : off + n ≤ v.length) :
    List.ofFn (seg v off n) = (v.drop off).take n := by
  apply List.ext_getElem
  · simp; omega
  · intro i h1 h2
    have h3 : off + i < v.length := by simp at h1; omega
    simp [seg, List.getD, List.getElem?_eq_getElem h3]

/-- Reading a block of a concatenation, at an offset that is the length of what precedes it. -/
theorem seg_at {n off : ℕ} (x : Fin n → K) (v a b : List K) (hv : v = a ++ (List.ofFn x ++ b))
    (ho : off = a.length) : seg v off n = x := by
  rw [hv, ho]; exact seg_ofFn_append x a b

/-! ### Fixed base -/

section FixBase
variable {n m : ℕ}

omit [Zero K] in
/-- The packed vector: positions, velocities and actuator states one after the other, whatever the
uninitialised vector held. -/
theorem toStateVector_eq (s : FixBase K n m) (junk : List K) (hj : junk.length = 2 * n + m) :
    s.toStateVector junk = List.ofFn s.joints.pos ++ (List.ofFn s.joints.vel ++ List.ofFn s.act) := by
  obtain ⟨j1, j2, j3, rfl, h1, h2, h3⟩ : ∃ j1 j2 j3 : List K, junk = j1 ++ (j2 ++ j3) ∧
      j1.length = n ∧ j2.length = n ∧ j3.length = m := by
    refine ⟨junk.take n, (junk.drop n).take n, (junk.drop n).drop n, ?_, ?_, ?_, ?_⟩
    · rw [List.take_append_drop, List.take_append_drop]
    · simp; omega
    · simp; omega
    · simp; omega
  have e1 : setSeg (j1 ++ (j2 ++ j3)) 0 s.joints.pos = List.ofFn s.joints.pos ++ (j2 ++ j3) := by
    have := setSeg_append s.joints.pos [] j1 (j2 ++ j3) h1
    simpa using this
  have e2 : setSeg (List.ofFn s.joints.pos ++ (j2 ++ j3)) n s.joints.vel
      = List.ofFn s.joints.pos ++ (List.ofFn s.joints.vel ++ j3) := by
    have := setSeg_append s.joints.vel (List.ofFn s.joints.pos) j2 j3 h2
    simpa using this
  unfold FixBase.toStateVector
  simp only [e1, e2]
  split
  · rename_i hm
    have h0 : j3 = [] := List.length_eq_zero_iff.1 (by omega)
    have h0' : List.ofFn s.act = [] := List.length_eq_zero_iff.1 (by simp [hm])
    rw [h0, h0']
  · have := setSeg_append s.act (List.ofFn s.joints.pos ++ List.ofFn s.joints.vel) j3 [] h3
    simp only [List.length_append, List.length_ofFn, List.append_nil, List.append_assoc] at this
    rw [show 2 * n + m - m = n + n by omega]
    exact this

/-- C63, fixed base: packing a state and unpacking the vector returns the same state, unpacking a
vector and packing the state returns the same vector, for all numbers of joints and actuator states
and whatever the uninitialised result vector held.  The packed vector has the declared size; its
blocks are the positions, the velocities and the actuator states, and the static helpers read the
same blocks. -/
theorem C63_fixed_base (s old : FixBase K n m) (v junk : List K) (hv : v.length = 2 * n + m)
    (hj : junk.length = 2 * n + m) :
    old.fromStateVector (s.toStateVector junk) = s ∧
    (old.fromStateVector v).toStateVector junk = v ∧
    (s.toStateVector junk).length = 2 * n + m ∧
    jointStateFromVector n (s.toStateVector junk) = s.joints ∧
    actuatorStateFromVector n m (s.toStateVector junk) = s.act ∧
    toFullState n (List.ofFn s.joints.pos ++ List.ofFn s.joints.vel) s.act junk = s.toStateVector junk := by
  have e := toStateVector_eq s junk hj
  have b1 : seg (s.toStateVector junk) 0 n = s.joints.pos :=
    seg_at _ _ [] _ (by rw [e]; rfl) rfl
  have b2 : seg (s.toStateVector junk) n n = s.joints.vel :=
    seg_at _ _ (List.ofFn s.joints.pos) (List.ofFn s.act) e (by simp)
  have b3 : seg (s.toStateVector junk) (2 * n + m - m) m = s.act :=
    seg_at _ _ (List.ofFn s.joints.pos ++ List.ofFn s.joints.vel) [] (by rw [e]; simp) (by simp; omega)
  refine ⟨?_, ?_, ?_, ?_, ?_, ?_⟩
  · unfold FixBase.fromStateVector
    simp only [b1, b2, b3]
    split
    · rename_i hm
      subst hm
      rcases s with ⟨⟨p, w⟩, a⟩
      simp only [FixBase.mk.injEq, true_and]
      funext i
      exact i.elim0
    · rfl
  · rw [toStateVector_eq _ _ hj]
    have hpos : (old.fromStateVector v).joints.pos = seg v 0 n := by
      unfold FixBase.fromStateVector; split <;> rfl
    have hvel : (old.fromStateVector v).joints.vel = seg v n n := by
      unfold FixBase.fromStateVector; split <;> rfl
    have hact : List.ofFn (old.fromStateVector v).act = (v.drop n).drop n := by
      unfold FixBase.fromStateVector
      split
      · rename_i hm
        have : (v.drop n).drop n = [] := List.length_eq_zero_iff.1 (by simp; omega)
        rw [this]
        exact List.length_eq_zero_iff.1 (by simp [hm])
      · simp only
        rw [ofFn_seg _ _ _ (by omega), List.drop_drop, show 2 * n + m - m = n + n by omega,
          List.take_of_length_le (by simp; omega)]
    rw [hpos, hvel, hact, ofFn_seg _ _ _ (by omega), ofFn_seg _ _ _ (by omega), List.drop_zero,
      List.take_append_drop, List.take_append_drop]
  · rw [e]; simp; omega
  · unfold jointStateFromVector
    rw [b1, b2]
  · exact b3
  · rw [e]
    unfold toFullState
    have h1 : List.ofFn (seg (List.ofFn s.joints.pos ++ List.ofFn s.joints.vel) 0 (2 * n))
        = List.ofFn s.joints.pos ++ List.ofFn s.joints.vel := by
      rw [ofFn_seg _ _ _ (by simp; omega), List.drop_zero, List.take_of_length_le (by simp; omega)]
    obtain ⟨j1, j2, rfl, h2, h3⟩ : ∃ j1 j2 : List K, junk = j1 ++ j2 ∧ j1.length = 2 * n ∧ j2.length = m :=
      ⟨junk.take (2 * n), junk.drop (2 * n), by rw [List.take_append_drop], by simp; omega, by simp; omega⟩
    have h4 := setSeg_append (seg (List.ofFn s.joints.pos ++ List.ofFn s.joints.vel) 0 (2 * n)) [] j1 j2 h2
    simp only [List.nil_append, List.length_nil] at h4
    simp only [h4, h1]
    have h5 := setSeg_append s.act (List.ofFn s.joints.pos ++ List.ofFn s.joints.vel) j2 [] h3
    simp only [List.length_append, List.length_ofFn, List.append_nil] at h5
    rw [show 2 * n + m - m = n + n by omega, h5, List.append_assoc]

/-- Two joints and one actuator state. -/
example : (FixBase.mk (Joints.mk ![(1 : Int), 2] ![3, 4]) ![5]).toStateVector [9, 9, 9, 9, 9]
    = [1, 2, 3, 4, 5] := by decide

end FixBase

/-! ### Floating base -/

section Floating
variable (cv : Conv K) {n : ℕ}

omit [Zero K] in
private theorem eulerVec (s : RBD K n) : s.toStateVectorEulerXyz cv =
    List.ofFn (s.pose.getEuler cv) ++ (List.ofFn s.pose.position ++ (List.ofFn s.joints.pos ++
      (List.ofFn s.angVel ++ (List.ofFn s.linVel ++ List.ofFn s.joints.vel)))) := by
  simp [RBD.toStateVectorEulerXyz, RBD.toCoordinatePosition, RBD.toCoordinateVelocity]

omit [Zero K] in
private theorem quatVec (s : RBD K n) : s.toStateVectorQuaternion cv =
    List.ofFn (s.pose.getQuat cv) ++ (List.ofFn s.pose.position ++ (List.ofFn s.joints.pos ++
      (List.ofFn s.angVel ++ (List.ofFn s.linVel ++ List.ofFn s.joints.vel)))) := by
  simp [RBD.toStateVectorQuaternion]

/-- Unpacking the Euler-angle vector of `s` into `old`. -/
private theorem fromEuler_toEuler (s old : RBD K n) :
    old.fromStateVectorEulerXyz cv (s.toStateVectorEulerXyz cv) =
      { s with pose := { old.pose.setEuler cv (s.pose.getEuler cv) with position := s.pose.position } } := by
  have e := eulerVec cv s
  unfold RBD.fromStateVectorEulerXyz
  have b1 : seg (s.toStateVectorEulerXyz cv) 0 3 = s.pose.getEuler cv := seg_at _ _ [] _ (by rw [e]; rfl) rfl
  have b2 : seg (s.toStateVectorEulerXyz cv) 3 3 = s.pose.position :=
    seg_at _ _ (List.ofFn (s.pose.getEuler cv)) _ e (by simp)
  have b3 : seg (s.toStateVectorEulerXyz cv) 6 n = s.joints.pos :=
    seg_at _ _ (List.ofFn (s.pose.getEuler cv) ++ List.ofFn s.pose.position)
      (List.ofFn s.angVel ++ (List.ofFn s.linVel ++ List.ofFn s.joints.vel)) (by rw [e]; simp only [List.append_assoc])
      (by simp only [List.length_append, List.length_ofFn])
  have b4 : seg (s.toStateVectorEulerXyz cv) (6 + n) 3 = s.angVel :=
    seg_at _ _ (List.ofFn (s.pose.getEuler cv) ++ List.ofFn s.pose.position ++ List.ofFn s.joints.pos)
      (List.ofFn s.linVel ++ List.ofFn s.joints.vel) (by rw [e]; simp only [List.append_assoc])
      (by simp only [List.length_append, List.length_ofFn])
  have b5 : seg (s.toStateVectorEulerXyz cv) (9 + n) 3 = s.linVel :=
    seg_at _ _ (List.ofFn (s.pose.getEuler cv) ++ List.ofFn s.pose.position ++ List.ofFn s.joints.pos ++
      List.ofFn s.angVel) (List.ofFn s.joints.vel) (by rw [e]; simp only [List.append_assoc])
      (by simp only [List.length_append, List.length_ofFn]; omega)
  have b6 : seg (s.toStateVectorEulerXyz cv) (2 * (n + 6) - n) n = s.joints.vel :=
    seg_at _ _ (List.ofFn (s.pose.getEuler cv) ++ List.ofFn s.pose.position ++ List.ofFn s.joints.pos ++
      List.ofFn s.angVel ++ List.ofFn s.linVel) [] (by rw [e]; simp only [List.append_assoc, List.append_nil])
      (by simp only [List.length_append, List.length_ofFn]; omega)
  rw [b1, b2, b3, b4, b5, b6]

private theorem fromQuat_toQuat (s old : RBD K n) :
    old.fromStateVectorQuaternion cv (s.toStateVectorQuaternion cv) =
      { s with pose := { old.pose.setQuat cv (s.pose.getQuat cv) with position := s.pose.position } } := by
  have e := quatVec cv s
  unfold RBD.fromStateVectorQuaternion
  have b1 : seg (s.toStateVectorQuaternion cv) 0 4 = s.pose.getQuat cv := seg_at _ _ [] _ (by rw [e]; rfl) rfl
  have b2 : seg (s.toStateVectorQuaternion cv) 4 3 = s.pose.position :=
    seg_at _ _ (List.ofFn (s.pose.getQuat cv)) _ e (by simp)
  have b3 : seg (s.toStateVectorQuaternion cv) 7 n = s.joints.pos :=
    seg_at _ _ (List.ofFn (s.pose.getQuat cv) ++ List.ofFn s.pose.position)
      (List.ofFn s.angVel ++ (List.ofFn s.linVel ++ List.ofFn s.joints.vel)) (by rw [e]; simp only [List.append_assoc])
      (by simp only [List.length_append, List.length_ofFn])
  have b4 : seg (s.toStateVectorQuaternion cv) (7 + n) 3 = s.angVel :=
    seg_at _ _ (List.ofFn (s.pose.getQuat cv) ++ List.ofFn s.pose.position ++ List.ofFn s.joints.pos)
      (List.ofFn s.linVel ++ List.ofFn s.joints.vel) (by rw [e]; simp only [List.append_assoc])
      (by simp only [List.length_append, List.length_ofFn])
  have b5 : seg (s.toStateVectorQuaternion cv) (10 + n) 3 = s.linVel :=
    seg_at _ _ (List.ofFn (s.pose.getQuat cv) ++ List.ofFn s.pose.position ++ List.ofFn s.joints.pos ++
      List.ofFn s.angVel) (List.ofFn s.joints.vel) (by rw [e]; simp only [List.append_assoc])
      (by simp only [List.length_append, List.length_ofFn]; omega)
  have b6 : seg (s.toStateVectorQuaternion cv) (2 * (n + 6) + 1 - n) n = s.joints.vel :=
    seg_at _ _ (List.ofFn (s.pose.getQuat cv) ++ List.ofFn s.pose.position ++ List.ofFn s.joints.pos ++
      List.ofFn s.angVel ++ List.ofFn s.linVel) [] (by rw [e]; simp only [List.append_assoc, List.append_nil])
      (by simp only [List.length_append, List.length_ofFn]; omega)
  rw [b1, b2, b3, b4, b5, b6]

private theorem split6 (v : List K) (a b c d e f : ℕ) (h : v.length = a + (b + (c + (d + (e + f))))) :
    List.ofFn (seg v 0 a) ++ (List.ofFn (seg v a b) ++ (List.ofFn (seg v (a + b) c) ++
      (List.ofFn (seg v (a + b + c) d) ++ (List.ofFn (seg v (a + b + c + d) e) ++
        List.ofFn (seg v (a + b + c + d + e) f))))) = v := by
  rw [ofFn_seg _ _ _ (by omega), ofFn_seg _ _ _ (by omega), ofFn_seg _ _ _ (by omega),
    ofFn_seg _ _ _ (by omega), ofFn_seg _ _ _ (by omega), ofFn_seg _ _ _ (by omega), List.drop_zero,
    List.take_of_length_le (i := f) (by simp; omega)]
  have hd : ∀ i j, v.drop (i + j) = (v.drop i).drop j := fun i j => (List.drop_drop ..).symm
  rw [hd (a + b + c + d) e, List.take_append_drop, hd (a + b + c) d, List.take_append_drop,
    hd (a + b) c, List.take_append_drop, hd a b, List.take_append_drop, List.take_append_drop]

/-- C63, floating base, Euler angles: for a state whose orientation is stored as Euler angles,
packing into the Euler-angle vector and unpacking – into any state object with the same storage –
returns the same base pose, base velocities and joint state; unpacking a vector and packing returns
the same vector. -/
theorem C63_euler (s old : RBD K n) (v : List K) (hv : v.length = 2 * (n + 6))
    (hs : s.pose.storedAsEuler = true) (ho : old.pose.storedAsEuler = true) :
    (old.fromStateVectorEulerXyz cv (s.toStateVectorEulerXyz cv) =
      { s with pose := { s.pose with quat := old.pose.quat } }) ∧
    (old.fromStateVectorEulerXyz cv v).toStateVectorEulerXyz cv = v ∧
    (s.toStateVectorEulerXyz cv).length = 2 * (n + 6) := by
  refine ⟨?_, ?_, ?_⟩
  · rw [fromEuler_toEuler]
    simp [Pose.setEuler, Pose.getEuler, hs, ho]
  · rw [eulerVec]
    simp only [RBD.fromStateVectorEulerXyz, Pose.setEuler, Pose.getEuler, ho, if_true]
    have := split6 v 3 3 n 3 3 n (by omega)
    rw [show 2 * (n + 6) - n = 3 + 3 + n + 3 + 3 by omega, show 6 + n = 3 + 3 + n by omega,
      show 9 + n = 3 + 3 + n + 3 by omega]
    exact this
  · rw [eulerVec]
    simp only [List.length_append, List.length_ofFn]; omega

/-- C63, floating base, quaternions: the same for a state whose orientation is stored as a
quaternion and the quaternion vector. -/
theorem C63_quaternion (s old : RBD K n) (v : List K) (hv : v.length = 2 * (n + 6) + 1)
    (hs : s.pose.storedAsEuler = false) (ho : old.pose.storedAsEuler = false) :
    (old.fromStateVectorQuaternion cv (s.toStateVectorQuaternion cv) =
      { s with pose := { s.pose with euler := old.pose.euler } }) ∧
    (old.fromStateVectorQuaternion cv v).toStateVectorQuaternion cv = v ∧
    (s.toStateVectorQuaternion cv).length = 2 * (n + 6) + 1 := by
  refine ⟨?_, ?_, ?_⟩
  · rw [fromQuat_toQuat]
    simp [Pose.setQuat, Pose.getQuat, hs, ho]
  · rw [quatVec]
    simp only [RBD.fromStateVectorQuaternion, Pose.setQuat, Pose.getQuat, ho, if_false, Bool.false_eq_true]
    have := split6 v 4 3 n 3 3 n (by omega)
    rw [show 2 * (n + 6) + 1 - n = 4 + 3 + n + 3 + 3 by omega, show 7 + n = 4 + 3 + n by omega,
      show 10 + n = 4 + 3 + n + 3 by omega]
    exact this
  · rw [quatVec]
    simp only [List.length_append, List.length_ofFn]; omega

/-- C63, any storage: everything but the orientation survives packing and unpacking, in both vector
forms and between objects with different storage; the orientation survives as far as the conversions
between the two representations undo each other. -/
theorem C63_mixed (s old : RBD K n) :
    (∃ p, old.fromStateVectorEulerXyz cv (s.toStateVectorEulerXyz cv) = { s with pose := p } ∧
      p.position = s.pose.position ∧ p.storedAsEuler = old.pose.storedAsEuler ∧
      ((∀ e, cv.toEuler (cv.toQuat e) = e) → p.getEuler cv = s.pose.getEuler cv)) ∧
    (∃ p, old.fromStateVectorQuaternion cv (s.toStateVectorQuaternion cv) = { s with pose := p } ∧
      p.position = s.pose.position ∧ p.storedAsEuler = old.pose.storedAsEuler ∧
      ((∀ q, cv.toQuat (cv.toEuler q) = q) → p.getQuat cv = s.pose.getQuat cv)) := by
  constructor
  · refine ⟨_, fromEuler_toEuler cv s old, rfl, ?_, fun h => ?_⟩
    · unfold Pose.setEuler; split <;> rfl
    · by_cases ho : old.pose.storedAsEuler = true
      · simp [Pose.setEuler, Pose.getEuler, ho]
      · simp only [Bool.not_eq_true] at ho
        simp [Pose.setEuler, Pose.getEuler, ho, h]
  · refine ⟨_, fromQuat_toQuat cv s old, rfl, ?_, fun h => ?_⟩
    · unfold Pose.setQuat; split <;> rfl
    · by_cases ho : old.pose.storedAsEuler = true
      · simp [Pose.setQuat, Pose.getQuat, ho, h]
      · simp only [Bool.not_eq_true] at ho
        simp [Pose.setQuat, Pose.getQuat, ho]

/-- C63, floating-base robots: with actuator states, the two vector forms are those of the rigid-body
state followed by the actuator states, and unpacking recovers both parts. -/
theorem C63_floating {m : ℕ} (s old : Floating K n m) :
    (old.fromStateVectorEulerXyz cv (s.toStateVectorEulerXyz cv)).rbd =
      old.rbd.fromStateVectorEulerXyz cv (s.rbd.toStateVectorEulerXyz cv) ∧
    (old.fromStateVectorEulerXyz cv (s.toStateVectorEulerXyz cv)).act = s.act ∧
    (old.fromStateVectorQuaternion cv (s.toStateVectorQuaternion cv)).rbd =
      old.rbd.fromStateVectorQuaternion cv (s.rbd.toStateVectorQuaternion cv) ∧
    (old.fromStateVectorQuaternion cv (s.toStateVectorQuaternion cv)).act = s.act := by
  have l1 : (s.rbd.toStateVectorEulerXyz cv).length = 2 * (n + 6) := by
    rw [eulerVec]; simp only [List.length_append, List.length_ofFn]; omega
  have l2 : (s.rbd.toStateVectorQuaternion cv).length = 2 * (n + 6) + 1 := by
    rw [quatVec]; simp only [List.length_append, List.length_ofFn]; omega
  refine ⟨?_, ?_, ?_, ?_⟩
  · simp only [Floating.fromStateVectorEulerXyz, Floating.toStateVectorEulerXyz]
    rw [List.take_left' l1]
  · simp only [Floating.fromStateVectorEulerXyz, Floating.toStateVectorEulerXyz]
    exact seg_at _ _ (s.rbd.toStateVectorEulerXyz cv) [] (by simp) (by omega)
  · simp only [Floating.fromStateVectorQuaternion, Floating.toStateVectorQuaternion]
    split
    · rename_i hm
      have : List.ofFn s.act = [] := List.length_eq_zero_iff.1 (by simp [hm])
      rw [this, List.append_nil]
    · simp only
      rw [List.take_left' l2]
  · simp only [Floating.fromStateVectorQuaternion, Floating.toStateVectorQuaternion]
    split
    · rename_i hm
      subst hm
      funext i
      exact i.elim0
    · exact seg_at _ _ (s.rbd.toStateVectorQuaternion cv) [] (by simp) (by omega)

omit [Zero K] in
/-- C86 (partial), orientations: what is set in the representation an object stores is returned
unchanged, the position is not touched, and the storage type does not change; the constructors from
Euler angles and from kindr quaternions store as requested.

Missing for the full statement: the constructor from an Eigen quaternion ignores the requested
storage type, see `C86_violated`. -/
theorem C86_storage_partial [Zero K] [One K] (p : Pose K) (e : Fin 3 → K) (q : Fin 4 → K)
    (x : Fin 3 → K) (b : Bool) :
    (p.storedAsEuler = true → (p.setEuler cv e).getEuler cv = e) ∧
    (p.storedAsEuler = false → (p.setQuat cv q).getQuat cv = q) ∧
    (p.setEuler cv e).position = p.position ∧ (p.setQuat cv q).position = p.position ∧
    (p.setEuler cv e).storedAsEuler = p.storedAsEuler ∧
    (p.setQuat cv q).storedAsEuler = p.storedAsEuler ∧
    (Pose.ofEuler cv e x b).storedAsEuler = b ∧ (Pose.ofEuler cv e x b).position = x ∧
    (Pose.ofEuler cv e x true).getEuler cv = e ∧
    (Pose.ofQuat cv q x b).storedAsEuler = b ∧ (Pose.ofQuat cv q x b).position = x ∧
    (Pose.ofQuat cv q x false).getQuat cv = q ∧ (Pose.ofEigenQuat cv q x true) = Pose.ofQuat cv q x true := by
  refine ⟨fun h => by simp [Pose.setEuler, Pose.getEuler, h],
    fun h => by simp [Pose.setQuat, Pose.getQuat, h], ?_, ?_, ?_, ?_, ?_, ?_, ?_, ?_, ?_, ?_, rfl⟩
  · unfold Pose.setEuler; split <;> rfl
  · unfold Pose.setQuat; split <;> rfl
  · unfold Pose.setEuler; split <;> rfl
  · unfold Pose.setQuat; split <;> rfl
  · unfold Pose.ofEuler Pose.setEuler; split <;> rfl
  · unfold Pose.ofEuler Pose.setEuler; split <;> rfl
  · simp [Pose.ofEuler, Pose.setEuler, Pose.getEuler, Pose.init]
  · unfold Pose.ofQuat Pose.setQuat; split <;> rfl
  · unfold Pose.ofQuat Pose.setQuat; split <;> rfl
  · simp [Pose.ofQuat, Pose.setQuat, Pose.getQuat, Pose.init]

omit [Zero K] in
/-- C86 is violated: a pose constructed from an Eigen quaternion with quaternion storage requested
stores Euler angles, and returns the quaternion only up to conversion to Euler angles and back. -/
theorem C86_violated [Zero K] [One K] (q : Fin 4 → K) (x : Fin 3 → K) :
    (Pose.ofEigenQuat cv q x false).storedAsEuler = true ∧
    (Pose.ofEigenQuat cv q x false).getQuat cv = cv.toQuat (cv.toEuler q) := by
  simp [Pose.ofEigenQuat, Pose.ofQuat, Pose.setQuat, Pose.getQuat, Pose.init]

end Floating

/-- Conversions for which the round trip loses the orientation (for instance the sign of the
quaternion): all the quaternions `q` and `-q` describe the same rotation. -/
example : ∃ (cv : Conv Int) (q : Fin 4 → Int) (x : Fin 3 → Int),
    (Pose.ofEigenQuat cv q x false).getQuat cv ≠ q :=
  ⟨⟨fun _ => ![0, 0, 0], fun _ => ![1, 0, 0, 0]⟩, ![-1, 0, 0, 0], ![0, 0, 0], fun h => absurd (congrFun h 0) (by decide)⟩

/-- A floating-base robot with one joint. -/
example : (RBD.mk (Pose.mk true ![1, 0, 0, 0] ![1, 2, 3] ![4, 5, 6]) ![8, 9, 10] ![11, 12, 13]
      (Joints.mk ![(7 : Int)] ![14])).toStateVectorEulerXyz ⟨fun _ => ![0, 0, 0], fun _ => ![1, 0, 0, 0]⟩
    = [1, 2, 3, 4, 5, 6, 7, 8, 9, 10, 11, 12, 13, 14] := by decide

end CT.Robot
