import Verif.Model.Actuator
import Verif.Props.RobotState
import Verif.Props.SecondOrder
import Mathlib.Data.List.GetD
import Mathlib.Tactic.FieldSimp
import Mathlib.Tactic.Ring
import Mathlib.Tactic.NormNum

/-! # Properties C65, C88, C90–C93: actuators, the robot systems built on them and initial guesses -/

namespace CT.Actuator

open CT.Robot

variable {n m h e : ℕ} {W : Type} [Zero W]

/-! ### C65: outputs and states of actuators -/

/-- C65, series-elastic actuator: for every non-zero stiffness, the state computed for a desired
output produces that output, and the state computed for the output of a state is that state. -/
theorem C65_sea_inverse (k r : ℝ) (hk : k ≠ 0) (j : Joints ℝ n) (tau a : Fin n → ℝ) :
    (sea k r).out j ((sea k r).fromOut j tau) = tau ∧
    (sea k r).fromOut j ((sea k r).out j a) = a := by
  constructor <;> funext i <;> simp only [sea] <;> field_simp <;> ring

/-- C65, series-elastic actuator: with a non-zero gear ratio, any state (in particular the one
computed for a desired output) is an equilibrium exactly for the zero command; otherwise the gear
moves with the command divided by the ratio. -/
theorem C65_sea_equilibrium (k r : ℝ) (hr : r ≠ 0) (j : Joints ℝ n) (a u : Fin n → ℝ) (t : ℝ) :
    ((sea k r).dyn j a t u = 0 ↔ u = 0) ∧ ∀ i, r * (sea k r).dyn j a t u i = u i := by
  refine ⟨⟨fun hz => ?_, fun hz => ?_⟩, fun i => ?_⟩
  · funext i
    have := congrFun hz i
    simp only [sea, Pi.zero_apply, div_eq_zero_iff] at this
    simpa [hr] using this
  · funext i; simp [sea, hz]
  · simp only [sea]; field_simp

example : (sea 2 3 : Act 1 1).fromOut ⟨fun _ => 1, fun _ => 0⟩ (fun _ => 4) = fun _ => 3 := by
  funext i; simp only [sea]; norm_num

/-- C65, second-order actuator with given frequencies, dampings and gains: the constructor accepts
exactly lists with one entry per joint; the state computed for a desired output produces that
output, and it is an equilibrium exactly under the command `output / gain`. -/
theorem C65_second_order (w zeta g : List ℝ) :
    ((w.length ≠ n ∨ zeta.length ≠ n ∨ g.length ≠ n) → oscNewListGain n w zeta g = .exc) ∧
    (w.length = n → zeta.length = n → g.length = n →
      (∀ x ∈ w, x ≠ 0) → (∀ x ∈ g, x ≠ 0) →
      ∃ osc, oscNewListGain n w zeta g = .ok osc ∧ ∀ (j : Joints ℝ n) (tau u : Fin n → ℝ) (t : ℝ),
        (secondOrder osc).out j ((secondOrder osc).fromOut j tau) = tau ∧
        ((secondOrder osc).dyn j ((secondOrder osc).fromOut j tau) t u = 0 ↔
          ∀ i, u i = tau i / g.getD i 0)) := by
  refine ⟨fun hl => by rw [oscNewListGain, if_pos hl], fun h1 h2 h3 hw hg => ?_⟩
  refine ⟨_, by rw [oscNewListGain, if_neg (by simp [h1, h2, h3])], fun j tau u t => ⟨?_, ?_⟩⟩
  · funext i; simp [secondOrder]
  · have hw' : ∀ i : Fin n, w.getD i 0 ≠ 0 := fun i => by
      have hi : (i : ℕ) < w.length := by omega
      simpa [List.getD, List.getElem?_eq_getElem hi] using hw _ (List.getElem_mem hi)
    have hg' : ∀ i : Fin n, g.getD i 0 ≠ 0 := fun i => by
      have hi : (i : ℕ) < g.length := by omega
      simpa [List.getD, List.getElem?_eq_getElem hi] using hg _ (List.getElem_mem hi)
    constructor
    · intro hz i
      have := congrFun hz (Fin.natAdd n i)
      simp only [secondOrder, Fin.append_left, Fin.append_right, CT.SecondOrder.dyn,
        CT.SecondOrder.mk', Pi.zero_apply, mul_zero, sub_zero] at this
      have e1 : w.getD i 0 * w.getD i 0 * (g.getD i 0 * u i - tau i) = 0 := by linear_combination this
      have e2 := (mul_eq_zero.1 e1).resolve_left (mul_ne_zero (hw' i) (hw' i))
      rw [eq_div_iff (hg' i)]
      linear_combination e2
    · intro hu
      funext l
      refine Fin.addCases (fun i => ?_) (fun i => ?_) l
      · simp only [secondOrder, Fin.append_left, Fin.append_right, Pi.zero_apply]
      · simp only [secondOrder, Fin.append_left, Fin.append_right, CT.SecondOrder.dyn,
          CT.SecondOrder.mk', Pi.zero_apply, mul_zero, sub_zero]
        have := hu i
        rw [eq_div_iff (hg' i)] at this
        linear_combination w.getD i 0 * w.getD i 0 * this

example : ∃ osc, oscNewListGain 2 [1, 2] [0.5, 0.7] [1, 3] = .ok osc := by
  rw [oscNewListGain, if_neg (by simp)]
  exact ⟨_, rfl⟩

/-! ### C88: actuators without gain argument -/

/-- What C88 asks for: under a constant command, an equilibrium of the actuator outputs the command
itself. -/
def UnitAmplification (a : Act n (n + n)) : Prop :=
  ∀ j u t x, a.dyn j x t u = 0 → a.out j x = u

/-- An equilibrium of oscillators with gains `g` and frequencies `w` outputs `g u`. -/
theorem equilibrium_out (osc : Fin n → CT.SecondOrder.Sys) (hw : ∀ i, (osc i).w2 ≠ 0) (j : Joints ℝ n)
    (x : Fin (n + n) → ℝ) (t : ℝ) (u : Fin n → ℝ) :
    (secondOrder osc).dyn j x t u = 0 ↔
      x = Fin.append (fun i => (osc i).g * u i) (fun _ => 0) := by
  constructor
  · intro hz
    have hv : ∀ i : Fin n, x (Fin.natAdd n i) = 0 := fun i => by
      have := congrFun hz (Fin.castAdd n i)
      simpa [secondOrder] using this
    funext l
    refine Fin.addCases (fun i => ?_) (fun i => ?_) l
    · have := congrFun hz (Fin.natAdd n i)
      simp only [secondOrder, Fin.append_right, CT.SecondOrder.dyn, hv, Pi.zero_apply, mul_zero,
        sub_zero] at this
      have e1 : (osc i).w2 * ((osc i).g * u i - x (Fin.castAdd n i)) = 0 := by linear_combination this
      have e2 := (mul_eq_zero.1 e1).resolve_left (hw i)
      rw [Fin.append_left]
      linear_combination -e2
    · rw [Fin.append_right, hv]
  · rintro rfl
    funext l
    refine Fin.addCases (fun i => ?_) (fun i => ?_) l
    · simp only [secondOrder, Fin.append_left, Fin.append_right, Pi.zero_apply]
    · simp only [secondOrder, Fin.append_left, Fin.append_right, CT.SecondOrder.dyn, Pi.zero_apply,
        mul_zero, sub_zero]
      ring

/-- C88, one frequency and damping per joint: the lists are refused exactly if one of them does not have one entry
per joint, and otherwise a constant command `u` holds joint `i` at `ωᵢ² uᵢ` and nowhere else. -/
theorem C88_per_joint (w zeta : List ℝ) :
    (oscNewList n w zeta = .exc ↔ ¬ (w.length = n ∧ zeta.length = n)) ∧
    ∀ osc, oscNewList n w zeta = .ok osc → (∀ i, i < n → w.getD i 0 ≠ 0) → ∀ j u t x,
      (secondOrder osc).dyn j x t u = 0 ↔
        x = Fin.append (fun i : Fin n => w.getD i 0 ^ 2 * u i) (fun _ => 0) := by
  unfold oscNewList
  constructor
  · split
    · next h => simp only [true_iff]; tauto
    · next h => simp only [reduceCtorEq, false_iff]; tauto
  · intro osc ho hw j u t x
    split at ho
    · simp at ho
    · obtain rfl := Res.ok.inj ho
      rw [equilibrium_out _ (fun i => by
        have := hw i i.2
        simp only [CT.SecondOrder.mk', ne_eq, mul_eq_zero, or_self]; exact this)]
      simp only [CT.SecondOrder.mk', pow_two]

/-- C88, one frequency, damping and gain per joint: the same with the gains given. -/
theorem C88_per_joint_gain (w zeta g : List ℝ) :
    (oscNewListGain n w zeta g = .exc ↔ ¬ (w.length = n ∧ zeta.length = n ∧ g.length = n)) ∧
    ∀ osc, oscNewListGain n w zeta g = .ok osc → (∀ i, i < n → w.getD i 0 ≠ 0) → ∀ j u t x,
      (secondOrder osc).dyn j x t u = 0 ↔
        x = Fin.append (fun i : Fin n => g.getD i 0 * u i) (fun _ => 0) := by
  unfold oscNewListGain
  constructor
  · split
    · next h => simp only [true_iff]; tauto
    · next h => simp only [reduceCtorEq, false_iff]; tauto
  · intro osc ho hw j u t x
    split at ho
    · simp at ho
    · obtain rfl := Res.ok.inj ho
      rw [equilibrium_out _ (fun i => by
        have := hw i i.2
        simp only [CT.SecondOrder.mk', ne_eq, mul_eq_zero, or_self]; exact this)]
      rfl

example : ∃ osc, oscNewListGain 2 [1, 3] [1, 1] [1, 2] = .ok osc := by
  simp [oscNewListGain]

/-- C88 (partial): an actuator constructed with explicit gain 1 has unit amplification; one
constructed *without* gain has it only if the natural frequency is 1 or −1 — missing from the claim
are all other frequencies, see `C88_violated`. -/
theorem C88_gain_partial (w zeta : ℝ) (hw : w ≠ 0) :
    UnitAmplification (secondOrder (oscNewGain w zeta 1) : Act (n + 1) _) ∧
    (UnitAmplification (secondOrder (oscNew w zeta) : Act (n + 1) _) ↔ w * w = 1) := by
  constructor
  · intro j u t x hx
    rw [equilibrium_out _ (fun i => by simp [oscNewGain, CT.SecondOrder.mk', hw])] at hx
    subst hx
    funext i
    simp [secondOrder, oscNewGain, CT.SecondOrder.mk']
  · have key : ∀ j (u : Fin (n + 1) → ℝ) t x, (secondOrder (oscNew w zeta)).dyn j x t u = 0 ↔
        x = Fin.append (fun i => w * w * u i) (fun _ => 0) := by
      intro j u t x
      rw [equilibrium_out _ (fun i => by simp [oscNew, CT.SecondOrder.mk', hw])]
      simp [oscNew, CT.SecondOrder.mk']
    constructor
    · intro hu
      have := hu ⟨fun _ => 0, fun _ => 0⟩ (fun _ => 1) 0 _ ((key _ _ _ _).2 rfl)
      have := congrFun this 0
      simpa [secondOrder] using this
    · intro h1 j u t x hx
      rw [key] at hx
      subst hx
      funext i
      simp [secondOrder, h1]

/-- C88, negated for the constructor without gain, documented as "assuming unit amplification": at
natural frequency 10 the output settles at 100 times the command. -/
theorem C88_violated (zeta : ℝ) : ¬ UnitAmplification (secondOrder (oscNew 10 zeta) : Act 1 _) ∧
    ∀ x, (secondOrder (oscNew 10 zeta) : Act 1 _).dyn ⟨fun _ => 0, fun _ => 0⟩ x 0 (fun _ => 1) = 0 ↔
      x = Fin.append (fun _ => 100) (fun _ => 0) := by
  constructor
  · rw [(C88_gain_partial 10 zeta (by norm_num)).2]
    norm_num
  · intro x
    rw [equilibrium_out _ (fun i => by simp [oscNew, CT.SecondOrder.mk'])]
    simp only [oscNew, CT.SecondOrder.mk']
    norm_num

/-! ### C90: the robot system with and without actuators -/

theorem vec_eq (s : FixBase ℝ n m) :
    vec s = List.ofFn s.joints.pos ++ (List.ofFn s.joints.vel ++ List.ofFn s.act) :=
  toStateVector_eq s _ (by simp)

theorem from_vec (s old : FixBase ℝ n m) : old.fromStateVector (vec s) = s :=
  (C63_fixed_base s old (vec s) _ (by rw [vec_eq]; simp; omega) (by simp)).1

/-- Splitting a vector into blocks of given sizes. -/
theorem split3 (d : List ℝ) (a b c : ℕ) (hd : d.length = a + b + c) :
    ∃ j1 j2 j3 : List ℝ, d = j1 ++ (j2 ++ j3) ∧ j1.length = a ∧ j2.length = b ∧ j3.length = c := by
  refine ⟨d.take a, (d.drop a).take b, (d.drop a).drop b, ?_, ?_, ?_, ?_⟩
  · rw [List.take_append_drop, List.take_append_drop]
  · simp; omega
  · simp; omega
  · simp; omega

theorem setSeg_at {k off : ℕ} (x : Fin k → ℝ) (v a old b : List ℝ) (hv : v = a ++ (old ++ b))
    (ho : off = a.length) (hk : old.length = k) : setSeg v off x = a ++ (List.ofFn x ++ b) := by
  rw [hv, ho]; exact setSeg_append x a old b hk

theorem seg0 {k : ℕ} (x : Fin k → ℝ) (b : List ℝ) : seg (List.ofFn x ++ b) 0 k = x :=
  seg_at x _ [] b rfl rfl

theorem seg0' {k : ℕ} (x : Fin k → ℝ) : seg (List.ofFn x) 0 k = x :=
  seg_at x _ [] [] (by simp) rfl

theorem setSeg0 {k : ℕ} (x : Fin k → ℝ) (old b : List ℝ) (hk : old.length = k) :
    setSeg (old ++ b) 0 x = List.ofFn x ++ b :=
  setSeg_at x _ [] old b rfl rfl hk

/-- C90, without actuators: the derivative of `(q, v)` is `(v, forward dynamics)` with the joint
torques of the control vector and the forces in it, for every number of joints, whatever the
derivative vector held. -/
theorem C90_torques (rb : Rob n e W) (q v tau : Fin n → ℝ) (f : List ℝ) (t : ℝ) (d : List ℝ)
    (act : Option (Act n 0)) (hd : d.length = 2 * n) :
    rb.fdDynamics act (List.ofFn q ++ List.ofFn v) t (List.ofFn tau ++ f) d =
      .ok (List.ofFn v ++ List.ofFn (rb.fd ⟨q, v⟩ tau (rb.linkForces (List.ofFn tau ++ f) q))) := by
  have hv : vec (⟨⟨q, v⟩, fun i => i.elim0⟩ : FixBase ℝ n 0) = List.ofFn q ++ List.ofFn v := by
    rw [vec_eq]; simp
  rw [← hv]
  obtain ⟨j1, j2, j3, rfl, h1, h2, h3⟩ := split3 d n n 0 (by omega)
  obtain rfl := List.length_eq_zero_iff.1 h3
  unfold Rob.fdDynamics
  simp only [from_vec, fdActuator, if_true, Res.ok_bind]
  rw [seg0 tau f]
  rw [setSeg0 v j1 (j2 ++ []) h1]
  rw [setSeg_at _ _ (List.ofFn v) j2 [] (by simp) (by simp) h2]
  simp

/-- C90, with actuators: the derivative of `(q, v, x)` is `(v, forward dynamics under the actuator
output, actuator dynamics under the command)`; without an actuator object the call is undefined. -/
theorem C90_actuated (rb : Rob n 0 W) (a : Act n m) (hm : m ≠ 0) (q v u : Fin n → ℝ) (x : Fin m → ℝ) (t : ℝ)
    (d : List ℝ) (hd : d.length = 2 * n + m) :
    rb.fdDynamics (some a) (List.ofFn q ++ (List.ofFn v ++ List.ofFn x)) t (List.ofFn u) d =
      .ok (List.ofFn v ++ (List.ofFn (rb.fd ⟨q, v⟩ (a.out ⟨q, v⟩ x) fun _ => 0) ++
        List.ofFn (a.dyn ⟨q, v⟩ x t u))) ∧
    rb.fdDynamics (none : Option (Act n m)) (List.ofFn q ++ (List.ofFn v ++ List.ofFn x)) t
      (List.ofFn u) d = .ub := by
  have hv : vec (⟨⟨q, v⟩, x⟩ : FixBase ℝ n m) = List.ofFn q ++ (List.ofFn v ++ List.ofFn x) := vec_eq _
  rw [← hv]
  obtain ⟨j1, j2, j3, rfl, h1, h2, h3⟩ := split3 d n n m (by omega)
  unfold Rob.fdDynamics
  constructor
  · simp only [from_vec, fdActuator, if_neg hm, Res.ok_bind, Rob.linkForces, List.finRange_zero,
      List.foldl_nil]
    rw [seg0' u, seg0']
    rw [setSeg0 v j1 (j2 ++ j3) h1]
    rw [setSeg_at _ _ (List.ofFn v ++ j2) j3 [] (by simp) (by simp; omega) h3]
    rw [setSeg_at _ _ (List.ofFn v) j2 _ (by simp; rfl) (by simp) h2]
  · simp only [from_vec, fdActuator, if_neg hm, Res.ub_bind]

/-- C90, steady poses: if the forward dynamics inverts the inverse dynamics at rest (this is what
the external rigid body algorithms promise), a robot at rest with the consistent actuator state and
an actuator command that holds this state does not move at all; without actuators, the same holds
for the inverse dynamics torques. -/
theorem C90_steady (rb : Rob n 0 W) (q : Fin n → ℝ) (t : ℝ)
    (hid : rb.fd ⟨q, 0⟩ (rb.idTorques ⟨q, 0⟩) (fun _ => 0) = 0) :
    (∀ (d : List ℝ) (act : Option (Act n 0)), d.length = 2 * n →
      rb.fdDynamics act (List.ofFn q ++ List.ofFn (0 : Fin n → ℝ)) t
        (List.ofFn (rb.idTorques ⟨q, 0⟩)) d = .ok (List.replicate (2 * n) 0)) ∧
    (∀ (a : Act n m) (u : Fin n → ℝ) (d : List ℝ), m ≠ 0 → d.length = 2 * n + m →
      a.out ⟨q, 0⟩ (rb.consistent a ⟨q, 0⟩) = rb.idTorques ⟨q, 0⟩ →
      a.dyn ⟨q, 0⟩ (rb.consistent a ⟨q, 0⟩) t u = 0 →
      rb.fdDynamics (some a) (List.ofFn q ++ (List.ofFn (0 : Fin n → ℝ) ++
        List.ofFn (rb.consistent a ⟨q, 0⟩))) t (List.ofFn u) d = .ok (List.replicate (2 * n + m) 0)) := by
  have z : ∀ k : ℕ, List.ofFn (0 : Fin k → ℝ) = List.replicate k 0 := fun k => by
    rw [← List.ofFn_const]; rfl
  constructor
  · intro d act hd
    have := C90_torques rb q 0 (rb.idTorques ⟨q, 0⟩) [] t d act hd
    rw [List.append_nil] at this
    rw [this]
    have e0 : rb.linkForces (List.ofFn (rb.idTorques ⟨q, 0⟩)) q = fun _ => 0 := by
      simp [Rob.linkForces]
    rw [e0, hid, z, List.replicate_append_replicate, two_mul]
  · intro a u d hm hd ho hdyn
    rw [(C90_actuated rb a hm q 0 u _ t d hd).1, ho, hid, hdyn, z, z, List.replicate_append_replicate,
      List.replicate_append_replicate, two_mul, add_assoc]

/-- A robot used in the examples below: one joint of inertia 1 under a constant load 5. -/
def loaded : Rob 1 0 ℝ where
  fd _ tau _ := fun i => tau i - 5
  idyn _ acc := fun i => acc i + 5
  linkId i := i.elim0
  mapForce _ _ i := i.elim0

/-- The hypotheses of C90_steady are met by a loaded joint with a series-elastic actuator. -/
example : loaded.fdDynamics (some (sea 10 3)) ([2] ++ ([0] ++ [2.5])) 0 [0] [7, 7, 7] = .ok [0, 0, 0] := by
  have := (C90_steady loaded (fun _ => 2) 0 (by funext i; simp [loaded, Rob.idTorques])).2 (sea 10 3) 0 [7, 7, 7]
    (by simp) (by simp) (C65_sea_inverse 10 3 (by norm_num) _ _ (fun _ => 0)).1
    ((C65_sea_equilibrium 10 3 (by norm_num) _ _ _ _).1.2 rfl)
  simp only [List.ofFn_succ, List.ofFn_zero, Rob.consistent, sea, loaded, Rob.idTorques] at this
  norm_num at this ⊢
  exact this

/-- C90, kinematic systems: the acceleration-controlled system has derivative `(v, u)`, the
velocity-controlled one `u`. -/
theorem C90_kinematic (q v u : Fin n → ℝ) (d d' : List ℝ) (hd : d.length = 2 * n) (hd' : d'.length = n) :
    accDynamics n (List.ofFn q ++ List.ofFn v) (List.ofFn u) d = List.ofFn v ++ List.ofFn u ∧
    velDynamics n (List.ofFn u) d' = List.ofFn u := by
  obtain ⟨j1, j2, j3, rfl, h1, h2, h3⟩ := split3 d n n 0 (by omega)
  obtain rfl := List.length_eq_zero_iff.1 h3
  constructor
  · unfold accDynamics
    rw [seg_at v _ (List.ofFn q) [] (by simp) (by simp; omega), seg0' u,
      setSeg0 v j1 (j2 ++ []) h1, setSeg_at _ _ (List.ofFn v) j2 [] (by simp) (by simp; omega) h2]
    simp
  · unfold velDynamics
    rw [seg0' u, setSeg_at (off := 0) u d' [] d' [] (by simp) rfl hd']
    simp

/-! ### C92: end effector forces as control inputs -/

omit [Zero W] in
/-- Folding assignments: the value at a key is that of the last assignment to it. -/
theorem foldl_update (key : Fin e → ℕ) (val : Fin e → W) (l : List (Fin e)) (lf : ℕ → W) :
    (∀ j, (∀ i ∈ l, key i ≠ j) → l.foldl (fun lf i => Function.update lf (key i) (val i)) lf j = lf j) ∧
    (∀ i ∈ l, (∀ i' ∈ l, key i' = key i → i' = i) →
      l.foldl (fun lf i => Function.update lf (key i) (val i)) lf (key i) = val i) := by
  induction l generalizing lf with
  | nil => exact ⟨fun j _ => rfl, fun i hi => by simp at hi⟩
  | cons a l ih =>
    refine ⟨fun j hj => ?_, fun i hi hu => ?_⟩
    · rw [List.foldl_cons, (ih _).1 j fun i hi => hj i (List.mem_cons_of_mem _ hi),
        Function.update_of_ne (Ne.symm (hj a List.mem_cons_self))]
    · rw [List.foldl_cons]
      by_cases hm : i ∈ l
      · exact (ih _).2 i hm fun i' hi' => hu i' (List.mem_cons_of_mem _ hi')
      · have : i = a := (List.mem_cons.1 hi).resolve_right hm
        subst this
        rw [(ih _).1 _ fun i' hi' heq => hm (hu i' (List.mem_cons_of_mem _ hi') heq ▸ hi')]
        exact Function.update_self _ _ _

/-- C92 (partial): if no two end effectors sit on the same link, the link of every end effector
receives exactly its force of the control vector, mapped into the link frame, and all other links
receive none.  Missing: end effectors sharing a link, see `C92_violated`. -/
theorem C92_forces_partial (rb : Rob n e W) (q tau : Fin n → ℝ) (force : Fin e → Fin 3 → ℝ)
    (hinj : Function.Injective rb.linkId) :
    let control := List.ofFn tau ++ (List.ofFn force).flatMap fun f => List.ofFn f
    (∀ i, rb.linkForces control q (rb.linkId i) = rb.mapForce (force i) q i) ∧
    (∀ l, (∀ i, rb.linkId i ≠ l) → rb.linkForces control q l = 0) := by
  intro control
  have hseg : ∀ i : Fin e, seg control (n + i * 3) 3 = force i := by
    intro i
    have : ∀ (k : ℕ) (g : Fin k → Fin 3 → ℝ) (i : Fin k) (c : Fin 3),
        ((List.ofFn g).flatMap fun f => List.ofFn f).getD (i * 3 + c) 0 = g i c := by
      intro k
      induction k with
      | zero => exact fun _ i => i.elim0
      | succ k ih =>
        intro g i c
        rw [List.ofFn_succ, List.flatMap_cons]
        refine Fin.cases ?_ (fun i => ?_) i
        · rw [List.getD_append _ _ _ _ (by simp)]
          fin_cases c <;> simp [List.getD]
        · rw [List.getD_append_right _ _ _ _ (by simp; omega)]
          have := ih (fun i => g i.succ) i c
          rw [← this]
          congr 1
          simp; omega
    funext c
    unfold seg
    rw [List.getD_append_right _ _ _ _ (by simp; omega)]
    rw [← this e force i c]
    congr 1
    simp; omega
  have h := foldl_update rb.linkId (fun i => rb.mapForce (seg control (n + i * 3) 3) q i) (List.finRange e)
    (fun _ => 0)
  constructor
  · intro i
    have := h.2 i (List.mem_finRange i) fun i' _ hk => hinj hk
    simp only [hseg] at this
    simpa only [Rob.linkForces, hseg] using this
  · intro l hl
    exact h.1 l fun i _ => hl i

/-- Two end effectors on one link: the wrench is the sum of the forces (here just the first
component, unmapped), so a user expects the sum of both. -/
def twoFeet : Rob 0 2 ℝ where
  fd _ _ _ := fun i => i.elim0
  idyn _ _ := fun i => i.elim0
  linkId _ := 4
  mapForce f _ _ := f 0

/-- C92, negated when two end effectors sit on the same link: only the force of the last one is
applied, those before are lost. -/
theorem C92_violated (f g : Fin 3 → ℝ) :
    twoFeet.linkForces (List.ofFn f ++ List.ofFn g) (fun i => i.elim0) 4 = g 0 := by
  simp [Rob.linkForces, twoFeet, List.finRange_succ, seg, List.getD]

/-- Distinct links exist: hypotheses of C92_forces_partial. -/
example : Function.Injective ({ twoFeet with linkId := fun i => i } : Rob 0 2 ℝ).linkId :=
  fun _ _ h => Fin.ext h

/-! ### C93: the symplectic form -/

/-- The actuators of a symplectic system as actuators of the plain one. -/
def ActSym.toAct (a : ActSym n h) : Act n (h + h) where
  dyn j x _ u := Fin.append (a.pdot j x (fun i => x (Fin.natAdd h i)) u)
    (a.vdot j x (fun i => x (Fin.castAdd h i)) u)
  out := a.out
  fromOut _ _ := fun _ => 0

theorem symFull_eq (j : Joints ℝ n) (x : Fin (h + h) → ℝ) (junk : List ℝ) (hj : junk.length = 2 * (n + h)) :
    symFull j x junk = List.ofFn j.pos ++ (List.ofFn (fun i : Fin h => x (Fin.castAdd h i)) ++
      (List.ofFn j.vel ++ List.ofFn (fun i : Fin h => x (Fin.natAdd h i)))) := by
  obtain ⟨j1, j2, j3', rfl, h1, h2, h3'⟩ := split3 junk n h (n + h) (by omega)
  obtain ⟨j3, j4, j5, rfl, h3, h4, h5⟩ := split3 j3' n h 0 (by omega)
  obtain rfl := List.length_eq_zero_iff.1 h5
  unfold symFull
  simp only
  rw [setSeg0 _ j1 _ h1]
  rw [setSeg_at _ _ (List.ofFn j.pos) j2 _ rfl (by simp) h2]
  rw [setSeg_at _ _ (List.ofFn j.pos ++ List.ofFn (fun i : Fin h => x (Fin.castAdd h i))) j3 (j4 ++ [])
    (by simp) (by simp) h3]
  rw [setSeg_at _ _ (List.ofFn j.pos ++ List.ofFn (fun i : Fin h => x (Fin.castAdd h i)) ++ List.ofFn j.vel) j4 []
    (by simp) (by simp; omega) h4]
  simp

theorem append_parts (x : Fin (h + h) → ℝ) :
    Fin.append (fun i : Fin h => x (Fin.castAdd h i)) (fun i : Fin h => x (Fin.natAdd h i)) = x := by
  funext l
  refine Fin.addCases (fun i => ?_) (fun i => ?_) l
  · rw [Fin.append_left]
  · rw [Fin.append_right]

/-- C93: the symplectic robot system and the plain one describe the same motion.  The symplectic
vector of a state lists joint positions, actuator positions, joint velocities, actuator velocities;
packing and unpacking are inverse to each other; and the symplectic derivative of a packed state is
the packed derivative of the plain system with the same actuators. -/
theorem C93_same_motion (rb : Rob n 0 W) (a : ActSym n h) (hh : h ≠ 0) (q v u : Fin n → ℝ) (x : Fin (h + h) → ℝ)
    (t : ℝ) (junk junkP junkV d : List ℝ) (hj : junk.length = 2 * (n + h)) (hP : junkP.length = n + h)
    (hV : junkV.length = n + h) (hd : d.length = 2 * n + (h + h)) :
    symJoints n h (symFull ⟨q, v⟩ x junk) = ⟨q, v⟩ ∧
    symActuator n h (symFull ⟨q, v⟩ x junk) = x ∧
    ∃ (acc : Fin n → ℝ) (xd : Fin (h + h) → ℝ),
      rb.symDynamics (some a) (symFull ⟨q, v⟩ x junk) (List.ofFn u) junkP junkV = .ok (symFull ⟨v, acc⟩ xd junk) ∧
      rb.fdDynamics (some a.toAct) (List.ofFn q ++ (List.ofFn v ++ List.ofFn x)) t (List.ofFn u) d =
        .ok (List.ofFn v ++ (List.ofFn acc ++ List.ofFn xd)) := by
  set pq := fun i : Fin h => x (Fin.castAdd h i) with hpq
  set pv := fun i : Fin h => x (Fin.natAdd h i) with hpv
  have e := symFull_eq ⟨q, v⟩ x junk hj
  simp only [← hpq, ← hpv] at e
  have b1 : seg (symFull ⟨q, v⟩ x junk) 0 n = q := seg_at _ _ [] _ (by rw [e]; rfl) rfl
  have b2 : seg (symFull ⟨q, v⟩ x junk) n h = pq := seg_at _ _ (List.ofFn q) _ e (by simp)
  have b3 : seg (symFull ⟨q, v⟩ x junk) (n + h) n = v :=
    seg_at _ _ (List.ofFn q ++ List.ofFn pq) (List.ofFn pv) (by rw [e]; simp) (by simp)
  have b4 : seg (symFull ⟨q, v⟩ x junk) (2 * (n + h) - h) h = pv :=
    seg_at _ _ (List.ofFn q ++ List.ofFn pq ++ List.ofFn v) [] (by rw [e]; simp) (by simp; omega)
  have hx : Fin.append pq pv = x := append_parts x
  have hjnt : symJoints n h (symFull ⟨q, v⟩ x junk) = ⟨q, v⟩ := by rw [symJoints, b1, b3]
  refine ⟨hjnt, by rw [symActuator, b2, b4, hx], ?_⟩
  refine ⟨rb.fd ⟨q, v⟩ (a.out ⟨q, v⟩ x) fun _ => 0, a.toAct.dyn ⟨q, v⟩ x t u, ?_,
    (C90_actuated rb a.toAct (by omega) q v u x t d hd).1⟩
  have hdrop : (symFull ⟨q, v⟩ x junk).drop (n + h) = List.ofFn v ++ List.ofFn pv := by
    rw [e, ← List.append_assoc, List.drop_left' (by simp)]
  have htake : (symFull ⟨q, v⟩ x junk).take (n + h) = List.ofFn q ++ List.ofFn pq := by
    rw [e, ← List.append_assoc, List.take_left' (by simp)]
  obtain ⟨p1, p2, p3, rfl, hp1, hp2, hp3⟩ := split3 junkP n h 0 (by omega)
  obtain rfl := List.length_eq_zero_iff.1 hp3
  obtain ⟨v1, v2, v3, rfl, hv1, hv2, hv3⟩ := split3 junkV n h 0 (by omega)
  obtain rfl := List.length_eq_zero_iff.1 hv3
  rw [symFull_eq ⟨v, _⟩ _ _ hj]
  unfold Rob.symDynamics symPdot Rob.symVdot
  simp only [hdrop, htake, hjnt, if_neg hh, Res.ok_bind, b2, b4, Nat.add_sub_cancel, Rob.linkForces,
    List.finRange_zero, List.foldl_nil]
  rw [seg0 v,
    seg_at pv (List.ofFn v ++ List.ofFn pv) (List.ofFn v) [] (by simp) (by simp),
    seg_at pq (List.ofFn q ++ List.ofFn pq) (List.ofFn q) [] (by simp) (by simp),
    seg0' u, seg0', hx]
  rw [setSeg0 _ p1 (p2 ++ []) hp1, setSeg_at _ _ (List.ofFn v) p2 [] (by simp) (by simp) hp2,
    setSeg_at _ _ v1 v2 [] (by simp) (by simp [hv1]) hv2,
    setSeg0 _ v1 _ hv1]
  simp only [ActSym.toAct, Fin.append_left, Fin.append_right]
  simp [hpq, hpv]

/-! ### C91: initial guesses -/

/-- C91, steady pose: without actuators every reference state is the given one and every
feed-forward control its inverse dynamics torque, so the guess (at rest) is a motion of the system;
with series-elastic actuators and a consistent actuator state it is one as well. -/
theorem C91_steady (rb : Rob n 0 W) (q : Fin n → ℝ) (N : ℕ) (t : ℝ)
    (hid : rb.fd ⟨q, 0⟩ (rb.idTorques ⟨q, 0⟩) (fun _ => 0) = 0) :
    (∀ (x0 : FixBase ℝ n 0) (act : Option (Act n 0)) (d : List ℝ), x0.joints = ⟨q, 0⟩ → d.length = 2 * n →
      (rb.steadyPose x0 N).1.length = N ∧ (rb.steadyPose x0 N).2.length = N + 1 ∧
      ∀ u ∈ (rb.steadyPose x0 N).1, ∀ x ∈ (rb.steadyPose x0 N).2,
        x = vec x0 ∧ rb.fdDynamics act x t (List.ofFn u) d = .ok (List.replicate (2 * n) 0)) ∧
    (∀ (k r : ℝ) (x0 : FixBase ℝ n n) (d : List ℝ), k ≠ 0 → n ≠ 0 → d.length = 2 * n + n →
      x0 = ⟨⟨q, 0⟩, rb.consistent (sea k r) ⟨q, 0⟩⟩ →
      (rb.steadyPose x0 N).1.length = N ∧ (rb.steadyPose x0 N).2.length = N + 1 ∧
      ∀ u ∈ (rb.steadyPose x0 N).1, ∀ x ∈ (rb.steadyPose x0 N).2,
        x = vec x0 ∧ rb.fdDynamics (some (sea k r)) x t (List.ofFn u) d = .ok (List.replicate (2 * n + n) 0)) := by
  constructor
  · intro x0 act d hx hd
    refine ⟨by simp [Rob.steadyPose], by simp [Rob.steadyPose], fun u hu x hx' => ?_⟩
    simp only [Rob.steadyPose, List.mem_replicate, gt_iff_lt, lt_irrefl, if_false] at hu hx'
    obtain ⟨_, rfl⟩ := hu
    obtain ⟨_, rfl⟩ := hx'
    refine ⟨rfl, ?_⟩
    rw [vec_eq, hx]
    have := (C90_steady (m := 0) rb q t hid).1 d act hd
    simpa using this
  · intro k r x0 d hk hn hd hx
    refine ⟨by simp [Rob.steadyPose], by simp [Rob.steadyPose], fun u hu x hx' => ?_⟩
    have hn' : n > 0 := by omega
    simp only [Rob.steadyPose, List.mem_replicate, if_pos hn'] at hu hx'
    obtain ⟨_, rfl⟩ := hu
    obtain ⟨_, rfl⟩ := hx'
    refine ⟨rfl, ?_⟩
    rw [vec_eq, hx]
    exact (C90_steady rb q t hid).2 (sea k r) (fun _ => 0) d hn hd (C65_sea_inverse k r hk _ _ (fun _ => 0)).1
      (by funext i; simp [sea])

/-- C91, negated for second-order actuators: the steady-pose guess commands zero, so an actuator
that carries the load 5 at rest starts to give way: the guess is not a motion of the system. -/
theorem C91_steady_violated :
    let x0 : FixBase ℝ 1 2 := ⟨⟨fun _ => 0, fun _ => 0⟩, loaded.consistent (secondOrder (oscNewGain 1 1 1)) ⟨fun _ => 0, fun _ => 0⟩⟩
    (loaded.steadyPose x0 3).1 = List.replicate 3 (fun _ => 0) ∧
    loaded.fdDynamics (some (secondOrder (oscNewGain 1 1 1))) (vec x0) 0 [0] [0, 0, 0, 0] = .ok [0, 0, 0, -5] := by
  intro x0
  constructor
  · simp [Rob.steadyPose]
  · have := (C90_actuated loaded (secondOrder (oscNewGain 1 1 1)) (by norm_num) (fun _ => 0) (fun _ => 0) (fun _ => 0)
      x0.act 0 [0, 0, 0, 0] (by simp)).1
    rw [vec_eq]
    simp only [List.ofFn_succ, List.ofFn_zero] at this ⊢
    refine Eq.trans this ?_
    simp [loaded, secondOrder, oscNewGain, CT.SecondOrder.mk', CT.SecondOrder.dyn, x0, Rob.consistent, Rob.idTorques,
      Fin.append, Fin.addCases]

omit [Zero W] in
/-- The state of the interpolation loop after the passes `0 … k-1`, `k ≤ N + 1`. -/
theorem interp_loop (rb : Rob n e W) (a : Act n m) (x0 xf : FixBase ℝ n m) (N : ℕ) (junk : Fin n → ℝ) (k : ℕ)
    (hk : k ≤ N + 1) :
    (List.range k).foldl (rb.interpPass a x0 xf N) (junk, [], []) =
      (if k = 0 then junk else if N = 0 then junk else rb.idTorques (lineJoints x0.joints xf.joints (min (k - 1) (N - 1)) N),
        (List.range (min k N)).map fun i =>
          if m > 0 then fun _ => 0 else rb.idTorques (lineJoints x0.joints xf.joints i N),
        (List.range k).map fun i => vec ⟨lineJoints x0.joints xf.joints i N,
          if i > 0 ∧ m > 0 then
            a.fromOut (lineJoints x0.joints xf.joints i N)
              (if N = 0 then junk else rb.idTorques (lineJoints x0.joints xf.joints (min i (N - 1)) N))
          else x0.act⟩) := by
  induction k with
  | zero => simp
  | succ k ih =>
    rw [List.range_succ, List.foldl_append, ih (by omega), List.foldl_cons, List.foldl_nil, List.map_append]
    unfold Rob.interpPass
    simp only
    have htau : (if k < N then rb.idTorques (lineJoints x0.joints xf.joints k N)
        else if k = 0 then junk else if N = 0 then junk
          else rb.idTorques (lineJoints x0.joints xf.joints (min (k - 1) (N - 1)) N)) =
        if N = 0 then junk else rb.idTorques (lineJoints x0.joints xf.joints (min k (N - 1)) N) := by
      by_cases h1 : k < N
      · rw [if_pos h1, if_neg (by omega), min_eq_left (by omega)]
      · by_cases h2 : N = 0
        · have : k = 0 := by omega
          simp [h1, h2, this]
        · have h3 : k = N := by omega
          rw [if_neg h1, if_neg (by omega), if_neg h2, if_neg h2]
          rw [show min (k - 1) (N - 1) = min k (N - 1) by omega]
    refine Prod.ext ?_ (Prod.ext ?_ ?_)
    · simp only [Nat.succ_ne_zero, if_false, Nat.add_sub_cancel, Nat.add_one_ne_zero]
      exact htau
    · simp only
      by_cases h1 : k < N
      · rw [if_pos h1, if_pos h1, min_eq_left (by omega), min_eq_left (by omega), List.range_succ, List.map_append]
        rfl
      · rw [if_neg h1, show min k N = N by omega, show min (k + 1) N = N by omega]
    · simp only [htau, List.map_cons, List.map_nil]

omit [Zero W] in
/-- C91, direct interpolation: with at least one stage, there are `N` controls and `N + 1` states;
stage `i` has the joint state on the straight line at fraction `i/N`; the first state is the given
initial state, the last one has the joint state asked for; without actuators, every control is the
inverse dynamics torque of the joint state of its stage. -/
theorem C91_interpolation (rb : Rob n e W) (a : Act n m) (x0 xf : FixBase ℝ n m) (N : ℕ) (hN : 0 < N)
    (junk : Fin n → ℝ) :
    (rb.directInterpolation a x0 xf N junk).1.length = N ∧
    (rb.directInterpolation a x0 xf N junk).2.length = N + 1 ∧
    (rb.directInterpolation a x0 xf N junk).2[0]? = some (vec x0) ∧
    (∃ act : Fin m → ℝ, (rb.directInterpolation a x0 xf N junk).2[N]? = some (vec ⟨xf.joints, act⟩)) ∧
    (∀ i ≤ N, ∃ s : FixBase ℝ n m, (rb.directInterpolation a x0 xf N junk).2[i]? = some (vec s) ∧
      (∀ l, N * (s.joints.pos l - x0.joints.pos l) = i * (xf.joints.pos l - x0.joints.pos l)) ∧
      (∀ l, N * (s.joints.vel l - x0.joints.vel l) = i * (xf.joints.vel l - x0.joints.vel l)) ∧
      (m = 0 → i < N → (rb.directInterpolation a x0 xf N junk).1[i]? = some (rb.idTorques s.joints))) := by
  have hN' : (N : ℝ) ≠ 0 := by exact_mod_cast hN.ne'
  unfold Rob.directInterpolation
  rw [interp_loop rb a x0 xf N junk (N + 1) le_rfl]
  simp only [show min (N + 1) N = N by omega, List.length_map, List.length_range, true_and]
  have h0 : lineJoints x0.joints xf.joints 0 N = x0.joints := by simp [lineJoints]
  have h1 : lineJoints x0.joints xf.joints N N = xf.joints := by
    unfold lineJoints
    rcases xf with ⟨⟨p, w⟩, a⟩
    simp only [Joints.mk.injEq]
    constructor <;> funext l <;> field_simp <;> ring
  refine ⟨?_, ?_, ?_⟩
  · simp [h0]
  · rw [List.getElem?_map, List.getElem?_range (by omega), Option.map_some, h1]
    exact ⟨_, rfl⟩
  · intro i hi
    refine ⟨_, by rw [List.getElem?_map, List.getElem?_range (by omega), Option.map_some], ?_, ?_, ?_⟩
    · intro l; simp only [lineJoints]; field_simp; ring
    · intro l; simp only [lineJoints]; field_simp; ring
    · intro hm hi'
      subst hm
      simp [hi']

omit [Zero W] in
/-- C91 (partial), direct interpolation with actuators: at every stage strictly between the first
and the last, the actuator state outputs the inverse dynamics torque of the joint state of that
stage.  Missing: the last stage, whose actuator state belongs to the torque of the stage before it
(second part), see `C91_last_violated`. -/
theorem C91_actuator_partial (rb : Rob n e W) (a : Act n m) (x0 xf : FixBase ℝ n m) (N : ℕ) (hN : 0 < N)
    (hm : 0 < m) (hinv : ∀ j tau, a.out j (a.fromOut j tau) = tau) (junk : Fin n → ℝ) :
    (∀ i, 0 < i → i < N → ∃ s : FixBase ℝ n m,
      (rb.directInterpolation a x0 xf N junk).2[i]? = some (vec s) ∧ a.out s.joints s.act = rb.idTorques s.joints) ∧
    (∃ s : FixBase ℝ n m, (rb.directInterpolation a x0 xf N junk).2[N]? = some (vec s) ∧
      a.out s.joints s.act = rb.idTorques (lineJoints x0.joints xf.joints (N - 1) N)) := by
  unfold Rob.directInterpolation
  rw [interp_loop rb a x0 xf N junk (N + 1) le_rfl]
  constructor
  · intro i h0 hi
    refine ⟨_, by rw [List.getElem?_map, List.getElem?_range (by omega), Option.map_some], ?_⟩
    simp only [gt_iff_lt, h0, hm, and_self, if_true, hN.ne', if_false]
    rw [hinv, min_eq_left (by omega)]
  · refine ⟨_, by rw [List.getElem?_map, List.getElem?_range (by omega), Option.map_some], ?_⟩
    simp only [gt_iff_lt, hN, hm, and_self, if_true, hN.ne', if_false]
    rw [hinv, min_eq_right (by omega)]

/-- A joint whose load is proportional to its position (a spring), used below. -/
def spring : Rob 1 0 ℝ where
  fd j tau _ := fun i => tau i - j.pos i
  idyn j acc := fun i => acc i + j.pos i
  linkId i := i.elim0
  mapForce _ _ i := i.elim0

/-- C91, negated at the last stage: interpolating from position 0 to 2 in two stages with a
series-elastic actuator of stiffness 1, the last state should carry the torque 2 of its position;
it carries 1. -/
theorem C91_last_violated (junk : Fin 1 → ℝ) :
    let x0 : FixBase ℝ 1 1 := ⟨⟨fun _ => 0, fun _ => 0⟩, fun _ => 0⟩
    let xf : FixBase ℝ 1 1 := ⟨⟨fun _ => 2, fun _ => 0⟩, fun _ => 0⟩
    let last : FixBase ℝ 1 1 := ⟨⟨fun _ => 2, fun _ => 0⟩, fun _ => 3⟩
    (spring.directInterpolation (sea 1 1) x0 xf 2 junk).2[2]? = some (vec last) ∧
    (sea 1 1).out last.joints last.act = (fun _ => 1) ∧ spring.idTorques last.joints = fun _ => 2 := by
  intro x0 xf last
  refine ⟨?_, ?_, ?_⟩
  · unfold Rob.directInterpolation
    rw [interp_loop spring (sea 1 1) x0 xf 2 junk 3 le_rfl]
    simp only [List.getElem?_map, List.getElem?_range (show 2 < 3 by omega), Option.map_some, Option.some.injEq]
    congr 1
    simp [lineJoints, x0, xf, last, sea, spring, Rob.idTorques]
    norm_num
  · funext i; simp only [sea, last]; norm_num
  · funext i; simp [spring, Rob.idTorques, last]

end CT.Actuator
