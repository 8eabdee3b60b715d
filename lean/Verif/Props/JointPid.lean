import Verif.Model.ControlledSystem
import Verif.Props.PID
import Verif.Props.ControlledSystem
import Mathlib.Tactic.Linarith
import Mathlib.Tactic.NormNum

/-!
# PID control of the joints of a robot (C166) and simple controllers (C168)
-/

namespace CT.Ctl

open CT.PID

variable {K : Type} [Field K] [LinearOrder K] {n : ℕ}

/-! ### Specification -/

/-- What a call means to the PID controller of joint `i`. -/
def forJoint (big : K) (i : Fin n) : JOp K n → Option (PID.Op K)
  | .computeControl x => some (.computeControl2 (x.getD i 0) (x.getD (n + i) 0))
  | .setDesiredPosition p => some (.setDesiredState (p i))
  | .setDesiredPositionOf p j => if j = (i : ℤ) then some (.setDesiredState p) else none
  | .setAllPIDGains kp ki kd => some (.changeParameters ⟨kp, ki, kd, 1 / 100, big, big, -big⟩)
  | .reset => some .reset

/-- Joint numbers are in range. -/
def InRange : JOp K n → Prop
  | .setDesiredPositionOf _ j => 0 ≤ j ∧ j < n
  | _ => True

/-! ### Joints are independent -/

theorem mapM_idx {α β : Type} (l : List α) (hl : l.length = n) (g : Fin n → α → β) :
    ((List.finRange n).mapM fun (i : Fin n) => do let a ← idx l i.1; pure (g i a)) =
      .ok (List.ofFn fun i : Fin n => g i (l[i.1]'(by omega))) := by
  have : ∀ L : List (Fin n), (L.mapM fun (i : Fin n) => (do let a ← idx l i.1; pure (g i a) : Res β)) =
      .ok (L.map fun i : Fin n => g i (l[i.1]'(by omega))) := by
    intro L
    induction L with
    | nil => rfl
    | cons i L ih =>
      rw [List.mapM_cons, ih]
      have : idx l i.1 = .ok (l[i.1]'(by omega)) := idx_eq_ok.2 (List.getElem?_eq_getElem _)
      simp [this]
  rw [this, List.ofFn_eq_map]

/-- The state of all joints. -/
def Joints (c : JointPid K) (p : Fin n → Pid K) : Prop := c.jointControllers = List.ofFn p

theorem each_eq {c : JointPid K} {p : Fin n → Pid K} (h : Joints c p) (op : Fin n → PID.Op K) :
    c.each n op = .ok (List.ofFn fun i => (PID.step (p i) (op i)).1, ⟨List.ofFn fun i => (PID.step (p i) (op i)).2⟩) := by
  obtain ⟨l⟩ := c
  simp only [Joints] at h
  subst h
  have hl : (List.ofFn p).length = n := by simp
  rw [JointPid.each, mapM_idx _ hl fun i a => PID.step a (op i)]
  simp only [Res.ok_bind, Res.pure_eq, List.map_ofFn, Res.ok.injEq, Prod.mk.injEq, JointPid.mk.injEq]
  constructor <;>
  · congr 1
    funext i
    simp only [Function.comp_def, List.getElem_ofFn]

omit [LinearOrder K] in
theorem seg_getD (x : List K) (off : ℕ) (i : Fin n) : Robot.seg x off n i = x.getD (off + i) 0 := rfl

/-- One call changes every joint as the PID controller of the joint. -/
theorem step_joints (big : K) {c : JointPid K} {p : Fin n → Pid K} (h : Joints c p) {op : JOp K n} (hr : InRange op) :
    ∃ r c', c.step big op = .ok (r, c') ∧ Joints c' fun i => PID.run (p i) (forJoint big i op).toList := by
  cases op with
  | computeControl x =>
    refine ⟨_, _, each_eq h _, ?_⟩
    simp [Joints, forJoint, PID.run, seg_getD]
  | setDesiredPosition q =>
    exact ⟨_, _, each_eq h _, by simp [Joints, forJoint, PID.run]⟩
  | setAllPIDGains kp ki kd =>
    exact ⟨_, _, each_eq h _, by simp [Joints, forJoint, PID.run, gains]⟩
  | reset =>
    exact ⟨_, _, each_eq h _, by simp [Joints, forJoint, PID.run]⟩
  | setDesiredPositionOf q j =>
    obtain ⟨j0, jn⟩ : 0 ≤ j ∧ j < n := hr
    obtain ⟨m, rfl⟩ := Int.eq_ofNat_of_zero_le j0
    have hm : m < n := by exact_mod_cast jn
    have hi : idx c.jointControllers m = .ok (p ⟨m, hm⟩) := by
      rw [idx_eq_ok, h]
      simp [hm]
    refine ⟨[], ⟨c.jointControllers.set m (PID.step (p ⟨m, hm⟩) (.setDesiredState q)).2⟩, by simp only [JointPid.step, j0, jn, and_self, if_true, Int.toNat_natCast, hi, Res.ok_bind, Res.pure_eq], ?_⟩
    have h' : c.jointControllers = List.ofFn p := h
    simp only [Joints, h']
    apply List.ext_getElem (by simp)
    intro i h1 h2
    simp only [List.getElem_set, List.getElem_ofFn, forJoint, Nat.cast_inj]
    by_cases e : m = i
    · subst e
      simp [PID.run]
    · simp [PID.run, e]

theorem run_joints (big : K) {hist : List (JOp K n)} (hr : ∀ op ∈ hist, InRange op) {c : JointPid K} {p : Fin n → Pid K}
    (h : Joints c p) :
    ∃ c', c.run big hist = .ok c' ∧ Joints c' fun i => PID.run (p i) (hist.filterMap (forJoint big i)) := by
  induction hist generalizing c p with
  | nil => exact ⟨c, rfl, h⟩
  | cons op hist ih =>
    obtain ⟨r, c1, e1, e2⟩ := step_joints big h (hr op (by simp))
    obtain ⟨c2, e3, e4⟩ := ih (fun o ho => hr o (by simp [ho])) e2
    refine ⟨c2, by simp only [JointPid.run, e1, Res.ok_bind, e3], ?_⟩
    simp only [Joints] at e4 ⊢
    rw [e4]
    congr 1
    funext i
    simp only [List.filterMap_cons]
    cases forJoint big i op <;> simp [PID.run]

omit [LinearOrder K] in
theorem new_joints (pos vel : Fin n → K) (ps : List (Params K)) (hl : ps.length = n) :
    ∃ c, JointPid.newEach n pos vel ps = .ok c ∧ Joints c fun i => Pid.new (ps[i.1]'(by omega)) ⟨pos i, vel i⟩ := by
  refine ⟨_, by rw [JointPid.newEach, mapM_idx ps hl fun i a => Pid.new a ⟨pos i, vel i⟩]; rfl, rfl⟩

/-! ### C166 -/

/-- C166: whatever was called before, the command for every joint is that of a PID controller of its own, which has been
constructed with the parameters and set-points given for this joint, has seen the positions and velocities of this joint
only, and has been told what concerns this joint. -/
theorem C166_joints_independent (big : K) (pos vel : Fin n → K) (ps : List (Params K)) (hl : ps.length = n)
    (hist : List (JOp K n)) (hr : ∀ op ∈ hist, InRange op) (x : List K) :
    ∃ c c0 c', JointPid.newEach n pos vel ps = .ok c0 ∧ c0.run big hist = .ok c
      ∧ c.step big (n := n) (.computeControl x) = .ok (List.ofFn fun i : Fin n =>
          some ((PID.run (Pid.new (ps[i.1]'(by omega)) ⟨pos i, vel i⟩) (hist.filterMap (forJoint big i))).compute2
            (x.getD i 0) (x.getD (n + i) 0)).1, c') := by
  obtain ⟨c0, e1, e2⟩ := new_joints pos vel ps hl
  obtain ⟨c, e3, e4⟩ := run_joints big hr e2
  refine ⟨c, c0, _, e1, e3, (each_eq e4 _).trans (congrArg Res.ok (Prod.ext ?_ rfl))⟩
  simp [PID.step, seg_getD]

/-- The constructor taking the same parameters for all joints is the one taking them for each joint. -/
theorem C166_same_parameters (pos vel : Fin n → K) (p : Params K) :
    JointPid.newEach n pos vel (List.replicate n p) = .ok (JointPid.newAll n pos vel p) := by
  rw [JointPid.newEach, mapM_idx (List.replicate n p) (by simp) fun i a => Pid.new a ⟨pos i, vel i⟩]
  simp [JointPid.newAll, List.ofFn_eq_map]

/-- C166, partial: as long as `setAllPIDGains` has not been called, every command is within the limits given for the joint
at construction. -/
theorem C166_limits_partial [IsStrictOrderedRing K] (big : K) (pos vel : Fin n → K) (ps : List (Params K)) (hl : ps.length = n)
    (hist : List (JOp K n)) (hr : ∀ op ∈ hist, InRange op) (hg : ∀ op ∈ hist, ∀ kp ki kd, op ≠ .setAllPIDGains kp ki kd)
    (hlim : ∀ p ∈ ps, p.uMin ≤ p.uMax) (x : List K) :
    ∃ c c0 us c', JointPid.newEach n pos vel ps = .ok c0 ∧ c0.run big hist = .ok c
      ∧ c.step big (n := n) (.computeControl x) = .ok (us, c') ∧ us.length = n
      ∧ ∀ (i : ℕ) (hi : i < n), ∃ u, us[i]? = some (some u) ∧ (ps[i]'(by omega)).uMin ≤ u ∧ u ≤ (ps[i]'(by omega)).uMax := by
  obtain ⟨c, c0, c', e1, e2, e3⟩ := C166_joints_independent big pos vel ps hl hist hr x
  refine ⟨c, c0, _, c', e1, e2, e3, by simp, fun i hi => ⟨_, by simp [hi]; rfl, ?_⟩⟩
  set p := ps[i]'(by omega) with hp
  set h' := hist.filterMap (forJoint big ⟨i, hi⟩) with hh
  have hpar : (PID.run (Pid.new p ⟨pos ⟨i, hi⟩, vel ⟨i, hi⟩⟩) h').params = p := by
    rw [(C13_in_force _ h').2.2]
    have : h'.filterMap parameters? = [] := by
      rw [List.filterMap_eq_nil_iff]
      intro o ho
      rw [hh, List.mem_filterMap] at ho
      obtain ⟨op, ho1, ho2⟩ := ho
      have := hg op ho1
      cases op with
      | computeControl x => simp only [forJoint, Option.some.injEq] at ho2; subst ho2; rfl
      | setDesiredPosition q => simp only [forJoint, Option.some.injEq] at ho2; subst ho2; rfl
      | setDesiredPositionOf q j =>
        simp only [forJoint] at ho2
        split at ho2
        · simp only [Option.some.injEq] at ho2; subst ho2; rfl
        · simp at ho2
      | setAllPIDGains kp ki kd => exact absurd rfl (this kp ki kd)
      | reset => simp only [forJoint, Option.some.injEq] at ho2; subst ho2; rfl
    rw [this]
    rfl
  have := C12_command_within_limits p ⟨pos ⟨i, hi⟩, vel ⟨i, hi⟩⟩ h' (.computeControl2 (x.getD i 0) (x.getD (n + i) 0)) _ _
    (by rw [hpar]; exact hlim p (List.getElem_mem _)) rfl
  rwa [hpar] at this

/-- Hypotheses: a robot with two joints, the second one with a limit of 1; after some calls. -/
example : (do
    let c ← JointPid.newEach (K := ℚ) 2 ![1, 2] ![0, 0] [⟨1, 0, 0, 1, 9, 9, -9⟩, ⟨5, 0, 1, 1, 9, 1, -1⟩]
    let c ← c.run 100 (n := 2) [.setDesiredPositionOf 3 0, .computeControl [0, 0, 0, 0], .reset]
    let r ← c.step 100 (n := 2) (.computeControl [1, 0, 0, 3])
    pure r.1) = .ok [some 2, some 1] := by decide +kernel

/-- C166 fails for `setAllPIDGains`: besides the gains it replaces the time step, the bound of the integral part and the
limits of the command by their defaults.  A joint limited to commands of at most 1 gets the command 20. -/
theorem C166_gains_violated : (do
    let c ← JointPid.newEach (K := ℚ) 1 ![2] ![0] [⟨1, 0, 0, 1, 1, 1, -1⟩]
    let c ← c.run 1000 (n := 1) [.setAllPIDGains 10 0 0]
    let r ← c.step 1000 (n := 1) (.computeControl [0, 0])
    pure r.1) = .ok [some 20] := by decide +kernel

/-- C166 fails for copies: a system with such a controller cannot be copied. -/
theorem C166_copy_violated {big : K} {w : World (JointPid K) (List K) K (List (Option K))} {s k : ℕ} {c : JointPid K}
    (hs : w.getController s = some k) (hk : w.ctls[k]? = some c) :
    letI : Zero (List (Option K)) := ⟨[]⟩
    w.step false (jointPidClass big n) (.copy s) = .exc := by
  simp only [World.getController, Option.bind_eq_bind, Option.bind_eq_some_iff] at hs
  obtain ⟨sy, e1, e2⟩ := hs
  simp only [World.step, Bool.false_eq_true, if_false, World.copyCont, idx, e1, e2, hk, Res.ok_bind, jointPidClass, Res.exc_bind]

example : ∃ w : World (JointPid ℚ) (List ℚ) ℚ (List (Option ℚ)), w.getController 0 = some 0
    ∧ w.ctls[0]? = some (JointPid.newAll (K := ℚ) 1 ![0] ![0] ⟨1, 0, 0, 1, 1, 1, -1⟩) :=
  ⟨⟨[_], [⟨some 0, none, fun x _ _ => x⟩]⟩, rfl, rfl⟩

/-- C166: the controller of a floating-base robot gives the joint controller the positions and velocities of the joints and
nothing of the base. -/
theorem C166_whole_body (kd : FloatSys.Kindr) (big : ℝ) (c : JointPid ℝ) (pose q vel dq : List ℝ) (h1 : pose.length = 6)
    (h2 : q.length = n) (h3 : vel.length = 6) (h4 : dq.length = n) :
    WholeBody.computeControl kd big n c (pose ++ q ++ vel ++ dq) = c.step big (n := n) (.computeControl (q ++ dq)) := by
  have e : ∀ (l : List ℝ) (f : Fin n → ℝ), l.length = n → (∀ i : Fin n, f i = l.getD i 0) → List.ofFn f = l := by
    intro l f hl hf
    apply List.ext_getElem (by simp [hl])
    intro i a b
    simp only [List.getElem_ofFn, hf, List.getD_eq_getElem?_getD, List.getElem?_eq_getElem b, Option.getD_some]
  simp only [WholeBody.computeControl, Robot.RBD.fromStateVectorEulerXyz]
  rw [e q _ h2, e dq _ h4]
  · intro i
    have hi := i.2
    rw [seg_getD, List.getD_eq_getElem?_getD, List.getD_eq_getElem?_getD, List.getElem?_append_right (by simp; omega)]
    congr 2
    simp
    omega
  · intro i
    have hi := i.2
    rw [seg_getD, List.getD_eq_getElem?_getD, List.getD_eq_getElem?_getD, List.append_assoc, List.append_assoc,
      List.getElem?_append_right (by omega), List.getElem?_append_left (by omega)]
    congr 2
    omega

example : ([0, 0, 0, 0, 0, 1] : List ℝ).length = 6 ∧ ([3] : List ℝ).length = 1 := ⟨rfl, rfl⟩

/-- C166: unless gains are set, the controller of a floating-base robot always commands zero. -/
theorem C166_whole_body_default (kd : FloatSys.Kindr) {big : ℝ} (hb : 0 ≤ big) (state : List ℝ) :
    ∃ c c', WholeBody.new big n = .ok c ∧ WholeBody.computeControl kd big n c state = .ok (List.replicate n (some 0), c') := by
  obtain ⟨c, e1, e2⟩ := new_joints (n := n) (fun _ => (0 : ℝ)) (fun _ => 0) (List.replicate n (gains big 0 0 0)) (by simp)
  refine ⟨c, _, e1, (each_eq e2 _).trans (congrArg Res.ok (Prod.ext ?_ rfl))⟩
  apply List.ext_getElem (by simp)
  intro i _ _
  have h1 : ¬ big < 0 := not_lt.2 hb
  have h2 : ¬ 0 < -big := by linarith
  simp [PID.step, Pid.compute2, Pid.new, gains, saturate, computeI, h1, hb]

example : (0 : ℝ) ≤ 1000 := by norm_num

/-! ### C168: set-point, step and constant controllers in a system -/

/-- C168: a set-point controller gives `uff + K (x - xref)` for the values of the last update, without gain just `uff`. -/
theorem C168_feedback {n m : ℕ} (c : Feedback n m) (uff : Fin m → ℝ) (xref : Fin n → ℝ) (K : Matrix (Fin m) (Fin n) ℝ)
    (x : Fin n → ℝ) (t : ℝ) :
    (∃ u c', (feedbackClass n m).compute (c.update uff xref K) x t = .ok (u, c')
      ∧ ∀ i, u i = uff i + ∑ j, K i j * (x j - xref j))
    ∧ (∃ c', (feedbackClass n m).compute (c.update uff xref) x t = .ok (uff, c'))
    ∧ ∃ c', (feedbackClass n m).compute (Feedback.zero n m) x t = .ok (0, c') := by
  refine ⟨⟨_, _, rfl, fun i => ?_⟩, ⟨c.update uff xref, ?_⟩, ⟨Feedback.zero n m, ?_⟩⟩
  · simp [Feedback.update, Matrix.mulVec, dotProduct]
  · simp [feedbackClass, Feedback.update]
  · simp [feedbackClass, Feedback.zero]

/-- C168: the step controller gives 0 before the time of the step and the gain from then on, in every system it controls. -/
theorem C168_step {w : World (ℝ × ℝ) ℝ ℝ ℝ} {s k : ℕ} {sy : Sys ℝ ℝ ℝ} {gain tStep : ℝ} (hs : w.syss[s]? = some sy)
    (hk : sy.ctl = some k) (hc : w.ctls[k]? = some (gain, tStep)) (x t : ℝ) :
    (t < tStep → w.derivative stepClass s x t = .ok (sy.f x t 0))
    ∧ (tStep ≤ t → w.derivative stepClass s x t = .ok (sy.f x t gain)) := by
  simp only [World.derivative, World.dynamics, idx, hs, hk, hc, Res.ok_bind, stepClass, Res.pure_eq]
  constructor
  · intro h
    simp [not_le.2 h]
  · intro h
    simp [h]

example : ∃ w : World (ℝ × ℝ) ℝ ℝ ℝ, ∃ sy, w.syss[0]? = some sy ∧ sy.ctl = some 0 ∧ w.ctls[0]? = some (2, 1) :=
  ⟨⟨[(2, 1)], [⟨some 0, none, fun x _ u => x + u⟩]⟩, _, rfl, rfl, rfl⟩

/-- C168: `getDerivativeU0` of a constant controller is the derivative of its control with respect to the constant. -/
theorem C168_constant {n m : ℕ} (u v : Fin m → ℝ) (x : Fin n → ℝ) (t h : ℝ) :
    (constantClass (Fin n → ℝ) ℝ (Fin m → ℝ)).compute (u + h • v) x t
      = .ok (u + h • (constantDerivativeU0 m u x t).mulVec v, u + h • v) := by
  simp [constantClass, constantDerivativeU0]

end CT.Ctl
