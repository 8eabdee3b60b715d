import Verif.Model.Robots.QuadrotorWithLoadSystem
import Verif.Props.Robots.QuadrotorWithLoadFd
import Verif.Props.Robots.QuadrotorWithLoadId
import Verif.Props.FloatingSystem

/-!
# C186: the quadrotor with load as a controlled system

Specification: `wrench` is what thrust and torques do to the body.
-/

namespace CT.Robots.QuadrotorWithLoad

open Matrix Spatial Articulated FrameJac OpJac FloatSys _root_.CT.Robot

/-- The thrust pushes the body along its z axis, the torques turn it about its axes; no force acts on the two links. -/
noncomputable def wrench (thrust : ℝ) (torque : V3) : Ext := fun i => if i = BODY then join torque ![0, 0, thrust] else 0

theorem wrench_body (th : ℝ) (tq : V3) : wrench th tq BODY = join tq ![0, 0, th] := rfl
theorem wrench_link1 (th : ℝ) (tq : V3) : wrench th tq LINK1 = 0 := rfl
theorem wrench_link2 (th : ℝ) (tq : V3) : wrench th tq LINK2 = 0 := rfl

theorem wrench_power (q qd w : Q) (u : V6) (th : ℝ) (tq : V3) :
    ((List.zipWith List.zip (branchesAt q qd (wrench th tq)) (split w)).map (power u)).sum = 0 := by
  simp [branchesAt, branches, split, power, wrench_link1, wrench_link2]

theorem mapControl_eq (control : List ℝ) : mapControl control (fun _ _ => 0) = wrench (control.getD 0 0) (seg control 1 3) := by
  funext i
  fin_cases i
  · funext k
    fin_cases k <;> rfl
  · rfl
  · rfl

/-- The damping of the joints. -/
noncomputable def damping (qd : Q) : Q := fun i => -0.0005 * qd i

/-- A system of the kind in `Verif.Model.FloatingSystem` with the same dynamics under one control. -/
noncomputable def asRob (rb : FRob 2 3 0) (control : List ℝ) : FRob 2 3 0 :=
  { rb with
    fd := fun q v g qd _ _ => rb.fd q v g qd (damping qd) (wrench (control.getD 0 0) (seg control 1 3)) }

theorem as_dynamics (kd : Kindr) (rb : FRob 2 3 0) (quat : Bool) (x control : List ℝ) :
    systemDynamics kd rb quat x control = (⟨quat, false, none⟩ : Sys 2 0).dynamics kd (asRob rb control) x [] := by
  rw [dynamics_eq, systemDynamics, mapControl_eq]
  rfl

/-- **C186, Euler angles.**  A motion whose state vector changes at the rate that the system with Euler angles computes is a motion
of the quadrotor with its load under thrust, torques, gravity and damping of the joints, away from the singularity of the angles. -/
theorem C186_euler {kd : Kindr} (hk : kd.Ok) (y : Robot) (ds : List Call) {x : ℝ → List ℝ} {t : ℝ} (control : List ℝ)
    (hx : LDeriv x (systemDynamics kd (rob y ds) false (x t) control) t) (hc : Real.cos ((x t).getD 1 0) ≠ 0) :
    Follows kd (rob y ds) (fun s => stateFrom kd false (x s)) (damping (stateFrom kd false (x t)).joints.vel)
      (wrench (control.getD 0 0) (seg control 1 3)) t := by
  rw [as_dynamics] at hx
  exact C139_euler (sy := ⟨false, false, none⟩) hk rfl [] hx hc

/-- **C186, quaternions.**  The same for the system with quaternions, along motions with unit quaternions. -/
theorem C186_quaternion {kd : Kindr} (hk : kd.Ok) (y : Robot) (ds : List Call) {x : ℝ → List ℝ} {t : ℝ} (control : List ℝ)
    (hx : LDeriv x (systemDynamics kd (rob y ds) true (x t) control) t) (hc : ∀ s, seg (x s) 0 4 ⬝ᵥ seg (x s) 0 4 = 1) :
    Follows kd (rob y ds) (fun s => stateFrom kd true (x s)) (damping (stateFrom kd true (x t)).joints.vel)
      (wrench (control.getD 0 0) (seg control 1 3)) t := by
  rw [as_dynamics] at hx
  exact C139_quaternion (sy := ⟨true, false, none⟩) hk rfl [] hx hc

/-- **C186, energy.**  Along every motion of the system (Euler angles, or unit quaternions) the sum of kinetic and potential energy changes by the
power of the thrust and of the torques less what the damping of the joints takes. -/
theorem C186_energy {kd : Kindr} (hk : kd.Ok) (z y : Robot) (cs ds : List Call) (quat : Bool) {x : ℝ → List ℝ} {t : ℝ}
    (thrust mx my mz : ℝ) (hx : LDeriv x (systemDynamics kd (rob y ds) quat (x t) [thrust, mx, my, mz]) t)
    (hc : if quat then ∀ s, seg (x s) 0 4 ⬝ᵥ seg (x s) 0 4 = 1 else Real.cos ((x t).getD 1 0) ≠ 0) :
    let S := fun s => stateFrom kd quat (x s)
    let R := fun s => rotationMatrix kd (S s).pose
    let V := fun s => join (S s).angVel (S s).linVel
    HasDerivAt (fun s => Sum.elim (V s) (S s).joints.vel ⬝ᵥ (((Robot.after z cs).jsim (S s).joints.pos).2 *ᵥ Sum.elim (V s) (S s).joints.vel) / 2
        + 9.81 * (lift (R s) (S s).pose.position Inertias.std.body
          + ((branchesAt (S s).joints.pos (S s).joints.vel 0).map (height (R s) (S s).pose.position)).sum))
      (thrust * (S t).linVel 2 + (mx * (S t).angVel 0 + my * (S t).angVel 1 + mz * (S t).angVel 2)
        - 0.0005 * ((S t).joints.vel JA ^ 2 + (S t).joints.vel JB ^ 2)) t := by
  intro S R V
  have hf : Follows kd (rob y ds) S (damping (S t).joints.vel) (wrench thrust ![mx, my, mz]) t := by
    have e : seg [thrust, mx, my, mz] 1 3 = ![mx, my, mz] := by funext i; fin_cases i <;> rfl
    cases quat
    · have := C186_euler hk y ds _ hx (by simpa using hc)
      rw [e] at this
      exact this
    · have := C186_quaternion hk y ds _ hx (by simpa using hc)
      rw [e] at this
      exact this
  obtain ⟨h1, h2, h3, h4, h5⟩ := hf
  have h := C136_QuadrotorWithLoad_fd z y cs ds (q := fun s => (S s).joints.pos) (qd := fun s => (S s).joints.vel) (R := R)
    (p := fun s => (S s).pose.position) (ω := fun s => (S s).angVel) (v := fun s => (S s).linVel) _ _ h3 h5 h1 h2 h4
  refine h.congr_deriv ?_
  rw [wrench_power, wrench_body]
  simp [join, damping, dotProduct, Fin.sum_univ_succ]
  ring

/-- Motions as in `C186_euler` and `C186_energy` exist through every state of the system with Euler angles. -/
example (kd : Kindr) (y : Robot) (ds : List Call) (x₀ control : List ℝ) (h : x₀.length = 16) :
    ∃ x : ℝ → List ℝ, x 0 = x₀ ∧ LDeriv x (systemDynamics kd (rob y ds) false (x 0) control) 0 := by
  have h0 : (List.ofFn fun i : Fin x₀.length => x₀.getD i 0) = x₀ := by
    apply List.ext_getElem <;> simp [List.getD]
  refine ⟨fun s => List.ofFn fun i : Fin x₀.length => x₀.getD i 0 + s * (systemDynamics kd (rob y ds) false x₀ control).getD i 0, ?_, ?_⟩
  · simp only [zero_mul, add_zero]; exact h0
  · simp only [zero_mul, add_zero, h0]
    exact LDeriv.line _ _ (by rw [h]; simp [systemDynamics, toDeriv, toEuler_length])

/-- Motions as in `C186_quaternion` and `C186_energy` exist, for instance through every state in which the body does not turn. -/
example {kd : Kindr} (hk : kd.Ok) (y : Robot) (ds : List Call) (x₀ control : List ℝ) (h : x₀.length = 17)
    (hu : seg x₀ 0 4 ⬝ᵥ seg x₀ 0 4 = 1) (hw : seg x₀ 9 3 = 0) :
    ∃ x : ℝ → List ℝ, x 0 = x₀ ∧ LDeriv x (systemDynamics kd (rob y ds) true (x 0) control) 0 ∧ ∀ s, seg (x s) 0 4 ⬝ᵥ seg (x s) 0 4 = 1 := by
  have h0 : (List.ofFn fun i : Fin x₀.length => x₀.getD i 0) = x₀ := by
    apply List.ext_getElem <;> simp [List.getD]
  have h1 : seg (systemDynamics kd (rob y ds) true x₀ control) 0 4 = 0 := by
    refine ((quat_segs (kd := kd) _ _).1).trans ?_
    rw [hk.quatDiff, show (stateFrom kd true x₀).angVel = 0 from hw]
    funext i
    fin_cases i <;> simp [quatMul]
  refine ⟨fun s => List.ofFn fun i : Fin x₀.length => x₀.getD i 0 + s * (systemDynamics kd (rob y ds) true x₀ control).getD i 0, ?_, ?_, ?_⟩
  · simp only [zero_mul, add_zero]; exact h0
  · simp only [zero_mul, add_zero, h0]
    exact LDeriv.line _ _ (by rw [h]; simp [systemDynamics, toDeriv, toQuat_length])
  · intro s
    have : seg (List.ofFn fun i : Fin x₀.length => x₀.getD i 0 + s * (systemDynamics kd (rob y ds) true x₀ control).getD i 0) 0 4 = seg x₀ 0 4 := by
      funext i
      have hi : i.val < x₀.length := by omega
      have := congrFun h1 i
      simp only [seg, Nat.zero_add, Pi.zero_apply] at this ⊢
      rw [List.getD, List.getElem?_ofFn, dif_pos hi, Option.getD_some]
      simp only [this, mul_zero, add_zero]
    rw [this, hu]

/-! ### Response to the control -/

/-- A wrench on the body enters the forces of `id_fully_actuated` once. -/
theorem full_wrench (z : Robot) (cs : List Call) (q : Q) (g v a : V6) (qd x : Q) (th : ℝ) (tq : V3) :
    ((Robot.after z cs).id_full q g v a qd x (wrench th tq)).2
      = (((Robot.after z cs).id_full q g v a qd x 0).2.1 - join tq ![0, 0, th], ((Robot.after z cs).id_full q g v a qd x 0).2.2) := by
  have key : ∀ (u : V6) (w : Q), u ⬝ᵥ ((Robot.after z cs).id_full q g v a qd x 0).2.1 + w ⬝ᵥ ((Robot.after z cs).id_full q g v a qd x 0).2.2
      = u ⬝ᵥ ((Robot.after z cs).id_full q g v a qd x (wrench th tq)).2.1 + w ⬝ᵥ ((Robot.after z cs).id_full q g v a qd x (wrench th tq)).2.2
        + u ⬝ᵥ join tq ![0, 0, th] := fun u w => by
    have h := C135_QuadrotorWithLoad z z cs cs q g v a u qd x w (wrench th tq)
    rw [h, wrench_power, wrench_body, add_zero]
  refine Prod.ext (dotProduct_eq _ _ fun u => ?_) (dotProduct_eq _ _ fun w => ?_)
  · have := key u 0
    rw [zero_dotProduct, zero_dotProduct] at this
    show _ = (_ - _) ⬝ᵥ u
    rw [sub_dotProduct, dotProduct_comm, dotProduct_comm _ u, dotProduct_comm _ u]
    linarith
  · have := key 0 w
    simp only [zero_dotProduct] at this
    show _ = _ ⬝ᵥ w
    rw [dotProduct_comm, dotProduct_comm _ w]
    linarith

/-- **C186, response.**  A change of thrust and torques changes the accelerations of body and joints such that their product with the
joint space inertia matrix is the change of the wrench on the body; nothing else determines it, as the matrix is invertible. -/
theorem C186_response (z y : Robot) (cs ds : List Call) (q : Q) (g v : V6) (qd tau : Q) (th th' : ℝ) (tq tq' : V3) (a : V6) (x : Q) :
    ((Robot.after z cs).jsim q).2 *ᵥ Sum.elim a x = Sum.elim (join (tq' - tq) ![0, 0, th' - th]) 0
    ↔ ((rob y ds).fd q v g qd tau (wrench th' tq')).1 = ((rob y ds).fd q v g qd tau (wrench th tq)).1 + a
      ∧ ((rob y ds).fd q v g qd tau (wrench th' tq')).2 = ((rob y ds).fd q v g qd tau (wrench th tq)).2 + x := by
  obtain ⟨b, hb⟩ : ∃ b, (rob y ds).fd q v g qd tau (wrench th tq) = b := ⟨_, rfl⟩
  rw [hb]
  have e1 := (C125_QuadrotorWithLoad_fd z y cs ds q g v b.1 qd tau b.2 _).2 hb.symm
  have e2 := C125_QuadrotorWithLoad_fd z y cs ds q g v (b.1 + a) qd tau (b.2 + x) (wrench th' tq')
  rw [full_wrench] at e1 e2
  obtain ⟨f1, f2⟩ := Prod.mk.inj e1
  have f1 := sub_eq_zero.1 f1
  have c1 := C126_QuadrotorWithLoad z z z z cs cs cs cs q g v b.1 qd b.2
  have c2 := C126_QuadrotorWithLoad z z z z cs cs cs cs q g v (b.1 + a) qd (b.2 + x)
  have e4 : Sum.elim (b.1 + a) (b.2 + x) = Sum.elim b.1 b.2 + Sum.elim a x := by
    funext i; cases i <;> rfl
  rw [e4, mulVec_add] at c2
  have c3 : Sum.elim ((Robot.after z cs).id_full q g v (b.1 + a) qd (b.2 + x) 0).2.1 ((Robot.after z cs).id_full q g v (b.1 + a) qd (b.2 + x) 0).2.2
      = Sum.elim (join tq ![0, 0, th]) tau + ((Robot.after z cs).jsim q).2 *ᵥ Sum.elim a x := by
    rw [← f1, ← f2, c1, c2]
    abel
  have c4 : ∀ (l : V6) (r : Q), Sum.elim l r = Sum.elim (join tq ![0, 0, th]) tau + ((Robot.after z cs).jsim q).2 *ᵥ Sum.elim a x →
      (((Robot.after z cs).jsim q).2 *ᵥ Sum.elim a x = Sum.elim (join (tq' - tq) ![0, 0, th' - th]) 0 ↔ l = join tq' ![0, 0, th'] ∧ r = tau) := by
    intro l r h
    have hj : (Sum.elim (join (tq' - tq) ![0, 0, th' - th]) 0 : Fin 6 ⊕ Fin 2 → ℝ)
        = Sum.elim (join tq' ![0, 0, th']) tau - Sum.elim (join tq ![0, 0, th]) tau := by
      funext i
      cases i with
      | inl i => fin_cases i <;> simp [join]
      | inr i => simp
    rw [hj, eq_sub_iff_add_eq', ← h]
    constructor
    · intro hh
      exact ⟨funext fun i => congrFun hh (.inl i), funext fun i => congrFun hh (.inr i)⟩
    · rintro ⟨rfl, rfl⟩; rfl
  rw [c4 _ _ c3]
  rw [Prod.mk.injEq, sub_eq_zero] at e2
  rw [e2]
  show (b.1 + a, b.2 + x) = (rob y ds).fd q v g qd tau (wrench th' tq') ↔ _
  rw [Prod.ext_iff]
  exact ⟨fun h => ⟨h.1.symm, h.2.symm⟩, fun h => ⟨h.1.symm, h.2.symm⟩⟩

/-- Products with the inertia matrix from the kinetic energy. -/
theorem jsim_mulVec (z : Robot) (cs : List Call) (q : Q) (v : V6) (x : Q) (f : V6) (m : Q)
    (h : ∀ (u : V6) (γ δ : ℝ), kin (Real.cos (q JA)) (Real.sin (q JA)) (Real.cos (q JB)) (Real.sin (q JB)) (v + u) (x JA + γ) (x JB + δ)
      = kin (Real.cos (q JA)) (Real.sin (q JA)) (Real.cos (q JB)) (Real.sin (q JB)) v (x JA) (x JB)
        + kin (Real.cos (q JA)) (Real.sin (q JA)) (Real.cos (q JB)) (Real.sin (q JB)) u γ δ
        + 2 * (u 0 * f 0 + u 1 * f 1 + u 2 * f 2 + u 3 * f 3 + u 4 * f 4 + u 5 * f 5 + γ * m JA + δ * m JB)) :
    ((Robot.after z cs).jsim q).2 *ᵥ Sum.elim v x = Sum.elim f m := by
  have hs := C127_QuadrotorWithLoad_partial z cs q
  refine dotProduct_eq _ _ fun w => ?_
  have e1 := jsim_quad z cs q v x
  have e2 := jsim_quad z cs q (w ∘ Sum.inl) (w ∘ Sum.inr)
  have e3 := jsim_quad z cs q (v + w ∘ Sum.inl) (x + w ∘ Sum.inr)
  have e4 : Sum.elim (v + w ∘ Sum.inl) (x + w ∘ Sum.inr) = Sum.elim v x + w := by
    funext i; cases i <;> rfl
  rw [Sum.elim_comp_inl_inr] at e2
  rw [e4, mulVec_add, add_dotProduct, dotProduct_add, dotProduct_add, e1, e2] at e3
  have e5 : Sum.elim v x ⬝ᵥ (((Robot.after z cs).jsim q).2 *ᵥ w) = w ⬝ᵥ (((Robot.after z cs).jsim q).2 *ᵥ Sum.elim v x) := by
    rw [dotProduct_mulVec, ← mulVec_transpose, hs, dotProduct_comm]
  have e6 := h (w ∘ Sum.inl) (w (.inr JA)) (w (.inr JB))
  have e7 : w ⬝ᵥ Sum.elim f m = w (.inl 0) * f 0 + w (.inl 1) * f 1 + w (.inl 2) * f 2 + w (.inl 3) * f 3 + w (.inl 4) * f 4 + w (.inl 5) * f 5
      + w (.inr JA) * m JA + w (.inr JB) * m JB := by
    simp [dotProduct, Fintype.sum_sum_type, Fin.sum_univ_succ]
    ring
  rw [dotProduct_comm, dotProduct_comm _ w, e7]
  rw [e5] at e3
  simp only [Pi.add_apply, Function.comp_apply] at e3 e6
  rw [e6] at e3
  linarith

theorem rest_fall (y : Robot) (ds : List Call) (q : Q) (g : V6) : (rob y ds).fd q 0 g 0 0 0 = (g, 0) := by
  refine ((C125_QuadrotorWithLoad_fd y y ds ds q g 0 g 0 0 0 0).1 ?_).symm
  have h := full_eq (inv_after y ds) q g 0 g 0 0 0
  have h0 : ∀ I : M6, vxIv 0 I = 0 := fun I => by
    funext i; fin_cases i <;> simp [vxIv]
  have hc : ∀ (j : Joint) , j.qd = 0 → j.cor 0 = 0 := fun j hj => by
    funext i; fin_cases i <;> simp [Joint.cor, hj]
  have h1 : idFull (baseAt 0 0) g g (List.zipWith List.zip (branchesAt q 0 0) (split 0)) = (0, split 0) := by
    simp [idFull, baseAt, branchesAt, branches, split, rnea, addF, Joint.vel, bump, h0, hc]
  rw [h1, split_pair split_inj] at h
  exact h

/-- **C186, hover.**  Level, at rest with hanging rod and with a thrust of the weight of all three bodies, nothing moves, whatever the
position, the heading `yaw` and the angle `qa` of the first joint. -/
theorem C186_hover {kd : Kindr} (hk : kd.Ok) (y : Robot) (ds : List Call) (px py pz yaw qa : ℝ) :
    ∀ d ∈ systemDynamics kd (rob y ds) false [0, 0, yaw, px, py, pz, qa, 0, 0, 0, 0, 0, 0, 0, 0, 0] [(0.5 + 0.025 + 0.1) * 9.81, 0, 0, 0], d = 0 := by
  obtain ⟨s, hs⟩ : ∃ s, stateFrom kd false [0, 0, yaw, px, py, pz, qa, 0, 0, 0, 0, 0, 0, 0, 0, 0] = s := ⟨_, rfl⟩
  have hp : s.joints.pos = ![qa, 0] := by rw [← hs]; funext i; fin_cases i <;> rfl
  have hv : s.joints.vel = 0 := by rw [← hs]; funext i; fin_cases i <;> rfl
  have hw : s.angVel = 0 := by rw [← hs]; funext i; fin_cases i <;> rfl
  have hl : s.linVel = 0 := by rw [← hs]; funext i; fin_cases i <;> rfl
  have he : s.pose.getEuler kd.conv = ![0, 0, yaw] := by rw [← hs]; funext i; fin_cases i <;> rfl
  have ht : twist s = 0 := by rw [twist, hw, hl]; funext i; fin_cases i <;> rfl
  have hg : gravityB6D kd s.pose = join 0 ![0, 0, -9.81] := by
    have : rotateInertiaToBase kd s.pose gravity3DW = ![0, 0, -9.81] := by
      have h1 : s.pose.storedAsEuler = true := by rw [← hs]; rfl
      have h2 : s.pose.euler = ![0, 0, yaw] := by rw [← hs]; funext i; fin_cases i <;> rfl
      rw [rotateInertiaToBase, if_pos h1, hk.eulerRot, h2, gravity3DW]
      funext i
      fin_cases i <;> simp [rotXYZ, rotX, rotY, rotZ, mulVec, dotProduct, Fin.sum_univ_succ]
    rw [gravityB6D, this]
    rfl
  have hd : damping 0 = 0 := by funext i; simp [damping]
  have h0 : wrench 0 0 = 0 := by
    funext i
    fin_cases i
    · funext k; fin_cases k <;> rfl
    · rfl
    · rfl
  have hM : ((Robot.after y ds).jsim ![qa, 0]).2 *ᵥ Sum.elim (-(join 0 ![0, 0, -9.81])) 0
      = Sum.elim (join ((0 : V3) - 0) ![0, 0, (0.5 + 0.025 + 0.1) * 9.81 - 0]) 0 := by
    refine jsim_mulVec _ _ _ _ _ _ _ fun u γ δ => ?_
    simp [kin, join]
    ring
  obtain ⟨r1, r2⟩ := (C186_response y y ds ds ![qa, 0] (join 0 ![0, 0, -9.81]) 0 0 0 0 ((0.5 + 0.025 + 0.1) * 9.81) 0 0 _ _).1 hM
  rw [h0, rest_fall] at r1 r2
  have hf : (rob y ds).fd ![qa, 0] 0 (join 0 ![0, 0, -9.81]) 0 0 (wrench ((0.5 + 0.025 + 0.1) * 9.81) 0) = (0, 0) :=
    Prod.ext (r1.trans (add_neg_cancel _)) (r2.trans (add_zero _))
  have hc : seg [(0.5 + 0.025 + 0.1) * 9.81, 0, 0, (0 : ℝ)] 1 3 = 0 := by funext i; fin_cases i <;> rfl
  have hfd : forwardDynamics kd (rob y ds) s (damping s.joints.vel) (wrench ((0.5 + 0.025 + 0.1) * 9.81) 0) Acc.zero = Acc.zero := by
    rw [forwardDynamics, hp, hv, ht, hg, hd, hf]
    simp only [Acc.setBase, Acc.zero, Acc.mk.injEq]
    refine ⟨?_, ?_, rfl⟩ <;> (funext i; fin_cases i <;> rfl)
  have hrate : kd.eulerDiff ![0, 0, yaw] 0 = 0 := by
    rw [hk.eulerDiff_eq _ _ (by simp)]
    funext i; fin_cases i <;> simp [eulerRate]
  have key : systemDynamics kd (rob y ds) false [0, 0, yaw, px, py, pz, qa, 0, 0, 0, 0, 0, 0, 0, 0, 0] [(0.5 + 0.025 + 0.1) * 9.81, 0, 0, 0]
      = (Acc.zero : Acc 2).toEuler kd s := by
    rw [systemDynamics, mapControl_eq, hc, hs]
    show toDeriv kd false (forwardDynamics kd (rob y ds) s (damping s.joints.vel) (wrench ((0.5 + 0.025 + 0.1) * 9.81) 0) Acc.zero) s = _
    rw [hfd]
    rfl
  have hb : rotateBaseToInertia kd s.pose 0 = 0 := by
    rw [rotateBaseToInertia]; split_ifs <;> simp
  intro d hmem
  rw [key, Acc.toEuler, he, hw, hl, hv, hrate, hb] at hmem
  simp only [List.mem_append, List.mem_ofFn, Acc.zero, Pi.zero_apply] at hmem
  aesop

/-- **C186, response violated.**  When the rod is horizontal (second joint at a right angle), more thrust along the z axis of the body
accelerates the body *against* the thrust: one newton more takes 1/489.375 m/s² away from the acceleration along that axis, whatever the pose and
the velocities.  The inertias of the links are given about their centres of mass where the code expects them about the joints. -/
theorem C186_response_violated (kd : Kindr) (y : Robot) (ds : List Call) (x : List ℝ) (hA : x.getD 6 0 = 0) (hB : x.getD 7 0 = Real.pi / 2)
    (thrust dt mx my mz : ℝ) :
    (systemDynamics kd (rob y ds) false x [thrust + dt, mx, my, mz]).getD 13 0
      = (systemDynamics kd (rob y ds) false x [thrust, mx, my, mz]).getD 13 0 - dt / 489.375 := by
  obtain ⟨s, hs⟩ : ∃ s, stateFrom kd false x = s := ⟨_, rfl⟩
  have hp : s.joints.pos = ![0, Real.pi / 2] := by
    rw [← hs]
    funext i
    fin_cases i
    · exact hA
    · exact hB
  have hM : ((Robot.after y ds).jsim ![0, Real.pi / 2]).2 *ᵥ Sum.elim (join 0 ![0, 0, -dt / 489.375]) ![0, 14000 * dt / 489.375]
      = Sum.elim (join (![mx, my, mz] - ![mx, my, mz]) ![0, 0, thrust + dt - thrust]) 0 := by
    refine jsim_mulVec _ _ _ _ _ _ _ fun u γ δ => ?_
    simp [kin, join]
    ring
  have r := ((C186_response y y ds ds ![0, Real.pi / 2] (gravityB6D kd s.pose) (twist s) s.joints.vel (damping s.joints.vel) thrust (thrust + dt)
    ![mx, my, mz] ![mx, my, mz] _ _).1 hM).1
  have hget : ∀ th : ℝ, (systemDynamics kd (rob y ds) false x [th, mx, my, mz]).getD 13 0
      = ((rob y ds).fd ![0, Real.pi / 2] (twist s) (gravityB6D kd s.pose) s.joints.vel (damping s.joints.vel) (wrench th ![mx, my, mz])).1 5 := by
    intro th
    have e : seg [th, mx, my, mz] 1 3 = ![mx, my, mz] := by funext i; fin_cases i <;> rfl
    rw [systemDynamics, mapControl_eq, e, hs, ← hp]
    have := congrFun (euler_segs (kd := kd) (forwardDynamics kd (rob y ds) s (damping s.joints.vel) (wrench th ![mx, my, mz]) Acc.zero) s).2.2.2.2.1 2
    exact this
  rw [hget, hget, r, Pi.add_apply]
  show _ + -dt / 489.375 = _
  ring

/-- A conversion as in `C186_hover` and a state as in `C186_response_violated`. -/
example (cv : Conv ℝ) : (stdKindr cv).Ok ∧ ∃ x : List ℝ, x.getD 6 0 = 0 ∧ x.getD 7 0 = Real.pi / 2 :=
  ⟨stdKindr_ok cv, [0, 0, 0, 0, 0, 1, 0, Real.pi / 2, 0, 0, 0, 0, 0, 0, 0, 0], rfl, rfl⟩

/-! ### C140 -/

/-- **C140 (QuadrotorWithLoad).**  Forward and inverse dynamics in the base class `Dynamics` undo each other, for every state, every
link forces and whatever the result objects held. -/
theorem C140_QuadrotorWithLoad (y : Robot) (ds : List Call) (kd : Kindr) (s : _root_.CT.Robot.RBD ℝ 2) (lf : Ext) (xd : Acc 2) :
    (∀ u, let a := forwardDynamics kd (rob y ds) s u lf xd
      inverseDynamics kd (rob y ds) s a.joints lf = ((a.ang, a.lin), u))
    ∧ ∀ qdd, let r := inverseDynamics kd (rob y ds) s qdd lf
      forwardDynamics kd (rob y ds) s r.2 lf xd = ⟨r.1.1, r.1.2, qdd⟩ := by
  constructor
  · intro u a
    obtain ⟨b, hb⟩ : ∃ b, (rob y ds).fd s.joints.pos (twist s) (gravityB6D kd s.pose) s.joints.vel u lf = b := ⟨_, rfl⟩
    have e1 := (C125_QuadrotorWithLoad_fd y y ds ds s.joints.pos (gravityB6D kd s.pose) (twist s) b.1 s.joints.vel u b.2 lf).2 hb.symm
    have e2 := (C125_QuadrotorWithLoad_id y y ds ds s.joints.pos (gravityB6D kd s.pose) (twist s) b.1 s.joints.vel u b.2 lf).1 e1
    have ha : a = Acc.setBase { xd with joints := b.2 } b.1 := by
      show forwardDynamics kd (rob y ds) s u lf xd = _
      rw [forwardDynamics, hb]
    rw [ha, inverseDynamics, show (rob y ds).idyn s.joints.pos (gravityB6D kd s.pose) (twist s) s.joints.vel
      (Acc.setBase { xd with joints := b.2 } b.1).joints lf = (b.1, u) from e2.symm]
    rfl
  · intro qdd r
    obtain ⟨b, hb⟩ : ∃ b, (rob y ds).idyn s.joints.pos (gravityB6D kd s.pose) (twist s) s.joints.vel qdd lf = b := ⟨_, rfl⟩
    have e1 := (C125_QuadrotorWithLoad_id y y ds ds s.joints.pos (gravityB6D kd s.pose) (twist s) b.1 s.joints.vel b.2 qdd lf).2 hb.symm
    have e2 := (C125_QuadrotorWithLoad_fd y y ds ds s.joints.pos (gravityB6D kd s.pose) (twist s) b.1 s.joints.vel b.2 qdd lf).1 e1
    have hr : r = ((![b.1 0, b.1 1, b.1 2], ![b.1 3, b.1 4, b.1 5]), b.2) := by
      show inverseDynamics kd (rob y ds) s qdd lf = _
      rw [inverseDynamics, hb]
    rw [hr, forwardDynamics, show (rob y ds).fd s.joints.pos (twist s) (gravityB6D kd s.pose) s.joints.vel
      ((![b.1 0, b.1 1, b.1 2], ![b.1 3, b.1 4, b.1 5]), b.2).2 lf = (b.1, qdd) from e2.symm]
    rfl

end CT.Robots.QuadrotorWithLoad
