import Verif.Model.Robots.Systems
import Verif.Props.RbdLinearizer
import Verif.Props.Robots.InvertedPendulumPower
import Verif.Props.Robots.DoubleInvertedPendulumPower
import Verif.Props.Robots.HyAPower
import Verif.Props.Robots.HyQPower

/-!
# C137, C139, C140: the rigid body systems of the robots
-/

namespace CT.Robots

open Matrix Spatial Articulated FrameJac OpJac RbdLin FloatSys

/-- If joint forces are affine in the accelerations without external forces, and the external forces act through
virtual work, then changes of accelerations and forces are related by the inertia matrix under every external force. -/
theorem diff_of_power {ι : Type} [Fintype ι] [DecidableEq ι] {M : Matrix ι ι ℝ} {b : ι → ℝ} {I0 I1 : (ι → ℝ) → ι → ℝ} (P : (ι → ℝ) → ℝ)
    (h0 : ∀ a, I0 a = M *ᵥ a + b) (h1 : ∀ a x, x ⬝ᵥ I0 a = x ⬝ᵥ I1 a + P x) (a a' : ι → ℝ) :
    M *ᵥ (a' - a) = I1 a' - I1 a := by
  have key : ∀ x, x ⬝ᵥ (M *ᵥ (a' - a)) = x ⬝ᵥ (I1 a' - I1 a) := by
    intro x
    have e1 := h1 a x
    have e2 := h1 a' x
    rw [h0, dotProduct_add] at e1 e2
    rw [mulVec_sub, dotProduct_sub, dotProduct_sub]
    linarith
  exact dotProduct_eq _ _ fun x => by rw [dotProduct_comm, key, dotProduct_comm]

theorem InvertedPendulum.diff (z y : InvertedPendulum.Robot) (cs ds : List InvertedPendulum.Call) (q qd tau tau' : Fin 1 → ℝ) (lf : ℕ → V6) :
    ((InvertedPendulum.Robot.after z cs).jsim q).2 *ᵥ ((InvertedPendulum.rob y ds).fd ⟨q, qd⟩ tau' lf - (InvertedPendulum.rob y ds).fd ⟨q, qd⟩ tau lf) = tau' - tau := by
  obtain ⟨a, ha⟩ : ∃ a, (InvertedPendulum.rob y ds).fd ⟨q, qd⟩ tau lf = a := ⟨_, rfl⟩
  obtain ⟨a', ha'⟩ : ∃ a, (InvertedPendulum.rob y ds).fd ⟨q, qd⟩ tau' lf = a := ⟨_, rfl⟩
  rw [ha, ha']
  have e1 := (InvertedPendulum.C124_InvertedPendulum z y cs ds q qd tau a fun i => lf i).2 ha.symm
  have e2 := (InvertedPendulum.C124_InvertedPendulum z y cs ds q qd tau' a' fun i => lf i).2 ha'.symm
  rw [← e1, ← e2]
  exact diff_of_power _ (fun a => (InvertedPendulum.C126_InvertedPendulum z z z z cs cs cs cs q qd a).trans (add_assoc _ _ _))
    (fun a x => InvertedPendulum.C135_InvertedPendulum z z cs cs q qd a x fun i => lf i) a a'

/-- **C137 (inverted pendulum).**  The control Jacobian of the linearizer describes the dependence of the system on the joint
forces exactly, whatever was called before on the linearizer and on the generated algorithms. -/
theorem C137_InvertedPendulum (z y : InvertedPendulum.Robot) (ks ds : List InvertedPendulum.Call) (ev : Env 1 1) (hf : ev.floatingBase = false)
    (hS : selection 1 1 false = .ok ev.S) (hl : LltOk ev.llt) (hM : ev.M = fun q => ((InvertedPendulum.Robot.after z ks).jsim q).2)
    (num : NumDiff.Linearizer (1 + 1) 1 ℝ) (so : Bool) (cs : List (Call 1 1)) (x : Fin (1 + 1) → ℝ) (u u' : Fin 1 → ℝ)
    (t : ℝ) (d : List ℝ) (hd : d.length = 2 * 1) :
    ∃ f f' : Fin (1 + 1) → ℝ,
      (InvertedPendulum.rob y ds).fdDynamics (none : Option (Actuator.Act 1 0)) (List.ofFn x) t (List.ofFn u) d = .ok (List.ofFn f)
      ∧ (InvertedPendulum.rob y ds).fdDynamics (none : Option (Actuator.Act 1 0)) (List.ofFn x) t (List.ofFn u') d = .ok (List.ofFn f')
      ∧ f' = f + (ev.after num so (cs ++ [.control x u t])).dFdu *ᵥ (u' - u) :=
  C137_fixed ev hf hS hl (InvertedPendulum.rob y ds) (fun q => by rw [hM]; exact (InvertedPendulum.C127_InvertedPendulum z ks q).1)
    (fun q => by rw [hM]; exact (InvertedPendulum.C127_InvertedPendulum z ks q).2)
    (fun q v tau tau' lf => by rw [hM]; exact InvertedPendulum.diff z y ks ds q v tau tau' lf) num so cs x u u' t d hd

theorem DoubleInvertedPendulum.diff (z y : DoubleInvertedPendulum.Robot) (cs ds : List DoubleInvertedPendulum.Call) (q qd tau tau' : Fin 2 → ℝ) (lf : ℕ → V6) :
    ((DoubleInvertedPendulum.Robot.after z cs).jsim q).2 *ᵥ ((DoubleInvertedPendulum.rob y ds).fd ⟨q, qd⟩ tau' lf - (DoubleInvertedPendulum.rob y ds).fd ⟨q, qd⟩ tau lf) = tau' - tau := by
  obtain ⟨a, ha⟩ : ∃ a, (DoubleInvertedPendulum.rob y ds).fd ⟨q, qd⟩ tau lf = a := ⟨_, rfl⟩
  obtain ⟨a', ha'⟩ : ∃ a, (DoubleInvertedPendulum.rob y ds).fd ⟨q, qd⟩ tau' lf = a := ⟨_, rfl⟩
  rw [ha, ha']
  have e1 := (DoubleInvertedPendulum.C124_DoubleInvertedPendulum z y cs ds q qd tau a fun i => lf i).2 ha.symm
  have e2 := (DoubleInvertedPendulum.C124_DoubleInvertedPendulum z y cs ds q qd tau' a' fun i => lf i).2 ha'.symm
  rw [← e1, ← e2]
  exact diff_of_power _ (fun a => (DoubleInvertedPendulum.C126_DoubleInvertedPendulum z z z z cs cs cs cs q qd a).trans (add_assoc _ _ _))
    (fun a x => DoubleInvertedPendulum.C135_DoubleInvertedPendulum z z cs cs q qd a x fun i => lf i) a a'

/-- **C137 (double inverted pendulum).**  The control Jacobian of the linearizer describes the dependence of the system on the joint
forces exactly, whatever was called before on the linearizer and on the generated algorithms. -/
theorem C137_DoubleInvertedPendulum (z y : DoubleInvertedPendulum.Robot) (ks ds : List DoubleInvertedPendulum.Call) (ev : Env 2 2) (hf : ev.floatingBase = false)
    (hS : selection 2 2 false = .ok ev.S) (hl : LltOk ev.llt) (hM : ev.M = fun q => ((DoubleInvertedPendulum.Robot.after z ks).jsim q).2)
    (num : NumDiff.Linearizer (2 + 2) 2 ℝ) (so : Bool) (cs : List (Call 2 2)) (x : Fin (2 + 2) → ℝ) (u u' : Fin 2 → ℝ)
    (t : ℝ) (d : List ℝ) (hd : d.length = 2 * 2) :
    ∃ f f' : Fin (2 + 2) → ℝ,
      (DoubleInvertedPendulum.rob y ds).fdDynamics (none : Option (Actuator.Act 2 0)) (List.ofFn x) t (List.ofFn u) d = .ok (List.ofFn f)
      ∧ (DoubleInvertedPendulum.rob y ds).fdDynamics (none : Option (Actuator.Act 2 0)) (List.ofFn x) t (List.ofFn u') d = .ok (List.ofFn f')
      ∧ f' = f + (ev.after num so (cs ++ [.control x u t])).dFdu *ᵥ (u' - u) :=
  C137_fixed ev hf hS hl (DoubleInvertedPendulum.rob y ds) (fun q => by rw [hM]; exact (DoubleInvertedPendulum.C127_DoubleInvertedPendulum z ks q).1)
    (fun q => by rw [hM]; exact (DoubleInvertedPendulum.C127_DoubleInvertedPendulum z ks q).2)
    (fun q v tau tau' lf => by rw [hM]; exact DoubleInvertedPendulum.diff z y ks ds q v tau tau' lf) num so cs x u u' t d hd

theorem HyA.diff (z y : HyA.Robot) (cs ds : List HyA.Call) (q qd tau tau' : Fin 6 → ℝ) (lf : ℕ → V6) :
    ((HyA.Robot.after z cs).jsim q).2 *ᵥ ((HyA.rob y ds).fd ⟨q, qd⟩ tau' lf - (HyA.rob y ds).fd ⟨q, qd⟩ tau lf) = tau' - tau := by
  obtain ⟨a, ha⟩ : ∃ a, (HyA.rob y ds).fd ⟨q, qd⟩ tau lf = a := ⟨_, rfl⟩
  obtain ⟨a', ha'⟩ : ∃ a, (HyA.rob y ds).fd ⟨q, qd⟩ tau' lf = a := ⟨_, rfl⟩
  rw [ha, ha']
  have e1 := (HyA.C124_HyA z y cs ds q qd tau a fun i => lf i).2 ha.symm
  have e2 := (HyA.C124_HyA z y cs ds q qd tau' a' fun i => lf i).2 ha'.symm
  rw [← e1, ← e2]
  exact diff_of_power _ (fun a => (HyA.C126_HyA z z z z cs cs cs cs q qd a).trans (add_assoc _ _ _))
    (fun a x => HyA.C135_HyA z z cs cs q qd a x fun i => lf i) a a'

/-- **C137 (HyA).**  The control Jacobian of the linearizer describes the dependence of the system on the joint
forces exactly, whatever was called before on the linearizer and on the generated algorithms. -/
theorem C137_HyA (z y : HyA.Robot) (ks ds : List HyA.Call) (ev : Env 6 6) (hf : ev.floatingBase = false)
    (hS : selection 6 6 false = .ok ev.S) (hl : LltOk ev.llt) (hM : ev.M = fun q => ((HyA.Robot.after z ks).jsim q).2)
    (num : NumDiff.Linearizer (6 + 6) 6 ℝ) (so : Bool) (cs : List (Call 6 6)) (x : Fin (6 + 6) → ℝ) (u u' : Fin 6 → ℝ)
    (t : ℝ) (d : List ℝ) (hd : d.length = 2 * 6) :
    ∃ f f' : Fin (6 + 6) → ℝ,
      (HyA.rob y ds).fdDynamics (none : Option (Actuator.Act 6 0)) (List.ofFn x) t (List.ofFn u) d = .ok (List.ofFn f)
      ∧ (HyA.rob y ds).fdDynamics (none : Option (Actuator.Act 6 0)) (List.ofFn x) t (List.ofFn u') d = .ok (List.ofFn f')
      ∧ f' = f + (ev.after num so (cs ++ [.control x u t])).dFdu *ᵥ (u' - u) :=
  C137_fixed ev hf hS hl (HyA.rob y ds) (fun q => by rw [hM]; exact (HyA.C127_HyA z ks q).1)
    (fun q => by rw [hM]; exact (HyA.C127_HyA z ks q).2)
    (fun q v tau tau' lf => by rw [hM]; exact HyA.diff z y ks ds q v tau tau' lf) num so cs x u u' t d hd

/-! ### HyQ -/

theorem append_sum {a b : ℕ} (x : Fin a → ℝ) (y : Fin b → ℝ) : Fin.append x y ∘ finSumFinEquiv = Sum.elim x y := by
  funext k
  cases k with
  | inl k => simp [finSumFinEquiv]
  | inr k => simp [finSumFinEquiv]

theorem HyQ.inertia_mulVec (z : HyQ.Robot) (cs : List HyQ.Call) (q : Fin 12 → ℝ) (x : Fin (6 + 12) → ℝ) :
    HyQ.inertia z cs q *ᵥ x = (((HyQ.Robot.after z cs).jsim q).2 *ᵥ (x ∘ finSumFinEquiv)) ∘ finSumFinEquiv.symm := by
  rw [HyQ.inertia, submatrix_mulVec_equiv]
  rfl

theorem HyQ.inertia_ok (z : HyQ.Robot) (cs : List HyQ.Call) (q : Fin 12 → ℝ) :
    (HyQ.inertia z cs q)ᵀ = HyQ.inertia z cs q ∧ ∀ x, x ≠ 0 → 0 < x ⬝ᵥ (HyQ.inertia z cs q *ᵥ x) := by
  obtain ⟨h1, h2⟩ := HyQ.C127_HyQ z cs q
  refine ⟨by rw [HyQ.inertia, transpose_submatrix, h1], fun x hx => ?_⟩
  rw [HyQ.inertia_mulVec, ← comp_equiv_symm_dotProduct, Equiv.symm_symm]
  refine h2 _ fun h => hx ?_
  funext k
  have := congrFun h (finSumFinEquiv.symm k)
  simpa using this

theorem HyQ.diff {e : ℕ} (z y : HyQ.Robot) (cs ds : List HyQ.Call) (lk : Fin e → Fin 13)
    (mf : V3 → Robot.Pose ℝ → (Fin 12 → ℝ) → Fin e → V6) (q : Fin 12 → ℝ) (v g : V6) (qd tau tau' : Fin 12 → ℝ) (lf : Fin 13 → V6) :
    HyQ.inertia z cs q *ᵥ Fin.append (((HyQ.rob y ds lk mf).fd q v g qd tau' lf).1 - ((HyQ.rob y ds lk mf).fd q v g qd tau lf).1)
      (((HyQ.rob y ds lk mf).fd q v g qd tau' lf).2 - ((HyQ.rob y ds lk mf).fd q v g qd tau lf).2)
      = Fin.append (0 : Fin 6 → ℝ) (tau' - tau) := by
  obtain ⟨a, ha⟩ : ∃ a, (HyQ.rob y ds lk mf).fd q v g qd tau lf = a := ⟨_, rfl⟩
  obtain ⟨a', ha'⟩ : ∃ a, (HyQ.rob y ds lk mf).fd q v g qd tau' lf = a := ⟨_, rfl⟩
  rw [ha, ha', HyQ.inertia_mulVec, append_sum]
  have e1 := (HyQ.C125_HyQ_fd z y cs ds q g v a.1 qd tau a.2 lf).2 ha.symm
  have e2 := (HyQ.C125_HyQ_fd z y cs ds q g v a'.1 qd tau' a'.2 lf).2 ha'.symm
  have h := diff_of_power (ι := Fin 6 ⊕ Fin 12) (M := ((HyQ.Robot.after z cs).jsim q).2)
    (I0 := fun a => Sum.elim ((HyQ.Robot.after z cs).id_full q g v (a ∘ Sum.inl) qd (a ∘ Sum.inr) 0).2.1
      ((HyQ.Robot.after z cs).id_full q g v (a ∘ Sum.inl) qd (a ∘ Sum.inr) 0).2.2)
    (I1 := fun a => Sum.elim ((HyQ.Robot.after z cs).id_full q g v (a ∘ Sum.inl) qd (a ∘ Sum.inr) lf).2.1
      ((HyQ.Robot.after z cs).id_full q g v (a ∘ Sum.inl) qd (a ∘ Sum.inr) lf).2.2)
    (fun x => x ∘ Sum.inl ⬝ᵥ lf HyQ.TRUNK
      + ((List.zipWith List.zip (HyQ.branchesAt q qd lf) (HyQ.split (x ∘ Sum.inr))).map (power (x ∘ Sum.inl))).sum)
    (fun a => by
      have := HyQ.C126_HyQ z z z z cs cs cs cs q g v (a ∘ Sum.inl) qd (a ∘ Sum.inr)
      rw [Sum.elim_comp_inl_inr, add_assoc] at this
      exact this)
    (fun a x => by
      have := HyQ.C135_HyQ z z cs cs q g v (a ∘ Sum.inl) (x ∘ Sum.inl) qd (a ∘ Sum.inr) (x ∘ Sum.inr) lf
      rw [dotProduct, dotProduct, Fintype.sum_sum_type, Fintype.sum_sum_type]
      exact this)
    (Sum.elim a.1 a.2) (Sum.elim a'.1 a'.2)
  simp only [Sum.elim_comp_inl, Sum.elim_comp_inr, e1, e2] at h
  have e3 : Sum.elim (a'.1 - a.1) (a'.2 - a.2) = Sum.elim a'.1 a'.2 - Sum.elim a.1 a.2 := by
    funext k; cases k <;> rfl
  have e4 : Sum.elim (0 : V6) tau' - Sum.elim (0 : V6) tau = Fin.append (0 : Fin 6 → ℝ) (tau' - tau) ∘ finSumFinEquiv := by
    rw [append_sum]
    funext k; cases k <;> simp
  rw [e3, h, e4, Function.comp_assoc, Equiv.self_comp_symm, Function.comp_id]

/-- **C137 (HyQ).**  The control Jacobian of the linearizer describes the dependence of the system on the joint forces
exactly, for every contact model, whatever was called before on the linearizer and on the generated algorithms. -/
theorem C137_HyQ {e : ℕ} (z y : HyQ.Robot) (ks ds : List HyQ.Call) (lk : Fin e → Fin 13)
    (mf : V3 → Robot.Pose ℝ → (Fin 12 → ℝ) → Fin e → V6) (ev : Env (6 + 12) 12) (hf : ev.floatingBase = true)
    (hS : selection 12 (6 + 12) true = .ok ev.S) (hl : LltOk ev.llt) (hM : ev.M = HyQ.inertia z ks)
    (sy : Sys 12 e) (hq : sy.quat = false) (hee : sy.eeIn = false) (num : NumDiff.Linearizer ((6 + 12) + (6 + 12)) 12 ℝ) (so : Bool)
    (cs : List (Call (6 + 12) 12)) (x : Fin ((6 + 12) + (6 + 12)) → ℝ) (u u' : Fin 12 → ℝ) (t : ℝ) :
    sysDyn ev.kd (HyQ.rob y ds lk mf) sy x t u' = sysDyn ev.kd (HyQ.rob y ds lk mf) sy x t u
      + (ev.after num so (cs ++ [.control x u t])).dFdu *ᵥ (u' - u) :=
  C137_floating ev hf hS hl (HyQ.rob y ds lk mf) (fun q => by rw [hM]; exact (HyQ.inertia_ok z ks q).1)
    (fun q => by rw [hM]; exact (HyQ.inertia_ok z ks q).2)
    (fun q v g qd tau tau' lf => by rw [hM]; exact HyQ.diff z y ks ds lk mf q v g qd tau tau' lf)
    sy hq hee num so cs x u u' t

/-- An environment of a linearizer as in the theorems above: the inverse of the matrix for Eigen's solution. -/
noncomputable def stdEnv {H c : ℕ} (cv : Robot.Conv ℝ) (fb : Bool) (M : (Fin c → ℝ) → Matrix (Fin H) (Fin H) ℝ) (S : Matrix (Fin c) (Fin H) ℝ) :
    Env H c := ⟨stdKindr cv, fb, M, fun A => A⁻¹, S⟩

theorem inv_ok {H : ℕ} : LltOk (fun A : Matrix (Fin H) (Fin H) ℝ => A⁻¹) := by
  intro A _ hp
  refine mul_nonsing_inv A ?_
  rw [isUnit_iff_ne_zero]
  intro hd
  obtain ⟨x, hx, h0⟩ := exists_mulVec_eq_zero_iff.2 hd
  have := hp x hx
  rw [h0, dotProduct_zero] at this
  exact lt_irrefl _ this

/-- The hypotheses of `C137_HyQ` are met. -/
example (cv : Robot.Conv ℝ) (z : HyQ.Robot) (ks : List HyQ.Call) : ∃ ev : Env (6 + 12) 12, ev.floatingBase = true
    ∧ selection 12 (6 + 12) true = .ok ev.S ∧ LltOk ev.llt ∧ ev.M = HyQ.inertia z ks ∧ ev.kd.Ok :=
  ⟨stdEnv cv true (HyQ.inertia z ks) _, rfl, rfl, inv_ok, rfl, stdKindr_ok cv⟩

/-- The hypotheses of `C137_HyA` are met. -/
example (cv : Robot.Conv ℝ) (z : HyA.Robot) (ks : List HyA.Call) : ∃ ev : Env 6 6, ev.floatingBase = false
    ∧ selection 6 6 false = .ok ev.S ∧ LltOk ev.llt ∧ ev.M = fun q => ((HyA.Robot.after z ks).jsim q).2 :=
  ⟨stdEnv cv false _ _, rfl, rfl, inv_ok, rfl⟩

/-- The hypotheses of `C138_floating` are met, here in the state with all entries zero. -/
example (cv : Robot.Conv ℝ) (y z : HyQ.Robot) (ds ks : List HyQ.Call) (lk : Fin 4 → Fin 13) (mf : V3 → Robot.Pose ℝ → (Fin 12 → ℝ) → Fin 4 → V6)
    (i j : Fin ((6 + 12) + (6 + 12))) (hi : i.val < 6 + 12) :
    let ev := stdEnv cv true (HyQ.inertia z ks) 0
    let sy : Sys 12 4 := ⟨false, false, none⟩
    let num : NumDiff.Linearizer ((6 + 12) + (6 + 12)) 12 ℝ := ⟨sysDyn ev.kd (HyQ.rob y ds lk mf) sy, true, 1 / 1000, 0, 0, 0⟩
    HasDerivAt (fun s => sysDyn ev.kd (HyQ.rob y ds lk mf) sy (Function.update 0 j s) 0 (0 : Fin 12 → ℝ) i) ((ev.after num false [.state 0 0 0]).dFdx i j) 0 := by
  intro ev sy num
  exact C138_floating ev rfl (stdKindr_ok cv) (HyQ.rob y ds lk mf) sy rfl num rfl (by norm_num [num]) [] 0 0 0 (by simp) i j hi

/-- The hypotheses of `C138_fixed` are met. -/
example (y : HyA.Robot) (ds : List HyA.Call) : ∃ num : NumDiff.Linearizer (6 + 6) 6 ℝ, num.eps ≠ 0 ∧ ∀ x t u d, d.length = 2 * 6 →
    (HyA.rob y ds).fdDynamics (none : Option (Actuator.Act 6 0)) (List.ofFn x) t (List.ofFn u) d = .ok (List.ofFn (num.dyn x t u)) := by
  refine ⟨⟨fun x _ u => Fin.append (fun k => x (Fin.natAdd 6 k)) ((HyA.rob y ds).fd ⟨fun k => x (Fin.castAdd 6 k), fun k => x (Fin.natAdd 6 k)⟩ u
    ((HyA.rob y ds).linkForces (List.ofFn u) fun k => x (Fin.castAdd 6 k))), true, 1 / 1000, 0, 0, 0⟩, by norm_num, ?_⟩
  intro x t u d hd
  have h2 := Actuator.C90_torques (HyA.rob y ds) (fun k => x (Fin.castAdd 6 k)) (fun k => x (Fin.natAdd 6 k)) u [] t d none hd
  rw [← List.ofFn_fin_append, Fin.append_castAdd_natAdd, List.append_nil, ← List.ofFn_fin_append] at h2
  exact h2

/-- **C139 (HyQ), energy.**  Along every motion whose state vector changes at the rate that the system with Euler angles
computes, the sum of kinetic and potential energy of the robot changes by the power of the joint forces in the control vector
and of the link forces (contact forces and end effector forces of the control vector). -/
theorem C139_HyQ {e : ℕ} (z y : HyQ.Robot) (cs ds : List HyQ.Call) (lk : Fin e → Fin 13)
    (mf : V3 → Robot.Pose ℝ → (Fin 12 → ℝ) → Fin e → V6) {kd : Kindr} (hk : kd.Ok) (sy : Sys 12 e) (hq : sy.quat = false)
    {x : ℝ → List ℝ} {t : ℝ} (control : List ℝ) (hx : LDeriv x (sy.dynamics kd (HyQ.rob y ds lk mf) (x t) control) t)
    (hc : Real.cos ((x t).getD 1 0) ≠ 0) :
    let S := fun s => sy.stateFrom kd (x s)
    let R := fun s => rotationMatrix kd (S s).pose
    let V := fun s => join (S s).angVel (S s).linVel
    let lf := sy.linkForces (HyQ.rob y ds lk mf) (S t) control
    HasDerivAt (fun s => Sum.elim (V s) (S s).joints.vel ⬝ᵥ (((HyQ.Robot.after z cs).jsim (S s).joints.pos).2 *ᵥ Sum.elim (V s) (S s).joints.vel) / 2
        + grav * (lift (R s) (S s).pose.position HyQ.Inertias.std.trunk
          + ((HyQ.branchesAt (S s).joints.pos (S s).joints.vel 0).map (height (R s) (S s).pose.position)).sum))
      ((S t).joints.vel ⬝ᵥ Robot.seg control 0 12 + (V t ⬝ᵥ lf HyQ.TRUNK
          + ((List.zipWith List.zip (HyQ.branchesAt (S t).joints.pos (S t).joints.vel lf) (HyQ.split (S t).joints.vel)).map (power (V t))).sum)) t := by
  intro S R V lf
  obtain ⟨h1, h2, h3, h4, h5⟩ := C139_euler hk hq control hx hc
  exact HyQ.C136_HyQ_fd z y cs ds (q := fun s => (S s).joints.pos) (qd := fun s => (S s).joints.vel) (R := R)
    (p := fun s => (S s).pose.position) (ω := fun s => (S s).angVel) (v := fun s => (S s).linVel) (Robot.seg control 0 12) lf h3 h5 h1 h2 h4

/-! ### C140 -/

/-- **C140.**  Forward and inverse dynamics of HyQ in the base class `Dynamics` undo each other: the accelerations computed
for joint forces lead back to these forces, and the forces and base acceleration computed for joint accelerations lead back
to these accelerations, for every state, every link forces and whatever the result objects held. -/
theorem C140_HyQ {e : ℕ} (y : HyQ.Robot) (ds : List HyQ.Call) (lk : Fin e → Fin 13)
    (mf : V3 → Robot.Pose ℝ → (Fin 12 → ℝ) → Fin e → V6) (kd : Kindr) (s : Robot.RBD ℝ 12) (lf : Fin 13 → V6) (xd : Acc 12) :
    (∀ u, let a := forwardDynamics kd (HyQ.rob y ds lk mf) s u lf xd
      inverseDynamics kd (HyQ.rob y ds lk mf) s a.joints lf = ((a.ang, a.lin), u))
    ∧ ∀ qdd, let r := inverseDynamics kd (HyQ.rob y ds lk mf) s qdd lf
      forwardDynamics kd (HyQ.rob y ds lk mf) s r.2 lf xd = ⟨r.1.1, r.1.2, qdd⟩ := by
  constructor
  · intro u a
    obtain ⟨b, hb⟩ : ∃ b, (HyQ.rob y ds lk mf).fd s.joints.pos (twist s) (gravityB6D kd s.pose) s.joints.vel u lf = b := ⟨_, rfl⟩
    have e1 := (HyQ.C125_HyQ_fd y y ds ds s.joints.pos (gravityB6D kd s.pose) (twist s) b.1 s.joints.vel u b.2 lf).2 hb.symm
    have e2 := (HyQ.C125_HyQ_id y y ds ds s.joints.pos (gravityB6D kd s.pose) (twist s) b.1 s.joints.vel u b.2 lf).1 e1
    have ha : a = Acc.setBase { xd with joints := b.2 } b.1 := by
      show forwardDynamics kd (HyQ.rob y ds lk mf) s u lf xd = _
      rw [forwardDynamics, hb]
    rw [ha, inverseDynamics, show (HyQ.rob y ds lk mf).idyn s.joints.pos (gravityB6D kd s.pose) (twist s) s.joints.vel
      (Acc.setBase { xd with joints := b.2 } b.1).joints lf = (b.1, u) from e2.symm]
    rfl
  · intro qdd r
    obtain ⟨b, hb⟩ : ∃ b, (HyQ.rob y ds lk mf).idyn s.joints.pos (gravityB6D kd s.pose) (twist s) s.joints.vel qdd lf = b := ⟨_, rfl⟩
    have e1 := (HyQ.C125_HyQ_id y y ds ds s.joints.pos (gravityB6D kd s.pose) (twist s) b.1 s.joints.vel b.2 qdd lf).2 hb.symm
    have e2 := (HyQ.C125_HyQ_fd y y ds ds s.joints.pos (gravityB6D kd s.pose) (twist s) b.1 s.joints.vel b.2 qdd lf).1 e1
    have hr : r = ((![b.1 0, b.1 1, b.1 2], ![b.1 3, b.1 4, b.1 5]), b.2) := by
      show inverseDynamics kd (HyQ.rob y ds lk mf) s qdd lf = _
      rw [inverseDynamics, hb]
    rw [hr, forwardDynamics, show (HyQ.rob y ds lk mf).fd s.joints.pos (twist s) (gravityB6D kd s.pose) s.joints.vel
      ((![b.1 0, b.1 1, b.1 2], ![b.1 3, b.1 4, b.1 5]), b.2).2 lf = (b.1, qdd) from e2.symm]
    rfl

/-- **C140.**  The inverse dynamics of a base under actuation ignores the base acceleration it is given: when the
uninitialised local variable of the code holds anything but the right base acceleration, the joint forces and a vanishing
base force are *not* what it computes for the accelerations that these joint forces cause. -/
theorem C140_actuated_violated {e : ℕ} (y : HyQ.Robot) (ds : List HyQ.Call) (lk : Fin e → Fin 13)
    (mf : V3 → Robot.Pose ℝ → (Fin 12 → ℝ) → Fin e → V6) (kd : Kindr) (s : Robot.RBD ℝ 12) (lf : Fin 13 → V6) (xd : Acc 12)
    (u : Fin 12 → ℝ) (junk : V6) :
    let a := forwardDynamics kd (HyQ.rob y ds lk mf) s u lf xd
    fullyActuatedID kd (HyQ.rob y ds lk mf) junk s (a.ang, a.lin) a.joints lf = (0, u)
      ↔ junk = join a.ang a.lin := by
  intro a
  obtain ⟨b, hb⟩ : ∃ b, (HyQ.rob y ds lk mf).fd s.joints.pos (twist s) (gravityB6D kd s.pose) s.joints.vel u lf = b := ⟨_, rfl⟩
  have ha : a = Acc.setBase { xd with joints := b.2 } b.1 := by
    show forwardDynamics kd (HyQ.rob y ds lk mf) s u lf xd = _
    rw [forwardDynamics, hb]
  have e1 := HyQ.C125_HyQ_fd y y ds ds s.joints.pos (gravityB6D kd s.pose) (twist s) junk s.joints.vel u b.2 lf
  have e3 : ((HyQ.Robot.after y ds).fd s.joints.pos (twist s) (gravityB6D kd s.pose) s.joints.vel u lf).2 = b := hb
  rw [e3] at e1
  have e4 : join a.ang a.lin = b.1 := by
    rw [ha]; funext k; fin_cases k <;> rfl
  rw [e4, ha]
  refine Iff.trans e1 ?_
  constructor
  · intro h; rw [← h]
  · intro h; rw [h]

/-- It is even the same whatever base acceleration is given. -/
theorem C140_ignored_violated {n l e : ℕ} (kd : Kindr) (rb : FRob n l e) (junk : V6) (s : Robot.RBD ℝ n) (a a' : V3 × V3) (qdd : Fin n → ℝ)
    (lf : Fin l → V6) : fullyActuatedID kd rb junk s a qdd lf = fullyActuatedID kd rb junk s a' qdd lf := rfl

end CT.Robots
