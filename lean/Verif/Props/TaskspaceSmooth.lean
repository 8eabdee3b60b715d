import Verif.Props.TaskspaceTerms
import Mathlib.Analysis.SpecialFunctions.Trigonometric.Deriv
import Mathlib.Analysis.Calculus.ContDiff.Operations

/-! # Poses of end effectors and the cost of the pose term are smooth -/

namespace CT.Taskspace

open Matrix FrameJac FloatSys Lookup GenKin

/-- The look-ups of end effector `k` return its position and a rotation, whatever was computed before, and both have
continuous second derivatives along every family of joint positions that has. -/
def EESmooth (d : Defs) (k : ℕ) : Prop :=
  ∃ (p : (ℕ → ℝ) → V3) (C : (ℕ → ℝ) → M3),
    (∀ q, IsRot (C q) ∧ ∀ h, d.getEEPositionInBase h k q = .ok (p q) ∧ d.getEERotInBase h k q = .ok (C q))
    ∧ ∀ {m : ℕ} (q : (Fin m → ℝ) → ℕ → ℝ), (∀ j, ContDiff ℝ 2 fun z => q z j) →
      (∀ i, ContDiff ℝ 2 fun z => p (q z) i) ∧ ∀ i j, ContDiff ℝ 2 fun z => C (q z) i j

theorem EESmooth.pose {d : Defs} {k : ℕ} (h : EESmooth d k) : EEPose d k := by
  obtain ⟨p, C, h1, -⟩ := h
  exact ⟨p, C, h1⟩

section
variable {m : ℕ}

/-- All entries have continuous second derivatives. -/
def SmM (A : (Fin m → ℝ) → M3) : Prop := ∀ i j, ContDiff ℝ 2 fun z => A z i j
/-- See `SmM`. -/
def SmV (v : (Fin m → ℝ) → V3) : Prop := ∀ i, ContDiff ℝ 2 fun z => v z i

theorem SmM.mul {A B : (Fin m → ℝ) → M3} (hA : SmM A) (hB : SmM B) : SmM fun z => A z * B z := fun i j => by
  simp only [Matrix.mul_apply]
  exact ContDiff.sum fun k _ => (hA i k).mul (hB k j)

theorem SmM.mulVec {A : (Fin m → ℝ) → M3} {v : (Fin m → ℝ) → V3} (hA : SmM A) (hv : SmV v) : SmV fun z => A z *ᵥ v z := fun i => by
  simp only [Matrix.mulVec, dotProduct]
  exact ContDiff.sum fun k _ => (hA i k).mul (hv k)

theorem SmM.const (A : M3) : SmM fun _ : Fin m → ℝ => A := fun _ _ => contDiff_const
theorem SmV.const (v : V3) : SmV fun _ : Fin m → ℝ => v := fun _ => contDiff_const
theorem SmV.add {v w : (Fin m → ℝ) → V3} (hv : SmV v) (hw : SmV w) : SmV fun z => v z + w z := fun i => (hv i).add (hw i)
theorem SmV.sub {v w : (Fin m → ℝ) → V3} (hv : SmV v) (hw : SmV w) : SmV fun z => v z - w z := fun i => (hv i).sub (hw i)
theorem SmM.transpose {A : (Fin m → ℝ) → M3} (hA : SmM A) : SmM fun z => (A z)ᵀ := fun i j => hA j i
theorem SmM.sub {A B : (Fin m → ℝ) → M3} (hA : SmM A) (hB : SmM B) : SmM fun z => A z - B z := fun i j => (hA i j).sub (hB i j)

theorem SmV.quad {v : (Fin m → ℝ) → V3} (hv : SmV v) (Q : M3) : ContDiff ℝ 2 fun z => (v z ᵥ* Q) ⬝ᵥ v z := by
  simp only [Matrix.vecMul, dotProduct]
  exact ContDiff.sum fun k _ => (ContDiff.sum fun l _ => (hv l).mul contDiff_const).mul (hv k)

theorem SmM.frob {A : (Fin m → ℝ) → M3} (hA : SmM A) : ContDiff ℝ 2 fun z => ∑ i, ∑ j, A z i j ^ 2 :=
  ContDiff.sum fun i _ => ContDiff.sum fun j _ => (hA i j).pow 2

theorem SmM.rotXYZ {e : (Fin m → ℝ) → V3} (he : SmV e) : SmM fun z => rotXYZ (e z) := by
  have c0 := fun i => Real.contDiff_cos.comp (he i)
  have s0 := fun i => Real.contDiff_sin.comp (he i)
  simp only [FloatSys.rotXYZ]
  refine SmM.mul (SmM.mul ?_ ?_) ?_
  · intro i j
    fin_cases i <;> fin_cases j <;> simp [FloatSys.rotX] <;> first | exact contDiff_const | exact c0 _ | exact s0 _ | exact (s0 _).neg
  · intro i j
    fin_cases i <;> fin_cases j <;> simp [FloatSys.rotY] <;> first | exact contDiff_const | exact c0 _ | exact s0 _ | exact (s0 _).neg
  · intro i j
    fin_cases i <;> fin_cases j <;> simp [FloatSys.rotZ] <;> first | exact contDiff_const | exact c0 _ | exact s0 _ | exact (s0 _).neg

theorem arranged_smooth {fs : List Frame} {C : ℕ → Pose} {G : (ℕ → ℝ) → ℕ → Pose} (hG : ∀ q, Arranged fs C q (G q))
    {f : ℕ} {js : List ℕ} (hp : IsPath fs f js) {q : (Fin m → ℝ) → ℕ → ℝ} (hq : ∀ j, ContDiff ℝ 2 fun z => q z j) :
    (SmM fun z => (G (q z) f).R) ∧ SmV fun z => (G (q z) f).p := by
  induction hp with
  | base =>
    simp only [(hG _).1]
    exact ⟨SmM.const _, SmV.const _⟩
  | @step f js hf _ ih =>
    have hj : (SmM fun z => (f.joint.elim Pose.one fun j => Pose.turn (q z j)).R)
        ∧ SmV fun z => (f.joint.elim Pose.one fun j => Pose.turn (q z j)).p := by
      cases f.joint with
      | none => exact ⟨SmM.const _, SmV.const _⟩
      | some k =>
        have c0 := Real.contDiff_cos.comp (hq k)
        have s0 := Real.contDiff_sin.comp (hq k)
        refine ⟨fun i j => ?_, fun i => ?_⟩
        · fin_cases i <;> fin_cases j <;> simp [Pose.turn] <;>
            first | exact contDiff_const | exact c0 | exact s0 | exact s0.neg
        · exact contDiff_const
    simp only [(hG _).2 _ hf, Pose.comp]
    have hR := (SmM.const (C f.id).R).mul hj.1
    have hv := ((SmM.const (C f.id).R).mulVec hj.2).add (SmV.const (C f.id).p)
    exact ⟨ih.1.mul hR, (ih.1.mulVec hv).add ih.2⟩

end

theorem eeSmooth_of {d : Defs} {fs : List Frame} {es : List ℕ} {C : ℕ → Pose} (hC : ∀ f, IsRot (C f).R)
    (h : ∀ q, ∃ G, Arranged fs C q G ∧ d.EEsRight es G q) {k f : ℕ} (hk : es[k]? = some f) {js : List ℕ} (hp : IsPath fs f js) :
    EESmooth d k := by
  choose G h1 h2 using h
  refine ⟨fun q => (G q f).p, fun q => (G q f).R, fun q => ⟨arranged_rot hC (h1 q) hp,
    fun w => ((h2 q).1 k f hk w).2⟩, fun q hq => ?_⟩
  have := arranged_smooth h1 hp hq
  exact ⟨this.2, this.1⟩

/-- The first `m` end effectors of a robot can be looked up and move smoothly. -/
def EEsSmooth (d : Defs) (m : ℕ) : Prop := ∀ k < m, EESmooth d k

theorem eesSmooth_InvertedPendulum : EEsSmooth Robots.InvertedPendulum.Kin.defs 1 := fun k hk => by
  obtain rfl : k = 0 := by omega
  obtain ⟨C, c0, -, h⟩ := InvertedPendulum.C133_InvertedPendulum_lookup
  exact eeSmooth_of c0 (fun q => (h q).imp fun _ k => ⟨k.1, k.2.2⟩) rfl InvertedPendulum.path_fr_ee

theorem eesSmooth_DoubleInvertedPendulum : EEsSmooth Robots.DoubleInvertedPendulum.Kin.defs 1 := fun k hk => by
  obtain rfl : k = 0 := by omega
  obtain ⟨C, c0, -, h⟩ := DoubleInvertedPendulum.C133_DoubleInvertedPendulum_lookup
  exact eeSmooth_of c0 (fun q => (h q).imp fun _ k => ⟨k.1, k.2.2⟩) rfl DoubleInvertedPendulum.path_fr_ee

theorem eesSmooth_HyA : EEsSmooth Robots.HyA.Kin.defs 1 := fun k hk => by
  obtain rfl : k = 0 := by omega
  obtain ⟨C, c0, -, -, h⟩ := HyA.C133_HyA_lookup
  exact eeSmooth_of c0 (fun q => (h q).imp fun _ k => ⟨k.1, k.2.2⟩) rfl HyA.path_fr_ee

theorem eesSmooth_QuadrotorWithLoad : EEsSmooth Robots.QuadrotorWithLoad.Kin.defs 1 := fun k hk => by
  obtain rfl : k = 0 := by omega
  obtain ⟨C, c0, -, h⟩ := QuadrotorWithLoad.C133_QuadrotorWithLoad_lookup
  exact eeSmooth_of c0 h rfl QuadrotorWithLoad.path_fr_ee

theorem eesSmooth_HyQ : EEsSmooth Robots.HyQ.Kin.defs 4 := fun k hk => by
  obtain ⟨C, c0, h⟩ := HyQ.C133_HyQ_lookup
  have h' := fun q => (h q).imp fun _ k => (⟨k.1, k.2.2⟩ : _ ∧ _)
  match k, hk with
  | 0, _ => exact eeSmooth_of c0 h' rfl HyQ.path_fr_LF_foot
  | 1, _ => exact eeSmooth_of c0 h' rfl HyQ.path_fr_RF_foot
  | 2, _ => exact eeSmooth_of c0 h' rfl HyQ.path_fr_LH_foot
  | 3, _ => exact eeSmooth_of c0 h' rfl HyQ.path_fr_RH_foot

/-! ### The cost as a function of state and reference -/

theorem pose_value {d : Defs} {k : ℕ} {p : (ℕ → ℝ) → V3} {C : (ℕ → ℝ) → M3}
    (hpC : ∀ q h, d.getEEPositionInBase h k q = .ok (p q) ∧ d.getEERotInBase h k q = .ok (C q))
    (Qpos : M3) (Qrot : ℝ) (pRef : V3) (RRef : M3) (kd : Kindr) (FB : Bool) (h : Hists) (x : List ℝ) :
    let b := vecPose FB d.njoints x
    PoseTerm.evaluate ⟨k, Qpos, Qrot, pRef, RRef⟩ kd d FB h x
      = .ok (((b.2.1 + b.1 *ᵥ p b.2.2 - pRef) ᵥ* Qpos) ⬝ᵥ (b.2.1 + b.1 *ᵥ p b.2.2 - pRef)
        + Qrot * ∑ i, ∑ j, (RRefᵀ * (b.1 * C b.2.2) - 1) i j ^ 2) := by
  intro b
  obtain ⟨l1, l2⟩ := hpC b.2.2 h.X
  obtain ⟨s1, s2, s3⟩ := stateFrom_pose kd d.njoints FB x
  simp only [PoseTerm.evaluate, s1, s2, s3]
  simp only [Defs.getEEPositionInWorld, Defs.getEERotInWorld, eePositionInWorld, eeRotInWorld]
  have l1' : d.getEEPositionInBase h.X k (vecPose FB d.njoints x).2.2 = _ := l1
  have l2' : d.getEERotInBase h.X k (vecPose FB d.njoints x).2.2 = _ := l2
  simp only [l1', l2', Res.ok_bind, Res.pure_eq]
  rfl

theorem vecPose_smooth {m : ℕ} (FB : Bool) (n : ℕ) {x : (Fin m → ℝ) → List ℝ} (hx : ∀ i, ContDiff ℝ 2 fun z => (x z).getD i 0) :
    (SmM fun z => (vecPose FB n (x z)).1) ∧ (SmV fun z => (vecPose FB n (x z)).2.1)
      ∧ ∀ j, ContDiff ℝ 2 fun z => (vecPose FB n (x z)).2.2 j := by
  cases FB
  · refine ⟨SmM.const _, SmV.const _, fun j => ?_⟩
    simp only [vecPose, Bool.false_eq_true, if_false]
    split_ifs
    · exact hx j
    · exact contDiff_const
  · simp only [vecPose, if_true]
    refine ⟨SmM.rotXYZ fun i => hx i, fun i => hx (3 + i), fun j => ?_⟩
    split_ifs
    · exact hx (6 + j)
    · exact contDiff_const

/-- The cost has continuous second derivatives in state, reference position and reference rotation together. -/
theorem pose_smooth {d : Defs} {k : ℕ} (hs : EESmooth d k) (Qpos : M3) (Qrot : ℝ) (kd : Kindr) (FB : Bool) {m : ℕ}
    {x : (Fin m → ℝ) → List ℝ} {r : (Fin m → ℝ) → V3} {R : (Fin m → ℝ) → M3}
    (hx : ∀ i, ContDiff ℝ 2 fun z => (x z).getD i 0) (hr : SmV r) (hR : SmM R) :
    ∃ v : (Fin m → ℝ) → ℝ, ContDiff ℝ 2 v
      ∧ ∀ z h, PoseTerm.evaluate ⟨k, Qpos, Qrot, r z, R z⟩ kd d FB h (x z) = .ok (v z) := by
  obtain ⟨p, C, h1, h2⟩ := hs
  obtain ⟨b1, b2, b3⟩ := vecPose_smooth FB d.njoints hx
  obtain ⟨k1, k2⟩ := h2 _ b3
  refine ⟨_, ?_, fun z h => pose_value (fun q => (h1 q).2) Qpos Qrot (r z) (R z) kd FB h (x z)⟩
  have e : SmV fun z => (vecPose FB d.njoints (x z)).2.1 + (vecPose FB d.njoints (x z)).1 *ᵥ p (vecPose FB d.njoints (x z)).2.2 - r z :=
    SmV.sub (b2.add (b1.mulVec k1)) hr
  have f : SmM fun z => (R z)ᵀ * ((vecPose FB d.njoints (x z)).1 * C (vecPose FB d.njoints (x z)).2.2) - 1 :=
    SmM.sub (hR.transpose.mul (b1.mul k2)) (SmM.const 1)
  exact (e.quad Qpos).add (contDiff_const.mul f.frob)

end CT.Taskspace
