import Verif.Model.ForceMapping
import Verif.Props.FrameJac
import Verif.Props.DmsVector

/-!
# C121: mapping end-effector forces to links

The specification is virtual work: a torque and a force acting on a link are equivalent to a torque and a
force acting at the end effector if, for every motion of the link as a rigid body, they have the same
power.
-/

namespace CT.ForceMap

open Matrix FrameJac

/-! ### Specification -/

/-- A rigid body moves with angular velocity `ω`; its point at the origin has velocity `v`.  Velocity of
its point at `x`. -/
def pointVelocity (ω v x : V3) : V3 := v + cross ω x

/-- Power of a torque and a force, acting at a point with velocity `v` of a body with angular velocity
`ω`. -/
def Wrench.power (w : Wrench) (ω v : V3) : ℝ := w.torque ⬝ᵥ ω + w.force ⬝ᵥ v

/-- `w`, acting in the origin `o` of a frame with axes `E` (both in base coordinates, `E` turns base into
frame coordinates), is equivalent to `W`, acting in the point `x` and expressed in a frame to which `R`
turns base coordinates. -/
def Equivalent (E : M3) (o : V3) (w : Wrench) (R : M3) (x : V3) (W : Wrench) : Prop :=
  ∀ ω v : V3, w.power (E *ᵥ ω) (E *ᵥ pointVelocity ω v o) = W.power (R *ᵥ ω) (R *ᵥ pointVelocity ω v x)

/-- `X` is the spatial force transform from the base to the frame with axes `E` and origin `o`. -/
structure IsForceTransform (X : M6) (E : M3) (o : V3) : Prop where
  rot : IsRot E
  map : ∀ τ f : V3, X *ᵥ Wrench.toVec ⟨τ, f⟩ = Wrench.toVec ⟨E *ᵥ (τ - cross o f), E *ᵥ f⟩

/-! ### Lemmas -/

theorem ofVec_toVec (w : Wrench) : Wrench.ofVec w.toVec = w := rfl

theorem triple (a b c : V3) : cross a b ⬝ᵥ c = b ⬝ᵥ cross c a := by
  simp [cross, dotProduct, Fin.sum_univ_three]; ring

theorem rot_dot {E : M3} (h : Eᵀ * E = 1) (a b : V3) : (E *ᵥ a) ⬝ᵥ (E *ᵥ b) = a ⬝ᵥ b := by
  rw [dotProduct_mulVec, vecMul_mulVec, ← mulVec_transpose, transpose_mul, transpose_transpose, h, one_mulVec]

theorem transpose_dot (R : M3) (a b : V3) : (Rᵀ *ᵥ a) ⬝ᵥ b = a ⬝ᵥ (R *ᵥ b) := by
  rw [dotProduct_mulVec, mulVec_transpose]

/-- The shifted wrench is equivalent, and it is the only one. -/
theorem equivalent_iff {E : M3} (hE : IsRot E) (o x : V3) (R : M3) (W w : Wrench) :
    Equivalent E o w R x W ↔
      w = ⟨E *ᵥ ((cross x (Rᵀ *ᵥ W.force) + Rᵀ *ᵥ W.torque) - cross o (Rᵀ *ᵥ W.force)), E *ᵥ (Rᵀ *ᵥ W.force)⟩ := by
  have hpow : ∀ ω v : V3, W.power (R *ᵥ ω) (R *ᵥ pointVelocity ω v x)
      = (cross x (Rᵀ *ᵥ W.force) + Rᵀ *ᵥ W.torque) ⬝ᵥ ω + (Rᵀ *ᵥ W.force) ⬝ᵥ v := by
    intro ω v
    simp only [Wrench.power, pointVelocity]
    rw [add_dotProduct, triple, transpose_dot, transpose_dot, transpose_dot, mulVec_add, dotProduct_add]
    ring
  have hgood : ∀ (τ f ω v : V3), Wrench.power ⟨E *ᵥ (τ - cross o f), E *ᵥ f⟩ (E *ᵥ ω) (E *ᵥ pointVelocity ω v o)
      = τ ⬝ᵥ ω + f ⬝ᵥ v := by
    intro τ f ω v
    simp only [Wrench.power, pointVelocity]
    rw [rot_dot hE.orth, rot_dot hE.orth, sub_dotProduct, triple, dotProduct_add]
    ring
  constructor
  · intro h
    have hEE : E * Eᵀ = 1 := mul_eq_one_comm.mp hE.orth
    have hf : w.force = E *ᵥ (Rᵀ *ᵥ W.force) := by
      have hz : ∀ z : V3, w.force ⬝ᵥ z = (E *ᵥ (Rᵀ *ᵥ W.force)) ⬝ᵥ z := by
        intro z
        have h1 := h 0 (Eᵀ *ᵥ z)
        rw [hpow] at h1
        simp only [Wrench.power, pointVelocity, mulVec_zero, dotProduct_zero, zero_cross, add_zero, zero_add,
          mulVec_mulVec, hEE, one_mulVec] at h1
        rw [h1]
        have h2 := transpose_dot Eᵀ (Rᵀ *ᵥ W.force) z
        rw [transpose_transpose] at h2
        simpa [mulVec_mulVec] using h2.symm
      funext i
      have := hz (Pi.single i 1)
      simpa using this
    have hτ : w.torque = E *ᵥ ((cross x (Rᵀ *ᵥ W.force) + Rᵀ *ᵥ W.torque) - cross o (Rᵀ *ᵥ W.force)) := by
      have hz : ∀ z : V3, w.torque ⬝ᵥ (E *ᵥ z)
          = (E *ᵥ ((cross x (Rᵀ *ᵥ W.force) + Rᵀ *ᵥ W.torque) - cross o (Rᵀ *ᵥ W.force))) ⬝ᵥ (E *ᵥ z) := by
        intro z
        have h1 := h z 0
        have h2 := hgood (cross x (Rᵀ *ᵥ W.force) + Rᵀ *ᵥ W.torque) (Rᵀ *ᵥ W.force) z 0
        rw [hpow, ← h2] at h1
        simp only [Wrench.power, hf] at h1
        linarith
      funext i
      have := hz (Eᵀ *ᵥ Pi.single i 1)
      rw [mulVec_mulVec, hEE, one_mulVec] at this
      simpa using this
    cases w
    simp_all
  · rintro rfl ω v
    rw [hpow, hgood]

theorem mapM_get {α β : Type} {f : α → Res β} {l : List α} {ys : List β} (h : l.mapM f = .ok ys) (i : ℕ)
    (hi : i < l.length) : ∃ y, ys[i]? = some y ∧ f l[i] = .ok y := by
  induction l generalizing ys i with
  | nil => simp at hi
  | cons a l ih =>
    rw [List.mapM_cons] at h
    obtain ⟨y, hy, h⟩ := Res.bind_eq_ok.mp h
    obtain ⟨zs, hzs, h⟩ := Res.bind_eq_ok.mp h
    simp only [Res.pure_eq, Res.ok.injEq] at h
    subst h
    cases i with
    | zero => exact ⟨y, by simp, by simpa using hy⟩
    | succ i =>
      obtain ⟨z, hz, hf⟩ := ih hzs i (by simpa using hi)
      exact ⟨z, by simpa using hz, by simpa using hf⟩

theorem linkOf_new {Q : Type} {g : Gen Q} {n : ℕ} {k : Kin Q} (h : Kin.new g n = .ok k) (id : ℕ) (hid : id < n) :
    k.gen = g ∧ k.linkOf id = .ok (g.isOnLink id) := by
  obtain ⟨ees, h1, h2⟩ := Res.bind_eq_ok.mp h
  simp only [Res.pure_eq, Res.ok.injEq] at h2
  subst h2
  refine ⟨rfl, ?_⟩
  obtain ⟨y, hy, hg⟩ := mapM_get h1 id (by simpa using hid)
  rw [List.getElem_range] at hg
  rw [Kin.linkOf, hy]
  rw [Gen.eeIdToLinkId] at hg
  split at hg
  · simp_all
  · simp at hg

/-! ### Theorems -/

/-- **C121 (partial).**  A torque and a force at an end effector, in world coordinates, are mapped to the
one torque and force at the link the end effector is on that has the same power in every motion.
Missing: end effectors on the base link (see `C121_base_link_violated`). -/
theorem C121_world_partial {Q : Type} {g : Gen Q} {n : ℕ} {k : Kin Q} (hk : Kin.new g n = .ok k) (q : Q) (id : ℕ)
    (hid : id < n) {x : V3} (hx : g.getEEPositionInBase id q = .ok x) (hpos : 0 < g.isOnLink id)
    (hlinks : g.isOnLink id ≤ g.links) {E : M3} {o : V3}
    (hX : IsForceTransform (g.forceLinkBase (g.isOnLink id) q) E o) (R : M3) (W : Wrench) :
    ∃ w, k.mapForceFromWorldToLink W R q id = .ok w ∧ ∀ w', Equivalent E o w' R x W ↔ w' = w := by
  obtain ⟨hg, hl⟩ := linkOf_new hk id hid
  refine ⟨_, ?_, fun w' => equivalent_iff hX.rot o x R W w'⟩
  simp only [Kin.mapForceFromWorldToLink, Kin.mapForceFromWorldToLinkAt, hg, hx, hl, Res.ok_bind,
    Gen.getForceTransformLinkBaseById, if_neg hpos.ne', if_pos hlinks, Res.pure_eq, hX.map, ofVec_toVec]

/-- **C121 (pure forces).**  The variant for a force alone agrees with zero torque. -/
theorem C121_force_only_partial {Q : Type} {g : Gen Q} {n : ℕ} {k : Kin Q} (hk : Kin.new g n = .ok k) (q : Q)
    (id : ℕ) (hid : id < n) {x : V3} (hx : g.getEEPositionInBase id q = .ok x) (hpos : 0 < g.isOnLink id)
    (hlinks : g.isOnLink id ≤ g.links) {E : M3} {o : V3}
    (hX : IsForceTransform (g.forceLinkBase (g.isOnLink id) q) E o) (R : M3) (f : V3) :
    ∃ w, k.mapForceFromWorldToLink3d f R q id = .ok w ∧
      ∀ ω v : V3, w.power (E *ᵥ ω) (E *ᵥ pointVelocity ω v o) = f ⬝ᵥ (R *ᵥ pointVelocity ω v x) := by
  obtain ⟨w, hw, heq⟩ := C121_world_partial hk q id hid hx hpos hlinks hX R ⟨0, f⟩
  refine ⟨w, hw, fun ω v => ?_⟩
  have := (heq w).mpr rfl ω v
  simpa [Wrench.power] using this

/-- **C121 (forces in end-effector coordinates).**  `Ree` is the rotation from the frame in which the
force is expressed to the base. -/
theorem C121_ee_partial {Q : Type} {g : Gen Q} {n : ℕ} {k : Kin Q} (hk : Kin.new g n = .ok k) (q : Q) (id : ℕ)
    (hid : id < n) (x : V3) (hpos : 0 < g.isOnLink id)
    (hlinks : g.isOnLink id ≤ g.links) {E : M3} {o : V3}
    (hX : IsForceTransform (g.forceLinkBase (g.isOnLink id) q) E o) (Ree : M3) (W : Wrench) :
    ∃ w, k.mapForceFromEEToLink W Ree x q id = .ok w ∧ ∀ w', Equivalent E o w' Reeᵀ x W ↔ w' = w := by
  obtain ⟨hg, hl⟩ := linkOf_new hk id hid
  refine ⟨_, ?_, fun w' => equivalent_iff hX.rot o x Reeᵀ W w'⟩
  simp only [Kin.mapForceFromEEToLink, hg, hl, Res.ok_bind,
    Gen.getForceTransformLinkBaseById, if_neg hpos.ne', if_pos hlinks, Res.pure_eq, hX.map, ofVec_toVec,
    transpose_transpose]

/-- C121, the point of application: the position used for a known end effector is the place to which the generated transform takes the
origin of its frame; for others an exception is thrown. -/
theorem C121_position {Q : Type} (g : Gen Q) (id : ℕ) (q : Q) :
    (id < g.ees → ∃ x, g.getEEPositionInBase id q = .ok x ∧ g.homBaseEE id q *ᵥ ![0, 0, 0, 1] = ![x 0, x 1, x 2, g.homBaseEE id q 3 3])
    ∧ (g.ees ≤ id → g.getEEPositionInBase id q = .exc) := by
  constructor
  · intro h
    refine ⟨fun i => g.homBaseEE id q (i.castLE (by omega)) 3, ?_, ?_⟩
    · simp [Gen.getEEPositionInBase, Gen.getHomogeneousTransformBaseEEById, h, Res.pure_eq]
    · funext i
      fin_cases i <;> simp [Matrix.mulVec, dotProduct, Fin.sum_univ_four] <;> rfl
  · intro h
    simp [Gen.getEEPositionInBase, Gen.getHomogeneousTransformBaseEEById, Nat.not_lt.2 h]

/-- **C121 (link numbers).**  A transform is returned for every declared link, and a link that is not
declared is refused. -/
theorem C121_lookup {Q : Type} (g : Gen Q) (l : ℕ) (q : Q) :
    (1 ≤ l → l ≤ g.links → g.getForceTransformLinkBaseById l q = .ok (g.forceLinkBase l q)
      ∧ g.getHomogeneousTransformBaseLinkById l q = .ok (g.homBaseLink l q))
    ∧ (g.links < l → g.getForceTransformLinkBaseById l q = .exc ∧ g.getHomogeneousTransformBaseLinkById l q = .exc) := by
  constructor
  · intro h1 h2
    have h0 : l ≠ 0 := by omega
    simp [Gen.getForceTransformLinkBaseById, Gen.getHomogeneousTransformBaseLinkById, h0, h2]
  · intro h
    have h0 : l ≠ 0 := by omega
    have h2 : ¬ l ≤ g.links := by omega
    simp [Gen.getForceTransformLinkBaseById, Gen.getHomogeneousTransformBaseLinkById, h0, h2]

theorem mapM_length {α β : Type} {f : α → Res β} {l : List α} {ys : List β} (h : l.mapM f = .ok ys) :
    ys.length = l.length := by
  induction l generalizing ys with
  | nil =>
    rw [List.mapM_nil] at h
    simp only [Res.pure_eq, Res.ok.injEq] at h
    simp [← h]
  | cons a l ih =>
    rw [List.mapM_cons] at h
    obtain ⟨y, hy, h⟩ := Res.bind_eq_ok.mp h
    obtain ⟨zs, hzs, h⟩ := Res.bind_eq_ok.mp h
    simp only [Res.pure_eq, Res.ok.injEq] at h
    simp [← h, ih hzs]

/-- **C121 (end effector numbers).**  The number of an end effector that does not exist is not diagnosed
when the position of the end effector is given by the caller: the behaviour is undefined. -/
theorem C121_unknown {Q : Type} {g : Gen Q} {n : ℕ} {k : Kin Q} (hk : Kin.new g n = .ok k) (q : Q) (id : ℕ)
    (hid : n ≤ id) (R : M3) (W : Wrench) (x : V3) : k.mapForceFromWorldToLinkAt W R q x id = .ub := by
  obtain ⟨ees, h1, h2⟩ := Res.bind_eq_ok.mp hk
  simp only [Res.pure_eq, Res.ok.injEq] at h2
  subst h2
  have hl : ees.length = n := by simpa using mapM_length h1
  have hn : ees[id]? = none := by
    rw [List.getElem?_eq_none_iff]
    omega
  have h3 : (Kin.mk g ees).linkOf id = .ub := by rw [Kin.linkOf, hn]
  rw [Kin.mapForceFromWorldToLinkAt, h3]
  rfl

/-- **C121 violated: end effectors on the base.**  For link 0, the base itself, the look-up writes the
identity to the top right corner of a zero matrix.  The transform from the base to itself is therefore
not the identity, neither for forces nor for points; every force on an end effector that sits on the base
is dropped, and its components come out as a torque. -/
theorem C121_base_link_violated {Q : Type} {g : Gen Q} {n : ℕ} {k : Kin Q} (hk : Kin.new g n = .ok k) (q : Q)
    (id : ℕ) (hid : id < n) {x : V3} (hx : g.getEEPositionInBase id q = .ok x) (h0 : g.isOnLink id = 0) (R : M3)
    (W : Wrench) :
    k.mapForceFromWorldToLink W R q id = .ok ⟨Rᵀ *ᵥ W.force, 0⟩
    ∧ (Rᵀ *ᵥ W.force ≠ 0 → ¬ Equivalent 1 0 ⟨Rᵀ *ᵥ W.force, 0⟩ R x W)
    ∧ g.getHomogeneousTransformBaseLinkById 0 q ≠ .ok 1 := by
  obtain ⟨hg, hl⟩ := linkOf_new hk id hid
  refine ⟨?_, ?_, ?_⟩
  · simp only [Kin.mapForceFromWorldToLink, Kin.mapForceFromWorldToLinkAt, hg, hx, hl, h0, Res.ok_bind,
      Gen.getForceTransformLinkBaseById, if_true, Res.pure_eq, linkZero6, Wrench.toVec, Wrench.ofVec]
    congr 1
    simp [fromBlocks_mulVec]
    rfl
  · intro hne h
    rw [equivalent_iff IsRot.one] at h
    simp only [Wrench.mk.injEq, one_mulVec] at h
    exact hne h.2.symm
  · simp only [Gen.getHomogeneousTransformBaseLinkById, if_true, ne_eq, Res.ok.injEq]
    intro h
    have := congrFun (congrFun h 0) 0
    simp [linkZero4] at this

/-- **C121 violated: replacing an end effector.**  `setEndEffector` has an empty body: the end effector
handed over is ignored, and forces are still mapped to the old link. -/
theorem C121_set_end_effector_violated {Q : Type} (k : Kin Q) (id ee : ℕ) (hid : id < k.endEffectors.length)
    (hne : k.endEffectors[id] ≠ ee) : (k.setEndEffector id ee).linkOf id ≠ .ok ee := by
  simp [Kin.setEndEffector, Kin.linkOf, List.getElem?_eq_getElem hid, hne]

/-! ### A concrete robot -/

/-- One link, turned by a quarter about the vertical and shifted by one along the first axis; one end
effector on it at `(1, 2, 0)` in the base, one on the base itself at the origin. -/
noncomputable def demo : Gen Unit where
  links := 1
  forceLinkBase _ _ := Matrix.fromBlocks !![0, 1, 0; -1, 0, 0; 0, 0, 1] !![0, 0, 1; 0, 0, 0; 0, -1, 0] 0
    !![0, 1, 0; -1, 0, 0; 0, 0, 1]
  homBaseLink _ _ := !![0, -1, 0, 1; 1, 0, 0, 0; 0, 0, 1, 0; 0, 0, 0, 1]
  ees := 2
  homBaseEE e _ := if e = 0 then !![1, 0, 0, 1; 0, 1, 0, 2; 0, 0, 1, 0; 0, 0, 0, 1] else 1
  isOnLink e := if e = 0 then 1 else 0

theorem demo_transform : IsForceTransform (demo.forceLinkBase (demo.isOnLink 0) ()) !![0, 1, 0; -1, 0, 0; 0, 0, 1] ![1, 0, 0] where
  rot := by
    constructor
    · ext i j; fin_cases i <;> fin_cases j <;> simp [Matrix.mul_apply, Fin.sum_univ_three]
    · simp [Matrix.det_fin_three]
  map τ f := by
    simp only [demo, Wrench.toVec, fromBlocks_mulVec]
    funext i
    rcases i with i | i <;> fin_cases i <;>
      simp [Matrix.mulVec, dotProduct, Fin.sum_univ_three, cross, vecHead, vecTail] <;> ring_nf <;> rfl

theorem demo_new : Kin.new demo 2 = .ok ⟨demo, [1, 0]⟩ := by
  simp [Kin.new, demo, Gen.eeIdToLinkId, List.range_succ, Res.pure_eq]

theorem demo_position : demo.getEEPositionInBase 0 () = .ok ![1, 2, 0] := by
  simp only [Gen.getEEPositionInBase, Gen.getHomogeneousTransformBaseEEById, demo, Res.pure_eq]
  simp only [Nat.zero_lt_succ, if_true, Res.ok_bind, Res.ok.injEq]
  funext i
  fin_cases i <;> simp

/-- The hypothesis of `C121_position` is met. -/
example : (0 : ℕ) < demo.ees := by simp [demo]

/-- The hypotheses of `C121_world_partial`, `C121_force_only_partial` and `C121_ee_partial` are met. -/
example (R : M3) (W : Wrench) : ∃ w, (⟨demo, [1, 0]⟩ : Kin Unit).mapForceFromWorldToLink W R () 0 = .ok w ∧
    ∀ w', Equivalent !![0, 1, 0; -1, 0, 0; 0, 0, 1] ![1, 0, 0] w' R ![1, 2, 0] W ↔ w' = w :=
  C121_world_partial demo_new () 0 (by norm_num) demo_position (by simp [demo]) (by simp [demo]) demo_transform R W

/-- The hypotheses of `C121_base_link_violated` are met with a non-zero force. -/
example : Kin.new demo 2 = .ok ⟨demo, [1, 0]⟩ ∧ demo.isOnLink 1 = 0 ∧
    (∃ x, demo.getEEPositionInBase 1 () = .ok x) ∧ (1 : M3)ᵀ *ᵥ (![0, 0, 1] : V3) ≠ 0 := by
  refine ⟨demo_new, by simp [demo], ?_, ?_⟩
  · simp [Gen.getEEPositionInBase, Gen.getHomogeneousTransformBaseEEById, demo, Res.pure_eq]
  intro h
  have := congrFun h 2
  simp at this

/-- The hypotheses of `C121_set_end_effector_violated` are met. -/
example : (1 : ℕ) < (⟨demo, [1, 0]⟩ : Kin Unit).endEffectors.length ∧ (⟨demo, [1, 0]⟩ : Kin Unit).endEffectors[1] ≠ 1 := by
  simp

end CT.ForceMap
