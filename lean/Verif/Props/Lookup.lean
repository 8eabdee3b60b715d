import Verif.Model.Lookup
import Verif.Props.GenKinJac
import Verif.Props.FrameJac

/-!
# Look-up of transforms and Jacobians by number: specification and rules

The theorems for the robots are in `Verif.Props.RobotLookups`.
-/

namespace CT.Lookup

open Matrix GenKin FrameJac CT.OpJac

/-! ### Specification -/

/-- With the frames of the robot at the poses `G`: the look-up of link `i + 1` is about the frame that joint `i`
turns.  It returns the matrix that maps coordinates in this frame to the base, and the one that maps spatial forces
in the base to this frame.  A number that is too large is rejected. -/
def Defs.LinksRight (d : Defs) (fs : List Frame) (G : ℕ → Pose) (q : ℕ → ℝ) : Prop :=
  (∀ i < d.njoints, ∃ f ∈ fs, f.joint = some i ∧ ∀ h,
    d.getHomogeneousTransformBaseLinkById h (i + 1) q = .ok (G f.id).hom
    ∧ d.getForceTransformLinkBaseById h (i + 1) q = .ok (G f.id).inv.force)
  ∧ ∀ i, d.njoints < i → ∀ h,
    d.getHomogeneousTransformBaseLinkById h i q = .exc ∧ d.getForceTransformLinkBaseById h i q = .exc

/-- The look-up of end effector `k` is about the `k`-th of the frames `es`; a number that is too large is
rejected. -/
def Defs.EEsRight (d : Defs) (es : List ℕ) (G : ℕ → Pose) (q : ℕ → ℝ) : Prop :=
  (∀ k f, es[k]? = some f → ∀ h,
    d.getHomogeneousTransformBaseEEById h k q = .ok (G f).hom
    ∧ d.getEEPositionInBase h k q = .ok (G f).p
    ∧ d.getEERotInBase h k q = .ok (G f).R)
  ∧ ∀ k, es.length ≤ k → ∀ h,
    d.getHomogeneousTransformBaseEEById h k q = .exc ∧ d.getEEPositionInBase h k q = .exc
    ∧ d.getEERotInBase h k q = .exc ∧ d.getJacobianBaseEEbyId h k q = .exc

/-- The link returned for an end effector, in the numbering of `LinksRight`, is the one that its frame is mounted
on. -/
def Defs.EELinkRight (d : Defs) (fs : List Frame) (k f : ℕ) : Prop :=
  ∃ i, d.eeIdToLinkId k = .ok (i + 1) ∧ ∃ g ∈ fs, g.joint = some i ∧ ∃ e ∈ fs, e.id = f ∧ e.parent = g.id ∧ e.joint = none

/-- End effector `k` along motions of the robot: `R` and `r` are orientation and position of the base, `ω` and `v`
its angular and linear velocity in base coordinates, `q` and `qd` positions and velocities of the joints.  All
functions return a value; the Jacobian times the joint velocities is the angular velocity and the velocity of the
end effector relative to the base, and the velocity in the world is the derivative of the position in the world. -/
def Defs.EEVelRight (d : Defs) (k : ℕ) : Prop :=
  ∀ (q : ℝ → ℕ → ℝ) (qd : ℕ → ℝ) (t : ℝ), (∀ j, HasDerivAt (fun s => q s j) (qd j) t) →
  ∀ (hp hr : ℝ → Hist) (hJ hX : Hist),
  ∃ (p : ℝ → V3) (C : ℝ → M3) (J : Matrix (Fin 6) (Fin d.njoints) ℝ),
    (∀ s, d.getEEPositionInBase (hp s) k (q s) = .ok (p s)) ∧ (∀ s, d.getEERotInBase (hr s) k (q s) = .ok (C s))
    ∧ d.getJacobianBaseEEbyId hJ k (q t) = .ok J
    ∧ (let V := J *ᵥ fun j => qd j
      VDeriv p ![V 3, V 4, V 5] t ∧ ∀ c : V3, VDeriv (fun s => C s *ᵥ c) (cross ![V 0, V 1, V 2] (C t *ᵥ c)) t)
    ∧ ∀ (R : ℝ → M3) (r : ℝ → V3) (ω v : V3),
      (∀ c : V3, VDeriv (fun s => R s *ᵥ c) (R t *ᵥ cross ω c) t) → VDeriv r (R t *ᵥ v) t →
      ∃ (P : ℝ → V3) (W : V3), (∀ s, d.getEEPositionInWorld (hp s) k (r s) (R s) (q s) = .ok (P s))
        ∧ d.getEEVelocityInWorld hJ hX k (R t) ω v (q t) qd = .ok W ∧ VDeriv P W t

/-! ### Checks -/

/-- The links from number `i + 1` on. -/
def LinksOk (fs : List Frame) (ts : List Trans) : ℕ → List (Trans × Trans) → Prop
  | _, [] => True
  | i, x :: l => (x.1 ∈ ts ∧ x.2 ∈ ts ∧ x.1.A = 0 ∧ x.2.B = 0 ∧ x.2.A = x.1.B
      ∧ ∃ f ∈ fs, f.id = x.1.B ∧ f.joint = some i) ∧ LinksOk fs ts (i + 1) l

theorem LinksOk.get {fs : List Frame} {ts : List Trans} : ∀ {i : ℕ} {l : List (Trans × Trans)} {k : ℕ} {x : Trans × Trans},
    LinksOk fs ts i l → l[k]? = some x → x.1 ∈ ts ∧ x.2 ∈ ts ∧ x.1.A = 0 ∧ x.2.B = 0 ∧ x.2.A = x.1.B
      ∧ ∃ f ∈ fs, f.id = x.1.B ∧ f.joint = some (i + k)
  | i, [], k, x, _, hk => by simp at hk
  | i, y :: l, 0, x, h, hk => by
    simp only [List.getElem?_cons_zero, Option.some.injEq] at hk
    exact hk ▸ h.1
  | i, y :: l, k + 1, x, h, hk => by
    rw [List.getElem?_cons_succ] at hk
    have := LinksOk.get h.2 hk
    rwa [show i + 1 + k = i + (k + 1) by omega] at this

theorem Delivers.call_eq {r c : ℕ} {g : Gen} {q : ℕ → ℝ} {M : Matrix (Fin r) (Fin c) ℝ} (h : Delivers g q M) (w : Hist) :
    (fun (a : Fin r) (b : Fin c) => call g w q a b) = M := by
  funext a b
  exact h.2.2.2 w.z w.calls a b

theorem links_right {d : Defs} {fs : List Frame} {ts : List Trans} {G : ℕ → Pose} {q : ℕ → ℝ} (h0 : G 0 = Pose.one)
    (ht : ∀ x ∈ ts, x.Right q (Pose.rel (G x.A) (G x.B))) (hl : d.links.length = d.njoints)
    (hk : LinksOk fs ts 0 d.links) : d.LinksRight fs G q := by
  refine ⟨fun i hi => ?_, fun i hi h => ?_⟩
  · obtain ⟨x, hx⟩ : ∃ x, d.links[i]? = some x := ⟨_, List.getElem?_eq_getElem (hl ▸ hi)⟩
    obtain ⟨k1, k2, k3, k4, k5, f, k6, k7, k8⟩ := hk.get hx
    refine ⟨f, k6, by simpa using k8, fun h => ?_⟩
    have t1 := (ht _ k1).1
    have t2 := (ht _ k2).2.2
    rw [k3, h0, Pose.rel_one] at t1
    rw [k4, h0, k5] at t2
    simp only [Defs.getHomogeneousTransformBaseLinkById, Defs.getForceTransformLinkBaseById, hx]
    rw [k7]
    refine ⟨congrArg Res.ok (Delivers.call_eq t1 h), ?_⟩
    have e : Pose.rel (G x.1.B) Pose.one = (G x.1.B).inv := by
      simp [Pose.rel, Pose.comp, Pose.inv, Pose.one]
    rw [← e]
    exact congrArg Res.ok (Delivers.call_eq t2 h)
  · obtain ⟨j, rfl⟩ : ∃ j, i = j + 1 := ⟨i - 1, by omega⟩
    have : d.links[j]? = none := List.getElem?_eq_none (by omega)
    simp [Defs.getHomogeneousTransformBaseLinkById, Defs.getForceTransformLinkBaseById, this]

theorem ee_right {d : Defs} {ts : List Trans} {G : ℕ → Pose} {q : ℕ → ℝ} (h0 : G 0 = Pose.one)
    (ht : ∀ x ∈ ts, x.Right q (Pose.rel (G x.A) (G x.B))) {k : ℕ} {e : EndEff} (he : d.ees[k]? = some e)
    (hx : e.X ∈ ts) (hA : e.X.A = 0) (h : Hist) :
    d.getHomogeneousTransformBaseEEById h k q = .ok (G e.X.B).hom
    ∧ d.getEEPositionInBase h k q = .ok (G e.X.B).p
    ∧ d.getEERotInBase h k q = .ok (G e.X.B).R := by
  have t1 := (ht _ hx).1
  rw [hA, h0, Pose.rel_one] at t1
  have e1 : d.getHomogeneousTransformBaseEEById h k q = .ok (G e.X.B).hom := by
    simp only [Defs.getHomogeneousTransformBaseEEById, he]
    exact congrArg Res.ok (Delivers.call_eq t1 h)
  refine ⟨e1, ?_, ?_⟩
  · rw [Defs.getEEPositionInBase, e1, Res.ok_bind, Res.pure_eq]
    refine congrArg Res.ok ?_
    funext i
    fin_cases i <;> rfl
  · rw [Defs.getEERotInBase, e1, Res.ok_bind, Res.pure_eq]
    refine congrArg Res.ok ?_
    funext i j
    fin_cases i <;> fin_cases j <;> rfl

theorem ees_right {d : Defs} {ts : List Trans} {G : ℕ → Pose} {q : ℕ → ℝ} (h0 : G 0 = Pose.one)
    (ht : ∀ x ∈ ts, x.Right q (Pose.rel (G x.A) (G x.B)))
    (hk : ∀ e ∈ d.ees, e.X ∈ ts ∧ e.X.A = 0) : d.EEsRight (d.ees.map fun e => e.X.B) G q := by
  refine ⟨fun k f hf h => ?_, fun k hk h => ?_⟩
  · rw [List.getElem?_map, Option.map_eq_some_iff] at hf
    obtain ⟨e, he, rfl⟩ := hf
    obtain ⟨k1, k2⟩ := hk e (List.mem_of_getElem? he)
    exact ee_right h0 ht he k1 k2 h
  · rw [List.length_map] at hk
    have : d.ees[k]? = none := List.getElem?_eq_none hk
    have e1 : d.getHomogeneousTransformBaseEEById h k q = .exc := by
      simp only [Defs.getHomogeneousTransformBaseEEById, this]
    refine ⟨e1, ?_, ?_, ?_⟩
    · rw [Defs.getEEPositionInBase, e1]; rfl
    · rw [Defs.getEERotInBase, e1]; rfl
    · simp only [Defs.getJacobianBaseEEbyId, this]

/-! ### Velocities -/

theorem IsPath.unique {fs : List Frame} (h0 : ∀ f ∈ fs, f.id ≠ 0) (hu : (fs.map Frame.id).Nodup) {i : ℕ} {a b : List ℕ}
    (ha : IsPath fs i a) (hb : IsPath fs i b) : a = b := by
  induction ha generalizing b with
  | base =>
    generalize hi : (0 : ℕ) = i at hb
    cases hb with
    | base => rfl
    | step hf _ => exact absurd hi.symm (h0 _ hf)
  | @step f js hf _ ih =>
    generalize hi : f.id = i at hb
    cases hb with
    | base => exact absurd hi (h0 _ hf)
    | @step g js' hg hp =>
      obtain rfl := List.inj_on_of_nodup_map hu hf hg hi
      rw [ih hp]

theorem Delivers.unique {r c : ℕ} {g : Gen} {q : ℕ → ℝ} {M N : Matrix (Fin r) (Fin c) ℝ} (h : Delivers g q M)
    (h' : Delivers g q N) : M = N := by
  funext i j
  rw [← h.2.2.2 (fun _ _ => 0) [] i j, h'.2.2.2]

/-- The sum over a block of columns. -/
theorem sum_block {n N a : ℕ} (h : a + n ≤ N) (f : Fin n → ℝ) (v : ℕ → ℝ) (F : ℕ → ℝ)
    (hF : ∀ k : Fin n, F k.1 = f k) :
    ∑ j : Fin N, (if a ≤ j.1 ∧ j.1 < a + n then F (j.1 - a) else 0) * v j.1 = ∑ k : Fin n, f k * v (a + k.1) := by
  have e1 : ∑ k : Fin n, f k * v (a + k.1) = ∑ k ∈ Finset.range n, F k * v (a + k) := by
    rw [← Fin.sum_univ_eq_sum_range (fun k => F k * v (a + k)) n]
    exact Finset.sum_congr rfl fun k _ => by rw [hF]
  have e2 : ∑ j : Fin N, (if a ≤ j.1 ∧ j.1 < a + n then F (j.1 - a) else 0) * v j.1
      = ∑ j ∈ Finset.range N, (if a ≤ j ∧ j < a + n then F (j - a) else 0) * v j :=
    Fin.sum_univ_eq_sum_range (fun j => (if a ≤ j ∧ j < a + n then F (j - a) else 0) * v j) N
  have e3 : ∑ j ∈ Finset.range N, (if a ≤ j ∧ j < a + n then F (j - a) else 0) * v j
      = ∑ j ∈ Finset.Ico a (a + n), F (j - a) * v j := by
    have hs : Finset.Ico a (a + n) ⊆ Finset.range N := fun j hj => by
      rw [Finset.mem_Ico] at hj
      rw [Finset.mem_range]
      omega
    rw [← Finset.sum_subset hs fun j _ hj => by
      rw [Finset.mem_Ico] at hj
      rw [if_neg hj, zero_mul]]
    refine Finset.sum_congr rfl fun j hj => ?_
    rw [Finset.mem_Ico] at hj
    rw [if_pos hj]
  rw [e1, e2, e3, Finset.sum_Ico_eq_sum_range]
  refine Finset.sum_congr (by simp) fun k _ => by simp

theorem vel_right {d : Defs} {fs : List Frame} {ts : List Trans} {C : ℕ → Pose}
    (ht : ∀ q, ∃ G, Arranged fs C q G ∧ ∀ x ∈ ts, x.Right q (Pose.rel (G x.A) (G x.B)))
    (h0 : ∀ f ∈ fs, f.id ≠ 0) (hu : (fs.map Frame.id).Nodup) {k : ℕ} {e : EndEff} (he : d.ees[k]? = some e)
    (hx : e.X ∈ ts) (hA : e.X.A = 0) (hf : e.J.f = e.X.B) (hj : e.J.Right fs ts)
    (hp : IsPath fs e.X.B ((List.range (e.last + 1 - e.first)).map (e.first + ·))) (hle : e.first ≤ e.last)
    (hl : e.last < d.njoints) : d.EEVelRight k := by
  choose G hG ht using ht
  obtain ⟨n, js, J, x, H, h1, h2, h3, h4, h5, h6, h7⟩ := hj
  rw [hf] at h1 h5
  have hH : ∀ q, H q = (G q e.X.B).hom := fun q => by
    have t := (ht q x h3).1
    rw [h4, (hG q).1, Pose.rel_one, h5] at t
    exact Delivers.unique (h6 q) t
  have hjs := IsPath.unique h0 hu h1 hp
  have hn : n = e.last + 1 - e.first := by
    have := congrArg List.length hjs
    simpa using this
  have hjk : ∀ k : Fin n, js k = e.first + k.1 := fun k => by
    have h8 : (List.ofFn js)[k.1]? = some (js k) := by simp
    rw [hjs] at h8
    have h9 : k.1 < e.last + 1 - e.first := hn ▸ k.2
    simp [h9] at h8
    omega
  intro q qd t hq hpos hrot hJ hX
  have hcols := (h2 (q t)).2.1
  set Jf : Matrix (Fin 6) (Fin d.njoints) ℝ := fun i j =>
    if e.first ≤ j.1 ∧ j.1 ≤ e.last then call e.J.gen hJ (q t) i (j.1 - e.first) else 0 with hJf
  have hV : ∀ i, (Jf *ᵥ fun j => qd j) i = (J (q t) *ᵥ fun k => qd (js k)) i := fun i => by
    have := sum_block (n := n) (N := d.njoints) (a := e.first) (by omega) (J (q t) i) qd
      (fun k => call e.J.gen hJ (q t) i k) (fun k => (h2 (q t)).2.2.2 hJ.z hJ.calls i k)
    simp only [Matrix.mulVec, dotProduct, hjk]
    rw [← this]
    refine Finset.sum_congr rfl fun j _ => ?_
    simp only [hJf]
    congr 1
    have : (e.first ≤ j.1 ∧ j.1 ≤ e.last) ↔ (e.first ≤ j.1 ∧ j.1 < e.first + n) := by omega
    simp only [this]
  have hgj : d.getJacobianBaseEEbyId hJ k (q t) = .ok Jf := by
    simp only [Defs.getJacobianBaseEEbyId, he]
    rw [if_pos ⟨by omega, hl⟩]
  obtain ⟨d1, d2⟩ := h7 q qd t hq
  simp only [hH, ← hV] at d1 d2
  have hp1 : ∀ w s, d.getEEPositionInBase w k (q s) = .ok (G (q s) e.X.B).p := fun w s =>
    (ee_right (hG (q s)).1 (ht (q s)) he hx hA w).2.1
  have hp2 : ∀ w s, d.getEERotInBase w k (q s) = .ok (G (q s) e.X.B).R := fun w s =>
    (ee_right (hG (q s)).1 (ht (q s)) he hx hA w).2.2
  have hpd : VDeriv (fun s => (G (q s) e.X.B).p)
      ![(Jf *ᵥ fun j => qd j) 3, (Jf *ᵥ fun j => qd j) 4, (Jf *ᵥ fun j => qd j) 5] t := by
    intro i
    have := d1 i
    fin_cases i <;> exact this
  have hmd : ∀ c : V3, VDeriv (fun s => (G (q s) e.X.B).R *ᵥ c)
      (cross ![(Jf *ᵥ fun j => qd j) 0, (Jf *ᵥ fun j => qd j) 1, (Jf *ᵥ fun j => qd j) 2] ((G (q t) e.X.B).R *ᵥ c)) t := by
    intro c
    have hM : MDeriv (fun s => (G (q s) e.X.B).R)
        (cpm ![(Jf *ᵥ fun j => qd j) 0, (Jf *ᵥ fun j => qd j) 1, (Jf *ᵥ fun j => qd j) 2] * (G (q t) e.X.B).R) t := by
      intro i c
      have h8 := d2 c i
      rw [← cpm_mulVec] at h8
      have h9 : (fun s => (G (q s) e.X.B).hom (i.castLE (by omega)) (c.castLE (by omega)))
          = fun s => (G (q s) e.X.B).R i c := by
        funext s
        fin_cases i <;> fin_cases c <;> rfl
      have h10 : (fun i : Fin 3 => (G (q t) e.X.B).hom (i.castLE (by omega)) (c.castLE (by omega)))
          = fun i => (G (q t) e.X.B).R i c := by
        funext i
        fin_cases i <;> fin_cases c <;> rfl
      rw [h9, h10] at h8
      exact h8
    have h11 := mulVec_deriv hM (VDeriv.const c t)
    rw [Matrix.mulVec_zero, add_zero, ← Matrix.mulVec_mulVec, cpm_mulVec] at h11
    exact h11
  refine ⟨_, _, Jf, fun s => hp1 (hpos s) s, fun s => hp2 (hrot s) s, hgj, ⟨hpd, hmd⟩, fun R r ω v hR hr => ?_⟩
  have hm : Motion R r (fun s => (G (q s) e.X.B).p) (fun _ => ω) (fun _ => v)
      (fun _ => (fun i k => Jf (i.natAdd 3) k : Matrix (Fin 3) (Fin d.njoints) ℝ)) (fun _ => fun j : Fin d.njoints => qd j) t := by
    refine ⟨hR, hr, ?_⟩
    have e3 : ((fun i k => Jf (i.natAdd 3) k : Matrix (Fin 3) (Fin d.njoints) ℝ) *ᵥ fun j : Fin d.njoints => qd j)
        = ![(Jf *ᵥ fun j => qd j) 3, (Jf *ᵥ fun j => qd j) 4, (Jf *ᵥ fun j => qd j) 5] := by
      funext i
      fin_cases i <;> rfl
    rw [e3]
    exact hpd
  refine ⟨_, _, fun s => ?_, ?_, (C116_velocity hm).1⟩
  · rw [Defs.getEEPositionInWorld, hp1 (hpos s) s]
    rfl
  · rw [Defs.getEEVelocityInWorld, Defs.getEEVelocityInBase, hgj, hp1 hX t]
    rfl

end CT.Lookup
