import Verif.Props.GenKinBase

/-!
# Velocities of the frames of a robot

The specification of the generated Jacobians, and the rule for their certificates.
-/

namespace CT.GenKin

open Matrix FrameJac Spatial CT.OpJac

/-! ### Specification -/

/-- The joints on the way from the frame 0 to a frame, in this order. -/
inductive IsPath (fs : List Frame) : ℕ → List ℕ → Prop
  | base : IsPath fs 0 []
  | step {f : Frame} {js : List ℕ} : f ∈ fs → IsPath fs f.parent js → IsPath fs f.id (js ++ f.joint.toList)

/-- `J` maps joint velocities to the angular velocity (rows 0 to 2) and to the velocity of the origin (rows 3 to
5) of the frame with the homogeneous matrix `H`: along every differentiable motion of the joints the origin moves
with this velocity, and the axes turn with this angular velocity.  Column `k` belongs to joint `js k`. -/
def IsJacobian {n : ℕ} (js : Fin n → ℕ) (J : (ℕ → ℝ) → Matrix (Fin 6) (Fin n) ℝ)
    (H : (ℕ → ℝ) → Matrix (Fin 4) (Fin 4) ℝ) : Prop :=
  ∀ (q : ℝ → ℕ → ℝ) (qd : ℕ → ℝ) (t : ℝ), (∀ j, HasDerivAt (fun s => q s j) (qd j) t) →
    let V := J (q t) *ᵥ fun k => qd (js k)
    (∀ i : Fin 3, HasDerivAt (fun s => H (q s) (i.castLE (by omega)) 3) (V (i.natAdd 3)) t)
    ∧ ∀ c : Fin 3, ∀ i : Fin 3, HasDerivAt (fun s => H (q s) (i.castLE (by omega)) (c.castLE (by omega)))
        (cross ![V 0, V 1, V 2] (fun i => H (q t) (i.castLE (by omega)) (c.castLE (by omega))) i) t

/-- The Jacobian of a frame is what it should be, for the homogeneous matrix delivered by one of the transforms. -/
def Jac.Right (fs : List Frame) (ts : List Trans) (j : Jac) : Prop :=
  ∃ (n : ℕ) (js : Fin n → ℕ) (J : (ℕ → ℝ) → Matrix (Fin 6) (Fin n) ℝ) (x : Trans)
    (H : (ℕ → ℝ) → Matrix (Fin 4) (Fin 4) ℝ),
    IsPath fs j.f (List.ofFn js) ∧ (∀ q, Delivers j.gen q (J q)) ∧ x ∈ ts ∧ x.A = 0 ∧ x.B = j.f
    ∧ (∀ q, Delivers x.hom q (H q)) ∧ IsJacobian js J H

/-! ### Angular velocities -/

/-- The joints on the way to a frame, and the frames that they turn. -/
def chain (fs : List Mount) : ℕ → List (ℕ × ℕ) :=
  fs.foldl (fun H f => Function.update H f.id (H f.parent ++ (f.joint.map fun j => (j, f.id)).toList)) fun _ => []

theorem chain_spec {fs : List Mount} (h : wf fs = true) :
    chain fs 0 = [] ∧ (∀ f ∈ fs, chain fs f.id = chain fs f.parent ++ (f.joint.map fun j => (j, f.id)).toList)
    ∧ ∀ i, (∀ f ∈ fs, f.id ≠ i) → chain fs i = [] ∧ ∀ q, poses fs q i = Pose.one := by
  simp only [wf, Bool.and_eq_true, List.all_eq_true, decide_eq_true_eq, Nat.blt_eq] at h
  obtain ⟨h1, h2⟩ := h
  induction fs using List.reverseRecOn with
  | nil => exact ⟨rfl, by simp, fun i _ => ⟨rfl, fun q => rfl⟩⟩
  | append_singleton fs f ih =>
    have h3 := List.pairwise_append.1 h2
    obtain ⟨i2, i3, i4⟩ := ih (fun g hg => h1 g (List.mem_append_left _ hg)) h3.1
    have hf := h1 f (by simp)
    have hlt : ∀ g ∈ fs, g.id < f.id := fun g hg => h3.2.2 g hg f (by simp)
    have hc : chain (fs ++ [f]) =
        Function.update (chain fs) f.id (chain fs f.parent ++ (f.joint.map fun j => (j, f.id)).toList) := by
      rw [chain, List.foldl_append]
      rfl
    have hp : ∀ q, poses (fs ++ [f]) q =
        Function.update (poses fs q) f.id ((poses fs q f.parent).comp (f.local q)) := fun q => by
      rw [poses, List.foldl_append]
      rfl
    rw [hc]
    refine ⟨?_, fun g hg => ?_, fun i hi => ?_⟩
    · rw [Function.update_of_ne (by omega), i2]
    · rcases List.mem_append.1 hg with hg | hg
      · have := hlt g hg
        have := (h1 g (List.mem_append_left _ hg)).1
        rw [Function.update_of_ne (by omega), Function.update_of_ne (by omega), i3 g hg]
      · rw [List.mem_singleton] at hg
        subst hg
        rw [Function.update_self, Function.update_of_ne (by omega)]
    · have h5 : i ≠ f.id := fun e => hi f (by simp) e.symm
      have h6 := i4 i fun g hg => hi g (List.mem_append_left _ hg)
      refine ⟨by rw [Function.update_of_ne h5, h6.1], fun q => ?_⟩
      rw [hp, Function.update_of_ne h5, h6.2]

/-- The third column: the axis of the joint. -/
def Pose.axis (a : Pose) : V3 := fun i => a.R i 2

/-- The sum of the angular velocities of the joints. -/
noncomputable def omega (fs : List Mount) (q qd : ℕ → ℝ) : List (ℕ × ℕ) → V3
  | [] => 0
  | (j, l) :: c => qd j • (poses fs q l).axis + omega fs q qd c

theorem omega_append (fs : List Mount) (q qd : ℕ → ℝ) (a b : List (ℕ × ℕ)) :
    omega fs q qd (a ++ b) = omega fs q qd a + omega fs q qd b := by
  induction a with
  | nil => simp [omega]
  | cons x a ih => rw [List.cons_append, omega, ih, omega, add_assoc]

theorem cpm_add (a b : V3) : cpm (a + b) = cpm a + cpm b := by
  ext i j
  fin_cases i <;> fin_cases j <;> simp [cpm] <;> ring

theorem cpm_smul (k : ℝ) (a : V3) : cpm (k • a) = k • cpm a := by
  ext i j
  fin_cases i <;> fin_cases j <;> simp [cpm]

theorem congrD {m n : ℕ} {f : ℝ → Matrix (Fin m) (Fin n) ℝ} {a b : Matrix (Fin m) (Fin n) ℝ} {t : ℝ}
    (h : MDeriv f a t) (e : a = b) : MDeriv f b t := e ▸ h

theorem turn_deriv {θ : ℝ → ℝ} {θ' t : ℝ} (h : HasDerivAt θ θ' t) :
    MDeriv (fun s => (Pose.turn (θ s)).R) (θ' • ((Pose.turn (θ t)).R * cpm ![0, 0, 1])) t := by
  intro i j
  have hs := h.sin
  have hc := h.cos
  fin_cases i <;> fin_cases j <;> simp [Pose.turn, Matrix.mul_apply, Fin.sum_univ_three, cpm] <;>
    first
    | exact hasDerivAt_const _ _
    | exact hc.congr_deriv (by ring)
    | exact hs.congr_deriv (by ring)
    | exact hs.neg.congr_deriv (by ring)

theorem rot_axis {R : M3} (hR : IsRot R) : R * cpm ![0, 0, 1] = cpm (fun i => R i 2) * R := by
  have h := cpm_rot hR ![0, 0, 1]
  have h1 : R *ᵥ ![0, 0, 1] = fun i => R i 2 := by
    funext i
    simp [Matrix.mulVec, dotProduct, Fin.sum_univ_three]
  rw [h1] at h
  rw [← h, Matrix.mul_assoc, hR.orth, Matrix.mul_one]

theorem rates {fs : List Mount} (h : wf fs = true) {q : ℝ → ℕ → ℝ} {qd : ℕ → ℝ} {t : ℝ}
    (hq : ∀ j, HasDerivAt (fun s => q s j) (qd j) t) (i : ℕ) :
    MDeriv (fun s => (poses fs (q s) i).R)
      (cpm (omega fs (q t) qd (chain fs i)) * (poses fs (q t) i).R) t := by
  induction i using Nat.strong_induction_on with
  | _ i ih =>
    obtain ⟨c1, c2, c3⟩ := chain_spec h
    by_cases hi : ∃ f ∈ fs, f.id = i
    · obtain ⟨f, hf, rfl⟩ := hi
      have hlt : f.parent < f.id := by
        simp only [wf, Bool.and_eq_true, List.all_eq_true, Nat.blt_eq] at h
        exact (h.1 f hf).1
      have hrot := (poses_spec h (q t)).1 f.id
      have hpar := ih f.parent hlt
      have he : ∀ s, (poses fs (q s) f.id).R
          = (poses fs (q s) f.parent).R * (f.pose.R * (f.joint.elim Pose.one fun j => Pose.turn (q s j)).R) := fun s => by
        rw [(poses_spec h (q s)).2.2 f hf]
        rfl
      rw [c2 f hf, omega_append]
      cases hj : f.joint with
      | none =>
        simp only [hj, Option.elim_none, Pose.one, Matrix.mul_one] at he
        have h1 := hpar.mul (MDeriv.const f.pose.R t)
        simp only [← he] at h1
        refine congrD h1 ?_
        simp only [Option.map_none, Option.toList_none, omega, add_zero, Matrix.mul_zero]
        rw [Matrix.mul_assoc, ← he t]
      | some j =>
        simp only [hj, Option.elim_some] at he
        have h1 := hpar.mul ((MDeriv.const f.pose.R t).mul (turn_deriv (hq j)))
        simp only [← he] at h1
        refine congrD h1 ?_
        simp only [Option.map_some, Option.toList_some, omega, add_zero, Matrix.zero_mul, zero_add]
        rw [Matrix.mul_assoc, ← he t, cpm_add, cpm_smul, Matrix.add_mul, Matrix.smul_mul]
        congr 1
        rw [show cpm (poses fs (q t) f.id).axis * (poses fs (q t) f.id).R = _ from (rot_axis hrot).symm, Matrix.mul_smul, Matrix.mul_smul, he t]
        simp only [Matrix.mul_assoc]
    · push Not at hi
      obtain ⟨h1, h2⟩ := c3 i hi
      simp only [h1, h2, omega]
      have h3 : cpm (0 : V3) * Pose.one.R = 0 := by
        ext a b
        fin_cases a <;> simp [cpm, Matrix.mul_apply, Fin.sum_univ_three]
      rw [h3]
      exact MDeriv.const _ t

theorem chain_path {fs : List Mount} (h : wf fs = true) {f : ℕ} (hf : f = 0 ∨ ∃ g ∈ fs, g.id = f) (hp : ∀ g ∈ fs, g.parent = 0 ∨ ∃ g' ∈ fs, g'.id = g.parent) :
    IsPath (fs.map Mount.toFrame) f ((chain fs f).map Prod.fst) := by
  obtain ⟨c1, c2, _⟩ := chain_spec h
  have hlt : ∀ g ∈ fs, g.parent < g.id := by
    simp only [wf, Bool.and_eq_true, List.all_eq_true, Nat.blt_eq] at h
    exact fun g hg => (h.1 g hg).1
  induction f using Nat.strong_induction_on with
  | _ f ih =>
    rcases hf with rfl | ⟨g, hg, rfl⟩
    · rw [c1]
      exact IsPath.base
    · rw [c2 g hg, List.map_append]
      have h1 := IsPath.step (List.mem_map_of_mem hg) (ih g.parent (hlt g hg) (hp g hg))
      cases hj : g.joint with
      | none => simpa [hj] using h1
      | some j => simpa [hj] using h1

/-! ### The generated Jacobians -/

/-- The columns of the Jacobian, each for a joint and the transform of the frame that it turns. -/
def okCols (vs : List ℕ) (g : Gen) (x : Trans) : ℕ → List (ℕ × Trans) → Bool
  | _, [] => true
  | k, (j, y) :: l =>
    ((List.range 3).all fun i => eqE vs (g.entry (3 + i) k) ((x.hom.entry i 3).D j)
      && eqE vs (g.entry i k) (y.hom.entry i 2))
    && okCols vs g x (k + 1) l

/-- The check for a Jacobian. -/
def Jac.ok (fs : List Mount) (j : Jac) (x : Trans) (cs : List (ℕ × Trans)) : Bool :=
  let vs := cs.map Prod.fst
  j.gen.full 6 cs.length && decide vs.Nodup && Nat.beq x.A 0 && Nat.beq x.B j.f
  && (cs.all fun c => Nat.beq c.2.A 0) && decide (chain fs j.f = cs.map fun c => (c.1, c.2.B))
  && ((List.range 3).all fun i => (x.hom.entry i 3).within vs) && okCols vs j.gen x 0 cs

theorem okCols_lin {vs : List ℕ} {g : Gen} {x : Trans} (q qd : ℕ → ℝ) (i : Fin 3) : ∀ (cs : List (ℕ × Trans)) (k : ℕ),
    okCols vs g x k cs = true →
    ∑ a : Fin cs.length, (g.entry (3 + i) (k + a)).eval q * qd (cs[a]).1
      = (cs.map fun c => ((x.hom.entry i 3).D c.1).eval q * qd c.1).sum
  | [], k, _ => by simp
  | (j, y) :: cs, k, h => by
    rw [okCols, Bool.and_eq_true] at h
    simp only [List.all_eq_true, List.mem_range, Bool.and_eq_true] at h
    have ih := okCols_lin q qd i cs (k + 1) h.2
    rw [List.map_cons, List.sum_cons, ← ih]
    show ∑ a : Fin (cs.length + 1), _ = _
    rw [Fin.sum_univ_succ]
    congr 1
    · simp only [Fin.val_zero, add_zero]
      rw [eqE_sound (h.1 i i.2).1 q]
      rfl
    · refine Finset.sum_congr rfl fun a _ => ?_
      have e : k + (a.succ : ℕ) = k + 1 + a := by simp; omega
      rw [e]
      rfl

theorem okCols_ang {fs : List Mount} (h : wf fs = true) {vs : List ℕ} {g : Gen} {x : Trans} (q qd : ℕ → ℝ) (i : Fin 3) :
    ∀ (cs : List (ℕ × Trans)) (k : ℕ), okCols vs g x k cs = true → (∀ c ∈ cs, c.2.A = 0 ∧ Good fs c.2.A c.2.B c.2.tri) →
    ∑ a : Fin cs.length, (g.entry i (k + a)).eval q * qd (cs[a]).1
      = omega fs q qd (cs.map fun c => (c.1, c.2.B)) i
  | [], k, _, _ => by simp [omega]
  | (j, y) :: cs, k, hc, hg => by
    rw [okCols, Bool.and_eq_true] at hc
    simp only [List.all_eq_true, List.mem_range, Bool.and_eq_true] at hc
    have ih := okCols_ang h q qd i cs (k + 1) hc.2 fun c hcs => hg c (List.mem_cons_of_mem _ hcs)
    rw [List.map_cons, omega, Pi.add_apply, ← ih]
    show ∑ a : Fin (cs.length + 1), _ = _
    rw [Fin.sum_univ_succ]
    congr 1
    · simp only [Fin.val_zero, add_zero]
      rw [eqE_sound (hc.1 i i.2).2 q]
      have h1 := hg (j, y) List.mem_cons_self
      have h2 := (h1.2 q).R i 2
      rw [h1.1, (poses_spec h q).2.1, Pose.rel_one] at h2
      have h3 : (y.hom.entry i 2).eval q = (poses fs q y.B).R i 2 := h2
      rw [h3, Pi.smul_apply, smul_eq_mul, mul_comm]
      rfl
    · refine Finset.sum_congr rfl fun a _ => ?_
      have e : k + (a.succ : ℕ) = k + 1 + a := by simp; omega
      rw [e]
      rfl

theorem Jac.right {fs : List Mount} (h : wf fs = true) (hp : ∀ g ∈ fs, g.parent = 0 ∨ ∃ g' ∈ fs, g'.id = g.parent)
    {ts : List Trans} {j : Jac} {x : Trans} {cs : List (ℕ × Trans)} (hj : j.f = 0 ∨ ∃ g ∈ fs, g.id = j.f)
    (hx : x ∈ ts) {vs : List ℕ} (hxo : x.ok vs = true)
    (hxg : Good fs x.A x.B x.tri) (hcs : ∀ c ∈ cs, Good fs c.2.A c.2.B c.2.tri) (hok : j.ok fs x cs = true) :
    j.Right (fs.map Mount.toFrame) ts := by
  simp only [Jac.ok, Bool.and_eq_true, List.all_eq_true, List.mem_range, decide_eq_true_eq] at hok
  obtain ⟨⟨⟨⟨⟨⟨⟨hfull, hn⟩, hA⟩, hB⟩, hcA⟩, hch⟩, hw⟩, hcol⟩ := hok
  have hA := Nat.eq_of_beq_eq_true hA
  have hB := Nat.eq_of_beq_eq_true hB
  have hcA : ∀ c ∈ cs, c.2.A = 0 := fun c hc => Nat.eq_of_beq_eq_true (hcA c hc)
  have hdel : ∀ q, Delivers x.hom q (poses fs q j.f).hom := fun q => by
    have h1 := (Trans.right hxo hxg q).1
    rw [hA, hB, (poses_spec h q).2.1, Pose.rel_one] at h1
    exact h1
  refine ⟨cs.length, fun k => (cs[k]).1, fun q => fun i k => (j.gen.entry i k).eval q, x,
    fun q => (poses fs q j.f).hom, ?_, fun q => ?_, hx, hA, hB, hdel, ?_⟩
  · have h1 := chain_path h hj hp
    rw [hch, List.map_map] at h1
    have h2 : (List.ofFn fun k : Fin cs.length => (cs[k]).1) = cs.map Prod.fst := by
      apply List.ext_getElem <;> simp
    rw [h2]
    exact h1
  · obtain ⟨f1, f2, f3⟩ := Gen.full_inside hfull
    exact ⟨f1, f2, f3, fun z calls i k => Gen.value hfull q z calls i.2 k.2⟩
  · intro q qd t hq
    dsimp only
    have hv : ∀ i : Fin 3, HasDerivAt (fun s => (poses fs (q s) j.f).p i)
        (∑ a : Fin cs.length, (j.gen.entry (3 + i) (0 + a)).eval (q t) * qd (cs[a]).1) t := by
      intro i
      have h1 := E.hasDerivAt hn hq (x.hom.entry i 3) (hw i i.2)
      have h2 : ∀ s, (x.hom.entry i 3).eval (q s) = (poses fs (q s) j.f).p i := fun s => by
        have h3 := (hxg (q s)).p i
        rw [hA, hB, (poses_spec h (q s)).2.1, Pose.rel_one] at h3
        exact h3
      simp only [h2] at h1
      refine h1.congr_deriv ?_
      rw [okCols_lin (q t) qd i cs 0 hcol, E.rate, List.map_map]
      rfl
    have hω : ∀ i : Fin 3, (∑ a : Fin cs.length, (j.gen.entry i (0 + a)).eval (q t) * qd (cs[a]).1)
        = omega fs (q t) qd (chain fs j.f) i := fun i => by
      rw [hch]
      exact okCols_ang h (q t) qd i cs 0 hcol fun c hc => ⟨hcA c hc, hcs c hc⟩
    have hrate := rates h hq j.f
    simp only [zero_add] at hv hω
    refine ⟨fun i => ?_, fun c i => ?_⟩
    · have h1 := hv i
      fin_cases i <;> exact h1
    · have h1 := hrate i c
      rw [← rot_col] at h1
      have h2 : (![∑ a : Fin cs.length, (j.gen.entry (0 : Fin 3) a).eval (q t) * qd (cs[a]).1,
          ∑ a : Fin cs.length, (j.gen.entry (1 : Fin 3) a).eval (q t) * qd (cs[a]).1,
          ∑ a : Fin cs.length, (j.gen.entry (2 : Fin 3) a).eval (q t) * qd (cs[a]).1] : V3)
          = omega fs (q t) qd (chain fs j.f) := by
        funext i
        fin_cases i
        · exact hω 0
        · exact hω 1
        · exact hω 2
      rw [← h2] at h1
      fin_cases i <;> fin_cases c <;> exact h1
where
  rot_col {ω : V3} {R : M3} {i c : Fin 3} : cross ω (fun k => R k c) i = (cpm ω * R) i c := by
    rw [← cpm_mulVec]
    rfl

end CT.GenKin
