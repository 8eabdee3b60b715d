import Verif.Model.Robots.WholeBody
import Verif.Props.InertiaMatrix
import Verif.Props.Robots.InvertedPendulumFrames
import Verif.Props.Robots.DoubleInvertedPendulumFrames
import Verif.Props.Robots.HyAFrames
import Verif.Props.Robots.QuadrotorWithLoadFrames
import Verif.Props.Robots.HyQFrames

/-!
# C191: the centre of mass of the whole robot
-/

namespace CT.Robots

open CT.GenKin Spatial FrameJac Matrix

/-! ### Specification -/

/-- `c` is the centre of mass of the links, which have the spatial inertias in the list and are placed at the poses `G`: whatever
masses a link consists of, the moment of all masses in the base frame is the total mass times `c`. -/
def IsCentreOf (G : ℕ → Pose) (links : List (ℕ × M6)) (c : V3) : Prop :=
  ∀ (κ : ℕ → Type) [∀ l, Fintype (κ l)] (μ : ∀ l, κ l → ℝ) (r : ∀ l, κ l → V3),
    (∀ l ∈ links, IsInertiaOf l.2 (μ l.1) (r l.1)) →
    0 < (links.map fun l => ∑ k, μ l.1 k).sum ∧
    (links.map fun l => ∑ k, μ l.1 k).sum • c
      = (links.map fun l => ∑ k, μ l.1 k • ((G l.1).R *ᵥ r l.1 k + (G l.1).p)).sum

/-! ### Lemmas -/

namespace WholeBody

theorem hom_mul (a b : Pose) : a.hom * b.hom = (a.comp b).hom := by
  ext i j
  fin_cases i <;> fin_cases j <;>
    simp [Pose.hom, Pose.comp, Matrix.mul_apply, Fin.sum_univ_four, Fin.sum_univ_three, Matrix.mulVec, dotProduct]

theorem transform_hom (a : Pose) (v : V3) : transform a.hom v = a.R *ᵥ v + a.p := by
  funext i
  fin_cases i <;> simp [transform, Pose.hom, Matrix.mulVec, dotProduct, Fin.sum_univ_three]

theorem part {κ : Type} [Fintype κ] {z : M6} {m : ℝ} {c : V3} {T : M3} {μ : κ → ℝ} {r : κ → V3}
    (h : IsInertiaOf (Inertia.fill (Inertia.new z) m c T) μ r) :
    ∑ k, μ k = m ∧ ∀ (R : M3) (p : V3), ∑ k, μ k • (R *ᵥ r k + p) = m • (R *ᵥ c + p) := by
  rw [inertia_iff] at h
  have e : ∀ i j, _ = _ := fun i j => congrFun (congrFun h i) j
  have e33 := e 3 3
  have h0 := e 2 4
  have h1 := e 0 5
  have h2 := e 1 3
  simp [Inertia.fill, blk, cpm] at e33 h0 h1 h2
  have hm : ∑ k, μ k • r k = m • c := by
    funext i
    fin_cases i
    · exact h0.symm
    · exact h1.symm
    · exact h2.symm
  refine ⟨e33.symm, fun R p => ?_⟩
  rw [smul_add, ← Matrix.mulVec_smul, ← hm, e33, Matrix.mulVec_sum, Finset.sum_smul, ← Finset.sum_add_distrib]
  refine Finset.sum_congr rfl fun k _ => ?_
  rw [smul_add, Matrix.mulVec_smul]

/-- Places and masses for any first and second moments (some masses can be negative). -/
theorem exists_masses (z : M6) (m : ℝ) (c : V3) (xx yy zz xy xz yz : ℝ) :
    ∃ (μ : Fin 10 → ℝ) (r : Fin 10 → V3),
      IsInertiaOf (Inertia.fill (Inertia.new z) m c (buildInertiaTensor xx yy zz xy xz yz)) μ r := by
  obtain ⟨u, hu⟩ : ∃ u, u = (yy + zz - xx) / 2 - xy - xz := ⟨_, rfl⟩
  obtain ⟨v, hv⟩ : ∃ v, v = (xx + zz - yy) / 2 - xy - yz := ⟨_, rfl⟩
  obtain ⟨w, hw⟩ : ∃ w, w = (xx + yy - zz) / 2 - xz - yz := ⟨_, rfl⟩
  obtain ⟨a, ha⟩ : ∃ a, a = m * c 0 - xy - xz := ⟨_, rfl⟩
  obtain ⟨b, hb⟩ : ∃ b, b = m * c 1 - xy - yz := ⟨_, rfl⟩
  obtain ⟨d, hd⟩ : ∃ d, d = m * c 2 - xz - yz := ⟨_, rfl⟩
  obtain ⟨μ, hμ⟩ : ∃ μ : Fin 10 → ℝ, μ = ![m - u - v - w - xy - xz - yz, (u + a) / 2, (u - a) / 2, (v + b) / 2, (v - b) / 2,
    (w + d) / 2, (w - d) / 2, xy, xz, yz] := ⟨_, rfl⟩
  obtain ⟨r, hr⟩ : ∃ r : Fin 10 → V3, r = ![![0, 0, 0], ![1, 0, 0], ![-1, 0, 0], ![0, 1, 0], ![0, -1, 0], ![0, 0, 1], ![0, 0, -1],
    ![1, 1, 0], ![1, 0, 1], ![0, 1, 1]] := ⟨_, rfl⟩
  have h1 : ∑ k, μ k = m := by
    simp [hμ, Fin.sum_univ_succ]
    ring
  have h2 : moment μ r = ![m * c 0, m * c 1, m * c 2] := by
    funext i
    fin_cases i <;> simp [moment, hμ, hr, Fin.sum_univ_succ] <;> linarith
  have h3 : classicalTensor μ r = buildInertiaTensor xx yy zz xy xz yz := by
    ext i j
    fin_cases i <;> fin_cases j <;> simp [classicalTensor, hμ, hr, buildInertiaTensor, Fin.sum_univ_succ] <;> linarith
  refine ⟨μ, r, ?_⟩
  rw [inertia_iff, tens_classical, h1, h2, h3]
  ext i j
  fin_cases i <;> fin_cases j <;> simp [Inertia.fill, Inertia.new, blk, cpm, buildInertiaTensor]

variable {n : ℕ} {cls : Fin n → Gen}

theorem after_eq (z : Fin n → Mem) (calls : List (Fin n × (ℕ → ℝ))) (k : Fin n) :
    ∃ cs, Ht.after cls z calls k = (cls k).after (z k) cs := by
  induction calls using List.reverseRecOn with
  | nil => exact ⟨[], rfl⟩
  | append_singleton l c ih =>
    obtain ⟨cs, ih⟩ := ih
    rw [Ht.after, List.foldl_append]
    change ∃ cs, Ht.call cls (Ht.after cls z l) c k = _
    by_cases hk : k = c.1
    · subst hk
      refine ⟨cs ++ [c.2], ?_⟩
      rw [Ht.call, Function.update_self, ih, Gen.after, Gen.after, List.foldl_append]
      rfl
    · exact ⟨cs, by rw [Ht.call, Function.update_of_ne hk, ih]⟩

theorem order_eq (q : ℕ → ℝ) : ∀ (l : List (Fin n)) (ht : Ht n), l.Nodup → ∀ k,
    l.foldl (fun ht k => Ht.call cls ht (k, q)) ht k = if k ∈ l then (cls k).update (ht k) q else ht k
  | [], ht, _, k => by simp
  | a :: l, ht, h, k => by
    rw [List.nodup_cons] at h
    rw [List.foldl_cons, order_eq q l _ h.2 k]
    by_cases hk : k = a
    · subst hk
      simp [h.1, Ht.call]
    · simp [Ht.call, hk]

theorem updated {q : ℕ → ℝ} {l : List (Fin n)} (hl : l.Nodup) {k : Fin n} (hk : k ∈ l) {M : M4} (h : Delivers (cls k) q M)
    (z : Fin n → Mem) (calls : List (Fin n × (ℕ → ℝ))) :
    m4 (l.foldl (fun ht k => Ht.call cls ht (k, q)) (Ht.after cls z calls) k) = M := by
  obtain ⟨cs, hc⟩ := after_eq (cls := cls) z calls k
  rw [order_eq q l _ hl, if_pos hk, hc]
  ext i j
  exact h.2.2.2 _ _ i j

end WholeBody

open WholeBody

namespace InvertedPendulum

theorem com_value (i : Inertias) (ht : Ht 1) (G : ℕ → Pose) (hr : ∀ f, IsRot (G f).R) (hb : G Kin.fr_InvertedPendulumBase = Pose.one)
    (h0 : m4 (ht 0) = (Pose.rel (G Kin.fr_InvertedPendulumBase) (G Kin.fr_Link1)).hom) :
    totalMass • wholeBodyCOM i ht
      = Inertia.getMass i.Link1 • ((G Kin.fr_Link1).R *ᵥ com_Link1 + (G Kin.fr_Link1).p) := by
  have ht0 : totalMass ≠ 0 := by norm_num [totalMass]
  funext k
  simp only [wholeBodyCOM, h0, Matrix.one_mul, hom_mul, Pose.rel_comp (hr _), transform_hom,
    zero_add, Pi.smul_apply, smul_eq_mul, mul_div_cancel₀ _ ht0]
  simp only [hb, Pose.rel_one]

/-- **C191 (InvertedPendulum).**  With the frames arranged as described, whatever the memory contained and whatever the transforms were
called with before, `getWholeBodyCOM` with joint positions returns the centre of mass of all masses the links consist of, in the
base frame, and without joint positions it then returns the same. -/
theorem C191_InvertedPendulum :
    ∃ C : ℕ → Pose, (∀ f, IsRot (C f).R) ∧ (∀ d ∈ Kin.description, C d.id = d.pose) ∧
    ∀ q, ∃ G, Arranged Kin.frames C q G ∧ ∀ zi z calls,
      let i := Inertias.new zi
      let r := wholeBodyCOMAt i q (Ht.after homs z calls)
      IsCentreOf G [(Kin.fr_Link1, i.Link1)] r.1
        ∧ wholeBodyCOM i r.2 = r.1 := by
  refine ⟨mounts Kin.mountList, mounts_rot Kin.wf_ok, Kin.described_ok, fun q => ⟨poses Kin.mountList q, ?_, ?_⟩⟩
  · rw [← Kin.frames_eq]
    exact arranged Kin.wf_ok q
  · intro zi z calls i r
    refine ⟨?_, rfl⟩
    obtain ⟨hr, hb, _⟩ := poses_spec Kin.wf_ok q
    have hl : ([0] : List (Fin 1)).Nodup := by decide
    have hv := com_value i r.2 (poses Kin.mountList q) hr hb
      (updated (cls := homs) hl (k := 0) (by decide) (Trans.right Kin.o_fr_InvertedPendulumBase_X_fr_Link1 Kin.g_fr_InvertedPendulumBase_X_fr_Link1 q).1 z calls)
    intro κ _ μ r' h
    change totalMass • r.1 = _ at hv
    obtain ⟨m_Link1, s_Link1⟩ := part (h (Kin.fr_Link1, i.Link1) (by simp))
    have g_Link1 : Inertia.getMass i.Link1 = _ := rfl
    have hs : (∑ k, μ Kin.fr_Link1 k) = totalMass := by
      rw [m_Link1]
      norm_num [totalMass]
    simp only [List.map_cons, List.map_nil, List.sum_cons, List.sum_nil, add_zero]
    rw [show (∑ k, μ Kin.fr_Link1 k) = totalMass from by linarith [hs]]
    refine ⟨by norm_num [totalMass], ?_⟩
    rw [hv, s_Link1]
    simp only [Inertia.getMass]
    rfl

/-- Every link can be made up of masses. -/
example (zi : Inertias) : ∀ l ∈ [(Kin.fr_Link1, (Inertias.new zi).Link1)],
    ∃ (μ : Fin 10 → ℝ) (r : Fin 10 → V3), IsInertiaOf l.2 μ r := by
  intro l hl
  simp only [List.mem_cons, List.not_mem_nil, or_false] at hl
  subst hl ; exact exists_masses ..

end InvertedPendulum

namespace DoubleInvertedPendulum

theorem com_value (i : Inertias) (ht : Ht 2) (G : ℕ → Pose) (hr : ∀ f, IsRot (G f).R) (hb : G Kin.fr_DoubleInvertedPendulumBase = Pose.one)
    (h0 : m4 (ht 0) = (Pose.rel (G Kin.fr_DoubleInvertedPendulumBase) (G Kin.fr_Link1)).hom)
    (h1 : m4 (ht 1) = (Pose.rel (G Kin.fr_Link1) (G Kin.fr_Link2)).hom) :
    totalMass • wholeBodyCOM i ht
      = Inertia.getMass i.Link1 • ((G Kin.fr_Link1).R *ᵥ com_Link1 + (G Kin.fr_Link1).p)
        + Inertia.getMass i.Link2 • ((G Kin.fr_Link2).R *ᵥ com_Link2 + (G Kin.fr_Link2).p) := by
  have ht0 : totalMass ≠ 0 := by norm_num [totalMass]
  funext k
  simp only [wholeBodyCOM, h0, h1, Matrix.one_mul, hom_mul, Pose.rel_comp (hr _), transform_hom,
    zero_add, Pi.smul_apply, smul_eq_mul, mul_div_cancel₀ _ ht0]
  simp only [hb, Pose.rel_one]

/-- **C191 (DoubleInvertedPendulum).**  With the frames arranged as described, whatever the memory contained and whatever the transforms were
called with before, `getWholeBodyCOM` with joint positions returns the centre of mass of all masses the links consist of, in the
base frame, and without joint positions it then returns the same. -/
theorem C191_DoubleInvertedPendulum :
    ∃ C : ℕ → Pose, (∀ f, IsRot (C f).R) ∧ (∀ d ∈ Kin.description, C d.id = d.pose) ∧
    ∀ q, ∃ G, Arranged Kin.frames C q G ∧ ∀ zi z calls,
      let i := Inertias.new zi
      let r := wholeBodyCOMAt i q (Ht.after homs z calls)
      IsCentreOf G [(Kin.fr_Link1, i.Link1), (Kin.fr_Link2, i.Link2)] r.1
        ∧ wholeBodyCOM i r.2 = r.1 := by
  refine ⟨mounts Kin.mountList, mounts_rot Kin.wf_ok, Kin.described_ok, fun q => ⟨poses Kin.mountList q, ?_, ?_⟩⟩
  · rw [← Kin.frames_eq]
    exact arranged Kin.wf_ok q
  · intro zi z calls i r
    refine ⟨?_, rfl⟩
    obtain ⟨hr, hb, _⟩ := poses_spec Kin.wf_ok q
    have hl : ([0, 1] : List (Fin 2)).Nodup := by decide
    have hv := com_value i r.2 (poses Kin.mountList q) hr hb
      (updated (cls := homs) hl (k := 0) (by decide) (Trans.right Kin.o_fr_DoubleInvertedPendulumBase_X_fr_Link1 Kin.g_fr_DoubleInvertedPendulumBase_X_fr_Link1 q).1 z calls)
      (updated (cls := homs) hl (k := 1) (by decide) (Trans.right Kin.o_fr_Link1_X_fr_Link2 Kin.g_fr_Link1_X_fr_Link2 q).1 z calls)
    intro κ _ μ r' h
    change totalMass • r.1 = _ at hv
    obtain ⟨m_Link1, s_Link1⟩ := part (h (Kin.fr_Link1, i.Link1) (by simp))
    obtain ⟨m_Link2, s_Link2⟩ := part (h (Kin.fr_Link2, i.Link2) (by simp))
    have g_Link1 : Inertia.getMass i.Link1 = _ := rfl
    have g_Link2 : Inertia.getMass i.Link2 = _ := rfl
    have hs : (∑ k, μ Kin.fr_Link1 k + ∑ k, μ Kin.fr_Link2 k) = totalMass := by
      rw [m_Link1, m_Link2]
      norm_num [totalMass]
    simp only [List.map_cons, List.map_nil, List.sum_cons, List.sum_nil, add_zero]
    rw [show (∑ k, μ Kin.fr_Link1 k + (∑ k, μ Kin.fr_Link2 k)) = totalMass from by linarith [hs]]
    refine ⟨by norm_num [totalMass], ?_⟩
    rw [hv, s_Link1, s_Link2]
    rfl

/-- Every link can be made up of masses. -/
example (zi : Inertias) : ∀ l ∈ [(Kin.fr_Link1, (Inertias.new zi).Link1), (Kin.fr_Link2, (Inertias.new zi).Link2)],
    ∃ (μ : Fin 10 → ℝ) (r : Fin 10 → V3), IsInertiaOf l.2 μ r := by
  intro l hl
  simp only [List.mem_cons, List.not_mem_nil, or_false] at hl
  rcases hl with rfl | rfl <;>  exact exists_masses ..

end DoubleInvertedPendulum

namespace HyA

theorem com_value (i : Inertias) (ht : Ht 6) (G : ℕ → Pose) (hr : ∀ f, IsRot (G f).R) (hb : G Kin.fr_HyABase = Pose.one)
    (h0 : m4 (ht 0) = (Pose.rel (G Kin.fr_HyABase) (G Kin.fr_Shoulder_AA)).hom)
    (h1 : m4 (ht 1) = (Pose.rel (G Kin.fr_Shoulder_AA) (G Kin.fr_Shoulder_FE)).hom)
    (h2 : m4 (ht 2) = (Pose.rel (G Kin.fr_Shoulder_FE) (G Kin.fr_Humerus_R)).hom)
    (h3 : m4 (ht 3) = (Pose.rel (G Kin.fr_Humerus_R) (G Kin.fr_Elbow_FE)).hom)
    (h4 : m4 (ht 4) = (Pose.rel (G Kin.fr_Elbow_FE) (G Kin.fr_Wrist_R)).hom)
    (h5 : m4 (ht 5) = (Pose.rel (G Kin.fr_Wrist_R) (G Kin.fr_Wrist_FE)).hom) :
    totalMass • wholeBodyCOM i ht
      = Inertia.getMass i.Shoulder_AA • ((G Kin.fr_Shoulder_AA).R *ᵥ com_Shoulder_AA + (G Kin.fr_Shoulder_AA).p)
        + Inertia.getMass i.Shoulder_FE • ((G Kin.fr_Shoulder_FE).R *ᵥ com_Shoulder_FE + (G Kin.fr_Shoulder_FE).p)
        + Inertia.getMass i.Humerus_R • ((G Kin.fr_Humerus_R).R *ᵥ com_Humerus_R + (G Kin.fr_Humerus_R).p)
        + Inertia.getMass i.Elbow_FE • ((G Kin.fr_Elbow_FE).R *ᵥ com_Elbow_FE + (G Kin.fr_Elbow_FE).p)
        + Inertia.getMass i.Wrist_R • ((G Kin.fr_Wrist_R).R *ᵥ com_Wrist_R + (G Kin.fr_Wrist_R).p)
        + Inertia.getMass i.Wrist_FE • ((G Kin.fr_Wrist_FE).R *ᵥ com_Wrist_FE + (G Kin.fr_Wrist_FE).p) := by
  have ht0 : totalMass ≠ 0 := by norm_num [totalMass]
  funext k
  simp only [wholeBodyCOM, h0, h1, h2, h3, h4, h5, Matrix.one_mul, hom_mul, Pose.rel_comp (hr _), transform_hom,
    zero_add, Pi.smul_apply, smul_eq_mul, mul_div_cancel₀ _ ht0]
  simp only [hb, Pose.rel_one]

/-- **C191 (HyA).**  With the frames arranged as described, whatever the memory contained and whatever the transforms were
called with before, `getWholeBodyCOM` with joint positions returns the centre of mass of all masses the links consist of, in the
base frame, and without joint positions it then returns the same. -/
theorem C191_HyA :
    ∃ C : ℕ → Pose, (∀ f, IsRot (C f).R) ∧ (∀ d ∈ Kin.description, C d.id = d.pose) ∧
    ∀ q, ∃ G, Arranged Kin.frames C q G ∧ ∀ zi z calls,
      let i := Inertias.new zi
      let r := wholeBodyCOMAt i q (Ht.after homs z calls)
      IsCentreOf G [(Kin.fr_Shoulder_AA, i.Shoulder_AA), (Kin.fr_Shoulder_FE, i.Shoulder_FE), (Kin.fr_Humerus_R, i.Humerus_R), (Kin.fr_Elbow_FE, i.Elbow_FE), (Kin.fr_Wrist_R, i.Wrist_R), (Kin.fr_Wrist_FE, i.Wrist_FE)] r.1
        ∧ wholeBodyCOM i r.2 = r.1 := by
  refine ⟨mounts Kin.mountList, mounts_rot Kin.wf_ok, Kin.described_ok, fun q => ⟨poses Kin.mountList q, ?_, ?_⟩⟩
  · rw [← Kin.frames_eq]
    exact arranged Kin.wf_ok q
  · intro zi z calls i r
    refine ⟨?_, rfl⟩
    obtain ⟨hr, hb, _⟩ := poses_spec Kin.wf_ok q
    have hl : ([0, 1, 2, 3, 4, 5] : List (Fin 6)).Nodup := by decide
    have hv := com_value i r.2 (poses Kin.mountList q) hr hb
      (updated (cls := homs) hl (k := 0) (by decide) (Trans.right Kin.o_fr_HyABase_X_fr_Shoulder_AA Kin.g_fr_HyABase_X_fr_Shoulder_AA q).1 z calls)
      (updated (cls := homs) hl (k := 1) (by decide) (Trans.right Kin.o_fr_Shoulder_AA_X_fr_Shoulder_FE Kin.g_fr_Shoulder_AA_X_fr_Shoulder_FE q).1 z calls)
      (updated (cls := homs) hl (k := 2) (by decide) (Trans.right Kin.o_fr_Shoulder_FE_X_fr_Humerus_R Kin.g_fr_Shoulder_FE_X_fr_Humerus_R q).1 z calls)
      (updated (cls := homs) hl (k := 3) (by decide) (Trans.right Kin.o_fr_Humerus_R_X_fr_Elbow_FE Kin.g_fr_Humerus_R_X_fr_Elbow_FE q).1 z calls)
      (updated (cls := homs) hl (k := 4) (by decide) (Trans.right Kin.o_fr_Elbow_FE_X_fr_Wrist_R Kin.g_fr_Elbow_FE_X_fr_Wrist_R q).1 z calls)
      (updated (cls := homs) hl (k := 5) (by decide) (Trans.right Kin.o_fr_Wrist_R_X_fr_Wrist_FE Kin.g_fr_Wrist_R_X_fr_Wrist_FE q).1 z calls)
    intro κ _ μ r' h
    change totalMass • r.1 = _ at hv
    obtain ⟨m_Shoulder_AA, s_Shoulder_AA⟩ := part (h (Kin.fr_Shoulder_AA, i.Shoulder_AA) (by simp))
    obtain ⟨m_Shoulder_FE, s_Shoulder_FE⟩ := part (h (Kin.fr_Shoulder_FE, i.Shoulder_FE) (by simp))
    obtain ⟨m_Humerus_R, s_Humerus_R⟩ := part (h (Kin.fr_Humerus_R, i.Humerus_R) (by simp))
    obtain ⟨m_Elbow_FE, s_Elbow_FE⟩ := part (h (Kin.fr_Elbow_FE, i.Elbow_FE) (by simp))
    obtain ⟨m_Wrist_R, s_Wrist_R⟩ := part (h (Kin.fr_Wrist_R, i.Wrist_R) (by simp))
    obtain ⟨m_Wrist_FE, s_Wrist_FE⟩ := part (h (Kin.fr_Wrist_FE, i.Wrist_FE) (by simp))
    have g_Shoulder_AA : Inertia.getMass i.Shoulder_AA = _ := rfl
    have g_Shoulder_FE : Inertia.getMass i.Shoulder_FE = _ := rfl
    have g_Humerus_R : Inertia.getMass i.Humerus_R = _ := rfl
    have g_Elbow_FE : Inertia.getMass i.Elbow_FE = _ := rfl
    have g_Wrist_R : Inertia.getMass i.Wrist_R = _ := rfl
    have g_Wrist_FE : Inertia.getMass i.Wrist_FE = _ := rfl
    have hs : (∑ k, μ Kin.fr_Shoulder_AA k + ∑ k, μ Kin.fr_Shoulder_FE k + ∑ k, μ Kin.fr_Humerus_R k + ∑ k, μ Kin.fr_Elbow_FE k + ∑ k, μ Kin.fr_Wrist_R k + ∑ k, μ Kin.fr_Wrist_FE k) = totalMass := by
      rw [m_Shoulder_AA, m_Shoulder_FE, m_Humerus_R, m_Elbow_FE, m_Wrist_R, m_Wrist_FE]
      norm_num [totalMass]
    simp only [List.map_cons, List.map_nil, List.sum_cons, List.sum_nil, add_zero]
    rw [show (∑ k, μ Kin.fr_Shoulder_AA k + (∑ k, μ Kin.fr_Shoulder_FE k + (∑ k, μ Kin.fr_Humerus_R k + (∑ k, μ Kin.fr_Elbow_FE k + (∑ k, μ Kin.fr_Wrist_R k + (∑ k, μ Kin.fr_Wrist_FE k)))))) = totalMass from by linarith [hs]]
    refine ⟨by norm_num [totalMass], ?_⟩
    rw [hv, s_Shoulder_AA, s_Shoulder_FE, s_Humerus_R, s_Elbow_FE, s_Wrist_R, s_Wrist_FE]
    simp only [add_assoc]
    rfl

/-- Every link can be made up of masses. -/
example (zi : Inertias) : ∀ l ∈ [(Kin.fr_Shoulder_AA, (Inertias.new zi).Shoulder_AA), (Kin.fr_Shoulder_FE, (Inertias.new zi).Shoulder_FE), (Kin.fr_Humerus_R, (Inertias.new zi).Humerus_R), (Kin.fr_Elbow_FE, (Inertias.new zi).Elbow_FE), (Kin.fr_Wrist_R, (Inertias.new zi).Wrist_R), (Kin.fr_Wrist_FE, (Inertias.new zi).Wrist_FE)],
    ∃ (μ : Fin 10 → ℝ) (r : Fin 10 → V3), IsInertiaOf l.2 μ r := by
  intro l hl
  simp only [List.mem_cons, List.not_mem_nil, or_false] at hl
  rcases hl with rfl | rfl | rfl | rfl | rfl | rfl <;>  exact exists_masses ..

end HyA

namespace QuadrotorWithLoad

theorem com_value (i : Inertias) (ht : Ht 2) (G : ℕ → Pose) (hr : ∀ f, IsRot (G f).R) (hb : G Kin.fr_body = Pose.one)
    (h0 : m4 (ht 0) = (Pose.rel (G Kin.fr_body) (G Kin.fr_link1)).hom)
    (h1 : m4 (ht 1) = (Pose.rel (G Kin.fr_link1) (G Kin.fr_link2)).hom) :
    totalMass • wholeBodyCOM i ht
      = Inertia.getMass i.body • com_body
        + Inertia.getMass i.link1 • ((G Kin.fr_link1).R *ᵥ com_link1 + (G Kin.fr_link1).p)
        + Inertia.getMass i.link2 • ((G Kin.fr_link2).R *ᵥ com_link2 + (G Kin.fr_link2).p) := by
  have ht0 : totalMass ≠ 0 := by norm_num [totalMass]
  funext k
  simp only [wholeBodyCOM, h0, h1, Matrix.one_mul, hom_mul, Pose.rel_comp (hr _), transform_hom,
    zero_add, Pi.smul_apply, smul_eq_mul, mul_div_cancel₀ _ ht0]
  simp only [hb, Pose.rel_one]

/-- **C191 (QuadrotorWithLoad).**  With the frames arranged as described, whatever the memory contained and whatever the transforms were
called with before, `getWholeBodyCOM` with joint positions returns the centre of mass of all masses the links consist of, in the
base frame, and without joint positions it then returns the same. -/
theorem C191_QuadrotorWithLoad :
    ∃ C : ℕ → Pose, (∀ f, IsRot (C f).R) ∧ (∀ d ∈ Kin.description, C d.id = d.pose) ∧
    ∀ q, ∃ G, Arranged Kin.frames C q G ∧ ∀ zi z calls,
      let i := Inertias.new zi
      let r := wholeBodyCOMAt i q (Ht.after homs z calls)
      IsCentreOf G [(Kin.fr_body, i.body), (Kin.fr_link1, i.link1), (Kin.fr_link2, i.link2)] r.1
        ∧ wholeBodyCOM i r.2 = r.1 := by
  refine ⟨mounts Kin.mountList, mounts_rot Kin.wf_ok, Kin.described_ok, fun q => ⟨poses Kin.mountList q, ?_, ?_⟩⟩
  · rw [← Kin.frames_eq]
    exact arranged Kin.wf_ok q
  · intro zi z calls i r
    refine ⟨?_, rfl⟩
    obtain ⟨hr, hb, _⟩ := poses_spec Kin.wf_ok q
    have hl : ([0, 1] : List (Fin 2)).Nodup := by decide
    have hv := com_value i r.2 (poses Kin.mountList q) hr hb
      (updated (cls := homs) hl (k := 0) (by decide) (Trans.right Kin.o_fr_body_X_fr_link1 Kin.g_fr_body_X_fr_link1 q).1 z calls)
      (updated (cls := homs) hl (k := 1) (by decide) (Trans.right Kin.o_fr_link1_X_fr_link2 Kin.g_fr_link1_X_fr_link2 q).1 z calls)
    intro κ _ μ r' h
    change totalMass • r.1 = _ at hv
    obtain ⟨m_body, s_body⟩ := part (h (Kin.fr_body, i.body) (by simp))
    obtain ⟨m_link1, s_link1⟩ := part (h (Kin.fr_link1, i.link1) (by simp))
    obtain ⟨m_link2, s_link2⟩ := part (h (Kin.fr_link2, i.link2) (by simp))
    have g_body : Inertia.getMass i.body = _ := rfl
    have g_link1 : Inertia.getMass i.link1 = _ := rfl
    have g_link2 : Inertia.getMass i.link2 = _ := rfl
    have hs : (∑ k, μ Kin.fr_body k + ∑ k, μ Kin.fr_link1 k + ∑ k, μ Kin.fr_link2 k) = totalMass := by
      rw [m_body, m_link1, m_link2]
      norm_num [totalMass]
    simp only [List.map_cons, List.map_nil, List.sum_cons, List.sum_nil, add_zero]
    rw [show (∑ k, μ Kin.fr_body k + (∑ k, μ Kin.fr_link1 k + (∑ k, μ Kin.fr_link2 k))) = totalMass from by linarith [hs]]
    refine ⟨by norm_num [totalMass], ?_⟩
    rw [hv, s_body, s_link1, s_link2]
    have hb' : poses Kin.mountList q Kin.fr_body = Pose.one := hb
    rw [hb']
    simp only [Pose.one, Matrix.one_mulVec, add_zero]
    simp only [add_assoc]
    rfl

/-- Every link can be made up of masses. -/
example (zi : Inertias) : ∀ l ∈ [(Kin.fr_body, (Inertias.new zi).body), (Kin.fr_link1, (Inertias.new zi).link1), (Kin.fr_link2, (Inertias.new zi).link2)],
    ∃ (μ : Fin 10 → ℝ) (r : Fin 10 → V3), IsInertiaOf l.2 μ r := by
  intro l hl
  simp only [List.mem_cons, List.not_mem_nil, or_false] at hl
  rcases hl with rfl | rfl | rfl <;>  exact exists_masses ..

end QuadrotorWithLoad

namespace HyQ

theorem com_value (i : Inertias) (ht : Ht 12) (G : ℕ → Pose) (hr : ∀ f, IsRot (G f).R) (hb : G Kin.fr_trunk = Pose.one)
    (h0 : m4 (ht 0) = (Pose.rel (G Kin.fr_trunk) (G Kin.fr_LF_hipassembly)).hom)
    (h1 : m4 (ht 1) = (Pose.rel (G Kin.fr_trunk) (G Kin.fr_RF_hipassembly)).hom)
    (h2 : m4 (ht 2) = (Pose.rel (G Kin.fr_trunk) (G Kin.fr_LH_hipassembly)).hom)
    (h3 : m4 (ht 3) = (Pose.rel (G Kin.fr_trunk) (G Kin.fr_RH_hipassembly)).hom)
    (h4 : m4 (ht 4) = (Pose.rel (G Kin.fr_LF_hipassembly) (G Kin.fr_LF_upperleg)).hom)
    (h5 : m4 (ht 5) = (Pose.rel (G Kin.fr_LF_upperleg) (G Kin.fr_LF_lowerleg)).hom)
    (h6 : m4 (ht 6) = (Pose.rel (G Kin.fr_RF_hipassembly) (G Kin.fr_RF_upperleg)).hom)
    (h7 : m4 (ht 7) = (Pose.rel (G Kin.fr_RF_upperleg) (G Kin.fr_RF_lowerleg)).hom)
    (h8 : m4 (ht 8) = (Pose.rel (G Kin.fr_LH_hipassembly) (G Kin.fr_LH_upperleg)).hom)
    (h9 : m4 (ht 9) = (Pose.rel (G Kin.fr_LH_upperleg) (G Kin.fr_LH_lowerleg)).hom)
    (h10 : m4 (ht 10) = (Pose.rel (G Kin.fr_RH_hipassembly) (G Kin.fr_RH_upperleg)).hom)
    (h11 : m4 (ht 11) = (Pose.rel (G Kin.fr_RH_upperleg) (G Kin.fr_RH_lowerleg)).hom) :
    totalMass • wholeBodyCOM i ht
      = Inertia.getMass i.trunk • com_trunk
        + Inertia.getMass i.LF_hipassembly • ((G Kin.fr_LF_hipassembly).R *ᵥ com_LF_hipassembly + (G Kin.fr_LF_hipassembly).p)
        + Inertia.getMass i.LF_upperleg • ((G Kin.fr_LF_upperleg).R *ᵥ com_LF_upperleg + (G Kin.fr_LF_upperleg).p)
        + Inertia.getMass i.LF_lowerleg • ((G Kin.fr_LF_lowerleg).R *ᵥ com_LF_lowerleg + (G Kin.fr_LF_lowerleg).p)
        + Inertia.getMass i.RF_hipassembly • ((G Kin.fr_RF_hipassembly).R *ᵥ com_RF_hipassembly + (G Kin.fr_RF_hipassembly).p)
        + Inertia.getMass i.RF_upperleg • ((G Kin.fr_RF_upperleg).R *ᵥ com_RF_upperleg + (G Kin.fr_RF_upperleg).p)
        + Inertia.getMass i.RF_lowerleg • ((G Kin.fr_RF_lowerleg).R *ᵥ com_RF_lowerleg + (G Kin.fr_RF_lowerleg).p)
        + Inertia.getMass i.LH_hipassembly • ((G Kin.fr_LH_hipassembly).R *ᵥ com_LH_hipassembly + (G Kin.fr_LH_hipassembly).p)
        + Inertia.getMass i.LH_upperleg • ((G Kin.fr_LH_upperleg).R *ᵥ com_LH_upperleg + (G Kin.fr_LH_upperleg).p)
        + Inertia.getMass i.LH_lowerleg • ((G Kin.fr_LH_lowerleg).R *ᵥ com_LH_lowerleg + (G Kin.fr_LH_lowerleg).p)
        + Inertia.getMass i.RH_hipassembly • ((G Kin.fr_RH_hipassembly).R *ᵥ com_RH_hipassembly + (G Kin.fr_RH_hipassembly).p)
        + Inertia.getMass i.RH_upperleg • ((G Kin.fr_RH_upperleg).R *ᵥ com_RH_upperleg + (G Kin.fr_RH_upperleg).p)
        + Inertia.getMass i.RH_lowerleg • ((G Kin.fr_RH_lowerleg).R *ᵥ com_RH_lowerleg + (G Kin.fr_RH_lowerleg).p) := by
  have ht0 : totalMass ≠ 0 := by norm_num [totalMass]
  funext k
  simp only [wholeBodyCOM, h0, h1, h2, h3, h4, h5, h6, h7, h8, h9, h10, h11, Matrix.one_mul, hom_mul, Pose.rel_comp (hr _), transform_hom,
    zero_add, Pi.smul_apply, smul_eq_mul, mul_div_cancel₀ _ ht0]
  simp only [hb, Pose.rel_one]

/-- **C191 (HyQ).**  With the frames arranged as the transforms have them (C130), whatever the memory contained and whatever the transforms were
called with before, `getWholeBodyCOM` with joint positions returns the centre of mass of all masses the links consist of, in the
base frame, and without joint positions it then returns the same. -/
theorem C191_HyQ :
    ∃ C : ℕ → Pose, (∀ f, IsRot (C f).R) ∧
    ∀ q, ∃ G, Arranged Kin.frames C q G ∧ (∀ x ∈ Kin.transforms, x.Right q (Pose.rel (G x.A) (G x.B))) ∧ ∀ zi z calls,
      let i := Inertias.new zi
      let r := wholeBodyCOMAt i q (Ht.after homs z calls)
      IsCentreOf G [(Kin.fr_trunk, i.trunk), (Kin.fr_LF_hipassembly, i.LF_hipassembly), (Kin.fr_LF_upperleg, i.LF_upperleg), (Kin.fr_LF_lowerleg, i.LF_lowerleg), (Kin.fr_RF_hipassembly, i.RF_hipassembly), (Kin.fr_RF_upperleg, i.RF_upperleg), (Kin.fr_RF_lowerleg, i.RF_lowerleg), (Kin.fr_LH_hipassembly, i.LH_hipassembly), (Kin.fr_LH_upperleg, i.LH_upperleg), (Kin.fr_LH_lowerleg, i.LH_lowerleg), (Kin.fr_RH_hipassembly, i.RH_hipassembly), (Kin.fr_RH_upperleg, i.RH_upperleg), (Kin.fr_RH_lowerleg, i.RH_lowerleg)] r.1
        ∧ wholeBodyCOM i r.2 = r.1 := by
  refine ⟨mounts Kin.mountList, mounts_rot Kin.wf_ok, fun q => ⟨poses Kin.mountList q, ?_, Kin.transforms_right q, ?_⟩⟩
  · rw [← Kin.frames_eq]
    exact arranged Kin.wf_ok q
  · intro zi z calls i r
    refine ⟨?_, rfl⟩
    obtain ⟨hr, hb, _⟩ := poses_spec Kin.wf_ok q
    have hl : ([0, 1, 2, 3, 4, 5, 6, 7, 8, 9, 10, 11] : List (Fin 12)).Nodup := by decide
    have hv := com_value i r.2 (poses Kin.mountList q) hr hb
      (updated (cls := homs) hl (k := 0) (by decide) (Trans.right Kin.o_fr_trunk_X_fr_LF_hipassembly Kin.g_fr_trunk_X_fr_LF_hipassembly q).1 z calls)
      (updated (cls := homs) hl (k := 1) (by decide) (Trans.right Kin.o_fr_trunk_X_fr_RF_hipassembly Kin.g_fr_trunk_X_fr_RF_hipassembly q).1 z calls)
      (updated (cls := homs) hl (k := 2) (by decide) (Trans.right Kin.o_fr_trunk_X_fr_LH_hipassembly Kin.g_fr_trunk_X_fr_LH_hipassembly q).1 z calls)
      (updated (cls := homs) hl (k := 3) (by decide) (Trans.right Kin.o_fr_trunk_X_fr_RH_hipassembly Kin.g_fr_trunk_X_fr_RH_hipassembly q).1 z calls)
      (updated (cls := homs) hl (k := 4) (by decide) (Trans.right Kin.o_fr_LF_hipassembly_X_fr_LF_upperleg Kin.g_fr_LF_hipassembly_X_fr_LF_upperleg q).1 z calls)
      (updated (cls := homs) hl (k := 5) (by decide) (Trans.right Kin.o_fr_LF_upperleg_X_fr_LF_lowerleg Kin.g_fr_LF_upperleg_X_fr_LF_lowerleg q).1 z calls)
      (updated (cls := homs) hl (k := 6) (by decide) (Trans.right Kin.o_fr_RF_hipassembly_X_fr_RF_upperleg Kin.g_fr_RF_hipassembly_X_fr_RF_upperleg q).1 z calls)
      (updated (cls := homs) hl (k := 7) (by decide) (Trans.right Kin.o_fr_RF_upperleg_X_fr_RF_lowerleg Kin.g_fr_RF_upperleg_X_fr_RF_lowerleg q).1 z calls)
      (updated (cls := homs) hl (k := 8) (by decide) (Trans.right Kin.o_fr_LH_hipassembly_X_fr_LH_upperleg Kin.g_fr_LH_hipassembly_X_fr_LH_upperleg q).1 z calls)
      (updated (cls := homs) hl (k := 9) (by decide) (Trans.right Kin.o_fr_LH_upperleg_X_fr_LH_lowerleg Kin.g_fr_LH_upperleg_X_fr_LH_lowerleg q).1 z calls)
      (updated (cls := homs) hl (k := 10) (by decide) (Trans.right Kin.o_fr_RH_hipassembly_X_fr_RH_upperleg Kin.g_fr_RH_hipassembly_X_fr_RH_upperleg q).1 z calls)
      (updated (cls := homs) hl (k := 11) (by decide) (Trans.right Kin.o_fr_RH_upperleg_X_fr_RH_lowerleg Kin.g_fr_RH_upperleg_X_fr_RH_lowerleg q).1 z calls)
    intro κ _ μ r' h
    change totalMass • r.1 = _ at hv
    obtain ⟨m_trunk, s_trunk⟩ := part (h (Kin.fr_trunk, i.trunk) (by simp))
    obtain ⟨m_LF_hipassembly, s_LF_hipassembly⟩ := part (h (Kin.fr_LF_hipassembly, i.LF_hipassembly) (by simp))
    obtain ⟨m_LF_upperleg, s_LF_upperleg⟩ := part (h (Kin.fr_LF_upperleg, i.LF_upperleg) (by simp))
    obtain ⟨m_LF_lowerleg, s_LF_lowerleg⟩ := part (h (Kin.fr_LF_lowerleg, i.LF_lowerleg) (by simp))
    obtain ⟨m_RF_hipassembly, s_RF_hipassembly⟩ := part (h (Kin.fr_RF_hipassembly, i.RF_hipassembly) (by simp))
    obtain ⟨m_RF_upperleg, s_RF_upperleg⟩ := part (h (Kin.fr_RF_upperleg, i.RF_upperleg) (by simp))
    obtain ⟨m_RF_lowerleg, s_RF_lowerleg⟩ := part (h (Kin.fr_RF_lowerleg, i.RF_lowerleg) (by simp))
    obtain ⟨m_LH_hipassembly, s_LH_hipassembly⟩ := part (h (Kin.fr_LH_hipassembly, i.LH_hipassembly) (by simp))
    obtain ⟨m_LH_upperleg, s_LH_upperleg⟩ := part (h (Kin.fr_LH_upperleg, i.LH_upperleg) (by simp))
    obtain ⟨m_LH_lowerleg, s_LH_lowerleg⟩ := part (h (Kin.fr_LH_lowerleg, i.LH_lowerleg) (by simp))
    obtain ⟨m_RH_hipassembly, s_RH_hipassembly⟩ := part (h (Kin.fr_RH_hipassembly, i.RH_hipassembly) (by simp))
    obtain ⟨m_RH_upperleg, s_RH_upperleg⟩ := part (h (Kin.fr_RH_upperleg, i.RH_upperleg) (by simp))
    obtain ⟨m_RH_lowerleg, s_RH_lowerleg⟩ := part (h (Kin.fr_RH_lowerleg, i.RH_lowerleg) (by simp))
    have g_trunk : Inertia.getMass i.trunk = _ := rfl
    have g_LF_hipassembly : Inertia.getMass i.LF_hipassembly = _ := rfl
    have g_LF_upperleg : Inertia.getMass i.LF_upperleg = _ := rfl
    have g_LF_lowerleg : Inertia.getMass i.LF_lowerleg = _ := rfl
    have g_RF_hipassembly : Inertia.getMass i.RF_hipassembly = _ := rfl
    have g_RF_upperleg : Inertia.getMass i.RF_upperleg = _ := rfl
    have g_RF_lowerleg : Inertia.getMass i.RF_lowerleg = _ := rfl
    have g_LH_hipassembly : Inertia.getMass i.LH_hipassembly = _ := rfl
    have g_LH_upperleg : Inertia.getMass i.LH_upperleg = _ := rfl
    have g_LH_lowerleg : Inertia.getMass i.LH_lowerleg = _ := rfl
    have g_RH_hipassembly : Inertia.getMass i.RH_hipassembly = _ := rfl
    have g_RH_upperleg : Inertia.getMass i.RH_upperleg = _ := rfl
    have g_RH_lowerleg : Inertia.getMass i.RH_lowerleg = _ := rfl
    have hs : (∑ k, μ Kin.fr_trunk k + ∑ k, μ Kin.fr_LF_hipassembly k + ∑ k, μ Kin.fr_LF_upperleg k + ∑ k, μ Kin.fr_LF_lowerleg k + ∑ k, μ Kin.fr_RF_hipassembly k + ∑ k, μ Kin.fr_RF_upperleg k + ∑ k, μ Kin.fr_RF_lowerleg k + ∑ k, μ Kin.fr_LH_hipassembly k + ∑ k, μ Kin.fr_LH_upperleg k + ∑ k, μ Kin.fr_LH_lowerleg k + ∑ k, μ Kin.fr_RH_hipassembly k + ∑ k, μ Kin.fr_RH_upperleg k + ∑ k, μ Kin.fr_RH_lowerleg k) = totalMass := by
      rw [m_trunk, m_LF_hipassembly, m_LF_upperleg, m_LF_lowerleg, m_RF_hipassembly, m_RF_upperleg, m_RF_lowerleg, m_LH_hipassembly, m_LH_upperleg, m_LH_lowerleg, m_RH_hipassembly, m_RH_upperleg, m_RH_lowerleg]
      norm_num [totalMass]
    simp only [List.map_cons, List.map_nil, List.sum_cons, List.sum_nil, add_zero]
    rw [show (∑ k, μ Kin.fr_trunk k + (∑ k, μ Kin.fr_LF_hipassembly k + (∑ k, μ Kin.fr_LF_upperleg k + (∑ k, μ Kin.fr_LF_lowerleg k + (∑ k, μ Kin.fr_RF_hipassembly k + (∑ k, μ Kin.fr_RF_upperleg k + (∑ k, μ Kin.fr_RF_lowerleg k + (∑ k, μ Kin.fr_LH_hipassembly k + (∑ k, μ Kin.fr_LH_upperleg k + (∑ k, μ Kin.fr_LH_lowerleg k + (∑ k, μ Kin.fr_RH_hipassembly k + (∑ k, μ Kin.fr_RH_upperleg k + (∑ k, μ Kin.fr_RH_lowerleg k))))))))))))) = totalMass from by linarith [hs]]
    refine ⟨by norm_num [totalMass], ?_⟩
    rw [hv, s_trunk, s_LF_hipassembly, s_LF_upperleg, s_LF_lowerleg, s_RF_hipassembly, s_RF_upperleg, s_RF_lowerleg, s_LH_hipassembly, s_LH_upperleg, s_LH_lowerleg, s_RH_hipassembly, s_RH_upperleg, s_RH_lowerleg]
    have hb' : poses Kin.mountList q Kin.fr_trunk = Pose.one := hb
    rw [hb']
    simp only [Pose.one, Matrix.one_mulVec, add_zero]
    simp only [add_assoc]
    rfl

/-- Every link can be made up of masses. -/
example (zi : Inertias) : ∀ l ∈ [(Kin.fr_trunk, (Inertias.new zi).trunk), (Kin.fr_LF_hipassembly, (Inertias.new zi).LF_hipassembly), (Kin.fr_LF_upperleg, (Inertias.new zi).LF_upperleg), (Kin.fr_LF_lowerleg, (Inertias.new zi).LF_lowerleg), (Kin.fr_RF_hipassembly, (Inertias.new zi).RF_hipassembly), (Kin.fr_RF_upperleg, (Inertias.new zi).RF_upperleg), (Kin.fr_RF_lowerleg, (Inertias.new zi).RF_lowerleg), (Kin.fr_LH_hipassembly, (Inertias.new zi).LH_hipassembly), (Kin.fr_LH_upperleg, (Inertias.new zi).LH_upperleg), (Kin.fr_LH_lowerleg, (Inertias.new zi).LH_lowerleg), (Kin.fr_RH_hipassembly, (Inertias.new zi).RH_hipassembly), (Kin.fr_RH_upperleg, (Inertias.new zi).RH_upperleg), (Kin.fr_RH_lowerleg, (Inertias.new zi).RH_lowerleg)],
    ∃ (μ : Fin 10 → ℝ) (r : Fin 10 → V3), IsInertiaOf l.2 μ r := by
  intro l hl
  simp only [List.mem_cons, List.not_mem_nil, or_false] at hl
  rcases hl with rfl | rfl | rfl | rfl | rfl | rfl | rfl | rfl | rfl | rfl | rfl | rfl | rfl <;>  exact exists_masses ..

end HyQ

end CT.Robots
