import Verif.Model.RobotLookups
import Verif.Props.Lookup
import Verif.Props.Robots.InvertedPendulumFrames
import Verif.Props.Robots.DoubleInvertedPendulumFrames
import Verif.Props.Robots.HyAFrames
import Verif.Props.Robots.QuadrotorWithLoadFrames
import Verif.Props.Robots.HyQFrames

/-!
# The look-ups of the robots

Written by `tools/gen_lookup.py`.
-/

namespace CT.Lookup

open GenKin FrameJac


namespace InvertedPendulum

open Robots.InvertedPendulum.Kin

/-- C133: the look-ups by number of the InvertedPendulum are about the links and end effectors that they should be about. -/
theorem C133_InvertedPendulum_lookup :
    ∃ C : ℕ → Pose, (∀ f, IsRot (C f).R) ∧ (∀ d ∈ description, C d.id = d.pose) ∧ ∀ q, ∃ G, Arranged frames C q G ∧ defs.LinksRight frames G q ∧ defs.EEsRight [fr_ee] G q := by
  obtain ⟨C, c0, c1, hC⟩ := C130_InvertedPendulum_transforms
  refine ⟨C, c0, c1, fun q => ?_⟩
  obtain ⟨G, hG, ht⟩ := hC q
  have h0 := hG.1
  exact ⟨G, hG, links_right h0 ht rfl (⟨⟨List.mem_of_getElem? (i := 0) rfl,
      List.mem_of_getElem? (i := 2) rfl, rfl, rfl, rfl,
      _, List.mem_of_getElem? (i := 0) rfl, rfl, rfl⟩, trivial⟩), ees_right h0 ht (List.forall_mem_cons.2 ⟨⟨List.mem_of_getElem? (i := 1) rfl, rfl⟩,
      List.forall_mem_nil _⟩)⟩

/-- C133: the end effectors of the InvertedPendulum are on the links that they are declared to be on. -/
theorem C133_InvertedPendulum_ee_link : defs.EELinkRight frames 0 fr_ee :=
  ⟨0, rfl, _, List.mem_of_getElem? (i := 0) rfl, rfl,
      _, List.mem_of_getElem? (i := 1) rfl, rfl, rfl, rfl⟩

theorem ids : (∀ f ∈ frames, f.id ≠ 0) ∧ (frames.map Frame.id).Nodup := by
  rw [← frames_eq]
  decide +kernel

theorem path_fr_ee : IsPath frames fr_ee ((List.range (0 + 1 - 0)).map (0 + ·)) := by
  rw [← frames_eq]
  have := chain_path wf_ok (f := fr_ee) (Or.inr ⟨m_fr_ee, List.mem_of_getElem? (i := 1) rfl, rfl⟩) parents
  rwa [show (chain mountList fr_ee).map Prod.fst = (List.range (0 + 1 - 0)).map (0 + ·) by decide +kernel] at this

theorem vel_fr_ee : defs.EEVelRight 0 := by
  obtain ⟨C, _, _, hC⟩ := C130_InvertedPendulum_transforms
  exact vel_right (e := ⟨fr_InvertedPendulumBase_X_fr_ee, fr_InvertedPendulumBase_J_fr_ee, 1, 0, 0⟩) hC ids.1 ids.2 rfl (List.mem_of_getElem? (i := 1) rfl) rfl rfl
    (C131_InvertedPendulum_jacobians _ (List.mem_of_getElem? (i := 1) rfl)) path_fr_ee (by decide) (by decide)

/-- C134: Jacobians and velocities of the end effectors of the InvertedPendulum. -/
theorem C134_InvertedPendulum_velocity : ∀ k < 1, defs.EEVelRight k := by
  intro k hk
  interval_cases k
  · exact vel_fr_ee

end InvertedPendulum


namespace DoubleInvertedPendulum

open Robots.DoubleInvertedPendulum.Kin

/-- C133: the look-ups by number of the DoubleInvertedPendulum are about the links and end effectors that they should be about. -/
theorem C133_DoubleInvertedPendulum_lookup :
    ∃ C : ℕ → Pose, (∀ f, IsRot (C f).R) ∧ (∀ d ∈ description, C d.id = d.pose) ∧ ∀ q, ∃ G, Arranged frames C q G ∧ defs.LinksRight frames G q ∧ defs.EEsRight [fr_ee] G q := by
  obtain ⟨C, c0, c1, hC⟩ := C130_DoubleInvertedPendulum_transforms
  refine ⟨C, c0, c1, fun q => ?_⟩
  obtain ⟨G, hG, ht⟩ := hC q
  have h0 := hG.1
  exact ⟨G, hG, links_right h0 ht rfl (⟨⟨List.mem_of_getElem? (i := 0) rfl,
      List.mem_of_getElem? (i := 4) rfl, rfl, rfl, rfl,
      _, List.mem_of_getElem? (i := 0) rfl, rfl, rfl⟩, ⟨List.mem_of_getElem? (i := 1) rfl,
      List.mem_of_getElem? (i := 3) rfl, rfl, rfl, rfl,
      _, List.mem_of_getElem? (i := 1) rfl, rfl, rfl⟩, trivial⟩), ees_right h0 ht (List.forall_mem_cons.2 ⟨⟨List.mem_of_getElem? (i := 2) rfl, rfl⟩,
      List.forall_mem_nil _⟩)⟩

/-- C133: the end effectors of the DoubleInvertedPendulum are on the links that they are declared to be on. -/
theorem C133_DoubleInvertedPendulum_ee_link : defs.EELinkRight frames 0 fr_ee :=
  ⟨1, rfl, _, List.mem_of_getElem? (i := 1) rfl, rfl,
      _, List.mem_of_getElem? (i := 2) rfl, rfl, rfl, rfl⟩

theorem ids : (∀ f ∈ frames, f.id ≠ 0) ∧ (frames.map Frame.id).Nodup := by
  rw [← frames_eq]
  decide +kernel

theorem path_fr_ee : IsPath frames fr_ee ((List.range (1 + 1 - 0)).map (0 + ·)) := by
  rw [← frames_eq]
  have := chain_path wf_ok (f := fr_ee) (Or.inr ⟨m_fr_ee, List.mem_of_getElem? (i := 2) rfl, rfl⟩) parents
  rwa [show (chain mountList fr_ee).map Prod.fst = (List.range (1 + 1 - 0)).map (0 + ·) by decide +kernel] at this

theorem vel_fr_ee : defs.EEVelRight 0 := by
  obtain ⟨C, _, _, hC⟩ := C130_DoubleInvertedPendulum_transforms
  exact vel_right (e := ⟨fr_DoubleInvertedPendulumBase_X_fr_ee, fr_DoubleInvertedPendulumBase_J_fr_ee, 2, 0, 1⟩) hC ids.1 ids.2 rfl (List.mem_of_getElem? (i := 2) rfl) rfl rfl
    (C131_DoubleInvertedPendulum_jacobians _ (List.mem_of_getElem? (i := 2) rfl)) path_fr_ee (by decide) (by decide)

/-- C134: Jacobians and velocities of the end effectors of the DoubleInvertedPendulum. -/
theorem C134_DoubleInvertedPendulum_velocity : ∀ k < 1, defs.EEVelRight k := by
  intro k hk
  interval_cases k
  · exact vel_fr_ee

end DoubleInvertedPendulum


namespace HyA

open Robots.HyA.Kin

/-- C133: the look-ups by number of the HyA are about the links and end effectors that they should be about. -/
theorem C133_HyA_lookup :
    ∃ C : ℕ → Pose, (∀ f, IsRot (C f).R) ∧ (∀ d ∈ description, C d.id = d.pose) ∧ (∀ d ∈ roundedDescription, d.Rounded (C d.id)) ∧ ∀ q, ∃ G, Arranged frames C q G ∧ defs.LinksRight frames G q ∧ defs.EEsRight [fr_ee] G q := by
  obtain ⟨C, c0, c1, c2, hC⟩ := C130_HyA_transforms
  refine ⟨C, c0, c1, c2, fun q => ?_⟩
  obtain ⟨G, hG, ht⟩ := hC q
  have h0 := hG.1
  exact ⟨G, hG, links_right h0 ht rfl (⟨⟨List.mem_of_getElem? (i := 0) rfl,
      List.mem_of_getElem? (i := 28) rfl, rfl, rfl, rfl,
      _, List.mem_of_getElem? (i := 0) rfl, rfl, rfl⟩, ⟨List.mem_of_getElem? (i := 1) rfl,
      List.mem_of_getElem? (i := 29) rfl, rfl, rfl, rfl,
      _, List.mem_of_getElem? (i := 1) rfl, rfl, rfl⟩, ⟨List.mem_of_getElem? (i := 2) rfl,
      List.mem_of_getElem? (i := 30) rfl, rfl, rfl, rfl,
      _, List.mem_of_getElem? (i := 2) rfl, rfl, rfl⟩, ⟨List.mem_of_getElem? (i := 3) rfl,
      List.mem_of_getElem? (i := 31) rfl, rfl, rfl, rfl,
      _, List.mem_of_getElem? (i := 3) rfl, rfl, rfl⟩, ⟨List.mem_of_getElem? (i := 4) rfl,
      List.mem_of_getElem? (i := 32) rfl, rfl, rfl, rfl,
      _, List.mem_of_getElem? (i := 4) rfl, rfl, rfl⟩, ⟨List.mem_of_getElem? (i := 5) rfl,
      List.mem_of_getElem? (i := 33) rfl, rfl, rfl, rfl,
      _, List.mem_of_getElem? (i := 5) rfl, rfl, rfl⟩, trivial⟩), ees_right h0 ht (List.forall_mem_cons.2 ⟨⟨List.mem_of_getElem? (i := 6) rfl, rfl⟩,
      List.forall_mem_nil _⟩)⟩

/-- C133: the end effectors of the HyA are on the links that they are declared to be on. -/
theorem C133_HyA_ee_link : defs.EELinkRight frames 0 fr_ee :=
  ⟨5, rfl, _, List.mem_of_getElem? (i := 5) rfl, rfl,
      _, List.mem_of_getElem? (i := 6) rfl, rfl, rfl, rfl⟩

theorem ids : (∀ f ∈ frames, f.id ≠ 0) ∧ (frames.map Frame.id).Nodup := by
  rw [← frames_eq]
  decide +kernel

theorem path_fr_ee : IsPath frames fr_ee ((List.range (5 + 1 - 0)).map (0 + ·)) := by
  rw [← frames_eq]
  have := chain_path wf_ok (f := fr_ee) (Or.inr ⟨m_fr_ee, List.mem_of_getElem? (i := 6) rfl, rfl⟩) parents
  rwa [show (chain mountList fr_ee).map Prod.fst = (List.range (5 + 1 - 0)).map (0 + ·) by decide +kernel] at this

theorem vel_fr_ee : defs.EEVelRight 0 := by
  obtain ⟨C, _, _, _, hC⟩ := C130_HyA_transforms
  exact vel_right (e := ⟨fr_HyABase_X_fr_ee, fr_HyABase_J_fr_ee, 6, 0, 5⟩) hC ids.1 ids.2 rfl (List.mem_of_getElem? (i := 6) rfl) rfl rfl
    (C131_HyA_jacobians _ (List.mem_of_getElem? (i := 0) rfl)) path_fr_ee (by decide) (by decide)

/-- C134: Jacobians and velocities of the end effectors of the HyA. -/
theorem C134_HyA_velocity : ∀ k < 1, defs.EEVelRight k := by
  intro k hk
  interval_cases k
  · exact vel_fr_ee

end HyA


namespace QuadrotorWithLoad

open Robots.QuadrotorWithLoad.Kin

/-- C133: the look-ups by number of the QuadrotorWithLoad are about the links and end effectors that they should be about. -/
theorem C133_QuadrotorWithLoad_lookup :
    ∃ C : ℕ → Pose, (∀ f, IsRot (C f).R) ∧ (∀ d ∈ description, C d.id = d.pose) ∧ ∀ q, ∃ G, Arranged frames C q G ∧ defs.EEsRight [fr_ee] G q := by
  obtain ⟨C, c0, c1, hC⟩ := C130_QuadrotorWithLoad_transforms
  refine ⟨C, c0, c1, fun q => ?_⟩
  obtain ⟨G, hG, ht⟩ := hC q
  have h0 := hG.1
  exact ⟨G, hG, ees_right h0 ht (List.forall_mem_cons.2 ⟨⟨List.mem_of_getElem? (i := 2) rfl, rfl⟩,
      List.forall_mem_nil _⟩)⟩

/-- C133 is violated: end effector 0 of the QuadrotorWithLoad is declared to be on link 1 (`CT_EE0_IS_ON_LINK`), but its
frame is mounted on the frame that joint 1 turns, link 2. -/
theorem C133_QuadrotorWithLoad_ee_link_violated :
    defs.eeIdToLinkId 0 = .ok 1 ∧ ¬ defs.EELinkRight frames 0 fr_ee
    ∧ ⟨fr_ee, fr_link2, none⟩ ∈ frames ∧ ⟨fr_link2, fr_link1, some JB⟩ ∈ frames := by
  refine ⟨rfl, ?_, List.mem_of_getElem? (i := 2) rfl, List.mem_of_getElem? (i := 1) rfl⟩
  rintro ⟨i, h, g, hg, hj, e, he, h1, h2, _⟩
  have hi : i = 0 := by
    simp only [Defs.eeIdToLinkId, defs, List.getElem?_cons_zero, Res.ok.injEq] at h
    omega
  subst hi
  simp only [frames, List.mem_cons, List.not_mem_nil, or_false] at hg he
  rcases hg with rfl | rfl | rfl | rfl | rfl | rfl | rfl <;>
    rcases he with rfl | rfl | rfl | rfl | rfl | rfl | rfl <;> simp_all

theorem ids : (∀ f ∈ frames, f.id ≠ 0) ∧ (frames.map Frame.id).Nodup := by
  rw [← frames_eq]
  decide +kernel

theorem path_fr_ee : IsPath frames fr_ee ((List.range (1 + 1 - 0)).map (0 + ·)) := by
  rw [← frames_eq]
  have := chain_path wf_ok (f := fr_ee) (Or.inr ⟨m_fr_ee, List.mem_of_getElem? (i := 2) rfl, rfl⟩) parents
  rwa [show (chain mountList fr_ee).map Prod.fst = (List.range (1 + 1 - 0)).map (0 + ·) by decide +kernel] at this

theorem vel_fr_ee : defs.EEVelRight 0 := by
  obtain ⟨C, _, _, hC⟩ := C130_QuadrotorWithLoad_transforms
  exact vel_right (e := ⟨fr_body_X_fr_ee, fr_body_J_fr_ee, 1, 0, 1⟩) hC ids.1 ids.2 rfl (List.mem_of_getElem? (i := 2) rfl) rfl rfl
    (C131_QuadrotorWithLoad_jacobians _ (List.mem_of_getElem? (i := 0) rfl)) path_fr_ee (by decide) (by decide)

/-- C134: Jacobians and velocities of the end effectors of the QuadrotorWithLoad. -/
theorem C134_QuadrotorWithLoad_velocity : ∀ k < 1, defs.EEVelRight k := by
  intro k hk
  interval_cases k
  · exact vel_fr_ee

end QuadrotorWithLoad


namespace HyQ

open Robots.HyQ.Kin

/-- C133: the look-ups by number of the HyQ are about the links and end effectors that they should be about. -/
theorem C133_HyQ_lookup :
    ∃ C : ℕ → Pose, (∀ f, IsRot (C f).R) ∧ ∀ q, ∃ G, Arranged frames C q G ∧ defs.LinksRight frames G q ∧ defs.EEsRight [fr_LF_foot, fr_RF_foot, fr_LH_foot, fr_RH_foot] G q := by
  obtain ⟨C, c0, hC⟩ := C130_HyQ_transforms
  refine ⟨C, c0, fun q => ?_⟩
  obtain ⟨G, hG, ht⟩ := hC q
  have h0 := hG.1
  exact ⟨G, hG, links_right h0 ht rfl (⟨⟨List.mem_of_getElem? (i := 0) rfl,
      List.mem_of_getElem? (i := 12) rfl, rfl, rfl, rfl,
      _, List.mem_of_getElem? (i := 0) rfl, rfl, rfl⟩, ⟨List.mem_of_getElem? (i := 4) rfl,
      List.mem_of_getElem? (i := 16) rfl, rfl, rfl, rfl,
      _, List.mem_of_getElem? (i := 1) rfl, rfl, rfl⟩, ⟨List.mem_of_getElem? (i := 8) rfl,
      List.mem_of_getElem? (i := 20) rfl, rfl, rfl, rfl,
      _, List.mem_of_getElem? (i := 2) rfl, rfl, rfl⟩, ⟨List.mem_of_getElem? (i := 1) rfl,
      List.mem_of_getElem? (i := 13) rfl, rfl, rfl, rfl,
      _, List.mem_of_getElem? (i := 3) rfl, rfl, rfl⟩, ⟨List.mem_of_getElem? (i := 5) rfl,
      List.mem_of_getElem? (i := 17) rfl, rfl, rfl, rfl,
      _, List.mem_of_getElem? (i := 4) rfl, rfl, rfl⟩, ⟨List.mem_of_getElem? (i := 9) rfl,
      List.mem_of_getElem? (i := 21) rfl, rfl, rfl, rfl,
      _, List.mem_of_getElem? (i := 5) rfl, rfl, rfl⟩, ⟨List.mem_of_getElem? (i := 2) rfl,
      List.mem_of_getElem? (i := 14) rfl, rfl, rfl, rfl,
      _, List.mem_of_getElem? (i := 6) rfl, rfl, rfl⟩, ⟨List.mem_of_getElem? (i := 6) rfl,
      List.mem_of_getElem? (i := 18) rfl, rfl, rfl, rfl,
      _, List.mem_of_getElem? (i := 7) rfl, rfl, rfl⟩, ⟨List.mem_of_getElem? (i := 10) rfl,
      List.mem_of_getElem? (i := 22) rfl, rfl, rfl, rfl,
      _, List.mem_of_getElem? (i := 8) rfl, rfl, rfl⟩, ⟨List.mem_of_getElem? (i := 3) rfl,
      List.mem_of_getElem? (i := 15) rfl, rfl, rfl, rfl,
      _, List.mem_of_getElem? (i := 9) rfl, rfl, rfl⟩, ⟨List.mem_of_getElem? (i := 7) rfl,
      List.mem_of_getElem? (i := 19) rfl, rfl, rfl, rfl,
      _, List.mem_of_getElem? (i := 10) rfl, rfl, rfl⟩, ⟨List.mem_of_getElem? (i := 11) rfl,
      List.mem_of_getElem? (i := 23) rfl, rfl, rfl, rfl,
      _, List.mem_of_getElem? (i := 11) rfl, rfl, rfl⟩, trivial⟩), ees_right h0 ht (List.forall_mem_cons.2 ⟨⟨List.mem_of_getElem? (i := 40) rfl, rfl⟩,
      List.forall_mem_cons.2 ⟨⟨List.mem_of_getElem? (i := 41) rfl, rfl⟩,
      List.forall_mem_cons.2 ⟨⟨List.mem_of_getElem? (i := 42) rfl, rfl⟩,
      List.forall_mem_cons.2 ⟨⟨List.mem_of_getElem? (i := 43) rfl, rfl⟩,
      List.forall_mem_nil _⟩⟩⟩⟩)⟩

/-- C133: the end effectors of the HyQ are on the links that they are declared to be on. -/
theorem C133_HyQ_ee_link : defs.EELinkRight frames 0 fr_LF_foot ∧ defs.EELinkRight frames 1 fr_RF_foot ∧ defs.EELinkRight frames 2 fr_LH_foot ∧ defs.EELinkRight frames 3 fr_RH_foot :=
  ⟨⟨2, rfl, _, List.mem_of_getElem? (i := 2) rfl, rfl,
      _, List.mem_of_getElem? (i := 24) rfl, rfl, rfl, rfl⟩,
    ⟨5, rfl, _, List.mem_of_getElem? (i := 5) rfl, rfl,
      _, List.mem_of_getElem? (i := 25) rfl, rfl, rfl, rfl⟩,
    ⟨8, rfl, _, List.mem_of_getElem? (i := 8) rfl, rfl,
      _, List.mem_of_getElem? (i := 26) rfl, rfl, rfl, rfl⟩,
    ⟨11, rfl, _, List.mem_of_getElem? (i := 11) rfl, rfl,
      _, List.mem_of_getElem? (i := 27) rfl, rfl, rfl, rfl⟩⟩

theorem ids : (∀ f ∈ frames, f.id ≠ 0) ∧ (frames.map Frame.id).Nodup := by
  rw [← frames_eq]
  decide +kernel

theorem path_fr_LF_foot : IsPath frames fr_LF_foot ((List.range (2 + 1 - 0)).map (0 + ·)) := by
  rw [← frames_eq]
  have := chain_path wf_ok (f := fr_LF_foot) (Or.inr ⟨m_fr_LF_foot, List.mem_of_getElem? (i := 24) rfl, rfl⟩) parents
  rwa [show (chain mountList fr_LF_foot).map Prod.fst = (List.range (2 + 1 - 0)).map (0 + ·) by decide +kernel] at this

theorem vel_fr_LF_foot : defs.EEVelRight 0 := by
  obtain ⟨C, _, hC⟩ := C130_HyQ_transforms
  exact vel_right (e := ⟨fr_trunk_X_fr_LF_foot, fr_trunk_J_fr_LF_foot, 3, 0, 2⟩) hC ids.1 ids.2 rfl (List.mem_of_getElem? (i := 40) rfl) rfl rfl
    (C131_HyQ_jacobians _ (List.mem_of_getElem? (i := 12) rfl)) path_fr_LF_foot (by decide) (by decide)

theorem path_fr_RF_foot : IsPath frames fr_RF_foot ((List.range (5 + 1 - 3)).map (3 + ·)) := by
  rw [← frames_eq]
  have := chain_path wf_ok (f := fr_RF_foot) (Or.inr ⟨m_fr_RF_foot, List.mem_of_getElem? (i := 25) rfl, rfl⟩) parents
  rwa [show (chain mountList fr_RF_foot).map Prod.fst = (List.range (5 + 1 - 3)).map (3 + ·) by decide +kernel] at this

theorem vel_fr_RF_foot : defs.EEVelRight 1 := by
  obtain ⟨C, _, hC⟩ := C130_HyQ_transforms
  exact vel_right (e := ⟨fr_trunk_X_fr_RF_foot, fr_trunk_J_fr_RF_foot, 6, 3, 5⟩) hC ids.1 ids.2 rfl (List.mem_of_getElem? (i := 41) rfl) rfl rfl
    (C131_HyQ_jacobians _ (List.mem_of_getElem? (i := 13) rfl)) path_fr_RF_foot (by decide) (by decide)

theorem path_fr_LH_foot : IsPath frames fr_LH_foot ((List.range (8 + 1 - 6)).map (6 + ·)) := by
  rw [← frames_eq]
  have := chain_path wf_ok (f := fr_LH_foot) (Or.inr ⟨m_fr_LH_foot, List.mem_of_getElem? (i := 26) rfl, rfl⟩) parents
  rwa [show (chain mountList fr_LH_foot).map Prod.fst = (List.range (8 + 1 - 6)).map (6 + ·) by decide +kernel] at this

theorem vel_fr_LH_foot : defs.EEVelRight 2 := by
  obtain ⟨C, _, hC⟩ := C130_HyQ_transforms
  exact vel_right (e := ⟨fr_trunk_X_fr_LH_foot, fr_trunk_J_fr_LH_foot, 9, 6, 8⟩) hC ids.1 ids.2 rfl (List.mem_of_getElem? (i := 42) rfl) rfl rfl
    (C131_HyQ_jacobians _ (List.mem_of_getElem? (i := 14) rfl)) path_fr_LH_foot (by decide) (by decide)

theorem path_fr_RH_foot : IsPath frames fr_RH_foot ((List.range (11 + 1 - 9)).map (9 + ·)) := by
  rw [← frames_eq]
  have := chain_path wf_ok (f := fr_RH_foot) (Or.inr ⟨m_fr_RH_foot, List.mem_of_getElem? (i := 27) rfl, rfl⟩) parents
  rwa [show (chain mountList fr_RH_foot).map Prod.fst = (List.range (11 + 1 - 9)).map (9 + ·) by decide +kernel] at this

theorem vel_fr_RH_foot : defs.EEVelRight 3 := by
  obtain ⟨C, _, hC⟩ := C130_HyQ_transforms
  exact vel_right (e := ⟨fr_trunk_X_fr_RH_foot, fr_trunk_J_fr_RH_foot, 12, 9, 11⟩) hC ids.1 ids.2 rfl (List.mem_of_getElem? (i := 43) rfl) rfl rfl
    (C131_HyQ_jacobians _ (List.mem_of_getElem? (i := 15) rfl)) path_fr_RH_foot (by decide) (by decide)

/-- C134: Jacobians and velocities of the end effectors of the HyQ. -/
theorem C134_HyQ_velocity : ∀ k < 4, defs.EEVelRight k := by
  intro k hk
  interval_cases k
  · exact vel_fr_LF_foot
  · exact vel_fr_RF_foot
  · exact vel_fr_LH_foot
  · exact vel_fr_RH_foot

end HyQ

/-- C133 is violated for link 0 of every robot, the base: the look-ups return matrices that are neither the identity
nor invertible. -/
theorem C133_base_link_violated (d : Defs) (h : Hist) (q : ℕ → ℝ) :
    d.getHomogeneousTransformBaseLinkById h 0 q ≠ .ok 1 ∧ d.getForceTransformLinkBaseById h 0 q ≠ .ok 1
    ∧ ∃ T X, d.getHomogeneousTransformBaseLinkById h 0 q = .ok T ∧ T.det = 0
      ∧ d.getForceTransformLinkBaseById h 0 q = .ok X ∧ X.det = 0 := by
  refine ⟨fun e => ?_, fun e => ?_, corner 4, corner 6, rfl, ?_, rfl, ?_⟩
  · have := congrFun (congrFun (Res.ok.inj e) 3) 3
    simp [corner] at this
  · have := congrFun (congrFun (Res.ok.inj e) 5) 5
    simp [corner] at this
  · exact Matrix.det_eq_zero_of_row_eq_zero 3 fun j => by simp [corner]
  · exact Matrix.det_eq_zero_of_row_eq_zero 5 fun j => by simp [corner]

end CT.Lookup
