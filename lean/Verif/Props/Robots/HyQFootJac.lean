import Verif.Props.Lookup
import Verif.Props.Robots.HyQFootJacForward0
import Verif.Props.Robots.HyQFootJacForward1
import Verif.Props.Robots.HyQFootJacForward2
import Verif.Props.Robots.HyQFootJacForward3
import Verif.Props.Robots.HyQFootJacReverse0
import Verif.Props.Robots.HyQFootJacReverse1
import Verif.Props.Robots.HyQFootJacReverse2
import Verif.Props.Robots.HyQFootJacReverse3

/-!
# The generated Jacobians of the feet of HyQ are the derivatives of the kinematics (C193)
-/

namespace CT.Robots.HyQ

open Matrix CT.FloatSys CT.Robot CT.FrameJac CT.Lookup CT.OpJac CT.GenKin

noncomputable section

set_option linter.unusedSimpArgs false

/-! ### Specification -/

/-- `J` is the Jacobian, at `x`, of positions `P` and velocities `V` of four feet: row `6 l + i` for coordinate `i` of the
position of foot `l`, row `6 l + 3 + i` for that of its velocity, and a column for each coordinate of the state. -/
def IsJacobian (P V : Fin 4 → (Fin 36 → ℝ) → V3) (x : Fin 36 → ℝ) (J : Fin 24 → Fin 36 → ℝ) : Prop :=
  ∀ (l : Fin 4) (i : Fin 3) (c : Fin 36),
    HasDerivAt (fun s => P l (Function.update x c s) i) (J ⟨6 * l + i, by omega⟩ c) (x c) ∧
    HasDerivAt (fun s => V l (Function.update x c s) i) (J ⟨6 * l + 3 + i, by omega⟩ c) (x c)

/-! ### What the kinematics return -/

theorem after_ctor (g : Gen) (i j : ℕ) (h : ∀ a ∈ g.upd, ¬ (i = a.i ∧ j = a.j)) (z : Mem) (cs : List (ℕ → ℝ)) (q : ℕ → ℝ) :
    g.update (g.after z cs) q i j = g.new z i j := by
  have hu : ∀ (q : ℕ → ℝ) (m : Mem), g.update m q i j = m i j := by
    intro q m
    unfold Gen.update
    generalize g.upd = us at h
    induction us generalizing m with
    | nil => rfl
    | cons a us ih =>
      rw [List.foldl_cons, ih _ (fun b hb => h b (List.mem_cons_of_mem _ hb))]
      exact if_neg (h a List.mem_cons_self)
  rw [hu]
  unfold Gen.after
  generalize g.new z = m
  induction cs generalizing m with
  | nil => rfl
  | cons c cs ih => rw [List.foldl_cons, ih, hu]

/-- The angles of a leg. -/
def legq (l : Fin 4) (q : ℕ → ℝ) : V3 := fun i => q (3 * l + i)

theorem X_LF_0 (h : Hist) (q : ℕ → ℝ) : call Kin.fr_trunk_X_fr_LF_foot.hom h q 0 3 =
    pv (side 0) (mountX 0) (mountY 0) (legq 0 q) 0 := by
  simp [call, Gen.update, Kin.fr_trunk_X_fr_LF_foot, Kin.hom_fr_trunk_X_fr_LF_foot, Asg.act, E.eval, pv_0, legq, side_0, mountX_0,
    mountY_0, segA, segH]
  ring

theorem X_LF_1 (h : Hist) (q : ℕ → ℝ) : call Kin.fr_trunk_X_fr_LF_foot.hom h q 1 3 =
    pv (side 0) (mountX 0) (mountY 0) (legq 0 q) 1 := by
  simp [call, Gen.update, Kin.fr_trunk_X_fr_LF_foot, Kin.hom_fr_trunk_X_fr_LF_foot, Asg.act, E.eval, pv_1, legq, side_0, mountX_0,
    mountY_0, segA, segH]
  ring

theorem X_LF_2 (h : Hist) (q : ℕ → ℝ) : call Kin.fr_trunk_X_fr_LF_foot.hom h q 2 3 =
    pv (side 0) (mountX 0) (mountY 0) (legq 0 q) 2 := by
  simp [call, Gen.update, Kin.fr_trunk_X_fr_LF_foot, Kin.hom_fr_trunk_X_fr_LF_foot, Asg.act, E.eval, pv_2, legq, side_0, mountX_0,
    mountY_0, segA, segH]
  ring

theorem J_LF_00 (h : Hist) (q : ℕ → ℝ) : call Kin.fr_trunk_J_fr_LF_foot.gen h q 3 0 = jm (side 0) (legq 0 q) 0 0 := by
  refine (after_ctor _ _ _ (by decide +kernel) _ _ _).trans ?_
  simp [Gen.new, Kin.fr_trunk_J_fr_LF_foot, Kin.gen_fr_trunk_J_fr_LF_foot, Asg.act, E.eval, jm_00]

theorem J_LF_01 (h : Hist) (q : ℕ → ℝ) : call Kin.fr_trunk_J_fr_LF_foot.gen h q 3 1 = jm (side 0) (legq 0 q) 0 1 := by
  simp [call, Gen.update, Kin.fr_trunk_J_fr_LF_foot, Kin.gen_fr_trunk_J_fr_LF_foot, Asg.act, E.eval, jm_01, legq, side_0,
    segA, segB, segC, segD, segH]
  ring

theorem J_LF_02 (h : Hist) (q : ℕ → ℝ) : call Kin.fr_trunk_J_fr_LF_foot.gen h q 3 2 = jm (side 0) (legq 0 q) 0 2 := by
  simp [call, Gen.update, Kin.fr_trunk_J_fr_LF_foot, Kin.gen_fr_trunk_J_fr_LF_foot, Asg.act, E.eval, jm_02, legq, side_0,
    segA, segB, segC, segD, segH]
  ring

theorem J_LF_10 (h : Hist) (q : ℕ → ℝ) : call Kin.fr_trunk_J_fr_LF_foot.gen h q 4 0 = jm (side 0) (legq 0 q) 1 0 := by
  simp [call, Gen.update, Kin.fr_trunk_J_fr_LF_foot, Kin.gen_fr_trunk_J_fr_LF_foot, Asg.act, E.eval, jm_10, legq, side_0,
    segA, segB, segC, segD, segH]
  ring

theorem J_LF_11 (h : Hist) (q : ℕ → ℝ) : call Kin.fr_trunk_J_fr_LF_foot.gen h q 4 1 = jm (side 0) (legq 0 q) 1 1 := by
  simp [call, Gen.update, Kin.fr_trunk_J_fr_LF_foot, Kin.gen_fr_trunk_J_fr_LF_foot, Asg.act, E.eval, jm_11, legq, side_0,
    segA, segB, segC, segD, segH]
  ring

theorem J_LF_12 (h : Hist) (q : ℕ → ℝ) : call Kin.fr_trunk_J_fr_LF_foot.gen h q 4 2 = jm (side 0) (legq 0 q) 1 2 := by
  simp [call, Gen.update, Kin.fr_trunk_J_fr_LF_foot, Kin.gen_fr_trunk_J_fr_LF_foot, Asg.act, E.eval, jm_12, legq, side_0,
    segA, segB, segC, segD, segH]
  ring

theorem J_LF_20 (h : Hist) (q : ℕ → ℝ) : call Kin.fr_trunk_J_fr_LF_foot.gen h q 5 0 = jm (side 0) (legq 0 q) 2 0 := by
  simp [call, Gen.update, Kin.fr_trunk_J_fr_LF_foot, Kin.gen_fr_trunk_J_fr_LF_foot, Asg.act, E.eval, jm_20, legq, side_0,
    segA, segB, segC, segD, segH]
  ring

theorem J_LF_21 (h : Hist) (q : ℕ → ℝ) : call Kin.fr_trunk_J_fr_LF_foot.gen h q 5 1 = jm (side 0) (legq 0 q) 2 1 := by
  simp [call, Gen.update, Kin.fr_trunk_J_fr_LF_foot, Kin.gen_fr_trunk_J_fr_LF_foot, Asg.act, E.eval, jm_21, legq, side_0,
    segA, segB, segC, segD, segH]
  ring

theorem J_LF_22 (h : Hist) (q : ℕ → ℝ) : call Kin.fr_trunk_J_fr_LF_foot.gen h q 5 2 = jm (side 0) (legq 0 q) 2 2 := by
  simp [call, Gen.update, Kin.fr_trunk_J_fr_LF_foot, Kin.gen_fr_trunk_J_fr_LF_foot, Asg.act, E.eval, jm_22, legq, side_0,
    segA, segB, segC, segD, segH]
  ring

theorem X_RF_0 (h : Hist) (q : ℕ → ℝ) : call Kin.fr_trunk_X_fr_RF_foot.hom h q 0 3 =
    pv (side 1) (mountX 1) (mountY 1) (legq 1 q) 0 := by
  simp [call, Gen.update, Kin.fr_trunk_X_fr_RF_foot, Kin.hom_fr_trunk_X_fr_RF_foot, Asg.act, E.eval, pv_0, legq, side_1, mountX_1,
    mountY_1, segA, segH]
  ring

theorem X_RF_1 (h : Hist) (q : ℕ → ℝ) : call Kin.fr_trunk_X_fr_RF_foot.hom h q 1 3 =
    pv (side 1) (mountX 1) (mountY 1) (legq 1 q) 1 := by
  simp [call, Gen.update, Kin.fr_trunk_X_fr_RF_foot, Kin.hom_fr_trunk_X_fr_RF_foot, Asg.act, E.eval, pv_1, legq, side_1, mountX_1,
    mountY_1, segA, segH]
  ring

theorem X_RF_2 (h : Hist) (q : ℕ → ℝ) : call Kin.fr_trunk_X_fr_RF_foot.hom h q 2 3 =
    pv (side 1) (mountX 1) (mountY 1) (legq 1 q) 2 := by
  simp [call, Gen.update, Kin.fr_trunk_X_fr_RF_foot, Kin.hom_fr_trunk_X_fr_RF_foot, Asg.act, E.eval, pv_2, legq, side_1, mountX_1,
    mountY_1, segA, segH]
  ring

theorem J_RF_00 (h : Hist) (q : ℕ → ℝ) : call Kin.fr_trunk_J_fr_RF_foot.gen h q 3 0 = jm (side 1) (legq 1 q) 0 0 := by
  refine (after_ctor _ _ _ (by decide +kernel) _ _ _).trans ?_
  simp [Gen.new, Kin.fr_trunk_J_fr_RF_foot, Kin.gen_fr_trunk_J_fr_RF_foot, Asg.act, E.eval, jm_00]

theorem J_RF_01 (h : Hist) (q : ℕ → ℝ) : call Kin.fr_trunk_J_fr_RF_foot.gen h q 3 1 = jm (side 1) (legq 1 q) 0 1 := by
  simp [call, Gen.update, Kin.fr_trunk_J_fr_RF_foot, Kin.gen_fr_trunk_J_fr_RF_foot, Asg.act, E.eval, jm_01, legq, side_1,
    segA, segB, segC, segD, segH]
  ring

theorem J_RF_02 (h : Hist) (q : ℕ → ℝ) : call Kin.fr_trunk_J_fr_RF_foot.gen h q 3 2 = jm (side 1) (legq 1 q) 0 2 := by
  simp [call, Gen.update, Kin.fr_trunk_J_fr_RF_foot, Kin.gen_fr_trunk_J_fr_RF_foot, Asg.act, E.eval, jm_02, legq, side_1,
    segA, segB, segC, segD, segH]
  ring

theorem J_RF_10 (h : Hist) (q : ℕ → ℝ) : call Kin.fr_trunk_J_fr_RF_foot.gen h q 4 0 = jm (side 1) (legq 1 q) 1 0 := by
  simp [call, Gen.update, Kin.fr_trunk_J_fr_RF_foot, Kin.gen_fr_trunk_J_fr_RF_foot, Asg.act, E.eval, jm_10, legq, side_1,
    segA, segB, segC, segD, segH]
  ring

theorem J_RF_11 (h : Hist) (q : ℕ → ℝ) : call Kin.fr_trunk_J_fr_RF_foot.gen h q 4 1 = jm (side 1) (legq 1 q) 1 1 := by
  simp [call, Gen.update, Kin.fr_trunk_J_fr_RF_foot, Kin.gen_fr_trunk_J_fr_RF_foot, Asg.act, E.eval, jm_11, legq, side_1,
    segA, segB, segC, segD, segH]
  ring

theorem J_RF_12 (h : Hist) (q : ℕ → ℝ) : call Kin.fr_trunk_J_fr_RF_foot.gen h q 4 2 = jm (side 1) (legq 1 q) 1 2 := by
  simp [call, Gen.update, Kin.fr_trunk_J_fr_RF_foot, Kin.gen_fr_trunk_J_fr_RF_foot, Asg.act, E.eval, jm_12, legq, side_1,
    segA, segB, segC, segD, segH]
  ring

theorem J_RF_20 (h : Hist) (q : ℕ → ℝ) : call Kin.fr_trunk_J_fr_RF_foot.gen h q 5 0 = jm (side 1) (legq 1 q) 2 0 := by
  simp [call, Gen.update, Kin.fr_trunk_J_fr_RF_foot, Kin.gen_fr_trunk_J_fr_RF_foot, Asg.act, E.eval, jm_20, legq, side_1,
    segA, segB, segC, segD, segH]
  ring

theorem J_RF_21 (h : Hist) (q : ℕ → ℝ) : call Kin.fr_trunk_J_fr_RF_foot.gen h q 5 1 = jm (side 1) (legq 1 q) 2 1 := by
  simp [call, Gen.update, Kin.fr_trunk_J_fr_RF_foot, Kin.gen_fr_trunk_J_fr_RF_foot, Asg.act, E.eval, jm_21, legq, side_1,
    segA, segB, segC, segD, segH]
  ring

theorem J_RF_22 (h : Hist) (q : ℕ → ℝ) : call Kin.fr_trunk_J_fr_RF_foot.gen h q 5 2 = jm (side 1) (legq 1 q) 2 2 := by
  simp [call, Gen.update, Kin.fr_trunk_J_fr_RF_foot, Kin.gen_fr_trunk_J_fr_RF_foot, Asg.act, E.eval, jm_22, legq, side_1,
    segA, segB, segC, segD, segH]
  ring

theorem X_LH_0 (h : Hist) (q : ℕ → ℝ) : call Kin.fr_trunk_X_fr_LH_foot.hom h q 0 3 =
    pv (side 2) (mountX 2) (mountY 2) (legq 2 q) 0 := by
  simp [call, Gen.update, Kin.fr_trunk_X_fr_LH_foot, Kin.hom_fr_trunk_X_fr_LH_foot, Asg.act, E.eval, pv_0, legq, side_2, mountX_2,
    mountY_2, segA, segH]
  ring

theorem X_LH_1 (h : Hist) (q : ℕ → ℝ) : call Kin.fr_trunk_X_fr_LH_foot.hom h q 1 3 =
    pv (side 2) (mountX 2) (mountY 2) (legq 2 q) 1 := by
  simp [call, Gen.update, Kin.fr_trunk_X_fr_LH_foot, Kin.hom_fr_trunk_X_fr_LH_foot, Asg.act, E.eval, pv_1, legq, side_2, mountX_2,
    mountY_2, segA, segH]
  ring

theorem X_LH_2 (h : Hist) (q : ℕ → ℝ) : call Kin.fr_trunk_X_fr_LH_foot.hom h q 2 3 =
    pv (side 2) (mountX 2) (mountY 2) (legq 2 q) 2 := by
  simp [call, Gen.update, Kin.fr_trunk_X_fr_LH_foot, Kin.hom_fr_trunk_X_fr_LH_foot, Asg.act, E.eval, pv_2, legq, side_2, mountX_2,
    mountY_2, segA, segH]
  ring

theorem J_LH_00 (h : Hist) (q : ℕ → ℝ) : call Kin.fr_trunk_J_fr_LH_foot.gen h q 3 0 = jm (side 2) (legq 2 q) 0 0 := by
  refine (after_ctor _ _ _ (by decide +kernel) _ _ _).trans ?_
  simp [Gen.new, Kin.fr_trunk_J_fr_LH_foot, Kin.gen_fr_trunk_J_fr_LH_foot, Asg.act, E.eval, jm_00]

theorem J_LH_01 (h : Hist) (q : ℕ → ℝ) : call Kin.fr_trunk_J_fr_LH_foot.gen h q 3 1 = jm (side 2) (legq 2 q) 0 1 := by
  simp [call, Gen.update, Kin.fr_trunk_J_fr_LH_foot, Kin.gen_fr_trunk_J_fr_LH_foot, Asg.act, E.eval, jm_01, legq, side_2,
    segA, segB, segC, segD, segH]
  ring

theorem J_LH_02 (h : Hist) (q : ℕ → ℝ) : call Kin.fr_trunk_J_fr_LH_foot.gen h q 3 2 = jm (side 2) (legq 2 q) 0 2 := by
  simp [call, Gen.update, Kin.fr_trunk_J_fr_LH_foot, Kin.gen_fr_trunk_J_fr_LH_foot, Asg.act, E.eval, jm_02, legq, side_2,
    segA, segB, segC, segD, segH]
  ring

theorem J_LH_10 (h : Hist) (q : ℕ → ℝ) : call Kin.fr_trunk_J_fr_LH_foot.gen h q 4 0 = jm (side 2) (legq 2 q) 1 0 := by
  simp [call, Gen.update, Kin.fr_trunk_J_fr_LH_foot, Kin.gen_fr_trunk_J_fr_LH_foot, Asg.act, E.eval, jm_10, legq, side_2,
    segA, segB, segC, segD, segH]
  ring

theorem J_LH_11 (h : Hist) (q : ℕ → ℝ) : call Kin.fr_trunk_J_fr_LH_foot.gen h q 4 1 = jm (side 2) (legq 2 q) 1 1 := by
  simp [call, Gen.update, Kin.fr_trunk_J_fr_LH_foot, Kin.gen_fr_trunk_J_fr_LH_foot, Asg.act, E.eval, jm_11, legq, side_2,
    segA, segB, segC, segD, segH]
  ring

theorem J_LH_12 (h : Hist) (q : ℕ → ℝ) : call Kin.fr_trunk_J_fr_LH_foot.gen h q 4 2 = jm (side 2) (legq 2 q) 1 2 := by
  simp [call, Gen.update, Kin.fr_trunk_J_fr_LH_foot, Kin.gen_fr_trunk_J_fr_LH_foot, Asg.act, E.eval, jm_12, legq, side_2,
    segA, segB, segC, segD, segH]
  ring

theorem J_LH_20 (h : Hist) (q : ℕ → ℝ) : call Kin.fr_trunk_J_fr_LH_foot.gen h q 5 0 = jm (side 2) (legq 2 q) 2 0 := by
  simp [call, Gen.update, Kin.fr_trunk_J_fr_LH_foot, Kin.gen_fr_trunk_J_fr_LH_foot, Asg.act, E.eval, jm_20, legq, side_2,
    segA, segB, segC, segD, segH]
  ring

theorem J_LH_21 (h : Hist) (q : ℕ → ℝ) : call Kin.fr_trunk_J_fr_LH_foot.gen h q 5 1 = jm (side 2) (legq 2 q) 2 1 := by
  simp [call, Gen.update, Kin.fr_trunk_J_fr_LH_foot, Kin.gen_fr_trunk_J_fr_LH_foot, Asg.act, E.eval, jm_21, legq, side_2,
    segA, segB, segC, segD, segH]
  ring

theorem J_LH_22 (h : Hist) (q : ℕ → ℝ) : call Kin.fr_trunk_J_fr_LH_foot.gen h q 5 2 = jm (side 2) (legq 2 q) 2 2 := by
  simp [call, Gen.update, Kin.fr_trunk_J_fr_LH_foot, Kin.gen_fr_trunk_J_fr_LH_foot, Asg.act, E.eval, jm_22, legq, side_2,
    segA, segB, segC, segD, segH]
  ring

theorem X_RH_0 (h : Hist) (q : ℕ → ℝ) : call Kin.fr_trunk_X_fr_RH_foot.hom h q 0 3 =
    pv (side 3) (mountX 3) (mountY 3) (legq 3 q) 0 := by
  simp [call, Gen.update, Kin.fr_trunk_X_fr_RH_foot, Kin.hom_fr_trunk_X_fr_RH_foot, Asg.act, E.eval, pv_0, legq, side_3, mountX_3,
    mountY_3, segA, segH]
  ring

theorem X_RH_1 (h : Hist) (q : ℕ → ℝ) : call Kin.fr_trunk_X_fr_RH_foot.hom h q 1 3 =
    pv (side 3) (mountX 3) (mountY 3) (legq 3 q) 1 := by
  simp [call, Gen.update, Kin.fr_trunk_X_fr_RH_foot, Kin.hom_fr_trunk_X_fr_RH_foot, Asg.act, E.eval, pv_1, legq, side_3, mountX_3,
    mountY_3, segA, segH]
  ring

theorem X_RH_2 (h : Hist) (q : ℕ → ℝ) : call Kin.fr_trunk_X_fr_RH_foot.hom h q 2 3 =
    pv (side 3) (mountX 3) (mountY 3) (legq 3 q) 2 := by
  simp [call, Gen.update, Kin.fr_trunk_X_fr_RH_foot, Kin.hom_fr_trunk_X_fr_RH_foot, Asg.act, E.eval, pv_2, legq, side_3, mountX_3,
    mountY_3, segA, segH]
  ring

theorem J_RH_00 (h : Hist) (q : ℕ → ℝ) : call Kin.fr_trunk_J_fr_RH_foot.gen h q 3 0 = jm (side 3) (legq 3 q) 0 0 := by
  refine (after_ctor _ _ _ (by decide +kernel) _ _ _).trans ?_
  simp [Gen.new, Kin.fr_trunk_J_fr_RH_foot, Kin.gen_fr_trunk_J_fr_RH_foot, Asg.act, E.eval, jm_00]

theorem J_RH_01 (h : Hist) (q : ℕ → ℝ) : call Kin.fr_trunk_J_fr_RH_foot.gen h q 3 1 = jm (side 3) (legq 3 q) 0 1 := by
  simp [call, Gen.update, Kin.fr_trunk_J_fr_RH_foot, Kin.gen_fr_trunk_J_fr_RH_foot, Asg.act, E.eval, jm_01, legq, side_3,
    segA, segB, segC, segD, segH]
  ring

theorem J_RH_02 (h : Hist) (q : ℕ → ℝ) : call Kin.fr_trunk_J_fr_RH_foot.gen h q 3 2 = jm (side 3) (legq 3 q) 0 2 := by
  simp [call, Gen.update, Kin.fr_trunk_J_fr_RH_foot, Kin.gen_fr_trunk_J_fr_RH_foot, Asg.act, E.eval, jm_02, legq, side_3,
    segA, segB, segC, segD, segH]
  ring

theorem J_RH_10 (h : Hist) (q : ℕ → ℝ) : call Kin.fr_trunk_J_fr_RH_foot.gen h q 4 0 = jm (side 3) (legq 3 q) 1 0 := by
  simp [call, Gen.update, Kin.fr_trunk_J_fr_RH_foot, Kin.gen_fr_trunk_J_fr_RH_foot, Asg.act, E.eval, jm_10, legq, side_3,
    segA, segB, segC, segD, segH]
  ring

theorem J_RH_11 (h : Hist) (q : ℕ → ℝ) : call Kin.fr_trunk_J_fr_RH_foot.gen h q 4 1 = jm (side 3) (legq 3 q) 1 1 := by
  simp [call, Gen.update, Kin.fr_trunk_J_fr_RH_foot, Kin.gen_fr_trunk_J_fr_RH_foot, Asg.act, E.eval, jm_11, legq, side_3,
    segA, segB, segC, segD, segH]
  ring

theorem J_RH_12 (h : Hist) (q : ℕ → ℝ) : call Kin.fr_trunk_J_fr_RH_foot.gen h q 4 2 = jm (side 3) (legq 3 q) 1 2 := by
  simp [call, Gen.update, Kin.fr_trunk_J_fr_RH_foot, Kin.gen_fr_trunk_J_fr_RH_foot, Asg.act, E.eval, jm_12, legq, side_3,
    segA, segB, segC, segD, segH]
  ring

theorem J_RH_20 (h : Hist) (q : ℕ → ℝ) : call Kin.fr_trunk_J_fr_RH_foot.gen h q 5 0 = jm (side 3) (legq 3 q) 2 0 := by
  simp [call, Gen.update, Kin.fr_trunk_J_fr_RH_foot, Kin.gen_fr_trunk_J_fr_RH_foot, Asg.act, E.eval, jm_20, legq, side_3,
    segA, segB, segC, segD, segH]
  ring

theorem J_RH_21 (h : Hist) (q : ℕ → ℝ) : call Kin.fr_trunk_J_fr_RH_foot.gen h q 5 1 = jm (side 3) (legq 3 q) 2 1 := by
  simp [call, Gen.update, Kin.fr_trunk_J_fr_RH_foot, Kin.gen_fr_trunk_J_fr_RH_foot, Asg.act, E.eval, jm_21, legq, side_3,
    segA, segB, segC, segD, segH]
  ring

theorem J_RH_22 (h : Hist) (q : ℕ → ℝ) : call Kin.fr_trunk_J_fr_RH_foot.gen h q 5 2 = jm (side 3) (legq 3 q) 2 2 := by
  simp [call, Gen.update, Kin.fr_trunk_J_fr_RH_foot, Kin.gen_fr_trunk_J_fr_RH_foot, Asg.act, E.eval, jm_22, legq, side_3,
    segA, segB, segC, segD, segH]
  ring

/-- The transforms and Jacobians of the legs. -/
theorem leg_values (l : Fin 4) : ∃ e, Kin.defs.ees[(l : ℕ)]? = some e ∧ e.first = 3 * l ∧ e.last = 3 * l + 2 ∧ e.J.gen.cols = 3 ∧
    (∀ h q, (fun i : Fin 3 => call e.X.hom h q i 3) = pv (side l) (mountX l) (mountY l) (legq l q)) ∧
    ∀ h q, (fun (i k : Fin 3) => call e.J.gen h q (3 + i) k) = jm (side l) (legq l q) := by
  fin_cases l
  · refine ⟨_, rfl, rfl, rfl, rfl, fun h q => ext3 (X_LF_0 h q) (X_LF_1 h q) (X_LF_2 h q), fun h q => ?_⟩
    funext i k
    fin_cases i <;> fin_cases k
    exacts [J_LF_00 h q, J_LF_01 h q, J_LF_02 h q, J_LF_10 h q, J_LF_11 h q, J_LF_12 h q, J_LF_20 h q, J_LF_21 h q, J_LF_22 h q]
  · refine ⟨_, rfl, rfl, rfl, rfl, fun h q => ext3 (X_RF_0 h q) (X_RF_1 h q) (X_RF_2 h q), fun h q => ?_⟩
    funext i k
    fin_cases i <;> fin_cases k
    exacts [J_RF_00 h q, J_RF_01 h q, J_RF_02 h q, J_RF_10 h q, J_RF_11 h q, J_RF_12 h q, J_RF_20 h q, J_RF_21 h q, J_RF_22 h q]
  · refine ⟨_, rfl, rfl, rfl, rfl, fun h q => ext3 (X_LH_0 h q) (X_LH_1 h q) (X_LH_2 h q), fun h q => ?_⟩
    funext i k
    fin_cases i <;> fin_cases k
    exacts [J_LH_00 h q, J_LH_01 h q, J_LH_02 h q, J_LH_10 h q, J_LH_11 h q, J_LH_12 h q, J_LH_20 h q, J_LH_21 h q, J_LH_22 h q]
  · refine ⟨_, rfl, rfl, rfl, rfl, fun h q => ext3 (X_RH_0 h q) (X_RH_1 h q) (X_RH_2 h q), fun h q => ?_⟩
    funext i k
    fin_cases i <;> fin_cases k
    exacts [J_RH_00 h q, J_RH_01 h q, J_RH_02 h q, J_RH_10 h q, J_RH_11 h q, J_RH_12 h q, J_RH_20 h q, J_RH_21 h q, J_RH_22 h q]

theorem seg_ofFn (x : Fin 36 → ℝ) (o n : ℕ) (h : o + n ≤ 36) : seg (List.ofFn x) o n = fun i : Fin n => x ⟨o + i, by omega⟩ := by
  funext i
  have hi : o + (i : ℕ) < 36 := by omega
  rw [seg, List.getD_eq_getElem _ _ (by rw [List.length_ofFn]; exact hi), List.getElem_ofFn]

theorem rot_eq (kd : Kindr) (x : Fin 36 → ℝ) : rotationMatrix kd (footState kd x).pose = quatMatrix (Qe x) := by
  have e : (footState kd x).pose.euler = fun i : Fin 3 => x ⟨0 + i, by omega⟩ := seg_ofFn x 0 3 (by omega)
  have hs : (footState kd x).pose.storedAsEuler = true := rfl
  rw [rotationMatrix, if_pos hs, e]
  rfl

theorem joints_eq (kd : Kindr) (l : Fin 4) (x : Fin 36 → ℝ) : legq l (byJoint (footState kd x).joints.pos) = th l x := by
  have e : (footState kd x).joints.pos = fun i : Fin 12 => x ⟨6 + i, by omega⟩ := seg_ofFn x 6 12 (by omega)
  funext i
  simp only [legq, byJoint, e, th]
  rw [dif_pos (by omega)]
  congr 2
  omega

theorem footPosition_eq (kd : Kindr) (hX : Hist) (l : Fin 4) (x : Fin 36 → ℝ) : footPosition kd hX l x = .ok (fp l x) := by
  obtain ⟨e, he, -, -, -, hx, -⟩ := leg_values l
  have hp : (footState kd x).pose.position = bp x := seg_ofFn x 3 3 (by omega)
  simp only [footPosition, Defs.getEEPositionInWorld, Defs.getEEPositionInBase, Defs.getHomogeneousTransformBaseEEById, he]
  have := hx hX (byJoint (footState kd x).joints.pos)
  rw [joints_eq] at this
  show Res.ok _ = _
  rw [rot_eq, hp, eePositionInWorld]
  exact congrArg (fun v => Res.ok (bp x + quatMatrix (Qe x) *ᵥ v)) this

theorem footVelocity_eq (kd : Kindr) (hJ hX : Hist) (l : Fin 4) (x : Fin 36 → ℝ) : footVelocity kd hJ hX l x = .ok (fv l x) := by
  obtain ⟨e, he, h1, h2, h3, hx, hj⟩ := leg_values l
  have hω : (footState kd x).angVel = om x := seg_ofFn x 18 3 (by omega)
  have hv : (footState kd x).linVel = lv x := seg_ofFn x 21 3 (by omega)
  have hq : (footState kd x).joints.vel = fun i : Fin 12 => x ⟨24 + i, by omega⟩ := seg_ofFn x 24 12 (by omega)
  have hx' := hx hX (byJoint (footState kd x).joints.pos)
  have hj' := hj hJ (byJoint (footState kd x).joints.pos)
  rw [joints_eq] at hx' hj'
  have hc : e.J.gen.cols + e.first = e.last + 1 ∧ e.last < Kin.defs.njoints :=
    ⟨by omega, by rw [h2]; show 3 * (l : ℕ) + 2 < 12; omega⟩
  simp only [footVelocity, Defs.getEEVelocityInWorld, Defs.getEEVelocityInBase, Defs.getEEPositionInBase, Defs.getJacobianBaseEEbyId,
    Defs.getHomogeneousTransformBaseEEById, he, if_pos hc]
  show Res.ok _ = _
  rw [rot_eq, hω, hv, fv, vb]
  refine congrArg (fun v => Res.ok (quatMatrix (Qe x) *ᵥ v)) ?_
  refine congrArg₂ (fun a b => a + lv x + cross (om x) b) ?_ hx'
  funext i
  have hb := sum_block (N := 12) (n := 3) (a := 3 * l) (by omega) (fun k => jac l x i k) (byJoint (footState kd x).joints.vel)
    (fun k => call e.J.gen hJ (byJoint (footState kd x).joints.pos) (3 + i) k) (fun k => congrFun (congrFun hj' i) k)
  simp only [mulVec, dotProduct]
  refine Eq.trans (Finset.sum_congr rfl fun j _ => ?_) (hb.trans (Finset.sum_congr rfl fun k _ => ?_))
  · congr 1
    refine if_congr ?_ ?_ rfl
    · omega
    · rw [h1]; rfl
  · congr 1
    simp only [byJoint, hq, qd]
    rw [dif_pos (by omega)]
    congr 2
    omega

/-! ### The Jacobians -/

theorem update_deriv (x : Fin 36 → ℝ) (c : Fin 36) : VDeriv (fun s => Function.update x c s) (Pi.single c 1) (x c) := by
  intro i
  by_cases h : i = c
  · subst h
    simpa using hasDerivAt_id' (x i)
  · simpa [h] using hasDerivAt_const (x c) (x i)

theorem isJacobian_of {J : Fin 24 → Fin 36 → ℝ} {x : Fin 36 → ℝ}
    (h : ∀ (l : Fin 4) (c : Fin 36), (fun i : Fin 3 => J ⟨6 * l + i, by omega⟩ c) = Dpos l x (Pi.single c 1) ∧
      (fun i : Fin 3 => J ⟨6 * l + 3 + i, by omega⟩ c) = Dvel l x (Pi.single c 1)) : IsJacobian fp fv x J := by
  intro l i c
  obtain ⟨h1, h2⟩ := h l c
  have a := fp_deriv l (update_deriv x c) i
  have b := fv_deriv l (update_deriv x c) i
  rw [Function.update_eq_self, ← h1] at a
  rw [Function.update_eq_self, ← h2] at b
  exact ⟨a, b⟩

theorem forward_isJacobian (x : Fin 36 → ℝ) : IsJacobian fp fv x (FootJacForward.jacobian x) := by
  refine isJacobian_of fun l c => ?_
  fin_cases l
  exacts [FootJacForward.Leg0.rows x c, FootJacForward.Leg1.rows x c, FootJacForward.Leg2.rows x c, FootJacForward.Leg3.rows x c]

theorem reverse_isJacobian (x : Fin 36 → ℝ) : IsJacobian fp fv x (FootJacReverse.jacobian x) := by
  refine isJacobian_of fun l c => ?_
  fin_cases l
  exacts [FootJacReverse.Leg0.rows x c, FootJacReverse.Leg1.rows x c, FootJacReverse.Leg2.rows x c, FootJacReverse.Leg3.rows x c]

/-- **C193** (generated Jacobians of the feet).  For every state of HyQ, and whatever was computed before with the objects
involved, the kinematics return a position and a velocity of each foot, and both generated Jacobians consist of their partial
derivatives with respect to all 36 coordinates of the state. -/
theorem C193_derivative (kd : Kindr) : ∃ P V : Fin 4 → (Fin 36 → ℝ) → V3,
    (∀ (hJ hX : Hist) (l : Fin 4) (x : Fin 36 → ℝ), footPosition kd hX l x = .ok (P l x) ∧ footVelocity kd hJ hX l x = .ok (V l x)) ∧
    ∀ x, IsJacobian P V x (FootJacForward.jacobian x) ∧ IsJacobian P V x (FootJacReverse.jacobian x) :=
  ⟨fp, fv, fun hJ hX l x => ⟨footPosition_eq kd hX l x, footVelocity_eq kd hJ hX l x⟩,
    fun x => ⟨forward_isJacobian x, reverse_isJacobian x⟩⟩

/-- **C193** (the two agree).  The Jacobian generated in forward mode is, at every state and in every entry, the one generated in
reverse mode. -/
theorem C193_agree (x : Fin 36 → ℝ) : FootJacForward.jacobian x = FootJacReverse.jacobian x := by
  funext r c
  have hl : (r : ℕ) / 6 < 4 := by omega
  by_cases h : (r : ℕ) % 6 < 3
  · have e : r = ⟨6 * ((⟨(r : ℕ) / 6, hl⟩ : Fin 4) : ℕ) + ((⟨(r : ℕ) % 6, h⟩ : Fin 3) : ℕ), by simp only; omega⟩ :=
      Fin.ext (by simp only; omega)
    rw [e]
    exact (forward_isJacobian x _ _ c).1.unique (reverse_isJacobian x _ _ c).1
  · have h' : (r : ℕ) % 6 - 3 < 3 := by omega
    have e : r = ⟨6 * ((⟨(r : ℕ) / 6, hl⟩ : Fin 4) : ℕ) + 3 + ((⟨(r : ℕ) % 6 - 3, h'⟩ : Fin 3) : ℕ), by simp only; omega⟩ :=
      Fin.ext (by simp only; omega)
    rw [e]
    exact (forward_isJacobian x _ _ c).2.unique (reverse_isJacobian x _ _ c).2

/-- The Jacobians are not trivial: at the zero state the first foot, `0.76` below the base, moves backwards by `0.76` per unit of pitch. -/
example : FootJacForward.jacobian (fun _ => 0) 0 1 = -(76 / 100) := by
  have h := congrFun (FootJacForward.Leg0.rows (fun _ => 0) 1).1 0
  refine Eq.trans h ?_
  rw [(col_angle 0 1 (fun _ => 0) 1 rfl).1]
  simp [mv_0, dRm_00, dRm_01, dRm_02, dQ_1_0, dQ_1_1, dQ_1_2, dQ_1_3, Qe_0, Qe_1, Qe_2, Qe_3, foot, pv_0, pv_1, pv_2, side_0, mountX_0,
    mountY_0, th, segA, segH]
  norm_num

end

end CT.Robots.HyQ
