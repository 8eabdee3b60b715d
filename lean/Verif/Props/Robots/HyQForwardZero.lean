import Verif.Model.Robots.HyQForwardZero
import Verif.Props.FloatingSystem

/-! # C196: the system made of the generated dynamics of HyQ -/

namespace CT.Robots.HyQ.Zero

open Matrix FrameJac OpJac CT.FloatSys CT.Robot

/-! ### Specification -/

/-- State, control and time as one vector. -/
def stack (x : Fin 36 → ℝ) (u : Fin 12 → ℝ) (t : ℝ) : Fin 49 → ℝ :=
  fun i => if h : i.val < 36 then x ⟨i, h⟩ else if h : i.val < 48 then u ⟨i - 36, by omega⟩ else t

/-- How the positions change: the Euler angles such that the base turns with its angular velocity, the position with the velocity
of the base, turned into the world, and the joints with their velocities. -/
structure Moves (x : Fin 36 → ℝ) (d : Fin 18 → ℝ) : Prop where
  orientation : MDeriv (fun s : ℝ => rotXYZ (![x 0, x 1, x 2] + s • ![d 0, d 1, d 2]))
    (rotXYZ ![x 0, x 1, x 2] * cpm ![x 18, x 19, x 20]) 0
  position : ![d 3, d 4, d 5] = rotXYZ ![x 0, x 1, x 2] *ᵥ ![x 21, x 22, x 23]
  joints : ∀ j : Fin 12, d ⟨6 + j, by omega⟩ = x ⟨24 + j, by omega⟩

/-! ### Proofs -/

theorem half (a : ℝ) : 1 / 2 * a = a / 2 := by ring

theorem kin_euler (z : Fin 49 → ℝ) : ![kin z 0, kin z 1, kin z 2] = eulerRate ![z 0, z 1, z 2] ![z 18, z 19, z 20] := by
  funext i
  fin_cases i
  · simp [kin, eulerRate, l20, l16, l17, l18, l19]; ring
  · simp [kin, eulerRate, l21, l17, l19]
  · simp [kin, eulerRate, l23, l16, l17, l18, l19, l22]; ring

theorem kin_position (z : Fin 49 → ℝ) :
    ![kin z 3, kin z 4, kin z 5] = eulerQuatMatrix ![z 0, z 1, z 2] *ᵥ ![z 21, z 22, z 23] := by
  funext i
  fin_cases i <;>
  simp [kin, eulerQuatMatrix, quatMatrix, quatMul, axisQuat, Matrix.mulVec, dotProduct, Fin.sum_univ_three, half,
    l24, l25, l26, l27, l28, l29, l30, l31, l32, l33, l34, l35, l36, l37, l38, l39, l40, l41, l42, l43, l44, l45, l46, l47, l48, l49,
    l50, l51, l52, l53, l54, l55, -one_div, -mul_eq_mul_left_iff] <;> ring

theorem kin_joints (z : Fin 49 → ℝ) (j : Fin 12) : kin z ⟨6 + j, by omega⟩ = z ⟨24 + j, by omega⟩ := by
  fin_cases j <;> rfl

theorem eulerRate_moves {e ω : V3} (hc : Real.cos (e 1) ≠ 0) :
    MDeriv (fun s : ℝ => rotXYZ (e + s • eulerRate e ω)) (rotXYZ e * cpm ω) 0 := by
  have h3 := rotXYZ_deriv (line_deriv e (eulerRate e ω))
  simpa only [zero_smul, add_zero, bodyRate_eulerRate e ω hc] using h3

theorem stack_state {x : Fin 36 → ℝ} {u : Fin 12 → ℝ} {t : ℝ} (i : ℕ) (h : i < 36) : stack x u t ⟨i, by omega⟩ = x ⟨i, h⟩ := by
  rw [stack, dif_pos h]

theorem seg_ofFn (x : Fin 36 → ℝ) (i k : ℕ) (hk : i + k ≤ 36) : seg (List.ofFn x) i k = fun j : Fin k => x ⟨i + j, by omega⟩ := by
  funext j
  have : i + j.val < 36 := by omega
  rw [seg, List.getD_eq_getElem?_getD, List.getElem?_ofFn, dif_pos this]
  rfl

theorem split_ofFn (k : Fin 18 → ℝ) :
    List.ofFn k = List.ofFn ![k 0, k 1, k 2] ++ List.ofFn ![k 3, k 4, k 5] ++ List.ofFn (fun j : Fin 12 => k ⟨6 + j, by omega⟩) := rfl

/-- C196: the first half of what the generated function returns are the derivatives of orientation, position and joint angles,
for every state without singular Euler angles, whatever control and time are. -/
theorem C196_kinematics (x : Fin 36 → ℝ) (hc : Real.cos (x 1) ≠ 0) (u : Fin 12 → ℝ) (t : ℝ) (acc : (Fin 49 → ℝ) → Fin 18 → ℝ) :
    Moves x fun i => forwardZero acc (stack x u t) ⟨i, by omega⟩ := by
  have e : ∀ i : Fin 18, forwardZero acc (stack x u t) ⟨i, by omega⟩ = kin (stack x u t) i := fun i => by
    simp [forwardZero]
  simp only [e]
  refine ⟨?_, ?_, fun j => ?_⟩
  · rw [kin_euler]
    exact eulerRate_moves (e := ![x 0, x 1, x 2]) (ω := ![x 18, x 19, x 20]) hc
  · rw [kin_position, eulerQuatMatrix_eq]
    rfl
  · rw [kin_joints]
    have : 24 + j.val < 36 := by omega
    simp [stack, this]

/-- C196: the derivative of the system `HyQContactModelForwardZeroSystem`, of which the two halves come from different code, is
what the generated function returns for its state and control at time zero. -/
theorem C196_system {kd : Kindr} (hk : kd.Ok) (x : Fin 36 → ℝ) (hc : Real.cos (x 1) ≠ 0) (u : Fin 12 → ℝ)
    (acc : (Fin 49 → ℝ) → Fin 18 → ℝ) :
    dynamics kd acc (List.ofFn x) (List.ofFn u) = List.ofFn (forwardZero acc (stack x u 0)) := by
  have hz : (fun i : Fin 49 => ((List.ofFn x).take 18 ++ (List.ofFn x).drop 18 ++ List.ofFn u ++ [0]).getD i 0) = stack x u 0 := by
    funext i
    rw [List.take_append_drop, List.getD_eq_getElem?_getD]
    unfold stack
    split
    next h => rw [List.append_assoc, List.getElem?_append_left (by simpa using h)]; rw [List.getElem?_ofFn, dif_pos h]; rfl
    next h =>
      split
      next h' =>
        rw [List.getElem?_append_left (by simpa using h'), List.getElem?_append_right (by simpa using h)]
        have : i.val - 36 < 12 := by omega
        rw [List.getElem?_ofFn, List.length_ofFn, dif_pos this]
        rfl
      next h' =>
        have : i.val = 48 := by omega
        rw [List.getElem?_append_right (by simp; omega)]
        simp [this]
  have hp : pdot kd (List.ofFn x) ((List.ofFn x).drop 18) = (List.ofFn (forwardZero acc (stack x u 0))).take 18 := by
    have e0 : (List.ofFn (forwardZero acc (stack x u 0))).take 18 = List.ofFn (kin (stack x u 0)) := rfl
    have e1 := kin_euler (stack x u 0)
    have e2 := kin_position (stack x u 0)
    have e3 : ∀ j : Fin 12, kin (stack x u 0) ⟨6 + j, by omega⟩ = x ⟨24 + j, by omega⟩ := fun j => by
      rw [kin_joints, stack_state _ (by omega)]
    have e4 := hk.eulerDiff_eq ![x 0, x 1, x 2] ![x 18, x 19, x 20] hc
    replace e1 := e1.trans e4.symm
    rw [e0, split_ofFn, e1, e2]
    simp only [e3]
    rw [pdot, List.take_append_drop]
    have t1 : seg (List.ofFn x) 0 3 = ![x 0, x 1, x 2] := by
      rw [seg_ofFn _ _ _ (by omega)]; funext j; fin_cases j <;> rfl
    have t2 : seg (List.ofFn x) (6 + 12) 3 = ![x 18, x 19, x 20] := by
      rw [seg_ofFn _ _ _ (by omega)]; funext j; fin_cases j <;> rfl
    have t3 : seg (List.ofFn x) (9 + 12) 3 = ![x 21, x 22, x 23] := by
      rw [seg_ofFn _ _ _ (by omega)]; funext j; fin_cases j <;> rfl
    have t4 : seg (List.ofFn x) (2 * (12 + 6) - 12) 12 = fun j : Fin 12 => x ⟨24 + j, by omega⟩ := seg_ofFn _ _ _ (by omega)
    simp only [Acc.toEuler, RBD.fromStateVectorEulerXyz, RBD.blank, Pose.init, Pose.setEuler, Pose.getEuler,
      rotateBaseToInertia, rotationMatrix, if_true, t1, t2, t3, t4]
    rfl
  have hv : vdot acc (List.ofFn x) ((List.ofFn x).take 18) (List.ofFn u) = (List.ofFn (forwardZero acc (stack x u 0))).drop 18 := by
    rw [vdot]
    simp only [hz]
  rw [dynamics, hp, hv, List.take_append_drop]

/-- C196: with the velocities or the positions replaced, as the symplectic integrators do, each half is that of the generated
function for the state with the replaced half. -/
theorem C196_halves {kd : Kindr} (hk : kd.Ok) (x y : Fin 36 → ℝ) (hc : Real.cos (x 1) ≠ 0) (u : Fin 12 → ℝ)
    (acc : (Fin 49 → ℝ) → Fin 18 → ℝ) :
    let xy : Fin 36 → ℝ := fun i => if i.val < 18 then x i else y i
    pdot kd (List.ofFn x) ((List.ofFn y).drop 18) = (List.ofFn (forwardZero acc (stack xy u 0))).take 18
    ∧ vdot acc (List.ofFn y) ((List.ofFn x).take 18) (List.ofFn u) = (List.ofFn (forwardZero acc (stack xy u 0))).drop 18 := by
  intro xy
  have h1 : (List.ofFn xy).take 18 = (List.ofFn x).take 18 := by
    apply List.ext_getElem (by simp)
    intro i h _
    have : i < 18 := by rw [List.length_take, List.length_ofFn] at h; omega
    rw [List.getElem_take, List.getElem_take, List.getElem_ofFn, List.getElem_ofFn]
    exact if_pos this
  have h2 : (List.ofFn xy).drop 18 = (List.ofFn y).drop 18 := by
    apply List.ext_getElem (by simp)
    intro i h _
    rw [List.getElem_drop, List.getElem_drop, List.getElem_ofFn, List.getElem_ofFn]
    exact if_neg (show ¬ 18 + i < 18 by omega)
  have h3 := C196_system hk xy (by exact hc) u acc
  have hl : (pdot kd (List.ofFn xy) ((List.ofFn xy).drop 18)).length = 18 := by
    rw [pdot, List.length_take, toEuler_length]; rfl
  rw [dynamics] at h3
  have h4 := congrArg (List.take 18) h3
  have h5 := congrArg (List.drop 18) h3
  rw [List.take_left' hl] at h4
  rw [List.drop_left' hl] at h5
  rw [← h4, ← h5]
  simp only [pdot, vdot, h1, h2, and_self]

/-! ### The hypotheses can be met -/

/-- A robot that is pitched by `π / 4` and moves, with all joints at `1`. -/
example : ∃ x : Fin 36 → ℝ, Real.cos (x 1) ≠ 0 ∧ x 1 ≠ 0 ∧ x 18 ≠ 0 ∧ ∀ j : Fin 12, x ⟨6 + j, by omega⟩ = 1 := by
  refine ⟨fun i => if i.val = 1 then Real.pi / 4 else 1, ?_, ?_, ?_, fun j => ?_⟩
  · rw [show (fun i : Fin 36 => if i.val = 1 then Real.pi / 4 else (1 : ℝ)) 1 = Real.pi / 4 from rfl, Real.cos_pi_div_four]
    positivity
  · rw [show (fun i : Fin 36 => if i.val = 1 then Real.pi / 4 else (1 : ℝ)) 1 = Real.pi / 4 from rfl]
    positivity
  · exact one_ne_zero
  · exact if_neg (show ¬ 6 + j.val = 1 by omega)

example (cv : Conv ℝ) : (stdKindr cv).Ok := stdKindr_ok cv

end CT.Robots.HyQ.Zero
