import Verif.Model.Robots.HyQFoot
import Verif.Props.FloatingSystem
import Verif.Props.FrameJac

/-!
# Derivatives of positions and velocities of the feet of HyQ
-/

namespace CT.Robots.HyQ

open Matrix CT.FloatSys CT.Robot CT.FrameJac CT.Lookup CT.OpJac CT.GenKin

noncomputable section

/-! ### The kinematics of a leg -/

/-- Derivatives of the matrix of a quaternion. -/
def dRm (q d : Q4) : M3 :=
  !![-2 * (q 2 * d 2 + d 2 * q 2 + (q 3 * d 3 + d 3 * q 3)), 2 * (q 1 * d 2 + d 1 * q 2 - (q 0 * d 3 + d 0 * q 3)),
      2 * (q 1 * d 3 + d 1 * q 3 + (q 0 * d 2 + d 0 * q 2));
    2 * (q 1 * d 2 + d 1 * q 2 + (q 0 * d 3 + d 0 * q 3)), -2 * (q 1 * d 1 + d 1 * q 1 + (q 3 * d 3 + d 3 * q 3)),
      2 * (q 2 * d 3 + d 2 * q 3 - (q 0 * d 1 + d 0 * q 1));
    2 * (q 1 * d 3 + d 1 * q 3 - (q 0 * d 2 + d 0 * q 2)), 2 * (q 2 * d 3 + d 2 * q 3 + (q 0 * d 1 + d 0 * q 1)),
      -2 * (q 1 * d 1 + d 1 * q 1 + (q 2 * d 2 + d 2 * q 2))]

/-- The quaternion of the base. -/
def Qe (x : Fin 36 → ℝ) : Q4 :=
  quatMul (quatMul (axisQuat (x 0) ![1, 0, 0]) (axisQuat (x 1) ![0, 1, 0])) (axisQuat (x 2) ![0, 0, 1])

/-- The product of the quaternions of three rotations. -/
def Q3 (a b c s t u : ℝ) : Q4 :=
  ![a * b * c - s * t * u, s * b * c + a * t * u, a * t * c - s * b * u, a * b * u + s * t * c]

/-- Derivatives of the quaternion with respect to the angles. -/
def dQ (k : Fin 3) (x : Fin 36 → ℝ) : Q4 :=
  let c := fun i : Fin 36 => Real.cos (1 / 2 * x i)
  let s := fun i : Fin 36 => Real.sin (1 / 2 * x i)
  (![Q3 (-(1 / 2) * s 0) (c 1) (c 2) (1 / 2 * c 0) (s 1) (s 2), Q3 (c 0) (-(1 / 2) * s 1) (c 2) (s 0) (1 / 2 * c 1) (s 2),
    Q3 (c 0) (c 1) (-(1 / 2) * s 2) (s 0) (s 1) (1 / 2 * c 2)] : Fin 3 → Q4) k

theorem Qe_eq (x : Fin 36 → ℝ) : Qe x = Q3 (Real.cos (1 / 2 * x 0)) (Real.cos (1 / 2 * x 1)) (Real.cos (1 / 2 * x 2))
    (Real.sin (1 / 2 * x 0)) (Real.sin (1 / 2 * x 1)) (Real.sin (1 / 2 * x 2)) := by
  have h : ∀ a : ℝ, 1 / 2 * a = a / 2 := fun a => by ring
  rw [h, h, h]
  funext i
  fin_cases i <;> simp [Qe, Q3, quatMul, axisQuat] <;> ring

def segA (s1 c1 s2 c2 : ℝ) : ℝ := 33 / 100 * (c1 * s2 + s1 * c2) + 35 / 100 * s1
def segB (s1 c1 s2 c2 : ℝ) : ℝ := 33 / 100 * (c1 * s2 + s1 * c2)
def segC (s1 c1 s2 c2 : ℝ) : ℝ := 33 / 100 * (c1 * c2 - s1 * s2) + 35 / 100 * c1
def segD (s1 c1 s2 c2 : ℝ) : ℝ := 33 / 100 * (c1 * c2 - s1 * s2)
def segH (s1 c1 s2 c2 : ℝ) : ℝ := 33 / 100 * s1 * s2 - 33 / 100 * c1 * c2 - 35 / 100 * c1 - 8 / 100

/-- Position of a foot in the base: `σ` is the side, `a` and `b` the mount of the leg, `θ` are its angles. -/
def pv (σ a b : ℝ) (θ : V3) : V3 :=
  let s := fun i : Fin 3 => Real.sin (θ i)
  let c := fun i : Fin 3 => Real.cos (θ i)
  ![-segA (s 1) (c 1) (s 2) (c 2) + a, σ * s 0 * segH (s 1) (c 1) (s 2) (c 2) + b, c 0 * segH (s 1) (c 1) (s 2) (c 2)]

/-- Its derivatives. -/
def jm (σ : ℝ) (θ : V3) : M3 :=
  let s := fun i : Fin 3 => Real.sin (θ i)
  let c := fun i : Fin 3 => Real.cos (θ i)
  let A := segA (s 1) (c 1) (s 2) (c 2)
  let B := segB (s 1) (c 1) (s 2) (c 2)
  let h := segH (s 1) (c 1) (s 2) (c 2)
  !![0, -segC (s 1) (c 1) (s 2) (c 2), -segD (s 1) (c 1) (s 2) (c 2);
    σ * c 0 * h, σ * s 0 * A, σ * s 0 * B;
    -s 0 * h, c 0 * A, c 0 * B]

/-- Its second derivatives. -/
def djm (σ : ℝ) (k : Fin 3) (θ : V3) : M3 :=
  let s := fun i : Fin 3 => Real.sin (θ i)
  let c := fun i : Fin 3 => Real.cos (θ i)
  let A := segA (s 1) (c 1) (s 2) (c 2)
  let B := segB (s 1) (c 1) (s 2) (c 2)
  let C := segC (s 1) (c 1) (s 2) (c 2)
  let D := segD (s 1) (c 1) (s 2) (c 2)
  let h := segH (s 1) (c 1) (s 2) (c 2)
  (![!![0, 0, 0; -(σ * s 0 * h), σ * c 0 * A, σ * c 0 * B; -(c 0 * h), -(s 0 * A), -(s 0 * B)],
    !![0, A, B; σ * c 0 * A, σ * s 0 * C, σ * s 0 * D; -(s 0 * A), c 0 * C, c 0 * D],
    !![0, B, B; σ * c 0 * B, σ * s 0 * D, σ * s 0 * D; -(s 0 * B), c 0 * D, c 0 * D]] : Fin 3 → M3) k

/-- Side of a leg, and where it is mounted. -/
def side (l : Fin 4) : ℝ := (![1, -1, 1, -1] : Fin 4 → ℝ) l
def mountX (l : Fin 4) : ℝ := (![3735 / 10000, 3735 / 10000, -(3735 / 10000), -(3735 / 10000)] : Fin 4 → ℝ) l
def mountY (l : Fin 4) : ℝ := (![207 / 1000, -(207 / 1000), 207 / 1000, -(207 / 1000)] : Fin 4 → ℝ) l

/-- Angles of a leg, their velocities, and the velocities of the base. -/
def th (l : Fin 4) (x : Fin 36 → ℝ) : V3 := fun i => x ⟨6 + 3 * l + i, by omega⟩
def qd (l : Fin 4) (x : Fin 36 → ℝ) : V3 := fun i => x ⟨24 + 3 * l + i, by omega⟩
def bp (x : Fin 36 → ℝ) : V3 := fun i => x ⟨3 + i, by omega⟩
def om (x : Fin 36 → ℝ) : V3 := fun i => x ⟨18 + i, by omega⟩
def lv (x : Fin 36 → ℝ) : V3 := fun i => x ⟨21 + i, by omega⟩

def foot (l : Fin 4) (x : Fin 36 → ℝ) : V3 := pv (side l) (mountX l) (mountY l) (th l x)
def jac (l : Fin 4) (x : Fin 36 → ℝ) : M3 := jm (side l) (th l x)

/-- Velocity of a foot in the base. -/
def vb (l : Fin 4) (x : Fin 36 → ℝ) : V3 := jac l x *ᵥ qd l x + lv x + cross (om x) (foot l x)

/-- Position and velocity in the world. -/
def fp (l : Fin 4) (x : Fin 36 → ℝ) : V3 := bp x + quatMatrix (Qe x) *ᵥ foot l x
def fv (l : Fin 4) (x : Fin 36 → ℝ) : V3 := quatMatrix (Qe x) *ᵥ vb l x

/-! ### Derivatives along a curve -/

def dQs (x x' : Fin 36 → ℝ) : Q4 := fun i => ∑ k : Fin 3, x' ⟨k, by omega⟩ * dQ k x i

def dJs (l : Fin 4) (x x' : Fin 36 → ℝ) : M3 := fun i j => ∑ k : Fin 3, th l x' k * djm (side l) k (th l x) i j

/-- Derivative of the position in the direction `x'`. -/
def Dpos (l : Fin 4) (x x' : Fin 36 → ℝ) : V3 :=
  bp x' + (dRm (Qe x) (dQs x x') *ᵥ foot l x + quatMatrix (Qe x) *ᵥ (jac l x *ᵥ th l x'))

/-- Derivative of the velocity in the direction `x'`. -/
def Dvel (l : Fin 4) (x x' : Fin 36 → ℝ) : V3 :=
  dRm (Qe x) (dQs x x') *ᵥ vb l x + quatMatrix (Qe x) *ᵥ
    (dJs l x x' *ᵥ qd l x + jac l x *ᵥ qd l x' + lv x' + (cross (om x') (foot l x) + cross (om x) (jac l x *ᵥ th l x')))

theorem quatMatrix_dRm {q : ℝ → Q4} {q' : Q4} {t : ℝ} (h : VDeriv q q' t) :
    MDeriv (fun s => quatMatrix (q s)) (dRm (q t) q') t := by
  have m := fun i j : Fin 4 => (h i).mul (h j)
  intro i j
  fin_cases i <;> fin_cases j
  · exact ((((m 2 2).add (m 3 3)).const_mul 2).const_sub 1).congr_deriv (by simp [dRm]; ring)
  · exact (((m 1 2).sub (m 0 3)).const_mul 2).congr_deriv (by simp [dRm]; ring)
  · exact (((m 1 3).add (m 0 2)).const_mul 2).congr_deriv (by simp [dRm]; ring)
  · exact (((m 1 2).add (m 0 3)).const_mul 2).congr_deriv (by simp [dRm]; ring)
  · exact ((((m 1 1).add (m 3 3)).const_mul 2).const_sub 1).congr_deriv (by simp [dRm]; ring)
  · exact (((m 2 3).sub (m 0 1)).const_mul 2).congr_deriv (by simp [dRm]; ring)
  · exact (((m 1 3).sub (m 0 2)).const_mul 2).congr_deriv (by simp [dRm]; ring)
  · exact (((m 2 3).add (m 0 1)).const_mul 2).congr_deriv (by simp [dRm]; ring)
  · exact ((((m 1 1).add (m 2 2)).const_mul 2).const_sub 1).congr_deriv (by simp [dRm]; ring)

theorem Qe_deriv {x : ℝ → Fin 36 → ℝ} {x' : Fin 36 → ℝ} {t : ℝ} (h : VDeriv x x' t) :
    VDeriv (fun s => Qe (x s)) (dQs (x t) x') t := by
  have c := fun i : Fin 36 => ((h i).const_mul (1 / 2)).cos
  have s := fun i : Fin 36 => ((h i).const_mul (1 / 2)).sin
  have P := fun {f g k : ℝ → ℝ} {f' g' k' : ℝ} (hf : HasDerivAt f f' t) (hg : HasDerivAt g g' t) (hk : HasDerivAt k k' t) =>
    (hf.mul hg).mul hk
  simp only [Qe_eq]
  intro i
  fin_cases i
  · exact ((P (c 0) (c 1) (c 2)).sub (P (s 0) (s 1) (s 2))).congr_deriv (by simp [dQs, dQ, Q3, Fin.sum_univ_three]; ring)
  · exact ((P (s 0) (c 1) (c 2)).add (P (c 0) (s 1) (s 2))).congr_deriv (by simp [dQs, dQ, Q3, Fin.sum_univ_three]; ring)
  · exact ((P (c 0) (s 1) (c 2)).sub (P (s 0) (c 1) (s 2))).congr_deriv (by simp [dQs, dQ, Q3, Fin.sum_univ_three]; ring)
  · exact ((P (c 0) (c 1) (s 2)).add (P (s 0) (s 1) (c 2))).congr_deriv (by simp [dQs, dQ, Q3, Fin.sum_univ_three]; ring)

section leg

variable {θ : ℝ → V3} {θ' : V3} {t : ℝ} (h : VDeriv θ θ' t)

include h

theorem seg_derivs :
    let S := fun s (i : Fin 3) => Real.sin (θ s i)
    let C := fun s (i : Fin 3) => Real.cos (θ s i)
    HasDerivAt (fun s => segA (S s 1) (C s 1) (S s 2) (C s 2))
      (segC (S t 1) (C t 1) (S t 2) (C t 2) * θ' 1 + segD (S t 1) (C t 1) (S t 2) (C t 2) * θ' 2) t ∧
    HasDerivAt (fun s => segB (S s 1) (C s 1) (S s 2) (C s 2))
      (segD (S t 1) (C t 1) (S t 2) (C t 2) * θ' 1 + segD (S t 1) (C t 1) (S t 2) (C t 2) * θ' 2) t ∧
    HasDerivAt (fun s => segC (S s 1) (C s 1) (S s 2) (C s 2))
      (-segA (S t 1) (C t 1) (S t 2) (C t 2) * θ' 1 - segB (S t 1) (C t 1) (S t 2) (C t 2) * θ' 2) t ∧
    HasDerivAt (fun s => segD (S s 1) (C s 1) (S s 2) (C s 2))
      (-segB (S t 1) (C t 1) (S t 2) (C t 2) * θ' 1 - segB (S t 1) (C t 1) (S t 2) (C t 2) * θ' 2) t ∧
    HasDerivAt (fun s => segH (S s 1) (C s 1) (S s 2) (C s 2))
      (segA (S t 1) (C t 1) (S t 2) (C t 2) * θ' 1 + segB (S t 1) (C t 1) (S t 2) (C t 2) * θ' 2) t := by
  intro S C
  have s1 := (h 1).sin
  have c1 := (h 1).cos
  have s2 := (h 2).sin
  have c2 := (h 2).cos
  have hB := ((c1.mul s2).add (s1.mul c2)).const_mul (33 / 100)
  have hD := ((c1.mul c2).sub (s1.mul s2)).const_mul (33 / 100)
  refine ⟨(hB.add (s1.const_mul (35 / 100))).congr_deriv ?_, hB.congr_deriv ?_, (hD.add (c1.const_mul (35 / 100))).congr_deriv ?_,
    hD.congr_deriv ?_, ?_⟩
  · simp only [segC, segD, S, C]; ring
  · simp only [segD, S, C]; ring
  · simp only [segA, segB, S, C]; ring
  · simp only [segB, S, C]; ring
  · refine (((((s1.const_mul (33 / 100)).mul s2).sub ((c1.const_mul (33 / 100)).mul c2)).sub (c1.const_mul (35 / 100))).sub_const
      (8 / 100)).congr_deriv ?_
    simp only [segA, segB, S, C]; ring

theorem pv_deriv (σ a b : ℝ) : VDeriv (fun s => pv σ a b (θ s)) (jm σ (θ t) *ᵥ θ') t := by
  obtain ⟨hA, -, -, -, hH⟩ := seg_derivs h
  have s0 := (h 0).sin
  have c0 := (h 0).cos
  intro i
  fin_cases i
  · refine (hA.neg.add_const a).congr_deriv ?_
    simp [jm, mulVec, dotProduct, Fin.sum_univ_three]; ring
  · refine (((s0.const_mul σ).mul hH).add_const b).congr_deriv ?_
    simp [jm, mulVec, dotProduct, Fin.sum_univ_three]; ring
  · refine (c0.mul hH).congr_deriv ?_
    simp [jm, mulVec, dotProduct, Fin.sum_univ_three]; ring

theorem jm_deriv (σ : ℝ) : MDeriv (fun s => jm σ (θ s)) (fun i j => ∑ k : Fin 3, θ' k * djm σ k (θ t) i j) t := by
  obtain ⟨hA, hB, hC, hD, hH⟩ := seg_derivs h
  have s0 := (h 0).sin
  have c0 := (h 0).cos
  intro i j
  fin_cases i <;> fin_cases j
  · exact (hasDerivAt_const t (0 : ℝ)).congr_deriv (by simp [djm, Fin.sum_univ_three])
  · exact hC.neg.congr_deriv (by simp [djm, Fin.sum_univ_three]; ring)
  · exact hD.neg.congr_deriv (by simp [djm, Fin.sum_univ_three]; ring)
  · exact ((c0.const_mul σ).mul hH).congr_deriv (by simp [djm, Fin.sum_univ_three]; ring)
  · exact ((s0.const_mul σ).mul hA).congr_deriv (by simp [djm, Fin.sum_univ_three]; ring)
  · exact ((s0.const_mul σ).mul hB).congr_deriv (by simp [djm, Fin.sum_univ_three]; ring)
  · exact (s0.neg.mul hH).congr_deriv (by simp [djm, Fin.sum_univ_three]; ring)
  · exact (c0.mul hA).congr_deriv (by simp [djm, Fin.sum_univ_three]; ring)
  · exact (c0.mul hB).congr_deriv (by simp [djm, Fin.sum_univ_three]; ring)

end leg

theorem fp_deriv (l : Fin 4) {x : ℝ → Fin 36 → ℝ} {x' : Fin 36 → ℝ} {t : ℝ} (h : VDeriv x x' t) :
    VDeriv (fun s => fp l (x s)) (Dpos l (x t) x') t := by
  have hth : VDeriv (fun s => th l (x s)) (th l x') t := fun i => h _
  have hb : VDeriv (fun s => bp (x s)) (bp x') t := fun i => h _
  exact hb.add (mulVec_deriv (quatMatrix_dRm (Qe_deriv h)) (pv_deriv hth _ _ _))

theorem fv_deriv (l : Fin 4) {x : ℝ → Fin 36 → ℝ} {x' : Fin 36 → ℝ} {t : ℝ} (h : VDeriv x x' t) :
    VDeriv (fun s => fv l (x s)) (Dvel l (x t) x') t := by
  have hth : VDeriv (fun s => th l (x s)) (th l x') t := fun i => h _
  have hq : VDeriv (fun s => qd l (x s)) (qd l x') t := fun i => h _
  have ho : VDeriv (fun s => om (x s)) (om x') t := fun i => h _
  have hl : VDeriv (fun s => lv (x s)) (lv x') t := fun i => h _
  exact mulVec_deriv (quatMatrix_dRm (Qe_deriv h))
    (((mulVec_deriv (jm_deriv hth _) hq).add hl).add (cross_deriv ho (pv_deriv hth _ _ _)))

/-! ### Entries -/

section entries

variable (M : M3) (v w : V3) (q d : Q4) (σ : ℝ) (θ : V3) (x : Fin 36 → ℝ)

theorem mv_0 : (M *ᵥ v) 0 = M 0 0 * v 0 + M 0 1 * v 1 + M 0 2 * v 2 := by
  simp [mulVec, dotProduct, Fin.sum_univ_three]
theorem mv_1 : (M *ᵥ v) 1 = M 1 0 * v 0 + M 1 1 * v 1 + M 1 2 * v 2 := by
  simp [mulVec, dotProduct, Fin.sum_univ_three]
theorem mv_2 : (M *ᵥ v) 2 = M 2 0 * v 0 + M 2 1 * v 1 + M 2 2 * v 2 := by
  simp [mulVec, dotProduct, Fin.sum_univ_three]
theorem cr_0 : cross v w 0 = v 1 * w 2 - v 2 * w 1 := by simp [cross]
theorem cr_1 : cross v w 1 = v 2 * w 0 - v 0 * w 2 := by simp [cross]
theorem cr_2 : cross v w 2 = v 0 * w 1 - v 1 * w 0 := by simp [cross]
theorem dRm_00 : dRm q d 0 0 = -2 * (q 2 * d 2 + d 2 * q 2 + (q 3 * d 3 + d 3 * q 3)) := rfl
theorem dRm_01 : dRm q d 0 1 = 2 * (q 1 * d 2 + d 1 * q 2 - (q 0 * d 3 + d 0 * q 3)) := rfl
theorem dRm_02 : dRm q d 0 2 = 2 * (q 1 * d 3 + d 1 * q 3 + (q 0 * d 2 + d 0 * q 2)) := rfl
theorem dRm_10 : dRm q d 1 0 = 2 * (q 1 * d 2 + d 1 * q 2 + (q 0 * d 3 + d 0 * q 3)) := rfl
theorem dRm_11 : dRm q d 1 1 = -2 * (q 1 * d 1 + d 1 * q 1 + (q 3 * d 3 + d 3 * q 3)) := rfl
theorem dRm_12 : dRm q d 1 2 = 2 * (q 2 * d 3 + d 2 * q 3 - (q 0 * d 1 + d 0 * q 1)) := rfl
theorem dRm_20 : dRm q d 2 0 = 2 * (q 1 * d 3 + d 1 * q 3 - (q 0 * d 2 + d 0 * q 2)) := rfl
theorem dRm_21 : dRm q d 2 1 = 2 * (q 2 * d 3 + d 2 * q 3 + (q 0 * d 1 + d 0 * q 1)) := rfl
theorem dRm_22 : dRm q d 2 2 = -2 * (q 1 * d 1 + d 1 * q 1 + (q 2 * d 2 + d 2 * q 2)) := rfl
theorem qm_00 : quatMatrix q 0 0 = 1 - 2 * (q 2 * q 2 + q 3 * q 3) := by simp [quatMatrix] <;> ring
theorem qm_01 : quatMatrix q 0 1 = 2 * (q 1 * q 2 - q 0 * q 3) := by simp [quatMatrix] <;> ring
theorem qm_02 : quatMatrix q 0 2 = 2 * (q 1 * q 3 + q 0 * q 2) := by simp [quatMatrix] <;> ring
theorem qm_10 : quatMatrix q 1 0 = 2 * (q 1 * q 2 + q 0 * q 3) := by simp [quatMatrix] <;> ring
theorem qm_11 : quatMatrix q 1 1 = 1 - 2 * (q 1 * q 1 + q 3 * q 3) := by simp [quatMatrix] <;> ring
theorem qm_12 : quatMatrix q 1 2 = 2 * (q 2 * q 3 - q 0 * q 1) := by simp [quatMatrix] <;> ring
theorem qm_20 : quatMatrix q 2 0 = 2 * (q 1 * q 3 - q 0 * q 2) := by simp [quatMatrix] <;> ring
theorem qm_21 : quatMatrix q 2 1 = 2 * (q 2 * q 3 + q 0 * q 1) := by simp [quatMatrix] <;> ring
theorem qm_22 : quatMatrix q 2 2 = 1 - 2 * (q 1 * q 1 + q 2 * q 2) := by simp [quatMatrix] <;> ring
theorem Qe_0 : Qe x 0 = Real.cos (1 / 2 * x 0) * Real.cos (1 / 2 * x 1) * Real.cos (1 / 2 * x 2) - Real.sin (1 / 2 * x 0) * Real.sin (1 / 2 * x 1) * Real.sin (1 / 2 * x 2) := by rw [Qe_eq]; rfl
theorem Qe_1 : Qe x 1 = Real.sin (1 / 2 * x 0) * Real.cos (1 / 2 * x 1) * Real.cos (1 / 2 * x 2) + Real.cos (1 / 2 * x 0) * Real.sin (1 / 2 * x 1) * Real.sin (1 / 2 * x 2) := by rw [Qe_eq]; rfl
theorem Qe_2 : Qe x 2 = Real.cos (1 / 2 * x 0) * Real.sin (1 / 2 * x 1) * Real.cos (1 / 2 * x 2) - Real.sin (1 / 2 * x 0) * Real.cos (1 / 2 * x 1) * Real.sin (1 / 2 * x 2) := by rw [Qe_eq]; rfl
theorem Qe_3 : Qe x 3 = Real.cos (1 / 2 * x 0) * Real.cos (1 / 2 * x 1) * Real.sin (1 / 2 * x 2) + Real.sin (1 / 2 * x 0) * Real.sin (1 / 2 * x 1) * Real.cos (1 / 2 * x 2) := by rw [Qe_eq]; rfl
theorem dQ_0_0 : dQ 0 x 0 = (-(1 / 2) * Real.sin (1 / 2 * x 0)) * Real.cos (1 / 2 * x 1) * Real.cos (1 / 2 * x 2) - (1 / 2 * Real.cos (1 / 2 * x 0)) * Real.sin (1 / 2 * x 1) * Real.sin (1 / 2 * x 2) := rfl
theorem dQ_0_1 : dQ 0 x 1 = (1 / 2 * Real.cos (1 / 2 * x 0)) * Real.cos (1 / 2 * x 1) * Real.cos (1 / 2 * x 2) + (-(1 / 2) * Real.sin (1 / 2 * x 0)) * Real.sin (1 / 2 * x 1) * Real.sin (1 / 2 * x 2) := rfl
theorem dQ_0_2 : dQ 0 x 2 = (-(1 / 2) * Real.sin (1 / 2 * x 0)) * Real.sin (1 / 2 * x 1) * Real.cos (1 / 2 * x 2) - (1 / 2 * Real.cos (1 / 2 * x 0)) * Real.cos (1 / 2 * x 1) * Real.sin (1 / 2 * x 2) := rfl
theorem dQ_0_3 : dQ 0 x 3 = (-(1 / 2) * Real.sin (1 / 2 * x 0)) * Real.cos (1 / 2 * x 1) * Real.sin (1 / 2 * x 2) + (1 / 2 * Real.cos (1 / 2 * x 0)) * Real.sin (1 / 2 * x 1) * Real.cos (1 / 2 * x 2) := rfl
theorem dQ_1_0 : dQ 1 x 0 = Real.cos (1 / 2 * x 0) * (-(1 / 2) * Real.sin (1 / 2 * x 1)) * Real.cos (1 / 2 * x 2) - Real.sin (1 / 2 * x 0) * (1 / 2 * Real.cos (1 / 2 * x 1)) * Real.sin (1 / 2 * x 2) := rfl
theorem dQ_1_1 : dQ 1 x 1 = Real.sin (1 / 2 * x 0) * (-(1 / 2) * Real.sin (1 / 2 * x 1)) * Real.cos (1 / 2 * x 2) + Real.cos (1 / 2 * x 0) * (1 / 2 * Real.cos (1 / 2 * x 1)) * Real.sin (1 / 2 * x 2) := rfl
theorem dQ_1_2 : dQ 1 x 2 = Real.cos (1 / 2 * x 0) * (1 / 2 * Real.cos (1 / 2 * x 1)) * Real.cos (1 / 2 * x 2) - Real.sin (1 / 2 * x 0) * (-(1 / 2) * Real.sin (1 / 2 * x 1)) * Real.sin (1 / 2 * x 2) := rfl
theorem dQ_1_3 : dQ 1 x 3 = Real.cos (1 / 2 * x 0) * (-(1 / 2) * Real.sin (1 / 2 * x 1)) * Real.sin (1 / 2 * x 2) + Real.sin (1 / 2 * x 0) * (1 / 2 * Real.cos (1 / 2 * x 1)) * Real.cos (1 / 2 * x 2) := rfl
theorem dQ_2_0 : dQ 2 x 0 = Real.cos (1 / 2 * x 0) * Real.cos (1 / 2 * x 1) * (-(1 / 2) * Real.sin (1 / 2 * x 2)) - Real.sin (1 / 2 * x 0) * Real.sin (1 / 2 * x 1) * (1 / 2 * Real.cos (1 / 2 * x 2)) := rfl
theorem dQ_2_1 : dQ 2 x 1 = Real.sin (1 / 2 * x 0) * Real.cos (1 / 2 * x 1) * (-(1 / 2) * Real.sin (1 / 2 * x 2)) + Real.cos (1 / 2 * x 0) * Real.sin (1 / 2 * x 1) * (1 / 2 * Real.cos (1 / 2 * x 2)) := rfl
theorem dQ_2_2 : dQ 2 x 2 = Real.cos (1 / 2 * x 0) * Real.sin (1 / 2 * x 1) * (-(1 / 2) * Real.sin (1 / 2 * x 2)) - Real.sin (1 / 2 * x 0) * Real.cos (1 / 2 * x 1) * (1 / 2 * Real.cos (1 / 2 * x 2)) := rfl
theorem dQ_2_3 : dQ 2 x 3 = Real.cos (1 / 2 * x 0) * Real.cos (1 / 2 * x 1) * (1 / 2 * Real.cos (1 / 2 * x 2)) + Real.sin (1 / 2 * x 0) * Real.sin (1 / 2 * x 1) * (-(1 / 2) * Real.sin (1 / 2 * x 2)) := rfl
theorem pv_0 (a b : ℝ) : pv σ a b θ 0 = -segA (Real.sin (θ 1)) (Real.cos (θ 1)) (Real.sin (θ 2)) (Real.cos (θ 2)) + a := rfl
theorem pv_1 (a b : ℝ) : pv σ a b θ 1 = σ * Real.sin (θ 0) * segH (Real.sin (θ 1)) (Real.cos (θ 1)) (Real.sin (θ 2)) (Real.cos (θ 2)) + b := rfl
theorem pv_2 (a b : ℝ) : pv σ a b θ 2 = Real.cos (θ 0) * segH (Real.sin (θ 1)) (Real.cos (θ 1)) (Real.sin (θ 2)) (Real.cos (θ 2)) := rfl
theorem jm_00 : jm σ θ 0 0 = 0 := rfl
theorem jm_01 : jm σ θ 0 1 = -segC (Real.sin (θ 1)) (Real.cos (θ 1)) (Real.sin (θ 2)) (Real.cos (θ 2)) := rfl
theorem jm_02 : jm σ θ 0 2 = -segD (Real.sin (θ 1)) (Real.cos (θ 1)) (Real.sin (θ 2)) (Real.cos (θ 2)) := rfl
theorem jm_10 : jm σ θ 1 0 = σ * Real.cos (θ 0) * segH (Real.sin (θ 1)) (Real.cos (θ 1)) (Real.sin (θ 2)) (Real.cos (θ 2)) := rfl
theorem jm_11 : jm σ θ 1 1 = σ * Real.sin (θ 0) * segA (Real.sin (θ 1)) (Real.cos (θ 1)) (Real.sin (θ 2)) (Real.cos (θ 2)) := rfl
theorem jm_12 : jm σ θ 1 2 = σ * Real.sin (θ 0) * segB (Real.sin (θ 1)) (Real.cos (θ 1)) (Real.sin (θ 2)) (Real.cos (θ 2)) := rfl
theorem jm_20 : jm σ θ 2 0 = -Real.sin (θ 0) * segH (Real.sin (θ 1)) (Real.cos (θ 1)) (Real.sin (θ 2)) (Real.cos (θ 2)) := rfl
theorem jm_21 : jm σ θ 2 1 = Real.cos (θ 0) * segA (Real.sin (θ 1)) (Real.cos (θ 1)) (Real.sin (θ 2)) (Real.cos (θ 2)) := rfl
theorem jm_22 : jm σ θ 2 2 = Real.cos (θ 0) * segB (Real.sin (θ 1)) (Real.cos (θ 1)) (Real.sin (θ 2)) (Real.cos (θ 2)) := rfl
theorem djm_0_00 : djm σ 0 θ 0 0 = 0 := rfl
theorem djm_0_01 : djm σ 0 θ 0 1 = 0 := rfl
theorem djm_0_02 : djm σ 0 θ 0 2 = 0 := rfl
theorem djm_0_10 : djm σ 0 θ 1 0 = -(σ * Real.sin (θ 0) * segH (Real.sin (θ 1)) (Real.cos (θ 1)) (Real.sin (θ 2)) (Real.cos (θ 2))) := rfl
theorem djm_0_11 : djm σ 0 θ 1 1 = σ * Real.cos (θ 0) * segA (Real.sin (θ 1)) (Real.cos (θ 1)) (Real.sin (θ 2)) (Real.cos (θ 2)) := rfl
theorem djm_0_12 : djm σ 0 θ 1 2 = σ * Real.cos (θ 0) * segB (Real.sin (θ 1)) (Real.cos (θ 1)) (Real.sin (θ 2)) (Real.cos (θ 2)) := rfl
theorem djm_0_20 : djm σ 0 θ 2 0 = -(Real.cos (θ 0) * segH (Real.sin (θ 1)) (Real.cos (θ 1)) (Real.sin (θ 2)) (Real.cos (θ 2))) := rfl
theorem djm_0_21 : djm σ 0 θ 2 1 = -(Real.sin (θ 0) * segA (Real.sin (θ 1)) (Real.cos (θ 1)) (Real.sin (θ 2)) (Real.cos (θ 2))) := rfl
theorem djm_0_22 : djm σ 0 θ 2 2 = -(Real.sin (θ 0) * segB (Real.sin (θ 1)) (Real.cos (θ 1)) (Real.sin (θ 2)) (Real.cos (θ 2))) := rfl
theorem djm_1_00 : djm σ 1 θ 0 0 = 0 := rfl
theorem djm_1_01 : djm σ 1 θ 0 1 = segA (Real.sin (θ 1)) (Real.cos (θ 1)) (Real.sin (θ 2)) (Real.cos (θ 2)) := rfl
theorem djm_1_02 : djm σ 1 θ 0 2 = segB (Real.sin (θ 1)) (Real.cos (θ 1)) (Real.sin (θ 2)) (Real.cos (θ 2)) := rfl
theorem djm_1_10 : djm σ 1 θ 1 0 = σ * Real.cos (θ 0) * segA (Real.sin (θ 1)) (Real.cos (θ 1)) (Real.sin (θ 2)) (Real.cos (θ 2)) := rfl
theorem djm_1_11 : djm σ 1 θ 1 1 = σ * Real.sin (θ 0) * segC (Real.sin (θ 1)) (Real.cos (θ 1)) (Real.sin (θ 2)) (Real.cos (θ 2)) := rfl
theorem djm_1_12 : djm σ 1 θ 1 2 = σ * Real.sin (θ 0) * segD (Real.sin (θ 1)) (Real.cos (θ 1)) (Real.sin (θ 2)) (Real.cos (θ 2)) := rfl
theorem djm_1_20 : djm σ 1 θ 2 0 = -(Real.sin (θ 0) * segA (Real.sin (θ 1)) (Real.cos (θ 1)) (Real.sin (θ 2)) (Real.cos (θ 2))) := rfl
theorem djm_1_21 : djm σ 1 θ 2 1 = Real.cos (θ 0) * segC (Real.sin (θ 1)) (Real.cos (θ 1)) (Real.sin (θ 2)) (Real.cos (θ 2)) := rfl
theorem djm_1_22 : djm σ 1 θ 2 2 = Real.cos (θ 0) * segD (Real.sin (θ 1)) (Real.cos (θ 1)) (Real.sin (θ 2)) (Real.cos (θ 2)) := rfl
theorem djm_2_00 : djm σ 2 θ 0 0 = 0 := rfl
theorem djm_2_01 : djm σ 2 θ 0 1 = segB (Real.sin (θ 1)) (Real.cos (θ 1)) (Real.sin (θ 2)) (Real.cos (θ 2)) := rfl
theorem djm_2_02 : djm σ 2 θ 0 2 = segB (Real.sin (θ 1)) (Real.cos (θ 1)) (Real.sin (θ 2)) (Real.cos (θ 2)) := rfl
theorem djm_2_10 : djm σ 2 θ 1 0 = σ * Real.cos (θ 0) * segB (Real.sin (θ 1)) (Real.cos (θ 1)) (Real.sin (θ 2)) (Real.cos (θ 2)) := rfl
theorem djm_2_11 : djm σ 2 θ 1 1 = σ * Real.sin (θ 0) * segD (Real.sin (θ 1)) (Real.cos (θ 1)) (Real.sin (θ 2)) (Real.cos (θ 2)) := rfl
theorem djm_2_12 : djm σ 2 θ 1 2 = σ * Real.sin (θ 0) * segD (Real.sin (θ 1)) (Real.cos (θ 1)) (Real.sin (θ 2)) (Real.cos (θ 2)) := rfl
theorem djm_2_20 : djm σ 2 θ 2 0 = -(Real.sin (θ 0) * segB (Real.sin (θ 1)) (Real.cos (θ 1)) (Real.sin (θ 2)) (Real.cos (θ 2))) := rfl
theorem djm_2_21 : djm σ 2 θ 2 1 = Real.cos (θ 0) * segD (Real.sin (θ 1)) (Real.cos (θ 1)) (Real.sin (θ 2)) (Real.cos (θ 2)) := rfl
theorem djm_2_22 : djm σ 2 θ 2 2 = Real.cos (θ 0) * segD (Real.sin (θ 1)) (Real.cos (θ 1)) (Real.sin (θ 2)) (Real.cos (θ 2)) := rfl
theorem th_0_0 : th 0 x 0 = x 6 := rfl
theorem qd_0_0 : qd 0 x 0 = x 24 := rfl
theorem th_0_1 : th 0 x 1 = x 7 := rfl
theorem qd_0_1 : qd 0 x 1 = x 25 := rfl
theorem th_0_2 : th 0 x 2 = x 8 := rfl
theorem qd_0_2 : qd 0 x 2 = x 26 := rfl
theorem th_1_0 : th 1 x 0 = x 9 := rfl
theorem qd_1_0 : qd 1 x 0 = x 27 := rfl
theorem th_1_1 : th 1 x 1 = x 10 := rfl
theorem qd_1_1 : qd 1 x 1 = x 28 := rfl
theorem th_1_2 : th 1 x 2 = x 11 := rfl
theorem qd_1_2 : qd 1 x 2 = x 29 := rfl
theorem th_2_0 : th 2 x 0 = x 12 := rfl
theorem qd_2_0 : qd 2 x 0 = x 30 := rfl
theorem th_2_1 : th 2 x 1 = x 13 := rfl
theorem qd_2_1 : qd 2 x 1 = x 31 := rfl
theorem th_2_2 : th 2 x 2 = x 14 := rfl
theorem qd_2_2 : qd 2 x 2 = x 32 := rfl
theorem th_3_0 : th 3 x 0 = x 15 := rfl
theorem qd_3_0 : qd 3 x 0 = x 33 := rfl
theorem th_3_1 : th 3 x 1 = x 16 := rfl
theorem qd_3_1 : qd 3 x 1 = x 34 := rfl
theorem th_3_2 : th 3 x 2 = x 17 := rfl
theorem qd_3_2 : qd 3 x 2 = x 35 := rfl
theorem om_0 : om x 0 = x 18 := rfl
theorem lv_0 : lv x 0 = x 21 := rfl
theorem om_1 : om x 1 = x 19 := rfl
theorem lv_1 : lv x 1 = x 22 := rfl
theorem om_2 : om x 2 = x 20 := rfl
theorem lv_2 : lv x 2 = x 23 := rfl
theorem side_0 : side 0 = 1 := rfl
theorem mountX_0 : mountX 0 = 3735 / 10000 := rfl
theorem mountY_0 : mountY 0 = 207 / 1000 := rfl
theorem side_1 : side 1 = -1 := rfl
theorem mountX_1 : mountX 1 = 3735 / 10000 := rfl
theorem mountY_1 : mountY 1 = -(207 / 1000) := rfl
theorem side_2 : side 2 = 1 := rfl
theorem mountX_2 : mountX 2 = -(3735 / 10000) := rfl
theorem mountY_2 : mountY 2 = 207 / 1000 := rfl
theorem side_3 : side 3 = -1 := rfl
theorem mountX_3 : mountX 3 = -(3735 / 10000) := rfl
theorem mountY_3 : mountY 3 = -(207 / 1000) := rfl
theorem E_0_0 : (Pi.single 0 1 : V3) 0 = 1 := by simp
theorem E_0_1 : (Pi.single 0 1 : V3) 1 = 0 := by simp
theorem E_0_2 : (Pi.single 0 1 : V3) 2 = 0 := by simp
theorem E_1_0 : (Pi.single 1 1 : V3) 0 = 0 := by simp
theorem E_1_1 : (Pi.single 1 1 : V3) 1 = 1 := by simp
theorem E_1_2 : (Pi.single 1 1 : V3) 2 = 0 := by simp
theorem E_2_0 : (Pi.single 2 1 : V3) 0 = 0 := by simp
theorem E_2_1 : (Pi.single 2 1 : V3) 1 = 0 := by simp
theorem E_2_2 : (Pi.single 2 1 : V3) 2 = 1 := by simp

end entries

/-- A column of the Jacobian of a leg. -/
def jcol (l : Fin 4) (k : Fin 3) (x : Fin 36 → ℝ) : V3 := fun i => jac l x i k

theorem jac_single (l : Fin 4) (k : Fin 3) (x : Fin 36 → ℝ) : jac l x *ᵥ Pi.single k 1 = jcol l k x := by
  funext i
  simp [jcol]

/-! ### Columns -/

section columns

variable (l m : Fin 4) (k : Fin 3) (x : Fin 36 → ℝ) (c : Fin 36)

theorem unit_apply (i : Fin 36) : (Pi.single c (1 : ℝ) : Fin 36 → ℝ) i = if (i : ℕ) = c then 1 else 0 := by
  rw [Pi.single_apply]
  exact if_congr Fin.ext_iff rfl rfl

theorem unit3_apply (i : Fin 3) : (Pi.single k (1 : ℝ) : V3) i = if (i : ℕ) = k then 1 else 0 := by
  rw [Pi.single_apply]
  exact if_congr Fin.ext_iff rfl rfl

theorem bp_zero (h : (c : ℕ) < 3 ∨ 6 ≤ (c : ℕ)) : bp (Pi.single c 1) = 0 := by
  funext i
  exact (unit_apply _ _).trans (if_neg (by simp only; omega))

theorem th_zero (h : (c : ℕ) < 6 + 3 * l ∨ 9 + 3 * l ≤ (c : ℕ)) : th l (Pi.single c 1) = 0 := by
  funext i
  exact (unit_apply _ _).trans (if_neg (by simp only; omega))

theorem om_zero (h : (c : ℕ) < 18 ∨ 21 ≤ (c : ℕ)) : om (Pi.single c 1) = 0 := by
  funext i
  exact (unit_apply _ _).trans (if_neg (by simp only; omega))

theorem lv_zero (h : (c : ℕ) < 21 ∨ 24 ≤ (c : ℕ)) : lv (Pi.single c 1) = 0 := by
  funext i
  exact (unit_apply _ _).trans (if_neg (by simp only; omega))

theorem qd_zero (h : (c : ℕ) < 24 + 3 * l ∨ 27 + 3 * l ≤ (c : ℕ)) : qd l (Pi.single c 1) = 0 := by
  funext i
  exact (unit_apply _ _).trans (if_neg (by simp only; omega))

theorem dQs_zero (h : 3 ≤ (c : ℕ)) : dQs x (Pi.single c 1) = 0 := by
  funext i
  refine Finset.sum_eq_zero fun k _ => ?_
  rw [unit_apply, if_neg (by simp only; omega), zero_mul]

theorem dJs_zero (h : (c : ℕ) < 6 + 3 * l ∨ 9 + 3 * l ≤ (c : ℕ)) : dJs l x (Pi.single c 1) = 0 := by
  funext i j
  simp [dJs, th_zero l c h]

theorem dRm_zero (q : Q4) : dRm q 0 = 0 := by
  funext i j
  fin_cases i <;> fin_cases j <;> simp [dRm]

theorem cross_zero_left (v : V3) : cross 0 v = 0 := by
  funext i
  fin_cases i <;> simp [cross]

theorem cross_zero_right (v : V3) : cross v 0 = 0 := by
  funext i
  fin_cases i <;> simp [cross]

theorem bp_hit (h : (c : ℕ) = 3 + k) : bp (Pi.single c 1) = Pi.single k 1 := by
  funext i
  exact (unit_apply _ _).trans (((if_congr (by simp only; omega) rfl rfl)).trans (unit3_apply k i).symm)

theorem th_hit (h : (c : ℕ) = 6 + 3 * l + k) : th l (Pi.single c 1) = Pi.single k 1 := by
  funext i
  exact (unit_apply _ _).trans (((if_congr (by simp only; omega) rfl rfl)).trans (unit3_apply k i).symm)

theorem om_hit (h : (c : ℕ) = 18 + k) : om (Pi.single c 1) = Pi.single k 1 := by
  funext i
  exact (unit_apply _ _).trans (((if_congr (by simp only; omega) rfl rfl)).trans (unit3_apply k i).symm)

theorem lv_hit (h : (c : ℕ) = 21 + k) : lv (Pi.single c 1) = Pi.single k 1 := by
  funext i
  exact (unit_apply _ _).trans (((if_congr (by simp only; omega) rfl rfl)).trans (unit3_apply k i).symm)

theorem qd_hit (h : (c : ℕ) = 24 + 3 * l + k) : qd l (Pi.single c 1) = Pi.single k 1 := by
  funext i
  exact (unit_apply _ _).trans (((if_congr (by simp only; omega) rfl rfl)).trans (unit3_apply k i).symm)

theorem dQs_hit (h : (c : ℕ) = k) : dQs x (Pi.single c 1) = dQ k x := by
  funext i
  refine (Finset.sum_eq_single k (fun j _ hj => ?_) (by simp)).trans ?_
  · rw [unit_apply, if_neg (fun e => hj (Fin.ext (by simpa [h] using e))), zero_mul]
  · rw [unit_apply, if_pos h.symm, one_mul]

theorem dJs_hit (h : (c : ℕ) = 6 + 3 * l + k) : dJs l x (Pi.single c 1) = djm (side l) k (th l x) := by
  funext i j
  unfold dJs
  rw [th_hit l k c h]
  refine (Finset.sum_eq_single k (fun a _ ha => ?_) (by simp)).trans ?_
  · simp [ha]
  · simp

theorem col_angle (h : (c : ℕ) = k) : Dpos l x (Pi.single c 1) = dRm (Qe x) (dQ k x) *ᵥ foot l x ∧
    Dvel l x (Pi.single c 1) = dRm (Qe x) (dQ k x) *ᵥ vb l x := by
  rw [Dpos, Dvel, dQs_hit k x c h, bp_zero c (by omega), th_zero l c (by omega), om_zero c (by omega), lv_zero c (by omega),
    qd_zero l c (by omega), dJs_zero l x c (by omega)]
  simp [cross_zero_left, cross_zero_right]

theorem col_base (h : (c : ℕ) = 3 + k) : Dpos l x (Pi.single c 1) = Pi.single k 1 ∧ Dvel l x (Pi.single c 1) = 0 := by
  rw [Dpos, Dvel, dQs_zero x c (by omega), bp_hit k c h, th_zero l c (by omega), om_zero c (by omega), lv_zero c (by omega),
    qd_zero l c (by omega), dJs_zero l x c (by omega), dRm_zero]
  simp [cross_zero_left, cross_zero_right]

theorem col_joint (h : (c : ℕ) = 6 + 3 * l + k) : Dpos l x (Pi.single c 1) = quatMatrix (Qe x) *ᵥ jcol l k x ∧
    Dvel l x (Pi.single c 1) = quatMatrix (Qe x) *ᵥ (djm (side l) k (th l x) *ᵥ qd l x + cross (om x) (jcol l k x)) := by
  rw [Dpos, Dvel, dQs_zero x c (by omega), bp_zero c (by omega), th_hit l k c h, om_zero c (by omega), lv_zero c (by omega),
    qd_zero l c (by omega), dJs_hit l k x c h, dRm_zero, jac_single]
  simp [cross_zero_left]

theorem col_om (h : (c : ℕ) = 18 + k) : Dpos l x (Pi.single c 1) = 0 ∧
    Dvel l x (Pi.single c 1) = quatMatrix (Qe x) *ᵥ cross (Pi.single k 1) (foot l x) := by
  rw [Dpos, Dvel, dQs_zero x c (by omega), bp_zero c (by omega), th_zero l c (by omega), om_hit k c h, lv_zero c (by omega),
    qd_zero l c (by omega), dJs_zero l x c (by omega), dRm_zero]
  simp [cross_zero_right]

theorem col_lv (h : (c : ℕ) = 21 + k) : Dpos l x (Pi.single c 1) = 0 ∧
    Dvel l x (Pi.single c 1) = quatMatrix (Qe x) *ᵥ Pi.single k 1 := by
  rw [Dpos, Dvel, dQs_zero x c (by omega), bp_zero c (by omega), th_zero l c (by omega), om_zero c (by omega), lv_hit k c h,
    qd_zero l c (by omega), dJs_zero l x c (by omega), dRm_zero]
  simp [cross_zero_left, cross_zero_right]

theorem col_qd (h : (c : ℕ) = 24 + 3 * l + k) : Dpos l x (Pi.single c 1) = 0 ∧
    Dvel l x (Pi.single c 1) = quatMatrix (Qe x) *ᵥ jcol l k x := by
  rw [Dpos, Dvel, dQs_zero x c (by omega), bp_zero c (by omega), th_zero l c (by omega), om_zero c (by omega), lv_zero c (by omega),
    qd_hit l k c h, dJs_zero l x c (by omega), dRm_zero, jac_single]
  simp [cross_zero_left, cross_zero_right]

theorem col_other (h : m ≠ l) (h' : (c : ℕ) = 6 + 3 * m + k ∨ (c : ℕ) = 24 + 3 * m + k) :
    Dpos l x (Pi.single c 1) = 0 ∧ Dvel l x (Pi.single c 1) = 0 := by
  have hm : (m : ℕ) ≠ l := fun e => h (Fin.ext e)
  rw [Dpos, Dvel, dQs_zero x c (by omega), bp_zero c (by omega), th_zero l c (by omega), om_zero c (by omega), lv_zero c (by omega),
    qd_zero l c (by omega), dJs_zero l x c (by omega), dRm_zero]
  simp [cross_zero_left, cross_zero_right]

end columns

theorem ext3 {a b : V3} (h0 : a 0 = b 0) (h1 : a 1 = b 1) (h2 : a 2 = b 2) : a = b := by
  funext i
  fin_cases i
  exacts [h0, h1, h2]

end

end CT.Robots.HyQ
