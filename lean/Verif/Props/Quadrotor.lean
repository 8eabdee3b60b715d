import Verif.Model.Quadrotor
import Mathlib.Analysis.SpecialFunctions.Trigonometric.Deriv
import Mathlib.Analysis.Calculus.FDeriv.Pi
import Mathlib.Analysis.Calculus.FDeriv.Mul
import Mathlib.Analysis.Calculus.Deriv.Prod
import Mathlib.LinearAlgebra.CrossProduct
import Mathlib.Analysis.Calculus.FDeriv.Prod
import Mathlib.Topology.Algebra.Module.FiniteDimension

/-!
# The quadrotor model (C157, C158)
-/

namespace CT.Quadrotor

open Matrix Filter Topology

/-! ### C157: the linearisation -/

/-- `(v, w) ↦ A v + B w`. -/
noncomputable def jointMap (A : Matrix (Fin 12) (Fin 12) ℝ) (B : Matrix (Fin 12) (Fin 4) ℝ) :
    (Fin 12 → ℝ) × (Fin 4 → ℝ) →L[ℝ] (Fin 12 → ℝ) :=
  LinearMap.toContinuousLinearMap (A.mulVecLin.coprod B.mulVecLin)

theorem jointMap_apply (A : Matrix (Fin 12) (Fin 12) ℝ) (B : Matrix (Fin 12) (Fin 4) ℝ) (v : (Fin 12 → ℝ) × (Fin 4 → ℝ)) :
    jointMap A B v = A *ᵥ v.1 + B *ᵥ v.2 := rfl

theorem hx (z : (Fin 12 → ℝ) × (Fin 4 → ℝ)) (j : Fin 12) :
    HasFDerivAt (fun z : (Fin 12 → ℝ) × (Fin 4 → ℝ) => z.1 j)
      ((ContinuousLinearMap.proj j).comp (ContinuousLinearMap.fst ℝ (Fin 12 → ℝ) (Fin 4 → ℝ))) z :=
  ((ContinuousLinearMap.proj j).comp (ContinuousLinearMap.fst ℝ (Fin 12 → ℝ) (Fin 4 → ℝ))).hasFDerivAt

theorem hu (z : (Fin 12 → ℝ) × (Fin 4 → ℝ)) (j : Fin 4) :
    HasFDerivAt (fun z : (Fin 12 → ℝ) × (Fin 4 → ℝ) => z.2 j)
      ((ContinuousLinearMap.proj j).comp (ContinuousLinearMap.snd ℝ (Fin 12 → ℝ) (Fin 4 → ℝ))) z :=
  ((ContinuousLinearMap.proj j).comp (ContinuousLinearMap.snd ℝ (Fin 12 → ℝ) (Fin 4 → ℝ))).hasFDerivAt

theorem hinv {f : (Fin 12 → ℝ) × (Fin 4 → ℝ) → ℝ} {f' : (Fin 12 → ℝ) × (Fin 4 → ℝ) →L[ℝ] ℝ} {z : (Fin 12 → ℝ) × (Fin 4 → ℝ)}
    (h : HasFDerivAt f f' z) (h0 : f z ≠ 0) : HasFDerivAt (fun z => 1 / f z) ((-(f z ^ 2)⁻¹) • f') z := by
  have := (hasDerivAt_inv h0).comp_hasFDerivAt z h
  simp only [one_div]
  exact this

theorem mQ_ne : mQ ≠ 0 := by norm_num [mQ]
theorem Thxxyy_ne : Thxxyy ≠ 0 := by norm_num [Thxxyy]
theorem Thzz_ne : Thzz ≠ 0 := by norm_num [Thzz]

theorem sum12 (f : Fin 12 → ℝ) :
    ∑ i, f i = f 0 + f 1 + f 2 + f 3 + f 4 + f 5 + f 6 + f 7 + f 8 + f 9 + f 10 + f 11 := by
  simp only [Fin.sum_univ_castSucc, Finset.univ_eq_empty, Finset.sum_empty, zero_add]
  rfl

theorem A_row9 (x : Fin 12 → ℝ) (u : Fin 4 → ℝ) (v : Fin 12 → ℝ) : (A x u *ᵥ v) 9 =
    A x u 9 4 * v 4 + A x u 9 5 * v 5 + A x u 9 9 * v 9 + A x u 9 10 * v 10 + A x u 9 11 * v 11 := by
  have h : ∀ j : Fin 12, j ≠ 4 → j ≠ 5 → j ≠ 9 → j ≠ 10 → j ≠ 11 → A x u 9 j = 0 := by
    intro j h1 h2 h3 h4 h5
    simp [A, h1, h2, h3, h4, h5]
  rw [mulVec, dotProduct, sum12]
  rw [h 0, h 1, h 2, h 3, h 6, h 7, h 8] <;> first | decide | ring

theorem A_row10 (x : Fin 12 → ℝ) (u : Fin 4 → ℝ) (v : Fin 12 → ℝ) : (A x u *ᵥ v) 10 =
    A x u 10 4 * v 4 + A x u 10 5 * v 5 + A x u 10 9 * v 9 + A x u 10 11 * v 11 := by
  have h : ∀ j : Fin 12, j ≠ 4 → j ≠ 5 → j ≠ 9 → j ≠ 11 → A x u 10 j = 0 := by
    intro j h1 h2 h3 h5
    simp [A, h1, h2, h3, h5]
  rw [mulVec, dotProduct, sum12]
  rw [h 0, h 1, h 2, h 3, h 6, h 7, h 8, h 10] <;> first | decide | ring

theorem A_row11 (x : Fin 12 → ℝ) (u : Fin 4 → ℝ) (v : Fin 12 → ℝ) : (A x u *ᵥ v) 11 =
    A x u 11 4 * v 4 + A x u 11 5 * v 5 + A x u 11 9 * v 9 + A x u 11 10 * v 10 + A x u 11 11 * v 11 := by
  have h : ∀ j : Fin 12, j ≠ 4 → j ≠ 5 → j ≠ 9 → j ≠ 10 → j ≠ 11 → A x u 11 j = 0 := by
    intro j h1 h2 h3 h4 h5
    simp [A, h1, h2, h3, h4, h5]
  rw [mulVec, dotProduct, sum12]
  rw [h 0, h 1, h 2, h 3, h 6, h 7, h 8] <;> first | decide | ring

theorem B_row9 (x : Fin 12 → ℝ) (u v : Fin 4 → ℝ) : (B x u *ᵥ v) 9 = B x u 9 1 * v 1 + B x u 9 2 * v 2 := by
  simp [B, mulVec, dotProduct, Fin.sum_univ_four]

theorem B_row10 (x : Fin 12 → ℝ) (u v : Fin 4 → ℝ) : (B x u *ᵥ v) 10 = B x u 10 1 * v 1 + B x u 10 2 * v 2 := by
  simp [B, mulVec, dotProduct, Fin.sum_univ_four]

theorem B_row11 (x : Fin 12 → ℝ) (u v : Fin 4 → ℝ) :
    (B x u *ᵥ v) 11 = B x u 11 1 * v 1 + B x u 11 2 * v 2 + B x u 11 3 * v 3 := by
  simp [B, mulVec, dotProduct, Fin.sum_univ_four]

theorem deriv9 (x : Fin 12 → ℝ) (u : Fin 4 → ℝ) (hc : Real.cos (x 4) ≠ 0) :
    HasFDerivAt (fun z : (Fin 12 → ℝ) × (Fin 4 → ℝ) => odeFree z.1 z.2 9)
      ((ContinuousLinearMap.proj (R := ℝ) (φ := fun _ : Fin 12 => ℝ) 9).comp (jointMap (A x u) (B x u))) (x, u) := by
  have k3 := Thxxyy_ne
  have qth := hx (x, u) 4
  have qps := hx (x, u) 5
  have dph := hx (x, u) 9
  have dth := hx (x, u) 10
  have dps := hx (x, u) 11
  have Mx := hu (x, u) 1
  have My := hu (x, u) 2
  have t11 := hinv qth.cos hc
  refine ((t11.const_mul (-(1 / Thxxyy))).mul
      (((((Mx.neg.mul qps.cos).add (My.mul qps.sin)).add ((dps.const_mul Thzz).mul dth)).sub
        ((((dph.const_mul Thxxyy).mul dth).mul qth.sin).mul_const 2)).add (((dph.const_mul Thzz).mul dth).mul qth.sin))).congr_fderiv ?_
  refine ContinuousLinearMap.ext fun v => ?_
  change _ = (A x u *ᵥ v.1) 9 + (B x u *ᵥ v.2) 9
  rw [A_row9, B_row9]
  simp [A, B, -one_div]
  field_simp
  ring

theorem deriv10 (x : Fin 12 → ℝ) (u : Fin 4 → ℝ) :
    HasFDerivAt (fun z : (Fin 12 → ℝ) × (Fin 4 → ℝ) => odeFree z.1 z.2 10)
      ((ContinuousLinearMap.proj (R := ℝ) (φ := fun _ : Fin 12 => ℝ) 10).comp (jointMap (A x u) (B x u))) (x, u) := by
  have k3 := Thxxyy_ne
  have qth := hx (x, u) 4
  have qps := hx (x, u) 5
  have dph := hx (x, u) 9
  have dps := hx (x, u) 11
  have Mx := hu (x, u) 1
  have My := hu (x, u) 2
  have t8 := dph.mul dph
  have t10 := (qth.mul_const 2).sin
  refine ((((((Mx.mul qps.sin).add (My.mul qps.cos)).sub (((t8.const_mul Thxxyy).mul t10).mul_const (1 / 2))).add
    (((t8.const_mul Thzz).mul t10).mul_const (1 / 2))).add (((dph.const_mul Thzz).mul dps).mul qth.cos)).const_mul
      (1 / Thxxyy)).congr_fderiv ?_
  refine ContinuousLinearMap.ext fun v => ?_
  change _ = (A x u *ᵥ v.1) 10 + (B x u *ᵥ v.2) 10
  rw [A_row10, B_row10]
  simp [A, B, -one_div]
  field_simp
  ring

theorem deriv11 (x : Fin 12 → ℝ) (u : Fin 4 → ℝ) (hc : Real.cos (x 4) ≠ 0) :
    HasFDerivAt (fun z : (Fin 12 → ℝ) × (Fin 4 → ℝ) => odeFree z.1 z.2 11)
      ((ContinuousLinearMap.proj (R := ℝ) (φ := fun _ : Fin 12 => ℝ) 11).comp (jointMap (A x u) (B x u))) (x, u) := by
  have k3 := Thxxyy_ne
  have k4 := Thzz_ne
  have qth := hx (x, u) 4
  have qps := hx (x, u) 5
  have dph := hx (x, u) 9
  have dth := hx (x, u) 10
  have dps := hx (x, u) 11
  have Mx := hu (x, u) 1
  have My := hu (x, u) 2
  have Mz := hu (x, u) 3
  have t11 := hinv qth.cos hc
  have t13 := qth.cos.mul qth.cos
  refine (((t11.const_mul (1 / Thxxyy)).mul
    ((((((((Mz.mul_const Thxxyy).mul qth.cos).add ((dph.mul dth).mul_const (Thzz * Thzz))).sub
      (((dph.mul dth).mul_const (Thzz * Thzz)).mul t13)).add (((dps.mul dth).mul qth.sin).mul_const (Thzz * Thzz))).sub
      (((dph.const_mul (Thxxyy * Thzz)).mul dth).mul_const 2)).sub (((Mx.mul_const Thzz).mul qth.sin).mul qps.cos)).add
      (((My.mul_const Thzz).mul qth.sin).mul qps.sin) |>.add (((dph.const_mul (Thxxyy * Thzz)).mul dth).mul t13))).mul_const
      (Thzz⁻¹)).congr_fderiv ?_
  refine ContinuousLinearMap.ext fun v => ?_
  change _ = (A x u *ᵥ v.1) 11 + (B x u *ᵥ v.2) 11
  rw [A_row11, B_row11]
  have h3 : Real.sin (x 4 * 3) = 3 * Real.sin (x 4) - 4 * (Real.sin (x 4) * (1 - Real.cos (x 4) ^ 2)) := by
    rw [mul_comm, Real.sin_three_mul, ← Real.sin_sq]
    ring
  have h2 : Real.sin (x 4) * Real.sin (x 4) = 1 - Real.cos (x 4) ^ 2 := by rw [← Real.sin_sq]; ring
  have h2' : Real.sin (x 4) ^ 2 = 1 - Real.cos (x 4) ^ 2 := Real.sin_sq _
  simp [A, B, -one_div, h3, h2]
  field_simp
  ring_nf
  simp only [h2']
  ring

theorem free_deriv (x : Fin 12 → ℝ) (u : Fin 4 → ℝ) (hc : Real.cos (x 4) ≠ 0) :
    HasFDerivAt (fun z : (Fin 12 → ℝ) × (Fin 4 → ℝ) => odeFree z.1 z.2) (jointMap (A x u) (B x u)) (x, u) := by
  have s0 : ∀ c : ℝ, HasFDerivAt (fun _ : (Fin 12 → ℝ) × (Fin 4 → ℝ) => c) (0 : (Fin 12 → ℝ) × (Fin 4 → ℝ) →L[ℝ] ℝ) (x, u) :=
    fun c => hasFDerivAt_const c _
  have qph := hx (x, u) 3
  have qth := hx (x, u) 4
  have F := hu (x, u) 0
  rw [hasFDerivAt_pi']
  intro i
  fin_cases i
  iterate 6
    · refine HasFDerivAt.congr_fderiv (hx (x, u) _) ?_
      ext v <;> simp [jointMap_apply, A, B, mulVec, dotProduct]
  · refine ((F.mul_const (1 / mQ)).mul qth.sin).congr_fderiv ?_
    ext v <;> simp [jointMap_apply, A, B, mulVec, dotProduct] <;> ring
  · refine (((F.neg.mul_const (1 / mQ)).mul qth.cos).mul qph.sin).congr_fderiv ?_
    ext v <;> simp [jointMap_apply, A, B, mulVec, dotProduct, Fin.sum_univ_succ] <;> ring
  · refine ((((s0 (mQ * 981)).sub (((F.mul qth.cos).mul qph.cos).mul_const 100)).const_mul (1 / mQ)).mul_const (-1 / 100)).congr_fderiv ?_
    ext v <;> simp [jointMap_apply, A, B, mulVec, dotProduct, Fin.sum_univ_succ] <;> ring
  · exact deriv9 x u hc
  · exact deriv10 x u
  · exact deriv11 x u hc

theorem norm_continuous : Continuous norm := by
  unfold norm
  fun_prop

/-- C157: the matrices of the linearised quadrotor are the derivatives of its dynamics with respect to state and control, at
every state without gimbal lock. Very large states excepted, see `C157_large_violated`. -/
theorem C157_linearisation_partial (x : Fin 12 → ℝ) (u : Fin 4 → ℝ) (hc : Real.cos (x 4) ≠ 0) (hn : norm x < 10 ^ 20) :
    HasFDerivAt (fun z : (Fin 12 → ℝ) × (Fin 4 → ℝ) => ode z.1 z.2) (jointMap (A x u) (B x u)) (x, u) := by
  refine (free_deriv x u hc).congr_of_eventuallyEq ?_
  have : ∀ᶠ z : (Fin 12 → ℝ) × (Fin 4 → ℝ) in 𝓝 (x, u), norm z.1 < 10 ^ 20 :=
    (norm_continuous.comp continuous_fst).continuousAt.eventually_lt continuousAt_const hn
  filter_upwards [this] with z hz
  exact if_neg (not_lt.mpr hz.le)

theorem norm_zero : norm 0 = 0 := by simp [norm]

example : Real.cos ((0 : Fin 12 → ℝ) 4) ≠ 0 ∧ norm 0 < 10 ^ 20 := by
  rw [norm_zero]
  exact ⟨by simp, by positivity⟩

/-- C157 is violated for very large states: the dynamics returns zero, so that positions do not follow velocities and the
matrices are not the derivatives. -/
theorem C157_large_violated (x : Fin 12 → ℝ) (u : Fin 4 → ℝ) (hn : 10 ^ 20 < norm x) (hv : x 6 ≠ 0) :
    ode x u 0 ≠ x 6 ∧ ¬ HasFDerivAt (fun z : (Fin 12 → ℝ) × (Fin 4 → ℝ) => ode z.1 z.2) (jointMap (A x u) (B x u)) (x, u) := by
  constructor
  · rw [ode, if_pos hn]
    exact hv.symm
  · intro h
    have h0 : HasFDerivAt (fun z : (Fin 12 → ℝ) × (Fin 4 → ℝ) => ode z.1 z.2)
        (0 : (Fin 12 → ℝ) × (Fin 4 → ℝ) →L[ℝ] (Fin 12 → ℝ)) (x, u) := by
      refine (hasFDerivAt_const (0 : Fin 12 → ℝ) (x, u)).congr_of_eventuallyEq ?_
      have : ∀ᶠ z : (Fin 12 → ℝ) × (Fin 4 → ℝ) in 𝓝 (x, u), 10 ^ 20 < norm z.1 :=
        continuousAt_const.eventually_lt (norm_continuous.comp continuous_fst).continuousAt hn
      filter_upwards [this] with z hz
      exact if_pos hz
    have := congrArg (fun L : (Fin 12 → ℝ) × (Fin 4 → ℝ) →L[ℝ] (Fin 12 → ℝ) => L (Pi.single 6 1, 0) 0) (h.unique h0)
    simp [jointMap_apply, A] at this

example : ∃ x : Fin 12 → ℝ, 10 ^ 20 < norm x ∧ x 6 ≠ 0 := by
  refine ⟨fun i => if i = 6 then 10 ^ 21 else 0, ?_, by norm_num⟩
  have : norm (fun i : Fin 12 => if i = 6 then (10 : ℝ) ^ 21 else 0) = 10 ^ 21 := by
    rw [norm, Finset.sum_eq_single 6]
    · rw [if_pos rfl]
      exact Real.sqrt_sq (by positivity)
    · intro i _ hi
      simp [hi]
    · simp
  rw [this]
  norm_num

/-! ### C158: rigid body motion -/

/-- Rotations about the axes. -/
noncomputable def rotX (a : ℝ) : Matrix (Fin 3) (Fin 3) ℝ := !![1, 0, 0; 0, Real.cos a, -Real.sin a; 0, Real.sin a, Real.cos a]
/-- See `rotX`. -/
noncomputable def rotY (a : ℝ) : Matrix (Fin 3) (Fin 3) ℝ := !![Real.cos a, 0, Real.sin a; 0, 1, 0; -Real.sin a, 0, Real.cos a]
/-- See `rotX`. -/
noncomputable def rotZ (a : ℝ) : Matrix (Fin 3) (Fin 3) ℝ := !![Real.cos a, -Real.sin a, 0; Real.sin a, Real.cos a, 0; 0, 0, 1]

/-- The orientation of the quadrotor: its axes in the world. -/
noncomputable def orient (x : Fin 12 → ℝ) : Matrix (Fin 3) (Fin 3) ℝ := rotX (x 3) * rotY (x 4) * rotZ (x 5)

/-- `skew w *ᵥ v = w × v`. -/
def skew (w : Fin 3 → ℝ) : Matrix (Fin 3) (Fin 3) ℝ := !![0, -w 2, w 1; w 2, 0, -w 0; -w 1, w 0, 0]

/-- Moments of inertia about the axes of the quadrotor. -/
noncomputable def inertia : Matrix (Fin 3) (Fin 3) ℝ := diagonal ![Thxxyy, Thxxyy, Thzz]

/-- `ω` is the angular velocity in axes of the body of the rotation `R` near time `t`. -/
def IsAngularVelocity (R : ℝ → Matrix (Fin 3) (Fin 3) ℝ) (ω : ℝ → Fin 3 → ℝ) (t : ℝ) : Prop :=
  ∀ᶠ s in 𝓝 t, ∀ i j, HasDerivAt (fun s => R s i j) ((R s * skew (ω s)) i j) s

theorem orient_eq (x : Fin 12 → ℝ) : orient x =
    !![Real.cos (x 4) * Real.cos (x 5), -Real.cos (x 4) * Real.sin (x 5), Real.sin (x 4);
       Real.cos (x 3) * Real.sin (x 5) + Real.sin (x 3) * Real.sin (x 4) * Real.cos (x 5),
         Real.cos (x 3) * Real.cos (x 5) - Real.sin (x 3) * Real.sin (x 4) * Real.sin (x 5), -Real.sin (x 3) * Real.cos (x 4);
       Real.sin (x 3) * Real.sin (x 5) - Real.cos (x 3) * Real.sin (x 4) * Real.cos (x 5),
         Real.sin (x 3) * Real.cos (x 5) + Real.cos (x 3) * Real.sin (x 4) * Real.sin (x 5), Real.cos (x 3) * Real.cos (x 4)] := by
  ext i j
  fin_cases i <;> fin_cases j <;> simp [orient, rotX, rotY, rotZ, Matrix.mul_apply, Fin.sum_univ_three] <;> ring

/-- The angular velocity in terms of the rates of the angles. -/
noncomputable def rates (x : Fin 12 → ℝ) : Fin 3 → ℝ :=
  ![Real.cos (x 5) * Real.cos (x 4) * x 9 + Real.sin (x 5) * x 10,
    -Real.sin (x 5) * Real.cos (x 4) * x 9 + Real.cos (x 5) * x 10, Real.sin (x 4) * x 9 + x 11]

theorem orient_deriv (x : ℝ → Fin 12 → ℝ) (s : ℝ) (h3 : HasDerivAt (fun s => x s 3) (x s 9) s)
    (h4 : HasDerivAt (fun s => x s 4) (x s 10) s) (h5 : HasDerivAt (fun s => x s 5) (x s 11) s) (i j : Fin 3) :
    HasDerivAt (fun s => orient (x s) i j) ((orient (x s) * skew (rates (x s))) i j) s := by
  have e4 : Real.sin (x s 4) ^ 2 = 1 - Real.cos (x s 4) ^ 2 := Real.sin_sq _
  have e5 : Real.sin (x s 5) ^ 2 = 1 - Real.cos (x s 5) ^ 2 := Real.sin_sq _
  simp only [orient_eq]
  fin_cases i <;> fin_cases j
  · refine (h4.cos.mul h5.cos).congr_deriv ?_
    simp [Matrix.mul_apply, Fin.sum_univ_three, skew, rates]
    ring
  · refine (h4.cos.neg.mul h5.sin).congr_deriv ?_
    simp [Matrix.mul_apply, Fin.sum_univ_three, skew, rates]
    ring
  · refine h4.sin.congr_deriv ?_
    simp [Matrix.mul_apply, Fin.sum_univ_three, skew, rates]
    ring_nf
    simp only [e5]
    ring
  · refine ((h3.cos.mul h5.sin).add ((h3.sin.mul h4.sin).mul h5.cos)).congr_deriv ?_
    simp [Matrix.mul_apply, Fin.sum_univ_three, skew, rates]
    ring_nf
    simp only [e4, e5]
    ring
  · refine ((h3.cos.mul h5.cos).sub ((h3.sin.mul h4.sin).mul h5.sin)).congr_deriv ?_
    simp [Matrix.mul_apply, Fin.sum_univ_three, skew, rates]
    ring_nf
    simp only [e4, e5]
    ring
  · refine (h3.sin.neg.mul h4.cos).congr_deriv ?_
    simp [Matrix.mul_apply, Fin.sum_univ_three, skew, rates]
    ring_nf
    simp only [e4, e5]
    ring
  · refine ((h3.sin.mul h5.sin).sub ((h3.cos.mul h4.sin).mul h5.cos)).congr_deriv ?_
    simp [Matrix.mul_apply, Fin.sum_univ_three, skew, rates]
    ring_nf
    simp only [e4, e5]
    ring
  · refine ((h3.sin.mul h5.cos).add ((h3.cos.mul h4.sin).mul h5.sin)).congr_deriv ?_
    simp [Matrix.mul_apply, Fin.sum_univ_three, skew, rates]
    ring_nf
    simp only [e4, e5]
    ring
  · refine (h3.cos.mul h4.cos).congr_deriv ?_
    simp [Matrix.mul_apply, Fin.sum_univ_three, skew, rates]
    ring_nf
    simp only [e4, e5]
    ring

theorem rot_orth (a : ℝ) : (rotX a)ᵀ * rotX a = 1 ∧ (rotY a)ᵀ * rotY a = 1 ∧ (rotZ a)ᵀ * rotZ a = 1 := by
  have e : Real.sin a ^ 2 = 1 - Real.cos a ^ 2 := Real.sin_sq _
  refine ⟨?_, ?_, ?_⟩ <;> ext i j <;> fin_cases i <;> fin_cases j <;>
    simp [rotX, rotY, rotZ, Matrix.mul_apply, Fin.sum_univ_three] <;> ring_nf <;> simp [e]

theorem orient_orth (x : Fin 12 → ℝ) : (orient x)ᵀ * orient x = 1 := by
  have h : (orient x)ᵀ * orient x =
      (rotZ (x 5))ᵀ * ((rotY (x 4))ᵀ * ((rotX (x 3))ᵀ * rotX (x 3)) * rotY (x 4)) * rotZ (x 5) := by
    simp only [orient, Matrix.transpose_mul, Matrix.mul_assoc]
  rw [h, (rot_orth _).1, Matrix.mul_one, (rot_orth _).2.1, Matrix.mul_one, (rot_orth _).2.2]

theorem skew_inj {v w : Fin 3 → ℝ} (h : skew v = skew w) : v = w := by
  have h1 := congrFun (congrFun h 2) 1
  have h2 := congrFun (congrFun h 0) 2
  have h3 := congrFun (congrFun h 1) 0
  ext i
  fin_cases i <;> simp_all [skew]

/-- Nearby the dynamics is the one of the formulas. -/
theorem near (x : ℝ → Fin 12 → ℝ) (u : ℝ → Fin 4 → ℝ) (t : ℝ) (hs : ∀ᶠ s in 𝓝 t, HasDerivAt x (ode (x s) (u s)) s)
    (hn : norm (x t) < 10 ^ 20) : ∀ᶠ s in 𝓝 t, ∀ i, HasDerivAt (fun s => x s i) (odeFree (x s) (u s) i) s := by
  have hc : ContinuousAt x t := (hs.self_of_nhds).continuousAt
  have : ∀ᶠ s in 𝓝 t, norm (x s) < 10 ^ 20 :=
    (norm_continuous.continuousAt.comp hc).eventually_lt continuousAt_const hn
  filter_upwards [hs, this] with s h1 h2 i
  rw [ode, if_neg (not_lt.mpr h2.le)] at h1
  exact hasDerivAt_pi.mp h1 i

/-- C158, translation: along every solution the position changes with the velocity, and mass times acceleration is the
thrust along the third axis of the quadrotor and its weight. Very large states excepted, see `C157_large_violated`. -/
theorem C158_translation_partial (x : ℝ → Fin 12 → ℝ) (u : ℝ → Fin 4 → ℝ) (t : ℝ)
    (hs : ∀ᶠ s in 𝓝 t, HasDerivAt x (ode (x s) (u s)) s) (hn : norm (x t) < 10 ^ 20) :
    (∀ᶠ s in 𝓝 t, HasDerivAt (fun s => ![x s 0, x s 1, x s 2]) ![x s 6, x s 7, x s 8] s) ∧
    ∃ a, HasDerivAt (fun s => ![x s 6, x s 7, x s 8]) a t ∧
      mQ • a = orient (x t) *ᵥ ![0, 0, u t 0] - ![0, 0, mQ * 9.81] := by
  have h := near x u t hs hn
  constructor
  · filter_upwards [h] with s hs
    rw [hasDerivAt_pi]
    intro i
    fin_cases i
    · exact hs 0
    · exact hs 1
    · exact hs 2
  · have h0 := h.self_of_nhds
    refine ⟨![odeFree (x t) (u t) 6, odeFree (x t) (u t) 7, odeFree (x t) (u t) 8], ?_, ?_⟩
    · rw [hasDerivAt_pi]
      intro i
      fin_cases i
      · exact h0 6
      · exact h0 7
      · exact h0 8
    · have k2 := mQ_ne
      rw [orient_eq]
      ext i
      fin_cases i <;> simp [odeFree, mulVec, dotProduct, Fin.sum_univ_three] <;> field_simp <;> norm_num <;> ring

/-- C158, rotation: along every solution without gimbal lock the quadrotor has an angular velocity, and it obeys the
equations of Euler for the moments. Very large states excepted. -/
theorem C158_rotation_partial (x : ℝ → Fin 12 → ℝ) (u : ℝ → Fin 4 → ℝ) (t : ℝ)
    (hs : ∀ᶠ s in 𝓝 t, HasDerivAt x (ode (x s) (u s)) s) (hn : norm (x t) < 10 ^ 20) (hc : Real.cos (x t 4) ≠ 0) :
    (∃ ω, IsAngularVelocity (fun s => orient (x s)) ω t) ∧
    ∀ ω, IsAngularVelocity (fun s => orient (x s)) ω t →
      ∃ ω', HasDerivAt ω ω' t ∧ inertia *ᵥ ω' + crossProduct (ω t) (inertia *ᵥ ω t) = ![u t 1, u t 2, u t 3] := by
  have h := near x u t hs hn
  have hr : ∀ᶠ s in 𝓝 t, ∀ i j, HasDerivAt (fun s => orient (x s) i j) ((orient (x s) * skew (rates (x s))) i j) s := by
    filter_upwards [h] with s hs
    exact orient_deriv x s (hs 3) (hs 4) (hs 5)
  refine ⟨⟨fun s => rates (x s), hr⟩, fun ω hω => ?_⟩
  have heq : ω =ᶠ[𝓝 t] fun s => rates (x s) := by
    filter_upwards [hr, hω] with s h1 h2
    have e : orient (x s) * skew (ω s) = orient (x s) * skew (rates (x s)) := by
      ext i j
      exact (h2 i j).unique (h1 i j)
    have := congrArg (fun M => (orient (x s))ᵀ * M) e
    simp only [← Matrix.mul_assoc, orient_orth, Matrix.one_mul] at this
    exact skew_inj this
  have h0 := h.self_of_nhds
  have h4 : HasDerivAt (fun s => x s 4) (x t 10) t := h0 4
  have h5 : HasDerivAt (fun s => x s 5) (x t 11) t := h0 5
  have h9 := h0 9
  have h10 := h0 10
  have h11 := h0 11
  refine ⟨![(-Real.sin (x t 5) * x t 11 * Real.cos (x t 4) + Real.cos (x t 5) * (-Real.sin (x t 4) * x t 10)) * x t 9 +
      Real.cos (x t 5) * Real.cos (x t 4) * odeFree (x t) (u t) 9 + (Real.cos (x t 5) * x t 11 * x t 10 +
      Real.sin (x t 5) * odeFree (x t) (u t) 10),
    (-(Real.cos (x t 5) * x t 11) * Real.cos (x t 4) + -Real.sin (x t 5) * (-Real.sin (x t 4) * x t 10)) * x t 9 +
      -Real.sin (x t 5) * Real.cos (x t 4) * odeFree (x t) (u t) 9 + (-Real.sin (x t 5) * x t 11 * x t 10 +
      Real.cos (x t 5) * odeFree (x t) (u t) 10),
    Real.cos (x t 4) * x t 10 * x t 9 + Real.sin (x t 4) * odeFree (x t) (u t) 9 + odeFree (x t) (u t) 11],
    HasDerivAt.congr_of_eventuallyEq (hasDerivAt_pi.mpr fun i => ?_) heq, ?_⟩
  · fin_cases i
    · exact ((h5.cos.mul h4.cos).mul h9).add (h5.sin.mul h10)
    · exact ((h5.sin.neg.mul h4.cos).mul h9).add (h5.cos.mul h10)
    · exact (h4.sin.mul h9).add h11
  · rw [heq.self_of_nhds]
    have k3 := Thxxyy_ne
    have k4 := Thzz_ne
    have e4 : Real.sin (x t 4) ^ 2 = 1 - Real.cos (x t 4) ^ 2 := Real.sin_sq _
    have e5 : Real.sin (x t 5) ^ 2 = 1 - Real.cos (x t 5) ^ 2 := Real.sin_sq _
    have e2 : Real.sin (x t 4 * 2) = 2 * Real.sin (x t 4) * Real.cos (x t 4) := by rw [mul_comm, Real.sin_two_mul]
    ext i
    fin_cases i <;> simp [inertia, rates, odeFree, crossProduct, mulVec_diagonal, e2] <;> field_simp <;> ring_nf <;>
      simp only [e4, e5] <;> ring

/-- Hovering while turning about the vertical axis. -/
noncomputable def spin (s : ℝ) : Fin 12 → ℝ := ![0, 0, 0, 0, 0, s, 0, 0, 0, 0, 0, 1]

theorem spin_norm (s : ℝ) (hs : |s| < 1) : norm (spin s) < 10 ^ 20 := by
  have h1 : ∑ i, spin s i ^ 2 = s ^ 2 + 1 := by
    rw [sum12]
    simp [spin]
  rw [norm, h1, Real.sqrt_lt' (by positivity)]
  have := (sq_lt_one_iff_abs_lt_one s).mpr hs
  nlinarith

/-- Turning while hovering is a solution. -/
theorem spin_solution : ∀ᶠ s in 𝓝 (0 : ℝ), HasDerivAt spin (ode (spin s) ![mQ * 9.81, 0, 0, 0]) s := by
  have : ∀ᶠ s in 𝓝 (0 : ℝ), |s| < 1 := by
    filter_upwards [Metric.ball_mem_nhds (0 : ℝ) one_pos] with s hs
    simpa [Real.dist_eq] using hs
  filter_upwards [this] with s hs
  rw [ode, if_neg (not_lt.mpr (spin_norm s hs).le), hasDerivAt_pi]
  have k2 := mQ_ne
  intro i
  fin_cases i
  case «5» => exact (hasDerivAt_id s).congr_deriv (by simp [odeFree, spin])
  all_goals
    refine (hasDerivAt_const s _).congr_deriv ?_
    simp [odeFree, spin]
  · field_simp
    norm_num

example : (∀ᶠ s in 𝓝 (0 : ℝ), HasDerivAt spin (ode (spin s) ((fun _ => ![mQ * 9.81, 0, 0, 0]) s)) s) ∧ norm (spin 0) < 10 ^ 20 ∧
    Real.cos (spin 0 4) ≠ 0 := ⟨spin_solution, spin_norm 0 (by simp), by simp [spin]⟩

/-- C158, hovering: the quadrotor is in equilibrium exactly when it is at rest, upright or upside down, without moments and with
a thrust that carries its weight. -/
theorem C158_equilibria (x : Fin 12 → ℝ) (u : Fin 4 → ℝ) (hn : norm x ≤ 10 ^ 20) (hc : Real.cos (x 4) ≠ 0) :
    ode x u = 0 ↔ (x 6 = 0 ∧ x 7 = 0 ∧ x 8 = 0 ∧ x 9 = 0 ∧ x 10 = 0 ∧ x 11 = 0) ∧ (Real.sin (x 3) = 0 ∧ Real.sin (x 4) = 0) ∧
      (u 0 * Real.cos (x 4) * Real.cos (x 3) = mQ * 9.81 ∧ u 1 = 0 ∧ u 2 = 0 ∧ u 3 = 0) := by
  have k2 := mQ_ne
  have k3 := Thxxyy_ne
  have k4 := Thzz_ne
  rw [ode, if_neg (not_lt.mpr hn)]
  constructor
  · intro h
    have g := fun i => congrFun h i
    have g6 : x 6 = 0 := g 0
    have g7 : x 7 = 0 := g 1
    have g8 : x 8 = 0 := g 2
    have g9 : x 9 = 0 := g 3
    have g10 : x 10 = 0 := g 4
    have g11 : x 11 = 0 := g 5
    have a8 := g 8
    have a6 := g 6
    have a7 := g 7
    have a9 := g 9
    have a10 := g 10
    have a11 := g 11
    simp [odeFree, g9, g10, g11, k2, k3, k4, hc] at a6 a7 a8 a9 a10 a11
    have e8 : u 0 * Real.cos (x 4) * Real.cos (x 3) = mQ * 9.81 := by norm_num; linarith
    have hu0 : u 0 ≠ 0 := by
      rintro h0
      rw [h0] at e8
      norm_num [mQ] at e8
    have e5 : Real.sin (x 5) ^ 2 + Real.cos (x 5) ^ 2 = 1 := Real.sin_sq_add_cos_sq _
    have m1 : u 1 = 0 := by
      linear_combination (-u 1) * e5 + Real.sin (x 5) * a10 - Real.cos (x 5) * a9
    have m2 : u 2 = 0 := by
      linear_combination (-u 2) * e5 + Real.cos (x 5) * a10 + Real.sin (x 5) * a9
    refine ⟨⟨g6, g7, g8, g9, g10, g11⟩, ⟨?_, ?_⟩, e8, m1, m2, ?_⟩
    · simpa [hu0] using a7
    · simpa [hu0] using a6
    · simpa [m1, m2, hc, k3] using a11
  · rintro ⟨⟨g6, g7, g8, g9, g10, g11⟩, ⟨s3, s4⟩, e8, m1, m2, m3⟩
    ext i
    fin_cases i <;> simp [odeFree, g6, g7, g8, g9, g10, g11, s3, s4, m1, m2, m3]
    right
    norm_num at e8
    linarith

end CT.Quadrotor
