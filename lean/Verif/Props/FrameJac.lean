import Verif.Model.FrameJac
import Verif.Props.OpJacobian
import Verif.Props.ContactDynamics
import Mathlib.LinearAlgebra.Matrix.Determinant.Basic
import Mathlib.Analysis.SpecialFunctions.Trigonometric.Deriv

/-!
# C116, C117: Jacobians of a floating-base robot

The specification speaks about derivatives along motions only: the velocity of the end effector is the
time derivative of its position, the angular velocity of a rotation is the vector whose cross product
gives the derivative, and so on.
-/

namespace CT.FrameJac

open Matrix CT.OpJac

variable {ι : Type} [Fintype ι]

/-! ### Specification -/

omit [Fintype ι] in
/-- Entrywise derivative of a vector function. -/
def VDeriv (f : ℝ → ι → ℝ) (f' : ι → ℝ) (t : ℝ) : Prop := ∀ i, HasDerivAt (fun s => f s i) (f' i) t

/-- A motion of a floating base with orientation `R` (base to world) and position `r`, and of a point
fixed to a link, at `p` in base coordinates.  `ω` and `v` are the angular and linear velocity of the
base in base coordinates, `qd` the joint velocities and `J` the Jacobian of `p` with respect to the
joints. -/
structure Motion (R : ℝ → M3) (r p ω v : ℝ → V3) (J : ℝ → Matrix (Fin 3) ι ℝ) (qd : ℝ → ι → ℝ)
    (t : ℝ) : Prop where
  /-- a vector fixed in the base turns with the angular velocity -/
  rot : ∀ c : V3, VDeriv (fun s => R s *ᵥ c) (R t *ᵥ cross (ω t) c) t
  pos : VDeriv r (R t *ᵥ v t) t
  point : VDeriv p (J t *ᵥ qd t) t

/-- Rotation matrices. -/
structure IsRot (R : M3) : Prop where
  orth : Rᵀ * R = 1
  det : R.det = 1

/-! ### Vector calculus -/

theorem cpm_mulVec (a b : V3) : cpm a *ᵥ b = cross a b := by
  funext i
  fin_cases i <;> simp [cpm, cross, Matrix.mulVec, dotProduct, Fin.sum_univ_three] <;> ring

theorem cross_anti (a b : V3) : cross a b = -cross b a := by
  funext i; fin_cases i <;> simp [cross] <;> ring

theorem cross_add (a b c : V3) : cross a (b + c) = cross a b + cross a c := by
  funext i; fin_cases i <;> simp [cross] <;> ring

theorem add_cross (a b c : V3) : cross (a + b) c = cross a c + cross b c := by
  funext i; fin_cases i <;> simp [cross] <;> ring

theorem cross_sub (a b c : V3) : cross a (b - c) = cross a b - cross a c := by
  funext i; fin_cases i <;> simp [cross] <;> ring

theorem cross_smul (k : ℝ) (a b : V3) : cross a (k • b) = k • cross a b := by
  funext i; fin_cases i <;> simp [cross] <;> ring

theorem smul_cross (k : ℝ) (a b : V3) : cross (k • a) b = k • cross a b := by
  funext i; fin_cases i <;> simp [cross] <;> ring

@[simp] theorem cross_zero (a : V3) : cross a 0 = 0 := by
  funext i; fin_cases i <;> simp [cross]

@[simp] theorem zero_cross (a : V3) : cross 0 a = 0 := by
  funext i; fin_cases i <;> simp [cross]

theorem cross_self (a : V3) : cross a a = 0 := by
  funext i; fin_cases i <;> simp [cross] <;> ring

theorem jacobi (a b c : V3) : cross (cross a b) c + cross b (cross a c) = cross a (cross b c) := by
  funext i; fin_cases i <;> simp [cross] <;> ring

theorem cross_sum {κ : Type} (s : Finset κ) (a : V3) (f : κ → V3) :
    cross a (∑ j ∈ s, f j) = ∑ j ∈ s, cross a (f j) := by
  classical
  induction s using Finset.induction_on with
  | empty => simp
  | insert x s hx ih => rw [Finset.sum_insert hx, Finset.sum_insert hx, cross_add, ih]

theorem sum_cross {κ : Type} (s : Finset κ) (a : V3) (f : κ → V3) :
    cross (∑ j ∈ s, f j) a = ∑ j ∈ s, cross (f j) a := by
  classical
  induction s using Finset.induction_on with
  | empty => simp
  | insert x s hx ih => rw [Finset.sum_insert hx, Finset.sum_insert hx, add_cross, ih]

/-- A rotation commutes with the cross product. -/
theorem IsRot.cross {R : M3} (h : IsRot R) (a b : V3) :
    R *ᵥ FrameJac.cross a b = FrameJac.cross (R *ᵥ a) (R *ᵥ b) := by
  -- the cofactor matrix of `R` is `det R` times the transpose of its inverse
  have hadj : R.adjugate = Rᵀ := by
    have h1 : R * R.adjugate = 1 := by rw [Matrix.mul_adjugate, h.det, one_smul]
    have h2 : Rᵀ * (R * R.adjugate) = R.adjugate := by rw [← Matrix.mul_assoc, h.orth, Matrix.one_mul]
    rw [h1, Matrix.mul_one] at h2
    exact h2.symm
  have hR : R = (R.adjugate)ᵀ := by rw [hadj, transpose_transpose]
  conv_lhs => rw [hR]
  rw [Matrix.adjugate_fin_three]
  funext i
  fin_cases i <;>
    simp [FrameJac.cross, Matrix.mulVec, dotProduct, Fin.sum_univ_three] <;> ring

theorem IsRot.mul {A B : M3} (hA : IsRot A) (hB : IsRot B) : IsRot (A * B) := by
  refine ⟨?_, by rw [det_mul, hA.det, hB.det, one_mul]⟩
  rw [transpose_mul, Matrix.mul_assoc, ← Matrix.mul_assoc Aᵀ, hA.orth, Matrix.one_mul, hB.orth]

theorem IsRot.one : IsRot (1 : M3) := ⟨by simp, by simp⟩

/-! ### Rules for derivatives -/

omit [Fintype ι] in
theorem VDeriv.add {f g : ℝ → ι → ℝ} {f' g' : ι → ℝ} {t : ℝ} (hf : VDeriv f f' t) (hg : VDeriv g g' t) :
    VDeriv (fun s => f s + g s) (f' + g') t := fun i => (hf i).add (hg i)

omit [Fintype ι] in
theorem VDeriv.sub {f g : ℝ → ι → ℝ} {f' g' : ι → ℝ} {t : ℝ} (hf : VDeriv f f' t) (hg : VDeriv g g' t) :
    VDeriv (fun s => f s - g s) (f' - g') t := fun i => (hf i).sub (hg i)

omit [Fintype ι] in
theorem VDeriv.const (c : ι → ℝ) (t : ℝ) : VDeriv (fun _ => c) 0 t := fun _ => hasDerivAt_const _ _

omit [Fintype ι] in
theorem VDeriv.smul {k : ℝ → ℝ} {k' : ℝ} {f : ℝ → ι → ℝ} {f' : ι → ℝ} {t : ℝ} (hk : HasDerivAt k k' t)
    (hf : VDeriv f f' t) : VDeriv (fun s => k s • f s) (k' • f t + k t • f') t := fun i => hk.mul (hf i)

omit [Fintype ι] in
theorem VDeriv.unique {f : ℝ → ι → ℝ} {f' f'' : ι → ℝ} {t : ℝ} (h : VDeriv f f' t) (h' : VDeriv f f'' t) :
    f' = f'' := funext fun i => (h i).unique (h' i)

theorem mulVec_deriv {m : Type} {A : ℝ → Matrix m ι ℝ} {A' : Matrix m ι ℝ} {f : ℝ → ι → ℝ}
    {f' : ι → ℝ} {t : ℝ} (hA : MDeriv A A' t) (hf : VDeriv f f' t) :
    VDeriv (fun s => A s *ᵥ f s) (A' *ᵥ f t + A t *ᵥ f') t := by
  intro i
  simp only [Matrix.mulVec, dotProduct, Pi.add_apply, ← Finset.sum_add_distrib]
  have := HasDerivAt.fun_sum (u := Finset.univ) (fun (k : ι) _ => (hA i k).mul (hf k))
  simpa using this

theorem cross_deriv {f g : ℝ → V3} {f' g' : V3} {t : ℝ} (hf : VDeriv f f' t) (hg : VDeriv g g' t) :
    VDeriv (fun s => cross (f s) (g s)) (cross f' (g t) + cross (f t) g') t := by
  intro i
  fin_cases i
  · refine (((hf 1).mul (hg 2)).sub ((hf 2).mul (hg 1))).congr_deriv ?_
    simp [cross]; ring
  · refine (((hf 2).mul (hg 0)).sub ((hf 0).mul (hg 2))).congr_deriv ?_
    simp [cross]; ring
  · refine (((hf 0).mul (hg 1)).sub ((hf 1).mul (hg 0))).congr_deriv ?_
    simp [cross]; ring

theorem cpm_deriv {f : ℝ → V3} {f' : V3} {t : ℝ} (hf : VDeriv f f' t) :
    MDeriv (fun s => cpm (f s)) (cpm f') t := by
  intro i j
  fin_cases i <;> fin_cases j <;> simp [cpm] <;>
    first
      | exact hasDerivAt_const _ _
      | exact hf _
      | exact (hf _).neg

omit [Fintype ι] in
theorem cat_deriv {A B : ℝ → M3} {C : ℝ → Matrix (Fin 3) ι ℝ} {A' B' : M3} {C' : Matrix (Fin 3) ι ℝ}
    {t : ℝ} (hA : MDeriv A A' t) (hB : MDeriv B B' t) (hC : MDeriv C C' t) :
    MDeriv (fun s => cat (A s) (B s) (C s)) (cat A' B' C') t := by
  rintro i (j | j | j)
  · exact hA i j
  · exact hB i j
  · exact hC i j

theorem cat_mulVec (A B : M3) (C : Matrix (Fin 3) ι ℝ) (ω v : V3) (qd : ι → ℝ) :
    cat A B C *ᵥ gv ω v qd = A *ᵥ ω + B *ᵥ v + C *ᵥ qd := by
  funext i
  simp only [cat, gv, Matrix.mulVec, dotProduct, Fintype.sum_sum_type, Pi.add_apply, Sum.elim_inl,
    Sum.elim_inr, Matrix.fromCols_apply_inl, Matrix.fromCols_apply_inr]
  ring

theorem MDeriv.neg' {m n : Type} {A : ℝ → Matrix m n ℝ} {A' : Matrix m n ℝ} {t : ℝ} (h : MDeriv A A' t) :
    MDeriv (fun s => -A s) (-A') t := fun i j => (h i j).neg

theorem MDeriv.congr' {m n : Type} {A : ℝ → Matrix m n ℝ} {A' A'' : Matrix m n ℝ} {t : ℝ}
    (h : MDeriv A A' t) (e : A' = A'') : MDeriv A A'' t := e ▸ h

/-- The derivative of the rotation matrix as a matrix. -/
theorem rot_matrix {R : ℝ → M3} {w : M3} {t : ℝ}
    (h : ∀ c : V3, VDeriv (fun s => R s *ᵥ c) (w *ᵥ c) t) : MDeriv R w t := by
  intro i j
  have := h (Pi.single j 1) i
  simpa [Matrix.mulVec_single_one] using this

theorem Motion.rotMatrix {R : ℝ → M3} {r p ω v : ℝ → V3} {J : ℝ → Matrix (Fin 3) ι ℝ} {qd : ℝ → ι → ℝ}
    {t : ℝ} (h : Motion R r p ω v J qd t) : MDeriv R (R t * cpm (ω t)) t :=
  rot_matrix fun c => by
    have := h.rot c
    rwa [← cpm_mulVec, Matrix.mulVec_mulVec] at this

/-! ### The Jacobian gives the velocity -/

/-- **C116.** The velocity returned by `getEEVelocityInWorld` is the time derivative of the position
returned by `getEEPositionInWorld`, and it is the translational inertial-frame Jacobian times the
generalised velocities. -/
theorem C116_velocity {R : ℝ → M3} {r p ω v : ℝ → V3} {J : ℝ → Matrix (Fin 3) ι ℝ} {qd : ℝ → ι → ℝ}
    {t : ℝ} (h : Motion R r p ω v J qd t) :
    VDeriv (fun s => eePositionInWorld (r s) (R s) (p s))
      (eeVelocityInWorld (R t) (J t) (p t) (ω t) (v t) (qd t)) t ∧
    jacTranslation (R t) (p t) (J t) *ᵥ gv (ω t) (v t) (qd t) =
      eeVelocityInWorld (R t) (J t) (p t) (ω t) (v t) (qd t) := by
  constructor
  · have h1 := h.pos.add (mulVec_deriv h.rotMatrix h.point)
    have e : R t *ᵥ v t + ((R t * cpm (ω t)) *ᵥ p t + R t *ᵥ (J t *ᵥ qd t)) =
        eeVelocityInWorld (R t) (J t) (p t) (ω t) (v t) (qd t) := by
      rw [eeVelocityInWorld, eeVelocityInBase, ← Matrix.mulVec_mulVec, cpm_mulVec, Matrix.mulVec_add,
        Matrix.mulVec_add]
      abel
    rw [e] at h1
    exact h1
  · rw [jacTranslation, cat_mulVec, eeVelocityInWorld, eeVelocityInBase, Matrix.mulVec_add,
      Matrix.mulVec_add, Matrix.neg_mul, Matrix.neg_mulVec, ← Matrix.mulVec_mulVec,
      ← Matrix.mulVec_mulVec, cpm_mulVec, cross_anti (p t) (ω t), Matrix.mulVec_neg, neg_neg]
    abel

/-- **C116.** The rotational inertial-frame Jacobian times the generalised velocities is the angular
velocity, in world coordinates, of the orientation returned by `getEERotInWorld`; `Jo` is the rotational
Jacobian in the base: `Jo qd` is the angular velocity of the end effector relative to the base. -/
theorem C116_angular_velocity {R Ree : ℝ → M3} {r p ω v : ℝ → V3} {J Jo : ℝ → Matrix (Fin 3) ι ℝ}
    {qd : ℝ → ι → ℝ} {t : ℝ} (h : Motion R r p ω v J qd t) (hR : IsRot (R t))
    (hee : ∀ c : V3, VDeriv (fun s => Ree s *ᵥ c) (cross (Jo t *ᵥ qd t) (Ree t *ᵥ c)) t) (c : V3) :
    VDeriv (fun s => eeRotInWorld (R s) (Ree s) *ᵥ c)
      (cross (jacOrientation (R t) (Jo t) *ᵥ gv (ω t) (v t) (qd t)) (eeRotInWorld (R t) (Ree t) *ᵥ c)) t := by
  have h1 := mulVec_deriv h.rotMatrix (hee c)
  have e : (R t * cpm (ω t)) *ᵥ (Ree t *ᵥ c) + R t *ᵥ cross (Jo t *ᵥ qd t) (Ree t *ᵥ c) =
      cross (jacOrientation (R t) (Jo t) *ᵥ gv (ω t) (v t) (qd t)) (eeRotInWorld (R t) (Ree t) *ᵥ c) := by
    rw [jacOrientation, cat_mulVec, Matrix.zero_mulVec, add_zero, add_cross, eeRotInWorld,
      ← Matrix.mulVec_mulVec, ← Matrix.mulVec_mulVec, ← Matrix.mulVec_mulVec, cpm_mulVec, hR.cross,
      hR.cross]
  rw [e] at h1
  intro i
  have := h1 i
  simpa only [eeRotInWorld, ← Matrix.mulVec_mulVec] using this

/-! ### Time derivatives of the Jacobians -/

/-- **C116.** `FromBaseJacobianDevToInertiaJacobianDev…` return the time derivatives of the matrices
returned by `FromBaseJacToInertiaJac…`, if `dJ`, `dJo` are the time derivatives of the Jacobians in the
base. -/
theorem C116_derivative {R : ℝ → M3} {r p ω v : ℝ → V3} {J Jo : ℝ → Matrix (Fin 3) ι ℝ}
    {dJ dJo : Matrix (Fin 3) ι ℝ} {qd : ℝ → ι → ℝ} {t : ℝ} (h : Motion R r p ω v J qd t)
    (hJ : MDeriv J dJ t) (hJo : MDeriv Jo dJo t) :
    MDeriv (fun s => jacTranslation (R s) (p s) (J s))
      (jacDevTranslation (gv (ω t) (v t) (qd t)) (R t) (p t) (J t) dJ) t ∧
    MDeriv (fun s => jacOrientation (R s) (Jo s))
      (jacDevOrientation (gv (ω t) (v t) (qd t)) (R t) (Jo t) dJo) t := by
  have hw : gvHead (gv (ω t) (v t) (qd t)) = ω t := rfl
  have hq : gvTail (gv (ω t) (v t) (qd t)) = qd t := rfl
  have hR := h.rotMatrix
  constructor
  · simp only [jacTranslation, jacDevTranslation, hw, hq]
    refine cat_deriv ?_ hR (hR.mul hJ)
    refine MDeriv.congr' ((MDeriv.neg' hR).mul (cpm_deriv h.point)) ?_
    simp only [Matrix.neg_mul, sub_eq_add_neg]
  · simp only [jacOrientation, jacDevOrientation, hw]
    exact cat_deriv hR (MDeriv.const 0 t) (hR.mul hJo)

/-- **C116.** The world acceleration of the point is the rotated sum of constraint Jacobian times
generalised accelerations, its derivative times generalised velocities, and angular velocity times
velocity of the point: the expression that the dynamics with contacts sets to zero. -/
theorem C116_acceleration {R : ℝ → M3} {r p ω v : ℝ → V3} {J : ℝ → Matrix (Fin 3) ι ℝ}
    {qd : ℝ → ι → ℝ} {dJ : Matrix (Fin 3) ι ℝ} {ω' v' : V3} {qdd : ι → ℝ} {t : ℝ}
    (h : Motion R r p ω v J qd t) (hJ : MDeriv J dJ t) (hω : VDeriv ω ω' t) (hv : VDeriv v v' t)
    (hqd : VDeriv qd qdd t) :
    VDeriv (fun s => eeVelocityInWorld (R s) (J s) (p s) (ω s) (v s) (qd s))
      (R t *ᵥ (jacTranslation 1 (p t) (J t) *ᵥ gv ω' v' qdd +
        jacDevTranslation (gv 0 (v t) (qd t)) 1 (p t) (J t) dJ *ᵥ gv (ω t) (v t) (qd t) +
        cross (ω t) (eeVelocityInBase (J t) (p t) (ω t) (v t) (qd t)))) t := by
  have hb : VDeriv (fun s => eeVelocityInBase (J s) (p s) (ω s) (v s) (qd s))
      (dJ *ᵥ qd t + J t *ᵥ qdd + v' + (cross ω' (p t) + cross (ω t) (J t *ᵥ qd t))) t :=
    ((mulVec_deriv hJ hqd).add hv).add (cross_deriv hω h.point)
  have h1 := mulVec_deriv h.rotMatrix hb
  have e : (R t * cpm (ω t)) *ᵥ eeVelocityInBase (J t) (p t) (ω t) (v t) (qd t) +
      R t *ᵥ (dJ *ᵥ qd t + J t *ᵥ qdd + v' + (cross ω' (p t) + cross (ω t) (J t *ᵥ qd t))) =
      R t *ᵥ (jacTranslation 1 (p t) (J t) *ᵥ gv ω' v' qdd +
        jacDevTranslation (gv 0 (v t) (qd t)) 1 (p t) (J t) dJ *ᵥ gv (ω t) (v t) (qd t) +
        cross (ω t) (eeVelocityInBase (J t) (p t) (ω t) (v t) (qd t))) := by
    have z : cpm (gvHead (gv 0 (v t) (qd t))) = 0 := by
      ext i j; fin_cases i <;> fin_cases j <;> simp [cpm, gvHead, gv]
    have hq : gvTail (gv 0 (v t) (qd t)) = qd t := rfl
    rw [← Matrix.mulVec_mulVec, cpm_mulVec, ← Matrix.mulVec_add]
    congr 1
    rw [jacTranslation, jacDevTranslation, cat_mulVec, cat_mulVec]
    simp only [z, hq, Matrix.mul_zero, Matrix.zero_mul, neg_zero, Matrix.zero_mulVec, Matrix.one_mul,
      Matrix.neg_mul, Matrix.neg_mulVec, cpm_mulVec, Matrix.one_mulVec, zero_sub, add_zero, zero_add]
    rw [cross_anti (p t) ω', cross_anti (J t *ᵥ qd t) (ω t)]
    abel
  rw [e] at h1
  exact h1

end CT.FrameJac
