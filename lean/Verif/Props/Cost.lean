import Verif.Model.Cost
import Mathlib.Analysis.Calculus.FDeriv.Pi
import Mathlib.Analysis.Calculus.FDeriv.Mul
import Mathlib.Analysis.Calculus.FDeriv.Add
import Mathlib.Analysis.Calculus.Deriv.Comp
import Mathlib.Analysis.Calculus.Deriv.Inv
import Mathlib.Analysis.Calculus.Deriv.Pow
import Mathlib.Analysis.Calculus.Deriv.Add
import Mathlib.Analysis.Calculus.Deriv.Mul
import Mathlib.Analysis.SpecialFunctions.Sqrt
import Mathlib.Topology.Algebra.Module.FiniteDimension
import Mathlib.LinearAlgebra.Matrix.ToLin
import Mathlib.Tactic.Ring
import Mathlib.Tactic.FieldSimp
import Mathlib.Tactic.Linarith
import Mathlib.Tactic.LinearCombination

/-! # C36, C37, C76-C78: cost terms and cost functions -/

namespace CT.Cost

open Matrix

variable {n m k : Nat}

/-! ### Specification: exact derivatives -/

/-- The linear form `v ↦ g ⬝ v`. -/
noncomputable def gradMap (g : Fin n → ℝ) : (Fin n → ℝ) →L[ℝ] ℝ :=
  LinearMap.toContinuousLinearMap
    { toFun := fun v => g ⬝ᵥ v, map_add' := fun a b => dotProduct_add g a b,
      map_smul' := fun c a => by simp }

/-- The linear map `v ↦ A v`. -/
noncomputable def jacMap (A : Matrix (Fin k) (Fin n) ℝ) : (Fin n → ℝ) →L[ℝ] (Fin k → ℝ) :=
  LinearMap.toContinuousLinearMap A.mulVecLin

@[simp] theorem gradMap_apply (g v : Fin n → ℝ) : gradMap g v = g ⬝ᵥ v := rfl
@[simp] theorem jacMap_apply (A : Matrix (Fin k) (Fin n) ℝ) (v : Fin n → ℝ) : jacMap A v = A *ᵥ v := rfl

/-- `g` is the gradient of `f` at `x` (Fréchet derivative). -/
def IsGrad (f : (Fin n → ℝ) → ℝ) (g x : Fin n → ℝ) : Prop := HasFDerivAt f (gradMap g) x

/-- `A` is the Jacobian of `F` at `x` (Fréchet derivative). -/
def IsJac (F : (Fin n → ℝ) → (Fin k → ℝ)) (A : Matrix (Fin k) (Fin n) ℝ) (x : Fin n → ℝ) : Prop :=
  HasFDerivAt F (jacMap A) x

/-- What the derivative methods of a term have to be: gradients of the value in state and control, and
the Jacobians of those gradients, at every point and time. -/
structure Exact (τ : Term n m) : Prop where
  gradX : ∀ x u t, IsGrad (fun y => τ.value y u t) (τ.gradX x u t) x
  gradU : ∀ x u t, IsGrad (fun v => τ.value x v t) (τ.gradU x u t) u
  hessX : ∀ x u t, IsJac (fun y => τ.gradX y u t) (τ.hessX x u t) x
  hessU : ∀ x u t, IsJac (fun v => τ.gradU x v t) (τ.hessU x u t) u
  crossX : ∀ x u t, IsJac (fun y => τ.gradU y u t) (τ.cross x u t) x
  crossU : ∀ x u t, IsJac (fun v => τ.gradX x v t) (τ.cross x u t)ᵀ u

/-! ### Calculus lemmas -/

theorem isGrad_unique {f : (Fin n → ℝ) → ℝ} {g g' x : Fin n → ℝ} (h : IsGrad f g x) (h' : IsGrad f g' x) :
    g = g' := by
  have e := HasFDerivAt.unique h h'
  funext i
  have := congrArg (fun L => L (Pi.single i 1)) e
  simpa using this

theorem isJac_const (c : Fin k → ℝ) (x : Fin n → ℝ) : IsJac (fun _ => c) (0 : Matrix (Fin k) (Fin n) ℝ) x := by
  have : jacMap (0 : Matrix (Fin k) (Fin n) ℝ) = 0 := by ext v i; simp
  rw [IsJac, this]; exact hasFDerivAt_const _ _

theorem isJac_sub (r : Fin n → ℝ) (x : Fin n → ℝ) : IsJac (fun y => y - r) (1 : Matrix (Fin n) (Fin n) ℝ) x := by
  have : jacMap (1 : Matrix (Fin n) (Fin n) ℝ) = ContinuousLinearMap.id ℝ _ := by ext v i; simp
  rw [IsJac, this]; exact (hasFDerivAt_id x).sub_const r

theorem isJac_mulVec {l : Nat} {F : (Fin n → ℝ) → (Fin k → ℝ)} {A : Matrix (Fin k) (Fin n) ℝ} {x : Fin n → ℝ}
    (M : Matrix (Fin l) (Fin k) ℝ) (h : IsJac F A x) : IsJac (fun y => M *ᵥ F y) (M * A) x := by
  have e : jacMap (M * A) = (jacMap M).comp (jacMap A) := by ext v i; simp
  rw [IsJac, e]
  exact (jacMap M).hasFDerivAt.comp x h

theorem isJac_add {F G : (Fin n → ℝ) → (Fin k → ℝ)} {A B : Matrix (Fin k) (Fin n) ℝ} {x : Fin n → ℝ}
    (h : IsJac F A x) (h' : IsJac G B x) : IsJac (fun y => F y + G y) (A + B) x := by
  have e : jacMap (A + B) = jacMap A + jacMap B := by ext v i; simp [add_mulVec]
  rw [IsJac, e]
  exact HasFDerivAt.add h h'

theorem isGrad_const (c : ℝ) (x : Fin n → ℝ) : IsGrad (fun _ => c) 0 x := by
  have : gradMap (0 : Fin n → ℝ) = 0 := by ext v; simp
  rw [IsGrad, this]; exact hasFDerivAt_const _ _

theorem isGrad_add {f g : (Fin n → ℝ) → ℝ} {a b x : Fin n → ℝ} (h : IsGrad f a x) (h' : IsGrad g b x) :
    IsGrad (fun y => f y + g y) (a + b) x := by
  have e : gradMap (a + b) = gradMap a + gradMap b := by ext v; simp [add_dotProduct]
  rw [IsGrad, e]
  exact HasFDerivAt.add h h'

theorem isGrad_smul {f : (Fin n → ℝ) → ℝ} {a x : Fin n → ℝ} (c : ℝ) (h : IsGrad f a x) :
    IsGrad (fun y => c * f y) (c • a) x := by
  have e : gradMap (c • a) = c • gradMap a := by ext v; simp
  rw [IsGrad, e]
  exact HasFDerivAt.const_mul h c

theorem isJac_smul {F : (Fin n → ℝ) → (Fin k → ℝ)} {A : Matrix (Fin k) (Fin n) ℝ} {x : Fin n → ℝ} (c : ℝ)
    (h : IsJac F A x) : IsJac (fun y => c • F y) (c • A) x := by
  have e : jacMap (c • A) = c • jacMap A := by ext v i; simp [smul_mulVec]
  rw [IsJac, e]
  exact HasFDerivAt.const_smul h c

theorem isJac_smul_fun {f : (Fin n → ℝ) → ℝ} {g x : Fin n → ℝ} (w : Fin k → ℝ) (h : IsGrad f g x) :
    IsJac (fun y => f y • w) (vecMulVec w g) x := by
  have e : jacMap (vecMulVec w g) = (gradMap g).smulRight w := by
    ext v i
    simp [vecMulVec, mulVec, dotProduct, Finset.mul_sum, Finset.sum_mul]
    refine Finset.sum_congr rfl fun j _ => ?_
    ring
  rw [IsJac, e]
  exact HasFDerivAt.smul_const h w

/-- Product rule for the scalar product. -/
theorem isGrad_dot {F G : (Fin n → ℝ) → (Fin k → ℝ)} {A B : Matrix (Fin k) (Fin n) ℝ} {x : Fin n → ℝ}
    (hF : IsJac F A x) (hG : IsJac G B x) :
    IsGrad (fun y => F y ⬝ᵥ G y) (F x ᵥ* B + G x ᵥ* A) x := by
  have hF' := hasFDerivAt_pi'.1 hF
  have hG' := hasFDerivAt_pi'.1 hG
  have h := HasFDerivAt.fun_sum (u := Finset.univ) fun (i : Fin k) _ => (hF' i).mul (hG' i)
  refine h.congr_fderiv ?_
  ext v
  simp only [gradMap_apply, add_dotProduct, ← dotProduct_mulVec]
  simp [dotProduct, Finset.sum_add_distrib]

theorem isJac_id (x : Fin n → ℝ) : IsJac (fun y => y) (1 : Matrix (Fin n) (Fin n) ℝ) x := by
  simpa using isJac_sub 0 x

/-- Quadratic form `dᵀ Q d` of a vector that moves with the argument. -/
theorem isGrad_quad (Q : Matrix (Fin n) (Fin n) ℝ) {D : (Fin n → ℝ) → (Fin n → ℝ)} {x : Fin n → ℝ}
    (h : IsJac D 1 x) : IsGrad (fun y => D y ⬝ᵥ (Q *ᵥ D y)) (D x ᵥ* Qᵀ + D x ᵥ* Q) x := by
  have := isGrad_dot h (isJac_mulVec Q h)
  convert this using 1
  rw [Matrix.mul_one, Matrix.vecMul_one, vecMul_transpose, add_comm]

theorem isJac_quadGrad (Q : Matrix (Fin n) (Fin n) ℝ) {D : (Fin n → ℝ) → (Fin n → ℝ)} {x : Fin n → ℝ}
    (h : IsJac D 1 x) : IsJac (fun y => D y ᵥ* Qᵀ + D y ᵥ* Q) (Q + Qᵀ) x := by
  have := isJac_add (isJac_mulVec Q h) (isJac_mulVec Qᵀ h)
  simpa [vecMul_transpose, mulVec_transpose] using this

/-! ### C36 -/

theorem exact_linear (a : Fin n → ℝ) (b : Fin m → ℝ) (c : ℝ) : Exact (linear a b c) where
  gradX x u t := by
    have h1 := isGrad_dot (isJac_const a x) (isJac_id x)
    have h2 := isGrad_add (isGrad_add h1 (isGrad_const (b ⬝ᵥ u) x)) (isGrad_const c x)
    simpa [linear] using h2
  gradU x u t := by
    have h1 := isGrad_dot (isJac_const b u) (isJac_id u)
    have h2 := isGrad_add (isGrad_add (isGrad_const (a ⬝ᵥ x) u) h1) (isGrad_const c u)
    simpa [linear] using h2
  hessX x u t := isJac_const _ _
  hessU x u t := isJac_const _ _
  crossX x u t := isJac_const _ _
  crossU x u t := by simpa [linear] using isJac_const a u

theorem exact_mixed (P : Matrix (Fin m) (Fin n) ℝ) (xr : Fin n → ℝ) (ur : Fin m → ℝ) :
    Exact (mixed P xr ur) where
  gradX x u t := by
    have h := isGrad_dot (isJac_const (u - ur) x) (isJac_mulVec P (isJac_sub xr x))
    simpa [mixed, mulVec_transpose] using h
  gradU x u t := by
    have h := isGrad_dot (isJac_sub ur u) (isJac_const (P *ᵥ (x - xr)) u)
    simpa [mixed] using h
  hessX x u t := isJac_const _ _
  hessU x u t := isJac_const _ _
  crossX x u t := by simpa [mixed] using isJac_mulVec P (isJac_sub xr x)
  crossU x u t := by simpa [mixed] using isJac_mulVec Pᵀ (isJac_sub ur u)

theorem exact_quadratic (Q : Matrix (Fin n) (Fin n) ℝ) (R : Matrix (Fin m) (Fin m) ℝ) (xr : Fin n → ℝ)
    (ur : Fin m → ℝ) : Exact (quadratic Q R xr ur) where
  gradX x u t := by
    simpa [quadratic] using isGrad_add (isGrad_quad Q (isJac_sub xr x)) (isGrad_const _ x)
  gradU x u t := by
    simpa [quadratic] using isGrad_add (isGrad_const _ u) (isGrad_quad R (isJac_sub ur u))
  hessX x u t := isJac_quadGrad Q (isJac_sub xr x)
  hessU x u t := isJac_quadGrad R (isJac_sub ur u)
  crossX x u t := isJac_const _ _
  crossU x u t := by simpa [quadratic] using isJac_const ((x - xr) ᵥ* Qᵀ + (x - xr) ᵥ* Q) u

theorem exact_quadMult (Q : Matrix (Fin n) (Fin n) ℝ) (R : Matrix (Fin m) (Fin m) ℝ) (xr : Fin n → ℝ)
    (ur : Fin m → ℝ) : Exact (quadMult Q R xr ur) where
  gradX x u t := by
    have := isGrad_smul ((u - ur) ⬝ᵥ (R *ᵥ (u - ur))) (isGrad_quad Q (isJac_sub xr x))
    simpa [quadMult, mul_comm] using this
  gradU x u t := isGrad_smul ((x - xr) ⬝ᵥ (Q *ᵥ (x - xr))) (isGrad_quad R (isJac_sub ur u))
  hessX x u t := isJac_smul ((u - ur) ⬝ᵥ (R *ᵥ (u - ur))) (isJac_quadGrad Q (isJac_sub xr x))
  hessU x u t := isJac_smul ((x - xr) ⬝ᵥ (Q *ᵥ (x - xr))) (isJac_quadGrad R (isJac_sub ur u))
  crossX x u t := isJac_smul_fun _ (isGrad_quad Q (isJac_sub xr x))
  crossU x u t := by
    have := isJac_smul_fun ((x - xr) ᵥ* Qᵀ + (x - xr) ᵥ* Q) (isGrad_quad R (isJac_sub ur u))
    simpa [quadMult] using this

theorem exact_quadTracking (Q : Matrix (Fin n) (Fin n) ℝ) (R : Matrix (Fin m) (Fin m) ℝ)
    (xr : ℝ → Fin n → ℝ) (ur : ℝ → Fin m → ℝ) (tc : Bool) : Exact (quadTracking Q R xr ur tc) where
  gradX x u t := by
    simpa [quadTracking] using isGrad_add (isGrad_quad Q (isJac_sub (xr t) x)) (isGrad_const _ x)
  gradU x u t := by
    cases tc
    · simpa [quadTracking] using isGrad_add (isGrad_const _ u) (isGrad_quad R (isJac_id u))
    · simpa [quadTracking] using isGrad_add (isGrad_const _ u) (isGrad_quad R (isJac_sub (ur t) u))
  hessX x u t := isJac_quadGrad Q (isJac_sub (xr t) x)
  hessU x u t := by
    cases tc
    · exact isJac_quadGrad R (isJac_id u)
    · exact isJac_quadGrad R (isJac_sub (ur t) u)
  crossX x u t := isJac_const _ _
  crossU x u t := by
    simpa [quadTracking] using isJac_const ((x - xr t) ᵥ* Qᵀ + (x - xr t) ᵥ* Q) u

theorem hasDerivAt_sabs {α : ℝ} (h : α ≠ 0) (r e : ℝ) :
    HasDerivAt (fun y => √((y - r) ^ 2 + α ^ 2)) ((e - r) * (√((e - r) ^ 2 + α ^ 2))⁻¹) e := by
  have hpos : 0 < (e - r) ^ 2 + α ^ 2 := by positivity
  have h1 : HasDerivAt (fun y : ℝ => (y - r) ^ 2 + α ^ 2) (2 * (e - r)) e := by
    have h0 : HasDerivAt (fun y : ℝ => y - r) 1 e := (hasDerivAt_id e).sub_const r
    have : HasDerivAt (fun y : ℝ => (y - r) ^ 2 + α ^ 2) _ e := (h0.pow 2).add_const (α ^ 2)
    convert this using 1
    simp
  have h2 := h1.sqrt hpos.ne'
  convert h2 using 1
  have := (Real.sqrt_pos.2 hpos).ne'
  field_simp

theorem rpow_neg_three_halves {s : ℝ} (hs : 0 < s) : s ^ (-(3 : ℝ) / 2) = (s * √s)⁻¹ := by
  have : (-(3 : ℝ) / 2) = -(1 + 1 / 2) := by norm_num
  rw [this, Real.rpow_neg hs.le, Real.rpow_add hs, Real.rpow_one, ← Real.sqrt_eq_rpow]

theorem hasDerivAt_sabs' {α : ℝ} (h : α ≠ 0) (r e : ℝ) :
    HasDerivAt (fun y => (y - r) * (√((y - r) ^ 2 + α ^ 2))⁻¹)
      (α ^ 2 * (α ^ 2 + (e - r) ^ 2) ^ (-(3 : ℝ) / 2)) e := by
  have hpos : 0 < (e - r) ^ 2 + α ^ 2 := by positivity
  have hs := Real.sqrt_pos.2 hpos
  have h0 : HasDerivAt (fun y : ℝ => y - r) 1 e := (hasDerivAt_id e).sub_const r
  have h1 := h0.mul ((hasDerivAt_sabs h r e).inv hs.ne')
  refine HasDerivAt.congr_deriv h1 ?_
  dsimp only [Pi.inv_apply]
  rw [add_comm (α ^ 2), rpow_neg_three_halves hpos]
  have hq : √((e - r) ^ 2 + α ^ 2) * √((e - r) ^ 2 + α ^ 2) = (e - r) ^ 2 + α ^ 2 :=
    Real.mul_self_sqrt hpos.le
  generalize √((e - r) ^ 2 + α ^ 2) = q at *
  rw [← hq]
  field_simp
  linear_combination hq

theorem isGrad_sum (a : Fin n → ℝ) (φ φ' : Fin n → ℝ → ℝ) (x : Fin n → ℝ)
    (h : ∀ i, HasDerivAt (φ i) (φ' i (x i)) (x i)) :
    IsGrad (fun y => a ⬝ᵥ fun i => φ i (y i)) (fun i => a i * φ' i (x i)) x := by
  have hp (i : Fin n) : HasFDerivAt (fun y : Fin n → ℝ => y i) (ContinuousLinearMap.proj (R := ℝ) (φ := fun _ => ℝ) i) x :=
    (ContinuousLinearMap.proj (R := ℝ) (φ := fun _ : Fin n => ℝ) i).hasFDerivAt
  have := HasFDerivAt.fun_sum (u := Finset.univ) fun (i : Fin n) _ =>
    ((h i).comp_hasFDerivAt x (hp i)).const_mul (a i)
  refine this.congr_fderiv ?_
  ext v
  simp [dotProduct, mul_assoc]

theorem isJac_diag (a : Fin n → ℝ) (φ φ' : Fin n → ℝ → ℝ) (x : Fin n → ℝ)
    (h : ∀ i, HasDerivAt (φ i) (φ' i (x i)) (x i)) :
    IsJac (fun y i => a i * φ i (y i)) (diagonal fun i => a i * φ' i (x i)) x := by
  have hp (i : Fin n) : HasFDerivAt (fun y : Fin n → ℝ => y i) (ContinuousLinearMap.proj (R := ℝ) (φ := fun _ => ℝ) i) x :=
    (ContinuousLinearMap.proj (R := ℝ) (φ := fun _ : Fin n => ℝ) i).hasFDerivAt
  refine hasFDerivAt_pi'.2 fun i => ?_
  refine (((h i).comp_hasFDerivAt x (hp i)).const_mul (a i)).congr_fderiv ?_
  ext v
  simp [mulVec_diagonal, mul_assoc]

theorem exact_smoothAbs (a : Fin n → ℝ) (xr : Fin n → ℝ) (b : Fin m → ℝ) (ur : Fin m → ℝ) {α : ℝ}
    (h : α ≠ 0) : Exact (smoothAbs a xr b ur α) where
  gradX x u t := by
    have := isGrad_sum a (fun i y => √((y - xr i) ^ 2 + α ^ 2))
      (fun i y => (y - xr i) * (√((y - xr i) ^ 2 + α ^ 2))⁻¹) x (fun i => hasDerivAt_sabs h _ _)
    simpa [smoothAbs] using isGrad_add this (isGrad_const _ x)
  gradU x u t := by
    have := isGrad_sum b (fun i y => √((y - ur i) ^ 2 + α ^ 2))
      (fun i y => (y - ur i) * (√((y - ur i) ^ 2 + α ^ 2))⁻¹) u (fun i => hasDerivAt_sabs h _ _)
    simpa [smoothAbs] using isGrad_add (isGrad_const _ u) this
  hessX x u t :=
    isJac_diag a (fun i y => (y - xr i) * (√((y - xr i) ^ 2 + α ^ 2))⁻¹)
      (fun i y => α ^ 2 * (α ^ 2 + (y - xr i) ^ 2) ^ (-(3 : ℝ) / 2)) x (fun i => hasDerivAt_sabs' h _ _)
  hessU x u t :=
    isJac_diag b (fun i y => (y - ur i) * (√((y - ur i) ^ 2 + α ^ 2))⁻¹)
      (fun i y => α ^ 2 * (α ^ 2 + (y - ur i) ^ 2) ^ (-(3 : ℝ) / 2)) u (fun i => hasDerivAt_sabs' h _ _)
  crossX x u t := isJac_const _ _
  crossU x u t := by
    simpa [smoothAbs] using isJac_const ((smoothAbs a xr b ur α).gradX x u t) u

/-- C36. All derivative methods of every analytical term are the exact derivatives of its value, for
arbitrary (also non-symmetric) weights, references, points and times. -/
theorem C36_terms (Q : Matrix (Fin n) (Fin n) ℝ) (R : Matrix (Fin m) (Fin m) ℝ) (P : Matrix (Fin m) (Fin n) ℝ)
    (a xr : Fin n → ℝ) (b ur : Fin m → ℝ) (c : ℝ) (xt : ℝ → Fin n → ℝ) (ut : ℝ → Fin m → ℝ) (tc : Bool) :
    Exact (linear a b c) ∧ Exact (mixed P xr ur) ∧ Exact (quadratic Q R xr ur) ∧
      Exact (quadMult Q R xr ur) ∧ Exact (quadTracking Q R xt ut tc) :=
  ⟨exact_linear a b c, exact_mixed P xr ur, exact_quadratic Q R xr ur, exact_quadMult Q R xr ur,
    exact_quadTracking Q R xt ut tc⟩

/-- C36 for the smoothed absolute value, whose smoothing parameter must not be zero. -/
theorem C36_smooth_abs (a xr : Fin n → ℝ) (b ur : Fin m → ℝ) {α : ℝ} (h : α ≠ 0) :
    Exact (smoothAbs a xr b ur α) := exact_smoothAbs a xr b ur h

example : ∃ α : ℝ, α ≠ 0 ∧ Exact (smoothAbs (n := 2) (m := 1) 1 0 1 0 α) :=
  ⟨1, one_ne_zero, exact_smoothAbs _ _ _ _ one_ne_zero⟩

/-! ### C37 -/

theorem foldl_if_add {V : Type} [AddCommMonoid V] {α : Type} (l : List α) (p : α → Bool) (g : α → V) (v : V) :
    l.foldl (fun y τ => if p τ then y + g τ else y) v = v + ((l.filter p).map g).sum := by
  induction l generalizing v with
  | nil => simp
  | cons a l ih =>
    by_cases h : p a
    · simp [ih, h, add_assoc]
    · simp [ih, h]

theorem foldl_add {V : Type} [AddCommMonoid V] {α : Type} (l : List α) (g : α → V) (v : V) :
    l.foldl (fun y τ => y + g τ) v = v + (l.map g).sum := by
  induction l generalizing v with
  | nil => simp
  | cons a l ih => simp [ih, add_assoc]

theorem sumActive_eq {V : Type} [AddCommMonoid V] [SMul ℝ V] (c : CF n m) (g : Term n m → V) :
    c.sumActive g = ((c.inter.filter fun τ => τ.active c.t).map fun τ => τ.activation c.t • g τ).sum := by
  rw [CF.sumActive, foldl_if_add, zero_add]

/-- Intermediate terms added during a history, in order. -/
def addedInter (ops : List (Op n m)) : List (Term n m) :=
  ops.filterMap fun | .addInter τ => some τ | _ => none

/-- Final terms added during a history, in order. -/
def addedFin (ops : List (Op n m)) : List (Term n m) :=
  ops.filterMap fun | .addFin τ => some τ | _ => none

theorem run_lists (ops : List (Op n m)) :
    (CF.run ops).inter = addedInter ops ∧ (CF.run ops).fin = addedFin ops := by
  have gen : ∀ (ops : List (Op n m)) (c : CF n m),
      (ops.foldl CF.step c).inter = c.inter ++ addedInter ops ∧
        (ops.foldl CF.step c).fin = c.fin ++ addedFin ops := by
    intro ops
    induction ops with
    | nil => intro c; simp [addedInter, addedFin]
    | cons o ops ih =>
      intro c
      have := ih (c.step o)
      cases o <;>
        simpa [addedInter, addedFin, CF.step, CF.addInter, CF.addFin, CF.set, CF.shiftTime] using this
  simpa [CF.run, CF.new] using gen ops CF.new

/-! ### C100 -/

theorem run_append (c : CF n m) (ops : List (Op n m)) :
    (∃ l, (ops.foldl CF.step c).inter = c.inter ++ l) ∧ ∃ l, (ops.foldl CF.step c).fin = c.fin ++ l := by
  induction ops generalizing c with
  | nil => exact ⟨⟨[], by simp⟩, ⟨[], by simp⟩⟩
  | cons o ops ih =>
    obtain ⟨⟨l, hl⟩, ⟨l', hl'⟩⟩ := ih (c.step o)
    rw [List.foldl_cons, hl, hl']
    cases o <;> simp [CF.step, CF.addInter, CF.addFin, CF.set, CF.shiftTime]

/-- C100: the identifier returned when a term is added yields that term after any further calls, and terms of
the same kind added at different points have different identifiers. -/
theorem C100_identifier (before after : List (Op n m)) (τ : Term n m) :
    (CF.run (before ++ .addInter τ :: after)).interById ((CF.run before).addInter τ).2 = .ok τ ∧
    (CF.run (before ++ .addFin τ :: after)).finById ((CF.run before).addFin τ).2 = .ok τ ∧
    (Op.addInter τ ∈ before → ∀ σ, ∃ i < ((CF.run before).addInter σ).2, (CF.run before).interById i = .ok τ) ∧
    (Op.addFin τ ∈ before → ∀ σ, ∃ i < ((CF.run before).addFin σ).2, (CF.run before).finById i = .ok τ) := by
  refine ⟨?_, ?_, ?_, ?_⟩
  · obtain ⟨l, hl⟩ := (run_append ((CF.run before).addInter τ).1 after).1
    have : (CF.run (before ++ .addInter τ :: after)).inter = (CF.run before).inter ++ [τ] ++ l := by
      rw [CF.run, List.foldl_append, List.foldl_cons]
      exact hl
    rw [CF.interById, this]
    simp [CF.addInter, idx]
  · obtain ⟨l, hl⟩ := (run_append ((CF.run before).addFin τ).1 after).2
    have : (CF.run (before ++ .addFin τ :: after)).fin = (CF.run before).fin ++ [τ] ++ l := by
      rw [CF.run, List.foldl_append, List.foldl_cons]
      exact hl
    rw [CF.finById, this]
    simp [CF.addFin, idx]
  · intro h σ
    have hm : τ ∈ (CF.run before).inter := by
      rw [(run_lists before).1, addedInter, List.mem_filterMap]
      exact ⟨_, h, rfl⟩
    obtain ⟨i, hi, he⟩ := List.getElem_of_mem hm
    exact ⟨i, hi, by simp [CF.interById, idx, hi, he]⟩
  · intro h σ
    have hm : τ ∈ (CF.run before).fin := by
      rw [(run_lists before).2, addedFin, List.mem_filterMap]
      exact ⟨_, h, rfl⟩
    obtain ⟨i, hi, he⟩ := List.getElem_of_mem hm
    exact ⟨i, hi, by simp [CF.finById, idx, hi, he]⟩

/-- C100: looking a term up by name yields the first term of that name, and an exception exactly if there is
none. -/
theorem C100_name (name : Term n m → String) (l : List (Term n m)) (s : String) :
    (byName name l s = .exc ↔ ∀ τ ∈ l, name τ ≠ s) ∧
    (∀ τ, byName name l s = .ok τ ↔ ∃ l₁ l₂, l = l₁ ++ τ :: l₂ ∧ name τ = s ∧ ∀ σ ∈ l₁, name σ ≠ s) := by
  induction l with
  | nil => simp [byName]
  | cons a l ih =>
    by_cases h : name a = s
    · refine ⟨by simp [byName, h], fun τ => ?_⟩
      simp only [byName, h, beq_self_eq_true, if_true, Res.ok.injEq]
      constructor
      · rintro rfl
        exact ⟨[], l, rfl, h, by simp⟩
      · rintro ⟨l₁, l₂, e, hn, hl⟩
        rcases l₁ with _ | ⟨b, l₁⟩
        · exact (List.cons.inj e).1
        · exact absurd ((List.cons.inj e).1 ▸ h) (hl b (by simp))
    · have hb : byName name (a :: l) s = byName name l s := by simp [byName, h]
      rw [hb]
      refine ⟨by rw [ih.1]; simp [h], fun τ => ?_⟩
      rw [ih.2]
      constructor
      · rintro ⟨l₁, l₂, e, hn, hl⟩
        exact ⟨a :: l₁, l₂, by rw [e]; rfl, hn, by simpa [h] using hl⟩
      · rintro ⟨l₁, l₂, e, hn, hl⟩
        rcases l₁ with _ | ⟨b, l₁⟩
        · exact absurd ((List.cons.inj e).1 ▸ hn) h
        · exact ⟨l₁, l₂, (List.cons.inj e).2, hn, fun σ hσ => hl σ (by simp [hσ])⟩

/-- Two terms, the second one looked up after a final term and a new operating point. -/
example (τ σ ρ : Term 1 1) :
    (CF.run [.addInter τ, .addInter σ, .addFin ρ, .set 1 0 2]).interById 1 = .ok σ :=
  (C100_identifier [.addInter τ] [.addFin ρ, .set 1 0 2] σ).1

/-- The weight the documentation gives a term at time `t`: its activation while active, else nothing. -/
noncomputable def weight (τ : Term n m) (t : ℝ) : ℝ := if τ.active t then τ.activation t else 0

/-- The cost a user expects for a list of terms. -/
noncomputable def expectedCost (l : List (Term n m)) (x : Fin n → ℝ) (u : Fin m → ℝ) (t : ℝ) : ℝ :=
  (l.map fun τ => weight τ t * τ.value x u t).sum

theorem filter_map_sum {V : Type} [AddCommMonoid V] [Module ℝ V] (l : List (Term n m)) (t : ℝ) (g : Term n m → V) :
    ((l.filter fun τ => τ.active t).map fun τ => τ.activation t • g τ).sum
      = (l.map fun τ => weight τ t • g τ).sum := by
  induction l with
  | nil => simp
  | cons a l ih =>
    by_cases h : a.active t
    · simp [h, ih, weight]
    · simp [h, ih, weight]

theorem isGrad_list_sum {α : Type} (l : List α) (w : α → ℝ) (f : α → (Fin n → ℝ) → ℝ)
    (g : α → Fin n → ℝ) (x : Fin n → ℝ) (h : ∀ τ ∈ l, IsGrad (f τ) (g τ) x) :
    IsGrad (fun y => (l.map fun τ => w τ * f τ y).sum) (l.map fun τ => w τ • g τ).sum x := by
  induction l with
  | nil => simpa using isGrad_const 0 x
  | cons a l ih =>
    simp only [List.map_cons, List.sum_cons]
    exact isGrad_add (isGrad_smul _ (h a (by simp))) (ih fun τ hτ => h τ (by simp [hτ]))

theorem isJac_list_sum {α : Type} (l : List α) (w : α → ℝ) (f : α → (Fin k → ℝ) → (Fin n → ℝ))
    (g : α → Matrix (Fin n) (Fin k) ℝ) (x : Fin k → ℝ) (h : ∀ τ ∈ l, IsJac (f τ) (g τ) x) :
    IsJac (fun y => (l.map fun τ => w τ • f τ y).sum) (l.map fun τ => w τ • g τ).sum x := by
  induction l with
  | nil => simpa using isJac_const 0 x
  | cons a l ih =>
    simp only [List.map_cons, List.sum_cons]
    exact isJac_add (isJac_smul _ (h a (by simp))) (ih fun τ hτ => h τ (by simp [hτ]))

/-- C37, the part that holds for every activation: after any history of calls the gradient, Hessian and
mixed derivative methods are the derivatives of the documented cost
`Σ activation(t) · value` at the point and (shifted) time last set. -/
theorem C37_derivatives (ops : List (Op n m)) (hex : ∀ τ ∈ addedInter ops, Exact τ) :
    let c := CF.run ops
    IsGrad (fun y => expectedCost (addedInter ops) y c.u c.t) c.stateDerivativeIntermediate c.x ∧
    IsGrad (fun v => expectedCost (addedInter ops) c.x v c.t) c.controlDerivativeIntermediate c.u ∧
    IsJac (fun y => CF.stateDerivativeIntermediate { c with x := y }) c.stateSecondDerivativeIntermediate c.x ∧
    IsJac (fun v => CF.controlDerivativeIntermediate { c with u := v }) c.controlSecondDerivativeIntermediate c.u ∧
    IsJac (fun y => CF.controlDerivativeIntermediate { c with x := y }) c.stateControlDerivativeIntermediate c.x := by
  intro c
  have hl : c.inter = addedInter ops := (run_lists ops).1
  simp only [CF.stateDerivativeIntermediate, CF.stateSecondDerivativeIntermediate,
    CF.controlDerivativeIntermediate, CF.controlSecondDerivativeIntermediate,
    CF.stateControlDerivativeIntermediate, sumActive_eq, filter_map_sum, hl, expectedCost]
  refine ⟨?_, ?_, ?_, ?_, ?_⟩
  · exact isGrad_list_sum _ (fun τ : Term n m => weight τ c.t) (fun τ y => τ.value y c.u c.t) _ _
      fun τ h => (hex τ h).gradX _ _ _
  · exact isGrad_list_sum _ (fun τ : Term n m => weight τ c.t) (fun τ y => τ.value c.x y c.t) _ _
      fun τ h => (hex τ h).gradU _ _ _
  · exact isJac_list_sum _ (fun τ : Term n m => weight τ c.t) (fun τ y => τ.gradX y c.u c.t) _ _
      fun τ h => (hex τ h).hessX _ _ _
  · exact isJac_list_sum _ (fun τ : Term n m => weight τ c.t) (fun τ y => τ.gradU c.x y c.t) _ _
      fun τ h => (hex τ h).hessU _ _ _
  · exact isJac_list_sum _ (fun τ : Term n m => weight τ c.t) (fun τ y => τ.gradU y c.u c.t) _ _
      fun τ h => (hex τ h).crossX _ _ _

/-- The point and time in force after a history: last `set` call, with the time shift in force then. -/
def pointAfter : List (Op n m) → (Fin n → ℝ) × (Fin m → ℝ) × ℝ × ℝ → (Fin n → ℝ) × (Fin m → ℝ) × ℝ × ℝ
  | [], p => p
  | .set x u t :: ops, (_, _, _, s) => pointAfter ops (x, u, t + s, s)
  | .shift s :: ops, (x, u, t, _) => pointAfter ops (x, u, t, s)
  | _ :: ops, p => pointAfter ops p

/-- C37: the point, time and shift the methods work with are those of the last calls. -/
theorem C37_point (ops : List (Op n m)) :
    ((CF.run ops).x, (CF.run ops).u, (CF.run ops).t, (CF.run ops).shift) = pointAfter ops (0, 0, 0, 0) := by
  have gen : ∀ (ops : List (Op n m)) (c : CF n m),
      ((ops.foldl CF.step c).x, (ops.foldl CF.step c).u, (ops.foldl CF.step c).t,
        (ops.foldl CF.step c).shift) = pointAfter ops (c.x, c.u, c.t, c.shift) := by
    intro ops
    induction ops with
    | nil => intro c; rfl
    | cons o ops ih =>
      intro c
      have := ih (c.step o)
      cases o <;>
        simpa [pointAfter, CF.step, CF.addInter, CF.addFin, CF.set, CF.shiftTime] using this
  exact gen ops CF.new

theorem evaluate_eq (c : CF n m) :
    c.evaluateIntermediate
      = (c.inter.map fun τ => weight τ c.t * (τ.activation c.t * τ.value c.x c.u c.t)).sum := by
  rw [CF.evaluateIntermediate, sumActive_eq, filter_map_sum]
  simp [Term.eval]

/-- C37, values: when every active term has activation 0 or 1 (the default and on/off activations) the
reported cost is the documented one, so the reported gradient is the gradient of the reported cost. -/
theorem C37_value_partial (ops : List (Op n m)) (hex : ∀ τ ∈ addedInter ops, Exact τ)
    (h01 : ∀ τ ∈ addedInter ops, τ.active (CF.run ops).t = true →
      τ.activation (CF.run ops).t = 0 ∨ τ.activation (CF.run ops).t = 1) :
    let c := CF.run ops
    c.evaluateIntermediate = expectedCost (addedInter ops) c.x c.u c.t ∧
    (∀ x u, CF.evaluateIntermediate { c with x := x, u := u } = expectedCost (addedInter ops) x u c.t) ∧
    IsGrad (fun y => CF.evaluateIntermediate { c with x := y }) c.stateDerivativeIntermediate c.x ∧
    IsGrad (fun v => CF.evaluateIntermediate { c with u := v }) c.controlDerivativeIntermediate c.u := by
  intro c
  have hl : c.inter = addedInter ops := (run_lists ops).1
  have key : ∀ x u, CF.evaluateIntermediate { c with x := x, u := u }
      = expectedCost (addedInter ops) x u c.t := by
    intro x u
    rw [evaluate_eq, expectedCost]
    dsimp only
    rw [hl]
    congr 1
    refine List.map_congr_left fun τ hτ => ?_
    by_cases ha : τ.active c.t = true
    · rcases h01 τ hτ ha with h | h
      · have h' : τ.activation c.t = 0 := h
        simp [weight, ha, h']
      · have h' : τ.activation c.t = 1 := h
        simp [weight, ha, h']
    · simp [weight, ha]
  have hd := C37_derivatives ops hex
  refine ⟨key c.x c.u, key, ?_, ?_⟩
  · have e : (fun y => CF.evaluateIntermediate { c with x := y })
        = fun y => expectedCost (addedInter ops) y c.u c.t := by funext y; exact key y c.u
    rw [e]; exact hd.1
  · have e : (fun v => CF.evaluateIntermediate { c with u := v })
        = fun v => expectedCost (addedInter ops) c.x v c.t := by funext v; exact key c.x v
    rw [e]; exact hd.2.1

/-- A history with two exact terms, a shift and a point, meeting the hypotheses of `C37_value_partial`. -/
example : ∃ ops : List (Op 2 1), (addedInter ops).length = 2 ∧ (∀ τ ∈ addedInter ops, Exact τ) ∧
    (∀ τ ∈ addedInter ops, τ.active (CF.run ops).t = true →
      τ.activation (CF.run ops).t = 0 ∨ τ.activation (CF.run ops).t = 1) := by
  refine ⟨[.addInter (quadratic 1 1 0 0), .addInter (linear 1 1 0), .shift 1, .set 1 1 2], rfl, ?_, ?_⟩
  · intro τ h
    simp only [addedInter, List.filterMap_cons, List.filterMap_nil, List.mem_cons, List.not_mem_nil, or_false] at h
    rcases h with rfl | rfl
    · exact exact_quadratic _ _ _ _
    · exact exact_linear _ _ _
  · intro τ h
    simp only [addedInter, List.filterMap_cons, List.filterMap_nil, List.mem_cons, List.not_mem_nil, or_false] at h
    rcases h with rfl | rfl <;> simp [quadratic, linear]

/-- C37 is violated by every fractional activation: for a cost function with one active term whose
activation value `a` is neither 0 nor 1, the reported cost is weighted by `a²`, and the reported gradient is
not the gradient of the reported cost wherever the term's gradient does not vanish. -/
theorem C37_violated (τ : Term n m) (hex : Exact τ) (x : Fin n → ℝ) (u : Fin m → ℝ) (t : ℝ)
    (hact : τ.active t = true) (h0 : τ.activation t ≠ 0) (h1 : τ.activation t ≠ 1)
    (hg : τ.gradX x u t ≠ 0) :
    let c := CF.run [.addInter τ, .set x u t]
    c.evaluateIntermediate = τ.activation t * τ.activation t * τ.value x u t ∧
    ¬ IsGrad (fun y => CF.evaluateIntermediate { c with x := y }) c.stateDerivativeIntermediate c.x := by
  intro c
  have ht : c.t = t := by simp [c, CF.run, CF.step, CF.addInter, CF.set, CF.new]
  have hi : c.inter = [τ] := by simp [c, CF.run, CF.step, CF.addInter, CF.set, CF.new]
  have hx : c.x = x := by simp [c, CF.run, CF.step, CF.set]
  have hu : c.u = u := by simp [c, CF.run, CF.step, CF.set]
  have hv : ∀ y, CF.evaluateIntermediate { c with x := y }
      = (τ.activation t * τ.activation t) * τ.value y u t := by
    intro y
    rw [evaluate_eq]
    dsimp only
    rw [hi, ht, hu]
    simp [weight, hact, mul_assoc]
  constructor
  · have := hv c.x
    rw [hx] at this
    convert this using 2
    rw [← hx]
  · intro hbad
    simp only [hv, hx] at hbad
    have hgood := isGrad_smul (τ.activation t * τ.activation t) (hex.gradX x u t)
    have e := isGrad_unique hbad hgood
    have hd : c.stateDerivativeIntermediate = τ.activation t • τ.gradX x u t := by
      rw [CF.stateDerivativeIntermediate, sumActive_eq, filter_map_sum, hi, ht, hx, hu]
      simp [weight, hact]
    rw [hd, mul_smul] at e
    have e2 := smul_right_injective _ h0 e
    apply hg
    have : (1 - τ.activation t) • τ.gradX x u t = 0 := by
      rw [sub_smul, one_smul, sub_eq_zero]
      exact e2
    rcases smul_eq_zero.1 this with h | h
    · exact absurd (by linarith) h1
    · exact h

/-- A quadratic term under a linear activation ramp, halfway up the ramp: the hypotheses of `C37_violated`
hold. -/
example : ∃ (τ : Term 1 1) (x : Fin 1 → ℝ) (u : Fin 1 → ℝ) (t : ℝ), Exact τ ∧ τ.active t = true ∧
    τ.activation t ≠ 0 ∧ τ.activation t ≠ 1 ∧ τ.gradX x u t ≠ 0 := by
  let r : Activation.Linear ℝ := ⟨0, 1, 1, 0⟩
  refine ⟨{ quadratic 1 1 0 0 with active := fun t => r.isActive t, activation := r.compute },
    1, 0, 1 / 2, ?_, ?_, ?_, ?_, ?_⟩
  · obtain ⟨a, b, c, d, e, f⟩ := exact_quadratic (n := 1) (m := 1) 1 1 0 0
    exact ⟨a, b, c, d, e, f⟩
  · simp [r, Activation.Linear.isActive]; norm_num
  · simp [r, Activation.Linear.compute]
  · simp [r, Activation.Linear.compute]
  · intro h
    have := congrFun h 0
    simp [quadratic] at this

/-- C37, terminal cost: the terminal methods ignore activations consistently; the terminal gradient and
Hessian are the derivatives of the terminal cost, which is the sum of all final terms. -/
theorem C37_terminal (ops : List (Op n m)) (hex : ∀ τ ∈ addedFin ops, Exact τ) :
    let c := CF.run ops
    c.evaluateTerminal = ((addedFin ops).map fun τ => τ.value c.x c.u c.t).sum ∧
    IsGrad (fun y => CF.evaluateTerminal { c with x := y }) c.stateDerivativeTerminal c.x ∧
    IsJac (fun y => CF.stateDerivativeTerminal { c with x := y }) c.stateSecondDerivativeTerminal c.x := by
  intro c
  have hl : c.fin = addedFin ops := (run_lists ops).2
  simp only [CF.evaluateTerminal, CF.stateDerivativeTerminal, CF.stateSecondDerivativeTerminal, foldl_add,
    zero_add, hl]
  refine ⟨trivial, ?_, ?_⟩
  · have := isGrad_list_sum (addedFin ops) (fun _ => 1) (fun τ y => τ.value y c.u c.t)
      (fun τ => τ.gradX c.x c.u c.t) c.x (fun τ h => (hex τ h).gradX _ _ _)
    simpa using this
  · have := isJac_list_sum (addedFin ops) (fun _ => 1) (fun τ y => τ.gradX y c.u c.t)
      (fun τ => τ.hessX c.x c.u c.t) c.x (fun τ h => (hex τ h).hessX _ _ _)
    simpa using this

example : ∃ ops : List (Op 2 1), (∀ τ ∈ addedFin ops, Exact τ) ∧ (addedFin ops).length = 1 := by
  refine ⟨[.addFin (quadratic 1 1 0 0)], ?_, rfl⟩
  intro τ h
  simp only [addedFin, List.filterMap_cons, List.filterMap_nil, List.mem_cons, List.not_mem_nil, or_false] at h
  subst h
  exact exact_quadratic _ _ _ _

/-! ### C76: numerical differentiation of a cost function -/

theorem numDiffStep_fields (eps : ℝ) (x : Fin n → ℝ) (u : Fin m → ℝ) (t : ℝ) (s : CF n m × (Fin n → ℝ))
    (i : Fin n) :
    (CF.numDiffStep eps x u t s i).1.inter = s.1.inter ∧ (CF.numDiffStep eps x u t s i).1.shift = s.1.shift := by
  simp [CF.numDiffStep, CF.set]

theorem evaluate_set (c c' : CF n m) (hi : c.inter = c'.inter) (hs : c.shift = c'.shift) (x : Fin n → ℝ)
    (u : Fin m → ℝ) (t : ℝ) : (c.set x u t).evaluateIntermediate = (c'.set x u t).evaluateIntermediate := by
  simp [evaluate_eq, CF.set, hi, hs]

theorem numDiff_fold (eps : ℝ) (x : Fin n → ℝ) (u : Fin m → ℝ) (t : ℝ) (l : List (Fin n)) (hnd : l.Nodup)
    (c : CF n m) (g : Fin n → ℝ) :
    let r := l.foldl (CF.numDiffStep eps x u t) (c, g)
    (∀ i, r.2 i = if i ∈ l then
      ((c.set (Function.update x i (x i + eps * max |x i| 1)) u t).evaluateIntermediate
        - (c.set (Function.update x i (x i - eps * max |x i| 1)) u t).evaluateIntermediate)
        / (2 * (eps * max |x i| 1)) else g i) := by
  induction l generalizing c g with
  | nil => simp
  | cons a l ih =>
    intro r i
    have hnd' := List.nodup_cons.1 hnd
    have hr : r = l.foldl (CF.numDiffStep eps x u t)
        ((CF.numDiffStep eps x u t (c, g) a).1, (CF.numDiffStep eps x u t (c, g) a).2) := rfl
    rw [hr, ih hnd'.2]
    obtain ⟨hi, hs⟩ := numDiffStep_fields eps x u t (c, g) a
    by_cases hil : i ∈ l
    · simp only [hil, if_true, List.mem_cons, or_true]
      rw [evaluate_set _ c hi hs, evaluate_set _ c hi hs]
    · by_cases hia : i = a
      · subst hia
        simp only [hil, if_false, List.mem_cons, true_or, if_true, CF.numDiffStep, Function.update_self]
        rw [evaluate_set (c.set _ u t) c rfl rfl]
        congr 1
        ring
      · simp [hil, hia, CF.numDiffStep]

/-- C76, values: without a time shift every entry of the numerical gradient is the central difference
quotient of the reported cost at the current point and time. -/
theorem C76_quotients_partial (eps : ℝ) (c : CF n m) (hs : c.shift = 0) (i : Fin n) :
    (c.stateDerivativeNumDiff eps).2 i =
      (CF.evaluateIntermediate { c with x := Function.update c.x i (c.x i + eps * max |c.x i| 1) }
        - CF.evaluateIntermediate { c with x := Function.update c.x i (c.x i - eps * max |c.x i| 1) })
        / (2 * (eps * max |c.x i| 1)) := by
  have := numDiff_fold eps c.x c.u c.t (List.finRange n) (List.nodup_finRange n) c 0 i
  simp only [List.mem_finRange, if_true] at this
  rw [CF.stateDerivativeNumDiff, this]
  simp [CF.set, hs]

/-- C76, violated: calling the numerical gradient changes the object. For every cost function with at least
one state and every positive step, the current state afterwards differs from the one before (its last
component is perturbed). -/
theorem C76_state_violated (eps : ℝ) (he : 0 < eps) (c : CF (n + 1) m) :
    (c.stateDerivativeNumDiff eps).1.x
      = Function.update c.x (Fin.last n) (c.x (Fin.last n) - eps * max |c.x (Fin.last n)| 1) ∧
    (c.stateDerivativeNumDiff eps).1.x ≠ c.x ∧
    (c.stateDerivativeNumDiff eps).1.t = c.t + c.shift := by
  have hx : (c.stateDerivativeNumDiff eps).1.x
      = Function.update c.x (Fin.last n) (c.x (Fin.last n) - eps * max |c.x (Fin.last n)| 1) := by
    rw [CF.stateDerivativeNumDiff, List.finRange_succ_last, List.foldl_append]
    simp [CF.numDiffStep, CF.set]
  refine ⟨hx, ?_, ?_⟩
  · rw [hx]
    intro h
    have := congrFun h (Fin.last n)
    simp at this
    have hp : (0 : ℝ) < max |c.x (Fin.last n)| 1 := lt_max_of_lt_right one_pos
    rcases this with h | h
    · exact he.ne' h
    · exact hp.ne' h
  · have hshift : ∀ (l : List (Fin (n + 1))) (s : CF (n + 1) m × (Fin (n + 1) → ℝ)),
        (l.foldl (CF.numDiffStep eps c.x c.u c.t) s).1.shift = s.1.shift := by
      intro l
      induction l with
      | nil => intro s; rfl
      | cons a l ih => intro s; rw [List.foldl_cons, ih, (numDiffStep_fields eps c.x c.u c.t s a).2]
    rw [CF.stateDerivativeNumDiff, List.finRange_succ_last, List.foldl_append]
    simp [CF.numDiffStep, CF.set, hshift]

/-- C76, violated also in value: with a time shift the numerical gradient is taken at a time shifted
twice, so for a time-varying cost it misses the reported gradient altogether. -/
theorem C76_shift_violated :
    ∃ (ops : List (Op 1 1)), ∀ eps : ℝ, 0 < eps →
      ((CF.run ops).stateDerivativeNumDiff eps).2 = 0 ∧ (CF.run ops).stateDerivativeIntermediate = 1 ∧
      IsGrad (fun y => CF.evaluateIntermediate { CF.run ops with x := y })
        (CF.run ops).stateDerivativeIntermediate (CF.run ops).x := by
  let τ : Term 1 1 := { linear 1 0 0 with active := fun t => decide (t ≤ 1) }
  have hτ : Exact τ := by
    obtain ⟨a, b, c, d, e, f⟩ := exact_linear (n := 1) (m := 1) 1 0 0
    exact ⟨a, b, c, d, e, f⟩
  let ops : List (Op 1 1) := [.addInter τ, .shift 1, .set 0 0 0]
  have hadd : addedInter ops = [τ] := rfl
  refine ⟨ops, fun eps he => ⟨?_, ?_, ?_⟩⟩
  · funext i
    have := numDiff_fold eps (CF.run ops).x (CF.run ops).u (CF.run ops).t (List.finRange 1)
      (List.nodup_finRange 1) (CF.run ops) 0 i
    simp only [List.mem_finRange, if_true] at this
    rw [CF.stateDerivativeNumDiff, this]
    simp [evaluate_eq, CF.set, ops, CF.run, CF.step, CF.addInter, CF.new, CF.shiftTime, weight, τ]
    norm_num
  · rw [CF.stateDerivativeIntermediate, sumActive_eq]
    simp [CF.set, ops, CF.run, CF.step, CF.addInter, CF.new, CF.shiftTime, τ, linear]
  · refine (C37_value_partial ops ?_ ?_).2.2.1
    · intro σ h
      rw [hadd] at h
      simp only [List.mem_singleton] at h
      subst h; exact hτ
    · intro σ h _
      rw [hadd] at h
      simp only [List.mem_singleton] at h
      subst h; right; rfl

/-! ### C77: copies -/

/-- A point set on a `CostFunctionQuadraticSimple`. -/
theorem C77_simple_partial (c : Simple n m) :
    c.copy.evaluateIntermediate = c.evaluateIntermediate ∧
    c.copy.stateDerivativeIntermediate = c.stateDerivativeIntermediate ∧
    c.copy.controlDerivativeIntermediate = c.controlDerivativeIntermediate ∧
    ∀ x u t, c.copy.set x u t = c.set x u t := by
  simp [Simple.copy, Simple.evaluateIntermediate, Simple.stateDerivativeIntermediate,
    Simple.controlDerivativeIntermediate, Simple.set]

/-- C77, violated: a clone taken after setting the current state does not report the terminal cost of the
original. -/
theorem C77_simple_terminal_violated :
    ∃ (c : Simple 1 1) (x : Fin 1 → ℝ) (u : Fin 1 → ℝ) (t : ℝ),
      (c.set x u t).copy.evaluateTerminal ≠ (c.set x u t).evaluateTerminal := by
  refine ⟨Simple.new 1 1 0 0 0 1, 1, 0, 0, ?_⟩
  simp [Simple.new, Simple.copy, Simple.set, Simple.evaluateTerminal]

/-- C77, violated: cloning a state barrier term forgets its time activation. For every term whose activation
is not the constant default, the clone's differs. -/
theorem C77_barrier_violated (b : BarrierTerm n) (act : ℝ → Bool) (v : ℝ → ℝ) (h : ∃ t, act t = false) :
    ∃ t, (b.setTimeActivation act v).copy.active t ≠ (b.setTimeActivation act v).active t := by
  obtain ⟨t, ht⟩ := h
  exact ⟨t, by simp [BarrierTerm.copy, BarrierTerm.init, BarrierTerm.setTimeActivation, ht]⟩

example : ∃ act : ℝ → Bool, ∃ t, act t = false := ⟨fun _ => false, 0, rfl⟩

/-! ### C78: the simple quadratic cost function -/

theorem isGrad_half_quad (Q : Matrix (Fin n) (Fin n) ℝ) (r x : Fin n → ℝ) :
    IsGrad (fun y => 1 / 2 * ((y - r) ⬝ᵥ (Q *ᵥ (y - r))))
      ((1 / 2 : ℝ) • ((x - r) ᵥ* Qᵀ + (x - r) ᵥ* Q)) x :=
  isGrad_smul _ (isGrad_quad Q (isJac_sub r x))

theorem half_sym (Q : Matrix (Fin n) (Fin n) ℝ) (hQ : Qᵀ = Q) (d : Fin n → ℝ) :
    (1 / 2 : ℝ) • (d ᵥ* Qᵀ + d ᵥ* Q) = Q *ᵥ d := by
  have : d ᵥ* Q = Q *ᵥ d := by rw [← mulVec_transpose, hQ]
  rw [hQ, this, ← two_smul ℝ, smul_smul]; norm_num

/-- C78: with symmetric weights the gradients of the simple quadratic cost are the exact gradients of its
values, at every point set by the user. -/
theorem C78_gradients_partial (c : Simple n m) (x : Fin n → ℝ) (u : Fin m → ℝ) (t : ℝ)
    (hQ : c.Qᵀ = c.Q) (hR : c.Rᵀ = c.R) (hF : c.Qfᵀ = c.Qf) :
    IsGrad (fun y => (c.set y u t).evaluateIntermediate) (c.set x u t).stateDerivativeIntermediate x ∧
    IsGrad (fun v => (c.set x v t).evaluateIntermediate) (c.set x u t).controlDerivativeIntermediate u ∧
    IsGrad (fun y => (c.set y u t).evaluateTerminal) (c.set x u t).stateDerivativeTerminal x ∧
    IsJac (fun y => (c.set y u t).stateDerivativeIntermediate) c.Q x ∧
    IsJac (fun v => (c.set x v t).controlDerivativeIntermediate) c.R u ∧
    IsJac (fun y => (c.set y u t).stateDerivativeTerminal) c.Qf x := by
  refine ⟨?_, ?_, ?_, ?_, ?_, ?_⟩
  · have := isGrad_add (isGrad_half_quad c.Q c.xnom x)
      (isGrad_const (1 / 2 * ((u - c.unom) ⬝ᵥ (c.R *ᵥ (u - c.unom)))) x)
    rw [half_sym _ hQ, add_zero] at this
    exact this
  · have := isGrad_add (isGrad_const (1 / 2 * ((x - c.xnom) ⬝ᵥ (c.Q *ᵥ (x - c.xnom)))) u)
      (isGrad_half_quad c.R c.unom u)
    rw [half_sym _ hR, zero_add] at this
    exact this
  · have := isGrad_half_quad c.Qf c.xfin x
    rw [half_sym _ hF] at this
    exact this
  · simpa [Simple.set, Simple.stateDerivativeIntermediate] using isJac_mulVec c.Q (isJac_sub c.xnom x)
  · simpa [Simple.set, Simple.controlDerivativeIntermediate] using isJac_mulVec c.R (isJac_sub c.unom u)
  · simpa [Simple.set, Simple.stateDerivativeTerminal] using isJac_mulVec c.Qf (isJac_sub c.xfin x)

example : ((Simple.new 1 1 0 0 0 1 : Simple 2 1).Q)ᵀ = (Simple.new 1 1 0 0 0 1 : Simple 2 1).Q := by
  simp [Simple.new]

/-- C78, violated: with a weight that is not symmetric there is a point where the reported gradient is not
the gradient of the reported cost. -/
theorem C78_asymmetric_violated (c : Simple n m) (hQ : c.Qᵀ ≠ c.Q) (u : Fin m → ℝ) (t : ℝ) :
    ∃ x, ¬ IsGrad (fun y => (c.set y u t).evaluateIntermediate) (c.set x u t).stateDerivativeIntermediate x := by
  by_contra hall
  push Not at hall
  apply hQ
  have key : ∀ d : Fin n → ℝ, d ᵥ* c.Q = c.Q *ᵥ d := by
    intro d
    have h1 := hall (d + c.xnom)
    have h2 := isGrad_add (isGrad_half_quad c.Q c.xnom (d + c.xnom))
      (isGrad_const (1 / 2 * ((u - c.unom) ⬝ᵥ (c.R *ᵥ (u - c.unom)))) (d + c.xnom))
    have h3 := isGrad_unique h1 h2
    simp only [Simple.stateDerivativeIntermediate, Simple.set, add_sub_cancel_right, add_zero,
      vecMul_transpose] at h3
    have h4 := congrArg (fun v => (2 : ℝ) • v) h3
    simp only [smul_smul] at h4
    norm_num at h4
    rw [two_smul] at h4
    exact (add_left_cancel h4).symm
  ext i j
  have := congrFun (key (Pi.single i 1)) j
  simp at this
  rw [transpose_apply]
  exact this.symm

example : ∃ c : Simple 2 1, c.Qᵀ ≠ c.Q := by
  refine ⟨Simple.new !![0, 1; 0, 0] 1 0 0 0 1, ?_⟩
  intro h
  have := congrFun (congrFun h 0) 1
  simp [Simple.new] at this

/-- C78, violated: a new reference state is not in force until the point is set again. -/
theorem C78_reference_violated :
    (∀ (c : Simple n m) r, (c.updateReferenceState r).evaluateIntermediate = c.evaluateIntermediate) ∧
    ∃ (c : Simple 1 1) (r x : Fin 1 → ℝ) (u : Fin 1 → ℝ) (t : ℝ),
      ((c.set x u t).updateReferenceState r).evaluateIntermediate
        ≠ ((c.updateReferenceState r).set x u t).evaluateIntermediate := by
  refine ⟨fun _ _ => rfl, Simple.new 1 1 0 0 0 1, 1, 1, 0, 0, ?_⟩
  simp [Simple.new, Simple.updateReferenceState, Simple.set, Simple.evaluateIntermediate]

/-! ### C79: the state barrier term -/

theorem foldlM_ok {α : Type} (l : List α) (f : ℝ → α → Res ℝ) (g : α → ℝ)
    (h : ∀ a ∈ l, ∀ c, f c a = Res.ok (c + g a)) (c : ℝ) :
    l.foldlM f c = Res.ok (c + (l.map g).sum) := by
  induction l generalizing c with
  | nil => simp [Res.pure_eq]
  | cons a l ih =>
    rw [List.foldlM_cons, h a (by simp), Res.ok_bind, ih fun b hb => h b (by simp [hb])]
    simp [add_assoc]

/-- C79: a copy of a barrier term evaluates to the sum of its per-component barriers. -/
theorem C79_copy_partial (phi : ℝ × ℝ × ℝ → ℝ → ℝ) (b : BarrierTerm n) (x : Fin n → ℝ) :
    b.copy.evaluate phi x = Res.ok (∑ i, phi (b.ub i, b.lb i, b.alpha i) (x i)) := by
  rw [BarrierTerm.evaluate, foldlM_ok _ _ (fun i => phi (b.ub i, b.lb i, b.alpha i) (x i)), zero_add]
  · rw [← List.ofFn_eq_map, List.sum_ofFn]
  · intro i _ c
    simp [BarrierTerm.copy, BarrierTerm.init, idx, Res.ok_bind, Res.pure_eq]

/-- C79, violated: a barrier term made from its bounds reads outside its (empty) barrier array at every
state. -/
theorem C79_new_violated (phi : ℝ × ℝ × ℝ → ℝ → ℝ) (ub lb alpha x : Fin (n + 1) → ℝ) :
    (BarrierTerm.new ub lb alpha).evaluate phi x = Res.ub := by
  simp [BarrierTerm.evaluate, List.finRange_succ, List.foldlM_cons, idx, BarrierTerm.new, Res.ub_bind]

end CT.Cost
