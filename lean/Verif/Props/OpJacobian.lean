import Verif.Model.OpJacobian
import Mathlib.LinearAlgebra.Matrix.NonsingularInverse
import Mathlib.LinearAlgebra.Matrix.ToLinearEquiv
import Mathlib.Analysis.Calculus.Deriv.Basic
import Mathlib.Analysis.Calculus.Deriv.Add
import Mathlib.Analysis.Calculus.Deriv.Mul
import Mathlib.Analysis.Calculus.Deriv.Inv
import Mathlib.Analysis.Calculus.Deriv.Pow
import Mathlib.LinearAlgebra.Matrix.Notation
import Mathlib.Data.Fin.VecNotation
import Mathlib.Tactic.NoncommRing

/-!
# Operational-space Jacobians (C110, C111, C112)

C110: the matrix `P()` is the projector onto the null space of the Jacobian.
C111: `dJdagerdt()` and `dPdt()` are documented as time derivatives; they are not.
C112: the answers depend only on the last `updateState`, provided the two inverses are not mixed.
-/

namespace CT.OpJac

open Matrix

variable {m n : Type} [Fintype m] [DecidableEq m] [Fintype n] [DecidableEq n]

/-! ### What the decompositions of Eigen provide -/

theorem Ldlt.inv' {A : Matrix m m ℝ} (F : Ldlt A) : F.Cinv * F.C = 1 :=
  mul_eq_one_comm.1 F.inv

theorem diag_ginv (d : m → ℝ) :
    diagonal d * diagonal (fun i => (d i)⁻¹) * diagonal d = diagonal d := by
  rw [diagonal_mul_diagonal, diagonal_mul_diagonal]
  congr 1
  funext i
  by_cases h : d i = 0
  · simp [h]
  · field_simp

theorem diag_ginv' (d : m → ℝ) :
    diagonal (fun i => (d i)⁻¹) * diagonal d * diagonal (fun i => (d i)⁻¹) =
      diagonal (fun i => (d i)⁻¹) := by
  rw [diagonal_mul_diagonal, diagonal_mul_diagonal]
  congr 1
  funext i
  by_cases h : d i = 0
  · simp [h]
  · field_simp

/-- The LDLT inverse of a symmetric matrix, singular or not, is a symmetric reflexive generalised
inverse. -/
theorem LdltInverse.spec {A G : Matrix m m ℝ} (h : LdltInverse A G) :
    A * G * A = A ∧ G * A * G = G ∧ Gᵀ = G ∧ Aᵀ = A := by
  obtain ⟨⟨C, Ci, d, hinv, rfl⟩, rfl⟩ := h
  have h1 : Ci * C = 1 := mul_eq_one_comm.1 hinv
  have h2 : Cᵀ * Ciᵀ = 1 := by rw [← transpose_mul, h1, transpose_one]
  simp only [Ldlt.solve, Matrix.mul_one]
  refine ⟨?_, ?_, ?_, ?_⟩
  · calc C * diagonal d * Cᵀ * (Ciᵀ * (diagonal (fun i => (d i)⁻¹) * Ci)) * (C * diagonal d * Cᵀ)
        = C * diagonal d * (Cᵀ * Ciᵀ) * diagonal (fun i => (d i)⁻¹) * (Ci * C) *
            diagonal d * Cᵀ := by
          simp only [Matrix.mul_assoc]
      _ = C * (diagonal d * diagonal (fun i => (d i)⁻¹) * diagonal d) * Cᵀ := by
          rw [h1, h2]
          simp only [Matrix.mul_assoc, Matrix.mul_one, Matrix.one_mul]
      _ = _ := by rw [diag_ginv]
  · calc Ciᵀ * (diagonal (fun i => (d i)⁻¹) * Ci) * (C * diagonal d * Cᵀ) *
          (Ciᵀ * (diagonal (fun i => (d i)⁻¹) * Ci))
        = Ciᵀ * diagonal (fun i => (d i)⁻¹) * (Ci * C) * diagonal d *
          (Cᵀ * Ciᵀ) * diagonal (fun i => (d i)⁻¹) * Ci := by
          simp only [Matrix.mul_assoc]
      _ = Ciᵀ * (diagonal (fun i => (d i)⁻¹) * diagonal d * diagonal (fun i => (d i)⁻¹)) * Ci := by
          rw [h1, h2]
          simp only [Matrix.mul_assoc, Matrix.mul_one, Matrix.one_mul]
      _ = _ := by rw [diag_ginv', Matrix.mul_assoc]
  · simp only [transpose_mul, transpose_transpose, diagonal_transpose, Matrix.mul_assoc]
  · simp only [transpose_mul, transpose_transpose, diagonal_transpose, Matrix.mul_assoc]

/-- If the matrix is invertible, the LDLT inverse is the inverse. -/
theorem LdltInverse.eq_inv {A G : Matrix m m ℝ} (h : LdltInverse A G) (hA : IsUnit A.det) :
    A * G = 1 ∧ G * A = 1 := by
  have h1 := h.spec.1
  have e : A * G = 1 := by
    have := congrArg (· * A⁻¹) h1
    simpa [Matrix.mul_assoc, Matrix.mul_nonsing_inv _ hA] using this
  exact ⟨e, mul_eq_one_comm.1 e⟩

omit [Fintype m] [DecidableEq m] [DecidableEq n] in
/-- A matrix whose rows have zero `W`-norm is zero. -/
theorem eq_zero_of_gram {N : Matrix m n ℝ} {W : Matrix n n ℝ}
    (hW : ∀ v : n → ℝ, v ≠ 0 → 0 < v ⬝ᵥ (W *ᵥ v)) (h : N * W * Nᵀ = 0) : N = 0 := by
  ext i j
  have hi : N i ⬝ᵥ (W *ᵥ (N i)) = 0 := by
    have := congrFun (congrFun h i) i
    rw [Matrix.mul_assoc, Matrix.mul_apply] at this
    simpa [dotProduct, Matrix.mul_apply, mulVec] using this
  by_cases hz : N i = 0
  · rw [hz]; rfl
  · exact absurd hi (hW _ hz).ne'

omit [DecidableEq n] in
/-- The generalised inverse of `J W Jᵀ` reproduces `J`, whatever the rank of `J`. -/
theorem gram_ginv {J : Matrix m n ℝ} {W : Matrix n n ℝ} {G : Matrix m m ℝ}
    (hW : ∀ v : n → ℝ, v ≠ 0 → 0 < v ⬝ᵥ (W *ᵥ v)) (hG : LdltInverse (J * W * Jᵀ) G) :
    J * W * Jᵀ * G * J = J ∧ Jᵀ * G * (J * W * Jᵀ) = Jᵀ := by
  obtain ⟨h1, -, h3, h4⟩ := hG.spec
  set A := J * W * Jᵀ with hA
  have hN : (1 - A * G) * J = 0 := by
    apply eq_zero_of_gram hW
    have : (1 - A * G) * J * W * ((1 - A * G) * J)ᵀ = ((1 - A * G) * A) * (1 - A * G)ᵀ := by
      rw [hA, transpose_mul]
      simp only [Matrix.mul_assoc]
    rw [this]
    have : (1 - A * G) * A = 0 := by rw [Matrix.sub_mul, Matrix.one_mul, h1, sub_self]
    rw [this, Matrix.zero_mul]
  have e1 : A * G * J = J := by
    rw [Matrix.sub_mul, Matrix.one_mul] at hN
    exact (sub_eq_zero.1 hN).symm
  refine ⟨e1, ?_⟩
  have := congrArg transpose e1
  rw [transpose_mul, transpose_mul, h3, h4] at this
  rw [Matrix.mul_assoc]
  exact this

/-- The default weight is positive definite. -/
theorem one_posDef : ∀ v : n → ℝ, v ≠ 0 → 0 < v ⬝ᵥ ((1 : Matrix n n ℝ) *ᵥ v) := by
  intro v hv
  rw [Matrix.one_mulVec]
  obtain ⟨i, hi⟩ := Function.ne_iff.1 hv
  exact Finset.sum_pos' (fun i _ => mul_self_nonneg _) ⟨i, Finset.mem_univ _, mul_self_pos.2 hi⟩

/-! ### Specification -/

/-- The right inverse weighted with `W`, and the documented formulas in terms of it. -/
def specDager {σ : Type} (e : Ext σ m n) (x : σ) (W : Matrix n n ℝ) : Matrix n m ℝ :=
  W * (e.jac x)ᵀ * e.ldltInv (e.jac x * W * (e.jac x)ᵀ)

/-- The answer to a query as a function of the state and the weight given to `updateState`. -/
def spec {σ : Type} (e : Ext σ m n) (x : σ) (W : Matrix n n ℝ) : Query → Answer m n
  | .J => .mn (e.jac x)
  | .dJdt => .mn (e.djac x)
  | .JdagerLDLT => .nm (specDager e x W)
  | .JdagerSVD => .nm (e.svdInv (e.jac x))
  | .dJdagerdt => .nm (-specDager e x W * e.djac x * specDager e x W)
  | .P => .nn (1 - specDager e x W * e.jac x)
  | .dPdt => .nn (-specDager e x W * e.djac x * (1 - specDager e x W * e.jac x))

/-- `P` is the projector onto the null space of `J` along the range of `W Jᵀ`. -/
structure IsProjector (J : Matrix m n ℝ) (W P : Matrix n n ℝ) : Prop where
  /-- everything is mapped into the null space of `J` -/
  image : J * P = 0
  /-- vectors of the null space of `J` are fixed -/
  fixes : ∀ v : n → ℝ, J *ᵥ v = 0 → P *ᵥ v = v
  /-- forces that act through `J` are removed -/
  removes : P * (W * Jᵀ) = 0
  /-- and only those -/
  kernel : ∀ v : n → ℝ, P *ᵥ v = 0 → ∃ l : m → ℝ, v = (W * Jᵀ) *ᵥ l
  idem : P * P = P

/-- For a positive definite weight the formula of `P()` gives the projector
onto the null space of the Jacobian along the range of `W Jᵀ`, whatever the rank of the Jacobian; with
the default weight it is symmetric. -/
theorem projector_formula {J : Matrix m n ℝ} {W : Matrix n n ℝ} {G : Matrix m m ℝ}
    (hW : ∀ v : n → ℝ, v ≠ 0 → 0 < v ⬝ᵥ (W *ᵥ v))
    (hG : LdltInverse (J * W * Jᵀ) G) :
    IsProjector J W (1 - W * Jᵀ * G * J) ∧
    (W = 1 → (1 - W * Jᵀ * G * J)ᵀ = 1 - W * Jᵀ * G * J) := by
  obtain ⟨e1, e2⟩ := gram_ginv hW hG
  have hsym := hG.spec.2.2.1
  have e1' : J * (W * Jᵀ * G * J) = J := by
    simpa only [Matrix.mul_assoc] using e1
  have e2' : W * Jᵀ * G * J * (W * Jᵀ) = W * Jᵀ := by
    have := congrArg (W * ·) e2
    simpa only [Matrix.mul_assoc] using this
  refine ⟨⟨?_, ?_, ?_, ?_, ?_⟩, ?_⟩
  · rw [Matrix.mul_sub, Matrix.mul_one, e1', sub_self]
  · intro v hv
    rw [Matrix.sub_mulVec, Matrix.one_mulVec, ← Matrix.mulVec_mulVec, hv, Matrix.mulVec_zero, sub_zero]
  · rw [Matrix.sub_mul, Matrix.one_mul, e2', sub_self]
  · intro v hv
    rw [Matrix.sub_mulVec, Matrix.one_mulVec, sub_eq_zero] at hv
    refine ⟨G *ᵥ (J *ᵥ v), ?_⟩
    rw [Matrix.mulVec_mulVec, Matrix.mulVec_mulVec]
    exact hv
  · rw [Matrix.mul_sub, Matrix.mul_one, Matrix.sub_mul, Matrix.one_mul]
    have : W * Jᵀ * G * J * (W * Jᵀ * G * J) = W * Jᵀ * G * J := by
      have h := congrArg (W * Jᵀ * G * ·) e1'
      simpa only [Matrix.mul_assoc] using h
    rw [this, sub_self, sub_zero]
  · rintro rfl
    simp only [transpose_sub, transpose_one, transpose_mul, transpose_transpose, hsym, Matrix.one_mul,
      Matrix.mul_assoc]

/-- If the rows of the Jacobian are independent, the formula of `JdagerLDLT()` is a right inverse;
otherwise it still is a generalised inverse. -/
theorem right_inverse_formula {J : Matrix m n ℝ} {W : Matrix n n ℝ} {G : Matrix m m ℝ}
    (hW : ∀ v : n → ℝ, v ≠ 0 → 0 < v ⬝ᵥ (W *ᵥ v))
    (hG : LdltInverse (J * W * Jᵀ) G) :
    J * (W * Jᵀ * G) * J = J ∧ ((∀ l : m → ℝ, Jᵀ *ᵥ l = 0 → l = 0) → J * (W * Jᵀ * G) = 1) := by
  obtain ⟨e1, -⟩ := gram_ginv hW hG
  refine ⟨by simpa only [Matrix.mul_assoc] using e1, fun hJ => ?_⟩
  have hU : IsUnit (J * W * Jᵀ).det := by
    rw [isUnit_iff_ne_zero]
    intro hd
    obtain ⟨v, hv, hv0⟩ := Matrix.exists_mulVec_eq_zero_iff.2 hd
    by_cases hz : Jᵀ *ᵥ v = 0
    · exact hv (hJ v hz)
    · have h1 := hW _ hz
      have h2 : v ⬝ᵥ ((J * W * Jᵀ) *ᵥ v) = (Jᵀ *ᵥ v) ⬝ᵥ (W *ᵥ (Jᵀ *ᵥ v)) := by
        rw [Matrix.mul_assoc, ← Matrix.mulVec_mulVec, ← Matrix.mulVec_mulVec, Matrix.dotProduct_mulVec,
          ← Matrix.mulVec_transpose]
      rw [hv0, dotProduct_zero] at h2
      linarith
  have := (hG.eq_inv hU).1
  simpa only [Matrix.mul_assoc] using this

/-! ### The caches -/

section cache
variable {σ : Type} (e : Ext σ m n) (x : σ) (W : Matrix n n ℝ)

/-- What the flags promise between queries that do not use the singular value decomposition. -/
structure Good (o : Obj σ m n) : Prop where
  st : o.state = x
  w : o.W = W
  j : o.JUpdated = true → o.J = e.jac x
  dj : o.dJdtUpdated = true → o.dJdt = e.djac x
  jd : o.JdagerUpdated = true → o.Jdager = specDager e x W
  p : o.PUpdated = true → o.P = 1 - specDager e x W * e.jac x
  dp : o.dPdtUpdated = true →
    o.dPdt = -specDager e x W * e.djac x * (1 - specDager e x W * e.jac x)

omit [DecidableEq m] in
theorem good_update (o : Obj σ m n) : Good e x W (updateState o x W) := by
  constructor <;> simp [updateState, resetFlags]

omit [DecidableEq m] in
theorem getJ_good {o : Obj σ m n} (h : Good e x W o) :
    Good e x W (getJ e o).1 ∧ (getJ e o).2 = e.jac x := by
  unfold getJ
  split
  · next hf => exact ⟨h, h.j hf⟩
  · exact ⟨⟨h.st, h.w, fun _ => by simp [h.st], h.dj, h.jd, h.p, h.dp⟩, by simp [h.st]⟩

omit [DecidableEq m] in
theorem getdJdt_good {o : Obj σ m n} (h : Good e x W o) :
    Good e x W (getdJdt e o).1 ∧ (getdJdt e o).2 = e.djac x := by
  unfold getdJdt
  split
  · next hf => exact ⟨h, h.dj hf⟩
  · exact ⟨⟨h.st, h.w, h.j, fun _ => by simp [h.st], h.jd, h.p, h.dp⟩, by simp [h.st]⟩

omit [DecidableEq m] in
theorem getJdagerLDLT_good {o : Obj σ m n} (h : Good e x W o) :
    Good e x W (getJdagerLDLT e o).1 ∧ (getJdagerLDLT e o).2 = specDager e x W := by
  unfold getJdagerLDLT
  split
  · next hf => exact ⟨h, h.jd hf⟩
  · have hJ : ∀ o' : Obj σ m n, o' = { o with JdagerUpdated := true } →
        (getJ e o').1.state = x ∧ (getJ e o').1.W = W ∧ (getJ e o').2 = e.jac x ∧
        ((getJ e o').1.JUpdated = true → (getJ e o').1.J = e.jac x) ∧
        ((getJ e o').1.dJdtUpdated = true → (getJ e o').1.dJdt = e.djac x) ∧
        ((getJ e o').1.PUpdated = true → (getJ e o').1.P = 1 - specDager e x W * e.jac x) ∧
        ((getJ e o').1.dPdtUpdated = true → (getJ e o').1.dPdt =
          -specDager e x W * e.djac x * (1 - specDager e x W * e.jac x)) := by
      rintro o' rfl
      unfold getJ
      split
      · next hf => exact ⟨h.st, h.w, h.j hf, h.j, h.dj, h.p, h.dp⟩
      · exact ⟨h.st, h.w, by simp [h.st], fun _ => by simp [h.st], h.dj, h.p, h.dp⟩
    obtain ⟨a, b, c, d, f, g, i⟩ := hJ _ rfl
    simp only
    refine ⟨⟨a, b, d, f, fun _ => ?_, g, i⟩, ?_⟩ <;> simp only [b, c, specDager]

omit [DecidableEq m] in
theorem getP_good {o : Obj σ m n} (h : Good e x W o) :
    Good e x W (getP e o).1 ∧ (getP e o).2 = 1 - specDager e x W * e.jac x := by
  unfold getP
  split
  · next hf => exact ⟨h, h.p hf⟩
  · -- the flag is raised before the matrix is assigned; the flag is not read in between
    have key : ∀ o' : Obj σ m n, Good e x W { o' with PUpdated := false } →
        Good e x W { (getJdagerLDLT e o').1 with PUpdated := false } ∧
        (getJdagerLDLT e o').2 = specDager e x W := by
      intro o' h'
      have := getJdagerLDLT_good e x W h'
      unfold getJdagerLDLT getJ at this ⊢
      by_cases h1 : o'.JdagerUpdated = true <;> by_cases h2 : o'.JUpdated = true <;>
        simpa [h1, h2] using this
    have keyJ : ∀ o' : Obj σ m n, Good e x W { o' with PUpdated := false } →
        Good e x W { (getJ e o').1 with PUpdated := false } ∧ (getJ e o').2 = e.jac x := by
      intro o' h'
      have := getJ_good e x W h'
      unfold getJ at this ⊢
      by_cases h2 : o'.JUpdated = true <;> simpa [h2] using this
    have h0 : Good e x W { ({ o with PUpdated := true } : Obj σ m n) with PUpdated := false } :=
      ⟨h.st, h.w, h.j, h.dj, h.jd, fun hf => by simp at hf, h.dp⟩
    obtain ⟨a1, a2⟩ := key _ h0
    obtain ⟨b1, b2⟩ := keyJ _ a1
    simp only
    refine ⟨⟨b1.st, b1.w, b1.j, b1.dj, b1.jd, fun _ => ?_, b1.dp⟩, ?_⟩ <;> simp only [a2, b2]

omit [DecidableEq m] in
theorem ask_good {o : Obj σ m n} (h : Good e x W o) {q : Query} (hq : q ≠ .JdagerSVD) :
    Good e x W (ask e o q).1 ∧ (ask e o q).2 = spec e x W q := by
  cases q with
  | J => exact ⟨(getJ_good e x W h).1, by simp only [ask, spec, (getJ_good e x W h).2]⟩
  | dJdt => exact ⟨(getdJdt_good e x W h).1, by simp only [ask, spec, (getdJdt_good e x W h).2]⟩
  | JdagerLDLT =>
    exact ⟨(getJdagerLDLT_good e x W h).1, by simp only [ask, spec, (getJdagerLDLT_good e x W h).2]⟩
  | JdagerSVD => exact absurd rfl hq
  | P => exact ⟨(getP_good e x W h).1, by simp only [ask, spec, (getP_good e x W h).2]⟩
  | dJdagerdt =>
    have h0 : Good e x W { o with dJdagerdtUpdated := true } :=
      ⟨h.st, h.w, h.j, h.dj, h.jd, h.p, h.dp⟩
    obtain ⟨a1, a2⟩ := getJdagerLDLT_good e x W h0
    obtain ⟨b1, b2⟩ := getdJdt_good e x W a1
    simp only [ask, getdJdagerdt, spec, a2, b2]
    exact ⟨⟨b1.st, b1.w, b1.j, b1.dj, b1.jd, b1.p, b1.dp⟩, trivial⟩
  | dPdt =>
    simp only [ask, getdPdt, spec]
    by_cases hf : o.dPdtUpdated = true
    · simp only [hf, if_true]
      exact ⟨h, by rw [h.dp hf]⟩
    · -- as in `getP_good`
      have key : ∀ o' : Obj σ m n, Good e x W { o' with dPdtUpdated := false } →
          Good e x W { (getJdagerLDLT e o').1 with dPdtUpdated := false } ∧
          (getJdagerLDLT e o').2 = specDager e x W := by
        intro o' h'
        have := getJdagerLDLT_good e x W h'
        unfold getJdagerLDLT getJ at this ⊢
        by_cases h1 : o'.JdagerUpdated = true <;> by_cases h2 : o'.JUpdated = true <;>
          simpa [h1, h2] using this
      have keyD : ∀ o' : Obj σ m n, Good e x W { o' with dPdtUpdated := false } →
          Good e x W { (getdJdt e o').1 with dPdtUpdated := false } ∧
          (getdJdt e o').2 = e.djac x := by
        intro o' h'
        have := getdJdt_good e x W h'
        unfold getdJdt at this ⊢
        by_cases h2 : o'.dJdtUpdated = true <;> simpa [h2] using this
      have keyP : ∀ o' : Obj σ m n, Good e x W { o' with dPdtUpdated := false } →
          Good e x W { (getP e o').1 with dPdtUpdated := false } ∧
          (getP e o').2 = 1 - specDager e x W * e.jac x := by
        intro o' h'
        have := getP_good e x W h'
        unfold getP getJdagerLDLT getJ at this ⊢
        by_cases h1 : o'.JdagerUpdated = true <;> by_cases h2 : o'.JUpdated = true <;>
          by_cases h3 : o'.PUpdated = true <;> simpa [h1, h2, h3] using this
      have h0 : Good e x W { ({ o with dPdtUpdated := true } : Obj σ m n) with dPdtUpdated := false } :=
        ⟨h.st, h.w, h.j, h.dj, h.jd, h.p, fun hf => by simp at hf⟩
      obtain ⟨a1, a2⟩ := key _ h0
      obtain ⟨b1, b2⟩ := keyD _ a1
      obtain ⟨c1, c2⟩ := keyP _ b1
      simp only [hf, if_false, Bool.false_eq_true]
      refine ⟨⟨c1.st, c1.w, c1.j, c1.dj, c1.jd, c1.p, fun _ => ?_⟩, ?_⟩ <;> simp only [a2, b2, c2]

omit [DecidableEq m] in
/-- **C112 (partial).** After `updateState(x, W)` every sequence of queries that does not call
`JdagerSVD()` gives the answers determined by `x` and `W` alone: whatever was cached for earlier
states, in whatever order the queries are made.  Missing: `JdagerSVD()`, see `C112_mixed_violated`
and `C112_svd_partial`. -/
theorem C112_answers_partial (o : Obj σ m n) (qs : List Query) (q : Query)
    (hqs : Query.JdagerSVD ∉ qs) (hq : q ≠ .JdagerSVD) :
    (ask e (askAll e (updateState o x W) qs) q).2 = spec e x W q := by
  have : ∀ (qs : List Query) (o : Obj σ m n), Good e x W o → Query.JdagerSVD ∉ qs →
      Good e x W (askAll e o qs) := by
    intro qs
    induction qs with
    | nil => intro o h _; exact h
    | cons a l ih =>
      intro o h hn
      simp only [List.mem_cons, not_or] at hn
      exact ih _ (ask_good e x W h (Ne.symm hn.1)).1 hn.2
  exact (ask_good e x W (this qs _ (good_update e x W o) hqs) hq).2

end cache

/-! ### The two inverses -/

omit [DecidableEq m] [DecidableEq n] in
/-- The thresholded SVD inverse satisfies the Penrose conditions if no non-zero singular value lies
below the threshold. -/
theorem svd_penrose {A : Matrix m n ℝ} {r : ℕ} {U : Matrix m (Fin r) ℝ} {V : Matrix n (Fin r) ℝ}
    {s : Fin r → ℝ} (hU : Uᵀ * U = 1) (hV : Vᵀ * V = 1) (hA : A = U * diagonal s * Vᵀ)
    (hs : ∀ i, s i = 0 ∨ s i > 1e-9) :
    let X := V * diagonal (fun i => if s i > 1e-9 then (s i)⁻¹ else 0) * Uᵀ
    A * X * A = A ∧ X * A * X = X ∧ (A * X)ᵀ = A * X ∧ (X * A)ᵀ = X * A := by
  have hd : (fun i => if s i > 1e-9 then (s i)⁻¹ else 0) = fun i => (s i)⁻¹ := by
    funext i
    rcases hs i with h | h
    · rw [h]; norm_num
    · rw [if_pos h]
  rw [hd]
  intro X
  have hX : X = V * diagonal (fun i => (s i)⁻¹) * Uᵀ := rfl
  have hAX : A * X = U * (diagonal s * diagonal (fun i => (s i)⁻¹)) * Uᵀ := by
    calc A * X = U * diagonal s * (Vᵀ * V) * diagonal (fun i => (s i)⁻¹) * Uᵀ := by
          rw [hA, hX]; simp only [Matrix.mul_assoc]
      _ = _ := by rw [hV]; simp only [Matrix.mul_assoc, Matrix.one_mul]
  have hXA : X * A = V * (diagonal (fun i => (s i)⁻¹) * diagonal s) * Vᵀ := by
    calc X * A = V * diagonal (fun i => (s i)⁻¹) * (Uᵀ * U) * diagonal s * Vᵀ := by
          rw [hA, hX]; simp only [Matrix.mul_assoc]
      _ = _ := by rw [hU]; simp only [Matrix.mul_assoc, Matrix.one_mul]
  refine ⟨?_, ?_, ?_, ?_⟩
  · rw [hAX]
    calc U * (diagonal s * diagonal (fun i => (s i)⁻¹)) * Uᵀ * A
        = U * (diagonal s * diagonal (fun i => (s i)⁻¹)) * (Uᵀ * U) * diagonal s * Vᵀ := by
          conv_lhs => rw [hA]
          simp only [Matrix.mul_assoc]
      _ = U * (diagonal s * diagonal (fun i => (s i)⁻¹) * diagonal s) * Vᵀ := by
          rw [hU]; simp only [Matrix.mul_assoc, Matrix.one_mul]
      _ = A := by rw [diag_ginv, ← hA]
  · rw [hXA, hX]
    calc V * (diagonal (fun i => (s i)⁻¹) * diagonal s) * Vᵀ * (V * diagonal (fun i => (s i)⁻¹) * Uᵀ)
        = V * (diagonal (fun i => (s i)⁻¹) * diagonal s) * (Vᵀ * V) * diagonal (fun i => (s i)⁻¹) * Uᵀ := by
          simp only [Matrix.mul_assoc]
      _ = V * (diagonal (fun i => (s i)⁻¹) * diagonal s * diagonal (fun i => (s i)⁻¹)) * Uᵀ := by
          rw [hV]; simp only [Matrix.mul_assoc, Matrix.one_mul]
      _ = _ := by rw [diag_ginv']
  · rw [hAX]
    simp only [transpose_mul, transpose_transpose, diagonal_transpose, Matrix.mul_assoc]
    rw [← Matrix.mul_assoc (diagonal _), ← Matrix.mul_assoc (diagonal s), diagonal_mul_diagonal,
      diagonal_mul_diagonal]
    simp only [mul_comm]
  · rw [hXA]
    simp only [transpose_mul, transpose_transpose, diagonal_transpose, Matrix.mul_assoc]
    rw [← Matrix.mul_assoc (diagonal s), ← Matrix.mul_assoc (diagonal _), diagonal_mul_diagonal,
      diagonal_mul_diagonal]
    simp only [mul_comm]

omit [DecidableEq m] [DecidableEq n] in
/-- A generalised inverse with the Penrose conditions is unique. -/
theorem penrose_unique {A : Matrix m n ℝ} {X Y : Matrix n m ℝ}
    (x1 : A * X * A = A) (x2 : X * A * X = X) (x3 : (A * X)ᵀ = A * X) (x4 : (X * A)ᵀ = X * A)
    (y1 : A * Y * A = A) (y2 : Y * A * Y = Y) (y3 : (A * Y)ᵀ = A * Y) (y4 : (Y * A)ᵀ = Y * A) :
    X = Y := by
  have hAX : A * X = A * Y := by
    calc A * X = (A * X)ᵀ := x3.symm
      _ = (A * Y * A * X)ᵀ := by rw [y1]
      _ = (A * X)ᵀ * (A * Y)ᵀ := by rw [Matrix.mul_assoc (A * Y), transpose_mul]
      _ = A * X * (A * Y) := by rw [x3, y3]
      _ = A * X * A * Y := by simp only [Matrix.mul_assoc]
      _ = A * Y := by rw [x1]
  have hXA : X * A = Y * A := by
    calc X * A = (X * A)ᵀ := x4.symm
      _ = (X * (A * Y * A))ᵀ := by rw [y1]
      _ = (Y * A)ᵀ * (X * A)ᵀ := by rw [← transpose_mul]; simp only [Matrix.mul_assoc]
      _ = Y * A * (X * A) := by rw [x4, y4]
      _ = Y * (A * X * A) := by simp only [Matrix.mul_assoc]
      _ = Y * A := by rw [x1]
  calc X = X * A * X := x2.symm
    _ = Y * A * X := by rw [hXA]
    _ = Y * (A * X) := Matrix.mul_assoc _ _ _
    _ = Y * (A * Y) := by rw [hAX]
    _ = Y * A * Y := (Matrix.mul_assoc _ _ _).symm
    _ = Y := y2

/-- **C112 (partial).** With the default weight and no non-zero singular value below the threshold,
`JdagerLDLT()` and `JdagerSVD()` return the same matrix (the Moore-Penrose inverse), so that it does
not matter which one fills the cache — provided the LDLT inverse of the Gram matrix acts within the
range of the Jacobian, in particular if the rows are independent. -/
theorem C112_svd_partial {J : Matrix m n ℝ} {G : Matrix m m ℝ} {X : Matrix n m ℝ}
    (hG : LdltInverse (J * (1 : Matrix n n ℝ) * Jᵀ) G)
    (hr : ∀ l : m → ℝ, Jᵀ *ᵥ l = 0 → l = 0)
    {r : ℕ} {U : Matrix m (Fin r) ℝ} {V : Matrix n (Fin r) ℝ} {s : Fin r → ℝ}
    (hU : Uᵀ * U = 1) (hV : Vᵀ * V = 1) (hJ : J = U * diagonal s * Vᵀ)
    (hs : ∀ i, s i = 0 ∨ s i > 1e-9)
    (hX : X = V * diagonal (fun i => if s i > 1e-9 then (s i)⁻¹ else 0) * Uᵀ) :
    (1 : Matrix n n ℝ) * Jᵀ * G = X := by
  obtain ⟨p1, p2, p3, p4⟩ := svd_penrose hU hV hJ hs
  rw [← hX] at p1 p2 p3 p4
  obtain ⟨g1, g2⟩ := right_inverse_formula one_posDef hG
  have g2 := g2 hr
  have hsym := hG.spec.2.2.1
  refine penrose_unique g1 ?_ ?_ ?_ p1 p2 p3 p4
  · rw [Matrix.mul_assoc, g2, Matrix.mul_one]
  · rw [g2, transpose_one]
  · simp only [transpose_mul, transpose_transpose, hsym, Matrix.one_mul, Matrix.mul_assoc]

/-- A one-dimensional task of a system with two coordinates; the decompositions of Eigen for the
matrices that occur. -/
noncomputable def exExt : Ext Unit (Fin 1) (Fin 2) where
  jac := fun _ => !![3, 4]
  djac := fun _ => !![0, 0]
  ldltInv := fun A => !![(A 0 0)⁻¹]
  svdInv := fun J => !![J 0 0 / 25; J 0 1 / 25]

theorem exExt_ldlt (A : Matrix (Fin 1) (Fin 1) ℝ) : LdltInverse A (exExt.ldltInv A) := by
  refine ⟨⟨1, 1, fun _ => A 0 0, by simp, ?_⟩, ?_⟩
  · ext i j; fin_cases i; fin_cases j; simp
  · ext i j; fin_cases i; fin_cases j; simp [Ldlt.solve, exExt]

theorem diag_one (a : ℝ) : diagonal (fun _ : Fin 1 => a) = !![a] := by
  ext i j; fin_cases i; fin_cases j; simp

theorem exExt_svd : SvdInverse (exExt.jac ()) (exExt.svdInv (exExt.jac ())) := by
  refine ⟨1, !![1], !![3 / 5; 4 / 5], fun _ => 5, ?_, ?_, fun _ => by norm_num, ?_, ?_⟩
  · ext i j; fin_cases i; fin_cases j; simp [Matrix.mul_apply]
  · ext i j; fin_cases i; fin_cases j
    simp [Matrix.mul_apply, Fin.sum_univ_two]; norm_num
  · rw [diag_one]
    ext i j; fin_cases i; fin_cases j <;> simp [exExt, Matrix.mul_apply] <;> norm_num
  · rw [diag_one]
    ext i j; fin_cases j; fin_cases i <;> simp [exExt, Matrix.mul_apply] <;> norm_num

/-- The hypotheses of C110 are met by a non-trivial weight. -/
example : (∀ v : Fin 2 → ℝ, v ≠ 0 → 0 < v ⬝ᵥ ((diagonal ![1, 2] : Matrix (Fin 2) (Fin 2) ℝ) *ᵥ v)) ∧
    LdltInverse (exExt.jac () * (diagonal ![1, 2] : Matrix (Fin 2) (Fin 2) ℝ) * (exExt.jac ())ᵀ)
      (exExt.ldltInv (exExt.jac () * (diagonal ![1, 2] : Matrix (Fin 2) (Fin 2) ℝ) * (exExt.jac ())ᵀ)) := by
  refine ⟨?_, exExt_ldlt _⟩
  intro v hv
  have : v ⬝ᵥ ((diagonal ![1, 2] : Matrix (Fin 2) (Fin 2) ℝ) *ᵥ v) = v 0 * v 0 + 2 * (v 1 * v 1) := by
    simp [dotProduct, mulVec_diagonal, Fin.sum_univ_two]; ring
  rw [this]
  by_cases h0 : v 0 = 0
  · have h1 : v 1 ≠ 0 := by
      intro h1; apply hv; funext i; fin_cases i <;> simp [h0, h1]
    nlinarith [mul_self_pos.2 h1, mul_self_nonneg (v 0)]
  · nlinarith [mul_self_pos.2 h0, mul_self_nonneg (v 1)]

/-- **C112, violated by mixing the inverses.** `JdagerSVD()` and `JdagerLDLT()` share one cache: after
a call of `JdagerSVD()`, `JdagerLDLT()` returns the unweighted inverse, and `P()` no longer removes
forces that act through the Jacobian (`P W Jᵀ ≠ 0`). -/
theorem C112_mixed_violated :
    ∃ (e : Ext Unit (Fin 1) (Fin 2)) (W : Matrix (Fin 2) (Fin 2) ℝ) (o : Obj Unit (Fin 1) (Fin 2)),
      (∀ A, LdltInverse A (e.ldltInv A)) ∧ SvdInverse (e.jac ()) (e.svdInv (e.jac ())) ∧
      (ask e (askAll e (updateState o () W) [.JdagerSVD]) .JdagerLDLT).2 ≠ spec e () W .JdagerLDLT ∧
      (getP e (askAll e (updateState o () W) [.JdagerSVD])).2 * (W * (e.jac ())ᵀ) ≠ 0 := by
  refine ⟨exExt, !![1, 0; 0, 2], ⟨false, false, false, false, false, false, (), 0, 0, 0, 0, 0, 0, 0⟩,
    exExt_ldlt, exExt_svd, ?_, ?_⟩
  · intro h
    simp only [ask, askAll, List.foldl_cons, List.foldl_nil, getJdagerSVD, updateState, resetFlags, getJ,
      getJdagerLDLT, if_false, Bool.false_eq_true, if_true, spec, specDager, Answer.nm.injEq] at h
    have := congrFun (congrFun h 0) 0
    simp [exExt, Matrix.mul_apply, Matrix.vecMul, dotProduct, Fin.sum_univ_two] at this
    norm_num at this
  · intro h
    simp only [ask, askAll, List.foldl_cons, List.foldl_nil, getJdagerSVD, updateState, resetFlags, getJ,
      getP, getJdagerLDLT, if_false, Bool.false_eq_true, if_true] at h
    have := congrFun (congrFun h 0) 0
    simp [exExt, Matrix.mul_apply, Matrix.vecMul, dotProduct, Fin.sum_univ_two, Matrix.one_apply] at this
    norm_num at this

/-! ### The time derivatives -/

omit [Fintype m] [DecidableEq m] [Fintype n] [DecidableEq n] in
/-- Entrywise derivative of a matrix function. -/
def MDeriv (F : ℝ → Matrix m n ℝ) (F' : Matrix m n ℝ) (t : ℝ) : Prop :=
  ∀ i j, HasDerivAt (fun s => F s i j) (F' i j) t

omit [DecidableEq n] [DecidableEq m] [Fintype m] in
theorem MDeriv.mul {k : Type} {A : ℝ → Matrix m n ℝ} {B : ℝ → Matrix n k ℝ} {A' : Matrix m n ℝ}
    {B' : Matrix n k ℝ} {t : ℝ} (hA : MDeriv A A' t) (hB : MDeriv B B' t) :
    MDeriv (fun s => A s * B s) (A' * B t + A t * B') t := by
  intro i j
  simp only [Matrix.mul_apply, Matrix.add_apply, ← Finset.sum_add_distrib]
  have := HasDerivAt.fun_sum (u := Finset.univ) (fun (k : n) _ => (hA i k).mul (hB k j))
  simpa using this

omit [Fintype m] [DecidableEq m] [Fintype n] [DecidableEq n] in
theorem MDeriv.transpose {A : ℝ → Matrix m n ℝ} {A' : Matrix m n ℝ} {t : ℝ} (hA : MDeriv A A' t) :
    MDeriv (fun s => (A s)ᵀ) A'ᵀ t := fun i j => hA j i

omit [Fintype m] [DecidableEq m] [Fintype n] [DecidableEq n] in
theorem MDeriv.unique {A : ℝ → Matrix m n ℝ} {A' A'' : Matrix m n ℝ} {t : ℝ} (h : MDeriv A A' t)
    (h' : MDeriv A A'' t) : A' = A'' := by
  ext i j
  exact (h i j).unique (h' i j)

omit [Fintype m] [DecidableEq m] [Fintype n] [DecidableEq n] in
theorem MDeriv.const (A : Matrix m n ℝ) (t : ℝ) : MDeriv (fun _ => A) 0 t :=
  fun _ _ => hasDerivAt_const _ _

omit [Fintype m] [DecidableEq m] [Fintype n] [DecidableEq n] in
theorem MDeriv.sub {A B : ℝ → Matrix m n ℝ} {A' B' : Matrix m n ℝ} {t : ℝ} (hA : MDeriv A A' t)
    (hB : MDeriv B B' t) : MDeriv (fun s => A s - B s) (A' - B') t :=
  fun i j => (hA i j).sub (hB i j)

theorem det_differentiable {A : ℝ → Matrix m m ℝ} {t : ℝ}
    (hA : ∀ i j, DifferentiableAt ℝ (fun s => A s i j) t) :
    DifferentiableAt ℝ (fun s => (A s).det) t := by
  simp only [Matrix.det_apply]
  refine DifferentiableAt.fun_sum (fun σ _ => ?_)
  refine DifferentiableAt.const_smul ?_ _
  exact DifferentiableAt.fun_finsetProd (fun i _ => hA _ _)

theorem adjugate_differentiable {A : ℝ → Matrix m m ℝ} {t : ℝ}
    (hA : ∀ i j, DifferentiableAt ℝ (fun s => A s i j) t) (i j : m) :
    DifferentiableAt ℝ (fun s => (A s).adjugate i j) t := by
  simp only [Matrix.adjugate_apply]
  apply det_differentiable
  intro a b
  by_cases h : a = j
  · subst h; simp
  · simpa [Matrix.updateRow_ne h] using hA a b

/-- The inverse of a differentiable matrix function is differentiable. -/
theorem inv_differentiable {A : ℝ → Matrix m m ℝ} {A' : Matrix m m ℝ} {t : ℝ} (hA : MDeriv A A' t)
    (h : (A t).det ≠ 0) : ∃ B', MDeriv (fun s => (A s)⁻¹) B' t := by
  refine ⟨fun i j => deriv (fun s => (A s)⁻¹ i j) t, fun i j => DifferentiableAt.hasDerivAt ?_⟩
  have hd : ∀ i j, DifferentiableAt ℝ (fun s => A s i j) t := fun i j => (hA i j).differentiableAt
  simp only [Matrix.inv_def, Ring.inverse_eq_inv', Matrix.smul_apply, smul_eq_mul]
  exact ((det_differentiable hd).inv h).mul (adjugate_differentiable hd i j)

/-- The Moore-Penrose inverse of a Jacobian with independent rows; the value of `JdagerLDLT()` with
the default weight, see `LdltInverse.eq_inv`. -/
noncomputable def dag (J : Matrix m n ℝ) : Matrix n m ℝ := Jᵀ * (J * Jᵀ)⁻¹

theorem dag_is_code {J : Matrix m n ℝ} {G : Matrix m m ℝ}
    (hG : LdltInverse (J * (1 : Matrix n n ℝ) * Jᵀ) G) (hJ : IsUnit (J * Jᵀ).det) :
    (1 : Matrix n n ℝ) * Jᵀ * G = dag J := by
  have h := hG.eq_inv (by simpa using hJ)
  simp only [Matrix.mul_one, Matrix.one_mul] at h ⊢
  rw [dag, Matrix.inv_eq_right_inv h.1]

/-- The true derivatives of the inverse and the projector in terms of the formulas of the code. -/
theorem derivative_formula {J : ℝ → Matrix m n ℝ} {J' : Matrix m n ℝ} {t : ℝ}
    (hJ : MDeriv J J' t) (hr : ∀ s, IsUnit (J s * (J s)ᵀ).det) :
    let P := 1 - dag (J t) * J t
    let dPdt := -dag (J t) * J' * P
    MDeriv (fun s => 1 - dag (J s) * J s) (dPdt + dPdtᵀ) t ∧
    MDeriv (fun s => dag (J s)) (-dag (J t) * J' * dag (J t) + P * J'ᵀ * (J t * (J t)ᵀ)⁻¹) t ∧
    J' * P + J t * dPdt = 0 := by
  intro P dPdt
  -- everything is differentiable
  obtain ⟨B', hB⟩ := inv_differentiable (hJ.mul hJ.transpose) (isUnit_iff_ne_zero.1 (hr t))
  have hD : ∃ D', MDeriv (fun s => dag (J s)) D' t := ⟨_, hJ.transpose.mul hB⟩
  obtain ⟨D', hD⟩ := hD
  have hP := (MDeriv.const (1 : Matrix n n ℝ) t).sub (hD.mul hJ)
  set P' := 0 - (D' * J t + dag (J t) * J') with hP'
  -- the identities satisfied at all times
  have rinv : ∀ s, J s * dag (J s) = 1 := by
    intro s
    rw [dag, ← Matrix.mul_assoc, Matrix.mul_nonsing_inv _ (hr s)]
  have JP : ∀ s, J s * (1 - dag (J s) * J s) = 0 := by
    intro s
    rw [Matrix.mul_sub, ← Matrix.mul_assoc, rinv s, Matrix.one_mul, Matrix.mul_one, sub_self]
  have PD : ∀ s, (1 - dag (J s) * J s) * dag (J s) = 0 := by
    intro s
    rw [Matrix.sub_mul, Matrix.mul_assoc, rinv s, Matrix.one_mul, Matrix.mul_one, sub_self]
  have PP : ∀ s, (1 - dag (J s) * J s) * (1 - dag (J s) * J s) = 1 - dag (J s) * J s := by
    intro s
    conv_lhs => rw [Matrix.mul_sub, Matrix.mul_one, ← Matrix.mul_assoc, PD s, Matrix.zero_mul, sub_zero]
  have symG : ∀ s, ((J s * (J s)ᵀ)⁻¹)ᵀ = (J s * (J s)ᵀ)⁻¹ := by
    intro s
    rw [Matrix.transpose_nonsing_inv, transpose_mul, transpose_transpose]
  have PT : ∀ s, (1 - dag (J s) * J s)ᵀ = 1 - dag (J s) * J s := by
    intro s
    simp only [dag, transpose_sub, transpose_one, transpose_mul, transpose_transpose, symG s,
      Matrix.mul_assoc]
  -- differentiated
  have dJP : J' * P + J t * P' = 0 := by
    have h := hJ.mul hP
    simp only [JP] at h
    exact h.unique (MDeriv.const 0 t)
  have dPP : P' * P + P * P' = P' := by
    have h := hP.mul hP
    simp only [PP] at h
    exact h.unique hP
  have dPT : P'ᵀ = P' := by
    have h := hP.transpose
    simp only [PT] at h
    exact h.unique hP
  have dJD : J' * dag (J t) + J t * D' = 0 := by
    have h := hJ.mul hD
    simp only [rinv] at h
    exact h.unique (MDeriv.const 1 t)
  have dPD : P' * dag (J t) + P * D' = 0 := by
    have h := hP.mul hD
    simp only [PD] at h
    exact h.unique (MDeriv.const 0 t)
  have PT' : Pᵀ = P := PT t
  have hI : dag (J t) * J t = 1 - P := by simp [P]
  have h1 : P' * P = dPdt := by
    have e : dag (J t) * (J t * P') = dPdt := by
      have : J t * P' = -(J' * P) := by rw [eq_neg_iff_add_eq_zero, add_comm]; exact dJP
      rw [this]
      simp only [dPdt, Matrix.neg_mul, Matrix.mul_neg, Matrix.mul_assoc]
    rw [← Matrix.mul_assoc, hI, Matrix.sub_mul, Matrix.one_mul] at e
    rw [← e]
    exact eq_sub_of_add_eq dPP
  have h2 : P * P' = dPdtᵀ := by rw [← h1, transpose_mul, PT', dPT]
  have hP2 : P' = dPdt + dPdtᵀ := by rw [← h2]; nth_rw 1 [← dPP]; rw [h1]
  refine ⟨hP2 ▸ hP, ?_, ?_⟩
  · have e : D' = dag (J t) * (J t * D') + P * D' := by
      rw [← Matrix.mul_assoc, hI, ← Matrix.add_mul]; simp
    have e1 : J t * D' = -(J' * dag (J t)) := by rw [eq_neg_iff_add_eq_zero, add_comm]; exact dJD
    have e2 : P * D' = P * J'ᵀ * (J t * (J t)ᵀ)⁻¹ := by
      have : P * D' = -(P' * dag (J t)) := by rw [eq_neg_iff_add_eq_zero, add_comm]; exact dPD
      rw [this, hP2, Matrix.add_mul]
      have z : dPdt * dag (J t) = 0 := by
        have := PD t
        simp only [dPdt, Matrix.mul_assoc]
        rw [show P * dag (J t) = 0 from this]; simp
      have w : dPdtᵀ * dag (J t) = -(P * J'ᵀ * (J t * (J t)ᵀ)⁻¹) := by
        simp only [dPdt, transpose_mul, transpose_neg, PT', Matrix.mul_assoc, Matrix.mul_neg,
          Matrix.neg_mul]
        congr 3
        rw [show (dag (J t))ᵀ = (J t * (J t)ᵀ)⁻¹ * J t by
          rw [dag, transpose_mul, symG, transpose_transpose], Matrix.mul_assoc, rinv t, Matrix.mul_one]
      rw [z, w, zero_add, neg_neg]
    have hD' : D' = -dag (J t) * J' * dag (J t) + P * J'ᵀ * (J t * (J t)ᵀ)⁻¹ := by
      rw [e, e1, e2]
      simp only [Matrix.neg_mul, Matrix.mul_neg, Matrix.mul_assoc]
    exact hD' ▸ hD
  · have : J t * dPdt = -(J' * P) := by
      simp only [dPdt, Matrix.neg_mul, Matrix.mul_neg]
      rw [Matrix.mul_assoc, ← Matrix.mul_assoc, rinv t, Matrix.one_mul]
    rw [this, add_neg_cancel]

/-- A motion on which the Jacobian turns: `J(t) = [1, t]`. -/
def turning (t : ℝ) : Matrix (Fin 1) (Fin 2) ℝ := !![1, t]

theorem turning_deriv (t : ℝ) : MDeriv turning !![0, 1] t := by
  intro i j
  fin_cases i; fin_cases j
  · simpa [turning] using hasDerivAt_const t (1 : ℝ)
  · simpa [turning] using hasDerivAt_id' t

theorem turning_unit (t : ℝ) : IsUnit (turning t * (turning t)ᵀ).det := by
  rw [isUnit_iff_ne_zero, Matrix.det_fin_one]
  simp [turning, Matrix.mul_apply, Matrix.vecMul, dotProduct, Fin.sum_univ_two]
  nlinarith [mul_self_nonneg t]

/-- The hypotheses of `derivative_formula` are met. -/
example : MDeriv turning !![0, 1] 0 ∧ ∀ s, IsUnit (turning s * (turning s)ᵀ).det :=
  ⟨turning_deriv 0, turning_unit⟩

/-- The formulas of the code are not the derivatives. -/
theorem derivative_formula_wrong :
    ¬ MDeriv (fun s => dag (turning s)) (-dag (turning 0) * (!![0, 1] : Matrix (Fin 1) (Fin 2) ℝ) * dag (turning 0)) 0 ∧
    ¬ MDeriv (fun s => 1 - dag (turning s) * turning s)
      (-dag (turning 0) * (!![0, 1] : Matrix (Fin 1) (Fin 2) ℝ) * (1 - dag (turning 0) * turning 0)) 0 := by
  obtain ⟨h1, h2, -⟩ := derivative_formula (turning_deriv 0) turning_unit
  have hd : dag (turning 0) = !![1; 0] := by
    have : (turning 0 * (turning 0)ᵀ)⁻¹ = !![1] := by
      apply Matrix.inv_eq_right_inv
      ext i j; fin_cases i; fin_cases j
      simp [turning, Matrix.mul_apply, Matrix.vecMul, dotProduct, Fin.sum_univ_two]
    rw [dag, this]
    ext i j; fin_cases j
    fin_cases i <;> simp [turning, Matrix.mul_apply]
  have hi : (turning 0 * (turning 0)ᵀ)⁻¹ = !![1] := by
    apply Matrix.inv_eq_right_inv
    ext i j; fin_cases i; fin_cases j
    simp [turning, Matrix.mul_apply, Matrix.vecMul, dotProduct, Fin.sum_univ_two]
  refine ⟨fun h => ?_, fun h => ?_⟩
  · have := congrFun (congrFun (h.unique h2) 1) 0
    rw [hd, hi] at this
    simp [turning, Matrix.mul_apply, Matrix.vecMul, dotProduct, Fin.sum_univ_two] at this
  · have := congrFun (congrFun (h.unique h1) 1) 0
    rw [hd] at this
    simp [turning, Matrix.mul_apply, Matrix.vecMul, dotProduct, Fin.sum_univ_two] at this

/-! ### The properties of the class -/

section object
variable {σ : Type}

/-- The answer to the query `q` after `updateState(x, W)` and the queries `qs`. -/
def answer (e : Ext σ m n) (o : Obj σ m n) (x : σ) (W : Matrix n n ℝ) (qs : List Query) (q : Query) :
    Answer m n :=
  (ask e (askAll e (updateState o x W) qs) q).2

/-- **C110.** For a positive definite weight the matrix returned by `P()` is the projector onto the
null space of the Jacobian along the range of `W Jᵀ`, whatever the rank of the Jacobian, whatever the
object held before and whatever was asked in between (except `JdagerSVD()`); with the default weight
it is symmetric. -/
theorem C110_projector (e : Ext σ m n) (o : Obj σ m n) (x : σ) (W : Matrix n n ℝ) (qs : List Query)
    (hqs : Query.JdagerSVD ∉ qs) (hW : ∀ v : n → ℝ, v ≠ 0 → 0 < v ⬝ᵥ (W *ᵥ v))
    (hG : LdltInverse (e.jac x * W * (e.jac x)ᵀ) (e.ldltInv (e.jac x * W * (e.jac x)ᵀ))) :
    ∃ P, answer e o x W qs .P = .nn P ∧ IsProjector (e.jac x) W P ∧ (W = 1 → Pᵀ = P) :=
  ⟨_, C112_answers_partial e x W o qs .P hqs (by decide), projector_formula hW hG⟩

/-- **C110.** If the rows of the Jacobian are independent, `JdagerLDLT()` returns a right inverse;
otherwise it still returns a generalised inverse. -/
theorem C110_right_inverse (e : Ext σ m n) (o : Obj σ m n) (x : σ) (W : Matrix n n ℝ) (qs : List Query)
    (hqs : Query.JdagerSVD ∉ qs) (hW : ∀ v : n → ℝ, v ≠ 0 → 0 < v ⬝ᵥ (W *ᵥ v))
    (hG : LdltInverse (e.jac x * W * (e.jac x)ᵀ) (e.ldltInv (e.jac x * W * (e.jac x)ᵀ))) :
    ∃ X, answer e o x W qs .JdagerLDLT = .nm X ∧ e.jac x * X * e.jac x = e.jac x ∧
      ((∀ l : m → ℝ, (e.jac x)ᵀ *ᵥ l = 0 → l = 0) → e.jac x * X = 1) :=
  ⟨_, C112_answers_partial e x W o qs .JdagerLDLT hqs (by decide), right_inverse_formula hW hG⟩

/-- **C111 (partial).** Along a differentiable motion `x` on which the rows of the Jacobian stay
independent, with the default weight, the true time derivative of the null-space projector is the sum
of the value of `dPdt()` and its transpose, and the true time derivative of the inverse is the value of
`dJdagerdt()` plus `P J'ᵀ (J Jᵀ)⁻¹`.  So the value of `dPdt()` satisfies the differentiated constraint
`J' P + J P' = 0`, but it is not the derivative, see `C111_derivative_violated`. -/
theorem C111_derivative_partial (e : Ext σ m n) (o : Obj σ m n) (x : ℝ → σ) (t : ℝ)
    (qs : ℝ → List Query) (hqs : ∀ s, Query.JdagerSVD ∉ qs s)
    (hJ : MDeriv (fun s => e.jac (x s)) (e.djac (x t)) t)
    (hr : ∀ s, IsUnit (e.jac (x s) * (e.jac (x s))ᵀ).det)
    (hL : ∀ A, Aᵀ = A → LdltInverse A (e.ldltInv A)) :
    ∃ (X : ℝ → Matrix n m ℝ) (P : ℝ → Matrix n n ℝ) (dX : Matrix n m ℝ) (dP : Matrix n n ℝ),
      (∀ s, answer e o (x s) 1 (qs s) .JdagerLDLT = .nm (X s)) ∧
      (∀ s, answer e o (x s) 1 (qs s) .P = .nn (P s)) ∧
      answer e o (x t) 1 (qs t) .dJdagerdt = .nm dX ∧
      answer e o (x t) 1 (qs t) .dPdt = .nn dP ∧
      MDeriv P (dP + dPᵀ) t ∧
      MDeriv X (dX + P t * (e.djac (x t))ᵀ * (e.jac (x t) * (e.jac (x t))ᵀ)⁻¹) t ∧
      e.djac (x t) * P t + e.jac (x t) * dP = 0 := by
  have hd : ∀ s, specDager e (x s) 1 = dag (e.jac (x s)) := fun s =>
    dag_is_code (hL _ (by simp [transpose_mul])) (hr s)
  have h : ∀ s q, q ≠ Query.JdagerSVD → answer e o (x s) 1 (qs s) q = spec e (x s) 1 q :=
    fun s q hq => C112_answers_partial e (x s) 1 o (qs s) q (hqs s) hq
  refine ⟨fun s => dag (e.jac (x s)), fun s => 1 - dag (e.jac (x s)) * e.jac (x s),
    -dag (e.jac (x t)) * e.djac (x t) * dag (e.jac (x t)),
    -dag (e.jac (x t)) * e.djac (x t) * (1 - dag (e.jac (x t)) * e.jac (x t)), ?_, ?_, ?_, ?_,
    derivative_formula hJ hr⟩
  · intro s; rw [h s _ (by decide), spec, hd]
  · intro s; rw [h s _ (by decide), spec, hd]
  · rw [h t _ (by decide), spec, hd]
  · rw [h t _ (by decide), spec, hd]

/-- The turning Jacobian as an object of the class. -/
noncomputable def turningExt : Ext ℝ (Fin 1) (Fin 2) where
  jac := turning
  djac := fun _ => !![0, 1]
  ldltInv := fun A => !![(A 0 0)⁻¹]
  svdInv := fun _ => 0

/-- The hypotheses of `C111_derivative_partial` are met. -/
example : MDeriv (fun s => turningExt.jac s) (turningExt.djac 0) 0 ∧
    (∀ s, IsUnit (turningExt.jac s * (turningExt.jac s)ᵀ).det) ∧
    ∀ A, Aᵀ = A → LdltInverse A (turningExt.ldltInv A) :=
  ⟨turning_deriv 0, turning_unit, fun A _ => exExt_ldlt A⟩

/-- **C111, violated.** For the Jacobian `[1, t]` at `t = 0` the functions documented as "the time
derivative of right inverse" and "the time derivative of the null space projector" return matrices that
are not those derivatives. -/
theorem C111_derivative_violated (o : Obj ℝ (Fin 1) (Fin 2)) :
    ∃ (e : Ext ℝ (Fin 1) (Fin 2)) (X : ℝ → Matrix (Fin 2) (Fin 1) ℝ) (P : ℝ → Matrix (Fin 2) (Fin 2) ℝ)
      (dX : Matrix (Fin 2) (Fin 1) ℝ) (dP : Matrix (Fin 2) (Fin 2) ℝ),
      (∀ A, Aᵀ = A → LdltInverse A (e.ldltInv A)) ∧
      MDeriv e.jac (e.djac 0) 0 ∧ (∀ s, IsUnit (e.jac s * (e.jac s)ᵀ).det) ∧
      (∀ s, answer e o s 1 [] .JdagerLDLT = .nm (X s)) ∧ (∀ s, answer e o s 1 [] .P = .nn (P s)) ∧
      answer e o 0 1 [] .dJdagerdt = .nm dX ∧ answer e o 0 1 [] .dPdt = .nn dP ∧
      ¬ MDeriv X dX 0 ∧ ¬ MDeriv P dP 0 := by
  have hd : ∀ s, specDager turningExt s 1 = dag (turning s) := fun s =>
    dag_is_code (exExt_ldlt _) (turning_unit s)
  have h : ∀ s q, q ≠ Query.JdagerSVD → answer turningExt o s 1 [] q = spec turningExt s 1 q :=
    fun s q hq => C112_answers_partial turningExt s 1 o [] q (by simp) hq
  refine ⟨turningExt, fun s => dag (turning s), fun s => 1 - dag (turning s) * turning s,
    -dag (turning 0) * (!![0, 1] : Matrix (Fin 1) (Fin 2) ℝ) * dag (turning 0),
    -dag (turning 0) * (!![0, 1] : Matrix (Fin 1) (Fin 2) ℝ) * (1 - dag (turning 0) * turning 0), fun A _ => exExt_ldlt A,
    turning_deriv 0, turning_unit, ?_, ?_, ?_, ?_, derivative_formula_wrong.1, derivative_formula_wrong.2⟩
  · intro s; rw [h s _ (by decide), spec, hd]
  · intro s; rw [h s _ (by decide), spec, hd]; rfl
  · rw [h 0 _ (by decide), spec, hd]; rfl
  · rw [h 0 _ (by decide), spec, hd]; rfl

end object

end CT.OpJac
