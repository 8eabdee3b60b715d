import Verif.Model.Geometry
import Verif.Props.FrameJac
import Mathlib.Analysis.InnerProductSpace.PiL2
import Mathlib.Analysis.InnerProductSpace.Projection.Minimal
import Mathlib.Tactic.Linarith
import Mathlib.Tactic.Positivity
import Mathlib.Tactic.LinearCombination
import Mathlib.Tactic.FieldSimp
import Mathlib.Tactic.FinCases
import Mathlib.Tactic.NormNum

/-! # C142, C143: obstacles and planes -/

namespace CT.Geometry

open Matrix FrameJac

/-! ### C142 -/

/-- The points of the solid ellipsoid with centre `x0`, whose axes are the columns of `S` and have half lengths `a`. -/
def Solid (x0 : V3) (S : M3) (a : V3) (p : V3) : Prop := ∑ i, (((fun k => S k i) ⬝ᵥ (p - x0)) / a i) ^ 2 ≤ 1

/-- The points in its interior. -/
def Interior (x0 : V3) (S : M3) (a : V3) (p : V3) : Prop := ∑ i, (((fun k => S k i) ⬝ᵥ (p - x0)) / a i) ^ 2 < 1

/-- The function is the squared length of `A Sᵀ (x - x0)`, minus one. -/
theorem inside_eq (e : Ellipsoid) (x : V3) :
    e.insideEllipsoid x = (e.A *ᵥ (e.Sᵀ *ᵥ (x - e.x0))) ⬝ᵥ (e.A *ᵥ (e.Sᵀ *ᵥ (x - e.x0))) - 1 := by
  rw [Ellipsoid.insideEllipsoid]
  congr 1
  rw [← dotProduct_mulVec, ← dotProduct_mulVec, vecMul_transpose, ← mulVec_transpose]

/-- With the reciprocals of the half lengths on the diagonal of `A`. -/
theorem inside_diag (x0 : V3) (S : M3) (a p : V3) :
    (⟨x0, diagonal fun i => (a i)⁻¹, S⟩ : Ellipsoid).insideEllipsoid p
      = ∑ i, (((fun k => S k i) ⬝ᵥ (p - x0)) / a i) ^ 2 - 1 := by
  rw [inside_eq]
  simp only [mulVec_diagonal, dotProduct]
  congr 1
  refine Finset.sum_congr rfl fun i _ => ?_
  simp only [mulVec, dotProduct, transpose_apply]
  rw [div_eq_inv_mul]
  ring

/-- C142, partial: the sign of `insideEllipsoid` tells whether a point is in the ellipsoid, provided the matrix
`A` has the *reciprocals* of the half axes on its diagonal; and the constraint is met exactly by the states whose
point is not in the interior of the obstacle as it is at the time of the call, and so is a copy of it. -/
theorem C142_obstacle_partial {n m : ℕ} (big : ℝ) (x0 : V3) (S : M3) (a : V3) (p : V3)
    (k : ℕ) (pos : (Fin n → ℝ) → V3) (jac : (Fin n → ℝ) → Matrix (Fin 3) (Fin n) ℝ) (h : Heap)
    (hk : h k = ⟨x0, diagonal fun i => (a i)⁻¹, S⟩) (x : Fin n → ℝ) (u : Fin m → ℝ)
    (hbig : (Obstacle.new big k pos jac).evaluate h x u ≤ big) :
    ((h k).insideEllipsoid p ≤ 0 ↔ Solid x0 S a p)
    ∧ ((Obstacle.new big k pos jac).lb ≤ (Obstacle.new big k pos jac).evaluate h x u
        ∧ (Obstacle.new big k pos jac).evaluate h x u ≤ (Obstacle.new big k pos jac).ub
      ↔ ¬ Interior x0 S a (pos x))
    ∧ ((Obstacle.new big k pos jac).clone.lb ≤ (Obstacle.new big k pos jac).clone.evaluate h x u
        ∧ (Obstacle.new big k pos jac).clone.evaluate h x u ≤ (Obstacle.new big k pos jac).clone.ub
      ↔ ¬ Interior x0 S a (pos x)) := by
  refine ⟨?_, (fun w => ⟨w, w⟩) ?_⟩
  · rw [hk, inside_diag, Solid]
    constructor <;> intro h <;> linarith
  · have e : (Obstacle.new big k pos jac).evaluate h x u = (h k).insideEllipsoid (pos x) := rfl
    rw [and_iff_left (by exact hbig), e, hk, inside_diag, Interior, not_lt]
    show (0 : ℝ) ≤ _ ↔ _
    constructor <;> intro h <;> linarith

/-- The sphere of radius 2 about the origin. -/
noncomputable def ball2 : Ellipsoid := ⟨0, diagonal fun _ => (2 : ℝ)⁻¹, 1⟩

/-- Hypotheses of `C142_obstacle_partial`: a point (3, 0, 0) near the sphere of radius 2. -/
example : (Obstacle.new (n := 1) 100 0 (fun x => ![x 0, 0, 0]) fun _ => !![1; 0; 0]).evaluate (m := 0) (fun _ => ball2)
    ![3] ![] ≤ 100 := by
  show ball2.insideEllipsoid _ ≤ _
  rw [ball2, inside_diag]
  simp [Fin.sum_univ_three, dotProduct, Matrix.one_apply, Obstacle.new]
  norm_num

/-- C142: the Jacobians are the derivatives of the constraint along every motion of the state and input, for every
matrix `A` and orientation, whenever the Jacobian given by the user is that of the position given by the user. -/
theorem C142_jacobian {n m : ℕ} (c : Obstacle n) (h : Heap) (x : ℝ → Fin n → ℝ) (xd : Fin n → ℝ) (u : ℝ → Fin m → ℝ)
    (ud : Fin m → ℝ) (t : ℝ) (_hu : VDeriv u ud t)
    (hpos : VDeriv (fun s => c.xFun (x s)) (c.dXFun (x t) *ᵥ xd) t) :
    HasDerivAt (fun s => c.evaluate h (x s) (u s))
      (c.jacobianState h (x t) (u t) ⬝ᵥ xd + c.jacobianInput (x t) (u t) ⬝ᵥ ud) t := by
  set e := h c.obstacle with he
  set w : ℝ → V3 := fun s => e.A *ᵥ (e.Sᵀ *ᵥ (c.xFun (x s) - e.x0)) with hw
  have d0 : VDeriv (fun s => c.xFun (x s) - e.x0) (c.dXFun (x t) *ᵥ xd - 0) t := hpos.sub (VDeriv.const _ _)
  rw [sub_zero] at d0
  have lin : ∀ (M : M3) {f : ℝ → V3} {f' : V3}, VDeriv f f' t → VDeriv (fun s => M *ᵥ f s) (M *ᵥ f') t := by
    intro M f f' hf
    have := mulVec_deriv (A := fun _ => M) (A' := 0) (fun i j => hasDerivAt_const _ _) hf
    simpa using this
  have d1 : VDeriv w (e.A *ᵥ (e.Sᵀ *ᵥ (c.dXFun (x t) *ᵥ xd))) t := lin _ (lin _ d0)
  have d2 : HasDerivAt (fun s => w s ⬝ᵥ w s - 1) (2 * (w t ⬝ᵥ (e.A *ᵥ (e.Sᵀ *ᵥ (c.dXFun (x t) *ᵥ xd))))) t := by
    have := ((((d1 0).mul (d1 0)).add ((d1 1).mul (d1 1))).add ((d1 2).mul (d1 2))).sub_const 1
    refine (this.congr_deriv ?_).congr_of_eventuallyEq (Filter.Eventually.of_forall fun s => ?_)
    · simp only [dotProduct, Fin.sum_univ_three]; ring
    · simp only [dotProduct, Fin.sum_univ_three, Pi.add_apply, Pi.mul_apply]
  have ev : (fun s => c.evaluate h (x s) (u s)) = fun s => w s ⬝ᵥ w s - 1 := by
    funext s; exact inside_eq e _
  rw [ev]
  refine d2.congr_deriv ?_
  have hj : c.jacobianState h (x t) (u t) ⬝ᵥ xd
      = (((((2 : ℝ) • (c.xFun (x t) - e.x0)) ᵥ* e.S) ᵥ* e.Aᵀ) ᵥ* e.A) ᵥ* e.Sᵀ ⬝ᵥ (c.dXFun (x t) *ᵥ xd) := by
    rw [dotProduct_mulVec]; rfl
  rw [hj, Obstacle.jacobianInput, zero_dotProduct, add_zero, ← dotProduct_mulVec, ← dotProduct_mulVec, vecMul_transpose,
    ← mulVec_transpose, mulVec_smul, mulVec_smul, smul_dotProduct, smul_eq_mul]

/-- Hypotheses of `C142_jacobian`: a point that moves along a parabola. -/
example : VDeriv (fun s : ℝ => (Obstacle.new (n := 1) 100 0 (fun x => ![x 0, x 0 ^ 2, 0]) fun x => !![1; 2 * x 0; 0]).xFun ![s])
    ((Obstacle.new (n := 1) 100 0 (fun x => ![x 0, x 0 ^ 2, 0]) fun x => !![1; 2 * x 0; 0]).dXFun ![3] *ᵥ ![1]) 3 := by
  intro i
  fin_cases i
  · simpa [Obstacle.new, mulVec, dotProduct] using hasDerivAt_id' (3 : ℝ)
  · have := (hasDerivAt_id' (3 : ℝ)).fun_pow 2
    simpa [Obstacle.new, mulVec, dotProduct] using this
  · simpa [Obstacle.new, mulVec, dotProduct] using hasDerivAt_const (3 : ℝ) (0 : ℝ)

/-- C142 is violated in the reading of the documentation (Ellipsoid.h:28, 53), where `A` is "the matrix of half axes":
for the sphere with half axes 2 about the origin, the point (1, 0, 0), which is inside, is reported as outside. -/
theorem C142_half_axes_violated :
    Solid 0 1 (fun _ => 2) ![1, 0, 0] ∧ 1 < (⟨0, diagonal fun _ => 2, 1⟩ : Ellipsoid).insideEllipsoid ![1, 0, 0] := by
  constructor
  · simp [Solid, Fin.sum_univ_three, dotProduct, Matrix.one_apply]
    norm_num
  · rw [inside_eq]
    simp [Fin.sum_univ_three, dotProduct, mulVec, Matrix.one_apply, Matrix.diagonal_apply]
    norm_num

/-- C142 is violated in the reading of the documentation (Ellipsoid.h:33-34), "a value =< 1 if point x is inside the
ellipsoid, > 1 otherwise": for the unit sphere and the point (1.2, 0, 0), which is outside, the value is below 1. -/
theorem C142_threshold_violated :
    ¬ Solid 0 1 (fun _ => 1) ![1.2, 0, 0] ∧ (⟨0, 1, 1⟩ : Ellipsoid).insideEllipsoid ![1.2, 0, 0] < 1 := by
  constructor
  · simp [Solid, Fin.sum_univ_three, dotProduct, Matrix.one_apply]
    norm_num
  · rw [inside_eq]
    simp [dotProduct, Fin.sum_univ_three]
    norm_num

/-! ### C143 -/

/-- The points of a plane `a x + b y + c z = d`. -/
def Plane.On (p : Plane) (x : V3) : Prop := p.a * x 0 + p.b * x 1 + p.c * x 2 = p.d

/-- C143: solving for a coordinate returns the only value that puts the point on the plane. -/
theorem C143_solve (p : Plane) (x y z : ℝ) :
    (p.a ≠ 0 → (p.On ![x, y, z] ↔ x = p.solveX y z)) ∧ (p.b ≠ 0 → (p.On ![x, y, z] ↔ y = p.solveY x z))
    ∧ (p.c ≠ 0 → (p.On ![x, y, z] ↔ z = p.solveZ x y)) := by
  refine ⟨fun h => ?_, fun h => ?_, fun h => ?_⟩ <;>
    simp only [Plane.On, Plane.solveX, Plane.solveY, Plane.solveZ, eq_div_iff h, Matrix.cons_val_zero, Matrix.cons_val_one,
      Matrix.cons_val] <;>
    constructor <;> intro h' <;> linarith

/-- What `colPivHouseholderQr().solve` is documented to return: a least squares solution. -/
def LeastSquares (qr : (k : ℕ) → Matrix (Fin k) (Fin 3) ℝ → (Fin k → ℝ) → V3) : Prop :=
  ∀ k A b x, (A *ᵥ qr k A b - b) ⬝ᵥ (A *ᵥ qr k A b - b) ≤ (A *ᵥ x - b) ⬝ᵥ (A *ᵥ x - b)

/-- There are such solvers. -/
theorem leastSquares_exists : ∃ qr, LeastSquares qr := by
  have h : ∀ k (A : Matrix (Fin k) (Fin 3) ℝ) (b : Fin k → ℝ), ∃ y : V3,
      ∀ x : V3, (A *ᵥ y - b) ⬝ᵥ (A *ᵥ y - b) ≤ (A *ᵥ x - b) ⬝ᵥ (A *ᵥ x - b) := by
    intro k A b
    let K : Submodule ℝ (EuclideanSpace ℝ (Fin k)) := LinearMap.range ((WithLp.linearEquiv 2 ℝ (Fin k → ℝ)).symm.toLinearMap ∘ₗ A.mulVecLin)
    have hn : ∀ v : Fin k → ℝ, ‖(WithLp.toLp 2 v : EuclideanSpace ℝ (Fin k))‖ ^ 2 = v ⬝ᵥ v := fun v => by
      rw [EuclideanSpace.norm_sq_eq]
      simp [dotProduct, sq]
    obtain ⟨v, ⟨y, hy⟩, hv⟩ := K.exists_norm_eq_iInf_of_complete_subspace (Submodule.complete_of_finiteDimensional K) (WithLp.toLp 2 b)
    refine ⟨y, fun x => ?_⟩
    have h1 : ‖(WithLp.toLp 2 b : EuclideanSpace ℝ (Fin k)) - v‖ ≤ ‖(WithLp.toLp 2 b : EuclideanSpace ℝ (Fin k)) - WithLp.toLp 2 (A *ᵥ x)‖ := by
      rw [hv]
      exact ciInf_le ⟨0, by rintro _ ⟨w, rfl⟩; exact norm_nonneg _⟩ (⟨WithLp.toLp 2 (A *ᵥ x), ⟨x, rfl⟩⟩ : K)
    have hy' : v = WithLp.toLp 2 (A *ᵥ y) := hy.symm
    rw [hy', norm_sub_rev, norm_sub_rev (WithLp.toLp 2 b), ← WithLp.toLp_sub, ← WithLp.toLp_sub] at h1
    rw [← hn, ← hn]
    gcongr
  choose f hf using h
  exact ⟨f, hf⟩

/-- The sum of the squared residuals of the equation of a plane with `d = 1`. -/
def misfit (points : List V3) (c : V3) : ℝ := (points.map fun x => (c ⬝ᵥ x - 1) ^ 2).sum

theorem misfit_eq (points : List V3) (c : V3) :
    ((Matrix.of fun i => points.get i : Matrix (Fin points.length) (Fin 3) ℝ) *ᵥ c - fun _ => 1)
      ⬝ᵥ ((Matrix.of fun i => points.get i : Matrix (Fin points.length) (Fin 3) ℝ) *ᵥ c - fun _ => 1) = misfit points c := by
  rw [misfit]
  conv_rhs => rw [← List.ofFn_get points, List.map_ofFn, List.sum_ofFn]
  refine Finset.sum_congr rfl fun i _ => ?_
  simp only [Pi.sub_apply, mulVec, Matrix.of_apply, Function.comp]
  rw [dotProduct_comm (points.get i)]
  ring

/-- C143, partial: with at least three points the estimate is the plane `a x + b y + c z = 1` with the least
sum of squared residuals; when all points are on a plane that does not contain the origin, they are all on the
estimated plane.  With fewer points there is an exception. -/
theorem C143_estimate_partial (qr : (k : ℕ) → Matrix (Fin k) (Fin 3) ℝ → (Fin k → ℝ) → V3) (hqr : LeastSquares qr)
    (points : List V3) :
    (points.length < 3 → estimate qr points = .exc)
    ∧ (3 ≤ points.length → ∃ p, estimate qr points = .ok p ∧ p.d = 1
        ∧ (∀ c, misfit points ![p.a, p.b, p.c] ≤ misfit points c)
        ∧ ((∃ q : Plane, q.d ≠ 0 ∧ ∀ x ∈ points, q.On x) → ∀ x ∈ points, p.On x)) := by
  refine ⟨fun h => by simp [estimate, h], fun h => ?_⟩
  have hn : ¬ points.length < 3 := by omega
  simp only [estimate, hn, if_false]
  set c := qr points.length (Matrix.of fun i => points.get i) fun _ => 1 with hc
  have hcc : ![c 0, c 1, c 2] = c := by funext i; fin_cases i <;> rfl
  have hmin : ∀ c', misfit points c ≤ misfit points c' := by
    intro c'
    have := hqr points.length (Matrix.of fun i => points.get i) (fun _ => 1) c'
    rwa [← hc, misfit_eq, misfit_eq] at this
  refine ⟨_, rfl, rfl, fun c' => by simpa only [hcc] using hmin c', ?_⟩
  rintro ⟨q, hq, hon⟩ x hx
  have h0 : misfit points ![q.a / q.d, q.b / q.d, q.c / q.d] = 0 := by
    rw [misfit]
    refine List.sum_eq_zero fun y hy => ?_
    obtain ⟨z, hz, rfl⟩ := List.mem_map.1 hy
    have := hon z hz
    rw [Plane.On] at this
    have e : ![q.a / q.d, q.b / q.d, q.c / q.d] ⬝ᵥ z = 1 := by
      simp only [dotProduct, Fin.sum_univ_three, Matrix.cons_val_zero, Matrix.cons_val_one, Matrix.cons_val]
      field_simp
      linarith
    rw [e]; ring
  have h1 : misfit points c ≤ 0 := h0 ▸ hmin _
  have h2 : (c ⬝ᵥ x - 1) ^ 2 ≤ misfit points c :=
    List.single_le_sum (by intro y hy; obtain ⟨z, _, rfl⟩ := List.mem_map.1 hy; positivity) _
      (List.mem_map.2 ⟨x, hx, rfl⟩)
  have h3 : c ⬝ᵥ x - 1 = 0 := by
    have : (c ⬝ᵥ x - 1) ^ 2 = 0 := le_antisymm (h2.trans h1) (sq_nonneg _)
    exact pow_eq_zero_iff (two_ne_zero) |>.1 this
  simp only [Plane.On]
  simp only [dotProduct, Fin.sum_univ_three] at h3
  linarith

/-- C143 is violated for planes through the origin: for points of the ground `z = 0`, no estimate contains all of them,
whatever the solver. -/
theorem C143_ground_violated (qr : (k : ℕ) → Matrix (Fin k) (Fin 3) ℝ → (Fin k → ℝ) → V3) :
    ∃ (points : List V3) (q p : Plane), (∀ x ∈ points, q.On x) ∧ q.c ≠ 0 ∧ estimate qr points = .ok p
      ∧ ¬ ∀ x ∈ points, p.On x := by
  refine ⟨[![1, 0, 0], ![0, 1, 0], ![1, 1, 0]], ⟨0, 0, 1, 0⟩, _, ?_, one_ne_zero, rfl, ?_⟩
  · simp [Plane.On]
  · intro h
    have h0 := h ![1, 0, 0] (by simp)
    have h1 := h ![0, 1, 0] (by simp)
    have h2 := h ![1, 1, 0] (by simp)
    simp [Plane.On] at h0 h1 h2
    linarith

end CT.Geometry
