import Verif.Model.FrameJac
import Verif.Model.Res

/-!
# Geometry: ellipsoids, the obstacle constraint, planes

Models `ct_core/include/ct/core/geometry/Ellipsoid.h`, `Plane.h`, `PlaneEstimator.h` and
`ct_optcon/include/ct/optcon/constraint/term/ObstacleConstraint-impl.h`.  Scalars are the reals.
-/

namespace CT.Geometry

open Matrix FrameJac

/-! ### Ellipsoid -/

/-- The members of `Ellipsoid` (Ellipsoid.h:52-54). -/
structure Ellipsoid where
  x0 : V3
  A : M3
  S : M3

/-- `insideEllipsoid` (Ellipsoid.h:40-43): the products from left to right. -/
def Ellipsoid.insideEllipsoid (e : Ellipsoid) (x : V3) : ℝ :=
  ((((x - e.x0) ᵥ* e.S) ᵥ* e.Aᵀ) ᵥ* e.A) ᵥ* e.Sᵀ ⬝ᵥ (x - e.x0) - 1

/-! ### The obstacle constraint -/

/-- The members of `ObstacleConstraint` (ObstacleConstraint.h:56-62): `obstacle` is where the shared pointer
points to, the two functions are given by the user. -/
structure Obstacle (n : ℕ) where
  obstacle : ℕ
  xFun : (Fin n → ℝ) → V3
  dXFun : (Fin n → ℝ) → Matrix (Fin 3) (Fin n) ℝ
  lb : ℝ
  ub : ℝ

/-- The ellipsoids in memory. -/
abbrev Heap := ℕ → Ellipsoid

variable {n m : ℕ}

/-- The constructor (ObstacleConstraint-impl.h:13-24); `big` is the largest number of the scalar type. -/
def Obstacle.new (big : ℝ) (obstacle : ℕ) (getPosition : (Fin n → ℝ) → V3)
    (getJacobian : (Fin n → ℝ) → Matrix (Fin 3) (Fin n) ℝ) : Obstacle n :=
  { obstacle := obstacle, xFun := getPosition, dXFun := getJacobian, lb := 0, ub := big }

/-- The copy constructor and `clone` (ObstacleConstraint-impl.h:31-41): pointer and functions are copied, the
bounds with the base class. -/
def Obstacle.clone (c : Obstacle n) : Obstacle n :=
  { obstacle := c.obstacle, xFun := c.xFun, dXFun := c.dXFun, lb := c.lb, ub := c.ub }

/-- `evaluate` (ObstacleConstraint-impl.h:49-59); time has no effect. -/
def Obstacle.evaluate (c : Obstacle n) (h : Heap) (x : Fin n → ℝ) (_u : Fin m → ℝ) : ℝ :=
  (h c.obstacle).insideEllipsoid (c.xFun x)

/-- `jacobianState` (ObstacleConstraint-impl.h:61-75). -/
def Obstacle.jacobianState (c : Obstacle n) (h : Heap) (x : Fin n → ℝ) (_u : Fin m → ℝ) : Fin n → ℝ :=
  let e := h c.obstacle
  let dist := c.xFun x - e.x0
  ((((((2 : ℝ) • dist) ᵥ* e.S) ᵥ* e.Aᵀ) ᵥ* e.A) ᵥ* e.Sᵀ) ᵥ* c.dXFun x

/-- `jacobianInput` (ObstacleConstraint-impl.h:77-84). -/
def Obstacle.jacobianInput (_c : Obstacle n) (_x : Fin n → ℝ) (_u : Fin m → ℝ) : Fin m → ℝ := 0

/-! ### Planes -/

/-- The coefficients of a `Plane` (Plane.h:98). -/
structure Plane where
  a : ℝ
  b : ℝ
  c : ℝ
  d : ℝ

/-- `solveX` (Plane.h:72). -/
noncomputable def Plane.solveX (p : Plane) (y z : ℝ) : ℝ := (p.d - p.b * y - p.c * z) / p.a

/-- `solveY` (Plane.h:80). -/
noncomputable def Plane.solveY (p : Plane) (x z : ℝ) : ℝ := (p.d - p.a * x - p.c * z) / p.b

/-- `solveZ` (Plane.h:88). -/
noncomputable def Plane.solveZ (p : Plane) (x y : ℝ) : ℝ := (p.d - p.a * x - p.b * y) / p.c

/-- `PlaneEstimator::estimate` (PlaneEstimator.h:37-56); `qr` is `A.colPivHouseholderQr().solve(d)` of Eigen. -/
def estimate (qr : (k : ℕ) → Matrix (Fin k) (Fin 3) ℝ → (Fin k → ℝ) → V3) (points : List V3) : Res Plane :=
  if points.length < 3 then .exc
  else
    let A : Matrix (Fin points.length) (Fin 3) ℝ := Matrix.of fun i => points.get i
    let c := qr points.length A fun _ => 1
    .ok ⟨c 0, c 1, c 2, 1⟩

end CT.Geometry
