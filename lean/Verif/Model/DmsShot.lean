import Verif.Model.DmsVector
import Verif.Model.Sensitivity

/-!
# Shots of multiple shooting

Models `ct_optcon/include/ct/optcon/dms/dms_core/SensitivityIntegratorCT.h`, `ShotContainer.h`, the steppers of
`ct_core/include/ct/core/integration/internal/SteppersCT.h`, and the way `Nlp::extractOptimizationVars` and
`DmsProblem::updateProblem` drive them. Index types `ι` (state) and `κ` (control) are arbitrary finite types. Not
modelled: printing, the OpenMP loop over shots (every shot owns its data).
-/

namespace CT.Shot

open Matrix
open CT.Sens (Kind)

variable {K : Type} [Field K]

/-! ### Steppers with a stateful right-hand side -/

section Step
variable {M σ : Type} [AddCommGroup M] [Module K M]

/-- `do_step` of `StepperEulerCT` and `StepperRK4CT` (SteppersCT.h:88-95, 114-126). The right-hand side has side effects
on `σ` (caches and indices of the integrator). -/
def step (kd : Kind) (f : σ → M → K → Res (M × σ)) (s : σ) (m : M) (t dt : K) : Res (M × σ) :=
  match kd with
  | .euler => do
      let (k1, s) ← f s m t
      pure (m + dt • k1, s)
  | .rk4 => do
      let h : K := (1 / 2) * dt
      let (k1, s) ← f s m t
      let (k2, s) ← f s (m + h • k1) (t + h)
      let (k3, s) ← f s (m + h • k2) (t + h)
      let (k4, s) ← f s (m + dt • k3) (t + dt)
      pure (m + ((1 / 6) * dt) • (k1 + (2 : K) • k2 + (2 : K) • k3 + k4), s)

/-- `for (i < numSteps) { do_step(rhs, m, time, dt); time += dt; }` (SensitivityIntegratorCT.h:277-281, 295-299, ...). -/
def loop (kd : Kind) (f : σ → M → K → Res (M × σ)) (dt : K) : ℕ → σ → M → K → Res (M × σ)
  | 0, s, m, _ => .ok (m, s)
  | n + 1, s, m, t => do
      let (m', s') ← step kd f s m t dt
      loop kd f dt n s' m' (t + dt)

/-- The same loop also pushing the states and times (SensitivityIntegratorCT.h:241-247). -/
def trajLoop (kd : Kind) (f : σ → M → K → Res (M × σ)) (dt : K) : ℕ → σ → M → K → Res (List (M × K) × σ)
  | 0, s, _, _ => .ok ([], s)
  | n + 1, s, m, t => do
      let (m', s') ← step kd f s m t dt
      let (rest, s'') ← trajLoop kd f dt n s' m' (t + dt)
      pure ((m', t + dt) :: rest, s'')

end Step

variable {ι κ : Type} [Fintype ι] [DecidableEq ι] [Fintype κ] [DecidableEq κ]

/-- An entry of `statesCached_`, `controlsCached_`, `timesCached_`. -/
structure Pt (ι κ K : Type) where
  x : ι → K
  u : κ → K
  t : K

/-- What a shot is given: dynamics, its Jacobians, intermediate cost and its gradients, the control of the shot as a
function of the spline's content `Q` and time with its derivatives by the two nodes, and the constants of the shot. -/
structure Sys (ι κ K Q : Type) where
  dyn : (ι → K) → (κ → K) → K → (ι → K)
  dA : (ι → K) → (κ → K) → K → Matrix ι ι K
  dB : (ι → K) → (κ → K) → K → Matrix ι κ K
  cost : (ι → K) → (κ → K) → K → K
  costX : (ι → K) → (κ → K) → K → (ι → K)
  costU : (ι → K) → (κ → K) → K → (κ → K)
  ctl : Q → K → Res (κ → K)
  d0 : K → Res (Matrix κ κ K)
  df : K → Res (Matrix κ κ K)
  kind : Kind
  tStart : K
  nSteps : ℕ
  dt : K
  /-- `splineType_ == PIECEWISE_LINEAR` -/
  linear : Bool
  /-- `costEvaluationType_ == FULL`: then `setCostFunction` has been called and `cacheSensitivities_` is set. -/
  full : Bool

variable {Q : Type}

/-- `xDot_` (SensitivityIntegratorCT.h:153-165); `cacheData_` has been set by `setLinearSystem` (118). -/
def xDot (S : Sys ι κ K Q) (q : Q) (c : List (Pt ι κ K)) (x : ι → K) (t : K) : Res ((ι → K) × List (Pt ι κ K)) := do
  let u ← S.ctl q t
  pure (S.dyn x u t, c ++ [⟨x, u, t⟩])

/-- `dX0dot_` (SensitivityIntegratorCT.h:120-126); the index and `arraydX0_` are the side effects. -/
def dX0dot (full : Bool) (As : List (Matrix ι ι K)) (s : ℕ × List (Matrix ι ι K)) (m : Matrix ι ι K) (_ : K) :
    Res (Matrix ι ι K × (ℕ × List (Matrix ι ι K))) := do
  let A ← idx As s.1
  pure (A * m, (s.1 + 1, if full then s.2 ++ [m] else s.2))

/-- `dU0dot_` and `dUfdot_` (SensitivityIntegratorCT.h:128-148), `d` being `getDerivativeU0` or `getDerivativeUf`. -/
def dUdot (full : Bool) (As : List (Matrix ι ι K)) (Bs : List (Matrix ι κ K)) (pts : List (Pt ι κ K))
    (d : K → Res (Matrix κ κ K)) (s : ℕ × List (Matrix ι κ K)) (m : Matrix ι κ K) (_ : K) :
    Res (Matrix ι κ K × (ℕ × List (Matrix ι κ K))) := do
  let A ← idx As s.1
  let B ← idx Bs s.1
  let p ← idx pts s.1
  let D ← d p.t
  pure (A * m + B * D, (s.1 + 1, if full then s.2 ++ [m] else s.2))

/-- `costDot_` (SensitivityIntegratorCT.h:178-183). -/
def costDot (S : Sys ι κ K Q) (pts : List (Pt ι κ K)) (i : ℕ) (_ : K) (_ : K) : Res (K × ℕ) := do
  let p ← idx pts i
  pure (S.cost p.x p.u p.t, i + 1)

/-- `costdX0dot_` (SensitivityIntegratorCT.h:185-190). -/
def costXdot (S : Sys ι κ K Q) (pts : List (Pt ι κ K)) (Xs : List (Matrix ι ι K)) (i : ℕ) (_ : ι → K) (_ : K) :
    Res ((ι → K) × ℕ) := do
  let p ← idx pts i
  let X ← idx Xs i
  pure (Xᵀ *ᵥ S.costX p.x p.u p.t, i + 1)

/-- `costdU0dot_` and `costdUfdot_` (SensitivityIntegratorCT.h:192-210). -/
def costUdot (S : Sys ι κ K Q) (pts : List (Pt ι κ K)) (Us : List (Matrix ι κ K)) (d : K → Res (Matrix κ κ K)) (i : ℕ)
    (_ : κ → K) (_ : K) : Res ((κ → K) × ℕ) := do
  let p ← idx pts i
  let U ← idx Us i
  let D ← d p.t
  pure (Uᵀ *ᵥ S.costX p.x p.u p.t + D *ᵥ S.costU p.x p.u p.t, i + 1)

/-! ### `ShotContainer` -/

/-- Members of `ShotContainer` and of its integrator that change: the caches (`pts`, `As`, `Bs`, `dX0s`, `dU0s`, `dUfs`),
the four counters, and the results. `discreteA_`, `discreteB_`, `discreteBNext_` are not initialised by the constructor,
hence optional. -/
structure Box (ι κ K : Type) where
  pts : List (Pt ι κ K)
  As : List (Matrix ι ι K)
  Bs : List (Matrix ι κ K)
  dX0s : List (Matrix ι ι K)
  dU0s : List (Matrix ι κ K)
  dUfs : List (Matrix ι κ K)
  nInt : ℕ
  nCost : ℕ
  nSens : ℕ
  nCostSens : ℕ
  sub : List ((ι → K) × K)
  cost : K
  sens : Option (Matrix ι ι K × Matrix ι κ K × Option (Matrix ι κ K))
  costSens : (ι → K) × (κ → K) × (κ → K)

/-- Constructor (ShotContainer.h:75-90). -/
def Box.new : Box ι κ K := ⟨[], [], [], [], [], [], 0, 0, 0, 0, [], 0, none, (0, 0, 0)⟩

/-- `reset` (ShotContainer.h:204-209). -/
def Box.reset (b : Box ι κ K) : Box ι κ K := { b with pts := [], As := [], Bs := [], dX0s := [], dU0s := [], dUfs := [] }

/-- `integrate` with trajectories (SensitivityIntegratorCT.h:227-249), starting with empty caches. -/
def integrate (S : Sys ι κ K Q) (q : Q) (x : ι → K) : Res (List ((ι → K) × K) × List (Pt ι κ K)) := do
  let (tr, pts) ← trajLoop S.kind (xDot S q) S.dt S.nSteps [] x S.tStart
  pure ((x, S.tStart) :: tr, pts)

/-- `integrateShot` (ShotContainer.h:140-149); `c` is the vector's update counter, `x` its state block of the shot, `q`
the content of the control spline. -/
def Box.integrateShot (S : Sys ι κ K Q) (b : Box ι κ K) (c : ℕ) (x : ι → K) (q : Q) : Res (Box ι κ K) :=
  if c ≠ b.nInt then do
    let (sub, pts) ← integrate S q x
    pure { b with nInt := c, As := [], Bs := [], pts := pts, sub := sub }
  else .ok b

/-- `integrateCost` of the integrator (SensitivityIntegratorCT.h:338-350). -/
def costOf (S : Sys ι κ K Q) (pts : List (Pt ι κ K)) : Res K :=
  if pts = [] then .exc
  else do
    let (v, _) ← loop S.kind (costDot S pts) S.dt S.nSteps 0 0 S.tStart
    pure v

/-- `integrateCost` (ShotContainer.h:151-160). -/
def Box.integrateCost (S : Sys ι κ K Q) (b : Box ι κ K) (c : ℕ) (x : ι → K) (q : Q) : Res (Box ι κ K) :=
  if c ≠ b.nCost then do
    let b ← { b with nCost := c }.integrateShot S c x q
    let v ← costOf S b.pts
    pure { b with cost := v }
  else .ok b

/-- `integrateSensitivityDX0` (SensitivityIntegratorCT.h:288-300), `arr` the array it pushes to. -/
def sensX (S : Sys ι κ K Q) (As : List (Matrix ι ι K)) (arr : List (Matrix ι ι K)) :
    Res (Matrix ι ι K × (ℕ × List (Matrix ι ι K))) :=
  loop S.kind (dX0dot S.full As) S.dt S.nSteps (0, arr) 1 S.tStart

/-- `integrateSensitivityDU0`, `integrateSensitivityDUf` (SensitivityIntegratorCT.h:311-349). -/
def sensU (S : Sys ι κ K Q) (As : List (Matrix ι ι K)) (Bs : List (Matrix ι κ K)) (pts : List (Pt ι κ K))
    (d : K → Res (Matrix κ κ K)) (arr : List (Matrix ι κ K)) : Res (Matrix ι κ K × (ℕ × List (Matrix ι κ K))) :=
  loop S.kind (dUdot S.full As Bs pts d) S.dt S.nSteps (0, arr) 0 S.tStart

/-- Third part of `integrateSensitivities` (ShotContainer.h:177-181). -/
def Box.sensNext (S : Sys ι κ K Q) (b : Box ι κ K) (X : Matrix ι ι K) (U : Matrix ι κ K) : Res (Box ι κ K) :=
  if S.linear then do
    let (F, (_, fs)) ← sensU S b.As b.Bs b.pts S.df b.dUfs
    pure { b with sens := some (X, U, some F), dUfs := fs }
  else pure { b with sens := some (X, U, none) }

/-- `linearize` (SensitivityIntegratorCT.h:438-446). -/
def Box.linearize (S : Sys ι κ K Q) (b : Box ι κ K) : Box ι κ K :=
  { b with
    As := b.As ++ b.pts.map fun p => S.dA p.x p.u p.t
    Bs := b.Bs ++ b.pts.map fun p => S.dB p.x p.u p.t }

/-- `integrateSensitivities` (ShotContainer.h:165-183). -/
def Box.integrateSensitivities (S : Sys ι κ K Q) (b : Box ι κ K) (c : ℕ) (x : ι → K) (q : Q) : Res (Box ι κ K) :=
  if c ≠ b.nSens then do
    let b ← { b with nSens := c }.integrateShot S c x q
    let b := b.linearize S
    let (X, (_, xs)) ← sensX S b.As b.dX0s
    let (U, (_, us)) ← sensU S b.As b.Bs b.pts S.d0 b.dU0s
    { b with dX0s := xs, dU0s := us }.sensNext S X U
  else .ok b

/-- The three cost gradients (SensitivityIntegratorCT.h:360-420), `next` only with piecewise-linear controls
(ShotContainer.h:196-200). -/
def Box.costNext (S : Sys ι κ K Q) (b : Box ι κ K) (X : ι → K) (U : κ → K) : Res (Box ι κ K) :=
  if S.linear then do
    let (F, _) ← loop S.kind (costUdot S b.pts b.dUfs S.df) S.dt S.nSteps 0 0 S.tStart
    pure { b with costSens := (X, U, F) }
  else pure { b with costSens := (X, U, b.costSens.2.2) }

/-- `integrateCostSensitivities` (ShotContainer.h:185-202). -/
def Box.integrateCostSensitivities (S : Sys ι κ K Q) (b : Box ι κ K) (c : ℕ) (x : ι → K) (q : Q) : Res (Box ι κ K) :=
  if c ≠ b.nCostSens then do
    let b ← { b with nCostSens := c }.integrateSensitivities S c x q
    let (X, _) ← loop S.kind (costXdot S b.pts b.dX0s) S.dt S.nSteps 0 0 S.tStart
    let (U, _) ← loop S.kind (costUdot S b.pts b.dU0s S.d0) S.dt S.nSteps 0 0 S.tStart
    b.costNext S X U
  else .ok b

/-! ### Driving a shot -/

/-- Vector, spline content and shot as held by `DmsProblem`; `X` is the type of decision vectors. -/
structure Prob (ι κ K Q X : Type) where
  x : X
  count : ℕ
  spline : Option Q
  box : Box ι κ K

/-- How the shot reads the decision vector: `getOptimizedState(shotNr)` and `getOptimizedInputs()`. -/
structure View (ι K Q X : Type) where
  state : X → (ι → K)
  nodes : X → Q

variable {X : Type}

/-- `extractOptimizationVars(x, isNew)` (Nlp.h:360-370): `setOptimizationVars` (OptVector.h:290-300) increments the
counter; `updateProblem` (DmsProblem.h:177-182) refreshes the spline and resets the shots. -/
def Prob.extract (V : View ι K Q X) (p : Prob ι κ K Q X) (x : X) (isNew : Bool) : Prob ι κ K Q X :=
  if isNew then { x := x, count := p.count + 1, spline := some (V.nodes x), box := p.box.reset } else p

/-- Changing the vector by any of the calls that do not go through `extractOptimizationVars`: `setInitialGuess`,
`changeInitialState`, `changeDesiredState`, `setZero`, `setNewIpoptSolution`, `setNewSnoptSolution` (OptVector.h:96-190,
OptVectorDms-impl.h:100-160). -/
def Prob.write (p : Prob ι κ K Q X) (x : X) : Prob ι κ K Q X := { p with x := x }

/-- `OptVector::reset` (OptVector.h:72). -/
def Prob.resetCount (p : Prob ι κ K Q X) : Prob ι κ K Q X := { p with count := 0 }

/-- The four kinds of query made by constraints and cost evaluators. -/
inductive Query where
  | shot
  | cost
  | sens
  | costSens

/-- Run a query; a spline that has never been computed has no nodes, reading it is undefined. -/
def Prob.query (S : Sys ι κ K (Option Q)) (V : View ι K Q X) (p : Prob ι κ K Q X) (k : Query) : Res (Prob ι κ K Q X) := do
  let b ← match k with
    | .shot => p.box.integrateShot S p.count (V.state p.x) p.spline
    | .cost => p.box.integrateCost S p.count (V.state p.x) p.spline
    | .sens => p.box.integrateSensitivities S p.count (V.state p.x) p.spline
    | .costSens => p.box.integrateCostSensitivities S p.count (V.state p.x) p.spline
  pure { p with box := b }

/-- `getStateIntegrated` (ShotContainer.h:216). -/
def Box.stateIntegrated (b : Box ι κ K) : Res (ι → K) := do
  let e ← back b.sub
  pure e.1

end CT.Shot
