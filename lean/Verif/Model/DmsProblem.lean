import Verif.Model.DmsVector
import Mathlib.Algebra.Order.Floor.Semiring
import Mathlib.Algebra.Order.Floor.Ring

/-!
# Setting up and changing a multiple-shooting problem

Models the parts of `ct_optcon/include/ct/optcon/dms/dms_core/DmsProblem.h`, `DmsSolver.h`, `ShotContainer.h` and
`InitStateConstraint.h` that keep initial state and horizon. Not modelled: systems, costs and path constraints handed to the
problem, the NLP solver (it enters only through the values it writes into the decision vector), range checks of
`parametersOk`, whose result the code ignores (DmsProblem.h:75), and the asserts.
-/

namespace CT.Dms

variable {K : Type} [Field K] [LinearOrder K] [FloorSemiring K]

/-- Settings that matter here (DmsSettings.h): number of shots, horizon, simulation step. -/
structure DmsSettings (K : Type) where
  N : ℕ
  T : K
  dt : K

/-- Members of a `ShotContainer` fixed by its constructor: start time and number of steps. -/
structure ShotTime (K : Type) where
  tStart : K
  nSteps : ℕ

/-- `size_t nIntegrationSteps = (end - start) / dt_sim + 0.5` (DmsProblem.h:135-136). Converting a floating-point value whose
truncation is negative to an unsigned integer is undefined, and so is converting the result of a division by zero. -/
def countSteps (a b dt : K) : Res ℕ :=
  if dt = 0 then .ub
  else
    let q := (b - a) / dt + 1 / 2
    if q ≤ -1 then .ub else .ok ⌊q⌋₊

/-- Loop over the shots (DmsProblem.h:128-142; `tStart_` from ShotContainer.h:123). -/
def makeShots (g : TimeGrid K) (dt : K) : ℕ → ℕ → Res (List (ShotTime K))
  | 0, _ => .ok []
  | k + 1, i => do
    let b ← g.stop i
    let a ← g.start i
    let n ← countSteps a b dt
    let rest ← makeShots g dt k (i + 1)
    pure (⟨a, n⟩ :: rest)

/-- `DmsProblem`: `initX0` is `x_0_` of the initial-state constraint. -/
structure DmsProblem (K : Type) where
  settings : DmsSettings K
  grid : TimeGrid K
  w : OptVec K
  shots : List (ShotTime K)
  initX0 : List K

/-- Constructor (DmsProblem.h:62-169) for state and control dimension `n`, `m`; the initial guess is uninitialised
(`junk`). -/
def DmsProblem.new (n m : ℕ) (s : DmsSettings K) (x0 junk : List K) : Res (DmsProblem K) := do
  let g := TimeGrid.mk' s.N s.T
  let shots ← makeShots g s.dt s.N 0
  pure ⟨s, g, OptVec.mk' n m s.N ((s.N + 1) * (n + m)) junk, shots, x0⟩

/-- `configure` (DmsProblem.h:189). -/
def DmsProblem.configure (p : DmsProblem K) (s : DmsSettings K) : DmsProblem K := { p with settings := s }

/-- `changeTimeHorizon` (DmsProblem.h:251). -/
def DmsProblem.changeTimeHorizon (p : DmsProblem K) (tf : K) : DmsProblem K := { p with grid := p.grid.changeTimeHorizon tf }

/-- `changeInitialState` (DmsProblem.h:257-261); the call that would change the constraint is commented out. -/
def DmsProblem.changeInitialState (p : DmsProblem K) (x0 : List K) : Res (DmsProblem K) := do
  let w ← p.w.changeInitialState x0
  pure { p with w := w }

/-- `getTimeHorizon` (DmsProblem.h:245). -/
def DmsProblem.getTimeHorizon (p : DmsProblem K) : K := p.grid.T

/-- Value of the initial-state constraint, whose bounds are zero (InitStateConstraint.h:58, 52-53). -/
def DmsProblem.initConstraint (p : DmsProblem K) : Res (List K) := do
  let s ← p.w.getOptimizedState 0
  pure (s.zipWith (· - ·) p.initX0)

/-- The time interval shot `i` integrates over (SensitivityIntegratorCT.h:227-249 with `tStart_`, `nSteps_`, `dt_sim_` of
the shot's own copy of the settings, ShotContainer.h:140-149). -/
def ShotTime.interval (s : ShotTime K) (dt : K) : K × K := (s.tStart, s.tStart + s.nSteps * dt)

/-- `DmsSolver`: horizon and initial state as last requested, and the problem. -/
structure DmsSolver (K : Type) where
  tf : K
  x0 : List K
  prob : DmsProblem K

/-- `changeTimeHorizon` (DmsSolver.h:162-167). -/
def DmsSolver.changeTimeHorizon (s : DmsSolver K) (tf : K) : DmsSolver K :=
  { s with tf := tf, prob := s.prob.changeTimeHorizon tf }

/-- `changeInitialState` (DmsSolver.h:169-174). -/
def DmsSolver.changeInitialState (s : DmsSolver K) (x0 : List K) : Res (DmsSolver K) := do
  let p ← s.prob.changeInitialState x0
  pure { s with x0 := x0, prob := p }

/-- `configure` (DmsSolver.h:121-126). -/
def DmsSolver.configure (s : DmsSolver K) (settings : DmsSettings K) : Res (DmsSolver K) := do
  let p ← ((s.prob.configure settings).changeTimeHorizon s.tf).changeInitialState s.x0
  pure { s with prob := p }

/-- Constructor (DmsSolver.h:93-113) for a problem with horizon `tf` and initial state `x0`: `setProblem` runs before
`dmsProblem_` exists and only stores the two (OptConSolver.h:73-89), then the problem is built and `configure` called. -/
def DmsSolver.new (n m : ℕ) (tf : K) (x0 : List K) (s : DmsSettings K) (junk : List K) : Res (DmsSolver K) := do
  let p ← DmsProblem.new n m s x0 junk
  DmsSolver.configure ⟨tf, x0, p⟩ s

/-- The NLP solver sets the decision vector (OptVector.h:290-300). -/
def DmsSolver.setVars (s : DmsSolver K) (x : List K) : DmsSolver K :=
  { s with prob := { s.prob with w := s.prob.w.setOptimizationVars x } }

end CT.Dms
