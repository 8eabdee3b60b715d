import Verif.Model.NlocSolve
import Verif.Model.NlocNorm
import Verif.Model.LqApprox
import Verif.Model.Lqoc

/-!
# The real-time iteration of multiple shooting

`MultipleShooting::prepareMPCIteration` and `finishMPCIteration`
(`ct_optcon/include/ct/optcon/nloc/algorithms/MultipleShooting-impl.hpp:163-284`) with the functions of
`ct_optcon/include/ct/optcon/nloc/NLOCBackendBase-impl.hpp` they call, the serial backend and the Riccati solver, in the order in
which `MPC::prepareIteration` and `MPC::finishIteration` (`ct_optcon/include/ct/optcon/mpc/MPC-impl.h:170-172, 198-200`) use them.

Simplifications.  Scalars are real numbers, so no state or control is NaN.  The arrays of the linear-quadratic problem and of its
solution are functions of the stage (`Model/LqApprox.lean`, `Model/Riccati.lean`); an access behind their `K` stages is undefined.
Costs, norms of the updates, the summary, printing and timing are left out, and so are general constraints (C102).  The box
constraints are set from the trajectory as it is between the roll-out and the approximation (186-187) and read by the interior-point
solver only; they are separate functions here.
-/

namespace CT.Rti

open Matrix CT.Nloc CT.LqApprox CT.Riccati CT.Cost

variable {n m : ℕ}

/-- What the iteration reads: the algorithm, the number of stages `K_`, `settings_.K_shot`, `settings_.dt`, the dynamics of one stage
(`systemInterface_->propagateControlledDynamics`), the sensitivities of one stage (`getAandB`) and the settings of the Riccati
solver. -/
structure Cfg (n m : ℕ) where
  algo : Algo
  K : ℕ
  Kshot : ℕ
  dt : ℝ
  f : (Fin n → ℝ) → ℕ → (Fin m → ℝ) → Fin n → ℝ
  lin : Lin n m
  solver : Settings m

/-- The members of the backend: `x_`, `x_ref_lqr_`, `xShot_`, `d_`, `u_ff_`, `L_`, the cost function, `lqocProblem_`, the arrays of
`lqocSolver_`, `iteration_`, `d_norm_` (`none` is infinity) and `initialized_`. -/
structure Members (n m : ℕ) where
  x : List (Fin n → ℝ)
  xRef : List (Fin n → ℝ)
  xShot : List (Fin n → ℝ)
  d : List (Fin n → ℝ)
  u : List (Fin m → ℝ)
  L : List (Matrix (Fin m) (Fin n) ℝ)
  cf : CF n m
  p : Problem n m
  sol : Sol n m
  iteration : ℕ
  dNorm : Option ℝ
  initialized : Bool

/-- What a roll-out reads from the backend. -/
def Cfg.roll (c : Cfg n m) (L : List (Matrix (Fin m) (Fin n) ℝ)) : RollCfg (Fin n → ℝ) (Fin m → ℝ) where
  f := c.f
  K := c.K
  Kshot := c.Kshot
  single := c.algo.single
  closed := c.algo.closed
  L := L.map fun M z => M *ᵥ z
  nanX := fun _ => false
  nanU := fun _ => false

/-- `resetDefects` (NLOCBackendBase-impl.hpp:1472-1475). -/
def Members.resetDefects (w : Members n m) : Members n m := { w with d := w.d.map fun _ => 0 }

/-- `reset` (NLOCBackendBase-impl.hpp:1365-1377). -/
def Members.reset (w : Members n m) : Members n m := { w.resetDefects with iteration := 0, dNorm := none }

/-- `setInitialGuess` (NLOCBackendBase-impl.hpp:126-187) with states `x`, controls `u` and gains `L`. -/
def setInitialGuess (c : Cfg n m) (x : List (Fin n → ℝ)) (u : List (Fin m → ℝ)) (L : List (Matrix (Fin m) (Fin n) ℝ))
    (w : Members n m) : Res (Members n m) :=
  if x.length < c.K + 1 then .exc
  else if u.length < c.K then .exc
  else if L.length < c.K then .exc
  else
    .ok (Members.reset
      { w with x := x.take (c.K + 1), xRef := x, u := u.take c.K, L := L.take c.K, initialized := true })

/-- `changeInitialState` (NLOCBackendBase-impl.hpp:238-246). -/
def changeInitialState (x0 : Fin n → ℝ) (w : Members n m) : Members n m :=
  Members.reset { w with x := if w.x.length = 0 then [x0] else w.x.set 0 x0 }

/-- `rolloutShots(first, last)` (NLOCBackendST-impl.hpp:55-67) on the members. -/
def rollout (c : Cfg n m) (first last : ℕ) (w : Members n m) : Res (Members n m) := do
  let p ← rolloutShotsST (c.roll w.L) w.xRef first last { u := w.u, x := w.x, s := w.xShot } w.d
  pure { w with x := p.1.x, u := p.1.u, xShot := p.1.s, d := p.2 }

/-- The members the approximation reads, as functions of the stage. -/
def Members.iterate (c : Cfg n m) (w : Members n m) : Iterate n m :=
  ⟨c.K, c.dt, fun k => w.x.getD k 0, fun k => w.u.getD k 0, fun k => w.xShot.getD k 0, fun k => w.d.getD k 0⟩

/-- `computeLQApproximation(first, last)` (NLOCBackendST-impl.hpp:39-53) on the members; a stage behind the end of `u_ff_` or of the
problem is undefined. -/
noncomputable def approximate (c : Cfg n m) (first last : ℕ) (w : Members n m) : Res (Members n m) :=
  if first ≤ last ∧ (w.u.length ≤ last ∨ w.p.N ≤ last) then .ub
  else
    let r := computeLQApproximation (w.iterate c) c.lin first last (w.cf, w.p)
    .ok { w with cf := r.1, p := r.2 }

/-- `prepareMPCIteration` until the roll-out of all shots but the first (MultipleShooting-impl.hpp:163-183), with `checkProblem`
(NLOCBackendBase-impl.hpp:371-382). -/
def prepareRollout (c : Cfg n m) (w : Members n m) : Res (Members n m) :=
  if !w.initialized then .exc
  else if c.K = 0 then .exc
  else if w.u.length < c.K then .exc
  else rollout c c.Kshot (c.K - 1) w.resetDefects

/-- The rest of `prepareMPCIteration` (MultipleShooting-impl.hpp:188, 199): approximation of all stages but those of the first shot and
the backward sweep over them. -/
noncomputable def prepareSweep (c : Cfg n m) (w : Members n m) : Res (Members n m) := do
  let w ← approximate c c.Kshot (c.K - 1) w
  let s ← prepareSolve c.solver w.p c.Kshot w.sol
  pure { w with sol := s }

/-- `setInputBoxConstraintsForLQOCProblem`, `setStateBoxConstraintsForLQOCProblem` as called between the two parts of
`prepareMPCIteration` (MultipleShooting-impl.hpp:186-187). -/
def prepareBoxes (ub xb : Option (CT.Constraints.Container (CT.Lqoc.Pt n m ℝ) ℝ)) (w : Members n m) (b : CT.Lqoc.Prob ℝ) :
    Res (CT.Lqoc.Prob ℝ) := do
  let b ← CT.Lqoc.setInputBoxes ub w.u b
  CT.Lqoc.setStateBoxes xb w.x b

/-- `prepareMPCIteration` (MultipleShooting-impl.hpp:163-213). -/
noncomputable def prepareMPCIteration (c : Cfg n m) (w : Members n m) : Res (Members n m) := do
  let w ← prepareRollout c w
  prepareSweep c w

/-- `finishMPCIteration` until the norm of the defects (MultipleShooting-impl.hpp:217-228). -/
noncomputable def finishRollout (c : Cfg n m) (w : Members n m) : Res (Members n m) := do
  let w ← rollout c 0 (c.Kshot - 1) w
  pure { w with dNorm := some (computeDefectsNorm w.d) }

/-- The members an update reads and writes (`Model/LqApprox.lean`). -/
def Members.back (w : Members n m) : Back n m :=
  ⟨fun k => w.x.getD k 0, fun k => w.u.getD k 0, fun k => w.xRef.getD k 0, fun k => w.L.getD k 0⟩

/-- The rest of `finishMPCIteration` (MultipleShooting-impl.hpp:237-282): approximation and sweep of the first shot, extraction of the
solution, full step. -/
noncomputable def finishSweep (c : Cfg n m) (w : Members n m) : Res (Members n m) := do
  let w ← approximate c 0 (c.Kshot - 1) w
  let s ← finishSolve c.solver w.p (c.Kshot - 1) w.sol
  let b := finishMpcUpdate c.algo w.p s w.back
  pure { w with
    sol := s
    x := (List.range w.x.length).map b.x
    u := (List.range w.u.length).map b.u
    xRef := (List.range w.x.length).map b.xRef
    L := (List.range w.L.length).map b.L
    iteration := w.iteration + 1 }

/-- `finishMPCIteration` (MultipleShooting-impl.hpp:217-284). -/
noncomputable def finishMPCIteration (c : Cfg n m) (w : Members n m) : Res (Members n m) := do
  let w ← finishRollout c w
  finishSweep c w

/-- What one call of `MPC::prepareIteration` and `MPC::finishIteration` makes the solver do (MPC-impl.h:170-172, 198-200): guess,
preparation, measured state, feedback. -/
noncomputable def mpcIteration (c : Cfg n m) (x : List (Fin n → ℝ)) (u : List (Fin m → ℝ)) (L : List (Matrix (Fin m) (Fin n) ℝ))
    (x0 : Fin n → ℝ) (w : Members n m) : Res (Members n m) := do
  let w ← setInitialGuess c x u L w
  let w ← prepareMPCIteration c w
  finishMPCIteration c (changeInitialState x0 w)

end CT.Rti
