import Verif.Model.NlocLineSearch

/-!
# The nonlinear optimal control solver as a whole

`ct_optcon/include/ct/optcon/nloc/algorithms/SingleShooting-impl.hpp`, `MultipleShooting-impl.hpp`,
`ct_optcon/include/ct/optcon/solver/NLOptConSolver-impl.hpp:126-139` and the functions of
`ct_optcon/include/ct/optcon/nloc/NLOCBackendBase-impl.hpp` they call, with the serial backend
(`NLOCBackendST-impl.hpp`).  The linear-quadratic approximation and its solution
(`computeLQApproximation`, `solveFullLQProblem`, `prepareSolveLQProblem`, `finishSolveLQProblem`) are
an arbitrary function of the solver's state.  Not modelled: printing, logging, timing, the recorded
sub-steps, the summary of all iterations.
-/

namespace CT.Nloc

variable {X U R : Type}

/-- What the linear-quadratic solver hands back (`extractSolution`,
`NLOCBackendBase-impl.hpp:1381-1444`): the search directions, the gains `L_` (zero for the open-loop
algorithms) and the two sums of the Armijo rule (1219-1226). -/
structure LqOut (X U R : Type) where
  dirs : Dirs X U
  L : List (X → U)
  delta1 : Fl R
  delta2 : Fl R

/-- The members of the backend during a solve: those of the line search, the gains `L_`, the counter
`iteration_` and the flag `initialized_`. -/
structure Solver (X U R : Type) where
  ls : LsState X U R
  L : List (X → U)
  iteration : ℕ
  initialized : Bool

variable [Field R] [LinearOrder R] [AddCommGroup X] [AddCommGroup U] [Module R X] [Module R U]

/-- The configuration seen by a roll-out or a line search with gains `L` and Armijo sums. -/
def LsCfg.withLq (c : LsCfg X U R) (L : List (X → U)) (d1 d2 : Fl R) : LsCfg X U R :=
  { c with roll := { c.roll with L := L }, delta1 := d1, delta2 := d2 }

/-- `NLOCBackendBase-impl.hpp:126-187`: `setInitialGuess` of states `x`, controls `u` and gains `L`:
`x_prev_` and `x_ref_lqr_` are copied before the truncation (153-154); `reset` (1365-1377) restarts
the iteration counter and zeroes the defects; it leaves the constraint errors alone.  Then the costs
of the guess are computed (184). -/
def Solver.setInitialGuess (c : LsCfg X U R) (x : List X) (u : List U) (L : List (X → U))
    (s : Solver X U R) : Res (Solver X U R) :=
  if x.length < c.roll.K + 1 then Res.exc
  else if u.length < c.roll.K then Res.exc
  else if L.length < c.roll.K then Res.exc
  else
    let x' := x.take (c.roll.K + 1)
    let u' := u.take c.roll.K
    Res.ok
      { s with
        ls := { s.ls with
          x := x', u := u', xPrev := x, xRef := x
          d := s.ls.d.map fun _ => 0, dNorm := .pinf
          icBest := (c.cost x' u').1, fcBest := (c.cost x' u').2 }
        L := L.take c.roll.K, iteration := 0, initialized := true }

/-- `NLOCBackendBase-impl.hpp:1338-1343`: `updateCosts`. -/
def updateCosts (c : LsCfg X U R) (s : LsState X U R) : LsState X U R :=
  { s with icBest := (c.cost s.x s.u).1, fcBest := (c.cost s.x s.u).2 }

/-- `NLOCBackendBase-impl.hpp:1493-1501`: `nominalRollout`, feeding back around `x_prev_`. -/
def nominalRollout (c : LsCfg X U R) (L : List (X → U)) (s : LsState X U R) :
    Res (LsState X U R × Bool) := do
  let p ← rolloutSingleShot { c.roll with L := L } s.xPrev (fun _ => false) 0
    { u := s.u, x := s.x, s := s.xShot }
  pure ({ s with x := p.1.x, u := p.1.u, xShot := p.1.s, xPrev := p.1.x, uPrev := p.1.u }, p.2)

/-- `NLOCBackendST-impl.hpp:55-67`: `rolloutShots` on the members. -/
def rolloutShotsMembers (c : LsCfg X U R) (L : List (X → U)) (first last : ℕ) (s : LsState X U R) :
    Res (LsState X U R) := do
  let p ← rolloutShotsST { c.roll with L := L } s.xRef first last { u := s.u, x := s.x, s := s.xShot } s.d
  pure { s with x := p.1.x, u := p.1.u, xShot := p.1.s, d := p.2 }

/-- The start of iteration 0: single shooting (`SingleShooting-impl.hpp:63-69`) makes the
nominal roll-out, throws if it failed, and updates the costs; multiple shooting
(`MultipleShooting-impl.hpp:57-60,101-106`) rolls out the shots from `K_shot` on in `prepareIteration` and the first
one in `finishIteration`, then updates costs and defect norm.  (The approximation of the later shots
is computed between these two; here it is part of the function `lq` applied afterwards.) -/
def firstRollout (c : LsCfg X U R) (L : List (X → U)) (s : LsState X U R) : Res (LsState X U R) :=
  if c.roll.single then do
    let p ← nominalRollout c L s
    if p.2 then pure (updateCosts c p.1) else Res.exc
  else do
    let s1 ← rolloutShotsMembers c L c.roll.Kshot (c.roll.K - 1) s
    let s2 ← rolloutShotsMembers c L 0 (c.roll.Kshot - 1) s1
    let s3 := updateCosts c s2
    pure { s3 with dNorm := c.defectNorm s3.d }

/-- `NLOCBackendBase-impl.hpp:850-857`: `printSummary` recomputes the two constraint errors. -/
def refreshErrors (c : LsCfg X U R) (s : LsState X U R) : LsState X U R :=
  { s with eBox := c.box s.x s.u, eGen := c.gen s.x s.u }

/-- `runIteration` of both algorithms (`SingleShooting-impl.hpp:35-134`, `MultipleShooting-impl.hpp:31-160`):
`prepareIteration` (which throws if there is no initial guess, or
through `checkProblem`, `NLOCBackendBase-impl.hpp:371-382`) and `finishIteration`: first roll-out in
iteration 0, linear-quadratic step, `extractSolution` (`x_ref_lqr_ = x_`), line search (1010-1103), summary,
`iteration()++`. -/
def runIteration (c : LsCfg X U R) (lq : Solver X U R → LqOut X U R) (s : Solver X U R) :
    Res (Solver X U R × Bool) :=
  if !s.initialized then Res.exc
  else if c.roll.K = 0 then Res.exc
  else if s.ls.u.length < c.roll.K then Res.exc
  else do
    let l ← (if s.iteration = 0 then firstRollout c s.L s.ls else pure s.ls)
    let out := lq { s with ls := l }
    let p ← lineSearch (c.withLq out.L out.delta1 out.delta2) out.dirs { l with xRef := l.x }
    pure ({ s with ls := refreshErrors c p.1, L := out.L, iteration := s.iteration + 1 }, p.2)

/-- The loop of `NLOptConSolver::solve`, `NLOptConSolver-impl.hpp:131-136`, with `n` iterations
allowed. -/
def optimiseLoop (c : LsCfg X U R) (lq : Solver X U R → LqOut X U R) :
    ℕ → ℕ → Bool → Solver X U R → Res (Solver X U R × ℕ × Bool)
  | 0, k, found, s => pure (s, k, found)
  | n + 1, k, found, s =>
    if found then do
      let p ← runIteration c lq s
      optimiseLoop c lq n (k + 1) p.2 p.1
    else pure (s, k, found)

/-- `NLOptConSolver-impl.hpp:126-139`: `solve` with `max_iterations`; the returned `ℕ` is the number
of iterations made, the `Bool` the value returned to the user. -/
def optimise (c : LsCfg X U R) (lq : Solver X U R → LqOut X U R) (maxIterations : ℤ)
    (s : Solver X U R) : Res (Solver X U R × ℕ × Bool) := do
  let r ← optimiseLoop c lq maxIterations.toNat 0 true s
  pure (r.1, r.2.1, decide (1 < r.2.1) || r.2.2 || (decide (r.2.1 = 1) && !r.2.2))

end CT.Nloc
