import Verif.Model.NlocRollout
import Verif.Model.Arrays
import Verif.Model.Fl
import Mathlib.Algebra.Module.Defs

/-!
# Line search of the nonlinear optimal control backend

`ct_optcon/include/ct/optcon/nloc/NLOCBackendBase-impl.hpp:1010-1276` (`lineSearch`,
`executeLineSearch`, `acceptStep`) and `NLOCBackendST-impl.hpp:70-171` (`performLineSearch`).
The cost of a trajectory, the constraint errors and the defect norm are arbitrary functions of the
trajectory with values that may be infinite or NaN.  Not modelled: printing, the norms of the
update (`lx_norm_`, `lu_norm_`), the recorded sub-steps.
-/

namespace CT.Nloc

variable {X U R : Type}

/-- `LineSearchSettings::TYPE`, `NLOptConSettings.hpp:25-32`. -/
inductive LsType where
  | none
  | simple
  | armijo
  | goldstein
  deriving DecidableEq, Repr

/-- What the line search reads: the roll-out configuration, cost, constraint errors and defect norm
of a trajectory (`computeCostsOfTrajectory` 572-593, `computeBoxConstraintErrorOfTrajectory` and
`computeGeneralConstraintErrorOfTrajectory` 596-682 -- zero without constraint objects --,
`computeDefectsNorm<1>`), the settings, and the two sums of the Armijo rule (1219-1226). -/
structure LsCfg (X U R : Type) where
  roll : RollCfg X U
  cost : List X → List U → Fl R × Fl R
  box : List X → List U → Fl R
  gen : List X → List U → Fl R
  defectNorm : List X → Fl R
  type : LsType
  rho : R
  rhoC : R
  alpha0 : R
  nAlpha : R
  maxIterations : ℕ
  armijo : R
  delta1 : Fl R
  delta2 : Fl R
  minImprovement : R
  maxDefectSum : R
  /-- `std::numeric_limits<SCALAR>::max()` -/
  maxValue : R

/-- The members of the backend a line search reads and writes. -/
structure LsState (X U R : Type) where
  x : List X
  xShot : List X
  d : List X
  u : List U
  xPrev : List X
  uPrev : List U
  xRef : List X
  icBest : Fl R
  fcBest : Fl R
  lowest : Fl R
  dNorm : Fl R
  eBox : Fl R
  eGen : Fl R
  alphaBest : R

/-- The search directions `delta_u_ff_`, `delta_x_`, `delta_x_ref_lqr_` from the linear-quadratic
solver. -/
structure Dirs (X U : Type) where
  du : List U
  dx : List X
  dxRef : List X

/-- What `executeLineSearch` returns for one step size. -/
structure Cand (X U R : Type) where
  r : Roll X U
  d : List X
  ic : Fl R
  fc : Fl R
  dn : Fl R
  eb : Fl R
  eg : Fl R

variable [Field R] [LinearOrder R] [AddCommGroup X] [AddCommGroup U] [Module R X] [Module R U]

/-- `delta * alpha + base` for arrays (`DiscreteArray.h` `operator*`, `operator+`: throws when the
sizes differ). -/
def step {T : Type} [AddCommGroup T] [Module R T] (delta : List T) (alpha : R) (base : List T) :
    Res (List T) :=
  Arrays.add (delta.map fun v => alpha • v) base

/-- Costs, norms and errors of a candidate after its roll-out, `NLOCBackendBase-impl.hpp:1153-1182`.
After a failed roll-out the two costs and the defect norm keep the value
`numeric_limits<SCALAR>::max()` they were initialised with (1122-1126).  The two costs are only used
through their sum, which then overflows to `+inf`; they are written as `+inf` here. -/
def evaluate (c : LsCfg X U R) (r : Roll X U) (d : List X) (good : Bool) : Cand X U R :=
  if good then
    { r := r, d := d, ic := (c.cost r.x r.u).1, fc := (c.cost r.x r.u).2, dn := c.defectNorm d,
      eb := c.box r.x r.u, eg := c.gen r.x r.u }
  else
    { r := r, d := d, ic := .pinf, fc := .pinf, dn := .fin c.maxValue, eb := .fin 0, eg := .fin 0 }

/-- `NLOCBackendBase-impl.hpp:1107-1183`: `executeLineSearch` without termination flag (as the serial
backend calls it, with fresh arrays `x_search`, `x_shot_search`, `defects_recorded`, `u_recorded`
of `K+1`, `K+1`, `K+1`, `K` entries, `NLOCBackendST-impl.hpp:98-102`). -/
def executeLineSearch (c : LsCfg X U R) (q : Dirs X U) (s : LsState X U R) (alpha : R) :
    Res (Cand X U R) := do
  let u ← step q.du alpha s.uPrev
  let x ← step q.dx alpha s.xPrev
  let xref ← step q.dxRef alpha s.xPrev
  let p ← rolloutShotsSingleThreaded c.roll xref (fun _ => false) 0 (c.roll.K - 1)
    { u := u, x := x, s := List.replicate (c.roll.K + 1) 0 } (List.replicate (c.roll.K + 1) 0)
  pure (evaluate c p.1 p.2.1 p.2.2)

/-- The merit of costs, defect norm and constraint errors, `NLOCBackendBase-impl.hpp:1201-1202` and
1209-1210. -/
def newMerit (c : LsCfg X U R) (ic fc dn eb eg : Fl R) : Fl R :=
  Fl.add (Fl.add (Fl.add ic fc) (Fl.mul (.fin c.rho) dn)) (Fl.mul (.fin c.rhoC) (Fl.add eb eg))

/-- The expected decrease of the Armijo rule, `NLOCBackendBase-impl.hpp:1228`. -/
def expectedDecrease (c : LsCfg X U R) (alpha : R) : Fl R :=
  Fl.mul (.fin alpha) (Fl.add c.delta1 (Fl.mul (Fl.mul (.fin alpha) (.fin (1 / 2))) c.delta2))

/-- `NLOCBackendBase-impl.hpp:1187-1276`: `acceptStep`: the decision and the new merit. -/
def acceptStep (c : LsCfg X U R) (alpha : R) (k : Cand X U R) (prev : Fl R) :
    Res (Bool × Fl R) :=
  let m := newMerit c k.ic k.fc k.dn k.eb k.eg
  match c.type with
  | .simple => pure (decide (Fl.lt (.fin 0) (Fl.sub prev m)) && !m.isNan, m)
  | .armijo =>
    if m.isNan then pure (false, m)
    else pure (decide (Fl.le (Fl.mul (.fin c.armijo) (expectedDecrease c alpha)) (Fl.sub prev m)) &&
      decide (Fl.le (.fin 0) (Fl.sub prev m)), m)
  | .goldstein => Res.exc
  | .none => Res.exc

/-- The members after an accepted step, `NLOCBackendST-impl.hpp:142-163`. -/
def takeStep (s : LsState X U R) (k : Cand X U R) (m : Fl R) : LsState X U R :=
  { s with
    icBest := k.ic, fcBest := k.fc, dNorm := k.dn, eBox := k.eb, eGen := k.eg
    xPrev := k.r.x, lowest := m
    x := k.r.x, xShot := k.r.s, u := k.r.u, d := k.d }

/-- The loop of `performLineSearch`, `NLOCBackendST-impl.hpp:81-168`, with `n` iterations to go;
returns the new members and `alphaBest`. -/
def searchLoop (c : LsCfg X U R) (q : Dirs X U) :
    ℕ → R → LsState X U R → Res (LsState X U R × R)
  | 0, _, s => pure (s, 0)
  | n + 1, alpha, s => do
    let k ← executeLineSearch c q s alpha
    let a ← acceptStep c alpha k s.lowest
    if a.1 then pure (takeStep s k a.2, alpha) else searchLoop c q n (alpha * c.nAlpha) s

/-- `NLOCBackendST-impl.hpp:70-171`: `performLineSearch`. -/
def performLineSearch (c : LsCfg X U R) (q : Dirs X U) (s : LsState X U R) :
    Res (LsState X U R × R) :=
  searchLoop c q c.maxIterations c.alpha0 s

/-- The convergence test at the end of `lineSearch`, `NLOCBackendBase-impl.hpp:1085-1102`: `true` is
reported as "found better". -/
def foundBetter (c : LsCfg X U R) (prev : Fl R) (s : LsState X U R) : Bool :=
  if Fl.lt (.fin c.minImprovement) (Fl.abs (Fl.div (Fl.sub prev s.lowest) prev)) then true
  else decide (Fl.lt (.fin c.maxDefectSum) s.dNorm)

/-- `NLOCBackendBase-impl.hpp:1020-1042`: full step without line search (`doFullStepUpdate`
1447-1454, `resetDefects`, `rolloutShots`, `updateCosts` 1338-1343). -/
def fullStep (c : LsCfg X U R) (q : Dirs X U) (s : LsState X U R) : Res (LsState X U R) := do
  let x ← Arrays.add s.x q.dx
  let u ← Arrays.add s.u q.du
  let xRef ← Arrays.add s.xRef q.dxRef
  let p ← rolloutShotsST c.roll xRef 0 (c.roll.K - 1) { u := u, x := x, s := s.xShot }
    (s.d.map fun _ => 0)
  let k := c.cost p.1.x p.1.u
  pure { s with
    x := p.1.x, u := p.1.u, xShot := p.1.s, xRef := xRef, d := p.2
    uPrev := s.u, xPrev := p.1.x
    dNorm := c.defectNorm p.2, icBest := k.1, fcBest := k.2, lowest := Fl.add k.1 k.2
    alphaBest := 1 }

/-- The members when the search starts, `NLOCBackendBase-impl.hpp:1016-1018` and 1045-1052: copies of
the iterate, the merit of the iterate from the *stored* constraint errors, defects set to zero. -/
def beginSearch (c : LsCfg X U R) (s : LsState X U R) : LsState X U R :=
  { s with
    uPrev := s.u, xPrev := s.x
    dNorm := c.defectNorm s.d
    lowest := newMerit c s.icBest s.fcBest (c.defectNorm s.d) s.eBox s.eGen
    d := s.d.map fun _ => 0 }

/-- `NLOCBackendBase-impl.hpp:1010-1103`: `lineSearch`: the new members and the reported "found
better".  (The merit of the previous iterate is written `ic + fc + d * rho + (e+e) * rhoC` at
1047-1048, the commuted form of `newMerit`.) -/
def lineSearch (c : LsCfg X U R) (q : Dirs X U) (s : LsState X U R) :
    Res (LsState X U R × Bool) :=
  match c.type with
  | .none => do
    let s' ← fullStep c q s
    pure (s', foundBetter c (Fl.add s.icBest s.fcBest) s')
  | _ => do
    let b := beginSearch c s
    let p ← performLineSearch c q b
    let s' := { p.1 with alphaBest := p.2 }
    if p.2 = 0 then pure (s', false) else pure (s', foundBetter c b.lowest s')

end CT.Nloc
