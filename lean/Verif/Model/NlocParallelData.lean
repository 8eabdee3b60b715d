import Verif.Model.NlocParallel
import Verif.Model.NlocRollout
import Verif.Model.LqApprox

/-!
# The multi-threaded backend: what the workers do to the data

`ct_optcon/include/ct/optcon/nloc/NLOCBackendMP-impl.hpp` on top of the protocol of `Model/NlocParallel.lean`: while a worker is at
work on an index, it makes single accesses to the arrays of the backend, and these are interleaved with those of the other workers
in any order.  The functions the workers call are those of `ct_optcon/include/ct/optcon/nloc/NLOCBackendBase-impl.hpp`:
`rolloutSingleShot` (436-521), `computeSingleDefect` (556-569), `executeLQApproximation` (685-723).

Simplifications, besides those of `Model/NlocParallel.lean`.  The arrays `x_`, `u_ff_`, `xShot_`, `d_` are sequentially consistent
memory.  One assignment of the code is one step.  General constraints (`computeLinearizedConstraints`) and the recording of sub-steps
are left out.  Scalars are real numbers in the linear-quadratic part.  The point stored in a cost function object is kept with the
position of the thread that owns the object, which sets it before it evaluates.
-/

namespace CT.Par

/-! ## Workers with data -/

/-- What the threads do with the data `S` in the course of a phase: `step t j i` is the next access of thread `j` in the work on index
`i` with task `t`, by its position `P` in that work; `enter` is what the main thread does before it starts a phase, `single` is its own
work on a range of one index. -/
structure Work (S P : Type) where
  start : P
  over : P → Bool
  step : Task → ℕ → ℕ → P → S → Res (S × P)
  enter : Phase → S → Res S
  single : Phase → S → Res S

/-- The protocol, the data and the positions of the workers in their work.  The data are `exc` or `ub` once a thread has thrown or run
into undefined behaviour. -/
structure Full (S P : Type) where
  par : Par
  mem : Res S
  pos : ℕ → P

/-- The moves: one of the protocol, or an access to the data by a worker. -/
inductive FLabel where
  | move (l : Label)
  | data (j : ℕ)

/-- A move of the main thread or of one of the `N` workers. -/
def FLabel.Valid (N : ℕ) : FLabel → Prop
  | .move l => l.Valid N
  | .data j => j < N

variable {S P : Type}

/-- What a move of the main thread does to the data: at the beginning of a phase (`NLOCBackendMP-impl.hpp:216-217`), or a whole phase
over one index (223-234, 320-333). -/
def mainData (W : Work S P) (s : Par) (m : Res S) : Res S :=
  match s.main, s.todo with
  | .idle, p :: _ => m >>= if p.kMax = p.kMin then W.single p else W.enter p
  | _, _ => m

/-- The worker is at work on an index. -/
def WPc.working : WPc → Bool
  | .work _ _ _ => true
  | _ => false

/-- An access of worker `j` to the data. -/
def dataStep (W : Work S P) (s : Full S P) (j : ℕ) : Option (Full S P) :=
  match (s.par.ws j).pc, s.mem with
  | .work t _ i, .ok m =>
    if W.over (s.pos j) then none
    else
      match W.step t j i (s.pos j) m with
      | .ok r => some { s with mem := .ok r.1, pos := Function.update s.pos j r.2 }
      | .exc => some { s with mem := .exc }
      | .ub => some { s with mem := .ub }
  | _, _ => none

/-- One move.  A worker leaves an index when its work on it is over. -/
def stepF (W : Work S P) (s : Full S P) : FLabel → Option (Full S P)
  | .move .main => (step s.par .main).map fun q => { s with par := q, mem := mainData W s.par s.mem }
  | .move (.worker j) =>
    if (s.par.ws j).pc.working && !W.over (s.pos j) then none
    else (step s.par (.worker j)).map fun q => { s with par := q, pos := Function.update s.pos j W.start }
  | .move l => (step s.par l).map fun q => { s with par := q }
  | .data j => dataStep W s j

/-- The states that can follow `s₀`. -/
inductive ReachF (W : Work S P) (N : ℕ) (s₀ : Full S P) : Full S P → Prop
  | refl : ReachF W N s₀ s₀
  | move {s s' : Full S P} (l : FLabel) : ReachF W N s₀ s → l.Valid N → stepF W s l = some s' → ReachF W N s₀ s'

/-! ## Roll-outs and linear-quadratic approximation -/

open CT.Nloc CT.LqApprox CT.Riccati CT.Cost

variable {n m : ℕ}

/-- The arrays of the backend that the workers share: `u_ff_`, `x_`, `xShot_`, `d_` and `lqocProblem_`. -/
structure Mem (n m : ℕ) where
  roll : Roll (Fin n → ℝ) (Fin m → ℝ)
  d : List (Fin n → ℝ)
  p : Problem n m

/-- What the threads read: the settings, gains and number of stages (`conf`, its dynamics are not used), `x_ref_lqr_`,
`settings_.dt`, and the objects of the threads: dynamics, sensitivities and cost function.  The objects of the main thread have the
index `nThreads`. -/
structure Env (n m : ℕ) where
  conf : RollCfg (Fin n → ℝ) (Fin m → ℝ)
  xref : List (Fin n → ℝ)
  dt : ℝ
  dyn : ℕ → (Fin n → ℝ) → ℕ → (Fin m → ℝ) → Fin n → ℝ
  lin : ℕ → Lin n m
  cost : ℕ → CF n m
  nThreads : ℕ

/-- What a roll-out by thread `j` reads. -/
def Env.roll (e : Env n m) (j : ℕ) : RollCfg (Fin n → ℝ) (Fin m → ℝ) := { e.conf with f := e.dyn j }

/-- Where a worker is in its work on an index: in a roll-out with `r` stages to go after stage `i`, before the defect, in an
approximation, at its end. -/
inductive Pos (n m : ℕ) where
  | start
  | init (r i : ℕ)
  | control (r i : ℕ)
  | state (r i : ℕ)
  | propagate (r i : ℕ)
  | terminal (r i : ℕ)
  | nan (r i : ℕ)
  | defect
  | offset
  | point
  | costQ (c : CF n m)
  | costR (c : CF n m)
  | costP (c : CF n m)
  | costqv (c : CF n m)
  | costrv (c : CF n m)
  | over

/-- Head of the loop of `rolloutSingleShot` (NLOCBackendBase-impl.hpp:463) at stage `i` with `r` stages to go. -/
def loopHead (i : ℕ) : ℕ → Pos n m
  | 0 => .defect
  | r + 1 => .init r i

/-- The work of `rolloutShotWorker` on index `k` (NLOCBackendMP-impl.hpp:388-400): `rolloutSingleShot` and `computeSingleDefect`
(NLOCBackendBase-impl.hpp:436-521, 556-569), one assignment at a time; the result of the roll-out is dropped. -/
def shotPart (C : RollCfg (Fin n → ℝ) (Fin m → ℝ)) (xref : List (Fin n → ℝ)) (k : ℕ) (p : Pos n m) (s : Mem n m) :
    Res (Mem n m × Pos n m) :=
  match p with
  | .start =>
    if C.stepsPerShot = 0 then .ub
    else if ¬ C.stepsPerShot ∣ k then .ok (s, .over)
    else if s.roll.u.length < C.K then .exc
    else if s.roll.x.length < C.K + 1 then .exc
    else if s.roll.s.length < C.K + 1 then .exc
    else do
      let xk ← idx s.roll.x k
      let q ← setAt s.roll.s k xk
      pure ({ s with roll := { s.roll with s := q } }, loopHead k (min (k + C.stepsPerShot) C.K - k))
  | .init r i => do
    let q ← initShot k i s.roll
    pure ({ s with roll := q }, .control r i)
  | .control r i => do
    let q ← overwriteControl C xref i s.roll
    pure ({ s with roll := q }, .state r i)
  | .state r i => do
    let q ← overwriteState k i s.roll
    pure ({ s with roll := q }, .propagate r i)
  | .propagate r i => do
    let q ← Nloc.propagate C i s.roll
    pure ({ s with roll := q }, .terminal r i)
  | .terminal r i => do
    let q ← fillTerminal C i s.roll
    pure ({ s with roll := q }, .nan r i)
  | .nan r i => do
    let q ← nanCheck C i s.roll
    pure ({ s with roll := q.1 }, if q.2 then loopHead (i + 1) r else .defect)
  | .defect => do
    let d ← computeSingleDefect C k s.roll.x s.roll.s s.d
    pure ({ s with d := d }, .over)
  | _ => .ok (s, .over)

/-- The work of `computeLQProblemWorker` of thread `j` on index `k` (NLOCBackendMP-impl.hpp:300): `executeLQApproximation`
(NLOCBackendBase-impl.hpp:685-723), one assignment at a time. -/
noncomputable def lqPart (e : Env n m) (j k : ℕ) (p : Pos n m) (s : Mem n m) : Res (Mem n m × Pos n m) :=
  match p with
  | .start =>
    if s.p.N ≤ k then .ub
    else do
      let x ← idx s.roll.x k
      let u ← idx s.roll.u k
      let xs ← idx s.roll.s k
      pure ({ s with p := { s.p with
        A := Function.update s.p.A k (e.lin j x u xs k).1
        B := Function.update s.p.B k (e.lin j x u xs k).2 } }, .offset)
  | .offset => do
    let d ← idx s.d k
    pure ({ s with p := { s.p with b := Function.update s.p.b k d } }, .point)
  | .point => do
    let x ← idx s.roll.x k
    let u ← idx s.roll.u k
    pure (s, .costQ ((e.cost j).set x u (e.dt * k)))
  | .costQ c =>
    .ok ({ s with p := { s.p with Q := Function.update s.p.Q k (e.dt • c.stateSecondDerivativeIntermediate) } }, .costR c)
  | .costR c =>
    .ok ({ s with p := { s.p with R := Function.update s.p.R k (e.dt • c.controlSecondDerivativeIntermediate) } }, .costP c)
  | .costP c =>
    .ok ({ s with p := { s.p with P := Function.update s.p.P k (e.dt • c.stateControlDerivativeIntermediate) } }, .costqv c)
  | .costqv c =>
    .ok ({ s with p := { s.p with qv := Function.update s.p.qv k (e.dt • c.stateDerivativeIntermediate) } }, .costrv c)
  | .costrv c =>
    .ok ({ s with p := { s.p with rv := Function.update s.p.rv k (e.dt • c.controlDerivativeIntermediate) } }, .over)
  | _ => .ok (s, .over)

/-- The members an approximation reads, as functions of the stage. -/
def Mem.iterate (e : Env n m) (s : Mem n m) : Iterate n m :=
  ⟨e.conf.K, e.dt, fun k => s.roll.x.getD k 0, fun k => s.roll.u.getD k 0, fun k => s.roll.s.getD k 0, fun k => s.d.getD k 0⟩

/-- `computeLQApproximation(firstIndex, lastIndex)` until the workers are started (NLOCBackendMP-impl.hpp:216-217); nothing for
`rolloutShots`. -/
noncomputable def enterPhase (e : Env n m) (p : Phase) (s : Mem n m) : Res (Mem n m) :=
  match p.kind with
  | .rollout => .ok s
  | .lq =>
    if p.kMax + 1 = e.conf.K then
      if s.roll.x.length ≤ e.conf.K then .ub
      else .ok { s with p := (LqApprox.initializeCostToGo (s.iterate e) (e.cost e.nThreads, s.p)).2 }
    else .ok s

/-- A range of one index, worked on by the main thread with its own objects (NLOCBackendMP-impl.hpp:216-234, 320-333). -/
noncomputable def singlePhase (e : Env n m) (p : Phase) (s : Mem n m) : Res (Mem n m) :=
  match p.kind with
  | .rollout => do
    let r ← rolloutSingleShot (e.roll e.nThreads) e.xref (fun _ => false) p.kMin s.roll
    let d ← computeSingleDefect (e.roll e.nThreads) p.kMin r.1.x r.1.s s.d
    pure { s with roll := r.1, d := d }
  | .lq => do
    let s ← enterPhase e p s
    if s.roll.x.length ≤ p.kMin ∨ s.roll.u.length ≤ p.kMin ∨ s.roll.s.length ≤ p.kMin ∨ s.d.length ≤ p.kMin ∨ s.p.N ≤ p.kMin then .ub
    else .ok { s with p := (executeLQApproximation (s.iterate e) (e.lin e.nThreads) (e.cost e.nThreads, s.p) p.kMin).2 }

/-- What the threads of the backend do with its arrays. -/
noncomputable def Env.work (e : Env n m) : Work (Mem n m) (Pos n m) where
  start := .start
  over := fun | .over => true | _ => false
  step := fun t j k =>
    match t with
    | .rollout => shotPart (e.roll j) e.xref k
    | .lq => lqPart e j k
  enter := enterPhase e
  single := singlePhase e

end CT.Par
