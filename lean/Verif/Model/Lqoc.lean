import Verif.Model.Constraints
import Mathlib.Algebra.Order.Group.Unbundled.Abs

/-!
# Constraints of the linear-quadratic subproblem

Models the constraint data of `/repo/ct_optcon/include/ct/optcon/problem/LQOCProblem-impl.hpp` and the
functions of `/repo/ct_optcon/include/ct/optcon/nloc/NLOCBackendBase-impl.hpp` that fill it:
`setInputBoxConstraintsForLQOCProblem`, `setStateBoxConstraintsForLQOCProblem` (726-787),
`computeLinearizedConstraints` (790-816), the constraint part of `initializeCostToGo` (831-846), the
constraint error of a trajectory (596-682), and the sweep `computeLQApproximation` of
`NLOCBackendST-impl.hpp` (39-52) as far as it concerns general constraints.

Dynamic vectors are lists; bounds are column vectors (`constr_vec_t` is a general dynamic matrix in the
code).  The costs and dynamics of the subproblem are modelled in `Riccati.lean` and `LqApprox.lean`.
-/

namespace CT.Lqoc

open CT.Constraints

variable {K : Type}

/-! ### Box constraints -/

/-- The box constraints of one stage: `nbx_[k]`, `x_I_[k]`, `x_lb_[k]`, `x_ub_[k]` (resp. `nbu_`, `u_I_`,
`u_lb_`, `u_ub_`).  The three vectors have the fixed size of the state (control); their entries are
uninitialised (`none`) until written. -/
structure Slot (K : Type) where
  count : Nat
  I : List (Option Int)
  lb : List (Option K)
  ub : List (Option K)
  deriving DecidableEq, Repr

/-- A stage of a new problem (13-16, 57-88): no constraints, uninitialised vectors. -/
def Slot.fresh (D : Nat) : Slot K := ⟨0, List.replicate D none, List.replicate D none, List.replicate D none⟩

/-- `v(i) = a` on a fixed-size vector: undefined outside. -/
def put {α : Type} (l : List (Option α)) (i : Nat) (a : α) : Res (List (Option α)) :=
  if i < l.length then Res.ok (l.set i (some a)) else Res.ub

/-- `v(i)` on a fixed-size vector with an `int` index: undefined outside. -/
def read {D : Nat} (v : Fin D → K) (i : Int) : Res K :=
  if h : 0 ≤ i ∧ i.toNat < D then Res.ok (v ⟨i.toNat, h.2⟩) else Res.ub

/-- The loop of the three box setters (151-157, 195-201, 237-243) over the remaining constraints, at entry `i`. -/
def writeBox [Sub K] {D : Nat} (nom : Fin D → K) : List (K × K × Int) → Nat → Slot K → Res (Slot K)
  | [], _, s => Res.ok s
  | (l, h, c) :: rest, i, s => do
      let I ← put s.I i c
      let x ← read nom c
      let lb ← put s.lb i (l - x)
      let x' ← read nom c
      let ub ← put s.ub i (h - x')
      writeBox nom rest (i + 1) { s with I := I, lb := lb, ub := ub }

/-- The check at the top of the three box setters (136-144, 180-188, 225-233): `Res.ok true` is "error in
constraint config". The last operand reads the last entry of `sp`, which does not exist if it is empty. -/
def boxConfigError (D : Nat) (nConstr : Int) (lb ub : List K) (sp : List Int) : Res Bool :=
  if lb.length ≠ ub.length then Res.ok true
  else if (lb.length : Int) ≠ nConstr then Res.ok true
  else if (sp.length : Int) ≠ nConstr then Res.ok true
  else match sp.getLast? with
    | some c => Res.ok (decide ((D : Int) - 1 < c))
    | none => Res.ub

/-- `setInputBoxConstraint` (129-158) and `setIntermediateStateBoxConstraint` (173-202): `stages` is the list of
slots, `N` the number of stages `K_`. -/
def setBox [Sub K] (D N : Nat) (stages : List (Slot K)) (index nConstr : Int) (lb ub : List K) (sp : List Int)
    (nom : Fin D → K) : Res (List (Slot K)) := do
  let bad ← boxConfigError D nConstr lb ub sp
  if bad then Res.exc
  else if (N : Int) ≤ index then Res.exc
  else if index < 0 then Res.ub
  else do
    let s ← idx stages index.toNat
    let s' ← writeBox nom (lb.zip (ub.zip sp)) 0 { s with count := nConstr.toNat }
    pure (stages.set index.toNat s')

/-- Loop of `setInputBoxConstraints` (161-169) and `setIntermediateStateBoxConstraints` (205-213): the remaining
`k` of the `N` stages. -/
def setBoxesLoop [Sub K] (D N : Nat) (nConstr : Int) (lb ub : List K) (sp : List Int) (nom : List (Fin D → K)) :
    Nat → List (Slot K) → Res (List (Slot K))
  | 0, st => Res.ok st
  | k + 1, st => do
      let st ← setBoxesLoop D N nConstr lb ub sp nom k st
      let x ← idx nom k
      setBox D N st k nConstr lb ub sp x

/-- `setInputBoxConstraints`, `setIntermediateStateBoxConstraints`: the same box at every stage `i < K_`. -/
def setBoxes [Sub K] (D N : Nat) (nConstr : Int) (lb ub : List K) (sp : List Int) (nom : List (Fin D → K))
    (stages : List (Slot K)) : Res (List (Slot K)) := setBoxesLoop D N nConstr lb ub sp nom N stages

/-- `setTerminalBoxConstraints` (217-245): writes stage `K_`; does nothing without constraints. -/
def setTerminalBox [Sub K] (D N : Nat) (nConstr : Int) (lb ub : List K) (sp : List Int) (nom : Fin D → K)
    (stages : List (Slot K)) : Res (List (Slot K)) :=
  if 0 < nConstr then do
    let bad ← boxConfigError D nConstr lb ub sp
    if bad then Res.exc
    else do
      let s ← idx stages N
      let s' ← writeBox nom (lb.zip (ub.zip sp)) 0 { s with count := nConstr.toNat }
      pure (stages.set N s')
  else Res.ok stages

/-! ### General constraints -/

/-- The general constraints of one stage: `ng_[k]`, `C_[k]`, `D_[k]` (rows), `d_lb_[k]`, `d_ub_[k]`. -/
structure Gen (K : Type) where
  count : Nat
  C : List (List K)
  D : List (List K)
  lb : List K
  ub : List K
  deriving DecidableEq, Repr

/-- Entry of `setZero(nGenConstr)` (109-124). -/
def Gen.zero [Zero K] (n m g : Nat) : Gen K :=
  ⟨g, List.replicate g (List.replicate n 0), List.replicate g (List.replicate m 0), List.replicate g 0, List.replicate g 0⟩

/-- Constraint data of an `LQOCProblem` with `N` stages. -/
structure Prob (K : Type) where
  N : Nat
  u : List (Slot K)
  x : List (Slot K)
  g : List (Gen K)
  deriving DecidableEq, Repr

/-- `resize` of the arrays: existing entries stay, new ones are `d`. -/
def resize {α : Type} (l : List α) (k : Nat) (d : α) : List α := l.take k ++ List.replicate (k - l.length) d

/-- `changeNumStages` (57-88), constraint part: new counts are zero, new dynamic matrices empty. -/
def Prob.changeNumStages (n m : Nat) (p : Prob K) (N : Nat) : Prob K :=
  ⟨N, resize p.u N (.fresh m), resize p.x (N + 1) (.fresh n), resize p.g (N + 1) ⟨0, [], [], [], []⟩⟩

/-- Constructor (13-16). -/
def Prob.new (n m N : Nat) : Prob K := Prob.changeNumStages n m ⟨0, [], [], []⟩ N

/-- `setZero` (91-125), constraint part. -/
def Prob.setZero [Zero K] (n m : Nat) (p : Prob K) (g : Nat := 0) : Prob K :=
  { p with u := p.u.map (fun s => { s with count := 0 }), x := p.x.map (fun s => { s with count := 0 }),
           g := p.g.map (fun _ => Gen.zero n m g) }

/-- `setGeneralConstraints` (248-267): the same constraint at every stage. -/
def Prob.setGeneral (p : Prob K) (lb ub : List K) (C D : List (List K)) : Res (Prob K) :=
  if lb.length ≠ ub.length ∨ C.length ≠ D.length ∨ lb.length ≠ C.length then Res.exc
  else Res.ok { p with g := p.g.map (fun _ => ⟨lb.length, C, D, lb, ub⟩) }

/-- `isConstrained` and its three parts (18-48). -/
def Prob.isInputBoxConstrained (p : Prob K) : Bool := decide (0 < (p.u.map (·.count)).foldl (· + ·) 0)
/-- See `isInputBoxConstrained`. -/
def Prob.isStateBoxConstrained (p : Prob K) : Bool := decide (0 < (p.x.map (·.count)).foldl (· + ·) 0)
/-- See `isInputBoxConstrained`. -/
def Prob.isGeneralConstrained (p : Prob K) : Bool := decide (0 < (p.g.map (·.count)).foldl (· + ·) 0)
/-- See `isInputBoxConstrained`. -/
def Prob.isConstrained (p : Prob K) : Bool :=
  p.isInputBoxConstrained || p.isStateBoxConstrained || p.isGeneralConstrained

/-! ### NLOCBackendBase -/

section Nloc
variable {n m : Nat}

/-- Point of a constraint container: state, control, time. -/
abbrev Pt (n m : Nat) (K : Type) := (Fin n → K) × (Fin m → K) × K

/-- `setCurrentStateAndControl` of a container. -/
def at' (c : Container (Pt n m K) K) (x : Fin n → K) (u : Fin m → K) (t : K) : Container (Pt n m K) K :=
  { c with point := (x, u, t) }

/-- `setInputBoxConstraintsForLQOCProblem` (727-749). `con` is the container pointer (`none`: null). -/
def setInputBoxes [Sub K] (con : Option (Container (Pt n m K) K)) (uff : List (Fin m → K)) (p : Prob K) : Res (Prob K) :=
  match con with
  | none => Res.ok p
  | some c =>
      if 0 < c.inter.nnzU then do
        let pat ← c.sparsityPatternInputIntermediate
        let u ← setBoxes m p.N c.inter.nnzU c.inter.lb c.inter.ub (pat.map (fun q => (q.2 : Int))) uff p.u
        pure { p with u := u }
      else Res.ok p

/-- `setStateBoxConstraintsForLQOCProblem` (752-787). -/
def setStateBoxes [Sub K] (con : Option (Container (Pt n m K) K)) (xs : List (Fin n → K)) (p : Prob K) : Res (Prob K) :=
  match con with
  | none => Res.ok p
  | some c => do
      let p ←
        if 0 < c.inter.nnzX then do
          let pat ← c.sparsityPatternStateIntermediate
          let x ← setBoxes n p.N c.inter.nnzX c.inter.lb c.inter.ub (pat.map (fun q => (q.2 : Int))) xs p.x
          pure { p with x := x }
        else Res.ok p
      if 0 < c.term.nnzX then do
        let pat ← c.sparsityPatternStateTerminal
        let xN ← back xs
        let x ← setTerminalBox n p.N c.term.nnzX c.term.lb c.term.ub (pat.map (fun q => (q.2 : Int))) xN p.x
        pure { p with x := x }
      else Res.ok p

/-- Vector difference of equal sizes (Eigen asserts). -/
def vsub [Sub K] (a b : List K) : Res (List K) :=
  if a.length = b.length then Res.ok (List.zipWith (· - ·) a b) else Res.ub

/-- `computeLinearizedConstraints` (790-816) at stage `k`. Also returns the container, whose current point is now
that of stage `k`: the container is a member of the backend and keeps it. -/
def linearize [Sub K] (c0 : Container (Pt n m K) K) (k : Nat) (x : Fin n → K) (u : Fin m → K) (t : K)
    (g : List (Gen K)) : Res (Container (Pt n m K) K × List (Gen K)) := do
  let c := at' c0 x u t
  let s ← idx g k
  let s := { s with count := c.inter.count }
  if 0 < s.count then do
    let C ← c.jacobianStateIntermediate
    let D ← c.jacobianInputIntermediate
    let v ← c.evaluateIntermediate
    let lb ← vsub c.inter.lb v
    let ub ← vsub c.inter.ub v
    pure (c, g.set k ⟨s.count, C, D, lb, ub⟩)
  else pure (c, g.set k s)

/-- Constraint part of `initializeCostToGo` (831-846), writing stage `N`. The last state is given to the cost
function only (824): the container is evaluated at whatever point it was given before. -/
def linearizeTerminal [Sub K] (c : Container (Pt n m K) K) (N : Nat) (g : List (Gen K)) : Res (List (Gen K)) := do
  let s ← idx g N
  let s := { s with count := c.term.count }
  if 0 < s.count then do
    let C ← c.jacobianStateTerminal
    let D ← c.jacobianInputTerminal
    let v ← c.evaluateTerminal
    let lb ← vsub c.term.lb v
    let ub ← vsub c.term.ub v
    pure (g.set N ⟨s.count, C, D, lb, ub⟩)
  else pure (g.set N s)

/-- Loop of `computeLQApproximation` (NLOCBackendST-impl.hpp:45-51) over `len` stages from `first`, general
constraints only. The evaluation buffers of the container are rewritten as a whole by each query and not
threaded through. -/
def sweepLoop [Sub K] [Mul K] [NatCast K] (dt : K) (x : List (Fin n → K)) (u : List (Fin m → K)) (first : Nat) :
    Nat → Container (Pt n m K) K × List (Gen K) → Res (Container (Pt n m K) K × List (Gen K))
  | 0, s => Res.ok s
  | len + 1, s => do
      let s ← sweepLoop dt x u first len s
      let xk ← idx x (first + len)
      let uk ← idx u (first + len)
      linearize s.1 (first + len) xk uk (dt * ((first + len : Nat) : K)) s.2

/-- `computeLQApproximation(first, last)` of the single-threaded backend (39-52): the terminal stage first, if
`last` is the last stage of the `N`. -/
def sweep [Sub K] [Mul K] [NatCast K] (N : Nat) (dt : K) (x : List (Fin n → K)) (u : List (Fin m → K)) (first last : Nat)
    (s : Container (Pt n m K) K × List (Gen K)) : Res (Container (Pt n m K) K × List (Gen K)) := do
  let g ← if last + 1 = N then linearizeTerminal s.1 N s.2 else Res.ok s.2
  sweepLoop dt x u first (last + 1 - first) (s.1, g)

/-- Current point of the general container after `changeGeneralConstraints` (336-347): the last intermediate stage
of the trajectory at that time. The clone (333) keeps the point of the user's container, which stays if `N = 0`. The
resizing of the arrays is left out, and so is the evaluation of the error (359-360), which only takes place
after the first iteration and with a line search. -/
def installGeneral [Mul K] [NatCast K] (N : Nat) (dt : K) (x : List (Fin n → K)) (u : List (Fin m → K))
    (c : Container (Pt n m K) K) : Res (Container (Pt n m K) K) :=
  match N with
  | 0 => Res.ok c
  | k + 1 => do
      let xk ← idx x k
      let uk ← idx u k
      pure (at' c xk uk ((k : K) * dt))

/-- Current point of the general container after `computeGeneralConstraintErrorOfTrajectory` (645-682), which
`printSummary` (850-857) calls at the end of every iteration: the last state if there are terminal
constraints, else the last intermediate stage if there are intermediate ones, else as before. -/
def afterError [Zero K] [Mul K] [NatCast K] (N : Nat) (dt : K) (x : List (Fin n → K)) (u : List (Fin m → K))
    (c : Container (Pt n m K) K) : Res (Container (Pt n m K) K) :=
  if 0 < c.term.count then do
    let xN ← idx x N
    pure (at' c xN 0 (dt * (N : K)))
  else if 0 < c.inter.count then
    match N with
    | 0 => Res.ok c
    | k + 1 => do
        let xk ← idx x k
        let uk ← idx u k
        pure (at' c xk uk (dt * (k : K)))
  else Res.ok c

/-! ### Constraint error of a trajectory -/

variable [Ring K] [LinearOrder K]

/-- `lpNorm<1>()`. -/
def norm1 (v : List K) : K := (v.map (fun a => |a|)).sum

/-- Contribution of one container at an intermediate stage (607-626, 657-666). -/
def stageError (con : Option (Container (Pt n m K) K)) (x : Fin n → K) (u : Fin m → K) (t : K) : Res K :=
  match con with
  | none => Res.ok 0
  | some c0 =>
      if 0 < c0.inter.count then do
        let (_, _, tot) ← (at' c0 x u t).violationsIntermediate
        pure (norm1 tot)
      else Res.ok 0

/-- Contribution of one container at the last state (633-642, 672-681). -/
def finalError (con : Option (Container (Pt n m K) K)) (xN : Fin n → K) (t : K) : Res K :=
  match con with
  | none => Res.ok 0
  | some c0 =>
      if 0 < c0.term.count then do
        let (_, _, tot) ← (at' c0 xN 0 t).violationsTerminal
        pure (norm1 tot)
      else Res.ok 0

/-- Loop over the first `k` stages, for a list of containers evaluated one after the other. -/
def errorLoop (cons : List (Option (Container (Pt n m K) K))) (dt : K) (x : List (Fin n → K)) (u : List (Fin m → K)) :
    Nat → Res K
  | 0 => Res.ok 0
  | k + 1 => do
      let e ← errorLoop cons dt x u k
      let xk ← idx x k
      let uk ← idx u k
      let es ← cons.mapM (fun c => stageError c xk uk (dt * (k : K)))
      pure (e + es.sum)

/-- `computeBoxConstraintErrorOfTrajectory` (596-643) with `cons` the input and the state box container and
`finals` the state box container; `computeGeneralConstraintErrorOfTrajectory` (645-682) with the general one
for both. -/
def trajectoryError (cons finals : List (Option (Container (Pt n m K) K))) (N : Nat) (dt : K) (x : List (Fin n → K))
    (u : List (Fin m → K)) : Res K := do
  let e ← errorLoop cons dt x u N
  let xN ← idx x N
  let es ← finals.mapM (fun c => finalError c xN (dt * (N : K)))
  pure (e * dt + es.sum)

end Nloc

end CT.Lqoc
