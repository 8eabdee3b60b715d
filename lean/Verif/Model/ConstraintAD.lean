import Verif.Model.CodeGen

/-!
# `ConstraintContainerAD`

Models `ct_optcon/include/ct/optcon/constraint/ConstraintContainerAD-impl.h` with its base classes
(`ConstraintContainerBase-impl.h`, `LinearConstraintContainer-impl.h`).  A container stores functions that
capture the address of a container, so the containers of a program are objects on a heap.
-/

namespace CT.CodeGen

variable {n m : ℕ}

/-- A constraint (`ConstraintBase`): its size, its values `evaluateCppadCg`, its bounds. Values and bounds
have `size` entries. Constraints without `evaluateCppadCg` (exception) are not modelled. -/
structure CTerm (n m : ℕ) where
  size : ℕ
  cg : (Fin n → ℝ) → (Fin m → ℝ) → ℝ → ℕ → ℝ
  lb : ℕ → ℝ
  ub : ℕ → ℝ

/-- The loops of `evaluateIntermediateCodegen`, `evaluateTerminalCodegen` and of the bounds
(ConstraintContainerAD-impl.h:427-433, 492-498, 539-546, 559-566): `segment(count, size) = …`, then
`count += size`. -/
def segments (val : CTerm n m → ℕ → ℝ) (ts : List (CTerm n m)) : ℕ × (ℕ → ℝ) :=
  ts.foldl (fun s t =>
    (s.1 + t.size, fun i => if s.1 ≤ i ∧ i < s.1 + t.size then val t (i - s.1) else s.2 i)) (0, fun _ => 0)

/-- `stateControlD_ << x, u` (ConstraintContainerAD-impl.h:40, 527). -/
def stack2 (x : Fin n → ℝ) (u : Fin m → ℝ) : Fin (n + m) → ℝ := Fin.append x u

/-- `evaluateIntermediateCodegen` and `evaluateTerminalCodegen` (ConstraintContainerAD-impl.h:533-569): the
constraints are evaluated at time 0. -/
def evaluateCodegen (ts : List (CTerm n m)) : Fun (n + m) where
  k := (segments (fun _ _ => 0) ts).1
  f p := (segments (fun t => t.cg (fun i => p (Fin.castAdd m i)) (fun i => p (Fin.natAdd n i)) 0) ts).2

/-- `getIntermediateConstraintsCount`, `getTerminalConstraintsCount` (ConstraintContainerAD-impl.h:164-183). -/
def countOf (ts : List (CTerm n m)) : ℕ := ts.foldl (fun c t => c + t.size) 0

/-- The two kinds of constraints. -/
inductive Side where
  | inter
  | term
  deriving DecidableEq

/-- The members for one kind of constraints. `owner` is the container captured by `fIntermediate_`
(`fTerminal_`), `none` for an empty function; `gen` is `none` for a null pointer. -/
structure Half (n m : ℕ) where
  terms : List (CTerm n m)
  owner : Option ℕ
  gen : Option (Jit (n + m))
  init : Bool
  lb : List ℝ
  ub : List ℝ
  patX : List (ℕ × ℕ)
  patU : List (ℕ × ℕ)

/-- A container; `sc` is `stateControlD_`. The time is stored in `t_` and never read. -/
structure Cont (n m : ℕ) where
  half : Side → Half n m
  sc : Fin (n + m) → ℝ

/-- The containers of a program by address; `none` once destroyed. -/
abbrev Heap (n m : ℕ) := List (Option (Cont n m))

/-- Access through a pointer: undefined after destruction. -/
def Heap.get (h : Heap n m) (id : ℕ) : Res (Cont n m) :=
  match h[id]? with
  | some (some c) => .ok c
  | _ => .ub

/-- Calling `fIntermediate_` or `fTerminal_`: the constraints of the captured container; an empty
`std::function` throws. -/
def record (h : Heap n m) (owner : Option ℕ) (s : Side) : Res (Fun (n + m)) :=
  match owner with
  | none => .exc
  | some o => do
    let c ← h.get o
    pure (evaluateCodegen (c.half s).terms)

/-- `new JacCG(f, STATE_DIM + CONTROL_DIM, count)`: the function is called only if there are outputs
(DerivativesCppadJIT-impl.h:67-80). -/
def newGen (h : Heap n m) (owner : Option ℕ) (s : Side) (count : ℕ) : Res (Jit (n + m)) :=
  if count > 0 ∧ n + m > 0 then do
    let f ← record h owner s
    pure (Jit.new f count)
  else .ok ⟨count, none, none, [], []⟩

/-- Members of a container built by the default constructor at address `id`
(ConstraintContainerAD-impl.h:15-31). -/
def Cont.new (id : ℕ) : Cont n m where
  half _ := ⟨[], some id, some ⟨0, none, none, [], []⟩, false, [], [], [], []⟩
  sc _ := 0

/-- The constructor with a point (ConstraintContainerAD-impl.h:35-41): functions and compiled code are
left empty. -/
def Cont.newAt (x : Fin n → ℝ) (u : Fin m → ℝ) : Cont n m where
  half _ := ⟨[], none, none, false, [], [], [], []⟩
  sc := stack2 x u

/-- Replacing the members for one kind. -/
def Cont.setHalf (c : Cont n m) (s : Side) (hf : Half n m) : Cont n m :=
  { c with half := Function.update c.half s hf }

/-- `addIntermediateConstraint`, `addTerminalConstraint` (ConstraintContainerAD-impl.h:97-139) of the
container at `id`. -/
def Cont.add (c : Cont n m) (id : ℕ) (s : Side) (t : CTerm n m) : Res (Cont n m) :=
  let hf := c.half s
  let ts := hf.terms ++ [t]
  match hf.gen with
  | none => .ub
  | some j => .ok (c.setHalf s { hf with
      terms := ts, owner := some id, gen := some (j.update (evaluateCodegen ts) (countOf ts)), init := false })

/-- The settings of the compiled constraints (ConstraintContainerAD-impl.h:402-405, 467-470). -/
def conSettings : Settings := { forwardZero := true, jacobian := true, sparseJacobian := true }

/-- The loop that separates the pattern into state and input columns
(ConstraintContainerAD-impl.h:438-452, 503-517). -/
def splitPattern (n : ℕ) (pat : List (ℕ × ℕ)) : List (ℕ × ℕ) × List (ℕ × ℕ) :=
  pat.foldl (fun s p => if p.2 < n then (s.1 ++ [p], s.2) else (s.1, s.2 ++ [(p.1, p.2 - n)])) ([], [])

/-- `initializeIntermediate`, `initializeTerminal` (ConstraintContainerAD-impl.h:395-521). -/
def Half.initialize (ad : AD (n + m)) (hf : Half n m) : Res (Half n m) :=
  let count := countOf hf.terms
  if count > 0 then
    match hf.gen with
    | none => .ub
    | some j => do
      let j ← j.compile ad conSettings
      let pat ← j.getPattern
      let lb := segments (fun t => t.lb) hf.terms
      let ub := segments (fun t => t.ub) hf.terms
      let sp := splitPattern n pat
      pure { hf with gen := some j, lb := (List.range count).map lb.2, ub := (List.range count).map ub.2,
                     patX := sp.1, patU := sp.2 }
  else .ok hf

/-- `initialize` (LinearConstraintContainer-impl.h:38-43). -/
def Cont.initialize (ad : AD (n + m)) (c : Cont n m) : Res (Cont n m) := do
  let hi ← (c.half .inter).initialize ad
  let ht ← (c.half .term).initialize ad
  pure { c with half := fun s => match s with
    | .inter => { hi with init := true }
    | .term => { ht with init := true } }

/-- Copy constructor (ConstraintContainerAD-impl.h:45-80, with LinearConstraintContainer-impl.h:18-24 and
ConstraintContainerBase-impl.h:18-27): the functions keep the captured address, the constraints are
cloned, recorded through the captured address and compiled. -/
def Cont.copy (ad : AD (n + m)) (h : Heap n m) (c : Cont n m) : Res (Cont n m) := do
  let gi ← newGen h (c.half .inter).owner .inter (countOf (c.half .inter).terms)
  let gt ← newGen h (c.half .term).owner .term (countOf (c.half .term).terms)
  let hi ← Half.initialize ad { c.half .inter with gen := some gi }
  let ht ← Half.initialize ad { c.half .term with gen := some gt }
  pure { c with half := fun s => match s with
    | .inter => hi
    | .term => ht }

/-- Calls of a program on its containers. -/
inductive KOp (n m : ℕ) where
  | new
  | newAt (x : Fin n → ℝ) (u : Fin m → ℝ) (t : ℝ)
  | add (id : ℕ) (s : Side) (t : CTerm n m)
  | initialize (id : ℕ)
  | set (id : ℕ) (x : Fin n → ℝ) (u : Fin m → ℝ) (t : ℝ)
  | clone (id : ℕ)
  | destroy (id : ℕ)

/-- Effect of one call. `set` is `setCurrentStateAndControl` with `update`
(ConstraintContainerBase-impl.h:35-43, ConstraintContainerAD-impl.h:525-528). -/
def Heap.step (ad : AD (n + m)) (h : Heap n m) : KOp n m → Res (Heap n m)
  | .new => .ok (h ++ [some (Cont.new h.length)])
  | .newAt x u _ => .ok (h ++ [some (Cont.newAt x u)])
  | .add id s t => do
    let c ← h.get id
    let c ← c.add id s t
    pure (h.set id (some c))
  | .initialize id => do
    let c ← h.get id
    let c ← c.initialize ad
    pure (h.set id (some c))
  | .set id x u _ => do
    let c ← h.get id
    pure (h.set id (some { c with sc := stack2 x u }))
  | .clone id => do
    let c ← h.get id
    let c ← c.copy ad h
    pure (h ++ [some c])
  | .destroy id => do
    let _ ← h.get id
    pure (h.set id none)

/-- A history of calls of a program. -/
def Heap.run (ad : AD (n + m)) (ops : List (KOp n m)) : Res (Heap n m) := ops.foldlM (Heap.step ad) []

/-- Dereferencing `intermediateCodegen_` or `terminalCodegen_`. -/
def Half.deref (hf : Half n m) : Res (Jit (n + m)) :=
  match hf.gen with
  | none => .ub
  | some j => .ok j

/-- The check `initializedIntermediate_` (`initializedTerminal_`). -/
def Half.check (hf : Half n m) : Res Unit := if hf.init then .ok () else .exc

/-- `evaluateIntermediate`, `evaluateTerminal` (ConstraintContainerAD-impl.h:141-160). -/
def Cont.evaluate (c : Cont n m) (s : Side) : Res (List ℝ) := do
  (c.half s).check
  let j ← (c.half s).deref
  j.forwardZero c.sc

/-- `jacobianStateIntermediate`, `jacobianStateTerminal` (ConstraintContainerAD-impl.h:207-216, 237-246). -/
def Cont.jacobianState (ad : AD (n + m)) (c : Cont n m) (s : Side) : Res (List (Fin n → ℝ)) := do
  (c.half s).check
  let j ← (c.half s).deref
  let J ← j.jacobian ad c.sc
  pure (J.map fun r i => r (Fin.castAdd m i))

/-- `jacobianInputIntermediate`, `jacobianInputTerminal` (ConstraintContainerAD-impl.h:264-273, 294-303). -/
def Cont.jacobianInput (ad : AD (n + m)) (c : Cont n m) (s : Side) : Res (List (Fin m → ℝ)) := do
  (c.half s).check
  let j ← (c.half s).deref
  let J ← j.jacobian ad c.sc
  pure (J.map fun r i => r (Fin.natAdd n i))

/-- `M(row, col)`; outside the matrix it is undefined. -/
def entryAt {k : ℕ} (J : List (Fin k → ℝ)) (p : ℕ × ℕ) : Res ℝ :=
  match J[p.1]? with
  | none => .ub
  | some r => if h : p.2 < k then .ok (r ⟨p.2, h⟩) else .ub

/-- `sparsityPatternState…` (ConstraintContainerAD-impl.h:306-327). -/
def Cont.patternState (c : Cont n m) (s : Side) : Res (List (ℕ × ℕ)) := do
  (c.half s).check
  pure (c.half s).patX

/-- `sparsityPatternInput…` (ConstraintContainerAD-impl.h:330-351). -/
def Cont.patternInput (c : Cont n m) (s : Side) : Res (List (ℕ × ℕ)) := do
  (c.half s).check
  pure (c.half s).patU

/-- `jacobianStateSparseIntermediate`, `jacobianStateSparseTerminal`
(ConstraintContainerAD-impl.h:186-204, 219-234). -/
def Cont.jacobianStateSparse (ad : AD (n + m)) (c : Cont n m) (s : Side) : Res (List ℝ) := do
  (c.half s).check
  let j ← (c.half s).deref
  let J ← j.jacobian ad c.sc
  (c.half s).patX.mapM (entryAt (J.map fun r i => r (Fin.castAdd m i)))

/-- `jacobianInputSparseIntermediate`, `jacobianInputSparseTerminal`
(ConstraintContainerAD-impl.h:249-261, 276-291): the first of the two computes the Jacobian before the
check in `getJacobianInputNonZeroCountIntermediate` (374-381). -/
def Cont.jacobianInputSparse (ad : AD (n + m)) (c : Cont n m) (s : Side) : Res (List ℝ) := do
  if s = .term then (c.half s).check
  let j ← (c.half s).deref
  let J ← j.jacobian ad c.sc
  (c.half s).check
  (c.half s).patU.mapM (entryAt (J.map fun r i => r (Fin.natAdd n i)))

end CT.CodeGen
