import Verif.Model.Res
import Mathlib.Algebra.Order.Ring.Defs

/-!
# Handing a linear-quadratic problem to HPIPM

Models `setProblemImpl` and what it calls in
`/repo/ct_optcon/include/ct/optcon/solver/lqp/HPIPMInterface-impl.hpp` (28-58, 61-76, 83-133, 380-424, 429-740): the tables of
counts, pointers and masks of the interface, and the quadratic program that HPIPM copies from them.

Memory is modelled as far as the pointers need it: a heap of blocks, one for the arrays of each `LQOCProblem`
(`changeNumStages` beyond the capacity moves the arrays to another block); the pointers kept by the interface are
pairs of block and stage, and reading one into a block that no longer exists is undefined.  All arrays of a problem
move together (they are resized together in `LQOCProblem-impl.hpp` 57-88).  HPIPM is the copy it makes of the
arrays when `d_ocp_qp_set_all` and the mask setters are called, with the dimensions given at the last allocation;
its algorithm is not modelled.  Tables indexed by the stage are functions with a size.  Matrices in costs and
dynamics are opaque (`M`).  Debug output is left out.
-/

namespace CT.Hpipm

variable {K M : Type}

/-- Box constraints of one stage of an `LQOCProblem` (`nbu_[i]`, `u_I_[i]`, `u_lb_[i]`, `u_ub_[i]`; with `x` for the
states). -/
structure Box (K : Type) where
  count : Nat
  I : List Nat
  lb : List K
  ub : List K

/-- General constraints of one stage (`ng_[i]`, `C_[i]`, `D_[i]`, `d_lb_[i]`, `d_ub_[i]`). -/
structure Gen (K : Type) where
  count : Nat
  C : List (List K)
  D : List (List K)
  lb : List K
  ub : List K

/-- Input or state box. -/
inductive Kind where
  | u
  | x
  deriving DecidableEq

/-- The arrays of costs and dynamics of an `LQOCProblem`. -/
inductive Fld where
  | A | B | b | P | qv | Q | rv | R
  deriving DecidableEq

/-- The arrays of one `LQOCProblem` with `N` stages. -/
structure Buf (K M : Type) where
  N : Nat
  box : Kind → Nat → Box K
  gen : Nat → Gen K
  data : Fld → Nat → M

/-- Blocks in memory. -/
def Heap (K M : Type) : Type := Nat → Option (Buf K M)

/-- A read access to a block. -/
def Heap.get (h : Heap K M) (id : Nat) : Res (Buf K M) :=
  match h id with
  | some b => Res.ok b
  | none => Res.ub

/-- Write a block. -/
def Heap.put (h : Heap K M) (id : Nat) (b : Buf K M) : Heap K M := fun j => if j = id then some b else h j

/-- A pointer into the arrays of a problem. -/
structure Ptr where
  block : Nat
  stage : Nat
  deriving DecidableEq

/-- Entry `i` of a table replaced. -/
def upd {α : Type} (f : Nat → α) (i : Nat) (a : α) : Nat → α := fun j => if j = i then a else f j

/-- One of the two halves of the loop of `createConstraintsMasks` (36-57), which do not influence each other: the first
`n` entries are looked at; those that are `absent` are replaced by zero and get the mask `false` (0.0 in the code). -/
def mask [Zero K] (absent : K → Bool) : Nat → List K → Res (List K × List Bool)
  | 0, l => Res.ok (l, [])
  | _ + 1, [] => Res.ub
  | n + 1, a :: l => do
      let r ← mask absent n l
      pure (if absent a then (0 :: r.1, false :: r.2) else (a :: r.1, true :: r.2))

section Limits
variable [Ring K] [LinearOrder K]

/-- `lb(k) < -mask_limit` (38), with `mask_limit` 1e9 (34). -/
def absentLb (a : K) : Bool := decide (a < -1000000000)
/-- `ub(k) > mask_limit` (48). -/
def absentUb (a : K) : Bool := decide (1000000000 < a)

/-! ### Tables of the interface -/

/-- `nbu_`, the pointers `hlbu_`, `hubu_`, `hidxbu_` (set together), and the masks (`hlbu_mask_Eigen_`,
`hubu_mask_Eigen_`, to whose entries `hlbu_mask_`, `hubu_mask_` point); with `x` for the states. -/
structure BoxTab where
  size : Nat
  n : Nat → Nat
  p : Nat → Option Ptr
  lbm : Nat → List Bool
  ubm : Nat → List Bool

/-- Before the first call: empty vectors. -/
def BoxTab.empty : BoxTab := ⟨0, fun _ => 0, fun _ => none, fun _ => [], fun _ => []⟩

/-- The resizing at the top of the two box functions (437-448, 488-499): new entries are zero or null. The flag is
`configChanged`. -/
def BoxTab.resize (t : BoxTab) (N : Nat) : BoxTab × Bool :=
  if t.size = N + 1 then (t, false)
  else
    let keep {α : Type} (f : Nat → α) (d : α) : Nat → α := fun i => if i < t.size ∧ i < N + 1 then f i else d
    (⟨N + 1, keep t.n 0, keep t.p none, keep t.lbm [], keep t.ubm []⟩, true)

/-- Body of the loops of `configureInputBoxConstraints` (453-473) and `configureStateBoxConstraints` (511-531): if the
number of constraints of the stage is not the one in the table, the pointers are set and the masks created, which
overwrites the absent bounds in the problem. -/
def boxStep (k : Kind) (id : Nat) (st : BoxTab × Heap K M × Bool) (i : Nat) : Res (BoxTab × Heap K M × Bool) := do
  let B ← st.2.1.get id
  let b := B.box k i
  if st.1.n i = b.count then pure st
  else do
    let l ← mask absentLb b.count b.lb
    let u ← mask absentUb b.count b.ub
    pure ({ st.1 with n := upd st.1.n i b.count, p := upd st.1.p i (some ⟨id, i⟩), lbm := upd st.1.lbm i l.2,
                      ubm := upd st.1.ubm i u.2 },
      st.2.1.put id { B with box := fun k' j => if k' = k ∧ j = i then { b with lb := l.1, ub := u.1 } else B.box k' j },
      true)

/-- `configureInputBoxConstraints` (429-477): stages `i < N`. -/
def configureInput (t : BoxTab) (h : Heap K M) (id : Nat) : Res (BoxTab × Heap K M × Bool) := do
  let B ← h.get id
  let r := t.resize B.N
  (List.range B.N).foldlM (boxStep Kind.u id) (r.1, h, r.2)

/-- `configureStateBoxConstraints` (480-535): stage zero gets no constraint, then stages `1, ..., N`. -/
def configureState (t : BoxTab) (h : Heap K M) (id : Nat) : Res (BoxTab × Heap K M × Bool) := do
  let B ← h.get id
  let r := t.resize B.N
  (List.range' 1 B.N).foldlM (boxStep Kind.x id) ({ r.1 with n := upd r.1.n 0 0 }, h, r.2)

/-- The tables of the general constraints: `ng_`, the pointers `hC_`, `hD_` and (after stage zero) `hlg_`, `hug_`, the
masks, and the copies of the bounds of stage zero. -/
structure GenTab (K : Type) where
  size : Nat
  n : Nat → Nat
  p : Nat → Option Ptr
  lbm : Nat → List Bool
  ubm : Nat → List Bool
  lb0 : List K
  ub0 : List K

def GenTab.empty : GenTab K := ⟨0, fun _ => 0, fun _ => none, fun _ => [], fun _ => [], [], []⟩

/-- Resizing (545-557). -/
def GenTab.resize (t : GenTab K) (N : Nat) : GenTab K × Bool :=
  if t.size = N + 1 then (t, false)
  else
    let keep {α : Type} (f : Nat → α) (d : α) : Nat → α := fun i => if i < t.size ∧ i < N + 1 then f i else d
    (⟨N + 1, keep t.n 0, keep t.p none, keep t.lbm [], keep t.ubm [], t.lb0, t.ub0⟩, true)

/-- The arrays of a stage have as many rows as constraints are counted, so that the `resize` calls (573-576) change
nothing. -/
def Gen.sized (g : Gen K) : Bool :=
  g.C.length == g.count && g.D.length == g.count && g.lb.length == g.count && g.ub.length == g.count

/-- Body of the loop of `configureGeneralConstraints` (566-603).  Where the arrays of the problem have another size than
the count, the code goes on with uninitialised entries or reads outside: `Res.ub`. -/
def genStep (id : Nat) (st : GenTab K × Heap K M × Bool) (i : Nat) : Res (GenTab K × Heap K M × Bool) := do
  let B ← st.2.1.get id
  let g := B.gen i
  if g.sized then do
    let t := st.1
    let src := if i = 0 then (t.lb0, t.ub0) else (g.lb, g.ub)
    let l ← mask absentLb g.count src.1
    let u ← mask absentUb g.count src.2
    let t' : GenTab K :=
      { t with n := upd t.n i g.count, p := upd t.p i (some ⟨id, i⟩), lbm := upd t.lbm i l.2, ubm := upd t.ubm i u.2 }
    let changed := st.2.2 || decide (t.n i ≠ g.count)
    if i = 0 then pure ({ t' with lb0 := l.1, ub0 := u.1 }, st.2.1, changed)
    else pure (t', st.2.1.put id { B with gen := upd B.gen i { g with lb := l.1, ub := u.1 } }, changed)
  else Res.ub

/-- `configureGeneralConstraints` (538-607): the bounds of stage zero are copied (561-562), then all stages `i ≤ N`. -/
def configureGeneral (t : GenTab K) (h : Heap K M) (id : Nat) : Res (GenTab K × Heap K M × Bool) := do
  let B ← h.get id
  let r := t.resize B.N
  (List.range (B.N + 1)).foldlM (genStep id) ({ r.1 with lb0 := (B.gen 0).lb, ub0 := (B.gen 0).ub }, h, r.2)

/-! ### The quadratic program -/

/-- Dimensions given to HPIPM (`d_ocp_qp_dim_set_all`, 102-103). -/
structure Dims where
  N : Nat
  nx : Nat → Nat
  nu : Nat → Nat
  nbx : Nat → Nat
  nbu : Nat → Nat
  ng : Nat → Nat

/-- Box constraints of a stage as copied by HPIPM: index, bounds and masks of each. -/
structure QpBox (K : Type) where
  I : List Nat
  lb : List K
  ub : List K
  lbm : List Bool
  ubm : List Bool
  deriving DecidableEq

/-- General constraints of a stage as copied by HPIPM. -/
structure QpGen (K : Type) where
  C : List (List K)
  D : List (List K)
  lb : List K
  ub : List K
  lbm : List Bool
  ubm : List Bool
  deriving DecidableEq

/-- What HPIPM solves. -/
structure Qp (K M : Type) where
  dims : Dims
  box : Kind → List (QpBox K)
  gen : List (QpGen K)
  data : Fld → List M

/-- The interface. `N` is `none` for -1; `dims` are those of the last allocation; `b0`, `r0` are `hb0_`, `hr0_`; `nuSize`
is the size of the vectors `nu_` and `nx_`. -/
structure Iface (K M : Type) where
  N : Option Nat
  bu : BoxTab
  bx : BoxTab
  g : GenTab K
  nuSize : Nat
  nu : Nat → Nat
  nx : Nat → Nat
  hp : Fld → Nat → Option Ptr
  b0 : Option M
  r0 : Option M
  dims : Option Dims
  qp : Option (Qp K M)

/-- Constructor (61-76). -/
def Iface.new : Iface K M :=
  ⟨none, .empty, .empty, .empty, 0, fun _ => 0, fun _ => 0, fun _ _ => none, none, none, none, none⟩

/-- A pointer is read. -/
def deref (h : Heap K M) (p : Option Ptr) : Res (Buf K M × Nat) :=
  match p with
  | none => Res.ub
  | some p => do
      let B ← h.get p.block
      pure (B, p.stage)

/-- HPIPM copies the `n` box constraints of a stage; nothing is read if there are none. -/
def snapBox (h : Heap K M) (k : Kind) (t : BoxTab) (n i : Nat) : Res (QpBox K) :=
  if n = 0 then Res.ok ⟨[], [], [], [], []⟩
  else do
    let B ← deref h (t.p i)
    let b := B.1.box k B.2
    if b.I.length < n ∨ b.lb.length < n ∨ b.ub.length < n ∨ (t.lbm i).length < n ∨ (t.ubm i).length < n then Res.ub
    else pure ⟨b.I.take n, b.lb.take n, b.ub.take n, (t.lbm i).take n, (t.ubm i).take n⟩

/-- HPIPM copies the `n` general constraints of a stage. -/
def snapGen (h : Heap K M) (t : GenTab K) (n i : Nat) : Res (QpGen K) :=
  if n = 0 then Res.ok ⟨[], [], [], [], [], []⟩
  else do
    let B ← deref h (t.p i)
    let g := B.1.gen B.2
    let lb := if i = 0 then t.lb0 else g.lb
    let ub := if i = 0 then t.ub0 else g.ub
    if g.C.length < n ∨ g.D.length < n ∨ lb.length < n ∨ ub.length < n ∨ (t.lbm i).length < n ∨ (t.ubm i).length < n then
      Res.ub
    else pure ⟨g.C.take n, g.D.take n, lb.take n, ub.take n, (t.lbm i).take n, (t.ubm i).take n⟩

/-- HPIPM copies an entry of the costs or dynamics; offset and control gradient of stage zero are local copies. -/
def snapData (s : Iface K M) (h : Heap K M) (f : Fld) (i : Nat) : Res M :=
  let ptr : Res M := do
    let B ← deref h (s.hp f i)
    pure (B.1.data f B.2)
  if i = 0 then
    match f with
    | .b => (match s.b0 with | some m => Res.ok m | none => Res.ub)
    | .rv => (match s.r0 with | some m => Res.ok m | none => Res.ub)
    | _ => ptr
  else ptr

/-- Number of stages at which an array is read: the terminal stage has only a state cost. -/
def Fld.stages (f : Fld) (N : Nat) : Nat :=
  match f with
  | .Q | .qv => N + 1
  | _ => N

/-- `d_ocp_qp_set_all` and the mask setters (109-132, 402-424), with the dimensions `d` of the allocation.  (The masks of
input boxes are set for `i < N`; those of stage `N` are read here as well, where no input exists.) -/
def setAll (s : Iface K M) (h : Heap K M) (d : Dims) : Res (Qp K M) := do
  let bu ← (List.range (d.N + 1)).mapM (fun i => snapBox h Kind.u s.bu (d.nbu i) i)
  let bx ← (List.range (d.N + 1)).mapM (fun i => snapBox h Kind.x s.bx (d.nbx i) i)
  let g ← (List.range (d.N + 1)).mapM (fun i => snapGen h s.g (d.ng i) i)
  let rd := fun f : Fld => (List.range (f.stages d.N)).mapM (snapData s h f)
  let vA ← rd .A
  let vB ← rd .B
  let vb ← rd .b
  let vP ← rd .P
  let vq ← rd .qv
  let vQ ← rd .Q
  let vr ← rd .rv
  let vR ← rd .R
  pure ⟨d, fun k => match k with | .u => bu | .x => bx, g,
    fun f => match f with
      | .A => vA | .B => vB | .b => vb | .P => vP | .qv => vq | .Q => vQ | .rv => vr | .R => vR⟩

/-- `changeProblemSize` (656-740). The vectors of pointers are resized only if something changed; `hb_[0]` does not
exist without stages. -/
def changeProblemSize (n m : Nat) (s : Iface K M) (h : Heap K M) (id : Nat) : Res (Iface K M × Heap K M × Bool) := do
  let B ← h.get id
  let horizon := decide (s.N ≠ some B.N)
  let u ← configureInput s.bu h id
  let x ← configureState s.bx u.2.1 id
  let g ← configureGeneral s.g x.2.1 id
  let s1 := { s with N := some B.N, bu := u.1, bx := x.1, g := g.1 }
  if !horizon && !(u.2.2 || x.2.2 || g.2.2) then pure (s1, g.2.1, false)
  else if B.N = 0 then Res.ub
  else
    let nu' : Nat → Nat := fun i => if i < s.nuSize ∧ i + 1 ≠ s.nuSize then s.nu i else m
    let nx' : Nat → Nat := fun i => if i < s.nuSize then s.nx i else n
    pure ({ s1 with nuSize := B.N + 1, nu := upd nu' B.N 0, nx := upd nx' 0 0 }, g.2.1, true)

/-- `setupCostAndDynamics` (610-653). -/
def setupCostAndDynamics (s : Iface K M) (B : Buf K M) (id : Nat) : Iface K M :=
  { s with b0 := some (B.data .b 0), r0 := some (B.data .rv 0),
           hp := fun f i => if i < f.stages B.N then some ⟨id, i⟩ else s.hp f i }

/-- `setProblemImpl` (380-426): `id` is the block of the problem. -/
def setProblem (n m : Nat) (s : Iface K M) (h : Heap K M) (id : Nat) : Res (Iface K M × Heap K M) := do
  let r ← changeProblemSize n m s h id
  let B ← r.2.1.get id
  let s2 := setupCostAndDynamics r.1 B id
  let d ← (if r.2.2 then Res.ok ⟨B.N, s2.nx, s2.nu, s2.bx.n, s2.bu.n, s2.g.n⟩
    else match s2.dims with
      | some d => Res.ok d
      | none => Res.ub)
  let q ← setAll s2 r.2.1 d
  pure ({ s2 with dims := some d, qp := some q }, r.2.1)

end Limits

/-- `changeNumStages` of a problem beyond the capacity of its arrays: they move to the block `new`, the old block no
longer exists. -/
def Heap.move (h : Heap K M) (old new : Nat) (B : Buf K M) : Heap K M :=
  fun j => if j = new then some B else if j = old then none else h j

end CT.Hpipm
