import Verif.Model.Cost

/-!
# Loading a cost function from a configuration file

`CostFunctionAnalytical::loadFromConfigFile` (CostFunctionAnalytical-impl.hpp:42-92), `addTerm`, `loadMatrixCF` and `loadScalarCF`
(costfunction/utility/utilities.hpp), the macros of `term/TermLoadMacros.hpp`, `loadConfigFile` of the loadable terms,
and `TermBase::loadTimeActivation`.

Simplifications.  The file has been read and parsed by `boost::property_tree` into a tree (reading the same file several times
gives the same tree).  A path is a list of keys instead of a string with dots (keys contain no dots here).  The conversions of a
text to a number (`num`) and to an integer (`int`) are parameters.  Scalars are real numbers.
-/

namespace CT.CostLoad

open CT.Cost

/-- `boost::property_tree::ptree`: data and children in the order of the file. -/
inductive Tree where
  | node (data : String) (kids : List (String × Tree))

/-- The data of a node. -/
def Tree.data : Tree → String
  | .node d _ => d

/-- The children of a node. -/
def Tree.kids : Tree → List (String × Tree)
  | .node _ k => k

/-- `ptree::find`: the first child of that name. -/
def Tree.find (t : Tree) (key : String) : Option Tree := t.kids.lookup key

/-- `ptree::get_child_optional` along a path. -/
def Tree.walk : Tree → List String → Option Tree
  | t, [] => some t
  | t, k :: ks =>
    match t.find k with
    | none => none
    | some c => c.walk ks

/-- Conversion of texts to numbers by the stream translator of `ptree::get`. -/
structure Parse where
  num : String → Option ℝ
  int : String → Option Int

/-- `pt.get<std::string>(path)`: throws if the path does not exist. -/
def getStr (t : Tree) (path : List String) : Res String :=
  match t.walk path with
  | some c => .ok c.data
  | none => .exc

/-- `pt.get<int>(path)`: throws if the path does not exist or the text is no integer. -/
def getInt (P : Parse) (t : Tree) (path : List String) : Res Int :=
  match (t.walk path).bind fun c => P.int c.data with
  | some i => .ok i
  | none => .exc

/-- `pt.get<double>(path)`: throws if the path does not exist or the text is no number. -/
def getNum (P : Parse) (t : Tree) (path : List String) : Res ℝ :=
  match (t.walk path).bind fun c => P.num c.data with
  | some v => .ok v
  | none => .exc

/-- `pt.get<double>(path, default)`: the default is used if the path does not exist *or the text is no number*. -/
def getNumD (P : Parse) (t : Tree) (path : List String) (d : ℝ) : ℝ :=
  ((t.walk path).bind fun c => P.num c.data).getD d

/-- The key `(i,j)` (utilities.hpp:67, 72-73). -/
def entryKey (i j : Nat) : String := "(" ++ toString i ++ "," ++ toString j ++ ")"

/-- `loadMatrixCF` (utilities.hpp:45-78). For an empty term name the entries are read from the root, but the scaling is still
read below `.weights.`. -/
def loadMatrixCF (P : Parse) (t : Tree) (name : String) (rows cols : Nat) (term : String) : Matrix (Fin rows) (Fin cols) ℝ :=
  Matrix.of fun i j =>
    getNumD P t [term, "weights", name, "scaling"] 1 *
      (if term = "" then getNumD P t [name, entryKey i j] 0 else getNumD P t [term, "weights", name, entryKey i j] 0)

/-- A column vector read with `loadMatrixCF`. -/
def loadVectorCF (P : Parse) (t : Tree) (name : String) (rows : Nat) (term : String) : Fin rows → ℝ :=
  fun i => loadMatrixCF P t name rows 1 term i 0

/-- `loadScalarCF` (utilities.hpp:20-30). -/
def loadScalarCF (P : Parse) (t : Tree) (name : String) (term : String) : Res ℝ := getNum P t [term, "weights", name]

/-! ## Time activations -/

/-- The time activation `c_i_` of a term: `isActive` and `computeActivation`. -/
structure Act where
  isActive : ℝ → Res Bool
  compute : ℝ → ℝ

/-- `ActivationBase` (ActivationBase.hpp:32-34), set by the constructor of `TermBase` (TermBase-impl.hpp:13-17). -/
def Act.base : Act := ⟨fun _ => .ok true, fun _ => 1⟩

/-- `CT_LOADABLE_ACTIVATIONS` (Activations.h:20-25) and `loadConfigFile` of the chosen class (SingleActivation.hpp:19-25,
LinearActivation.hpp:24-32, PeriodicActivation.hpp:38-57, RBFGaussActivation.h:30-39, BarrierActivation.hpp:49-85).  For any
other kind the pointer stays null and is dereferenced (TermBase-impl.hpp:163). -/
noncomputable def loadAct (P : Parse) (t : Tree) (kind : String) (path : List String) : Res Act :=
  if kind = "single" then do
    let a ← getNum P t (path ++ ["t_on"])
    let b ← getNum P t (path ++ ["t_off"])
    let s : Activation.Single ℝ := ⟨a, b⟩
    .ok ⟨fun τ => .ok (s.isActive τ), s.compute⟩
  else if kind = "periodic" then do
    let a ← getNum P t (path ++ ["active_percentage"])
    let b ← getNum P t (path ++ ["period"])
    let c ← getNum P t (path ++ ["activation_offset"])
    let d ← getNum P t (path ++ ["period_offset"])
    let e ← getNum P t (path ++ ["t_end"])
    let s ← Activation.Periodic.load a b c d e
    .ok ⟨s.isActive, fun _ => 1⟩
  else if kind = "rbf" then do
    let a ← getNum P t (path ++ ["mu"])
    let b ← getNum P t (path ++ ["sigma"])
    .ok ⟨fun _ => .ok true, (Activation.Gauss.load a b).compute⟩
  else if kind = "barrier" then do
    let a ← getNum P t (path ++ ["alpha"])
    let b ← Activation.Barrier.load .default a ((t.walk (path ++ ["upper_bound"])).bind fun c => P.num c.data)
      ((t.walk (path ++ ["lower_bound"])).bind fun c => P.num c.data)
    .ok ⟨fun _ => .ok true, b.compute⟩
  else if kind = "linear" then do
    let a ← getNum P t (path ++ ["t_on"])
    let b ← getNum P t (path ++ ["t_off"])
    let c ← getNum P t (path ++ ["slope"])
    let d ← getNum P t (path ++ ["startVal"])
    let s : Activation.Linear ℝ := ⟨a, b, c, d⟩
    .ok ⟨fun τ => .ok (s.isActive τ), s.compute⟩
  else .ub

/-- `TermBase::loadTimeActivation` (TermBase-impl.hpp:147-180): every exception is caught and leaves the old activation. -/
noncomputable def loadTimeActivation (P : Parse) (t : Tree) (old : Act) (term : String) : Res Act :=
  match (do let kind ← getStr t [term, "time_activation", "kind"]
            loadAct P t kind.toLower [term, "time_activation"]) with
  | .ok a => .ok a
  | .exc => .ok old
  | .ub => .ub

/-! ## Terms -/

/-- Data of a term: the members of the five loadable classes. The constant of a linear term is `none` while it is
uninitialised. -/
inductive Data (n m : Nat) where
  | linear (a : Fin n → ℝ) (b : Fin m → ℝ) (c : Option ℝ)
  | quadratic (Q : Matrix (Fin n) (Fin n) ℝ) (R : Matrix (Fin m) (Fin m) ℝ) (xr : Fin n → ℝ) (ur : Fin m → ℝ)
  | mixed (P : Matrix (Fin m) (Fin n) ℝ) (xr : Fin n → ℝ) (ur : Fin m → ℝ)
  | quadMult (Q : Matrix (Fin n) (Fin n) ℝ) (R : Matrix (Fin m) (Fin m) ℝ) (xr : Fin n → ℝ) (ur : Fin m → ℝ)
  | smoothAbs (a : Fin n → ℝ) (xr : Fin n → ℝ) (b : Fin m → ℝ) (ur : Fin m → ℝ) (alpha : ℝ)

/-- A term held by the cost function. -/
structure LTerm (n m : Nat) where
  name : String
  act : Act
  data : Data n m

/-- `evaluate` of a loaded term: the methods of the term classes (`Model/Cost.lean`); reading the uninitialised constant is
undefined. -/
noncomputable def Data.term {n m : Nat} : Data n m → Res (Cost.Term n m)
  | .linear a b (some c) => .ok (Cost.linear a b c)
  | .linear _ _ none => .ub
  | .quadratic Q R xr ur => .ok (Cost.quadratic Q R xr ur)
  | .mixed P xr ur => .ok (Cost.mixed P xr ur)
  | .quadMult Q R xr ur => .ok (Cost.quadMult Q R xr ur)
  | .smoothAbs a xr b ur alpha => .ok (Cost.smoothAbs a xr b ur alpha)

/-- `TermLinear::loadConfigFile` (TermLinear-impl.hpp:112-124) on an object of the default constructor
(TermLinear-impl.hpp:32-35), which initialises nothing; `c_` is not read from the file. -/
def loadLinear (P : Parse) (t : Tree) (n m : Nat) (term : String) : Data n m :=
  .linear (loadVectorCF P t "a" n term) (loadVectorCF P t "b" m term) none

/-- `TermQuadratic::loadConfigFile` (TermQuadratic-impl.hpp:195-219). -/
def loadQuadratic (P : Parse) (t : Tree) (n m : Nat) (term : String) : Data n m :=
  .quadratic (loadMatrixCF P t "Q" n n term) (loadMatrixCF P t "R" m m term) (loadVectorCF P t "x_des" n term)
    (loadVectorCF P t "u_des" m term)

/-- `TermMixed::loadConfigFile` (TermMixed-impl.hpp:140-162). -/
def loadMixed (P : Parse) (t : Tree) (n m : Nat) (term : String) : Data n m :=
  .mixed (loadMatrixCF P t "P" m n term) (loadVectorCF P t "x_des" n term) (loadVectorCF P t "u_des" m term)

/-- `TermQuadMult::loadConfigFile` (TermQuadMult-impl.hpp:171-186). -/
def loadQuadMult (P : Parse) (t : Tree) (n m : Nat) (term : String) : Data n m :=
  .quadMult (loadMatrixCF P t "Q" n n term) (loadMatrixCF P t "R" m m term) (loadVectorCF P t "x_des" n term)
    (loadVectorCF P t "u_des" m term)

/-- `TermSmoothAbs::loadConfigFile` (TermSmoothAbs-impl.hpp:134-160): throws without `alpha`. -/
def loadSmoothAbs (P : Parse) (t : Tree) (n m : Nat) (term : String) : Res (Data n m) := do
  let alpha ← loadScalarCF P t "alpha" term
  .ok (.smoothAbs (loadVectorCF P t "a" n term) (loadVectorCF P t "x_ref" n term) (loadVectorCF P t "b" m term)
    (loadVectorCF P t "u_ref" m term) alpha)

/-- The name set by the term itself: `TermQuadratic` and `TermMixed` read it (TermQuadratic-impl.hpp:206, TermMixed-impl.hpp:151; the
dot at the end of the path does not matter). -/
def nameOr (t : Tree) (term : String) : String := ((t.walk [term, "name"]).map Tree.data).getD term

/-- `CT_LOADABLE_TERMS` (TermLoadMacros.hpp:10-23) followed by `loadTimeActivation` and `loadConfigFile` in `addTerm`
(utilities.hpp:105-106).  The macro sets the kind as the name. -/
noncomputable def loadTerm (P : Parse) (t : Tree) (n m : Nat) (kind term : String) : Res (LTerm n m) :=
  if kind = "linear" then do
    let a ← loadTimeActivation P t .base term
    .ok ⟨"linear", a, loadLinear P t n m term⟩
  else if kind = "quadratic" then do
    let a ← loadTimeActivation P t .base term
    .ok ⟨nameOr t term, a, loadQuadratic P t n m term⟩
  else if kind = "mixed" then do
    let a ← loadTimeActivation P t .base term
    .ok ⟨nameOr t term, a, loadMixed P t n m term⟩
  else if kind = "quadratic-multiplicative" then do
    let a ← loadTimeActivation P t .base term
    .ok ⟨"quadratic-multiplicative", a, loadQuadMult P t n m term⟩
  else if kind = "smooth-abs" then do
    let a ← loadTimeActivation P t .base term
    let d ← loadSmoothAbs P t n m term
    .ok ⟨"smooth-abs", a, d⟩
  else .exc

/-- The term lists of `CostFunctionAnalytical`. -/
structure Loaded (n m : Nat) where
  inter : List (LTerm n m)
  fin : List (LTerm n m)

/-- The name of the `i`-th term in the file (CostFunctionAnalytical-impl.hpp:59, 90). -/
def termKey (i : Nat) : String := "term" ++ toString i

/-- One pass of the loop of `loadFromConfigFile` (CostFunctionAnalytical-impl.hpp:58-89) with `addTerm` (utilities.hpp:80-110).
Simplified: the term is appended to the list after it was loaded, the code appends it before and loads through the pointer. -/
noncomputable def loadStep (P : Parse) (t : Tree) {n m : Nat} (c : Loaded n m) (i : Nat) : Res (Loaded n m) := do
  let kind ← getStr t [termKey i, "kind"]
  let type ← getInt P t [termKey i, "type"]
  if type = 0 then do
    let τ ← loadTerm P t n m kind.toLower (termKey i)
    .ok { c with inter := c.inter ++ [τ] }
  else if type = 1 then do
    let τ ← loadTerm P t n m kind.toLower (termKey i)
    .ok { c with fin := c.fin ++ [τ] }
  else .exc

/-- The do-while loop of `loadFromConfigFile` (CostFunctionAnalytical-impl.hpp:56-91).  A file has finitely many children; the first
argument counts the passes that are still possible (see `C179_load`, which shows that the initial value suffices). -/
noncomputable def loadLoop (P : Parse) (t : Tree) {n m : Nat} : Nat → Loaded n m → Nat → Res (Loaded n m)
  | 0, _, _ => .exc
  | fuel + 1, c, i => do
    let c' ← loadStep P t c i
    match t.find (termKey (i + 1)) with
    | some _ => loadLoop P t fuel c' (i + 1)
    | none => .ok c'

/-- `CostFunctionAnalytical::loadFromConfigFile` (CostFunctionAnalytical-impl.hpp:42-92): both lists are cleared first. -/
noncomputable def loadFromConfigFile (P : Parse) (t : Tree) {n m : Nat} (_old : Loaded n m) : Res (Loaded n m) :=
  loadLoop P t (t.kids.length + 1) ⟨[], []⟩ 0

/-! ## Use of the loaded cost function -/

/-- `evaluateIntermediateBase` (CostFunctionQuadratic-impl.hpp:310-324) with `TermBase::eval`: the activation appears twice. The order of the
sum is not modelled (exact arithmetic). -/
noncomputable def sumInter {n m : Nat} (x : Fin n → ℝ) (u : Fin m → ℝ) (s : ℝ) : List (LTerm n m) → Res ℝ
  | [] => .ok 0
  | τ :: l => do
    let act ← τ.act.isActive s
    let rest ← sumInter x u s l
    if act then do
      let f ← τ.data.term
      .ok (τ.act.compute s * (τ.act.compute s * f.value x u s) + rest)
    else .ok rest

/-- `evaluateTerminalBase` (CostFunctionQuadratic-impl.hpp:328-336). -/
noncomputable def sumFin {n m : Nat} (x : Fin n → ℝ) (u : Fin m → ℝ) (s : ℝ) : List (LTerm n m) → Res ℝ
  | [] => .ok 0
  | τ :: l => do
    let f ← τ.data.term
    let rest ← sumFin x u s l
    .ok (f.value x u s + rest)

/-- `getIntermediateTermByName`, `getFinalTermByName` (CostFunctionQuadratic-impl.hpp:151-171). -/
def termByName {n m : Nat} (l : List (LTerm n m)) (name : String) : Res (LTerm n m) :=
  match l with
  | [] => .exc
  | τ :: l => if τ.name = name then .ok τ else termByName l name

end CT.CostLoad
