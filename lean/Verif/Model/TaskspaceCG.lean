import Verif.Model.Taskspace
import Verif.Model.CodeGen
import Verif.Model.CostLoad

/-!
# The task-space pose term with generated code

Models `ct_rbd/include/ct/rbd/robot/costfunction/TermTaskspacePoseCG.hpp` on top of `DerivativesCppadJIT` (`CodeGen.Jit`).

Simplifications: as in `Model/Taskspace.lean` and `Model/CodeGen.lean`; names and output are left out; the sizes of the
dynamic vectors are checked as Eigen's assertions do, a wrong size is undefined behaviour.  The tape that CppAD leaves open
when recording throws is not modelled.
-/

namespace CT.TaskCG

open Matrix FrameJac FloatSys Lookup Taskspace CodeGen

/-- `AD_PARAMETER_DIM` (TermTaskspacePoseCG.hpp:50). -/
abbrev Dim (S C : ℕ) : ℕ := S + C + 3 + 9 + 1

variable {S C : ℕ}

/-- Position of state `i` in the parameter vector (TermTaskspacePoseCG.hpp:42-49, 190). -/
def px (i : Fin S) : Fin (Dim S C) := ⟨i, by unfold Dim; omega⟩
/-- Position of control `i` (TermTaskspacePoseCG.hpp:191). -/
def pu (i : Fin C) : Fin (Dim S C) := ⟨S + i, by unfold Dim; omega⟩
/-- Position of entry `i` of the reference position (TermTaskspacePoseCG.hpp:336). -/
def pp (i : Fin 3) : Fin (Dim S C) := ⟨S + C + i, by unfold Dim; omega⟩
/-- Position of entry `k` of the reference rotation (TermTaskspacePoseCG.hpp:351). -/
def pr (k : Fin 9) : Fin (Dim S C) := ⟨S + C + 3 + k, by unfold Dim; omega⟩
/-- Position of the time (TermTaskspacePoseCG.hpp:192). -/
def pt : Fin (Dim S C) := ⟨Dim S C - 1, by unfold Dim; omega⟩

/-- `parameterVector.segment(...) = v`: the entries at the positions `f i` are replaced (the positions are different). -/
noncomputable def put {k N : ℕ} (p : Fin N → ℝ) (f : Fin k → Fin N) (v : Fin k → ℝ) : Fin N → ℝ :=
  open Classical in fun j => if h : ∃ i, f i = j then v h.choose else p j

/-- The members (TermTaskspacePoseCG.hpp:467-491) and the activation of the base class; `jit` is empty while the pointer is
null. -/
structure Term (S C : ℕ) where
  eeInd : ℕ
  Qpos : M3
  Qrot : ℝ
  jit : Option (Jit (Dim S C))
  par : Fin (Dim S C) → ℝ
  evalU : Bool
  activation : Activation

/-- What the term is instantiated with and runs on: the compiled code, kindr, the kinematics, whether the base floats, and
`setStateFromVector` of the class of the object, which may override the one of the term. -/
structure Env (S C : ℕ) where
  ad : AD (Dim S C)
  kd : Kindr
  d : Defs
  FB : Bool
  sv : List ℝ → Res (Robot.RBD ℝ d.njoints)

/-- `setStateFromVector` of the term (TermTaskspacePoseCG.hpp:374-377, 406-424): with a floating base the vector becomes one of
`2 (NJOINTS + 6)` entries, otherwise it is assigned to positions and velocities of the joints. -/
def baseState (kd : Kindr) (n : ℕ) (FB : Bool) (x : List ℝ) : Res (Robot.RBD ℝ n) :=
  if x.length = (if FB then 2 * (n + 6) else 2 * n) then .ok (stateFrom kd n FB x) else .ub

/-- `extractStateVector` (TermTaskspacePoseCG.hpp:391-396). -/
def stateOf (p : Fin (Dim S C) → ℝ) : Fin S → ℝ := fun i => p (px i)

/-- `extractReferencePosition` (TermTaskspacePoseCG.hpp:399-404). -/
def posOf (p : Fin (Dim S C) → ℝ) : V3 := fun i => p (pp i)

/-- `extractReferenceRotationMatrix` (TermTaskspacePoseCG.hpp:381-388): the 9 entries by columns. -/
def rotOf (p : Fin (Dim S C) → ℝ) : M3 := Matrix.of fun i j => p (pr ⟨3 * j + i, by omega⟩)

/-- `evalLocal` (TermTaskspacePoseCG.hpp:428-465) with the function `sv` that the call of `setStateFromVector` resolves to. -/
noncomputable def evalLocal (d : Defs) (kd : Kindr) (sv : List ℝ → Res (Robot.RBD ℝ d.njoints)) (eeInd : ℕ) (Qpos : M3) (Qrot : ℝ)
    (h : Hists) (p : Fin (Dim S C) → ℝ) : Res ℝ := do
  let s ← sv (List.ofFn (stateOf p))
  let q := byNumber s.joints.pos
  let xCurr ← d.getEEPositionInWorld h.X eeInd s.pose.position (rotationMatrix kd s.pose) q
  let xDiff := xCurr - posOf p
  let posCost := (xDiff ᵥ* Qpos) ⬝ᵥ xDiff
  let eeRot ← d.getEERotInWorld h.X eeInd (rotationMatrix kd s.pose) q
  let diff := (rotOf p)ᵀ * eeRot - 1
  let rotCost := Qrot * ∑ i, ∑ j, diff i j ^ 2
  return posCost + rotCost

/-- `recordCg` (DerivativesCppadJIT-impl.h:458-478) of a function whose control flow does not depend on its inputs: it runs
once, on independent variables that hold zero, and the operations recorded then give the value for other inputs. -/
def record {N : ℕ} (F : (Fin N → ℝ) → Res ℝ) : Res (Fun N) :=
  match F 0 with
  | .ok _ => .ok ⟨1, fun p _ => match F p with
    | .ok v => v
    | _ => 0⟩
  | .exc => .exc
  | .ub => .ub

/-- The settings (TermTaskspacePoseCG.hpp:176-179). -/
def settings : Settings := { forwardZero := true, jacobian := true, hessian := true }

/-- `setup` (TermTaskspacePoseCG.hpp:165-183) when `setStateFromVector` resolves to `sv`; an exception leaves the term as it was.
`h` is the history of the kinematics object. -/
noncomputable def Term.setup (T : Term S C) (e : Env S C) (sv : List ℝ → Res (Robot.RBD ℝ e.d.njoints)) (h : Hists) :
    Res (Term S C) := do
  let f ← record (evalLocal e.d e.kd sv T.eeInd T.Qpos T.Qrot h)
  let j ← (Jit.new f 1).compile e.ad settings
  return { T with jit := some j }

/-- `setReferencePosition` (TermTaskspacePoseCG.hpp:334-337). -/
noncomputable def Term.setReferencePosition (T : Term S C) (p : V3) : Term S C := { T with par := put T.par pp p }

/-- `setReferenceOrientation` of a matrix (TermTaskspacePoseCG.hpp:346-352): Eigen stores matrices by columns. -/
noncomputable def Term.setReferenceRotation (T : Term S C) (R : M3) : Term S C :=
  { T with par := put T.par pr fun k => R ⟨k % 3, by omega⟩ ⟨k / 3, by omega⟩ }

/-- `setReferenceOrientation` of a quaternion (TermTaskspacePoseCG.hpp:355-358). -/
noncomputable def Term.setReferenceOrientation (T : Term S C) (q : Q4) : Term S C :=
  T.setReferenceRotation (quatMatrix (quatNormalized q))

/-- `getReferencePosition` (TermTaskspacePoseCG.hpp:328-331). -/
def Term.getReferencePosition (T : Term S C) : V3 := posOf T.par

/-- `getReferenceOrientation` (TermTaskspacePoseCG.hpp:340-343). -/
def Term.getReferenceOrientation (T : Term S C) (er : EigenRot) : Q4 := er.toQuat (rotOf T.par)

/-- The default constructor (TermTaskspacePoseCG.hpp:65): the members of basic types hold what was in the memory, `junk`. -/
def Term.default (junk : ℕ × M3 × ℝ × (Fin (Dim S C) → ℝ) × Bool) : Term S C :=
  ⟨junk.1, junk.2.1, junk.2.2.1, none, junk.2.2.2.1, junk.2.2.2.2, fun _ => 1⟩

/-- The constructor with a quaternion (TermTaskspacePoseCG.hpp:68-80).  While the constructor of a base class runs, a virtual
function resolves to the one of that class: `setup` records with `setStateFromVector` of the term.  `junk` is the memory of the
parameter vector. -/
noncomputable def Term.new (e : Env S C) (h : Hists) (junk : Fin (Dim S C) → ℝ) (eeInd : ℕ) (Qpos : M3) (Qrot : ℝ) (p : V3) (q : Q4)
    (evalU : Bool) : Res (Term S C) :=
  (((⟨eeInd, Qpos, Qrot, none, junk, evalU, fun _ => 1⟩ : Term S C).setReferencePosition p).setReferenceOrientation q).setup e
    (baseState e.kd e.d.njoints e.FB) h

/-- `AngleAxisd(a, UnitX) * AngleAxisd(b, UnitY) * AngleAxisd(c, UnitZ)` as a quaternion (TermTaskspacePoseCG.hpp:113-115,
300-302). -/
noncomputable def eulerQuat (a : V3) : Q4 :=
  quatMul (quatMul (axisQuat (a 0) ![1, 0, 0]) (axisQuat (a 1) ![0, 1, 0])) (axisQuat (a 2) ![0, 0, 1])

/-- The constructor with Euler angles (TermTaskspacePoseCG.hpp:101-119).  Its parameter is a 3 by 3 matrix, of which the entries
0, 1 and 2 in the order of storage are used: the first column. -/
noncomputable def Term.newEuler (e : Env S C) (h : Hists) (junk : Fin (Dim S C) → ℝ) (eeInd : ℕ) (Qpos : M3) (Qrot : ℝ) (p : V3)
    (eulerXyz : M3) (evalU : Bool) : Res (Term S C) :=
  Term.new e h junk eeInd Qpos Qrot p (eulerQuat fun i => eulerXyz i 0) evalU

/-- The constructor without a target (TermTaskspacePoseCG.hpp:122-134). -/
noncomputable def Term.newDummy (e : Env S C) (h : Hists) (junk : Fin (Dim S C) → ℝ) (eeInd : ℕ) (Qpos : M3) (Qrot : ℝ)
    (evalU : Bool) : Res (Term S C) :=
  (((⟨eeInd, Qpos, Qrot, none, junk, evalU, fun _ => 1⟩ : Term S C).setReferenceOrientation ![0, 0, 0, 1]).setReferencePosition 0).setup
    e (baseState e.kd e.d.njoints e.FB) h

/-- Copy constructor and `clone` (TermTaskspacePoseCG.hpp:143-162): the pointer is dereferenced. -/
def Term.clone (T : Term S C) : Res (Term S C) :=
  match T.jit with
  | none => .ub
  | some j => .ok { T with jit := some j.copy }

/-- `setCurrentStateAndControl` (TermTaskspacePoseCG.hpp:186-193). -/
noncomputable def Term.setCurrent (T : Term S C) (x : Fin S → ℝ) (u : Fin C → ℝ) (t : ℝ) : Term S C :=
  { T with par := put (put (put T.par px x) pu u) (fun _ : Fin 1 => pt) fun _ => t }

/-- The pointer to the compiled functions, dereferenced. -/
def Term.deref (T : Term S C) : Res (Jit (Dim S C)) :=
  match T.jit with
  | none => .ub
  | some j => .ok j

/-- `evaluate` (TermTaskspacePoseCG.hpp:197-203): the value and the term afterwards. -/
noncomputable def Term.evaluate (T : Term S C) (x : Fin S → ℝ) (u : Fin C → ℝ) (t : ℝ) : Res (ℝ × Term S C) := do
  let T := T.setCurrent x u t
  let j ← T.deref
  let v ← j.forwardZero T.par
  let y ← first v
  return (y, T)

/-- `TermBase::eval` (TermBase-impl.hpp:32-38). -/
noncomputable def Term.eval (T : Term S C) (x : Fin S → ℝ) (u : Fin C → ℝ) (t : ℝ) : Res (ℝ × Term S C) := do
  let r ← T.evaluate x u t
  return (T.activation t * r.1, r.2)

/-- `jacTot` (TermTaskspacePoseCG.hpp:211-212, 223-224). -/
noncomputable def Term.jacTot (T : Term S C) (e : Env S C) (x : Fin S → ℝ) (u : Fin C → ℝ) (t : ℝ) :
    Res ((Fin (Dim S C) → ℝ) × Term S C) := do
  let T := T.setCurrent x u t
  let j ← T.deref
  let J ← j.jacobian e.ad T.par
  let r ← first J
  return (r, T)

/-- `hesTot` (TermTaskspacePoseCG.hpp:236-238, 249-251, 265-267). -/
noncomputable def Term.hesTot (T : Term S C) (e : Env S C) (x : Fin S → ℝ) (u : Fin C → ℝ) (t : ℝ) :
    Res ((Fin (Dim S C) → Fin (Dim S C) → ℝ) × Term S C) := do
  let T := T.setCurrent x u t
  let j ← T.deref
  let H ← j.hessian e.ad T.par fun _ => 1
  return (H, T)

/-- `stateDerivative` (TermTaskspacePoseCG.hpp:207-214). -/
noncomputable def Term.stateDerivative (T : Term S C) (e : Env S C) (x : Fin S → ℝ) (u : Fin C → ℝ) (t : ℝ) :
    Res ((Fin S → ℝ) × Term S C) := do
  let r ← T.jacTot e x u t
  return (fun i => r.1 (px i), r.2)

/-- `controlDerivative` (TermTaskspacePoseCG.hpp:217-229). -/
noncomputable def Term.controlDerivative (T : Term S C) (e : Env S C) (x : Fin S → ℝ) (u : Fin C → ℝ) (t : ℝ) :
    Res ((Fin C → ℝ) × Term S C) :=
  if T.evalU then do
    let r ← T.jacTot e x u t
    return (fun i => r.1 (pu i), r.2)
  else .ok (0, T)

/-- `stateSecondDerivative` (TermTaskspacePoseCG.hpp:232-240). -/
noncomputable def Term.stateSecondDerivative (T : Term S C) (e : Env S C) (x : Fin S → ℝ) (u : Fin C → ℝ) (t : ℝ) :
    Res (Matrix (Fin S) (Fin S) ℝ × Term S C) := do
  let r ← T.hesTot e x u t
  return (Matrix.of fun i j => r.1 (px i) (px j), r.2)

/-- `controlSecondDerivative` (TermTaskspacePoseCG.hpp:243-256). -/
noncomputable def Term.controlSecondDerivative (T : Term S C) (e : Env S C) (x : Fin S → ℝ) (u : Fin C → ℝ) (t : ℝ) :
    Res (Matrix (Fin C) (Fin C) ℝ × Term S C) :=
  if T.evalU then do
    let r ← T.hesTot e x u t
    return (Matrix.of fun i j => r.1 (pu i) (pu j), r.2)
  else .ok (0, T)

/-- `stateControlDerivative` (TermTaskspacePoseCG.hpp:259-272). -/
noncomputable def Term.stateControlDerivative (T : Term S C) (e : Env S C) (x : Fin S → ℝ) (u : Fin C → ℝ) (t : ℝ) :
    Res (Matrix (Fin C) (Fin S) ℝ × Term S C) :=
  if T.evalU then do
    let r ← T.hesTot e x u t
    return (Matrix.of fun i j => r.1 (pu i) (px j), r.2)
  else .ok (0, T)

/-- Conversion of texts by `ptree::get<size_t>` and `ptree::get<bool>`. -/
structure Parse extends CostLoad.Parse where
  nat : String → Option ℕ
  bool : String → Option Bool

/-- `pt.get<T>(path)` for these types: throws if the path does not exist or the text cannot be converted
(utilities.hpp:20-30). -/
def getBy {α : Type} (f : String → Option α) (t : CostLoad.Tree) (path : List String) : Res α :=
  match (t.walk path).bind fun c => f c.data with
  | some v => .ok v
  | none => .exc

/-- `loadConfigFile` (TermTaskspacePoseCG.hpp:276-324) with a file that has been parsed: the term afterwards, also after an
exception, and the outcome.  `loadMatrixCF` takes 0 for missing entries and throws nothing, so the handler in lines 306-310 is
never entered. -/
noncomputable def Term.load (T : Term S C) (e : Env S C) (sv : List ℝ → Res (Robot.RBD ℝ e.d.njoints)) (h : Hists) (P : Parse)
    (file : CostLoad.Tree) (term : String) : Term S C × Res Unit :=
  match getBy P.nat file [term, "weights", "eeId"] with
  | .ub => (T, .ub)
  | .exc => (T, .exc)
  | .ok ee =>
    let T := { T with eeInd := ee }
    match CostLoad.loadScalarCF P.toParse file "Q_rot" term with
    | .ub => (T, .ub)
    | .exc => (T, .exc)
    | .ok r =>
      let T := { T with Qrot := r }
      let T := { T with Qpos := CostLoad.loadMatrixCF P.toParse file "Q_pos" 3 3 term }
      let T := T.setReferencePosition (CostLoad.loadVectorCF P.toParse file "x_des" 3 term)
      match getBy P.bool file [term, "weights", "evalControlDerivatives"] with
      | .ub => (T, .ub)
      | .exc => (T, .exc)
      | .ok b =>
        let T := { T with evalU := b }
        let T := T.setReferenceOrientation (eulerQuat (CostLoad.loadVectorCF P.toParse file "eulerXyz_des" 3 term))
        match T.setup e sv h with
        | .ok T' => (T', .ok ())
        | .exc => (T, .exc)
        | .ub => (T, .ub)

/-- The constructor with a file (TermTaskspacePoseCG.hpp:137-140). -/
noncomputable def Term.fromFile (e : Env S C) (h : Hists) (junk : ℕ × M3 × ℝ × (Fin (Dim S C) → ℝ) × Bool) (P : Parse)
    (file : CostLoad.Tree) (term : String) : Res (Term S C) :=
  match (Term.default junk).load e (baseState e.kd e.d.njoints e.FB) h P file term with
  | (T, .ok _) => .ok T
  | (_, .exc) => .exc
  | (_, .ub) => .ub

/-- Calls on a term; `clone` goes on with the copy, which is taken to be of the same class. -/
inductive Op (S C : ℕ) where
  | setPosition (p : V3)
  | setRotation (R : M3)
  | setOrientation (q : Q4)
  | evaluate (x : Fin S → ℝ) (u : Fin C → ℝ) (t : ℝ)
  | stateDerivative (x : Fin S → ℝ) (u : Fin C → ℝ) (t : ℝ)
  | controlDerivative (x : Fin S → ℝ) (u : Fin C → ℝ) (t : ℝ)
  | stateSecondDerivative (x : Fin S → ℝ) (u : Fin C → ℝ) (t : ℝ)
  | controlSecondDerivative (x : Fin S → ℝ) (u : Fin C → ℝ) (t : ℝ)
  | stateControlDerivative (x : Fin S → ℝ) (u : Fin C → ℝ) (t : ℝ)
  | setActivation (a : Activation)
  | clone
  | setup (h : Hists)
  | load (h : Hists) (P : Parse) (file : CostLoad.Tree) (term : String)

/-- Effect of one call.  An exception of `load` or `setup` is caught by the caller. -/
noncomputable def Term.step (e : Env S C) (T : Term S C) : Op S C → Res (Term S C)
  | .setPosition p => .ok (T.setReferencePosition p)
  | .setRotation R => .ok (T.setReferenceRotation R)
  | .setOrientation q => .ok (T.setReferenceOrientation q)
  | .evaluate x u t => do return (← T.evaluate x u t).2
  | .stateDerivative x u t => do return (← T.stateDerivative e x u t).2
  | .controlDerivative x u t => do return (← T.controlDerivative e x u t).2
  | .stateSecondDerivative x u t => do return (← T.stateSecondDerivative e x u t).2
  | .controlSecondDerivative x u t => do return (← T.controlSecondDerivative e x u t).2
  | .stateControlDerivative x u t => do return (← T.stateControlDerivative e x u t).2
  | .setActivation a => .ok { T with activation := a }
  | .clone => T.clone
  | .setup h => match T.setup e e.sv h with
    | .ok T' => .ok T'
    | .exc => .ok T
    | .ub => .ub
  | .load h P file term => match T.load e e.sv h P file term with
    | (_, .ub) => .ub
    | (T', _) => .ok T'

/-- A history of calls. -/
noncomputable def Term.run (e : Env S C) (T : Term S C) (ops : List (Op S C)) : Res (Term S C) :=
  ops.foldlM (Term.step e) T

end CT.TaskCG
