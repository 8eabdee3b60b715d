import Verif.Model.Res
import Verif.Model.Cost
import Mathlib.Data.Fin.Tuple.Basic

/-!
# Automatically differentiated functions, cost functions and constraint containers

Models `ct_core/include/ct/core/math/DerivativesCppadJIT-impl.h` and its two users in `ct_optcon`:
`costfunction/CostFunctionAD-impl.hpp` and `constraint/ConstraintContainerAD-impl.h`.

CppAD, CppADCodeGen and the compiler are not modelled: `AD` holds what they return for a recorded
function.  A recorded function has a fixed number of inputs and outputs; outputs are indexed by `ℕ`,
indices from `k` on are meaningless.  Taping a C++ function whose control flow depends on the inputs
is not modelled: a function is recorded for all inputs.
-/

namespace CT.CodeGen

/-- A function of `N` inputs with `k` outputs, as recorded by `recordCg`
(DerivativesCppadJIT-impl.h:459-478). -/
structure Fun (N : ℕ) where
  k : ℕ
  f : (Fin N → ℝ) → ℕ → ℝ

/-- What the compiled code of a function returns (`GenericModel` of CppADCodeGen): Jacobian and Hessian
as flat arrays in row-major order, and the positions of the entries of the sparse Jacobian. -/
structure AD (N : ℕ) where
  jac : Fun N → (Fin N → ℝ) → ℕ → ℝ
  hess : Fun N → (Fin N → ℝ) → (ℕ → ℝ) → ℕ → ℝ
  pattern : Fun N → List (ℕ × ℕ)

/-- The flags of `DerivativesCppadSettings` that decide what is generated
(DerivativesCppadSettings.h:37-66); the default compiles nothing. Choice of compiler and of LLVM instead
of a dynamic library are not modelled. -/
structure Settings where
  forwardZero : Bool := false
  jacobian : Bool := false
  sparseJacobian : Bool := false
  hessian : Bool := false

/-- `DerivativesCppadJIT` (DerivativesCppadJIT.h): `tape` is `cgCppadFun_`, `model` is `model_` with the
settings it was compiled with (`compiled_` is `model.isSome`), `patternStd` and `pattern` the two copies
of the Jacobian pattern (`sparsityRowsJacobian_`/`Cols`, `sparsityRowsJacobianEigen_`/`Cols`). The copies
of the Hessian pattern are not modelled. -/
structure Jit (N : ℕ) where
  outputDim : ℕ
  tape : Option (Fun N)
  model : Option (Fun N × Settings)
  patternStd : List (ℕ × ℕ)
  pattern : List (ℕ × ℕ)

variable {N : ℕ}

/-- `update` (DerivativesCppadJIT-impl.h:67-80): without inputs or outputs only the dimensions are
stored. -/
def Jit.update (j : Jit N) (f : Fun N) (outputDim : ℕ) : Jit N :=
  let j := { j with outputDim := outputDim }
  if outputDim > 0 ∧ N > 0 then { j with tape := some f, model := none } else j

/-- Constructor (DerivativesCppadJIT-impl.h:15-29). -/
def Jit.new (f : Fun N) (outputDim : ℕ) : Jit N :=
  Jit.update ⟨outputDim, none, none, [], []⟩ f outputDim

/-- Copy constructor (DerivativesCppadJIT-impl.h:32-64) for dynamic libraries: the library is loaded
again under the same name; the patterns are not among the copied members. -/
def Jit.copy (j : Jit N) : Jit N :=
  { outputDim := j.outputDim, tape := j.tape, model := j.model, patternStd := [], pattern := [] }

/-- `compileJIT` (DerivativesCppadJIT-impl.h:296-436): nothing happens when the function is compiled
already; the pattern is read when the sparse Jacobian has been generated. Compiling without a recorded
function is outside the model. -/
def Jit.compile (ad : AD N) (j : Jit N) (s : Settings) : Res (Jit N) :=
  if j.model.isSome then .ok j
  else match j.tape with
    | none => .ub
    | some f =>
      let j := { j with model := some (f, s) }
      if s.sparseJacobian then .ok { j with patternStd := ad.pattern f, pattern := ad.pattern f }
      else .ok j

/-- `forwardZero` (DerivativesCppadJIT-impl.h:89-100). A function that was not generated raises an
error (assertion, or exception of CppADCodeGen). -/
def Jit.forwardZero (j : Jit N) (x : Fin N → ℝ) : Res (List ℝ) :=
  match j.model with
  | none => .exc
  | some (f, s) => if s.forwardZero then .ok ((List.range f.k).map (f.f x)) else .exc

/-- `jacobian` (DerivativesCppadJIT-impl.h:103-120): the flat array read as a row-major matrix with
`outputDim_` rows. Reading beyond the array is undefined. -/
def Jit.jacobian (ad : AD N) (j : Jit N) (x : Fin N → ℝ) : Res (List (Fin N → ℝ)) :=
  if j.outputDim = 0 then .exc
  else match j.model with
    | none => .exc
    | some (f, s) =>
      if s.jacobian then
        if f.k < j.outputDim then .ub
        else .ok ((List.range j.outputDim).map fun i c => ad.jac f x (i * N + c))
      else .exc

/-- `hessian` (DerivativesCppadJIT-impl.h:164-182), for the weights `w` of the outputs. -/
def Jit.hessian (ad : AD N) (j : Jit N) (x : Fin N → ℝ) (w : ℕ → ℝ) : Res (Fin N → Fin N → ℝ) :=
  if j.outputDim = 0 then .exc
  else match j.model with
    | none => .exc
    | some (f, s) => if s.hessian then .ok fun r c => ad.hess f x w (r * N + c) else .exc

/-- `sparseJacobian` (DerivativesCppadJIT-impl.h:123-143): the generated code returns the values at its
pattern and writes that pattern to `sparsityRowsJacobian_`/`Cols`; the caller gets the other copy. -/
def Jit.sparseJacobian (ad : AD N) (j : Jit N) (x : Fin N → ℝ) :
    Res (Jit N × List ℝ × List (ℕ × ℕ)) :=
  if j.outputDim = 0 then .exc
  else match j.model with
    | none => .exc
    | some (f, s) =>
      if s.sparseJacobian then
        .ok ({ j with patternStd := ad.pattern f },
          (ad.pattern f).map (fun p => ad.jac f x (p.1 * N + p.2)), j.pattern)
      else .exc

/-- `getSparsityPatternJacobian(rows, columns)` (DerivativesCppadJIT-impl.h:264-270): `model_` is
dereferenced (in the assertion). -/
def Jit.getPattern (j : Jit N) : Res (List (ℕ × ℕ)) :=
  match j.model with
  | none => .ub
  | some (_, s) => if s.sparseJacobian then .ok j.pattern else .exc

/-- `getNumNonZerosJacobian` (DerivativesCppadJIT-impl.h:273-277). -/
def Jit.numNonZeros (j : Jit N) : Res ℕ :=
  match j.model with
  | none => .ub
  | some (_, s) => if s.sparseJacobian then .ok j.patternStd.length else .exc

/-- Calls on a `DerivativesCppadJIT`; `clone` goes on with the copy. -/
inductive JOp (N : ℕ) where
  | update (f : Fun N) (outputDim : ℕ)
  | compile (s : Settings)
  | clone

/-- Effect of one call. -/
def Jit.step (ad : AD N) (j : Jit N) : JOp N → Res (Jit N)
  | .update f d => .ok (j.update f d)
  | .compile s => j.compile ad s
  | .clone => .ok j.copy

/-- A history of calls. -/
def Jit.run (ad : AD N) (j : Jit N) (ops : List (JOp N)) : Res (Jit N) :=
  ops.foldlM (Jit.step ad) j

/-! ### `CostFunctionAD` -/

variable {n m : ℕ}

/-- `stateControlTime_ << x, u, t` (CostFunctionAD-impl.hpp:132). -/
def stack (x : Fin n → ℝ) (u : Fin m → ℝ) (t : ℝ) : Fin (n + m + 1) → ℝ :=
  Fin.append (Fin.append x u) (fun _ => t)

/-- Position of state `i`, control `i` and time in the stacked vector. -/
def ix (i : Fin n) : Fin (n + m + 1) := Fin.castAdd 1 (Fin.castAdd m i)
/-- See `ix`. -/
def iu (i : Fin m) : Fin (n + m + 1) := Fin.castAdd 1 (Fin.natAdd n i)
/-- See `ix`. -/
def it : Fin (n + m + 1) := Fin.natAdd (n + m) 0

/-- `evaluateIntermediateCg` and `evaluateTerminalCg` (CostFunctionAD-impl.hpp:185-213) for the list of
terms: the sum of the values, without the time activations. `value` stands for `evaluateCppadCg`, which
is the same expression as `evaluate` in every term that has it (e.g. TermLinear-impl.hpp:43-59). -/
def evaluateCg (terms : List (Cost.Term n m)) : Fun (n + m + 1) where
  k := 1
  f p _ := terms.foldl (fun y τ => y + τ.value (fun i => p (ix i)) (fun i => p (iu i)) (p it)) 0

/-- `CostFunctionAD`: the base class with the analytical terms, the two lists of automatically
differentiated terms, their compiled functions and the stacked vector. -/
structure ADCost (n m : ℕ) where
  base : Cost.CF n m
  inter : List (Cost.Term n m)
  fin : List (Cost.Term n m)
  interGen : Jit (n + m + 1)
  finGen : Jit (n + m + 1)
  sct : Fin (n + m + 1) → ℝ

/-- Constructor (CostFunctionAD-impl.hpp:14-30): both functions are recorded without terms. -/
def ADCost.new : ADCost n m where
  base := .new
  inter := []
  fin := []
  interGen := Jit.new (evaluateCg []) 1
  finGen := Jit.new (evaluateCg []) 1
  sct := stack 0 0 0

/-- The settings of `initialize` (CostFunctionAD-impl.hpp:87-90). -/
def costSettings : Settings := { forwardZero := true, jacobian := true, hessian := true }

/-- `initialize` (CostFunctionAD-impl.hpp:73-94): the current terms are recorded and compiled. -/
def ADCost.initialize (ad : AD (n + m + 1)) (c : ADCost n m) : Res (ADCost n m) := do
  let fg ← (c.finGen.update (evaluateCg c.fin) 1).compile ad costSettings
  let ig ← (c.interGen.update (evaluateCg c.inter) 1).compile ad costSettings
  pure { c with interGen := ig, finGen := fg }

/-- Copy constructor (CostFunctionAD-impl.hpp:33-52), with that of the base classes
(CostFunction-impl.hpp:24-27, CostFunctionQuadratic-impl.hpp:18-37): terms are cloned, the compiled
functions copied. -/
def ADCost.copy (c : ADCost n m) : ADCost n m :=
  { c with interGen := c.interGen.copy, finGen := c.finGen.copy }

/-- `addIntermediateADTerm` (CostFunctionAD-impl.hpp:97-107). -/
def ADCost.addInter (c : ADCost n m) (τ : Cost.Term n m) : ADCost n m := { c with inter := c.inter ++ [τ] }

/-- `addFinalADTerm` (CostFunctionAD-impl.hpp:110-120). -/
def ADCost.addFin (c : ADCost n m) (τ : Cost.Term n m) : ADCost n m := { c with fin := c.fin ++ [τ] }

/-- A term changed through the pointer returned by `getIntermediateADTermById`
(CostFunctionAD-impl.hpp:326-329), e.g. with `updateReferenceState`; an index beyond the list is
undefined. -/
def ADCost.editInter (c : ADCost n m) (id : ℕ) (τ : Cost.Term n m) : Res (ADCost n m) :=
  if id < c.inter.length then .ok { c with inter := c.inter.set id τ } else .ub

/-- `setCurrentStateAndControl` (CostFunctionAD-impl.hpp:124-133), which replaces the method of the base
class (`CF.set`): the time is not shifted. -/
def ADCost.set (c : ADCost n m) (x : Fin n → ℝ) (u : Fin m → ℝ) (t : ℝ) : ADCost n m :=
  { c with base := { c.base with x := x, u := u, t := t }, sct := stack x u t }

/-- `loadFromConfigFile` (CostFunctionAD-impl.hpp:136-181, utility/utilities.hpp:112-142) for a file with
the given intermediate (type 0) and final (type 1) terms: the analytical terms are cleared, the terms of
the file added as automatically differentiated terms. Parsing the file is not modelled. -/
def ADCost.load (c : ADCost n m) (inter fin : List (Cost.Term n m)) : ADCost n m :=
  { c with base := { c.base with inter := [], fin := [] }, inter := c.inter ++ inter, fin := c.fin ++ fin }

/-- `forwardZero(…)(0)`: the first entry of the result. -/
def first {α : Type} (l : List α) : Res α := match l with
  | [] => .ub
  | a :: _ => .ok a

/-- `evaluateIntermediate` (CostFunctionAD-impl.hpp:216-219). -/
def ADCost.evaluateIntermediate (c : ADCost n m) : Res ℝ := do
  let v ← c.interGen.forwardZero c.sct
  let y ← first v
  pure (c.base.evaluateIntermediate + y)

/-- `evaluateTerminal` (CostFunctionAD-impl.hpp:222-225). -/
def ADCost.evaluateTerminal (c : ADCost n m) : Res ℝ := do
  let v ← c.finGen.forwardZero c.sct
  let y ← first v
  pure (c.base.evaluateTerminal + y)

/-- `jacTot` (CostFunctionAD-impl.hpp:231-232, 240, 248-249, 257). -/
def jacTot (ad : AD (n + m + 1)) (g : Jit (n + m + 1)) (p : Fin (n + m + 1) → ℝ) :
    Res (Fin (n + m + 1) → ℝ) := do
  let J ← g.jacobian ad p
  first J

/-- `hesTot` (CostFunctionAD-impl.hpp:265-267, 275-277, 285-287, 296-298, 307-309, 317-319): the weight of
the single output is 1. -/
def hesTot (ad : AD (n + m + 1)) (g : Jit (n + m + 1)) (p : Fin (n + m + 1) → ℝ) :
    Res (Fin (n + m + 1) → Fin (n + m + 1) → ℝ) :=
  g.hessian ad p (fun _ => 1)

/-- `controlDerivativeTerminalBase` (CostFunctionQuadratic-impl.hpp:426-435). -/
def controlDerivativeTerminalBase (c : Cost.CF n m) : Fin m → ℝ :=
  c.fin.foldl (fun y τ => y + τ.gradU c.x c.u c.t) 0

/-- `controlSecondDerivativeTerminalBase` (CostFunctionQuadratic-impl.hpp:459-468). -/
def controlSecondDerivativeTerminalBase (c : Cost.CF n m) : Matrix (Fin m) (Fin m) ℝ :=
  c.fin.foldl (fun y τ => y + τ.hessU c.x c.u c.t) 0

/-- `stateControlDerivativeTerminalBase` (CostFunctionQuadratic-impl.hpp:492-501). -/
def stateControlDerivativeTerminalBase (c : Cost.CF n m) : Matrix (Fin m) (Fin n) ℝ :=
  c.fin.foldl (fun y τ => y + τ.cross c.x c.u c.t) 0

/-- `stateDerivativeIntermediate` (CostFunctionAD-impl.hpp:229-234). -/
def ADCost.stateDerivativeIntermediate (ad : AD (n + m + 1)) (c : ADCost n m) : Res (Fin n → ℝ) := do
  let J ← jacTot ad c.interGen c.sct
  pure ((fun i => J (ix i)) + c.base.stateDerivativeIntermediate)

/-- `stateDerivativeTerminal` (CostFunctionAD-impl.hpp:238-242). -/
def ADCost.stateDerivativeTerminal (ad : AD (n + m + 1)) (c : ADCost n m) : Res (Fin n → ℝ) := do
  let J ← jacTot ad c.finGen c.sct
  pure ((fun i => J (ix i)) + c.base.stateDerivativeTerminal)

/-- `controlDerivativeIntermediate` (CostFunctionAD-impl.hpp:246-251). -/
def ADCost.controlDerivativeIntermediate (ad : AD (n + m + 1)) (c : ADCost n m) : Res (Fin m → ℝ) := do
  let J ← jacTot ad c.interGen c.sct
  pure ((fun i => J (iu i)) + c.base.controlDerivativeIntermediate)

/-- `controlDerivativeTerminal` (CostFunctionAD-impl.hpp:255-259). -/
def ADCost.controlDerivativeTerminal (ad : AD (n + m + 1)) (c : ADCost n m) : Res (Fin m → ℝ) := do
  let J ← jacTot ad c.finGen c.sct
  pure ((fun i => J (iu i)) + controlDerivativeTerminalBase c.base)

/-- `stateSecondDerivativeIntermediate` (CostFunctionAD-impl.hpp:263-269). -/
def ADCost.stateSecondDerivativeIntermediate (ad : AD (n + m + 1)) (c : ADCost n m) :
    Res (Matrix (Fin n) (Fin n) ℝ) := do
  let H ← hesTot ad c.interGen c.sct
  pure (Matrix.of (fun i j => H (ix i) (ix j)) + c.base.stateSecondDerivativeIntermediate)

/-- `stateSecondDerivativeTerminal` (CostFunctionAD-impl.hpp:273-279). -/
def ADCost.stateSecondDerivativeTerminal (ad : AD (n + m + 1)) (c : ADCost n m) :
    Res (Matrix (Fin n) (Fin n) ℝ) := do
  let H ← hesTot ad c.finGen c.sct
  pure (Matrix.of (fun i j => H (ix i) (ix j)) + c.base.stateSecondDerivativeTerminal)

/-- `controlSecondDerivativeIntermediate` (CostFunctionAD-impl.hpp:283-290). -/
def ADCost.controlSecondDerivativeIntermediate (ad : AD (n + m + 1)) (c : ADCost n m) :
    Res (Matrix (Fin m) (Fin m) ℝ) := do
  let H ← hesTot ad c.interGen c.sct
  pure (Matrix.of (fun i j => H (iu i) (iu j)) + c.base.controlSecondDerivativeIntermediate)

/-- `controlSecondDerivativeTerminal` (CostFunctionAD-impl.hpp:294-301). -/
def ADCost.controlSecondDerivativeTerminal (ad : AD (n + m + 1)) (c : ADCost n m) :
    Res (Matrix (Fin m) (Fin m) ℝ) := do
  let H ← hesTot ad c.finGen c.sct
  pure (Matrix.of (fun i j => H (iu i) (iu j)) + controlSecondDerivativeTerminalBase c.base)

/-- `stateControlDerivativeIntermediate` (CostFunctionAD-impl.hpp:305-311). -/
def ADCost.stateControlDerivativeIntermediate (ad : AD (n + m + 1)) (c : ADCost n m) :
    Res (Matrix (Fin m) (Fin n) ℝ) := do
  let H ← hesTot ad c.interGen c.sct
  pure (Matrix.of (fun i j => H (iu i) (ix j)) + c.base.stateControlDerivativeIntermediate)

/-- `stateControlDerivativeTerminal` (CostFunctionAD-impl.hpp:315-321). -/
def ADCost.stateControlDerivativeTerminal (ad : AD (n + m + 1)) (c : ADCost n m) :
    Res (Matrix (Fin m) (Fin n) ℝ) := do
  let H ← hesTot ad c.finGen c.sct
  pure (Matrix.of (fun i j => H (iu i) (ix j)) + stateControlDerivativeTerminalBase c.base)

/-- Calls on a `CostFunctionAD`; `analytic` are the calls of the base class other than
`setCurrentStateAndControl`, `clone` goes on with the copy. -/
inductive COp (n m : ℕ) where
  | addInterAnalytic (τ : Cost.Term n m)
  | addFinAnalytic (τ : Cost.Term n m)
  | shift (s : ℝ)
  | addInter (τ : Cost.Term n m)
  | addFin (τ : Cost.Term n m)
  | editInter (id : ℕ) (τ : Cost.Term n m)
  | load (inter fin : List (Cost.Term n m))
  | set (x : Fin n → ℝ) (u : Fin m → ℝ) (t : ℝ)
  | initialize
  | clone

/-- Effect of one call. -/
def ADCost.step (ad : AD (n + m + 1)) (c : ADCost n m) : COp n m → Res (ADCost n m)
  | .addInterAnalytic τ => .ok { c with base := (c.base.addInter τ).1 }
  | .addFinAnalytic τ => .ok { c with base := (c.base.addFin τ).1 }
  | .shift s => .ok { c with base := c.base.shiftTime s }
  | .addInter τ => .ok (c.addInter τ)
  | .addFin τ => .ok (c.addFin τ)
  | .editInter id τ => c.editInter id τ
  | .load i f => .ok (c.load i f)
  | .set x u t => .ok (c.set x u t)
  | .initialize => c.initialize ad
  | .clone => .ok c.copy

/-- A history of calls on a new object. -/
def ADCost.run (ad : AD (n + m + 1)) (ops : List (COp n m)) : Res (ADCost n m) :=
  ops.foldlM (ADCost.step ad) .new

end CT.CodeGen
