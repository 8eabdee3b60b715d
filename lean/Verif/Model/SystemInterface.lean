import Verif.Model.Discretizer

/-!
# The interface between a nonlinear optimal control solver and its systems

Models `ct_optcon/include/ct/optcon/system_interface/OptconSystemInterface.h`,
`OptconContinuousSystemInterface-impl.h` and `OptconDiscreteSystemInterface-impl.h` as state machines
over the discretisers of `Model/Discretizer.lean` and the sensitivity objects of ct_core. The
computation a sensitivity object performs is a parameter.

Simplifications: thread counts are natural numbers; the constant controllers of the interface are left
out, because the discretiser clones the system and gives the clone its own controller
(SystemDiscretizer-impl.h:114-115) and the sensitivity integrator only asks its controller for the
derivative with respect to its own value, the identity. Nonlinear systems have value semantics, since the
discretiser and the interface hold different clones; linear systems are objects on a heap, since the
interface and the sensitivity object hold the same one.
-/

namespace CT.SysIf

open CT.Discretizer (IntType Disc)

variable {K S L X U M : Type}

/-- `SensitivityApproximationSettings::APPROXIMATION` (Sensitivity.h:15-22). -/
inductive Approx where
  | forwardEuler
  | backwardEuler
  | symplecticEuler
  | tustin
  | matrixExponential
  deriving DecidableEq

/-- The members of `NLOptConSettings` (NLOptConSettings.hpp:255-280) read by the system interface. -/
structure Settings (K : Type) where
  nThreads : ℕ
  dt : K
  kSim : ℕ
  integrator : IntType
  useSens : Bool
  timeVarying : Bool
  discretization : Approx
  deriving DecidableEq

/-- `getSimulationTimestep` (NLOptConSettings.hpp:300). -/
def Settings.simStep [Field K] (s : Settings K) : K := s.dt / s.kSim

/-- A sensitivity object: `SensitivityIntegrator` (SensitivityIntegrator.h:57-67, 208-225) or
`SensitivityApproximation` (SensitivityApproximation.h:42-48); `lin` is the shared pointer to the linear
system. -/
inductive SensObj (K : Type) where
  | integ (dt : K) (lin : ℕ) (ty : IntType) (timeVarying : Bool)
  | approx (dt : K) (lin : ℕ) (ap : Approx)
  deriving DecidableEq

/-- `setApproximation`: empty for the integrator (Sensitivity.h:55), an assignment for the approximation
(SensitivityApproximation.h:79-82). -/
def SensObj.setApproximation (o : SensObj K) (ap : Approx) : SensObj K :=
  match o with
  | .integ dt l ty tv => .integ dt l ty tv
  | .approx dt l _ => .approx dt l ap

/-- `setTimeDiscretization` (SensitivityIntegrator.h:124, SensitivityApproximation.h:96). -/
def SensObj.setTimeDiscretization (o : SensObj K) (dt : K) : SensObj K :=
  match o with
  | .integ _ l ty tv => .integ dt l ty tv
  | .approx _ l ap => .approx dt l ap

/-- `setLinearSystem` (SensitivityIntegrator.h:117-121, SensitivityApproximation.h:88-92). -/
def SensObj.setLinearSystem (o : SensObj K) (l : ℕ) : SensObj K :=
  match o with
  | .integ dt _ ty tv => .integ dt l ty tv
  | .approx dt _ ap => .approx dt l ap

/-- What one thread owns: `systems_[i]`, `linearSystems_[i]`, `discretizers_[i]`, `sensitivity_[i]`. -/
structure Thread (K S X : Type) where
  sys : S
  lin : ℕ
  disc : Disc K S X
  sens : SensObj K

/-- Members of the continuous-time interface. `threads` is empty until `initialize` has run. `heap` holds
the linear systems. -/
structure Iface (K S L X : Type) where
  problemSys : S
  problemLin : L
  settings : Settings K
  threads : List (Thread K S X)
  heap : List L

/-- What the integrators and sensitivity objects compute. `integAB ty tv l dt` and `approxAB ap l dt` are
`getAandB` of the two sensitivity classes. Arguments: state, control, next state, recorded sub-step
states and controls of the stage, stage, number of sub-steps. -/
structure Env (K S L X U M : Type) extends Discretizer.Env K S X U where
  integAB : IntType → Bool → L → K → X → U → X → List X → List U → ℕ → ℕ → Res M
  approxAB : Approx → L → K → X → U → X → List X → List U → ℕ → ℕ → Res M

/-- Constructor (OptconContinuousSystemInterface-impl.h:11-17, OptconSystemInterface.h:52-59). -/
def construct (s : S) (l : L) (set : Settings K) : Iface K S L X := ⟨s, l, set, [], []⟩

/-- The check of `initialize` (OptconContinuousSystemInterface-impl.h:79-84): `EULER`, `RK4`, `EULERCT`,
`RK4CT` are numbers 0, 1, 7, 8 of the enumeration (Integrator.h:30-43). -/
def sensSupported : IntType → Bool
  | .plain k => k = 0 || k = 7 || k = 1 || k = 8
  | .eulerSym => true
  | .rkSym => false

variable [Field K]

/-- One pass of the loop of `initialize` (OptconContinuousSystemInterface-impl.h:63-97); `h` is the address of the clone of
the linear system. -/
def initThread (e : Env K S L X U M) (i : Iface K S L X) (h : ℕ) : Res (Thread K S X) :=
  let set := i.settings
  let disc := Discretizer.construct e.toEnv i.problemSys set.dt set.integrator set.kSim
  if set.useSens then
    if !sensSupported set.integrator then .exc
    else .ok ⟨i.problemSys, h, disc, .integ set.simStep h set.integrator set.timeVarying⟩
  else .ok ⟨i.problemSys, h, disc, .approx set.dt h set.discretization⟩

/-- `initialize` (OptconContinuousSystemInterface-impl.h:56-98). -/
def initIface (e : Env K S L X U M) (i : Iface K S L X) : Res (Iface K S L X) := do
  let n := i.settings.nThreads + 1
  let threads ← (List.range n).mapM fun k => initThread e i (i.heap.length + k)
  pure { i with threads := threads, heap := i.heap ++ List.replicate n i.problemLin }

/-- Body of the loop of `configure` (OptconContinuousSystemInterface-impl.h:119-126). -/
def confThread (set : Settings K) (t : Thread K S X) : Thread K S X :=
  let s1 := t.sens.setApproximation set.discretization
  let s2 := if set.useSens then s1.setTimeDiscretization set.simStep else s1.setTimeDiscretization set.dt
  { t with sens := s2, disc := Discretizer.setParameters t.disc set.dt set.kSim }

/-- `configure` (OptconContinuousSystemInterface-impl.h:100-130). Before `initialize` the vector
`sensitivity_` is empty and `sensitivity_[0]` undefined. -/
def configure (i : Iface K S L X) (set : Settings K) : Res (Iface K S L X) :=
  if set.nThreads ≠ i.settings.nThreads then .exc
  else if set.integrator ≠ i.settings.integrator then .exc
  else if i.threads.length < set.nThreads + 1 then .ub
  else .ok { i with threads := i.threads.map (confThread set), settings := set }

/-- `changeNonlinearSystem` (OptconContinuousSystemInterface-impl.h:24-40); `none` is a null pointer;
`.at(i)` throws before `initialize`. -/
def changeNonlinear (e : Env K S L X U M) (i : Iface K S L X) (dyn : Option S) : Res (Iface K S L X) :=
  match dyn with
  | none => .exc
  | some s =>
    if i.threads.length < i.settings.nThreads + 1 then .exc
    else .ok { i with threads := i.threads.map fun t =>
      { t with
        sys := s
        disc := Discretizer.construct e.toEnv s i.settings.dt i.settings.integrator i.settings.kSim } }

/-- `changeLinearSystem` (OptconContinuousSystemInterface-impl.h:41-53). -/
def changeLinear (i : Iface K S L X) (lin : Option L) : Res (Iface K S L X) :=
  match lin with
  | none => .exc
  | some l =>
    if i.threads.length < i.settings.nThreads + 1 then .exc
    else .ok { i with
      threads := i.threads.mapIdx fun k t =>
        { t with lin := i.heap.length + k, sens := t.sens.setLinearSystem (i.heap.length + k) }
      heap := i.heap ++ List.replicate i.threads.length l }

/-- A user changes every nonlinear system instance in place through `getNonlinearSystemsInstances`
(OptconSystemInterface.h:102; OptConSolver.h:231-240). -/
def mutateNonlinear (i : Iface K S L X) (g : S → S) : Iface K S L X :=
  { i with threads := i.threads.map fun t => { t with sys := g t.sys } }

/-- A user changes every linear system instance in place through `getLinearSystemsInstances`
(OptconSystemInterface.h:103; OptConSolver.h:244-253). -/
def mutateLinear (i : Iface K S L X) (g : L → L) : Iface K S L X :=
  { i with heap := i.threads.foldl (fun h t => h.modify t.lin g) i.heap }

/-- `propagateControlledDynamics` (OptconContinuousSystemInterface-impl.h:132-142); `operator[]` beyond the
end is undefined. The second component is the new interface, with the recorded sub-steps. -/
def propagate (e : Env K S L X U M) (i : Iface K S L X) (x : X) (n : ℕ) (u : U) (tid : ℕ) :
    Res (X × Iface K S L X) := do
  let t ← idx i.threads tid
  let (y, d) ← Discretizer.propagate e.toEnv t.disc x n u
  pure (y, { i with threads := i.threads.set tid { t with disc := d } })

/-- `getSubstates` (OptconContinuousSystemInterface-impl.h:144-150). -/
def getSubstates (i : Iface K S L X) (tid : ℕ) : Res (List X) := do
  let t ← idx i.threads tid
  pure t.disc.sub

/-- `setSubstepTrajectoryReference` and `getAandB` (OptconContinuousSystemInterface-impl.h:160-180), as
called one after the other by `computeLinearizedDynamics` (NLOCBackendBase-impl.hpp:700-701); `xs`, `us`
are the recorded arrays of stage `n`. A dangling address is undefined. -/
def getAandB (e : Env K S L X U M) (i : Iface K S L X) (x : X) (u : U) (xNext : X) (xs : List X)
    (us : List U) (n subSteps tid : ℕ) : Res M := do
  let t ← idx i.threads tid
  match t.sens with
  | .integ dt l ty tv => do
      let lin ← idx i.heap l
      e.integAB ty tv lin dt x u xNext xs us n subSteps
  | .approx dt l ap => do
      let lin ← idx i.heap l
      e.approxAB ap lin dt x u xNext xs us n subSteps

/-- Calls on an initialised interface. -/
inductive Op (K S L X U : Type) where
  | configure (set : Settings K)
  | changeNonlinear (dyn : Option S)
  | changeLinear (lin : Option L)
  | mutateLinear (g : L → L)
  | propagate (x : X) (n : ℕ) (u : U) (tid : ℕ)

/-- Effect of a call; a call that throws leaves the interface as it was (the checks come first). -/
def apply (e : Env K S L X U M) (i : Iface K S L X) (op : Op K S L X U) : Res (Iface K S L X) :=
  let keep : Res (Iface K S L X) → Res (Iface K S L X) := fun r =>
    match r with
    | .exc => .ok i
    | r => r
  match op with
  | .configure set => keep (configure i set)
  | .changeNonlinear dyn => keep (changeNonlinear e i dyn)
  | .changeLinear lin => keep (changeLinear i lin)
  | .mutateLinear g => .ok (mutateLinear i g)
  | .propagate x n u tid =>
    match propagate e i x n u tid with
    | .ok (_, i') => .ok i'
    | .exc => .ok i
    | .ub => .ub

/-- A sequence of calls. -/
def run (e : Env K S L X U M) : List (Op K S L X U) → Iface K S L X → Res (Iface K S L X)
  | [], i => .ok i
  | op :: ops, i => do
      let i' ← apply e i op
      run e ops i'

/-! ## The discrete-time interface -/

/-- Members of the discrete-time interface; here the instances themselves do the work. -/
structure DIface (S L : Type) where
  problemSys : S
  problemLin : L
  nThreads : ℕ
  systems : List S
  linears : List L

/-- `initialize` (OptconDiscreteSystemInterface-impl.h:71-87). -/
def DIface.init (i : DIface S L) : DIface S L :=
  { i with
    systems := List.replicate (i.nThreads + 1) i.problemSys
    linears := List.replicate (i.nThreads + 1) i.problemLin }

/-- `configure` (OptconDiscreteSystemInterface-impl.h:89-98). -/
def DIface.configure (i : DIface S L) (nThreads : ℕ) : Res (DIface S L) :=
  if nThreads ≠ i.nThreads then .exc else .ok { i with nThreads := nThreads }

/-- `changeNonlinearSystem` (OptconDiscreteSystemInterface-impl.h:44-56). -/
def DIface.changeNonlinear (i : DIface S L) (dyn : Option S) : Res (DIface S L) :=
  match dyn with
  | none => .exc
  | some s => if i.systems.length < i.nThreads + 1 then .exc
      else .ok { i with systems := i.systems.map fun _ => s }

/-- `changeLinearSystem` (OptconDiscreteSystemInterface-impl.h:58-69). -/
def DIface.changeLinear (i : DIface S L) (lin : Option L) : Res (DIface S L) :=
  match lin with
  | none => .exc
  | some l => if i.linears.length < i.nThreads + 1 then .exc
      else .ok { i with linears := i.linears.map fun _ => l }

/-- In-place changes of all instances through the accessors (OptconSystemInterface.h:102-103). -/
def DIface.mutateNonlinear (i : DIface S L) (g : S → S) : DIface S L :=
  { i with systems := i.systems.map g }

/-- See `DIface.mutateNonlinear`. -/
def DIface.mutateLinear (i : DIface S L) (g : L → L) : DIface S L :=
  { i with linears := i.linears.map g }

/-- `propagateControlledDynamics` (OptconDiscreteSystemInterface-impl.h:32-42). -/
def DIface.propagate (step : S → X → ℕ → U → X) (i : DIface S L) (x : X) (n : ℕ) (u : U) (tid : ℕ) :
    Res X := do
  let s ← idx i.systems tid
  pure (step s x n u)

/-- `getAandB` (OptconDiscreteSystemInterface-impl.h:19-30). -/
def DIface.getAandB (ab : L → X → U → X → ℕ → ℕ → M) (i : DIface S L) (x : X) (u : U) (xNext : X)
    (n subSteps tid : ℕ) : Res M := do
  let l ← idx i.linears tid
  pure (ab l x u xNext n subSteps)

/-- Calls on the discrete-time interface. -/
inductive DOp (S L : Type) where
  | configure (nThreads : ℕ)
  | changeNonlinear (dyn : Option S)
  | changeLinear (lin : Option L)
  | mutateNonlinear (g : S → S)
  | mutateLinear (g : L → L)

/-- Effect of a call; a call that throws leaves the interface as it was. -/
def DIface.apply (i : DIface S L) (op : DOp S L) : DIface S L :=
  let keep : Res (DIface S L) → DIface S L := fun r =>
    match r with
    | .ok j => j
    | _ => i
  match op with
  | .configure n => keep (i.configure n)
  | .changeNonlinear d => keep (i.changeNonlinear d)
  | .changeLinear l => keep (i.changeLinear l)
  | .mutateNonlinear g => i.mutateNonlinear g
  | .mutateLinear g => i.mutateLinear g

end CT.SysIf
