import Verif.Model.Res
import Mathlib.Algebra.Field.Defs
import Mathlib.Data.Nat.Cast.Defs

/-!
# Discretised continuous-time systems

Models `ct_core/include/ct/core/systems/discrete_time/SystemDiscretizer-impl.h` as a state machine.
The integrators themselves (`Model/Integration.lean`, `Model/Symplectic.lean`) are a parameter.
-/

namespace CT.Discretizer

variable {K S X U : Type}

/-- `IntegrationType`: one of the non-symplectic types (numbered), or one of the two symplectic
types. -/
inductive IntType where
  | plain (k : ℕ)
  | eulerSym
  | rkSym
  deriving DecidableEq

/-- The test in `propagateControlledDynamics` (141) and `initialize` (101). -/
def IntType.isSym : IntType → Bool
  | .plain _ => false
  | _ => true

/-- What the integrators do: `run ty s x u t N dt` are the final state and the states seen by the
sub-step recorder when system `s` under the constant control `u` is integrated for `N` steps of
length `dt` from time `t` with type `ty`; `isSym` is `System::isSymplectic`. -/
structure Env (K S X U : Type) where
  isSym : S → Bool
  run : IntType → S → X → U → K → ℕ → K → X × List X

/-- Members of `SystemDiscretizer`. `integ` is the pair (type, system) the shared integrator was
built with, `symInteg` the system the symplectic integrators were built with; `sub` the content of the
sub-step recorder. -/
structure Disc (K S X : Type) where
  dt : K
  kSim : ℕ
  dtSim : K
  type : IntType
  sys : Option S
  integ : Option (IntType × S)
  symInteg : Option S
  sub : List X

variable [Field K]

/-- `initialize` (94-107) and `initializeSymplecticIntegrator` (153-175): the plain integrator is only
rebuilt for a plain type, the symplectic ones only for a symplectic system. -/
def initIntegrators (e : Env K S X U) (d : Disc K S X) (s : S) : Disc K S X :=
  { d with
    integ := (if d.type.isSym then d.integ else some (d.type, s))
    symInteg := (if e.isSym s then some s else d.symInteg)
    sub := [] }

/-- `changeContinuousTimeSystem` (110-117); the clone of a system behaves like the system. -/
def changeSystem (e : Env K S X U) (d : Disc K S X) (s : S) : Disc K S X :=
  initIntegrators e { d with sys := some s } s

/-- Constructor with a system (36-50). -/
def construct (e : Env K S X U) (s : S) (dt : K) (ty : IntType) (k : ℕ) : Disc K S X :=
  changeSystem e ⟨dt, k, dt / k, ty, none, none, none, []⟩ s

/-- `setIntegrationType` (81-85). -/
def setType (d : Disc K S X) (ty : IntType) : Disc K S X := { d with type := ty }

/-- `setParameters` (87-92). -/
def setParameters (d : Disc K S X) (dt : K) (k : ℕ) : Disc K S X :=
  { d with dt := dt, kSim := k, dtSim := dt / k }

/-- `propagateControlledDynamics` (120-150) with `integrateSymplectic` (178-200). The Runge-Kutta
symplectic integrator is built without the recorder (170-173). Shared pointers to integrators that
were never built are null: undefined. -/
def propagate (e : Env K S X U) (d : Disc K S X) (x : X) (n : ℕ) (u : U) : Res (X × Disc K S X) :=
  match d.sys with
  | none => .ub
  | some s =>
    if d.type.isSym then
      if !e.isSym s then .exc
      else match d.symInteg with
        | none => .ub
        | some s' =>
            let r := e.run d.type s' x u (n * d.dt) d.kSim d.dtSim
            .ok (r.1, { d with sub := (if d.type = .eulerSym then r.2 else []) })
    else match d.integ with
      | none => .ub
      | some (ty, s') =>
          let r := e.run ty s' x u (n * d.dt) d.kSim d.dtSim
          .ok (r.1, { d with sub := r.2 })

/-- Copy constructor, used by `clone` (57-69): the member `cont_time_system_` of the object under
construction, still null, is dereferenced instead of the one of the argument. -/
def copy (e : Env K S X U) (d : Disc K S X) : Res (Disc K S X) :=
  let fresh : Disc K S X := ⟨d.dt, d.kSim, d.dtSim, d.type, none, none, none, []⟩
  match fresh.sys with
  | none => .ub
  | some s => .ok (changeSystem e fresh s)

/-- Calls on a discretiser. -/
inductive Op (K S X U : Type) where
  | setType (ty : IntType)
  | setParameters (dt : K) (k : ℕ)
  | changeSystem (s : S)
  | propagate (x : X) (n : ℕ) (u : U)

/-- Effect of a call on the members (results of propagations are looked at separately). -/
def apply (e : Env K S X U) (d : Disc K S X) : Op K S X U → Disc K S X
  | .setType ty => setType d ty
  | .setParameters dt k => setParameters d dt k
  | .changeSystem s => changeSystem e d s
  | .propagate x n u => match propagate e d x n u with
    | .ok (_, d') => d'
    | _ => { d with sub := [] }

end CT.Discretizer
