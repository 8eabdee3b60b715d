import Mathlib.Data.List.Basic

/-!
# The summary of the iterations of a nonlinear optimal control solver

Models `printSummary`, `reset` and `getSummary` of `NLOCBackendBase`
(ct_optcon/include/ct/optcon/nloc/NLOCBackendBase-impl.hpp) and the record `SummaryAllIterations`
(ct_optcon/include/ct/optcon/nloc/NLOCResults.hpp).

Simplified: what an iteration computes (norms, costs, step size, eigenvalue) is an input of the model; the arithmetic of the scalars is
left open; the iteration counter does not overflow. Not modelled: the printing and the export to Matlab.
-/

namespace CT.NlocSummary

variable {S : Type}

/-- The settings used by `printSummary` (NLOCBackendBase-impl.hpp:859-863): weights of defects and constraints in the merit, whether the smallest
eigenvalue is recorded, whether the solver is the Riccati solver. -/
structure Settings (S : Type) where
  rho : S
  rhoConstraints : S
  recordEig : Bool
  riccati : Bool

/-- What `printSummary` finds after an iteration (NLOCBackendBase-impl.hpp:852-866): norms of the defects, the two constraint errors, norms of the
updates, costs, step size, smallest eigenvalue seen by the Riccati solver. -/
structure Meas (S : Type) where
  defect1 : S
  defect2 : S
  box : S
  gen : S
  lx : S
  lu : S
  intermediate : S
  final : S
  alpha : S
  eig : S

/-- `SummaryAllIterations` (NLOCResults.hpp:20-43). -/
structure Summary (S : Type) where
  iterations : List ℕ
  defect_l1_norms : List S
  defect_l2_norms : List S
  e_box_norms : List S
  e_gen_norms : List S
  lx_norms : List S
  lu_norms : List S
  intermediateCosts : List S
  finalCosts : List S
  totalCosts : List S
  merits : List S
  stepSizes : List S
  smallestEigenvalues : List S

/-- The members concerned (NLOCBackendBase.hpp:555, 620, and the settings). -/
structure Backend (S : Type) where
  settings : Settings S
  iteration : ℕ
  summary : Summary S

/-- A new solver (NLOCBackendBase-impl.hpp:36): no iterations, an empty summary. -/
def create (s : Settings S) : Backend S :=
  ⟨s, 0, ⟨[], [], [], [], [], [], [], [], [], [], [], [], []⟩⟩

/-- `printSummary` (NLOCBackendBase-impl.hpp:850-881). -/
def printSummary [Add S] [Mul S] [Zero S] (b : Backend S) (m : Meas S) : Backend S :=
  let totalCost := m.intermediate + m.final
  let totalMerit := m.intermediate + m.final + b.settings.rho * m.defect1 + b.settings.rhoConstraints * (m.box + m.gen)
  let smallestEigenvalue := if b.settings.recordEig && b.settings.riccati then m.eig else 0
  let s := b.summary
  { b with
    summary :=
      { iterations := s.iterations ++ [b.iteration]
        defect_l1_norms := s.defect_l1_norms ++ [m.defect1]
        defect_l2_norms := s.defect_l2_norms ++ [m.defect2]
        e_box_norms := s.e_box_norms ++ [m.box]
        e_gen_norms := s.e_gen_norms ++ [m.gen]
        lx_norms := s.lx_norms ++ [m.lx]
        lu_norms := s.lu_norms ++ [m.lu]
        intermediateCosts := s.intermediateCosts ++ [m.intermediate]
        finalCosts := s.finalCosts ++ [m.final]
        totalCosts := s.totalCosts ++ [totalCost]
        merits := s.merits ++ [totalMerit]
        stepSizes := s.stepSizes ++ [m.alpha]
        smallestEigenvalues := s.smallestEigenvalues ++ [smallestEigenvalue] } }

/-- `reset` (NLOCBackendBase-impl.hpp:1365-1376), as far as it concerns these members. -/
def reset (b : Backend S) : Backend S := { b with iteration := 0 }

/-- What happens to a solver. -/
inductive Event (S : Type) where
  /-- An iteration is completed: `finishIteration` or `finishMPCIteration` (SingleShooting-impl.hpp:124-130, MultipleShooting-impl.hpp:150-156,
  275-281). -/
  | finish (m : Meas S)
  /-- An iteration ends with an exception before its summary (e.g. SingleShooting-impl.hpp:63-66). -/
  | fail
  /-- `setInitialGuess` is called; `ok` says whether the guess is long enough (NLOCBackendBase-impl.hpp:126-135, 181). -/
  | guess (ok : Bool)
  /-- `changeInitialState` is called (NLOCBackendBase-impl.hpp:238-246). -/
  | initialState
  /-- `configure` is called with settings it accepts (NLOCBackendBase-impl.hpp:428-430). -/
  | configure (s : Settings S)

def step [Add S] [Mul S] [Zero S] (b : Backend S) : Event S → Backend S
  | .finish m => let c := printSummary b m; { c with iteration := c.iteration + 1 }
  | .fail => b
  | .guess ok => if ok then reset b else b
  | .initialState => reset b
  | .configure s => reset { b with settings := s }

/-- The life of a solver. -/
def run [Add S] [Mul S] [Zero S] (b : Backend S) (es : List (Event S)) : Backend S := es.foldl step b

end CT.NlocSummary
