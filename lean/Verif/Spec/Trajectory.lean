import Mathlib.Algebra.Order.Field.Basic
import Mathlib.Algebra.Module.Defs
import Verif.Model.Interpolation

/-!
# What it means to look up and evaluate sampled data

Independent of the search algorithm and of the interpolation code; only the enumeration
`IType` of interpolation types and the names of the calls (`Op`) are shared with the model.
-/

namespace CT.Interp

/-- Specification: `k` is the position of the latest stamp that is not after `q`; if all stamps
are after `q`, it is the first position. -/
def IsActiveIndex {T : Type _} [LinearOrder T] (ts : List T) (q : T) (k : Nat) : Prop :=
  (∃ h : k < ts.length, ts[k] ≤ q ∧ ∀ j, (hj : j < ts.length) → k < j → q < ts[j]) ∨
  (k = 0 ∧ 0 < ts.length ∧ ∀ j, (hj : j < ts.length) → q < ts[j])


variable {K : Type _} [Field K] [LinearOrder K]
variable {D : Type _} [AddCommGroup D] [Module K D]

/-- Specification of the value of sampled data `(ts, ds)` at time `q`: the first sample before
the first stamp, the last sample from the last stamp on, and in between the sample at the left
end of the enclosing interval (zero-order hold) or the point on the chord (linear). -/
def IsValueAt (ty : IType) (ts : List K) (ds : List D) (q : K) (v : D) : Prop :=
  ∃ (hl : ts.length = ds.length) (hn : 0 < ts.length),
    (q < ts[0] ∧ v = ds[0]) ∨
    (ts[ts.length - 1] ≤ q ∧ v = ds[ds.length - 1]) ∨
    (∃ i, ∃ hi : i + 1 < ts.length, ts[i] ≤ q ∧ q < ts[i + 1] ∧
      (ty = .ZOH → v = ds[i]) ∧
      (ty = .LIN → v = ds[i] + ((q - ts[i]) / (ts[i + 1] - ts[i])) • (ds[i + 1] - ds[i])))

/-- Calls that modify the trajectory contents pairwise (everything except overwriting only the
stamps or only the samples). -/
def Op.paired : Op K D → Prop
  | .setTime _ => False
  | .setData _ => False
  | .swapData ts ds => ts.length = ds.length
  | .assign ts ds _ => ts.length = ds.length
  | _ => True

/-- Effect of a call on a trajectory seen as a sequence of (stamp, sample) pairs. -/
def specStep (l : List (K × D)) : Op K D → List (K × D)
  | .eval _ => l
  | .getIndex _ => l
  | .pushBack d t true => l ++ [(t, d)]
  | .pushBack d t false =>
      match l.getLast? with
      | some p => l ++ [(p.1 + t, d)]
      | none => l
  | .popBack => l.dropLast
  | .eraseFront n dt => (l.drop n).map (fun p => (p.1 - dt, p.2))
  | .clear => []
  | .swapData ts ds => ts.zip ds
  | .assign ts ds _ => ts.zip ds
  | .shiftTime dt => l.map (fun p => (p.1 - dt, p.2))
  | .setTime _ => l
  | .setData _ => l
  | .setType _ => l

end CT.Interp
