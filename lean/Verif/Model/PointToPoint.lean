import Verif.Model.Res
import Mathlib.Analysis.SpecialFunctions.Pow.Real
import Mathlib.Algebra.Order.Round

/-!
# Point-to-point joint trajectories

Models `ct_rbd/include/ct/rbd/common/SingleDOFTrajectoryGenerator.h` and
`ct_rbd/include/ct/rbd/common/SimpleArmTrajectoryGenerator.h`, over the real numbers (`SCALAR` is
replaced by `ℝ`: no rounding, no NaN).  `x / 0` is 0 over `ℝ` and an infinity or NaN in the code;
the theorems assume positive limits, so that no such division is evaluated.
-/

namespace CT.PtP

/-- `MODE` (SingleDOFTrajectoryGenerator.h:33-37). -/
inductive Mode where
  | accDec
  | accHoldDec
  deriving DecidableEq

/-- The members of a `SingleDOFTrajectoryGenerator` (SingleDOFTrajectoryGenerator.h:142-145). -/
structure Gen where
  mode : Mode
  x0 : ℝ
  x_t0n : ℝ
  x_mid : ℝ
  x_t1 : ℝ
  xT : ℝ
  v_max : ℝ
  a_max : ℝ
  t0 : ℝ
  t0n : ℝ
  t1 : ℝ
  T : ℝ

/-- The default constructor (SingleDOFTrajectoryGenerator.h:40-54). -/
def Gen.new : Gen :=
  { mode := .accDec, x0 := 0, x_t0n := 0, x_mid := 0, x_t1 := 0, xT := 0, v_max := 0, a_max := 0,
    t0 := 0, t0n := 0, t1 := 0, T := 0 }

/-- `setup` up to the computation of the nominal acceleration time
(SingleDOFTrajectoryGenerator.h:76-89). -/
noncomputable def Gen.nominal (g : Gen) (x0 xT abs_v_max abs_a_max : ℝ) : Gen :=
  let v := if xT < x0 then -abs_v_max else abs_v_max
  let a := if xT < x0 then -abs_a_max else abs_a_max
  { g with x0 := x0, xT := xT, v_max := v, a_max := a, t0n := v / a }

/-- The branch of `setup` without a phase of constant velocity
(SingleDOFTrajectoryGenerator.h:97-104).  The members of the other mode keep their values. -/
noncomputable def Gen.planAccDec (g : Gen) : Gen :=
  let delta_x_mid := 0.5 * (g.xT - g.x0)
  let t0 := Real.sqrt (delta_x_mid * 2 / g.a_max)
  { g with mode := .accDec, x_mid := 0.5 * (g.xT + g.x0), t0 := t0, v_max := g.a_max * t0,
           T := 2 * t0 }

/-- The branch of `setup` with a phase of constant velocity
(SingleDOFTrajectoryGenerator.h:108-113). -/
noncomputable def Gen.planAccHoldDec (g : Gen) (delta_x : ℝ) : Gen :=
  let x_t0n := g.x0 + 0.5 * g.a_max * g.t0n * g.t0n
  let x_t1 := g.xT - delta_x
  let t1 := g.t0n + (x_t1 - x_t0n) / g.v_max
  { g with mode := .accHoldDec, x_t0n := x_t0n, x_t1 := x_t1, t1 := t1, T := t1 + g.t0n }

/-- `setup` (SingleDOFTrajectoryGenerator.h:74-117): the generator afterwards and the returned
time horizon. -/
noncomputable def Gen.setup (g : Gen) (x0 xT abs_v_max abs_a_max : ℝ) : Gen × ℝ :=
  let g := g.nominal x0 xT abs_v_max abs_a_max
  let delta_x := 0.5 * g.a_max * g.t0n * g.t0n
  let g := if 2 * |delta_x| ≥ |g.xT - g.x0| then g.planAccDec else g.planAccHoldDec delta_x
  (g, g.T)

/-- `queryPlanAccADec` (SingleDOFTrajectoryGenerator.h:147-170): new position and velocity. -/
noncomputable def Gen.queryPlanAccADec (g : Gen) (time : ℝ) : Res (ℝ × ℝ) :=
  if time ≤ g.t0 then
    .ok (g.x0 + 0.5 * g.a_max * time * time, g.a_max * time)
  else if time > g.t0 ∧ time ≤ 2 * g.t0 then
    .ok (g.x_mid + g.v_max * (time - g.t0) - 0.5 * g.a_max * (time - g.t0) * (time - g.t0),
      g.v_max - g.a_max * (time - g.t0))
  else if time > 2 * g.t0 then
    .ok (g.xT, 0)
  else .exc

/-- `queryPlanAccHDec` (SingleDOFTrajectoryGenerator.h:172-200). -/
noncomputable def Gen.queryPlanAccHDec (g : Gen) (time : ℝ) : Res (ℝ × ℝ) :=
  if time ≤ g.t0n then
    .ok (0.5 * g.a_max * time * time + g.x0, g.a_max * time)
  else if time > g.t0n ∧ time ≤ g.t1 then
    .ok (g.x_t0n + g.v_max * (time - g.t0n), g.v_max)
  else if time > g.t1 ∧ time ≤ g.T then
    .ok (g.x_t1 + g.v_max * (time - g.t1) - 0.5 * g.a_max * ((time - g.t1) * (time - g.t1)),
      g.v_max - (time - g.t1) * g.a_max)
  else if time > g.T then
    .ok (g.xT, 0)
  else .exc

/-- `queryTrajectory` (SingleDOFTrajectoryGenerator.h:126-137). -/
noncomputable def Gen.queryTrajectory (g : Gen) (time : ℝ) : Res (ℝ × ℝ) :=
  if time < 0 then .exc
  else match g.mode with
    | .accDec => g.queryPlanAccADec time
    | .accHoldDec => g.queryPlanAccHDec time

/-! ### The arm -/

/-- One sample of the arm trajectory: the time stamp, the joint positions (first `NJOINTS` entries
of the state) and the joint velocities (last `NJOINTS` entries). -/
structure Sample (n : ℕ) where
  time : ℝ
  pos : Fin n → ℝ
  vel : Fin n → ℝ

/-- The loop over the joints at one time stamp (SimpleArmTrajectoryGenerator.h:80-85): throws if
one query throws. -/
noncomputable def sampleAt {n : ℕ} (gens : Fin n → Gen) (time : ℝ) : Res (Sample n) :=
  match (List.finRange n).mapM (fun i => (gens i).queryTrajectory time) with
  | .ok l => .ok ⟨time, fun i => ((l[i.1]?).map (·.1)).getD 0, fun i => ((l[i.1]?).map (·.2)).getD 0⟩
  | .exc => .exc
  | .ub => .ub

/-- `generateTrajectory` (SimpleArmTrajectoryGenerator.h:45-92) on an arm with `n + 1` joints (with
none, `*std::max_element` of an empty range is dereferenced: undefined behaviour, `n = 0` is not
modelled).  The verbose output is not modelled.  `round` is the C function, halves away from zero:
for the horizons that occur, which are not negative, `⌊x + 1/2⌋` (Mathlib's `round`).  `size_t` is
unbounded here, and the conversion of a negative value (negative sampling time) is replaced by
`Int.toNat`; the theorems assume a positive sampling time.  The generators are members: their
earlier contents `gens` are overwritten by `setup`. -/
noncomputable def generateTrajectory {n : ℕ} (gens : Fin (n + 1) → Gen)
    (vmax amax start stop : Fin (n + 1) → ℝ) (sampling_time : ℝ) : Res (List (Sample (n + 1))) :=
  let planned := fun i => (gens i).setup (start i) (stop i) (vmax i) (amax i)
  let time_horizon := Finset.univ.sup' Finset.univ_nonempty fun i => (planned i).2
  let num_traj_points := (round (time_horizon / sampling_time)).toNat + 1
  (List.range num_traj_points).mapM fun (k : ℕ) =>
    sampleAt (fun i => (planned i).1) (k * sampling_time)

end CT.PtP
