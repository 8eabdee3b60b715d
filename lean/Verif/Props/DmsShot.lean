import Verif.Model.DmsShot

/-! # C53: cached shots -/

namespace CT.Shot

open Matrix
open CT.Sens (Kind)

variable {K : Type} [Field K] {ι κ : Type} [Fintype ι] [DecidableEq ι] [Fintype κ] [DecidableEq κ] {Q X : Type}

/-! ### Specification -/

/-- What a user does with one shot. -/
inductive Op (X : Type) where
  | extract (x : X) (isNew : Bool)
  | query (k : Query)
  | write (x : X)
  | resetCount

/-- One step of use. -/
def Op.run (S : Sys ι κ K (Option Q)) (V : View ι K Q X) (p : Prob ι κ K Q X) : Op X → Res (Prob ι κ K Q X)
  | .extract x b => .ok (p.extract V x b)
  | .query k => p.query S V k
  | .write x => .ok (p.write x)
  | .resetCount => .ok p.resetCount

/-- All steps. -/
def run (S : Sys ι κ K (Option Q)) (V : View ι K Q X) : Prob ι κ K Q X → List (Op X) → Res (Prob ι κ K Q X)
  | p, [] => .ok p
  | p, op :: ops => do
    let p' ← op.run S V p
    run S V p' ops

/-- A problem just constructed. -/
def Prob.new (x : X) : Prob ι κ K Q X := ⟨x, 0, none, Box.new⟩

/-- The value a query of kind `k` is made for: sub-step trajectory, cost, sensitivities, cost gradients. -/
inductive Obs (ι κ K : Type) where
  | shot (sub : List ((ι → K) × K))
  | cost (v : K)
  | sens (v : Option (Matrix ι ι K × Matrix ι κ K × Option (Matrix ι κ K)))
  | costSens (v : (ι → K) × (κ → K) × (κ → K))

/-- The result read after a query. -/
def Prob.obs (p : Prob ι κ K Q X) : Query → Obs ι κ K
  | .shot => .shot p.box.sub
  | .cost => .cost p.box.cost
  | .sens => .sens p.box.sens
  | .costSens => .costSens p.box.costSens

/-- Make the query and read its result. -/
def Prob.ask (S : Sys ι κ K (Option Q)) (V : View ι K Q X) (p : Prob ι κ K Q X) (k : Query) : Res (Obs ι κ K) := do
  let p' ← p.query S V k
  pure (p'.obs k)

/-- What a fresh problem returns whose only update is to the variables `x`. -/
def fresh (S : Sys ι κ K (Option Q)) (V : View ι K Q X) (x : X) (k : Query) : Res (Obs ι κ K) :=
  ((Prob.new x).extract V x true).ask S V k

/-- The last update. -/
def lastUpdate : Option X → List (Op X) → Option X
  | o, [] => o
  | _, .extract x true :: ops => lastUpdate (some x) ops
  | o, _ :: ops => lastUpdate o ops

/-! ### Canonical results -/

/-- Linearisation along the points. -/
def linA (S : Sys ι κ K (Option Q)) (pts : List (Pt ι κ K)) := pts.map fun p => S.dA p.x p.u p.t
/-- See `linA`. -/
def linB (S : Sys ι κ K (Option Q)) (pts : List (Pt ι κ K)) := pts.map fun p => S.dB p.x p.u p.t

/-- Results of the sensitivity integration over empty arrays. -/
structure SensRes (ι κ K : Type) where
  X : Matrix ι ι K
  U : Matrix ι κ K
  F : Option (Matrix ι κ K)
  xs : List (Matrix ι ι K)
  us : List (Matrix ι κ K)
  fs : List (Matrix ι κ K)

/-- Third part. -/
def canonNext (S : Sys ι κ K (Option Q)) (pts : List (Pt ι κ K)) (X : Matrix ι ι K) (U : Matrix ι κ K)
    (xs : List (Matrix ι ι K)) (us : List (Matrix ι κ K)) : Res (SensRes ι κ K) :=
  if S.linear then do
    let (F, (_, fs)) ← sensU S (linA S pts) (linB S pts) pts S.df []
    pure ⟨X, U, some F, xs, us, fs⟩
  else pure ⟨X, U, none, xs, us, []⟩

/-- Sensitivities along the points. -/
def canonSens (S : Sys ι κ K (Option Q)) (pts : List (Pt ι κ K)) : Res (SensRes ι κ K) := do
  let (X, (_, xs)) ← sensX S (linA S pts) []
  let (U, (_, us)) ← sensU S (linA S pts) (linB S pts) pts S.d0 []
  canonNext S pts X U xs us

/-- Cost gradients along the points. -/
def canonCost (S : Sys ι κ K (Option Q)) (pts : List (Pt ι κ K)) (r : SensRes ι κ K) : Res ((ι → K) × (κ → K) × (κ → K)) := do
  let (X, _) ← loop S.kind (costXdot S pts r.xs) S.dt S.nSteps 0 0 S.tStart
  let (U, _) ← loop S.kind (costUdot S pts r.us S.d0) S.dt S.nSteps 0 0 S.tStart
  if S.linear then do
    let (F, _) ← loop S.kind (costUdot S pts r.fs S.df) S.dt S.nSteps 0 0 S.tStart
    pure (X, U, F)
  else pure (X, U, 0)

/-- Everything stored in a shot that carries the current counter `c` is what an integration from `x` with the control
`q` gives. -/
structure Inv (S : Sys ι κ K (Option Q)) (c : ℕ) (x : ι → K) (q : Option Q) (b : Box ι κ K) : Prop where
  le1 : b.nInt ≤ c
  le2 : b.nCost ≤ c
  le3 : b.nSens ≤ c
  le4 : b.nCostSens ≤ c
  none3 : S.linear = false → b.costSens.2.2 = 0
  stale1 : b.nInt ≠ c → b.nCost ≠ c ∧ b.nSens ≠ c
  stale2 : b.nSens ≠ c → b.nCostSens ≠ c
  int : b.nInt = c → integrate S q x = .ok (b.sub, b.pts)
  cost : b.nCost = c → costOf S b.pts = .ok b.cost
  nosens : b.nSens ≠ c → b.As = [] ∧ b.Bs = [] ∧ b.dX0s = [] ∧ b.dU0s = [] ∧ b.dUfs = []
  sens : b.nSens = c → ∃ r, canonSens S b.pts = .ok r ∧ b.sens = some (r.X, r.U, r.F) ∧
    b.As = linA S b.pts ∧ b.Bs = linB S b.pts ∧ b.dX0s = r.xs ∧ b.dU0s = r.us ∧ b.dUfs = r.fs
  costSens : b.nCostSens = c → ∃ r, canonSens S b.pts = .ok r ∧ canonCost S b.pts r = .ok b.costSens

/-- Result of a query in terms of the canonical results. -/
def canon (S : Sys ι κ K (Option Q)) (V : View ι K Q X) (x : X) (k : Query) : Res (Obs ι κ K) := do
  let (sub, pts) ← integrate S (some (V.nodes x)) (V.state x)
  match k with
  | .shot => pure (.shot sub)
  | .cost => do
    let v ← costOf S pts
    pure (.cost v)
  | .sens => do
    let r ← canonSens S pts
    pure (.sens (some (r.X, r.U, r.F)))
  | .costSens => do
    let r ← canonSens S pts
    let v ← canonCost S pts r
    pure (.costSens v)

theorem inv_reset (S : Sys ι κ K (Option Q)) (c : ℕ) (x : ι → K) (q : Option Q) (b : Box ι κ K)
    (h1 : b.nInt ≤ c) (h2 : b.nCost ≤ c) (h3 : b.nSens ≤ c)
    (h4 : b.nCostSens ≤ c) (h5 : S.linear = false → b.costSens.2.2 = 0) : Inv S (c + 1) x q b.reset := by
  refine ⟨by simp only [Box.reset]; omega, by simp only [Box.reset]; omega, by simp only [Box.reset]; omega,
    by simp only [Box.reset]; omega, h5, fun _ => ⟨?_, ?_⟩, fun _ => ?_, fun h => ?_, fun h => ?_, fun _ => ⟨rfl, rfl, rfl, rfl, rfl⟩,
    fun h => ?_, fun h => ?_⟩ <;> simp only [Box.reset] at * <;> omega

section Unify
variable {S : Sys ι κ K (Option Q)} {c : ℕ} {x : ι → K} {q : Option Q} {b : Box ι κ K}

/-- `integrateShot`, whether or not the cache is valid. -/
theorem shot_eq (hint : b.nInt = c → integrate S q x = .ok (b.sub, b.pts)) (hAB : b.nInt ≠ c → b.As = [] ∧ b.Bs = []) :
    b.integrateShot S c x q = (do
      let r ← integrate S q x
      pure { b with nInt := c, sub := r.1, pts := r.2 }) := by
  unfold Box.integrateShot
  by_cases h : b.nInt = c
  · rw [if_neg (by simp [h]), hint h]
    subst h
    rfl
  · rw [if_pos (fun e => h e.symm)]
    obtain ⟨h1, h2⟩ := hAB h
    obtain ⟨pts, As, Bs, dX0s, dU0s, dUfs, nInt, nCost, nSens, nCostSens, sub, cost, sens, costSens⟩ := b
    simp only at h1 h2
    subst h1 h2
    rfl

theorem cost_eq (h : Inv S c x q b) :
    b.integrateCost S c x q = (do
      let r ← integrate S q x
      let v ← costOf S r.2
      pure { b with nCost := c, nInt := c, sub := r.1, pts := r.2, cost := v }) := by
  unfold Box.integrateCost
  by_cases hc : b.nCost = c
  · have hi : b.nInt = c := by by_contra hn; exact (h.stale1 hn).1 hc
    rw [if_neg (by simp [hc]), h.int hi, Res.ok_bind, h.cost hc, Res.ok_bind]
    subst hc
    obtain ⟨pts, As, Bs, dX0s, dU0s, dUfs, nInt, nCost, nSens, nCostSens, sub, cost, sens, costSens⟩ := b
    simp only at hi
    subst hi
    rfl
  · rw [if_pos (fun e => hc e.symm), shot_eq (b := { b with nCost := c }) h.int
      (fun hn => ⟨(h.nosens (h.stale1 hn).2).1, (h.nosens (h.stale1 hn).2).2.1⟩)]
    cases integrate S q x with
    | ok r => rfl
    | exc => rfl
    | ub => rfl

/-- Second half of `integrateSensitivities` on a box with cleared arrays. -/
theorem sensTail_eq (b : Box ι κ K) (h : b.As = [] ∧ b.Bs = [] ∧ b.dX0s = [] ∧ b.dU0s = [] ∧ b.dUfs = []) :
    (do
      let (X, (_, xs)) ← sensX S (b.linearize S).As (b.linearize S).dX0s
      let (U, (_, us)) ← sensU S (b.linearize S).As (b.linearize S).Bs (b.linearize S).pts S.d0 (b.linearize S).dU0s
      { (b.linearize S) with dX0s := xs, dU0s := us }.sensNext S X U)
    = (do
      let r ← canonSens S b.pts
      pure { b with As := linA S b.pts, Bs := linB S b.pts, sens := some (r.X, r.U, r.F), dX0s := r.xs, dU0s := r.us,
                    dUfs := r.fs }) := by
  obtain ⟨pts, As, Bs, dX0s, dU0s, dUfs, nInt, nCost, nSens, nCostSens, sub, cost, sens, costSens⟩ := b
  simp only at h
  obtain ⟨rfl, rfl, rfl, rfl, rfl⟩ := h
  simp only [Box.linearize, List.nil_append, canonSens]
  change (sensX S (linA S pts) [] >>= _) = (sensX S (linA S pts) [] >>= _) >>= _
  cases sensX S (linA S pts) [] with
  | exc => rfl
  | ub => rfl
  | ok rx =>
    obtain ⟨Xm, n1, xs⟩ := rx
    simp only [Res.ok_bind]
    change (sensU S (linA S pts) (linB S pts) pts S.d0 [] >>= _) = (sensU S (linA S pts) (linB S pts) pts S.d0 [] >>= _) >>= _
    cases sensU S (linA S pts) (linB S pts) pts S.d0 [] with
    | exc => rfl
    | ub => rfl
    | ok ru =>
      obtain ⟨Um, n2, us⟩ := ru
      simp only [Res.ok_bind, Box.sensNext, canonNext]
      cases hl : S.linear with
      | false => rfl
      | true =>
        simp only [if_true]
        change (sensU S (linA S pts) (linB S pts) pts S.df [] >>= _) = (sensU S (linA S pts) (linB S pts) pts S.df [] >>= _) >>= _
        cases sensU S (linA S pts) (linB S pts) pts S.df [] with
        | exc => rfl
        | ub => rfl
        | ok rf => rfl

theorem sens_eq (h : Inv S c x q b) (n4 : ℕ) :
    { b with nCostSens := n4 }.integrateSensitivities S c x q = (do
      let r ← integrate S q x
      let v ← canonSens S r.2
      pure { b with nCostSens := n4, nSens := c, nInt := c, sub := r.1, pts := r.2, As := linA S r.2, Bs := linB S r.2,
                    sens := some (v.X, v.U, v.F), dX0s := v.xs, dU0s := v.us, dUfs := v.fs }) := by
  unfold Box.integrateSensitivities
  by_cases hc : b.nSens = c
  · have hi : b.nInt = c := by by_contra hn; exact (h.stale1 hn).2 hc
    obtain ⟨r, r1, r2, r3, r4, r5, r6, r7⟩ := h.sens hc
    rw [if_neg (by simp [hc]), h.int hi, Res.ok_bind, r1, Res.ok_bind]
    obtain ⟨pts, As, Bs, dX0s, dU0s, dUfs, nInt, nCost, nSens, nCostSens, sub, cost, sens, costSens⟩ := b
    simp only at hi hc r2 r3 r4 r5 r6 r7
    subst hi r2 r3 r4 r5 r6 r7 hc
    rfl
  · have hno := h.nosens hc
    rw [if_pos (fun e => hc e.symm), shot_eq (b := { b with nCostSens := n4, nSens := c }) h.int
      (fun hn => ⟨hno.1, hno.2.1⟩)]
    cases integrate S q x with
    | exc => rfl
    | ub => rfl
    | ok r =>
      have := sensTail_eq (S := S) { b with nCostSens := n4, nSens := c, nInt := c, sub := r.1, pts := r.2 } hno
      exact this

theorem costSens_eq (h : Inv S c x q b) :
    b.integrateCostSensitivities S c x q = (do
      let r ← integrate S q x
      let v ← canonSens S r.2
      let w ← canonCost S r.2 v
      pure { b with nCostSens := c, nSens := c, nInt := c, sub := r.1, pts := r.2, As := linA S r.2, Bs := linB S r.2,
                    sens := some (v.X, v.U, v.F), dX0s := v.xs, dU0s := v.us, dUfs := v.fs, costSens := w }) := by
  unfold Box.integrateCostSensitivities
  by_cases hc : b.nCostSens = c
  · have hs : b.nSens = c := by by_contra hn; exact h.stale2 hn hc
    have hi : b.nInt = c := by by_contra hn; exact (h.stale1 hn).2 hs
    obtain ⟨r, r1, r2, r3, r4, r5, r6, r7⟩ := h.sens hs
    obtain ⟨r', s1, s2⟩ := h.costSens hc
    rw [r1] at s1
    cases s1
    rw [if_neg (by simp [hc]), h.int hi, Res.ok_bind, r1, Res.ok_bind, s2, Res.ok_bind]
    obtain ⟨pts, As, Bs, dX0s, dU0s, dUfs, nInt, nCost, nSens, nCostSens, sub, cost, sens, costSens⟩ := b
    simp only at hi hc hs r2 r3 r4 r5 r6 r7
    subst hi r2 r3 r4 r5 r6 r7 hc hs
    rfl
  · rw [if_pos (fun e => hc e.symm), sens_eq h c]
    cases integrate S q x with
    | exc => rfl
    | ub => rfl
    | ok r =>
      simp only [Res.ok_bind]
      cases canonSens S r.2 with
      | exc => rfl
      | ub => rfl
      | ok v =>
        simp only [Res.ok_bind, Res.pure_eq, canonCost]
        cases loop S.kind (costXdot S r.2 v.xs) S.dt S.nSteps 0 0 S.tStart with
        | exc => rfl
        | ub => rfl
        | ok rx =>
          simp only [Res.ok_bind]
          cases loop S.kind (costUdot S r.2 v.us S.d0) S.dt S.nSteps 0 0 S.tStart with
          | exc => rfl
          | ub => rfl
          | ok ru =>
            simp only [Res.ok_bind, Box.costNext]
            cases hl : S.linear with
            | false => simp [h.none3 hl]
            | true =>
              simp only [if_true]
              cases loop S.kind (costUdot S r.2 v.fs S.df) S.dt S.nSteps 0 0 S.tStart with
              | exc => rfl
              | ub => rfl
              | ok rf => rfl

end Unify

/-- The problem after an update to `x` and any queries. -/
structure PInv (S : Sys ι κ K (Option Q)) (V : View ι K Q X) (x : X) (p : Prob ι κ K Q X) : Prop where
  hx : p.x = x
  hq : p.spline = some (V.nodes x)
  box : Inv S p.count (V.state x) (some (V.nodes x)) p.box

/-- Facts that hold from construction on, needed for the next update. -/
structure Base (S : Sys ι κ K (Option Q)) (p : Prob ι κ K Q X) : Prop where
  le1 : p.box.nInt ≤ p.count
  le2 : p.box.nCost ≤ p.count
  le3 : p.box.nSens ≤ p.count
  le4 : p.box.nCostSens ≤ p.count
  none3 : S.linear = false → p.box.costSens.2.2 = 0

theorem PInv.base {S : Sys ι κ K (Option Q)} {V : View ι K Q X} {x : X} {p : Prob ι κ K Q X} (h : PInv S V x p) : Base S p :=
  ⟨h.box.le1, h.box.le2, h.box.le3, h.box.le4, h.box.none3⟩

theorem extract_inv (S : Sys ι κ K (Option Q)) (V : View ι K Q X) (x : X) (p : Prob ι κ K Q X) (h : Base S p) :
    PInv S V x (p.extract V x true) :=
  ⟨rfl, rfl, inv_reset S p.count _ _ p.box h.le1 h.le2 h.le3 h.le4 h.none3⟩

theorem canonCost_linear {S : Sys ι κ K (Option Q)} {pts : List (Pt ι κ K)} {r : SensRes ι κ K}
    {v : (ι → K) × (κ → K) × (κ → K)} (h : canonCost S pts r = .ok v) (hl : S.linear = false) : v.2.2 = 0 := by
  unfold canonCost at h
  obtain ⟨a, -, h⟩ := Res.bind_eq_ok.1 h
  obtain ⟨b, -, h⟩ := Res.bind_eq_ok.1 h
  simp only [hl, Bool.false_eq_true, if_false, Res.pure_eq, Res.ok.injEq] at h
  rw [← h]

theorem Inv.pts_of_cost {S : Sys ι κ K (Option Q)} {c : ℕ} {x : ι → K} {q : Option Q} {b : Box ι κ K} (h : Inv S c x q b)
    {r : List ((ι → K) × K) × List (Pt ι κ K)} (hI : integrate S q x = .ok r) (hc : b.nCost = c) : r.2 = b.pts := by
  have hi : b.nInt = c := by by_contra hn; exact (h.stale1 hn).1 hc
  have := h.int hi
  rw [hI] at this
  cases this
  rfl

theorem Inv.pts_of_sens {S : Sys ι κ K (Option Q)} {c : ℕ} {x : ι → K} {q : Option Q} {b : Box ι κ K} (h : Inv S c x q b)
    {r : List ((ι → K) × K) × List (Pt ι κ K)} (hI : integrate S q x = .ok r) (hc : b.nSens = c) : r.2 = b.pts := by
  have hi : b.nInt = c := by by_contra hn; exact (h.stale1 hn).2 hc
  have := h.int hi
  rw [hI] at this
  cases this
  rfl

theorem query_spec {S : Sys ι κ K (Option Q)} {V : View ι K Q X} {x : X} {p : Prob ι κ K Q X} (h : PInv S V x p) (k : Query) :
    p.ask S V k = canon S V x k ∧ ∀ p', p.query S V k = .ok p' → PInv S V x p' := by
  obtain ⟨hx, hq, hb⟩ := h
  subst hx
  unfold Prob.ask Prob.query canon
  rw [hq]
  cases k with
  | shot =>
    simp only
    rw [shot_eq hb.int (fun hn => ⟨(hb.nosens (hb.stale1 hn).2).1, (hb.nosens (hb.stale1 hn).2).2.1⟩)]
    cases hI : integrate S (some (V.nodes p.x)) (V.state p.x) with
    | exc => exact ⟨rfl, fun _ h => by cases h⟩
    | ub => exact ⟨rfl, fun _ h => by cases h⟩
    | ok r =>
      refine ⟨rfl, fun p' hp => ?_⟩
      simp only [Res.ok_bind, Res.pure_eq, Res.ok.injEq] at hp
      subst hp
      refine ⟨rfl, rfl, ⟨le_refl _, hb.le2, hb.le3, hb.le4, hb.none3, fun hn => absurd rfl hn, hb.stale2, fun _ => hI,
        fun hc => ?_, hb.nosens, fun hc => ?_, fun hc => ?_⟩⟩
      · simp only
        rw [hb.pts_of_cost hI hc]
        exact hb.cost hc
      · simp only
        rw [hb.pts_of_sens hI hc]
        exact hb.sens hc
      · have hs : p.box.nSens = p.count := by by_contra hn; exact hb.stale2 hn hc
        simp only
        rw [hb.pts_of_sens hI hs]
        exact hb.costSens hc
  | cost =>
    simp only
    rw [cost_eq hb]
    cases hI : integrate S (some (V.nodes p.x)) (V.state p.x) with
    | exc => exact ⟨rfl, fun _ h => by cases h⟩
    | ub => exact ⟨rfl, fun _ h => by cases h⟩
    | ok r =>
      simp only [Res.ok_bind]
      cases hC : costOf S r.2 with
      | exc => exact ⟨rfl, fun _ h => by cases h⟩
      | ub => exact ⟨rfl, fun _ h => by cases h⟩
      | ok v =>
        refine ⟨rfl, fun p' hp => ?_⟩
        simp only [Res.ok_bind, Res.pure_eq, Res.ok.injEq] at hp
        subst hp
        refine ⟨rfl, rfl, ⟨le_refl _, le_refl _, hb.le3, hb.le4, hb.none3, fun hn => absurd rfl hn, hb.stale2, fun _ => hI,
          fun _ => hC, hb.nosens, fun hc => ?_, fun hc => ?_⟩⟩
        · simp only
          rw [hb.pts_of_sens hI hc]
          exact hb.sens hc
        · have hs : p.box.nSens = p.count := by by_contra hn; exact hb.stale2 hn hc
          simp only
          rw [hb.pts_of_sens hI hs]
          exact hb.costSens hc
  | sens =>
    simp only
    rw [show p.box.integrateSensitivities S p.count (V.state p.x) (some (V.nodes p.x)) = _ from sens_eq hb p.box.nCostSens]
    cases hI : integrate S (some (V.nodes p.x)) (V.state p.x) with
    | exc => exact ⟨rfl, fun _ h => by cases h⟩
    | ub => exact ⟨rfl, fun _ h => by cases h⟩
    | ok r =>
      simp only [Res.ok_bind]
      cases hC : canonSens S r.2 with
      | exc => exact ⟨rfl, fun _ h => by cases h⟩
      | ub => exact ⟨rfl, fun _ h => by cases h⟩
      | ok v =>
        refine ⟨rfl, fun p' hp => ?_⟩
        simp only [Res.ok_bind, Res.pure_eq, Res.ok.injEq] at hp
        subst hp
        refine ⟨rfl, rfl, ⟨le_refl _, hb.le2, le_refl _, hb.le4, hb.none3, fun hn => absurd rfl hn, fun hn => absurd rfl hn,
          fun _ => hI, fun hc => ?_, fun hn => absurd rfl hn, fun _ => ⟨v, hC, rfl, rfl, rfl, rfl, rfl, rfl⟩, fun hc => ?_⟩⟩
        · simp only
          rw [hb.pts_of_cost hI hc]
          exact hb.cost hc
        · have hs : p.box.nSens = p.count := by by_contra hn; exact hb.stale2 hn hc
          simp only
          rw [hb.pts_of_sens hI hs]
          exact hb.costSens hc
  | costSens =>
    simp only
    rw [costSens_eq hb]
    cases hI : integrate S (some (V.nodes p.x)) (V.state p.x) with
    | exc => exact ⟨rfl, fun _ h => by cases h⟩
    | ub => exact ⟨rfl, fun _ h => by cases h⟩
    | ok r =>
      simp only [Res.ok_bind]
      cases hC : canonSens S r.2 with
      | exc => exact ⟨rfl, fun _ h => by cases h⟩
      | ub => exact ⟨rfl, fun _ h => by cases h⟩
      | ok v =>
        simp only [Res.ok_bind]
        cases hD : canonCost S r.2 v with
        | exc => exact ⟨rfl, fun _ h => by cases h⟩
        | ub => exact ⟨rfl, fun _ h => by cases h⟩
        | ok w =>
          refine ⟨rfl, fun p' hp => ?_⟩
          simp only [Res.ok_bind, Res.pure_eq, Res.ok.injEq] at hp
          subst hp
          refine ⟨rfl, rfl, ⟨le_refl _, hb.le2, le_refl _, le_refl _, fun hl => canonCost_linear hD hl, fun hn => absurd rfl hn,
            fun hn => absurd rfl hn, fun _ => hI, fun hc => ?_, fun hn => absurd rfl hn,
            fun _ => ⟨v, hC, rfl, rfl, rfl, rfl, rfl, rfl⟩, fun _ => ⟨v, hC, hD⟩⟩⟩
          simp only
          rw [hb.pts_of_cost hI hc]
          exact hb.cost hc

/-! ### The property -/

/-- Only updates through the solver interface and queries. -/
def Op.regular : Op X → Prop
  | .extract _ _ => True
  | .query _ => True
  | _ => False

theorem run_inv {S : Sys ι κ K (Option Q)} {V : View ι K Q X} (ops : List (Op X)) (hreg : ∀ o ∈ ops, o.regular)
    (p p' : Prob ι κ K Q X) (x : X) (h : PInv S V x p) (hr : run S V p ops = .ok p') (y : X)
    (hy : lastUpdate (some x) ops = some y) : PInv S V y p' := by
  induction ops generalizing p x with
  | nil =>
    simp only [run, Res.ok.injEq, lastUpdate, Option.some.injEq] at hr hy
    subst hr hy
    exact h
  | cons o ops ih =>
    obtain ⟨p1, h1, hr'⟩ := Res.bind_eq_ok.1 hr
    have hreg' : ∀ o ∈ ops, o.regular := fun o' ho => hreg o' (List.mem_cons_of_mem _ ho)
    cases o with
    | extract z isNew =>
      cases isNew with
      | true =>
        simp only [Op.run, Res.ok.injEq] at h1
        subst h1
        exact ih hreg' _ z (extract_inv S V z p h.base) hr' hy
      | false =>
        simp only [Op.run, Prob.extract, Bool.false_eq_true, if_false, Res.ok.injEq] at h1
        subst h1
        exact ih hreg' _ x h hr' hy
    | query k => exact ih hreg' p1 x ((query_spec h k).2 p1 h1) hr' hy
    | write z => exact (hreg _ List.mem_cons_self).elim
    | resetCount => exact (hreg _ List.mem_cons_self).elim

theorem new_base (S : Sys ι κ K (Option Q)) (x : X) : Base S (Prob.new x : Prob ι κ K Q X) :=
  ⟨le_refl _, le_refl _, le_refl _, le_refl _, fun _ => rfl⟩

theorem fresh_eq (S : Sys ι κ K (Option Q)) (V : View ι K Q X) (x : X) (k : Query) : fresh S V x k = canon S V x k :=
  (query_spec (extract_inv S V x (Prob.new x) (new_base S x)) k).1

/-- **C53 (part).** A problem is constructed (with whatever content `x0`), given its first decision vector through the
solver interface, and then receives any sequence of further vectors (with the solver's "new point" flag set or not) and
queries of the four kinds, none of which fails. Whatever was computed and cached on the way, the next query returns
exactly what a fresh problem returns that was only ever given the last vector (and fails exactly when that fails).
Missing: queries before the first update and changes of the vector that do not go through the solver interface; for
these the property is false, see the three `violated` theorems. -/
theorem C53_fresh_partial (S : Sys ι κ K (Option Q)) (V : View ι K Q X) (x0 x : X) (ops : List (Op X))
    (hreg : ∀ o ∈ ops, o.regular) (p : Prob ι κ K Q X) (hr : run S V (Prob.new x0) (Op.extract x true :: ops) = .ok p)
    (y : X) (hy : lastUpdate none (Op.extract x true :: ops) = some y) (k : Query) :
    p.ask S V k = fresh S V y k := by
  obtain ⟨p1, h1, hr'⟩ := Res.bind_eq_ok.1 hr
  simp only [Op.run, Res.ok.injEq] at h1
  subst h1
  rw [fresh_eq]
  exact (query_spec (run_inv ops hreg _ p x (extract_inv S V x _ (new_base S x0)) hr' y hy) k).1

/-- **C53.** Asking twice changes nothing: after a query that succeeded, every query returns what it returned (or would
have returned) before. -/
theorem C53_order_irrelevant (S : Sys ι κ K (Option Q)) (V : View ι K Q X) (x0 x : X) (ops : List (Op X))
    (hreg : ∀ o ∈ ops, o.regular) (p : Prob ι κ K Q X) (hr : run S V (Prob.new x0) (Op.extract x true :: ops) = .ok p)
    (k k' : Query) (p' : Prob ι κ K Q X) (hp : p.query S V k = .ok p') : p'.ask S V k' = p.ask S V k' := by
  obtain ⟨p1, h1, hr'⟩ := Res.bind_eq_ok.1 hr
  simp only [Op.run, Res.ok.injEq] at h1
  subst h1
  have hlast : ∀ (o : X) (l : List (Op X)), ∃ y, lastUpdate (some o) l = some y := by
    intro o l
    induction l generalizing o with
    | nil => exact ⟨o, rfl⟩
    | cons a l ih =>
      cases a with
      | extract z b => cases b with
        | true => exact ih z
        | false => exact ih o
      | query _ => exact ih o
      | write _ => exact ih o
      | resetCount => exact ih o
  obtain ⟨y, hy⟩ := hlast x ops
  have hI := run_inv ops hreg _ p x (extract_inv S V x _ (new_base S x0)) hr' y hy
  rw [(query_spec hI k').1, (query_spec ((query_spec hI k).2 p' hp) k').1]

/-- **C53 violated** before the first update: for every system, the counters of a new problem agree (all are zero), so
nothing is integrated, and reading the integrated state is undefined behaviour. -/
theorem C53_violated_before_update (S : Sys ι κ K (Option Q)) (V : View ι K Q X) (x0 : X) (ops : List Query) :
    ∃ p, run S V (Prob.new x0) (ops.map Op.query) = .ok p ∧ p.box.stateIntegrated = .ub := by
  refine ⟨Prob.new x0, ?_, rfl⟩
  induction ops with
  | nil => rfl
  | cons k ops ih => cases k <;> exact ih

/-- **C53 violated** when the vector changes outside the solver interface (new initial guess, new initial state, a
solution read back): for every system and every kind of query that succeeded for the old vector, the next query still
returns the old result, whatever the new vector is. -/
theorem C53_violated_after_write (S : Sys ι κ K (Option Q)) (V : View ι K Q X) (x0 x x' : X) (p : Prob ι κ K Q X)
    (hr : run S V (Prob.new x0) [Op.extract x true, Op.query .shot] = .ok p) :
    (p.write x').ask S V .shot = fresh S V x .shot := by
  obtain ⟨p1, h1, hr'⟩ := Res.bind_eq_ok.1 hr
  obtain ⟨p2, h2, hr''⟩ := Res.bind_eq_ok.1 hr'
  simp only [Op.run, Res.ok.injEq] at h1
  subst h1
  simp only [run, Res.ok.injEq] at hr''
  subst hr''
  have hI := extract_inv S V x (Prob.new x0) (new_base (κ := κ) S x0)
  have hq := query_spec hI .shot
  have h2' : p2.box.nInt = p2.count := by
    simp only [Op.run, Prob.query] at h2
    obtain ⟨b, hb, h3⟩ := Res.bind_eq_ok.1 h2
    rw [shot_eq (b := (Prob.extract V (Prob.new x0) x true : Prob ι κ K Q X).box)
      (fun h => by simp [Prob.extract, Prob.new, Box.new, Box.reset] at h)
      (fun _ => ⟨rfl, rfl⟩)] at hb
    obtain ⟨r, -, hb⟩ := Res.bind_eq_ok.1 hb
    simp only [Res.pure_eq, Res.ok.injEq] at hb h3
    subst hb h3
    rfl
  have key : ∀ p : Prob ι κ K Q X, p.box.nInt = p.count → p.ask S V .shot = .ok (.shot p.box.sub) := by
    intro p h
    simp [Prob.ask, Prob.query, Box.integrateShot, h, Prob.obs, Res.pure_eq, Res.ok_bind]
  rw [fresh_eq, ← (query_spec (hq.2 p2 h2) .shot).1, key p2 h2', key (p2.write x') h2']
  rfl

/-- **C53 violated** after the update counter has been reset: the next update reaches the count of the first again, and
the query returns the result for the first vector `x` instead of the new one `y`. -/
theorem C53_violated_after_reset (S : Sys ι κ K (Option Q)) (V : View ι K Q X) (x0 x y : X) (p : Prob ι κ K Q X)
    (hr : run S V (Prob.new x0) [Op.extract x true, Op.query .shot, Op.resetCount, Op.extract y true] = .ok p) :
    p.ask S V .shot = fresh S V x .shot := by
  obtain ⟨p1, h1, hr'⟩ := Res.bind_eq_ok.1 hr
  obtain ⟨p2, h2, hr''⟩ := Res.bind_eq_ok.1 hr'
  simp only [Op.run, Res.ok.injEq] at h1
  subst h1
  simp only [run, Op.run, Res.ok_bind, Res.ok.injEq] at hr''
  subst hr''
  have hI := extract_inv S V x (Prob.new x0) (new_base (κ := κ) S x0)
  have hq := query_spec hI .shot
  have h2' : p2.box.nInt = 1 ∧ p2.count = 1 := by
    simp only [Op.run, Prob.query] at h2
    obtain ⟨b, hb, h3⟩ := Res.bind_eq_ok.1 h2
    rw [shot_eq (b := (Prob.extract V (Prob.new x0) x true : Prob ι κ K Q X).box)
      (fun h => by simp [Prob.extract, Prob.new, Box.new, Box.reset] at h)
      (fun _ => ⟨rfl, rfl⟩)] at hb
    obtain ⟨r, -, hb⟩ := Res.bind_eq_ok.1 hb
    simp only [Res.pure_eq, Res.ok.injEq] at hb h3
    subst hb h3
    exact ⟨rfl, rfl⟩
  have key : ∀ p : Prob ι κ K Q X, p.box.nInt = p.count → p.ask S V .shot = .ok (.shot p.box.sub) := by
    intro p h
    simp [Prob.ask, Prob.query, Box.integrateShot, h, Prob.obs, Res.pure_eq, Res.ok_bind]
  rw [fresh_eq, ← (query_spec (hq.2 p2 h2) .shot).1, key p2 (by omega),
    key (p2.resetCount.extract V y true) (by simp [Prob.extract, Prob.resetCount, Box.reset, h2'.1])]
  rfl

/-! ### A concrete shot -/

/-- Scalar system `x' = x + u`, cost `x²`, control constant at the node value, two Euler steps of length 1. -/
def exSys : Sys Unit Unit ℚ (Option ℚ) where
  dyn x u _ := x + u
  dA _ _ _ := 1
  dB _ _ _ := 1
  cost x _ _ := x () * x ()
  costX x _ _ := fun _ => 2 * x ()
  costU _ _ _ := 0
  ctl q _ := match q with | some v => .ok fun _ => v | none => .ub
  d0 _ := .ok 1
  df _ := .ok 0
  kind := .euler
  tStart := 0
  nSteps := 2
  dt := 1
  linear := false
  full := true

/-- The vector is a pair (state, control node). -/
def exView : View Unit ℚ ℚ (ℚ × ℚ) := ⟨fun x _ => x.1, fun x => x.2⟩

/-- The number a result stands for, to compare results. -/
def Obs.num : Obs Unit Unit ℚ → ℚ
  | .shot sub => (sub.getLastD (0, 0)).1 ()
  | .cost v => v
  | .sens (some (X, _, _)) => X () ()
  | .sens none => -1
  | .costSens v => v.1 ()

/-- The number of a successful query. -/
def numOf (r : Res (Obs Unit Unit ℚ)) : Option ℚ := match r with | .ok o => some o.num | _ => none

/-- The final result of a run followed by a query. -/
def exAsk (ops : List (Op (ℚ × ℚ))) (k : Query) : Option ℚ :=
  numOf (do let p ← run exSys exView (Prob.new (9, 9)) ops; p.ask exSys exView k)

example : exAsk [Op.extract (1, 0) true, Op.query .costSens, Op.extract (2, 1) true, Op.query .cost, Op.extract (5, 5) false]
    .shot = some 11 := by decide +kernel
example : exAsk [Op.extract (1, 0) true, Op.query .costSens, Op.extract (2, 1) true, Op.query .cost] .costSens = some 24 := by
  decide +kernel
example : numOf (fresh exSys exView (2, 1) .shot) = some 11 ∧ numOf (fresh exSys exView (2, 1) .costSens) = some 24 := by
  decide +kernel
-- the violations change observable values
example : exAsk [Op.extract (1, 0) true, Op.query .shot, Op.write (2, 1)] .shot = some 4 := by decide +kernel
example : exAsk [Op.extract (1, 0) true, Op.query .shot, Op.resetCount, Op.extract (2, 1) true] .shot = some 4 := by
  decide +kernel

end CT.Shot
