import Verif.Model.StateFeedback
import Verif.Props.Trajectory
import Mathlib.Algebra.Order.Ring.Rat
import Mathlib.LinearAlgebra.Matrix.Notation

/-! # Property C14: state-feedback controller -/

namespace CT.StateFeedback
open CT.Interp

variable {n m : Nat} {K : Type} [Field K] [LinearOrder K] [IsStrictOrderedRing K]

/-- Calls on a controller. -/
inductive Op (n m : Nat) (K : Type) where
  | compute (x : Fin n → K) (t : K)
  | update (xr : List (Fin n → K)) (u : List (Fin m → K)) (g : List (Matrix (Fin m) (Fin n) K))
      (t : List K)

/-- The controller after a call. -/
def after (c : Ctrl n m K) : Op n m K → Ctrl n m K
  | .compute x t => (c.compute x t).2
  | .update xr u g t => (c.update xr u g t).2

/-- Specification: a policy as plain data. -/
structure Policy (n m : Nat) (K : Type) where
  t : List K
  xr : List (Fin n → K)
  u : List (Fin m → K)
  g : List (Matrix (Fin m) (Fin n) K)

/-- Specification: a policy is admissible when there is one more state than controls and gains,
the stamps are sorted and there is at least one control stage. -/
def Policy.Valid (p : Policy n m K) : Prop :=
  p.xr.length = p.t.length ∧ p.u.length + 1 = p.t.length ∧ p.g.length + 1 = p.t.length ∧
  p.t.Pairwise (· ≤ ·) ∧ p.u ≠ []

/-- Specification: the policy in force after an operation: an update with matching lengths
replaces it, everything else leaves it. -/
def Policy.after (p : Policy n m K) : Op n m K → Policy n m K
  | .compute _ _ => p
  | .update xr u g t =>
      if xr.length = t.length ∧ u.length + 1 = t.length ∧ g.length + 1 = t.length
      then ⟨t, xr, u, g⟩ else p

/-- The controller's trajectories hold the policy. -/
def Holds (tx tu tg : IType) (c : Ctrl n m K) (p : Policy n m K) : Prop :=
  c.x_ref.type = tx ∧ c.uff.type = tu ∧ c.gain.type = tg ∧
  c.x_ref.time = p.t ∧ c.uff.time = p.t.dropLast ∧ c.gain.time = p.t.dropLast ∧
  c.x_ref.data = p.xr ∧ c.uff.data = p.u ∧ c.gain.data = p.g ∧
  0 ≤ c.x_ref.cache ∧ 0 ≤ c.uff.cache ∧ 0 ≤ c.gain.cache

omit [IsStrictOrderedRing K] in
/-- An evaluation of consistent, sorted, non-empty data (or of any single sample) keeps the cached
index non-negative. -/
theorem cache_nonneg {D : Type} [AddCommGroup D] [Module K D] (ty : IType) (ts : List K)
    (ds : List D) (hs : ts.Pairwise (· ≤ ·)) (q : K) (c : Int) (hc : 0 ≤ c) :
    0 ≤ (interpolate ty ts ds q c).2 := by
  by_cases h : ts.length = ds.length ∧ 2 ≤ ts.length
  · obtain ⟨k, _, hk⟩ := interpolate_spec (ds := ds) hs h.1 h.2 ty q hc
    rw [hk]; simp
  · unfold interpolate
    split
    · exact hc
    split
    · exact hc
    split
    · exact hc
    rw [if_pos]
    · exact hc
    · omega

omit [Field K] [LinearOrder K] [IsStrictOrderedRing K] in
theorem update_success (c : Ctrl n m K) (xr u g) (t : List K) (hx : xr.length = t.length)
    (hu : u.length + 1 = t.length) (hg : g.length + 1 = t.length) :
    c.update xr u g t = (.ok (), { x_ref := { c.x_ref with data := xr, time := t }
                                   uff := { c.uff with data := u, time := t.dropLast }
                                   gain := { c.gain with data := g, time := t.dropLast } }) := by
  unfold Ctrl.update
  rw [if_neg (by omega)]
  simp only [List.length_dropLast]
  rw [if_neg (by omega), if_neg (by omega), if_neg (by omega)]

omit [Field K] [LinearOrder K] [IsStrictOrderedRing K] in
/-- C14, rejection: an update is accepted exactly when its lengths match; otherwise (for a
non-empty time array) it throws, and in every case that is not accepted the policy in force is
left as it was. -/
theorem C14_update_rejects_inconsistent (c : Ctrl n m K) (xr : List (Fin n → K))
    (u : List (Fin m → K)) (g : List (Matrix (Fin m) (Fin n) K)) (t : List K) (ht : t ≠ []) :
    ((c.update xr u g t).1 = .ok () ↔
      xr.length = t.length ∧ u.length + 1 = t.length ∧ g.length + 1 = t.length) ∧
    ((c.update xr u g t).1 ≠ .ok () → (c.update xr u g t).1 = .exc ∧ (c.update xr u g t).2 = c) := by
  have hpos : 0 < t.length := List.length_pos_iff.2 ht
  unfold Ctrl.update
  rw [if_neg (by omega)]
  simp only [List.length_dropLast]
  split
  · constructor
    · constructor
      · intro h; cases h
      · intro h; omega
    · intro _; exact ⟨rfl, rfl⟩
  split
  · constructor
    · constructor
      · intro h; cases h
      · intro h; omega
    · intro _; exact ⟨rfl, rfl⟩
  split
  · constructor
    · constructor
      · intro h; cases h
      · intro h; omega
    · intro _; exact ⟨rfl, rfl⟩
  · constructor
    · constructor
      · intro _; omega
      · intro _; rfl
    · intro h; exact absurd rfl h

omit [IsStrictOrderedRing K] in
theorem holds_after {tx tu tg : IType} {c : Ctrl n m K} {p : Policy n m K}
    (h : Holds tx tu tg c p) (hs : p.t.Pairwise (· ≤ ·)) (op : Op n m K) :
    Holds tx tu tg (after c op) (p.after op) := by
  obtain ⟨h1, h2, h3, h4, h5, h6, h7, h8, h9, h10, h11, h12⟩ := h
  cases op with
  | compute x t =>
      have hs' : p.t.dropLast.Pairwise (· ≤ ·) := hs.sublist (List.dropLast_sublist _)
      refine ⟨h1, h2, h3, h4, h5, h6, h7, h8, h9, ?_, ?_, ?_⟩
      · exact cache_nonneg _ _ _ (h4 ▸ hs) _ _ h10
      · exact cache_nonneg _ _ _ (h5 ▸ hs') _ _ h11
      · exact cache_nonneg _ _ _ (h6 ▸ hs') _ _ h12
  | update xr u g t =>
      simp only [after, Policy.after]
      split
      · rename_i hl
        rw [update_success c xr u g t hl.1 hl.2.1 hl.2.2]
        exact ⟨h1, h2, h3, rfl, rfl, rfl, rfl, rfl, rfl, h10, h11, h12⟩
      · rename_i hl
        have : (c.update xr u g t).2 = c := by
          by_cases ht : t = []
          · subst ht; rfl
          · obtain ⟨ha, hb⟩ := C14_update_rejects_inconsistent c xr u g t ht
            exact (hb (fun h => hl (ha.1 h))).2
        rw [this]
        exact ⟨h1, h2, h3, h4, h5, h6, h7, h8, h9, h10, h11, h12⟩

/-- C14, policy: start from a controller holding a policy `p₀` and make any sequence of
evaluations and updates (accepted or rejected, with sorted stamps). If the policy then in force is
admissible, the controller returns feed-forward plus gain times deviation, each value read off the
policy's own samples by the interpolation rules of C02; in particular on the reference it returns
the feed-forward. -/
theorem C14_policy (tx tu tg : IType) (c : Ctrl n m K) (p₀ : Policy n m K)
    (h₀ : Holds tx tu tg c p₀) (hs₀ : p₀.t.Pairwise (· ≤ ·)) (ops : List (Op n m K))
    (hsorted : ∀ xr u g t, Op.update xr u g t ∈ ops → t.Pairwise (· ≤ ·))
    (hv : (ops.foldl Policy.after p₀).Valid) (x : Fin n → K) (t : K) :
    ∃ u k xr,
      IsValueAt tu (ops.foldl Policy.after p₀).t.dropLast (ops.foldl Policy.after p₀).u t u ∧
      IsValueAt tg (ops.foldl Policy.after p₀).t.dropLast (ops.foldl Policy.after p₀).g t k ∧
      IsValueAt tx (ops.foldl Policy.after p₀).t (ops.foldl Policy.after p₀).xr t xr ∧
      ((ops.foldl after c).compute x t).1 = .ok (u + k.mulVec (x - xr)) ∧
      (x = xr → ((ops.foldl after c).compute x t).1 = .ok u) := by
  have hinv : Holds tx tu tg (ops.foldl after c) (ops.foldl Policy.after p₀) := by
    clear hv
    induction ops generalizing c p₀ with
    | nil => exact h₀
    | cons o os ih =>
        refine ih (after c o) (p₀.after o) (holds_after h₀ hs₀ o) ?_
          (fun xr u g t h => hsorted xr u g t (List.mem_cons_of_mem _ h))
        cases o with
        | compute => exact hs₀
        | update xr u g t =>
            simp only [Policy.after]
            split
            · exact hsorted xr u g t List.mem_cons_self
            · exact hs₀
  generalize ops.foldl after c = c' at *
  generalize ops.foldl Policy.after p₀ = p at *
  obtain ⟨v1, v2, v3, v4, v5⟩ := hv
  obtain ⟨h1, h2, h3, h4, h5, h6, h7, h8, h9, h10, h11, h12⟩ := hinv
  have vpos : 0 < p.u.length := List.length_pos_iff.2 v5
  have hs' : p.t.dropLast.Pairwise (· ≤ ·) := v4.sublist (List.dropLast_sublist _)
  obtain ⟨u, hu, hu'⟩ := eval_isValueAt c'.uff h11 (h5 ▸ hs')
    (by rw [h5, h8, List.length_dropLast]; omega)
    (by rw [h5]; intro h; have := congrArg List.length h; simp at this; omega) t
  obtain ⟨k, hk, hk'⟩ := eval_isValueAt c'.gain h12 (h6 ▸ hs')
    (by rw [h6, h9, List.length_dropLast]; omega)
    (by rw [h6]; intro h; have := congrArg List.length h; simp at this; omega) t
  obtain ⟨xr, hx, hx'⟩ := eval_isValueAt c'.x_ref h10 (h4 ▸ v4) (by rw [h4, h7, v1])
    (by rw [h4]; intro h; have := congrArg List.length h; simp at this; simp [this] at v2) t
  have key : (c'.compute x t).1 = .ok (u + k.mulVec (x - xr)) := by
    simp only [Traj.eval] at hu hk hx
    simp only [Ctrl.compute, hu, hk, hx, Res.ok_bind, Res.pure_eq]
  refine ⟨u, k, xr, ?_, ?_, ?_, key, ?_⟩
  · rw [h2, h5, h8] at hu'; exact hu'
  · rw [h3, h6, h9] at hk'; exact hk'
  · rw [h1, h4, h7] at hx'; exact hx'
  · rintro rfl
    rw [key]; simp

omit [IsStrictOrderedRing K] in
/-- C14, discrete time: stage `k` of a policy applies feed-forward `k`, gain `k` and reference `k`;
a stage outside the policy is undefined (no check is made). -/
theorem C14_discrete_policy (c : Ctrl n m K) (x : Fin n → K) (k : Nat) :
    (∀ (hu : k < c.uff.data.length) (hg : k < c.gain.data.length) (hx : k < c.x_ref.data.length),
      c.computeDiscrete x k =
        .ok (c.uff.data[k] + c.gain.data[k].mulVec (x - c.x_ref.data[k]))) ∧
    (c.uff.data.length ≤ k → c.computeDiscrete x k = .ub) := by
  constructor
  · intro hu hg hx
    simp [Ctrl.computeDiscrete, idx_of_lt _ _ hu, idx_of_lt _ _ hg, idx_of_lt _ _ hx]
  · intro h
    have : c.uff.data[k]? = none := by simp [h]
    simp [Ctrl.computeDiscrete, idx, this]

/-- A one-stage scalar policy meets the hypotheses of `C14_policy`. -/
example : (Policy.after (⟨[], [], [], []⟩ : Policy 1 1 ℚ)
    (.update [![1], ![2]] [![3]] [!![4]] [0, 1])).Valid := by
  simp [Policy.after, Policy.Valid]

omit [IsStrictOrderedRing K] in
/-- C69: for a policy with at least as many stages as the state trajectory has transitions, the
extracted control trajectory has one sample per transition, and sample `i` is the discrete-time
command of the policy at stage `i` along the given states, stamped with the state's stamp. -/
theorem C69_extract_controls (c : Ctrl n m K) (ts : List K) (xs : List (Fin n → K))
    (hx0 : xs ≠ []) (ht : xs.length ≤ ts.length + 1) (hu : xs.length ≤ c.uff.data.length + 1)
    (hg : xs.length ≤ c.gain.data.length + 1) (hr : xs.length ≤ c.x_ref.data.length + 1) :
    ∃ us, c.extract ts xs = .ok (ts.take (xs.length - 1), us) ∧ us.length = xs.length - 1 ∧
      ∀ i (h : i < us.length) (hx : i < xs.length), c.computeDiscrete xs[i] i = .ok us[i] := by
  have hpos : 0 < xs.length := List.length_pos_iff.2 hx0
  have gen : ∀ N, N ≤ xs.length - 1 → ∃ us, us.length = N ∧
      (∀ i (h : i < us.length) (hx : i < xs.length), c.computeDiscrete xs[i] i = .ok us[i]) ∧
      (List.range N).foldl (fun acc i => do
        let a ← acc
        let u ← idx c.uff.data i
        let g ← idx c.gain.data i
        let x ← idx xs i
        let xr ← idx c.x_ref.data i
        let t ← idx ts i
        pure (a.1 ++ [t], a.2 ++ [u + g.mulVec (x - xr)])) (.ok ([], [])) =
        Res.ok (ts.take N, us) := by
    intro N
    induction N with
    | zero => intro _; exact ⟨[], rfl, by simp, by simp⟩
    | succ N ih =>
        intro hN
        obtain ⟨us, h1, h2, h3⟩ := ih (by omega)
        have a1 : N < c.uff.data.length := by omega
        have a2 : N < c.gain.data.length := by omega
        have a3 : N < xs.length := by omega
        have a4 : N < c.x_ref.data.length := by omega
        have a5 : N < ts.length := by omega
        refine ⟨us ++ [c.uff.data[N] + c.gain.data[N].mulVec (xs[N] - c.x_ref.data[N])], ?_, ?_, ?_⟩
        · simp [h1]
        · intro i hi hx
          rcases Nat.lt_or_ge i us.length with hlt | hge
          · rw [h2 i hlt hx, List.getElem_append_left hlt]
          · have : i = N := by simp [h1] at hi; omega
            subst this
            rw [List.getElem_append_right hge]
            simpa using (C14_discrete_policy c xs[i] i).1 a1 a2 a4
        · rw [List.range_succ, List.foldl_append, h3]
          simp only [List.foldl_cons, List.foldl_nil, Res.ok_bind, idx_of_lt _ _ a1,
            idx_of_lt _ _ a2, idx_of_lt _ _ a3, idx_of_lt _ _ a4, idx_of_lt _ _ a5, Res.pure_eq,
            List.take_succ_eq_append_getElem a5]
  obtain ⟨us, h1, h2, h3⟩ := gen (xs.length - 1) (le_refl _)
  refine ⟨us, ?_, h1, h2⟩
  unfold Ctrl.extract
  rw [if_neg (by omega)]
  exact h3

omit [IsStrictOrderedRing K] in
/-- C69, limit of validity: for an empty state trajectory the loop bound wraps around and the call
is undefined. -/
theorem C69_extract_empty_undefined (c : Ctrl n m K) (ts : List K) : c.extract ts [] = .ub := rfl

example : ([![1], ![2]] : List (Fin 1 → ℚ)) ≠ [] ∧ 2 ≤ ([0, 1] : List ℚ).length + 1 := by simp

end CT.StateFeedback
