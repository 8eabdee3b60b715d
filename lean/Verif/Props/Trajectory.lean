import Verif.Proof.Interpolation
import Mathlib.Data.Rat.Defs
import Mathlib.Algebra.Order.Ring.Rat
import Mathlib.Algebra.Module.Rat
import Mathlib.Tactic.NormNum
import Mathlib.Tactic.Module

/-! # Properties C01–C04: discrete trajectories -/

namespace CT.Interp

/-! ## C01 – evaluation does not depend on earlier queries -/

section C01
variable {T : Type _} [LinearOrder T]

/-- C01 (index search): on sorted, non-empty stamps the search returns the active index,
whatever non-negative position earlier calls left in the cache. -/
theorem C01_findIndex_active (ts : List T) (hs : ts.Pairwise (· ≤ ·)) (hne : ts ≠ []) (q : T)
    (cache : Int) (hc : 0 ≤ cache) :
    ∃ k : Nat, IsActiveIndex ts q k ∧ findIndex ts q cache = (.ok (k : Int), (k : Int)) := by
  obtain ⟨k, h1, h2⟩ := findIndex_spec hs hne q hc
  exact ⟨k, h2, h1⟩

example : ∃ k : Nat, IsActiveIndex [(0 : ℚ), 1, 1, 2] 1 k ∧
    findIndex [(0 : ℚ), 1, 1, 2] 1 7 = (.ok (k : Int), (k : Int)) :=
  C01_findIndex_active _ (by norm_num) (by simp) 1 7 (by norm_num)

/-- C01: two searches with different cached positions agree. -/
theorem C01_findIndex_cache_irrelevant (ts : List T) (hs : ts.Pairwise (· ≤ ·)) (hne : ts ≠ [])
    (q : T) (c₁ c₂ : Int) (h₁ : 0 ≤ c₁) (h₂ : 0 ≤ c₂) :
    findIndex ts q c₁ = findIndex ts q c₂ := by
  obtain ⟨k, hk, e₁⟩ := C01_findIndex_active ts hs hne q c₁ h₁
  obtain ⟨l, hl, e₂⟩ := C01_findIndex_active ts hs hne q c₂ h₂
  rw [e₁, e₂, hk.unique hl]

end C01

section
variable {K : Type _} [Field K] [LinearOrder K]
variable {D : Type _} [AddCommGroup D] [Module K D]

/-- Along the history, the index of a time is never requested from an empty trajectory. -/
def IndexQueriesNonempty : Traj K D → List (Op K D) → Prop
  | _, [] => True
  | tr, op :: ops =>
      (∀ q, op = .getIndex q → tr.time ≠ []) ∧ IndexQueriesNonempty (step tr op).2 ops

theorem step_cache_nonneg (tr : Traj K D) (hc : 0 ≤ tr.cache) (op : Op K D)
    (h : ∀ q, op = .getIndex q → tr.time ≠ []) : 0 ≤ (step tr op).2.cache := by
  cases op with
  | eval q =>
    simp only [step, interpolate]
    split_ifs with h1 h2 h3 h4 <;> try exact hc
    have := findIndex_cache_nonneg tr.time (by intro hh; simp [hh] at h1) q hc
    generalize hf : findIndex tr.time q tr.cache = r at this
    rcases r with ⟨_ | _ | _, c⟩ <;> simpa using this
  | getIndex q => exact findIndex_cache_nonneg tr.time (h q rfl) q hc
  | pushBack d t abs =>
    simp only [step]; split <;> exact hc
  | popBack => simp only [step]; split <;> exact hc
  | eraseFront n dt => simp only [step]; split <;> exact hc
  | _ => exact hc

theorem run_cache_nonneg (ops : List (Op K D)) : ∀ (tr tr' : Traj K D), 0 ≤ tr.cache →
    IndexQueriesNonempty tr ops → run tr ops = some tr' → 0 ≤ tr'.cache := by
  induction ops with
  | nil => intro tr tr' hc _ hr; simp only [run, Option.some.injEq] at hr; rw [← hr]; exact hc
  | cons op ops ih =>
    intro tr tr' hc hq hr
    have h1 := step_cache_nonneg tr hc op hq.1
    simp only [run] at hr
    generalize hst : step tr op = s at hr h1
    have hq2 := hq.2
    rw [hst] at hq2
    rcases s with ⟨_ | _ | _, s2⟩
    · exact ih s2 tr' h1 hq2 hr
    · exact ih s2 tr' h1 hq2 hr
    · simp at hr

variable [IsStrictOrderedRing K]

/-- Core of C01/C02: evaluation of a sorted, consistent trajectory with any non-negative cached
index succeeds and yields the specified value. -/
theorem eval_isValueAt (tr : Traj K D) (hc : 0 ≤ tr.cache) (hs : tr.time.Pairwise (· ≤ ·))
    (hlen : tr.time.length = tr.data.length) (hne : tr.time ≠ []) (q : K) :
    ∃ v, tr.eval q = .ok v ∧ IsValueAt tr.type tr.time tr.data q v := by
  obtain ⟨ts, ds, ty, cache⟩ := tr
  simp only at hc hs hlen hne
  have hpos : 0 < ts.length := List.length_pos_iff.mpr hne
  rcases Nat.lt_or_ge ts.length 2 with h1 | h2
  · have h1 : ts.length = 1 := by omega
    refine ⟨ds[0]'(by omega), ?_, ?_⟩
    · simp only [Traj.eval, interpolate]
      rw [if_neg (by omega), if_neg (by omega), if_neg (by omega), if_pos (by omega)]
      exact front_of_pos ds (by omega)
    · refine ⟨hlen, hpos, ?_⟩
      rcases lt_or_ge q ts[0] with h | h
      · exact Or.inl ⟨h, rfl⟩
      · refine Or.inr (Or.inl ⟨?_, ?_⟩)
        · simpa [h1] using h
        · have : ds.length - 1 = 0 := by omega
          simp [this]
  · obtain ⟨k, hk, hi⟩ := interpolate_spec (ds := ds) hs hlen h2 ty q hc
    have hklt := hk.lt
    simp only [Traj.eval, hi, blend, front_of_pos ts hpos, Res.ok_bind]
    by_cases hq : q < ts[0]
    · refine ⟨ds[0]'(by omega), ?_, hlen, hpos, Or.inl ⟨hq, rfl⟩⟩
      simp only [hq, if_true]
      exact front_of_pos ds (by omega)
    · rw [if_neg hq]
      rcases hk with ⟨_, hle, hgt⟩ | ⟨_, _, hgt⟩
      · by_cases hlast : k = ts.length - 1
        · refine ⟨ds[ds.length - 1]'(by omega), ?_, hlen, hpos, Or.inr (Or.inl ⟨?_, rfl⟩)⟩
          · rw [if_pos (by omega)]
            exact back_of_pos ds (by omega)
          · simpa [hlast] using hle
        · rw [if_neg (by omega)]
          have hk1 : k + 1 < ts.length := by omega
          have a1 := atI_of_lt ts (k+1) hk1
          have a2 := atI_of_lt ts k hklt
          have a3 := atI_of_lt ds k (by omega)
          have a4 := atI_of_lt ds (k+1) (by omega)
          push_cast at a1 a4
          have hg := hgt (k+1) hk1 (by omega)
          simp only [a1, a2, a3, a4, Res.ok_bind, Res.pure_eq]
          cases ty with
          | ZOH =>
            exact ⟨_, rfl, hlen, hpos, Or.inr (Or.inr ⟨k, hk1, hle, hg, fun _ => rfl, by simp⟩)⟩
          | LIN =>
            refine ⟨_, rfl, hlen, hpos, Or.inr (Or.inr ⟨k, hk1, hle, hg, by simp, fun _ => ?_⟩)⟩
            have hne' : ts[k+1] - ts[k] ≠ 0 := by
              have : ts[k] < ts[k+1] := lt_of_le_of_lt hle hg
              intro hh; linarith
            have hb : (q - ts[k+1]) / (ts[k] - ts[k+1]) = 1 - (q - ts[k]) / (ts[k+1] - ts[k]) := by
              have hne'' : ts[k] - ts[k+1] ≠ 0 := by
                intro hh; apply hne'; linarith
              rw [← neg_sub ts[k+1] ts[k], div_neg, eq_sub_iff_add_eq, neg_add_eq_sub, ← sub_div,
                div_eq_one_iff_eq hne']
              ring
            rw [hb]
            module
      · exact absurd (hgt 0 hpos) hq

omit [IsStrictOrderedRing K] in
/-- The specification determines the value. -/
theorem IsValueAt.unique {ty : IType} {ts : List K} {ds : List D} {q : K} {v w : D}
    (hs : ts.Pairwise (· ≤ ·)) (hv : IsValueAt ty ts ds q v) (hw : IsValueAt ty ts ds q w) :
    v = w := by
  obtain ⟨hl, hn, hv⟩ := hv
  obtain ⟨_, _, hw⟩ := hw
  rcases hv with ⟨a, b⟩ | ⟨a, b⟩ | ⟨i, hi, a, b, c, d⟩ <;>
    rcases hw with ⟨a', b'⟩ | ⟨a', b'⟩ | ⟨i', hi', a', b', c', d'⟩
  · rw [b, b']
  · exact absurd (lt_of_le_of_lt (sorted_get hs (Nat.zero_le _) (by omega)) (lt_of_le_of_lt a' a))
      (lt_irrefl _)
  · exact absurd (lt_of_le_of_lt (sorted_get hs (Nat.zero_le _) (by omega)) (lt_of_le_of_lt a' a))
      (lt_irrefl _)
  · exact absurd (lt_of_le_of_lt (sorted_get hs (Nat.zero_le _) (by omega)) (lt_of_le_of_lt a a'))
      (lt_irrefl _)
  · rw [b, b']
  · exact absurd (lt_of_le_of_lt (sorted_get hs (by omega) (by omega)) (lt_of_le_of_lt a b'))
      (lt_irrefl _)
  · exact absurd (lt_of_le_of_lt (sorted_get hs (Nat.zero_le _) (by omega)) (lt_of_le_of_lt a a'))
      (lt_irrefl _)
  · exact absurd (lt_of_le_of_lt (sorted_get hs (by omega) (by omega)) (lt_of_le_of_lt a' b))
      (lt_irrefl _)
  · have hii : i = i' := by
      rcases lt_trichotomy i i' with h | h | h
      · exact absurd (lt_of_le_of_lt (sorted_get hs (show i + 1 ≤ i' by omega) (by omega))
          (lt_of_le_of_lt a' b)) (lt_irrefl _)
      · exact h
      · exact absurd (lt_of_le_of_lt (sorted_get hs (show i' + 1 ≤ i by omega) (by omega))
          (lt_of_le_of_lt a b')) (lt_irrefl _)
    subst hii
    cases ty with
    | ZOH => rw [c rfl, c' rfl]
    | LIN => rw [d rfl, d' rfl]

/-- C01 (histories). Take a newly constructed trajectory and any history of calls in which the
index of a time is never requested while the trajectory is empty. If its contents are then
sorted and consistent, every evaluation returns the specified value of the current contents,
which is also what a fresh object with the same contents returns, and the index returned is
the active one.

Partial: the restriction on index queries is necessary, see `C01_violated`. -/
theorem C01_history_independent_partial (ts₀ : List K) (ds₀ : List D) (ty₀ : IType)
    (ops : List (Op K D)) (tr : Traj K D)
    (hq : IndexQueriesNonempty (Traj.mk' ts₀ ds₀ ty₀) ops)
    (hr : run (Traj.mk' ts₀ ds₀ ty₀) ops = some tr)
    (hs : tr.time.Pairwise (· ≤ ·)) (hlen : tr.time.length = tr.data.length)
    (hne : tr.time ≠ []) (q : K) :
    (∃ v, tr.eval q = .ok v ∧ IsValueAt tr.type tr.time tr.data q v) ∧
    tr.eval q = (Traj.mk' tr.time tr.data tr.type).eval q ∧
    (∃ k : Nat, IsActiveIndex tr.time q k ∧ (findIndex tr.time q tr.cache).1 = .ok (k : Int)) := by
  have hc := run_cache_nonneg ops _ _ (le_refl (0 : Int)) hq hr
  obtain ⟨v, hv, hsp⟩ := eval_isValueAt tr hc hs hlen hne q
  obtain ⟨w, hw, hsp'⟩ := eval_isValueAt (Traj.mk' tr.time tr.data tr.type) (le_refl (0 : Int)) hs
    hlen hne q
  refine ⟨⟨v, hv, hsp⟩, ?_, ?_⟩
  · rw [hv, hw, IsValueAt.unique hs hsp hsp']
  · obtain ⟨k, hk, e⟩ := C01_findIndex_active tr.time hs hne q tr.cache hc
    exact ⟨k, hk, by rw [e]⟩

end

/-- C01 (assignment): after any history, assigning another trajectory with sorted, consistent
contents makes the object – also after further queries – answer every evaluation like a new
trajectory with the contents *and the interpolation type* of the other one.

Partial like `C01_history_independent_partial`. -/
theorem C01_assignment_partial {K : Type _} [Field K] [LinearOrder K] [IsStrictOrderedRing K]
    {D : Type _} [AddCommGroup D] [Module K D] (ts₀ : List K) (ds₀ : List D) (ty₀ : IType)
    (ops queries : List (Op K D)) (ts : List K) (ds : List D) (ty : IType) (tr : Traj K D)
    (hqs : ∀ op ∈ queries, (∃ q, op = .eval q) ∨ ∃ q, op = .getIndex q)
    (hq : IndexQueriesNonempty (Traj.mk' ts₀ ds₀ ty₀) (ops ++ .assign ts ds ty :: queries))
    (hr : run (Traj.mk' ts₀ ds₀ ty₀) (ops ++ .assign ts ds ty :: queries) = some tr)
    (hs : ts.Pairwise (· ≤ ·)) (hlen : ts.length = ds.length) (hne : ts ≠ []) (q : K) :
    tr.eval q = (Traj.mk' ts ds ty).eval q := by
  have hcont : tr.time = ts ∧ tr.data = ds ∧ tr.type = ty := by
    have h1 : ∀ (qs : List (Op K D)), (∀ op ∈ qs, (∃ q, op = .eval q) ∨ ∃ q, op = .getIndex q) →
        ∀ a b : Traj K D, run a qs = some b → b.time = a.time ∧ b.data = a.data ∧ b.type = a.type := by
      intro qs
      induction qs with
      | nil => intro _ a b h; simp only [run, Option.some.injEq] at h; subst h; exact ⟨rfl, rfl, rfl⟩
      | cons op qs ih =>
        intro hqs a b h
        have hstep : (step a op).2.time = a.time ∧ (step a op).2.data = a.data ∧
            (step a op).2.type = a.type := by
          rcases hqs op (by simp) with ⟨q, rfl⟩ | ⟨q, rfl⟩ <;> exact ⟨rfl, rfl, rfl⟩
        have h2 : run (step a op).2 qs = some b := by
          simp only [run] at h
          generalize step a op = s at h
          rcases s with ⟨_ | _ | _, s2⟩
          · exact h
          · exact h
          · simp at h
        obtain ⟨e1, e2, e3⟩ := ih (fun o ho => hqs o (by simp [ho])) _ _ h2
        exact ⟨e1.trans hstep.1, e2.trans hstep.2.1, e3.trans hstep.2.2⟩
    have h3 : ∀ (l : List (Op K D)) (a : Traj K D), run a (l ++ .assign ts ds ty :: queries) = some tr →
        ∃ b : Traj K D, run (step b (.assign ts ds ty)).2 queries = some tr := by
      intro l
      induction l with
      | nil => intro a h; exact ⟨a, by simpa [run, step] using h⟩
      | cons op l ih =>
        intro a h
        simp only [List.cons_append, run] at h
        generalize step a op = s at h
        rcases s with ⟨_ | _ | _, s2⟩
        · exact ih s2 h
        · exact ih s2 h
        · simp at h
    obtain ⟨b, hb⟩ := h3 ops _ hr
    exact h1 queries hqs _ _ hb
  have := (C01_history_independent_partial ts₀ ds₀ ty₀ _ tr hq hr (hcont.1 ▸ hs)
    (by rw [hcont.1, hcont.2.1]; exact hlen) (by rw [hcont.1]; exact hne) q).2.1
  rw [this, hcont.1, hcont.2.1, hcont.2.2]

/-- A concrete assignment after queries. -/
example : (run (Traj.mk' [(0 : ℚ), 1] [(5 : ℚ), 6] .ZOH)
      ([.eval 1] ++ .assign [0, 2] [3, 4] .LIN :: [.eval 1])).map (fun tr => tr.eval 1)
    = some (.ok (7 / 2)) := by decide +kernel

/-- A concrete, non-trivial history: queries at the end, then the front is erased so that the
cached index is out of range. -/
def C01_exampleOps : List (Op ℚ ℚ) :=
  [.eval 2, .eraseFront 2 2, .pushBack 9 3 false, .getIndex 1]

/-- It meets the hypotheses of C01. -/
example : ∃ tr : Traj ℚ ℚ,
    IndexQueriesNonempty (Traj.mk' [0, 1, 2] [5, 6, 7] .LIN) C01_exampleOps ∧
    run (Traj.mk' [0, 1, 2] [5, 6, 7] .LIN) C01_exampleOps = some tr ∧
    tr.time.Pairwise (· ≤ ·) ∧ tr.time.length = tr.data.length ∧ tr.time ≠ [] := by
  refine ⟨⟨[0, 3], [7, 9], .LIN, 0⟩, ?_, by decide +kernel, by norm_num, rfl, by simp⟩
  simp [C01_exampleOps, IndexQueriesNonempty, step, Traj.mk', interpolate, findIndex, searchFwd,
    atI, shiftTimes, back]

/-- C01 is violated as stated in full generality: asking an *empty* trajectory for the index of
a time throws, as it should, but leaves the cached position at -1, and every later evaluation
on the same object throws, although a fresh object with the same (sorted, consistent, non-empty)
contents returns a value. -/
theorem C01_violated :
    ∃ (ops : List (Op ℚ ℚ)) (tr : Traj ℚ ℚ),
      run (Traj.mk' [] [] .ZOH) ops = some tr ∧
      tr.time.Pairwise (· ≤ ·) ∧ tr.time.length = tr.data.length ∧ tr.time ≠ [] ∧
      (∀ q, tr.eval q = .exc) ∧
      (Traj.mk' tr.time tr.data tr.type).eval 0 = .ok 5 := by
  refine ⟨[.getIndex 0, .pushBack 5 0 true, .pushBack 6 1 true],
    ⟨[0, 1], [5, 6], .ZOH, -1⟩, ?_, by norm_num, rfl, by simp, ?_, ?_⟩
  · simp [run, step, Traj.mk', findIndex, atI]
  · intro q
    simp [Traj.eval, interpolate, findIndex, atI]
  · norm_num [Traj.eval, Traj.mk', interpolate, findIndex, atI, searchFwd, blend, front, idx]

/-! ## C02 – interpolation reproduces samples, stays between neighbours, holds at the ends -/

section C02
variable {K : Type _} [Field K] [LinearOrder K] [IsStrictOrderedRing K]
variable {D : Type _} [AddCommGroup D] [Module K D]

/-- C02: evaluation at a stored stamp returns the sample stored with it (for repeated stamps:
the last of them). -/
theorem C02_at_stamp (tr : Traj K D) (hc : 0 ≤ tr.cache) (hs : tr.time.Pairwise (· ≤ ·))
    (hlen : tr.time.length = tr.data.length) (i : Nat) (hi : i < tr.time.length)
    (hnext : ∀ h : i + 1 < tr.time.length, tr.time[i] < tr.time[i + 1]) :
    tr.eval tr.time[i] = .ok (tr.data[i]'(by omega)) := by
  have hne : tr.time ≠ [] := by intro h; simp [h] at hi
  obtain ⟨v, hv, hl, hn, hsp⟩ := eval_isValueAt tr hc hs hlen hne tr.time[i]
  rw [hv]
  congr 1
  rcases hsp with ⟨a, _⟩ | ⟨a, b⟩ | ⟨j, hj, a, b, c, d⟩
  · exact absurd (sorted_get hs (Nat.zero_le i) hi) (not_le.mpr a)
  · have : i = tr.time.length - 1 := by
      by_contra hcon
      have h1 := hnext (by omega)
      have h2 := sorted_get hs (show i + 1 ≤ tr.time.length - 1 by omega) (by omega)
      exact absurd (lt_of_lt_of_le h1 (le_trans h2 a)) (lt_irrefl _)
    rw [b]; congr 1; omega
  · have hij : i = j := by
      rcases lt_trichotomy i j with h | h | h
      · have h1 := hnext (by omega)
        have h2 := sorted_get hs (show i + 1 ≤ j by omega) (by omega)
        exact absurd (lt_of_lt_of_le h1 (le_trans h2 a)) (lt_irrefl _)
      · exact h
      · exact absurd (sorted_get hs (show j + 1 ≤ i by omega) hi) (not_le.mpr b)
    subst hij
    cases hty : tr.type with
    | ZOH => exact c hty
    | LIN => rw [d hty]; simp

/-- C02: before the first stamp the first sample is returned. -/
theorem C02_before_first (tr : Traj K D) (hc : 0 ≤ tr.cache) (hs : tr.time.Pairwise (· ≤ ·))
    (hlen : tr.time.length = tr.data.length) (hn : 0 < tr.time.length) (q : K)
    (hq : q < tr.time[0]) : tr.eval q = .ok (tr.data[0]'(by omega)) := by
  have hne : tr.time ≠ [] := by intro h; simp [h] at hn
  obtain ⟨v, hv, hl, hn, hsp⟩ := eval_isValueAt tr hc hs hlen hne q
  rw [hv]; congr 1
  rcases hsp with ⟨_, b⟩ | ⟨a, _⟩ | ⟨j, hj, a, _⟩
  · exact b
  · exact absurd (lt_of_lt_of_le hq (sorted_get hs (Nat.zero_le _) (by omega))) (not_lt.mpr a)
  · exact absurd (lt_of_lt_of_le hq (sorted_get hs (Nat.zero_le _) (by omega))) (not_lt.mpr a)

/-- C02: from the last stamp on the last sample is returned. -/
theorem C02_after_last (tr : Traj K D) (hc : 0 ≤ tr.cache) (hs : tr.time.Pairwise (· ≤ ·))
    (hlen : tr.time.length = tr.data.length) (hn : 0 < tr.time.length) (q : K)
    (hq : tr.time[tr.time.length - 1] ≤ q) :
    tr.eval q = .ok (tr.data[tr.data.length - 1]'(by omega)) := by
  have hne : tr.time ≠ [] := by intro h; simp [h] at hn
  obtain ⟨v, hv, hl, hn, hsp⟩ := eval_isValueAt tr hc hs hlen hne q
  rw [hv]; congr 1
  rcases hsp with ⟨a, _⟩ | ⟨_, b⟩ | ⟨j, hj, _, a, _⟩
  · exact absurd (le_trans (sorted_get hs (Nat.zero_le _) (by omega)) hq) (not_le.mpr a)
  · exact b
  · exact absurd (le_trans (sorted_get hs (show j + 1 ≤ tr.time.length - 1 by omega) (by omega)) hq)
      (not_le.mpr a)

/-- C02: between two neighbouring stamps, zero-order hold returns the left sample and linear
interpolation the point on the chord. -/
theorem C02_between (tr : Traj K D) (hc : 0 ≤ tr.cache) (hs : tr.time.Pairwise (· ≤ ·))
    (hlen : tr.time.length = tr.data.length) (i : Nat) (hi : i + 1 < tr.time.length) (q : K)
    (h1 : tr.time[i] ≤ q) (h2 : q < tr.time[i + 1]) :
    tr.eval q = .ok (match tr.type with
      | .ZOH => tr.data[i]
      | .LIN => tr.data[i] + ((q - tr.time[i]) / (tr.time[i + 1] - tr.time[i])) •
          (tr.data[i + 1] - tr.data[i])) := by
  have hne : tr.time ≠ [] := by intro h; simp [h] at hi
  obtain ⟨v, hv, hsp⟩ := eval_isValueAt tr hc hs hlen hne q
  rw [hv]; congr 1
  refine IsValueAt.unique hs hsp ⟨hlen, by omega, Or.inr (Or.inr ⟨i, hi, h1, h2, ?_, ?_⟩)⟩
  · intro h; rw [h]
  · intro h; rw [h]

/-- C02: for scalar data every evaluation lies between two neighbouring samples; in particular
within any interval that contains all samples. -/
theorem C02_bounded (tr : Traj K K) (hc : 0 ≤ tr.cache) (hs : tr.time.Pairwise (· ≤ ·))
    (hlen : tr.time.length = tr.data.length) (hne : tr.time ≠ []) (q lo hi : K)
    (hb : ∀ d ∈ tr.data, lo ≤ d ∧ d ≤ hi) : ∃ v, tr.eval q = .ok v ∧ lo ≤ v ∧ v ≤ hi := by
  obtain ⟨v, hv, hl, hn, hsp⟩ := eval_isValueAt tr hc hs hlen hne q
  refine ⟨v, hv, ?_⟩
  rcases hsp with ⟨_, b⟩ | ⟨_, b⟩ | ⟨j, hj, a, b, c, d⟩
  · rw [b]; exact hb _ (List.getElem_mem _)
  · rw [b]; exact hb _ (List.getElem_mem _)
  · have h0 := hb _ (List.getElem_mem (show j < tr.data.length by omega))
    have h1 := hb _ (List.getElem_mem (show j + 1 < tr.data.length by omega))
    cases hty : tr.type with
    | ZOH => rw [c hty]; exact h0
    | LIN =>
      rw [d hty]
      have hpos : 0 < tr.time[j+1] - tr.time[j] := by linarith
      set s := (q - tr.time[j]) / (tr.time[j+1] - tr.time[j]) with hsdef
      have hs0 : 0 ≤ s := div_nonneg (by linarith) hpos.le
      have hs1 : s ≤ 1 := by rw [hsdef, div_le_one hpos]; linarith
      simp only [smul_eq_mul]
      constructor
      · nlinarith [mul_nonneg hs0 (sub_nonneg.mpr h1.1), mul_nonneg (sub_nonneg.mpr hs1)
          (sub_nonneg.mpr h0.1)]
      · nlinarith [mul_nonneg hs0 (sub_nonneg.mpr h1.2), mul_nonneg (sub_nonneg.mpr hs1)
          (sub_nonneg.mpr h0.2)]

omit [IsStrictOrderedRing K] in
/-- C02: empty or inconsistent contents are reported by an exception. -/
theorem C02_inconsistent_throws (tr : Traj K D) (q : K)
    (h : tr.time = [] ∨ tr.data = [] ∨ tr.time.length ≠ tr.data.length) :
    tr.eval q = .exc := by
  simp only [Traj.eval, interpolate]
  by_cases h1 : tr.time.length = 0
  · simp [h1]
  · by_cases h2 : tr.data.length = 0
    · simp [h1, h2]
    · have h3 : tr.time.length ≠ tr.data.length := by
        rcases h with h | h | h
        · simp [h] at h1
        · simp [h] at h2
        · exact h
      simp [h1, h2, h3]

end C02

/-- Hypotheses of the C02 theorems are met by a concrete trajectory with a repeated stamp. -/
example :
    let tr : Traj ℚ ℚ := ⟨[0, 1, 1, 3], [4, 8, 2, 6], .LIN, 2⟩
    0 ≤ tr.cache ∧ tr.time.Pairwise (· ≤ ·) ∧ tr.time.length = tr.data.length ∧
      tr.eval 2 = .ok 4 ∧ tr.eval (1/2) = .ok 6 ∧ tr.eval (-1) = .ok 4 ∧ tr.eval 5 = .ok 6 := by
  refine ⟨by norm_num, by norm_num, rfl, ?_, ?_, ?_, ?_⟩ <;> decide +kernel

/-! ## C03 – stamps and samples stay paired -/

section C03
variable {K : Type _} [Field K] [LinearOrder K]
variable {D : Type _} [AddCommGroup D] [Module K D]

/-- C03 (one call): a defined, pair-wise call keeps as many stamps as samples and acts on the
sequence of (stamp, sample) pairs as specified. -/
theorem C03_step (tr : Traj K D) (op : Op K D) (hp : op.paired)
    (hlen : tr.time.length = tr.data.length) (hub : (step tr op).1 ≠ .ub) :
    (step tr op).2.time.length = (step tr op).2.data.length ∧
    (step tr op).2.time.zip (step tr op).2.data = specStep (tr.time.zip tr.data) op := by
  cases op with
  | eval q => exact ⟨hlen, rfl⟩
  | getIndex q => exact ⟨hlen, rfl⟩
  | pushBack d t abs =>
    cases abs with
    | true => simp [step, specStep, hlen, List.zip_append hlen]
    | false =>
      rcases Nat.eq_zero_or_pos tr.time.length with h0 | h0
      · exfalso
        apply hub
        have : tr.time = [] := List.length_eq_zero_iff.mp h0
        simp [step, back, this]
      · have hb := back_of_pos tr.time h0
        have hz : (tr.time.zip tr.data).getLast? =
            some (tr.time[tr.time.length - 1]'(by omega), tr.data[tr.time.length - 1]'(by omega)) := by
          rw [List.getLast?_eq_getElem?]
          have hl : (tr.time.zip tr.data).length = tr.time.length := by simp [hlen]
          rw [hl, List.getElem?_eq_getElem (by omega)]
          simp
        simp [step, specStep, hb, hz, hlen, List.zip_append hlen, add_comm]
  | popBack =>
    simp only [step, specStep] at hub ⊢
    split_ifs at hub ⊢ with h
    · exact absurd rfl hub
    · refine ⟨by simp [hlen], ?_⟩
      rw [List.dropLast_eq_take, List.dropLast_eq_take, List.dropLast_eq_take, ← hlen]
      simp [List.take_zipWith, List.zip, hlen]
  | eraseFront n dt =>
    simp only [step, specStep] at hub ⊢
    split_ifs at hub ⊢ with h
    · exact absurd rfl hub
    · refine ⟨by simp [shiftTimes, hlen], ?_⟩
      simp only [shiftTimes, List.zip, List.drop_zipWith, List.zipWith_map_left, List.map_zipWith]
      simp [sub_eq_add_neg]
  | clear => simp [step, specStep]
  | swapData ts ds => exact ⟨hp, rfl⟩
  | assign ts ds ty => exact ⟨hp, rfl⟩
  | shiftTime dt =>
    refine ⟨by simp [step, shiftTimes, hlen], ?_⟩
    simp only [step, specStep, shiftTimes, List.zip, List.zipWith_map_left, List.map_zipWith]
    simp [sub_eq_add_neg]
  | setTime ts => exact hp.elim
  | setData ds => exact hp.elim
  | setType ty => exact ⟨hlen, rfl⟩

/-- C03 (histories): along any defined history of pair-wise calls the object refines the
sequence of pairs. -/
theorem C03_history (ops : List (Op K D)) : ∀ (tr tr' : Traj K D),
    (∀ op ∈ ops, op.paired) → tr.time.length = tr.data.length → run tr ops = some tr' →
    tr'.time.length = tr'.data.length ∧
    tr'.time.zip tr'.data = ops.foldl specStep (tr.time.zip tr.data) := by
  induction ops with
  | nil =>
    intro tr tr' _ hlen hr
    simp only [run, Option.some.injEq] at hr
    subst hr
    exact ⟨hlen, rfl⟩
  | cons op ops ih =>
    intro tr tr' hp hlen hr
    have hub : (step tr op).1 ≠ .ub := by
      intro h
      simp only [run] at hr
      generalize step tr op = s at h hr
      obtain ⟨r, s2⟩ := s
      simp only at h
      subst h
      simp at hr
    have h1 := C03_step tr op (hp op (by simp)) hlen hub
    have hr2 : run (step tr op).2 ops = some tr' := by
      simp only [run] at hr
      generalize step tr op = s at hub hr
      rcases s with ⟨_ | _ | _, s2⟩
      · exact hr
      · exact hr
      · exact absurd rfl hub
    have h2 := ih (step tr op).2 tr' (fun o ho => hp o (by simp [ho])) h1.1 hr2
    refine ⟨h2.1, ?_⟩
    rw [h2.2, h1.2, List.foldl_cons]

/-- C03: a call that throws leaves stamps, samples and type unchanged. -/
theorem C03_exception_unchanged (tr : Traj K D) (op : Op K D) (h : (step tr op).1 = .exc) :
    (step tr op).2.time = tr.time ∧ (step tr op).2.data = tr.data ∧
      (step tr op).2.type = tr.type := by
  cases op with
  | eval q => exact ⟨rfl, rfl, rfl⟩
  | getIndex q => exact ⟨rfl, rfl, rfl⟩
  | pushBack d t abs =>
    simp only [step] at h ⊢
    split at h <;> simp_all
  | popBack => simp only [step] at h ⊢; split_ifs at h
  | eraseFront n dt => simp only [step] at h ⊢; split_ifs at h
  | clear => simp [step] at h
  | swapData ts ds => simp [step] at h
  | assign ts ds ty => simp [step] at h
  | shiftTime dt => simp [step] at h
  | setTime ts => simp [step] at h
  | setData ds => simp [step] at h
  | setType ty => simp [step] at h

variable [IsStrictOrderedRing K]

/-- C03 (order): a call whose new stamps respect the order keeps the stamps sorted: absolute
pushes not before the last stamp, relative pushes by a non-negative amount, sorted replacements. -/
theorem C03_sorted (tr : Traj K D) (op : Op K D) (hs : tr.time.Pairwise (· ≤ ·))
    (hub : (step tr op).1 ≠ .ub)
    (hop : match op with
      | .pushBack _ t true => ∀ s ∈ tr.time, s ≤ t
      | .pushBack _ t false => 0 ≤ t
      | .swapData ts _ => ts.Pairwise (· ≤ ·)
      | .assign ts _ _ => ts.Pairwise (· ≤ ·)
      | .setTime ts => ts.Pairwise (· ≤ ·)
      | _ => True) :
    (step tr op).2.time.Pairwise (· ≤ ·) := by
  cases op with
  | eval q => exact hs
  | getIndex q => exact hs
  | pushBack d t abs =>
    cases abs with
    | true =>
      simp only [step, if_true]
      rw [List.pairwise_append]
      refine ⟨hs, by simp, ?_⟩
      intro a ha b hb
      simp only [List.mem_singleton] at hb
      subst hb
      exact hop a ha
    | false =>
      rcases Nat.eq_zero_or_pos tr.time.length with h0 | h0
      · exfalso
        apply hub
        have : tr.time = [] := List.length_eq_zero_iff.mp h0
        simp [step, back, this]
      · have hb := back_of_pos tr.time h0
        simp only [step, hb, Bool.false_eq_true, if_false, Res.ok_bind, Res.pure_eq]
        rw [List.pairwise_append]
        refine ⟨hs, by simp, ?_⟩
        intro a ha b hb
        simp only [List.mem_singleton] at hb
        subst hb
        obtain ⟨i, hi, rfl⟩ := List.getElem_of_mem ha
        have := sorted_get hs (show i ≤ tr.time.length - 1 by omega) (by omega)
        have h0 : (0 : K) ≤ t := hop
        linarith
  | popBack =>
    simp only [step]
    split_ifs
    · exact hs
    · exact hs.sublist (List.dropLast_sublist _)
  | eraseFront n dt =>
    simp only [step]
    split_ifs
    · exact hs
    · simp only [shiftTimes, List.pairwise_map]
      exact (hs.sublist (List.drop_sublist _ _)).imp (by intro a b h; linarith)
  | clear => simp [step]
  | swapData ts ds => exact hop
  | assign ts ds ty => exact hop
  | shiftTime dt =>
    simp only [step, shiftTimes, List.pairwise_map]
    exact hs.imp (by intro a b h; linarith)
  | setTime ts => exact hop
  | setData ds => exact hs
  | setType ty => exact hs

end C03

example :
    let ops : List (Op ℚ ℚ) := [.pushBack 1 0 true, .pushBack 2 1 false, .pushBack 3 1 false,
      .eraseFront 1 1, .popBack]
    (∀ op ∈ ops, op.paired) ∧
    run (Traj.mk' [] [] .LIN) ops = some ⟨[0], [2], .LIN, 0⟩ := by
  exact ⟨by simp [Op.paired], by decide +kernel⟩

/-! ## C04 – shifting in time -/

section C04
variable {K : Type _} [Field K] [LinearOrder K] [IsStrictOrderedRing K]
variable {D : Type _} [AddCommGroup D] [Module K D]

omit [LinearOrder K] [IsStrictOrderedRing K] in
theorem atI_shift (ts : List K) (dt : K) (i : Int) :
    atI (shiftTimes ts dt) i = (atI ts i >>= fun t => .ok (t + -dt)) := by
  simp only [atI, shiftTimes]
  split_ifs
  · rw [List.getElem?_map]
    cases ts[i.toNat]? <;> simp
  · simp

theorem searchBack_shift (ts : List K) (dt q : K) (i : Nat) :
    searchBack (shiftTimes ts dt) q i = searchBack ts (q + dt) i := by
  induction i with
  | zero =>
    simp only [searchBack, atI_shift]
    cases atI ts 0 <;> simp
  | succ i ih =>
    simp only [searchBack, atI_shift]
    cases atI ts ((i + 1 : Nat) : Int) with
    | ok t =>
      simp only [Res.ok_bind, ih]
      have : (t + -dt ≤ q) ↔ (t ≤ q + dt) := by constructor <;> intro h <;> linarith
      simp [this]
    | exc => simp
    | ub => simp

theorem searchFwd_shift (dt q : K) (ts : List K) : ∀ (i index : Int),
    searchFwd q (shiftTimes ts dt) i index = searchFwd (q + dt) ts i index := by
  induction ts with
  | nil => intro i index; rfl
  | cons t rest ih =>
    intro i index
    have : (q < t + -dt) ↔ (q + dt < t) := by constructor <;> intro h <;> linarith
    have ih' := ih (i+1) i
    simp only [shiftTimes] at ih'
    simp only [shiftTimes, List.map_cons, searchFwd, this, ih']

theorem findIndex_shift (ts : List K) (dt q : K) (cache : Int) :
    findIndex (shiftTimes ts dt) q cache = findIndex ts (q + dt) cache := by
  have hl : (shiftTimes ts dt).length = ts.length := by simp [shiftTimes]
  simp only [findIndex, hl, atI_shift]
  cases atI ts (min cache ((ts.length : Int) - 1)) with
  | ok t =>
    have h1 : (q < t + -dt) ↔ (q + dt < t) := by constructor <;> intro h <;> linarith
    have h2 : (shiftTimes ts dt).drop (min cache ((ts.length : Int) - 1)).toNat =
        shiftTimes (ts.drop (min cache ((ts.length : Int) - 1)).toNat) dt := by
      simp [shiftTimes, List.map_drop]
    simp only [Res.ok_bind, h1, h2, searchBack_shift, searchFwd_shift]
  | exc => simp
  | ub => simp

theorem blend_shift (ty : IType) (ts : List K) (ds : List D) (dt q : K) (ind : Int) :
    blend ty (shiftTimes ts dt) ds q ind = blend ty ts ds (q + dt) ind := by
  have hl : (shiftTimes ts dt).length = ts.length := by simp [shiftTimes]
  have hf : front (shiftTimes ts dt) = (front ts >>= fun t => .ok (t + -dt)) := by
    cases ts <;> simp [front, idx, shiftTimes]
  simp only [blend, hl, hf, atI_shift]
  cases front ts with
  | ok t0 =>
    have h1 : (q < t0 + -dt) ↔ (q + dt < t0) := by constructor <;> intro h <;> linarith
    simp only [Res.ok_bind, h1]
    split_ifs
    · rfl
    · rfl
    · cases atI ts (ind+1) with
      | ok tn =>
        cases atI ts ind with
        | ok ti =>
          simp only [Res.ok_bind]
          have e1 : q - (tn + -dt) = q + dt - tn := by ring
          have e2 : (ti + -dt) - (tn + -dt) = ti - tn := by ring
          rw [e1, e2]
        | exc => simp
        | ub => simp
      | exc => simp
      | ub => simp
  | exc => simp
  | ub => simp

/-- C04: after `shiftTime(dt)`, evaluating at `q` gives what evaluating at `q + dt` gave before,
for every trajectory (sorted or not, consistent or not), every query and both interpolation
types, including the thrown exceptions. -/
theorem C04_shift_eval (tr : Traj K D) (dt q : K) :
    (step tr (.shiftTime dt)).2.eval q = tr.eval (q + dt) := by
  simp only [step, Traj.eval, interpolate]
  have hl : (shiftTimes tr.time dt).length = tr.time.length := by simp [shiftTimes]
  simp only [hl, findIndex_shift, blend_shift]

omit [IsStrictOrderedRing K] in
/-- C04: the samples, the number of stamps and all stamp differences (hence the duration) are
unchanged. -/
theorem C04_shift_duration (tr : Traj K D) (dt : K) :
    (step tr (.shiftTime dt)).2.data = tr.data ∧
    (step tr (.shiftTime dt)).2.time.length = tr.time.length ∧
    ∀ i j, (hi : i < tr.time.length) → (hj : j < tr.time.length) →
      ∃ (hi' : i < (step tr (.shiftTime dt)).2.time.length)
        (hj' : j < (step tr (.shiftTime dt)).2.time.length),
        (step tr (.shiftTime dt)).2.time[j] - (step tr (.shiftTime dt)).2.time[i] =
          tr.time[j] - tr.time[i] := by
  refine ⟨rfl, by simp [step, shiftTimes], ?_⟩
  intro i j hi hj
  refine ⟨by simpa [step, shiftTimes] using hi, by simpa [step, shiftTimes] using hj, ?_⟩
  simp [step, shiftTimes]

omit [IsStrictOrderedRing K] in
/-- C04: shifting by `a` and then by `b` equals shifting by `a + b`. -/
theorem C04_shift_add (tr : Traj K D) (a b : K) :
    (step (step tr (.shiftTime a)).2 (.shiftTime b)).2 = (step tr (.shiftTime (a + b))).2 := by
  simp only [step, shiftTimes, List.map_map, Function.comp_def]
  congr 1
  apply List.map_congr_left
  intro t _
  ring

end C04

example : ((step (Traj.mk' [(0 : ℚ), 2] [(0 : ℚ), 4] .LIN) (.shiftTime 1)).2).eval 0 = .ok 2 := by
  rw [C04_shift_eval]
  decide +kernel

end CT.Interp
