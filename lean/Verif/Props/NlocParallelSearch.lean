import Verif.Model.NlocParallelSearch
import Mathlib.Order.Basic
import Mathlib.Tactic.SplitIfs
import Mathlib.Data.List.Range
import Mathlib.Algebra.Order.BigOperators.Group.Finset

/-!
# C57, C58: the parallel line search

Specification: the serial search tries the step sizes `alpha_0 n_alpha^0, alpha_0 n_alpha^1, …` in
this order and takes the first that is accepted (`NLOCBackendST-impl.hpp:70-171`, C55).
-/

namespace CT.ParSearch

/-- The exponent chosen by the serial search among `max` candidates; `none`: no step. -/
def serial (accepted : ℕ → Bool) (max : ℕ) : Option ℕ := (List.range max).find? accepted

/-- The main thread is about to begin a search and every worker is outside `lineSearchWorker`. -/
structure Ready (N : ℕ) (s : Search) : Prop where
  main : s.main = .idle
  out : ∀ j < N, ∃ n, s.ws j = .out n ∧ n ≤ s.round

/-- Search number `R` is over in `s`: the main thread has been told that the best step is found. -/
def Over (R : ℕ) (s : Search) : Prop := s.round = R ∧ s.found = true

/-- What a search reports: the step size and the candidate whose data was published. -/
def choice (max : ℕ) (s : Search) : Option ℕ := if s.best ≠ max then some s.best else none

theorem serial_eq_some {accepted : ℕ → Bool} {max e : ℕ} :
    serial accepted max = some e ↔
      e < max ∧ accepted e = true ∧ ∀ i < e, accepted i = false := by
  unfold serial
  rw [List.find?_range_eq_some]
  constructor
  · rintro ⟨h1, h2, h3⟩
    exact ⟨by simpa using h2, h1, fun i hi => by simpa using h3 i hi⟩
  · rintro ⟨h1, h2, h3⟩
    exact ⟨h2, by simpa using h1, fun i hi => by simpa using h3 i hi⟩

theorem serial_eq_none {accepted : ℕ → Bool} {max : ℕ} :
    serial accepted max = none ↔ ∀ i < max, accepted i = false := by
  unfold serial
  rw [List.find?_range_eq_none]
  simp

/-! ## Invariant of one search -/

/-- `w` is at a place that can be reached in search `R` if nothing older is around. -/
def WOk (R max : ℕ) (found : Bool) : WPc → Prop
  | .out n => n ≤ R
  | .top n => n = R
  | .took n _ => n = R
  | .computed n made e => n = R ∧ made = R ∧ e < max
  | .aborted n e => n = R ∧ e < max ∧ found = true

structure Inv (acc : ℕ → ℕ → ℕ → Bool) (max N R : ℕ) (s : Search) : Prop where
  round : s.round = R
  main : s.main ≠ .idle
  ws : ∀ j < N, WOk R max s.found (s.ws j)
  noPub : s.published = none → s.best = max ∧ ∀ i < max, s.processed i = true → acc R R i = false
  pub : ∀ c, s.published = some c → c = (R, s.best) ∧ s.best < max ∧ acc R R s.best = true
  found : s.found = true → ∀ i < s.best, s.processed i = true

theorem WOk.found {R max : ℕ} {b : Bool} {w : WPc} (h : WOk R max b w) : WOk R max true w := by
  cases w <;> simp_all [WOk]

/-- The worker step keeps the invariant. -/
theorem Inv.finish {acc : ℕ → ℕ → ℕ → Bool} {max N R : ℕ} {s : Search} (h : Inv acc max N R s)
    {e : ℕ} (he : s.published = none → acc R R e = false) : Inv acc max N R (finish s e) := by
  have hnone : ∀ i, s.published = none → i < max → Function.update s.processed e true i = true →
      acc R R i = false := by
    intro i hp hi hu
    by_cases hie : i = e
    · subst hie; exact he hp
    · rw [Function.update_of_ne hie] at hu; exact (h.noPub hp).2 i hi hu
  unfold ParSearch.finish
  simp only
  split
  · next hall =>
    refine ⟨h.round, ?_, fun j hj => (h.ws j hj).found, fun hp => ⟨(h.noPub hp).1, fun i => hnone i hp⟩,
      h.pub, ?_⟩
    · have := h.main
      revert this
      cases s.main <;> simp [wakeMain]
    · intro _ i hi
      exact List.all_eq_true.1 hall i (List.mem_range.2 hi)
  · refine ⟨h.round, h.main, h.ws, fun hp => ⟨(h.noPub hp).1, fun i => hnone i hp⟩, h.pub, ?_⟩
    intro hf i hi
    simp only
    by_cases hie : i = e
    · subst hie; simp
    · rw [Function.update_of_ne hie]; exact h.found hf i hi

theorem Inv.update {acc : ℕ → ℕ → ℕ → Bool} {max N R : ℕ} {s : Search} (h : Inv acc max N R s)
    {j : ℕ} {w : WPc} (hw : WOk R max s.found w) :
    Inv acc max N R { s with ws := Function.update s.ws j w } := by
  refine ⟨h.round, h.main, ?_, h.noPub, h.pub, h.found⟩
  intro j' hj'
  by_cases e : j' = j
  · subst e; simpa using hw
  · simpa [Function.update_of_ne e] using h.ws j' hj'

theorem finish_ws (s : Search) (e : ℕ) : (finish s e).ws = s.ws := by
  unfold finish; simp only; split <;> rfl

theorem finish_round (s : Search) (e : ℕ) : (finish s e).round = s.round := by
  unfold finish; simp only; split <;> rfl

theorem finish_best (s : Search) (e : ℕ) : (finish s e).best = s.best := by
  unfold finish; simp only; split <;> rfl

theorem finish_taken (s : Search) (e : ℕ) : (finish s e).taken = s.taken := by
  unfold finish; simp only; split <;> rfl

theorem finish_published (s : Search) (e : ℕ) : (finish s e).published = s.published := by
  unfold finish; simp only; split <;> rfl

theorem finish_processed (s : Search) (e : ℕ) :
    (finish s e).processed = Function.update s.processed e true := by
  unfold finish; simp only; split <;> rfl

theorem finish_found (s : Search) (e : ℕ) :
    (finish s e).found = true ↔
      s.found = true ∨ ∀ i < s.best, Function.update s.processed e true i = true := by
  unfold finish
  simp only
  split
  · next h =>
    simp only [true_iff]
    exact Or.inr fun i hi => List.all_eq_true.1 h i (List.mem_range.2 hi)
  · next h =>
    simp only
    constructor
    · exact Or.inl
    · rintro (h' | h')
      · exact h'
      · exact absurd (List.all_eq_true.2 fun i hi => h' i (List.mem_range.1 hi)) h

/-- One worker step, spelled out. -/
theorem workerStep_cases {acc : ℕ → ℕ → ℕ → Bool} {max N R : ℕ} {s : Search} (h : Inv acc max N R s)
    {j : ℕ} (hj : j < N) {r : Search × WPc} (hr : workerStep acc max s (s.ws j) = some r) :
    (∃ n, s.ws j = .out n ∧ n ≠ R ∧ r = (s, .top R)) ∨
    (s.ws j = .top R ∧ r = ({ s with taken := s.taken + 1 }, .took R s.taken)) ∨
    (∃ e, s.ws j = .took R e ∧ (e ≥ max ∨ s.found = true) ∧ r = (s, .out R)) ∨
    (∃ e, s.ws j = .took R e ∧ e < max ∧ s.found = false ∧ r = (s, .computed R R e)) ∨
    (∃ e, s.ws j = .computed R R e ∧ e < max ∧ acc R R e = true ∧ s.found = true ∧ r = (s, .out R)) ∨
    (∃ e, s.ws j = .computed R R e ∧ e < max ∧ acc R R e = true ∧ s.found = false ∧
      r = (finish { s with best := e, published := some (R, e) } e, .top R)) ∨
    (∃ e, s.ws j = .computed R R e ∧ e < max ∧ acc R R e = false ∧ r = (finish s e, .top R)) ∨
    (∃ e, s.ws j = .aborted R e ∧ e < max ∧ s.found = true ∧ r = (finish s e, .top R)) := by
  have hw := h.ws j hj
  cases hc : s.ws j with
  | out n =>
    rw [hc] at hr
    simp only [workerStep, h.round] at hr
    split at hr
    · cases hr
    · next hne =>
      simp only [Option.some.injEq] at hr
      exact Or.inl ⟨n, rfl, fun e => hne (Or.inr e), hr.symm⟩
  | top n =>
    rw [hc] at hr hw
    simp only [workerStep, Option.some.injEq] at hr
    simp only [WOk] at hw
    subst hw
    exact Or.inr (Or.inl ⟨rfl, hr.symm⟩)
  | took n e =>
    rw [hc] at hr hw
    simp only [workerStep, Option.some.injEq, h.round] at hr
    simp only [WOk] at hw
    subst hw
    split at hr
    · next hcond => exact Or.inr (Or.inr (Or.inl ⟨e, rfl, hcond, hr.symm⟩))
    · next hcond =>
      refine Or.inr (Or.inr (Or.inr (Or.inl ⟨e, rfl, ?_, ?_, hr.symm⟩)))
      · by_contra hc; exact hcond (Or.inl (by omega))
      · cases hf : s.found
        · rfl
        · exact absurd (Or.inr hf) hcond
  | computed n made e =>
    rw [hc] at hr hw
    obtain ⟨rfl, rfl, he⟩ := hw
    simp only [workerStep] at hr
    rw [show acc s.round made e = acc made made e by rw [h.round]] at hr
    cases ha : acc made made e
    · rw [ha, if_neg (by simp), Option.some.injEq] at hr
      exact Or.inr (Or.inr (Or.inr (Or.inr (Or.inr (Or.inr (Or.inl ⟨e, rfl, he, ha, hr.symm⟩))))))
    · rw [ha, if_pos rfl] at hr
      cases hf : s.found
      · rw [if_neg (by simp [hf]), Option.some.injEq] at hr
        exact Or.inr (Or.inr (Or.inr (Or.inr (Or.inr (Or.inl ⟨e, rfl, he, ha, rfl, hr ▸ hf ▸ rfl⟩)))))
      · rw [if_pos hf, Option.some.injEq] at hr
        exact Or.inr (Or.inr (Or.inr (Or.inr (Or.inl ⟨e, rfl, he, ha, rfl, hr.symm⟩))))
  | aborted n e =>
    rw [hc] at hr hw
    obtain ⟨rfl, he, hf⟩ := hw
    simp only [workerStep, Option.some.injEq] at hr
    exact Or.inr (Or.inr (Or.inr (Or.inr (Or.inr (Or.inr (Or.inr ⟨e, rfl, he, hf, hr.symm⟩))))))

theorem Inv.publish {acc : ℕ → ℕ → ℕ → Bool} {max N R : ℕ} {s : Search} (h : Inv acc max N R s)
    {e : ℕ} (he : e < max) (ha : acc R R e = true) (hf : s.found = false) :
    Inv acc max N R { s with best := e, published := some (R, e) } := by
  refine ⟨h.round, h.main, h.ws, fun hc => (by simp at hc), ?_, fun hc => ?_⟩
  · intro c hc
    simp only [Option.some.injEq] at hc
    exact ⟨hc.symm, he, ha⟩
  · simp only at hc; rw [hf] at hc; cases hc

/-- The invariant survives every move that does not begin a new search. -/
theorem Inv.step {acc : ℕ → ℕ → ℕ → Bool} {max N R : ℕ} {s s' : Search} (h : Inv acc max N R s)
    {l : Label} (hv : l.Valid N) (hs : step acc max s l = some s') :
    Inv acc max N R s' ∨ (s.main = .read ∧ l = .main) := by
  cases l with
  | main =>
    simp only [ParSearch.step, mainStep] at hs
    cases hm : s.main with
    | idle => exact absurd hm h.main
    | check =>
      simp only [hm, Option.some.injEq] at hs
      subst hs
      exact Or.inl ⟨h.round, by simp only; split <;> simp, h.ws, h.noPub, h.pub, h.found⟩
    | window =>
      simp only [hm, Option.some.injEq] at hs
      subst hs
      exact Or.inl ⟨h.round, by simp, h.ws, h.noPub, h.pub, h.found⟩
    | asleep => simp [hm] at hs
    | read => exact Or.inr ⟨rfl, rfl⟩
  | worker j =>
    left
    simp only [ParSearch.step, Option.map_eq_some_iff] at hs
    obtain ⟨r, hr, rfl⟩ := hs
    have hw := h.ws j hv
    rcases workerStep_cases h hv hr with ⟨n, h1, h2, rfl⟩ | ⟨h1, rfl⟩ | ⟨e, h1, h2, rfl⟩ |
        ⟨e, h1, h2, h3, rfl⟩ | ⟨e, h1, h2, h3, h4, rfl⟩ | ⟨e, h1, h2, h3, h4, rfl⟩ |
        ⟨e, h1, h2, h3, rfl⟩ | ⟨e, h1, h2, h3, rfl⟩
    · exact h.update rfl
    · have h' : Inv acc max N R { s with taken := s.taken + 1 } :=
        ⟨h.round, h.main, h.ws, h.noPub, h.pub, h.found⟩
      exact h'.update rfl
    · exact h.update (le_refl R)
    · exact h.update ⟨rfl, rfl, h2⟩
    · exact h.update (le_refl R)
    · have h' := (h.publish h2 h3 h4).finish (e := e) (by simp)
      have := h'.update (j := j) (w := .top R) rfl
      rw [finish_ws] at this
      exact this
    · have h' := h.finish (e := e) (fun _ => h3)
      have := h'.update (j := j) (w := .top R) rfl
      rw [finish_ws] at this
      exact this
    · have h' := h.finish (e := e) (fun hp => (h.noPub hp).2 e h2
        (h.found h3 e (by rw [(h.noPub hp).1]; exact h2)))
      have := h'.update (j := j) (w := .top R) rfl
      rw [finish_ws] at this
      exact this
  | abort j =>
    left
    have hw := h.ws j hv
    simp only [ParSearch.step] at hs
    cases hc : s.ws j <;> rw [hc] at hs hw <;> simp only [reduceCtorEq] at hs
    split at hs
    · next hf =>
      simp only [Option.some.injEq] at hs
      subst hs
      exact h.update ⟨hw.1, hw.2.2, hf⟩
    · cases hs
  | spurious =>
    left
    simp only [ParSearch.step] at hs
    split at hs
    · simp only [Option.some.injEq] at hs
      subst hs
      exact ⟨h.round, by simp, h.ws, h.noPub, h.pub, h.found⟩
    · cases hs

/-- `s` is a state of the search that begins in `s₀`. -/
inductive During (acc : ℕ → ℕ → ℕ → Bool) (max N : ℕ) (s₀ : Search) : Search → Prop
  | begin {s : Search} : mainStep max s₀ = some s → During acc max N s₀ s
  | move {s s' : Search} (l : Label) : During acc max N s₀ s → l.Valid N →
      ¬ (s.main = .read ∧ l = .main) → step acc max s l = some s' → During acc max N s₀ s'

theorem inv_begin {acc : ℕ → ℕ → ℕ → Bool} {max N : ℕ} {s₀ s : Search} (h0 : Ready N s₀)
    (hs : mainStep max s₀ = some s) :
    Inv acc max N (s₀.round + 1) s ∧ s.found = false ∧ s.best = max ∧ s.taken = 0 ∧
      (∀ i, s.processed i = false) ∧ s.ws = s₀.ws := by
  simp only [mainStep, h0.main, Option.some.injEq] at hs
  subst hs
  refine ⟨⟨rfl, by simp, ?_, ?_, by simp, by simp⟩, rfl, rfl, rfl, fun _ => rfl, rfl⟩
  · intro j hj
    obtain ⟨n, hn, hle⟩ := h0.out j hj
    show WOk _ _ _ (s₀.ws j)
    rw [hn]
    exact Nat.le_succ_of_le hle
  · intro _; exact ⟨rfl, fun i _ hc => by simp at hc⟩

theorem inv_during {acc : ℕ → ℕ → ℕ → Bool} {max N : ℕ} {s₀ s : Search} (h0 : Ready N s₀)
    (h : During acc max N s₀ s) : Inv acc max N (s₀.round + 1) s := by
  induction h with
  | begin hs => exact (inv_begin h0 hs).1
  | move l _ hv hm hs ih =>
    rcases ih.step hv hs with h' | h'
    · exact h'
    · exact absurd h' hm

/-- C57 (what holds in every interleaving): let a search begin while no worker is inside an older one.
When it is over, it reports a step iff the serial search finds one; the step reported was accepted, is
not larger than the one the serial search takes, and the trajectories, costs and defects published are
those of exactly this step.

Missing: the step may be smaller than the one the serial search takes, `C57_violated`. -/
theorem C57_choice_partial (acc : ℕ → ℕ → ℕ → Bool) (max N : ℕ) (s₀ s : Search) (h0 : Ready N s₀)
    (h : During acc max N s₀ s) (hf : s.found = true) :
    let accepted := acc (s₀.round + 1) (s₀.round + 1)
    (choice max s = none ∧ serial accepted max = none ∧ s.published = none) ∨
    ∃ e e', choice max s = some e ∧ serial accepted max = some e' ∧ e' ≤ e ∧ accepted e = true ∧
      e < max ∧ s.published = some (s₀.round + 1, e) := by
  intro accepted
  have hi := inv_during h0 h
  cases hp : s.published with
  | none =>
    left
    obtain ⟨h1, h2⟩ := hi.noPub hp
    refine ⟨by simp [choice, h1], serial_eq_none.2 fun i hlt => h2 i hlt (hi.found hf i (h1 ▸ hlt)),
      rfl⟩
  | some c =>
    right
    obtain ⟨h1, h2, h3⟩ := hi.pub c hp
    refine ⟨s.best, ?_⟩
    cases hs : serial accepted max with
    | none =>
      have : acc _ _ _ = false := serial_eq_none.1 hs _ h2
      rw [h3] at this; cases this
    | some e' =>
      refine ⟨e', by simp [choice, Nat.ne_of_lt h2], rfl, ?_, h3, h2, by rw [h1]⟩
      by_contra hlt
      have : acc _ _ _ = false := (serial_eq_some.1 hs).2.2 s.best (by omega)
      rw [h3] at this; cases this

/-- C57: once the search is over, nothing it reports changes any more until the main thread has read
it: the answer handed to the caller is the choice made. -/
theorem C57_stable (acc : ℕ → ℕ → ℕ → Bool) (max N : ℕ) (s₀ s s' : Search) (h0 : Ready N s₀)
    (h : During acc max N s₀ s) (hf : s.found = true) (l : Label) (hv : l.Valid N)
    (hs : step acc max s l = some s') :
    s'.found = true ∧ choice max s' = choice max s ∧ s'.published = s.published ∧
      (l = .main → s.main = .read → s'.answer = choice max s) := by
  have hi := inv_during h0 h
  cases l with
  | main =>
    simp only [step, mainStep] at hs
    cases hm : s.main with
    | idle => exact absurd hm hi.main
    | asleep => simp [hm] at hs
    | _ =>
      simp only [hm, Option.some.injEq] at hs
      subst hs
      simp [choice, hf]
  | worker j =>
    simp only [step, Option.map_eq_some_iff] at hs
    obtain ⟨r, hr, rfl⟩ := hs
    rcases workerStep_cases hi hv hr with ⟨n, h1, h2, rfl⟩ | ⟨h1, rfl⟩ | ⟨e, h1, h2, rfl⟩ |
        ⟨e, h1, h2, h3, rfl⟩ | ⟨e, h1, h2, h3, h4, rfl⟩ | ⟨e, h1, h2, h3, h4, rfl⟩ |
        ⟨e, h1, h2, h3, rfl⟩ | ⟨e, h1, h2, h3, rfl⟩
    all_goals first
      | (rw [hf] at h3; cases h3; done)
      | (rw [hf] at h4; cases h4; done)
      | (simp [choice, hf]; done)
      | (refine ⟨(finish_found s e).2 (Or.inl hf), ?_, finish_published s e, by simp⟩
         simp [choice, finish_best])
  | abort j =>
    simp only [step] at hs
    split at hs
    · rw [if_pos hf, Option.some.injEq] at hs
      subst hs
      simp [choice, hf]
    · cases hs
  | spurious =>
    simp only [step] at hs
    split at hs
    · simp only [Option.some.injEq] at hs
      subst hs
      simp [choice, hf]
    · cases hs

/-! ## Candidates finished in order -/

/-- From `s` on, `e` is or will be the choice. -/
structure Decided (e : ℕ) (s : Search) : Prop where
  before : ∀ i < e, s.processed i = true
  after : s.processed e = true → s.found = true ∧ s.best = e

theorem Decided.step {acc : ℕ → ℕ → ℕ → Bool} {max N R e : ℕ} {s s' : Search} (hi : Inv acc max N R s)
    (he : serial (acc R R) max = some e) (h : Decided e s) {l : Label} (hv : l.Valid N)
    (hm : ¬ (s.main = .read ∧ l = .main)) (hs : ParSearch.step acc max s l = some s') : Decided e s' := by
  obtain ⟨hlt, hae, hmin⟩ := serial_eq_some.1 he
  cases l with
  | main =>
    simp only [ParSearch.step, mainStep] at hs
    cases hm' : s.main with
    | idle => exact absurd hm' hi.main
    | asleep => simp [hm'] at hs
    | read => exact absurd ⟨hm', rfl⟩ hm
    | _ =>
      simp only [hm', Option.some.injEq] at hs
      subst hs
      exact ⟨h.before, h.after⟩
  | worker j =>
    simp only [ParSearch.step, Option.map_eq_some_iff] at hs
    obtain ⟨r, hr, rfl⟩ := hs
    rcases workerStep_cases hi hv hr with ⟨n, h1, h2, rfl⟩ | ⟨h1, rfl⟩ | ⟨k, h1, h2, rfl⟩ |
        ⟨k, h1, h2, h3, rfl⟩ | ⟨k, h1, h2, h3, h4, rfl⟩ | ⟨k, h1, h2, h3, h4, rfl⟩ |
        ⟨k, h1, h2, h3, rfl⟩ | ⟨k, h1, h2, h3, rfl⟩
    · exact ⟨h.before, h.after⟩
    · exact ⟨h.before, h.after⟩
    · exact ⟨h.before, h.after⟩
    · exact ⟨h.before, h.after⟩
    · exact ⟨h.before, h.after⟩
    · -- an accepted candidate is published
      constructor
      · intro i hik
        simp only [finish_processed]
        by_cases hc : i = k
        · subst hc; simp
        · rw [Function.update_of_ne hc]; exact h.before i hik
      · simp only [finish_processed, finish_found, finish_best]
        intro hp
        by_cases hc : k = e
        · subst hc
          refine ⟨Or.inr fun i hik => ?_, rfl⟩
          by_cases hc : i = k
          · subst hc; simp
          · rw [Function.update_of_ne hc]; exact h.before i hik
        · rw [Function.update_of_ne (Ne.symm hc)] at hp
          have := (h.after hp).1
          rw [h4] at this; cases this
    · -- a rejected candidate
      have hc : k ≠ e := by rintro rfl; rw [hae] at h3; cases h3
      constructor
      · intro i hik
        simp only [finish_processed]
        by_cases hc : i = k
        · subst hc; simp
        · rw [Function.update_of_ne hc]; exact h.before i hik
      · simp only [finish_processed, finish_found, finish_best]
        intro hp
        rw [Function.update_of_ne (Ne.symm hc)] at hp
        exact ⟨Or.inl (h.after hp).1, (h.after hp).2⟩
    · -- an abandoned candidate
      constructor
      · intro i hik
        simp only [finish_processed]
        by_cases hc : i = k
        · subst hc; simp
        · rw [Function.update_of_ne hc]; exact h.before i hik
      · simp only [finish_processed, finish_found, finish_best]
        intro hp
        refine ⟨Or.inl h3, ?_⟩
        by_contra hne
        -- the best step is accepted, so it is not below `e`, so `e` was processed
        cases hpub : s.published with
        | none =>
          have h5 := (hi.noPub hpub)
          have := h5.2 e hlt (hi.found h3 e (by rw [h5.1]; exact hlt))
          rw [hae] at this; cases this
        | some c =>
          obtain ⟨-, -, hb⟩ := hi.pub c hpub
          have hge : e < s.best := by
            by_contra hc
            have := hmin s.best (by omega)
            rw [hb] at this; cases this
          exact hne (h.after (hi.found h3 e hge)).2
  | abort j =>
    simp only [ParSearch.step] at hs
    split at hs
    · split at hs
      · simp only [Option.some.injEq] at hs
        subst hs
        exact ⟨h.before, h.after⟩
      · cases hs
    · cases hs
  | spurious =>
    simp only [ParSearch.step] at hs
    split at hs
    · simp only [Option.some.injEq] at hs
      subst hs
      exact ⟨h.before, h.after⟩
    · cases hs

theorem Decided.choice {acc : ℕ → ℕ → ℕ → Bool} {max N R e : ℕ} {s : Search} (hi : Inv acc max N R s)
    (he : serial (acc R R) max = some e) (h : Decided e s) (hf : s.found = true) :
    choice max s = some e := by
  obtain ⟨hlt, hae, hmin⟩ := serial_eq_some.1 he
  have hb : s.best = e := by
    cases hpub : s.published with
    | none =>
      have h5 := (hi.noPub hpub)
      have := h5.2 e hlt (hi.found hf e (by rw [h5.1]; exact hlt))
      rw [hae] at this; cases this
    | some c =>
      obtain ⟨-, -, hb⟩ := hi.pub c hpub
      by_contra hne
      have hge : e < s.best := by
        by_contra hc
        have := hmin s.best (by omega)
        rw [hb] at this; cases this
      exact hne (h.after (hi.found hf e hge)).2
  simp [ParSearch.choice, hb, Nat.ne_of_lt hlt]

/-- Later states of the same search. -/
inductive Later (acc : ℕ → ℕ → ℕ → Bool) (max N : ℕ) (s : Search) : Search → Prop
  | refl : Later acc max N s s
  | move {t t' : Search} (l : Label) : Later acc max N s t → l.Valid N →
      ¬ (t.main = .read ∧ l = .main) → step acc max t l = some t' → Later acc max N s t'

/-- C57: if at some moment of the search all candidates before the serial choice `e` are evaluated and `e`
itself is not, then the parallel search chooses `e`, whatever the schedule does afterwards. -/
theorem C57_in_order_partial (acc : ℕ → ℕ → ℕ → Bool) (max N : ℕ) (s₀ s s' : Search)
    (h0 : Ready N s₀) (h : During acc max N s₀ s) (e : ℕ)
    (he : serial (acc (s₀.round + 1) (s₀.round + 1)) max = some e)
    (hb : ∀ i < e, s.processed i = true) (hn : s.processed e = false)
    (hl : Later acc max N s s') (hf : s'.found = true) : choice max s' = some e := by
  have key : ∀ t, Later acc max N s t → Inv acc max N (s₀.round + 1) t ∧ Decided e t := by
    intro t ht
    induction ht with
    | refl => exact ⟨inv_during h0 h, hb, fun hc => by rw [hn] at hc; cases hc⟩
    | move l _ hv hm hs ih =>
      refine ⟨?_, ih.2.step ih.1 he hv hm hs⟩
      rcases ih.1.step hv hs with h' | h'
      · exact h'
      · exact absurd h' hm
  exact (key s' hl).2.choice (key s' hl).1 he hf

/-! ## Progress -/

/-- The exponent a worker has taken and not given back. -/
def held : WPc → Option ℕ
  | .took _ e | .computed _ _ e => some e
  | _ => none

structure Cov (acc : ℕ → ℕ → ℕ → Bool) (max N R : ℕ) (s : Search) : Prop where
  below : ∀ j < N, ∀ i, held (s.ws j) = some i → i < s.taken
  cover : s.found = false → ∀ i < s.taken, i < max →
    s.processed i = true ∨ ∃ j < N, held (s.ws j) = some i
  left : s.found = false → 0 < max → ∃ i < s.best, s.processed i = false
  out : s.found = false → ∀ j < N, s.ws j = .out R → max < s.taken

theorem Cov.update {acc : ℕ → ℕ → ℕ → Bool} {max N R : ℕ} {s : Search} (h : Cov acc max N R s)
    {j : ℕ} (w : WPc) (t : ℕ) (ht : s.taken ≤ t) (hb : ∀ i, held w = some i → i < t)
    (hc : s.found = false → ∀ i < t, i < max →
      (s.taken ≤ i ∨ held (s.ws j) = some i) → s.processed i = true ∨ (j < N ∧ held w = some i))
    (ho : s.found = false → w = .out R → max < t) :
    Cov acc max N R { s with taken := t, ws := Function.update s.ws j w } := by
  refine ⟨?_, ?_, h.left, ?_⟩
  · intro j' hj' i hi
    by_cases e : j' = j
    · subst e; simp only [Function.update_self] at hi; exact hb i hi
    · simp only [Function.update_of_ne e] at hi; exact lt_of_lt_of_le (h.below j' hj' i hi) ht
  · intro hf i hi hm
    have hcase : s.processed i = true ∨ (∃ j' < N, j' ≠ j ∧ held (s.ws j') = some i) ∨
        (s.taken ≤ i ∨ held (s.ws j) = some i) := by
      by_cases hlt : i < s.taken
      · rcases h.cover hf i hlt hm with h1 | ⟨j', hj', h1⟩
        · exact Or.inl h1
        · by_cases e : j' = j
          · subst e; exact Or.inr (Or.inr (Or.inr h1))
          · exact Or.inr (Or.inl ⟨j', hj', e, h1⟩)
      · exact Or.inr (Or.inr (Or.inl (by omega)))
    rcases hcase with h1 | ⟨j', hj', e, h1⟩ | h1
    · exact Or.inl h1
    · exact Or.inr ⟨j', hj', by simpa only [Function.update_of_ne e] using h1⟩
    · rcases hc hf i hi hm h1 with h2 | ⟨hj, h2⟩
      · exact Or.inl h2
      · exact Or.inr ⟨j, hj, by simpa only [Function.update_self] using h2⟩
  · intro hf j' hj' hw
    by_cases e : j' = j
    · subst e; simp only [Function.update_self] at hw; exact ho hf hw
    · simp only [Function.update_of_ne e] at hw
      exact lt_of_lt_of_le (h.out hf j' hj' hw) ht

theorem Cov.finish {acc : ℕ → ℕ → ℕ → Bool} {max N R : ℕ} {s : Search} (h : Cov acc max N R s)
    {j : ℕ} (hj : j < N) {e : ℕ}
    (hheld : ∀ i, held (s.ws j) = some i → i = e) :
    Cov acc max N R { finish s e with ws := Function.update s.ws j (.top R) } := by
  have hfalse : (ParSearch.finish s e).found = false → s.found = false ∧
      ∃ i < s.best, Function.update s.processed e true i = false := by
    intro hf
    have hn : ¬ ((ParSearch.finish s e).found = true) := by rw [hf]; simp
    rw [finish_found] at hn
    push Not at hn
    refine ⟨by simpa using hn.1, ?_⟩
    obtain ⟨i, hi, hx⟩ := hn.2
    exact ⟨i, hi, by simpa using hx⟩
  refine ⟨?_, ?_, ?_, ?_⟩
  · intro j' hj' i hi
    simp only [finish_taken]
    by_cases e' : j' = j
    · subst e'; simp only [Function.update_self] at hi; cases hi
    · simp only [Function.update_of_ne e'] at hi; exact h.below j' hj' i hi
  · intro hf i hi hm
    simp only [finish_taken] at hi
    simp only [finish_processed]
    by_cases hie : i = e
    · subst hie; simp
    · rw [Function.update_of_ne hie]
      rcases h.cover (hfalse hf).1 i hi hm with h1 | ⟨j', hj', h1⟩
      · exact Or.inl h1
      · have e' : j' ≠ j := by rintro rfl; exact hie (hheld i h1)
        exact Or.inr ⟨j', hj', by simpa only [Function.update_of_ne e'] using h1⟩
  · intro hf _
    simp only [finish_processed, finish_best]
    exact (hfalse hf).2
  · intro hf j' hj' hw
    simp only [finish_taken]
    by_cases e' : j' = j
    · subst e'; simp only [Function.update_self] at hw; cases hw
    · simp only [Function.update_of_ne e'] at hw; exact h.out (hfalse hf).1 j' hj' hw

theorem Cov.step {acc : ℕ → ℕ → ℕ → Bool} {max N R : ℕ} {s s' : Search} (hi : Inv acc max N R s)
    (h : Cov acc max N R s) {l : Label} (hv : l.Valid N)
    (hm : ¬ (s.main = .read ∧ l = .main)) (hs : ParSearch.step acc max s l = some s') :
    Cov acc max N R s' := by
  cases l with
  | main =>
    simp only [ParSearch.step, mainStep] at hs
    cases hm' : s.main with
    | idle => exact absurd hm' hi.main
    | asleep => simp [hm'] at hs
    | read => exact absurd ⟨hm', rfl⟩ hm
    | _ =>
      simp only [hm', Option.some.injEq] at hs
      subst hs
      exact ⟨h.below, h.cover, h.left, h.out⟩
  | worker j =>
    simp only [ParSearch.step, Option.map_eq_some_iff] at hs
    obtain ⟨r, hr, rfl⟩ := hs
    rcases workerStep_cases hi hv hr with ⟨n, h1, h2, rfl⟩ | ⟨h1, rfl⟩ | ⟨k, h1, h2, rfl⟩ |
        ⟨k, h1, h2, h3, rfl⟩ | ⟨k, h1, h2, h3, h4, rfl⟩ | ⟨k, h1, h2, h3, h4, rfl⟩ |
        ⟨k, h1, h2, h3, rfl⟩ | ⟨k, h1, h2, h3, rfl⟩
    · refine h.update _ s.taken le_rfl (by simp [held]) ?_ (by simp)
      intro _ i hi' _ hc
      rw [h1] at hc
      rcases hc with hc | hc
      · omega
      · cases hc
    · refine h.update _ (s.taken + 1) (Nat.le_succ _) ?_ ?_ (by simp)
      · intro i hi'; simp only [held, Option.some.injEq] at hi'; omega
      · intro _ i hi' _ hc
        rw [h1] at hc
        rcases hc with hc | hc
        · exact Or.inr ⟨hv, by simp only [held, Option.some.injEq]; omega⟩
        · cases hc
    · refine h.update _ s.taken le_rfl (by simp [held]) ?_ ?_
      · intro hf i hi' hmax hc
        rcases hc with hc | hc
        · omega
        · rw [h1] at hc
          simp only [held, Option.some.injEq] at hc
          rw [hf] at h2
          simp only [Bool.false_eq_true, or_false] at h2
          omega
      · intro hf _
        rw [hf] at h2
        simp only [Bool.false_eq_true, or_false] at h2
        have := h.below j hv k (by rw [h1]; rfl)
        omega
    · refine h.update _ s.taken le_rfl ?_ ?_ (by simp)
      · intro i hi'; exact h.below j hv i (by rw [h1]; exact hi')
      · intro hf i hi' _ hc
        rcases hc with hc | hc
        · omega
        · rw [h1] at hc; exact Or.inr ⟨hv, hc⟩
    · refine h.update _ s.taken le_rfl (by simp [held]) ?_ ?_
      · intro hf; rw [h4] at hf; cases hf
      · intro hf; rw [h4] at hf; cases hf
    · -- the new best may have all its predecessors processed, then the search is over
      have hfalse : (ParSearch.finish { s with best := k, published := some (R, k) } k).found = false →
          ∃ i < k, Function.update s.processed k true i = false := by
        intro hf
        have hn : ¬ ((ParSearch.finish { s with best := k, published := some (R, k) } k).found = true) := by
          rw [hf]; simp
        rw [finish_found] at hn
        push Not at hn
        obtain ⟨i, hi', hx⟩ := hn.2
        exact ⟨i, hi', by simpa using hx⟩
      refine ⟨?_, ?_, ?_, ?_⟩
      · intro j' hj' i hi'
        simp only [finish_taken]
        by_cases e' : j' = j
        · subst e'; simp only [Function.update_self] at hi'; cases hi'
        · simp only [Function.update_of_ne e'] at hi'; exact h.below j' hj' i hi'
      · intro hf i hi' hmax
        simp only [finish_taken] at hi'
        simp only [finish_processed]
        by_cases hie : i = k
        · subst hie; simp
        · rw [Function.update_of_ne hie]
          rcases h.cover h4 i hi' hmax with h5 | ⟨j', hj', h5⟩
          · exact Or.inl h5
          · have e' : j' ≠ j := by
              rintro rfl
              rw [h1] at h5
              simp only [held, Option.some.injEq] at h5
              exact hie h5.symm
            exact Or.inr ⟨j', hj', by simpa only [Function.update_of_ne e'] using h5⟩
      · intro hf _
        simp only [finish_processed, finish_best]
        exact hfalse hf
      · intro hf j' hj' hw
        simp only [finish_taken]
        by_cases e' : j' = j
        · subst e'; simp only [Function.update_self] at hw; cases hw
        · simp only [Function.update_of_ne e'] at hw; exact h.out h4 j' hj' hw
    · refine h.finish hv ?_
      intro i hc; rw [h1] at hc; simp only [held, Option.some.injEq] at hc; exact hc.symm
    · refine h.finish hv ?_
      intro i hc; rw [h1] at hc; cases hc
  | abort j =>
    simp only [ParSearch.step] at hs
    split at hs
    · next n made e hc =>
      split at hs
      · next hf =>
        simp only [Option.some.injEq] at hs
        subst hs
        refine h.update _ s.taken le_rfl (by simp [held]) ?_ ?_
        · intro hf'; rw [hf] at hf'; cases hf'
        · intro hf'; rw [hf] at hf'; cases hf'
      · cases hs
    · cases hs
  | spurious =>
    simp only [ParSearch.step] at hs
    split at hs
    · simp only [Option.some.injEq] at hs
      subst hs
      exact ⟨h.below, h.cover, h.left, h.out⟩
    · cases hs

theorem cov_during {acc : ℕ → ℕ → ℕ → Bool} {max N : ℕ} {s₀ s : Search} (h0 : Ready N s₀)
    (h : During acc max N s₀ s) : Cov acc max N (s₀.round + 1) s := by
  induction h with
  | begin hs =>
    obtain ⟨-, h1, h2, h3, h4, h5⟩ := inv_begin (acc := acc) h0 hs
    refine ⟨?_, ?_, ?_, ?_⟩
    · intro j hj i hi
      obtain ⟨n, hn, -⟩ := h0.out j hj
      rw [h5, hn] at hi; cases hi
    · intro _ i hi; omega
    · intro _ hm; exact ⟨0, by omega, h4 0⟩
    · intro _ j hj hw
      obtain ⟨n, hn, hle⟩ := h0.out j hj
      rw [h5, hn] at hw
      cases hw
      omega
  | move l hd hv hm hs ih => exact ih.step (inv_during h0 hd) hv hm hs

/-- C57: with a single worker the parallel search chooses what the serial one chooses. -/
theorem C57_single_worker (acc : ℕ → ℕ → ℕ → Bool) (max : ℕ) (s₀ s : Search) (h0 : Ready 1 s₀)
    (h : During acc max 1 s₀ s) (hf : s.found = true) :
    choice max s = serial (acc (s₀.round + 1) (s₀.round + 1)) max := by
  rcases C57_choice_partial acc max 1 s₀ s h0 h hf with ⟨h1, h2, -⟩ | ⟨e, e', h1, h2, -, h4, h5, -⟩
  · rw [h1, h2]
  rw [h2]
  -- `e'` is processed only after everything below it
  have key : ∀ t, During acc max 1 s₀ t →
      (t.processed e' = true → t.found = true ∧ t.best = e') := by
    intro t ht
    induction ht with
    | begin hs =>
      obtain ⟨-, -, -, -, h6, -⟩ := inv_begin (acc := acc) h0 hs
      intro hc; rw [h6] at hc; cases hc
    | @move t t' l hd hv hm hs ih =>
      have hi := inv_during h0 hd
      have hcov := cov_during h0 hd
      have hi' := inv_during h0 (hd.move l hv hm hs)
      intro hp
      by_cases hpt : t.processed e' = true
      · obtain ⟨hf', hb'⟩ := ih hpt
        obtain ⟨q1, q2, -⟩ := C57_stable acc max 1 s₀ t t' h0 hd hf' l hv hs
        refine ⟨q1, ?_⟩
        obtain ⟨hlt, -⟩ := serial_eq_some.1 h2
        simp only [choice, hb'] at q2
        rw [if_pos (Nat.ne_of_lt hlt)] at q2
        split at q2
        · exact Option.some.inj q2
        · cases q2
      · -- processed in this very step
        have hstart : ∀ i < e', t.found = false → held (t.ws 0) = some e' → t.processed i = true := by
          intro i hlt hft hh
          have := hcov.below 0 (by omega) e' hh
          obtain ⟨hmax, -⟩ := serial_eq_some.1 h2
          rcases hcov.cover hft i (by omega) (by omega) with h6 | ⟨j', hj', h6⟩
          · exact h6
          · have : j' = 0 := by omega
            subst this
            rw [hh] at h6
            simp only [Option.some.injEq] at h6
            omega
        cases l with
        | main =>
          simp only [step, mainStep] at hs
          cases hm' : t.main with
          | idle => exact absurd hm' hi.main
          | asleep => simp [hm'] at hs
          | read => exact absurd ⟨hm', rfl⟩ hm
          | _ =>
            simp only [hm', Option.some.injEq] at hs
            subst hs
            exact absurd hp hpt
        | worker j =>
          have hj : j = 0 := by simp only [Label.Valid] at hv; omega
          subst hj
          simp only [step, Option.map_eq_some_iff] at hs
          obtain ⟨r, hr, rfl⟩ := hs
          obtain ⟨hmax, hae, hmin⟩ := serial_eq_some.1 h2
          rcases workerStep_cases hi hv hr with ⟨n, g1, g2, rfl⟩ | ⟨g1, rfl⟩ | ⟨k, g1, g2, rfl⟩ |
            ⟨k, g1, g2, g3, rfl⟩ | ⟨k, g1, g2, g3, g4, rfl⟩ | ⟨k, g1, g2, g3, g4, rfl⟩ |
            ⟨k, g1, g2, g3, rfl⟩ | ⟨k, g1, g2, g3, rfl⟩
          · exact absurd hp hpt
          · exact absurd hp hpt
          · exact absurd hp hpt
          · exact absurd hp hpt
          · exact absurd hp hpt
          · simp only [finish_processed] at hp
            by_cases hk : k = e'
            · subst hk
              refine ⟨(finish_found _ _).2 (Or.inr ?_), by simp only [finish_best]⟩
              intro i hik
              by_cases hc : i = k
              · subst hc; simp
              · rw [Function.update_of_ne hc]; exact hstart i hik g4 (by rw [g1]; rfl)
            · rw [Function.update_of_ne (Ne.symm hk)] at hp; exact absurd hp hpt
          · simp only [finish_processed] at hp
            have hk : k ≠ e' := by rintro rfl; rw [hae] at g3; cases g3
            rw [Function.update_of_ne (Ne.symm hk)] at hp; exact absurd hp hpt
          · -- abandoned: the search was over, so `e'` is the best or processed
            have hb : t.best ≠ e' → t.processed e' = true := by
              intro hne
              cases hpub : t.published with
              | none =>
                have h5 := (hi.noPub hpub)
                exact hi.found g3 e' (by rw [h5.1]; exact hmax)
              | some c =>
                obtain ⟨-, -, hb⟩ := hi.pub c hpub
                refine hi.found g3 e' ?_
                by_contra hc
                have : acc _ _ _ = false := hmin t.best (by omega)
                rw [hb] at this; cases this
            refine ⟨(finish_found _ _).2 (Or.inl g3), ?_⟩
            simp only [finish_best]
            by_contra hne
            exact hpt (hb hne)
        | abort j =>
          simp only [step] at hs
          split at hs
          · split at hs
            · simp only [Option.some.injEq] at hs
              subst hs
              exact absurd hp hpt
            · cases hs
          · cases hs
        | spurious =>
          simp only [step] at hs
          split at hs
          · simp only [Option.some.injEq] at hs
            subst hs
            exact absurd hp hpt
          · cases hs
  have hi := inv_during h0 h
  obtain ⟨hmax, hae, hmin⟩ := serial_eq_some.1 h2
  have hbe : s.best = e := by
    simp only [choice] at h1
    split at h1
    · exact Option.some.inj h1
    · cases h1
  by_cases hee : e = e'
  · rw [h1, hee]
  · have hlt : e' < s.best := by
      rw [hbe]
      by_contra hc
      have : acc _ _ _ = false := hmin e (by omega)
      rw [h4] at this; cases this
    have := (key s h (hi.found hf e' hlt)).2
    omega

/-- C57: with at least one step size to try, the search is over as soon as all workers that took part
have returned and one did take part. -/
theorem C57_decided (acc : ℕ → ℕ → ℕ → Bool) (max N : ℕ) (hmax : 1 ≤ max) (s₀ s : Search)
    (h0 : Ready N s₀) (h : During acc max N s₀ s)
    (hout : ∀ j < N, ∃ n, s.ws j = .out n) (hone : ∃ j < N, s.ws j = .out (s₀.round + 1)) :
    s.found = true := by
  have hi := inv_during h0 h
  have hc := cov_during h0 h
  by_contra hf
  have hf : s.found = false := by simpa using hf
  obtain ⟨j, hj, hw⟩ := hone
  have h1 := hc.out hf j hj hw
  obtain ⟨i, hib, hip⟩ := hc.left hf (by omega)
  have hbm : s.best ≤ max := by
    cases hp : s.published with
    | none => exact le_of_eq (hi.noPub hp).1
    | some c => exact le_of_lt (hi.pub c hp).2.1
  rcases hc.cover hf i (by omega) (by omega) with h2 | ⟨j', hj', h2⟩
  · rw [h2] at hip; cases hip
  · obtain ⟨n, hn⟩ := hout j' hj'
    rw [hn] at h2; cases h2

/-! ## What goes wrong -/

theorem run_reach {acc : ℕ → ℕ → ℕ → Bool} {max N : ℕ} {s₀ s s' : Search}
    (h : Reach acc max N s₀ s) (ls : List Label) (hv : ∀ l ∈ ls, l.Valid N)
    (hr : run acc max s ls = some s') : Reach acc max N s₀ s' := by
  induction ls generalizing s with
  | nil => cases hr; exact h
  | cons l ls ih =>
    simp only [run, Option.bind_eq_some_iff] at hr
    obtain ⟨t, ht, hr⟩ := hr
    exact ih (h.move l (hv l (by simp)) ht) (fun l hl => hv l (by simp [hl])) hr

theorem run_exists {acc : ℕ → ℕ → ℕ → Bool} {max N : ℕ} {s₀ : Search} (ls : List Label)
    (hv : ∀ l ∈ ls, l.Valid N) (P : Search → Prop) [DecidablePred P]
    (h : (match run acc max s₀ ls with | some s => decide (P s) | none => false) = true) :
    ∃ s, Reach acc max N s₀ s ∧ P s := by
  cases hr : run acc max s₀ ls with
  | none => rw [hr] at h; cases h
  | some s => rw [hr] at h; exact ⟨s, run_reach .refl ls hv hr, by simpa using h⟩

/-- Acceptance in `slowSchedule`: the steps with exponents 1 and 2 are accepted, 0 is not. -/
def acc12 (_ _ e : ℕ) : Bool := e = 1 || e = 2

/-- Worker 0 computes candidate 0 and is slow; meanwhile worker 1 evaluates 1 and 2. -/
def slowSchedule : List Label :=
  [.main, .main, .main, .worker 0, .worker 0, .worker 0,
    .worker 1, .worker 1, .worker 1, .worker 1,
    .worker 1, .worker 1, .worker 1, .worker 0, .main, .main]

/-- C57 fails: with two workers the search may return a smaller step than the serial search.  The
candidate with exponent 2 overwrites the accepted candidate with exponent 1 while candidate 0 is still
being evaluated (`NLOCBackendMP-impl.hpp:512-545` does not compare `alphaExp` with
`alphaExpBest_`). -/
theorem C57_violated :
    serial (acc12 1 1) 3 = some 1 ∧
    ∃ s, Reach acc12 3 2 start s ∧ s.round = 1 ∧ s.main = .idle ∧ s.answer = some 2 := by
  refine ⟨by decide, ?_⟩
  obtain ⟨s, h1, h2⟩ := run_exists (acc := acc12) (max := 3) (N := 2) (s₀ := start) slowSchedule
    (by decide) (fun s => s.round = 1 ∧ s.main = .idle ∧ s.answer = some 2) (by decide +kernel)
  exact ⟨s, h1, h2⟩

/-- In the first search candidate 0 is accepted; in the second, the candidate 1 computed for the
first search is accepted and no candidate of the second search is. -/
def accStale (now made e : ℕ) : Bool := (now = 1 && e = 0) || (now = 2 && made = 1 && e = 1)

def staleSchedule : List Label :=
  [.main, .worker 0, .worker 0, .worker 0, .worker 1, .worker 1, .worker 1,
    .worker 0, .main, .main, .main,
    .worker 1,
    .worker 0, .worker 0, .worker 0, .worker 0, .worker 0, .worker 0,
    .main, .main]

/-- C57 fails across searches: nothing makes the main thread wait for workers that still compute a
candidate of the finished search; such a candidate, computed from trajectories of the previous
iteration, can be published as the result of the next search, in which no candidate is accepted. -/
theorem C57_violated_stale :
    serial (accStale 2 2) 2 = none ∧
    ∃ s, Reach accStale 2 2 start s ∧ s.round = 2 ∧ s.main = .idle ∧ s.answer = some 1 ∧
      s.published = some (1, 1) := by
  refine ⟨by decide, ?_⟩
  obtain ⟨s, h1, h2⟩ := run_exists (acc := accStale) (max := 2) (N := 2) (s₀ := start) staleSchedule
    (by decide) (fun s => s.round = 2 ∧ s.main = .idle ∧ s.answer = some 1 ∧
      s.published = some (1, 1)) (by decide +kernel)
  exact ⟨s, h1, h2⟩

/-- The main thread waits and nobody can move without a spurious wake-up. -/
def Deadlock (acc : ℕ → ℕ → ℕ → Bool) (max N : ℕ) (s : Search) : Prop :=
  s.main = .asleep ∧ ∀ j < N, step acc max s (.worker j) = none ∧ step acc max s (.abort j) = none

instance (acc : ℕ → ℕ → ℕ → Bool) (max : ℕ) (s : Search) (l : Label) :
    Decidable (step acc max s l = none) :=
  match h : step acc max s l with
  | none => .isTrue rfl
  | some _ => .isFalse (by simp)

/-- C58 fails for the line search: the notification comes between the main thread's evaluation of its
predicate and its going to sleep; the search is over and the main thread sleeps forever. -/
theorem C58_violated_search :
    ∃ s, Reach acc12 3 1 start s ∧ s.found = true ∧ Deadlock acc12 3 1 s := by
  obtain ⟨s, h1, h2⟩ := run_exists (acc := acc12) (max := 3) (N := 1) (s₀ := start)
    [.main, .main, .worker 0, .worker 0, .worker 0, .worker 0, .worker 0, .worker 0, .worker 0,
      .worker 0, .worker 0, .main]
    (by decide) (fun s => s.found = true ∧ s.main = .asleep ∧
      step acc12 3 s (.worker 0) = none ∧ step acc12 3 s (.abort 0) = none) (by decide +kernel)
  refine ⟨s, h1, h2.1, h2.2.1, ?_⟩
  intro j hj
  have : j = 0 := by omega
  subst this
  exact h2.2.2

/-- C58 fails for `maxIterations = 0`: in every execution with any number of workers, the main thread
never leaves the wait of its first search. -/
theorem C58_violated_search_zero (acc : ℕ → ℕ → ℕ → Bool) (N : ℕ) (s : Search)
    (h : Reach acc 0 N start s) :
    s = start ∨ (s.round = 1 ∧ s.found = false ∧
      (s.main = .check ∨ s.main = .window ∨ s.main = .asleep)) := by
  have key : s = start ∨ (s.round = 1 ∧ s.found = false ∧
      (s.main = .check ∨ s.main = .window ∨ s.main = .asleep) ∧
      ∀ j < N, ∃ n, s.ws j = .out n ∨ s.ws j = .top n ∨ ∃ e, s.ws j = .took n e) := by
    induction h with
    | refl => exact Or.inl rfl
    | @move s s' l _ hv hs ih =>
      right
      rcases ih with rfl | ⟨h1, h2, h3, h4⟩
      · cases l with
        | main =>
          simp only [step, mainStep, start, Option.some.injEq] at hs
          subst hs
          exact ⟨rfl, rfl, Or.inl rfl, fun j _ => ⟨0, Or.inl rfl⟩⟩
        | worker j => simp [step, start, workerStep] at hs
        | abort j => simp [step, start] at hs
        | spurious => simp [step, start] at hs
      · have upd : ∀ (j : ℕ) (w : WPc) (t : ℕ), (∃ n, w = .out n ∨ w = .top n ∨ ∃ e, w = .took n e) →
            s' = { s with taken := t, ws := Function.update s.ws j w } →
            (s'.round = 1 ∧ s'.found = false ∧
              (s'.main = .check ∨ s'.main = .window ∨ s'.main = .asleep) ∧
              ∀ j < N, ∃ n, s'.ws j = .out n ∨ s'.ws j = .top n ∨ ∃ e, s'.ws j = .took n e) := by
          rintro j w t hw rfl
          refine ⟨h1, h2, h3, fun j' hj' => ?_⟩
          by_cases e : j' = j
          · subst e; simpa only [Function.update_self] using hw
          · simpa only [Function.update_of_ne e] using h4 j' hj'
        cases l with
        | main =>
          simp only [step, mainStep] at hs
          rcases h3 with h3 | h3 | h3 <;> simp only [h3, Option.some.injEq, reduceCtorEq] at hs
          · subst hs; exact ⟨h1, h2, by simp [h2], h4⟩
          · subst hs; exact ⟨h1, h2, by simp, h4⟩
        | worker j =>
          simp only [step, Option.map_eq_some_iff] at hs
          obtain ⟨r, hr, hs⟩ := hs
          obtain ⟨n, hw | hw | ⟨e, hw⟩⟩ := h4 j hv
          · rw [hw] at hr
            simp only [workerStep] at hr
            split at hr
            · cases hr
            · simp only [Option.some.injEq] at hr; subst hr
              exact upd j _ s.taken ⟨s.round, by simp⟩ hs.symm
          · rw [hw] at hr
            simp only [workerStep, Option.some.injEq] at hr; subst hr
            exact upd j _ _ ⟨n, by simp⟩ hs.symm
          · rw [hw] at hr
            simp only [workerStep, Option.some.injEq] at hr; subst hr
            exact upd j _ s.taken ⟨n, by simp⟩ hs.symm
        | abort j =>
          simp only [step] at hs
          split at hs
          · rw [if_neg (by simp [h2])] at hs; cases hs
          · cases hs
        | spurious =>
          simp only [step] at hs
          split at hs
          · simp only [Option.some.injEq] at hs; subst hs
            exact ⟨h1, h2, by simp, h4⟩
          · cases hs
  rcases key with h | ⟨h1, h2, h3, -⟩
  · exact Or.inl h
  · exact Or.inr ⟨h1, h2, h3⟩

/-! ## Release of the main thread -/

/-- The move announces the end of the search while the main thread is on its way to sleep: the
notification is lost. -/
def Lossy (acc : ℕ → ℕ → ℕ → Bool) (max : ℕ) (s : Search) (l : Label) : Prop :=
  s.main = .window ∧ s.found = false ∧ ∃ s', step acc max s l = some s' ∧ s'.found = true

/-- States of the search that begins in `s₀`, reached in `n` moves without a lost notification;
spurious wake-ups are possible but do not count. -/
inductive Path (acc : ℕ → ℕ → ℕ → Bool) (max N : ℕ) (s₀ : Search) : ℕ → Search → Prop
  | begin {s : Search} : mainStep max s₀ = some s → Path acc max N s₀ 0 s
  | move {s s' : Search} {n : ℕ} (l : Label) : Path acc max N s₀ n s → l.Valid N → l ≠ .spurious →
      ¬ (s.main = .read ∧ l = .main) → ¬ Lossy acc max s l → step acc max s l = some s' →
      Path acc max N s₀ (n + 1) s'

theorem Path.during {acc : ℕ → ℕ → ℕ → Bool} {max N n : ℕ} {s₀ s : Search}
    (h : Path acc max N s₀ n s) : During acc max N s₀ s := by
  induction h with
  | begin hs => exact .begin hs
  | move l _ hv _ hm _ hs ih => exact ih.move l hv hm hs

theorem finish_main (s : Search) (e : ℕ) :
    (finish s e).main = s.main ∨ (s.main = .asleep ∧ (finish s e).main = .check ∧
      (finish s e).found = true) := by
  unfold finish
  simp only
  split
  · cases hm : s.main <;> simp [wakeMain]
  · exact Or.inl rfl

/-- Moves a worker can still make. -/
def rank (max R : ℕ) : WPc → ℕ
  | .out n => if n = R then 0 else 3
  | .top _ => 2
  | .took _ e => if e < max then 5 else 1
  | .computed _ _ _ => 4
  | .aborted _ _ => 3

def mainRank : MPc → ℕ
  | .idle => 0
  | .check => 3
  | .window => 2
  | .asleep => 1
  | .read => 0

def measure (max N R : ℕ) (s : Search) : ℕ :=
  4 * (max - s.taken) + (∑ j ∈ Finset.range N, rank max R (s.ws j)) + mainRank s.main +
    (if s.found then 0 else 4)

theorem sum_update {N j : ℕ} (hj : j < N) (f : WPc → ℕ) (ws : ℕ → WPc) (w : WPc) :
    (∑ i ∈ Finset.range N, f (Function.update ws j w i)) + f (ws j)
      = (∑ i ∈ Finset.range N, f (ws i)) + f w := by
  rw [← Finset.add_sum_erase _ _ (Finset.mem_range.2 hj),
    ← Finset.add_sum_erase (Finset.range N) (fun i => f (ws i)) (Finset.mem_range.2 hj)]
  have : ∑ i ∈ (Finset.range N).erase j, f (Function.update ws j w i)
      = ∑ i ∈ (Finset.range N).erase j, f (ws i) := by
    refine Finset.sum_congr rfl fun i hi => ?_
    rw [Function.update_of_ne (Finset.ne_of_mem_erase hi)]
  rw [this, Function.update_self]
  omega

/-- The main thread does not sleep once the search is over. -/
def Awake (s : Search) : Prop := s.found = true → s.main = .check ∨ s.main = .read

theorem finish_rank {s : Search} {e : ℕ} (hid : s.main ≠ .idle) (ha : Awake s)
    (hl : s.main = .window → s.found = false → (finish s e).found = false) :
    Awake (finish s e) ∧ mainRank (finish s e).main + (if (finish s e).found then 0 else 4) ≤
      mainRank s.main + (if s.found then 0 else 4) := by
  cases hf : s.found
  · cases hf' : (finish s e).found
    · have : (finish s e).main = s.main := by
        rcases finish_main s e with h | ⟨-, -, h⟩
        · exact h
        · rw [hf'] at h; cases h
      refine ⟨fun hc => (by rw [hf'] at hc; cases hc), by rw [this]⟩
    · cases hm : s.main with
      | window => rw [hl hm hf] at hf'; cases hf'
      | asleep =>
        have : (finish s e).main = .check := by
          unfold finish at hf' ⊢
          simp only at hf' ⊢
          split at hf'
          · next hc => rw [if_pos hc]; simp [hm, wakeMain]
          · simp only at hf'; rw [hf] at hf'; cases hf'
        exact ⟨fun _ => Or.inl this, by rw [this]; simp [mainRank]⟩
      | _ =>
        have : (finish s e).main = s.main := by
          rcases finish_main s e with h | ⟨h, -⟩
          · exact h
          · rw [hm] at h; cases h
        refine ⟨fun _ => ?_, by rw [this, hm]; simp⟩
        rw [this, hm]
        first | exact Or.inl rfl | exact Or.inr rfl | exact absurd hm hid
  · have hm := ha hf
    have hf' : (finish s e).found = true := (finish_found s e).2 (Or.inl hf)
    have : (finish s e).main = s.main := by
      rcases finish_main s e with h | ⟨h, -⟩
      · exact h
      · rw [h] at hm; simp at hm
    exact ⟨fun _ => by rw [this]; exact hm, by rw [this, hf']⟩

/-- Every move uses up the measure. -/
theorem measure_step {acc : ℕ → ℕ → ℕ → Bool} {max N R : ℕ} {s s' : Search} (hi : Inv acc max N R s)
    (ha : Awake s) {l : Label} (hv : l.Valid N) (hns : l ≠ .spurious)
    (hm : ¬ (s.main = .read ∧ l = .main)) (hl : ¬ Lossy acc max s l)
    (hs : step acc max s l = some s') : Awake s' ∧ measure max N R s' < measure max N R s := by
  cases l with
  | main =>
    simp only [step, mainStep] at hs
    cases hm' : s.main with
    | idle => exact absurd hm' hi.main
    | asleep => simp [hm'] at hs
    | read => exact absurd ⟨hm', rfl⟩ hm
    | check =>
      simp only [hm', Option.some.injEq] at hs
      subst hs
      cases hf : s.found <;> simp [Awake, measure, hm', mainRank, hf]
    | window =>
      simp only [hm', Option.some.injEq] at hs
      subst hs
      refine ⟨fun hf => ?_, by simp [measure, hm', mainRank]⟩
      rcases ha hf with e | e <;> rw [hm'] at e <;> cases e
  | worker j =>
    have hs0 := hs
    simp only [step, Option.map_eq_some_iff] at hs
    obtain ⟨r, hr, rfl⟩ := hs
    have hsum := sum_update hv (rank max R) s.ws r.2
    have hloss : s.main = .window → s.found = false → r.1.found = false := by
      intro h1 h2
      by_contra h3
      exact hl ⟨h1, h2, _, hs0, by simpa using h3⟩
    rcases workerStep_cases hi hv hr with ⟨n, h1, h2, rfl⟩ | ⟨h1, rfl⟩ | ⟨e, h1, h2, rfl⟩ |
      ⟨e, h1, h2, h3, rfl⟩ | ⟨e, h1, h2, h3, h4, rfl⟩ | ⟨e, h1, h2, h3, h4, rfl⟩ |
      ⟨e, h1, h2, h3, rfl⟩ | ⟨e, h1, h2, h3, rfl⟩
    · refine ⟨ha, ?_⟩
      have r1 : rank max R (s.ws j) = 3 := by rw [h1]; simp [rank, h2]
      have r2 : rank max R (.top R) = 2 := rfl
      simp only at hsum
      simp only [measure]
      omega
    · refine ⟨ha, ?_⟩
      have r1 : rank max R (s.ws j) = 2 := by rw [h1]; rfl
      have r2 : rank max R (.took R s.taken) = if s.taken < max then 5 else 1 := rfl
      simp only at hsum
      simp only [measure]
      split at r2 <;> omega
    · refine ⟨ha, ?_⟩
      have r1 : 1 ≤ rank max R (s.ws j) := by rw [h1]; simp only [rank]; split <;> omega
      have r2 : rank max R (.out R) = 0 := by simp [rank]
      simp only at hsum
      simp only [measure]
      omega
    · refine ⟨ha, ?_⟩
      have r1 : rank max R (s.ws j) = 5 := by rw [h1]; simp [rank, h2]
      have r2 : rank max R (.computed R R e) = 4 := rfl
      simp only at hsum
      simp only [measure]
      omega
    · refine ⟨ha, ?_⟩
      have r1 : rank max R (s.ws j) = 4 := by rw [h1]; rfl
      have r2 : rank max R (.out R) = 0 := by simp [rank]
      simp only at hsum
      simp only [measure]
      omega
    · have r1 : rank max R (s.ws j) = 4 := by rw [h1]; rfl
      have r2 : rank max R (.top R) = 2 := rfl
      obtain ⟨q1, q2⟩ := finish_rank (s := { s with best := e, published := some (R, e) }) (e := e) hi.main ha
        hloss
      refine ⟨q1, ?_⟩
      simp only at hsum q2
      simp only [measure, finish_taken]
      omega
    · have r1 : rank max R (s.ws j) = 4 := by rw [h1]; rfl
      have r2 : rank max R (.top R) = 2 := rfl
      obtain ⟨q1, q2⟩ := finish_rank (s := s) (e := e) hi.main ha hloss
      refine ⟨q1, ?_⟩
      simp only at hsum
      simp only [measure, finish_taken]
      omega
    · have r1 : rank max R (s.ws j) = 3 := by rw [h1]; rfl
      have r2 : rank max R (.top R) = 2 := rfl
      obtain ⟨q1, q2⟩ := finish_rank (s := s) (e := e) hi.main ha hloss
      refine ⟨q1, ?_⟩
      simp only at hsum
      simp only [measure, finish_taken]
      omega
  | abort j =>
    simp only [step] at hs
    split at hs
    · next n made e hc =>
      split at hs
      · simp only [Option.some.injEq] at hs
        subst hs
        have hsum := sum_update hv (rank max R) s.ws (.aborted n e)
        have r1 : rank max R (s.ws j) = 4 := by rw [hc]; rfl
        have r2 : rank max R (.aborted n e) = 3 := rfl
        refine ⟨ha, ?_⟩
        simp only [measure]
        omega
      · cases hs
    · cases hs
  | spurious => exact absurd rfl hns

/-- C58 for the line search (what holds): with at least one worker and at least one step size, and as
long as no notification is lost, some thread can move until the main thread is released, and after at
most `4 maxIterations + 3 N + 7` moves it is released.

Missing: lost notifications (`C58_violated_search`) and `maxIterations = 0`
(`C58_violated_search_zero`); searches that begin while a worker is busy with the previous one. -/
theorem C58_search_partial (acc : ℕ → ℕ → ℕ → Bool) (max N : ℕ) (hmax : 1 ≤ max) (hN : 1 ≤ N)
    (s₀ s : Search) (n : ℕ) (h0 : Ready N s₀) (h : Path acc max N s₀ n s) :
    n ≤ 4 * max + 3 * N + 7 ∧
    (s.main ≠ .read → ∃ l, l.Valid N ∧ l ≠ .spurious ∧ step acc max s l ≠ none) := by
  have key : Awake s ∧ n + measure max N (s₀.round + 1) s ≤ 4 * max + 3 * N + 7 := by
    induction h with
    | begin hs =>
      obtain ⟨-, h1, -, h3, -, h5⟩ := inv_begin (acc := acc) h0 hs
      refine ⟨fun hf => (by rw [h1] at hf; cases hf), ?_⟩
      have hsum : ∑ j ∈ Finset.range N, rank max (s₀.round + 1) (s₀.ws j)
          ≤ ∑ j ∈ Finset.range N, 3 := by
        refine Finset.sum_le_sum fun j hj => ?_
        obtain ⟨n, hn, -⟩ := h0.out j (Finset.mem_range.1 hj)
        rw [hn]
        simp only [rank]
        split <;> omega
      rw [Finset.sum_const, Finset.card_range, Nat.nsmul_eq_mul] at hsum
      simp only [mainStep, h0.main, Option.some.injEq] at hs
      subst hs
      simp only [measure, mainRank]
      simp only [Bool.false_eq_true, if_false]
      omega
    | move l hp hv hns hm hl hs ih =>
      obtain ⟨h1, h2⟩ := measure_step (inv_during h0 hp.during) ih.1 hv hns hm hl hs
      exact ⟨h1, by omega⟩
  refine ⟨by omega, fun hr => ?_⟩
  have hi := inv_during h0 h.during
  cases hm : s.main with
  | idle => exact absurd hm hi.main
  | read => exact absurd hm hr
  | check => exact ⟨.main, trivial, by simp, by simp [step, mainStep, hm]⟩
  | window => exact ⟨.main, trivial, by simp, by simp [step, mainStep, hm]⟩
  | asleep =>
    by_contra hcon
    push Not at hcon
    have hstuck : ∀ j < N, s.ws j = .out (s₀.round + 1) := by
      intro j hj
      have := hcon (.worker j) hj (by simp)
      simp only [step, Option.map_eq_none_iff] at this
      unfold workerStep at this
      split at this
      · next n hn =>
        split at this
        · next hc =>
          rcases hc with hc | hc
          · rw [hm] at hc; cases hc
          · rw [hn, hc, hi.round]
        · cases this
      · cases this
      · cases this
      · split at this
        · split at this <;> cases this
        · cases this
      · cases this
    have hf := C57_decided acc max N hmax s₀ s h0 h.during (fun j hj => ⟨_, hstuck j hj⟩)
      ⟨0, by omega, hstuck 0 (by omega)⟩
    rcases key.1 hf with e | e <;> rw [hm] at e <;> cases e

/-- The hypotheses hold before the first search. -/
example : Ready 4 start := ⟨rfl, fun _ _ => ⟨0, rfl, le_refl _⟩⟩

/-- A search with two workers that is over: candidate 0 is rejected, candidate 1 accepted. -/
example : ∃ s, During acc12 3 2 start s ∧ s.found = true ∧ choice 3 s = some 1 := by
  have hd : ∀ (ls : List Label) (s s' : Search), During acc12 3 2 start s →
      (∀ l ∈ ls, l.Valid 2 ∧ l ≠ .main) → run acc12 3 s ls = some s' → During acc12 3 2 start s' := by
    intro ls
    induction ls with
    | nil => intro s s' h _ hr; cases hr; exact h
    | cons l ls ih =>
      intro s s' h hv hr
      simp only [run, Option.bind_eq_some_iff] at hr
      obtain ⟨t, ht, hr⟩ := hr
      exact ih t s' (h.move l (hv l (by simp)).1 (fun hc => (hv l (by simp)).2 hc.2) ht)
        (fun l hl => hv l (by simp [hl])) hr
  cases hb : mainStep 3 start with
  | none => simp [mainStep, start] at hb
  | some b =>
    have hr : (match (mainStep 3 start).bind fun b => run acc12 3 b
        [.worker 0, .worker 0, .worker 1, .worker 1, .worker 1, .worker 0, .worker 0, .worker 1] with
        | some s => decide (s.found = true ∧ choice 3 s = some 1) | none => false) = true := by
      decide +kernel
    rw [hb, Option.bind_some] at hr
    cases hrun : run acc12 3 b
        [.worker 0, .worker 0, .worker 1, .worker 1, .worker 1, .worker 0, .worker 0, .worker 1] with
    | none => rw [hrun] at hr; cases hr
    | some s =>
      rw [hrun] at hr
      exact ⟨s, hd _ b s (.begin hb) (by decide) hrun, by simpa using hr⟩

end CT.ParSearch
