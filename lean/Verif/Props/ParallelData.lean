import Verif.Model.NlocParallelData
import Verif.Props.NlocParallel

/-!
# Work on separate data: any interleaving gives what one thread gives

Used for C183.
-/

namespace CT.Par

variable {S P A V : Type}

/-! ### One thread alone -/

/-- `n` accesses of thread `j` alone in its work on index `i` with task `t`, starting from the data `m0`, lead to the data and the
position given. -/
inductive Alone (W : Work S P) (t : Task) (j i : ℕ) (m0 : S) : ℕ → S → P → Prop
  | start : Alone W t j i m0 0 m0 W.start
  | step {n : ℕ} {m m' : S} {p p' : P} : Alone W t j i m0 n m p → W.over p = false → W.step t j i p m = .ok (m', p') →
      Alone W t j i m0 (n + 1) m' p'

/-- Thread `j` alone works on index `i` from beginning to end. -/
def Whole (W : Work S P) (t : Task) (j i : ℕ) (m m' : S) : Prop := ∃ n p, Alone W t j i m n m' p ∧ W.over p = true

/-- Thread `j` alone works on the indices listed, one after the other. -/
def Chain (W : Work S P) (t : Task) (j : ℕ) : List ℕ → S → S → Prop
  | [], m, r => r = m
  | i :: l, m, r => ∃ m', Whole W t j i m m' ∧ Chain W t j l m' r

theorem Alone.det {W : Work S P} {t : Task} {j i : ℕ} {m0 : S} {n : ℕ} {m : S} {p : P} (h : Alone W t j i m0 n m p) :
    ∀ {m' : S} {p' : P}, Alone W t j i m0 n m' p' → m' = m ∧ p' = p := by
  induction h with
  | start => intro m' p' h'; cases h'; exact ⟨rfl, rfl⟩
  | step _ _ hs ih =>
    intro m' p' h'
    cases h' with
    | step h1 _ h3 =>
      obtain ⟨rfl, rfl⟩ := ih h1
      rw [hs] at h3
      cases h3
      exact ⟨rfl, rfl⟩

theorem Alone.before {W : Work S P} {t : Task} {j i : ℕ} {m0 : S} {n : ℕ} {m : S} {p : P} (h : Alone W t j i m0 n m p) :
    ∀ k < n, ∃ m' p', Alone W t j i m0 k m' p' ∧ W.over p' = false := by
  induction h with
  | start => intro k hk; omega
  | @step n m m' p p' h1 h2 _ ih =>
    intro k hk
    rcases Nat.lt_succ_iff_lt_or_eq.1 hk with hk | rfl
    · exact ih k hk
    · exact ⟨m, p, h1, h2⟩

theorem Alone.over_unique {W : Work S P} {t : Task} {j i : ℕ} {m0 : S} {n n' : ℕ} {m m' : S} {p p' : P}
    (h : Alone W t j i m0 n m p) (ho : W.over p = true) (h' : Alone W t j i m0 n' m' p') (ho' : W.over p' = true) : m' = m := by
  rcases lt_trichotomy n n' with hn | rfl | hn
  · obtain ⟨a, b, hab, hb⟩ := h'.before n hn
    obtain ⟨-, rfl⟩ := h.det hab
    rw [ho] at hb; cases hb
  · exact (h.det h').1
  · obtain ⟨a, b, hab, hb⟩ := h.before n' hn
    obtain ⟨-, rfl⟩ := h'.det hab
    rw [ho'] at hb; cases hb

/-! ### Separate data -/

/-- The work on the indices `lo, ..., hi` is separate: `own` gives the index an address belongs to, if any; the work on an index writes
only addresses that belong to it and depends only on addresses that belong to it or to no index; and it does not matter which of the
`N` workers or of the thread `j0` does it. -/
structure Separate (W : Work S P) (t : Task) (N j0 lo hi : ℕ) (get : S → A → V) (own : A → Option ℕ) (Inv : S → Prop)
    (Good : ℕ → P → Prop) : Prop where
  same : ∀ j < N, ∀ i p s, W.step t j i p s = W.step t j0 i p s
  good : ∀ i, lo ≤ i → i ≤ hi → Good i W.start
  ok : ∀ i, lo ≤ i → i ≤ hi → ∀ p s, Good i p → W.over p = false → Inv s →
    ∃ s' p', W.step t j0 i p s = .ok (s', p') ∧ Inv s' ∧ Good i p' ∧ ∀ a, own a ≠ some i → get s' a = get s a
  read : ∀ i, lo ≤ i → i ≤ hi → ∀ p s r s' r' p' q', Good i p → Inv s → Inv r →
    (∀ a, own a = some i ∨ own a = none → get s a = get r a) →
    W.step t j0 i p s = .ok (s', p') → W.step t j0 i p r = .ok (r', q') →
    p' = q' ∧ ∀ a, own a = some i → get s' a = get r' a
  ext : ∀ s r, Inv s → Inv r → (∀ a, get s a = get r a) → s = r

section
variable {W : Work S P} {t : Task} {N j0 lo hi : ℕ} {get : S → A → V} {own : A → Option ℕ} {Inv : S → Prop}
  {Good : ℕ → P → Prop}

theorem Separate.alone (H : Separate W t N j0 lo hi get own Inv Good) {i : ℕ} (h1 : lo ≤ i) (h2 : i ≤ hi) {m0 : S} (hm : Inv m0)
    {n : ℕ} {m : S} {p : P} (h : Alone W t j0 i m0 n m p) :
    Inv m ∧ Good i p ∧ ∀ a, own a ≠ some i → get m a = get m0 a := by
  induction h with
  | start => exact ⟨hm, H.good i h1 h2, fun _ _ => rfl⟩
  | @step n m m' p p' _ ho hs ih =>
    obtain ⟨a1, a2, a3⟩ := ih
    obtain ⟨s', q, e, b1, b2, b3⟩ := H.ok i h1 h2 p m a2 ho a1
    rw [hs] at e
    cases e
    exact ⟨b1, b2, fun a ha => (b3 a ha).trans (a3 a ha)⟩

theorem Separate.transfer (H : Separate W t N j0 lo hi get own Inv Good) {i : ℕ} (h1 : lo ≤ i) (h2 : i ≤ hi) {m0 r0 : S}
    (hm : Inv m0) (hr : Inv r0) (hag : ∀ a, own a = some i ∨ own a = none → get m0 a = get r0 a) {n : ℕ} {m : S} {p : P}
    (h : Alone W t j0 i m0 n m p) :
    ∃ r, Alone W t j0 i r0 n r p ∧ ∀ a, own a = some i → get m a = get r a := by
  induction h with
  | start => exact ⟨r0, .start, fun a ha => hag a (Or.inl ha)⟩
  | @step n m m' p p' ha ho hs ih =>
    obtain ⟨r, c1, c2⟩ := ih
    obtain ⟨a1, a2, a3⟩ := H.alone h1 h2 hm ha
    obtain ⟨b1, -, b3⟩ := H.alone h1 h2 hr c1
    obtain ⟨r', q, e, d1, d2, d3⟩ := H.ok i h1 h2 p r a2 ho b1
    obtain ⟨rfl, hg⟩ := H.read i h1 h2 p m r m' r' p' q a2 a1 b1 (fun a hoa => by
      rcases hoa with hoa | hoa
      · exact c2 a hoa
      · rw [a3 a (by rw [hoa]; simp), b3 a (by rw [hoa]; simp)]
        exact hag a (Or.inr hoa)) hs e
    exact ⟨r', .step c1 ho e, hg⟩

/-- One thread after the other: what the data are in the end. -/
theorem Separate.chain (H : Separate W t N j0 lo hi get own Inv Good) : ∀ (l : List ℕ) (m0 r : S), Inv m0 → l.Nodup →
    (∀ i ∈ l, lo ≤ i ∧ i ≤ hi) → Chain W t j0 l m0 r →
    Inv r ∧ (∀ i ∈ l, ∀ n m p, Alone W t j0 i m0 n m p → W.over p = true → ∀ a, own a = some i → get r a = get m a) ∧
      ∀ a, (∀ i ∈ l, own a ≠ some i) → get r a = get m0 a
  | [], m0, r, hm, _, _, h => by
    obtain rfl : r = m0 := h
    exact ⟨hm, by simp, fun _ _ => rfl⟩
  | i :: l, m0, r, hm, hnd, hr, h => by
    obtain ⟨m1, ⟨n1, p1, ha1, ho1⟩, hc⟩ := h
    rw [List.nodup_cons] at hnd
    obtain ⟨hi1, hi2⟩ := hr i (by simp)
    obtain ⟨b1, -, b3⟩ := H.alone hi1 hi2 hm ha1
    obtain ⟨c1, c2, c3⟩ := H.chain l m1 r b1 hnd.2 (fun k hk => hr k (by simp [hk])) hc
    refine ⟨c1, fun k hk n m p ha ho a hown => ?_, fun a hown => ?_⟩
    · rcases List.mem_cons.1 hk with rfl | hk
      · rw [c3 a (fun i' hi' e => hnd.1 (by rw [hown] at e; cases e; exact hi'))]
        rw [ha1.over_unique ho1 ha ho]
      · obtain ⟨hk1, hk2⟩ := hr k (by simp [hk])
        have hne : ∀ a, own a = some k ∨ own a = none → own a ≠ some i := by
          rintro a (e | e) e'
          · rw [e] at e'; cases e'; exact hnd.1 hk
          · rw [e] at e'; cases e'
        obtain ⟨m', e1, e2⟩ := H.transfer hk1 hk2 hm b1 (fun a hoa => (b3 a (hne a hoa)).symm) ha
        rw [c2 k hk n m' p e1 ho a hown, e2 a hown]
    · rw [c3 a (fun k hk => hown k (by simp [hk])), b3 a (hown i (by simp))]

/-! ### The workers together -/

/-- Phase `p` was entered with the data `m0`; what holds of the data since. -/
structure Data (W : Work S P) (N j0 : ℕ) (p : Phase) (before : List (Task × ℕ)) (get : S → A → V) (own : A → Option ℕ)
    (Inv : S → Prop) (m0 : S) (s : Full S P) (m : S) (ni : ℕ → ℕ) (mi : ℕ → S) (pi : ℕ → P) : Prop where
  mem : s.mem = .ok m
  inv : Inv m
  alone : ∀ i, p.kMin ≤ i → i ≤ p.kMax → Alone W p.kind j0 i m0 (ni i) (mi i) (pi i)
  owned : ∀ i, p.kMin ≤ i → i ≤ p.kMax → ∀ a, own a = some i → get m a = get (mi i) a
  rest : ∀ a, (∀ i, p.kMin ≤ i → i ≤ p.kMax → own a ≠ some i) → get m a = get m0 a
  work : ∀ j < N, ∀ t e i, (s.par.ws j).pc = .work t e i → pi i = s.pos j
  done : ∀ i, p.kMin ≤ i → i ≤ p.kMax → (p.kind, i) ∈ s.par.log.drop before.length → W.over (pi i) = true
  fresh : ∀ i, p.kMin ≤ i → i ≤ p.kMax → (p.kind, i) ∉ s.par.log.drop before.length →
    (∀ j < N, ∀ t e, (s.par.ws j).pc ≠ .work t e i) → pi i = W.start
  idle : ∀ j < N, (∀ t e i, (s.par.ws j).pc ≠ .work t e i) → s.pos j = W.start

variable {p : Phase} {before : List (Task × ℕ)} {m0 m : S} {ni : ℕ → ℕ} {mi : ℕ → S} {pi : ℕ → P}

/-- A move that neither begins nor ends the work on an index. -/
theorem Data.keep {s s' : Full S P} (h : Data W N j0 p before get own Inv m0 s m ni mi pi) (hmem : s'.mem = s.mem)
    (hlog : s'.par.log = s.par.log)
    (hw : ∀ j < N, ∀ t e i, (s'.par.ws j).pc = .work t e i ↔ (s.par.ws j).pc = .work t e i)
    (hpos : ∀ j < N, s'.pos j = s.pos j ∨ ((∀ t e i, (s.par.ws j).pc ≠ .work t e i) ∧ s'.pos j = W.start)) :
    Data W N j0 p before get own Inv m0 s' m ni mi pi := by
  refine ⟨hmem.trans h.mem, h.inv, h.alone, h.owned, h.rest, ?_, ?_, ?_, ?_⟩
  · intro j hj t e i hc
    rw [hw j hj] at hc
    rcases hpos j hj with hp | ⟨hn, -⟩
    · rw [hp]; exact h.work j hj t e i hc
    · exact absurd hc (hn t e i)
  · rw [hlog]; exact h.done
  · rw [hlog]
    intro i a b c d
    exact h.fresh i a b c fun j hj t e hc => d j hj t e ((hw j hj t e i).2 hc)
  · intro j hj hn
    have hn' : ∀ t e i, (s.par.ws j).pc ≠ .work t e i := fun t e i hc => hn t e i ((hw j hj t e i).2 hc)
    rcases hpos j hj with hp | ⟨-, hp⟩
    · rw [hp]; exact h.idle j hj hn'
    · exact hp

/-- The moves of a worker, as far as its work is concerned. -/
theorem workerStep_cases {s : Par} {w : Worker} {r : Par × Worker} (h : workerStep s w = some r) :
    ((∀ t e i, w.pc ≠ .work t e i) ∧ (∀ t e i, r.2.pc ≠ .work t e i) ∧ r.1.log = s.log) ∨
    (∃ t e k, w.pc = .took t e k ∧ ¬ k > s.span ∧ r.2.pc = .work t e (sub64 s.kMax k) ∧ r.1.log = s.log) ∨
    (∃ t e i, w.pc = .work t e i ∧ r.2.pc = .done t e i ∧ r.1.log = s.log ++ [(t, i)]) := by
  obtain ⟨pc, pid⟩ := w
  unfold workerStep at h
  cases pc with
  | top => simp only [Option.some.injEq] at h; subst h; simp
  | gotTask t =>
    cases t with
    | none => simp only [Option.some.injEq] at h; subst h; simp
    | some t => simp only at h; split at h <;> simp only [Option.some.injEq] at h <;> subst h <;> simp
  | check => simp only [Option.some.injEq] at h; subst h; left; refine ⟨by simp, ?_, rfl⟩; intro t e i; simp only; split <;> simp
  | check2 => simp only [Option.some.injEq] at h; subst h; left; refine ⟨by simp, ?_, rfl⟩; intro t e i; simp only; split <;> simp
  | window => simp only [Option.some.injEq] at h; subst h; simp
  | asleep => simp at h
  | reload => simp only [Option.some.injEq] at h; subst h; simp
  | reloaded t => cases t <;> simp only [Option.some.injEq] at h <;> subst h <;> simp
  | head t e => simp only [Option.some.injEq] at h; subst h; simp
  | took t e k =>
    simp only [Option.some.injEq] at h
    subst h
    by_cases hk : k > s.span
    · left; simp [hk]
    · right; left; exact ⟨t, e, k, rfl, hk, by simp [hk], rfl⟩
  | work t e i => simp only [Option.some.injEq] at h; subst h; right; right; exact ⟨t, e, i, rfl, rfl, rfl⟩
  | done t e i => simp only [Option.some.injEq] at h; subst h; simp
  | exit t e => simp only at h; split at h <;> simp only [Option.some.injEq] at h <;> subst h <;> simp
  | notify t e => simp only [Option.some.injEq] at h; subst h; simp

theorem workerStep_ws {s : Par} {w : Worker} {r : Par × Worker} (h : workerStep s w = some r) : r.1.ws = s.ws := by
  unfold workerStep at h
  split at h <;> (try split at h) <;> simp only [Option.some.injEq, reduceCtorEq] at h <;> subst h <;> rfl

/-- The protocol of a reachable state is reachable. -/
theorem ReachF.par {s₀ s : Full S P} (h : ReachF W N s₀ s) : Reach N s₀.par s.par := by
  induction h with
  | refl => exact .refl
  | @move s s' l _ hv hs ih =>
    match l, hv with
    | .move .main, hv =>
      simp only [stepF, Option.map_eq_some_iff] at hs
      obtain ⟨q, hq, rfl⟩ := hs
      exact ih.move _ (by simpa [FLabel.Valid] using hv) hq
    | .move (.worker j), hv =>
      simp only [stepF] at hs
      split at hs
      · cases hs
      · simp only [Option.map_eq_some_iff] at hs
        obtain ⟨q, hq, rfl⟩ := hs
        exact ih.move _ (by simpa [FLabel.Valid] using hv) hq
    | .move .spuriousMain, hv =>
      simp only [stepF, Option.map_eq_some_iff] at hs
      obtain ⟨q, hq, rfl⟩ := hs
      exact ih.move _ (by simpa [FLabel.Valid] using hv) hq
    | .move (.spurious j), hv =>
      simp only [stepF, Option.map_eq_some_iff] at hs
      obtain ⟨q, hq, rfl⟩ := hs
      exact ih.move _ (by simpa [FLabel.Valid] using hv) hq
    | .data j, _ =>
      simp only [stepF, dataStep] at hs
      split at hs
      · split at hs
        · cases hs
        · split at hs <;> simp only [Option.some.injEq] at hs <;> subst hs <;> exact ih
      · cases hs

/-- A phase that has begun is being set up, or under way or over. -/
theorem phase_cases (hp : p.kMin < p.kMax) {rest : List Phase} {s₀ s : Par} (h0 : Ready N p rest s₀) (h : Reach N s₀ s)
    (hs : s.todo = rest) : Setup N p s₀.log s ∨ Running N p s₀.log s := by
  rcases reach_cases hp h0 h with ⟨hr, _⟩ | ⟨_, h⟩ | ⟨_, h⟩ | h
  · rw [hr.todo] at hs
    exact absurd (congrArg List.length hs) (by simp)
  · exact Or.inl h
  · exact Or.inr h
  · rw [hs] at h; omega

/-- A worker at work in a phase is at work with the task of the phase on an index of its range that was not worked on before. -/
theorem Running.atWork {s : Par} (h : Running N p before s) {j : ℕ} (hj : j < N) {t : Task} {e i : ℕ}
    (hc : (s.ws j).pc = .work t e i) :
    t = p.kind ∧ p.kMin ≤ i ∧ i ≤ p.kMax ∧ (p.kind, i) ∉ s.log.drop before.length ∧
      ∀ j' < N, ∀ t' e', (s.ws j').pc = .work t' e' i → j' = j := by
  obtain ⟨new, cnt, h1, _, h3⟩ := h.core
  have hh : hold p.kMin p.kMax (s.ws j).pc = some i := by rw [hc]; rfl
  obtain ⟨a, b, _, _⟩ := h3.holdRange j hj i hh
  refine ⟨h.tasks j hj t (by rw [hc]; rfl), a, b, ?_, fun j' hj' t' e' hc' => ?_⟩
  · rw [h1, List.drop_left]
    intro hmem
    obtain ⟨i', hi', e'⟩ := List.mem_map.1 hmem
    cases e'
    obtain ⟨t', e', hd⟩ := (h3.isNew j hj i hh).1 hi'
    simp only [hc] at hd
    cases hd
  · exact h3.inj j' hj' j hj i (by simp only [hc']; rfl) hh

/-- A worker that has taken an index of the range. -/
theorem Running.taken {s : Par} (hp : p.kMin ≤ p.kMax) (h : Running N p before s) {j : ℕ} (hj : j < N) {t : Task} {e k : ℕ}
    (hc : (s.ws j).pc = .took t e k) (hk : ¬ k > s.span) :
    p.kMin ≤ sub64 s.kMax k ∧ sub64 s.kMax k ≤ p.kMax ∧ (p.kind, sub64 s.kMax k) ∉ s.log.drop before.length ∧
      ∀ j' < N, ∀ t' e', (s.ws j').pc ≠ .work t' e' (sub64 s.kMax k) := by
  obtain ⟨new, cnt, h1, _, h3⟩ := h.core
  have hspan : s.span = p.kMax - p.kMin := by
    unfold Par.span; rw [h.kMin, h.kMax, sub64_of_le hp]
  rw [hspan] at hk
  have hsub : sub64 s.kMax k = p.kMax - k := by rw [h.kMax, sub64_of_le (by omega)]
  have hh : hold p.kMin p.kMax (s.ws j).pc = some (p.kMax - k) := by rw [hc]; simp [hold]; omega
  rw [hsub]
  refine ⟨by omega, by omega, ?_, fun j' hj' t' e' hc' => ?_⟩
  · rw [h1, List.drop_left]
    intro hmem
    obtain ⟨i', hi', e'⟩ := List.mem_map.1 hmem
    cases e'
    obtain ⟨t', e', hd⟩ := (h3.isNew j hj _ hh).1 hi'
    simp only [hc] at hd
    cases hd
  · have := h3.inj j' hj' j hj (p.kMax - k) (by simp only [hc']; rfl) hh
    subst this
    rw [hc] at hc'
    cases hc'

/-- A move of a worker in the protocol. -/
theorem Data.worker (hp : p.kMin ≤ p.kMax) {s : Full S P} {j : ℕ} (hj : j < N)
    (h : Data W N j0 p before get own Inv m0 s m ni mi pi) (hph : Setup N p before s.par ∨ Running N p before s.par)
    (hov : ∀ t e i, (s.par.ws j).pc = .work t e i → W.over (s.pos j) = true) {r : Par × Worker}
    (hr : workerStep s.par (s.par.ws j) = some r) :
    Data W N j0 p before get own Inv m0
      { s with par := { r.1 with ws := Function.update r.1.ws j r.2 }, pos := Function.update s.pos j W.start } m ni mi pi := by
  have hws := workerStep_ws hr
  have hoff : ∀ j', j' ≠ j → ((Function.update r.1.ws j r.2) j').pc = (s.par.ws j').pc := by
    intro j' hne; rw [Function.update_of_ne hne, hws]
  rcases workerStep_cases hr with ⟨a, b, hlog⟩ | ⟨t, e, k, hpc, hk, hpc', hlog⟩ | ⟨t, e, i, hpc, hpc', hlog⟩
  · refine h.keep rfl hlog (fun j' hj' t e i => ?_) (fun j' hj' => ?_)
    · by_cases hne : j' = j
      · subst hne
        simp only [Function.update_self]
        exact ⟨fun hc => absurd hc (b t e i), fun hc => absurd hc (a t e i)⟩
      · simp only [hoff j' hne]
    · by_cases hne : j' = j
      · subst hne; exact Or.inr ⟨a, by simp⟩
      · exact Or.inl (by simp [hne])
  · have hrun : Running N p before s.par := by
      rcases hph with hs | hs
      · have := hs.quiet j hj; rw [hpc] at this; cases this
      · exact hs
    obtain ⟨c1, c2, c3, c4⟩ := hrun.taken hp hj hpc hk
    have hfresh := h.fresh _ c1 c2 c3 c4
    refine ⟨h.mem, h.inv, h.alone, h.owned, h.rest, ?_, ?_, ?_, ?_⟩
    · intro j' hj' t' e' i' hc
      by_cases hne : j' = j
      · subst hne
        simp only [Function.update_self, hpc'] at hc
        cases hc
        simpa using hfresh
      · simp only [hoff j' hne] at hc
        simp only [Function.update_of_ne hne]
        exact h.work j' hj' t' e' i' hc
    · simp only [hlog]; exact h.done
    · simp only [hlog]
      intro i a b c d
      refine h.fresh i a b c fun j' hj' t' e' hc => ?_
      by_cases hne : j' = j
      · subst hne; rw [hpc] at hc; cases hc
      · exact d j' hj' t' e' (by simp only [hoff j' hne]; exact hc)
    · intro j' hj' hn
      by_cases hne : j' = j
      · subst hne; simp
      · simp only [Function.update_of_ne hne]
        exact h.idle j' hj' fun t' e' i' hc => hn t' e' i' (by simp only [hoff j' hne]; exact hc)
  · have hrun : Running N p before s.par := by
      rcases hph with hs | hs
      · have := hs.quiet j hj; rw [hpc] at this; cases this
      · exact hs
    obtain ⟨rfl, c1, c2, c3, c4⟩ := hrun.atWork hj hpc
    obtain ⟨new, cnt, hl, -, -⟩ := hrun.core
    have hdrop : (s.par.log ++ [(p.kind, i)]).drop before.length = s.par.log.drop before.length ++ [(p.kind, i)] := by
      rw [hl]; simp [List.drop_left]
    refine ⟨h.mem, h.inv, h.alone, h.owned, h.rest, ?_, ?_, ?_, ?_⟩
    · intro j' hj' t' e' i' hc
      by_cases hne : j' = j
      · subst hne; simp only [Function.update_self, hpc'] at hc; cases hc
      · simp only [hoff j' hne] at hc
        simp only [Function.update_of_ne hne]
        exact h.work j' hj' t' e' i' hc
    · intro k a b hmem
      simp only [hlog, hdrop, List.mem_append, List.mem_singleton] at hmem
      rcases hmem with hmem | hmem
      · exact h.done k a b hmem
      · cases hmem
        rw [h.work j hj _ _ _ hpc]; exact hov _ _ _ hpc
    · intro k a b hmem d
      simp only [hlog, hdrop, List.mem_append, List.mem_singleton, not_or] at hmem
      refine h.fresh k a b hmem.1 fun j' hj' t' e' hc => ?_
      by_cases hne : j' = j
      · subst hne; rw [hpc] at hc; cases hc; exact hmem.2 rfl
      · exact d j' hj' t' e' (by simp only [hoff j' hne]; exact hc)
    · intro j' hj' hn
      by_cases hne : j' = j
      · subst hne; simp
      · simp only [Function.update_of_ne hne]
        exact h.idle j' hj' fun t' e' i' hc => hn t' e' i' (by simp only [hoff j' hne]; exact hc)

/-- An access to the data. -/
theorem Data.access (H : Separate W p.kind N j0 p.kMin p.kMax get own Inv Good) (hm0 : Inv m0) {s s' : Full S P} {j : ℕ} (hj : j < N)
    (h : Data W N j0 p before get own Inv m0 s m ni mi pi) (hph : Setup N p before s.par ∨ Running N p before s.par)
    (hs : dataStep W s j = some s') :
    s'.par = s.par ∧ ∃ m' ni' mi' pi', Data W N j0 p before get own Inv m0 s' m' ni' mi' pi' := by
  unfold dataStep at hs
  split at hs
  · next t e i ms hpc hmem =>
    split at hs
    · cases hs
    next hov =>
    have hov' : W.over (s.pos j) = false := by simpa using hov
    have hrun : Running N p before s.par := by
      rcases hph with hs | hs
      · have := hs.quiet j hj; rw [hpc] at this; cases this
      · exact hs
    obtain ⟨rfl, c1, c2, c3, c4⟩ := hrun.atWork hj hpc
    rw [h.mem] at hmem
    cases hmem
    have hpi := h.work j hj _ _ _ hpc
    have hal := h.alone i c1 c2
    obtain ⟨a1, a2, a3⟩ := H.alone c1 c2 hm0 hal
    rw [hpi] at a2
    obtain ⟨m', p', e1, b1, b2, b3⟩ := H.ok i c1 c2 (s.pos j) m a2 hov' h.inv
    obtain ⟨r', q', e2, d1, d2, d3⟩ := H.ok i c1 c2 (s.pos j) (mi i) a2 hov' a1
    obtain ⟨rfl, hg⟩ := H.read i c1 c2 (s.pos j) m (mi i) m' r' p' q' a2 h.inv a1 (fun a ha => by
      rcases ha with ha | ha
      · exact h.owned i c1 c2 a ha
      · rw [h.rest a (by simp [ha]), a3 a (by simp [ha])]) e1 e2
    rw [H.same j hj, e1] at hs
    simp only [Option.some.injEq] at hs
    subst hs
    refine ⟨rfl, m', Function.update ni i (ni i + 1), Function.update mi i r', Function.update pi i p', rfl, b1, ?_, ?_, ?_, ?_, ?_, ?_, ?_⟩
    · intro k hk1 hk2
      by_cases hne : k = i
      · subst hne
        simp only [Function.update_self]
        exact .step hal (by rw [hpi]; exact hov') (by rw [hpi]; exact e2)
      · simp only [Function.update_of_ne hne]; exact h.alone k hk1 hk2
    · intro k hk1 hk2 a ha
      by_cases hne : k = i
      · subst hne; simp only [Function.update_self]; exact hg a ha
      · simp only [Function.update_of_ne hne]
        rw [b3 a (by rw [ha]; simpa using hne)]
        exact h.owned k hk1 hk2 a ha
    · intro a ha
      rw [b3 a (ha i c1 c2)]; exact h.rest a ha
    · intro j' hj' t' e' i' hc
      by_cases hne : j' = j
      · subst hne
        rw [hpc] at hc; cases hc
        simp
      · have hi : i' ≠ i := fun hi => hne (c4 j' hj' t' e' (hi ▸ hc))
        simp only [Function.update_of_ne hne, Function.update_of_ne hi]
        exact h.work j' hj' t' e' i' hc
    · intro k hk1 hk2 hmem
      have hne : k ≠ i := fun hk => c3 (hk ▸ hmem)
      simp only [Function.update_of_ne hne]
      exact h.done k hk1 hk2 hmem
    · intro k hk1 hk2 hmem hn
      have hne : k ≠ i := fun hk => hn j hj _ e (hk ▸ hpc)
      simp only [Function.update_of_ne hne]
      exact h.fresh k hk1 hk2 hmem hn
    · intro j' hj' hn
      have hne : j' ≠ j := fun hk => hn _ _ _ (hk ▸ hpc)
      simp only [Function.update_of_ne hne]
      exact h.idle j' hj' hn
  · cases hs

/-- What holds of the data in the course of a phase. -/
theorem data_inv (hp : p.kMin < p.kMax) {rest : List Phase} (H : Separate W p.kind N j0 p.kMin p.kMax get own Inv Good)
    {s₀ s : Full S P} (h0 : Ready N p rest s₀.par) {mS : S} (hmem : s₀.mem = .ok mS) (hpos : ∀ j, s₀.pos j = W.start)
    (henter : W.enter p mS = .ok m0) (hm0 : Inv m0) (h : ReachF W N s₀ s) :
    (s.par.todo = p :: rest ∧ s.mem = .ok mS ∧ ∀ j < N, s.pos j = W.start) ∨
      (s.par.todo = rest ∧ ∃ m ni mi pi, Data W N j0 p s₀.par.log get own Inv m0 s m ni mi pi) ∨
      s.par.todo.length < rest.length := by
  have hne : p :: rest ≠ rest := fun e => by simpa using congrArg List.length e
  induction h with
  | refl => exact Or.inl ⟨h0.todo, hmem, fun j _ => hpos j⟩
  | @move s s' l hreach hv hs ih =>
    have hr := hreach.par
    have hr' : Reach N s₀.par s'.par := (hreach.move l hv hs).par
    rcases ih with ⟨ht, hm, hps⟩ | ⟨ht, m, ni, mi, pi, hd⟩ | ht
    · have hready : Ready N p rest s.par ∧ s.par.log = s₀.par.log := by
        rcases reach_cases hp h0 hr with h | ⟨h, _⟩ | ⟨h, _⟩ | h
        · exact h
        · exact absurd (ht.symm.trans h) hne
        · exact absurd (ht.symm.trans h) hne
        · rw [ht] at h; simp at h
      obtain ⟨hready, hlog⟩ := hready
      match l, hv with
      | .move .main, hv =>
        simp only [stepF, Option.map_eq_some_iff] at hs
        obtain ⟨q, hq, rfl⟩ := hs
        have hk : ¬ p.kMax = p.kMin := by omega
        simp only [step, mainStep, hready.main, ht, hk, if_false, Option.some.injEq] at hq
        subst hq
        refine Or.inr (Or.inl ⟨rfl, m0, fun _ => 0, fun _ => m0, fun _ => W.start, ?_, hm0, fun i _ _ => .start, fun _ _ _ _ _ => rfl,
          fun _ _ => rfl, fun j hj t e i hc => ?_, fun i _ _ hc => ?_, fun _ _ _ _ _ => rfl, fun j hj _ => hps j hj⟩)
        · simp [mainData, hready.main, ht, hk, hm, henter]
        · have := hready.quiet j hj
          simp only at hc
          rw [hc] at this; cases this
        · simp [hlog] at hc
      | .move (.worker j), hv =>
        simp only [stepF] at hs
        split at hs
        · cases hs
        simp only [Option.map_eq_some_iff] at hs
        obtain ⟨q, hq, rfl⟩ := hs
        simp only [step, Option.map_eq_some_iff] at hq
        obtain ⟨r, hr, rfl⟩ := hq
        refine Or.inl ⟨(workerStep_todo hr).trans ht, hm, fun j' hj' => ?_⟩
        by_cases hj : j' = j
        · subst hj; simp
        · simp only [Function.update_of_ne hj]; exact hps j' hj'
      | .move .spuriousMain, hv =>
        simp only [stepF, step, hready.main] at hs
        cases hs
      | .move (.spurious j), hv =>
        simp only [stepF, Option.map_eq_some_iff] at hs
        obtain ⟨q, hq, rfl⟩ := hs
        simp only [step] at hq
        split at hq
        · simp only [Option.some.injEq] at hq
          subst hq
          exact Or.inl ⟨ht, hm, hps⟩
        · cases hq
      | .data j, hv =>
        simp only [stepF, dataStep] at hs
        split at hs
        · next hpc _ =>
          have := hready.quiet j hv
          rw [hpc] at this; cases this
        · cases hs
    · have hph := phase_cases hp h0 hr ht
      match l, hv with
      | .move .main, hv =>
        simp only [stepF, Option.map_eq_some_iff] at hs
        obtain ⟨q, hq, rfl⟩ := hs
        by_cases hidle : s.par.main = .idle
        · right; right
          cases hrest : rest with
          | nil => simp [step, mainStep, hidle, ht, hrest] at hq
          | cons p' rest' =>
            simp only [step, mainStep, hidle, ht, hrest] at hq
            split at hq <;> simp only [Option.some.injEq] at hq <;> subst hq <;> simp
        · right; left
          have hmd : mainData W s.par s.mem = s.mem := by
            unfold mainData
            split
            · next h _ => exact absurd h hidle
            · rfl
          have hq' : q.todo = s.par.todo ∧ q.log = s.par.log ∧
              ∀ j, q.ws j = s.par.ws j ∨ ((s.par.ws j).pc = .asleep ∧ (q.ws j).pc = .check) := by
            simp only [step, mainStep] at hq
            cases hmain : s.par.main <;> simp only [hmain, Option.some.injEq, reduceCtorEq] at hq <;>
              first
              | (exact absurd hmain hidle)
              | (subst hq; exact ⟨rfl, rfl, fun j => Or.inl rfl⟩)
              | (subst hq
                 refine ⟨rfl, rfl, fun j => ?_⟩
                 simp only [wake]
                 split
                 · next ha => exact Or.inr ⟨ha, rfl⟩
                 · exact Or.inl rfl)
          refine ⟨hq'.1.trans ht, m, ni, mi, pi, hd.keep hmd hq'.2.1 (fun j _ t e i => ?_) (fun j _ => Or.inl rfl)⟩
          rcases hq'.2.2 j with h | ⟨h1, h2⟩
          · simp only [h]
          · simp only [h1, h2]; simp
      | .move (.worker j), hv =>
        simp only [stepF] at hs
        split at hs
        · cases hs
        next hov =>
        simp only [Option.map_eq_some_iff] at hs
        obtain ⟨q, hq, rfl⟩ := hs
        simp only [step, Option.map_eq_some_iff] at hq
        obtain ⟨r, hr, rfl⟩ := hq
        exact Or.inr (Or.inl ⟨(workerStep_todo hr).trans ht, m, ni, mi, pi, hd.worker (by omega) hv hph
          (fun t e i hc => by simpa [hc, WPc.working] using hov) hr⟩)
      | .move .spuriousMain, hv =>
        simp only [stepF, Option.map_eq_some_iff] at hs
        obtain ⟨q, hq, rfl⟩ := hs
        simp only [step] at hq
        split at hq
        · simp only [Option.some.injEq] at hq
          subst hq
          exact Or.inr (Or.inl ⟨ht, m, ni, mi, pi, hd.keep rfl rfl (fun _ _ _ _ _ => Iff.rfl) (fun _ _ => Or.inl rfl)⟩)
        · cases hq
      | .move (.spurious j), hv =>
        simp only [stepF, Option.map_eq_some_iff] at hs
        obtain ⟨q, hq, rfl⟩ := hs
        simp only [step] at hq
        split at hq
        · next hasleep =>
          simp only [Option.some.injEq] at hq
          subst hq
          refine Or.inr (Or.inl ⟨ht, m, ni, mi, pi, hd.keep rfl rfl (fun j' _ t e i => ?_) (fun _ _ => Or.inl rfl)⟩)
          by_cases hj : j' = j
          · subst hj; simp [hasleep]
          · simp [hj]
        · cases hq
      | .data j, hv =>
        obtain ⟨e, hd'⟩ := hd.access H hm0 hv hph hs
        exact Or.inr (Or.inl ⟨by rw [e]; exact ht, hd'⟩)
    · right; right
      have : s'.par.todo.length ≤ s.par.todo.length := by
        match l, hv with
        | .move .main, hv =>
          simp only [stepF, Option.map_eq_some_iff] at hs
          obtain ⟨q, hq, rfl⟩ := hs
          exact step_todo hq
        | .move (.worker j), hv =>
          simp only [stepF] at hs
          split at hs
          · cases hs
          simp only [Option.map_eq_some_iff] at hs
          obtain ⟨q, hq, rfl⟩ := hs
          exact step_todo hq
        | .move .spuriousMain, hv =>
          simp only [stepF, Option.map_eq_some_iff] at hs
          obtain ⟨q, hq, rfl⟩ := hs
          exact step_todo hq
        | .move (.spurious j), hv =>
          simp only [stepF, Option.map_eq_some_iff] at hs
          obtain ⟨q, hq, rfl⟩ := hs
          exact step_todo hq
        | .data j, _ =>
          simp only [stepF, dataStep] at hs
          split at hs
          · split at hs
            · cases hs
            · split at hs <;> simp only [Option.some.injEq] at hs <;> subst hs <;> exact le_rfl
          · cases hs
      omega

/-- In every interleaving the data stay defined, and once the main thread is past its wait they are those that one thread gives that
works on the indices one after the other, in any order. -/
theorem parallel_serial (hp : p.kMin < p.kMax) {rest : List Phase} (H : Separate W p.kind N j0 p.kMin p.kMax get own Inv Good)
    {s₀ s : Full S P} (h0 : Ready N p rest s₀.par) {mS : S} (hmem : s₀.mem = .ok mS) (hpos : ∀ j, s₀.pos j = W.start)
    (henter : W.enter p mS = .ok m0) (hm0 : Inv m0) (h : ReachF W N s₀ s) (hlater : rest.length ≤ s.par.todo.length) {l : List ℕ}
    (hnd : l.Nodup) (hl : ∀ i, i ∈ l ↔ p.kMin ≤ i ∧ i ≤ p.kMax) {r : S} (hc : Chain W p.kind j0 l m0 r) :
    (∃ m, s.mem = .ok m) ∧ (s.par.todo = rest → Released s.par → s.mem = .ok r) := by
  have hne : p :: rest ≠ rest := fun e => by simpa using congrArg List.length e
  rcases data_inv hp H h0 hmem hpos henter hm0 h with ⟨ht, hm, -⟩ | ⟨ht, m, ni, mi, pi, hd⟩ | ht
  · exact ⟨⟨_, hm⟩, fun e => absurd (ht.symm.trans e) hne⟩
  · refine ⟨⟨_, hd.mem⟩, fun _ hrel => ?_⟩
    obtain ⟨⟨new, hlog, hperm⟩, -⟩ := (C56_phase_partial N p rest hp s₀.par s.par h0 h.par (by omega)).2 ht hrel
    have hdone : ∀ i, p.kMin ≤ i → i ≤ p.kMax → W.over (pi i) = true := fun i a b => by
      refine hd.done i a b ?_
      rw [hlog, List.drop_left, hperm.mem_iff, List.mem_map]
      exact ⟨i, by rw [List.mem_range'_1]; omega, rfl⟩
    obtain ⟨c1, c2, c3⟩ := H.chain l m0 r hm0 hnd (fun i hi => (hl i).1 hi) hc
    rw [hd.mem]
    refine congrArg _ (H.ext m r hd.inv c1 fun a => ?_)
    by_cases hown : ∃ i, p.kMin ≤ i ∧ i ≤ p.kMax ∧ own a = some i
    · obtain ⟨i, a1, a2, a3⟩ := hown
      rw [hd.owned i a1 a2 a a3]
      exact (c2 i ((hl i).2 ⟨a1, a2⟩) _ _ _ (hd.alone i a1 a2) (hdone i a1 a2) a a3).symm
    · rw [hd.rest a fun i a1 a2 a3 => hown ⟨i, a1, a2, a3⟩]
      exact (c3 a fun i hi a3 => hown ⟨i, ((hl i).1 hi).1, ((hl i).1 hi).2, a3⟩).symm
  · omega

/-- A worker at work can finish its work on the index. -/
theorem can_finish (hp : p.kMin < p.kMax) {rest : List Phase} (H : Separate W p.kind N j0 p.kMin p.kMax get own Inv Good)
    (rank : P → ℕ) (hrank : ∀ i a m m' a', W.over a = false → W.step p.kind j0 i a m = .ok (m', a') → rank a' < rank a)
    {s₀ : Full S P} (h0 : Ready N p rest s₀.par) {mS : S} (hmem : s₀.mem = .ok mS) (hpos : ∀ j, s₀.pos j = W.start)
    (henter : W.enter p mS = .ok m0) (hm0 : Inv m0) {j : ℕ} (hj : j < N) : ∀ (c : ℕ) {s : Full S P}, rank (s.pos j) = c → ReachF W N s₀ s →
      rest.length ≤ s.par.todo.length →
      ∃ s', ReachF W N s₀ s' ∧ s'.par = s.par ∧ ((s'.par.ws j).pc.working && !W.over (s'.pos j)) = false := by
  intro c
  induction c using Nat.strong_induction_on with
  | _ c ih =>
  intro s hc h hlater
  by_cases hw : ((s.par.ws j).pc.working && !W.over (s.pos j)) = false
  · exact ⟨s, h, rfl, hw⟩
  have hw' : (s.par.ws j).pc.working = true ∧ W.over (s.pos j) = false := by simpa using hw
  obtain ⟨t, e, i, hpc⟩ : ∃ t e i, (s.par.ws j).pc = .work t e i := by
    cases hpc : (s.par.ws j).pc with
    | work t e i => exact ⟨t, e, i, rfl⟩
    | _ => rw [hpc] at hw'; exact absurd hw'.1 (by simp [WPc.working])
  have hne : p :: rest ≠ rest := fun e => by simpa using congrArg List.length e
  rcases data_inv hp H h0 hmem hpos henter hm0 h with ⟨ht, -⟩ | ⟨ht, m, ni, mi, pi, hd⟩ | ht
  · rcases reach_cases hp h0 h.par with ⟨hr, -⟩ | ⟨hr, -⟩ | ⟨hr, -⟩ | hr
    · have := hr.quiet j hj; rw [hpc] at this; cases this
    · exact absurd (ht.symm.trans hr) hne
    · exact absurd (ht.symm.trans hr) hne
    · omega
  · have hrun : Running N p s₀.par.log s.par := by
      rcases phase_cases hp h0 h.par ht with hs | hs
      · have := hs.quiet j hj; rw [hpc] at this; cases this
      · exact hs
    obtain ⟨rfl, c1, c2, -, -⟩ := hrun.atWork hj hpc
    have hpi := hd.work j hj _ _ _ hpc
    obtain ⟨-, a2, -⟩ := H.alone c1 c2 hm0 (hd.alone i c1 c2)
    rw [hpi] at a2
    obtain ⟨m', p', e1, -, -, -⟩ := H.ok i c1 c2 (s.pos j) m a2 hw'.2 hd.inv
    have hstep : stepF W s (.data j) = some { s with mem := .ok m', pos := Function.update s.pos j p' } := by
      simp only [stepF, dataStep, hpc, hd.mem, hw'.2, Bool.false_eq_true, if_false, H.same j hj, e1]
    have hlt : rank (Function.update s.pos j p' j) < c := by
      rw [Function.update_self, ← hc]
      exact hrank i _ _ _ _ hw'.2 e1
    exact ih _ hlt (s := { s with mem := .ok m', pos := Function.update s.pos j p' }) rfl (h.move (.data j) hj hstep) hlater
  · omega

/-- The accesses to the data do not get in the way of the protocol: whatever the protocol can reach in a phase can be reached together
with the work. -/
theorem reach_lift (hp : p.kMin < p.kMax) {rest : List Phase} (H : Separate W p.kind N j0 p.kMin p.kMax get own Inv Good)
    (rank : P → ℕ) (hrank : ∀ i a m m' a', W.over a = false → W.step p.kind j0 i a m = .ok (m', a') → rank a' < rank a)
    {s₀ : Full S P} (h0 : Ready N p rest s₀.par) {mS : S} (hmem : s₀.mem = .ok mS) (hpos : ∀ j, s₀.pos j = W.start)
    (henter : W.enter p mS = .ok m0) (hm0 : Inv m0) {q : Par} (h : Reach N s₀.par q) (hlater : rest.length ≤ q.todo.length) :
    ∃ s, ReachF W N s₀ s ∧ s.par = q := by
  induction h with
  | refl => exact ⟨s₀, .refl, rfl⟩
  | @move q q' l _ hv hs ih =>
    obtain ⟨s, h1, rfl⟩ := ih (hlater.trans (step_todo hs))
    match l, hv with
    | .main, hv => exact ⟨{ s with par := q', mem := mainData W s.par s.mem }, h1.move (.move .main) hv (by simp [stepF, hs]), rfl⟩
    | .spuriousMain, hv => exact ⟨{ s with par := q' }, h1.move (.move .spuriousMain) hv (by simp [stepF, hs]), rfl⟩
    | .spurious j, hv => exact ⟨{ s with par := q' }, h1.move (.move (.spurious j)) hv (by simp [stepF, hs]), rfl⟩
    | .worker j, hv =>
      obtain ⟨s', g1, g2, g3⟩ := can_finish hp H rank hrank h0 hmem hpos henter hm0 hv _ rfl h1 (hlater.trans (step_todo hs))
      rw [← g2] at hs
      exact ⟨{ s' with par := q', pos := Function.update s'.pos j W.start }, g1.move (.move (.worker j)) hv (by
        simp only [stepF, g3, Bool.false_eq_true, if_false, hs, Option.map_some]), rfl⟩

end

end CT.Par
