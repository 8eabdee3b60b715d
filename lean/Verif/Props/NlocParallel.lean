import Verif.Model.NlocParallel
import Mathlib.Data.List.Range
import Mathlib.Data.List.Perm.Subperm
import Mathlib.Data.List.Nodup
import Mathlib.Tactic.Ring

/-!
# C56: a parallel phase works on every index exactly once
-/

namespace CT.Par

/-! ### Specification -/

/-- The worker is inside a task, or has read one and is on its way into it. -/
def taskIn : WPc → Option Task
  | .gotTask t => t
  | .reloaded t => t
  | .head t _ => some t
  | .took t _ _ => some t
  | .work t _ _ => some t
  | .done t _ _ => some t
  | .exit t _ => some t
  | .notify t _ => some t
  | _ => none

/-- No worker is busy with, or on its way into, an earlier task. -/
def Quiet (N : ℕ) (s : Par) : Prop := ∀ j < N, taskIn (s.ws j).pc = none

/-- The state in which the main thread is about to start phase `p`. -/
structure Ready (N : ℕ) (p : Phase) (rest : List Phase) (s : Par) : Prop where
  main : s.main = .idle
  todo : s.todo = p :: rest
  task : s.task = none
  quiet : Quiet N s

/-- Since the log was `before`, only indices of the range of `p` were worked on, with the task of `p`,
and none twice. -/
def AtMostOnce (p : Phase) (before : List (Task × ℕ)) (s : Par) : Prop :=
  ∃ new, s.log = before ++ new ∧ new.Nodup ∧
    ∀ x ∈ new, x.1 = p.kind ∧ p.kMin ≤ x.2 ∧ x.2 ≤ p.kMax

/-- Since the log was `before`, every index `kMin, ..., kMax` was worked on exactly once, and no worker
is still at work. -/
def Complete (N : ℕ) (p : Phase) (before : List (Task × ℕ)) (s : Par) : Prop :=
  (∃ new, s.log = before ++ new ∧
    new.Perm ((List.range' p.kMin (p.kMax - p.kMin + 1)).map fun i => (p.kind, i))) ∧
  ∀ j < N, ∀ t e i, (s.ws j).pc ≠ .work t e i

/-! ### Invariant -/

/-- The index a worker is responsible for. -/
def hold (lo hi : ℕ) : WPc → Option ℕ
  | .took _ _ k => if k ≤ hi - lo then some (hi - k) else none
  | .work _ _ i => some i
  | .done _ _ i => some i
  | _ => none

/-- What holds of the indices in a phase: `new` are those worked on, `cnt` those counted in
`kCompleted_`. -/
structure Core (lo hi N kT : ℕ) (new cnt : List ℕ) (pc : ℕ → WPc) : Prop where
  newNodup : new.Nodup
  newRange : ∀ i ∈ new, lo ≤ i ∧ i ≤ hi ∧ hi - i < kT
  cntNodup : cnt.Nodup
  cntSub : ∀ i ∈ cnt, i ∈ new
  tookLt : ∀ j < N, ∀ t e k, pc j = .took t e k → k < kT
  holdRange : ∀ j < N, ∀ i, hold lo hi (pc j) = some i →
    lo ≤ i ∧ i ≤ hi ∧ hi - i < kT ∧ i ∉ cnt
  isNew : ∀ j < N, ∀ i, hold lo hi (pc j) = some i → (i ∈ new ↔ ∃ t e, pc j = .done t e i)
  inj : ∀ j < N, ∀ j' < N, ∀ i, hold lo hi (pc j) = some i → hold lo hi (pc j') = some i → j = j'
  cover : ∀ i, lo ≤ i → i ≤ hi → hi - i < kT → i ∈ cnt ∨ ∃ j < N, hold lo hi (pc j) = some i

section
variable {lo hi N kT : ℕ} {new cnt : List ℕ} {pc : ℕ → WPc}

/-- A worker moves without changing what it is responsible for. -/
theorem Core.move (h : Core lo hi N kT new cnt pc) (j : ℕ) (c : WPc)
    (hh : hold lo hi c = hold lo hi (pc j))
    (hd : ∀ i, (∃ t e, c = .done t e i) ↔ ∃ t e, pc j = .done t e i)
    (ht : ∀ t e k, c ≠ .took t e k) : Core lo hi N kT new cnt (Function.update pc j c) := by
  have hh' : ∀ j', hold lo hi (Function.update pc j c j') = hold lo hi (pc j') := by
    intro j'
    by_cases e : j' = j
    · subst e; simp [hh]
    · simp [e]
  refine ⟨h.newNodup, h.newRange, h.cntNodup, h.cntSub, ?_, ?_, ?_, ?_, ?_⟩
  · intro j' hj' t e k he
    by_cases e' : j' = j
    · subst e'; rw [Function.update_self] at he; exact absurd he (ht t e k)
    · rw [Function.update_of_ne e'] at he; exact h.tookLt j' hj' t e k he
  · intro j' hj' i hi'
    rw [hh'] at hi'; exact h.holdRange j' hj' i hi'
  · intro j' hj' i hi'
    rw [hh'] at hi'
    rw [h.isNew j' hj' i hi']
    by_cases e' : j' = j
    · subst e'; rw [Function.update_self]; exact (hd i).symm
    · rw [Function.update_of_ne e']
  · intro a ha b hb i h1 h2
    rw [hh'] at h1 h2; exact h.inj a ha b hb i h1 h2
  · intro i h1 h2 h3
    rcases h.cover i h1 h2 h3 with h4 | ⟨j', hj', h4⟩
    · exact Or.inl h4
    · exact Or.inr ⟨j', hj', by rw [hh']; exact h4⟩

/-- `k = kTaken_++`. -/
theorem Core.take (hle : lo ≤ hi) (h : Core lo hi N kT new cnt pc) (j : ℕ) (hj : j < N) (t : Task) (e : ℕ)
    (hpc : hold lo hi (pc j) = none) :
    Core lo hi N (kT + 1) new cnt (Function.update pc j (.took t e kT)) := by
  have hnew : ∀ i, hold lo hi (WPc.took t e kT) = some i → lo ≤ i ∧ i ≤ hi ∧ hi - i = kT := by
    intro i hi'
    simp only [hold] at hi'
    split at hi'
    · simp only [Option.some.injEq] at hi'; omega
    · simp at hi'
  refine ⟨h.newNodup, fun i hi' => ?_, h.cntNodup, h.cntSub, ?_, ?_, ?_, ?_, ?_⟩
  · have := h.newRange i hi'; omega
  · intro j' hj' t' e' k he
    by_cases e'' : j' = j
    · subst e''; rw [Function.update_self] at he; injection he; omega
    · rw [Function.update_of_ne e''] at he
      have := h.tookLt j' hj' t' e' k he; omega
  · intro j' hj' i hi'
    by_cases e'' : j' = j
    · subst e''; rw [Function.update_self] at hi'
      obtain ⟨h1, h2, h3⟩ := hnew i hi'
      refine ⟨h1, h2, by omega, fun hc => ?_⟩
      have := h.newRange i (h.cntSub i hc); omega
    · rw [Function.update_of_ne e''] at hi'
      obtain ⟨h1, h2, h3, h4⟩ := h.holdRange j' hj' i hi'
      exact ⟨h1, h2, by omega, h4⟩
  · intro j' hj' i hi'
    by_cases e'' : j' = j
    · subst e''; rw [Function.update_self] at hi' ⊢
      obtain ⟨h1, h2, h3⟩ := hnew i hi'
      constructor
      · intro hc; have := h.newRange i hc; omega
      · rintro ⟨_, _, hc⟩; cases hc
    · rw [Function.update_of_ne e''] at hi' ⊢
      exact h.isNew j' hj' i hi'
  · have key : ∀ b < N, b ≠ j → ∀ i, hold lo hi (WPc.took t e kT) = some i →
        hold lo hi (pc b) = some i → False := by
      intro b hb hne i h1 h2
      have := hnew i h1
      have := h.holdRange b hb i h2
      omega
    intro a ha b hb i h1 h2
    by_cases ea : a = j
    · by_cases eb : b = j
      · rw [ea, eb]
      · subst ea
        rw [Function.update_self] at h1; rw [Function.update_of_ne eb] at h2
        exact absurd h2 (fun h2 => key b hb eb i h1 h2)
    · by_cases eb : b = j
      · subst eb
        rw [Function.update_self] at h2; rw [Function.update_of_ne ea] at h1
        exact absurd h1 (fun h1 => key a ha ea i h2 h1)
      · rw [Function.update_of_ne ea] at h1; rw [Function.update_of_ne eb] at h2
        exact h.inj a ha b hb i h1 h2
  · intro i h1 h2 h3
    by_cases hk : hi - i < kT
    · rcases h.cover i h1 h2 hk with h4 | ⟨j', hj', h4⟩
      · exact Or.inl h4
      · refine Or.inr ⟨j', hj', ?_⟩
        by_cases e'' : j' = j
        · subst e''; rw [hpc] at h4; cases h4
        · rw [Function.update_of_ne e'']; exact h4
    · refine Or.inr ⟨j, hj, ?_⟩
      rw [Function.update_self]
      simp only [hold]
      rw [if_pos (by omega)]
      congr 1; omega

/-- The work on an index ends. -/
theorem Core.finish (h : Core lo hi N kT new cnt pc) (j : ℕ) (hj : j < N) (t : Task) (e i : ℕ)
    (hpc : pc j = .work t e i) :
    Core lo hi N kT (new ++ [i]) cnt (Function.update pc j (.done t e i)) := by
  have hhold : hold lo hi (pc j) = some i := by rw [hpc]; rfl
  have hi' := h.holdRange j hj i hhold
  have hin : i ∉ new := by
    rw [h.isNew j hj i hhold, hpc]; rintro ⟨_, _, hc⟩; cases hc
  have hh' : ∀ j', hold lo hi (Function.update pc j (.done t e i) j') = hold lo hi (pc j') := by
    intro j'
    by_cases e' : j' = j
    · subst e'; rw [Function.update_self, hhold]; rfl
    · simp [e']
  refine ⟨?_, ?_, h.cntNodup, fun a ha => List.mem_append_left _ (h.cntSub a ha), ?_, ?_, ?_, ?_, ?_⟩
  · exact List.nodup_append.2 ⟨h.newNodup, List.nodup_singleton _,
      fun a ha b hb => by simp only [List.mem_singleton] at hb; subst hb; exact fun e => hin (e ▸ ha)⟩
  · intro a ha
    rcases List.mem_append.1 ha with ha | ha
    · exact h.newRange a ha
    · simp only [List.mem_singleton] at ha; subst ha; exact ⟨hi'.1, hi'.2.1, hi'.2.2.1⟩
  · intro j' hj' t' e' k he
    by_cases e'' : j' = j
    · subst e''; rw [Function.update_self] at he; cases he
    · rw [Function.update_of_ne e''] at he; exact h.tookLt j' hj' t' e' k he
  · intro j' hj' a ha
    rw [hh'] at ha; exact h.holdRange j' hj' a ha
  · intro j' hj' a ha
    rw [hh'] at ha
    by_cases e'' : j' = j
    · subst e''
      rw [Function.update_self]
      rw [hhold] at ha
      simp only [Option.some.injEq] at ha
      subst ha
      simp
    · rw [Function.update_of_ne e'', ← h.isNew j' hj' a ha, List.mem_append]
      have : a ≠ i := fun ea => e'' (h.inj j' hj' j hj i (ea ▸ ha) hhold)
      simp [this]
  · intro a ha b hb i' h1 h2
    rw [hh'] at h1 h2; exact h.inj a ha b hb i' h1 h2
  · intro a h1 h2 h3
    rcases h.cover a h1 h2 h3 with h4 | ⟨j', hj', h4⟩
    · exact Or.inl h4
    · exact Or.inr ⟨j', hj', by rw [hh']; exact h4⟩

/-- `kCompleted_++`. -/
theorem Core.count (h : Core lo hi N kT new cnt pc) (j : ℕ) (hj : j < N) (t : Task) (e i : ℕ)
    (hpc : pc j = .done t e i) :
    Core lo hi N kT new (cnt ++ [i]) (Function.update pc j (.head t e)) := by
  have hhold : hold lo hi (pc j) = some i := by rw [hpc]; rfl
  have hi' := h.holdRange j hj i hhold
  have hin : i ∈ new := (h.isNew j hj i hhold).2 ⟨t, e, hpc⟩
  have hother : ∀ j' < N, ∀ a, hold lo hi (Function.update pc j (.head t e) j') = some a →
      j' ≠ j ∧ hold lo hi (pc j') = some a := by
    intro j' _ a ha
    by_cases e' : j' = j
    · subst e'; rw [Function.update_self] at ha; cases ha
    · rw [Function.update_of_ne e'] at ha; exact ⟨e', ha⟩
  refine ⟨h.newNodup, h.newRange, ?_, ?_, ?_, ?_, ?_, ?_, ?_⟩
  · exact List.nodup_append.2 ⟨h.cntNodup, List.nodup_singleton _,
      fun a ha b hb => by
        simp only [List.mem_singleton] at hb; subst hb; exact fun e => hi'.2.2.2 (e ▸ ha)⟩
  · intro a ha
    rcases List.mem_append.1 ha with ha | ha
    · exact h.cntSub a ha
    · simp only [List.mem_singleton] at ha; subst ha; exact hin
  · intro j' hj' t' e' k he
    by_cases e'' : j' = j
    · subst e''; rw [Function.update_self] at he; cases he
    · rw [Function.update_of_ne e''] at he; exact h.tookLt j' hj' t' e' k he
  · intro j' hj' a ha
    obtain ⟨hne, ha'⟩ := hother j' hj' a ha
    obtain ⟨h1, h2, h3, h4⟩ := h.holdRange j' hj' a ha'
    refine ⟨h1, h2, h3, fun hc => ?_⟩
    rcases List.mem_append.1 hc with hc | hc
    · exact h4 hc
    · simp only [List.mem_singleton] at hc
      exact hne (h.inj j' hj' j hj i (hc ▸ ha') hhold)
  · intro j' hj' a ha
    obtain ⟨hne, ha'⟩ := hother j' hj' a ha
    rw [Function.update_of_ne hne]
    exact h.isNew j' hj' a ha'
  · intro a ha b hb i' h1 h2
    exact h.inj a ha b hb i' (hother a ha i' h1).2 (hother b hb i' h2).2
  · intro a h1 h2 h3
    rcases h.cover a h1 h2 h3 with h4 | ⟨j', hj', h4⟩
    · exact Or.inl (List.mem_append_left _ h4)
    · by_cases e' : j' = j
      · subst e'
        rw [hhold] at h4
        simp only [Option.some.injEq] at h4
        exact Or.inl (List.mem_append_right _ (by simp [h4]))
      · exact Or.inr ⟨j', hj', by rw [Function.update_of_ne e']; exact h4⟩

/-- A worker leaves with nothing to be responsible for. -/
theorem Core.full (hle : lo ≤ hi) (h : Core lo hi N kT new cnt pc) (hc : hi - lo < cnt.length) :
    new.Perm (List.range' lo (hi - lo + 1)) ∧ ∀ j < N, ∀ i, hold lo hi (pc j) ≠ some i := by
  have hsub : ∀ i ∈ new, i ∈ List.range' lo (hi - lo + 1) := by
    intro i hi'
    have := h.newRange i hi'
    rw [List.mem_range'_1]; omega
  have hlen : cnt.length ≤ new.length :=
    (List.subperm_of_subset h.cntNodup h.cntSub).length_le
  have hp : new.Perm (List.range' lo (hi - lo + 1)) := by
    refine (List.subperm_of_subset h.newNodup hsub).perm_of_length_le ?_
    rw [List.length_range']; omega
  have hp' : cnt.Perm (List.range' lo (hi - lo + 1)) := by
    refine (List.subperm_of_subset h.cntNodup fun i hi' => hsub i (h.cntSub i hi')).perm_of_length_le ?_
    rw [List.length_range']; omega
  refine ⟨hp, fun j hj i hh => ?_⟩
  obtain ⟨h1, h2, -, h4⟩ := h.holdRange j hj i hh
  refine h4 ((hp'.mem_iff).2 ?_)
  rw [List.mem_range'_1]; omega

end

/-- Phase `p` is under way (its task was published) or over. -/
structure Running (N : ℕ) (p : Phase) (before : List (Task × ℕ)) (s : Par) : Prop where
  kMin : s.kMin = p.kMin
  kMax : s.kMax = p.kMax
  task : ∀ t, s.task = some t → t = p.kind
  tasks : ∀ j < N, ∀ t, taskIn (s.ws j).pc = some t → t = p.kind
  main : s.main = .notifyAll ∨ s.main = .check ∨ s.main = .window ∨ s.main = .asleep ∨
    ((s.main = .setIdle ∨ (s.main = .bump ∧ s.task = none) ∨ (s.main = .idle ∧ s.task = none)) ∧
      p.kMax - p.kMin < s.kCompleted)
  core : ∃ new cnt, s.log = before ++ new.map (fun i => (p.kind, i)) ∧ s.kCompleted = cnt.length ∧
    Core p.kMin p.kMax N s.kTaken new cnt fun j => (s.ws j).pc

/-- Phase `p` is being set up. -/
structure Setup (N : ℕ) (p : Phase) (before : List (Task × ℕ)) (s : Par) : Prop where
  task : s.task = none
  quiet : Quiet N s
  log : s.log = before
  main : s.main = .clearTaken p ∨ (s.main = .clearCompleted p ∧ s.kTaken = 0) ∨
    (s.main = .setMax p ∧ s.kTaken = 0 ∧ s.kCompleted = 0) ∨
    (s.main = .setMin p ∧ s.kTaken = 0 ∧ s.kCompleted = 0 ∧ s.kMax = p.kMax) ∨
    (s.main = .setTask p ∧ s.kTaken = 0 ∧ s.kCompleted = 0 ∧ s.kMax = p.kMax ∧ s.kMin = p.kMin)

theorem sub64_of_le {a b : ℕ} (h : b ≤ a) : sub64 a b = a - b := by simp [sub64, h]

/-- Quiet workers stay quiet while there is no task, and change nothing. -/
theorem quiet_step {s : Par} {w : Worker} (hw : taskIn w.pc = none) (ht : s.task = none)
    {r : Par × Worker} (h : workerStep s w = some r) : r.1 = s ∧ taskIn r.2.pc = none := by
  obtain ⟨pc, pid⟩ := w
  unfold workerStep at h
  cases pc with
  | gotTask t =>
    cases t with
    | none => simp only [Option.some.injEq] at h; subst h; exact ⟨rfl, rfl⟩
    | some t => simp [taskIn] at hw
  | reloaded t =>
    cases t with
    | none => simp only [Option.some.injEq] at h; subst h; exact ⟨rfl, rfl⟩
    | some t => simp [taskIn] at hw
  | top => simp only [Option.some.injEq] at h; subst h; exact ⟨rfl, by simp [taskIn, ht]⟩
  | check => simp only [Option.some.injEq] at h; subst h; simp [ht, taskIn]
  | check2 => simp only [Option.some.injEq] at h; subst h; simp [ht, taskIn]
  | window => simp only [Option.some.injEq] at h; subst h; exact ⟨rfl, rfl⟩
  | reload => simp only [Option.some.injEq] at h; subst h; exact ⟨rfl, by simp [taskIn, ht]⟩
  | asleep => simp at h
  | head t e => simp [taskIn] at hw
  | took t e k => simp [taskIn] at hw
  | work t e k => simp [taskIn] at hw
  | done t e k => simp [taskIn] at hw
  | exit t e => simp [taskIn] at hw
  | notify t e => simp [taskIn] at hw

theorem quiet_update {N j : ℕ} {s : Par} {w : Worker} (h : Quiet N s) (hw : taskIn w.pc = none)
    {s' : Par} (hs : s'.ws = Function.update s.ws j w) : Quiet N s' := by
  intro j' hj'
  rw [hs]
  by_cases e : j' = j
  · subst e; rw [Function.update_self]; exact hw
  · rw [Function.update_of_ne e]; exact h j' hj'

private theorem pc_update (ws : ℕ → Worker) (j : ℕ) (w : Worker) :
    (fun j' => (Function.update ws j w j').pc) = Function.update (fun j' => (ws j').pc) j w.pc := by
  funext j'
  by_cases e : j' = j
  · subst e; simp
  · simp [e]

private theorem tasks_update {N j : ℕ} {ws : ℕ → Worker} {w : Worker} {k : Task}
    (h : ∀ j < N, ∀ t, taskIn (ws j).pc = some t → t = k) (hw : ∀ t, taskIn w.pc = some t → t = k) :
    ∀ j' < N, ∀ t, taskIn (Function.update ws j w j').pc = some t → t = k := by
  intro j' hj' t ht
  by_cases e : j' = j
  · subst e; rw [Function.update_self] at ht; exact hw t ht
  · rw [Function.update_of_ne e] at ht; exact h j' hj' t ht

/-- A worker that only moves on. -/
theorem Running.move {N : ℕ} {p : Phase} {before : List (Task × ℕ)} {s : Par}
    (h : Running N p before s) (j : ℕ) (w : Worker)
    (hh : hold p.kMin p.kMax w.pc = hold p.kMin p.kMax (s.ws j).pc)
    (hd : ∀ i, (∃ t e, w.pc = .done t e i) ↔ ∃ t e, (s.ws j).pc = .done t e i)
    (ht : ∀ t e k, w.pc ≠ .took t e k) (hw : ∀ t, taskIn w.pc = some t → t = p.kind) :
    Running N p before { s with ws := Function.update s.ws j w } := by
  obtain ⟨new, cnt, h1, h2, h3⟩ := h.core
  refine ⟨h.kMin, h.kMax, h.task, tasks_update h.tasks hw, h.main, new, cnt, h1, h2, ?_⟩
  show Core _ _ _ _ _ _ (fun j' => (Function.update s.ws j w j').pc)
  rw [pc_update]
  exact h3.move j w.pc hh hd ht

theorem Running.workerStep {N : ℕ} {p : Phase} (hp : p.kMin ≤ p.kMax)
    {before : List (Task × ℕ)} {s : Par} (h : Running N p before s) {j : ℕ} (hj : j < N)
    {r : Par × Worker} (hr : workerStep s (s.ws j) = some r) :
    Running N p before { r.1 with ws := Function.update r.1.ws j r.2 } := by
  obtain ⟨new, cnt, h1, h2, h3⟩ := h.core
  have hspan : s.span = p.kMax - p.kMin := by
    unfold Par.span; rw [h.kMin, h.kMax, sub64_of_le hp]
  have htj := h.tasks j hj
  obtain ⟨pc, pid, hw⟩ : ∃ pc pid, s.ws j = ⟨pc, pid⟩ := ⟨_, _, rfl⟩
  rw [hw] at hr
  have hpcj : (s.ws j).pc = pc := by rw [hw]
  unfold CT.Par.workerStep at hr
  cases pc with
  | top =>
    simp only [Option.some.injEq] at hr; subst hr
    refine h.move j _ (by rw [hpcj]; rfl) (by simp [hpcj]) (by simp) ?_
    simpa [taskIn] using h.task
  | gotTask t =>
    cases t with
    | none =>
      simp only [Option.some.injEq] at hr; subst hr
      exact h.move j _ (by rw [hpcj]; rfl) (by simp [hpcj]) (by simp) (by simp [taskIn])
    | some t =>
      simp only at hr
      split at hr
      · simp only [Option.some.injEq] at hr; subst hr
        exact h.move j _ (by rw [hpcj]; rfl) (by simp [hpcj]) (by simp) (by simp [taskIn])
      · simp only [Option.some.injEq] at hr; subst hr
        refine h.move j _ (by rw [hpcj]; rfl) (by simp [hpcj]) (by simp) ?_
        intro t' ht'; exact htj t' (by rw [hw]; exact ht')
  | check =>
    simp only [Option.some.injEq] at hr; subst hr
    refine h.move j _ ?_ ?_ ?_ ?_ <;> split <;> simp [hpcj, hold, taskIn]
  | check2 =>
    simp only [Option.some.injEq] at hr; subst hr
    refine h.move j _ ?_ ?_ ?_ ?_ <;> split <;> simp [hpcj, hold, taskIn]
  | window =>
    simp only [Option.some.injEq] at hr; subst hr
    exact h.move j _ (by rw [hpcj]; rfl) (by simp [hpcj]) (by simp) (by simp [taskIn])
  | asleep => simp at hr
  | reload =>
    simp only [Option.some.injEq] at hr; subst hr
    refine h.move j _ (by rw [hpcj]; rfl) (by simp [hpcj]) (by simp) ?_
    simpa [taskIn] using h.task
  | reloaded t =>
    cases t with
    | none =>
      simp only [Option.some.injEq] at hr; subst hr
      exact h.move j _ (by rw [hpcj]; rfl) (by simp [hpcj]) (by simp) (by simp [taskIn])
    | some t =>
      simp only [Option.some.injEq] at hr; subst hr
      refine h.move j _ (by rw [hpcj]; rfl) (by simp [hpcj]) (by simp) ?_
      intro t' ht'; exact htj t' (by rw [hw]; exact ht')
  | head t e =>
    simp only [Option.some.injEq] at hr; subst hr
    refine ⟨h.kMin, h.kMax, h.task, tasks_update h.tasks ?_, h.main, new, cnt, h1, h2, ?_⟩
    · intro t' ht'; exact htj t' (by rw [hw]; exact ht')
    · show Core _ _ _ _ _ _ (fun j' => (Function.update s.ws j _ j').pc)
      rw [pc_update]
      exact h3.take hp j hj t e (by simp [hpcj, hold])
  | took t e k =>
    simp only [Option.some.injEq] at hr; subst hr
    rw [hspan]
    by_cases hk : k > p.kMax - p.kMin
    · rw [if_pos hk]
      refine h.move j _ ?_ (by simp [hpcj]) (by simp) ?_
      · rw [hpcj]; simp [hold, hk]
      · intro t' ht'; exact htj t' (by rw [hw]; exact ht')
    · rw [if_neg hk, h.kMax, sub64_of_le (by omega)]
      refine h.move j _ ?_ (by simp [hpcj]) (by simp) ?_
      · rw [hpcj]; simp only [hold]; rw [if_pos (by omega)]
      · intro t' ht'; exact htj t' (by rw [hw]; exact ht')
  | work t e i =>
    simp only [Option.some.injEq] at hr; subst hr
    have ht : t = p.kind := htj t (by rw [hw]; rfl)
    refine ⟨h.kMin, h.kMax, h.task, tasks_update h.tasks ?_, h.main, new ++ [i], cnt, ?_, h2, ?_⟩
    · intro t' ht'; exact htj t' (by rw [hw]; exact ht')
    · simp [h1, ht]
    · show Core _ _ _ _ _ _ (fun j' => (Function.update s.ws j _ j').pc)
      rw [pc_update]
      exact h3.finish j hj t e i hpcj
  | done t e i =>
    simp only [Option.some.injEq] at hr; subst hr
    refine ⟨h.kMin, h.kMax, h.task, tasks_update h.tasks ?_, ?_, new, cnt ++ [i], h1, ?_, ?_⟩
    · intro t' ht'; exact htj t' (by rw [hw]; exact ht')
    · rcases h.main with hm | hm | hm | hm | ⟨hm, hk⟩
      · exact Or.inl hm
      · exact Or.inr (Or.inl hm)
      · exact Or.inr (Or.inr (Or.inl hm))
      · exact Or.inr (Or.inr (Or.inr (Or.inl hm)))
      · exact Or.inr (Or.inr (Or.inr (Or.inr ⟨hm, Nat.lt_succ_of_lt hk⟩)))
    · simp [h2]
    · show Core _ _ _ _ _ _ (fun j' => (Function.update s.ws j _ j').pc)
      rw [pc_update]
      exact h3.count j hj t e i hpcj
  | exit t e =>
    simp only at hr
    split at hr
    · simp only [Option.some.injEq] at hr; subst hr
      refine h.move j _ (by rw [hpcj]; rfl) (by simp [hpcj]) (by simp) ?_
      intro t' ht'; exact htj t' (by rw [hw]; exact ht')
    · simp only [Option.some.injEq] at hr; subst hr
      exact h.move j _ (by rw [hpcj]; rfl) (by simp [hpcj]) (by simp) (by simp [taskIn])
  | notify t e =>
    simp only [Option.some.injEq] at hr; subst hr
    have h' := h.move j { pc := .top, pid := some (e, t) } (by rw [hpcj]; rfl) (by simp [hpcj])
      (by simp) (by simp [taskIn])
    refine ⟨h'.kMin, h'.kMax, h'.task, h'.tasks, ?_, h'.core⟩
    have hm := h.main
    simp only [wakeMain]
    split
    · exact Or.inr (Or.inl rfl)
    · exact hm

theorem workerStep_todo {s : Par} {w : Worker} {r : Par × Worker} (h : workerStep s w = some r) :
    r.1.todo = s.todo := by
  obtain ⟨pc, pid⟩ := w
  unfold CT.Par.workerStep at h
  split at h <;> (try split at h) <;> simp only [Option.some.injEq, reduceCtorEq] at h <;>
    subst h <;> rfl

/-- A worker changes the position of the main thread only by waking it up. -/
theorem workerStep_main {s : Par} {w : Worker} {r : Par × Worker} (h : workerStep s w = some r) :
    r.1.main = s.main ∨ (s.main = .asleep ∧ r.1.main = .check) := by
  obtain ⟨pc, pid⟩ := w
  unfold CT.Par.workerStep at h
  split at h <;> (try split at h) <;> simp only [Option.some.injEq, reduceCtorEq] at h <;>
    subst h <;> first | exact Or.inl rfl | skip
  simp only [wakeMain]
  split
  · next e => exact Or.inr ⟨e, rfl⟩
  · exact Or.inl rfl

/-- A worker leaves the range alone and never decreases the counter. -/
theorem workerStep_shared {s : Par} {w : Worker} {r : Par × Worker} (h : workerStep s w = some r) :
    r.1.kMax = s.kMax ∧ r.1.kMin = s.kMin ∧ s.kCompleted ≤ r.1.kCompleted := by
  obtain ⟨pc, pid⟩ := w
  unfold CT.Par.workerStep at h
  split at h <;> (try split at h) <;> simp only [Option.some.injEq, reduceCtorEq] at h <;>
    subst h <;> simp

theorem step_todo {s s' : Par} {l : Label} (h : step s l = some s') :
    s'.todo.length ≤ s.todo.length := by
  cases l with
  | main =>
    simp only [step, mainStep] at h
    split at h
    · split at h
      · simp at h
      · next e =>
        split at h <;> simp only [Option.some.injEq] at h <;> subst h <;> simp [e]
    all_goals first
      | (simp only [Option.some.injEq] at h; subst h; exact le_rfl)
      | simp at h
  | worker j =>
    simp only [step, Option.map_eq_some_iff] at h
    obtain ⟨r, hr, h⟩ := h
    subst h
    exact le_of_eq (congrArg _ (workerStep_todo hr))
  | spuriousMain =>
    simp only [step] at h
    split at h
    · simp only [Option.some.injEq] at h; subst h; exact le_rfl
    · simp at h
  | spurious j =>
    simp only [step] at h
    split at h
    · simp only [Option.some.injEq] at h; subst h; exact le_rfl
    · simp at h

/-- `notify_all` on the workers keeps the invariant. -/
theorem running_notify {N : ℕ} {p : Phase} {before : List (Task × ℕ)} {s : Par}
    (h : Running N p before s) (_ : s.main = .notifyAll) :
    Running N p before { s with ws := fun j => wake (s.ws j), main := .check } := by
  obtain ⟨new, cnt, h1, h2, h3⟩ := h.core
  have hwake : ∀ w : Worker, (wake w).pc = w.pc ∨ (w.pc = .asleep ∧ (wake w).pc = .check) := by
    intro w; unfold wake; split
    · next hc => exact Or.inr ⟨hc, rfl⟩
    · exact Or.inl rfl
  have hhold : ∀ w : Worker, hold p.kMin p.kMax (wake w).pc = hold p.kMin p.kMax w.pc := by
    intro w; rcases hwake w with e | ⟨e, e'⟩
    · rw [e]
    · rw [e, e']; rfl
  have htask : ∀ w : Worker, taskIn (wake w).pc = taskIn w.pc := by
    intro w; rcases hwake w with e | ⟨e, e'⟩
    · rw [e]
    · rw [e, e']; rfl
  refine ⟨h.kMin, h.kMax, h.task, ?_, Or.inr (Or.inl rfl), new, cnt, h1, h2, ?_⟩
  · intro j hj t ht
    simp only [htask] at ht
    exact h.tasks j hj t ht
  · have hdone : ∀ w : Worker, ∀ t e i, (wake w).pc = .done t e i ↔ w.pc = .done t e i := by
      intro w t e i; rcases hwake w with e' | ⟨e', e''⟩
      · rw [e']
      · rw [e', e'']; simp
    have htook : ∀ w : Worker, ∀ t e i, (wake w).pc = .took t e i → w.pc = .took t e i := by
      intro w t e i; rcases hwake w with e' | ⟨e', e''⟩
      · rw [e']; exact id
      · rw [e', e'']; simp
    refine ⟨h3.newNodup, h3.newRange, h3.cntNodup, h3.cntSub, ?_, ?_, ?_, ?_, ?_⟩
    · intro j hj t e k hc; exact h3.tookLt j hj t e k (htook _ _ _ _ hc)
    · intro j hj i hc; rw [hhold] at hc; exact h3.holdRange j hj i hc
    · intro j hj i hc
      rw [hhold] at hc
      rw [h3.isNew j hj i hc]
      simp only [hdone]
    · intro a ha b hb i hc hc'; rw [hhold] at hc hc'; exact h3.inj a ha b hb i hc hc'
    · intro i a b c
      simp only [hhold]
      exact h3.cover i a b c

/-- What is known of a state that can follow `Ready`: the phase has not begun, is being set up, is
under way or over, or a later phase has begun. -/
theorem reach_cases {N : ℕ} {p : Phase} {rest : List Phase} (hp : p.kMin < p.kMax) {s₀ s : Par}
    (h0 : Ready N p rest s₀) (h : Reach N s₀ s) :
    (Ready N p rest s ∧ s.log = s₀.log) ∨ (s.todo = rest ∧ Setup N p s₀.log s) ∨
      (s.todo = rest ∧ Running N p s₀.log s) ∨ s.todo.length < rest.length := by
  induction h with
  | refl => exact Or.inl ⟨h0, rfl⟩
  | @move s s' l _ hv hs ih =>
    rcases ih with ⟨ih, hl⟩ | ⟨htodo, ih⟩ | ⟨htodo, ih⟩ | ih
    · -- not begun
      cases l with
      | main =>
        simp only [step, mainStep, ih.main, ih.todo] at hs
        rw [if_neg (by omega)] at hs
        simp only [Option.some.injEq] at hs
        subst hs
        exact Or.inr (Or.inl ⟨rfl, ih.task, ih.quiet, hl, Or.inl rfl⟩)
      | worker j =>
        simp only [step, Option.map_eq_some_iff] at hs
        obtain ⟨r, hr, hs⟩ := hs
        obtain ⟨e, hq⟩ := quiet_step (ih.quiet j hv) ih.task hr
        subst hs
        rw [e]
        exact Or.inl ⟨⟨ih.main, ih.todo, ih.task, quiet_update ih.quiet hq rfl⟩, hl⟩
      | spuriousMain => simp [step, ih.main] at hs
      | spurious j =>
        simp only [step] at hs
        split at hs
        · simp only [Option.some.injEq] at hs
          subst hs
          exact Or.inl ⟨⟨ih.main, ih.todo, ih.task, quiet_update ih.quiet (by rfl) rfl⟩, hl⟩
        · simp at hs
    · -- set-up
      cases l with
      | main =>
        simp only [step, mainStep] at hs
        rcases ih.main with hm | ⟨hm, hk⟩ | ⟨hm, hk⟩ | ⟨hm, hk⟩ | ⟨hm, hk⟩ <;>
          simp only [hm, Option.some.injEq] at hs <;> subst hs
        · exact Or.inr (Or.inl ⟨htodo, ih.task, ih.quiet, ih.log, by simp⟩)
        · exact Or.inr (Or.inl ⟨htodo, ih.task, ih.quiet, ih.log, by simp [hk]⟩)
        · exact Or.inr (Or.inl ⟨htodo, ih.task, ih.quiet, ih.log, by simp [hk]⟩)
        · exact Or.inr (Or.inl ⟨htodo, ih.task, ih.quiet, ih.log, by simp [hk]⟩)
        · obtain ⟨k1, k2, k3, k4⟩ := hk
          refine Or.inr (Or.inr (Or.inl ⟨htodo, k4, k3, ?_, ?_, Or.inl rfl, [], [], ?_, ?_, ?_⟩))
          · simp
          · intro j hj t ht
            rw [ih.quiet j hj] at ht
            cases ht
          · simp [ih.log]
          · simp [k2]
          · have hno : ∀ j < N, hold p.kMin p.kMax (s.ws j).pc = none ∧
                ∀ t e k, (s.ws j).pc ≠ .took t e k := by
              intro j hj
              have := ih.quiet j hj
              cases hc : (s.ws j).pc <;> rw [hc] at this <;> simp_all [taskIn, hold]
            refine ⟨by simp, by simp, by simp, by simp, ?_, ?_, ?_, ?_, ?_⟩
            · intro j hj t e k hc; exact absurd hc ((hno j hj).2 t e k)
            · intro j hj i hc; rw [(hno j hj).1] at hc; cases hc
            · intro j hj i hc; rw [(hno j hj).1] at hc; cases hc
            · intro j hj _ _ i hc; rw [(hno j hj).1] at hc; cases hc
            · intro i _ _ hc; simp only [k1] at hc; omega
      | worker j =>
        simp only [step, Option.map_eq_some_iff] at hs
        obtain ⟨r, hr, hs⟩ := hs
        obtain ⟨e, hq⟩ := quiet_step (ih.quiet j hv) ih.task hr
        subst hs
        rw [e]
        exact Or.inr (Or.inl ⟨htodo, ih.task, quiet_update ih.quiet hq rfl, ih.log, ih.main⟩)
      | spuriousMain =>
        simp only [step] at hs
        split at hs
        · next hm => have := ih.main; simp [hm] at this
        · simp at hs
      | spurious j =>
        simp only [step] at hs
        split at hs
        · simp only [Option.some.injEq] at hs
          subst hs
          exact Or.inr (Or.inl ⟨htodo, ih.task, quiet_update ih.quiet (by rfl) rfl, ih.log, ih.main⟩)
        · simp at hs
    · -- under way or over
      have hspan : s.span = p.kMax - p.kMin := by
        unfold Par.span; rw [ih.kMin, ih.kMax, sub64_of_le (by omega)]
      cases l with
      | main =>
        simp only [step, mainStep] at hs
        rcases ih.main with hm | hm | hm | hm | ⟨hm | hm | hm, hk⟩
        · have := running_notify ih hm
          simp only [hm, Option.some.injEq] at hs
          subst hs
          exact Or.inr (Or.inr (Or.inl ⟨htodo, this⟩))
        · simp only [hm, Option.some.injEq] at hs
          subst hs
          refine Or.inr (Or.inr (Or.inl ⟨htodo, ih.kMin, ih.kMax, ih.task, ih.tasks, ?_, ih.core⟩))
          simp only
          rw [hspan]
          by_cases hc : s.kCompleted > p.kMax - p.kMin
          · simp [hc]
          · simp [hc]
        · simp only [hm, Option.some.injEq] at hs
          subst hs
          exact Or.inr (Or.inr (Or.inl ⟨htodo, ih.kMin, ih.kMax, ih.task, ih.tasks, by simp, ih.core⟩))
        · simp [hm] at hs
        · simp only [hm, Option.some.injEq] at hs
          subst hs
          exact Or.inr (Or.inr (Or.inl ⟨htodo, ih.kMin, ih.kMax, by simp, ih.tasks, by simp [hk],
            ih.core⟩))
        · simp only [hm.1, Option.some.injEq] at hs
          subst hs
          exact Or.inr (Or.inr (Or.inl ⟨htodo, ih.kMin, ih.kMax, ih.task, ih.tasks,
            Or.inr (Or.inr (Or.inr (Or.inr ⟨Or.inr (Or.inr ⟨rfl, hm.2⟩), hk⟩))), ih.core⟩))
        · rw [hm.1, htodo] at hs
          cases hr : rest with
          | nil => simp [hr] at hs
          | cons q rest' =>
            simp only [hr] at hs
            refine Or.inr (Or.inr (Or.inr ?_))
            split at hs <;> simp only [Option.some.injEq] at hs <;> subst hs <;> simp
      | worker j =>
        simp only [step, Option.map_eq_some_iff] at hs
        obtain ⟨r, hr, hs⟩ := hs
        subst hs
        have := ih.workerStep (by omega) hv hr
        have ht : r.1.todo = s.todo := workerStep_todo hr
        exact Or.inr (Or.inr (Or.inl ⟨by rw [← htodo, ← ht], this⟩))
      | spuriousMain =>
        simp only [step] at hs
        split at hs
        · simp only [Option.some.injEq] at hs
          subst hs
          exact Or.inr (Or.inr (Or.inl ⟨htodo, ih.kMin, ih.kMax, ih.task, ih.tasks, by simp, ih.core⟩))
        · simp at hs
      | spurious j =>
        simp only [step] at hs
        split at hs
        · next hm =>
          simp only [Option.some.injEq] at hs
          subst hs
          exact Or.inr (Or.inr (Or.inl ⟨htodo, ih.move j _ (by rw [hm]; rfl) (by simp [hm]) (by simp)
            (by simp [taskIn])⟩))
        · simp at hs
    · -- later
      exact Or.inr (Or.inr (Or.inr (lt_of_le_of_lt (step_todo hs) ih)))

/-! ### C56 -/

/-- The main thread is past its wait. -/
def Released (s : Par) : Prop := s.main = .setIdle ∨ s.main = .bump ∨ s.main = .idle

/-- C56 (what holds): let the main thread start a phase over a range of more than one index while no
worker is busy with an earlier task.  Then for any number of workers and in every interleaving,
spurious wake-ups included, until the main thread starts its next phase: no index is worked on twice,
none outside the range, none with another task; and once the main thread is past its wait, every index
was worked on exactly once and no worker is at work.

Missing: nothing makes the workers of an earlier phase finish before the next one starts
(`C56_violated`, `C56_violated_range`). -/
theorem C56_phase_partial (N : ℕ) (p : Phase) (rest : List Phase) (hp : p.kMin < p.kMax) (s₀ s : Par)
    (h0 : Ready N p rest s₀) (h : Reach N s₀ s) (hlater : rest.length ≤ s.todo.length) :
    AtMostOnce p s₀.log s ∧ (s.todo = rest → Released s → Complete N p s₀.log s) := by
  have hne : p :: rest ≠ rest := fun e => by simpa using congrArg List.length e
  rcases reach_cases hp h0 h with ⟨hr, hl⟩ | ⟨ht, hs⟩ | ⟨ht, hr⟩ | hl
  · exact ⟨⟨[], by simp [hl], by simp, by simp⟩, fun e => absurd (hr.todo ▸ e) hne⟩
  · refine ⟨⟨[], by simp [hs.log], by simp, by simp⟩, fun _ hrel => ?_⟩
    have := hs.main
    rcases hrel with e | e | e <;> simp [e] at this
  · obtain ⟨new, cnt, h1, h2, h3⟩ := hr.core
    have hinj : Function.Injective fun i : ℕ => (p.kind, i) := fun a b e => by simpa using e
    refine ⟨⟨_, h1, h3.newNodup.map hinj, ?_⟩, fun _ hrel => ?_⟩
    · intro x hx
      obtain ⟨i, hi, rfl⟩ := List.mem_map.1 hx
      exact ⟨rfl, (h3.newRange i hi).1, (h3.newRange i hi).2.1⟩
    · have hk : p.kMax - p.kMin < s.kCompleted := by
        rcases hr.main with e | e | e | e | ⟨-, hk⟩
        · rcases hrel with e' | e' | e' <;> simp [e'] at e
        · rcases hrel with e' | e' | e' <;> simp [e'] at e
        · rcases hrel with e' | e' | e' <;> simp [e'] at e
        · rcases hrel with e' | e' | e' <;> simp [e'] at e
        · exact hk
      obtain ⟨hperm, hno⟩ := h3.full (by omega) (by omega)
      refine ⟨⟨_, h1, hperm.map _⟩, fun j hj t e i hc => hno j hj i ?_⟩
      simp only [hc]
      rfl
  · omega

/-- A range of one index is worked on by the main thread itself, once. -/
theorem C56_single (p : Phase) (rest : List Phase) (hp : p.kMax = p.kMin) (s : Par)
    (hm : s.main = .idle) (ht : s.todo = p :: rest) :
    ∃ s', step s .main = some s' ∧ s'.log = s.log ++ [(p.kind, p.kMin)] ∧ s'.todo = rest ∧
      s'.main = .idle ∧ s'.ws = s.ws := by
  refine ⟨{ s with todo := rest, log := s.log ++ [(p.kind, p.kMin)] }, ?_, rfl, rfl, hm, rfl⟩
  simp [step, mainStep, hm, ht, hp]

/-- The first phase after the construction of the solver starts with quiet workers. -/
theorem C56_first_ready (N : ℕ) (p : Phase) (rest : List Phase) (a b c d e : ℕ) :
    Ready N p rest (launch (p :: rest) a b c d e) :=
  ⟨rfl, rfl, rfl, fun _ _ => rfl⟩

theorem run_reach {N : ℕ} {s₀ : Par} : ∀ (ls : List Label) {s s' : Par}, Reach N s₀ s →
    (∀ l ∈ ls, l.Valid N) → run s ls = some s' → Reach N s₀ s'
  | [], s, s', h, _, e => by simp only [run, Option.some.injEq] at e; exact e ▸ h
  | l :: ls, s, s', h, hv, e => by
    simp only [run, Option.bind_eq_some_iff] at e
    obtain ⟨s1, h1, h2⟩ := e
    exact run_reach ls (h.move l (hv l (by simp)) h1) (fun l' hl' => hv l' (by simp [hl'])) h2

/-- The states that follow are also reachable in a larger pool of workers. -/
theorem Label.Valid.mono {l : Label} {N : ℕ} (hN : 1 ≤ N) (h : l.Valid 1) : l.Valid N := by
  cases l <;> simp only [Label.Valid] at * <;> omega

theorem run_exists {N : ℕ} (hN : 1 ≤ N) {s₀ : Par} (ls : List Label)
    (hv : ∀ l ∈ ls, l.Valid 1) (P : Par → Prop) [DecidablePred P]
    (h : (match run s₀ ls with | some s => decide (P s) | none => false) = true) :
    ∃ s, Reach N s₀ s ∧ P s := by
  obtain ⟨s, e, hP⟩ : ∃ s, run s₀ ls = some s ∧ P s := by
    cases e : run s₀ ls with
    | none => simp [e] at h
    | some s => exact ⟨s, rfl, by simpa [e] using h⟩
  exact ⟨s, run_reach ls .refl (fun l hl => (hv l hl).mono hN) e, hP⟩

/-- The schedule of `C56_violated`: the worker does all the work of the roll-out; before it looks for
more, the main thread sees that the phase is complete and starts the linear-quadratic phase; the
worker, still in the roll-out function, takes the new indices. -/
def staleSchedule : List Label :=
  List.replicate 7 .main ++ List.replicate 10 (.worker 0) ++ List.replicate 10 .main ++
    List.replicate 8 (.worker 0) ++ List.replicate 3 .main

/-- C56 violated, for any number of workers: a roll-out phase over the indices 0, 1 followed by a
linear-quadratic approximation over the same indices can end with both phases over and *no*
linear-quadratic approximation computed, every index having been rolled out twice. -/
theorem C56_violated (N : ℕ) (hN : 1 ≤ N) :
    ∃ s, Reach N (launch [⟨.rollout, 0, 1⟩, ⟨.lq, 0, 1⟩] 0 0 0 0 0) s ∧ s.main = .idle ∧ s.todo = [] ∧
      s.log = [(.rollout, 1), (.rollout, 0), (.rollout, 1), (.rollout, 0)] :=
  run_exists hN staleSchedule (by decide) _ (by decide +kernel)

/-- C56 violated: the call `rolloutShots(K, K-1)` that multiple shooting makes when one shot spans the
whole horizon (`MultipleShooting-impl.hpp:59`, here with `K = 1`) works on index 0 and then on index
`2^64 - 1`. -/
theorem C56_violated_range (N : ℕ) (hN : 1 ≤ N) :
    ∃ s, Reach N (launch [⟨.rollout, 1, 0⟩] 0 0 0 0 0) s ∧
      s.log = [(.rollout, 0), (.rollout, 2 ^ 64 - 1)] :=
  run_exists hN (List.replicate 7 .main ++ List.replicate 9 (.worker 0)) (by decide) _ (by decide +kernel)

end CT.Par
