import Verif.Model.CppadParallel
import Mathlib.Data.List.Dedup
import Mathlib.Data.List.Nodup
import Mathlib.Data.List.Perm.Subperm
import Mathlib.Data.Finset.Card
import Mathlib.Data.Finset.Image

/-! # Property C26: thread numbers -/

namespace CT.Cppad

/-- Specification: the threads that make a request. -/
def threads : List Op → List Nat
  | [] => []
  | Op.request t :: ops => t :: threads ops
  | Op.init _ :: ops => threads ops

/-- Specification: every configured number of threads. -/
def configured : List Op → List Nat
  | [] => []
  | Op.request _ :: ops => configured ops
  | Op.init n :: ops => n :: configured ops

/-- The registered keys are a duplicate-free list, each with its position as number. -/
def Inv (keys : List Nat) (s : State) : Prop :=
  keys.Nodup ∧ s.map = keys.zipIdx

theorem lookup_zipIdx (keys : List Nat) (h k : Nat) :
    (keys.zipIdx k).lookup h = if h ∈ keys then some (k + keys.idxOf h) else none := by
  induction keys generalizing k with
  | nil => simp
  | cons a l ih =>
      rw [List.zipIdx_cons, List.lookup_cons, ih]
      by_cases hh : h = a
      · subst hh; simp
      · have : (h == a) = false := by simpa using hh
        rw [this]
        have hne : ¬ (a == h) = true := by simpa using fun e => hh e.symm
        simp only [List.mem_cons, hh, false_or, List.idxOf_cons, hne]
        split
        · simp; omega
        · rfl

theorem threadNumber_spec (keys : List Nat) (s : State) (hs : Inv keys s) (h : Nat)
    (hroom : h ∉ keys → keys.length < s.numThreads) :
    let keys' := if h ∈ keys then keys else keys ++ [h]
    Inv keys' (threadNumber s h).1 ∧ (threadNumber s h).2 = keys'.idxOf h ∧
      (threadNumber s h).1.numThreads = s.numThreads := by
  obtain ⟨hnd, hm⟩ := hs
  have hlen : s.map.length = keys.length := by rw [hm]; simp
  have hl : s.map.lookup h = if h ∈ keys then some (keys.idxOf h) else none := by
    rw [hm]; simpa using lookup_zipIdx keys h 0
  by_cases hk : h ∈ keys
  · rw [if_pos hk] at hl
    simp only [hk, if_true]
    have e : threadNumber s h = (s, keys.idxOf h) := by
      unfold threadNumber insert
      simp [hl]
    rw [e]
    exact ⟨⟨hnd, hm⟩, rfl, rfl⟩
  · rw [if_neg hk] at hl
    simp only [hk, if_false]
    have hroom' : s.map.length < s.numThreads := by rw [hlen]; exact hroom hk
    have hm' : s.map ++ [(h, s.map.length)] = (keys ++ [h]).zipIdx := by
      rw [List.zipIdx_append, hm]; simp
    have hl' : (s.map ++ [(h, s.map.length)]).lookup h = some keys.length := by
      rw [hm']
      have := lookup_zipIdx (keys ++ [h]) h 0
      rw [if_pos (by simp)] at this
      rw [this, List.idxOf_append_of_notMem hk]
      simp
    have e : threadNumber s h = ({ s with map := s.map ++ [(h, s.map.length)] }, keys.length) := by
      unfold threadNumber insert
      simp [hl, hroom', hl']
    rw [e]
    refine ⟨⟨?_, hm'⟩, ?_, rfl⟩
    · rw [List.nodup_append]
      simpa using ⟨hnd, fun a ha e => hk (e ▸ ha)⟩
    · rw [List.idxOf_append_of_notMem hk]; simp

theorem run_spec (hash : Nat → Nat) (all : List Nat) (ops : List Op) :
    ∀ (keys : List Nat) (s : State), Inv keys s →
      (∀ k ∈ keys, k ∈ all) → (∀ t ∈ threads ops, hash t ∈ all) → all.dedup.length ≤ s.numThreads →
      (∀ n ∈ configured ops, all.dedup.length ≤ n) →
      ∃ keys', Inv keys' (run hash s ops).1 ∧ keys <+: keys' ∧ (∀ k ∈ keys', k ∈ all) ∧
        (∀ p ∈ (run hash s ops).2, hash p.1 ∈ keys' ∧ p.2 = keys'.idxOf (hash p.1)) := by
  induction ops with
  | nil => intro keys s hs hk _ _ _; exact ⟨keys, hs, List.prefix_rfl, hk, by simp [run]⟩
  | cons op ops ih =>
      intro keys s hs hk ht hn hc
      cases op with
      | init n =>
          simp only [run, threads, configured] at *
          exact ih keys (initParallel s n) hs hk ht (hc n (by simp)) (fun m hm => hc m (by simp [hm]))
      | request t =>
          simp only [run, threads, configured] at *
          have hta := ht t (by simp)
          have hroom : hash t ∉ keys → keys.length < s.numThreads := by
            intro hnk
            have hsub : (keys ++ [hash t]) ⊆ all.dedup := by
              intro a ha
              rw [List.mem_dedup]
              rcases List.mem_append.1 ha with h | h
              · exact hk a h
              · simp at h; subst h; exact hta
            have hnd : (keys ++ [hash t]).Nodup := by
              rw [List.nodup_append]; simpa using ⟨hs.1, fun a ha e => hnk (e ▸ ha)⟩
            have := (hnd.subperm hsub).length_le
            simp at this
            omega
          obtain ⟨h1, h2, h3⟩ := threadNumber_spec keys s hs (hash t) hroom
          set keys1 := (if hash t ∈ keys then keys else keys ++ [hash t]) with hk1
          have hk1' : ∀ k ∈ keys1, k ∈ all := by
            intro k hkk
            rw [hk1] at hkk
            split at hkk
            · exact hk k hkk
            · rcases List.mem_append.1 hkk with h | h
              · exact hk k h
              · simp at h; subst h; exact hta
          have hmem : hash t ∈ keys1 := by
            rw [hk1]; split
            · assumption
            · simp
          obtain ⟨keys', g1, g2, g3, g4⟩ := ih keys1 _ h1 hk1' (fun t' ht' => ht t' (by simp [ht']))
            (by rw [h3]; exact hn) hc
          refine ⟨keys', g1, ?_, g3, ?_⟩
          · refine List.IsPrefix.trans ?_ g2
            rw [hk1]; split
            · exact List.prefix_rfl
            · exact List.prefix_append _ _
          · intro p hp
            simp only [List.mem_cons] at hp
            rcases hp with rfl | hp
            · refine ⟨g2.subset hmem, ?_⟩
              rw [h2]
              obtain ⟨r, rfl⟩ := g2
              rw [List.idxOf_append_of_mem hmem]
            · exact g4 p hp

theorem run_threads (hash : Nat → Nat) (ops : List Op) (s : State) :
    (run hash s ops).2.map Prod.fst = threads ops := by
  induction ops generalizing s with
  | nil => rfl
  | cons op ops ih =>
      cases op with
      | init n => simpa only [run, threads] using ih (initParallel s n)
      | request t => simp only [run, threads, List.map_cons, ih]

/-- C26 (holds while there are no more threads than configured): in every interleaving of requests,
from an empty registration, equal threads get equal numbers, different threads different numbers, and
all numbers are below every configured maximum.  Missing for the full statement: more threads than
configured (see `C26_violated`). -/
theorem C26_distinct_partial (hash : Nat → Nat) (s : State) (hs : s.map = []) (ops : List Op)
    (hinj : ∀ t ∈ threads ops, ∀ t' ∈ threads ops, hash t = hash t' → t = t')
    (hn : (threads ops).dedup.length ≤ s.numThreads)
    (hc : ∀ n ∈ configured ops, (threads ops).dedup.length ≤ n) :
    (run hash s ops).2.map Prod.fst = threads ops ∧
    ∀ p ∈ (run hash s ops).2, ∀ q ∈ (run hash s ops).2,
      (p.2 = q.2 ↔ p.1 = q.1) ∧ p.2 < s.numThreads ∧ ∀ n ∈ configured ops, p.2 < n := by
  have hcard : ((threads ops).map hash).dedup.length ≤ (threads ops).dedup.length := by
    have hsub : ((threads ops).map hash).dedup ⊆ (threads ops).dedup.map hash := by
      intro a ha
      simpa using ha
    simpa using ((List.nodup_dedup _).subperm hsub).length_le
  obtain ⟨keys', g1, -, g3, g4⟩ := run_spec hash ((threads ops).map hash) ops [] s ⟨by simp, by simp [hs]⟩
    (by simp) (fun t ht => List.mem_map_of_mem ht) (hcard.trans hn) (fun n h => hcard.trans (hc n h))
  have hlen : keys'.length ≤ (threads ops).dedup.length := by
    refine le_trans ?_ hcard
    exact (g1.1.subperm (fun k hk => List.mem_dedup.2 (g3 k hk))).length_le
  have hmem : ∀ p ∈ (run hash s ops).2, p.1 ∈ threads ops := by
    intro p hp
    rw [← run_threads hash ops s]
    exact List.mem_map_of_mem hp
  refine ⟨run_threads hash ops s, fun p hp q hq => ?_⟩
  obtain ⟨p1, p2⟩ := g4 p hp
  obtain ⟨q1, q2⟩ := g4 q hq
  have hlt : p.2 < keys'.length := by rw [p2]; exact List.idxOf_lt_length_of_mem p1
  refine ⟨⟨fun h => ?_, fun h => ?_⟩, by omega, fun n hnn => by have := hc n hnn; omega⟩
  · rw [p2, q2] at h
    exact hinj _ (hmem p hp) _ (hmem q hq) ((List.idxOf_inj p1).1 h)
  · rw [p2, q2, h]

/-- C26, consecutive parallel sections: whatever happened before, after `resetParallel` and a new
`initParallel(n)` the numbers of the new section are again distinct and below `n`, for up to `n` threads. -/
theorem C26_sections_partial (hash : Nat → Nat) (s : State) (n : Nat) (ops : List Op)
    (hinj : ∀ t ∈ threads ops, ∀ t' ∈ threads ops, hash t = hash t' → t = t') (hno : configured ops = [])
    (hn : (threads ops).dedup.length ≤ n) :
    let r := run hash (resetParallel s) (Op.init n :: ops)
    r.2.map Prod.fst = threads ops ∧
    ∀ p ∈ r.2, ∀ q ∈ r.2, (p.2 = q.2 ↔ p.1 = q.1) ∧ p.2 < n := by
  intro r
  obtain ⟨h1, h2⟩ := C26_distinct_partial hash (initParallel (resetParallel s) n) rfl ops hinj hn (by simp [hno])
  exact ⟨h1, fun p hp q hq => ⟨(h2 p hp q hq).1, (h2 p hp q hq).2.1⟩⟩

/-- Non-vacuous: a second section after one that registered two other threads. -/
example : (run id (resetParallel (run id State.init [Op.init 2, Op.request 7, Op.request 8]).1)
    [Op.init 2, Op.request 5, Op.request 6, Op.request 5]).2 = [(5, 0), (6, 1), (5, 0)] := by decide

theorem run_append (hash : Nat → Nat) (a b : List Op) (s : State) :
    run hash s (a ++ b) = ((run hash (run hash s a).1 b).1, (run hash s a).2 ++ (run hash (run hash s a).1 b).2) := by
  induction a generalizing s with
  | nil => rfl
  | cons op a ih =>
      cases op with
      | init n => simp only [List.cons_append, run, ih]
      | request t => simp only [List.cons_append, run, ih]

/-- Threads 0, …, n each ask for their number once. -/
def oneEach (n : Nat) : List Op := (List.range (n + 1)).map Op.request

theorem run_range (n k : Nat) (hk : k ≤ n) :
    (run id ⟨[], n⟩ ((List.range k).map Op.request)) = (⟨(List.range k).zipIdx, n⟩, (List.range k).zipIdx) := by
  induction k with
  | zero => rfl
  | succ k ih =>
      rw [List.range_succ, List.map_append, run_append, ih (by omega)]
      have hs := threadNumber_spec (List.range k) ⟨(List.range k).zipIdx, n⟩ ⟨List.nodup_range, rfl⟩ k
        (by intro _; simp; omega)
      rw [if_neg (by simp)] at hs
      obtain ⟨⟨-, h1⟩, h2, h3⟩ := hs
      have e : threadNumber ⟨(List.range k).zipIdx, n⟩ k = (⟨(List.range k ++ [k]).zipIdx, n⟩, k) := by
        refine Prod.ext ?_ ?_
        · show (threadNumber _ k).1 = State.mk _ _
          rw [← h1]; rfl
        · rw [h2, List.idxOf_append_of_notMem (by simp)]; simp
      simp only [List.map_cons, List.map_nil, run, id, e, List.zipIdx_append]
      simp

/-- C26, disagreement: whatever number `n ≥ 1` of threads is configured, when one thread more than
that asks, it gets number 0, the number of the first thread. -/
theorem C26_violated (n : Nat) (hn : 0 < n) :
    (0, 0) ∈ (run id ⟨[], n⟩ (oneEach n)).2 ∧ (n, 0) ∈ (run id ⟨[], n⟩ (oneEach n)).2 := by
  have hl : (List.range n).zipIdx.lookup n = none := by
    have := lookup_zipIdx (List.range n) n 0
    rw [this, if_neg (by simp)]
  have hl' : ((List.range n).zipIdx ++ [(n, 0)]).lookup n = some 0 := by
    rw [List.lookup_append, hl]; simp
  have e : threadNumber ⟨(List.range n).zipIdx, n⟩ n = (⟨(List.range n).zipIdx ++ [(n, 0)], n⟩, 0) := by
    unfold threadNumber insert
    simp [hl, hl']
  unfold oneEach
  rw [List.range_succ, List.map_append, run_append, run_range n n le_rfl]
  simp only [List.map_cons, List.map_nil, run, id, e]
  refine ⟨List.mem_append_left _ ?_, by simp⟩
  rw [List.mem_zipIdx_iff_getElem?]
  simp [hn]

/-- Non-vacuous: three threads asking in an interleaved way with 3 configured. -/
example : (run (fun t => 17 * t + 5) State.init
    [Op.init 3, Op.request 4, Op.request 2, Op.request 4, Op.request 9, Op.request 2]).2 =
      [(4, 0), (2, 1), (4, 0), (9, 2), (2, 1)] := by decide

/-- Non-vacuous: after `resetParallel` the hypothesis of the theorem (empty registration) holds. -/
example (s : State) : (resetParallel s).map = [] := rfl

end CT.Cppad
