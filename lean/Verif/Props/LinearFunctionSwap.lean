import Verif.Model.LinearFunctionSwap
import Mathlib.Algebra.Group.End
import Mathlib.Algebra.BigOperators.Group.List.Basic
import Mathlib.Data.List.Induction
import Mathlib.Tactic.Common

/-! # C200: swapping two linear control laws exchanges them -/

namespace CT.LinSwap

variable {T V M : Type}

/-! ### Specification -/

/-- Which object's law is found in object `i` after exchanges in the given order. -/
def origin (ps : List (ℕ × ℕ)) : Equiv.Perm ℕ := (ps.map fun p => Equiv.swap p.1 p.2).prod

/-- The exchanges concern objects that exist. -/
def Exist (n : ℕ) (ps : List (ℕ × ℕ)) : Prop := ∀ p ∈ ps, p.1 < n ∧ p.2 < n

/-! ### Proofs -/

theorem origin_snoc (ps : List (ℕ × ℕ)) (p : ℕ × ℕ) (i : ℕ) : origin (ps ++ [p]) i = origin ps (Equiv.swap p.1 p.2 i) := by
  simp [origin]

theorem length_call (h : List (Lin T V M)) (p : ℕ × ℕ) : (call h p).length = h.length := by
  unfold call
  split <;> simp

/-- One exchange: feedforward and gains change places, the times stay. -/
theorem call_get {h : List (Lin T V M)} {p : ℕ × ℕ} (h1 : p.1 < h.length) (h2 : p.2 < h.length) {i : ℕ} {a : Lin T V M} (hi : h[i]? = some a) :
    ∃ b, h[Equiv.swap p.1 p.2 i]? = some b ∧ (call h p)[i]? = some ⟨a.time, b.uff, b.deltaUff, b.k⟩ := by
  have e1 := List.getElem?_eq_getElem h1
  have e2 := List.getElem?_eq_getElem h2
  unfold call
  rw [e1, e2]
  simp only [swap]
  by_cases c2 : p.2 = i
  · subst c2
    rw [e2] at hi
    cases hi
    exact ⟨_, by rw [Equiv.swap_apply_right]; exact e1, by rw [List.getElem?_set_self (by simpa using h2)]⟩
  · rw [List.getElem?_set_ne c2]
    by_cases c1 : p.1 = i
    · subst c1
      rw [e1] at hi
      cases hi
      exact ⟨_, by rw [Equiv.swap_apply_left]; exact e2, by rw [List.getElem?_set_self h1]⟩
    · rw [List.getElem?_set_ne c1]
      exact ⟨a, by rw [Equiv.swap_apply_of_ne_of_ne (Ne.symm c1) (Ne.symm c2)]; exact hi, by rw [hi]⟩

theorem run_get {h : List (Lin T V M)} (ps : List (ℕ × ℕ)) (hp : Exist h.length ps) : (run h ps).length = h.length
    ∧ ∀ (i : ℕ) (a : Lin T V M), h[i]? = some a →
      ∃ b, h[origin ps i]? = some b ∧ (run h ps)[i]? = some ⟨a.time, b.uff, b.deltaUff, b.k⟩ := by
  induction ps using List.reverseRecOn with
  | nil => exact ⟨rfl, fun i a hi => ⟨a, by simpa [origin] using hi, by simpa [run] using hi⟩⟩
  | append_singleton ps p ih =>
    obtain ⟨hl, ih⟩ := ih fun q hq => hp q (by simp [hq])
    obtain ⟨h1, h2⟩ := hp p (by simp)
    have hr : run h (ps ++ [p]) = call (run h ps) p := by simp [run]
    rw [hr, length_call]
    refine ⟨hl, fun i a hi => ?_⟩
    obtain ⟨c, _, hc⟩ := ih i a hi
    obtain ⟨b, hb, hb'⟩ := call_get (hl ▸ h1) (hl ▸ h2) hc
    rw [origin_snoc, hb']
    have hlt : Equiv.swap p.1 p.2 i < h.length := by
      rw [← hl]; exact (List.getElem?_eq_some_iff.1 hb).1
    obtain ⟨d, hd, hd'⟩ := ih _ _ (List.getElem?_eq_getElem hlt)
    rw [hd'] at hb
    cases hb
    exact ⟨d, hd, rfl⟩

/-- C200 for the feedforward and the gains: after any sequence of exchanges each object has those of the object whose law it should have; the
times, however, are its own. -/
theorem C200_gains_partial {h : List (Lin T V M)} (ps : List (ℕ × ℕ)) (hp : Exist h.length ps) {i : ℕ} {a : Lin T V M} (hi : h[i]? = some a) :
    ∃ b c, h[origin ps i]? = some b ∧ (run h ps)[i]? = some c ∧ c.uff = b.uff ∧ c.deltaUff = b.deltaUff ∧ c.k = b.k ∧ c.time = a.time := by
  obtain ⟨b, h1, h2⟩ := (run_get ps hp).2 i a hi
  exact ⟨b, _, h1, h2, rfl, rfl, rfl, rfl⟩

/-- C200 for laws on the same times: any sequence of exchanges permutes the objects. -/
theorem C200_same_times_partial {h : List (Lin T V M)} {τ : List T} (ht : ∀ a ∈ h, a.time = τ) (ps : List (ℕ × ℕ)) (hp : Exist h.length ps)
    {i : ℕ} (hi : i < h.length) : (run h ps)[i]? = h[origin ps i]? ∧ (run h ps)[i]?.isSome := by
  obtain ⟨b, h1, h2⟩ := (run_get ps hp).2 i _ (List.getElem?_eq_getElem hi)
  have e : b.time = h[i].time := by rw [ht b (List.mem_of_getElem? h1), ht _ (List.getElem_mem hi)]
  rw [h1, h2, ← e]
  exact ⟨rfl, rfl⟩

/-- C200 fails for all laws on different times: neither object has the law which the other one had. -/
theorem C200_times_violated {h : List (Lin T V M)} {i j : ℕ} {a b : Lin T V M} (hi : h[i]? = some a) (hj : h[j]? = some b)
    (hab : a.time ≠ b.time) : (run h [(i, j)])[i]? ≠ some b ∧ (run h [(i, j)])[j]? ≠ some a := by
  have hp : Exist h.length [(i, j)] := by
    intro p hp
    rw [List.mem_singleton] at hp
    subst hp
    exact ⟨(List.getElem?_eq_some_iff.1 hi).1, (List.getElem?_eq_some_iff.1 hj).1⟩
  obtain ⟨c, _, h2⟩ := (run_get _ hp).2 i a hi
  obtain ⟨d, _, h4⟩ := (run_get _ hp).2 j b hj
  rw [h2, h4]
  exact ⟨fun e => hab (by simpa using congrArg (fun o => o.map Lin.time) e),
    fun e => hab (by simpa using (congrArg (fun o => o.map Lin.time) e).symm)⟩

/-- C200 fails so that arrays do not fit together: a law with two nodes swapped with one of three nodes has two times and three gains. -/
theorem C200_lengths_violated : ∃ a b : Lin ℕ ℕ ℕ, a.time.length = a.k.length ∧ b.time.length = b.k.length
    ∧ (run [a, b] [(0, 1)])[0]?.map (fun c => (c.time.length, c.k.length)) = some (2, 3) :=
  ⟨⟨[0, 1], [5, 5], [0, 0], [1, 2]⟩, ⟨[0, 1, 2], [6, 6, 6], [0, 0, 0], [3, 4, 5]⟩, rfl, rfl, rfl⟩

/-! ### The hypotheses can be met -/

example : Exist 3 [(0, 1), (1, 2), (2, 2)] ∧ origin [(0, 1), (1, 2), (2, 2)] 2 = 0
    ∧ ∀ a ∈ [(⟨[0, 1], [5, 5], [0, 0], [1, 2]⟩ : Lin ℕ ℕ ℕ), ⟨[0, 1], [6, 7], [0, 0], [3, 4]⟩, ⟨[0, 1], [8, 7], [1, 0], [3, 4]⟩], a.time = [0, 1] := by
  refine ⟨fun p hp => ?_, by decide +kernel, by simp⟩
  simp only [List.mem_cons, List.not_mem_nil, or_false] at hp
  rcases hp with rfl | rfl | rfl <;> decide

end CT.LinSwap
