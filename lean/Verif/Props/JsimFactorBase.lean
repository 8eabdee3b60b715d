import Verif.Model.JsimFactor
import Mathlib.Algebra.BigOperators.Ring.Finset
import Mathlib.Algebra.BigOperators.Intervals
import Mathlib.Algebra.BigOperators.Field
import Mathlib.LinearAlgebra.Matrix.NonsingularInverse
import Mathlib.Tactic.Linarith
import Mathlib.Tactic.FieldSimp
import Mathlib.Tactic.Ring

/-!
# The factorisation and the inverse, for matrices of any size

`ltl n` is the sequence of statements of `computeL` for a chain of `n` joints; the lists of the robots are
compared with it in `Props/JsimFactor.lean`.
-/

namespace CT.JsimFactor

open CT Finset

/-- The cells below and on the diagonal of the first `k` rows, in the order of the code. -/
def cells (k : ℕ) : List (ℕ × ℕ) :=
  (List.range k).reverse.flatMap fun i => (List.range (i + 1)).reverse.map fun j => (i, j)

/-- `computeL` for a chain of `n` joints. -/
def ltl : ℕ → List Stmt
  | 0 => []
  | k + 1 => .sqrt k k k k :: ((List.range k).reverse.map fun j => .div k j k j k k)
      ++ ((cells k).map fun c => .sub c.1 c.2 c.1 c.2 k c.1 k c.2) ++ ltl k

/-- All statements without the check of the indices. -/
noncomputable def acts (p : List Stmt) (x : Fact) : Fact := p.foldl Stmt.act x

theorem run_eq {n : ℕ} {p : List Stmt} (h : ∀ s ∈ p, s.indices.all (· < n) = true) (x : Fact) :
    run n p x = .ok (acts p x) := by
  induction p generalizing x with
  | nil => rfl
  | cons s p ih =>
    have h1 : s.indices.all (· < n) = true := h s (by simp)
    rw [run, if_pos h1, ih (fun t ht => h t (by simp [ht]))]
    rfl

theorem acts_append (p q : List Stmt) (x : Fact) : acts (p ++ q) x = acts q (acts p x) := by
  simp [acts]

theorem mem_cells {k : ℕ} {c : ℕ × ℕ} : c ∈ cells k ↔ c.1 < k ∧ c.2 ≤ c.1 := by
  obtain ⟨a, b⟩ := c
  simp [cells, Nat.lt_succ_iff]

theorem nodup_cells (k : ℕ) : (cells k).Nodup := by
  rw [cells, List.nodup_flatMap]
  refine ⟨fun i _ => ?_, ?_⟩
  · exact (List.nodup_reverse.mpr List.nodup_range).map (fun a b h => by simpa using h)
  · refine (List.nodup_reverse.mpr List.nodup_range).imp ?_
    intro a b hab
    simp only [Function.onFun, List.disjoint_left, List.mem_map]
    rintro c ⟨j, _, rfl⟩ ⟨j2, _, h⟩
    exact hab (by simpa using (congrArg Prod.fst h).symm)

/-- The divisions of one row. -/
theorem acts_div (k : ℕ) : ∀ (l : List ℕ), l.Nodup → (∀ j ∈ l, j < k) → ∀ x : Fact,
    (acts (l.map fun j => Stmt.div k j k j k k) x).L
      = fun i j => if i = k ∧ j ∈ l then x.L k j / x.L k k else x.L i j := by
  intro l
  induction l with
  | nil => intro _ _ x; funext i j; simp [acts]
  | cons a l ih =>
    intro hn hk x
    obtain ⟨ha, hn⟩ := List.nodup_cons.mp hn
    have hak : a < k := hk a (by simp)
    have hstep : acts ((a :: l).map fun j => Stmt.div k j k j k k) x
        = acts (l.map fun j => Stmt.div k j k j k k) (Stmt.act x (.div k a k a k k)) := rfl
    rw [hstep, ih hn (fun j hj => hk j (by simp [hj]))]
    funext i j
    simp only [Stmt.act, put, List.mem_cons]
    by_cases hi : i = k
    · subst hi
      by_cases hj : j = a
      · subst hj
        simp [ha]
      · have h1 : i ≠ a := by omega
        simp [hj, h1]
    · simp [hi]

/-- The subtractions after the row `k`. -/
theorem acts_sub (k : ℕ) : ∀ (l : List (ℕ × ℕ)), l.Nodup → (∀ c ∈ l, c.1 < k) → ∀ x : Fact,
    (acts (l.map fun c => Stmt.sub c.1 c.2 c.1 c.2 k c.1 k c.2) x).L
      = fun i j => if (i, j) ∈ l then x.L i j - x.L k i * x.L k j else x.L i j := by
  intro l
  induction l with
  | nil => intro _ _ x; funext i j; simp [acts]
  | cons a l ih =>
    intro hn hk x
    obtain ⟨ha, hn⟩ := List.nodup_cons.mp hn
    have hak : a.1 < k := hk a (by simp)
    have hstep : acts ((a :: l).map fun c => Stmt.sub c.1 c.2 c.1 c.2 k c.1 k c.2) x
        = acts (l.map fun c => Stmt.sub c.1 c.2 c.1 c.2 k c.1 k c.2)
            (Stmt.act x (.sub a.1 a.2 a.1 a.2 k a.1 k a.2)) := rfl
    rw [hstep, ih hn (fun j hj => hk j (by simp [hj]))]
    funext i j
    have hka : ¬ k = a.1 := by omega
    simp only [Stmt.act, put, List.mem_cons, hka, false_and, if_false]
    by_cases hc : (i, j) = a
    · subst hc
      simp [ha]
    · have h1 : ¬ (i = a.1 ∧ j = a.2) := fun h => hc (Prod.ext h.1 h.2)
      simp [hc, h1]

/-- One round of `computeL`. -/
noncomputable def round (k : ℕ) (A : Arr) : Arr := fun i j =>
  if i = k ∧ j = k then Real.sqrt (A k k)
  else if i = k ∧ j < k then A k j / Real.sqrt (A k k)
  else if i < k ∧ j ≤ i then A i j - A k i / Real.sqrt (A k k) * (A k j / Real.sqrt (A k k))
  else A i j

theorem acts_round (k : ℕ) (x : Fact) :
    (acts (.sqrt k k k k :: ((List.range k).reverse.map fun j => .div k j k j k k)
      ++ ((cells k).map fun c => .sub c.1 c.2 c.1 c.2 k c.1 k c.2)) x).L = round k x.L := by
  rw [acts_append, acts_sub k (cells k) (nodup_cells k) (fun c hc => (mem_cells.mp hc).1)]
  have h1 : (acts (.sqrt k k k k :: ((List.range k).reverse.map fun j => .div k j k j k k)) x).L
      = fun i j => if i = k ∧ j < k then x.L k j / Real.sqrt (x.L k k)
          else if i = k ∧ j = k then Real.sqrt (x.L k k) else x.L i j := by
    have hstep : acts (.sqrt k k k k :: ((List.range k).reverse.map fun j => .div k j k j k k)) x
        = acts ((List.range k).reverse.map fun j => .div k j k j k k) (Stmt.act x (.sqrt k k k k)) := rfl
    rw [hstep, acts_div k _ (List.nodup_reverse.mpr List.nodup_range) (by simp)]
    funext i j
    simp only [Stmt.act, put, List.mem_reverse, List.mem_range, and_self, if_true]
    by_cases hi : i = k
    · subst hi
      by_cases hj : j < i
      · have : j ≠ i := by omega
        simp [hj, this]
      · simp [hj]
    · simp [hi]
  rw [h1]
  funext i j
  simp only [mem_cells, round]
  by_cases hc : i < k ∧ j ≤ i
  · have h2 : i ≠ k := by omega
    have h3 : j < k := by omega
    simp [hc, h2, h3]
  · simp only [hc, if_false]
    by_cases h4 : i = k ∧ j = k
    · have h5 : ¬ (j < k) := by omega
      simp [h4]
    · by_cases h6 : i = k ∧ j < k
      · simp [h6]; intro h; omega
      · simp [h4, h6]

/-- The rounds from `k - 1` down to `0`. -/
noncomputable def rounds : ℕ → Arr → Arr
  | 0, A => A
  | k + 1, A => rounds k (round k A)

theorem acts_ltl (k : ℕ) (x : Fact) : (acts (ltl k) x).L = rounds k x.L := by
  induction k generalizing x with
  | zero => rfl
  | succ k ih =>
    have h : ltl (k + 1) = (.sqrt k k k k :: ((List.range k).reverse.map fun j => .div k j k j k k)
      ++ ((cells k).map fun c => .sub c.1 c.2 c.1 c.2 k c.1 k c.2)) ++ ltl k := rfl
    rw [h, acts_append, ih, acts_round]
    rfl

theorem acts_ltl_Linv (k : ℕ) (x : Fact) : (acts (ltl k) x).Linv = x.Linv ∧ (acts (ltl k) x).inverse = x.inverse := by
  have h : ∀ p : List Stmt, (∀ s ∈ p, ∀ y : Fact, (Stmt.act y s).Linv = y.Linv ∧ (Stmt.act y s).inverse = y.inverse) →
      ∀ y, (acts p y).Linv = y.Linv ∧ (acts p y).inverse = y.inverse := by
    intro p
    induction p with
    | nil => intro _ y; exact ⟨rfl, rfl⟩
    | cons s p ih =>
      intro hp y
      have h1 := ih (fun t ht => hp t (by simp [ht])) (Stmt.act y s)
      have h2 := hp s (by simp) y
      exact ⟨h1.1.trans h2.1, h1.2.trans h2.2⟩
  refine h _ ?_ x
  intro s hs y
  have hk : ∃ a b c d e f g i, s = .sqrt a b c d ∨ s = .div a b c d e f ∨ s = .sub a b c d e f g i := by
    induction k with
    | zero => simp [ltl] at hs
    | succ k ih =>
      simp only [ltl, List.cons_append, List.mem_cons, List.mem_append, List.mem_map] at hs
      rcases hs with rfl | (⟨j, _, rfl⟩ | ⟨c, _, rfl⟩) | hs
      · exact ⟨k, k, k, k, 0, 0, 0, 0, .inl rfl⟩
      · exact ⟨k, j, k, j, k, k, 0, 0, .inr (.inl rfl)⟩
      · exact ⟨_, _, _, _, _, _, _, _, .inr (.inr rfl)⟩
      · exact ih hs
  obtain ⟨a, b, c, d, e, f, g, i, rfl | rfl | rfl⟩ := hk <;> exact ⟨rfl, rfl⟩

/-- The symmetric matrix whose lower triangle is stored in `A`. -/
def sym (A : Arr) (i j : ℕ) : ℝ := if j ≤ i then A i j else A j i

/-- The lower triangle of `A`. -/
def low (A : Arr) (i j : ℕ) : ℝ := if j ≤ i then A i j else 0

/-- The first `k` rows and columns are positive definite. -/
def Pos (k : ℕ) (A : Arr) : Prop := ∀ x : ℕ → ℝ, (∃ i < k, x i ≠ 0) →
  0 < ∑ i ∈ range k, ∑ j ∈ range k, sym A i j * x i * x j

theorem sym_comm (A : Arr) (i j : ℕ) : sym A i j = sym A j i := by
  unfold sym
  rcases lt_trichotomy i j with h | h | h
  · rw [if_neg (by omega), if_pos (by omega)]
  · subst h; rfl
  · rw [if_pos (by omega), if_neg (by omega)]

theorem sum_succ_sq (k : ℕ) (A : Arr) (x : ℕ → ℝ) :
    ∑ i ∈ range (k + 1), ∑ j ∈ range (k + 1), sym A i j * x i * x j
      = (∑ i ∈ range k, ∑ j ∈ range k, sym A i j * x i * x j)
        + 2 * x k * (∑ j ∈ range k, A k j * x j) + A k k * x k * x k := by
  have h1 : ∀ i ∈ range k, sym A i k = A k i := by
    intro i hi
    rw [sym_comm, sym, if_pos (by have := mem_range.mp hi; omega)]
  have h2 : ∀ i ∈ range k, sym A k i = A k i := by
    intro i hi
    rw [sym, if_pos (by have := mem_range.mp hi; omega)]
  have h3 : sym A k k = A k k := by simp [sym]
  have h4 : ∑ i ∈ range k, sym A i k * x i * x k = x k * ∑ j ∈ range k, A k j * x j := by
    rw [mul_sum]
    exact sum_congr rfl fun i hi => by rw [h1 i hi]; ring
  have h5 : ∑ j ∈ range k, sym A k j * x k * x j = x k * ∑ j ∈ range k, A k j * x j := by
    rw [mul_sum]
    exact sum_congr rfl fun i hi => by rw [h2 i hi]; ring
  simp only [sum_range_succ, sum_add_distrib, h3, h4, h5]
  ring

theorem pos_pivot {k : ℕ} {A : Arr} (h : Pos (k + 1) A) : 0 < A k k := by
  have h1 := h (fun i => if i = k then 1 else 0) ⟨k, by omega, by simp⟩
  rw [sum_succ_sq] at h1
  have h2 : ∑ i ∈ range k, ∑ j ∈ range k, sym A i j * (if i = k then 1 else 0) * (if j = k then (1:ℝ) else 0) = 0 := by
    refine sum_eq_zero fun i hi => sum_eq_zero fun j _ => ?_
    have : i ≠ k := by have := mem_range.mp hi; omega
    simp [this]
  have h3 : ∑ j ∈ range k, A k j * (if j = k then (1:ℝ) else 0) = 0 := by
    refine sum_eq_zero fun j hj => ?_
    have : j ≠ k := by have := mem_range.mp hj; omega
    simp [this]
  rw [h2, h3] at h1
  simpa using h1

theorem round_below {k i j : ℕ} (A : Arr) (hp : 0 < A k k) (hi : i < k) (hj : j < k) :
    sym (round k A) i j = sym A i j - A k i * A k j / A k k := by
  have hs : Real.sqrt (A k k) * Real.sqrt (A k k) = A k k := Real.mul_self_sqrt hp.le
  have h2 : Real.sqrt (A k k) ≠ 0 := (Real.sqrt_pos.mpr hp).ne'
  have key : ∀ a b : ℕ, a < k → b ≤ a → round k A a b = A a b - A k a * A k b / A k k := by
    intro a b ha hb
    have h3 : a ≠ k := by omega
    have h4 : A k a / Real.sqrt (A k k) * (A k b / Real.sqrt (A k k)) = A k a * A k b / A k k := by
      rw [div_mul_div_comm, hs]
    simp [round, h3, ha, hb, h4]
  unfold sym
  by_cases h : j ≤ i
  · simp only [h, if_true]; exact key i j hi h
  · simp only [h, if_false]
    rw [key j i hj (by omega)]
    ring

theorem pos_round {k : ℕ} {A : Arr} (h : Pos (k + 1) A) : Pos k (round k A) := by
  intro x ⟨i0, hi0, hx0⟩
  have hp := pos_pivot h
  set s := ∑ j ∈ range k, A k j * x j with hs
  have h1 := h (fun i => if i = k then -s / A k k else x i) ⟨i0, by omega, by
    have : i0 ≠ k := by omega
    simpa [this] using hx0⟩
  rw [sum_succ_sq] at h1
  have h2 : ∀ f : ℕ → ℕ → ℝ, ∑ i ∈ range k, ∑ j ∈ range k, f i j * (if i = k then -s / A k k else x i)
      * (if j = k then -s / A k k else x j) = ∑ i ∈ range k, ∑ j ∈ range k, f i j * x i * x j := by
    intro f
    refine sum_congr rfl fun i hi => sum_congr rfl fun j hj => ?_
    have hi : i ≠ k := by have := mem_range.mp hi; omega
    have hj : j ≠ k := by have := mem_range.mp hj; omega
    simp [hi, hj]
  have h3 : ∑ j ∈ range k, A k j * (if j = k then -s / A k k else x j) = s := by
    refine sum_congr rfl fun j hj => ?_
    have hj : j ≠ k := by have := mem_range.mp hj; omega
    simp [hj]
  rw [h2, h3] at h1
  have h4 : ∑ i ∈ range k, ∑ j ∈ range k, sym (round k A) i j * x i * x j
      = (∑ i ∈ range k, ∑ j ∈ range k, sym A i j * x i * x j) - s * s / A k k := by
    have h5 : ∀ i ∈ range k, ∑ j ∈ range k, sym (round k A) i j * x i * x j
        = (∑ j ∈ range k, sym A i j * x i * x j) - (A k i * x i) * s / A k k := by
      intro i hi
      rw [hs, mul_sum, sum_div, ← sum_sub_distrib]
      refine sum_congr rfl fun j hj => ?_
      rw [round_below A hp (mem_range.mp hi) (mem_range.mp hj)]
      ring
    rw [sum_congr rfl h5, sum_sub_distrib, ← sum_div, ← sum_mul]
  rw [h4]
  have h6 : (∑ i ∈ range k, ∑ j ∈ range k, sym A i j * x i * x j) + 2 * (if k = k then -s / A k k else x k) * s
      + A k k * (if k = k then -s / A k k else x k) * (if k = k then -s / A k k else x k)
      = (∑ i ∈ range k, ∑ j ∈ range k, sym A i j * x i * x j) - s * s / A k k := by
    simp only [if_true]
    field_simp
    ring
  rwa [h6] at h1

/-- The rounds below `k` leave everything outside the first `k` rows alone. -/
theorem rounds_frame (k : ℕ) (A : Arr) {i j : ℕ} (h : ¬ (i < k ∧ j ≤ i)) : rounds k A i j = A i j := by
  induction k generalizing A with
  | zero => rfl
  | succ k ih =>
    have h1 : ¬ (i < k ∧ j ≤ i) := by omega
    rw [rounds, ih _ h1]
    have h2 : ¬ (i = k ∧ j = k) := by omega
    have h3 : ¬ (i = k ∧ j < k) := by omega
    simp [round, h1, h2, h3]

/-- The rounds factorise. -/
theorem rounds_factor (k : ℕ) (A : Arr) (h : Pos k A) :
    (∀ i < k, 0 < rounds k A i i)
    ∧ ∀ i < k, ∀ j < k, ∑ m ∈ range k, low (rounds k A) m i * low (rounds k A) m j = sym A i j := by
  induction k generalizing A with
  | zero => exact ⟨by intro i hi; omega, by intro i hi; omega⟩
  | succ k ih =>
    have hp := pos_pivot h
    obtain ⟨ihd, ihs⟩ := ih (round k A) (pos_round h)
    have hs : Real.sqrt (A k k) * Real.sqrt (A k k) = A k k := Real.mul_self_sqrt hp.le
    have h2 : Real.sqrt (A k k) ≠ 0 := (Real.sqrt_pos.mpr hp).ne'
    have hk : ∀ j < k, rounds k (round k A) k j = A k j / Real.sqrt (A k k) := by
      intro j hj
      rw [rounds_frame k _ (by omega)]
      have h3 : j ≠ k := by omega
      simp [round, hj, h3]
    have hkk : rounds k (round k A) k k = Real.sqrt (A k k) := by
      rw [rounds_frame k _ (by omega)]
      simp [round]
    have hz : ∀ j, ∑ m ∈ range k, low (rounds k (round k A)) m k * low (rounds k (round k A)) m j = 0 := by
      intro j
      refine sum_eq_zero fun m hm => ?_
      have : ¬ k ≤ m := by have := mem_range.mp hm; omega
      simp [low, this]
    have hz2 : ∀ j, ∑ m ∈ range k, low (rounds k (round k A)) m j * low (rounds k (round k A)) m k = 0 := by
      intro j
      rw [← hz j]
      exact sum_congr rfl fun m _ => mul_comm _ _
    refine ⟨fun i hi => ?_, fun i hi j hj => ?_⟩
    · rw [rounds]
      rcases Nat.lt_succ_iff_lt_or_eq.mp hi with hi | rfl
      · exact ihd i hi
      · rw [hkk]; exact Real.sqrt_pos.mpr hp
    · rw [rounds, sum_range_succ]
      rcases Nat.lt_succ_iff_lt_or_eq.mp hi with hi | rfl <;> rcases Nat.lt_succ_iff_lt_or_eq.mp hj with hj | hj
      · rw [ihs i hi j hj, round_below A hp hi hj, low, low, if_pos (by omega), if_pos (by omega), hk i hi, hk j hj,
          div_mul_div_comm, hs]
        ring
      · subst hj
        rw [hz2, low, low, if_pos (by omega), if_pos (by omega), hkk, hk i hi, sym, if_neg (by omega)]
        field_simp
        ring
      · rw [hz, low, low, if_pos (by omega), if_pos (by omega), hkk, hk j hj, sym, if_pos (by omega)]
        field_simp
        ring
      · subst hj
        rw [hz, low, if_pos (by omega), hkk, sym, if_pos (by omega), zero_add, hs]

end CT.JsimFactor
