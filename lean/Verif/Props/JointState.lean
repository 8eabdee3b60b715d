import Verif.Model.JointState
import Mathlib.Data.Rat.Floor
import Mathlib.Tactic.Linarith
import Mathlib.Tactic.FieldSimp
import Mathlib.Tactic.Ring

/-! # Property C62: joint angles are wrapped without changing the configuration -/

namespace CT.Joint

variable {K : Type} [Field K] [LinearOrder K] [IsStrictOrderedRing K] [FloorRing K]

/-- Specification: the two intervals of one period in which a normalised angle may lie; they
coincide with `[lower, lower + c)` for tolerance zero. -/
def Normal (c lower tolerance q : K) : Prop :=
  (lower - tolerance ≤ q ∧ q < lower - tolerance + c) ∨
  (lower + tolerance ≤ q ∧ q < lower + tolerance + c)

/-- Specification: the angle is so close to the interval that the number of turns fits into a C++
`int`. -/
def Near (c lower tolerance q : K) : Prop :=
  |q - (lower - tolerance)| < 2147483647 * c ∧ |q - (lower + tolerance)| < 2147483647 * c

private theorem floor_bounds {c x : K} (hc : 0 < c) : (⌊x / c⌋ : K) * c ≤ x ∧ x < (⌊x / c⌋ : K) * c + c := by
  constructor
  · have := Int.floor_le (x / c)
    rwa [le_div_iff₀ hc] at this
  · have := Int.lt_floor_add_one (x / c)
    rw [div_lt_iff₀ hc] at this
    linarith

private theorem floor_near {c x : K} (hc : 0 < c) (h : |x| < 2147483647 * c) :
    -2147483648 < ⌊x / c⌋ ∧ ⌊x / c⌋ ≤ 2147483647 := by
  have h1 := abs_lt.1 h
  have hlo : (-2147483647 : K) < x / c := by rw [lt_div_iff₀ hc]; linarith
  have hhi : x / c < 2147483647 := by rw [div_lt_iff₀ hc]; linarith
  constructor
  · have : (-2147483647 : ℤ) ≤ ⌊x / c⌋ := by rw [Int.le_floor]; push_cast; exact hlo.le
    omega
  · have : ⌊x / c⌋ < 2147483647 := by rw [Int.floor_lt]; push_cast; exact hhi
    omega

private theorem floor_eq_zero {c x : K} (hc : 0 < c) (h0 : 0 ≤ x) (h1 : x < c) : ⌊x / c⌋ = 0 := by
  rw [Int.floor_eq_zero_iff]
  exact ⟨div_nonneg h0 hc.le, by rw [div_lt_one hc]; exact h1⟩

private theorem uniqueOne_eq (c q lower tol : K) (hc : 0 < c) (hn : Near c lower tol q) :
    ∃ k : ℤ, uniqueOne c q lower tol = .ok (q - (k : K) * c) ∧
      ((k = ⌊(q - (lower - tol)) / c⌋ ∧ |k| ≤ |⌊(q - (lower + tol)) / c⌋|) ∨
        (k = ⌊(q - (lower + tol)) / c⌋ ∧ |k| < |⌊(q - (lower - tol)) / c⌋|)) := by
  have hl := floor_near hc hn.1
  have hu := floor_near hc hn.2
  unfold uniqueOne
  generalize ⌊(q - (lower - tol)) / c⌋ = kl at hl ⊢
  generalize ⌊(q - (lower + tol)) / c⌋ = ku at hu ⊢
  have e1 : toInt kl = .ok kl := by rw [toInt, if_pos]; omega
  have e2 : toInt ku = .ok ku := by rw [toInt, if_pos]; omega
  have e3 : absInt kl = .ok |kl| := by rw [absInt, if_neg]; omega
  have e4 : absInt ku = .ok |ku| := by rw [absInt, if_neg]; omega
  simp only [e1, e2, e3, e4, Res.ok_bind, Res.pure_eq]
  by_cases h : |kl| ≤ |ku|
  · refine ⟨kl, ?_, .inl ⟨rfl, h⟩⟩
    rw [if_pos h]
    by_cases h0 : kl = 0
    · rw [if_neg (by simpa using h0), h0]; simp
    · rw [if_pos h0]
  · refine ⟨ku, ?_, .inr ⟨rfl, not_le.1 h⟩⟩
    rw [if_neg h]
    by_cases h0 : ku = 0
    · rw [if_neg (by simpa using h0), h0]; simp
    · rw [if_pos h0]

/-- C62, one joint: for every period `c > 0`, limit, tolerance and angle (not astronomically far
away: `Near`), normalisation succeeds, changes the angle by a whole number of turns, puts it into a
period starting at the lower limit minus or plus the tolerance – exactly into `[lower, lower + c)`
without tolerance –, and leaves an angle that is already normalised untouched. -/
theorem C62_unique_one (c q lower tol : K) (hc : 0 < c) (hn : Near c lower tol q) :
    ∃ q', uniqueOne c q lower tol = .ok q' ∧ (∃ k : ℤ, q' = q - (k : K) * c) ∧
      Normal c lower tol q' ∧ (tol = 0 → lower ≤ q' ∧ q' < lower + c) ∧
      (Normal c lower tol q → q' = q) := by
  obtain ⟨k, hk, hor⟩ := uniqueOne_eq c q lower tol hc hn
  have hnorm : Normal c lower tol (q - (k : K) * c) := by
    rcases hor with ⟨rfl, _⟩ | ⟨rfl, _⟩
    · left
      have := floor_bounds (x := q - (lower - tol)) hc
      constructor <;> linarith [this.1, this.2]
    · right
      have := floor_bounds (x := q - (lower + tol)) hc
      constructor <;> linarith [this.1, this.2]
  refine ⟨_, hk, ⟨k, rfl⟩, hnorm, ?_, ?_⟩
  · intro h0
    rcases hnorm with h | h <;> rw [h0] at h
    · simpa using h
    · simpa using h
  · intro hq
    have h0 : k = 0 := by
      rcases hq with ⟨h1, h2⟩ | ⟨h1, h2⟩
      · have hz : ⌊(q - (lower - tol)) / c⌋ = 0 := floor_eq_zero hc (by linarith) (by linarith)
        rcases hor with ⟨rfl, _⟩ | ⟨_, h⟩
        · exact hz
        · rw [hz] at h; exact absurd h (by simp)
      · have hz : ⌊(q - (lower + tol)) / c⌋ = 0 := floor_eq_zero hc (by linarith) (by linarith)
        rcases hor with ⟨_, h⟩ | ⟨rfl, _⟩
        · rw [hz] at h; simpa using h
        · exact hz
    rw [h0]; simp

/-- C62, all joints: normalisation acts on every joint separately as in `C62_unique_one`; a joint
whose angle is normalised already is not changed. -/
theorem C62_unique (c tol : K) (hc : 0 < c) : ∀ (qs ls : List K), qs.length = ls.length →
    (∀ i (h1 : i < qs.length) (h2 : i < ls.length), Near c ls[i] tol qs[i]) →
    ∃ qs', toUniquePosition c tol qs ls = .ok qs' ∧ qs'.length = qs.length ∧
      (∀ i (h1 : i < qs.length) (h2 : i < ls.length) (h3 : i < qs'.length),
        (∃ k : ℤ, qs'[i] = qs[i] - (k : K) * c) ∧ Normal c ls[i] tol qs'[i] ∧
        (tol = 0 → ls[i] ≤ qs'[i] ∧ qs'[i] < ls[i] + c) ∧ (Normal c ls[i] tol qs[i] → qs'[i] = qs[i])) := by
  intro qs
  induction qs with
  | nil =>
    intro ls _ _
    exact ⟨[], by cases ls <;> rfl, rfl, fun i h1 => absurd h1 (by simp)⟩
  | cons q qs ih =>
    intro ls hlen hnear
    match ls, hlen, hnear with
    | l :: ls, hlen, hnear =>
      obtain ⟨q', hq', hk, hno, ht, hid⟩ := C62_unique_one c q l tol hc (hnear 0 (by simp) (by simp))
      obtain ⟨qs', hqs', hl', hall⟩ := ih ls (by simpa using hlen) (fun i h1 h2 =>
        hnear (i + 1) (by simpa using h1) (by simpa using h2))
      refine ⟨q' :: qs', ?_, by simp [hl'], ?_⟩
      · simp only [toUniquePosition, hq', hqs', Res.ok_bind, Res.pure_eq]
      · intro i h1 h2 h3
        cases i with
        | zero => exact ⟨hk, hno, ht, hid⟩
        | succ i => exact hall i (by simpa using h1) (by simpa using h2) (by simpa using h3)

/-- An angle of 7.5 with period 2 and lower limit −1 becomes −0.5. -/
example : toUniquePosition (2 : ℚ) 0 [15 / 2, 0] [-1, -1] = .ok [-1 / 2, 0] := by decide +kernel

example : Near (2 : ℚ) (-1) 0 (15 / 2) := by
  unfold Near; norm_num [abs_lt]

/-- C62, position limits: the check answers `true` exactly when every joint lies between its limits,
widened by the tolerance (a negative tolerance counts as zero). -/
theorem C62_position_limits (tol : K) (js : List (K × K × K)) :
    checkPositionLimits tol js = true ↔
      ∀ j ∈ js, j.2.1 - max tol 0 ≤ j.1 ∧ j.1 ≤ j.2.2 + max tol 0 := by
  induction js with
  | nil => simp [checkPositionLimits]
  | cons j js ih =>
    obtain ⟨q, l, u⟩ := j
    have key : ((tol < |q - l| ∧ q < l) ∨ (tol < |q - u| ∧ u < q)) ↔
        ¬ (l - max tol 0 ≤ q ∧ q ≤ u + max tol 0) := by
      have hmax0 : 0 ≤ max tol 0 := le_max_right _ _
      have hmaxt : tol ≤ max tol 0 := le_max_left _ _
      constructor
      · rintro (⟨h1, h2⟩ | ⟨h1, h2⟩) ⟨h3, h4⟩
        · rw [abs_of_neg (by linarith)] at h1
          rcases le_total tol 0 with ht | ht
          · rw [max_eq_right ht] at h3; linarith
          · rw [max_eq_left ht] at h3; linarith
        · rw [abs_of_pos (by linarith)] at h1
          rcases le_total tol 0 with ht | ht
          · rw [max_eq_right ht] at h4; linarith
          · rw [max_eq_left ht] at h4; linarith
      · intro h
        rw [not_and_or, not_le, not_le] at h
        rcases h with h | h
        · left
          have : q < l := by linarith
          exact ⟨by rw [abs_of_neg (by linarith)]; linarith, this⟩
        · right
          have : u < q := by linarith
          exact ⟨by rw [abs_of_pos (by linarith)]; linarith, this⟩
    simp only [checkPositionLimits, List.forall_mem_cons]
    split
    · rename_i h
      simp only [Bool.false_eq_true, false_iff]
      exact fun h' => (key.1 h) h'.1
    · rename_i h
      rw [ih]
      exact ⟨fun h' => ⟨not_not.1 fun hn => h (key.2 hn), h'⟩, fun h' => h'.2⟩

/-- C62, velocity limits: the check answers `true` exactly when no joint is faster than its limit. -/
theorem C62_velocity_limits (js : List (K × K)) :
    checkVelocityLimits js = true ↔ ∀ j ∈ js, |j.1| ≤ j.2 := by
  induction js with
  | nil => simp [checkVelocityLimits]
  | cons j js ih =>
    obtain ⟨v, l⟩ := j
    simp only [checkVelocityLimits, List.forall_mem_cons]
    split
    · rename_i h
      simp only [Bool.false_eq_true, false_iff]
      exact fun h' => absurd h'.1 (not_le.2 h)
    · rename_i h
      rw [ih]
      exact ⟨fun h' => ⟨not_lt.1 h, h'⟩, fun h' => h'.2⟩

example : checkPositionLimits (1 / 10 : ℚ) [(1, 0, 1), (-1 / 20, 0, 1)] = true ∧
    checkPositionLimits (0 : ℚ) [(-1 / 20, 0, 1)] = false ∧
    checkVelocityLimits [((-2 : ℚ), 1)] = false := by decide +kernel

/-- C62, undefined behaviour: the restriction `Near` is needed, an angle further away than `2³¹`
turns makes the conversion to `int` undefined. -/
theorem C62_far_undefined (c q lower tol : K) (hc : 0 < c)
    (h : 2147483648 * c ≤ q - (lower - tol)) : uniqueOne c q lower tol = .ub := by
  have : (2147483648 : ℤ) ≤ ⌊(q - (lower - tol)) / c⌋ := by
    rw [Int.le_floor, le_div_iff₀ hc]; push_cast; exact h
  unfold uniqueOne
  have e : toInt ⌊(q - (lower - tol)) / c⌋ = .ub := by rw [toInt, if_neg]; omega
  rw [e]; rfl

example : (2147483648 : ℚ) * 1 ≤ 3000000000 - (0 - 0) := by norm_num

end CT.Joint
