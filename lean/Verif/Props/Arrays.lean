import Verif.Model.Arrays
import Mathlib.Algebra.Order.Field.Basic
import Mathlib.Algebra.Order.Ring.Rat
import Mathlib.Tactic.Ring
import Mathlib.Tactic.FieldSimp
import Mathlib.Tactic.Linarith
import Mathlib.Data.Nat.Cast.Order.Ring

/-! # Properties C05, C06: arrays -/

namespace CT.Arrays

/-! ## C05 -/

section C05
variable {T : Type} [AddCommGroup T]

/-- C05: `a + b` succeeds exactly for equal sizes; the sum has that size and is element-wise. -/
theorem C05_add_elementwise (a b : List T) :
    (a.length ≠ b.length → add a b = .exc) ∧
    (a.length = b.length → ∃ c, add a b = .ok c ∧ c.length = a.length ∧
      ∀ i (hi : i < a.length) (hb : i < b.length) (hc : i < c.length), c[i] = a[i] + b[i]) := by
  refine ⟨fun h => by simp [add, h], fun h => ⟨List.zipWith (· + ·) a b, by simp [add, h], by simp [h], ?_⟩⟩
  intro i hi hb hc
  simp

/-- C05: `a - b` succeeds exactly for equal sizes; the difference has that size and is
element-wise. -/
theorem C05_sub_elementwise (a b : List T) :
    (a.length ≠ b.length → sub a b = .exc) ∧
    (a.length = b.length → ∃ c, sub a b = .ok c ∧ c.length = a.length ∧
      ∀ i (hi : i < a.length) (hb : i < b.length) (hc : i < c.length), c[i] = a[i] - b[i]) := by
  refine ⟨fun h => by simp [sub, h], fun h => ⟨List.zipWith (· - ·) a b, by simp [sub, h], by simp [h], ?_⟩⟩
  intro i hi hb hc
  simp

/-- C05: `(a + b) - b = a`. -/
theorem C05_add_sub_cancel (a b : List T) (h : a.length = b.length) :
    (add a b >>= fun c => sub c b) = .ok a := by
  have : List.zipWith (· - ·) (List.zipWith (· + ·) a b) b = a := by
    apply List.ext_getElem
    · simp [h]
    · intro i h1 h2; simp
  simp [add, sub, h, this]

/-- C05: `+=`/`-=` change the left operand to what `+`/`-` return; on a size mismatch they throw
and change nothing. -/
theorem C05_assign_agrees (a b : List T) :
    (∀ c, add a b = .ok c → addAssign a b = (.ok (), c)) ∧
    (add a b = .exc → addAssign a b = (.exc, a)) ∧
    (∀ c, sub a b = .ok c → subAssign a b = (.ok (), c)) ∧
    (sub a b = .exc → subAssign a b = (.exc, a)) := by
  by_cases h : a.length = b.length <;> simp [add, addAssign, sub, subAssign, h]

example : add [(1 : ℚ), 2] [3, 4] = .ok [4, 6] ∧ add [(1 : ℚ)] [3, 4] = .exc := by
  decide +kernel

/-- C05, removal and constants: erasing the first `n ≤ size` elements leaves the others in their
order (erasing more is undefined); setting a constant or adding an offset acts on every element. -/
theorem C05_erase_offset (a : List T) (n : Nat) (x : T) :
    (n ≤ a.length → ∃ l, eraseFront a n = .ok l ∧ l.length = a.length - n ∧
      ∀ k (hk : k < l.length) (hk' : n + k < a.length), l[k] = a[n + k]) ∧
    (a.length < n → eraseFront a n = .ub) ∧
    (setConstant a x).length = a.length ∧ (∀ v ∈ setConstant a x, v = x) ∧
    (addOffset a x).length = a.length ∧
    ∀ k (hk : k < (addOffset a x).length) (hk' : k < a.length), (addOffset a x)[k] = a[k] + x := by
  refine ⟨fun h => ⟨a.drop n, ?_, by simp, fun k hk hk' => by simp⟩, fun h => ?_, ?_, ?_, ?_, ?_⟩
  · rw [eraseFront, if_neg (by omega)]
  · rw [eraseFront, if_pos h]
  · simp [setConstant]
  · intro v hv
    simp only [setConstant, List.mem_map] at hv
    obtain ⟨_, _, h⟩ := hv
    exact h.symm
  · simp [addOffset]
  · intro k hk hk'
    simp [addOffset]

example : eraseFront [(1 : Int), 2, 3] 2 = .ok [3] := by decide

end C05

section C05
variable {K : Type} [Field K]

/-- C05: scaling by a non-zero number and dividing by it again is the identity. -/
theorem C05_scale_divide (a : List K) (s : K) (hs : s ≠ 0) : divide (scale a s) s = a := by
  simp [divide, scale, Function.comp_def, mul_div_assoc, div_self hs]

/-- C05: scaling is element-wise. -/
theorem C05_scale_elementwise (a : List K) (s : K) :
    (scale a s).length = a.length ∧
    ∀ i (hi : i < a.length) (h : i < (scale a s).length), (scale a s)[i] = a[i] * s := by
  simp [scale]

example : divide (scale [(1 : ℚ), 2] 3) 3 = [1, 2] := C05_scale_divide _ _ (by norm_num)

end C05

/-! ## C06 -/

section C06
variable {K : Type} [Field K]

theorem linspaceLoop_length (h : K) : ∀ (n : Nat) (v : K), (linspaceLoop h n v).length = n := by
  intro n
  induction n with
  | zero => intro v; rfl
  | succ n ih => intro v; simp [linspaceLoop, ih]

theorem linspaceLoop_get (h : K) : ∀ (n : Nat) (v : K) (k : Nat) (hk : k < (linspaceLoop h n v).length),
    (linspaceLoop h n v)[k] = v + (k : K) * h := by
  intro n
  induction n with
  | zero => intro v k hk; simp [linspaceLoop] at hk
  | succ n ih =>
    intro v k hk
    cases k with
    | zero => simp [linspaceLoop]
    | succ k =>
      simp only [linspaceLoop, List.getElem_cons_succ, ih]
      push_cast
      ring

variable [CharZero K]

/-- C06: a uniform time array with `N ≥ 1` points has exactly `N` entries and entry `k` is
`t0 + k dt`; `N = 0` is rejected. -/
theorem C06_entries (dt t0 : K) (n : Nat) :
    (n = 0 → timeArray dt n t0 = .exc) ∧
    (1 ≤ n → ∃ l, timeArray dt n t0 = .ok l ∧ l.length = n ∧
      ∀ k (hk : k < l.length), l[k] = t0 + (k : K) * dt) := by
  constructor
  · intro h; simp [timeArray, linspace, h]
  · intro h
    refine ⟨_, by simp only [timeArray, linspace]; rw [if_neg (by omega)], linspaceLoop_length _ _ _, ?_⟩
    intro k hk
    rw [linspaceLoop_get]
    rw [linspaceLoop_length] at hk
    rcases Nat.lt_or_ge n 2 with h2 | h2
    · have hk0 : k = 0 := by omega
      simp [hk0]
    · have : ((n - 1 : Nat) : K) ≠ 0 := by
        rw [Nat.cast_ne_zero]; omega
      rw [add_sub_cancel_left, mul_div_cancel_left₀ _ this]

/-- C06: for positive spacing the stamps are strictly increasing. -/
theorem C06_increasing {K : Type} [Field K] [LinearOrder K] [IsStrictOrderedRing K]
    (dt t0 : K) (hdt : 0 < dt) (n : Nat) (l : List K) (h : timeArray dt n t0 = .ok l) :
    l.Pairwise (· < ·) := by
  rcases Nat.eq_zero_or_pos n with h0 | h0
  · simp [timeArray, linspace, h0] at h
  · obtain ⟨l', h1, _, h3⟩ := (C06_entries dt t0 n).2 h0
    rw [h] at h1
    obtain rfl : l = l' := by injection h1
    rw [List.pairwise_iff_getElem]
    intro i j hi hj hij
    rw [h3, h3]
    have : (i : K) < (j : K) := Nat.cast_lt.mpr hij
    nlinarith

/-- C06: `linspace(a, b, N)` itself: `N` equally spaced points, first `a`, last `b` for
`N ≥ 2`. -/
theorem C06_linspace (a b : K) (n : Nat) (h2 : 2 ≤ n) :
    ∃ l, linspace a b n = .ok l ∧ ∃ hl : l.length = n,
      l[0] = a ∧ l[n - 1] = b ∧
      ∀ k (hk : k + 1 < l.length), l[k + 1] - l[k] = (b - a) / ((n : K) - 1) := by
  refine ⟨_, by simp only [linspace]; rw [if_neg (by omega)], linspaceLoop_length _ _ _, ?_, ?_, ?_⟩
  · rw [linspaceLoop_get]; simp
  · rw [linspaceLoop_get]
    have : ((n - 1 : Nat) : K) ≠ 0 := by
      rw [Nat.cast_ne_zero]; omega
    rw [mul_div_cancel₀ _ this]; ring
  · intro k hk
    rw [linspaceLoop_get, linspaceLoop_get]
    have : ((n - 1 : Nat) : K) = (n : K) - 1 := by
      rw [Nat.cast_sub (by omega)]; simp
    rw [this]; push_cast; ring

end C06

example : timeArray (1/2 : ℚ) 4 1 = .ok [1, 3/2, 2, 5/2] := by decide +kernel

end CT.Arrays
