import Verif.Model.Quantization
import Mathlib.Tactic.Linarith
import Mathlib.Tactic.Ring
import Mathlib.Tactic.FieldSimp
import Mathlib.Data.Rat.Floor

/-! # Property C11: quantisation noise -/

namespace CT.Quantization

variable {K : Type} [Field K] [LinearOrder K] [IsStrictOrderedRing K] [FloorRing K]

/-- Specification: what identifier `j` has received minus what has been emitted for it (without
the bias), over a list of calls and their outputs. -/
def owed (bias : K) (j : Nat) : List (K × Nat) → List K → K
  | c :: cs, o :: os => (if c.2 = j then c.1 - (o - bias) else 0) + owed bias j cs os
  | _, _ => 0

/-- Specification: the admissible range of the outstanding remainder. -/
def InRange (m : Method) (interval r : K) : Prop :=
  match m with
  | .FLOOR => 0 ≤ r ∧ r < interval
  | .ROUND => -(interval / 2) ≤ r ∧ r ≤ interval / 2

omit [FloorRing K] in
theorem inRange_zero (m : Method) {q : K} (hq : 0 < q) : InRange m q 0 := by
  cases m
  · exact ⟨le_refl _, hq⟩
  · constructor <;> linarith

theorem inRange_remainder (m : Method) {q : K} (hq : 0 < q) (x : K) :
    InRange m q (x - (nQuants m (x / q) : K) * q) := by
  have hx : x = x / q * q := by field_simp
  generalize x / q = y at hx ⊢
  subst hx
  have key : ∀ n : K, y * q - n * q = (y - n) * q := fun n => by ring
  cases m
  · simp only [InRange, nQuants, key]
    have h1 := Int.floor_le y
    have h2 := Int.lt_floor_add_one y
    constructor
    · exact mul_nonneg (by linarith) hq.le
    · calc (y - ⌊y⌋) * q < 1 * q := by
            apply mul_lt_mul_of_pos_right _ hq; linarith
        _ = q := one_mul q
  · simp only [InRange, nQuants, key, roundAway]
    split
    · have h1 := Int.floor_le (y + 1 / 2)
      have h2 := Int.lt_floor_add_one (y + 1 / 2)
      constructor
      · have : -(1/2) * q ≤ (y - (⌊y + 1/2⌋ : K)) * q :=
          mul_le_mul_of_nonneg_right (by linarith) hq.le
        linarith
      · have : (y - (⌊y + 1/2⌋ : K)) * q ≤ (1/2) * q :=
          mul_le_mul_of_nonneg_right (by linarith) hq.le
        linarith
    · have h1 := Int.le_ceil (y - 1 / 2)
      have h2 := Int.ceil_lt_add_one (y - 1 / 2)
      constructor
      · have : -(1/2) * q ≤ (y - (⌈y - 1/2⌉ : K)) * q :=
          mul_le_mul_of_nonneg_right (by linarith) hq.le
        linarith
      · have : (y - (⌈y - 1/2⌉ : K)) * q ≤ (1/2) * q :=
          mul_le_mul_of_nonneg_right (by linarith) hq.le
        linarith

omit [IsStrictOrderedRing K] in
/-- `noisify` is undefined exactly for identifiers outside the table. -/
theorem noisify_eq (q : Quant K) (v : K) (i : Nat) :
    (q.rest.length ≤ i → q.noisify v i = .ub) ∧
    ((h : i < q.rest.length) → q.noisify v i =
      .ok ((nQuants q.method ((v + q.rest[i]) / q.interval) : K) * q.interval + q.bias,
        { q with rest := (q.rest.set i
            (v + q.rest[i] - (nQuants q.method ((v + q.rest[i]) / q.interval) : K) * q.interval)) })) := by
  constructor
  · intro h
    have : (resize q.rest i)[i]? = none := by
      simp [resize]; omega
    simp [Quant.noisify, h, idx, this]
  · intro h
    have : ¬ q.rest.length ≤ i := by omega
    simp [Quant.noisify, this, idx, h]

theorem run_inv (q : Quant K) (hq : 0 < q.interval)
    (hr : ∀ j (h : j < q.rest.length), InRange q.method q.interval q.rest[j])
    (cs : List (K × Nat)) (os : List K) (q' : Quant K) (h : q.run cs = .ok (os, q')) :
    os.length = cs.length ∧
    q'.interval = q.interval ∧ q'.method = q.method ∧ q'.bias = q.bias ∧
    q'.rest.length = q.rest.length ∧
    (∀ o ∈ os, ∃ n : ℤ, o = n * q.interval + q.bias) ∧
    (∀ j (h : j < q.rest.length) (h' : j < q'.rest.length),
      q'.rest[j] = q.rest[j] + owed q.bias j cs os ∧ InRange q.method q.interval q'.rest[j]) ∧
    (∀ j, q.rest.length ≤ j → owed q.bias j cs os = 0) := by
  induction cs generalizing q os q' with
  | nil =>
      simp only [Quant.run, Res.ok.injEq, Prod.mk.injEq] at h
      obtain ⟨rfl, rfl⟩ := h
      refine ⟨rfl, rfl, rfl, rfl, rfl, by simp, ?_, ?_⟩
      · intro j h h'; exact ⟨by simp [owed], hr j h⟩
      · intro j _; rfl
  | cons c cs ih =>
      obtain ⟨v, i⟩ := c
      rcases Nat.lt_or_ge i q.rest.length with hi | hi
      swap
      · simp [Quant.run, (noisify_eq q v i).1 hi] at h
      simp only [Quant.run, (noisify_eq q v i).2 hi, Res.ok_bind, Res.bind_eq_ok, Res.pure_eq,
        Res.ok.injEq, Prod.mk.injEq] at h
      obtain ⟨⟨os', q2⟩, hrun, rfl, rfl⟩ := h
      set nn : K := (nQuants q.method ((v + q.rest[i]) / q.interval) : K) with hnn
      have hrange : ∀ j (h : j < (q.rest.set i (v + q.rest[i] - nn * q.interval)).length),
          InRange q.method q.interval (q.rest.set i (v + q.rest[i] - nn * q.interval))[j] := by
        intro j hj
        simp only [List.getElem_set]
        split
        · exact inRange_remainder _ hq _
        · exact hr j (by simpa using hj)
      obtain ⟨h1, h2, h3, h4, h5, h6, h7, h8⟩ := ih
        { q with rest := q.rest.set i (v + q.rest[i] - nn * q.interval) } hq hrange os' q2 hrun
      simp only [List.length_set] at h5 h6 h7 h8
      refine ⟨by simp [h1], h2, h3, h4, h5, ?_, ?_, ?_⟩
      · intro o ho
        rcases List.mem_cons.1 ho with rfl | ho
        · exact ⟨_, rfl⟩
        · exact h6 o ho
      · intro j hj hj'
        obtain ⟨ha, hb⟩ := h7 j hj hj'
        refine ⟨?_, hb⟩
        rw [ha]
        simp only [owed, List.getElem_set]
        by_cases hij : i = j
        · subst hij; simp; ring
        · simp [hij]
      · intro j hj
        have hij : i ≠ j := by omega
        simp [owed, hij, h8 j hj]

/-- C11 (partial): for every interval `> 0`, bias and method and for every sequence of calls on
a new quantiser that does not run into undefined behaviour, every output is an integer multiple
of the interval plus the bias, and at every identifier the difference between everything put in
and everything put out stays below one interval (floor) or within half an interval (round).

Missing for the full statement: calls with identifiers outside the table of remainders, which the
code fails to enlarge, see `C11_violated`. -/
theorem C11_quantisation_accounting_partial (bias interval : K) (hq : 0 < interval) (m : Method)
    (calls : List (K × Nat)) (outs : List K) (q' : Quant K)
    (h : (Quant.new bias interval m).run calls = .ok (outs, q')) :
    outs.length = calls.length ∧
    (∀ o ∈ outs, ∃ n : ℤ, o = n * interval + bias) ∧
    (∀ j, InRange m interval (owed bias j calls outs)) := by
  have hr : ∀ j (h : j < (Quant.new bias interval m).rest.length),
      InRange m interval (Quant.new bias interval m).rest[j] := by
    intro j hj
    have : (Quant.new bias interval m).rest[j] = 0 := by
      simp only [Quant.new, List.length_singleton, Nat.lt_one_iff] at hj
      subst hj; simp [Quant.new]
    rw [this]; exact inRange_zero m hq
  obtain ⟨h1, _, _, _, h5, h6, h7, h8⟩ := run_inv _ (by exact hq) hr calls outs q' h
  refine ⟨h1, h6, ?_⟩
  intro j
  rcases Nat.lt_or_ge j (Quant.new bias interval m).rest.length with hj | hj
  · obtain ⟨ha, hb⟩ := h7 j hj (by omega)
    have : (Quant.new bias interval m).rest[j] = 0 := by
      simp only [Quant.new, List.length_singleton, Nat.lt_one_iff] at hj
      subst hj; simp [Quant.new]
    rw [this, zero_add] at ha
    have hb' := hb
    rw [ha] at hb'
    exact hb'
  · have := h8 j hj
    have e : owed bias j calls outs = 0 := this
    rw [e]; exact inRange_zero m hq

omit [IsStrictOrderedRing K] in
/-- C11 (partial), definedness: calls that only use identifier 0 never run into undefined
behaviour on a quantiser that has not been reset (and never throw). -/
theorem C11_identifier_zero_defined_partial (bias interval : K) (m : Method) (vs : List K) :
    ∃ outs q', (Quant.new bias interval m).run (vs.map (·, 0)) = .ok (outs, q') := by
  have gen : ∀ (vs : List K) (q : Quant K), q.rest.length = 1 →
      ∃ outs q', q.run (vs.map (·, 0)) = .ok (outs, q') := by
    intro vs
    induction vs with
    | nil => intro q _; exact ⟨[], q, rfl⟩
    | cons v vs ih =>
        intro q hq
        obtain ⟨os, q', h⟩ := ih { q with rest := (q.rest.set 0 (v + q.rest[0] -
          (nQuants q.method ((v + q.rest[0]) / q.interval) : K) * q.interval)) } (by simpa using hq)
        refine ⟨((nQuants q.method ((v + q.rest[0]) / q.interval) : K) * q.interval + q.bias) :: os,
          q', ?_⟩
        simp only [List.map_cons, Quant.run, (noisify_eq q v 0).2 (by omega), Res.ok_bind, h,
          Res.pure_eq]
  exact gen vs _ rfl

example : (Quant.new (0 : ℚ) (1/2) .ROUND).run [(3/10, 0), (1/5, 0)] =
    .ok ([1/2, 0], ⟨1/2, [0], 0, .ROUND⟩) := by decide +kernel

omit [IsStrictOrderedRing K] in
/-- C11 is violated: any call with identifier 1 on a new quantiser, any vector with at least two
entries, and any call at all after a reset read and write outside the table of remainders. -/
theorem C11_violated (bias interval : K) (m : Method) (v w : K) (vs : List K) (i : Nat) :
    (Quant.new bias interval m).noisify v 1 = .ub ∧
    (Quant.new bias interval m).noisifyVec (v :: w :: vs) 0 = .ub ∧
    (Quant.new bias interval m).reset.noisify v i = .ub := by
  refine ⟨(noisify_eq _ _ _).1 (by simp [Quant.new]), ?_, (noisify_eq _ _ _).1 (by simp [Quant.reset])⟩
  rw [Quant.noisifyVec, (noisify_eq _ v 0).2 (by simp [Quant.new])]
  simp only [Res.ok_bind]
  rw [Quant.noisifyVec, (noisify_eq _ w _).1 (by simp [Quant.new])]
  rfl

end CT.Quantization
