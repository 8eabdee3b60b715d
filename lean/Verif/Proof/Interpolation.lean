import Verif.Model.Interpolation
import Verif.Spec.Trajectory
import Mathlib.Tactic.Linarith
import Mathlib.Tactic.Ring
import Mathlib.Tactic.FieldSimp
import Mathlib.Tactic.Push

namespace CT

theorem atI_of_lt {α : Type _} (l : List α) (i : Nat) (h : i < l.length) :
    atI l (i : Int) = .ok l[i] := by
  simp [atI, h]

theorem atI_of_ge {α : Type _} (l : List α) (i : Nat) (h : l.length ≤ i) :
    atI l (i : Int) = .exc := by
  simp [atI, h]

theorem front_cons {α : Type _} (a : α) (l : List α) : front (a :: l) = .ok a := by
  simp [front, idx]

theorem front_of_pos {α : Type _} (l : List α) (h : 0 < l.length) : front l = .ok l[0] := by
  simp [front, idx, h]

theorem idx_of_lt {α : Type _} (l : List α) (i : Nat) (h : i < l.length) : idx l i = .ok l[i] := by
  simp [idx, h]

theorem back_of_pos {α : Type _} (l : List α) (h : 0 < l.length) :
    back l = .ok (l[l.length - 1]'(by omega)) := by
  have : l.getLast? = some (l[l.length - 1]'(by omega)) := by
    rw [List.getLast?_eq_getElem?]; simp [h]
  simp [back, this]

end CT

namespace CT.Interp

section Search
variable {T : Type _} [LinearOrder T]

theorem IsActiveIndex.lt {ts : List T} {q : T} {k : Nat} (h : IsActiveIndex ts q k) :
    k < ts.length := by
  rcases h with ⟨h, _⟩ | ⟨h, h', _⟩
  · exact h
  · omega

theorem IsActiveIndex.unique {ts : List T} {q : T} {k l : Nat}
    (hk : IsActiveIndex ts q k) (hl : IsActiveIndex ts q l) : k = l := by
  rcases hk with ⟨h1, h2, h3⟩ | ⟨h1, h2, h3⟩ <;> rcases hl with ⟨g1, g2, g3⟩ | ⟨g1, g2, g3⟩
  · rcases lt_trichotomy k l with h | h | h
    · exact absurd (h3 l g1 h) (not_lt.mpr g2)
    · exact h
    · exact absurd (g3 k h1 h) (not_lt.mpr h2)
  · exact absurd (g3 k h1) (not_lt.mpr h2)
  · exact absurd (h3 l g1) (not_lt.mpr g2)
  · omega

theorem sorted_get {ts : List T} (hs : ts.Pairwise (· ≤ ·)) {i j : Nat} (hij : i ≤ j)
    (hj : j < ts.length) : ts[i]'(by omega) ≤ ts[j] := by
  rcases Nat.lt_or_eq_of_le hij with h | h
  · exact List.pairwise_iff_getElem.mp hs i j (by omega) hj h
  · subst h; exact le_refl _

theorem searchBack_spec {ts : List T} (hs : ts.Pairwise (· ≤ ·)) (q : T) :
    ∀ (c : Nat) (hc : c < ts.length), q < ts[c] →
      ∃ k : Nat, searchBack ts q c = .ok (k : Int) ∧ IsActiveIndex ts q k := by
  intro c
  induction c with
  | zero =>
    intro hc hq
    refine ⟨0, ?_, Or.inr ⟨rfl, hc, ?_⟩⟩
    · have := atI_of_lt ts 0 hc
      simp only [Nat.cast_zero] at this
      simp [searchBack, this]
    · intro j hj
      exact lt_of_lt_of_le hq (sorted_get hs (Nat.zero_le j) hj)
  | succ c ih =>
    intro hc hq
    have hat := atI_of_lt ts (c+1) hc
    simp only [searchBack, hat, Res.ok_bind, not_le.mpr hq, if_false]
    by_cases hc2 : q < ts[c]
    · exact ih (by omega) hc2
    · refine ⟨c, ?_, Or.inl ⟨by omega, not_lt.mp hc2, ?_⟩⟩
      · cases c with
        | zero =>
          have := atI_of_lt ts 0 (by omega)
          simp only [Nat.cast_zero] at this
          simp [searchBack, this]
        | succ c =>
          have hat := atI_of_lt ts (c+1) (by omega)
          simp only [searchBack, hat, Res.ok_bind, not_lt.mp hc2, if_true]
          rfl
      · intro j hj hcj
        exact lt_of_lt_of_le hq (sorted_get hs hcj hj)

/-- Without any assumption on the stamps the backward loop yields a non-negative index. -/
theorem searchBack_nonneg (ts : List T) (q : T) :
    ∀ (c : Nat), c < ts.length → ∃ k : Nat, searchBack ts q c = .ok (k : Int) := by
  intro c
  induction c with
  | zero =>
    intro hc
    have := atI_of_lt ts 0 hc
    simp only [Nat.cast_zero] at this
    exact ⟨0, by simp [searchBack, this]⟩
  | succ c ih =>
    intro hc
    have hat := atI_of_lt ts (c+1) hc
    simp only [searchBack, hat, Res.ok_bind]
    split
    · exact ⟨c+1, rfl⟩
    · exact ih (by omega)

theorem searchFwd_spec (q : T) : ∀ (l : List T) (ts : List T) (c : Nat) (index : Int),
    ts.Pairwise (· ≤ ·) → ts.drop c = l → (hc : c ≤ ts.length) →
    (index = (c : Int) - 1) →
    (c = 0 → ∀ h : 0 < ts.length, ts[0] ≤ q) → 0 < ts.length →
    (∀ h : 0 < c, ts[c-1]'(by omega) ≤ q) →
      ∃ k : Nat, searchFwd q l (c : Int) index = (k : Int) ∧ IsActiveIndex ts q k := by
  intro l
  induction l with
  | nil =>
    intro ts c index hs hd hc hi h0 hpos hprev
    have hlen : ts.length ≤ c := by simpa using hd
    have hceq : c = ts.length := by omega
    refine ⟨c - 1, ?_, Or.inl ⟨by omega, hprev (by omega), ?_⟩⟩
    · simp [searchFwd, hi]; omega
    · intro j hj hcj; omega
  | cons t rest ih =>
    intro ts c index hs hd hc hi h0 hpos hprev
    have hclt : c < ts.length := by
      by_contra hcon
      rw [List.drop_eq_nil_of_le (by omega)] at hd
      cases hd
    have ht : ts[c] = t := by
      have := List.getElem_cons_drop (as := ts) (i := c) hclt
      rw [hd] at this
      exact (List.cons.inj this).1
    have hrest : ts.drop (c+1) = rest := by
      have := List.getElem_cons_drop (as := ts) (i := c) hclt
      rw [hd] at this
      exact (List.cons.inj this).2
    by_cases hq : q < t
    · simp only [searchFwd, hq, if_true]
      have hcpos : 0 < c := by
        rcases Nat.eq_zero_or_pos c with h | h
        · subst h
          exact absurd hq (not_lt.mpr (ht ▸ h0 rfl hclt))
        · exact h
      refine ⟨c - 1, by omega, Or.inl ⟨by omega, hprev hcpos, ?_⟩⟩
      intro j hj hcj
      rw [← ht] at hq
      exact lt_of_lt_of_le hq (sorted_get hs (by omega) hj)
    · simp only [searchFwd, hq, if_false]
      have := ih ts (c+1) (c : Int) hs hrest (by omega) (by push_cast; ring)
        (by omega) hpos (by intro _; simpa [ht] using not_lt.mp hq)
      push_cast at this
      exact this

theorem searchFwd_nonneg (q : T) : ∀ (l : List T) (c index : Int),
    0 ≤ index → 0 < c → 0 ≤ searchFwd q l c index := by
  intro l
  induction l with
  | nil => intro c index h _; simpa [searchFwd]
  | cons t rest ih =>
    intro c index h hc
    simp only [searchFwd]
    split
    · omega
    · exact ih (c+1) c (by omega) (by omega)

/-- Full characterisation of `findIndex` on sorted stamps, whatever non-negative position was
cached. -/
theorem findIndex_spec {ts : List T} (hs : ts.Pairwise (· ≤ ·)) (hne : ts ≠ []) (q : T)
    {cache : Int} (hc : 0 ≤ cache) :
    ∃ k : Nat, findIndex ts q cache = (.ok (k : Int), (k : Int)) ∧ IsActiveIndex ts q k := by
  have hlen : 0 < ts.length := List.length_pos_iff.mpr hne
  obtain ⟨c, hcdef⟩ : ∃ c : Nat, min cache ((ts.length : Int) - 1) = (c : Int) :=
    ⟨(min cache ((ts.length : Int) - 1)).toNat, by omega⟩
  have hclt : c < ts.length := by omega
  have hat := atI_of_lt ts c hclt
  simp only [findIndex, hcdef, hat, Int.toNat_natCast]
  by_cases hq : q < ts[c]
  · obtain ⟨k, hk, hspec⟩ := searchBack_spec hs q c hclt hq
    refine ⟨k, ?_, hspec⟩
    simp [hq, hk]
  · have hd : ts.drop c = ts[c] :: ts.drop (c+1) := by
      exact (List.getElem_cons_drop (as := ts) (i := c) hclt).symm
    obtain ⟨k, hk, hspec⟩ := searchFwd_spec q (ts.drop (c+1)) ts (c+1) (c : Int) hs rfl
      (by omega) (by push_cast; ring) (by omega) hlen (by intro _; simpa using not_lt.mp hq)
    refine ⟨k, ?_, hspec⟩
    have : searchFwd q (ts.drop c) (c : Int) (-1) = (k : Int) := by
      rw [hd, searchFwd]
      simp only [hq, if_false]
      push_cast at hk
      exact hk
    simp [hq, this]

/-- On any non-empty array (sorted or not) a non-negative cached position stays
non-negative. -/
theorem findIndex_cache_nonneg (ts : List T) (hne : ts ≠ []) (q : T)
    {cache : Int} (hc : 0 ≤ cache) : 0 ≤ (findIndex ts q cache).2 := by
  have hlen : 0 < ts.length := List.length_pos_iff.mpr hne
  obtain ⟨c, hcdef⟩ : ∃ c : Nat, min cache ((ts.length : Int) - 1) = (c : Int) :=
    ⟨(min cache ((ts.length : Int) - 1)).toNat, by omega⟩
  have hclt : c < ts.length := by omega
  have hat := atI_of_lt ts c hclt
  simp only [findIndex, hcdef, hat, Int.toNat_natCast]
  split <;> try (simp; done)
  split
  · simp
  · simp; omega

end Search

section Eval
variable {K : Type _} [Field K] [LinearOrder K]
variable {D : Type _} [AddCommGroup D] [Module K D]

theorem interpolate_spec {ts : List K} {ds : List D} (hs : ts.Pairwise (· ≤ ·))
    (hlen : ts.length = ds.length) (h2 : 2 ≤ ts.length) (ty : IType) (q : K) {cache : Int}
    (hc : 0 ≤ cache) :
    ∃ k : Nat, IsActiveIndex ts q k ∧
      interpolate ty ts ds q cache = (blend ty ts ds q k, (k : Int)) := by
  obtain ⟨k, hk, hspec⟩ := findIndex_spec hs (by intro h; simp [h] at h2) q hc
  refine ⟨k, hspec, ?_⟩
  unfold interpolate
  rw [if_neg (by omega), if_neg (by omega), if_neg (by omega), if_neg (by omega), hk]

end Eval

end CT.Interp
