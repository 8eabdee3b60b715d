import Verif.Model.Inverses
import Mathlib.Algebra.BigOperators.Intervals
import Mathlib.Data.List.Range
import Mathlib.Tactic.Ring
import Mathlib.Tactic.FieldSimp
import Mathlib.Tactic.LinearCombination

/-! Helper lemmas for the LU and LDLT solvers: programs in which every cell is written once. -/

namespace CT.Inverses

variable {K : Type} [Field K]

/-- `F` does not read cell `q`. -/
def Indep {P : Type} [DecidableEq P] (F : (P → K) → K) (q : P) : Prop :=
  ∀ σ v, F (Function.update σ q v) = F σ

/-- Straight-line program. -/
def run {P : Type} [DecidableEq P] (prog : List (P × ((P → K) → K))) (σ : P → K) : P → K :=
  prog.foldl (fun σ a => Function.update σ a.1 (a.2 σ)) σ

omit [Field K] in
theorem run_of_indep {P : Type} [DecidableEq P] (prog : List (P × ((P → K) → K))) (σ : P → K)
    (F : (P → K) → K) (h : ∀ a ∈ prog, Indep F a.1) : F (run prog σ) = F σ := by
  induction prog generalizing σ with
  | nil => rfl
  | cons a l ih =>
      simp only [run, List.foldl_cons] at ih ⊢
      rw [ih _ (fun b hb => h b (List.mem_cons_of_mem _ hb)), h a List.mem_cons_self]

omit [Field K] in
theorem run_other {P : Type} [DecidableEq P] (prog : List (P × ((P → K) → K))) (σ : P → K)
    (q : P) (h : ∀ a ∈ prog, a.1 ≠ q) : run prog σ q = σ q :=
  run_of_indep prog σ (fun σ => σ q) (fun a ha τ v => Function.update_of_ne (h a ha).symm v τ)

omit [Field K] in
/-- If no assignment reads its own cell or one written later, and no cell is written twice, all
assignments hold as equations at the end. -/
theorem run_spec {P : Type} [DecidableEq P] (prog : List (P × ((P → K) → K))) (σ : P → K)
    (hself : ∀ a ∈ prog, Indep a.2 a.1)
    (hp : prog.Pairwise (fun a b => a.1 ≠ b.1 ∧ Indep a.2 b.1)) :
    ∀ a ∈ prog, run prog σ a.1 = a.2 (run prog σ) := by
  induction prog generalizing σ with
  | nil => simp
  | cons a l ih =>
      rw [List.pairwise_cons] at hp
      intro b hb
      have e : run (a :: l) σ = run l (Function.update σ a.1 (a.2 σ)) := rfl
      rw [e]
      rcases List.mem_cons.1 hb with rfl | hb'
      · rw [run_other l _ _ (fun c hc => (hp.1 c hc).1.symm), Function.update_self,
          run_of_indep l _ _ (fun c hc => (hp.1 c hc).2), hself _ List.mem_cons_self]
      · exact ih _ (fun c hc => hself c (List.mem_cons_of_mem _ hc)) hp.2 b hb'

theorem accum_eq (lo hi : ℕ) (f : ℕ → K) : accum lo hi f = ∑ p ∈ Finset.Ico lo hi, f p := by
  have gen : ∀ (n lo : ℕ) (s : K), (List.range' lo n).foldl (fun s p => s + f p) s =
      s + ∑ p ∈ Finset.Ico lo (lo + n), f p := by
    intro n
    induction n with
    | zero => intro lo s; simp
    | succ n ih =>
        intro lo s
        rw [List.range'_succ, List.foldl_cons, ih, show lo + (n + 1) = lo + 1 + n by ring,
          Finset.sum_eq_sum_Ico_succ_bot (by omega : lo < lo + 1 + n)]
        ring
  unfold accum
  rw [gen, zero_add]
  rcases Nat.le_total lo hi with h | h
  · rw [Nat.add_sub_cancel' h]
  · rw [Nat.sub_eq_zero_of_le h, add_zero, Finset.Ico_self, Finset.Ico_eq_empty (by omega)]

theorem accum_congr (lo hi : ℕ) (f g : ℕ → K) (h : ∀ p, lo ≤ p → p < hi → f p = g p) :
    accum lo hi f = accum lo hi g := by
  rw [accum_eq, accum_eq]
  exact Finset.sum_congr rfl (fun p hp => h p (Finset.mem_Ico.1 hp).1 (Finset.mem_Ico.1 hp).2)

/-! ### LU -/

/-- The assignments of `lu`, in order. -/
def luProg (n : ℕ) (A : Mat K) : List ((ℕ × ℕ) × (Mat K → K)) :=
  (List.range n).flatMap (fun k =>
    (List.range' k (n - k)).map (fun i => ((i, k), luL A i k)) ++
    (List.range' (k + 1) (n - (k + 1))).map (fun j => ((k, j), luU A k j)))

theorem lu_eq_run (n : ℕ) (A LU : Mat K) : lu n A LU = run (luProg n A) LU := by
  unfold lu run luProg
  rw [List.foldl_flatMap]
  congr 1
  funext LU k
  rw [List.foldl_append, List.foldl_map, List.foldl_map]

theorem indep_luL (A : Mat K) (i k : ℕ) (q : ℕ × ℕ)
    (h : ∀ p < k, (i, p) ≠ q ∧ (p, k) ≠ q) : Indep (luL A i k) q := by
  intro σ v
  unfold luL
  congr 1
  apply accum_congr
  intro p _ hp
  rw [Function.update_of_ne (h p hp).1, Function.update_of_ne (h p hp).2]

theorem indep_luU (A : Mat K) (k j : ℕ) (q : ℕ × ℕ) (hd : (k, k) ≠ q)
    (h : ∀ p < k, (k, p) ≠ q ∧ (p, j) ≠ q) : Indep (luU A k j) q := by
  intro σ v
  unfold luU
  rw [Function.update_of_ne hd]
  congr 2
  apply accum_congr
  intro p _ hp
  rw [Function.update_of_ne (h p hp).1, Function.update_of_ne (h p hp).2]

theorem mem_luProg (n : ℕ) (A : Mat K) (a) : a ∈ luProg n A ↔
    ∃ k < n, (∃ i, k ≤ i ∧ i < n ∧ a = ((i, k), luL A i k)) ∨ (∃ j, k < j ∧ j < n ∧ a = ((k, j), luU A k j)) := by
  simp only [luProg, List.mem_flatMap, List.mem_range, List.mem_append, List.mem_map, List.mem_range'_1]
  constructor
  · rintro ⟨k, hk, ⟨i, ⟨h1, h2⟩, rfl⟩ | ⟨j, ⟨h1, h2⟩, rfl⟩⟩
    · exact ⟨k, hk, Or.inl ⟨i, h1, by omega, rfl⟩⟩
    · exact ⟨k, hk, Or.inr ⟨j, by omega, by omega, rfl⟩⟩
  · rintro ⟨k, hk, ⟨i, h1, h2, rfl⟩ | ⟨j, h1, h2, rfl⟩⟩
    · exact ⟨k, hk, Or.inl ⟨i, ⟨h1, by omega⟩, rfl⟩⟩
    · exact ⟨k, hk, Or.inr ⟨j, ⟨by omega, by omega⟩, rfl⟩⟩

theorem luProg_pairwise (n : ℕ) (A : Mat K) :
    (luProg n A).Pairwise (fun a b => a.1 ≠ b.1 ∧ Indep a.2 b.1) := by
  unfold luProg
  rw [List.pairwise_flatMap]
  constructor
  · intro k hk
    rw [List.pairwise_append]
    refine ⟨?_, ?_, ?_⟩
    · rw [List.pairwise_map]
      refine List.Pairwise.imp_of_mem ?_ (List.pairwise_lt_range' (s := k) (n := n - k))
      intro a b ha hb hab
      rw [List.mem_range'_1] at ha hb
      refine ⟨by simp; omega, indep_luL _ _ _ _ (fun p hp => ⟨?_, ?_⟩)⟩ <;> simp <;> omega
    · rw [List.pairwise_map]
      refine List.Pairwise.imp_of_mem ?_ (List.pairwise_lt_range' (s := k + 1) (n := n - (k + 1)))
      intro a b ha hb hab
      rw [List.mem_range'_1] at ha hb
      refine ⟨by simp; omega, indep_luU _ _ _ _ ?_ (fun p hp => ⟨?_, ?_⟩)⟩ <;> simp <;> omega
    · intro a ha b hb
      simp only [List.mem_map, List.mem_range'_1] at ha hb
      obtain ⟨i, hi, rfl⟩ := ha
      obtain ⟨j, hj, rfl⟩ := hb
      refine ⟨by simp; omega, indep_luL _ _ _ _ (fun p hp => ⟨?_, ?_⟩)⟩ <;> simp <;> omega
  · refine List.Pairwise.imp_of_mem ?_ (List.pairwise_lt_range (n := n))
    intro k l _ _ hkl a ha b hb
    simp only [List.mem_append, List.mem_map, List.mem_range'_1] at ha hb
    rcases ha with ⟨i, hi, rfl⟩ | ⟨i, hi, rfl⟩ <;> rcases hb with ⟨j, hj, rfl⟩ | ⟨j, hj, rfl⟩
    · refine ⟨by simp; omega, indep_luL _ _ _ _ (fun p hp => ⟨?_, ?_⟩)⟩ <;> simp <;> omega
    · refine ⟨by simp; omega, indep_luL _ _ _ _ (fun p hp => ⟨?_, ?_⟩)⟩ <;> simp <;> omega
    · refine ⟨by simp; omega, indep_luU _ _ _ _ ?_ (fun p hp => ⟨?_, ?_⟩)⟩ <;> simp <;> omega
    · refine ⟨by simp; omega, indep_luU _ _ _ _ ?_ (fun p hp => ⟨?_, ?_⟩)⟩ <;> simp <;> omega

theorem luProg_self (n : ℕ) (A : Mat K) : ∀ a ∈ luProg n A, Indep a.2 a.1 := by
  intro a ha
  obtain ⟨k, hk, ⟨i, h1, h2, rfl⟩ | ⟨j, h1, h2, rfl⟩⟩ := (mem_luProg n A a).1 ha
  · refine indep_luL _ _ _ _ (fun p hp => ⟨?_, ?_⟩) <;> simp <;> omega
  · refine indep_luU _ _ _ _ ?_ (fun p hp => ⟨?_, ?_⟩) <;> simp <;> omega

theorem lu_lower (n : ℕ) (A LU : Mat K) (i k : ℕ) (hk : k ≤ i) (hi : i < n) :
    lu n A LU (i, k) = luL A i k (lu n A LU) := by
  rw [lu_eq_run]
  exact run_spec _ LU (luProg_self n A) (luProg_pairwise n A) ((i, k), luL A i k)
    ((mem_luProg n A _).2 ⟨k, by omega, Or.inl ⟨i, hk, hi, rfl⟩⟩)

theorem lu_upper (n : ℕ) (A LU : Mat K) (k j : ℕ) (hk : k < j) (hj : j < n) :
    lu n A LU (k, j) = luU A k j (lu n A LU) := by
  rw [lu_eq_run]
  exact run_spec _ LU (luProg_self n A) (luProg_pairwise n A) ((k, j), luU A k j)
    ((mem_luProg n A _).2 ⟨k, by omega, Or.inr ⟨j, hk, hj, rfl⟩⟩)

/-! ### Substitution loops -/

/-- Forward loop `for i: y(i) = F i y` in which `F i` reads only earlier components. -/
theorem forward_spec (n : ℕ) (F : ℕ → (ℕ → K) → K)
    (hF : ∀ i q, i ≤ q → Indep (F i) q) (y : ℕ → K) (i : ℕ) (hi : i < n) :
    (List.range n).foldl (fun y i => Function.update y i (F i y)) y i =
      F i ((List.range n).foldl (fun y i => Function.update y i (F i y)) y) := by
  have e : (List.range n).foldl (fun y i => Function.update y i (F i y)) y =
      run ((List.range n).map (fun i => (i, F i))) y := by
    rw [run, List.foldl_map]
  rw [e]
  refine run_spec _ y ?_ ?_ (i, F i) (List.mem_map.2 ⟨i, List.mem_range.2 hi, rfl⟩)
  · intro a ha
    obtain ⟨i, _, rfl⟩ := List.mem_map.1 ha
    exact hF i i le_rfl
  · rw [List.pairwise_map]
    exact List.pairwise_lt_range.imp (fun {a b} hab => ⟨by simp; omega, hF a b hab.le⟩)

/-- Backward loop over the rows of column `j` in which `F i` reads only later rows of the column. -/
theorem backward_spec (n j : ℕ) (F : ℕ → Mat K → K)
    (hF : ∀ i q, q ≤ i → Indep (F i) (q, j)) (x : Mat K) :
    (∀ i < n, (List.range n).reverse.foldl (fun x i => Function.update x (i, j) (F i x)) x (i, j) =
      F i ((List.range n).reverse.foldl (fun x i => Function.update x (i, j) (F i x)) x)) ∧
    (∀ q : ℕ × ℕ, q.2 ≠ j →
      (List.range n).reverse.foldl (fun x i => Function.update x (i, j) (F i x)) x q = x q) := by
  have e : (List.range n).reverse.foldl (fun x i => Function.update x (i, j) (F i x)) x =
      run ((List.range n).reverse.map (fun i => ((i, j), F i))) x := by
    rw [run, List.foldl_map]
  rw [e]
  constructor
  · intro i hi
    refine run_spec _ x ?_ ?_ ((i, j), F i) (List.mem_map.2 ⟨i, by simpa using hi, rfl⟩)
    · intro a ha
      obtain ⟨i, _, rfl⟩ := List.mem_map.1 ha
      exact hF i i le_rfl
    · rw [List.pairwise_map, List.pairwise_reverse]
      exact List.pairwise_lt_range.imp (fun {a b} hab => ⟨by simp; omega, hF b a hab.le⟩)
  · intro q hq
    apply run_other
    intro a ha
    obtain ⟨i, _, rfl⟩ := List.mem_map.1 ha
    intro h; apply hq; rw [← h]

/-- Column loop: each column satisfies what its own pass establishes. -/
theorem columns_spec (m : ℕ) (body : (ℕ → K) × Mat K → ℕ → (ℕ → K) × Mat K)
    (R : ℕ → Mat K → Prop)
    (hbody : ∀ s j, R j (body s j).2 ∧ ∀ q : ℕ × ℕ, q.2 ≠ j → (body s j).2 q = s.2 q)
    (hR : ∀ j x x', (∀ i, x (i, j) = x' (i, j)) → R j x → R j x') (s : (ℕ → K) × Mat K) :
    ∀ j < m, R j ((List.range m).foldl body s).2 := by
  induction m with
  | zero => intro j hj; omega
  | succ m ih =>
      intro j hj
      rw [List.range_succ, List.foldl_append]
      simp only [List.foldl_cons, List.foldl_nil]
      rcases Nat.lt_or_ge j m with h | h
      · refine hR j _ _ (fun i => ?_) (ih j h)
        rw [(hbody _ m).2 (i, j) (by simp; omega)]
      · obtain rfl : j = m := by omega
        exact (hbody _ j).1

/-! ### LDLT -/

omit [Field K] in
/-- Column loop whose right-hand sides do not read the column. -/
theorem column_write (j lo len : ℕ) (G : ℕ → Mat K → K) (hG : ∀ i q, Indep (G i) (q, j)) (L : Mat K) :
    (∀ i, lo ≤ i → i < lo + len →
      (List.range' lo len).foldl (fun L i => Function.update L (i, j) (G i L)) L (i, j) = G i L) ∧
    (∀ q : ℕ × ℕ, (q.2 ≠ j ∨ q.1 < lo ∨ lo + len ≤ q.1) →
      (List.range' lo len).foldl (fun L i => Function.update L (i, j) (G i L)) L q = L q) := by
  have e : (List.range' lo len).foldl (fun L i => Function.update L (i, j) (G i L)) L =
      run ((List.range' lo len).map (fun i => ((i, j), G i))) L := by
    rw [run, List.foldl_map]
  rw [e]
  constructor
  · intro i h1 h2
    have h := run_spec ((List.range' lo len).map (fun i => ((i, j), G i))) L ?_ ?_ ((i, j), G i)
      (List.mem_map.2 ⟨i, by rw [List.mem_range'_1]; exact ⟨h1, h2⟩, rfl⟩)
    · rw [h]
      apply run_of_indep
      intro a ha
      obtain ⟨q, _, rfl⟩ := List.mem_map.1 ha
      exact hG i q
    · intro a ha
      obtain ⟨q, _, rfl⟩ := List.mem_map.1 ha
      exact hG q q
    · rw [List.pairwise_map]
      exact (List.pairwise_lt_range' (s := lo) (n := len)).imp (fun {a b} hab => ⟨by simp; omega, hG a b⟩)
  · intro q hq
    apply run_other
    intro a ha
    obtain ⟨i, hi, rfl⟩ := List.mem_map.1 ha
    rw [List.mem_range'_1] at hi
    intro h
    rw [← h] at hq
    simp at hq
    omega

/-- What `ldlt` has established for the columns before `j`. -/
def LdltInv (n : ℕ) (A : Mat K) (j : ℕ) (s : Mat K × (ℕ → K)) : Prop :=
  (∀ k < j, s.2 k = A (k, k) - ∑ p ∈ Finset.Ico 0 k, s.1 (k, p) * s.1 (k, p) * s.2 p) ∧
  (∀ k < j, ∀ i, k < i → i < n →
    s.1 (i, k) = (A (i, k) - ∑ p ∈ Finset.Ico 0 k, s.1 (i, p) * s.1 (k, p) * s.2 p) / s.2 k) ∧
  (∀ q : ℕ × ℕ, q.1 ≤ q.2 → s.1 q = if q.1 = q.2 then 1 else 0)

theorem ldlt_spec (n : ℕ) (A : Mat K) (d : ℕ → K) : LdltInv n A n (ldlt n A d) := by
  unfold ldlt
  have key : ∀ m, m ≤ n → LdltInv n A m ((List.range m).foldl (fun (s : Mat K × (ℕ → K)) j =>
    let d := Function.update s.2 j (A (j, j) - accum 0 j (fun k => s.1 (j, k) * s.1 (j, k) * s.2 k))
    let L := (List.range' (j + 1) (n - (j + 1))).foldl
      (fun L i => Function.update L (i, j)
        ((A (i, j) - accum 0 j (fun k => L (i, k) * L (j, k) * d k)) / d j)) s.1
    (L, d)) ((fun p => if p.1 = p.2 then 1 else 0), d)) := by
    intro m
    induction m with
    | zero =>
        intro _
        exact ⟨by omega, by omega, fun q _ => rfl⟩
    | succ m ih =>
        intro hm
        rw [List.range_succ, List.foldl_append]
        simp only [List.foldl_cons, List.foldl_nil]
        obtain ⟨h1, h2, h3⟩ := ih (by omega)
        generalize (List.range m).foldl _ _ = s at h1 h2 h3 ⊢
        set d' := Function.update s.2 m
          (A (m, m) - accum 0 m (fun k => s.1 (m, k) * s.1 (m, k) * s.2 k)) with hd'
        obtain ⟨c1, c2⟩ := column_write m (m + 1) (n - (m + 1))
          (fun i L => (A (i, m) - accum 0 m (fun k => L (i, k) * L (m, k) * d' k)) / d' m)
          (by
            intro i q σ v
            dsimp only
            congr 2
            apply accum_congr
            intro p _ hp
            rw [Function.update_of_ne, Function.update_of_ne] <;> simp <;> omega) s.1
        set L' := (List.range' (m + 1) (n - (m + 1))).foldl
          (fun L i => Function.update L (i, m)
            ((A (i, m) - accum 0 m (fun k => L (i, k) * L (m, k) * d' k)) / d' m)) s.1 with hL'
        have dl : ∀ p, p ≠ m → d' p = s.2 p := fun p hp => Function.update_of_ne hp _ _
        have dm : d' m = A (m, m) - ∑ p ∈ Finset.Ico 0 m, s.1 (m, p) * s.1 (m, p) * s.2 p := by
          rw [hd', Function.update_self, accum_eq]
        have Ll : ∀ i p, p ≠ m → L' (i, p) = s.1 (i, p) := fun i p hp => c2 (i, p) (Or.inl hp)
        refine ⟨?_, ?_, ?_⟩
        · intro k hk
          dsimp only
          rcases Nat.lt_or_ge k m with h | h
          · rw [dl k (by omega), h1 k h]
            congr 1
            refine Finset.sum_congr rfl (fun p hp => ?_)
            have := (Finset.mem_Ico.1 hp).2
            rw [Ll k p (by omega), dl p (by omega)]
          · obtain rfl : k = m := by omega
            rw [dm]
            congr 1
            refine Finset.sum_congr rfl (fun p hp => ?_)
            have := (Finset.mem_Ico.1 hp).2
            rw [Ll k p (by omega), dl p (by omega)]
        · intro k hk i hki hin
          dsimp only
          rcases Nat.lt_or_ge k m with h | h
          · rw [Ll i k (by omega), dl k (by omega), h2 k h i hki hin]
            congr 2
            refine Finset.sum_congr rfl (fun p hp => ?_)
            have := (Finset.mem_Ico.1 hp).2
            rw [Ll i p (by omega), Ll k p (by omega), dl p (by omega)]
          · obtain rfl : k = m := by omega
            rw [c1 i (by omega) (by omega), accum_eq]
            congr 2
            refine Finset.sum_congr rfl (fun p hp => ?_)
            have := (Finset.mem_Ico.1 hp).2
            rw [Ll i p (by omega), Ll k p (by omega)]
        · intro q hq
          dsimp only
          by_cases hqm : q.2 = m
          · rw [c2 q (Or.inr (Or.inl (by omega)))]
            exact h3 q hq
          · rw [c2 q (Or.inl hqm)]
            exact h3 q hq
  exact key n le_rfl

/-! ### Triangular sums -/

theorem sum_fin_lower (n i : ℕ) (hi : i < n) (F : ℕ → K) (hF : ∀ p, i < p → F p = 0) :
    ∑ p : Fin n, F p = ∑ p ∈ Finset.Ico 0 i, F p + F i := by
  rw [Fin.sum_univ_eq_sum_range, ← Finset.sum_Ico_succ_top (Nat.zero_le i)]
  symm
  rw [← Finset.range_eq_Ico]
  refine Finset.sum_subset (fun p hp => ?_) (fun p _ hp => ?_)
  · simp at hp ⊢; omega
  · apply hF; simp at hp; omega

theorem sum_fin_upper (n i : ℕ) (hi : i < n) (F : ℕ → K) (hF : ∀ p, p < i → F p = 0) :
    ∑ p : Fin n, F p = F i + ∑ p ∈ Finset.Ico (i + 1) n, F p := by
  rw [Fin.sum_univ_eq_sum_range, ← Finset.sum_eq_sum_Ico_succ_bot hi]
  symm
  rw [Finset.range_eq_Ico]
  refine Finset.sum_subset (fun p hp => ?_) (fun p hp' hp => ?_)
  · simp at hp ⊢; omega
  · apply hF; simp at hp hp'; omega

end CT.Inverses
