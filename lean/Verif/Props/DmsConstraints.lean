import Verif.Model.DmsConstraints
import Verif.Props.DmsGrid
import Verif.Props.Nlp
import Mathlib.Data.List.NodupEquivFin

/-! # C49–C51, C82: constraints and simple cost of multiple shooting -/

namespace CT.Dms

open CT.Nlp (writeSeg genBlock genDiagonal at' dense Con rowsFrom offset)

/-! ### Writing consecutive segments -/

theorem writeAll_eq {β : Type} (segs : List (Nat × List β)) (h : ∀ s ∈ segs, s.2.length = s.1) (v : List β) (ind : Nat)
    (hv : v.length = ind + (segs.map (·.1)).sum) :
    writeAll segs v ind = .ok (v.take ind ++ segs.flatMap (·.2)) := by
  induction segs generalizing v ind with
  | nil =>
    simp only [List.map_nil, List.sum_nil] at hv
    simp [writeAll, List.take_of_length_le (show v.length ≤ ind by omega)]
  | cons s segs ih =>
    obtain ⟨len, vals⟩ := s
    have hc : vals.length = len := h (len, vals) (by simp)
    simp only [List.map_cons, List.sum_cons] at hv
    rw [writeAll, writeSeg, if_pos ⟨hc, by omega⟩, Res.ok_bind]
    have hti : (v.take ind).length = ind := by simp; omega
    rw [ih (fun s hs => h s (by simp [hs])) _ _ (by simp [hc]; omega)]
    congr 1
    have : (v.take ind ++ vals ++ v.drop (ind + len)).take (ind + len) = v.take ind ++ vals := by
      rw [List.take_append_of_le_length (by simp [hti, hc]), List.take_of_length_le (by simp [hti, hc])]
    rw [this]
    simp

/-- More to write than there is room for. -/
theorem writeAll_ub {β : Type} (segs : List (Nat × List β)) (h : ∀ s ∈ segs, s.2.length = s.1) (v : List β) (ind : Nat)
    (hi : ind ≤ v.length) (hv : v.length < ind + (segs.map (·.1)).sum) : writeAll segs v ind = .ub := by
  induction segs generalizing v ind with
  | nil => simp at hv; omega
  | cons s segs ih =>
    obtain ⟨len, vals⟩ := s
    have hc : vals.length = len := h (len, vals) (by simp)
    simp only [List.map_cons, List.sum_cons] at hv
    rw [writeAll, writeSeg]
    by_cases hf : ind + len ≤ v.length
    · rw [if_pos ⟨hc, hf⟩, Res.ok_bind]
      have hl : (v.take ind ++ vals ++ v.drop (ind + len)).length = v.length := by simp [hc]; omega
      exact ih (fun s hs => h s (by simp [hs])) _ _ (by omega) (by omega)
    · rw [if_neg (fun h => hf h.2)]; rfl

/-! ### Entries of sparse blocks -/

section Entries
variable {K : Type} [AddCommMonoid K]

theorem dense_pairs (pat : List (Nat × Nat)) (vals : List K) (i j : Nat) :
    dense (pat.map (·.1)) (pat.map (·.2)) vals i j = at' pat vals (i, j) := by
  unfold dense at'
  have : (pat.map (·.1)).zip (pat.map (·.2)) = pat := by
    induction pat with
    | nil => rfl
    | cons a pat ih => simp [ih]
  rw [this]

theorem at'_append {p p' : List (Nat × Nat)} {v v' : List K} (h : p.length = v.length) (k : Nat × Nat) :
    at' (p ++ p') (v ++ v') k = at' p v k + at' p' v' k := by
  unfold at'
  rw [List.zip_append h, List.filter_append, List.map_append, List.sum_append]

theorem at'_zero {p : List (Nat × Nat)} {v : List K} {k : Nat × Nat} (h : k ∉ p) : at' p v k = 0 := by
  unfold at'
  rw [List.filter_eq_nil_iff.2]
  · simp
  · rintro ⟨a, b⟩ hm
    simp only [decide_eq_true_eq]
    rintro rfl
    exact h (List.of_mem_zip hm).1

theorem at'_map {ι : Type} (l : List ι) (hl : l.Nodup) (f : ι → Nat × Nat) (hf : Function.Injective f) (g : ι → K)
    (x : ι) (hx : x ∈ l) : at' (l.map f) (l.map g) (f x) = g x := by
  induction l with
  | nil => simp at hx
  | cons a l ih =>
    rw [List.nodup_cons] at hl
    have hsplit : at' ((a :: l).map f) ((a :: l).map g) (f x) = at' [f a] [g a] (f x) + at' (l.map f) (l.map g) (f x) :=
      at'_append (p := [f a]) (v := [g a]) rfl (f x)
    rw [hsplit]
    rcases List.mem_cons.1 hx with rfl | hm
    · rw [at'_zero (p := l.map f)]
      · simp [at']
      · intro hm
        obtain ⟨y, hy, he⟩ := List.mem_map.1 hm
        exact hl.1 (hf he ▸ hy)
    · rw [ih hl.2 hm, at'_zero, zero_add]
      simp only [List.mem_singleton]
      intro he
      exact hl.1 (hf he ▸ hm)

/-- Shifted columns. -/
theorem at'_shift (p : List (Nat × Nat)) (v : List K) (s i j : Nat) :
    at' (p.map fun k => (k.1, k.2 + s)) v (i, s + j) = at' p v (i, j) := by
  induction p generalizing v with
  | nil => simp [at']
  | cons a p ih =>
    cases v with
    | nil => simp [at']
    | cons w v =>
      have ih' := ih v
      unfold at' at ih' ⊢
      simp only [List.map_cons, List.zip_cons_cons, List.filter_cons]
      by_cases e : a = (i, j)
      · have e2 : (a.1, a.2 + s) = (i, s + j) := by rw [e, Nat.add_comm]
        rw [if_pos (by simp [e2]), if_pos (by simp [e]), List.map_cons, List.map_cons, List.sum_cons, List.sum_cons, ih']
      · have e2 : ¬ ((a.1, a.2 + s) = (i, s + j)) := by
          intro h
          apply e
          obtain ⟨a1, a2⟩ := a
          simp only [Prod.mk.injEq] at h ⊢
          omega
        simp only [e2, e, decide_false, Bool.false_eq_true, if_false, ih']

end Entries

section Continuity
variable {K : Type} [Ring K] {n m : Nat}

theorem product_eq {p q : Nat} {β : Type} (f : Fin p → Fin q → β) :
    ((List.finRange p).flatMap fun i => (List.finRange q).map fun j => f i j)
      = ((List.finRange p).product (List.finRange q)).map fun x => f x.1 x.2 := by
  show _ = List.map _ (List.flatMap _ _)
  rw [List.map_flatMap]
  congr 1
  funext i
  rw [List.map_map]
  rfl

theorem genBlock_eq (cs p q : Nat) :
    genBlock cs p q = ((List.finRange p).product (List.finRange q)).map fun x => ((x.1 : Nat), cs + (x.2 : Nat)) := by
  rw [← product_eq (fun (i : Fin p) (j : Fin q) => ((i : Nat), cs + (j : Nat)))]
  unfold genBlock
  rw [← List.map_coe_finRange_eq_range (n := q), ← List.map_coe_finRange_eq_range (n := p), List.flatMap_map]
  simp only [List.map_map]
  rfl

theorem flattenNeg_eq {p q : Nat} (M : Matrix (Fin p) (Fin q) K) :
    flattenNeg M = ((List.finRange p).product (List.finRange q)).map fun x => -M x.1 x.2 := by
  rw [← product_eq (fun i j => -M i j)]
  rfl

/-- Entry of a dense block written row by row. -/
theorem block_entry (cs p q : Nat) (M : Matrix (Fin p) (Fin q) K) (r c : Nat) :
    at' (genBlock cs p q) (flattenNeg M) (r, c)
      = if h : r < p ∧ cs ≤ c ∧ c - cs < q then -M ⟨r, h.1⟩ ⟨c - cs, h.2.2⟩ else 0 := by
  split
  · next h =>
    rw [genBlock_eq, flattenNeg_eq]
    have e : (r, c) = (fun x : Fin p × Fin q => ((x.1 : Nat), cs + (x.2 : Nat))) (⟨r, h.1⟩, ⟨c - cs, h.2.2⟩) := by
      simp only [Prod.mk.injEq, true_and]; omega
    rw [e]
    refine at'_map _ ((List.nodup_finRange _).product (List.nodup_finRange _)) _ ?_ (fun x => -M x.1 x.2) _ ?_
    · rintro ⟨a, b⟩ ⟨a', b'⟩ h
      simp only [Prod.mk.injEq] at h ⊢
      exact ⟨Fin.ext h.1, Fin.ext (by omega)⟩
    · exact List.mem_product.2 ⟨List.mem_finRange _, List.mem_finRange _⟩
  · next h =>
    apply at'_zero
    rw [genBlock_eq]
    intro hm
    obtain ⟨⟨a, b⟩, -, he⟩ := List.mem_map.1 hm
    simp only [Prod.mk.injEq] at he
    exact h ⟨by omega, by omega, by omega⟩

theorem diag_entry (s p r c : Nat) :
    at' (genDiagonal s p) (List.replicate p (1 : K)) (r, c) = if r < p ∧ c = s + r then 1 else 0 := by
  have hr : List.replicate p (1 : K) = (List.range p).map fun _ => 1 := by simp
  split
  · next h =>
    obtain ⟨h1, rfl⟩ := h
    rw [hr, genDiagonal]
    exact at'_map (List.range p) List.nodup_range (fun i => (i, s + i)) (fun a b h => (Prod.mk.inj h).1) (fun _ => (1 : K)) r
      (List.mem_range.2 h1)
  · next h =>
    apply at'_zero
    intro hm
    obtain ⟨a, ha, he⟩ := List.mem_map.1 hm
    simp only [Prod.mk.injEq, List.mem_range] at he ha
    exact h ⟨by omega, by omega⟩

theorem genBlock_length (cs p q : Nat) : (genBlock cs p q).length = p * q := (CT.Nlp.C44_block cs p q).1

theorem flattenNeg_length {p q : Nat} (M : Matrix (Fin p) (Fin q) K) : (flattenNeg M).length = p * q := by
  rw [flattenNeg, colMajorData]; simp [List.length_flatMap]

/-- C49: for every shot and both control parametrisations the sparse Jacobian of the continuity constraint has the
reported number of entries in values and pattern, and the matrix it stands for has `-dX/ds_i` in the columns of `s_i`,
`-dX/dq_i` in those of `q_i`, the identity in those of `s_{i+1}`, `-dX/dq_{i+1}` (piecewise linear) or zero (hold) in
those of `q_{i+1}`, and zeros in all other columns. -/
theorem C49_triplets {α : Type} {w : OptVec α} {N : Nat} (hw : Shaped w n m N) (sp : Spline) (S : ShotSens K n m)
    (i : Nat) (hi : i < N) (buf : List K) (hb : buf.length = contNnz sp n m) :
    ∃ vals pat, contJac sp S buf = .ok vals ∧ contPattern sp n m w i = .ok pat ∧
      vals.length = contNnz sp n m ∧ pat.length = contNnz sp n m ∧
      (∀ k ∈ pat, k.1 < n ∧ k.2 < (N + 1) * (n + m)) ∧
      ∃ s q s' q', w.getStateIndex i = .ok s ∧ w.getControlIndex i = .ok q ∧ w.getStateIndex (i + 1) = .ok s' ∧
        w.getControlIndex (i + 1) = .ok q' ∧
        ∀ r : Fin n,
          (∀ j : Fin n, at' pat vals (r, s + j) = -S.dS r j) ∧
          (∀ j : Fin m, at' pat vals (r, q + j) = -S.dQ r j) ∧
          (∀ j : Fin n, at' pat vals (r, s' + j) = if r = j then 1 else 0) ∧
          (∀ j : Fin m, at' pat vals (r, q' + j) = if sp = .linear then -S.dQNext r j else 0) ∧
          ∀ c, (∀ j < n, c ≠ s + j) → (∀ j < m, c ≠ q + j) → (∀ j < n, c ≠ s' + j) → (∀ j < m, c ≠ q' + j) →
            at' pat vals (r, c) = 0 := by
  have e1 : w.getStateIndex i = .ok (i * (n + m)) := by rw [hw.stateIndex, if_pos (by omega)]
  have e2 : w.getControlIndex i = .ok (i * (n + m) + n) := by rw [hw.controlIndex, if_pos (by omega)]
  have e3 : w.getStateIndex (i + 1) = .ok (i * (n + m) + (n + m)) := by
    rw [hw.stateIndex, if_pos (by omega)]; congr 1; ring
  have e4 : w.getControlIndex (i + 1) = .ok (i * (n + m) + (n + m) + n) := by
    rw [hw.controlIndex, if_pos (by omega)]; congr 1; ring
  have hend : i * (n + m) + (n + m) + (n + m) ≤ (N + 1) * (n + m) := by
    have : (i + 2) * (n + m) ≤ (N + 1) * (n + m) := Nat.mul_le_mul_right _ (by omega)
    have e : (i + 2) * (n + m) = i * (n + m) + (n + m) + (n + m) := by ring
    omega
  generalize i * (n + m) = s at *
  have hblk : ∀ (cs q : Nat) (k : Nat × Nat), k ∈ genBlock cs n q → k.1 < n ∧ k.2 < cs + q := by
    intro cs q k hk
    rw [genBlock_eq] at hk
    obtain ⟨⟨a, b⟩, -, rfl⟩ := List.mem_map.1 hk
    exact ⟨a.2, by have := b.2; simp only; omega⟩
  have hdia : ∀ (cs : Nat) (k : Nat × Nat), k ∈ genDiagonal cs n → k.1 < n ∧ k.2 < cs + n := by
    intro cs k hk
    obtain ⟨a, ha, rfl⟩ := List.mem_map.1 hk
    have := List.mem_range.1 ha
    exact ⟨this, by simp only; omega⟩
  cases sp with
  | zoh =>
    simp only [contNnz] at hb
    refine ⟨flattenNeg S.dS ++ flattenNeg S.dQ ++ List.replicate n 1, genBlock s n n ++ genBlock (s + n) n m ++ genDiagonal (s + (n + m)) n,
      ?_, ?_, ?_, ?_, ?_, s, s + n, s + (n + m), s + (n + m) + n, e1, e2, e3, e4, ?_⟩
    · rw [contJac, writeAll_eq]
      · simp
      · intro x hx
        simp only [List.mem_cons, List.not_mem_nil, or_false] at hx
        rcases hx with rfl | rfl | rfl <;> simp [flattenNeg_length]
      · simp [hb]; ring
    · rw [contPattern, e1, Res.ok_bind, e2, Res.ok_bind, e3, Res.ok_bind]; rfl
    · simp [flattenNeg_length, contNnz]; ring
    · simp [genBlock_length, genDiagonal, contNnz]; ring
    · intro k hk
      simp only [List.mem_append] at hk
      rcases hk with (hk | hk) | hk
      · have := hblk _ _ k hk; omega
      · have := hblk _ _ k hk; omega
      · have := hdia _ k hk; omega
    · intro r
      have hr := r.2
      have key : ∀ c, at' (genBlock s n n ++ genBlock (s + n) n m ++ genDiagonal (s + (n + m)) n)
          (flattenNeg S.dS ++ flattenNeg S.dQ ++ List.replicate n 1) ((r : Nat), c)
          = (if h : (r : Nat) < n ∧ s ≤ c ∧ c - s < n then -S.dS ⟨r, h.1⟩ ⟨c - s, h.2.2⟩ else 0)
          + (if h : (r : Nat) < n ∧ s + n ≤ c ∧ c - (s + n) < m then -S.dQ ⟨r, h.1⟩ ⟨c - (s + n), h.2.2⟩ else 0)
          + (if (r : Nat) < n ∧ c = s + (n + m) + r then 1 else 0) := by
        intro c
        rw [at'_append (by simp [genBlock_length, flattenNeg_length]), at'_append (by simp [genBlock_length, flattenNeg_length]),
          block_entry, block_entry, diag_entry]
      refine ⟨fun j => ?_, fun j => ?_, fun j => ?_, fun j => ?_, fun c h1 h2 h3 h4 => ?_⟩
      · have hj := j.2
        rw [key, dif_pos ⟨hr, by omega, by omega⟩, dif_neg (by omega), if_neg (by omega), add_zero, add_zero]
        congr 2
        exact Fin.ext (by simp)
      · have hj := j.2
        rw [key, dif_neg (by omega), dif_pos ⟨hr, by omega, by omega⟩, if_neg (by omega), add_zero, zero_add]
        congr 2
        exact Fin.ext (by simp)
      · have hj := j.2
        rw [key, dif_neg (by omega), dif_neg (by omega), zero_add, zero_add]
        by_cases h : r = j
        · subst h; rw [if_pos ⟨hr, rfl⟩, if_pos rfl]
        · have h' : (r : Nat) ≠ j := fun e => h (Fin.ext e)
          rw [if_neg (by omega), if_neg h]
      · have hj := j.2
        rw [key, dif_neg (by omega), dif_neg (by omega), if_neg (by omega)]
        simp
      · rw [key, dif_neg, dif_neg, if_neg, add_zero, add_zero]
        · rintro ⟨-, h⟩; exact h3 r hr h
        · rintro ⟨-, h, h'⟩; exact h2 (c - (s + n)) h' (by omega)
        · rintro ⟨-, h, h'⟩; exact h1 (c - s) h' (by omega)
  | linear =>
    simp only [contNnz] at hb
    refine ⟨flattenNeg S.dS ++ flattenNeg S.dQ ++ List.replicate n 1 ++ flattenNeg S.dQNext,
      genBlock s n n ++ genBlock (s + n) n m ++ genDiagonal (s + (n + m)) n ++ genBlock (s + (n + m) + n) n m,
      ?_, ?_, ?_, ?_, ?_, s, s + n, s + (n + m), s + (n + m) + n, e1, e2, e3, e4, ?_⟩
    · rw [contJac, writeAll_eq]
      · simp
      · intro x hx
        simp only [List.mem_cons, List.not_mem_nil, or_false] at hx
        rcases hx with rfl | rfl | rfl | rfl <;> simp [flattenNeg_length]
      · simp [hb]; ring
    · rw [contPattern, e1, Res.ok_bind, e2, Res.ok_bind, e3, Res.ok_bind]
      simp only [e4, Res.ok_bind, Res.pure_eq]
    · simp [flattenNeg_length, contNnz]; ring
    · simp [genBlock_length, genDiagonal, contNnz]; ring
    · intro k hk
      simp only [List.mem_append] at hk
      rcases hk with ((hk | hk) | hk) | hk
      · have := hblk _ _ k hk; omega
      · have := hblk _ _ k hk; omega
      · have := hdia _ k hk; omega
      · have := hblk _ _ k hk; omega
    · intro r
      have hr := r.2
      have key : ∀ c, at' (genBlock s n n ++ genBlock (s + n) n m ++ genDiagonal (s + (n + m)) n ++ genBlock (s + (n + m) + n) n m)
          (flattenNeg S.dS ++ flattenNeg S.dQ ++ List.replicate n 1 ++ flattenNeg S.dQNext) ((r : Nat), c)
          = (if h : (r : Nat) < n ∧ s ≤ c ∧ c - s < n then -S.dS ⟨r, h.1⟩ ⟨c - s, h.2.2⟩ else 0)
          + (if h : (r : Nat) < n ∧ s + n ≤ c ∧ c - (s + n) < m then -S.dQ ⟨r, h.1⟩ ⟨c - (s + n), h.2.2⟩ else 0)
          + (if (r : Nat) < n ∧ c = s + (n + m) + r then 1 else 0)
          + (if h : (r : Nat) < n ∧ s + (n + m) + n ≤ c ∧ c - (s + (n + m) + n) < m
              then -S.dQNext ⟨r, h.1⟩ ⟨c - (s + (n + m) + n), h.2.2⟩ else 0) := by
        intro c
        rw [at'_append (by simp [genBlock_length, flattenNeg_length, genDiagonal]),
          at'_append (by simp [genBlock_length, flattenNeg_length]), at'_append (by simp [genBlock_length, flattenNeg_length]),
          block_entry, block_entry, diag_entry, block_entry]
      refine ⟨fun j => ?_, fun j => ?_, fun j => ?_, fun j => ?_, fun c h1 h2 h3 h4 => ?_⟩
      · have hj := j.2
        rw [key, dif_pos ⟨hr, by omega, by omega⟩, dif_neg (by omega), if_neg (by omega), dif_neg (by omega), add_zero, add_zero,
          add_zero]
        congr 2
        exact Fin.ext (by simp)
      · have hj := j.2
        rw [key, dif_neg (by omega), dif_pos ⟨hr, by omega, by omega⟩, if_neg (by omega), dif_neg (by omega), add_zero, add_zero,
          zero_add]
        congr 2
        exact Fin.ext (by simp)
      · have hj := j.2
        rw [key, dif_neg (by omega), dif_neg (by omega), dif_neg (by omega), zero_add, zero_add, add_zero]
        by_cases h : r = j
        · subst h; rw [if_pos ⟨hr, rfl⟩, if_pos rfl]
        · have h' : (r : Nat) ≠ j := fun e => h (Fin.ext e)
          rw [if_neg (by omega), if_neg h]
      · have hj := j.2
        rw [key, dif_neg (by omega), dif_neg (by omega), if_neg (by omega), dif_pos ⟨hr, by omega, by omega⟩, zero_add, zero_add,
          zero_add, if_pos rfl]
        congr 2
        exact Fin.ext (by simp)
      · rw [key, dif_neg, dif_neg, if_neg, dif_neg, add_zero, add_zero, add_zero]
        · rintro ⟨-, h, h'⟩; exact h4 (c - (s + (n + m) + n)) h' (by omega)
        · rintro ⟨-, h⟩; exact h3 r hr h
        · rintro ⟨-, h, h'⟩; exact h2 (c - (s + n)) h' (by omega)
        · rintro ⟨-, h, h'⟩; exact h1 (c - s) h' (by omega)

/-- C49: the initial-state constraint has value `s_0 - x0` and the identity in the columns of `s_0`. -/
theorem C49_init {w : OptVec K} {N : Nat} (hw : Shaped w n m N) (x0 s0 : List K) (hs : w.getOptimizedState 0 = .ok s0)
    (h0 : s0.length = n) (hx0 : x0.length = n) :
    ∃ v pat s, initEval w x0 = .ok v ∧ v.length = n ∧ (v = List.replicate n 0 ↔ s0 = x0) ∧
      initPattern n w = .ok pat ∧ w.getStateIndex 0 = .ok s ∧
      ∀ r < n, ∀ c, at' pat (initJac n : List K) (r, c) = if c = s + r then 1 else 0 := by
  have e1 : w.getStateIndex 0 = .ok 0 := by rw [hw.stateIndex, if_pos (by omega)]; simp
  refine ⟨_, genDiagonal 0 n, 0, by rw [initEval, hs]; rfl, by simp [h0, hx0], ?_, by rw [initPattern, e1]; rfl, e1,
    fun r hr c => ?_⟩
  · subst h0
    clear hs hw
    induction s0 generalizing x0 with
    | nil => cases x0 with
      | nil => simp
      | cons a x0 => simp at hx0
    | cons a s0 ih => cases x0 with
      | nil => simp at hx0
      | cons b x0 =>
        simp only [List.length_cons, Nat.add_right_cancel_iff] at hx0
        rw [List.zipWith_cons_cons, List.length_cons, List.replicate_succ, List.cons.injEq, List.cons.injEq, sub_eq_zero,
          ih x0 hx0]
  · rw [initJac, diag_entry]
    by_cases h : c = 0 + r
    · rw [if_pos h, if_pos ⟨hr, h⟩]
    · rw [if_neg h, if_neg (fun hh => h hh.2)]

end Continuity

example : ∃ vals, contJac (n := 1) (m := 1) .linear ⟨!![2], !![3], !![5]⟩ [0, 0, 0, (0 : Int)] = .ok vals ∧
    vals = [-2, -3, 1, -5] := ⟨_, rfl, by decide⟩

/-! ### Summation weights -/

section Phi
variable {K : Type} [Field K] [LinearOrder K] [IsStrictOrderedRing K]

omit [LinearOrder K] [IsStrictOrderedRing K] in
theorem durations (g : TimeGrid K) (N : Nat) (hl : g.t.length = N + 1) :
    ∃ ds a b, (List.range N).mapM g.duration = .ok ds ∧ ds.length = N ∧ g.start 0 = .ok a ∧ g.start N = .ok b ∧
      ds.sum = b - a ∧ ∀ i (hi : i < ds.length), ∃ u v, g.start i = .ok u ∧ g.stop i = .ok v ∧ ds[i] = v - u := by
  have hget : ∀ i (hi : i < g.t.length), idx g.t i = .ok g.t[i] := fun i hi => idx_eq (List.getElem?_eq_getElem hi)
  have : ∀ k, k ≤ N → ∃ ds, (List.range k).mapM g.duration = .ok ds ∧ ds.length = k ∧
      (∀ (hk : k < g.t.length), ds.sum = g.t[k] - g.t[0]'(by omega)) ∧
      ∀ i (hi : i < ds.length), ∃ u v, g.start i = .ok u ∧ g.stop i = .ok v ∧ ds[i] = v - u := by
    intro k hk
    induction k with
    | zero => exact ⟨[], rfl, rfl, by simp, by simp⟩
    | succ k ih =>
      obtain ⟨ds, h1, h2, h3, h4⟩ := ih (by omega)
      have hdur : g.duration k = .ok (g.t[k + 1]'(by omega) - g.t[k]'(by omega)) := by
        rw [TimeGrid.duration, hget (k + 1) (by omega), Res.ok_bind, hget k (by omega)]; rfl
      refine ⟨ds ++ [g.t[k + 1]'(by omega) - g.t[k]'(by omega)], ?_, by simp [h2], ?_, ?_⟩
      · rw [List.range_succ, List.mapM_append, h1, Res.ok_bind, List.mapM_cons, hdur]; rfl
      · intro hk'
        rw [List.sum_append, h3 (by omega)]
        simp
      · intro i hi
        by_cases hik : i < ds.length
        · rw [List.getElem_append_left hik]; exact h4 i hik
        · have : i = k := by simp at hi; omega
          subst this
          refine ⟨_, _, hget i (by omega), hget (i + 1) (by omega), ?_⟩
          rw [List.getElem_append_right (by omega)]
          simp
  obtain ⟨ds, h1, h2, h3, h4⟩ := this N (le_refl _)
  exact ⟨ds, _, _, h1, h2, hget 0 (by omega), hget N (by omega), h3 (by omega), h4⟩

/-- C51 (partial): with zero-order hold, the weights exist, are non-negative on every grid with ordered stamps, and sum to
the length of the grid; so the quadrature of a constant stage cost is exact. Missing: piecewise-linear controls, for
which the weights cannot be computed (see the violation). -/
theorem C51_hold_partial (g : TimeGrid K) (N : Nat) (hl : g.t.length = N + 1) (hs : g.t.Pairwise (· ≤ ·)) :
    ∃ phi a b, updatePhi .zoh g N = .ok phi ∧ phi.length = N + 1 ∧ (∀ p ∈ phi, 0 ≤ p) ∧ g.start 0 = .ok a ∧
      g.start N = .ok b ∧ phi.sum = b - a := by
  obtain ⟨ds, a, b, h1, h2, h3, h4, h5, h6⟩ := durations g N hl
  refine ⟨ds ++ [0], a, b, by rw [updatePhi, h1]; rfl, by simp [h2], ?_, h3, h4, by simp [h5]⟩
  intro p hp
  rcases List.mem_append.1 hp with hp | hp
  · obtain ⟨i, hi, rfl⟩ := List.getElem_of_mem hp
    obtain ⟨u, v, hu, hv, e⟩ := h6 i hi
    rw [e]
    have hi' : i + 1 < g.t.length := by omega
    rw [TimeGrid.start, idx, List.getElem?_eq_getElem (by omega), Res.ok.injEq] at hu
    rw [TimeGrid.stop, idx, List.getElem?_eq_getElem hi', Res.ok.injEq] at hv
    rw [← hu, ← hv]
    exact sub_nonneg.2 (List.pairwise_iff_getElem.1 hs i (i + 1) (by omega) hi' (by omega))
  · rw [List.mem_singleton.1 hp]

omit [LinearOrder K] [IsStrictOrderedRing K] in
/-- C51 does not hold for piecewise-linear controls: computing the weights reads the duration of a shot that does not
exist, behind the end of the time grid, for every grid. -/
theorem C51_linear_violated (N : Nat) (T : K) (hN : 1 ≤ N) : updatePhi .linear (TimeGrid.mk' N T) N = .ub := by
  obtain ⟨-, -, hl, hg⟩ := uniform_mk N T
  have hst : ∀ i, i ≤ N → (TimeGrid.mk' N T).start i = .ok ((i : K) * (T / (N : K))) := fun i hi => idx_eq (hg i hi)
  have h0 : (TimeGrid.mk' N T).duration 0 = .ok (((0 + 1 : Nat) : K) * (T / (N : K)) - ((0 : Nat) : K) * (T / (N : K))) := by
    rw [TimeGrid.duration, idx_eq (hg (0 + 1) (by omega)), Res.ok_bind, idx_eq (hg 0 (by omega))]; rfl
  have hN' : (TimeGrid.mk' N T).duration N = .ub := by
    rw [TimeGrid.duration, idx, List.getElem?_eq_none (by omega)]; rfl
  have hm := mapM_ok (List.range (N - 1)) (fun i => do
      let b ← (TimeGrid.mk' N T).stop (i + 1)
      let a ← (TimeGrid.mk' N T).start i
      pure ((1 / 2 : K) * (b - a))) (fun i => (1 / 2 : K) * (((i + 1 + 1 : Nat) : K) * (T / (N : K)) - (i : K) * (T / (N : K))))
    (fun i hi => by
      have := List.mem_range.1 hi
      rw [TimeGrid.stop, idx_eq (hg (i + 1 + 1) (by omega)), Res.ok_bind, hst i (by omega)]; rfl)
  rw [updatePhi, h0, Res.ok_bind, hm, Res.ok_bind, hN']
  rfl

example : ∃ phi, updatePhi .zoh (TimeGrid.mk' 2 (1 : Rat)) 2 = .ok phi ∧ phi = [1/2, 1/2, 0] := ⟨_, rfl, by decide +kernel⟩

end Phi

end CT.Dms
