import Verif.Model.Nlp
import Mathlib.Tactic.Linarith
import Mathlib.Tactic.Abel
import Mathlib.Algebra.BigOperators.Group.List.Lemmas

/-! # C44, C81: assembling the nonlinear program -/

namespace CT.Nlp

variable {α : Type}

/-! ### Specification -/

/-- Entry of the dense matrix a sparse one stands for: sum of the values stored for the position. -/
def dense [AddCommMonoid α] (rows cols : List Nat) (vals : List α) (i j : Nat) : α :=
  ((((rows.zip cols).zip vals).filter fun t => t.1 = (i, j)).map (·.2)).sum

/-- First row of constraint `k` in the stacked problem. -/
def offset (cs : List (Con α)) (k : Nat) : Nat := ((cs.take k).map Con.size).sum

/-- A constraint returns as much as it reports, and its pattern stays within its rows. -/
structure Con.Wf (c : Con α) : Prop where
  eval : c.eval.length = c.size
  lb : c.lb.length = c.size
  ub : c.ub.length = c.size
  jac : c.jac.length = c.nnz
  rows : c.rows.length = c.nnz
  cols : c.cols.length = c.nnz
  inRows : ∀ r ∈ c.rows, r < c.size

/-! ### Stacking -/

theorem count_eq (f : Con α → Nat) (cs : List (Con α)) (a : Nat) :
    cs.foldl (fun n c => n + f c) a = a + (cs.map f).sum := by
  induction cs generalizing a with
  | nil => simp
  | cons c cs ih => rw [List.foldl_cons, ih]; simp; omega

theorem stack_eq {β : Type} (f : Con α → List β) (len : Con α → Nat) (cs : List (Con α))
    (h : ∀ c ∈ cs, (f c).length = len c) (v : List β) (ind : Nat) (hv : v.length = ind + (cs.map len).sum) :
    stack f len cs v ind = .ok (v.take ind ++ cs.flatMap f) := by
  induction cs generalizing v ind with
  | nil =>
    simp only [List.map_nil, List.sum_nil] at hv
    simp [stack, List.take_of_length_le (show v.length ≤ ind by omega)]
  | cons c cs ih =>
    have hc := h c (by simp)
    simp only [List.map_cons, List.sum_cons] at hv
    have hle : ind + len c ≤ v.length := by omega
    rw [stack, writeSeg, if_pos ⟨hc, hle⟩, Res.ok_bind]
    have hti : (v.take ind).length = ind := by simp; omega
    have hlen : (v.take ind ++ f c ++ v.drop (ind + len c)).length = ind + len c + (cs.map len).sum := by
      simp [hc]; omega
    rw [ih (fun c hc => h c (by simp [hc])) _ _ hlen]
    congr 1
    have : (v.take ind ++ f c ++ v.drop (ind + len c)).take (ind + len c) = v.take ind ++ f c := by
      rw [List.take_append_of_le_length (by simp [hti, hc]), List.take_of_length_le (by simp [hti, hc])]
    rw [this]
    simp

theorem flatMap_get {β : Type} (f : Con α → List β) (cs : List (Con α)) (hf : ∀ c ∈ cs, (f c).length = c.size)
    (k : Nat) (hk : k < cs.length) (i : Nat) (hi : i < cs[k].size) :
    (cs.flatMap f)[offset cs k + i]? = (f cs[k])[i]? := by
  induction cs generalizing k with
  | nil => simp at hk
  | cons c cs ih =>
    have hc := hf c (by simp)
    cases k with
    | zero =>
      simp only [offset, List.take_zero, List.map_nil, List.sum_nil, Nat.zero_add, List.flatMap_cons,
        List.getElem_cons_zero] at hi ⊢
      rw [List.getElem?_append_left (by omega)]
    | succ k =>
      simp only [List.getElem_cons_succ] at hi ⊢
      have ho : offset (c :: cs) (k + 1) = c.size + offset cs k := by simp [offset]
      rw [ho, List.flatMap_cons, List.getElem?_append_right (by omega), hc]
      have : c.size + offset cs k + i - c.size = offset cs k + i := by omega
      rw [this]
      exact ih (fun c hc => hf c (by simp [hc])) k (by simpa using hk) hi

/-- C44: the stacked values and bounds of constraint `k` stand at its own rows, in order; nothing is written
elsewhere and the vectors sized with the reported counts are filled completely. -/
theorem C44_values (cs : List (Con α)) (hwf : ∀ c ∈ cs, c.Wf) (out lo up : List α)
    (hout : out.length = constraintsCount cs) (hlo : lo.length = constraintsCount cs)
    (hup : up.length = constraintsCount cs) :
    ∃ v l u, evalConstraints cs out = .ok v ∧ getBounds cs lo up = .ok (l, u) ∧
      v.length = constraintsCount cs ∧ l.length = constraintsCount cs ∧ u.length = constraintsCount cs ∧
      ∀ (k : Nat) (hk : k < cs.length) (i : Nat), i < cs[k].size →
        v[offset cs k + i]? = cs[k].eval[i]? ∧ l[offset cs k + i]? = cs[k].lb[i]? ∧
        u[offset cs k + i]? = cs[k].ub[i]? := by
  have hc : constraintsCount cs = 0 + (cs.map Con.size).sum := count_eq _ _ _
  have hlen : ∀ f : Con α → List α, (∀ c ∈ cs, (f c).length = c.size) →
      (cs.flatMap f).length = constraintsCount cs := by
    intro f hf
    rw [hc, List.length_flatMap, Nat.zero_add]
    congr 1
    exact List.map_congr_left hf
  refine ⟨cs.flatMap Con.eval, cs.flatMap Con.lb, cs.flatMap Con.ub, ?_, ?_, hlen _ fun c hc => (hwf c hc).eval,
    hlen _ fun c hc => (hwf c hc).lb, hlen _ fun c hc => (hwf c hc).ub, fun k hk i hi => ⟨?_, ?_, ?_⟩⟩
  · rw [evalConstraints, stack_eq _ _ cs (fun c hc => (hwf c hc).eval) out 0 (by omega)]; simp
  · rw [getBounds, stack_eq _ _ cs (fun c hc => (hwf c hc).lb) lo 0 (by omega), Res.ok_bind,
      stack_eq _ _ cs (fun c hc => (hwf c hc).ub) up 0 (by omega)]
    simp [Res.pure_eq]
  · exact flatMap_get _ cs (fun c hc => (hwf c hc).eval) k hk i hi
  · exact flatMap_get _ cs (fun c hc => (hwf c hc).lb) k hk i hi
  · exact flatMap_get _ cs (fun c hc => (hwf c hc).ub) k hk i hi

/-! #### Jacobian -/

/-- Row indices of the constraints `cs` if the first of them starts at row `off`. -/
def rowsFrom : Nat → List (Con α) → List Nat
  | _, [] => []
  | off, c :: cs => c.rows.map (· + off) ++ rowsFrom (off + c.size) cs

theorem rowsFrom_length (cs : List (Con α)) (hwf : ∀ c ∈ cs, c.Wf) (off : Nat) :
    (rowsFrom off cs).length = (cs.map Con.nnz).sum := by
  induction cs generalizing off with
  | nil => rfl
  | cons c cs ih =>
    simp [rowsFrom, ih (fun c hc => hwf c (by simp [hc])), (hwf c (by simp)).rows]

theorem patternLoop_eq (cs : List (Con α)) (hwf : ∀ c ∈ cs, c.Wf) (r c : List Nat) (ind count : Nat)
    (hr : r.length = ind + (cs.map Con.nnz).sum) (hc : c.length = ind + (cs.map Con.nnz).sum) :
    patternLoop cs r c ind count = .ok (r.take ind ++ rowsFrom count cs, c.take ind ++ cs.flatMap Con.cols) := by
  induction cs generalizing r c ind count with
  | nil =>
    simp only [List.map_nil, List.sum_nil] at hr hc
    simp [patternLoop, rowsFrom, List.take_of_length_le (show r.length ≤ ind by omega),
      List.take_of_length_le (show c.length ≤ ind by omega)]
  | cons k cs ih =>
    have hk := hwf k (by simp)
    simp only [List.map_cons, List.sum_cons] at hr hc
    have h1 : (k.rows.map (· + count)).length = k.nnz ∧ ind + k.nnz ≤ r.length := ⟨by simp [hk.rows], by omega⟩
    have h2 : k.cols.length = k.nnz ∧ ind + k.nnz ≤ c.length := ⟨hk.cols, by omega⟩
    have hlr : (r.take ind).length = ind := by simp; omega
    have hlc : (c.take ind).length = ind := by simp; omega
    rw [patternLoop, writeSeg, if_pos h1, Res.ok_bind, writeSeg, if_pos h2, Res.ok_bind,
      ih (fun c hc => hwf c (by simp [hc])) _ _ _ _ (by simp [hk.rows]; omega) (by simp [hk.cols]; omega)]
    have e1 : (r.take ind ++ k.rows.map (· + count) ++ r.drop (ind + k.nnz)).take (ind + k.nnz)
        = r.take ind ++ k.rows.map (· + count) := by
      rw [List.take_append_of_le_length (by simp [hlr, hk.rows]), List.take_of_length_le (by simp [hlr, hk.rows])]
    have e2 : (c.take ind ++ k.cols ++ c.drop (ind + k.nnz)).take (ind + k.nnz) = c.take ind ++ k.cols := by
      rw [List.take_append_of_le_length (by simp [hlc, hk.cols]), List.take_of_length_le (by simp [hlc, hk.cols])]
    rw [e1, e2]
    simp [rowsFrom]

section Dense
variable [AddCommMonoid α]

theorem dense_append {r r' c c' : List Nat} {v v' : List α} (h1 : r.length = c.length) (h2 : r.length = v.length)
    (i j : Nat) : dense (r ++ r') (c ++ c') (v ++ v') i j = dense r c v i j + dense r' c' v' i j := by
  unfold dense
  rw [List.zip_append h1, List.zip_append (by simp [h1, h2 ▸ h1]), List.filter_append, List.map_append, List.sum_append]

theorem dense_zero {r c : List Nat} {v : List α} {i j : Nat} (h : i ∉ r) : dense r c v i j = 0 := by
  unfold dense
  rw [List.filter_eq_nil_iff.2]
  · simp
  · rintro ⟨⟨a, b⟩, w⟩ hm
    have ha : a ∈ r := (List.of_mem_zip (List.of_mem_zip hm).1).1
    simp only [decide_eq_true_eq, Prod.mk.injEq]
    rintro ⟨rfl, _⟩
    exact h ha

theorem dense_shift (r c : List Nat) (v : List α) (off i j : Nat) :
    dense (r.map (· + off)) c v (off + i) j = dense r c v i j := by
  induction r generalizing c v with
  | nil => simp [dense]
  | cons a r ih =>
    cases c with
    | nil => simp [dense]
    | cons b c =>
      cases v with
      | nil => simp [dense]
      | cons w v =>
        have ih' := ih c v
        unfold dense at ih' ⊢
        simp only [List.map_cons, List.zip_cons_cons, List.filter_cons]
        by_cases e : (a, b) = (i, j)
        · obtain ⟨rfl, rfl⟩ := Prod.mk.inj e
          have e2 : ((a + off, b) = (off + a, b)) := by rw [Nat.add_comm]
          simp only [e2, decide_true, if_true, List.map_cons, List.sum_cons, ih']
        · have e2 : ¬ ((a + off, b) = (off + i, j)) := by
            intro h; apply e; simp only [Prod.mk.injEq] at h ⊢; omega
          simp only [e, e2, decide_false, Bool.false_eq_true, if_false, ih']

theorem rowsFrom_ge (cs : List (Con α)) (off : Nat) : ∀ r ∈ rowsFrom off cs, off ≤ r := by
  induction cs generalizing off with
  | nil => simp [rowsFrom]
  | cons c cs ih =>
    intro r hr
    rw [rowsFrom, List.mem_append] at hr
    rcases hr with hr | hr
    · obtain ⟨a, _, rfl⟩ := List.mem_map.1 hr
      omega
    · have := ih _ r hr
      omega

theorem rowsFrom_lt (cs : List (Con α)) (hwf : ∀ c ∈ cs, c.Wf) (off : Nat) :
    ∀ r ∈ rowsFrom off cs, r < off + (cs.map Con.size).sum := by
  induction cs generalizing off with
  | nil => simp [rowsFrom]
  | cons c cs ih =>
    intro r hr
    rw [rowsFrom, List.mem_append] at hr
    simp only [List.map_cons, List.sum_cons]
    rcases hr with hr | hr
    · obtain ⟨a, ha, rfl⟩ := List.mem_map.1 hr
      have := (hwf c (by simp)).inRows a ha
      omega
    · have := ih (fun c hc => hwf c (by simp [hc])) _ r hr
      omega

theorem dense_stack (cs : List (Con α)) (hwf : ∀ c ∈ cs, c.Wf) (off k : Nat) (hk : k < cs.length) (i j : Nat)
    (hi : i < cs[k].size) :
    dense (rowsFrom off cs) (cs.flatMap Con.cols) (cs.flatMap Con.jac) (off + offset cs k + i) j
      = dense cs[k].rows cs[k].cols cs[k].jac i j := by
  induction cs generalizing off k with
  | nil => simp at hk
  | cons c cs ih =>
    have hc := hwf c (by simp)
    rw [rowsFrom, List.flatMap_cons, List.flatMap_cons,
      dense_append (by simp [hc.rows, hc.cols]) (by simp [hc.rows, hc.jac])]
    cases k with
    | zero =>
      simp only [List.getElem_cons_zero] at hi ⊢
      have h0 : off + offset (c :: cs) 0 + i = off + i := by simp [offset]
      rw [h0, dense_shift, dense_zero (r := rowsFrom _ _), add_zero]
      intro hm
      have := rowsFrom_ge cs _ _ hm
      omega
    | succ k =>
      simp only [List.getElem_cons_succ] at hi ⊢
      have ho : off + offset (c :: cs) (k + 1) + i = (off + c.size) + offset cs k + i := by simp [offset]; omega
      rw [ho, ih (fun c hc => hwf c (by simp [hc])) (off + c.size) k (by simpa using hk) hi, dense_zero, zero_add]
      intro hm
      obtain ⟨a, ha, he⟩ := List.mem_map.1 hm
      have := hc.inRows a ha
      omega

/-- C44: with vectors of the reported size the stacked pattern and values are written completely, and the dense
matrix they stand for is the vertical stack of the constraints' own dense Jacobians, zero below. -/
theorem C44_jacobian (cs : List (Con α)) (hwf : ∀ c ∈ cs, c.Wf) (out : List α) (r c : List Nat)
    (hout : out.length = nonZerosCount cs) (hr : r.length = nonZerosCount cs) (hc : c.length = nonZerosCount cs) :
    ∃ v rs js, evalSparseJacobian cs out = .ok v ∧ getSparsityPattern cs r c = .ok (rs, js) ∧
      v.length = nonZerosCount cs ∧ rs.length = nonZerosCount cs ∧ js.length = nonZerosCount cs ∧
      (∀ (k : Nat) (hk : k < cs.length) (i j : Nat), i < cs[k].size →
        dense rs js v (offset cs k + i) j = dense cs[k].rows cs[k].cols cs[k].jac i j) ∧
      ∀ i j, constraintsCount cs ≤ i → dense rs js v i j = 0 := by
  have hn : nonZerosCount cs = 0 + (cs.map Con.nnz).sum := count_eq _ _ _
  have hcnt : constraintsCount cs = 0 + (cs.map Con.size).sum := count_eq _ _ _
  have hlen : ∀ {β : Type} (f : Con α → List β), (∀ c ∈ cs, (f c).length = c.nnz) →
      (cs.flatMap f).length = nonZerosCount cs := by
    intro β f hf
    rw [hn, List.length_flatMap, Nat.zero_add]
    congr 1
    exact List.map_congr_left hf
  refine ⟨cs.flatMap Con.jac, rowsFrom 0 cs, cs.flatMap Con.cols, ?_, ?_, hlen _ fun c hc => (hwf c hc).jac, ?_,
    hlen _ fun c hc => (hwf c hc).cols, ?_, ?_⟩
  · rw [evalSparseJacobian, stack_eq _ _ cs (fun c hc => (hwf c hc).jac) out 0 (by omega)]; simp
  · rw [getSparsityPattern, patternLoop_eq cs hwf r c 0 0 (by omega) (by omega)]; simp
  · rw [rowsFrom_length cs hwf, hn, Nat.zero_add]
  · intro k hk i j hi
    have := dense_stack cs hwf 0 k hk i j hi
    rwa [Nat.zero_add] at this
  · intro i j hi
    apply dense_zero
    intro hm
    have := rowsFrom_lt cs hwf 0 i hm
    omega

end Dense

/-- Two constraints, with two and one rows. -/
example : ∀ c ∈ [(⟨[1, 2], [3, 4, 5], 2, 3, [0, 1, 1], [0, 1, 2], [0, 0], [9, 9]⟩ : Con Int),
    ⟨[7], [8], 1, 1, [0], [4], [0], [9]⟩], c.Wf := by
  intro c hc
  simp only [List.mem_cons, List.not_mem_nil, or_false] at hc
  rcases hc with rfl | rfl <;> constructor <;> simp

/-! ### Index helpers -/

/-- C44: the diagonal helper lists the positions of an identity block, each once. -/
theorem C44_diagonal (colStart num : Nat) :
    (genDiagonal colStart num).length = num ∧ (genDiagonal colStart num).Nodup ∧
    ∀ i j, (i, j) ∈ genDiagonal colStart num ↔ i < num ∧ j = colStart + i := by
  refine ⟨by simp [genDiagonal], ?_, fun i j => ?_⟩
  · refine List.Nodup.map ?_ List.nodup_range
    intro a b h
    simp only [Prod.mk.injEq] at h
    exact h.1
  · simp only [genDiagonal, List.mem_map, List.mem_range, Prod.mk.injEq]
    constructor
    · rintro ⟨a, ha, rfl, rfl⟩; exact ⟨ha, rfl⟩
    · rintro ⟨h, rfl⟩; exact ⟨i, h, rfl, rfl⟩

/-- C44: the block helper lists the positions of a dense block row by row: entry `r * numCols + c` of the list is
position `(r, colStart + c)`. -/
theorem C44_block (colStart numRows numCols : Nat) :
    (genBlock colStart numRows numCols).length = numRows * numCols ∧
    ∀ r c, r < numRows → c < numCols → (genBlock colStart numRows numCols)[r * numCols + c]? = some (r, colStart + c) := by
  constructor
  · simp [genBlock, List.length_flatMap]
  · intro r c hr hc
    unfold genBlock
    induction numRows with
    | zero => omega
    | succ m ih =>
      rw [List.range_succ, List.flatMap_append]
      have hl : ((List.range m).flatMap fun r => (List.range numCols).map fun c => (r, colStart + c)).length
          = m * numCols := by simp [List.length_flatMap]
      by_cases e : r < m
      · rw [List.getElem?_append_left, ih e]
        rw [hl]
        have : (r + 1) * numCols ≤ m * numCols := Nat.mul_le_mul_right _ e
        rw [Nat.succ_mul] at this
        omega
      · have : r = m := by omega
        subst this
        rw [List.getElem?_append_right (by omega), hl]
        simp [hc]

/-! ### C81: Hessians -/

section Hess
variable [AddCommMonoid α]

/-- Entry of the symmetric matrix' lower triangle a list of positions and values stands for. -/
def at' (ks : List (Nat × Nat)) (vs : List α) (k : Nat × Nat) : α := (((ks.zip vs).filter fun t => t.1 = k).map (·.2)).sum

/-- Sum of the constraints' own contributions; each gets its share of the multipliers. -/
def consEntry (lambda : List α) : List (HessCon α) → Nat → Nat × Nat → α
  | [], _, _ => 0
  | c :: cs, first, k =>
    at' c.pattern (c.values ((lambda.drop first).take c.size)) k + consEntry lambda cs (first + c.size) k

theorem valueAt_append (ts ts' : List (Triplet α)) (k : Nat × Nat) :
    valueAt (ts ++ ts') k = valueAt ts k + valueAt ts' k := by
  simp [valueAt, List.filter_append]

theorem valueAt_zero {ts : List (Triplet α)} {k : Nat × Nat} (h : k ∉ ts.map (·.1)) : valueAt ts k = 0 := by
  unfold valueAt
  rw [List.filter_eq_nil_iff.2]
  · simp
  · intro t ht
    simp only [decide_eq_true_eq]
    rintro rfl
    exact h (List.mem_map_of_mem ht)

theorem valueAt_map {ks : List (Nat × Nat)} (hk : ks.Nodup) (g : Nat × Nat → α) (k : Nat × Nat) :
    at' ks (ks.map g) k = if k ∈ ks then g k else 0 := by
  induction ks with
  | nil => simp [at']
  | cons a ks ih =>
    have ih' := ih hk.of_cons
    unfold at' at ih' ⊢
    simp only [List.map_cons, List.zip_cons_cons, List.filter_cons]
    by_cases e : a = k
    · subst e
      have : a ∉ ks := (List.nodup_cons.1 hk).1
      simp only [decide_true, if_true, List.map_cons, List.sum_cons, ih', this, if_false, add_zero, List.mem_cons,
        true_or]
    · have e' : ¬ k = a := fun h => e h.symm
      simp only [e, decide_false, Bool.false_eq_true, if_false, ih', List.mem_cons, e', false_or]

omit [AddCommMonoid α] in
theorem storedKeys_nodup (ts : List (Triplet α)) : (storedKeys ts).Nodup :=
  (List.perm_insertionSort colMajor _).nodup_iff.2 (List.nodup_dedup _)

omit [AddCommMonoid α] in
theorem mem_storedKeys {ts : List (Triplet α)} {k : Nat × Nat} : k ∈ storedKeys ts ↔ k ∈ ts.map (·.1) := by
  rw [storedKeys, (List.perm_insertionSort colMajor _).mem_iff, List.mem_dedup]

theorem containerTriplets_keys (lambda : List α) (cs : List (HessCon α)) (count : Nat)
    (h : ∀ c ∈ cs, ∀ l, (c.values l).length = c.pattern.length) :
    (containerTriplets lambda cs count).map (·.1) = cs.flatMap HessCon.pattern := by
  induction cs generalizing count with
  | nil => rfl
  | cons c cs ih =>
    rw [containerTriplets, List.map_append, ih _ fun c hc => h c (by simp [hc]), List.flatMap_cons]
    congr 1
    exact List.map_fst_zip (by rw [h c (by simp)])

theorem containerTriplets_value (lambda : List α) (cs : List (HessCon α)) (count : Nat) (k : Nat × Nat) :
    valueAt (containerTriplets lambda cs count) k = consEntry lambda cs count k := by
  induction cs generalizing count with
  | nil => rfl
  | cons c cs ih => rw [containerTriplets, valueAt_append, ih]; rfl

omit [AddCommMonoid α] in
theorem lowerKeys_eq {ks : List (Nat × Nat)} (h : ∀ k ∈ ks, k.2 ≤ k.1) : lowerKeys ks = ks :=
  List.filter_eq_self.2 fun k hk => by simpa using h k hk

omit [AddCommMonoid α] in
theorem storedKeys_congr {β : Type} {ts : List (Triplet α)} {us : List (Triplet β)}
    (h : ts.map (·.1) = us.map (·.1)) : storedKeys ts = storedKeys us := by
  rw [storedKeys, storedKeys, h]

omit [AddCommMonoid α] in
theorem readValues_all (vs : List α) (n : Nat) (h : vs.length = n) : readValues vs n = .ok vs := by
  rw [readValues, if_pos h.ge, List.take_of_length_le h.le]

/-- C81: if every constraint lists lower-triangular positions only, the values returned for the pattern handed to
the solver are complete, each position occurs once and is lower triangular, and the matrix they stand for is the
sum of the cost's and the constraints' own lower triangles. Missing: constraints that list positions above the
diagonal, see `C81_upper_violated`. -/
theorem C81_aligned_partial (costPattern : List (Nat × Nat)) (costValues : List α) (cs : List (HessCon α)) (lambda : List α)
    (hcost : costValues.length = costPattern.length)
    (hlen : ∀ c ∈ cs, ∀ l, (c.values l).length = c.pattern.length)
    (hlow : ∀ c ∈ cs, ∀ k ∈ c.pattern, k.2 ≤ k.1) :
    ∃ vs, evaluateHessian costPattern costValues cs lambda = .ok vs ∧
      vs.length = (nlpPattern costPattern cs).length ∧ (nlpPattern costPattern cs).Nodup ∧
      (∀ k ∈ nlpPattern costPattern cs, k.2 ≤ k.1) ∧
      ∀ i j, j ≤ i → at' (nlpPattern costPattern cs) vs (i, j)
        = at' costPattern costValues (i, j) + consEntry lambda cs 0 (i, j) := by
  -- the container's own pattern and values
  have hkeys := containerTriplets_keys lambda cs 0 hlen
  have hstored : storedKeys (containerTriplets lambda cs 0) = containerPattern cs := by
    refine storedKeys_congr ?_
    rw [hkeys, List.map_flatMap]
    congr 1
    funext c
    simp [Function.comp_def]
  have hcp : ∀ k ∈ containerPattern cs, k.2 ≤ k.1 := by
    intro k hk
    rw [← hstored, mem_storedKeys, hkeys, List.mem_flatMap] at hk
    obtain ⟨c, hc, hk⟩ := hk
    exact hlow c hc k hk
  have hcv : containerValues cs lambda
      = .ok ((containerPattern cs).map (valueAt (containerTriplets lambda cs 0))) := by
    simp only [containerValues, hstored, lowerKeys_eq hcp]
    exact readValues_all _ _ (by simp)
  have hcpn : (containerPattern cs).Nodup := storedKeys_nodup _
  -- the assembled matrix
  set ts := costPattern.zip costValues ++
    (containerPattern cs).zip ((containerPattern cs).map (valueAt (containerTriplets lambda cs 0))) with hts
  have htk : ts.map (·.1) = costPattern ++ containerPattern cs := by
    rw [hts, List.map_append, List.map_fst_zip (by rw [hcost]), List.map_fst_zip (by simp)]
  have hpat : lowerKeys (storedKeys ts) = nlpPattern costPattern cs := by
    rw [nlpPattern]
    congr 1
    refine storedKeys_congr ?_
    rw [htk]
    simp [Function.comp_def]
  have hnd : (nlpPattern costPattern cs).Nodup := by
    rw [← hpat]; exact (storedKeys_nodup ts).filter _
  refine ⟨(nlpPattern costPattern cs).map (valueAt ts), ?_, by simp, hnd, ?_, ?_⟩
  · rw [evaluateHessian, hcv, Res.ok_bind]
    simp only [← hts, hpat]
    exact readValues_all _ _ (by simp)
  · intro k hk
    rw [← hpat, lowerKeys, List.mem_filter] at hk
    simpa using hk.2
  · intro i j hij
    rw [valueAt_map hnd]
    have hval : valueAt ts (i, j) = at' costPattern costValues (i, j) + consEntry lambda cs 0 (i, j) := by
      rw [hts, valueAt_append]
      congr 1
      have h1 : valueAt ((containerPattern cs).zip ((containerPattern cs).map (valueAt (containerTriplets lambda cs 0)))) (i, j)
          = at' (containerPattern cs) ((containerPattern cs).map (valueAt (containerTriplets lambda cs 0))) (i, j) := rfl
      rw [h1, valueAt_map hcpn]
      split
      · exact containerTriplets_value _ _ _ _
      · rename_i hnot
        rw [← containerTriplets_value, valueAt_zero]
        rw [← mem_storedKeys, hstored]
        exact hnot
    rw [← hval]
    split
    · rfl
    · rename_i hnot
      rw [valueAt_zero]
      intro hm
      apply hnot
      rw [← hpat, lowerKeys, List.mem_filter, mem_storedKeys]
      exact ⟨hm, by simpa using hij⟩

end Hess

/-- A cost and a constraint meeting the hypotheses, sharing a position. -/
example : evaluateHessian [(0, 0), (1, 0)] [2, 3] [(⟨1, [(1, 0), (1, 1)], fun l => [l.sum, 5]⟩ : HessCon Int)] [7]
    = .ok [2, 10, 5] := by decide +kernel

/-- A constraint that lists a position above the diagonal makes the container read beyond the stored values. -/
theorem C81_upper_violated (c : HessCon Int) (lambda : List Int)
    (hlen : ∀ l, (c.values l).length = c.pattern.length) (hup : ∃ k ∈ c.pattern, k.1 < k.2) :
    evaluateHessian [] [] [c] lambda = .ub := by
  have hkeys := containerTriplets_keys lambda [c] 0 (by simpa using hlen)
  have hstored : storedKeys (containerTriplets lambda [c] 0) = containerPattern [c] := by
    refine storedKeys_congr ?_
    rw [hkeys]
    simp [Function.comp_def]
  have hlt : (lowerKeys (containerPattern [c])).length < (containerPattern [c]).length := by
    obtain ⟨k, hk, hlt⟩ := hup
    refine List.length_filter_lt_length_iff_exists.2 ⟨k, ?_, by simpa using hlt⟩
    rw [← hstored, mem_storedKeys, hkeys]
    simpa using hk
  have hcv : containerValues [c] lambda = .ub := by
    simp only [containerValues, hstored, readValues]
    rw [if_neg]
    simpa using hlt
  rw [evaluateHessian, hcv, Res.ub_bind]

end CT.Nlp
