import Mathlib.Algebra.BigOperators.Fin
import Mathlib.Algebra.BigOperators.Intervals
import Mathlib.Algebra.Order.BigOperators.Group.Finset
import Mathlib.Data.List.Perm.Subperm
import Mathlib.Tactic.Ring
import Mathlib.Tactic.Linarith
import Std.Data.String.ToNat
import Verif.Model.CostLoad

/-!
# C179: a cost function loaded from a file is the one written in the file
-/

namespace CT.CostLoad

open Finset

/-! ## Specification: what the file says -/

/-- The number written at a path of the file, if there is one. -/
def number (P : Parse) (t : Tree) (path : List String) : Option ℝ := (t.walk path).bind fun c => P.num c.data

/-- The weight `(r,c)` of the matrix `W` of term `i`: the entry, zero if it is not written, times the scaling, one if it is not
written. -/
noncomputable def weight (P : Parse) (t : Tree) (i : ℕ) (W : String) (r c : ℕ) : ℝ :=
  (number P t ["term" ++ toString i, "weights", W, "scaling"]).getD 1 *
    (number P t ["term" ++ toString i, "weights", W, "(" ++ toString r ++ "," ++ toString c ++ ")"]).getD 0

/-- The quadratic form of the weights `W` at `x`, relative to the reference `d` of the file. -/
noncomputable def form (P : Parse) (t : Tree) (i : ℕ) (W d : String) {n : ℕ} (x : Fin n → ℝ) : ℝ :=
  ∑ r : Fin n, ∑ c : Fin n, (x r - weight P t i d r 0) * weight P t i W r c * (x c - weight P t i d c 0)

/-- The cost of term `i` as documented for its kind (a linear term has no constant in the file). -/
noncomputable def termCost (P : Parse) (t : Tree) (kind : String) (i : ℕ) {n m : ℕ} (x : Fin n → ℝ) (u : Fin m → ℝ) : ℝ :=
  if kind = "quadratic" then form P t i "Q" "x_des" x + form P t i "R" "u_des" u
  else if kind = "mixed" then
    ∑ r : Fin m, ∑ c : Fin n, (u r - weight P t i "u_des" r 0) * weight P t i "P" r c * (x c - weight P t i "x_des" c 0)
  else if kind = "quadratic-multiplicative" then form P t i "Q" "x_des" x * form P t i "R" "u_des" u
  else if kind = "smooth-abs" then
    (∑ r : Fin n, weight P t i "a" r 0 *
        √((x r - weight P t i "x_ref" r 0) ^ 2 + ((number P t ["term" ++ toString i, "weights", "alpha"]).getD 0) ^ 2)) +
      ∑ r : Fin m, weight P t i "b" r 0 *
        √((u r - weight P t i "u_ref" r 0) ^ 2 + ((number P t ["term" ++ toString i, "weights", "alpha"]).getD 0) ^ 2)
  else (∑ r : Fin n, weight P t i "a" r 0 * x r) + ∑ r : Fin m, weight P t i "b" r 0 * u r

/-- One term of a file: kind (not distinguishing capital letters), whether it is a final term, and the time window in which it
is switched on (`none`: always). -/
structure Entry where
  kind : String
  final : Bool
  window : Option (ℝ × ℝ)

/-- Term `i` of the file is written as `e` says. -/
structure Entry.At (P : Parse) (t : Tree) (i : ℕ) (e : Entry) : Prop where
  kind : ∃ s, (t.walk ["term" ++ toString i, "kind"]).map Tree.data = some s ∧ s.toLower = e.kind
  type : ∃ s, (t.walk ["term" ++ toString i, "type"]).map Tree.data = some s ∧ P.int s = some (if e.final then 1 else 0)
  always : e.window = none → t.walk ["term" ++ toString i, "time_activation", "kind"] = none
  single : ∀ a b, e.window = some (a, b) →
    (∃ s, (t.walk ["term" ++ toString i, "time_activation", "kind"]).map Tree.data = some s ∧ s.toLower = "single") ∧
    number P t ["term" ++ toString i, "time_activation", "t_on"] = some a ∧
    number P t ["term" ++ toString i, "time_activation", "t_off"] = some b
  alpha : e.kind = "smooth-abs" → (number P t ["term" ++ toString i, "weights", "alpha"]).isSome

/-- The kinds of terms that can be loaded and evaluated. -/
def kinds : List String := ["quadratic", "mixed", "quadratic-multiplicative", "smooth-abs"]

/-- The term is switched on at time `s`. -/
def Entry.On (e : Entry) (s : ℝ) : Prop := ∀ a b, e.window = some (a, b) → a ≤ s ∧ s < b

/-! ## Proofs -/

theorem termKey_inj {i j : ℕ} (h : termKey i = termKey j) : i = j := by
  unfold termKey at h
  have h' := (String.append_right_inj "term").1 h
  exact Nat.repr_injective h'

theorem num_spec (P : Parse) (t : Tree) (path : List String) (d : ℝ) : getNumD P t path d = (number P t path).getD d := rfl

theorem termKey_ne (i : ℕ) : termKey i ≠ "" := by
  intro h
  have := congrArg String.length h
  simp [termKey] at this

theorem load_weight (P : Parse) (t : Tree) (i : ℕ) (W : String) {p q : ℕ} (r : Fin p) (c : Fin q) :
    loadMatrixCF P t W p q (termKey i) r c = weight P t i W r c := by
  simp only [loadMatrixCF, Matrix.of_apply, if_neg (termKey_ne i)]
  rfl

theorem load_vector (P : Parse) (t : Tree) (i : ℕ) (W : String) {p : ℕ} (r : Fin p) :
    loadVectorCF P t W p (termKey i) r = weight P t i W r 0 := load_weight P t i W r (0 : Fin 1)

theorem form_eq (P : Parse) (t : Tree) (i : ℕ) (W d : String) {n : ℕ} (x : Fin n → ℝ) :
    (x - loadVectorCF P t d n (termKey i)) ⬝ᵥ (loadMatrixCF P t W n n (termKey i)).mulVec
      (x - loadVectorCF P t d n (termKey i)) = form P t i W d x := by
  simp only [dotProduct, Matrix.mulVec, Pi.sub_apply, load_vector, load_weight, form, Finset.mul_sum]
  refine Finset.sum_congr rfl fun r _ => Finset.sum_congr rfl fun c _ => ?_
  ring

theorem load_act {P : Parse} {t : Tree} {i : ℕ} {e : Entry} (h : e.At P t i) :
    ∃ a, loadTimeActivation P t .base (termKey i) = .ok a ∧
      ∀ s, (∃ b, a.isActive s = .ok b ∧ (b = true ↔ e.On s)) ∧ a.compute s = 1 := by
  rcases hw : e.window with _ | ⟨a, b⟩
  · have h0 := h.always hw
    refine ⟨.base, ?_, fun s => ⟨⟨true, rfl, ?_⟩, rfl⟩⟩
    · simp only [loadTimeActivation, getStr, termKey, h0, Res.exc_bind]
    · simp [Entry.On, hw]
  · obtain ⟨⟨k, hk, hl⟩, h1, h2⟩ := h.single a b hw
    have hk' : getStr t [termKey i, "time_activation", "kind"] = .ok k := by
      unfold getStr termKey
      cases hx : t.walk ["term" ++ toString i, "time_activation", "kind"] with
      | none => rw [hx] at hk; cases hk
      | some c => rw [hx] at hk; cases hk; rfl
    have g1 : getNum P t ([termKey i, "time_activation"] ++ ["t_on"]) = .ok a := by
      unfold getNum; unfold number at h1
      simp only [List.cons_append, List.nil_append, termKey, h1]
    have g2 : getNum P t ([termKey i, "time_activation"] ++ ["t_off"]) = .ok b := by
      unfold getNum; unfold number at h2
      simp only [List.cons_append, List.nil_append, termKey, h2]
    refine ⟨⟨fun τ => .ok ((⟨a, b⟩ : Activation.Single ℝ).isActive τ), (⟨a, b⟩ : Activation.Single ℝ).compute⟩, ?_, fun s =>
      ⟨⟨_, rfl, ?_⟩, rfl⟩⟩
    · simp only [loadTimeActivation, hk', Res.ok_bind, hl, loadAct, if_true, g1, g2]
    · simp [Activation.Single.isActive, Entry.On, hw]

theorem load_term {P : Parse} {t : Tree} {i : ℕ} {e : Entry} (h : e.At P t i) (hk : e.kind ∈ kinds) (n m : ℕ) :
    ∃ τ : LTerm n m, loadTerm P t n m e.kind (termKey i) = .ok τ ∧
      (∀ s, (∃ b, τ.act.isActive s = .ok b ∧ (b = true ↔ e.On s)) ∧ τ.act.compute s = 1) ∧
      ∃ f, τ.data.term = .ok f ∧ ∀ x u s, f.value x u s = termCost P t e.kind i x u := by
  obtain ⟨a, ha, hact⟩ := load_act h
  simp only [kinds, List.mem_cons, List.not_mem_nil, or_false] at hk
  rcases hk with hk | hk | hk | hk
  · refine ⟨⟨nameOr t (termKey i), a, loadQuadratic P t n m (termKey i)⟩, ?_, hact, _, rfl, fun x u s => ?_⟩
    · simp [loadTerm, hk, ha]
    · rw [termCost, if_pos hk, ← form_eq, ← form_eq]; rfl
  · refine ⟨⟨nameOr t (termKey i), a, loadMixed P t n m (termKey i)⟩, ?_, hact, _, rfl, fun x u s => ?_⟩
    · simp [loadTerm, hk, ha]
    · rw [termCost, if_neg (by rw [hk]; decide), if_pos hk]
      simp only [Cost.mixed, dotProduct, Matrix.mulVec, Pi.sub_apply, load_vector, load_weight, Finset.mul_sum]
      refine Finset.sum_congr rfl fun r _ => Finset.sum_congr rfl fun c _ => ?_
      ring
  · refine ⟨⟨"quadratic-multiplicative", a, loadQuadMult P t n m (termKey i)⟩, ?_, hact, _, rfl, fun x u s => ?_⟩
    · simp [loadTerm, hk, ha]
    · rw [termCost, if_neg (by rw [hk]; decide), if_neg (by rw [hk]; decide), if_pos hk, ← form_eq, ← form_eq]; rfl
  · obtain ⟨v, hv⟩ := Option.isSome_iff_exists.1 (h.alpha hk)
    have hs : loadScalarCF P t "alpha" (termKey i) = .ok v := by
      unfold loadScalarCF getNum; unfold number at hv
      simp only [termKey, hv]
    refine ⟨⟨"smooth-abs", a, .smoothAbs (loadVectorCF P t "a" n (termKey i)) (loadVectorCF P t "x_ref" n (termKey i))
      (loadVectorCF P t "b" m (termKey i)) (loadVectorCF P t "u_ref" m (termKey i)) v⟩, ?_, hact, _, rfl, fun x u s => ?_⟩
    · simp [loadTerm, hk, ha, loadSmoothAbs, hs]
    · rw [termCost, if_neg (by rw [hk]; decide), if_neg (by rw [hk]; decide), if_neg (by rw [hk]; decide), if_pos hk]
      simp only [Cost.smoothAbs, dotProduct, load_vector, hv, Option.getD_some]

theorem sumInter_append {n m : ℕ} (x : Fin n → ℝ) (u : Fin m → ℝ) (s : ℝ) (τ : LTerm n m) : ∀ (l : List (LTerm n m)) {a b : ℝ},
    sumInter x u s l = .ok a → sumInter x u s [τ] = .ok b → sumInter x u s (l ++ [τ]) = .ok (a + b)
  | [], a, b, h1, h2 => by
    cases h1; rw [zero_add]; exact h2
  | σ :: l, a, b, h1, h2 => by
    simp only [sumInter, List.cons_append, Res.bind_eq_ok] at h1 ⊢
    obtain ⟨act, ha, rest, hr, h1⟩ := h1
    refine ⟨act, ha, rest + b, sumInter_append x u s τ l hr h2, ?_⟩
    cases act with
    | true =>
      simp only [if_true, Res.bind_eq_ok] at h1 ⊢
      obtain ⟨f, hf, h1⟩ := h1
      exact ⟨f, hf, by cases h1; congr 1; ring⟩
    | false =>
      simp only [Bool.false_eq_true, if_false] at h1 ⊢
      cases h1; rfl

theorem sumFin_append {n m : ℕ} (x : Fin n → ℝ) (u : Fin m → ℝ) (s : ℝ) (τ : LTerm n m) : ∀ (l : List (LTerm n m)) {a b : ℝ},
    sumFin x u s l = .ok a → sumFin x u s [τ] = .ok b → sumFin x u s (l ++ [τ]) = .ok (a + b)
  | [], a, b, h1, h2 => by
    cases h1; rw [zero_add]; exact h2
  | σ :: l, a, b, h1, h2 => by
    simp only [sumFin, List.cons_append, Res.bind_eq_ok] at h1 ⊢
    obtain ⟨f, hf, rest, hr, h1⟩ := h1
    exact ⟨f, hf, rest + b, sumFin_append x u s τ l hr h2, by cases h1; congr 1; ring⟩

open Classical in
/-- Contribution of term `j` of the file to the cost during the motion at time `s`. -/
noncomputable def interPart (P : Parse) (t : Tree) (e : ℕ → Entry) {n m : ℕ} (x : Fin n → ℝ) (u : Fin m → ℝ) (s : ℝ) (j : ℕ) : ℝ :=
  if (e j).final = false ∧ (e j).On s then termCost P t (e j).kind j x u else 0

/-- Contribution of term `j` of the file to the cost of the final state. -/
noncomputable def finPart (P : Parse) (t : Tree) (e : ℕ → Entry) {n m : ℕ} (x : Fin n → ℝ) (u : Fin m → ℝ) (j : ℕ) : ℝ :=
  if (e j).final = true then termCost P t (e j).kind j x u else 0

theorem step_spec {P : Parse} {t : Tree} {e : ℕ → Entry} {i : ℕ} (h : (e i).At P t i) (hk : (e i).kind ∈ kinds) {n m : ℕ}
    (c : Loaded n m) (A : (Fin n → ℝ) → (Fin m → ℝ) → ℝ → ℝ) (B : (Fin n → ℝ) → (Fin m → ℝ) → ℝ → ℝ)
    (hA : ∀ x u s, sumInter x u s c.inter = .ok (A x u s)) (hB : ∀ x u s, sumFin x u s c.fin = .ok (B x u s)) :
    ∃ c', loadStep P t c i = .ok c' ∧ (∀ x u s, sumInter x u s c'.inter = .ok (A x u s + interPart P t e x u s i)) ∧
      ∀ x u s, sumFin x u s c'.fin = .ok (B x u s + finPart P t e x u i) := by
  obtain ⟨τ, hτ, hact, f, hf, hval⟩ := load_term h hk n m
  obtain ⟨k, hk1, hk2⟩ := h.kind
  obtain ⟨ty, ht1, ht2⟩ := h.type
  have g1 : getStr t [termKey i, "kind"] = .ok k := by
    unfold getStr termKey
    cases hx : t.walk ["term" ++ toString i, "kind"] with
    | none => rw [hx] at hk1; cases hk1
    | some c => rw [hx] at hk1; cases hk1; rfl
  have g2 : getInt P t [termKey i, "type"] = .ok (if (e i).final then 1 else 0) := by
    unfold getInt termKey
    cases hx : t.walk ["term" ++ toString i, "type"] with
    | none => rw [hx] at ht1; cases ht1
    | some c =>
      rw [hx] at ht1
      cases ht1
      simp only [Option.bind_some, ht2]
  have hi : ∀ x u s, (e i).final = false → sumInter x u s [τ] = .ok (interPart P t e x u s i) := by
    intro x u s hfin
    obtain ⟨⟨b, hb1, hb2⟩, hc⟩ := hact s
    simp only [sumInter, hb1, Res.ok_bind]
    by_cases hon : (e i).On s
    · rw [hb2.2 hon, if_pos rfl, hf, Res.ok_bind, hc, hval, interPart, if_pos ⟨hfin, hon⟩]
      congr 1; ring
    · have : b = false := by
        cases b with
        | true => exact absurd (hb2.1 rfl) hon
        | false => rfl
      rw [this, interPart, if_neg (c := (e i).final = false ∧ (e i).On s) (fun h => hon h.2)]
      rfl
  cases hfin : (e i).final with
  | false =>
    refine ⟨{ c with inter := c.inter ++ [τ] }, ?_, fun x u s => sumInter_append x u s τ _ (hA x u s) (hi x u s hfin), ?_⟩
    · simp only [loadStep, g1, g2, Res.ok_bind, hfin, Bool.false_eq_true, if_false, if_true, hk2, hτ]
    · intro x u s
      rw [finPart, hfin, if_neg (by simp), add_zero]
      exact hB x u s
  | true =>
    refine ⟨{ c with fin := c.fin ++ [τ] }, ?_, ?_, ?_⟩
    · simp only [loadStep, g1, g2, Res.ok_bind, hfin, if_true, hk2, hτ, one_ne_zero, if_false]
    · intro x u s
      rw [interPart, hfin, if_neg (by simp), add_zero]
      exact hA x u s
    · intro x u s
      refine sumFin_append x u s τ _ (hB x u s) ?_
      simp only [sumFin, hf, Res.ok_bind, hval, finPart, hfin, if_true, add_zero]

theorem find_term {P : Parse} {t : Tree} {e : Entry} {i : ℕ} (h : e.At P t i) : ∃ c, t.find (termKey i) = some c := by
  obtain ⟨k, hk1, _⟩ := h.kind
  unfold termKey
  cases hx : t.find ("term" ++ toString i) with
  | none =>
    rw [Tree.walk, hx] at hk1
    cases hk1
  | some c => exact ⟨c, rfl⟩

theorem loop_spec {P : Parse} {t : Tree} {e : ℕ → Entry} {k : ℕ} (h : ∀ i < k, (e i).At P t i)
    (hk : ∀ i < k, (e i).kind ∈ kinds) (hend : t.find (termKey k) = none) {n m : ℕ} : ∀ (fuel i : ℕ) (c : Loaded n m)
    (A : (Fin n → ℝ) → (Fin m → ℝ) → ℝ → ℝ) (B : (Fin n → ℝ) → (Fin m → ℝ) → ℝ → ℝ), i < k → k ≤ i + fuel →
    (∀ x u s, sumInter x u s c.inter = .ok (A x u s)) → (∀ x u s, sumFin x u s c.fin = .ok (B x u s)) →
    ∃ c', loadLoop P t fuel c i = .ok c' ∧
      (∀ x u s, sumInter x u s c'.inter = .ok (A x u s + ∑ j ∈ Ico i k, interPart P t e x u s j)) ∧
      ∀ x u s, sumFin x u s c'.fin = .ok (B x u s + ∑ j ∈ Ico i k, finPart P t e x u j)
  | 0, i, _, _, _, hi, hf, _, _ => by omega
  | fuel + 1, i, c, A, B, hi, hf, hA, hB => by
    obtain ⟨c', h1, h2, h3⟩ := step_spec (h i hi) (hk i hi) c A B hA hB
    rw [loadLoop, h1, Res.ok_bind]
    by_cases hlast : i + 1 = k
    · rw [hlast, hend]
      refine ⟨c', rfl, fun x u s => ?_, fun x u s => ?_⟩
      · rw [h2, ← hlast, Nat.Ico_succ_singleton, sum_singleton]
      · rw [h3, ← hlast, Nat.Ico_succ_singleton, sum_singleton]
    · obtain ⟨d, hd⟩ := find_term (h (i + 1) (by omega))
      rw [hd]
      obtain ⟨c'', g1, g2, g3⟩ := loop_spec h hk hend fuel (i + 1) c' _ _ (by omega) (by omega) h2 h3
      refine ⟨c'', g1, fun x u s => ?_, fun x u s => ?_⟩
      · rw [g2, Finset.sum_eq_sum_Ico_succ_bot hi, add_assoc]
      · rw [g3, Finset.sum_eq_sum_Ico_succ_bot hi, add_assoc]

theorem length_le {t : Tree} {k : ℕ} (h : ∀ i < k, ∃ c, t.find (termKey i) = some c) : k ≤ t.kids.length := by
  have hsub : (List.range k).map termKey ⊆ t.kids.map Prod.fst := by
    intro s hs
    obtain ⟨i, hi, rfl⟩ := List.mem_map.1 hs
    obtain ⟨c, hc⟩ := h i (List.mem_range.1 hi)
    by_contra hnot
    have : t.kids.lookup (termKey i) = none := by
      rw [List.lookup_eq_none_iff]
      intro p hp
      have : p.1 ≠ termKey i := fun h => hnot (h ▸ List.mem_map_of_mem hp)
      simpa using fun h => this h.symm
    rw [Tree.find, this] at hc
    cases hc
  have hnd : ((List.range k).map termKey).Nodup := (List.nodup_range).map fun i j h => termKey_inj h
  have := (hnd.subperm hsub).length_le
  simpa using this

/-- **C179.** A file that describes `k ≥ 1` terms, each of a kind that can be loaded (quadratic, mixed,
quadratic-multiplicative, smooth-abs), as an intermediate or final term, always switched on or in a time window: loading
succeeds, whatever the cost function held before, and the loaded cost function is the sum of the documented costs of these
terms: during the motion, of the intermediate terms that are switched on; at the end, of the final terms. -/
theorem C179_load {P : Parse} {t : Tree} {e : ℕ → Entry} {k : ℕ} (hpos : 0 < k) (h : ∀ i < k, (e i).At P t i)
    (hk : ∀ i < k, (e i).kind ∈ kinds) (hend : t.find ("term" ++ toString k) = none) {n m : ℕ} (old : Loaded n m) :
    ∃ c, loadFromConfigFile P t old = .ok c ∧
      (∀ x u s, sumInter x u s c.inter = .ok (∑ j ∈ range k, interPart P t e x u s j)) ∧
      ∀ x u s, sumFin x u s c.fin = .ok (∑ j ∈ range k, finPart P t e x u j) := by
  have hlen := length_le fun i hi => find_term (h i hi)
  obtain ⟨c, h1, h2, h3⟩ := loop_spec h hk hend (t.kids.length + 1) 0 (⟨[], []⟩ : Loaded n m) (fun _ _ _ => 0)
    (fun _ _ _ => 0) hpos (by omega) (fun _ _ _ => rfl) (fun _ _ _ => rfl)
  refine ⟨c, h1, fun x u s => ?_, fun x u s => ?_⟩
  · rw [h2, zero_add, Finset.range_eq_Ico]
  · rw [h3, zero_add, Finset.range_eq_Ico]

/-! ## A file that meets the hypotheses, and files that do not do what they say -/

/-- A leaf of a file. -/
def leaf (s : String) : Tree := .node s []

/-- A section of a file. -/
def sect (l : List (String × Tree)) : Tree := .node "" l

/-- A reader that understands the numbers of the examples. -/
noncomputable def reader : Parse :=
  ⟨fun s => if s = "2" then some 2 else if s = "3" then some 3 else if s = "0" then some 0 else if s = "1" then some 1 else none,
    fun s => if s = "0" then some 0 else if s = "1" then some 1 else none⟩

/-- A quadratic term in a time window and a final smooth absolute value. -/
def sampleFile : Tree :=
  sect [("term0", sect [("kind", leaf "Quadratic"), ("type", leaf "0"),
      ("time_activation", sect [("kind", leaf "Single"), ("t_on", leaf "0"), ("t_off", leaf "1")]),
      ("weights", sect [("Q", sect [("scaling", leaf "2"), ("(0,0)", leaf "3")])])]),
    ("term1", sect [("kind", leaf "smooth-abs"), ("type", leaf "1"), ("weights", sect [("alpha", leaf "1")])])]

/-- What `sampleFile` describes. -/
noncomputable def sampleEntries (i : ℕ) : Entry :=
  if i = 0 then ⟨"quadratic", false, some (0, 1)⟩ else ⟨"smooth-abs", true, none⟩

theorem key0 : "term" ++ toString 0 = "term0" := rfl

theorem key1 : "term" ++ toString 1 = "term1" := rfl

example : (∀ i < 2, (sampleEntries i).At reader sampleFile i) ∧ (∀ i < 2, (sampleEntries i).kind ∈ kinds) ∧
    sampleFile.find ("term" ++ toString 2) = none := by
  refine ⟨fun i hi => ?_, fun i hi => ?_, by decide +kernel⟩
  · obtain rfl | rfl : i = 0 ∨ i = 1 := by omega
    · refine ⟨⟨"Quadratic", rfl, by decide +kernel⟩, ⟨"0", rfl, rfl⟩, fun h => (by cases h), fun a b h => ?_, fun h => ?_⟩
      · cases h
        refine ⟨⟨"Single", rfl, by decide +kernel⟩, ?_, ?_⟩ <;> rw [key0] <;>
          simp [number, Tree.walk, Tree.find, sampleFile, sect, leaf, Tree.kids, List.lookup, Tree.data, reader]
      · exact absurd h (by decide)
    · refine ⟨⟨"smooth-abs", rfl, by decide +kernel⟩, ⟨"1", rfl, rfl⟩, fun _ => rfl, fun a b h => (by cases h), fun h => ?_⟩
      rw [key1]
      simp [number, Tree.walk, Tree.find, sampleFile, sect, leaf, Tree.kids, List.lookup, Tree.data, reader]
  · obtain rfl | rfl : i = 0 ∨ i = 1 := by omega
    · exact List.mem_cons_self
    · simp [sampleEntries, kinds]

/-- One linear term, as in the configuration file delivered with the toolbox. -/
def linearFile : Tree :=
  sect [("term0", sect [("kind", leaf "linear"), ("type", leaf "0"), ("weights", sect [("a", sect [("(0,0)", leaf "1")])])])]

theorem load_single {P : Parse} {t : Tree} {n m : ℕ} {kind : String} {τ : LTerm n m} (old : Loaded n m)
    (h1 : getStr t ["term0", "kind"] = .ok kind) (h2 : getInt P t ["term0", "type"] = .ok 0)
    (h3 : loadTerm P t n m kind.toLower "term0" = .ok τ) (h4 : t.find "term1" = none) :
    loadFromConfigFile P t old = .ok ⟨[τ], []⟩ := by
  unfold loadFromConfigFile
  have e0 : termKey 0 = "term0" := rfl
  have e1 : termKey (0 + 1) = "term1" := rfl
  rw [loadLoop, loadStep, e0, h1, Res.ok_bind, h2, Res.ok_bind, if_pos rfl, h3, Res.ok_bind, Res.ok_bind, e1, h4]
  rfl

/-- **C179, violated.** A file with a linear term is loaded without an error, but the constant of the term is neither in the
file nor set by the constructor: evaluating the loaded cost function reads an uninitialised value, for every state, input and
time. -/
theorem C179_linear_violated (P : Parse) (hP : P.int "0" = some 0) (n m : ℕ) (old : Loaded n m) :
    ∃ c, loadFromConfigFile P linearFile old = .ok c ∧ ∀ x u s, sumInter x u s c.inter = .ub := by
  have e : "linear".toLower = "linear" := by decide +kernel
  refine ⟨_, load_single (kind := "linear") (τ := ⟨"linear", .base, loadLinear P linearFile n m "term0"⟩) old rfl ?_ ?_ (by decide +kernel),
    fun x u s => rfl⟩
  · have : linearFile.walk ["term0", "type"] = some (leaf "0") := rfl
    simp only [getInt, this, Option.bind_some, leaf, Tree.data, hP]
  · rw [e]; rfl

/-- A quadratic term with the given entries of `time_activation`. -/
def activationFile (l : List (String × Tree)) : Tree :=
  sect [("term0", sect [("kind", leaf "quadratic"), ("type", leaf "0"), ("time_activation", sect l),
    ("weights", sect [("Q", sect [("(0,0)", leaf "1")])])])]

theorem activation_kind (P : Parse) (hP : P.int "0" = some 0) (l : List (String × Tree)) :
    getStr (activationFile l) ["term0", "kind"] = .ok "quadratic" ∧ getInt P (activationFile l) ["term0", "type"] = .ok 0 := by
  refine ⟨rfl, ?_⟩
  have : (activationFile l).walk ["term0", "type"] = some (leaf "0") := rfl
  simp only [getInt, this, Option.bind_some, leaf, Tree.data, hP]

/-- **C179, violated.** A file in which the kind of a time activation is not one of the known kinds (here "always") is not
rejected: the program dereferences a null pointer, because the check for it comes after its use. -/
theorem C179_activation_kind_violated (P : Parse) (hP : P.int "0" = some 0) (n m : ℕ) (old : Loaded n m) :
    loadFromConfigFile P (activationFile [("kind", leaf "always")]) old = .ub := by
  obtain ⟨h1, h2⟩ := activation_kind P hP [("kind", leaf "always")]
  have e0 : termKey 0 = "term0" := rfl
  have e : "quadratic".toLower = "quadratic" := by decide +kernel
  have e' : "always".toLower = "always" := by decide +kernel
  have ha : loadTimeActivation P (activationFile [("kind", leaf "always")]) .base "term0" = .ub := by
    have : getStr (activationFile [("kind", leaf "always")]) ["term0", "time_activation", "kind"] = .ok "always" := rfl
    simp only [loadTimeActivation, this, Res.ok_bind, e', loadAct]
    rfl
  unfold loadFromConfigFile
  rw [loadLoop, loadStep, e0, h1, Res.ok_bind, h2, Res.ok_bind, if_pos rfl, e, loadTerm, if_neg (by decide), if_pos rfl, ha]
  rfl

/-- **C179, violated.** A mistake in a time window is not reported and switches the term on for ever: the file gives a start
but no end, loading succeeds, and the term counts at every time, also before the start. -/
theorem C179_activation_ignored_violated (P : Parse) (hP : P.int "0" = some 0) (n m : ℕ) (old : Loaded n m) :
    ∃ c, loadFromConfigFile P (activationFile [("kind", leaf "single"), ("t_on", leaf "1")]) old = .ok c ∧
      ∀ x u s, sumInter x u s c.inter =
        .ok (termCost P (activationFile [("kind", leaf "single"), ("t_on", leaf "1")]) "quadratic" 0 x u) := by
  set t := activationFile [("kind", leaf "single"), ("t_on", leaf "1")] with ht
  obtain ⟨h1, h2⟩ := activation_kind P hP [("kind", leaf "single"), ("t_on", leaf "1")]
  have e : "quadratic".toLower = "quadratic" := by decide +kernel
  have e' : "single".toLower = "single" := by decide +kernel
  have ha : loadTimeActivation P t .base "term0" = .ok .base := by
    have g : getStr t ["term0", "time_activation", "kind"] = .ok "single" := rfl
    have g2 : getNum P t (["term0", "time_activation"] ++ ["t_off"]) = .exc := rfl
    simp only [loadTimeActivation, g, Res.ok_bind, e', loadAct, if_true, g2, Res.exc_bind]
    have g3 : getNum P t (["term0", "time_activation"] ++ ["t_on"]) ≠ .ub := by
      unfold getNum; split <;> simp
    cases g4 : getNum P t (["term0", "time_activation"] ++ ["t_on"]) with
    | ok v => rfl
    | exc => rfl
    | ub => exact absurd g4 g3
  refine ⟨_, load_single (kind := "quadratic") (τ := ⟨nameOr t "term0", .base, loadQuadratic P t n m "term0"⟩) old h1 h2 ?_
    (by rw [ht]; decide +kernel), fun x u s => ?_⟩
  · rw [e, loadTerm, if_neg (by decide), if_pos rfl, ha]; rfl
  · have : sumInter x u s [(⟨nameOr t "term0", .base, loadQuadratic P t n m "term0"⟩ : LTerm n m)] =
        .ok (1 * (1 * ((x - loadVectorCF P t "x_des" n (termKey 0)) ⬝ᵥ (loadMatrixCF P t "Q" n n (termKey 0)).mulVec
            (x - loadVectorCF P t "x_des" n (termKey 0)) +
          (u - loadVectorCF P t "u_des" m (termKey 0)) ⬝ᵥ (loadMatrixCF P t "R" m m (termKey 0)).mulVec
            (u - loadVectorCF P t "u_des" m (termKey 0)))) + 0) := rfl
    rw [this, form_eq, form_eq, termCost, if_pos rfl]
    congr 1; ring

/-- **C179, violated.** A barrier as time activation is accepted, but it makes the term zero at every time and state, whatever
bounds the file gives. -/
theorem C179_barrier_violated (P : Parse) (hP : P.int "0" = some 0) (hα : P.num "1" = some 1) (n m : ℕ) (old : Loaded n m)
    (lo up : String) :
    ∃ c, loadFromConfigFile P (activationFile [("kind", leaf "barrier"), ("alpha", leaf "1"), ("upper_bound", leaf up),
      ("lower_bound", leaf lo)]) old = .ok c ∧ ∀ x u s, sumInter x u s c.inter = .ok 0 := by
  set t := activationFile [("kind", leaf "barrier"), ("alpha", leaf "1"), ("upper_bound", leaf up), ("lower_bound", leaf lo)] with ht
  obtain ⟨h1, h2⟩ := activation_kind P hP [("kind", leaf "barrier"), ("alpha", leaf "1"), ("upper_bound", leaf up),
    ("lower_bound", leaf lo)]
  have e : "quadratic".toLower = "quadratic" := by decide +kernel
  have e' : "barrier".toLower = "barrier" := by decide +kernel
  have ha : ∃ b : Activation.Barrier, b.ub_active = false ∧ b.lb_active = false ∧
      loadTimeActivation P t .base "term0" = .ok ⟨fun _ => .ok true, b.compute⟩ := by
    have g : getStr t ["term0", "time_activation", "kind"] = .ok "barrier" := rfl
    have g2 : getNum P t (["term0", "time_activation"] ++ ["alpha"]) = .ok 1 := by
      have : t.walk (["term0", "time_activation"] ++ ["alpha"]) = some (leaf "1") := rfl
      simp only [getNum, this, Option.bind_some, leaf, Tree.data, hα]
    simp only [loadTimeActivation, g, Res.ok_bind, e', loadAct, g2]
    rw [if_neg (by decide), if_neg (by decide), if_neg (by decide), if_pos trivial]
    cases (t.walk (["term0", "time_activation"] ++ ["upper_bound"])).bind fun c => P.num c.data <;>
      cases (t.walk (["term0", "time_activation"] ++ ["lower_bound"])).bind fun c => P.num c.data <;>
      simp [Activation.Barrier.load, Activation.Barrier.default, not_lt.2 (zero_le_one' ℝ)] <;>
      exact ⟨_, rfl, rfl, rfl⟩
  obtain ⟨b, hb1, hb2, ha⟩ := ha
  refine ⟨_, load_single (kind := "quadratic") (τ := ⟨nameOr t "term0", ⟨fun _ => .ok true, b.compute⟩,
    loadQuadratic P t n m "term0"⟩) old h1 h2 ?_ rfl, fun x u s => ?_⟩
  · rw [e, loadTerm, if_neg (by decide), if_pos rfl, ha]; rfl
  · have hc : b.compute s = 0 := by simp [Activation.Barrier.compute, hb1, hb2, Activation.flag]
    simp [sumInter, hc, loadQuadratic, Data.term]

/-- A smooth absolute value with a name. -/
def namedFile : Tree :=
  sect [("term0", sect [("name", leaf "tracking"), ("kind", leaf "smooth-abs"), ("type", leaf "0"),
    ("weights", sect [("alpha", leaf "1")])])]

/-- C179, names, what holds: a loaded quadratic or mixed term has the name of the file, and that of its section if the file gives none. -/
theorem C179_names_partial {P : Parse} {t : Tree} {n m i : ℕ} {kind : String} {τ : LTerm n m} (hk : kind = "quadratic" ∨ kind = "mixed")
    (h : loadTerm P t n m kind ("term" ++ toString i) = .ok τ) :
    (∀ c, t.walk ["term" ++ toString i, "name"] = some c → τ.name = c.data)
      ∧ (t.walk ["term" ++ toString i, "name"] = none → τ.name = "term" ++ toString i) := by
  generalize "term" ++ toString i = key at h ⊢
  rcases hk with rfl | rfl <;>
  · cases ha : loadTimeActivation P t .base key with
    | ok a =>
      simp [loadTerm, ha] at h
      subst h
      exact ⟨fun c hc => by simp [nameOr, hc], fun hc => by simp [nameOr, hc]⟩
    | exc => simp [loadTerm, ha] at h
    | ub => simp [loadTerm, ha] at h

/-- A file with a named quadratic term, and one without a name. -/
example (P : Parse) (n m : ℕ) :
    (∃ τ : LTerm n m, loadTerm P (sect [("term0", sect [("name", leaf "tracking")])]) n m "quadratic" ("term" ++ toString 0) = .ok τ ∧ τ.name = "tracking")
    ∧ ∃ τ : LTerm n m, loadTerm P (sect [("term0", sect [])]) n m "mixed" ("term" ++ toString 0) = .ok τ ∧ τ.name = "term0" :=
  ⟨⟨_, rfl, rfl⟩, ⟨_, rfl, rfl⟩⟩

/-- **C179, violated.** The name that a file gives to a smooth absolute value is dropped: after loading, the term cannot be
found under its name. -/
theorem C179_name_violated (P : Parse) (hP : P.int "0" = some 0) (hα : P.num "1" = some 1) (n m : ℕ) (old : Loaded n m) :
    ∃ c, loadFromConfigFile P namedFile old = .ok c ∧ termByName c.inter "tracking" = .exc := by
  have e : "smooth-abs".toLower = "smooth-abs" := by decide +kernel
  have hs : loadScalarCF P namedFile "alpha" "term0" = .ok 1 := by
    have : namedFile.walk ["term0", "weights", "alpha"] = some (leaf "1") := rfl
    simp only [loadScalarCF, getNum, this, Option.bind_some, leaf, Tree.data, hα]
  refine ⟨_, load_single (kind := "smooth-abs") (τ := ⟨"smooth-abs", .base, .smoothAbs (loadVectorCF P namedFile "a" n "term0")
    (loadVectorCF P namedFile "x_ref" n "term0") (loadVectorCF P namedFile "b" m "term0")
    (loadVectorCF P namedFile "u_ref" m "term0") 1⟩) old rfl ?_ ?_ (by decide +kernel), ?_⟩
  · have : namedFile.walk ["term0", "type"] = some (leaf "0") := rfl
    simp only [getInt, this, Option.bind_some, leaf, Tree.data, hP]
  · have ha : loadTimeActivation P namedFile .base "term0" = .ok .base := rfl
    simp [e, loadTerm, ha, loadSmoothAbs, hs]
  · simp [termByName]

end CT.CostLoad
