import Mathlib.Data.List.Basic
import Mathlib.Tactic.Linarith
import Verif.Model.CodeText
import Verif.Model.Templates

/-!
# C178: generated source files are the templates with every placeholder replaced

Specification: split a text into its identifiers (maximal runs of letters, digits and underscores) and the characters between
them; replace every identifier that is a placeholder by its value.
-/

namespace CT.CodeText

/-! ## Specification -/

/-- Letters, digits and the underscore. -/
def isIdent (c : Char) : Bool := c.isAlphanum || c == '_'

/-- The (possibly empty) identifiers of a text and the single characters that separate them. -/
def split : Str → List Str × List Char
  | [] => ([[]], [])
  | c :: t =>
    match split t with
    | (w :: ws, cs) => if isIdent c then ((c :: w) :: ws, cs) else ([] :: w :: ws, c :: cs)
    | ([], cs) => ([[c]], cs)

/-- Identifiers and separators put together again. -/
def glue : List Str → List Char → Str
  | w :: ws, c :: cs => w ++ c :: glue ws cs
  | w :: _, [] => w
  | [], _ => []

/-- The identifiers of a text. -/
def identifiers (t : Str) : List Str := (split t).1

/-- Value of an identifier: the entry of the table, or the identifier itself. -/
def value (σ : List (Str × Str)) (w : Str) : Str := (σ.lookup w).getD w

/-- The text with every identifier that has an entry in the table replaced by it, and everything else unchanged. -/
def substitute (σ : List (Str × Str)) (t : Str) : Str := glue ((split t).1.map (value σ)) (split t).2

/-- No placeholder of `keys` occurs in `v`, not even as a part of a longer word. -/
def FreeOf (keys : List Str) (v : Str) : Prop := ∀ k ∈ keys, ¬ k <:+: v

instance (keys : List Str) (v : Str) : Decidable (FreeOf keys v) := by unfold FreeOf; infer_instance

/-- A template: every identifier that contains a placeholder is that placeholder, and each of the placeholders `once` occurs
exactly once. -/
def IsTemplate (keys once : List Str) (t : Str) : Prop :=
  (∀ w ∈ identifiers t, ∀ k ∈ keys, k <:+: w → w = k) ∧ ∀ k ∈ once, (identifiers t).count k = 1

instance (keys once : List Str) (t : Str) : Decidable (IsTemplate keys once t) := by unfold IsTemplate; infer_instance

/-! ## Splitting -/

theorem split_ne (t : Str) : (split t).1 ≠ [] := by
  induction t with
  | nil => simp [split]
  | cons c t ih =>
    rw [split]
    rcases h : split t with ⟨ws, cs⟩
    cases ws with
    | nil => simp
    | cons w ws => simp only; split <;> simp

theorem split_length (t : Str) : (split t).1.length = (split t).2.length + 1 := by
  induction t with
  | nil => simp [split]
  | cons c t ih =>
    rw [split]
    have hne := split_ne t
    rcases h : split t with ⟨ws, cs⟩
    rw [h] at ih hne
    cases ws with
    | nil => exact absurd rfl hne
    | cons w ws => simp only; split <;> simp_all

theorem split_sep (t : Str) : ∀ c ∈ (split t).2, isIdent c = false := by
  induction t with
  | nil => simp [split]
  | cons c t ih =>
    rw [split]
    have hne := split_ne t
    rcases h : split t with ⟨ws, cs⟩
    rw [h] at ih hne
    cases ws with
    | nil => exact absurd rfl hne
    | cons w ws => simp only; split <;> simp_all

theorem glue_split (t : Str) : glue (split t).1 (split t).2 = t := by
  induction t with
  | nil => simp [split, glue]
  | cons c t ih =>
    rw [split]
    have hne := split_ne t
    rcases h : split t with ⟨ws, cs⟩
    rw [h] at ih hne
    cases ws with
    | nil => exact absurd rfl hne
    | cons w ws =>
      simp only
      split
      · cases cs with
        | nil => simpa [glue] using ih
        | cons d cs => simpa [glue] using ih
      · simpa [glue] using ih

/-! ## Searching -/

theorem find_none {p : Str} (hp : p ≠ []) : ∀ {t : Str}, ¬ p <:+: t → find p t = none
  | [], _ => by
    have : p.isPrefixOf [] = false := by cases p with
      | nil => exact absurd rfl hp
      | cons a p => rfl
    simp [find, this]
  | c :: t, h => by
    have h1 : ¬ p <+: c :: t := fun hh => h hh.isInfix
    have h2 : ¬ p <:+: t := fun hh => h (hh.trans (List.suffix_cons c t).isInfix)
    simp only [find]
    rw [if_neg (by simpa using h1), find_none hp h2]; rfl

theorem find_self (p s : Str) : find p (p ++ s) = some 0 := by
  cases h : p ++ s with
  | nil =>
    have : p = [] := (List.append_eq_nil_iff.1 h).1
    subst this; simp [find]
  | cons c t =>
    have hp : p <+: c :: t := h ▸ List.prefix_append p s
    simp only [find]
    rw [if_pos (by simpa using hp)]

/-- A placeholder that does not occur in `w` cannot begin in `w` and extend over a separator. -/
theorem not_prefix {p w s : Str} {c : Char} (hid : ∀ a ∈ p, isIdent a = true) (hc : isIdent c = false)
    (hw : ¬ p <:+: w) : ¬ p <+: w ++ c :: s := by
  intro h
  rcases Nat.lt_or_ge w.length p.length with hlt | hge
  · have hmem : c ∈ p := by
      have h1 : w ++ [c] <+: w ++ c :: s := ⟨s, by simp⟩
      have h2 : w ++ [c] <+: p := List.prefix_of_prefix_length_le h1 h (by simp; omega)
      exact h2.subset (by simp)
    rw [hid c hmem] at hc
    cases hc
  · exact hw (List.prefix_of_prefix_length_le h (List.prefix_append _ _) hge).isInfix

theorem find_skip {p : Str} {c : Char} (hp : p ≠ []) (hid : ∀ a ∈ p, isIdent a = true) (hc : isIdent c = false) (s : Str) :
    ∀ {w : Str}, ¬ p <:+: w → find p (w ++ c :: s) = (find p s).map (· + (w.length + 1))
  | [], hw => by
    have h := not_prefix (s := s) hid hc hw
    simp only [List.nil_append] at h ⊢
    simp only [find]
    rw [if_neg (by simpa using h)]
    rfl
  | a :: w, hw => by
    have h := not_prefix (s := s) hid hc hw
    have hw' : ¬ p <:+: w := fun hh => hw (hh.trans (List.suffix_cons a w).isInfix)
    simp only [List.cons_append] at h ⊢
    simp only [find]
    rw [if_neg (by simpa using h), find_skip hp hid hc s hw']
    cases find p s with
    | none => rfl
    | some i => simp only [Option.map_some, List.length_cons]; congr 1

/-- No identifier contains the placeholder: it does not occur in the text. -/
theorem find_glue_none {p : Str} (hp : p ≠ []) (hid : ∀ a ∈ p, isIdent a = true) :
    ∀ (ws : List Str) (cs : List Char), (∀ c ∈ cs, isIdent c = false) → (∀ w ∈ ws, ¬ p <:+: w) →
      find p (glue ws cs) = none
  | [], cs, _, _ => by
    rw [show glue [] cs = [] by simp [glue]]
    exact find_none hp (by simpa using hp)
  | w :: ws, [], _, hw => by
    rw [show glue (w :: ws) [] = w by simp [glue]]
    exact find_none hp (hw w (by simp))
  | w :: ws, c :: cs, hc, hw => by
    rw [show glue (w :: ws) (c :: cs) = w ++ c :: glue ws cs by simp [glue],
      find_skip hp hid (hc c (by simp)) _ (hw w (by simp)),
      find_glue_none hp hid ws cs (fun x hx => hc x (by simp [hx])) (fun x hx => hw x (by simp [hx]))]
    rfl

/-- One replacement changes the first identifier that is the placeholder. -/
theorem replaceAt_glue {p : Str} (hp : p ≠ []) (hid : ∀ a ∈ p, isIdent a = true) (r : Str) (b : List Str) :
    ∀ (a : List Str) (cs : List Char), (∀ c ∈ cs, isIdent c = false) → (a ++ p :: b).length = cs.length + 1 →
      (∀ w ∈ a, ¬ p <:+: w) →
      ∃ i, find p (glue (a ++ p :: b) cs) = some i ∧
        replaceAt (glue (a ++ p :: b) cs) (some i) p.length r = .ok (glue (a ++ r :: b) cs)
  | [], [], _, hl, _ => by
    refine ⟨0, ?_, ?_⟩
    · have := find_self p []
      simpa [glue] using this
    · simp [glue, replaceAt]
  | [], c :: cs, _, hl, _ => by
    refine ⟨0, ?_, ?_⟩
    · exact find_self p (c :: glue b cs)
    · simp [glue, replaceAt]
  | w :: a, [], _, hl, _ => by simp at hl
  | w :: a, c :: cs, hc, hl, hw => by
    obtain ⟨i, h1, h2⟩ := replaceAt_glue hp hid r b a cs (fun x hx => hc x (by simp [hx])) (by simpa using hl)
      (fun x hx => hw x (by simp [hx]))
    refine ⟨i + (w.length + 1), ?_, ?_⟩
    · rw [show glue (w :: a ++ p :: b) (c :: cs) = w ++ c :: glue (a ++ p :: b) cs by simp [glue],
        find_skip hp hid (hc c (by simp)) _ (hw w (by simp)), h1]
      rfl
    · rw [show glue (w :: a ++ p :: b) (c :: cs) = w ++ c :: glue (a ++ p :: b) cs by simp [glue],
        show glue (w :: a ++ r :: b) (c :: cs) = w ++ c :: glue (a ++ r :: b) cs by simp [glue]]
      simp only [replaceAt] at h2 ⊢
      split at h2
      · cases h2
      rename_i hlt
      rw [if_neg (by simp; omega)]
      congr 1
      have h3 := Res.ok.inj h2
      rw [← h3]
      have e1 : (w ++ c :: glue (a ++ p :: b) cs).take (i + (w.length + 1)) =
          w ++ c :: (glue (a ++ p :: b) cs).take i := by
        rw [List.take_append, List.take_of_length_le (by omega),
          show i + (w.length + 1) - w.length = i + 1 by omega, List.take_succ_cons]
      have e2 : (w ++ c :: glue (a ++ p :: b) cs).drop (i + (w.length + 1) + p.length) =
          (glue (a ++ p :: b) cs).drop (i + p.length) := by
        rw [List.drop_append, List.drop_eq_nil_of_le (by omega),
          show i + (w.length + 1) + p.length - w.length = (i + p.length) + 1 by omega, List.drop_succ_cons]
        rfl
      rw [e1, e2]
      simp

/-! ## Replacing -/

theorem replaceAll_glue {p r : Str} (hp : p ≠ []) (hid : ∀ a ∈ p, isIdent a = true) (hr : ¬ p <:+: r) (cs : List Char)
    (hc : ∀ c ∈ cs, isIdent c = false) : ∀ (n : Nat) (ws : List Str), ws.length = cs.length + 1 →
      (∀ w ∈ ws, p <:+: w → w = p) → ws.count p < n →
      replaceAll n (glue ws cs) p r = some (.ok (glue (ws.map fun w => if w = p then r else w) cs))
  | 0, _, _, _, hn => by omega
  | n + 1, ws, hl, hw, hn => by
    by_cases hm : p ∈ ws
    · obtain ⟨a, b, rfl, ha⟩ := List.eq_append_cons_of_mem hm
      obtain ⟨i, h1, h2⟩ := replaceAt_glue hp hid r b a cs hc hl (fun w hwa hh => ha (hw w (by simp [hwa]) hh ▸ hwa))
      have hrp : r ≠ p := fun h => hr (h ▸ List.infix_refl p)
      simp only [replaceAll, h1, h2]
      rw [replaceAll_glue hp hid hr cs hc n (a ++ r :: b) (by simpa using hl)]
      · congr 3
        simp [hrp]
      · intro w hmem hh
        rcases List.mem_append.1 hmem with h | h
        · exact hw w (by simp [h]) hh
        · rcases List.mem_cons.1 h with h | h
          · exact absurd (h ▸ hh) hr
          · exact hw w (by simp [h]) hh
      · simp only [List.count_append, List.count_cons, beq_self_eq_true, if_true] at hn ⊢
        rw [if_neg (by simpa using hrp)]
        omega
    · have hnone := find_glue_none hp hid ws cs hc (fun w hmem hh => hm (hw w hmem hh ▸ hmem))
      simp only [replaceAll, hnone]
      congr 2
      rw [show (ws.map fun w => if w = p then r else w) = ws from by
        refine (List.map_congr_left (g := id) fun w hmem => ?_).trans (List.map_id ws)
        exact if_neg fun h : w = p => hm (h ▸ hmem)]

theorem replaceOnce_glue {p r : Str} (hp : p ≠ []) (hid : ∀ a ∈ p, isIdent a = true) (cs : List Char)
    (hc : ∀ c ∈ cs, isIdent c = false) (ws : List Str) (hl : ws.length = cs.length + 1)
    (hw : ∀ w ∈ ws, p <:+: w → w = p) (hn : ws.count p = 1) :
    replaceOnce (glue ws cs) p r = .ok (glue (ws.map fun w => if w = p then r else w) cs) := by
  have hm : p ∈ ws := List.count_pos_iff.1 (by omega)
  obtain ⟨a, b, rfl, ha⟩ := List.eq_append_cons_of_mem hm
  obtain ⟨i, h1, h2⟩ := replaceAt_glue hp hid r b a cs hc hl (fun w hwa hh => ha (hw w (by simp [hwa]) hh ▸ hwa))
  have hb : p ∉ b := by
    simp only [List.count_append, List.count_cons, beq_self_eq_true, if_true] at hn
    exact List.count_eq_zero.1 (by omega)
  simp only [replaceOnce, h1, h2]
  congr 2
  simp only [List.map_append, List.map_cons, if_true]
  congr 1
  · refine ((List.map_congr_left (g := id) fun w hmem => ?_).trans (List.map_id a)).symm
    exact if_neg fun h : w = p => ha (h ▸ hmem)
  · congr 1
    refine ((List.map_congr_left (g := id) fun w hmem => ?_).trans (List.map_id b)).symm
    exact if_neg fun h : w = p => hb (h ▸ hmem)

theorem value_cons (p r : Str) (σ : List (Str × Str)) (w : Str) :
    value ((p, r) :: σ) w = if w = p then r else value σ w := by
  unfold value
  by_cases h : w = p
  · subst h; simp
  · rw [List.lookup_cons, if_neg h]
    have : (w == p) = false := by simpa using h
    rw [this]

theorem value_free {σ : List (Str × Str)} {v : Str} (h : ∀ q ∈ σ, ¬ q.1 <:+: v) : value σ v = v := by
  induction σ with
  | nil => rfl
  | cons q σ ih =>
    obtain ⟨p, r⟩ := q
    rw [value_cons, if_neg, ih fun q hq => h q (by simp [hq])]
    intro hv
    exact h (p, r) (by simp) (hv ▸ List.infix_refl _)

/-- A placeholder is a non-empty identifier. -/
def IsKey (p : Str) : Prop := p ≠ [] ∧ ∀ a ∈ p, isIdent a = true

instance (p : Str) : Decidable (IsKey p) := by unfold IsKey; infer_instance

theorem replaceEach_glue (cs : List Char) (hc : ∀ c ∈ cs, isIdent c = false) (n : Nat) : ∀ (σ : List (Str × Str))
    (ws : List Str), ws.length = cs.length + 1 → (∀ q ∈ σ, IsKey q.1) → (∀ w ∈ ws, ∀ q ∈ σ, q.1 <:+: w → w = q.1) →
      (∀ q ∈ σ, ∀ q' ∈ σ, ¬ q'.1 <:+: q.2) → ws.length < n →
      replaceEach n σ (glue ws cs) = some (.ok (glue (ws.map (value σ)) cs))
  | [], ws, _, _, _, _, _ => by
    simp only [replaceEach]
    congr 2
    rw [show value [] = id from rfl, List.map_id]
  | (p, r) :: σ, ws, hl, hk, hw, hv, hn => by
    have hcount : ws.count p < n := lt_of_le_of_lt List.count_le_length hn
    obtain ⟨hp, hid⟩ := hk (p, r) (by simp)
    have h1 := replaceAll_glue hp hid (hv (p, r) (by simp) (p, r) (by simp)) cs hc n ws hl
      (fun w hmem => hw w hmem (p, r) (by simp)) hcount
    simp only [replaceEach, h1]
    rw [replaceEach_glue cs hc n σ _ (by simpa using hl) (fun q hq => hk q (by simp [hq])) ?_
      (fun q hq q' hq' => hv q (by simp [hq]) q' (by simp [hq'])) (by simpa using hn)]
    · rw [List.map_map]
      congr 3
      refine List.map_congr_left fun w _ => ?_
      simp only [Function.comp, value_cons]
      split
      · exact value_free fun q hq => hv (p, r) (by simp) q (by simp [hq])
      · rfl
    · intro w hmem q hq hh
      obtain ⟨w', hw', rfl⟩ := List.mem_map.1 hmem
      by_cases h : w' = p
      · rw [if_pos h] at hh
        exact absurd hh (hv (p, r) (by simp) q (by simp [hq]))
      · rw [if_neg h] at hh ⊢
        exact hw w' hw' q (by simp [hq]) hh

theorem onceEach_glue (cs : List Char) (hc : ∀ c ∈ cs, isIdent c = false) : ∀ (σ : List (Str × Str))
    (ws : List Str), ws.length = cs.length + 1 → (∀ q ∈ σ, IsKey q.1) → (∀ w ∈ ws, ∀ q ∈ σ, q.1 <:+: w → w = q.1) →
      σ.Pairwise (fun q q' => ¬ q'.1 <:+: q.2 ∧ q'.1 ≠ q.1) → (∀ q ∈ σ, ws.count q.1 = 1) →
      onceEach σ (glue ws cs) = .ok (glue (ws.map (value σ)) cs)
  | [], ws, _, _, _, _, _ => by
    simp only [onceEach]
    congr 1
    rw [show value [] = id from rfl, List.map_id]
  | (p, r) :: σ, ws, hl, hk, hw, hv, hn => by
    obtain ⟨hp, hid⟩ := hk (p, r) (by simp)
    obtain ⟨hv1, hv2⟩ := List.pairwise_cons.1 hv
    have h1 := replaceOnce_glue (r := r) hp hid cs hc ws hl (fun w hmem => hw w hmem (p, r) (by simp)) (hn (p, r) (by simp))
    simp only [onceEach, h1, Res.ok_bind]
    rw [onceEach_glue cs hc σ _ (by simpa using hl) (fun q hq => hk q (by simp [hq])) ?_ hv2 ?_]
    · rw [List.map_map]
      congr 2
      refine List.map_congr_left fun w _ => ?_
      simp only [Function.comp, value_cons]
      split
      · exact value_free fun q hq => (hv1 q hq).1
      · rfl
    · intro w hmem q hq hh
      obtain ⟨w', hw', rfl⟩ := List.mem_map.1 hmem
      by_cases h : w' = p
      · rw [if_pos h] at hh
        exact absurd hh (hv1 q hq).1
      · rw [if_neg h] at hh ⊢
        exact hw w' hw' q (by simp [hq]) hh
    · intro q hq
      rw [← hn q (by simp [hq]), List.count, List.countP_map]
      refine List.countP_congr fun w _ => ?_
      simp only [Function.comp, beq_iff_eq]
      constructor
      · intro h
        split at h
        · exact absurd (h ▸ List.infix_refl _) (hv1 q hq).1
        · exact h
      · intro h
        rw [if_neg (fun h' => (hv1 q hq).2 (h.symm.trans h')), h]

theorem value_append {σ τ : List (Str × Str)} (hv : ∀ q ∈ σ, ∀ q' ∈ τ, ¬ q'.1 <:+: q.2) (w : Str) :
    value τ (value σ w) = value (σ ++ τ) w := by
  induction σ with
  | nil => rfl
  | cons q σ ih =>
    obtain ⟨p, r⟩ := q
    rw [List.cons_append, value_cons, value_cons]
    split
    · exact value_free fun q' hq' => hv (p, r) (by simp) q' hq'
    · exact ih fun q hq => hv q (by simp [hq])

/-- The texts of all sizes consist of digits. -/
theorem toStr_free {n : Nat} {k : Str} (h : ∃ c ∈ k, c.isDigit = false) : ¬ k <:+: toStr n := by
  intro hk
  obtain ⟨c, hc, hd⟩ := h
  have hmem : c ∈ toStr n := hk.subset hc
  have : c ∈ Nat.toDigits 10 n := by
    simpa [toStr, ToString.toString, Nat.repr] using hmem
  rw [Nat.isDigit_of_mem_toDigits (by omega) (by omega) this] at hd
  cases hd

/-! ## C178 -/

/-- **C178**, any template.  `names` are the placeholders replaced everywhere, `once` those replaced a single time, one after
the other.  If in the template a placeholder occurs only as a whole identifier, if the placeholders `once` occur exactly once,
and if no replacement brings in a placeholder that is still to be searched, then the work ends and the result is the template
with every placeholder replaced by its value at the same time; nothing else changes. -/
theorem C178_template {names once : List (Str × Str)} {t : Str}
    (hkey : ∀ q ∈ names ++ once, q.1 ≠ [] ∧ ∀ a ∈ q.1, isIdent a = true)
    (ht : IsTemplate ((names ++ once).map Prod.fst) (once.map Prod.fst) t)
    (hnames : ∀ q ∈ names, FreeOf ((names ++ once).map Prod.fst) q.2)
    (honce : once.Pairwise fun q q' => ¬ q'.1 <:+: q.2 ∧ q'.1 ≠ q.1)
    (hdisj : ∀ q ∈ once, q.1 ∉ names.map Prod.fst) :
    ∃ N, ∀ n, N ≤ n → fillFile n names once t = some (.ok (substitute (names ++ once) t)) := by
  obtain ⟨ht1, ht2⟩ := ht
  refine ⟨(split t).1.length + 1, fun n hn => ?_⟩
  have hl := split_length t
  have hc := split_sep t
  have hfree : ∀ q ∈ names, ∀ q' ∈ names ++ once, ¬ q'.1 <:+: q.2 := fun q hq q' hq' =>
    hnames q hq q'.1 (List.mem_map_of_mem hq')
  have hwords : ∀ w ∈ (split t).1, ∀ q ∈ names ++ once, q.1 <:+: w → w = q.1 := fun w hw q hq =>
    ht1 w hw q.1 (List.mem_map_of_mem hq)
  have h1 := replaceEach_glue _ hc n names _ hl (fun q hq => hkey q (by simp [hq]))
    (fun w hw q hq => hwords w hw q (by simp [hq])) (fun q hq q' hq' => hfree q hq q' (by simp [hq'])) (by omega)
  rw [glue_split] at h1
  simp only [fillFile, h1]
  have hval : ∀ w q, q ∈ names ++ once → q.1 <:+: value names w → value names w = w := by
    intro w q hq hin
    unfold value at hin ⊢
    cases hlook : names.lookup w with
    | none => rfl
    | some v =>
      rw [hlook] at hin
      obtain ⟨k, hk⟩ : ∃ k, (k, v) ∈ names := by
        clear hin hfree hwords hkey ht1 h1 hnames hdisj hq
        induction names with
        | nil => cases hlook
        | cons a l ih =>
          rw [List.lookup_cons] at hlook
          split at hlook
          · cases hlook; exact ⟨a.1, by simp⟩
          · obtain ⟨k, hk⟩ := ih hlook
            exact ⟨k, by simp [hk]⟩
      exact absurd hin (hfree _ hk q hq)
  rw [onceEach_glue _ hc once _ (by simpa using hl) (fun q hq => hkey q (by simp [hq])) ?_ honce ?_]
  · rw [substitute, List.map_map]
    congr 3
    refine List.map_congr_left fun w _ => ?_
    exact value_append (fun q hq q' hq' => hfree q hq q' (by simp [hq'])) w
  · intro w hmem q hq hh
    obtain ⟨w', hw', rfl⟩ := List.mem_map.1 hmem
    have hv := hval w' q (by simp [hq]) hh
    rw [hv] at hh ⊢
    exact hwords w' hw' q (by simp [hq]) hh
  · intro q hq
    rw [← ht2 q.1 (List.mem_map_of_mem hq)]
    rw [identifiers, List.count, List.countP_map]
    refine List.countP_congr fun w _ => ?_
    simp only [Function.comp, beq_iff_eq]
    constructor
    · intro h
      rw [← hval w q (by simp [hq]) (h ▸ List.infix_refl _), h]
    · rintro rfl
      unfold value
      have : names.lookup q.1 = none := by
        rw [List.lookup_eq_none_iff]
        intro a ha
        have hne : a.1 ≠ q.1 := fun h => hdisj q hq (h ▸ List.mem_map_of_mem ha)
        simpa using fun h => hne h.symm
      rw [this]; rfl

/-- The placeholders of the derivative templates. -/
def derivKeys : List Str :=
  ["DERIVATIVE_NAME".toList, "NS1".toList, "NS2".toList, "IN_DIM".toList, "OUT_DIM".toList, "MAX_COUNT".toList,
    "AUTOGENERATED_CODE_PLACEHOLDER".toList]

/-- The placeholders of the linear system templates. -/
def systemKeys : List Str :=
  ["LINEAR_SYSTEM_NAME".toList, "NS1".toList, "NS2".toList, "STATE_DIM".toList, "CONTROL_DIM".toList, "SCALAR".toList,
    "MAX_COUNT_STATE".toList, "MAX_COUNT_CONTROL".toList, "AUTOGENERATED_CODE_PLACEHOLDER_JAC_A".toList,
    "AUTOGENERATED_CODE_PLACEHOLDER_JAC_B".toList]

theorem IsTemplate.mono {keys keys' once once' : List Str} {t : Str} (h : IsTemplate keys once t) (h1 : keys' ⊆ keys)
    (h2 : once' ⊆ once) : IsTemplate keys' once' t :=
  ⟨fun w hw k hk => h.1 w hw k (h1 hk), fun k hk => h.2 k (h2 hk)⟩

theorem FreeOf.mono {keys keys' : List Str} {v : Str} (h : FreeOf keys v) (h1 : keys' ⊆ keys) : FreeOf keys' v :=
  fun k hk => h k (h1 hk)

theorem digits_free {keys : List Str} (h : ∀ k ∈ keys, ∃ c ∈ k, c.isDigit = false) (n : Nat) : FreeOf keys (toStr n) :=
  fun k hk => toStr_free (h k hk)

/-- **C178**, the derivative classes.  For the shipped templates of the Jacobian, the Hessian and the function itself, and for
every class name and namespace in which no placeholder occurs, code generation ends and writes two files, `name.h` and
`name.cpp`; they are the templates with the class name, the namespaces, the sizes, the number of temporary variables and the
generated code in the place of the placeholders, and are otherwise unchanged. -/
theorem C178_derivative {tplH tplCpp : Str}
    (htpl : (tplH, tplCpp) ∈ [(Tpl.jacobianH, Tpl.jacobianCpp), (Tpl.hessianH, Tpl.hessianCpp),
      (Tpl.forwardZeroH, Tpl.forwardZeroCpp)])
    (dir name ns1 ns2 : Str) (inDim outDim : Nat) (code : Str) (tmp : Nat)
    (hname : FreeOf derivKeys name) (hns1 : FreeOf derivKeys ns1) (hns2 : FreeOf derivKeys ns2) :
    ∃ N, ∀ n, N ≤ n → writeDerivative n tplH tplCpp dir name ns1 ns2 inDim outDim code tmp =
      some (.ok [
        (dir ++ "/".toList ++ name ++ ".h".toList,
          substitute [("DERIVATIVE_NAME".toList, name), ("NS1".toList, ns1), ("NS2".toList, ns2),
            ("IN_DIM".toList, (toString inDim).toList), ("OUT_DIM".toList, (toString outDim).toList),
            ("MAX_COUNT".toList, (toString tmp).toList)] tplH),
        (dir ++ "/".toList ++ name ++ ".cpp".toList,
          substitute [("DERIVATIVE_NAME".toList, name), ("NS1".toList, ns1), ("NS2".toList, ns2),
            ("IN_DIM".toList, (toString inDim).toList), ("OUT_DIM".toList, (toString outDim).toList),
            ("AUTOGENERATED_CODE_PLACEHOLDER".toList, code)] tplCpp)]) := by
  have hT : IsTemplate derivKeys ["MAX_COUNT".toList] tplH ∧ IsTemplate derivKeys [codeKey] tplCpp := by
    simp only [List.mem_cons, Prod.mk.injEq, List.not_mem_nil, or_false] at htpl
    rcases htpl with ⟨rfl, rfl⟩ | ⟨rfl, rfl⟩ | ⟨rfl, rfl⟩ <;> constructor <;> decide +kernel
  have hdig : ∀ m, FreeOf derivKeys (toStr m) := digits_free (by decide +kernel)
  have hfree : ∀ q ∈ derivNames name ns1 ns2 inDim outDim, FreeOf derivKeys q.2 := by
    intro q hq
    simp only [derivNames, List.mem_cons, List.not_mem_nil, or_false] at hq
    rcases hq with rfl | rfl | rfl | rfl | rfl
    · exact hname
    · exact hns1
    · exact hns2
    · exact hdig _
    · exact hdig _
  have hkeys : ∀ v, (derivNames name ns1 ns2 inDim outDim ++ [("MAX_COUNT".toList, v)]).map Prod.fst ⊆ derivKeys ∧
      (derivNames name ns1 ns2 inDim outDim ++ [(codeKey, v)]).map Prod.fst ⊆ derivKeys := by
    intro v
    simp only [derivNames, List.map_append, List.map_cons, List.map_nil]
    constructor <;> decide +kernel
  have hid : ∀ k ∈ derivKeys, IsKey k := by decide +kernel
  obtain ⟨N1, h1⟩ := C178_template (names := derivNames name ns1 ns2 inDim outDim)
    (once := [("MAX_COUNT".toList, toStr tmp)]) (t := tplH)
    (fun q hq => hid q.1 ((hkeys _).1 (List.mem_map_of_mem hq))) (hT.1.mono (hkeys _).1 (by simp))
    (fun q hq => (hfree q hq).mono (hkeys _).1) (by simp)
    (by simp only [derivNames, List.map_cons, List.map_nil, List.mem_singleton, forall_eq]; decide +kernel)
  obtain ⟨N2, h2⟩ := C178_template (names := derivNames name ns1 ns2 inDim outDim)
    (once := [(codeKey, code)]) (t := tplCpp)
    (fun q hq => hid q.1 ((hkeys _).2 (List.mem_map_of_mem hq))) (hT.2.mono (hkeys _).2 (by simp))
    (fun q hq => (hfree q hq).mono (hkeys _).2) (by simp)
    (by simp only [derivNames, List.map_cons, List.map_nil, List.mem_singleton, forall_eq]; decide +kernel)
  refine ⟨max N1 N2, fun n hn => ?_⟩
  rw [writeDerivative, h1 n (le_trans (le_max_left _ _) hn), h2 n (le_trans (le_max_right _ _) hn)]
  rfl

/-- The names of the tests meet the hypotheses of `C178_derivative`. -/
example : FreeOf derivKeys "TestJacobian".toList ∧ FreeOf derivKeys "core".toList ∧ FreeOf derivKeys "generated".toList := by
  decide +kernel

private theorem system_fill (name scalar ns1 ns2 : Str) (stateDim controlDim : Nat) (once : List (Str × Str)) (t : Str)
    (hname : FreeOf systemKeys name) (hscalar : FreeOf systemKeys scalar) (hns1 : FreeOf systemKeys ns1)
    (hns2 : FreeOf systemKeys ns2) (hk : once.map Prod.fst ⊆ systemKeys.drop 6)
    (ht : IsTemplate systemKeys (once.map Prod.fst) t)
    (hpw : once.Pairwise fun q q' => ¬ q'.1 <:+: q.2 ∧ q'.1 ≠ q.1) :
    ∃ N, ∀ n, N ≤ n → fillFile n (systemNames name scalar ns1 ns2 stateDim controlDim) once t =
      some (.ok (substitute (systemNames name scalar ns1 ns2 stateDim controlDim ++ once) t)) := by
  have hdig : ∀ m, FreeOf systemKeys (toStr m) := digits_free (by decide +kernel)
  have hfree : ∀ q ∈ systemNames name scalar ns1 ns2 stateDim controlDim, FreeOf systemKeys q.2 := by
    intro q hq
    simp only [systemNames, List.mem_cons, List.not_mem_nil, or_false] at hq
    rcases hq with rfl | rfl | rfl | rfl | rfl | rfl
    · exact hname
    · exact hns1
    · exact hns2
    · exact hdig _
    · exact hdig _
    · exact hscalar
  have hfst : (systemNames name scalar ns1 ns2 stateDim controlDim).map Prod.fst = systemKeys.take 6 := rfl
  have hsub : (systemNames name scalar ns1 ns2 stateDim controlDim ++ once).map Prod.fst ⊆ systemKeys := by
    rw [List.map_append, hfst]
    exact List.append_subset.2 ⟨List.take_subset _ _, fun k h => List.drop_subset _ _ (hk h)⟩
  have hid : ∀ k ∈ systemKeys, IsKey k := by decide +kernel
  have hdisj : ∀ k ∈ systemKeys.drop 6, k ∉ systemKeys.take 6 := by decide +kernel
  refine C178_template (fun q hq => hid q.1 (hsub (List.mem_map_of_mem hq))) (ht.mono hsub (List.Subset.refl _))
    (fun q hq => (hfree q hq).mono hsub) hpw ?_
  intro q hq
  rw [hfst]
  exact hdisj q.1 (hk (List.mem_map_of_mem hq))

private theorem header_once (a b : Nat) : (tmpCounts a b).Pairwise fun q q' => ¬ q'.1 <:+: q.2 ∧ q'.1 ≠ q.1 := by
  simp only [tmpCounts, List.pairwise_cons, List.mem_cons, List.not_mem_nil, or_false, forall_eq, IsEmpty.forall_iff,
    implies_true, List.Pairwise.nil, and_true]
  exact ⟨toStr_free (by decide +kernel), by decide +kernel⟩

/-- **C178**, the linear system of a continuous-time system.  For every class name and namespace in which no placeholder
occurs, and generated code for the state Jacobian that does not contain the placeholder of the other Jacobian, two files are
written: the shipped templates with every placeholder replaced. -/
theorem C178_linear_system (dir name scalar ns1 ns2 : Str) (stateDim controlDim : Nat) (codeA codeB : Str)
    (tmpState tmpControl : Nat) (hname : FreeOf systemKeys name) (hscalar : scalar = "double".toList ∨ scalar = "float".toList)
    (hns1 : FreeOf systemKeys ns1) (hns2 : FreeOf systemKeys ns2)
    (hcode : ¬ "AUTOGENERATED_CODE_PLACEHOLDER_JAC_B".toList <:+: codeA) :
    ∃ N, ∀ n, N ≤ n → writeLinearSystem n Tpl.linearSystemH Tpl.linearSystemCpp dir name scalar ns1 ns2 stateDim controlDim
        codeA codeB tmpState tmpControl =
      some (.ok [
        (dir ++ "/".toList ++ name ++ ".h".toList,
          substitute [("LINEAR_SYSTEM_NAME".toList, name), ("NS1".toList, ns1), ("NS2".toList, ns2),
            ("STATE_DIM".toList, (toString stateDim).toList), ("CONTROL_DIM".toList, (toString controlDim).toList),
            ("SCALAR".toList, scalar), ("MAX_COUNT_STATE".toList, (toString tmpState).toList),
            ("MAX_COUNT_CONTROL".toList, (toString tmpControl).toList)] Tpl.linearSystemH),
        (dir ++ "/".toList ++ name ++ ".cpp".toList,
          substitute [("LINEAR_SYSTEM_NAME".toList, name), ("NS1".toList, ns1), ("NS2".toList, ns2),
            ("STATE_DIM".toList, (toString stateDim).toList), ("CONTROL_DIM".toList, (toString controlDim).toList),
            ("SCALAR".toList, scalar), (codeKey ++ "_JAC_A".toList, codeA),
            (codeKey ++ "_JAC_B".toList, codeB)] Tpl.linearSystemCpp)]) := by
  have hs : FreeOf systemKeys scalar := by rcases hscalar with rfl | rfl <;> decide +kernel
  obtain ⟨N1, h1⟩ := system_fill name scalar ns1 ns2 stateDim controlDim (tmpCounts tmpState tmpControl) Tpl.linearSystemH
    hname hs hns1 hns2 (by simp only [tmpCounts, List.map_cons, List.map_nil]; decide +kernel)
    (by simp only [tmpCounts, List.map_cons, List.map_nil]; decide +kernel) (header_once _ _)
  obtain ⟨N2, h2⟩ := system_fill name scalar ns1 ns2 stateDim controlDim
    [(codeKey ++ "_JAC_A".toList, codeA), (codeKey ++ "_JAC_B".toList, codeB)] Tpl.linearSystemCpp
    hname hs hns1 hns2 (by simp only [List.map_cons, List.map_nil]; decide +kernel)
    (by simp only [List.map_cons, List.map_nil]; decide +kernel)
    (by
      simp only [List.pairwise_cons, List.mem_cons, List.not_mem_nil, or_false, forall_eq, IsEmpty.forall_iff,
        implies_true, List.Pairwise.nil, and_true]
      have e : codeKey ++ "_JAC_B".toList = "AUTOGENERATED_CODE_PLACEHOLDER_JAC_B".toList := by decide +kernel
      exact ⟨e ▸ hcode, by decide +kernel⟩)
  refine ⟨max N1 N2, fun n hn => ?_⟩
  rw [writeLinearSystem, h1 n (le_trans (le_max_left _ _) hn), h2 n (le_trans (le_max_right _ _) hn)]
  rfl

/-- **C178**, the linear system of a discrete-time system: three files, for any generated code. -/
theorem C178_discrete_linear_system (dir name scalar ns1 ns2 : Str) (stateDim controlDim : Nat) (codeA codeB : Str)
    (tmpState tmpControl : Nat) (hname : FreeOf systemKeys name) (hscalar : scalar = "double".toList ∨ scalar = "float".toList)
    (hns1 : FreeOf systemKeys ns1) (hns2 : FreeOf systemKeys ns2) :
    ∃ N, ∀ n, N ≤ n → writeDiscreteLinearSystem n Tpl.discreteH Tpl.discreteA Tpl.discreteB dir name scalar ns1 ns2 stateDim
        controlDim codeA codeB tmpState tmpControl =
      some (.ok [
        (dir ++ "/".toList ++ name ++ ".h".toList,
          substitute [("LINEAR_SYSTEM_NAME".toList, name), ("NS1".toList, ns1), ("NS2".toList, ns2),
            ("STATE_DIM".toList, (toString stateDim).toList), ("CONTROL_DIM".toList, (toString controlDim).toList),
            ("SCALAR".toList, scalar), ("MAX_COUNT_STATE".toList, (toString tmpState).toList),
            ("MAX_COUNT_CONTROL".toList, (toString tmpControl).toList)] Tpl.discreteH),
        (dir ++ "/".toList ++ name ++ "_A.cpp".toList,
          substitute [("LINEAR_SYSTEM_NAME".toList, name), ("NS1".toList, ns1), ("NS2".toList, ns2),
            ("STATE_DIM".toList, (toString stateDim).toList), ("CONTROL_DIM".toList, (toString controlDim).toList),
            ("SCALAR".toList, scalar), (codeKey ++ "_JAC_A".toList, codeA)] Tpl.discreteA),
        (dir ++ "/".toList ++ name ++ "_B.cpp".toList,
          substitute [("LINEAR_SYSTEM_NAME".toList, name), ("NS1".toList, ns1), ("NS2".toList, ns2),
            ("STATE_DIM".toList, (toString stateDim).toList), ("CONTROL_DIM".toList, (toString controlDim).toList),
            ("SCALAR".toList, scalar), (codeKey ++ "_JAC_B".toList, codeB)] Tpl.discreteB)]) := by
  have hs : FreeOf systemKeys scalar := by rcases hscalar with rfl | rfl <;> decide +kernel
  obtain ⟨N1, h1⟩ := system_fill name scalar ns1 ns2 stateDim controlDim (tmpCounts tmpState tmpControl) Tpl.discreteH
    hname hs hns1 hns2 (by simp only [tmpCounts, List.map_cons, List.map_nil]; decide +kernel)
    (by simp only [tmpCounts, List.map_cons, List.map_nil]; decide +kernel) (header_once _ _)
  obtain ⟨N2, h2⟩ := system_fill name scalar ns1 ns2 stateDim controlDim
    [(codeKey ++ "_JAC_A".toList, codeA)] Tpl.discreteA
    hname hs hns1 hns2 (by simp only [List.map_cons, List.map_nil]; decide +kernel)
    (by simp only [List.map_cons, List.map_nil]; decide +kernel) (by simp)
  obtain ⟨N3, h3⟩ := system_fill name scalar ns1 ns2 stateDim controlDim
    [(codeKey ++ "_JAC_B".toList, codeB)] Tpl.discreteB
    hname hs hns1 hns2 (by simp only [List.map_cons, List.map_nil]; decide +kernel)
    (by simp only [List.map_cons, List.map_nil]; decide +kernel) (by simp)
  refine ⟨max N1 (max N2 N3), fun n hn => ?_⟩
  rw [writeDiscreteLinearSystem, h1 n (le_trans (le_max_left _ _) hn),
    h2 n (le_trans (le_trans (le_max_left _ _) (le_max_right _ _)) hn),
    h3 n (le_trans (le_trans (le_max_right _ _) (le_max_right _ _)) hn)]
  rfl

/-- The names used for the linear systems in the tests meet the hypotheses of the two theorems above. -/
example : FreeOf systemKeys "TestNonlinearSystemLinearized".toList ∧ FreeOf systemKeys "core".toList ∧
    FreeOf systemKeys "generated".toList ∧ ¬ "AUTOGENERATED_CODE_PLACEHOLDER_JAC_B".toList <:+: "jac[0] = 1;".toList := by
  decide +kernel

/-! ## Where the property fails -/

theorem find_some {p : Str} : ∀ {t : Str}, p <:+: t → ∃ i, find p t = some i ∧ i ≤ t.length
  | [], h => by
    have : p = [] := by simpa using h
    subst this
    exact ⟨0, by simp [find], by simp⟩
  | c :: t, h => by
    by_cases hp : p <+: c :: t
    · exact ⟨0, by simp only [find]; rw [if_pos (by simpa using hp)], by simp⟩
    · have h' : p <:+: t := (List.infix_cons_iff.1 h).resolve_left hp
      obtain ⟨i, h1, h2⟩ := find_some h'
      refine ⟨i + 1, ?_, by simpa using h2⟩
      simp only [find]
      rw [if_neg (by simpa using hp), h1]; rfl

/-- A replacement that contains the placeholder: the loop never ends. -/
theorem replaceAll_endless {p r : Str} (hr : p <:+: r) : ∀ (n : Nat) {t : Str}, p <:+: t → replaceAll n t p r = none
  | 0, _, _ => rfl
  | n + 1, t, h => by
    obtain ⟨i, h1, h2⟩ := find_some h
    simp only [replaceAll, h1, replaceAt, if_neg (Nat.not_lt.2 h2)]
    refine replaceAll_endless hr n (hr.trans ?_)
    exact ⟨t.take i, t.drop (i + p.length), by simp⟩

/-- **C178** fails for a class name that contains the placeholder for the class name (for example `LINEAR_SYSTEM_NAME_2`):
whatever the other arguments, code generation never ends; nothing is written. -/
theorem C178_endless_violated (dir name scalar ns1 ns2 : Str) (stateDim controlDim : Nat) (codeA codeB : Str)
    (tmpState tmpControl : Nat) (h : "LINEAR_SYSTEM_NAME".toList <:+: name) :
    ∀ n, writeLinearSystem n Tpl.linearSystemH Tpl.linearSystemCpp dir name scalar ns1 ns2 stateDim controlDim
        codeA codeB tmpState tmpControl = none ∧
      writeDiscreteLinearSystem n Tpl.discreteH Tpl.discreteA Tpl.discreteB dir name scalar ns1 ns2 stateDim controlDim
        codeA codeB tmpState tmpControl = none := by
  intro n
  have key : ∀ t : Str, "LINEAR_SYSTEM_NAME".toList <:+: t → ∀ once,
      fillFile n (systemNames name scalar ns1 ns2 stateDim controlDim) once t = none := by
    intro t ht once
    simp only [fillFile, systemNames, replaceEach, replaceAll_endless h n ht]
  constructor
  · rw [writeLinearSystem, key Tpl.linearSystemH (by decide +kernel)]; rfl
  · rw [writeDiscreteLinearSystem, key Tpl.discreteH (by decide +kernel)]; rfl

/-- The hypothesis is met. -/
example : "LINEAR_SYSTEM_NAME".toList <:+: "LINEAR_SYSTEM_NAME_2".toList := by decide +kernel

/-- The text of the clash below: the generated source includes a header that is not written. -/
private def clash : Option (Res (List File)) :=
  writeDerivative 40 Tpl.jacobianH Tpl.jacobianCpp "/tmp".toList "NS1Model".toList "core".toList "generated".toList 3 2
    "jac[0] = 1;".toList 0

private def clashOk : Option (Res (List File)) → Bool
  | some (.ok [(p1, header), (p2, source)]) =>
    decide (p1 = "/tmp/NS1Model.h".toList ∧ p2 = "/tmp/NS1Model.cpp".toList ∧
      "#include \"coreModel.h\"".toList <:+: source ∧ "class coreModel ".toList <:+: header ∧
      ¬ "NS1Model".toList <:+: header ++ source)
  | _ => false

/-- **C178** fails for a class name that contains another placeholder.  For the class name `NS1Model` in the namespace `core`
the two files `NS1Model.h` and `NS1Model.cpp` are written, but the text inside them belongs to a class `coreModel`, and the
source includes a header `coreModel.h` that does not exist. -/
theorem C178_clash_violated :
    ∃ header source : Str,
      writeDerivative 40 Tpl.jacobianH Tpl.jacobianCpp "/tmp".toList "NS1Model".toList "core".toList "generated".toList 3 2
          "jac[0] = 1;".toList 0 =
        some (.ok [("/tmp/NS1Model.h".toList, header), ("/tmp/NS1Model.cpp".toList, source)]) ∧
      "#include \"coreModel.h\"".toList <:+: source ∧ "class coreModel ".toList <:+: header ∧
      ¬ "NS1Model".toList <:+: header ++ source := by
  have h : clashOk clash = true := by decide +kernel
  change ∃ header source : Str, clash = _ ∧ _
  revert h
  generalize clash = c
  intro h
  unfold clashOk at h
  split at h
  · obtain ⟨h1, h2, h3⟩ := of_decide_eq_true h
    subst h1 h2
    exact ⟨_, _, rfl, h3⟩
  · cases h

end CT.CodeText
