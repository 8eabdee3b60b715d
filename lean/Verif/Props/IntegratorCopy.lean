import Verif.Model.IntegratorCopy
import Mathlib.Tactic.Common
import Mathlib.Order.Defs.LinearOrder
import Mathlib.Data.Nat.Init
import Mathlib.Algebra.Order.Group.Nat

/-! # C198: integrators and their copies record the trajectories of their systems -/

namespace CT.IntCopy

variable {X T : Type} [Add T]

/-! ### Specification -/

/-- The points after each of `n` steps. -/
def path (doStep : Sys X T → X → T → T → X) (f : Sys X T) (dt : T) : ℕ → X → T → List (X × T)
  | 0, _, _ => []
  | n + 1, x, t => (doStep f x t dt, t + dt) :: path doStep f dt n (doStep f x t dt) (t + dt)

/-- The state after `n` steps. -/
def final (doStep : Sys X T → X → T → T → X) (f : Sys X T) (dt : T) : ℕ → X → T → X
  | 0, x, _ => x
  | n + 1, x, t => final doStep f dt n (doStep f x t dt) (t + dt)

/-- What a program made: the system of an integrator, the integrator made by a constructor it was, maybe through other copies, copied
from, and whether it lives. -/
structure Birth (X T : Type) where
  system : Sys X T
  root : ℕ
  lives : Bool

omit [Add T] in
/-- How operations change that. -/
def births (l : List (Birth X T)) : Op X T → List (Birth X T)
  | .make f => l ++ [⟨f, l.length, true⟩]
  | .copy i => match l[i]? with
    | some ⟨f, r, true⟩ => l ++ [⟨f, r, true⟩]
    | _ => l
  | .destroy i => l.modify i fun b => { b with lives := false }
  | .record .. => l

/-- The integrators made by a program. -/
def made (ops : List (Op X T)) : List (Birth X T) := ops.foldl births []

/-! ### Proofs -/

/-- The objects are those made. -/
structure Rel (h : Heap X T) (l : List (Birth X T)) : Prop where
  len : h.length = l.length
  obj : ∀ (i : ℕ) (f : Sys X T) (r : ℕ), l[i]? = some ⟨f, r, true⟩ → ∃ g, live h i = some ⟨f, r, r, g⟩
  dead : ∀ (i : ℕ) (f : Sys X T) (r : ℕ), l[i]? = some ⟨f, r, false⟩ → live h i = none
  root : ∀ (i : ℕ) (f : Sys X T) (r : ℕ) (b : Bool), l[i]? = some ⟨f, r, b⟩ → ∃ b', l[r]? = some ⟨f, r, b'⟩

omit [Add T] in
theorem live_lt {h : Heap X T} {i : ℕ} {o : Obj X T} (hl : live h i = some o) : i < h.length := by
  by_contra hn
  simp [live, List.getElem?_eq_none (Nat.le_of_not_lt hn)] at hl

omit [Add T] in
theorem live_set {h : Heap X T} {i : ℕ} (hi : i < h.length) (o : Option (Obj X T)) (j : ℕ) :
    live (h.set i o) j = if i = j then o else live h j := by
  unfold live
  rw [List.getElem?_set]
  split
  · next e => subst e; simp [hi]
  · rfl

omit [Add T] in
theorem live_append {h : Heap X T} (o : Obj X T) (j : ℕ) :
    live (h ++ [some o]) j = if j = h.length then some o else live h j := by
  unfold live
  rcases lt_trichotomy j h.length with hj | hj | hj
  · rw [List.getElem?_append_left hj, if_neg hj.ne]
  · subst hj; simp
  · rw [if_neg hj.ne', List.getElem?_append_right hj.le, List.getElem?_eq_none (by simp; omega), List.getElem?_eq_none hj.le]

omit [Add T] in
theorem get_snoc {α : Type} {l : List α} {a b : α} {j : ℕ} (hj : (l ++ [a])[j]? = some b) :
    (l[j]? = some b) ∨ (j = l.length ∧ a = b) := by
  rcases lt_trichotomy j l.length with h | h | h
  · rw [List.getElem?_append_left h] at hj; exact .inl hj
  · subst h; simp at hj; exact .inr ⟨rfl, hj⟩
  · rw [List.getElem?_append_right h.le, List.getElem?_eq_none (by simp; omega)] at hj; cases hj

omit [Add T] in
theorem get_lt {α : Type} {l : List α} {b : α} {j : ℕ} (hj : l[j]? = some b) : j < l.length :=
  (List.getElem?_eq_some_iff.1 hj).1

omit [Add T] in
theorem rel_snoc {h : Heap X T} {l : List (Birth X T)} (hr : Rel h l) (f : Sys X T) (r : ℕ) (g : List (X × T))
    (hroot : r = l.length ∨ ∃ b, l[r]? = some ⟨f, r, b⟩) : Rel (h ++ [some ⟨f, r, r, g⟩]) (l ++ [⟨f, r, true⟩]) := by
  refine ⟨by simp [hr.len], fun i f' r' hi => ?_, fun i f' r' hi => ?_, fun i f' r' b hi => ?_⟩
  · rw [live_append]
    rcases get_snoc hi with hi | ⟨rfl, e⟩
    · rw [if_neg (by rw [hr.len]; exact (get_lt hi).ne)]
      exact hr.obj _ _ _ hi
    · cases e
      exact ⟨g, by rw [if_pos hr.len.symm]⟩
  · rw [live_append]
    rcases get_snoc hi with hi | ⟨rfl, e⟩
    · rw [if_neg (by rw [hr.len]; exact (get_lt hi).ne)]
      exact hr.dead _ _ _ hi
    · cases e
  · rcases get_snoc hi with hi | ⟨rfl, e⟩
    · obtain ⟨b', hb⟩ := hr.root _ _ _ _ hi
      exact ⟨b', by rw [List.getElem?_append_left (get_lt hb)]; exact hb⟩
    · cases e
      rcases hroot with rfl | ⟨b', hb⟩
      · exact ⟨true, by simp⟩
      · exact ⟨b', by rw [List.getElem?_append_left (get_lt hb)]; exact hb⟩

omit [Add T] in
/-- Only the logs change. -/
theorem rel_log {h h' : Heap X T} {l : List (Birth X T)} (hr : Rel h l) (hl : h'.length = h.length)
    (hd : ∀ j, live h j = none → live h' j = none)
    (hs : ∀ j f r g, live h j = some ⟨f, r, r, g⟩ → ∃ g', live h' j = some ⟨f, r, r, g'⟩) : Rel h' l :=
  ⟨hl.trans hr.len, fun i f r hi => by obtain ⟨g, hg⟩ := hr.obj i f r hi; exact hs _ _ _ _ hg,
    fun i f r hi => hd _ (hr.dead i f r hi), hr.root⟩

theorem loop_eq (doStep : Sys X T → X → T → T → X) (o : Obj X T) (dt : T) (f : Sys X T) (r : ℕ) (hs : o.sysThis = r) (ho : o.obsThis = r)
    (n : ℕ) : ∀ (h : Heap X T) (x : X) (t : T) (p q : ℕ) (g : List (X × T)), live h r = some ⟨f, p, q, g⟩ →
    loop doStep o dt n h x t = some (if n = 0 then h else h.set r (some ⟨f, p, q, g ++ path doStep f dt n x t⟩), final doStep f dt n x t) := by
  induction n with
  | zero => intro h x t p q g _; rfl
  | succ n ih =>
    intro h x t p q g hl
    have hr := live_lt hl
    simp only [loop, hs, ho, hl, Option.bind_eq_bind, Option.bind_some]
    rw [ih _ _ _ p q (g ++ [(doStep f x t dt, t + dt)]) (by rw [live_set hr, if_pos rfl])]
    rcases Nat.eq_zero_or_pos n with rfl | hn
    · simp [path, final]
    · simp [hn.ne', path, final]

theorem loop_dead (doStep : Sys X T → X → T → T → X) (o : Obj X T) (dt : T) {n : ℕ} (hn : 0 < n) {h : Heap X T} (x : X) (t : T)
    (hd : live h o.sysThis = none) : loop doStep o dt n h x t = none := by
  obtain ⟨n, rfl⟩ := Nat.exists_eq_succ_of_ne_zero hn.ne'
  simp [loop, hd]

/-- What recording does to the objects and returns. -/
theorem record_cases (doStep : Sys X T → X → T → T → X) {h : Heap X T} {l : List (Birth X T)} (hr : Rel h l) {i : ℕ} {f : Sys X T}
    {r : ℕ} (hi : l[i]? = some ⟨f, r, true⟩) (x : X) (t : T) (n : ℕ) (dt : T) (out : List (X × T)) :
    (r = i → ∃ h', record doStep h i x t n dt out = some (h', path doStep f dt n x t, final doStep f dt n x t) ∧ Rel h' l)
    ∧ (r ≠ i → l[r]? = some ⟨f, r, true⟩ → ∃ h', record doStep h i x t n dt out = some (h', [], final doStep f dt n x t) ∧ Rel h' l)
    ∧ (l[r]? = some ⟨f, r, false⟩ → 0 < n → record doStep h i x t n dt out = none)
    ∧ (n = 0 → ∃ h', record doStep h i x t n dt out = some (h', [], x) ∧ Rel h' l) := by
  obtain ⟨g, hg⟩ := hr.obj _ _ _ hi
  have hlt := live_lt hg
  have key : ∀ (h2 : Heap X T) (x' : X) (g2 : List (X × T)), loop doStep ⟨f, r, r, g⟩ dt n (h.set i (some ⟨f, r, r, []⟩)) x t = some (h2, x') →
      live h2 i = some ⟨f, r, r, g2⟩ → h2.length = h.length →
      (∀ j, j ≠ i → live h j = none → live h2 j = none) →
      (∀ j f' r' g', j ≠ i → live h j = some ⟨f', r', r', g'⟩ → ∃ g'', live h2 j = some ⟨f', r', r', g''⟩) →
      ∃ h', record doStep h i x t n dt out = some (h', g2, x') ∧ Rel h' l := by
    intro h2 x' g2 hlo hl2 hlen hd hs
    refine ⟨h2.set i (some ⟨f, r, r, out⟩), ?_, ?_⟩
    · simp [record, hg, hlo, hl2]
    · refine rel_log hr (by simp [hlen]) (fun j hj => ?_) (fun j f' r' g' hj => ?_)
      · have : j ≠ i := by rintro rfl; rw [hg] at hj; cases hj
        rw [live_set (by omega), if_neg this.symm]
        exact hd j this hj
      · rw [live_set (by omega)]
        split
        · next e => subst e; rw [hg] at hj; cases hj; exact ⟨_, rfl⟩
        · next e => exact hs j f' r' g' (Ne.symm e) hj
  have k0 : n = 0 → ∃ h', record doStep h i x t n dt out = some (h', [], x) ∧ Rel h' l := by
    rintro rfl
    refine key (h.set i (some ⟨f, r, r, []⟩)) x [] rfl (by rw [live_set hlt, if_pos rfl]) (by simp) (fun j hj hd => ?_)
      (fun j f' r' g' hj hs => ?_)
    · rw [live_set hlt, if_neg hj.symm]; exact hd
    · rw [live_set hlt, if_neg hj.symm]; exact ⟨_, hs⟩
  refine ⟨?_, ?_, ?_, k0⟩
  · rintro rfl
    rcases Nat.eq_zero_or_pos n with rfl | hn
    · exact k0 rfl
    · have h1 := loop_eq doStep ⟨f, r, r, g⟩ dt f r rfl rfl n (h.set r (some ⟨f, r, r, []⟩)) x t r r []
        (by rw [live_set hlt, if_pos rfl])
      rw [if_neg hn.ne', List.nil_append, List.set_set] at h1
      refine key _ _ _ h1 (by rw [live_set hlt, if_pos rfl]) (by simp) (fun j hj hd => ?_) (fun j f' r' g' hj hs => ?_)
      · rw [live_set hlt, if_neg hj.symm]; exact hd
      · rw [live_set hlt, if_neg hj.symm]; exact ⟨_, hs⟩
  · intro hne hroot
    rcases Nat.eq_zero_or_pos n with rfl | hn
    · exact k0 rfl
    · obtain ⟨gr, hgr⟩ := hr.obj _ _ _ hroot
      have hrlt := live_lt hgr
      have hli : ∀ j, live (h.set i (some ⟨f, r, r, []⟩)) j = if i = j then some ⟨f, r, r, []⟩ else live h j := live_set hlt _
      have h1 := loop_eq doStep ⟨f, r, r, g⟩ dt f r rfl rfl n (h.set i (some ⟨f, r, r, []⟩)) x t r r gr
        (by rw [hli, if_neg hne.symm]; exact hgr)
      rw [if_neg hn.ne'] at h1
      have hl2 : ∀ j, live ((h.set i (some ⟨f, r, r, []⟩)).set r (some ⟨f, r, r, gr ++ path doStep f dt n x t⟩)) j
          = if r = j then some ⟨f, r, r, gr ++ path doStep f dt n x t⟩ else if i = j then some ⟨f, r, r, []⟩ else live h j := by
        intro j
        rw [live_set (by simpa using hrlt), hli]
      refine key _ _ _ h1 (by rw [hl2, if_neg hne, if_pos rfl]) (by simp) (fun j hj hd => ?_) (fun j f' r' g' hj hs => ?_)
      · have : r ≠ j := by rintro rfl; rw [hgr] at hd; cases hd
        rw [hl2, if_neg this, if_neg hj.symm]; exact hd
      · rw [hl2]
        split
        · next e => subst e; rw [hgr] at hs; cases hs; exact ⟨_, rfl⟩
        · rw [if_neg hj.symm]; exact ⟨_, hs⟩
  · intro hdead hn
    have hne : i ≠ r := by rintro rfl; rw [hi] at hdead; cases hdead
    have h1 := loop_dead doStep ⟨f, r, r, g⟩ dt hn (h := h.set i (some ⟨f, r, r, []⟩)) x t
      (by rw [live_set hlt, if_neg hne]; exact hr.dead _ _ _ hdead)
    simp [record, hg, h1]

theorem rel_step (doStep : Sys X T → X → T → T → X) {h h' : Heap X T} {l : List (Birth X T)} (hr : Rel h l) (o : Op X T)
    (hs : step doStep h o = some h') : Rel h' (births l o) := by
  cases o with
  | make f =>
    cases hs
    simpa [make, births, hr.len] using rel_snoc hr f l.length [] (.inl rfl)
  | copy i =>
    cases hs
    unfold copy births
    cases hl : l[i]? with
    | none =>
      have : live h i = none := by
        have : h.length ≤ i := by rw [hr.len]; exact List.getElem?_eq_none_iff.1 hl
        simp [live, List.getElem?_eq_none this]
      simpa [this, hl] using hr
    | some b =>
      obtain ⟨f, r, v⟩ := b
      cases v with
      | false => simpa [hr.dead _ _ _ hl, hl] using hr
      | true =>
        obtain ⟨g, hg⟩ := hr.obj _ _ _ hl
        simpa [hg, hl] using rel_snoc hr f r g (.inr (hr.root _ _ _ _ hl))
  | destroy i =>
    cases hs
    have hm : ∀ j b, (births l (.destroy i : Op X T))[j]? = some b →
        ∃ b', l[j]? = some b' ∧ b = if i = j then { b' with lives := false } else b' := by
      intro j b hb
      simp only [births, List.getElem?_modify] at hb
      cases hl : l[j]? with
      | none => simp [hl] at hb
      | some b' =>
        refine ⟨b', rfl, ?_⟩
        simp only [hl] at hb
        split at hb <;> simp_all
    have hlen : (births l (.destroy i : Op X T)).length = l.length := by simp [births]
    refine ⟨by simp [destroy, hlen, hr.len], fun j f r hj => ?_, fun j f r hj => ?_, fun j f r b hj => ?_⟩
    · obtain ⟨b', hb, e⟩ := hm _ _ hj
      by_cases hij : i = j
      · rw [if_pos hij] at e; cases e
      · rw [if_neg hij] at e
        subst e
        obtain ⟨g, hg⟩ := hr.obj _ _ _ hb
        refine ⟨g, ?_⟩
        simpa [live, destroy, List.getElem?_set, hij] using hg
    · obtain ⟨b', hb, e⟩ := hm _ _ hj
      by_cases hij : i = j
      · subst hij
        have := get_lt hb
        simp [live, destroy, hr.len, this]
      · rw [if_neg hij] at e
        subst e
        simpa [live, destroy, List.getElem?_set, hij] using hr.dead _ _ _ hb
    · obtain ⟨b', hb, e⟩ := hm _ _ hj
      obtain ⟨f', r', v⟩ := b'
      have e1 : f' = f ∧ r' = r := by split at e <;> cases e <;> exact ⟨rfl, rfl⟩
      obtain ⟨rfl, rfl⟩ := e1
      obtain ⟨v', hv⟩ := hr.root _ _ _ _ hb
      refine ⟨if i = r' then false else v', ?_⟩
      simp only [births, List.getElem?_modify, hv]
      split <;> simp
  | record i x t n dt out =>
    simp only [step, Option.map_eq_some_iff] at hs
    obtain ⟨⟨h2, g2, x2⟩, hrec, rfl⟩ := hs
    have hl : ∃ o, live h i = some o := by
      cases hli : live h i with
      | none => simp [record, hli] at hrec
      | some o => exact ⟨o, rfl⟩
    obtain ⟨o, ho⟩ := hl
    have hlt : i < l.length := by rw [← hr.len]; exact live_lt ho
    obtain ⟨⟨f, r, v⟩, hb⟩ : ∃ b, l[i]? = some b := ⟨_, List.getElem?_eq_getElem hlt⟩
    cases v with
    | false => rw [hr.dead _ _ _ hb] at ho; cases ho
    | true =>
      obtain ⟨c1, c2, c3, c4⟩ := record_cases doStep hr hb x t n dt out
      obtain ⟨v', hv⟩ := hr.root _ _ _ _ hb
      have fin : (∃ g' x' h', record doStep h i x t n dt out = some (h', g', x') ∧ Rel h' l) → Rel h2 l := by
        rintro ⟨g', x', h', e, hr'⟩
        rw [hrec] at e
        cases e
        exact hr'
      rcases Nat.eq_zero_or_pos n with hn | hn
      · obtain ⟨h', e⟩ := c4 hn; exact fin ⟨_, _, h', e⟩
      · by_cases hri : r = i
        · obtain ⟨h', e⟩ := c1 hri; exact fin ⟨_, _, h', e⟩
        · cases v' with
          | true => obtain ⟨h', e⟩ := c2 hri hv; exact fin ⟨_, _, h', e⟩
          | false => rw [c3 hv hn] at hrec; cases hrec

theorem rel_run (doStep : Sys X T → X → T → T → X) {ops : List (Op X T)} {h : Heap X T} (hh : run doStep ops = some h) :
    Rel h (made ops) := by
  have : ∀ (ops : List (Op X T)) (h0 : Heap X T) (l : List (Birth X T)), Rel h0 l → ops.foldlM (step doStep) h0 = some h →
      Rel h (ops.foldl births l) := by
    intro ops
    induction ops with
    | nil => intro h0 l hr e; cases e; exact hr
    | cons o ops ih =>
      intro h0 l hr e
      simp only [List.foldlM_cons, Option.bind_eq_bind, Option.bind_eq_some_iff] at e
      obtain ⟨h1, e1, e2⟩ := e
      exact ih h1 _ (rel_step doStep hr o e1) e2
  exact this ops [] [] ⟨rfl, by simp, by simp, by simp⟩ hh

/-- C198, integrators made by a constructor: after any program, recording returns the points of the system after each step and the
final state. -/
theorem C198_made_partial (doStep : Sys X T → X → T → T → X) {ops : List (Op X T)} {h : Heap X T} (hh : run doStep ops = some h)
    {i : ℕ} {f : Sys X T} (hi : (made ops)[i]? = some ⟨f, i, true⟩) (x : X) (t : T) (n : ℕ) (dt : T) (out : List (X × T)) :
    ∃ h', record doStep h i x t n dt out = some (h', path doStep f dt n x t, final doStep f dt n x t) := by
  obtain ⟨h', e, _⟩ := (record_cases doStep (rel_run doStep hh) hi x t n dt out).1 rfl
  exact ⟨h', e⟩

/-- C198, copies while the integrator they come from lives: the final state is right, but no point is recorded. -/
theorem C198_copy_violated (doStep : Sys X T → X → T → T → X) {ops : List (Op X T)} {h : Heap X T} (hh : run doStep ops = some h)
    {i r : ℕ} {f : Sys X T} (hi : (made ops)[i]? = some ⟨f, r, true⟩) (hr : r ≠ i) (hl : (made ops)[r]? = some ⟨f, r, true⟩)
    (x : X) (t : T) {n : ℕ} (hn : 0 < n) (dt : T) (out : List (X × T)) :
    ∃ h', record doStep h i x t n dt out = some (h', [], final doStep f dt n x t) ∧ path doStep f dt n x t ≠ [] := by
  obtain ⟨h', e, _⟩ := (record_cases doStep (rel_run doStep hh) hi x t n dt out).2.1 hr hl
  obtain ⟨n, rfl⟩ := Nat.exists_eq_succ_of_ne_zero hn.ne'
  exact ⟨h', e, by simp [path]⟩

/-- C198, copies after the integrator they come from was destroyed: undefined behaviour. -/
theorem C198_dangling_violated (doStep : Sys X T → X → T → T → X) {ops : List (Op X T)} {h : Heap X T} (hh : run doStep ops = some h)
    {i r : ℕ} {f : Sys X T} (hi : (made ops)[i]? = some ⟨f, r, true⟩) (hl : (made ops)[r]? = some ⟨f, r, false⟩)
    (x : X) (t : T) {n : ℕ} (hn : 0 < n) (dt : T) (out : List (X × T)) : record doStep h i x t n dt out = none :=
  (record_cases doStep (rel_run doStep hh) hi x t n dt out).2.2.1 hl hn

/-! ### The hypotheses can be met -/

/-- A step of Euler's method on integers. -/
def euler (f : Sys ℤ ℤ) (x t dt : ℤ) : ℤ := x + dt * f x t

/-- An integrator, a copy of it that is copied, another integrator, and some use. -/
def prog : List (Op ℤ ℤ) :=
  [.make fun x _ => x, .copy 0, .copy 1, .record 2 5 0 3 1 [], .make fun _ t => t, .record 3 1 1 2 1 [(7, 7)]]

example : (run euler prog).isSome ∧ (made prog).map (fun b => (b.root, b.lives)) = [(0, true), (0, true), (0, true), (3, true)]
    ∧ (run euler (prog ++ [.destroy 0])).isSome
    ∧ (made (prog ++ [.destroy 0])).map (fun b => (b.root, b.lives)) = [(0, false), (0, true), (0, true), (3, true)] := by
  refine ⟨rfl, rfl, rfl, rfl⟩

end CT.IntCopy
