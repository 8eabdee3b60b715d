import Verif.Model.NlocRollout
import Mathlib.Tactic.Ring
import Mathlib.Tactic.Abel
import Mathlib.Tactic.Linarith
import Mathlib.Algebra.Order.Group.Nat

/-!
# C54: roll-outs of Gauss-Newton multiple shooting satisfy the dynamics up to the defects
-/

namespace CT.Nloc

variable {X U : Type}

/-! ### Specification -/

/-- `r, d` is a roll-out of the guess `r0` over `K` stages with shots of `n` stages: every next
state plus the recorded defect is the propagated state; a defect is zero unless a further shot
starts right after the stage; the states at which shots start are those of the guess; the controls
are those of the guess, corrected by the feedback law around `xref` if the shooting is closed
loop. -/
structure IsRollout [AddCommGroup X] [AddCommGroup U] (f : X → ℕ → U → X) (K n : ℕ)
    (feedback : Option (ℕ → X → U)) (xref : List X) (r0 r : Roll X U) (d : List X) : Prop where
  dynamics : ∀ i < K, r.x.getD (i + 1) 0 + d.getD i 0 = f (r.x.getD i 0) i (r.u.getD i 0)
  inside : ∀ i < K, ¬ (i + 1 < K ∧ n ∣ i + 1) → d.getD i 0 = 0
  shotStart : ∀ i < K, n ∣ i → r.x.getD i 0 = r0.x.getD i 0
  controls : ∀ i < K, r.u.getD i 0 = match feedback with
    | none => r0.u.getD i 0
    | some L => r0.u.getD i 0 + L i (r.x.getD i 0 - xref.getD i 0)
  shotEnd : ∀ i < K, r.s.getD i 0 = f (r.x.getD i 0) i (r.u.getD i 0)

/-- The feedback law used by a configuration. -/
def RollCfg.law [AddCommGroup U] (C : RollCfg X U) : Option (ℕ → X → U) :=
  if C.closed then some fun i => C.L.getD i (fun _ => 0) else none

/-- The sizes the code relies on: one control per stage, one state more, and, for closed-loop
shooting, one gain and one reference state per stage. -/
structure Sizes (C : RollCfg X U) (xref : List X) (r : Roll X U) : Prop where
  hu : C.K ≤ r.u.length
  hx : C.K + 1 ≤ r.x.length
  hs : C.K + 1 ≤ r.s.length
  hL : C.closed = true → C.K ≤ C.L.length
  hr : C.closed = true → C.K ≤ xref.length

/-! ### Array lemmas -/

theorem idx_getD {α : Type} {l : List α} {i : ℕ} (h : i < l.length) (a : α) :
    idx l i = Res.ok (l.getD i a) := by
  simp [idx, List.getElem?_eq_getElem h, List.getD_eq_getElem?_getD]

theorem setAt_ok {α : Type} {l : List α} {i : ℕ} (h : i < l.length) (a : α) :
    setAt l i a = Res.ok (l.set i a) := by simp [setAt, h]

theorem getD_set {α : Type} (l : List α) (i j : ℕ) (a b : α) (h : i < l.length) :
    (l.set i a).getD j b = if i = j then a else l.getD j b := by
  simp only [List.getD_eq_getElem?_getD, List.getElem?_set]
  split
  · next he => subst he; simp [h]
  · rfl

theorem getD_map_zero [Zero X] (d : List X) (i : ℕ) : (d.map fun _ => (0 : X)).getD i 0 = 0 := by
  simp only [List.getD_eq_getElem?_getD, List.getElem?_map]
  cases d[i]? <;> rfl

theorem getD_take {α : Type} (l : List α) (n j : ℕ) (b : α) (h : j < n) :
    (l.take n).getD j b = l.getD j b := by
  simp [List.getD_eq_getElem?_getD, List.getElem?_take, h]

/-! ### One stage -/

variable [AddCommGroup X] [AddCommGroup U]

/-- The state a stage starts from. -/
private def startOf (k i : ℕ) (r : Roll X U) : X :=
  if k < i then r.s.getD (i - 1) 0 else r.s.getD i 0

private def ctrlOf (C : RollCfg X U) (xref : List X) (i : ℕ) (st : X) (u0 : U) : U :=
  if C.closed then u0 + C.L.getD i (fun _ => 0) (st - xref.getD i 0) else u0

/-- The arrays after a stage, before the NaN check. -/
private def stepRes (C : RollCfg X U) (xref : List X) (k i : ℕ) (r : Roll X U) : Roll X U :=
  let st := startOf k i r
  let ui := ctrlOf C xref i st (r.u.getD i 0)
  let x1 := if k < i then r.x.set i st else r.x
  { u := if C.closed then r.u.set i ui else r.u
    x := if i + 1 = C.K then x1.set C.K (C.f st i ui) else x1
    s := (if k < i then r.s.set i st else r.s).set i (C.f st i ui) }

private theorem shotStep_eq (C : RollCfg X U) (xref : List X) (k i : ℕ) (r : Roll X U)
    (hS : Sizes C xref r) (hi : i < C.K) :
    shotStep C xref k i r = nanCheck C i (stepRes C xref k i r) := by
  obtain ⟨hu, hx, hs, hL, hr⟩ := hS
  have h1 : initShot k i r
      = Res.ok { r with s := if k < i then r.s.set i (startOf k i r) else r.s } := by
    unfold initShot startOf
    split
    · rw [idx_getD (by omega) 0, Res.ok_bind, setAt_ok (by omega)]; rfl
    · rfl
  have hsl : (if k < i then r.s.set i (startOf k i r) else r.s).length = r.s.length := by
    split <;> simp
  have hsi : (if k < i then r.s.set i (startOf k i r) else r.s).getD i 0 = startOf k i r := by
    split
    · rw [getD_set _ _ _ _ _ (by omega)]; simp
    · next h => simp [startOf, h]
  have hsp : k < i → (if k < i then r.s.set i (startOf k i r) else r.s).getD (i - 1) 0
      = startOf k i r := by
    intro h
    rw [if_pos h, getD_set _ _ _ _ _ (by omega), if_neg (by omega)]
    simp [startOf, h]
  have h2 : ∀ s : List X, s.length = r.s.length → s.getD i 0 = startOf k i r →
      overwriteControl C xref i { r with s := s }
      = Res.ok { r with
          s := s
          u := if C.closed then
            r.u.set i (ctrlOf C xref i (startOf k i r) (r.u.getD i 0)) else r.u } := by
    intro s hl hv
    unfold overwriteControl
    by_cases hc : C.closed = true
    · have hL := hL hc
      have hr := hr hc
      simp only [hc, if_true]
      rw [idx_getD (by omega) 0, Res.ok_bind, idx_getD (by omega) (fun _ => 0), Res.ok_bind,
        idx_getD (by omega) 0, Res.ok_bind, idx_getD (by omega) 0, Res.ok_bind,
        setAt_ok (by omega), hv]
      simp [ctrlOf, hc]
    · simp only [Bool.not_eq_true] at hc
      simp [hc]
  have h3 : ∀ (u : List U) (s : List X), s.length = r.s.length →
      (k < i → s.getD (i - 1) 0 = startOf k i r) →
      overwriteState k i { u := u, x := r.x, s := s }
      = Res.ok { u := u, x := if k < i then r.x.set i (startOf k i r) else r.x, s := s } := by
    intro u s hl hv
    unfold overwriteState
    split
    · next h =>
      rw [idx_getD (show i - 1 < s.length by omega) 0, Res.ok_bind, hv h,
        setAt_ok (by simp only; omega)]; rfl
    · rfl
  have hul : ∀ v : U, (if C.closed then r.u.set i v else r.u).length = r.u.length := by
    intro v; split <;> simp
  have hui : (if C.closed then r.u.set i (ctrlOf C xref i (startOf k i r) (r.u.getD i 0))
      else r.u).getD i 0 = ctrlOf C xref i (startOf k i r) (r.u.getD i 0) := by
    split
    · rw [getD_set _ _ _ _ _ (by omega)]; simp
    · next h => simp [ctrlOf, h]
  have hxl : (if k < i then r.x.set i (startOf k i r) else r.x).length = r.x.length := by
    split <;> simp
  unfold shotStep
  rw [h1, Res.ok_bind, h2 _ hsl hsi, Res.ok_bind, h3 _ _ hsl hsp, Res.ok_bind]
  unfold propagate
  simp only []
  rw [idx_getD (by rw [hsl]; omega) 0, Res.ok_bind, idx_getD (by rw [hul]; omega) 0, Res.ok_bind,
    hsi, hui, setAt_ok (by rw [hsl]; omega)]
  simp only [Res.ok_bind, Res.pure_eq]
  unfold fillTerminal
  by_cases hK : i + 1 = C.K
  · simp only [hK, if_true]
    have hg : ∀ v : X, ((if k < i then r.s.set i (startOf k i r) else r.s).set i v).getD (C.K - 1) 0
        = v := by
      intro v
      rw [getD_set _ _ _ _ _ (by rw [hsl]; omega)]
      exact if_pos (by omega)
    rw [idx_getD (by simp only [List.length_set, hsl]; omega) 0, Res.ok_bind, hg,
      setAt_ok (by rw [hxl]; omega)]
    simp only [Res.ok_bind, Res.pure_eq]
    simp [stepRes, hK]
  · simp only [hK, if_false, Res.pure_eq, Res.ok_bind]
    simp [stepRes, hK]

private theorem stepRes_sizes {C : RollCfg X U} {xref : List X} {k i : ℕ} {r : Roll X U} :
    (stepRes C xref k i r).u.length = r.u.length ∧ (stepRes C xref k i r).x.length = r.x.length ∧
      (stepRes C xref k i r).s.length = r.s.length := by
  refine ⟨?_, ?_, ?_⟩
  · simp only [stepRes]; split <;> simp
  · simp only [stepRes]; split <;> split <;> simp
  · simp only [stepRes]; split <;> simp

/-- Why a roll-out fails: it was told to stop, or some stage has a NaN. -/
private def Failed (C : RollCfg X U) (stop : ℕ → Bool) (r : Roll X U) : Prop :=
  (∃ i < C.K, stop i = true) ∨
    ∃ i < C.K, C.nanX (r.x.getD i 0) = true ∨ C.nanU (r.u.getD i 0) = true

/-! ### One shot -/

/-- What a shot from `k` has established once it reached stage `i`. -/
private structure Part (C : RollCfg X U) (xref : List X) (k i : ℕ) (r0 r : Roll X U) : Prop where
  lu : r.u.length = r0.u.length
  lx : r.x.length = r0.x.length
  ls : r.s.length = r0.s.length
  dyn : ∀ j, k ≤ j → j < i → r.s.getD j 0 = C.f (r.x.getD j 0) j (r.u.getD j 0)
  ctrl : ∀ j, k ≤ j → j < i → r.u.getD j 0 = ctrlOf C xref j (r.x.getD j 0) (r0.u.getD j 0)
  link : ∀ j, k < j → j < i → r.x.getD j 0 = r.s.getD (j - 1) 0
  term : k < i → i = C.K → r.x.getD C.K 0 = r.s.getD (C.K - 1) 0
  first : i = k → r.s.getD k 0 = r.x.getD k 0
  frameU : ∀ j, j < k ∨ i ≤ j → r.u.getD j 0 = r0.u.getD j 0
  frameX : ∀ j, j ≤ k ∨ (i ≤ j ∧ (j ≠ C.K ∨ i < C.K)) → r.x.getD j 0 = r0.x.getD j 0
  frameS : ∀ j, j < k → r.s.getD j 0 = r0.s.getD j 0
  frameS' : ∀ j, i ≤ j → k < j → r.s.getD j 0 = r0.s.getD j 0
  clean : ∀ j, k ≤ j → j < i → C.nanX (r.x.getD j 0) = false ∧ C.nanU (r.u.getD j 0) = false

private theorem part_step {C : RollCfg X U} {xref : List X} {k i : ℕ} {r0 r : Roll X U}
    (hS : Sizes C xref r) (hk : k ≤ i) (hi : i < C.K) (h : Part C xref k i r0 r)
    (hc : C.nanX ((stepRes C xref k i r).x.getD i 0) = false ∧
      C.nanU ((stepRes C xref k i r).u.getD i 0) = false) :
    Part C xref k (i + 1) r0 (stepRes C xref k i r) := by
  obtain ⟨hu, hx, hs, hL, hr⟩ := hS
  obtain ⟨lu, lx, ls⟩ := stepRes_sizes (C := C) (xref := xref) (k := k) (i := i) (r := r)
  -- contents of the new arrays
  have eu : ∀ j, (stepRes C xref k i r).u.getD j 0
      = if i = j then ctrlOf C xref i (startOf k i r) (r.u.getD i 0) else r.u.getD j 0 := by
    intro j
    simp only [stepRes]
    by_cases hc : C.closed = true
    · rw [if_pos hc, getD_set _ _ _ _ _ (by omega)]
    · rw [if_neg hc]
      split
      · next e => subst e; simp [ctrlOf, hc]
      · rfl
  have es : ∀ j, (stepRes C xref k i r).s.getD j 0
      = if i = j then C.f (startOf k i r) i (ctrlOf C xref i (startOf k i r) (r.u.getD i 0))
        else r.s.getD j 0 := by
    intro j
    simp only [stepRes]
    rw [getD_set _ _ _ _ _ (by split <;> (try rw [List.length_set]) <;> omega)]
    split
    · rfl
    · next hne =>
      split
      · rw [getD_set _ _ _ _ _ (by omega), if_neg hne]
      · rfl
  have ex : ∀ j, (stepRes C xref k i r).x.getD j 0
      = if i + 1 = C.K ∧ C.K = j then
          C.f (startOf k i r) i (ctrlOf C xref i (startOf k i r) (r.u.getD i 0))
        else if k < i ∧ i = j then startOf k i r else r.x.getD j 0 := by
    intro j
    simp only [stepRes]
    by_cases hK : i + 1 = C.K
    · rw [if_pos hK, getD_set _ _ _ _ _ (by split <;> (try rw [List.length_set]) <;> omega)]
      by_cases hj : C.K = j
      · simp [hj, hK]
      · simp only [hK, hj, if_false, and_false]
        split
        · next h => rw [getD_set _ _ _ _ _ (by omega)]; simp [h]
        · next h => simp [h]
    · simp only [hK, if_false, false_and]
      split
      · next h => rw [getD_set _ _ _ _ _ (by omega)]; simp [h]
      · next h => simp [h]
  have hstart : startOf k i r = (stepRes C xref k i r).x.getD i 0 := by
    rw [ex, if_neg (by omega)]
    by_cases hki : k < i
    · simp [hki]
    · have : i = k := by omega
      rw [if_neg (by omega)]
      simp only [startOf, hki, if_false]
      rw [this]; exact h.first this
  refine ⟨by rw [lu, h.lu], by rw [lx, h.lx], by rw [ls, h.ls], ?_, ?_, ?_, ?_, ?_, ?_, ?_, ?_, ?_, ?_⟩
  · intro j h1 h2
    by_cases hj : i = j
    · subst hj
      rw [es, if_pos rfl, eu, if_pos rfl, ← hstart]
    · rw [es, if_neg hj, eu, if_neg hj, ex, if_neg (by omega), if_neg (by omega)]
      exact h.dyn j h1 (by omega)
  · intro j h1 h2
    by_cases hj : i = j
    · subst hj
      rw [eu, if_pos rfl, ← hstart, h.frameU i (Or.inr le_rfl)]
    · rw [eu, if_neg hj, ex, if_neg (by omega), if_neg (by omega)]
      exact h.ctrl j h1 (by omega)
  · intro j h1 h2
    by_cases hj : i = j
    · subst hj
      rw [← hstart, es, if_neg (by omega)]
      simp [startOf, h1]
    · rw [ex, if_neg (by omega), if_neg (by omega), es, if_neg (by omega)]
      exact h.link j h1 (by omega)
  · intro _ hK
    rw [ex, if_pos ⟨hK, rfl⟩, es, if_pos (by omega)]
  · intro hK; omega
  · intro j hj
    rw [eu, if_neg (by omega)]
    exact h.frameU j (by omega)
  · intro j hj
    rw [ex, if_neg (by omega), if_neg (by omega)]
    exact h.frameX j (by omega)
  · intro j hj
    rw [es, if_neg (by omega)]
    exact h.frameS j hj
  · intro j hj hj'
    rw [es, if_neg (by omega)]
    exact h.frameS' j (by omega) hj'
  · intro j h1 h2
    by_cases hj : i = j
    · subst hj; exact hc
    · rw [eu, if_neg hj, ex, if_neg (by omega), if_neg (by omega)]
      exact h.clean j h1 (by omega)

private theorem nanCheck_cases {C : RollCfg X U} {i : ℕ} {r : Roll X U} (hu : i < r.u.length)
    (hx : i < r.x.length) :
    (nanCheck C i r = Res.ok (r, true) ∧ C.nanX (r.x.getD i 0) = false ∧
        C.nanU (r.u.getD i 0) = false) ∨
      (nanCheck C i r = Res.ok ({ r with x := r.x.take (C.K + 1), u := r.u.take C.K }, false) ∧
        (C.nanX (r.x.getD i 0) = true ∨ C.nanU (r.u.getD i 0) = true)) := by
  unfold nanCheck
  rw [idx_getD hx 0, Res.ok_bind, idx_getD hu 0, Res.ok_bind]
  split
  · next h =>
    right
    exact ⟨rfl, by simpa only [Bool.or_eq_true] using h⟩
  · next h =>
    left
    simp only [Bool.or_eq_true, not_or, Bool.not_eq_true] at h
    exact ⟨rfl, h.1, h.2⟩

private theorem shotLoop_spec (C : RollCfg X U) (xref : List X) (stop : ℕ → Bool) (k : ℕ) :
    ∀ (n i : ℕ) (r0 r : Roll X U), Sizes C xref r0 → k ≤ i → i + n ≤ C.K →
      Part C xref k i r0 r →
      ∃ r' b, shotLoop C xref stop k n i r = Res.ok (r', b) ∧ Sizes C xref r' ∧
        (b = true → Part C xref k (i + n) r0 r') ∧ (b = false → Failed C stop r')
  | 0, i, r0, r, hS, _, _, h =>
    ⟨r, true, rfl, ⟨h.lu ▸ hS.hu, h.lx ▸ hS.hx, h.ls ▸ hS.hs, hS.hL, hS.hr⟩, fun _ => h, by simp⟩
  | n + 1, i, r0, r, hS, hk, hi, h => by
    have hSr : Sizes C xref r := ⟨h.lu ▸ hS.hu, h.lx ▸ hS.hx, h.ls ▸ hS.hs, hS.hL, hS.hr⟩
    by_cases hs : stop i = true
    · exact ⟨r, false, by simp [shotLoop, hs], hSr, by simp, fun _ => Or.inl ⟨i, by omega, hs⟩⟩
    · obtain ⟨lu, lx, ls⟩ := stepRes_sizes (C := C) (xref := xref) (k := k) (i := i) (r := r)
      have hS' : Sizes C xref (stepRes C xref k i r) :=
        ⟨lu ▸ hSr.hu, lx ▸ hSr.hx, ls ▸ hSr.hs, hS.hL, hS.hr⟩
      have e : shotLoop C xref stop k (n + 1) i r
          = (nanCheck C i (stepRes C xref k i r) >>= fun p =>
              if p.2 then shotLoop C xref stop k n (i + 1) p.1 else pure p) := by
        rw [shotLoop, if_neg hs, shotStep_eq C xref k i r hSr (by omega)]
      rcases nanCheck_cases (C := C) (i := i) (r := stepRes C xref k i r)
        (by have := hS'.hu; omega) (by have := hS'.hx; omega) with ⟨hn, hc⟩ | ⟨hn, hc⟩
      · have hp := part_step hSr hk (by omega) h hc
        obtain ⟨r', b, e', hs', hb, hf⟩ :=
          shotLoop_spec C xref stop k n (i + 1) r0 _ hS (by omega) (by omega) hp
        refine ⟨r', b, ?_, hs', ?_, hf⟩
        · rw [e, hn, Res.ok_bind]; simpa using e'
        · intro hbt
          have := hb hbt
          rwa [show i + 1 + n = i + (n + 1) by omega] at this
      · refine ⟨_, false, by rw [e, hn, Res.ok_bind]; rfl, ?_, by simp, fun _ => Or.inr ⟨i, by omega, ?_⟩⟩
        swap
        · rw [getD_take _ _ _ _ (by omega), getD_take _ _ _ _ (by omega)]; exact hc
        refine ⟨?_, ?_, hS'.hs, hS.hL, hS.hr⟩
        · have := hS'.hu
          simp only [List.length_take]; omega
        · have := hS'.hx
          simp only [List.length_take]; omega

private theorem single_spec (C : RollCfg X U) (xref : List X) (stop : ℕ → Bool) (k : ℕ)
    (r : Roll X U) (hS : Sizes C xref r) (hk : k < C.K) :
    ∃ r' b, rolloutSingleShot C xref stop k r = Res.ok (r', b) ∧ Sizes C xref r' ∧
      (b = true → Part C xref k (min (k + C.stepsPerShot) C.K) r r') ∧
      (b = false → Failed C stop r') := by
  have hS' := hS
  obtain ⟨hu, hx, hs, hL, hr⟩ := hS
  have hp : Part C xref k k r { r with s := r.s.set k (r.x.getD k 0) } := by
    refine ⟨rfl, rfl, by simp, fun j h1 h2 => by omega, fun j h1 h2 => by omega,
      fun j h1 h2 => by omega, fun h => by omega, ?_, fun _ _ => rfl, fun _ _ => rfl, ?_, ?_,
      fun j h1 h2 => by omega⟩
    · intro _
      rw [getD_set _ _ _ _ _ (by omega)]; simp
    · intro j hj
      simp only
      rw [getD_set _ _ _ _ _ (by omega), if_neg (by omega)]
    · intro j _ hj
      simp only
      rw [getD_set _ _ _ _ _ (by omega), if_neg (by omega)]
  obtain ⟨r', b, e, hs', hb, hf⟩ := shotLoop_spec C xref stop k (min (k + C.stepsPerShot) C.K - k) k r _
    hS' le_rfl (by omega) hp
  refine ⟨r', b, ?_, hs', fun h => ?_, hf⟩
  · unfold rolloutSingleShot
    rw [if_neg (by omega), if_neg (by omega), if_neg (by omega), idx_getD (by omega) 0,
      Res.ok_bind, setAt_ok (by omega), Res.ok_bind]
    exact e
  · have := hb h
    rwa [show k + (min (k + C.stepsPerShot) C.K - k) = min (k + C.stepsPerShot) C.K by omega] at this

/-! ### Several shots -/

private theorem stage_iff {n k i : ℕ} (hn : 0 < n) (hk : n ∣ k) :
    n * (i / n) = k ↔ k ≤ i ∧ i < k + n := by
  obtain ⟨q, rfl⟩ := hk
  constructor
  · intro h
    have := Nat.div_add_mod i n
    have := Nat.mod_lt i hn
    omega
  · rintro ⟨h1, h2⟩
    have : i / n = q := by
      rw [Nat.div_eq_iff hn]
      constructor
      · rw [Nat.mul_comm]; omega
      · rw [Nat.mul_comm]; omega
    rw [this]

/-- What the shots `done` (given by their first stages) have established. -/
private structure Prog (C : RollCfg X U) (xref : List X) (done : List ℕ) (r0 r : Roll X U)
    (d : List X) : Prop where
  sz : Sizes C xref r
  ld : C.K ≤ d.length
  dyn : ∀ i < C.K, C.stepsPerShot * (i / C.stepsPerShot) ∈ done →
    r.s.getD i 0 = C.f (r.x.getD i 0) i (r.u.getD i 0)
  ctrl : ∀ i < C.K, C.stepsPerShot * (i / C.stepsPerShot) ∈ done →
    r.u.getD i 0 = ctrlOf C xref i (r.x.getD i 0) (r0.u.getD i 0)
  link : ∀ i, i + 1 < C.K → ¬ C.stepsPerShot ∣ i + 1 →
    C.stepsPerShot * (i / C.stepsPerShot) ∈ done → r.x.getD (i + 1) 0 = r.s.getD i 0
  term : C.stepsPerShot * ((C.K - 1) / C.stepsPerShot) ∈ done →
    r.x.getD C.K 0 = r.s.getD (C.K - 1) 0
  fresh : ∀ i < C.K, C.stepsPerShot * (i / C.stepsPerShot) ∉ done →
    r.u.getD i 0 = r0.u.getD i 0
  start : ∀ i < C.K, C.stepsPerShot ∣ i → r.x.getD i 0 = r0.x.getD i 0
  defect : ∀ i < C.K, d.getD i 0 =
    if (i + 1 < C.K ∧ C.stepsPerShot ∣ i + 1) ∧ C.stepsPerShot * (i / C.stepsPerShot) ∈ done
    then r.s.getD i 0 - r.x.getD (i + 1) 0 else 0
  clean : ∀ i < C.K, C.stepsPerShot * (i / C.stepsPerShot) ∈ done →
    C.nanX (r.x.getD i 0) = false ∧ C.nanU (r.u.getD i 0) = false

private theorem prog_step {C : RollCfg X U} {xref : List X} {done : List ℕ} {r0 r r' : Roll X U}
    {d : List X} {k : ℕ} (hn : 0 < C.stepsPerShot) (hKs : 0 < C.Kshot)
    (h : Prog C xref done r0 r d) (hk : C.stepsPerShot ∣ k) (hkK : k < C.K) (hd : k ∉ done)
    (hS' : Sizes C xref r')
    (hp : Part C xref k (min (k + C.stepsPerShot) C.K) r r') :
    ∃ d', computeSingleDefect C k r'.x r'.s d = Res.ok d' ∧
      Prog C xref (k :: done) r0 r' d' := by
  set n := C.stepsPerShot with hndef
  -- stages of this shot
  have mem : ∀ i, n * (i / n) ∈ k :: done ↔ (k ≤ i ∧ i < k + n) ∨ n * (i / n) ∈ done := by
    intro i
    rw [List.mem_cons, stage_iff hn hk]
  have other : ∀ i, n * (i / n) ∈ done → ¬ (k ≤ i ∧ i < k + n) := by
    intro i hi hki
    rw [← stage_iff hn hk] at hki
    exact hd (hki ▸ hi)
  have nd : ∀ i, k < i → i < k + n → ¬ n ∣ i := by
    intro i h1 h2 hdv
    obtain ⟨q, rfl⟩ := hdv
    obtain ⟨p, rfl⟩ := hk
    have h3 : p < q := lt_of_mul_lt_mul_left h1 (Nat.zero_le n)
    have h4 : n * q < n * (p + 1) := by rw [Nat.mul_add]; omega
    have h5 : q < p + 1 := lt_of_mul_lt_mul_left h4 (Nat.zero_le n)
    omega
  have same : ∀ i, ¬ n ∣ i + 1 → i + 1 ≠ k ∧ (i + 1 = k + n → False) := by
    intro i hi
    refine ⟨fun e => hi (e ▸ hk), fun e => hi (e ▸ Nat.dvd_add hk (dvd_refl n))⟩
  have fu : ∀ i < C.K, ¬ (k ≤ i ∧ i < k + n) → r'.u.getD i 0 = r.u.getD i 0 :=
    fun i hi ho => hp.frameU i (by omega)
  have fx : ∀ i < C.K, ¬ (k < i ∧ i < k + n) → r'.x.getD i 0 = r.x.getD i 0 :=
    fun i hi ho => hp.frameX i (by omega)
  have fs : ∀ i < C.K, ¬ (k ≤ i ∧ i < k + n) → r'.s.getD i 0 = r.s.getD i 0 := by
    intro i hi ho
    by_cases hik : i < k
    · exact hp.frameS i hik
    · exact hp.frameS' i (by omega) (by omega)
  have hlink : ∀ i, i + 1 < C.K → k ≤ i → i + 1 < k + n → r'.x.getD (i + 1) 0 = r'.s.getD i 0 := by
    intro i h1 h2 h3
    have := hp.link (i + 1) (by omega) (by omega)
    simpa using this
  have hstart : ∀ i < C.K, n ∣ i → r'.x.getD i 0 = r0.x.getD i 0 := by
    intro i hi hdv
    rw [fx i hi (fun hh => nd i hh.1 hh.2 hdv)]
    exact h.start i hi hdv
  -- the defects
  have hdef : ∃ d', computeSingleDefect C k r'.x r'.s d = Res.ok d' ∧ C.K ≤ d'.length ∧
      ∀ i < C.K, d'.getD i 0 = if (i + 1 < C.K ∧ n ∣ i + 1) ∧ (k ≤ i ∧ i < k + n)
        then r'.s.getD i 0 - r'.x.getD (i + 1) 0 else d.getD i 0 := by
    have hx := hS'.hx
    have hs := hS'.hs
    have hl := h.ld
    unfold computeSingleDefect
    simp only []
    by_cases hkn : min C.K (k + C.Kshot) < C.K
    · rw [if_pos hkn, idx_getD (by omega) 0, Res.ok_bind, idx_getD (by omega) 0, Res.ok_bind,
        setAt_ok (by omega)]
      refine ⟨_, rfl, by simpa using h.ld, ?_⟩
      intro i hi
      rw [getD_set _ _ _ _ _ (by omega)]
      have e1 : min C.K (k + C.Kshot) = k + C.Kshot := by omega
      rw [e1] at hkn ⊢
      by_cases hsg : C.single = true
      · have hnK : n = C.K := by simp [hndef, RollCfg.stepsPerShot, hsg]
        have hk0 : k = 0 := by
          rcases Nat.eq_zero_or_pos k with h0 | h0
          · exact h0
          · have := Nat.le_of_dvd h0 hk; omega
        have hno : ¬ ((i + 1 < C.K ∧ n ∣ i + 1) ∧ (k ≤ i ∧ i < k + n)) := by
          rintro ⟨⟨ha, hb⟩, -⟩
          have := Nat.le_of_dvd (by omega) hb
          omega
        rw [if_neg hno]
        split
        · next hh =>
          have hl1 := hlink (k + C.Kshot - 1) (by omega) (by omega) (by omega)
          rw [show k + C.Kshot - 1 + 1 = k + C.Kshot by omega] at hl1
          rw [hl1, sub_self, ← hh, h.defect _ (by omega)]
          rw [if_neg]
          rintro ⟨⟨ha, hb⟩, -⟩
          have := Nat.le_of_dvd (by omega) hb
          omega
        · rfl
      · have hnK : n = C.Kshot := by simp [hndef, RollCfg.stepsPerShot, hsg]
        rw [← hnK] at hkn ⊢
        by_cases hii : k + n - 1 = i
        · rw [if_pos hii, if_pos ⟨⟨by omega, by
            rw [show i + 1 = k + n by omega]; exact Nat.dvd_add hk (dvd_refl n)⟩, by omega⟩, hii,
            show k + n = i + 1 by omega]
        · rw [if_neg hii, if_neg]
          rintro ⟨⟨ha, hb⟩, hc, he⟩
          exact nd (i + 1) (by omega) (by omega) hb
    · rw [if_neg hkn]
      refine ⟨d, rfl, h.ld, ?_⟩
      intro i hi
      rw [if_neg]
      rintro ⟨⟨ha, hb⟩, hc, he⟩
      by_cases hsg : C.single = true
      · have hnK : n = C.K := by simp [hndef, RollCfg.stepsPerShot, hsg]
        have := Nat.le_of_dvd (by omega) hb
        omega
      · have hnK : n = C.Kshot := by simp [hndef, RollCfg.stepsPerShot, hsg]
        by_cases hii : i + 1 < k + n
        · exact nd (i + 1) (by omega) hii hb
        · omega
  obtain ⟨d', e, hl', hd'⟩ := hdef
  refine ⟨d', e, hS', hl', ?_, ?_, ?_, ?_, ?_, hstart, ?_, ?_⟩
  · intro i hi hm
    rw [mem] at hm
    rcases hm with hm | hm
    · exact hp.dyn i hm.1 (by omega)
    · have ho := other i hm
      rw [fs i hi ho, fx i hi (fun hh => ho ⟨by omega, hh.2⟩), fu i hi ho]
      exact h.dyn i hi hm
  · intro i hi hm
    rw [mem] at hm
    by_cases hin : k ≤ i ∧ i < k + n
    · have hnot : n * (i / n) ∉ done := fun hh => other i hh hin
      rw [hp.ctrl i hin.1 (by omega), h.fresh i hi hnot]
    · have hm : n * (i / n) ∈ done := by tauto
      rw [fx i hi (fun hh => hin ⟨by omega, hh.2⟩), fu i hi hin]
      exact h.ctrl i hi hm
  · intro i hi hdv hm
    rw [mem] at hm
    obtain ⟨s1, s2⟩ := same i hdv
    rcases hm with hm | hm
    · exact hlink i hi hm.1 (lt_of_le_of_ne (by omega) s2)
    · have ho := other i hm
      rw [fx (i + 1) hi (by omega), fs i (by omega) ho]
      exact h.link i hi hdv hm
  · intro hm
    rw [mem] at hm
    by_cases hin : k ≤ C.K - 1 ∧ C.K - 1 < k + n
    · exact hp.term (by omega) (by omega)
    · have hm : n * ((C.K - 1) / n) ∈ done := by tauto
      rw [fs _ (by omega) hin, hp.frameX C.K (by omega)]
      exact h.term hm
  · intro i hi hm
    rw [mem] at hm
    rw [fu i hi (by tauto)]
    exact h.fresh i hi (by tauto)
  · intro i hi
    rw [hd' i hi]
    by_cases hin : k ≤ i ∧ i < k + n
    · have hnot : n * (i / n) ∉ done := fun hh => other i hh hin
      have hm : n * (i / n) ∈ k :: done := (mem i).2 (Or.inl hin)
      rw [h.defect i hi]
      by_cases hb : i + 1 < C.K ∧ n ∣ i + 1
      · rw [if_pos ⟨hb, hin⟩, if_pos ⟨hb, hm⟩]
      · rw [if_neg (fun hh => hb hh.1), if_neg (fun hh => hb hh.1), if_neg (fun hh => hb hh.1)]
    · rw [if_neg (fun hh => hin hh.2), h.defect i hi]
      have hiff : n * (i / n) ∈ k :: done ↔ n * (i / n) ∈ done := by
        rw [mem]; tauto
      by_cases hb : (i + 1 < C.K ∧ n ∣ i + 1) ∧ n * (i / n) ∈ done
      · rw [if_pos hb, if_pos ⟨hb.1, hiff.2 hb.2⟩, fs i hi hin, hstart _ hb.1.1 hb.1.2,
          h.start _ hb.1.1 hb.1.2]
      · rw [if_neg hb, if_neg (fun hh => hb ⟨hh.1, hiff.1 hh.2⟩)]
  · intro i hi hm
    rw [mem] at hm
    rcases hm with hm | hm
    · exact hp.clean i hm.1 (by omega)
    · have ho := other i hm
      rw [fx i hi (fun hh => ho ⟨by omega, hh.2⟩), fu i hi ho]
      exact h.clean i hi hm

private theorem rolloutList_spec {C : RollCfg X U} {xref : List X} {stop : ℕ → Bool}
    (hn : 0 < C.stepsPerShot) (hKs : 0 < C.Kshot) {r0 : Roll X U} :
    ∀ (ks done : List ℕ) (r : Roll X U) (d : List X), Prog C xref done r0 r d →
      (∀ k ∈ ks, C.stepsPerShot ∣ k ∧ k < C.K ∧ k ∉ done) → ks.Nodup →
      ∃ r' d' b, rolloutList C xref stop ks r d = Res.ok (r', d', b) ∧
        (b = true → Prog C xref (ks.reverse ++ done) r0 r' d') ∧ (b = false → Failed C stop r')
  | [], done, r, d, h, _, _ => ⟨r, d, true, rfl, fun _ => by simpa using h, by simp⟩
  | k :: ks, done, r, d, h, hks, hnd => by
    obtain ⟨hk1, hk2, hk3⟩ := hks k (by simp)
    obtain ⟨r', b, e, hS', hb, hf⟩ := single_spec C xref stop k r h.sz hk2
    cases b with
    | false => exact ⟨r', d, false, by simp [rolloutList, e], by simp, hf⟩
    | true =>
      obtain ⟨d', e', hp'⟩ := prog_step hn hKs h hk1 hk2 hk3 hS' (hb rfl)
      obtain ⟨r2, d2, b2, e2, h2, hf2⟩ := rolloutList_spec hn hKs ks (k :: done) r' d' hp' (by
        intro j hj
        obtain ⟨j1, j2, j3⟩ := hks j (by simp [hj])
        refine ⟨j1, j2, ?_⟩
        rw [List.mem_cons]
        rintro (rfl | hh)
        · exact (List.nodup_cons.1 hnd).1 hj
        · exact j3 hh) (List.nodup_cons.1 hnd).2
      refine ⟨r2, d2, b2, ?_, fun hbt => ?_, hf2⟩
      · rw [rolloutList, e, Res.ok_bind]
        simp only [if_true]
        rw [e', Res.ok_bind, e2]
      · have := h2 hbt
        simpa using this

private theorem prog_isRollout {C : RollCfg X U} {xref : List X} {done : List ℕ}
    {r0 r : Roll X U} {d : List X} (h : Prog C xref done r0 r d)
    (hall : ∀ i < C.K, C.stepsPerShot * (i / C.stepsPerShot) ∈ done) :
    IsRollout C.f C.K C.stepsPerShot C.law xref r0 r d := by
  have hctrl : ∀ i < C.K, r.u.getD i 0 = match C.law with
      | none => r0.u.getD i 0
      | some L => r0.u.getD i 0 + L i (r.x.getD i 0 - xref.getD i 0) := by
    intro i hi
    rw [h.ctrl i hi (hall i hi)]
    unfold ctrlOf RollCfg.law
    by_cases hc : C.closed = true
    · simp [hc]
    · simp [hc]
  refine ⟨?_, ?_, h.start, hctrl, fun i hi => h.dyn i hi (hall i hi)⟩
  · intro i hi
    rw [← h.dyn i hi (hall i hi), h.defect i hi]
    by_cases hb : i + 1 < C.K ∧ C.stepsPerShot ∣ i + 1
    · rw [if_pos ⟨hb, hall i hi⟩]; abel
    · rw [if_neg (fun hh => hb hh.1), add_zero]
      by_cases hK : i + 1 < C.K
      · exact h.link i hK (fun hh => hb ⟨hK, hh⟩) (hall i hi)
      · have e : C.K = i + 1 := by omega
        have := h.term (hall _ (by omega))
        rw [e] at this
        simpa using this
  · intro i hi hb
    rw [h.defect i hi, if_neg (fun hh => hb hh.1)]

/-! ### The loop over the shots -/

private theorem loopIndices_mem {last n : ℕ} (hn : 0 < n) :
    ∀ (fuel k j : ℕ), last < k + fuel →
      (j ∈ loopIndices last n fuel k ↔ j ≤ last ∧ ∃ q, j = k + n * q)
  | 0, k, j, h => by
    simp only [loopIndices, List.not_mem_nil, false_iff]
    rintro ⟨h1, q, rfl⟩
    have := Nat.zero_le (n * q)
    omega
  | fuel + 1, k, j, h => by
    rw [loopIndices]
    by_cases hk : k ≤ last
    · rw [if_pos hk, List.mem_cons, loopIndices_mem hn fuel (k + n) j (by omega)]
      constructor
      · rintro (rfl | ⟨h1, q, rfl⟩)
        · exact ⟨hk, 0, by simp⟩
        · exact ⟨h1, q + 1, by ring⟩
      · rintro ⟨h1, q, rfl⟩
        cases q with
        | zero => left; simp
        | succ q => right; exact ⟨h1, q, by ring⟩
    · rw [if_neg hk]
      simp only [List.not_mem_nil, false_iff]
      rintro ⟨h1, q, rfl⟩
      have := Nat.zero_le (n * q)
      omega

private theorem loopIndices_nodup {last n : ℕ} (hn : 0 < n) :
    ∀ (fuel k : ℕ), (loopIndices last n fuel k).Nodup ∧ ∀ j ∈ loopIndices last n fuel k, k ≤ j
  | 0, k => by simp [loopIndices]
  | fuel + 1, k => by
    obtain ⟨h1, h2⟩ := loopIndices_nodup (last := last) hn fuel (k + n)
    rw [loopIndices]
    split
    · refine ⟨List.nodup_cons.2 ⟨fun hh => ?_, h1⟩, ?_⟩
      · have := h2 k hh; omega
      · intro j hj
        rcases List.mem_cons.1 hj with rfl | hj
        · exact le_rfl
        · have := h2 j hj; omega
    · simp

theorem shotStarts_mem {first last n : ℕ} (hn : 0 < n) (j : ℕ) :
    j ∈ shotStarts first last n ↔ j ≤ last ∧ ∃ q, j = first + n * q :=
  loopIndices_mem hn _ _ _ (by omega)

theorem shotStarts_nodup {first last n : ℕ} (hn : 0 < n) :
    (shotStarts first last n).Nodup := (loopIndices_nodup hn _ _).1

private theorem prog_init {C : RollCfg X U} {xref : List X} {r : Roll X U} {d : List X}
    (hS : Sizes C xref r) (hd : C.K ≤ d.length) (h0 : ∀ i < C.K, d.getD i 0 = 0) :
    Prog C xref [] r r d :=
  ⟨hS, hd, fun _ _ h => by simp at h, fun _ _ h => by simp at h, fun _ _ _ h => by simp at h,
    fun h => by simp at h, fun _ _ _ => rfl, fun _ _ _ => rfl, fun i hi => by rw [h0 i hi]; simp,
    fun _ _ h => by simp at h⟩

private theorem stage_mem_starts {n i : ℕ} (_hn : 0 < n) : n ∣ n * (i / n) ∧ n * (i / n) ≤ i :=
  ⟨dvd_mul_right _ _, Nat.mul_div_le i n⟩

/-! ### C54 -/

private theorem rollout_core (C : RollCfg X U) (xref : List X) (stop : ℕ → Bool) (r : Roll X U)
    (d : List X) (hK : 0 < C.K) (hshot : 0 < C.Kshot) (hS : Sizes C xref r)
    (hd : C.K ≤ d.length) :
    ∃ r' d' b, rolloutShotsSingleThreaded C xref stop 0 (C.K - 1) r d = Res.ok (r', d', b) ∧
      (b = true → IsRollout C.f C.K C.stepsPerShot C.law xref r r' d') ∧
      (b = true → ∀ i < C.K, C.nanX (r'.x.getD i 0) = false ∧ C.nanU (r'.u.getD i 0) = false) ∧
      (b = false → Failed C stop r') := by
  have hn : 0 < C.stepsPerShot := by unfold RollCfg.stepsPerShot; split <;> assumption
  obtain ⟨r', d', b, e, hb, hf⟩ := rolloutList_spec (stop := stop) hn hshot
    (shotStarts 0 (C.K - 1) C.stepsPerShot) [] r (d.map fun _ => 0)
    (prog_init hS (by simpa using hd) (fun i _ => getD_map_zero d i))
    (by
      intro k hk
      obtain ⟨h1, q, rfl⟩ := (shotStarts_mem hn k).1 hk
      exact ⟨by simp, by omega, by simp⟩) (shotStarts_nodup hn)
  have hall : ∀ i < C.K, C.stepsPerShot * (i / C.stepsPerShot) ∈
      (shotStarts 0 (C.K - 1) C.stepsPerShot).reverse ++ [] := by
    intro i hi
    simp only [List.append_nil, List.mem_reverse]
    rw [shotStarts_mem hn]
    have := (stage_mem_starts (i := i) hn).2
    exact ⟨by omega, i / C.stepsPerShot, by simp⟩
  exact ⟨r', d', b, e, fun hbt => prog_isRollout (hb hbt) hall,
    fun hbt i hi => (hb hbt).clean i hi (hall i hi), hf⟩

/-- C54 (roll-out of the line search and of every full roll-out): for every horizon `K ≥ 1`, shot
length (dividing `K` or not, shorter or longer than `K`), single or multiple shooting, open or
closed loop, dynamics, gains and guess, `rolloutShotsSingleThreaded` over all stages returns
normally without touching memory outside the arrays, and if it reports success then every next
state plus recorded defect is the propagated state, with zero defects inside the shots. -/
theorem C54_rollout (C : RollCfg X U) (xref : List X) (stop : ℕ → Bool) (r : Roll X U)
    (d : List X) (hK : 0 < C.K) (hshot : 0 < C.Kshot) (hS : Sizes C xref r)
    (hd : C.K ≤ d.length) :
    ∃ r' d' b, rolloutShotsSingleThreaded C xref stop 0 (C.K - 1) r d = Res.ok (r', d', b) ∧
      (b = true → IsRollout C.f C.K C.stepsPerShot C.law xref r r' d') := by
  obtain ⟨r', d', b, e, h1, -, -⟩ := rollout_core C xref stop r d hK hshot hS hd
  exact ⟨r', d', b, e, h1⟩

/-- C54 (arrays too short): whatever the sizes of the arrays handed to a roll-out of one shot, nothing outside them
is read or written: it is refused, or it returns normally.  (Gains and reference states are the backend's own.) -/
theorem C54_short_arrays (C : RollCfg X U) (xref : List X) (stop : ℕ → Bool) (r : Roll X U) {k : ℕ}
    (hk : k < C.K) (hL : C.closed = true → C.K ≤ C.L.length) (hr : C.closed = true → C.K ≤ xref.length) :
    rolloutSingleShot C xref stop k r = Res.exc ∨
      ∃ p, rolloutSingleShot C xref stop k r = Res.ok p := by
  by_cases hu : r.u.length < C.K
  · left; simp [rolloutSingleShot, hu]
  by_cases hx : r.x.length < C.K + 1
  · left; simp [rolloutSingleShot, hu, hx]
  by_cases hs : r.s.length < C.K + 1
  · left; simp [rolloutSingleShot, hu, hx, hs]
  right
  obtain ⟨r', b, e, -, -⟩ := single_spec C xref stop k r ⟨by omega, by omega, by omega, hL, hr⟩ hk
  exact ⟨_, e⟩

/-! ### C118 -/

/-- C118 (partial): an uninterrupted roll-out over all stages reports success exactly if no state or control of a stage is
NaN.  Missing is the terminal state, which is not looked at, see `C118_terminal_violated`. -/
theorem C118_nan_partial (C : RollCfg X U) (xref : List X) (r : Roll X U) (d : List X) (hK : 0 < C.K)
    (hshot : 0 < C.Kshot) (hS : Sizes C xref r) (hd : C.K ≤ d.length) :
    ∃ r' d' b, rolloutShotsSingleThreaded C xref (fun _ => false) 0 (C.K - 1) r d = Res.ok (r', d', b) ∧
      (b = true ↔ ∀ i < C.K, C.nanX (r'.x.getD i 0) = false ∧ C.nanU (r'.u.getD i 0) = false) := by
  obtain ⟨r', d', b, e, -, h2, h3⟩ := rollout_core C xref (fun _ => false) r d hK hshot hS hd
  refine ⟨r', d', b, e, h2, fun h => ?_⟩
  cases b with
  | true => rfl
  | false =>
    rcases h3 rfl with ⟨i, _, hi⟩ | ⟨i, hi, hn⟩
    · simp at hi
    · obtain ⟨ha, hb⟩ := h i hi
      rw [ha, hb] at hn
      simp at hn

/-- If a roll-out over a list of shots succeeds, the serial backend's `rolloutShots`, which does not
look at the success, does the same. -/
private theorem rolloutShotsList_of_success {C : RollCfg X U} {xref : List X} :
    ∀ (ks : List ℕ) (r r' : Roll X U) (d d' : List X),
      rolloutList C xref (fun _ => false) ks r d = Res.ok (r', d', true) →
      rolloutShotsList C xref ks r d = Res.ok (r', d')
  | [], r, r', d, d', h => by
    simp only [rolloutList, Res.pure_eq, Res.ok.injEq, Prod.mk.injEq] at h
    simp [rolloutShotsList, h.1, h.2.1]
  | k :: ks, r, r', d, d', h => by
    rw [rolloutList] at h
    obtain ⟨p, h1, h2⟩ := Res.bind_eq_ok.1 h
    by_cases hp : p.2 = true
    · rw [if_pos hp] at h2
      obtain ⟨d2, h3, h4⟩ := Res.bind_eq_ok.1 h2
      rw [rolloutShotsList, h1, Res.ok_bind, h3, Res.ok_bind]
      exact rolloutShotsList_of_success ks _ _ _ _ h4
    · rw [if_neg hp] at h2
      simp at h2

/-- Without NaN a roll-out that nobody interrupts succeeds. -/
private theorem shotLoop_good {C : RollCfg X U} {xref : List X} {k : ℕ}
    (hx : ∀ x, C.nanX x = false) (hu : ∀ u, C.nanU u = false) :
    ∀ (n i : ℕ) (r r' : Roll X U) (b : Bool),
      shotLoop C xref (fun _ => false) k n i r = Res.ok (r', b) → b = true
  | 0, i, r, r', b, h => by
    simp only [shotLoop, Res.pure_eq, Res.ok.injEq, Prod.mk.injEq] at h
    exact h.2.symm
  | n + 1, i, r, r', b, h => by
    simp only [shotLoop, Bool.false_eq_true, if_false] at h
    obtain ⟨p, h1, h2⟩ := Res.bind_eq_ok.1 h
    have hp : p.2 = true := by
      unfold shotStep at h1
      obtain ⟨a1, -, h1⟩ := Res.bind_eq_ok.1 h1
      obtain ⟨a2, -, h1⟩ := Res.bind_eq_ok.1 h1
      obtain ⟨a3, -, h1⟩ := Res.bind_eq_ok.1 h1
      obtain ⟨a4, -, h1⟩ := Res.bind_eq_ok.1 h1
      obtain ⟨a5, -, h1⟩ := Res.bind_eq_ok.1 h1
      unfold nanCheck at h1
      obtain ⟨a6, -, h1⟩ := Res.bind_eq_ok.1 h1
      obtain ⟨a7, -, h1⟩ := Res.bind_eq_ok.1 h1
      simp only [hx, hu, Bool.or_self, Bool.false_eq_true, if_false, Res.pure_eq,
        Res.ok.injEq] at h1
      rw [← h1]
    rw [if_pos hp] at h2
    exact shotLoop_good hx hu n (i + 1) _ _ _ h2

theorem rolloutList_good {C : RollCfg X U} {xref : List X}
    (hx : ∀ x, C.nanX x = false) (hu : ∀ u, C.nanU u = false) :
    ∀ (ks : List ℕ) (r r' : Roll X U) (d d' : List X) (b : Bool),
      rolloutList C xref (fun _ => false) ks r d = Res.ok (r', d', b) → b = true
  | [], r, r', d, d', b, h => by
    simp only [rolloutList, Res.pure_eq, Res.ok.injEq, Prod.mk.injEq] at h
    exact h.2.2.symm
  | k :: ks, r, r', d, d', b, h => by
    rw [rolloutList] at h
    obtain ⟨p, h1, h2⟩ := Res.bind_eq_ok.1 h
    have hp : p.2 = true := by
      unfold rolloutSingleShot at h1
      split at h1
      · simp at h1
      split at h1
      · simp at h1
      split at h1
      · simp at h1
      obtain ⟨a1, -, h1⟩ := Res.bind_eq_ok.1 h1
      obtain ⟨a2, -, h1⟩ := Res.bind_eq_ok.1 h1
      exact shotLoop_good hx hu _ _ _ p.1 p.2 h1
    rw [if_pos hp] at h2
    obtain ⟨d2, h3, h4⟩ := Res.bind_eq_ok.1 h2
    exact rolloutList_good hx hu ks _ _ _ _ _ h4

/-- C54 (any order of the shots): if no number involved is NaN and the defects are zero at the
start, rolling out all shots in any order leaves a consistent roll-out. -/
theorem C54_any_order (C : RollCfg X U) (xref : List X) (r : Roll X U) (d : List X)
    (hK : 0 < C.K) (hshot : 0 < C.Kshot) (hS : Sizes C xref r) (hd : C.K ≤ d.length)
    (hx : ∀ x, C.nanX x = false) (hu : ∀ u, C.nanU u = false)
    (h0 : ∀ i < C.K, d.getD i 0 = 0) (ks : List ℕ) (hnd : ks.Nodup)
    (hks : ∀ k, k ∈ ks ↔ k < C.K ∧ C.stepsPerShot ∣ k) :
    ∃ r' d', rolloutShotsList C xref ks r d = Res.ok (r', d') ∧
      IsRollout C.f C.K C.stepsPerShot C.law xref r r' d' := by
  have hn : 0 < C.stepsPerShot := by unfold RollCfg.stepsPerShot; split <;> assumption
  obtain ⟨r', d', b, e, hb, hf⟩ := rolloutList_spec (stop := fun _ => false) hn hshot ks [] r d
    (prog_init hS hd h0)
    (fun k hk => ⟨((hks k).1 hk).2, ((hks k).1 hk).1, by simp⟩) hnd
  have hbt := rolloutList_good hx hu ks _ _ _ _ _ e
  subst hbt
  refine ⟨r', d', rolloutShotsList_of_success ks _ _ _ _ e, prog_isRollout (hb rfl) ?_⟩
  intro i hi
  simp only [List.append_nil, List.mem_reverse]
  obtain ⟨h1, h2⟩ := stage_mem_starts (i := i) hn
  exact (hks _).2 ⟨by omega, h1⟩

/-- C54 (the backend's own roll-out over all stages, in order). -/
theorem C54_all_shots (C : RollCfg X U) (xref : List X) (r : Roll X U) (d : List X)
    (hK : 0 < C.K) (hshot : 0 < C.Kshot) (hS : Sizes C xref r) (hd : C.K ≤ d.length)
    (hx : ∀ x, C.nanX x = false) (hu : ∀ u, C.nanU u = false) (h0 : ∀ i < C.K, d.getD i 0 = 0) :
    ∃ r' d', rolloutShotsST C xref 0 (C.K - 1) r d = Res.ok (r', d') ∧
      IsRollout C.f C.K C.stepsPerShot C.law xref r r' d' := by
  have hn : 0 < C.stepsPerShot := by unfold RollCfg.stepsPerShot; split <;> assumption
  refine C54_any_order C xref r d hK hshot hS hd hx hu h0 _ (shotStarts_nodup hn) fun k => ?_
  rw [shotStarts_mem hn]
  constructor
  · rintro ⟨h1, q, rfl⟩; exact ⟨by omega, by simp⟩
  · rintro ⟨h1, q, rfl⟩; exact ⟨by omega, q, by simp⟩

private theorem rolloutShotsList_append {C : RollCfg X U} {xref : List X} :
    ∀ (a b : List ℕ) (r : Roll X U) (d : List X),
      rolloutShotsList C xref (a ++ b) r d =
        (rolloutShotsList C xref a r d >>= fun p => rolloutShotsList C xref b p.1 p.2)
  | [], b, r, d => by simp [rolloutShotsList]
  | k :: a, b, r, d => by
    simp only [List.cons_append, rolloutShotsList, bind_assoc]
    congr 1; funext p; congr 1; funext d'
    exact rolloutShotsList_append a b _ _

/-- C54 (real-time iteration scheme): multiple shooting rolls out the shots from `K_shot` on in its
preparation phase and the first shot in its feedback phase
(`MultipleShooting-impl.hpp:59,103,183,226`).  Together they leave a consistent roll-out, for every
shot length, also one longer than the horizon. -/
theorem C54_prepare_finish (C : RollCfg X U) (xref : List X) (r : Roll X U) (d : List X)
    (hK : 0 < C.K) (hshot : 0 < C.Kshot) (hms : C.single = false) (hS : Sizes C xref r)
    (hd : C.K ≤ d.length) (hx : ∀ x, C.nanX x = false) (hu : ∀ u, C.nanU u = false)
    (h0 : ∀ i < C.K, d.getD i 0 = 0) :
    ∃ r' d', (rolloutShotsST C xref C.Kshot (C.K - 1) r d >>= fun p =>
        rolloutShotsST C xref 0 (C.Kshot - 1) p.1 p.2) = Res.ok (r', d') ∧
      IsRollout C.f C.K C.Kshot C.law xref r r' d' := by
  have hsp : C.stepsPerShot = C.Kshot := by simp [RollCfg.stepsPerShot, hms]
  have h := C54_any_order C xref r d hK hshot hS hd hx hu h0
    (shotStarts C.Kshot (C.K - 1) C.Kshot ++ shotStarts 0 (C.Kshot - 1) C.Kshot) ?_ ?_
  · rw [rolloutShotsList_append, hsp] at h
    simpa [rolloutShotsST, hsp] using h
  · rw [List.nodup_append]
    refine ⟨shotStarts_nodup hshot, shotStarts_nodup hshot, ?_⟩
    intro a ha b hb hab
    obtain ⟨-, q, rfl⟩ := (shotStarts_mem hshot a).1 ha
    obtain ⟨h2, -⟩ := (shotStarts_mem hshot b).1 hb
    have := Nat.zero_le (C.Kshot * q)
    omega
  · intro k
    rw [List.mem_append, shotStarts_mem hshot, shotStarts_mem hshot, hsp]
    constructor
    · rintro (⟨h1, q, rfl⟩ | ⟨h1, q, rfl⟩)
      · exact ⟨by omega, ⟨q + 1, by ring⟩⟩
      · have hq : q = 0 := by
          rcases Nat.eq_zero_or_pos q with h | h
          · exact h
          · have : C.Kshot * 1 ≤ C.Kshot * q := Nat.mul_le_mul_left _ h
            omega
        subst hq
        exact ⟨by simpa using hK, by simp⟩
    · rintro ⟨h1, q, rfl⟩
      cases q with
      | zero => right; exact ⟨by simp, 0, by simp⟩
      | succ q => left; exact ⟨by omega, q, by ring⟩

/-- The shots of the preparation phase do not depend on the first state. -/
private theorem prog_change_start {C : RollCfg X U} {xref : List X} {done : List ℕ} {r0 r : Roll X U} {d : List X}
    (hn : 0 < C.stepsPerShot) (hK : 0 < C.K) (h : Prog C xref done r0 r d) (hx0 : 0 < r0.x.length) (hd : 0 ∉ done) (x0 : X) :
    Prog C xref done { r0 with x := r0.x.set 0 x0 } { r with x := r.x.set 0 x0 } d := by
  have hx := h.sz.hx
  have hne : ∀ i, C.stepsPerShot * (i / C.stepsPerShot) ∈ done → i ≠ 0 := by
    rintro i hi rfl
    simp at hi
    exact hd hi
  have g : ∀ i, i ≠ 0 → (r.x.set 0 x0).getD i 0 = r.x.getD i 0 := by
    intro i hi
    rw [getD_set _ _ _ _ _ (by omega), if_neg (Ne.symm hi)]
  have hK0 : C.K ≠ 0 := by omega
  refine ⟨⟨h.sz.hu, by simpa using hx, h.sz.hs, h.sz.hL, h.sz.hr⟩, h.ld, ?_, ?_, ?_, ?_, h.fresh, ?_, ?_, ?_⟩
  · intro i hi hm
    simp only [g i (hne i hm)]
    exact h.dyn i hi hm
  · intro i hi hm
    simp only [g i (hne i hm)]
    exact h.ctrl i hi hm
  · intro i hi hdv hm
    simp only [g (i + 1) (by omega)]
    exact h.link i hi hdv hm
  · intro hm
    simp only [g C.K hK0]
    exact h.term hm
  · intro i hi hdv
    simp only
    rw [getD_set _ _ _ _ _ (by omega), getD_set _ _ _ _ _ hx0]
    split
    · rfl
    · exact h.start i hi hdv
  · intro i hi
    simp only [g (i + 1) (by omega)]
    exact h.defect i hi
  · intro i hi hm
    simp only [g i (hne i hm)]
    exact h.clean i hi hm

/-- C54 (real-time iteration with a new initial state): between preparation and feedback phase the first state may be
replaced and the defects may be set to zero.  The trajectory is then a roll-out of the guess with the new first state; its later
shots are those of the preparation phase, and the defects are those of the preparation phase for the later shots, those of the
feedback phase for the first one. -/
theorem C54_change_start (C : RollCfg X U) (xref : List X) (r : Roll X U) (d : List X)
    (hK : 0 < C.K) (hshot : 0 < C.Kshot) (hle : C.Kshot ≤ C.K) (hms : C.single = false) (hS : Sizes C xref r)
    (hd : C.K ≤ d.length) (hx : ∀ x, C.nanX x = false) (hu : ∀ u, C.nanU u = false)
    (h0 : ∀ i < C.K, d.getD i 0 = 0) :
    ∃ r1 d1, rolloutShotsST C xref C.Kshot (C.K - 1) r d = Res.ok (r1, d1) ∧ Sizes C xref r1 ∧ C.K ≤ d1.length ∧
      ∀ x0, ∃ r2 d2 d', rolloutShotsST C xref 0 (C.Kshot - 1) { r1 with x := r1.x.set 0 x0 } (d1.map fun _ => 0)
          = Res.ok (r2, d2) ∧ Sizes C xref r2 ∧
        IsRollout C.f C.K C.Kshot C.law xref { r with x := r.x.set 0 x0 } r2 d' ∧
        (∀ i, C.Kshot ≤ i → i < C.K → r2.x.getD i 0 = r1.x.getD i 0 ∧ r2.u.getD i 0 = r1.u.getD i 0 ∧
          r2.s.getD i 0 = r1.s.getD i 0 ∧ d'.getD i 0 = d1.getD i 0) ∧
        (C.Kshot < C.K → r2.x.getD C.K 0 = r1.x.getD C.K 0) ∧
        (∀ i < C.Kshot, d'.getD i 0 = d2.getD i 0) ∧
        d2 = (if C.Kshot < C.K then (d1.map fun _ => 0).set (C.Kshot - 1) (d'.getD (C.Kshot - 1) 0)
          else d1.map fun _ => 0) := by
  have hsp : C.stepsPerShot = C.Kshot := by simp [RollCfg.stepsPerShot, hms]
  have hn : 0 < C.stepsPerShot := by rw [hsp]; exact hshot
  obtain ⟨r1, d1, b, e, hb, -⟩ := rolloutList_spec (stop := fun _ => false) hn hshot
    (shotStarts C.Kshot (C.K - 1) C.Kshot) [] r d (prog_init hS hd h0) (by
      intro k hk
      obtain ⟨h1, q, rfl⟩ := (shotStarts_mem hshot k).1 hk
      exact ⟨by rw [hsp]; exact ⟨q + 1, by ring⟩, by omega, by simp⟩) (shotStarts_nodup hshot)
  have hbt := rolloutList_good hx hu _ _ _ _ _ _ e
  subst hbt
  have hP := hb rfl
  have hnot : 0 ∉ (shotStarts C.Kshot (C.K - 1) C.Kshot).reverse ++ [] := by
    simp only [List.append_nil, List.mem_reverse]
    intro hh
    obtain ⟨-, q, hq⟩ := (shotStarts_mem hshot 0).1 hh
    omega
  refine ⟨r1, d1, by rw [rolloutShotsST, hsp]; exact rolloutShotsList_of_success _ _ _ _ _ e, hP.sz, hP.ld, fun x0 => ?_⟩
  have hr0 : 0 < r.x.length := by have := hS.hx; omega
  have hP' := prog_change_start hn hK hP hr0 hnot x0
  obtain ⟨r2, b, e2, hS2, hb2, -⟩ := single_spec C xref (fun _ => false) 0 _ hP'.sz hK
  have hbt : b = true := by
    have : rolloutList C xref (fun _ => false) [0] { r1 with x := r1.x.set 0 x0 } d1
        = (if b then computeSingleDefect C 0 r2.x r2.s d1 >>= fun d' => Res.ok (r2, d', true) else Res.ok (r2, d1, false)) := by
      rw [rolloutList, e2, Res.ok_bind]; rfl
    cases b with
    | true => rfl
    | false => exact rolloutList_good hx hu _ _ _ _ _ _ this
  subst hbt
  have hpart := hb2 rfl
  obtain ⟨d', e3, hP2⟩ := prog_step hn hshot hP' (dvd_zero _) hK hnot hS2 hpart
  have hroll := prog_isRollout hP2 (by
    intro i hi
    simp only [List.append_nil, List.mem_cons, List.mem_reverse]
    obtain ⟨q, hq⟩ : ∃ q, q = i / C.stepsPerShot := ⟨_, rfl⟩
    rw [← hq]
    cases q with
    | zero => left; simp
    | succ q =>
      right
      rw [shotStarts_mem hshot]
      have := (stage_mem_starts (i := i) hn).2
      rw [← hq] at this
      exact ⟨by omega, q, by rw [hsp]; ring⟩)
  rw [hsp] at hroll
  rw [hsp, show min (0 + C.Kshot) C.K = C.Kshot by omega] at hpart
  have hst : shotStarts 0 (C.Kshot - 1) C.stepsPerShot = [0] := by
    rw [hsp, shotStarts]
    obtain ⟨k, hk⟩ : ∃ k, C.Kshot = k + 1 := ⟨C.Kshot - 1, by omega⟩
    rw [hk]
    simp only [loopIndices, Nat.add_sub_cancel, Nat.sub_zero, Nat.zero_le, if_true]
    cases k <;> simp [loopIndices]
  have hl1 := hP.ld
  -- both ways of recording the defect of the first shot
  have hcd : ∀ dd : List X, C.K ≤ dd.length → computeSingleDefect C 0 r2.x r2.s dd = Res.ok
      (if C.Kshot < C.K then dd.set (C.Kshot - 1) (r2.s.getD (C.Kshot - 1) 0 - r2.x.getD C.Kshot 0) else dd) := by
    intro dd hdd
    have hxs := hS2.hx
    have hss := hS2.hs
    unfold computeSingleDefect
    simp only []
    rw [Nat.zero_add, Nat.min_eq_right hle]
    split
    · rw [idx_getD (by omega) 0, Res.ok_bind, idx_getD (by omega) 0, Res.ok_bind, setAt_ok (by omega)]
    · rfl
  have hd' := hcd d1 hl1
  rw [e3] at hd'
  have hd' := Res.ok.inj hd'
  have hdz : ∀ i < C.Kshot, d1.getD i 0 = 0 := by
    intro i hi
    rw [hP.defect i (by omega), if_neg]
    rintro ⟨-, hh⟩
    rw [show C.stepsPerShot * (i / C.stepsPerShot) = 0 by rw [hsp, Nat.div_eq_of_lt hi, Nat.mul_zero]] at hh
    exact hnot hh
  have hlast : C.Kshot < C.K → d'.getD (C.Kshot - 1) 0 = r2.s.getD (C.Kshot - 1) 0 - r2.x.getD C.Kshot 0 := by
    intro hh
    rw [hd', if_pos hh, getD_set _ _ _ _ _ (by omega), if_pos rfl]
  refine ⟨r2, if C.Kshot < C.K then (d1.map fun _ => 0).set (C.Kshot - 1) (r2.s.getD (C.Kshot - 1) 0 - r2.x.getD C.Kshot 0)
    else d1.map fun _ => 0, d', ?_, hS2, hroll, ?_, ?_, ?_, ?_⟩
  · rw [rolloutShotsST, hst, rolloutShotsList, e2, Res.ok_bind]
    simp only []
    rw [hcd _ (by simpa using hl1), Res.ok_bind, rolloutShotsList]
    rfl
  · intro i h1 h2
    have g : (r1.x.set 0 x0).getD i 0 = r1.x.getD i 0 := by
      have := hP.sz.hx
      rw [getD_set _ _ _ _ _ (by omega), if_neg (by omega)]
    refine ⟨?_, hpart.frameU i (Or.inr h1), hpart.frameS' i h1 (by omega), ?_⟩
    · rw [hpart.frameX i (Or.inr ⟨h1, Or.inl (by omega)⟩)]; exact g
    · rw [hd']
      split
      · rw [getD_set _ _ _ _ _ (by omega), if_neg (by omega)]
      · rfl
  · intro hh
    have := hP.sz.hx
    rw [hpart.frameX C.K (Or.inr ⟨hle, Or.inr hh⟩)]
    simp only
    rw [getD_set _ _ _ _ _ (by omega), if_neg (by omega)]
  · intro i hi
    rw [hd']
    split
    · rw [getD_set _ _ _ _ _ (by omega), getD_set _ _ _ _ _ (by simp; omega), getD_map_zero, hdz i hi]
    · rw [getD_map_zero, hdz i hi]
  · split
    · next hh => rw [hlast hh]
    · rfl

/-- The conditions of `IsRollout` determine the trajectory: two roll-outs of the same guess agree in
every state, control and defect.  (So the order in which shots are rolled out cannot matter.) -/
theorem C54_unique (f : X → ℕ → U → X) (K n : ℕ) (fb : Option (ℕ → X → U)) (xref : List X)
    (r0 r r' : Roll X U) (d d' : List X) (h : IsRollout f K n fb xref r0 r d)
    (h' : IsRollout f K n fb xref r0 r' d') :
    (∀ i < K, r.x.getD i 0 = r'.x.getD i 0 ∧ r.u.getD i 0 = r'.u.getD i 0 ∧
      d.getD i 0 = d'.getD i 0) ∧ (0 < K → r.x.getD K 0 = r'.x.getD K 0) := by
  have hxu : ∀ i < K, r.x.getD i 0 = r'.x.getD i 0 ∧ r.u.getD i 0 = r'.u.getD i 0 := by
    intro i
    induction i with
    | zero =>
      intro hi
      have hx : r.x.getD 0 0 = r'.x.getD 0 0 := by
        rw [h.shotStart 0 hi (dvd_zero n), h'.shotStart 0 hi (dvd_zero n)]
      refine ⟨hx, ?_⟩
      rw [h.controls 0 hi, h'.controls 0 hi, hx]
    | succ i ih =>
      intro hi
      obtain ⟨ix, iu⟩ := ih (by omega)
      have hx : r.x.getD (i + 1) 0 = r'.x.getD (i + 1) 0 := by
        by_cases hdv : n ∣ i + 1
        · rw [h.shotStart _ hi hdv, h'.shotStart _ hi hdv]
        · have a := h.dynamics i (by omega)
          have b := h'.dynamics i (by omega)
          rw [h.inside i (by omega) (fun hh => hdv hh.2), add_zero] at a
          rw [h'.inside i (by omega) (fun hh => hdv hh.2), add_zero] at b
          rw [a, b, ix, iu]
      refine ⟨hx, ?_⟩
      rw [h.controls _ hi, h'.controls _ hi, hx]
  have hlast : 0 < K → r.x.getD K 0 = r'.x.getD K 0 := by
    intro hK
    have a := h.dynamics (K - 1) (by omega)
    have b := h'.dynamics (K - 1) (by omega)
    rw [h.inside (K - 1) (by omega) (fun hh => by omega), add_zero] at a
    rw [h'.inside (K - 1) (by omega) (fun hh => by omega), add_zero] at b
    obtain ⟨ix, iu⟩ := hxu (K - 1) (by omega)
    rw [show K - 1 + 1 = K by omega] at a b
    rw [a, b, ix, iu]
  refine ⟨fun i hi => ⟨(hxu i hi).1, (hxu i hi).2, ?_⟩, hlast⟩
  have a := h.dynamics i hi
  have b := h'.dynamics i hi
  obtain ⟨ix, iu⟩ := hxu i hi
  have hnext : r.x.getD (i + 1) 0 = r'.x.getD (i + 1) 0 := by
    by_cases hK : i + 1 < K
    · exact (hxu _ hK).1
    · rw [show i + 1 = K by omega]; exact hlast (by omega)
  have : r.x.getD (i + 1) 0 + d.getD i 0 = r.x.getD (i + 1) 0 + d'.getD i 0 := by
    rw [a, hnext, b, ix, iu]
  exact add_left_cancel this

/-! ### A non-trivial case: five stages, shots of two, closed loop -/

/-- `x⁺ = 2x + u + i`, gain `-3`, five stages, shots of two stages. -/
private def exC : RollCfg ℤ ℤ :=
  { f := fun x i u => 2 * x + u + i, K := 5, Kshot := 2, single := false, closed := true,
    L := List.replicate 5 fun x => -3 * x, nanX := fun _ => false, nanU := fun _ => false }

private def exR : Roll ℤ ℤ := { u := [1, 2, 3, 4, 5], x := [1, 7, 2, 7, 3, 7], s := List.replicate 6 0 }

private theorem exSizes : Sizes exC [1, 1, 1, 1, 1, 1] exR :=
  ⟨by decide, by decide, by decide, fun _ => by decide, fun _ => by decide⟩

/-- The hypotheses of the theorems hold here, and the defects are not all zero. -/
example : ∃ r' d', rolloutShotsSingleThreaded exC [1, 1, 1, 1, 1, 1] (fun _ => false) 0 4 exR
      [9, 9, 9, 9, 9, 9] = Res.ok (r', d', true) ∧ d' = [0, 1, 0, 1, 0, 0]
      ∧ r'.x = [1, 3, 2, 6, 3, 9] := by
  refine ⟨_, _, rfl, ?_, ?_⟩ <;> decide +kernel

example : Sizes exC [1, 1, 1, 1, 1, 1] exR ∧ 0 < exC.K ∧ 0 < exC.Kshot ∧ exC.single = false :=
  ⟨exSizes, by decide, by decide, rfl⟩

/-- Two stages; states below zero stand for NaN. -/
private def nanC : RollCfg ℤ ℤ :=
  { f := fun x _ u => x + u, K := 2, Kshot := 2, single := true, closed := false, L := [],
    nanX := fun x => decide (x < 0), nanU := fun u => decide (u < 0) }

/-- Dynamics that turn the last control into NaN: no stage but the terminal state is affected. -/
private def nanEnd : RollCfg ℤ ℤ := { nanC with f := fun x i u => if i = 1 then -1 else x + u }

/-- C118 is violated at the end of the horizon: a roll-out whose terminal state is NaN is reported as success. -/
theorem C118_terminal_violated : ∃ r' d', Sizes nanEnd [] { u := [1, 1], x := [0, 0, 0], s := [0, 0, 0] } ∧
    rolloutShotsSingleThreaded nanEnd [] (fun _ => false) 0 1 { u := [1, 1], x := [0, 0, 0], s := [0, 0, 0] } [0, 0]
      = Res.ok (r', d', true) ∧ nanEnd.nanX (r'.x.getD nanEnd.K 0) = true := by
  refine ⟨{ u := [1, 1], x := [0, 1, -1], s := [1, -1, 0] }, [0, 0], ⟨by decide, by decide, by decide, ?_, ?_⟩, ?_, ?_⟩
  · intro h; exact absurd h (by decide)
  · intro h; exact absurd h (by decide)
  · rfl
  · decide

/-- A NaN control is noticed. -/
example : ∃ r' d', rolloutShotsSingleThreaded nanC [] (fun _ => false) 0 1
    { u := [1, -1], x := [0, 0, 0], s := [0, 0, 0] } [0, 0] = Res.ok (r', d', false) := ⟨_, _, rfl⟩

end CT.Nloc
