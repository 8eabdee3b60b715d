import Verif.Model.SwitchedConstraint
import Verif.Props.Switching
import Mathlib.Algebra.Order.Ring.Int

/-!
# C159, C160: switched constraints
-/

namespace CT.SwitchedCon

open CT.Switching

variable {X U T V R : Type} [AddCommGroup T] [LinearOrder T] [Zero X] [Zero U]

/-! ### Specification -/

/-- What the user gave: the containers of modes in the order of their creation (a copy creates one for each mode), and for each
switched container its containers and its mode sequence. -/
structure Given (X U T V R : Type) where
  cons : List (Con X U T V R)
  sws : List (List (Con X U T V R) × PhaseSeq ℕ T)

/-- What one step gives. -/
def Given.step (g : Given X U T V R) : Op X U T V R → Given X U T V R
  | .newObj c => { g with cons := g.cons ++ [c] }
  | .construct conts modes => { g with sws := g.sws ++ [(conts.filterMap (fun c => g.cons[c]?), modes)] }
  | .copy k =>
      match g.sws[k]? with
      | some f => { cons := g.cons ++ f.1, sws := g.sws ++ [f] }
      | none => g
  | _ => g

/-- What a history gives. -/
def given (ops : List (Op X U T V R)) : Given X U T V R := ops.foldl Given.step ⟨[], []⟩

/-- The program at its start. -/
def start : World X U T V R := ⟨[], []⟩

/-! ### Lemmas -/

omit [AddCommGroup T] [LinearOrder T] [Zero X] [Zero U] in
theorem idx_ok {α : Type} {l : List α} {i : ℕ} {a : α} : idx l i = .ok a ↔ l[i]? = some a := by
  unfold idx
  cases l[i]? <;> simp

theorem atN_ok {α : Type} {l : List α} {i : ℕ} {a : α} : atN l i = .ok a ↔ l[i]? = some a := by
  unfold atN
  cases l[i]? <;> simp

theorem back_ok {α : Type} {l : List α} {a : α} : back l = .ok a ↔ l.getLast? = some a := by
  unfold back
  cases l.getLast? <;> simp

omit [AddCommGroup T] [LinearOrder T] [Zero X] [Zero U] in
theorem fetch_ok {objs : List (Obj X U T V R)} {cs : List ℕ} {os : List (Obj X U T V R)} :
    fetch objs cs = .ok os ↔ cs.map (fun c => objs[c]?) = os.map some := by
  induction cs generalizing os with
  | nil => cases os <;> simp [fetch]
  | cons c cs ih =>
    rw [fetch]
    simp only [Res.bind_eq_ok, idx_ok, Res.pure_eq, Res.ok.injEq]
    constructor
    · rintro ⟨o, ho, os', h, rfl⟩
      simp [ho, ih.mp h]
    · cases os with
      | nil => simp
      | cons o os =>
        intro h
        simp only [List.map_cons, List.cons.injEq] at h
        exact ⟨o, h.1, os, ih.mpr h.2, rfl⟩

/-- One switched container agrees with what was given. -/
structure Agrees (objs : List (Obj X U T V R)) (s : Sw X U T R) (f : List (Con X U T V R) × PhaseSeq ℕ T) : Prop where
  modes : s.modes = f.2
  conts : s.conts.map (fun c => objs[c]?.map Obj.con) = f.1.map some
  terminal : ∃ m, f.2.phases.getLast? = some m ∧ s.conts[m]? = some s.terminal
  active : s.active ∈ s.conts
  ready : s.initI = true → ∀ c ∈ s.conts, ∃ o, objs[c]? = some o ∧ o.init = true
  bT : s.initI = true → ∃ m c, f.2.phases.getLast? = some m ∧ f.1[m]? = some c ∧ s.lbT = c.lbT ∧ s.ubT = c.ubT

/-- The program agrees with what was given. -/
structure Inv (w : World X U T V R) (g : Given X U T V R) : Prop where
  cons : w.objs.map Obj.con = g.cons
  len : w.sws.length = g.sws.length
  init : ∀ (a : ℕ) (o : Obj X U T V R), w.objs[a]? = some o → o.init = true → o.con.initOk = true
  sws : ∀ (k : ℕ) s f, w.sws[k]? = some s → g.sws[k]? = some f → Agrees w.objs s f

/-- Stores with the same contents, where no container lost its initialisation. -/
structure Ext (objs objs' : List (Obj X U T V R)) : Prop where
  con : ∀ (a : ℕ) (o : Obj X U T V R), objs[a]? = some o → ∃ o', objs'[a]? = some o' ∧ o'.con = o.con ∧ (o.init = true → o'.init = true)

omit [AddCommGroup T] [LinearOrder T] [Zero X] [Zero U] in
theorem Agrees.ext {objs objs' : List (Obj X U T V R)} {s : Sw X U T R} {f : List (Con X U T V R) × PhaseSeq ℕ T}
    (h : Agrees objs s f) (e : Ext objs objs') : Agrees objs' s f where
  modes := h.modes
  conts := by
    rw [← h.conts]
    refine List.map_congr_left fun c hc => ?_
    have : objs[c]?.map Obj.con ∈ f.1.map some := by
      rw [← h.conts]
      exact List.mem_map.mpr ⟨c, hc, rfl⟩
    obtain ⟨k, -, hk⟩ := List.mem_map.mp this
    obtain ⟨o, ho, -⟩ := Option.map_eq_some_iff.mp hk.symm
    obtain ⟨o', h1, h2, -⟩ := e.con c o ho
    simp [ho, h1, h2]
  terminal := h.terminal
  active := h.active
  ready hi c hc := by
    obtain ⟨o, ho, hoi⟩ := h.ready hi c hc
    obtain ⟨o', h1, -, h3⟩ := e.con c o ho
    exact ⟨o', h1, h3 hoi⟩
  bT := h.bT

omit [AddCommGroup T] [LinearOrder T] [Zero X] [Zero U] in
theorem Ext.refl (objs : List (Obj X U T V R)) : Ext objs objs := ⟨fun _ o h => ⟨o, h, rfl, id⟩⟩

omit [AddCommGroup T] [LinearOrder T] [Zero X] [Zero U] in
theorem Ext.trans {a b c : List (Obj X U T V R)} (h1 : Ext a b) (h2 : Ext b c) : Ext a c := ⟨fun i o h => by
  obtain ⟨o', p, q, r⟩ := h1.con i o h
  obtain ⟨o'', p', q', r'⟩ := h2.con i o' p
  exact ⟨o'', p', q'.trans q, fun z => r' (r z)⟩⟩

omit [AddCommGroup T] [LinearOrder T] [Zero X] [Zero U] in
theorem Ext.append (objs os : List (Obj X U T V R)) : Ext objs (objs ++ os) := ⟨fun a o h => by
  have : a < objs.length := (List.getElem?_eq_some_iff.mp h).1
  exact ⟨o, by rw [List.getElem?_append_left this, h], rfl, id⟩⟩

omit [AddCommGroup T] [LinearOrder T] [Zero X] [Zero U] in
theorem Ext.set {objs : List (Obj X U T V R)} {a : ℕ} {o o' : Obj X U T V R} (h : objs[a]? = some o) (hc : o'.con = o.con)
    (hi : o.init = true → o'.init = true) : Ext objs (objs.set a o') := ⟨fun b p hp => by
  have hl := (List.getElem?_eq_some_iff.mp h).1
  by_cases hab : a = b
  · subst hab
    obtain rfl : o = p := by simpa [h] using hp
    exact ⟨o', by simp [hl], hc, hi⟩
  · exact ⟨p, by rw [List.getElem?_set_ne hab, hp], rfl, id⟩⟩

omit [AddCommGroup T] [LinearOrder T] [Zero X] [Zero U] in
theorem map_con_set {objs : List (Obj X U T V R)} {a : ℕ} {o o' : Obj X U T V R} (h : objs[a]? = some o) (hc : o'.con = o.con) :
    (objs.set a o').map Obj.con = objs.map Obj.con := by
  apply List.ext_getElem?
  intro i
  have hl := (List.getElem?_eq_some_iff.mp h).1
  by_cases hai : a = i
  · subst hai
    simp [hl, hc, (List.getElem?_eq_some_iff.mp h).2]
  · simp [List.getElem?_set_ne hai]

omit [AddCommGroup T] [LinearOrder T] [Zero X] [Zero U] in
theorem init_set {objs : List (Obj X U T V R)} {a : ℕ} {o' : Obj X U T V R}
    (h : ∀ (a : ℕ) (o : Obj X U T V R), objs[a]? = some o → o.init = true → o.con.initOk = true) (ho' : o'.init = true → o'.con.initOk = true) :
    ∀ (b : ℕ) (p : Obj X U T V R), (objs.set a o')[b]? = some p → p.init = true → p.con.initOk = true := by
  intro b p hp
  by_cases hab : a = b
  · subst hab
    rw [List.getElem?_set] at hp
    simp only [if_true] at hp
    split at hp
    · obtain rfl : o' = p := by simpa using hp
      exact ho'
    · cases hp
  · rw [List.getElem?_set_ne hab] at hp
    exact h b p hp

omit [AddCommGroup T] [LinearOrder T] [Zero X] [Zero U] in
theorem initLoop_ok {cs : List ℕ} {objs objs' : List (Obj X U T V R)} {b : Bool} (h : initLoop objs cs = .ok (objs', b))
    (hi : ∀ (a : ℕ) (o : Obj X U T V R), objs[a]? = some o → o.init = true → o.con.initOk = true) :
    Ext objs objs' ∧ objs'.map Obj.con = objs.map Obj.con ∧
    (∀ (a : ℕ) (o : Obj X U T V R), objs'[a]? = some o → o.init = true → o.con.initOk = true) ∧
    (b = true → ∀ c ∈ cs, ∃ o, objs'[c]? = some o ∧ o.init = true) ∧
    (∀ a, a ∉ cs → objs'[a]? = objs[a]?) ∧
    (b = false → ∃ c ∈ cs, ∃ o, objs'[c]? = some o ∧ o.con.initOk = false) := by
  induction cs generalizing objs with
  | nil =>
    simp only [initLoop, Res.ok.injEq, Prod.mk.injEq] at h
    obtain ⟨rfl, rfl⟩ := h
    exact ⟨Ext.refl _, rfl, hi, by simp, fun _ _ => rfl, by simp⟩
  | cons c cs ih =>
    simp only [initLoop, Res.bind_eq_ok, idx_ok] at h
    obtain ⟨o, ho, h⟩ := h
    have hl := (List.getElem?_eq_some_iff.mp ho).1
    have e1 : Ext objs (objs.set c o.initialize) := Ext.set ho rfl (hi c o ho)
    have m1 := map_con_set (o' := o.initialize) ho rfl
    have i1 := init_set (a := c) (o' := o.initialize) hi id
    split at h
    · rename_i hin
      obtain ⟨p1, p2, p3, p4, p5, p6⟩ := ih h i1
      refine ⟨e1.trans p1, p2.trans m1, p3, ?_, ?_, ?_⟩
      · intro hb d hd
        rcases List.mem_cons.mp hd with rfl | hd
        · obtain ⟨o', q1, -, q3⟩ := p1.con d o.initialize (by simp [hl])
          exact ⟨o', q1, q3 hin⟩
        · exact p4 hb d hd
      · intro a ha
        simp only [List.mem_cons, not_or] at ha
        rw [p5 a ha.2, List.getElem?_set_ne (Ne.symm ha.1)]
      · intro hb
        obtain ⟨d, hd, q⟩ := p6 hb
        exact ⟨d, List.mem_cons_of_mem _ hd, q⟩
    · rename_i hin
      simp only [Res.pure_eq, Res.ok.injEq, Prod.mk.injEq] at h
      obtain ⟨rfl, rfl⟩ := h
      refine ⟨e1, m1, i1, by simp, ?_, fun _ => ⟨c, by simp, o.initialize, by simp [hl], by simpa [Obj.initialize] using hin⟩⟩
      intro a ha
      simp only [List.mem_cons, not_or] at ha
      rw [List.getElem?_set_ne (Ne.symm ha.1)]

omit [AddCommGroup T] [LinearOrder T] [Zero X] [Zero U] in
theorem getElem?_snoc {α : Type} {l : List α} {a b : α} {k : ℕ} (h : (l ++ [a])[k]? = some b) :
    (k < l.length ∧ l[k]? = some b) ∨ (k = l.length ∧ b = a) := by
  rcases lt_or_ge k l.length with hk | hk
  · exact .inl ⟨hk, by rwa [List.getElem?_append_left hk] at h⟩
  · rw [List.getElem?_append_right hk] at h
    rcases Nat.eq_zero_or_pos (k - l.length) with h0 | h0
    · rw [h0] at h
      exact .inr ⟨by omega, by simpa using h.symm⟩
    · rw [List.getElem?_eq_none (by simp; omega)] at h
      cases h

omit [AddCommGroup T] [LinearOrder T] [Zero X] [Zero U] in
theorem getElem?_set_some {α : Type} {l : List α} {a b : α} {j k : ℕ} (h : (l.set j a)[k]? = some b) :
    (k = j ∧ b = a) ∨ (k ≠ j ∧ l[k]? = some b) := by
  by_cases hjk : j = k
  · subst hjk
    rw [List.getElem?_set] at h
    simp only [if_true] at h
    split at h
    · exact .inl ⟨rfl, by simpa using h.symm⟩
    · cases h
  · rw [List.getElem?_set_ne hjk] at h
    exact .inr ⟨fun z => hjk z.symm, h⟩

theorem inv_step {w w' : World X U T V R} {g : Given X U T V R} (hI : Inv w g) {op : Op X U T V R}
    (h : step w op = .ok w') : Inv w' (g.step op) := by
  cases op with
  | newObj c =>
    simp only [step, Res.ok.injEq] at h
    subst h
    refine ⟨by simp [Given.step, ← hI.cons], hI.len, ?_, fun k s f hs hf => (hI.sws k s f hs hf).ext (Ext.append _ _)⟩
    intro a o ho hoi
    rcases getElem?_snoc ho with ⟨-, h⟩ | ⟨-, rfl⟩
    · exact hI.init a o h hoi
    · cases hoi
  | setObj a x u t =>
    simp only [step, Res.bind_eq_ok, idx_ok, Res.pure_eq, Res.ok.injEq] at h
    obtain ⟨o, ho, rfl⟩ := h
    exact ⟨(map_con_set (o' := o.set x u t) ho rfl).trans hI.cons, hI.len, init_set hI.init (hI.init a o ho),
      fun k s f hs hf => (hI.sws k s f hs hf).ext (Ext.set ho rfl id)⟩
  | initObj a =>
    simp only [step, Res.bind_eq_ok, idx_ok, Res.pure_eq, Res.ok.injEq] at h
    obtain ⟨o, ho, rfl⟩ := h
    exact ⟨(map_con_set (o' := o.initialize) ho rfl).trans hI.cons, hI.len, init_set hI.init id,
      fun k s f hs hf => (hI.sws k s f hs hf).ext (Ext.set ho rfl (hI.init a o ho))⟩
  | construct conts modes =>
    simp only [step, construct, front, Res.bind_eq_ok, idx_ok, back_ok, atN_ok, fetch_ok, Res.pure_eq, Res.ok.injEq] at h
    obtain ⟨a, ha, m, hm, e, he, os, hos, rfl⟩ := h
    refine ⟨hI.cons, by simp [Given.step, hI.len], hI.init, ?_⟩
    intro k s f hs hf
    rcases getElem?_snoc hf with ⟨hk, hf⟩ | ⟨rfl, rfl⟩
    · rcases getElem?_snoc hs with ⟨-, hs⟩ | ⟨rfl, rfl⟩
      · exact hI.sws k s f hs hf
      · exact absurd hI.len (by omega)
    · rcases getElem?_snoc hs with ⟨hk, hs⟩ | ⟨-, rfl⟩
      · exact absurd hI.len (by omega)
      · have hcons : ∀ c, g.cons[c]? = w.objs[c]?.map Obj.con := fun c => by rw [← hI.cons, List.getElem?_map]
        refine ⟨rfl, ?_, ⟨m, hm, he⟩, List.mem_of_getElem? ha, by simp, by simp⟩
        simp only [hcons]
        clear ha he hs hf
        induction conts generalizing os with
        | nil => rfl
        | cons c cs ih =>
          cases os with
          | nil => simp at hos
          | cons o os =>
            simp only [List.map_cons, List.cons.injEq] at hos
            simp [hos.1, ih os hos.2]
  | copy k =>
    simp only [step, copy, front, Res.bind_eq_ok, idx_ok, back_ok, atN_ok, fetch_ok, Res.pure_eq, Res.ok.injEq] at h
    obtain ⟨s, hs, os, hos, a, ha, m, hm, e, he, rfl⟩ := h
    have hk : k < g.sws.length := by
      rw [← hI.len]
      exact (List.getElem?_eq_some_iff.mp hs).1
    obtain ⟨f, hf⟩ : ∃ f, g.sws[k]? = some f := ⟨_, List.getElem?_eq_getElem hk⟩
    have hA := hI.sws k s f hs hf
    have hfam : f.1 = os.map Obj.con := by
      have := hA.conts
      have h2 : s.conts.map (fun c => w.objs[c]?.map Obj.con) = (s.conts.map (fun c => w.objs[c]?)).map (Option.map Obj.con) := by
        simp
      rw [h2, hos] at this
      have h3 := congrArg (List.filterMap id) this
      simpa using h3.symm
    have hlen : s.conts.length = os.length := by simpa using congrArg List.length hos
    have hget : ∀ i, i < os.length → (w.objs ++ os)[w.objs.length + i]? = os[i]? := fun i _ => by
      rw [List.getElem?_append_right (by omega)]
      simp
    simp only [Given.step, hf]
    refine ⟨by simp [hI.cons, hfam], by simp [hI.len], ?_, ?_⟩
    · intro b o ho hoi
      rcases lt_or_ge b w.objs.length with hb | hb
      · rw [List.getElem?_append_left hb] at ho
        exact hI.init b o ho hoi
      · rw [List.getElem?_append_right hb] at ho
        have : some o ∈ os.map some := List.mem_map.mpr ⟨o, List.mem_of_getElem? ho, rfl⟩
        rw [← hos] at this
        obtain ⟨c, -, hc⟩ := List.mem_map.mp this
        exact hI.init c o hc hoi
    · intro j s' f' hs' hf'
      rcases getElem?_snoc hf' with ⟨hj, hf'⟩ | ⟨rfl, rfl⟩
      · rcases getElem?_snoc hs' with ⟨-, hs'⟩ | ⟨rfl, rfl⟩
        · exact (hI.sws j s' f' hs' hf').ext (Ext.append _ _)
        · exact absurd hI.len (by omega)
      · rcases getElem?_snoc hs' with ⟨hj, hs'⟩ | ⟨-, rfl⟩
        · exact absurd hI.len (by omega)
        · refine ⟨hA.modes, ?_, ⟨m, hA.modes ▸ hm, he⟩, List.mem_of_getElem? ha, ?_, hA.bT⟩
          · apply List.ext_getElem?
            intro i
            rw [hfam]
            simp only [List.getElem?_map, List.map_map, hlen]
            rcases lt_or_ge i os.length with hi | hi
            · simp [hi]
            · simp [hi]
          · intro hin c hc
            simp only [List.mem_map, List.mem_range] at hc
            obtain ⟨i, hi, rfl⟩ := hc
            rw [hlen] at hi
            refine ⟨os[i], by rw [hget i hi]; simp [hi], ?_⟩
            have h1 : some os[i] ∈ s.conts.map (fun c => w.objs[c]?) := by
              rw [hos]
              exact List.mem_map.mpr ⟨_, List.getElem_mem hi, rfl⟩
            obtain ⟨c, hc, hc'⟩ := List.mem_map.mp h1
            obtain ⟨o, ho, hoi⟩ := hA.ready hin c hc
            rw [ho] at hc'
            rw [← Option.some.inj hc']
            exact hoi
  | set k x u t =>
    simp only [step, setCurrent, Res.bind_eq_ok, idx_ok, atN_ok, Res.pure_eq, Res.ok.injEq] at h
    obtain ⟨s, hs, mode, hmode, a, ha, o, ho, rfl⟩ := h
    have e : Ext w.objs (w.objs.set a (o.set x u t)) := Ext.set ho rfl id
    refine ⟨(map_con_set (o' := o.set x u t) ho rfl).trans hI.cons, by simp [Given.step, hI.len], init_set hI.init (hI.init a o ho), ?_⟩
    intro j s' f hs' hf
    rcases getElem?_set_some hs' with ⟨rfl, rfl⟩ | ⟨-, hs'⟩
    · have hA := (hI.sws j s f hs hf).ext e
      exact ⟨hA.modes, hA.conts, hA.terminal, List.mem_of_getElem? ha, hA.ready, hA.bT⟩
    · exact (hI.sws j s' f hs' hf).ext e
  | «initialize» k =>
    simp only [step, «initialize», Res.bind_eq_ok, idx_ok, Res.pure_eq, Res.ok.injEq] at h
    obtain ⟨s, hs, ⟨objs', b⟩, hr, o, ho, rfl⟩ := h
    obtain ⟨p1, p2, p3, p4, p5, p6⟩ := initLoop_ok hr hI.init
    refine ⟨p2.trans hI.cons, by simp [Given.step, hI.len], p3, ?_⟩
    intro j s' f hs' hf
    rcases getElem?_set_some hs' with ⟨rfl, rfl⟩ | ⟨-, hs'⟩
    · have hA := (hI.sws j s f hs hf).ext p1
      refine ⟨hA.modes, hA.conts, hA.terminal, hA.active, p4, fun hb => ?_⟩
      obtain ⟨m, hm, he⟩ := hA.terminal
      obtain ⟨o', ho', hi'⟩ := p4 hb s.terminal (List.mem_of_getElem? he)
      obtain rfl : o = o' := Option.some.inj (ho.symm.trans ho')
      have hc := congrArg (fun l => l[m]?) hA.conts
      simp only [List.getElem?_map, he, Option.map_some, ho] at hc
      rcases hfm : f.1[m]? with - | c
      · simp [hfm] at hc
      · simp only [hfm, Option.map_some, Option.some.injEq] at hc
        exact ⟨m, c, hm, hfm, by simp [Obj.bounds, hi', hc], by simp [Obj.bounds, hi', hc]⟩
    · exact (hI.sws j s' f hs' hf).ext p1

theorem inv_run {ops : List (Op X U T V R)} {w w' : World X U T V R} {g : Given X U T V R} (hI : Inv w g)
    (h : run w ops = .ok w') : Inv w' (ops.foldl Given.step g) := by
  induction ops generalizing w g with
  | nil =>
    simp only [run, Res.ok.injEq] at h
    exact h ▸ hI
  | cons o os ih =>
    simp only [run, Res.bind_eq_ok] at h
    obtain ⟨w1, h1, h2⟩ := h
    exact ih (inv_step hI h1) h2

/-- Every program agrees with what was given. -/
theorem inv_start {ops : List (Op X U T V R)} {w : World X U T V R} (h : run start ops = .ok w) : Inv w (given ops) :=
  inv_run ⟨rfl, rfl, by simp [start], by simp [start]⟩ h

/-! ### C159 -/

omit [AddCommGroup T] [LinearOrder T] [Zero X] [Zero U] in
/-- The object of a mode. -/
theorem Agrees.obj {objs : List (Obj X U T V R)} {s : Sw X U T R} {f : List (Con X U T V R) × PhaseSeq ℕ T}
    (h : Agrees objs s f) {m : ℕ} {c : Con X U T V R} (hc : f.1[m]? = some c) :
    ∃ a o, s.conts[m]? = some a ∧ objs[a]? = some o ∧ o.con = c := by
  have hc' := congrArg (fun l => l[m]?) h.conts
  simp only [List.getElem?_map, hc, Option.map_some] at hc'
  rcases ha : s.conts[m]? with - | a
  · simp [ha] at hc'
  · simp only [ha, Option.map_some, Option.some.injEq] at hc'
    obtain ⟨o, ho, hoc⟩ := Option.map_eq_some_iff.mp hc'
    exact ⟨a, o, rfl, ho, hoc⟩

omit [AddCommGroup T] [LinearOrder T] [Zero X] [Zero U] in
theorem Agrees.length {objs : List (Obj X U T V R)} {s : Sw X U T R} {f : List (Con X U T V R) × PhaseSeq ℕ T}
    (h : Agrees objs s f) : s.conts.length = f.1.length := by
  simpa using congrArg List.length h.conts

omit [AddCommGroup T] [LinearOrder T] [Zero X] [Zero U] in
theorem Inv.sw {w : World X U T V R} {g : Given X U T V R} (hI : Inv w g) {k : ℕ} {f : List (Con X U T V R) × PhaseSeq ℕ T}
    (hf : g.sws[k]? = some f) : ∃ s, w.sws[k]? = some s ∧ Agrees w.objs s f := by
  have hk : k < w.sws.length := by
    rw [hI.len]
    exact (List.getElem?_eq_some_iff.mp hf).1
  exact ⟨w.sws[k], List.getElem?_eq_getElem hk, hI.sws k _ f (List.getElem?_eq_getElem hk) hf⟩

/-- A call of `setCurrentStateAndControl` for a mode that has a container. -/
theorem set_eq {w : World X U T V R} {k : ℕ} {s : Sw X U T R} (hs : w.sws[k]? = some s) {t : T} {m a : ℕ} {o : Obj X U T V R}
    (hm : s.modes.phaseFromTime t = .ok m) (ha : s.conts[m]? = some a) (ho : w.objs[a]? = some o) (x : X) (u : U) :
    step w (.set k x u t) = .ok (World.mk (w.objs.set a (o.set x u t)) (w.sws.set k
      { s with t := t, x := x, u := u, active := a, lbI := (o.set x u t).bounds Con.lbI, ubI := (o.set x u t).bounds Con.ubI })) := by
  simp only [step, setCurrent, idx_ok.mpr hs, Res.ok_bind, hm, atN_ok.mpr ha, idx_ok.mpr ho, Res.pure_eq]

variable [IsOrderedAddMonoid T]

/-- C159, intermediate constraints: after any history, when the current state, control and time of a switched container are set,
its intermediate values, Jacobians and bounds are those of the container given for the mode scheduled at that time, at that state
and control. Without a container for that mode the call throws. -/
theorem C159_intermediate (ops : List (Op X U T V R)) (w : World X U T V R) (h : run start ops = .ok w)
    (k : ℕ) (fam : List (Con X U T V R)) (modes : PhaseSeq ℕ T) (hg : (given ops).sws[k]? = some (fam, modes))
    (t0 : T) (pds : List (ℕ × T)) (hd : ∀ pd ∈ pds, 0 ≤ pd.2) (hm : (PhaseSeq.new t0 : PhaseSeq ℕ T).addAll pds = .ok modes)
    (x : X) (u : U) (t : T) (i : ℕ) (hlt : i < pds.length) (hi : IsScheduled t0 pds t i) :
    (∀ c, fam[pds[i].1]? = some c → ∃ w', step w (.set k x u t) = .ok w' ∧
      (isInitialized w k = .ok true → inter w' k = .ok (c.inter x u t) ∧ boundsI w' k = .ok (c.lbI, c.ubI))) ∧
    (fam[pds[i].1]? = none → step w (.set k x u t) = .exc) := by
  obtain ⟨s, hs, hA⟩ := (inv_start h).sw hg
  have hmt : s.modes.phaseFromTime t = .ok pds[i].1 := by
    rw [hA.modes]
    exact C07_lookup t0 pds hd modes hm t i hlt hi
  constructor
  · intro c hc
    obtain ⟨a, o, ha, ho, hoc⟩ := hA.obj hc
    refine ⟨_, set_eq hs hmt ha ho x u, fun hini => ?_⟩
    have hin : s.initI = true := by
      simp only [isInitialized, idx_ok.mpr hs, Res.ok_bind, Res.pure_eq, Res.ok.injEq, Bool.and_eq_true] at hini
      exact hini.1
    obtain ⟨o', ho', hoi⟩ := hA.ready hin a (List.mem_of_getElem? ha)
    obtain rfl : o = o' := Option.some.inj (ho.symm.trans ho')
    have hkl := (List.getElem?_eq_some_iff.mp hs).1
    have hal := (List.getElem?_eq_some_iff.mp ho).1
    constructor
    · simp [inter, idx, hkl, hal, Obj.answer, Obj.set, hoi, hoc]
    · simp [boundsI, idx, hkl, Obj.bounds, Obj.set, hoi, hoc]
  · intro hn
    have : s.conts[pds[i].1]? = none := by
      rw [List.getElem?_eq_none_iff] at hn ⊢
      rw [hA.length]
      exact hn
    simp only [step, setCurrent, idx_ok.mpr hs, Res.ok_bind, hmt, atN, this, Res.exc_bind]

/-- C159, terminal constraints: the terminal bounds are those of the container given for the last mode, and so are the terminal
values and Jacobians at the state and control set, if the time set is in a phase with the last mode. Other times are missing, see
`C159_terminal_violated`. -/
theorem C159_terminal_partial (ops : List (Op X U T V R)) (w : World X U T V R) (h : run start ops = .ok w)
    (k : ℕ) (fam : List (Con X U T V R)) (modes : PhaseSeq ℕ T) (hg : (given ops).sws[k]? = some (fam, modes))
    (hini : isInitialized w k = .ok true)
    (t0 : T) (pds : List (ℕ × T)) (hd : ∀ pd ∈ pds, 0 ≤ pd.2) (hm : (PhaseSeq.new t0 : PhaseSeq ℕ T).addAll pds = .ok modes)
    (p : ℕ × T) (hp : pds.getLast? = some p) :
    ∃ c, fam[p.1]? = some c ∧ boundsT w k = .ok (c.lbT, c.ubT) ∧
      ∀ (x : X) (u : U) (t : T) (i : ℕ) (hlt : i < pds.length), IsScheduled t0 pds t i → pds[i].1 = p.1 →
        ∃ w', step w (.set k x u t) = .ok w' ∧ term w' k = .ok (c.term x u t) ∧ boundsT w' k = .ok (c.lbT, c.ubT) := by
  obtain ⟨s, hs, hA⟩ := (inv_start h).sw hg
  have hin : s.initI = true := by
    simp only [isInitialized, idx_ok.mpr hs, Res.ok_bind, Res.pure_eq, Res.ok.injEq, Bool.and_eq_true] at hini
    exact hini.1
  obtain ⟨m, c, hml, hc, b1, b2⟩ := hA.bT hin
  obtain ⟨m', hml', he⟩ := hA.terminal
  obtain rfl : m = m' := Option.some.inj (hml.symm.trans hml')
  have hmp : m = p.1 := by
    obtain ⟨s', h1, h2, -⟩ := addAll_new t0 pds
    obtain rfl : modes = s' := by
      rw [hm] at h1
      injection h1
    have h3 : modes.phases.getLast? = some p.1 := by
      rw [h2, List.getLast?_map, hp]
      rfl
    exact Option.some.inj (hml.symm.trans h3)
  subst hmp
  have hkl := (List.getElem?_eq_some_iff.mp hs).1
  refine ⟨c, hc, by simp [boundsT, idx_ok.mpr hs, b1, b2], ?_⟩
  intro x u t i hlt hi hpi
  have hmt : s.modes.phaseFromTime t = .ok p.1 := by
    rw [hA.modes, ← hpi]
    exact C07_lookup t0 pds hd modes hm t i hlt hi
  obtain ⟨a, o, ha, ho, hoc⟩ := hA.obj hc
  obtain rfl : s.terminal = a := Option.some.inj (he.symm.trans ha)
  obtain ⟨o', ho', hoi⟩ := hA.ready hin _ (List.mem_of_getElem? ha)
  obtain rfl : o = o' := Option.some.inj (ho.symm.trans ho')
  have hal := (List.getElem?_eq_some_iff.mp ho).1
  refine ⟨_, set_eq hs hmt ha ho x u, ?_, ?_⟩
  · simp [term, idx, hkl, hal, Obj.answer, Obj.set, hoi, hoc]
  · simp [boundsT, idx, hkl, b1, b2]

omit [IsOrderedAddMonoid T] in
/-- C159, initialisation: a switched container can be initialised after any history, and it is initialised exactly when the
containers of all modes can be. -/
theorem C159_initialize (ops : List (Op X U T V R)) (w : World X U T V R) (h : run start ops = .ok w)
    (k : ℕ) (fam : List (Con X U T V R)) (modes : PhaseSeq ℕ T) (hg : (given ops).sws[k]? = some (fam, modes)) :
    ∃ w', step w (.initialize k) = .ok w' ∧ (isInitialized w' k = .ok true ↔ ∀ c ∈ fam, c.initOk = true) := by
  have hI := inv_start h
  obtain ⟨s, hs, hA⟩ := hI.sw hg
  have key : ∀ (cs : List ℕ) (objs : List (Obj X U T V R)), (∀ c ∈ cs, c < objs.length) →
      ∃ r, initLoop objs cs = .ok r ∧ r.1.length = objs.length := by
    intro cs
    induction cs with
    | nil => exact fun objs _ => ⟨_, rfl, rfl⟩
    | cons c cs ih =>
      intro objs hv
      have hc := hv c (by simp)
      simp only [initLoop, idx_ok.mpr (List.getElem?_eq_getElem hc), Res.ok_bind]
      split
      · obtain ⟨r, h1, h2⟩ := ih (objs.set c objs[c].initialize) (by simpa using fun d hd => hv d (by simp [hd]))
        exact ⟨r, h1, by simpa using h2⟩
      · exact ⟨_, rfl, by simp⟩
  have hv : ∀ c ∈ s.conts, c < w.objs.length := by
    intro c hc
    obtain ⟨i, hi, rfl⟩ := List.getElem_of_mem hc
    obtain ⟨a, o, ha, ho, -⟩ := hA.obj (m := i) (c := fam[i]'(hA.length ▸ hi)) (List.getElem?_eq_getElem _)
    rw [List.getElem?_eq_getElem hi] at ha
    rw [Option.some.inj ha]
    exact (List.getElem?_eq_some_iff.mp ho).1
  obtain ⟨⟨objs', b⟩, hr, hlen⟩ := key s.conts w.objs hv
  obtain ⟨m, -, he⟩ := hA.terminal
  have hkl := (List.getElem?_eq_some_iff.mp hs).1
  have hel : s.terminal < objs'.length := hlen ▸ hv _ (List.mem_of_getElem? he)
  obtain ⟨p1, p2, p3, p4, p5, p6⟩ := initLoop_ok hr hI.init
  have hA' := hA.ext p1
  refine ⟨_, by simp only [step, «initialize», idx_ok.mpr hs, Res.ok_bind, hr, idx_ok.mpr (List.getElem?_eq_getElem hel), Res.pure_eq]; rfl, ?_⟩
  have e : ∀ (s' : Sw X U T R), isInitialized ⟨objs', w.sws.set k s'⟩ k = .ok (s'.initI && s'.initT) := fun s' => by
    simp [isInitialized, idx, hkl]
  rw [e]
  simp only [Bool.and_true, Res.ok.injEq]
  constructor
  · intro hb c hc
    obtain ⟨i, hi, rfl⟩ := List.getElem_of_mem hc
    obtain ⟨a, o, ha, ho, hoc⟩ := hA'.obj (m := i) (c := fam[i]) (List.getElem?_eq_getElem _)
    obtain ⟨o', ho', hoi⟩ := p4 hb a (List.mem_of_getElem? ha)
    obtain rfl : o = o' := Option.some.inj (ho.symm.trans ho')
    rw [← hoc]
    exact p3 a o ho hoi
  · intro hall
    by_contra hb
    obtain ⟨c, hc, o, ho, hof⟩ := p6 (by simpa using hb)
    obtain ⟨i, hi, rfl⟩ := List.getElem_of_mem hc
    have hif : i < fam.length := by
      have := hA.length
      simp only at this
      omega
    obtain ⟨a, o', ha, ho', hoc⟩ := hA'.obj (m := i) (c := fam[i]) (List.getElem?_eq_getElem _)
    rw [List.getElem?_eq_getElem hi] at ha
    rw [← Option.some.inj ha] at ho'
    obtain rfl : o = o' := Option.some.inj (ho.symm.trans ho')
    rw [hoc, hall _ (List.getElem_mem hif)] at hof
    cases hof

/-- C159 is violated for terminal constraints at times before the last mode: values and Jacobians are those at the point set when
the last mode was active last, at first at zero, whatever state and control are set. -/
theorem C159_terminal_violated (c0 c1 : Con X U T V R) (h0 : c0.initOk = true) (h1 : c1.initOk = true) (d : T) (hd : 0 < d)
    (x : X) (u : U) :
    ∃ modes w, (PhaseSeq.new 0 : PhaseSeq ℕ T).addAll [(0, d), (1, d)] = .ok modes ∧
      run start [.newObj c0, .newObj c1, .construct [0, 1] modes, .initialize 0, .set 0 x u 0] = .ok w ∧
      isInitialized w 0 = .ok true ∧ inter w 0 = .ok (c0.inter x u 0) ∧ term w 0 = .ok (c1.term 0 0 0) := by
  refine ⟨⟨[0, 1], [0, 0 + d, 0 + d + d]⟩, ?w, rfl, ?h, ?r⟩
  case h =>
    simp only [run, step, start, construct, fetch, front, back, idx, atN, «initialize», initLoop, Obj.initialize, setCurrent, PhaseSeq.phaseFromTime,
      PhaseSeq.idxFromTime, List.nil_append, List.cons_append, List.getElem?_cons_zero, Res.ok_bind, List.getLast?_cons_cons, List.getLast?_singleton,
      List.getElem?_cons_succ, Res.pure_eq, List.set_cons_zero, List.set_cons_succ, h0, h1, if_true, lt_irrefl, if_false, zero_add,
      not_le.mpr (add_pos hd hd), upperBound, List.takeWhile_cons, le_refl, decide_true, not_le.mpr hd, decide_false, PhaseSeq.phaseFromIdx, List.length_cons, List.length_nil, sizePred]
    rfl
  case r => simp [isInitialized, inter, term, idx, Obj.answer, Obj.set, h0, h1]

omit [IsOrderedAddMonoid T] in
/-- C159 is violated for intermediate bounds between initialisation and the first point set: they are empty, whatever the bounds of
the containers, while values are there. -/
theorem C159_bounds_violated (c : Con X U T V R) (hc : c.initOk = true) (d : T) :
    ∃ modes w, (PhaseSeq.new 0 : PhaseSeq ℕ T).addAll [(0, d)] = .ok modes ∧
      run start [.newObj c, .construct [0] modes, .initialize 0] = .ok w ∧
      isInitialized w 0 = .ok true ∧ inter w 0 = .ok (c.inter 0 0 0) ∧ boundsI w 0 = .ok ([], []) := by
  refine ⟨⟨[0], [0, 0 + d]⟩, ?w, rfl, ?h, ?r⟩
  case h =>
    simp only [run, step, start, construct, fetch, front, back, idx, atN, «initialize», initLoop, Obj.initialize,
      List.nil_append, List.getElem?_cons_zero, Res.ok_bind, List.getLast?_singleton,
      Res.pure_eq, List.set_cons_zero, hc, if_true]
    rfl
  case r => simp [isInitialized, inter, boundsI, idx, Obj.answer, hc]

/-- Two containers, for states and controls in the integers: `x ≤ 10` with terminal constraint `x = 3`, and `u ≤ 5` with
terminal constraint `x = 7`. -/
def cons2 : List (Con ℤ ℤ ℤ ℤ ℤ) :=
  [⟨fun x _ _ => x, fun x _ _ => x, [-10], [10], [3], [3], true⟩, ⟨fun _ u _ => u, fun x _ _ => x, [-5], [5], [7], [7], true⟩]

/-- A history with a copy. -/
def history : List (Op ℤ ℤ ℤ ℤ ℤ) :=
  cons2.map .newObj ++ [.construct [0, 1] ⟨[0, 1], [0, 2, 4]⟩, .initialize 0, .copy 0]

example : ∃ w, run start history = .ok w ∧ (given history).sws[0]? = some (cons2, ⟨[0, 1], [0, 2, 4]⟩) ∧
    (given history).sws[1]? = some (cons2, ⟨[0, 1], [0, 2, 4]⟩) ∧
    isInitialized w 1 = .ok true ∧ (PhaseSeq.new 0 : PhaseSeq ℕ ℤ).addAll [(0, 2), (1, 2)] = .ok ⟨[0, 1], [0, 2, 4]⟩ ∧
    IsScheduled 0 [((0 : ℕ), (2 : ℤ)), (1, 2)] 3 1 := by
  refine ⟨_, rfl, rfl, rfl, rfl, rfl, ?_⟩
  simp [IsScheduled, boundary]

example (w w' : World ℤ ℤ ℤ ℤ ℤ) (h : run start history = .ok w) (h' : step w (.set 1 7 4 3) = .ok w') :
    inter w' 1 = .ok 4 ∧ boundsI w' 1 = .ok ([-5], [5]) ∧ term w' 1 = .ok 7 := by
  obtain rfl := Res.ok.inj h
  obtain rfl := Res.ok.inj h'
  exact ⟨rfl, rfl, rfl⟩

/-! ### C160 -/

omit [IsOrderedAddMonoid T] in
/-- The addresses of a switched container are valid. -/
theorem Agrees.valid {objs : List (Obj X U T V R)} {s : Sw X U T R} {f : List (Con X U T V R) × PhaseSeq ℕ T}
    (h : Agrees objs s f) {c : ℕ} (hc : c ∈ s.conts) : c < objs.length := by
  obtain ⟨i, hi, rfl⟩ := List.getElem_of_mem hc
  obtain ⟨a, o, ha, ho, -⟩ := h.obj (m := i) (c := f.1[i]'(h.length ▸ hi)) (List.getElem?_eq_getElem _)
  rw [List.getElem?_eq_getElem hi] at ha
  rw [Option.some.inj ha]
  exact (List.getElem?_eq_some_iff.mp ho).1

/-- The copy of a switched container, with clones at addresses from `l` on and last mode `m`. -/
def copied (l : ℕ) (s : Sw X U T R) (m : ℕ) : Sw X U T R :=
  { s with conts := (List.range s.conts.length).map (l + ·), active := l, terminal := l + m }

omit [IsOrderedAddMonoid T] in
/-- Copying after any history. -/
theorem copy_ok {ops : List (Op X U T V R)} {w : World X U T V R} (h : run start ops = .ok w)
    {k : ℕ} {f : List (Con X U T V R) × PhaseSeq ℕ T} (hg : (given ops).sws[k]? = some f) :
    ∃ s os m, w.sws[k]? = some s ∧ Agrees w.objs s f ∧ s.conts.map (fun c => w.objs[c]?) = os.map some ∧ os.length = s.conts.length ∧
      f.2.phases.getLast? = some m ∧ m < s.conts.length ∧ s.conts[m]? = some s.terminal ∧
      step w (.copy k) = .ok (World.mk (w.objs ++ os) (w.sws ++ [copied w.objs.length s m])) := by
  obtain ⟨s, hs, hA⟩ := (inv_start h).sw hg
  obtain ⟨m, hm, he⟩ := hA.terminal
  have hml := (List.getElem?_eq_some_iff.mp he).1
  obtain ⟨os, hos⟩ : ∃ os : List (Obj X U T V R), s.conts.map (fun c => w.objs[c]?) = os.map some := by
    refine ⟨s.conts.attach.map (fun c => w.objs[c.1]'(hA.valid c.2)), ?_⟩
    apply List.ext_getElem?
    intro i
    rcases lt_or_ge i s.conts.length with hi | hi
    · have hv := hA.valid (List.getElem_mem hi)
      simp [hi, hv]
    · simp [hi]
  have hlen : os.length = s.conts.length := by simpa using (congrArg List.length hos).symm
  refine ⟨s, os, m, hs, hA, hos, hlen, hm, hml, he, ?_⟩
  have h0 : 0 < s.conts.length := by omega
  have hm' : back s.modes.phases = .ok m := back_ok.mpr (hA.modes ▸ hm)
  have e1 : front ((List.range s.conts.length).map (w.objs.length + ·)) = .ok w.objs.length := by simp [front, idx, h0]
  have e2 : atN ((List.range s.conts.length).map (w.objs.length + ·)) m = .ok (w.objs.length + m) := by simp [atN, hml]
  simp only [step, copy, idx_ok.mpr hs, fetch_ok.mpr hos, Res.ok_bind, e1, hm', e2, Res.pure_eq, copied]

omit [IsOrderedAddMonoid T] in
/-- C160, copies: a switched container can be copied after any history; the copy has its bounds, terminal values and
Jacobians, and after state, control and time are set the same intermediate values, Jacobians and bounds as the original after the same
call. Intermediate values directly after copying are missing, see `C160_copy_violated`. -/
theorem C160_copy_partial (ops : List (Op X U T V R)) (w : World X U T V R) (h : run start ops = .ok w)
    (k : ℕ) (hk : k < (given ops).sws.length) :
    ∃ w1, step w (.copy k) = .ok w1 ∧
      (let n := w.sws.length
       term w1 n = term w k ∧ boundsI w1 n = boundsI w k ∧ boundsT w1 n = boundsT w k ∧ isInitialized w1 n = isInitialized w k ∧
       ∀ (x : X) (u : U) (t : T) w2, step w (.set k x u t) = .ok w2 → ∃ w3, step w1 (.set n x u t) = .ok w3 ∧
         inter w3 n = inter w2 k ∧ boundsI w3 n = boundsI w2 k) := by
  obtain ⟨s, os, m, hs, hA, hos, hlen, hm, hml, he, hc⟩ := copy_ok h (List.getElem?_eq_getElem hk)
  refine ⟨_, hc, ?_⟩
  have hobj : ∀ i (hi : i < s.conts.length), w.objs[s.conts[i]]? = some (os[i]'(hlen ▸ hi)) := by
    intro i hi
    have := congrArg (fun l => l[i]?) hos
    simpa [hi, hlen] using this
  have hget : ∀ i (hi : i < s.conts.length), (w.objs ++ os)[w.objs.length + i]? = some (os[i]'(hlen ▸ hi)) := by
    intro i hi
    rw [List.getElem?_append_right (by omega)]
    simp [hlen, hi]
  have hterm : s.terminal = s.conts[m] := by
    rw [List.getElem?_eq_getElem hml] at he
    exact (Option.some.inj he).symm
  refine ⟨?_, ?_, ?_, ?_, ?_⟩
  · simp [term, hs, idx, hterm, hobj m hml, hget m hml, copied]
  · simp [boundsI, hs, idx, copied]
  · simp [boundsT, hs, idx, copied]
  · simp [isInitialized, hs, idx, copied]
  · intro x u t w2 h2
    simp only [step, setCurrent, Res.bind_eq_ok, idx_ok, atN_ok, Res.pure_eq, Res.ok.injEq] at h2
    obtain ⟨s', hs', mode, hmode, a, ha, o, ho, rfl⟩ := h2
    obtain rfl : s = s' := Option.some.inj (hs.symm.trans hs')
    obtain ⟨hmo, rfl⟩ := List.getElem?_eq_some_iff.mp ha
    obtain rfl : os[mode]'(hlen ▸ hmo) = o := Option.some.inj ((hobj mode hmo).symm.trans ho)
    have hkl := (List.getElem?_eq_some_iff.mp hs).1
    have hal := (List.getElem?_eq_some_iff.mp ho).1
    have hol : mode < os.length := hlen ▸ hmo
    refine ⟨_, set_eq (s := copied w.objs.length s m) (m := mode) (a := w.objs.length + mode) (o := os[mode]) (by simp) hmode (by simp [copied, hmo])
      (hget mode hmo) x u, ?_, ?_⟩
    · simp [inter, idx, hkl, hal, hol]
    · simp [boundsI, idx, hkl]

/-- C160 is violated directly after copying: the copy answers with the container of the first mode, not with the active one of the
original, and its bounds are those of the other one. -/
theorem C160_copy_violated (c0 c1 : Con X U T V R) (h0 : c0.initOk = true) (h1 : c1.initOk = true) (d : T) (hd : 0 < d)
    (x : X) (u : U) :
    ∃ modes w, (PhaseSeq.new 0 : PhaseSeq ℕ T).addAll [(0, d), (1, d)] = .ok modes ∧
      run start [.newObj c0, .newObj c1, .construct [0, 1] modes, .initialize 0, .set 0 x u (d + d), .copy 0] = .ok w ∧
      inter w 0 = .ok (c1.inter x u (d + d)) ∧ boundsI w 0 = .ok (c1.lbI, c1.ubI) ∧
      inter w 1 = .ok (c0.inter 0 0 0) ∧ boundsI w 1 = .ok (c1.lbI, c1.ubI) := by
  refine ⟨⟨[0, 1], [0, 0 + d, 0 + d + d]⟩, ?w, rfl, ?h, ?r⟩
  case h =>
    simp only [run, step, start, construct, fetch, front, back, idx, atN, «initialize», initLoop, Obj.initialize, setCurrent, copy, PhaseSeq.phaseFromTime,
      PhaseSeq.idxFromTime, List.nil_append, List.cons_append, List.getElem?_cons_zero, Res.ok_bind, List.getLast?_cons_cons, List.getLast?_singleton,
      List.getElem?_cons_succ, Res.pure_eq, List.set_cons_zero, List.set_cons_succ, h0, h1, if_true, not_lt.mpr (add_pos hd hd).le, if_false, zero_add,
      le_refl, PhaseSeq.phaseFromIdx, PhaseSeq.numPhases, List.length_cons, List.length_nil, sizePred]
    rfl
  case r => simp [inter, boundsI, idx, Obj.answer, Obj.set, Obj.bounds, h0, h1]

/-- C160 is violated when one container is used for two modes: in the original the terminal constraints follow the point set in a phase
of the other mode, in a copy they do not. -/
theorem C160_alias_violated (c : Con X U T V R) (hc : c.initOk = true) (d : T) (hd : 0 < d) (x : X) (u : U) :
    ∃ modes w, (PhaseSeq.new 0 : PhaseSeq ℕ T).addAll [(0, d), (1, d)] = .ok modes ∧
      run start [.newObj c, .construct [0, 0] modes, .initialize 0, .copy 0, .set 0 x u 0, .set 1 x u 0] = .ok w ∧
      term w 0 = .ok (c.term x u 0) ∧ term w 1 = .ok (c.term 0 0 0) := by
  have r2 : List.range (0 + 1 + 1) = [0, 1] := rfl
  refine ⟨⟨[0, 1], [0, 0 + d, 0 + d + d]⟩, ?w, rfl, ?h, ?r⟩
  case h =>
    simp only [run, step, start, construct, fetch, front, back, idx, atN, «initialize», initLoop, Obj.initialize, setCurrent, copy, PhaseSeq.phaseFromTime,
      PhaseSeq.idxFromTime, List.nil_append, List.cons_append, List.getElem?_cons_zero, Res.ok_bind, List.getLast?_cons_cons, List.getLast?_singleton,
      List.getElem?_cons_succ, Res.pure_eq, List.set_cons_zero, hc, if_true, lt_irrefl, if_false, zero_add,
      not_le.mpr (add_pos hd hd), upperBound, List.takeWhile_cons, le_refl, decide_true, not_le.mpr hd, decide_false,
      PhaseSeq.phaseFromIdx, List.length_cons, List.length_nil, sizePred, r2, Nat.sub_self, zero_add, Bool.false_eq_true, Nat.add_one_ne_zero, Nat.add_sub_cancel, List.map_cons, List.map_nil, add_zero]
    rfl
  case r => simp [term, idx, Obj.answer, Obj.set, hc]

/-- Specification: a step on other objects than the switched container `n` with containers of modes from `lo` to before `hi`. -/
def Elsewhere (n lo hi : ℕ) : Op X U T V R → Prop
  | .newObj _ => True
  | .setObj a _ _ _ => ¬ (lo ≤ a ∧ a < hi)
  | .initObj a => ¬ (lo ≤ a ∧ a < hi)
  | .construct conts _ => ∀ c ∈ conts, ¬ (lo ≤ c ∧ c < hi)
  | .copy _ => True
  | .set k _ _ _ => k ≠ n
  | .initialize k => k ≠ n

/-- Specification: a step on the switched container `n`. -/
def On (n : ℕ) : Op X U T V R → Prop
  | .set k _ _ _ => k = n
  | .initialize k => k = n
  | _ => False

/-- Only things outside changed. -/
structure Kept (n lo hi : ℕ) (w w' : World X U T V R) : Prop where
  sw : w'.sws[n]? = w.sws[n]?
  has : n < w'.sws.length
  objs : ∀ a, lo ≤ a → a < hi → w'.objs[a]? = w.objs[a]?
  len : hi ≤ w'.objs.length
  others : ∀ (j : ℕ) s, j ≠ n → w'.sws[j]? = some s → ∀ c ∈ s.conts, ¬ (lo ≤ c ∧ c < hi)

omit [AddCommGroup T] [LinearOrder T] [IsOrderedAddMonoid T] [Zero X] [Zero U] in
theorem initLoop_frame {cs : List ℕ} {objs objs' : List (Obj X U T V R)} {b : Bool} (h : initLoop objs cs = .ok (objs', b)) :
    objs'.length = objs.length ∧ ∀ a, a ∉ cs → objs'[a]? = objs[a]? := by
  induction cs generalizing objs with
  | nil =>
    simp only [initLoop, Res.ok.injEq, Prod.mk.injEq] at h
    exact ⟨by rw [h.1], fun a _ => by rw [h.1]⟩
  | cons c cs ih =>
    simp only [initLoop, Res.bind_eq_ok, idx_ok] at h
    obtain ⟨o, ho, h⟩ := h
    split at h
    · obtain ⟨p, q⟩ := ih h
      refine ⟨by simpa using p, fun a ha => ?_⟩
      simp only [List.mem_cons, not_or] at ha
      rw [q a ha.2, List.getElem?_set_ne (Ne.symm ha.1)]
    · simp only [Res.pure_eq, Res.ok.injEq, Prod.mk.injEq] at h
      obtain ⟨rfl, -⟩ := h
      refine ⟨by simp, fun a ha => ?_⟩
      simp only [List.mem_cons, not_or] at ha
      rw [List.getElem?_set_ne (Ne.symm ha.1)]

omit [IsOrderedAddMonoid T] in
theorem kept_step {n lo hi : ℕ} {w w1 w2 : World X U T V R} (hK : Kept n lo hi w w1) {op : Op X U T V R} (ho : Elsewhere n lo hi op)
    (h : step w1 op = .ok w2) : Kept n lo hi w w2 := by
  have hn := hK.has
  cases op with
  | newObj c =>
    simp only [step, Res.ok.injEq] at h
    subst h
    refine ⟨hK.sw, hn, fun a h1 h2 => ?_, by simpa using Nat.le_succ_of_le hK.len, hK.others⟩
    rw [← hK.objs a h1 h2]
    exact List.getElem?_append_left (h2.trans_le hK.len)
  | setObj a x u t =>
    simp only [step, Res.bind_eq_ok, idx_ok, Res.pure_eq, Res.ok.injEq] at h
    obtain ⟨o, -, rfl⟩ := h
    refine ⟨hK.sw, hn, fun b h1 h2 => ?_, by simpa using hK.len, hK.others⟩
    rw [← hK.objs b h1 h2]
    exact List.getElem?_set_ne (fun z : a = b => ho (by rw [z]; exact ⟨h1, h2⟩))
  | initObj a =>
    simp only [step, Res.bind_eq_ok, idx_ok, Res.pure_eq, Res.ok.injEq] at h
    obtain ⟨o, -, rfl⟩ := h
    refine ⟨hK.sw, hn, fun b h1 h2 => ?_, by simpa using hK.len, hK.others⟩
    rw [← hK.objs b h1 h2]
    exact List.getElem?_set_ne (fun z : a = b => ho (by rw [z]; exact ⟨h1, h2⟩))
  | construct conts modes =>
    simp only [step, construct, Res.bind_eq_ok, Res.pure_eq, Res.ok.injEq] at h
    obtain ⟨a, -, m, -, e, -, os, -, rfl⟩ := h
    refine ⟨by rw [← hK.sw]; exact List.getElem?_append_left hn, by simpa using Nat.lt_succ_of_lt hn, hK.objs, hK.len, ?_⟩
    intro j s hj hs
    rcases getElem?_snoc hs with ⟨-, hs⟩ | ⟨-, rfl⟩
    · exact hK.others j s hj hs
    · exact ho
  | copy k =>
    simp only [step, copy, Res.bind_eq_ok, Res.pure_eq, Res.ok.injEq] at h
    obtain ⟨s0, -, os, -, a, -, m, -, e, -, rfl⟩ := h
    refine ⟨by rw [← hK.sw]; exact List.getElem?_append_left hn, by simpa using Nat.lt_succ_of_lt hn, fun b h1 h2 => ?_,
      by simpa using Nat.le_add_right_of_le hK.len, ?_⟩
    · rw [← hK.objs b h1 h2]
      exact List.getElem?_append_left (h2.trans_le hK.len)
    · intro j s hj hs
      rcases getElem?_snoc hs with ⟨-, hs⟩ | ⟨-, rfl⟩
      · exact hK.others j s hj hs
      · intro c hc
        simp only [List.mem_map, List.mem_range] at hc
        obtain ⟨i, -, rfl⟩ := hc
        have := hK.len
        omega
  | set k x u t =>
    simp only [step, setCurrent, Res.bind_eq_ok, idx_ok, atN_ok, Res.pure_eq, Res.ok.injEq] at h
    obtain ⟨s, hs, mode, -, a, ha, o, -, rfl⟩ := h
    have hna := hK.others k s ho hs a (List.mem_of_getElem? ha)
    refine ⟨by rw [← hK.sw]; exact List.getElem?_set_ne ho, by simpa using hn, fun b h1 h2 => ?_, by simpa using hK.len, ?_⟩
    · rw [← hK.objs b h1 h2]
      exact List.getElem?_set_ne (fun z : a = b => hna (by rw [z]; exact ⟨h1, h2⟩))
    · intro j s' hj hs'
      rcases getElem?_set_some hs' with ⟨rfl, rfl⟩ | ⟨-, hs'⟩
      · exact hK.others j s hj hs
      · exact hK.others j s' hj hs'
  | «initialize» k =>
    simp only [step, «initialize», Res.bind_eq_ok, idx_ok, Res.pure_eq, Res.ok.injEq] at h
    obtain ⟨s, hs, ⟨objs', b⟩, hr, o, -, rfl⟩ := h
    obtain ⟨p, q⟩ := initLoop_frame hr
    have hna := hK.others k s ho hs
    refine ⟨by rw [← hK.sw]; exact List.getElem?_set_ne ho, by simpa using hn, fun b h1 h2 => ?_, p ▸ hK.len, ?_⟩
    · rw [← hK.objs b h1 h2]
      exact q b (fun z => hna b z ⟨h1, h2⟩)
    · intro j s' hj hs'
      rcases getElem?_set_some hs' with ⟨rfl, rfl⟩ | ⟨-, hs'⟩
      · exact hK.others j s hj hs
      · exact hK.others j s' hj hs'

omit [IsOrderedAddMonoid T] in
theorem kept_run {n lo hi : ℕ} {ops : List (Op X U T V R)} {w w1 w2 : World X U T V R} (hK : Kept n lo hi w w1)
    (ho : ∀ o ∈ ops, Elsewhere n lo hi o) (h : run w1 ops = .ok w2) : Kept n lo hi w w2 := by
  induction ops generalizing w1 with
  | nil =>
    simp only [run, Res.ok.injEq] at h
    exact h ▸ hK
  | cons o os ih =>
    simp only [run, Res.bind_eq_ok] at h
    obtain ⟨w', h1, h2⟩ := h
    exact ih (kept_step hK (ho o (by simp)) h1) (fun p hp => ho p (by simp [hp])) h2

/-- The other way round: only the switched container `n` and containers of modes from `lo` on changed. -/
structure Spared (n lo : ℕ) (w w' : World X U T V R) : Prop where
  sw : ∀ j, j ≠ n → w'.sws[j]? = w.sws[j]?
  objs : ∀ a, a < lo → w'.objs[a]? = w.objs[a]?
  conts : ∀ s, w'.sws[n]? = some s → ∀ c ∈ s.conts, lo ≤ c

omit [IsOrderedAddMonoid T] in
theorem spared_step {n lo : ℕ} {w w1 w2 : World X U T V R} (hK : Spared n lo w w1) {op : Op X U T V R} (ho : On n op)
    (h : step w1 op = .ok w2) : Spared n lo w w2 := by
  cases op with
  | newObj c => cases ho
  | setObj a x u t => cases ho
  | initObj a => cases ho
  | construct conts modes => cases ho
  | copy k => cases ho
  | set k x u t =>
    obtain rfl : k = n := ho
    simp only [step, setCurrent, Res.bind_eq_ok, idx_ok, atN_ok, Res.pure_eq, Res.ok.injEq] at h
    obtain ⟨s, hs, mode, -, a, ha, o, -, rfl⟩ := h
    have hla := hK.conts s hs a (List.mem_of_getElem? ha)
    refine ⟨fun j hj => by rw [← hK.sw j hj]; exact List.getElem?_set_ne (Ne.symm hj), fun b hb => ?_, ?_⟩
    · rw [← hK.objs b hb]
      exact List.getElem?_set_ne (by omega)
    · intro s' hs'
      rcases getElem?_set_some hs' with ⟨-, rfl⟩ | ⟨hx, -⟩
      · exact hK.conts s hs
      · exact absurd rfl hx
  | «initialize» k =>
    obtain rfl : k = n := ho
    simp only [step, «initialize», Res.bind_eq_ok, idx_ok, Res.pure_eq, Res.ok.injEq] at h
    obtain ⟨s, hs, ⟨objs', b⟩, hr, o, -, rfl⟩ := h
    obtain ⟨p, q⟩ := initLoop_frame hr
    have hla := hK.conts s hs
    refine ⟨fun j hj => by rw [← hK.sw j hj]; exact List.getElem?_set_ne (Ne.symm hj), fun b hb => ?_, ?_⟩
    · rw [← hK.objs b hb]
      exact q b (fun z => absurd (hla b z) (by omega))
    · intro s' hs'
      rcases getElem?_set_some hs' with ⟨-, rfl⟩ | ⟨hx, -⟩
      · exact hK.conts s hs
      · exact absurd rfl hx

omit [IsOrderedAddMonoid T] in
theorem spared_run {n lo : ℕ} {ops : List (Op X U T V R)} {w w1 w2 : World X U T V R} (hK : Spared n lo w w1)
    (ho : ∀ o ∈ ops, On n o) (h : run w1 ops = .ok w2) : Spared n lo w w2 := by
  induction ops generalizing w1 with
  | nil =>
    simp only [run, Res.ok.injEq] at h
    exact h ▸ hK
  | cons o os ih =>
    simp only [run, Res.bind_eq_ok] at h
    obtain ⟨w', h1, h2⟩ := h
    exact ih (spared_step hK (ho o (by simp)) h1) (fun p hp => ho p (by simp [hp])) h2

omit [IsOrderedAddMonoid T] in
/-- C160, independence: nothing done with other objects changes any answer of a copy, and nothing done with the copy changes any
answer of the other switched containers or the points of the containers given by the user. -/
theorem C160_independent (ops : List (Op X U T V R)) (w : World X U T V R) (h : run start ops = .ok w)
    (k : ℕ) (fam : List (Con X U T V R)) (modes : PhaseSeq ℕ T) (hg : (given ops).sws[k]? = some (fam, modes))
    (w1 : World X U T V R) (hc : step w (.copy k) = .ok w1) (later : List (Op X U T V R)) (w2 : World X U T V R)
    (h2 : run w1 later = .ok w2) :
    (let n := w.sws.length
     (∀ o ∈ later, Elsewhere n w.objs.length (w.objs.length + fam.length) o) →
       inter w2 n = inter w1 n ∧ term w2 n = term w1 n ∧ boundsI w2 n = boundsI w1 n ∧ boundsT w2 n = boundsT w1 n ∧
       isInitialized w2 n = isInitialized w1 n) ∧
    (let n := w.sws.length
     (∀ o ∈ later, On n o) →
       (∀ j, j < n → inter w2 j = inter w j ∧ term w2 j = term w j ∧ boundsI w2 j = boundsI w j ∧ boundsT w2 j = boundsT w j ∧
         isInitialized w2 j = isInitialized w j) ∧
       ∀ a, a < w.objs.length → w2.objs[a]? = w.objs[a]?) := by
  have hI := inv_start h
  obtain ⟨s, os, m, hs, hA, hos, hlen, hm, hml, he, hc'⟩ := copy_ok h hg
  obtain rfl : w1 = _ := Res.ok.inj (hc.symm.trans hc')
  have hfl : fam.length = s.conts.length := hA.length.symm
  have hold : ∀ (j : ℕ) s', w.sws[j]? = some s' → ∀ c ∈ s'.conts, c < w.objs.length := by
    intro j s' hs' c hcs
    obtain ⟨f, hf⟩ : ∃ f, (given ops).sws[j]? = some f :=
      ⟨_, List.getElem?_eq_getElem (hI.len ▸ (List.getElem?_eq_some_iff.mp hs').1)⟩
    exact (hI.sws j s' f hs' hf).valid hcs
  have hact : ∀ (j : ℕ) s', w.sws[j]? = some s' → s'.active ∈ s'.conts ∧ s'.terminal ∈ s'.conts := by
    intro j s' hs'
    obtain ⟨f, hf⟩ : ∃ f, (given ops).sws[j]? = some f :=
      ⟨_, List.getElem?_eq_getElem (hI.len ▸ (List.getElem?_eq_some_iff.mp hs').1)⟩
    have := hI.sws j s' f hs' hf
    obtain ⟨m, -, hm⟩ := this.terminal
    exact ⟨this.active, List.mem_of_getElem? hm⟩
  constructor
  · intro n hl
    have hK : Kept n w.objs.length (w.objs.length + fam.length) ⟨w.objs ++ os, w.sws ++ [copied w.objs.length s m]⟩
        ⟨w.objs ++ os, w.sws ++ [copied w.objs.length s m]⟩ := by
      refine ⟨rfl, by simp [n], fun _ _ _ => rfl, by simp [hfl, hlen], ?_⟩
      intro j s' hj hs' c hcs
      rcases getElem?_snoc hs' with ⟨-, hs'⟩ | ⟨hx, -⟩
      · have := hold j s' hs' c hcs
        omega
      · exact absurd hx hj
    have hK2 := kept_run hK hl h2
    have e1 : (w.sws ++ [copied w.objs.length s m])[n]? = some (copied w.objs.length s m) := by simp [n]
    have e2 : w2.sws[n]? = some (copied w.objs.length s m) := hK2.sw.trans e1
    have e3 := hK2.objs w.objs.length le_rfl (by omega)
    have e4 := hK2.objs (w.objs.length + m) (by omega) (by omega)
    have e1' : (World.mk (w.objs ++ os) (w.sws ++ [copied w.objs.length s m])).sws[n]? = some (copied w.objs.length s m) := e1
    simp only [inter, term, boundsI, boundsT, isInitialized, idx, e1', e2, Res.ok_bind]
    simp only [copied, e3, e4, and_self]
  · intro n hl
    have hS : Spared n w.objs.length w ⟨w.objs ++ os, w.sws ++ [copied w.objs.length s m]⟩ := by
      refine ⟨fun j hj => ?_, fun a ha => List.getElem?_append_left ha, ?_⟩
      · rcases lt_or_gt_of_ne hj with hlt | hgt
        · exact List.getElem?_append_left hlt
        · rw [List.getElem?_eq_none (by simp only [List.length_append, List.length_cons, List.length_nil]; omega), List.getElem?_eq_none hgt.le]
      · intro s' hs'
        rcases getElem?_snoc hs' with ⟨hx, -⟩ | ⟨-, rfl⟩
        · exact absurd hx (lt_irrefl _)
        · simp [copied]
    have hS2 := spared_run hS hl h2
    refine ⟨fun j hj => ?_, hS2.objs⟩
    have e1 := hS2.sw j hj.ne
    have hsj : w.sws[j]? = some w.sws[j] := List.getElem?_eq_getElem hj
    have e2 := hS2.objs _ (hold j _ hsj _ (hact j _ hsj).1)
    have e3 := hS2.objs _ (hold j _ hsj _ (hact j _ hsj).2)
    rw [hsj] at e1
    simp only [inter, term, boundsI, boundsT, isInitialized, idx, e1, hsj, Res.ok_bind, e2, e3, and_self]

example : ∃ w w1 w2, run start (history.take 4) = .ok w ∧ (given (history.take 4)).sws[0]? = some (cons2, ⟨[0, 1], [0, 2, 4]⟩) ∧
    step w (.copy 0) = .ok w1 ∧ run w1 [.set 0 1 2 3, .set 0 4 5 0] = .ok w2 ∧
    (∀ o ∈ ([.set 0 1 2 3, .set 0 4 5 0] : List (Op ℤ ℤ ℤ ℤ ℤ)), Elsewhere w.sws.length w.objs.length (w.objs.length + cons2.length) o) := by
  refine ⟨_, _, _, rfl, rfl, rfl, rfl, ?_⟩
  intro o ho
  simp only [List.mem_cons, List.not_mem_nil, or_false] at ho
  rcases ho with rfl | rfl <;> exact Nat.zero_ne_one

end CT.SwitchedCon
