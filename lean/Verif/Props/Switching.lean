import Verif.Model.Switching
import Verif.Proof.Interpolation
import Mathlib.Algebra.Order.Group.Int
import Mathlib.Algebra.BigOperators.Group.List.Basic
import Mathlib.Algebra.Order.Group.Unbundled.Basic
import Mathlib.Tactic.Abel

/-! # Properties C07, C08: phase sequences and switched systems -/

namespace CT.Switching

variable {P T : Type} [AddCommGroup T] [LinearOrder T] [IsOrderedAddMonoid T]

/-- Specification: boundary `i` of phases with the given durations, starting at `t0`. -/
def boundary (t0 : T) (pds : List (P × T)) (i : Nat) : T := t0 + ((pds.take i).map Prod.snd).sum

/-- Phase `i` is scheduled at time `t`: the half-open interval between its boundaries contains
`t`; times before the start belong to the first phase, times from the end on to the last. -/
def IsScheduled (t0 : T) (pds : List (P × T)) (t : T) (i : Nat) : Prop :=
  i < pds.length ∧
  ((boundary t0 pds i ≤ t ∧ t < boundary t0 pds (i + 1)) ∨
   (t < t0 ∧ i = 0) ∨
   (boundary t0 pds pds.length ≤ t ∧ i + 1 = pds.length))

omit [LinearOrder T] [IsOrderedAddMonoid T] in
theorem addAll_spec : ∀ (pds done : List (P × T)) (t0 : T) (s : PhaseSeq P T),
    s.phases = done.map Prod.fst →
    s.times = (List.range (done.length + 1)).map (boundary t0 done) →
    ∃ s', s.addAll pds = .ok s' ∧ s'.phases = (done ++ pds).map Prod.fst ∧
      s'.times = (List.range ((done ++ pds).length + 1)).map (boundary t0 (done ++ pds)) := by
  intro pds
  induction pds with
  | nil => intro done t0 s h1 h2; exact ⟨s, rfl, by simpa using h1, by simpa using h2⟩
  | cons pd rest ih =>
    intro done t0 s h1 h2
    have hb : back s.times = .ok (boundary t0 done done.length) := by
      rw [h2, back_of_pos _ (by simp)]
      simp
    have hs : s.addPhase pd.1 pd.2 =
        .ok ⟨s.phases ++ [pd.1], s.times ++ [boundary t0 done done.length + pd.2]⟩ := by
      simp [PhaseSeq.addPhase, hb]
    obtain ⟨s', e1, e2, e3⟩ := ih (done ++ [pd]) t0
      ⟨s.phases ++ [pd.1], s.times ++ [boundary t0 done done.length + pd.2]⟩
      (by simp [h1]) (by
        simp only [h2, List.length_append, List.length_singleton]
        rw [List.range_succ (n := done.length + 1), List.map_append]
        congr 1
        · apply List.map_congr_left
          intro i hi
          have : i ≤ done.length := by simp at hi; omega
          simp [boundary, List.take_append_of_le_length this]
        · simp [boundary, List.take_of_length_le, add_assoc])
    refine ⟨s', ?_, by simpa using e2, by simpa using e3⟩
    simp only [PhaseSeq.addAll, hs, Res.ok_bind, e1]

omit [LinearOrder T] [IsOrderedAddMonoid T] in
/-- State of the object after any list of `addPhase` calls. -/
theorem addAll_new (t0 : T) (pds : List (P × T)) :
    ∃ s, (PhaseSeq.new t0 : PhaseSeq P T).addAll pds = .ok s ∧ s.phases = pds.map Prod.fst ∧
      s.times = (List.range (pds.length + 1)).map (boundary t0 pds) := by
  have := addAll_spec pds [] t0 (PhaseSeq.new t0) rfl (by simp [PhaseSeq.new, boundary, List.range_succ])
  simpa using this

omit [LinearOrder T] [IsOrderedAddMonoid T] in
/-- C07: after any sequence of `addPhase` calls the phases tile the interval: phase `i` starts
at the start time plus the preceding durations, lasts for its duration, ends where phase `i+1`
starts, and the total duration is the sum of all durations. -/
theorem C07_tiling (t0 : T) (pds : List (P × T)) :
    ∃ s, (PhaseSeq.new t0 : PhaseSeq P T).addAll pds = .ok s ∧
      s.numPhases = pds.length ∧
      s.totalDuration = .ok ((pds.map Prod.snd).sum) ∧
      s.startTime 0 = .ok t0 ∧
      ∀ i (hi : i < pds.length),
        s.phaseFromIdx i = .ok pds[i].1 ∧
        s.startTime i = .ok (t0 + ((pds.take i).map Prod.snd).sum) ∧
        s.endTime i = .ok (t0 + ((pds.take i).map Prod.snd).sum + pds[i].2) ∧
        s.startTime (i + 1) = s.endTime i := by
  obtain ⟨s, h1, h2, h3⟩ := addAll_new t0 pds
  refine ⟨s, h1, by simp [PhaseSeq.numPhases, h2], ?_, ?_, ?_⟩
  · have hl : 0 < s.times.length := by simp [h3]
    simp only [PhaseSeq.totalDuration, back_of_pos _ hl, front_of_pos _ hl, Res.ok_bind, Res.pure_eq]
    simp [h3, boundary]
  · simp [PhaseSeq.startTime, idx, h3, boundary]
  · intro i hi
    refine ⟨by simp [PhaseSeq.phaseFromIdx, idx, h2, hi], ?_, ?_, rfl⟩
    · have : i < pds.length + 1 := by omega
      simp [PhaseSeq.startTime, idx, h3, boundary, this]
    · simp only [PhaseSeq.endTime, idx, h3]
      rw [List.getElem?_eq_getElem (by simpa using hi)]
      simp only [List.getElem_map, List.getElem_range, boundary]
      rw [List.take_succ_eq_append_getElem hi]
      simp only [List.map_append, List.sum_append, List.map_cons, List.map_nil, List.sum_cons,
        List.sum_nil, add_zero, add_assoc]

theorem boundary_mono (t0 : T) (pds : List (P × T)) (hd : ∀ pd ∈ pds, 0 ≤ pd.2) {i j : Nat}
    (hij : i ≤ j) : boundary t0 pds i ≤ boundary t0 pds j := by
  induction hij with
  | refl => exact le_refl _
  | @step j hij ih =>
    refine le_trans ih ?_
    simp only [boundary]
    rcases Nat.lt_or_ge j pds.length with h | h
    · rw [List.take_succ_eq_append_getElem h]
      simp only [List.map_append, List.sum_append, List.map_cons, List.map_nil, List.sum_cons,
        List.sum_nil, add_zero]
      rw [← add_assoc]
      exact le_add_of_nonneg_right (hd _ (List.getElem_mem h))
    · rw [List.take_of_length_le h, List.take_of_length_le (by omega)]

omit [AddCommGroup T] [IsOrderedAddMonoid T] in
theorem upperBound_eq (ts : List T) (t : T) (k : Nat) (hk : k ≤ ts.length)
    (hle : ∀ i (hi : i < ts.length), i < k → ts[i] ≤ t)
    (hgt : ∀ hk : k < ts.length, t < ts[k]) : upperBound ts t = k := by
  induction ts generalizing k with
  | nil => simp at hk; simp [upperBound, hk]
  | cons a rest ih =>
    cases k with
    | zero =>
      have := hgt (by simp)
      simp only [List.getElem_cons_zero] at this
      simp [upperBound, not_le.mpr this]
    | succ k =>
      have h0 := hle 0 (by simp) (by omega)
      simp only [List.getElem_cons_zero] at h0
      have := ih k (by simpa using hk)
        (fun i hi hik => hle (i+1) (by simpa using hi) (by omega))
        (fun hk' => hgt (by simpa using hk'))
      simp only [upperBound] at this
      simp [upperBound, h0, this]

/-- Index look-up returns the scheduled phase. -/
theorem idxFromTime_scheduled (t0 : T) (pds : List (P × T)) (hd : ∀ pd ∈ pds, 0 ≤ pd.2)
    (s : PhaseSeq P T) (hs : (PhaseSeq.new t0 : PhaseSeq P T).addAll pds = .ok s)
    (t : T) (i : Nat) (hi : IsScheduled t0 pds t i) : s.idxFromTime t = .ok i := by
  obtain ⟨s', h1, h2, h3⟩ := addAll_new t0 pds
  rw [hs] at h1
  obtain rfl : s = s' := by injection h1
  have hl : 0 < s.times.length := by simp [h3]
  have hlen : s.times.length = pds.length + 1 := by simp [h3]
  have hf : front s.times = .ok t0 := by
    rw [front_of_pos _ hl]; simp [h3, boundary]
  have hb : back s.times = .ok (boundary t0 pds pds.length) := by
    rw [back_of_pos _ hl]; simp [h3]
  have hb0 : boundary t0 pds 0 = t0 := by simp [boundary]
  simp only [PhaseSeq.idxFromTime, hf, hb, Res.ok_bind, Res.pure_eq, PhaseSeq.numPhases]
  obtain ⟨hlt, ⟨ha, hbd⟩ | ⟨ha, hbd⟩ | ⟨ha, hbd⟩⟩ := hi
  · have : t0 ≤ boundary t0 pds i := by
      have := boundary_mono t0 pds hd (Nat.zero_le i)
      rwa [hb0] at this
    have h1 : boundary t0 pds (i+1) ≤ boundary t0 pds pds.length := boundary_mono t0 pds hd (by omega)
    rw [if_neg (not_lt.mpr (le_trans this ha)), if_neg (not_le.mpr (lt_of_lt_of_le hbd h1))]
    congr 1
    rw [upperBound_eq s.times t (i+1) (by omega)]
    · simp [sizePred]
    · intro j hj hji
      have : j < pds.length + 1 := by omega
      simp only [h3, List.getElem_map, List.getElem_range]
      exact le_trans (boundary_mono t0 pds hd (by omega)) ha
    · intro hk
      simp only [h3, List.getElem_map, List.getElem_range]
      exact hbd
  · rw [if_pos ha, hbd]
  · have : t0 ≤ boundary t0 pds pds.length := by
      have := boundary_mono t0 pds hd (Nat.zero_le pds.length)
      rwa [hb0] at this
    rw [if_neg (not_lt.mpr (le_trans this ha)), if_pos ha]
    congr 1
    simp [sizePred, h2]
    have hne : pds ≠ [] := by intro h; simp [h] at hlt
    simp [hne]
    omega

/-- C07: for every time there is exactly one scheduled phase (non-negative durations, at least
one phase). -/
theorem C07_unique_phase (t0 : T) (pds : List (P × T)) (hd : ∀ pd ∈ pds, 0 ≤ pd.2)
    (hne : pds ≠ []) (t : T) : ∃! i, IsScheduled t0 pds t i := by
  have hl : 0 < pds.length := List.length_pos_iff.mpr hne
  have hex : ∃ i, IsScheduled t0 pds t i := by
    rcases lt_or_ge t t0 with h | h
    · exact ⟨0, hl, Or.inr (Or.inl ⟨h, rfl⟩)⟩
    rcases le_or_gt (boundary t0 pds pds.length) t with h' | h'
    · exact ⟨pds.length - 1, by omega, Or.inr (Or.inr ⟨h', by omega⟩)⟩
    -- largest boundary not after t
    have : ∀ k, k ≤ pds.length → boundary t0 pds k ≤ t → ∃ i, IsScheduled t0 pds t i := by
      intro k hk
      induction hn : pds.length - k generalizing k with
      | zero =>
        intro hbk
        have : k = pds.length := by omega
        subst this
        exact absurd hbk (not_le.mpr h')
      | succ m ih =>
        intro hbk
        rcases lt_or_ge t (boundary t0 pds (k+1)) with h2 | h2
        · exact ⟨k, by omega, Or.inl ⟨hbk, h2⟩⟩
        · exact ih (k+1) (by omega) (by omega) h2
    exact this 0 (Nat.zero_le _) (by simpa [boundary] using h)
  obtain ⟨i, hi⟩ := hex
  refine ⟨i, hi, ?_⟩
  intro j hj
  obtain ⟨s, h1, _⟩ := addAll_new t0 pds
  have e1 := idxFromTime_scheduled t0 pds hd s h1 t i hi
  have e2 := idxFromTime_scheduled t0 pds hd s h1 t j hj
  rw [e1] at e2
  injection e2 with e; exact e.symm

/-- C07: `getPhaseFromTime(t)` is the phase scheduled at `t`. -/
theorem C07_lookup (t0 : T) (pds : List (P × T)) (hd : ∀ pd ∈ pds, 0 ≤ pd.2)
    (s : PhaseSeq P T) (hs : (PhaseSeq.new t0 : PhaseSeq P T).addAll pds = .ok s)
    (t : T) (i : Nat) (hlt : i < pds.length) (hi : IsScheduled t0 pds t i) :
    s.phaseFromTime t = .ok pds[i].1 := by
  have h := idxFromTime_scheduled t0 pds hd s hs t i hi
  obtain ⟨s', h1, _, _, _, h5⟩ := C07_tiling t0 pds
  rw [hs] at h1
  obtain rfl : s = s' := by injection h1
  simp only [PhaseSeq.phaseFromTime, h, Res.ok_bind]
  exact (h5 i hlt).1

/-- C07: in every phase but the last the next switch event is (this phase, next phase, end of
this phase). -/
theorem C07_switch_event (t0 : T) (pds : List (P × T)) (hd : ∀ pd ∈ pds, 0 ≤ pd.2)
    (s : PhaseSeq P T) (hs : (PhaseSeq.new t0 : PhaseSeq P T).addAll pds = .ok s)
    (t : T) (i : Nat) (hlt : i + 1 < pds.length) (hi : IsScheduled t0 pds t i) :
    s.switchEventFromTime t = .ok (pds[i].1, pds[i + 1].1, boundary t0 pds (i + 1)) := by
  have h := idxFromTime_scheduled t0 pds hd s hs t i hi
  obtain ⟨s', h1, _, _, _, h5⟩ := C07_tiling t0 pds
  rw [hs] at h1
  obtain rfl : s = s' := by injection h1
  obtain ⟨a1, _, _, a4⟩ := h5 i (by omega)
  obtain ⟨b1, b2, _, _⟩ := h5 (i+1) hlt
  simp only [PhaseSeq.switchEventFromTime, PhaseSeq.switchEventFromIdx, h, Res.ok_bind, a1, b1,
    ← a4, b2, Res.pure_eq, boundary]

/-- In the last phase there is no next switch; the query then reads beyond the end of the
schedule (undefined behaviour), it does not throw. -/
theorem C07_switch_event_last_undefined (t0 : T) (pds : List (P × T)) (hd : ∀ pd ∈ pds, 0 ≤ pd.2)
    (s : PhaseSeq P T) (hs : (PhaseSeq.new t0 : PhaseSeq P T).addAll pds = .ok s)
    (t : T) (i : Nat) (hlt : i + 1 = pds.length) (hi : IsScheduled t0 pds t i) :
    s.switchEventFromTime t = .ub := by
  have h := idxFromTime_scheduled t0 pds hd s hs t i hi
  obtain ⟨s', h1, h2, _⟩ := addAll_new t0 pds
  rw [hs] at h1
  obtain rfl : s = s' := by injection h1
  have : pds.length ≤ i + 1 := by omega
  have hi' : i < pds.length := by omega
  simp [PhaseSeq.switchEventFromTime, PhaseSeq.switchEventFromIdx, h, PhaseSeq.phaseFromIdx, idx, h2,
    this, hi']

/-- A concrete schedule: modes 4, 7, 4 with durations 2, 3, 1 from time 10. -/
example : (∀ pd ∈ [((4 : Nat), (2 : ℤ)), (7, 3), (4, 1)], 0 ≤ pd.2) ∧
    IsScheduled (10 : ℤ) [((4 : Nat), (2 : ℤ)), (7, 3), (4, 1)] 12 1 := by
  simp [IsScheduled, boundary]

/-! ## C08 -/

/-- C08: a switched (continuous or discrete) system evaluates exactly the subsystem whose mode is
scheduled at `t`. -/
theorem C08_switched_dynamics {X U : Type} (t0 : T) (pds : List (Nat × T))
    (hd : ∀ pd ∈ pds, 0 ≤ pd.2) (modes : PhaseSeq Nat T)
    (hs : (PhaseSeq.new t0 : PhaseSeq Nat T).addAll pds = .ok modes)
    (systems : List (X → T → U → X)) (x : X) (t : T) (u : U)
    (i : Nat) (hlt : i < pds.length) (hi : IsScheduled t0 pds t i)
    (hm : pds[i].1 < systems.length) :
    switchedDynamics modes systems x t u = .ok (systems[pds[i].1] x t u) := by
  simp only [switchedDynamics, C07_lookup t0 pds hd modes hs t i hlt hi, Res.ok_bind,
    idx_of_lt _ _ hm, Res.pure_eq]

/-- C08 (closed loop): with a controller attached, the dynamics are those of the scheduled
subsystem under the controller's command; without one, under zero input. -/
theorem C08_switched_closed_loop {X U : Type} [Zero U] (t0 : T) (pds : List (Nat × T))
    (hd : ∀ pd ∈ pds, 0 ≤ pd.2) (modes : PhaseSeq Nat T)
    (hs : (PhaseSeq.new t0 : PhaseSeq Nat T).addAll pds = .ok modes)
    (systems : List (X → T → U → X)) (c : Option (X → T → U)) (x : X) (t : T)
    (i : Nat) (hlt : i < pds.length) (hi : IsScheduled t0 pds t i)
    (hm : pds[i].1 < systems.length) :
    computeDynamics c (switchedDynamics modes systems) x t =
      .ok (systems[pds[i].1] x t (match c with | some c => c x t | none => 0)) := by
  cases c <;> simp only [computeDynamics] <;>
    exact C08_switched_dynamics t0 pds hd modes hs systems x t _ i hlt hi hm

/-- C08 (linear): a switched linear system has the dynamics of the scheduled linear subsystem. -/
theorem C08_switched_linear {n m : Nat} {K : Type} [CommRing K] (t0 : T) (pds : List (Nat × T))
    (hd : ∀ pd ∈ pds, 0 ≤ pd.2) (modes : PhaseSeq Nat T)
    (hs : (PhaseSeq.new t0 : PhaseSeq Nat T).addAll pds = .ok modes)
    (systems : List (LinSys n m K T)) (x : Fin n → K) (t : T) (u : Fin m → K)
    (i : Nat) (hlt : i < pds.length) (hi : IsScheduled t0 pds t i)
    (hm : pds[i].1 < systems.length) :
    switchedLinearDynamics modes systems x t u = .ok (systems[pds[i].1].dynamics x t u) := by
  simp only [switchedLinearDynamics, C07_lookup t0 pds hd modes hs t i hlt hi, Res.ok_bind,
    idx_of_lt _ _ hm, Res.pure_eq, LinSys.dynamics]

private theorem foldl_clone {α : Type} (c : α → α) (l acc : List α) :
    l.foldl (fun acc s => acc ++ [c s]) acc = acc ++ l.map c := by
  induction l generalizing acc with
  | nil => simp
  | cons a l ih => simp [ih]

/-- C08 (discrete and linear): at every time the matrices of a switched discrete linear system and its next state are those of
the scheduled subsystem.  If that subsystem computes its next state from its matrices, so does the switched system from the
matrices it reports.  A copy whose subsystems behave as the originals behaves as the original. -/
theorem C08_switched_discrete_linear {n m : Nat} {K : Type} [CommRing K] (t0 : T) (pds : List (Nat × T))
    (hd : ∀ pd ∈ pds, 0 ≤ pd.2) (modes : PhaseSeq Nat T)
    (hs : (PhaseSeq.new t0 : PhaseSeq Nat T).addAll pds = .ok modes)
    (systems : List (DLin n m K T)) (clone : DLin n m K T → DLin n m K T) (hc : ∀ s ∈ systems, clone s = s)
    (x x' : Fin n → K) (t : T) (u : Fin m → K) (k : Nat)
    (i : Nat) (hlt : i < pds.length) (hi : IsScheduled t0 pds t i)
    (hm : pds[i].1 < systems.length) :
    (switchedDLin modes systems).AB x u x' t k = systems[pds[i].1].AB x u x' t k ∧
    (switchedDLin modes systems).propagate x t u = systems[pds[i].1].propagate x t u ∧
    (∀ A B, systems[pds[i].1].propagate = dlinPropagate systems[pds[i].1].AB →
      (switchedDLin modes systems).ABat x u t = .ok (A, B) →
      (switchedDLin modes systems).propagate x t u = .ok (A.mulVec x + B.mulVec u)) ∧
    switchedDLinCopy clone modes systems = switchedDLin modes systems := by
  have hA : (switchedDLin modes systems).AB x u x t 1 = systems[pds[i].1].AB x u x t 1 := by
    simp only [switchedDLin, C07_lookup t0 pds hd modes hs t i hlt hi, Res.ok_bind, idx_of_lt _ _ hm]
  have hP : (switchedDLin modes systems).propagate x t u = systems[pds[i].1].propagate x t u := by
    simp only [switchedDLin, C07_lookup t0 pds hd modes hs t i hlt hi, Res.ok_bind, idx_of_lt _ _ hm]
  refine ⟨?_, hP, ?_, ?_⟩
  · simp only [switchedDLin, C07_lookup t0 pds hd modes hs t i hlt hi, Res.ok_bind, idx_of_lt _ _ hm]
  · intro A B hdef hab
    rw [DLin.ABat, hA] at hab
    rw [hP, hdef, dlinPropagate, hab]
    rfl
  · rw [switchedDLinCopy, foldl_clone, List.nil_append, List.map_congr_left hc, List.map_id']

/-- Two scalar systems, the second one scheduled at time 12: doubling the state and subtracting the control. -/
example : ∃ modes, (PhaseSeq.new (10 : ℤ) : PhaseSeq Nat ℤ).addAll [(0, 2), (1, 3)] = .ok modes ∧
    let AB : ℤ → ℤ → (Fin 1 → ℤ) → (Fin 1 → ℤ) → (Fin 1 → ℤ) → ℤ → Nat → Res _ :=
      fun a b _ _ _ _ _ => .ok ((fun _ _ => a : Matrix (Fin 1) (Fin 1) ℤ), (fun _ _ => b : Matrix (Fin 1) (Fin 1) ℤ))
    let sys : ℤ → ℤ → DLin 1 1 ℤ ℤ := fun a b => ⟨AB a b, dlinPropagate (AB a b)⟩
    (switchedDLin modes [sys 1 1, sys 2 (-1)]).propagate (fun _ => 5) 12 (fun _ => 1) = .ok (fun _ => 9) := by
  obtain ⟨s, h, _⟩ := addAll_new (10 : ℤ) [((0 : Nat), (2 : ℤ)), (1, 3)]
  refine ⟨s, h, ?_⟩
  intro AB sys
  have := (C08_switched_discrete_linear (10 : ℤ) [((0 : Nat), (2 : ℤ)), (1, 3)] (by simp) s h
    [sys 1 1, sys 2 (-1)] id (fun _ _ => rfl) (fun _ => 5) 0 12 (fun _ => 1) 1 1 (by simp)
    (by simp [IsScheduled, boundary]) (by simp)).2.1
  rw [this]
  exact congrArg Res.ok (by funext i; simp [Matrix.mulVec, dotProduct])

/-- Concrete instance of C08: two scalar subsystems, the second one active at time 12. -/
example : ∃ modes, (PhaseSeq.new (10 : ℤ) : PhaseSeq Nat ℤ).addAll [(0, 2), (1, 3)] = .ok modes ∧
    switchedDynamics modes [fun (x : ℤ) _ (u : ℤ) => x + u, fun x _ u => x - u] 5 12 1 = .ok 4 := by
  obtain ⟨s, h, _⟩ := addAll_new (10 : ℤ) [((0 : Nat), (2 : ℤ)), (1, 3)]
  refine ⟨s, h, ?_⟩
  have := C08_switched_dynamics (10 : ℤ) [((0 : Nat), (2 : ℤ)), (1, 3)] (by simp) s h
    [fun (x : ℤ) _ (u : ℤ) => x + u, fun x _ u => x - u] 5 12 1 1 (by simp)
    (by simp [IsScheduled, boundary]) (by simp)
  simpa using this

end CT.Switching
