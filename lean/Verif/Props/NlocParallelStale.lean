import Verif.Props.NlocParallelData

/-!
# C183: what a worker left over from an earlier phase does to the result
-/

namespace CT.Par

open CT.Nloc CT.LqApprox CT.Riccati CT.Cost

variable {n m : ℕ}

theorem shotNext_p (C : RollCfg (Fin n → ℝ) (Fin m → ℝ)) (xref : List (Fin n → ℝ)) (k : ℕ) (p : Pos n m) (w : Mem n m) :
    (shotNext C xref k p w).1.p = w.p := by
  cases p <;> simp only [shotNext] <;> (try split) <;> rfl

/-- A worker can finish its roll-out; nothing is written to the linear-quadratic problem. -/
theorem finish_rollout (e : Env n m) {N : ℕ} (hN : 1 ≤ N) (hC : Shots e.conf e.xref) {q : ℕ → ℝ} {s₀ : Full (Mem n m) (Pos n m)}
    {k f : ℕ} (hk : k < e.conf.K) : ∀ (r : ℕ) (s : Full (Mem n m) (Pos n m)) (w : Mem n m), (s.pos 0).rank e.conf.K = r →
      ReachF e.work N s₀ s → (s.par.ws 0).pc = .work .rollout f k → s.mem = .ok w → Fits e.conf.K q w →
      shotGood e.conf.K e.conf.stepsPerShot k (s.pos 0) →
      ∃ s' w', ReachF e.work N s₀ s' ∧ s'.par = s.par ∧ e.work.over (s'.pos 0) = true ∧ s'.mem = .ok w' ∧ Fits e.conf.K q w' ∧
        w'.p = w.p := by
  intro r
  induction r using Nat.strong_induction_on with
  | _ r ih =>
    intro s w hr h hpc hm hw hg
    cases ho : e.work.over (s.pos 0) with
    | true => exact ⟨s, w, h, rfl, ho, hm, hw, rfl⟩
    | false =>
      have hC' : Shots (e.roll 0) e.xref := ⟨hC.K, hC.Kshot, hC.L, hC.xref⟩
      have hst : e.work.step .rollout 0 k (s.pos 0) w = .ok (shotNext (e.roll 0) e.xref k (s.pos 0) w) :=
        shotPart_eq hC' (show k < (e.roll 0).K from hk) (q := q) hw hg
      have hds : stepF e.work s (.data 0) = some { s with
          mem := .ok (shotNext (e.roll 0) e.xref k (s.pos 0) w).1
          pos := Function.update s.pos 0 (shotNext (e.roll 0) e.xref k (s.pos 0) w).2 } := by
        simp only [stepF, dataStep]
        rw [hpc, hm]
        simp only [ho, Bool.false_eq_true, if_false]
        rw [hst]
      have hlt : (shotNext (e.roll 0) e.xref k (s.pos 0) w).2.rank e.conf.K < r :=
        hr ▸ rank_step e .rollout 0 k (s.pos 0) (shotNext (e.roll 0) e.xref k (s.pos 0) w).2 w
          (shotNext (e.roll 0) e.xref k (s.pos 0) w).1 ho hst
      obtain ⟨s', w', a1, a2, a3, a4, a5, a6⟩ := ih _ hlt { s with
          mem := .ok (shotNext (e.roll 0) e.xref k (s.pos 0) w).1
          pos := Function.update s.pos 0 (shotNext (e.roll 0) e.xref k (s.pos 0) w).2 } (shotNext (e.roll 0) e.xref k (s.pos 0) w).1
        (by simp only [Function.update_self]) (h.move (.data 0) (show 0 < N from hN) hds) hpc rfl (shotNext_fits hw)
        (by simp only [Function.update_self]; exact shotNext_good hC' hk hg)
      exact ⟨s', w', a1, a2, a3, a4, a5, a6.trans (shotNext_p _ _ _ _ _)⟩

/-- Along the schedule only the main thread and worker 0 move, the worker works on roll-outs of the indices 0 and 1 only, and no range
consists of one index. -/
def rollsOnly : Par → List Label → Bool
  | _, [] => true
  | s, l :: ls =>
    (match (s.ws 0).pc with
      | .work t _ i => decide (t = .rollout) && decide (i < 2)
      | _ => true) &&
    (match l with
      | .main => s.todo.all fun p => p.kMax != p.kMin
      | .worker j => j == 0
      | _ => false) &&
    match step s l with
    | some s' => rollsOnly s' ls
    | none => false

theorem lift_rolls (e : Env n m) {N : ℕ} (hN : 1 ≤ N) (hC : Shots e.conf e.xref) (hK : e.conf.K = 2) {q : ℕ → ℝ}
    {s₀ : Full (Mem n m) (Pos n m)} : ∀ (ls : List Label) (s : Full (Mem n m) (Pos n m)) (w : Mem n m) (t : Par),
      rollsOnly s.par ls = true → run s.par ls = some t → ReachF e.work N s₀ s → s.mem = .ok w → Fits e.conf.K q w →
      s.pos 0 = .start →
      ∃ s' w', ReachF e.work N s₀ s' ∧ s'.par = t ∧ s'.mem = .ok w' ∧ w'.p.A = w.p.A ∧ w'.p.B = w.p.B ∧ w'.p.R = w.p.R
  | [], s, w, t, _, ht, h, hm, _, _ => by
    simp only [run, Option.some.injEq] at ht
    exact ⟨s, w, h, ht, hm, rfl, rfl, rfl⟩
  | l :: ls, s, w, t, hr, ht, h, hm, hw, hp => by
    simp only [rollsOnly, Bool.and_eq_true] at hr
    obtain ⟨⟨h1, h2⟩, h3⟩ := hr
    simp only [run] at ht
    cases hs : step s.par l with
    | none => simp [hs] at h3
    | some q' =>
      simp only [hs] at h3
      simp only [hs, Option.bind_some] at ht
      cases l with
      | spurious j => simp at h2
      | spuriousMain => simp at h2
      | main =>
        obtain ⟨w1, e1, f1, a1, b1, c1⟩ : ∃ w1, mainData e.work s.par s.mem = .ok w1 ∧ Fits e.conf.K q w1 ∧ w1.p.A = w.p.A ∧
            w1.p.B = w.p.B ∧ w1.p.R = w.p.R := by
          rw [hm]
          unfold mainData
          split
          · next p rest hmain htodo =>
            have hne : ¬ p.kMax = p.kMin := by
              rw [htodo] at h2
              simp only [List.all_cons, Bool.and_eq_true, bne_iff_ne] at h2
              exact h2.1
            simp only [if_neg hne, Res.ok_bind]
            change ∃ w1, enterPhase e p w = .ok w1 ∧ _
            cases hkind : p.kind with
            | rollout => exact ⟨w, by simp only [enterPhase, hkind], hw, rfl, rfl, rfl⟩
            | lq =>
              have hx := hw.x
              by_cases hl : p.kMax + 1 = e.conf.K
              · refine ⟨{ w with p := (LqApprox.initializeCostToGo (w.iterate e) (e.cost e.nThreads, w.p)).2 }, by
                  simp only [enterPhase, hkind, hl, if_true, if_neg (show ¬ w.roll.x.length ≤ e.conf.K by omega)],
                  ⟨hw.u, hw.x, hw.s, hw.d, hw.N, hw.q⟩, rfl, rfl, rfl⟩
              · exact ⟨w, by simp only [enterPhase, hkind, if_neg hl], hw, rfl, rfl, rfl⟩
          · exact ⟨w, rfl, hw, rfl, rfl, rfl⟩
        obtain ⟨s', w', g1, g2, g3, g4, g5, g6⟩ := lift_rolls e hN hC hK ls
          { s with par := q', mem := mainData e.work s.par s.mem } w1 t h3 ht
          (h.move (.move .main) trivial (by simp only [stepF, hs, Option.map_some])) e1 f1 hp
        exact ⟨s', w', g1, g2, g3, g4.trans a1, g5.trans b1, g6.trans c1⟩
      | worker j =>
        obtain rfl : j = 0 := by simpa using h2
        obtain ⟨s1, w1, r1, p1, o1, m1, f1, e1⟩ : ∃ s1 w1, ReachF e.work N s₀ s1 ∧ s1.par = s.par ∧
            ((s.par.ws 0).pc.working && !e.work.over (s1.pos 0)) = false ∧ s1.mem = .ok w1 ∧ Fits e.conf.K q w1 ∧ w1.p = w.p := by
          cases hpc : (s.par.ws 0).pc with
          | work t' f i =>
            simp only [hpc, Bool.and_eq_true, decide_eq_true_eq] at h1
            obtain ⟨rfl, hi⟩ := h1
            obtain ⟨s1, w1, a1, a2, a3, a4, a5, a6⟩ := finish_rollout e hN hC (q := q) (by omega : i < e.conf.K) _ s w rfl h hpc hm hw
              (by rw [hp]; trivial)
            exact ⟨s1, w1, a1, a2, by simp [a3], a4, a5, a6⟩
          | _ => exact ⟨s, w, h, rfl, rfl, hm, hw, rfl⟩
        obtain ⟨s', w', g1, g2, g3, g4, g5, g6⟩ := lift_rolls e hN hC hK ls
          { s1 with par := q', pos := Function.update s1.pos 0 .start } w1 t h3 ht
          (r1.move (.move (.worker 0)) (show 0 < N from hN) (by
            simp only [stepF, p1, o1, Bool.false_eq_true, if_false, hs, Option.map_some]; rfl)) m1 f1
          (by simp only [Function.update_self])
        exact ⟨s', w', g1, g2, g3, by rw [g4, e1], by rw [g5, e1], by rw [g6, e1]⟩

/-- C183 violated: for any number of workers and every problem with two stages, a roll-out followed by a linear-quadratic approximation
can end with the matrices of the linear-quadratic problem as they were before, whereas the serial backend stores those of the
linearisation about the trajectory: a worker that has not left the first phase counts the indices of the second one as rolled out. -/
theorem C183_violated (e : Env n m) (N : ℕ) (hN : 1 ≤ N) (hC : Shots e.conf e.xref) (hK : e.conf.K = 2) (w : Mem n m)
    (hw : Fits e.conf.K w.p.q w) :
    (∃ s w', ReachF e.work N ⟨launch [⟨.rollout, 0, 1⟩, ⟨.lq, 0, 1⟩] 0 0 0 0 0, .ok w, fun _ => .start⟩ s ∧
      s.par.main = .idle ∧ s.par.todo = [] ∧ s.mem = .ok w' ∧ w'.p.A = w.p.A ∧ w'.p.B = w.p.B ∧ w'.p.R = w.p.R) ∧
    ∀ v : Mem n m, ∀ k ≤ 1, (computeLQApproximation (v.iterate e) (e.lin e.nThreads) 0 1 (e.cost e.nThreads, v.p)).2.A k =
      (e.lin e.nThreads (v.roll.x.getD k 0) (v.roll.u.getD k 0) (v.roll.s.getD k 0) k).1 := by
  constructor
  · have hrun : ∃ t, run (launch [⟨.rollout, 0, 1⟩, ⟨.lq, 0, 1⟩] 0 0 0 0 0) staleSchedule = some t ∧ t.main = .idle ∧ t.todo = [] := by
      have : (match run (launch [⟨.rollout, 0, 1⟩, ⟨.lq, 0, 1⟩] 0 0 0 0 0) staleSchedule with
        | some t => decide (t.main = .idle ∧ t.todo = []) | none => false) = true := by decide +kernel
      cases ht : run (launch [⟨.rollout, 0, 1⟩, ⟨.lq, 0, 1⟩] 0 0 0 0 0) staleSchedule with
      | none => simp [ht] at this
      | some t => exact ⟨t, rfl, by simpa [ht] using this⟩
    obtain ⟨t, ht, t1, t2⟩ := hrun
    have hroll : rollsOnly (launch [⟨.rollout, 0, 1⟩, ⟨.lq, 0, 1⟩] 0 0 0 0 0) staleSchedule = true := by decide +kernel
    obtain ⟨s, w', g1, rfl, g3, g4⟩ := lift_rolls e hN hC hK staleSchedule
      ⟨launch [⟨.rollout, 0, 1⟩, ⟨.lq, 0, 1⟩] 0 0 0 0 0, .ok w, fun _ => .start⟩ w t hroll ht .refl rfl hw rfl
    exact ⟨s, w', g1, t1, t2, g3, g4⟩
  · intro v k hk
    have hd : (List.range (1 + 1)).drop 0 = [0, 1] := rfl
    rw [computeLQApproximation, hd]
    simp only [List.foldl_cons, List.foldl_nil]
    rcases (by omega : k = 0 ∨ k = 1) with rfl | rfl
    · simp only [executeLQApproximation]
      rw [Function.update_of_ne (by norm_num), Function.update_self]; rfl
    · simp only [executeLQApproximation]
      rw [Function.update_self]; rfl

/-- A problem to which this applies and for which the two results differ. -/
example : Shots exEnv.conf exEnv.xref ∧ exEnv.conf.K = 2 ∧ Fits exEnv.conf.K exMem.p.q exMem ∧
    ∀ x u s k, (exEnv.lin exEnv.nThreads x u s k).1 ≠ exMem.p.A k := by
  refine ⟨⟨by decide, by decide, fun h => (by cases h), fun h => (by cases h)⟩, rfl, ⟨rfl, rfl, le_rfl, by decide, rfl, rfl⟩, ?_⟩
  intro x u s k h
  have h0 : (2 : Matrix (Fin 1) (Fin 1) ℝ) 0 0 = 0 := congrFun (congrFun h 0) 0
  have h2 : (2 : Matrix (Fin 1) (Fin 1) ℝ) 0 0 = 2 := by
    rw [← one_add_one_eq_two, Matrix.add_apply, Matrix.one_apply_eq]; norm_num
  rw [h2] at h0
  norm_num at h0

end CT.Par
