import Verif.Model.Rti
import Verif.Props.NlocRollout
import Verif.Props.LqApprox
import Verif.Props.Lqoc

/-!
# C182: the real-time iteration of multiple shooting
-/

namespace CT.Rti

open Matrix CT.Nloc CT.LqApprox CT.Riccati CT.Cost

variable {n m : ℕ}

/-! ### Specification -/

/-- The sizes of the arrays the backend keeps for the horizon of `K` stages. -/
structure Ready (K : ℕ) (w : Members n m) : Prop where
  shot : K + 1 ≤ w.xShot.length
  defects : K ≤ w.d.length
  problem : w.p.N = K

/-- Feedback law around the guess that closed-loop shooting applies while rolling out. -/
def guessLaw (a : Algo) (L : List (Matrix (Fin m) (Fin n) ℝ)) : Option (ℕ → (Fin n → ℝ) → Fin m → ℝ) :=
  if a.closed then some fun k z => L.getD k 0 *ᵥ z else none

/-! ### Approximations of the same stages -/

theorem exec_congr (I J : Iterate n m) (lin : Lin n m) (k : ℕ) (s : CF n m × Problem n m) (hdt : I.dt = J.dt)
    (hx : I.x k = J.x k) (hu : I.u k = J.u k) (hs : I.xShot k = J.xShot k) (hd : I.d k = J.d k) :
    executeLQApproximation I lin s k = executeLQApproximation J lin s k := by
  simp only [executeLQApproximation, hdt, hx, hu, hs, hd]

theorem fold_congr (I J : Iterate n m) (lin : Lin n m) (l : List ℕ) (s : CF n m × Problem n m) (hdt : I.dt = J.dt)
    (h : ∀ k ∈ l, I.x k = J.x k ∧ I.u k = J.u k ∧ I.xShot k = J.xShot k ∧ I.d k = J.d k) :
    l.foldl (executeLQApproximation I lin) s = l.foldl (executeLQApproximation J lin) s := by
  induction l generalizing s with
  | nil => rfl
  | cons a l ih =>
    obtain ⟨h1, h2, h3, h4⟩ := h a (by simp)
    rw [List.foldl_cons, List.foldl_cons, exec_congr I J lin a s hdt h1 h2 h3 h4, ih _ fun k hk => h k (by simp [hk])]

theorem mem_drop_range {j N k : ℕ} : k ∈ (List.range N).drop j ↔ j ≤ k ∧ k < N := by
  rw [List.mem_drop_iff_getElem]
  constructor
  · rintro ⟨i, hi, rfl⟩
    simp only [List.length_range] at hi
    simp; omega
  · rintro ⟨h1, h2⟩
    exact ⟨k - j, by simp; omega, by simp; omega⟩

/-- Approximating a range of stages reads the trajectory at these stages, and its end if the last stage is included. -/
theorem lq_congr (I J : Iterate n m) (lin : Lin n m) (first last : ℕ) (s : CF n m × Problem n m) (hN : I.N = J.N)
    (hdt : I.dt = J.dt)
    (h : ∀ k, first ≤ k → k ≤ last → I.x k = J.x k ∧ I.u k = J.u k ∧ I.xShot k = J.xShot k ∧ I.d k = J.d k)
    (he : last + 1 = I.N → I.x I.N = J.x I.N) :
    computeLQApproximation I lin first last s = computeLQApproximation J lin first last s := by
  unfold computeLQApproximation
  rw [← hN]
  have hi : (if last + 1 = I.N then LqApprox.initializeCostToGo I s else s)
      = if last + 1 = I.N then LqApprox.initializeCostToGo J s else s := by
    split
    · next hh => simp only [LqApprox.initializeCostToGo, ← hN, hdt, he hh]
    · rfl
  rw [hi]
  refine fold_congr I J lin _ _ hdt fun k hk => ?_
  rw [mem_drop_range] at hk
  exact h k hk.1 (by omega)

theorem init_twice (I J : Iterate n m) (s : CF n m × Problem n m) (hN : J.N = I.N) :
    LqApprox.initializeCostToGo I (LqApprox.initializeCostToGo J s) = LqApprox.initializeCostToGo I s := by
  simp [LqApprox.initializeCostToGo, CF.set, hN]

theorem lq_terms (I : Iterate n m) (lin : Lin n m) (first last : ℕ) (s : CF n m × Problem n m) :
    (computeLQApproximation I lin first last s).1.inter = s.1.inter ∧
    (computeLQApproximation I lin first last s).1.fin = s.1.fin ∧
    (computeLQApproximation I lin first last s).1.shift = s.1.shift ∧
    (computeLQApproximation I lin first last s).2.N = s.2.N := by
  unfold computeLQApproximation
  split
  · obtain ⟨h1, h2, h3, h4, -⟩ := exec_fold s.1 I lin ((List.range (last + 1)).drop first) (LqApprox.initializeCostToGo I s)
      rfl rfl rfl
    exact ⟨h1, h2, h3, h4⟩
  · obtain ⟨h1, h2, h3, h4, -⟩ := exec_fold s.1 I lin ((List.range (last + 1)).drop first) s rfl rfl rfl
    exact ⟨h1, h2, h3, h4⟩

/-! ### The update -/

theorem norm_one (d : List (Fin n → ℝ)) : computeDefectsNorm d = (d.map fun v => ∑ i, |v i|).sum := by
  unfold computeDefectsNorm
  have : ∀ (l : List (Fin n → ℝ)) (a : ℝ),
      l.foldl (fun norm v => norm + ∑ i, |v i|) a = a + (l.map fun v => ∑ i, |v i|).sum := by
    intro l
    induction l with
    | nil => simp
    | cons v l ih => intro a; rw [List.foldl_cons, ih]; simp [add_assoc]
  rw [this, zero_add]

theorem norm_set (d : List (Fin n → ℝ)) (k : ℕ) (v : Fin n → ℝ) (hk : k < d.length) :
    computeDefectsNorm ((d.map fun _ => (0 : Fin n → ℝ)).set k v) = ∑ i, |v i| := by
  have hz : ∀ (l : List (Fin n → ℝ)), (l.map fun _ => (0 : ℝ)).sum = 0 := by
    intro l; induction l with
    | nil => rfl
    | cons a l ih => simp [ih]
  rw [norm_one, List.map_set, List.sum_set, List.map_map]
  have : ((fun v : Fin n → ℝ => ∑ i, |v i|) ∘ fun _ : Fin n → ℝ => (0 : Fin n → ℝ)) = fun _ => (0 : ℝ) := by
    funext w; simp
  rw [this, ← List.map_take, ← List.map_drop, hz, hz]
  simp [hk]

theorem norm_zero (d : List (Fin n → ℝ)) : computeDefectsNorm (d.map fun _ => (0 : Fin n → ℝ)) = 0 := by
  rw [norm_one, List.map_map]
  induction d with
  | nil => rfl
  | cons a l ih => simpa using ih

theorem getD_map_range {α : Type} (N : ℕ) (f : ℕ → α) (k : ℕ) (h : k < N) (a : α) : ((List.range N).map f).getD k a = f k := by
  simp [List.getD_eq_getElem?_getD, h]

theorem update_x (a : Algo) (p : Problem n m) (s : Sol n m) (w w' : Back n m) (hx : w.x = w'.x) (hu : w.u = w'.u) :
    finishMpcUpdate a p s w = finishMpcUpdate a p s w' := by
  cases a <;> simp [finishMpcUpdate, extractSolution, doFullStepUpdate, hx, hu]

theorem getD_law (L : List (Matrix (Fin m) (Fin n) ℝ)) (k : ℕ) (z : Fin n → ℝ) :
    (L.map fun (M : Matrix (Fin m) (Fin n) ℝ) (z : Fin n → ℝ) => M *ᵥ z).getD k (fun _ => 0) z = L.getD k 0 *ᵥ z := by
  simp only [List.getD_eq_getElem?_getD, List.getElem?_map]
  cases L[k]? <;> simp

/-! ### C182 -/

/-- Approximation and sweep in two phases, with iterates that agree where they are read. -/
theorem two_phases (I I1 I2 : Iterate n m) (lin : Lin n m) (c : CF n m) (p : Problem n m) (j : ℕ) (hj : 0 < j) (hjN : j ≤ I.N)
    (hp : p.N = I.N) (hN1 : I1.N = I.N) (hN2 : I2.N = I.N) (hdt1 : I1.dt = I.dt) (hdt2 : I2.dt = I.dt)
    (h1 : ∀ k, j ≤ k → k < I.N → I1.x k = I.x k ∧ I1.u k = I.u k ∧ I1.xShot k = I.xShot k ∧ I1.d k = I.d k)
    (h1e : j < I.N → I1.x I.N = I.x I.N)
    (h2 : ∀ k < j, I2.x k = I.x k ∧ I2.u k = I.u k ∧ I2.xShot k = I.xShot k ∧ I2.d k = I.d k)
    (h2e : I2.x I.N = I.x I.N) (g : Settings m) (s0 : Sol n m) :
    (computeLQApproximation I2 lin 0 (j - 1) (computeLQApproximation I1 lin j (I.N - 1) (c, p))).2
      = (computeLQApproximation I lin 0 (I.N - 1) (c, p)).2 ∧
    ∃ s1 s, prepareSolve g (computeLQApproximation I1 lin j (I.N - 1) (c, p)).2 j s0 = .ok s1 ∧
      finishSolve g (computeLQApproximation I lin 0 (I.N - 1) (c, p)).2 (j - 1) s1 = .ok s ∧
      solve g (computeLQApproximation I lin 0 (I.N - 1) (c, p)).2 s0 = .ok s := by
  have e2 : ∀ q, computeLQApproximation I2 lin 0 (j - 1) q = computeLQApproximation I lin 0 (j - 1) q := fun q =>
    lq_congr I2 I lin 0 (j - 1) q hN2 hdt2 (fun k _ hk => h2 k (by omega)) (fun _ => by rw [hN2]; exact h2e)
  have hsolved := fun q => solve_solved g q s0
  by_cases hlt : j < I.N
  · have e1 : computeLQApproximation I1 lin j (I.N - 1) (c, p) = computeLQApproximation I lin j (I.N - 1) (c, p) :=
      lq_congr I1 I lin j (I.N - 1) _ hN1 hdt1 (fun k a b => h1 k a (by omega)) (fun _ => by rw [hN1]; exact h1e hlt)
    have e3 : (computeLQApproximation I2 lin 0 (j - 1) (computeLQApproximation I1 lin j (I.N - 1) (c, p))).2
        = (computeLQApproximation I lin 0 (I.N - 1) (c, p)).2 := by
      rw [e2, e1, C106_two_phase c I lin p j hj hlt]
    refine ⟨e3, ?_⟩
    have hag : AgreeFrom (computeLQApproximation I1 lin j (I.N - 1) (c, p)).2
        (computeLQApproximation I lin 0 (I.N - 1) (c, p)).2 j := by
      rw [← e3]
      generalize computeLQApproximation I1 lin j (I.N - 1) (c, p) = q
      have hne : ¬ j - 1 + 1 = I2.N := by rw [hN2]; omega
      simp only [computeLQApproximation, if_neg hne, List.drop_zero]
      obtain ⟨-, -, -, a4, -, -, a7⟩ := exec_fold q.1 I2 lin (List.range (j - 1 + 1)) q rfl rfl rfl
      refine ⟨a4.symm, fun i hi => ?_⟩
      obtain ⟨b1, b2, b3, b4, b5, b6, b7, b8⟩ := a7 i (by simp; omega)
      exact ⟨b1.symm, b2.symm, b3.symm, b6.symm, b7.symm, b4.symm, b8.symm, b5.symm⟩
    have hNq : (computeLQApproximation I1 lin j (I.N - 1) (c, p)).2.N = I.N := by
      rw [(lq_terms I1 lin j (I.N - 1) (c, p)).2.2.2]; exact hp
    have hsp := C39_split g _ _ j hj (by rw [hNq]; exact hjN) hag s0
    obtain ⟨s, es, -⟩ := hsolved (computeLQApproximation I lin 0 (I.N - 1) (c, p)).2
    rw [es] at hsp
    obtain ⟨s1, a, b⟩ := Res.bind_eq_ok.1 hsp
    exact ⟨s1, s, a, b, es⟩
  · have hj' : j = I.N := by omega
    have hl : I.N - 1 + 1 = I.N := by omega
    have hdrop : (List.range (I.N - 1 + 1)).drop j = [] := by simp; omega
    have e1 : computeLQApproximation I1 lin j (I.N - 1) (c, p) = LqApprox.initializeCostToGo I1 (c, p) := by
      rw [computeLQApproximation, hdrop, if_pos (by rw [hN1]; exact hl)]
      rfl
    refine ⟨?_, ?_⟩
    · rw [e2, e1, hj']
      simp only [computeLQApproximation, hl, if_true]
      rw [init_twice I I1 (c, p) hN1]
    · obtain ⟨s, es, -⟩ := hsolved (computeLQApproximation I lin 0 (I.N - 1) (c, p)).2
      refine ⟨s0, s, ?_, ?_, es⟩
      · rw [prepareSolve, (lq_terms I1 lin j (I.N - 1) (c, p)).2.2.2, hj']
        simp only [hp]
        exact sweep_self _ _ _ _
      · rw [solve, (lq_terms I lin 0 (I.N - 1) (c, p)).2.2.2] at es
        simp only [hp] at es
        rw [finishSolve, hj', hl]
        exact es

/-- C182, step: for every horizon, shot length up to the horizon, algorithm with several shots, guess of sufficient length and
measured state, preparing the iteration before the state is known and finishing it afterwards succeeds and returns what one whole
step gives: roll out the guess from the measured state, approximate all stages around the roll-out with its defects, sweep over all
of them, take the full step.  The arrays are left ready for the next call and the cost function keeps its terms. -/
theorem C182_step (c : Cfg n m) (hs : c.algo.single = false) (h0 : 0 < c.Kshot) (hK : c.Kshot ≤ c.K) (w : Members n m)
    (hw : Ready c.K w) (x : List (Fin n → ℝ)) (u : List (Fin m → ℝ)) (L : List (Matrix (Fin m) (Fin n) ℝ))
    (hx : c.K + 1 ≤ x.length) (hu : c.K ≤ u.length) (hL : c.K ≤ L.length) (x0 : Fin n → ℝ) :
    ∃ w' r d s, mpcIteration c x u L x0 w = .ok w' ∧
      IsRollout c.f c.K c.Kshot (guessLaw c.algo L) x ⟨u, x.set 0 x0, w.xShot⟩ r d ∧
      let I : Iterate n m := ⟨c.K, c.dt, fun k => r.x.getD k 0, fun k => r.u.getD k 0, fun k => r.s.getD k 0, fun k => d.getD k 0⟩
      let p := (computeLQApproximation I c.lin 0 (c.K - 1) (w.cf, w.p)).2
      solve c.solver p w.sol = .ok s ∧
      (∀ k ≤ c.K, w'.x.getD k 0 = (finishMpcUpdate c.algo p s ⟨I.x, I.u, fun _ => 0, fun _ => 0⟩).x k ∧
        w'.xRef.getD k 0 = (finishMpcUpdate c.algo p s ⟨I.x, I.u, fun _ => 0, fun _ => 0⟩).xRef k) ∧
      (∀ k < c.K, w'.u.getD k 0 = (finishMpcUpdate c.algo p s ⟨I.x, I.u, fun _ => 0, fun _ => 0⟩).u k ∧
        w'.L.getD k 0 = (finishMpcUpdate c.algo p s ⟨I.x, I.u, fun _ => 0, fun _ => 0⟩).L k) ∧
      w'.iteration = 1 ∧
      w'.dNorm = some (if c.Kshot < c.K then ∑ i, |d.getD (c.Kshot - 1) 0 i| else 0) ∧
      Ready c.K w' ∧ w'.cf.inter = w.cf.inter ∧ w'.cf.fin = w.cf.fin ∧ w'.cf.shift = w.cf.shift := by
  have hKpos : 0 < c.K := by omega
  let C := c.roll (L.take c.K)
  have hd0 : ∀ i < c.K, ((w.d.map fun _ => (0 : Fin n → ℝ)).map fun _ => (0 : Fin n → ℝ)).getD i 0 = 0 := fun i _ => getD_map_zero _ i
  obtain ⟨r1, d1, e1, S1, l1, hfin⟩ := C54_change_start C x ⟨u.take c.K, x.take (c.K + 1), w.xShot⟩
    ((w.d.map fun _ => (0 : Fin n → ℝ)).map fun _ => (0 : Fin n → ℝ)) hKpos h0 hK hs
    ⟨by simp [C, Cfg.roll]; omega, by simp [C, Cfg.roll]; omega, hw.shot, fun _ => by simp [C, Cfg.roll]; omega,
      fun _ => by simp only [C, Cfg.roll]; omega⟩
    (by simpa [C, Cfg.roll] using hw.defects) (fun _ => rfl) (fun _ => rfl) hd0
  obtain ⟨r2, d2, d', e2, S2, hroll, hlate, hend, hearly, hd2⟩ := hfin x0
  let I : Iterate n m := ⟨c.K, c.dt, fun k => r2.x.getD k 0, fun k => r2.u.getD k 0, fun k => r2.s.getD k 0, fun k => d'.getD k 0⟩
  let I1 : Iterate n m := ⟨c.K, c.dt, fun k => r1.x.getD k 0, fun k => r1.u.getD k 0, fun k => r1.s.getD k 0, fun k => d1.getD k 0⟩
  let I2 : Iterate n m := ⟨c.K, c.dt, fun k => r2.x.getD k 0, fun k => r2.u.getD k 0, fun k => r2.s.getD k 0, fun k => d2.getD k 0⟩
  have hpN : w.p.N = I.N := hw.problem
  obtain ⟨hp, s1, s, hs1, hs2, hs3⟩ := two_phases I I1 I2 c.lin w.cf w.p c.Kshot h0 hK hpN rfl rfl rfl rfl
    (fun k a b => by obtain ⟨q1, q2, q3, q4⟩ := hlate k a b; exact ⟨q1.symm, q2.symm, q3.symm, q4.symm⟩)
    (fun h => (hend h).symm) (fun k hk => ⟨rfl, rfl, rfl, (hearly k hk).symm⟩) rfl c.solver w.sol
  have hx1 : c.K + 1 ≤ r1.x.length := S1.hx
  have hu1 : c.K ≤ r1.u.length := S1.hu
  have hx2 : c.K + 1 ≤ r2.x.length := S2.hx
  have hu2 : c.K ≤ r2.u.length := S2.hu
  have hs2' : c.K + 1 ≤ r2.s.length := S2.hs
  have hl1 : c.K ≤ d1.length := l1
  have hl2 : c.K ≤ d2.length := by rw [hd2]; split <;> simpa using hl1
  set q1 := computeLQApproximation I1 c.lin c.Kshot (c.K - 1) (w.cf, w.p) with hq1
  set q2 := computeLQApproximation I2 c.lin 0 (c.Kshot - 1) q1 with hq2
  have t1 := lq_terms I1 c.lin c.Kshot (c.K - 1) (w.cf, w.p)
  have t2 := lq_terms I2 c.lin 0 (c.Kshot - 1) q1
  rw [← hq1] at t1
  rw [← hq2] at t2
  have hN1 : q1.2.N = c.K := t1.2.2.2.trans hw.problem
  have hN2 : q2.2.N = c.K := t2.2.2.2.trans hN1
  -- the calls, one after the other
  let w0 : Members n m := Members.reset { w with x := x.take (c.K + 1), xRef := x, u := u.take c.K, L := L.take c.K, initialized := true }
  have f0 : setInitialGuess c x u L w = .ok w0 := by
    unfold setInitialGuess
    rw [if_neg (by omega), if_neg (by omega), if_neg (by omega)]
  let w1 : Members n m := { w0.resetDefects with x := r1.x, u := r1.u, xShot := r1.s, d := d1 }
  have f1 : prepareRollout c w0 = .ok w1 := by
    unfold prepareRollout rollout
    rw [if_neg (by simp [w0, Members.reset, Members.resetDefects]), if_neg (by omega),
      if_neg (by simp [w0, Members.reset, Members.resetDefects]; omega)]
    have : rolloutShotsST (c.roll w0.resetDefects.L) w0.resetDefects.xRef c.Kshot (c.K - 1)
      { u := w0.resetDefects.u, x := w0.resetDefects.x, s := w0.resetDefects.xShot } w0.resetDefects.d = .ok (r1, d1) := e1
    rw [this]
    rfl
  let w2 : Members n m := { w1 with cf := q1.1, p := q1.2, sol := s1 }
  have f2 : prepareSweep c w1 = .ok w2 := by
    unfold prepareSweep approximate
    rw [if_neg]
    · have : prepareSolve c.solver q1.2 c.Kshot w.sol = .ok s1 := hs1
      simp only [Res.ok_bind]
      change prepareSolve c.solver q1.2 c.Kshot w.sol >>= _ = _
      rw [this]
      rfl
    · rintro ⟨-, h | h⟩
      · have : r1.u.length ≤ c.K - 1 := h
        omega
      · have : w.p.N ≤ c.K - 1 := h
        rw [hw.problem] at this
        omega
  let w3 : Members n m := changeInitialState x0 w2
  let w4 : Members n m := { w3 with x := r2.x, u := r2.u, xShot := r2.s, d := d2, dNorm := some (computeDefectsNorm d2) }
  have hw3 : w3 = Members.reset { w2 with x := r1.x.set 0 x0 } := by
    have : w2.x.length ≠ 0 := by
      have : w2.x.length = r1.x.length := rfl
      omega
    simp only [w3, changeInitialState, if_neg this]
    rfl
  have f3 : finishRollout c w3 = .ok w4 := by
    unfold finishRollout rollout
    have : rolloutShotsST (c.roll w3.L) w3.xRef 0 (c.Kshot - 1) { u := w3.u, x := w3.x, s := w3.xShot } w3.d = .ok (r2, d2) := by
      rw [hw3]
      exact e2
    rw [this]
    rfl
  have h4 : w4.iterate c = I2 := rfl
  have h4cf : (w4.cf, w4.p) = q1 := by
    simp only [w4, hw3]
    rfl
  have h4sol : w4.sol = s1 := by
    simp only [w4, hw3]
    rfl
  have h4it : w4.iteration = 0 := by
    simp only [w4, hw3]
    rfl
  have h4L : w4.L = L.take c.K := by
    simp only [w4, hw3]
    rfl
  let b := finishMpcUpdate c.algo q2.2 s w4.back
  let w5 : Members n m := { w4 with
    cf := q2.1, p := q2.2, sol := s, x := (List.range w4.x.length).map b.x, u := (List.range w4.u.length).map b.u,
    xRef := (List.range w4.x.length).map b.xRef, L := (List.range w4.L.length).map b.L, iteration := w4.iteration + 1 }
  have f5 : finishSweep c w4 = .ok w5 := by
    unfold finishSweep approximate
    rw [if_neg]
    · have : finishSolve c.solver q2.2 (c.Kshot - 1) w4.sol = .ok s := by
        rw [h4sol, hp]
        exact hs2
      simp only [Res.ok_bind, h4, h4cf]
      rw [← hq2, this]
      rfl
    · rintro ⟨-, h | h⟩
      · have : r2.u.length ≤ c.Kshot - 1 := h
        omega
      · have e : w4.p = q1.2 := congrArg Prod.snd h4cf
        rw [e, hN1] at h
        omega
  have hb : b = finishMpcUpdate c.algo q2.2 s ⟨I.x, I.u, fun _ => 0, fun _ => 0⟩ := update_x _ _ _ _ _ rfl rfl
  refine ⟨w5, r2, d', s, ?_, ?_, hs3, fun k hk => ?_, fun k hk => ?_, ?_, ?_, ⟨hs2', hl2, hN2⟩, ?_, ?_, ?_⟩
  · unfold mpcIteration prepareMPCIteration finishMPCIteration
    rw [f0, Res.ok_bind, f1, Res.ok_bind, f2, Res.ok_bind]
    change finishRollout c w3 >>= _ = _
    rw [f3, Res.ok_bind, f5]
  · obtain ⟨g1, g2, g3, g4, g5⟩ := hroll
    refine ⟨g1, g2, fun i hi hdv => ?_, fun i hi => ?_, g5⟩
    · have hi' : i < c.K := hi
      rw [g3 i hi hdv]
      simp only
      rw [getD_set _ _ _ _ _ (by simp; omega), getD_set _ _ _ _ _ (by omega), getD_take _ _ _ _ (by omega)]
    · have hi' : i < c.K := hi
      rw [g4 i hi]
      simp only [RollCfg.law, guessLaw, C, Cfg.roll]
      cases c.algo.closed with
      | false => simp only [Bool.false_eq_true, if_false]; rw [getD_take _ _ _ _ hi']
      | true =>
        simp only [if_true]
        rw [getD_take _ _ _ _ hi', getD_law, getD_take _ _ _ _ hi']
  · rw [← hp, ← hb]
    exact ⟨getD_map_range _ _ _ (by change k < r2.x.length; omega) _, getD_map_range _ _ _ (by change k < r2.x.length; omega) _⟩
  · rw [← hp, ← hb]
    refine ⟨getD_map_range _ _ _ (by change k < r2.u.length; omega) _, getD_map_range _ _ _ ?_ _⟩
    rw [h4L, List.length_take]
    omega
  · change w4.iteration + 1 = 1
    rw [h4it]
  · change some (computeDefectsNorm d2) = _
    rw [hd2]
    congr 1
    change computeDefectsNorm (if c.Kshot < c.K then _ else _) = _
    split
    · rw [norm_set _ _ _ (by change c.Kshot - 1 < d1.length; omega)]; rfl
    · exact norm_zero _
  · exact t2.1.trans t1.1
  · exact t2.2.1.trans t1.2.1
  · exact t2.2.2.1.trans t1.2.2.1

/-- Every linear-quadratic approximation of the problem is convex, whatever trajectory it is made around. -/
def ConvexAround (c : Cfg n m) (cf : CF n m) : Prop :=
  ∀ (I : Iterate n m) (cf' : CF n m) (p : Problem n m), I.N = c.K → I.dt = c.dt → p.N = c.K → cf'.inter = cf.inter →
    cf'.fin = cf.fin → cf'.shift = cf.shift → Convex c.solver (computeLQApproximation I c.lin 0 (c.K - 1) (cf', p)).2

/-- The dynamics are affine and `lin` returns their matrices. -/
def AffineDynamics (c : Cfg n m) : Prop :=
  ∀ k < c.K, ∀ x u xs dx du, c.f (x + dx) k (u + du) = c.f x k u + (c.lin x u xs k).1 *ᵥ dx + (c.lin x u xs k).2 *ᵥ du

theorem trajectoryCost_terms (c c' : CF n m) (hi : c'.inter = c.inter) (hf : c'.fin = c.fin) (hs : c'.shift = c.shift) :
    trajectoryCost c' = trajectoryCost c := by
  funext N dt x u
  simp [trajectoryCost, runningCost, finalCost, hi, hf, hs]

/-- C182, optimality: with affine dynamics and quadratic cost terms the iteration returns the globally optimal trajectory from the
measured state, whatever the guess — although all stages but those of the first shot were prepared before the state was known.
(Of the four algorithms with several shots all but the one of `C108_ms_ilqr_violated`.) -/
theorem C182_optimal_partial (c : Cfg n m) (ha : c.algo = .gnms ∨ c.algo = .gnmsMOl ∨ c.algo = .gnmsMCl) (h0 : 0 < c.Kshot)
    (hK : c.Kshot ≤ c.K) (w : Members n m) (hw : Ready c.K w) (hi : ∀ τ ∈ w.cf.inter, Quadratic τ)
    (hf : ∀ τ ∈ w.cf.fin, Quadratic τ) (hA : AffineDynamics c) (hc : ConvexAround c w.cf) (x : List (Fin n → ℝ))
    (u : List (Fin m → ℝ)) (L : List (Matrix (Fin m) (Fin n) ℝ)) (hx : c.K + 1 ≤ x.length) (hu : c.K ≤ u.length)
    (hL : c.K ≤ L.length) (x0 : Fin n → ℝ) :
    ∃ w', mpcIteration c x u L x0 w = .ok w' ∧
      Optimal w.cf c.K c.dt c.f x0 (fun k => w'.x.getD k 0) (fun k => w'.u.getD k 0) := by
  have hs : c.algo.single = false := by rcases ha with h | h | h <;> rw [h] <;> rfl
  obtain ⟨w', r, d, s, e, hroll, hsol, hxs, hus, -⟩ := C182_step c hs h0 hK w hw x u L hx hu hL x0
  refine ⟨w', e, ?_⟩
  set I : Iterate n m := ⟨c.K, c.dt, fun k => r.x.getD k 0, fun k => r.u.getD k 0, fun k => r.s.getD k 0, fun k => d.getD k 0⟩ with hI
  obtain ⟨s', es, ho⟩ := C106_step w.cf I c.lin w.p hw.problem (by simp only [hI]; omega) hi hf c.f
    (fun k hk dx du => hA k hk _ _ _ dx du) (fun k hk => hroll.dynamics k hk) c.solver
    (hc I w.cf w.p rfl rfl hw.problem rfl rfl rfl) w.sol
  have hss : s' = s := by
    have := es.symm.trans hsol
    exact Res.ok.inj this
  subst hss
  have hx0 : I.x 0 = x0 := by
    have := hroll.shotStart 0 (by omega) (dvd_zero _)
    rw [show I.x 0 = r.x.getD 0 0 from rfl, this]
    simp only
    rw [getD_set _ _ _ _ _ (by omega), if_pos rfl]
  rw [hx0] at ho
  have kx : ∀ k ≤ c.K, w'.x.getD k 0 = I.x k + xSol (computeLQApproximation I c.lin 0 (I.N - 1) (w.cf, w.p)).2 s' k := by
    intro k hk
    rw [(hxs k hk).1]
    rcases ha with h | h | h <;> rw [h] <;> rfl
  have ku : ∀ k < c.K, w'.u.getD k 0 = I.u k + uSol (computeLQApproximation I c.lin 0 (I.N - 1) (w.cf, w.p)).2 s' k := by
    intro k hk
    rw [(hus k hk).1]
    rcases ha with h | h | h <;> rw [h] <;> rfl
  refine ⟨?_, fun k hk => ?_, fun y v hy hv => ?_⟩
  · rw [kx 0 (Nat.zero_le _)]; exact ho.start
  · rw [kx (k + 1) (by omega), kx k (by omega), ku k hk]; exact ho.dynamics k hk
  · obtain ⟨h1, h2⟩ := ho.least y v hy hv
    rw [trajectoryCost_congr w.cf c.K c.dt kx ku]
    exact ⟨h1, fun he k hk => by rw [h2 he k hk, ku k hk]⟩

/-- What one call of the controller is given: guess (states, controls, gains) and measured state. -/
structure Call (n m : ℕ) where
  x : List (Fin n → ℝ)
  u : List (Fin m → ℝ)
  L : List (Matrix (Fin m) (Fin n) ℝ)
  x0 : Fin n → ℝ

/-- The guess covers the horizon. -/
def Call.Long (K : ℕ) (a : Call n m) : Prop := K + 1 ≤ a.x.length ∧ K ≤ a.u.length ∧ K ≤ a.L.length

theorem calls_ready (c : Cfg n m) (hs : c.algo.single = false) (h0 : 0 < c.Kshot) (hK : c.Kshot ≤ c.K) (calls : List (Call n m))
    (hcalls : ∀ a ∈ calls, a.Long c.K) (w : Members n m) (hw : Ready c.K w) :
    ∃ w', calls.foldlM (fun w a => mpcIteration c a.x a.u a.L a.x0 w) w = .ok w' ∧ Ready c.K w' ∧ w'.cf.inter = w.cf.inter ∧
      w'.cf.fin = w.cf.fin ∧ w'.cf.shift = w.cf.shift := by
  induction calls generalizing w with
  | nil => exact ⟨w, rfl, hw, rfl, rfl, rfl⟩
  | cons a l ih =>
    obtain ⟨b1, b2, b3⟩ := hcalls a (by simp)
    obtain ⟨w1, r, d, s, e, -, -, -, -, -, -, q1, q2, q3, q4⟩ := C182_step c hs h0 hK w hw a.x a.u a.L b1 b2 b3 a.x0
    obtain ⟨w2, e2, p1, p2, p3, p4⟩ := ih (fun a ha => hcalls a (by simp [ha])) w1 q1
    exact ⟨w2, by rw [List.foldlM_cons, e, Res.ok_bind, e2], p1, p2.trans q2, p3.trans q3, p4.trans q4⟩

/-- C182, control loop: after any number of calls, with any guesses covering the horizon and any measured states, the next call
succeeds and — for affine dynamics and quadratic cost — returns the optimal trajectory from its measured state: nothing of the
earlier calls is left in it. -/
theorem C182_loop_partial (c : Cfg n m) (ha : c.algo = .gnms ∨ c.algo = .gnmsMOl ∨ c.algo = .gnmsMCl) (h0 : 0 < c.Kshot)
    (hK : c.Kshot ≤ c.K) (w : Members n m) (hw : Ready c.K w) (hi : ∀ τ ∈ w.cf.inter, Quadratic τ)
    (hf : ∀ τ ∈ w.cf.fin, Quadratic τ) (hA : AffineDynamics c) (hc : ConvexAround c w.cf) (calls : List (Call n m)) (a : Call n m)
    (hcalls : ∀ b ∈ calls ++ [a], b.Long c.K) :
    ∃ w', (calls ++ [a]).foldlM (fun w a => mpcIteration c a.x a.u a.L a.x0 w) w = .ok w' ∧
      Optimal w.cf c.K c.dt c.f a.x0 (fun k => w'.x.getD k 0) (fun k => w'.u.getD k 0) := by
  have hs : c.algo.single = false := by rcases ha with h | h | h <;> rw [h] <;> rfl
  obtain ⟨w1, e1, r1, q1, q2, q3⟩ := calls_ready c hs h0 hK calls (fun b hb => hcalls b (by simp [hb])) w hw
  obtain ⟨b1, b2, b3⟩ := hcalls a (by simp)
  obtain ⟨w2, e2, o⟩ := C182_optimal_partial c ha h0 hK w1 r1 (by rw [q1]; exact hi) (by rw [q2]; exact hf) hA
    (fun I cf' p a1 a2 a3 a4 a5 a6 => hc I cf' p a1 a2 a3 (a4.trans q1) (a5.trans q2) (a6.trans q3)) a.x a.u a.L b1 b2 b3 a.x0
  refine ⟨w2, by rw [List.foldlM_append, e1, Res.ok_bind, List.foldlM_cons, e2, Res.ok_bind]; rfl, o.start, o.dynamics, ?_⟩
  rw [← trajectoryCost_terms w.cf w1.cf q1 q2 q3]
  exact o.least

/-! ### A non-trivial case -/

/-- A scalar integrator with an offset of one per step, four stages, shots of two. -/
noncomputable def exCfg : Cfg 1 1 where
  algo := .gnmsMCl
  K := 4
  Kshot := 2
  dt := 1
  f := fun x _ u => x + u + 1
  lin := fun _ _ _ _ => (1, 1)
  solver := ⟨true, 0, fun H => (1, fun i => H i i)⟩

/-- Quadratic cost, arrays of the right sizes. -/
noncomputable def exMembers : Members 1 1 where
  x := []
  xRef := []
  xShot := List.replicate 5 0
  d := List.replicate 5 0
  u := []
  L := []
  cf := { CF.new with inter := [quadratic 1 1 1 0], fin := [quadratic 1 0 0 0] }
  p := { scalarProblem with N := 4 }
  sol := ⟨fun _ => 0, fun _ => 0, fun _ => 0, fun _ => 0, fun _ => 0, fun _ => 0, fun _ => 0, fun _ => 0, fun _ => 0⟩
  iteration := 0
  dNorm := none
  initialized := false

theorem exReady : Ready exCfg.K exMembers := ⟨by simp [exCfg, exMembers], by simp [exCfg, exMembers], rfl⟩

theorem exConvex : ConvexAround exCfg exMembers.cf := by
  intro I cf p hN hdt hp h1 h2 h3
  have hpN : p.N = I.N := hp.trans hN.symm
  obtain ⟨r1, -, r3, r4, -⟩ := C106_contents cf I exCfg.lin p hpN (by rw [hN]; norm_num [exCfg])
  rw [← hN]
  have hdt : I.dt = 1 := hdt
  have hset : ∀ x u t, cf.set x u t = exMembers.cf.set x u t := set_congr exMembers.cf cf h1 h2 h3
  have hQN : (computeLQApproximation I exCfg.lin 0 (I.N - 1) (cf, p)).2.Q I.N = 2 := by
    rw [r4, hset]
    simp [CF.stateSecondDerivativeTerminal, exMembers, CF.set, quadratic, CF.new]
    norm_num
  have hQ : ∀ k < I.N, (computeLQApproximation I exCfg.lin 0 (I.N - 1) (cf, p)).2.Q k = 2 := by
    intro k hk
    rw [(r3 k hk).Q, hset, hdt]
    simp [CF.stateSecondDerivativeIntermediate, CF.sumActive, exMembers, CF.set, quadratic, CF.new]
    norm_num
  have hR : ∀ k < I.N, (computeLQApproximation I exCfg.lin 0 (I.N - 1) (cf, p)).2.R k = 2 := by
    intro k hk
    rw [(r3 k hk).R, hset, hdt]
    simp [CF.controlSecondDerivativeIntermediate, CF.sumActive, exMembers, CF.set, quadratic, CF.new]
    norm_num
  have hP : ∀ k < I.N, (computeLQApproximation I exCfg.lin 0 (I.N - 1) (cf, p)).2.P k = 0 := by
    intro k hk
    rw [(r3 k hk).P, hset, hdt]
    simp [CF.stateControlDerivativeIntermediate, CF.sumActive, exMembers, CF.set, quadratic, CF.new]
  have two : ∀ x : Fin 1 → ℝ, x ⬝ᵥ ((2 : Matrix (Fin 1) (Fin 1) ℝ) *ᵥ x) = 2 * (x 0 * x 0) := by
    intro x
    simp [dotProduct, Matrix.mulVec, Matrix.ofNat_apply]
    ring
  revert r1 hQN hQ hR hP
  generalize (computeLQApproximation I exCfg.lin 0 (I.N - 1) (cf, p)).2 = r
  intro r1 hQN hQ hR hP
  rw [← r1] at hQN hQ hR hP
  constructor
  · rw [hQN]; ext i j; fin_cases i; fin_cases j; rfl
  · intro x; rw [hQN, two]; nlinarith [mul_self_nonneg (x 0)]
  · intro k hk; rw [hR k hk]; ext i j; fin_cases i; fin_cases j; rfl
  · intro k hk x u
    rw [hQ k hk, hR k hk, hP k hk, two, two]
    simp
    nlinarith [mul_self_nonneg (x 0), mul_self_nonneg (u 0)]
  · intro k hk u hu
    rw [hR k hk, two]
    have : u 0 ≠ 0 := fun h => hu (by funext i; fin_cases i; exact h)
    have := mul_self_pos.2 this
    linarith
  · simp [exCfg]

theorem exAffine : AffineDynamics exCfg := by
  intro k _ x u xs dx du
  simp [exCfg]
  abel

/-- The hypotheses of the theorems above hold: the first call of a loop, with a guess of zeros and the measured state three. -/
example : exCfg.algo = .gnmsMCl ∧ 0 < exCfg.Kshot ∧ exCfg.Kshot < exCfg.K ∧ Ready exCfg.K exMembers ∧
    (∀ τ ∈ exMembers.cf.inter, Quadratic τ) ∧ (∀ τ ∈ exMembers.cf.fin, Quadratic τ) ∧ AffineDynamics exCfg ∧
    ConvexAround exCfg exMembers.cf ∧
    (⟨List.replicate 5 0, List.replicate 4 0, List.replicate 4 0, fun _ => 3⟩ : Call 1 1).Long exCfg.K := by
  refine ⟨rfl, by norm_num [exCfg], by norm_num [exCfg], exReady, ?_, ?_, exAffine, exConvex, by simp [Call.Long, exCfg]⟩
  · intro τ h
    simp only [exMembers, List.mem_cons, List.not_mem_nil, or_false] at h
    exact h ▸ quadratic_quadratic _ _ _ _
  · intro τ h
    simp only [exMembers, List.mem_cons, List.not_mem_nil, or_false] at h
    exact h ▸ quadratic_quadratic _ _ _ _

/-! ### Violations -/

/-- C182, defects violated: setting the measured state sets all defects to zero, also those of the shots that were rolled out in the
preparation and are not rolled out again.  The norm of the defects that is reported can be zero although the trajectory the
approximation was made around has a gap, here of six. -/
theorem C182_defects_violated : ∃ (c : Cfg 1 1) (w w' : Members 1 1) (x : List (Fin 1 → ℝ)) (u : List (Fin 1 → ℝ))
    (L : List (Matrix (Fin 1) (Fin 1) ℝ)) (x0 : Fin 1 → ℝ) (r : Roll (Fin 1 → ℝ) (Fin 1 → ℝ)) (d : List (Fin 1 → ℝ)),
    mpcIteration c x u L x0 w = .ok w' ∧ IsRollout c.f c.K c.Kshot (guessLaw c.algo L) x ⟨u, x.set 0 x0, w.xShot⟩ r d ∧
    w'.dNorm = some 0 ∧ d.getD 1 0 = fun _ => -6 := by
  let c : Cfg 1 1 := { exCfg with K := 3, Kshot := 1, algo := .gnms, f := fun x _ u => x + u }
  let w : Members 1 1 := { exMembers with p := { scalarProblem with N := 3 } }
  let x : List (Fin 1 → ℝ) := [0, fun _ => 1, fun _ => 7, 0]
  let u : List (Fin 1 → ℝ) := [0, 0, 0]
  obtain ⟨w', r, d, s, e, hroll, -, -, -, -, hn, -⟩ := C182_step c rfl (by norm_num [c]) (by norm_num [c]) w
    ⟨by simp [c, w, exMembers], by simp [c, w, exMembers], rfl⟩ x u [0, 0, 0] (by simp [c, x]) (by simp [c, u]) (by simp [c])
    (fun _ => 1)
  have sx : ∀ i < 3, r.x.getD i 0 = (x.set 0 fun _ => 1).getD i 0 := fun i hi => hroll.shotStart i hi (one_dvd i)
  have su : ∀ i < 3, r.u.getD i 0 = u.getD i 0 := fun i hi => hroll.controls i hi
  have d0 := hroll.dynamics 0 (by norm_num [c])
  have d1 := hroll.dynamics 1 (by norm_num [c])
  rw [sx 0 (by norm_num), sx 1 (by norm_num), su 0 (by norm_num)] at d0
  rw [sx 1 (by norm_num), sx 2 (by norm_num), su 1 (by norm_num)] at d1
  have d0' : d.getD 0 0 = 0 := by
    have := congrFun d0 0
    simp only [x, u, c, Pi.add_apply] at this
    funext i
    fin_cases i
    simpa using this
  refine ⟨c, w, w', x, u, [0, 0, 0], fun _ => 1, r, d, e, hroll, ?_, ?_⟩
  · rw [hn]
    have : d.getD (c.Kshot - 1) 0 = 0 := d0'
    rw [this]
    simp
  · have := congrFun d1 0
    simp only [x, u, c, Pi.add_apply] at this
    funext i
    fin_cases i
    simp at this ⊢
    linarith

/-- C182, short horizon violated: if the horizon is shorter than a shot — the settings are accepted, and the horizon shrinks
towards the end of an optimal control problem with a fixed final time — the iteration accesses the stages behind the end of the
horizon, for every problem, guess and measured state. -/
theorem C182_short_horizon_violated (c : Cfg n m) (hs : c.algo.single = false) (h0 : 0 < c.K) (hK : c.K < c.Kshot)
    (w : Members n m) (hw : Ready c.K w) (x : List (Fin n → ℝ)) (u : List (Fin m → ℝ)) (L : List (Matrix (Fin m) (Fin n) ℝ))
    (hx : c.K + 1 ≤ x.length) (hu : c.K ≤ u.length) (hL : c.K ≤ L.length) (x0 : Fin n → ℝ) :
    mpcIteration c x u L x0 w = .ub := by
  let C := c.roll (L.take c.K)
  have hst : shotStarts c.Kshot (c.K - 1) C.stepsPerShot = [] := by
    simp [shotStarts, show c.K - 1 + 1 - c.Kshot = 0 by omega, loopIndices]
  have hprep : ∀ r d, rolloutShotsST C x c.Kshot (c.K - 1) r d = .ok (r, d) := fun r d => by
    rw [rolloutShotsST, hst]; rfl
  let w0 : Members n m := Members.reset { w with x := x.take (c.K + 1), xRef := x, u := u.take c.K, L := L.take c.K, initialized := true }
  have f0 : setInitialGuess c x u L w = .ok w0 := by
    unfold setInitialGuess
    rw [if_neg (by omega), if_neg (by omega), if_neg (by omega)]
  have f1 : prepareRollout c w0 = .ok w0.resetDefects := by
    unfold prepareRollout rollout
    rw [if_neg (by simp [w0, Members.reset, Members.resetDefects]), if_neg (by omega),
      if_neg (by simp [w0, Members.reset, Members.resetDefects]; omega)]
    have : rolloutShotsST (c.roll w0.resetDefects.L) w0.resetDefects.xRef c.Kshot (c.K - 1)
      { u := w0.resetDefects.u, x := w0.resetDefects.x, s := w0.resetDefects.xShot } w0.resetDefects.d = .ok (_, _) := hprep _ _
    rw [this]
    rfl
  obtain ⟨q, hq⟩ : ∃ q, q = computeLQApproximation (w0.resetDefects.iterate c) c.lin c.Kshot (c.K - 1) (w.cf, w.p) := ⟨_, rfl⟩
  have hN : q.2.N = c.K := by rw [hq, (lq_terms _ _ _ _ _).2.2.2]; exact hw.problem
  have f2 : prepareSweep c w0.resetDefects = .ok { w0.resetDefects with cf := q.1, p := q.2 } := by
    unfold prepareSweep approximate
    rw [if_neg (by omega)]
    simp only [Res.ok_bind]
    have e : prepareSolve c.solver q.2 c.Kshot w.sol = .ok w.sol := by
      have : (List.range q.2.N).drop c.Kshot = [] := by simp; omega
      rw [prepareSolve, sweep, this]
      rfl
    change prepareSolve c.solver (computeLQApproximation (w0.resetDefects.iterate c) c.lin c.Kshot (c.K - 1) (w.cf, w.p)).2
      c.Kshot w.sol >>= _ = _
    rw [← hq, e, hq]
    rfl
  unfold mpcIteration prepareMPCIteration finishMPCIteration
  rw [f0, Res.ok_bind, f1, Res.ok_bind, f2, Res.ok_bind]
  obtain ⟨w3, hw3⟩ : ∃ w3, w3 = changeInitialState x0 { w0.resetDefects with cf := q.1, p := q.2 } := ⟨_, rfl⟩
  rw [← hw3]
  have hne : (x.take (c.K + 1)).length ≠ 0 := by rw [List.length_take]; omega
  have hw3' : w3 = Members.reset { w0.resetDefects with cf := q.1, p := q.2, x := (x.take (c.K + 1)).set 0 x0 } := by
    rw [hw3, changeInitialState]
    simp only [w0, Members.reset, Members.resetDefects, if_neg hne]
  obtain ⟨r', d', e, -⟩ := C54_prepare_finish C x ⟨u.take c.K, (x.take (c.K + 1)).set 0 x0, w.xShot⟩
    (((w.d.map fun _ => (0 : Fin n → ℝ)).map fun _ => (0 : Fin n → ℝ)).map fun _ => (0 : Fin n → ℝ)) h0 (by change 0 < c.Kshot; omega) hs
    ⟨by simp [C, Cfg.roll]; omega, by simp [C, Cfg.roll]; omega, hw.shot, fun _ => by simp [C, Cfg.roll]; omega,
      fun _ => by simp only [C, Cfg.roll]; omega⟩
    (by simpa [C, Cfg.roll] using hw.defects) (fun _ => rfl) (fun _ => rfl) (fun i _ => getD_map_zero _ i)
  have hp' : rolloutShotsST C x C.Kshot (C.K - 1) ⟨u.take c.K, (x.take (c.K + 1)).set 0 x0, w.xShot⟩
    (((w.d.map fun _ => (0 : Fin n → ℝ)).map fun _ => (0 : Fin n → ℝ)).map fun _ => (0 : Fin n → ℝ)) = .ok (_, _) := hprep _ _
  rw [hp', Res.ok_bind] at e
  have f3 : ∃ w4, finishRollout c w3 = .ok w4 ∧ w4.p = q.2 := by
    unfold finishRollout rollout
    have : rolloutShotsST (c.roll w3.L) w3.xRef 0 (c.Kshot - 1) { u := w3.u, x := w3.x, s := w3.xShot } w3.d = .ok (r', d') := by
      rw [hw3']
      exact e
    rw [this]
    exact ⟨_, rfl, by rw [hw3']; rfl⟩
  obtain ⟨w4, e4, hp4⟩ := f3
  rw [e4, Res.ok_bind]
  unfold finishSweep approximate
  rw [if_pos ⟨Nat.zero_le _, Or.inr (by rw [hp4, hN]; omega)⟩]
  rfl

/-- The hypotheses of the theorem above hold: a shot of six stages, a horizon of four. -/
example : ∃ c : Cfg 1 1, c.algo.single = false ∧ 0 < c.K ∧ c.K < c.Kshot ∧ Ready c.K exMembers :=
  ⟨{ exCfg with Kshot := 6 }, rfl, by norm_num [exCfg], by norm_num [exCfg], exReady⟩

/-- A limit of one on the control, as a term of a box constraint container. -/
def limit : CT.Constraints.Term (CT.Lqoc.Pt 1 1 ℝ) ℝ where
  size := 1
  eval := fun p => [p.2.1 0]
  lb := [-1]
  ub := [1]
  jacX := fun _ => [[0]]
  nnzX := 0
  sparseX := fun _ => []
  patX := []
  jacU := fun _ => [[1]]
  nnzU := 1
  sparseU := fun _ => [1]
  patU := [(0, 0)]

theorem sat_limit (x u : Fin 1 → ℝ) (t : ℝ) : CT.Lqoc.Sat [limit] (x, u, t) ↔ -1 ≤ u 0 ∧ u 0 ≤ 1 := by
  simp [CT.Lqoc.Sat, limit]

/-- C182, limits violated: the box constraints are made relative to the controls before the first shot is rolled out, which changes
them if the shooting is closed loop, and they are not made again afterwards.  With a guess of zeros, unit gains, a limit of one on
the control and the measured state five away from the guess, every change of the first control that the quadratic program admits
leads to a first control outside the limits.  (The solver that reads the boxes does nothing in its preparation,
NLOCBackendBase-impl.hpp:1285-1288, so the roll-out of the first shot follows the approximation directly.) -/
theorem C182_limits_violated : ∃ (c : Cfg 1 1) (con : CT.Constraints.Container (CT.Lqoc.Pt 1 1 ℝ) ℝ)
    (b b' : CT.Lqoc.Prob ℝ) (w w0 w1 w2 w3 : Members 1 1) (x u : List (Fin 1 → ℝ)) (L : List (Matrix (Fin 1) (Fin 1) ℝ))
    (x0 : Fin 1 → ℝ) (slot : CT.Lqoc.Slot ℝ),
    0 < c.Kshot ∧ c.Kshot ≤ c.K ∧ Ready c.K w ∧
    (CT.Constraints.Container.new (0, 0, 0)).run 1 1 [.addIntermediate limit, .initialize] = .ok con ∧
    setInitialGuess c x u L w = .ok w0 ∧ prepareRollout c w0 = .ok w1 ∧ prepareBoxes (some con) none w1 b = .ok b' ∧
    approximate c c.Kshot (c.K - 1) w1 = .ok w2 ∧ finishRollout c (changeInitialState x0 w2) = .ok w3 ∧ b'.u[0]? = some slot ∧
    slot.Admits (0 : Fin 1 → ℝ) ∧
    ∀ δ : Fin 1 → ℝ, slot.Admits δ → ¬ (-1 ≤ (w3.u.getD 0 0 + δ) 0 ∧ (w3.u.getD 0 0 + δ) 0 ≤ 1) := by
  let c : Cfg 1 1 := { exCfg with K := 2, Kshot := 2 }
  let w : Members 1 1 := { exMembers with p := { scalarProblem with N := 2 } }
  let x : List (Fin 1 → ℝ) := [0, 0, 0]
  let u : List (Fin 1 → ℝ) := [0, 0]
  let L : List (Matrix (Fin 1) (Fin 1) ℝ) := [1, 1]
  let x0 : Fin 1 → ℝ := fun _ => 5
  let C := c.roll L
  have hwf : ∀ o ∈ ([.addIntermediate limit, .initialize] : List (CT.Constraints.Op (CT.Lqoc.Pt 1 1 ℝ) ℝ)),
      ∀ t ∈ CT.Constraints.opTerms o, t.Wf 1 1 := by
    intro o ho t ht
    have : t = limit := by
      simp only [List.mem_cons, List.not_mem_nil, or_false] at ho
      rcases ho with rfl | rfl <;> simpa [CT.Constraints.opTerms] using ht
    subst this
    constructor <;> simp [limit]
  obtain ⟨con, hcon, -⟩ := CT.Constraints.run_inv 1 1 (0, 0, 0) _ hwf
  obtain ⟨r1, d1, e1, S1, l1, hfin⟩ := C54_change_start C x ⟨u, x, w.xShot⟩
    ((w.d.map fun _ => (0 : Fin 1 → ℝ)).map fun _ => (0 : Fin 1 → ℝ)) (by norm_num [C, c, Cfg.roll]) (by norm_num [C, c, Cfg.roll])
    (by norm_num [C, c, Cfg.roll]) rfl
    ⟨by simp [C, c, u, Cfg.roll], by simp [C, c, x, Cfg.roll], by simp [C, c, w, exMembers, Cfg.roll], fun _ => by simp [C, c, L, Cfg.roll],
      fun _ => by simp [C, c, x, Cfg.roll]⟩
    (by simp [C, c, w, exMembers, Cfg.roll]) (fun _ => rfl) (fun _ => rfl) (fun i _ => getD_map_zero _ i)
  have e1' : rolloutShotsST C x C.Kshot (C.K - 1) ⟨u, x, w.xShot⟩
    ((w.d.map fun _ => (0 : Fin 1 → ℝ)).map fun _ => (0 : Fin 1 → ℝ)) = .ok (_, _) := rfl
  rw [e1'] at e1
  obtain ⟨hr1, hd1⟩ := Prod.mk.inj (Res.ok.inj e1)
  subst hr1 hd1
  obtain ⟨r2, d2, d', e2, S2, hroll, -⟩ := hfin x0
  let w0 : Members 1 1 := Members.reset { w with x := x, xRef := x, u := u, L := L, initialized := true }
  have f0 : setInitialGuess c x u L w = .ok w0 := rfl
  have f1 : prepareRollout c w0 = .ok w0.resetDefects := rfl
  let q := computeLQApproximation (w0.resetDefects.iterate c) c.lin 2 1 (w.cf, w.p)
  have f2 : approximate c c.Kshot (c.K - 1) w0.resetDefects = .ok { w0.resetDefects with cf := q.1, p := q.2 } := by
    unfold approximate
    rw [if_neg (by norm_num [c])]
    rfl
  let w3 : Members 1 1 := changeInitialState x0 { w0.resetDefects with cf := q.1, p := q.2 }
  have f3 : finishRollout c w3 = .ok { w3 with x := r2.x, u := r2.u, xShot := r2.s, d := d2, dNorm := some (computeDefectsNorm d2) } := by
    unfold finishRollout rollout
    have : rolloutShotsST (c.roll w3.L) w3.xRef 0 (c.Kshot - 1) { u := w3.u, x := w3.x, s := w3.xShot } w3.d = .ok (r2, d2) := e2
    rw [this]
    rfl
  have hu0 : r2.u.getD 0 0 = fun _ => 5 := by
    have h1 := hroll.controls 0 (by norm_num [C, c, Cfg.roll])
    have h2 := hroll.shotStart 0 (by norm_num [C, c, Cfg.roll]) (dvd_zero _)
    rw [h1, h2]
    simp [RollCfg.law, C, c, Cfg.roll, exCfg, Algo.closed, L, u, x, x0]
  obtain ⟨b', hb, -, -, -, hslot⟩ := CT.Lqoc.C101_input_container (0, 0, 0) _ hwf ⟨[.addIntermediate limit], [], rfl, by simp⟩ con hcon
    (by
      intro t ht
      simp only [CT.Constraints.addedIntermediate, List.mem_cons, List.not_mem_nil, or_false] at ht
      subst ht
      exact ⟨[0], rfl, fun _ _ _ => rfl⟩)
    (by simp [CT.Constraints.addedIntermediate, limit]) (by simp [CT.Constraints.addedIntermediate, limit])
    ⟨2, [.fresh 1, .fresh 1], [], []⟩ rfl (by intro t ht; simp at ht; subst ht; simp [CT.Lqoc.Slot.Sized, CT.Lqoc.Slot.fresh]) u (by simp [u])
  obtain ⟨slot, hs1, hs2⟩ := hslot 0 0 (by norm_num) (by simp [u])
  simp only [CT.Constraints.addedIntermediate, sat_limit] at hs2
  refine ⟨c, con, ⟨2, [.fresh 1, .fresh 1], [], []⟩, b', w, w0, _, _, _, x, u, L, x0, slot, by norm_num [c], by norm_num [c],
    ⟨by simp [c, w, exMembers], by simp [c, w, exMembers], rfl⟩, hcon, f0, f1, ?_, f2, f3, hs1, ?_, ?_⟩
  · unfold prepareBoxes
    have : CT.Lqoc.setInputBoxes (some con) w0.resetDefects.u ⟨2, [.fresh 1, .fresh 1], [], []⟩ = .ok b' := hb
    rw [this]
    rfl
  · rw [hs2 0 0 0]
    simp
  · intro δ hδ
    rw [hs2 δ 0 0] at hδ
    change ¬ (-1 ≤ (r2.u.getD 0 0 + δ) 0 ∧ (r2.u.getD 0 0 + δ) 0 ≤ 1)
    rw [hu0]
    simp at hδ ⊢
    intro _
    linarith [hδ.1]

end CT.Rti
