import Verif.Props.ParallelData
import Verif.Props.NlocRollout
import Verif.Props.LqApprox

/-!
# C183: the parallel backend computes what the serial one computes
-/

namespace CT.Par

open CT.Nloc CT.LqApprox CT.Riccati CT.Cost

variable {n m ν μ : ℕ}

/-! ### Addresses -/

/-- An entry of one of the shared arrays; `st k` is what the problem holds for stage `k`. -/
inductive Addr where
  | u (i : ℕ)
  | x (i : ℕ)
  | s (i : ℕ)
  | d (i : ℕ)
  | st (k : ℕ)

/-- What an entry holds. -/
inductive Cell (n m : ℕ) where
  | u (v : Option (Fin m → ℝ))
  | x (v : Option (Fin n → ℝ))
  | st (A : Matrix (Fin n) (Fin n) ℝ) (B : Matrix (Fin n) (Fin m) ℝ) (b : Fin n → ℝ) (P : Matrix (Fin m) (Fin n) ℝ)
      (qv : Fin n → ℝ) (Q : Matrix (Fin n) (Fin n) ℝ) (rv : Fin m → ℝ) (R : Matrix (Fin m) (Fin m) ℝ)

/-- The entry at an address. -/
def Mem.get (s : Mem n m) : Addr → Cell n m
  | .u i => .u s.roll.u[i]?
  | .x i => .x s.roll.x[i]?
  | .s i => .x s.roll.s[i]?
  | .d i => .x s.d[i]?
  | .st k => .st (s.p.A k) (s.p.B k) (s.p.b k) (s.p.P k) (s.p.qv k) (s.p.Q k) (s.p.rv k) (s.p.R k)

/-- The sizes of the arrays, for `K` stages; the constants of the problem are `q`. -/
structure Fits (K : ℕ) (q : ℕ → ℝ) (w : Mem n m) : Prop where
  u : w.roll.u.length = K
  x : w.roll.x.length = K + 1
  s : K + 1 ≤ w.roll.s.length
  d : K ≤ w.d.length
  N : w.p.N = K
  q : w.p.q = q

theorem Fits.ext {K : ℕ} {q : ℕ → ℝ} (s r : Mem n m) (hs : Fits K q s) (hr : Fits K q r) (h : ∀ a, s.get a = r.get a) : s = r := by
  obtain ⟨⟨u, x, xs⟩, d, p⟩ := s
  obtain ⟨⟨u', x', xs'⟩, d', p'⟩ := r
  obtain rfl : u = u' := List.ext_getElem? fun i => by simpa [Mem.get] using h (.u i)
  obtain rfl : x = x' := List.ext_getElem? fun i => by simpa [Mem.get] using h (.x i)
  obtain rfl : xs = xs' := List.ext_getElem? fun i => by simpa [Mem.get] using h (.s i)
  obtain rfl : d = d' := List.ext_getElem? fun i => by simpa [Mem.get] using h (.d i)
  have hst : ∀ k, p.A k = p'.A k ∧ p.B k = p'.B k ∧ p.b k = p'.b k ∧ p.P k = p'.P k ∧ p.qv k = p'.qv k ∧ p.Q k = p'.Q k ∧
      p.rv k = p'.rv k ∧ p.R k = p'.R k := fun k => by simpa [Mem.get] using h (.st k)
  have hN : p.N = p'.N := hs.N.trans hr.N.symm
  have hq : p.q = p'.q := hs.q.trans hr.q.symm
  have k1 := funext fun k => (hst k).1
  have k2 := funext fun k => (hst k).2.1
  have k3 := funext fun k => (hst k).2.2.1
  have k4 := funext fun k => (hst k).2.2.2.1
  have k5 := funext fun k => (hst k).2.2.2.2.1
  have k6 := funext fun k => (hst k).2.2.2.2.2.1
  have k7 := funext fun k => (hst k).2.2.2.2.2.2.1
  have k8 := funext fun k => (hst k).2.2.2.2.2.2.2
  cases p; cases p'
  simp only at *
  subst hN hq k1 k2 k3 k4 k5 k6 k7 k8
  rfl

theorem getD_congr {α : Type} {l l' : List α} {i : ℕ} {a : α} (h : l[i]? = l'[i]?) : l.getD i a = l'.getD i a := by
  simp only [List.getD_eq_getElem?_getD, h]

/-! ### Linear-quadratic approximation -/

/-- In an approximation stage `k` of the problem belongs to index `k`. -/
def lqOwn : Addr → Option ℕ
  | .st k => some k
  | _ => none

/-- The positions in an approximation. -/
def lqGood (_ : ℕ) : Pos n m → Prop
  | .start | .offset | .point | .costQ _ | .costR _ | .costP _ | .costqv _ | .costrv _ | .over => True
  | _ => False

/-- An access of an approximation if the sizes are right. -/
noncomputable def lqNext (e : Env n m) (j k : ℕ) (p : Pos n m) (s : Mem n m) : Mem n m × Pos n m :=
  let x := s.roll.x.getD k 0
  let u := s.roll.u.getD k 0
  match p with
  | .start => ({ s with p := { s.p with
        A := Function.update s.p.A k (e.lin j x u (s.roll.s.getD k 0) k).1
        B := Function.update s.p.B k (e.lin j x u (s.roll.s.getD k 0) k).2 } }, .offset)
  | .offset => ({ s with p := { s.p with b := Function.update s.p.b k (s.d.getD k 0) } }, .point)
  | .point => (s, .costQ ((e.cost j).set x u (e.dt * k)))
  | .costQ c => ({ s with p := { s.p with Q := Function.update s.p.Q k (e.dt • c.stateSecondDerivativeIntermediate) } }, .costR c)
  | .costR c => ({ s with p := { s.p with R := Function.update s.p.R k (e.dt • c.controlSecondDerivativeIntermediate) } }, .costP c)
  | .costP c => ({ s with p := { s.p with P := Function.update s.p.P k (e.dt • c.stateControlDerivativeIntermediate) } }, .costqv c)
  | .costqv c => ({ s with p := { s.p with qv := Function.update s.p.qv k (e.dt • c.stateDerivativeIntermediate) } }, .costrv c)
  | .costrv c => ({ s with p := { s.p with rv := Function.update s.p.rv k (e.dt • c.controlDerivativeIntermediate) } }, .over)
  | _ => (s, .over)

theorem lqPart_eq (e : Env n m) (j : ℕ) {k K : ℕ} (hk : k < K) {q : ℕ → ℝ} {p : Pos n m} {s : Mem n m} (hs : Fits K q s) :
    lqPart e j k p s = .ok (lqNext e j k p s) := by
  have hx := hs.x; have hu := hs.u; have hss := hs.s; have hd := hs.d
  cases p <;> simp only [lqPart, lqNext, hs.N, if_neg (show ¬ K ≤ k by omega), idx_getD (show k < s.roll.x.length by omega) 0,
    idx_getD (show k < s.roll.u.length by omega) 0, idx_getD (show k < s.roll.s.length by omega) 0,
    idx_getD (show k < s.d.length by omega) 0, Res.ok_bind, Res.pure_eq]

theorem lqNext_fits (e : Env n m) (j : ℕ) {k K : ℕ} {q : ℕ → ℝ} {p : Pos n m} {s : Mem n m} (hs : Fits K q s) :
    Fits K q (lqNext e j k p s).1 := by
  cases p <;> exact ⟨hs.u, hs.x, hs.s, hs.d, hs.N, hs.q⟩

/-- The objects of the workers are copies of those of the main thread. -/
structure Copies (e : Env n m) (N : ℕ) : Prop where
  dyn : ∀ j < N, e.dyn j = e.dyn e.nThreads
  lin : ∀ j < N, e.lin j = e.lin e.nThreads
  inter : ∀ j < N, (e.cost j).inter = (e.cost e.nThreads).inter
  fin : ∀ j < N, (e.cost j).fin = (e.cost e.nThreads).fin
  shift : ∀ j < N, (e.cost j).shift = (e.cost e.nThreads).shift

theorem lq_separate (e : Env n m) {N K lo hi : ℕ} (hc : Copies e N) (hK : hi < K) (q : ℕ → ℝ) :
    Separate e.work .lq N e.nThreads lo hi Mem.get lqOwn (Fits K q) lqGood where
  same := by
    intro j hj i p s
    change lqPart e j i p s = lqPart e e.nThreads i p s
    have hset : ∀ x u t, (e.cost j).set x u t = (e.cost e.nThreads).set x u t :=
      fun x u t => set_congr _ _ (hc.inter j hj) (hc.fin j hj) (hc.shift j hj) x u t
    cases p <;> simp only [lqPart, hc.lin j hj, hset]
  good := fun _ _ _ => trivial
  ok := by
    intro i _ h2 p s hg ho hs
    refine ⟨_, _, lqPart_eq e e.nThreads (by omega) hs, lqNext_fits e _ hs, ?_, ?_⟩
    · cases p <;> first | trivial | exact hg.elim
    · intro a ha
      cases a with
      | st k =>
        have hk : k ≠ i := fun h => ha (by rw [h]; rfl)
        cases p <;> simp [lqNext, Mem.get, hk]
      | _ => cases p <;> rfl
  read := by
    intro i _ h2 p s r s' r' p' q' hg hs hr hag e1 e2
    change lqPart e e.nThreads i p s = _ at e1
    change lqPart e e.nThreads i p r = _ at e2
    rw [lqPart_eq e e.nThreads (show i < K by omega) hs] at e1
    rw [lqPart_eq e e.nThreads (show i < K by omega) hr] at e2
    have hx : s.roll.x.getD i 0 = r.roll.x.getD i 0 := getD_congr (by simpa [Mem.get] using hag (.x i) (Or.inr rfl))
    have hu : s.roll.u.getD i 0 = r.roll.u.getD i 0 := getD_congr (by simpa [Mem.get] using hag (.u i) (Or.inr rfl))
    have hss : s.roll.s.getD i 0 = r.roll.s.getD i 0 := getD_congr (by simpa [Mem.get] using hag (.s i) (Or.inr rfl))
    have hd : s.d.getD i 0 = r.d.getD i 0 := getD_congr (by simpa [Mem.get] using hag (.d i) (Or.inr rfl))
    have hst := hag (.st i) (Or.inl rfl)
    simp only [Mem.get, Cell.st.injEq] at hst
    obtain ⟨g1, g2, g3, g4, g5, g6, g7, g8⟩ := hst
    simp only [Res.ok.injEq, Prod.ext_iff] at e1 e2
    obtain ⟨rfl, rfl⟩ := e1
    obtain ⟨rfl, rfl⟩ := e2
    refine ⟨?_, ?_⟩
    · cases p <;> simp only [lqNext, hx, hu]
    · intro a ha
      cases a with
      | st k =>
        obtain rfl : k = i := by simpa [lqOwn] using ha
        cases p <;> simp only [lqNext, Mem.get, Function.update_self, g1, g2, g3, g4, g5, g6, g7, g8, hx, hu, hss, hd]
      | _ => cases ha
  ext := fun s r hs hr h => Fits.ext s r hs hr h

/-- One thread alone: the accesses of an approximation make up `executeLQApproximation`. -/
theorem lq_whole (e : Env n m) (j : ℕ) {k K : ℕ} (hk : k < K) {q : ℕ → ℝ} {s : Mem n m} (hs : Fits K q s) :
    Whole e.work .lq j k s { s with p := (executeLQApproximation (s.iterate e) (e.lin j) (e.cost j, s.p) k).2 } := by
  have step : ∀ {i : ℕ} {s' : Mem n m} {p : Pos n m}, Alone e.work .lq j k s i s' p → Fits K q s' → e.work.over p = false →
      Alone e.work .lq j k s (i + 1) (lqNext e j k p s').1 (lqNext e j k p s').2 :=
    fun h hf ho => .step h ho (lqPart_eq e j hk hf)
  have a0 : Alone e.work .lq j k s 0 s .start := .start
  have a1 := step a0 hs rfl
  have f1 := lqNext_fits e j (k := k) (p := .start) hs
  have a2 := step a1 f1 rfl
  have f2 := lqNext_fits e j (k := k) (p := .offset) f1
  have a3 := step a2 f2 rfl
  have a4 := step a3 f2 rfl
  have f4 := lqNext_fits e j (k := k) (p := .costQ ((e.cost j).set (s.roll.x.getD k 0) (s.roll.u.getD k 0) (e.dt * k))) f2
  have a5 := step a4 f4 rfl
  have f5 := lqNext_fits e j (k := k) (p := .costR ((e.cost j).set (s.roll.x.getD k 0) (s.roll.u.getD k 0) (e.dt * k))) f4
  have a6 := step a5 f5 rfl
  have f6 := lqNext_fits e j (k := k) (p := .costP ((e.cost j).set (s.roll.x.getD k 0) (s.roll.u.getD k 0) (e.dt * k))) f5
  have a7 := step a6 f6 rfl
  have f7 := lqNext_fits e j (k := k) (p := .costqv ((e.cost j).set (s.roll.x.getD k 0) (s.roll.u.getD k 0) (e.dt * k))) f6
  have a8 := step a7 f7 rfl
  exact ⟨_, _, a8, rfl⟩

theorem lq_chain (e : Env n m) (j : ℕ) {K : ℕ} {q : ℕ → ℝ} : ∀ (l : List ℕ) (s : Mem n m) (c : CF n m), Fits K q s →
    (∀ k ∈ l, k < K) → c.inter = (e.cost j).inter → c.fin = (e.cost j).fin → c.shift = (e.cost j).shift →
    Chain e.work .lq j l s { s with p := (l.foldl (executeLQApproximation (s.iterate e) (e.lin j)) (c, s.p)).2 }
  | [], _, _, _, _, _, _, _ => rfl
  | k :: l, s, c, hs, hl, h1, h2, h3 => by
    refine ⟨_, lq_whole e j (hl k (by simp)) hs, ?_⟩
    have hset : ∀ x u t, c.set x u t = (e.cost j).set x u t := fun x u t => set_congr _ _ h1 h2 h3 x u t
    have := lq_chain e j l { s with p := (executeLQApproximation (s.iterate e) (e.lin j) (e.cost j, s.p) k).2 }
      (c.set ((s.iterate e).x k) ((s.iterate e).u k) ((s.iterate e).dt * k)) ⟨hs.u, hs.x, hs.s, hs.d, hs.N, hs.q⟩
      (fun i hi => hl i (by simp [hi])) h1 h2 h3
    rw [List.foldl_cons]
    have he : executeLQApproximation (s.iterate e) (e.lin j) (c, s.p) k =
        (c.set ((s.iterate e).x k) ((s.iterate e).u k) ((s.iterate e).dt * k),
          (executeLQApproximation (s.iterate e) (e.lin j) (e.cost j, s.p) k).2) := by
      simp only [executeLQApproximation, hset]
    rw [he]
    exact this

/-! ### Roll-outs -/

/-- In a roll-out with shots of `n` out of `K` stages an entry belongs to the shot of its stage; the last state belongs to the last shot;
the states at which shots begin belong to none. -/
def shotOwn (K n : ℕ) : Addr → Option ℕ
  | .u i => some (n * (i / n))
  | .s i => some (n * (i / n))
  | .d i => some (n * (i / n))
  | .x i => if i = K then some (n * ((K - 1) / n)) else if n ∣ i then none else some (n * (i / n))
  | .st _ => none

/-- The positions in the work on index `k` of a roll-out. -/
def shotGood (K n k : ℕ) : Pos ν μ → Prop
  | .start | .over => True
  | .init r i | .control r i | .state r i | .propagate r i | .terminal r i | .nan r i =>
    n ∣ k ∧ k ≤ i ∧ i + r + 1 = min (k + n) K
  | .defect => n ∣ k
  | _ => False

theorem shot_of {n k i : ℕ} (hn : 0 < n) (hk : n ∣ k) (h1 : k ≤ i) (h2 : i < k + n) : n * (i / n) = k := by
  obtain ⟨q, rfl⟩ := hk
  have : i / n = q := by
    rw [Nat.div_eq_iff hn]
    constructor
    · rw [mul_comm]; exact h1
    · rw [mul_comm]; omega
  rw [this]

/-- An access of a roll-out if the sizes are right. -/
def shotNext (C : RollCfg (Fin n → ℝ) (Fin m → ℝ)) (xref : List (Fin n → ℝ)) (k : ℕ) (p : Pos n m) (w : Mem n m) :
    Mem n m × Pos n m :=
  match p with
  | .start =>
    if ¬ C.stepsPerShot ∣ k then (w, .over)
    else ({ w with roll := { w.roll with s := w.roll.s.set k (w.roll.x.getD k 0) } }, loopHead k (min (k + C.stepsPerShot) C.K - k))
  | .init r i =>
    (if k < i then { w with roll := { w.roll with s := w.roll.s.set i (w.roll.s.getD (i - 1) 0) } } else w, .control r i)
  | .control r i =>
    (if C.closed then { w with roll := { w.roll with
      u := w.roll.u.set i (w.roll.u.getD i 0 + C.L.getD i (fun _ => 0) (w.roll.s.getD i 0 - xref.getD i 0)) } } else w, .state r i)
  | .state r i =>
    (if k < i then { w with roll := { w.roll with x := w.roll.x.set i (w.roll.s.getD (i - 1) 0) } } else w, .propagate r i)
  | .propagate r i =>
    ({ w with roll := { w.roll with s := w.roll.s.set i (C.f (w.roll.s.getD i 0) i (w.roll.u.getD i 0)) } }, .terminal r i)
  | .terminal r i =>
    (if i + 1 = C.K then { w with roll := { w.roll with x := w.roll.x.set C.K (w.roll.s.getD (C.K - 1) 0) } } else w, .nan r i)
  | .nan r i =>
    (w, if C.nanX (w.roll.x.getD i 0) || C.nanU (w.roll.u.getD i 0) then .defect else loopHead (i + 1) r)
  | .defect =>
    (if min C.K (k + C.Kshot) < C.K then { w with
      d := w.d.set (min C.K (k + C.Kshot) - 1) (w.roll.s.getD (min C.K (k + C.Kshot) - 1) 0 - w.roll.x.getD (min C.K (k + C.Kshot)) 0) }
      else w, .over)
  | _ => (w, .over)

/-- What a roll-out relies on besides the sizes of the arrays it writes. -/
structure Shots (C : RollCfg (Fin n → ℝ) (Fin m → ℝ)) (xref : List (Fin n → ℝ)) : Prop where
  K : 0 < C.K
  Kshot : 0 < C.Kshot
  L : C.closed = true → C.K ≤ C.L.length
  xref : C.closed = true → C.K ≤ xref.length

theorem Shots.pos {C : RollCfg (Fin n → ℝ) (Fin m → ℝ)} {xref : List (Fin n → ℝ)} (h : Shots C xref) : 0 < C.stepsPerShot := by
  unfold RollCfg.stepsPerShot; split
  · exact h.K
  · exact h.Kshot

theorem shotPart_eq {C : RollCfg (Fin n → ℝ) (Fin m → ℝ)} {xref : List (Fin n → ℝ)} (hC : Shots C xref) {k : ℕ} (hk : k < C.K)
    {q : ℕ → ℝ} {p : Pos n m} {w : Mem n m} (hw : Fits C.K q w) (hg : shotGood C.K C.stepsPerShot k p) :
    shotPart C xref k p w = .ok (shotNext C xref k p w) := by
  have hx := hw.x; have hu := hw.u; have hs := hw.s; have hd := hw.d
  have hn := hC.pos
  cases p with
  | start =>
    simp only [shotPart, shotNext, if_neg (show ¬ C.stepsPerShot = 0 by omega)]
    by_cases h : C.stepsPerShot ∣ k
    · simp only [h, not_true_eq_false, if_false, if_neg (show ¬ w.roll.u.length < C.K by omega),
        if_neg (show ¬ w.roll.x.length < C.K + 1 by omega), if_neg (show ¬ w.roll.s.length < C.K + 1 by omega),
        idx_getD (show k < w.roll.x.length by omega) 0, setAt_ok (show k < w.roll.s.length by omega), Res.ok_bind, Res.pure_eq]
    · simp only [h, not_false_eq_true, if_true]
  | init r i =>
    obtain ⟨-, h1, h2⟩ := hg
    simp only [shotPart, shotNext, initShot]
    split
    · simp only [idx_getD (show i - 1 < w.roll.s.length by omega) 0, setAt_ok (show i < w.roll.s.length by omega), Res.ok_bind, Res.pure_eq]
    · rfl
  | control r i =>
    obtain ⟨-, h1, h2⟩ := hg
    simp only [shotPart, shotNext, overwriteControl]
    split
    · next hc =>
      have hL := hC.L hc; have hr := hC.xref hc
      simp only [idx_getD (show i < w.roll.s.length by omega) 0, idx_getD (show i < w.roll.u.length by omega) 0,
        idx_getD (show i < C.L.length by omega) (fun _ => 0), idx_getD (show i < xref.length by omega) 0,
        setAt_ok (show i < w.roll.u.length by omega), Res.ok_bind, Res.pure_eq]
    · rfl
  | state r i =>
    obtain ⟨-, h1, h2⟩ := hg
    simp only [shotPart, shotNext, overwriteState]
    split
    · simp only [idx_getD (show i - 1 < w.roll.s.length by omega) 0, setAt_ok (show i < w.roll.x.length by omega), Res.ok_bind, Res.pure_eq]
    · rfl
  | propagate r i =>
    obtain ⟨-, h1, h2⟩ := hg
    simp only [shotPart, shotNext, Nloc.propagate, idx_getD (show i < w.roll.s.length by omega) 0,
      idx_getD (show i < w.roll.u.length by omega) 0, setAt_ok (show i < w.roll.s.length by omega), Res.ok_bind, Res.pure_eq]
  | terminal r i =>
    obtain ⟨-, h1, h2⟩ := hg
    simp only [shotPart, shotNext, fillTerminal]
    split
    · simp only [idx_getD (show C.K - 1 < w.roll.s.length by omega) 0, setAt_ok (show C.K < w.roll.x.length by omega), Res.ok_bind,
        Res.pure_eq]
    · rfl
  | nan r i =>
    obtain ⟨-, h1, h2⟩ := hg
    simp only [shotPart, shotNext, nanCheck, idx_getD (show i < w.roll.x.length by omega) 0,
      idx_getD (show i < w.roll.u.length by omega) 0, Res.ok_bind, Res.pure_eq]
    split
    · simp only [Res.ok_bind, List.take_of_length_le (show w.roll.x.length ≤ C.K + 1 by omega),
        List.take_of_length_le (show w.roll.u.length ≤ C.K by omega), Bool.false_eq_true, if_false]
    · simp only [Res.ok_bind, if_true]
  | defect =>
    simp only [shotPart, shotNext, computeSingleDefect]
    split
    · next h =>
      simp only [idx_getD (show min C.K (k + C.Kshot) - 1 < w.roll.s.length by omega) 0,
        idx_getD (show min C.K (k + C.Kshot) < w.roll.x.length by omega) 0,
        setAt_ok (show min C.K (k + C.Kshot) - 1 < w.d.length by omega), Res.ok_bind, Res.pure_eq]
    · rfl
  | over => rfl
  | offset => exact hg.elim
  | point => exact hg.elim
  | costQ c => exact hg.elim
  | costR c => exact hg.elim
  | costP c => exact hg.elim
  | costqv c => exact hg.elim
  | costrv c => exact hg.elim

theorem shotNext_fits {C : RollCfg (Fin n → ℝ) (Fin m → ℝ)} {xref : List (Fin n → ℝ)} {k K : ℕ} {q : ℕ → ℝ} {p : Pos n m} {w : Mem n m}
    (hw : Fits K q w) : Fits K q (shotNext C xref k p w).1 := by
  obtain ⟨h1, h2, h3, h4, h5, h6⟩ := hw
  cases p <;> simp only [shotNext] <;> (try split) <;> constructor <;> simp [*]

theorem loopHead_good {K k n i r : ℕ} (hk : n ∣ k) (h1 : k ≤ i) (h2 : i + r = min (k + n) K) :
    shotGood K n k (loopHead i r : Pos ν μ) := by
  cases r with
  | zero => exact hk
  | succ r => exact ⟨hk, h1, by omega⟩

theorem shotNext_good {C : RollCfg (Fin n → ℝ) (Fin m → ℝ)} {xref : List (Fin n → ℝ)} (hC : Shots C xref) {k : ℕ} (hk : k < C.K)
    {p : Pos n m} {w : Mem n m} (hg : shotGood C.K C.stepsPerShot k p) : shotGood C.K C.stepsPerShot k (shotNext C xref k p w).2 := by
  have hn := hC.pos
  cases p with
  | start =>
    simp only [shotNext]
    split
    · trivial
    · next h => exact loopHead_good (by simpa using h) le_rfl (by omega)
  | nan r i =>
    obtain ⟨h0, h1, h2⟩ := hg
    simp only [shotNext]
    split
    · exact h0
    · exact loopHead_good h0 (by omega) (by omega)
  | init r i => exact hg
  | control r i => exact hg
  | state r i => exact hg
  | propagate r i => exact hg
  | terminal r i => exact hg
  | _ => trivial

/-- Where the roll-out of a shot writes, and what it depends on. -/
theorem shotNext_local {C : RollCfg (Fin n → ℝ) (Fin m → ℝ)} {xref : List (Fin n → ℝ)} (hC : Shots C xref) {k : ℕ} (hk : k < C.K)
    {q : ℕ → ℝ} {p : Pos n m} {w v : Mem n m} (hw : Fits C.K q w) (hv : Fits C.K q v) (hg : shotGood C.K C.stepsPerShot k p)
    (hag : ∀ a, shotOwn C.K C.stepsPerShot a = some k ∨ shotOwn C.K C.stepsPerShot a = none → w.get a = v.get a) :
    (∀ a, shotOwn C.K C.stepsPerShot a ≠ some k → (shotNext C xref k p w).1.get a = w.get a) ∧
    (shotNext C xref k p w).2 = (shotNext C xref k p v).2 ∧
    ∀ a, shotOwn C.K C.stepsPerShot a = some k → (shotNext C xref k p w).1.get a = (shotNext C xref k p v).1.get a := by
  have hn := hC.pos
  have wx := hw.x; have wu := hw.u; have ws := hw.s; have wd := hw.d
  have vx := hv.x; have vu := hv.u; have vs := hv.s; have vd := hv.d
  -- entries that may be read
  have hu : ∀ {i}, C.stepsPerShot ∣ k → k ≤ i → i < k + C.stepsPerShot → w.roll.u.getD i 0 = v.roll.u.getD i 0 := fun h0 h1 h2 =>
    getD_congr (by simpa [Mem.get] using hag (.u _) (Or.inl (by simp [shotOwn, shot_of hn h0 h1 h2])))
  have hs : ∀ {i}, C.stepsPerShot ∣ k → k ≤ i → i < k + C.stepsPerShot → w.roll.s.getD i 0 = v.roll.s.getD i 0 := fun h0 h1 h2 =>
    getD_congr (by simpa [Mem.get] using hag (.s _) (Or.inl (by simp [shotOwn, shot_of hn h0 h1 h2])))
  have hx : ∀ {i}, C.stepsPerShot ∣ k → k ≤ i → i < k + C.stepsPerShot → i < C.K → w.roll.x.getD i 0 = v.roll.x.getD i 0 :=
    fun {i} h0 h1 h2 h3 => by
      have ho : shotOwn C.K C.stepsPerShot (.x i) = some k ∨ shotOwn C.K C.stepsPerShot (.x i) = none := by
        by_cases hd : C.stepsPerShot ∣ i
        · exact Or.inr (by simp only [shotOwn, if_pos hd, if_neg (show ¬ i = C.K by omega)])
        · exact Or.inl (by simp only [shotOwn, if_neg hd, if_neg (show ¬ i = C.K by omega), shot_of hn h0 h1 h2])
      exact getD_congr (by simpa [Mem.get] using hag (.x i) ho)
  cases p with
  | start =>
    by_cases h : C.stepsPerShot ∣ k
    · simp only [shotNext, h, not_true_eq_false, if_false]
      refine ⟨fun a ha => ?_, trivial, fun a ha => ?_⟩
      · cases a with
        | s i =>
          have : k ≠ i := fun e => ha (by subst e; simp [shotOwn, shot_of hn h le_rfl (by omega)])
          simp [Mem.get, this]
        | _ => rfl
      · have g := hag a (Or.inl ha)
        cases a with
        | s i =>
          simp only [Mem.get, Cell.x.injEq] at g ⊢
          rw [List.getElem?_set, List.getElem?_set, hx h le_rfl (by omega) hk, g]
          simp only [show k < w.roll.s.length by omega, show k < v.roll.s.length by omega]
        | _ => exact g
    · simp only [shotNext, h, not_false_eq_true, if_true]
      exact ⟨fun _ _ => trivial, trivial, fun a ha => hag a (Or.inl ha)⟩
  | init r i =>
    obtain ⟨h0, h1, h2⟩ := hg
    simp only [shotNext]
    by_cases h : k < i
    · simp only [h, if_true]
      refine ⟨fun a ha => ?_, trivial, fun a ha => ?_⟩
      · cases a with
        | s l =>
          have : i ≠ l := fun e => ha (by subst e; simp [shotOwn, shot_of hn h0 h1 (by omega)])
          simp [Mem.get, this]
        | _ => rfl
      · have g := hag a (Or.inl ha)
        cases a with
        | s l =>
          simp only [Mem.get, Cell.x.injEq] at g ⊢
          rw [List.getElem?_set, List.getElem?_set, hs h0 (show k ≤ i - 1 by omega) (by omega), g]
          simp only [show i < w.roll.s.length by omega, show i < v.roll.s.length by omega]
        | _ => exact g
    · simp only [h, if_false]
      exact ⟨fun _ _ => trivial, trivial, fun a ha => hag a (Or.inl ha)⟩
  | control r i =>
    obtain ⟨h0, h1, h2⟩ := hg
    simp only [shotNext]
    by_cases h : C.closed
    · simp only [h, if_true]
      refine ⟨fun a ha => ?_, trivial, fun a ha => ?_⟩
      · cases a with
        | u l =>
          have : i ≠ l := fun e => ha (by subst e; simp [shotOwn, shot_of hn h0 h1 (by omega)])
          simp [Mem.get, this]
        | _ => rfl
      · have g := hag a (Or.inl ha)
        cases a with
        | u l =>
          simp only [Mem.get, Cell.u.injEq] at g ⊢
          rw [List.getElem?_set, List.getElem?_set, hs h0 h1 (by omega), hu h0 h1 (by omega), g]
          simp only [show i < w.roll.u.length by omega, show i < v.roll.u.length by omega]
        | _ => exact g
    · simp only [h, Bool.false_eq_true, if_false]
      exact ⟨fun _ _ => trivial, trivial, fun a ha => hag a (Or.inl ha)⟩
  | state r i =>
    obtain ⟨h0, h1, h2⟩ := hg
    simp only [shotNext]
    by_cases h : k < i
    · have hnd : ¬ C.stepsPerShot ∣ i := fun hd => by
        have e1 := shot_of hn h0 h1 (show i < k + C.stepsPerShot by omega)
        rw [Nat.mul_div_cancel' hd] at e1
        omega
      simp only [h, if_true]
      refine ⟨fun a ha => ?_, trivial, fun a ha => ?_⟩
      · cases a with
        | x l =>
          have : i ≠ l := fun e => ha (by
            subst e; simp [shotOwn, shot_of hn h0 h1 (show i < k + C.stepsPerShot by omega), hnd]; omega)
          simp [Mem.get, this]
        | _ => rfl
      · have g := hag a (Or.inl ha)
        cases a with
        | x l =>
          simp only [Mem.get, Cell.x.injEq] at g ⊢
          rw [List.getElem?_set, List.getElem?_set, hs h0 (show k ≤ i - 1 by omega) (by omega), g]
          simp only [show i < w.roll.x.length by omega, show i < v.roll.x.length by omega]
        | _ => exact g
    · simp only [h, if_false]
      exact ⟨fun _ _ => trivial, trivial, fun a ha => hag a (Or.inl ha)⟩
  | propagate r i =>
    obtain ⟨h0, h1, h2⟩ := hg
    simp only [shotNext]
    refine ⟨fun a ha => ?_, trivial, fun a ha => ?_⟩
    · cases a with
      | s l =>
        have : i ≠ l := fun e => ha (by subst e; simp [shotOwn, shot_of hn h0 h1 (by omega)])
        simp [Mem.get, this]
      | _ => rfl
    · have g := hag a (Or.inl ha)
      cases a with
      | s l =>
        simp only [Mem.get, Cell.x.injEq] at g ⊢
        rw [List.getElem?_set, List.getElem?_set, hs h0 h1 (by omega), hu h0 h1 (by omega), g]
        simp only [show i < w.roll.s.length by omega, show i < v.roll.s.length by omega]
      | _ => exact g
  | terminal r i =>
    obtain ⟨h0, h1, h2⟩ := hg
    simp only [shotNext]
    by_cases h : i + 1 = C.K
    · have hi : C.K - 1 = i := by omega
      simp only [h, if_true]
      refine ⟨fun a ha => ?_, trivial, fun a ha => ?_⟩
      · cases a with
        | x l =>
          have : C.K ≠ l := fun e => ha (by
            subst e; simp [shotOwn, hi, shot_of hn h0 h1 (show i < k + C.stepsPerShot by omega)])
          simp [Mem.get, this]
        | _ => rfl
      · have g := hag a (Or.inl ha)
        cases a with
        | x l =>
          simp only [Mem.get, Cell.x.injEq] at g ⊢
          rw [List.getElem?_set, List.getElem?_set, hi, hs h0 h1 (by omega), g]
          simp only [show C.K < w.roll.x.length by omega, show C.K < v.roll.x.length by omega]
        | _ => exact g
    · simp only [h, if_false]
      exact ⟨fun _ _ => trivial, trivial, fun a ha => hag a (Or.inl ha)⟩
  | nan r i =>
    obtain ⟨h0, h1, h2⟩ := hg
    simp only [shotNext, hx h0 h1 (show i < k + C.stepsPerShot by omega) (by omega), hu h0 h1 (show i < k + C.stepsPerShot by omega)]
    exact ⟨fun _ _ => trivial, trivial, fun a ha => hag a (Or.inl ha)⟩
  | defect =>
    have h0 : C.stepsPerShot ∣ k := hg
    simp only [shotNext]
    by_cases h : min C.K (k + C.Kshot) < C.K
    · have hK := hC.Kshot
      have hlt : k + C.Kshot ≤ k + C.stepsPerShot := by
        unfold RollCfg.stepsPerShot; split <;> omega
      have hown : C.stepsPerShot * ((min C.K (k + C.Kshot) - 1) / C.stepsPerShot) = k := shot_of hn h0 (by omega) (by omega)
      have hxn : w.roll.x.getD (min C.K (k + C.Kshot)) 0 = v.roll.x.getD (min C.K (k + C.Kshot)) 0 := by
        by_cases e : k + C.Kshot = k + C.stepsPerShot
        · have hd : C.stepsPerShot ∣ min C.K (k + C.Kshot) := by
            rw [min_eq_right (by omega), e]; exact (Nat.dvd_add_right h0).2 dvd_rfl
          have ho : shotOwn C.K C.stepsPerShot (.x (min C.K (k + C.Kshot))) = none := by
            simp only [shotOwn, if_pos hd, if_neg (show ¬ min C.K (k + C.Kshot) = C.K by omega)]
          exact getD_congr (by simpa only [Mem.get, Cell.x.injEq] using hag (.x (min C.K (k + C.Kshot))) (Or.inr ho))
        · exact hx h0 (by omega) (by omega) (by omega)
      simp only [h, if_true]
      refine ⟨fun a ha => ?_, trivial, fun a ha => ?_⟩
      · cases a with
        | d l =>
          have : min C.K (k + C.Kshot) - 1 ≠ l := fun e => ha (by subst e; simp only [shotOwn, hown])
          simp [Mem.get, List.getElem?_set_ne this]
        | _ => rfl
      · have g := hag a (Or.inl ha)
        cases a with
        | d l =>
          simp only [Mem.get, Cell.x.injEq] at g ⊢
          rw [List.getElem?_set, List.getElem?_set, hxn, hs h0 (show k ≤ min C.K (k + C.Kshot) - 1 by omega) (by omega), g]
          simp only [show min C.K (k + C.Kshot) - 1 < w.d.length by omega, show min C.K (k + C.Kshot) - 1 < v.d.length by omega]
        | _ => exact g
    · simp only [h, if_false]
      exact ⟨fun _ _ => trivial, trivial, fun a ha => hag a (Or.inl ha)⟩
  | _ => exact ⟨fun _ _ => rfl, rfl, fun a ha => hag a (Or.inl ha)⟩

theorem shot_separate (e : Env n m) {N lo hi : ℕ} (hc : Copies e N) (hC : Shots e.conf e.xref) (hK : hi < e.conf.K) (q : ℕ → ℝ) :
    Separate e.work .rollout N e.nThreads lo hi Mem.get (shotOwn e.conf.K e.conf.stepsPerShot) (Fits e.conf.K q)
      (shotGood e.conf.K e.conf.stepsPerShot) where
  same := by
    intro j hj i p s
    change shotPart (e.roll j) e.xref i p s = shotPart (e.roll e.nThreads) e.xref i p s
    rw [show e.roll j = e.roll e.nThreads by simp only [Env.roll, hc.dyn j hj]]
  good := fun _ _ _ => trivial
  ok := by
    intro i _ h2 p s hg _ hs
    have hC' : Shots (e.roll e.nThreads) e.xref := ⟨hC.K, hC.Kshot, hC.L, hC.xref⟩
    have hi : i < (e.roll e.nThreads).K := lt_of_le_of_lt h2 hK
    exact ⟨_, _, shotPart_eq hC' hi hs hg, shotNext_fits hs, shotNext_good hC' hi hg, (shotNext_local hC' hi hs hs hg fun _ _ => rfl).1⟩
  read := by
    intro i _ h2 p s r s' r' p' q' hg hs hr hag e1 e2
    have hC' : Shots (e.roll e.nThreads) e.xref := ⟨hC.K, hC.Kshot, hC.L, hC.xref⟩
    have hi : i < (e.roll e.nThreads).K := lt_of_le_of_lt h2 hK
    change shotPart (e.roll e.nThreads) e.xref i p s = _ at e1
    change shotPart (e.roll e.nThreads) e.xref i p r = _ at e2
    rw [shotPart_eq hC' hi hs hg] at e1
    rw [shotPart_eq hC' hi hr hg] at e2
    simp only [Res.ok.injEq, Prod.ext_iff] at e1 e2
    obtain ⟨rfl, rfl⟩ := e1
    obtain ⟨rfl, rfl⟩ := e2
    exact (shotNext_local hC' hi hs hr hg hag).2
  ext := fun s r hs hr h => Fits.ext s r hs hr h

/-- One thread alone: the accesses from the head of the loop on make up the loop of `rolloutSingleShot`. -/
theorem shot_alone (e : Env n m) (j : ℕ) (hC : Shots (e.roll j) e.xref) {k : ℕ} (hk : k < e.conf.K) (hd : e.conf.stepsPerShot ∣ k)
    {q : ℕ → ℝ} {m0 : Mem n m} : ∀ (r i n0 : ℕ) (w : Mem n m), Fits e.conf.K q w → k ≤ i → i + r = min (k + e.conf.stepsPerShot) e.conf.K →
      Alone e.work .rollout j k m0 n0 w (loopHead i r) →
      ∃ y b n1, shotLoop (e.roll j) e.xref (fun _ => false) k r i w.roll = .ok (y, b) ∧
        Alone e.work .rollout j k m0 n1 { w with roll := y } .defect ∧ Fits e.conf.K q { w with roll := y }
  | 0, _, n0, w, hw, _, _, ha => ⟨w.roll, true, n0, rfl, ha, hw⟩
  | r + 1, i, n0, w, hw, h1, h2, ha => by
    have hgood : e.conf.stepsPerShot ∣ k ∧ k ≤ i ∧ i + r + 1 = min (k + e.conf.stepsPerShot) e.conf.K := ⟨hd, h1, by omega⟩
    have adv : ∀ {p p' : Pos n m} {v v' : Mem n m} {n0 : ℕ}, shotGood e.conf.K e.conf.stepsPerShot k p → e.work.over p = false →
        Fits e.conf.K q v → Alone e.work .rollout j k m0 n0 v p → shotPart (e.roll j) e.xref k p v = .ok (v', p') →
        Alone e.work .rollout j k m0 (n0 + 1) v' p' ∧ Fits e.conf.K q v' := by
      intro p p' v v' n0 hg ho hv ha hs
      refine ⟨.step ha ho hs, ?_⟩
      have e1 := shotPart_eq hC hk hv hg
      rw [hs] at e1
      simp only [Res.ok.injEq] at e1
      have := shotNext_fits (C := e.roll j) (xref := e.xref) (k := k) (p := p) hv
      rw [← e1] at this
      exact this
    have ok : ∀ {p : Pos n m} {v : Mem n m}, shotGood e.conf.K e.conf.stepsPerShot k p → Fits e.conf.K q v →
        ∃ z, shotPart (e.roll j) e.xref k p v = .ok z := fun hg hv => ⟨_, shotPart_eq hC hk hv hg⟩
    -- `initShot`
    obtain ⟨z, hz⟩ := ok (p := .init r i) hgood hw
    obtain ⟨r1, e1, -⟩ := Res.bind_eq_ok.1 (by simpa only [shotPart] using hz)
    obtain ⟨a1, f1⟩ := adv (p := .init r i) hgood rfl hw ha (show shotPart (e.roll j) e.xref k (.init r i) w =
      .ok ({ w with roll := r1 }, .control r i) by simp only [shotPart, e1, Res.ok_bind, Res.pure_eq])
    -- `overwriteControl`
    obtain ⟨z, hz⟩ := ok (p := .control r i) hgood f1
    obtain ⟨r2, e2, -⟩ := Res.bind_eq_ok.1 (by simpa only [shotPart] using hz)
    obtain ⟨a2, f2⟩ := adv (p := .control r i) hgood rfl f1 a1 (show shotPart (e.roll j) e.xref k (.control r i) _ =
      .ok ({ w with roll := r2 }, .state r i) by simp only [shotPart, e2, Res.ok_bind, Res.pure_eq])
    -- `overwriteState`
    obtain ⟨z, hz⟩ := ok (p := .state r i) hgood f2
    obtain ⟨r3, e3, -⟩ := Res.bind_eq_ok.1 (by simpa only [shotPart] using hz)
    obtain ⟨a3, f3⟩ := adv (p := .state r i) hgood rfl f2 a2 (show shotPart (e.roll j) e.xref k (.state r i) _ =
      .ok ({ w with roll := r3 }, .propagate r i) by simp only [shotPart, e3, Res.ok_bind, Res.pure_eq])
    -- `propagate`
    obtain ⟨z, hz⟩ := ok (p := .propagate r i) hgood f3
    obtain ⟨r4, e4, -⟩ := Res.bind_eq_ok.1 (by simpa only [shotPart] using hz)
    obtain ⟨a4, f4⟩ := adv (p := .propagate r i) hgood rfl f3 a3 (show shotPart (e.roll j) e.xref k (.propagate r i) _ =
      .ok ({ w with roll := r4 }, .terminal r i) by simp only [shotPart, e4, Res.ok_bind, Res.pure_eq])
    -- `fillTerminal`
    obtain ⟨z, hz⟩ := ok (p := .terminal r i) hgood f4
    obtain ⟨r5, e5, -⟩ := Res.bind_eq_ok.1 (by simpa only [shotPart] using hz)
    obtain ⟨a5, f5⟩ := adv (p := .terminal r i) hgood rfl f4 a4 (show shotPart (e.roll j) e.xref k (.terminal r i) _ =
      .ok ({ w with roll := r5 }, .nan r i) by simp only [shotPart, e5, Res.ok_bind, Res.pure_eq])
    -- `nanCheck`
    obtain ⟨z, hz⟩ := ok (p := .nan r i) hgood f5
    obtain ⟨⟨r6, b⟩, e6, -⟩ := Res.bind_eq_ok.1 (by simpa only [shotPart] using hz)
    obtain ⟨a6, f6⟩ := adv (p := .nan r i) hgood rfl f5 a5 (show shotPart (e.roll j) e.xref k (.nan r i) _ =
      .ok ({ w with roll := r6 }, if b then loopHead (i + 1) r else .defect) by simp only [shotPart, e6, Res.ok_bind, Res.pure_eq])
    have hstep : shotStep (e.roll j) e.xref k i w.roll = .ok (r6, b) := by
      simp only [shotStep, e1, e2, e3, e4, e5, e6, Res.ok_bind]
    cases b with
    | false =>
      exact ⟨r6, false, _, by simp only [shotLoop, hstep, Res.ok_bind, Bool.false_eq_true, if_false, Res.pure_eq], a6, f6⟩
    | true =>
      obtain ⟨y, b, n1, g1, g2, g3⟩ := shot_alone e j hC hk hd r (i + 1) _ { w with roll := r6 } f6 (by omega) (by omega) a6
      exact ⟨y, b, n1, by simpa only [shotLoop, hstep, Res.ok_bind, Bool.false_eq_true, if_false, if_true] using g1, g2, g3⟩

/-- One thread alone: the accesses of a roll-out make up `rolloutSingleShot` and `computeSingleDefect`. -/
theorem shot_whole (e : Env n m) (j : ℕ) (hC : Shots (e.roll j) e.xref) {k : ℕ} (hk : k < e.conf.K) (hd : e.conf.stepsPerShot ∣ k)
    {q : ℕ → ℝ} {w : Mem n m} (hw : Fits e.conf.K q w) :
    ∃ y b d, rolloutSingleShot (e.roll j) e.xref (fun _ => false) k w.roll = .ok (y, b) ∧
      computeSingleDefect (e.roll j) k y.x y.s w.d = .ok d ∧ Whole e.work .rollout j k w { w with roll := y, d := d } ∧
      Fits e.conf.K q { w with roll := y, d := d } := by
  have hx := hw.x; have hu := hw.u; have hs := hw.s
  have a0 : Alone e.work .rollout j k w 0 w .start := .start
  have e0 : shotPart (e.roll j) e.xref k .start w = .ok ({ w with roll := { w.roll with s := w.roll.s.set k (w.roll.x.getD k 0) } },
      loopHead k (min (k + e.conf.stepsPerShot) e.conf.K - k)) := by
    rw [shotPart_eq hC hk hw (p := .start) trivial]
    simp only [shotNext, show (e.roll j).stepsPerShot ∣ k from hd, not_true_eq_false, if_false]
    rfl
  have f1 : Fits e.conf.K q { w with roll := { w.roll with s := w.roll.s.set k (w.roll.x.getD k 0) } } :=
    ⟨hw.u, hw.x, by simpa using hw.s, hw.d, hw.N, hw.q⟩
  have a1 := Alone.step a0 rfl e0
  have hn : 0 < e.conf.stepsPerShot := hC.pos
  obtain ⟨y, b, n1, g1, g2, g3⟩ := shot_alone e j hC hk hd (min (k + e.conf.stepsPerShot) e.conf.K - k) k _ _ f1 le_rfl (by omega) a1
  have hdef := shotPart_eq hC hk g3 (p := .defect) hd
  obtain ⟨d, e1, -⟩ := Res.bind_eq_ok.1 (by simpa only [shotPart] using hdef)
  refine ⟨y, b, d, ?_, e1, ⟨_, _, .step g2 rfl (show shotPart (e.roll j) e.xref k .defect _ = .ok ({ w with roll := y, d := d }, .over) by
    simp only [shotPart, e1, Res.ok_bind, Res.pure_eq]), rfl⟩, ?_⟩
  · change (if w.roll.u.length < e.conf.K then Res.exc else if w.roll.x.length < e.conf.K + 1 then Res.exc
      else if w.roll.s.length < e.conf.K + 1 then Res.exc else _) = _
    rw [if_neg (by omega), if_neg (by omega), if_neg (by omega), idx_getD (show k < w.roll.x.length by omega) 0, Res.ok_bind,
      setAt_ok (show k < w.roll.s.length by omega), Res.ok_bind]
    exact g1
  · have := shotNext_fits (C := e.roll j) (xref := e.xref) (k := k) (p := .defect) g3
    have e2 : shotPart (e.roll j) e.xref k .defect { w with roll := y } = .ok ({ w with roll := y, d := d }, .over) := by
      simp only [shotPart, e1, Res.ok_bind, Res.pure_eq]
    rw [hdef] at e2
    simp only [Res.ok.injEq] at e2
    rw [e2] at this
    exact this

/-- Nothing is done on an index at which no shot begins. -/
theorem shot_skip (e : Env n m) (j : ℕ) (hC : Shots (e.roll j) e.xref) {k : ℕ} (hd : ¬ e.conf.stepsPerShot ∣ k) (w : Mem n m) :
    Whole e.work .rollout j k w w := by
  have hn : 0 < e.conf.stepsPerShot := hC.pos
  refine ⟨1, .over, .step .start rfl ?_, rfl⟩
  change shotPart (e.roll j) e.xref k .start w = _
  simp only [shotPart, if_neg (show ¬ (e.roll j).stepsPerShot = 0 from by change ¬ e.conf.stepsPerShot = 0; omega)]
  rw [if_pos (show ¬ (e.roll j).stepsPerShot ∣ k from hd)]

theorem Chain.append {S P : Type} {W : Work S P} {t : Task} {j : ℕ} : ∀ {l l' : List ℕ} {a b c : S}, Chain W t j l a b →
    Chain W t j l' b c → Chain W t j (l ++ l') a c
  | [], _, _, _, _, h, h' => by cases h; exact h'
  | _ :: _, _, _, _, _, ⟨m', h1, h2⟩, h' => ⟨m', h1, h2.append h'⟩

theorem shot_skips (e : Env n m) (j : ℕ) (hC : Shots (e.roll j) e.xref) (w : Mem n m) : ∀ l : List ℕ,
    (∀ k ∈ l, ¬ e.conf.stepsPerShot ∣ k) → Chain e.work .rollout j l w w
  | [], _ => rfl
  | k :: l, h => ⟨w, shot_skip e j hC (h k (by simp)) w, shot_skips e j hC w l fun i hi => h i (by simp [hi])⟩

theorem shot_chain (e : Env n m) (j : ℕ) (hC : Shots (e.roll j) e.xref) {q : ℕ → ℝ} : ∀ (l : List ℕ) (w : Mem n m), Fits e.conf.K q w →
    (∀ k ∈ l, k < e.conf.K ∧ e.conf.stepsPerShot ∣ k) →
    ∃ y d, rolloutShotsList (e.roll j) e.xref l w.roll w.d = .ok (y, d) ∧ Chain e.work .rollout j l w { w with roll := y, d := d }
  | [], w, _, _ => ⟨w.roll, w.d, rfl, rfl⟩
  | k :: l, w, hw, hl => by
    obtain ⟨y, b, d, h1, h2, h3, h4⟩ := shot_whole e j hC (hl k (by simp)).1 (hl k (by simp)).2 hw
    obtain ⟨y', d', g1, g2⟩ := shot_chain e j hC l { w with roll := y, d := d } h4 fun i hi => hl i (by simp [hi])
    exact ⟨y', d', by simp only [rolloutShotsList, h1, h2, Res.ok_bind, g1], _, h3, g2⟩

/-! ### C183 -/

/-- C183 (roll-outs, what holds): the dynamics of the workers are copies of those of the main thread, the arrays have their sizes, the
range begins at the start of a shot, and no worker is busy with an earlier task.  Then for any number of workers, in every
interleaving of the single accesses to the shared arrays, until the main thread starts its next phase, no thread throws or leaves an
array; and once the main thread is past its wait, the arrays are those that the serial backend computes.

Missing: the same when a worker is still busy with an earlier phase, which the code does not exclude (`C56_violated`). -/
theorem C183_rollout_partial (e : Env n m) (N first last : ℕ) (rest : List Phase) (hfl : first < last) (hlK : last < e.conf.K)
    (hfirst : e.conf.stepsPerShot ∣ first) (hcopy : Copies e N) (hC : Shots e.conf e.xref) (w : Mem n m)
    (hw : Fits e.conf.K w.p.q w) (s₀ s : Full (Mem n m) (Pos n m)) (h0 : Ready N ⟨.rollout, first, last⟩ rest s₀.par)
    (hmem : s₀.mem = .ok w) (hpos : ∀ j, s₀.pos j = .start) (h : ReachF e.work N s₀ s) (hlater : rest.length ≤ s.par.todo.length) :
    (∃ w', s.mem = .ok w') ∧
    (s.par.todo = rest → Released s.par → ∃ roll d,
      rolloutShotsST (e.roll e.nThreads) e.xref first last w.roll w.d = .ok (roll, d) ∧ s.mem = .ok { w with roll := roll, d := d }) := by
  have hC' : Shots (e.roll e.nThreads) e.xref := ⟨hC.K, hC.Kshot, hC.L, hC.xref⟩
  have hn : 0 < e.conf.stepsPerShot := hC'.pos
  have hmemS : ∀ k, k ∈ shotStarts first last e.conf.stepsPerShot ↔ first ≤ k ∧ k ≤ last ∧ e.conf.stepsPerShot ∣ k := fun k => by
    rw [shotStarts_mem hn]
    constructor
    · rintro ⟨a, c, rfl⟩
      exact ⟨by omega, a, (Nat.dvd_add_right hfirst).2 ⟨c, rfl⟩⟩
    · rintro ⟨a, b, c⟩
      obtain ⟨c, hc⟩ := (Nat.dvd_sub c hfirst)
      exact ⟨b, c, by omega⟩
  obtain ⟨y, d, g1, g2⟩ := shot_chain e e.nThreads hC' (shotStarts first last e.conf.stepsPerShot) w hw fun k hk => by
    obtain ⟨a, b, c⟩ := (hmemS k).1 hk
    exact ⟨by omega, c⟩
  have hother := shot_skips e e.nThreads hC' { w with roll := y, d := d }
    ((List.range' first (last - first + 1)).filter fun k => ¬ e.conf.stepsPerShot ∣ k) fun k hk => by
      simpa using (List.mem_filter.1 hk).2
  have := parallel_serial (p := ⟨.rollout, first, last⟩) hfl (shot_separate e (lo := first) (hi := last) hcopy hC hlK w.p.q) h0 hmem hpos
    (rfl : enterPhase e ⟨.rollout, first, last⟩ w = .ok w) hw h hlater
    (l := shotStarts first last e.conf.stepsPerShot ++ (List.range' first (last - first + 1)).filter fun k => ¬ e.conf.stepsPerShot ∣ k)
    (by
      rw [List.nodup_append]
      refine ⟨shotStarts_nodup hn, List.Nodup.filter _ (List.nodup_range' ..), ?_⟩
      intro a ha b hb hab
      subst hab
      have := (List.mem_filter.1 hb).2
      simp only [((hmemS a).1 ha).2.2, not_true_eq_false, decide_false, Bool.false_eq_true] at this)
    (fun i => by
      rw [List.mem_append, hmemS, List.mem_filter, List.mem_range'_1]
      by_cases hd : e.conf.stepsPerShot ∣ i <;> simp [hd] <;> omega)
    (g2.append hother)
  exact ⟨this.1, fun a b => ⟨y, d, g1, this.2 a b⟩⟩

/-- C183 (linear-quadratic approximation, what holds): as `C183_rollout_partial`, for the approximation of the problem on the stages of a
range; the cost-to-go is set by the main thread when the range reaches the end of the horizon. -/
theorem C183_lq_partial (e : Env n m) (N first last : ℕ) (rest : List Phase) (hfl : first < last) (hlK : last < e.conf.K)
    (hcopy : Copies e N) (w : Mem n m) (hw : Fits e.conf.K w.p.q w) (s₀ s : Full (Mem n m) (Pos n m))
    (h0 : Ready N ⟨.lq, first, last⟩ rest s₀.par) (hmem : s₀.mem = .ok w) (hpos : ∀ j, s₀.pos j = .start) (h : ReachF e.work N s₀ s)
    (hlater : rest.length ≤ s.par.todo.length) :
    (∃ w', s.mem = .ok w') ∧
    (s.par.todo = rest → Released s.par → s.mem = .ok { w with
      p := (computeLQApproximation (w.iterate e) (e.lin e.nThreads) first last (e.cost e.nThreads, w.p)).2 }) := by
  have hx := hw.x
  have hrange : ∀ i, i ∈ (List.range (last + 1)).drop first ↔ first ≤ i ∧ i ≤ last := fun i => by
    rw [List.mem_drop_iff_getElem]
    constructor
    · rintro ⟨c, hc, rfl⟩
      simp only [List.length_range] at hc
      simp only [List.getElem_range]
      omega
    · rintro ⟨a, b⟩
      exact ⟨i - first, by simp; omega, by simp; omega⟩
  obtain ⟨c, w1, henter, hw1, hc1, hc2, hc3, hit, hcL⟩ : ∃ (c : CF n m) (w1 : Mem n m), enterPhase e ⟨.lq, first, last⟩ w = .ok w1 ∧
      Fits e.conf.K w.p.q w1 ∧ c.inter = (e.cost e.nThreads).inter ∧ c.fin = (e.cost e.nThreads).fin ∧
      c.shift = (e.cost e.nThreads).shift ∧ w1.iterate e = w.iterate e ∧
      { w with p := (computeLQApproximation (w.iterate e) (e.lin e.nThreads) first last (e.cost e.nThreads, w.p)).2 } =
      { w1 with p := (((List.range (last + 1)).drop first).foldl (executeLQApproximation (w.iterate e) (e.lin e.nThreads)) (c, w1.p)).2 } := by
    by_cases hl : last + 1 = e.conf.K
    · refine ⟨(LqApprox.initializeCostToGo (w.iterate e) (e.cost e.nThreads, w.p)).1,
        { w with p := (LqApprox.initializeCostToGo (w.iterate e) (e.cost e.nThreads, w.p)).2 }, ?_, ?_, rfl, rfl, rfl, rfl, ?_⟩
      · simp only [enterPhase, hl, if_true, if_neg (show ¬ w.roll.x.length ≤ e.conf.K by omega)]
      · exact ⟨hw.u, hw.x, hw.s, hw.d, hw.N, rfl⟩
      · simp only [computeLQApproximation, if_pos (show last + 1 = (w.iterate e).N from hl)]
    · refine ⟨e.cost e.nThreads, w, by simp only [enterPhase, hl, if_false], hw, rfl, rfl, rfl, rfl, ?_⟩
      simp only [computeLQApproximation, if_neg (show ¬ last + 1 = (w.iterate e).N from hl)]
  have hchain := lq_chain e e.nThreads ((List.range (last + 1)).drop first) w1 c hw1
    (fun k hk => by have := (hrange k).1 hk; omega) hc1 hc2 hc3
  rw [hit] at hchain
  have := parallel_serial (p := ⟨.lq, first, last⟩) hfl (lq_separate e (lo := first) (hi := last) hcopy hlK w.p.q) h0 hmem hpos
    henter hw1 h hlater (l := (List.range (last + 1)).drop first) (List.nodup_range.sublist (List.drop_sublist _ _)) hrange hchain
  rw [hcL]
  exact this

/-- C183 (a range of one index): the main thread itself computes what the serial backend computes. -/
theorem C183_single (e : Env n m) (N k : ℕ) (t : Task) (rest : List Phase) (hk : k < e.conf.K) (w : Mem n m)
    (hw : Fits e.conf.K w.p.q w) (s₀ : Full (Mem n m) (Pos n m)) (h0 : Ready N ⟨t, k, k⟩ rest s₀.par) (hmem : s₀.mem = .ok w) :
    ∃ s, stepF e.work s₀ (.move .main) = some s ∧ s.par.todo = rest ∧ s.par.main = .idle ∧
      match t with
      | .rollout => s.mem = (rolloutShotsST (e.roll e.nThreads) e.xref k k w.roll w.d >>= fun r => .ok { w with roll := r.1, d := r.2 })
      | .lq => s.mem = .ok { w with
        p := (computeLQApproximation (w.iterate e) (e.lin e.nThreads) k k (e.cost e.nThreads, w.p)).2 } := by
  obtain ⟨q, h1, -, h2, h3, -⟩ := C56_single ⟨t, k, k⟩ rest rfl s₀.par h0.main h0.todo
  refine ⟨{ s₀ with par := q, mem := mainData e.work s₀.par s₀.mem }, by simp only [stepF, h1, Option.map_some], h2, h3, ?_⟩
  have hmd : mainData e.work s₀.par s₀.mem = singlePhase e ⟨t, k, k⟩ w := by
    simp only [mainData, h0.main, h0.todo, hmem, if_true, Res.ok_bind]; rfl
  cases t with
  | rollout =>
    have hst : shotStarts k k (e.roll e.nThreads).stepsPerShot = [k] := by
      simp [shotStarts, loopIndices]
    change mainData e.work s₀.par s₀.mem = _
    rw [hmd]
    simp only [singlePhase, rolloutShotsST, hst, rolloutShotsList]
    cases rolloutSingleShot (e.roll e.nThreads) e.xref (fun _ => false) k w.roll with
    | ok r =>
      simp only [Res.ok_bind]
      cases computeSingleDefect (e.roll e.nThreads) k r.1.x r.1.s w.d <;> rfl
    | exc => rfl
    | ub => rfl
  | lq =>
    have hx := hw.x; have hu := hw.u; have hs := hw.s; have hdl := hw.d; have hN := hw.N
    change mainData e.work s₀.par s₀.mem = _
    rw [hmd]
    have hl : (List.range (k + 1)).drop k = [k] := by
      rw [List.range_succ, List.drop_append_of_le_length (by simp), List.drop_of_length_le (by simp)]; rfl
    simp only [singlePhase, enterPhase, computeLQApproximation, hl, List.foldl_cons, List.foldl_nil]
    by_cases hK : k + 1 = e.conf.K
    · rw [if_pos hK, if_neg (by omega), if_pos (show k + 1 = (w.iterate e).N from hK), Res.ok_bind, if_neg (by
        simp only [LqApprox.initializeCostToGo]; omega)]
      rfl
    · rw [if_neg hK, if_neg (show ¬ k + 1 = (w.iterate e).N from hK), Res.ok_bind, if_neg (by omega)]

/-- A bound on the number of accesses to the end of the work, for `K` stages. -/
def Pos.rank (K : ℕ) : Pos n m → ℕ
  | .start => 6 * K + 10
  | .init r _ => 6 * r + 7
  | .control r _ => 6 * r + 6
  | .state r _ => 6 * r + 5
  | .propagate r _ => 6 * r + 4
  | .terminal r _ => 6 * r + 3
  | .nan r _ => 6 * r + 2
  | .defect => 1
  | .offset => 9
  | .point => 8
  | .costQ _ => 7
  | .costR _ => 6
  | .costP _ => 5
  | .costqv _ => 4
  | .costrv _ => 3
  | .over => 0

theorem loopHead_rank (K i r : ℕ) : (loopHead i r : Pos n m).rank K = 6 * r + 1 := by
  cases r <;> rfl

theorem rank_step (e : Env n m) (t : Task) (j i : ℕ) (a a' : Pos n m) (w w' : Mem n m) (ho : e.work.over a = false)
    (h : e.work.step t j i a w = .ok (w', a')) : a'.rank e.conf.K < a.rank e.conf.K := by
  have ok : ∀ {x : Mem n m × Pos n m}, (Res.ok x = .ok (w', a')) → a' = x.2 := fun h => by cases h; rfl
  cases t with
  | rollout =>
    change shotPart (e.roll j) e.xref i a w = _ at h
    cases a with
    | over => cases ho
    | start =>
      simp only [shotPart] at h
      split at h
      · cases h
      split at h
      · rw [ok h]; simp [Pos.rank]
      split at h
      · cases h
      split at h
      · cases h
      split at h
      · cases h
      simp only [Res.bind_eq_ok] at h
      obtain ⟨_, -, _, -, h⟩ := h
      rw [ok h, loopHead_rank]
      have : min (i + (e.roll j).stepsPerShot) (e.roll j).K - i ≤ e.conf.K := by
        change min _ e.conf.K - i ≤ _; omega
      simp only [Pos.rank]; omega
    | nan r k =>
      simp only [shotPart, Res.bind_eq_ok] at h
      obtain ⟨q, -, h⟩ := h
      rw [ok h]
      simp only
      split
      · rw [loopHead_rank]; simp only [Pos.rank]; omega
      · simp only [Pos.rank]; omega
    | init r k => simp only [shotPart, Res.bind_eq_ok] at h; obtain ⟨_, -, h⟩ := h; rw [ok h]; simp [Pos.rank]
    | control r k => simp only [shotPart, Res.bind_eq_ok] at h; obtain ⟨_, -, h⟩ := h; rw [ok h]; simp [Pos.rank]
    | state r k => simp only [shotPart, Res.bind_eq_ok] at h; obtain ⟨_, -, h⟩ := h; rw [ok h]; simp [Pos.rank]
    | propagate r k => simp only [shotPart, Res.bind_eq_ok] at h; obtain ⟨_, -, h⟩ := h; rw [ok h]; simp [Pos.rank]
    | terminal r k => simp only [shotPart, Res.bind_eq_ok] at h; obtain ⟨_, -, h⟩ := h; rw [ok h]; simp [Pos.rank]
    | defect => simp only [shotPart, Res.bind_eq_ok] at h; obtain ⟨_, -, h⟩ := h; rw [ok h]; simp [Pos.rank]
    | _ => rw [ok h]; simp [Pos.rank]
  | lq =>
    change lqPart e j i a w = _ at h
    cases a with
    | over => cases ho
    | start =>
      simp only [lqPart] at h
      split at h
      · cases h
      simp only [Res.bind_eq_ok] at h
      obtain ⟨_, -, _, -, _, -, h⟩ := h
      rw [ok h]; simp only [Pos.rank]; omega
    | offset => simp only [lqPart, Res.bind_eq_ok] at h; obtain ⟨_, -, h⟩ := h; rw [ok h]; simp [Pos.rank]
    | point => simp only [lqPart, Res.bind_eq_ok] at h; obtain ⟨_, -, _, -, h⟩ := h; rw [ok h]; simp [Pos.rank]
    | _ => rw [ok h]; simp [Pos.rank]

/-- C183: the accesses to the data do not get in the way of the protocol: whatever state of the protocol can be reached in a phase, up
to its end, can be reached together with the work.  So what `C183_rollout_partial` and `C183_lq_partial` say of the end of a phase is
said of executions that exist whenever the phase can end (`C58_terminates_partial`). -/
theorem C183_reached (e : Env n m) (N first last : ℕ) (t : Task) (rest : List Phase) (hfl : first < last) (hlK : last < e.conf.K)
    (hcopy : Copies e N) (hC : Shots e.conf e.xref) (w : Mem n m) (hw : Fits e.conf.K w.p.q w) (s₀ : Full (Mem n m) (Pos n m))
    (h0 : Ready N ⟨t, first, last⟩ rest s₀.par) (hmem : s₀.mem = .ok w) (hpos : ∀ j, s₀.pos j = .start) (q : Par)
    (h : Reach N s₀.par q) (hlater : rest.length ≤ q.todo.length) : ∃ s, ReachF e.work N s₀ s ∧ s.par = q := by
  have hx := hw.x
  cases t with
  | rollout =>
    exact reach_lift (p := ⟨.rollout, first, last⟩) hfl (shot_separate e (lo := first) (hi := last) hcopy hC hlK w.p.q)
      (Pos.rank e.conf.K) (fun i a m m' a' ho hs => rank_step e .rollout e.nThreads i a a' m m' ho hs) h0 hmem hpos
      (rfl : enterPhase e ⟨.rollout, first, last⟩ w = .ok w) hw h hlater
  | lq =>
    obtain ⟨w1, henter, hw1⟩ : ∃ w1, enterPhase e ⟨.lq, first, last⟩ w = .ok w1 ∧ Fits e.conf.K w.p.q w1 := by
      by_cases hl : last + 1 = e.conf.K
      · refine ⟨_, by simp only [enterPhase, hl, if_true, if_neg (show ¬ w.roll.x.length ≤ e.conf.K by omega)]; rfl, ?_⟩
        exact ⟨hw.u, hw.x, hw.s, hw.d, hw.N, rfl⟩
      · exact ⟨w, by simp only [enterPhase, hl, if_false], hw⟩
    exact reach_lift (p := ⟨.lq, first, last⟩) hfl (lq_separate e (lo := first) (hi := last) hcopy hlK w.p.q)
      (Pos.rank e.conf.K) (fun i a m m' a' ho hs => rank_step e .lq e.nThreads i a a' m m' ho hs) h0 hmem hpos henter hw1 h hlater

/-- Two stages, two shots, `x' = 2 x + u`, and the arrays before the first roll-out. -/
noncomputable def exEnv : Env 1 1 where
  conf := ⟨fun x _ u => 2 • x + u, 2, 1, false, false, [], fun _ => false, fun _ => false⟩
  xref := []
  dt := 1
  dyn := fun _ x _ u => 2 • x + u
  lin := fun _ _ _ _ _ => (2, 1)
  cost := fun _ => { CF.new with inter := [quadratic 1 1 1 0], fin := [quadratic 1 0 0 0] }
  nThreads := 3

/-- The arrays before the first roll-out. -/
def exMem : Mem 1 1 where
  roll := ⟨[1, 1], [1, 5, 0], [0, 0, 0]⟩
  d := [0, 0, 0]
  p := ⟨2, 0, 0, 0, 0, 0, 0, 0, 0, 0⟩

/-- The hypotheses hold for a freshly launched backend with three workers, and an execution gets to the end of the phase. -/
example (t : Task) : Copies exEnv 3 ∧ Shots exEnv.conf exEnv.xref ∧ Fits exEnv.conf.K exMem.p.q exMem ∧
    Ready 3 ⟨t, 0, 1⟩ [] (launch [⟨t, 0, 1⟩] 0 0 0 0 0) ∧
    ∃ s, ReachF exEnv.work 3 ⟨launch [⟨t, 0, 1⟩] 0 0 0 0 0, .ok exMem, fun _ => .start⟩ s ∧ s.par.todo = [] ∧ Released s.par := by
  have hc : Copies exEnv 3 := ⟨fun _ _ => rfl, fun _ _ => rfl, fun _ _ => rfl, fun _ _ => rfl, fun _ _ => rfl⟩
  have hC : Shots exEnv.conf exEnv.xref := ⟨by decide, by decide, fun h => (by cases h), fun h => (by cases h)⟩
  have hF : Fits exEnv.conf.K exMem.p.q exMem := ⟨rfl, rfl, le_rfl, by decide, rfl, rfl⟩
  refine ⟨hc, hC, hF, C56_first_ready _ _ _ _ _ _ _ _, ?_⟩
  obtain ⟨q, hq, h1, h2⟩ : ∃ q, Reach 3 (launch [⟨t, 0, 1⟩] 0 0 0 0 0) q ∧ q.todo = [] ∧ q.main = .idle := by
    cases t
    · exact run_exists (by decide) (List.replicate 7 .main ++ List.replicate 10 (.worker 0) ++ List.replicate 3 .main) (by decide) _
        (by decide +kernel)
    · exact run_exists (by decide) (List.replicate 7 .main ++ List.replicate 10 (.worker 0) ++ List.replicate 3 .main) (by decide) _
        (by decide +kernel)
  obtain ⟨s, g1, rfl⟩ := C183_reached exEnv 3 0 1 t [] (by decide) (by decide) hc hC exMem hF
    ⟨launch [⟨t, 0, 1⟩] 0 0 0 0 0, .ok exMem, fun _ => .start⟩ (C56_first_ready _ _ _ _ _ _ _ _) rfl (fun _ => rfl) q hq (by simp)
  exact ⟨s, g1, h1, Or.inr (Or.inr h2)⟩

end CT.Par
