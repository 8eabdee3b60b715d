import Verif.Model.HessianSource
import Verif.Model.Robots.HyAHessian
import Mathlib.Analysis.Calculus.Deriv.Mul
import Mathlib.Analysis.Calculus.Deriv.Pow
import Mathlib.LinearAlgebra.Matrix.Symmetric

/-!
# Generated classes for Hessians (C194)
-/

namespace CT.HesCg

/-! ### Specification -/

variable {n m : ℕ}

/-- `M` is the Hessian, at `x`, of the outputs of `f` weighted by `w`: a matrix of second partial derivatives. -/
def IsHessian (f : (Fin n → ℝ) → Fin m → ℝ) (x : Fin n → ℝ) (w : Fin m → ℝ) (M : Matrix (Fin n) (Fin n) ℝ) : Prop :=
  ∃ g : Fin n → (Fin n → ℝ) → ℝ,
    (∀ j y, HasDerivAt (fun s => ∑ l, w l * f (Function.update y j s) l) (g j y) (y j)) ∧
    ∀ i j, HasDerivAt (fun s => g j (Function.update x i s)) (M i j) (x i)

/-- The expressions recorded by the library are right: as functions of the `n` inputs followed by the `m` weights they are the
entries of the Hessian, which is symmetric. -/
def Recorded (f : (Fin n → ℝ) → Fin m → ℝ) (hes : ℕ → Ex ℕ) : Prop :=
  ∀ x w, ∃ M : Matrix (Fin n) (Fin n) ℝ, IsHessian f x w M ∧ M.IsSymm ∧
    ∀ i j : Fin n, (hes (i * n + j)).eval (at? (List.ofFn x ++ List.ofFn w)) = .ok (M j i)

/-! ### Generated code -/

variable {V W : Type}

theorem eval_map (g : V → W) (r : W → Res ℝ) (e : Ex V) : (e.map g).eval r = e.eval fun v => r (g v) := by
  induction e with
  | var v => rfl
  | k c => rfl
  | add a b ha hb => simp only [Ex.map, Ex.eval, ha, hb]
  | sub a b ha hb => simp only [Ex.map, Ex.eval, ha, hb]
  | mul a b ha hb => simp only [Ex.map, Ex.eval, ha, hb]
  | div a b ha hb => simp only [Ex.map, Ex.eval, ha, hb]
  | neg a ha => simp only [Ex.map, Ex.eval, ha]
  | sin a ha => simp only [Ex.map, Ex.eval, ha]
  | cos a ha => simp only [Ex.map, Ex.eval, ha]

theorem isZero_eval {e : Ex V} (h : e.isZero = true) (r : V → Res ℝ) : e.eval r = .ok 0 := by
  cases e with
  | k c =>
    have hc : c = 0 := by simpa [Ex.isZero] using h
    simp [Ex.eval, hc]
  | _ => exact absurd h (by simp [Ex.isZero])

theorem rd_nameOf {x w : List ℝ} (s : Mem) (id : ℕ) : rd x w s (nameOf x.length id) = at? (x ++ w) id := by
  unfold nameOf
  split
  next h => simp [rd, at?, List.getElem?_append_left h]
  next h => simp [rd, at?, List.getElem?_append_right (not_lt.1 h)]

/-- Assignments to `hes` of expressions with known values. -/
theorem runAll_hes {x w : List ℝ} {val : ℕ → ℝ} : ∀ {L : List (ℕ × Ex Ref)} {s : Mem},
    (∀ p ∈ L, ∀ s, p.2.eval (rd x w s) = .ok (val p.1)) →
    runAll x w s (L.map fun p => Stmt.hes p.1 p.2) = .ok ⟨s.v, fun k => if k ∈ L.map Prod.fst then val k else s.hes k⟩
  | [], s, _ => by simp [runAll]
  | p :: L, s, h => by
    have hp := h p List.mem_cons_self s
    simp only [List.map_cons, runAll, Stmt.run, hp, Res.ok_bind, Res.pure_eq]
    rw [runAll_hes fun q hq => h q (List.mem_cons_of_mem _ hq)]
    congr 2
    funext k
    by_cases hk : k ∈ L.map Prod.fst
    · simp [hk]
    · by_cases e : k = p.1
      · subst e; simp [hk]
      · simp [hk, e, Function.update_of_ne]

/-- Elements that are not assigned stay what they are. -/
theorem runAll_keep {x w : List ℝ} {k : ℕ} : ∀ {L : List (ℕ × Ex Ref)} {s t : Mem},
    runAll x w s (L.map fun p => Stmt.hes p.1 p.2) = .ok t → k ∉ L.map Prod.fst → t.hes k = s.hes k
  | [], s, t, h, _ => by
    simp only [List.map_nil, runAll, Res.ok.injEq] at h
    rw [h]
  | p :: L, s, t, h, hk => by
    simp only [List.map_cons, runAll, Stmt.run] at h
    simp only [List.map_cons, List.mem_cons, not_or] at hk
    cases e : p.2.eval (rd x w s) with
    | ok a =>
      rw [e] at h
      exact (runAll_keep (by simpa using h) hk.2).trans (Function.update_of_ne hk.1 _ _)
    | exc => rw [e] at h; simp at h
    | ub => rw [e] at h; simp at h

/-- The assignments of generated code. -/
def asg (n m : ℕ) (z : Bool) (hes : ℕ → Ex ℕ) : List (ℕ × Ex Ref) :=
  (((List.range (n * n)).map fun i => (i, mirror n hes i)).filter fun p => !(z && p.2.isZero)).map fun p => (p.1, p.2.map (nameOf m))

theorem gen_eq (n m : ℕ) (z : Bool) (hes : ℕ → Ex ℕ) :
    generateHessianSource n m z hes = (asg n m z hes).map fun p => Stmt.hes p.1 p.2 := by
  simp [generateHessianSource, asg]

theorem mem_asg {z : Bool} {hes : ℕ → Ex ℕ} {k : ℕ} :
    k ∈ (asg n m z hes).map Prod.fst ↔ k < n * n ∧ (z && (mirror n hes k).isZero) = false := by
  cases z <;> simp [asg]

theorem reached_zero {z : Bool} {hes : ℕ → Ex ℕ} {s : Mem} (h : Reached n (generateHessianSource n m z hes) s) {k : ℕ}
    (hk : k ∉ (asg n m z hes).map Prod.fst) : s.hes k = 0 := by
  induction h with
  | refl => rfl
  | tail _ hs ih =>
    obtain ⟨x, w, M, e⟩ := hs
    rw [hessian, gen_eq] at e
    cases r : runAll x w _ ((asg n m z hes).map fun p => Stmt.hes p.1 p.2) with
    | ok t =>
      rw [r] at e
      simp only [Res.ok_bind, Res.pure_eq, Res.ok.injEq, Prod.mk.injEq] at e
      rw [← e.1]
      exact (runAll_keep r hk).trans ih
    | exc => rw [r] at e; simp at e
    | ub => rw [r] at e; simp at e

/-- **C194**, for as many outputs as inputs.  If the library records the Hessian of a function, the class generated for it returns,
after any earlier calls, the Hessian of the outputs weighted by the second argument.  Missing: other numbers of outputs
(`C194_hessian_violated`). -/
theorem C194_hessian_partial {f : (Fin n → ℝ) → Fin n → ℝ} {hes : ℕ → Ex ℕ} (hf : Recorded f hes) (z : Bool) {s : Mem}
    (hs : Reached n (generateHessianSource n n z hes) s) (x w : Fin n → ℝ) :
    ∃ t M, hessian n (generateHessianSource n n z hes) s (List.ofFn x) (List.ofFn w) = .ok (t, M) ∧ IsHessian f x w M := by
  obtain ⟨M, hM, hsym, hval⟩ := hf x w
  have hm : ∀ i j : Fin n, (mirror n hes (i * n + j)).eval (at? (List.ofFn x ++ List.ofFn w)) = .ok (M j i) := by
    intro i j
    have hn : 0 < n := i.pos
    have e1 : (i * n + j : ℕ) / n = i := by
      rw [Nat.add_comm, Nat.add_mul_div_right _ _ hn, Nat.div_eq_of_lt j.2, Nat.zero_add]
    have e2 : (i * n + j : ℕ) % n = j := by rw [Nat.add_comm, Nat.add_mul_mod_self_right, Nat.mod_eq_of_lt j.2]
    unfold mirror
    rw [e1, e2]
    split
    · rw [hval j i, hsym.apply]
    · exact hval i j
  let val : ℕ → ℝ := fun k => if h : k < n * n then
    M ⟨k % n, Nat.mod_lt _ (Nat.pos_of_ne_zero fun e => by simp [e] at h)⟩ ⟨k / n, Nat.div_lt_of_lt_mul h⟩ else 0
  have hk : ∀ k, k < n * n → (mirror n hes k).eval (at? (List.ofFn x ++ List.ofFn w)) = .ok (val k) := by
    intro k h
    have := hm ⟨k / n, Nat.div_lt_of_lt_mul h⟩ ⟨k % n, Nat.mod_lt _ (Nat.pos_of_ne_zero fun e => by simp [e] at h)⟩
    simp only [Nat.div_add_mod'] at this
    simp only [val, dif_pos h, this]
  have hrun := runAll_hes (x := List.ofFn x) (w := List.ofFn w) (val := val) (L := asg n n z hes) (s := s) (by
    intro p hp s
    simp only [asg, List.mem_map, List.mem_filter, List.mem_range] at hp
    obtain ⟨p, ⟨⟨i, hi, rfl⟩, -⟩, rfl⟩ := hp
    rw [eval_map]
    have e : (fun v => rd (List.ofFn x) (List.ofFn w) s (nameOf n v)) = at? (List.ofFn x ++ List.ofFn w) := by
      funext v
      simpa using rd_nameOf (x := List.ofFn x) (w := List.ofFn w) s v
    rw [e]
    exact hk i hi)
  refine ⟨⟨s.v, fun k => if k ∈ (asg n n z hes).map Prod.fst then val k else s.hes k⟩, M, ?_, hM⟩
  rw [hessian, gen_eq, hrun]
  simp only [Res.ok_bind, Res.pure_eq]
  congr 2
  ext r c
  have hlt : (c * n + r : ℕ) < n * n := by
    calc (c * n + r : ℕ) < c * n + n := by omega
      _ = (c + 1) * n := by ring
      _ ≤ n * n := Nat.mul_le_mul_right _ c.2
  have hv := hk _ hlt
  rw [hm c r] at hv
  have hv : M r c = val (c * n + r) := by simpa using hv
  simp only [Matrix.of_apply]
  rw [hv]
  split
  · rfl
  next h =>
    rw [reached_zero hs h]
    have hz : (mirror n hes (c * n + r)).isZero = true := by
      have := mt mem_asg.2 h
      simp only [not_and, hlt, true_implies, Bool.not_eq_false, Bool.and_eq_true] at this
      exact this.2
    have := isZero_eval hz (at? (List.ofFn x ++ List.ofFn w))
    rw [hk _ hlt] at this
    simpa using this.symm

/-! ### Other numbers of outputs -/

/-- The square of the first input as first output. -/
def square (n m : ℕ) [NeZero n] : (Fin n → ℝ) → Fin m → ℝ := fun x l => if (l : ℕ) = 0 then x 0 ^ 2 else 0

/-- Twice the first weight as entry of the first row and column. -/
def squareHes (n : ℕ) : ℕ → Ex ℕ := fun i => if i = 0 then .mul (.k 2) (.var n) else .k 0

theorem square_sum [NeZero n] (hm : 0 < m) (w : Fin m → ℝ) (y : Fin n → ℝ) :
    ∑ l, w l * square n m y l = w ⟨0, hm⟩ * y 0 ^ 2 := by
  rw [Finset.sum_eq_single ⟨0, hm⟩]
  · simp [square]
  · intro l _ hl
    have : (l : ℕ) ≠ 0 := fun e => hl (Fin.ext e)
    simp [square, this]
  · simp

/-- Its Hessian. -/
theorem square_hessian [NeZero n] (hm : 0 < m) (x : Fin n → ℝ) (w : Fin m → ℝ) {M : Matrix (Fin n) (Fin n) ℝ} :
    IsHessian (square n m) x w M ↔ M = fun i j => if i = 0 ∧ j = 0 then 2 * w ⟨0, hm⟩ else 0 := by
  have hd : ∀ (j : Fin n) (y : Fin n → ℝ), HasDerivAt (fun s => ∑ l, w l * square n m (Function.update y j s) l)
      (if j = 0 then 2 * w ⟨0, hm⟩ * y 0 else 0) (y j) := by
    intro j y
    simp only [square_sum hm]
    by_cases h : j = 0
    · subst h
      simpa using (((hasDerivAt_id' (y 0)).pow 2).const_mul (w ⟨0, hm⟩)).congr_deriv (by simp; ring)
    · simpa [h, Function.update_of_ne (Ne.symm h)] using hasDerivAt_const (y j) (w ⟨0, hm⟩ * y 0 ^ 2)
  have hdd : ∀ (i j : Fin n), HasDerivAt (fun s => if j = 0 then 2 * w ⟨0, hm⟩ * Function.update x i s 0 else 0)
      (if i = 0 ∧ j = 0 then 2 * w ⟨0, hm⟩ else 0) (x i) := by
    intro i j
    by_cases hj : j = 0
    · by_cases hi : i = 0
      · subst hi hj
        simpa using ((hasDerivAt_id' (x 0)).const_mul (2 * w ⟨0, hm⟩))
      · simpa [hi, hj, Function.update_of_ne (Ne.symm hi)] using hasDerivAt_const (x i) (2 * w ⟨0, hm⟩ * x 0)
    · simpa [hj] using hasDerivAt_const (x i) (0 : ℝ)
  constructor
  · rintro ⟨g, h1, h2⟩
    have hg : g = fun j y => if j = 0 then 2 * w ⟨0, hm⟩ * y 0 else 0 := by
      funext j y
      exact (h1 j y).unique (hd j y)
    subst hg
    funext i j
    exact (h2 i j).unique (hdd i j)
  · rintro rfl
    exact ⟨_, hd, hdd⟩

theorem square_recorded [NeZero n] (hm : 0 < m) : Recorded (square n m) (squareHes n) := by
  intro x w
  refine ⟨_, (square_hessian hm x w).2 rfl, ?_, ?_⟩
  · ext i j
    exact if_congr And.comm rfl rfl
  · intro i j
    have hn : 0 < n := i.pos
    by_cases h : i = 0 ∧ j = 0
    · obtain ⟨rfl, rfl⟩ := h
      have e : (List.ofFn x ++ List.ofFn w)[n]? = some (w ⟨0, hm⟩) := by
        rw [List.getElem?_append_right (by simp)]
        simp [hm]
      simp [squareHes, Ex.eval, at?, e]
    · have hne : (i * n + j : ℕ) ≠ 0 := by
        intro e
        have hj : (j : ℕ) = 0 := by omega
        have hi : (i : ℕ) = 0 := by
          rcases Nat.mul_eq_zero.1 (show (i : ℕ) * n = 0 by omega) with h | h
          · exact h
          · omega
        exact h ⟨Fin.ext (by simpa using hi), Fin.ext (by simpa using hj)⟩
      rw [squareHes, if_neg hne, Ex.eval]
      have : ¬ (j = 0 ∧ i = 0) := fun e => h ⟨e.2, e.1⟩
      simp [this]

/-- **C194** is violated: for every number of inputs and every other number of outputs there is a function, of which the
library records the Hessian, such that the generated class does not return the Hessian: the first call reads outside of its
arguments, or returns something else. -/
theorem C194_hessian_violated (hn : 0 < n) (hm : 0 < m) (h : n ≠ m) : ∃ (f : (Fin n → ℝ) → Fin m → ℝ) (hes : ℕ → Ex ℕ), Recorded f hes ∧
    ∃ x w, ¬ ∃ t M, hessian n (generateHessianSource n m true hes) Mem.new (List.ofFn x) (List.ofFn w) = .ok (t, M) ∧ IsHessian f x w M := by
  have : NeZero n := ⟨hn.ne'⟩
  refine ⟨square n m, squareHes n, square_recorded hm, 0, fun l => if (l : ℕ) = 0 then 1 else 0, ?_⟩
  rintro ⟨t, M, hr, hM⟩
  rw [square_hessian hm] at hM
  have hcode : generateHessianSource n m true (squareHes n) = [Stmt.hes 0 (.mul (.k 2) (.var (nameOf m n)))] := by
    have hmir : ∀ i, i < n * n → mirror n (squareHes n) i = squareHes n i := by
      intro i hi
      unfold mirror
      split
      next hlt =>
        have h1 : i ≠ 0 := by rintro rfl; simp at hlt
        have h2 : i % n * n + i / n ≠ 0 :=
          (Nat.lt_of_lt_of_le (Nat.lt_of_le_of_lt (Nat.zero_le _) hlt) (Nat.le_add_left _ _)).ne'
        exact (if_neg h2).trans (if_neg h1).symm
      · rfl
    obtain ⟨k, hk⟩ : ∃ k, n * n = k + 1 := ⟨n * n - 1, by have := Nat.mul_pos hn hn; omega⟩
    unfold generateHessianSource
    rw [hk, List.range_succ_eq_map]
    have h0 : mirror n (squareHes n) 0 = .mul (.k 2) (.var n) := hmir 0 (by omega)
    rw [List.map_cons, List.filter_cons_of_pos (by simp [h0, Ex.isZero]), List.map_cons, h0]
    rw [List.filter_eq_nil_iff.2]
    · rfl
    · intro p hp
      simp only [List.map_map, List.mem_map, List.mem_range, Function.comp] at hp
      obtain ⟨i, hi, rfl⟩ := hp
      simp [hmir (i + 1) (by omega), squareHes, Ex.isZero]
  rw [hcode] at hr
  rcases Nat.lt_or_ge n m with hlt | hge
  · have e : nameOf m n = .x n := if_pos hlt
    simp [hessian, runAll, Stmt.run, Ex.eval, e, rd, at?] at hr
  · have e : nameOf m n = .w (n - m) := if_neg (by omega)
    by_cases hb : n - m < m
    · have hz : n - m ≠ 0 := by omega
      simp [hessian, runAll, Stmt.run, Ex.eval, e, rd, at?, hb, hz] at hr
      have := congrFun (congrFun hr.2 0) 0
      rw [hM] at this
      simp at this
    · have hb' : (List.ofFn fun l : Fin m => if (l : ℕ) = 0 then (1 : ℝ) else 0)[n - m]? = none := by simp; omega
      simp only [hessian, runAll, Stmt.run, Ex.eval, e, rd, at?, hb'] at hr
      simp at hr

/-- Square functions are such functions with as many outputs as inputs. -/
example : Recorded (square 3 3) (squareHes 3) ∧ Reached 3 (generateHessianSource 3 3 true (squareHes 3)) Mem.new :=
  ⟨square_recorded (by omega), .refl⟩

/-! ### The shipped Hessian of HyA -/

/-- A name that is not an element of vectors with `a` and `b` elements occurs. -/
def Ex.bad (a b : ℕ) : Ex Ref → Bool
  | .var (.x i) => a ≤ i
  | .var (.w i) => b ≤ i
  | .var _ => false
  | .k _ => false
  | .add p q | .sub p q | .mul p q | .div p q => p.bad a b || q.bad a b
  | .neg p | .sin p | .cos p => p.bad a b

theorem at?_bad {l : List ℝ} {i : ℕ} (h : l.length ≤ i) : at? l i = .ub := by
  simp [at?, List.getElem?_eq_none h]

theorem at?_ne_exc (l : List ℝ) (i : ℕ) : at? l i ≠ .exc := by
  unfold at?
  split <;> simp

theorem bin_cases {a b : Res ℝ} {p q : Bool} (op : ℝ → ℝ → ℝ) (ha : a ≠ .exc) (hb : b ≠ .exc) (hp : p = true → a = .ub)
    (hq : q = true → b = .ub) : (do return op (← a) (← b)) ≠ (Res.exc : Res ℝ) ∧
      ((p || q) = true → (do return op (← a) (← b)) = (Res.ub : Res ℝ)) := by
  cases a <;> cases b <;> simp_all

theorem un_cases {a : Res ℝ} {p : Bool} (op : ℝ → ℝ) (ha : a ≠ .exc) (hp : p = true → a = .ub) :
    (do return op (← a)) ≠ (Res.exc : Res ℝ) ∧ (p = true → (do return op (← a)) = (Res.ub : Res ℝ)) := by
  cases a <;> simp_all

theorem eval_bad (x w : List ℝ) (s : Mem) (e : Ex Ref) :
    e.eval (rd x w s) ≠ .exc ∧ (e.bad x.length w.length = true → e.eval (rd x w s) = .ub) := by
  induction e with
  | var v =>
    cases v with
    | x i => exact ⟨at?_ne_exc _ _, fun h => at?_bad (by simpa [Ex.bad] using h)⟩
    | w i => exact ⟨at?_ne_exc _ _, fun h => at?_bad (by simpa [Ex.bad] using h)⟩
    | v i => exact ⟨by simp [Ex.eval, rd], by simp [Ex.bad]⟩
    | hes i => exact ⟨by simp [Ex.eval, rd], by simp [Ex.bad]⟩
  | k c => exact ⟨by simp [Ex.eval], by simp [Ex.bad]⟩
  | add a b ha hb => exact bin_cases (· + ·) ha.1 hb.1 ha.2 hb.2
  | sub a b ha hb => exact bin_cases (· - ·) ha.1 hb.1 ha.2 hb.2
  | mul a b ha hb => exact bin_cases (· * ·) ha.1 hb.1 ha.2 hb.2
  | div a b ha hb => exact bin_cases (· / ·) ha.1 hb.1 ha.2 hb.2
  | neg a ha => exact un_cases (- ·) ha.1 ha.2
  | sin a ha => exact un_cases Real.sin ha.1 ha.2
  | cos a ha => exact un_cases Real.cos ha.1 ha.2

/-- The expression of an assignment. -/
def Stmt.ex : Stmt → Ex Ref
  | .v _ e => e
  | .hes _ e => e

theorem run_bad {x w : List ℝ} {c : Stmt} : ∀ {cs : List Stmt} {s : Mem}, c ∈ cs → c.ex.bad x.length w.length = true →
    runAll x w s cs = .ub
  | d :: cs, s, hc, hb => by
    have hd := eval_bad x w s d.ex
    rcases List.mem_cons.1 hc with rfl | hc'
    · have hu := hd.2 hb
      cases c <;> simp only [Stmt.ex] at hu <;> simp [runAll, Stmt.run, hu]
    · cases e : d.ex.eval (rd x w s) with
      | ok a => cases d <;> simp only [Stmt.ex] at e <;> simp [runAll, Stmt.run, e, run_bad hc' hb]
      | exc => exact absurd e hd.1
      | ub => cases d <;> simp only [Stmt.ex] at e <;> simp [runAll, Stmt.run, e]

/-- **C194** is violated by the shipped class for the inverse dynamics of HyA: with 12 state variables and 6 weights, every call
of `hessian` reads outside of the weights, whatever the members are. -/
theorem C194_HyA_violated (s : Mem) (x : Fin 12 → ℝ) (w : Fin 6 → ℝ) :
    hessian 12 HyA.code s (List.ofFn x) (List.ofFn w) = .ub := by
  have hc : HyA.part1[42]? = some (HyA.part1[42]'(by decide)) := List.getElem?_eq_getElem _
  have hm : HyA.part1[42]'(by decide) ∈ HyA.code := List.mem_flatten.2 ⟨HyA.part1, by simp [List.mem_cons], List.mem_of_getElem? hc⟩
  rw [hessian, run_bad hm (by rw [List.length_ofFn, List.length_ofFn]; rfl)]
  rfl

end CT.HesCg
