import Verif.Model.ADLinearizer
import Verif.Props.CodeGen
import Mathlib.Analysis.Calculus.FDeriv.Prod
import Mathlib.Tactic.FinCases

/-!
# Linearisation by automatic differentiation (C169) and generated classes (C170)
-/

namespace CT.ADLin

open Matrix CT.Cost

variable {N k n m : ℕ}

/-! ### Specification of the library -/

/-- A pattern CppAD can work with: entries asked for are inside the matrix, and where a requested column is said to be
zero, the output does not depend on the input.  (In forward mode only the requested columns are used.) -/
structure Valid (f : Tape N k) (p : Pattern) : Prop where
  size : p.sparsity.length = k * N
  same : p.row.length = p.col.length
  row : ∀ r ∈ p.row, r < k
  col : ∀ c ∈ p.col, c < N
  zero : ∀ (r : Fin k) (c : Fin N), c.val ∈ p.col → p.sparsity[r.val * N + c.val]? = some false →
    ∀ y v, f (Function.update y c v) r = f y r

/-- CppAD and the generated code return derivatives wherever they exist; sparse ones in the order asked for, dense ones in
row-major order; entries found to be zero are zero. -/
structure Lib.Faithful (lib : Lib N k) : Prop where
  sparse : ∀ (f : Tape N k) (x : Fin N → ℝ) (J : Matrix (Fin k) (Fin N) ℝ) (p : Pattern), IsJac f J x → Valid f p →
    ∀ (i : ℕ) (r : Fin k) (c : Fin N), p.row[i]? = some r.val → p.col[i]? = some c.val → lib.sparse f x p i = J r c
  dense : ∀ (f : Tape N k) (x : Fin N → ℝ) (J : Matrix (Fin k) (Fin N) ℝ), IsJac f J x →
    ∀ (r : Fin k) (c : Fin N), lib.dense f x (r * N + c) = J r c
  skip : ∀ (f : Tape N k) (p : Pattern), Valid f p → ∀ i, lib.skip f p i = true → ∀ x, lib.sparse f x p i = 0

open Classical in
/-- Faithful libraries exist: the hypotheses `lib.Faithful` can be met. -/
theorem exists_faithful (N k : ℕ) : ∃ lib : Lib N k, lib.Faithful := by
  let J : Tape N k → (Fin N → ℝ) → Matrix (Fin k) (Fin N) ℝ := fun f x =>
    if h : ∃ J, IsJac f J x then h.choose else 0
  have hJ : ∀ f x A, IsJac f A x → J f x = A := fun f x A h => by
    have hex : ∃ J, IsJac f J x := ⟨A, h⟩
    simp only [J, dif_pos hex]
    exact CodeGen.isJac_unique hex.choose_spec h
  refine ⟨⟨fun f x p i => if h : p.row.getD i 0 < k ∧ p.col.getD i 0 < N then J f x ⟨_, h.1⟩ ⟨_, h.2⟩ else 0,
    fun f x i => if h : i / N < k ∧ i % N < N then J f x ⟨_, h.1⟩ ⟨_, h.2⟩ else 0, fun _ _ _ => false⟩, ?_, ?_, ?_⟩
  · intro f x A p h _ i r c hr hc
    have h1 : p.row.getD i 0 = r.val := by rw [List.getD_eq_getElem?_getD, hr]; rfl
    have h2 : p.col.getD i 0 = c.val := by rw [List.getD_eq_getElem?_getD, hc]; rfl
    simp only [h1, h2, r.isLt, c.isLt, and_self, dif_pos, hJ f x A h]
  · intro f x A h r c
    have hN : 0 < N := c.pos
    have h1 : (r.val * N + c.val) / N = r.val := by
      rw [Nat.add_comm, Nat.add_mul_div_right _ _ hN, Nat.div_eq_of_lt c.isLt, Nat.zero_add]
    have h2 : (r.val * N + c.val) % N = c.val := by
      rw [Nat.add_comm, Nat.add_mul_mod_self_right, Nat.mod_eq_of_lt c.isLt]
    simp only [h1, h2, r.isLt, c.isLt, and_self, dif_pos, hJ f x A h]
  · intro f p _ i h
    simp at h

/-! ### Patterns -/

theorem blocks_length {α : Type} (a b : ℕ) (g : ℕ → ℕ → α) :
    ((List.range a).flatMap fun i => (List.range b).map fun j => g j i).length = a * b := by
  induction a with
  | zero => simp
  | succ a ih =>
    rw [List.range_succ, List.flatMap_append, List.length_append, ih]
    simp [Nat.succ_mul]

theorem blocks_get {α : Type} (a b : ℕ) (g : ℕ → ℕ → α) {i j : ℕ} (hi : i < a) (hj : j < b) :
    ((List.range a).flatMap fun i => (List.range b).map fun j => g j i)[i * b + j]? = some (g j i) := by
  induction a with
  | zero => omega
  | succ a ih =>
    rw [List.range_succ, List.flatMap_append]
    by_cases h : i < a
    · rw [List.getElem?_append_left, ih h]
      rw [blocks_length]
      calc i * b + j < i * b + b := by omega
        _ = (i + 1) * b := by rw [Nat.succ_mul]
        _ ≤ a * b := Nat.mul_le_mul_right _ (by omega)
    · have hia : i = a := by omega
      subst hia
      rw [List.getElem?_append_right (by rw [blocks_length]; omega), blocks_length]
      simp [hj]

/-- The pattern of a block of rows of the transposed Jacobian: rows from `a` on, `b` of them. -/
theorem pattern_block (rows cols a b : ℕ) (hab : a + b ≤ rows) (s : ℕ → ℕ → Bool)
    (hs : ∀ i j, s i j = decide (a ≤ i ∧ i < a + b)) :
    (initPattern rows cols s).row.length = b * cols ∧ (initPattern rows cols s).col.length = b * cols ∧
    (∀ i j, i < b → j < cols → (initPattern rows cols s).row[i * cols + j]? = some j ∧
      (initPattern rows cols s).col[i * cols + j]? = some (a + i)) := by
  obtain ⟨d, rfl⟩ : ∃ d, rows = a + b + d := ⟨rows - (a + b), by omega⟩
  have he : ((List.range (a + b + d)).flatMap fun i => ((List.range cols).filter fun j => s i j).map fun j => (j, i))
      = (List.range b).flatMap fun i => (List.range cols).map fun j => (j, a + i) := by
    rw [List.range_add, List.range_add, List.flatMap_append, List.flatMap_append]
    have h1 : ((List.range a).flatMap fun i => ((List.range cols).filter fun j => s i j).map fun j => (j, i)) = [] := by
      rw [List.flatMap_eq_nil_iff]
      intro i hi
      have : i < a := List.mem_range.1 hi
      simp [hs, show ¬ a ≤ i by omega]
    have h2 : (((List.range d).map fun x => a + b + x).flatMap
        fun i => ((List.range cols).filter fun j => s i j).map fun j => (j, i)) = [] := by
      rw [List.flatMap_eq_nil_iff]
      intro i hi
      obtain ⟨y, -, rfl⟩ := List.mem_map.1 hi
      simp [hs]
    rw [h1, h2, List.nil_append, List.append_nil, List.flatMap_map]
    refine List.flatMap_congr fun i hi => ?_
    have hi : i < b := List.mem_range.1 hi
    simp [hs, hi]
  unfold initPattern
  simp only [he, List.length_map]
  refine ⟨blocks_length b cols _, blocks_length b cols _, fun i j hi hj => ?_⟩
  rw [List.getElem?_map, List.getElem?_map, blocks_get b cols (fun j i => (j, a + i)) hi hj]
  exact ⟨rfl, rfl⟩

theorem pattern_mem {rows cols : ℕ} {s : ℕ → ℕ → Bool} :
    (∀ r ∈ (initPattern rows cols s).row, r < cols) ∧ (∀ c ∈ (initPattern rows cols s).col, c < rows) ∧
    (∀ c ∈ (initPattern rows cols s).col, ∃ j, j < cols ∧ s c j = true) := by
  unfold initPattern
  simp only [List.mem_map, List.mem_flatMap, List.mem_filter, List.mem_range, Prod.exists]
  refine ⟨?_, ?_, ?_⟩
  · rintro r ⟨a, b, ⟨i, hi, j, hj, he⟩, rfl⟩
    cases he; exact hj.1
  · rintro r ⟨a, b, ⟨i, hi, j, hj, he⟩, rfl⟩
    cases he; exact hi
  · rintro r ⟨a, b, ⟨i, hi, j, hj, he⟩, rfl⟩
    cases he; exact ⟨_, hj⟩

/-- Patterns made of complete columns of the Jacobian can be used for every function. -/
theorem valid_block (f : Tape N k) (a b : ℕ) (s : ℕ → ℕ → Bool) (hs : ∀ i j, s i j = decide (a ≤ i ∧ i < a + b)) :
    Valid f (initPattern N k s) where
  size := by simp [initPattern, Nat.mul_comm]
  same := by simp [initPattern]
  row := pattern_mem.1
  col := pattern_mem.2.1
  zero := by
    intro r c hc h
    exfalso
    obtain ⟨j, -, hj⟩ := pattern_mem.2.2 _ hc
    have hN : 0 < N := c.pos
    have hlt : r.val * N + c.val < N * k := by
      calc r.val * N + c.val < r.val * N + N := by omega
        _ = (r.val + 1) * N := by rw [Nat.succ_mul]
        _ ≤ k * N := Nat.mul_le_mul_right _ r.isLt
        _ = N * k := Nat.mul_comm _ _
    have h2 : (r.val * N + c.val) % N = c.val := by
      rw [Nat.add_comm, Nat.add_mul_mod_self_right, Nat.mod_eq_of_lt c.isLt]
    simp only [initPattern, List.getElem?_map, List.getElem?_range hlt, Option.map_some, h2, Option.some.injEq] at h
    rw [hs] at h hj
    simp_all

/-! ### Jacobians -/

theorem append_deriv_left (u : Fin m → ℝ) (x : Fin n → ℝ) :
    HasFDerivAt (fun y : Fin n → ℝ => (Fin.append y u : Fin (n + m) → ℝ))
      (ContinuousLinearMap.pi fun i : Fin (n + m) =>
        Fin.addCases (fun a : Fin n => ContinuousLinearMap.proj (R := ℝ) (φ := fun _ : Fin n => ℝ) a) (fun _ => 0) i) x := by
  rw [hasFDerivAt_pi']
  intro i
  refine Fin.addCases (fun a => ?_) (fun b => ?_) i
  · simp only [Fin.append_left, ContinuousLinearMap.proj_pi, Fin.addCases_left]
    exact hasFDerivAt_apply a x
  · simp only [Fin.append_right, ContinuousLinearMap.proj_pi, Fin.addCases_right]
    exact hasFDerivAt_const _ _

theorem append_deriv_right (u : Fin m → ℝ) (x : Fin n → ℝ) :
    HasFDerivAt (fun v : Fin m → ℝ => (Fin.append x v : Fin (n + m) → ℝ))
      (ContinuousLinearMap.pi fun i : Fin (n + m) =>
        Fin.addCases (fun _ => 0) (fun a : Fin m => ContinuousLinearMap.proj (R := ℝ) (φ := fun _ : Fin m => ℝ) a) i) u := by
  rw [hasFDerivAt_pi']
  intro i
  refine Fin.addCases (fun a => ?_) (fun b => ?_) i
  · simp only [Fin.append_left, ContinuousLinearMap.proj_pi, Fin.addCases_left]
    exact hasFDerivAt_const _ _
  · simp only [Fin.append_right, ContinuousLinearMap.proj_pi, Fin.addCases_right]
    exact hasFDerivAt_apply b u

theorem record_append (f : Dyn n m) (x : Fin n → ℝ) (u : Fin m → ℝ) : record f (Fin.append x u) = f x 0 u := by
  unfold record
  simp only [Fin.append_left, Fin.append_right]

theorem jac_state {f : Dyn n m} {x : Fin n → ℝ} {u : Fin m → ℝ} {J : Matrix (Fin n) (Fin (n + m)) ℝ}
    (h : IsJac (record f) J (Fin.append x u)) :
    IsJac (fun y => f y 0 u) (Matrix.of fun i j => J i (Fin.castAdd m j)) x := by
  have h' : HasFDerivAt (record f) (jacMap J) (Fin.append x u) := h
  have := h'.comp x (append_deriv_left u x)
  simp only [Function.comp_def, record_append] at this
  refine this.congr_fderiv ?_
  ext v i
  simp [jacMap_apply, mulVec, dotProduct, Fin.sum_univ_add]

theorem jac_control {f : Dyn n m} {x : Fin n → ℝ} {u : Fin m → ℝ} {J : Matrix (Fin n) (Fin (n + m)) ℝ}
    (h : IsJac (record f) J (Fin.append x u)) :
    IsJac (fun v => f x 0 v) (Matrix.of fun i j => J i (Fin.natAdd n j)) u := by
  have h' : HasFDerivAt (record f) (jacMap J) (Fin.append x u) := h
  have := h'.comp u (append_deriv_right u x)
  simp only [Function.comp_def, record_append] at this
  refine this.congr_fderiv ?_
  ext v i
  simp [jacMap_apply, mulVec, dotProduct, Fin.sum_univ_add]

theorem exists_jac {f : Dyn n m} {x : Fin n → ℝ} {u : Fin m → ℝ}
    (h : DifferentiableAt ℝ (fun p : (Fin n → ℝ) × (Fin m → ℝ) => f p.1 0 p.2) (x, u)) :
    ∃ J, IsJac (record f) J (Fin.append x u) := by
  have h1 : DifferentiableAt ℝ (fun z : Fin (n + m) → ℝ =>
      ((fun i => z (Fin.castAdd m i), fun j => z (Fin.natAdd n j)) : (Fin n → ℝ) × (Fin m → ℝ))) (Fin.append x u) := by
    refine DifferentiableAt.prodMk ?_ ?_
    · exact differentiableAt_pi.2 fun i => differentiableAt_apply _ _
    · exact differentiableAt_pi.2 fun i => differentiableAt_apply _ _
  have h2 : DifferentiableAt ℝ (record f) (Fin.append x u) := by
    refine DifferentiableAt.comp (Fin.append x u) (g := fun p : (Fin n → ℝ) × (Fin m → ℝ) => f p.1 0 p.2) ?_ h1
    simpa only [Fin.append_left, Fin.append_right] using h
  exact ⟨Matrix.of fun i j => fderiv ℝ (fun y => record f y i) (Fin.append x u) (Pi.single j 1),
    CodeGen.isJac_rows.2 fun i => CodeGen.isGrad_of_differentiable (differentiableAt_pi.1 h2 i)⟩

/-! ### The linearizers -/

/-- The entries of a sparse Jacobian made of `b` complete columns, read as a matrix. -/
theorem sparse_block {lib : Lib N k} (hf : lib.Faithful) {f : Tape N k} {x : Fin N → ℝ} {J : Matrix (Fin k) (Fin N) ℝ}
    (hJ : IsJac f J x) (a b : ℕ) (hab : a + b ≤ N) (s : ℕ → ℕ → Bool) (hs : ∀ i j, s i j = decide (a ≤ i ∧ i < a + b))
    (i : Fin k) (j : Fin b) :
    lib.sparse f x (initPattern N k s) (j * k + i) = J i ⟨a + j, by omega⟩ := by
  obtain ⟨-, -, h⟩ := pattern_block N k a b hab s hs
  obtain ⟨hr, hc⟩ := h j i j.isLt i.isLt
  exact hf.sparse f x J _ hJ (valid_block f a b s hs) _ i ⟨a + j, by omega⟩ hr hc

theorem lt_block {a b : ℕ} (i : Fin a) (j : Fin b) : j.val * a + i.val < b * a := by
  calc j.val * a + i.val < j.val * a + a := by omega
    _ = (j.val + 1) * a := by rw [Nat.succ_mul]
    _ ≤ b * a := Nat.mul_le_mul_right _ j.isLt

theorem hsA (n : ℕ) (i j : ℕ) : (fun i _ => decide (i < n) : ℕ → ℕ → Bool) i j = decide (0 ≤ i ∧ i < 0 + n) := by simp

/-- The pattern of `B`, with rows beyond the matrix left out. -/
def patB (n m : ℕ) : ℕ → ℕ → Bool := fun i _ => decide (n ≤ i ∧ i < n + m)

theorem initPattern_congr {rows cols : ℕ} {s s' : ℕ → ℕ → Bool} (h : ∀ i, i < rows → ∀ j, s i j = s' i j) :
    initPattern rows cols s = initPattern rows cols s' := by
  have h1 : ((List.range rows).flatMap fun i => ((List.range cols).filter fun j => s i j).map fun j => (j, i))
      = (List.range rows).flatMap fun i => ((List.range cols).filter fun j => s' i j).map fun j => (j, i) := by
    refine List.flatMap_congr fun i hi => ?_
    simp only [h i (List.mem_range.1 hi)]
  have h2 : ((List.range (rows * cols)).map fun i => s (i % rows) (i / rows))
      = (List.range (rows * cols)).map fun i => s' (i % rows) (i / rows) := by
    refine List.map_congr_left fun i hi => h _ (Nat.mod_lt _ ?_) _
    rcases Nat.eq_zero_or_pos rows with hr | hr
    · have := List.mem_range.1 hi; rw [hr] at this; omega
    · exact hr
  unfold initPattern
  simp only [h1, h2]

theorem setupB_eq (n m : ℕ) : setupSparsityB n m = initPattern (n + m) n (patB n m) :=
  initPattern_congr fun i hi _ => by simp [patB, hi]

/-- The matrices a linearizer has to return for the recorded function `f` with Jacobian `J`. -/
def stateBlock (J : Matrix (Fin n) (Fin (n + m)) ℝ) : Matrix (Fin n) (Fin n) ℝ := Matrix.of fun i j => J i (Fin.castAdd m j)

def controlBlock (J : Matrix (Fin n) (Fin (n + m)) ℝ) : Matrix (Fin n) (Fin m) ℝ := Matrix.of fun i j => J i (Fin.natAdd n j)

/-- A linearizer `DynamicsLinearizerAD` of `f` at any time of its life. -/
structure GoodAD (f : Dyn n m) (l : AD n m) : Prop where
  tape : l.tape = record f
  patA : l.sparsityA = setupSparsityA n m
  patB : l.sparsityB = setupSparsityB n m
  workA : l.workA = none ∨ l.workA = some (setupSparsityA n m)
  workB : l.workB = none ∨ l.workB = some (setupSparsityB n m)

theorem goodAD_new (f : Dyn n m) : GoodAD f (AD.new f) := ⟨rfl, rfl, rfl, .inl rfl, .inl rfl⟩

theorem sparseJacobian_eq (lib : Lib N k) (f : Tape N k) (x : Fin N → ℝ) (p : Pattern) {w : Option Pattern}
    (hw : w = none ∨ w = some p) :
    sparseJacobian lib f x p w = .ok ((List.range p.row.length).map (lib.sparse f x p), some p) := by
  rcases hw with rfl | rfl <;> simp [sparseJacobian]

theorem adState (lib : Lib (n + m) n) {f : Dyn n m} {l : AD n m} (h : GoodAD f l) (x : Fin n → ℝ) (u : Fin m → ℝ) (t : ℝ) :
    ∃ A l', l.getDerivativeState lib x u t = .ok (A, l') ∧ GoodAD f l' ∧
      (lib.Faithful → ∀ J, IsJac (record f) J (Fin.append x u) → A = stateBlock J) := by
  have hlen : (setupSparsityA n m).row.length = n * n := (pattern_block (n + m) n 0 n (by omega) _ (hsA n)).1
  unfold AD.getDerivativeState
  rw [h.patA, h.tape, sparseJacobian_eq _ _ _ _ h.workA]
  simp only [Res.ok_bind, List.length_map, List.length_range, hlen, if_true]
  refine ⟨_, _, rfl, ⟨rfl, rfl, h.patB, .inr rfl, h.workB⟩, fun hf J hJ => ?_⟩
  ext i j
  have hlt : j.val * n + i.val < n * n := lt_block i j
  simp only [colMajor, of_apply, stateBlock]
  rw [List.getD_eq_getElem?_getD, List.getElem?_map, List.getElem?_range hlt]
  have := sparse_block hf hJ 0 n (by omega) _ (hsA n) i j
  simp only [Option.map_some, Option.getD_some]
  refine this.trans ?_
  congr 1
  exact Fin.ext (by simp)

theorem adControl (lib : Lib (n + m) n) {f : Dyn n m} {l : AD n m} (h : GoodAD f l) (x : Fin n → ℝ) (u : Fin m → ℝ)
    (t : ℝ) :
    ∃ B l', l.getDerivativeControl lib x u t = .ok (B, l') ∧ GoodAD f l' ∧
      (lib.Faithful → ∀ J, IsJac (record f) J (Fin.append x u) → B = controlBlock J) := by
  have hlen : (setupSparsityB n m).row.length = n * m := by
    rw [setupB_eq, (pattern_block (n + m) n n m le_rfl (patB n m) (fun _ _ => rfl)).1, Nat.mul_comm]
  unfold AD.getDerivativeControl
  rw [h.patB, h.tape, sparseJacobian_eq _ _ _ _ h.workB]
  simp only [Res.ok_bind, List.length_map, List.length_range, hlen, if_true]
  refine ⟨_, _, rfl, ⟨rfl, h.patA, rfl, h.workA, .inr rfl⟩, fun hf J hJ => ?_⟩
  ext i j
  have hlt : j.val * n + i.val < n * m := by rw [Nat.mul_comm n m]; exact lt_block i j
  simp only [colMajor, of_apply, controlBlock]
  rw [List.getD_eq_getElem?_getD, List.getElem?_map, List.getElem?_range hlt]
  simp only [Option.map_some, Option.getD_some]
  rw [setupB_eq]
  exact sparse_block hf hJ n m le_rfl (patB n m) (fun _ _ => rfl) i j

/-- The cached matrices belong to the point of the cache, unless it is the random one of the beginning. -/
def CacheOk (lib : Lib (n + m) n) (f : Dyn n m) (xr : Fin n → ℝ) (ur : Fin m → ℝ) (c : CG n m) : Prop :=
  (c.xCache = xr ∧ c.uCache = ur) ∨
  (lib.Faithful → ∀ J, IsJac (record f) J (Fin.append c.xCache c.uCache) → c.dFdx = stateBlock J ∧ c.dFdu = controlBlock J)

/-- A linearizer `DynamicsLinearizerADCG` of `f` at any time of its life. -/
structure GoodCG (lib : Lib (n + m) n) (f : Dyn n m) (xr : Fin n → ℝ) (ur : Fin m → ℝ) (c : CG n m) : Prop where
  tape : c.model = none ∧ c.tape = record f ∨ c.model = some (record f)
  cache : CacheOk lib f xr ur c

theorem goodCG_new (lib : Lib (n + m) n) (f : Dyn n m) (b : Bool) (xr : Fin n → ℝ) (ur : Fin m → ℝ) :
    GoodCG lib f xr ur (CG.new f b xr ur) := ⟨.inl ⟨rfl, rfl⟩, .inl ⟨rfl, rfl⟩⟩

theorem computeJacobian_ok {lib : Lib (n + m) n} (c : CG n m) {f : Dyn n m} (x : Fin n → ℝ) (u : Fin m → ℝ)
    (hf : lib.Faithful) {J : Matrix (Fin n) (Fin (n + m)) ℝ} (hJ : IsJac (record f) J (Fin.append x u)) :
    (c.computeJacobian lib (record f) x u).dFdx = stateBlock J ∧
    (c.computeJacobian lib (record f) x u).dFdu = controlBlock J := by
  constructor
  · ext i j
    exact hf.dense _ _ _ hJ i (Fin.castAdd m j)
  · ext i j
    exact hf.dense _ _ _ hJ i (Fin.natAdd n j)

theorem goodCG_refresh {lib : Lib (n + m) n} {f : Dyn n m} {xr : Fin n → ℝ} {ur : Fin m → ℝ} {c c' : CG n m}
    (h : GoodCG lib f xr ur c) {x : Fin n → ℝ} {u : Fin m → ℝ} (hr : c.refresh lib x u = .ok c') :
    GoodCG lib f xr ur c' ∧ c'.model = c.model ∧
      (lib.Faithful → (x, u) ≠ (xr, ur) → ∀ J, IsJac (record f) J (Fin.append x u) →
        c'.dFdx = stateBlock J ∧ c'.dFdu = controlBlock J) := by
  unfold CG.refresh at hr
  rcases h.tape with ⟨h1, -⟩ | h1
  · rw [h1] at hr; cases hr
  · rw [h1] at hr
    simp only [Res.ok.injEq] at hr
    subst hr
    by_cases hc : c.cacheJac = false ∨ x ≠ c.xCache ∨ u ≠ c.uCache
    · rw [if_pos hc]
      exact ⟨⟨.inr h1, .inr fun hf J hJ => computeJacobian_ok c x u hf hJ⟩, rfl,
        fun hf _ J hJ => computeJacobian_ok c x u hf hJ⟩
    · rw [if_neg hc]
      refine ⟨h, rfl, fun hf hne J hJ => ?_⟩
      have hx : x = c.xCache := by by_contra hh; exact hc (.inr (.inl hh))
      have hu : u = c.uCache := by by_contra hh; exact hc (.inr (.inr hh))
      rcases h.cache with ⟨h2, h3⟩ | h2
      · exact absurd (by rw [hx, hu, h2, h3]) hne
      · exact h2 hf J (hx ▸ hu ▸ hJ)

theorem goodCG_compile {lib : Lib (n + m) n} {f : Dyn n m} {xr : Fin n → ℝ} {ur : Fin m → ℝ} {c : CG n m}
    (h : GoodCG lib f xr ur c) : GoodCG lib f xr ur c.compileJIT ∧ c.compileJIT.model = some (record f) := by
  unfold CG.compileJIT
  rcases h.tape with ⟨h1, h2⟩ | h1
  · rw [h1]
    exact ⟨⟨.inr (by simp [h2]), h.cache⟩, by simp [h2]⟩
  · rw [h1]
    exact ⟨h, h1⟩

/-! ### Histories -/

/-- A linear system made from `f`, at any time of its life. -/
inductive Good (lib : Lib (n + m) n) (f : Dyn n m) (xr : Fin n → ℝ) (ur : Fin m → ℝ) : Core n m → Prop where
  | ad (c : AD n m) (h : GoodAD f c) : Good lib f xr ur (.ad c)
  | cg (c : CG n m) (h : GoodCG lib f xr ur c) : Good lib f xr ur (.cg c)

/-- It can answer. -/
def Ready : Core n m → Prop
  | .ad _ => True
  | .cg c => c.model.isSome = true

theorem idx_some {α : Type} {l : List α} {i : ℕ} {a : α} (h : l[i]? = some a) : idx l i = .ok a := by
  unfold idx; rw [h]

theorem idx_ok {α : Type} {l : List α} {i : ℕ} {a : α} (h : idx l i = .ok a) : l[i]? = some a := by
  unfold idx at h
  cases hh : l[i]? with
  | none => rw [hh] at h; cases h
  | some b => rw [hh] at h; simp at h; rw [h]

theorem lin_ok {w : World n m} {l : ℕ} {a : Lin n m} : w.lin l = .ok a ↔ w.lins[l]? = some (some a) := by
  unfold World.lin
  constructor
  · intro h
    obtain ⟨o, h1, h2⟩ := Res.bind_eq_ok.1 h
    cases o with
    | none => cases h2
    | some b => simp only [Res.ok.injEq] at h2; subst h2; exact idx_ok h1
  · intro h
    rw [idx_some h]; rfl

theorem get_append {α : Type} {l l' : List α} {i : ℕ} {a : α} (h : l[i]? = some a) : (l ++ l')[i]? = some a := by
  rw [List.getElem?_append_left (by by_contra hh; rw [List.getElem?_eq_none (by omega)] at h; cases h), h]

theorem get_set {α : Type} {l : List α} {i j : ℕ} {a b : α} (h : l[i]? = some a) :
    (l.set j b)[i]? = some (if j = i then b else a) := by
  have hlt : i < l.length := by by_contra hh; rw [List.getElem?_eq_none (by omega)] at h; cases h
  rw [List.getElem?_set]
  by_cases hji : j = i
  · subst hji; simp [hlt]
  · simp [hji, h]

theorem getState_ok {lib : Lib (n + m) n} {w : World n m} {l : ℕ} {x : Fin n → ℝ} {u : Fin m → ℝ} {t : ℝ}
    {a : Lin n m} (ha : w.lins[l]? = some (some a)) {r : Matrix (Fin n) (Fin n) ℝ × World n m}
    (h : w.getDerivativeState lib l x u t = .ok r) :
    ∃ c', r.2 = { w with lins := w.lins.set l (some { a with core := c' }) } ∧
      ((∃ d r', a.core = .ad d ∧ d.getDerivativeState lib x u t = .ok r' ∧ r.1 = r'.1 ∧ c' = .ad r'.2) ∨
       (∃ d d', a.core = .cg d ∧ d.refresh lib x u = .ok d' ∧ r.1 = d'.dFdx ∧ c' = .cg d')) := by
  unfold World.getDerivativeState at h
  rw [lin_ok.2 ha, Res.ok_bind] at h
  obtain ⟨s, f, c⟩ := a
  cases c with
  | ad d =>
    obtain ⟨r', h1, h2⟩ := Res.bind_eq_ok.1 h
    simp only [Res.ok.injEq] at h2
    subst h2
    exact ⟨_, rfl, .inl ⟨d, r', rfl, h1, rfl, rfl⟩⟩
  | cg d =>
    obtain ⟨r', h1, h2⟩ := Res.bind_eq_ok.1 h
    simp only [Res.ok.injEq] at h2
    subst h2
    obtain ⟨d', h3, h4⟩ := Res.bind_eq_ok.1 h1
    simp only [Res.ok.injEq] at h4
    subst h4
    exact ⟨_, rfl, .inr ⟨d, d', rfl, h3, rfl, rfl⟩⟩

theorem getControl_ok {lib : Lib (n + m) n} {w : World n m} {l : ℕ} {x : Fin n → ℝ} {u : Fin m → ℝ} {t : ℝ}
    {a : Lin n m} (ha : w.lins[l]? = some (some a)) {r : Matrix (Fin n) (Fin m) ℝ × World n m}
    (h : w.getDerivativeControl lib l x u t = .ok r) :
    ∃ c', r.2 = { w with lins := w.lins.set l (some { a with core := c' }) } ∧
      ((∃ d r', a.core = .ad d ∧ d.getDerivativeControl lib x u t = .ok r' ∧ r.1 = r'.1 ∧ c' = .ad r'.2) ∨
       (∃ d d', a.core = .cg d ∧ d.refresh lib x u = .ok d' ∧ r.1 = d'.dFdu ∧ c' = .cg d')) := by
  unfold World.getDerivativeControl at h
  rw [lin_ok.2 ha, Res.ok_bind] at h
  obtain ⟨s, f, c⟩ := a
  cases c with
  | ad d =>
    obtain ⟨r', h1, h2⟩ := Res.bind_eq_ok.1 h
    simp only [Res.ok.injEq] at h2
    subst h2
    exact ⟨_, rfl, .inl ⟨d, r', rfl, h1, rfl, rfl⟩⟩
  | cg d =>
    obtain ⟨r', h1, h2⟩ := Res.bind_eq_ok.1 h
    simp only [Res.ok.injEq] at h2
    subst h2
    obtain ⟨d', h3, h4⟩ := Res.bind_eq_ok.1 h1
    simp only [Res.ok.injEq] at h4
    subst h4
    exact ⟨_, rfl, .inr ⟨d, d', rfl, h3, rfl, rfl⟩⟩

/-- Queries keep a good linear system good and ready. -/
theorem good_state {lib : Lib (n + m) n} {f : Dyn n m} {xr : Fin n → ℝ} {ur : Fin m → ℝ} {c c' : Core n m}
    {x : Fin n → ℝ} {u : Fin m → ℝ} {t : ℝ} {A : Matrix (Fin n) (Fin n) ℝ} (hg : Good lib f xr ur c)
    (h : (∃ d r', c = .ad d ∧ d.getDerivativeState lib x u t = .ok r' ∧ A = r'.1 ∧ c' = .ad r'.2) ∨
       (∃ d d', c = .cg d ∧ d.refresh lib x u = .ok d' ∧ A = d'.dFdx ∧ c' = .cg d')) :
    Good lib f xr ur c' ∧ (Ready c ↔ Ready c') ∧
      (lib.Faithful → ((∃ d, c = .ad d) ∨ (x, u) ≠ (xr, ur)) → ∀ J, IsJac (record f) J (Fin.append x u) →
        A = stateBlock J) := by
  rcases h with ⟨d, r', rfl, h1, rfl, rfl⟩ | ⟨d, d', rfl, h1, rfl, rfl⟩
  · cases hg with
    | ad _ hd =>
      obtain ⟨A, l', h2, h3, h4⟩ := adState lib hd x u t
      rw [h1] at h2
      cases h2
      exact ⟨.ad _ h3, ⟨fun _ => trivial, fun _ => trivial⟩, fun hf _ J hJ => h4 hf J hJ⟩
  · cases hg with
    | cg _ hd =>
      obtain ⟨h2, h3, h4⟩ := goodCG_refresh hd h1
      refine ⟨.cg _ h2, ?_, fun hf hne J hJ => ?_⟩
      · show d.model.isSome = true ↔ d'.model.isSome = true
        rw [h3]
      · rcases hne with ⟨_, h5⟩ | h5
        · cases h5
        · exact (h4 hf h5 J hJ).1

theorem good_control {lib : Lib (n + m) n} {f : Dyn n m} {xr : Fin n → ℝ} {ur : Fin m → ℝ} {c c' : Core n m}
    {x : Fin n → ℝ} {u : Fin m → ℝ} {t : ℝ} {B : Matrix (Fin n) (Fin m) ℝ} (hg : Good lib f xr ur c)
    (h : (∃ d r', c = .ad d ∧ d.getDerivativeControl lib x u t = .ok r' ∧ B = r'.1 ∧ c' = .ad r'.2) ∨
       (∃ d d', c = .cg d ∧ d.refresh lib x u = .ok d' ∧ B = d'.dFdu ∧ c' = .cg d')) :
    Good lib f xr ur c' ∧ (Ready c ↔ Ready c') ∧
      (lib.Faithful → ((∃ d, c = .ad d) ∨ (x, u) ≠ (xr, ur)) → ∀ J, IsJac (record f) J (Fin.append x u) →
        B = controlBlock J) := by
  rcases h with ⟨d, r', rfl, h1, rfl, rfl⟩ | ⟨d, d', rfl, h1, rfl, rfl⟩
  · cases hg with
    | ad _ hd =>
      obtain ⟨A, l', h2, h3, h4⟩ := adControl lib hd x u t
      rw [h1] at h2
      cases h2
      exact ⟨.ad _ h3, ⟨fun _ => trivial, fun _ => trivial⟩, fun hf _ J hJ => h4 hf J hJ⟩
  · cases hg with
    | cg _ hd =>
      obtain ⟨h2, h3, h4⟩ := goodCG_refresh hd h1
      refine ⟨.cg _ h2, ?_, fun hf hne J hJ => ?_⟩
      · show d.model.isSome = true ↔ d'.model.isSome = true
        rw [h3]
      · rcases hne with ⟨_, h5⟩ | h5
        · cases h5
        · exact (h4 hf h5 J hJ).2

/-- The kind of a linear system does not change. -/
def IsAD : Core n m → Bool
  | .ad _ => true
  | .cg _ => false

/-- One call keeps every linear system but a destroyed one. -/
theorem step_at {lib : Lib (n + m) n} {f : Dyn n m} {xr : Fin n → ℝ} {ur : Fin m → ℝ} {w w' : World n m} {op : Op n m}
    {l s r : ℕ} {c : Core n m} (hc : w.lins[l]? = some (some ⟨s, r, c⟩)) (hg : Good lib f xr ur c)
    (hop : op ≠ .destroy l) (h : w.step lib op = .ok w') :
    ∃ c', w'.lins[l]? = some (some ⟨s, r, c'⟩) ∧ Good lib f xr ur c' ∧ (Ready c ∨ op = .compileJIT l → Ready c') ∧ (op ≠ .compileJIT l → Ready c' → Ready c) ∧
      IsAD c' = IsAD c := by
  have keep : w'.lins[l]? = some (some ⟨s, r, c⟩) → op ≠ .compileJIT l →
      ∃ c', w'.lins[l]? = some (some ⟨s, r, c'⟩) ∧ Good lib f xr ur c' ∧ (Ready c ∨ op = .compileJIT l → Ready c') ∧ (op ≠ .compileJIT l → Ready c' → Ready c) ∧
        IsAD c' = IsAD c :=
    fun h1 h2 => ⟨c, h1, hg, fun h3 => h3.resolve_right h2, fun _ h => h, rfl⟩
  cases op with
  | newSystem g =>
    simp only [World.step, Res.ok.injEq] at h
    subst h
    exact keep hc (by simp)
  | changeSystem j g =>
    obtain ⟨a, -, h2⟩ := Res.bind_eq_ok.1 h
    split at h2 <;> cases h2
    exact keep hc (by simp)
  | releaseSystem j =>
    obtain ⟨a, -, h2⟩ := Res.bind_eq_ok.1 h
    cases h2
    exact keep hc (by simp)
  | newAD j =>
    obtain ⟨a, -, h2⟩ := Res.bind_eq_ok.1 h
    cases h2
    exact keep (get_append hc) (by simp)
  | newCG j b x u =>
    obtain ⟨a, -, h2⟩ := Res.bind_eq_ok.1 h
    cases h2
    exact keep (get_append hc) (by simp)
  | compileJIT j =>
    obtain ⟨a, h1, h2⟩ := Res.bind_eq_ok.1 h
    have h1 := lin_ok.1 h1
    obtain ⟨s', r', c'⟩ := a
    cases c' with
    | ad d =>
      simp only [Res.ok.injEq] at h2
      subst h2
      by_cases hj : j = l
      · subst hj
        rw [hc] at h1
        cases h1
        exact ⟨_, hc, hg, fun _ => trivial, fun _ _ => trivial, rfl⟩
      · exact keep hc (by simp [hj])
    | cg d =>
      simp only [Res.ok.injEq] at h2
      subst h2
      have h3 := get_set (j := j) (b := some (⟨s', r', .cg d.compileJIT⟩ : Lin n m)) hc
      by_cases hj : j = l
      · subst hj
        rw [hc] at h1
        cases h1
        rw [if_pos rfl] at h3
        cases hg with
        | cg _ hd =>
          obtain ⟨h4, h5⟩ := goodCG_compile hd
          exact ⟨_, h3, .cg _ h4, fun _ => by show (CG.compileJIT d).model.isSome = true; rw [h5]; rfl, fun h => absurd rfl h, rfl⟩
      · rw [if_neg hj] at h3
        exact keep h3 (by simp [hj])
  | copy j =>
    obtain ⟨a, -, h2⟩ := Res.bind_eq_ok.1 (show w.copy j = .ok w' from h)
    obtain ⟨g, -, h3⟩ := Res.bind_eq_ok.1 h2
    obtain ⟨s', r', c'⟩ := a
    cases c' with
    | ad d => cases h3; exact keep (get_append hc) (by simp)
    | cg d =>
      obtain ⟨e, -, h4⟩ := Res.bind_eq_ok.1 h3
      cases h4
      exact keep (get_append hc) (by simp)
  | destroy j =>
    obtain ⟨a, -, h2⟩ := Res.bind_eq_ok.1 h
    cases h2
    have hj : j ≠ l := fun hj => hop (by rw [hj])
    exact keep (by rw [get_set hc, if_neg hj]) (by simp)
  | getDerivativeState j x u t =>
    obtain ⟨a, h1, h2⟩ := Res.bind_eq_ok.1 h
    cases h2
    by_cases hj : j = l
    · subst hj
      obtain ⟨c', h3, h4⟩ := getState_ok hc h1
      obtain ⟨h5, h6, -⟩ := good_state hg h4
      refine ⟨c', by rw [h3]; show (w.lins.set j _)[j]? = _; rw [get_set hc, if_pos rfl], h5, fun h7 => h6.1 (h7.resolve_right (by simp)),
        fun _ => h6.2, ?_⟩
      rcases h4 with ⟨_, _, rfl, -, -, rfl⟩ | ⟨_, _, rfl, -, -, rfl⟩ <;> rfl
    · unfold World.getDerivativeState at h1
      obtain ⟨a', h7, -⟩ := Res.bind_eq_ok.1 h1
      obtain ⟨c', h3, -⟩ := getState_ok (lin_ok.1 h7) (show w.getDerivativeState lib j x u t = .ok a from h1)
      exact keep (by rw [h3]; show (w.lins.set j _)[l]? = _; rw [get_set hc, if_neg hj]) (by simp)
  | getDerivativeControl j x u t =>
    obtain ⟨a, h1, h2⟩ := Res.bind_eq_ok.1 h
    cases h2
    by_cases hj : j = l
    · subst hj
      obtain ⟨c', h3, h4⟩ := getControl_ok hc h1
      obtain ⟨h5, h6, -⟩ := good_control hg h4
      refine ⟨c', by rw [h3]; show (w.lins.set j _)[j]? = _; rw [get_set hc, if_pos rfl], h5, fun h7 => h6.1 (h7.resolve_right (by simp)),
        fun _ => h6.2, ?_⟩
      rcases h4 with ⟨_, _, rfl, -, -, rfl⟩ | ⟨_, _, rfl, -, -, rfl⟩ <;> rfl
    · unfold World.getDerivativeControl at h1
      obtain ⟨a', h7, -⟩ := Res.bind_eq_ok.1 h1
      obtain ⟨c', h3, -⟩ := getControl_ok (lin_ok.1 h7) (show w.getDerivativeControl lib j x u t = .ok a from h1)
      exact keep (by rw [h3]; show (w.lins.set j _)[l]? = _; rw [get_set hc, if_neg hj]) (by simp)

theorem run_at {lib : Lib (n + m) n} {f : Dyn n m} {xr : Fin n → ℝ} {ur : Fin m → ℝ} {ops : List (Op n m)}
    {w w' : World n m} {l s r : ℕ} {c : Core n m} (hc : w.lins[l]? = some (some ⟨s, r, c⟩)) (hg : Good lib f xr ur c)
    (hop : Op.destroy l ∉ ops) (h : w.run lib ops = .ok w') :
    ∃ c', w'.lins[l]? = some (some ⟨s, r, c'⟩) ∧ Good lib f xr ur c' ∧ (Ready c ∨ Op.compileJIT l ∈ ops → Ready c') ∧
      (Op.compileJIT l ∉ ops → Ready c' → Ready c) ∧ IsAD c' = IsAD c := by
  induction ops generalizing w c with
  | nil =>
    cases h
    exact ⟨c, hc, hg, fun h => h.resolve_right (by simp), fun _ h => h, rfl⟩
  | cons op ops ih =>
    obtain ⟨w1, h1, h2⟩ := Res.bind_eq_ok.1 (show (w.step lib op >>= fun w => w.run lib ops) = .ok w' from h)
    obtain ⟨c1, h3, h4, h5, h5', h6⟩ := step_at hc hg (fun hh => hop (by simp [hh])) h1
    obtain ⟨c2, h7, h8, h9, h9', h10⟩ := ih h3 h4 (fun hh => hop (by simp [hh])) h2
    refine ⟨c2, h7, h8, fun h => ?_, fun h hr => h5' (fun hh => h (by simp [hh])) (h9' (fun hh => h (by simp [hh])) hr),
      h10.trans h6⟩
    rcases h with h | h
    · exact h9 (.inl (h5 (.inl h)))
    · rcases List.mem_cons.1 h with h | h
      · exact h9 (.inl (h5 (.inr h.symm)))
      · exact h9 (.inr h)

/-- What linear system `l` of the dynamics `f` has to answer at a point: the Jacobians with respect to state and control
(at time 0). -/
def Linearizes (lib : Lib (n + m) n) (w : World n m) (l : ℕ) (f : Dyn n m) (x : Fin n → ℝ) (u : Fin m → ℝ) (t : ℝ) : Prop :=
  (∃ A w1, w.getDerivativeState lib l x u t = .ok (A, w1) ∧ IsJac (fun y => f y 0 u) A x) ∧
  (∃ B w1, w.getDerivativeControl lib l x u t = .ok (B, w1) ∧ IsJac (fun v => f x 0 v) B u) ∧
  (∃ A B w1, w.getAandB lib l x u t = .ok ((A, B), w1) ∧ IsJac (fun y => f y 0 u) A x ∧ IsJac (fun v => f x 0 v) B u)

/-- A ready linear system answers with the Jacobians. -/
theorem answer {lib : Lib (n + m) n} (hf : lib.Faithful) {f : Dyn n m} {xr : Fin n → ℝ} {ur : Fin m → ℝ} {w : World n m}
    {l s r : ℕ} {c : Core n m} (hc : w.lins[l]? = some (some ⟨s, r, c⟩)) (hg : Good lib f xr ur c) (hr : Ready c)
    (x : Fin n → ℝ) (u : Fin m → ℝ) (t : ℝ) (hne : IsAD c = true ∨ (x, u) ≠ (xr, ur))
    (hd : DifferentiableAt ℝ (fun p : (Fin n → ℝ) × (Fin m → ℝ) => f p.1 0 p.2) (x, u)) :
    Linearizes lib w l f x u t := by
  obtain ⟨J, hJ⟩ := exists_jac hd
  have hA := jac_state hJ
  have hB := jac_control hJ
  have key : ∀ (w : World n m) (c : Core n m), w.lins[l]? = some (some ⟨s, r, c⟩) → Good lib f xr ur c → Ready c →
      (IsAD c = true ∨ (x, u) ≠ (xr, ur)) →
      (∃ w1, w.getDerivativeState lib l x u t = .ok (stateBlock J, w1)) ∧
      (∃ w1, w.getDerivativeControl lib l x u t = .ok (controlBlock J, w1)) := by
    intro w c hc hg hr hne
    have hne' : (∃ d, c = .ad d) ∨ (x, u) ≠ (xr, ur) := hne.imp_left fun h => by
      cases c with
      | ad d => exact ⟨d, rfl⟩
      | cg d => cases h
    have h1 : ∃ p, w.getDerivativeState lib l x u t = .ok p := by
      unfold World.getDerivativeState
      rw [lin_ok.2 hc, Res.ok_bind]
      cases hg with
      | ad d hd' =>
        obtain ⟨A, l', h2, -⟩ := adState lib hd' x u t
        simp only [h2, Res.ok_bind]
        exact ⟨_, rfl⟩
      | cg d hd' =>
        obtain ⟨g, hm⟩ := Option.isSome_iff_exists.1 hr
        simp only [CG.getDerivativeState, CG.refresh, hm, Res.ok_bind]
        exact ⟨_, rfl⟩
    have h2 : ∃ p, w.getDerivativeControl lib l x u t = .ok p := by
      unfold World.getDerivativeControl
      rw [lin_ok.2 hc, Res.ok_bind]
      cases hg with
      | ad d hd' =>
        obtain ⟨A, l', h2, -⟩ := adControl lib hd' x u t
        simp only [h2, Res.ok_bind]
        exact ⟨_, rfl⟩
      | cg d hd' =>
        obtain ⟨g, hm⟩ := Option.isSome_iff_exists.1 hr
        simp only [CG.getDerivativeControl, CG.refresh, hm, Res.ok_bind]
        exact ⟨_, rfl⟩
    constructor
    · obtain ⟨⟨A, w1⟩, h1⟩ := h1
      obtain ⟨c', h3, h4⟩ := getState_ok hc h1
      exact ⟨w1, by rw [h1, ← (good_state hg h4).2.2 hf hne' J hJ]⟩
    · obtain ⟨⟨A, w1⟩, h1⟩ := h2
      obtain ⟨c', h3, h4⟩ := getControl_ok hc h1
      exact ⟨w1, by rw [h1, ← (good_control hg h4).2.2 hf hne' J hJ]⟩
  obtain ⟨⟨w1, h1⟩, ⟨w2, h2⟩⟩ := key w c hc hg hr hne
  refine ⟨⟨_, _, h1, hA⟩, ⟨_, _, h2, hB⟩, ?_⟩
  have hs : w.step lib (.getDerivativeState l x u t) = .ok w1 := by simp only [World.step, h1, Res.ok_bind]
  obtain ⟨c1, h3, h4, h5, -, h6⟩ := step_at hc hg (by simp) hs
  obtain ⟨-, ⟨w3, h7⟩⟩ := key w1 c1 h3 h4 (h5 (.inl hr)) (hne.imp_left fun h => h6.trans h)
  exact ⟨stateBlock J, controlBlock J, w3, by simp only [World.getAandB, h1, h7, Res.ok_bind], hA, hB⟩

/-! ### Theorems -/

/-- C169: a linear system made by automatic differentiation answers at every point with the Jacobians of the dynamics its
system had when it was made (at time 0), whatever happened before and in between, as long as it has not been
destroyed itself. -/
theorem C169_autodiff {lib : Lib (n + m) n} (hf : lib.Faithful) {w w1 w2 : World n m} {k : ℕ} {f : Dyn n m}
    {ops : List (Op n m)} (hk : w.deref k = .ok f) (h1 : w.step lib (.newAD k) = .ok w1)
    (h2 : w1.run lib ops = .ok w2) (hl : Op.destroy w.lins.length ∉ ops) (x : Fin n → ℝ) (u : Fin m → ℝ) (t : ℝ)
    (hd : DifferentiableAt ℝ (fun p : (Fin n → ℝ) × (Fin m → ℝ) => f p.1 0 p.2) (x, u)) :
    Linearizes lib w2 w.lins.length f x u t := by
  simp only [World.step, hk, Res.ok_bind, Res.ok.injEq] at h1
  subst h1
  obtain ⟨c, h3, h4, h5, -, h6⟩ := run_at (xr := 0) (ur := 0) (l := w.lins.length) (s := k) (r := k) (c := .ad (AD.new f))
    (by simp) (.ad _ (goodAD_new f)) hl h2
  exact answer hf h3 h4 (h5 (.inl trivial)) x u t (.inl (h6.trans rfl)) hd

/-- C169, partial: the same for a linear system with generated code, once it has been compiled, at every point other than
the random one drawn at its construction. -/
theorem C169_compiled_partial {lib : Lib (n + m) n} (hf : lib.Faithful) {w w1 w2 : World n m} {k : ℕ} {f : Dyn n m}
    {cacheJac : Bool} {xr : Fin n → ℝ} {ur : Fin m → ℝ} {ops : List (Op n m)} (hk : w.deref k = .ok f)
    (h1 : w.step lib (.newCG k cacheJac xr ur) = .ok w1) (h2 : w1.run lib ops = .ok w2)
    (hl : Op.destroy w.lins.length ∉ ops) (hc : Op.compileJIT w.lins.length ∈ ops) (x : Fin n → ℝ) (u : Fin m → ℝ) (t : ℝ)
    (hne : (x, u) ≠ (xr, ur))
    (hd : DifferentiableAt ℝ (fun p : (Fin n → ℝ) × (Fin m → ℝ) => f p.1 0 p.2) (x, u)) :
    Linearizes lib w2 w.lins.length f x u t := by
  simp only [World.step, hk, Res.ok_bind, Res.ok.injEq] at h1
  subst h1
  obtain ⟨c, h3, h4, h5, -, h6⟩ := run_at (l := w.lins.length) (s := k) (r := k) (c := .cg (CG.new f true xr ur))
    (by simp) (.cg _ (goodCG_new lib f true xr ur)) hl h2
  exact answer hf h3 h4 (h5 (.inr hc)) x u t (.inr hne) hd

/-- C169: before it has been compiled, a linear system with generated code refuses to answer. -/
theorem C169_uncompiled {lib : Lib (n + m) n} {w w1 w2 : World n m} {k : ℕ} {f : Dyn n m}
    {cacheJac : Bool} {xr : Fin n → ℝ} {ur : Fin m → ℝ} {ops : List (Op n m)} (hk : w.deref k = .ok f)
    (h1 : w.step lib (.newCG k cacheJac xr ur) = .ok w1) (h2 : w1.run lib ops = .ok w2)
    (hl : Op.destroy w.lins.length ∉ ops) (hc : Op.compileJIT w.lins.length ∉ ops) (x : Fin n → ℝ) (u : Fin m → ℝ)
    (t : ℝ) :
    w2.getDerivativeState lib w.lins.length x u t = .exc ∧ w2.getDerivativeControl lib w.lins.length x u t = .exc := by
  simp only [World.step, hk, Res.ok_bind, Res.ok.injEq] at h1
  subst h1
  obtain ⟨c, h3, h4, -, h5, h6⟩ := run_at (l := w.lins.length) (s := k) (r := k) (c := .cg (CG.new f true xr ur))
    (by simp) (.cg _ (goodCG_new lib f true xr ur)) hl h2
  cases c with
  | ad d => cases h6
  | cg d =>
    have hm : d.model = none := by
      cases hd : d.model with
      | none => rfl
      | some g => exact absurd (h5 hc (by show d.model.isSome = true; rw [hd]; rfl)) (by simp [Ready, CG.new])
    constructor
    · unfold World.getDerivativeState
      rw [lin_ok.2 h3, Res.ok_bind]
      simp [CG.getDerivativeState, CG.refresh, hm]
    · unfold World.getDerivativeControl
      rw [lin_ok.2 h3, Res.ok_bind]
      simp [CG.getDerivativeControl, CG.refresh, hm]

/-- Systems keep their dynamics unless their user changes them. -/
theorem step_sys {lib : Lib (n + m) n} {w w' : World n m} {op : Op n m} {k : ℕ} {f : Dyn n m}
    (hk : w.syss[k]?.map (·.1) = some f) (hop : ∀ g, op ≠ .changeSystem k g) (h : w.step lib op = .ok w') :
    w'.syss[k]?.map (·.1) = some f := by
  obtain ⟨⟨f', b⟩, hs, rfl⟩ := Option.map_eq_some_iff.1 hk
  cases op with
  | newSystem g => cases h; rw [get_append hs]; rfl
  | changeSystem j g =>
    obtain ⟨a, -, h2⟩ := Res.bind_eq_ok.1 h
    split at h2 <;> cases h2
    have hj : j ≠ k := fun hj => hop g (by rw [hj])
    show (w.syss.set j _)[k]?.map _ = _
    rw [get_set hs, if_neg hj]; rfl
  | releaseSystem j =>
    obtain ⟨a, h1, h2⟩ := Res.bind_eq_ok.1 h
    cases h2
    have h1 := idx_ok h1
    show (w.syss.set j _)[k]?.map _ = _
    rw [get_set hs]
    by_cases hj : j = k
    · subst hj
      rw [hs] at h1; cases h1
      rw [if_pos rfl]; rfl
    · rw [if_neg hj]; rfl
  | newAD j =>
    obtain ⟨a, -, h2⟩ := Res.bind_eq_ok.1 h
    cases h2; exact hk
  | newCG j b x u =>
    obtain ⟨a, -, h2⟩ := Res.bind_eq_ok.1 h
    cases h2; exact hk
  | compileJIT j =>
    obtain ⟨⟨s', r', c'⟩, -, h2⟩ := Res.bind_eq_ok.1 h
    cases c' <;> (cases h2; exact hk)
  | copy j =>
    obtain ⟨⟨s', r', c'⟩, -, h2⟩ := Res.bind_eq_ok.1 (show w.copy j = .ok w' from h)
    obtain ⟨g, -, h3⟩ := Res.bind_eq_ok.1 h2
    cases c' with
    | ad d => cases h3; show (w.syss ++ _)[k]?.map _ = _; rw [get_append hs]; rfl
    | cg d =>
      obtain ⟨e, -, h4⟩ := Res.bind_eq_ok.1 h3
      cases h4; show (w.syss ++ _)[k]?.map _ = _; rw [get_append hs]; rfl
  | destroy j =>
    obtain ⟨a, -, h2⟩ := Res.bind_eq_ok.1 h
    cases h2; exact hk
  | getDerivativeState j x u t =>
    obtain ⟨a, h1, h2⟩ := Res.bind_eq_ok.1 h
    cases h2
    obtain ⟨a', h7, -⟩ := Res.bind_eq_ok.1 (by unfold World.getDerivativeState at h1; exact h1)
    obtain ⟨c', h3, -⟩ := getState_ok (lin_ok.1 h7) h1
    rw [h3]; exact hk
  | getDerivativeControl j x u t =>
    obtain ⟨a, h1, h2⟩ := Res.bind_eq_ok.1 h
    cases h2
    obtain ⟨a', h7, -⟩ := Res.bind_eq_ok.1 (by unfold World.getDerivativeControl at h1; exact h1)
    obtain ⟨c', h3, -⟩ := getControl_ok (lin_ok.1 h7) h1
    rw [h3]; exact hk

theorem run_sys {lib : Lib (n + m) n} {ops : List (Op n m)} {w w' : World n m} {k : ℕ} {f : Dyn n m}
    (hk : w.syss[k]?.map (·.1) = some f) (hop : ∀ g, Op.changeSystem k g ∉ ops) (h : w.run lib ops = .ok w') :
    w'.syss[k]?.map (·.1) = some f := by
  induction ops generalizing w with
  | nil => cases h; exact hk
  | cons op ops ih =>
    obtain ⟨w1, h1, h2⟩ := Res.bind_eq_ok.1 (show (w.step lib op >>= fun w => w.run lib ops) = .ok w' from h)
    exact ih (step_sys hk (fun g hg => hop g (by simp [hg])) h1) (fun g hg => hop g (by simp [hg])) h2

theorem deref_ok {w : World n m} {k : ℕ} {f : Dyn n m} (h : w.deref k = .ok f) : w.syss[k]?.map (·.1) = some f := by
  unfold World.deref at h
  split at h
  · obtain ⟨s, h1, h2⟩ := Res.bind_eq_ok.1 h
    cases h2
    rw [idx_ok h1]; rfl
  · cases h

/-- A linear system keeps the system it holds alive. -/
theorem deref_held {w : World n m} {l k r : ℕ} {c : Core n m} {f : Dyn n m} (h : w.lins[l]? = some (some ⟨k, r, c⟩))
    (hk : w.syss[k]?.map (·.1) = some f) : w.deref k = .ok f := by
  obtain ⟨⟨f', b⟩, hs, rfl⟩ := Option.map_eq_some_iff.1 hk
  have ha : w.alive k = true := by
    unfold World.alive
    rw [Bool.or_eq_true, List.any_eq_true]
    exact .inr ⟨_, List.mem_of_getElem? h, by simp⟩
  unfold World.deref
  rw [if_pos ha, idx_some hs]; rfl

/-- C169: a copy of a linear system made by automatic differentiation linearises the dynamics the system has when it is
copied, whatever is done afterwards to anything else. -/
theorem C169_copy_autodiff {lib : Lib (n + m) n} (hf : lib.Faithful) {w w1 w2 : World n m} {k : ℕ} {f g : Dyn n m}
    {ops : List (Op n m)} (hk : w.deref k = .ok f) (h1 : w.step lib (.newAD k) = .ok w1)
    (h2 : w1.run lib ops = .ok w2) (hl : Op.destroy w.lins.length ∉ ops) (hg : w2.syss[k]?.map (·.1) = some g) :
    ∃ w3, w2.step lib (.copy w.lins.length) = .ok w3 ∧
      ∀ (ops' : List (Op n m)) (w4 : World n m), w3.run lib ops' = .ok w4 → Op.destroy w2.lins.length ∉ ops' →
        ∀ (x : Fin n → ℝ) (u : Fin m → ℝ) (t : ℝ),
          DifferentiableAt ℝ (fun p : (Fin n → ℝ) × (Fin m → ℝ) => g p.1 0 p.2) (x, u) →
          Linearizes lib w4 w2.lins.length g x u t := by
  simp only [World.step, hk, Res.ok_bind, Res.ok.injEq] at h1
  subst h1
  obtain ⟨c, h3, h4, h5, -, h6⟩ := run_at (xr := 0) (ur := 0) (l := w.lins.length) (s := k) (r := k) (c := .ad (AD.new f))
    (by simp) (.ad _ (goodAD_new f)) hl h2
  cases c with
  | cg d => cases h6
  | ad d =>
    refine ⟨⟨w2.syss ++ [(g, false)], w2.lins ++ [some ⟨w2.syss.length, w2.syss.length, .ad (AD.new g)⟩]⟩, ?_, ?_⟩
    · show w2.copy _ = _
      unfold World.copy
      rw [lin_ok.2 h3, Res.ok_bind]
      simp only [deref_held h3 hg, Res.ok_bind]
    · intro ops' w4 h7 h8 x u t hd
      obtain ⟨c, h9, h10, h11, -, h12⟩ := run_at (xr := 0) (ur := 0) (l := w2.lins.length) (s := w2.syss.length)
        (r := w2.syss.length) (c := .ad (AD.new g)) (by simp) (.ad _ (goodAD_new g)) h8 h7
      exact answer hf h9 h10 (h11 (.inl trivial)) x u t (.inl (h12.trans rfl)) hd

/-- C169, partial: a copy of a linear system with generated code linearises the same dynamics as the original, provided that
the system has not been changed in between, whatever is done afterwards to anything else. -/
theorem C169_copy_compiled_partial {lib : Lib (n + m) n} (hf : lib.Faithful) {w w1 w2 : World n m} {k : ℕ} {f : Dyn n m}
    {cacheJac : Bool} {xr : Fin n → ℝ} {ur : Fin m → ℝ} {ops : List (Op n m)} (hk : w.deref k = .ok f)
    (h1 : w.step lib (.newCG k cacheJac xr ur) = .ok w1) (h2 : w1.run lib ops = .ok w2)
    (hl : Op.destroy w.lins.length ∉ ops) (hg : ∀ g, Op.changeSystem k g ∉ ops) :
    ∃ w3, w2.step lib (.copy w.lins.length) = .ok w3 ∧
      ∀ (ops' : List (Op n m)) (w4 : World n m), w3.run lib ops' = .ok w4 → Op.destroy w2.lins.length ∉ ops' →
        Op.compileJIT w.lins.length ∈ ops ∨ Op.compileJIT w2.lins.length ∈ ops' →
        ∀ (x : Fin n → ℝ) (u : Fin m → ℝ) (t : ℝ), (x, u) ≠ (xr, ur) →
          DifferentiableAt ℝ (fun p : (Fin n → ℝ) × (Fin m → ℝ) => f p.1 0 p.2) (x, u) →
          Linearizes lib w4 w2.lins.length f x u t := by
  simp only [World.step, hk, Res.ok_bind, Res.ok.injEq] at h1
  subst h1
  obtain ⟨c, h3, h4, h5, -, h6⟩ := run_at (l := w.lins.length) (s := k) (r := k) (c := .cg (CG.new f true xr ur))
    (by simp) (.cg _ (goodCG_new lib f true xr ur)) hl h2
  have hs : w2.syss[k]?.map (·.1) = some f := by
    refine run_sys ?_ hg h2
    exact deref_ok (w := w) hk
  cases h4 with
  | ad d _ => cases h6
  | cg d hd =>
    have hgood : GoodCG lib f xr ur (d.copy f) := by
      refine ⟨?_, hd.cache⟩
      rcases hd.tape with ⟨h7, -⟩ | h7
      · exact .inl ⟨h7, rfl⟩
      · exact .inr h7
    refine ⟨⟨w2.syss ++ [(f, false)], w2.lins ++ [some ⟨w2.syss.length, k, .cg (d.copy f)⟩]⟩, ?_, ?_⟩
    · show w2.copy _ = _
      unfold World.copy
      rw [lin_ok.2 h3, Res.ok_bind]
      simp only [deref_held h3 hs, Res.ok_bind]
    · intro ops' w4 h7 h8 hc x u t hne hdiff
      obtain ⟨c, h9, h10, h11, -, h12⟩ := run_at (l := w2.lins.length) (s := w2.syss.length)
        (r := k) (c := .cg (d.copy f)) (by simp) (.cg _ hgood) h8 h7
      refine answer hf h9 h10 (h11 (hc.imp_left fun h => ?_)) x u t (.inr hne) hdiff
      exact h5 (.inr h)

/-! ### Where the claim fails -/

/-- A system with one state and one control whose derivative is a multiple `c t` of the state. -/
def scaled (c : ℝ → ℝ) : Dyn 1 1 := fun x t _ i => c t * x i

theorem isJac_scaled (c : ℝ → ℝ) (t : ℝ) (u x : Fin 1 → ℝ) :
    IsJac (fun y => scaled c y t u) (Matrix.of fun _ _ => c t) x := by
  refine CodeGen.isJac_rows.2 fun i => ?_
  have h : HasFDerivAt (fun y : Fin 1 → ℝ => c t * y i) (c t • ContinuousLinearMap.proj (R := ℝ) (φ := fun _ : Fin 1 => ℝ) i) x :=
    (hasFDerivAt_apply i x).const_mul (c t)
  refine h.congr_fderiv ?_
  ext v
  fin_cases i
  simp [dotProduct]

theorem scaled_diff (c : ℝ → ℝ) (p : (Fin 1 → ℝ) × (Fin 1 → ℝ)) :
    DifferentiableAt ℝ (fun p : (Fin 1 → ℝ) × (Fin 1 → ℝ) => scaled c p.1 0 p.2) p := by
  unfold scaled
  fun_prop

theorem scaled_ne {A : Matrix (Fin 1) (Fin 1) ℝ} {c d : ℝ → ℝ} {s t : ℝ} {u x : Fin 1 → ℝ}
    (h : IsJac (fun y => scaled c y s u) A x) (hne : c s ≠ d t) : ¬ IsJac (fun y => scaled d y t u) A x := fun h' => by
  have h1 := CodeGen.isJac_unique h (isJac_scaled c s u x)
  have h2 := CodeGen.isJac_unique h' (isJac_scaled d t u x)
  have h3 := congrFun (congrFun (h1.symm.trans h2) 0) 0
  exact hne h3

/-- C169 violated: for a system that depends on time the Jacobian returned is that at time 0, whatever time is asked for
(`ẋ = t x` at time 1). -/
theorem C169_time_violated (lib : Lib (1 + 1) 1) (hf : lib.Faithful) (x u : Fin 1 → ℝ) :
    ∃ w A w', World.empty.run lib [.newSystem (scaled id), .newAD 0] = .ok w ∧
      w.getDerivativeState lib 0 x u 1 = .ok (A, w') ∧ ¬ IsJac (fun y => scaled id y 1 u) A x := by
  obtain ⟨⟨A, w', h1, h2⟩, -, -⟩ := C169_autodiff hf (w := ⟨[(scaled id, true)], []⟩) (k := 0) (f := scaled id) (ops := [])
    rfl rfl rfl (by simp) x u 1 (scaled_diff _ _)
  exact ⟨_, A, w', rfl, h1, scaled_ne h2 (by simp)⟩

/-- C169 violated: a linear system with generated code answers with zero matrices at the random point drawn at its
construction, also when the user has turned the cache off (`ẋ = x`). -/
theorem C169_initial_violated (lib : Lib (1 + 1) 1) (cacheJac : Bool) (x u : Fin 1 → ℝ) (t : ℝ) :
    ∃ w w', World.empty.run lib [.newSystem (scaled fun _ => 1), .newCG 0 cacheJac x u, .compileJIT 0] = .ok w ∧
      w.getDerivativeState lib 0 x u t = .ok (0, w') ∧ ¬ IsJac (fun y => scaled (fun _ => 1) y t u) 0 x := by
  have hne : ¬ IsJac (fun y => scaled (fun _ => 1) y t u) 0 x := fun h => by
    have := congrFun (congrFun (CodeGen.isJac_unique h (isJac_scaled _ t u x)) 0) 0
    simp at this
  let c : CG 1 1 := (CG.new (scaled fun _ => 1) true x u).compileJIT
  have hq : c.getDerivativeState lib x u t = .ok (0, c) := by
    simp [c, CG.getDerivativeState, CG.refresh, CG.compileJIT, CG.new]
  refine ⟨⟨[(scaled fun _ => 1, true)], [some ⟨0, 0, .cg c⟩]⟩, ⟨[(scaled fun _ => 1, true)], [some ⟨0, 0, .cg c⟩]⟩, rfl, ?_,
    hne⟩
  unfold World.getDerivativeState
  simp only [World.lin, idx, List.getElem?_cons_zero, Res.ok_bind, hq, List.set_cons_zero]

/-- C169 violated: after the user has changed the parameters of the system, the linear system goes on with the old
dynamics, while a copy of it uses the new ones. -/
theorem C169_parameters_violated (lib : Lib (1 + 1) 1) (hf : lib.Faithful) (x u : Fin 1 → ℝ) (t : ℝ) :
    ∃ w A w1 A' w2, World.empty.run lib [.newSystem (scaled fun _ => 1), .newAD 0, .changeSystem 0 (scaled fun _ => 2),
        .copy 0] = .ok w ∧
      w.getDerivativeState lib 0 x u t = .ok (A, w1) ∧ ¬ IsJac (fun y => scaled (fun _ => 2) y t u) A x ∧
      w.getDerivativeState lib 1 x u t = .ok (A', w2) ∧ A' ≠ A := by
  let w0 : World 1 1 := ⟨[(scaled fun _ => 2, true)], [some ⟨0, 0, .ad (AD.new (scaled fun _ => 1))⟩]⟩
  let w : World 1 1 := ⟨[(scaled fun _ => 2, true), (scaled fun _ => 2, false)],
    [some ⟨0, 0, .ad (AD.new (scaled fun _ => 1))⟩, some ⟨1, 1, .ad (AD.new (scaled fun _ => 2))⟩]⟩
  have hw : w0.step lib (.copy 0) = .ok w := rfl
  obtain ⟨⟨A, w1, h1, h2⟩, -, -⟩ := C169_autodiff hf (w := ⟨[(scaled fun _ => 1, true)], []⟩) (w2 := w) (k := 0)
    (f := scaled fun _ => 1) (ops := [.changeSystem 0 (scaled fun _ => 2), .copy 0])
    rfl rfl rfl (by simp) x u t (scaled_diff _ _)
  obtain ⟨w3, h3, h4⟩ := C169_copy_autodiff hf (w := ⟨[(scaled fun _ => 1, true)], []⟩) (w2 := w0) (k := 0)
    (f := scaled fun _ => 1) (g := scaled fun _ => 2) (ops := [.changeSystem 0 (scaled fun _ => 2)])
    rfl rfl rfl (by simp) rfl
  have : w3 = w := Res.ok.inj (h3.symm.trans hw)
  subst this
  obtain ⟨⟨A', w2, h5, h6⟩, -, -⟩ := h4 [] w rfl (by simp) x u t (scaled_diff _ _)
  refine ⟨w, A, w1, A', w2, rfl, h1, scaled_ne (d := fun _ => 2) (t := t) h2 (by norm_num), h5, ?_⟩
  rintro rfl
  exact scaled_ne (d := fun _ => 1) (t := 0) h6 (by norm_num) h2

/-- C169 violated: a copy of a linear system with generated code still refers to the system of the original; copying the
copy when the original and its system are gone is undefined behaviour. -/
theorem C169_dangling_violated (lib : Lib (1 + 1) 1) (f : Dyn 1 1) (cacheJac : Bool) (x u : Fin 1 → ℝ) :
    (∃ w, World.empty.run lib [.newSystem f, .newCG 0 cacheJac x u, .copy 0, .releaseSystem 0, .destroy 0] = .ok w) ∧
    World.empty.run lib [.newSystem f, .newCG 0 cacheJac x u, .copy 0, .releaseSystem 0, .destroy 0, .copy 1] = .ub :=
  ⟨⟨_, rfl⟩, rfl⟩

/-! ### Generated classes -/

/-- The expression assigned to an entry of the array, if any. -/
def entry (lib : Lib N k) (f : Tape N k) (p : Pattern) (ignoreZero : Bool) (i : ℕ) : Option ((Fin N → ℝ) → ℝ) :=
  if i < p.row.length then
    if lib.skip f p i then (if ignoreZero then none else some fun _ => 0) else some fun x => lib.sparse f x p i
  else if ignoreZero then none else some fun _ => 0

theorem source_eq (lib : Lib N k) (f : Tape N k) (p : Pattern) (jacDim : ℕ) (b : Bool) :
    generateJacobianSource lib f p jacDim b = (List.range jacDim).filterMap fun i => (entry lib f p b i).map fun e => (i, e) := by
  unfold generateJacobianSource
  refine List.filterMap_congr fun i _ => ?_
  unfold entry
  split_ifs <;> rfl

theorem run_source (e : ℕ → Option ((Fin N → ℝ) → ℝ)) (jacDim : ℕ) (jac : ℕ → ℝ) (x : Fin N → ℝ) (i : ℕ) :
    runCode ((List.range jacDim).filterMap fun i => (e i).map fun a => (i, a)) jac x i
      = if i < jacDim then (match e i with | some a => a x | none => jac i) else jac i := by
  induction jacDim generalizing i with
  | zero => simp [runCode]
  | succ d ih =>
    have ih' := ih
    unfold runCode at ih' ⊢
    rw [List.range_succ, List.filterMap_append, List.foldl_append]
    cases hd : e d with
    | none =>
      simp only [List.filterMap_cons, List.filterMap_nil, hd, Option.map_none, List.foldl_nil, ih' i]
      by_cases h : i = d
      · subst h; simp [hd]
      · simp [show i < d + 1 ↔ i < d by omega]
    | some a =>
      simp only [List.filterMap_cons, List.filterMap_nil, hd, Option.map_some, List.foldl_cons, List.foldl_nil]
      by_cases h : i = d
      · subst h; simp [hd]
      · rw [Function.update_of_ne h, ih' i]
        simp [show i < d + 1 ↔ i < d by omega]

/-- An entry that is not assigned stays zero. -/
theorem calls_none (e : ℕ → Option ((Fin N → ℝ) → ℝ)) (jacDim : ℕ) (xs : List (Fin N → ℝ)) {i : ℕ} (hi : e i = none) :
    calls ((List.range jacDim).filterMap fun i => (e i).map fun a => (i, a)) xs i = 0 := by
  unfold calls
  suffices h : ∀ jac : ℕ → ℝ, jac i = 0 →
      xs.foldl (runCode ((List.range jacDim).filterMap fun i => (e i).map fun a => (i, a))) jac i = 0 from h _ rfl
  induction xs with
  | nil => intro jac h; exact h
  | cons y ys ih =>
    intro jac h
    refine ih _ ?_
    rw [run_source, hi]
    simp [h]

theorem calls_append (src : List (ℕ × ((Fin N → ℝ) → ℝ))) (xs : List (Fin N → ℝ)) (x : Fin N → ℝ) :
    calls src (xs ++ [x]) = runCode src (calls src xs) x := by
  unfold calls; rw [List.foldl_append]; rfl

/-- After any history of calls, the array holds the entries of the Jacobian at the last point. -/
theorem calls_last {lib : Lib N k} (hf : lib.Faithful) {f : Tape N k} {p : Pattern} (hv : Valid f p) (jacDim : ℕ) (b : Bool)
    (xs : List (Fin N → ℝ)) (x : Fin N → ℝ) {i : ℕ} (hi : i < p.row.length) (hj : i < jacDim) :
    calls (generateJacobianSource lib f p jacDim b) (xs ++ [x]) i = lib.sparse f x p i := by
  rw [calls_append, source_eq, run_source, if_pos hj]
  cases he : entry lib f p b i with
  | none =>
    simp only
    rw [calls_none _ _ _ he]
    have : lib.skip f p i = true := by
      by_contra h
      simp [entry, hi, h] at he
    exact (hf.skip f p hv i this x).symm
  | some a =>
    simp only
    unfold entry at he
    rw [if_pos hi] at he
    split_ifs at he with h1 h2
    · cases he; exact (hf.skip f p hv i h1 x).symm
    · cases he; rfl

/-- C170: a generated linear system returns, after any history of calls, the Jacobians of the dynamics at the point of the
last call, whether or not assignments of zeros have been left out. -/
theorem C170_linear_system {lib : Lib (n + m) n} (hf : lib.Faithful) (f : Dyn n m) (ignoreZero : Bool)
    (xs : List (Fin (n + m) → ℝ)) (x : Fin n → ℝ) (u : Fin m → ℝ)
    (hd : DifferentiableAt ℝ (fun p : (Fin n → ℝ) × (Fin m → ℝ) => f p.1 0 p.2) (x, u)) :
    IsJac (fun y => f y 0 u) (asMatrix n n (calls (generateCode lib (record f) ignoreZero).1 (xs ++ [Fin.append x u]))) x ∧
    IsJac (fun v => f x 0 v) (asMatrix n m (calls (generateCode lib (record f) ignoreZero).2 (xs ++ [Fin.append x u]))) u := by
  obtain ⟨J, hJ⟩ := exists_jac hd
  constructor
  · have he : asMatrix n n (calls (generateCode lib (record f) ignoreZero).1 (xs ++ [Fin.append x u])) = stateBlock J := by
      ext i j
      have hlt : j.val * n + i.val < n * n := lt_block i j
      have hlen : (setupSparsityA n m).row.length = n * n := (pattern_block (n + m) n 0 n (by omega) _ (hsA n)).1
      simp only [asMatrix, of_apply, generateCode, stateBlock]
      rw [calls_last hf (p := setupSparsityA n m) (valid_block _ 0 n _ (hsA n)) _ _ _ _ (by rw [hlen]; exact hlt) hlt]
      refine (sparse_block hf hJ 0 n (by omega) _ (hsA n) i j).trans ?_
      congr 1
      exact Fin.ext (by simp)
    rw [he]; exact jac_state hJ
  · have he : asMatrix n m (calls (generateCode lib (record f) ignoreZero).2 (xs ++ [Fin.append x u])) = controlBlock J := by
      ext i j
      have hlt : j.val * n + i.val < n * m := by rw [Nat.mul_comm n m]; exact lt_block i j
      have hlen : (setupSparsityB n m).row.length = n * m := by
        rw [setupB_eq, (pattern_block (n + m) n n m le_rfl (patB n m) (fun _ _ => rfl)).1, Nat.mul_comm]
      simp only [asMatrix, of_apply, generateCode, controlBlock]
      rw [calls_last hf (by rw [setupB_eq]; exact valid_block _ n m _ (fun _ _ => rfl)) _ _ _ _ (by rw [hlen]; exact hlt) hlt,
        setupB_eq]
      exact sparse_block hf hJ n m le_rfl (patB n m) (fun _ _ => rfl) i j
    rw [he]; exact jac_control hJ

/-- C170, partial: a generated Jacobian class, made with the default pattern, returns after any history of calls the Jacobian
at the point of the last call. -/
theorem C170_jacobian_partial {lib : Lib N k} (hf : lib.Faithful) (f : Tape N k) (hN : 0 < N) (hk : 0 < k)
    (ignoreZero : Bool) (xs : List (Fin N → ℝ)) (x : Fin N → ℝ) (hd : DifferentiableAt ℝ f x) :
    ∃ src, (Deriv.new f).generateJacobianSource lib (fun _ _ => true) ignoreZero = .ok src ∧
      IsJac f (asMatrix k N (calls src (xs ++ [x]))) x := by
  obtain ⟨J, hJ⟩ : ∃ J, IsJac f J x :=
    ⟨Matrix.of fun i j => fderiv ℝ (fun y => f y i) x (Pi.single j 1),
      CodeGen.isJac_rows.2 fun i => CodeGen.isGrad_of_differentiable (differentiableAt_pi.1 hd i)⟩
  have hpat : initPattern N k (fun _ _ => true) = initPattern N k (fun i _ => decide (0 ≤ i ∧ i < 0 + N)) :=
    initPattern_congr fun i hi _ => by simp [hi]
  refine ⟨generateJacobian lib f (fun _ _ => true) ignoreZero, by simp [Deriv.generateJacobianSource, Deriv.new, hN, hk], ?_⟩
  have he : asMatrix k N (calls (generateJacobian lib f (fun _ _ => true) ignoreZero) (xs ++ [x])) = J := by
    ext i j
    have hlt : j.val * k + i.val < N * k := lt_block i j
    simp only [asMatrix, of_apply, generateJacobian]
    rw [hpat]
    rw [calls_last hf (valid_block _ 0 N _ (fun _ _ => rfl)) _ _ _ _
      (by rw [(pattern_block N k 0 N (by omega) _ (fun _ _ => rfl)).1]; exact hlt) hlt]
    refine (sparse_block hf hJ 0 N (by omega) _ (fun _ _ => rfl) i j).trans ?_
    congr 1
    exact Fin.ext (by simp)
  rw [he]; exact hJ

/-- The second of two inputs. -/
def second : Tape 2 1 := fun z _ => z 1

theorem isJac_second (x : Fin 2 → ℝ) : IsJac second !![0, 1] x := by
  refine CodeGen.isJac_rows.2 fun i => ?_
  have h : HasFDerivAt (fun y : Fin 2 → ℝ => y 1) (ContinuousLinearMap.proj (R := ℝ) (φ := fun _ : Fin 2 => ℝ) 1) x :=
    hasFDerivAt_apply 1 x
  refine h.congr_fderiv ?_
  ext v
  fin_cases i
  simp [dotProduct, Fin.sum_univ_two]

/-- The pattern of its Jacobian, one row for every input. -/
def secondPattern : ℕ → ℕ → Bool := fun i _ => decide (i = 1)

/-- C170 violated: given a pattern that is right (the output depends on the second input only) the generated class stores
the derivative in the place of the first input. -/
theorem C170_pattern_violated (lib : Lib 2 1) (hf : lib.Faithful) (ignoreZero : Bool) (x : Fin 2 → ℝ) :
    (∀ (r : Fin 1) (c : Fin 2), secondPattern c r = false → ∀ y v, second (Function.update y c v) r = second y r) ∧
    ∃ src, (Deriv.new second).generateJacobianSource lib secondPattern ignoreZero = .ok src ∧
      asMatrix 1 2 (calls src [x]) = !![1, 0] ∧ ¬ IsJac second (asMatrix 1 2 (calls src [x])) x := by
  refine ⟨?_, generateJacobian lib second secondPattern ignoreZero, by simp [Deriv.generateJacobianSource, Deriv.new], ?_⟩
  · intro r c hc y v
    have : (1 : Fin 2) ≠ c := by
      rintro rfl
      simp [secondPattern] at hc
    simp [second, Function.update_of_ne this]
  have hs : ∀ i j, secondPattern i j = decide (1 ≤ i ∧ i < 1 + 1) := fun i j => by
    unfold secondPattern
    congr 1
    exact propext (by omega)
  have hv := valid_block second 1 1 secondPattern hs
  have hlen : (initPattern 2 1 secondPattern).row.length = 1 := (pattern_block 2 1 1 1 le_rfl _ hs).1
  have h0 : calls (generateJacobian lib second secondPattern ignoreZero) [x] 0 = 1 := by
    have := calls_last hf hv (2 * 1) ignoreZero [] x (i := 0) (by rw [hlen]; decide) (by decide)
    refine this.trans ?_
    exact sparse_block hf (isJac_second x) 1 1 le_rfl _ hs 0 0
  have h1 : calls (generateJacobian lib second secondPattern ignoreZero) [x] 1 = 0 := by
    have : calls (generateJacobian lib second secondPattern ignoreZero) ([] ++ [x]) 1 = 0 := by
      unfold generateJacobian
      rw [calls_append, source_eq, run_source]
      cases ignoreZero <;> simp [entry, hlen, calls]
    exact this
  have he : asMatrix 1 2 (calls (generateJacobian lib second secondPattern ignoreZero) [x]) = !![1, 0] := by
    ext i j
    fin_cases i; fin_cases j
    · simpa [asMatrix] using h0
    · simpa [asMatrix] using h1
  refine ⟨he, fun h => ?_⟩
  rw [he] at h
  have := congrFun (congrFun (CodeGen.isJac_unique h (isJac_second x)) 0) 0
  simp at this

/-- C170 violated: a copy of the generator has no recorded function, so that code cannot be generated from it. -/
theorem C170_copy_violated (lib : Lib N k) (f : Tape N k) (sparsity : ℕ → ℕ → Bool) (ignoreZero : Bool) :
    (Deriv.new f).copy.generateJacobianSource lib sparsity ignoreZero = .ub := rfl

/-! ### The hypotheses can be met -/

/-- A pendulum: two linear systems, one changed and destroyed in between. -/
def pendulum (g : ℝ) : Dyn 2 1 := fun x _ u i => if i = 0 then x 1 else u 0 - g * x 0

example (lib : Lib (2 + 1) 2) :
    (⟨[(pendulum 10, true)], []⟩ : World 2 1).deref 0 = .ok (pendulum 10) ∧
    (∃ w, (⟨[(pendulum 10, true)], []⟩ : World 2 1).step lib (.newCG 0 true (fun _ => 1) (fun _ => 1)) = .ok w ∧
      ∃ w', w.run lib [.compileJIT 0, .newAD 0, .changeSystem 0 (pendulum 3), .copy 0, .destroy 1, .releaseSystem 0] = .ok w') :=
  ⟨rfl, _, rfl, _, rfl⟩

example (g : ℝ) (x : Fin 2 → ℝ) (u : Fin 1 → ℝ) :
    DifferentiableAt ℝ (fun p : (Fin 2 → ℝ) × (Fin 1 → ℝ) => pendulum g p.1 0 p.2) (x, u) := by
  refine differentiableAt_pi.2 fun i => ?_
  fin_cases i <;> (simp only [pendulum]; simp; fun_prop)

end CT.ADLin
