import Verif.Model.ContactDynamics
import Verif.Props.Inverses
import Verif.Props.OpJacobian

/-!
# Dynamics of robots in contact (C114, C115)

C114: forward dynamics gives the accelerations and contact forces that satisfy the equation of motion
and keep the feet in contact from accelerating.
C115: inverse dynamics gives torques that produce the requested acceleration, and forward dynamics
applied to them returns that acceleration.
-/

namespace CT.ConDyn

open CT.Inverses Matrix CT.OpJac Finset

/-! ### Specification -/

/-- What a user expects of accelerations `qdd` and contact forces `lam` under joint torques `u`, for a
robot with `n` coordinates, end effectors `e < NEE`, contact flags `ee`. -/
structure Solves (n NEE : ℕ) (ee : ℕ → Bool) (t : Terms) (u qdd : ℕ → ℝ) (lam : ℕ → ℕ → ℝ) : Prop where
  /-- mass times acceleration plus Coriolis and gravity terms is torque plus contact forces -/
  motion : ∀ i < n, ∑ j ∈ range n, t.M (i, j) * qdd j + (t.cor i + t.grav i) =
    (if i < 6 then 0 else u (i - 6)) +
      ∑ e ∈ range NEE, if ee e then ∑ a ∈ range 3, t.J (3 * e + a, i) * lam e a else 0
  /-- the end effectors in contact do not accelerate -/
  still : ∀ e < NEE, ee e = true → ∀ a < 3,
    ∑ j ∈ range n, t.J (3 * e + a, j) * qdd j + ∑ j ∈ range n, t.dJ (3 * e + a, j) * t.qd j +
      t.cross e a = 0
  /-- no force at end effectors that are not in contact -/
  off : ∀ e < NEE, ee e = false → ∀ a < 3, lam e a = 0

/-- Symmetric and positive definite on the first `n` coordinates. -/
structure PosDef (n : ℕ) (M : Mat ℝ) : Prop where
  sym : ∀ i < n, ∀ j < n, M (i, j) = M (j, i)
  pos : ∀ v : ℕ → ℝ, (∃ i < n, v i ≠ 0) → 0 < ∑ i ∈ range n, ∑ j ∈ range n, v i * (M (i, j) * v j)

/-- The rows of the Jacobian that belong to end effectors in contact are independent. -/
def Independent (n NEE : ℕ) (ee : ℕ → Bool) (J : Mat ℝ) : Prop :=
  ∀ l : ℕ → ℕ → ℝ, (∀ i < n, ∑ e ∈ range NEE,
      (if ee e then ∑ a ∈ range 3, J (3 * e + a, i) * l e a else 0) = 0) →
    ∀ e < NEE, ee e = true → ∀ a < 3, l e a = 0

/-! ### The loops -/

theorem accum_eq_sum (n : ℕ) (f : ℕ → ℝ) : accum 0 n f = ∑ j ∈ range n, f j := by
  unfold accum
  rw [Nat.sub_zero, ← List.range_eq_range']
  induction n with
  | zero => simp
  | succ n ih => rw [List.range_succ, List.foldl_append, List.foldl_cons, List.foldl_nil, ih,
      Finset.sum_range_succ]

theorem count_succ (ee : ℕ → Bool) (N : ℕ) :
    count ee (N + 1) = if ee N then count ee N + 1 else count ee N := by
  simp only [count, List.range_succ, List.foldl_append, List.foldl_cons, List.foldl_nil]

theorem count_mono (ee : ℕ → Bool) {a b : ℕ} (h : a ≤ b) : count ee a ≤ count ee b := by
  induction b with
  | zero => simp_all
  | succ b ih =>
    rcases Nat.lt_or_ge b a with hb | hb
    · have : a = b + 1 := by omega
      rw [this]
    · refine (ih hb).trans ?_
      rw [count_succ]; split <;> omega

theorem count_lt (ee : ℕ → Bool) {e N : ℕ} (he : ee e = true) (h : e < N) :
    count ee e + 1 ≤ count ee N := by
  have := count_mono ee (show e + 1 ≤ N from h)
  rwa [count_succ, if_pos he] at this

theorem count_surj (ee : ℕ → Bool) (N : ℕ) : ∀ r < 3 * count ee N, ∃ e < N, ee e = true ∧
    ∃ a < 3, r = 3 * count ee e + a := by
  induction N with
  | zero => intro r hr; simp [count] at hr
  | succ N ih =>
    intro r hr
    by_cases h : r < 3 * count ee N
    · obtain ⟨e, he, h1, a, ha, h2⟩ := ih r h
      exact ⟨e, by omega, h1, a, ha, h2⟩
    · rw [count_succ] at hr
      split at hr
      · next hN => exact ⟨N, by omega, hN, r - 3 * count ee N, by omega, by omega⟩
      · omega

/-- The loop over the end effectors collects the rows of the end effectors in contact. -/
theorem reduce_spec (NEE : ℕ) (ee : ℕ → Bool) (t : Terms) (s0 : Reduced) :
    (reduce NEE ee t s0).rowCount = 3 * count ee NEE ∧
    ∀ e < NEE, ee e = true → ∀ a < 3,
      (∀ j, (reduce NEE ee t s0).J (3 * count ee e + a, j) = t.J (3 * e + a, j)) ∧
      (∀ j, (reduce NEE ee t s0).dJ (3 * count ee e + a, j) = t.dJ (3 * e + a, j)) ∧
      (reduce NEE ee t s0).cross (3 * count ee e + a) = t.cross e a := by
  induction NEE with
  | zero => simp [reduce, count]
  | succ N ih =>
    obtain ⟨h1, h2⟩ := ih
    have step : reduce (N + 1) ee t s0 =
        if ee N then
          { rowCount := (reduce N ee t s0).rowCount + 3
            J := setRows (reduce N ee t s0).J (reduce N ee t s0).rowCount t.J (3 * N)
            dJ := setRows (reduce N ee t s0).dJ (reduce N ee t s0).rowCount t.dJ (3 * N)
            cross := setSeg3 (reduce N ee t s0).cross (reduce N ee t s0).rowCount (t.cross N) }
        else reduce N ee t s0 := by
      simp only [reduce, List.range_succ, List.foldl_append, List.foldl_cons, List.foldl_nil]
    rw [step]
    by_cases hN : ee N = true
    · rw [if_pos hN]
      refine ⟨by simp only [h1, count_succ, hN, if_true]; omega, ?_⟩
      intro e he hee a ha
      simp only [setRows, setSeg3, h1]
      rcases Nat.lt_or_ge e N with h | h
      · have := count_lt ee hee h
        have hno : ¬ (3 * count ee N ≤ 3 * count ee e + a ∧ 3 * count ee e + a < 3 * count ee N + 3) := by
          omega
        simp only [hno, if_false]
        exact h2 e h hee a ha
      · have : e = N := by omega
        subst this
        have hy : 3 * count ee e ≤ 3 * count ee e + a ∧ 3 * count ee e + a < 3 * count ee e + 3 := by
          omega
        have ha' : 3 * count ee e + a - 3 * count ee e = a := by omega
        simp only [hy, and_self, if_true, ha', implies_true]
    · rw [if_neg hN]
      refine ⟨by simp only [h1, count_succ, hN]; simp, ?_⟩
      intro e he hee a ha
      have : e ≠ N := by rintro rfl; exact hN hee
      exact h2 e (by omega) hee a ha

/-- A sum over the constraint rows is a sum over the end effectors in contact. -/
theorem sum_rows (ee : ℕ → Bool) (N : ℕ) (g : ℕ → ℝ) :
    ∑ r ∈ range (3 * count ee N), g r =
      ∑ e ∈ range N, if ee e then ∑ a ∈ range 3, g (3 * count ee e + a) else 0 := by
  induction N with
  | zero => simp [count]
  | succ N ih =>
    rw [Finset.sum_range_succ, ← ih, count_succ]
    by_cases hN : ee N = true
    · rw [if_pos hN, if_pos hN, show 3 * (count ee N + 1) = 3 * count ee N + 3 by ring,
        Finset.sum_range_add]
    · rw [if_neg hN, if_neg hN, add_zero]

theorem contactForces_spec (n NEE : ℕ) (ee : ℕ → Bool) (x : ℕ → ℝ) (lam0 : ℕ → ℕ → ℝ) :
    ∀ e < NEE, contactForces n NEE ee x lam0 e =
      if ee e then (fun a => x (n + 3 * count ee e + a)) else fun _ => 0 := by
  have key : ∀ N, ((List.range N).foldl (fun (s : ℕ × (ℕ → ℕ → ℝ)) e =>
      if ee e then (s.1 + 3, Function.update s.2 e (fun a => x (n + s.1 + a)))
      else (s.1, Function.update s.2 e (fun _ => 0))) (0, lam0)).1 = 3 * count ee N ∧
      ∀ e < N, ((List.range N).foldl (fun (s : ℕ × (ℕ → ℕ → ℝ)) e =>
      if ee e then (s.1 + 3, Function.update s.2 e (fun a => x (n + s.1 + a)))
      else (s.1, Function.update s.2 e (fun _ => 0))) (0, lam0)).2 e =
        if ee e then (fun a => x (n + 3 * count ee e + a)) else fun _ => 0 := by
    intro N
    induction N with
    | zero => simp [count]
    | succ N ih =>
      obtain ⟨h1, h2⟩ := ih
      simp only [List.range_succ, List.foldl_append, List.foldl_cons, List.foldl_nil]
      by_cases hN : ee N = true
      · rw [if_pos hN]
        refine ⟨by simp only [h1, count_succ, hN, if_true]; omega, fun e he => ?_⟩
        by_cases heN : e = N
        · subst heN; simp [h1, hN]
        · simp only [Function.update_of_ne heN]
          exact h2 e (by omega)
      · rw [if_neg hN]
        refine ⟨by simp only [h1, count_succ, hN]; simp, fun e he => ?_⟩
        by_cases heN : e = N
        · subst heN; simp [hN]
        · simp only [Function.update_of_ne heN]
          exact h2 e (by omega)
  exact (key NEE).2

/-! ### The linear system -/

/-- The first `K` rows of the system, for `n ≤ K`. -/
theorem kkt_rows {n k : ℕ} (M Jr : Mat ℝ) {p : ℕ} (hp : p ≤ k) (x : ℕ → ℝ) :
    (∀ i < n, ∑ j ∈ range (n + p), kkt n k M Jr (i, j) * x j =
      ∑ j ∈ range n, M (i, j) * x j - ∑ r ∈ range p, Jr (r, i) * x (n + r)) ∧
    (∀ r < p, ∑ j ∈ range (n + p), kkt n k M Jr (n + r, j) * x j = - ∑ j ∈ range n, Jr (r, j) * x j) := by
  constructor
  · intro i hi
    rw [Finset.sum_range_add, sub_eq_add_neg, ← Finset.sum_neg_distrib]
    congr 1
    · refine Finset.sum_congr rfl (fun j hj => ?_)
      rw [Finset.mem_range] at hj
      simp [kkt, hi, hj]
    · refine Finset.sum_congr rfl (fun r hr => ?_)
      rw [Finset.mem_range] at hr
      have h1 : ¬ (n + r < n) := by omega
      have h2 : ¬ (n ≤ i) := by omega
      have h3 : n + r < n + k := by omega
      simp [kkt, hi, h2, show r < k by omega]
  · intro r hr
    rw [Finset.sum_range_add, ← Finset.sum_neg_distrib]
    have z : ∑ x_1 ∈ range p, kkt n k M Jr (n + r, n + x_1) * x (n + x_1) = 0 := by
      refine Finset.sum_eq_zero (fun q hq => ?_)
      simp [kkt]
    rw [z, add_zero]
    refine Finset.sum_congr rfl (fun j hj => ?_)
    rw [Finset.mem_range] at hj
    simp [kkt, hj, show r < k by omega]

/-- Extension of a finite vector by zeros. -/
def ext {K : ℕ} (v : Fin K → ℝ) : ℕ → ℝ := fun i => if h : i < K then v ⟨i, h⟩ else 0

theorem ext_apply {K : ℕ} (v : Fin K → ℝ) (i : Fin K) : ext v i = v i := by simp [ext]

theorem mulVec_toMat {K : ℕ} (A : Mat ℝ) (v : Fin K → ℝ) (i : Fin K) :
    (toMat K K A *ᵥ v) i = ∑ j ∈ range K, A (i, j) * ext v j := by
  rw [← Fin.sum_univ_eq_sum_range (fun j => A ((i : ℕ), j) * ext v j) K]
  simp [mulVec, dotProduct, toMat, ext_apply]

/-- All leading minors of the system are non-zero, so that the factorisation without pivoting
succeeds. -/
theorem kkt_minors {n k : ℕ} {M Jr : Mat ℝ} (hM : PosDef n M)
    (hJ : ∀ z : ℕ → ℝ, (∀ i < n, ∑ r ∈ range k, Jr (r, i) * z r = 0) → ∀ r < k, z r = 0) :
    ∀ K < n + k, (toMat (K + 1) (K + 1) (kkt n k M Jr)).det ≠ 0 := by
  intro K hK hd
  obtain ⟨v, hv, hv0⟩ := Matrix.exists_mulVec_eq_zero_iff.2 hd
  set x := ext v with hx
  have hxK : ∀ i, K < i → x i = 0 := by
    intro i hi
    simp [hx, ext, show ¬ (i < K + 1) by omega]
  have hrow : ∀ i ≤ K, ∑ j ∈ range (K + 1), kkt n k M Jr (i, j) * x j = 0 := by
    intro i hi
    have := congrFun hv0 ⟨i, by omega⟩
    rwa [mulVec_toMat] at this
  have hvx : ∃ i ≤ K, x i ≠ 0 := by
    obtain ⟨i, hi⟩ := Function.ne_iff.1 hv
    exact ⟨i, by omega, by rw [hx, ext_apply]; exact hi⟩
  rcases Nat.lt_or_ge K n with h | h
  · -- inside the mass matrix
    have hq := hM.pos x (by obtain ⟨i, hi, h'⟩ := hvx; exact ⟨i, by omega, h'⟩)
    have : ∑ i ∈ range n, ∑ j ∈ range n, x i * (M (i, j) * x j) = 0 := by
      refine Finset.sum_eq_zero (fun i hi => ?_)
      rw [Finset.mem_range] at hi
      rw [← Finset.mul_sum]
      by_cases hiK : i ≤ K
      · have hr := hrow i hiK
        have hsub : ∑ j ∈ range n, M (i, j) * x j = ∑ j ∈ range (K + 1), kkt n k M Jr (i, j) * x j := by
          rw [← Finset.sum_subset (s₁ := range (K + 1)) (s₂ := range n)]
          · refine Finset.sum_congr rfl (fun j hj => ?_)
            rw [Finset.mem_range] at hj
            simp [kkt, hi, show j < n by omega]
          · intro j hj
            rw [Finset.mem_range] at hj ⊢
            omega
          · intro j _ hj
            rw [Finset.mem_range, not_lt] at hj
            rw [hxK j (by omega), mul_zero]
        rw [hsub, hr, mul_zero]
      · rw [hxK i (by omega), zero_mul]
    linarith
  · -- mass matrix and some constraint rows
    obtain ⟨p, hp⟩ : ∃ p, K + 1 = n + p := ⟨K + 1 - n, by omega⟩
    have hpk : p ≤ k := by omega
    rw [hp] at hrow
    obtain ⟨r1, r2⟩ := kkt_rows (n := n) M Jr hpk x
    have e1 : ∀ i < n, ∑ j ∈ range n, M (i, j) * x j = ∑ r ∈ range p, Jr (r, i) * x (n + r) := by
      intro i hi
      have := hrow i (by omega)
      rw [r1 i hi] at this
      linarith
    have e2 : ∀ r < p, ∑ j ∈ range n, Jr (r, j) * x j = 0 := by
      intro r hr
      have := hrow (n + r) (by omega)
      rw [r2 r hr] at this
      linarith
    have hq : ∑ i ∈ range n, ∑ j ∈ range n, x i * (M (i, j) * x j) = 0 := by
      calc ∑ i ∈ range n, ∑ j ∈ range n, x i * (M (i, j) * x j)
          = ∑ i ∈ range n, ∑ r ∈ range p, x (n + r) * (Jr (r, i) * x i) := by
            refine Finset.sum_congr rfl (fun i hi => ?_)
            rw [Finset.mem_range] at hi
            rw [← Finset.mul_sum, e1 i hi, Finset.mul_sum]
            exact Finset.sum_congr rfl (fun r _ => by ring)
        _ = ∑ r ∈ range p, x (n + r) * ∑ i ∈ range n, Jr (r, i) * x i := by
            rw [Finset.sum_comm]
            exact Finset.sum_congr rfl (fun r _ => by rw [Finset.mul_sum])
        _ = 0 := by
            refine Finset.sum_eq_zero (fun r hr => ?_)
            rw [Finset.mem_range] at hr
            rw [e2 r hr, mul_zero]
    have hx0 : ∀ i < n, x i = 0 := by
      intro i hi
      by_contra hne
      have := hM.pos x ⟨i, hi, hne⟩
      linarith
    have hz := hJ (fun r => x (n + r)) (by
      intro i hi
      have hs : ∑ r ∈ range k, Jr (r, i) * x (n + r) = ∑ r ∈ range p, Jr (r, i) * x (n + r) := by
        symm
        refine Finset.sum_subset ?_ ?_
        · intro r hr
          rw [Finset.mem_range] at hr ⊢
          omega
        · intro r _ hr
          rw [Finset.mem_range, not_lt] at hr
          rw [hxK (n + r) (by omega), mul_zero]
      rw [hs, ← e1 i hi]
      refine Finset.sum_eq_zero (fun j hj => ?_)
      rw [Finset.mem_range] at hj
      rw [hx0 j hj, mul_zero])
    obtain ⟨i, hi, hne⟩ := hvx
    rcases Nat.lt_or_ge i n with h' | h'
    · exact hne (hx0 i h')
    · have := hz (i - n) (by omega)
      simp only [show n + (i - n) = i by omega] at this
      exact hne this

theorem kkt_sym {n k : ℕ} {M Jr : Mat ℝ} (hM : PosDef n M) :
    ∀ i < n + k, ∀ j < n + k, kkt n k M Jr (i, j) = kkt n k M Jr (j, i) := by
  intro i hi j hj
  rcases Nat.lt_or_ge i n with h | h <;> rcases Nat.lt_or_ge j n with h' | h'
  · simp [kkt, h, h', hM.sym i h j h']
  · simp [kkt, h, h', hj, show ¬ (j < n) by omega, show ¬ (n ≤ i) by omega]
  · simp [kkt, h, h', hi, show ¬ (i < n) by omega, show ¬ (n ≤ j) by omega]
  · simp [kkt, show ¬ (i < n) by omega, show ¬ (j < n) by omega]

/-- Accelerations and contact forces are determined by the equations. -/
theorem Solves.unique {n NEE : ℕ} {ee : ℕ → Bool} {t : Terms} {u q q' : ℕ → ℝ} {l l' : ℕ → ℕ → ℝ}
    (hM : PosDef n t.M) (hJ : Independent n NEE ee t.J)
    (h : Solves n NEE ee t u q l) (h' : Solves n NEE ee t u q' l') :
    (∀ i < n, q i = q' i) ∧ ∀ e < NEE, ∀ a < 3, l e a = l' e a := by
  have e1 : ∀ i < n, ∑ j ∈ range n, t.M (i, j) * (q j - q' j) =
      ∑ e ∈ range NEE, if ee e then ∑ a ∈ range 3, t.J (3 * e + a, i) * (l e a - l' e a) else 0 := by
    intro i hi
    have a1 := h.motion i hi
    have a2 := h'.motion i hi
    have b1 : ∑ j ∈ range n, t.M (i, j) * (q j - q' j) =
        ∑ j ∈ range n, t.M (i, j) * q j - ∑ j ∈ range n, t.M (i, j) * q' j := by
      rw [← Finset.sum_sub_distrib]
      exact Finset.sum_congr rfl (fun _ _ => by ring)
    have b2 : (∑ e ∈ range NEE, if ee e then ∑ a ∈ range 3, t.J (3 * e + a, i) * (l e a - l' e a) else 0) =
        (∑ e ∈ range NEE, if ee e then ∑ a ∈ range 3, t.J (3 * e + a, i) * l e a else 0) -
        ∑ e ∈ range NEE, if ee e then ∑ a ∈ range 3, t.J (3 * e + a, i) * l' e a else 0 := by
      rw [← Finset.sum_sub_distrib]
      refine Finset.sum_congr rfl (fun e _ => ?_)
      split
      · rw [← Finset.sum_sub_distrib]
        exact Finset.sum_congr rfl (fun _ _ => by ring)
      · simp
    rw [b1, b2]
    linarith
  have e2 : ∀ e < NEE, ee e = true → ∀ a < 3, ∑ j ∈ range n, t.J (3 * e + a, j) * (q j - q' j) = 0 := by
    intro e he hee a ha
    have a1 := h.still e he hee a ha
    have a2 := h'.still e he hee a ha
    have b1 : ∑ j ∈ range n, t.J (3 * e + a, j) * (q j - q' j) =
        ∑ j ∈ range n, t.J (3 * e + a, j) * q j - ∑ j ∈ range n, t.J (3 * e + a, j) * q' j := by
      rw [← Finset.sum_sub_distrib]
      exact Finset.sum_congr rfl (fun _ _ => by ring)
    rw [b1]
    linarith
  have hq : ∀ i < n, q i = q' i := by
    by_contra hne
    push Not at hne
    obtain ⟨i, hi, hne⟩ := hne
    have hpos := hM.pos (fun i => q i - q' i) ⟨i, hi, sub_ne_zero.2 hne⟩
    have : ∑ i ∈ range n, ∑ j ∈ range n, (q i - q' i) * (t.M (i, j) * (q j - q' j)) = 0 := by
      calc ∑ i ∈ range n, ∑ j ∈ range n, (q i - q' i) * (t.M (i, j) * (q j - q' j))
          = ∑ i ∈ range n, ∑ e ∈ range NEE, (if ee e then ∑ a ∈ range 3,
              (l e a - l' e a) * (t.J (3 * e + a, i) * (q i - q' i)) else 0) := by
            refine Finset.sum_congr rfl (fun i hi => ?_)
            rw [Finset.mem_range] at hi
            rw [← Finset.mul_sum, e1 i hi, Finset.mul_sum]
            refine Finset.sum_congr rfl (fun e _ => ?_)
            split
            · rw [Finset.mul_sum]
              exact Finset.sum_congr rfl (fun _ _ => by ring)
            · simp
        _ = ∑ e ∈ range NEE, (if ee e then ∑ a ∈ range 3,
              (l e a - l' e a) * ∑ i ∈ range n, t.J (3 * e + a, i) * (q i - q' i) else 0) := by
            rw [Finset.sum_comm]
            refine Finset.sum_congr rfl (fun e _ => ?_)
            split
            · rw [Finset.sum_comm]
              exact Finset.sum_congr rfl (fun a _ => by rw [Finset.mul_sum])
            · simp
        _ = 0 := by
            refine Finset.sum_eq_zero (fun e he => ?_)
            rw [Finset.mem_range] at he
            split
            · next hee =>
              refine Finset.sum_eq_zero (fun a ha => ?_)
              rw [Finset.mem_range] at ha
              rw [e2 e he hee a ha, mul_zero]
            · rfl
    linarith
  refine ⟨hq, fun e he a ha => ?_⟩
  by_cases hee : ee e = true
  · have := hJ (fun e a => l e a - l' e a) (by
      intro i hi
      rw [← e1 i hi]
      refine Finset.sum_eq_zero (fun j hj => ?_)
      rw [Finset.mem_range] at hj
      rw [hq j hj, sub_self, mul_zero]) e he hee a ha
    exact sub_eq_zero.1 this
  · rw [h.off e he (by simpa using hee) a ha, h'.off e he (by simpa using hee) a ha]

/-- **C114.** For a positive definite mass matrix and independent contact rows, forward dynamics
returns accelerations and contact forces that satisfy the equation of motion with the given torques,
that keep every end effector in contact from accelerating, with zero force at end effectors not in
contact; and there are no other such accelerations and forces.  This holds for every number of joints
and end effectors, every contact configuration and whatever the work matrices contained before. -/
theorem C114_forward (n NEE : ℕ) (ee : ℕ → Bool) (t : Terms) (u : ℕ → ℝ) (s0 : Reduced)
    (d0 y0 : ℕ → ℝ) (X0 : Mat ℝ) (lam0 : ℕ → ℕ → ℝ) (hM : PosDef n t.M)
    (hJ : Independent n NEE ee t.J) :
    let x := forwardCommon n NEE ee t u s0 d0 y0 X0
    Solves n NEE ee t u (accelerations x) (contactForces n NEE ee x lam0) ∧
    ∀ qdd lam, Solves n NEE ee t u qdd lam →
      (∀ i < n, qdd i = accelerations x i) ∧
      ∀ e < NEE, ∀ a < 3, lam e a = contactForces n NEE ee x lam0 e a := by
  intro x
  have main : Solves n NEE ee t u (accelerations x) (contactForces n NEE ee x lam0) := by
    obtain ⟨-, hred⟩ := reduce_spec NEE ee t s0
    set s := reduce NEE ee t s0 with hs
    set k := 3 * count ee NEE with hk
    have hind : ∀ z : ℕ → ℝ, (∀ i < n, ∑ r ∈ range k, s.J (r, i) * z r = 0) → ∀ r < k, z r = 0 := by
      intro z hz r hr
      obtain ⟨e, he, hee, a, ha, rfl⟩ := count_surj ee NEE r hr
      refine hJ (fun e a => z (3 * count ee e + a)) ?_ e he hee a ha
      intro i hi
      refine Eq.trans ?_ (hz i hi)
      rw [hk, sum_rows]
      refine Finset.sum_congr rfl (fun e he => ?_)
      rw [Finset.mem_range] at he
      split
      · next hee =>
        refine Finset.sum_congr rfl (fun a ha => ?_)
        rw [Finset.mem_range] at ha
        rw [(hred e he hee a ha).1 i]
      · rfl
    have hsol := C22_ldlt_solve (n + k) 1 (kkt n k t.M s.J)
      (rhs n k (fTerm u) (hTerm t) s.dJ t.qd s.cross) d0 y0 X0 (kkt_sym hM) (kkt_minors hM hind)
    have hrow : ∀ i < n + k, ∑ j ∈ range (n + k), kkt n k t.M s.J (i, j) * x j =
        rhs n k (fTerm u) (hTerm t) s.dJ t.qd s.cross (i, 0) := by
      intro i hi
      have := congrFun (congrFun hsol ⟨i, hi⟩) 0
      rw [Matrix.mul_apply] at this
      rw [← Fin.sum_univ_eq_sum_range (fun j => kkt n k t.M s.J (i, j) * x j) (n + k)]
      simpa [toMat, x, forwardCommon, hs, hk] using this
    obtain ⟨r1, r2⟩ := kkt_rows (n := n) t.M s.J (le_refl k) x
    refine ⟨fun i hi => ?_, fun e he hee a ha => ?_, fun e he hee a ha => ?_⟩
    · have h1 := hrow i (by omega)
      rw [r1 i hi] at h1
      simp only [rhs, hi, if_true, fTerm, hTerm] at h1
      have h2 : ∑ r ∈ range k, s.J (r, i) * x (n + r) = ∑ e ∈ range NEE,
          if ee e then ∑ a ∈ range 3, t.J (3 * e + a, i) * contactForces n NEE ee x lam0 e a else 0 := by
        rw [hk, sum_rows ee NEE (fun r => s.J (r, i) * x (n + r))]
        refine Finset.sum_congr rfl (fun e he => ?_)
        rw [Finset.mem_range] at he
        split
        · next hee =>
          refine Finset.sum_congr rfl (fun a ha => ?_)
          rw [Finset.mem_range] at ha
          rw [(hred e he hee a ha).1 i, contactForces_spec n NEE ee x lam0 e he, if_pos hee,
            Nat.add_assoc]
        · rfl
      rw [h2] at h1
      simp only [accelerations]
      linarith
    · have hlt : 3 * count ee e + a < k := by
        have := count_lt ee hee he
        omega
      have h1 := hrow (n + (3 * count ee e + a)) (by omega)
      rw [r2 _ hlt] at h1
      obtain ⟨f1, f2, f3⟩ := hred e he hee a ha
      simp only [rhs, show ¬ (n + (3 * count ee e + a) < n) by omega, if_false,
        show n + (3 * count ee e + a) < n + k by omega, if_true, Nat.add_sub_cancel_left, f3,
        accum_eq_sum, f2, f1] at h1
      simp only [accelerations]
      linarith
    · rw [contactForces_spec n NEE ee x lam0 e he, if_neg (by simp [hee])]
  exact ⟨main, fun qdd lam h => h.unique hM hJ main⟩

/-- A free body with one joint, unit masses, one of two feet in contact. -/
def exTerms : Terms where
  M := fun p => if p.1 = p.2 then 1 else 0
  cor := fun _ => 1
  grav := fun i => i
  J := fun p => if p.2 = p.1 + 3 then 1 else 0
  dJ := fun _ => 0
  qd := fun _ => 1
  cross := fun _ _ => 1

theorem posDef_one (n : ℕ) : PosDef n (fun p => if p.1 = p.2 then 1 else 0) := by
  refine ⟨fun i _ j _ => by simp [eq_comm], fun v ⟨i, hi, hv⟩ => ?_⟩
  have : ∀ i ∈ range n, ∑ j ∈ range n, v i * ((if (i, j).1 = (i, j).2 then (1 : ℝ) else 0) * v j) =
      v i * v i := by
    intro i hi
    rw [Finset.sum_eq_single_of_mem i hi]
    · simp
    · intro j _ hj
      simp [Ne.symm hj]
  rw [Finset.sum_congr rfl this]
  exact Finset.sum_pos' (fun i _ => mul_self_nonneg _) ⟨i, Finset.mem_range.2 hi, mul_self_pos.2 hv⟩

/-- The hypotheses of `C114_forward` are met. -/
example : PosDef 7 exTerms.M ∧ Independent 7 2 (fun e => e == 0) exTerms.J := by
  refine ⟨posDef_one 7, ?_⟩
  intro l h e he hee a ha
  have he0 : e = 0 := by simpa using hee
  subst he0
  have := h (3 + a) (by omega)
  rw [Finset.sum_range_succ, Finset.sum_range_succ, Finset.sum_range_zero] at this
  simp only [exTerms, Finset.sum_range_succ, Finset.sum_range_zero] at this
  interval_cases a <;> simpa using this

/-! ### Inverse dynamics -/

section Inverse
variable {m n r : Type} [Fintype m] [DecidableEq m] [Fintype n] [DecidableEq n] [Fintype r]
  [DecidableEq r]

/-- **C115.** If the requested acceleration can be produced at all, by some torques together with some
constraint forces, then the torques returned by inverse dynamics produce it (with suitable constraint
forces), and no other torques that produce it are smaller.  `G` is the LDLT inverse used by `P()`;
the constraint Jacobian may have any rank (the rows of end effectors not in contact are zero).  The
hypothesis `hs` says that no non-zero singular value lies below the threshold `1e-9`. -/
theorem C115_inverse {J : Matrix m n ℝ} {G : Matrix m m ℝ}
    (hG : LdltInverse (J * (1 : Matrix n n ℝ) * Jᵀ) G)
    (svdInv : Matrix n r ℝ → Matrix r n ℝ) (S : Matrix r n ℝ) (M : Matrix n n ℝ) (qdd h : n → ℝ)
    {k : ℕ} {U : Matrix n (Fin k) ℝ} {V : Matrix r (Fin k) ℝ} {s : Fin k → ℝ}
    (hU : Uᵀ * U = 1) (hV : Vᵀ * V = 1)
    (hA : (1 - (1 : Matrix n n ℝ) * Jᵀ * G * J) * Sᵀ = U * diagonal s * Vᵀ)
    (hs : ∀ i, s i = 0 ∨ s i > 1e-9)
    (hX : svdInv ((1 - (1 : Matrix n n ℝ) * Jᵀ * G * J) * Sᵀ) =
      V * diagonal (fun i => if s i > 1e-9 then (s i)⁻¹ else 0) * Uᵀ)
    (hex : ∃ (u0 : r → ℝ) (l0 : m → ℝ), M *ᵥ qdd + h = Sᵀ *ᵥ u0 + Jᵀ *ᵥ l0) :
    let u := inverse svdInv (1 - (1 : Matrix n n ℝ) * Jᵀ * G * J) S M qdd h
    (∃ l : m → ℝ, M *ᵥ qdd + h = Sᵀ *ᵥ u + Jᵀ *ᵥ l) ∧
    ∀ (u' : r → ℝ) (l' : m → ℝ), M *ᵥ qdd + h = Sᵀ *ᵥ u' + Jᵀ *ᵥ l' → u ⬝ᵥ u ≤ u' ⬝ᵥ u' := by
  intro u
  obtain ⟨hP, hPT⟩ := projector_formula (J := J) one_posDef hG
  set P := 1 - (1 : Matrix n n ℝ) * Jᵀ * G * J with hPdef
  obtain ⟨p1, p2, p3, p4⟩ := svd_penrose hU hV hA hs
  rw [← hX] at p1 p2 p3 p4
  set X := svdInv (P * Sᵀ)
  have hu : ∀ (u' : r → ℝ) (l' : m → ℝ), M *ᵥ qdd + h = Sᵀ *ᵥ u' + Jᵀ *ᵥ l' →
      u = (X * (P * Sᵀ)) *ᵥ u' := by
    intro u' l' h'
    have hPJ : P * Jᵀ = 0 := by simpa using hP.removes
    show (X * P) *ᵥ (M *ᵥ qdd + h) = _
    rw [h', Matrix.mulVec_add, Matrix.mulVec_mulVec, Matrix.mulVec_mulVec, Matrix.mul_assoc X P Jᵀ, hPJ,
      Matrix.mul_zero, Matrix.zero_mulVec, add_zero, Matrix.mul_assoc]
  constructor
  · obtain ⟨u0, l0, h0⟩ := hex
    have hu0 := hu u0 l0 h0
    have hz : P *ᵥ (M *ᵥ qdd + h - Sᵀ *ᵥ u) = 0 := by
      have hPJ : P * Jᵀ = 0 := by simpa using hP.removes
      rw [Matrix.mulVec_sub, h0, Matrix.mulVec_add, Matrix.mulVec_mulVec, Matrix.mulVec_mulVec,
        Matrix.mulVec_mulVec, hPJ, Matrix.zero_mulVec, add_zero, hu0, Matrix.mulVec_mulVec,
        ← Matrix.mul_assoc, p1, sub_self]
    obtain ⟨l, hl⟩ := hP.kernel _ hz
    refine ⟨l, ?_⟩
    rw [Matrix.one_mul] at hl
    rw [← hl]
    abel
  · intro u' l' h'
    have e := hu u' l' h'
    -- u is the orthogonal projection of u'
    set Q := X * (P * Sᵀ) with hQ
    have hQQ : Q * Q = Q := by
      calc Q * Q = X * (P * Sᵀ) * X * (P * Sᵀ) := by rw [hQ]; simp only [Matrix.mul_assoc]
        _ = Q := by rw [p2]
    have h1 : u ⬝ᵥ u' = u ⬝ᵥ u := by
      have : u ⬝ᵥ u = (Q *ᵥ u') ⬝ᵥ (Q *ᵥ u') := by rw [← e]
      rw [this, Matrix.dotProduct_mulVec, ← Matrix.mulVec_transpose, p4, Matrix.mulVec_mulVec, hQQ, ← e]
    have h2 : 0 ≤ (u' - u) ⬝ᵥ (u' - u) := Finset.sum_nonneg (fun i _ => mul_self_nonneg _)
    rw [sub_dotProduct, dotProduct_sub, dotProduct_sub, dotProduct_comm u' u, h1] at h2
    linarith

end Inverse

/-! ### Round trip -/

/-- The first `k` entries of a sequence. -/
def vec (k : ℕ) (x : ℕ → ℝ) : Fin k → ℝ := fun i => x i

theorem sum_contacts (NEE : ℕ) (ee : ℕ → Bool) (J : Mat ℝ) (i : ℕ) (l : ℕ → ℝ)
    (hz : ∀ e < NEE, ee e = false → ∀ a < 3, J (3 * e + a, i) = 0) :
    ∑ q ∈ range (3 * NEE), J (q, i) * l q =
      ∑ e ∈ range NEE, if ee e then ∑ a ∈ range 3, J (3 * e + a, i) * l (3 * e + a) else 0 := by
  induction NEE with
  | zero => simp
  | succ N ih =>
    conv_rhs => rw [Finset.sum_range_succ]
    rw [show 3 * (N + 1) = 3 * N + 3 by ring, Finset.sum_range_add,
      ih (fun e he => hz e (by omega))]
    congr 1
    split
    · rfl
    · next h =>
      refine Finset.sum_eq_zero (fun a ha => ?_)
      rw [Finset.mem_range] at ha
      rw [hz N (by omega) (by simpa using h) a ha, zero_mul]

/-- **C115.** Round trip: if the requested acceleration keeps the end effectors in contact from
accelerating and can be produced by some torques and contact forces, then forward dynamics applied to
the torques returned by inverse dynamics returns the requested acceleration. -/
theorem C115_roundtrip (nj NEE : ℕ) (ee : ℕ → Bool) (t : Terms) (s0 : Reduced)
    (d0 y0 : ℕ → ℝ) (X0 : Mat ℝ) (hM : PosDef (6 + nj) t.M) (hJ : Independent (6 + nj) NEE ee t.J)
    -- rows of end effectors not in contact are zero (ConstraintJacobian.h:137)
    (hz : ∀ e < NEE, ee e = false → ∀ a < 3, ∀ i, t.J (3 * e + a, i) = 0)
    {G : Matrix (Fin (3 * NEE)) (Fin (3 * NEE)) ℝ}
    (hG : LdltInverse (toMat (3 * NEE) (6 + nj) t.J * (1 : Matrix (Fin (6 + nj)) (Fin (6 + nj)) ℝ) *
      (toMat (3 * NEE) (6 + nj) t.J)ᵀ) G)
    (svdInv : Matrix (Fin (6 + nj)) (Fin nj) ℝ → Matrix (Fin nj) (Fin (6 + nj)) ℝ)
    {P : Matrix (Fin (6 + nj)) (Fin (6 + nj)) ℝ}
    (hP : P = 1 - (1 : Matrix (Fin (6 + nj)) (Fin (6 + nj)) ℝ) * (toMat (3 * NEE) (6 + nj) t.J)ᵀ * G *
      toMat (3 * NEE) (6 + nj) t.J)
    {k : ℕ} {U : Matrix (Fin (6 + nj)) (Fin k) ℝ} {V : Matrix (Fin nj) (Fin k) ℝ} {s : Fin k → ℝ}
    (hU : Uᵀ * U = 1) (hV : Vᵀ * V = 1) (hA : P * (selection nj)ᵀ = U * diagonal s * Vᵀ)
    (hs : ∀ i, s i = 0 ∨ s i > 1e-9)
    (hX : svdInv (P * (selection nj)ᵀ) =
      V * diagonal (fun i => if s i > 1e-9 then (s i)⁻¹ else 0) * Uᵀ)
    (qdd u0 : ℕ → ℝ) (l0 : ℕ → ℕ → ℝ) (hreq : Solves (6 + nj) NEE ee t u0 qdd l0)
    (u : ℕ → ℝ) (hu : vec nj u =
      inverse svdInv P (selection nj) (toMat (6 + nj) (6 + nj) t.M) (vec (6 + nj) qdd)
        (vec (6 + nj) (fun i => t.cor i + t.grav i))) :
    ∀ i < 6 + nj, accelerations (forwardCommon (6 + nj) NEE ee t u s0 d0 y0 X0) i = qdd i := by
  -- the equation of motion in matrix form
  have hlhs : ∀ i : Fin (6 + nj), (toMat (6 + nj) (6 + nj) t.M *ᵥ vec (6 + nj) qdd + vec (6 + nj) (fun i => t.cor i + t.grav i)) i =
      ∑ j ∈ range (6 + nj), t.M (i, j) * qdd j + (t.cor i + t.grav i) := by
    intro i
    rw [← Fin.sum_univ_eq_sum_range (fun j => t.M ((i : ℕ), j) * qdd j) (6 + nj)]
    simp [mulVec, dotProduct, toMat, vec]
  have hSel : ∀ (w : ℕ → ℝ) (i : Fin (6 + nj)), ((selection nj)ᵀ *ᵥ vec nj w) i =
      if (i : ℕ) < 6 then 0 else w (i - 6) := by
    intro w i
    simp only [mulVec, dotProduct, selection, transpose_apply, vec]
    by_cases hi : (i : ℕ) < 6
    · simp [hi]
    · simp only [hi, if_false]
      rw [Finset.sum_eq_single (⟨(i : ℕ) - 6, by omega⟩ : Fin nj)]
      · simp
      · intro j _ hj
        have : ¬ ((i : ℕ) - 6 = j) := by
          intro h; apply hj; ext; simp [h]
        simp [this]
      · simp
  have hJT : ∀ (l : Fin (3 * NEE) → ℝ) (i : Fin (6 + nj)), ((toMat (3 * NEE) (6 + nj) t.J)ᵀ *ᵥ l) i =
      ∑ e ∈ range NEE, if ee e then ∑ a ∈ range 3, t.J (3 * e + a, i) * ext l (3 * e + a) else 0 := by
    intro l i
    rw [← sum_contacts NEE ee t.J i (ext l) (fun e he h a ha => hz e he h a ha i),
      ← Fin.sum_univ_eq_sum_range (fun q => t.J (q, (i : ℕ)) * ext l q) (3 * NEE)]
    simp [mulVec, dotProduct, toMat, ext_apply]
  subst hP
  obtain ⟨⟨l, hl⟩, -⟩ := C115_inverse hG svdInv (selection nj) (toMat (6 + nj) (6 + nj) t.M) (vec (6 + nj) qdd)
    (vec (6 + nj) (fun i => t.cor i + t.grav i)) hU hV hA hs hX (by
      refine ⟨vec nj u0, fun q => l0 (q / 3) (q % 3), ?_⟩
      funext i
      rw [hlhs, Pi.add_apply, hSel, hJT, hreq.motion i i.2]
      congr 1
      refine Finset.sum_congr rfl (fun e he => ?_)
      rw [Finset.mem_range] at he
      split
      · refine Finset.sum_congr rfl (fun a ha => ?_)
        rw [Finset.mem_range] at ha
        have : ext (fun q : Fin (3 * NEE) => l0 (q / 3) (q % 3)) (3 * e + a) = l0 e a := by
          simp only [ext, show 3 * e + a < 3 * NEE by omega, dif_pos]
          rw [show (3 * e + a) / 3 = e by omega, show (3 * e + a) % 3 = a by omega]
        rw [this]
      · rfl)
  rw [← hu] at hl
  have hsol : Solves (6 + nj) NEE ee t u qdd (fun e a => if ee e then ext l (3 * e + a) else 0) := by
    refine ⟨fun i hi => ?_, hreq.still, fun e he h a ha => by simp [h]⟩
    have h1 := congrFun hl ⟨i, hi⟩
    rw [hlhs, Pi.add_apply, hSel, hJT] at h1
    simp only at h1
    rw [h1]
    congr 1
    refine Finset.sum_congr rfl (fun e _ => ?_)
    split <;> rfl
  intro i hi
  exact (((C114_forward (6 + nj) NEE ee t u s0 d0 y0 X0 (fun _ _ => 0) hM hJ).2 qdd _ hsol).1 i hi).symm

/-- The feet of `exTerms` push against the base coordinates 3, 4, 5. -/
def exP : Matrix (Fin 7) (Fin 7) ℝ := diagonal (fun i => if 3 ≤ (i : ℕ) ∧ (i : ℕ) < 6 then 0 else 1)

def exU : Matrix (Fin 7) (Fin 1) ℝ := fun i _ => if (i : ℕ) = 6 then 1 else 0

theorem exJ_mul : toMat 3 7 exTerms.J * (1 : Matrix (Fin 7) (Fin 7) ℝ) * (toMat 3 7 exTerms.J)ᵀ = 1 := by
  rw [Matrix.mul_one]
  ext i j
  simp only [Matrix.mul_apply, toMat, exTerms, Matrix.of_apply, transpose_apply, Fin.sum_univ_succ,
    Matrix.one_apply]
  fin_cases i <;> fin_cases j <;> norm_num [Fin.ext_iff, Fin.val_succ]

theorem exP_eq : exP = 1 - (1 : Matrix (Fin 7) (Fin 7) ℝ) * (toMat 3 7 exTerms.J)ᵀ *
    (1 : Matrix (Fin 3) (Fin 3) ℝ) * toMat 3 7 exTerms.J := by
  rw [Matrix.one_mul, Matrix.mul_one]
  ext i j
  simp only [exP, Matrix.sub_apply, Matrix.mul_apply, toMat, exTerms, Matrix.of_apply, transpose_apply,
    Fin.sum_univ_succ, Matrix.one_apply, Matrix.diagonal_apply]
  fin_cases i <;> fin_cases j <;> norm_num [Fin.ext_iff, Fin.val_succ]

theorem exP_S : exP * (selection 1)ᵀ = exU * diagonal (fun _ : Fin 1 => (1 : ℝ)) * (1 : Matrix (Fin 1) (Fin 1) ℝ)ᵀ := by
  ext i j
  fin_cases j
  fin_cases i <;> norm_num [exP, exU, selection, Matrix.diagonal_mul]

/-- The hypotheses of `C115_roundtrip` (and with them those of `C115_inverse`) are met by `exTerms` with
one foot in contact, non-zero velocity terms, gravity, torque and contact forces. -/
example : ∃ (qdd u0 : ℕ → ℝ) (l0 : ℕ → ℕ → ℝ),
    PosDef (6 + 1) exTerms.M ∧ Independent (6 + 1) 1 (fun _ => true) exTerms.J ∧
    LdltInverse (toMat (3 * 1) (6 + 1) exTerms.J * (1 : Matrix (Fin (6 + 1)) (Fin (6 + 1)) ℝ) *
      (toMat (3 * 1) (6 + 1) exTerms.J)ᵀ) 1 ∧
    exUᵀ * exU = 1 ∧ (1 : Matrix (Fin 1) (Fin 1) ℝ)ᵀ * 1 = 1 ∧
    Solves (6 + 1) 1 (fun _ => true) exTerms u0 qdd l0 ∧ u0 0 = 5 ∧ l0 0 0 = 3 := by
  refine ⟨fun i => if 3 ≤ i ∧ i < 6 then -1 else if i = 6 then -2 else -(1 + i), fun _ => 5,
    fun _ a => 3 + a, posDef_one 7, ?_, ?_, ?_, by simp, ⟨?_, ?_, ?_⟩, rfl, by norm_num⟩
  · intro l h e he hee a ha
    have he0 : e = 0 := by omega
    subst he0
    have := h (3 + a) (by omega)
    simp only [exTerms, Finset.sum_range_succ, Finset.sum_range_zero] at this
    interval_cases a <;> simpa using this
  · rw [show toMat (3 * 1) (6 + 1) exTerms.J * (1 : Matrix (Fin (6 + 1)) (Fin (6 + 1)) ℝ) *
      (toMat (3 * 1) (6 + 1) exTerms.J)ᵀ = 1 from exJ_mul]
    exact ⟨⟨1, 1, 1, by simp, by simp⟩, by simp [Ldlt.solve]⟩
  · ext i j
    fin_cases i; fin_cases j
    simp only [Matrix.mul_apply, transpose_apply, exU, Fin.sum_univ_succ]
    norm_num [Fin.val_succ]
  · intro i hi
    simp only [exTerms, Finset.sum_range_succ, Finset.sum_range_zero]
    interval_cases i <;> norm_num
  · intro e he _ a ha
    have he0 : e = 0 := by omega
    subst he0
    simp only [exTerms, Finset.sum_range_succ, Finset.sum_range_zero]
    interval_cases a <;> norm_num
  · intro e he h
    simp at h

end CT.ConDyn
