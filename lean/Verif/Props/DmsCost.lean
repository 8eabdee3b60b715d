import Verif.Model.DmsCost
import Verif.Props.DmsConstraints
import Verif.Props.DmsProblem
import Mathlib.Analysis.Calculus.Deriv.Add
import Mathlib.Analysis.Calculus.Deriv.Mul
import Mathlib.Algebra.BigOperators.Group.Finset.Basic

/-! # C107: value and gradient of the cost in direct multiple shooting -/

namespace CT.Dms

/-! ### Specification -/

section Spec
variable {K : Type} [Field K]

/-- Scalar product of lists. -/
def dot (a b : List K) : K := (List.zipWith (· * ·) a b).sum

/-- `a + s * d`. -/
def shift (a : List K) (s : K) (d : List K) : List K := List.zipWith (fun p q => p + s * q) a d

/-- The decision vector made of the nodes `0 .. N`. -/
def nodes (N : Nat) (X U : Nat → List K) : List K := flat ((List.range (N + 1)).map fun i => (X i, U i))

/-- Every node has `n` states and `m` controls. -/
def Dims (n m N : Nat) (X U : Nat → List K) : Prop := ∀ i ≤ N, (X i).length = n ∧ (U i).length = m

/-- Zero-order-hold quadrature of the cost on a grid `t`: length of each shot times the running cost at its start,
plus the final cost `F` of the last state. -/
def quadrature (N : Nat) (t : Nat → K) (L : List K → List K → K → K) (F : List K → K) (X U : Nat → List K) : K :=
  ∑ i ∈ Finset.range N, (t (i + 1) - t i) * L (X i) (U i) (t i) + F (X N)

/-- Sum of the costs of the shots plus the final cost. -/
def shotSum (N : Nat) (c : Nat → ShotCost K) (F : List K → K) (X U : Nat → List K) : K :=
  ∑ i ∈ Finset.range N, (c i).cost (X i) (U i) (U (i + 1)) + F (X N)

end Spec

/-- `D` are the derivatives of `L` and `Φ`, in every direction. -/
structure Correct (n m : Nat) (L : List ℝ → List ℝ → ℝ → ℝ) (Φ : List ℝ → ℝ → ℝ) (D : CostDeriv ℝ) : Prop where
  lenX : ∀ x u t, x.length = n → u.length = m → (D.Lx x u t).length = n
  lenU : ∀ x u t, x.length = n → u.length = m → (D.Lu x u t).length = m
  lenF : ∀ x t, x.length = n → (D.Φx x t).length = n
  inter : ∀ x u t dx du, x.length = n → u.length = m → dx.length = n → du.length = m →
    HasDerivAt (fun s => L (shift x s dx) (shift u s du) t) (dot (D.Lx x u t) dx + dot (D.Lu x u t) du) 0
  final : ∀ x t dx, x.length = n → dx.length = n →
    HasDerivAt (fun s => Φ (shift x s dx) t) (dot (D.Φx x t) dx) 0

/-- The sensitivities of a shot are the derivatives of its cost, in every direction (C83 is about the integration that
computes them); with zero-order hold the cost does not depend on the second control node. -/
structure ShotCorrect (sp : Spline) (n m : Nat) (c : ShotCost ℝ) : Prop where
  lenS : ∀ x u u', x.length = n → u.length = m → u'.length = m → (c.dS x u u').length = n
  lenQ : ∀ x u u', x.length = n → u.length = m → u'.length = m → (c.dQ x u u').length = m
  lenQ' : ∀ x u u', x.length = n → u.length = m → u'.length = m → (c.dQNext x u u').length = m
  deriv : ∀ x u u' dx du du', x.length = n → u.length = m → u'.length = m → dx.length = n → du.length = m →
    du'.length = m → HasDerivAt (fun s => c.cost (shift x s dx) (shift u s du) (shift u' s du'))
      (dot (c.dS x u u') dx + dot (c.dQ x u u') du + (if sp = .linear then dot (c.dQNext x u u') du' else 0)) 0

/-! ### Adding to segments -/

section Seg
variable {K : Type} [Field K]

theorem dot_cons (a b : K) (l r : List K) : dot (a :: l) (b :: r) = a * b + dot l r := by simp [dot]

theorem dot_nil (r : List K) : dot [] r = 0 := by simp [dot]

theorem dot_zero (k : Nat) (d : List K) : dot (List.replicate k 0) d = 0 := by
  induction k generalizing d with
  | zero => simp [dot]
  | succ k ih =>
    cases d with
    | nil => simp [dot]
    | cons b d => rw [List.replicate_succ, dot_cons, ih]; simp

theorem dot_append (s a r : List K) (h : s.length ≤ a.length) : dot s (a ++ r) = dot s a := by
  induction s generalizing a with
  | nil => simp [dot_nil]
  | cons b s ih =>
    cases a with
    | nil => simp at h
    | cons c a => rw [List.cons_append, dot_cons, dot_cons, ih a (by simpa using h)]

theorem dot_smul (p : K) (s a : List K) : dot (s.map (p * ·)) a = p * dot s a := by
  induction s generalizing a with
  | nil => simp [dot]
  | cons b s ih =>
    cases a with
    | nil => simp [dot]
    | cons c a => rw [List.map_cons, dot_cons, dot_cons, ih]; ring

theorem zip_dot (v s d : List K) (h : s.length ≤ v.length) (hd : d.length = v.length) :
    dot (List.zipWith (· + ·) v s ++ v.drop s.length) d = dot v d + dot s d := by
  induction s generalizing v d with
  | nil => simp [dot_nil]
  | cons b s ih =>
    cases v with
    | nil => simp at h
    | cons a v =>
      cases d with
      | nil => simp at hd
      | cons c d =>
        simp only [List.zipWith_cons_cons, List.length_cons, List.drop_succ_cons, List.cons_append, dot_cons]
        rw [ih v d (by simpa using h) (by simpa using hd)]
        ring

/-- Adding a segment changes every scalar product by that of the segment with the corresponding part. -/
theorem addSeg_dot (v s : List K) (ind : Nat) (h : ind + s.length ≤ v.length) :
    ∃ v', addSeg v ind s = .ok v' ∧ v'.length = v.length ∧
      ∀ d : List K, d.length = v.length → dot v' d = dot v d + dot s (d.drop ind) := by
  rw [addSeg, if_pos h]
  refine ⟨_, rfl, by simp; omega, ?_⟩
  induction ind generalizing v with
  | zero =>
    intro d hd
    simpa using zip_dot v s d (by omega) hd
  | succ i ih =>
    intro d hd
    cases v with
    | nil => simp at h
    | cons a v =>
      cases d with
      | nil => simp at hd
      | cons c d =>
        have := ih v (by simp at h; omega) d (by simpa using hd)
        have e : i + 1 + s.length = (i + s.length) + 1 := by omega
        rw [e]
        simp only [List.take_succ_cons, List.drop_succ_cons, List.cons_append, dot_cons]
        rw [this]
        ring

end Seg

/-! ### Reading nodes -/

section Nodes
variable {K : Type} [Field K] {n m N : Nat} {X U : Nat → List K}

theorem Dims.mem (h : Dims n m N X U) :
    ∀ z ∈ (List.range (N + 1)).map fun i => (X i, U i), z.1.length = n ∧ z.2.length = m := by
  intro z hz
  obtain ⟨i, hi, rfl⟩ := List.mem_map.1 hz
  exact h i (by have := List.mem_range.1 hi; omega)

theorem nodes_length (h : Dims n m N X U) : (nodes N X U).length = (N + 1) * (n + m) := by
  rw [nodes, flat_length _ h.mem]; simp

theorem node_reads {w : OptVec K} (hw : Shaped w n m N) (h : Dims n m N X U) (hx : w.x = nodes N X U) (i : Nat)
    (hi : i ≤ N) : w.getOptimizedState i = .ok (X i) ∧ w.getOptimizedControl i = .ok (U i) := by
  have := flat_reads hw _ h.mem (by simp) hx i (by simp; omega)
  simpa using this

theorem nodes_drop (h : Dims n m N X U) (i : Nat) (hi : i ≤ N) :
    ∃ r, (nodes N X U).drop (i * (n + m)) = X i ++ (U i ++ r) := by
  refine ⟨flat (((List.range (N + 1)).map fun i => (X i, U i)).drop (i + 1)), ?_⟩
  rw [nodes, flat_drop _ h.mem, List.drop_eq_getElem_cons (by simp; omega), flat, List.flatMap_cons, List.append_assoc]
  simp [flat]

theorem dot_state (h : Dims n m N X U) (i : Nat) (hi : i ≤ N) (s : List K) (hs : s.length = n) :
    dot s ((nodes N X U).drop (i * (n + m))) = dot s (X i) := by
  obtain ⟨r, e⟩ := nodes_drop h i hi
  rw [e, dot_append _ _ _ (by rw [hs, (h i hi).1])]

theorem dot_control (h : Dims n m N X U) (i : Nat) (hi : i ≤ N) (s : List K) (hs : s.length = m) :
    dot s ((nodes N X U).drop (i * (n + m) + n)) = dot s (U i) := by
  obtain ⟨r, e⟩ := nodes_drop h i hi
  rw [← List.drop_drop, e, List.drop_left' (h i hi).1, dot_append _ _ _ (by rw [hs, (h i hi).2])]

theorem zoh_weights (g : TimeGrid K) (t : Nat → K) (ht : ∀ i ≤ N, g.t[i]? = some (t i)) :
    ∃ phi, updatePhi .zoh g N = .ok phi ∧ (∀ i < N, idx phi i = .ok (t (i + 1) - t i)) ∧ idx phi N = .ok 0 := by
  have hd : (List.range N).mapM g.duration = .ok ((List.range N).map fun i => t (i + 1) - t i) := by
    refine mapM_ok _ _ _ fun i hi => ?_
    have := List.mem_range.1 hi
    rw [TimeGrid.duration, idx_eq (ht (i + 1) (by omega)), Res.ok_bind, idx_eq (ht i (by omega))]
    rfl
  refine ⟨(List.range N).map (fun i => t (i + 1) - t i) ++ [0], by rw [updatePhi, hd]; rfl, fun i hi => ?_, ?_⟩
  · refine idx_eq ?_
    rw [List.getElem?_append_left (by simpa using hi)]
    simp [hi]
  · refine idx_eq ?_
    rw [List.getElem?_append_right (by simp)]
    simp

/-! ### Values -/

theorem sum_range_list (f : Nat → K) (k : Nat) :
    ((List.range k).map f).sum = ∑ i ∈ Finset.range k, f i := by
  induction k with
  | zero => simp
  | succ k ih => rw [List.range_succ, List.map_append, List.sum_append, ih, Finset.sum_range_succ]; simp

theorem simpleCost_eq {w : OptVec K} (hw : Shaped w n m N) (h : Dims n m N X U) (hx : w.x = nodes N X U)
    (g : TimeGrid K) (t : Nat → K) (ht : ∀ i ≤ N, g.t[i]? = some (t i)) (phi : List K) (p : Nat → K)
    (hp : ∀ i ≤ N, idx phi i = .ok (p i)) (L : List K → List K → K → K) (Φ : List K → K → K) :
    simpleCost w g phi N L Φ
      = .ok (∑ i ∈ Finset.range (N + 1), p i * L (X i) (U i) (t i) + Φ (X N) 0) := by
  have hm := mapM_ok (List.range (N + 1)) (fun i => do
      let x ← w.getOptimizedState i
      let u ← w.getOptimizedControl i
      let t ← g.start i
      let p ← idx phi i
      pure (p * L x u t)) (fun i => p i * L (X i) (U i) (t i)) (fun i hi => by
    have hi' : i ≤ N := by have := List.mem_range.1 hi; omega
    obtain ⟨e1, e2⟩ := node_reads hw h hx i hi'
    rw [e1, Res.ok_bind, e2, Res.ok_bind, TimeGrid.start, idx_eq (ht i hi'), Res.ok_bind, hp i hi', Res.ok_bind,
      Res.pure_eq])
  rw [simpleCost, hm, Res.ok_bind, (node_reads hw h hx N le_rfl).1, Res.ok_bind, Res.pure_eq]
  rw [sum_range_list]

theorem simple_fold {w : OptVec K} (hw : Shaped w n m N) (h : Dims n m N X U) (hx : w.x = nodes N X U)
    (g : TimeGrid K) (t : Nat → K) (ht : ∀ i ≤ N, g.t[i]? = some (t i)) (phi : List K) (p : Nat → K)
    (hp : ∀ i ≤ N, idx phi i = .ok (p i)) (D : CostDeriv K)
    (hX : ∀ i ≤ N, (D.Lx (X i) (U i) (t i)).length = n) (hU : ∀ i ≤ N, (D.Lu (X i) (U i) (t i)).length = m) (k : Nat)
    (hk : k ≤ N + 1) :
    ∃ v, (List.range k).foldlM (simpleGradStep w g phi D) (List.replicate ((N + 1) * (n + m)) 0) = .ok v ∧
      v.length = (N + 1) * (n + m) ∧ ∀ DX DU, Dims n m N DX DU → dot v (nodes N DX DU)
        = ∑ i ∈ Finset.range k, p i * (dot (D.Lx (X i) (U i) (t i)) (DX i) + dot (D.Lu (X i) (U i) (t i)) (DU i)) := by
  induction k with
  | zero => exact ⟨_, rfl, by simp, fun DX DU _ => by simp [dot_zero]⟩
  | succ k ih =>
    obtain ⟨v, h1, h2, h3⟩ := ih (by omega)
    have hk' : k ≤ N := by omega
    have hb := block_le (n := n) (m := m) hk'
    obtain ⟨e1, e2⟩ := node_reads hw h hx k hk'
    obtain ⟨v1, a1, a2, a3⟩ := addSeg_dot v ((D.Lx (X k) (U k) (t k)).map (p k * ·)) (k * (n + m))
      (by rw [List.length_map, hX k hk']; omega)
    obtain ⟨v2, b1, b2, b3⟩ := addSeg_dot v1 ((D.Lu (X k) (U k) (t k)).map (p k * ·)) (k * (n + m) + n)
      (by rw [List.length_map, hU k hk']; omega)
    refine ⟨v2, ?_, by omega, fun DX DU hD => ?_⟩
    · rw [List.range_succ, List.foldlM_append, h1, Res.ok_bind, List.foldlM_cons]
      simp only [simpleGradStep, e1, e2, Res.ok_bind, TimeGrid.start, idx_eq (ht k hk'), hp k hk', hw.stateIndex,
        hw.controlIndex, if_pos hk', a1, b1, List.foldlM_nil, Res.pure_eq]
    · have hl := nodes_length hD
      rw [Finset.sum_range_succ, b3 _ (by omega), a3 _ (by omega), h3 DX DU hD,
        dot_state hD k hk' _ (by rw [List.length_map, hX k hk']), dot_control hD k hk' _ (by rw [List.length_map, hU k hk']),
        dot_smul, dot_smul]
      ring

theorem full_fold (sp : Spline) {w : OptVec K} (hw : Shaped w n m N) (h : Dims n m N X U) (hx : w.x = nodes N X U)
    (c : Nat → ShotCost K) (hS : ∀ i < N, ((c i).dS (X i) (U i) (U (i + 1))).length = n)
    (hQ : ∀ i < N, ((c i).dQ (X i) (U i) (U (i + 1))).length = m)
    (hQ' : ∀ i < N, ((c i).dQNext (X i) (U i) (U (i + 1))).length = m) (k : Nat) (hk : k ≤ N) :
    ∃ v, (List.range k).foldlM (fullGradStep sp w ((List.range N).map c)) (List.replicate ((N + 1) * (n + m)) 0) = .ok v ∧
      v.length = (N + 1) * (n + m) ∧ ∀ DX DU, Dims n m N DX DU → dot v (nodes N DX DU)
        = ∑ i ∈ Finset.range k, (dot ((c i).dS (X i) (U i) (U (i + 1))) (DX i) + dot ((c i).dQ (X i) (U i) (U (i + 1))) (DU i)
          + (if sp = .linear then dot ((c i).dQNext (X i) (U i) (U (i + 1))) (DU (i + 1)) else 0)) := by
  induction k with
  | zero => exact ⟨_, rfl, by simp, fun DX DU _ => by simp [dot_zero]⟩
  | succ k ih =>
    obtain ⟨v, h1, h2, h3⟩ := ih (by omega)
    have hk' : k ≤ N := by omega
    have hk1 : k + 1 ≤ N := hk
    have hb := block_le (n := n) (m := m) hk'
    have hb1 := block_le (n := n) (m := m) hk1
    obtain ⟨e1, e2⟩ := node_reads hw h hx k hk'
    obtain ⟨-, e3⟩ := node_reads hw h hx (k + 1) hk1
    have hc : idx ((List.range N).map c) k = .ok (c k) := idx_eq (by simp [show k < N by omega])
    obtain ⟨v1, a1, a2, a3⟩ := addSeg_dot v ((c k).dS (X k) (U k) (U (k + 1))) (k * (n + m))
      (by rw [hS k (by omega)]; omega)
    obtain ⟨v2, b1, b2, b3⟩ := addSeg_dot v1 ((c k).dQ (X k) (U k) (U (k + 1))) (k * (n + m) + n)
      (by rw [hQ k (by omega)]; omega)
    obtain ⟨v3, c1, c2, c3⟩ := addSeg_dot v2 ((c k).dQNext (X k) (U k) (U (k + 1))) ((k + 1) * (n + m) + n)
      (by rw [hQ' k (by omega)]; omega)
    have hl : ∀ DX DU : Nat → List K, Dims n m N DX DU → (nodes N DX DU : List K).length = v.length := fun DX DU hD => by
      rw [nodes_length hD, h2]
    have key : ∀ DX DU, Dims n m N DX DU → dot v2 (nodes N DX DU) = dot v (nodes N DX DU)
        + dot ((c k).dS (X k) (U k) (U (k + 1))) (DX k) + dot ((c k).dQ (X k) (U k) (U (k + 1))) (DU k) := by
      intro DX DU hD
      have := hl DX DU hD
      rw [b3 _ (by omega), a3 _ (by omega), dot_state hD k hk' _ (hS k (by omega)), dot_control hD k hk' _ (hQ k (by omega))]
    cases sp with
    | zoh =>
      refine ⟨v2, ?_, by omega, fun DX DU hD => ?_⟩
      · rw [List.range_succ, List.foldlM_append, h1, Res.ok_bind, List.foldlM_cons]
        simp only [fullGradStep, shotVars, e1, e2, e3, hc, Res.ok_bind, Res.pure_eq, hw.stateIndex, hw.controlIndex,
          if_pos hk', a1, b1, List.foldlM_nil]
      · rw [Finset.sum_range_succ, key DX DU hD, h3 DX DU hD]
        simp only [reduceCtorEq, if_false]
        ring
    | linear =>
      refine ⟨v3, ?_, by omega, fun DX DU hD => ?_⟩
      · rw [List.range_succ, List.foldlM_append, h1, Res.ok_bind, List.foldlM_cons]
        simp only [fullGradStep, shotVars, e1, e2, e3, hc, Res.ok_bind, Res.pure_eq, hw.stateIndex, hw.controlIndex,
          if_pos hk', if_pos hk1, a1, b1, c1, List.foldlM_nil]
      · have := hl DX DU hD
        rw [Finset.sum_range_succ, c3 _ (by omega), key DX DU hD, h3 DX DU hD,
          dot_control hD (k + 1) hk1 _ (hQ' k (by omega))]
        simp only [if_true]
        ring

end Nodes

/-! ### C107 -/

section C107
variable {n m N : Nat} {X U : Nat → List ℝ}

/-- C107, simple evaluation with zero-order hold, value: with the weights computed from the grid, the reported cost is
the quadrature of the running cost plus the final cost of the last state, the latter at time zero. -/
theorem C107_simple_value_partial {w : OptVec ℝ} (hw : Shaped w n m N) (h : Dims n m N X U) (hx : w.x = nodes N X U)
    (g : TimeGrid ℝ) (t : Nat → ℝ) (ht : ∀ i ≤ N, g.t[i]? = some (t i)) (L : List ℝ → List ℝ → ℝ → ℝ)
    (Φ : List ℝ → ℝ → ℝ) :
    ∃ phi, updatePhi .zoh g N = .ok phi ∧ simpleCost w g phi N L Φ = .ok (quadrature N t L (fun x => Φ x 0) X U) := by
  obtain ⟨phi, h1, h2, h3⟩ := zoh_weights g t ht
  refine ⟨phi, h1, ?_⟩
  rw [simpleCost_eq hw h hx g t ht phi (fun i => if i < N then t (i + 1) - t i else 0) (fun i hi => ?_)]
  · rw [Finset.sum_range_succ, quadrature]
    simp only [lt_self_iff_false, if_false, zero_mul, add_zero]
    congr 2
    exact Finset.sum_congr rfl fun i hi => by rw [if_pos (Finset.mem_range.1 hi)]
  · by_cases e : i < N
    · simp only [if_pos e]; exact h2 i e
    · obtain rfl : i = N := by omega
      simpa using h3

/-- C107, simple evaluation with zero-order hold, gradient: if the cost function provides the derivatives of its
terms, the gradient has the length of the decision vector and its scalar product with every direction is the
derivative of the reported cost in that direction. -/
theorem C107_simple_gradient {w : OptVec ℝ} (hw : Shaped w n m N) (h : Dims n m N X U) (hx : w.x = nodes N X U)
    (g : TimeGrid ℝ) (t : Nat → ℝ) (ht : ∀ i ≤ N, g.t[i]? = some (t i)) (L : List ℝ → List ℝ → ℝ → ℝ)
    (Φ : List ℝ → ℝ → ℝ) (D : CostDeriv ℝ) (hD : Correct n m L Φ D) :
    ∃ phi v, updatePhi .zoh g N = .ok phi ∧ simpleGrad w g phi N D w.x.length = .ok v ∧ v.length = w.x.length ∧
      ∀ DX DU, Dims n m N DX DU → HasDerivAt
        (fun s => quadrature N t L (fun x => Φ x 0) (fun i => shift (X i) s (DX i)) (fun i => shift (U i) s (DU i)))
        (dot v (nodes N DX DU)) 0 := by
  obtain ⟨phi, h1, h2, h3⟩ := zoh_weights g t ht
  have hp : ∀ i ≤ N, idx phi i = .ok (if i < N then t (i + 1) - t i else 0) := by
    intro i hi
    by_cases e : i < N
    · simp only [if_pos e]; exact h2 i e
    · obtain rfl : i = N := by omega
      simpa using h3
  obtain ⟨v, a1, a2, a3⟩ := simple_fold hw h hx g t ht phi _ hp D (fun i hi => hD.lenX _ _ _ (h i hi).1 (h i hi).2)
    (fun i hi => hD.lenU _ _ _ (h i hi).1 (h i hi).2) (N + 1) le_rfl
  have hb := block_le (n := n) (m := m) (le_refl N)
  have hl : w.x.length = (N + 1) * (n + m) := by rw [hx, nodes_length h]
  obtain ⟨v', b1, b2, b3⟩ := addSeg_dot v (D.Φx (X N) 0) (N * (n + m)) (by rw [hD.lenF _ _ (h N le_rfl).1]; omega)
  refine ⟨phi, v', h1, ?_, by omega, fun DX DU hd => ?_⟩
  · rw [simpleGrad, hl, a1, Res.ok_bind, (node_reads hw h hx N le_rfl).1, Res.ok_bind, hw.stateIndex, if_pos le_rfl,
      Res.ok_bind, b1]
  · rw [b3 _ (by rw [nodes_length hd, a2]), a3 DX DU hd, dot_state hd N le_rfl _ (hD.lenF _ _ (h N le_rfl).1),
      Finset.sum_range_succ]
    simp only [lt_self_iff_false, if_false, zero_mul, add_zero, quadrature]
    refine HasDerivAt.add (HasDerivAt.fun_sum fun i hi => ?_) (hD.final _ _ _ (h N le_rfl).1 (hd N le_rfl).1)
    have hi := Finset.mem_range.1 hi
    rw [if_pos hi]
    exact (hD.inter _ _ _ _ _ (h i hi.le).1 (h i hi.le).2 (hd i hi.le).1 (hd i hi.le).2).const_mul _

/-- C107, full evaluation, value: the sum of the costs of the shots plus the final cost of the last state at time
zero. -/
theorem C107_full_value_partial {w : OptVec ℝ} (hw : Shaped w n m N) (h : Dims n m N X U) (hx : w.x = nodes N X U)
    (c : Nat → ShotCost ℝ) (Φ : List ℝ → ℝ → ℝ) :
    fullCost w ((List.range N).map c) N Φ = .ok (shotSum N c (fun x => Φ x 0) X U) := by
  have hm := mapM_ok (List.range N) (fun i => do
      let k ← idx ((List.range N).map c) i
      let z ← shotVars w i
      pure (k.cost z.1 z.2.1 z.2.2)) (fun i => (c i).cost (X i) (U i) (U (i + 1))) (fun i hi => by
    have hi' := List.mem_range.1 hi
    obtain ⟨e1, e2⟩ := node_reads hw h hx i hi'.le
    have hc : idx ((List.range N).map c) i = .ok (c i) := idx_eq (by simp [hi'])
    simp only [hc, shotVars, e1, e2, (node_reads hw h hx (i + 1) hi').2, Res.ok_bind, Res.pure_eq])
  have hlen : ((List.range N).map c).length = N := by simp
  rw [fullCost, hlen, hm, Res.ok_bind, (node_reads hw h hx N le_rfl).1, Res.ok_bind, Res.pure_eq, sum_range_list, shotSum]

/-- C107, full evaluation, gradient, for both kinds of splines: if the sensitivities of the shots and of the final cost
are right, the gradient is that of the reported cost, in every direction of the decision vector. -/
theorem C107_full_gradient (sp : Spline) {w : OptVec ℝ} (hw : Shaped w n m N) (h : Dims n m N X U)
    (hx : w.x = nodes N X U) (c : Nat → ShotCost ℝ) (hc : ∀ i < N, ShotCorrect sp n m (c i))
    (L : List ℝ → List ℝ → ℝ → ℝ) (Φ : List ℝ → ℝ → ℝ) (D : CostDeriv ℝ) (hD : Correct n m L Φ D) :
    ∃ v, fullGrad sp w ((List.range N).map c) N D.Φx w.x.length = .ok v ∧ v.length = w.x.length ∧
      ∀ DX DU, Dims n m N DX DU → HasDerivAt
        (fun s => shotSum N c (fun x => Φ x 0) (fun i => shift (X i) s (DX i)) (fun i => shift (U i) s (DU i)))
        (dot v (nodes N DX DU)) 0 := by
  have l1 : ∀ i < N, (X i).length = n ∧ (U i).length = m ∧ (U (i + 1)).length = m := fun i hi =>
    ⟨(h i hi.le).1, (h i hi.le).2, (h (i + 1) hi).2⟩
  obtain ⟨v, a1, a2, a3⟩ := full_fold sp hw h hx c (fun i hi => (hc i hi).lenS _ _ _ (l1 i hi).1 (l1 i hi).2.1 (l1 i hi).2.2)
    (fun i hi => (hc i hi).lenQ _ _ _ (l1 i hi).1 (l1 i hi).2.1 (l1 i hi).2.2)
    (fun i hi => (hc i hi).lenQ' _ _ _ (l1 i hi).1 (l1 i hi).2.1 (l1 i hi).2.2) N le_rfl
  have hb := block_le (n := n) (m := m) (le_refl N)
  have hl : w.x.length = (N + 1) * (n + m) := by rw [hx, nodes_length h]
  have hlen : ((List.range N).map c).length = N := by simp
  obtain ⟨v', b1, b2, b3⟩ := addSeg_dot v (D.Φx (X N) 0) (N * (n + m)) (by rw [hD.lenF _ _ (h N le_rfl).1]; omega)
  refine ⟨v', ?_, by omega, fun DX DU hd => ?_⟩
  · rw [fullGrad, hlen, hl, a1, Res.ok_bind, (node_reads hw h hx N le_rfl).1, Res.ok_bind, hw.stateIndex, if_pos le_rfl,
      Res.ok_bind, b1]
  · rw [b3 _ (by rw [nodes_length hd, a2]), a3 DX DU hd, dot_state hd N le_rfl _ (hD.lenF _ _ (h N le_rfl).1)]
    simp only [shotSum]
    refine HasDerivAt.add (HasDerivAt.fun_sum fun i hi => ?_) (hD.final _ _ _ (h N le_rfl).1 (hd N le_rfl).1)
    have hi := Finset.mem_range.1 hi
    exact (hc i hi).deriv _ _ _ _ _ _ (l1 i hi).1 (l1 i hi).2.1 (l1 i hi).2.2 (hd i hi.le).1 (hd i hi.le).2
      (hd (i + 1) hi).2

/-- C107 does not hold for final costs that depend on time: the final cost is evaluated at time zero. With the time as
final cost and no running cost the reported cost is zero for every grid. -/
theorem C107_final_time_violated {w : OptVec ℝ} (hw : Shaped w n m N) (h : Dims n m N X U) (hx : w.x = nodes N X U)
    (T : ℝ) : ∃ phi, updatePhi .zoh (TimeGrid.mk' N T) N = .ok phi ∧
      simpleCost w (TimeGrid.mk' N T) phi N (fun _ _ _ => 0) (fun _ t => t) = .ok 0 := by
  obtain ⟨-, -, -, hg⟩ := uniform_mk N T
  obtain ⟨phi, h1, h2⟩ := C107_simple_value_partial hw h hx (TimeGrid.mk' N T) _ hg (fun _ _ _ => 0) (fun _ t => t)
  exact ⟨phi, h1, by rw [h2]; simp [quadrature]⟩

/-- C107 does not hold after the horizon has been changed: the weights stay those of the grid at construction, so that a
running cost of one still adds up to the old horizon. -/
theorem C107_stale_weights_violated {w : OptVec ℝ} (hw : Shaped w n m N) (h : Dims n m N X U) (hx : w.x = nodes N X U)
    (hN : 0 < N) (T T' : ℝ) : ∃ e, SimpleEvaluator.mk' .zoh (TimeGrid.mk' N T) N = .ok e ∧
      e.eval w ((TimeGrid.mk' N T).changeTimeHorizon T') N (fun _ _ _ => 1) (fun _ _ => 0) = .ok T := by
  obtain ⟨-, -, -, hg⟩ := uniform_mk N T
  obtain ⟨-, -, -, hg'⟩ := changeTimeHorizon_uniform _ N T T' (uniform_mk N T)
  obtain ⟨phi, h1, h2, h3⟩ := zoh_weights (TimeGrid.mk' N T) _ hg
  refine ⟨⟨phi⟩, by rw [SimpleEvaluator.mk', h1]; rfl, ?_⟩
  rw [SimpleEvaluator.eval, simpleCost_eq hw h hx _ _ hg' phi (fun i => if i < N then T / N else 0) (fun i hi => ?_)]
  · rw [Finset.sum_range_succ]
    have : ∀ i ∈ Finset.range N, (if i < N then T / (N : ℝ) else 0) * 1 = T / N := fun i hi => by
      rw [if_pos (Finset.mem_range.1 hi), mul_one]
    rw [Finset.sum_congr rfl this]
    have hN' : (N : ℝ) ≠ 0 := by positivity
    simp
    field_simp
  · by_cases e : i < N
    · simp only [if_pos e]
      rw [h2 i e]
      congr 1
      push_cast
      ring
    · obtain rfl : i = N := by omega
      simpa using h3

/-- Two shots, one state, one control, running cost `x² + u²` and final cost `x²`: the hypotheses hold. -/
example : ∃ (w : OptVec ℝ) (X U : Nat → List ℝ) (L : List ℝ → List ℝ → ℝ → ℝ) (Φ : List ℝ → ℝ → ℝ) (D : CostDeriv ℝ),
    Shaped w 1 1 2 ∧ Dims 1 1 2 X U ∧ w.x = nodes 2 X U ∧ Correct 1 1 L Φ D ∧ L [1] [2] 0 = 5 := by
  refine ⟨{ OptVec.mk' 1 1 2 6 [0, 0, 0, 0, 0, 0] with x := [0, 1, 1, 2, 2, 3] }, fun i => [(i : ℝ)], fun i => [(i : ℝ) + 1],
    fun x u _ => x.headD 0 * x.headD 0 + u.headD 0 * u.headD 0, fun x _ => x.headD 0 * x.headD 0,
    ⟨fun x _ _ => [2 * x.headD 0], fun _ u _ => [2 * u.headD 0], fun x _ => [2 * x.headD 0]⟩,
    ⟨rfl, rfl, rfl, rfl, rfl, rfl, rfl, rfl⟩, fun i _ => ⟨rfl, rfl⟩, ?_, ?_, by norm_num⟩
  · norm_num [nodes, flat, List.range_succ]
  · have sq : ∀ a b : ℝ, HasDerivAt (fun s : ℝ => (a + s * b) * (a + s * b)) (2 * a * b) 0 := by
      intro a b
      have h1 : HasDerivAt (fun s : ℝ => a + s * b) b 0 := by
        simpa using ((hasDerivAt_id (0 : ℝ)).mul_const b).const_add a
      have := h1.mul h1
      have e : b * (a + 0 * b) + (a + 0 * b) * b = 2 * a * b := by ring
      rw [e] at this
      exact this
    refine ⟨fun _ _ _ _ _ => rfl, fun _ _ _ _ _ => rfl, fun _ _ _ => rfl, fun x u t dx du hx hu hdx hdu => ?_,
      fun x t dx hx hdx => ?_⟩
    · obtain ⟨a, rfl⟩ := List.length_eq_one_iff.1 hx
      obtain ⟨b, rfl⟩ := List.length_eq_one_iff.1 hu
      obtain ⟨c, rfl⟩ := List.length_eq_one_iff.1 hdx
      obtain ⟨d, rfl⟩ := List.length_eq_one_iff.1 hdu
      have := (sq a c).add (sq b d)
      simp only [shift, dot, List.zipWith_cons_cons, List.zipWith_nil_left, List.headD_cons, List.sum_cons, List.sum_nil, add_zero]
      exact this
    · obtain ⟨a, rfl⟩ := List.length_eq_one_iff.1 hx
      obtain ⟨c, rfl⟩ := List.length_eq_one_iff.1 hdx
      simpa [shift, dot] using sq a c

/-- A shot whose cost depends on both control nodes, as with linear splines. -/
example : ShotCorrect .linear 1 1 ⟨fun x u u' => 3 * x.headD 0 + 5 * u.headD 0 + 7 * u'.headD 0, fun _ _ _ => [3],
    fun _ _ _ => [5], fun _ _ _ => [7]⟩ := by
  refine ⟨fun _ _ _ _ _ _ => rfl, fun _ _ _ _ _ _ => rfl, fun _ _ _ _ _ _ => rfl,
    fun x u u' dx du du' h1 h2 h3 h4 h5 h6 => ?_⟩
  obtain ⟨a, rfl⟩ := List.length_eq_one_iff.1 h1
  obtain ⟨b, rfl⟩ := List.length_eq_one_iff.1 h2
  obtain ⟨c, rfl⟩ := List.length_eq_one_iff.1 h3
  obtain ⟨d, rfl⟩ := List.length_eq_one_iff.1 h4
  obtain ⟨e, rfl⟩ := List.length_eq_one_iff.1 h5
  obtain ⟨f, rfl⟩ := List.length_eq_one_iff.1 h6
  have lin : ∀ r a b : ℝ, HasDerivAt (fun s : ℝ => r * (a + s * b)) (r * b) 0 := fun r a b => by
    simpa using (((hasDerivAt_id (0 : ℝ)).mul_const b).const_add a).const_mul r
  have := ((lin 3 a d).add (lin 5 b e)).add (lin 7 c f)
  simp only [shift, dot, List.zipWith_cons_cons, List.zipWith_nil_left, List.headD_cons, List.sum_cons, List.sum_nil,
    add_zero, if_true]
  exact this

end C107

end CT.Dms
