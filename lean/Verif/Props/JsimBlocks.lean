import Verif.Props.JsimInverseBase
import Mathlib.Data.Matrix.Block
import Mathlib.Logic.Equiv.Fin.Basic

/-!
# Factor and inverse of a matrix of independent blocks

The generated statements of a robot with several branches leave out the entries between the branches.
`blocks_correct` shows that they are right all the same for a matrix that is zero there.
-/

namespace CT.JsimFactor

open CT Finset

/-- The statement with all its indices moved by `k`. -/
def Stmt.shift (k : ℕ) : Stmt → Stmt
  | .sqrt a b c d => .sqrt (k + a) (k + b) (k + c) (k + d)
  | .div a b c d e f => .div (k + a) (k + b) (k + c) (k + d) (k + e) (k + f)
  | .sub a b c d e f g h => .sub (k + a) (k + b) (k + c) (k + d) (k + e) (k + f) (k + g) (k + h)
  | .recip a b c d => .recip (k + a) (k + b) (k + c) (k + d)
  | .back a b c d l => .back (k + a) (k + b) (k + c) (k + d)
      (l.map fun t => (k + t.1, k + t.2.1, k + t.2.2.1, k + t.2.2.2))
  | .prod a b l => .prod (k + a) (k + b) (l.map fun t => (k + t.1, k + t.2.1, k + t.2.2.1, k + t.2.2.2))
  | .copy a b c d => .copy (k + a) (k + b) (k + c) (k + d)

/-- The members from row and column `k` on. -/
def Fact.view (k : ℕ) (x : Fact) : Fact :=
  ⟨fun i j => x.L (k + i) (k + j), fun i j => x.Linv (k + i) (k + j), fun i j => x.inverse (k + i) (k + j)⟩

theorem view_act (k : ℕ) (s : Stmt) (x : Fact) : ((s.shift k).act x).view k = s.act (x.view k) := by
  have key : ∀ (A : Arr) (a b : ℕ) (v : ℝ), (fun i j => put A (k + a) (k + b) v (k + i) (k + j))
      = put (fun i j => A (k + i) (k + j)) a b v := by
    intro A a b v
    funext i j
    simp [put]
  cases s <;> simp only [Stmt.shift, Stmt.act, Fact.view, key, List.map_map, Function.comp_def]

theorem view_acts (k : ℕ) (p : List Stmt) (x : Fact) :
    (acts (p.map (Stmt.shift k)) x).view k = acts p (x.view k) := by
  induction p generalizing x with
  | nil => rfl
  | cons s p ih =>
    have h := ih ((s.shift k).act x)
    rw [view_act] at h
    exact h

/-- Statements that write outside of a set of entries do not matter for the set if the others read only
inside. -/
theorem acts_filter (P : Cell → Bool) (p : List Stmt)
    (h : ∀ s ∈ p, P s.target = true → ∀ c ∈ s.reads, P c = true) (x y : Fact)
    (hxy : ∀ c, P c = true → x.get c = y.get c) (c : Cell) (hc : P c = true) :
    (acts p x).get c = (acts (p.filter fun s => P s.target) y).get c := by
  induction p generalizing x y with
  | nil => exact hxy c hc
  | cons s p ih =>
    by_cases hs : P s.target = true
    · rw [List.filter_cons_of_pos (p := fun s : Stmt => P s.target) hs]
      refine ih (fun t ht => h t (by simp [ht])) (s.act x) (s.act y) fun d hd => ?_
      by_cases hds : d = s.target
      · subst hds
        exact get_act_target x y s fun e he => hxy e (h s (by simp) hs e he)
      · rw [get_act_ne x s hds, get_act_ne y s hds, hxy d hd]
    · rw [List.filter_cons_of_neg (p := fun s : Stmt => P s.target) hs]
      refine ih (fun t ht => h t (by simp [ht])) (s.act x) y fun d hd => ?_
      rw [get_act_ne x s (fun e => hs (e ▸ hd)), hxy d hd]

/-- Row and column belong to block `k` of width `w`. -/
def inBlock (w k : ℕ) (c : Cell) : Bool := c.2.1 / w == k && c.2.2 / w == k

/-- The statements are, block by block, those of one block. -/
structure Split (b w : ℕ) (p p1 : List Stmt) : Prop where
  block : ∀ k < b, (p.filter fun s => inBlock w k s.target) = p1.map (Stmt.shift (w * k))
  reads : ∀ s ∈ p, ∀ c ∈ s.reads, inBlock w (s.target.2.1 / w) c = true
  target : ∀ s ∈ p, s.target.2.1 / w = s.target.2.2 / w

theorem Split.append {b w : ℕ} {p p1 r r1 : List Stmt} (h : Split b w p p1) (g : Split b w r r1) :
    Split b w (p ++ r) (p1 ++ r1) := by
  refine ⟨fun k hk => ?_, fun s hs => ?_, fun s hs => ?_⟩
  · rw [List.filter_append, h.block k hk, g.block k hk, List.map_append]
  · rcases List.mem_append.mp hs with hs | hs
    exacts [h.reads s hs, g.reads s hs]
  · rcases List.mem_append.mp hs with hs | hs
    exacts [h.target s hs, g.target s hs]

/-- Two states agree on the leading `w` rows and columns. -/
def Agree (w : ℕ) (x y : Fact) : Prop := ∀ t : Fin 3, ∀ i < w, ∀ j < w, x.get (t, i, j) = y.get (t, i, j)

theorem Split.view {b w k : ℕ} (hw : 0 < w) (hk : k < b) {p p1 : List Stmt} (h : Split b w p p1) (x y : Fact)
    (hxy : Agree w (x.view (w * k)) (y.view (w * k))) :
    Agree w ((acts p x).view (w * k)) (acts p1 (y.view (w * k))) := by
  have hview : ∀ (z : Fact) (t : Fin 3) (i j : ℕ), (z.view (w * k)).get (t, i, j) = z.get (t, w * k + i, w * k + j) := by
    intro z t i j
    fin_cases t <;> rfl
  intro t i hi j hj
  rw [← view_acts, ← h.block k hk, hview, hview]
  refine acts_filter (inBlock w k) p (fun s hs ht c hc => ?_) x y (fun c hc => ?_) _ ?_
  · have h1 : s.target.2.1 / w = k := by
      simp only [inBlock, Bool.and_eq_true, beq_iff_eq] at ht
      exact ht.1
    have h2 := h.reads s hs c hc
    rwa [h1] at h2
  · obtain ⟨t, a, d⟩ := c
    simp only [inBlock, Bool.and_eq_true, beq_iff_eq] at hc
    have ha : a = w * k + a % w := by rw [← hc.1, Nat.div_add_mod]
    have hd : d = w * k + d % w := by rw [← hc.2, Nat.div_add_mod]
    have h1 := hxy t (a % w) (Nat.mod_lt _ hw) (d % w) (Nat.mod_lt _ hw)
    rwa [hview, hview, ← ha, ← hd] at h1
  · simp only [inBlock, Bool.and_eq_true, beq_iff_eq]
    exact ⟨by rw [Nat.mul_add_div hw, Nat.div_eq_of_lt hi, add_zero], by rw [Nat.mul_add_div hw, Nat.div_eq_of_lt hj, add_zero]⟩

theorem Split.off {b w : ℕ} {p p1 : List Stmt} (h : Split b w p p1) (x : Fact) (t : Fin 3) (i j : ℕ)
    (hij : i / w ≠ j / w) : (acts p x).get (t, i, j) = x.get (t, i, j) :=
  acts_frame p x fun s hs e => hij (by have := h.target s hs; rwa [← e] at this)

/-- Position within the block and block, as the index in the whole matrix. -/
def blockIndex (b w : ℕ) : Fin w × Fin b ≃ Fin (b * w) := (Equiv.prodComm _ _).trans finProdFinEquiv

theorem blockIndex_val {b w : ℕ} (a : Fin w × Fin b) : (blockIndex b w a : ℕ) = w * a.2 + a.1 := by
  simp [blockIndex, add_comm]

theorem blockIndex_div {b w : ℕ} (a : Fin w × Fin b) : (blockIndex b w a : ℕ) / w = a.2 := by
  have hw : 0 < w := by have := a.1.2; omega
  rw [blockIndex_val, Nat.mul_add_div hw, Nat.div_eq_of_lt a.1.2, add_zero]

theorem blockDiagonal_of {b w : ℕ} (A : Matrix (Fin (b * w)) (Fin (b * w)) ℝ)
    (h : ∀ i j : Fin (b * w), (i : ℕ) / w ≠ (j : ℕ) / w → A i j = 0) :
    A.submatrix (blockIndex b w) (blockIndex b w)
      = Matrix.blockDiagonal fun k => A.submatrix (fun i => blockIndex b w (i, k)) (fun i => blockIndex b w (i, k)) := by
  ext ⟨i, k⟩ ⟨j, l⟩
  by_cases hkl : k = l
  · subst hkl
    rw [Matrix.blockDiagonal_apply_eq]
    rfl
  · rw [Matrix.blockDiagonal_apply_ne _ _ _ hkl]
    refine h _ _ ?_
    rw [blockIndex_div, blockIndex_div]
    exact fun e => hkl (Fin.ext e)

/-- `computeL` and `computeInverse` for a symmetric positive definite matrix that is zero between its `b` blocks
of width `w`; the entries of `inverse` between the blocks are never written and have to be zero before. -/
theorem blocks_correct {b w : ℕ} (hw0 : 0 < w) {p pL pI p1 pL1 pI1 : List Stmt} (hp : Split b w p p1)
    (hL : Split b w pL pL1) (hI : Split b w pI pI1) (h1 : p1 = ltl w)
    (hin1 : ∀ s ∈ p1 ++ (pL1 ++ pI1), s.indices.all (· < w) = true) (hc : Complete w pL1 pI1)
    (hin : ∀ s ∈ p ++ (pL ++ pI), s.indices.all (· < b * w) = true)
    (H : Matrix (Fin (b * w)) (Fin (b * w)) ℝ) (hs : H.transpose = H)
    (hpd : ∀ x : Fin (b * w) → ℝ, x ≠ 0 → 0 < dotProduct x (H.mulVec x))
    (hz : ∀ i j : Fin (b * w), (i : ℕ) / w ≠ (j : ℕ) / w → H i j = 0) (x : Fact)
    (hx : ∀ i j : Fin (b * w), (i : ℕ) / w ≠ (j : ℕ) / w → x.inverse i j = 0) :
    ∃ y v, computeL p H x = .ok y ∧ computeInverse (b * w) pL pI y = .ok v
      ∧ (∀ i j, i < j → mat (b * w) y.L i j = 0) ∧ (∀ i, 0 < mat (b * w) y.L i i)
      ∧ (mat (b * w) y.L).transpose * mat (b * w) y.L = H
      ∧ mat (b * w) v.L = mat (b * w) y.L ∧ H * mat (b * w) v.inverse = 1 := by
  have hy : computeL p H x = .ok (acts p { x with L := lower H }) :=
    run_eq (fun s h => hin s (List.mem_append_left _ h)) _
  obtain ⟨y, hyd⟩ : ∃ y, y = acts p { x with L := lower H } := ⟨_, rfl⟩
  rw [← hyd] at hy
  have hv : computeInverse (b * w) pL pI y = .ok (acts (pL ++ pI) y) := by
    rw [computeInverse, run_eq (fun s h => hin s (List.mem_append_right _ (List.mem_append_left _ h))), acts_append]
    exact run_eq (fun s h => hin s (List.mem_append_right _ (List.mem_append_right _ h))) _
  obtain ⟨v, hvd⟩ : ∃ v, v = acts (pL ++ pI) y := ⟨_, rfl⟩
  rw [← hvd] at hv
  let blk : Fin b → Matrix (Fin (b * w)) (Fin (b * w)) ℝ → Matrix (Fin w) (Fin w) ℝ := fun k A =>
    A.submatrix (fun i => blockIndex b w (i, k)) (fun i => blockIndex b w (i, k))
  have hLI := hL.append hI
  -- one block
  have key : ∀ k : Fin b, (∀ i j, i < j → blk k (mat (b * w) y.L) i j = 0) ∧ (∀ i, 0 < blk k (mat (b * w) y.L) i i)
      ∧ (blk k (mat (b * w) y.L)).transpose * blk k (mat (b * w) y.L) = blk k H
      ∧ blk k (mat (b * w) v.L) = blk k (mat (b * w) y.L) ∧ blk k H * blk k (mat (b * w) v.inverse) = 1 := by
    intro k
    have hsk : (blk k H).transpose = blk k H := by
      rw [Matrix.transpose_submatrix, hs]
    have hpk : ∀ u : Fin w → ℝ, u ≠ 0 → 0 < dotProduct u ((blk k H).mulVec u) := by
      intro u hu
      let U : Fin (b * w) → ℝ := fun i => if ((blockIndex b w).symm i).2 = k then u ((blockIndex b w).symm i).1 else 0
      have hU : U ≠ 0 := by
        intro h
        refine hu (funext fun i => ?_)
        simpa [U] using congrFun h (blockIndex b w (i, k))
      have h2 := hpd U hU
      have hsum : ∀ f : Fin (b * w) → ℝ, ∑ i, U i * f i = ∑ i, u i * f (blockIndex b w (i, k)) := by
        intro f
        rw [← (blockIndex b w).sum_comp, Fintype.sum_prod_type]
        refine Finset.sum_congr rfl fun i _ => ?_
        rw [Finset.sum_eq_single k]
        · simp [U]
        · intro l _ hl
          simp [U, hl]
        · simp
      have h3 : dotProduct U (H.mulVec U) = dotProduct u ((blk k H).mulVec u) := by
        unfold dotProduct
        rw [hsum]
        refine Finset.sum_congr rfl fun i _ => ?_
        congr 1
        unfold Matrix.mulVec dotProduct
        have h4 := hsum (fun j => H (blockIndex b w (i, k)) j)
        simp only [mul_comm] at h4 ⊢
        exact h4
      rwa [h3] at h2
    have hidx : ∀ i : Fin w, (blockIndex b w (i, k) : ℕ) = w * k + i := fun i => blockIndex_val (i, k)
    obtain ⟨y', v', e1, e2, f1, f2, f3, f4, f5⟩ := factor_correct h1 hin1 hc (blk k H) hsk hpk
      (({ x with L := lower H } : Fact).view (w * k))
    have e1' : y' = acts p1 { ({ x with L := lower H } : Fact).view (w * k) with L := lower (blk k H) } := by
      rw [computeL, run_eq (fun s h => hin1 s (List.mem_append_left _ h))] at e1
      exact (Res.ok.inj e1).symm
    have e2' : v' = acts (pL1 ++ pI1) y' := by
      rw [computeInverse, run_eq (fun s h => hin1 s (List.mem_append_right _ (List.mem_append_left _ h)))] at e2
      rw [acts_append]
      rw [Res.ok_bind, run_eq (fun s h => hin1 s (List.mem_append_right _ (List.mem_append_right _ h)))] at e2
      exact (Res.ok.inj e2).symm
    -- agreement of the whole with the block
    have a1 : Agree w (y.view (w * k)) y' := by
      rw [hyd, e1']
      have h5 := hp.view hw0 k.2 { x with L := lower H }
        { x with L := fun i j => lower (blk k H) (i - w * k) (j - w * k) } ?_
      · have h6 : (({ x with L := fun i j => lower (blk k H) (i - w * k) (j - w * k) } : Fact).view (w * k))
            = { ({ x with L := lower H } : Fact).view (w * k) with L := lower (blk k H) } := by
          simp [Fact.view]
        rw [h6] at h5
        exact h5
      · intro t i hi j hj
        have hb : ∀ i < w, w * k + i < b * w := fun i hi => by
          have := (blockIndex b w (⟨i, hi⟩, k)).2
          rwa [hidx] at this
        fin_cases t
        · simp only [Fact.view, Fact.get, lower, hb i hi, hb j hj, hi, hj, and_self, dite_true, Nat.add_sub_cancel_left, Nat.add_le_add_iff_left]
          split
          · have g1 : (⟨w * k + i, hb i hi⟩ : Fin (b * w)) = blockIndex b w (⟨i, hi⟩, k) := Fin.ext (hidx ⟨i, hi⟩).symm
            have g2 : (⟨w * k + j, hb j hj⟩ : Fin (b * w)) = blockIndex b w (⟨j, hj⟩, k) := Fin.ext (hidx ⟨j, hj⟩).symm
            rw [g1, g2]
            rfl
          · rfl
        · rfl
        · rfl
    have a2 : Agree w (v.view (w * k)) v' := by
      rw [hvd, e2']
      have hshift : y' = (⟨fun i j => y'.L (i - w * k) (j - w * k), fun i j => y'.Linv (i - w * k) (j - w * k),
          fun i j => y'.inverse (i - w * k) (j - w * k)⟩ : Fact).view (w * k) := by
        simp [Fact.view]
      rw [hshift]
      refine hLI.view hw0 k.2 _ _ ?_
      rw [← hshift]
      exact a1
    have b1 : blk k (mat (b * w) y.L) = mat w y'.L := by
      ext i j
      have := a1 0 i i.2 j j.2
      simp only [Fact.get, Fact.view] at this
      simp only [blk, mat, Matrix.submatrix_apply, hidx]
      exact this
    have b2 : blk k (mat (b * w) v.L) = mat w v'.L := by
      ext i j
      have := a2 0 i i.2 j j.2
      simp only [Fact.get, Fact.view] at this
      simp only [blk, mat, Matrix.submatrix_apply, hidx]
      exact this
    have b3 : blk k (mat (b * w) v.inverse) = mat w v'.inverse := by
      ext i j
      have := a2 2 i i.2 j j.2
      simp only [Fact.get, Fact.view] at this
      simp only [blk, mat, Matrix.submatrix_apply, hidx]
      exact this
    rw [b1, b2, b3]
    exact ⟨f1, f2, f3, f4, f5⟩
  -- between the blocks
  have oL : ∀ i j : Fin (b * w), (i : ℕ) / w ≠ (j : ℕ) / w → mat (b * w) y.L i j = 0 := by
    intro i j hij
    have h2 : y.L i j = lower H i j := by rw [hyd]; exact hp.off _ 0 i j hij
    rw [mat, h2]
    simp [lower, hz i j hij]
  have oI : ∀ i j : Fin (b * w), (i : ℕ) / w ≠ (j : ℕ) / w → mat (b * w) v.inverse i j = 0 := by
    intro i j hij
    have h2 : v.inverse i j = y.inverse i j := by rw [hvd]; exact hLI.off _ 2 i j hij
    have h3 : y.inverse i j = x.inverse i j := by rw [hyd]; exact hp.off _ 2 i j hij
    rw [mat, h2, h3, hx i j hij]
  have oV : ∀ i j : Fin (b * w), (i : ℕ) / w ≠ (j : ℕ) / w → mat (b * w) v.L i j = mat (b * w) y.L i j := by
    intro i j hij
    rw [mat, mat, hvd]
    exact hLI.off _ 0 i j hij
  have same : ∀ i j : Fin (b * w), (i : ℕ) / w = (j : ℕ) / w → ∃ (k : Fin b) (c d : Fin w),
      i = blockIndex b w (c, k) ∧ j = blockIndex b w (d, k) := by
    intro i j hij
    obtain ⟨⟨c, k⟩, rfl⟩ := (blockIndex b w).surjective i
    obtain ⟨⟨d, l⟩, rfl⟩ := (blockIndex b w).surjective j
    rw [blockIndex_div, blockIndex_div] at hij
    have : k = l := Fin.ext hij
    subst this
    exact ⟨k, c, d, rfl, rfl⟩
  have inj : Function.Injective fun A : Matrix (Fin (b * w)) (Fin (b * w)) ℝ => A.submatrix (blockIndex b w) (blockIndex b w) := by
    intro A B h
    have h2 := congrArg (fun M : Matrix (Fin w × Fin b) (Fin w × Fin b) ℝ => M.submatrix (blockIndex b w).symm (blockIndex b w).symm) h
    simpa using h2
  refine ⟨y, v, hy, hv, fun i j hij => ?_, fun i => ?_, inj ?_, ?_, inj ?_⟩
  · by_cases h : (i : ℕ) / w = (j : ℕ) / w
    · obtain ⟨k, c, d, rfl, rfl⟩ := same i j h
      refine (key k).1 c d ?_
      have h2 : (blockIndex b w (c, k) : ℕ) < blockIndex b w (d, k) := hij
      rw [blockIndex_val, blockIndex_val] at h2
      exact Fin.lt_def.mpr (by simpa using h2)
    · exact oL i j h
  · obtain ⟨k, c, d, rfl, -⟩ := same i i rfl
    exact (key k).2.1 c
  · show ((mat (b * w) y.L).transpose * mat (b * w) y.L).submatrix _ _ = H.submatrix _ _
    rw [← Matrix.submatrix_mul_equiv _ _ _ (blockIndex b w) _, ← Matrix.transpose_submatrix, blockDiagonal_of _ oL, blockDiagonal_of _ hz,
      Matrix.blockDiagonal_transpose, ← Matrix.blockDiagonal_mul]
    exact congrArg Matrix.blockDiagonal (funext fun k => (key k).2.2.1)
  · ext i j
    by_cases h : (i : ℕ) / w = (j : ℕ) / w
    · obtain ⟨k, c, d, rfl, rfl⟩ := same i j h
      exact congrFun (congrFun (key k).2.2.2.1 c) d
    · exact oV i j h
  · show (H * mat (b * w) v.inverse).submatrix _ _ = (1 : Matrix _ _ ℝ).submatrix _ _
    rw [← Matrix.submatrix_mul_equiv _ _ _ (blockIndex b w) _, blockDiagonal_of _ oI, blockDiagonal_of _ hz,
      ← Matrix.blockDiagonal_mul, Matrix.submatrix_one_equiv, ← Matrix.blockDiagonal_one]
    exact congrArg Matrix.blockDiagonal (funext fun k => (key k).2.2.2.2)

end CT.JsimFactor
