import Verif.Props.DmsConstraints

/-! # C50, C82: path constraints on the shooting grid -/

namespace CT.Dms

open CT.Nlp (at' dense Con rowsFrom offset)

variable {K U : Type}

/-! ### Specification -/

/-- A constraint container returns as much as it reports and its patterns stay within its rows and within the state
(`n`) and control (`m`) dimensions. -/
structure PathCon.Wf (n m : Nat) (c : PathCon K U) : Prop where
  evalI : ∀ p, (c.evalI p).length = c.nI
  evalT : ∀ p, (c.evalT p).length = c.nT
  lbI : c.lbI.length = c.nI
  ubI : c.ubI.length = c.nI
  lbT : c.lbT.length = c.nT
  ubT : c.ubT.length = c.nT
  jacSI : ∀ p, (c.jacSI p).length = c.nnzSI
  jacUI : ∀ p, (c.jacUI p).length = c.nnzUI
  jacST : ∀ p, (c.jacST p).length = c.nnzST
  jacUT : ∀ p, (c.jacUT p).length = c.nnzUT
  patSI : c.patSI.length = c.nnzSI
  patUI : c.patUI.length = c.nnzUI
  patST : c.patST.length = c.nnzST
  patUT : c.patUT.length = c.nnzUT
  rowSI : ∀ k ∈ c.patSI, k.1 < c.nI ∧ k.2 < n
  rowUI : ∀ k ∈ c.patUI, k.1 < c.nI ∧ k.2 < m
  rowST : ∀ k ∈ c.patST, k.1 < c.nT ∧ k.2 < n
  rowUT : ∀ k ∈ c.patUT, k.1 < c.nT ∧ k.2 < m

/-- Configuration of the discretiser. -/
inductive AddOp (K U : Type) where
  | box (c : PathCon K U)
  | general (c : PathCon K U)

/-- The container handed over. -/
def AddOp.con : AddOp K U → PathCon K U
  | .box c => c
  | .general c => c

/-- Carry out one configuration call. -/
def AddOp.apply (d : Discretizer K U) : AddOp K U → Discretizer K U
  | .box c => d.setBox c
  | .general c => d.setGeneral c

/-- A discretiser of `N` shots after the configuration calls `ops`. -/
def configured (N : Nat) (ops : List (AddOp K U)) : Discretizer K U := ops.foldl AddOp.apply (Discretizer.mk' N)

/-- Entries by the input of an intermediate and terminal constraint that the call leaves out of the count. -/
def AddOp.missedI : AddOp K U → Nat
  | .box _ => 0
  | .general c => c.nnzUI

/-- See `missedI`. -/
def AddOp.missedT : AddOp K U → Nat
  | .box _ => 0
  | .general c => c.nnzUT

/-! ### Counts -/

theorem foldl_counts (ops : List (AddOp K U)) (d : Discretizer K U) (hc : d.count = d.countI + d.countT)
    (hz : d.nnz = d.nnzI + d.nnzT) :
    (ops.foldl AddOp.apply d).N = d.N ∧ (ops.foldl AddOp.apply d).cons = d.cons ++ ops.map AddOp.con ∧
    (ops.foldl AddOp.apply d).count
      = d.count + (d.N + 1) * ((ops.map AddOp.con).map PathCon.nI).sum + ((ops.map AddOp.con).map PathCon.nT).sum ∧
    (ops.foldl AddOp.apply d).nnz + (d.N + 1) * (ops.map AddOp.missedI).sum + (ops.map AddOp.missedT).sum
      = d.nnz + (d.N + 1) * ((ops.map AddOp.con).map fun c => c.nnzSI + c.nnzUI).sum
        + ((ops.map AddOp.con).map fun c => c.nnzST + c.nnzUT).sum := by
  induction ops generalizing d with
  | nil => simp
  | cons op ops ih =>
    cases op with
    | box c =>
      obtain ⟨h1, h2, h3, h4⟩ := ih (d.setBox c) rfl rfl
      simp only [List.foldl_cons, AddOp.apply, List.map_cons, List.sum_cons, AddOp.con, AddOp.missedI, AddOp.missedT]
      refine ⟨h1, by rw [h2]; simp [Discretizer.setBox], ?_, ?_⟩
      · rw [h3]; simp only [Discretizer.setBox, hc]; ring
      · have e1 : (d.setBox c).nnz = d.nnzI + (d.N + 1) * (c.nnzSI + c.nnzUI) + (d.nnzT + (c.nnzST + c.nnzUT)) := rfl
        have e2 : (d.setBox c).N = d.N := rfl
        rw [e1, e2] at h4
        rw [hz]
        linarith
    | general c =>
      obtain ⟨h1, h2, h3, h4⟩ := ih (d.setGeneral c) rfl rfl
      simp only [List.foldl_cons, AddOp.apply, List.map_cons, List.sum_cons, AddOp.con, AddOp.missedI, AddOp.missedT]
      refine ⟨h1, by rw [h2]; simp [Discretizer.setGeneral], ?_, ?_⟩
      · rw [h3]; simp only [Discretizer.setGeneral, hc]; ring
      · have e1 : (d.setGeneral c).nnz = d.nnzI + (d.N + 1) * c.nnzSI + (d.nnzT + c.nnzST) := rfl
        have e2 : (d.setGeneral c).N = d.N := rfl
        rw [e1, e2] at h4
        rw [hz]
        linarith

theorem configured_counts (N : Nat) (ops : List (AddOp K U)) :
    (configured N ops).N = N ∧ (configured N ops).cons = ops.map AddOp.con ∧
    (configured N ops).count
      = (N + 1) * ((ops.map AddOp.con).map PathCon.nI).sum + ((ops.map AddOp.con).map PathCon.nT).sum ∧
    (configured N ops).nnz + (N + 1) * (ops.map AddOp.missedI).sum + (ops.map AddOp.missedT).sum
      = (N + 1) * ((ops.map AddOp.con).map fun c => c.nnzSI + c.nnzUI).sum
        + ((ops.map AddOp.con).map fun c => c.nnzST + c.nnzUT).sum := by
  obtain ⟨h1, h2, h3, h4⟩ := foldl_counts ops (Discretizer.mk' (K := K) (U := U) N) rfl rfl
  refine ⟨h1, by simpa [Discretizer.mk', configured] using h2, by simpa [Discretizer.mk', configured] using h3,
    by simpa [Discretizer.mk', configured] using h4⟩

/-! ### The blocks of the discretised constraint -/

/-- Intermediate constraint `c` at point `p`, the state standing at column `s`, the control at `q`. -/
def conI (s q : Nat) (p : Pt K U) (c : PathCon K U) : Con K where
  eval := c.evalI p
  jac := c.jacSI p ++ c.jacUI p
  size := c.nI
  nnz := c.nnzSI + c.nnzUI
  rows := c.patSI.map (·.1) ++ c.patUI.map (·.1)
  cols := c.patSI.map (·.2 + s) ++ c.patUI.map (·.2 + q)
  lb := c.lbI
  ub := c.ubI

/-- Terminal constraint. -/
def conT (s q : Nat) (p : Pt K U) (c : PathCon K U) : Con K where
  eval := c.evalT p
  jac := c.jacST p ++ c.jacUT p
  size := c.nT
  nnz := c.nnzST + c.nnzUT
  rows := c.patST.map (·.1) ++ c.patUT.map (·.1)
  cols := c.patST.map (·.2 + s) ++ c.patUT.map (·.2 + q)
  lb := c.lbT
  ub := c.ubT

theorem conI_wf {n m : Nat} {c : PathCon K U} (h : c.Wf n m) (s q : Nat) (p : Pt K U) : (conI s q p c).Wf where
  eval := h.evalI p
  lb := h.lbI
  ub := h.ubI
  jac := by simp [conI, h.jacSI, h.jacUI]
  rows := by simp [conI, h.patSI, h.patUI]
  cols := by simp [conI, h.patSI, h.patUI]
  inRows := by
    intro r hr
    simp only [conI, List.mem_append, List.mem_map] at hr
    rcases hr with ⟨k, hk, rfl⟩ | ⟨k, hk, rfl⟩
    · exact (h.rowSI k hk).1
    · exact (h.rowUI k hk).1

theorem conT_wf {n m : Nat} {c : PathCon K U} (h : c.Wf n m) (s q : Nat) (p : Pt K U) : (conT s q p c).Wf where
  eval := h.evalT p
  lb := h.lbT
  ub := h.ubT
  jac := by simp [conT, h.jacST, h.jacUT]
  rows := by simp [conT, h.patST, h.patUT]
  cols := by simp [conT, h.patST, h.patUT]
  inRows := by
    intro r hr
    simp only [conT, List.mem_append, List.mem_map] at hr
    rcases hr with ⟨k, hk, rfl⟩ | ⟨k, hk, rfl⟩
    · exact (h.rowST k hk).1
    · exact (h.rowUT k hk).1

/-- All blocks in the order of rows. -/
def blocks (n m N : Nat) (P : Nat → Pt K U) (cs : List (PathCon K U)) : List (Con K) :=
  (List.range (N + 1)).flatMap (fun i => cs.map (conI (i * (n + m)) (i * (n + m) + n) (P i)))
    ++ cs.map (conT (N * (n + m)) (N * (n + m) + n) (P N))

theorem blocks_wf {n m : Nat} (N : Nat) (P : Nat → Pt K U) {cs : List (PathCon K U)} (h : ∀ c ∈ cs, c.Wf n m) :
    ∀ b ∈ blocks n m N P cs, b.Wf := by
  intro b hb
  simp only [blocks, List.mem_append, List.mem_flatMap, List.mem_map] at hb
  rcases hb with ⟨i, -, c, hc, rfl⟩ | ⟨c, hc, rfl⟩
  · exact conI_wf (h c hc) _ _ _
  · exact conT_wf (h c hc) _ _ _

theorem sum_grid (f : Nat → PathCon K U → Con K) (len : Con K → Nat) (l : PathCon K U → Nat) (h : ∀ i c, len (f i c) = l c)
    (cs : List (PathCon K U)) (k : Nat) :
    (((List.range k).flatMap fun i => cs.map (f i)).map len).sum = k * (cs.map l).sum := by
  induction k with
  | zero => simp
  | succ k ih =>
    have e : (cs.map (f k)).map len = cs.map l := by rw [List.map_map]; exact List.map_congr_left fun c _ => h k c
    rw [List.range_succ, List.flatMap_append, List.map_append, List.sum_append, ih]
    simp only [List.flatMap_cons, List.flatMap_nil, List.append_nil, e]
    ring

theorem blocks_split (n m N : Nat) (P : Nat → Pt K U) (a b : List (PathCon K U)) (c : PathCon K U) (i : Nat) (hi : i ≤ N) :
    ∃ pre post, blocks n m N P (a ++ c :: b) = pre ++ conI (i * (n + m)) (i * (n + m) + n) (P i) c :: post ∧
      (pre.map Con.size).sum = i * ((a ++ c :: b).map PathCon.nI).sum + (a.map PathCon.nI).sum := by
  have hr : List.range (N + 1) = List.range i ++ i :: (List.range (N - i)).map (i + 1 + ·) := by
    have e : N + 1 = i + (1 + (N - i)) := by omega
    rw [e, List.range_add, List.range_add]
    simp [Function.comp_def, Nat.add_assoc]
  refine ⟨(List.range i).flatMap (fun j => (a ++ c :: b).map (conI (j * (n + m)) (j * (n + m) + n) (P j)))
      ++ a.map (conI (i * (n + m)) (i * (n + m) + n) (P i)),
    b.map (conI (i * (n + m)) (i * (n + m) + n) (P i))
      ++ (((List.range (N - i)).map (i + 1 + ·)).flatMap
        (fun j => (a ++ c :: b).map (conI (j * (n + m)) (j * (n + m) + n) (P j)))
      ++ (a ++ c :: b).map (conT (N * (n + m)) (N * (n + m) + n) (P N))), ?_, ?_⟩
  · rw [blocks, hr, List.flatMap_append, List.flatMap_cons, List.map_append, List.map_cons]
    simp only [List.append_assoc, List.cons_append]
  · rw [List.map_append, List.sum_append, sum_grid _ Con.size PathCon.nI (fun _ _ => rfl)]
    congr 1
    rw [List.map_map]
    rfl

theorem blocks_split_last (n m N : Nat) (P : Nat → Pt K U) (a b : List (PathCon K U)) (c : PathCon K U) :
    ∃ pre post, blocks n m N P (a ++ c :: b) = pre ++ conT (N * (n + m)) (N * (n + m) + n) (P N) c :: post ∧
      (pre.map Con.size).sum = (N + 1) * ((a ++ c :: b).map PathCon.nI).sum + (a.map PathCon.nT).sum := by
  refine ⟨(List.range (N + 1)).flatMap (fun j => (a ++ c :: b).map (conI (j * (n + m)) (j * (n + m) + n) (P j)))
      ++ a.map (conT (N * (n + m)) (N * (n + m) + n) (P N)), b.map (conT (N * (n + m)) (N * (n + m) + n) (P N)), ?_, ?_⟩
  · rw [blocks]
    simp only [List.append_assoc, List.map_append, List.map_cons]
  · rw [List.map_append, List.sum_append, sum_grid _ Con.size PathCon.nI (fun _ _ => rfl)]
    congr 1
    rw [List.map_map]
    rfl

theorem get_split {β : Type} (f : Con K → List β) (pre post : List (Con K)) (c : Con K)
    (hf : ∀ b ∈ pre ++ c :: post, (f b).length = b.size) (i : Nat) (hi : i < c.size) :
    ((pre ++ c :: post).flatMap f)[(pre.map Con.size).sum + i]? = (f c)[i]? := by
  have hk : pre.length < (pre ++ c :: post).length := by simp
  have hg : (pre ++ c :: post)[pre.length] = c := by simp
  have := CT.Nlp.flatMap_get f (pre ++ c :: post) hf pre.length hk i (by rw [hg]; exact hi)
  rw [hg] at this
  simpa [offset] using this

theorem dense_split [AddCommMonoid K] (pre post : List (Con K)) (c : Con K) (hwf : ∀ b ∈ pre ++ c :: post, b.Wf)
    (i j : Nat) (hi : i < c.size) :
    dense (rowsFrom 0 (pre ++ c :: post)) ((pre ++ c :: post).flatMap Con.cols) ((pre ++ c :: post).flatMap Con.jac)
      ((pre.map Con.size).sum + i) j = dense c.rows c.cols c.jac i j := by
  have hk : pre.length < (pre ++ c :: post).length := by simp
  have hg : (pre ++ c :: post)[pre.length] = c := by simp
  have := CT.Nlp.dense_stack (pre ++ c :: post) hwf 0 pre.length hk i j (by rw [hg]; exact hi)
  rw [hg] at this
  simpa [offset] using this

/-! ### The code writes the blocks -/

theorem seg?_flat {β : Type} {len : Nat} {s : List β} (h : s.length = len) : (seg? len s).flatMap (·.2) = s := by
  unfold seg?
  split
  · simp
  · have : s = [] := List.length_eq_zero_iff.1 (by omega)
    simp [this]

theorem seg?_sum {β : Type} (len : Nat) (s : List β) : ((seg? len s).map (·.1)).sum = len := by
  unfold seg?
  split
  · simp
  · simp; omega

theorem seg?_len {β : Type} {len : Nat} {s : List β} (h : s.length = len) : ∀ x ∈ seg? len s, x.2.length = x.1 := by
  unfold seg?
  split
  · simp [h]
  · simp

theorem segments_eq {β : Type} (d : Discretizer K U) (w : OptVec K) (g : TimeGrid K) (ctl : K → Nat → Res U)
    (inter term : PathCon K U → Pt K U → List (Nat × List β)) (P : Nat → Pt K U)
    (hP : ∀ i ≤ d.N, pointAt w g ctl i = .ok (P i)) :
    segments d w g ctl inter term = .ok ((List.range (d.N + 1)).flatMap (fun i => d.cons.flatMap fun c => inter c (P i))
      ++ d.cons.flatMap fun c => term c (P d.N)) := by
  rw [segments, mapM_ok _ _ P (fun i hi => hP i (by have := List.mem_range.1 hi; omega)), Res.ok_bind]
  have : back ((List.range (d.N + 1)).map P) = .ok (P d.N) := by
    rw [List.range_succ, List.map_append]
    simp [back]
  rw [this, Res.ok_bind, List.flatMap_map]
  rfl

/-- Both loops together: lengths and content of the segments. -/
theorem segs_facts {β : Type} (N : Nat) (cs : List (PathCon K U)) (inter term : PathCon K U → Nat → List (Nat × List β))
    (lenI lenT : PathCon K U → Nat)
    (hi : ∀ c ∈ cs, ∀ i, (∀ x ∈ inter c i, x.2.length = x.1) ∧ ((inter c i).map (·.1)).sum = lenI c)
    (ht : ∀ c ∈ cs, ∀ i, (∀ x ∈ term c i, x.2.length = x.1) ∧ ((term c i).map (·.1)).sum = lenT c) :
    (∀ x ∈ (List.range (N + 1)).flatMap (fun i => cs.flatMap fun c => inter c i) ++ cs.flatMap (fun c => term c N),
      x.2.length = x.1) ∧
    (((List.range (N + 1)).flatMap (fun i => cs.flatMap fun c => inter c i) ++ cs.flatMap (fun c => term c N)).map
      (·.1)).sum = (N + 1) * (cs.map lenI).sum + (cs.map lenT).sum := by
  have hsum : ∀ (f : PathCon K U → List (Nat × List β)) (l : PathCon K U → Nat) (cs : List (PathCon K U)),
      (∀ c ∈ cs, ((f c).map (·.1)).sum = l c) → ((cs.flatMap f).map (·.1)).sum = (cs.map l).sum := by
    intro f l cs h
    induction cs with
    | nil => simp
    | cons c cs ih =>
      rw [List.flatMap_cons, List.map_append, List.sum_append, h c (by simp), ih (fun c hc => h c (by simp [hc]))]
      simp
  constructor
  · intro x hx
    simp only [List.mem_append, List.mem_flatMap] at hx
    rcases hx with ⟨i, -, c, hc, hx⟩ | ⟨c, hc, hx⟩
    · exact (hi c hc i).1 x hx
    · exact (ht c hc N).1 x hx
  · rw [List.map_append, List.sum_append, hsum _ lenT cs (fun c hc => (ht c hc N).2)]
    congr 1
    generalize N + 1 = k
    induction k with
    | zero => simp
    | succ k ih =>
      rw [List.range_succ, List.flatMap_append, List.map_append, List.sum_append, ih]
      simp only [List.flatMap_cons, List.flatMap_nil, List.append_nil]
      rw [hsum _ lenI cs (fun c hc => (hi c hc k).2)]
      ring

theorem flat_grid {β : Type} (n m N : Nat) (P : Nat → Pt K U) (cs : List (PathCon K U)) (f : Con K → List β)
    (inter term : PathCon K U → Nat → List (Nat × List β))
    (hi : ∀ c ∈ cs, ∀ i, (inter c i).flatMap (·.2) = f (conI (i * (n + m)) (i * (n + m) + n) (P i) c))
    (ht : ∀ c ∈ cs, (term c N).flatMap (·.2) = f (conT (N * (n + m)) (N * (n + m) + n) (P N) c)) :
    ((List.range (N + 1)).flatMap (fun i => cs.flatMap fun c => inter c i) ++ cs.flatMap (fun c => term c N)).flatMap (·.2)
      = (blocks n m N P cs).flatMap f := by
  have hcs : ∀ (F : PathCon K U → List (Nat × List β)) (G : PathCon K U → Con K) (cs : List (PathCon K U)),
      (∀ c ∈ cs, (F c).flatMap (·.2) = f (G c)) → (cs.flatMap F).flatMap (·.2) = (cs.map G).flatMap f := by
    intro F G cs h
    induction cs with
    | nil => simp
    | cons c cs ih =>
      rw [List.flatMap_cons, List.flatMap_append, h c (by simp), ih (fun c hc => h c (by simp [hc]))]
      simp
  rw [blocks, List.flatMap_append, List.flatMap_append, hcs _ _ cs ht, List.flatMap_assoc, List.flatMap_assoc]
  congr 2
  funext i
  exact hcs _ _ cs (fun c hc => hi c hc i)

theorem eval_eq (d : Discretizer K U) {n m : Nat} (hwf : ∀ c ∈ d.cons, c.Wf n m) (w : OptVec K) (g : TimeGrid K)
    (ctl : K → Nat → Res U) (P : Nat → Pt K U) (hP : ∀ i ≤ d.N, pointAt w g ctl i = .ok (P i)) (buf : List K)
    (hb : buf.length = (d.N + 1) * (d.cons.map PathCon.nI).sum + (d.cons.map PathCon.nT).sum) :
    d.eval w g ctl buf = .ok ((blocks n m d.N P d.cons).flatMap Con.eval) := by
  rw [Discretizer.eval]
  by_cases hc : d.cons = []
  · rw [if_pos hc]
    have : buf = [] := List.length_eq_zero_iff.1 (by rw [hb, hc]; simp)
    simp [this, hc, blocks]
  · rw [if_neg hc, segments_eq d w g ctl _ _ P hP, Res.ok_bind]
    have hf := segs_facts d.N d.cons (fun c i => seg? c.nI (c.evalI (P i))) (fun c i => seg? c.nT (c.evalT (P i)))
      PathCon.nI PathCon.nT (fun c hc i => ⟨seg?_len ((hwf c hc).evalI _), seg?_sum _ _⟩)
      (fun c hc i => ⟨seg?_len ((hwf c hc).evalT _), seg?_sum _ _⟩)
    rw [writeAll_eq _ hf.1 _ _ (by rw [hb, hf.2]; omega), List.take_zero, List.nil_append,
      flat_grid n m d.N P d.cons Con.eval (fun c i => seg? c.nI (c.evalI (P i))) (fun c i => seg? c.nT (c.evalT (P i)))
      (fun c hc i => seg?_flat ((hwf c hc).evalI _)) (fun c hc => seg?_flat ((hwf c hc).evalT _))]

theorem jac_facts (d : Discretizer K U) {n m : Nat} (hwf : ∀ c ∈ d.cons, c.Wf n m) (P : Nat → Pt K U) :
    (∀ x ∈ (List.range (d.N + 1)).flatMap (fun i => d.cons.flatMap fun c =>
        seg? c.nnzSI (c.jacSI (P i)) ++ seg? c.nnzUI (c.jacUI (P i)))
        ++ d.cons.flatMap (fun c => seg? c.nnzST (c.jacST (P d.N)) ++ seg? c.nnzUT (c.jacUT (P d.N))),
      x.2.length = x.1) ∧
    (((List.range (d.N + 1)).flatMap (fun i => d.cons.flatMap fun c =>
        seg? c.nnzSI (c.jacSI (P i)) ++ seg? c.nnzUI (c.jacUI (P i)))
        ++ d.cons.flatMap (fun c => seg? c.nnzST (c.jacST (P d.N)) ++ seg? c.nnzUT (c.jacUT (P d.N)))).map
      (·.1)).sum = (d.N + 1) * (d.cons.map fun c => c.nnzSI + c.nnzUI).sum
        + (d.cons.map fun c => c.nnzST + c.nnzUT).sum :=
  segs_facts d.N d.cons (fun c i => seg? c.nnzSI (c.jacSI (P i)) ++ seg? c.nnzUI (c.jacUI (P i)))
    (fun c i => seg? c.nnzST (c.jacST (P i)) ++ seg? c.nnzUT (c.jacUT (P i)))
    (fun c => c.nnzSI + c.nnzUI) (fun c => c.nnzST + c.nnzUT)
    (fun c hc i => ⟨fun x hx => (List.mem_append.1 hx).elim (seg?_len ((hwf c hc).jacSI _) x)
      (seg?_len ((hwf c hc).jacUI _) x), by rw [List.map_append, List.sum_append, seg?_sum, seg?_sum]⟩)
    (fun c hc i => ⟨fun x hx => (List.mem_append.1 hx).elim (seg?_len ((hwf c hc).jacST _) x)
      (seg?_len ((hwf c hc).jacUT _) x), by rw [List.map_append, List.sum_append, seg?_sum, seg?_sum]⟩)

theorem jac_eq (d : Discretizer K U) {n m : Nat} (hwf : ∀ c ∈ d.cons, c.Wf n m) (w : OptVec K) (g : TimeGrid K)
    (ctl : K → Nat → Res U) (P : Nat → Pt K U) (hP : ∀ i ≤ d.N, pointAt w g ctl i = .ok (P i)) (buf : List K)
    (hb : buf.length = (d.N + 1) * (d.cons.map fun c => c.nnzSI + c.nnzUI).sum
      + (d.cons.map fun c => c.nnzST + c.nnzUT).sum) :
    d.evalSparseJacobian w g ctl buf = .ok ((blocks n m d.N P d.cons).flatMap Con.jac) := by
  rw [Discretizer.evalSparseJacobian]
  by_cases hc : d.cons = []
  · rw [if_pos hc]
    have : buf = [] := List.length_eq_zero_iff.1 (by rw [hb, hc]; simp)
    simp [this, hc, blocks]
  · have hf := jac_facts d hwf P
    rw [if_neg hc, segments_eq d w g ctl _ _ P hP, Res.ok_bind, writeAll_eq _ hf.1 _ _ (by rw [hb, hf.2]; omega),
      List.take_zero, List.nil_append,
      flat_grid n m d.N P d.cons Con.jac (fun c i => seg? c.nnzSI (c.jacSI (P i)) ++ seg? c.nnzUI (c.jacUI (P i)))
        (fun c i => seg? c.nnzST (c.jacST (P i)) ++ seg? c.nnzUT (c.jacUT (P i)))
        (fun c hc i => by
          rw [List.flatMap_append, seg?_flat ((hwf c hc).jacSI _), seg?_flat ((hwf c hc).jacUI _)]; rfl)
        (fun c hc => by
          rw [List.flatMap_append, seg?_flat ((hwf c hc).jacST _), seg?_flat ((hwf c hc).jacUT _)]; rfl)]

theorem jac_ub (d : Discretizer K U) {n m : Nat} (hwf : ∀ c ∈ d.cons, c.Wf n m) (hne : d.cons ≠ []) (w : OptVec K)
    (g : TimeGrid K) (ctl : K → Nat → Res U) (P : Nat → Pt K U) (hP : ∀ i ≤ d.N, pointAt w g ctl i = .ok (P i)) (buf : List K)
    (hb : buf.length < (d.N + 1) * (d.cons.map fun c => c.nnzSI + c.nnzUI).sum
      + (d.cons.map fun c => c.nnzST + c.nnzUT).sum) :
    d.evalSparseJacobian w g ctl buf = .ub := by
  have hf := jac_facts d hwf P
  rw [Discretizer.evalSparseJacobian, if_neg hne, segments_eq d w g ctl _ _ P hP, Res.ok_bind,
    writeAll_ub _ hf.1 _ _ (by omega) (by rw [hf.2]; omega)]

/-- Lower or upper bounds. -/
theorem bounds_eq (N : Nat) {n m : Nat} (cs : List (PathCon K U)) (bI bT : PathCon K U → List K) (f : Con K → List K)
    (hI : ∀ c ∈ cs, (bI c).length = c.nI) (hT : ∀ c ∈ cs, (bT c).length = c.nT) (P : Nat → Pt K U)
    (hfI : ∀ c s q p, f (conI s q p c) = bI c) (hfT : ∀ c s q p, f (conT s q p c) = bT c) (buf : List K)
    (hb : buf.length = (N + 1) * (cs.map PathCon.nI).sum + (cs.map PathCon.nT).sum) :
    writeAll ((List.range (N + 1)).flatMap (fun _ => cs.flatMap fun c => seg? c.nI (bI c))
      ++ cs.flatMap fun c => seg? c.nT (bT c)) buf 0 = .ok ((blocks n m N P cs).flatMap f) := by
  have hf := segs_facts N cs (fun c _ => seg? c.nI (bI c)) (fun c _ => seg? c.nT (bT c))
      PathCon.nI PathCon.nT (fun c hc i => ⟨seg?_len (hI c hc), seg?_sum _ _⟩)
      (fun c hc i => ⟨seg?_len (hT c hc), seg?_sum _ _⟩)
  rw [writeAll_eq _ hf.1 _ _ (by rw [hb, hf.2]; omega), List.take_zero, List.nil_append,
    flat_grid n m N P cs f (fun c _ => seg? c.nI (bI c)) (fun c _ => seg? c.nT (bT c))
      (fun c hc i => by rw [seg?_flat (hI c hc), hfI]) (fun c hc => by rw [seg?_flat (hT c hc), hfT])]

/-! #### Pattern -/

theorem rowsFrom_append (a b : List (Con K)) (off : Nat) :
    rowsFrom off (a ++ b) = rowsFrom off a ++ rowsFrom (off + (a.map Con.size).sum) b := by
  induction a generalizing off with
  | nil => simp [rowsFrom]
  | cons c a ih => simp [rowsFrom, ih, Nat.add_assoc]

/-- What the inner loop writes, for intermediate (`conI`) and terminal (`conT`) constraints. -/
theorem patSegs_eq (nS nU : PathCon K U → Nat) (pS pU : PathCon K U → List (Nat × Nat)) (size : PathCon K U → Nat)
    (s q : Nat) (F : PathCon K U → Con K) (cs : List (PathCon K U)) (hS : ∀ c ∈ cs, (pS c).length = nS c)
    (hU : ∀ c ∈ cs, (pU c).length = nU c) (hsz : ∀ c, (F c).size = size c)
    (hr : ∀ c, (F c).rows = (pS c).map (·.1) ++ (pU c).map (·.1))
    (hc : ∀ c, (F c).cols = (pS c).map (·.2 + s) ++ (pU c).map (·.2 + q)) (row : Nat) :
    (∀ x ∈ (patSegs nS nU pS pU size s q cs row).1, x.2.length = x.1) ∧
    ((patSegs nS nU pS pU size s q cs row).1.map (·.1)).sum = (cs.map fun c => nS c + nU c).sum ∧
    (patSegs nS nU pS pU size s q cs row).2 = row + (cs.map size).sum ∧
    ((patSegs nS nU pS pU size s q cs row).1.flatMap (·.2)).map (·.1) = rowsFrom row (cs.map F) ∧
    ((patSegs nS nU pS pU size s q cs row).1.flatMap (·.2)).map (·.2) = (cs.map F).flatMap Con.cols := by
  induction cs generalizing row with
  | nil => simp [patSegs, rowsFrom]
  | cons c cs ih =>
    obtain ⟨h1, h2, h3, h4, h5⟩ := ih (fun c hc => hS c (by simp [hc])) (fun c hc => hU c (by simp [hc])) (row + size c)
    have l1 : (shiftPat row s (pS c)).length = nS c := by simp [shiftPat, hS]
    have l2 : (shiftPat row q (pU c)).length = nU c := by simp [shiftPat, hU]
    simp only [patSegs]
    refine ⟨?_, ?_, ?_, ?_, ?_⟩
    · intro x hx
      rcases List.mem_append.1 hx with hx | hx
      · exact (List.mem_append.1 hx).elim (seg?_len l1 x) (seg?_len l2 x)
      · exact h1 x hx
    · rw [List.map_append, List.sum_append, List.map_append, List.sum_append, seg?_sum, seg?_sum, h2]
      simp
    · rw [h3]; simp; omega
    · rw [List.flatMap_append, List.flatMap_append, seg?_flat l1, seg?_flat l2, List.map_append, h4, List.map_cons,
        rowsFrom, hr, hsz]
      simp [shiftPat, Function.comp_def]
    · rw [List.flatMap_append, List.flatMap_append, seg?_flat l1, seg?_flat l2, List.map_append, h5, List.map_cons,
        List.flatMap_cons, hc]
      simp [shiftPat, Function.comp_def]

theorem patLoop_eq {w : OptVec K} {n m N : Nat} (hw : Shaped w n m N) (cs : List (PathCon K U)) (hwf : ∀ c ∈ cs, c.Wf n m)
    (P : Nat → Pt K U) (k i row : Nat) (hk : i + k ≤ N + 1) :
    ∃ segs, patLoop w cs k i row = .ok (segs, row + k * (cs.map PathCon.nI).sum) ∧ (∀ x ∈ segs, x.2.length = x.1) ∧
      (segs.map (·.1)).sum = k * (cs.map fun c => c.nnzSI + c.nnzUI).sum ∧
      (segs.flatMap (·.2)).map (·.1)
        = rowsFrom row ((List.range' i k).flatMap fun i => cs.map (conI (i * (n + m)) (i * (n + m) + n) (P i))) ∧
      (segs.flatMap (·.2)).map (·.2)
        = ((List.range' i k).flatMap fun i => cs.map (conI (i * (n + m)) (i * (n + m) + n) (P i))).flatMap Con.cols := by
  induction k generalizing i row with
  | zero => exact ⟨[], by simp [patLoop, rowsFrom]⟩
  | succ k ih =>
    have e1 : w.getStateIndex i = .ok (i * (n + m)) := by rw [hw.stateIndex, if_pos (by omega)]
    have e2 : w.getControlIndex i = .ok (i * (n + m) + n) := by rw [hw.controlIndex, if_pos (by omega)]
    obtain ⟨p1, p2, p3, p4, p5⟩ := patSegs_eq PathCon.nnzSI PathCon.nnzUI PathCon.patSI PathCon.patUI PathCon.nI
      (i * (n + m)) (i * (n + m) + n) (conI (i * (n + m)) (i * (n + m) + n) (P i)) cs (fun c hc => (hwf c hc).patSI)
      (fun c hc => (hwf c hc).patUI) (fun _ => rfl) (fun _ => rfl) (fun _ => rfl) row
    obtain ⟨segs, s1, s2, s3, s4, s5⟩ := ih (i + 1) (row + (cs.map PathCon.nI).sum) (by omega)
    refine ⟨(patSegs PathCon.nnzSI PathCon.nnzUI PathCon.patSI PathCon.patUI PathCon.nI (i * (n + m)) (i * (n + m) + n) cs
      row).1 ++ segs, ?_, ?_, ?_, ?_, ?_⟩
    · rw [patLoop, e1, Res.ok_bind, e2, Res.ok_bind]
      simp only [p3, s1, Res.ok_bind, Res.pure_eq]
      congr 2
      ring
    · exact fun x hx => (List.mem_append.1 hx).elim (p1 x) (s2 x)
    · rw [List.map_append, List.sum_append, p2, s3]; ring
    · have hs : ((cs.map (conI (i * (n + m)) (i * (n + m) + n) (P i))).map Con.size).sum = (cs.map PathCon.nI).sum := by
        rw [List.map_map]; rfl
      rw [List.flatMap_append, List.map_append, p4, s4, List.range'_succ, List.flatMap_cons, rowsFrom_append, hs]
    · rw [List.flatMap_append, List.map_append, p5, s5, List.range'_succ, List.flatMap_cons, List.flatMap_append]

theorem pattern_segs {w : OptVec K} {n m : Nat} (d : Discretizer K U) (hw : Shaped w n m d.N) (hwf : ∀ c ∈ d.cons, c.Wf n m)
    (P : Nat → Pt K U) (buf : List (Nat × Nat)) :
    ∃ segs, d.pattern w buf = writeAll segs buf 0 ∧ (∀ x ∈ segs, x.2.length = x.1) ∧
      (segs.map (·.1)).sum = (d.N + 1) * (d.cons.map fun c => c.nnzSI + c.nnzUI).sum
        + (d.cons.map fun c => c.nnzST + c.nnzUT).sum ∧
      (segs.flatMap (·.2)).map (·.1) = rowsFrom 0 (blocks n m d.N P d.cons) ∧
      (segs.flatMap (·.2)).map (·.2) = (blocks n m d.N P d.cons).flatMap Con.cols := by
  obtain ⟨segs, s1, s2, s3, s4, s5⟩ := patLoop_eq hw d.cons hwf P (d.N + 1) 0 0 (by omega)
  have e1 : w.getStateIndex d.N = .ok (d.N * (n + m)) := by rw [hw.stateIndex, if_pos (by omega)]
  have e2 : w.getControlIndex d.N = .ok (d.N * (n + m) + n) := by rw [hw.controlIndex, if_pos (by omega)]
  obtain ⟨p1, p2, p3, p4, p5⟩ := patSegs_eq PathCon.nnzST PathCon.nnzUT PathCon.patST PathCon.patUT PathCon.nT
    (d.N * (n + m)) (d.N * (n + m) + n) (conT (d.N * (n + m)) (d.N * (n + m) + n) (P d.N)) d.cons
    (fun c hc => (hwf c hc).patST) (fun c hc => (hwf c hc).patUT) (fun _ => rfl) (fun _ => rfl) (fun _ => rfl)
    (0 + (d.N + 1) * (d.cons.map PathCon.nI).sum)
  refine ⟨segs ++ (patSegs PathCon.nnzST PathCon.nnzUT PathCon.patST PathCon.patUT PathCon.nT
    (d.N * (n + m)) (d.N * (n + m) + n) d.cons (0 + (d.N + 1) * (d.cons.map PathCon.nI).sum)).1, ?_, ?_, ?_, ?_, ?_⟩
  · rw [Discretizer.pattern, s1]
    simp only [Res.ok_bind, e1, e2]
  · exact fun x hx => (List.mem_append.1 hx).elim (s2 x) (p1 x)
  · rw [List.map_append, List.sum_append, s3, p2]
  · rw [List.flatMap_append, List.map_append, s4, p4, blocks, rowsFrom_append, sum_grid _ Con.size PathCon.nI (fun _ _ => rfl),
      List.range_eq_range']
  · rw [List.flatMap_append, List.map_append, s5, p5, blocks, List.flatMap_append, List.range_eq_range']

theorem blocks_nnz (n m N : Nat) (P : Nat → Pt K U) (cs : List (PathCon K U)) :
    ((blocks n m N P cs).map Con.nnz).sum
      = (N + 1) * (cs.map fun c => c.nnzSI + c.nnzUI).sum + (cs.map fun c => c.nnzST + c.nnzUT).sum := by
  rw [blocks, List.map_append, List.sum_append, sum_grid _ Con.nnz (fun c => c.nnzSI + c.nnzUI) (fun _ _ => rfl), List.map_map]
  rfl

theorem blocks_size (n m N : Nat) (P : Nat → Pt K U) (cs : List (PathCon K U)) :
    ((blocks n m N P cs).map Con.size).sum = (N + 1) * (cs.map PathCon.nI).sum + (cs.map PathCon.nT).sum := by
  rw [blocks, List.map_append, List.sum_append, sum_grid _ Con.size PathCon.nI (fun _ _ => rfl), List.map_map]
  rfl

theorem flatMap_len {β : Type} (f : Con K → List β) (l : Con K → Nat) (bs : List (Con K)) (h : ∀ b ∈ bs, (f b).length = l b) :
    (bs.flatMap f).length = (bs.map l).sum := by
  induction bs with
  | nil => rfl
  | cons b bs ih => simp [h b (by simp), ih (fun b hb => h b (by simp [hb]))]

/-- C50 (partial): for every number of shots and every sequence of configuration calls in which no *general* constraint
depends on the input, the reported numbers of constraints and of Jacobian entries are those of the vectors written.
Missing: general constraints with input dependence, for which the claim is false (`C50_violated`). -/
theorem C50_counts_partial {w : OptVec K} {n m N : Nat} (hw : Shaped w n m N) (ops : List (AddOp K U))
    (hwf : ∀ op ∈ ops, op.con.Wf n m) (hu : ∀ c, AddOp.general c ∈ ops → c.nnzUI = 0 ∧ c.nnzUT = 0)
    (g : TimeGrid K) (ctl : K → Nat → Res U) (hp : ∀ i ≤ N, ∃ p, pointAt w g ctl i = .ok p) (bv bj : List K)
    (bp : List (Nat × Nat)) (h1 : bv.length = (configured N ops).count) (h2 : bj.length = (configured N ops).nnz)
    (h3 : bp.length = (configured N ops).nnz) :
    ∃ v j p, (configured N ops).eval w g ctl bv = .ok v ∧ (configured N ops).evalSparseJacobian w g ctl bj = .ok j ∧
      (configured N ops).pattern w bp = .ok p ∧ v.length = (configured N ops).count ∧
      j.length = (configured N ops).nnz ∧ p.length = (configured N ops).nnz := by
  classical
  obtain ⟨c1, c2, c3, c4⟩ := configured_counts N ops
  have z1 : (ops.map AddOp.missedI).sum = 0 := by
    rw [List.sum_eq_zero]
    intro x hx
    obtain ⟨op, ho, rfl⟩ := List.mem_map.1 hx
    cases op with
    | box c => rfl
    | general c => exact (hu c ho).1
  have z2 : (ops.map AddOp.missedT).sum = 0 := by
    rw [List.sum_eq_zero]
    intro x hx
    obtain ⟨op, ho, rfl⟩ := List.mem_map.1 hx
    cases op with
    | box c => rfl
    | general c => exact (hu c ho).2
  rw [z1, z2, Nat.mul_zero, Nat.add_zero, Nat.add_zero, ← c2] at c4
  rw [← c2] at c3
  have hwf' : ∀ c ∈ (configured N ops).cons, c.Wf n m := by
    rw [c2]
    intro c hc
    obtain ⟨op, ho, rfl⟩ := List.mem_map.1 hc
    exact hwf op ho
  generalize configured N ops = d at *
  subst c1
  have hP : ∃ P : Nat → Pt K U, ∀ i ≤ d.N, pointAt w g ctl i = .ok (P i) := by
    obtain ⟨p0, -⟩ := hp 0 (by omega)
    refine ⟨fun i => if h : i ≤ d.N then (hp i h).choose else p0, fun i hi => ?_⟩
    simp only [hi, dif_pos]
    exact (hp i hi).choose_spec
  obtain ⟨P, hP⟩ := hP
  obtain ⟨segs, s1, s2, s3, s4, s5⟩ := pattern_segs d hw hwf' P bp
  have hb := blocks_wf d.N P hwf'
  refine ⟨_, _, _, eval_eq d hwf' w g ctl P hP bv (by rw [h1, c3]), jac_eq d hwf' w g ctl P hP bj (by rw [h2, c4]),
    by rw [s1, writeAll_eq segs s2 bp 0 (by rw [h3, c4, s3]; omega), List.take_zero, List.nil_append], ?_, ?_, ?_⟩
  · rw [flatMap_len _ Con.size _ (fun b h => (hb b h).eval), blocks_size, c3]
  · rw [flatMap_len _ Con.nnz _ (fun b h => (hb b h).jac), blocks_nnz, c4]
  · have e := congrArg List.length s5
    rw [List.length_map, flatMap_len _ Con.nnz _ (fun b h => (hb b h).cols), blocks_nnz] at e
    rw [e, c4]

/-- C50 is false: as soon as one general constraint has Jacobian entries by the input, fewer entries are reported than
are written, and writing values and pattern into vectors of the reported size runs over their end. -/
theorem C50_violated {w : OptVec K} {n m N : Nat} (hw : Shaped w n m N) (ops : List (AddOp K U))
    (hwf : ∀ op ∈ ops, op.con.Wf n m) (c : PathCon K U) (hc : AddOp.general c ∈ ops) (hu : 0 < c.nnzUI ∨ 0 < c.nnzUT)
    (g : TimeGrid K) (ctl : K → Nat → Res U) (P : Nat → Pt K U) (hP : ∀ i ≤ N, pointAt w g ctl i = .ok (P i)) (bj : List K)
    (bp : List (Nat × Nat)) (h2 : bj.length = (configured N ops).nnz) (h3 : bp.length = (configured N ops).nnz) :
    (configured N ops).evalSparseJacobian w g ctl bj = .ub ∧ (configured N ops).pattern w bp = .ub := by
  obtain ⟨c1, c2, -, c4⟩ := configured_counts N ops
  have hpos : 0 < (N + 1) * (ops.map AddOp.missedI).sum + (ops.map AddOp.missedT).sum := by
    rcases hu with h | h
    · have : c.nnzUI ≤ (ops.map AddOp.missedI).sum := List.le_sum_of_mem (List.mem_map.2 ⟨_, hc, rfl⟩)
      have : 0 < (N + 1) * (ops.map AddOp.missedI).sum := Nat.mul_pos (by omega) (by omega)
      omega
    · have : c.nnzUT ≤ (ops.map AddOp.missedT).sum := List.le_sum_of_mem (List.mem_map.2 ⟨_, hc, rfl⟩)
      omega
  rw [← c2] at c4
  have hne : (configured N ops).cons ≠ [] := by
    rw [c2]
    intro h
    have := List.map_eq_nil_iff.1 h
    simp [this] at hc
  have hwf' : ∀ c ∈ (configured N ops).cons, c.Wf n m := by
    rw [c2]
    intro c hc
    obtain ⟨op, ho, rfl⟩ := List.mem_map.1 hc
    exact hwf op ho
  generalize configured N ops = d at *
  subst c1
  obtain ⟨segs, s1, s2, s3, s4, s5⟩ := pattern_segs d hw hwf' P bp
  exact ⟨jac_ub d hwf' hne w g ctl P hP bj (by omega), by rw [s1]; exact writeAll_ub segs s2 bp 0 (by omega) (by omega)⟩

/-! ### C82 -/

section Entry
variable [AddCommMonoid K]

theorem shift_zero (p : List (Nat × Nat)) (v : List K) (s i c : Nat) (h : c < s) :
    at' (p.map fun k => (k.1, k.2 + s)) v (i, c) = 0 := by
  apply at'_zero
  intro hm
  obtain ⟨a, -, he⟩ := List.mem_map.1 hm
  simp only [Prod.mk.injEq] at he
  omega

theorem shift_big (p : List (Nat × Nat)) (v : List K) (s n i c : Nat) (hp : ∀ k ∈ p, k.2 < n) (h : s + n ≤ c) :
    at' (p.map fun k => (k.1, k.2 + s)) v (i, c) = 0 := by
  apply at'_zero
  intro hm
  obtain ⟨a, ha, he⟩ := List.mem_map.1 hm
  have := hp a ha
  simp only [Prod.mk.injEq] at he
  omega

/-- Dense rows of one block. -/
theorem con_entry (pS pU : List (Nat × Nat)) (vS vU : List K) (hS : pS.length = vS.length) (n m s : Nat)
    (hSn : ∀ k ∈ pS, k.2 < n) (hUm : ∀ k ∈ pU, k.2 < m) (r : Nat) :
    (∀ j < n, dense (pS.map (·.1) ++ pU.map (·.1)) (pS.map (·.2 + s) ++ pU.map (·.2 + (s + n))) (vS ++ vU) r (s + j)
      = at' pS vS (r, j)) ∧
    (∀ j < m, dense (pS.map (·.1) ++ pU.map (·.1)) (pS.map (·.2 + s) ++ pU.map (·.2 + (s + n))) (vS ++ vU) r (s + n + j)
      = at' pU vU (r, j)) ∧
    ∀ c, (c < s ∨ s + n + m ≤ c) →
      dense (pS.map (·.1) ++ pU.map (·.1)) (pS.map (·.2 + s) ++ pU.map (·.2 + (s + n))) (vS ++ vU) r c = 0 := by
  have key : ∀ c, dense (pS.map (·.1) ++ pU.map (·.1)) (pS.map (·.2 + s) ++ pU.map (·.2 + (s + n))) (vS ++ vU) r c
      = at' (pS.map fun k => (k.1, k.2 + s)) vS (r, c) + at' (pU.map fun k => (k.1, k.2 + (s + n))) vU (r, c) := by
    intro c
    rw [CT.Nlp.dense_append (by simp) (by simp [hS])]
    rw [← dense_pairs, ← dense_pairs]
    simp only [List.map_map, Function.comp_def]
  refine ⟨fun j hj => ?_, fun j hj => ?_, fun c hc => ?_⟩
  · rw [key, at'_shift, shift_zero _ _ _ _ _ (by omega), add_zero]
  · rw [key, at'_shift, shift_big _ _ _ n _ _ hSn (by omega), zero_add]
  · rw [key]
    rcases hc with hc | hc
    · rw [shift_zero _ _ _ _ _ (by omega), shift_zero _ _ _ _ _ (by omega), add_zero]
    · rw [shift_big _ _ _ n _ _ hSn (by omega), shift_big _ _ _ m _ _ hUm (by omega), add_zero]

end Entry

/-- What the discretised constraint has to return for a container block of `size` rows starting at row `row`: values
and bounds, and in the Jacobian its own derivatives in the columns `s..s+n` (state) and `s+n..s+n+m` (control), zeros
elsewhere. -/
structure StandsAt [AddCommMonoid K] (n m s row size : Nat) (val lb ub jS jU : List K) (pS pU : List (Nat × Nat))
    (v lo up j : List K) (p : List (Nat × Nat)) : Prop where
  values : ∀ r < size, v[row + r]? = val[r]?
  lower : ∀ r < size, lo[row + r]? = lb[r]?
  upper : ∀ r < size, up[row + r]? = ub[r]?
  byState : ∀ r < size, ∀ c < n, at' p j (row + r, s + c) = at' pS jS (r, c)
  byControl : ∀ r < size, ∀ c < m, at' p j (row + r, s + n + c) = at' pU jU (r, c)
  elsewhere : ∀ r < size, ∀ c, (c < s ∨ s + n + m ≤ c) → at' p j (row + r, c) = 0

/-- C82 (partial): if the control parametrisation can be evaluated at every grid point and no general constraint depends
on the input, every container stands, for every grid point, in its own rows and in the columns of that grid point's
state and control; the terminal constraints follow, at the last grid point. Missing: piecewise-linear controls, whose
evaluation at the last grid point fails (`C82_linear_violated`), and the case of C50's violation. -/
theorem C82_rows_partial [AddCommMonoid K] {w : OptVec K} {n m N : Nat} (hw : Shaped w n m N) (ops : List (AddOp K U))
    (hwf : ∀ op ∈ ops, op.con.Wf n m) (hu : ∀ c, AddOp.general c ∈ ops → c.nnzUI = 0 ∧ c.nnzUT = 0)
    (g : TimeGrid K) (ctl : K → Nat → Res U) (P : Nat → Pt K U)
    (hP : ∀ i ≤ N, g.t[i]? = some (P i).t ∧ w.getOptimizedState i = .ok (P i).x ∧ ctl (P i).t i = .ok (P i).u)
    (bv bl bu bj : List K) (bp : List (Nat × Nat)) (h1 : bv.length = (configured N ops).count)
    (h1l : bl.length = (configured N ops).count) (h1u : bu.length = (configured N ops).count)
    (h2 : bj.length = (configured N ops).nnz) (h3 : bp.length = (configured N ops).nnz) :
    ∃ v lo up j p, (configured N ops).eval w g ctl bv = .ok v ∧ (configured N ops).lower bl = .ok lo ∧
      (configured N ops).upper bu = .ok up ∧ (configured N ops).evalSparseJacobian w g ctl bj = .ok j ∧
      (configured N ops).pattern w bp = .ok p ∧
      ∀ (a b : List (PathCon K U)) (c : PathCon K U), ops.map AddOp.con = a ++ c :: b →
        (∀ i ≤ N, StandsAt n m (i * (n + m)) (i * ((ops.map AddOp.con).map PathCon.nI).sum + (a.map PathCon.nI).sum) c.nI
          (c.evalI (P i)) c.lbI c.ubI (c.jacSI (P i)) (c.jacUI (P i)) c.patSI c.patUI v lo up j p) ∧
        StandsAt n m (N * (n + m)) ((N + 1) * ((ops.map AddOp.con).map PathCon.nI).sum + (a.map PathCon.nT).sum) c.nT
          (c.evalT (P N)) c.lbT c.ubT (c.jacST (P N)) (c.jacUT (P N)) c.patST c.patUT v lo up j p := by
  replace hP : ∀ i ≤ N, pointAt w g ctl i = .ok (P i) := fun i hi => by
    obtain ⟨p1, p2, p3⟩ := hP i hi
    simp only [pointAt, idx_eq p1, p2, p3, Res.ok_bind, Res.pure_eq]
  obtain ⟨c1, c2, c3, c4⟩ := configured_counts N ops
  have z1 : (ops.map AddOp.missedI).sum = 0 := by
    rw [List.sum_eq_zero]
    intro x hx
    obtain ⟨op, ho, rfl⟩ := List.mem_map.1 hx
    cases op with
    | box c => rfl
    | general c => exact (hu c ho).1
  have z2 : (ops.map AddOp.missedT).sum = 0 := by
    rw [List.sum_eq_zero]
    intro x hx
    obtain ⟨op, ho, rfl⟩ := List.mem_map.1 hx
    cases op with
    | box c => rfl
    | general c => exact (hu c ho).2
  rw [z1, z2, Nat.mul_zero, Nat.add_zero, Nat.add_zero] at c4
  rw [← c2] at c3 c4 ⊢
  have hwf' : ∀ c ∈ (configured N ops).cons, c.Wf n m := by
    rw [c2]
    intro c hc
    obtain ⟨op, ho, rfl⟩ := List.mem_map.1 hc
    exact hwf op ho
  generalize configured N ops = d at *
  subst c1
  obtain ⟨segs, s1, s2, s3, s4, s5⟩ := pattern_segs d hw hwf' P bp
  have hb := blocks_wf d.N P hwf'
  refine ⟨_, _, _, _, _, eval_eq d hwf' w g ctl P hP bv (by rw [h1, c3]),
    bounds_eq d.N (n := n) (m := m) d.cons PathCon.lbI PathCon.lbT Con.lb (fun c hc => (hwf' c hc).lbI) (fun c hc => (hwf' c hc).lbT) P
      (fun _ _ _ _ => rfl) (fun _ _ _ _ => rfl) bl (by rw [h1l, c3]),
    bounds_eq d.N (n := n) (m := m) d.cons PathCon.ubI PathCon.ubT Con.ub (fun c hc => (hwf' c hc).ubI) (fun c hc => (hwf' c hc).ubT) P
      (fun _ _ _ _ => rfl) (fun _ _ _ _ => rfl) bu (by rw [h1u, c3]),
    jac_eq d hwf' w g ctl P hP bj (by rw [h2, c4]),
    by rw [s1, writeAll_eq segs s2 bp 0 (by rw [h3, c4, s3]; omega), List.take_zero, List.nil_append], ?_⟩
  have hd : ∀ i j', at' (segs.flatMap (·.2)) ((blocks n m d.N P d.cons).flatMap Con.jac) (i, j')
      = dense (rowsFrom 0 (blocks n m d.N P d.cons)) ((blocks n m d.N P d.cons).flatMap Con.cols)
        ((blocks n m d.N P d.cons).flatMap Con.jac) i j' := by
    intro i j'
    rw [← dense_pairs, s4, s5]
  intro a b c he
  have hc := hwf' c (by rw [he]; simp)
  constructor
  · intro i hi
    obtain ⟨pre, post, e, hs⟩ := blocks_split n m d.N P a b c i hi
    rw [← he] at e hs
    rw [e] at hb hd ⊢
    have hden := dense_split pre post _ hb
    obtain ⟨k1, k2, k3⟩ : _ ∧ _ ∧ _ := ⟨fun r => (con_entry c.patSI c.patUI (c.jacSI (P i)) (c.jacUI (P i)) (by rw [hc.patSI, hc.jacSI]) n m
      (i * (n + m)) (fun k hk => (hc.rowSI k hk).2) (fun k hk => (hc.rowUI k hk).2) r).1,
      fun r => (con_entry c.patSI c.patUI (c.jacSI (P i)) (c.jacUI (P i)) (by rw [hc.patSI, hc.jacSI]) n m
      (i * (n + m)) (fun k hk => (hc.rowSI k hk).2) (fun k hk => (hc.rowUI k hk).2) r).2.1,
      fun r => (con_entry c.patSI c.patUI (c.jacSI (P i)) (c.jacUI (P i)) (by rw [hc.patSI, hc.jacSI]) n m
      (i * (n + m)) (fun k hk => (hc.rowSI k hk).2) (fun k hk => (hc.rowUI k hk).2) r).2.2⟩
    rw [← hs]
    refine ⟨fun r hr => get_split Con.eval pre post _ (fun b h => (hb b h).eval) r hr,
      fun r hr => get_split Con.lb pre post _ (fun b h => (hb b h).lb) r hr,
      fun r hr => get_split Con.ub pre post _ (fun b h => (hb b h).ub) r hr, ?_, ?_, ?_⟩
    · intro r hr j hj; rw [hd, hden _ _ hr]; exact k1 r j hj
    · intro r hr j hj; rw [hd, hden _ _ hr]; exact k2 r j hj
    · intro r hr j hj; rw [hd, hden _ _ hr]; exact k3 r j hj
  · obtain ⟨pre, post, e, hs⟩ := blocks_split_last n m d.N P a b c
    rw [← he] at e hs
    rw [e] at hb hd ⊢
    have hden := dense_split pre post _ hb
    have k := con_entry c.patST c.patUT (c.jacST (P d.N)) (c.jacUT (P d.N)) (by rw [hc.patST, hc.jacST]) n m
      (d.N * (n + m)) (fun k hk => (hc.rowST k hk).2) (fun k hk => (hc.rowUT k hk).2)
    rw [← hs]
    refine ⟨fun r hr => get_split Con.eval pre post _ (fun b h => (hb b h).eval) r hr,
      fun r hr => get_split Con.lb pre post _ (fun b h => (hb b h).lb) r hr,
      fun r hr => get_split Con.ub pre post _ (fun b h => (hb b h).ub) r hr, ?_, ?_, ?_⟩
    · intro r hr j hj; rw [hd, hden _ _ hr]; exact (k r).1 j hj
    · intro r hr j hj; rw [hd, hden _ _ hr]; exact (k r).2.1 j hj
    · intro r hr j hj; rw [hd, hden _ _ hr]; exact (k r).2.2 j hj

/-- C82 is false with piecewise-linear controls: evaluating any path constraint reads outside the time grid at the last
grid point. -/
theorem C82_linear_violated {d : Nat} [Field K] (D : Discretizer K (Fin d → K)) (hne : D.cons ≠ []) (w : OptVec K) (g : TimeGrid K)
    (hg : g.t.length = D.N + 1) (nodes : List (Fin d → K)) (hnodes : nodes.length = D.N + 1)
    (hx : ∀ i ≤ D.N, ∃ x, w.getOptimizedState i = .ok x) (buf : List K) :
    D.eval w g (linEval g nodes) buf = .ub ∧ D.evalSparseJacobian w g (linEval g nodes) buf = .ub := by
  have hpt : ∀ i < D.N, ∃ p, pointAt w g (linEval g nodes) i = .ok p := by
    intro i hi
    obtain ⟨x, hx⟩ := hx i (by omega)
    have a1 := idx_eq (List.getElem?_eq_getElem (show i < g.t.length by omega))
    have a2 := idx_eq (List.getElem?_eq_getElem (show i + 1 < g.t.length by omega))
    have a3 := idx_eq (List.getElem?_eq_getElem (show i < nodes.length by omega))
    have a4 := idx_eq (List.getElem?_eq_getElem (show i + 1 < nodes.length by omega))
    simp only [pointAt, linEval, TimeGrid.duration, TimeGrid.start, TimeGrid.stop, a1, a2, a3, a4, hx, Res.ok_bind, Res.pure_eq,
      Res.ok.injEq, exists_eq']
  have hN : pointAt w g (linEval g nodes) D.N = .ub := by
    obtain ⟨x, hx⟩ := hx D.N (le_refl _)
    rw [pointAt, idx_eq (List.getElem?_eq_getElem (show D.N < g.t.length by omega)), Res.ok_bind, hx, Res.ok_bind,
      linEval_last g nodes D.N hg]
    rfl
  have hm : ∀ k ≤ D.N, ∃ ps, (List.range k).mapM (pointAt w g (linEval g nodes)) = .ok ps := by
    intro k hk
    induction k with
    | zero => exact ⟨[], rfl⟩
    | succ k ih =>
      obtain ⟨ps, h⟩ := ih (by omega)
      obtain ⟨p, hp⟩ := hpt k (by omega)
      exact ⟨ps ++ [p], by rw [List.range_succ, List.mapM_append, h, Res.ok_bind, List.mapM_cons, hp]; rfl⟩
  obtain ⟨ps, hps⟩ := hm D.N (le_refl _)
  have hall : (List.range (D.N + 1)).mapM (pointAt w g (linEval g nodes)) = .ub := by
    rw [List.range_succ, List.mapM_append, hps, Res.ok_bind, List.mapM_cons, hN]; rfl
  rw [Discretizer.eval, Discretizer.evalSparseJacobian, if_neg hne, if_neg hne, segments, segments, hall]
  exact ⟨rfl, rfl⟩

/-! ### The hypotheses are met -/

/-- One bound on the first state, one linear constraint `3 x_0 + 5 x_1` (by state only), terminal bound on `x_1`. -/
def exBox : PathCon Int (List Int) where
  nI := 1
  nT := 1
  nnzSI := 1
  nnzUI := 1
  nnzST := 1
  nnzUT := 0
  evalI p := [p.x.getD 0 0 + p.u.getD 0 0]
  evalT p := [p.x.getD 1 0]
  lbI := [-1]
  ubI := [1]
  lbT := [0]
  ubT := [7]
  jacSI _ := [1]
  jacUI _ := [1]
  jacST _ := [1]
  jacUT _ := []
  patSI := [(0, 0)]
  patUI := [(0, 0)]
  patST := [(0, 1)]
  patUT := []

example : exBox.Wf 2 1 := by
  constructor <;> simp [exBox]

example : ∃ v, (configured 1 [.box exBox, .box exBox]).eval
    { OptVec.mk' 2 1 1 6 (List.replicate 6 (0 : Int)) with x := [1, 2, 3, 4, 5, 6] } ⟨1, 1, [0, 1]⟩ (fun _ _ => .ok [10])
    (List.replicate 6 0) = .ok v ∧ v = [11, 11, 14, 14, 5, 5] := ⟨_, rfl, by decide⟩

/-- The hypothesis of `C82_rows_partial` about the grid points. -/
example : ∀ i : Nat, i ≤ 1 → (⟨1, 1, [0, 1]⟩ : TimeGrid Int).t[i]? = some (i : Int)
    ∧ ({ OptVec.mk' 2 1 1 6 (List.replicate 6 (0 : Int)) with x := [1, 2, 3, 4, 5, 6] }).getOptimizedState i = .ok [3 * (i : Int) + 1, 3 * i + 2] := by
  intro i hi
  obtain rfl | rfl : i = 0 ∨ i = 1 := by omega
  · exact ⟨rfl, rfl⟩
  · exact ⟨rfl, rfl⟩

example : ∃ p, (configured 1 [.box exBox]).pattern (OptVec.mk' 2 1 1 6 (List.replicate 6 (0 : Int)))
    (List.replicate 5 (0, 0)) = .ok p ∧ p = [(0, 0), (0, 2), (1, 3), (1, 5), (2, 4)] := ⟨_, rfl, by decide⟩

/-- The violating configuration: the same container passed as a general constraint. -/
example : (configured 1 [.general exBox]).pattern (OptVec.mk' 2 1 1 6 (List.replicate 6 (0 : Int)))
    (List.replicate (configured 1 [.general exBox]).nnz (0, 0)) = .ub := rfl

end CT.Dms
