import Verif.Model.Fhdtlqr
import Verif.Props.Lqr
import Verif.Props.DmsVector

/-! # C87: finite-horizon LQR design on arrays -/

namespace CT.Lqr

open Matrix CT.Riccati

open scoped Classical

variable {n m : Nat}

/-- Weights of stage `k` along the trajectory. -/
noncomputable def wQ (o : FhObj n m) (dt : ℝ) (X : List (Fin n → ℝ)) (U : List (Fin m → ℝ)) (k : Nat) :
    Matrix (Fin n) (Fin n) ℝ := dt • o.cost.xx (X.getD k 0) (U.getD k 0) (k * dt)

noncomputable def wR (o : FhObj n m) (dt : ℝ) (X : List (Fin n → ℝ)) (U : List (Fin m → ℝ)) (k : Nat) :
    Matrix (Fin m) (Fin m) ℝ := dt • o.cost.uu (X.getD k 0) (U.getD k 0) (k * dt)

/-- Terminal weight. -/
noncomputable def wN (o : FhObj n m) (dt : ℝ) (X : List (Fin n → ℝ)) (N : Nat) : Matrix (Fin n) (Fin n) ℝ :=
  o.cost.xxN (X.getD N 0) 0 (dt * N)

theorem idx_getD {α : Type} (l : List α) (i : Nat) (d : α) (h : i < l.length) : idx l i = .ok (l.getD i d) := by
  simp [idx, h]

theorem fhLoop_ok (o : FhObj n m) (dt : ℝ) (checks : Bool) (X : List (Fin n → ℝ)) (U : List (Fin m → ℝ))
    (A : List (Matrix (Fin n) (Fin n) ℝ)) (B : List (Matrix (Fin n) (Fin m) ℝ)) (N : Nat)
    (hX : X.length = N + 1) (hU : U.length = N) (hA : A.length = N) (hB : B.length = N)
    (PN : Matrix (Fin n) (Fin n) ℝ) (i : Nat) (hi : i ≤ N)
    (hc : ∀ k, k < i → ¬ (checks = true ∧ stageBad (wQ o dt X U k) (wR o dt X U k))) :
    fhLoop o dt checks X U A B i
      (fhP o.eig o.eps (wQ o dt X U) (wR o dt X U) (fun k => A.getD k 0) (fun k => B.getD k 0) PN N (N - i))
    = .ok ((List.range i).map fun k =>
        fhK o.eig o.eps (wQ o dt X U) (wR o dt X U) (fun k => A.getD k 0) (fun k => B.getD k 0) PN N k) := by
  induction i with
  | zero => rfl
  | succ i ih =>
    have h1 := hc i (by omega)
    simp only [wQ, wR] at h1
    simp only [fhLoop, idx_getD X i 0 (by omega), idx_getD U i 0 (by omega), idx_getD A i 0 (by omega),
      idx_getD B i 0 (by omega), Res.ok_bind, if_neg h1]
    have e : N - i = (N - (i + 1)) + 1 := by omega
    have hP : (iterateRobust o.eig o.eps (dt • o.cost.xx (X.getD i 0) (U.getD i 0) (i * dt))
        (dt • o.cost.uu (X.getD i 0) (U.getD i 0) (i * dt)) (A.getD i 0) (B.getD i 0)
        (fhP o.eig o.eps (wQ o dt X U) (wR o dt X U) (fun k => A.getD k 0) (fun k => B.getD k 0) PN N
          (N - (i + 1)))).1
        = fhP o.eig o.eps (wQ o dt X U) (wR o dt X U) (fun k => A.getD k 0) (fun k => B.getD k 0) PN N (N - i) := by
      rw [e, fhP, show N - (N - (i + 1) + 1) = i by omega]
      rfl
    rw [hP, ih (by omega) fun k hk => hc k (by omega), Res.ok_bind, List.range_succ, List.map_append]
    rfl

theorem fhLoop_exc (o : FhObj n m) (dt : ℝ) (X : List (Fin n → ℝ)) (U : List (Fin m → ℝ))
    (A : List (Matrix (Fin n) (Fin n) ℝ)) (B : List (Matrix (Fin n) (Fin m) ℝ)) (N : Nat)
    (hX : X.length = N + 1) (hU : U.length = N) (hA : A.length = N) (hB : B.length = N)
    (P : Matrix (Fin n) (Fin n) ℝ) (i : Nat) (hi : i ≤ N)
    (hc : ∃ k, k < i ∧ stageBad (wQ o dt X U k) (wR o dt X U k)) :
    fhLoop o dt true X U A B i P = .exc := by
  induction i generalizing P with
  | zero => obtain ⟨k, hk, -⟩ := hc; omega
  | succ i ih =>
    simp only [fhLoop, idx_getD X i 0 (by omega), idx_getD U i 0 (by omega), idx_getD A i 0 (by omega),
      idx_getD B i 0 (by omega), Res.ok_bind, true_and]
    by_cases hb : stageBad (wQ o dt X U i) (wR o dt X U i)
    · have hb' := hb
      simp only [wQ, wR] at hb'
      rw [if_pos hb']
    · have hb' := hb
      simp only [wQ, wR] at hb'
      rw [if_neg hb']
      obtain ⟨k, hk, hkb⟩ := hc
      have : k ≠ i := fun h => hb (h ▸ hkb)
      rw [ih _ (by omega) ⟨k, by omega, hkb⟩]
      rfl

theorem fhStages_pos {α : Type} {X : List α} {N : Nat} (h : X.length = N + 1) (hN : N < 2 ^ 64) :
    fhStages X = N := by
  unfold fhStages
  omega

/-- Specification: the weights the checks refuse — a negative entry, or a diagonal entry of the control
weight that is not positive. -/
def Refused (Q : Matrix (Fin n) (Fin n) ℝ) (R : Matrix (Fin m) (Fin m) ℝ) : Prop :=
  (∃ i j, Q i j < 0) ∨ (∃ i j, R i j < 0) ∨ ∃ i, R i i ≤ 0

theorem stageBad_iff {Q : Matrix (Fin n) (Fin n) ℝ} {R : Matrix (Fin m) (Fin m) ℝ} :
    stageBad Q R ↔ Refused Q R := Iff.rfl

/-- C87: on trajectories of matching lengths – one state more than controls, one linearisation per control –
the design returns one gain per control, computed by the Riccati recursion from the linearisations given and
from the weights of the cost function at the states, controls and times of the trajectory; it throws exactly
if the checks are requested and a weight fails them. -/
theorem C87_gains (o : FhObj n m) (dt : ℝ) (checks : Bool) (X : List (Fin n → ℝ)) (U : List (Fin m → ℝ))
    (A : List (Matrix (Fin n) (Fin n) ℝ)) (B : List (Matrix (Fin n) (Fin m) ℝ)) (N : Nat) (hN : N + 1 < 2 ^ 64)
    (hX : X.length = N + 1) (hU : U.length = N) (hA : A.length = N) (hB : B.length = N) :
    ((checks = true ∧ ((∃ i, o.eigN (wN o dt X N) i < 0) ∨ ∃ k, k < N ∧ Refused (wQ o dt X U k) (wR o dt X U k)))
      → fhDesign o X U A B dt checks = .exc) ∧
    (¬ (checks = true ∧
        ((∃ i, o.eigN (wN o dt X N) i < 0) ∨ ∃ k, k < N ∧ Refused (wQ o dt X U k) (wR o dt X U k)))
      → ∃ K, fhDesign o X U A B dt checks = .ok K ∧ K.length = N ∧ ∀ k, k < N →
        K[k]? = some (fhK o.eig o.eps (wQ o dt X U) (wR o dt X U) (fun k => A.getD k 0) (fun k => B.getD k 0)
          (wN o dt X N) N k)) := by
  simp only [← stageBad_iff]
  have hNs := fhStages_pos hX (by omega)
  have hmod : (N + 1) % 2 ^ 64 = N + 1 := Nat.mod_eq_of_lt hN
  have hbase : fhDesign o X U A B dt checks =
      if checks = true ∧ ∃ i, o.eigN (wN o dt X N) i < 0 then .exc
      else fhLoop o dt checks X U A B N (wN o dt X N) := by
    unfold fhDesign fhSolve
    rw [hNs, hmod, if_neg (not_not.2 hX), if_neg (not_not.2 hU), if_neg (not_not.2 hA), if_neg (not_not.2 hB),
      idx_getD X N 0 (by omega), Res.ok_bind]
    rfl
  rw [hbase]
  constructor
  · rintro ⟨rfl, h | h⟩
    · rw [if_pos ⟨rfl, h⟩]
    · split
      · rfl
      · exact fhLoop_exc o dt X U A B N hX hU hA hB _ N le_rfl h
  · intro h
    rw [if_neg fun hc => h ⟨hc.1, Or.inl hc.2⟩]
    have := fhLoop_ok o dt checks X U A B N hX hU hA hB (wN o dt X N) N le_rfl
      fun k hk hc => h ⟨hc.1, Or.inr ⟨k, hk, hc.2⟩⟩
    rw [Nat.sub_self] at this
    refine ⟨_, this, by simp, fun k hk => ?_⟩
    simp [hk]

/-- C87: arrays whose lengths do not match are rejected; nothing is read outside the arrays. -/
theorem C87_rejects (o : FhObj n m) (dt : ℝ) (checks : Bool) (X : List (Fin n → ℝ)) (U : List (Fin m → ℝ))
    (A : List (Matrix (Fin n) (Fin n) ℝ)) (B : List (Matrix (Fin n) (Fin m) ℝ)) (hX : X.length < 2 ^ 64)
    (hU : U.length < 2 ^ 64 - 1)
    (h : ¬ (X.length = U.length + 1 ∧ A.length = U.length ∧ B.length = U.length)) :
    fhDesign o X U A B dt checks = .exc := by
  unfold fhDesign fhSolve
  by_cases h0 : X.length = 0
  · have hs : fhStages X = 2 ^ 64 - 1 := by unfold fhStages; omega
    rw [hs]
    split
    · rfl
    · rw [if_pos (by omega)]
  · have hs : fhStages X = X.length - 1 := fhStages_pos (by omega) (by omega)
    rw [hs]
    split
    · rfl
    split
    · rfl
    split
    · rfl
    split
    · rfl
    · exfalso
      apply h
      omega

/-- C87 (partial), linear system: on trajectories of matching lengths, the design linearises the model by a
forward Euler step at every state and control and designs with the result.

Missing for the full statement: too short a control trajectory is not rejected, see `C87_violated`. -/
theorem C87_linear_partial (o : FhObj n m) (dX : (Fin n → ℝ) → (Fin m → ℝ) → Matrix (Fin n) (Fin n) ℝ)
    (dU : (Fin n → ℝ) → (Fin m → ℝ) → Matrix (Fin n) (Fin m) ℝ) (dt : ℝ) (checks : Bool)
    (X : List (Fin n → ℝ)) (U : List (Fin m → ℝ)) (hX : X.length = U.length + 1) (hN : U.length < 2 ^ 64 - 1) :
    fhDesignLin o dX dU X U dt checks =
      fhDesign o X U ((X.zip U).map fun p => 1 + dt • dX p.1 p.2) ((X.zip U).map fun p => dt • dU p.1 p.2)
        dt checks := by
  have hs : fhStages X = U.length := fhStages_pos hX (by omega)
  unfold fhDesignLin fhDesign fhLinearize
  rw [hs, if_neg (by omega)]
  rw [CT.Dms.mapM_ok (g := fun i => (1 + dt • dX (X.getD i 0) (U.getD i 0), dt • dU (X.getD i 0) (U.getD i 0)))]
  · rw [Res.ok_bind, List.map_map, List.map_map]
    have e : ∀ {α : Type} (f : (Fin n → ℝ) → (Fin m → ℝ) → α),
        (List.range U.length).map (fun i => f (X.getD i 0) (U.getD i 0)) = (X.zip U).map fun p => f p.1 p.2 := by
      intro α f
      apply List.ext_getElem
      · simp [hX]
      · intro k h1 h2
        simp at h1
        simp [h1, show k < X.length by omega]
    rw [← e fun x u => 1 + dt • dX x u, ← e fun x u => dt • dU x u]
    rfl
  · intro i hi
    rw [List.mem_range] at hi
    rw [idx_getD X i 0 (by omega), idx_getD U i 0 hi]
    rfl

/-- C87 is violated: given a linear system, a control trajectory that is too short is read outside its bounds
before its length is checked. -/
theorem C87_violated (o : FhObj n m) (dX : (Fin n → ℝ) → (Fin m → ℝ) → Matrix (Fin n) (Fin n) ℝ)
    (dU : (Fin n → ℝ) → (Fin m → ℝ) → Matrix (Fin n) (Fin m) ℝ) (dt : ℝ) (checks : Bool)
    (X : List (Fin n → ℝ)) (U : List (Fin m → ℝ)) (hX : U.length + 1 < X.length) (hN : X.length < 2 ^ 64) :
    fhDesignLin o dX dU X U dt checks = .ub := by
  have hs : fhStages X = X.length - 1 := fhStages_pos (by omega) (by omega)
  unfold fhDesignLin fhLinearize
  rw [hs, if_neg (by omega)]
  have key : ∀ (l : List Nat) (r : Nat), (∀ i ∈ l, i < U.length) → ((l ++ U.length :: List.range' (U.length + 1) r).mapM
      fun i => (do
        let x ← idx X i
        let u ← idx U i
        Res.ok (1 + dt • dX x u, dt • dU x u))) = .ub := by
    intro l r hl
    induction l with
    | nil =>
      have hu : idx U U.length = .ub := by simp [idx]
      rw [List.nil_append, List.mapM_cons, idx_getD X U.length 0 (by omega), Res.ok_bind, hu]
      rfl
    | cons a l ih =>
      have ha := hl a (by simp)
      rw [List.cons_append, List.mapM_cons, idx_getD X a 0 (by omega), idx_getD U a 0 ha, Res.ok_bind, Res.ok_bind,
        Res.ok_bind, ih fun i hi => hl i (by simp [hi])]
      rfl
  have hr : List.range (X.length - 1) = List.range U.length ++ U.length ::
      List.range' (U.length + 1) (X.length - 1 - U.length - 1) := by
    rw [← List.range'_succ, show X.length - 1 - U.length - 1 + 1 = X.length - 1 - U.length by omega,
      List.range_eq_range', List.range_eq_range']
    conv_lhs => rw [show X.length - 1 = U.length + (X.length - 1 - U.length) by omega]
    rw [← List.range'_append_1, Nat.zero_add]
  rw [hr, key _ _ fun i hi => List.mem_range.1 hi]
  rfl

/-- A trajectory of three states meets the hypotheses; one of the controls missing violates the claim. -/
example : ([0, 1, 2] : List (Fin 1 → ℝ)).length = ([0, 1] : List (Fin 1 → ℝ)).length + 1 ∧
    ([0] : List (Fin 1 → ℝ)).length + 1 < ([0, 1, 2] : List (Fin 1 → ℝ)).length := by
  simp

end CT.Lqr
