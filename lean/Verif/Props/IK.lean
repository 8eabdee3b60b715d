import Verif.Model.IK
import Mathlib.Data.List.Induction
import Mathlib.Tactic.Linarith
import Mathlib.Tactic.NormNum
import Mathlib.Data.Fin.VecNotation
import Mathlib.Algebra.Group.Action.Basic
import Mathlib.Algebra.Group.Action.End

/-! # Properties C66 and C89: inverse kinematics -/

namespace CT.IK

/-! ### C66: the closest solution -/

theorem closeLoop_spec {Q : Type} (dist : Q → ℝ) (l : List Q) (b : Q) :
    ∃ pre post, b :: l = pre ++ (closeLoop dist l b (dist b)).1 :: post ∧
      (closeLoop dist l b (dist b)).2 = dist (closeLoop dist l b (dist b)).1 ∧
      (∀ q ∈ pre, dist (closeLoop dist l b (dist b)).1 < dist q) ∧
      (∀ q ∈ post, dist (closeLoop dist l b (dist b)).1 ≤ dist q) := by
  induction l using List.reverseRecOn with
  | nil => exact ⟨[], [], rfl, rfl, by simp, by simp⟩
  | append_singleton l a ih =>
    obtain ⟨pre, post, e, e2, h1, h2⟩ := ih
    have hs : closeLoop dist (l ++ [a]) b (dist b) =
        if dist a < (closeLoop dist l b (dist b)).2 then (a, dist a) else closeLoop dist l b (dist b) := by
      rw [closeLoop, List.foldl_append]; rfl
    rw [hs]
    split
    · rename_i hlt
      rw [e2] at hlt
      refine ⟨b :: l, [], by simp, rfl, fun q hq => ?_, by simp⟩
      rw [e] at hq
      rcases List.mem_append.1 hq with hq | hq
      · exact hlt.trans (h1 q hq)
      · rcases List.mem_cons.1 hq with rfl | hq
        · exact hlt
        · exact hlt.trans_le (h2 q hq)
    · rename_i hnlt
      rw [e2] at hnlt
      refine ⟨pre, post ++ [a], ?_, e2, h1, fun q hq => ?_⟩
      · rw [← List.cons_append, e]; simp
      · rcases List.mem_append.1 hq with hq | hq
        · exact h2 q hq
        · rw [List.mem_singleton.1 hq]; exact not_lt.1 hnlt

/-- C66, choice: given the solutions found, the call reports failure (leaving the output untouched)
exactly when none was reported, and otherwise returns a solution of the list that is at least as
close to the query as every other one and strictly closer than all listed before it. -/
theorem C66_closest {Q : Type} (dist : Q → ℝ) (sols : List Q) (old : Q) :
    closeTo dist false sols old = .ok (false, old) ∧
    (sols ≠ [] → ∃ pre q post, closeTo dist true sols old = .ok (true, q) ∧ sols = pre ++ q :: post ∧
      (∀ q' ∈ sols, dist q ≤ dist q') ∧ ∀ q' ∈ pre, dist q < dist q') ∧
    (sols = [] → closeTo dist true sols old = .ub) := by
  refine ⟨rfl, fun hne => ?_, fun he => by subst he; rfl⟩
  cases sols with
  | nil => exact absurd rfl hne
  | cons b l =>
    obtain ⟨pre, post, e, _, h1, h2⟩ := closeLoop_spec dist l b
    refine ⟨pre, _, post, rfl, e, fun q' hq => ?_, h1⟩
    rw [e] at hq
    rcases List.mem_append.1 hq with hq | hq
    · exact (h1 q' hq).le
    · rcases List.mem_cons.1 hq with rfl | hq
      · exact le_rfl
      · exact h2 q' hq

example : closeTo (fun q : ℝ => q) true [3, 1, 2] 7 = .ok (true, 1) := by
  simp only [closeTo, closeLoop, List.foldl_cons, List.foldl_nil]
  norm_num

/-! ### C66: the solver with retries -/

variable {S T : Type} {n : ℕ}

/-- Specification: the state of the program after `k` trials. -/
def Env.after (E : Env S T n) (st : Settings) (noise : ℕ → Fin n → ℝ) (s : S) : ℕ → S
  | 0 => s
  | k + 1 => E.solve (if st.randomize = true ∧ k ≠ 0 then E.setGuess (E.after st noise s k) (E.randomGuess (noise k))
      else E.after st noise s k)

/-- Specification: trial `k` yields a valid solution. -/
def Env.valid (E : Env S T n) (st : Settings) (noise : ℕ → Fin n → ℝ) (s : S) (target : T) (k : ℕ) : Prop :=
  E.near (E.solution (E.after st noise s (k + 1))) target = true

theorem trials_spec (E : Env S T n) (st : Settings) (noise : ℕ → Fin n → ℝ) (s0 : S) (target : T) (left count : ℕ) :
    (∃ k, count ≤ k ∧ k < count + left ∧ E.valid st noise s0 target k ∧
      (∀ k', count ≤ k' → k' < k → ¬ E.valid st noise s0 target k') ∧
      E.trials st.randomize noise target left count (E.after st noise s0 count) [] =
        ([E.solution (E.after st noise s0 (k + 1))], true, E.after st noise s0 (k + 1))) ∨
    ((∀ k, count ≤ k → k < count + left → ¬ E.valid st noise s0 target k) ∧
      E.trials st.randomize noise target left count (E.after st noise s0 count) [] =
        ([], false, E.after st noise s0 (count + left))) := by
  induction left generalizing count with
  | zero => exact .inr ⟨fun k h1 h2 => by omega, rfl⟩
  | succ left ih =>
    have hs : E.solve (if (st.randomize && count != 0) = true then
        E.setGuess (E.after st noise s0 count) (E.randomGuess (noise count)) else E.after st noise s0 count) =
        E.after st noise s0 (count + 1) := by
      rw [Env.after]
      congr 1
      by_cases h1 : st.randomize = true <;> by_cases h2 : count = 0 <;> simp [h1, h2]
    rw [Env.trials]
    simp only [hs]
    by_cases hv : E.near (E.solution (E.after st noise s0 (count + 1))) target = true
    · refine .inl ⟨count, le_rfl, by omega, hv, fun k' h1 h2 => by omega, ?_⟩
      rw [if_pos hv]
      rfl
    · rw [if_neg hv]
      rcases ih (count + 1) with ⟨k, h1, h2, h3, h4, h5⟩ | ⟨h1, h2⟩
      · refine .inl ⟨k, by omega, by omega, h3, fun k' h6 h7 => ?_, h5⟩
        rcases Nat.eq_or_lt_of_le h6 with rfl | h8
        · exact hv
        · exact h4 k' h8 h7
      · refine .inr ⟨fun k h3 h4 => ?_, by rw [h2]; congr 3; omega⟩
        rcases Nat.eq_or_lt_of_le h3 with rfl | h8
        · exact hv
        · exact h1 k h8 (by omega)

/-- C66, solver: success is reported exactly if one of the at most `maxNumTrials` trials produced a
solution passing the validation; then the list holds just the solution of the first such trial, and
no trial is made after it; otherwise the list is empty.  Earlier contents of the list do not matter. -/
theorem C66_retries (E : Env S T n) (st : Settings) (noise : ℕ → Fin n → ℝ) (s : S) (old : List (Fin n → ℝ))
    (target : T) :
    let s0 := E.setTarget s target
    ((E.compute st noise s old target).2.1 = true ↔ ∃ k < st.maxTrials, E.valid st noise s0 target k) ∧
    (∀ k < st.maxTrials, E.valid st noise s0 target k → (∀ k' < k, ¬ E.valid st noise s0 target k') →
      E.compute st noise s old target =
        ([E.solution (E.after st noise s0 (k + 1))], true, E.after st noise s0 (k + 1))) ∧
    ((E.compute st noise s old target).2.1 = false →
      (E.compute st noise s old target).1 = [] ∧
      (E.compute st noise s old target).2.2 = E.after st noise s0 st.maxTrials) ∧
    (∀ q ∈ (E.compute st noise s old target).1, E.near q target = true) := by
  intro s0
  have := trials_spec E st noise s0 target st.maxTrials 0
  have hc : E.compute st noise s old target = E.trials st.randomize noise target st.maxTrials 0 (E.after st noise s0 0) [] :=
    rfl
  rw [hc]
  rcases this with ⟨k, _, h2, h3, h4, h5⟩ | ⟨h1, h2⟩
  · rw [h5]
    refine ⟨⟨fun _ => ⟨k, by omega, h3⟩, fun _ => rfl⟩, fun k' hk' hv hf => ?_, fun hf => ?_, fun q hq => ?_⟩
    · have : k' = k := by
        rcases Nat.lt_trichotomy k' k with hlt | heq | hgt
        · exact absurd hv (h4 k' (Nat.zero_le _) hlt)
        · exact heq
        · exact absurd h3 (hf k hgt)
      rw [this]
    · simp at hf
    · rw [List.mem_singleton.1 hq]; exact h3
  · rw [h2]
    refine ⟨⟨fun hf => ?_, fun ⟨k, hk, hv⟩ => absurd hv (h1 k (Nat.zero_le _) (by omega))⟩,
      fun k hk hv => absurd hv (h1 k (Nat.zero_le _) (by omega)), fun _ => ⟨rfl, by simp⟩, fun q hq => ?_⟩
    · simp at hf
    · simp at hq

/-- C66, restarts: with noise between 0 and 1 and ordered limits every randomised initial guess
respects the joint limits; noise 0 and 1 give the limits themselves; the first trial starts from the
guess the user set, and with the default settings it is the only one. -/
theorem C66_guesses (E : Env S T n) (noise : Fin n → ℝ) (hl : ∀ i, E.lower i ≤ E.upper i)
    (hn : ∀ i, 0 ≤ noise i ∧ noise i ≤ 1) (st : Settings) (ns : ℕ → Fin n → ℝ) (s : S) :
    (∀ i, E.lower i ≤ E.randomGuess noise i ∧ E.randomGuess noise i ≤ E.upper i) ∧
    E.randomGuess (fun _ => 0) = E.lower ∧ E.randomGuess (fun _ => 1) = E.upper ∧
    E.after st ns s 1 = E.solve s ∧ Settings.default.maxTrials = 1 := by
  refine ⟨fun i => ⟨?_, ?_⟩, ?_, ?_, ?_, rfl⟩
  · have := mul_nonneg (sub_nonneg.2 (hl i)) (hn i).1
    simp only [Env.randomGuess]; linarith
  · have := mul_le_of_le_one_right (sub_nonneg.2 (hl i)) (hn i).2
    simp only [Env.randomGuess]; linarith
  · funext i; simp [Env.randomGuess]
  · funext i; simp [Env.randomGuess]
  · simp [Env.after]

/-- C66, frames: the target handed to the solver is the pose relative to the base: composing it with
the base pose recovers the world pose; the overload without base pose hands over its argument as it is;
the combined call never runs into an empty list of solutions. -/
theorem C66_frames {G V : Type} [Group G] [AddCommGroup V] [DistribMulAction G V] (E : Env S (Pose G V) n)
    (st : Settings) (noise : ℕ → Fin n → ℝ) (s : S) (dist : (Fin n → ℝ) → ℝ) (p ref : Pose G V) (old : Fin n → ℝ) :
    ref.rot * (p.inReferenceFrame ref).rot = p.rot ∧
    ref.rot • (p.inReferenceFrame ref).pos + ref.pos = p.pos ∧
    p.inReferenceFrame Pose.identity = p ∧
    E.closeToBase st noise s dist p old =
      closeTo dist (E.compute st noise s [] p).2.1 (E.compute st noise s [] p).1 old ∧
    (E.closeToWorld st noise s dist p ref old).isOk := by
  have hid : p.inReferenceFrame Pose.identity = p := by
    simp [Pose.inReferenceFrame, Pose.identity]
  refine ⟨?_, ?_, hid, ?_, ?_⟩
  · simp [Pose.inReferenceFrame]
  · simp only [Pose.inReferenceFrame, smul_inv_smul, sub_add_cancel]
  · simp only [Env.closeToBase, Env.closeToWorld, Env.computeWorld, hid]
  · simp only [Env.closeToWorld, Env.computeWorld]
    have := C66_retries E st noise s [] (p.inReferenceFrame ref)
    simp only at this
    obtain ⟨h1, h2, h3, _⟩ := this
    rcases hb : (E.compute st noise s [] (p.inReferenceFrame ref)).2.1 with _ | _
    · simp [closeTo, Res.isOk]
    · obtain ⟨k, hk, hv⟩ := h1.1 hb
      classical
      have hex : ∃ k, k < st.maxTrials ∧ E.valid st noise (E.setTarget s (p.inReferenceFrame ref)) (p.inReferenceFrame ref) k :=
        ⟨k, hk, hv⟩
      have hmin := Nat.find_spec hex
      have := h2 (Nat.find hex) hmin.1 hmin.2 fun k' hk' hv' =>
        Nat.find_min hex hk' ⟨hk'.trans hmin.1, hv'⟩
      rw [this]
      simp [closeTo, Res.isOk]

/-- An environment in which the third trial succeeds: solving adds one to a counter. -/
def counter : Env ℕ ℕ 1 where
  setTarget s _ := s
  setGuess s _ := s
  solve s := s + 1
  solution s := fun _ => s
  near _ _ := false
  lower := fun _ => -1
  upper := fun _ => 1

example : ((counter.compute ⟨5, true⟩ (fun _ _ => 0) 0 [] 3).2.2 = 5) := by decide +kernel

example : (({ counter with solution := fun _ _ => 2, near := fun _ _ => true } : Env ℕ ℕ 1).compute
    ⟨5, true⟩ (fun _ _ => 0) 0 [] 3).2 = (true, 1) := by decide +kernel

/-! ### C89: the validation tolerance -/

/-- C89 (partial): for target positions at distance at most 1 from the origin, an accepted position is within
the tolerance of the target; equal poses are accepted.  Missing: positions within the tolerance need
not be accepted, and far from the origin larger errors are accepted, see `C89_violated`. -/
theorem C89_near_partial {G : Type} (rotNear : G → G → ℝ → Bool) (a b : Pose G (Fin 3 → ℝ)) (tol : ℝ) :
    (isNear rotNear a b tol = true → rotNear a.rot b.rot tol = true ∧
      (sq b.pos ≤ 1 → sq (a.pos - b.pos) ≤ tol * tol)) ∧
    (a.pos = b.pos → isNear rotNear a b tol = rotNear a.rot b.rot tol) := by
  constructor
  · intro hn
    simp only [isNear, isApprox, Bool.and_eq_true, decide_eq_true_eq] at hn
    refine ⟨hn.1, fun hb => hn.2.trans ?_⟩
    have : min (sq a.pos) (sq b.pos) ≤ 1 := (min_le_right _ _).trans hb
    nlinarith [mul_self_nonneg tol]
  · intro hab
    have h0 : sq (a.pos - b.pos) = 0 := by rw [hab]; simp [sq]
    have h1 : 0 ≤ min (sq a.pos) (sq b.pos) := by
      refine le_min ?_ ?_ <;> simp only [sq] <;> nlinarith [mul_self_nonneg (a.pos 0), mul_self_nonneg (a.pos 1),
        mul_self_nonneg (a.pos 2), mul_self_nonneg (b.pos 0), mul_self_nonneg (b.pos 1), mul_self_nonneg (b.pos 2)]
    have : isApprox a.pos b.pos tol = true := by
      simp only [isApprox, decide_eq_true_eq, h0]
      exact mul_nonneg (mul_self_nonneg tol) h1
    simp [isNear, this]

/-- C89, negated: the tolerance is not the distance allowed between the positions.  With the target
at the origin, no other position is accepted, however small the error and however large the
tolerance; with a target at distance 1000 and the default tolerance 1e-4, an error of 0.1 (a
thousand times the tolerance) is accepted. -/
theorem C89_violated {G : Type} (rotNear : G → G → ℝ → Bool) (g : G) (tol : ℝ) :
    (∀ a : Fin 3 → ℝ, a ≠ 0 → isNear rotNear ⟨g, a⟩ ⟨g, 0⟩ tol = false) ∧
    (isApprox ![1000, 0, 0] ![1000.1, 0, 0] 1e-4 = true ∧
      sq (![1000, 0, 0] - ![1000.1, 0, 0]) > (1e-4 * 1e-4) * (900 * 900)) := by
  refine ⟨fun a ha => ?_, ?_, ?_⟩
  · have hpos : 0 < sq a := by
      by_contra hn
      apply ha
      have h0 := mul_self_nonneg (a 0)
      have h1 := mul_self_nonneg (a 1)
      have h2 := mul_self_nonneg (a 2)
      simp only [sq, not_lt] at hn
      funext i
      match i with
      | 0 => exact mul_self_eq_zero.1 (by linarith)
      | 1 => exact mul_self_eq_zero.1 (by linarith)
      | 2 => exact mul_self_eq_zero.1 (by linarith)
    have h0 : sq (0 : Fin 3 → ℝ) = 0 := by simp [sq]
    have : isApprox a 0 tol = false := by
      simp only [isApprox, decide_eq_false_iff_not, sub_zero, h0, min_eq_right hpos.le, mul_zero, not_le]
      exact hpos
    simp [isNear, this]
  · simp only [isApprox, sq, Pi.sub_apply, Matrix.cons_val_zero, Matrix.cons_val_one, Matrix.cons_val]
    norm_num
  · simp only [sq, Pi.sub_apply, Matrix.cons_val_zero, Matrix.cons_val_one, Matrix.cons_val]
    norm_num

end CT.IK
