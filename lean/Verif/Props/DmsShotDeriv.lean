import Verif.Props.DmsShot
import Verif.Proof.Sensitivity
import Mathlib.Data.List.Forall2

/-! # C83: shot sensitivities and cost gradients are exact derivatives -/

namespace CT.Shot

open Matrix
open CT.Sens (Kind lin hasFDerivAt_add_smul_lin hasFDerivAt_add_lin hasFDerivAt_smul_lin hasFDerivAt_fst_lin lin_apply)

variable {ι κ : Type} [Fintype ι] [DecidableEq ι] [Fintype κ] [DecidableEq κ] {Q : Type}

/-- Start state and one control node. -/
abbrev Z (ι κ : Type) := (ι → ℝ) × (κ → ℝ)

/-- Evaluations of the right-hand side per step. -/
def stages : Kind → ℕ
  | .euler => 1
  | .rk4 => 4

section Plain
variable (kd : Kind) (F : (ι → ℝ) → (κ → ℝ) → ℝ → (ι → ℝ))

/-- State after one step, as a function of start state and node. -/
noncomputable def nextFn (Φ : Z ι κ → (ι → ℝ)) (t dt : ℝ) : Z ι κ → (ι → ℝ) := fun z =>
  match kd with
  | .euler => Φ z + dt • F (Φ z) z.2 t
  | .rk4 =>
    let h : ℝ := (1 / 2) * dt
    let k1 := F (Φ z) z.2 t
    let k2 := F (Φ z + h • k1) z.2 (t + h)
    let k3 := F (Φ z + h • k2) z.2 (t + h)
    let k4 := F (Φ z + dt • k3) z.2 (t + dt)
    Φ z + ((1 / 6) * dt) • (k1 + (2 : ℝ) • k2 + (2 : ℝ) • k3 + k4)

/-- Stage states and times of one step. -/
noncomputable def stageFns (Φ : Z ι κ → (ι → ℝ)) (t dt : ℝ) : List ((Z ι κ → (ι → ℝ)) × ℝ) :=
  match kd with
  | .euler => [(Φ, t)]
  | .rk4 =>
    let h : ℝ := (1 / 2) * dt
    [(Φ, t), (fun z => Φ z + h • F (Φ z) z.2 t, t + h),
     (fun z => Φ z + h • F (Φ z + h • F (Φ z) z.2 t) z.2 (t + h), t + h),
     (fun z => Φ z + dt • F (Φ z + h • F (Φ z + h • F (Φ z) z.2 t) z.2 (t + h)) z.2 (t + h), t + dt)]

/-- All stages of `n` steps. -/
noncomputable def allStages (dt : ℝ) : ℕ → (Z ι κ → (ι → ℝ)) → ℝ → List ((Z ι κ → (ι → ℝ)) × ℝ)
  | 0, _, _ => []
  | n + 1, Φ, t => stageFns kd F Φ t dt ++ allStages dt n (nextFn kd F Φ t dt) (t + dt)

/-- State after `n` steps. -/
noncomputable def endFn (dt : ℝ) : ℕ → (Z ι κ → (ι → ℝ)) → ℝ → (Z ι κ → (ι → ℝ))
  | 0, Φ, _ => Φ
  | n + 1, Φ, t => endFn dt n (nextFn kd F Φ t dt) (t + dt)

end Plain

omit [Fintype ι] [DecidableEq ι] [Fintype κ] [DecidableEq κ] in
theorem length_stageFns (kd : Kind) (F : (ι → ℝ) → (κ → ℝ) → ℝ → (ι → ℝ)) (Φ : Z ι κ → (ι → ℝ)) (t dt : ℝ) :
    (stageFns kd F Φ t dt).length = stages kd := by
  cases kd <;> rfl

omit [Fintype ι] [DecidableEq ι] [Fintype κ] [DecidableEq κ] in
theorem length_allStages (kd : Kind) (F : (ι → ℝ) → (κ → ℝ) → ℝ → (ι → ℝ)) (dt : ℝ) (n : ℕ) (Φ : Z ι κ → (ι → ℝ)) (t : ℝ) :
    (allStages kd F dt n Φ t).length = n * stages kd := by
  induction n generalizing Φ t with
  | zero => simp [allStages]
  | succ n ih => simp only [allStages, List.length_append, length_stageFns, ih]; ring

/-- The point recorded at a stage. -/
def ptOf (c : (κ → ℝ) → ℝ → (κ → ℝ)) (z : Z ι κ) (s : (Z ι κ → (ι → ℝ)) × ℝ) : Pt ι κ ℝ := ⟨s.1 z, c z.2 s.2, s.2⟩

/-- What the state of the shot and its control node are: `c w t` is the control at time `t` when the node under
consideration has the value `w`. -/
def dynOf (S : Sys ι κ ℝ Q) (c : (κ → ℝ) → ℝ → (κ → ℝ)) (x : ι → ℝ) (w : κ → ℝ) (t : ℝ) : ι → ℝ := S.dyn x (c w t) t

omit [Fintype ι] [DecidableEq ι] [Fintype κ] [DecidableEq κ] in
theorem step_xDot (S : Sys ι κ ℝ Q) (q : Q) (c : (κ → ℝ) → ℝ → (κ → ℝ)) (z : Z ι κ) (hc : ∀ t, S.ctl q t = .ok (c z.2 t))
    (pre : List (Pt ι κ ℝ)) (Φ : Z ι κ → (ι → ℝ)) (t dt : ℝ) :
    step S.kind (xDot S q) pre (Φ z) t dt =
      .ok (nextFn S.kind (dynOf S c) Φ t dt z, pre ++ (stageFns S.kind (dynOf S c) Φ t dt).map (ptOf c z)) := by
  unfold step nextFn stageFns
  cases S.kind with
  | euler => simp [xDot, hc, dynOf, ptOf, Res.ok_bind, Res.pure_eq]
  | rk4 => simp [xDot, hc, dynOf, ptOf, Res.ok_bind, Res.pure_eq]

omit [Fintype ι] [DecidableEq ι] [Fintype κ] [DecidableEq κ] in
theorem trajLoop_xDot (S : Sys ι κ ℝ Q) (q : Q) (c : (κ → ℝ) → ℝ → (κ → ℝ)) (z : Z ι κ) (hc : ∀ t, S.ctl q t = .ok (c z.2 t))
    (dt : ℝ) (n : ℕ) : ∀ (pre : List (Pt ι κ ℝ)) (Φ : Z ι κ → (ι → ℝ)) (t : ℝ),
    ∃ tr, trajLoop S.kind (xDot S q) dt n pre (Φ z) t =
      .ok (tr, pre ++ (allStages S.kind (dynOf S c) dt n Φ t).map (ptOf c z)) ∧
      ((Φ z, t) :: tr).getLast? = some (endFn S.kind (dynOf S c) dt n Φ t z, (n.iterate (· + dt) t : ℝ)) := by
  induction n with
  | zero => intro pre Φ t; exact ⟨[], by simp [trajLoop, allStages], by simp [endFn]⟩
  | succ n ih =>
    intro pre Φ t
    obtain ⟨tr, h1, h2⟩ := ih (pre ++ (stageFns S.kind (dynOf S c) Φ t dt).map (ptOf c z)) (nextFn S.kind (dynOf S c) Φ t dt) (t + dt)
    refine ⟨(nextFn S.kind (dynOf S c) Φ t dt z, t + dt) :: tr, ?_, ?_⟩
    · simp only [trajLoop, step_xDot S q c z hc, Res.ok_bind, h1, Res.pure_eq, allStages, List.map_append, List.append_assoc]
    · rw [List.getLast?_cons_cons, h2]
      simp [endFn]

/-- Linearisation along the stages: the matrices used at a point. -/
def jA (S : Sys ι κ ℝ Q) (p : Pt ι κ ℝ) : Matrix ι ι ℝ := S.dA p.x p.u p.t
/-- See `jA`. -/
def jB (S : Sys ι κ ℝ Q) (p : Pt ι κ ℝ) : Matrix ι κ ℝ := S.dB p.x p.u p.t

section Deriv
variable (S : Sys ι κ ℝ Q) (c : (κ → ℝ) → ℝ → (κ → ℝ)) (D : ℝ → Matrix κ κ ℝ) (d : ℝ → Res (Matrix κ κ ℝ))

/-- The Jacobians supplied are those of the dynamics. -/
def IsJac : Prop := ∀ t x u, HasFDerivAt (fun y : Z ι κ => S.dyn y.1 y.2 t) (lin (S.dA x u t) (S.dB x u t)) (x, u)

/-- `D t` is the derivative of the control at time `t` by the node, at the node value `w`. -/
def IsNodeDeriv (w : κ → ℝ) : Prop :=
  ∀ t, HasFDerivAt (fun v => c v t) (LinearMap.toContinuousLinearMap (mulVecLin (D t))) w

variable {S c D d}

omit [DecidableEq ι] [DecidableEq κ] in
/-- Chain rule at a stage. -/
theorem stage_deriv (hJ : IsJac S) {z : Z ι κ} (hD : IsNodeDeriv c D z.2) {Φ : Z ι κ → (ι → ℝ)} {A : Matrix ι ι ℝ}
    {B : Matrix ι κ ℝ} (hΦ : HasFDerivAt Φ (lin A B) z) (t : ℝ) :
    HasFDerivAt (fun y => dynOf S c (Φ y) y.2 t)
      (lin (jA S (ptOf c z (Φ, t)) * A) (jA S (ptOf c z (Φ, t)) * B + jB S (ptOf c z (Φ, t)) * D t)) z := by
  have h1 : HasFDerivAt (fun y : Z ι κ => c y.2 t)
      ((LinearMap.toContinuousLinearMap (mulVecLin (D t))).comp (ContinuousLinearMap.snd ℝ _ _)) z :=
    HasFDerivAt.comp z (hD t) hasFDerivAt_snd
  have h2 := HasFDerivAt.comp z (hJ t (Φ z) (c z.2 t)) (hΦ.prodMk h1)
  refine h2.congr_fderiv ?_
  apply ContinuousLinearMap.ext
  intro y
  simp [jA, jB, ptOf, Matrix.mulVec_add, Matrix.add_mulVec, Matrix.mulVec_mulVec, add_assoc]

/-- Pairs of matrices, one per stage. -/
def push (full : Bool) {M : Type} (a b : List M) : List M := if full then a ++ b else a

theorem push_append (full : Bool) {M : Type} (a b b' : List M) : push full (push full a b) b' = push full a (b ++ b') := by
  cases full <;> simp [push]

theorem step_sens (hJ : IsJac S) {z : Z ι κ} (hD : IsNodeDeriv c D z.2) (hd : ∀ t, d t = .ok (D t)) (full : Bool)
    (Φ : Z ι κ → (ι → ℝ)) (mX : Matrix ι ι ℝ) (mU : Matrix ι κ ℝ) (hΦ : HasFDerivAt Φ (lin mX mU) z) (t τ dt : ℝ)
    (pre post : List (Pt ι κ ℝ)) (aX : List (Matrix ι ι ℝ)) (aU : List (Matrix ι κ ℝ)) (pts : List (Pt ι κ ℝ))
    (hp : pts = pre ++ ((stageFns S.kind (dynOf S c) Φ t dt).map (ptOf c z) ++ post)) :
    ∃ (mX' : Matrix ι ι ℝ) (mU' : Matrix ι κ ℝ) (dM : List (Matrix ι ι ℝ × Matrix ι κ ℝ)),
      step S.kind (dX0dot full (pts.map (jA S))) (pre.length, aX) mX τ dt =
        .ok (mX', (pre.length + stages S.kind, push full aX (dM.map Prod.fst))) ∧
      step S.kind (dUdot full (pts.map (jA S)) (pts.map (jB S)) pts d) (pre.length, aU) mU τ dt =
        .ok (mU', (pre.length + stages S.kind, push full aU (dM.map Prod.snd))) ∧
      HasFDerivAt (nextFn S.kind (dynOf S c) Φ t dt) (lin mX' mU') z ∧
      List.Forall₂ (fun s m => HasFDerivAt s.1 (lin m.1 m.2) z) (stageFns S.kind (dynOf S c) Φ t dt) dM := by
  unfold step nextFn
  unfold stageFns at hp ⊢
  cases hk : S.kind with
  | euler =>
    simp only [hk] at hp
    have i0 : idx pts pre.length = .ok (ptOf c z (Φ, t)) := by simp [hp, idx]
    have a0 : idx (pts.map (jA S)) pre.length = .ok (jA S (ptOf c z (Φ, t))) := by simp [hp, idx]
    have b0 : idx (pts.map (jB S)) pre.length = .ok (jB S (ptOf c z (Φ, t))) := by simp [hp, idx]
    have k1 := stage_deriv hJ hD hΦ t
    refine ⟨_, _, [(mX, mU)], ?_, ?_, hasFDerivAt_add_smul_lin dt hΦ k1, ?_⟩
    · simp only [dX0dot, a0, Res.ok_bind, Res.pure_eq, stages, push, List.map_cons, List.map_nil]
    · simp only [dUdot, a0, b0, i0, hd, Res.ok_bind, Res.pure_eq, stages, push, List.map_cons, List.map_nil, ptOf]
    · exact List.Forall₂.cons hΦ List.Forall₂.nil
  | rk4 =>
    simp only [hk] at hp
    set h : ℝ := (1 / 2) * dt with hh
    set φ1 : Z ι κ → (ι → ℝ) := fun z => Φ z + h • dynOf S c (Φ z) z.2 t with hφ1
    set φ2 : Z ι κ → (ι → ℝ) := fun z => Φ z + h • dynOf S c (φ1 z) z.2 (t + h) with hφ2
    set φ3 : Z ι κ → (ι → ℝ) := fun z => Φ z + dt • dynOf S c (φ2 z) z.2 (t + h) with hφ3
    have hp' : pts = pre ++ ([ptOf c z (Φ, t), ptOf c z (φ1, t + h), ptOf c z (φ2, t + h), ptOf c z (φ3, t + dt)] ++ post) := hp
    have k1 := stage_deriv hJ hD hΦ t
    have s1 : HasFDerivAt φ1 _ z := hasFDerivAt_add_smul_lin h hΦ k1
    have k2 := stage_deriv hJ hD s1 (t + h)
    have s2 : HasFDerivAt φ2 _ z := hasFDerivAt_add_smul_lin h hΦ k2
    have k3 := stage_deriv hJ hD s2 (t + h)
    have s3 : HasFDerivAt φ3 _ z := hasFDerivAt_add_smul_lin dt hΦ k3
    have k4 := stage_deriv hJ hD s3 (t + dt)
    have res := hasFDerivAt_add_smul_lin ((1 / 6) * dt) hΦ
      (hasFDerivAt_add_lin (hasFDerivAt_add_lin (hasFDerivAt_add_lin k1
        (hasFDerivAt_smul_lin (2 : ℝ) k2)) (hasFDerivAt_smul_lin (2 : ℝ) k3)) k4)
    have i0 : idx pts pre.length = .ok (ptOf c z (Φ, t)) := by simp [hp', idx]
    have i1 : idx pts (pre.length + 1) = .ok (ptOf c z (φ1, t + h)) := by simp [hp', idx]
    have i2 : idx pts (pre.length + 1 + 1) = .ok (ptOf c z (φ2, t + h)) := by simp [hp', idx, add_assoc]
    have i3 : idx pts (pre.length + 1 + 1 + 1) = .ok (ptOf c z (φ3, t + dt)) := by simp [hp', idx, add_assoc]
    have mp : ∀ {α : Type} (g : Pt ι κ ℝ → α) (i : ℕ) (p : Pt ι κ ℝ), idx pts i = .ok p → idx (pts.map g) i = .ok (g p) := by
      intro α g i p hi
      unfold idx at hi ⊢
      rw [List.getElem?_map]
      cases hq : pts[i]? with
      | none => rw [hq] at hi; simp at hi
      | some v => rw [hq] at hi; simp at hi; simp [hi]
    refine ⟨_, _, [(mX, mU), (_, _), (_, _), (_, _)], ?_, ?_, res, List.Forall₂.cons hΦ
      (List.Forall₂.cons s1 (List.Forall₂.cons s2 (List.Forall₂.cons s3 List.Forall₂.nil)))⟩
    · simp only [dX0dot, mp _ _ _ i0, mp _ _ _ i1, mp _ _ _ i2, mp _ _ _ i3, Res.ok_bind, Res.pure_eq, stages, push,
        List.map_cons, List.map_nil]
      cases full <;> simp [add_assoc, ← hh]
    · simp only [dUdot, i0, i1, i2, i3, mp _ _ _ i0, mp _ _ _ i1, mp _ _ _ i2, mp _ _ _ i3, hd, Res.ok_bind, Res.pure_eq, stages,
        push, List.map_cons, List.map_nil, ptOf]
      cases full <;> simp [add_assoc, ← hh]

theorem loop_sens (hJ : IsJac S) {z : Z ι κ} (hD : IsNodeDeriv c D z.2) (hd : ∀ t, d t = .ok (D t)) (full : Bool) (dt : ℝ) (n : ℕ)
    (pts : List (Pt ι κ ℝ)) : ∀ (Φ : Z ι κ → (ι → ℝ)) (mX : Matrix ι ι ℝ) (mU : Matrix ι κ ℝ) (_ : HasFDerivAt Φ (lin mX mU) z)
    (t τ : ℝ) (pre : List (Pt ι κ ℝ)) (aX : List (Matrix ι ι ℝ)) (aU : List (Matrix ι κ ℝ))
    (_ : pts = pre ++ (allStages S.kind (dynOf S c) dt n Φ t).map (ptOf c z)),
    ∃ (mX' : Matrix ι ι ℝ) (mU' : Matrix ι κ ℝ) (dM : List (Matrix ι ι ℝ × Matrix ι κ ℝ)),
      loop S.kind (dX0dot full (pts.map (jA S))) dt n (pre.length, aX) mX τ =
        .ok (mX', (pre.length + n * stages S.kind, push full aX (dM.map Prod.fst))) ∧
      loop S.kind (dUdot full (pts.map (jA S)) (pts.map (jB S)) pts d) dt n (pre.length, aU) mU τ =
        .ok (mU', (pre.length + n * stages S.kind, push full aU (dM.map Prod.snd))) ∧
      HasFDerivAt (endFn S.kind (dynOf S c) dt n Φ t) (lin mX' mU') z ∧
      List.Forall₂ (fun s m => HasFDerivAt s.1 (lin m.1 m.2) z) (allStages S.kind (dynOf S c) dt n Φ t) dM := by
  induction n with
  | zero =>
    intro Φ mX mU hΦ t τ pre aX aU _
    exact ⟨mX, mU, [], by cases full <;> simp [loop, push], by cases full <;> simp [loop, push], hΦ, List.Forall₂.nil⟩
  | succ n ih =>
    intro Φ mX mU hΦ t τ pre aX aU hp
    simp only [allStages, List.map_append] at hp
    obtain ⟨mX1, mU1, dM1, e1, e2, h1, f1⟩ := step_sens hJ hD hd full Φ mX mU hΦ t τ dt pre _ aX aU pts hp
    obtain ⟨mX2, mU2, dM2, e3, e4, h2, f2⟩ := ih (nextFn S.kind (dynOf S c) Φ t dt) mX1 mU1 h1 (t + dt) (τ + dt)
      (pre ++ (stageFns S.kind (dynOf S c) Φ t dt).map (ptOf c z)) (push full aX (dM1.map Prod.fst))
      (push full aU (dM1.map Prod.snd)) (by rw [hp, List.append_assoc])
    rw [List.length_append, List.length_map, length_stageFns] at e3 e4
    refine ⟨mX2, mU2, dM1 ++ dM2, ?_, ?_, h2, List.rel_append f1 f2⟩
    · rw [loop, e1]
      simp only [Res.ok_bind]
      rw [e3, push_append, List.map_append]
      congr 3
      ring
    · rw [loop, e2]
      simp only [Res.ok_bind]
      rw [e4, push_append, List.map_append]
      congr 3
      ring

/-! ### Quadrature of the cost -/

section Quad
variable {M M' : Type} [AddCommGroup M] [Module ℝ M] [AddCommGroup M'] [Module ℝ M']

/-- Contribution of one step when the right-hand side does not depend on the integrated quantity. -/
noncomputable def quad1 (kd : Kind) (dt : ℝ) (v : ℕ → M) (i : ℕ) : M :=
  match kd with
  | .euler => dt • v i
  | .rk4 => ((1 / 6) * dt) • (v i + (2 : ℝ) • v (i + 1) + (2 : ℝ) • v (i + 2) + v (i + 3))

/-- All steps. -/
noncomputable def quadr (kd : Kind) (dt : ℝ) (v : ℕ → M) : ℕ → ℕ → M → M
  | 0, _, m => m
  | n + 1, i, m => quadr kd dt v n (i + stages kd) (m + quad1 kd dt v i)

theorem loop_index (kd : Kind) (g : ℕ → M → ℝ → Res (M × ℕ)) (v : ℕ → M) (dt : ℝ) (n : ℕ) : ∀ (i : ℕ) (m : M) (t : ℝ)
    (_ : ∀ j, i ≤ j → j < i + n * stages kd → ∀ m t, g j m t = .ok (v j, j + 1)),
    loop kd g dt n i m t = .ok (quadr kd dt v n i m, i + n * stages kd) := by
  induction n with
  | zero => intro i m t _; simp [loop, quadr]
  | succ n ih =>
    intro i m t hg
    have hs : step kd g i m t dt = .ok (m + quad1 kd dt v i, i + stages kd) := by
      unfold step quad1
      cases kd with
      | euler =>
        simp only [stages] at hg
        simp only [hg i (le_refl _) (by omega), Res.ok_bind, Res.pure_eq, stages]
      | rk4 =>
        simp only [stages] at hg
        simp only [hg i (le_refl _) (by omega), hg (i + 1) (by omega) (by omega), hg (i + 1 + 1) (by omega) (by omega),
          hg (i + 1 + 1 + 1) (by omega) (by omega), Res.ok_bind, Res.pure_eq, stages]
    rw [loop, hs]
    simp only [Res.ok_bind]
    rw [ih (i + stages kd) _ _ (fun j h1 h2 => hg j (by omega) (by rw [Nat.succ_mul]; omega)), quadr]
    congr 2
    rw [Nat.succ_mul]
    omega

theorem quadr_linear (kd : Kind) (dt : ℝ) (L : M →ₗ[ℝ] M') (v : ℕ → M) (n : ℕ) (i : ℕ) (m : M) :
    L (quadr kd dt v n i m) = quadr kd dt (fun j => L (v j)) n i (L m) := by
  induction n generalizing i m with
  | zero => rfl
  | succ n ih =>
    rw [quadr, quadr, ih]
    congr 1
    cases kd <;> simp [quad1]

theorem quadr_deriv {E : Type} [NormedAddCommGroup E] [NormedSpace ℝ E] (kd : Kind) (dt : ℝ) (z : E) (v : ℕ → E → ℝ)
    (L : ℕ → E →L[ℝ] ℝ) (n : ℕ) : ∀ (i : ℕ) (m : E → ℝ) (Lm : E →L[ℝ] ℝ)
    (_ : ∀ j, i ≤ j → j < i + n * stages kd → HasFDerivAt (v j) (L j) z) (_ : HasFDerivAt m Lm z),
    HasFDerivAt (fun y => quadr kd dt (fun j => v j y) n i (m y)) (quadr kd dt L n i Lm) z := by
  induction n with
  | zero => intro i m Lm _ hm; exact hm
  | succ n ih =>
    intro i m Lm hv hm
    have h1 : HasFDerivAt (fun y => m y + quad1 kd dt (fun j => v j y) i) (Lm + quad1 kd dt L i) z := by
      cases kd with
      | euler =>
        simp only [stages] at hv
        exact hm.add ((hv i (le_refl _) (by omega)).const_smul dt)
      | rk4 =>
        simp only [stages] at hv
        exact hm.add (((((hv i (le_refl _) (by omega)).add ((hv (i + 1) (by omega) (by omega)).const_smul (2 : ℝ))).add
          ((hv (i + 2) (by omega) (by omega)).const_smul (2 : ℝ))).add (hv (i + 3) (by omega) (by omega))).const_smul ((1 / 6) * dt))
    exact ih (i + stages kd) _ _ (fun j h1 h2 => hv j (by omega) (by rw [Nat.succ_mul]; omega)) h1

end Quad

/-- The linear form `(dx, dw) ↦ gx·dx + gw·dw` as a linear function of the gradient. -/
noncomputable def dual : ((ι → ℝ) × (κ → ℝ)) →ₗ[ℝ] (Z ι κ →L[ℝ] ℝ) where
  toFun g := (LinearMap.toContinuousLinearMap (dotProductBilin ℝ ℝ g.1)).comp (ContinuousLinearMap.fst ℝ _ _) +
    (LinearMap.toContinuousLinearMap (dotProductBilin ℝ ℝ g.2)).comp (ContinuousLinearMap.snd ℝ _ _)
  map_add' g h := by
    apply ContinuousLinearMap.ext
    intro y
    simp
    ring
  map_smul' a g := by
    apply ContinuousLinearMap.ext
    intro y
    simp

end Deriv

omit [DecidableEq ι] [DecidableEq κ] in
theorem dual_apply (g : (ι → ℝ) × (κ → ℝ)) (y : Z ι κ) : dual g y = g.1 ⬝ᵥ y.1 + g.2 ⬝ᵥ y.2 := rfl

omit [DecidableEq ι] [DecidableEq κ] in
theorem dual_quadr (kd : Kind) (dt : ℝ) (gx : ℕ → (ι → ℝ)) (gu : ℕ → (κ → ℝ)) (n : ℕ) :
    quadr kd dt (fun j => dual (gx j, gu j)) n 0 0 = dual (quadr kd dt gx n 0 0, quadr kd dt gu n 0 0) := by
  have h := quadr_linear kd dt dual (fun j => (gx j, gu j)) n 0 0
  rw [map_zero] at h
  rw [← h]
  congr 1
  have h1 := quadr_linear kd dt (LinearMap.fst ℝ (ι → ℝ) (κ → ℝ)) (fun j => (gx j, gu j)) n 0 0
  have h2 := quadr_linear kd dt (LinearMap.snd ℝ (ι → ℝ) (κ → ℝ)) (fun j => (gx j, gu j)) n 0 0
  exact Prod.ext h1 h2

/-! ### Specification -/

variable {Q : Type}

/-- Decision vectors restricted to what a shot depends on: its state, its control node and the next one. -/
abbrev Vars (ι κ : Type) := (ι → ℝ) × (κ → ℝ) × (κ → ℝ)

/-- The shot reads its state, and its control spline is a function of the two nodes. -/
def viewOf (enc : (κ → ℝ) → (κ → ℝ) → Q) : View ι ℝ Q (Vars ι κ) := ⟨fun v => v.1, fun v => enc v.2.1 v.2.2⟩

/-- What the user supplies is consistent: the spline built from the nodes `w`, `w'` has the value `c w w' t` at time `t`;
the two derivative functions of the spline are its derivatives by the nodes (symmetric matrices, as with both kinds of
spline, which weight all components alike); the Jacobians of the dynamics are right. -/
structure Consistent (S : Sys ι κ ℝ (Option Q)) (enc : (κ → ℝ) → (κ → ℝ) → Q) (c : (κ → ℝ) → (κ → ℝ) → ℝ → (κ → ℝ))
    (D0 D1 : ℝ → Matrix κ κ ℝ) : Prop where
  ctl : ∀ w w' t, S.ctl (some (enc w w')) t = .ok (c w w' t)
  jac : IsJac S
  d0 : ∀ t, S.d0 t = .ok (D0 t)
  df : ∀ t, S.df t = .ok (D1 t)
  node0 : ∀ w w', IsNodeDeriv (fun v => c v w') D0 w
  node1 : ∀ w w', IsNodeDeriv (fun v => c w v) D1 w'
  symm0 : ∀ t, (D0 t)ᵀ = D0 t
  symm1 : ∀ t, (D1 t)ᵀ = D1 t

/-- The cost gradients supplied are those of the intermediate cost. -/
def IsCostGrad (S : Sys ι κ ℝ Q) : Prop :=
  ∀ t x u, HasFDerivAt (fun y : Z ι κ => S.cost y.1 y.2 t) (dual (S.costX x u t, S.costU x u t)) (x, u)

section Main
variable {S : Sys ι κ ℝ (Option Q)} {enc : (κ → ℝ) → (κ → ℝ) → Q} {c : (κ → ℝ) → (κ → ℝ) → ℝ → (κ → ℝ)}
  {D0 D1 : ℝ → Matrix κ κ ℝ}

/-- Stages of the shot as functions of state and start node. -/
noncomputable def stg0 (S : Sys ι κ ℝ (Option Q)) (c : (κ → ℝ) → (κ → ℝ) → ℝ → (κ → ℝ)) (w' : κ → ℝ) :=
  allStages S.kind (dynOf S fun v => c v w') S.dt S.nSteps (fun z : Z ι κ => z.1) S.tStart
/-- Stages of the shot as functions of state and end node. -/
noncomputable def stg1 (S : Sys ι κ ℝ (Option Q)) (c : (κ → ℝ) → (κ → ℝ) → ℝ → (κ → ℝ)) (w : κ → ℝ) :=
  allStages S.kind (dynOf S fun v => c w v) S.dt S.nSteps (fun z : Z ι κ => z.1) S.tStart

omit [DecidableEq ι] [DecidableEq κ] in
theorem integrate0 (h : Consistent S enc c D0 D1) (x : ι → ℝ) (w w' : κ → ℝ) :
    ∃ tr, integrate S (some (enc w w')) x = .ok (tr, (stg0 S c w').map (ptOf (fun v => c v w') (x, w))) ∧
      tr.getLast?.map Prod.fst = some (endFn S.kind (dynOf S fun v => c v w') S.dt S.nSteps (fun z => z.1) S.tStart (x, w)) := by
  obtain ⟨tr, h1, h2⟩ := trajLoop_xDot S (some (enc w w')) (fun v => c v w') (x, w) (fun t => h.ctl w w' t) S.dt S.nSteps []
    (fun z => z.1) S.tStart
  refine ⟨(x, S.tStart) :: tr, ?_, by rw [h2]; rfl⟩
  simp only at h1
  rw [integrate, h1]
  rfl

omit [DecidableEq ι] [DecidableEq κ] in
theorem integrate1 (h : Consistent S enc c D0 D1) (x : ι → ℝ) (w w' : κ → ℝ) :
    ∃ tr, integrate S (some (enc w w')) x = .ok (tr, (stg1 S c w).map (ptOf (fun v => c w v) (x, w'))) ∧
      tr.getLast?.map Prod.fst = some (endFn S.kind (dynOf S fun v => c w v) S.dt S.nSteps (fun z => z.1) S.tStart (x, w')) := by
  obtain ⟨tr, h1, h2⟩ := trajLoop_xDot S (some (enc w w')) (fun v => c w v) (x, w') (fun t => h.ctl w w' t) S.dt S.nSteps []
    (fun z => z.1) S.tStart
  refine ⟨(x, S.tStart) :: tr, ?_, by rw [h2]; rfl⟩
  simp only at h1
  rw [integrate, h1]
  rfl

/-- End state of the shot. -/
noncomputable def endOf (S : Sys ι κ ℝ (Option Q)) (c : (κ → ℝ) → (κ → ℝ) → ℝ → (κ → ℝ)) (v : Vars ι κ) : ι → ℝ :=
  endFn S.kind (dynOf S fun u => c u v.2.2) S.dt S.nSteps (fun z => z.1) S.tStart (v.1, v.2.1)

/-- The sensitivities and the stage-wise derivatives they were accumulated from. -/
theorem sens_core (h : Consistent S enc c D0 D1) (x : ι → ℝ) (w w' : κ → ℝ) (tr : List ((ι → ℝ) × ℝ)) (pts : List (Pt ι κ ℝ))
    (hi : integrate S (some (enc w w')) x = .ok (tr, pts)) :
    ∃ r : SensRes ι κ ℝ, canonSens S pts = .ok r ∧
      HasFDerivAt (fun z : Z ι κ => endOf S c (z.1, z.2, w')) (lin r.X r.U) (x, w) ∧
      (S.linear = true → ∃ F, r.F = some F ∧ HasFDerivAt (fun z : Z ι κ => endOf S c (z.1, w, z.2)) (lin r.X F) (x, w')) ∧
      (S.full = true → ∃ dM : List (Matrix ι ι ℝ × Matrix ι κ ℝ), r.xs = dM.map Prod.fst ∧ r.us = dM.map Prod.snd ∧
        List.Forall₂ (fun s m => HasFDerivAt s.1 (lin m.1 m.2) (x, w)) (stg0 S c w') dM) ∧
      (S.full = true → S.linear = true → ∃ dM : List (Matrix ι ι ℝ × Matrix ι κ ℝ), r.xs = dM.map Prod.fst ∧
        r.fs = dM.map Prod.snd ∧ List.Forall₂ (fun s m => HasFDerivAt s.1 (lin m.1 m.2) (x, w')) (stg1 S c w) dM) := by
  obtain ⟨tr0, i0, -⟩ := integrate0 h x w w'
  rw [hi] at i0
  obtain ⟨-, hp0⟩ := Prod.mk.inj (Res.ok.inj i0)
  obtain ⟨X, U, dM, eX, eU, hEnd, hF⟩ := loop_sens (S := S) (c := fun v => c v w') (D := D0) (d := S.d0) h.jac (z := (x, w))
    (h.node0 w w') h.d0 S.full S.dt S.nSteps pts (fun z => z.1) 1 0 (hasFDerivAt_fst_lin (x, w)) S.tStart S.tStart [] [] [] hp0
  have eX' : sensX S (linA S pts) [] = .ok (X, (0 + S.nSteps * stages S.kind, push S.full [] (dM.map Prod.fst))) := eX
  have eU' : sensU S (linA S pts) (linB S pts) pts S.d0 [] =
      .ok (U, (0 + S.nSteps * stages S.kind, push S.full [] (dM.map Prod.snd))) := eU
  unfold canonSens
  simp only [eX', eU', Res.ok_bind]
  unfold canonNext
  cases hl : S.linear with
  | false =>
    refine ⟨_, rfl, hEnd, fun hh => by simp at hh, fun hf => ⟨dM, ?_, ?_, hF⟩, fun _ hh => by simp at hh⟩
    · simp [push, hf]
    · simp [push, hf]
  | true =>
    obtain ⟨tr1, i1, hlast1⟩ := integrate1 h x w w'
    rw [hi] at i1
    obtain ⟨-, hp1⟩ := Prod.mk.inj (Res.ok.inj i1)
    obtain ⟨X1, F, dM1, eX1, eF, hEnd1, hF1⟩ := loop_sens (S := S) (c := fun v => c w v) (D := D1) (d := S.df) h.jac
      (z := (x, w')) (h.node1 w w') h.df S.full S.dt S.nSteps pts (fun z => z.1) 1 0 (hasFDerivAt_fst_lin (x, w')) S.tStart
      S.tStart [] [] [] hp1
    have eF' : sensU S (linA S pts) (linB S pts) pts S.df [] =
      .ok (F, (0 + S.nSteps * stages S.kind, push S.full [] (dM1.map Prod.snd))) := eF
    have hX : X1 = X ∧ push S.full [] (dM1.map Prod.fst) = push S.full [] (dM.map Prod.fst) := by
      rw [eX1] at eX
      have := Res.ok.inj eX
      simp only [Prod.mk.injEq] at this
      exact ⟨this.1, this.2.2⟩
    simp only [eF', if_true, Res.ok_bind, Res.pure_eq]
    have hfun : (fun z : Z ι κ => endOf S c (z.1, w, z.2)) =
        endFn S.kind (dynOf S fun v => c w v) S.dt S.nSteps (fun z => z.1) S.tStart := by
      funext z
      obtain ⟨t0, j0, l0⟩ := integrate0 h z.1 w z.2
      obtain ⟨t1, j1, l1⟩ := integrate1 h z.1 w z.2
      rw [j0] at j1
      have e := (Prod.mk.inj (Res.ok.inj j1)).1
      rw [e, l1] at l0
      exact (Option.some.inj l0).symm
    refine ⟨_, rfl, hEnd, fun _ => ⟨F, rfl, ?_⟩, fun hf => ⟨dM, ?_, ?_, hF⟩, fun hf _ => ⟨dM1, ?_, ?_, hF1⟩⟩
    · rw [hfun, ← hX.1]
      exact hEnd1
    · simp [push, hf]
    · simp [push, hf]
    · have := hX.2
      simp only [push, hf, if_true, List.nil_append] at this ⊢
      exact this.symm
    · simp [push, hf]

/-- **C83 (end state).** For Euler and Runge-Kutta shots of any length, arbitrary nonlinear time-varying dynamics, any
start state and control nodes: the sensitivities reported for a shot are the exact derivatives of the end state that the
shot reports, by its start state and its control node, and with piecewise-linear controls also by the next node. -/
theorem C83_end_state (h : Consistent S enc c D0 D1) :
    ∃ Φ : Vars ι κ → (ι → ℝ),
      (∀ v, ∃ sub, fresh S (viewOf enc) v .shot = .ok (.shot sub) ∧ sub.getLast?.map Prod.fst = some (Φ v)) ∧
      ∀ x w w', ∃ X U F, fresh S (viewOf enc) (x, w, w') .sens = .ok (.sens (some (X, U, F))) ∧
        HasFDerivAt (fun z : Z ι κ => Φ (z.1, z.2, w')) (lin X U) (x, w) ∧
        (S.linear = true → ∃ F', F = some F' ∧ HasFDerivAt (fun z : Z ι κ => Φ (z.1, w, z.2)) (lin X F') (x, w')) := by
  refine ⟨endOf S c, fun v => ?_, fun x w w' => ?_⟩
  · obtain ⟨tr, h1, h2⟩ := integrate0 h v.1 v.2.1 v.2.2
    refine ⟨tr, ?_, h2⟩
    rw [fresh_eq, canon]
    simp only [viewOf, h1, Res.ok_bind, Res.pure_eq]
  · obtain ⟨tr, h1, h2⟩ := integrate0 h x w w'
    obtain ⟨r, hr, d1, d2, -, -⟩ := sens_core h x w w' tr _ h1
    refine ⟨r.X, r.U, r.F, ?_, d1, d2⟩
    rw [fresh_eq, canon]
    simp only [viewOf, h1, hr, Res.ok_bind, Res.pure_eq]

/-- Cost of one stage as a function of state and node. -/
noncomputable def stageCost (S : Sys ι κ ℝ (Option Q)) (b : (κ → ℝ) → ℝ → (κ → ℝ)) (L : List ((Z ι κ → (ι → ℝ)) × ℝ)) (j : ℕ)
    (z : Z ι κ) : ℝ :=
  match L[j]? with
  | some s => S.cost (s.1 z) (b z.2 s.2) s.2
  | none => 0

omit [Fintype ι] [DecidableEq ι] [Fintype κ] [DecidableEq κ] in
theorem costOf_eq (S : Sys ι κ ℝ (Option Q)) (b : (κ → ℝ) → ℝ → (κ → ℝ)) (L : List ((Z ι κ → (ι → ℝ)) × ℝ)) (z : Z ι κ)
    (hL : L.length = S.nSteps * stages S.kind) (hN : 0 < S.nSteps) :
    costOf S (L.map (ptOf b z)) = .ok (quadr S.kind S.dt (fun j => stageCost S b L j z) S.nSteps 0 0) := by
  have hs : 0 < stages S.kind := by cases S.kind <;> simp [stages]
  have hne : L.map (ptOf b z) ≠ [] := by
    intro e
    have e' := congrArg List.length e
    rw [List.length_map, hL, List.length_nil] at e'
    have := Nat.mul_pos hN hs
    omega
  unfold costOf
  rw [if_neg hne, loop_index S.kind (costDot S (L.map (ptOf b z))) (fun j => stageCost S b L j z) S.dt S.nSteps 0 0 S.tStart]
  · rfl
  · intro j _ hj m t
    have hj' : j < L.length := by omega
    simp [costDot, idx, stageCost, List.getElem?_map, List.getElem?_eq_getElem hj', ptOf, Res.ok_bind, Res.pure_eq]

omit [DecidableEq ι] [DecidableEq κ] in
theorem cost_grad_core (hG : IsCostGrad S) (b : (κ → ℝ) → ℝ → (κ → ℝ)) (D : ℝ → Matrix κ κ ℝ) (d : ℝ → Res (Matrix κ κ ℝ))
    (hd : ∀ t, d t = .ok (D t)) (hsym : ∀ t, (D t)ᵀ = D t) (L : List ((Z ι κ → (ι → ℝ)) × ℝ)) (z : Z ι κ)
    (hD : IsNodeDeriv b D z.2) (dM : List (Matrix ι ι ℝ × Matrix ι κ ℝ))
    (hF : List.Forall₂ (fun s m => HasFDerivAt s.1 (lin m.1 m.2) z) L dM) (hL : L.length = S.nSteps * stages S.kind) :
    ∃ gx gu, (∃ i, loop S.kind (costXdot S (L.map (ptOf b z)) (dM.map Prod.fst)) S.dt S.nSteps 0 0 S.tStart = .ok (gx, i)) ∧
      (∃ i, loop S.kind (costUdot S (L.map (ptOf b z)) (dM.map Prod.snd) d) S.dt S.nSteps 0 0 S.tStart = .ok (gu, i)) ∧
      HasFDerivAt (fun y => quadr S.kind S.dt (fun j => stageCost S b L j y) S.nSteps 0 0) (dual (gx, gu)) z := by
  have hlen : L.length = dM.length := hF.length_eq
  set vx : ℕ → (ι → ℝ) := fun j => match L[j]?, dM[j]? with
    | some s, some m => m.1ᵀ *ᵥ S.costX (s.1 z) (b z.2 s.2) s.2
    | _, _ => 0 with hvx
  set vu : ℕ → (κ → ℝ) := fun j => match L[j]?, dM[j]? with
    | some s, some m => m.2ᵀ *ᵥ S.costX (s.1 z) (b z.2 s.2) s.2 + D s.2 *ᵥ S.costU (s.1 z) (b z.2 s.2) s.2
    | _, _ => 0 with hvu
  refine ⟨quadr S.kind S.dt vx S.nSteps 0 0, quadr S.kind S.dt vu S.nSteps 0 0, ⟨_, loop_index S.kind _ vx S.dt S.nSteps 0 0 _ ?_⟩,
    ⟨_, loop_index S.kind _ vu S.dt S.nSteps 0 0 _ ?_⟩, ?_⟩
  · intro j _ hj m t
    have hj' : j < L.length := by omega
    have hj2 : j < dM.length := by omega
    simp [costXdot, idx, hvx, List.getElem?_map, List.getElem?_eq_getElem hj', List.getElem?_eq_getElem hj2, ptOf, Res.ok_bind,
      Res.pure_eq]
  · intro j _ hj m t
    have hj' : j < L.length := by omega
    have hj2 : j < dM.length := by omega
    simp [costUdot, idx, hvu, List.getElem?_map, List.getElem?_eq_getElem hj', List.getElem?_eq_getElem hj2, ptOf, Res.ok_bind,
      Res.pure_eq, hd]
  · rw [← dual_quadr]
    refine quadr_deriv S.kind S.dt z (fun j => stageCost S b L j) (fun j => dual (vx j, vu j)) S.nSteps 0 (fun _ => 0) 0 ?_
      (hasFDerivAt_const _ _)
    intro j _ hj
    have hj' : j < L.length := by omega
    have hj2 : j < dM.length := by omega
    have hs := List.forall₂_iff_get.1 hF
    have hs1 := hs.2 j hj' hj2
    simp only [List.get_eq_getElem] at hs1
    have h1 : HasFDerivAt (fun y : Z ι κ => b y.2 L[j].2)
        ((LinearMap.toContinuousLinearMap (mulVecLin (D L[j].2))).comp (ContinuousLinearMap.snd ℝ _ _)) z :=
      HasFDerivAt.comp z (hD L[j].2) hasFDerivAt_snd
    have h2 := HasFDerivAt.comp z (hG L[j].2 (L[j].1 z) (b z.2 L[j].2)) (hs1.prodMk h1)
    have e1 : stageCost S b L j = fun y => S.cost (L[j].1 y) (b y.2 L[j].2) L[j].2 := by
      funext y
      simp [stageCost, List.getElem?_eq_getElem hj']
    rw [e1]
    refine h2.congr_fderiv ?_
    apply ContinuousLinearMap.ext
    intro y
    simp only [hvx, hvu, List.getElem?_eq_getElem hj', List.getElem?_eq_getElem hj2, dual_apply, ContinuousLinearMap.comp_apply,
      ContinuousLinearMap.prod_apply, lin_apply, ContinuousLinearMap.coe_snd', LinearMap.coe_toContinuousLinearMap',
      mulVecLin_apply, dotProduct_add, add_dotProduct, Matrix.mulVec_transpose]
    rw [← Matrix.dotProduct_mulVec, ← Matrix.dotProduct_mulVec]
    conv_rhs => rw [← hsym L[j].2, Matrix.mulVec_transpose, ← Matrix.dotProduct_mulVec]
    ring

/-- **C83 (cost).** Under the same conditions and for shots of at least one step with full cost evaluation, the three
gradients reported for the shot are the exact derivatives of the cost the shot reports, by its start state, its control
node, and (piecewise-linear controls) the next node. -/
theorem C83_cost (h : Consistent S enc c D0 D1) (hG : IsCostGrad S) (hfull : S.full = true) (hN : 0 < S.nSteps) :
    ∃ J : Vars ι κ → ℝ, (∀ v, fresh S (viewOf enc) v .cost = .ok (.cost (J v))) ∧
      ∀ x w w', ∃ gx gu gf, fresh S (viewOf enc) (x, w, w') .costSens = .ok (.costSens (gx, gu, gf)) ∧
        HasFDerivAt (fun z : Z ι κ => J (z.1, z.2, w')) (dual (gx, gu)) (x, w) ∧
        (S.linear = true → HasFDerivAt (fun z : Z ι κ => J (z.1, w, z.2)) (dual (gx, gf)) (x, w')) := by
  have len0 : ∀ w', (stg0 (ι := ι) S c w').length = S.nSteps * stages S.kind := fun w' => length_allStages _ _ _ _ _ _
  have len1 : ∀ w, (stg1 (ι := ι) S c w).length = S.nSteps * stages S.kind := fun w => length_allStages _ _ _ _ _ _
  set J : Vars ι κ → ℝ := fun v => quadr S.kind S.dt (fun j => stageCost S (fun u => c u v.2.2) (stg0 S c v.2.2) j (v.1, v.2.1))
    S.nSteps 0 0 with hJdef
  have hcost : ∀ v, fresh S (viewOf enc) v .cost = .ok (.cost (J v)) := by
    intro v
    obtain ⟨tr, h1, -⟩ := integrate0 h v.1 v.2.1 v.2.2
    rw [fresh_eq, canon]
    simp only [viewOf, h1, Res.ok_bind, Res.pure_eq,
      costOf_eq S (fun u => c u v.2.2) (stg0 S c v.2.2) (v.1, v.2.1) (len0 _) hN, hJdef]
  refine ⟨J, hcost, fun x w w' => ?_⟩
  obtain ⟨tr, h1, -⟩ := integrate0 h x w w'
  obtain ⟨r, hr, -, -, d3, d4⟩ := sens_core h x w w' tr _ h1
  obtain ⟨dM, r1, r2, r3⟩ := d3 hfull
  obtain ⟨gx, gu, ⟨i1, g1⟩, ⟨i2, g2⟩, g3⟩ := cost_grad_core hG (fun v => c v w') D0 S.d0 h.d0 h.symm0 (stg0 S c w') (x, w)
    (h.node0 w w') dM r3 (len0 _)
  rw [← r1] at g1
  rw [← r2] at g2
  have hcanon : fresh S (viewOf enc) (x, w, w') .costSens = (do
      let v ← canonCost S ((stg0 S c w').map (ptOf (fun v => c v w') (x, w))) r
      pure (.costSens v)) := by
    rw [fresh_eq, canon]
    simp only [viewOf, h1, hr, Res.ok_bind]
  rw [hcanon]
  unfold canonCost
  simp only [g1, g2, Res.ok_bind]
  cases hl : S.linear with
  | false => exact ⟨gx, gu, 0, rfl, g3, fun hh => by simp at hh⟩
  | true =>
    obtain ⟨dM1, q1, q2, q3⟩ := d4 hfull hl
    obtain ⟨tr1, j1, -⟩ := integrate1 h x w w'
    rw [h1] at j1
    have hpts := (Prod.mk.inj (Res.ok.inj j1)).2
    obtain ⟨gx1, gf, ⟨k1, f1⟩, ⟨k2, f2⟩, f3⟩ := cost_grad_core hG (fun v => c w v) D1 S.df h.df h.symm1 (stg1 S c w) (x, w')
      (h.node1 w w') dM1 q3 (len1 _)
    rw [← q1, ← hpts, g1] at f1
    have hgx : gx = gx1 := (Prod.mk.inj (Res.ok.inj f1)).1
    rw [← q2, ← hpts] at f2
    have hfun : (fun z : Z ι κ => J (z.1, w, z.2)) =
        fun y => quadr S.kind S.dt (fun j => stageCost S (fun v => c w v) (stg1 S c w) j y) S.nSteps 0 0 := by
      funext z
      obtain ⟨t0, j0, -⟩ := integrate0 h z.1 w z.2
      obtain ⟨t1, j1, -⟩ := integrate1 h z.1 w z.2
      rw [j0] at j1
      have e := (Prod.mk.inj (Res.ok.inj j1)).2
      have e0 := costOf_eq S (fun u => c u z.2) (stg0 S c z.2) (z.1, w) (len0 _) hN
      have e1 := costOf_eq S (fun u => c w u) (stg1 S c w) (z.1, z.2) (len1 _) hN
      rw [e, e1] at e0
      exact (Res.ok.inj e0).symm
    refine ⟨gx, gu, gf, ?_, g3, fun _ => ?_⟩
    · simp only [f2, if_true, Res.ok_bind, Res.pure_eq]
    · rw [hfun, hgx]
      exact f3

end Main

/-! ### Both spline types satisfy the conditions -/

/-- Zero-order hold: the control is the node; any scalar weighting of the two nodes, as with piecewise-linear controls. -/
theorem consistent_weighted (S : Sys ι κ ℝ (Option ((κ → ℝ) × (κ → ℝ)))) (hJ : IsJac S) (a e : ℝ → ℝ)
    (hctl : ∀ w w' t, S.ctl (some (w, w')) t = .ok (a t • w + e t • w')) (hd0 : ∀ t, S.d0 t = .ok (a t • (1 : Matrix κ κ ℝ)))
    (hdf : ∀ t, S.df t = .ok (e t • (1 : Matrix κ κ ℝ))) :
    Consistent S (fun w w' => (w, w')) (fun w w' t => a t • w + e t • w') (fun t => a t • 1) (fun t => e t • 1) where
  ctl := hctl
  jac := hJ
  d0 := hd0
  df := hdf
  node0 w w' t := by
    have h := ((hasFDerivAt_id (𝕜 := ℝ) w).const_smul (a t)).add_const (e t • w')
    refine h.congr_fderiv ?_
    apply ContinuousLinearMap.ext
    intro y
    simp [Matrix.smul_mulVec]
  node1 w w' t := by
    have h := ((hasFDerivAt_id (𝕜 := ℝ) w').const_smul (e t)).const_add (a t • w)
    refine h.congr_fderiv ?_
    apply ContinuousLinearMap.ext
    intro y
    simp [Matrix.smul_mulVec]
  symm0 t := by simp
  symm1 t := by simp

/-- A time-varying system `x' = t x + u` with cost `t Σ x + Σ u`, piecewise-linear controls over `[0, 1]`, two Runge-Kutta
steps. -/
noncomputable def exShot : Sys ι ι ℝ (Option ((ι → ℝ) × (ι → ℝ))) where
  dyn x u t := t • x + u
  dA _ _ t := t • 1
  dB _ _ _ := 1
  cost x u t := dual ((fun _ => t), (fun _ => 1)) (x, u)
  costX _ _ t := fun _ => t
  costU _ _ _ := fun _ => 1
  ctl q t := match q with | some v => .ok ((1 - t) • v.1 + t • v.2) | none => .ub
  d0 t := .ok ((1 - t) • 1)
  df t := .ok (t • 1)
  kind := .rk4
  tStart := 0
  nSteps := 2
  dt := 1 / 2
  linear := true
  full := true

/-- The hypotheses of `C83_end_state` and `C83_cost` hold for it. -/
example : Consistent (exShot (ι := ι)) (fun w w' => (w, w')) (fun w w' t => (1 - t) • w + t • w') (fun t => (1 - t) • 1)
    (fun t => t • 1) ∧ IsCostGrad (exShot (ι := ι)) ∧ (exShot (ι := ι)).full = true ∧ 0 < (exShot (ι := ι)).nSteps := by
  refine ⟨consistent_weighted _ ?_ (fun t => 1 - t) (fun t => t) (fun _ _ _ => rfl) (fun _ => rfl) (fun _ => rfl), ?_, rfl,
    by simp [exShot]⟩
  · intro t x u
    have h := ((hasFDerivAt_fst (𝕜 := ℝ) (p := (x, u))).const_smul t).add (hasFDerivAt_snd (𝕜 := ℝ) (p := (x, u)))
    refine h.congr_fderiv ?_
    apply ContinuousLinearMap.ext
    intro y
    simp [exShot, Matrix.smul_mulVec]
  · intro t x u
    exact (dual ((fun _ : ι => t), (fun _ : ι => (1 : ℝ)))).hasFDerivAt

end CT.Shot
