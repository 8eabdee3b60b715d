import Verif.Model.RknDeriv
import Verif.Model.DmsVector
import Verif.Props.Cost
import Verif.Props.DmsGrid

/-!
# C189: sensitivities of the Euler and Runge-Kutta schemes
-/

namespace CT.Rkn

open CT.Cost CT.Dms Matrix

variable {n m r : ℕ}

/-! ### Specification -/

/-- Dynamics: time, state and control. -/
abbrev Dyn (n m : ℕ) := ℝ → (Fin n → ℝ) → (Fin m → ℝ) → (Fin n → ℝ)

/-- The states of the explicit Euler scheme at the times `t 0, t 1, …`, from the state `s`. -/
def eulerTraj (f : Dyn n m) (u : ℝ → Fin m → ℝ) (t : ℕ → ℝ) (s : Fin n → ℝ) : ℕ → Fin n → ℝ
  | 0 => s
  | k + 1 => eulerTraj f u t s k + (t (k + 1) - t k) • f (t k) (eulerTraj f u t s k) (u (t k))

/-- The four points in state space at which one step of the classical Runge-Kutta scheme evaluates the
dynamics; evaluation `j` of step `k` is at time `t (4 k + j)`, and step `k` has length
`t (4 (k + 1)) - t (4 k)`. -/
noncomputable def stage (f : Dyn n m) (u : ℝ → Fin m → ℝ) (t : ℕ → ℝ) (k : ℕ) (x : Fin n → ℝ) (j : ℕ) : Fin n → ℝ :=
  let h := t ((k + 1) * 4) - t (k * 4)
  let y1 := x + (h / 2) • f (t (k * 4)) x (u (t (k * 4)))
  let y2 := x + (h / 2) • f (t (k * 4 + 1)) y1 (u (t (k * 4 + 1)))
  let y3 := x + h • f (t (k * 4 + 2)) y2 (u (t (k * 4 + 2)))
  match j with
  | 0 => x
  | 1 => y1
  | 2 => y2
  | _ => y3

/-- The value of the dynamics in evaluation `j` of step `k`. -/
noncomputable def slope (f : Dyn n m) (u : ℝ → Fin m → ℝ) (t : ℕ → ℝ) (k : ℕ) (x : Fin n → ℝ) (j : ℕ) : Fin n → ℝ :=
  f (t (k * 4 + j)) (stage f u t k x j) (u (t (k * 4 + j)))

/-- The states of the classical Runge-Kutta scheme after each step. -/
noncomputable def rk4Traj (f : Dyn n m) (u : ℝ → Fin m → ℝ) (t : ℕ → ℝ) (s : Fin n → ℝ) : ℕ → Fin n → ℝ
  | 0 => s
  | k + 1 => rk4Traj f u t s k + ((t ((k + 1) * 4) - t (k * 4)) / 6) •
      (slope f u t k (rk4Traj f u t s k) 0 + (2 : ℝ) • slope f u t k (rk4Traj f u t s k) 1 +
        (2 : ℝ) • slope f u t k (rk4Traj f u t s k) 2 + slope f u t k (rk4Traj f u t s k) 3)

/-- `A`, `B` are the derivatives of the dynamics at a point with respect to state and control. -/
def IsLin (f : Dyn n m) (t : ℝ) (x : Fin n → ℝ) (u : Fin m → ℝ) (A : Matrix (Fin n) (Fin n) ℝ)
    (B : Matrix (Fin n) (Fin m) ℝ) : Prop :=
  HasFDerivAt (fun p : (Fin n → ℝ) × (Fin m → ℝ) => f t p.1 p.2)
    ((jacMap A).comp (ContinuousLinearMap.fst ℝ _ _) + (jacMap B).comp (ContinuousLinearMap.snd ℝ _ _)) (x, u)

/-- The logs hold the times and the derivatives at the points `y i`, at times `t i`, `i < N`. -/
structure Recorded (f : Dyn n m) (u : ℝ → Fin m → ℝ) (t : ℕ → ℝ) (y : ℕ → Fin n → ℝ) (N : ℕ) (l : Logs n m) : Prop where
  times : ∀ i ≤ N, l.t[i]? = some (t i)
  count : l.A.length = N
  lin : ∀ i < N, ∃ A B, l.A[i]? = some A ∧ l.B[i]? = some B ∧ IsLin f (t i) (y i) (u (t i)) A B

/-- The logs of an Euler integration over `N` steps from `s`. -/
def EulerLog (f : Dyn n m) (u : ℝ → Fin m → ℝ) (t : ℕ → ℝ) (s : Fin n → ℝ) (N : ℕ) (l : Logs n m) : Prop :=
  Recorded f u t (eulerTraj f u t s) N l

/-- The logs of a Runge-Kutta integration over `N` steps from `s`, four entries per step. -/
def Rk4Log (f : Dyn n m) (u : ℝ → Fin m → ℝ) (t : ℕ → ℝ) (s : Fin n → ℝ) (N : ℕ) (l : Logs n m) : Prop :=
  Recorded f u t (fun i => stage f u t (i / 4) (rk4Traj f u t s (i / 4)) (i % 4)) (N * 4) l

/-- The history consists of the derivatives, at `p`, of the states `x k` for `k = 0, …, N`. -/
def Derivs (x : (Fin r → ℝ) → ℕ → Fin n → ℝ) (p : Fin r → ℝ) (N : ℕ) (hist : List (Matrix (Fin n) (Fin r) ℝ)) : Prop :=
  hist.length = N + 1 ∧ ∀ k ≤ N, ∃ M, hist[k]? = some M ∧ IsJac (fun q => x q k) M p

/-! ### Lemmas -/

theorem idx_of {α : Type} {l : List α} {i : ℕ} {a : α} (h : l[i]? = some a) : idx l i = .ok a := by
  simp [idx, h]

theorem back_of {α : Type} {l : List α} {N : ℕ} {a : α} (hl : l.length = N + 1) (h : l[N]? = some a) :
    back l = .ok a := by
  have : l.getLast? = some a := by rw [List.getLast?_eq_getElem?, hl, Nat.add_sub_cancel, h]
  simp [back, this]

theorem jac_add {F G : (Fin r → ℝ) → Fin n → ℝ} {M N : Matrix (Fin n) (Fin r) ℝ} {p : Fin r → ℝ}
    (hF : IsJac F M p) (hG : IsJac G N p) : IsJac (fun q => F q + G q) (M + N) p := by
  refine (HasFDerivAt.add hF hG).congr_fderiv ?_
  ext v : 1
  simp [add_mulVec]

theorem jac_smul {F : (Fin r → ℝ) → Fin n → ℝ} {M : Matrix (Fin n) (Fin r) ℝ} {p : Fin r → ℝ} (c : ℝ)
    (hF : IsJac F M p) : IsJac (fun q => c • F q) (c • M) p := by
  refine (HasFDerivAt.const_smul hF c).congr_fderiv ?_
  ext v : 1
  simp [smul_mulVec]

theorem jac_stage {f : Dyn n m} {t : ℝ} {y : (Fin r → ℝ) → Fin n → ℝ} {u : (Fin r → ℝ) → Fin m → ℝ}
    {p : Fin r → ℝ} {A : Matrix (Fin n) (Fin n) ℝ} {B : Matrix (Fin n) (Fin m) ℝ}
    {Y : Matrix (Fin n) (Fin r) ℝ} {D : Matrix (Fin m) (Fin r) ℝ}
    (h : IsLin f t (y p) (u p) A B) (hy : IsJac y Y p) (hu : IsJac u D p) :
    IsJac (fun q => f t (y q) (u q)) (A * Y + B * D) p := by
  have hyu : HasFDerivAt (fun q => (y q, u q)) ((jacMap Y).prod (jacMap D)) p := HasFDerivAt.prodMk hy hu
  have h' : HasFDerivAt (fun z : (Fin n → ℝ) × (Fin m → ℝ) => f t z.1 z.2)
      ((jacMap A).comp (ContinuousLinearMap.fst ℝ _ _) + (jacMap B).comp (ContinuousLinearMap.snd ℝ _ _))
      ((fun q => (y q, u q)) p) := h
  have := HasFDerivAt.comp p h' hyu
  refine this.congr_fderiv ?_
  ext v : 1
  simp [add_mulVec, mulVec_mulVec]

theorem jac_const {c : Fin n → ℝ} {p : Fin r → ℝ} : IsJac (fun _ : Fin r → ℝ => c) 0 p := by
  refine (hasFDerivAt_const c p).congr_fderiv ?_
  ext v : 1
  simp

theorem jac_id {p : Fin n → ℝ} : IsJac (fun q : Fin n → ℝ => q) 1 p := by
  refine (hasFDerivAt_id p).congr_fderiv ?_
  ext v : 1
  simp

/-- A loop that appends the derivative of the next state in each pass. -/
theorem loop {step : List (Matrix (Fin n) (Fin r) ℝ) → ℕ → Res (List (Matrix (Fin n) (Fin r) ℝ))}
    {x : (Fin r → ℝ) → ℕ → Fin n → ℝ} {p : Fin r → ℝ} {M0 : Matrix (Fin n) (Fin r) ℝ} (N : ℕ)
    (h0 : IsJac (fun q => x q 0) M0 p)
    (hs : ∀ k < N, ∀ hist X, back hist = .ok X → IsJac (fun q => x q k) X p →
      ∃ X', step hist k = .ok (hist ++ [X']) ∧ IsJac (fun q => x q (k + 1)) X' p) :
    ∃ hist, (List.range N).foldlM step [M0] = .ok hist ∧ Derivs x p N hist := by
  induction N with
  | zero =>
    refine ⟨[M0], rfl, rfl, fun k hk => ?_⟩
    obtain rfl : k = 0 := by omega
    exact ⟨M0, rfl, h0⟩
  | succ N ih =>
    obtain ⟨hist, e, hl, hd⟩ := ih fun k hk => hs k (by omega)
    obtain ⟨X, hX, hJ⟩ := hd N le_rfl
    obtain ⟨X', e', hJ'⟩ := hs N (by omega) hist X (back_of hl hX) hJ
    refine ⟨hist ++ [X'], ?_, by simp [hl], ?_⟩
    · rw [List.range_succ, List.foldlM_append, e, Res.ok_bind]
      simp only [List.foldlM_cons, List.foldlM_nil, e', Res.ok_bind, Res.pure_eq]
    · intro k hk
      rcases Nat.lt_or_ge k (N + 1) with h | h
      · obtain ⟨M, hM, hJM⟩ := hd k (by omega)
        exact ⟨M, by rw [List.getElem?_append_left (by omega), hM], hJM⟩
      · obtain rfl : k = N + 1 := by omega
        exact ⟨X', by rw [List.getElem?_append_right (by omega), hl]; simp, hJ'⟩

/-- A step of the Euler scheme. -/
theorem euler_next {f : Dyn n m} {u : (Fin r → ℝ) → ℝ → Fin m → ℝ} {s : (Fin r → ℝ) → Fin n → ℝ} {t : ℕ → ℝ}
    {p : Fin r → ℝ} {k : ℕ} {A : Matrix (Fin n) (Fin n) ℝ} {B : Matrix (Fin n) (Fin m) ℝ}
    {X : Matrix (Fin n) (Fin r) ℝ} {D : Matrix (Fin m) (Fin r) ℝ}
    (h : IsLin f (t k) (eulerTraj f (u p) t (s p) k) (u p (t k)) A B)
    (hX : IsJac (fun q => eulerTraj f (u q) t (s q) k) X p) (hD : IsJac (fun q => u q (t k)) D p) :
    IsJac (fun q => eulerTraj f (u q) t (s q) (k + 1)) (X + (t (k + 1) - t k) • (A * X + B * D)) p :=
  jac_add hX (jac_smul _ (jac_stage (f := f) (t := t k) h hX hD))

/-- A step of the Runge-Kutta scheme. -/
theorem rk4_next {f : Dyn n m} {u : (Fin r → ℝ) → ℝ → Fin m → ℝ} {s : (Fin r → ℝ) → Fin n → ℝ} {t : ℕ → ℝ}
    {p : Fin r → ℝ} {k : ℕ} {A1 A2 A3 A4 : Matrix (Fin n) (Fin n) ℝ} {B1 B2 B3 B4 : Matrix (Fin n) (Fin m) ℝ}
    {X : Matrix (Fin n) (Fin r) ℝ} {D1 D2 D3 D4 : Matrix (Fin m) (Fin r) ℝ}
    (h1 : IsLin f (t (k * 4)) (rk4Traj f (u p) t (s p) k) (u p (t (k * 4))) A1 B1)
    (h2 : IsLin f (t (k * 4 + 1)) (stage f (u p) t k (rk4Traj f (u p) t (s p) k) 1) (u p (t (k * 4 + 1))) A2 B2)
    (h3 : IsLin f (t (k * 4 + 2)) (stage f (u p) t k (rk4Traj f (u p) t (s p) k) 2) (u p (t (k * 4 + 2))) A3 B3)
    (h4 : IsLin f (t (k * 4 + 3)) (stage f (u p) t k (rk4Traj f (u p) t (s p) k) 3) (u p (t (k * 4 + 3))) A4 B4)
    (hX : IsJac (fun q => rk4Traj f (u q) t (s q) k) X p)
    (hD1 : IsJac (fun q => u q (t (k * 4))) D1 p) (hD2 : IsJac (fun q => u q (t (k * 4 + 1))) D2 p)
    (hD3 : IsJac (fun q => u q (t (k * 4 + 2))) D3 p) (hD4 : IsJac (fun q => u q (t (k * 4 + 3))) D4 p) :
    let h := t ((k + 1) * 4) - t (k * 4)
    let K1 := A1 * X + B1 * D1
    let K2 := A2 * (X + (h * (1 / 2)) • K1) + B2 * D2
    let K3 := A3 * (X + (h * (1 / 2)) • K2) + B3 * D3
    let K4 := A4 * (X + (h * 1) • K3) + B4 * D4
    IsJac (fun q => rk4Traj f (u q) t (s q) (k + 1))
      (X + h • ((1 / 6 : ℝ) • K1 + (1 / 3 : ℝ) • K2 + (1 / 3 : ℝ) • K3 + (1 / 6 : ℝ) • K4)) p := by
  intro h K1 K2 K3 K4
  have e : ∀ c : ℝ, c * (1 / 2) = c / 2 := fun c => by ring
  have k1 : IsJac (fun q => slope f (u q) t k (rk4Traj f (u q) t (s q) k) 0) K1 p :=
    jac_stage (f := f) (t := t (k * 4)) h1 hX hD1
  have s2 : IsJac (fun q => stage f (u q) t k (rk4Traj f (u q) t (s q) k) 1) (X + (h * (1 / 2)) • K1) p := by
    rw [e]
    exact jac_add hX (jac_smul _ k1)
  have k2 : IsJac (fun q => slope f (u q) t k (rk4Traj f (u q) t (s q) k) 1) K2 p :=
    jac_stage (f := f) (t := t (k * 4 + 1)) h2 s2 hD2
  have s3 : IsJac (fun q => stage f (u q) t k (rk4Traj f (u q) t (s q) k) 2) (X + (h * (1 / 2)) • K2) p := by
    rw [e]
    have := jac_add hX (jac_smul (h / 2) k2)
    exact this
  have k3 : IsJac (fun q => slope f (u q) t k (rk4Traj f (u q) t (s q) k) 2) K3 p :=
    jac_stage (f := f) (t := t (k * 4 + 2)) h3 s3 hD3
  have s4 : IsJac (fun q => stage f (u q) t k (rk4Traj f (u q) t (s q) k) 3) (X + (h * 1) • K3) p := by
    rw [mul_one]
    have := jac_add hX (jac_smul h k3)
    exact this
  have k4 : IsJac (fun q => slope f (u q) t k (rk4Traj f (u q) t (s q) k) 3) K4 p :=
    jac_stage (f := f) (t := t (k * 4 + 3)) h4 s4 hD4
  have := jac_add hX (jac_smul (h / 6) (jac_add (jac_add (jac_add k1 (jac_smul 2 k2)) (jac_smul 2 k3)) k4))
  have em : X + (h / 6) • (K1 + (2 : ℝ) • K2 + (2 : ℝ) • K3 + K4) =
      X + h • ((1 / 6 : ℝ) • K1 + (1 / 3 : ℝ) • K2 + (1 / 3 : ℝ) • K3 + (1 / 6 : ℝ) • K4) := by
    simp only [smul_add, smul_smul]
    ring_nf
  rw [em] at this
  exact this

theorem rk4_lin {f : Dyn n m} {u : ℝ → Fin m → ℝ} {t : ℕ → ℝ} {s : Fin n → ℝ} {N : ℕ} {l : Logs n m}
    (h : Rk4Log f u t s N l) {k : ℕ} (hk : k < N) {j : ℕ} (hj : j < 4) :
    l.t[k * 4 + j]? = some (t (k * 4 + j)) ∧ ∃ A B, l.A[k * 4 + j]? = some A ∧ l.B[k * 4 + j]? = some B ∧
      IsLin f (t (k * 4 + j)) (stage f u t k (rk4Traj f u t s k) j) (u (t (k * 4 + j))) A B := by
  refine ⟨h.times _ (by omega), ?_⟩
  obtain ⟨A, B, hA, hB, hl⟩ := h.lin (k * 4 + j) (by omega)
  simp only [show (k * 4 + j) / 4 = k by omega, show (k * 4 + j) % 4 = j by omega] at hl
  exact ⟨A, B, hA, hB, hl⟩

/-- The Euler loop for a parameter of the control. -/
theorem eulerQ_derivs {f : Dyn n m} {u : (Fin m → ℝ) → ℝ → Fin m → ℝ} {t : ℕ → ℝ} {s : Fin n → ℝ} {N : ℕ}
    {l : Logs n m} {p : Fin m → ℝ} {spl : ℝ → Res (Matrix (Fin m) (Fin m) ℝ)}
    (hl : EulerLog f (u p) t s N l) (hspl : ∀ τ, ∃ D, spl τ = .ok D ∧ IsJac (fun q => u q τ) D p) :
    ∃ hist, (List.range l.A.length).foldlM (eulerQ spl l) [0] = .ok hist ∧
      Derivs (fun q => eulerTraj f (u q) t s) p N hist := by
  rw [hl.count]
  refine loop (x := fun q => eulerTraj f (u q) t s) N jac_const ?_
  intro k hk hist X hb hX
  obtain ⟨A, B, hA, hB, hlin⟩ := hl.lin k hk
  obtain ⟨D, hD, hDJ⟩ := hspl (t k)
  refine ⟨_, ?_, euler_next (u := u) (s := fun _ => s) hlin hX hDJ⟩
  simp only [eulerQ, idx_of (hl.times k (by omega)), idx_of (hl.times (k + 1) (by omega)), hD, hb, idx_of hA, idx_of hB,
    Res.ok_bind, Res.pure_eq]

/-- The Runge-Kutta loop for a parameter of the control. -/
theorem rk4Q_derivs {f : Dyn n m} {u : (Fin m → ℝ) → ℝ → Fin m → ℝ} {t : ℕ → ℝ} {s : Fin n → ℝ} {N : ℕ}
    {l : Logs n m} {p : Fin m → ℝ} {spl : ℝ → Res (Matrix (Fin m) (Fin m) ℝ)}
    (hl : Rk4Log f (u p) t s N l) (hspl : ∀ τ, ∃ D, spl τ = .ok D ∧ IsJac (fun q => u q τ) D p) :
    ∃ hist, (List.range (l.A.length / 4)).foldlM (rk4Q spl l) [0] = .ok hist ∧
      Derivs (fun q => rk4Traj f (u q) t s) p N hist := by
  rw [hl.count, Nat.mul_div_cancel _ (by norm_num)]
  refine loop (x := fun q => rk4Traj f (u q) t s) N jac_const ?_
  intro k hk hist X hb hX
  obtain ⟨ht0, A1, B1, hA1, hB1, l1⟩ := rk4_lin hl hk (j := 0) (by norm_num)
  obtain ⟨ht1, A2, B2, hA2, hB2, l2⟩ := rk4_lin hl hk (j := 1) (by norm_num)
  obtain ⟨ht2, A3, B3, hA3, hB3, l3⟩ := rk4_lin hl hk (j := 2) (by norm_num)
  obtain ⟨ht3, A4, B4, hA4, hB4, l4⟩ := rk4_lin hl hk (j := 3) (by norm_num)
  obtain ⟨D1, hD1, j1⟩ := hspl (t (k * 4))
  obtain ⟨D2, hD2, j2⟩ := hspl (t (k * 4 + 1))
  obtain ⟨D3, hD3, j3⟩ := hspl (t (k * 4 + 2))
  obtain ⟨D4, hD4, j4⟩ := hspl (t (k * 4 + 3))
  refine ⟨_, ?_, rk4_next (u := u) (s := fun _ => s) l1 l2 l3 l4 hX j1 j2 j3 j4⟩
  have hte := hl.times ((k + 1) * 4) (by omega)
  simp only [Nat.add_zero] at ht0 hA1 hB1
  simp only [rk4Q, idx_of hte, idx_of ht0, idx_of ht1, idx_of ht2, idx_of ht3, hb, idx_of hA1, idx_of hA2, idx_of hA3,
    idx_of hA4, idx_of hB1, idx_of hB2, idx_of hB3, idx_of hB4, hD1, hD2, hD3, hD4, Res.ok_bind, Res.pure_eq]

/-! ### Initial state -/

/-- C189, initial state, Euler scheme: whatever was computed before, after `setLogs` with the logs of an
integration over `N` steps and `compute_dXdSi`, the history returned consists of the derivatives of the
`N + 1` states with respect to the initial state. -/
theorem C189_state_euler (o : Obj n m) (ho : o.ty = .euler) (f : Dyn n m) (u : ℝ → Fin m → ℝ) (t : ℕ → ℝ)
    (s : Fin n → ℝ) (N : ℕ) (l : Logs n m) (hl : EulerLog f u t s N l) :
    ∃ o', (o.setLogs l).computeS = .ok (.done o') ∧ Derivs (fun s => eulerTraj f u t s) s N o'.getS := by
  have key : ∃ hist, (List.range (l.A.length / 1)).foldlM (eulerS l) [1] = .ok hist ∧
      Derivs (fun s => eulerTraj f u t s) s N hist := by
    rw [Nat.div_one, hl.count]
    refine loop (x := fun s => eulerTraj f u t s) N jac_id ?_
    intro k hk hist X hb hX
    obtain ⟨A, B, hA, hB, hlin⟩ := hl.lin k hk
    refine ⟨_, ?_, euler_next (u := fun _ => u) (s := fun s => s) hlin hX jac_const⟩
    simp only [eulerS, idx_of (hl.times k (by omega)), idx_of (hl.times (k + 1) (by omega)), hb, idx_of hA, Res.ok_bind,
      Res.pure_eq]
    simp [add_mul]
  obtain ⟨hist, e, hd⟩ := key
  refine ⟨{ o.setLogs l with dS := hist }, ?_, hd⟩
  simp only [Obj.computeS, Obj.setLogs, ho, e, Res.ok_bind]

/-- C189, initial state, Runge-Kutta scheme. -/
theorem C189_state_rk4 (o : Obj n m) (ho : o.ty = .rk4) (f : Dyn n m) (u : ℝ → Fin m → ℝ) (t : ℕ → ℝ)
    (s : Fin n → ℝ) (N : ℕ) (l : Logs n m) (hl : Rk4Log f u t s N l) :
    ∃ o', (o.setLogs l).computeS = .ok (.done o') ∧ Derivs (fun s => rk4Traj f u t s) s N o'.getS := by
  have key : ∃ hist, (List.range (l.A.length / 4)).foldlM (rk4S l) [1] = .ok hist ∧
      Derivs (fun s => rk4Traj f u t s) s N hist := by
    rw [hl.count, Nat.mul_div_cancel _ (by norm_num)]
    refine loop (x := fun s => rk4Traj f u t s) N jac_id ?_
    intro k hk hist X hb hX
    obtain ⟨ht0, A1, B1, hA1, hB1, l1⟩ := rk4_lin hl hk (j := 0) (by norm_num)
    obtain ⟨ht1, A2, B2, hA2, hB2, l2⟩ := rk4_lin hl hk (j := 1) (by norm_num)
    obtain ⟨ht2, A3, B3, hA3, hB3, l3⟩ := rk4_lin hl hk (j := 2) (by norm_num)
    obtain ⟨ht3, A4, B4, hA4, hB4, l4⟩ := rk4_lin hl hk (j := 3) (by norm_num)
    refine ⟨_, ?_, rk4_next (u := fun _ => u) (s := fun s => s) l1 l2 l3 l4 hX jac_const jac_const jac_const jac_const⟩
    have hte := hl.times ((k + 1) * 4) (by omega)
    simp only [Nat.add_zero] at ht0 hA1
    simp only [rk4S, idx_of hte, idx_of ht0, hb, idx_of hA1, idx_of hA2, idx_of hA3, idx_of hA4, Res.ok_bind, Res.pure_eq,
      Matrix.mul_zero, add_zero]
  obtain ⟨hist, e, hd⟩ := key
  refine ⟨{ o.setLogs l with dS := hist }, ?_, hd⟩
  simp only [Obj.computeS, Obj.setLogs, ho, e, Res.ok_bind]

/-! ### Control nodes -/

/-- Derivatives with respect to a control node, for either scheme, `computeQ` and `computeQ1`. -/
theorem node_derivs (o : Obj n m) (f : Dyn n m) (u : (Fin m → ℝ) → ℝ → Fin m → ℝ) (t : ℕ → ℝ) (s : Fin n → ℝ) (N : ℕ)
    (l : Logs n m) (p : Fin m → ℝ) (spl : ℝ → Res (Matrix (Fin m) (Fin m) ℝ))
    (hspl : ∀ τ, ∃ D, spl τ = .ok D ∧ IsJac (fun q => u q τ) D p) :
    (o.ty = .euler → EulerLog f (u p) t s N l →
      (∃ o', (o.setLogs l).computeQ spl = .ok (.done o') ∧ Derivs (fun q => eulerTraj f (u q) t s) p N o'.getQ) ∧
      ∃ o', (o.setLogs l).computeQ1 spl = .ok (.done o') ∧ Derivs (fun q => eulerTraj f (u q) t s) p N o'.getQ1) ∧
    (o.ty = .rk4 → Rk4Log f (u p) t s N l →
      (∃ o', (o.setLogs l).computeQ spl = .ok (.done o') ∧ Derivs (fun q => rk4Traj f (u q) t s) p N o'.getQ) ∧
      ∃ o', (o.setLogs l).computeQ1 spl = .ok (.done o') ∧ Derivs (fun q => rk4Traj f (u q) t s) p N o'.getQ1) := by
  constructor
  · intro ho hl
    obtain ⟨hist, e, hd⟩ := eulerQ_derivs hl hspl
    constructor
    · refine ⟨{ o.setLogs l with dQ := hist }, ?_, hd⟩
      simp only [Obj.computeQ, Obj.setLogs, ho, e, Res.ok_bind]
    · refine ⟨{ o.setLogs l with dQ1 := hist }, ?_, hd⟩
      simp only [Obj.computeQ1, Obj.setLogs, ho, e, Res.ok_bind]
  · intro ho hl
    obtain ⟨hist, e, hd⟩ := rk4Q_derivs hl hspl
    constructor
    · refine ⟨{ o.setLogs l with dQ := hist }, ?_, hd⟩
      simp only [Obj.computeQ, Obj.setLogs, ho, e, Res.ok_bind]
    · refine ⟨{ o.setLogs l with dQ1 := hist }, ?_, hd⟩
      simp only [Obj.computeQ1, Obj.setLogs, ho, e, Res.ok_bind]

theorem jac_affine {F : (Fin m → ℝ) → Fin m → ℝ} {M : Matrix (Fin m) (Fin m) ℝ} {a v : Fin m → ℝ}
    (h : ∀ δ, F (a + δ) = v + M *ᵥ δ) : IsJac F M a := by
  have e : F = fun q => v - M *ᵥ a + jacMap M q := by
    funext q
    have := h (q - a)
    rw [add_sub_cancel] at this
    rw [this, mulVec_sub, jacMap_apply]
    abel
  rw [e]
  exact (jacMap M).hasFDerivAt.const_add _

/-- C189, control nodes, piecewise linear controls: in shot `i` of the grid, `u q` being the control
when node `i` has the value `q` (and `u' q` when node `i + 1` has it), the histories returned by
`compute_dXdQi` and `compute_dXdQip1` are the derivatives of the states with respect to the two nodes. -/
theorem C189_nodes_linear (o : Obj n m) (g : TimeGrid ℝ) (nodes : List (Fin m → ℝ)) (i : ℕ) (t0 t1 : ℝ)
    (a b : Fin m → ℝ) (hshot : Shot g nodes i t0 t1 a b) (f : Dyn n m) (t : ℕ → ℝ) (s : Fin n → ℝ) (N : ℕ) (l : Logs n m)
    (u u' : (Fin m → ℝ) → ℝ → Fin m → ℝ) (hu : ∀ q τ, linEval g (nodes.set i q) τ i = .ok (u q τ))
    (hu' : ∀ q τ, linEval g (nodes.set (i + 1) q) τ i = .ok (u' q τ)) :
    (o.ty = .euler → EulerLog f (u a) t s N l →
      (∃ o', (o.setLogs l).computeQ (fun τ => linDq g τ i) = .ok (.done o') ∧
        Derivs (fun q => eulerTraj f (u q) t s) a N o'.getQ) ∧
      ∃ o', (o.setLogs l).computeQ1 (fun τ => linDqNext g τ i) = .ok (.done o') ∧
        Derivs (fun q => eulerTraj f (u' q) t s) b N o'.getQ1) ∧
    (o.ty = .rk4 → Rk4Log f (u a) t s N l →
      (∃ o', (o.setLogs l).computeQ (fun τ => linDq g τ i) = .ok (.done o') ∧
        Derivs (fun q => rk4Traj f (u q) t s) a N o'.getQ) ∧
      ∃ o', (o.setLogs l).computeQ1 (fun τ => linDqNext g τ i) = .ok (.done o') ∧
        Derivs (fun q => rk4Traj f (u' q) t s) b N o'.getQ1) := by
  have hA : ∀ τ, ∃ D, linDq g τ i = .ok D ∧ IsJac (fun q => u q τ) D a := by
    intro τ
    obtain ⟨v, M, M', hv, hM, -, -, -⟩ := C48_nodes hshot τ 0
    refine ⟨M, hM, jac_affine (v := v) fun δ => ?_⟩
    obtain ⟨v2, M2, -, hv2, hM2, -, h2, -⟩ := C48_nodes hshot τ δ
    rw [hv] at hv2; rw [hM] at hM2
    cases hv2; cases hM2
    rw [hu] at h2
    exact Res.ok.inj h2
  have hB : ∀ τ, ∃ D, linDqNext g τ i = .ok D ∧ IsJac (fun q => u' q τ) D b := by
    intro τ
    obtain ⟨v, M, M', hv, -, hM, -, -⟩ := C48_nodes hshot τ 0
    refine ⟨M', hM, jac_affine (v := v) fun δ => ?_⟩
    obtain ⟨v2, -, M2, hv2, -, hM2, -, h2⟩ := C48_nodes hshot τ δ
    rw [hv] at hv2; rw [hM] at hM2
    cases hv2; cases hM2
    rw [hu'] at h2
    exact Res.ok.inj h2
  have same : u a = u' b := by
    funext τ
    obtain ⟨v, M, M', hv, -, -, h1, h2⟩ := C48_nodes hshot τ 0
    rw [add_zero, hu] at h1
    rw [add_zero, hu'] at h2
    rw [mulVec_zero] at h1 h2
    rw [Res.ok.inj h1, Res.ok.inj h2]
  have nA := node_derivs o f u t s N l a _ hA
  have nB := node_derivs o f u' t s N l b _ hB
  rw [← same] at nB
  exact ⟨fun h1 h2 => ⟨(nA.1 h1 h2).1, (nB.1 h1 h2).2⟩, fun h1 h2 => ⟨(nA.2 h1 h2).1, (nB.2 h1 h2).2⟩⟩

/-- C189, control nodes, controls held constant in each shot. -/
theorem C189_nodes_hold (o : Obj n m) (holds : List (Fin m → ℝ)) (i : ℕ) (a b : Fin m → ℝ)
    (ha : holds[i]? = some a) (f : Dyn n m) (t : ℕ → ℝ) (s : Fin n → ℝ) (N : ℕ) (l : Logs n m)
    (u u' : (Fin m → ℝ) → ℝ → Fin m → ℝ) (hu : ∀ q τ, zohEval (holds.set i q) τ i = .ok (u q τ))
    (hu' : ∀ q τ, zohEval (holds.set (i + 1) q) τ i = .ok (u' q τ)) :
    (o.ty = .euler → EulerLog f (u a) t s N l →
      (∃ o', (o.setLogs l).computeQ (fun _ => .ok zohDq) = .ok (.done o') ∧
        Derivs (fun q => eulerTraj f (u q) t s) a N o'.getQ) ∧
      ∃ o', (o.setLogs l).computeQ1 (fun _ => .ok zohDqNext) = .ok (.done o') ∧
        Derivs (fun q => eulerTraj f (u' q) t s) b N o'.getQ1) ∧
    (o.ty = .rk4 → Rk4Log f (u a) t s N l →
      (∃ o', (o.setLogs l).computeQ (fun _ => .ok zohDq) = .ok (.done o') ∧
        Derivs (fun q => rk4Traj f (u q) t s) a N o'.getQ) ∧
      ∃ o', (o.setLogs l).computeQ1 (fun _ => .ok zohDqNext) = .ok (.done o') ∧
        Derivs (fun q => rk4Traj f (u' q) t s) b N o'.getQ1) := by
  have hlen : i < holds.length := by
    by_contra h
    rw [List.getElem?_eq_none (by omega)] at ha
    simp at ha
  have eu : ∀ q τ, u q τ = q := by
    intro q τ
    have := hu q τ
    rw [zohEval, idx_of (a := q) (by rw [List.getElem?_set]; simp [hlen])] at this
    exact (Res.ok.inj this).symm
  have eu' : ∀ q τ, u' q τ = a := by
    intro q τ
    have := hu' q τ
    rw [zohEval, idx_of (a := a) (by rw [List.getElem?_set, if_neg (by omega), ha])] at this
    exact (Res.ok.inj this).symm
  have same : u a = u' b := by funext τ; rw [eu, eu']
  have nA := node_derivs o f u t s N l a (fun _ => .ok zohDq) fun τ =>
    ⟨zohDq, rfl, by simp only [eu]; exact jac_id⟩
  have nB := node_derivs o f u' t s N l b (fun _ => .ok zohDqNext) fun τ =>
    ⟨zohDqNext, rfl, by simp only [eu']; exact jac_const⟩
  rw [← same] at nB
  exact ⟨fun h1 h2 => ⟨(nA.1 h1 h2).1, (nB.1 h1 h2).2⟩, fun h1 h2 => ⟨(nA.2 h1 h2).1, (nB.2 h1 h2).2⟩⟩

/-! ### What fails -/

/-- C189 violated: the sensitivities with respect to the durations of the shots, which the class
declares and returns, are empty after every history of calls. -/
theorem C189_durations_violated (ty : Scheme) (spl spl1 : ℝ → Res (Matrix (Fin m) (Fin m) ℝ)) (cs : List (Call n m))
    (o : Obj n m) (h : Obj.calls spl spl1 cs (Obj.new ty) = .ok (.done o)) : o.getH = [] := by
  have step : ∀ (o1 o2 : Obj n m) (c : Call n m), o1.call spl spl1 c = .ok (.done o2) → o2.dH = o1.dH := by
    intro o1 o2 c hc
    cases c with
    | setLogs l => simp only [Obj.call, Res.ok.injEq, End.done.injEq] at hc; subst hc; rfl
    | computeS =>
      simp only [Obj.call, Obj.computeS] at hc
      split at hc
      · simp at hc
      · simp at hc
      all_goals
        obtain ⟨hh, -, h2⟩ := Res.bind_eq_ok.1 hc
        simp only [Res.ok.injEq, End.done.injEq] at h2
        subst h2; rfl
    | computeQ =>
      simp only [Obj.call, Obj.computeQ] at hc
      split at hc
      · simp at hc
      · simp at hc
      all_goals
        obtain ⟨hh, -, h2⟩ := Res.bind_eq_ok.1 hc
        simp only [Res.ok.injEq, End.done.injEq] at h2
        subst h2; rfl
    | computeQ1 =>
      simp only [Obj.call, Obj.computeQ1] at hc
      split at hc
      · simp at hc
      · simp at hc
      all_goals
        obtain ⟨hh, -, h2⟩ := Res.bind_eq_ok.1 hc
        simp only [Res.ok.injEq, End.done.injEq] at h2
        subst h2; rfl
  have all : ∀ (cs : List (Call n m)) (o1 : Obj n m), Obj.calls spl spl1 cs o1 = .ok (.done o) → o.dH = o1.dH := by
    intro cs
    induction cs with
    | nil => intro o1 h1; simp only [Obj.calls, Res.ok.injEq, End.done.injEq] at h1; rw [h1]
    | cons c cs ih =>
      intro o1 h1
      rw [Obj.calls] at h1
      obtain ⟨r, hr, h2⟩ := Res.bind_eq_ok.1 h1
      cases r with
      | done o2 => rw [ih o2 h2, step o1 o2 c hr]
      | exited => simp at h2
  exact all cs _ h

/-- C189 violated: for the third integration scheme of the settings the process is ended (with status
zero) when the derivatives for the initial state or the first node are asked for; those for the second
node throw. -/
theorem C189_rk5_violated (o : Obj n m) (ho : o.ty = .rk5) (spl : ℝ → Res (Matrix (Fin m) (Fin m) ℝ)) :
    o.computeS = .ok .exited ∧ o.computeQ spl = .ok .exited ∧ o.computeQ1 spl = .exc := by
  refine ⟨?_, ?_, ?_⟩ <;> simp [Obj.computeS, Obj.computeQ, Obj.computeQ1, ho]

/-- C189 violated: computing before any logs were set dereferences a null pointer. -/
theorem C189_no_logs_violated (ty : Scheme) (hty : ty ≠ .rk5) (spl : ℝ → Res (Matrix (Fin m) (Fin m) ℝ)) :
    (Obj.new ty : Obj n m).computeS = .ub ∧ (Obj.new ty : Obj n m).computeQ spl = .ub ∧
    (Obj.new ty : Obj n m).computeQ1 spl = .ub := by
  cases ty with
  | rk5 => exact absurd rfl hty
  | euler => exact ⟨rfl, rfl, rfl⟩
  | rk4 => exact ⟨rfl, rfl, rfl⟩

/-! ### Example: `x' = x + u` -/

/-- The dynamics `x' = x + u`. -/
def exF : Dyn 1 1 := fun _ x u => x + u

theorem exLin (t : ℝ) (x u : Fin 1 → ℝ) : IsLin exF t x u 1 1 := by
  have h : HasFDerivAt (fun p : (Fin 1 → ℝ) × (Fin 1 → ℝ) => p.1 + p.2)
      (ContinuousLinearMap.fst ℝ _ _ + ContinuousLinearMap.snd ℝ _ _) (x, u) :=
    (ContinuousLinearMap.fst ℝ (Fin 1 → ℝ) (Fin 1 → ℝ)).hasFDerivAt.add
      (ContinuousLinearMap.snd ℝ (Fin 1 → ℝ) (Fin 1 → ℝ)).hasFDerivAt
  refine h.congr_fderiv ?_
  ext v : 1 <;> ext i <;> simp

/-- Logs of two Euler steps, and of two Runge-Kutta steps, for this system. -/
example (u : ℝ → Fin 1 → ℝ) (s : Fin 1 → ℝ) :
    EulerLog exF u (fun i => i) s 2 ⟨[0, 1, 2], [1, 1], [1, 1]⟩ ∧
    Rk4Log exF u (fun i => (i / 2 : ℕ)) s 2
      ⟨(List.range 9).map fun i => ((i / 2 : ℕ) : ℝ), List.replicate 8 1, List.replicate 8 1⟩ := by
  constructor
  · refine ⟨fun i hi => ?_, rfl, fun i hi => ⟨1, 1, ?_, ?_, exLin _ _ _⟩⟩
    · rcases (by omega : i = 0 ∨ i = 1 ∨ i = 2) with rfl | rfl | rfl <;> simp
    · rcases (by omega : i = 0 ∨ i = 1) with rfl | rfl <;> rfl
    · rcases (by omega : i = 0 ∨ i = 1) with rfl | rfl <;> rfl
  · refine ⟨fun i hi => ?_, by simp, fun i hi => ⟨1, 1, ?_, ?_, exLin _ _ _⟩⟩
    · rw [List.getElem?_map, List.getElem?_range (by omega), Option.map_some]
    · rw [List.getElem?_replicate, if_pos (by omega)]
    · rw [List.getElem?_replicate, if_pos (by omega)]

/-- The hypotheses of `C189_nodes_linear` for a grid of one shot from 0 to 2 with nodes 3 and 5. -/
example : ∃ u u' : (Fin 1 → ℝ) → ℝ → Fin 1 → ℝ,
    Shot (⟨1, 2, [0, 2]⟩ : TimeGrid ℝ) [![3], ![5]] 0 0 2 ![3] ![5] ∧
    (∀ q τ, linEval (⟨1, 2, [0, 2]⟩ : TimeGrid ℝ) (([![3], ![5]] : List (Fin 1 → ℝ)).set 0 q) τ 0 = .ok (u q τ)) ∧
    (∀ q τ, linEval (⟨1, 2, [0, 2]⟩ : TimeGrid ℝ) (([![3], ![5]] : List (Fin 1 → ℝ)).set 1 q) τ 0 = .ok (u' q τ)) ∧
    EulerLog exF (u ![3]) (fun i => i) ![7] 2 ⟨[0, 1, 2], [1, 1], [1, 1]⟩ := by
  have sh : ∀ a b : Fin 1 → ℝ, Shot (⟨1, 2, [0, 2]⟩ : TimeGrid ℝ) [a, b] 0 0 2 a b := fun a b =>
    ⟨rfl, rfl, by norm_num, rfl, rfl⟩
  refine ⟨_, _, sh _ _, fun q τ => linEval_eq (sh q ![5]) τ, fun q τ => linEval_eq (sh ![3] q) τ, ?_⟩
  refine ⟨fun i hi => ?_, rfl, fun i hi => ⟨1, 1, ?_, ?_, exLin _ _ _⟩⟩
  · rcases (by omega : i = 0 ∨ i = 1 ∨ i = 2) with rfl | rfl | rfl <;> simp
  · rcases (by omega : i = 0 ∨ i = 1) with rfl | rfl <;> rfl
  · rcases (by omega : i = 0 ∨ i = 1) with rfl | rfl <;> rfl

/-- The hypotheses of `C189_nodes_hold` for one shot with the control 3. -/
example : ∃ u u' : (Fin 1 → ℝ) → ℝ → Fin 1 → ℝ, ([![3], ![5]] : List (Fin 1 → ℝ))[0]? = some ![3] ∧
    (∀ q τ, zohEval (([![3], ![5]] : List (Fin 1 → ℝ)).set 0 q) τ 0 = .ok (u q τ)) ∧
    (∀ q τ, zohEval (([![3], ![5]] : List (Fin 1 → ℝ)).set 1 q) τ 0 = .ok (u' q τ)) :=
  ⟨fun q _ => q, fun _ _ => ![3], rfl, fun _ _ => rfl, fun _ _ => rfl⟩

/-- A history of calls to which `C189_durations_violated` applies. -/
example : ∃ o : Obj 1 1, Obj.calls (fun _ => .ok 1) (fun _ => .ok 0)
    [.setLogs ⟨[0, 1], [1], [1]⟩, .computeS, .computeQ, .computeQ1] (Obj.new .euler) = .ok (.done o) ∧
    o.getS.length = 2 ∧ o.getH = [] :=
  ⟨_, rfl, rfl, rfl⟩

end CT.Rkn
