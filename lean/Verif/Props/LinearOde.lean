import Mathlib.Analysis.ODE.ExistUnique
import Mathlib.Analysis.SpecialFunctions.Exponential
import Mathlib.Analysis.SpecialFunctions.Exp
import Mathlib.LinearAlgebra.Eigenspace.Triangularizable
import Mathlib.LinearAlgebra.Matrix.ToLin
import Mathlib.LinearAlgebra.Matrix.Charpoly.Eigs
import Mathlib.Analysis.Matrix.Normed
import Mathlib.Analysis.Complex.RealDeriv
import Mathlib.Analysis.Complex.Polynomial.Basic

/-!
# Linear differential equations with constant coefficients

General facts used for the continuous-time regulator: solutions of a system whose eigenvalues have negative real
parts tend to zero; consequences for Lyapunov equations.
-/

namespace CT.LinOde

open Matrix Filter Topology

variable {ι : Type*} [Fintype ι] [DecidableEq ι]

/-- All eigenvalues have negative real part. -/
def Hurwitz (T : Matrix ι ι ℝ) : Prop :=
  ∀ (μ : ℂ) (v : ι → ℂ), v ≠ 0 → T.map Complex.ofReal *ᵥ v = μ • v → μ.re < 0

/-- `x` moves along `ẋ = T x`. -/
def Solves (T : Matrix ι ι ℝ) (x : ℝ → ι → ℝ) : Prop := ∀ t, HasDerivAt x (T *ᵥ x t) t

/-! ### Complex solutions -/

section
variable {E : Type*} [NormedAddCommGroup E] [NormedSpace ℂ E] [FiniteDimensional ℂ E]

/-- The start `v` has a solution of `ż = f z` that tends to zero. -/
def Decays (f : Module.End ℂ E) (v : E) : Prop :=
  ∃ z : ℝ → E, z 0 = v ∧ (∀ t, HasDerivAt z (f (z t)) t) ∧ Tendsto z atTop (𝓝 0)

theorem decays_zero (f : Module.End ℂ E) : Decays f 0 :=
  ⟨fun _ => 0, rfl, fun t => by simpa using hasDerivAt_const t (0 : E), tendsto_const_nhds⟩

theorem Decays.add {f : Module.End ℂ E} {v w : E} (hv : Decays f v) (hw : Decays f w) : Decays f (v + w) := by
  obtain ⟨z, h0, hd, ht⟩ := hv
  obtain ⟨z', h0', hd', ht'⟩ := hw
  exact ⟨fun t => z t + z' t, by simp [h0, h0'], fun t => ((hd t).fun_add (hd' t)).congr_deriv (by simp),
    by simpa using ht.add ht'⟩

theorem decay_coeff {μ : ℂ} (hμ : μ.re < 0) (j : ℕ) :
    Tendsto (fun t : ℝ => Complex.exp (μ * t) * ((t : ℂ) ^ j / (j.factorial : ℂ))) atTop (𝓝 0) := by
  rw [tendsto_zero_iff_norm_tendsto_zero]
  have h1 : Tendsto (fun t : ℝ => (-μ.re * t) ^ j * Real.exp (-(-μ.re * t))) atTop (𝓝 0) :=
    (Real.tendsto_pow_mul_exp_neg_atTop_nhds_zero j).comp
      (tendsto_id.const_mul_atTop (neg_pos.2 hμ))
  have h2 := h1.const_mul (((-μ.re) ^ j)⁻¹ * ((j.factorial : ℝ))⁻¹)
  rw [mul_zero] at h2
  refine h2.congr' ?_
  filter_upwards [eventually_ge_atTop 0] with t ht
  have hne : (-μ.re) ^ j ≠ 0 := pow_ne_zero _ (neg_pos.2 hμ).ne'
  rw [norm_mul, Complex.norm_exp, norm_div, norm_pow]
  simp [abs_of_nonneg ht]
  field_simp
  rw [← mul_pow]
  ring

theorem decays_gen {f : Module.End ℂ E} {μ : ℂ} (hμ : μ.re < 0) {v : E} {k : ℕ}
    (hv : ((f - μ • (1 : Module.End ℂ E)) ^ k) v = 0) : Decays f v := by
  set N := f - μ • (1 : Module.End ℂ E) with hN
  cases k with
  | zero =>
    have : v = 0 := by simpa using hv
    rw [this]; exact decays_zero f
  | succ k =>
    have hf : ∀ w, f w = μ • w + N w := fun w => by simp [hN]
    -- coefficients
    let c : ℕ → ℝ → ℂ := fun j t => (t : ℂ) ^ j / (j.factorial : ℂ)
    have hc0 : ∀ t : ℝ, HasDerivAt (c 0) 0 t := fun t => by
      simpa [c] using hasDerivAt_const t (1 : ℂ)
    have hcs : ∀ j (t : ℝ), HasDerivAt (c (j + 1)) (c j t) t := by
      intro j t
      have h := ((Complex.ofRealCLM.hasDerivAt (x := t)).pow (j + 1)).div_const (((j + 1).factorial : ℕ) : ℂ)
      refine h.congr_deriv ?_
      have h1 : ((j.factorial : ℕ) : ℂ) ≠ 0 := by exact_mod_cast Nat.factorial_ne_zero j
      have h2 : ((j : ℂ) + 1) ≠ 0 := by exact_mod_cast Nat.succ_ne_zero j
      simp only [c, Nat.factorial_succ, Nat.cast_mul, Nat.cast_succ]
      simp
      field_simp
    have he : ∀ t : ℝ, HasDerivAt (fun t : ℝ => Complex.exp (μ * t)) (μ * Complex.exp (μ * t)) t := by
      intro t
      have := ((Complex.ofRealCLM.hasDerivAt (x := t)).const_mul μ).cexp
      refine this.congr_deriv ?_
      simp [mul_comm]
    let s : ℝ → E := fun t => ∑ j ∈ Finset.range (k + 1), c j t • (N ^ j) v
    have hs : ∀ t, HasDerivAt s (N (s t)) t := by
      intro t
      have h := HasDerivAt.fun_sum (u := Finset.range (k + 1)) (A := fun j t => c j t • (N ^ j) v)
        (A' := fun j => (if j = 0 then 0 else c (j - 1) t) • (N ^ j) v) (x := t) (fun j _ => by
          refine HasDerivAt.smul_const ?_ _
          cases j with
          | zero => simpa using hc0 t
          | succ j => simpa using hcs j t)
      refine h.congr_deriv ?_
      rw [Finset.sum_range_succ']
      simp only [s, map_sum, map_smul]
      rw [Finset.sum_range_succ]
      have e : ∀ j, N ((N ^ j) v) = (N ^ (j + 1)) v := fun j => by rw [pow_succ']; rfl
      simp [e, hv]
    refine ⟨fun t => Complex.exp (μ * t) • s t, ?_, ?_, ?_⟩
    · simp only [s, c]
      rw [Finset.sum_range_succ']
      simp
    · intro t
      refine ((he t).smul (hs t)).congr_deriv ?_
      rw [hf, map_smul, smul_smul, add_comm]
    · have : ∀ t : ℝ, Complex.exp (μ * t) • s t
          = ∑ j ∈ Finset.range (k + 1), (Complex.exp (μ * t) * c j t) • (N ^ j) v := by
        intro t
        simp only [s, Finset.smul_sum, smul_smul]
      simp only [this]
      rw [show (0 : E) = ∑ j ∈ Finset.range (k + 1), (0 : ℂ) • (N ^ j) v by simp]
      exact tendsto_finsetSum _ fun j _ => (decay_coeff hμ j).smul_const _

theorem decays_all {f : Module.End ℂ E} (hf : ∀ μ, f.HasEigenvalue μ → μ.re < 0) (v : E) : Decays f v := by
  have hv : v ∈ ⨆ μ, f.maxGenEigenspace μ := by
    rw [Module.End.iSup_maxGenEigenspace_eq_top]; trivial
  refine Submodule.iSup_induction _ (motive := Decays f) hv ?_ (decays_zero f) fun _ _ => Decays.add
  intro μ w hw
  obtain ⟨k, hk⟩ := (Module.End.mem_maxGenEigenspace f μ w).1 hw
  by_cases h0 : w = 0
  · rw [h0]; exact decays_zero f
  refine decays_gen (hf μ ?_) hk
  refine Module.End.hasEigenvalue_of_hasGenEigenvalue (k := k) ?_
  intro hb
  have : w ∈ f.genEigenspace μ k := Module.End.mem_genEigenspace_nat.2 hk
  rw [hb] at this
  exact h0 (by simpa using this)

end

/-! ### Real systems -/

theorem solves_unique {T : Matrix ι ι ℝ} {x y : ℝ → ι → ℝ} (hx : Solves T x) (hy : Solves T y) (h : x 0 = y 0) :
    x = y := by
  let L : (ι → ℝ) →L[ℝ] (ι → ℝ) := LinearMap.toContinuousLinearMap T.mulVecLin
  exact ODE_solution_unique_univ (v := fun _ z => L z) (s := fun _ => Set.univ) (K := ‖L‖₊)
    (fun _ => L.lipschitz.lipschitzOnWith) (fun t => ⟨hx t, trivial⟩) (fun t => ⟨hy t, trivial⟩) h

theorem mapRe (T : Matrix ι ι ℝ) (z : ι → ℂ) :
    (fun i => ((T.map Complex.ofReal *ᵥ z) i).re) = T *ᵥ fun i => (z i).re := by
  ext i
  simp [mulVec, dotProduct]

/-- Every start has a solution that tends to zero. -/
theorem Hurwitz.exists_solution {T : Matrix ι ι ℝ} (hT : Hurwitz T) (x0 : ι → ℝ) :
    ∃ x, x 0 = x0 ∧ Solves T x ∧ Tendsto x atTop (𝓝 0) := by
  have hf : ∀ μ, Module.End.HasEigenvalue (T.map Complex.ofReal).mulVecLin μ → μ.re < 0 := by
    intro μ hμ
    obtain ⟨v, hv⟩ := hμ.exists_hasEigenvector
    exact hT μ v hv.2 (by simpa using hv.apply_eq_smul)
  obtain ⟨z, h0, hd, ht⟩ := decays_all hf (fun i => (x0 i : ℂ))
  refine ⟨fun t i => (z t i).re, ?_, ?_, ?_⟩
  · ext i; simp [h0]
  · intro t
    rw [← mapRe]
    rw [hasDerivAt_pi]
    intro i
    have h := hasDerivAt_pi.1 (hd t) i
    have h2 := Complex.reCLM.hasFDerivAt.comp_hasDerivAt t h
    exact h2
  · rw [tendsto_pi_nhds] at ht ⊢
    intro i
    have h2 := (Complex.continuous_re.tendsto _).comp (ht i)
    exact h2

theorem Hurwitz.tendsto {T : Matrix ι ι ℝ} (hT : Hurwitz T) {x : ℝ → ι → ℝ} (hx : Solves T x) :
    Tendsto x atTop (𝓝 0) := by
  obtain ⟨y, h0, hy, ht⟩ := hT.exists_solution (x 0)
  rw [solves_unique hx hy h0.symm]
  exact ht

omit [DecidableEq ι] in
/-- A product along two motions. -/
theorem hasDerivAt_form {κ : Type*} [Fintype κ] (W : Matrix ι κ ℝ) {x : ℝ → ι → ℝ} {y : ℝ → κ → ℝ} {x' : ι → ℝ} {y' : κ → ℝ}
    {t : ℝ} (hx : HasDerivAt x x' t) (hy : HasDerivAt y y' t) :
    HasDerivAt (fun t => x t ⬝ᵥ (W *ᵥ y t)) (x' ⬝ᵥ (W *ᵥ y t) + x t ⬝ᵥ (W *ᵥ y')) t := by
  have hx' := hasDerivAt_pi.1 hx
  have hy' := hasDerivAt_pi.1 hy
  simp only [dotProduct, mulVec]
  have h := HasDerivAt.fun_sum (u := Finset.univ) fun i _ => (hx' i).mul
    (HasDerivAt.fun_sum (u := Finset.univ) fun j _ => (hy' j).const_mul (W i j))
  refine h.congr_deriv ?_
  rw [← Finset.sum_add_distrib]

omit [DecidableEq ι] in
theorem tendsto_form {κ : Type*} [Fintype κ] (W : Matrix ι κ ℝ) {x : ℝ → ι → ℝ} {y : ℝ → κ → ℝ} {l : Filter ℝ}
    (hx : Tendsto x l (𝓝 0)) (hy : Tendsto y l (𝓝 0)) : Tendsto (fun t => x t ⬝ᵥ (W *ᵥ y t)) l (𝓝 0) := by
  have hx' := tendsto_pi_nhds.1 hx
  have hy' := tendsto_pi_nhds.1 hy
  simp only [dotProduct, mulVec]
  have : (0 : ℝ) = ∑ i : ι, (0 : ℝ) * ∑ j : κ, W i j * 0 := by simp
  rw [this]
  exact tendsto_finsetSum _ fun i _ => (hx' i).mul (tendsto_finsetSum _ fun j _ => (hy' j).const_mul _)

theorem ext_form {κ : Type*} [Fintype κ] [DecidableEq κ] {W : Matrix ι κ ℝ} (h : ∀ x y, x ⬝ᵥ (W *ᵥ y) = 0) : W = 0 := by
  ext i j
  have := h (Pi.single i 1) (Pi.single j 1)
  simpa using this

/-- The homogeneous Sylvester equation of two stable systems has only the zero solution. -/
theorem Hurwitz.sylvester {κ : Type*} [Fintype κ] [DecidableEq κ] {S : Matrix ι ι ℝ} {T : Matrix κ κ ℝ}
    (hS : Hurwitz S) (hT : Hurwitz T) {W : Matrix ι κ ℝ}
    (h : Sᵀ * W + W * T = 0) : W = 0 := by
  refine ext_form fun x0 y0 => ?_
  obtain ⟨x, hx0, hx, hxt⟩ := hS.exists_solution x0
  obtain ⟨y, hy0, hy, hyt⟩ := hT.exists_solution y0
  have hd : ∀ t, HasDerivAt (fun t => x t ⬝ᵥ (W *ᵥ y t)) 0 t := by
    intro t
    refine (hasDerivAt_form W (hx t) (hy t)).congr_deriv ?_
    have := congrArg (fun M => x t ⬝ᵥ (M *ᵥ y t)) h
    simp only [add_mulVec, dotProduct_add, zero_mulVec, dotProduct_zero] at this
    rw [← this]
    congr 1
    · rw [← mulVec_mulVec, dotProduct_mulVec (x t) Sᵀ, vecMul_transpose]
    · rw [mulVec_mulVec]
  have hc : ∀ t, x t ⬝ᵥ (W *ᵥ y t) = x0 ⬝ᵥ (W *ᵥ y0) := by
    intro t
    have := is_const_of_deriv_eq_zero (fun t => (hd t).differentiableAt) (fun t => (hd t).deriv) t 0
    simpa [hx0, hy0] using this
  have hl := tendsto_form W hxt hyt
  simp only [hc] at hl
  exact tendsto_nhds_unique tendsto_const_nhds hl

theorem dot_sym {P : Matrix ι ι ℝ} (hP : Pᵀ = P) (x y : ι → ℝ) : x ⬝ᵥ (P *ᵥ y) = y ⬝ᵥ (P *ᵥ x) := by
  rw [dotProduct_comm, ← vecMul_transpose, hP, ← dotProduct_mulVec]

/-- Lyapunov: if the form decreases along all motions of a stable system, it is not negative. -/
theorem Hurwitz.nonneg {T : Matrix ι ι ℝ} (hT : Hurwitz T) {P G : Matrix ι ι ℝ} (h : Tᵀ * P + P * T = -G)
    (hG : ∀ x, 0 ≤ x ⬝ᵥ (G *ᵥ x)) (x0 : ι → ℝ) : 0 ≤ x0 ⬝ᵥ (P *ᵥ x0) := by
  obtain ⟨x, hx0, hx, hxt⟩ := hT.exists_solution x0
  have hd : ∀ t, HasDerivAt (fun t => x t ⬝ᵥ (P *ᵥ x t)) (-(x t ⬝ᵥ (G *ᵥ x t))) t := by
    intro t
    refine (hasDerivAt_form P (hx t) (hx t)).congr_deriv ?_
    have := congrArg (fun M => x t ⬝ᵥ (M *ᵥ x t)) h
    simp only [add_mulVec, dotProduct_add, neg_mulVec, dotProduct_neg] at this
    rw [← this]
    congr 1
    · rw [← mulVec_mulVec, dotProduct_mulVec (x t) Tᵀ, vecMul_transpose]
    · rw [mulVec_mulVec]
  have hanti : Antitone fun t => x t ⬝ᵥ (P *ᵥ x t) :=
    antitone_of_deriv_nonpos (fun t => (hd t).differentiableAt) fun t => by
      rw [(hd t).deriv]; have := hG (x t); linarith
  have hl := tendsto_form P hxt hxt
  have := hanti.le_of_tendsto hl 0
  simpa [hx0] using this

/-- The Lyapunov equation of a stable system has a solution for every right hand side. -/
theorem Hurwitz.lyapunov {T : Matrix ι ι ℝ} (hT : Hurwitz T) (G : Matrix ι ι ℝ) :
    ∃ Y : Matrix ι ι ℝ, Tᵀ * Y + Y * T = -G := by
  let L : Matrix ι ι ℝ →ₗ[ℝ] Matrix ι ι ℝ :=
    { toFun := fun Y => Tᵀ * Y + Y * T
      map_add' := fun X Y => by rw [Matrix.mul_add, Matrix.add_mul]; abel
      map_smul' := fun c Y => by simp [smul_add] }
  have hinj : Function.Injective L := by
    rw [← LinearMap.ker_eq_bot, LinearMap.ker_eq_bot']
    exact fun Y hY => hT.sylvester hT hY
  obtain ⟨Y, hY⟩ := (LinearMap.injective_iff_surjective.1 hinj) (-G)
  exact ⟨Y, hY⟩

end CT.LinOde
