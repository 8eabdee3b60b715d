import Verif.Props.ArticulatedEnergy
import Verif.Props.OpJacobian

/-!
# Power of the forces on a robot, and its energy
-/

namespace CT.Articulated

open Matrix Spatial FrameJac OpJac

/-- Power of the external forces on the links of a branch when its parent moves with the velocity `u` and the
joints with the given rates: the velocity of a link is the one of its parent, seen from the link, plus the
rotation about the joint axis. -/
noncomputable def power (u : V6) : List (Joint × ℝ) → ℝ
  | [] => 0
  | (j, x) :: ls => (j.X *ᵥ u + x • axisZ) ⬝ᵥ j.fext + power (j.X *ᵥ u + x • axisZ) ls

/-- The joint without external force on its link. -/
def Joint.free (j : Joint) : Joint := { j with fext := 0 }

theorem ldot_cons (x y : ℝ) (xs ys : List ℝ) : ldot (x :: xs) (y :: ys) = x * y + ldot xs ys := by simp [ldot]

/-- What a force on a link contributes to its joint and to the parent. -/
theorem work_step (X : M6) (u f : V6) (x r : ℝ) : u ⬝ᵥ (Xᵀ *ᵥ f) + (x * f 2 + r) = (X *ᵥ u + x • axisZ) ⬝ᵥ f + r := by
  rw [← add_assoc, Matrix.dotProduct_mulVec, vecMul_transpose, add_dotProduct, smul_dotProduct, axis_dot, smul_eq_mul]

theorem rnea_free : ∀ (js : List Joint) (v a u : V6) (xs ys : List ℝ), xs.length = js.length → ys.length = js.length →
    u ⬝ᵥ cf (rnea v a ((js.map Joint.free).zip xs)).1 + ldot ys (rnea v a ((js.map Joint.free).zip xs)).2
      = u ⬝ᵥ cf (rnea v a (js.zip xs)).1 + ldot ys (rnea v a (js.zip xs)).2 + power u (js.zip ys)
  | [], _, _, _, [], [], _, _ => by simp [rnea, cf, ldot, power]
  | [], _, _, _, _ :: _, _, hl, _ => by simp at hl
  | [], _, _, _, _, _ :: _, _, hl => by simp at hl
  | _ :: _, _, _, _, [], _, hl, _ => by simp at hl
  | _ :: _, _, _, _, _, [], _, hl => by simp at hl
  | j :: js, v, a, u, x :: xs, y :: ys, hx, hy => by
    have ih := rnea_free js (j.vel v) (bump (j.X *ᵥ a + j.cor v) x) (j.X *ᵥ u + y • axisZ) xs ys (by simpa using hx) (by simpa using hy)
    have h1 : rnea v a (((j :: js).map Joint.free).zip (x :: xs))
        = (some (j.Xᵀ *ᵥ addF (j.I *ᵥ bump (j.X *ᵥ a + j.cor v) x + vxIv (j.vel v) j.I - 0)
              (rnea (j.vel v) (bump (j.X *ᵥ a + j.cor v) x) ((js.map Joint.free).zip xs)).1),
            addF (j.I *ᵥ bump (j.X *ᵥ a + j.cor v) x + vxIv (j.vel v) j.I - 0)
              (rnea (j.vel v) (bump (j.X *ᵥ a + j.cor v) x) ((js.map Joint.free).zip xs)).1 2
              :: (rnea (j.vel v) (bump (j.X *ᵥ a + j.cor v) x) ((js.map Joint.free).zip xs)).2) := rfl
    have h2 : rnea v a ((j :: js).zip (x :: xs))
        = (some (j.Xᵀ *ᵥ addF (j.I *ᵥ bump (j.X *ᵥ a + j.cor v) x + vxIv (j.vel v) j.I - j.fext)
              (rnea (j.vel v) (bump (j.X *ᵥ a + j.cor v) x) (js.zip xs)).1),
            addF (j.I *ᵥ bump (j.X *ᵥ a + j.cor v) x + vxIv (j.vel v) j.I - j.fext)
              (rnea (j.vel v) (bump (j.X *ᵥ a + j.cor v) x) (js.zip xs)).1 2
              :: (rnea (j.vel v) (bump (j.X *ᵥ a + j.cor v) x) (js.zip xs)).2) := rfl
    have h3 : power u ((j :: js).zip (y :: ys)) = (j.X *ᵥ u + y • axisZ) ⬝ᵥ j.fext + power (j.X *ᵥ u + y • axisZ) (js.zip ys) := rfl
    rw [h1, h2, h3]
    show u ⬝ᵥ (j.Xᵀ *ᵥ _) + ldot (y :: ys) (_ :: _) = u ⬝ᵥ (j.Xᵀ *ᵥ _) + ldot (y :: ys) (_ :: _) + _
    rw [ldot_cons, ldot_cons, work_step, work_step, addF_eq, addF_eq, sub_zero]
    simp only [dotProduct_add, dotProduct_sub] at ih ⊢
    linarith

/-- The torques of the inverse dynamics balance the power of the external forces, for all rates; fixed base. -/
theorem fixed_power (js : List Joint) (xs ys : List ℝ) (hx : xs.length = js.length) (hy : ys.length = js.length) :
    ldot ys (idFixed ((js.map Joint.free).zip xs)) = ldot ys (idFixed (js.zip xs)) + power 0 (js.zip ys) := by
  have := rnea_free js 0 gravAcc 0 xs ys hx hy
  rwa [zero_dotProduct, zero_dotProduct, zero_add, zero_add, ← idFixed_eq, ← idFixed_eq] at this

theorem branches_power (v a u : V6) : ∀ (brs : List (List Joint)) (xss yss : List (List ℝ)),
    xss.map List.length = brs.map List.length → yss.map List.length = brs.map List.length →
    u ⬝ᵥ ((List.zipWith List.zip (brs.map (List.map Joint.free)) xss).map fun br => cf (rnea v a br).1).sum
      + (List.zipWith ldot yss ((List.zipWith List.zip (brs.map (List.map Joint.free)) xss).map fun br => (rnea v a br).2)).sum
    = u ⬝ᵥ ((List.zipWith List.zip brs xss).map fun br => cf (rnea v a br).1).sum
      + (List.zipWith ldot yss ((List.zipWith List.zip brs xss).map fun br => (rnea v a br).2)).sum
      + ((List.zipWith List.zip brs yss).map (power u)).sum
  | [], [], [], _, _ => by simp
  | [], _ :: _, _, h, _ => by simp at h
  | [], _, _ :: _, _, h => by simp at h
  | _ :: _, [], _, h, _ => by simp at h
  | _ :: _, _, [], _, h => by simp at h
  | br :: brs, xs :: xss, ys :: yss, hx, hy => by
    have ih := branches_power v a u brs xss yss (by simp at hx; simpa using hx.2) (by simp at hy; simpa using hy.2)
    have h1 := rnea_free br v a u xs ys (by simp at hx; exact hx.1) (by simp at hy; exact hy.1)
    simp only [List.map_cons, List.zipWith_cons_cons, List.sum_cons, dotProduct_add] at ih h1 ⊢
    linarith

/-- The same with a floating base: the force on the base takes part with the rate of the base. -/
theorem float_power (b : Base) (g acc u : V6) (brs : List (List Joint)) (xss yss : List (List ℝ))
    (hx : xss.map List.length = brs.map List.length) (hy : yss.map List.length = brs.map List.length) :
    u ⬝ᵥ (idFull { b with fext := 0 } g acc (List.zipWith List.zip (brs.map (List.map Joint.free)) xss)).1
      + (List.zipWith ldot yss (idFull { b with fext := 0 } g acc (List.zipWith List.zip (brs.map (List.map Joint.free)) xss)).2).sum
    = u ⬝ᵥ (idFull b g acc (List.zipWith List.zip brs xss)).1
      + (List.zipWith ldot yss (idFull b g acc (List.zipWith List.zip brs xss)).2).sum
      + (u ⬝ᵥ b.fext + ((List.zipWith List.zip brs yss).map (power u)).sum) := by
  have h := branches_power b.v (acc - g) u brs xss yss hx hy
  simp only [idFull, foldl_addF', dotProduct_add, dotProduct_sub, dotProduct_zero] at h ⊢
  linarith

/-! ### Power of the forces of inertia -/

/-- Power of the forces that accelerate the links of a branch. -/
noncomputable def work (v a : V6) : List (Joint × ℝ) → ℝ
  | [] => 0
  | (j, x) :: ls => j.vel v ⬝ᵥ (j.I *ᵥ bump (j.X *ᵥ a + j.cor v) x) + work (j.vel v) (bump (j.X *ᵥ a + j.cor v) x) ls

/-- Power of gravity on the links of a branch; `g` is the acceleration of gravity in the frame of the parent. -/
noncomputable def gpower (v g : V6) : List Joint → ℝ
  | [] => 0
  | j :: ls => j.vel v ⬝ᵥ (j.I *ᵥ (j.X *ᵥ g)) + gpower (j.vel v) (j.X *ᵥ g) ls

/-- The bias force of a body does no work. -/
theorem bias_power {I : M6} (h : IsBody I) (u : V6) : u ⬝ᵥ vxIv u I = 0 := by
  obtain ⟨κ, _, m, r, -, h⟩ := h
  obtain ⟨ω, v, rfl⟩ := join_surj u
  rw [C122_bias h, crf]
  generalize angMomentum m r ω v = L
  generalize linMomentum m r ω v = P
  simp [dotProduct, Fin.sum_univ_succ, join, cross]
  ring

theorem rnea_work : ∀ (js : List Joint) (v a : V6) (xs : List ℝ), (∀ j ∈ js, IsBody j.I) → xs.length = js.length →
    v ⬝ᵥ cf (rnea v a (js.zip xs)).1 + ldot (js.map Joint.qd) (rnea v a (js.zip xs)).2 + power v (js.zip (js.map Joint.qd))
      = work v a (js.zip xs)
  | [], _, _, [], _, _ => by simp [rnea, cf, ldot, power, work]
  | [], _, _, _ :: _, _, hl => by simp at hl
  | _ :: _, _, _, [], _, hl => by simp at hl
  | j :: js, v, a, x :: xs, h, hl => by
    have ih := rnea_work js (j.vel v) (bump (j.X *ᵥ a + j.cor v) x) xs (fun k hk => h k (List.mem_cons_of_mem _ hk)) (by simpa using hl)
    have hb := bias_power (h j List.mem_cons_self) (j.vel v)
    have h2 : rnea v a ((j :: js).zip (x :: xs))
        = (some (j.Xᵀ *ᵥ addF (j.I *ᵥ bump (j.X *ᵥ a + j.cor v) x + vxIv (j.vel v) j.I - j.fext)
              (rnea (j.vel v) (bump (j.X *ᵥ a + j.cor v) x) (js.zip xs)).1),
            addF (j.I *ᵥ bump (j.X *ᵥ a + j.cor v) x + vxIv (j.vel v) j.I - j.fext)
              (rnea (j.vel v) (bump (j.X *ᵥ a + j.cor v) x) (js.zip xs)).1 2
              :: (rnea (j.vel v) (bump (j.X *ᵥ a + j.cor v) x) (js.zip xs)).2) := rfl
    have h3 : power v ((j :: js).zip ((j :: js).map Joint.qd))
        = (j.X *ᵥ v + j.qd • axisZ) ⬝ᵥ j.fext + power (j.X *ᵥ v + j.qd • axisZ) (js.zip (js.map Joint.qd)) := rfl
    have h4 : work v a ((j :: js).zip (x :: xs)) = j.vel v ⬝ᵥ (j.I *ᵥ bump (j.X *ᵥ a + j.cor v) x)
        + work (j.vel v) (bump (j.X *ᵥ a + j.cor v) x) (js.zip xs) := rfl
    have hv : j.X *ᵥ v + j.qd • axisZ = j.vel v := (bump_eq _ _).symm
    rw [h2, h3, h4]
    show v ⬝ᵥ (j.Xᵀ *ᵥ _) + ldot (j.qd :: js.map Joint.qd) (_ :: _) + _ = _
    rw [ldot_cons, work_step, hv, addF_eq]
    simp only [dotProduct_add, dotProduct_sub] at ih ⊢
    linarith

theorem work_sub : ∀ (js : List Joint) (v a g : V6) (xs : List ℝ), xs.length = js.length →
    work v (a - g) (js.zip xs) = work v a (js.zip xs) - gpower v g js
  | [], _, _, _, [], _ => by simp [work, gpower]
  | [], _, _, _, _ :: _, hl => by simp at hl
  | _ :: _, _, _, _, [], hl => by simp at hl
  | j :: js, v, a, g, x :: xs, hl => by
    have ih := work_sub js (j.vel v) (bump (j.X *ᵥ a + j.cor v) x) (j.X *ᵥ g) xs (by simpa using hl)
    have ha : bump (j.X *ᵥ (a - g) + j.cor v) x = bump (j.X *ᵥ a + j.cor v) x - j.X *ᵥ g := by
      rw [bump_eq, bump_eq, mulVec_sub]; abel
    simp only [List.zip_cons_cons, work, gpower]
    rw [ha, ih, mulVec_sub, dotProduct_sub]
    ring

theorem branches_work (v a g : V6) : ∀ (brs : List (List Joint)) (xss : List (List ℝ)),
    (∀ br ∈ brs, ∀ j ∈ br, IsBody j.I) → xss.map List.length = brs.map List.length →
    v ⬝ᵥ ((List.zipWith List.zip brs xss).map fun br => cf (rnea v (a - g) br).1).sum
      + (List.zipWith ldot (brs.map (List.map Joint.qd)) ((List.zipWith List.zip brs xss).map fun br => (rnea v (a - g) br).2)).sum
      + ((List.zipWith List.zip brs (brs.map (List.map Joint.qd))).map (power v)).sum
    = ((List.zipWith List.zip brs xss).map (work v a)).sum - (brs.map (gpower v g)).sum
  | [], [], _, _ => by simp
  | [], _ :: _, _, h => by simp at h
  | _ :: _, [], _, h => by simp at h
  | br :: brs, xs :: xss, hb, hx => by
    have ih := branches_work v a g brs xss (fun b h => hb b (List.mem_cons_of_mem _ h)) (by simp at hx; simpa using hx.2)
    have h0 : xs.length = br.length := by simp at hx; exact hx.1
    have h1 := rnea_work br v (a - g) xs (hb br List.mem_cons_self) h0
    rw [work_sub br v a g xs h0] at h1
    simp only [List.map_cons, List.zipWith_cons_cons, List.sum_cons, dotProduct_add] at ih h1 ⊢
    linarith

/-! ### Motion -/

/-- Rotation of the coordinates of a spatial vector about the z axis. -/
noncomputable def tz (θ : ℝ) : M3 := !![Real.cos θ, Real.sin θ, 0; -Real.sin θ, Real.cos θ, 0; 0, 0, 1]

noncomputable def spin (θ : ℝ) : M6 := blk (tz θ) 0 0 (tz θ)

theorem tz_rot (θ : ℝ) : IsRot (tz θ) := by
  have h := Real.sin_sq_add_cos_sq θ
  refine ⟨?_, ?_⟩
  · ext i j; fin_cases i <;> fin_cases j <;> simp [tz, Matrix.mul_apply, Fin.sum_univ_succ] <;> linarith
  · rw [tz, Matrix.det_fin_three]; simp; linarith

theorem spin_motion {K : M6} {C : M3} {o : V3} (h : IsMotionX K C o) (θ : ℝ) : IsMotionX (spin θ * K) (tz θ * C) o := by
  refine ⟨(tz_rot θ).mul h.rot, fun ω v => ?_⟩
  rw [← mulVec_mulVec, h.map, spin, blk_mulVec]
  simp only [mulVec_mulVec, Matrix.zero_mul, zero_mulVec, add_zero, zero_add]

/-- The links of a branch move: at time `t` each turns about the z axis of its frame with the velocity of its
joint, whose rate of change is given. -/
inductive Moves (t : ℝ) : (ℝ → List Joint) → List ℝ → Prop
  | nil : Moves t (fun _ => []) []
  | cons {J : ℝ → Joint} {Js : ℝ → List Joint} {x : ℝ} {xs : List ℝ} (K I : M6) (C : M3) (o : V3) (θ : ℝ → ℝ)
      (hX : ∀ s, (J s).X = spin (θ s) * K) (hK : IsMotionX K C o) (hI : ∀ s, (J s).I = I) (hb : IsBody I)
      (hθ : HasDerivAt θ (J t).qd t) (hx : HasDerivAt (fun s => (J s).qd) x t) (h : Moves t Js xs) :
      Moves t (fun s => J s :: Js s) (x :: xs)

theorem spin_mulVec (θ : ℝ) (u : V6) : spin θ *ᵥ u = ![Real.cos θ * u 0 + Real.sin θ * u 1,
    -Real.sin θ * u 0 + Real.cos θ * u 1, u 2, Real.cos θ * u 3 + Real.sin θ * u 4, -Real.sin θ * u 3 + Real.cos θ * u 4, u 5] := by
  funext i
  fin_cases i <;> simp [spin, blk, tz, mulVec, dotProduct, Fin.sum_univ_succ]

theorem mulVec_const (K : M6) {v : ℝ → V6} {a : V6} {t : ℝ} (h : VDeriv v a t) : VDeriv (fun s => K *ᵥ v s) (K *ᵥ a) t := by
  intro i
  simp only [mulVec, dotProduct]
  exact HasDerivAt.fun_sum fun k _ => (h k).const_mul _

theorem spin_deriv {θ : ℝ → ℝ} {w t : ℝ} (h : HasDerivAt θ w t) {u : ℝ → V6} {a : V6} (hu : VDeriv u a t) :
    VDeriv (fun s => spin (θ s) *ᵥ u s) (spin (θ t) *ᵥ a + w • ![(spin (θ t) *ᵥ u t) 1, -(spin (θ t) *ᵥ u t) 0, 0,
      (spin (θ t) *ᵥ u t) 4, -(spin (θ t) *ᵥ u t) 3, 0]) t := by
  have hs := h.sin
  have hc := h.cos
  simp only [spin_mulVec]
  intro i
  fin_cases i
  · exact ((hc.mul (hu 0)).add (hs.mul (hu 1))).congr_deriv (by simp; ring)
  · exact ((hs.neg.mul (hu 0)).add (hc.mul (hu 1))).congr_deriv (by simp; ring)
  · exact (hu 2).congr_deriv (by simp)
  · exact ((hc.mul (hu 3)).add (hs.mul (hu 4))).congr_deriv (by simp; ring)
  · exact ((hs.neg.mul (hu 3)).add (hc.mul (hu 4))).congr_deriv (by simp; ring)
  · exact (hu 5).congr_deriv (by simp)

/-- The velocity of a link changes with the acceleration of the inverse dynamics. -/
theorem vel_deriv {J : ℝ → Joint} {K : M6} {θ : ℝ → ℝ} {x t : ℝ} (hX : ∀ s, (J s).X = spin (θ s) * K)
    (hθ : HasDerivAt θ (J t).qd t) (hx : HasDerivAt (fun s => (J s).qd) x t) {v : ℝ → V6} {a : V6} (hv : VDeriv v a t) :
    VDeriv (fun s => (J s).vel (v s)) (bump ((J t).X *ᵥ a + (J t).cor (v t)) x) t := by
  have h1 := spin_deriv hθ (mulVec_const K hv)
  have h2 : (fun s => (J s).vel (v s)) = fun s => spin (θ s) *ᵥ (K *ᵥ v s) + (J s).qd • axisZ := by
    funext s
    rw [Joint.vel, bump_eq, hX, mulVec_mulVec]
  rw [h2]
  intro i
  have h3 := (h1 i).add (hx.mul_const (axisZ i))
  refine h3.congr_deriv ?_
  rw [bump_eq, Pi.add_apply, Pi.add_apply, hX, ← mulVec_mulVec]
  have h4 : (J t).cor (v t) = (J t).qd • ![(spin (θ t) *ᵥ (K *ᵥ v t)) 1, -(spin (θ t) *ᵥ (K *ᵥ v t)) 0, 0,
      (spin (θ t) *ᵥ (K *ᵥ v t)) 4, -(spin (θ t) *ᵥ (K *ᵥ v t)) 3, 0] := by
    have hv : (J t).vel (v t) = spin (θ t) *ᵥ (K *ᵥ v t) + (J t).qd • axisZ := congrFun h2 t
    show (fun i => motionCrossProductMx ((J t).vel (v t)) 0 i 2 * (J t).qd) = _
    rw [hv]
    generalize spin (θ t) *ᵥ (K *ᵥ v t) = y
    funext k
    fin_cases k <;> simp [motionCrossProductMx, axisZ] <;> ring
  rw [h4]
  simp only [Pi.add_apply, Pi.smul_apply, smul_eq_mul]

theorem quad_deriv {I : M6} (hI : Iᵀ = I) {v : ℝ → V6} {a : V6} {t : ℝ} (hv : VDeriv v a t) :
    HasDerivAt (fun s => v s ⬝ᵥ (I *ᵥ v s)) (2 * (v t ⬝ᵥ (I *ᵥ a))) t := by
  have h := mulVec_const I hv
  have : HasDerivAt (fun s => v s ⬝ᵥ (I *ᵥ v s)) (a ⬝ᵥ (I *ᵥ v t) + v t ⬝ᵥ (I *ᵥ a)) t := by
    simp only [dotProduct] at *
    refine (HasDerivAt.fun_sum fun k _ => (hv k).mul (h k)).congr_deriv ?_
    rw [Finset.sum_add_distrib]
  refine this.congr_deriv ?_
  rw [sym_dot hI a]; ring

theorem energy_deriv {t : ℝ} {Js : ℝ → List Joint} {xs : List ℝ} (h : Moves t Js xs) : ∀ {v : ℝ → V6} {a : V6}, VDeriv v a t →
    HasDerivAt (fun s => energy (v s) ((Js s).zip ((Js s).map Joint.qd))) (2 * work (v t) a ((Js t).zip xs)) t := by
  induction h with
  | nil => intro v a _; simpa [energy, work] using hasDerivAt_const t (0 : ℝ)
  | @cons J Js x xs K I C o θ hX hK hI hb hθ hx h ih =>
    intro v a hv
    have h1 := vel_deriv hX hθ hx hv
    have h2 := quad_deriv hb.symm h1
    have h3 := ih h1
    refine ((h2.add h3).congr_deriv ?_).congr_of_eventuallyEq (.of_forall fun s => ?_)
    · simp only [List.zip_cons_cons, work]
      rw [hI]; ring
    · show energy (v s) ((J s, (J s).qd) :: (Js s).zip ((Js s).map Joint.qd)) = _
      rw [energy, ← bump_eq, hI]
      rfl

/-! ### Heights -/

/-- Orientation of a frame in the coordinates of the parent, from the motion transform: the upper left block is
its transpose. -/
def rotOf (X : M6) : M3 := !![X 0 0, X 0 1, X 0 2; X 1 0, X 1 1, X 1 2; X 2 0, X 2 1, X 2 2]ᵀ

/-- Position of a frame in the coordinates of the parent, from the motion transform: the lower left block is
minus the upper left block times the cross product matrix of the position. -/
def posOf (X : M6) : V3 :=
  let P : M3 := -(rotOf X * !![X 3 0, X 3 1, X 3 2; X 4 0, X 4 1, X 4 2; X 5 0, X 5 1, X 5 2])
  ![P 2 1, P 0 2, P 1 0]

/-- Mass of a body. -/
def massOf (I : M6) : ℝ := I 3 3

/-- Mass times centre of mass of a body. -/
def momentOf (I : M6) : V3 := ![I 2 4, I 0 5, I 1 3]

/-- Mass times height of the centre of mass of a body with orientation `R` and position `p` in the world, whose
z axis points up. -/
def lift (R : M3) (p : V3) (I : M6) : ℝ := massOf I * p 2 + (R *ᵥ momentOf I) 2

/-- Sum of mass times height of the links of a branch; `R` and `p` are orientation and position of the parent in
the world. -/
def height (R : M3) (p : V3) : List Joint → ℝ
  | [] => 0
  | j :: ls => lift (R * rotOf j.X) (p + R *ᵥ posOf j.X) j.I + height (R * rotOf j.X) (p + R *ᵥ posOf j.X) ls

theorem rotOf_eq {X : M6} {E : M3} {o : V3} (h : IsMotionX X E o) : rotOf X = Eᵀ := by
  rw [h.eq, rotOf]
  congr 1
  ext i j; fin_cases i <;> fin_cases j <;> simp [blk]

theorem posOf_eq {X : M6} {E : M3} {o : V3} (h : IsMotionX X E o) : posOf X = o := by
  have h1 : (!![X 3 0, X 3 1, X 3 2; X 4 0, X 4 1, X 4 2; X 5 0, X 5 1, X 5 2] : M3) = -(E * cpm o) := by
    rw [h.eq]
    ext i j; fin_cases i <;> fin_cases j <;> simp [blk]
  rw [posOf, h1, rotOf_eq h, Matrix.mul_neg, neg_neg, ← Matrix.mul_assoc, h.rot.orth, Matrix.one_mul]
  funext i; fin_cases i <;> simp [cpm]

theorem tz_deriv {θ : ℝ → ℝ} {w t : ℝ} (h : HasDerivAt θ w t) :
    MDeriv (fun s => (tz (θ s))ᵀ) ((tz (θ t))ᵀ * cpm ![0, 0, w]) t := by
  intro i j
  fin_cases i <;> fin_cases j
  · exact h.cos.congr_deriv (by simp [tz, cpm, Matrix.mul_apply, Fin.sum_univ_succ])
  · exact h.sin.neg.congr_deriv (by simp [tz, cpm, Matrix.mul_apply, Fin.sum_univ_succ])
  · simpa [tz, cpm, Matrix.mul_apply, Fin.sum_univ_succ] using hasDerivAt_const t (0 : ℝ)
  · exact h.sin.congr_deriv (by simp [tz, cpm, Matrix.mul_apply, Fin.sum_univ_succ])
  · exact h.cos.congr_deriv (by simp [tz, cpm, Matrix.mul_apply, Fin.sum_univ_succ])
  · simpa [tz, cpm, Matrix.mul_apply, Fin.sum_univ_succ] using hasDerivAt_const t (0 : ℝ)
  · simpa [tz, cpm, Matrix.mul_apply, Fin.sum_univ_succ] using hasDerivAt_const t (0 : ℝ)
  · simpa [tz, cpm, Matrix.mul_apply, Fin.sum_univ_succ] using hasDerivAt_const t (0 : ℝ)
  · simpa [tz, cpm, Matrix.mul_apply, Fin.sum_univ_succ] using hasDerivAt_const t (1 : ℝ)

theorem cpm_plus (a b : V3) : cpm (a + b) = cpm a + cpm b := by
  ext i j; fin_cases i <;> fin_cases j <;> simp [cpm] <;> ring

/-- The pose of a link changes with its velocity. -/
theorem link_deriv {R : ℝ → M3} {p : ℝ → V3} {ω v : V3} {t : ℝ} (hR : MDeriv R (R t * cpm ω) t) (hp : VDeriv p (R t *ᵥ v) t)
    {K : M6} {C : M3} {o : V3} (hK : IsMotionX K C o) {θ : ℝ → ℝ} {w : ℝ} (hθ : HasDerivAt θ w t) :
    MDeriv (fun s => R s * rotOf (spin (θ s) * K)) (R t * rotOf (spin (θ t) * K) * cpm ((tz (θ t) * C) *ᵥ ω + ![0, 0, w])) t
    ∧ VDeriv (fun s => p s + R s *ᵥ posOf (spin (θ s) * K))
      ((R t * rotOf (spin (θ t) * K)) *ᵥ ((tz (θ t) * C) *ᵥ (v + cross ω o))) t := by
  have hm := fun s => spin_motion hK (θ s)
  have hr : ∀ s, rotOf (spin (θ s) * K) = Cᵀ * (tz (θ s))ᵀ := fun s => by rw [rotOf_eq (hm s), transpose_mul]
  have he := (hm t).rot
  constructor
  · have h1 := (hR.mul (MDeriv.const Cᵀ t)).mul (tz_deriv hθ)
    have h2 : (fun s => R s * rotOf (spin (θ s) * K)) = fun s => R s * Cᵀ * (tz (θ s))ᵀ := by
      funext s; rw [hr, Matrix.mul_assoc]
    have h3 : R t * rotOf (spin (θ t) * K) * cpm ((tz (θ t) * C) *ᵥ ω + ![0, 0, w])
        = (R t * cpm ω * Cᵀ + R t * 0) * (tz (θ t))ᵀ + R t * Cᵀ * ((tz (θ t))ᵀ * cpm ![0, 0, w]) := by
      rw [cpm_plus, ← cpm_rot he ω, Matrix.mul_add, rotOf_eq (hm t)]
      have h4 : R t * (tz (θ t) * C)ᵀ * (tz (θ t) * C * cpm ω * (tz (θ t) * C)ᵀ)
          = R t * ((tz (θ t) * C)ᵀ * (tz (θ t) * C)) * cpm ω * (tz (θ t) * C)ᵀ := by simp only [Matrix.mul_assoc]
      rw [h4, he.orth]
      simp only [transpose_mul, Matrix.mul_one, Matrix.mul_zero, add_zero, Matrix.mul_assoc]
    rw [h2, h3]
    exact h1
  · have h1 := hp.add (mulVec_deriv hR (VDeriv.const o t))
    have h2 : (fun s => p s + R s *ᵥ posOf (spin (θ s) * K)) = fun s => p s + R s *ᵥ o := by
      funext s; rw [posOf_eq (hm s)]
    have h3 : (R t * rotOf (spin (θ t) * K)) *ᵥ ((tz (θ t) * C) *ᵥ (v + cross ω o))
        = R t *ᵥ v + ((R t * cpm ω) *ᵥ o + R t *ᵥ 0) := by
      rw [rotOf_eq (hm t), mulVec_mulVec, Matrix.mul_assoc, he.orth, Matrix.mul_one, mulVec_zero, add_zero, ← mulVec_mulVec,
        cpm_mulVec, mulVec_add]
    rw [h2, h3]
    exact h1

/-- Acceleration of gravity in the coordinates of a body with orientation `R` in the world. -/
noncomputable def gravIn (R : M3) : V6 := join 0 (Rᵀ *ᵥ ![0, 0, -grav])

/-- Gravity does work at the rate at which a body loses height. -/
theorem lift_deriv {R : ℝ → M3} {p : ℝ → V3} {ω v : V3} {t : ℝ} (hR : MDeriv R (R t * cpm ω) t) (hp : VDeriv p (R t *ᵥ v) t)
    {I : M6} (hI : IsBody I) : HasDerivAt (fun s => grav * lift (R s) (p s) I) (-(join ω v ⬝ᵥ (I *ᵥ gravIn (R t)))) t := by
  obtain ⟨κ, _, m, r, -, hI⟩ := hI
  obtain ⟨T, h, M, -, rfl⟩ := inertia_entries hI
  have h1 : ∀ s, lift (R s) (p s) (blk T (cpm h) (-cpm h) (M • 1)) = M * p s 2 + (R s *ᵥ h) 2 := by
    intro s
    have : momentOf (blk T (cpm h) (-cpm h) (M • 1)) = h := by
      funext i; fin_cases i <;> simp [momentOf, blk, cpm]
    rw [lift, this]
    simp [massOf, blk]
  simp only [h1]
  have h2 := ((hp 2).const_mul M).add (mulVec_deriv hR (VDeriv.const h t) 2)
  refine (h2.const_mul grav).congr_deriv ?_
  have hγ : (R t)ᵀ *ᵥ ![0, 0, -grav] = ![-grav * R t 2 0, -grav * R t 2 1, -grav * R t 2 2] := by
    funext i; fin_cases i <;> simp [mulVec, dotProduct, Fin.sum_univ_three] <;> ring
  rw [gravIn, hγ, blk_mulVec, mulVec_zero, mulVec_zero, mulVec_zero, zero_add, zero_add, add_zero, ← mulVec_mulVec, cpm_mulVec, cpm_mulVec,
    smul_mulVec, one_mulVec]
  simp only [dotProduct, Fin.sum_univ_succ, join, cross, mulVec, transpose_apply]
  simp
  ring

theorem height_deriv {t : ℝ} {Js : ℝ → List Joint} {xs : List ℝ} (h : Moves t Js xs) : ∀ {R : ℝ → M3} {p : ℝ → V3} {ω v : V3},
    MDeriv R (R t * cpm ω) t → VDeriv p (R t *ᵥ v) t →
    HasDerivAt (fun s => grav * height (R s) (p s) (Js s)) (-gpower (join ω v) (gravIn (R t)) (Js t)) t := by
  induction h with
  | nil => intro R p ω v _ _; simpa [height, gpower] using hasDerivAt_const t (0 : ℝ)
  | @cons J Js x xs K I C o θ hX hK hI hb hθ hx h ih =>
    intro R p ω v hR hp
    obtain ⟨h1, h2⟩ := link_deriv hR hp hK hθ
    have hm := spin_motion hK (θ t)
    have hv : (J t).vel (join ω v) = join ((tz (θ t) * C) *ᵥ ω + ![0, 0, (J t).qd]) ((tz (θ t) * C) *ᵥ (v + cross ω o)) := by
      rw [Joint.vel, bump_eq, hX, hm.map]
      funext i; fin_cases i <;> simp [join, axisZ]
    have hg : (J t).X *ᵥ gravIn (R t) = gravIn (R t * rotOf (spin (θ t) * K)) := by
      rw [hX, gravIn, gravIn, hm.map, rotOf_eq hm, transpose_mul, transpose_transpose, mulVec_zero, ← mulVec_mulVec]
      have : cross (0 : V3) o = 0 := by funext i; fin_cases i <;> simp [cross]
      rw [this, add_zero]
      simp only [mulVec_mulVec, Matrix.mul_assoc]
    have h3 := lift_deriv h1 h2 hb
    have h4 := ih h1 h2
    refine ((h3.add h4).congr_deriv ?_).congr_of_eventuallyEq (.of_forall fun s => ?_)
    · simp only [gpower]
      rw [hI, hv, hg]; ring
    · simp only [height, Pi.add_apply]
      rw [hX, hI, mul_add]

/-! ### Balance -/

theorem Moves.length {t : ℝ} {Js : ℝ → List Joint} {xs : List ℝ} (h : Moves t Js xs) : xs.length = (Js t).length := by
  induction h with
  | nil => rfl
  | cons => simpa

theorem Moves.body {t : ℝ} {Js : ℝ → List Joint} {xs : List ℝ} (h : Moves t Js xs) : ∀ j ∈ Js t, IsBody j.I := by
  induction h with
  | nil => simp
  | @cons J Js x xs K I C o θ hX hK hI hb hθ hx h ih =>
    intro j hj
    rcases List.mem_cons.mp hj with rfl | hj
    · rw [hI]; exact hb
    · exact ih j hj

theorem gravIn_one : gravIn 1 = -gravAcc := by
  rw [gravIn, transpose_one, one_mulVec]
  funext i; fin_cases i <;> simp [join, gravAcc]

/-- Balance of energy of a robot on a fixed base whose z axis points up. -/
theorem fixed_balance {t : ℝ} {Js : ℝ → List Joint} {xs : List ℝ} (h : Moves t Js xs) :
    HasDerivAt (fun s => energy 0 ((Js s).zip ((Js s).map Joint.qd)) / 2 + grav * height 1 0 (Js s))
      (ldot ((Js t).map Joint.qd) (idFixed ((Js t).zip xs)) + power 0 ((Js t).zip ((Js t).map Joint.qd))) t := by
  have h1 := energy_deriv h (v := fun _ => 0) (a := 0) (VDeriv.const 0 t)
  have h2 := height_deriv h (R := fun _ => 1) (p := fun _ => 0) (ω := 0) (v := 0)
    (by have : (1 : M3) * cpm 0 = 0 := by
          rw [Matrix.one_mul]; ext i j; fin_cases i <;> fin_cases j <;> simp [cpm]
        rw [this]; exact MDeriv.const 1 t)
    (by rw [mulVec_zero]; exact VDeriv.const 0 t)
  refine ((h1.div_const 2).add h2).congr_deriv ?_
  have h3 := rnea_work (Js t) 0 gravAcc xs h.body h.length
  have h4 := work_sub (Js t) 0 0 (-gravAcc) xs h.length
  have hj : (join 0 0 : V6) = 0 := by funext i; fin_cases i <;> rfl
  rw [zero_sub, neg_neg] at h4
  rw [zero_dotProduct, zero_add, ← idFixed_eq, h4] at h3
  rw [h3, gravIn_one, hj]
  ring

/-- All branches move. -/
inductive MovesAll (t : ℝ) : (ℝ → List (List Joint)) → List (List ℝ) → Prop
  | nil : MovesAll t (fun _ => []) []
  | cons {Js : ℝ → List Joint} {Bs : ℝ → List (List Joint)} {xs : List ℝ} {xss : List (List ℝ)} (h : Moves t Js xs)
      (hs : MovesAll t Bs xss) : MovesAll t (fun s => Js s :: Bs s) (xs :: xss)

theorem MovesAll.length {t : ℝ} {Bs : ℝ → List (List Joint)} {xss : List (List ℝ)} (h : MovesAll t Bs xss) :
    xss.map List.length = (Bs t).map List.length := by
  induction h with
  | nil => rfl
  | cons h hs ih => simp only [List.map_cons, ih, h.length]

theorem MovesAll.body {t : ℝ} {Bs : ℝ → List (List Joint)} {xss : List (List ℝ)} (h : MovesAll t Bs xss) :
    ∀ br ∈ Bs t, ∀ j ∈ br, IsBody j.I := by
  induction h with
  | nil => simp
  | cons h hs ih =>
    intro br hbr
    rcases List.mem_cons.mp hbr with rfl | hbr
    · exact h.body
    · exact ih br hbr

theorem MovesAll.energy {t : ℝ} {Bs : ℝ → List (List Joint)} {xss : List (List ℝ)} (h : MovesAll t Bs xss) {v : ℝ → V6} {a : V6}
    (hv : VDeriv v a t) :
    HasDerivAt (fun s => ((List.zipWith List.zip (Bs s) ((Bs s).map (List.map Joint.qd))).map (Articulated.energy (v s))).sum)
      (2 * ((List.zipWith List.zip (Bs t) xss).map (work (v t) a)).sum) t := by
  induction h with
  | nil => simpa using hasDerivAt_const t (0 : ℝ)
  | cons h hs ih =>
    simp only [List.map_cons, List.zipWith_cons_cons, List.sum_cons]
    exact ((energy_deriv h hv).add ih).congr_deriv (by ring)

theorem MovesAll.height {t : ℝ} {Bs : ℝ → List (List Joint)} {xss : List (List ℝ)} (h : MovesAll t Bs xss) {R : ℝ → M3}
    {p : ℝ → V3} {ω v : V3} (hR : MDeriv R (R t * cpm ω) t) (hp : VDeriv p (R t *ᵥ v) t) :
    HasDerivAt (fun s => grav * ((Bs s).map (Articulated.height (R s) (p s))).sum)
      (-((Bs t).map (gpower (join ω v) (gravIn (R t)))).sum) t := by
  induction h with
  | nil => simpa using hasDerivAt_const t (0 : ℝ)
  | cons h hs ih =>
    simp only [List.map_cons, List.sum_cons, mul_add]
    exact ((height_deriv h hR hp).add ih).congr_deriv (by ring)

/-- Balance of energy of a robot with a floating base. -/
theorem float_balance {t : ℝ} {Bs : ℝ → List (List Joint)} {xss : List (List ℝ)} (h : MovesAll t Bs xss) {b : Base}
    (hI : IsBody b.I) {R : ℝ → M3} {p : ℝ → V3} {ω v : ℝ → V3} {acc : V6} (hb : b.v = join (ω t) (v t))
    (ha : VDeriv (fun s => join (ω s) (v s)) acc t)
    (hR : MDeriv R (R t * cpm (ω t)) t) (hp : VDeriv p (R t *ᵥ v t) t) :
    HasDerivAt (fun s => (join (ω s) (v s) ⬝ᵥ (b.I *ᵥ join (ω s) (v s))
          + ((List.zipWith List.zip (Bs s) ((Bs s).map (List.map Joint.qd))).map (energy (join (ω s) (v s)))).sum) / 2
        + grav * (lift (R s) (p s) b.I + ((Bs s).map (height (R s) (p s))).sum))
      (join (ω t) (v t) ⬝ᵥ (idFull b (gravIn (R t)) acc (List.zipWith List.zip (Bs t) xss)).1
        + (List.zipWith ldot ((Bs t).map (List.map Joint.qd)) (idFull b (gravIn (R t)) acc (List.zipWith List.zip (Bs t) xss)).2).sum
        + (join (ω t) (v t) ⬝ᵥ b.fext
          + ((List.zipWith List.zip (Bs t) ((Bs t).map (List.map Joint.qd))).map (power (join (ω t) (v t)))).sum)) t := by
  have h1 := ((quad_deriv hI.symm ha).add (h.energy ha)).div_const 2
  have h2 := (lift_deriv hR hp hI).add (h.height hR hp)
  have h3 := branches_work (join (ω t) (v t)) acc (gravIn (R t)) (Bs t) xss h.body h.length
  have h4 := bias_power hI (join (ω t) (v t))
  refine ((h1.add h2).congr_deriv ?_).congr_of_eventuallyEq (.of_forall fun s => ?_)
  · simp only [idFull, foldl_addF', hb, dotProduct_add, dotProduct_sub, mulVec_sub, h4]
    linarith
  · simp only [Pi.add_apply, mul_add]

/-- A joint in the description of which the angle enters only as a turn about the z axis. -/
theorem spin_of {X : ℝ → M6} {E : ℝ → M3} {o : V3} (h : ∀ θ, IsMotionX (X θ) (E θ) o) (hE : ∀ θ, E θ = tz θ * E 0) (θ : ℝ) :
    X θ = spin θ * X 0 := by
  rw [(h θ).eq, (spin_motion (h 0) θ).eq, hE θ]

theorem energy_free (v : V6) : ∀ (js : List Joint) (xs : List ℝ), energy v ((js.map Joint.free).zip xs) = energy v (js.zip xs) := by
  intro js
  induction js generalizing v with
  | nil => intro xs; rfl
  | cons j js ih =>
    intro xs
    cases xs with
    | nil => rfl
    | cons x xs =>
      show (j.X *ᵥ v + x • axisZ) ⬝ᵥ (j.I *ᵥ (j.X *ᵥ v + x • axisZ)) + energy (j.X *ᵥ v + x • axisZ) ((js.map Joint.free).zip xs) = _
      rw [ih]
      rfl

theorem height_free (js : List Joint) : ∀ (R : M3) (p : V3), height R p (js.map Joint.free) = height R p js := by
  induction js with
  | nil => intro R p; rfl
  | cons j js ih =>
    intro R p
    show lift (R * rotOf j.X) (p + R *ᵥ posOf j.X) j.I + height (R * rotOf j.X) (p + R *ᵥ posOf j.X) (js.map Joint.free) = _
    rw [ih]
    rfl

theorem energies_free (v : V6) : ∀ (brs : List (List Joint)) (xss : List (List ℝ)),
    (List.zipWith List.zip (brs.map (List.map Joint.free)) xss).map (energy v) = (List.zipWith List.zip brs xss).map (energy v) := by
  intro brs
  induction brs with
  | nil => intro xss; rfl
  | cons b brs ih =>
    intro xss
    cases xss with
    | nil => rfl
    | cons xs xss => simp only [List.map_cons, List.zipWith_cons_cons, ih, energy_free]

theorem heights_free (R : M3) (p : V3) (brs : List (List Joint)) :
    (brs.map (List.map Joint.free)).map (height R p) = brs.map (height R p) := by
  rw [List.map_map]
  exact List.map_congr_left fun b _ => height_free b R p

theorem line_deriv {ι : Type} (x a : ι → ℝ) : VDeriv (fun s => x + s • a) a 0 := by
  intro i
  simpa using ((hasDerivAt_id (0 : ℝ)).mul_const (a i)).const_add (x i)

/-- Motions through a state with given accelerations. -/
theorem line_motion {ι : Type} (q₀ qd₀ : ι → ℝ) (f : (ι → ℝ) → (ι → ℝ) → ι → ℝ) : ∃ q qd : ℝ → ι → ℝ, q 0 = q₀ ∧ qd 0 = qd₀ ∧
    VDeriv q (qd 0) 0 ∧ VDeriv qd (f (q 0) (qd 0)) 0 := by
  refine ⟨fun s => q₀ + s • qd₀, fun s => qd₀ + s • f q₀ qd₀, by simp, by simp, ?_, ?_⟩
  · simpa using line_deriv q₀ qd₀
  · simpa using line_deriv qd₀ (f q₀ qd₀)

theorem line_motion_float {ι : Type} (q₀ qd₀ : ι → ℝ) (R₀ : M3) (p₀ ω₀ v₀ : V3)
    (f : (ι → ℝ) → M3 → V3 → V3 → (ι → ℝ) → V6 × (ι → ℝ)) :
    ∃ (q qd : ℝ → ι → ℝ) (R : ℝ → M3) (p ω v : ℝ → V3), q 0 = q₀ ∧ qd 0 = qd₀ ∧ R 0 = R₀ ∧ p 0 = p₀ ∧ ω 0 = ω₀ ∧ v 0 = v₀ ∧
    VDeriv q (qd 0) 0 ∧ VDeriv qd (f (q 0) (R 0) (ω 0) (v 0) (qd 0)).2 0 ∧
    MDeriv R (R 0 * cpm (ω 0)) 0 ∧ VDeriv p (R 0 *ᵥ v 0) 0 ∧
    VDeriv (fun s => join (ω s) (v s)) (f (q 0) (R 0) (ω 0) (v 0) (qd 0)).1 0 := by
  obtain ⟨a, ha⟩ : ∃ a, f q₀ R₀ ω₀ v₀ qd₀ = a := ⟨_, rfl⟩
  obtain ⟨α, β, hab⟩ := join_surj a.1
  refine ⟨fun s => q₀ + s • qd₀, fun s => qd₀ + s • a.2, fun s => R₀ + s • (R₀ * cpm ω₀), fun s => p₀ + s • (R₀ *ᵥ v₀),
    fun s => ω₀ + s • α, fun s => v₀ + s • β, by simp, by simp, by simp, by simp, by simp, by simp, ?_, ?_, ?_, ?_, ?_⟩
  · simpa using line_deriv q₀ qd₀
  · simpa [ha] using line_deriv qd₀ a.2
  · intro i j
    simpa using line_deriv (R₀ i) ((R₀ * cpm ω₀) i) j
  · simpa using line_deriv p₀ (R₀ *ᵥ v₀)
  · have : (fun s : ℝ => join (ω₀ + s • α) (v₀ + s • β)) = fun s => join ω₀ v₀ + s • a.1 := by
      funext s i
      rw [hab]
      fin_cases i <;> simp [join]
    simpa [ha, this] using line_deriv (join ω₀ v₀) a.1

end CT.Articulated
