import Verif.Model.Contact
import Verif.Props.DmsVector
import Mathlib.Tactic.Linarith
import Mathlib.Tactic.Ring
import Mathlib.Tactic.NormNum
import Mathlib.Tactic.FieldSimp
import Mathlib.Tactic.Positivity

/-! # Property C64: contact forces -/

namespace CT.Contact

variable {S : Type} {nEE : ℕ}

/-! ### Specification -/

/-- Share of the damper force acting at height `z` (class documentation, EEContactModel.h:44-56; without
smoothing the damper acts in contact only). -/
noncomputable def share (sm : Smoothing) (alpha z : ℝ) : ℝ :=
  match sm with
  | .NONE => 1
  | .SIGMOID | .TANH => 1 / (1 + Real.exp (z * alpha))
  | .ABS => 1 / 2 - 1 / 2 * (z * alpha / (1 + |z * alpha|))
  | .other => 0

open Classical in
/-- Force of the normal spring at height `h` above the contact plane. -/
noncomputable def spring (k alpha_n h : ℝ) : ℝ :=
  if 0 < alpha_n then k * Real.exp (-alpha_n * h) else if h ≤ 0 then -k * h else 0

/-- The documented force: damper force, smoothed, plus the spring along the normal. -/
noncomputable def force (c : Model S nEE) (z : ℝ) (v : Vec) : Vec :=
  ⟨-c.d * v.x * share c.smoothing c.alpha z, -c.d * v.y * share c.smoothing c.alpha z,
    -c.d * v.z * share c.smoothing c.alpha z + spring c.k c.alpha_n (z - c.zOffset)⟩

theorem tanh_sigmoid (x : ℝ) : 0.5 * Real.tanh (-0.5 * x) + 0.5 = 1 / (1 + Real.exp x) := by
  rw [Real.tanh_eq_sinh_div_cosh, Real.sinh_eq, Real.cosh_eq]
  have h1 : Real.exp x = Real.exp (-(-0.5 * x)) * Real.exp (-(-0.5 * x)) := by
    rw [← Real.exp_add]; congr 1; ring
  have h2 : Real.exp (-0.5 * x) * Real.exp (-(-0.5 * x)) = 1 := by
    rw [← Real.exp_add]; simp
  rw [h1]
  have p1 := Real.exp_pos (-0.5 * x)
  have p2 := Real.exp_pos (-(-0.5 * x))
  set a := Real.exp (-0.5 * x)
  set b := Real.exp (-(-0.5 * x))
  have h3 : a + b ≠ 0 := by positivity
  have h4 : 1 + b * b ≠ 0 := by positivity
  field_simp
  nlinarith

theorem computeEEForce_eq (c : Model S nEE) (hs : c.smoothing ≠ .other) (pen v : Vec) :
    c.computeEEForce pen v = .ok (force c pen.z v) := by
  unfold Model.computeEEForce Model.smoothEEForce Model.computeDamperForce force
  have hsp : ∀ (f : Vec) (h : ℝ), c.computeNormalSpring f h = ⟨f.x, f.y, f.z + spring c.k c.alpha_n h⟩ := by
    intro f h
    unfold Model.computeNormalSpring spring
    split
    · rfl
    · split
      · simp only [Vec.mk.injEq, true_and]; ring
      · simp
  cases hc : c.smoothing
  · simp only [Res.ok_bind, hsp, share, mul_one]
  · simp only [Res.ok_bind, hsp, share, Vec.scale]
  · have : -0.5 * pen.z * c.alpha = -0.5 * (pen.z * c.alpha) := by ring
    simp only [Res.ok_bind, hsp, share, Vec.scale, this, tanh_sigmoid]
  · have : 0.5 * -pen.z * c.alpha / (1 + |-pen.z * c.alpha|) + 0.5
        = 1 / 2 - 1 / 2 * (pen.z * c.alpha / (1 + |pen.z * c.alpha|)) := by
      rw [show -pen.z * c.alpha = -(pen.z * c.alpha) by ring, abs_neg]
      ring
    simp only [Res.ok_bind, hsp, share, Vec.scale, this]
  · exact absurd hc hs

/-- All forces, entry by entry. -/
theorem computeContactForces_eq (c : Model S nEE) (hs : c.smoothing ≠ .other) (junk : Fin nEE → Vec) (s : S) :
    c.computeContactForces junk s = .ok ((List.finRange nEE).map fun i => if c.active i = true then
      (if c.eeInContact (c.computePenetration i s) = true then force c (c.position i s).z (c.velocity i s)
        else Vec.zero) else junk i) := by
  refine CT.Dms.mapM_ok _ _ _ fun i _ => ?_
  simp only
  split
  · split
    · rw [computeEEForce_eq c hs]; rfl
    · rfl
  · rfl

/-- C64 (partial): with a defined smoothing type, the call returns one force per end effector. An active end
effector receives zero force if no smoothing is selected and it is above height zero, and the documented
force otherwise; the force depends on the state through its height and velocity only.

Missing for the full statement: inactive end effectors receive whatever the array held, and the contact test
ignores the offset of the plane, see `C64_inactive_violated` and `C64_offset_violated`. -/
theorem C64_force_partial (c : Model S nEE) (junk : Fin nEE → Vec) (s : S) (hs : c.smoothing ≠ .other) :
    ∃ F, c.computeContactForces junk s = .ok F ∧ F.length = nEE ∧ ∀ i : Fin nEE, c.active i = true →
      (c.smoothing = .NONE ∧ 0 < (c.position i s).z → F[(i : ℕ)]? = some Vec.zero) ∧
      (¬ (c.smoothing = .NONE ∧ 0 < (c.position i s).z) →
        F[(i : ℕ)]? = some (force c (c.position i s).z (c.velocity i s))) := by
  refine ⟨_, computeContactForces_eq c hs junk s, by simp, fun i hi => ⟨fun h => ?_, fun h => ?_⟩⟩
  · simp [hi, Model.eeInContact, Model.computePenetration, h]
  · have : c.eeInContact (c.computePenetration i s) = true := by
      unfold Model.eeInContact
      rw [if_neg]
      exact h
    simp [hi, this]

/-- C64: activation: exactly as in `C64_force_partial` for every end effector activated by `setActiveEE`, whatever was active before. -/
theorem C64_set_active_partial (c : Model S nEE) (a : Fin nEE → Bool) (junk : Fin nEE → Vec) (s : S) (hs : c.smoothing ≠ .other) :
    ∃ F, (c.setActiveEE a).computeContactForces junk s = .ok F ∧ F.length = nEE ∧ ∀ i : Fin nEE, a i = true →
      (c.smoothing = .NONE ∧ 0 < (c.position i s).z → F[(i : ℕ)]? = some Vec.zero) ∧
      (¬ (c.smoothing = .NONE ∧ 0 < (c.position i s).z) →
        F[(i : ℕ)]? = some (force c (c.position i s).z (c.velocity i s))) :=
  C64_force_partial (c.setActiveEE a) junk s hs

/-- C64: an undefined smoothing type is reported as soon as an active end effector needs it. -/
theorem C64_undefined_smoothing (c : Model S nEE) (junk : Fin nEE → Vec) (s : S) (hs : c.smoothing = .other) :
    c.computeContactForces junk s = .exc ↔ ∃ i, c.active i = true := by
  have hcon : ∀ p, c.eeInContact p = true := by
    intro p
    unfold Model.eeInContact
    rw [if_neg]
    rw [hs]
    rintro ⟨h, -⟩
    cases h
  have hexc : ∀ p v, c.computeEEForce p v = .exc := by
    intro p v
    simp [Model.computeEEForce, Model.smoothEEForce, hs]
  have key : ∀ l : List (Fin nEE), (l.mapM fun i =>
      if c.active i = true then
        let pen := c.computePenetration i s
        if c.eeInContact pen = true then c.computeEEForce pen (c.velocity i s) else .ok Vec.zero
      else .ok (junk i)) = (.exc : Res (List Vec)) ↔ ∃ i ∈ l, c.active i = true := by
    intro l
    induction l with
    | nil => simp [Res.pure_eq]
    | cons a l ih =>
      rw [List.mapM_cons]
      by_cases ha : c.active a = true
      · simp [ha, hcon, hexc]
      · simp only [ha, Bool.false_eq_true, if_false, Res.ok_bind, List.mem_cons, exists_eq_or_imp, false_or]
        rw [← ih]
        cases (l.mapM fun i =>
          if c.active i = true then
            let pen := c.computePenetration i s
            if c.eeInContact pen = true then c.computeEEForce pen (c.velocity i s) else .ok Vec.zero
          else .ok (junk i)) <;> simp [Res.pure_eq]
  unfold Model.computeContactForces
  rw [key]
  simp

/-- C64: the spring never pulls: its force is non-negative, zero above the plane without normal smoothing,
positive below it, and does not increase with the height. -/
theorem C64_spring (k alpha_n h : ℝ) (hk : 0 < k) :
    0 ≤ spring k alpha_n h ∧ (h < 0 → 0 < spring k alpha_n h) ∧ (alpha_n ≤ 0 → 0 < h → spring k alpha_n h = 0) ∧
    ∀ h', h ≤ h' → spring k alpha_n h' ≤ spring k alpha_n h := by
  unfold spring
  by_cases ha : 0 < alpha_n
  · simp only [if_pos ha]
    have p := mul_pos hk (Real.exp_pos (-alpha_n * h))
    refine ⟨p.le, fun _ => p, fun h' => absurd ha (not_lt.2 h'), fun h' hh => ?_⟩
    refine mul_le_mul_of_nonneg_left (Real.exp_le_exp.2 ?_) hk.le
    nlinarith
  · simp only [if_neg ha]
    by_cases hh : h ≤ 0
    · rw [if_pos hh]
      refine ⟨by nlinarith, fun h0 => by nlinarith, fun _ h0 => absurd hh (not_le.2 h0), fun h' hle => ?_⟩
      split
      · nlinarith
      · nlinarith
    · rw [if_neg hh]
      refine ⟨le_rfl, fun h0 => absurd h0.le hh, fun _ _ => rfl, fun h' hle => ?_⟩
      rw [if_neg (by linarith)]

/-- C64: without damping, an active end effector is pushed along the normal only and never pulled. -/
theorem C64_no_pull (c : Model S nEE) (hd : c.d = 0) (hk : 0 < c.k) (z : ℝ) (v : Vec) :
    (force c z v).x = 0 ∧ (force c z v).y = 0 ∧ 0 ≤ (force c z v).z ∧
    (z < c.zOffset → 0 < (force c z v).z) ∧ (c.alpha_n ≤ 0 → c.zOffset < z → (force c z v).z = 0) := by
  obtain ⟨h1, h2, h3, -⟩ := C64_spring c.k c.alpha_n (z - c.zOffset) hk
  simp only [force, hd]
  refine ⟨by simp, by simp, by simpa using h1, fun h => ?_, fun ha h => ?_⟩
  · have := h2 (by linarith)
    simpa using this
  · have := h3 ha (by linarith)
    simpa using this

/-- C64: every smoothing gives a share between zero and one that does not increase with the height. -/
theorem C64_share (sm : Smoothing) (hs : sm ≠ .other) (alpha : ℝ) (ha : 0 ≤ alpha) (z : ℝ) :
    0 < share sm alpha z ∧ share sm alpha z ≤ 1 ∧ ∀ z', z ≤ z' → share sm alpha z' ≤ share sm alpha z := by
  have sig : 0 < 1 / (1 + Real.exp (z * alpha)) ∧ 1 / (1 + Real.exp (z * alpha)) ≤ 1 ∧
      ∀ z', z ≤ z' → 1 / (1 + Real.exp (z' * alpha)) ≤ 1 / (1 + Real.exp (z * alpha)) := by
    have p := Real.exp_pos (z * alpha)
    refine ⟨by positivity, ?_, fun z' hz => ?_⟩
    · rw [div_le_one (by positivity)]; linarith
    · refine one_div_le_one_div_of_le (by positivity) ?_
      have := Real.exp_le_exp.2 (mul_le_mul_of_nonneg_right hz ha)
      linarith
  cases sm
  · exact ⟨one_pos, le_rfl, fun _ _ => le_rfl⟩
  · exact sig
  · exact sig
  · simp only [share]
    have bd : ∀ a : ℝ, -1 < a / (1 + |a|) ∧ a / (1 + |a|) < 1 := by
      intro a
      have h0 : 0 < 1 + |a| := by positivity
      have h1 := neg_abs_le a
      have h2 := le_abs_self a
      rw [lt_div_iff₀ h0, div_lt_one h0]
      constructor <;> linarith
    refine ⟨by linarith [(bd (z * alpha)).2], by linarith [(bd (z * alpha)).1], fun z' hz => ?_⟩
    have hm : z * alpha ≤ z' * alpha := mul_le_mul_of_nonneg_right hz ha
    have key : z * alpha / (1 + |z * alpha|) ≤ z' * alpha / (1 + |z' * alpha|) := by
      set a := z * alpha
      set b := z' * alpha
      rw [div_le_div_iff₀ (by positivity) (by positivity)]
      rcases abs_cases a with ⟨e1, _⟩ | ⟨e1, _⟩ <;> rcases abs_cases b with ⟨e2, _⟩ | ⟨e2, _⟩ <;> rw [e1, e2] <;> nlinarith
    linarith
  · exact absurd rfl hs

/-- C64: the damper never drives the end effector: for a non-negative coefficient its power is not positive. -/
theorem C64_dissipates (c : Model S nEE) (hd : 0 ≤ c.d) (hs : c.smoothing ≠ .other) (ha : 0 ≤ c.alpha) (z : ℝ) (v : Vec) :
    (force c z v).x * v.x + (force c z v).y * v.y
      + ((force c z v).z - spring c.k c.alpha_n (z - c.zOffset)) * v.z ≤ 0 := by
  obtain ⟨h1, -, -⟩ := C64_share c.smoothing hs c.alpha ha z
  simp only [force]
  have : 0 ≤ c.d * share c.smoothing c.alpha z * (v.x * v.x + v.y * v.y + v.z * v.z) := by
    have := mul_self_nonneg v.x
    have := mul_self_nonneg v.y
    have := mul_self_nonneg v.z
    positivity
  nlinarith

/-- C64 is violated: an inactive end effector receives whatever the array of forces held, so that the same
call on the same state can return different forces. -/
theorem C64_inactive_violated (c : Model S nEE) (hs : c.smoothing ≠ .other) (s : S) (i : Fin nEE)
    (hi : c.active i = false) (f : Vec) :
    ∃ junk F, c.computeContactForces junk s = .ok F ∧ F[(i : ℕ)]? = some f := by
  exact ⟨fun _ => f, _, computeContactForces_eq c hs _ s, by simp [hi]⟩

/-- C64 is violated: with a contact plane at a positive height and no smoothing, an end effector below the
plane but above height zero receives no force, although the documented force is positive; with the plane
below zero, an end effector above the plane is braked by the damper. -/
theorem C64_offset_violated :
    (∃ c : Model Unit 1, c.smoothing = .NONE ∧ c.active 0 = true ∧ (c.position 0 ()).z < c.zOffset ∧
      0 < (force c (c.position 0 ()).z (c.velocity 0 ())).z ∧
      ∀ junk, c.computeContactForces junk () = .ok [Vec.zero]) ∧
    (∃ c : Model Unit 1, c.smoothing = .NONE ∧ c.active 0 = true ∧ c.zOffset < (c.position 0 ()).z ∧
      ∀ junk, ∃ f : Vec, f.z < 0 ∧ c.computeContactForces junk () = .ok [f]) := by
  constructor
  · refine ⟨Model.new (fun _ _ => ⟨0, 0, 1⟩) (fun _ _ => ⟨0, 0, 0⟩) 1 1 1 (-1) 2 .NONE, rfl, rfl, ?_, ?_, fun junk => ?_⟩
    · norm_num [Model.new]
    · norm_num [Model.new, force, spring, share]
    · simp [Model.new, Model.computeContactForces, Model.eeInContact, Model.computePenetration, List.finRange,
        Res.pure_eq]
  · refine ⟨Model.new (fun _ _ => ⟨0, 0, -1⟩) (fun _ _ => ⟨0, 0, 1⟩) 1 1 1 (-1) (-2) .NONE, rfl, rfl, ?_, fun junk => ?_⟩
    · norm_num [Model.new]
    · refine ⟨⟨0, 0, -1⟩, by norm_num, ?_⟩
      have h : ¬ ((-1 : ℝ) + 2 ≤ 0) := by norm_num
      simp [Model.new, Model.computeContactForces, Model.eeInContact, Model.computePenetration, List.finRange,
        Res.pure_eq, Model.computeEEForce, Model.smoothEEForce, Model.computeDamperForce,
        Model.computeNormalSpring, h]

/-- The defaults meet the hypotheses of the theorems on defined smoothing types. -/
example (p v : Fin 2 → Unit → Vec) : (Model.default p v).smoothing ≠ .other ∧ 0 < (Model.default p v).k ∧
    0 ≤ (Model.default p v).d ∧ 0 ≤ (Model.default p v).alpha ∧ (Model.default p v).active 1 = true := by
  refine ⟨?_, ?_, ?_, ?_, rfl⟩ <;> simp [Model.default, Model.new]

/-- The hypothesis of `C64_inactive_violated` is met after `setActiveEE`. -/
example (p v : Fin 2 → Unit → Vec) : ((Model.default p v).setActiveEE ![true, false]).active 1 = false := rfl

end CT.Contact
