import Mathlib.Analysis.SpecialFunctions.Trigonometric.Deriv
import Mathlib.Tactic.Ring
import Mathlib.Tactic.LinearCombination
import Mathlib.Tactic.FieldSimp
import Mathlib.Tactic.NormNum
import Verif.Model.GenKin

/-!
# Deciding equations between expressions of the generated kinematics

`eqE vs a b` brings the difference of two expressions in the joints `vs` to a normal form, using
`sin² + cos² = 1`, and compares it with zero.  `eqE_sound`: then the values are equal at all joint positions.
`E.D` is the formal derivative.
-/

namespace CT.GenKin

/-- The decimal number `(p - m) / 10 ^ e`. -/
structure Dec where
  p : Nat
  m : Nat
  e : Nat

noncomputable def Dec.val (d : Dec) : ℝ := ((d.p : ℝ) - d.m) / 10 ^ d.e

def Dec.add : Dec → Dec → Dec
  | ⟨p, m, e⟩, ⟨p', m', e'⟩ =>
    bif Nat.beq e e' then ⟨Nat.add p p', Nat.add m m', e⟩ else
    bif Nat.ble e e' then ⟨p * 10 ^ (e' - e) + p', m * 10 ^ (e' - e) + m', e'⟩
    else ⟨p + p' * 10 ^ (e - e'), m + m' * 10 ^ (e - e'), e⟩

def Dec.mul : Dec → Dec → Dec
  | ⟨p, m, e⟩, ⟨p', m', e'⟩ =>
    ⟨Nat.add (Nat.mul p p') (Nat.mul m m'), Nat.add (Nat.mul p m') (Nat.mul m p'), Nat.add e e'⟩

def Dec.neg : Dec → Dec
  | ⟨p, m, e⟩ => ⟨m, p, e⟩

theorem Dec.val_add (a b : Dec) : (a.add b).val = a.val + b.val := by
  obtain ⟨p, m, e⟩ := a
  obtain ⟨p', m', e'⟩ := b
  rw [Dec.add]
  cases h : Nat.beq e e' with
  | true =>
    obtain rfl := Nat.eq_of_beq_eq_true h
    simp only [cond_true, Dec.val, Nat.add_eq, Nat.cast_add]
    ring
  | false =>
    rw [cond_false]
    cases h' : Nat.ble e e' with
    | true =>
      obtain ⟨d, rfl⟩ := Nat.exists_eq_add_of_le (Nat.le_of_ble_eq_true h')
      simp only [cond_true, Dec.val, Nat.add_sub_cancel_left, Nat.cast_add, Nat.cast_mul, Nat.cast_pow, Nat.cast_ofNat, pow_add]
      field_simp
      ring
    | false =>
      have h'' : e' ≤ e := by
        by_contra hc
        rw [Nat.ble_eq_true_of_le (by omega : e ≤ e')] at h'
        exact absurd h' (by simp)
      obtain ⟨d, rfl⟩ := Nat.exists_eq_add_of_le h''
      simp only [cond_false, Dec.val, Nat.add_sub_cancel_left, Nat.cast_add, Nat.cast_mul, Nat.cast_pow, Nat.cast_ofNat, pow_add]
      field_simp
      ring

theorem Dec.val_mul (a b : Dec) : (a.mul b).val = a.val * b.val := by
  obtain ⟨p, m, e⟩ := a
  obtain ⟨p', m', e'⟩ := b
  simp only [Dec.mul, Dec.val, Nat.add_eq, Nat.mul_eq, Nat.cast_add, Nat.cast_mul, pow_add]
  field_simp
  ring

theorem Dec.val_neg (a : Dec) : (a.neg).val = -a.val := by
  obtain ⟨p, m, e⟩ := a
  simp only [Dec.neg, Dec.val]
  ring

theorem Dec.val_zero (d : Dec) (h : Nat.beq d.p d.m = true) : d.val = 0 := by
  rw [Dec.val, Nat.eq_of_beq_eq_true h, sub_self, zero_div]

/-- Polynomials in the sines and cosines of the joints in the list, modulo `s² + c² = 1`: a list of
coefficients `a + b s` of the powers of `c` for the first joint, where `a` and `b` are polynomials in the
others. -/
def P : List ℕ → Type
  | [] => Dec
  | _ :: vs => List (P vs × P vs)

def zipAdd {α : Type} (f : α → α → α) : List α → List α → List α
  | [], b => b
  | a, [] => a
  | x :: a, y :: b => f x y :: zipAdd f a b

namespace P

def zero : (vs : List ℕ) → P vs
  | [] => ⟨0, 0, 0⟩
  | _ :: _ => []

def add : (vs : List ℕ) → P vs → P vs → P vs
  | [] => Dec.add
  | _ :: vs => zipAdd fun x y => (add vs x.1 y.1, add vs x.2 y.2)

def neg : (vs : List ℕ) → P vs → P vs
  | [] => Dec.neg
  | _ :: vs => List.map fun x => (neg vs x.1, neg vs x.2)

def isZero : (vs : List ℕ) → P vs → Bool
  | [] => fun a => Nat.beq a.p a.m
  | _ :: vs => fun l => List.all l fun x => isZero vs x.1 && isZero vs x.2

/-- Product of `a + b s` and a polynomial. -/
def scale {α : Type} (z : α) (addL : List (α × α) → List (α × α) → List (α × α)) (pr : α × α → α × α → List (α × α))
    (x : α × α) : List (α × α) → List (α × α)
  | [] => []
  | y :: b => addL (pr x y) ((z, z) :: scale z addL pr x b)

def conv {α : Type} (z : α) (addL : List (α × α) → List (α × α) → List (α × α)) (pr : α × α → α × α → List (α × α)) :
    List (α × α) → List (α × α) → List (α × α)
  | [], _ => []
  | x :: a, b => addL (scale z addL pr x b) ((z, z) :: conv z addL pr a b)

def mul : (vs : List ℕ) → P vs → P vs → P vs
  | [] => Dec.mul
  | v :: vs => fun a b => match a, b with
    | [], _ => []
    | _ :: _, [] => []
    | w :: a', y :: b' => conv (zero vs) (add (v :: vs)) (fun x y =>
      let bb := mul vs x.2 y.2
      bif isZero vs bb then [(mul vs x.1 y.1, add vs (mul vs x.1 y.2) (mul vs x.2 y.1))]
      else [(add vs (mul vs x.1 y.1) bb, add vs (mul vs x.1 y.2) (mul vs x.2 y.1)), (zero vs, zero vs),
        (neg vs bb, zero vs)]) (w :: a') (y :: b')

def const : (vs : List ℕ) → Dec → P vs
  | [], d => d
  | _ :: vs, d => bif Nat.beq d.p d.m then [] else [(const vs d, zero vs)]

def sin : (vs : List ℕ) → ℕ → P vs
  | [], _ => ⟨0, 0, 0⟩
  | v :: vs, j => bif Nat.beq j v then [(zero vs, const vs ⟨1, 0, 0⟩)] else [(sin vs j, zero vs)]

def cos : (vs : List ℕ) → ℕ → P vs
  | [], _ => ⟨0, 0, 0⟩
  | v :: vs, j => bif Nat.beq j v then [(zero vs, zero vs), (const vs ⟨1, 0, 0⟩, zero vs)] else [(cos vs j, zero vs)]

/-! ### Values -/

/-- The value of a list of coefficients. -/
def evL {α : Type} (f : α → ℝ) (s c : ℝ) : List (α × α) → ℝ
  | [] => 0
  | x :: l => (f x.1 + f x.2 * s) + c * evL f s c l

noncomputable def ev (q : ℕ → ℝ) : (vs : List ℕ) → P vs → ℝ
  | [] => Dec.val
  | v :: vs => evL (ev q vs) (Real.sin (q v)) (Real.cos (q v))

variable (q : ℕ → ℝ)

theorem ev_zero (vs : List ℕ) : ev q vs (zero vs) = 0 := by
  cases vs with
  | nil => simp [ev, zero, Dec.val]
  | cons v vs => rfl

theorem evL_zipAdd {α : Type} {f : α → ℝ} {g : α × α → α × α → α × α} (s c : ℝ)
    (h : ∀ x y, f (g x y).1 + f (g x y).2 * s = (f x.1 + f x.2 * s) + (f y.1 + f y.2 * s)) :
    ∀ a b : List (α × α), evL f s c (zipAdd g a b) = evL f s c a + evL f s c b
  | [], b => by cases b <;> simp [zipAdd, evL]
  | x :: a, [] => by simp [zipAdd, evL]
  | x :: a, y :: b => by
    rw [zipAdd, evL, h, evL_zipAdd s c h a b, evL, evL]
    ring

theorem ev_add : ∀ (vs : List ℕ) (a b : P vs), ev q vs (add vs a b) = ev q vs a + ev q vs b
  | [], a, b => Dec.val_add a b
  | v :: vs, a, b => by
    refine evL_zipAdd _ _ (fun x y => ?_) a b
    simp only [ev_add vs]
    ring

theorem ev_neg : ∀ (vs : List ℕ) (a : P vs), ev q vs (neg vs a) = -ev q vs a
  | [], a => Dec.val_neg a
  | v :: vs, a => by
    have h : ∀ l : List (P vs × P vs), evL (ev q vs) (Real.sin (q v)) (Real.cos (q v))
        (l.map fun x => (neg vs x.1, neg vs x.2)) = -evL (ev q vs) (Real.sin (q v)) (Real.cos (q v)) l := by
      intro l
      induction l with
      | nil => simp [evL]
      | cons x l ih => rw [List.map_cons, evL, ih, evL, ev_neg vs, ev_neg vs]; ring
    exact h a

theorem ev_isZero : ∀ (vs : List ℕ) (a : P vs), isZero vs a = true → ev q vs a = 0
  | [], a, h => Dec.val_zero a h
  | v :: vs, a, h => by
    have h' : ∀ l : List (P vs × P vs), (l.all fun x => isZero vs x.1 && isZero vs x.2) = true →
        evL (ev q vs) (Real.sin (q v)) (Real.cos (q v)) l = 0 := by
      intro l
      induction l with
      | nil => intro _; rfl
      | cons x l ih =>
        intro hl
        rw [List.all_cons, Bool.and_eq_true, Bool.and_eq_true] at hl
        rw [evL, ih hl.2, ev_isZero vs _ hl.1.1, ev_isZero vs _ hl.1.2]
        ring
    exact h' a h

theorem evL_scale {α : Type} {f : α → ℝ} {z : α} {addL : List (α × α) → List (α × α) → List (α × α)}
    {pr : α × α → α × α → List (α × α)} (s c : ℝ) (hz : f z = 0)
    (hadd : ∀ a b, evL f s c (addL a b) = evL f s c a + evL f s c b)
    (hpr : ∀ x y, evL f s c (pr x y) = (f x.1 + f x.2 * s) * (f y.1 + f y.2 * s)) (x : α × α) :
    ∀ b, evL f s c (scale z addL pr x b) = (f x.1 + f x.2 * s) * evL f s c b
  | [] => by simp [scale, evL]
  | y :: b => by
    rw [scale, hadd, hpr, evL, evL_scale s c hz hadd hpr x b, evL, hz]
    ring

theorem evL_conv {α : Type} {f : α → ℝ} {z : α} {addL : List (α × α) → List (α × α) → List (α × α)}
    {pr : α × α → α × α → List (α × α)} (s c : ℝ) (hz : f z = 0)
    (hadd : ∀ a b, evL f s c (addL a b) = evL f s c a + evL f s c b)
    (hpr : ∀ x y, evL f s c (pr x y) = (f x.1 + f x.2 * s) * (f y.1 + f y.2 * s)) :
    ∀ a b, evL f s c (conv z addL pr a b) = evL f s c a * evL f s c b
  | [], b => by simp [conv, evL]
  | x :: a, b => by
    rw [conv, hadd, evL_scale s c hz hadd hpr, evL, evL_conv s c hz hadd hpr a b, evL, hz]
    ring

theorem ev_mul : ∀ (vs : List ℕ) (a b : P vs), ev q vs (mul vs a b) = ev q vs a * ev q vs b
  | [], a, b => Dec.val_mul a b
  | v :: vs, [], b => by
    show evL _ _ _ [] = evL _ _ _ [] * _
    simp [evL]
  | v :: vs, x :: a, [] => by
    show evL _ _ _ [] = _ * evL _ _ _ []
    simp [evL]
  | v :: vs, w :: a, y :: b => by
    refine evL_conv _ _ (ev_zero q vs) (fun a b => ev_add q (v :: vs) a b) (fun x y => ?_) (w :: a) (y :: b)
    have hsc := Real.sin_sq_add_cos_sq (q v)
    dsimp only
    cases h : isZero vs (mul vs x.2 y.2) with
    | true =>
      have h' := ev_isZero q vs _ h
      rw [ev_mul vs] at h'
      simp only [cond_true, evL, ev_add, ev_mul vs]
      linear_combination (-Real.sin (q v) ^ 2) * h'
    | false =>
      simp only [cond_false, evL, ev_add, ev_mul vs, ev_neg, ev_zero]
      linear_combination (-(ev q vs x.2 * ev q vs y.2)) * hsc

theorem ev_const : ∀ (vs : List ℕ) (d : Dec), ev q vs (const vs d) = d.val
  | [], d => rfl
  | v :: vs, d => by
    rw [const]
    cases h : Nat.beq d.p d.m with
    | true => rw [Dec.val_zero d h]; rfl
    | false =>
      show evL _ _ _ [(const vs d, zero vs)] = _
      simp only [evL, ev_const vs, ev_zero]
      ring

theorem ev_sin : ∀ (vs : List ℕ) (j : ℕ), vs.any (Nat.beq j) = true → ev q vs (sin vs j) = Real.sin (q j)
  | [], j, h => by simp at h
  | v :: vs, j, h => by
    rw [sin]
    cases h' : Nat.beq j v with
    | true =>
      obtain rfl := Nat.eq_of_beq_eq_true h'
      show evL _ _ _ [(zero vs, const vs ⟨1, 0, 0⟩)] = _
      simp only [evL, ev_const, ev_zero, Dec.val]
      norm_num
    | false =>
      rw [List.any_cons, h', Bool.false_or] at h
      show evL _ _ _ [(sin vs j, zero vs)] = _
      simp only [evL, ev_sin vs j h, ev_zero]
      ring

theorem ev_cos : ∀ (vs : List ℕ) (j : ℕ), vs.any (Nat.beq j) = true → ev q vs (cos vs j) = Real.cos (q j)
  | [], j, h => by simp at h
  | v :: vs, j, h => by
    rw [cos]
    cases h' : Nat.beq j v with
    | true =>
      obtain rfl := Nat.eq_of_beq_eq_true h'
      show evL _ _ _ [(zero vs, zero vs), (const vs ⟨1, 0, 0⟩, zero vs)] = _
      simp only [evL, ev_const, ev_zero, Dec.val]
      norm_num
    | false =>
      rw [List.any_cons, h', Bool.false_or] at h
      show evL _ _ _ [(cos vs j, zero vs)] = _
      simp only [evL, ev_cos vs j h, ev_zero]
      ring

end P

/-- A decimal number of the code. -/
def decOf : Int → Nat → Dec
  | .ofNat m, e => ⟨m, 0, e⟩
  | .negSucc m, e => ⟨0, m + 1, e⟩

theorem decOf_val (m : Int) (e : Nat) : (decOf m e).val = (m : ℝ) / 10 ^ e := by
  cases m with
  | ofNat m => simp [decOf, Dec.val]
  | negSucc m => simp [decOf, Dec.val, Int.negSucc_eq]

def E.poly (vs : List ℕ) : E → P vs
  | .k m e => P.const vs (decOf m e)
  | .s j => P.sin vs j
  | .c j => P.cos vs j
  | .add a b => P.add vs (a.poly vs) (b.poly vs)
  | .sub a b => P.add vs (a.poly vs) (P.neg vs (b.poly vs))
  | .mul a b => P.mul vs (a.poly vs) (b.poly vs)
  | .neg a => P.neg vs (a.poly vs)

/-- Only the joints in the list occur. -/
def E.within (vs : List ℕ) : E → Bool
  | .k _ _ => true
  | .s j => vs.any (Nat.beq j)
  | .c j => vs.any (Nat.beq j)
  | .add a b => a.within vs && b.within vs
  | .sub a b => a.within vs && b.within vs
  | .mul a b => a.within vs && b.within vs
  | .neg a => a.within vs

theorem E.poly_eval (q : ℕ → ℝ) (vs : List ℕ) : ∀ e : E, e.within vs = true → P.ev q vs (e.poly vs) = e.eval q
  | .k m e, _ => by rw [E.poly, P.ev_const, decOf_val, E.eval]
  | .s j, h => P.ev_sin q vs j h
  | .c j, h => P.ev_cos q vs j h
  | .add a b, h => by
    rw [E.within, Bool.and_eq_true] at h
    rw [E.poly, P.ev_add, E.poly_eval q vs a h.1, E.poly_eval q vs b h.2, E.eval]
  | .sub a b, h => by
    rw [E.within, Bool.and_eq_true] at h
    rw [E.poly, P.ev_add, P.ev_neg, E.poly_eval q vs a h.1, E.poly_eval q vs b h.2, E.eval]
    ring
  | .mul a b, h => by
    rw [E.within, Bool.and_eq_true] at h
    rw [E.poly, P.ev_mul, E.poly_eval q vs a h.1, E.poly_eval q vs b h.2, E.eval]
  | .neg a, h => by rw [E.poly, P.ev_neg, E.poly_eval q vs a h, E.eval]

/-- The same expression. -/
def E.same : E → E → Bool
  | .k m e, .k m' e' => (match m, m' with
    | .ofNat m, .ofNat m' => Nat.beq m m'
    | .negSucc m, .negSucc m' => Nat.beq m m'
    | _, _ => false) && Nat.beq e e'
  | .s j, .s j' => Nat.beq j j'
  | .c j, .c j' => Nat.beq j j'
  | .add a b, .add a' b' => a.same a' && b.same b'
  | .sub a b, .sub a' b' => a.same a' && b.same b'
  | .mul a b, .mul a' b' => a.same a' && b.same b'
  | .neg a, .neg a' => a.same a'
  | _, _ => false

theorem E.same_eq : ∀ {a b : E}, a.same b = true → a = b
  | .k m e, b, h => by
    cases b <;> simp only [E.same, Bool.false_eq_true] at h
    case k m' e' =>
      rw [Bool.and_eq_true] at h
      cases m <;> cases m' <;> simp only [Bool.false_eq_true, false_and] at h <;>
        rw [Nat.eq_of_beq_eq_true h.1, Nat.eq_of_beq_eq_true h.2]
  | .s j, b, h => by
    cases b <;> simp only [E.same, Bool.false_eq_true] at h
    rw [Nat.eq_of_beq_eq_true h]
  | .c j, b, h => by
    cases b <;> simp only [E.same, Bool.false_eq_true] at h
    rw [Nat.eq_of_beq_eq_true h]
  | .add a b, d, h => by
    cases d <;> simp only [E.same, Bool.false_eq_true] at h
    rw [Bool.and_eq_true] at h
    rw [same_eq h.1, same_eq h.2]
  | .sub a b, d, h => by
    cases d <;> simp only [E.same, Bool.false_eq_true] at h
    rw [Bool.and_eq_true] at h
    rw [same_eq h.1, same_eq h.2]
  | .mul a b, d, h => by
    cases d <;> simp only [E.same, Bool.false_eq_true] at h
    rw [Bool.and_eq_true] at h
    rw [same_eq h.1, same_eq h.2]
  | .neg a, d, h => by
    cases d <;> simp only [E.same, Bool.false_eq_true] at h
    rw [same_eq h]

/-- The expressions are equal modulo `sin² + cos² = 1`. -/
def eqE (vs : List ℕ) (a b : E) : Bool :=
  bif a.same b then true
  else a.within vs && b.within vs && P.isZero vs (P.add vs (a.poly vs) (P.neg vs (b.poly vs)))

theorem eqE_sound {vs : List ℕ} {a b : E} (h : eqE vs a b = true) (q : ℕ → ℝ) : a.eval q = b.eval q := by
  rw [eqE] at h
  cases hs : a.same b with
  | true => rw [E.same_eq hs]
  | false =>
  rw [hs, cond_false, Bool.and_eq_true, Bool.and_eq_true] at h
  have h1 := P.ev_isZero q vs _ h.2
  rw [P.ev_add, P.ev_neg, E.poly_eval q vs a h.1.1, E.poly_eval q vs b h.1.2] at h1
  linarith

/-! ### Derivatives -/

/-- The derivative with respect to a joint position. -/
def E.D (i : ℕ) : E → E
  | .k _ _ => .k 0 0
  | .s j => bif Nat.beq i j then .c j else .k 0 0
  | .c j => bif Nat.beq i j then .neg (.s j) else .k 0 0
  | .add a b => .add (a.D i) (b.D i)
  | .sub a b => .sub (a.D i) (b.D i)
  | .mul a b => .add (.mul (a.D i) b) (.mul a (b.D i))
  | .neg a => .neg (a.D i)

/-- The rate of change of an expression along a motion with the joint velocities `qd`. -/
noncomputable def E.rate (vs : List ℕ) (q qd : ℕ → ℝ) (e : E) : ℝ := (vs.map fun j => (e.D j).eval q * qd j).sum

theorem sum_add (l : List ℕ) (f g : ℕ → ℝ) : (l.map fun j => f j + g j).sum = (l.map f).sum + (l.map g).sum := by
  induction l with
  | nil => simp
  | cons x l ih => simp only [List.map_cons, List.sum_cons, ih]; ring

theorem sum_mul (l : List ℕ) (f : ℕ → ℝ) (a : ℝ) : (l.map fun j => a * f j).sum = a * (l.map f).sum := by
  induction l with
  | nil => simp
  | cons x l ih => simp only [List.map_cons, List.sum_cons, ih]; ring

theorem sum_single (q qd : ℕ → ℝ) (a : E) : ∀ (vs : List ℕ) (j : ℕ), vs.Nodup → vs.any (Nat.beq j) = true →
    (vs.map fun i => (bif Nat.beq i j then a else E.k 0 0).eval q * qd i).sum = a.eval q * qd j
  | [], j, _, h => by simp at h
  | v :: vs, j, hn, h => by
    rw [List.map_cons, List.sum_cons]
    by_cases hj : v = j
    · subst hj
      rw [Nat.beq_refl, cond_true]
      have h0 : ∀ i ∈ vs, (bif Nat.beq i v then a else E.k 0 0).eval q * qd i = 0 := by
        intro i hi
        have h1 : Nat.beq i v = false := by
          cases h2 : Nat.beq i v with
          | false => rfl
          | true => exact absurd (Nat.eq_of_beq_eq_true h2 ▸ hi) (List.nodup_cons.1 hn).1
        simp [h1, E.eval]
      rw [List.map_congr_left h0]
      simp
    · have h1 : Nat.beq v j = false := by
        cases h2 : Nat.beq v j with
        | false => rfl
        | true => exact absurd (Nat.eq_of_beq_eq_true h2) hj
      have h2 : Nat.beq j v = false := by
        cases h2 : Nat.beq j v with
        | false => rfl
        | true => exact absurd (Nat.eq_of_beq_eq_true h2).symm hj
      rw [List.any_cons, h2, Bool.false_or] at h
      rw [h1, cond_false, sum_single q qd a vs j (List.nodup_cons.1 hn).2 h]
      simp [E.eval]

theorem E.hasDerivAt {vs : List ℕ} (hn : vs.Nodup) {q : ℝ → ℕ → ℝ} {qd : ℕ → ℝ} {t : ℝ}
    (h : ∀ j, HasDerivAt (fun s => q s j) (qd j) t) :
    ∀ e : E, e.within vs = true → HasDerivAt (fun s => e.eval (q s)) (e.rate vs (q t) qd) t
  | .k m e, _ => by
    have h0 : (E.k m e).rate vs (q t) qd = 0 := by simp [E.rate, E.D, E.eval]
    rw [h0]
    exact hasDerivAt_const t _
  | .s j, hw => by
    have h0 : (E.s j).rate vs (q t) qd = Real.cos (q t j) * qd j := sum_single (q t) qd (.c j) vs j hn hw
    rw [h0]
    exact (h j).sin
  | .c j, hw => by
    have h0 : (E.c j).rate vs (q t) qd = -Real.sin (q t j) * qd j := sum_single (q t) qd (.neg (.s j)) vs j hn hw
    rw [h0]
    exact (h j).cos
  | .add a b, hw => by
    rw [E.within, Bool.and_eq_true] at hw
    refine ((E.hasDerivAt hn h a hw.1).add (E.hasDerivAt hn h b hw.2)).congr_deriv ?_
    rw [E.rate, E.rate, E.rate, ← sum_add]
    simp only [E.D, E.eval, add_mul]
  | .sub a b, hw => by
    rw [E.within, Bool.and_eq_true] at hw
    refine ((E.hasDerivAt hn h a hw.1).sub (E.hasDerivAt hn h b hw.2)).congr_deriv ?_
    rw [E.rate, E.rate, E.rate, sub_eq_add_neg, ← neg_one_mul, ← sum_mul, ← sum_add]
    congr 1
    refine List.map_congr_left fun j _ => ?_
    simp only [E.D, E.eval]
    ring
  | .mul a b, hw => by
    rw [E.within, Bool.and_eq_true] at hw
    refine ((E.hasDerivAt hn h a hw.1).mul (E.hasDerivAt hn h b hw.2)).congr_deriv ?_
    rw [E.rate, E.rate, E.rate, mul_comm (List.sum _) (b.eval (q t)), ← sum_mul, ← sum_mul, ← sum_add]
    congr 1
    refine List.map_congr_left fun j _ => ?_
    simp only [E.D, E.eval]
    ring
  | .neg a, hw => by
    refine (E.hasDerivAt hn h a hw).neg.congr_deriv ?_
    rw [E.rate, E.rate, ← neg_one_mul, ← sum_mul]
    congr 1
    refine List.map_congr_left fun j _ => ?_
    simp only [E.D, E.eval]
    ring

end CT.GenKin
