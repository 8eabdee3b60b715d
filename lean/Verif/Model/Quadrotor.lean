import Mathlib.Analysis.SpecialFunctions.Trigonometric.Basic
import Mathlib.Data.Matrix.Mul

/-!
# The quadrotor model

Models `ct_models/src/Quadrotor/quadrotor_ode.cpp`, `A_quadrotor.cpp`, `B_quadrotor.cpp` with the parameters of
`quadrotor_definitions/quadModelParameters.hpp`.  Scalars are the reals; the checks for numbers that are not finite
(quadrotor_ode.cpp:20-21) are left out.  Division by zero gives zero here.
-/

namespace CT.Quadrotor

/-- `mQ`, `Thxxyy`, `Thzz` (quadModelParameters.hpp:17-19). -/
noncomputable def mQ : ℝ := 546 / 1000
/-- See `mQ`. -/
noncomputable def Thxxyy : ℝ := 232 / 100000
/-- See `mQ`. -/
noncomputable def Thzz : ℝ := 3 / 10000

/-- `x.norm()`. -/
noncomputable def norm (x : Fin 12 → ℝ) : ℝ := Real.sqrt (∑ i, x i ^ 2)

/-- `quadrotor_ode` up to the final check (quadrotor_ode.cpp:18-83): positions, angles about x, y and z, and their rates;
force and moments. -/
noncomputable def odeFree (x : Fin 12 → ℝ) (u : Fin 4 → ℝ) : Fin 12 → ℝ :=
  let qph := x 3
  let qth := x 4
  let qps := x 5
  let dqxQ := x 6
  let dqyQ := x 7
  let dqzQ := x 8
  let dqph := x 9
  let dqth := x 10
  let dqps := x 11
  let Fz := u 0
  let Mx := u 1
  let My := u 2
  let Mz := u 3
  let t2 := 1 / mQ
  let t3 := Real.cos qth
  let t4 := Real.sin qth
  let t5 := 1 / Thxxyy
  let t6 := Real.cos qps
  let t7 := Real.sin qps
  let t8 := dqph * dqph
  let t9 := qth * 2
  let t10 := Real.sin t9
  let t11 := 1 / t3
  let t12 := Thzz * Thzz
  let t13 := t3 * t3
  ![dqxQ, dqyQ, dqzQ, dqph, dqth, dqps,
    Fz * t2 * t4,
    -Fz * t2 * t3 * Real.sin qph,
    t2 * (mQ * 981 - Fz * t3 * Real.cos qph * 100) * (-1 / 100),
    -t5 * t11 * (-Mx * t6 + My * t7 + Thzz * dqps * dqth - Thxxyy * dqph * dqth * t4 * 2 + Thzz * dqph * dqth * t4),
    t5 * (Mx * t7 + My * t6 - Thxxyy * t8 * t10 * (1 / 2) + Thzz * t8 * t10 * (1 / 2) + Thzz * dqph * dqps * t3),
    (t5 * t11 * (Mz * Thxxyy * t3 + dqph * dqth * t12 - dqph * dqth * t12 * t13 + dqps * dqth * t4 * t12 -
      Thxxyy * Thzz * dqph * dqth * 2 - Mx * Thzz * t4 * t6 + My * Thzz * t4 * t7 + Thxxyy * Thzz * dqph * dqth * t13)) / Thzz]

/-- `quadrotor_ode` (quadrotor_ode.cpp:18-91): zero for very large states. -/
noncomputable def ode (x : Fin 12 → ℝ) (u : Fin 4 → ℝ) : Fin 12 → ℝ :=
  open Classical in if norm x > 10 ^ 20 then 0 else odeFree x u

/-- `A_quadrotor` (A_quadrotor.cpp:14-89), which `QuadrotorLinear::getDerivativeState` returns (QuadrotorLinear.hpp:26-32): the
entries that are assigned, zero otherwise. -/
noncomputable def A (x : Fin 12 → ℝ) (u : Fin 4 → ℝ) : Matrix (Fin 12) (Fin 12) ℝ :=
  let qph := x 3
  let qth := x 4
  let qps := x 5
  let dqph := x 9
  let dqth := x 10
  let dqps := x 11
  let Fz := u 0
  let Mx := u 1
  let My := u 2
  let t2 := 1 / mQ
  let t3 := Real.cos qth
  let t4 := Real.sin qph
  let t5 := Real.cos qph
  let t6 := Real.sin qth
  let t7 := 1 / Thxxyy
  let t8 := Real.cos qps
  let t9 := Real.sin qps
  let t10 := 1 / t3
  let t11 := Thxxyy * 2
  let t12 := Thzz - t11
  let t13 := qth * 2
  let t14 := Real.cos t13
  let t15 := My * t9
  let t16 := Real.sin t13
  let t17 := 1 / (t3 * t3)
  let t18 := qth * 3
  let t19 := Real.sin t18
  let t20 := My * t8
  let t21 := Mx * t9
  let t22 := t20 + t21
  let t23 := t3 * t3
  let t24 := t6 * t6
  let t25 := Thzz * dqps * t6
  Matrix.of fun i j =>
    if i = 0 ∧ j = 6 then 1
    else if i = 1 ∧ j = 7 then 1
    else if i = 2 ∧ j = 8 then 1
    else if i = 3 ∧ j = 9 then 1
    else if i = 4 ∧ j = 10 then 1
    else if i = 5 ∧ j = 11 then 1
    else if i = 6 ∧ j = 4 then Fz * t2 * t3
    else if i = 7 ∧ j = 3 then -Fz * t2 * t3 * t5
    else if i = 7 ∧ j = 4 then Fz * t2 * t4 * t6
    else if i = 8 ∧ j = 3 then -Fz * t2 * t3 * t4
    else if i = 8 ∧ j = 4 then -Fz * t2 * t5 * t6
    else if i = 9 ∧ j = 4 then
      -t6 * t7 * t17 * (t15 - Mx * t8 + Thzz * dqps * dqth - Thxxyy * dqph * dqth * t6 * 2 + Thzz * dqph * dqth * t6) -
        dqph * dqth * t7 * t12
    else if i = 9 ∧ j = 5 then -t7 * t10 * t22
    else if i = 9 ∧ j = 9 then -dqth * t6 * t7 * t10 * t12
    else if i = 9 ∧ j = 10 then -t7 * t10 * (Thzz * dqps - Thxxyy * dqph * t6 * 2 + Thzz * dqph * t6)
    else if i = 9 ∧ j = 11 then -Thzz * dqth * t7 * t10
    else if i = 10 ∧ j = 4 then -dqph * t7 * (t25 + Thxxyy * dqph * t14 - Thzz * dqph * t14)
    else if i = 10 ∧ j = 5 then -t7 * (t15 - Mx * t8)
    else if i = 10 ∧ j = 9 then t7 * (-Thxxyy * dqph * t16 + Thzz * dqps * t3 + Thzz * dqph * t16)
    else if i = 10 ∧ j = 11 then Thzz * dqph * t3 * t7
    else if i = 11 ∧ j = 4 then
      t7 * t17 * (Mx * t8 * -4 + My * t9 * 4 + Thzz * dqps * dqth * 4 - Thxxyy * dqph * dqth * t6 * 9 -
        Thxxyy * dqph * dqth * t19 + Thzz * dqph * dqth * t6 * 5 + Thzz * dqph * dqth * t19) * (1 / 4)
    else if i = 11 ∧ j = 5 then t6 * t7 * t10 * t22
    else if i = 11 ∧ j = 9 then dqth * t7 * t10 * (Thzz - t11 + Thxxyy * t23 - Thzz * t23)
    else if i = 11 ∧ j = 10 then t7 * t10 * (t25 - Thxxyy * dqph - Thxxyy * dqph * t24 + Thzz * dqph * t24)
    else if i = 11 ∧ j = 11 then Thzz * dqth * t6 * t7 * t10
    else 0

/-- `B_quadrotor` (B_quadrotor.cpp:15-46), which `QuadrotorLinear::getDerivativeControl` returns (QuadrotorLinear.hpp:34-40). -/
noncomputable def B (x : Fin 12 → ℝ) (_u : Fin 4 → ℝ) : Matrix (Fin 12) (Fin 4) ℝ :=
  let qph := x 3
  let qth := x 4
  let qps := x 5
  let t2 := 1 / mQ
  let t3 := Real.cos qth
  let t4 := 1 / Thxxyy
  let t5 := 1 / t3
  let t6 := Real.sin qps
  let t7 := Real.cos qps
  let t8 := Real.sin qth
  Matrix.of fun i j =>
    if i = 6 ∧ j = 0 then t2 * t8
    else if i = 7 ∧ j = 0 then -t2 * t3 * Real.sin qph
    else if i = 8 ∧ j = 0 then t2 * t3 * Real.cos qph
    else if i = 9 ∧ j = 1 then t4 * t5 * t7
    else if i = 9 ∧ j = 2 then -t4 * t5 * t6
    else if i = 10 ∧ j = 1 then t4 * t6
    else if i = 10 ∧ j = 2 then t4 * t7
    else if i = 11 ∧ j = 1 then -t4 * t5 * t7 * t8
    else if i = 11 ∧ j = 2 then t4 * t5 * t6 * t8
    else if i = 11 ∧ j = 3 then 1 / Thzz
    else 0

end CT.Quadrotor
