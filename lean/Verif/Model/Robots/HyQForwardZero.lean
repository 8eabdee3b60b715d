import Verif.Model.FloatingSystem
import Mathlib.Data.Fin.VecNotation

/-!
# The generated dynamics of HyQ and the system made of them

Models `ct_models/include/ct/models/HyQ/codegen/HyQContactModelForwardZeroSystem.h` and the first half of the function
`forwardZero` of `ct_models/include/ct/models/HyQ/codegen/HyQForwardZero.cpp`, statement by statement: `lN` is the value assigned
by line `N`.

Simplifications: scalars are real numbers and decimal fractions are written as fractions.  The array `v_` is replaced by the values
assigned to it; every element that is read in lines 16-55 has been assigned before in the same call.  Lines 56-1712, which compute
the accelerations (elements 18 to 35 of the result), are a parameter.
-/

namespace CT.Robots.HyQ.Zero

open CT.FloatSys CT.Robot

noncomputable section

/-- `v_[0]` (HyQForwardZero.cpp:16). -/
def l16 (x : Fin 49 → ℝ) : ℝ := 1 / Real.cos (x 1)

/-- `v_[1]` (HyQForwardZero.cpp:17). -/
def l17 (x : Fin 49 → ℝ) : ℝ := Real.cos (x 2)

/-- `v_[2]` (HyQForwardZero.cpp:18). -/
def l18 (x : Fin 49 → ℝ) : ℝ := 0 - l16 x

/-- `v_[3]` (HyQForwardZero.cpp:19). -/
def l19 (x : Fin 49 → ℝ) : ℝ := Real.sin (x 2)

/-- `forwardZero[0]` (HyQForwardZero.cpp:20). -/
def l20 (x : Fin 49 → ℝ) : ℝ := l16 x * l17 x * x 18 + l18 x * l19 x * x 19

/-- `forwardZero[1]` (HyQForwardZero.cpp:21). -/
def l21 (x : Fin 49 → ℝ) : ℝ := l19 x * x 18 + l17 x * x 19

/-- `v_[4]` (HyQForwardZero.cpp:22). -/
def l22 (x : Fin 49 → ℝ) : ℝ := Real.sin (x 1)

/-- `forwardZero[2]` (HyQForwardZero.cpp:23). -/
def l23 (x : Fin 49 → ℝ) : ℝ := x 20 + l16 x * l19 x * l22 x * x 19 + l18 x * l17 x * l22 x * x 18

/-- `v_[4]` (HyQForwardZero.cpp:24). -/
def l24 (x : Fin 49 → ℝ) : ℝ := (1 / 2) * x 0

/-- `v_[3]` (HyQForwardZero.cpp:25). -/
def l25 (x : Fin 49 → ℝ) : ℝ := Real.cos (l24 x)

/-- `v_[2]` (HyQForwardZero.cpp:26). -/
def l26 (x : Fin 49 → ℝ) : ℝ := (1 / 2) * x 1

/-- `v_[1]` (HyQForwardZero.cpp:27). -/
def l27 (x : Fin 49 → ℝ) : ℝ := Real.cos (l26 x)

/-- `v_[0]` (HyQForwardZero.cpp:28). -/
def l28 (x : Fin 49 → ℝ) : ℝ := l25 x * l27 x

/-- `v_[5]` (HyQForwardZero.cpp:29). -/
def l29 (x : Fin 49 → ℝ) : ℝ := (1 / 2) * x 2

/-- `v_[6]` (HyQForwardZero.cpp:30). -/
def l30 (x : Fin 49 → ℝ) : ℝ := Real.sin (l29 x)

/-- `v_[4]` (HyQForwardZero.cpp:31). -/
def l31 (x : Fin 49 → ℝ) : ℝ := Real.sin (l24 x)

/-- `v_[2]` (HyQForwardZero.cpp:32). -/
def l32 (x : Fin 49 → ℝ) : ℝ := Real.sin (l26 x)

/-- `v_[7]` (HyQForwardZero.cpp:33). -/
def l33 (x : Fin 49 → ℝ) : ℝ := l31 x * l32 x

/-- `v_[5]` (HyQForwardZero.cpp:34). -/
def l34 (x : Fin 49 → ℝ) : ℝ := Real.cos (l29 x)

/-- `v_[8]` (HyQForwardZero.cpp:35). -/
def l35 (x : Fin 49 → ℝ) : ℝ := l28 x * l30 x + l33 x * l34 x

/-- `v_[9]` (HyQForwardZero.cpp:36). -/
def l36 (x : Fin 49 → ℝ) : ℝ := 2 * l35 x

/-- `v_[1]` (HyQForwardZero.cpp:37). -/
def l37 (x : Fin 49 → ℝ) : ℝ := l31 x * l27 x

/-- `v_[2]` (HyQForwardZero.cpp:38). -/
def l38 (x : Fin 49 → ℝ) : ℝ := l25 x * l32 x

/-- `v_[10]` (HyQForwardZero.cpp:39). -/
def l39 (x : Fin 49 → ℝ) : ℝ := l37 x * l34 x + l38 x * l30 x

/-- `v_[11]` (HyQForwardZero.cpp:40). -/
def l40 (x : Fin 49 → ℝ) : ℝ := l36 x * l39 x

/-- `v_[2]` (HyQForwardZero.cpp:41). -/
def l41 (x : Fin 49 → ℝ) : ℝ := l38 x * l34 x - l37 x * l30 x

/-- `v_[1]` (HyQForwardZero.cpp:42). -/
def l42 (x : Fin 49 → ℝ) : ℝ := 2 * l41 x

/-- `v_[5]` (HyQForwardZero.cpp:43). -/
def l43 (x : Fin 49 → ℝ) : ℝ := l28 x * l34 x - l33 x * l30 x

/-- `v_[7]` (HyQForwardZero.cpp:44). -/
def l44 (x : Fin 49 → ℝ) : ℝ := l42 x * l43 x

/-- `v_[6]` (HyQForwardZero.cpp:45). -/
def l45 (x : Fin 49 → ℝ) : ℝ := l42 x * l39 x

/-- `v_[0]` (HyQForwardZero.cpp:46). -/
def l46 (x : Fin 49 → ℝ) : ℝ := l36 x * l43 x

/-- `v_[8]` (HyQForwardZero.cpp:47). -/
def l47 (x : Fin 49 → ℝ) : ℝ := l36 x * l35 x

/-- `v_[1]` (HyQForwardZero.cpp:48). -/
def l48 (x : Fin 49 → ℝ) : ℝ := l42 x * l41 x

/-- `forwardZero[3]` (HyQForwardZero.cpp:49). -/
def l49 (x : Fin 49 → ℝ) : ℝ := (l40 x + l44 x) * x 23 + (l45 x - l46 x) * x 22 + (1 - l47 x - l48 x) * x 21

/-- `v_[2]` (HyQForwardZero.cpp:50). -/
def l50 (x : Fin 49 → ℝ) : ℝ := l36 x * l41 x

/-- `v_[9]` (HyQForwardZero.cpp:51). -/
def l51 (x : Fin 49 → ℝ) : ℝ := 2 * l39 x

/-- `v_[5]` (HyQForwardZero.cpp:52). -/
def l52 (x : Fin 49 → ℝ) : ℝ := l51 x * l43 x

/-- `v_[9]` (HyQForwardZero.cpp:53). -/
def l53 (x : Fin 49 → ℝ) : ℝ := l51 x * l39 x

/-- `forwardZero[4]` (HyQForwardZero.cpp:54). -/
def l54 (x : Fin 49 → ℝ) : ℝ := (l50 x - l52 x) * x 23 + (1 - l47 x - l53 x) * x 22 + (l45 x + l46 x) * x 21

/-- `forwardZero[5]` (HyQForwardZero.cpp:55). -/
def l55 (x : Fin 49 → ℝ) : ℝ := (1 - l48 x - l53 x) * x 23 + (l50 x + l52 x) * x 22 + (l40 x - l44 x) * x 21

/-- Elements 0 to 17 of the result (HyQForwardZero.cpp:20-55, 1713-1724). -/
def kin (x : Fin 49 → ℝ) : Fin 18 → ℝ :=
  ![l20 x, l21 x, l23 x, l49 x, l54 x, l55 x, x 24, x 25, x 26, x 27, x 28, x 29, x 30, x 31, x 32, x 33, x 34, x 35]

/-- `forwardZero` (HyQForwardZero.cpp:12-1728); `acc` stands for lines 56-1712. -/
def forwardZero (acc : (Fin 49 → ℝ) → Fin 18 → ℝ) (x : Fin 49 → ℝ) : Fin 36 → ℝ :=
  fun i => if h : i.val < 18 then kin x ⟨i, h⟩ else acc x ⟨i - 18, by omega⟩

/-- `computePdot` (HyQContactModelForwardZeroSystem.h:48-58) with `RBDStateFromVector` (81-86) and `toStateDerivative` (76-79). -/
def pdot (kd : Kindr) (x v : List ℝ) : List ℝ :=
  let xl := x.take 18 ++ v
  let s := (RBD.blank 12 true).fromStateVectorEulerXyz kd.conv xl
  (Acc.zero.toEuler kd s).take 18

/-- `computeVdot` (HyQContactModelForwardZeroSystem.h:60-70). -/
def vdot (acc : (Fin 49 → ℝ) → Fin 18 → ℝ) (x p control : List ℝ) : List ℝ :=
  let xl := p ++ x.drop 18
  let xut := xl ++ control ++ [0]
  (List.ofFn (forwardZero acc fun i => xut.getD i 0)).drop 18

/-- `SymplecticSystem::computeControlledDynamics` (ct_core/.../systems/continuous_time/SymplecticSystem.h:68-80). -/
def dynamics (kd : Kindr) (acc : (Fin 49 → ℝ) → Fin 18 → ℝ) (x control : List ℝ) : List ℝ :=
  pdot kd x (x.drop 18) ++ vdot acc x (x.take 18) control

end

end CT.Robots.HyQ.Zero
