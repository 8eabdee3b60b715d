import Mathlib.LinearAlgebra.Matrix.Notation
import Mathlib.Data.Matrix.Mul
import Verif.Model.FrameJac

/-!
# Spatial algebra of the generated rigid-body code

Models the expressions shared by all generated robots:
`ct_rbd/include/ct/iit/rbd/robcogen_commons.h`, `ct_rbd/include/ct/iit/rbd/internals.h` and
`ct_rbd/include/ct/iit/rbd/InertiaMatrix.h`.

A spatial vector has its angular part in rows 0, 1, 2 (`AX`, `AY`, `AZ`) and its linear part in rows
3, 4, 5 (`LX`, `LY`, `LZ`) (ct_rbd/include/ct/iit/rbd/rbd.h:175).  Scalars are real numbers.  A function that fills a matrix it
is handed returns the new matrix; entries that are not assigned keep the values of the matrix handed in.
-/

namespace CT.Spatial

open Matrix FrameJac

abbrev V6 := Fin 6 → ℝ
abbrev M6 := Matrix (Fin 6) (Fin 6) ℝ

/-- `Mat3x3Coefficients` (internals.h:27-55). -/
structure C9 where
  XX : ℝ
  XY : ℝ
  XZ : ℝ
  YX : ℝ
  YY : ℝ
  YZ : ℝ
  ZX : ℝ
  ZY : ℝ
  ZZ : ℝ

/-- `SymmMat3x3Coefficients` (internals.h:62-96). -/
structure S6 where
  XX : ℝ
  XY : ℝ
  XZ : ℝ
  YY : ℝ
  YZ : ℝ
  ZZ : ℝ

/-- `vxIv` with a spatial velocity (robcogen_commons.h:57-114). -/
def vxIv (v : V6) (I : M6) : V6 :=
  let wx2 := v 0 * v 0
  let wy2 := v 1 * v 1
  let wz2 := v 2 * v 2
  let v_AXAY := v 0 * v 1
  let v_AXAZ := v 0 * v 2
  let v_AXLY := v 0 * v 4
  let v_AXLZ := v 0 * v 5
  let v_AYAZ := v 1 * v 2
  let v_AYLX := v 1 * v 3
  let v_AYLZ := v 1 * v 5
  let v_AZLX := v 2 * v 3
  let v_AZLY := v 2 * v 4
  let m := I 3 3
  let Iaa : S6 := ⟨I 0 0, I 0 1, I 0 2, I 1 1, I 1 2, I 2 2⟩
  let cmX := I 2 4
  let cmY := I 0 5
  let cmZ := I 1 3
  ![cmZ * (v_AXLZ - v_AZLX) + cmY * (v_AXLY - v_AYLX) + v_AYAZ * (Iaa.ZZ - Iaa.YY)
      - v_AXAZ * Iaa.XY - (wz2 - wy2) * Iaa.YZ + v_AXAY * Iaa.XZ,
    cmZ * (v_AYLZ - v_AZLY) - cmX * (v_AXLY - v_AYLX) - v_AXAZ * (Iaa.ZZ - Iaa.XX)
      + v_AYAZ * Iaa.XY - v_AXAY * Iaa.YZ + (wz2 - wx2) * Iaa.XZ,
    cmX * (v_AZLX - v_AXLZ) - cmY * (v_AYLZ - v_AZLY) + v_AXAY * (Iaa.YY - Iaa.XX)
      + v_AXAZ * Iaa.YZ - Iaa.XZ * v_AYAZ - (wy2 - wx2) * Iaa.XY,
    m * (v_AYLZ - v_AZLY) - cmX * (wz2 + wy2) + v_AXAZ * cmZ + v_AXAY * cmY,
    -m * (v_AXLZ - v_AZLX) - cmY * (wz2 + wx2) + v_AXAY * cmX + v_AYAZ * cmZ,
    m * (v_AXLY - v_AYLX) - cmZ * (wy2 + wx2) + v_AXAZ * cmX + v_AYAZ * cmY]

/-- `vxIv` with a rotation about the z axis (robcogen_commons.h:125-137). -/
def vxIvz (omegaz : ℝ) (I : M6) : V6 :=
  let wz2 := omegaz * omegaz
  ![-I 1 2 * wz2, I 0 1 * wz2, 0, I 1 5 * wz2, I 2 3 * wz2, 0]

/-- `motionCrossProductMx` (robcogen_commons.h:152-162); `z` is the matrix handed in. -/
def motionCrossProductMx (v : V6) (z : M6) : M6 :=
  !![z 0 0, -v 2, v 1, z 0 3, z 0 4, z 0 5;
     v 2, z 1 1, -v 0, z 1 3, z 1 4, z 1 5;
     -v 1, v 0, z 2 2, z 2 3, z 2 4, z 2 5;
     z 3 0, -v 5, v 4, z 3 3, -v 2, v 1;
     v 5, z 4 1, -v 3, v 2, z 4 4, -v 0;
     -v 4, v 3, z 5 2, -v 1, v 0, z 5 5]

/-- `forceCrossProductMx` (robcogen_commons.h:171-181). -/
def forceCrossProductMx (v : V6) (z : M6) : M6 :=
  !![z 0 0, -v 2, v 1, z 0 3, -v 5, v 4;
     v 2, z 1 1, -v 0, v 5, z 1 4, -v 3;
     -v 1, v 0, z 2 2, -v 4, v 3, z 2 5;
     z 3 0, z 3 1, z 3 2, z 3 3, -v 2, v 1;
     z 4 0, z 4 1, z 4 2, v 2, z 4 4, -v 0;
     z 5 0, z 5 1, z 5 2, -v 1, v 0, z 5 5]

/-- `fillInertia` (robcogen_commons.h:184-200). -/
def fillInertia (mass : ℝ) (com : V3) (I3 : S6) (z : M6) : M6 :=
  !![I3.XX, I3.XY, I3.XZ, z 0 3, -(mass * com 2), mass * com 1;
     I3.XY, I3.YY, I3.YZ, mass * com 2, z 1 4, -(mass * com 0);
     I3.XZ, I3.YZ, I3.ZZ, -(mass * com 1), mass * com 0, z 2 5;
     z 3 0, mass * com 2, -(mass * com 1), mass, z 3 4, z 3 5;
     -(mass * com 2), z 4 1, mass * com 0, z 4 3, mass, z 4 5;
     mass * com 1, -(mass * com 0), z 5 2, z 5 3, z 5 4, mass]

/-- `rot_symmetric_EAET` (internals.h:105-137). -/
def rotSymmetric (E : C9) (A : S6) : S6 :=
  let LXX := A.XX - A.ZZ
  let LXY := A.XY
  let LYY := A.YY - A.ZZ
  let LZX := 2 * A.XZ
  let LZY := 2 * A.YZ
  let yXX := E.YX * LXX + E.YY * LXY + E.YZ * LZX
  let yXY := E.YX * LXY + E.YY * LYY + E.YZ * LZY
  let yYX := E.ZX * LXX + E.ZY * LXY + E.ZZ * LZX
  let yYY := E.ZX * LXY + E.ZY * LYY + E.ZZ * LZY
  let v1 := -A.YZ
  let v2 := A.XZ
  let EvX := E.XX * v1 + E.XY * v2
  let EvY := E.YX * v1 + E.YY * v2
  let EvZ := E.ZX * v1 + E.ZY * v2
  let zYY := yXX * E.YX + yXY * E.YY
  let zZZ := yYX * E.ZX + yYY * E.ZY
  { XY := yXX * E.XX + yXY * E.XY + EvZ
    XZ := yYX * E.XX + yYY * E.XY - EvY
    YZ := yYX * E.YX + yYY * E.YY + EvX
    XX := LXX + LYY - zYY - zZZ + A.ZZ
    YY := zYY + A.ZZ
    ZZ := zZZ + A.ZZ }

/-- `rot_EAET` (internals.h:144-180). -/
def rotGeneral (E A : C9) : C9 :=
  let LXX := A.XX - A.ZZ
  let LXY := A.XY
  let LYX := A.YX
  let LYY := A.YY - A.ZZ
  let LZX := A.ZX + A.XZ
  let LZY := A.ZY + A.YZ
  let v1 := -A.YZ
  let v2 := A.XZ
  let EvX := E.XX * v1 + E.XY * v2
  let EvY := E.YX * v1 + E.YY * v2
  let EvZ := E.ZX * v1 + E.ZY * v2
  let yXX := E.XX * LXX + E.XY * LYX + E.XZ * LZX
  let yXY := E.XX * LXY + E.XY * LYY + E.XZ * LZY
  let yYX := E.YX * LXX + E.YY * LYX + E.YZ * LZX
  let yYY := E.YX * LXY + E.YY * LYY + E.YZ * LZY
  let yZX := E.ZX * LXX + E.ZY * LYX + E.ZZ * LZX
  let yZY := E.ZX * LXY + E.ZY * LYY + E.ZZ * LZY
  { XX := yXX * E.XX + yXY * E.XY + A.ZZ
    YY := yYX * E.YX + yYY * E.YY + A.ZZ
    ZZ := yZX * E.ZX + yZY * E.ZY + A.ZZ
    XY := yXX * E.YX + yXY * E.YY - EvZ
    YX := yYX * E.XX + yYY * E.XY + EvZ
    XZ := yXX * E.ZX + yXY * E.ZY + EvY
    ZX := yZX * E.XX + yZY * E.XY - EvY
    YZ := yYX * E.ZX + yYY * E.ZY - EvX
    ZY := yZX * E.YX + yZY * E.YY + EvX }

/-- `transformInertia` (robcogen_commons.h:217-286). -/
noncomputable def transformInertia (I_A XF z : M6) : M6 :=
  let E : C9 := ⟨XF 0 0, XF 0 1, XF 0 2, XF 1 0, XF 1 1, XF 1 2, XF 2 0, XF 2 1, XF 2 2⟩
  let mass := I_A 3 3
  let rx := E.XY * XF 0 5 + E.YY * XF 1 5 + E.ZY * XF 2 5
  let ry := E.XZ * XF 0 3 + E.YZ * XF 1 3 + E.ZZ * XF 2 3
  let rz := E.XX * XF 0 4 + E.YX * XF 1 4 + E.ZX * XF 2 4
  let comAx := I_A 2 4 / mass
  let comAy := I_A 0 5 / mass
  let comAz := I_A 1 3 / mass
  let p : V3 := ![comAx - rx, comAy - ry, comAz - rz]
  let cx2 := comAx * comAx
  let cy2 := comAy * comAy
  let cz2 := comAz * comAz
  let px2 := p 0 * p 0
  let py2 := p 1 * p 1
  let pz2 := p 2 * p 2
  let I_translated : S6 :=
    { XX := I_A 0 0 + mass * (py2 + pz2 - cy2 - cz2)
      YY := I_A 1 1 + mass * (px2 + pz2 - cx2 - cz2)
      ZZ := I_A 2 2 + mass * (px2 + py2 - cx2 - cy2)
      XY := I_A 0 1 + mass * (comAx * comAy - p 0 * p 1)
      XZ := I_A 0 2 + mass * (comAx * comAz - p 0 * p 2)
      YZ := I_A 1 2 + mass * (comAy * comAz - p 1 * p 2) }
  let I3x3_B := rotSymmetric E I_translated
  let p_B : V3 := ![E.XX * p 0 + E.XY * p 1 + E.XZ * p 2, E.YX * p 0 + E.YY * p 1 + E.YZ * p 2,
    E.ZX * p 0 + E.ZY * p 1 + E.ZZ * p 2]
  fillInertia mass p_B I3x3_B z

/-- The copying of the blocks at the end of `ctransform_Ia_revolute` and `ctransform_Ia_prismatic`
(robcogen_commons.h:392-397, 415-423, 427-432; 521-526, 546-554, 558-563): every entry is assigned. -/
def assembleIa (aux2 : S6) (aux3 : C9) (aux1 : S6) : M6 :=
  !![aux2.XX, aux2.XY, aux2.XZ, aux3.XX, aux3.XY, aux3.XZ;
     aux2.XY, aux2.YY, aux2.YZ, aux3.YX, aux3.YY, aux3.YZ;
     aux2.XZ, aux2.YZ, aux2.ZZ, aux3.ZX, aux3.ZY, aux3.ZZ;
     aux3.XX, aux3.YX, aux3.ZX, aux1.XX, aux1.XY, aux1.XZ;
     aux3.XY, aux3.YY, aux3.ZY, aux1.XY, aux1.YY, aux1.YZ;
     aux3.XZ, aux3.YZ, aux3.ZZ, aux1.XZ, aux1.YZ, aux1.ZZ]

/-- `ctransform_Ia_revolute` (robcogen_commons.h:314-434). -/
def ctransformIaRevolute (Ia XM : M6) : M6 :=
  let E : C9 := ⟨XM 0 0, XM 1 0, XM 2 0, XM 0 1, XM 1 1, XM 2 1, XM 0 2, XM 1 2, XM 2 2⟩
  let rx := E.XY * XM 5 0 + E.YY * XM 5 1 + E.ZY * XM 5 2
  let ry := E.XZ * XM 3 0 + E.YZ * XM 3 1 + E.ZZ * XM 3 2
  let rz := E.XX * XM 4 0 + E.YX * XM 4 1 + E.ZX * XM 4 2
  let C : C9 := ⟨Ia 0 3, Ia 0 4, Ia 0 5, Ia 1 3, Ia 1 4, Ia 1 5, 0, 0, 0⟩
  let a : S6 :=
    { XX := Ia 0 0 + 2 * C.XY * rz - 2 * C.XZ * ry
      YY := Ia 1 1 + 2 * C.YZ * rx - 2 * C.YX * rz
      ZZ := 0
      XY := Ia 0 1 + C.YY * rz - C.XX * rz - C.YZ * ry + C.XZ * rx
      XZ := C.XX * ry - C.XY * rx
      YZ := C.YX * ry - C.YY * rx }
  let M : S6 := ⟨Ia 3 3, Ia 3 4, Ia 3 5, Ia 4 4, Ia 4 5, Ia 5 5⟩
  let rxM : C9 :=
    { XX := rz * M.XY - ry * M.XZ
      YY := rx * M.YZ - rz * M.XY
      ZZ := ry * M.XZ - rx * M.YZ
      XY := rz * M.YY - ry * M.YZ
      YX := rx * M.XZ - rz * M.XX
      XZ := rz * M.YZ - ry * M.ZZ
      ZX := ry * M.XX - rx * M.XY
      YZ := rx * M.ZZ - rz * M.XZ
      ZY := ry * M.XY - rx * M.YY }
  let aux1 : S6 :=
    { XX := a.XX + (rxM.XY * rz - rxM.XZ * ry)
      YY := a.YY + (rxM.YZ * rx - rxM.YX * rz)
      ZZ := a.ZZ + (rxM.ZX * ry - rxM.ZY * rx)
      XY := a.XY + (rxM.XZ * rx - rxM.XX * rz)
      XZ := a.XZ + (rxM.XX * ry - rxM.XY * rx)
      YZ := a.YZ + (rxM.YX * ry - rxM.YY * rx) }
  let rxM' : C9 :=
    { XX := rxM.XX + C.XX
      XY := rxM.XY + C.XY
      XZ := rxM.XZ + C.XZ
      YX := rxM.YX + C.YX
      YY := rxM.YY + C.YY
      YZ := rxM.YZ + C.YZ
      ZX := rxM.ZX
      ZY := rxM.ZY
      ZZ := rxM.ZZ }
  assembleIa (rotSymmetric E aux1) (rotGeneral E rxM') (rotSymmetric E M)

/-- `ctransform_Ia_prismatic` (robcogen_commons.h:437-565). -/
def ctransformIaPrismatic (Ia XM : M6) : M6 :=
  let E : C9 := ⟨XM 0 0, XM 1 0, XM 2 0, XM 0 1, XM 1 1, XM 2 1, XM 0 2, XM 1 2, XM 2 2⟩
  let rx := E.XY * XM 5 0 + E.YY * XM 5 1 + E.ZY * XM 5 2
  let ry := E.XZ * XM 3 0 + E.YZ * XM 3 1 + E.ZZ * XM 3 2
  let rz := E.XX * XM 4 0 + E.YX * XM 4 1 + E.ZX * XM 4 2
  let C : C9 := ⟨Ia 0 3, Ia 0 4, 0, Ia 1 3, Ia 1 4, 0, Ia 2 3, Ia 2 4, 0⟩
  let a : S6 :=
    { XX := Ia 0 0 + 2 * C.XY * rz
      YY := Ia 1 1 - 2 * C.YX * rz
      ZZ := Ia 2 2 + 2 * C.ZX * ry - 2 * C.ZY * rx
      XY := Ia 0 1 + (C.YY - C.XX) * rz
      XZ := Ia 0 2 + C.ZY * rz + C.XX * ry - C.XY * rx
      YZ := Ia 1 2 - C.ZX * rz + C.YX * ry - C.YY * rx }
  let M : S6 := ⟨Ia 3 3, Ia 3 4, 0, Ia 4 4, 0, 0⟩
  let rxM : C9 :=
    { XX := rz * M.XY
      XY := rz * M.YY
      YX := -rz * M.XX
      YY := -rz * M.XY
      ZX := ry * M.XX - rx * M.XY
      ZY := ry * M.XY - rx * M.YY
      XZ := 0
      YZ := 0
      ZZ := 0 }
  let aux1 : S6 :=
    { XX := a.XX + rxM.XY * rz
      YY := a.YY + -rxM.YX * rz
      ZZ := a.ZZ + (rxM.ZX * ry - rxM.ZY * rx)
      XY := a.XY + -rxM.XX * rz
      XZ := a.XZ + (rxM.XX * ry - rxM.XY * rx)
      YZ := a.YZ + (rxM.YX * ry - rxM.YY * rx) }
  let rxM' : C9 :=
    { XX := rxM.XX + C.XX
      XY := rxM.XY + C.XY
      XZ := rxM.XZ
      YX := rxM.YX + C.YX
      YY := rxM.YY + C.YY
      YZ := rxM.YZ
      ZX := rxM.ZX + C.ZX
      ZY := rxM.ZY + C.ZY
      ZZ := rxM.ZZ }
  assembleIa (rotSymmetric E aux1) (rotGeneral E rxM') (rotSymmetric E M)

/-- `compute_Ia_revolute` (robcogen_commons.h:594-635). -/
noncomputable def computeIaRevolute (IA : M6) (U : V6) (D : ℝ) (z : M6) : M6 :=
  let UD_AX := U 0 / D
  let UD_AY := U 1 / D
  let UD_LX := U 3 / D
  let UD_LY := U 4 / D
  let UD_LZ := U 5 / D
  let XX := IA 0 0 - U 0 * UD_AX
  let XY := IA 0 1 - U 0 * UD_AY
  let X3 := IA 0 3 - U 0 * UD_LX
  let X4 := IA 0 4 - U 0 * UD_LY
  let X5 := IA 0 5 - U 0 * UD_LZ
  let YY := IA 1 1 - U 1 * UD_AY
  let Y3 := IA 1 3 - U 1 * UD_LX
  let Y4 := IA 1 4 - U 1 * UD_LY
  let Y5 := IA 1 5 - U 1 * UD_LZ
  let M33 := IA 3 3 - U 3 * UD_LX
  let M34 := IA 3 4 - U 3 * UD_LY
  let M35 := IA 3 5 - U 3 * UD_LZ
  let M44 := IA 4 4 - U 4 * UD_LY
  let M45 := IA 4 5 - U 4 * UD_LZ
  let M55 := IA 5 5 - U 5 * UD_LZ
  !![XX, XY, z 0 2, X3, X4, X5;
     XY, YY, z 1 2, Y3, Y4, Y5;
     z 2 0, z 2 1, z 2 2, z 2 3, z 2 4, z 2 5;
     X3, Y3, z 3 2, M33, M34, M35;
     X4, Y4, z 4 2, M34, M44, M45;
     X5, Y5, z 5 2, M35, M45, M55]

/-- `compute_Ia_prismatic` (robcogen_commons.h:638-682). -/
noncomputable def computeIaPrismatic (IA : M6) (U : V6) (D : ℝ) (z : M6) : M6 :=
  let UD_AX := U 0 / D
  let UD_AY := U 1 / D
  let UD_AZ := U 2 / D
  let UD_LX := U 3 / D
  let UD_LY := U 4 / D
  let XX := IA 0 0 - U 0 * UD_AX
  let XY := IA 0 1 - U 0 * UD_AY
  let XZ := IA 0 2 - U 0 * UD_AZ
  let X3 := IA 0 3 - U 0 * UD_LX
  let X4 := IA 0 4 - U 0 * UD_LY
  let YY := IA 1 1 - U 1 * UD_AY
  let YZ := IA 1 2 - U 1 * UD_AZ
  let Y3 := IA 1 3 - U 1 * UD_LX
  let Y4 := IA 1 4 - U 1 * UD_LY
  let ZZ := IA 2 2 - U 2 * UD_AZ
  let Z3 := IA 2 3 - U 2 * UD_LX
  let Z4 := IA 2 4 - U 2 * UD_LY
  let M33 := IA 3 3 - U 3 * UD_LX
  let M34 := IA 3 4 - U 3 * UD_LY
  let M44 := IA 4 4 - U 4 * UD_LY
  !![XX, XY, XZ, X3, X4, z 0 5;
     XY, YY, YZ, Y3, Y4, z 1 5;
     XZ, YZ, ZZ, Z3, Z4, z 2 5;
     X3, Y3, Z3, M33, M34, z 3 5;
     X4, Y4, Z4, M34, M44, z 4 5;
     z 5 0, z 5 1, z 5 2, z 5 3, z 5 4, z 5 5]

/-! ### The inertia matrix class (InertiaMatrix.h) -/

/-- `buildInertiaTensor` (utils.h:43-53). -/
def buildInertiaTensor (Ixx Iyy Izz Ixy Ixz Iyz : ℝ) : M3 :=
  !![Ixx, -Ixy, -Ixz; -Ixy, Iyy, -Iyz; -Ixz, -Iyz, Izz]

/-- Default construction: the entries that are always zero are set, the others are undetermined
(InertiaMatrix.h:160-162, 292-297); `junk` stands for them. -/
def Inertia.new (junk : M6) : M6 :=
  !![junk 0 0, junk 0 1, junk 0 2, 0, junk 0 4, junk 0 5;
     junk 1 0, junk 1 1, junk 1 2, junk 1 3, 0, junk 1 5;
     junk 2 0, junk 2 1, junk 2 2, junk 2 3, junk 2 4, 0;
     0, junk 3 1, junk 3 2, 0, 0, 0;
     junk 4 0, 0, junk 4 2, 0, 0, 0;
     junk 5 0, junk 5 1, 0, 0, 0, 0]

/-- `fill`, `set` (InertiaMatrix.h:178-182, 242-257). -/
def Inertia.fill (z : M6) (mass : ℝ) (com : V3) (tensor : M3) : M6 :=
  !![tensor 0 0, tensor 0 1, tensor 0 2, z 0 3, -(mass * com 2), mass * com 1;
     tensor 1 0, tensor 1 1, tensor 1 2, mass * com 2, z 1 4, -(mass * com 0);
     tensor 2 0, tensor 2 1, tensor 2 2, -(mass * com 1), mass * com 0, z 2 5;
     z 3 0, mass * com 2, -(mass * com 1), mass, z 3 4, z 3 5;
     -(mass * com 2), z 4 1, mass * com 0, z 4 3, mass, z 4 5;
     mass * com 1, -(mass * com 0), z 5 2, z 5 3, z 5 4, mass]

/-- `getMass` (InertiaMatrix.h:185-188). -/
def Inertia.getMass (I : M6) : ℝ := I 3 3

/-- `getCOM` (InertiaMatrix.h:191-197). -/
noncomputable def Inertia.getCOM (I : M6) : V3 := ![I 2 4 / I 3 3, I 0 5 / I 3 3, I 1 3 / I 3 3]

/-- `get3x3Tensor` (InertiaMatrix.h:200-203). -/
def Inertia.get3x3Tensor (I : M6) : M3 := !![I 0 0, I 0 1, I 0 2; I 1 0, I 1 1, I 1 2; I 2 0, I 2 1, I 2 2]

/-- `changeMass` (InertiaMatrix.h:206-212): the three angular rows are scaled, the lower left block is
the transpose of the upper right one, the diagonal of the lower right block is the new mass. -/
noncomputable def Inertia.changeMass (I : M6) (newMass : ℝ) : M6 :=
  let k := newMass / Inertia.getMass I
  !![I 0 0 * k, I 0 1 * k, I 0 2 * k, I 0 3 * k, I 0 4 * k, I 0 5 * k;
     I 1 0 * k, I 1 1 * k, I 1 2 * k, I 1 3 * k, I 1 4 * k, I 1 5 * k;
     I 2 0 * k, I 2 1 * k, I 2 2 * k, I 2 3 * k, I 2 4 * k, I 2 5 * k;
     I 0 3 * k, I 1 3 * k, I 2 3 * k, newMass, I 3 4, I 3 5;
     I 0 4 * k, I 1 4 * k, I 2 4 * k, I 4 3, newMass, I 4 5;
     I 0 5 * k, I 1 5 * k, I 2 5 * k, I 5 3, I 5 4, newMass]

/-- `setSkewSymmetricBlock` (InertiaMatrix.h:300-307); `z` is the block handed in. -/
def setSkewSymmetricBlock (v : V3) (z : M3) : M3 :=
  !![z 0 0, -v 2, v 1; v 2, z 1 1, -v 0; -v 1, v 0, z 2 2]

/-- `changeCOM` (InertiaMatrix.h:215-233). -/
noncomputable def Inertia.changeCOM (I : M6) (newcom : V3) : M6 :=
  let AL := setSkewSymmetricBlock (Inertia.getMass I • newcom)
    !![I 0 3, I 0 4, I 0 5; I 1 3, I 1 4, I 1 5; I 2 3, I 2 4, I 2 5]
  let LA : M3 := !![I 3 0, I 3 1, I 3 2; I 4 0, I 4 1, I 4 2; I 5 0, I 5 1, I 5 2]
  let AA := Inertia.get3x3Tensor I + (Inertia.getMass I)⁻¹ • (AL * ALᵀ - LAᵀ * LA)
  !![AA 0 0, AA 0 1, AA 0 2, AL 0 0, AL 0 1, AL 0 2;
     AA 1 0, AA 1 1, AA 1 2, AL 1 0, AL 1 1, AL 1 2;
     AA 2 0, AA 2 1, AA 2 2, AL 2 0, AL 2 1, AL 2 2;
     AL 0 0, AL 1 0, AL 2 0, I 3 3, I 3 4, I 3 5;
     AL 0 1, AL 1 1, AL 2 1, I 4 3, I 4 4, I 4 5;
     AL 0 2, AL 1 2, AL 2 2, I 5 3, I 5 4, I 5 5]

/-- `changeRotationalInertia` (InertiaMatrix.h:236-239). -/
def Inertia.changeRotationalInertia (I : M6) (tensor : M3) : M6 :=
  !![tensor 0 0, tensor 0 1, tensor 0 2, I 0 3, I 0 4, I 0 5;
     tensor 1 0, tensor 1 1, tensor 1 2, I 1 3, I 1 4, I 1 5;
     tensor 2 0, tensor 2 1, tensor 2 2, I 2 3, I 2 4, I 2 5;
     I 3 0, I 3 1, I 3 2, I 3 3, I 3 4, I 3 5;
     I 4 0, I 4 1, I 4 2, I 4 3, I 4 4, I 4 5;
     I 5 0, I 5 1, I 5 2, I 5 3, I 5 4, I 5 5]

/-- `operator+=` (InertiaMatrix.h:280-289). -/
def Inertia.addAssign (I J : M6) : M6 :=
  !![I 0 0 + J 0 0, I 0 1 + J 0 1, I 0 2 + J 0 2, I 0 3, -(I 3 1 + J 3 1), I 5 0 + J 5 0;
     I 1 0 + J 1 0, I 1 1 + J 1 1, I 1 2 + J 1 2, I 3 1 + J 3 1, I 1 4, -(I 4 2 + J 4 2);
     I 2 0 + J 2 0, I 2 1 + J 2 1, I 2 2 + J 2 2, -(I 5 0 + J 5 0), I 4 2 + J 4 2, I 2 5;
     I 3 0, I 3 1 + J 3 1, -(I 5 0 + J 5 0), I 5 5 + J 3 3, I 3 4, I 3 5;
     -(I 3 1 + J 3 1), I 4 1, I 4 2 + J 4 2, I 4 3, I 5 5 + J 3 3, I 4 5;
     I 5 0 + J 5 0, -(I 4 2 + J 4 2), I 5 2, I 5 3, I 5 4, I 5 5 + J 3 3]

/-- `operator=` (InertiaMatrix.h:261-276). -/
def Inertia.assign (I J : M6) : M6 :=
  !![J 0 0, J 0 1, J 0 2, I 0 3, -(J 3 1), J 5 0;
     J 1 0, J 1 1, J 1 2, J 3 1, I 1 4, -(J 4 2);
     J 2 0, J 2 1, J 2 2, -(J 5 0), J 4 2, I 2 5;
     I 3 0, J 3 1, -(J 5 0), J 3 3, I 3 4, I 3 5;
     -(J 3 1), I 4 1, J 4 2, I 4 3, J 3 3, I 4 5;
     J 5 0, -(J 4 2), I 5 2, I 5 3, I 5 4, J 3 3]

end CT.Spatial
