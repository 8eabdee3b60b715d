import Mathlib.Data.Matrix.Mul
import Mathlib.LinearAlgebra.Matrix.NonsingularInverse
import Verif.Model.Spatial

/-!
# Generated rigid-body dynamics, in recursive form

Every robot in ct_models comes with generated code for forward dynamics (`forward_dynamics.impl.h`), inverse
dynamics (`inverse_dynamics.impl.h`) and the joint space inertia matrix (`jsim.impl.h`).  The generated code
repeats one block of statements per link.  This file has each block once, in recursions over the list of
links of a branch; `Verif.Model.Robots.*` has the statements of each robot one after the other as they are in
the sources, and `Verif.Props.Robots.*` shows that they compute the same.

The line numbers cited here are those of `ct_models/include/ct/models/HyA/generated` for robots on a fixed
base and of `ct_models/include/ct/models/QuadrotorWithLoad/generated` for robots with a floating base.

All joints of the robots in ct_models are revolute about the z axis of the link.

Simplifications: scalars are real numbers.  Members that only carry values from one pass to the next
(`U`, `D`, `u`, `c`, `v`) are computed again where they are read.  The entries of the members `vcross` and
`Ia_r` that no statement writes are the zeros of the constructor.
-/

namespace CT.Articulated

open Matrix Spatial

/-- One link with the joint that carries it: `X` is the motion transform from the parent to the link
(`fr_<link>_X_fr_<parent>`), `XF` the force transform from the link to the parent (`fr_<parent>_X_fr_<link>`),
`I` the spatial inertia, `fext` the external force on the link and `qd` the velocity of the joint. -/
structure Joint where
  X : M6
  XF : M6
  I : M6
  fext : V6
  qd : ℝ

/-- `a(AZ) += x`. -/
def bump (a : V6) (x : ℝ) : V6 := Function.update a 2 (a 2 + x)

/-- The velocity of a link (HyA forward_dynamics.impl.h:66-67, inverse_dynamics.impl.h:140-141). -/
def Joint.vel (j : Joint) (v : V6) : V6 := bump (j.X *ᵥ v) j.qd

/-- The velocity-product acceleration (HyA forward_dynamics.impl.h:70-71). -/
def Joint.cor (j : Joint) (v : V6) : V6 := fun i => motionCrossProductMx (j.vel v) 0 i 2 * j.qd

/-- `AI += IaB` where a child exists. -/
def addM (A : M6) : Option (M6 × V6) → M6
  | none => A
  | some r => A + r.1

/-- `p += X^T pa` where a child exists. -/
def addV (p : V6) : Option (M6 × V6) → V6
  | none => p
  | some r => p + r.2

/-! ### Forward dynamics -/

/-- Articulated inertia of a link, with the contribution of its child. -/
def Joint.AI (j : Joint) (r : Option (M6 × V6)) : M6 := addM j.I r

/-- Bias force of a link (HyA forward_dynamics.impl.h:42, 74). -/
def Joint.p (j : Joint) (v : V6) (r : Option (M6 × V6)) : V6 := addV (-j.fext + vxIv (j.vel v) j.I) r

/-- What a link adds to the articulated inertia and to the bias force of its parent
(HyA forward_dynamics.impl.h:130-138). -/
noncomputable def Joint.lump (j : Joint) (AI : M6) (p c : V6) (tau : ℝ) : M6 × V6 :=
  let u := tau - p 2
  let U : V6 := fun i => AI i 2
  let D := U 2
  let Ia := computeIaRevolute AI U D 0
  let pa := p + Ia *ᵥ c + fun i => U i * u / D
  (ctransformIaRevolute Ia j.X, j.Xᵀ *ᵥ pa)

/-- The first two passes over a branch: the contribution of its first link to the parent, which has the
velocity `v`. -/
noncomputable def up (v : V6) : List (Joint × ℝ) → Option (M6 × V6)
  | [] => none
  | (j, tau) :: ls =>
    let r := up (j.vel v) ls
    some (j.lump (j.AI r) (j.p v r) (j.cor v) tau)

/-- The joint acceleration (HyA forward_dynamics.impl.h:193, 197). -/
noncomputable def accel (AI : M6) (p a : V6) (tau : ℝ) : ℝ :=
  let u := tau - p 2
  let U : V6 := fun i => AI i 2
  let D := U 2
  (u - U ⬝ᵥ a) / D

/-- The third pass over a branch: `a` is the acceleration of the parent. -/
noncomputable def down (v a : V6) : List (Joint × ℝ) → List ℝ
  | [] => []
  | (j, tau) :: ls =>
    let r := up (j.vel v) ls
    let a1 := j.X *ᵥ a + j.cor v
    let qdd := accel (j.AI r) (j.p v r) a1 tau
    qdd :: down (j.vel v) (bump a1 qdd) ls

/-- `iit::rbd::g` (ct_rbd/include/ct/iit/rbd/rbd.h:185). -/
noncomputable def grav : ℝ := 9.81

/-- Velocity of the first link of a robot on a fixed base (HyA forward_dynamics.impl.h:59): only the entry
`AZ` is written, the others are the zeros of the constructor. -/
def firstVel (qd : ℝ) : V6 := Function.update 0 2 qd

/-- Acceleration of the first link before its joint moves: gravity (HyA forward_dynamics.impl.h:192). -/
noncomputable def firstAcc (X : M6) : V6 := fun i => X i 5 * grav

/-- Forward dynamics of a robot on a fixed base with one branch (HyA forward_dynamics.impl.h:31-217). -/
noncomputable def fdFixed : List (Joint × ℝ) → List ℝ
  | [] => []
  | (j, tau) :: ls =>
    let v := firstVel j.qd
    let r := up v ls
    let AI := j.AI r
    let p := addV (-j.fext + vxIvz j.qd j.I) r
    let a1 := firstAcc j.X
    let qdd := accel AI p a1 tau
    qdd :: down v (bump a1 qdd) ls

/-! ### Inverse dynamics -/

/-- `f += X^T f_child` where a child exists. -/
def addF (f : V6) : Option V6 → V6
  | none => f
  | some r => f + r

/-- Both passes of the inverse dynamics over a branch: `v`, `a` are velocity and acceleration of the parent;
the result is the force handed to the parent and the joint forces (HyA inverse_dynamics.impl.h:139-148 and
199-201). -/
def rnea (v a : V6) : List (Joint × ℝ) → Option V6 × List ℝ
  | [] => (none, [])
  | (j, qdd) :: ls =>
    let a1 := bump (j.X *ᵥ a + j.cor v) qdd
    let r := rnea (j.vel v) a1 ls
    let f := addF (j.I *ᵥ a1 + vxIv (j.vel v) j.I - j.fext) r.1
    (some (j.Xᵀ *ᵥ f), f 2 :: r.2)

/-- Inverse dynamics of a robot on a fixed base with one branch (HyA inverse_dynamics.impl.h:32-40, 129-216). -/
noncomputable def idFixed : List (Joint × ℝ) → List ℝ
  | [] => []
  | (j, qdd) :: ls =>
    let a1 := bump (firstAcc j.X) qdd
    let r := rnea (firstVel j.qd) a1 ls
    let f := addF (j.I *ᵥ a1 + vxIvz j.qd j.I - j.fext) r.1
    f 2 :: r.2

/-- Gravity terms of a branch (HyA inverse_dynamics.impl.h:49-50). -/
def gterms (a : V6) : List Joint → Option V6 × List ℝ
  | [] => (none, [])
  | j :: ls =>
    let a1 := j.X *ᵥ a
    let r := gterms a1 ls
    let f := addF (j.I *ᵥ a1) r.1
    (some (j.Xᵀ *ᵥ f), f 2 :: r.2)

/-- `G_terms` of a robot on a fixed base (HyA inverse_dynamics.impl.h:42-65). -/
noncomputable def gFixed : List Joint → List ℝ
  | [] => []
  | j :: ls =>
    let a1 := firstAcc j.X
    let r := gterms a1 ls
    let f := addF (j.I *ᵥ a1) r.1
    f 2 :: r.2

/-- Acceleration of a link in `C_terms`: the first link of the branch has no contribution of its parent
(HyA inverse_dynamics.impl.h:81, 91). -/
def cacc (j : Joint) (v : V6) : Option V6 → V6
  | none => j.cor v
  | some a => j.X *ᵥ a + j.cor v

/-- Coriolis and centrifugal terms of a branch (HyA inverse_dynamics.impl.h:76-83, 86-93). -/
def cterms (v : V6) (a : Option V6) : List Joint → Option V6 × List ℝ
  | [] => (none, [])
  | j :: ls =>
    let a1 := cacc j v a
    let r := cterms (j.vel v) (some a1) ls
    let f := addF (j.I *ᵥ a1 + vxIv (j.vel v) j.I) r.1
    (some (j.Xᵀ *ᵥ f), f 2 :: r.2)

/-- `C_terms` of a robot on a fixed base (HyA inverse_dynamics.impl.h:67-127). -/
def cFixed : List Joint → List ℝ
  | [] => []
  | j :: ls =>
    let r := cterms (firstVel j.qd) none ls
    let f := addF (vxIvz j.qd j.I) r.1
    f 2 :: r.2

/-! ### Joint space inertia matrix -/

/-- The part of `JSIM::update` for one branch (HyA jsim.impl.h:36-124): composite inertia in the frame of the
parent, for each joint its column `F` in the frame of the parent, and the rows of the matrix.  `z` is what
`Ic_spare` contains before it is written. -/
noncomputable def crba (z : M6) : List Joint → Option M6 × List V6 × List (List ℝ)
  | [] => (none, [], [])
  | j :: ls =>
    let r := crba z ls
    let Ic := match r.1 with
      | none => j.I
      | some B => Inertia.addAssign j.I B
    let F : V6 := fun i => Ic i 2
    (some (transformInertia Ic j.XF z),
      (j.XF *ᵥ F) :: r.2.1.map (j.XF *ᵥ ·),
      (F 2 :: r.2.1.map (· 2)) :: List.zipWith (fun (G : V6) row => G 2 :: row) r.2.1 r.2.2)

/-- `JSIM::update` of a robot on a fixed base (HyA jsim.impl.h:16-128). -/
noncomputable def jsimFixed (z : M6) (ls : List Joint) : List (List ℝ) := (crba z ls).2.2

/-! ### Floating base -/

/-- The base: spatial inertia, external force and velocity. -/
structure Base where
  I : M6
  fext : V6
  v : V6

/-- Articulated inertia of the base (QuadrotorWithLoad forward_dynamics.impl.h:34, 96), with the branches in
the order of the second pass. -/
noncomputable def Base.AI (b : Base) (brs : List (List (Joint × ℝ))) : M6 :=
  brs.foldl (fun A br => addM A (up b.v br)) b.I

/-- Bias force of the base (QuadrotorWithLoad forward_dynamics.impl.h:35, 71, 97). -/
noncomputable def Base.p (b : Base) (brs : List (List (Joint × ℝ))) : V6 :=
  brs.foldl (fun p br => addV p (up b.v br)) (-b.fext + vxIv b.v b.I)

/-- Forward dynamics of a robot with a floating base (QuadrotorWithLoad forward_dynamics.impl.h:23-114):
acceleration of the base and, for each branch, the joint accelerations. `TRAIT::solve` multiplies with the
inverse (ct_rbd/include/ct/iit/rbd/traits/DoubleTrait.h:26-29). -/
noncomputable def fdFloat (b : Base) (g : V6) (brs : List (List (Joint × ℝ))) : V6 × List (List ℝ) :=
  let a := -((b.AI brs)⁻¹ *ᵥ b.p brs)
  (a + g, brs.map (down b.v a))

/-- `id_fully_actuated` (QuadrotorWithLoad inverse_dynamics.impl.h:136-184): force on the base and joint
forces. -/
def idFull (b : Base) (g accel : V6) (brs : List (List (Joint × ℝ))) : V6 × List (List ℝ) :=
  let a := accel - g
  let f := brs.foldl (fun f br => addF f (rnea b.v a br).1) (b.I *ᵥ a + vxIv b.v b.I - b.fext)
  (f, brs.map fun br => (rnea b.v a br).2)

/-- `G_terms_fully_actuated` (QuadrotorWithLoad inverse_dynamics.impl.h:88-107). -/
def gFull (b : Base) (g : V6) (brs : List (List Joint)) : V6 × List (List ℝ) :=
  let a := -g
  let f := brs.foldl (fun f br => addF f (gterms a br).1) (b.I *ᵥ a)
  (f, brs.map fun br => (gterms a br).2)

/-- `C_terms_fully_actuated` (QuadrotorWithLoad inverse_dynamics.impl.h:109-134). -/
def cFull (b : Base) (brs : List (List Joint)) : V6 × List (List ℝ) :=
  let f := brs.foldl (fun f br => addF f (cterms b.v none br).1) (vxIv b.v b.I)
  (f, brs.map fun br => (cterms b.v none br).2)

/-- `JSIM::update` of a robot with a floating base (QuadrotorWithLoad jsim.impl.h:17-52): the inertia of the
whole robot, the columns of the upper right block by branch, and the blocks of the lower right corner by
branch. -/
noncomputable def jsimFloat (z : M6) (I : M6) (brs : List (List Joint)) : M6 × List (List V6) × List (List (List ℝ)) :=
  (brs.foldl (fun (A : M6) br => match (crba z br).1 with
    | none => A
    | some B => Inertia.addAssign A B) I,
    brs.map fun br => (crba z br).2.1,
    brs.map fun br => (crba z br).2.2)

/-- Acceleration of a link in `id` of a floating base before the base accelerates
(QuadrotorWithLoad inverse_dynamics.impl.h:43-44, 54-55). -/
def iacc (j : Joint) (v : V6) (a : Option V6) (qdd : ℝ) : V6 := bump (cacc j v a) qdd

/-- The bottom-up pass of `id` (QuadrotorWithLoad inverse_dynamics.impl.h:37-73): composite inertia and force
of the branch in the frame of the parent. The `InertiaMatrix` members are assigned with the operator of
InertiaMatrix.h:261-276. -/
def comp (v : V6) (a : Option V6) : List (Joint × ℝ) → Option (M6 × V6)
  | [] => none
  | (j, qdd) :: ls =>
    let a1 := iacc j v a qdd
    let r := comp (j.vel v) (some a1) ls
    let f := addV (j.I *ᵥ a1 + vxIv (j.vel v) j.I - j.fext) r
    let Ic := match r with
      | none => j.I
      | some s => Inertia.assign j.I (j.I + s.1)
    some (j.Xᵀ * Ic * j.X, j.Xᵀ *ᵥ f)

/-- The top-down pass of `id` (QuadrotorWithLoad inverse_dynamics.impl.h:78-83): `a` is the parent's
acceleration in the first pass, `ab` the one due to the base. -/
def compDown (v : V6) (a : Option V6) (ab : V6) : List (Joint × ℝ) → List ℝ
  | [] => []
  | (j, qdd) :: ls =>
    let a1 := iacc j v a qdd
    let r := comp (j.vel v) (some a1) ls
    let f := addV (j.I *ᵥ a1 + vxIv (j.vel v) j.I - j.fext) r
    let Ic := match r with
      | none => j.I
      | some s => Inertia.assign j.I (j.I + s.1)
    let ab1 := j.X *ᵥ ab
    (Ic 2 ⬝ᵥ ab1 + f 2) :: compDown (j.vel v) (some a1) ab1 ls

/-- `id` of a robot with a floating base (QuadrotorWithLoad inverse_dynamics.impl.h:27-86): acceleration of
the base and joint forces. -/
noncomputable def idFloat (b : Base) (g : V6) (brs : List (List (Joint × ℝ))) : V6 × List (List ℝ) :=
  let f := brs.foldl (fun f br => addV f (comp b.v none br)) (vxIv b.v b.I - b.fext)
  let Ic := brs.foldl (fun (A : M6) br => match comp b.v none br with
    | none => A
    | some s => Inertia.assign A (A + s.1)) b.I
  let ab := -(Ic⁻¹ *ᵥ f)
  (ab + g, brs.map (compDown b.v none ab))

end CT.Articulated
