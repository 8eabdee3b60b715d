import Verif.Model.Inverses
import Verif.Model.OpJacobian

/-!
# Dynamics of robots in contact

Models `ct_rbd/include/ct/rbd/robot/ProjectedDynamics.h`.  Matrices are functions of pairs of indices
as in `Verif.Model.Inverses`, whose `LDLTsolve` is the solver called here.  The generated code of the
robot (mass matrix, Coriolis and gravity terms, contact Jacobian and its derivative, velocity of the
end effectors) is a parameter: `Terms` holds its results for the state at hand.
-/

namespace CT.ConDyn

open CT.Inverses Matrix CT.OpJac

/-- The results of the generated code for one state: mass matrix, Coriolis and centrifugal terms,
gravity terms, the constraint Jacobian `Jc_.J()` and its derivative `Jc_.dJdt()` (three rows per end
effector), the coordinate velocity, and the product `ω × v` for each end effector
(ProjectedDynamics.h:195-222, 251-263). -/
structure Terms where
  M : Mat ℝ
  cor : ℕ → ℝ
  grav : ℕ → ℝ
  J : Mat ℝ
  dJ : Mat ℝ
  qd : ℕ → ℝ
  cross : ℕ → ℕ → ℝ

/-- Number of end effectors in contact among the first `N`: `neec_` as counted by
`ResetJacobianStructure` (ProjectedDynamics.h:279-296). -/
def count (ee : ℕ → Bool) (N : ℕ) : ℕ := (List.range N).foldl (fun c e => if ee e then c + 1 else c) 0

/-- `h_` after `updateDynamicsTerms` (ProjectedDynamics.h:211-222): the terms without gravity are set
first, gravity is added. -/
noncomputable def hTerm (t : Terms) : ℕ → ℝ := fun i => t.cor i + t.grav i

/-- `f_` (ProjectedDynamics.h:207): no force on the six base coordinates. -/
def fTerm (u : ℕ → ℝ) : ℕ → ℝ := fun i => if i < 6 then 0 else u (i - 6)

/-- Assigning three rows of `B`, from row `brow`, to the rows `row, row + 1, row + 2` of `A`
(`block<3, NDOF>(row, 0) = …`). -/
def setRows (A : Mat ℝ) (row : ℕ) (B : Mat ℝ) (brow : ℕ) : Mat ℝ :=
  fun p => if row ≤ p.1 ∧ p.1 < row + 3 then B (brow + (p.1 - row), p.2) else A p

/-- `segment<3>(row) = v`. -/
def setSeg3 (x : ℕ → ℝ) (row : ℕ) (v : ℕ → ℝ) : ℕ → ℝ :=
  fun i => if row ≤ i ∧ i < row + 3 then v (i - row) else x i

/-- State of the loop over the end effectors: row counter, `Jc_reduced_`, `dJcdt_reduced_`,
`feet_crossproduct_`. -/
structure Reduced where
  rowCount : ℕ
  J : Mat ℝ
  dJ : Mat ℝ
  cross : ℕ → ℝ

/-- The loop over the end effectors (ProjectedDynamics.h:252-264). -/
def reduce (NEE : ℕ) (ee : ℕ → Bool) (t : Terms) (s : Reduced) : Reduced :=
  (List.range NEE).foldl (fun s e =>
    if ee e then
      { rowCount := s.rowCount + 3
        J := setRows s.J s.rowCount t.J (3 * e)
        dJ := setRows s.dJ s.rowCount t.dJ (3 * e)
        cross := setSeg3 s.cross s.rowCount (t.cross e) }
    else s) { s with rowCount := 0 }

/-- `MJTJ0_` (ProjectedDynamics.h:268-270); `setSizes` (305-306) has set it to zero, `n` is `NDOF`,
`k` the number of constraint rows. -/
def kkt (n k : ℕ) (M Jr : Mat ℝ) : Mat ℝ := fun p =>
  if p.1 < n ∧ p.2 < n then M p
  else if n ≤ p.1 ∧ p.1 < n + k ∧ p.2 < n then - Jr (p.1 - n, p.2)
  else if p.1 < n ∧ n ≤ p.2 ∧ p.2 < n + k then - Jr (p.2 - n, p.1)
  else 0

/-- `b_` (ProjectedDynamics.h:272-273). -/
noncomputable def rhs (n k : ℕ) (f h : ℕ → ℝ) (dJr : Mat ℝ) (qd cross : ℕ → ℝ) : Mat ℝ := fun p =>
  if p.1 < n then f p.1 - h p.1
  else if p.1 < n + k then accum 0 n (fun j => dJr (p.1 - n, j) * qd j) + cross (p.1 - n)
  else 0

/-- `ProjectedForwardDynamicsCommon` (ProjectedDynamics.h:248-276): the vector `qddlambda_`.  `s0`, `d0`,
`y0`, `X0` are the arbitrary previous contents of the work matrices. -/
noncomputable def forwardCommon (n NEE : ℕ) (ee : ℕ → Bool) (t : Terms) (u : ℕ → ℝ) (s0 : Reduced)
    (d0 y0 : ℕ → ℝ) (X0 : Mat ℝ) : ℕ → ℝ :=
  let s := reduce NEE ee t s0
  let k := 3 * count ee NEE
  let X := LDLTsolve (n + k) 1 (kkt n k t.M s.J) (rhs n k (fTerm u) (hTerm t) s.dJ t.qd s.cross) d0 y0 X0
  fun i => X (i, 0)

/-- `ProjectedForwardDynamics` (ProjectedDynamics.h:86-91): the first `NDOF` entries, base before
joints. -/
def accelerations (qddlambda : ℕ → ℝ) : ℕ → ℝ := qddlambda

/-- `getContactForcesInBase` (ProjectedDynamics.h:94-109). -/
def contactForces (n NEE : ℕ) (ee : ℕ → Bool) (qddlambda : ℕ → ℝ) (lam0 : ℕ → ℕ → ℝ) : ℕ → ℕ → ℝ :=
  ((List.range NEE).foldl (fun (s : ℕ × (ℕ → ℕ → ℝ)) e =>
    if ee e then (s.1 + 3, Function.update s.2 e (fun a => qddlambda (n + s.1 + a)))
    else (s.1, Function.update s.2 e (fun _ => 0))) (0, lam0)).2

/-- `ProjectedInverseDynamicsCommon` (ProjectedDynamics.h:225-245): `P` is the projector of the
constraint Jacobian, `S` the selection matrix, `svdInv` the thresholded singular value inverse. -/
def inverse {n r : Type} [Fintype n] [Fintype r] (svdInv : Matrix n r ℝ → Matrix r n ℝ)
    (P : Matrix n n ℝ) (S : Matrix r n ℝ) (M : Matrix n n ℝ) (qdd h : n → ℝ) : r → ℝ :=
  let PSt := P * Sᵀ
  let Pstinv := svdInv PSt
  let PStP := Pstinv * P
  let Mqdd := M *ᵥ qdd
  PStP *ᵥ (Mqdd + h)

/-- The selection matrix (ProjectedDynamics.h:310-311): a zero block for the six base coordinates and
the identity for the `nj` joints. -/
def selection (nj : ℕ) : Matrix (Fin nj) (Fin (6 + nj)) ℝ :=
  fun i j => if (j : ℕ) < 6 then 0 else if (j : ℕ) - 6 = i then 1 else 0

end CT.ConDyn
