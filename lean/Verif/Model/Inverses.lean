import Mathlib.Algebra.Field.Defs
import Mathlib.Data.Prod.Basic
import Mathlib.Logic.Function.Basic

/-!
# LU and LDLT solvers

Models `ct_core/include/ct/core/math/Inverses.h`. A matrix is a function of a pair of indices, the
sizes are separate arguments, assignments are `Function.update`; freshly allocated Eigen matrices
have arbitrary initial contents. Scalars are elements of a field (no rounding; dividing by a zero
pivot is excluded in the theorems).
-/

namespace CT.Inverses

variable {K : Type} [Field K]

/-- Matrix storage. -/
abbrev Mat (K : Type) := ℕ × ℕ → K

/-- The accumulation loops `for (p = lo; p < hi; ++p) sum += f p`. -/
def accum (lo hi : ℕ) (f : ℕ → K) : K :=
  (List.range' lo (hi - lo)).foldl (fun s p => s + f p) 0

/-- Value assigned to `LU(i, k)` for `i ≥ k` (Inverses.h:22-27). -/
def luL (A : Mat K) (i k : ℕ) (LU : Mat K) : K :=
  A (i, k) - accum 0 k (fun p => LU (i, p) * LU (p, k))

/-- Value assigned to `LU(k, j)` for `j > k` (Inverses.h:31-36). -/
def luU (A : Mat K) (k j : ℕ) (LU : Mat K) : K :=
  (A (k, j) - accum 0 k (fun p => LU (k, p) * LU (p, j))) / LU (k, k)

/-- `lu` (Inverses.h:14-39). -/
def lu (n : ℕ) (A : Mat K) (LU : Mat K) : Mat K :=
  (List.range n).foldl (fun LU k =>
    let LU := (List.range' k (n - k)).foldl
      (fun LU i => Function.update LU (i, k) (luL A i k LU)) LU
    (List.range' (k + 1) (n - (k + 1))).foldl
      (fun LU j => Function.update LU (k, j) (luU A k j LU)) LU) LU

/-- `solveLU` (Inverses.h:43-72); state: scratch vector `y` and result `x`. -/
def solveLU (n m : ℕ) (LU b : Mat K) (y : ℕ → K) (x : Mat K) : (ℕ → K) × Mat K :=
  (List.range m).foldl (fun (s : (ℕ → K) × Mat K) j =>
    let y := (List.range n).foldl
      (fun y i => Function.update y i ((b (i, j) - accum 0 i (fun k => LU (i, k) * y k)) / LU (i, i))) s.1
    let x := (List.range n).reverse.foldl
      (fun x i => Function.update x (i, j) (y i - accum (i + 1) n (fun k => LU (i, k) * x (k, j)))) s.2
    (y, x)) (y, x)

/-- `LUsolve` (Inverses.h:151-164); `LU0`, `y0`, `X0` are the arbitrary initial contents of the
allocated storage. -/
def LUsolve (n m : ℕ) (A B : Mat K) (LU0 : Mat K) (y0 : ℕ → K) (X0 : Mat K) : Mat K :=
  (solveLU n m (lu n A LU0) B y0 X0).2

/-- `ldlt` (Inverses.h:77-102); state `(L, d)`. -/
def ldlt (n : ℕ) (A : Mat K) (d : ℕ → K) : Mat K × (ℕ → K) :=
  (List.range n).foldl (fun (s : Mat K × (ℕ → K)) j =>
    let d := Function.update s.2 j (A (j, j) - accum 0 j (fun k => s.1 (j, k) * s.1 (j, k) * s.2 k))
    let L := (List.range' (j + 1) (n - (j + 1))).foldl
      (fun L i => Function.update L (i, j)
        ((A (i, j) - accum 0 j (fun k => L (i, k) * L (j, k) * d k)) / d j)) s.1
    (L, d)) ((fun p => if p.1 = p.2 then 1 else 0), d)

/-- `solveLDLT` (Inverses.h:107-139). -/
def solveLDLT (n m : ℕ) (L : Mat K) (d : ℕ → K) (b : Mat K) (y : ℕ → K) (x : Mat K) :
    (ℕ → K) × Mat K :=
  (List.range m).foldl (fun (s : (ℕ → K) × Mat K) j =>
    let y := (List.range n).foldl
      (fun y i => Function.update y i (b (i, j) - accum 0 i (fun k => L (i, k) * y k))) s.1
    let x := (List.range n).reverse.foldl
      (fun x i => Function.update x (i, j) (y i / d i - accum (i + 1) n (fun k => L (k, i) * x (k, j)))) s.2
    (y, x)) (y, x)

/-- `LDLTsolve` (Inverses.h:173-189). -/
def LDLTsolve (n m : ℕ) (A B : Mat K) (d0 y0 : ℕ → K) (X0 : Mat K) : Mat K :=
  let f := ldlt n A d0
  (solveLDLT n m f.1 f.2 B y0 X0).2

end CT.Inverses
