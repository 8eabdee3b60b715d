import Verif.Model.HessianSource

/-!
# Generated Hessian of the inverse dynamics of HyA

Translation of `hessian` of `ct_models/include/ct/models/HyA/codegen/HyAInverseDynHessian.cpp`, statement by statement; decimal
fractions are written as fractions.  All indices of `v_` (351 elements) and `hes` (144 elements) are inside the arrays.
-/

namespace CT.HesCg.HyA

local infixl:65 " ⊞ " => Ex.add
local infixl:65 " ⊟ " => Ex.sub
local infixl:70 " ⊠ " => Ex.mul
local infixl:70 " ⊘ " => Ex.div

/-- `x_in[i]`, `w_in[i]`, `v_[i]`, `hes[i]` and constants. -/
abbrev x (i : ℕ) : Ex Ref := .var (.x i)
@[inherit_doc x] abbrev w (i : ℕ) : Ex Ref := .var (.w i)
@[inherit_doc x] abbrev v (i : ℕ) : Ex Ref := .var (.v i)
@[inherit_doc x] abbrev hes (i : ℕ) : Ex Ref := .var (.hes i)
@[inherit_doc x] abbrev k (c : ℚ) : Ex Ref := .k c

/-- HyAInverseDynHessian.cpp:16-117. -/
def part0 : List Stmt :=
  [.v 0 (.sin (x 1)),
   .v 1 ((v 0) ⊠ (w 0)),
   .v 2 ((k 0) ⊟ (v 1)),
   .v 3 ((v 2) ⊠ (w 1)),
   .v 4 (.cos (x 1)),
   .v 5 ((v 4) ⊠ (w 0)),
   .v 6 ((v 5) ⊠ (w 1)),
   .v 7 ((k (981 / 100)) ⊠ (v 0)),
   .v 8 ((w 1) ⊠ (w 1)),
   .v 9 (.cos (x 2)),
   .v 10 (.sin (x 2)),
   .v 11 ((k 0) ⊟ (v 9)),
   .v 12 (((v 10) ⊠ (v 5)) ⊞ ((v 11) ⊠ (w 1))),
   .v 13 ((k 0) ⊟ (v 12)),
   .v 14 (((v 9) ⊠ (v 3)) ⊞ ((v 13) ⊠ (w 2))),
   .v 15 (((v 9) ⊠ (v 5)) ⊞ ((v 10) ⊠ (w 1))),
   .v 16 (((v 10) ⊠ (v 3)) ⊞ ((v 15) ⊠ (w 2))),
   .v 17 ((k (981 / 100)) ⊠ (v 4)),
   .v 18 ((k (14 / 125)) ⊠ (v 9)),
   .v 19 ((.neg (k (14 / 125))) ⊠ (v 10)),
   .v 20 ((k (14 / 125)) ⊠ (v 9)),
   .v 21 (((v 19) ⊠ (v 5)) ⊞ ((v 20) ⊠ (w 1))),
   .v 22 ((((v 10) ⊠ (v 17)) ⊞ ((v 18) ⊠ (v 3))) ⊞ ((v 21) ⊠ (w 2))),
   .v 23 ((v 1) ⊞ (w 2)),
   .v 24 ((k 0) ⊟ ((v 23) ⊠ (v 21))),
   .v 25 ((v 15) ⊠ (v 23)),
   .v 26 ((v 23) ⊠ (v 23)),
   .v 27 ((v 12) ⊠ (v 12)),
   .v 28 (.cos (x 3)),
   .v 29 ((.neg (k 1)) ⊠ (v 16)),
   .v 30 (.sin (x 3)),
   .v 31 ((k 0) ⊟ (v 30)),
   .v 32 (((v 30) ⊠ (v 15)) ⊞ ((v 28) ⊠ (v 23))),
   .v 33 ((k 0) ⊟ (v 32)),
   .v 34 ((((v 31) ⊠ (v 6)) ⊞ ((v 28) ⊠ (v 14))) ⊞ ((v 33) ⊠ (w 3))),
   .v 35 (((v 28) ⊠ (v 15)) ⊞ ((v 31) ⊠ (v 23))),
   .v 36 ((((v 28) ⊠ (v 6)) ⊞ ((v 30) ⊠ (v 14))) ⊞ ((v 35) ⊠ (w 3))),
   .v 37 (((.neg (k (38 / 125))) ⊠ (v 14)) ⊞ ((.neg (k 1)) ⊠ (v 22))),
   .v 38 ((k (14 / 125)) ⊠ (v 10)),
   .v 39 (((v 18) ⊠ (v 5)) ⊞ ((v 38) ⊠ (w 1))),
   .v 40 ((k 0) ⊟ (v 39)),
   .v 41 ((((v 9) ⊠ (v 17)) ⊞ ((v 19) ⊠ (v 3))) ⊞ ((v 40) ⊠ (w 2))),
   .v 42 ((.neg (k (38 / 125))) ⊠ (v 30)),
   .v 43 ((.neg (k (38 / 125))) ⊠ (v 28)),
   .v 44 (((v 43) ⊠ (v 12)) ⊞ ((v 28) ⊠ (v 21))),
   .v 45 (((((v 28) ⊠ (v 7)) ⊞ ((v 30) ⊠ (v 41))) ⊞ ((v 42) ⊠ (v 16))) ⊞ ((v 44) ⊠ (w 3))),
   .v 46 (((.neg (k (38 / 125))) ⊠ (v 15)) ⊞ ((.neg (k 1)) ⊠ (v 39))),
   .v 47 (((.neg (k 1)) ⊠ (v 12)) ⊞ (w 3)),
   .v 48 (((v 35) ⊠ (v 46)) ⊟ ((v 47) ⊠ (v 44))),
   .v 49 ((v 35) ⊠ (v 47)),
   .v 50 ((v 47) ⊠ (v 47)),
   .v 51 ((v 32) ⊠ (v 32)),
   .v 52 (.cos (x 4)),
   .v 53 (.sin (x 4)),
   .v 54 ((k 0) ⊟ (v 52)),
   .v 55 (((v 53) ⊠ (v 35)) ⊞ ((v 54) ⊠ (v 47))),
   .v 56 ((k 0) ⊟ (v 55)),
   .v 57 ((((v 53) ⊠ (v 29)) ⊞ ((v 52) ⊠ (v 34))) ⊞ ((v 56) ⊠ (w 4))),
   .v 58 (((v 52) ⊠ (v 35)) ⊞ ((v 53) ⊠ (v 47))),
   .v 59 ((((v 54) ⊠ (v 29)) ⊞ ((v 53) ⊠ (v 34))) ⊞ ((v 58) ⊠ (w 4))),
   .v 60 ((k (14 / 125)) ⊠ (v 53)),
   .v 61 ((k (14 / 125)) ⊠ (v 52)),
   .v 62 ((k 0) ⊟ (v 52)),
   .v 63 ((k 0) ⊟ (v 30)),
   .v 64 (((v 42) ⊠ (v 12)) ⊞ ((v 30) ⊠ (v 21))),
   .v 65 ((k 0) ⊟ (v 64)),
   .v 66 (((((v 63) ⊠ (v 7)) ⊞ ((v 28) ⊠ (v 41))) ⊞ ((v 43) ⊠ (v 16))) ⊞ ((v 65) ⊠ (w 3))),
   .v 67 ((k (14 / 125)) ⊠ (v 52)),
   .v 68 ((.neg (k (14 / 125))) ⊠ (v 53)),
   .v 69 (((((v 67) ⊠ (v 47)) ⊞ ((v 68) ⊠ (v 35))) ⊞ ((v 53) ⊠ (v 46))) ⊞ ((v 52) ⊠ (v 44))),
   .v 70 ((((((v 60) ⊠ (v 29)) ⊞ ((v 61) ⊠ (v 34))) ⊞ ((v 62) ⊠ (v 37))) ⊞ ((v 53) ⊠ (v 66))) ⊞ ((v 69) ⊠ (w 4))),
   .v 71 ((v 32) ⊞ (w 4)),
   .v 72 (((v 58) ⊠ (v 64)) ⊟ ((v 71) ⊠ (v 69))),
   .v 73 ((v 58) ⊠ (v 71)),
   .v 74 ((v 71) ⊠ (v 71)),
   .v 75 ((v 55) ⊠ (v 55)),
   .v 76 (.sin (x 5)),
   .v 77 (.cos (x 5)),
   .v 78 (((k (83 / 4000)) ⊠ (v 76)) ⊞ ((k (23 / 125)) ⊠ (v 77))),
   .v 79 ((k 0) ⊟ (v 76)),
   .v 80 (((((v 60) ⊠ (v 47)) ⊞ ((v 61) ⊠ (v 35))) ⊞ ((v 62) ⊠ (v 46))) ⊞ ((v 53) ⊠ (v 44))),
   .v 81 (((k (23 / 125)) ⊠ (v 76)) ⊟ ((k (83 / 4000)) ⊠ (v 77))),
   .v 82 ((((v 77) ⊠ (v 64)) ⊞ ((v 76) ⊠ (v 80))) ⊞ ((v 81) ⊠ (v 58))),
   .v 83 ((k 0) ⊟ (v 82)),
   .v 84 (((((v 79) ⊠ (v 45)) ⊞ ((v 77) ⊠ (v 70))) ⊞ ((v 78) ⊠ (v 57))) ⊞ ((v 83) ⊠ (w 5))),
   .v 85 (((v 76) ⊠ (v 55)) ⊞ ((v 77) ⊠ (v 71))),
   .v 86 ((k 0) ⊟ (v 76)),
   .v 87 (((v 77) ⊠ (v 55)) ⊞ ((v 86) ⊠ (v 71))),
   .v 88 ((v 85) ⊠ (v 87)),
   .v 89 ((((k (83 / 4000)) ⊠ (v 71)) ⊞ ((.neg (k (23 / 125))) ⊠ (v 55))) ⊞ (v 69)),
   .v 90 ((v 85) ⊠ (v 89)),
   .v 91 ((v 58) ⊞ (w 5)),
   .v 92 ((v 91) ⊠ (v 82)),
   .v 93 (((((k (61899 / 40000)) ⊠ (v 84)) ⊞ ((k (61899 / 1600000)) ⊠ (v 57))) ⊞ ((k (61899 / 1600000)) ⊠ (v 88))) ⊞ ((.neg (k (61899 / 40000))) ⊠ ((v 90) ⊟ (v 92)))),
   .v 94 ((((v 79) ⊠ (v 64)) ⊞ ((v 77) ⊠ (v 80))) ⊞ ((v 78) ⊠ (v 58))),
   .v 95 ((v 91) ⊠ (v 91)),
   .v 96 ((v 87) ⊠ (v 87)),
   .v 97 ((((k (61899 / 40000)) ⊠ (((v 87) ⊠ (v 89)) ⊟ ((v 91) ⊠ (v 94)))) ⊞ ((k (61899 / 40000)) ⊠ (((((v 77) ⊠ (v 45)) ⊞ ((v 76) ⊠ (v 70))) ⊞ ((v 81) ⊠ (v 57))) ⊞ ((v 94) ⊠ (w 5))))) ⊟ ((k (61899 / 1600000)) ⊠ ((v 95) ⊞ (v 96)))),
   .v 98 ((k 0) ⊟ (v 85)),
   .v 99 ((((v 86) ⊠ (v 36)) ⊞ ((v 77) ⊠ (v 59))) ⊞ ((v 98) ⊠ (w 5)))]

/-- HyAInverseDynHessian.cpp:118-259. -/
def part1 : List Stmt :=
  [.v 100 ((((v 77) ⊠ (v 36)) ⊞ ((v 76) ⊠ (v 59))) ⊞ ((v 87) ⊠ (w 5))),
   .v 101 ((v 85) ⊠ (v 91)),
   .v 102 ((v 87) ⊠ (v 91)),
   .v 103 ((v 85) ⊠ (v 85)),
   .v 104 ((v 55) ⊠ (v 71)),
   .v 105 ((v 55) ⊠ (v 58)),
   .v 92 (((((((((((((((((((((.neg (k (1243 / 1000000))) ⊠ (v 36)) ⊞ ((k (5823 / 200000)) ⊠ (v 57))) ⊞ ((.neg (k (1387 / 1000000))) ⊠ (v 59))) ⊞ ((k (28919 / 500000)) ⊠ (v 70))) ⊞ ((k (28919 / 500000)) ⊠ (v 72))) ⊞ ((.neg (k (1387 / 1000000))) ⊠ (v 73))) ⊞ ((.neg (k (3163 / 250000))) ⊠ ((v 74) ⊟ (v 75)))) ⊞ ((v 78) ⊠ (v 93))) ⊞ ((v 81) ⊠ (v 97))) ⊞ ((k (9277 / 1000000)) ⊠ (v 57))) ⊞ ((.neg (k (829 / 1000000))) ⊠ (v 99))) ⊞ ((k (3 / 200000)) ⊠ (v 100))) ⊞ ((k (61899 / 1600000)) ⊠ (v 84))) ⊞ ((.neg (k (751 / 100000))) ⊠ (v 88))) ⊞ ((k (61899 / 1600000)) ⊠ ((v 92) ⊟ (v 90)))) ⊞ ((.neg (k (829 / 1000000))) ⊠ (v 101))) ⊟ ((k (3 / 200000)) ⊠ (v 102))) ⊟ ((k (99 / 500000)) ⊠ ((v 96) ⊟ (v 103)))) ⊟ ((.neg (k (4193 / 500000))) ⊠ (v 104))) ⊟ ((.neg (k (1243 / 1000000))) ⊠ (v 105))),
   .v 90 ((k 0) ⊟ (v 80)),
   .v 84 ((((((v 67) ⊠ (v 29)) ⊞ ((v 68) ⊠ (v 34))) ⊞ ((v 53) ⊠ (v 37))) ⊞ ((v 52) ⊠ (v 66))) ⊞ ((v 90) ⊠ (w 4))),
   .v 106 (((v 55) ⊠ (v 64)) ⊟ ((v 71) ⊠ (v 80))),
   .v 107 ((((k (83 / 4000)) ⊠ (v 36)) ⊞ ((.neg (k (23 / 125))) ⊠ (v 59))) ⊞ (v 84)),
   .v 108 (((v 85) ⊠ (v 94)) ⊟ ((v 87) ⊠ (v 82))),
   .v 103 ((((((((((.neg (k (829 / 1000000))) ⊠ (v 57)) ⊞ ((k (3227 / 1000000)) ⊠ (v 99))) ⊞ ((k (99 / 500000)) ⊠ (v 100))) ⊞ ((.neg (k (61899 / 1600000))) ⊠ (v 107))) ⊞ ((k (99 / 500000)) ⊠ (v 102))) ⊞ ((k (3 / 200000)) ⊠ ((v 95) ⊟ (v 103)))) ⊟ ((k (61899 / 1600000)) ⊠ (v 108))) ⊟ ((.neg (k (73 / 50000))) ⊠ (v 101))) ⊟ ((.neg (k (829 / 1000000))) ⊠ (v 88))),
   .v 102 ((((((((k (3 / 200000)) ⊠ (v 57)) ⊞ ((k (99 / 500000)) ⊠ (v 99))) ⊞ ((k (10737 / 1000000)) ⊠ (v 100))) ⊞ ((k (121 / 20000)) ⊠ (v 102))) ⊞ ((k (3 / 200000)) ⊠ (v 88))) ⊟ ((k (99 / 500000)) ⊠ (v 101))) ⊟ ((.neg (k (829 / 1000000))) ⊠ ((v 95) ⊟ (v 96)))),
   .v 108 (((((k (61899 / 40000)) ⊠ (v 107)) ⊞ ((.neg (k (61899 / 1600000))) ⊠ (v 99))) ⊞ ((k (61899 / 1600000)) ⊠ (v 101))) ⊞ ((k (61899 / 40000)) ⊠ (v 108))),
   .v 107 ((v 58) ⊠ (v 58)),
   .v 74 (((((((((((((.neg (k (3163 / 250000))) ⊠ (v 36)) ⊞ ((.neg (k (1387 / 1000000))) ⊠ (v 57))) ⊞ ((k (2429 / 125000)) ⊠ (v 59))) ⊞ ((.neg (k (28919 / 500000))) ⊠ (v 84))) ⊞ ((.neg (k (18069 / 1000000))) ⊠ (v 73))) ⊞ ((k (28919 / 500000)) ⊠ (v 106))) ⊞ ((.neg (k (3163 / 250000))) ⊠ (v 105))) ⊞ ((v 77) ⊠ (v 103))) ⊞ ((v 76) ⊠ (v 102))) ⊞ ((.neg (k (23 / 125))) ⊠ (v 108))) ⊟ ((.neg (k (1387 / 1000000))) ⊠ (v 104))) ⊟ ((.neg (k (1243 / 1000000))) ⊠ ((v 74) ⊟ (v 107)))),
   .v 106 ((((((k (2629 / 1250)) ⊠ (v 84)) ⊞ ((.neg (k (28919 / 500000))) ⊠ (v 59))) ⊞ ((k (28919 / 500000)) ⊠ (v 73))) ⊞ ((.neg (k (2629 / 1250))) ⊠ (v 106))) ⊞ (v 108)),
   .v 72 (((((((k (2629 / 1250)) ⊠ (v 70)) ⊞ ((k (28919 / 500000)) ⊠ (v 57))) ⊞ ((k (28919 / 500000)) ⊠ (v 104))) ⊞ ((k (2629 / 1250)) ⊠ (v 72))) ⊞ ((v 77) ⊠ (v 93))) ⊞ ((v 76) ⊠ (v 97))),
   .v 84 (((v 32) ⊠ (v 44)) ⊟ ((v 35) ⊠ (v 64))),
   .v 101 ((v 32) ⊠ (v 47)),
   .v 99 ((v 32) ⊠ (v 35)),
   .v 100 ((((((((((((((((.neg (k (11460001 / 5000000000))) ⊠ (v 29)) ⊞ ((k (1828449 / 100000000)) ⊠ (v 34))) ⊞ ((k (9214321 / 2500000000)) ⊠ (v 36))) ⊞ ((.neg (k (80149129911861 / 500000000000000))) ⊠ (v 37))) ⊞ ((k (152322944854339 / 100000000000000000000000)) ⊠ (v 45))) ⊞ ((k (152322944854339 / 100000000000000000000000)) ⊠ (v 48))) ⊞ ((k (9214321 / 2500000000)) ⊠ (v 49))) ⊞ ((.neg (k (21200017 / 100000000000))) ⊠ ((v 50) ⊟ (v 51)))) ⊞ ((v 52) ⊠ (v 92))) ⊞ ((v 53) ⊠ (v 74))) ⊞ ((v 68) ⊠ (v 106))) ⊞ ((v 61) ⊠ (v 72))) ⊟ ((k (80149129911861 / 500000000000000)) ⊠ (v 84))) ⊟ ((k (1404749 / 100000000)) ⊠ (v 101))) ⊟ ((.neg (k (11460001 / 5000000000))) ⊠ (v 99))),
   .v 96 ((v 32) ⊠ (v 46)),
   .v 95 ((v 47) ⊠ (v 64)),
   .v 88 ((v 35) ⊠ (v 35)),
   .v 108 ((((((((((((((((((((((.neg (k (21200017 / 100000000000))) ⊠ (v 29)) ⊞ ((k (9214321 / 2500000000)) ⊠ (v 34))) ⊞ ((k (81661 / 1000000)) ⊠ (v 36))) ⊞ ((.neg (k (8711861 / 1000000000))) ⊠ (v 37))) ⊞ ((.neg (k (152322944854339 / 100000000000000000000000))) ⊠ (v 66))) ⊞ ((.neg (k (8711861 / 1000000000))) ⊠ (v 84))) ⊞ ((k (152322944854339 / 100000000000000000000000)) ⊠ ((v 96) ⊟ (v 95)))) ⊞ ((k (4839 / 62500)) ⊠ (v 49))) ⊞ ((.neg (k (21200017 / 100000000000))) ⊠ (v 99))) ⊞ ((k (5523 / 500000)) ⊠ (v 36))) ⊞ ((.neg (k (1243 / 1000000))) ⊠ (v 57))) ⊞ ((.neg (k (3163 / 250000))) ⊠ (v 59))) ⊞ ((.neg (k (1243 / 1000000))) ⊠ (v 104))) ⊞ ((k (9683 / 1000000)) ⊠ (v 105))) ⊞ ((v 86) ⊠ (v 103))) ⊞ ((v 77) ⊠ (v 102))) ⊞ ((k (83 / 4000)) ⊠ (v 108))) ⊟ ((.neg (k (3163 / 250000))) ⊠ (v 73))) ⊟ ((.neg (k (1387 / 1000000))) ⊠ ((v 107) ⊟ (v 75)))) ⊟ ((k (9214321 / 2500000000)) ⊠ (v 101))) ⊟ ((.neg (k (11460001 / 5000000000))) ⊠ ((v 50) ⊟ (v 88)))),
   .v 84 ((((((((((.neg (k (80149129911861 / 500000000000000))) ⊠ (v 34)) ⊞ ((.neg (k (8711861 / 1000000000))) ⊠ (v 36))) ⊞ ((k (8711861 / 5000000)) ⊠ (v 37))) ⊞ ((k (8711861 / 5000000)) ⊠ (v 84))) ⊞ ((k (80149129911861 / 500000000000000)) ⊠ (v 101))) ⊞ ((.neg (k (8711861 / 1000000000))) ⊠ (v 49))) ⊞ ((v 53) ⊠ (v 106))) ⊞ ((v 62) ⊠ (v 72))) ⊟ ((k (152322944854339 / 100000000000000000000000)) ⊠ ((v 88) ⊞ (v 51)))),
   .v 105 (((v 12) ⊠ (v 21)) ⊟ ((v 15) ⊠ (v 39))),
   .v 104 ((v 12) ⊠ (v 23)),
   .v 73 ((v 12) ⊠ (v 15)),
   .v 109 (((((((((((((((.neg (k (18998907 / 5000000000))) ⊠ (v 6)) ⊞ ((k (4197379 / 20000000)) ⊠ (v 14))) ⊞ ((k (2699999 / 50000000000)) ⊠ (v 16))) ⊞ ((k (55615274403 / 10000000000000)) ⊠ (v 7))) ⊞ ((k (80995889 / 125000000)) ⊠ (v 22))) ⊞ ((k (80995889 / 125000000)) ⊠ (v 24))) ⊞ ((k (2699999 / 50000000000)) ⊠ (v 25))) ⊞ ((.neg (k (2343059 / 200000000))) ⊠ ((v 26) ⊟ (v 27)))) ⊞ ((v 28) ⊠ (v 100))) ⊞ ((v 30) ⊠ (v 108))) ⊞ ((.neg (k (38 / 125))) ⊠ (v 84))) ⊟ ((.neg (k (55615274403 / 10000000000000))) ⊠ (v 105))) ⊟ ((.neg (k (192033951 / 1000000000))) ⊠ (v 104))) ⊟ ((.neg (k (18998907 / 5000000000))) ⊠ (v 73))),
   .v 110 ((v 23) ⊠ (v 39)),
   .v 111 ((k 0) ⊟ (v 110)),
   .v 112 ((((((((((k (80149129911861 / 500000000000000)) ⊠ (v 29)) ⊞ ((.neg (k (152322944854339 / 100000000000000000000000))) ⊠ (v 36))) ⊞ ((k (8711861 / 5000000)) ⊠ (v 66))) ⊞ ((.neg (k (8711861 / 5000000))) ⊠ ((v 96) ⊟ (v 95)))) ⊞ ((k (80149129911861 / 500000000000000)) ⊠ (v 99))) ⊞ ((k (152322944854339 / 100000000000000000000000)) ⊠ (v 49))) ⊞ ((v 52) ⊠ (v 106))) ⊞ ((v 53) ⊠ (v 72))) ⊟ ((.neg (k (8711861 / 1000000000))) ⊠ ((v 50) ⊞ (v 51)))),
   .v 107 (((((((((((((k (8711861 / 1000000000)) ⊠ (v 29)) ⊞ ((k (152322944854339 / 100000000000000000000000)) ⊠ (v 34))) ⊞ ((k (8711861 / 5000000)) ⊠ (v 45))) ⊞ ((k (8711861 / 5000000)) ⊠ (v 48))) ⊞ ((k (152322944854339 / 100000000000000000000000)) ⊠ (v 101))) ⊞ ((.neg (k (8711861 / 1000000000))) ⊠ (v 99))) ⊞ ((k (2629 / 1250)) ⊠ (((v 55) ⊠ (v 69)) ⊟ ((v 58) ⊠ (v 80))))) ⊞ ((k (2629 / 1250)) ⊠ (v 45))) ⊞ ((v 79) ⊠ (v 93))) ⊞ ((v 77) ⊠ (v 97))) ⊟ ((k (80149129911861 / 500000000000000)) ⊠ ((v 50) ⊞ (v 88)))) ⊟ ((k (28919 / 500000)) ⊠ ((v 107) ⊞ (v 75)))),
   .v 75 ((v 15) ⊠ (v 15)),
   .v 105 (((((((((((((((.neg (k (2343059 / 200000000))) ⊠ (v 6)) ⊞ ((k (2699999 / 50000000000)) ⊠ (v 14))) ⊞ ((k (4047279 / 20000000)) ⊠ (v 16))) ⊞ ((k (719043 / 50000000)) ⊠ (v 7))) ⊞ ((.neg (k (80995889 / 125000000))) ⊠ (v 41))) ⊞ ((k (719043 / 50000000)) ⊠ (v 105))) ⊞ ((k (80995889 / 125000000)) ⊠ (v 111))) ⊞ ((.neg (k (199538951 / 1000000000))) ⊠ (v 25))) ⊞ ((.neg (k (2343059 / 200000000))) ⊠ (v 73))) ⊞ ((v 43) ⊠ (v 112))) ⊞ ((v 42) ⊠ (v 107))) ⊞ ((.neg (k 1)) ⊠ ((((((((((((((((k (9570849 / 100000000)) ⊠ (v 29)) ⊞ ((.neg (k (11460001 / 5000000000))) ⊠ (v 34))) ⊞ ((.neg (k (21200017 / 100000000000))) ⊠ (v 36))) ⊞ ((k (80149129911861 / 500000000000000)) ⊠ (v 66))) ⊞ ((k (8711861 / 1000000000)) ⊠ (v 45))) ⊞ ((k (80149129911861 / 500000000000000)) ⊠ ((v 95) ⊟ (v 96)))) ⊞ ((.neg (k (6337651 / 100000000))) ⊠ (v 99))) ⊞ ((.neg (k (11460001 / 5000000000))) ⊠ (v 101))) ⊞ ((v 53) ⊠ (v 92))) ⊞ ((v 54) ⊠ (v 74))) ⊞ ((v 67) ⊠ (v 106))) ⊞ ((v 60) ⊠ (v 72))) ⊟ ((.neg (k (8711861 / 1000000000))) ⊠ (v 48))) ⊟ ((.neg (k (21200017 / 100000000000))) ⊠ (v 49))) ⊟ ((k (9214321 / 2500000000)) ⊠ ((v 88) ⊟ (v 51)))))) ⊟ ((k (2699999 / 50000000000)) ⊠ (v 104))) ⊟ ((.neg (k (18998907 / 5000000000))) ⊠ ((v 26) ⊟ (v 75)))),
   .v 111 ((((((((((.neg (k (55615274403 / 10000000000000))) ⊠ (v 6)) ⊞ ((.neg (k (80995889 / 125000000))) ⊠ (v 16))) ⊞ ((k (2327 / 1000)) ⊠ (v 41))) ⊞ ((.neg (k (2327 / 1000))) ⊠ (v 111))) ⊞ ((.neg (k (55615274403 / 10000000000000))) ⊠ (v 73))) ⊞ ((k (80995889 / 125000000)) ⊠ (v 25))) ⊞ ((v 28) ⊠ (v 112))) ⊞ ((v 30) ⊠ (v 107))) ⊟ ((k (719043 / 50000000)) ⊠ ((v 26) ⊞ (v 27)))),
   .v 84 (((((((((.neg (k (719043 / 50000000))) ⊠ (v 6)) ⊞ ((k (80995889 / 125000000)) ⊠ (v 14))) ⊞ ((k (2327 / 1000)) ⊠ (v 22))) ⊞ ((k (2327 / 1000)) ⊠ (v 24))) ⊞ ((k (80995889 / 125000000)) ⊠ (v 104))) ⊞ ((k (719043 / 50000000)) ⊠ (v 73))) ⊞ ((.neg (k 1)) ⊠ (v 84))) ⊟ ((.neg (k (55615274403 / 10000000000000))) ⊠ ((v 26) ⊞ (v 75)))),
   .v 26 ((v 1) ⊠ (w 1)),
   .v 88 ((v 1) ⊠ (v 5)),
   .v 95 ((w 6) ⊠ (v 4)),
   .v 96 (((w 7) ⊠ (v 38)) ⊞ ((v 95) ⊠ (v 18))),
   .v 99 (((w 7) ⊠ (v 10)) ⊞ ((v 95) ⊠ (v 9))),
   .v 101 (((v 96) ⊠ (.neg (k 1))) ⊞ ((v 99) ⊠ (.neg (k (38 / 125))))),
   .v 51 (((w 7) ⊠ (v 20)) ⊞ ((v 95) ⊠ (v 19))),
   .v 49 (((w 7) ⊠ (v 11)) ⊞ ((v 95) ⊠ (v 10))),
   .v 48 (((v 51) ⊠ (v 28)) ⊞ ((v 49) ⊠ (v 43))),
   .v 50 ((w 9) ⊞ ((v 49) ⊠ (.neg (k 1)))),
   .v 113 ((w 6) ⊠ (v 0)),
   .v 114 ((w 8) ⊞ (v 113)),
   .v 115 (((v 114) ⊠ (v 31)) ⊞ ((v 99) ⊠ (v 28))),
   .v 116 (((((v 101) ⊠ (v 53)) ⊞ ((v 48) ⊠ (v 52))) ⊞ ((v 50) ⊠ (v 67))) ⊞ ((v 115) ⊠ (v 68))),
   .v 117 (((v 114) ⊠ (v 28)) ⊞ ((v 99) ⊠ (v 30))),
   .v 118 ((w 10) ⊞ (v 117)),
   .v 119 (((v 50) ⊠ (v 54)) ⊞ ((v 115) ⊠ (v 53))),
   .v 120 (((v 116) ⊞ ((v 118) ⊠ (k (83 / 4000)))) ⊞ ((v 119) ⊠ (.neg (k (23 / 125))))),
   .v 121 (((v 118) ⊠ (v 86)) ⊞ ((v 119) ⊠ (v 77))),
   .v 122 (((v 120) ⊠ (k (61899 / 40000))) ⊞ ((v 121) ⊠ (.neg (k (61899 / 1600000))))),
   .v 123 (((v 122) ⊞ ((v 116) ⊠ (k (2629 / 1250)))) ⊞ ((v 119) ⊠ (.neg (k (28919 / 500000))))),
   .v 124 (((v 51) ⊠ (v 30)) ⊞ ((v 49) ⊠ (v 42))),
   .v 125 (((((v 101) ⊠ (v 62)) ⊞ ((v 48) ⊠ (v 53))) ⊞ ((v 50) ⊠ (v 60))) ⊞ ((v 115) ⊠ (v 61))),
   .v 126 (((v 50) ⊠ (v 53)) ⊞ ((v 115) ⊠ (v 52))),
   .v 127 ((((v 124) ⊠ (v 79)) ⊞ ((v 125) ⊠ (v 77))) ⊞ ((v 126) ⊠ (v 78))),
   .v 128 ((w 11) ⊞ (v 126)),
   .v 129 (((v 127) ⊠ (k (61899 / 40000))) ⊞ ((v 128) ⊠ (k (61899 / 1600000)))),
   .v 130 ((((v 124) ⊠ (v 77)) ⊞ ((v 125) ⊠ (v 76))) ⊞ ((v 126) ⊠ (v 81))),
   .v 131 ((v 130) ⊠ (k (61899 / 40000))),
   .v 132 (((((v 129) ⊠ (v 77)) ⊞ ((v 131) ⊠ (v 76))) ⊞ ((v 125) ⊠ (k (2629 / 1250)))) ⊞ ((v 126) ⊠ (k (28919 / 500000)))),
   .v 133 ((((((v 123) ⊠ (v 52)) ⊞ ((v 132) ⊠ (v 53))) ⊞ ((v 48) ⊠ (k (8711861 / 5000000)))) ⊞ ((v 50) ⊠ (k (80149129911861 / 500000000000000)))) ⊞ ((v 117) ⊠ (.neg (k (152322944854339 / 100000000000000000000000))))),
   .v 134 (((((((v 129) ⊠ (v 79)) ⊞ ((v 131) ⊠ (v 77))) ⊞ ((v 124) ⊠ (k (2629 / 1250)))) ⊞ ((v 124) ⊠ (k (8711861 / 5000000)))) ⊞ ((v 50) ⊠ (k (8711861 / 1000000000)))) ⊞ ((v 115) ⊠ (k (152322944854339 / 100000000000000000000000)))),
   .v 135 ((((((v 133) ⊠ (v 28)) ⊞ ((v 134) ⊠ (v 30))) ⊞ ((v 51) ⊠ (k (2327 / 1000)))) ⊞ ((v 114) ⊠ (.neg (k (55615274403 / 10000000000000))))) ⊞ ((v 49) ⊠ (.neg (k (80995889 / 125000000))))),
   .v 136 ((((((v 123) ⊠ (v 53)) ⊞ ((v 132) ⊠ (v 62))) ⊞ ((v 101) ⊠ (k (8711861 / 5000000)))) ⊞ ((v 115) ⊠ (.neg (k (80149129911861 / 500000000000000))))) ⊞ ((v 117) ⊠ (.neg (k (8711861 / 1000000000))))),
   .v 137 (((((v 136) ⊠ (.neg (k 1))) ⊞ ((v 96) ⊠ (k (2327 / 1000)))) ⊞ ((v 114) ⊠ (.neg (k (719043 / 50000000))))) ⊞ ((v 99) ⊠ (k (80995889 / 125000000)))),
   .v 138 ((v 130) ⊠ (k (61899 / 40000))),
   .v 139 ((v 127) ⊠ (.neg (k (61899 / 40000)))),
   .v 140 ((v 128) ⊠ (k (61899 / 1600000))),
   .v 141 ((v 139) ⊟ (v 140)),
   .v 142 (((v 138) ⊠ (v 87)) ⊞ ((v 141) ⊠ (v 85))),
   .v 143 (((v 125) ⊠ (k (2629 / 1250))) ⊞ ((v 126) ⊠ (k (28919 / 500000)))),
   .v 144 ((k 0) ⊟ (v 143)),
   .v 145 ((v 124) ⊠ (k (2629 / 1250))),
   .v 146 ((((v 142) ⊞ ((v 144) ⊠ (v 71))) ⊞ ((v 145) ⊠ (v 55))) ⊞ ((v 132) ⊠ (w 4))),
   .v 147 ((k 0) ⊟ (v 138)),
   .v 148 (((v 120) ⊠ (k (61899 / 40000))) ⊞ (((k 0) ⊟ (v 121)) ⊠ (k (61899 / 1600000)))),
   .v 149 ((((v 147) ⊠ (v 91)) ⊞ ((v 148) ⊠ (v 85))) ⊞ ((v 131) ⊠ (w 5))),
   .v 140 (((k 0) ⊟ (v 139)) ⊞ (v 140)),
   .v 139 ((k 0) ⊟ (v 148)),
   .v 150 ((((v 140) ⊠ (v 91)) ⊞ ((v 139) ⊠ (v 87))) ⊟ ((v 129) ⊠ (w 5))),
   .v 151 (((v 116) ⊠ (.neg (k (2629 / 1250)))) ⊞ ((v 119) ⊠ (k (28919 / 500000)))),
   .v 152 ((k 0) ⊟ (v 151)),
   .v 153 ((k 0) ⊟ (v 145)),
   .v 154 ((((((v 149) ⊠ (v 77)) ⊞ ((v 150) ⊠ (v 76))) ⊞ ((v 152) ⊠ (v 71))) ⊞ ((v 153) ⊠ (v 58))) ⊟ ((v 123) ⊠ (w 4))),
   .v 155 ((((v 124) ⊠ (k (8711861 / 5000000))) ⊞ (((k 0) ⊟ (v 50)) ⊠ (.neg (k (8711861 / 1000000000))))) ⊞ ((v 115) ⊠ (k (152322944854339 / 100000000000000000000000)))),
   .v 156 ((k 0) ⊟ (v 155)),
   .v 157 ((((v 101) ⊠ (k (8711861 / 5000000))) ⊞ (((k 0) ⊟ (v 115)) ⊠ (k (80149129911861 / 500000000000000)))) ⊞ ((v 117) ⊠ (.neg (k (8711861 / 1000000000))))),
   .v 158 ((((((v 146) ⊠ (v 52)) ⊞ ((v 154) ⊠ (v 53))) ⊞ ((v 156) ⊠ (v 47))) ⊞ ((v 157) ⊠ (v 32))) ⊞ ((v 134) ⊠ (w 3))),
   .v 159 ((v 48) ⊠ (.neg (k (8711861 / 5000000)))),
   .v 160 ((v 50) ⊠ (k (80149129911861 / 500000000000000)))]

/-- HyAInverseDynHessian.cpp:260-395. -/
def part2 : List Stmt :=
  [.v 161 ((v 117) ⊠ (k (152322944854339 / 100000000000000000000000))),
   .v 162 ((((k 0) ⊟ (v 159)) ⊞ (v 160)) ⊟ (v 161)),
   .v 163 ((k 0) ⊟ (v 157)),
   .v 164 ((((((((v 149) ⊠ (v 79)) ⊞ ((v 150) ⊠ (v 77))) ⊞ ((v 143) ⊠ (v 58))) ⊞ ((v 151) ⊠ (v 55))) ⊞ ((v 162) ⊠ (v 47))) ⊞ ((v 163) ⊠ (v 35))) ⊟ ((v 133) ⊠ (w 3))),
   .v 165 ((k 0) ⊟ ((((v 96) ⊠ (k (2327 / 1000))) ⊞ (((k 0) ⊟ (v 114)) ⊠ (k (719043 / 50000000)))) ⊞ ((v 99) ⊠ (k (80995889 / 125000000))))),
   .v 166 ((((k 0) ⊟ (v 99)) ⊠ (.neg (k (55615274403 / 10000000000000)))) ⊞ ((v 49) ⊠ (k (719043 / 50000000)))),
   .v 167 ((((((v 158) ⊠ (v 28)) ⊞ ((v 164) ⊠ (v 30))) ⊞ ((v 165) ⊠ (v 23))) ⊞ ((v 166) ⊠ (v 12))) ⊞ ((v 137) ⊠ (w 2))),
   .v 161 (((v 159) ⊟ (v 160)) ⊞ (v 161)),
   .v 160 (((((v 146) ⊠ (v 53)) ⊞ ((v 154) ⊠ (v 62))) ⊞ ((v 155) ⊠ (v 35))) ⊞ ((v 161) ⊠ (v 32))),
   .v 159 (((v 114) ⊠ (.neg (k (55615274403 / 10000000000000)))) ⊟ (((v 51) ⊠ (.neg (k (2327 / 1000)))) ⊞ ((v 49) ⊠ (k (80995889 / 125000000))))),
   .v 168 ((k 0) ⊟ (v 166)),
   .v 169 (((((v 160) ⊠ (.neg (k 1))) ⊞ ((v 159) ⊠ (v 23))) ⊞ ((v 168) ⊠ (v 15))) ⊟ ((v 135) ⊠ (w 2))),
   .v 170 (((v 118) ⊠ (v 77)) ⊞ ((v 119) ⊠ (v 76))),
   .v 171 (((((k 0) ⊟ (v 128)) ⊠ (k (3 / 200000))) ⊞ ((v 121) ⊠ (k (99 / 500000)))) ⊞ ((v 170) ⊠ (k (121 / 20000)))),
   .v 172 (((((v 120) ⊠ (k (61899 / 1600000))) ⊞ ((v 128) ⊠ (.neg (k (829 / 1000000))))) ⊞ (((k 0) ⊟ (v 121)) ⊠ (.neg (k (73 / 50000))))) ⊞ (((k 0) ⊟ (v 170)) ⊠ (k (99 / 500000)))),
   .v 130 (((k 0) ⊟ (v 130)) ⊠ (k (61899 / 1600000))),
   .v 173 ((v 121) ⊠ (k (3 / 200000))),
   .v 174 (((k 0) ⊟ (v 170)) ⊠ (.neg (k (829 / 1000000)))),
   .v 175 (((v 130) ⊞ (v 173)) ⊞ (v 174)),
   .v 176 (((((v 116) ⊠ (k (28919 / 500000))) ⊞ (((k 0) ⊟ (v 118)) ⊠ (.neg (k (3163 / 250000))))) ⊞ ((v 126) ⊠ (.neg (k (1387 / 1000000))))) ⊞ ((v 119) ⊠ (.neg (k (18069 / 1000000))))),
   .v 177 ((((v 118) ⊠ (k (9683 / 1000000))) ⊞ (((k 0) ⊟ (v 126)) ⊠ (.neg (k (1243 / 1000000))))) ⊞ ((v 119) ⊠ (.neg (k (3163 / 250000))))),
   .v 178 (((k 0) ⊟ (v 124)) ⊠ (k (28919 / 500000))),
   .v 179 (((k 0) ⊟ (v 118)) ⊠ (.neg (k (1387 / 1000000)))),
   .v 180 (((k 0) ⊟ (v 119)) ⊠ (.neg (k (1243 / 1000000)))),
   .v 181 (((v 178) ⊞ (v 179)) ⊟ (v 180)),
   .v 120 (((((v 120) ⊠ (.neg (k (61899 / 1600000)))) ⊞ ((v 128) ⊠ (.neg (k (829 / 1000000))))) ⊞ ((v 121) ⊠ (k (3227 / 1000000)))) ⊞ ((v 170) ⊠ (k (99 / 500000)))),
   .v 182 ((((v 128) ⊠ (k (3 / 200000))) ⊞ ((v 121) ⊠ (k (99 / 500000)))) ⊞ ((v 170) ⊠ (k (10737 / 1000000)))),
   .v 116 ((((((((v 122) ⊠ (.neg (k (23 / 125)))) ⊞ ((v 120) ⊠ (v 77))) ⊞ ((v 182) ⊠ (v 76))) ⊞ ((v 116) ⊠ (.neg (k (28919 / 500000))))) ⊞ ((v 118) ⊠ (.neg (k (3163 / 250000))))) ⊞ ((v 126) ⊠ (.neg (k (1387 / 1000000))))) ⊞ ((v 119) ⊠ (k (2429 / 125000)))),
   .v 183 ((((((((((((((((v 147) ⊠ (v 94)) ⊞ ((v 140) ⊠ (v 82))) ⊞ ((v 171) ⊠ (v 87))) ⊞ ((v 172) ⊠ (v 85))) ⊞ ((v 175) ⊠ (v 91))) ⊞ ((v 175) ⊠ (v 91))) ⊞ ((v 149) ⊠ (v 78))) ⊞ ((v 150) ⊠ (v 81))) ⊞ ((v 143) ⊠ (v 64))) ⊞ ((v 153) ⊠ (v 80))) ⊞ ((v 176) ⊠ (v 71))) ⊞ ((v 177) ⊠ (v 55))) ⊞ ((v 181) ⊠ (v 58))) ⊞ ((v 181) ⊠ (v 58))) ⊞ ((v 116) ⊠ (w 4))),
   .v 184 (((((v 127) ⊠ (k (61899 / 1600000))) ⊞ ((v 128) ⊠ (.neg (k (751 / 100000))))) ⊞ (((k 0) ⊟ (v 121)) ⊠ (.neg (k (829 / 1000000))))) ⊞ ((v 170) ⊠ (k (3 / 200000)))),
   .v 185 (((k 0) ⊟ (v 128)) ⊠ (k (99 / 500000))),
   .v 174 (((v 130) ⊞ (v 185)) ⊟ (v 174)),
   .v 130 ((((((((v 138) ⊠ (v 89)) ⊞ ((v 139) ⊠ (v 82))) ⊞ ((v 171) ⊠ (v 91))) ⊞ ((v 184) ⊠ (v 85))) ⊞ ((v 174) ⊠ (v 87))) ⊞ ((v 174) ⊠ (v 87))) ⊞ ((v 182) ⊠ (w 5))),
   .v 185 (((k 0) ⊟ (v 185)) ⊟ (v 173)),
   .v 173 ((((((((v 141) ⊠ (v 89)) ⊞ ((v 148) ⊠ (v 94))) ⊞ ((v 172) ⊠ (v 91))) ⊞ ((v 184) ⊠ (v 87))) ⊞ ((v 185) ⊠ (v 85))) ⊞ ((v 185) ⊠ (v 85))) ⊟ ((v 120) ⊠ (w 5))),
   .v 186 (((((v 125) ⊠ (k (28919 / 500000))) ⊞ ((v 118) ⊠ (.neg (k (1243 / 1000000))))) ⊞ (((k 0) ⊟ (v 126)) ⊠ (.neg (k (4193 / 500000))))) ⊞ (((k 0) ⊟ (v 119)) ⊠ (.neg (k (1387 / 1000000))))),
   .v 187 ((v 126) ⊠ (.neg (k (3163 / 250000)))),
   .v 179 (((v 178) ⊟ (v 179)) ⊟ (v 187)),
   .v 170 (((((((((((v 127) ⊠ (k (61899 / 1600000))) ⊞ ((v 128) ⊠ (k (9277 / 1000000)))) ⊞ ((v 121) ⊠ (.neg (k (829 / 1000000))))) ⊞ ((v 170) ⊠ (k (3 / 200000)))) ⊞ ((v 129) ⊠ (v 78))) ⊞ ((v 131) ⊠ (v 81))) ⊞ ((v 125) ⊠ (k (28919 / 500000)))) ⊞ ((v 118) ⊠ (.neg (k (1243 / 1000000))))) ⊞ ((v 126) ⊠ (k (5823 / 200000)))) ⊞ ((v 119) ⊠ (.neg (k (1387 / 1000000))))),
   .v 128 (((((((((((v 142) ⊠ (.neg (k (23 / 125)))) ⊞ ((v 130) ⊠ (v 77))) ⊞ ((v 173) ⊠ (v 76))) ⊞ ((v 151) ⊠ (v 64))) ⊞ ((v 145) ⊠ (v 69))) ⊞ ((v 186) ⊠ (v 71))) ⊞ ((v 177) ⊠ (v 58))) ⊞ ((v 179) ⊠ (v 55))) ⊞ ((v 179) ⊠ (v 55))) ⊟ ((v 170) ⊠ (w 4))),
   .v 127 ((((((v 101) ⊠ (.neg (k (8711861 / 1000000000)))) ⊞ ((v 48) ⊠ (k (152322944854339 / 100000000000000000000000)))) ⊞ (((k 0) ⊟ (v 50)) ⊠ (.neg (k (21200017 / 100000000000))))) ⊞ ((v 115) ⊠ (k (9214321 / 2500000000)))) ⊞ ((v 117) ⊠ (k (4839 / 62500)))),
   .v 121 ((((((v 48) ⊠ (k (80149129911861 / 500000000000000))) ⊞ ((v 124) ⊠ (.neg (k (8711861 / 1000000000))))) ⊞ ((v 50) ⊠ (.neg (k (6337651 / 100000000))))) ⊞ (((k 0) ⊟ (v 115)) ⊠ (.neg (k (11460001 / 5000000000))))) ⊞ ((v 117) ⊠ (.neg (k (21200017 / 100000000000))))),
   .v 178 (((k 0) ⊟ (v 101)) ⊠ (k (152322944854339 / 100000000000000000000000))),
   .v 188 (((k 0) ⊟ (v 124)) ⊠ (k (80149129911861 / 500000000000000))),
   .v 189 (((k 0) ⊟ (v 50)) ⊠ (k (9214321 / 2500000000))),
   .v 190 (((k 0) ⊟ (v 117)) ⊠ (.neg (k (11460001 / 5000000000)))),
   .v 191 ((((v 178) ⊞ (v 188)) ⊞ (v 189)) ⊟ (v 190)),
   .v 122 ((((((((((((v 122) ⊠ (k (83 / 4000))) ⊞ ((v 120) ⊠ (v 86))) ⊞ ((v 182) ⊠ (v 77))) ⊞ ((v 118) ⊠ (k (5523 / 500000)))) ⊞ ((v 126) ⊠ (.neg (k (1243 / 1000000))))) ⊞ ((v 119) ⊠ (.neg (k (3163 / 250000))))) ⊞ ((v 101) ⊠ (.neg (k (8711861 / 1000000000))))) ⊞ ((v 48) ⊠ (.neg (k (152322944854339 / 100000000000000000000000))))) ⊞ ((v 50) ⊠ (.neg (k (21200017 / 100000000000))))) ⊞ ((v 115) ⊠ (k (9214321 / 2500000000)))) ⊞ ((v 117) ⊠ (k (81661 / 1000000)))),
   .v 192 ((((((((((((v 146) ⊠ (v 68)) ⊞ ((v 154) ⊠ (v 61))) ⊞ ((v 183) ⊠ (v 52))) ⊞ ((v 128) ⊠ (v 53))) ⊞ ((v 155) ⊠ (v 46))) ⊞ ((v 163) ⊠ (v 64))) ⊞ ((v 127) ⊠ (v 47))) ⊞ ((v 121) ⊠ (v 32))) ⊞ ((v 191) ⊠ (v 35))) ⊞ ((v 191) ⊠ (v 35))) ⊞ ((v 122) ⊠ (w 3))),
   .v 187 ((v 187) ⊞ (v 180)),
   .v 180 ((((((v 101) ⊠ (k (80149129911861 / 500000000000000))) ⊞ ((v 124) ⊠ (k (152322944854339 / 100000000000000000000000)))) ⊞ ((v 50) ⊠ (.neg (k (11460001 / 5000000000))))) ⊞ (((k 0) ⊟ (v 115)) ⊠ (k (1404749 / 100000000)))) ⊞ (((k 0) ⊟ (v 117)) ⊠ (k (9214321 / 2500000000)))),
   .v 193 (((k 0) ⊟ (v 48)) ⊠ (.neg (k (8711861 / 1000000000)))),
   .v 194 ((v 115) ⊠ (.neg (k (21200017 / 100000000000)))),
   .v 189 ((((v 178) ⊞ (v 193)) ⊟ (v 189)) ⊟ (v 194)),
   .v 178 ((((((((((v 123) ⊠ (v 68)) ⊞ ((v 132) ⊠ (v 61))) ⊞ ((v 170) ⊠ (v 52))) ⊞ ((v 116) ⊠ (v 53))) ⊞ ((v 101) ⊠ (.neg (k (80149129911861 / 500000000000000))))) ⊞ ((v 124) ⊠ (k (152322944854339 / 100000000000000000000000)))) ⊞ ((v 50) ⊠ (.neg (k (11460001 / 5000000000))))) ⊞ ((v 115) ⊠ (k (1828449 / 100000000)))) ⊞ ((v 117) ⊠ (k (9214321 / 2500000000)))),
   .v 142 (((((((((((((((((v 142) ⊠ (k (83 / 4000))) ⊞ ((v 130) ⊠ (v 86))) ⊞ ((v 173) ⊠ (v 77))) ⊞ ((v 144) ⊠ (v 69))) ⊞ ((v 152) ⊠ (v 80))) ⊞ ((v 176) ⊠ (v 58))) ⊞ ((v 186) ⊠ (v 55))) ⊞ ((v 187) ⊠ (v 71))) ⊞ ((v 187) ⊠ (v 71))) ⊞ ((v 161) ⊠ (v 46))) ⊞ ((v 157) ⊠ (v 44))) ⊞ ((v 180) ⊠ (v 47))) ⊞ ((v 121) ⊠ (v 35))) ⊞ ((v 189) ⊠ (v 32))) ⊞ ((v 189) ⊠ (v 32))) ⊟ ((v 178) ⊠ (w 3))),
   .v 195 (((((v 51) ⊠ (k (80995889 / 125000000))) ⊞ (((k 0) ⊟ (v 114)) ⊠ (.neg (k (2343059 / 200000000))))) ⊞ ((v 99) ⊠ (k (2699999 / 50000000000)))) ⊞ ((v 49) ⊠ (.neg (k (199538951 / 1000000000))))),
   .v 196 ((((((v 51) ⊠ (.neg (k (55615274403 / 10000000000000)))) ⊞ ((v 96) ⊠ (k (719043 / 50000000)))) ⊞ ((v 114) ⊠ (k (750500000000001 / 100000000000000000)))) ⊞ (((k 0) ⊟ (v 99)) ⊠ (.neg (k (18998907 / 5000000000))))) ⊞ ((v 49) ⊠ (.neg (k (2343059 / 200000000))))),
   .v 197 (((k 0) ⊟ (v 96)) ⊠ (.neg (k (55615274403 / 10000000000000)))),
   .v 198 (((k 0) ⊟ (v 114)) ⊠ (k (2699999 / 50000000000))),
   .v 199 (((k 0) ⊟ (v 49)) ⊠ (.neg (k (18998907 / 5000000000)))),
   .v 200 (((v 197) ⊞ (v 198)) ⊟ (v 199)),
   .v 117 ((((((((v 133) ⊠ (v 43)) ⊞ ((v 134) ⊠ (v 42))) ⊞ (((((((((((v 123) ⊠ (v 67)) ⊞ ((v 132) ⊠ (v 60))) ⊞ ((v 170) ⊠ (v 53))) ⊞ ((v 116) ⊠ (v 54))) ⊞ ((v 48) ⊠ (k (80149129911861 / 500000000000000)))) ⊞ ((v 124) ⊠ (k (8711861 / 1000000000)))) ⊞ ((v 50) ⊠ (k (9570849 / 100000000)))) ⊞ ((v 115) ⊠ (.neg (k (11460001 / 5000000000))))) ⊞ ((v 117) ⊠ (.neg (k (21200017 / 100000000000))))) ⊠ (.neg (k 1)))) ⊞ ((v 51) ⊠ (.neg (k (80995889 / 125000000))))) ⊞ ((v 114) ⊠ (.neg (k (2343059 / 200000000))))) ⊞ ((v 99) ⊠ (k (2699999 / 50000000000)))) ⊞ ((v 49) ⊠ (k (4047279 / 20000000)))),
   .v 160 ((((((((((v 160) ⊠ (.neg (k (38 / 125)))) ⊞ ((v 192) ⊠ (v 28))) ⊞ ((v 142) ⊠ (v 30))) ⊞ ((v 168) ⊠ (v 39))) ⊞ ((v 195) ⊠ (v 23))) ⊞ ((v 196) ⊠ (v 12))) ⊞ ((v 200) ⊠ (v 15))) ⊞ ((v 200) ⊠ (v 15))) ⊞ ((v 117) ⊠ (w 2))),
   .v 194 ((((v 193) ⊞ (v 188)) ⊞ (v 194)) ⊞ (v 190)),
   .v 193 (((((v 96) ⊠ (k (80995889 / 125000000))) ⊞ ((v 114) ⊠ (.neg (k (18998907 / 5000000000))))) ⊞ (((k 0) ⊟ (v 99)) ⊠ (.neg (k (192033951 / 1000000000))))) ⊞ (((k 0) ⊟ (v 49)) ⊠ (k (2699999 / 50000000000)))),
   .v 190 (((k 0) ⊟ (v 51)) ⊠ (k (719043 / 50000000))),
   .v 188 ((v 99) ⊠ (.neg (k (2343059 / 200000000)))),
   .v 198 (((v 190) ⊟ (v 198)) ⊟ (v 188)),
   .v 136 ((((((((v 136) ⊠ (.neg (k (38 / 125)))) ⊞ ((v 178) ⊠ (v 28))) ⊞ ((v 122) ⊠ (v 30))) ⊞ ((v 96) ⊠ (k (80995889 / 125000000)))) ⊞ ((v 114) ⊠ (.neg (k (18998907 / 5000000000))))) ⊞ ((v 99) ⊠ (k (4197379 / 20000000)))) ⊞ ((v 49) ⊠ (k (2699999 / 50000000000)))),
   .v 201 ((((((((((v 158) ⊠ (v 43)) ⊞ ((v 164) ⊠ (v 42))) ⊞ ((((((((((((v 146) ⊠ (v 67)) ⊞ ((v 154) ⊠ (v 60))) ⊞ ((v 183) ⊠ (v 53))) ⊞ ((v 128) ⊠ (v 54))) ⊞ ((v 156) ⊠ (v 44))) ⊞ ((v 162) ⊠ (v 64))) ⊞ ((v 127) ⊠ (v 35))) ⊞ ((v 180) ⊠ (v 32))) ⊞ ((v 194) ⊠ (v 47))) ⊞ ((v 194) ⊠ (v 47))) ⊠ (.neg (k 1)))) ⊞ ((v 166) ⊠ (v 21))) ⊞ ((v 193) ⊠ (v 23))) ⊞ ((v 196) ⊠ (v 15))) ⊞ ((v 198) ⊠ (v 12))) ⊞ ((v 198) ⊠ (v 12))) ⊟ ((v 136) ⊠ (w 2))),
   .v 202 ((((w 7) ⊠ (k (23426267 / 500000000))) ⊞ (((k 0) ⊟ (v 95)) ⊠ (.neg (k (43 / 15625))))) ⊞ ((v 113) ⊠ (.neg (k (22851627 / 1000000000))))),
   .v 203 (((k 0) ⊟ (w 7)) ⊠ (k (55279857 / 10000000000))),
   .v 204 ((v 203) ⊟ (((k 0) ⊟ (v 113)) ⊠ (.neg (k (43 / 15625))))),
   .v 96 ((((((((((((((v 178) ⊠ (v 31)) ⊞ ((v 122) ⊠ (v 28))) ⊞ ((v 51) ⊠ (.neg (k (55615274403 / 10000000000000))))) ⊞ ((v 96) ⊠ (.neg (k (719043 / 50000000))))) ⊞ ((v 114) ⊠ (k (10329999 / 1000000000)))) ⊞ ((v 99) ⊠ (.neg (k (18998907 / 5000000000))))) ⊞ ((v 49) ⊠ (.neg (k (2343059 / 200000000))))) ⊞ ((w 7) ⊠ (.neg (k (22851627 / 1000000000))))) ⊞ ((v 95) ⊠ (k (55279857 / 10000000000)))) ⊞ ((v 113) ⊠ (k (9750749 / 250000000)))) ⊞ (((k 0) ⊟ (w 7)) ⊠ (.neg (k (22851627 / 1000000000))))) ⊞ ((v 95) ⊠ (k (55279857 / 10000000000)))) ⊞ ((v 113) ⊠ (.neg (k (17231001 / 500000000))))),
   .v 205 (((((((((v 167) ⊠ (v 19)) ⊞ ((v 169) ⊠ (v 18))) ⊞ ((v 160) ⊠ (v 9))) ⊞ ((v 201) ⊠ (v 10))) ⊞ ((v 202) ⊠ (v 1))) ⊞ ((v 204) ⊠ (v 5))) ⊞ ((v 204) ⊠ (v 5))) ⊞ ((v 96) ⊠ (w 1))),
   .v 206 (.cos (x 1)),
   .v 207 ((v 206) ⊠ (w 0)),
   .v 208 (.neg (v 207)),
   .v 209 ((v 208) ⊠ (w 1)),
   .v 210 (.sin (x 1)),
   .v 211 ((k 0) ⊟ (v 210)),
   .v 212 ((v 211) ⊠ (w 0)),
   .v 213 ((v 212) ⊠ (w 1)),
   .v 214 ((k (981 / 100)) ⊠ (v 206)),
   .v 215 ((v 10) ⊠ (v 212)),
   .v 216 (.neg (v 215)),
   .v 217 (((v 9) ⊠ (v 209)) ⊞ ((v 216) ⊠ (w 2))),
   .v 218 ((v 9) ⊠ (v 212)),
   .v 219 (((v 10) ⊠ (v 209)) ⊞ ((v 218) ⊠ (w 2))),
   .v 220 ((k (981 / 100)) ⊠ (v 211)),
   .v 221 ((v 19) ⊠ (v 212)),
   .v 222 ((((v 10) ⊠ (v 220)) ⊞ ((v 18) ⊠ (v 209))) ⊞ ((v 221) ⊠ (w 2))),
   .v 223 (.neg (((v 207) ⊠ (v 21)) ⊞ ((v 23) ⊠ (v 221)))),
   .v 224 (((v 218) ⊠ (v 23)) ⊞ ((v 15) ⊠ (v 207))),
   .v 225 (((v 207) ⊠ (v 23)) ⊞ ((v 23) ⊠ (v 207))),
   .v 226 (((v 215) ⊠ (v 12)) ⊞ ((v 12) ⊠ (v 215))),
   .v 227 ((.neg (k 1)) ⊠ (v 219)),
   .v 228 (((v 30) ⊠ (v 218)) ⊞ ((v 28) ⊠ (v 207))),
   .v 229 (.neg (v 228))]

/-- HyAInverseDynHessian.cpp:396-537. -/
def part3 : List Stmt :=
  [.v 230 ((((v 31) ⊠ (v 213)) ⊞ ((v 28) ⊠ (v 217))) ⊞ ((v 229) ⊠ (w 3))),
   .v 231 (((v 28) ⊠ (v 218)) ⊞ ((v 31) ⊠ (v 207))),
   .v 232 ((((v 28) ⊠ (v 213)) ⊞ ((v 30) ⊠ (v 217))) ⊞ ((v 231) ⊠ (w 3))),
   .v 233 (((.neg (k (38 / 125))) ⊠ (v 217)) ⊞ ((.neg (k 1)) ⊠ (v 222))),
   .v 234 ((v 18) ⊠ (v 212)),
   .v 235 (.neg (v 234)),
   .v 236 ((((v 9) ⊠ (v 220)) ⊞ ((v 19) ⊠ (v 209))) ⊞ ((v 235) ⊠ (w 2))),
   .v 237 (((v 43) ⊠ (v 215)) ⊞ ((v 28) ⊠ (v 221))),
   .v 238 (((((v 28) ⊠ (v 214)) ⊞ ((v 30) ⊠ (v 236))) ⊞ ((v 42) ⊠ (v 219))) ⊞ ((v 237) ⊠ (w 3))),
   .v 239 (((.neg (k (38 / 125))) ⊠ (v 218)) ⊞ ((.neg (k 1)) ⊠ (v 234))),
   .v 240 ((.neg (k 1)) ⊠ (v 215)),
   .v 241 ((((v 231) ⊠ (v 46)) ⊞ ((v 35) ⊠ (v 239))) ⊟ (((v 240) ⊠ (v 44)) ⊞ ((v 47) ⊠ (v 237)))),
   .v 242 (((v 231) ⊠ (v 47)) ⊞ ((v 35) ⊠ (v 240))),
   .v 243 (((v 240) ⊠ (v 47)) ⊞ ((v 47) ⊠ (v 240))),
   .v 244 (((v 228) ⊠ (v 32)) ⊞ ((v 32) ⊠ (v 228))),
   .v 245 (((v 53) ⊠ (v 231)) ⊞ ((v 54) ⊠ (v 240))),
   .v 246 (.neg (v 245)),
   .v 247 ((((v 53) ⊠ (v 227)) ⊞ ((v 52) ⊠ (v 230))) ⊞ ((v 246) ⊠ (w 4))),
   .v 248 (((v 52) ⊠ (v 231)) ⊞ ((v 53) ⊠ (v 240))),
   .v 249 ((((v 54) ⊠ (v 227)) ⊞ ((v 53) ⊠ (v 230))) ⊞ ((v 248) ⊠ (w 4))),
   .v 250 (((v 42) ⊠ (v 215)) ⊞ ((v 30) ⊠ (v 221))),
   .v 251 (.neg (v 250)),
   .v 252 (((((v 63) ⊠ (v 214)) ⊞ ((v 28) ⊠ (v 236))) ⊞ ((v 43) ⊠ (v 219))) ⊞ ((v 251) ⊠ (w 3))),
   .v 253 (((((v 67) ⊠ (v 240)) ⊞ ((v 68) ⊠ (v 231))) ⊞ ((v 53) ⊠ (v 239))) ⊞ ((v 52) ⊠ (v 237))),
   .v 254 ((((((v 60) ⊠ (v 227)) ⊞ ((v 61) ⊠ (v 230))) ⊞ ((v 62) ⊠ (v 233))) ⊞ ((v 53) ⊠ (v 252))) ⊞ ((v 253) ⊠ (w 4))),
   .v 255 ((((v 248) ⊠ (v 64)) ⊞ ((v 58) ⊠ (v 250))) ⊟ (((v 228) ⊠ (v 69)) ⊞ ((v 71) ⊠ (v 253)))),
   .v 256 (((v 248) ⊠ (v 71)) ⊞ ((v 58) ⊠ (v 228))),
   .v 257 (((v 228) ⊠ (v 71)) ⊞ ((v 71) ⊠ (v 228))),
   .v 258 (((v 245) ⊠ (v 55)) ⊞ ((v 55) ⊠ (v 245))),
   .v 259 (((((v 60) ⊠ (v 240)) ⊞ ((v 61) ⊠ (v 231))) ⊞ ((v 62) ⊠ (v 239))) ⊞ ((v 53) ⊠ (v 237))),
   .v 260 ((((v 77) ⊠ (v 250)) ⊞ ((v 76) ⊠ (v 259))) ⊞ ((v 81) ⊠ (v 248))),
   .v 261 (.neg (v 260)),
   .v 262 (((((v 79) ⊠ (v 238)) ⊞ ((v 77) ⊠ (v 254))) ⊞ ((v 78) ⊠ (v 247))) ⊞ ((v 261) ⊠ (w 5))),
   .v 263 (((v 76) ⊠ (v 245)) ⊞ ((v 77) ⊠ (v 228))),
   .v 264 (((v 77) ⊠ (v 245)) ⊞ ((v 86) ⊠ (v 228))),
   .v 265 (((v 263) ⊠ (v 87)) ⊞ ((v 85) ⊠ (v 264))),
   .v 266 ((((k (83 / 4000)) ⊠ (v 228)) ⊞ ((.neg (k (23 / 125))) ⊠ (v 245))) ⊞ (v 253)),
   .v 267 (((v 263) ⊠ (v 89)) ⊞ ((v 85) ⊠ (v 266))),
   .v 268 (((v 248) ⊠ (v 82)) ⊞ ((v 91) ⊠ (v 260))),
   .v 269 (((((k (61899 / 40000)) ⊠ (v 262)) ⊞ ((k (61899 / 1600000)) ⊠ (v 247))) ⊞ ((k (61899 / 1600000)) ⊠ (v 265))) ⊞ ((.neg (k (61899 / 40000))) ⊠ ((v 267) ⊟ (v 268)))),
   .v 270 ((((v 79) ⊠ (v 250)) ⊞ ((v 77) ⊠ (v 259))) ⊞ ((v 78) ⊠ (v 248))),
   .v 271 (((v 248) ⊠ (v 91)) ⊞ ((v 91) ⊠ (v 248))),
   .v 272 (((v 264) ⊠ (v 87)) ⊞ ((v 87) ⊠ (v 264))),
   .v 273 ((((k (61899 / 40000)) ⊠ ((((v 264) ⊠ (v 89)) ⊞ ((v 87) ⊠ (v 266))) ⊟ (((v 248) ⊠ (v 94)) ⊞ ((v 91) ⊠ (v 270))))) ⊞ ((k (61899 / 40000)) ⊠ (((((v 77) ⊠ (v 238)) ⊞ ((v 76) ⊠ (v 254))) ⊞ ((v 81) ⊠ (v 247))) ⊞ ((v 270) ⊠ (w 5))))) ⊟ ((k (61899 / 1600000)) ⊠ ((v 271) ⊞ (v 272)))),
   .v 274 (.neg (v 263)),
   .v 275 ((((v 86) ⊠ (v 232)) ⊞ ((v 77) ⊠ (v 249))) ⊞ ((v 274) ⊠ (w 5))),
   .v 276 ((((v 77) ⊠ (v 232)) ⊞ ((v 76) ⊠ (v 249))) ⊞ ((v 264) ⊠ (w 5))),
   .v 277 (((v 263) ⊠ (v 91)) ⊞ ((v 85) ⊠ (v 248))),
   .v 278 (((v 264) ⊠ (v 91)) ⊞ ((v 87) ⊠ (v 248))),
   .v 279 (((v 263) ⊠ (v 85)) ⊞ ((v 85) ⊠ (v 263))),
   .v 280 (((v 245) ⊠ (v 71)) ⊞ ((v 55) ⊠ (v 228))),
   .v 281 (((v 245) ⊠ (v 58)) ⊞ ((v 55) ⊠ (v 248))),
   .v 268 (((((((((((((((((((((.neg (k (1243 / 1000000))) ⊠ (v 232)) ⊞ ((k (5823 / 200000)) ⊠ (v 247))) ⊞ ((.neg (k (1387 / 1000000))) ⊠ (v 249))) ⊞ ((k (28919 / 500000)) ⊠ (v 254))) ⊞ ((k (28919 / 500000)) ⊠ (v 255))) ⊞ ((.neg (k (1387 / 1000000))) ⊠ (v 256))) ⊞ ((.neg (k (3163 / 250000))) ⊠ ((v 257) ⊟ (v 258)))) ⊞ ((v 78) ⊠ (v 269))) ⊞ ((v 81) ⊠ (v 273))) ⊞ ((k (9277 / 1000000)) ⊠ (v 247))) ⊞ ((.neg (k (829 / 1000000))) ⊠ (v 275))) ⊞ ((k (3 / 200000)) ⊠ (v 276))) ⊞ ((k (61899 / 1600000)) ⊠ (v 262))) ⊞ ((.neg (k (751 / 100000))) ⊠ (v 265))) ⊞ ((k (61899 / 1600000)) ⊠ ((v 268) ⊟ (v 267)))) ⊞ ((.neg (k (829 / 1000000))) ⊠ (v 277))) ⊟ ((k (3 / 200000)) ⊠ (v 278))) ⊟ ((k (99 / 500000)) ⊠ ((v 272) ⊟ (v 279)))) ⊟ ((.neg (k (4193 / 500000))) ⊠ (v 280))) ⊟ ((.neg (k (1243 / 1000000))) ⊠ (v 281))),
   .v 267 (.neg (v 259)),
   .v 262 ((((((v 67) ⊠ (v 227)) ⊞ ((v 68) ⊠ (v 230))) ⊞ ((v 53) ⊠ (v 233))) ⊞ ((v 52) ⊠ (v 252))) ⊞ ((v 267) ⊠ (w 4))),
   .v 282 ((((v 245) ⊠ (v 64)) ⊞ ((v 55) ⊠ (v 250))) ⊟ (((v 228) ⊠ (v 80)) ⊞ ((v 71) ⊠ (v 259)))),
   .v 283 ((((k (83 / 4000)) ⊠ (v 232)) ⊞ ((.neg (k (23 / 125))) ⊠ (v 249))) ⊞ (v 262)),
   .v 284 ((((v 263) ⊠ (v 94)) ⊞ ((v 85) ⊠ (v 270))) ⊟ (((v 264) ⊠ (v 82)) ⊞ ((v 87) ⊠ (v 260)))),
   .v 279 ((((((((((.neg (k (829 / 1000000))) ⊠ (v 247)) ⊞ ((k (3227 / 1000000)) ⊠ (v 275))) ⊞ ((k (99 / 500000)) ⊠ (v 276))) ⊞ ((.neg (k (61899 / 1600000))) ⊠ (v 283))) ⊞ ((k (99 / 500000)) ⊠ (v 278))) ⊞ ((k (3 / 200000)) ⊠ ((v 271) ⊟ (v 279)))) ⊟ ((k (61899 / 1600000)) ⊠ (v 284))) ⊟ ((.neg (k (73 / 50000))) ⊠ (v 277))) ⊟ ((.neg (k (829 / 1000000))) ⊠ (v 265))),
   .v 278 ((((((((k (3 / 200000)) ⊠ (v 247)) ⊞ ((k (99 / 500000)) ⊠ (v 275))) ⊞ ((k (10737 / 1000000)) ⊠ (v 276))) ⊞ ((k (121 / 20000)) ⊠ (v 278))) ⊞ ((k (3 / 200000)) ⊠ (v 265))) ⊟ ((k (99 / 500000)) ⊠ (v 277))) ⊟ ((.neg (k (829 / 1000000))) ⊠ ((v 271) ⊟ (v 272)))),
   .v 284 (((((k (61899 / 40000)) ⊠ (v 283)) ⊞ ((.neg (k (61899 / 1600000))) ⊠ (v 275))) ⊞ ((k (61899 / 1600000)) ⊠ (v 277))) ⊞ ((k (61899 / 40000)) ⊠ (v 284))),
   .v 283 (((v 248) ⊠ (v 58)) ⊞ ((v 58) ⊠ (v 248))),
   .v 257 (((((((((((((.neg (k (3163 / 250000))) ⊠ (v 232)) ⊞ ((.neg (k (1387 / 1000000))) ⊠ (v 247))) ⊞ ((k (2429 / 125000)) ⊠ (v 249))) ⊞ ((.neg (k (28919 / 500000))) ⊠ (v 262))) ⊞ ((.neg (k (18069 / 1000000))) ⊠ (v 256))) ⊞ ((k (28919 / 500000)) ⊠ (v 282))) ⊞ ((.neg (k (3163 / 250000))) ⊠ (v 281))) ⊞ ((v 77) ⊠ (v 279))) ⊞ ((v 76) ⊠ (v 278))) ⊞ ((.neg (k (23 / 125))) ⊠ (v 284))) ⊟ ((.neg (k (1387 / 1000000))) ⊠ (v 280))) ⊟ ((.neg (k (1243 / 1000000))) ⊠ ((v 257) ⊟ (v 283)))),
   .v 282 ((((((k (2629 / 1250)) ⊠ (v 262)) ⊞ ((.neg (k (28919 / 500000))) ⊠ (v 249))) ⊞ ((k (28919 / 500000)) ⊠ (v 256))) ⊞ ((.neg (k (2629 / 1250))) ⊠ (v 282))) ⊞ (v 284)),
   .v 255 (((((((k (2629 / 1250)) ⊠ (v 254)) ⊞ ((k (28919 / 500000)) ⊠ (v 247))) ⊞ ((k (28919 / 500000)) ⊠ (v 280))) ⊞ ((k (2629 / 1250)) ⊠ (v 255))) ⊞ ((v 77) ⊠ (v 269))) ⊞ ((v 76) ⊠ (v 273))),
   .v 262 ((((v 228) ⊠ (v 44)) ⊞ ((v 32) ⊠ (v 237))) ⊟ (((v 231) ⊠ (v 64)) ⊞ ((v 35) ⊠ (v 250)))),
   .v 277 (((v 228) ⊠ (v 47)) ⊞ ((v 32) ⊠ (v 240))),
   .v 275 (((v 228) ⊠ (v 35)) ⊞ ((v 32) ⊠ (v 231))),
   .v 276 ((((((((((((((((.neg (k (11460001 / 5000000000))) ⊠ (v 227)) ⊞ ((k (1828449 / 100000000)) ⊠ (v 230))) ⊞ ((k (9214321 / 2500000000)) ⊠ (v 232))) ⊞ ((.neg (k (80149129911861 / 500000000000000))) ⊠ (v 233))) ⊞ ((k (152322944854339 / 100000000000000000000000)) ⊠ (v 238))) ⊞ ((k (152322944854339 / 100000000000000000000000)) ⊠ (v 241))) ⊞ ((k (9214321 / 2500000000)) ⊠ (v 242))) ⊞ ((.neg (k (21200017 / 100000000000))) ⊠ ((v 243) ⊟ (v 244)))) ⊞ ((v 52) ⊠ (v 268))) ⊞ ((v 53) ⊠ (v 257))) ⊞ ((v 68) ⊠ (v 282))) ⊞ ((v 61) ⊠ (v 255))) ⊟ ((k (80149129911861 / 500000000000000)) ⊠ (v 262))) ⊟ ((k (1404749 / 100000000)) ⊠ (v 277))) ⊟ ((.neg (k (11460001 / 5000000000))) ⊠ (v 275))),
   .v 272 (((v 228) ⊠ (v 46)) ⊞ ((v 32) ⊠ (v 239))),
   .v 271 (((v 240) ⊠ (v 64)) ⊞ ((v 47) ⊠ (v 250))),
   .v 265 (((v 231) ⊠ (v 35)) ⊞ ((v 35) ⊠ (v 231))),
   .v 284 ((((((((((((((((((((((.neg (k (21200017 / 100000000000))) ⊠ (v 227)) ⊞ ((k (9214321 / 2500000000)) ⊠ (v 230))) ⊞ ((k (81661 / 1000000)) ⊠ (v 232))) ⊞ ((.neg (k (8711861 / 1000000000))) ⊠ (v 233))) ⊞ ((.neg (k (152322944854339 / 100000000000000000000000))) ⊠ (v 252))) ⊞ ((.neg (k (8711861 / 1000000000))) ⊠ (v 262))) ⊞ ((k (152322944854339 / 100000000000000000000000)) ⊠ ((v 272) ⊟ (v 271)))) ⊞ ((k (4839 / 62500)) ⊠ (v 242))) ⊞ ((.neg (k (21200017 / 100000000000))) ⊠ (v 275))) ⊞ ((k (5523 / 500000)) ⊠ (v 232))) ⊞ ((.neg (k (1243 / 1000000))) ⊠ (v 247))) ⊞ ((.neg (k (3163 / 250000))) ⊠ (v 249))) ⊞ ((.neg (k (1243 / 1000000))) ⊠ (v 280))) ⊞ ((k (9683 / 1000000)) ⊠ (v 281))) ⊞ ((v 86) ⊠ (v 279))) ⊞ ((v 77) ⊠ (v 278))) ⊞ ((k (83 / 4000)) ⊠ (v 284))) ⊟ ((.neg (k (3163 / 250000))) ⊠ (v 256))) ⊟ ((.neg (k (1387 / 1000000))) ⊠ ((v 283) ⊟ (v 258)))) ⊟ ((k (9214321 / 2500000000)) ⊠ (v 277))) ⊟ ((.neg (k (11460001 / 5000000000))) ⊠ ((v 243) ⊟ (v 265)))),
   .v 262 ((((((((((.neg (k (80149129911861 / 500000000000000))) ⊠ (v 230)) ⊞ ((.neg (k (8711861 / 1000000000))) ⊠ (v 232))) ⊞ ((k (8711861 / 5000000)) ⊠ (v 233))) ⊞ ((k (8711861 / 5000000)) ⊠ (v 262))) ⊞ ((k (80149129911861 / 500000000000000)) ⊠ (v 277))) ⊞ ((.neg (k (8711861 / 1000000000))) ⊠ (v 242))) ⊞ ((v 53) ⊠ (v 282))) ⊞ ((v 62) ⊠ (v 255))) ⊟ ((k (152322944854339 / 100000000000000000000000)) ⊠ ((v 265) ⊞ (v 244)))),
   .v 281 ((((v 215) ⊠ (v 21)) ⊞ ((v 12) ⊠ (v 221))) ⊟ (((v 218) ⊠ (v 39)) ⊞ ((v 15) ⊠ (v 234)))),
   .v 280 (((v 215) ⊠ (v 23)) ⊞ ((v 12) ⊠ (v 207))),
   .v 256 (((v 215) ⊠ (v 15)) ⊞ ((v 12) ⊠ (v 218))),
   .v 285 (((((((((((((((.neg (k (18998907 / 5000000000))) ⊠ (v 213)) ⊞ ((k (4197379 / 20000000)) ⊠ (v 217))) ⊞ ((k (2699999 / 50000000000)) ⊠ (v 219))) ⊞ ((k (55615274403 / 10000000000000)) ⊠ (v 214))) ⊞ ((k (80995889 / 125000000)) ⊠ (v 222))) ⊞ ((k (80995889 / 125000000)) ⊠ (v 223))) ⊞ ((k (2699999 / 50000000000)) ⊠ (v 224))) ⊞ ((.neg (k (2343059 / 200000000))) ⊠ ((v 225) ⊟ (v 226)))) ⊞ ((v 28) ⊠ (v 276))) ⊞ ((v 30) ⊠ (v 284))) ⊞ ((.neg (k (38 / 125))) ⊠ (v 262))) ⊟ ((.neg (k (55615274403 / 10000000000000))) ⊠ (v 281))) ⊟ ((.neg (k (192033951 / 1000000000))) ⊠ (v 280))) ⊟ ((.neg (k (18998907 / 5000000000))) ⊠ (v 256))),
   .v 286 (((v 207) ⊠ (v 39)) ⊞ ((v 23) ⊠ (v 234))),
   .v 287 (.neg (v 286)),
   .v 288 ((((((((((k (80149129911861 / 500000000000000)) ⊠ (v 227)) ⊞ ((.neg (k (152322944854339 / 100000000000000000000000))) ⊠ (v 232))) ⊞ ((k (8711861 / 5000000)) ⊠ (v 252))) ⊞ ((.neg (k (8711861 / 5000000))) ⊠ ((v 272) ⊟ (v 271)))) ⊞ ((k (80149129911861 / 500000000000000)) ⊠ (v 275))) ⊞ ((k (152322944854339 / 100000000000000000000000)) ⊠ (v 242))) ⊞ ((v 52) ⊠ (v 282))) ⊞ ((v 53) ⊠ (v 255))) ⊟ ((.neg (k (8711861 / 1000000000))) ⊠ ((v 243) ⊞ (v 244)))),
   .v 283 (((((((((((((k (8711861 / 1000000000)) ⊠ (v 227)) ⊞ ((k (152322944854339 / 100000000000000000000000)) ⊠ (v 230))) ⊞ ((k (8711861 / 5000000)) ⊠ (v 238))) ⊞ ((k (8711861 / 5000000)) ⊠ (v 241))) ⊞ ((k (152322944854339 / 100000000000000000000000)) ⊠ (v 277))) ⊞ ((.neg (k (8711861 / 1000000000))) ⊠ (v 275))) ⊞ ((k (2629 / 1250)) ⊠ ((((v 245) ⊠ (v 69)) ⊞ ((v 55) ⊠ (v 253))) ⊟ (((v 248) ⊠ (v 80)) ⊞ ((v 58) ⊠ (v 259)))))) ⊞ ((k (2629 / 1250)) ⊠ (v 238))) ⊞ ((v 79) ⊠ (v 269))) ⊞ ((v 77) ⊠ (v 273))) ⊟ ((k (80149129911861 / 500000000000000)) ⊠ ((v 243) ⊞ (v 265)))) ⊟ ((k (28919 / 500000)) ⊠ ((v 283) ⊞ (v 258)))),
   .v 258 (((v 218) ⊠ (v 15)) ⊞ ((v 15) ⊠ (v 218))),
   .v 281 (((((((((((((((.neg (k (2343059 / 200000000))) ⊠ (v 213)) ⊞ ((k (2699999 / 50000000000)) ⊠ (v 217))) ⊞ ((k (4047279 / 20000000)) ⊠ (v 219))) ⊞ ((k (719043 / 50000000)) ⊠ (v 214))) ⊞ ((.neg (k (80995889 / 125000000))) ⊠ (v 236))) ⊞ ((k (719043 / 50000000)) ⊠ (v 281))) ⊞ ((k (80995889 / 125000000)) ⊠ (v 287))) ⊞ ((.neg (k (199538951 / 1000000000))) ⊠ (v 224))) ⊞ ((.neg (k (2343059 / 200000000))) ⊠ (v 256))) ⊞ ((v 43) ⊠ (v 288))) ⊞ ((v 42) ⊠ (v 283))) ⊞ ((.neg (k 1)) ⊠ ((((((((((((((((k (9570849 / 100000000)) ⊠ (v 227)) ⊞ ((.neg (k (11460001 / 5000000000))) ⊠ (v 230))) ⊞ ((.neg (k (21200017 / 100000000000))) ⊠ (v 232))) ⊞ ((k (80149129911861 / 500000000000000)) ⊠ (v 252))) ⊞ ((k (8711861 / 1000000000)) ⊠ (v 238))) ⊞ ((k (80149129911861 / 500000000000000)) ⊠ ((v 271) ⊟ (v 272)))) ⊞ ((.neg (k (6337651 / 100000000))) ⊠ (v 275))) ⊞ ((.neg (k (11460001 / 5000000000))) ⊠ (v 277))) ⊞ ((v 53) ⊠ (v 268))) ⊞ ((v 54) ⊠ (v 257))) ⊞ ((v 67) ⊠ (v 282))) ⊞ ((v 60) ⊠ (v 255))) ⊟ ((.neg (k (8711861 / 1000000000))) ⊠ (v 241))) ⊟ ((.neg (k (21200017 / 100000000000))) ⊠ (v 242))) ⊟ ((k (9214321 / 2500000000)) ⊠ ((v 265) ⊟ (v 244)))))) ⊟ ((k (2699999 / 50000000000)) ⊠ (v 280))) ⊟ ((.neg (k (18998907 / 5000000000))) ⊠ ((v 225) ⊟ (v 258)))),
   .v 287 ((((((((((.neg (k (55615274403 / 10000000000000))) ⊠ (v 213)) ⊞ ((.neg (k (80995889 / 125000000))) ⊠ (v 219))) ⊞ ((k (2327 / 1000)) ⊠ (v 236))) ⊞ ((.neg (k (2327 / 1000))) ⊠ (v 287))) ⊞ ((.neg (k (55615274403 / 10000000000000))) ⊠ (v 256))) ⊞ ((k (80995889 / 125000000)) ⊠ (v 224))) ⊞ ((v 28) ⊠ (v 288))) ⊞ ((v 30) ⊠ (v 283))) ⊟ ((k (719043 / 50000000)) ⊠ ((v 225) ⊞ (v 226)))),
   .v 262 (((((((((.neg (k (719043 / 50000000))) ⊠ (v 213)) ⊞ ((k (80995889 / 125000000)) ⊠ (v 217))) ⊞ ((k (2327 / 1000)) ⊠ (v 222))) ⊞ ((k (2327 / 1000)) ⊠ (v 223))) ⊞ ((k (80995889 / 125000000)) ⊠ (v 280))) ⊞ ((k (719043 / 50000000)) ⊠ (v 256))) ⊞ ((.neg (k 1)) ⊠ (v 262))) ⊟ ((.neg (k (55615274403 / 10000000000000))) ⊠ ((v 225) ⊞ (v 258)))),
   .v 225 ((v 207) ⊠ (w 1)),
   .v 265 (((v 207) ⊠ (v 5)) ⊞ ((v 1) ⊠ (v 212))),
   .v 271 ((w 6) ⊠ (v 211)),
   .v 272 ((v 271) ⊠ (v 18)),
   .v 275 ((v 271) ⊠ (v 9)),
   .v 277 (((v 272) ⊠ (.neg (k 1))) ⊞ ((v 275) ⊠ (.neg (k (38 / 125))))),
   .v 244 ((v 271) ⊠ (v 19)),
   .v 242 ((v 271) ⊠ (v 10)),
   .v 241 (((v 244) ⊠ (v 28)) ⊞ ((v 242) ⊠ (v 43))),
   .v 243 ((v 242) ⊠ (.neg (k 1))),
   .v 289 ((w 6) ⊠ (v 206)),
   .v 290 (((v 289) ⊠ (v 31)) ⊞ ((v 275) ⊠ (v 28))),
   .v 291 (((((v 277) ⊠ (v 53)) ⊞ ((v 241) ⊠ (v 52))) ⊞ ((v 243) ⊠ (v 67))) ⊞ ((v 290) ⊠ (v 68))),
   .v 292 (((v 289) ⊠ (v 28)) ⊞ ((v 275) ⊠ (v 30)))]

/-- HyAInverseDynHessian.cpp:538-673. -/
def part4 : List Stmt :=
  [.v 293 (((v 243) ⊠ (v 54)) ⊞ ((v 290) ⊠ (v 53))),
   .v 294 (((v 291) ⊞ ((v 292) ⊠ (k (83 / 4000)))) ⊞ ((v 293) ⊠ (.neg (k (23 / 125))))),
   .v 295 (((v 292) ⊠ (v 86)) ⊞ ((v 293) ⊠ (v 77))),
   .v 296 (((v 294) ⊠ (k (61899 / 40000))) ⊞ ((v 295) ⊠ (.neg (k (61899 / 1600000))))),
   .v 297 (((v 296) ⊞ ((v 291) ⊠ (k (2629 / 1250)))) ⊞ ((v 293) ⊠ (.neg (k (28919 / 500000))))),
   .v 298 (((v 244) ⊠ (v 30)) ⊞ ((v 242) ⊠ (v 42))),
   .v 299 (((((v 277) ⊠ (v 62)) ⊞ ((v 241) ⊠ (v 53))) ⊞ ((v 243) ⊠ (v 60))) ⊞ ((v 290) ⊠ (v 61))),
   .v 300 (((v 243) ⊠ (v 53)) ⊞ ((v 290) ⊠ (v 52))),
   .v 301 ((((v 298) ⊠ (v 79)) ⊞ ((v 299) ⊠ (v 77))) ⊞ ((v 300) ⊠ (v 78))),
   .v 302 (((v 301) ⊠ (k (61899 / 40000))) ⊞ ((v 300) ⊠ (k (61899 / 1600000)))),
   .v 303 ((((v 298) ⊠ (v 77)) ⊞ ((v 299) ⊠ (v 76))) ⊞ ((v 300) ⊠ (v 81))),
   .v 304 ((v 303) ⊠ (k (61899 / 40000))),
   .v 305 (((((v 302) ⊠ (v 77)) ⊞ ((v 304) ⊠ (v 76))) ⊞ ((v 299) ⊠ (k (2629 / 1250)))) ⊞ ((v 300) ⊠ (k (28919 / 500000)))),
   .v 306 ((((((v 297) ⊠ (v 52)) ⊞ ((v 305) ⊠ (v 53))) ⊞ ((v 241) ⊠ (k (8711861 / 5000000)))) ⊞ ((v 243) ⊠ (k (80149129911861 / 500000000000000)))) ⊞ ((v 292) ⊠ (.neg (k (152322944854339 / 100000000000000000000000))))),
   .v 307 (((((((v 302) ⊠ (v 79)) ⊞ ((v 304) ⊠ (v 77))) ⊞ ((v 298) ⊠ (k (2629 / 1250)))) ⊞ ((v 298) ⊠ (k (8711861 / 5000000)))) ⊞ ((v 243) ⊠ (k (8711861 / 1000000000)))) ⊞ ((v 290) ⊠ (k (152322944854339 / 100000000000000000000000)))),
   .v 308 ((((((v 306) ⊠ (v 28)) ⊞ ((v 307) ⊠ (v 30))) ⊞ ((v 244) ⊠ (k (2327 / 1000)))) ⊞ ((v 289) ⊠ (.neg (k (55615274403 / 10000000000000))))) ⊞ ((v 242) ⊠ (.neg (k (80995889 / 125000000))))),
   .v 309 ((((((v 297) ⊠ (v 53)) ⊞ ((v 305) ⊠ (v 62))) ⊞ ((v 277) ⊠ (k (8711861 / 5000000)))) ⊞ ((v 290) ⊠ (.neg (k (80149129911861 / 500000000000000))))) ⊞ ((v 292) ⊠ (.neg (k (8711861 / 1000000000))))),
   .v 310 (((((v 309) ⊠ (.neg (k 1))) ⊞ ((v 272) ⊠ (k (2327 / 1000)))) ⊞ ((v 289) ⊠ (.neg (k (719043 / 50000000))))) ⊞ ((v 275) ⊠ (k (80995889 / 125000000)))),
   .v 311 ((v 303) ⊠ (k (61899 / 40000))),
   .v 312 ((v 301) ⊠ (.neg (k (61899 / 40000)))),
   .v 313 ((v 300) ⊠ (k (61899 / 1600000))),
   .v 314 ((v 312) ⊟ (v 313)),
   .v 315 (((((v 138) ⊠ (v 264)) ⊞ ((v 311) ⊠ (v 87))) ⊞ ((v 141) ⊠ (v 263))) ⊞ ((v 314) ⊠ (v 85))),
   .v 316 (((v 299) ⊠ (k (2629 / 1250))) ⊞ ((v 300) ⊠ (k (28919 / 500000)))),
   .v 317 ((k 0) ⊟ (v 316)),
   .v 318 ((v 298) ⊠ (k (2629 / 1250))),
   .v 319 ((((((v 315) ⊞ ((v 144) ⊠ (v 228))) ⊞ ((v 317) ⊠ (v 71))) ⊞ ((v 145) ⊠ (v 245))) ⊞ ((v 318) ⊠ (v 55))) ⊞ ((v 305) ⊠ (w 4))),
   .v 320 ((k 0) ⊟ (v 311)),
   .v 321 (((v 294) ⊠ (k (61899 / 40000))) ⊞ (((k 0) ⊟ (v 295)) ⊠ (k (61899 / 1600000)))),
   .v 322 ((((((v 147) ⊠ (v 248)) ⊞ ((v 320) ⊠ (v 91))) ⊞ ((v 148) ⊠ (v 263))) ⊞ ((v 321) ⊠ (v 85))) ⊞ ((v 304) ⊠ (w 5))),
   .v 313 (((k 0) ⊟ (v 312)) ⊞ (v 313)),
   .v 312 ((k 0) ⊟ (v 321)),
   .v 323 ((((((v 140) ⊠ (v 248)) ⊞ ((v 313) ⊠ (v 91))) ⊞ ((v 139) ⊠ (v 264))) ⊞ ((v 312) ⊠ (v 87))) ⊟ ((v 302) ⊠ (w 5))),
   .v 324 (((v 291) ⊠ (.neg (k (2629 / 1250)))) ⊞ ((v 293) ⊠ (k (28919 / 500000)))),
   .v 325 ((k 0) ⊟ (v 324)),
   .v 326 ((k 0) ⊟ (v 318)),
   .v 327 ((((((((v 322) ⊠ (v 77)) ⊞ ((v 323) ⊠ (v 76))) ⊞ ((v 152) ⊠ (v 228))) ⊞ ((v 325) ⊠ (v 71))) ⊞ ((v 153) ⊠ (v 248))) ⊞ ((v 326) ⊠ (v 58))) ⊟ ((v 297) ⊠ (w 4))),
   .v 328 ((((v 298) ⊠ (k (8711861 / 5000000))) ⊞ (((k 0) ⊟ (v 243)) ⊠ (.neg (k (8711861 / 1000000000))))) ⊞ ((v 290) ⊠ (k (152322944854339 / 100000000000000000000000)))),
   .v 329 ((k 0) ⊟ (v 328)),
   .v 330 ((((v 277) ⊠ (k (8711861 / 5000000))) ⊞ (((k 0) ⊟ (v 290)) ⊠ (k (80149129911861 / 500000000000000)))) ⊞ ((v 292) ⊠ (.neg (k (8711861 / 1000000000))))),
   .v 331 ((((((((v 319) ⊠ (v 52)) ⊞ ((v 327) ⊠ (v 53))) ⊞ ((v 156) ⊠ (v 240))) ⊞ ((v 329) ⊠ (v 47))) ⊞ ((v 157) ⊠ (v 228))) ⊞ ((v 330) ⊠ (v 32))) ⊞ ((v 307) ⊠ (w 3))),
   .v 332 ((v 241) ⊠ (.neg (k (8711861 / 5000000)))),
   .v 333 ((v 243) ⊠ (k (80149129911861 / 500000000000000))),
   .v 334 ((v 292) ⊠ (k (152322944854339 / 100000000000000000000000))),
   .v 335 ((((k 0) ⊟ (v 332)) ⊞ (v 333)) ⊟ (v 334)),
   .v 336 ((k 0) ⊟ (v 330)),
   .v 337 ((((((((((((v 322) ⊠ (v 79)) ⊞ ((v 323) ⊠ (v 77))) ⊞ ((v 143) ⊠ (v 248))) ⊞ ((v 316) ⊠ (v 58))) ⊞ ((v 151) ⊠ (v 245))) ⊞ ((v 324) ⊠ (v 55))) ⊞ ((v 162) ⊠ (v 240))) ⊞ ((v 335) ⊠ (v 47))) ⊞ ((v 163) ⊠ (v 231))) ⊞ ((v 336) ⊠ (v 35))) ⊟ ((v 306) ⊠ (w 3))),
   .v 338 ((k 0) ⊟ ((((v 272) ⊠ (k (2327 / 1000))) ⊞ (((k 0) ⊟ (v 289)) ⊠ (k (719043 / 50000000)))) ⊞ ((v 275) ⊠ (k (80995889 / 125000000))))),
   .v 339 ((((k 0) ⊟ (v 275)) ⊠ (.neg (k (55615274403 / 10000000000000)))) ⊞ ((v 242) ⊠ (k (719043 / 50000000)))),
   .v 340 ((((((((v 331) ⊠ (v 28)) ⊞ ((v 337) ⊠ (v 30))) ⊞ ((v 165) ⊠ (v 207))) ⊞ ((v 338) ⊠ (v 23))) ⊞ ((v 166) ⊠ (v 215))) ⊞ ((v 339) ⊠ (v 12))) ⊞ ((v 310) ⊠ (w 2))),
   .v 334 (((v 332) ⊟ (v 333)) ⊞ (v 334)),
   .v 333 (((((((v 319) ⊠ (v 53)) ⊞ ((v 327) ⊠ (v 62))) ⊞ ((v 155) ⊠ (v 231))) ⊞ ((v 328) ⊠ (v 35))) ⊞ ((v 161) ⊠ (v 228))) ⊞ ((v 334) ⊠ (v 32))),
   .v 332 (((v 289) ⊠ (.neg (k (55615274403 / 10000000000000)))) ⊟ (((v 244) ⊠ (.neg (k (2327 / 1000)))) ⊞ ((v 242) ⊠ (k (80995889 / 125000000))))),
   .v 341 ((k 0) ⊟ (v 339)),
   .v 342 (((((((v 333) ⊠ (.neg (k 1))) ⊞ ((v 159) ⊠ (v 207))) ⊞ ((v 332) ⊠ (v 23))) ⊞ ((v 168) ⊠ (v 218))) ⊞ ((v 341) ⊠ (v 15))) ⊟ ((v 308) ⊠ (w 2))),
   .v 343 (((v 292) ⊠ (v 77)) ⊞ ((v 293) ⊠ (v 76))),
   .v 344 (((((k 0) ⊟ (v 300)) ⊠ (k (3 / 200000))) ⊞ ((v 295) ⊠ (k (99 / 500000)))) ⊞ ((v 343) ⊠ (k (121 / 20000)))),
   .v 345 (((((v 294) ⊠ (k (61899 / 1600000))) ⊞ ((v 300) ⊠ (.neg (k (829 / 1000000))))) ⊞ (((k 0) ⊟ (v 295)) ⊠ (.neg (k (73 / 50000))))) ⊞ (((k 0) ⊟ (v 343)) ⊠ (k (99 / 500000)))),
   .v 303 (((k 0) ⊟ (v 303)) ⊠ (k (61899 / 1600000))),
   .v 346 ((v 295) ⊠ (k (3 / 200000))),
   .v 347 (((k 0) ⊟ (v 343)) ⊠ (.neg (k (829 / 1000000)))),
   .v 348 (((v 303) ⊞ (v 346)) ⊞ (v 347)),
   .v 348 (((((((((((((v 147) ⊠ (v 270)) ⊞ ((v 320) ⊠ (v 94))) ⊞ ((v 140) ⊠ (v 260))) ⊞ ((v 313) ⊠ (v 82))) ⊞ ((v 171) ⊠ (v 264))) ⊞ ((v 344) ⊠ (v 87))) ⊞ ((v 172) ⊠ (v 263))) ⊞ ((v 345) ⊠ (v 85))) ⊞ ((v 175) ⊠ (v 248))) ⊞ ((v 175) ⊠ (v 248))) ⊞ ((v 348) ⊠ (v 91))) ⊞ ((v 348) ⊠ (v 91))),
   .v 313 (((((v 291) ⊠ (k (28919 / 500000))) ⊞ (((k 0) ⊟ (v 292)) ⊠ (.neg (k (3163 / 250000))))) ⊞ ((v 300) ⊠ (.neg (k (1387 / 1000000))))) ⊞ ((v 293) ⊠ (.neg (k (18069 / 1000000))))),
   .v 320 ((((v 292) ⊠ (k (9683 / 1000000))) ⊞ (((k 0) ⊟ (v 300)) ⊠ (.neg (k (1243 / 1000000))))) ⊞ ((v 293) ⊠ (.neg (k (3163 / 250000))))),
   .v 175 (((k 0) ⊟ (v 298)) ⊠ (k (28919 / 500000))),
   .v 140 (((k 0) ⊟ (v 292)) ⊠ (.neg (k (1387 / 1000000)))),
   .v 147 (((k 0) ⊟ (v 293)) ⊠ (.neg (k (1243 / 1000000)))),
   .v 349 (((v 175) ⊞ (v 140)) ⊟ (v 147)),
   .v 294 (((((v 294) ⊠ (.neg (k (61899 / 1600000)))) ⊞ ((v 300) ⊠ (.neg (k (829 / 1000000))))) ⊞ ((v 295) ⊠ (k (3227 / 1000000)))) ⊞ ((v 343) ⊠ (k (99 / 500000)))),
   .v 350 ((((v 300) ⊠ (k (3 / 200000))) ⊞ ((v 295) ⊠ (k (99 / 500000)))) ⊞ ((v 343) ⊠ (k (10737 / 1000000)))),
   .hes 23 ((((((((((v 129) ⊠ (v 261)) ⊞ ((v 302) ⊠ (v 83))) ⊞ ((v 131) ⊠ (v 270))) ⊞ ((v 304) ⊠ (v 94))) ⊞ ((v 120) ⊠ (v 274))) ⊞ ((v 294) ⊠ (v 98))) ⊞ ((v 182) ⊠ (v 264))) ⊞ ((v 350) ⊠ (v 87))) ⊞ (v 348)),
   .v 291 ((((((((v 296) ⊠ (.neg (k (23 / 125)))) ⊞ ((v 294) ⊠ (v 77))) ⊞ ((v 350) ⊠ (v 76))) ⊞ ((v 291) ⊠ (.neg (k (28919 / 500000))))) ⊞ ((v 292) ⊠ (.neg (k (3163 / 250000))))) ⊞ ((v 300) ⊠ (.neg (k (1387 / 1000000))))) ⊞ ((v 293) ⊠ (k (2429 / 125000)))),
   .v 349 ((((((((((((((((v 348) ⊞ ((v 322) ⊠ (v 78))) ⊞ ((v 323) ⊠ (v 81))) ⊞ ((v 143) ⊠ (v 250))) ⊞ ((v 316) ⊠ (v 64))) ⊞ ((v 153) ⊠ (v 259))) ⊞ ((v 326) ⊠ (v 80))) ⊞ ((v 176) ⊠ (v 228))) ⊞ ((v 313) ⊠ (v 71))) ⊞ ((v 177) ⊠ (v 245))) ⊞ ((v 320) ⊠ (v 55))) ⊞ ((v 181) ⊠ (v 248))) ⊞ ((v 181) ⊠ (v 248))) ⊞ ((v 349) ⊠ (v 58))) ⊞ ((v 349) ⊠ (v 58))) ⊞ ((v 291) ⊠ (w 4))),
   .v 348 (((((v 301) ⊠ (k (61899 / 1600000))) ⊞ ((v 300) ⊠ (.neg (k (751 / 100000))))) ⊞ (((k 0) ⊟ (v 295)) ⊠ (.neg (k (829 / 1000000))))) ⊞ ((v 343) ⊠ (k (3 / 200000)))),
   .v 326 (((k 0) ⊟ (v 300)) ⊠ (k (99 / 500000))),
   .v 347 (((v 303) ⊞ (v 326)) ⊟ (v 347)),
   .v 347 ((((((((((((((v 138) ⊠ (v 266)) ⊞ ((v 311) ⊠ (v 89))) ⊞ ((v 139) ⊠ (v 260))) ⊞ ((v 312) ⊠ (v 82))) ⊞ ((v 171) ⊠ (v 248))) ⊞ ((v 344) ⊠ (v 91))) ⊞ ((v 184) ⊠ (v 263))) ⊞ ((v 348) ⊠ (v 85))) ⊞ ((v 174) ⊠ (v 264))) ⊞ ((v 174) ⊠ (v 264))) ⊞ ((v 347) ⊠ (v 87))) ⊞ ((v 347) ⊠ (v 87))) ⊞ ((v 350) ⊠ (w 5))),
   .v 326 (((k 0) ⊟ (v 326)) ⊟ (v 346)),
   .v 326 ((((((((((((((v 141) ⊠ (v 266)) ⊞ ((v 314) ⊠ (v 89))) ⊞ ((v 148) ⊠ (v 270))) ⊞ ((v 321) ⊠ (v 94))) ⊞ ((v 172) ⊠ (v 248))) ⊞ ((v 345) ⊠ (v 91))) ⊞ ((v 184) ⊠ (v 264))) ⊞ ((v 348) ⊠ (v 87))) ⊞ ((v 185) ⊠ (v 263))) ⊞ ((v 185) ⊠ (v 263))) ⊞ ((v 326) ⊠ (v 85))) ⊞ ((v 326) ⊠ (v 85))) ⊟ ((v 294) ⊠ (w 5))),
   .v 348 (((((v 299) ⊠ (k (28919 / 500000))) ⊞ ((v 292) ⊠ (.neg (k (1243 / 1000000))))) ⊞ (((k 0) ⊟ (v 300)) ⊠ (.neg (k (4193 / 500000))))) ⊞ (((k 0) ⊟ (v 293)) ⊠ (.neg (k (1387 / 1000000))))),
   .v 345 ((v 300) ⊠ (.neg (k (3163 / 250000)))),
   .v 140 (((v 175) ⊟ (v 140)) ⊟ (v 345)),
   .v 343 (((((((((((v 301) ⊠ (k (61899 / 1600000))) ⊞ ((v 300) ⊠ (k (9277 / 1000000)))) ⊞ ((v 295) ⊠ (.neg (k (829 / 1000000))))) ⊞ ((v 343) ⊠ (k (3 / 200000)))) ⊞ ((v 302) ⊠ (v 78))) ⊞ ((v 304) ⊠ (v 81))) ⊞ ((v 299) ⊠ (k (28919 / 500000)))) ⊞ ((v 292) ⊠ (.neg (k (1243 / 1000000))))) ⊞ ((v 300) ⊠ (k (5823 / 200000)))) ⊞ ((v 293) ⊠ (.neg (k (1387 / 1000000))))),
   .v 140 (((((((((((((((((v 315) ⊠ (.neg (k (23 / 125)))) ⊞ ((v 347) ⊠ (v 77))) ⊞ ((v 326) ⊠ (v 76))) ⊞ ((v 151) ⊠ (v 250))) ⊞ ((v 324) ⊠ (v 64))) ⊞ ((v 145) ⊠ (v 253))) ⊞ ((v 318) ⊠ (v 69))) ⊞ ((v 186) ⊠ (v 228))) ⊞ ((v 348) ⊠ (v 71))) ⊞ ((v 177) ⊠ (v 248))) ⊞ ((v 320) ⊠ (v 58))) ⊞ ((v 179) ⊠ (v 245))) ⊞ ((v 179) ⊠ (v 245))) ⊞ ((v 140) ⊠ (v 55))) ⊞ ((v 140) ⊠ (v 55))) ⊟ ((v 343) ⊠ (w 4))),
   .v 320 ((((((v 277) ⊠ (.neg (k (8711861 / 1000000000)))) ⊞ ((v 241) ⊠ (k (152322944854339 / 100000000000000000000000)))) ⊞ (((k 0) ⊟ (v 243)) ⊠ (.neg (k (21200017 / 100000000000))))) ⊞ ((v 290) ⊠ (k (9214321 / 2500000000)))) ⊞ ((v 292) ⊠ (k (4839 / 62500)))),
   .v 324 ((((((v 241) ⊠ (k (80149129911861 / 500000000000000))) ⊞ ((v 298) ⊠ (.neg (k (8711861 / 1000000000))))) ⊞ ((v 243) ⊠ (.neg (k (6337651 / 100000000))))) ⊞ (((k 0) ⊟ (v 290)) ⊠ (.neg (k (11460001 / 5000000000))))) ⊞ ((v 292) ⊠ (.neg (k (21200017 / 100000000000))))),
   .v 318 (((k 0) ⊟ (v 277)) ⊠ (k (152322944854339 / 100000000000000000000000))),
   .v 179 (((k 0) ⊟ (v 298)) ⊠ (k (80149129911861 / 500000000000000))),
   .v 177 (((k 0) ⊟ (v 243)) ⊠ (k (9214321 / 2500000000))),
   .v 151 (((k 0) ⊟ (v 292)) ⊠ (.neg (k (11460001 / 5000000000)))),
   .v 145 ((((v 318) ⊞ (v 179)) ⊞ (v 177)) ⊟ (v 151)),
   .v 296 ((((((((((((v 296) ⊠ (k (83 / 4000))) ⊞ ((v 294) ⊠ (v 86))) ⊞ ((v 350) ⊠ (v 77))) ⊞ ((v 292) ⊠ (k (5523 / 500000)))) ⊞ ((v 300) ⊠ (.neg (k (1243 / 1000000))))) ⊞ ((v 293) ⊠ (.neg (k (3163 / 250000))))) ⊞ ((v 277) ⊠ (.neg (k (8711861 / 1000000000))))) ⊞ ((v 241) ⊠ (.neg (k (152322944854339 / 100000000000000000000000))))) ⊞ ((v 243) ⊠ (.neg (k (21200017 / 100000000000))))) ⊞ ((v 290) ⊠ (k (9214321 / 2500000000)))) ⊞ ((v 292) ⊠ (k (81661 / 1000000)))),
   .v 145 ((((((((((((((((((v 319) ⊠ (v 68)) ⊞ ((v 327) ⊠ (v 61))) ⊞ ((v 349) ⊠ (v 52))) ⊞ ((v 140) ⊠ (v 53))) ⊞ ((v 155) ⊠ (v 239))) ⊞ ((v 328) ⊠ (v 46))) ⊞ ((v 163) ⊠ (v 250))) ⊞ ((v 336) ⊠ (v 64))) ⊞ ((v 127) ⊠ (v 240))) ⊞ ((v 320) ⊠ (v 47))) ⊞ ((v 121) ⊠ (v 228))) ⊞ ((v 324) ⊠ (v 32))) ⊞ ((v 191) ⊠ (v 231))) ⊞ ((v 191) ⊠ (v 231))) ⊞ ((v 145) ⊠ (v 35))) ⊞ ((v 145) ⊠ (v 35))) ⊞ ((v 296) ⊠ (w 3))),
   .v 345 ((v 345) ⊞ (v 147)),
   .v 345 ((((((((((((((((v 315) ⊠ (k (83 / 4000))) ⊞ ((v 347) ⊠ (v 86))) ⊞ ((v 326) ⊠ (v 77))) ⊞ ((v 144) ⊠ (v 253))) ⊞ ((v 317) ⊠ (v 69))) ⊞ ((v 152) ⊠ (v 259))) ⊞ ((v 325) ⊠ (v 80))) ⊞ ((v 176) ⊠ (v 248))) ⊞ ((v 313) ⊠ (v 58))) ⊞ ((v 186) ⊠ (v 245))) ⊞ ((v 348) ⊠ (v 55))) ⊞ ((v 187) ⊠ (v 228))) ⊞ ((v 187) ⊠ (v 228))) ⊞ ((v 345) ⊠ (v 71))) ⊞ ((v 345) ⊠ (v 71))),
   .hes 22 ((((((((((v 123) ⊠ (v 267)) ⊞ ((v 297) ⊠ (v 90))) ⊞ ((v 132) ⊠ (v 253))) ⊞ ((v 305) ⊠ (v 69))) ⊞ ((v 170) ⊠ (v 246))) ⊞ ((v 343) ⊠ (v 56))) ⊞ ((v 116) ⊠ (v 248))) ⊞ ((v 291) ⊠ (v 58))) ⊞ (v 345)),
   .v 267 ((((((v 277) ⊠ (k (80149129911861 / 500000000000000))) ⊞ ((v 298) ⊠ (k (152322944854339 / 100000000000000000000000)))) ⊞ ((v 243) ⊠ (.neg (k (11460001 / 5000000000))))) ⊞ (((k 0) ⊟ (v 290)) ⊠ (k (1404749 / 100000000)))) ⊞ (((k 0) ⊟ (v 292)) ⊠ (k (9214321 / 2500000000)))),
   .v 253 (((k 0) ⊟ (v 241)) ⊠ (.neg (k (8711861 / 1000000000)))),
   .v 246 ((v 290) ⊠ (.neg (k (21200017 / 100000000000))))]

/-- HyAInverseDynHessian.cpp:674-926. -/
def part5 : List Stmt :=
  [.v 177 ((((v 318) ⊞ (v 253)) ⊟ (v 177)) ⊟ (v 246)),
   .v 318 ((((((((((v 297) ⊠ (v 68)) ⊞ ((v 305) ⊠ (v 61))) ⊞ ((v 343) ⊠ (v 52))) ⊞ ((v 291) ⊠ (v 53))) ⊞ ((v 277) ⊠ (.neg (k (80149129911861 / 500000000000000))))) ⊞ ((v 298) ⊠ (k (152322944854339 / 100000000000000000000000)))) ⊞ ((v 243) ⊠ (.neg (k (11460001 / 5000000000))))) ⊞ ((v 290) ⊠ (k (1828449 / 100000000)))) ⊞ ((v 292) ⊠ (k (9214321 / 2500000000)))),
   .v 177 ((((((((((((((v 345) ⊞ ((v 161) ⊠ (v 239))) ⊞ ((v 334) ⊠ (v 46))) ⊞ ((v 157) ⊠ (v 237))) ⊞ ((v 330) ⊠ (v 44))) ⊞ ((v 180) ⊠ (v 240))) ⊞ ((v 267) ⊠ (v 47))) ⊞ ((v 121) ⊠ (v 231))) ⊞ ((v 324) ⊠ (v 35))) ⊞ ((v 189) ⊠ (v 228))) ⊞ ((v 189) ⊠ (v 228))) ⊞ ((v 177) ⊠ (v 32))) ⊞ ((v 177) ⊠ (v 32))) ⊟ ((v 318) ⊠ (w 3))),
   .v 345 (((((v 244) ⊠ (k (80995889 / 125000000))) ⊞ (((k 0) ⊟ (v 289)) ⊠ (.neg (k (2343059 / 200000000))))) ⊞ ((v 275) ⊠ (k (2699999 / 50000000000)))) ⊞ ((v 242) ⊠ (.neg (k (199538951 / 1000000000))))),
   .v 324 ((((((v 244) ⊠ (.neg (k (55615274403 / 10000000000000)))) ⊞ ((v 272) ⊠ (k (719043 / 50000000)))) ⊞ ((v 289) ⊠ (k (750500000000001 / 100000000000000000)))) ⊞ (((k 0) ⊟ (v 275)) ⊠ (.neg (k (18998907 / 5000000000))))) ⊞ ((v 242) ⊠ (.neg (k (2343059 / 200000000))))),
   .v 334 (((k 0) ⊟ (v 272)) ⊠ (.neg (k (55615274403 / 10000000000000)))),
   .v 330 (((k 0) ⊟ (v 289)) ⊠ (k (2699999 / 50000000000))),
   .v 189 (((k 0) ⊟ (v 242)) ⊠ (.neg (k (18998907 / 5000000000)))),
   .v 121 (((v 334) ⊞ (v 330)) ⊟ (v 189)),
   .v 161 ((((((((v 306) ⊠ (v 43)) ⊞ ((v 307) ⊠ (v 42))) ⊞ (((((((((((v 297) ⊠ (v 67)) ⊞ ((v 305) ⊠ (v 60))) ⊞ ((v 343) ⊠ (v 53))) ⊞ ((v 291) ⊠ (v 54))) ⊞ ((v 241) ⊠ (k (80149129911861 / 500000000000000)))) ⊞ ((v 298) ⊠ (k (8711861 / 1000000000)))) ⊞ ((v 243) ⊠ (k (9570849 / 100000000)))) ⊞ ((v 290) ⊠ (.neg (k (11460001 / 5000000000))))) ⊞ ((v 292) ⊠ (.neg (k (21200017 / 100000000000))))) ⊠ (.neg (k 1)))) ⊞ ((v 244) ⊠ (.neg (k (80995889 / 125000000))))) ⊞ ((v 289) ⊠ (.neg (k (2343059 / 200000000))))) ⊞ ((v 275) ⊠ (k (2699999 / 50000000000)))) ⊞ ((v 242) ⊠ (k (4047279 / 20000000)))),
   .v 121 (((((((((((((((v 333) ⊠ (.neg (k (38 / 125)))) ⊞ ((v 145) ⊠ (v 28))) ⊞ ((v 177) ⊠ (v 30))) ⊞ ((v 168) ⊠ (v 234))) ⊞ ((v 341) ⊠ (v 39))) ⊞ ((v 195) ⊠ (v 207))) ⊞ ((v 345) ⊠ (v 23))) ⊞ ((v 196) ⊠ (v 215))) ⊞ ((v 324) ⊠ (v 12))) ⊞ ((v 200) ⊠ (v 218))) ⊞ ((v 200) ⊠ (v 218))) ⊞ ((v 121) ⊠ (v 15))) ⊞ ((v 121) ⊠ (v 15))) ⊞ ((v 161) ⊠ (w 2))),
   .v 246 ((((v 253) ⊞ (v 179)) ⊞ (v 246)) ⊞ (v 151)),
   .v 246 (((((((((((((((((v 319) ⊠ (v 67)) ⊞ ((v 327) ⊠ (v 60))) ⊞ ((v 349) ⊠ (v 53))) ⊞ ((v 140) ⊠ (v 54))) ⊞ ((v 156) ⊠ (v 237))) ⊞ ((v 329) ⊠ (v 44))) ⊞ ((v 162) ⊠ (v 250))) ⊞ ((v 335) ⊠ (v 64))) ⊞ ((v 127) ⊠ (v 231))) ⊞ ((v 320) ⊠ (v 35))) ⊞ ((v 180) ⊠ (v 228))) ⊞ ((v 267) ⊠ (v 32))) ⊞ ((v 194) ⊠ (v 240))) ⊞ ((v 194) ⊠ (v 240))) ⊞ ((v 246) ⊠ (v 47))) ⊞ ((v 246) ⊠ (v 47))),
   .hes 21 ((((((((((v 133) ⊠ (v 251)) ⊞ ((v 306) ⊠ (v 65))) ⊞ ((v 134) ⊠ (v 237))) ⊞ ((v 307) ⊠ (v 44))) ⊞ ((v 178) ⊠ (v 229))) ⊞ ((v 318) ⊠ (v 33))) ⊞ ((v 122) ⊠ (v 231))) ⊞ ((v 296) ⊠ (v 35))) ⊞ (v 246)),
   .v 251 (((((v 272) ⊠ (k (80995889 / 125000000))) ⊞ ((v 289) ⊠ (.neg (k (18998907 / 5000000000))))) ⊞ (((k 0) ⊟ (v 275)) ⊠ (.neg (k (192033951 / 1000000000))))) ⊞ (((k 0) ⊟ (v 242)) ⊠ (k (2699999 / 50000000000)))),
   .v 229 (((k 0) ⊟ (v 244)) ⊠ (k (719043 / 50000000))),
   .v 267 ((v 275) ⊠ (.neg (k (2343059 / 200000000)))),
   .v 330 (((v 229) ⊟ (v 330)) ⊟ (v 267)),
   .v 309 ((((((((v 309) ⊠ (.neg (k (38 / 125)))) ⊞ ((v 318) ⊠ (v 28))) ⊞ ((v 296) ⊠ (v 30))) ⊞ ((v 272) ⊠ (k (80995889 / 125000000)))) ⊞ ((v 289) ⊠ (.neg (k (18998907 / 5000000000))))) ⊞ ((v 275) ⊠ (k (4197379 / 20000000)))) ⊞ ((v 242) ⊠ (k (2699999 / 50000000000)))),
   .v 330 (((((((((((((((v 331) ⊠ (v 43)) ⊞ ((v 337) ⊠ (v 42))) ⊞ ((v 246) ⊠ (.neg (k 1)))) ⊞ ((v 166) ⊠ (v 221))) ⊞ ((v 339) ⊠ (v 21))) ⊞ ((v 193) ⊠ (v 207))) ⊞ ((v 251) ⊠ (v 23))) ⊞ ((v 196) ⊠ (v 218))) ⊞ ((v 324) ⊠ (v 15))) ⊞ ((v 198) ⊠ (v 215))) ⊞ ((v 198) ⊠ (v 215))) ⊞ ((v 330) ⊠ (v 12))) ⊞ ((v 330) ⊠ (v 12))) ⊟ ((v 309) ⊠ (w 2))),
   .v 246 ((((k 0) ⊟ (v 271)) ⊠ (.neg (k (43 / 15625)))) ⊞ ((v 289) ⊠ (.neg (k (22851627 / 1000000000))))),
   .v 324 (((k 0) ⊟ (v 289)) ⊠ (.neg (k (43 / 15625)))),
   .v 339 ((k 0) ⊟ (v 324)),
   .v 272 ((((((((((((v 318) ⊠ (v 31)) ⊞ ((v 296) ⊠ (v 28))) ⊞ ((v 244) ⊠ (.neg (k (55615274403 / 10000000000000))))) ⊞ ((v 272) ⊠ (.neg (k (719043 / 50000000))))) ⊞ ((v 289) ⊠ (k (10329999 / 1000000000)))) ⊞ ((v 275) ⊠ (.neg (k (18998907 / 5000000000))))) ⊞ ((v 242) ⊠ (.neg (k (2343059 / 200000000))))) ⊞ ((v 271) ⊠ (k (55279857 / 10000000000)))) ⊞ ((v 289) ⊠ (k (9750749 / 250000000)))) ⊞ ((v 271) ⊠ (k (55279857 / 10000000000)))) ⊞ ((v 289) ⊠ (.neg (k (17231001 / 500000000))))),
   .v 339 ((((((((((((v 340) ⊠ (v 19)) ⊞ ((v 342) ⊠ (v 18))) ⊞ ((v 121) ⊠ (v 9))) ⊞ ((v 330) ⊠ (v 10))) ⊞ ((v 202) ⊠ (v 207))) ⊞ ((v 246) ⊠ (v 1))) ⊞ ((v 204) ⊠ (v 212))) ⊞ ((v 204) ⊠ (v 212))) ⊞ ((v 339) ⊠ (v 5))) ⊞ ((v 339) ⊠ (v 5))) ⊞ ((v 272) ⊠ (w 1))),
   .v 188 ((((v 190) ⊞ (v 197)) ⊞ (v 188)) ⊞ (v 199)),
   .v 267 ((((v 229) ⊞ (v 334)) ⊞ (v 267)) ⊞ (v 189)),
   .v 267 (((((((((((((((v 145) ⊠ (v 31)) ⊞ ((v 177) ⊠ (v 28))) ⊞ ((v 165) ⊠ (v 221))) ⊞ ((v 338) ⊠ (v 21))) ⊞ ((v 159) ⊠ (v 234))) ⊞ ((v 332) ⊠ (v 39))) ⊞ ((v 195) ⊠ (v 218))) ⊞ ((v 345) ⊠ (v 15))) ⊞ ((v 193) ⊠ (v 215))) ⊞ ((v 251) ⊠ (v 12))) ⊞ ((v 188) ⊠ (v 207))) ⊞ ((v 188) ⊠ (v 207))) ⊞ ((v 267) ⊠ (v 23))) ⊞ ((v 267) ⊠ (v 23))),
   .hes 20 ((((((((((v 135) ⊠ (v 235)) ⊞ ((v 308) ⊠ (v 40))) ⊞ ((v 137) ⊠ (v 221))) ⊞ ((v 310) ⊠ (v 21))) ⊞ ((v 136) ⊠ (v 216))) ⊞ ((v 309) ⊠ (v 13))) ⊞ ((v 117) ⊠ (v 218))) ⊞ ((v 161) ⊠ (v 15))) ⊞ (v 267)),
   .v 235 ((((k 0) ⊟ (v 271)) ⊠ (k (3097633 / 250000000))) ⊞ (((k 0) ⊟ (v 289)) ⊠ (k (55279857 / 10000000000)))),
   .v 203 (((k 0) ⊟ (v 203)) ⊟ ((v 95) ⊠ (.neg (k (22851627 / 1000000000))))),
   .v 216 ((v 271) ⊠ (.neg (k (22851627 / 1000000000)))),
   .v 251 ((k 0) ⊟ (v 216)),
   .v 345 (((((((v 308) ⊠ (v 19)) ⊞ ((v 310) ⊠ (v 18))) ⊞ ((v 309) ⊠ (v 9))) ⊞ ((v 161) ⊠ (v 10))) ⊞ ((v 271) ⊠ (k (8585553 / 100000000)))) ⊞ ((v 289) ⊠ (k (55279857 / 10000000000)))),
   .v 251 (((((((((v 267) ⊞ ((v 235) ⊠ (w 1))) ⊞ ((v 202) ⊠ (v 212))) ⊞ ((v 246) ⊠ (v 5))) ⊞ ((v 203) ⊠ (v 207))) ⊞ ((v 203) ⊠ (v 207))) ⊞ ((v 251) ⊠ (v 1))) ⊞ ((v 251) ⊠ (v 1))) ⊟ ((v 345) ⊠ (w 1))),
   .v 267 ((((w 7) ⊠ (.neg (k (43 / 15625)))) ⊞ (((k 0) ⊟ (v 95)) ⊠ (k (3097633 / 250000000)))) ⊞ (((k 0) ⊟ (v 113)) ⊠ (k (55279857 / 10000000000)))),
   .v 246 ((((((((v 135) ⊠ (v 19)) ⊞ ((v 137) ⊠ (v 18))) ⊞ ((v 136) ⊠ (v 9))) ⊞ ((v 117) ⊠ (v 10))) ⊞ ((w 7) ⊠ (.neg (k (43 / 15625))))) ⊞ ((v 95) ⊠ (k (8585553 / 100000000)))) ⊞ ((v 113) ⊠ (k (55279857 / 10000000000)))),
   .v 203 ((((((((((((((v 192) ⊠ (v 31)) ⊞ ((v 142) ⊠ (v 28))) ⊞ ((v 165) ⊠ (v 21))) ⊞ ((v 159) ⊠ (v 39))) ⊞ ((v 195) ⊠ (v 15))) ⊞ ((v 193) ⊠ (v 12))) ⊞ ((v 188) ⊠ (v 23))) ⊞ ((v 188) ⊠ (v 23))) ⊞ ((v 267) ⊠ (w 1))) ⊞ ((v 202) ⊠ (v 5))) ⊞ ((v 203) ⊠ (v 1))) ⊞ ((v 203) ⊠ (v 1))) ⊟ ((v 246) ⊠ (w 1))),
   .hes 13 ((((((k 0) ⊟ ((((w 6) ⊠ ((((((((((((k (8585553 / 100000000)) ⊠ (v 3)) ⊞ ((k (55279857 / 10000000000)) ⊠ (v 6))) ⊞ ((k (12417687489 / 1250000000000)) ⊠ (v 7))) ⊞ ((k (55279857 / 10000000000)) ⊠ (v 6))) ⊞ ((.neg (k (22851627 / 1000000000))) ⊠ ((v 8) ⊟ ((v 1) ⊠ (v 1))))) ⊞ ((v 9) ⊠ (v 109))) ⊞ ((v 10) ⊠ (v 105))) ⊞ ((v 19) ⊠ (v 111))) ⊞ ((v 18) ⊠ (v 84))) ⊟ ((k (3097633 / 250000000)) ⊠ (v 26))) ⊟ ((.neg (k (43 / 15625))) ⊠ (v 88)))) ⊞ ((((((v 135) ⊠ (v 9)) ⊞ ((v 137) ⊠ (v 10))) ⊞ ((w 7) ⊠ (k (58674846781787 / 200000000000000)))) ⊞ ((v 113) ⊠ (.neg (k (12417687489 / 1250000000000))))) ⊠ (k (981 / 100)))) ⊞ ((v 205) ⊠ (w 0)))) ⊠ (v 4)) ⊟ (((((w 6) ⊠ ((((((((((((k (8585553 / 100000000)) ⊠ (v 209)) ⊞ ((k (55279857 / 10000000000)) ⊠ (v 213))) ⊞ ((k (12417687489 / 1250000000000)) ⊠ (v 214))) ⊞ ((k (55279857 / 10000000000)) ⊠ (v 213))) ⊞ ((.neg (k (22851627 / 1000000000))) ⊠ ((k 0) ⊟ (((v 207) ⊠ (v 1)) ⊞ ((v 1) ⊠ (v 207)))))) ⊞ ((v 9) ⊠ (v 285))) ⊞ ((v 10) ⊠ (v 281))) ⊞ ((v 19) ⊠ (v 287))) ⊞ ((v 18) ⊠ (v 262))) ⊟ ((k (3097633 / 250000000)) ⊠ (v 225))) ⊟ ((.neg (k (43 / 15625))) ⊠ (v 265)))) ⊞ (((((v 308) ⊠ (v 9)) ⊞ ((v 310) ⊠ (v 10))) ⊞ ((v 289) ⊠ (.neg (k (12417687489 / 1250000000000))))) ⊠ (k (981 / 100)))) ⊞ ((v 339) ⊠ (w 0))) ⊠ (v 210))) ⊞ (((((w 6) ⊠ (((((((((((((((((((((k (55279857 / 10000000000)) ⊠ (v 209)) ⊞ ((k (9750749 / 250000000)) ⊠ (v 213))) ⊞ ((.neg (k (12417687489 / 1250000000000))) ⊠ (v 220))) ⊞ ((.neg (k (17231001 / 500000000))) ⊠ (v 213))) ⊞ ((.neg (k (22851627 / 1000000000))) ⊠ (v 265))) ⊞ ((k (10329999 / 1000000000)) ⊠ (v 213))) ⊞ ((.neg (k (18998907 / 5000000000))) ⊠ (v 217))) ⊞ ((.neg (k (2343059 / 200000000))) ⊠ (v 219))) ⊞ ((.neg (k (55615274403 / 10000000000000))) ⊠ (v 236))) ⊞ ((.neg (k (719043 / 50000000))) ⊠ (v 222))) ⊞ ((.neg (k (55615274403 / 10000000000000))) ⊠ (v 286))) ⊞ ((k (750500000000001 / 100000000000000000)) ⊠ (v 256))) ⊞ ((.neg (k (18998907 / 5000000000))) ⊠ (v 280))) ⊞ ((v 31) ⊠ (v 276))) ⊞ ((v 28) ⊠ (v 284))) ⊟ ((k (719043 / 50000000)) ⊠ (v 223))) ⊟ ((.neg (k (2343059 / 200000000))) ⊠ (v 224))) ⊟ ((k (2699999 / 50000000000)) ⊠ ((v 258) ⊟ (v 226)))) ⊟ ((k (55279857 / 10000000000)) ⊠ (v 225))) ⊟ ((.neg (k (43 / 15625))) ⊠ ((k 0) ⊟ (((v 212) ⊠ (v 5)) ⊞ ((v 5) ⊠ (v 212))))))) ⊞ (((((((v 306) ⊠ (v 63)) ⊞ ((v 307) ⊠ (v 28))) ⊞ ((v 275) ⊠ (k (55615274403 / 10000000000000)))) ⊞ ((v 242) ⊠ (k (719043 / 50000000)))) ⊞ ((v 271) ⊠ (k (12417687489 / 1250000000000)))) ⊠ (k (981 / 100)))) ⊞ ((v 251) ⊠ (w 0))) ⊠ (v 206))) ⊟ (((((w 6) ⊠ (((((((((((((((((((((k (55279857 / 10000000000)) ⊠ (v 3)) ⊞ ((k (9750749 / 250000000)) ⊠ (v 6))) ⊞ ((.neg (k (12417687489 / 1250000000000))) ⊠ (v 17))) ⊞ ((.neg (k (17231001 / 500000000))) ⊠ (v 6))) ⊞ ((.neg (k (22851627 / 1000000000))) ⊠ (v 88))) ⊞ ((k (10329999 / 1000000000)) ⊠ (v 6))) ⊞ ((.neg (k (18998907 / 5000000000))) ⊠ (v 14))) ⊞ ((.neg (k (2343059 / 200000000))) ⊠ (v 16))) ⊞ ((.neg (k (55615274403 / 10000000000000))) ⊠ (v 41))) ⊞ ((.neg (k (719043 / 50000000))) ⊠ (v 22))) ⊞ ((.neg (k (55615274403 / 10000000000000))) ⊠ (v 110))) ⊞ ((k (750500000000001 / 100000000000000000)) ⊠ (v 73))) ⊞ ((.neg (k (18998907 / 5000000000))) ⊠ (v 104))) ⊞ ((v 31) ⊠ (v 100))) ⊞ ((v 28) ⊠ (v 108))) ⊟ ((k (719043 / 50000000)) ⊠ (v 24))) ⊟ ((.neg (k (2343059 / 200000000))) ⊠ (v 25))) ⊟ ((k (2699999 / 50000000000)) ⊠ ((v 75) ⊟ (v 27)))) ⊟ ((k (55279857 / 10000000000)) ⊠ (v 26))) ⊟ ((.neg (k (43 / 15625))) ⊠ ((v 8) ⊟ ((v 5) ⊠ (v 5)))))) ⊞ ((((((((v 133) ⊠ (v 63)) ⊞ ((v 134) ⊠ (v 28))) ⊞ ((v 99) ⊠ (k (55615274403 / 10000000000000)))) ⊞ ((v 49) ⊠ (k (719043 / 50000000)))) ⊞ ((w 7) ⊠ (k (303079716981 / 5000000000000)))) ⊞ ((v 95) ⊠ (k (12417687489 / 1250000000000)))) ⊠ (k (981 / 100)))) ⊞ ((v 203) ⊠ (w 0))) ⊠ (v 0))),
   .hes 18 (((((v 205) ⊠ (v 211)) ⊞ ((v 339) ⊠ (v 4))) ⊞ ((v 203) ⊠ (v 206))) ⊞ ((v 251) ⊠ (v 0))),
   .v 203 (.sin (x 2)),
   .v 251 (.cos (x 2)),
   .hes 14 (((k 0) ⊟ (((((((((((((v 95) ⊠ (v 285)) ⊞ ((v 271) ⊠ (v 109))) ⊞ ((v 135) ⊠ (v 220))) ⊞ ((v 308) ⊠ (v 17))) ⊞ ((v 136) ⊠ (v 209))) ⊞ ((v 309) ⊠ (v 3))) ⊞ ((v 160) ⊠ (v 212))) ⊞ ((v 121) ⊠ (v 5))) ⊞ ((((w 7) ⊠ (v 287)) ⊞ ((v 340) ⊠ (w 1))) ⊠ (k (14 / 125)))) ⊞ ((((((((v 95) ⊠ (v 262)) ⊞ ((v 271) ⊠ (v 84))) ⊞ ((v 137) ⊠ (v 209))) ⊞ ((v 310) ⊠ (v 3))) ⊞ ((v 169) ⊠ (v 212))) ⊞ ((v 342) ⊠ (v 5))) ⊠ (k (14 / 125)))) ⊟ (((w 7) ⊠ (v 281)) ⊞ ((v 330) ⊠ (w 1)))) ⊠ (v 203))) ⊞ ((((((((((((((w 7) ⊠ (v 285)) ⊞ ((v 95) ⊠ (v 281))) ⊞ ((v 271) ⊠ (v 105))) ⊞ ((v 137) ⊠ (v 220))) ⊞ ((v 310) ⊠ (v 17))) ⊞ ((v 117) ⊠ (v 209))) ⊞ ((v 161) ⊠ (v 3))) ⊞ ((v 121) ⊠ (w 1))) ⊞ ((v 201) ⊠ (v 212))) ⊞ ((v 330) ⊠ (v 5))) ⊞ ((((((((v 95) ⊠ (v 287)) ⊞ ((v 271) ⊠ (v 111))) ⊞ ((v 135) ⊠ (v 209))) ⊞ ((v 308) ⊠ (v 3))) ⊞ ((v 167) ⊠ (v 212))) ⊞ ((v 340) ⊠ (v 5))) ⊠ (.neg (k (14 / 125))))) ⊞ ((((w 7) ⊠ (v 262)) ⊞ ((v 342) ⊠ (w 1))) ⊠ (k (14 / 125)))) ⊠ (v 251))),
   .v 309 (.sin (x 3)),
   .v 161 (.cos (x 3)),
   .hes 15 (((k 0) ⊟ (((((((((((((((((((((((v 51) ⊠ (v 288)) ⊞ ((v 244) ⊠ (v 112))) ⊞ ((v 114) ⊠ (v 284))) ⊞ ((v 289) ⊠ (v 108))) ⊞ ((v 99) ⊠ (v 276))) ⊞ ((v 275) ⊠ (v 100))) ⊞ ((v 133) ⊠ (v 236))) ⊞ ((v 306) ⊠ (v 41))) ⊞ ((v 134) ⊠ (v 214))) ⊞ ((v 307) ⊠ (v 7))) ⊞ ((v 178) ⊠ (v 217))) ⊞ ((v 318) ⊠ (v 14))) ⊞ ((v 122) ⊠ (v 213))) ⊞ ((v 296) ⊠ (v 6))) ⊞ ((v 158) ⊠ (v 221))) ⊞ ((v 331) ⊠ (v 21))) ⊞ ((v 192) ⊠ (v 218))) ⊞ ((v 145) ⊠ (v 15))) ⊞ ((v 142) ⊠ (v 207))) ⊞ ((v 177) ⊠ (v 23))) ⊞ ((((((((v 49) ⊠ (v 288)) ⊞ ((v 242) ⊠ (v 112))) ⊞ ((v 133) ⊠ (v 219))) ⊞ ((v 306) ⊠ (v 16))) ⊞ ((v 158) ⊠ (v 215))) ⊞ ((v 331) ⊠ (v 12))) ⊠ (.neg (k (38 / 125))))) ⊠ (v 309))) ⊞ (((((((((((((((((v 51) ⊠ (v 283)) ⊞ ((v 244) ⊠ (v 107))) ⊞ ((v 99) ⊠ (v 284))) ⊞ ((v 275) ⊠ (v 108))) ⊞ ((v 134) ⊠ (v 236))) ⊞ ((v 307) ⊠ (v 41))) ⊞ ((v 122) ⊠ (v 217))) ⊞ ((v 296) ⊠ (v 14))) ⊞ ((v 164) ⊠ (v 221))) ⊞ ((v 337) ⊠ (v 21))) ⊞ ((v 142) ⊠ (v 218))) ⊞ ((v 177) ⊠ (v 15))) ⊟ (((v 133) ⊠ (v 214)) ⊞ ((v 306) ⊠ (v 7)))) ⊞ ((((((((v 49) ⊠ (v 283)) ⊞ ((v 242) ⊠ (v 107))) ⊞ ((v 134) ⊠ (v 219))) ⊞ ((v 307) ⊠ (v 16))) ⊞ ((v 164) ⊠ (v 215))) ⊞ ((v 337) ⊠ (v 12))) ⊠ (.neg (k (38 / 125))))) ⊟ (((((((v 114) ⊠ (v 276)) ⊞ ((v 289) ⊠ (v 100))) ⊞ ((v 178) ⊠ (v 213))) ⊞ ((v 318) ⊠ (v 6))) ⊞ ((v 192) ⊠ (v 207))) ⊞ ((v 145) ⊠ (v 23)))) ⊠ (v 161))),
   .v 177 (.sin (x 4)),
   .v 318 (.cos (x 4)),
   .hes 16 (((k 0) ⊟ ((((((((((((((((((v 48) ⊠ (v 282)) ⊞ ((v 241) ⊠ (v 106))) ⊞ ((v 115) ⊠ (v 268))) ⊞ ((v 290) ⊠ (v 92))) ⊞ ((v 123) ⊠ (v 252))) ⊞ ((v 297) ⊠ (v 66))) ⊞ ((v 170) ⊠ (v 230))) ⊞ ((v 343) ⊠ (v 34))) ⊞ ((v 146) ⊠ (v 237))) ⊞ ((v 319) ⊠ (v 44))) ⊞ ((v 183) ⊠ (v 231))) ⊞ ((v 349) ⊠ (v 35))) ⊞ ((((((((v 50) ⊠ (v 282)) ⊞ ((v 243) ⊠ (v 106))) ⊞ ((v 123) ⊠ (v 227))) ⊞ ((v 297) ⊠ (v 29))) ⊞ ((v 146) ⊠ (v 240))) ⊞ ((v 319) ⊠ (v 47))) ⊠ (k (14 / 125)))) ⊟ (((((((v 101) ⊠ (v 255)) ⊞ ((v 277) ⊠ (v 72))) ⊞ ((v 132) ⊠ (v 233))) ⊞ ((v 305) ⊠ (v 37))) ⊞ ((v 154) ⊠ (v 239))) ⊞ ((v 327) ⊠ (v 46)))) ⊞ ((((((((v 115) ⊠ (v 255)) ⊞ ((v 290) ⊠ (v 72))) ⊞ ((v 132) ⊠ (v 230))) ⊞ ((v 305) ⊠ (v 34))) ⊞ ((v 154) ⊠ (v 231))) ⊞ ((v 327) ⊠ (v 35))) ⊠ (k (14 / 125)))) ⊟ (((((((v 50) ⊠ (v 257)) ⊞ ((v 243) ⊠ (v 74))) ⊞ ((v 116) ⊠ (v 227))) ⊞ ((v 291) ⊠ (v 29))) ⊞ ((v 128) ⊠ (v 240))) ⊞ ((v 140) ⊠ (v 47)))) ⊠ (v 177))) ⊞ ((((((((((((((((((((((((((((v 101) ⊠ (v 282)) ⊞ ((v 277) ⊠ (v 106))) ⊞ ((v 48) ⊠ (v 255))) ⊞ ((v 241) ⊠ (v 72))) ⊞ ((v 50) ⊠ (v 268))) ⊞ ((v 243) ⊠ (v 92))) ⊞ ((v 115) ⊠ (v 257))) ⊞ ((v 290) ⊠ (v 74))) ⊞ ((v 123) ⊠ (v 233))) ⊞ ((v 297) ⊠ (v 37))) ⊞ ((v 132) ⊠ (v 252))) ⊞ ((v 305) ⊠ (v 66))) ⊞ ((v 170) ⊠ (v 227))) ⊞ ((v 343) ⊠ (v 29))) ⊞ ((v 116) ⊠ (v 230))) ⊞ ((v 291) ⊠ (v 34))) ⊞ ((v 146) ⊠ (v 239))) ⊞ ((v 319) ⊠ (v 46))) ⊞ ((v 154) ⊠ (v 237))) ⊞ ((v 327) ⊠ (v 44))) ⊞ ((v 183) ⊠ (v 240))) ⊞ ((v 349) ⊠ (v 47))) ⊞ ((v 128) ⊠ (v 231))) ⊞ ((v 140) ⊠ (v 35))) ⊞ ((((((((v 115) ⊠ (v 282)) ⊞ ((v 290) ⊠ (v 106))) ⊞ ((v 123) ⊠ (v 230))) ⊞ ((v 297) ⊠ (v 34))) ⊞ ((v 146) ⊠ (v 231))) ⊞ ((v 319) ⊠ (v 35))) ⊠ (.neg (k (14 / 125))))) ⊞ ((((((((v 50) ⊠ (v 255)) ⊞ ((v 243) ⊠ (v 72))) ⊞ ((v 132) ⊠ (v 227))) ⊞ ((v 305) ⊠ (v 29))) ⊞ ((v 154) ⊠ (v 240))) ⊞ ((v 327) ⊠ (v 47))) ⊠ (k (14 / 125)))) ⊠ (v 318))),
   .v 140 (((((((v 126) ⊠ (v 269)) ⊞ ((v 300) ⊠ (v 93))) ⊞ ((v 129) ⊠ (v 247))) ⊞ ((v 302) ⊠ (v 57))) ⊞ ((v 149) ⊠ (v 248))) ⊞ ((v 322) ⊠ (v 58))),
   .v 300 (((((((v 126) ⊠ (v 273)) ⊞ ((v 300) ⊠ (v 97))) ⊞ ((v 131) ⊠ (v 247))) ⊞ ((v 304) ⊠ (v 57))) ⊞ ((v 150) ⊠ (v 248))) ⊞ ((v 323) ⊠ (v 58))),
   .v 248 (.sin (x 5)),
   .v 247 (.cos (x 5)),
   .hes 17 (((k 0) ⊟ ((((((((((((((((((((((((((((v 124) ⊠ (v 273)) ⊞ ((v 298) ⊠ (v 97))) ⊞ ((v 125) ⊠ (v 269))) ⊞ ((v 299) ⊠ (v 93))) ⊞ ((v 118) ⊠ (v 278))) ⊞ ((v 292) ⊠ (v 102))) ⊞ ((v 119) ⊠ (v 279))) ⊞ ((v 293) ⊠ (v 103))) ⊞ ((v 129) ⊠ (v 254))) ⊞ ((v 302) ⊠ (v 70))) ⊞ ((v 131) ⊠ (v 238))) ⊞ ((v 304) ⊠ (v 45))) ⊞ ((v 120) ⊠ (v 249))) ⊞ ((v 294) ⊠ (v 59))) ⊞ ((v 182) ⊠ (v 232))) ⊞ ((v 350) ⊠ (v 36))) ⊞ ((v 149) ⊠ (v 259))) ⊞ ((v 322) ⊠ (v 80))) ⊞ ((v 150) ⊠ (v 250))) ⊞ ((v 323) ⊠ (v 64))) ⊞ ((v 130) ⊠ (v 245))) ⊞ ((v 347) ⊠ (v 55))) ⊞ ((v 173) ⊠ (v 228))) ⊞ ((v 326) ⊠ (v 71))) ⊞ ((v 140) ⊠ (k (23 / 125)))) ⊞ (((k 0) ⊟ (v 300)) ⊠ (k (83 / 4000)))) ⊠ (v 248))) ⊞ ((((((((((((((((((v 125) ⊠ (v 273)) ⊞ ((v 299) ⊠ (v 97))) ⊞ ((v 119) ⊠ (v 278))) ⊞ ((v 293) ⊠ (v 102))) ⊞ ((v 131) ⊠ (v 254))) ⊞ ((v 304) ⊠ (v 70))) ⊞ ((v 182) ⊠ (v 249))) ⊞ ((v 350) ⊠ (v 59))) ⊞ ((v 150) ⊠ (v 259))) ⊞ ((v 323) ⊠ (v 80))) ⊞ ((v 173) ⊠ (v 245))) ⊞ ((v 326) ⊠ (v 55))) ⊟ (((((((v 124) ⊠ (v 269)) ⊞ ((v 298) ⊠ (v 93))) ⊞ ((v 129) ⊠ (v 238))) ⊞ ((v 302) ⊠ (v 45))) ⊞ ((v 149) ⊠ (v 250))) ⊞ ((v 322) ⊠ (v 64)))) ⊞ ((v 140) ⊠ (k (83 / 4000)))) ⊞ ((v 300) ⊠ (k (23 / 125)))) ⊟ (((((((v 118) ⊠ (v 279)) ⊞ ((v 292) ⊠ (v 103))) ⊞ ((v 120) ⊠ (v 232))) ⊞ ((v 294) ⊠ (v 36))) ⊞ ((v 130) ⊠ (v 228))) ⊞ ((v 347) ⊠ (v 71)))) ⊠ (v 247))),
   .v 216 ((v 216) ⊞ (v 324)),
   .hes 19 (((((((((((((v 340) ⊠ (v 20)) ⊞ ((v 342) ⊠ (v 38))) ⊞ ((v 121) ⊠ (v 10))) ⊞ ((v 330) ⊠ (v 11))) ⊞ ((v 267) ⊠ (v 207))) ⊞ ((v 235) ⊠ (v 1))) ⊞ ((v 216) ⊠ (w 1))) ⊞ ((v 216) ⊠ (w 1))) ⊞ ((v 246) ⊠ (v 208))) ⊞ ((v 345) ⊠ (v 2))) ⊞ ((v 96) ⊠ (v 212))) ⊞ ((v 272) ⊠ (v 5))),
   .v 216 ((w 6) ⊠ (v 4)),
   .v 246 (((w 7) ⊠ (v 38)) ⊞ ((v 216) ⊠ (v 18))),
   .v 267 (((w 7) ⊠ (v 10)) ⊞ ((v 216) ⊠ (v 9))),
   .v 345 (((v 246) ⊠ (.neg (k 1))) ⊞ ((v 267) ⊠ (.neg (k (38 / 125))))),
   .v 235 (((w 7) ⊠ (v 20)) ⊞ ((v 216) ⊠ (v 19))),
   .v 272 (((w 7) ⊠ (v 11)) ⊞ ((v 216) ⊠ (v 10))),
   .v 330 (((v 235) ⊠ (v 28)) ⊞ ((v 272) ⊠ (v 43))),
   .v 121 ((w 9) ⊞ ((v 272) ⊠ (.neg (k 1)))),
   .v 342 ((w 8) ⊞ ((w 6) ⊠ (v 0))),
   .v 340 (((v 342) ⊠ (v 31)) ⊞ ((v 267) ⊠ (v 28))),
   .v 212 (((((v 345) ⊠ (v 53)) ⊞ ((v 330) ⊠ (v 52))) ⊞ ((v 121) ⊠ (v 67))) ⊞ ((v 340) ⊠ (v 68))),
   .v 208 (((v 342) ⊠ (v 28)) ⊞ ((v 267) ⊠ (v 30))),
   .v 207 ((w 10) ⊞ (v 208)),
   .v 96 (((v 121) ⊠ (v 54)) ⊞ ((v 340) ⊠ (v 53))),
   .v 1 (((v 212) ⊞ ((v 207) ⊠ (k (83 / 4000)))) ⊞ ((v 96) ⊠ (.neg (k (23 / 125))))),
   .v 324 (((v 207) ⊠ (v 86)) ⊞ ((v 96) ⊠ (v 77))),
   .v 300 (((v 1) ⊠ (k (61899 / 40000))) ⊞ ((v 324) ⊠ (.neg (k (61899 / 1600000))))),
   .v 140 (((v 300) ⊞ ((v 212) ⊠ (k (2629 / 1250)))) ⊞ ((v 96) ⊠ (.neg (k (28919 / 500000))))),
   .v 326 (((v 235) ⊠ (v 30)) ⊞ ((v 272) ⊠ (v 42))),
   .v 347 (((((v 345) ⊠ (v 62)) ⊞ ((v 330) ⊠ (v 53))) ⊞ ((v 121) ⊠ (v 60))) ⊞ ((v 340) ⊠ (v 61))),
   .v 350 (((v 121) ⊠ (v 53)) ⊞ ((v 340) ⊠ (v 52))),
   .v 294 ((((v 326) ⊠ (v 79)) ⊞ ((v 347) ⊠ (v 77))) ⊞ ((v 350) ⊠ (v 78))),
   .v 323 ((w 11) ⊞ (v 350)),
   .v 322 (((v 294) ⊠ (k (61899 / 40000))) ⊞ ((v 323) ⊠ (k (61899 / 1600000)))),
   .v 304 ((((v 326) ⊠ (v 77)) ⊞ ((v 347) ⊠ (v 76))) ⊞ ((v 350) ⊠ (v 81))),
   .v 302 ((v 304) ⊠ (k (61899 / 40000))),
   .v 299 (((((v 322) ⊠ (v 77)) ⊞ ((v 302) ⊠ (v 76))) ⊞ ((v 347) ⊠ (k (2629 / 1250)))) ⊞ ((v 350) ⊠ (k (28919 / 500000)))),
   .v 298 ((((((v 140) ⊠ (v 52)) ⊞ ((v 299) ⊠ (v 53))) ⊞ ((v 330) ⊠ (k (8711861 / 5000000)))) ⊞ ((v 121) ⊠ (k (80149129911861 / 500000000000000)))) ⊞ ((v 208) ⊠ (.neg (k (152322944854339 / 100000000000000000000000))))),
   .v 293 (((((((v 322) ⊠ (v 79)) ⊞ ((v 302) ⊠ (v 77))) ⊞ ((v 326) ⊠ (k (2629 / 1250)))) ⊞ ((v 326) ⊠ (k (8711861 / 5000000)))) ⊞ ((v 121) ⊠ (k (8711861 / 1000000000)))) ⊞ ((v 340) ⊠ (k (152322944854339 / 100000000000000000000000)))),
   .v 292 ((((((v 298) ⊠ (v 28)) ⊞ ((v 293) ⊠ (v 30))) ⊞ ((v 235) ⊠ (k (2327 / 1000)))) ⊞ ((v 342) ⊠ (.neg (k (55615274403 / 10000000000000))))) ⊞ ((v 272) ⊠ (.neg (k (80995889 / 125000000))))),
   .v 278 ((((((v 140) ⊠ (v 53)) ⊞ ((v 299) ⊠ (v 62))) ⊞ ((v 345) ⊠ (k (8711861 / 5000000)))) ⊞ ((v 340) ⊠ (.neg (k (80149129911861 / 500000000000000))))) ⊞ ((v 208) ⊠ (.neg (k (8711861 / 1000000000))))),
   .v 279 (((v 207) ⊠ (v 77)) ⊞ ((v 96) ⊠ (v 76))),
   .v 273 (((((((((((v 294) ⊠ (k (61899 / 1600000))) ⊞ ((v 323) ⊠ (k (9277 / 1000000)))) ⊞ ((v 324) ⊠ (.neg (k (829 / 1000000))))) ⊞ ((v 279) ⊠ (k (3 / 200000)))) ⊞ ((v 322) ⊠ (v 78))) ⊞ ((v 302) ⊠ (v 81))) ⊞ ((v 347) ⊠ (k (28919 / 500000)))) ⊞ ((v 207) ⊠ (.neg (k (1243 / 1000000))))) ⊞ ((v 350) ⊠ (k (5823 / 200000)))) ⊞ ((v 96) ⊠ (.neg (k (1387 / 1000000))))),
   .v 269 (((((v 1) ⊠ (.neg (k (61899 / 1600000)))) ⊞ ((v 323) ⊠ (.neg (k (829 / 1000000))))) ⊞ ((v 324) ⊠ (k (3227 / 1000000)))) ⊞ ((v 279) ⊠ (k (99 / 500000)))),
   .v 259 ((((v 323) ⊠ (k (3 / 200000))) ⊞ ((v 324) ⊠ (k (99 / 500000)))) ⊞ ((v 279) ⊠ (k (10737 / 1000000)))),
   .v 254 ((((((((v 300) ⊠ (.neg (k (23 / 125)))) ⊞ ((v 269) ⊠ (v 77))) ⊞ ((v 259) ⊠ (v 76))) ⊞ ((v 212) ⊠ (.neg (k (28919 / 500000))))) ⊞ ((v 207) ⊠ (.neg (k (3163 / 250000))))) ⊞ ((v 350) ⊠ (.neg (k (1387 / 1000000))))) ⊞ ((v 96) ⊠ (k (2429 / 125000)))),
   .v 250 ((((((((((v 140) ⊠ (v 68)) ⊞ ((v 299) ⊠ (v 61))) ⊞ ((v 273) ⊠ (v 52))) ⊞ ((v 254) ⊠ (v 53))) ⊞ ((v 345) ⊠ (.neg (k (80149129911861 / 500000000000000))))) ⊞ ((v 326) ⊠ (k (152322944854339 / 100000000000000000000000)))) ⊞ ((v 121) ⊠ (.neg (k (11460001 / 5000000000))))) ⊞ ((v 340) ⊠ (k (1828449 / 100000000)))) ⊞ ((v 208) ⊠ (k (9214321 / 2500000000)))),
   .v 300 ((((((((((((v 300) ⊠ (k (83 / 4000))) ⊞ ((v 269) ⊠ (v 86))) ⊞ ((v 259) ⊠ (v 77))) ⊞ ((v 207) ⊠ (k (5523 / 500000)))) ⊞ ((v 350) ⊠ (.neg (k (1243 / 1000000))))) ⊞ ((v 96) ⊠ (.neg (k (3163 / 250000))))) ⊞ ((v 345) ⊠ (.neg (k (8711861 / 1000000000))))) ⊞ ((v 330) ⊠ (.neg (k (152322944854339 / 100000000000000000000000))))) ⊞ ((v 121) ⊠ (.neg (k (21200017 / 100000000000))))) ⊞ ((v 340) ⊠ (k (9214321 / 2500000000)))) ⊞ ((v 208) ⊠ (k (81661 / 1000000)))),
   .v 249 ((((((((v 278) ⊠ (.neg (k (38 / 125)))) ⊞ ((v 250) ⊠ (v 28))) ⊞ ((v 300) ⊠ (v 30))) ⊞ ((v 246) ⊠ (k (80995889 / 125000000)))) ⊞ ((v 342) ⊠ (.neg (k (18998907 / 5000000000))))) ⊞ ((v 267) ⊠ (k (4197379 / 20000000)))) ⊞ ((v 272) ⊠ (k (2699999 / 50000000000)))),
   .v 245 ((v 304) ⊠ (k (61899 / 40000))),
   .v 238 ((v 294) ⊠ (.neg (k (61899 / 40000)))),
   .v 232 ((v 323) ⊠ (k (61899 / 1600000))),
   .v 228 ((v 238) ⊟ (v 232)),
   .v 173 (((v 245) ⊠ (v 87)) ⊞ ((v 228) ⊠ (v 85)))]

/-- HyAInverseDynHessian.cpp:927-1052. -/
def part6 : List Stmt :=
  [.v 130 (((v 347) ⊠ (k (2629 / 1250))) ⊞ ((v 350) ⊠ (k (28919 / 500000)))),
   .v 182 ((k 0) ⊟ (v 130)),
   .v 120 ((v 326) ⊠ (k (2629 / 1250))),
   .v 150 ((((v 173) ⊞ ((v 182) ⊠ (v 71))) ⊞ ((v 120) ⊠ (v 55))) ⊞ ((v 299) ⊠ (w 4))),
   .v 149 ((k 0) ⊟ (v 245)),
   .v 131 (((v 1) ⊠ (k (61899 / 40000))) ⊞ (((k 0) ⊟ (v 324)) ⊠ (k (61899 / 1600000)))),
   .v 129 ((((v 149) ⊠ (v 91)) ⊞ ((v 131) ⊠ (v 85))) ⊞ ((v 302) ⊠ (w 5))),
   .v 232 (((k 0) ⊟ (v 238)) ⊞ (v 232)),
   .v 238 ((k 0) ⊟ (v 131)),
   .v 125 ((((v 232) ⊠ (v 91)) ⊞ ((v 238) ⊠ (v 87))) ⊟ ((v 322) ⊠ (w 5))),
   .v 124 (((v 212) ⊠ (.neg (k (2629 / 1250)))) ⊞ ((v 96) ⊠ (k (28919 / 500000)))),
   .v 119 ((k 0) ⊟ (v 124)),
   .v 118 ((k 0) ⊟ (v 120)),
   .v 126 ((((((v 129) ⊠ (v 77)) ⊞ ((v 125) ⊠ (v 76))) ⊞ ((v 119) ⊠ (v 71))) ⊞ ((v 118) ⊠ (v 58))) ⊟ ((v 140) ⊠ (w 4))),
   .v 343 ((((v 326) ⊠ (k (8711861 / 5000000))) ⊞ (((k 0) ⊟ (v 121)) ⊠ (.neg (k (8711861 / 1000000000))))) ⊞ ((v 340) ⊠ (k (152322944854339 / 100000000000000000000000)))),
   .v 349 ((v 330) ⊠ (.neg (k (8711861 / 5000000)))),
   .v 291 ((v 121) ⊠ (k (80149129911861 / 500000000000000))),
   .v 327 ((v 208) ⊠ (k (152322944854339 / 100000000000000000000000))),
   .v 319 (((v 349) ⊟ (v 291)) ⊞ (v 327)),
   .v 305 (((((v 150) ⊠ (v 53)) ⊞ ((v 126) ⊠ (v 62))) ⊞ ((v 343) ⊠ (v 35))) ⊞ ((v 319) ⊠ (v 32))),
   .v 297 (((((k 0) ⊟ (v 323)) ⊠ (k (3 / 200000))) ⊞ ((v 324) ⊠ (k (99 / 500000)))) ⊞ ((v 279) ⊠ (k (121 / 20000)))),
   .v 1 (((((v 1) ⊠ (k (61899 / 1600000))) ⊞ ((v 323) ⊠ (.neg (k (829 / 1000000))))) ⊞ (((k 0) ⊟ (v 324)) ⊠ (.neg (k (73 / 50000))))) ⊞ (((k 0) ⊟ (v 279)) ⊠ (k (99 / 500000)))),
   .v 304 (((k 0) ⊟ (v 304)) ⊠ (k (61899 / 1600000))),
   .v 290 ((v 324) ⊠ (k (3 / 200000))),
   .v 243 (((k 0) ⊟ (v 279)) ⊠ (.neg (k (829 / 1000000)))),
   .v 241 (((v 304) ⊞ (v 290)) ⊞ (v 243)),
   .v 212 (((((v 212) ⊠ (k (28919 / 500000))) ⊞ (((k 0) ⊟ (v 207)) ⊠ (.neg (k (3163 / 250000))))) ⊞ ((v 350) ⊠ (.neg (k (1387 / 1000000))))) ⊞ ((v 96) ⊠ (.neg (k (18069 / 1000000))))),
   .v 277 ((((v 207) ⊠ (k (9683 / 1000000))) ⊞ (((k 0) ⊟ (v 350)) ⊠ (.neg (k (1243 / 1000000))))) ⊞ ((v 96) ⊠ (.neg (k (3163 / 250000))))),
   .v 255 (((k 0) ⊟ (v 326)) ⊠ (k (28919 / 500000))),
   .v 282 (((k 0) ⊟ (v 207)) ⊠ (.neg (k (1387 / 1000000)))),
   .v 257 (((k 0) ⊟ (v 96)) ⊠ (.neg (k (1243 / 1000000)))),
   .v 268 (((v 255) ⊞ (v 282)) ⊟ (v 257)),
   .v 252 ((((((((((((((((v 149) ⊠ (v 94)) ⊞ ((v 232) ⊠ (v 82))) ⊞ ((v 297) ⊠ (v 87))) ⊞ ((v 1) ⊠ (v 85))) ⊞ ((v 241) ⊠ (v 91))) ⊞ ((v 241) ⊠ (v 91))) ⊞ ((v 129) ⊠ (v 78))) ⊞ ((v 125) ⊠ (v 81))) ⊞ ((v 130) ⊠ (v 64))) ⊞ ((v 118) ⊠ (v 80))) ⊞ ((v 212) ⊠ (v 71))) ⊞ ((v 277) ⊠ (v 55))) ⊞ ((v 268) ⊠ (v 58))) ⊞ ((v 268) ⊠ (v 58))) ⊞ ((v 254) ⊠ (w 4))),
   .v 279 (((((v 294) ⊠ (k (61899 / 1600000))) ⊞ ((v 323) ⊠ (.neg (k (751 / 100000))))) ⊞ (((k 0) ⊟ (v 324)) ⊠ (.neg (k (829 / 1000000))))) ⊞ ((v 279) ⊠ (k (3 / 200000)))),
   .v 323 (((k 0) ⊟ (v 323)) ⊠ (k (99 / 500000))),
   .v 243 (((v 304) ⊞ (v 323)) ⊟ (v 243)),
   .v 304 ((((((((v 245) ⊠ (v 89)) ⊞ ((v 238) ⊠ (v 82))) ⊞ ((v 297) ⊠ (v 91))) ⊞ ((v 279) ⊠ (v 85))) ⊞ ((v 243) ⊠ (v 87))) ⊞ ((v 243) ⊠ (v 87))) ⊞ ((v 259) ⊠ (w 5))),
   .v 323 (((k 0) ⊟ (v 323)) ⊟ (v 290)),
   .v 290 ((((((((v 228) ⊠ (v 89)) ⊞ ((v 131) ⊠ (v 94))) ⊞ ((v 1) ⊠ (v 91))) ⊞ ((v 279) ⊠ (v 87))) ⊞ ((v 323) ⊠ (v 85))) ⊞ ((v 323) ⊠ (v 85))) ⊟ ((v 269) ⊠ (w 5))),
   .v 294 (((((v 347) ⊠ (k (28919 / 500000))) ⊞ ((v 207) ⊠ (.neg (k (1243 / 1000000))))) ⊞ (((k 0) ⊟ (v 350)) ⊠ (.neg (k (4193 / 500000))))) ⊞ (((k 0) ⊟ (v 96)) ⊠ (.neg (k (1387 / 1000000))))),
   .v 324 ((v 350) ⊠ (.neg (k (3163 / 250000)))),
   .v 282 (((v 255) ⊟ (v 282)) ⊟ (v 324)),
   .v 255 (((((((((((v 173) ⊠ (.neg (k (23 / 125)))) ⊞ ((v 304) ⊠ (v 77))) ⊞ ((v 290) ⊠ (v 76))) ⊞ ((v 124) ⊠ (v 64))) ⊞ ((v 120) ⊠ (v 69))) ⊞ ((v 294) ⊠ (v 71))) ⊞ ((v 277) ⊠ (v 58))) ⊞ ((v 282) ⊠ (v 55))) ⊞ ((v 282) ⊠ (v 55))) ⊟ ((v 273) ⊠ (w 4))),
   .v 240 ((((v 345) ⊠ (k (8711861 / 5000000))) ⊞ (((k 0) ⊟ (v 340)) ⊠ (k (80149129911861 / 500000000000000)))) ⊞ ((v 208) ⊠ (.neg (k (8711861 / 1000000000))))),
   .v 239 ((k 0) ⊟ (v 240)),
   .v 237 ((((((v 345) ⊠ (.neg (k (8711861 / 1000000000)))) ⊞ ((v 330) ⊠ (k (152322944854339 / 100000000000000000000000)))) ⊞ (((k 0) ⊟ (v 121)) ⊠ (.neg (k (21200017 / 100000000000))))) ⊞ ((v 340) ⊠ (k (9214321 / 2500000000)))) ⊞ ((v 208) ⊠ (k (4839 / 62500)))),
   .v 233 ((((((v 330) ⊠ (k (80149129911861 / 500000000000000))) ⊞ ((v 326) ⊠ (.neg (k (8711861 / 1000000000))))) ⊞ ((v 121) ⊠ (.neg (k (6337651 / 100000000))))) ⊞ (((k 0) ⊟ (v 340)) ⊠ (.neg (k (11460001 / 5000000000))))) ⊞ ((v 208) ⊠ (.neg (k (21200017 / 100000000000))))),
   .v 231 (((k 0) ⊟ (v 345)) ⊠ (k (152322944854339 / 100000000000000000000000))),
   .v 230 (((k 0) ⊟ (v 326)) ⊠ (k (80149129911861 / 500000000000000))),
   .v 227 (((k 0) ⊟ (v 121)) ⊠ (k (9214321 / 2500000000))),
   .v 128 (((k 0) ⊟ (v 208)) ⊠ (.neg (k (11460001 / 5000000000)))),
   .v 170 ((((v 231) ⊞ (v 230)) ⊞ (v 227)) ⊟ (v 128)),
   .v 183 ((((((((((((v 150) ⊠ (v 68)) ⊞ ((v 126) ⊠ (v 61))) ⊞ ((v 252) ⊠ (v 52))) ⊞ ((v 255) ⊠ (v 53))) ⊞ ((v 343) ⊠ (v 46))) ⊞ ((v 239) ⊠ (v 64))) ⊞ ((v 237) ⊠ (v 47))) ⊞ ((v 233) ⊠ (v 32))) ⊞ ((v 170) ⊠ (v 35))) ⊞ ((v 170) ⊠ (v 35))) ⊞ ((v 300) ⊠ (w 3))),
   .v 324 ((v 324) ⊞ (v 257)),
   .v 257 ((((((v 345) ⊠ (k (80149129911861 / 500000000000000))) ⊞ ((v 326) ⊠ (k (152322944854339 / 100000000000000000000000)))) ⊞ ((v 121) ⊠ (.neg (k (11460001 / 5000000000))))) ⊞ (((k 0) ⊟ (v 340)) ⊠ (k (1404749 / 100000000)))) ⊞ (((k 0) ⊟ (v 208)) ⊠ (k (9214321 / 2500000000)))),
   .v 116 (((k 0) ⊟ (v 330)) ⊠ (.neg (k (8711861 / 1000000000)))),
   .v 154 ((v 340) ⊠ (.neg (k (21200017 / 100000000000)))),
   .v 227 ((((v 231) ⊞ (v 116)) ⊟ (v 227)) ⊟ (v 154)),
   .v 173 (((((((((((((((((v 173) ⊠ (k (83 / 4000))) ⊞ ((v 304) ⊠ (v 86))) ⊞ ((v 290) ⊠ (v 77))) ⊞ ((v 182) ⊠ (v 69))) ⊞ ((v 119) ⊠ (v 80))) ⊞ ((v 212) ⊠ (v 58))) ⊞ ((v 294) ⊠ (v 55))) ⊞ ((v 324) ⊠ (v 71))) ⊞ ((v 324) ⊠ (v 71))) ⊞ ((v 319) ⊠ (v 46))) ⊞ ((v 240) ⊠ (v 44))) ⊞ ((v 257) ⊠ (v 47))) ⊞ ((v 233) ⊠ (v 35))) ⊞ ((v 227) ⊠ (v 32))) ⊞ ((v 227) ⊠ (v 32))) ⊟ ((v 250) ⊠ (w 3))),
   .v 231 ((((k 0) ⊟ (v 267)) ⊠ (.neg (k (55615274403 / 10000000000000)))) ⊞ ((v 272) ⊠ (k (719043 / 50000000)))),
   .v 146 ((k 0) ⊟ (v 231)),
   .v 132 (((((v 235) ⊠ (k (80995889 / 125000000))) ⊞ (((k 0) ⊟ (v 342)) ⊠ (.neg (k (2343059 / 200000000))))) ⊞ ((v 267) ⊠ (k (2699999 / 50000000000)))) ⊞ ((v 272) ⊠ (.neg (k (199538951 / 1000000000))))),
   .v 123 ((((((v 235) ⊠ (.neg (k (55615274403 / 10000000000000)))) ⊞ ((v 246) ⊠ (k (719043 / 50000000)))) ⊞ ((v 342) ⊠ (k (750500000000001 / 100000000000000000)))) ⊞ (((k 0) ⊟ (v 267)) ⊠ (.neg (k (18998907 / 5000000000))))) ⊞ ((v 272) ⊠ (.neg (k (2343059 / 200000000))))),
   .v 115 (((k 0) ⊟ (v 342)) ⊠ (k (2699999 / 50000000000))),
   .v 50 (((((k 0) ⊟ (v 246)) ⊠ (.neg (k (55615274403 / 10000000000000)))) ⊞ (v 115)) ⊟ (((k 0) ⊟ (v 272)) ⊠ (.neg (k (18998907 / 5000000000))))),
   .v 208 ((((((((v 298) ⊠ (v 43)) ⊞ ((v 293) ⊠ (v 42))) ⊞ (((((((((((v 140) ⊠ (v 67)) ⊞ ((v 299) ⊠ (v 60))) ⊞ ((v 273) ⊠ (v 53))) ⊞ ((v 254) ⊠ (v 54))) ⊞ ((v 330) ⊠ (k (80149129911861 / 500000000000000)))) ⊞ ((v 326) ⊠ (k (8711861 / 1000000000)))) ⊞ ((v 121) ⊠ (k (9570849 / 100000000)))) ⊞ ((v 340) ⊠ (.neg (k (11460001 / 5000000000))))) ⊞ ((v 208) ⊠ (.neg (k (21200017 / 100000000000))))) ⊠ (.neg (k 1)))) ⊞ ((v 235) ⊠ (.neg (k (80995889 / 125000000))))) ⊞ ((v 342) ⊠ (.neg (k (2343059 / 200000000))))) ⊞ ((v 267) ⊠ (k (2699999 / 50000000000)))) ⊞ ((v 272) ⊠ (k (4047279 / 20000000)))),
   .v 48 ((((((((((v 305) ⊠ (.neg (k (38 / 125)))) ⊞ ((v 183) ⊠ (v 28))) ⊞ ((v 173) ⊠ (v 30))) ⊞ ((v 146) ⊠ (v 39))) ⊞ ((v 132) ⊠ (v 23))) ⊞ ((v 123) ⊠ (v 12))) ⊞ ((v 50) ⊠ (v 15))) ⊞ ((v 50) ⊠ (v 15))) ⊞ ((v 208) ⊠ (w 2))),
   .v 101 ((k 0) ⊟ (v 343)),
   .v 145 ((((((v 150) ⊠ (v 52)) ⊞ ((v 126) ⊠ (v 53))) ⊞ ((v 101) ⊠ (v 47))) ⊞ ((v 240) ⊠ (v 32))) ⊞ ((v 293) ⊠ (w 3))),
   .v 327 ((((k 0) ⊟ (v 349)) ⊞ (v 291)) ⊟ (v 327)),
   .v 291 ((((((((v 129) ⊠ (v 79)) ⊞ ((v 125) ⊠ (v 77))) ⊞ ((v 130) ⊠ (v 58))) ⊞ ((v 124) ⊠ (v 55))) ⊞ ((v 327) ⊠ (v 47))) ⊞ ((v 239) ⊠ (v 35))) ⊟ ((v 298) ⊠ (w 3))),
   .v 349 ((k 0) ⊟ ((((v 246) ⊠ (k (2327 / 1000))) ⊞ (((k 0) ⊟ (v 342)) ⊠ (k (719043 / 50000000)))) ⊞ ((v 267) ⊠ (k (80995889 / 125000000))))),
   .v 278 (((((v 278) ⊠ (.neg (k 1))) ⊞ ((v 246) ⊠ (k (2327 / 1000)))) ⊞ ((v 342) ⊠ (.neg (k (719043 / 50000000))))) ⊞ ((v 267) ⊠ (k (80995889 / 125000000)))),
   .v 296 ((((((v 145) ⊠ (v 28)) ⊞ ((v 291) ⊠ (v 30))) ⊞ ((v 349) ⊠ (v 23))) ⊞ ((v 231) ⊠ (v 12))) ⊞ ((v 278) ⊠ (w 2))),
   .v 337 (((v 342) ⊠ (.neg (k (55615274403 / 10000000000000)))) ⊟ (((v 235) ⊠ (.neg (k (2327 / 1000)))) ⊞ ((v 272) ⊠ (k (80995889 / 125000000))))),
   .v 305 (((((v 305) ⊠ (.neg (k 1))) ⊞ ((v 337) ⊠ (v 23))) ⊞ ((v 146) ⊠ (v 15))) ⊟ ((v 292) ⊠ (w 2))),
   .v 154 ((((v 116) ⊞ (v 230)) ⊞ (v 154)) ⊞ (v 128)),
   .v 246 (((((v 246) ⊠ (k (80995889 / 125000000))) ⊞ ((v 342) ⊠ (.neg (k (18998907 / 5000000000))))) ⊞ (((k 0) ⊟ (v 267)) ⊠ (.neg (k (192033951 / 1000000000))))) ⊞ (((k 0) ⊟ (v 272)) ⊠ (k (2699999 / 50000000000)))),
   .v 115 (((((k 0) ⊟ (v 235)) ⊠ (k (719043 / 50000000))) ⊟ (v 115)) ⊟ ((v 267) ⊠ (.neg (k (2343059 / 200000000))))),
   .v 116 ((((((((((v 145) ⊠ (v 43)) ⊞ ((v 291) ⊠ (v 42))) ⊞ ((((((((((((v 150) ⊠ (v 67)) ⊞ ((v 126) ⊠ (v 60))) ⊞ ((v 252) ⊠ (v 53))) ⊞ ((v 255) ⊠ (v 54))) ⊞ ((v 101) ⊠ (v 44))) ⊞ ((v 327) ⊠ (v 64))) ⊞ ((v 237) ⊠ (v 35))) ⊞ ((v 257) ⊠ (v 32))) ⊞ ((v 154) ⊠ (v 47))) ⊞ ((v 154) ⊠ (v 47))) ⊠ (.neg (k 1)))) ⊞ ((v 231) ⊠ (v 21))) ⊞ ((v 246) ⊠ (v 23))) ⊞ ((v 123) ⊠ (v 15))) ⊞ ((v 115) ⊠ (v 12))) ⊞ ((v 115) ⊠ (v 12))) ⊟ ((v 249) ⊠ (w 2))),
   .v 128 ((k 0) ⊟ (v 203)),
   .v 230 (.neg (v 128)),
   .v 331 (((v 251) ⊠ (v 5)) ⊞ ((v 230) ⊠ (w 1))),
   .v 307 (.neg (v 331)),
   .v 306 (((v 128) ⊠ (v 3)) ⊞ ((v 307) ⊠ (w 2))),
   .v 289 (((v 128) ⊠ (v 5)) ⊞ ((v 251) ⊠ (w 1))),
   .v 242 (((v 251) ⊠ (v 3)) ⊞ ((v 289) ⊠ (w 2))),
   .v 244 ((k (14 / 125)) ⊠ (v 128)),
   .v 275 ((.neg (k (14 / 125))) ⊠ (v 251)),
   .v 283 ((k (14 / 125)) ⊠ (v 128)),
   .v 288 (((v 275) ⊠ (v 5)) ⊞ ((v 283) ⊠ (w 1))),
   .v 284 ((((v 251) ⊠ (v 17)) ⊞ ((v 244) ⊠ (v 3))) ⊞ ((v 288) ⊠ (w 2))),
   .v 276 ((.neg (v 23)) ⊠ (v 288)),
   .v 236 ((v 289) ⊠ (v 23)),
   .v 221 (((v 331) ⊠ (v 12)) ⊞ ((v 12) ⊠ (v 331))),
   .v 219 ((.neg (k 1)) ⊠ (v 242)),
   .v 218 ((v 30) ⊠ (v 289)),
   .v 217 (.neg (v 218)),
   .v 215 (((v 28) ⊠ (v 306)) ⊞ ((v 217) ⊠ (w 3))),
   .v 214 ((v 28) ⊠ (v 289))]

/-- HyAInverseDynHessian.cpp:1053-1176. -/
def part7 : List Stmt :=
  [.v 213 (((v 30) ⊠ (v 306)) ⊞ ((v 214) ⊠ (w 3))),
   .v 142 (((.neg (k (38 / 125))) ⊠ (v 306)) ⊞ ((.neg (k 1)) ⊠ (v 284))),
   .v 178 ((k (14 / 125)) ⊠ (v 251)),
   .v 192 (((v 244) ⊠ (v 5)) ⊞ ((v 178) ⊠ (w 1))),
   .v 122 (.neg (v 192)),
   .v 164 ((((v 128) ⊠ (v 17)) ⊞ ((v 275) ⊠ (v 3))) ⊞ ((v 122) ⊠ (w 2))),
   .v 158 (((v 43) ⊠ (v 331)) ⊞ ((v 28) ⊠ (v 288))),
   .v 134 ((((v 30) ⊠ (v 164)) ⊞ ((v 42) ⊠ (v 242))) ⊞ ((v 158) ⊠ (w 3))),
   .v 133 (((.neg (k (38 / 125))) ⊠ (v 289)) ⊞ ((.neg (k 1)) ⊠ (v 192))),
   .v 114 ((.neg (k 1)) ⊠ (v 331)),
   .v 49 ((((v 214) ⊠ (v 46)) ⊞ ((v 35) ⊠ (v 133))) ⊟ (((v 114) ⊠ (v 44)) ⊞ ((v 47) ⊠ (v 158)))),
   .v 51 (((v 214) ⊠ (v 47)) ⊞ ((v 35) ⊠ (v 114))),
   .v 99 (((v 114) ⊠ (v 47)) ⊞ ((v 47) ⊠ (v 114))),
   .v 310 (((v 218) ⊠ (v 32)) ⊞ ((v 32) ⊠ (v 218))),
   .v 308 (((v 53) ⊠ (v 214)) ⊞ ((v 54) ⊠ (v 114))),
   .v 271 (.neg (v 308)),
   .v 262 ((((v 53) ⊠ (v 219)) ⊞ ((v 52) ⊠ (v 215))) ⊞ ((v 271) ⊠ (w 4))),
   .v 287 (((v 52) ⊠ (v 214)) ⊞ ((v 53) ⊠ (v 114))),
   .v 281 ((((v 54) ⊠ (v 219)) ⊞ ((v 53) ⊠ (v 215))) ⊞ ((v 287) ⊠ (w 4))),
   .v 285 (((v 42) ⊠ (v 331)) ⊞ ((v 30) ⊠ (v 288))),
   .v 220 (.neg (v 285)),
   .v 209 ((((v 28) ⊠ (v 164)) ⊞ ((v 43) ⊠ (v 242))) ⊞ ((v 220) ⊠ (w 3))),
   .v 201 (((((v 67) ⊠ (v 114)) ⊞ ((v 68) ⊠ (v 214))) ⊞ ((v 53) ⊠ (v 133))) ⊞ ((v 52) ⊠ (v 158))),
   .v 136 ((((((v 60) ⊠ (v 219)) ⊞ ((v 61) ⊠ (v 215))) ⊞ ((v 62) ⊠ (v 142))) ⊞ ((v 53) ⊠ (v 209))) ⊞ ((v 201) ⊠ (w 4))),
   .v 160 ((((v 287) ⊠ (v 64)) ⊞ ((v 58) ⊠ (v 285))) ⊟ (((v 218) ⊠ (v 69)) ⊞ ((v 71) ⊠ (v 201)))),
   .v 117 (((v 287) ⊠ (v 71)) ⊞ ((v 58) ⊠ (v 218))),
   .v 169 (((v 218) ⊠ (v 71)) ⊞ ((v 71) ⊠ (v 218))),
   .v 167 (((v 308) ⊠ (v 55)) ⊞ ((v 55) ⊠ (v 308))),
   .v 137 (((((v 60) ⊠ (v 114)) ⊞ ((v 61) ⊠ (v 214))) ⊞ ((v 62) ⊠ (v 133))) ⊞ ((v 53) ⊠ (v 158))),
   .v 135 ((((v 77) ⊠ (v 285)) ⊞ ((v 76) ⊠ (v 137))) ⊞ ((v 81) ⊠ (v 287))),
   .v 95 (.neg (v 135)),
   .v 339 (((((v 79) ⊠ (v 134)) ⊞ ((v 77) ⊠ (v 136))) ⊞ ((v 78) ⊠ (v 262))) ⊞ ((v 95) ⊠ (w 5))),
   .v 211 (((v 76) ⊠ (v 308)) ⊞ ((v 77) ⊠ (v 218))),
   .v 206 (((v 77) ⊠ (v 308)) ⊞ ((v 86) ⊠ (v 218))),
   .v 205 (((v 211) ⊠ (v 87)) ⊞ ((v 85) ⊠ (v 206))),
   .v 265 ((((k (83 / 4000)) ⊠ (v 218)) ⊞ ((.neg (k (23 / 125))) ⊠ (v 308))) ⊞ (v 201)),
   .v 225 (((v 211) ⊠ (v 89)) ⊞ ((v 85) ⊠ (v 265))),
   .v 258 (((v 287) ⊠ (v 82)) ⊞ ((v 91) ⊠ (v 135))),
   .v 286 (((((k (61899 / 40000)) ⊠ (v 339)) ⊞ ((k (61899 / 1600000)) ⊠ (v 262))) ⊞ ((k (61899 / 1600000)) ⊠ (v 205))) ⊞ ((.neg (k (61899 / 40000))) ⊠ ((v 225) ⊟ (v 258)))),
   .v 256 ((((v 79) ⊠ (v 285)) ⊞ ((v 77) ⊠ (v 137))) ⊞ ((v 78) ⊠ (v 287))),
   .v 280 (((v 287) ⊠ (v 91)) ⊞ ((v 91) ⊠ (v 287))),
   .v 226 (((v 206) ⊠ (v 87)) ⊞ ((v 87) ⊠ (v 206))),
   .v 224 ((((k (61899 / 40000)) ⊠ ((((v 206) ⊠ (v 89)) ⊞ ((v 87) ⊠ (v 265))) ⊟ (((v 287) ⊠ (v 94)) ⊞ ((v 91) ⊠ (v 256))))) ⊞ ((k (61899 / 40000)) ⊠ (((((v 77) ⊠ (v 134)) ⊞ ((v 76) ⊠ (v 136))) ⊞ ((v 81) ⊠ (v 262))) ⊞ ((v 256) ⊠ (w 5))))) ⊟ ((k (61899 / 1600000)) ⊠ ((v 280) ⊞ (v 226)))),
   .v 223 (.neg (v 211)),
   .v 222 ((((v 86) ⊠ (v 213)) ⊞ ((v 77) ⊠ (v 281))) ⊞ ((v 223) ⊠ (w 5))),
   .v 210 ((((v 77) ⊠ (v 213)) ⊞ ((v 76) ⊠ (v 281))) ⊞ ((v 206) ⊠ (w 5))),
   .v 113 (((v 211) ⊠ (v 91)) ⊞ ((v 85) ⊠ (v 287))),
   .v 88 (((v 206) ⊠ (v 91)) ⊞ ((v 87) ⊠ (v 287))),
   .v 26 (((v 211) ⊠ (v 85)) ⊞ ((v 85) ⊠ (v 211))),
   .v 75 (((v 308) ⊠ (v 71)) ⊞ ((v 55) ⊠ (v 218))),
   .v 110 (((v 308) ⊠ (v 58)) ⊞ ((v 55) ⊠ (v 287))),
   .v 258 (((((((((((((((((((((.neg (k (1243 / 1000000))) ⊠ (v 213)) ⊞ ((k (5823 / 200000)) ⊠ (v 262))) ⊞ ((.neg (k (1387 / 1000000))) ⊠ (v 281))) ⊞ ((k (28919 / 500000)) ⊠ (v 136))) ⊞ ((k (28919 / 500000)) ⊠ (v 160))) ⊞ ((.neg (k (1387 / 1000000))) ⊠ (v 117))) ⊞ ((.neg (k (3163 / 250000))) ⊠ ((v 169) ⊟ (v 167)))) ⊞ ((v 78) ⊠ (v 286))) ⊞ ((v 81) ⊠ (v 224))) ⊞ ((k (9277 / 1000000)) ⊠ (v 262))) ⊞ ((.neg (k (829 / 1000000))) ⊠ (v 222))) ⊞ ((k (3 / 200000)) ⊠ (v 210))) ⊞ ((k (61899 / 1600000)) ⊠ (v 339))) ⊞ ((.neg (k (751 / 100000))) ⊠ (v 205))) ⊞ ((k (61899 / 1600000)) ⊠ ((v 258) ⊟ (v 225)))) ⊞ ((.neg (k (829 / 1000000))) ⊠ (v 113))) ⊟ ((k (3 / 200000)) ⊠ (v 88))) ⊟ ((k (99 / 500000)) ⊠ ((v 226) ⊟ (v 26)))) ⊟ ((.neg (k (4193 / 500000))) ⊠ (v 75))) ⊟ ((.neg (k (1243 / 1000000))) ⊠ (v 110))),
   .v 225 (.neg (v 137)),
   .v 339 ((((((v 67) ⊠ (v 219)) ⊞ ((v 68) ⊠ (v 215))) ⊞ ((v 53) ⊠ (v 142))) ⊞ ((v 52) ⊠ (v 209))) ⊞ ((v 225) ⊠ (w 4))),
   .v 73 ((((v 308) ⊠ (v 64)) ⊞ ((v 55) ⊠ (v 285))) ⊟ (((v 218) ⊠ (v 80)) ⊞ ((v 71) ⊠ (v 137)))),
   .v 104 ((((k (83 / 4000)) ⊠ (v 213)) ⊞ ((.neg (k (23 / 125))) ⊠ (v 281))) ⊞ (v 339)),
   .v 63 ((((v 211) ⊠ (v 94)) ⊞ ((v 85) ⊠ (v 256))) ⊟ (((v 206) ⊠ (v 82)) ⊞ ((v 87) ⊠ (v 135)))),
   .v 26 ((((((((((.neg (k (829 / 1000000))) ⊠ (v 262)) ⊞ ((k (3227 / 1000000)) ⊠ (v 222))) ⊞ ((k (99 / 500000)) ⊠ (v 210))) ⊞ ((.neg (k (61899 / 1600000))) ⊠ (v 104))) ⊞ ((k (99 / 500000)) ⊠ (v 88))) ⊞ ((k (3 / 200000)) ⊠ ((v 280) ⊟ (v 26)))) ⊟ ((k (61899 / 1600000)) ⊠ (v 63))) ⊟ ((.neg (k (73 / 50000))) ⊠ (v 113))) ⊟ ((.neg (k (829 / 1000000))) ⊠ (v 205))),
   .v 88 ((((((((k (3 / 200000)) ⊠ (v 262)) ⊞ ((k (99 / 500000)) ⊠ (v 222))) ⊞ ((k (10737 / 1000000)) ⊠ (v 210))) ⊞ ((k (121 / 20000)) ⊠ (v 88))) ⊞ ((k (3 / 200000)) ⊠ (v 205))) ⊟ ((k (99 / 500000)) ⊠ (v 113))) ⊟ ((.neg (k (829 / 1000000))) ⊠ ((v 280) ⊟ (v 226)))),
   .v 63 (((((k (61899 / 40000)) ⊠ (v 104)) ⊞ ((.neg (k (61899 / 1600000))) ⊠ (v 222))) ⊞ ((k (61899 / 1600000)) ⊠ (v 113))) ⊞ ((k (61899 / 40000)) ⊠ (v 63))),
   .v 104 (((v 287) ⊠ (v 58)) ⊞ ((v 58) ⊠ (v 287))),
   .v 169 (((((((((((((.neg (k (3163 / 250000))) ⊠ (v 213)) ⊞ ((.neg (k (1387 / 1000000))) ⊠ (v 262))) ⊞ ((k (2429 / 125000)) ⊠ (v 281))) ⊞ ((.neg (k (28919 / 500000))) ⊠ (v 339))) ⊞ ((.neg (k (18069 / 1000000))) ⊠ (v 117))) ⊞ ((k (28919 / 500000)) ⊠ (v 73))) ⊞ ((.neg (k (3163 / 250000))) ⊠ (v 110))) ⊞ ((v 77) ⊠ (v 26))) ⊞ ((v 76) ⊠ (v 88))) ⊞ ((.neg (k (23 / 125))) ⊠ (v 63))) ⊟ ((.neg (k (1387 / 1000000))) ⊠ (v 75))) ⊟ ((.neg (k (1243 / 1000000))) ⊠ ((v 169) ⊟ (v 104)))),
   .v 73 ((((((k (2629 / 1250)) ⊠ (v 339)) ⊞ ((.neg (k (28919 / 500000))) ⊠ (v 281))) ⊞ ((k (28919 / 500000)) ⊠ (v 117))) ⊞ ((.neg (k (2629 / 1250))) ⊠ (v 73))) ⊞ (v 63)),
   .v 160 (((((((k (2629 / 1250)) ⊠ (v 136)) ⊞ ((k (28919 / 500000)) ⊠ (v 262))) ⊞ ((k (28919 / 500000)) ⊠ (v 75))) ⊞ ((k (2629 / 1250)) ⊠ (v 160))) ⊞ ((v 77) ⊠ (v 286))) ⊞ ((v 76) ⊠ (v 224))),
   .v 339 ((((v 218) ⊠ (v 44)) ⊞ ((v 32) ⊠ (v 158))) ⊟ (((v 214) ⊠ (v 64)) ⊞ ((v 35) ⊠ (v 285)))),
   .v 113 (((v 218) ⊠ (v 47)) ⊞ ((v 32) ⊠ (v 114))),
   .v 222 (((v 218) ⊠ (v 35)) ⊞ ((v 32) ⊠ (v 214))),
   .v 210 ((((((((((((((((.neg (k (11460001 / 5000000000))) ⊠ (v 219)) ⊞ ((k (1828449 / 100000000)) ⊠ (v 215))) ⊞ ((k (9214321 / 2500000000)) ⊠ (v 213))) ⊞ ((.neg (k (80149129911861 / 500000000000000))) ⊠ (v 142))) ⊞ ((k (152322944854339 / 100000000000000000000000)) ⊠ (v 134))) ⊞ ((k (152322944854339 / 100000000000000000000000)) ⊠ (v 49))) ⊞ ((k (9214321 / 2500000000)) ⊠ (v 51))) ⊞ ((.neg (k (21200017 / 100000000000))) ⊠ ((v 99) ⊟ (v 310)))) ⊞ ((v 52) ⊠ (v 258))) ⊞ ((v 53) ⊠ (v 169))) ⊞ ((v 68) ⊠ (v 73))) ⊞ ((v 61) ⊠ (v 160))) ⊟ ((k (80149129911861 / 500000000000000)) ⊠ (v 339))) ⊟ ((k (1404749 / 100000000)) ⊠ (v 113))) ⊟ ((.neg (k (11460001 / 5000000000))) ⊠ (v 222))),
   .v 226 (((v 218) ⊠ (v 46)) ⊞ ((v 32) ⊠ (v 133))),
   .v 280 (((v 114) ⊠ (v 64)) ⊞ ((v 47) ⊠ (v 285))),
   .v 205 (((v 214) ⊠ (v 35)) ⊞ ((v 35) ⊠ (v 214))),
   .v 63 ((((((((((((((((((((((.neg (k (21200017 / 100000000000))) ⊠ (v 219)) ⊞ ((k (9214321 / 2500000000)) ⊠ (v 215))) ⊞ ((k (81661 / 1000000)) ⊠ (v 213))) ⊞ ((.neg (k (8711861 / 1000000000))) ⊠ (v 142))) ⊞ ((.neg (k (152322944854339 / 100000000000000000000000))) ⊠ (v 209))) ⊞ ((.neg (k (8711861 / 1000000000))) ⊠ (v 339))) ⊞ ((k (152322944854339 / 100000000000000000000000)) ⊠ ((v 226) ⊟ (v 280)))) ⊞ ((k (4839 / 62500)) ⊠ (v 51))) ⊞ ((.neg (k (21200017 / 100000000000))) ⊠ (v 222))) ⊞ ((k (5523 / 500000)) ⊠ (v 213))) ⊞ ((.neg (k (1243 / 1000000))) ⊠ (v 262))) ⊞ ((.neg (k (3163 / 250000))) ⊠ (v 281))) ⊞ ((.neg (k (1243 / 1000000))) ⊠ (v 75))) ⊞ ((k (9683 / 1000000)) ⊠ (v 110))) ⊞ ((v 86) ⊠ (v 26))) ⊞ ((v 77) ⊠ (v 88))) ⊞ ((k (83 / 4000)) ⊠ (v 63))) ⊟ ((.neg (k (3163 / 250000))) ⊠ (v 117))) ⊟ ((.neg (k (1387 / 1000000))) ⊠ ((v 104) ⊟ (v 167)))) ⊟ ((k (9214321 / 2500000000)) ⊠ (v 113))) ⊟ ((.neg (k (11460001 / 5000000000))) ⊠ ((v 99) ⊟ (v 205)))),
   .v 339 ((((((((((.neg (k (80149129911861 / 500000000000000))) ⊠ (v 215)) ⊞ ((.neg (k (8711861 / 1000000000))) ⊠ (v 213))) ⊞ ((k (8711861 / 5000000)) ⊠ (v 142))) ⊞ ((k (8711861 / 5000000)) ⊠ (v 339))) ⊞ ((k (80149129911861 / 500000000000000)) ⊠ (v 113))) ⊞ ((.neg (k (8711861 / 1000000000))) ⊠ (v 51))) ⊞ ((v 53) ⊠ (v 73))) ⊞ ((v 62) ⊠ (v 160))) ⊟ ((k (152322944854339 / 100000000000000000000000)) ⊠ ((v 205) ⊞ (v 310)))),
   .v 110 ((((v 331) ⊠ (v 21)) ⊞ ((v 12) ⊠ (v 288))) ⊟ (((v 289) ⊠ (v 39)) ⊞ ((v 15) ⊠ (v 192)))),
   .v 75 ((v 331) ⊠ (v 23)),
   .v 117 (((v 331) ⊠ (v 15)) ⊞ ((v 12) ⊠ (v 289))),
   .v 27 (((((((((((((k (4197379 / 20000000)) ⊠ (v 306)) ⊞ ((k (2699999 / 50000000000)) ⊠ (v 242))) ⊞ ((k (80995889 / 125000000)) ⊠ (v 284))) ⊞ ((k (80995889 / 125000000)) ⊠ (v 276))) ⊞ ((k (2699999 / 50000000000)) ⊠ (v 236))) ⊞ ((.neg (k (2343059 / 200000000))) ⊠ ((k 0) ⊟ (v 221)))) ⊞ ((v 28) ⊠ (v 210))) ⊞ ((v 30) ⊠ (v 63))) ⊞ ((.neg (k (38 / 125))) ⊠ (v 339))) ⊟ ((.neg (k (55615274403 / 10000000000000))) ⊠ (v 110))) ⊟ ((.neg (k (192033951 / 1000000000))) ⊠ (v 75))) ⊟ ((.neg (k (18998907 / 5000000000))) ⊠ (v 117))),
   .v 25 (((w 7) ⊠ (v 178)) ⊞ ((v 216) ⊠ (v 244))),
   .v 24 (((w 7) ⊠ (v 251)) ⊞ ((v 216) ⊠ (v 128))),
   .v 22 (((v 25) ⊠ (.neg (k 1))) ⊞ ((v 24) ⊠ (.neg (k (38 / 125))))),
   .v 8 (((w 7) ⊠ (v 283)) ⊞ ((v 216) ⊠ (v 275))),
   .v 188 (((w 7) ⊠ (v 230)) ⊞ ((v 216) ⊠ (v 251))),
   .v 202 (((v 8) ⊠ (v 28)) ⊞ ((v 188) ⊠ (v 43))),
   .v 193 ((v 188) ⊠ (.neg (k 1))),
   .v 195 ((v 24) ⊠ (v 28)),
   .v 159 (((((v 22) ⊠ (v 53)) ⊞ ((v 202) ⊠ (v 52))) ⊞ ((v 193) ⊠ (v 67))) ⊞ ((v 195) ⊠ (v 68))),
   .v 165 ((v 24) ⊠ (v 30)),
   .v 332 (((v 193) ⊠ (v 54)) ⊞ ((v 195) ⊠ (v 53))),
   .v 338 (((v 159) ⊞ ((v 165) ⊠ (k (83 / 4000)))) ⊞ ((v 332) ⊠ (.neg (k (23 / 125))))),
   .v 234 (((v 165) ⊠ (v 86)) ⊞ ((v 332) ⊠ (v 77))),
   .v 229 (((v 338) ⊠ (k (61899 / 40000))) ⊞ ((v 234) ⊠ (.neg (k (61899 / 1600000))))),
   .v 189 (((v 229) ⊞ ((v 159) ⊠ (k (2629 / 1250)))) ⊞ ((v 332) ⊠ (.neg (k (28919 / 500000))))),
   .v 334 (((v 8) ⊠ (v 30)) ⊞ ((v 188) ⊠ (v 42))),
   .v 190 (((((v 22) ⊠ (v 62)) ⊞ ((v 202) ⊠ (v 53))) ⊞ ((v 193) ⊠ (v 60))) ⊞ ((v 195) ⊠ (v 61))),
   .v 199 (((v 193) ⊠ (v 53)) ⊞ ((v 195) ⊠ (v 52))),
   .v 197 ((((v 334) ⊠ (v 79)) ⊞ ((v 190) ⊠ (v 77))) ⊞ ((v 199) ⊠ (v 78))),
   .v 204 (((v 197) ⊠ (k (61899 / 40000))) ⊞ ((v 199) ⊠ (k (61899 / 1600000)))),
   .v 198 ((((v 334) ⊠ (v 77)) ⊞ ((v 190) ⊠ (v 76))) ⊞ ((v 199) ⊠ (v 81))),
   .v 196 ((v 198) ⊠ (k (61899 / 40000))),
   .v 166 (((((v 204) ⊠ (v 77)) ⊞ ((v 196) ⊠ (v 76))) ⊞ ((v 190) ⊠ (k (2629 / 1250)))) ⊞ ((v 199) ⊠ (k (28919 / 500000))))]

/-- HyAInverseDynHessian.cpp:1177-1368. -/
def part8 : List Stmt :=
  [.v 320 ((((((v 189) ⊠ (v 52)) ⊞ ((v 166) ⊠ (v 53))) ⊞ ((v 202) ⊠ (k (8711861 / 5000000)))) ⊞ ((v 193) ⊠ (k (80149129911861 / 500000000000000)))) ⊞ ((v 165) ⊠ (.neg (k (152322944854339 / 100000000000000000000000))))),
   .v 335 (((((((v 204) ⊠ (v 79)) ⊞ ((v 196) ⊠ (v 77))) ⊞ ((v 334) ⊠ (k (2629 / 1250)))) ⊞ ((v 334) ⊠ (k (8711861 / 5000000)))) ⊞ ((v 193) ⊠ (k (8711861 / 1000000000)))) ⊞ ((v 195) ⊠ (k (152322944854339 / 100000000000000000000000)))),
   .v 329 (((((v 320) ⊠ (v 28)) ⊞ ((v 335) ⊠ (v 30))) ⊞ ((v 8) ⊠ (k (2327 / 1000)))) ⊞ ((v 188) ⊠ (.neg (k (80995889 / 125000000))))),
   .v 194 ((((((v 189) ⊠ (v 53)) ⊞ ((v 166) ⊠ (v 62))) ⊞ ((v 22) ⊠ (k (8711861 / 5000000)))) ⊞ ((v 195) ⊠ (.neg (k (80149129911861 / 500000000000000))))) ⊞ ((v 165) ⊠ (.neg (k (8711861 / 1000000000))))),
   .v 180 (((v 165) ⊠ (v 77)) ⊞ ((v 332) ⊠ (v 76))),
   .v 127 (((((((((((v 197) ⊠ (k (61899 / 1600000))) ⊞ ((v 199) ⊠ (k (9277 / 1000000)))) ⊞ ((v 234) ⊠ (.neg (k (829 / 1000000))))) ⊞ ((v 180) ⊠ (k (3 / 200000)))) ⊞ ((v 204) ⊠ (v 78))) ⊞ ((v 196) ⊠ (v 81))) ⊞ ((v 190) ⊠ (k (28919 / 500000)))) ⊞ ((v 165) ⊠ (.neg (k (1243 / 1000000))))) ⊞ ((v 199) ⊠ (k (5823 / 200000)))) ⊞ ((v 332) ⊠ (.neg (k (1387 / 1000000))))),
   .v 162 (((((v 338) ⊠ (.neg (k (61899 / 1600000)))) ⊞ ((v 199) ⊠ (.neg (k (829 / 1000000))))) ⊞ ((v 234) ⊠ (k (3227 / 1000000)))) ⊞ ((v 180) ⊠ (k (99 / 500000)))),
   .v 156 ((((v 199) ⊠ (k (3 / 200000))) ⊞ ((v 234) ⊠ (k (99 / 500000)))) ⊞ ((v 180) ⊠ (k (10737 / 1000000)))),
   .v 253 ((((((((v 229) ⊠ (.neg (k (23 / 125)))) ⊞ ((v 162) ⊠ (v 77))) ⊞ ((v 156) ⊠ (v 76))) ⊞ ((v 159) ⊠ (.neg (k (28919 / 500000))))) ⊞ ((v 165) ⊠ (.neg (k (3163 / 250000))))) ⊞ ((v 199) ⊠ (.neg (k (1387 / 1000000))))) ⊞ ((v 332) ⊠ (k (2429 / 125000)))),
   .v 151 ((((((((((v 189) ⊠ (v 68)) ⊞ ((v 166) ⊠ (v 61))) ⊞ ((v 127) ⊠ (v 52))) ⊞ ((v 253) ⊠ (v 53))) ⊞ ((v 22) ⊠ (.neg (k (80149129911861 / 500000000000000))))) ⊞ ((v 334) ⊠ (k (152322944854339 / 100000000000000000000000)))) ⊞ ((v 193) ⊠ (.neg (k (11460001 / 5000000000))))) ⊞ ((v 195) ⊠ (k (1828449 / 100000000)))) ⊞ ((v 165) ⊠ (k (9214321 / 2500000000)))),
   .v 229 ((((((((((((v 229) ⊠ (k (83 / 4000))) ⊞ ((v 162) ⊠ (v 86))) ⊞ ((v 156) ⊠ (v 77))) ⊞ ((v 165) ⊠ (k (5523 / 500000)))) ⊞ ((v 199) ⊠ (.neg (k (1243 / 1000000))))) ⊞ ((v 332) ⊠ (.neg (k (3163 / 250000))))) ⊞ ((v 22) ⊠ (.neg (k (8711861 / 1000000000))))) ⊞ ((v 202) ⊠ (.neg (k (152322944854339 / 100000000000000000000000))))) ⊞ ((v 193) ⊠ (.neg (k (21200017 / 100000000000))))) ⊞ ((v 195) ⊠ (k (9214321 / 2500000000)))) ⊞ ((v 165) ⊠ (k (81661 / 1000000)))),
   .v 179 (((((((v 194) ⊠ (.neg (k (38 / 125)))) ⊞ ((v 151) ⊠ (v 28))) ⊞ ((v 229) ⊠ (v 30))) ⊞ ((v 25) ⊠ (k (80995889 / 125000000)))) ⊞ ((v 24) ⊠ (k (4197379 / 20000000)))) ⊞ ((v 188) ⊠ (k (2699999 / 50000000000)))),
   .v 341 ((v 198) ⊠ (k (61899 / 40000))),
   .v 333 ((v 197) ⊠ (.neg (k (61899 / 40000)))),
   .v 200 ((v 199) ⊠ (k (61899 / 1600000))),
   .v 168 ((v 333) ⊟ (v 200)),
   .v 157 (((((v 245) ⊠ (v 206)) ⊞ ((v 341) ⊠ (v 87))) ⊞ ((v 228) ⊠ (v 211))) ⊞ ((v 168) ⊠ (v 85))),
   .v 348 (((v 190) ⊠ (k (2629 / 1250))) ⊞ ((v 199) ⊠ (k (28919 / 500000)))),
   .v 313 ((k 0) ⊟ (v 348)),
   .v 325 ((v 334) ⊠ (k (2629 / 1250))),
   .v 317 ((((((v 157) ⊞ ((v 182) ⊠ (v 218))) ⊞ ((v 313) ⊠ (v 71))) ⊞ ((v 120) ⊠ (v 308))) ⊞ ((v 325) ⊠ (v 55))) ⊞ ((v 166) ⊠ (w 4))),
   .v 315 ((k 0) ⊟ (v 341)),
   .v 187 (((v 338) ⊠ (k (61899 / 40000))) ⊞ (((k 0) ⊟ (v 234)) ⊠ (k (61899 / 1600000)))),
   .v 186 ((((((v 149) ⊠ (v 287)) ⊞ ((v 315) ⊠ (v 91))) ⊞ ((v 131) ⊠ (v 211))) ⊞ ((v 187) ⊠ (v 85))) ⊞ ((v 196) ⊠ (w 5))),
   .v 200 (((k 0) ⊟ (v 333)) ⊞ (v 200)),
   .v 333 ((k 0) ⊟ (v 187)),
   .v 176 ((((((v 232) ⊠ (v 287)) ⊞ ((v 200) ⊠ (v 91))) ⊞ ((v 238) ⊠ (v 206))) ⊞ ((v 333) ⊠ (v 87))) ⊟ ((v 204) ⊠ (w 5))),
   .v 152 (((v 159) ⊠ (.neg (k (2629 / 1250)))) ⊞ ((v 332) ⊠ (k (28919 / 500000)))),
   .v 144 ((k 0) ⊟ (v 152)),
   .v 147 ((k 0) ⊟ (v 325)),
   .v 336 ((((((((v 186) ⊠ (v 77)) ⊞ ((v 176) ⊠ (v 76))) ⊞ ((v 119) ⊠ (v 218))) ⊞ ((v 144) ⊠ (v 71))) ⊞ ((v 118) ⊠ (v 287))) ⊞ ((v 147) ⊠ (v 58))) ⊟ ((v 189) ⊠ (w 4))),
   .v 328 ((((v 334) ⊠ (k (8711861 / 5000000))) ⊞ (((k 0) ⊟ (v 193)) ⊠ (.neg (k (8711861 / 1000000000))))) ⊞ ((v 195) ⊠ (k (152322944854339 / 100000000000000000000000)))),
   .v 191 ((v 202) ⊠ (.neg (k (8711861 / 5000000)))),
   .v 163 ((v 193) ⊠ (k (80149129911861 / 500000000000000))),
   .v 155 ((v 165) ⊠ (k (152322944854339 / 100000000000000000000000))),
   .v 301 (((v 191) ⊟ (v 163)) ⊞ (v 155)),
   .v 295 (((((((v 317) ⊠ (v 53)) ⊞ ((v 336) ⊠ (v 62))) ⊞ ((v 343) ⊠ (v 214))) ⊞ ((v 328) ⊠ (v 35))) ⊞ ((v 319) ⊠ (v 218))) ⊞ ((v 301) ⊠ (v 32))),
   .v 175 (((((k 0) ⊟ (v 199)) ⊠ (k (3 / 200000))) ⊞ ((v 234) ⊠ (k (99 / 500000)))) ⊞ ((v 180) ⊠ (k (121 / 20000)))),
   .v 338 (((((v 338) ⊠ (k (61899 / 1600000))) ⊞ ((v 199) ⊠ (.neg (k (829 / 1000000))))) ⊞ (((k 0) ⊟ (v 234)) ⊠ (.neg (k (73 / 50000))))) ⊞ (((k 0) ⊟ (v 180)) ⊠ (k (99 / 500000)))),
   .v 198 (((k 0) ⊟ (v 198)) ⊠ (k (61899 / 1600000))),
   .v 321 ((v 234) ⊠ (k (3 / 200000))),
   .v 314 (((k 0) ⊟ (v 180)) ⊠ (.neg (k (829 / 1000000)))),
   .v 270 (((v 198) ⊞ (v 321)) ⊞ (v 314)),
   .v 270 (((((((((((((v 149) ⊠ (v 256)) ⊞ ((v 315) ⊠ (v 94))) ⊞ ((v 232) ⊠ (v 135))) ⊞ ((v 200) ⊠ (v 82))) ⊞ ((v 297) ⊠ (v 206))) ⊞ ((v 175) ⊠ (v 87))) ⊞ ((v 1) ⊠ (v 211))) ⊞ ((v 338) ⊠ (v 85))) ⊞ ((v 241) ⊠ (v 287))) ⊞ ((v 241) ⊠ (v 287))) ⊞ ((v 270) ⊠ (v 91))) ⊞ ((v 270) ⊠ (v 91))),
   .hes 35 ((((((((((v 322) ⊠ (v 95)) ⊞ ((v 204) ⊠ (v 83))) ⊞ ((v 302) ⊠ (v 256))) ⊞ ((v 196) ⊠ (v 94))) ⊞ ((v 269) ⊠ (v 223))) ⊞ ((v 162) ⊠ (v 98))) ⊞ ((v 259) ⊠ (v 206))) ⊞ ((v 156) ⊠ (v 87))) ⊞ (v 270)),
   .v 159 (((((v 159) ⊠ (k (28919 / 500000))) ⊞ (((k 0) ⊟ (v 165)) ⊠ (.neg (k (3163 / 250000))))) ⊞ ((v 199) ⊠ (.neg (k (1387 / 1000000))))) ⊞ ((v 332) ⊠ (.neg (k (18069 / 1000000))))),
   .v 223 ((((v 165) ⊠ (k (9683 / 1000000))) ⊞ (((k 0) ⊟ (v 199)) ⊠ (.neg (k (1243 / 1000000))))) ⊞ ((v 332) ⊠ (.neg (k (3163 / 250000))))),
   .v 95 (((k 0) ⊟ (v 334)) ⊠ (k (28919 / 500000))),
   .v 200 (((k 0) ⊟ (v 165)) ⊠ (.neg (k (1387 / 1000000)))),
   .v 315 (((k 0) ⊟ (v 332)) ⊠ (.neg (k (1243 / 1000000)))),
   .v 241 (((v 95) ⊞ (v 200)) ⊟ (v 315)),
   .v 241 ((((((((((((((((v 270) ⊞ ((v 186) ⊠ (v 78))) ⊞ ((v 176) ⊠ (v 81))) ⊞ ((v 130) ⊠ (v 285))) ⊞ ((v 348) ⊠ (v 64))) ⊞ ((v 118) ⊠ (v 137))) ⊞ ((v 147) ⊠ (v 80))) ⊞ ((v 212) ⊠ (v 218))) ⊞ ((v 159) ⊠ (v 71))) ⊞ ((v 277) ⊠ (v 308))) ⊞ ((v 223) ⊠ (v 55))) ⊞ ((v 268) ⊠ (v 287))) ⊞ ((v 268) ⊠ (v 287))) ⊞ ((v 241) ⊠ (v 58))) ⊞ ((v 241) ⊠ (v 58))) ⊞ ((v 253) ⊠ (w 4))),
   .v 180 (((((v 197) ⊠ (k (61899 / 1600000))) ⊞ ((v 199) ⊠ (.neg (k (751 / 100000))))) ⊞ (((k 0) ⊟ (v 234)) ⊠ (.neg (k (829 / 1000000))))) ⊞ ((v 180) ⊠ (k (3 / 200000)))),
   .v 197 (((k 0) ⊟ (v 199)) ⊠ (k (99 / 500000))),
   .v 314 (((v 198) ⊞ (v 197)) ⊟ (v 314)),
   .v 314 ((((((((((((((v 245) ⊠ (v 265)) ⊞ ((v 341) ⊠ (v 89))) ⊞ ((v 238) ⊠ (v 135))) ⊞ ((v 333) ⊠ (v 82))) ⊞ ((v 297) ⊠ (v 287))) ⊞ ((v 175) ⊠ (v 91))) ⊞ ((v 279) ⊠ (v 211))) ⊞ ((v 180) ⊠ (v 85))) ⊞ ((v 243) ⊠ (v 206))) ⊞ ((v 243) ⊠ (v 206))) ⊞ ((v 314) ⊠ (v 87))) ⊞ ((v 314) ⊠ (v 87))) ⊞ ((v 156) ⊠ (w 5))),
   .v 197 (((k 0) ⊟ (v 197)) ⊟ (v 321)),
   .v 197 ((((((((((((((v 228) ⊠ (v 265)) ⊞ ((v 168) ⊠ (v 89))) ⊞ ((v 131) ⊠ (v 256))) ⊞ ((v 187) ⊠ (v 94))) ⊞ ((v 1) ⊠ (v 287))) ⊞ ((v 338) ⊠ (v 91))) ⊞ ((v 279) ⊠ (v 206))) ⊞ ((v 180) ⊠ (v 87))) ⊞ ((v 323) ⊠ (v 211))) ⊞ ((v 323) ⊠ (v 211))) ⊞ ((v 197) ⊠ (v 85))) ⊞ ((v 197) ⊠ (v 85))) ⊟ ((v 162) ⊠ (w 5))),
   .v 180 (((((v 190) ⊠ (k (28919 / 500000))) ⊞ ((v 165) ⊠ (.neg (k (1243 / 1000000))))) ⊞ (((k 0) ⊟ (v 199)) ⊠ (.neg (k (4193 / 500000))))) ⊞ (((k 0) ⊟ (v 332)) ⊠ (.neg (k (1387 / 1000000))))),
   .v 338 ((v 199) ⊠ (.neg (k (3163 / 250000)))),
   .v 200 (((v 95) ⊟ (v 200)) ⊟ (v 338)),
   .v 200 (((((((((((((((((v 157) ⊠ (.neg (k (23 / 125)))) ⊞ ((v 314) ⊠ (v 77))) ⊞ ((v 197) ⊠ (v 76))) ⊞ ((v 124) ⊠ (v 285))) ⊞ ((v 152) ⊠ (v 64))) ⊞ ((v 120) ⊠ (v 201))) ⊞ ((v 325) ⊠ (v 69))) ⊞ ((v 294) ⊠ (v 218))) ⊞ ((v 180) ⊠ (v 71))) ⊞ ((v 277) ⊠ (v 287))) ⊞ ((v 223) ⊠ (v 58))) ⊞ ((v 282) ⊠ (v 308))) ⊞ ((v 282) ⊠ (v 308))) ⊞ ((v 200) ⊠ (v 55))) ⊞ ((v 200) ⊠ (v 55))) ⊟ ((v 127) ⊠ (w 4))),
   .hes 28 (((k 0) ⊟ ((((((((((((((((((v 330) ⊠ (v 73)) ⊞ ((v 202) ⊠ (v 106))) ⊞ ((v 340) ⊠ (v 258))) ⊞ ((v 195) ⊠ (v 92))) ⊞ ((v 140) ⊠ (v 209))) ⊞ ((v 189) ⊠ (v 66))) ⊞ ((v 273) ⊠ (v 215))) ⊞ ((v 127) ⊠ (v 34))) ⊞ ((v 150) ⊠ (v 158))) ⊞ ((v 317) ⊠ (v 44))) ⊞ ((v 252) ⊠ (v 214))) ⊞ ((v 241) ⊠ (v 35))) ⊞ ((((((((v 121) ⊠ (v 73)) ⊞ ((v 193) ⊠ (v 106))) ⊞ ((v 140) ⊠ (v 219))) ⊞ ((v 189) ⊠ (v 29))) ⊞ ((v 150) ⊠ (v 114))) ⊞ ((v 317) ⊠ (v 47))) ⊠ (k (14 / 125)))) ⊟ (((((((v 345) ⊠ (v 160)) ⊞ ((v 22) ⊠ (v 72))) ⊞ ((v 299) ⊠ (v 142))) ⊞ ((v 166) ⊠ (v 37))) ⊞ ((v 126) ⊠ (v 133))) ⊞ ((v 336) ⊠ (v 46)))) ⊞ ((((((((v 340) ⊠ (v 160)) ⊞ ((v 195) ⊠ (v 72))) ⊞ ((v 299) ⊠ (v 215))) ⊞ ((v 166) ⊠ (v 34))) ⊞ ((v 126) ⊠ (v 214))) ⊞ ((v 336) ⊠ (v 35))) ⊠ (k (14 / 125)))) ⊟ (((((((v 121) ⊠ (v 169)) ⊞ ((v 193) ⊠ (v 74))) ⊞ ((v 254) ⊠ (v 219))) ⊞ ((v 253) ⊠ (v 29))) ⊞ ((v 255) ⊠ (v 114))) ⊞ ((v 200) ⊠ (v 47)))) ⊠ (v 177))) ⊞ ((((((((((((((((((((((((((((v 345) ⊠ (v 73)) ⊞ ((v 22) ⊠ (v 106))) ⊞ ((v 330) ⊠ (v 160))) ⊞ ((v 202) ⊠ (v 72))) ⊞ ((v 121) ⊠ (v 258))) ⊞ ((v 193) ⊠ (v 92))) ⊞ ((v 340) ⊠ (v 169))) ⊞ ((v 195) ⊠ (v 74))) ⊞ ((v 140) ⊠ (v 142))) ⊞ ((v 189) ⊠ (v 37))) ⊞ ((v 299) ⊠ (v 209))) ⊞ ((v 166) ⊠ (v 66))) ⊞ ((v 273) ⊠ (v 219))) ⊞ ((v 127) ⊠ (v 29))) ⊞ ((v 254) ⊠ (v 215))) ⊞ ((v 253) ⊠ (v 34))) ⊞ ((v 150) ⊠ (v 133))) ⊞ ((v 317) ⊠ (v 46))) ⊞ ((v 126) ⊠ (v 158))) ⊞ ((v 336) ⊠ (v 44))) ⊞ ((v 252) ⊠ (v 114))) ⊞ ((v 241) ⊠ (v 47))) ⊞ ((v 255) ⊠ (v 214))) ⊞ ((v 200) ⊠ (v 35))) ⊞ ((((((((v 340) ⊠ (v 73)) ⊞ ((v 195) ⊠ (v 106))) ⊞ ((v 140) ⊠ (v 215))) ⊞ ((v 189) ⊠ (v 34))) ⊞ ((v 150) ⊠ (v 214))) ⊞ ((v 317) ⊠ (v 35))) ⊠ (.neg (k (14 / 125))))) ⊞ ((((((((v 121) ⊠ (v 160)) ⊞ ((v 193) ⊠ (v 72))) ⊞ ((v 299) ⊠ (v 219))) ⊞ ((v 166) ⊠ (v 29))) ⊞ ((v 126) ⊠ (v 114))) ⊞ ((v 336) ⊠ (v 47))) ⊠ (k (14 / 125)))) ⊠ (v 318))),
   .v 142 ((((v 22) ⊠ (k (8711861 / 5000000))) ⊞ (((k 0) ⊟ (v 195)) ⊠ (k (80149129911861 / 500000000000000)))) ⊞ ((v 165) ⊠ (.neg (k (8711861 / 1000000000))))),
   .v 255 ((k 0) ⊟ (v 142)),
   .v 252 ((((((v 22) ⊠ (.neg (k (8711861 / 1000000000)))) ⊞ ((v 202) ⊠ (k (152322944854339 / 100000000000000000000000)))) ⊞ (((k 0) ⊟ (v 193)) ⊠ (.neg (k (21200017 / 100000000000))))) ⊞ ((v 195) ⊠ (k (9214321 / 2500000000)))) ⊞ ((v 165) ⊠ (k (4839 / 62500)))),
   .v 126 ((((((v 202) ⊠ (k (80149129911861 / 500000000000000))) ⊞ ((v 334) ⊠ (.neg (k (8711861 / 1000000000))))) ⊞ ((v 193) ⊠ (.neg (k (6337651 / 100000000))))) ⊞ (((k 0) ⊟ (v 195)) ⊠ (.neg (k (11460001 / 5000000000))))) ⊞ ((v 165) ⊠ (.neg (k (21200017 / 100000000000))))),
   .v 150 (((k 0) ⊟ (v 22)) ⊠ (k (152322944854339 / 100000000000000000000000))),
   .v 340 (((k 0) ⊟ (v 334)) ⊠ (k (80149129911861 / 500000000000000))),
   .v 121 (((k 0) ⊟ (v 193)) ⊠ (k (9214321 / 2500000000))),
   .v 330 (((k 0) ⊟ (v 165)) ⊠ (.neg (k (11460001 / 5000000000)))),
   .v 345 ((((v 150) ⊞ (v 340)) ⊞ (v 121)) ⊟ (v 330)),
   .v 345 ((((((((((((((((((v 317) ⊠ (v 68)) ⊞ ((v 336) ⊠ (v 61))) ⊞ ((v 241) ⊠ (v 52))) ⊞ ((v 200) ⊠ (v 53))) ⊞ ((v 343) ⊠ (v 133))) ⊞ ((v 328) ⊠ (v 46))) ⊞ ((v 239) ⊠ (v 285))) ⊞ ((v 255) ⊠ (v 64))) ⊞ ((v 237) ⊠ (v 114))) ⊞ ((v 252) ⊠ (v 47))) ⊞ ((v 233) ⊠ (v 218))) ⊞ ((v 126) ⊠ (v 32))) ⊞ ((v 170) ⊠ (v 214))) ⊞ ((v 170) ⊠ (v 214))) ⊞ ((v 345) ⊠ (v 35))) ⊞ ((v 345) ⊠ (v 35))) ⊞ ((v 229) ⊠ (w 3))),
   .v 338 ((v 338) ⊞ (v 315)),
   .v 338 ((((((((((((((((v 157) ⊠ (k (83 / 4000))) ⊞ ((v 314) ⊠ (v 86))) ⊞ ((v 197) ⊠ (v 77))) ⊞ ((v 182) ⊠ (v 201))) ⊞ ((v 313) ⊠ (v 69))) ⊞ ((v 119) ⊠ (v 137))) ⊞ ((v 144) ⊠ (v 80))) ⊞ ((v 212) ⊠ (v 287))) ⊞ ((v 159) ⊠ (v 58))) ⊞ ((v 294) ⊠ (v 308))) ⊞ ((v 180) ⊠ (v 55))) ⊞ ((v 324) ⊠ (v 218))) ⊞ ((v 324) ⊠ (v 218))) ⊞ ((v 338) ⊠ (v 71))) ⊞ ((v 338) ⊠ (v 71))),
   .hes 34 ((((((((((v 140) ⊠ (v 225)) ⊞ ((v 189) ⊠ (v 90))) ⊞ ((v 299) ⊠ (v 201))) ⊞ ((v 166) ⊠ (v 69))) ⊞ ((v 273) ⊠ (v 271))) ⊞ ((v 127) ⊠ (v 56))) ⊞ ((v 254) ⊠ (v 287))) ⊞ ((v 253) ⊠ (v 58))) ⊞ (v 338)),
   .v 22 ((((((v 22) ⊠ (k (80149129911861 / 500000000000000))) ⊞ ((v 334) ⊠ (k (152322944854339 / 100000000000000000000000)))) ⊞ ((v 193) ⊠ (.neg (k (11460001 / 5000000000))))) ⊞ (((k 0) ⊟ (v 195)) ⊠ (k (1404749 / 100000000)))) ⊞ (((k 0) ⊟ (v 165)) ⊠ (k (9214321 / 2500000000)))),
   .v 225 (((k 0) ⊟ (v 202)) ⊠ (.neg (k (8711861 / 1000000000)))),
   .v 271 ((v 195) ⊠ (.neg (k (21200017 / 100000000000)))),
   .v 121 ((((v 150) ⊞ (v 225)) ⊟ (v 121)) ⊟ (v 271)),
   .v 121 ((((((((((((((v 338) ⊞ ((v 319) ⊠ (v 133))) ⊞ ((v 301) ⊠ (v 46))) ⊞ ((v 240) ⊠ (v 158))) ⊞ ((v 142) ⊠ (v 44))) ⊞ ((v 257) ⊠ (v 114))) ⊞ ((v 22) ⊠ (v 47))) ⊞ ((v 233) ⊠ (v 214))) ⊞ ((v 126) ⊠ (v 35))) ⊞ ((v 227) ⊠ (v 218))) ⊞ ((v 227) ⊠ (v 218))) ⊞ ((v 121) ⊠ (v 32))) ⊞ ((v 121) ⊠ (v 32))) ⊟ ((v 151) ⊠ (w 3))),
   .v 338 ((((k 0) ⊟ (v 24)) ⊠ (.neg (k (55615274403 / 10000000000000)))) ⊞ ((v 188) ⊠ (k (719043 / 50000000)))),
   .v 126 ((k 0) ⊟ (v 338)),
   .v 301 ((((v 8) ⊠ (k (80995889 / 125000000))) ⊞ ((v 24) ⊠ (k (2699999 / 50000000000)))) ⊞ ((v 188) ⊠ (.neg (k (199538951 / 1000000000))))),
   .v 133 (((((v 8) ⊠ (.neg (k (55615274403 / 10000000000000)))) ⊞ ((v 25) ⊠ (k (719043 / 50000000)))) ⊞ (((k 0) ⊟ (v 24)) ⊠ (.neg (k (18998907 / 5000000000))))) ⊞ ((v 188) ⊠ (.neg (k (2343059 / 200000000))))),
   .v 227 (((k 0) ⊟ (v 25)) ⊠ (.neg (k (55615274403 / 10000000000000)))),
   .v 233 (((k 0) ⊟ (v 188)) ⊠ (.neg (k (18998907 / 5000000000)))),
   .v 319 ((v 227) ⊟ (v 233)),
   .v 253 (((((((v 320) ⊠ (v 43)) ⊞ ((v 335) ⊠ (v 42))) ⊞ (((((((((((v 189) ⊠ (v 67)) ⊞ ((v 166) ⊠ (v 60))) ⊞ ((v 127) ⊠ (v 53))) ⊞ ((v 253) ⊠ (v 54))) ⊞ ((v 202) ⊠ (k (80149129911861 / 500000000000000)))) ⊞ ((v 334) ⊠ (k (8711861 / 1000000000)))) ⊞ ((v 193) ⊠ (k (9570849 / 100000000)))) ⊞ ((v 195) ⊠ (.neg (k (11460001 / 5000000000))))) ⊞ ((v 165) ⊠ (.neg (k (21200017 / 100000000000))))) ⊠ (.neg (k 1)))) ⊞ ((v 8) ⊠ (.neg (k (80995889 / 125000000))))) ⊞ ((v 24) ⊠ (k (2699999 / 50000000000)))) ⊞ ((v 188) ⊠ (k (4047279 / 20000000)))),
   .v 319 ((((((((((((((v 295) ⊠ (.neg (k (38 / 125)))) ⊞ ((v 345) ⊠ (v 28))) ⊞ ((v 121) ⊠ (v 30))) ⊞ ((v 146) ⊠ (v 192))) ⊞ ((v 126) ⊠ (v 39))) ⊞ ((v 301) ⊠ (v 23))) ⊞ ((v 123) ⊠ (v 331))) ⊞ ((v 133) ⊠ (v 12))) ⊞ ((v 50) ⊠ (v 289))) ⊞ ((v 50) ⊠ (v 289))) ⊞ ((v 319) ⊠ (v 15))) ⊞ ((v 319) ⊠ (v 15))) ⊞ ((v 253) ⊠ (w 2))),
   .v 50 ((.neg (v 23)) ⊠ (v 192)),
   .v 127 ((((((((((k (80149129911861 / 500000000000000)) ⊠ (v 219)) ⊞ ((.neg (k (152322944854339 / 100000000000000000000000))) ⊠ (v 213))) ⊞ ((k (8711861 / 5000000)) ⊠ (v 209))) ⊞ ((.neg (k (8711861 / 5000000))) ⊠ ((v 226) ⊟ (v 280)))) ⊞ ((k (80149129911861 / 500000000000000)) ⊠ (v 222))) ⊞ ((k (152322944854339 / 100000000000000000000000)) ⊠ (v 51))) ⊞ ((v 52) ⊠ (v 73))) ⊞ ((v 53) ⊠ (v 160))) ⊟ ((.neg (k (8711861 / 1000000000))) ⊠ ((v 99) ⊞ (v 310)))),
   .v 104 (((((((((((((k (8711861 / 1000000000)) ⊠ (v 219)) ⊞ ((k (152322944854339 / 100000000000000000000000)) ⊠ (v 215))) ⊞ ((k (8711861 / 5000000)) ⊠ (v 134))) ⊞ ((k (8711861 / 5000000)) ⊠ (v 49))) ⊞ ((k (152322944854339 / 100000000000000000000000)) ⊠ (v 113))) ⊞ ((.neg (k (8711861 / 1000000000))) ⊠ (v 222))) ⊞ ((k (2629 / 1250)) ⊠ ((((v 308) ⊠ (v 69)) ⊞ ((v 55) ⊠ (v 201))) ⊟ (((v 287) ⊠ (v 80)) ⊞ ((v 58) ⊠ (v 137)))))) ⊞ ((k (2629 / 1250)) ⊠ (v 134))) ⊞ ((v 79) ⊠ (v 286))) ⊞ ((v 77) ⊠ (v 224))) ⊟ ((k (80149129911861 / 500000000000000)) ⊠ ((v 99) ⊞ (v 205)))) ⊟ ((k (28919 / 500000)) ⊠ ((v 104) ⊞ (v 167)))),
   .v 221 (((((((((.neg (k (80995889 / 125000000))) ⊠ (v 242)) ⊞ ((k (2327 / 1000)) ⊠ (v 164))) ⊞ ((.neg (k (2327 / 1000))) ⊠ (v 50))) ⊞ ((.neg (k (55615274403 / 10000000000000))) ⊠ (v 117))) ⊞ ((k (80995889 / 125000000)) ⊠ (v 236))) ⊞ ((v 28) ⊠ (v 127))) ⊞ ((v 30) ⊠ (v 104))) ⊟ ((k (719043 / 50000000)) ⊠ (v 221))),
   .v 328 ((k 0) ⊟ (v 328)),
   .v 142 ((((((((v 317) ⊠ (v 52)) ⊞ ((v 336) ⊠ (v 53))) ⊞ ((v 101) ⊠ (v 114))) ⊞ ((v 328) ⊠ (v 47))) ⊞ ((v 240) ⊠ (v 218))) ⊞ ((v 142) ⊠ (v 32))) ⊞ ((v 335) ⊠ (w 3))),
   .v 155 ((((k 0) ⊟ (v 191)) ⊞ (v 163)) ⊟ (v 155)),
   .v 255 ((((((((((((v 186) ⊠ (v 79)) ⊞ ((v 176) ⊠ (v 77))) ⊞ ((v 130) ⊠ (v 287))) ⊞ ((v 348) ⊠ (v 58))) ⊞ ((v 124) ⊠ (v 308))) ⊞ ((v 152) ⊠ (v 55))) ⊞ ((v 327) ⊠ (v 114))) ⊞ ((v 155) ⊠ (v 47))) ⊞ ((v 239) ⊠ (v 214))) ⊞ ((v 255) ⊠ (v 35))) ⊟ ((v 320) ⊠ (w 3))),
   .hes 27 (((k 0) ⊟ (((((((((((((((((((v 235) ⊠ (v 127)) ⊞ ((v 8) ⊠ (v 112))) ⊞ ((v 342) ⊠ (v 63))) ⊞ ((v 267) ⊠ (v 210))) ⊞ ((v 24) ⊠ (v 100))) ⊞ ((v 298) ⊠ (v 164))) ⊞ ((v 320) ⊠ (v 41))) ⊞ ((v 335) ⊠ (v 7))) ⊞ ((v 250) ⊠ (v 306))) ⊞ ((v 151) ⊠ (v 14))) ⊞ ((v 229) ⊠ (v 6))) ⊞ ((v 145) ⊠ (v 288))) ⊞ ((v 142) ⊠ (v 21))) ⊞ ((v 183) ⊠ (v 289))) ⊞ ((v 345) ⊠ (v 15))) ⊞ ((v 121) ⊠ (v 23))) ⊞ ((((((((v 272) ⊠ (v 127)) ⊞ ((v 188) ⊠ (v 112))) ⊞ ((v 298) ⊠ (v 242))) ⊞ ((v 320) ⊠ (v 16))) ⊞ ((v 145) ⊠ (v 331))) ⊞ ((v 142) ⊠ (v 12))) ⊠ (.neg (k (38 / 125))))) ⊠ (v 309))) ⊞ (((((((((((((((((v 235) ⊠ (v 104)) ⊞ ((v 8) ⊠ (v 107))) ⊞ ((v 267) ⊠ (v 63))) ⊞ ((v 24) ⊠ (v 108))) ⊞ ((v 293) ⊠ (v 164))) ⊞ ((v 335) ⊠ (v 41))) ⊞ ((v 300) ⊠ (v 306))) ⊞ ((v 229) ⊠ (v 14))) ⊞ ((v 291) ⊠ (v 288))) ⊞ ((v 255) ⊠ (v 21))) ⊞ ((v 173) ⊠ (v 289))) ⊞ ((v 121) ⊠ (v 15))) ⊟ ((v 320) ⊠ (v 7))) ⊞ ((((((((v 272) ⊠ (v 104)) ⊞ ((v 188) ⊠ (v 107))) ⊞ ((v 293) ⊠ (v 242))) ⊞ ((v 335) ⊠ (v 16))) ⊞ ((v 291) ⊠ (v 331))) ⊞ ((v 255) ⊠ (v 12))) ⊠ (.neg (k (38 / 125))))) ⊟ ((((v 342) ⊠ (v 210)) ⊞ ((v 151) ⊠ (v 6))) ⊞ ((v 345) ⊠ (v 23)))) ⊠ (v 161))),
   .v 63 ((k 0) ⊟ (((v 25) ⊠ (k (2327 / 1000))) ⊞ ((v 24) ⊠ (k (80995889 / 125000000)))))]

/-- HyAInverseDynHessian.cpp:1369-1536. -/
def part9 : List Stmt :=
  [.v 194 ((((v 194) ⊠ (.neg (k 1))) ⊞ ((v 25) ⊠ (k (2327 / 1000)))) ⊞ ((v 24) ⊠ (k (80995889 / 125000000)))),
   .v 210 (((((((v 142) ⊠ (v 28)) ⊞ ((v 255) ⊠ (v 30))) ⊞ ((v 63) ⊠ (v 23))) ⊞ ((v 231) ⊠ (v 331))) ⊞ ((v 338) ⊠ (v 12))) ⊞ ((v 194) ⊠ (w 2))),
   .v 291 (((v 289) ⊠ (v 15)) ⊞ ((v 15) ⊠ (v 289))),
   .v 339 ((((((((k (80995889 / 125000000)) ⊠ (v 306)) ⊞ ((k (2327 / 1000)) ⊠ (v 284))) ⊞ ((k (2327 / 1000)) ⊠ (v 276))) ⊞ ((k (80995889 / 125000000)) ⊠ (v 75))) ⊞ ((k (719043 / 50000000)) ⊠ (v 117))) ⊞ ((.neg (k 1)) ⊠ (v 339))) ⊟ ((.neg (k (55615274403 / 10000000000000))) ⊠ (v 291))),
   .v 276 ((k 0) ⊟ (((v 8) ⊠ (.neg (k (2327 / 1000)))) ⊞ ((v 188) ⊠ (k (80995889 / 125000000))))),
   .v 126 ((((((v 295) ⊠ (.neg (k 1))) ⊞ ((v 276) ⊠ (v 23))) ⊞ ((v 146) ⊠ (v 289))) ⊞ ((v 126) ⊠ (v 15))) ⊟ ((v 329) ⊠ (w 2))),
   .v 291 (((((((((((((k (2699999 / 50000000000)) ⊠ (v 306)) ⊞ ((k (4047279 / 20000000)) ⊠ (v 242))) ⊞ ((.neg (k (80995889 / 125000000))) ⊠ (v 164))) ⊞ ((k (719043 / 50000000)) ⊠ (v 110))) ⊞ ((k (80995889 / 125000000)) ⊠ (v 50))) ⊞ ((.neg (k (199538951 / 1000000000))) ⊠ (v 236))) ⊞ ((.neg (k (2343059 / 200000000))) ⊠ (v 117))) ⊞ ((v 43) ⊠ (v 127))) ⊞ ((v 42) ⊠ (v 104))) ⊞ ((.neg (k 1)) ⊠ ((((((((((((((((k (9570849 / 100000000)) ⊠ (v 219)) ⊞ ((.neg (k (11460001 / 5000000000))) ⊠ (v 215))) ⊞ ((.neg (k (21200017 / 100000000000))) ⊠ (v 213))) ⊞ ((k (80149129911861 / 500000000000000)) ⊠ (v 209))) ⊞ ((k (8711861 / 1000000000)) ⊠ (v 134))) ⊞ ((k (80149129911861 / 500000000000000)) ⊠ ((v 280) ⊟ (v 226)))) ⊞ ((.neg (k (6337651 / 100000000))) ⊠ (v 222))) ⊞ ((.neg (k (11460001 / 5000000000))) ⊠ (v 113))) ⊞ ((v 53) ⊠ (v 258))) ⊞ ((v 54) ⊠ (v 169))) ⊞ ((v 67) ⊠ (v 73))) ⊞ ((v 60) ⊠ (v 160))) ⊟ ((.neg (k (8711861 / 1000000000))) ⊠ (v 49))) ⊟ ((.neg (k (21200017 / 100000000000))) ⊠ (v 51))) ⊟ ((k (9214321 / 2500000000)) ⊠ ((v 205) ⊟ (v 310)))))) ⊟ ((k (2699999 / 50000000000)) ⊠ (v 75))) ⊟ ((.neg (k (18998907 / 5000000000))) ⊠ ((k 0) ⊟ (v 291)))),
   .v 271 ((((v 225) ⊞ (v 340)) ⊞ (v 271)) ⊞ (v 330)),
   .v 271 (((((((((((((((((v 317) ⊠ (v 67)) ⊞ ((v 336) ⊠ (v 60))) ⊞ ((v 241) ⊠ (v 53))) ⊞ ((v 200) ⊠ (v 54))) ⊞ ((v 101) ⊠ (v 158))) ⊞ ((v 328) ⊠ (v 44))) ⊞ ((v 327) ⊠ (v 285))) ⊞ ((v 155) ⊠ (v 64))) ⊞ ((v 237) ⊠ (v 214))) ⊞ ((v 252) ⊠ (v 35))) ⊞ ((v 257) ⊠ (v 218))) ⊞ ((v 22) ⊠ (v 32))) ⊞ ((v 154) ⊠ (v 114))) ⊞ ((v 154) ⊠ (v 114))) ⊞ ((v 271) ⊠ (v 47))) ⊞ ((v 271) ⊠ (v 47))),
   .hes 33 ((((((((((v 298) ⊠ (v 220)) ⊞ ((v 320) ⊠ (v 65))) ⊞ ((v 293) ⊠ (v 158))) ⊞ ((v 335) ⊠ (v 44))) ⊞ ((v 250) ⊠ (v 217))) ⊞ ((v 151) ⊠ (v 33))) ⊞ ((v 300) ⊠ (v 214))) ⊞ ((v 229) ⊠ (v 35))) ⊞ (v 271)),
   .v 335 ((((v 25) ⊠ (k (80995889 / 125000000))) ⊞ (((k 0) ⊟ (v 24)) ⊠ (.neg (k (192033951 / 1000000000))))) ⊞ (((k 0) ⊟ (v 188)) ⊠ (k (2699999 / 50000000000)))),
   .v 320 (((k 0) ⊟ (v 8)) ⊠ (k (719043 / 50000000))),
   .v 220 ((v 24) ⊠ (.neg (k (2343059 / 200000000)))),
   .v 158 ((v 320) ⊟ (v 220)),
   .v 158 ((((((((((((((v 142) ⊠ (v 43)) ⊞ ((v 255) ⊠ (v 42))) ⊞ ((v 271) ⊠ (.neg (k 1)))) ⊞ ((v 231) ⊠ (v 288))) ⊞ ((v 338) ⊠ (v 21))) ⊞ ((v 335) ⊠ (v 23))) ⊞ ((v 123) ⊠ (v 289))) ⊞ ((v 133) ⊠ (v 15))) ⊞ ((v 115) ⊠ (v 331))) ⊞ ((v 115) ⊠ (v 331))) ⊞ ((v 158) ⊠ (v 12))) ⊞ ((v 158) ⊠ (v 12))) ⊟ ((v 179) ⊠ (w 2))),
   .hes 26 ((((((k 0) ⊟ ((((((((v 216) ⊠ (v 109)) ⊞ ((v 292) ⊠ (v 17))) ⊞ ((v 249) ⊠ (v 3))) ⊞ ((v 48) ⊠ (v 5))) ⊞ ((((w 7) ⊠ (v 111)) ⊞ ((v 296) ⊠ (w 1))) ⊠ (k (14 / 125)))) ⊞ (((((v 216) ⊠ (v 84)) ⊞ ((v 278) ⊠ (v 3))) ⊞ ((v 305) ⊠ (v 5))) ⊠ (k (14 / 125)))) ⊟ (((w 7) ⊠ (v 105)) ⊞ ((v 116) ⊠ (w 1))))) ⊠ (v 9)) ⊟ (((((((((v 216) ⊠ (v 27)) ⊞ ((v 329) ⊠ (v 17))) ⊞ ((v 179) ⊠ (v 3))) ⊞ ((v 319) ⊠ (v 5))) ⊞ ((((w 7) ⊠ (v 221)) ⊞ ((v 210) ⊠ (w 1))) ⊠ (k (14 / 125)))) ⊞ (((((v 216) ⊠ (v 339)) ⊞ ((v 194) ⊠ (v 3))) ⊞ ((v 126) ⊠ (v 5))) ⊠ (k (14 / 125)))) ⊟ (((w 7) ⊠ (v 291)) ⊞ ((v 158) ⊠ (w 1)))) ⊠ (v 203))) ⊞ ((((((((((w 7) ⊠ (v 27)) ⊞ ((v 216) ⊠ (v 291))) ⊞ ((v 194) ⊠ (v 17))) ⊞ ((v 253) ⊠ (v 3))) ⊞ ((v 319) ⊠ (w 1))) ⊞ ((v 158) ⊠ (v 5))) ⊞ (((((v 216) ⊠ (v 221)) ⊞ ((v 329) ⊠ (v 3))) ⊞ ((v 210) ⊠ (v 5))) ⊠ (.neg (k (14 / 125))))) ⊞ ((((w 7) ⊠ (v 339)) ⊞ ((v 126) ⊠ (w 1))) ⊠ (k (14 / 125)))) ⊠ (v 251))) ⊟ ((((((((((w 7) ⊠ (v 109)) ⊞ ((v 216) ⊠ (v 105))) ⊞ ((v 278) ⊠ (v 17))) ⊞ ((v 208) ⊠ (v 3))) ⊞ ((v 48) ⊠ (w 1))) ⊞ ((v 116) ⊠ (v 5))) ⊞ (((((v 216) ⊠ (v 111)) ⊞ ((v 292) ⊠ (v 3))) ⊞ ((v 296) ⊠ (v 5))) ⊠ (.neg (k (14 / 125))))) ⊞ ((((w 7) ⊠ (v 84)) ⊞ ((v 305) ⊠ (w 1))) ⊠ (k (14 / 125)))) ⊠ (v 10))),
   .v 291 (((((((v 350) ⊠ (v 286)) ⊞ ((v 199) ⊠ (v 93))) ⊞ ((v 322) ⊠ (v 262))) ⊞ ((v 204) ⊠ (v 57))) ⊞ ((v 129) ⊠ (v 287))) ⊞ ((v 186) ⊠ (v 58))),
   .v 199 (((((((v 350) ⊠ (v 224)) ⊞ ((v 199) ⊠ (v 97))) ⊞ ((v 302) ⊠ (v 262))) ⊞ ((v 196) ⊠ (v 57))) ⊞ ((v 125) ⊠ (v 287))) ⊞ ((v 176) ⊠ (v 58))),
   .hes 29 (((k 0) ⊟ ((((((((((((((((((((((((((((v 326) ⊠ (v 224)) ⊞ ((v 334) ⊠ (v 97))) ⊞ ((v 347) ⊠ (v 286))) ⊞ ((v 190) ⊠ (v 93))) ⊞ ((v 207) ⊠ (v 88))) ⊞ ((v 165) ⊠ (v 102))) ⊞ ((v 96) ⊠ (v 26))) ⊞ ((v 332) ⊠ (v 103))) ⊞ ((v 322) ⊠ (v 136))) ⊞ ((v 204) ⊠ (v 70))) ⊞ ((v 302) ⊠ (v 134))) ⊞ ((v 196) ⊠ (v 45))) ⊞ ((v 269) ⊠ (v 281))) ⊞ ((v 162) ⊠ (v 59))) ⊞ ((v 259) ⊠ (v 213))) ⊞ ((v 156) ⊠ (v 36))) ⊞ ((v 129) ⊠ (v 137))) ⊞ ((v 186) ⊠ (v 80))) ⊞ ((v 125) ⊠ (v 285))) ⊞ ((v 176) ⊠ (v 64))) ⊞ ((v 304) ⊠ (v 308))) ⊞ ((v 314) ⊠ (v 55))) ⊞ ((v 290) ⊠ (v 218))) ⊞ ((v 197) ⊠ (v 71))) ⊞ ((v 291) ⊠ (k (23 / 125)))) ⊞ (((k 0) ⊟ (v 199)) ⊠ (k (83 / 4000)))) ⊠ (v 248))) ⊞ ((((((((((((((((((v 347) ⊠ (v 224)) ⊞ ((v 190) ⊠ (v 97))) ⊞ ((v 96) ⊠ (v 88))) ⊞ ((v 332) ⊠ (v 102))) ⊞ ((v 302) ⊠ (v 136))) ⊞ ((v 196) ⊠ (v 70))) ⊞ ((v 259) ⊠ (v 281))) ⊞ ((v 156) ⊠ (v 59))) ⊞ ((v 125) ⊠ (v 137))) ⊞ ((v 176) ⊠ (v 80))) ⊞ ((v 290) ⊠ (v 308))) ⊞ ((v 197) ⊠ (v 55))) ⊟ (((((((v 326) ⊠ (v 286)) ⊞ ((v 334) ⊠ (v 93))) ⊞ ((v 322) ⊠ (v 134))) ⊞ ((v 204) ⊠ (v 45))) ⊞ ((v 129) ⊠ (v 285))) ⊞ ((v 186) ⊠ (v 64)))) ⊞ ((v 291) ⊠ (k (83 / 4000)))) ⊞ ((v 199) ⊠ (k (23 / 125)))) ⊟ (((((((v 207) ⊠ (v 26)) ⊞ ((v 165) ⊠ (v 103))) ⊞ ((v 269) ⊠ (v 213))) ⊞ ((v 162) ⊠ (v 36))) ⊞ ((v 304) ⊠ (v 218))) ⊞ ((v 314) ⊠ (v 71)))) ⊠ (v 247))),
   .v 229 (((((((v 151) ⊠ (v 31)) ⊞ ((v 229) ⊠ (v 28))) ⊞ ((v 8) ⊠ (.neg (k (55615274403 / 10000000000000))))) ⊞ ((v 25) ⊠ (.neg (k (719043 / 50000000))))) ⊞ ((v 24) ⊠ (.neg (k (18998907 / 5000000000))))) ⊞ ((v 188) ⊠ (.neg (k (2343059 / 200000000))))),
   .v 220 ((((v 320) ⊞ (v 227)) ⊞ (v 220)) ⊞ (v 233)),
   .v 220 (((((((((((((v 345) ⊠ (v 31)) ⊞ ((v 121) ⊠ (v 28))) ⊞ ((v 349) ⊠ (v 288))) ⊞ ((v 63) ⊠ (v 21))) ⊞ ((v 337) ⊠ (v 192))) ⊞ ((v 276) ⊠ (v 39))) ⊞ ((v 132) ⊠ (v 289))) ⊞ ((v 301) ⊠ (v 15))) ⊞ ((v 246) ⊠ (v 331))) ⊞ ((v 335) ⊠ (v 12))) ⊞ ((v 220) ⊠ (v 23))) ⊞ ((v 220) ⊠ (v 23))),
   .hes 32 ((((((((((v 292) ⊠ (v 122)) ⊞ ((v 329) ⊠ (v 40))) ⊞ ((v 278) ⊠ (v 288))) ⊞ ((v 194) ⊠ (v 21))) ⊞ ((v 249) ⊠ (v 307))) ⊞ ((v 179) ⊠ (v 13))) ⊞ ((v 208) ⊠ (v 289))) ⊞ ((v 253) ⊠ (v 15))) ⊞ (v 220)),
   .v 194 (((((((((v 292) ⊠ (v 275)) ⊞ ((v 329) ⊠ (v 19))) ⊞ ((v 278) ⊠ (v 244))) ⊞ ((v 194) ⊠ (v 18))) ⊞ ((v 249) ⊠ (v 128))) ⊞ ((v 179) ⊠ (v 9))) ⊞ ((v 208) ⊠ (v 251))) ⊞ ((v 253) ⊠ (v 10))),
   .hes 30 ((((((((((((v 296) ⊠ (v 275)) ⊞ ((v 210) ⊠ (v 19))) ⊞ ((v 305) ⊠ (v 244))) ⊞ ((v 126) ⊠ (v 18))) ⊞ ((v 48) ⊠ (v 128))) ⊞ ((v 319) ⊠ (v 9))) ⊞ ((v 116) ⊠ (v 251))) ⊞ ((v 158) ⊠ (v 10))) ⊞ ((v 229) ⊠ (w 1))) ⊠ (v 4)) ⊞ (((v 220) ⊟ ((v 194) ⊠ (w 1))) ⊠ (v 0))),
   .hes 31 (((((((((((v 296) ⊠ (v 283)) ⊞ ((v 210) ⊠ (v 20))) ⊞ ((v 305) ⊠ (v 178))) ⊞ ((v 126) ⊠ (v 38))) ⊞ ((v 48) ⊠ (v 251))) ⊞ ((v 319) ⊠ (v 10))) ⊞ ((v 116) ⊠ (v 230))) ⊞ ((v 158) ⊠ (v 11))) ⊞ ((v 194) ⊠ (v 2))) ⊞ ((v 229) ⊠ (v 5))),
   .v 194 ((w 6) ⊠ (v 4)),
   .v 229 (((w 7) ⊠ (v 20)) ⊞ ((v 194) ⊠ (v 19))),
   .v 158 ((w 8) ⊞ ((w 6) ⊠ (v 0))),
   .v 126 (((w 7) ⊠ (v 10)) ⊞ ((v 194) ⊠ (v 9))),
   .v 210 (((((w 7) ⊠ (v 38)) ⊞ ((v 194) ⊠ (v 18))) ⊠ (.neg (k 1))) ⊞ ((v 126) ⊠ (.neg (k (38 / 125))))),
   .v 194 (((w 7) ⊠ (v 11)) ⊞ ((v 194) ⊠ (v 10))),
   .v 319 (((v 229) ⊠ (v 28)) ⊞ ((v 194) ⊠ (v 43))),
   .v 178 ((w 9) ⊞ ((v 194) ⊠ (.neg (k 1)))),
   .v 283 (((v 158) ⊠ (v 31)) ⊞ ((v 126) ⊠ (v 28))),
   .v 230 (((((v 210) ⊠ (v 53)) ⊞ ((v 319) ⊠ (v 52))) ⊞ ((v 178) ⊠ (v 67))) ⊞ ((v 283) ⊠ (v 68))),
   .v 116 (((v 158) ⊠ (v 28)) ⊞ ((v 126) ⊠ (v 30))),
   .v 305 ((w 10) ⊞ (v 116)),
   .v 296 (((v 178) ⊠ (v 54)) ⊞ ((v 283) ⊠ (v 53))),
   .v 48 (((v 230) ⊞ ((v 305) ⊠ (k (83 / 4000)))) ⊞ ((v 296) ⊠ (.neg (k (23 / 125))))),
   .v 251 (((v 305) ⊠ (v 86)) ⊞ ((v 296) ⊠ (v 77))),
   .v 220 (((v 48) ⊠ (k (61899 / 40000))) ⊞ ((v 251) ⊠ (.neg (k (61899 / 1600000))))),
   .v 275 (((v 220) ⊞ ((v 230) ⊠ (k (2629 / 1250)))) ⊞ ((v 296) ⊠ (.neg (k (28919 / 500000))))),
   .v 244 (((v 229) ⊠ (v 30)) ⊞ ((v 194) ⊠ (v 42))),
   .v 128 (((((v 210) ⊠ (v 62)) ⊞ ((v 319) ⊠ (v 53))) ⊞ ((v 178) ⊠ (v 60))) ⊞ ((v 283) ⊠ (v 61))),
   .v 253 (((v 178) ⊠ (v 53)) ⊞ ((v 283) ⊠ (v 52))),
   .v 179 ((((v 244) ⊠ (v 79)) ⊞ ((v 128) ⊠ (v 77))) ⊞ ((v 253) ⊠ (v 78))),
   .v 329 ((w 11) ⊞ (v 253)),
   .v 278 (((v 179) ⊠ (k (61899 / 40000))) ⊞ ((v 329) ⊠ (k (61899 / 1600000)))),
   .v 208 ((((v 244) ⊠ (v 77)) ⊞ ((v 128) ⊠ (v 76))) ⊞ ((v 253) ⊠ (v 81))),
   .v 249 ((v 208) ⊠ (k (61899 / 40000))),
   .v 292 (((((v 278) ⊠ (v 77)) ⊞ ((v 249) ⊠ (v 76))) ⊞ ((v 128) ⊠ (k (2629 / 1250)))) ⊞ ((v 253) ⊠ (k (28919 / 500000)))),
   .v 122 ((((((v 275) ⊠ (v 52)) ⊞ ((v 292) ⊠ (v 53))) ⊞ ((v 319) ⊠ (k (8711861 / 5000000)))) ⊞ ((v 178) ⊠ (k (80149129911861 / 500000000000000)))) ⊞ ((v 116) ⊠ (.neg (k (152322944854339 / 100000000000000000000000))))),
   .v 288 (((((((v 278) ⊠ (v 79)) ⊞ ((v 249) ⊠ (v 77))) ⊞ ((v 244) ⊠ (k (2629 / 1250)))) ⊞ ((v 244) ⊠ (k (8711861 / 5000000)))) ⊞ ((v 178) ⊠ (k (8711861 / 1000000000)))) ⊞ ((v 283) ⊠ (k (152322944854339 / 100000000000000000000000)))),
   .v 289 (((v 305) ⊠ (v 77)) ⊞ ((v 296) ⊠ (v 76))),
   .v 307 (((((((((((v 179) ⊠ (k (61899 / 1600000))) ⊞ ((v 329) ⊠ (k (9277 / 1000000)))) ⊞ ((v 251) ⊠ (.neg (k (829 / 1000000))))) ⊞ ((v 289) ⊠ (k (3 / 200000)))) ⊞ ((v 278) ⊠ (v 78))) ⊞ ((v 249) ⊠ (v 81))) ⊞ ((v 128) ⊠ (k (28919 / 500000)))) ⊞ ((v 305) ⊠ (.neg (k (1243 / 1000000))))) ⊞ ((v 253) ⊠ (k (5823 / 200000)))) ⊞ ((v 296) ⊠ (.neg (k (1387 / 1000000))))),
   .v 335 (((((v 48) ⊠ (.neg (k (61899 / 1600000)))) ⊞ ((v 329) ⊠ (.neg (k (829 / 1000000))))) ⊞ ((v 251) ⊠ (k (3227 / 1000000)))) ⊞ ((v 289) ⊠ (k (99 / 500000)))),
   .v 276 ((((v 329) ⊠ (k (3 / 200000))) ⊞ ((v 251) ⊠ (k (99 / 500000)))) ⊞ ((v 289) ⊠ (k (10737 / 1000000)))),
   .v 63 ((((((((v 220) ⊠ (.neg (k (23 / 125)))) ⊞ ((v 335) ⊠ (v 77))) ⊞ ((v 276) ⊠ (v 76))) ⊞ ((v 230) ⊠ (.neg (k (28919 / 500000))))) ⊞ ((v 305) ⊠ (.neg (k (3163 / 250000))))) ⊞ ((v 253) ⊠ (.neg (k (1387 / 1000000))))) ⊞ ((v 296) ⊠ (k (2429 / 125000)))),
   .v 301 ((((((((((v 275) ⊠ (v 68)) ⊞ ((v 292) ⊠ (v 61))) ⊞ ((v 307) ⊠ (v 52))) ⊞ ((v 63) ⊠ (v 53))) ⊞ ((v 210) ⊠ (.neg (k (80149129911861 / 500000000000000))))) ⊞ ((v 244) ⊠ (k (152322944854339 / 100000000000000000000000)))) ⊞ ((v 178) ⊠ (.neg (k (11460001 / 5000000000))))) ⊞ ((v 283) ⊠ (k (1828449 / 100000000)))) ⊞ ((v 116) ⊠ (k (9214321 / 2500000000)))),
   .v 220 ((((((((((((v 220) ⊠ (k (83 / 4000))) ⊞ ((v 335) ⊠ (v 86))) ⊞ ((v 276) ⊠ (v 77))) ⊞ ((v 305) ⊠ (k (5523 / 500000)))) ⊞ ((v 253) ⊠ (.neg (k (1243 / 1000000))))) ⊞ ((v 296) ⊠ (.neg (k (3163 / 250000))))) ⊞ ((v 210) ⊠ (.neg (k (8711861 / 1000000000))))) ⊞ ((v 319) ⊠ (.neg (k (152322944854339 / 100000000000000000000000))))) ⊞ ((v 178) ⊠ (.neg (k (21200017 / 100000000000))))) ⊞ ((v 283) ⊠ (k (9214321 / 2500000000)))) ⊞ ((v 116) ⊠ (k (81661 / 1000000)))),
   .v 121 ((v 208) ⊠ (k (61899 / 40000))),
   .v 345 ((v 179) ⊠ (.neg (k (61899 / 40000)))),
   .v 192 ((v 329) ⊠ (k (61899 / 1600000))),
   .v 331 ((v 345) ⊟ (v 192)),
   .v 246 (((v 121) ⊠ (v 87)) ⊞ ((v 331) ⊠ (v 85))),
   .v 337 (((v 128) ⊠ (k (2629 / 1250))) ⊞ ((v 253) ⊠ (k (28919 / 500000)))),
   .v 349 ((k 0) ⊟ (v 337)),
   .v 132 ((v 244) ⊠ (k (2629 / 1250))),
   .v 39 ((((v 246) ⊞ ((v 349) ⊠ (v 71))) ⊞ ((v 132) ⊠ (v 55))) ⊞ ((v 292) ⊠ (w 4))),
   .v 320 ((k 0) ⊟ (v 121)),
   .v 233 (((v 48) ⊠ (k (61899 / 40000))) ⊞ (((k 0) ⊟ (v 251)) ⊠ (k (61899 / 1600000)))),
   .v 227 ((((v 320) ⊠ (v 91)) ⊞ ((v 233) ⊠ (v 85))) ⊞ ((v 249) ⊠ (w 5))),
   .v 192 (((k 0) ⊟ (v 345)) ⊞ (v 192)),
   .v 345 ((k 0) ⊟ (v 233)),
   .v 151 ((((v 192) ⊠ (v 91)) ⊞ ((v 345) ⊠ (v 87))) ⊟ ((v 278) ⊠ (w 5))),
   .v 188 (((v 230) ⊠ (.neg (k (2629 / 1250)))) ⊞ ((v 296) ⊠ (k (28919 / 500000)))),
   .v 8 ((k 0) ⊟ (v 188)),
   .v 24 ((k 0) ⊟ (v 132)),
   .v 25 ((((((v 227) ⊠ (v 77)) ⊞ ((v 151) ⊠ (v 76))) ⊞ ((v 8) ⊠ (v 71))) ⊞ ((v 24) ⊠ (v 58))) ⊟ ((v 275) ⊠ (w 4))),
   .v 199 ((((v 244) ⊠ (k (8711861 / 5000000))) ⊞ (((k 0) ⊟ (v 178)) ⊠ (.neg (k (8711861 / 1000000000))))) ⊞ ((v 283) ⊠ (k (152322944854339 / 100000000000000000000000)))),
   .v 291 ((k 0) ⊟ (v 199)),
   .v 197 ((((v 210) ⊠ (k (8711861 / 5000000))) ⊞ (((k 0) ⊟ (v 283)) ⊠ (k (80149129911861 / 500000000000000)))) ⊞ ((v 116) ⊠ (.neg (k (8711861 / 1000000000))))),
   .v 314 ((((((v 39) ⊠ (v 52)) ⊞ ((v 25) ⊠ (v 53))) ⊞ ((v 291) ⊠ (v 47))) ⊞ ((v 197) ⊠ (v 32))) ⊞ ((v 288) ⊠ (w 3))),
   .v 176 (((((k 0) ⊟ (v 329)) ⊠ (k (3 / 200000))) ⊞ ((v 251) ⊠ (k (99 / 500000)))) ⊞ ((v 289) ⊠ (k (121 / 20000)))),
   .v 48 (((((v 48) ⊠ (k (61899 / 1600000))) ⊞ ((v 329) ⊠ (.neg (k (829 / 1000000))))) ⊞ (((k 0) ⊟ (v 251)) ⊠ (.neg (k (73 / 50000))))) ⊞ (((k 0) ⊟ (v 289)) ⊠ (k (99 / 500000)))),
   .v 208 (((k 0) ⊟ (v 208)) ⊠ (k (61899 / 1600000))),
   .v 186 ((v 251) ⊠ (k (3 / 200000))),
   .v 156 (((k 0) ⊟ (v 289)) ⊠ (.neg (k (829 / 1000000)))),
   .v 162 (((v 208) ⊞ (v 186)) ⊞ (v 156)),
   .v 230 (((((v 230) ⊠ (k (28919 / 500000))) ⊞ (((k 0) ⊟ (v 305)) ⊠ (.neg (k (3163 / 250000))))) ⊞ ((v 253) ⊠ (.neg (k (1387 / 1000000))))) ⊞ ((v 296) ⊠ (.neg (k (18069 / 1000000))))),
   .v 196 ((((v 305) ⊠ (k (9683 / 1000000))) ⊞ (((k 0) ⊟ (v 253)) ⊠ (.neg (k (1243 / 1000000))))) ⊞ ((v 296) ⊠ (.neg (k (3163 / 250000))))),
   .v 204 (((k 0) ⊟ (v 244)) ⊠ (k (28919 / 500000))),
   .v 190 (((k 0) ⊟ (v 305)) ⊠ (.neg (k (1387 / 1000000)))),
   .v 334 (((k 0) ⊟ (v 296)) ⊠ (.neg (k (1243 / 1000000)))),
   .v 332 (((v 204) ⊞ (v 190)) ⊟ (v 334)),
   .v 165 ((((((((((((((((v 320) ⊠ (v 94)) ⊞ ((v 192) ⊠ (v 82))) ⊞ ((v 176) ⊠ (v 87))) ⊞ ((v 48) ⊠ (v 85))) ⊞ ((v 162) ⊠ (v 91))) ⊞ ((v 162) ⊠ (v 91))) ⊞ ((v 227) ⊠ (v 78))) ⊞ ((v 151) ⊠ (v 81))) ⊞ ((v 337) ⊠ (v 64))) ⊞ ((v 24) ⊠ (v 80))) ⊞ ((v 230) ⊠ (v 71))) ⊞ ((v 196) ⊠ (v 55))) ⊞ ((v 332) ⊠ (v 58))) ⊞ ((v 332) ⊠ (v 58))) ⊞ ((v 63) ⊠ (w 4))),
   .v 289 (((((v 179) ⊠ (k (61899 / 1600000))) ⊞ ((v 329) ⊠ (.neg (k (751 / 100000))))) ⊞ (((k 0) ⊟ (v 251)) ⊠ (.neg (k (829 / 1000000))))) ⊞ ((v 289) ⊠ (k (3 / 200000)))),
   .v 329 (((k 0) ⊟ (v 329)) ⊠ (k (99 / 500000))),
   .v 156 (((v 208) ⊞ (v 329)) ⊟ (v 156))]

/-- HyAInverseDynHessian.cpp:1537-1668. -/
def part10 : List Stmt :=
  [.v 208 ((((((((v 121) ⊠ (v 89)) ⊞ ((v 345) ⊠ (v 82))) ⊞ ((v 176) ⊠ (v 91))) ⊞ ((v 289) ⊠ (v 85))) ⊞ ((v 156) ⊠ (v 87))) ⊞ ((v 156) ⊠ (v 87))) ⊞ ((v 276) ⊠ (w 5))),
   .v 329 (((k 0) ⊟ (v 329)) ⊟ (v 186)),
   .v 186 ((((((((v 331) ⊠ (v 89)) ⊞ ((v 233) ⊠ (v 94))) ⊞ ((v 48) ⊠ (v 91))) ⊞ ((v 289) ⊠ (v 87))) ⊞ ((v 329) ⊠ (v 85))) ⊞ ((v 329) ⊠ (v 85))) ⊟ ((v 335) ⊠ (w 5))),
   .v 179 (((((v 128) ⊠ (k (28919 / 500000))) ⊞ ((v 305) ⊠ (.neg (k (1243 / 1000000))))) ⊞ (((k 0) ⊟ (v 253)) ⊠ (.neg (k (4193 / 500000))))) ⊞ (((k 0) ⊟ (v 296)) ⊠ (.neg (k (1387 / 1000000))))),
   .v 251 ((v 253) ⊠ (.neg (k (3163 / 250000)))),
   .v 190 (((v 204) ⊟ (v 190)) ⊟ (v 251)),
   .v 204 (((((((((((v 246) ⊠ (.neg (k (23 / 125)))) ⊞ ((v 208) ⊠ (v 77))) ⊞ ((v 186) ⊠ (v 76))) ⊞ ((v 188) ⊠ (v 64))) ⊞ ((v 132) ⊠ (v 69))) ⊞ ((v 179) ⊠ (v 71))) ⊞ ((v 196) ⊠ (v 58))) ⊞ ((v 190) ⊠ (v 55))) ⊞ ((v 190) ⊠ (v 55))) ⊟ ((v 307) ⊠ (w 4))),
   .v 88 ((k 0) ⊟ (v 197)),
   .v 26 ((((((v 210) ⊠ (.neg (k (8711861 / 1000000000)))) ⊞ ((v 319) ⊠ (k (152322944854339 / 100000000000000000000000)))) ⊞ (((k 0) ⊟ (v 178)) ⊠ (.neg (k (21200017 / 100000000000))))) ⊞ ((v 283) ⊠ (k (9214321 / 2500000000)))) ⊞ ((v 116) ⊠ (k (4839 / 62500)))),
   .v 224 ((((((v 319) ⊠ (k (80149129911861 / 500000000000000))) ⊞ ((v 244) ⊠ (.neg (k (8711861 / 1000000000))))) ⊞ ((v 178) ⊠ (.neg (k (6337651 / 100000000))))) ⊞ (((k 0) ⊟ (v 283)) ⊠ (.neg (k (11460001 / 5000000000))))) ⊞ ((v 116) ⊠ (.neg (k (21200017 / 100000000000))))),
   .v 286 (((k 0) ⊟ (v 210)) ⊠ (k (152322944854339 / 100000000000000000000000))),
   .v 137 (((k 0) ⊟ (v 178)) ⊠ (k (9214321 / 2500000000))),
   .v 136 ((((v 286) ⊞ (((k 0) ⊟ (v 244)) ⊠ (k (80149129911861 / 500000000000000)))) ⊞ (v 137)) ⊟ (((k 0) ⊟ (v 116)) ⊠ (.neg (k (11460001 / 5000000000))))),
   .v 285 ((((((((((((v 39) ⊠ (v 68)) ⊞ ((v 25) ⊠ (v 61))) ⊞ ((v 165) ⊠ (v 52))) ⊞ ((v 204) ⊠ (v 53))) ⊞ ((v 199) ⊠ (v 46))) ⊞ ((v 88) ⊠ (v 64))) ⊞ ((v 26) ⊠ (v 47))) ⊞ ((v 224) ⊠ (v 32))) ⊞ ((v 136) ⊠ (v 35))) ⊞ ((v 136) ⊠ (v 35))) ⊞ ((v 220) ⊠ (w 3))),
   .v 251 ((v 251) ⊞ (v 334)),
   .v 334 ((v 319) ⊠ (.neg (k (8711861 / 5000000)))),
   .v 281 ((v 178) ⊠ (k (80149129911861 / 500000000000000))),
   .v 308 ((v 116) ⊠ (k (152322944854339 / 100000000000000000000000))),
   .v 134 (((v 334) ⊟ (v 281)) ⊞ (v 308)),
   .v 116 ((((((v 210) ⊠ (k (80149129911861 / 500000000000000))) ⊞ ((v 244) ⊠ (k (152322944854339 / 100000000000000000000000)))) ⊞ ((v 178) ⊠ (.neg (k (11460001 / 5000000000))))) ⊞ (((k 0) ⊟ (v 283)) ⊠ (k (1404749 / 100000000)))) ⊞ (((k 0) ⊟ (v 116)) ⊠ (k (9214321 / 2500000000)))),
   .v 137 ((((v 286) ⊞ (((k 0) ⊟ (v 319)) ⊠ (.neg (k (8711861 / 1000000000))))) ⊟ (v 137)) ⊟ ((v 283) ⊠ (.neg (k (21200017 / 100000000000))))),
   .v 246 (((((((((((((((((v 246) ⊠ (k (83 / 4000))) ⊞ ((v 208) ⊠ (v 86))) ⊞ ((v 186) ⊠ (v 77))) ⊞ ((v 349) ⊠ (v 69))) ⊞ ((v 8) ⊠ (v 80))) ⊞ ((v 230) ⊠ (v 58))) ⊞ ((v 179) ⊠ (v 55))) ⊞ ((v 251) ⊠ (v 71))) ⊞ ((v 251) ⊠ (v 71))) ⊞ ((v 134) ⊠ (v 46))) ⊞ ((v 197) ⊠ (v 44))) ⊞ ((v 116) ⊠ (v 47))) ⊞ ((v 224) ⊠ (v 35))) ⊞ ((v 137) ⊠ (v 32))) ⊞ ((v 137) ⊠ (v 32))) ⊟ ((v 301) ⊠ (w 3))),
   .v 286 ((k 0) ⊟ (v 309)),
   .v 213 (.neg (v 161)),
   .v 218 (((v 286) ⊠ (v 15)) ⊞ ((v 213) ⊠ (v 23))),
   .v 290 ((((v 286) ⊠ (v 6)) ⊞ ((v 161) ⊠ (v 14))) ⊞ ((v 218) ⊠ (w 3))),
   .v 304 ((.neg (k (38 / 125))) ⊠ (v 286)),
   .v 125 ((.neg (k (38 / 125))) ⊠ (v 161)),
   .v 129 (((v 125) ⊠ (v 12)) ⊞ ((v 161) ⊠ (v 21))),
   .v 259 (.neg (v 129)),
   .v 269 (((((.neg (v 161)) ⊠ (v 7)) ⊞ ((v 286) ⊠ (v 41))) ⊞ ((v 304) ⊠ (v 16))) ⊞ ((v 259) ⊠ (w 3))),
   .v 302 (((v 161) ⊠ (v 15)) ⊞ ((v 286) ⊠ (v 23))),
   .v 322 ((v 302) ⊠ (v 46)),
   .v 347 ((v 47) ⊠ (v 129)),
   .v 326 (((v 302) ⊠ (v 35)) ⊞ ((v 32) ⊠ (v 218))),
   .v 96 ((v 218) ⊠ (v 47)),
   .v 207 (.neg (v 302)),
   .v 287 ((((v 213) ⊠ (v 6)) ⊞ ((v 286) ⊠ (v 14))) ⊞ ((v 207) ⊠ (w 3))),
   .v 262 (((v 304) ⊠ (v 12)) ⊞ ((v 286) ⊠ (v 21))),
   .v 350 (((v 61) ⊠ (v 218)) ⊞ ((v 53) ⊠ (v 262))),
   .v 339 (.neg (v 350)),
   .v 221 ((((v 68) ⊠ (v 287)) ⊞ ((v 52) ⊠ (v 269))) ⊞ ((v 339) ⊠ (w 4))),
   .v 27 ((v 52) ⊠ (v 218)),
   .v 216 (((v 53) ⊠ (v 287)) ⊞ ((v 27) ⊠ (w 4))),
   .v 203 (((v 27) ⊠ (v 71)) ⊞ ((v 58) ⊠ (v 302))),
   .v 84 ((v 53) ⊠ (v 218)),
   .v 111 ((((v 84) ⊠ (v 64)) ⊞ ((v 55) ⊠ (v 129))) ⊟ (((v 302) ⊠ (v 80)) ⊞ ((v 71) ⊠ (v 350)))),
   .v 105 ((((k (83 / 4000)) ⊠ (v 290)) ⊞ ((.neg (k (23 / 125))) ⊠ (v 216))) ⊞ (v 221)),
   .v 109 (((v 76) ⊠ (v 84)) ⊞ ((v 77) ⊠ (v 302))),
   .v 17 (.neg (v 109)),
   .v 3 ((((v 86) ⊠ (v 290)) ⊞ ((v 77) ⊠ (v 216))) ⊞ ((v 17) ⊠ (w 5))),
   .v 271 (((v 109) ⊠ (v 91)) ⊞ ((v 85) ⊠ (v 27))),
   .v 255 ((((v 79) ⊠ (v 129)) ⊞ ((v 77) ⊠ (v 350))) ⊞ ((v 78) ⊠ (v 27))),
   .v 142 (((v 77) ⊠ (v 84)) ⊞ ((v 86) ⊠ (v 302))),
   .v 133 ((((v 77) ⊠ (v 129)) ⊞ ((v 76) ⊠ (v 350))) ⊞ ((v 81) ⊠ (v 27))),
   .v 338 ((((v 109) ⊠ (v 94)) ⊞ ((v 85) ⊠ (v 255))) ⊟ (((v 142) ⊠ (v 82)) ⊞ ((v 87) ⊠ (v 133)))),
   .v 115 (((((k (61899 / 40000)) ⊠ (v 105)) ⊞ ((.neg (k (61899 / 1600000))) ⊠ (v 3))) ⊞ ((k (61899 / 1600000)) ⊠ (v 271))) ⊞ ((k (61899 / 40000)) ⊠ (v 338))),
   .v 123 ((((((k (2629 / 1250)) ⊠ (v 221)) ⊞ ((.neg (k (28919 / 500000))) ⊠ (v 216))) ⊞ ((k (28919 / 500000)) ⊠ (v 203))) ⊞ ((.neg (k (2629 / 1250))) ⊠ (v 111))) ⊞ (v 115)),
   .v 231 (((v 68) ⊠ (v 218)) ⊞ ((v 52) ⊠ (v 262))),
   .v 214 ((((v 61) ⊠ (v 287)) ⊞ ((v 53) ⊠ (v 269))) ⊞ ((v 231) ⊠ (w 4))),
   .v 217 (.neg (v 84)),
   .v 300 (((v 52) ⊠ (v 287)) ⊞ ((v 217) ⊠ (w 4))),
   .v 250 (((v 84) ⊠ (v 71)) ⊞ ((v 55) ⊠ (v 302))),
   .v 293 ((((v 27) ⊠ (v 64)) ⊞ ((v 58) ⊠ (v 129))) ⊟ (((v 302) ⊠ (v 69)) ⊞ ((v 71) ⊠ (v 231)))),
   .v 298 (((((v 286) ⊠ (v 7)) ⊞ ((v 161) ⊠ (v 41))) ⊞ ((v 125) ⊠ (v 16))) ⊞ ((v 262) ⊠ (w 3))),
   .v 155 (.neg (v 133)),
   .v 328 (((((v 79) ⊠ (v 298)) ⊞ ((v 77) ⊠ (v 214))) ⊞ ((v 78) ⊠ (v 300))) ⊞ ((v 155) ⊠ (w 5))),
   .v 22 (((v 109) ⊠ (v 87)) ⊞ ((v 85) ⊠ (v 142))),
   .v 252 ((((k (83 / 4000)) ⊠ (v 302)) ⊞ ((.neg (k (23 / 125))) ⊠ (v 84))) ⊞ (v 231)),
   .v 200 (((v 109) ⊠ (v 89)) ⊞ ((v 85) ⊠ (v 252))),
   .v 241 (((v 27) ⊠ (v 82)) ⊞ ((v 91) ⊠ (v 133))),
   .v 336 (((((k (61899 / 40000)) ⊠ (v 328)) ⊞ ((k (61899 / 1600000)) ⊠ (v 300))) ⊞ ((k (61899 / 1600000)) ⊠ (v 22))) ⊞ ((.neg (k (61899 / 40000))) ⊠ ((v 200) ⊟ (v 241)))),
   .v 317 (((v 27) ⊠ (v 91)) ⊞ ((v 91) ⊠ (v 27))),
   .v 114 (((v 142) ⊠ (v 87)) ⊞ ((v 87) ⊠ (v 142))),
   .v 154 ((((k (61899 / 40000)) ⊠ ((((v 142) ⊠ (v 89)) ⊞ ((v 87) ⊠ (v 252))) ⊟ (((v 27) ⊠ (v 94)) ⊞ ((v 91) ⊠ (v 255))))) ⊞ ((k (61899 / 40000)) ⊠ (((((v 77) ⊠ (v 298)) ⊞ ((v 76) ⊠ (v 214))) ⊞ ((v 81) ⊠ (v 300))) ⊞ ((v 255) ⊠ (w 5))))) ⊟ ((k (61899 / 1600000)) ⊠ ((v 317) ⊞ (v 114)))),
   .v 327 (((((((k (2629 / 1250)) ⊠ (v 214)) ⊞ ((k (28919 / 500000)) ⊠ (v 300))) ⊞ ((k (28919 / 500000)) ⊠ (v 250))) ⊞ ((k (2629 / 1250)) ⊠ (v 293))) ⊞ ((v 77) ⊠ (v 336))) ⊞ ((v 76) ⊠ (v 154))),
   .v 101 (((v 302) ⊠ (v 32)) ⊞ ((v 32) ⊠ (v 302))),
   .v 257 (((((((((.neg (k (152322944854339 / 100000000000000000000000))) ⊠ (v 290)) ⊞ ((k (8711861 / 5000000)) ⊠ (v 269))) ⊞ ((.neg (k (8711861 / 5000000))) ⊠ ((v 322) ⊟ (v 347)))) ⊞ ((k (80149129911861 / 500000000000000)) ⊠ (v 326))) ⊞ ((k (152322944854339 / 100000000000000000000000)) ⊠ (v 96))) ⊞ ((v 52) ⊠ (v 123))) ⊞ ((v 53) ⊠ (v 327))) ⊟ ((.neg (k (8711861 / 1000000000))) ⊠ (v 101))),
   .v 237 ((((v 302) ⊠ (v 44)) ⊞ ((v 32) ⊠ (v 262))) ⊟ (((v 218) ⊠ (v 64)) ⊞ ((v 35) ⊠ (v 129)))),
   .v 225 (((v 84) ⊠ (v 58)) ⊞ ((v 55) ⊠ (v 27))),
   .v 330 ((((v 77) ⊠ (v 290)) ⊞ ((v 76) ⊠ (v 216))) ⊞ ((v 142) ⊠ (w 5))),
   .v 340 (((v 142) ⊠ (v 91)) ⊞ ((v 87) ⊠ (v 27))),
   .v 104 (((v 109) ⊠ (v 85)) ⊞ ((v 85) ⊠ (v 109))),
   .v 338 ((((((((((.neg (k (829 / 1000000))) ⊠ (v 300)) ⊞ ((k (3227 / 1000000)) ⊠ (v 3))) ⊞ ((k (99 / 500000)) ⊠ (v 330))) ⊞ ((.neg (k (61899 / 1600000))) ⊠ (v 105))) ⊞ ((k (99 / 500000)) ⊠ (v 340))) ⊞ ((k (3 / 200000)) ⊠ ((v 317) ⊟ (v 104)))) ⊟ ((k (61899 / 1600000)) ⊠ (v 338))) ⊟ ((.neg (k (73 / 50000))) ⊠ (v 271))) ⊟ ((.neg (k (829 / 1000000))) ⊠ (v 22))),
   .v 317 ((((((((k (3 / 200000)) ⊠ (v 300)) ⊞ ((k (99 / 500000)) ⊠ (v 3))) ⊞ ((k (10737 / 1000000)) ⊠ (v 330))) ⊞ ((k (121 / 20000)) ⊠ (v 340))) ⊞ ((k (3 / 200000)) ⊠ (v 22))) ⊟ ((k (99 / 500000)) ⊠ (v 271))) ⊟ ((.neg (k (829 / 1000000))) ⊠ ((v 317) ⊟ (v 114)))),
   .v 105 (((v 27) ⊠ (v 58)) ⊞ ((v 58) ⊠ (v 27))),
   .v 127 (((v 84) ⊠ (v 55)) ⊞ ((v 55) ⊠ (v 84))),
   .v 50 ((v 302) ⊠ (v 47)),
   .v 117 (((v 218) ⊠ (v 35)) ⊞ ((v 35) ⊠ (v 218))),
   .v 347 ((((((((((((((((((((k (9214321 / 2500000000)) ⊠ (v 287)) ⊞ ((k (81661 / 1000000)) ⊠ (v 290))) ⊞ ((.neg (k (152322944854339 / 100000000000000000000000))) ⊠ (v 269))) ⊞ ((.neg (k (8711861 / 1000000000))) ⊠ (v 237))) ⊞ ((k (152322944854339 / 100000000000000000000000)) ⊠ ((v 322) ⊟ (v 347)))) ⊞ ((k (4839 / 62500)) ⊠ (v 96))) ⊞ ((.neg (k (21200017 / 100000000000))) ⊠ (v 326))) ⊞ ((k (5523 / 500000)) ⊠ (v 290))) ⊞ ((.neg (k (1243 / 1000000))) ⊠ (v 300))) ⊞ ((.neg (k (3163 / 250000))) ⊠ (v 216))) ⊞ ((.neg (k (1243 / 1000000))) ⊠ (v 250))) ⊞ ((k (9683 / 1000000)) ⊠ (v 225))) ⊞ ((v 86) ⊠ (v 338))) ⊞ ((v 77) ⊠ (v 317))) ⊞ ((k (83 / 4000)) ⊠ (v 115))) ⊟ ((.neg (k (3163 / 250000))) ⊠ (v 203))) ⊟ ((.neg (k (1387 / 1000000))) ⊠ ((v 105) ⊟ (v 127)))) ⊟ ((k (9214321 / 2500000000)) ⊠ (v 50))) ⊟ ((.neg (k (11460001 / 5000000000))) ⊠ ((k 0) ⊟ (v 117)))),
   .v 322 (((v 218) ⊠ (v 46)) ⊟ ((v 47) ⊠ (v 262))),
   .v 75 (((v 302) ⊠ (v 71)) ⊞ ((v 71) ⊠ (v 302))),
   .v 104 (((((((((((((((((((((.neg (k (1243 / 1000000))) ⊠ (v 290)) ⊞ ((k (5823 / 200000)) ⊠ (v 300))) ⊞ ((.neg (k (1387 / 1000000))) ⊠ (v 216))) ⊞ ((k (28919 / 500000)) ⊠ (v 214))) ⊞ ((k (28919 / 500000)) ⊠ (v 293))) ⊞ ((.neg (k (1387 / 1000000))) ⊠ (v 203))) ⊞ ((.neg (k (3163 / 250000))) ⊠ ((v 75) ⊟ (v 127)))) ⊞ ((v 78) ⊠ (v 336))) ⊞ ((v 81) ⊠ (v 154))) ⊞ ((k (9277 / 1000000)) ⊠ (v 300))) ⊞ ((.neg (k (829 / 1000000))) ⊠ (v 3))) ⊞ ((k (3 / 200000)) ⊠ (v 330))) ⊞ ((k (61899 / 1600000)) ⊠ (v 328))) ⊞ ((.neg (k (751 / 100000))) ⊠ (v 22))) ⊞ ((k (61899 / 1600000)) ⊠ ((v 241) ⊟ (v 200)))) ⊞ ((.neg (k (829 / 1000000))) ⊠ (v 271))) ⊟ ((k (3 / 200000)) ⊠ (v 340))) ⊟ ((k (99 / 500000)) ⊠ ((v 114) ⊟ (v 104)))) ⊟ ((.neg (k (4193 / 500000))) ⊠ (v 250))) ⊟ ((.neg (k (1243 / 1000000))) ⊠ (v 225))),
   .v 75 (((((((((((((.neg (k (3163 / 250000))) ⊠ (v 290)) ⊞ ((.neg (k (1387 / 1000000))) ⊠ (v 300))) ⊞ ((k (2429 / 125000)) ⊠ (v 216))) ⊞ ((.neg (k (28919 / 500000))) ⊠ (v 221))) ⊞ ((.neg (k (18069 / 1000000))) ⊠ (v 203))) ⊞ ((k (28919 / 500000)) ⊠ (v 111))) ⊞ ((.neg (k (3163 / 250000))) ⊠ (v 225))) ⊞ ((v 77) ⊠ (v 338))) ⊞ ((v 76) ⊠ (v 317))) ⊞ ((.neg (k (23 / 125))) ⊠ (v 115))) ⊟ ((.neg (k (1387 / 1000000))) ⊠ (v 250))) ⊟ ((.neg (k (1243 / 1000000))) ⊠ ((v 75) ⊟ (v 105)))),
   .v 237 ((((((((((((((k (1828449 / 100000000)) ⊠ (v 287)) ⊞ ((k (9214321 / 2500000000)) ⊠ (v 290))) ⊞ ((k (152322944854339 / 100000000000000000000000)) ⊠ (v 298))) ⊞ ((k (152322944854339 / 100000000000000000000000)) ⊠ (v 322))) ⊞ ((k (9214321 / 2500000000)) ⊠ (v 96))) ⊞ ((.neg (k (21200017 / 100000000000))) ⊠ ((k 0) ⊟ (v 101)))) ⊞ ((v 52) ⊠ (v 104))) ⊞ ((v 53) ⊠ (v 75))) ⊞ ((v 68) ⊠ (v 123))) ⊞ ((v 61) ⊠ (v 327))) ⊟ ((k (80149129911861 / 500000000000000)) ⊠ (v 237))) ⊟ ((k (1404749 / 100000000)) ⊠ (v 50))) ⊟ ((.neg (k (11460001 / 5000000000))) ⊠ (v 326))),
   .v 101 (((v 229) ⊠ (v 286)) ⊞ ((v 194) ⊠ (v 304))),
   .v 96 (((v 158) ⊠ (v 213)) ⊞ ((v 126) ⊠ (v 286))),
   .v 225 (((v 101) ⊠ (v 52)) ⊞ ((v 96) ⊠ (v 68))),
   .v 250 (((v 158) ⊠ (v 286)) ⊞ ((v 126) ⊠ (v 161))),
   .v 115 ((v 96) ⊠ (v 53))]

/-- HyAInverseDynHessian.cpp:1669-1853. -/
def part11 : List Stmt :=
  [.v 111 (((v 225) ⊞ ((v 250) ⊠ (k (83 / 4000)))) ⊞ ((v 115) ⊠ (.neg (k (23 / 125))))),
   .v 203 (((v 250) ⊠ (v 86)) ⊞ ((v 115) ⊠ (v 77))),
   .v 221 (((v 111) ⊠ (k (61899 / 40000))) ⊞ ((v 203) ⊠ (.neg (k (61899 / 1600000))))),
   .v 340 (((v 221) ⊞ ((v 225) ⊠ (k (2629 / 1250)))) ⊞ ((v 115) ⊠ (.neg (k (28919 / 500000))))),
   .v 330 (((v 229) ⊠ (v 161)) ⊞ ((v 194) ⊠ (v 125))),
   .v 114 (((v 101) ⊠ (v 53)) ⊞ ((v 96) ⊠ (v 61))),
   .v 241 ((v 96) ⊠ (v 52)),
   .v 200 ((((v 330) ⊠ (v 79)) ⊞ ((v 114) ⊠ (v 77))) ⊞ ((v 241) ⊠ (v 78))),
   .v 22 (((v 200) ⊠ (k (61899 / 40000))) ⊞ ((v 241) ⊠ (k (61899 / 1600000)))),
   .v 328 ((((v 330) ⊠ (v 77)) ⊞ ((v 114) ⊠ (v 76))) ⊞ ((v 241) ⊠ (v 81))),
   .v 293 ((v 328) ⊠ (k (61899 / 40000))),
   .v 271 (((((v 22) ⊠ (v 77)) ⊞ ((v 293) ⊠ (v 76))) ⊞ ((v 114) ⊠ (k (2629 / 1250)))) ⊞ ((v 241) ⊠ (k (28919 / 500000)))),
   .v 3 (((((v 340) ⊠ (v 52)) ⊞ ((v 271) ⊠ (v 53))) ⊞ ((v 101) ⊠ (k (8711861 / 5000000)))) ⊞ ((v 250) ⊠ (.neg (k (152322944854339 / 100000000000000000000000))))),
   .v 110 ((((((v 22) ⊠ (v 79)) ⊞ ((v 293) ⊠ (v 77))) ⊞ ((v 330) ⊠ (k (2629 / 1250)))) ⊞ ((v 330) ⊠ (k (8711861 / 5000000)))) ⊞ ((v 96) ⊠ (k (152322944854339 / 100000000000000000000000)))),
   .v 205 (((v 250) ⊠ (v 77)) ⊞ ((v 115) ⊠ (v 76))),
   .v 280 (((((((((((v 200) ⊠ (k (61899 / 1600000))) ⊞ ((v 241) ⊠ (k (9277 / 1000000)))) ⊞ ((v 203) ⊠ (.neg (k (829 / 1000000))))) ⊞ ((v 205) ⊠ (k (3 / 200000)))) ⊞ ((v 22) ⊠ (v 78))) ⊞ ((v 293) ⊠ (v 81))) ⊞ ((v 114) ⊠ (k (28919 / 500000)))) ⊞ ((v 250) ⊠ (.neg (k (1243 / 1000000))))) ⊞ ((v 241) ⊠ (k (5823 / 200000)))) ⊞ ((v 115) ⊠ (.neg (k (1387 / 1000000))))),
   .v 226 (((((v 111) ⊠ (.neg (k (61899 / 1600000)))) ⊞ ((v 241) ⊠ (.neg (k (829 / 1000000))))) ⊞ ((v 203) ⊠ (k (3227 / 1000000)))) ⊞ ((v 205) ⊠ (k (99 / 500000)))),
   .v 222 ((((v 241) ⊠ (k (3 / 200000))) ⊞ ((v 203) ⊠ (k (99 / 500000)))) ⊞ ((v 205) ⊠ (k (10737 / 1000000)))),
   .v 113 ((((((((v 221) ⊠ (.neg (k (23 / 125)))) ⊞ ((v 226) ⊠ (v 77))) ⊞ ((v 222) ⊠ (v 76))) ⊞ ((v 225) ⊠ (.neg (k (28919 / 500000))))) ⊞ ((v 250) ⊠ (.neg (k (3163 / 250000))))) ⊞ ((v 241) ⊠ (.neg (k (1387 / 1000000))))) ⊞ ((v 115) ⊠ (k (2429 / 125000)))),
   .v 160 ((((((((v 340) ⊠ (v 68)) ⊞ ((v 271) ⊠ (v 61))) ⊞ ((v 280) ⊠ (v 52))) ⊞ ((v 113) ⊠ (v 53))) ⊞ ((v 330) ⊠ (k (152322944854339 / 100000000000000000000000)))) ⊞ ((v 96) ⊠ (k (1828449 / 100000000)))) ⊞ ((v 250) ⊠ (k (9214321 / 2500000000)))),
   .v 221 ((((((((((v 221) ⊠ (k (83 / 4000))) ⊞ ((v 226) ⊠ (v 86))) ⊞ ((v 222) ⊠ (v 77))) ⊞ ((v 250) ⊠ (k (5523 / 500000)))) ⊞ ((v 241) ⊠ (.neg (k (1243 / 1000000))))) ⊞ ((v 115) ⊠ (.neg (k (3163 / 250000))))) ⊞ ((v 101) ⊠ (.neg (k (152322944854339 / 100000000000000000000000))))) ⊞ ((v 96) ⊠ (k (9214321 / 2500000000)))) ⊞ ((v 250) ⊠ (k (81661 / 1000000)))),
   .v 73 ((v 328) ⊠ (k (61899 / 40000))),
   .v 169 ((v 200) ⊠ (.neg (k (61899 / 40000)))),
   .v 258 ((v 241) ⊠ (k (61899 / 1600000))),
   .v 209 ((v 169) ⊟ (v 258)),
   .v 310 (((((v 121) ⊠ (v 142)) ⊞ ((v 73) ⊠ (v 87))) ⊞ ((v 331) ⊠ (v 109))) ⊞ ((v 209) ⊠ (v 85))),
   .v 51 (((v 114) ⊠ (k (2629 / 1250))) ⊞ ((v 241) ⊠ (k (28919 / 500000)))),
   .v 49 ((k 0) ⊟ (v 51)),
   .v 164 ((v 330) ⊠ (k (2629 / 1250))),
   .v 215 ((((((v 310) ⊞ ((v 349) ⊠ (v 302))) ⊞ ((v 49) ⊠ (v 71))) ⊞ ((v 132) ⊠ (v 84))) ⊞ ((v 164) ⊠ (v 55))) ⊞ ((v 271) ⊠ (w 4))),
   .v 219 ((k 0) ⊟ (v 73)),
   .v 236 (((v 111) ⊠ (k (61899 / 40000))) ⊞ (((k 0) ⊟ (v 203)) ⊠ (k (61899 / 1600000)))),
   .v 242 ((((((v 320) ⊠ (v 27)) ⊞ ((v 219) ⊠ (v 91))) ⊞ ((v 233) ⊠ (v 109))) ⊞ ((v 236) ⊠ (v 85))) ⊞ ((v 293) ⊠ (w 5))),
   .v 258 (((k 0) ⊟ (v 169)) ⊞ (v 258)),
   .v 169 ((k 0) ⊟ (v 236)),
   .v 306 ((((((v 192) ⊠ (v 27)) ⊞ ((v 258) ⊠ (v 91))) ⊞ ((v 345) ⊠ (v 142))) ⊞ ((v 169) ⊠ (v 87))) ⊟ ((v 22) ⊠ (w 5))),
   .v 295 (((v 225) ⊠ (.neg (k (2629 / 1250)))) ⊞ ((v 115) ⊠ (k (28919 / 500000)))),
   .v 146 ((k 0) ⊟ (v 295)),
   .v 284 ((k 0) ⊟ (v 164)),
   .v 145 ((((((((v 242) ⊠ (v 77)) ⊞ ((v 306) ⊠ (v 76))) ⊞ ((v 8) ⊠ (v 302))) ⊞ ((v 146) ⊠ (v 71))) ⊞ ((v 24) ⊠ (v 27))) ⊞ ((v 284) ⊠ (v 58))) ⊟ ((v 340) ⊠ (w 4))),
   .v 173 (((v 330) ⊠ (k (8711861 / 5000000))) ⊞ ((v 96) ⊠ (k (152322944854339 / 100000000000000000000000)))),
   .v 183 ((k 0) ⊟ (v 173)),
   .v 342 ((((k 0) ⊟ (v 96)) ⊠ (k (80149129911861 / 500000000000000))) ⊞ ((v 250) ⊠ (.neg (k (8711861 / 1000000000))))),
   .v 272 (((((((v 215) ⊠ (v 52)) ⊞ ((v 145) ⊠ (v 53))) ⊞ ((v 183) ⊠ (v 47))) ⊞ ((v 197) ⊠ (v 302))) ⊞ ((v 342) ⊠ (v 32))) ⊞ ((v 110) ⊠ (w 3))),
   .v 235 (((((k 0) ⊟ (v 241)) ⊠ (k (3 / 200000))) ⊞ ((v 203) ⊠ (k (99 / 500000)))) ⊞ ((v 205) ⊠ (k (121 / 20000)))),
   .v 111 (((((v 111) ⊠ (k (61899 / 1600000))) ⊞ ((v 241) ⊠ (.neg (k (829 / 1000000))))) ⊞ (((k 0) ⊟ (v 203)) ⊠ (.neg (k (73 / 50000))))) ⊞ (((k 0) ⊟ (v 205)) ⊠ (k (99 / 500000)))),
   .v 328 (((k 0) ⊟ (v 328)) ⊠ (k (61899 / 1600000))),
   .v 267 ((v 203) ⊠ (k (3 / 200000))),
   .v 152 (((k 0) ⊟ (v 205)) ⊠ (.neg (k (829 / 1000000)))),
   .v 348 (((v 328) ⊞ (v 267)) ⊞ (v 152)),
   .v 348 (((((((((((((v 320) ⊠ (v 255)) ⊞ ((v 219) ⊠ (v 94))) ⊞ ((v 192) ⊠ (v 133))) ⊞ ((v 258) ⊠ (v 82))) ⊞ ((v 176) ⊠ (v 142))) ⊞ ((v 235) ⊠ (v 87))) ⊞ ((v 48) ⊠ (v 109))) ⊞ ((v 111) ⊠ (v 85))) ⊞ ((v 162) ⊠ (v 27))) ⊞ ((v 162) ⊠ (v 27))) ⊞ ((v 348) ⊠ (v 91))) ⊞ ((v 348) ⊠ (v 91))),
   .hes 47 ((((((((((v 278) ⊠ (v 155)) ⊞ ((v 22) ⊠ (v 83))) ⊞ ((v 249) ⊠ (v 255))) ⊞ ((v 293) ⊠ (v 94))) ⊞ ((v 335) ⊠ (v 17))) ⊞ ((v 226) ⊠ (v 98))) ⊞ ((v 276) ⊠ (v 142))) ⊞ ((v 222) ⊠ (v 87))) ⊞ (v 348)),
   .v 225 (((((v 225) ⊠ (k (28919 / 500000))) ⊞ (((k 0) ⊟ (v 250)) ⊠ (.neg (k (3163 / 250000))))) ⊞ ((v 241) ⊠ (.neg (k (1387 / 1000000))))) ⊞ ((v 115) ⊠ (.neg (k (18069 / 1000000))))),
   .v 155 ((((v 250) ⊠ (k (9683 / 1000000))) ⊞ (((k 0) ⊟ (v 241)) ⊠ (.neg (k (1243 / 1000000))))) ⊞ ((v 115) ⊠ (.neg (k (3163 / 250000))))),
   .v 17 (((k 0) ⊟ (v 330)) ⊠ (k (28919 / 500000))),
   .v 258 (((k 0) ⊟ (v 250)) ⊠ (.neg (k (1387 / 1000000)))),
   .v 219 (((k 0) ⊟ (v 115)) ⊠ (.neg (k (1243 / 1000000)))),
   .v 162 (((v 17) ⊞ (v 258)) ⊟ (v 219)),
   .v 162 ((((((((((((((((v 348) ⊞ ((v 242) ⊠ (v 78))) ⊞ ((v 306) ⊠ (v 81))) ⊞ ((v 337) ⊠ (v 129))) ⊞ ((v 51) ⊠ (v 64))) ⊞ ((v 24) ⊠ (v 350))) ⊞ ((v 284) ⊠ (v 80))) ⊞ ((v 230) ⊠ (v 302))) ⊞ ((v 225) ⊠ (v 71))) ⊞ ((v 196) ⊠ (v 84))) ⊞ ((v 155) ⊠ (v 55))) ⊞ ((v 332) ⊠ (v 27))) ⊞ ((v 332) ⊠ (v 27))) ⊞ ((v 162) ⊠ (v 58))) ⊞ ((v 162) ⊠ (v 58))) ⊞ ((v 113) ⊠ (w 4))),
   .v 205 (((((v 200) ⊠ (k (61899 / 1600000))) ⊞ ((v 241) ⊠ (.neg (k (751 / 100000))))) ⊞ (((k 0) ⊟ (v 203)) ⊠ (.neg (k (829 / 1000000))))) ⊞ ((v 205) ⊠ (k (3 / 200000)))),
   .v 200 (((k 0) ⊟ (v 241)) ⊠ (k (99 / 500000))),
   .v 152 (((v 328) ⊞ (v 200)) ⊟ (v 152)),
   .v 152 ((((((((((((((v 121) ⊠ (v 252)) ⊞ ((v 73) ⊠ (v 89))) ⊞ ((v 345) ⊠ (v 133))) ⊞ ((v 169) ⊠ (v 82))) ⊞ ((v 176) ⊠ (v 27))) ⊞ ((v 235) ⊠ (v 91))) ⊞ ((v 289) ⊠ (v 109))) ⊞ ((v 205) ⊠ (v 85))) ⊞ ((v 156) ⊠ (v 142))) ⊞ ((v 156) ⊠ (v 142))) ⊞ ((v 152) ⊠ (v 87))) ⊞ ((v 152) ⊠ (v 87))) ⊞ ((v 222) ⊠ (w 5))),
   .v 200 (((k 0) ⊟ (v 200)) ⊟ (v 267)),
   .v 200 ((((((((((((((v 331) ⊠ (v 252)) ⊞ ((v 209) ⊠ (v 89))) ⊞ ((v 233) ⊠ (v 255))) ⊞ ((v 236) ⊠ (v 94))) ⊞ ((v 48) ⊠ (v 27))) ⊞ ((v 111) ⊠ (v 91))) ⊞ ((v 289) ⊠ (v 142))) ⊞ ((v 205) ⊠ (v 87))) ⊞ ((v 329) ⊠ (v 109))) ⊞ ((v 329) ⊠ (v 109))) ⊞ ((v 200) ⊠ (v 85))) ⊞ ((v 200) ⊠ (v 85))) ⊟ ((v 226) ⊠ (w 5))),
   .v 205 (((((v 114) ⊠ (k (28919 / 500000))) ⊞ ((v 250) ⊠ (.neg (k (1243 / 1000000))))) ⊞ (((k 0) ⊟ (v 241)) ⊠ (.neg (k (4193 / 500000))))) ⊞ (((k 0) ⊟ (v 115)) ⊠ (.neg (k (1387 / 1000000))))),
   .v 111 ((v 241) ⊠ (.neg (k (3163 / 250000)))),
   .v 258 (((v 17) ⊟ (v 258)) ⊟ (v 111)),
   .v 258 (((((((((((((((((v 310) ⊠ (.neg (k (23 / 125)))) ⊞ ((v 152) ⊠ (v 77))) ⊞ ((v 200) ⊠ (v 76))) ⊞ ((v 188) ⊠ (v 129))) ⊞ ((v 295) ⊠ (v 64))) ⊞ ((v 132) ⊠ (v 231))) ⊞ ((v 164) ⊠ (v 69))) ⊞ ((v 179) ⊠ (v 302))) ⊞ ((v 205) ⊠ (v 71))) ⊞ ((v 196) ⊠ (v 27))) ⊞ ((v 155) ⊠ (v 58))) ⊞ ((v 190) ⊠ (v 84))) ⊞ ((v 190) ⊠ (v 84))) ⊞ ((v 258) ⊠ (v 55))) ⊞ ((v 258) ⊠ (v 55))) ⊟ ((v 280) ⊠ (w 4))),
   .hes 40 (((k 0) ⊟ ((((((((((((((((((v 319) ⊠ (v 123)) ⊞ ((v 101) ⊠ (v 106))) ⊞ ((v 283) ⊠ (v 104))) ⊞ ((v 96) ⊠ (v 92))) ⊞ ((v 275) ⊠ (v 269))) ⊞ ((v 340) ⊠ (v 66))) ⊞ ((v 307) ⊠ (v 287))) ⊞ ((v 280) ⊠ (v 34))) ⊞ ((v 39) ⊠ (v 262))) ⊞ ((v 215) ⊠ (v 44))) ⊞ ((v 165) ⊠ (v 218))) ⊞ ((v 162) ⊠ (v 35))) ⊞ (((((v 178) ⊠ (v 123)) ⊞ ((v 340) ⊠ (v 29))) ⊞ ((v 215) ⊠ (v 47))) ⊠ (k (14 / 125)))) ⊟ ((((v 210) ⊠ (v 327)) ⊞ ((v 271) ⊠ (v 37))) ⊞ ((v 145) ⊠ (v 46)))) ⊞ ((((((((v 283) ⊠ (v 327)) ⊞ ((v 96) ⊠ (v 72))) ⊞ ((v 292) ⊠ (v 287))) ⊞ ((v 271) ⊠ (v 34))) ⊞ ((v 25) ⊠ (v 218))) ⊞ ((v 145) ⊠ (v 35))) ⊠ (k (14 / 125)))) ⊟ ((((v 178) ⊠ (v 75)) ⊞ ((v 113) ⊠ (v 29))) ⊞ ((v 258) ⊠ (v 47)))) ⊠ (v 177))) ⊞ ((((((((((((((((((((((v 210) ⊠ (v 123)) ⊞ ((v 319) ⊠ (v 327))) ⊞ ((v 101) ⊠ (v 72))) ⊞ ((v 178) ⊠ (v 104))) ⊞ ((v 283) ⊠ (v 75))) ⊞ ((v 96) ⊠ (v 74))) ⊞ ((v 340) ⊠ (v 37))) ⊞ ((v 292) ⊠ (v 269))) ⊞ ((v 271) ⊠ (v 66))) ⊞ ((v 280) ⊠ (v 29))) ⊞ ((v 63) ⊠ (v 287))) ⊞ ((v 113) ⊠ (v 34))) ⊞ ((v 215) ⊠ (v 46))) ⊞ ((v 25) ⊠ (v 262))) ⊞ ((v 145) ⊠ (v 44))) ⊞ ((v 162) ⊠ (v 47))) ⊞ ((v 204) ⊠ (v 218))) ⊞ ((v 258) ⊠ (v 35))) ⊞ ((((((((v 283) ⊠ (v 123)) ⊞ ((v 96) ⊠ (v 106))) ⊞ ((v 275) ⊠ (v 287))) ⊞ ((v 340) ⊠ (v 34))) ⊞ ((v 39) ⊠ (v 218))) ⊞ ((v 215) ⊠ (v 35))) ⊠ (.neg (k (14 / 125))))) ⊞ (((((v 178) ⊠ (v 327)) ⊞ ((v 271) ⊠ (v 29))) ⊞ ((v 145) ⊠ (v 47))) ⊠ (k (14 / 125)))) ⊠ (v 318))),
   .v 75 ((k 0) ⊟ (v 342)),
   .v 104 ((((v 101) ⊠ (k (152322944854339 / 100000000000000000000000))) ⊞ ((v 96) ⊠ (k (9214321 / 2500000000)))) ⊞ ((v 250) ⊠ (k (4839 / 62500)))),
   .v 327 (((((v 101) ⊠ (k (80149129911861 / 500000000000000))) ⊞ ((v 330) ⊠ (.neg (k (8711861 / 1000000000))))) ⊞ (((k 0) ⊟ (v 96)) ⊠ (.neg (k (11460001 / 5000000000))))) ⊞ ((v 250) ⊠ (.neg (k (21200017 / 100000000000))))),
   .v 123 (((k 0) ⊟ (v 330)) ⊠ (k (80149129911861 / 500000000000000))),
   .v 269 (((k 0) ⊟ (v 250)) ⊠ (.neg (k (11460001 / 5000000000)))),
   .v 204 ((v 123) ⊟ (v 269)),
   .v 204 ((((((((((((((((v 215) ⊠ (v 68)) ⊞ ((v 145) ⊠ (v 61))) ⊞ ((v 162) ⊠ (v 52))) ⊞ ((v 258) ⊠ (v 53))) ⊞ ((v 173) ⊠ (v 46))) ⊞ ((v 88) ⊠ (v 129))) ⊞ ((v 75) ⊠ (v 64))) ⊞ ((v 104) ⊠ (v 47))) ⊞ ((v 224) ⊠ (v 302))) ⊞ ((v 327) ⊠ (v 32))) ⊞ ((v 136) ⊠ (v 218))) ⊞ ((v 136) ⊠ (v 218))) ⊞ ((v 204) ⊠ (v 35))) ⊞ ((v 204) ⊠ (v 35))) ⊞ ((v 221) ⊠ (w 3))),
   .v 111 ((v 111) ⊞ (v 219)),
   .v 111 ((((((((((((((((v 310) ⊠ (k (83 / 4000))) ⊞ ((v 152) ⊠ (v 86))) ⊞ ((v 200) ⊠ (v 77))) ⊞ ((v 349) ⊠ (v 231))) ⊞ ((v 49) ⊠ (v 69))) ⊞ ((v 8) ⊠ (v 350))) ⊞ ((v 146) ⊠ (v 80))) ⊞ ((v 230) ⊠ (v 27))) ⊞ ((v 225) ⊠ (v 58))) ⊞ ((v 179) ⊠ (v 84))) ⊞ ((v 205) ⊠ (v 55))) ⊞ ((v 251) ⊠ (v 302))) ⊞ ((v 251) ⊠ (v 302))) ⊞ ((v 111) ⊠ (v 71))) ⊞ ((v 111) ⊠ (v 71))),
   .hes 46 ((((((((((v 275) ⊠ (v 339)) ⊞ ((v 340) ⊠ (v 90))) ⊞ ((v 292) ⊠ (v 231))) ⊞ ((v 271) ⊠ (v 69))) ⊞ ((v 307) ⊠ (v 217))) ⊞ ((v 280) ⊠ (v 56))) ⊞ ((v 63) ⊠ (v 27))) ⊞ ((v 113) ⊠ (v 58))) ⊞ (v 111)),
   .v 217 ((v 101) ⊠ (.neg (k (8711861 / 5000000)))),
   .v 339 ((v 250) ⊠ (k (152322944854339 / 100000000000000000000000))),
   .v 63 ((v 217) ⊞ (v 339)),
   .v 307 ((((v 330) ⊠ (k (152322944854339 / 100000000000000000000000))) ⊞ (((k 0) ⊟ (v 96)) ⊠ (k (1404749 / 100000000)))) ⊞ (((k 0) ⊟ (v 250)) ⊠ (k (9214321 / 2500000000)))),
   .v 292 (((k 0) ⊟ (v 101)) ⊠ (.neg (k (8711861 / 1000000000)))),
   .v 275 ((v 96) ⊠ (.neg (k (21200017 / 100000000000)))),
   .v 205 ((v 292) ⊟ (v 275)),
   .v 205 ((((((((((((v 111) ⊞ ((v 63) ⊠ (v 46))) ⊞ ((v 197) ⊠ (v 262))) ⊞ ((v 342) ⊠ (v 44))) ⊞ ((v 307) ⊠ (v 47))) ⊞ ((v 224) ⊠ (v 218))) ⊞ ((v 327) ⊠ (v 35))) ⊞ ((v 137) ⊠ (v 302))) ⊞ ((v 137) ⊠ (v 302))) ⊞ ((v 205) ⊠ (v 32))) ⊞ ((v 205) ⊠ (v 32))) ⊟ ((v 160) ⊠ (w 3))),
   .v 322 ((((((((((((k (152322944854339 / 100000000000000000000000)) ⊠ (v 287)) ⊞ ((k (8711861 / 5000000)) ⊠ (v 298))) ⊞ ((k (8711861 / 5000000)) ⊠ (v 322))) ⊞ ((k (152322944854339 / 100000000000000000000000)) ⊠ (v 50))) ⊞ ((.neg (k (8711861 / 1000000000))) ⊠ (v 326))) ⊞ ((k (2629 / 1250)) ⊠ ((((v 84) ⊠ (v 69)) ⊞ ((v 55) ⊠ (v 231))) ⊟ (((v 27) ⊠ (v 80)) ⊞ ((v 58) ⊠ (v 350)))))) ⊞ ((k (2629 / 1250)) ⊠ (v 298))) ⊞ ((v 79) ⊠ (v 336))) ⊞ ((v 77) ⊠ (v 154))) ⊟ ((k (80149129911861 / 500000000000000)) ⊠ (v 117))) ⊟ ((k (28919 / 500000)) ⊠ ((v 105) ⊞ (v 127)))),
   .v 339 (((k 0) ⊟ (v 217)) ⊟ (v 339)),
   .v 75 (((((((((((v 242) ⊠ (v 79)) ⊞ ((v 306) ⊠ (v 77))) ⊞ ((v 337) ⊠ (v 27))) ⊞ ((v 51) ⊠ (v 58))) ⊞ ((v 188) ⊠ (v 84))) ⊞ ((v 295) ⊠ (v 55))) ⊞ ((v 339) ⊠ (v 47))) ⊞ ((v 88) ⊠ (v 218))) ⊞ ((v 75) ⊠ (v 35))) ⊟ ((v 3) ⊠ (w 3))),
   .v 308 ((((k 0) ⊟ (v 334)) ⊞ (v 281)) ⊟ (v 308)),
   .v 88 ((((((((v 227) ⊠ (v 79)) ⊞ ((v 151) ⊠ (v 77))) ⊞ ((v 337) ⊠ (v 58))) ⊞ ((v 188) ⊠ (v 55))) ⊞ ((v 308) ⊠ (v 47))) ⊞ ((v 88) ⊠ (v 35))) ⊟ ((v 122) ⊠ (w 3))),
   .hes 39 ((((((k 0) ⊟ ((((((((((((v 229) ⊠ (v 112)) ⊞ ((v 158) ⊠ (v 108))) ⊞ ((v 126) ⊠ (v 100))) ⊞ ((v 122) ⊠ (v 41))) ⊞ ((v 288) ⊠ (v 7))) ⊞ ((v 301) ⊠ (v 14))) ⊞ ((v 220) ⊠ (v 6))) ⊞ ((v 314) ⊠ (v 21))) ⊞ ((v 285) ⊠ (v 15))) ⊞ ((v 246) ⊠ (v 23))) ⊞ (((((v 194) ⊠ (v 112)) ⊞ ((v 122) ⊠ (v 16))) ⊞ ((v 314) ⊠ (v 12))) ⊠ (.neg (k (38 / 125)))))) ⊠ (v 28)) ⊟ (((((((((((((v 229) ⊠ (v 257)) ⊞ ((v 158) ⊠ (v 347))) ⊞ ((v 126) ⊠ (v 237))) ⊞ ((v 3) ⊠ (v 41))) ⊞ ((v 110) ⊠ (v 7))) ⊞ ((v 160) ⊠ (v 14))) ⊞ ((v 221) ⊠ (v 6))) ⊞ ((v 272) ⊠ (v 21))) ⊞ ((v 204) ⊠ (v 15))) ⊞ ((v 205) ⊠ (v 23))) ⊞ (((((v 194) ⊠ (v 257)) ⊞ ((v 3) ⊠ (v 16))) ⊞ ((v 272) ⊠ (v 12))) ⊠ (.neg (k (38 / 125))))) ⊠ (v 309))) ⊞ (((((((((((v 229) ⊠ (v 322)) ⊞ ((v 126) ⊠ (v 347))) ⊞ ((v 110) ⊠ (v 41))) ⊞ ((v 221) ⊠ (v 14))) ⊞ ((v 75) ⊠ (v 21))) ⊞ ((v 205) ⊠ (v 15))) ⊟ ((v 3) ⊠ (v 7))) ⊞ (((((v 194) ⊠ (v 322)) ⊞ ((v 110) ⊠ (v 16))) ⊞ ((v 75) ⊠ (v 12))) ⊠ (.neg (k (38 / 125))))) ⊟ ((((v 158) ⊠ (v 237)) ⊞ ((v 160) ⊠ (v 6))) ⊞ ((v 204) ⊠ (v 23)))) ⊠ (v 161))) ⊟ (((((((((((v 229) ⊠ (v 107)) ⊞ ((v 126) ⊠ (v 108))) ⊞ ((v 288) ⊠ (v 41))) ⊞ ((v 220) ⊠ (v 14))) ⊞ ((v 88) ⊠ (v 21))) ⊞ ((v 246) ⊠ (v 15))) ⊟ ((v 122) ⊠ (v 7))) ⊞ (((((v 194) ⊠ (v 107)) ⊞ ((v 288) ⊠ (v 16))) ⊞ ((v 88) ⊠ (v 12))) ⊠ (.neg (k (38 / 125))))) ⊟ ((((v 158) ⊠ (v 100)) ⊞ ((v 301) ⊠ (v 6))) ⊞ ((v 285) ⊠ (v 23)))) ⊠ (v 30))),
   .v 322 (((((((v 253) ⊠ (v 336)) ⊞ ((v 241) ⊠ (v 93))) ⊞ ((v 278) ⊠ (v 300))) ⊞ ((v 22) ⊠ (v 57))) ⊞ ((v 227) ⊠ (v 27))) ⊞ ((v 242) ⊠ (v 58))),
   .v 241 (((((((v 253) ⊠ (v 154)) ⊞ ((v 241) ⊠ (v 97))) ⊞ ((v 249) ⊠ (v 300))) ⊞ ((v 293) ⊠ (v 57))) ⊞ ((v 151) ⊠ (v 27))) ⊞ ((v 306) ⊠ (v 58))),
   .hes 41 (((k 0) ⊟ ((((((((((((((((((((((((((((v 244) ⊠ (v 154)) ⊞ ((v 330) ⊠ (v 97))) ⊞ ((v 128) ⊠ (v 336))) ⊞ ((v 114) ⊠ (v 93))) ⊞ ((v 305) ⊠ (v 317))) ⊞ ((v 250) ⊠ (v 102))) ⊞ ((v 296) ⊠ (v 338))) ⊞ ((v 115) ⊠ (v 103))) ⊞ ((v 278) ⊠ (v 214))) ⊞ ((v 22) ⊠ (v 70))) ⊞ ((v 249) ⊠ (v 298))) ⊞ ((v 293) ⊠ (v 45))) ⊞ ((v 335) ⊠ (v 216))) ⊞ ((v 226) ⊠ (v 59))) ⊞ ((v 276) ⊠ (v 290))) ⊞ ((v 222) ⊠ (v 36))) ⊞ ((v 227) ⊠ (v 350))) ⊞ ((v 242) ⊠ (v 80))) ⊞ ((v 151) ⊠ (v 129))) ⊞ ((v 306) ⊠ (v 64))) ⊞ ((v 208) ⊠ (v 84))) ⊞ ((v 152) ⊠ (v 55))) ⊞ ((v 186) ⊠ (v 302))) ⊞ ((v 200) ⊠ (v 71))) ⊞ ((v 322) ⊠ (k (23 / 125)))) ⊞ (((k 0) ⊟ (v 241)) ⊠ (k (83 / 4000)))) ⊠ (v 248))) ⊞ ((((((((((((((((((v 128) ⊠ (v 154)) ⊞ ((v 114) ⊠ (v 97))) ⊞ ((v 296) ⊠ (v 317))) ⊞ ((v 115) ⊠ (v 102))) ⊞ ((v 249) ⊠ (v 214))) ⊞ ((v 293) ⊠ (v 70))) ⊞ ((v 276) ⊠ (v 216))) ⊞ ((v 222) ⊠ (v 59))) ⊞ ((v 151) ⊠ (v 350))) ⊞ ((v 306) ⊠ (v 80))) ⊞ ((v 186) ⊠ (v 84))) ⊞ ((v 200) ⊠ (v 55))) ⊟ (((((((v 244) ⊠ (v 336)) ⊞ ((v 330) ⊠ (v 93))) ⊞ ((v 278) ⊠ (v 298))) ⊞ ((v 22) ⊠ (v 45))) ⊞ ((v 227) ⊠ (v 129))) ⊞ ((v 242) ⊠ (v 64)))) ⊞ ((v 322) ⊠ (k (83 / 4000)))) ⊞ ((v 241) ⊠ (k (23 / 125)))) ⊟ (((((((v 305) ⊠ (v 338)) ⊞ ((v 250) ⊠ (v 103))) ⊞ ((v 335) ⊠ (v 290))) ⊞ ((v 226) ⊠ (v 36))) ⊞ ((v 208) ⊠ (v 302))) ⊞ ((v 152) ⊠ (v 71)))) ⊠ (v 247))),
   .v 241 (((((v 340) ⊠ (v 53)) ⊞ ((v 271) ⊠ (v 62))) ⊞ ((v 96) ⊠ (.neg (k (80149129911861 / 500000000000000))))) ⊞ ((v 250) ⊠ (.neg (k (8711861 / 1000000000))))),
   .v 322 ((v 241) ⊠ (.neg (k 1))),
   .v 200 ((((((v 314) ⊠ (v 286)) ⊞ ((v 272) ⊠ (v 28))) ⊞ ((v 88) ⊠ (v 161))) ⊞ ((v 75) ⊠ (v 30))) ⊞ ((v 322) ⊠ (w 2)))]

/-- HyAInverseDynHessian.cpp:1854-1971. -/
def part12 : List Stmt :=
  [.v 63 (((((((v 215) ⊠ (v 53)) ⊞ ((v 145) ⊠ (v 62))) ⊞ ((v 199) ⊠ (v 218))) ⊞ ((v 173) ⊠ (v 35))) ⊞ ((v 134) ⊠ (v 302))) ⊞ ((v 63) ⊠ (v 32))),
   .v 173 (((((v 122) ⊠ (v 286)) ⊞ ((v 3) ⊠ (v 28))) ⊞ ((v 288) ⊠ (v 161))) ⊞ ((v 110) ⊠ (v 30))),
   .v 134 (((v 63) ⊠ (.neg (k 1))) ⊟ ((v 173) ⊠ (w 2))),
   .v 113 ((((((v 122) ⊠ (v 304)) ⊞ ((v 3) ⊠ (v 43))) ⊞ ((v 288) ⊠ (v 125))) ⊞ ((v 110) ⊠ (v 42))) ⊞ ((((((((((v 340) ⊠ (v 67)) ⊞ ((v 271) ⊠ (v 60))) ⊞ ((v 280) ⊠ (v 53))) ⊞ ((v 113) ⊠ (v 54))) ⊞ ((v 101) ⊠ (k (80149129911861 / 500000000000000)))) ⊞ ((v 330) ⊠ (k (8711861 / 1000000000)))) ⊞ ((v 96) ⊠ (.neg (k (11460001 / 5000000000))))) ⊞ ((v 250) ⊠ (.neg (k (21200017 / 100000000000))))) ⊠ (.neg (k 1)))),
   .v 63 (((((((v 63) ⊠ (.neg (k (38 / 125)))) ⊞ ((v 285) ⊠ (v 286))) ⊞ ((v 204) ⊠ (v 28))) ⊞ ((v 246) ⊠ (v 161))) ⊞ ((v 205) ⊠ (v 30))) ⊞ ((v 113) ⊠ (w 2))),
   .v 275 ((((v 292) ⊞ (v 123)) ⊞ (v 275)) ⊞ (v 269)),
   .v 275 (((((((((((((((v 215) ⊠ (v 67)) ⊞ ((v 145) ⊠ (v 60))) ⊞ ((v 162) ⊠ (v 53))) ⊞ ((v 258) ⊠ (v 54))) ⊞ ((v 291) ⊠ (v 262))) ⊞ ((v 183) ⊠ (v 44))) ⊞ ((v 308) ⊠ (v 129))) ⊞ ((v 339) ⊠ (v 64))) ⊞ ((v 26) ⊠ (v 218))) ⊞ ((v 104) ⊠ (v 35))) ⊞ ((v 116) ⊠ (v 302))) ⊞ ((v 307) ⊠ (v 32))) ⊞ ((v 275) ⊠ (v 47))) ⊞ ((v 275) ⊠ (v 47))),
   .hes 45 ((((((((((v 122) ⊠ (v 259)) ⊞ ((v 3) ⊠ (v 65))) ⊞ ((v 288) ⊠ (v 262))) ⊞ ((v 110) ⊠ (v 44))) ⊞ ((v 301) ⊠ (v 207))) ⊞ ((v 160) ⊠ (v 33))) ⊞ ((v 220) ⊠ (v 218))) ⊞ ((v 221) ⊠ (v 35))) ⊞ (v 275)),
   .v 241 ((((((v 241) ⊠ (.neg (k (38 / 125)))) ⊞ ((v 301) ⊠ (v 286))) ⊞ ((v 160) ⊠ (v 28))) ⊞ ((v 220) ⊠ (v 161))) ⊞ ((v 221) ⊠ (v 30))),
   .v 275 (((((((v 314) ⊠ (v 304)) ⊞ ((v 272) ⊠ (v 43))) ⊞ ((v 88) ⊠ (v 125))) ⊞ ((v 75) ⊠ (v 42))) ⊞ ((v 275) ⊠ (.neg (k 1)))) ⊟ ((v 241) ⊠ (w 2))),
   .v 221 (((((v 301) ⊠ (v 213)) ⊞ ((v 160) ⊠ (v 31))) ⊞ ((v 220) ⊠ (v 286))) ⊞ ((v 221) ⊠ (v 28))),
   .v 205 (((((v 285) ⊠ (v 213)) ⊞ ((v 204) ⊠ (v 31))) ⊞ ((v 246) ⊠ (v 286))) ⊞ ((v 205) ⊠ (v 28))),
   .hes 44 ((((((v 173) ⊠ (v 40)) ⊞ ((v 322) ⊠ (v 21))) ⊞ ((v 241) ⊠ (v 13))) ⊞ ((v 113) ⊠ (v 15))) ⊞ (v 205)),
   .v 241 (((((v 173) ⊠ (v 19)) ⊞ ((v 322) ⊠ (v 18))) ⊞ ((v 241) ⊠ (v 9))) ⊞ ((v 113) ⊠ (v 10))),
   .hes 42 ((((((((v 200) ⊠ (v 19)) ⊞ ((v 134) ⊠ (v 18))) ⊞ ((v 63) ⊠ (v 9))) ⊞ ((v 275) ⊠ (v 10))) ⊞ ((v 221) ⊠ (w 1))) ⊠ (v 4)) ⊞ (((v 205) ⊟ ((v 241) ⊠ (w 1))) ⊠ (v 0))),
   .hes 43 (((((((v 200) ⊠ (v 20)) ⊞ ((v 134) ⊠ (v 38))) ⊞ ((v 63) ⊠ (v 10))) ⊞ ((v 275) ⊠ (v 11))) ⊞ ((v 241) ⊠ (v 2))) ⊞ ((v 221) ⊠ (v 5))),
   .v 241 ((w 6) ⊠ (v 4)),
   .v 221 (((w 7) ⊠ (v 20)) ⊞ ((v 241) ⊠ (v 19))),
   .v 275 (((w 7) ⊠ (v 11)) ⊞ ((v 241) ⊠ (v 10))),
   .v 63 (((v 221) ⊠ (v 28)) ⊞ ((v 275) ⊠ (v 43))),
   .v 134 ((w 8) ⊞ ((w 6) ⊠ (v 0))),
   .v 200 (((w 7) ⊠ (v 10)) ⊞ ((v 241) ⊠ (v 9))),
   .v 205 (((v 134) ⊠ (v 31)) ⊞ ((v 200) ⊠ (v 28))),
   .v 241 (((((w 7) ⊠ (v 38)) ⊞ ((v 241) ⊠ (v 18))) ⊠ (.neg (k 1))) ⊞ ((v 200) ⊠ (.neg (k (38 / 125))))),
   .v 113 ((w 9) ⊞ ((v 275) ⊠ (.neg (k 1)))),
   .v 173 (((((v 241) ⊠ (v 53)) ⊞ ((v 63) ⊠ (v 52))) ⊞ ((v 113) ⊠ (v 67))) ⊞ ((v 205) ⊠ (v 68))),
   .v 200 (((w 10) ⊞ ((v 134) ⊠ (v 28))) ⊞ ((v 200) ⊠ (v 30))),
   .v 134 (((v 113) ⊠ (v 54)) ⊞ ((v 205) ⊠ (v 53))),
   .v 322 (((v 173) ⊞ ((v 200) ⊠ (k (83 / 4000)))) ⊞ ((v 134) ⊠ (.neg (k (23 / 125))))),
   .v 204 (((v 200) ⊠ (v 86)) ⊞ ((v 134) ⊠ (v 77))),
   .v 213 (((v 322) ⊠ (k (61899 / 40000))) ⊞ ((v 204) ⊠ (.neg (k (61899 / 1600000))))),
   .v 286 (((v 213) ⊞ ((v 173) ⊠ (k (2629 / 1250)))) ⊞ ((v 134) ⊠ (.neg (k (28919 / 500000))))),
   .v 275 (((v 221) ⊠ (v 30)) ⊞ ((v 275) ⊠ (v 42))),
   .v 221 (((((v 241) ⊠ (v 62)) ⊞ ((v 63) ⊠ (v 53))) ⊞ ((v 113) ⊠ (v 60))) ⊞ ((v 205) ⊠ (v 61))),
   .v 246 (((v 113) ⊠ (v 53)) ⊞ ((v 205) ⊠ (v 52))),
   .v 285 ((((v 275) ⊠ (v 79)) ⊞ ((v 221) ⊠ (v 77))) ⊞ ((v 246) ⊠ (v 78))),
   .v 160 ((w 11) ⊞ (v 246)),
   .v 220 (((v 200) ⊠ (v 77)) ⊞ ((v 134) ⊠ (v 76))),
   .v 301 (((v 285) ⊠ (k (61899 / 40000))) ⊞ ((v 160) ⊠ (k (61899 / 1600000)))),
   .v 88 ((((v 275) ⊠ (v 77)) ⊞ ((v 221) ⊠ (v 76))) ⊞ ((v 246) ⊠ (v 81))),
   .v 75 ((v 88) ⊠ (k (61899 / 40000))),
   .v 272 (((((((((((v 285) ⊠ (k (61899 / 1600000))) ⊞ ((v 160) ⊠ (k (9277 / 1000000)))) ⊞ ((v 204) ⊠ (.neg (k (829 / 1000000))))) ⊞ ((v 220) ⊠ (k (3 / 200000)))) ⊞ ((v 301) ⊠ (v 78))) ⊞ ((v 75) ⊠ (v 81))) ⊞ ((v 221) ⊠ (k (28919 / 500000)))) ⊞ ((v 200) ⊠ (.neg (k (1243 / 1000000))))) ⊞ ((v 246) ⊠ (k (5823 / 200000)))) ⊞ ((v 134) ⊠ (.neg (k (1387 / 1000000))))),
   .v 125 ((v 88) ⊠ (k (61899 / 40000))),
   .v 304 ((v 285) ⊠ (.neg (k (61899 / 40000)))),
   .v 314 ((v 160) ⊠ (k (61899 / 1600000))),
   .v 161 ((v 304) ⊟ (v 314)),
   .v 110 (((v 125) ⊠ (v 87)) ⊞ ((v 161) ⊠ (v 85))),
   .v 3 (((v 221) ⊠ (k (2629 / 1250))) ⊞ ((v 246) ⊠ (k (28919 / 500000)))),
   .v 262 ((k 0) ⊟ (v 3)),
   .v 207 ((v 275) ⊠ (k (2629 / 1250))),
   .v 259 (((((v 301) ⊠ (v 77)) ⊞ ((v 75) ⊠ (v 76))) ⊞ ((v 221) ⊠ (k (2629 / 1250)))) ⊞ ((v 246) ⊠ (k (28919 / 500000)))),
   .v 218 ((((v 110) ⊞ ((v 262) ⊠ (v 71))) ⊞ ((v 207) ⊠ (v 55))) ⊞ ((v 259) ⊠ (w 4))),
   .v 288 ((k 0) ⊟ (v 125)),
   .v 314 (((k 0) ⊟ (v 304)) ⊞ (v 314)),
   .v 304 (((((k 0) ⊟ (v 160)) ⊠ (k (3 / 200000))) ⊞ ((v 204) ⊠ (k (99 / 500000)))) ⊞ ((v 220) ⊠ (k (121 / 20000)))),
   .v 122 (((((v 322) ⊠ (k (61899 / 1600000))) ⊞ ((v 160) ⊠ (.neg (k (829 / 1000000))))) ⊞ (((k 0) ⊟ (v 204)) ⊠ (.neg (k (73 / 50000))))) ⊞ (((k 0) ⊟ (v 220)) ⊠ (k (99 / 500000)))),
   .v 88 (((k 0) ⊟ (v 88)) ⊠ (k (61899 / 1600000))),
   .v 308 ((v 204) ⊠ (k (3 / 200000))),
   .v 339 (((k 0) ⊟ (v 220)) ⊠ (.neg (k (829 / 1000000)))),
   .v 307 (((v 88) ⊞ (v 308)) ⊞ (v 339)),
   .v 104 (((v 322) ⊠ (k (61899 / 40000))) ⊞ (((k 0) ⊟ (v 204)) ⊠ (k (61899 / 1600000)))),
   .v 258 ((((v 288) ⊠ (v 91)) ⊞ ((v 104) ⊠ (v 85))) ⊞ ((v 75) ⊠ (w 5))),
   .v 162 ((k 0) ⊟ (v 104)),
   .v 183 ((((v 314) ⊠ (v 91)) ⊞ ((v 162) ⊠ (v 87))) ⊟ ((v 301) ⊠ (w 5))),
   .v 145 ((k 0) ⊟ (v 207)),
   .v 215 (((((v 173) ⊠ (k (28919 / 500000))) ⊞ (((k 0) ⊟ (v 200)) ⊠ (.neg (k (3163 / 250000))))) ⊞ ((v 246) ⊠ (.neg (k (1387 / 1000000))))) ⊞ ((v 134) ⊠ (.neg (k (18069 / 1000000))))),
   .v 302 ((((v 200) ⊠ (k (9683 / 1000000))) ⊞ (((k 0) ⊟ (v 246)) ⊠ (.neg (k (1243 / 1000000))))) ⊞ ((v 134) ⊠ (.neg (k (3163 / 250000))))),
   .v 129 (((k 0) ⊟ (v 275)) ⊠ (k (28919 / 500000))),
   .v 116 (((k 0) ⊟ (v 200)) ⊠ (.neg (k (1387 / 1000000)))),
   .v 26 (((v 129) ⊞ (v 116)) ⊟ (((k 0) ⊟ (v 134)) ⊠ (.neg (k (1243 / 1000000))))),
   .v 322 (((((v 322) ⊠ (.neg (k (61899 / 1600000)))) ⊞ ((v 160) ⊠ (.neg (k (829 / 1000000))))) ⊞ ((v 204) ⊠ (k (3227 / 1000000)))) ⊞ ((v 220) ⊠ (k (99 / 500000)))),
   .v 291 ((((v 160) ⊠ (k (3 / 200000))) ⊞ ((v 204) ⊠ (k (99 / 500000)))) ⊞ ((v 220) ⊠ (k (10737 / 1000000)))),
   .v 213 ((((((((v 213) ⊠ (.neg (k (23 / 125)))) ⊞ ((v 322) ⊠ (v 77))) ⊞ ((v 291) ⊠ (v 76))) ⊞ ((v 173) ⊠ (.neg (k (28919 / 500000))))) ⊞ ((v 200) ⊠ (.neg (k (3163 / 250000))))) ⊞ ((v 246) ⊠ (.neg (k (1387 / 1000000))))) ⊞ ((v 134) ⊠ (k (2429 / 125000)))),
   .v 32 ((((((((((((((((v 288) ⊠ (v 94)) ⊞ ((v 314) ⊠ (v 82))) ⊞ ((v 304) ⊠ (v 87))) ⊞ ((v 122) ⊠ (v 85))) ⊞ ((v 307) ⊠ (v 91))) ⊞ ((v 307) ⊠ (v 91))) ⊞ ((v 258) ⊠ (v 78))) ⊞ ((v 183) ⊠ (v 81))) ⊞ ((v 3) ⊠ (v 64))) ⊞ ((v 145) ⊠ (v 80))) ⊞ ((v 215) ⊠ (v 71))) ⊞ ((v 302) ⊠ (v 55))) ⊞ ((v 26) ⊠ (v 58))) ⊞ ((v 26) ⊠ (v 58))) ⊞ ((v 213) ⊠ (w 4))),
   .v 173 (((v 173) ⊠ (.neg (k (2629 / 1250)))) ⊞ ((v 134) ⊠ (k (28919 / 500000)))),
   .v 292 ((k 0) ⊟ (v 173)),
   .v 269 ((((((v 258) ⊠ (v 77)) ⊞ ((v 183) ⊠ (v 76))) ⊞ ((v 292) ⊠ (v 71))) ⊞ ((v 145) ⊠ (v 58))) ⊟ ((v 286) ⊠ (w 4))),
   .v 220 (((((v 285) ⊠ (k (61899 / 1600000))) ⊞ ((v 160) ⊠ (.neg (k (751 / 100000))))) ⊞ (((k 0) ⊟ (v 204)) ⊠ (.neg (k (829 / 1000000))))) ⊞ ((v 220) ⊠ (k (3 / 200000)))),
   .v 160 (((k 0) ⊟ (v 160)) ⊠ (k (99 / 500000))),
   .v 339 (((v 88) ⊞ (v 160)) ⊟ (v 339)),
   .v 88 ((((((((v 125) ⊠ (v 89)) ⊞ ((v 162) ⊠ (v 82))) ⊞ ((v 304) ⊠ (v 91))) ⊞ ((v 220) ⊠ (v 85))) ⊞ ((v 339) ⊠ (v 87))) ⊞ ((v 339) ⊠ (v 87))) ⊞ ((v 291) ⊠ (w 5))),
   .v 160 (((k 0) ⊟ (v 160)) ⊟ (v 308)),
   .v 308 ((((((((v 161) ⊠ (v 89)) ⊞ ((v 104) ⊠ (v 94))) ⊞ ((v 122) ⊠ (v 91))) ⊞ ((v 220) ⊠ (v 87))) ⊞ ((v 160) ⊠ (v 85))) ⊞ ((v 160) ⊠ (v 85))) ⊟ ((v 322) ⊠ (w 5))),
   .v 285 (((((v 221) ⊠ (k (28919 / 500000))) ⊞ ((v 200) ⊠ (.neg (k (1243 / 1000000))))) ⊞ (((k 0) ⊟ (v 246)) ⊠ (.neg (k (4193 / 500000))))) ⊞ (((k 0) ⊟ (v 134)) ⊠ (.neg (k (1387 / 1000000))))),
   .v 116 (((v 129) ⊟ (v 116)) ⊟ ((v 246) ⊠ (.neg (k (3163 / 250000))))),
   .v 110 (((((((((((v 110) ⊠ (.neg (k (23 / 125)))) ⊞ ((v 88) ⊠ (v 77))) ⊞ ((v 308) ⊠ (v 76))) ⊞ ((v 173) ⊠ (v 64))) ⊞ ((v 207) ⊠ (v 69))) ⊞ ((v 285) ⊠ (v 71))) ⊞ ((v 302) ⊠ (v 58))) ⊞ ((v 116) ⊠ (v 55))) ⊞ ((v 116) ⊠ (v 55))) ⊟ ((v 272) ⊠ (w 4))),
   .v 129 ((k 0) ⊟ (v 177)),
   .v 204 ((k (14 / 125)) ⊠ (v 129)),
   .v 123 ((.neg (k (14 / 125))) ⊠ (v 318)),
   .v 280 ((k (14 / 125)) ⊠ (v 318)),
   .v 271 ((k (14 / 125)) ⊠ (v 129)),
   .v 330 (.neg (v 129)),
   .v 340 (((((v 280) ⊠ (v 47)) ⊞ ((v 271) ⊠ (v 35))) ⊞ ((v 330) ⊠ (v 46))) ⊞ ((v 318) ⊠ (v 44))),
   .v 250 (.neg (v 340)),
   .v 96 ((((((v 204) ⊠ (v 29)) ⊞ ((v 123) ⊠ (v 34))) ⊞ ((v 318) ⊠ (v 37))) ⊞ ((v 129) ⊠ (v 66))) ⊞ ((v 250) ⊠ (w 4))),
   .v 101 (.neg (v 129)),
   .v 199 (((v 129) ⊠ (v 35)) ⊞ ((v 318) ⊠ (v 47))),
   .v 152 ((((v 101) ⊠ (v 29)) ⊞ ((v 318) ⊠ (v 34))) ⊞ ((v 199) ⊠ (w 4))),
   .v 306 ((v 199) ⊠ (v 71)),
   .v 242 (((v 318) ⊠ (v 35)) ⊞ ((v 101) ⊠ (v 47)))]

/-- HyAInverseDynHessian.cpp:1972-2129. -/
def part13 : List Stmt :=
  [.v 222 (((v 242) ⊠ (v 64)) ⊟ ((v 71) ⊠ (v 340))),
   .v 226 (((.neg (k (23 / 125))) ⊠ (v 152)) ⊞ (v 96)),
   .v 293 ((v 76) ⊠ (v 242)),
   .v 22 (.neg (v 293)),
   .v 114 (((v 77) ⊠ (v 152)) ⊞ ((v 22) ⊠ (w 5))),
   .v 115 (((v 293) ⊠ (v 91)) ⊞ ((v 85) ⊠ (v 199))),
   .v 317 (((v 77) ⊠ (v 340)) ⊞ ((v 78) ⊠ (v 199))),
   .v 338 ((v 77) ⊠ (v 242)),
   .v 154 (((v 76) ⊠ (v 340)) ⊞ ((v 81) ⊠ (v 199))),
   .v 336 ((((v 293) ⊠ (v 94)) ⊞ ((v 85) ⊠ (v 317))) ⊟ (((v 338) ⊠ (v 82)) ⊞ ((v 87) ⊠ (v 154)))),
   .v 298 (((((k (61899 / 40000)) ⊠ (v 226)) ⊞ ((.neg (k (61899 / 1600000))) ⊠ (v 114))) ⊞ ((k (61899 / 1600000)) ⊠ (v 115))) ⊞ ((k (61899 / 40000)) ⊠ (v 336))),
   .v 214 ((((((k (2629 / 1250)) ⊠ (v 96)) ⊞ ((.neg (k (28919 / 500000))) ⊠ (v 152))) ⊞ ((k (28919 / 500000)) ⊠ (v 306))) ⊞ ((.neg (k (2629 / 1250))) ⊠ (v 222))) ⊞ (v 298)),
   .v 84 (.neg (v 242)),
   .v 216 ((((v 318) ⊠ (v 29)) ⊞ ((v 129) ⊠ (v 34))) ⊞ ((v 84) ⊠ (w 4))),
   .v 350 (((((v 204) ⊠ (v 47)) ⊞ ((v 123) ⊠ (v 35))) ⊞ ((v 318) ⊠ (v 46))) ⊞ ((v 129) ⊠ (v 44))),
   .v 290 ((((((v 280) ⊠ (v 29)) ⊞ ((v 271) ⊠ (v 34))) ⊞ ((v 330) ⊠ (v 37))) ⊞ ((v 318) ⊠ (v 66))) ⊞ ((v 350) ⊠ (w 4))),
   .v 186 (((v 199) ⊠ (v 64)) ⊟ ((v 71) ⊠ (v 350))),
   .v 208 (.neg (v 154)),
   .v 151 ((((v 77) ⊠ (v 290)) ⊞ ((v 78) ⊠ (v 216))) ⊞ ((v 208) ⊠ (w 5))),
   .v 227 (((v 293) ⊠ (v 87)) ⊞ ((v 85) ⊠ (v 338))),
   .v 276 (((.neg (k (23 / 125))) ⊠ (v 242)) ⊞ (v 350)),
   .v 335 (((v 293) ⊠ (v 89)) ⊞ ((v 85) ⊠ (v 276))),
   .v 249 (((v 199) ⊠ (v 82)) ⊞ ((v 91) ⊠ (v 154))),
   .v 278 (((((k (61899 / 40000)) ⊠ (v 151)) ⊞ ((k (61899 / 1600000)) ⊠ (v 216))) ⊞ ((k (61899 / 1600000)) ⊠ (v 227))) ⊞ ((.neg (k (61899 / 40000))) ⊠ ((v 335) ⊟ (v 249)))),
   .v 128 (((v 199) ⊠ (v 91)) ⊞ ((v 91) ⊠ (v 199))),
   .v 244 (((v 338) ⊠ (v 87)) ⊞ ((v 87) ⊠ (v 338))),
   .v 296 ((((k (61899 / 40000)) ⊠ ((((v 338) ⊠ (v 89)) ⊞ ((v 87) ⊠ (v 276))) ⊟ (((v 199) ⊠ (v 94)) ⊞ ((v 91) ⊠ (v 317))))) ⊞ ((k (61899 / 40000)) ⊠ ((((v 76) ⊠ (v 290)) ⊞ ((v 81) ⊠ (v 216))) ⊞ ((v 317) ⊠ (w 5))))) ⊟ ((k (61899 / 1600000)) ⊠ ((v 128) ⊞ (v 244)))),
   .v 305 (((v 76) ⊠ (v 152)) ⊞ ((v 338) ⊠ (w 5))),
   .v 300 (((v 338) ⊠ (v 91)) ⊞ ((v 87) ⊠ (v 199))),
   .v 27 (((v 293) ⊠ (v 85)) ⊞ ((v 85) ⊠ (v 293))),
   .v 253 ((v 242) ⊠ (v 71)),
   .v 237 (((v 242) ⊠ (v 58)) ⊞ ((v 55) ⊠ (v 199))),
   .v 249 ((((((((((((((((((((k (5823 / 200000)) ⊠ (v 216)) ⊞ ((.neg (k (1387 / 1000000))) ⊠ (v 152))) ⊞ ((k (28919 / 500000)) ⊠ (v 290))) ⊞ ((k (28919 / 500000)) ⊠ (v 186))) ⊞ ((.neg (k (1387 / 1000000))) ⊠ (v 306))) ⊞ ((.neg (k (3163 / 250000))) ⊠ ((k 0) ⊟ (((v 242) ⊠ (v 55)) ⊞ ((v 55) ⊠ (v 242)))))) ⊞ ((v 78) ⊠ (v 278))) ⊞ ((v 81) ⊠ (v 296))) ⊞ ((k (9277 / 1000000)) ⊠ (v 216))) ⊞ ((.neg (k (829 / 1000000))) ⊠ (v 114))) ⊞ ((k (3 / 200000)) ⊠ (v 305))) ⊞ ((k (61899 / 1600000)) ⊠ (v 151))) ⊞ ((.neg (k (751 / 100000))) ⊠ (v 227))) ⊞ ((k (61899 / 1600000)) ⊠ ((v 249) ⊟ (v 335)))) ⊞ ((.neg (k (829 / 1000000))) ⊠ (v 115))) ⊟ ((k (3 / 200000)) ⊠ (v 300))) ⊟ ((k (99 / 500000)) ⊠ ((v 244) ⊟ (v 27)))) ⊟ ((.neg (k (4193 / 500000))) ⊠ (v 253))) ⊟ ((.neg (k (1243 / 1000000))) ⊠ (v 237))),
   .v 335 (((((v 241) ⊠ (v 318)) ⊞ ((v 63) ⊠ (v 129))) ⊞ ((v 113) ⊠ (v 204))) ⊞ ((v 205) ⊠ (v 123))),
   .v 151 (((v 113) ⊠ (v 101)) ⊞ ((v 205) ⊠ (v 318))),
   .v 347 ((v 335) ⊞ ((v 151) ⊠ (.neg (k (23 / 125))))),
   .v 257 ((v 151) ⊠ (v 77)),
   .v 194 (((v 347) ⊠ (k (61899 / 40000))) ⊞ ((v 257) ⊠ (.neg (k (61899 / 1600000))))),
   .v 126 (((v 194) ⊞ ((v 335) ⊠ (k (2629 / 1250)))) ⊞ ((v 151) ⊠ (.neg (k (28919 / 500000))))),
   .v 158 (((((v 241) ⊠ (v 330)) ⊞ ((v 63) ⊠ (v 318))) ⊞ ((v 113) ⊠ (v 280))) ⊞ ((v 205) ⊠ (v 271))),
   .v 229 (((v 113) ⊠ (v 318)) ⊞ ((v 205) ⊠ (v 129))),
   .v 309 (((v 158) ⊠ (v 77)) ⊞ ((v 229) ⊠ (v 78))),
   .v 107 ((v 151) ⊠ (v 76)),
   .v 112 (((v 309) ⊠ (k (61899 / 40000))) ⊞ ((v 229) ⊠ (k (61899 / 1600000)))),
   .v 108 (((v 158) ⊠ (v 76)) ⊞ ((v 229) ⊠ (v 81))),
   .v 100 ((v 108) ⊠ (k (61899 / 40000))),
   .v 41 ((((((((((v 309) ⊠ (k (61899 / 1600000))) ⊞ ((v 229) ⊠ (k (9277 / 1000000)))) ⊞ ((v 257) ⊠ (.neg (k (829 / 1000000))))) ⊞ ((v 107) ⊠ (k (3 / 200000)))) ⊞ ((v 112) ⊠ (v 78))) ⊞ ((v 100) ⊠ (v 81))) ⊞ ((v 158) ⊠ (k (28919 / 500000)))) ⊞ ((v 229) ⊠ (k (5823 / 200000)))) ⊞ ((v 151) ⊠ (.neg (k (1387 / 1000000))))),
   .v 23 ((v 108) ⊠ (k (61899 / 40000))),
   .v 16 ((v 309) ⊠ (.neg (k (61899 / 40000)))),
   .v 14 ((v 229) ⊠ (k (61899 / 1600000))),
   .v 12 ((v 16) ⊟ (v 14)),
   .v 7 (((((v 125) ⊠ (v 338)) ⊞ ((v 23) ⊠ (v 87))) ⊞ ((v 161) ⊠ (v 293))) ⊞ ((v 12) ⊠ (v 85))),
   .v 6 (((v 158) ⊠ (k (2629 / 1250))) ⊞ ((v 229) ⊠ (k (28919 / 500000)))),
   .v 188 ((k 0) ⊟ (v 6)),
   .v 337 (((((v 112) ⊠ (v 77)) ⊞ ((v 100) ⊠ (v 76))) ⊞ ((v 158) ⊠ (k (2629 / 1250)))) ⊞ ((v 229) ⊠ (k (28919 / 500000)))),
   .v 281 ((((v 7) ⊞ ((v 188) ⊠ (v 71))) ⊞ ((v 207) ⊠ (v 242))) ⊞ ((v 337) ⊠ (w 4))),
   .v 334 ((k 0) ⊟ (v 23)),
   .v 14 (((k 0) ⊟ (v 16)) ⊞ (v 14)),
   .v 16 (((((k 0) ⊟ (v 229)) ⊠ (k (3 / 200000))) ⊞ ((v 257) ⊠ (k (99 / 500000)))) ⊞ ((v 107) ⊠ (k (121 / 20000)))),
   .v 295 (((((v 347) ⊠ (k (61899 / 1600000))) ⊞ ((v 229) ⊠ (.neg (k (829 / 1000000))))) ⊞ (((k 0) ⊟ (v 257)) ⊠ (.neg (k (73 / 50000))))) ⊞ (((k 0) ⊟ (v 107)) ⊠ (k (99 / 500000)))),
   .v 108 (((k 0) ⊟ (v 108)) ⊠ (k (61899 / 1600000))),
   .v 51 ((v 257) ⊠ (k (3 / 200000))),
   .v 217 (((k 0) ⊟ (v 107)) ⊠ (.neg (k (829 / 1000000)))),
   .v 117 (((v 108) ⊞ (v 51)) ⊞ (v 217)),
   .v 117 (((((((((((((v 288) ⊠ (v 317)) ⊞ ((v 334) ⊠ (v 94))) ⊞ ((v 314) ⊠ (v 154))) ⊞ ((v 14) ⊠ (v 82))) ⊞ ((v 304) ⊠ (v 338))) ⊞ ((v 16) ⊠ (v 87))) ⊞ ((v 122) ⊠ (v 293))) ⊞ ((v 295) ⊠ (v 85))) ⊞ ((v 307) ⊠ (v 199))) ⊞ ((v 307) ⊠ (v 199))) ⊞ ((v 117) ⊠ (v 91))) ⊞ ((v 117) ⊠ (v 91))),
   .v 307 (((v 347) ⊠ (k (61899 / 40000))) ⊞ (((k 0) ⊟ (v 257)) ⊠ (k (61899 / 1600000)))),
   .v 334 ((((((v 288) ⊠ (v 199)) ⊞ ((v 334) ⊠ (v 91))) ⊞ ((v 104) ⊠ (v 293))) ⊞ ((v 307) ⊠ (v 85))) ⊞ ((v 100) ⊠ (w 5))),
   .v 288 ((k 0) ⊟ (v 307)),
   .v 14 ((((((v 314) ⊠ (v 199)) ⊞ ((v 14) ⊠ (v 91))) ⊞ ((v 162) ⊠ (v 338))) ⊞ ((v 288) ⊠ (v 87))) ⊟ ((v 112) ⊠ (w 5))),
   .v 314 ((((v 335) ⊠ (k (28919 / 500000))) ⊞ ((v 229) ⊠ (.neg (k (1387 / 1000000))))) ⊞ ((v 151) ⊠ (.neg (k (18069 / 1000000))))),
   .v 50 ((((k 0) ⊟ (v 229)) ⊠ (.neg (k (1243 / 1000000)))) ⊞ ((v 151) ⊠ (.neg (k (3163 / 250000))))),
   .v 127 (((k 0) ⊟ (v 151)) ⊠ (.neg (k (1243 / 1000000)))),
   .v 105 ((k 0) ⊟ (v 127)),
   .v 347 (((((v 347) ⊠ (.neg (k (61899 / 1600000)))) ⊞ ((v 229) ⊠ (.neg (k (829 / 1000000))))) ⊞ ((v 257) ⊠ (k (3227 / 1000000)))) ⊞ ((v 107) ⊠ (k (99 / 500000)))),
   .v 231 ((((v 229) ⊠ (k (3 / 200000))) ⊞ ((v 257) ⊠ (k (99 / 500000)))) ⊞ ((v 107) ⊠ (k (10737 / 1000000)))),
   .hes 59 ((((((((((v 301) ⊠ (v 208)) ⊞ ((v 112) ⊠ (v 83))) ⊞ ((v 75) ⊠ (v 317))) ⊞ ((v 100) ⊠ (v 94))) ⊞ ((v 322) ⊠ (v 22))) ⊞ ((v 347) ⊠ (v 98))) ⊞ ((v 291) ⊠ (v 338))) ⊞ ((v 231) ⊠ (v 87))) ⊞ (v 117)),
   .v 208 (((((((v 194) ⊠ (.neg (k (23 / 125)))) ⊞ ((v 347) ⊠ (v 77))) ⊞ ((v 231) ⊠ (v 76))) ⊞ ((v 335) ⊠ (.neg (k (28919 / 500000))))) ⊞ ((v 229) ⊠ (.neg (k (1387 / 1000000))))) ⊞ ((v 151) ⊠ (k (2429 / 125000)))),
   .v 105 (((((((((((((v 117) ⊞ ((v 334) ⊠ (v 78))) ⊞ ((v 14) ⊠ (v 81))) ⊞ ((v 6) ⊠ (v 64))) ⊞ ((v 145) ⊠ (v 340))) ⊞ ((v 314) ⊠ (v 71))) ⊞ ((v 302) ⊠ (v 242))) ⊞ ((v 50) ⊠ (v 55))) ⊞ ((v 26) ⊠ (v 199))) ⊞ ((v 26) ⊠ (v 199))) ⊞ ((v 105) ⊠ (v 58))) ⊞ ((v 105) ⊠ (v 58))) ⊞ ((v 208) ⊠ (w 4))),
   .v 186 (((((((k (2629 / 1250)) ⊠ (v 290)) ⊞ ((k (28919 / 500000)) ⊠ (v 216))) ⊞ ((k (28919 / 500000)) ⊠ (v 253))) ⊞ ((k (2629 / 1250)) ⊠ (v 186))) ⊞ ((v 77) ⊠ (v 278))) ⊞ ((v 76) ⊠ (v 296))),
   .v 335 (((v 335) ⊠ (.neg (k (2629 / 1250)))) ⊞ ((v 151) ⊠ (k (28919 / 500000)))),
   .v 117 ((k 0) ⊟ (v 335)),
   .v 145 ((((((v 334) ⊠ (v 77)) ⊞ ((v 14) ⊠ (v 76))) ⊞ ((v 117) ⊠ (v 71))) ⊞ ((v 145) ⊠ (v 199))) ⊟ ((v 126) ⊠ (w 4))),
   .v 27 ((((((((((.neg (k (829 / 1000000))) ⊠ (v 216)) ⊞ ((k (3227 / 1000000)) ⊠ (v 114))) ⊞ ((k (99 / 500000)) ⊠ (v 305))) ⊞ ((.neg (k (61899 / 1600000))) ⊠ (v 226))) ⊞ ((k (99 / 500000)) ⊠ (v 300))) ⊞ ((k (3 / 200000)) ⊠ ((v 128) ⊟ (v 27)))) ⊟ ((k (61899 / 1600000)) ⊠ (v 336))) ⊟ ((.neg (k (73 / 50000))) ⊠ (v 115))) ⊟ ((.neg (k (829 / 1000000))) ⊠ (v 227))),
   .v 300 ((((((((k (3 / 200000)) ⊠ (v 216)) ⊞ ((k (99 / 500000)) ⊠ (v 114))) ⊞ ((k (10737 / 1000000)) ⊠ (v 305))) ⊞ ((k (121 / 20000)) ⊠ (v 300))) ⊞ ((k (3 / 200000)) ⊠ (v 227))) ⊟ ((k (99 / 500000)) ⊠ (v 115))) ⊟ ((.neg (k (829 / 1000000))) ⊠ ((v 128) ⊟ (v 244)))),
   .v 237 ((((((((((((.neg (k (1387 / 1000000))) ⊠ (v 216)) ⊞ ((k (2429 / 125000)) ⊠ (v 152))) ⊞ ((.neg (k (28919 / 500000))) ⊠ (v 96))) ⊞ ((.neg (k (18069 / 1000000))) ⊠ (v 306))) ⊞ ((k (28919 / 500000)) ⊠ (v 222))) ⊞ ((.neg (k (3163 / 250000))) ⊠ (v 237))) ⊞ ((v 77) ⊠ (v 27))) ⊞ ((v 76) ⊠ (v 300))) ⊞ ((.neg (k (23 / 125))) ⊠ (v 298))) ⊟ ((.neg (k (1387 / 1000000))) ⊠ (v 253))) ⊟ ((.neg (k (1243 / 1000000))) ⊠ ((k 0) ⊟ (((v 199) ⊠ (v 58)) ⊞ ((v 58) ⊠ (v 199)))))),
   .v 107 (((((v 309) ⊠ (k (61899 / 1600000))) ⊞ ((v 229) ⊠ (.neg (k (751 / 100000))))) ⊞ (((k 0) ⊟ (v 257)) ⊠ (.neg (k (829 / 1000000))))) ⊞ ((v 107) ⊠ (k (3 / 200000)))),
   .v 309 (((k 0) ⊟ (v 229)) ⊠ (k (99 / 500000))),
   .v 217 (((v 108) ⊞ (v 309)) ⊟ (v 217)),
   .v 217 ((((((((((((((v 125) ⊠ (v 276)) ⊞ ((v 23) ⊠ (v 89))) ⊞ ((v 162) ⊠ (v 154))) ⊞ ((v 288) ⊠ (v 82))) ⊞ ((v 304) ⊠ (v 199))) ⊞ ((v 16) ⊠ (v 91))) ⊞ ((v 220) ⊠ (v 293))) ⊞ ((v 107) ⊠ (v 85))) ⊞ ((v 339) ⊠ (v 338))) ⊞ ((v 339) ⊠ (v 338))) ⊞ ((v 217) ⊠ (v 87))) ⊞ ((v 217) ⊠ (v 87))) ⊞ ((v 231) ⊠ (w 5))),
   .v 309 (((k 0) ⊟ (v 309)) ⊟ (v 51)),
   .v 309 ((((((((((((((v 161) ⊠ (v 276)) ⊞ ((v 12) ⊠ (v 89))) ⊞ ((v 104) ⊠ (v 317))) ⊞ ((v 307) ⊠ (v 94))) ⊞ ((v 122) ⊠ (v 199))) ⊞ ((v 295) ⊠ (v 91))) ⊞ ((v 220) ⊠ (v 338))) ⊞ ((v 107) ⊠ (v 87))) ⊞ ((v 160) ⊠ (v 293))) ⊞ ((v 160) ⊠ (v 293))) ⊞ ((v 309) ⊠ (v 85))) ⊞ ((v 309) ⊠ (v 85))) ⊟ ((v 347) ⊠ (w 5))),
   .v 107 ((((v 158) ⊠ (k (28919 / 500000))) ⊞ (((k 0) ⊟ (v 229)) ⊠ (.neg (k (4193 / 500000))))) ⊞ (((k 0) ⊟ (v 151)) ⊠ (.neg (k (1387 / 1000000))))),
   .v 307 ((v 229) ⊠ (.neg (k (3163 / 250000)))),
   .v 295 ((k 0) ⊟ (v 307)),
   .v 295 ((((((((((((((v 7) ⊠ (.neg (k (23 / 125)))) ⊞ ((v 217) ⊠ (v 77))) ⊞ ((v 309) ⊠ (v 76))) ⊞ ((v 335) ⊠ (v 64))) ⊞ ((v 207) ⊠ (v 350))) ⊞ ((v 107) ⊠ (v 71))) ⊞ ((v 302) ⊠ (v 199))) ⊞ ((v 50) ⊠ (v 58))) ⊞ ((v 116) ⊠ (v 242))) ⊞ ((v 116) ⊠ (v 242))) ⊞ ((v 295) ⊠ (v 55))) ⊞ ((v 295) ⊠ (v 55))) ⊟ ((v 41) ⊠ (w 4))),
   .hes 52 ((((((k 0) ⊟ (((((((((((v 63) ⊠ (v 106)) ⊞ ((v 205) ⊠ (v 92))) ⊞ ((v 286) ⊠ (v 66))) ⊞ ((v 272) ⊠ (v 34))) ⊞ ((v 218) ⊠ (v 44))) ⊞ ((v 32) ⊠ (v 35))) ⊞ (((((v 113) ⊠ (v 106)) ⊞ ((v 286) ⊠ (v 29))) ⊞ ((v 218) ⊠ (v 47))) ⊠ (k (14 / 125)))) ⊟ ((((v 241) ⊠ (v 72)) ⊞ ((v 259) ⊠ (v 37))) ⊞ ((v 269) ⊠ (v 46)))) ⊞ (((((v 205) ⊠ (v 72)) ⊞ ((v 259) ⊠ (v 34))) ⊞ ((v 269) ⊠ (v 35))) ⊠ (k (14 / 125)))) ⊟ ((((v 113) ⊠ (v 74)) ⊞ ((v 213) ⊠ (v 29))) ⊞ ((v 110) ⊠ (v 47))))) ⊠ (v 52)) ⊟ ((((((((((((v 63) ⊠ (v 214)) ⊞ ((v 205) ⊠ (v 249))) ⊞ ((v 126) ⊠ (v 66))) ⊞ ((v 41) ⊠ (v 34))) ⊞ ((v 281) ⊠ (v 44))) ⊞ ((v 105) ⊠ (v 35))) ⊞ (((((v 113) ⊠ (v 214)) ⊞ ((v 126) ⊠ (v 29))) ⊞ ((v 281) ⊠ (v 47))) ⊠ (k (14 / 125)))) ⊟ ((((v 241) ⊠ (v 186)) ⊞ ((v 337) ⊠ (v 37))) ⊞ ((v 145) ⊠ (v 46)))) ⊞ (((((v 205) ⊠ (v 186)) ⊞ ((v 337) ⊠ (v 34))) ⊞ ((v 145) ⊠ (v 35))) ⊠ (k (14 / 125)))) ⊟ ((((v 113) ⊠ (v 237)) ⊞ ((v 208) ⊠ (v 29))) ⊞ ((v 295) ⊠ (v 47)))) ⊠ (v 177))) ⊞ ((((((((((((((((v 241) ⊠ (v 214)) ⊞ ((v 63) ⊠ (v 186))) ⊞ ((v 113) ⊠ (v 249))) ⊞ ((v 205) ⊠ (v 237))) ⊞ ((v 126) ⊠ (v 37))) ⊞ ((v 337) ⊠ (v 66))) ⊞ ((v 41) ⊠ (v 29))) ⊞ ((v 208) ⊠ (v 34))) ⊞ ((v 281) ⊠ (v 46))) ⊞ ((v 145) ⊠ (v 44))) ⊞ ((v 105) ⊠ (v 47))) ⊞ ((v 295) ⊠ (v 35))) ⊞ (((((v 205) ⊠ (v 214)) ⊞ ((v 126) ⊠ (v 34))) ⊞ ((v 281) ⊠ (v 35))) ⊠ (.neg (k (14 / 125))))) ⊞ (((((v 113) ⊠ (v 186)) ⊞ ((v 337) ⊠ (v 29))) ⊞ ((v 145) ⊠ (v 47))) ⊠ (k (14 / 125)))) ⊠ (v 318))) ⊟ ((((((((((((((((v 241) ⊠ (v 106)) ⊞ ((v 63) ⊠ (v 72))) ⊞ ((v 113) ⊠ (v 92))) ⊞ ((v 205) ⊠ (v 74))) ⊞ ((v 286) ⊠ (v 37))) ⊞ ((v 259) ⊠ (v 66))) ⊞ ((v 272) ⊠ (v 29))) ⊞ ((v 213) ⊠ (v 34))) ⊞ ((v 218) ⊠ (v 46))) ⊞ ((v 269) ⊠ (v 44))) ⊞ ((v 32) ⊠ (v 47))) ⊞ ((v 110) ⊠ (v 35))) ⊞ (((((v 205) ⊠ (v 106)) ⊞ ((v 286) ⊠ (v 34))) ⊞ ((v 218) ⊠ (v 35))) ⊠ (.neg (k (14 / 125))))) ⊞ (((((v 113) ⊠ (v 72)) ⊞ ((v 259) ⊠ (v 29))) ⊞ ((v 269) ⊠ (v 47))) ⊠ (k (14 / 125)))) ⊠ (v 53))),
   .v 237 (((((((v 246) ⊠ (v 278)) ⊞ ((v 229) ⊠ (v 93))) ⊞ ((v 301) ⊠ (v 216))) ⊞ ((v 112) ⊠ (v 57))) ⊞ ((v 258) ⊠ (v 199))) ⊞ ((v 334) ⊠ (v 58))),
   .v 216 (((((((v 246) ⊠ (v 296)) ⊞ ((v 229) ⊠ (v 97))) ⊞ ((v 75) ⊠ (v 216))) ⊞ ((v 100) ⊠ (v 57))) ⊞ ((v 183) ⊠ (v 199))) ⊞ ((v 14) ⊠ (v 58))),
   .hes 53 (((k 0) ⊟ ((((((((((((((((((((((v 275) ⊠ (v 296)) ⊞ ((v 221) ⊠ (v 278))) ⊞ ((v 158) ⊠ (v 93))) ⊞ ((v 200) ⊠ (v 300))) ⊞ ((v 134) ⊠ (v 27))) ⊞ ((v 151) ⊠ (v 103))) ⊞ ((v 301) ⊠ (v 290))) ⊞ ((v 112) ⊠ (v 70))) ⊞ ((v 100) ⊠ (v 45))) ⊞ ((v 322) ⊠ (v 152))) ⊞ ((v 347) ⊠ (v 59))) ⊞ ((v 231) ⊠ (v 36))) ⊞ ((v 258) ⊠ (v 340))) ⊞ ((v 334) ⊠ (v 80))) ⊞ ((v 14) ⊠ (v 64))) ⊞ ((v 88) ⊠ (v 242))) ⊞ ((v 217) ⊠ (v 55))) ⊞ ((v 309) ⊠ (v 71))) ⊞ ((v 237) ⊠ (k (23 / 125)))) ⊞ (((k 0) ⊟ (v 216)) ⊠ (k (83 / 4000)))) ⊠ (v 248))) ⊞ ((((((((((((((((((v 221) ⊠ (v 296)) ⊞ ((v 158) ⊠ (v 97))) ⊞ ((v 134) ⊠ (v 300))) ⊞ ((v 151) ⊠ (v 102))) ⊞ ((v 75) ⊠ (v 290))) ⊞ ((v 100) ⊠ (v 70))) ⊞ ((v 291) ⊠ (v 152))) ⊞ ((v 231) ⊠ (v 59))) ⊞ ((v 183) ⊠ (v 340))) ⊞ ((v 14) ⊠ (v 80))) ⊞ ((v 308) ⊠ (v 242))) ⊞ ((v 309) ⊠ (v 55))) ⊟ ((((v 275) ⊠ (v 278)) ⊞ ((v 112) ⊠ (v 45))) ⊞ ((v 334) ⊠ (v 64)))) ⊞ ((v 237) ⊠ (k (83 / 4000)))) ⊞ ((v 216) ⊠ (k (23 / 125)))) ⊟ ((((v 200) ⊠ (v 27)) ⊞ ((v 347) ⊠ (v 36))) ⊞ ((v 217) ⊠ (v 71)))) ⊠ (v 247))),
   .v 100 (((v 112) ⊠ (v 79)) ⊞ ((v 100) ⊠ (v 77)))]

/-- HyAInverseDynHessian.cpp:2130-2250. -/
def part14 : List Stmt :=
  [.v 112 ((((((v 218) ⊠ (v 129)) ⊞ ((v 281) ⊠ (v 52))) ⊞ ((v 269) ⊠ (v 318))) ⊞ ((v 145) ⊠ (v 53))) ⊞ ((v 100) ⊠ (w 3))),
   .v 216 (((((v 286) ⊠ (v 129)) ⊞ ((v 126) ⊠ (v 52))) ⊞ ((v 259) ⊠ (v 318))) ⊞ ((v 337) ⊠ (v 53))),
   .v 335 ((((((((v 334) ⊠ (v 79)) ⊞ ((v 14) ⊠ (v 77))) ⊞ ((v 3) ⊠ (v 199))) ⊞ ((v 6) ⊠ (v 58))) ⊞ ((v 173) ⊠ (v 242))) ⊞ ((v 335) ⊠ (v 55))) ⊟ ((v 216) ⊠ (w 3))),
   .v 14 (((((v 286) ⊠ (v 318)) ⊞ ((v 126) ⊠ (v 53))) ⊞ ((v 259) ⊠ (v 330))) ⊞ ((v 337) ⊠ (v 62))),
   .v 334 ((v 14) ⊠ (.neg (k 1))),
   .v 6 ((((v 112) ⊠ (v 28)) ⊞ ((v 335) ⊠ (v 30))) ⊞ ((v 334) ⊠ (w 2))),
   .v 330 (((((v 218) ⊠ (v 318)) ⊞ ((v 281) ⊠ (v 53))) ⊞ ((v 269) ⊠ (v 330))) ⊞ ((v 145) ⊠ (v 62))),
   .v 173 (((v 216) ⊠ (v 28)) ⊞ ((v 100) ⊠ (v 30))),
   .v 3 (((v 330) ⊠ (.neg (k 1))) ⊟ ((v 173) ⊠ (w 2))),
   .v 231 ((((((v 194) ⊠ (k (83 / 4000))) ⊞ ((v 347) ⊠ (v 86))) ⊞ ((v 231) ⊠ (v 77))) ⊞ ((v 229) ⊠ (.neg (k (1243 / 1000000))))) ⊞ ((v 151) ⊠ (.neg (k (3163 / 250000))))),
   .v 347 ((((((((((v 218) ⊠ (v 123)) ⊞ ((v 281) ⊠ (v 68))) ⊞ ((v 269) ⊠ (v 271))) ⊞ ((v 145) ⊠ (v 61))) ⊞ ((v 32) ⊠ (v 129))) ⊞ ((v 105) ⊠ (v 52))) ⊞ ((v 110) ⊠ (v 318))) ⊞ ((v 295) ⊠ (v 53))) ⊞ ((v 231) ⊠ (w 3))),
   .v 307 ((v 307) ⊞ (v 127)),
   .v 307 ((((((((((((((v 7) ⊠ (k (83 / 4000))) ⊞ ((v 217) ⊠ (v 86))) ⊞ ((v 309) ⊠ (v 77))) ⊞ ((v 262) ⊠ (v 350))) ⊞ ((v 188) ⊠ (v 69))) ⊞ ((v 292) ⊠ (v 340))) ⊞ ((v 117) ⊠ (v 80))) ⊞ ((v 215) ⊠ (v 199))) ⊞ ((v 314) ⊠ (v 58))) ⊞ ((v 285) ⊠ (v 242))) ⊞ ((v 107) ⊠ (v 55))) ⊞ ((v 307) ⊠ (v 71))) ⊞ ((v 307) ⊠ (v 71))),
   .hes 58 ((((((((((v 286) ⊠ (v 250)) ⊞ ((v 126) ⊠ (v 90))) ⊞ ((v 259) ⊠ (v 350))) ⊞ ((v 337) ⊠ (v 69))) ⊞ ((v 272) ⊠ (v 84))) ⊞ ((v 41) ⊠ (v 56))) ⊞ ((v 213) ⊠ (v 199))) ⊞ ((v 208) ⊠ (v 58))) ⊞ (v 307)),
   .v 271 (((((((((v 286) ⊠ (v 123)) ⊞ ((v 126) ⊠ (v 68))) ⊞ ((v 259) ⊠ (v 271))) ⊞ ((v 337) ⊠ (v 61))) ⊞ ((v 272) ⊠ (v 129))) ⊞ ((v 41) ⊠ (v 52))) ⊞ ((v 213) ⊠ (v 318))) ⊞ ((v 208) ⊠ (v 53))),
   .v 307 ((v 307) ⊟ ((v 271) ⊠ (w 3))),
   .v 208 ((((v 216) ⊠ (v 43)) ⊞ ((v 100) ⊠ (v 42))) ⊞ ((((((((((v 286) ⊠ (v 204)) ⊞ ((v 126) ⊠ (v 67))) ⊞ ((v 259) ⊠ (v 280))) ⊞ ((v 337) ⊠ (v 60))) ⊞ ((v 272) ⊠ (v 318))) ⊞ ((v 41) ⊠ (v 53))) ⊞ ((v 213) ⊠ (v 101))) ⊞ ((v 208) ⊠ (v 54))) ⊠ (.neg (k 1)))),
   .v 330 (((((v 330) ⊠ (.neg (k (38 / 125)))) ⊞ ((v 347) ⊠ (v 28))) ⊞ ((v 307) ⊠ (v 30))) ⊞ ((v 208) ⊠ (w 2))),
   .v 295 (((((((((v 218) ⊠ (v 204)) ⊞ ((v 281) ⊠ (v 67))) ⊞ ((v 269) ⊠ (v 280))) ⊞ ((v 145) ⊠ (v 60))) ⊞ ((v 32) ⊠ (v 318))) ⊞ ((v 105) ⊠ (v 53))) ⊞ ((v 110) ⊠ (v 101))) ⊞ ((v 295) ⊠ (v 54))),
   .hes 57 ((((((v 216) ⊠ (v 65)) ⊞ ((v 100) ⊠ (v 44))) ⊞ ((v 271) ⊠ (v 33))) ⊞ ((v 231) ⊠ (v 35))) ⊞ (v 295)),
   .v 14 ((((v 14) ⊠ (.neg (k (38 / 125)))) ⊞ ((v 271) ⊠ (v 28))) ⊞ ((v 231) ⊠ (v 30))),
   .v 295 (((((v 112) ⊠ (v 43)) ⊞ ((v 335) ⊠ (v 42))) ⊞ ((v 295) ⊠ (.neg (k 1)))) ⊟ ((v 14) ⊠ (w 2))),
   .v 271 (((v 271) ⊠ (v 31)) ⊞ ((v 231) ⊠ (v 28))),
   .v 307 (((v 347) ⊠ (v 31)) ⊞ ((v 307) ⊠ (v 28))),
   .hes 56 ((((((v 173) ⊠ (v 40)) ⊞ ((v 334) ⊠ (v 21))) ⊞ ((v 14) ⊠ (v 13))) ⊞ ((v 208) ⊠ (v 15))) ⊞ (v 307)),
   .v 14 (((((v 173) ⊠ (v 19)) ⊞ ((v 334) ⊠ (v 18))) ⊞ ((v 14) ⊠ (v 9))) ⊞ ((v 208) ⊠ (v 10))),
   .hes 54 ((((((((v 6) ⊠ (v 19)) ⊞ ((v 3) ⊠ (v 18))) ⊞ ((v 330) ⊠ (v 9))) ⊞ ((v 295) ⊠ (v 10))) ⊞ ((v 271) ⊠ (w 1))) ⊠ (v 4)) ⊞ (((v 307) ⊟ ((v 14) ⊠ (w 1))) ⊠ (v 0))),
   .hes 55 (((((((v 6) ⊠ (v 20)) ⊞ ((v 3) ⊠ (v 38))) ⊞ ((v 330) ⊠ (v 10))) ⊞ ((v 295) ⊠ (v 11))) ⊞ ((v 14) ⊠ (v 2))) ⊞ ((v 271) ⊠ (v 5))),
   .v 14 ((w 6) ⊠ (v 4)),
   .v 271 (((w 7) ⊠ (v 20)) ⊞ ((v 14) ⊠ (v 19))),
   .v 295 (((w 7) ⊠ (v 11)) ⊞ ((v 14) ⊠ (v 10))),
   .v 330 (((v 271) ⊠ (v 30)) ⊞ ((v 295) ⊠ (v 42))),
   .v 3 (((w 7) ⊠ (v 10)) ⊞ ((v 14) ⊠ (v 9))),
   .v 14 (((((w 7) ⊠ (v 38)) ⊞ ((v 14) ⊠ (v 18))) ⊠ (.neg (k 1))) ⊞ ((v 3) ⊠ (.neg (k (38 / 125))))),
   .v 271 (((v 271) ⊠ (v 28)) ⊞ ((v 295) ⊠ (v 43))),
   .v 295 ((w 9) ⊞ ((v 295) ⊠ (.neg (k 1)))),
   .v 6 ((w 8) ⊞ ((w 6) ⊠ (v 0))),
   .v 307 (((v 6) ⊠ (v 31)) ⊞ ((v 3) ⊠ (v 28))),
   .v 208 (((((v 14) ⊠ (v 62)) ⊞ ((v 271) ⊠ (v 53))) ⊞ ((v 295) ⊠ (v 60))) ⊞ ((v 307) ⊠ (v 61))),
   .v 6 (((w 10) ⊞ ((v 6) ⊠ (v 28))) ⊞ ((v 3) ⊠ (v 30))),
   .v 3 (((v 295) ⊠ (v 54)) ⊞ ((v 307) ⊠ (v 53))),
   .v 173 (((v 295) ⊠ (v 53)) ⊞ ((v 307) ⊠ (v 52))),
   .v 334 ((((v 330) ⊠ (v 79)) ⊞ ((v 208) ⊠ (v 77))) ⊞ ((v 173) ⊠ (v 78))),
   .v 347 ((w 11) ⊞ (v 173)),
   .v 231 (((v 334) ⊠ (k (61899 / 40000))) ⊞ ((v 347) ⊠ (k (61899 / 1600000)))),
   .v 335 ((((v 330) ⊠ (v 77)) ⊞ ((v 208) ⊠ (v 76))) ⊞ ((v 173) ⊠ (v 81))),
   .v 112 ((v 335) ⊠ (k (61899 / 40000))),
   .v 307 (((((((v 14) ⊠ (v 53)) ⊞ ((v 271) ⊠ (v 52))) ⊞ ((v 295) ⊠ (v 67))) ⊞ ((v 307) ⊠ (v 68))) ⊞ ((v 6) ⊠ (k (83 / 4000)))) ⊞ ((v 3) ⊠ (.neg (k (23 / 125))))),
   .v 295 (((v 6) ⊠ (v 86)) ⊞ ((v 3) ⊠ (v 77))),
   .v 271 (((v 6) ⊠ (v 77)) ⊞ ((v 3) ⊠ (v 76))),
   .v 14 (((((v 307) ⊠ (.neg (k (61899 / 1600000)))) ⊞ ((v 347) ⊠ (.neg (k (829 / 1000000))))) ⊞ ((v 295) ⊠ (k (3227 / 1000000)))) ⊞ ((v 271) ⊠ (k (99 / 500000)))),
   .v 216 ((((v 347) ⊠ (k (3 / 200000))) ⊞ ((v 295) ⊠ (k (99 / 500000)))) ⊞ ((v 271) ⊠ (k (10737 / 1000000)))),
   .v 100 ((v 335) ⊠ (k (61899 / 40000))),
   .v 145 ((k 0) ⊟ (v 100)),
   .v 105 (((v 307) ⊠ (k (61899 / 40000))) ⊞ (((k 0) ⊟ (v 295)) ⊠ (k (61899 / 1600000)))),
   .v 281 ((((v 145) ⊠ (v 91)) ⊞ ((v 105) ⊠ (v 85))) ⊞ ((v 112) ⊠ (w 5))),
   .v 101 ((v 334) ⊠ (.neg (k (61899 / 40000)))),
   .v 280 ((v 347) ⊠ (k (61899 / 1600000))),
   .v 204 (((k 0) ⊟ (v 101)) ⊞ (v 280)),
   .v 110 ((k 0) ⊟ (v 105)),
   .v 269 ((((v 204) ⊠ (v 91)) ⊞ ((v 110) ⊠ (v 87))) ⊟ ((v 231) ⊠ (w 5))),
   .v 32 (((((k 0) ⊟ (v 347)) ⊠ (k (3 / 200000))) ⊞ ((v 295) ⊠ (k (99 / 500000)))) ⊞ ((v 271) ⊠ (k (121 / 20000)))),
   .v 334 (((((v 334) ⊠ (k (61899 / 1600000))) ⊞ ((v 347) ⊠ (.neg (k (751 / 100000))))) ⊞ (((k 0) ⊟ (v 295)) ⊠ (.neg (k (829 / 1000000))))) ⊞ ((v 271) ⊠ (k (3 / 200000)))),
   .v 218 (((k 0) ⊟ (v 347)) ⊠ (k (99 / 500000))),
   .v 335 (((((k 0) ⊟ (v 335)) ⊠ (k (61899 / 1600000))) ⊞ (v 218)) ⊟ (((k 0) ⊟ (v 271)) ⊠ (.neg (k (829 / 1000000))))),
   .v 318 ((((((((v 100) ⊠ (v 89)) ⊞ ((v 110) ⊠ (v 82))) ⊞ ((v 32) ⊠ (v 91))) ⊞ ((v 334) ⊠ (v 85))) ⊞ ((v 335) ⊠ (v 87))) ⊞ ((v 335) ⊠ (v 87))) ⊞ ((v 216) ⊠ (w 5))),
   .v 280 ((v 101) ⊟ (v 280)),
   .v 271 (((((v 307) ⊠ (k (61899 / 1600000))) ⊞ ((v 347) ⊠ (.neg (k (829 / 1000000))))) ⊞ (((k 0) ⊟ (v 295)) ⊠ (.neg (k (73 / 50000))))) ⊞ (((k 0) ⊟ (v 271)) ⊠ (k (99 / 500000)))),
   .v 218 (((k 0) ⊟ (v 218)) ⊟ ((v 295) ⊠ (k (3 / 200000)))),
   .v 295 ((((((((v 280) ⊠ (v 89)) ⊞ ((v 105) ⊠ (v 94))) ⊞ ((v 271) ⊠ (v 91))) ⊞ ((v 334) ⊠ (v 87))) ⊞ ((v 218) ⊠ (v 85))) ⊞ ((v 218) ⊠ (v 85))) ⊟ ((v 14) ⊠ (w 5))),
   .v 307 ((((v 173) ⊠ (v 93)) ⊞ ((v 231) ⊠ (v 57))) ⊞ ((v 281) ⊠ (v 58))),
   .v 347 ((((v 173) ⊠ (v 97)) ⊞ ((v 112) ⊠ (v 57))) ⊞ ((v 269) ⊠ (v 58))),
   .v 101 ((k 0) ⊟ (v 248)),
   .v 337 (.neg (v 247)),
   .v 41 (((v 101) ⊠ (v 55)) ⊞ ((v 337) ⊠ (v 71))),
   .v 126 (.neg (v 247)),
   .v 213 (((k (83 / 4000)) ⊠ (v 247)) ⊞ ((k (23 / 125)) ⊠ (v 101))),
   .v 259 ((((v 126) ⊠ (v 64)) ⊞ ((v 101) ⊠ (v 80))) ⊞ ((v 213) ⊠ (v 58))),
   .v 272 (((k (23 / 125)) ⊠ (v 247)) ⊟ ((k (83 / 4000)) ⊠ (v 101))),
   .v 286 (((v 41) ⊠ (v 87)) ⊞ ((v 87) ⊠ (v 41))),
   .v 123 ((((k (61899 / 40000)) ⊠ (((v 41) ⊠ (v 89)) ⊟ ((v 91) ⊠ (v 259)))) ⊞ ((k (61899 / 40000)) ⊠ (((((v 101) ⊠ (v 45)) ⊞ ((v 247) ⊠ (v 70))) ⊞ ((v 272) ⊠ (v 57))) ⊞ ((v 259) ⊠ (w 5))))) ⊟ ((k (61899 / 1600000)) ⊠ (v 286))),
   .v 129 ((((v 101) ⊠ (v 64)) ⊞ ((v 247) ⊠ (v 80))) ⊞ ((v 272) ⊠ (v 58))),
   .v 350 (.neg (v 129)),
   .v 84 (((v 247) ⊠ (v 55)) ⊞ ((v 101) ⊠ (v 71))),
   .v 199 (((v 84) ⊠ (v 87)) ⊞ ((v 85) ⊠ (v 41))),
   .v 250 ((((k (61899 / 40000)) ⊠ (((((v 126) ⊠ (v 45)) ⊞ ((v 101) ⊠ (v 70))) ⊞ ((v 213) ⊠ (v 57))) ⊞ ((v 350) ⊠ (w 5)))) ⊞ ((k (61899 / 1600000)) ⊠ (v 199))) ⊞ ((.neg (k (61899 / 40000))) ⊠ (((v 84) ⊠ (v 89)) ⊟ ((v 91) ⊠ (v 129))))),
   .v 107 (.neg (v 84)),
   .v 309 ((((v 337) ⊠ (v 36)) ⊞ ((v 101) ⊠ (v 59))) ⊞ ((v 107) ⊠ (w 5))),
   .v 217 ((((v 101) ⊠ (v 36)) ⊞ ((v 247) ⊠ (v 59))) ⊞ ((v 41) ⊠ (w 5))),
   .v 117 ((v 41) ⊠ (v 91)),
   .v 314 ((v 84) ⊠ (v 91)),
   .v 286 (((((((k (99 / 500000)) ⊠ (v 309)) ⊞ ((k (10737 / 1000000)) ⊠ (v 217))) ⊞ ((k (121 / 20000)) ⊠ (v 117))) ⊞ ((k (3 / 200000)) ⊠ (v 199))) ⊟ ((k (99 / 500000)) ⊠ (v 314))) ⊟ ((.neg (k (829 / 1000000))) ⊠ ((k 0) ⊟ (v 286)))),
   .v 314 ((((((((k (3227 / 1000000)) ⊠ (v 309)) ⊞ ((k (99 / 500000)) ⊠ (v 217))) ⊞ ((k (99 / 500000)) ⊠ (v 117))) ⊞ ((k (3 / 200000)) ⊠ ((k 0) ⊟ (((v 84) ⊠ (v 85)) ⊞ ((v 85) ⊠ (v 84)))))) ⊟ ((k (61899 / 1600000)) ⊠ ((((v 84) ⊠ (v 94)) ⊞ ((v 85) ⊠ (v 259))) ⊟ (((v 41) ⊠ (v 82)) ⊞ ((v 87) ⊠ (v 129)))))) ⊟ ((.neg (k (73 / 50000))) ⊠ (v 314))) ⊟ ((.neg (k (829 / 1000000))) ⊠ (v 199))),
   .v 117 ((((v 330) ⊠ (v 126)) ⊞ ((v 208) ⊠ (v 101))) ⊞ ((v 173) ⊠ (v 213))),
   .v 217 ((v 117) ⊠ (k (61899 / 40000))),
   .v 309 ((((v 330) ⊠ (v 101)) ⊞ ((v 208) ⊠ (v 247))) ⊞ ((v 173) ⊠ (v 272))),
   .v 199 ((v 309) ⊠ (k (61899 / 40000))),
   .v 188 (((v 6) ⊠ (v 337)) ⊞ ((v 3) ⊠ (v 101))),
   .v 7 (((v 6) ⊠ (v 101)) ⊞ ((v 3) ⊠ (v 247))),
   .v 242 (((v 188) ⊠ (k (3227 / 1000000))) ⊞ ((v 7) ⊠ (k (99 / 500000))))]

/-- HyAInverseDynHessian.cpp:2251-2376. -/
def part15 : List Stmt :=
  [.v 340 (((v 188) ⊠ (k (99 / 500000))) ⊞ ((v 7) ⊠ (k (10737 / 1000000)))),
   .v 285 ((v 309) ⊠ (k (61899 / 40000))),
   .v 292 ((k 0) ⊟ (v 285)),
   .v 215 (((k 0) ⊟ (v 188)) ⊠ (k (61899 / 1600000))),
   .v 262 (((((v 292) ⊠ (v 91)) ⊞ ((v 105) ⊠ (v 84))) ⊞ ((v 215) ⊠ (v 85))) ⊞ ((v 199) ⊠ (w 5))),
   .v 127 ((v 117) ⊠ (.neg (k (61899 / 40000)))),
   .v 229 ((k 0) ⊟ (v 127)),
   .v 194 ((k 0) ⊟ (v 215)),
   .v 151 (((((v 229) ⊠ (v 91)) ⊞ ((v 110) ⊠ (v 41))) ⊞ ((v 194) ⊠ (v 87))) ⊟ ((v 217) ⊠ (w 5))),
   .v 237 (((v 188) ⊠ (k (99 / 500000))) ⊞ ((v 7) ⊠ (k (121 / 20000)))),
   .v 300 ((((v 117) ⊠ (k (61899 / 1600000))) ⊞ (((k 0) ⊟ (v 188)) ⊠ (.neg (k (829 / 1000000))))) ⊞ ((v 7) ⊠ (k (3 / 200000)))),
   .v 309 (((k 0) ⊟ (v 309)) ⊠ (k (61899 / 1600000))),
   .v 27 (((k 0) ⊟ (v 7)) ⊠ (.neg (k (829 / 1000000)))),
   .v 158 ((v 309) ⊟ (v 27)),
   .v 158 ((((((((((((v 285) ⊠ (v 89)) ⊞ ((v 110) ⊠ (v 129))) ⊞ ((v 194) ⊠ (v 82))) ⊞ ((v 237) ⊠ (v 91))) ⊞ ((v 334) ⊠ (v 84))) ⊞ ((v 300) ⊠ (v 85))) ⊞ ((v 335) ⊠ (v 41))) ⊞ ((v 335) ⊠ (v 41))) ⊞ ((v 158) ⊠ (v 87))) ⊞ ((v 158) ⊠ (v 87))) ⊞ ((v 340) ⊠ (w 5))),
   .v 194 ((((k 0) ⊟ (v 188)) ⊠ (.neg (k (73 / 50000)))) ⊞ (((k 0) ⊟ (v 7)) ⊠ (k (99 / 500000)))),
   .v 335 ((v 188) ⊠ (k (3 / 200000))),
   .v 110 ((k 0) ⊟ (v 335)),
   .v 110 ((((((((((((v 127) ⊠ (v 89)) ⊞ ((v 105) ⊠ (v 259))) ⊞ ((v 215) ⊠ (v 94))) ⊞ ((v 194) ⊠ (v 91))) ⊞ ((v 334) ⊠ (v 41))) ⊞ ((v 300) ⊠ (v 87))) ⊞ ((v 218) ⊠ (v 84))) ⊞ ((v 218) ⊠ (v 84))) ⊞ ((v 110) ⊠ (v 85))) ⊞ ((v 110) ⊠ (v 85))) ⊟ ((v 242) ⊠ (w 5))),
   .v 300 ((((v 173) ⊠ (v 250)) ⊞ ((v 217) ⊠ (v 57))) ⊞ ((v 262) ⊠ (v 58))),
   .v 173 ((((v 173) ⊠ (v 123)) ⊞ ((v 199) ⊠ (v 57))) ⊞ ((v 151) ⊠ (v 58))),
   .hes 65 ((((((k 0) ⊟ (((((((((((((((v 330) ⊠ (v 97)) ⊞ ((v 208) ⊠ (v 93))) ⊞ ((v 6) ⊠ (v 102))) ⊞ ((v 3) ⊠ (v 103))) ⊞ ((v 231) ⊠ (v 70))) ⊞ ((v 112) ⊠ (v 45))) ⊞ ((v 14) ⊠ (v 59))) ⊞ ((v 216) ⊠ (v 36))) ⊞ ((v 281) ⊠ (v 80))) ⊞ ((v 269) ⊠ (v 64))) ⊞ ((v 318) ⊠ (v 55))) ⊞ ((v 295) ⊠ (v 71))) ⊞ ((v 307) ⊠ (k (23 / 125)))) ⊞ (((k 0) ⊟ (v 347)) ⊠ (k (83 / 4000))))) ⊠ (v 77)) ⊟ ((((((((((((((((v 330) ⊠ (v 123)) ⊞ ((v 208) ⊠ (v 250))) ⊞ ((v 6) ⊠ (v 286))) ⊞ ((v 3) ⊠ (v 314))) ⊞ ((v 217) ⊠ (v 70))) ⊞ ((v 199) ⊠ (v 45))) ⊞ ((v 242) ⊠ (v 59))) ⊞ ((v 340) ⊠ (v 36))) ⊞ ((v 262) ⊠ (v 80))) ⊞ ((v 151) ⊠ (v 64))) ⊞ ((v 158) ⊠ (v 55))) ⊞ ((v 110) ⊠ (v 71))) ⊞ ((v 300) ⊠ (k (23 / 125)))) ⊞ (((k 0) ⊟ (v 173)) ⊠ (k (83 / 4000)))) ⊠ (v 248))) ⊞ ((((((((((((v 208) ⊠ (v 123)) ⊞ ((v 3) ⊠ (v 286))) ⊞ ((v 199) ⊠ (v 70))) ⊞ ((v 340) ⊠ (v 59))) ⊞ ((v 151) ⊠ (v 80))) ⊞ ((v 110) ⊠ (v 55))) ⊟ ((((v 330) ⊠ (v 250)) ⊞ ((v 217) ⊠ (v 45))) ⊞ ((v 262) ⊠ (v 64)))) ⊞ ((v 300) ⊠ (k (83 / 4000)))) ⊞ ((v 173) ⊠ (k (23 / 125)))) ⊟ ((((v 6) ⊠ (v 314)) ⊞ ((v 242) ⊠ (v 36))) ⊞ ((v 158) ⊠ (v 71)))) ⊠ (v 247))) ⊟ ((((((((((((v 208) ⊠ (v 97)) ⊞ ((v 3) ⊠ (v 102))) ⊞ ((v 112) ⊠ (v 70))) ⊞ ((v 216) ⊠ (v 59))) ⊞ ((v 269) ⊠ (v 80))) ⊞ ((v 295) ⊠ (v 55))) ⊟ ((((v 330) ⊠ (v 93)) ⊞ ((v 231) ⊠ (v 45))) ⊞ ((v 281) ⊠ (v 64)))) ⊞ ((v 307) ⊠ (k (83 / 4000)))) ⊞ ((v 347) ⊠ (k (23 / 125)))) ⊟ ((((v 6) ⊠ (v 103)) ⊞ ((v 14) ⊠ (v 36))) ⊞ ((v 318) ⊠ (v 71)))) ⊠ (v 76))),
   .v 127 (((((v 100) ⊠ (v 41)) ⊞ ((v 285) ⊠ (v 87))) ⊞ ((v 280) ⊠ (v 84))) ⊞ ((v 127) ⊠ (v 85))),
   .v 285 (((((v 231) ⊠ (v 101)) ⊞ ((v 217) ⊠ (v 77))) ⊞ ((v 112) ⊠ (v 247))) ⊞ ((v 199) ⊠ (v 76))),
   .v 280 ((v 127) ⊞ ((v 285) ⊠ (w 4))),
   .v 100 ((v 188) ⊠ (.neg (k (61899 / 1600000)))),
   .v 173 ((((((v 281) ⊠ (v 101)) ⊞ ((v 262) ⊠ (v 77))) ⊞ ((v 269) ⊠ (v 247))) ⊞ ((v 151) ⊠ (v 76))) ⊟ ((v 100) ⊠ (w 4))),
   .v 300 (((((v 231) ⊠ (v 126)) ⊞ ((v 217) ⊠ (v 79))) ⊞ ((v 112) ⊠ (v 101))) ⊞ ((v 199) ⊠ (v 77))),
   .v 314 ((((v 280) ⊠ (v 52)) ⊞ ((v 173) ⊠ (v 53))) ⊞ ((v 300) ⊠ (w 3))),
   .v 286 (((v 100) ⊠ (v 52)) ⊞ ((v 285) ⊠ (v 53))),
   .v 126 ((((((v 281) ⊠ (v 126)) ⊞ ((v 262) ⊠ (v 79))) ⊞ ((v 269) ⊠ (v 101))) ⊞ ((v 151) ⊠ (v 77))) ⊟ ((v 286) ⊠ (w 3))),
   .v 250 (((v 100) ⊠ (v 53)) ⊞ ((v 285) ⊠ (v 62))),
   .v 123 ((v 250) ⊠ (.neg (k 1))),
   .v 347 ((((v 314) ⊠ (v 28)) ⊞ ((v 126) ⊠ (v 30))) ⊞ ((v 123) ⊠ (w 2))),
   .v 307 (((v 280) ⊠ (v 53)) ⊞ ((v 173) ⊠ (v 62))),
   .v 3 (((v 286) ⊠ (v 28)) ⊞ ((v 300) ⊠ (v 30))),
   .v 6 (((v 307) ⊠ (.neg (k 1))) ⊟ ((v 3) ⊠ (w 2))),
   .v 335 (((v 309) ⊞ (v 335)) ⊞ (v 27)),
   .v 335 (((((((((((v 145) ⊠ (v 259)) ⊞ ((v 292) ⊠ (v 94))) ⊞ ((v 204) ⊠ (v 129))) ⊞ ((v 229) ⊠ (v 82))) ⊞ ((v 32) ⊠ (v 41))) ⊞ ((v 237) ⊠ (v 87))) ⊞ ((v 271) ⊠ (v 84))) ⊞ ((v 194) ⊠ (v 85))) ⊞ ((v 335) ⊠ (v 91))) ⊞ ((v 335) ⊠ (v 91))),
   .hes 71 ((((((((((v 231) ⊠ (v 350)) ⊞ ((v 217) ⊠ (v 83))) ⊞ ((v 112) ⊠ (v 259))) ⊞ ((v 199) ⊠ (v 94))) ⊞ ((v 14) ⊠ (v 107))) ⊞ ((v 242) ⊠ (v 98))) ⊞ ((v 216) ⊠ (v 41))) ⊞ ((v 340) ⊠ (v 87))) ⊞ (v 335)),
   .v 107 ((((((v 100) ⊠ (.neg (k (23 / 125)))) ⊞ ((v 14) ⊠ (v 101))) ⊞ ((v 242) ⊠ (v 77))) ⊞ ((v 216) ⊠ (v 247))) ⊞ ((v 340) ⊠ (v 76))),
   .v 335 ((((((v 335) ⊞ ((v 281) ⊠ (v 213))) ⊞ ((v 262) ⊠ (v 78))) ⊞ ((v 269) ⊠ (v 272))) ⊞ ((v 151) ⊠ (v 81))) ⊞ ((v 107) ⊠ (w 4))),
   .v 7 ((((((((v 117) ⊠ (k (61899 / 1600000))) ⊞ ((v 188) ⊠ (.neg (k (829 / 1000000))))) ⊞ ((v 7) ⊠ (k (3 / 200000)))) ⊞ ((v 231) ⊠ (v 213))) ⊞ ((v 217) ⊠ (v 78))) ⊞ ((v 112) ⊠ (v 272))) ⊞ ((v 199) ⊠ (v 81))),
   .v 247 (((((((v 127) ⊠ (.neg (k (23 / 125)))) ⊞ ((v 318) ⊠ (v 101))) ⊞ ((v 158) ⊠ (v 77))) ⊞ ((v 295) ⊠ (v 247))) ⊞ ((v 110) ⊠ (v 76))) ⊟ ((v 7) ⊠ (w 4))),
   .v 340 ((((((v 100) ⊠ (k (83 / 4000))) ⊞ ((v 14) ⊠ (v 337))) ⊞ ((v 242) ⊠ (v 86))) ⊞ ((v 216) ⊠ (v 101))) ⊞ ((v 340) ⊠ (v 77))),
   .v 242 ((((((v 280) ⊠ (v 68)) ⊞ ((v 173) ⊠ (v 61))) ⊞ ((v 335) ⊠ (v 52))) ⊞ ((v 247) ⊠ (v 53))) ⊞ ((v 340) ⊠ (w 3))),
   .v 127 ((((((v 127) ⊠ (k (83 / 4000))) ⊞ ((v 318) ⊠ (v 337))) ⊞ ((v 158) ⊠ (v 86))) ⊞ ((v 295) ⊠ (v 101))) ⊞ ((v 110) ⊠ (v 77))),
   .hes 70 ((((((v 100) ⊠ (v 90)) ⊞ ((v 285) ⊠ (v 69))) ⊞ ((v 7) ⊠ (v 56))) ⊞ ((v 107) ⊠ (v 58))) ⊞ (v 127)),
   .v 90 (((((v 100) ⊠ (v 68)) ⊞ ((v 285) ⊠ (v 61))) ⊞ ((v 7) ⊠ (v 52))) ⊞ ((v 107) ⊠ (v 53))),
   .v 127 ((v 127) ⊟ ((v 90) ⊠ (w 3))),
   .v 7 ((((v 286) ⊠ (v 43)) ⊞ ((v 300) ⊠ (v 42))) ⊞ ((((((v 100) ⊠ (v 67)) ⊞ ((v 285) ⊠ (v 60))) ⊞ ((v 7) ⊠ (v 53))) ⊞ ((v 107) ⊠ (v 54))) ⊠ (.neg (k 1)))),
   .v 307 (((((v 307) ⊠ (.neg (k (38 / 125)))) ⊞ ((v 242) ⊠ (v 28))) ⊞ ((v 127) ⊠ (v 30))) ⊞ ((v 7) ⊠ (w 2))),
   .v 247 (((((v 280) ⊠ (v 67)) ⊞ ((v 173) ⊠ (v 60))) ⊞ ((v 335) ⊠ (v 53))) ⊞ ((v 247) ⊠ (v 54))),
   .hes 69 ((((((v 286) ⊠ (v 65)) ⊞ ((v 300) ⊠ (v 44))) ⊞ ((v 90) ⊠ (v 33))) ⊞ ((v 340) ⊠ (v 35))) ⊞ (v 247)),
   .v 250 ((((v 250) ⊠ (.neg (k (38 / 125)))) ⊞ ((v 90) ⊠ (v 28))) ⊞ ((v 340) ⊠ (v 30))),
   .v 247 (((((v 314) ⊠ (v 43)) ⊞ ((v 126) ⊠ (v 42))) ⊞ ((v 247) ⊠ (.neg (k 1)))) ⊟ ((v 250) ⊠ (w 2))),
   .v 90 (((v 90) ⊠ (v 31)) ⊞ ((v 340) ⊠ (v 28))),
   .v 127 (((v 242) ⊠ (v 31)) ⊞ ((v 127) ⊠ (v 28))),
   .hes 68 ((((((v 3) ⊠ (v 40)) ⊞ ((v 123) ⊠ (v 21))) ⊞ ((v 250) ⊠ (v 13))) ⊞ ((v 7) ⊠ (v 15))) ⊞ (v 127)),
   .v 250 (((((v 3) ⊠ (v 19)) ⊞ ((v 123) ⊠ (v 18))) ⊞ ((v 250) ⊠ (v 9))) ⊞ ((v 7) ⊠ (v 10))),
   .hes 66 ((((((((v 347) ⊠ (v 19)) ⊞ ((v 6) ⊠ (v 18))) ⊞ ((v 307) ⊠ (v 9))) ⊞ ((v 247) ⊠ (v 10))) ⊞ ((v 90) ⊠ (w 1))) ⊠ (v 4)) ⊞ (((v 127) ⊟ ((v 250) ⊠ (w 1))) ⊠ (v 0))),
   .hes 67 (((((((v 347) ⊠ (v 20)) ⊞ ((v 6) ⊠ (v 38))) ⊞ ((v 307) ⊠ (v 10))) ⊞ ((v 247) ⊠ (v 11))) ⊞ ((v 250) ⊠ (v 2))) ⊞ ((v 90) ⊠ (v 5))),
   .v 250 ((w 6) ⊠ (v 4)),
   .v 90 (((w 7) ⊠ (v 20)) ⊞ ((v 250) ⊠ (v 19))),
   .v 247 (((w 7) ⊠ (v 11)) ⊞ ((v 250) ⊠ (v 10))),
   .v 307 (((v 90) ⊠ (v 30)) ⊞ ((v 247) ⊠ (v 42))),
   .v 6 (((w 7) ⊠ (v 38)) ⊞ ((v 250) ⊠ (v 18))),
   .v 347 (((w 7) ⊠ (v 10)) ⊞ ((v 250) ⊠ (v 9))),
   .v 5 (((v 6) ⊠ (.neg (k 1))) ⊞ ((v 347) ⊠ (.neg (k (38 / 125))))),
   .v 2 (((v 90) ⊠ (v 28)) ⊞ ((v 247) ⊠ (v 43))),
   .v 127 ((w 9) ⊞ ((v 247) ⊠ (.neg (k 1)))),
   .v 7 ((w 6) ⊠ (v 0)),
   .v 3 ((w 8) ⊞ (v 7)),
   .v 123 (((v 3) ⊠ (v 31)) ⊞ ((v 347) ⊠ (v 28))),
   .v 40 (((((v 5) ⊠ (v 62)) ⊞ ((v 2) ⊠ (v 53))) ⊞ ((v 127) ⊠ (v 60))) ⊞ ((v 123) ⊠ (v 61))),
   .v 21 (((v 127) ⊠ (v 53)) ⊞ ((v 123) ⊠ (v 52))),
   .v 15 ((((v 307) ⊠ (v 77)) ⊞ ((v 40) ⊠ (v 76))) ⊞ ((v 21) ⊠ (v 81))),
   .v 13 ((v 15) ⊠ (k (61899 / 40000))),
   .v 242 ((v 9) ⊠ (v 4)),
   .v 340 (((v 28) ⊠ (v 242)) ⊞ ((v 31) ⊠ (v 0))),
   .v 126 ((v 10) ⊠ (v 4)),
   .v 314 ((.neg (k 1)) ⊠ (v 126)),
   .v 286 (((v 53) ⊠ (v 340)) ⊞ ((v 54) ⊠ (v 314))),
   .v 300 (((v 30) ⊠ (v 242)) ⊞ ((v 28) ⊠ (v 0))),
   .v 65 (((v 77) ⊠ (v 286)) ⊞ ((v 86) ⊠ (v 300))),
   .v 44 ((((v 307) ⊠ (v 79)) ⊞ ((v 40) ⊠ (v 77))) ⊞ ((v 21) ⊠ (v 78))),
   .v 35 ((v 44) ⊠ (.neg (k (61899 / 40000)))),
   .v 33 ((w 11) ⊞ (v 21)),
   .v 335 ((v 33) ⊠ (k (61899 / 1600000))),
   .v 173 ((v 35) ⊟ (v 335)),
   .v 280 (((v 76) ⊠ (v 286)) ⊞ ((v 77) ⊠ (v 300))),
   .v 107 (((v 13) ⊠ (v 65)) ⊞ ((v 173) ⊠ (v 280))),
   .v 100 (((v 40) ⊠ (k (2629 / 1250))) ⊞ ((v 21) ⊠ (k (28919 / 500000)))),
   .v 285 ((k 0) ⊟ (v 100)),
   .v 69 ((v 307) ⊠ (k (2629 / 1250))),
   .v 58 (((v 107) ⊞ ((v 285) ⊠ (v 300))) ⊞ ((v 69) ⊠ (v 286))),
   .v 56 ((k 0) ⊟ (v 13)),
   .v 110 (((v 52) ⊠ (v 340)) ⊞ ((v 53) ⊠ (v 314))),
   .v 158 (((((v 5) ⊠ (v 53)) ⊞ ((v 2) ⊠ (v 52))) ⊞ ((v 127) ⊠ (v 67))) ⊞ ((v 123) ⊠ (v 68))),
   .v 337 (((v 3) ⊠ (v 28)) ⊞ ((v 347) ⊠ (v 30)))]

/-- HyAInverseDynHessian.cpp:2377-2493. -/
def part16 : List Stmt :=
  [.v 101 ((w 10) ⊞ (v 337)),
   .v 295 (((v 127) ⊠ (v 54)) ⊞ ((v 123) ⊠ (v 53))),
   .v 318 (((v 158) ⊞ ((v 101) ⊠ (k (83 / 4000)))) ⊞ ((v 295) ⊠ (.neg (k (23 / 125))))),
   .v 216 (((v 101) ⊠ (v 86)) ⊞ ((v 295) ⊠ (v 77))),
   .v 14 (((v 318) ⊠ (k (61899 / 40000))) ⊞ (((k 0) ⊟ (v 216)) ⊠ (k (61899 / 1600000)))),
   .v 188 (((v 56) ⊠ (v 110)) ⊞ ((v 14) ⊠ (v 280))),
   .v 335 (((k 0) ⊟ (v 35)) ⊞ (v 335)),
   .v 35 ((k 0) ⊟ (v 14)),
   .v 199 (((v 335) ⊠ (v 110)) ⊞ ((v 35) ⊠ (v 65))),
   .v 217 (((v 158) ⊠ (.neg (k (2629 / 1250)))) ⊞ ((v 295) ⊠ (k (28919 / 500000)))),
   .v 117 ((k 0) ⊟ (v 217)),
   .v 272 ((k 0) ⊟ (v 69)),
   .v 213 (((((v 188) ⊠ (v 77)) ⊞ ((v 199) ⊠ (v 76))) ⊞ ((v 117) ⊠ (v 300))) ⊞ ((v 272) ⊠ (v 110))),
   .v 112 ((((v 307) ⊠ (k (8711861 / 5000000))) ⊞ (((k 0) ⊟ (v 127)) ⊠ (.neg (k (8711861 / 1000000000))))) ⊞ ((v 123) ⊠ (k (152322944854339 / 100000000000000000000000)))),
   .v 231 ((k 0) ⊟ (v 112)),
   .v 151 ((((v 5) ⊠ (k (8711861 / 5000000))) ⊞ (((k 0) ⊟ (v 123)) ⊠ (k (80149129911861 / 500000000000000)))) ⊞ ((v 337) ⊠ (.neg (k (8711861 / 1000000000))))),
   .v 262 (((((v 58) ⊠ (v 52)) ⊞ ((v 213) ⊠ (v 53))) ⊞ ((v 231) ⊠ (v 314))) ⊞ ((v 151) ⊠ (v 300))),
   .v 269 ((v 2) ⊠ (.neg (k (8711861 / 5000000)))),
   .v 281 ((v 127) ⊠ (k (80149129911861 / 500000000000000))),
   .v 350 ((v 337) ⊠ (k (152322944854339 / 100000000000000000000000))),
   .v 259 ((((k 0) ⊟ (v 269)) ⊞ (v 281)) ⊟ (v 350)),
   .v 41 ((k 0) ⊟ (v 151)),
   .v 98 (((((((v 188) ⊠ (v 79)) ⊞ ((v 199) ⊠ (v 77))) ⊞ ((v 100) ⊠ (v 110))) ⊞ ((v 217) ⊠ (v 286))) ⊞ ((v 259) ⊠ (v 314))) ⊞ ((v 41) ⊠ (v 340))),
   .v 94 ((k 0) ⊟ ((((v 6) ⊠ (k (2327 / 1000))) ⊞ (((k 0) ⊟ (v 3)) ⊠ (k (719043 / 50000000)))) ⊞ ((v 347) ⊠ (k (80995889 / 125000000))))),
   .v 87 ((((k 0) ⊟ (v 347)) ⊠ (.neg (k (55615274403 / 10000000000000)))) ⊞ ((v 247) ⊠ (k (719043 / 50000000)))),
   .v 83 (((((v 262) ⊠ (v 28)) ⊞ ((v 98) ⊠ (v 30))) ⊞ ((v 94) ⊠ (v 0))) ⊞ ((v 87) ⊠ (v 126))),
   .v 350 (((v 269) ⊟ (v 281)) ⊞ (v 350)),
   .v 281 (((((v 58) ⊠ (v 53)) ⊞ ((v 213) ⊠ (v 62))) ⊞ ((v 112) ⊠ (v 340))) ⊞ ((v 350) ⊠ (v 300))),
   .v 269 (((v 3) ⊠ (.neg (k (55615274403 / 10000000000000)))) ⊟ (((v 90) ⊠ (.neg (k (2327 / 1000)))) ⊞ ((v 247) ⊠ (k (80995889 / 125000000))))),
   .v 194 ((k 0) ⊟ (v 87)),
   .v 237 ((((v 281) ⊠ (.neg (k 1))) ⊞ ((v 269) ⊠ (v 0))) ⊞ ((v 194) ⊠ (v 242))),
   .v 229 ((v 19) ⊠ (v 4)),
   .v 292 (((v 42) ⊠ (v 126)) ⊞ ((v 30) ⊠ (v 229))),
   .v 84 ((v 18) ⊠ (v 4)),
   .v 129 (((.neg (k (38 / 125))) ⊠ (v 242)) ⊞ ((.neg (k 1)) ⊠ (v 84))),
   .v 271 (((v 43) ⊠ (v 126)) ⊞ ((v 28) ⊠ (v 229))),
   .v 32 (((((v 60) ⊠ (v 314)) ⊞ ((v 61) ⊠ (v 340))) ⊞ ((v 62) ⊠ (v 129))) ⊞ ((v 53) ⊠ (v 271))),
   .v 204 ((((v 79) ⊠ (v 292)) ⊞ ((v 77) ⊠ (v 32))) ⊞ ((v 78) ⊠ (v 110))),
   .v 145 ((((v 77) ⊠ (v 292)) ⊞ ((v 76) ⊠ (v 32))) ⊞ ((v 81) ⊠ (v 110))),
   .v 91 (((v 101) ⊠ (v 77)) ⊞ ((v 295) ⊠ (v 76))),
   .v 85 (((((k 0) ⊟ (v 33)) ⊠ (k (3 / 200000))) ⊞ ((v 216) ⊠ (k (99 / 500000)))) ⊞ ((v 91) ⊠ (k (121 / 20000)))),
   .v 82 (((((v 318) ⊠ (k (61899 / 1600000))) ⊞ ((v 33) ⊠ (.neg (k (829 / 1000000))))) ⊞ (((k 0) ⊟ (v 216)) ⊠ (.neg (k (73 / 50000))))) ⊞ (((k 0) ⊟ (v 91)) ⊠ (k (99 / 500000)))),
   .v 27 (((k 0) ⊟ (v 15)) ⊠ (k (61899 / 1600000))),
   .v 309 ((v 216) ⊠ (k (3 / 200000))),
   .v 208 (((k 0) ⊟ (v 91)) ⊠ (.neg (k (829 / 1000000)))),
   .v 330 (((v 27) ⊞ (v 309)) ⊞ (v 208)),
   .v 330 (((((((v 56) ⊠ (v 204)) ⊞ ((v 335) ⊠ (v 145))) ⊞ ((v 85) ⊠ (v 65))) ⊞ ((v 82) ⊠ (v 280))) ⊞ ((v 330) ⊠ (v 110))) ⊞ ((v 330) ⊠ (v 110))),
   .v 335 (((((v 158) ⊠ (k (28919 / 500000))) ⊞ (((k 0) ⊟ (v 101)) ⊠ (.neg (k (3163 / 250000))))) ⊞ ((v 21) ⊠ (.neg (k (1387 / 1000000))))) ⊞ ((v 295) ⊠ (.neg (k (18069 / 1000000))))),
   .v 56 ((((v 101) ⊠ (k (9683 / 1000000))) ⊞ (((k 0) ⊟ (v 21)) ⊠ (.neg (k (1243 / 1000000))))) ⊞ ((v 295) ⊠ (.neg (k (3163 / 250000))))),
   .v 248 (((k 0) ⊟ (v 307)) ⊠ (k (28919 / 500000))),
   .v 102 (((k 0) ⊟ (v 101)) ⊠ (.neg (k (1387 / 1000000)))),
   .v 103 (((k 0) ⊟ (v 295)) ⊠ (.neg (k (1243 / 1000000)))),
   .v 97 (((v 248) ⊞ (v 102)) ⊟ (v 103)),
   .v 97 (((((((((v 330) ⊞ ((v 188) ⊠ (v 78))) ⊞ ((v 199) ⊠ (v 81))) ⊞ ((v 100) ⊠ (v 292))) ⊞ ((v 272) ⊠ (v 32))) ⊞ ((v 335) ⊠ (v 300))) ⊞ ((v 56) ⊠ (v 286))) ⊞ ((v 97) ⊠ (v 110))) ⊞ ((v 97) ⊠ (v 110))),
   .v 272 (((((v 67) ⊠ (v 314)) ⊞ ((v 68) ⊠ (v 340))) ⊞ ((v 53) ⊠ (v 129))) ⊞ ((v 52) ⊠ (v 271))),
   .v 199 ((((k (83 / 4000)) ⊠ (v 300)) ⊞ ((.neg (k (23 / 125))) ⊠ (v 286))) ⊞ (v 272)),
   .v 188 (((((v 44) ⊠ (k (61899 / 1600000))) ⊞ ((v 33) ⊠ (.neg (k (751 / 100000))))) ⊞ (((k 0) ⊟ (v 216)) ⊠ (.neg (k (829 / 1000000))))) ⊞ ((v 91) ⊠ (k (3 / 200000)))),
   .v 100 (((k 0) ⊟ (v 33)) ⊠ (k (99 / 500000))),
   .v 208 (((v 27) ⊞ (v 100)) ⊟ (v 208)),
   .v 208 (((((((v 13) ⊠ (v 199)) ⊞ ((v 35) ⊠ (v 145))) ⊞ ((v 85) ⊠ (v 110))) ⊞ ((v 188) ⊠ (v 280))) ⊞ ((v 208) ⊠ (v 65))) ⊞ ((v 208) ⊠ (v 65))),
   .v 100 (((k 0) ⊟ (v 100)) ⊟ (v 309)),
   .v 100 (((((((v 173) ⊠ (v 199)) ⊞ ((v 14) ⊠ (v 204))) ⊞ ((v 82) ⊠ (v 110))) ⊞ ((v 188) ⊠ (v 65))) ⊞ ((v 100) ⊠ (v 280))) ⊞ ((v 100) ⊠ (v 280))),
   .v 188 (((((v 40) ⊠ (k (28919 / 500000))) ⊞ ((v 101) ⊠ (.neg (k (1243 / 1000000))))) ⊞ (((k 0) ⊟ (v 21)) ⊠ (.neg (k (4193 / 500000))))) ⊞ (((k 0) ⊟ (v 295)) ⊠ (.neg (k (1387 / 1000000))))),
   .v 199 ((v 21) ⊠ (.neg (k (3163 / 250000)))),
   .v 102 (((v 248) ⊟ (v 102)) ⊟ (v 199)),
   .v 102 ((((((((((v 107) ⊠ (.neg (k (23 / 125)))) ⊞ ((v 208) ⊠ (v 77))) ⊞ ((v 100) ⊠ (v 76))) ⊞ ((v 217) ⊠ (v 292))) ⊞ ((v 69) ⊠ (v 272))) ⊞ ((v 188) ⊠ (v 300))) ⊞ ((v 56) ⊠ (v 110))) ⊞ ((v 102) ⊠ (v 286))) ⊞ ((v 102) ⊠ (v 286))),
   .v 56 ((((((v 5) ⊠ (.neg (k (8711861 / 1000000000)))) ⊞ ((v 2) ⊠ (k (152322944854339 / 100000000000000000000000)))) ⊞ (((k 0) ⊟ (v 127)) ⊠ (.neg (k (21200017 / 100000000000))))) ⊞ ((v 123) ⊠ (k (9214321 / 2500000000)))) ⊞ ((v 337) ⊠ (k (4839 / 62500)))),
   .v 217 ((((((v 2) ⊠ (k (80149129911861 / 500000000000000))) ⊞ ((v 307) ⊠ (.neg (k (8711861 / 1000000000))))) ⊞ ((v 127) ⊠ (.neg (k (6337651 / 100000000))))) ⊞ (((k 0) ⊟ (v 123)) ⊠ (.neg (k (11460001 / 5000000000))))) ⊞ ((v 337) ⊠ (.neg (k (21200017 / 100000000000))))),
   .v 69 (((k 0) ⊟ (v 5)) ⊠ (k (152322944854339 / 100000000000000000000000))),
   .v 248 (((k 0) ⊟ (v 307)) ⊠ (k (80149129911861 / 500000000000000))),
   .v 82 (((k 0) ⊟ (v 127)) ⊠ (k (9214321 / 2500000000))),
   .v 14 (((k 0) ⊟ (v 337)) ⊠ (.neg (k (11460001 / 5000000000)))),
   .v 173 ((((v 69) ⊞ (v 248)) ⊞ (v 82)) ⊟ (v 14)),
   .v 173 (((((((((((v 58) ⊠ (v 68)) ⊞ ((v 213) ⊠ (v 61))) ⊞ ((v 97) ⊠ (v 52))) ⊞ ((v 102) ⊠ (v 53))) ⊞ ((v 112) ⊠ (v 129))) ⊞ ((v 41) ⊠ (v 292))) ⊞ ((v 56) ⊠ (v 314))) ⊞ ((v 217) ⊠ (v 300))) ⊞ ((v 173) ⊠ (v 340))) ⊞ ((v 173) ⊠ (v 340))),
   .v 199 ((v 199) ⊞ (v 103)),
   .v 199 ((((((((((v 107) ⊠ (k (83 / 4000))) ⊞ ((v 208) ⊠ (v 86))) ⊞ ((v 100) ⊠ (v 77))) ⊞ ((v 285) ⊠ (v 272))) ⊞ ((v 117) ⊠ (v 32))) ⊞ ((v 335) ⊠ (v 110))) ⊞ ((v 188) ⊠ (v 286))) ⊞ ((v 199) ⊠ (v 300))) ⊞ ((v 199) ⊠ (v 300))),
   .v 188 ((((((v 5) ⊠ (k (80149129911861 / 500000000000000))) ⊞ ((v 307) ⊠ (k (152322944854339 / 100000000000000000000000)))) ⊞ ((v 127) ⊠ (.neg (k (11460001 / 5000000000))))) ⊞ (((k 0) ⊟ (v 123)) ⊠ (k (1404749 / 100000000)))) ⊞ (((k 0) ⊟ (v 337)) ⊠ (k (9214321 / 2500000000)))),
   .v 100 (((k 0) ⊟ (v 2)) ⊠ (.neg (k (8711861 / 1000000000)))),
   .v 208 ((v 123) ⊠ (.neg (k (21200017 / 100000000000)))),
   .v 82 ((((v 69) ⊞ (v 100)) ⊟ (v 82)) ⊟ (v 208)),
   .v 82 (((((((v 199) ⊞ ((v 350) ⊠ (v 129))) ⊞ ((v 151) ⊠ (v 271))) ⊞ ((v 188) ⊠ (v 314))) ⊞ ((v 217) ⊠ (v 340))) ⊞ ((v 82) ⊠ (v 300))) ⊞ ((v 82) ⊠ (v 300))),
   .v 217 (((((v 90) ⊠ (k (80995889 / 125000000))) ⊞ (((k 0) ⊟ (v 3)) ⊠ (.neg (k (2343059 / 200000000))))) ⊞ ((v 347) ⊠ (k (2699999 / 50000000000)))) ⊞ ((v 247) ⊠ (.neg (k (199538951 / 1000000000))))),
   .v 129 ((((((v 90) ⊠ (.neg (k (55615274403 / 10000000000000)))) ⊞ ((v 6) ⊠ (k (719043 / 50000000)))) ⊞ ((v 3) ⊠ (k (750500000000001 / 100000000000000000)))) ⊞ (((k 0) ⊟ (v 347)) ⊠ (.neg (k (18998907 / 5000000000))))) ⊞ ((v 247) ⊠ (.neg (k (2343059 / 200000000))))),
   .v 350 (((k 0) ⊟ (v 6)) ⊠ (.neg (k (55615274403 / 10000000000000)))),
   .v 151 (((k 0) ⊟ (v 3)) ⊠ (k (2699999 / 50000000000))),
   .v 69 (((k 0) ⊟ (v 247)) ⊠ (.neg (k (18998907 / 5000000000)))),
   .v 335 (((v 350) ⊞ (v 151)) ⊟ (v 69)),
   .v 335 (((((((((v 281) ⊠ (.neg (k (38 / 125)))) ⊞ ((v 173) ⊠ (v 28))) ⊞ ((v 82) ⊠ (v 30))) ⊞ ((v 194) ⊠ (v 84))) ⊞ ((v 217) ⊠ (v 0))) ⊞ ((v 129) ⊠ (v 126))) ⊞ ((v 335) ⊠ (v 242))) ⊞ ((v 335) ⊠ (v 242))),
   .v 208 ((((v 100) ⊞ (v 248)) ⊞ (v 208)) ⊞ (v 14)),
   .v 208 (((((((((((v 58) ⊠ (v 67)) ⊞ ((v 213) ⊠ (v 60))) ⊞ ((v 97) ⊠ (v 53))) ⊞ ((v 102) ⊠ (v 54))) ⊞ ((v 231) ⊠ (v 271))) ⊞ ((v 259) ⊠ (v 292))) ⊞ ((v 56) ⊠ (v 340))) ⊞ ((v 188) ⊠ (v 300))) ⊞ ((v 208) ⊠ (v 314))) ⊞ ((v 208) ⊠ (v 314))),
   .v 188 (((((v 6) ⊠ (k (80995889 / 125000000))) ⊞ ((v 3) ⊠ (.neg (k (18998907 / 5000000000))))) ⊞ (((k 0) ⊟ (v 347)) ⊠ (.neg (k (192033951 / 1000000000))))) ⊞ (((k 0) ⊟ (v 247)) ⊠ (k (2699999 / 50000000000)))),
   .v 56 (((k 0) ⊟ (v 90)) ⊠ (k (719043 / 50000000))),
   .v 102 ((v 347) ⊠ (.neg (k (2343059 / 200000000)))),
   .v 151 (((v 56) ⊟ (v 151)) ⊟ (v 102)),
   .v 151 (((((((((v 262) ⊠ (v 43)) ⊞ ((v 98) ⊠ (v 42))) ⊞ ((v 208) ⊠ (.neg (k 1)))) ⊞ ((v 87) ⊠ (v 229))) ⊞ ((v 188) ⊠ (v 0))) ⊞ ((v 129) ⊠ (v 242))) ⊞ ((v 151) ⊠ (v 126))) ⊞ ((v 151) ⊠ (v 126))),
   .v 129 ((((w 7) ⊠ (k (23426267 / 500000000))) ⊞ (((k 0) ⊟ (v 250)) ⊠ (.neg (k (43 / 15625))))) ⊞ ((v 7) ⊠ (.neg (k (22851627 / 1000000000))))),
   .v 87 (((k 0) ⊟ (w 7)) ⊠ (k (55279857 / 10000000000))),
   .v 98 ((v 87) ⊟ (((k 0) ⊟ (v 7)) ⊠ (.neg (k (43 / 15625))))),
   .v 102 ((((v 56) ⊞ (v 350)) ⊞ (v 102)) ⊞ (v 69)),
   .v 102 (((((((((v 173) ⊠ (v 31)) ⊞ ((v 82) ⊠ (v 28))) ⊞ ((v 94) ⊠ (v 229))) ⊞ ((v 269) ⊠ (v 84))) ⊞ ((v 217) ⊠ (v 242))) ⊞ ((v 188) ⊠ (v 126))) ⊞ ((v 102) ⊠ (v 0))) ⊞ ((v 102) ⊠ (v 0)))]

/-- HyAInverseDynHessian.cpp:2494-2619. -/
def part17 : List Stmt :=
  [.v 87 (((k 0) ⊟ (v 87)) ⊟ ((v 250) ⊠ (.neg (k (22851627 / 1000000000))))),
   .hes 78 ((((((((((v 83) ⊠ (v 19)) ⊞ ((v 237) ⊠ (v 18))) ⊞ ((v 335) ⊠ (v 9))) ⊞ ((v 151) ⊠ (v 10))) ⊞ ((v 129) ⊠ (v 0))) ⊞ ((v 98) ⊠ (v 4))) ⊞ ((v 98) ⊠ (v 4))) ⊠ (v 4)) ⊞ (((((v 102) ⊞ ((v 129) ⊠ (v 4))) ⊞ ((v 87) ⊠ (v 0))) ⊞ ((v 87) ⊠ (v 0))) ⊠ (v 0))),
   .v 87 (((v 318) ⊠ (k (61899 / 40000))) ⊞ ((v 216) ⊠ (.neg (k (61899 / 1600000))))),
   .v 98 (((v 87) ⊞ ((v 158) ⊠ (k (2629 / 1250)))) ⊞ ((v 295) ⊠ (.neg (k (28919 / 500000))))),
   .v 129 (((v 44) ⊠ (k (61899 / 40000))) ⊞ ((v 33) ⊠ (k (61899 / 1600000)))),
   .v 15 ((v 15) ⊠ (k (61899 / 40000))),
   .v 188 (((((v 129) ⊠ (v 77)) ⊞ ((v 15) ⊠ (v 76))) ⊞ ((v 40) ⊠ (k (2629 / 1250)))) ⊞ ((v 21) ⊠ (k (28919 / 500000)))),
   .v 217 ((((((v 98) ⊠ (v 52)) ⊞ ((v 188) ⊠ (v 53))) ⊞ ((v 2) ⊠ (k (8711861 / 5000000)))) ⊞ ((v 127) ⊠ (k (80149129911861 / 500000000000000)))) ⊞ ((v 337) ⊠ (.neg (k (152322944854339 / 100000000000000000000000))))),
   .v 82 (((((((v 129) ⊠ (v 79)) ⊞ ((v 15) ⊠ (v 77))) ⊞ ((v 307) ⊠ (k (2629 / 1250)))) ⊞ ((v 307) ⊠ (k (8711861 / 5000000)))) ⊞ ((v 127) ⊠ (k (8711861 / 1000000000)))) ⊞ ((v 123) ⊠ (k (152322944854339 / 100000000000000000000000)))),
   .v 173 ((((((v 217) ⊠ (v 28)) ⊞ ((v 82) ⊠ (v 30))) ⊞ ((v 90) ⊠ (k (2327 / 1000)))) ⊞ ((v 3) ⊠ (.neg (k (55615274403 / 10000000000000))))) ⊞ ((v 247) ⊠ (.neg (k (80995889 / 125000000))))),
   .v 269 ((((((v 98) ⊠ (v 53)) ⊞ ((v 188) ⊠ (v 62))) ⊞ ((v 5) ⊠ (k (8711861 / 5000000)))) ⊞ ((v 123) ⊠ (.neg (k (80149129911861 / 500000000000000))))) ⊞ ((v 337) ⊠ (.neg (k (8711861 / 1000000000))))),
   .v 94 (((((v 269) ⊠ (.neg (k 1))) ⊞ ((v 6) ⊠ (k (2327 / 1000)))) ⊞ ((v 3) ⊠ (.neg (k (719043 / 50000000))))) ⊞ ((v 347) ⊠ (k (80995889 / 125000000)))),
   .v 44 (((((((((((v 44) ⊠ (k (61899 / 1600000))) ⊞ ((v 33) ⊠ (k (9277 / 1000000)))) ⊞ ((v 216) ⊠ (.neg (k (829 / 1000000))))) ⊞ ((v 91) ⊠ (k (3 / 200000)))) ⊞ ((v 129) ⊠ (v 78))) ⊞ ((v 15) ⊠ (v 81))) ⊞ ((v 40) ⊠ (k (28919 / 500000)))) ⊞ ((v 101) ⊠ (.neg (k (1243 / 1000000))))) ⊞ ((v 21) ⊠ (k (5823 / 200000)))) ⊞ ((v 295) ⊠ (.neg (k (1387 / 1000000))))),
   .v 318 (((((v 318) ⊠ (.neg (k (61899 / 1600000)))) ⊞ ((v 33) ⊠ (.neg (k (829 / 1000000))))) ⊞ ((v 216) ⊠ (k (3227 / 1000000)))) ⊞ ((v 91) ⊠ (k (99 / 500000)))),
   .v 91 ((((v 33) ⊠ (k (3 / 200000))) ⊞ ((v 216) ⊠ (k (99 / 500000)))) ⊞ ((v 91) ⊠ (k (10737 / 1000000)))),
   .hes 83 ((((((v 129) ⊠ (.neg (v 145))) ⊞ ((v 15) ⊠ (v 204))) ⊞ ((v 318) ⊠ (.neg (v 280)))) ⊞ ((v 91) ⊠ (v 65))) ⊞ (v 330)),
   .v 158 ((((((((v 87) ⊠ (.neg (k (23 / 125)))) ⊞ ((v 318) ⊠ (v 77))) ⊞ ((v 91) ⊠ (v 76))) ⊞ ((v 158) ⊠ (.neg (k (28919 / 500000))))) ⊞ ((v 101) ⊠ (.neg (k (3163 / 250000))))) ⊞ ((v 21) ⊠ (.neg (k (1387 / 1000000))))) ⊞ ((v 295) ⊠ (k (2429 / 125000)))),
   .hes 82 ((((((v 98) ⊠ (.neg (v 32))) ⊞ ((v 188) ⊠ (v 272))) ⊞ ((v 44) ⊠ (.neg (v 286)))) ⊞ ((v 158) ⊠ (v 110))) ⊞ (v 199)),
   .v 199 ((((((((((v 98) ⊠ (v 68)) ⊞ ((v 188) ⊠ (v 61))) ⊞ ((v 44) ⊠ (v 52))) ⊞ ((v 158) ⊠ (v 53))) ⊞ ((v 5) ⊠ (.neg (k (80149129911861 / 500000000000000))))) ⊞ ((v 307) ⊠ (k (152322944854339 / 100000000000000000000000)))) ⊞ ((v 127) ⊠ (.neg (k (11460001 / 5000000000))))) ⊞ ((v 123) ⊠ (k (1828449 / 100000000)))) ⊞ ((v 337) ⊠ (k (9214321 / 2500000000)))),
   .v 91 ((((((((((((v 87) ⊠ (k (83 / 4000))) ⊞ ((v 318) ⊠ (v 86))) ⊞ ((v 91) ⊠ (v 77))) ⊞ ((v 101) ⊠ (k (5523 / 500000)))) ⊞ ((v 21) ⊠ (.neg (k (1243 / 1000000))))) ⊞ ((v 295) ⊠ (.neg (k (3163 / 250000))))) ⊞ ((v 5) ⊠ (.neg (k (8711861 / 1000000000))))) ⊞ ((v 2) ⊠ (.neg (k (152322944854339 / 100000000000000000000000))))) ⊞ ((v 127) ⊠ (.neg (k (21200017 / 100000000000))))) ⊞ ((v 123) ⊠ (k (9214321 / 2500000000)))) ⊞ ((v 337) ⊠ (k (81661 / 1000000)))),
   .hes 81 ((((((v 217) ⊠ (.neg (v 292))) ⊞ ((v 82) ⊠ (v 271))) ⊞ ((v 199) ⊠ (.neg (v 300)))) ⊞ ((v 91) ⊠ (v 340))) ⊞ (v 208)),
   .v 269 ((((((((v 269) ⊠ (.neg (k (38 / 125)))) ⊞ ((v 199) ⊠ (v 28))) ⊞ ((v 91) ⊠ (v 30))) ⊞ ((v 6) ⊠ (k (80995889 / 125000000)))) ⊞ ((v 3) ⊠ (.neg (k (18998907 / 5000000000))))) ⊞ ((v 347) ⊠ (k (4197379 / 20000000)))) ⊞ ((v 247) ⊠ (k (2699999 / 50000000000)))),
   .v 158 ((((((((v 217) ⊠ (v 43)) ⊞ ((v 82) ⊠ (v 42))) ⊞ (((((((((((v 98) ⊠ (v 67)) ⊞ ((v 188) ⊠ (v 60))) ⊞ ((v 44) ⊠ (v 53))) ⊞ ((v 158) ⊠ (v 54))) ⊞ ((v 2) ⊠ (k (80149129911861 / 500000000000000)))) ⊞ ((v 307) ⊠ (k (8711861 / 1000000000)))) ⊞ ((v 127) ⊠ (k (9570849 / 100000000)))) ⊞ ((v 123) ⊠ (.neg (k (11460001 / 5000000000))))) ⊞ ((v 337) ⊠ (.neg (k (21200017 / 100000000000))))) ⊠ (.neg (k 1)))) ⊞ ((v 90) ⊠ (.neg (k (80995889 / 125000000))))) ⊞ ((v 3) ⊠ (.neg (k (2343059 / 200000000))))) ⊞ ((v 347) ⊠ (k (2699999 / 50000000000)))) ⊞ ((v 247) ⊠ (k (4047279 / 20000000)))),
   .hes 79 ((((((((v 83) ⊠ (v 20)) ⊞ ((v 237) ⊠ (v 38))) ⊞ ((v 335) ⊠ (v 10))) ⊞ ((v 151) ⊠ (v 11))) ⊞ (((((w 7) ⊠ (.neg (k (43 / 15625)))) ⊞ (((k 0) ⊟ (v 250)) ⊠ (k (3097633 / 250000000)))) ⊞ (((k 0) ⊟ (v 7)) ⊠ (k (55279857 / 10000000000)))) ⊠ (v 0))) ⊞ (((((((((v 173) ⊠ (v 19)) ⊞ ((v 94) ⊠ (v 18))) ⊞ ((v 269) ⊠ (v 9))) ⊞ ((v 158) ⊠ (v 10))) ⊞ ((w 7) ⊠ (.neg (k (43 / 15625))))) ⊞ ((v 250) ⊠ (k (8585553 / 100000000)))) ⊞ ((v 7) ⊠ (k (55279857 / 10000000000)))) ⊠ (.neg (v 0)))) ⊞ (((((((((((((((v 199) ⊠ (v 31)) ⊞ ((v 91) ⊠ (v 28))) ⊞ ((v 90) ⊠ (.neg (k (55615274403 / 10000000000000))))) ⊞ ((v 6) ⊠ (.neg (k (719043 / 50000000))))) ⊞ ((v 3) ⊠ (k (10329999 / 1000000000)))) ⊞ ((v 347) ⊠ (.neg (k (18998907 / 5000000000))))) ⊞ ((v 247) ⊠ (.neg (k (2343059 / 200000000))))) ⊞ ((w 7) ⊠ (.neg (k (22851627 / 1000000000))))) ⊞ ((v 250) ⊠ (k (55279857 / 10000000000)))) ⊞ ((v 7) ⊠ (k (9750749 / 250000000)))) ⊞ (((k 0) ⊟ (w 7)) ⊠ (.neg (k (22851627 / 1000000000))))) ⊞ ((v 250) ⊠ (k (55279857 / 10000000000)))) ⊞ ((v 7) ⊠ (.neg (k (17231001 / 500000000))))) ⊠ (v 4))),
   .hes 80 ((((((v 173) ⊠ (.neg (v 84))) ⊞ ((v 94) ⊠ (v 229))) ⊞ ((v 269) ⊠ (.neg (v 126)))) ⊞ ((v 158) ⊠ (v 242))) ⊞ (v 102)),
   .v 158 ((w 6) ⊠ (v 4)),
   .v 269 (((w 7) ⊠ (v 20)) ⊞ ((v 158) ⊠ (v 19))),
   .v 94 (((w 7) ⊠ (v 11)) ⊞ ((v 158) ⊠ (v 10))),
   .v 173 (((v 269) ⊠ (v 30)) ⊞ ((v 94) ⊠ (v 42))),
   .v 102 (((w 7) ⊠ (v 38)) ⊞ ((v 158) ⊠ (v 18))),
   .v 84 (((w 7) ⊠ (v 10)) ⊞ ((v 158) ⊠ (v 9))),
   .v 229 (((v 102) ⊠ (.neg (k 1))) ⊞ ((v 84) ⊠ (.neg (k (38 / 125))))),
   .v 126 (((v 269) ⊠ (v 28)) ⊞ ((v 94) ⊠ (v 43))),
   .v 242 ((w 9) ⊞ ((v 94) ⊠ (.neg (k 1)))),
   .v 91 ((w 6) ⊠ (v 0)),
   .v 199 ((w 8) ⊞ (v 91)),
   .v 151 (((v 199) ⊠ (v 31)) ⊞ ((v 84) ⊠ (v 28))),
   .v 335 (((((v 229) ⊠ (v 62)) ⊞ ((v 126) ⊠ (v 53))) ⊞ ((v 242) ⊠ (v 60))) ⊞ ((v 151) ⊠ (v 61))),
   .v 237 (((v 242) ⊠ (v 53)) ⊞ ((v 151) ⊠ (v 52))),
   .v 83 ((((v 173) ⊠ (v 77)) ⊞ ((v 335) ⊠ (v 76))) ⊞ ((v 237) ⊠ (v 81))),
   .v 3 ((v 83) ⊠ (k (61899 / 40000))),
   .v 7 ((v 28) ⊠ (v 10)),
   .v 347 ((.neg (k 1)) ⊠ (v 11)),
   .v 6 (((v 53) ⊠ (v 7)) ⊞ ((v 54) ⊠ (v 347))),
   .v 247 ((v 30) ⊠ (v 10)),
   .v 90 (((v 77) ⊠ (v 6)) ⊞ ((v 86) ⊠ (v 247))),
   .v 250 ((((v 173) ⊠ (v 79)) ⊞ ((v 335) ⊠ (v 77))) ⊞ ((v 237) ⊠ (v 78))),
   .v 44 ((v 250) ⊠ (.neg (k (61899 / 40000)))),
   .v 82 ((w 11) ⊞ (v 237)),
   .v 217 ((v 82) ⊠ (k (61899 / 1600000))),
   .v 188 ((v 44) ⊟ (v 217)),
   .v 98 (((v 76) ⊠ (v 6)) ⊞ ((v 77) ⊠ (v 247))),
   .v 337 (((v 3) ⊠ (v 90)) ⊞ ((v 188) ⊠ (v 98))),
   .v 123 (((v 335) ⊠ (k (2629 / 1250))) ⊞ ((v 237) ⊠ (k (28919 / 500000)))),
   .v 127 ((k 0) ⊟ (v 123)),
   .v 2 ((v 173) ⊠ (k (2629 / 1250))),
   .v 307 (((v 337) ⊞ ((v 127) ⊠ (v 247))) ⊞ ((v 2) ⊠ (v 6))),
   .v 208 ((k 0) ⊟ (v 3)),
   .v 271 (((v 52) ⊠ (v 7)) ⊞ ((v 53) ⊠ (v 347))),
   .v 292 (((((v 229) ⊠ (v 53)) ⊞ ((v 126) ⊠ (v 52))) ⊞ ((v 242) ⊠ (v 67))) ⊞ ((v 151) ⊠ (v 68))),
   .v 300 (((v 199) ⊠ (v 28)) ⊞ ((v 84) ⊠ (v 30))),
   .v 340 ((w 10) ⊞ (v 300)),
   .v 318 (((v 242) ⊠ (v 54)) ⊞ ((v 151) ⊠ (v 53))),
   .v 87 (((v 292) ⊞ ((v 340) ⊠ (k (83 / 4000)))) ⊞ ((v 318) ⊠ (.neg (k (23 / 125))))),
   .v 295 (((v 340) ⊠ (v 86)) ⊞ ((v 318) ⊠ (v 77))),
   .v 101 (((v 87) ⊠ (k (61899 / 40000))) ⊞ (((k 0) ⊟ (v 295)) ⊠ (k (61899 / 1600000)))),
   .v 21 (((v 208) ⊠ (v 271)) ⊞ ((v 101) ⊠ (v 98))),
   .v 217 (((k 0) ⊟ (v 44)) ⊞ (v 217)),
   .v 44 ((k 0) ⊟ (v 101)),
   .v 5 (((v 217) ⊠ (v 271)) ⊞ ((v 44) ⊠ (v 90))),
   .v 272 (((v 292) ⊠ (.neg (k (2629 / 1250)))) ⊞ ((v 318) ⊠ (k (28919 / 500000)))),
   .v 32 ((k 0) ⊟ (v 272)),
   .v 110 ((k 0) ⊟ (v 2)),
   .v 286 (((((v 21) ⊠ (v 77)) ⊞ ((v 5) ⊠ (v 76))) ⊞ ((v 32) ⊠ (v 247))) ⊞ ((v 110) ⊠ (v 271))),
   .v 15 ((((v 173) ⊠ (k (8711861 / 5000000))) ⊞ (((k 0) ⊟ (v 242)) ⊠ (.neg (k (8711861 / 1000000000))))) ⊞ ((v 151) ⊠ (k (152322944854339 / 100000000000000000000000)))),
   .v 129 ((k 0) ⊟ (v 15)),
   .v 330 ((((v 229) ⊠ (k (8711861 / 5000000))) ⊞ (((k 0) ⊟ (v 151)) ⊠ (k (80149129911861 / 500000000000000)))) ⊞ ((v 300) ⊠ (.neg (k (8711861 / 1000000000))))),
   .v 145 (((((v 307) ⊠ (v 52)) ⊞ ((v 286) ⊠ (v 53))) ⊞ ((v 129) ⊠ (v 347))) ⊞ ((v 330) ⊠ (v 247))),
   .v 204 ((v 126) ⊠ (.neg (k (8711861 / 5000000)))),
   .v 280 ((v 242) ⊠ (k (80149129911861 / 500000000000000))),
   .v 65 ((v 300) ⊠ (k (152322944854339 / 100000000000000000000000))),
   .v 216 ((((k 0) ⊟ (v 204)) ⊞ (v 280)) ⊟ (v 65)),
   .v 33 ((k 0) ⊟ (v 330)),
   .v 40 (((((((v 21) ⊠ (v 79)) ⊞ ((v 5) ⊠ (v 77))) ⊞ ((v 123) ⊠ (v 271))) ⊞ ((v 272) ⊠ (v 6))) ⊞ ((v 216) ⊠ (v 347))) ⊞ ((v 33) ⊠ (v 7))),
   .v 56 ((((k 0) ⊟ (v 84)) ⊠ (.neg (k (55615274403 / 10000000000000)))) ⊞ ((v 94) ⊠ (k (719043 / 50000000)))),
   .v 65 (((v 204) ⊟ (v 280)) ⊞ (v 65)),
   .v 280 (((((v 307) ⊠ (v 53)) ⊞ ((v 286) ⊠ (v 62))) ⊞ ((v 15) ⊠ (v 7))) ⊞ ((v 65) ⊠ (v 247))),
   .v 204 ((k 0) ⊟ (v 56)),
   .v 69 (((v 42) ⊠ (v 11)) ⊞ ((v 30) ⊠ (v 20))),
   .v 350 (((.neg (k (38 / 125))) ⊠ (v 10)) ⊞ ((.neg (k 1)) ⊠ (v 38))),
   .v 262 (((v 43) ⊠ (v 11)) ⊞ ((v 28) ⊠ (v 20))),
   .v 97 (((((v 60) ⊠ (v 347)) ⊞ ((v 61) ⊠ (v 7))) ⊞ ((v 62) ⊠ (v 350))) ⊞ ((v 53) ⊠ (v 262))),
   .v 259 ((((v 79) ⊠ (v 69)) ⊞ ((v 77) ⊠ (v 97))) ⊞ ((v 78) ⊠ (v 271))),
   .v 231 ((((v 77) ⊠ (v 69)) ⊞ ((v 76) ⊠ (v 97))) ⊞ ((v 81) ⊠ (v 271))),
   .v 213 (((v 340) ⊠ (v 77)) ⊞ ((v 318) ⊠ (v 76))),
   .v 58 (((((k 0) ⊟ (v 82)) ⊠ (k (3 / 200000))) ⊞ ((v 295) ⊠ (k (99 / 500000)))) ⊞ ((v 213) ⊠ (k (121 / 20000)))),
   .v 314 (((((v 87) ⊠ (k (61899 / 1600000))) ⊞ ((v 82) ⊠ (.neg (k (829 / 1000000))))) ⊞ (((k 0) ⊟ (v 295)) ⊠ (.neg (k (73 / 50000))))) ⊞ (((k 0) ⊟ (v 213)) ⊠ (k (99 / 500000)))),
   .v 100 (((k 0) ⊟ (v 83)) ⊠ (k (61899 / 1600000))),
   .v 14 ((v 295) ⊠ (k (3 / 200000))),
   .v 248 (((k 0) ⊟ (v 213)) ⊠ (.neg (k (829 / 1000000))))]

/-- HyAInverseDynHessian.cpp:2620-2767. -/
def part18 : List Stmt :=
  [.v 194 (((v 100) ⊞ (v 14)) ⊞ (v 248)),
   .v 194 (((((((v 208) ⊠ (v 259)) ⊞ ((v 217) ⊠ (v 231))) ⊞ ((v 58) ⊠ (v 90))) ⊞ ((v 314) ⊠ (v 98))) ⊞ ((v 194) ⊠ (v 271))) ⊞ ((v 194) ⊠ (v 271))),
   .v 217 (((((v 292) ⊠ (k (28919 / 500000))) ⊞ (((k 0) ⊟ (v 340)) ⊠ (.neg (k (3163 / 250000))))) ⊞ ((v 237) ⊠ (.neg (k (1387 / 1000000))))) ⊞ ((v 318) ⊠ (.neg (k (18069 / 1000000))))),
   .v 208 ((((v 340) ⊠ (k (9683 / 1000000))) ⊞ (((k 0) ⊟ (v 237)) ⊠ (.neg (k (1243 / 1000000))))) ⊞ ((v 318) ⊠ (.neg (k (3163 / 250000))))),
   .v 281 (((k 0) ⊟ (v 173)) ⊠ (k (28919 / 500000))),
   .v 117 (((k 0) ⊟ (v 340)) ⊠ (.neg (k (1387 / 1000000)))),
   .v 285 (((k 0) ⊟ (v 318)) ⊠ (.neg (k (1243 / 1000000)))),
   .v 107 (((v 281) ⊞ (v 117)) ⊟ (v 285)),
   .v 107 (((((((((v 194) ⊞ ((v 21) ⊠ (v 78))) ⊞ ((v 5) ⊠ (v 81))) ⊞ ((v 123) ⊠ (v 69))) ⊞ ((v 110) ⊠ (v 97))) ⊞ ((v 217) ⊠ (v 247))) ⊞ ((v 208) ⊠ (v 6))) ⊞ ((v 107) ⊠ (v 271))) ⊞ ((v 107) ⊠ (v 271))),
   .v 110 (((((v 67) ⊠ (v 347)) ⊞ ((v 68) ⊠ (v 7))) ⊞ ((v 53) ⊠ (v 350))) ⊞ ((v 52) ⊠ (v 262))),
   .v 5 ((((k (83 / 4000)) ⊠ (v 247)) ⊞ ((.neg (k (23 / 125))) ⊠ (v 6))) ⊞ (v 110)),
   .v 21 (((((v 250) ⊠ (k (61899 / 1600000))) ⊞ ((v 82) ⊠ (.neg (k (751 / 100000))))) ⊞ (((k 0) ⊟ (v 295)) ⊠ (.neg (k (829 / 1000000))))) ⊞ ((v 213) ⊠ (k (3 / 200000)))),
   .v 123 (((k 0) ⊟ (v 82)) ⊠ (k (99 / 500000))),
   .v 248 (((v 100) ⊞ (v 123)) ⊟ (v 248)),
   .v 248 (((((((v 3) ⊠ (v 5)) ⊞ ((v 44) ⊠ (v 231))) ⊞ ((v 58) ⊠ (v 271))) ⊞ ((v 21) ⊠ (v 98))) ⊞ ((v 248) ⊠ (v 90))) ⊞ ((v 248) ⊠ (v 90))),
   .v 123 (((k 0) ⊟ (v 123)) ⊟ (v 14)),
   .v 123 (((((((v 188) ⊠ (v 5)) ⊞ ((v 101) ⊠ (v 259))) ⊞ ((v 314) ⊠ (v 271))) ⊞ ((v 21) ⊠ (v 90))) ⊞ ((v 123) ⊠ (v 98))) ⊞ ((v 123) ⊠ (v 98))),
   .v 21 (((((v 335) ⊠ (k (28919 / 500000))) ⊞ ((v 340) ⊠ (.neg (k (1243 / 1000000))))) ⊞ (((k 0) ⊟ (v 237)) ⊠ (.neg (k (4193 / 500000))))) ⊞ (((k 0) ⊟ (v 318)) ⊠ (.neg (k (1387 / 1000000))))),
   .v 5 ((v 237) ⊠ (.neg (k (3163 / 250000)))),
   .v 117 (((v 281) ⊟ (v 117)) ⊟ (v 5)),
   .v 117 ((((((((((v 337) ⊠ (.neg (k (23 / 125)))) ⊞ ((v 248) ⊠ (v 77))) ⊞ ((v 123) ⊠ (v 76))) ⊞ ((v 272) ⊠ (v 69))) ⊞ ((v 2) ⊠ (v 110))) ⊞ ((v 21) ⊠ (v 247))) ⊞ ((v 208) ⊠ (v 271))) ⊞ ((v 117) ⊠ (v 6))) ⊞ ((v 117) ⊠ (v 6))),
   .v 208 ((((((v 229) ⊠ (.neg (k (8711861 / 1000000000)))) ⊞ ((v 126) ⊠ (k (152322944854339 / 100000000000000000000000)))) ⊞ (((k 0) ⊟ (v 242)) ⊠ (.neg (k (21200017 / 100000000000))))) ⊞ ((v 151) ⊠ (k (9214321 / 2500000000)))) ⊞ ((v 300) ⊠ (k (4839 / 62500)))),
   .v 272 ((((((v 126) ⊠ (k (80149129911861 / 500000000000000))) ⊞ ((v 173) ⊠ (.neg (k (8711861 / 1000000000))))) ⊞ ((v 242) ⊠ (.neg (k (6337651 / 100000000))))) ⊞ (((k 0) ⊟ (v 151)) ⊠ (.neg (k (11460001 / 5000000000))))) ⊞ ((v 300) ⊠ (.neg (k (21200017 / 100000000000))))),
   .v 2 (((k 0) ⊟ (v 229)) ⊠ (k (152322944854339 / 100000000000000000000000))),
   .v 281 (((k 0) ⊟ (v 173)) ⊠ (k (80149129911861 / 500000000000000))),
   .v 314 (((k 0) ⊟ (v 242)) ⊠ (k (9214321 / 2500000000))),
   .v 101 (((k 0) ⊟ (v 300)) ⊠ (.neg (k (11460001 / 5000000000)))),
   .v 188 ((((v 2) ⊞ (v 281)) ⊞ (v 314)) ⊟ (v 101)),
   .v 188 (((((((((((v 307) ⊠ (v 68)) ⊞ ((v 286) ⊠ (v 61))) ⊞ ((v 107) ⊠ (v 52))) ⊞ ((v 117) ⊠ (v 53))) ⊞ ((v 15) ⊠ (v 350))) ⊞ ((v 33) ⊠ (v 69))) ⊞ ((v 208) ⊠ (v 347))) ⊞ ((v 272) ⊠ (v 247))) ⊞ ((v 188) ⊠ (v 7))) ⊞ ((v 188) ⊠ (v 7))),
   .v 5 ((v 5) ⊞ (v 285)),
   .v 5 ((((((((((v 337) ⊠ (k (83 / 4000))) ⊞ ((v 248) ⊠ (v 86))) ⊞ ((v 123) ⊠ (v 77))) ⊞ ((v 127) ⊠ (v 110))) ⊞ ((v 32) ⊠ (v 97))) ⊞ ((v 217) ⊠ (v 271))) ⊞ ((v 21) ⊠ (v 6))) ⊞ ((v 5) ⊠ (v 247))) ⊞ ((v 5) ⊠ (v 247))),
   .v 21 ((((((v 229) ⊠ (k (80149129911861 / 500000000000000))) ⊞ ((v 173) ⊠ (k (152322944854339 / 100000000000000000000000)))) ⊞ ((v 242) ⊠ (.neg (k (11460001 / 5000000000))))) ⊞ (((k 0) ⊟ (v 151)) ⊠ (k (1404749 / 100000000)))) ⊞ (((k 0) ⊟ (v 300)) ⊠ (k (9214321 / 2500000000)))),
   .v 123 (((k 0) ⊟ (v 126)) ⊠ (.neg (k (8711861 / 1000000000)))),
   .v 248 ((v 151) ⊠ (.neg (k (21200017 / 100000000000)))),
   .v 314 ((((v 2) ⊞ (v 123)) ⊟ (v 314)) ⊟ (v 248)),
   .v 314 (((((((v 5) ⊞ ((v 65) ⊠ (v 350))) ⊞ ((v 330) ⊠ (v 262))) ⊞ ((v 21) ⊠ (v 347))) ⊞ ((v 272) ⊠ (v 7))) ⊞ ((v 314) ⊠ (v 247))) ⊞ ((v 314) ⊠ (v 247))),
   .v 272 ((((((v 269) ⊠ (.neg (k (55615274403 / 10000000000000)))) ⊞ ((v 102) ⊠ (k (719043 / 50000000)))) ⊞ ((v 199) ⊠ (k (750500000000001 / 100000000000000000)))) ⊞ (((k 0) ⊟ (v 84)) ⊠ (.neg (k (18998907 / 5000000000))))) ⊞ ((v 94) ⊠ (.neg (k (2343059 / 200000000))))),
   .v 350 (((k 0) ⊟ (v 199)) ⊠ (k (2699999 / 50000000000))),
   .v 65 (((((k 0) ⊟ (v 102)) ⊠ (.neg (k (55615274403 / 10000000000000)))) ⊞ (v 350)) ⊟ (((k 0) ⊟ (v 94)) ⊠ (.neg (k (18998907 / 5000000000))))),
   .v 248 ((((v 123) ⊞ (v 281)) ⊞ (v 248)) ⊞ (v 101)),
   .v 248 (((((((((((v 307) ⊠ (v 67)) ⊞ ((v 286) ⊠ (v 60))) ⊞ ((v 107) ⊠ (v 53))) ⊞ ((v 117) ⊠ (v 54))) ⊞ ((v 129) ⊠ (v 262))) ⊞ ((v 216) ⊠ (v 69))) ⊞ ((v 208) ⊠ (v 7))) ⊞ ((v 21) ⊠ (v 247))) ⊞ ((v 248) ⊠ (v 347))) ⊞ ((v 248) ⊠ (v 347))),
   .v 350 (((((k 0) ⊟ (v 269)) ⊠ (k (719043 / 50000000))) ⊟ (v 350)) ⊟ ((v 84) ⊠ (.neg (k (2343059 / 200000000))))),
   .v 91 (((v 158) ⊠ (.neg (k (22851627 / 1000000000)))) ⊞ (((k 0) ⊟ (v 91)) ⊠ (.neg (k (43 / 15625))))),
   .hes 91 ((((((((((v 145) ⊠ (v 28)) ⊞ ((v 40) ⊠ (v 30))) ⊞ ((v 56) ⊠ (v 11))) ⊠ (v 20)) ⊞ ((((v 280) ⊠ (.neg (k 1))) ⊞ ((v 204) ⊠ (v 10))) ⊠ (v 38))) ⊞ (((((((((v 280) ⊠ (.neg (k (38 / 125)))) ⊞ ((v 188) ⊠ (v 28))) ⊞ ((v 314) ⊠ (v 30))) ⊞ ((v 204) ⊠ (v 38))) ⊞ ((v 272) ⊠ (v 11))) ⊞ ((v 65) ⊠ (v 10))) ⊞ ((v 65) ⊠ (v 10))) ⊠ (v 10))) ⊞ (((((((((v 145) ⊠ (v 43)) ⊞ ((v 40) ⊠ (v 42))) ⊞ ((v 248) ⊠ (.neg (k 1)))) ⊞ ((v 56) ⊠ (v 20))) ⊞ ((v 272) ⊠ (v 10))) ⊞ ((v 350) ⊠ (v 11))) ⊞ ((v 350) ⊠ (v 11))) ⊠ (v 11))) ⊞ (v 91)) ⊞ (v 91)),
   .v 91 (((v 87) ⊠ (k (61899 / 40000))) ⊞ ((v 295) ⊠ (.neg (k (61899 / 1600000))))),
   .v 350 (((v 91) ⊞ ((v 292) ⊠ (k (2629 / 1250)))) ⊞ ((v 318) ⊠ (.neg (k (28919 / 500000))))),
   .v 65 (((v 250) ⊠ (k (61899 / 40000))) ⊞ ((v 82) ⊠ (k (61899 / 1600000)))),
   .v 83 ((v 83) ⊠ (k (61899 / 40000))),
   .v 272 (((((v 65) ⊠ (v 77)) ⊞ ((v 83) ⊠ (v 76))) ⊞ ((v 335) ⊠ (k (2629 / 1250)))) ⊞ ((v 237) ⊠ (k (28919 / 500000)))),
   .v 204 ((((((v 350) ⊠ (v 52)) ⊞ ((v 272) ⊠ (v 53))) ⊞ ((v 126) ⊠ (k (8711861 / 5000000)))) ⊞ ((v 242) ⊠ (k (80149129911861 / 500000000000000)))) ⊞ ((v 300) ⊠ (.neg (k (152322944854339 / 100000000000000000000000))))),
   .v 280 (((((((v 65) ⊠ (v 79)) ⊞ ((v 83) ⊠ (v 77))) ⊞ ((v 173) ⊠ (k (2629 / 1250)))) ⊞ ((v 173) ⊠ (k (8711861 / 5000000)))) ⊞ ((v 242) ⊠ (k (8711861 / 1000000000)))) ⊞ ((v 151) ⊠ (k (152322944854339 / 100000000000000000000000)))),
   .v 56 ((((((v 350) ⊠ (v 53)) ⊞ ((v 272) ⊠ (v 62))) ⊞ ((v 229) ⊠ (k (8711861 / 5000000)))) ⊞ ((v 151) ⊠ (.neg (k (80149129911861 / 500000000000000))))) ⊞ ((v 300) ⊠ (.neg (k (8711861 / 1000000000))))),
   .v 250 (((((((((((v 250) ⊠ (k (61899 / 1600000))) ⊞ ((v 82) ⊠ (k (9277 / 1000000)))) ⊞ ((v 295) ⊠ (.neg (k (829 / 1000000))))) ⊞ ((v 213) ⊠ (k (3 / 200000)))) ⊞ ((v 65) ⊠ (v 78))) ⊞ ((v 83) ⊠ (v 81))) ⊞ ((v 335) ⊠ (k (28919 / 500000)))) ⊞ ((v 340) ⊠ (.neg (k (1243 / 1000000))))) ⊞ ((v 237) ⊠ (k (5823 / 200000)))) ⊞ ((v 318) ⊠ (.neg (k (1387 / 1000000))))),
   .v 87 (((((v 87) ⊠ (.neg (k (61899 / 1600000)))) ⊞ ((v 82) ⊠ (.neg (k (829 / 1000000))))) ⊞ ((v 295) ⊠ (k (3227 / 1000000)))) ⊞ ((v 213) ⊠ (k (99 / 500000)))),
   .v 213 ((((v 82) ⊠ (k (3 / 200000))) ⊞ ((v 295) ⊠ (k (99 / 500000)))) ⊞ ((v 213) ⊠ (k (10737 / 1000000)))),
   .hes 95 ((((((v 65) ⊠ (.neg (v 231))) ⊞ ((v 83) ⊠ (v 259))) ⊞ ((v 87) ⊠ (.neg (v 98)))) ⊞ ((v 213) ⊠ (v 90))) ⊞ (v 194)),
   .v 292 ((((((((v 91) ⊠ (.neg (k (23 / 125)))) ⊞ ((v 87) ⊠ (v 77))) ⊞ ((v 213) ⊠ (v 76))) ⊞ ((v 292) ⊠ (.neg (k (28919 / 500000))))) ⊞ ((v 340) ⊠ (.neg (k (3163 / 250000))))) ⊞ ((v 237) ⊠ (.neg (k (1387 / 1000000))))) ⊞ ((v 318) ⊠ (k (2429 / 125000)))),
   .hes 94 ((((((v 350) ⊠ (.neg (v 97))) ⊞ ((v 272) ⊠ (v 110))) ⊞ ((v 250) ⊠ (.neg (v 6)))) ⊞ ((v 292) ⊠ (v 271))) ⊞ (v 5)),
   .v 5 ((((((((((v 350) ⊠ (v 68)) ⊞ ((v 272) ⊠ (v 61))) ⊞ ((v 250) ⊠ (v 52))) ⊞ ((v 292) ⊠ (v 53))) ⊞ ((v 229) ⊠ (.neg (k (80149129911861 / 500000000000000))))) ⊞ ((v 173) ⊠ (k (152322944854339 / 100000000000000000000000)))) ⊞ ((v 242) ⊠ (.neg (k (11460001 / 5000000000))))) ⊞ ((v 151) ⊠ (k (1828449 / 100000000)))) ⊞ ((v 300) ⊠ (k (9214321 / 2500000000)))),
   .v 213 ((((((((((((v 91) ⊠ (k (83 / 4000))) ⊞ ((v 87) ⊠ (v 86))) ⊞ ((v 213) ⊠ (v 77))) ⊞ ((v 340) ⊠ (k (5523 / 500000)))) ⊞ ((v 237) ⊠ (.neg (k (1243 / 1000000))))) ⊞ ((v 318) ⊠ (.neg (k (3163 / 250000))))) ⊞ ((v 229) ⊠ (.neg (k (8711861 / 1000000000))))) ⊞ ((v 126) ⊠ (.neg (k (152322944854339 / 100000000000000000000000))))) ⊞ ((v 242) ⊠ (.neg (k (21200017 / 100000000000))))) ⊞ ((v 151) ⊠ (k (9214321 / 2500000000)))) ⊞ ((v 300) ⊠ (k (81661 / 1000000)))),
   .hes 92 ((((((((((((((((v 204) ⊠ (v 28)) ⊞ ((v 280) ⊠ (v 30))) ⊞ ((v 269) ⊠ (k (2327 / 1000)))) ⊞ ((v 199) ⊠ (.neg (k (55615274403 / 10000000000000))))) ⊞ ((v 94) ⊠ (.neg (k (80995889 / 125000000))))) ⊠ (.neg (v 38))) ⊞ ((((((v 56) ⊠ (.neg (k 1))) ⊞ ((v 102) ⊠ (k (2327 / 1000)))) ⊞ ((v 199) ⊠ (.neg (k (719043 / 50000000))))) ⊞ ((v 84) ⊠ (k (80995889 / 125000000)))) ⊠ (v 20))) ⊞ (((((((((v 56) ⊠ (.neg (k (38 / 125)))) ⊞ ((v 5) ⊠ (v 28))) ⊞ ((v 213) ⊠ (v 30))) ⊞ ((v 102) ⊠ (k (80995889 / 125000000)))) ⊞ ((v 199) ⊠ (.neg (k (18998907 / 5000000000))))) ⊞ ((v 84) ⊠ (k (4197379 / 20000000)))) ⊞ ((v 94) ⊠ (k (2699999 / 50000000000)))) ⊠ (.neg (v 11)))) ⊞ (((((((((v 204) ⊠ (v 43)) ⊞ ((v 280) ⊠ (v 42))) ⊞ (((((((((((v 350) ⊠ (v 67)) ⊞ ((v 272) ⊠ (v 60))) ⊞ ((v 250) ⊠ (v 53))) ⊞ ((v 292) ⊠ (v 54))) ⊞ ((v 126) ⊠ (k (80149129911861 / 500000000000000)))) ⊞ ((v 173) ⊠ (k (8711861 / 1000000000)))) ⊞ ((v 242) ⊠ (k (9570849 / 100000000)))) ⊞ ((v 151) ⊠ (.neg (k (11460001 / 5000000000))))) ⊞ ((v 300) ⊠ (.neg (k (21200017 / 100000000000))))) ⊠ (.neg (k 1)))) ⊞ ((v 269) ⊠ (.neg (k (80995889 / 125000000))))) ⊞ ((v 199) ⊠ (.neg (k (2343059 / 200000000))))) ⊞ ((v 84) ⊠ (k (2699999 / 50000000000)))) ⊞ ((v 94) ⊠ (k (4047279 / 20000000)))) ⊠ (v 10))) ⊞ ((v 188) ⊠ (v 31))) ⊞ ((v 314) ⊠ (v 28))) ⊞ (((k 0) ⊟ ((((v 102) ⊠ (k (2327 / 1000))) ⊞ (((k 0) ⊟ (v 199)) ⊠ (k (719043 / 50000000)))) ⊞ ((v 84) ⊠ (k (80995889 / 125000000))))) ⊠ (v 20))) ⊞ ((((v 199) ⊠ (.neg (k (55615274403 / 10000000000000)))) ⊟ (((v 269) ⊠ (.neg (k (2327 / 1000)))) ⊞ ((v 94) ⊠ (k (80995889 / 125000000))))) ⊠ (v 38))) ⊞ ((((((v 269) ⊠ (k (80995889 / 125000000))) ⊞ (((k 0) ⊟ (v 199)) ⊠ (.neg (k (2343059 / 200000000))))) ⊞ ((v 84) ⊠ (k (2699999 / 50000000000)))) ⊞ ((v 94) ⊠ (.neg (k (199538951 / 1000000000))))) ⊠ (v 10))) ⊞ ((((((v 102) ⊠ (k (80995889 / 125000000))) ⊞ ((v 199) ⊠ (.neg (k (18998907 / 5000000000))))) ⊞ (((k 0) ⊟ (v 84)) ⊠ (.neg (k (192033951 / 1000000000))))) ⊞ (((k 0) ⊟ (v 94)) ⊠ (k (2699999 / 50000000000)))) ⊠ (v 11))),
   .hes 93 ((((((v 204) ⊠ (.neg (v 69))) ⊞ ((v 280) ⊠ (v 262))) ⊞ ((v 5) ⊠ (.neg (v 247)))) ⊞ ((v 213) ⊠ (v 7))) ⊞ (v 248)),
   .v 213 ((w 6) ⊠ (v 4)),
   .v 5 (((w 7) ⊠ (v 20)) ⊞ ((v 213) ⊠ (v 19))),
   .v 280 (((w 7) ⊠ (v 11)) ⊞ ((v 213) ⊠ (v 10))),
   .v 204 (((v 5) ⊠ (v 30)) ⊞ ((v 280) ⊠ (v 42))),
   .v 248 (((w 7) ⊠ (v 38)) ⊞ ((v 213) ⊠ (v 18))),
   .v 213 (((w 7) ⊠ (v 10)) ⊞ ((v 213) ⊠ (v 9))),
   .v 262 (((v 248) ⊠ (.neg (k 1))) ⊞ ((v 213) ⊠ (.neg (k (38 / 125))))),
   .v 69 (((v 5) ⊠ (v 28)) ⊞ ((v 280) ⊠ (v 43))),
   .v 247 ((w 9) ⊞ ((v 280) ⊠ (.neg (k 1)))),
   .v 7 ((w 8) ⊞ ((w 6) ⊠ (v 0))),
   .v 292 (((v 7) ⊠ (v 31)) ⊞ ((v 213) ⊠ (v 28))),
   .v 250 (((((v 262) ⊠ (v 62)) ⊞ ((v 69) ⊠ (v 53))) ⊞ ((v 247) ⊠ (v 60))) ⊞ ((v 292) ⊠ (v 61))),
   .v 56 (((v 247) ⊠ (v 53)) ⊞ ((v 292) ⊠ (v 52))),
   .v 272 ((((v 204) ⊠ (v 77)) ⊞ ((v 250) ⊠ (v 76))) ⊞ ((v 56) ⊠ (v 81))),
   .v 350 ((v 272) ⊠ (k (61899 / 40000))),
   .v 314 ((v 53) ⊠ (v 31)),
   .v 188 (((v 77) ⊠ (v 314)) ⊞ ((v 86) ⊠ (v 28))),
   .v 300 ((((v 204) ⊠ (v 79)) ⊞ ((v 250) ⊠ (v 77))) ⊞ ((v 56) ⊠ (v 78))),
   .v 151 ((v 300) ⊠ (.neg (k (61899 / 40000)))),
   .v 199 ((w 11) ⊞ (v 56)),
   .v 242 ((v 199) ⊠ (k (61899 / 1600000))),
   .v 126 ((v 151) ⊟ (v 242)),
   .v 84 (((v 76) ⊠ (v 314)) ⊞ ((v 77) ⊠ (v 28))),
   .v 102 (((v 350) ⊠ (v 188)) ⊞ ((v 126) ⊠ (v 84))),
   .v 173 ((k 0) ⊟ (((v 250) ⊠ (k (2629 / 1250))) ⊞ ((v 56) ⊠ (k (28919 / 500000))))),
   .v 94 ((v 204) ⊠ (k (2629 / 1250))),
   .v 269 (((v 102) ⊞ ((v 173) ⊠ (v 28))) ⊞ ((v 94) ⊠ (v 314))),
   .v 87 ((k 0) ⊟ (v 350)),
   .v 91 ((v 52) ⊠ (v 31)),
   .v 318 (((((v 262) ⊠ (v 53)) ⊞ ((v 69) ⊠ (v 52))) ⊞ ((v 247) ⊠ (v 67))) ⊞ ((v 292) ⊠ (v 68))),
   .v 7 (((v 7) ⊠ (v 28)) ⊞ ((v 213) ⊠ (v 30))),
   .v 340 ((w 10) ⊞ (v 7)),
   .v 237 (((v 247) ⊠ (v 54)) ⊞ ((v 292) ⊠ (v 53))),
   .v 229 (((v 318) ⊞ ((v 340) ⊠ (k (83 / 4000)))) ⊞ ((v 237) ⊠ (.neg (k (23 / 125))))),
   .v 110 (((v 340) ⊠ (v 86)) ⊞ ((v 237) ⊠ (v 77))),
   .v 97 (((v 229) ⊠ (k (61899 / 40000))) ⊞ (((k 0) ⊟ (v 110)) ⊠ (k (61899 / 1600000)))),
   .v 271 (((v 87) ⊠ (v 91)) ⊞ ((v 97) ⊠ (v 84))),
   .v 242 (((k 0) ⊟ (v 151)) ⊞ (v 242))]

/-- HyAInverseDynHessian.cpp:2768-2894. -/
def part19 : List Stmt :=
  [.v 151 ((k 0) ⊟ (v 97)),
   .v 6 (((v 242) ⊠ (v 91)) ⊞ ((v 151) ⊠ (v 188))),
   .v 83 ((k 0) ⊟ (((v 318) ⊠ (.neg (k (2629 / 1250)))) ⊞ ((v 237) ⊠ (k (28919 / 500000))))),
   .v 65 ((k 0) ⊟ (v 94)),
   .v 194 (((((v 271) ⊠ (v 77)) ⊞ ((v 6) ⊠ (v 76))) ⊞ ((v 83) ⊠ (v 28))) ⊞ ((v 65) ⊠ (v 91))),
   .v 231 ((v 61) ⊠ (v 31)),
   .v 259 (((v 77) ⊠ (v 231)) ⊞ ((v 78) ⊠ (v 91))),
   .v 98 (((v 76) ⊠ (v 231)) ⊞ ((v 81) ⊠ (v 91))),
   .v 90 (((v 340) ⊠ (v 77)) ⊞ ((v 237) ⊠ (v 76))),
   .v 295 (((((k 0) ⊟ (v 199)) ⊠ (k (3 / 200000))) ⊞ ((v 110) ⊠ (k (99 / 500000)))) ⊞ ((v 90) ⊠ (k (121 / 20000)))),
   .v 82 (((((v 229) ⊠ (k (61899 / 1600000))) ⊞ ((v 199) ⊠ (.neg (k (829 / 1000000))))) ⊞ (((k 0) ⊟ (v 110)) ⊠ (.neg (k (73 / 50000))))) ⊞ (((k 0) ⊟ (v 90)) ⊠ (k (99 / 500000)))),
   .v 335 (((k 0) ⊟ (v 272)) ⊠ (k (61899 / 1600000))),
   .v 40 ((v 110) ⊠ (k (3 / 200000))),
   .v 145 (((k 0) ⊟ (v 90)) ⊠ (.neg (k (829 / 1000000)))),
   .v 158 (((v 335) ⊞ (v 40)) ⊞ (v 145)),
   .v 158 (((((((v 87) ⊠ (v 259)) ⊞ ((v 242) ⊠ (v 98))) ⊞ ((v 295) ⊠ (v 188))) ⊞ ((v 82) ⊠ (v 84))) ⊞ ((v 158) ⊠ (v 91))) ⊞ ((v 158) ⊠ (v 91))),
   .v 242 (((((v 318) ⊠ (k (28919 / 500000))) ⊞ (((k 0) ⊟ (v 340)) ⊠ (.neg (k (3163 / 250000))))) ⊞ ((v 56) ⊠ (.neg (k (1387 / 1000000))))) ⊞ ((v 237) ⊠ (.neg (k (18069 / 1000000))))),
   .v 87 ((((v 340) ⊠ (k (9683 / 1000000))) ⊞ (((k 0) ⊟ (v 56)) ⊠ (.neg (k (1243 / 1000000))))) ⊞ ((v 237) ⊠ (.neg (k (3163 / 250000))))),
   .v 21 (((k 0) ⊟ (v 204)) ⊠ (k (28919 / 500000))),
   .v 208 (((k 0) ⊟ (v 340)) ⊠ (.neg (k (1387 / 1000000)))),
   .v 117 (((k 0) ⊟ (v 237)) ⊠ (.neg (k (1243 / 1000000)))),
   .v 107 (((v 21) ⊞ (v 208)) ⊟ (v 117)),
   .v 107 ((((((((v 158) ⊞ ((v 271) ⊠ (v 78))) ⊞ ((v 6) ⊠ (v 81))) ⊞ ((v 65) ⊠ (v 231))) ⊞ ((v 242) ⊠ (v 28))) ⊞ ((v 87) ⊠ (v 314))) ⊞ ((v 107) ⊠ (v 91))) ⊞ ((v 107) ⊠ (v 91))),
   .v 65 ((v 68) ⊠ (v 31)),
   .v 6 ((((k (83 / 4000)) ⊠ (v 28)) ⊞ ((.neg (k (23 / 125))) ⊠ (v 314))) ⊞ (v 65)),
   .v 271 (((((v 300) ⊠ (k (61899 / 1600000))) ⊞ ((v 199) ⊠ (.neg (k (751 / 100000))))) ⊞ (((k 0) ⊟ (v 110)) ⊠ (.neg (k (829 / 1000000))))) ⊞ ((v 90) ⊠ (k (3 / 200000)))),
   .v 216 (((k 0) ⊟ (v 199)) ⊠ (k (99 / 500000))),
   .v 145 (((v 335) ⊞ (v 216)) ⊟ (v 145)),
   .v 145 (((((((v 350) ⊠ (v 6)) ⊞ ((v 151) ⊠ (v 98))) ⊞ ((v 295) ⊠ (v 91))) ⊞ ((v 271) ⊠ (v 84))) ⊞ ((v 145) ⊠ (v 188))) ⊞ ((v 145) ⊠ (v 188))),
   .v 216 (((k 0) ⊟ (v 216)) ⊟ (v 40)),
   .v 216 (((((((v 126) ⊠ (v 6)) ⊞ ((v 97) ⊠ (v 259))) ⊞ ((v 82) ⊠ (v 91))) ⊞ ((v 271) ⊠ (v 188))) ⊞ ((v 216) ⊠ (v 84))) ⊞ ((v 216) ⊠ (v 84))),
   .v 271 (((((v 250) ⊠ (k (28919 / 500000))) ⊞ ((v 340) ⊠ (.neg (k (1243 / 1000000))))) ⊞ (((k 0) ⊟ (v 56)) ⊠ (.neg (k (4193 / 500000))))) ⊞ (((k 0) ⊟ (v 237)) ⊠ (.neg (k (1387 / 1000000))))),
   .v 6 ((v 56) ⊠ (.neg (k (3163 / 250000)))),
   .v 208 (((v 21) ⊟ (v 208)) ⊟ (v 6)),
   .v 208 (((((((((v 102) ⊠ (.neg (k (23 / 125)))) ⊞ ((v 145) ⊠ (v 77))) ⊞ ((v 216) ⊠ (v 76))) ⊞ ((v 94) ⊠ (v 65))) ⊞ ((v 271) ⊠ (v 28))) ⊞ ((v 87) ⊠ (v 91))) ⊞ ((v 208) ⊠ (v 314))) ⊞ ((v 208) ⊠ (v 314))),
   .v 87 ((((((v 69) ⊠ (k (80149129911861 / 500000000000000))) ⊞ ((v 204) ⊠ (.neg (k (8711861 / 1000000000))))) ⊞ ((v 247) ⊠ (.neg (k (6337651 / 100000000))))) ⊞ (((k 0) ⊟ (v 292)) ⊠ (.neg (k (11460001 / 5000000000))))) ⊞ ((v 7) ⊠ (.neg (k (21200017 / 100000000000))))),
   .v 94 (((k 0) ⊟ (v 262)) ⊠ (k (152322944854339 / 100000000000000000000000))),
   .v 21 (((k 0) ⊟ (v 247)) ⊠ (k (9214321 / 2500000000))),
   .v 82 ((((v 94) ⊞ (((k 0) ⊟ (v 204)) ⊠ (k (80149129911861 / 500000000000000)))) ⊞ (v 21)) ⊟ (((k 0) ⊟ (v 7)) ⊠ (.neg (k (11460001 / 5000000000))))),
   .v 6 ((v 6) ⊞ (v 117)),
   .v 6 ((((((((((v 102) ⊠ (k (83 / 4000))) ⊞ ((v 145) ⊠ (v 86))) ⊞ ((v 216) ⊠ (v 77))) ⊞ ((v 173) ⊠ (v 65))) ⊞ ((v 83) ⊠ (v 231))) ⊞ ((v 242) ⊠ (v 91))) ⊞ ((v 271) ⊠ (v 314))) ⊞ ((v 6) ⊠ (v 28))) ⊞ ((v 6) ⊠ (v 28))),
   .v 21 ((((v 94) ⊞ (((k 0) ⊟ (v 69)) ⊠ (.neg (k (8711861 / 1000000000))))) ⊟ (v 21)) ⊟ ((v 292) ⊠ (.neg (k (21200017 / 100000000000))))),
   .v 213 ((((((k 0) ⊟ (v 5)) ⊠ (k (719043 / 50000000))) ⊞ (((k 0) ⊟ (v 248)) ⊠ (.neg (k (55615274403 / 10000000000000))))) ⊞ ((v 213) ⊠ (.neg (k (2343059 / 200000000))))) ⊞ (((k 0) ⊟ (v 280)) ⊠ (.neg (k (18998907 / 5000000000))))),
   .hes 104 ((((((((((((v 269) ⊠ (v 68)) ⊞ ((v 194) ⊠ (v 61))) ⊞ ((v 107) ⊠ (v 52))) ⊞ ((v 208) ⊠ (v 53))) ⊞ ((v 87) ⊠ (v 28))) ⊞ ((v 82) ⊠ (v 31))) ⊞ ((v 82) ⊠ (v 31))) ⊠ (v 31)) ⊞ (((((v 6) ⊞ ((v 87) ⊠ (v 31))) ⊞ ((v 21) ⊠ (v 28))) ⊞ ((v 21) ⊠ (v 28))) ⊠ (v 28))) ⊞ (v 213)) ⊞ (v 213)),
   .v 213 (((v 229) ⊠ (k (61899 / 40000))) ⊞ ((v 110) ⊠ (.neg (k (61899 / 1600000))))),
   .v 21 (((v 213) ⊞ ((v 318) ⊠ (k (2629 / 1250)))) ⊞ ((v 237) ⊠ (.neg (k (28919 / 500000))))),
   .v 82 (((v 300) ⊠ (k (61899 / 40000))) ⊞ ((v 199) ⊠ (k (61899 / 1600000)))),
   .v 272 ((v 272) ⊠ (k (61899 / 40000))),
   .v 87 (((((v 82) ⊠ (v 77)) ⊞ ((v 272) ⊠ (v 76))) ⊞ ((v 250) ⊠ (k (2629 / 1250)))) ⊞ ((v 56) ⊠ (k (28919 / 500000)))),
   .v 300 (((((((((((v 300) ⊠ (k (61899 / 1600000))) ⊞ ((v 199) ⊠ (k (9277 / 1000000)))) ⊞ ((v 110) ⊠ (.neg (k (829 / 1000000))))) ⊞ ((v 90) ⊠ (k (3 / 200000)))) ⊞ ((v 82) ⊠ (v 78))) ⊞ ((v 272) ⊠ (v 81))) ⊞ ((v 250) ⊠ (k (28919 / 500000)))) ⊞ ((v 340) ⊠ (.neg (k (1243 / 1000000))))) ⊞ ((v 56) ⊠ (k (5823 / 200000)))) ⊞ ((v 237) ⊠ (.neg (k (1387 / 1000000))))),
   .v 229 (((((v 229) ⊠ (.neg (k (61899 / 1600000)))) ⊞ ((v 199) ⊠ (.neg (k (829 / 1000000))))) ⊞ ((v 110) ⊠ (k (3227 / 1000000)))) ⊞ ((v 90) ⊠ (k (99 / 500000)))),
   .v 90 ((((v 199) ⊠ (k (3 / 200000))) ⊞ ((v 110) ⊠ (k (99 / 500000)))) ⊞ ((v 90) ⊠ (k (10737 / 1000000)))),
   .hes 107 ((((((v 82) ⊠ (.neg (v 98))) ⊞ ((v 272) ⊠ (v 259))) ⊞ ((v 229) ⊠ (.neg (v 84)))) ⊞ ((v 90) ⊠ (v 188))) ⊞ (v 158)),
   .v 318 ((((((((v 213) ⊠ (.neg (k (23 / 125)))) ⊞ ((v 229) ⊠ (v 77))) ⊞ ((v 90) ⊠ (v 76))) ⊞ ((v 318) ⊠ (.neg (k (28919 / 500000))))) ⊞ ((v 340) ⊠ (.neg (k (3163 / 250000))))) ⊞ ((v 56) ⊠ (.neg (k (1387 / 1000000))))) ⊞ ((v 237) ⊠ (k (2429 / 125000)))),
   .hes 105 ((((((((((((((((((v 21) ⊠ (v 68)) ⊞ ((v 87) ⊠ (v 61))) ⊞ ((v 300) ⊠ (v 52))) ⊞ ((v 318) ⊠ (v 53))) ⊞ ((v 262) ⊠ (.neg (k (80149129911861 / 500000000000000))))) ⊞ ((v 204) ⊠ (k (152322944854339 / 100000000000000000000000)))) ⊞ ((v 247) ⊠ (.neg (k (11460001 / 5000000000))))) ⊞ ((v 292) ⊠ (k (1828449 / 100000000)))) ⊞ ((v 7) ⊠ (k (9214321 / 2500000000)))) ⊠ (.neg (v 28))) ⊞ (((((((((((((v 213) ⊠ (k (83 / 4000))) ⊞ ((v 229) ⊠ (v 86))) ⊞ ((v 90) ⊠ (v 77))) ⊞ ((v 340) ⊠ (k (5523 / 500000)))) ⊞ ((v 56) ⊠ (.neg (k (1243 / 1000000))))) ⊞ ((v 237) ⊠ (.neg (k (3163 / 250000))))) ⊞ ((v 262) ⊠ (.neg (k (8711861 / 1000000000))))) ⊞ ((v 69) ⊠ (.neg (k (152322944854339 / 100000000000000000000000))))) ⊞ ((v 247) ⊠ (.neg (k (21200017 / 100000000000))))) ⊞ ((v 292) ⊠ (k (9214321 / 2500000000)))) ⊞ ((v 7) ⊠ (k (81661 / 1000000)))) ⊠ (v 31))) ⊞ ((v 269) ⊠ (v 67))) ⊞ ((v 194) ⊠ (v 60))) ⊞ ((v 107) ⊠ (v 53))) ⊞ ((v 208) ⊠ (v 54))) ⊞ (((((((v 262) ⊠ (.neg (k (8711861 / 1000000000)))) ⊞ ((v 69) ⊠ (k (152322944854339 / 100000000000000000000000)))) ⊞ (((k 0) ⊟ (v 247)) ⊠ (.neg (k (21200017 / 100000000000))))) ⊞ ((v 292) ⊠ (k (9214321 / 2500000000)))) ⊞ ((v 7) ⊠ (k (4839 / 62500)))) ⊠ (v 31))) ⊞ (((((((v 262) ⊠ (k (80149129911861 / 500000000000000))) ⊞ ((v 204) ⊠ (k (152322944854339 / 100000000000000000000000)))) ⊞ ((v 247) ⊠ (.neg (k (11460001 / 5000000000))))) ⊞ (((k 0) ⊟ (v 292)) ⊠ (k (1404749 / 100000000)))) ⊞ (((k 0) ⊟ (v 7)) ⊠ (k (9214321 / 2500000000)))) ⊠ (v 28))),
   .hes 106 ((((((v 21) ⊠ (.neg (v 231))) ⊞ ((v 87) ⊠ (v 65))) ⊞ ((v 300) ⊠ (.neg (v 314)))) ⊞ ((v 318) ⊠ (v 91))) ⊞ (v 6)),
   .v 318 ((w 6) ⊠ (v 4)),
   .v 300 (((w 7) ⊠ (v 20)) ⊞ ((v 318) ⊠ (v 19))),
   .v 87 (((w 7) ⊠ (v 11)) ⊞ ((v 318) ⊠ (v 10))),
   .v 21 (((v 300) ⊠ (v 30)) ⊞ ((v 87) ⊠ (v 42))),
   .v 6 (((w 7) ⊠ (v 10)) ⊞ ((v 318) ⊠ (v 9))),
   .v 318 (((((w 7) ⊠ (v 38)) ⊞ ((v 318) ⊠ (v 18))) ⊠ (.neg (k 1))) ⊞ ((v 6) ⊠ (.neg (k (38 / 125))))),
   .v 300 (((v 300) ⊠ (v 28)) ⊞ ((v 87) ⊠ (v 43))),
   .v 87 ((w 9) ⊞ ((v 87) ⊠ (.neg (k 1)))),
   .v 65 ((w 8) ⊞ ((w 6) ⊠ (v 0))),
   .v 231 (((v 65) ⊠ (v 31)) ⊞ ((v 6) ⊠ (v 28))),
   .v 91 (((((v 318) ⊠ (v 62)) ⊞ ((v 300) ⊠ (v 53))) ⊞ ((v 87) ⊠ (v 60))) ⊞ ((v 231) ⊠ (v 61))),
   .v 314 (((v 87) ⊠ (v 53)) ⊞ ((v 231) ⊠ (v 52))),
   .v 90 ((((v 21) ⊠ (v 77)) ⊞ ((v 91) ⊠ (v 76))) ⊞ ((v 314) ⊠ (v 81))),
   .v 229 ((v 90) ⊠ (k (61899 / 40000))),
   .v 213 ((v 77) ⊠ (v 54)),
   .v 208 ((((v 21) ⊠ (v 79)) ⊞ ((v 91) ⊠ (v 77))) ⊞ ((v 314) ⊠ (v 78))),
   .v 107 ((v 208) ⊠ (.neg (k (61899 / 40000)))),
   .v 194 ((w 11) ⊞ (v 314)),
   .v 237 ((v 194) ⊠ (k (61899 / 1600000))),
   .v 340 ((v 107) ⊟ (v 237)),
   .v 7 ((v 76) ⊠ (v 54)),
   .v 269 (((v 229) ⊠ (v 213)) ⊞ ((v 340) ⊠ (v 7))),
   .v 56 ((v 21) ⊠ (k (2629 / 1250))),
   .v 292 ((k 0) ⊟ (v 229)),
   .v 318 (((((v 318) ⊠ (v 53)) ⊞ ((v 300) ⊠ (v 52))) ⊞ ((v 87) ⊠ (v 67))) ⊞ ((v 231) ⊠ (v 68))),
   .v 65 (((v 65) ⊠ (v 28)) ⊞ ((v 6) ⊠ (v 30))),
   .v 6 ((w 10) ⊞ (v 65)),
   .v 87 (((v 87) ⊠ (v 54)) ⊞ ((v 231) ⊠ (v 53))),
   .v 247 (((v 318) ⊞ ((v 6) ⊠ (k (83 / 4000)))) ⊞ ((v 87) ⊠ (.neg (k (23 / 125))))),
   .v 69 (((v 6) ⊠ (v 86)) ⊞ ((v 87) ⊠ (v 77))),
   .v 262 (((v 247) ⊠ (k (61899 / 40000))) ⊞ (((k 0) ⊟ (v 69)) ⊠ (k (61899 / 1600000)))),
   .v 204 (((v 292) ⊠ (v 53)) ⊞ ((v 262) ⊠ (v 7))),
   .v 237 (((k 0) ⊟ (v 107)) ⊞ (v 237)),
   .v 107 ((k 0) ⊟ (v 262)),
   .v 272 (((v 237) ⊠ (v 53)) ⊞ ((v 107) ⊠ (v 213))),
   .v 82 ((k 0) ⊟ (v 56)),
   .v 158 (((v 77) ⊠ (v 60)) ⊞ ((v 78) ⊠ (v 53))),
   .v 98 (((v 76) ⊠ (v 60)) ⊞ ((v 81) ⊠ (v 53))),
   .v 259 (((v 6) ⊠ (v 77)) ⊞ ((v 87) ⊠ (v 76))),
   .v 84 (((((k 0) ⊟ (v 194)) ⊠ (k (3 / 200000))) ⊞ ((v 69) ⊠ (k (99 / 500000)))) ⊞ ((v 259) ⊠ (k (121 / 20000)))),
   .v 188 (((((v 247) ⊠ (k (61899 / 1600000))) ⊞ ((v 194) ⊠ (.neg (k (829 / 1000000))))) ⊞ (((k 0) ⊟ (v 69)) ⊠ (.neg (k (73 / 50000))))) ⊞ (((k 0) ⊟ (v 259)) ⊠ (k (99 / 500000)))),
   .v 110 (((k 0) ⊟ (v 90)) ⊠ (k (61899 / 1600000))),
   .v 199 ((v 69) ⊠ (k (3 / 200000))),
   .v 250 (((k 0) ⊟ (v 259)) ⊠ (.neg (k (829 / 1000000))))]

/-- HyAInverseDynHessian.cpp:2895-3031. -/
def part20 : List Stmt :=
  [.v 248 (((v 110) ⊞ (v 199)) ⊞ (v 250)),
   .v 248 (((((((v 292) ⊠ (v 158)) ⊞ ((v 237) ⊠ (v 98))) ⊞ ((v 84) ⊠ (v 213))) ⊞ ((v 188) ⊠ (v 7))) ⊞ ((v 248) ⊠ (v 53))) ⊞ ((v 248) ⊠ (v 53))),
   .v 237 ((((v 6) ⊠ (k (9683 / 1000000))) ⊞ (((k 0) ⊟ (v 314)) ⊠ (.neg (k (1243 / 1000000))))) ⊞ ((v 87) ⊠ (.neg (k (3163 / 250000))))),
   .v 292 (((k 0) ⊟ (v 21)) ⊠ (k (28919 / 500000))),
   .v 280 (((k 0) ⊟ (v 6)) ⊠ (.neg (k (1387 / 1000000)))),
   .v 5 (((v 292) ⊞ (v 280)) ⊟ (((k 0) ⊟ (v 87)) ⊠ (.neg (k (1243 / 1000000))))),
   .v 94 (((.neg (k (23 / 125))) ⊠ (v 54)) ⊞ (v 67)),
   .v 271 (((((v 208) ⊠ (k (61899 / 1600000))) ⊞ ((v 194) ⊠ (.neg (k (751 / 100000))))) ⊞ (((k 0) ⊟ (v 69)) ⊠ (.neg (k (829 / 1000000))))) ⊞ ((v 259) ⊠ (k (3 / 200000)))),
   .v 216 (((k 0) ⊟ (v 194)) ⊠ (k (99 / 500000))),
   .v 250 (((v 110) ⊞ (v 216)) ⊟ (v 250)),
   .v 250 (((((((v 229) ⊠ (v 94)) ⊞ ((v 107) ⊠ (v 98))) ⊞ ((v 84) ⊠ (v 53))) ⊞ ((v 271) ⊠ (v 7))) ⊞ ((v 250) ⊠ (v 213))) ⊞ ((v 250) ⊠ (v 213))),
   .v 216 (((k 0) ⊟ (v 216)) ⊟ (v 199)),
   .v 216 (((((((v 340) ⊠ (v 94)) ⊞ ((v 262) ⊠ (v 158))) ⊞ ((v 188) ⊠ (v 53))) ⊞ ((v 271) ⊠ (v 213))) ⊞ ((v 216) ⊠ (v 7))) ⊞ ((v 216) ⊠ (v 7))),
   .v 280 (((v 292) ⊟ (v 280)) ⊟ ((v 314) ⊠ (.neg (k (3163 / 250000))))),
   .v 65 ((((((k 0) ⊟ (v 300)) ⊠ (.neg (k (8711861 / 1000000000)))) ⊞ (((k 0) ⊟ (v 21)) ⊠ (k (80149129911861 / 500000000000000)))) ⊞ ((v 231) ⊠ (.neg (k (21200017 / 100000000000))))) ⊞ (((k 0) ⊟ (v 65)) ⊠ (.neg (k (11460001 / 5000000000))))),
   .hes 117 ((((((((v 269) ⊞ ((v 56) ⊠ (v 54))) ⊠ (v 67)) ⊞ (((((v 204) ⊠ (v 77)) ⊞ ((v 272) ⊠ (v 76))) ⊞ ((v 82) ⊠ (v 53))) ⊠ (v 60))) ⊞ ((((((((v 248) ⊞ ((v 204) ⊠ (v 78))) ⊞ ((v 272) ⊠ (v 81))) ⊞ ((v 82) ⊠ (v 60))) ⊞ ((v 237) ⊠ (v 54))) ⊞ ((v 5) ⊠ (v 53))) ⊞ ((v 5) ⊠ (v 53))) ⊠ (v 53))) ⊞ (((((((((v 269) ⊠ (.neg (k (23 / 125)))) ⊞ ((v 250) ⊠ (v 77))) ⊞ ((v 216) ⊠ (v 76))) ⊞ ((v 56) ⊠ (v 67))) ⊞ ((v 237) ⊠ (v 53))) ⊞ ((v 280) ⊠ (v 54))) ⊞ ((v 280) ⊠ (v 54))) ⊠ (v 54))) ⊞ (v 65)) ⊞ (v 65)),
   .v 65 (((v 247) ⊠ (k (61899 / 40000))) ⊞ ((v 69) ⊠ (.neg (k (61899 / 1600000))))),
   .v 280 (((v 208) ⊠ (k (61899 / 40000))) ⊞ ((v 194) ⊠ (k (61899 / 1600000)))),
   .v 90 ((v 90) ⊠ (k (61899 / 40000))),
   .v 247 (((((v 247) ⊠ (.neg (k (61899 / 1600000)))) ⊞ ((v 194) ⊠ (.neg (k (829 / 1000000))))) ⊞ ((v 69) ⊠ (k (3227 / 1000000)))) ⊞ ((v 259) ⊠ (k (99 / 500000)))),
   .v 5 ((((v 194) ⊠ (k (3 / 200000))) ⊞ ((v 69) ⊠ (k (99 / 500000)))) ⊞ ((v 259) ⊠ (k (10737 / 1000000)))),
   .hes 118 ((((((((((((((v 65) ⊞ ((v 318) ⊠ (k (2629 / 1250)))) ⊞ ((v 87) ⊠ (.neg (k (28919 / 500000))))) ⊠ (.neg (v 60))) ⊞ ((((((v 280) ⊠ (v 77)) ⊞ ((v 90) ⊠ (v 76))) ⊞ ((v 91) ⊠ (k (2629 / 1250)))) ⊞ ((v 314) ⊠ (k (28919 / 500000)))) ⊠ (v 67))) ⊞ ((((((((((((v 208) ⊠ (k (61899 / 1600000))) ⊞ ((v 194) ⊠ (k (9277 / 1000000)))) ⊞ ((v 69) ⊠ (.neg (k (829 / 1000000))))) ⊞ ((v 259) ⊠ (k (3 / 200000)))) ⊞ ((v 280) ⊠ (v 78))) ⊞ ((v 90) ⊠ (v 81))) ⊞ ((v 91) ⊠ (k (28919 / 500000)))) ⊞ ((v 6) ⊠ (.neg (k (1243 / 1000000))))) ⊞ ((v 314) ⊠ (k (5823 / 200000)))) ⊞ ((v 87) ⊠ (.neg (k (1387 / 1000000))))) ⊠ (.neg (v 54)))) ⊞ (((((((((v 65) ⊠ (.neg (k (23 / 125)))) ⊞ ((v 247) ⊠ (v 77))) ⊞ ((v 5) ⊠ (v 76))) ⊞ ((v 318) ⊠ (.neg (k (28919 / 500000))))) ⊞ ((v 6) ⊠ (.neg (k (3163 / 250000))))) ⊞ ((v 314) ⊠ (.neg (k (1387 / 1000000))))) ⊞ ((v 87) ⊠ (k (2429 / 125000)))) ⊠ (v 53))) ⊞ ((v 269) ⊠ (k (83 / 4000)))) ⊞ ((v 250) ⊠ (v 86))) ⊞ ((v 216) ⊠ (v 77))) ⊞ (((k 0) ⊟ (((v 91) ⊠ (k (2629 / 1250))) ⊞ ((v 314) ⊠ (k (28919 / 500000))))) ⊠ (v 67))) ⊞ (((k 0) ⊟ (((v 318) ⊠ (.neg (k (2629 / 1250)))) ⊞ ((v 87) ⊠ (k (28919 / 500000))))) ⊠ (v 60))) ⊞ ((((((v 318) ⊠ (k (28919 / 500000))) ⊞ (((k 0) ⊟ (v 6)) ⊠ (.neg (k (3163 / 250000))))) ⊞ ((v 314) ⊠ (.neg (k (1387 / 1000000))))) ⊞ ((v 87) ⊠ (.neg (k (18069 / 1000000))))) ⊠ (v 53))) ⊞ ((((((v 91) ⊠ (k (28919 / 500000))) ⊞ ((v 6) ⊠ (.neg (k (1243 / 1000000))))) ⊞ (((k 0) ⊟ (v 314)) ⊠ (.neg (k (4193 / 500000))))) ⊞ (((k 0) ⊟ (v 87)) ⊠ (.neg (k (1387 / 1000000))))) ⊠ (v 54))),
   .hes 119 ((((((v 280) ⊠ (.neg (v 98))) ⊞ ((v 90) ⊠ (v 158))) ⊞ ((v 247) ⊠ (.neg (v 7)))) ⊞ ((v 5) ⊠ (v 213))) ⊞ (v 248)),
   .v 5 ((w 6) ⊠ (v 4)),
   .v 247 (((w 7) ⊠ (v 20)) ⊞ ((v 5) ⊠ (v 19))),
   .v 90 (((w 7) ⊠ (v 11)) ⊞ ((v 5) ⊠ (v 10))),
   .v 280 (((v 247) ⊠ (v 30)) ⊞ ((v 90) ⊠ (v 42))),
   .v 248 (((w 7) ⊠ (v 10)) ⊞ ((v 5) ⊠ (v 9))),
   .v 5 (((((w 7) ⊠ (v 38)) ⊞ ((v 5) ⊠ (v 18))) ⊠ (.neg (k 1))) ⊞ ((v 248) ⊠ (.neg (k (38 / 125))))),
   .v 247 (((v 247) ⊠ (v 28)) ⊞ ((v 90) ⊠ (v 43))),
   .v 90 ((w 9) ⊞ ((v 90) ⊠ (.neg (k 1)))),
   .v 98 ((w 8) ⊞ ((w 6) ⊠ (v 0))),
   .v 158 (((v 98) ⊠ (v 31)) ⊞ ((v 248) ⊠ (v 28))),
   .v 7 (((((v 5) ⊠ (v 62)) ⊞ ((v 247) ⊠ (v 53))) ⊞ ((v 90) ⊠ (v 60))) ⊞ ((v 158) ⊠ (v 61))),
   .v 213 (((v 90) ⊠ (v 53)) ⊞ ((v 158) ⊠ (v 52))),
   .v 65 ((((v 280) ⊠ (v 77)) ⊞ ((v 7) ⊠ (v 76))) ⊞ ((v 213) ⊠ (v 81))),
   .v 216 ((v 65) ⊠ (k (61899 / 40000))),
   .v 7 ((((v 280) ⊠ (v 79)) ⊞ ((v 7) ⊠ (v 77))) ⊞ ((v 213) ⊠ (v 78))),
   .v 280 ((w 11) ⊞ (v 213)),
   .v 79 (((v 7) ⊠ (.neg (k (61899 / 40000)))) ⊟ ((v 280) ⊠ (k (61899 / 1600000)))),
   .v 98 (((w 10) ⊞ ((v 98) ⊠ (v 28))) ⊞ ((v 248) ⊠ (v 30))),
   .v 248 (((v 90) ⊠ (v 54)) ⊞ ((v 158) ⊠ (v 53))),
   .v 78 (((v 98) ⊠ (v 86)) ⊞ ((v 248) ⊠ (v 77))),
   .v 250 (((v 98) ⊠ (v 77)) ⊞ ((v 248) ⊠ (v 76))),
   .v 7 (((((v 7) ⊠ (k (61899 / 1600000))) ⊞ ((v 280) ⊠ (.neg (k (751 / 100000))))) ⊞ (((k 0) ⊟ (v 78)) ⊠ (.neg (k (829 / 1000000))))) ⊞ ((v 250) ⊠ (k (3 / 200000)))),
   .v 259 (((k 0) ⊟ (v 280)) ⊠ (k (99 / 500000))),
   .v 65 (((((k 0) ⊟ (v 65)) ⊠ (k (61899 / 1600000))) ⊞ (v 259)) ⊟ (((k 0) ⊟ (v 250)) ⊠ (.neg (k (829 / 1000000))))),
   .v 259 (((k 0) ⊟ (v 259)) ⊟ ((v 78) ⊠ (k (3 / 200000)))),
   .v 213 (((v 213) ⊠ (.neg (k (3163 / 250000)))) ⊞ (((k 0) ⊟ (v 248)) ⊠ (.neg (k (1243 / 1000000))))),
   .hes 130 ((((((((v 216) ⊠ (v 86)) ⊞ ((v 79) ⊠ (v 77))) ⊠ (k (83 / 4000))) ⊞ ((((((v 216) ⊠ (k (83 / 4000))) ⊞ ((v 7) ⊠ (v 77))) ⊞ ((v 65) ⊠ (v 86))) ⊞ ((v 65) ⊠ (v 86))) ⊠ (v 86))) ⊞ ((((((v 79) ⊠ (k (83 / 4000))) ⊞ ((v 7) ⊠ (v 86))) ⊞ ((v 259) ⊠ (v 77))) ⊞ ((v 259) ⊠ (v 77))) ⊠ (v 77))) ⊞ (v 213)) ⊞ (v 213)),
   .v 248 (((((((v 5) ⊠ (v 53)) ⊞ ((v 247) ⊠ (v 52))) ⊞ ((v 90) ⊠ (v 67))) ⊞ ((v 158) ⊠ (v 68))) ⊞ ((v 98) ⊠ (k (83 / 4000)))) ⊞ ((v 248) ⊠ (.neg (k (23 / 125))))),
   .hes 131 (((((((((v 248) ⊠ (.neg (k (61899 / 1600000)))) ⊞ ((v 280) ⊠ (.neg (k (829 / 1000000))))) ⊞ ((v 78) ⊠ (k (3227 / 1000000)))) ⊞ ((v 250) ⊠ (k (99 / 500000)))) ⊠ (.neg (v 77))) ⊞ (((((v 280) ⊠ (k (3 / 200000))) ⊞ ((v 78) ⊠ (k (99 / 500000)))) ⊞ ((v 250) ⊠ (k (10737 / 1000000)))) ⊠ (v 86))) ⊞ ((((((k 0) ⊟ (v 280)) ⊠ (k (3 / 200000))) ⊞ ((v 78) ⊠ (k (99 / 500000)))) ⊞ ((v 250) ⊠ (k (121 / 20000)))) ⊠ (v 86))) ⊞ ((((((v 248) ⊠ (k (61899 / 1600000))) ⊞ ((v 280) ⊠ (.neg (k (829 / 1000000))))) ⊞ (((k 0) ⊟ (v 78)) ⊠ (.neg (k (73 / 50000))))) ⊞ (((k 0) ⊟ (v 250)) ⊠ (k (99 / 500000)))) ⊠ (v 77))),
   .v 4 ((w 6) ⊠ (v 4)),
   .v 20 (((w 7) ⊠ (v 20)) ⊞ ((v 4) ⊠ (v 19))),
   .v 11 (((w 7) ⊠ (v 11)) ⊞ ((v 4) ⊠ (v 10))),
   .v 10 (((w 7) ⊠ (v 10)) ⊞ ((v 4) ⊠ (v 9))),
   .v 9 ((w 9) ⊞ ((v 11) ⊠ (.neg (k 1)))),
   .v 0 ((w 8) ⊞ ((w 6) ⊠ (v 0))),
   .v 31 (((v 0) ⊠ (v 31)) ⊞ ((v 10) ⊠ (v 28))),
   .v 0 (((w 10) ⊞ ((v 0) ⊠ (v 28))) ⊞ ((v 10) ⊠ (v 30))),
   .v 54 (((v 9) ⊠ (v 54)) ⊞ ((v 31) ⊠ (v 53))),
   .v 54 (((((k 0) ⊟ ((((((v 20) ⊠ (v 30)) ⊞ ((v 11) ⊠ (v 42))) ⊠ (v 77)) ⊞ ((((((((((w 7) ⊠ (v 38)) ⊞ ((v 4) ⊠ (v 18))) ⊠ (.neg (k 1))) ⊞ ((v 10) ⊠ (.neg (k (38 / 125))))) ⊠ (v 62)) ⊞ ((((v 20) ⊠ (v 28)) ⊞ ((v 11) ⊠ (v 43))) ⊠ (v 53))) ⊞ ((v 9) ⊠ (v 60))) ⊞ ((v 31) ⊠ (v 61))) ⊠ (v 76))) ⊞ ((((v 9) ⊠ (v 53)) ⊞ ((v 31) ⊠ (v 52))) ⊠ (v 81)))) ⊠ (k (61899 / 1600000))) ⊞ ((((v 0) ⊠ (v 86)) ⊞ ((v 54) ⊠ (v 77))) ⊠ (k (3 / 200000)))) ⊞ (((k 0) ⊟ (((v 0) ⊠ (v 77)) ⊞ ((v 54) ⊠ (v 76)))) ⊠ (.neg (k (829 / 1000000))))),
   .hes 143 ((v 54) ⊞ (v 54)),
   .hes 25 (hes 14),
   .hes 37 (hes 15),
   .hes 38 (hes 27),
   .hes 49 (hes 16),
   .hes 50 (hes 28),
   .hes 51 (hes 40),
   .hes 61 (hes 17),
   .hes 62 (hes 29),
   .hes 63 (hes 41),
   .hes 64 (hes 53),
   .hes 73 (hes 18),
   .hes 74 (hes 30),
   .hes 75 (hes 42),
   .hes 76 (hes 54),
   .hes 77 (hes 66),
   .hes 85 (hes 19),
   .hes 86 (hes 31),
   .hes 87 (hes 43),
   .hes 88 (hes 55),
   .hes 89 (hes 67),
   .hes 90 (hes 79),
   .hes 97 (hes 20),
   .hes 98 (hes 32),
   .hes 99 (hes 44),
   .hes 100 (hes 56),
   .hes 101 (hes 68),
   .hes 102 (hes 80),
   .hes 103 (hes 92),
   .hes 109 (hes 21),
   .hes 110 (hes 33),
   .hes 111 (hes 45),
   .hes 112 (hes 57),
   .hes 113 (hes 69),
   .hes 114 (hes 81),
   .hes 115 (hes 93),
   .hes 116 (hes 105),
   .hes 121 (hes 22)]

/-- HyAInverseDynHessian.cpp:3032-3049. -/
def part21 : List Stmt :=
  [.hes 122 (hes 34),
   .hes 123 (hes 46),
   .hes 124 (hes 58),
   .hes 125 (hes 70),
   .hes 126 (hes 82),
   .hes 127 (hes 94),
   .hes 128 (hes 106),
   .hes 129 (hes 118),
   .hes 133 (hes 23),
   .hes 134 (hes 35),
   .hes 135 (hes 47),
   .hes 136 (hes 59),
   .hes 137 (hes 71),
   .hes 138 (hes 83),
   .hes 139 (hes 95),
   .hes 140 (hes 107),
   .hes 141 (hes 119),
   .hes 142 (hes 131)]

/-- The statements of `hessian` (HyAInverseDynHessian.cpp:16-3049). -/
def code : List Stmt :=
  [part0, part1, part2, part3, part4, part5, part6, part7, part8, part9, part10, part11, part12, part13, part14, part15, part16, part17, part18, part19, part20, part21].flatten

end CT.HesCg.HyA
