import Verif.Model.JsimFactor

/-!
# The statements of computeL, computeLInverse and computeInverse of the five robots

Written by `tools/gen_factor.py` from the generated code.
-/

namespace CT.Robots.InvertedPendulum

open CT.JsimFactor

/-- The statements of `computeL` after its first line (InvertedPendulum/generated/jsim.impl.h:39-44). -/
def computeL_stmts : List Stmt :=
  [.sqrt 0 0 0 0]

/-- The statements of `computeLInverse` (InvertedPendulum/generated/jsim.impl.h:54-57). -/
def computeLInverse_stmts : List Stmt :=
  [.recip 0 0 0 0]

/-- The statements of `computeInverse` after the call of `computeLInverse` (InvertedPendulum/generated/jsim.impl.h:47-51). -/
def computeInverse_stmts : List Stmt :=
  [.prod 0 0 [(0, 0, 0, 0)]]

end CT.Robots.InvertedPendulum

namespace CT.Robots.DoubleInvertedPendulum

open CT.JsimFactor

/-- The statements of `computeL` after its first line (DoubleInvertedPendulum/generated/jsim.impl.h:52-62). -/
def computeL_stmts : List Stmt :=
  [.sqrt 1 1 1 1,
   .div 1 0 1 0 1 1,
   .sub 0 0 0 0 1 0 1 0,
   .sqrt 0 0 0 0]

/-- The statements of `computeLInverse` (DoubleInvertedPendulum/generated/jsim.impl.h:75-80). -/
def computeLInverse_stmts : List Stmt :=
  [.recip 0 0 0 0,
   .recip 1 1 1 1,
   .back 1 0 0 0 [(1, 1, 1, 0)]]

/-- The statements of `computeInverse` after the call of `computeLInverse` (DoubleInvertedPendulum/generated/jsim.impl.h:65-72). -/
def computeInverse_stmts : List Stmt :=
  [.prod 0 0 [(0, 0, 0, 0)],
   .prod 1 1 [(1, 0, 1, 0), (1, 1, 1, 1)],
   .prod 1 0 [(1, 0, 0, 0)],
   .copy 0 1 1 0]

end CT.Robots.DoubleInvertedPendulum

namespace CT.Robots.HyA

open CT.JsimFactor

/-- The statements of `computeL` after its first line (HyA/generated/jsim.impl.h:134-204). -/
def computeL_stmts : List Stmt :=
  [.sqrt 5 5 5 5,
   .div 5 4 5 4 5 5,
   .div 5 3 5 3 5 5,
   .div 5 2 5 2 5 5,
   .div 5 1 5 1 5 5,
   .div 5 0 5 0 5 5,
   .sub 4 4 4 4 5 4 5 4,
   .sub 4 3 4 3 5 4 5 3,
   .sub 4 2 4 2 5 4 5 2,
   .sub 4 1 4 1 5 4 5 1,
   .sub 4 0 4 0 5 4 5 0,
   .sub 3 3 3 3 5 3 5 3,
   .sub 3 2 3 2 5 3 5 2,
   .sub 3 1 3 1 5 3 5 1,
   .sub 3 0 3 0 5 3 5 0,
   .sub 2 2 2 2 5 2 5 2,
   .sub 2 1 2 1 5 2 5 1,
   .sub 2 0 2 0 5 2 5 0,
   .sub 1 1 1 1 5 1 5 1,
   .sub 1 0 1 0 5 1 5 0,
   .sub 0 0 0 0 5 0 5 0,
   .sqrt 4 4 4 4,
   .div 4 3 4 3 4 4,
   .div 4 2 4 2 4 4,
   .div 4 1 4 1 4 4,
   .div 4 0 4 0 4 4,
   .sub 3 3 3 3 4 3 4 3,
   .sub 3 2 3 2 4 3 4 2,
   .sub 3 1 3 1 4 3 4 1,
   .sub 3 0 3 0 4 3 4 0,
   .sub 2 2 2 2 4 2 4 2,
   .sub 2 1 2 1 4 2 4 1,
   .sub 2 0 2 0 4 2 4 0,
   .sub 1 1 1 1 4 1 4 1,
   .sub 1 0 1 0 4 1 4 0,
   .sub 0 0 0 0 4 0 4 0,
   .sqrt 3 3 3 3,
   .div 3 2 3 2 3 3,
   .div 3 1 3 1 3 3,
   .div 3 0 3 0 3 3,
   .sub 2 2 2 2 3 2 3 2,
   .sub 2 1 2 1 3 2 3 1,
   .sub 2 0 2 0 3 2 3 0,
   .sub 1 1 1 1 3 1 3 1,
   .sub 1 0 1 0 3 1 3 0,
   .sub 0 0 0 0 3 0 3 0,
   .sqrt 2 2 2 2,
   .div 2 1 2 1 2 2,
   .div 2 0 2 0 2 2,
   .sub 1 1 1 1 2 1 2 1,
   .sub 1 0 1 0 2 1 2 0,
   .sub 0 0 0 0 2 0 2 0,
   .sqrt 1 1 1 1,
   .div 1 0 1 0 1 1,
   .sub 0 0 0 0 1 0 1 0,
   .sqrt 0 0 0 0]

/-- The statements of `computeLInverse` (HyA/generated/jsim.impl.h:249-272). -/
def computeLInverse_stmts : List Stmt :=
  [.recip 0 0 0 0,
   .recip 1 1 1 1,
   .recip 2 2 2 2,
   .recip 3 3 3 3,
   .recip 4 4 4 4,
   .recip 5 5 5 5,
   .back 1 0 0 0 [(1, 1, 1, 0)],
   .back 2 1 1 1 [(2, 2, 2, 1)],
   .back 2 0 0 0 [(2, 1, 1, 0), (2, 2, 2, 0)],
   .back 3 2 2 2 [(3, 3, 3, 2)],
   .back 3 1 1 1 [(3, 2, 2, 1), (3, 3, 3, 1)],
   .back 3 0 0 0 [(3, 1, 1, 0), (3, 2, 2, 0), (3, 3, 3, 0)],
   .back 4 3 3 3 [(4, 4, 4, 3)],
   .back 4 2 2 2 [(4, 3, 3, 2), (4, 4, 4, 2)],
   .back 4 1 1 1 [(4, 2, 2, 1), (4, 3, 3, 1), (4, 4, 4, 1)],
   .back 4 0 0 0 [(4, 1, 1, 0), (4, 2, 2, 0), (4, 3, 3, 0), (4, 4, 4, 0)],
   .back 5 4 4 4 [(5, 5, 5, 4)],
   .back 5 3 3 3 [(5, 4, 4, 3), (5, 5, 5, 3)],
   .back 5 2 2 2 [(5, 3, 3, 2), (5, 4, 4, 2), (5, 5, 5, 2)],
   .back 5 1 1 1 [(5, 2, 2, 1), (5, 3, 3, 1), (5, 4, 4, 1), (5, 5, 5, 1)],
   .back 5 0 0 0 [(5, 1, 1, 0), (5, 2, 2, 0), (5, 3, 3, 0), (5, 4, 4, 0), (5, 5, 5, 0)]]

/-- The statements of `computeInverse` after the call of `computeLInverse` (HyA/generated/jsim.impl.h:207-246). -/
def computeInverse_stmts : List Stmt :=
  [.prod 0 0 [(0, 0, 0, 0)],
   .prod 1 1 [(1, 0, 1, 0), (1, 1, 1, 1)],
   .prod 1 0 [(1, 0, 0, 0)],
   .copy 0 1 1 0,
   .prod 2 2 [(2, 0, 2, 0), (2, 1, 2, 1), (2, 2, 2, 2)],
   .prod 2 1 [(2, 0, 1, 0), (2, 1, 1, 1)],
   .copy 1 2 2 1,
   .prod 2 0 [(2, 0, 0, 0)],
   .copy 0 2 2 0,
   .prod 3 3 [(3, 0, 3, 0), (3, 1, 3, 1), (3, 2, 3, 2), (3, 3, 3, 3)],
   .prod 3 2 [(3, 0, 2, 0), (3, 1, 2, 1), (3, 2, 2, 2)],
   .copy 2 3 3 2,
   .prod 3 1 [(3, 0, 1, 0), (3, 1, 1, 1)],
   .copy 1 3 3 1,
   .prod 3 0 [(3, 0, 0, 0)],
   .copy 0 3 3 0,
   .prod 4 4 [(4, 0, 4, 0), (4, 1, 4, 1), (4, 2, 4, 2), (4, 3, 4, 3), (4, 4, 4, 4)],
   .prod 4 3 [(4, 0, 3, 0), (4, 1, 3, 1), (4, 2, 3, 2), (4, 3, 3, 3)],
   .copy 3 4 4 3,
   .prod 4 2 [(4, 0, 2, 0), (4, 1, 2, 1), (4, 2, 2, 2)],
   .copy 2 4 4 2,
   .prod 4 1 [(4, 0, 1, 0), (4, 1, 1, 1)],
   .copy 1 4 4 1,
   .prod 4 0 [(4, 0, 0, 0)],
   .copy 0 4 4 0,
   .prod 5 5 [(5, 0, 5, 0), (5, 1, 5, 1), (5, 2, 5, 2), (5, 3, 5, 3), (5, 4, 5, 4), (5, 5, 5, 5)],
   .prod 5 4 [(5, 0, 4, 0), (5, 1, 4, 1), (5, 2, 4, 2), (5, 3, 4, 3), (5, 4, 4, 4)],
   .copy 4 5 5 4,
   .prod 5 3 [(5, 0, 3, 0), (5, 1, 3, 1), (5, 2, 3, 2), (5, 3, 3, 3)],
   .copy 3 5 5 3,
   .prod 5 2 [(5, 0, 2, 0), (5, 1, 2, 1), (5, 2, 2, 2)],
   .copy 2 5 5 2,
   .prod 5 1 [(5, 0, 1, 0), (5, 1, 1, 1)],
   .copy 1 5 5 1,
   .prod 5 0 [(5, 0, 0, 0)],
   .copy 0 5 5 0]

end CT.Robots.HyA

namespace CT.Robots.QuadrotorWithLoad

open CT.JsimFactor

/-- The statements of `computeL` after its first line (QuadrotorWithLoad/generated/jsim.impl.h:62-72). -/
def computeL_stmts : List Stmt :=
  [.sqrt 1 1 1 1,
   .div 1 0 1 0 1 1,
   .sub 0 0 0 0 1 0 1 0,
   .sqrt 0 0 0 0]

/-- The statements of `computeLInverse` (QuadrotorWithLoad/generated/jsim.impl.h:85-90). -/
def computeLInverse_stmts : List Stmt :=
  [.recip 0 0 0 0,
   .recip 1 1 1 1,
   .back 1 0 0 0 [(1, 1, 1, 0)]]

/-- The statements of `computeInverse` after the call of `computeLInverse` (QuadrotorWithLoad/generated/jsim.impl.h:75-82). -/
def computeInverse_stmts : List Stmt :=
  [.prod 0 0 [(0, 0, 0, 0)],
   .prod 1 1 [(1, 0, 1, 0), (1, 1, 1, 1)],
   .prod 1 0 [(1, 0, 0, 0)],
   .copy 0 1 1 0]

end CT.Robots.QuadrotorWithLoad

namespace CT.Robots.HyQ

open CT.JsimFactor

/-- The statements of `computeL` after its first line (HyQ/generated/jsim.impl.h:206-272). -/
def computeL_stmts : List Stmt :=
  [.sqrt 11 11 11 11,
   .div 11 10 11 10 11 11,
   .div 11 9 11 9 11 11,
   .sub 10 10 10 10 11 10 11 10,
   .sub 10 9 10 9 11 10 11 9,
   .sub 9 9 9 9 11 9 11 9,
   .sqrt 10 10 10 10,
   .div 10 9 10 9 10 10,
   .sub 9 9 9 9 10 9 10 9,
   .sqrt 9 9 9 9,
   .sqrt 8 8 8 8,
   .div 8 7 8 7 8 8,
   .div 8 6 8 6 8 8,
   .sub 7 7 7 7 8 7 8 7,
   .sub 7 6 7 6 8 7 8 6,
   .sub 6 6 6 6 8 6 8 6,
   .sqrt 7 7 7 7,
   .div 7 6 7 6 7 7,
   .sub 6 6 6 6 7 6 7 6,
   .sqrt 6 6 6 6,
   .sqrt 5 5 5 5,
   .div 5 4 5 4 5 5,
   .div 5 3 5 3 5 5,
   .sub 4 4 4 4 5 4 5 4,
   .sub 4 3 4 3 5 4 5 3,
   .sub 3 3 3 3 5 3 5 3,
   .sqrt 4 4 4 4,
   .div 4 3 4 3 4 4,
   .sub 3 3 3 3 4 3 4 3,
   .sqrt 3 3 3 3,
   .sqrt 2 2 2 2,
   .div 2 1 2 1 2 2,
   .div 2 0 2 0 2 2,
   .sub 1 1 1 1 2 1 2 1,
   .sub 1 0 1 0 2 1 2 0,
   .sub 0 0 0 0 2 0 2 0,
   .sqrt 1 1 1 1,
   .div 1 0 1 0 1 1,
   .sub 0 0 0 0 1 0 1 0,
   .sqrt 0 0 0 0]

/-- The statements of `computeLInverse` (HyQ/generated/jsim.impl.h:317-343). -/
def computeLInverse_stmts : List Stmt :=
  [.recip 0 0 0 0,
   .recip 1 1 1 1,
   .recip 2 2 2 2,
   .recip 3 3 3 3,
   .recip 4 4 4 4,
   .recip 5 5 5 5,
   .recip 6 6 6 6,
   .recip 7 7 7 7,
   .recip 8 8 8 8,
   .recip 9 9 9 9,
   .recip 10 10 10 10,
   .recip 11 11 11 11,
   .back 1 0 0 0 [(1, 1, 1, 0)],
   .back 2 1 1 1 [(2, 2, 2, 1)],
   .back 2 0 0 0 [(2, 1, 1, 0), (2, 2, 2, 0)],
   .back 4 3 3 3 [(4, 4, 4, 3)],
   .back 5 4 4 4 [(5, 5, 5, 4)],
   .back 5 3 3 3 [(5, 4, 4, 3), (5, 5, 5, 3)],
   .back 7 6 6 6 [(7, 7, 7, 6)],
   .back 8 7 7 7 [(8, 8, 8, 7)],
   .back 8 6 6 6 [(8, 7, 7, 6), (8, 8, 8, 6)],
   .back 10 9 9 9 [(10, 10, 10, 9)],
   .back 11 10 10 10 [(11, 11, 11, 10)],
   .back 11 9 9 9 [(11, 10, 10, 9), (11, 11, 11, 9)]]

/-- The statements of `computeInverse` after the call of `computeLInverse` (HyQ/generated/jsim.impl.h:275-314). -/
def computeInverse_stmts : List Stmt :=
  [.prod 0 0 [(0, 0, 0, 0)],
   .prod 1 1 [(1, 0, 1, 0), (1, 1, 1, 1)],
   .prod 1 0 [(1, 0, 0, 0)],
   .copy 0 1 1 0,
   .prod 2 2 [(2, 0, 2, 0), (2, 1, 2, 1), (2, 2, 2, 2)],
   .prod 2 1 [(2, 0, 1, 0), (2, 1, 1, 1)],
   .copy 1 2 2 1,
   .prod 2 0 [(2, 0, 0, 0)],
   .copy 0 2 2 0,
   .prod 3 3 [(3, 3, 3, 3)],
   .prod 4 4 [(4, 3, 4, 3), (4, 4, 4, 4)],
   .prod 4 3 [(4, 3, 3, 3)],
   .copy 3 4 4 3,
   .prod 5 5 [(5, 3, 5, 3), (5, 4, 5, 4), (5, 5, 5, 5)],
   .prod 5 4 [(5, 3, 4, 3), (5, 4, 4, 4)],
   .copy 4 5 5 4,
   .prod 5 3 [(5, 3, 3, 3)],
   .copy 3 5 5 3,
   .prod 6 6 [(6, 6, 6, 6)],
   .prod 7 7 [(7, 6, 7, 6), (7, 7, 7, 7)],
   .prod 7 6 [(7, 6, 6, 6)],
   .copy 6 7 7 6,
   .prod 8 8 [(8, 6, 8, 6), (8, 7, 8, 7), (8, 8, 8, 8)],
   .prod 8 7 [(8, 6, 7, 6), (8, 7, 7, 7)],
   .copy 7 8 8 7,
   .prod 8 6 [(8, 6, 6, 6)],
   .copy 6 8 8 6,
   .prod 9 9 [(9, 9, 9, 9)],
   .prod 10 10 [(10, 9, 10, 9), (10, 10, 10, 10)],
   .prod 10 9 [(10, 9, 9, 9)],
   .copy 9 10 10 9,
   .prod 11 11 [(11, 9, 11, 9), (11, 10, 11, 10), (11, 11, 11, 11)],
   .prod 11 10 [(11, 9, 10, 9), (11, 10, 10, 10)],
   .copy 10 11 11 10,
   .prod 11 9 [(11, 9, 9, 9)],
   .copy 9 11 11 9]

end CT.Robots.HyQ
