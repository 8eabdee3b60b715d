import Verif.Model.Res

/-!
# Text of generated source files

The classes that write generated derivative code to disk read a template file, replace placeholders by names, sizes and
code, and write the result: `CGHelpers.h` (`replaceAll`, `replaceOnce`), `DerivativesCppadCG.h`, `ADCodegenLinearizer.h` and
`DiscreteSystemLinearizerADCG.h`.

Simplifications.  A `std::string` is a list of characters.  Reading a template and writing a file always succeed (both throw
otherwise, CGHelpers.h:267-283, 290-310), and the written files are returned as pairs of path and content.  The generated code and the
number of temporary variables are arguments: they come from CppADCodeGen.
-/

namespace CT.CodeText

/-- `std::string` -/
abbrev Str := List Char

/-- `std::string::find(p)` (used in CGHelpers.h:241, 245, 258): lowest position at which `p` occurs; `none` is
`std::string::npos`. -/
def find (p : Str) : Str → Option Nat
  | [] => if p.isPrefixOf [] then some 0 else none
  | c :: t => if p.isPrefixOf (c :: t) then some 0 else (find p t).map (· + 1)

/-- `text.replace(pos, len, r)` (CGHelpers.h:244, 258): throws `std::out_of_range` if `pos` exceeds the length, in particular
for `npos`. -/
def replaceAt (text : Str) (pos : Option Nat) (len : Nat) (r : Str) : Res Str :=
  match pos with
  | none => .exc
  | some pos => if text.length < pos then .exc else .ok (text.take pos ++ r ++ text.drop (pos + len))

/-- `CGHelpers::replaceAll` (CGHelpers.h:239-247).  The search starts again at the beginning of the modified text after each
replacement, and nothing bounds the number of passes; `n` is the number of times the loop condition is evaluated before the
model gives up with `none`. -/
def replaceAll : Nat → Str → Str → Str → Option (Res Str)
  | 0, _, _, _ => none
  | n + 1, text, p, r =>
    match find p text with
    | none => some (.ok text)
    | some pos =>
      match replaceAt text (some pos) p.length r with
      | .ok text' => replaceAll n text' p r
      | e => some e

/-- `CGHelpers::replaceOnce` (CGHelpers.h:256-259). -/
def replaceOnce (text p r : Str) : Res Str := replaceAt text (find p text) p.length r

/-- `std::to_string` of a size. -/
def toStr (n : Nat) : Str := (toString n).toList

/-- One after the other, `replaceAll` for each pair of placeholder and replacement. -/
def replaceEach (n : Nat) : List (Str × Str) → Str → Option (Res Str)
  | [], text => some (.ok text)
  | (p, r) :: σ, text =>
    match replaceAll n text p r with
    | some (.ok text') => replaceEach n σ text'
    | e => e

/-- One after the other, `replaceOnce` for each pair of placeholder and replacement. -/
def onceEach : List (Str × Str) → Str → Res Str
  | [], text => .ok text
  | (p, r) :: σ, text => do
    let text' ← replaceOnce text p r
    onceEach σ text'

/-- `DerivativesCppadCG::replaceSizesAndNames` (DerivativesCppadCG.h:255-265): the placeholders in the order of the calls. -/
def derivNames (name ns1 ns2 : Str) (inDim outDim : Nat) : List (Str × Str) :=
  [("DERIVATIVE_NAME".toList, name), ("NS1".toList, ns1), ("NS2".toList, ns2), ("IN_DIM".toList, toStr inDim),
    ("OUT_DIM".toList, toStr outDim)]

/-- `replaceSizesAndNames` of `ADCodegenLinearizer` (ADCodegenLinearizer.h:250-262) and of `DiscreteSystemLinearizerADCG`
(DiscreteSystemLinearizerADCG.h:280-292): the placeholders in the order of the calls. -/
def systemNames (name scalar ns1 ns2 : Str) (stateDim controlDim : Nat) : List (Str × Str) :=
  [("LINEAR_SYSTEM_NAME".toList, name), ("NS1".toList, ns1), ("NS2".toList, ns2), ("STATE_DIM".toList, toStr stateDim),
    ("CONTROL_DIM".toList, toStr controlDim), ("SCALAR".toList, scalar)]

/-- The keyword passed as `codePlaceholder` by all callers (DerivativesCppadCG.h:109-110, 138-139, 177-178,
ADCodegenLinearizer.h:188-189, DiscreteSystemLinearizerADCG.h:215-216). -/
def codeKey : Str := "AUTOGENERATED_CODE_PLACEHOLDER".toList

/-- One file: names and sizes first (all occurrences), then the entries replaced once. -/
def fillFile (n : Nat) (names once : List (Str × Str)) (template : Str) : Option (Res Str) :=
  match replaceEach n names template with
  | some (.ok text) => some (onceEach once text)
  | e => e

/-- A written file: path and content. -/
abbrev File := Str × Str

/-- All files are filled before the first one is written; an exception or an endless loop in one of them leaves nothing
written. -/
def writeAll : List (Str × Option (Res Str)) → Option (Res (List File))
  | [] => some (.ok [])
  | (path, content) :: fs =>
    match content with
    | some (.ok text) =>
      match writeAll fs with
      | some (.ok r) => some (.ok ((path, text) :: r))
      | e => e
    | some .exc => some .exc
    | some .ub => some .ub
    | none => none

/-- `DerivativesCppadCG::writeCodeFile` (DerivativesCppadCG.h:217-244) with the texts of the two templates. Simplified: the
model fills the header completely before the source, the code does the first part of both before the second part of both. -/
def writeDerivative (n : Nat) (tplHeader tplSource outputDir name ns1 ns2 : Str) (inDim outDim : Nat) (code : Str)
    (tmpVars : Nat) : Option (Res (List File)) :=
  writeAll
    [(outputDir ++ "/".toList ++ name ++ ".h".toList,
        fillFile n (derivNames name ns1 ns2 inDim outDim) [("MAX_COUNT".toList, toStr tmpVars)] tplHeader),
      (outputDir ++ "/".toList ++ name ++ ".cpp".toList,
        fillFile n (derivNames name ns1 ns2 inDim outDim) [(codeKey, code)] tplSource)]

/-- The sizes of the arrays of temporary variables (ADCodegenLinearizer.h:229-230, DiscreteSystemLinearizerADCG.h:258-259). -/
def tmpCounts (tmpState tmpControl : Nat) : List (Str × Str) :=
  [("MAX_COUNT_STATE".toList, toStr tmpState), ("MAX_COUNT_CONTROL".toList, toStr tmpControl)]

/-- `ADCodegenLinearizer::writeCodeFile` (ADCodegenLinearizer.h:207-240) with the texts of the two templates. Same
simplification as `writeDerivative`. -/
def writeLinearSystem (n : Nat) (tplHeader tplSource outputDir name scalar ns1 ns2 : Str) (stateDim controlDim : Nat)
    (codeA codeB : Str) (tmpState tmpControl : Nat) : Option (Res (List File)) :=
  writeAll
    [(outputDir ++ "/".toList ++ name ++ ".h".toList,
        fillFile n (systemNames name scalar ns1 ns2 stateDim controlDim) (tmpCounts tmpState tmpControl) tplHeader),
      (outputDir ++ "/".toList ++ name ++ ".cpp".toList,
        fillFile n (systemNames name scalar ns1 ns2 stateDim controlDim)
          [(codeKey ++ "_JAC_A".toList, codeA), (codeKey ++ "_JAC_B".toList, codeB)] tplSource)]

/-- `DiscreteSystemLinearizerADCG::writeCodeFile` (DiscreteSystemLinearizerADCG.h:234-270) with the texts of the three
templates. Same simplification as `writeDerivative`. -/
def writeDiscreteLinearSystem (n : Nat) (tplHeader tplSourceA tplSourceB outputDir name scalar ns1 ns2 : Str)
    (stateDim controlDim : Nat) (codeA codeB : Str) (tmpState tmpControl : Nat) : Option (Res (List File)) :=
  writeAll
    [(outputDir ++ "/".toList ++ name ++ ".h".toList,
        fillFile n (systemNames name scalar ns1 ns2 stateDim controlDim) (tmpCounts tmpState tmpControl) tplHeader),
      (outputDir ++ "/".toList ++ name ++ "_A.cpp".toList,
        fillFile n (systemNames name scalar ns1 ns2 stateDim controlDim) [(codeKey ++ "_JAC_A".toList, codeA)] tplSourceA),
      (outputDir ++ "/".toList ++ name ++ "_B.cpp".toList,
        fillFile n (systemNames name scalar ns1 ns2 stateDim controlDim) [(codeKey ++ "_JAC_B".toList, codeB)] tplSourceB)]

end CT.CodeText
