import Mathlib.Analysis.SpecialFunctions.Trigonometric.Basic
import Mathlib.Data.Fin.VecNotation

/-!
# Generated Jacobian of the feet of HyQ: HyQForwardKinJacForward

Translation of `jacobian` of `ct_models/include/ct/models/HyQ/codegen/HyQForwardKinJacForward.cpp`, statement by statement: `lN` is the value
assigned by line `N`.

Simplifications: scalars are real numbers and decimal fractions are written as fractions.  The array `v_` is replaced by the
values assigned to it; every element that is read has been assigned before in the same call, so nothing of earlier calls is used.
Every element of `jac_` is assigned at most once; the others keep the zero of the constructor (HyQForwardKinJacForward.h:20-24).
-/

namespace CT.Robots.HyQ.FootJacForward

noncomputable section


/-- `v_[0]` (HyQForwardKinJacForward.cpp:16). -/
def l16 (x : Fin 36 → ℝ) : ℝ := (1 / 2) * x 0

/-- `v_[1]` (HyQForwardKinJacForward.cpp:17). -/
def l17 (x : Fin 36 → ℝ) : ℝ := Real.cos (l16 x)

/-- `v_[2]` (HyQForwardKinJacForward.cpp:18). -/
def l18 (x : Fin 36 → ℝ) : ℝ := (1 / 2) * x 1

/-- `v_[3]` (HyQForwardKinJacForward.cpp:19). -/
def l19 (x : Fin 36 → ℝ) : ℝ := Real.cos (l18 x)

/-- `v_[4]` (HyQForwardKinJacForward.cpp:20). -/
def l20 (x : Fin 36 → ℝ) : ℝ := l17 x * l19 x

/-- `v_[5]` (HyQForwardKinJacForward.cpp:21). -/
def l21 (x : Fin 36 → ℝ) : ℝ := (1 / 2) * x 2

/-- `v_[6]` (HyQForwardKinJacForward.cpp:22). -/
def l22 (x : Fin 36 → ℝ) : ℝ := Real.sin (l21 x)

/-- `v_[7]` (HyQForwardKinJacForward.cpp:23). -/
def l23 (x : Fin 36 → ℝ) : ℝ := Real.sin (l16 x)

/-- `v_[8]` (HyQForwardKinJacForward.cpp:24). -/
def l24 (x : Fin 36 → ℝ) : ℝ := Real.sin (l18 x)

/-- `v_[9]` (HyQForwardKinJacForward.cpp:25). -/
def l25 (x : Fin 36 → ℝ) : ℝ := l23 x * l24 x

/-- `v_[10]` (HyQForwardKinJacForward.cpp:26). -/
def l26 (x : Fin 36 → ℝ) : ℝ := Real.cos (l21 x)

/-- `v_[11]` (HyQForwardKinJacForward.cpp:27). -/
def l27 (x : Fin 36 → ℝ) : ℝ := l20 x * l22 x + l25 x * l26 x

/-- `v_[12]` (HyQForwardKinJacForward.cpp:28). -/
def l28 (x : Fin 36 → ℝ) : ℝ := 2 * l27 x

/-- `v_[13]` (HyQForwardKinJacForward.cpp:29). -/
def l29 (x : Fin 36 → ℝ) : ℝ := (1 / 2) * Real.cos (l16 x)

/-- `v_[14]` (HyQForwardKinJacForward.cpp:30). -/
def l30 (x : Fin 36 → ℝ) : ℝ := l29 x * l19 x

/-- `v_[0]` (HyQForwardKinJacForward.cpp:31). -/
def l31 (x : Fin 36 → ℝ) : ℝ := -(1 / 2) * Real.sin (l16 x)

/-- `v_[15]` (HyQForwardKinJacForward.cpp:32). -/
def l32 (x : Fin 36 → ℝ) : ℝ := l31 x * l24 x

/-- `v_[16]` (HyQForwardKinJacForward.cpp:33). -/
def l33 (x : Fin 36 → ℝ) : ℝ := l30 x * l26 x + l32 x * l22 x

/-- `v_[0]` (HyQForwardKinJacForward.cpp:34). -/
def l34 (x : Fin 36 → ℝ) : ℝ := l31 x * l19 x

/-- `v_[13]` (HyQForwardKinJacForward.cpp:35). -/
def l35 (x : Fin 36 → ℝ) : ℝ := l29 x * l24 x

/-- `v_[17]` (HyQForwardKinJacForward.cpp:36). -/
def l36 (x : Fin 36 → ℝ) : ℝ := l34 x * l22 x + l35 x * l26 x

/-- `v_[18]` (HyQForwardKinJacForward.cpp:37). -/
def l37 (x : Fin 36 → ℝ) : ℝ := 2 * l36 x

/-- `v_[3]` (HyQForwardKinJacForward.cpp:38). -/
def l38 (x : Fin 36 → ℝ) : ℝ := l23 x * l19 x

/-- `v_[8]` (HyQForwardKinJacForward.cpp:39). -/
def l39 (x : Fin 36 → ℝ) : ℝ := l17 x * l24 x

/-- `v_[19]` (HyQForwardKinJacForward.cpp:40). -/
def l40 (x : Fin 36 → ℝ) : ℝ := l38 x * l26 x + l39 x * l22 x

/-- `v_[20]` (HyQForwardKinJacForward.cpp:41). -/
def l41 (x : Fin 36 → ℝ) : ℝ := l28 x * l33 x + l37 x * l40 x

/-- `v_[21]` (HyQForwardKinJacForward.cpp:42). -/
def l42 (x : Fin 36 → ℝ) : ℝ := l39 x * l26 x - l38 x * l22 x

/-- `v_[22]` (HyQForwardKinJacForward.cpp:43). -/
def l43 (x : Fin 36 → ℝ) : ℝ := 2 * l42 x

/-- `v_[13]` (HyQForwardKinJacForward.cpp:44). -/
def l44 (x : Fin 36 → ℝ) : ℝ := l34 x * l26 x - l35 x * l22 x

/-- `v_[15]` (HyQForwardKinJacForward.cpp:45). -/
def l45 (x : Fin 36 → ℝ) : ℝ := l32 x * l26 x - l30 x * l22 x

/-- `v_[14]` (HyQForwardKinJacForward.cpp:46). -/
def l46 (x : Fin 36 → ℝ) : ℝ := 2 * l45 x

/-- `v_[0]` (HyQForwardKinJacForward.cpp:47). -/
def l47 (x : Fin 36 → ℝ) : ℝ := l20 x * l26 x - l25 x * l22 x

/-- `v_[23]` (HyQForwardKinJacForward.cpp:48). -/
def l48 (x : Fin 36 → ℝ) : ℝ := l43 x * l44 x + l46 x * l47 x

/-- `v_[24]` (HyQForwardKinJacForward.cpp:49). -/
def l49 (x : Fin 36 → ℝ) : ℝ := Real.cos (x 6)

/-- `v_[25]` (HyQForwardKinJacForward.cpp:50). -/
def l50 (x : Fin 36 → ℝ) : ℝ := (33 / 100) * l49 x

/-- `v_[26]` (HyQForwardKinJacForward.cpp:51). -/
def l51 (x : Fin 36 → ℝ) : ℝ := Real.sin (x 7)

/-- `v_[27]` (HyQForwardKinJacForward.cpp:52). -/
def l52 (x : Fin 36 → ℝ) : ℝ := l50 x * l51 x

/-- `v_[28]` (HyQForwardKinJacForward.cpp:53). -/
def l53 (x : Fin 36 → ℝ) : ℝ := Real.sin (x 8)

/-- `v_[29]` (HyQForwardKinJacForward.cpp:54). -/
def l54 (x : Fin 36 → ℝ) : ℝ := (33 / 100) * l49 x

/-- `v_[30]` (HyQForwardKinJacForward.cpp:55). -/
def l55 (x : Fin 36 → ℝ) : ℝ := Real.cos (x 7)

/-- `v_[31]` (HyQForwardKinJacForward.cpp:56). -/
def l56 (x : Fin 36 → ℝ) : ℝ := l54 x * l55 x

/-- `v_[32]` (HyQForwardKinJacForward.cpp:57). -/
def l57 (x : Fin 36 → ℝ) : ℝ := Real.cos (x 8)

/-- `v_[33]` (HyQForwardKinJacForward.cpp:58). -/
def l58 (x : Fin 36 → ℝ) : ℝ := (7 / 20) * l49 x

/-- `v_[34]` (HyQForwardKinJacForward.cpp:59). -/
def l59 (x : Fin 36 → ℝ) : ℝ := l52 x * l53 x - l56 x * l57 x - l58 x * l55 x - (2 / 25) * l49 x

/-- `v_[35]` (HyQForwardKinJacForward.cpp:60). -/
def l60 (x : Fin 36 → ℝ) : ℝ := l43 x * l33 x + l46 x * l40 x

/-- `v_[36]` (HyQForwardKinJacForward.cpp:61). -/
def l61 (x : Fin 36 → ℝ) : ℝ := l28 x * l44 x + l37 x * l47 x

/-- `v_[37]` (HyQForwardKinJacForward.cpp:62). -/
def l62 (x : Fin 36 → ℝ) : ℝ := Real.sin (x 6)

/-- `v_[38]` (HyQForwardKinJacForward.cpp:63). -/
def l63 (x : Fin 36 → ℝ) : ℝ := (33 / 100) * l62 x

/-- `v_[39]` (HyQForwardKinJacForward.cpp:64). -/
def l64 (x : Fin 36 → ℝ) : ℝ := l63 x * l51 x

/-- `v_[40]` (HyQForwardKinJacForward.cpp:65). -/
def l65 (x : Fin 36 → ℝ) : ℝ := (33 / 100) * l62 x

/-- `v_[41]` (HyQForwardKinJacForward.cpp:66). -/
def l66 (x : Fin 36 → ℝ) : ℝ := l65 x * l55 x

/-- `v_[42]` (HyQForwardKinJacForward.cpp:67). -/
def l67 (x : Fin 36 → ℝ) : ℝ := (7 / 20) * l62 x

/-- `v_[43]` (HyQForwardKinJacForward.cpp:68). -/
def l68 (x : Fin 36 → ℝ) : ℝ := (207 / 1000) + l64 x * l53 x - l66 x * l57 x - l67 x * l55 x - (2 / 25) * l62 x

/-- `v_[17]` (HyQForwardKinJacForward.cpp:69). -/
def l69 (x : Fin 36 → ℝ) : ℝ := l28 x * l36 x + l37 x * l27 x

/-- `v_[14]` (HyQForwardKinJacForward.cpp:70). -/
def l70 (x : Fin 36 → ℝ) : ℝ := l43 x * l45 x + l46 x * l42 x

/-- `v_[44]` (HyQForwardKinJacForward.cpp:71). -/
def l71 (x : Fin 36 → ℝ) : ℝ := -(33 / 100) * l55 x

/-- `v_[45]` (HyQForwardKinJacForward.cpp:72). -/
def l72 (x : Fin 36 → ℝ) : ℝ := (33 / 100) * l51 x

/-- `v_[46]` (HyQForwardKinJacForward.cpp:73). -/
def l73 (x : Fin 36 → ℝ) : ℝ := (747 / 2000) + l71 x * l53 x - l72 x * l57 x - (7 / 20) * l51 x

/-- `jac[0]` (HyQForwardKinJacForward.cpp:74). -/
def l74 (x : Fin 36 → ℝ) : ℝ := (l41 x + l48 x) * l59 x + (l60 x - l61 x) * l68 x + (0 - l69 x - l70 x) * l73 x

/-- `v_[15]` (HyQForwardKinJacForward.cpp:75). -/
def l75 (x : Fin 36 → ℝ) : ℝ := l28 x * l45 x + l37 x * l42 x

/-- `v_[18]` (HyQForwardKinJacForward.cpp:76). -/
def l76 (x : Fin 36 → ℝ) : ℝ := 2 * l40 x

/-- `v_[47]` (HyQForwardKinJacForward.cpp:77). -/
def l77 (x : Fin 36 → ℝ) : ℝ := 2 * l33 x

/-- `v_[13]` (HyQForwardKinJacForward.cpp:78). -/
def l78 (x : Fin 36 → ℝ) : ℝ := l76 x * l44 x + l77 x * l47 x

/-- `v_[47]` (HyQForwardKinJacForward.cpp:79). -/
def l79 (x : Fin 36 → ℝ) : ℝ := l76 x * l33 x + l77 x * l40 x

/-- `jac[1]` (HyQForwardKinJacForward.cpp:80). -/
def l80 (x : Fin 36 → ℝ) : ℝ := (l75 x - l78 x) * l59 x + (0 - l69 x - l79 x) * l68 x + (l60 x + l61 x) * l73 x

/-- `jac[2]` (HyQForwardKinJacForward.cpp:81). -/
def l81 (x : Fin 36 → ℝ) : ℝ := (0 - l70 x - l79 x) * l59 x + (l75 x + l78 x) * l68 x + (l41 x - l48 x) * l73 x

/-- `v_[47]` (HyQForwardKinJacForward.cpp:82). -/
def l82 (x : Fin 36 → ℝ) : ℝ := (1 / 2) * x 0

/-- `v_[13]` (HyQForwardKinJacForward.cpp:83). -/
def l83 (x : Fin 36 → ℝ) : ℝ := Real.cos (l82 x)

/-- `v_[15]` (HyQForwardKinJacForward.cpp:84). -/
def l84 (x : Fin 36 → ℝ) : ℝ := (1 / 2) * x 1

/-- `v_[14]` (HyQForwardKinJacForward.cpp:85). -/
def l85 (x : Fin 36 → ℝ) : ℝ := Real.cos (l84 x)

/-- `v_[23]` (HyQForwardKinJacForward.cpp:86). -/
def l86 (x : Fin 36 → ℝ) : ℝ := l83 x * l85 x

/-- `v_[20]` (HyQForwardKinJacForward.cpp:87). -/
def l87 (x : Fin 36 → ℝ) : ℝ := (1 / 2) * x 2

/-- `v_[17]` (HyQForwardKinJacForward.cpp:88). -/
def l88 (x : Fin 36 → ℝ) : ℝ := Real.sin (l87 x)

/-- `v_[36]` (HyQForwardKinJacForward.cpp:89). -/
def l89 (x : Fin 36 → ℝ) : ℝ := Real.sin (l82 x)

/-- `v_[35]` (HyQForwardKinJacForward.cpp:90). -/
def l90 (x : Fin 36 → ℝ) : ℝ := Real.sin (l84 x)

/-- `v_[16]` (HyQForwardKinJacForward.cpp:91). -/
def l91 (x : Fin 36 → ℝ) : ℝ := l89 x * l90 x

/-- `v_[48]` (HyQForwardKinJacForward.cpp:92). -/
def l92 (x : Fin 36 → ℝ) : ℝ := Real.cos (l87 x)

/-- `v_[49]` (HyQForwardKinJacForward.cpp:93). -/
def l93 (x : Fin 36 → ℝ) : ℝ := l86 x * l88 x + l91 x * l92 x

/-- `v_[50]` (HyQForwardKinJacForward.cpp:94). -/
def l94 (x : Fin 36 → ℝ) : ℝ := 2 * l93 x

/-- `v_[51]` (HyQForwardKinJacForward.cpp:95). -/
def l95 (x : Fin 36 → ℝ) : ℝ := (1 / 2) * Real.cos (l82 x)

/-- `v_[52]` (HyQForwardKinJacForward.cpp:96). -/
def l96 (x : Fin 36 → ℝ) : ℝ := l95 x * l85 x

/-- `v_[47]` (HyQForwardKinJacForward.cpp:97). -/
def l97 (x : Fin 36 → ℝ) : ℝ := -(1 / 2) * Real.sin (l82 x)

/-- `v_[53]` (HyQForwardKinJacForward.cpp:98). -/
def l98 (x : Fin 36 → ℝ) : ℝ := l97 x * l90 x

/-- `v_[54]` (HyQForwardKinJacForward.cpp:99). -/
def l99 (x : Fin 36 → ℝ) : ℝ := l96 x * l92 x + l98 x * l88 x

/-- `v_[47]` (HyQForwardKinJacForward.cpp:100). -/
def l100 (x : Fin 36 → ℝ) : ℝ := l97 x * l85 x

/-- `v_[51]` (HyQForwardKinJacForward.cpp:101). -/
def l101 (x : Fin 36 → ℝ) : ℝ := l95 x * l90 x

/-- `v_[55]` (HyQForwardKinJacForward.cpp:102). -/
def l102 (x : Fin 36 → ℝ) : ℝ := l100 x * l88 x + l101 x * l92 x

/-- `v_[56]` (HyQForwardKinJacForward.cpp:103). -/
def l103 (x : Fin 36 → ℝ) : ℝ := 2 * l102 x

/-- `v_[14]` (HyQForwardKinJacForward.cpp:104). -/
def l104 (x : Fin 36 → ℝ) : ℝ := l89 x * l85 x

/-- `v_[35]` (HyQForwardKinJacForward.cpp:105). -/
def l105 (x : Fin 36 → ℝ) : ℝ := l83 x * l90 x

/-- `v_[57]` (HyQForwardKinJacForward.cpp:106). -/
def l106 (x : Fin 36 → ℝ) : ℝ := l104 x * l92 x + l105 x * l88 x

/-- `v_[58]` (HyQForwardKinJacForward.cpp:107). -/
def l107 (x : Fin 36 → ℝ) : ℝ := l94 x * l99 x + l103 x * l106 x

/-- `v_[59]` (HyQForwardKinJacForward.cpp:108). -/
def l108 (x : Fin 36 → ℝ) : ℝ := l105 x * l92 x - l104 x * l88 x

/-- `v_[60]` (HyQForwardKinJacForward.cpp:109). -/
def l109 (x : Fin 36 → ℝ) : ℝ := 2 * l108 x

/-- `v_[51]` (HyQForwardKinJacForward.cpp:110). -/
def l110 (x : Fin 36 → ℝ) : ℝ := l100 x * l92 x - l101 x * l88 x

/-- `v_[53]` (HyQForwardKinJacForward.cpp:111). -/
def l111 (x : Fin 36 → ℝ) : ℝ := l98 x * l92 x - l96 x * l88 x

/-- `v_[52]` (HyQForwardKinJacForward.cpp:112). -/
def l112 (x : Fin 36 → ℝ) : ℝ := 2 * l111 x

/-- `v_[47]` (HyQForwardKinJacForward.cpp:113). -/
def l113 (x : Fin 36 → ℝ) : ℝ := l86 x * l92 x - l91 x * l88 x

/-- `v_[61]` (HyQForwardKinJacForward.cpp:114). -/
def l114 (x : Fin 36 → ℝ) : ℝ := l109 x * l110 x + l112 x * l113 x

/-- `v_[62]` (HyQForwardKinJacForward.cpp:115). -/
def l115 (x : Fin 36 → ℝ) : ℝ := (33 / 100) * l49 x

/-- `v_[63]` (HyQForwardKinJacForward.cpp:116). -/
def l116 (x : Fin 36 → ℝ) : ℝ := l115 x * l55 x

/-- `v_[64]` (HyQForwardKinJacForward.cpp:117). -/
def l117 (x : Fin 36 → ℝ) : ℝ := (33 / 100) * l49 x

/-- `v_[65]` (HyQForwardKinJacForward.cpp:118). -/
def l118 (x : Fin 36 → ℝ) : ℝ := l117 x * l51 x

/-- `v_[66]` (HyQForwardKinJacForward.cpp:119). -/
def l119 (x : Fin 36 → ℝ) : ℝ := l116 x * l53 x + l118 x * l57 x

/-- `v_[67]` (HyQForwardKinJacForward.cpp:120). -/
def l120 (x : Fin 36 → ℝ) : ℝ := l115 x * l51 x

/-- `v_[68]` (HyQForwardKinJacForward.cpp:121). -/
def l121 (x : Fin 36 → ℝ) : ℝ := (33 / 100) * l49 x

/-- `v_[69]` (HyQForwardKinJacForward.cpp:122). -/
def l122 (x : Fin 36 → ℝ) : ℝ := l121 x * l55 x

/-- `v_[70]` (HyQForwardKinJacForward.cpp:123). -/
def l123 (x : Fin 36 → ℝ) : ℝ := (7 / 20) * l49 x

/-- `v_[71]` (HyQForwardKinJacForward.cpp:124). -/
def l124 (x : Fin 36 → ℝ) : ℝ := l120 x * l57 x + l122 x * l53 x + l123 x * l51 x

/-- `v_[72]` (HyQForwardKinJacForward.cpp:125). -/
def l125 (x : Fin 36 → ℝ) : ℝ := (33 / 100) * l62 x

/-- `v_[73]` (HyQForwardKinJacForward.cpp:126). -/
def l126 (x : Fin 36 → ℝ) : ℝ := l125 x * l55 x

/-- `v_[74]` (HyQForwardKinJacForward.cpp:127). -/
def l127 (x : Fin 36 → ℝ) : ℝ := -(33 / 100) * l62 x

/-- `v_[75]` (HyQForwardKinJacForward.cpp:128). -/
def l128 (x : Fin 36 → ℝ) : ℝ := l127 x * l51 x

/-- `v_[76]` (HyQForwardKinJacForward.cpp:129). -/
def l129 (x : Fin 36 → ℝ) : ℝ := (7 / 20) * l62 x

/-- `v_[77]` (HyQForwardKinJacForward.cpp:130). -/
def l130 (x : Fin 36 → ℝ) : ℝ := l126 x * l57 x + l128 x * l53 x + l129 x * l55 x + (2 / 25) * l62 x

/-- `v_[78]` (HyQForwardKinJacForward.cpp:131). -/
def l131 (x : Fin 36 → ℝ) : ℝ := (33 / 100) * l62 x

/-- `v_[79]` (HyQForwardKinJacForward.cpp:132). -/
def l132 (x : Fin 36 → ℝ) : ℝ := l131 x * l51 x

/-- `v_[80]` (HyQForwardKinJacForward.cpp:133). -/
def l133 (x : Fin 36 → ℝ) : ℝ := (33 / 100) * l62 x

/-- `v_[81]` (HyQForwardKinJacForward.cpp:134). -/
def l134 (x : Fin 36 → ℝ) : ℝ := l133 x * l55 x

/-- `v_[82]` (HyQForwardKinJacForward.cpp:135). -/
def l135 (x : Fin 36 → ℝ) : ℝ := (7 / 20) * l62 x

/-- `v_[83]` (HyQForwardKinJacForward.cpp:136). -/
def l136 (x : Fin 36 → ℝ) : ℝ := (207 / 1000) + l132 x * l53 x - l134 x * l57 x - l135 x * l55 x - (2 / 25) * l62 x

/-- `v_[84]` (HyQForwardKinJacForward.cpp:137). -/
def l137 (x : Fin 36 → ℝ) : ℝ := -(33 / 100) * l55 x

/-- `v_[85]` (HyQForwardKinJacForward.cpp:138). -/
def l138 (x : Fin 36 → ℝ) : ℝ := (33 / 100) * l51 x

/-- `v_[86]` (HyQForwardKinJacForward.cpp:139). -/
def l139 (x : Fin 36 → ℝ) : ℝ := (747 / 2000) + l137 x * l53 x - l138 x * l57 x - (7 / 20) * l51 x

/-- `v_[87]` (HyQForwardKinJacForward.cpp:140). -/
def l140 (x : Fin 36 → ℝ) : ℝ := l119 x * x 26 + l124 x * x 25 + l130 x * x 24 + x 23 + x 18 * l136 x - x 19 * l139 x

/-- `v_[88]` (HyQForwardKinJacForward.cpp:141). -/
def l141 (x : Fin 36 → ℝ) : ℝ := l109 x * l99 x + l112 x * l106 x

/-- `v_[89]` (HyQForwardKinJacForward.cpp:142). -/
def l142 (x : Fin 36 → ℝ) : ℝ := l94 x * l110 x + l103 x * l113 x

/-- `v_[90]` (HyQForwardKinJacForward.cpp:143). -/
def l143 (x : Fin 36 → ℝ) : ℝ := (33 / 100) * l62 x

/-- `v_[91]` (HyQForwardKinJacForward.cpp:144). -/
def l144 (x : Fin 36 → ℝ) : ℝ := l143 x * l55 x

/-- `v_[92]` (HyQForwardKinJacForward.cpp:145). -/
def l145 (x : Fin 36 → ℝ) : ℝ := (33 / 100) * l62 x

/-- `v_[93]` (HyQForwardKinJacForward.cpp:146). -/
def l146 (x : Fin 36 → ℝ) : ℝ := l145 x * l51 x

/-- `v_[94]` (HyQForwardKinJacForward.cpp:147). -/
def l147 (x : Fin 36 → ℝ) : ℝ := l144 x * l53 x + l146 x * l57 x

/-- `v_[95]` (HyQForwardKinJacForward.cpp:148). -/
def l148 (x : Fin 36 → ℝ) : ℝ := l143 x * l51 x

/-- `v_[96]` (HyQForwardKinJacForward.cpp:149). -/
def l149 (x : Fin 36 → ℝ) : ℝ := (33 / 100) * l62 x

/-- `v_[97]` (HyQForwardKinJacForward.cpp:150). -/
def l150 (x : Fin 36 → ℝ) : ℝ := l149 x * l55 x

/-- `v_[37]` (HyQForwardKinJacForward.cpp:151). -/
def l151 (x : Fin 36 → ℝ) : ℝ := (7 / 20) * l62 x

/-- `v_[98]` (HyQForwardKinJacForward.cpp:152). -/
def l152 (x : Fin 36 → ℝ) : ℝ := l148 x * l57 x + l150 x * l53 x + l151 x * l51 x

/-- `v_[99]` (HyQForwardKinJacForward.cpp:153). -/
def l153 (x : Fin 36 → ℝ) : ℝ := (33 / 100) * l49 x

/-- `v_[100]` (HyQForwardKinJacForward.cpp:154). -/
def l154 (x : Fin 36 → ℝ) : ℝ := l153 x * l51 x

/-- `v_[101]` (HyQForwardKinJacForward.cpp:155). -/
def l155 (x : Fin 36 → ℝ) : ℝ := (33 / 100) * l49 x

/-- `v_[102]` (HyQForwardKinJacForward.cpp:156). -/
def l156 (x : Fin 36 → ℝ) : ℝ := l155 x * l55 x

/-- `v_[103]` (HyQForwardKinJacForward.cpp:157). -/
def l157 (x : Fin 36 → ℝ) : ℝ := (7 / 20) * l49 x

/-- `v_[104]` (HyQForwardKinJacForward.cpp:158). -/
def l158 (x : Fin 36 → ℝ) : ℝ := l154 x * l53 x - l156 x * l57 x - l157 x * l55 x - (2 / 25) * l49 x

/-- `v_[105]` (HyQForwardKinJacForward.cpp:159). -/
def l159 (x : Fin 36 → ℝ) : ℝ := (33 / 100) * l49 x

/-- `v_[106]` (HyQForwardKinJacForward.cpp:160). -/
def l160 (x : Fin 36 → ℝ) : ℝ := l159 x * l51 x

/-- `v_[107]` (HyQForwardKinJacForward.cpp:161). -/
def l161 (x : Fin 36 → ℝ) : ℝ := (7 / 20) * l49 x

/-- `v_[24]` (HyQForwardKinJacForward.cpp:162). -/
def l162 (x : Fin 36 → ℝ) : ℝ := l160 x * l53 x - l156 x * l57 x - l161 x * l55 x - (2 / 25) * l49 x

/-- `v_[108]` (HyQForwardKinJacForward.cpp:163). -/
def l163 (x : Fin 36 → ℝ) : ℝ := l147 x * x 26 + l152 x * x 25 + l158 x * x 24 + x 22 + x 20 * l139 x - x 18 * l162 x

/-- `v_[55]` (HyQForwardKinJacForward.cpp:164). -/
def l164 (x : Fin 36 → ℝ) : ℝ := l94 x * l102 x + l103 x * l93 x

/-- `v_[52]` (HyQForwardKinJacForward.cpp:165). -/
def l165 (x : Fin 36 → ℝ) : ℝ := l109 x * l111 x + l112 x * l108 x

/-- `v_[109]` (HyQForwardKinJacForward.cpp:166). -/
def l166 (x : Fin 36 → ℝ) : ℝ := (33 / 100) * l51 x

/-- `v_[110]` (HyQForwardKinJacForward.cpp:167). -/
def l167 (x : Fin 36 → ℝ) : ℝ := (33 / 100) * l55 x

/-- `v_[111]` (HyQForwardKinJacForward.cpp:168). -/
def l168 (x : Fin 36 → ℝ) : ℝ := l166 x * l53 x - l167 x * l57 x

/-- `v_[112]` (HyQForwardKinJacForward.cpp:169). -/
def l169 (x : Fin 36 → ℝ) : ℝ := (33 / 100) * l51 x

/-- `v_[113]` (HyQForwardKinJacForward.cpp:170). -/
def l170 (x : Fin 36 → ℝ) : ℝ := (33 / 100) * l55 x

/-- `v_[114]` (HyQForwardKinJacForward.cpp:171). -/
def l171 (x : Fin 36 → ℝ) : ℝ := l169 x * l53 x - l170 x * l57 x - (7 / 20) * l55 x

/-- `v_[115]` (HyQForwardKinJacForward.cpp:172). -/
def l172 (x : Fin 36 → ℝ) : ℝ := l168 x * x 26 + l171 x * x 25 + x 21 + x 19 * l162 x - x 20 * l136 x

/-- `jac[3]` (HyQForwardKinJacForward.cpp:173). -/
def l173 (x : Fin 36 → ℝ) : ℝ := (l107 x + l114 x) * l140 x + (l141 x - l142 x) * l163 x + (0 - l164 x - l165 x) * l172 x

/-- `v_[53]` (HyQForwardKinJacForward.cpp:174). -/
def l174 (x : Fin 36 → ℝ) : ℝ := l94 x * l111 x + l103 x * l108 x

/-- `v_[56]` (HyQForwardKinJacForward.cpp:175). -/
def l175 (x : Fin 36 → ℝ) : ℝ := 2 * l106 x

/-- `v_[116]` (HyQForwardKinJacForward.cpp:176). -/
def l176 (x : Fin 36 → ℝ) : ℝ := 2 * l99 x

/-- `v_[51]` (HyQForwardKinJacForward.cpp:177). -/
def l177 (x : Fin 36 → ℝ) : ℝ := l175 x * l110 x + l176 x * l113 x

/-- `v_[116]` (HyQForwardKinJacForward.cpp:178). -/
def l178 (x : Fin 36 → ℝ) : ℝ := l175 x * l99 x + l176 x * l106 x

/-- `jac[4]` (HyQForwardKinJacForward.cpp:179). -/
def l179 (x : Fin 36 → ℝ) : ℝ := (l174 x - l177 x) * l140 x + (0 - l164 x - l178 x) * l163 x + (l141 x + l142 x) * l172 x

/-- `jac[5]` (HyQForwardKinJacForward.cpp:180). -/
def l180 (x : Fin 36 → ℝ) : ℝ := (0 - l165 x - l178 x) * l140 x + (l174 x + l177 x) * l163 x + (l107 x - l114 x) * l172 x

/-- `v_[116]` (HyQForwardKinJacForward.cpp:181). -/
def l181 (x : Fin 36 → ℝ) : ℝ := (1 / 2) * x 0

/-- `v_[51]` (HyQForwardKinJacForward.cpp:182). -/
def l182 (x : Fin 36 → ℝ) : ℝ := Real.cos (l181 x)

/-- `v_[53]` (HyQForwardKinJacForward.cpp:183). -/
def l183 (x : Fin 36 → ℝ) : ℝ := (1 / 2) * x 1

/-- `v_[52]` (HyQForwardKinJacForward.cpp:184). -/
def l184 (x : Fin 36 → ℝ) : ℝ := Real.cos (l183 x)

/-- `v_[61]` (HyQForwardKinJacForward.cpp:185). -/
def l185 (x : Fin 36 → ℝ) : ℝ := l182 x * l184 x

/-- `v_[58]` (HyQForwardKinJacForward.cpp:186). -/
def l186 (x : Fin 36 → ℝ) : ℝ := (1 / 2) * x 2

/-- `v_[55]` (HyQForwardKinJacForward.cpp:187). -/
def l187 (x : Fin 36 → ℝ) : ℝ := Real.sin (l186 x)

/-- `v_[89]` (HyQForwardKinJacForward.cpp:188). -/
def l188 (x : Fin 36 → ℝ) : ℝ := Real.sin (l181 x)

/-- `v_[88]` (HyQForwardKinJacForward.cpp:189). -/
def l189 (x : Fin 36 → ℝ) : ℝ := Real.sin (l183 x)

/-- `v_[54]` (HyQForwardKinJacForward.cpp:190). -/
def l190 (x : Fin 36 → ℝ) : ℝ := l188 x * l189 x

/-- `v_[117]` (HyQForwardKinJacForward.cpp:191). -/
def l191 (x : Fin 36 → ℝ) : ℝ := Real.cos (l186 x)

/-- `v_[118]` (HyQForwardKinJacForward.cpp:192). -/
def l192 (x : Fin 36 → ℝ) : ℝ := l185 x * l187 x + l190 x * l191 x

/-- `v_[119]` (HyQForwardKinJacForward.cpp:193). -/
def l193 (x : Fin 36 → ℝ) : ℝ := 2 * l192 x

/-- `v_[120]` (HyQForwardKinJacForward.cpp:194). -/
def l194 (x : Fin 36 → ℝ) : ℝ := (1 / 2) * Real.cos (l181 x)

/-- `v_[121]` (HyQForwardKinJacForward.cpp:195). -/
def l195 (x : Fin 36 → ℝ) : ℝ := l194 x * l184 x

/-- `v_[116]` (HyQForwardKinJacForward.cpp:196). -/
def l196 (x : Fin 36 → ℝ) : ℝ := -(1 / 2) * Real.sin (l181 x)

/-- `v_[122]` (HyQForwardKinJacForward.cpp:197). -/
def l197 (x : Fin 36 → ℝ) : ℝ := l196 x * l189 x

/-- `v_[123]` (HyQForwardKinJacForward.cpp:198). -/
def l198 (x : Fin 36 → ℝ) : ℝ := l195 x * l191 x + l197 x * l187 x

/-- `v_[116]` (HyQForwardKinJacForward.cpp:199). -/
def l199 (x : Fin 36 → ℝ) : ℝ := l196 x * l184 x

/-- `v_[120]` (HyQForwardKinJacForward.cpp:200). -/
def l200 (x : Fin 36 → ℝ) : ℝ := l194 x * l189 x

/-- `v_[124]` (HyQForwardKinJacForward.cpp:201). -/
def l201 (x : Fin 36 → ℝ) : ℝ := l199 x * l187 x + l200 x * l191 x

/-- `v_[125]` (HyQForwardKinJacForward.cpp:202). -/
def l202 (x : Fin 36 → ℝ) : ℝ := 2 * l201 x

/-- `v_[52]` (HyQForwardKinJacForward.cpp:203). -/
def l203 (x : Fin 36 → ℝ) : ℝ := l188 x * l184 x

/-- `v_[88]` (HyQForwardKinJacForward.cpp:204). -/
def l204 (x : Fin 36 → ℝ) : ℝ := l182 x * l189 x

/-- `v_[126]` (HyQForwardKinJacForward.cpp:205). -/
def l205 (x : Fin 36 → ℝ) : ℝ := l203 x * l191 x + l204 x * l187 x

/-- `v_[127]` (HyQForwardKinJacForward.cpp:206). -/
def l206 (x : Fin 36 → ℝ) : ℝ := l193 x * l198 x + l202 x * l205 x

/-- `v_[128]` (HyQForwardKinJacForward.cpp:207). -/
def l207 (x : Fin 36 → ℝ) : ℝ := l204 x * l191 x - l203 x * l187 x

/-- `v_[129]` (HyQForwardKinJacForward.cpp:208). -/
def l208 (x : Fin 36 → ℝ) : ℝ := 2 * l207 x

/-- `v_[120]` (HyQForwardKinJacForward.cpp:209). -/
def l209 (x : Fin 36 → ℝ) : ℝ := l199 x * l191 x - l200 x * l187 x

/-- `v_[122]` (HyQForwardKinJacForward.cpp:210). -/
def l210 (x : Fin 36 → ℝ) : ℝ := l197 x * l191 x - l195 x * l187 x

/-- `v_[121]` (HyQForwardKinJacForward.cpp:211). -/
def l211 (x : Fin 36 → ℝ) : ℝ := 2 * l210 x

/-- `v_[116]` (HyQForwardKinJacForward.cpp:212). -/
def l212 (x : Fin 36 → ℝ) : ℝ := l185 x * l191 x - l190 x * l187 x

/-- `v_[130]` (HyQForwardKinJacForward.cpp:213). -/
def l213 (x : Fin 36 → ℝ) : ℝ := l208 x * l209 x + l211 x * l212 x

/-- `v_[131]` (HyQForwardKinJacForward.cpp:214). -/
def l214 (x : Fin 36 → ℝ) : ℝ := Real.cos (x 9)

/-- `v_[132]` (HyQForwardKinJacForward.cpp:215). -/
def l215 (x : Fin 36 → ℝ) : ℝ := (33 / 100) * l214 x

/-- `v_[133]` (HyQForwardKinJacForward.cpp:216). -/
def l216 (x : Fin 36 → ℝ) : ℝ := Real.sin (x 10)

/-- `v_[134]` (HyQForwardKinJacForward.cpp:217). -/
def l217 (x : Fin 36 → ℝ) : ℝ := l215 x * l216 x

/-- `v_[135]` (HyQForwardKinJacForward.cpp:218). -/
def l218 (x : Fin 36 → ℝ) : ℝ := Real.sin (x 11)

/-- `v_[136]` (HyQForwardKinJacForward.cpp:219). -/
def l219 (x : Fin 36 → ℝ) : ℝ := (33 / 100) * l214 x

/-- `v_[137]` (HyQForwardKinJacForward.cpp:220). -/
def l220 (x : Fin 36 → ℝ) : ℝ := Real.cos (x 10)

/-- `v_[138]` (HyQForwardKinJacForward.cpp:221). -/
def l221 (x : Fin 36 → ℝ) : ℝ := l219 x * l220 x

/-- `v_[139]` (HyQForwardKinJacForward.cpp:222). -/
def l222 (x : Fin 36 → ℝ) : ℝ := Real.cos (x 11)

/-- `v_[140]` (HyQForwardKinJacForward.cpp:223). -/
def l223 (x : Fin 36 → ℝ) : ℝ := (7 / 20) * l214 x

/-- `v_[141]` (HyQForwardKinJacForward.cpp:224). -/
def l224 (x : Fin 36 → ℝ) : ℝ := l217 x * l218 x - l221 x * l222 x - l223 x * l220 x - (2 / 25) * l214 x

/-- `v_[142]` (HyQForwardKinJacForward.cpp:225). -/
def l225 (x : Fin 36 → ℝ) : ℝ := l208 x * l198 x + l211 x * l205 x

/-- `v_[143]` (HyQForwardKinJacForward.cpp:226). -/
def l226 (x : Fin 36 → ℝ) : ℝ := l193 x * l209 x + l202 x * l212 x

/-- `v_[144]` (HyQForwardKinJacForward.cpp:227). -/
def l227 (x : Fin 36 → ℝ) : ℝ := Real.sin (x 9)

/-- `v_[145]` (HyQForwardKinJacForward.cpp:228). -/
def l228 (x : Fin 36 → ℝ) : ℝ := (33 / 100) * l227 x

/-- `v_[146]` (HyQForwardKinJacForward.cpp:229). -/
def l229 (x : Fin 36 → ℝ) : ℝ := l228 x * l220 x

/-- `v_[147]` (HyQForwardKinJacForward.cpp:230). -/
def l230 (x : Fin 36 → ℝ) : ℝ := -(33 / 100) * l227 x

/-- `v_[148]` (HyQForwardKinJacForward.cpp:231). -/
def l231 (x : Fin 36 → ℝ) : ℝ := l230 x * l216 x

/-- `v_[149]` (HyQForwardKinJacForward.cpp:232). -/
def l232 (x : Fin 36 → ℝ) : ℝ := (7 / 20) * l227 x

/-- `v_[150]` (HyQForwardKinJacForward.cpp:233). -/
def l233 (x : Fin 36 → ℝ) : ℝ := -(207 / 1000) + l229 x * l222 x + l231 x * l218 x + l232 x * l220 x + (2 / 25) * l227 x

/-- `v_[124]` (HyQForwardKinJacForward.cpp:234). -/
def l234 (x : Fin 36 → ℝ) : ℝ := l193 x * l201 x + l202 x * l192 x

/-- `v_[121]` (HyQForwardKinJacForward.cpp:235). -/
def l235 (x : Fin 36 → ℝ) : ℝ := l208 x * l210 x + l211 x * l207 x

/-- `v_[151]` (HyQForwardKinJacForward.cpp:236). -/
def l236 (x : Fin 36 → ℝ) : ℝ := -(33 / 100) * l220 x

/-- `v_[152]` (HyQForwardKinJacForward.cpp:237). -/
def l237 (x : Fin 36 → ℝ) : ℝ := (33 / 100) * l216 x

/-- `v_[153]` (HyQForwardKinJacForward.cpp:238). -/
def l238 (x : Fin 36 → ℝ) : ℝ := (747 / 2000) + l236 x * l218 x - l237 x * l222 x - (7 / 20) * l216 x

/-- `jac[6]` (HyQForwardKinJacForward.cpp:239). -/
def l239 (x : Fin 36 → ℝ) : ℝ := (l206 x + l213 x) * l224 x + (l225 x - l226 x) * l233 x + (0 - l234 x - l235 x) * l238 x

/-- `v_[122]` (HyQForwardKinJacForward.cpp:240). -/
def l240 (x : Fin 36 → ℝ) : ℝ := l193 x * l210 x + l202 x * l207 x

/-- `v_[125]` (HyQForwardKinJacForward.cpp:241). -/
def l241 (x : Fin 36 → ℝ) : ℝ := 2 * l205 x

/-- `v_[154]` (HyQForwardKinJacForward.cpp:242). -/
def l242 (x : Fin 36 → ℝ) : ℝ := 2 * l198 x

/-- `v_[120]` (HyQForwardKinJacForward.cpp:243). -/
def l243 (x : Fin 36 → ℝ) : ℝ := l241 x * l209 x + l242 x * l212 x

/-- `v_[154]` (HyQForwardKinJacForward.cpp:244). -/
def l244 (x : Fin 36 → ℝ) : ℝ := l241 x * l198 x + l242 x * l205 x

/-- `jac[7]` (HyQForwardKinJacForward.cpp:245). -/
def l245 (x : Fin 36 → ℝ) : ℝ := (l240 x - l243 x) * l224 x + (0 - l234 x - l244 x) * l233 x + (l225 x + l226 x) * l238 x

/-- `jac[8]` (HyQForwardKinJacForward.cpp:246). -/
def l246 (x : Fin 36 → ℝ) : ℝ := (0 - l235 x - l244 x) * l224 x + (l240 x + l243 x) * l233 x + (l206 x - l213 x) * l238 x

/-- `v_[154]` (HyQForwardKinJacForward.cpp:247). -/
def l247 (x : Fin 36 → ℝ) : ℝ := (1 / 2) * x 0

/-- `v_[120]` (HyQForwardKinJacForward.cpp:248). -/
def l248 (x : Fin 36 → ℝ) : ℝ := Real.cos (l247 x)

/-- `v_[122]` (HyQForwardKinJacForward.cpp:249). -/
def l249 (x : Fin 36 → ℝ) : ℝ := (1 / 2) * x 1

/-- `v_[121]` (HyQForwardKinJacForward.cpp:250). -/
def l250 (x : Fin 36 → ℝ) : ℝ := Real.cos (l249 x)

/-- `v_[130]` (HyQForwardKinJacForward.cpp:251). -/
def l251 (x : Fin 36 → ℝ) : ℝ := l248 x * l250 x

/-- `v_[127]` (HyQForwardKinJacForward.cpp:252). -/
def l252 (x : Fin 36 → ℝ) : ℝ := (1 / 2) * x 2

/-- `v_[124]` (HyQForwardKinJacForward.cpp:253). -/
def l253 (x : Fin 36 → ℝ) : ℝ := Real.sin (l252 x)

/-- `v_[143]` (HyQForwardKinJacForward.cpp:254). -/
def l254 (x : Fin 36 → ℝ) : ℝ := Real.sin (l247 x)

/-- `v_[142]` (HyQForwardKinJacForward.cpp:255). -/
def l255 (x : Fin 36 → ℝ) : ℝ := Real.sin (l249 x)

/-- `v_[123]` (HyQForwardKinJacForward.cpp:256). -/
def l256 (x : Fin 36 → ℝ) : ℝ := l254 x * l255 x

/-- `v_[155]` (HyQForwardKinJacForward.cpp:257). -/
def l257 (x : Fin 36 → ℝ) : ℝ := Real.cos (l252 x)

/-- `v_[156]` (HyQForwardKinJacForward.cpp:258). -/
def l258 (x : Fin 36 → ℝ) : ℝ := l251 x * l253 x + l256 x * l257 x

/-- `v_[157]` (HyQForwardKinJacForward.cpp:259). -/
def l259 (x : Fin 36 → ℝ) : ℝ := 2 * l258 x

/-- `v_[158]` (HyQForwardKinJacForward.cpp:260). -/
def l260 (x : Fin 36 → ℝ) : ℝ := (1 / 2) * Real.cos (l247 x)

/-- `v_[159]` (HyQForwardKinJacForward.cpp:261). -/
def l261 (x : Fin 36 → ℝ) : ℝ := l260 x * l250 x

/-- `v_[154]` (HyQForwardKinJacForward.cpp:262). -/
def l262 (x : Fin 36 → ℝ) : ℝ := -(1 / 2) * Real.sin (l247 x)

/-- `v_[160]` (HyQForwardKinJacForward.cpp:263). -/
def l263 (x : Fin 36 → ℝ) : ℝ := l262 x * l255 x

/-- `v_[161]` (HyQForwardKinJacForward.cpp:264). -/
def l264 (x : Fin 36 → ℝ) : ℝ := l261 x * l257 x + l263 x * l253 x

/-- `v_[154]` (HyQForwardKinJacForward.cpp:265). -/
def l265 (x : Fin 36 → ℝ) : ℝ := l262 x * l250 x

/-- `v_[158]` (HyQForwardKinJacForward.cpp:266). -/
def l266 (x : Fin 36 → ℝ) : ℝ := l260 x * l255 x

/-- `v_[162]` (HyQForwardKinJacForward.cpp:267). -/
def l267 (x : Fin 36 → ℝ) : ℝ := l265 x * l253 x + l266 x * l257 x

/-- `v_[163]` (HyQForwardKinJacForward.cpp:268). -/
def l268 (x : Fin 36 → ℝ) : ℝ := 2 * l267 x

/-- `v_[121]` (HyQForwardKinJacForward.cpp:269). -/
def l269 (x : Fin 36 → ℝ) : ℝ := l254 x * l250 x

/-- `v_[142]` (HyQForwardKinJacForward.cpp:270). -/
def l270 (x : Fin 36 → ℝ) : ℝ := l248 x * l255 x

/-- `v_[164]` (HyQForwardKinJacForward.cpp:271). -/
def l271 (x : Fin 36 → ℝ) : ℝ := l269 x * l257 x + l270 x * l253 x

/-- `v_[165]` (HyQForwardKinJacForward.cpp:272). -/
def l272 (x : Fin 36 → ℝ) : ℝ := l259 x * l264 x + l268 x * l271 x

/-- `v_[166]` (HyQForwardKinJacForward.cpp:273). -/
def l273 (x : Fin 36 → ℝ) : ℝ := l270 x * l257 x - l269 x * l253 x

/-- `v_[167]` (HyQForwardKinJacForward.cpp:274). -/
def l274 (x : Fin 36 → ℝ) : ℝ := 2 * l273 x

/-- `v_[158]` (HyQForwardKinJacForward.cpp:275). -/
def l275 (x : Fin 36 → ℝ) : ℝ := l265 x * l257 x - l266 x * l253 x

/-- `v_[160]` (HyQForwardKinJacForward.cpp:276). -/
def l276 (x : Fin 36 → ℝ) : ℝ := l263 x * l257 x - l261 x * l253 x

/-- `v_[159]` (HyQForwardKinJacForward.cpp:277). -/
def l277 (x : Fin 36 → ℝ) : ℝ := 2 * l276 x

/-- `v_[154]` (HyQForwardKinJacForward.cpp:278). -/
def l278 (x : Fin 36 → ℝ) : ℝ := l251 x * l257 x - l256 x * l253 x

/-- `v_[168]` (HyQForwardKinJacForward.cpp:279). -/
def l279 (x : Fin 36 → ℝ) : ℝ := l274 x * l275 x + l277 x * l278 x

/-- `v_[169]` (HyQForwardKinJacForward.cpp:280). -/
def l280 (x : Fin 36 → ℝ) : ℝ := (33 / 100) * l214 x

/-- `v_[170]` (HyQForwardKinJacForward.cpp:281). -/
def l281 (x : Fin 36 → ℝ) : ℝ := l280 x * l220 x

/-- `v_[171]` (HyQForwardKinJacForward.cpp:282). -/
def l282 (x : Fin 36 → ℝ) : ℝ := (33 / 100) * l214 x

/-- `v_[172]` (HyQForwardKinJacForward.cpp:283). -/
def l283 (x : Fin 36 → ℝ) : ℝ := l282 x * l216 x

/-- `v_[173]` (HyQForwardKinJacForward.cpp:284). -/
def l284 (x : Fin 36 → ℝ) : ℝ := l281 x * l218 x + l283 x * l222 x

/-- `v_[174]` (HyQForwardKinJacForward.cpp:285). -/
def l285 (x : Fin 36 → ℝ) : ℝ := l280 x * l216 x

/-- `v_[175]` (HyQForwardKinJacForward.cpp:286). -/
def l286 (x : Fin 36 → ℝ) : ℝ := (33 / 100) * l214 x

/-- `v_[176]` (HyQForwardKinJacForward.cpp:287). -/
def l287 (x : Fin 36 → ℝ) : ℝ := l286 x * l220 x

/-- `v_[177]` (HyQForwardKinJacForward.cpp:288). -/
def l288 (x : Fin 36 → ℝ) : ℝ := (7 / 20) * l214 x

/-- `v_[178]` (HyQForwardKinJacForward.cpp:289). -/
def l289 (x : Fin 36 → ℝ) : ℝ := l285 x * l222 x + l287 x * l218 x + l288 x * l216 x

/-- `v_[179]` (HyQForwardKinJacForward.cpp:290). -/
def l290 (x : Fin 36 → ℝ) : ℝ := (33 / 100) * l227 x

/-- `v_[180]` (HyQForwardKinJacForward.cpp:291). -/
def l291 (x : Fin 36 → ℝ) : ℝ := l290 x * l220 x

/-- `v_[181]` (HyQForwardKinJacForward.cpp:292). -/
def l292 (x : Fin 36 → ℝ) : ℝ := -(33 / 100) * l227 x

/-- `v_[182]` (HyQForwardKinJacForward.cpp:293). -/
def l293 (x : Fin 36 → ℝ) : ℝ := l292 x * l216 x

/-- `v_[183]` (HyQForwardKinJacForward.cpp:294). -/
def l294 (x : Fin 36 → ℝ) : ℝ := (7 / 20) * l227 x

/-- `v_[184]` (HyQForwardKinJacForward.cpp:295). -/
def l295 (x : Fin 36 → ℝ) : ℝ := l291 x * l222 x + l293 x * l218 x + l294 x * l220 x + (2 / 25) * l227 x

/-- `v_[185]` (HyQForwardKinJacForward.cpp:296). -/
def l296 (x : Fin 36 → ℝ) : ℝ := (33 / 100) * l227 x

/-- `v_[186]` (HyQForwardKinJacForward.cpp:297). -/
def l297 (x : Fin 36 → ℝ) : ℝ := l296 x * l220 x

/-- `v_[187]` (HyQForwardKinJacForward.cpp:298). -/
def l298 (x : Fin 36 → ℝ) : ℝ := -(33 / 100) * l227 x

/-- `v_[188]` (HyQForwardKinJacForward.cpp:299). -/
def l299 (x : Fin 36 → ℝ) : ℝ := l298 x * l216 x

/-- `v_[189]` (HyQForwardKinJacForward.cpp:300). -/
def l300 (x : Fin 36 → ℝ) : ℝ := (7 / 20) * l227 x

/-- `v_[190]` (HyQForwardKinJacForward.cpp:301). -/
def l301 (x : Fin 36 → ℝ) : ℝ := -(207 / 1000) + l297 x * l222 x + l299 x * l218 x + l300 x * l220 x + (2 / 25) * l227 x

/-- `v_[191]` (HyQForwardKinJacForward.cpp:302). -/
def l302 (x : Fin 36 → ℝ) : ℝ := -(33 / 100) * l220 x

/-- `v_[192]` (HyQForwardKinJacForward.cpp:303). -/
def l303 (x : Fin 36 → ℝ) : ℝ := (33 / 100) * l216 x

/-- `v_[193]` (HyQForwardKinJacForward.cpp:304). -/
def l304 (x : Fin 36 → ℝ) : ℝ := (747 / 2000) + l302 x * l218 x - l303 x * l222 x - (7 / 20) * l216 x

/-- `v_[194]` (HyQForwardKinJacForward.cpp:305). -/
def l305 (x : Fin 36 → ℝ) : ℝ := l284 x * x 29 + l289 x * x 28 + l295 x * x 27 + x 23 + x 18 * l301 x - x 19 * l304 x

/-- `v_[195]` (HyQForwardKinJacForward.cpp:306). -/
def l306 (x : Fin 36 → ℝ) : ℝ := l274 x * l264 x + l277 x * l271 x

/-- `v_[196]` (HyQForwardKinJacForward.cpp:307). -/
def l307 (x : Fin 36 → ℝ) : ℝ := l259 x * l275 x + l268 x * l278 x

/-- `v_[197]` (HyQForwardKinJacForward.cpp:308). -/
def l308 (x : Fin 36 → ℝ) : ℝ := -(33 / 100) * l227 x

/-- `v_[198]` (HyQForwardKinJacForward.cpp:309). -/
def l309 (x : Fin 36 → ℝ) : ℝ := l308 x * l220 x

/-- `v_[199]` (HyQForwardKinJacForward.cpp:310). -/
def l310 (x : Fin 36 → ℝ) : ℝ := (33 / 100) * l227 x

/-- `v_[200]` (HyQForwardKinJacForward.cpp:311). -/
def l311 (x : Fin 36 → ℝ) : ℝ := l310 x * l216 x

/-- `v_[201]` (HyQForwardKinJacForward.cpp:312). -/
def l312 (x : Fin 36 → ℝ) : ℝ := l309 x * l218 x - l311 x * l222 x

/-- `v_[202]` (HyQForwardKinJacForward.cpp:313). -/
def l313 (x : Fin 36 → ℝ) : ℝ := l292 x * l220 x

/-- `v_[203]` (HyQForwardKinJacForward.cpp:314). -/
def l314 (x : Fin 36 → ℝ) : ℝ := (33 / 100) * l227 x

/-- `v_[204]` (HyQForwardKinJacForward.cpp:315). -/
def l315 (x : Fin 36 → ℝ) : ℝ := l314 x * l216 x

/-- `v_[144]` (HyQForwardKinJacForward.cpp:316). -/
def l316 (x : Fin 36 → ℝ) : ℝ := (7 / 20) * l227 x

/-- `v_[205]` (HyQForwardKinJacForward.cpp:317). -/
def l317 (x : Fin 36 → ℝ) : ℝ := l313 x * l218 x - l315 x * l222 x - l316 x * l216 x

/-- `v_[206]` (HyQForwardKinJacForward.cpp:318). -/
def l318 (x : Fin 36 → ℝ) : ℝ := (33 / 100) * l214 x

/-- `v_[207]` (HyQForwardKinJacForward.cpp:319). -/
def l319 (x : Fin 36 → ℝ) : ℝ := l318 x * l220 x

/-- `v_[208]` (HyQForwardKinJacForward.cpp:320). -/
def l320 (x : Fin 36 → ℝ) : ℝ := -(33 / 100) * l214 x

/-- `v_[209]` (HyQForwardKinJacForward.cpp:321). -/
def l321 (x : Fin 36 → ℝ) : ℝ := l320 x * l216 x

/-- `v_[210]` (HyQForwardKinJacForward.cpp:322). -/
def l322 (x : Fin 36 → ℝ) : ℝ := (7 / 20) * l214 x

/-- `v_[211]` (HyQForwardKinJacForward.cpp:323). -/
def l323 (x : Fin 36 → ℝ) : ℝ := l319 x * l222 x + l321 x * l218 x + l322 x * l220 x + (2 / 25) * l214 x

/-- `v_[212]` (HyQForwardKinJacForward.cpp:324). -/
def l324 (x : Fin 36 → ℝ) : ℝ := (33 / 100) * l214 x

/-- `v_[213]` (HyQForwardKinJacForward.cpp:325). -/
def l325 (x : Fin 36 → ℝ) : ℝ := l324 x * l216 x

/-- `v_[214]` (HyQForwardKinJacForward.cpp:326). -/
def l326 (x : Fin 36 → ℝ) : ℝ := (33 / 100) * l214 x

/-- `v_[215]` (HyQForwardKinJacForward.cpp:327). -/
def l327 (x : Fin 36 → ℝ) : ℝ := l326 x * l220 x

/-- `v_[216]` (HyQForwardKinJacForward.cpp:328). -/
def l328 (x : Fin 36 → ℝ) : ℝ := (7 / 20) * l214 x

/-- `v_[131]` (HyQForwardKinJacForward.cpp:329). -/
def l329 (x : Fin 36 → ℝ) : ℝ := l325 x * l218 x - l327 x * l222 x - l328 x * l220 x - (2 / 25) * l214 x

/-- `v_[217]` (HyQForwardKinJacForward.cpp:330). -/
def l330 (x : Fin 36 → ℝ) : ℝ := l312 x * x 29 + l317 x * x 28 + l323 x * x 27 + x 22 + x 20 * l304 x - x 18 * l329 x

/-- `v_[162]` (HyQForwardKinJacForward.cpp:331). -/
def l331 (x : Fin 36 → ℝ) : ℝ := l259 x * l267 x + l268 x * l258 x

/-- `v_[159]` (HyQForwardKinJacForward.cpp:332). -/
def l332 (x : Fin 36 → ℝ) : ℝ := l274 x * l276 x + l277 x * l273 x

/-- `v_[218]` (HyQForwardKinJacForward.cpp:333). -/
def l333 (x : Fin 36 → ℝ) : ℝ := (33 / 100) * l216 x

/-- `v_[219]` (HyQForwardKinJacForward.cpp:334). -/
def l334 (x : Fin 36 → ℝ) : ℝ := (33 / 100) * l220 x

/-- `v_[220]` (HyQForwardKinJacForward.cpp:335). -/
def l335 (x : Fin 36 → ℝ) : ℝ := l333 x * l218 x - l334 x * l222 x

/-- `v_[221]` (HyQForwardKinJacForward.cpp:336). -/
def l336 (x : Fin 36 → ℝ) : ℝ := (33 / 100) * l216 x

/-- `v_[222]` (HyQForwardKinJacForward.cpp:337). -/
def l337 (x : Fin 36 → ℝ) : ℝ := (33 / 100) * l220 x

/-- `v_[223]` (HyQForwardKinJacForward.cpp:338). -/
def l338 (x : Fin 36 → ℝ) : ℝ := l336 x * l218 x - l337 x * l222 x - (7 / 20) * l220 x

/-- `v_[224]` (HyQForwardKinJacForward.cpp:339). -/
def l339 (x : Fin 36 → ℝ) : ℝ := l335 x * x 29 + l338 x * x 28 + x 21 + x 19 * l329 x - x 20 * l301 x

/-- `jac[9]` (HyQForwardKinJacForward.cpp:340). -/
def l340 (x : Fin 36 → ℝ) : ℝ := (l272 x + l279 x) * l305 x + (l306 x - l307 x) * l330 x + (0 - l331 x - l332 x) * l339 x

/-- `v_[160]` (HyQForwardKinJacForward.cpp:341). -/
def l341 (x : Fin 36 → ℝ) : ℝ := l259 x * l276 x + l268 x * l273 x

/-- `v_[163]` (HyQForwardKinJacForward.cpp:342). -/
def l342 (x : Fin 36 → ℝ) : ℝ := 2 * l271 x

/-- `v_[225]` (HyQForwardKinJacForward.cpp:343). -/
def l343 (x : Fin 36 → ℝ) : ℝ := 2 * l264 x

/-- `v_[158]` (HyQForwardKinJacForward.cpp:344). -/
def l344 (x : Fin 36 → ℝ) : ℝ := l342 x * l275 x + l343 x * l278 x

/-- `v_[225]` (HyQForwardKinJacForward.cpp:345). -/
def l345 (x : Fin 36 → ℝ) : ℝ := l342 x * l264 x + l343 x * l271 x

/-- `jac[10]` (HyQForwardKinJacForward.cpp:346). -/
def l346 (x : Fin 36 → ℝ) : ℝ := (l341 x - l344 x) * l305 x + (0 - l331 x - l345 x) * l330 x + (l306 x + l307 x) * l339 x

/-- `jac[11]` (HyQForwardKinJacForward.cpp:347). -/
def l347 (x : Fin 36 → ℝ) : ℝ := (0 - l332 x - l345 x) * l305 x + (l341 x + l344 x) * l330 x + (l272 x - l279 x) * l339 x

/-- `v_[225]` (HyQForwardKinJacForward.cpp:348). -/
def l348 (x : Fin 36 → ℝ) : ℝ := (1 / 2) * x 0

/-- `v_[158]` (HyQForwardKinJacForward.cpp:349). -/
def l349 (x : Fin 36 → ℝ) : ℝ := Real.cos (l348 x)

/-- `v_[160]` (HyQForwardKinJacForward.cpp:350). -/
def l350 (x : Fin 36 → ℝ) : ℝ := (1 / 2) * x 1

/-- `v_[159]` (HyQForwardKinJacForward.cpp:351). -/
def l351 (x : Fin 36 → ℝ) : ℝ := Real.cos (l350 x)

/-- `v_[168]` (HyQForwardKinJacForward.cpp:352). -/
def l352 (x : Fin 36 → ℝ) : ℝ := l349 x * l351 x

/-- `v_[165]` (HyQForwardKinJacForward.cpp:353). -/
def l353 (x : Fin 36 → ℝ) : ℝ := (1 / 2) * x 2

/-- `v_[162]` (HyQForwardKinJacForward.cpp:354). -/
def l354 (x : Fin 36 → ℝ) : ℝ := Real.sin (l353 x)

/-- `v_[196]` (HyQForwardKinJacForward.cpp:355). -/
def l355 (x : Fin 36 → ℝ) : ℝ := Real.sin (l348 x)

/-- `v_[195]` (HyQForwardKinJacForward.cpp:356). -/
def l356 (x : Fin 36 → ℝ) : ℝ := Real.sin (l350 x)

/-- `v_[161]` (HyQForwardKinJacForward.cpp:357). -/
def l357 (x : Fin 36 → ℝ) : ℝ := l355 x * l356 x

/-- `v_[226]` (HyQForwardKinJacForward.cpp:358). -/
def l358 (x : Fin 36 → ℝ) : ℝ := Real.cos (l353 x)

/-- `v_[227]` (HyQForwardKinJacForward.cpp:359). -/
def l359 (x : Fin 36 → ℝ) : ℝ := l352 x * l354 x + l357 x * l358 x

/-- `v_[228]` (HyQForwardKinJacForward.cpp:360). -/
def l360 (x : Fin 36 → ℝ) : ℝ := 2 * l359 x

/-- `v_[229]` (HyQForwardKinJacForward.cpp:361). -/
def l361 (x : Fin 36 → ℝ) : ℝ := (1 / 2) * Real.cos (l348 x)

/-- `v_[230]` (HyQForwardKinJacForward.cpp:362). -/
def l362 (x : Fin 36 → ℝ) : ℝ := l361 x * l351 x

/-- `v_[225]` (HyQForwardKinJacForward.cpp:363). -/
def l363 (x : Fin 36 → ℝ) : ℝ := -(1 / 2) * Real.sin (l348 x)

/-- `v_[231]` (HyQForwardKinJacForward.cpp:364). -/
def l364 (x : Fin 36 → ℝ) : ℝ := l363 x * l356 x

/-- `v_[232]` (HyQForwardKinJacForward.cpp:365). -/
def l365 (x : Fin 36 → ℝ) : ℝ := l362 x * l358 x + l364 x * l354 x

/-- `v_[225]` (HyQForwardKinJacForward.cpp:366). -/
def l366 (x : Fin 36 → ℝ) : ℝ := l363 x * l351 x

/-- `v_[229]` (HyQForwardKinJacForward.cpp:367). -/
def l367 (x : Fin 36 → ℝ) : ℝ := l361 x * l356 x

/-- `v_[233]` (HyQForwardKinJacForward.cpp:368). -/
def l368 (x : Fin 36 → ℝ) : ℝ := l366 x * l354 x + l367 x * l358 x

/-- `v_[234]` (HyQForwardKinJacForward.cpp:369). -/
def l369 (x : Fin 36 → ℝ) : ℝ := 2 * l368 x

/-- `v_[159]` (HyQForwardKinJacForward.cpp:370). -/
def l370 (x : Fin 36 → ℝ) : ℝ := l355 x * l351 x

/-- `v_[195]` (HyQForwardKinJacForward.cpp:371). -/
def l371 (x : Fin 36 → ℝ) : ℝ := l349 x * l356 x

/-- `v_[235]` (HyQForwardKinJacForward.cpp:372). -/
def l372 (x : Fin 36 → ℝ) : ℝ := l370 x * l358 x + l371 x * l354 x

/-- `v_[236]` (HyQForwardKinJacForward.cpp:373). -/
def l373 (x : Fin 36 → ℝ) : ℝ := l360 x * l365 x + l369 x * l372 x

/-- `v_[237]` (HyQForwardKinJacForward.cpp:374). -/
def l374 (x : Fin 36 → ℝ) : ℝ := l371 x * l358 x - l370 x * l354 x

/-- `v_[238]` (HyQForwardKinJacForward.cpp:375). -/
def l375 (x : Fin 36 → ℝ) : ℝ := 2 * l374 x

/-- `v_[229]` (HyQForwardKinJacForward.cpp:376). -/
def l376 (x : Fin 36 → ℝ) : ℝ := l366 x * l358 x - l367 x * l354 x

/-- `v_[231]` (HyQForwardKinJacForward.cpp:377). -/
def l377 (x : Fin 36 → ℝ) : ℝ := l364 x * l358 x - l362 x * l354 x

/-- `v_[230]` (HyQForwardKinJacForward.cpp:378). -/
def l378 (x : Fin 36 → ℝ) : ℝ := 2 * l377 x

/-- `v_[225]` (HyQForwardKinJacForward.cpp:379). -/
def l379 (x : Fin 36 → ℝ) : ℝ := l352 x * l358 x - l357 x * l354 x

/-- `v_[239]` (HyQForwardKinJacForward.cpp:380). -/
def l380 (x : Fin 36 → ℝ) : ℝ := l375 x * l376 x + l378 x * l379 x

/-- `v_[240]` (HyQForwardKinJacForward.cpp:381). -/
def l381 (x : Fin 36 → ℝ) : ℝ := Real.cos (x 12)

/-- `v_[241]` (HyQForwardKinJacForward.cpp:382). -/
def l382 (x : Fin 36 → ℝ) : ℝ := (33 / 100) * l381 x

/-- `v_[242]` (HyQForwardKinJacForward.cpp:383). -/
def l383 (x : Fin 36 → ℝ) : ℝ := Real.sin (x 13)

/-- `v_[243]` (HyQForwardKinJacForward.cpp:384). -/
def l384 (x : Fin 36 → ℝ) : ℝ := l382 x * l383 x

/-- `v_[244]` (HyQForwardKinJacForward.cpp:385). -/
def l385 (x : Fin 36 → ℝ) : ℝ := Real.sin (x 14)

/-- `v_[245]` (HyQForwardKinJacForward.cpp:386). -/
def l386 (x : Fin 36 → ℝ) : ℝ := (33 / 100) * l381 x

/-- `v_[246]` (HyQForwardKinJacForward.cpp:387). -/
def l387 (x : Fin 36 → ℝ) : ℝ := Real.cos (x 13)

/-- `v_[247]` (HyQForwardKinJacForward.cpp:388). -/
def l388 (x : Fin 36 → ℝ) : ℝ := l386 x * l387 x

/-- `v_[248]` (HyQForwardKinJacForward.cpp:389). -/
def l389 (x : Fin 36 → ℝ) : ℝ := Real.cos (x 14)

/-- `v_[249]` (HyQForwardKinJacForward.cpp:390). -/
def l390 (x : Fin 36 → ℝ) : ℝ := (7 / 20) * l381 x

/-- `v_[250]` (HyQForwardKinJacForward.cpp:391). -/
def l391 (x : Fin 36 → ℝ) : ℝ := l384 x * l385 x - l388 x * l389 x - l390 x * l387 x - (2 / 25) * l381 x

/-- `v_[251]` (HyQForwardKinJacForward.cpp:392). -/
def l392 (x : Fin 36 → ℝ) : ℝ := l375 x * l365 x + l378 x * l372 x

/-- `v_[252]` (HyQForwardKinJacForward.cpp:393). -/
def l393 (x : Fin 36 → ℝ) : ℝ := l360 x * l376 x + l369 x * l379 x

/-- `v_[253]` (HyQForwardKinJacForward.cpp:394). -/
def l394 (x : Fin 36 → ℝ) : ℝ := Real.sin (x 12)

/-- `v_[254]` (HyQForwardKinJacForward.cpp:395). -/
def l395 (x : Fin 36 → ℝ) : ℝ := (33 / 100) * l394 x

/-- `v_[255]` (HyQForwardKinJacForward.cpp:396). -/
def l396 (x : Fin 36 → ℝ) : ℝ := l395 x * l383 x

/-- `v_[256]` (HyQForwardKinJacForward.cpp:397). -/
def l397 (x : Fin 36 → ℝ) : ℝ := (33 / 100) * l394 x

/-- `v_[257]` (HyQForwardKinJacForward.cpp:398). -/
def l398 (x : Fin 36 → ℝ) : ℝ := l397 x * l387 x

/-- `v_[258]` (HyQForwardKinJacForward.cpp:399). -/
def l399 (x : Fin 36 → ℝ) : ℝ := (7 / 20) * l394 x

/-- `v_[259]` (HyQForwardKinJacForward.cpp:400). -/
def l400 (x : Fin 36 → ℝ) : ℝ := (207 / 1000) + l396 x * l385 x - l398 x * l389 x - l399 x * l387 x - (2 / 25) * l394 x

/-- `v_[233]` (HyQForwardKinJacForward.cpp:401). -/
def l401 (x : Fin 36 → ℝ) : ℝ := l360 x * l368 x + l369 x * l359 x

/-- `v_[230]` (HyQForwardKinJacForward.cpp:402). -/
def l402 (x : Fin 36 → ℝ) : ℝ := l375 x * l377 x + l378 x * l374 x

/-- `v_[260]` (HyQForwardKinJacForward.cpp:403). -/
def l403 (x : Fin 36 → ℝ) : ℝ := -(33 / 100) * l387 x

/-- `v_[261]` (HyQForwardKinJacForward.cpp:404). -/
def l404 (x : Fin 36 → ℝ) : ℝ := (33 / 100) * l383 x

/-- `v_[262]` (HyQForwardKinJacForward.cpp:405). -/
def l405 (x : Fin 36 → ℝ) : ℝ := -(747 / 2000) + l403 x * l385 x - l404 x * l389 x - (7 / 20) * l383 x

/-- `jac[12]` (HyQForwardKinJacForward.cpp:406). -/
def l406 (x : Fin 36 → ℝ) : ℝ := (l373 x + l380 x) * l391 x + (l392 x - l393 x) * l400 x + (0 - l401 x - l402 x) * l405 x

/-- `v_[231]` (HyQForwardKinJacForward.cpp:407). -/
def l407 (x : Fin 36 → ℝ) : ℝ := l360 x * l377 x + l369 x * l374 x

/-- `v_[234]` (HyQForwardKinJacForward.cpp:408). -/
def l408 (x : Fin 36 → ℝ) : ℝ := 2 * l372 x

/-- `v_[263]` (HyQForwardKinJacForward.cpp:409). -/
def l409 (x : Fin 36 → ℝ) : ℝ := 2 * l365 x

/-- `v_[229]` (HyQForwardKinJacForward.cpp:410). -/
def l410 (x : Fin 36 → ℝ) : ℝ := l408 x * l376 x + l409 x * l379 x

/-- `v_[263]` (HyQForwardKinJacForward.cpp:411). -/
def l411 (x : Fin 36 → ℝ) : ℝ := l408 x * l365 x + l409 x * l372 x

/-- `jac[13]` (HyQForwardKinJacForward.cpp:412). -/
def l412 (x : Fin 36 → ℝ) : ℝ := (l407 x - l410 x) * l391 x + (0 - l401 x - l411 x) * l400 x + (l392 x + l393 x) * l405 x

/-- `jac[14]` (HyQForwardKinJacForward.cpp:413). -/
def l413 (x : Fin 36 → ℝ) : ℝ := (0 - l402 x - l411 x) * l391 x + (l407 x + l410 x) * l400 x + (l373 x - l380 x) * l405 x

/-- `v_[263]` (HyQForwardKinJacForward.cpp:414). -/
def l414 (x : Fin 36 → ℝ) : ℝ := (1 / 2) * x 0

/-- `v_[229]` (HyQForwardKinJacForward.cpp:415). -/
def l415 (x : Fin 36 → ℝ) : ℝ := Real.cos (l414 x)

/-- `v_[231]` (HyQForwardKinJacForward.cpp:416). -/
def l416 (x : Fin 36 → ℝ) : ℝ := (1 / 2) * x 1

/-- `v_[230]` (HyQForwardKinJacForward.cpp:417). -/
def l417 (x : Fin 36 → ℝ) : ℝ := Real.cos (l416 x)

/-- `v_[239]` (HyQForwardKinJacForward.cpp:418). -/
def l418 (x : Fin 36 → ℝ) : ℝ := l415 x * l417 x

/-- `v_[236]` (HyQForwardKinJacForward.cpp:419). -/
def l419 (x : Fin 36 → ℝ) : ℝ := (1 / 2) * x 2

/-- `v_[233]` (HyQForwardKinJacForward.cpp:420). -/
def l420 (x : Fin 36 → ℝ) : ℝ := Real.sin (l419 x)

/-- `v_[252]` (HyQForwardKinJacForward.cpp:421). -/
def l421 (x : Fin 36 → ℝ) : ℝ := Real.sin (l414 x)

/-- `v_[251]` (HyQForwardKinJacForward.cpp:422). -/
def l422 (x : Fin 36 → ℝ) : ℝ := Real.sin (l416 x)

/-- `v_[232]` (HyQForwardKinJacForward.cpp:423). -/
def l423 (x : Fin 36 → ℝ) : ℝ := l421 x * l422 x

/-- `v_[264]` (HyQForwardKinJacForward.cpp:424). -/
def l424 (x : Fin 36 → ℝ) : ℝ := Real.cos (l419 x)

/-- `v_[265]` (HyQForwardKinJacForward.cpp:425). -/
def l425 (x : Fin 36 → ℝ) : ℝ := l418 x * l420 x + l423 x * l424 x

/-- `v_[266]` (HyQForwardKinJacForward.cpp:426). -/
def l426 (x : Fin 36 → ℝ) : ℝ := 2 * l425 x

/-- `v_[267]` (HyQForwardKinJacForward.cpp:427). -/
def l427 (x : Fin 36 → ℝ) : ℝ := (1 / 2) * Real.cos (l414 x)

/-- `v_[268]` (HyQForwardKinJacForward.cpp:428). -/
def l428 (x : Fin 36 → ℝ) : ℝ := l427 x * l417 x

/-- `v_[263]` (HyQForwardKinJacForward.cpp:429). -/
def l429 (x : Fin 36 → ℝ) : ℝ := -(1 / 2) * Real.sin (l414 x)

/-- `v_[269]` (HyQForwardKinJacForward.cpp:430). -/
def l430 (x : Fin 36 → ℝ) : ℝ := l429 x * l422 x

/-- `v_[270]` (HyQForwardKinJacForward.cpp:431). -/
def l431 (x : Fin 36 → ℝ) : ℝ := l428 x * l424 x + l430 x * l420 x

/-- `v_[263]` (HyQForwardKinJacForward.cpp:432). -/
def l432 (x : Fin 36 → ℝ) : ℝ := l429 x * l417 x

/-- `v_[267]` (HyQForwardKinJacForward.cpp:433). -/
def l433 (x : Fin 36 → ℝ) : ℝ := l427 x * l422 x

/-- `v_[271]` (HyQForwardKinJacForward.cpp:434). -/
def l434 (x : Fin 36 → ℝ) : ℝ := l432 x * l420 x + l433 x * l424 x

/-- `v_[272]` (HyQForwardKinJacForward.cpp:435). -/
def l435 (x : Fin 36 → ℝ) : ℝ := 2 * l434 x

/-- `v_[230]` (HyQForwardKinJacForward.cpp:436). -/
def l436 (x : Fin 36 → ℝ) : ℝ := l421 x * l417 x

/-- `v_[251]` (HyQForwardKinJacForward.cpp:437). -/
def l437 (x : Fin 36 → ℝ) : ℝ := l415 x * l422 x

/-- `v_[273]` (HyQForwardKinJacForward.cpp:438). -/
def l438 (x : Fin 36 → ℝ) : ℝ := l436 x * l424 x + l437 x * l420 x

/-- `v_[274]` (HyQForwardKinJacForward.cpp:439). -/
def l439 (x : Fin 36 → ℝ) : ℝ := l426 x * l431 x + l435 x * l438 x

/-- `v_[275]` (HyQForwardKinJacForward.cpp:440). -/
def l440 (x : Fin 36 → ℝ) : ℝ := l437 x * l424 x - l436 x * l420 x

/-- `v_[276]` (HyQForwardKinJacForward.cpp:441). -/
def l441 (x : Fin 36 → ℝ) : ℝ := 2 * l440 x

/-- `v_[267]` (HyQForwardKinJacForward.cpp:442). -/
def l442 (x : Fin 36 → ℝ) : ℝ := l432 x * l424 x - l433 x * l420 x

/-- `v_[269]` (HyQForwardKinJacForward.cpp:443). -/
def l443 (x : Fin 36 → ℝ) : ℝ := l430 x * l424 x - l428 x * l420 x

/-- `v_[268]` (HyQForwardKinJacForward.cpp:444). -/
def l444 (x : Fin 36 → ℝ) : ℝ := 2 * l443 x

/-- `v_[263]` (HyQForwardKinJacForward.cpp:445). -/
def l445 (x : Fin 36 → ℝ) : ℝ := l418 x * l424 x - l423 x * l420 x

/-- `v_[277]` (HyQForwardKinJacForward.cpp:446). -/
def l446 (x : Fin 36 → ℝ) : ℝ := l441 x * l442 x + l444 x * l445 x

/-- `v_[278]` (HyQForwardKinJacForward.cpp:447). -/
def l447 (x : Fin 36 → ℝ) : ℝ := (33 / 100) * l381 x

/-- `v_[279]` (HyQForwardKinJacForward.cpp:448). -/
def l448 (x : Fin 36 → ℝ) : ℝ := l447 x * l387 x

/-- `v_[280]` (HyQForwardKinJacForward.cpp:449). -/
def l449 (x : Fin 36 → ℝ) : ℝ := (33 / 100) * l381 x

/-- `v_[281]` (HyQForwardKinJacForward.cpp:450). -/
def l450 (x : Fin 36 → ℝ) : ℝ := l449 x * l383 x

/-- `v_[282]` (HyQForwardKinJacForward.cpp:451). -/
def l451 (x : Fin 36 → ℝ) : ℝ := l448 x * l385 x + l450 x * l389 x

/-- `v_[283]` (HyQForwardKinJacForward.cpp:452). -/
def l452 (x : Fin 36 → ℝ) : ℝ := l447 x * l383 x

/-- `v_[284]` (HyQForwardKinJacForward.cpp:453). -/
def l453 (x : Fin 36 → ℝ) : ℝ := (33 / 100) * l381 x

/-- `v_[285]` (HyQForwardKinJacForward.cpp:454). -/
def l454 (x : Fin 36 → ℝ) : ℝ := l453 x * l387 x

/-- `v_[286]` (HyQForwardKinJacForward.cpp:455). -/
def l455 (x : Fin 36 → ℝ) : ℝ := (7 / 20) * l381 x

/-- `v_[287]` (HyQForwardKinJacForward.cpp:456). -/
def l456 (x : Fin 36 → ℝ) : ℝ := l452 x * l389 x + l454 x * l385 x + l455 x * l383 x

/-- `v_[288]` (HyQForwardKinJacForward.cpp:457). -/
def l457 (x : Fin 36 → ℝ) : ℝ := (33 / 100) * l394 x

/-- `v_[289]` (HyQForwardKinJacForward.cpp:458). -/
def l458 (x : Fin 36 → ℝ) : ℝ := l457 x * l387 x

/-- `v_[290]` (HyQForwardKinJacForward.cpp:459). -/
def l459 (x : Fin 36 → ℝ) : ℝ := -(33 / 100) * l394 x

/-- `v_[291]` (HyQForwardKinJacForward.cpp:460). -/
def l460 (x : Fin 36 → ℝ) : ℝ := l459 x * l383 x

/-- `v_[292]` (HyQForwardKinJacForward.cpp:461). -/
def l461 (x : Fin 36 → ℝ) : ℝ := (7 / 20) * l394 x

/-- `v_[293]` (HyQForwardKinJacForward.cpp:462). -/
def l462 (x : Fin 36 → ℝ) : ℝ := l458 x * l389 x + l460 x * l385 x + l461 x * l387 x + (2 / 25) * l394 x

/-- `v_[294]` (HyQForwardKinJacForward.cpp:463). -/
def l463 (x : Fin 36 → ℝ) : ℝ := (33 / 100) * l394 x

/-- `v_[295]` (HyQForwardKinJacForward.cpp:464). -/
def l464 (x : Fin 36 → ℝ) : ℝ := l463 x * l383 x

/-- `v_[296]` (HyQForwardKinJacForward.cpp:465). -/
def l465 (x : Fin 36 → ℝ) : ℝ := Real.sin (x 14)

/-- `v_[297]` (HyQForwardKinJacForward.cpp:466). -/
def l466 (x : Fin 36 → ℝ) : ℝ := (33 / 100) * l394 x

/-- `v_[298]` (HyQForwardKinJacForward.cpp:467). -/
def l467 (x : Fin 36 → ℝ) : ℝ := l466 x * l387 x

/-- `v_[299]` (HyQForwardKinJacForward.cpp:468). -/
def l468 (x : Fin 36 → ℝ) : ℝ := (7 / 20) * l394 x

/-- `v_[300]` (HyQForwardKinJacForward.cpp:469). -/
def l469 (x : Fin 36 → ℝ) : ℝ := (207 / 1000) + l464 x * l465 x - l467 x * l389 x - l468 x * l387 x - (2 / 25) * l394 x

/-- `v_[301]` (HyQForwardKinJacForward.cpp:470). -/
def l470 (x : Fin 36 → ℝ) : ℝ := -(33 / 100) * l387 x

/-- `v_[302]` (HyQForwardKinJacForward.cpp:471). -/
def l471 (x : Fin 36 → ℝ) : ℝ := (33 / 100) * l383 x

/-- `v_[303]` (HyQForwardKinJacForward.cpp:472). -/
def l472 (x : Fin 36 → ℝ) : ℝ := -(747 / 2000) + l470 x * l465 x - l471 x * l389 x - (7 / 20) * l383 x

/-- `v_[304]` (HyQForwardKinJacForward.cpp:473). -/
def l473 (x : Fin 36 → ℝ) : ℝ := l451 x * x 32 + l456 x * x 31 + l462 x * x 30 + x 23 + x 18 * l469 x - x 19 * l472 x

/-- `v_[305]` (HyQForwardKinJacForward.cpp:474). -/
def l474 (x : Fin 36 → ℝ) : ℝ := l441 x * l431 x + l444 x * l438 x

/-- `v_[306]` (HyQForwardKinJacForward.cpp:475). -/
def l475 (x : Fin 36 → ℝ) : ℝ := l426 x * l442 x + l435 x * l445 x

/-- `v_[307]` (HyQForwardKinJacForward.cpp:476). -/
def l476 (x : Fin 36 → ℝ) : ℝ := (33 / 100) * l394 x

/-- `v_[308]` (HyQForwardKinJacForward.cpp:477). -/
def l477 (x : Fin 36 → ℝ) : ℝ := l476 x * l387 x

/-- `v_[309]` (HyQForwardKinJacForward.cpp:478). -/
def l478 (x : Fin 36 → ℝ) : ℝ := (33 / 100) * l394 x

/-- `v_[310]` (HyQForwardKinJacForward.cpp:479). -/
def l479 (x : Fin 36 → ℝ) : ℝ := l478 x * l383 x

/-- `v_[311]` (HyQForwardKinJacForward.cpp:480). -/
def l480 (x : Fin 36 → ℝ) : ℝ := l477 x * l385 x + l479 x * l389 x

/-- `v_[312]` (HyQForwardKinJacForward.cpp:481). -/
def l481 (x : Fin 36 → ℝ) : ℝ := l476 x * l383 x

/-- `v_[313]` (HyQForwardKinJacForward.cpp:482). -/
def l482 (x : Fin 36 → ℝ) : ℝ := (33 / 100) * l394 x

/-- `v_[314]` (HyQForwardKinJacForward.cpp:483). -/
def l483 (x : Fin 36 → ℝ) : ℝ := l482 x * l387 x

/-- `v_[253]` (HyQForwardKinJacForward.cpp:484). -/
def l484 (x : Fin 36 → ℝ) : ℝ := (7 / 20) * l394 x

/-- `v_[315]` (HyQForwardKinJacForward.cpp:485). -/
def l485 (x : Fin 36 → ℝ) : ℝ := l481 x * l389 x + l483 x * l385 x + l484 x * l383 x

/-- `v_[316]` (HyQForwardKinJacForward.cpp:486). -/
def l486 (x : Fin 36 → ℝ) : ℝ := (33 / 100) * l381 x

/-- `v_[317]` (HyQForwardKinJacForward.cpp:487). -/
def l487 (x : Fin 36 → ℝ) : ℝ := l486 x * l383 x

/-- `v_[318]` (HyQForwardKinJacForward.cpp:488). -/
def l488 (x : Fin 36 → ℝ) : ℝ := (33 / 100) * l381 x

/-- `v_[319]` (HyQForwardKinJacForward.cpp:489). -/
def l489 (x : Fin 36 → ℝ) : ℝ := l488 x * l387 x

/-- `v_[320]` (HyQForwardKinJacForward.cpp:490). -/
def l490 (x : Fin 36 → ℝ) : ℝ := (7 / 20) * l381 x

/-- `v_[321]` (HyQForwardKinJacForward.cpp:491). -/
def l491 (x : Fin 36 → ℝ) : ℝ := l487 x * l385 x - l489 x * l389 x - l490 x * l387 x - (2 / 25) * l381 x

/-- `v_[322]` (HyQForwardKinJacForward.cpp:492). -/
def l492 (x : Fin 36 → ℝ) : ℝ := (33 / 100) * l381 x

/-- `v_[323]` (HyQForwardKinJacForward.cpp:493). -/
def l493 (x : Fin 36 → ℝ) : ℝ := l492 x * l383 x

/-- `v_[324]` (HyQForwardKinJacForward.cpp:494). -/
def l494 (x : Fin 36 → ℝ) : ℝ := (33 / 100) * l381 x

/-- `v_[325]` (HyQForwardKinJacForward.cpp:495). -/
def l495 (x : Fin 36 → ℝ) : ℝ := l494 x * l387 x

/-- `v_[326]` (HyQForwardKinJacForward.cpp:496). -/
def l496 (x : Fin 36 → ℝ) : ℝ := (7 / 20) * l381 x

/-- `v_[240]` (HyQForwardKinJacForward.cpp:497). -/
def l497 (x : Fin 36 → ℝ) : ℝ := l493 x * l465 x - l495 x * l389 x - l496 x * l387 x - (2 / 25) * l381 x

/-- `v_[327]` (HyQForwardKinJacForward.cpp:498). -/
def l498 (x : Fin 36 → ℝ) : ℝ := l480 x * x 32 + l485 x * x 31 + l491 x * x 30 + x 22 + x 20 * l472 x - x 18 * l497 x

/-- `v_[271]` (HyQForwardKinJacForward.cpp:499). -/
def l499 (x : Fin 36 → ℝ) : ℝ := l426 x * l434 x + l435 x * l425 x

/-- `v_[268]` (HyQForwardKinJacForward.cpp:500). -/
def l500 (x : Fin 36 → ℝ) : ℝ := l441 x * l443 x + l444 x * l440 x

/-- `v_[328]` (HyQForwardKinJacForward.cpp:501). -/
def l501 (x : Fin 36 → ℝ) : ℝ := (33 / 100) * l383 x

/-- `v_[329]` (HyQForwardKinJacForward.cpp:502). -/
def l502 (x : Fin 36 → ℝ) : ℝ := (33 / 100) * l387 x

/-- `v_[330]` (HyQForwardKinJacForward.cpp:503). -/
def l503 (x : Fin 36 → ℝ) : ℝ := l501 x * l385 x - l502 x * l389 x

/-- `v_[331]` (HyQForwardKinJacForward.cpp:504). -/
def l504 (x : Fin 36 → ℝ) : ℝ := (33 / 100) * l383 x

/-- `v_[332]` (HyQForwardKinJacForward.cpp:505). -/
def l505 (x : Fin 36 → ℝ) : ℝ := (33 / 100) * l387 x

/-- `v_[333]` (HyQForwardKinJacForward.cpp:506). -/
def l506 (x : Fin 36 → ℝ) : ℝ := l504 x * l385 x - l505 x * l389 x - (7 / 20) * l387 x

/-- `v_[334]` (HyQForwardKinJacForward.cpp:507). -/
def l507 (x : Fin 36 → ℝ) : ℝ := l503 x * x 32 + l506 x * x 31 + x 21 + x 19 * l497 x - x 20 * l469 x

/-- `jac[15]` (HyQForwardKinJacForward.cpp:508). -/
def l508 (x : Fin 36 → ℝ) : ℝ := (l439 x + l446 x) * l473 x + (l474 x - l475 x) * l498 x + (0 - l499 x - l500 x) * l507 x

/-- `v_[269]` (HyQForwardKinJacForward.cpp:509). -/
def l509 (x : Fin 36 → ℝ) : ℝ := l426 x * l443 x + l435 x * l440 x

/-- `v_[272]` (HyQForwardKinJacForward.cpp:510). -/
def l510 (x : Fin 36 → ℝ) : ℝ := 2 * l438 x

/-- `v_[335]` (HyQForwardKinJacForward.cpp:511). -/
def l511 (x : Fin 36 → ℝ) : ℝ := 2 * l431 x

/-- `v_[267]` (HyQForwardKinJacForward.cpp:512). -/
def l512 (x : Fin 36 → ℝ) : ℝ := l510 x * l442 x + l511 x * l445 x

/-- `v_[335]` (HyQForwardKinJacForward.cpp:513). -/
def l513 (x : Fin 36 → ℝ) : ℝ := l510 x * l431 x + l511 x * l438 x

/-- `jac[16]` (HyQForwardKinJacForward.cpp:514). -/
def l514 (x : Fin 36 → ℝ) : ℝ := (l509 x - l512 x) * l473 x + (0 - l499 x - l513 x) * l498 x + (l474 x + l475 x) * l507 x

/-- `jac[17]` (HyQForwardKinJacForward.cpp:515). -/
def l515 (x : Fin 36 → ℝ) : ℝ := (0 - l500 x - l513 x) * l473 x + (l509 x + l512 x) * l498 x + (l439 x - l446 x) * l507 x

/-- `v_[335]` (HyQForwardKinJacForward.cpp:516). -/
def l516 (x : Fin 36 → ℝ) : ℝ := (1 / 2) * x 0

/-- `v_[267]` (HyQForwardKinJacForward.cpp:517). -/
def l517 (x : Fin 36 → ℝ) : ℝ := Real.cos (l516 x)

/-- `v_[269]` (HyQForwardKinJacForward.cpp:518). -/
def l518 (x : Fin 36 → ℝ) : ℝ := (1 / 2) * x 1

/-- `v_[268]` (HyQForwardKinJacForward.cpp:519). -/
def l519 (x : Fin 36 → ℝ) : ℝ := Real.cos (l518 x)

/-- `v_[277]` (HyQForwardKinJacForward.cpp:520). -/
def l520 (x : Fin 36 → ℝ) : ℝ := l517 x * l519 x

/-- `v_[274]` (HyQForwardKinJacForward.cpp:521). -/
def l521 (x : Fin 36 → ℝ) : ℝ := (1 / 2) * x 2

/-- `v_[271]` (HyQForwardKinJacForward.cpp:522). -/
def l522 (x : Fin 36 → ℝ) : ℝ := Real.sin (l521 x)

/-- `v_[306]` (HyQForwardKinJacForward.cpp:523). -/
def l523 (x : Fin 36 → ℝ) : ℝ := Real.sin (l516 x)

/-- `v_[305]` (HyQForwardKinJacForward.cpp:524). -/
def l524 (x : Fin 36 → ℝ) : ℝ := Real.sin (l518 x)

/-- `v_[270]` (HyQForwardKinJacForward.cpp:525). -/
def l525 (x : Fin 36 → ℝ) : ℝ := l523 x * l524 x

/-- `v_[336]` (HyQForwardKinJacForward.cpp:526). -/
def l526 (x : Fin 36 → ℝ) : ℝ := Real.cos (l521 x)

/-- `v_[337]` (HyQForwardKinJacForward.cpp:527). -/
def l527 (x : Fin 36 → ℝ) : ℝ := l520 x * l522 x + l525 x * l526 x

/-- `v_[338]` (HyQForwardKinJacForward.cpp:528). -/
def l528 (x : Fin 36 → ℝ) : ℝ := 2 * l527 x

/-- `v_[339]` (HyQForwardKinJacForward.cpp:529). -/
def l529 (x : Fin 36 → ℝ) : ℝ := (1 / 2) * Real.cos (l516 x)

/-- `v_[340]` (HyQForwardKinJacForward.cpp:530). -/
def l530 (x : Fin 36 → ℝ) : ℝ := l529 x * l519 x

/-- `v_[335]` (HyQForwardKinJacForward.cpp:531). -/
def l531 (x : Fin 36 → ℝ) : ℝ := -(1 / 2) * Real.sin (l516 x)

/-- `v_[341]` (HyQForwardKinJacForward.cpp:532). -/
def l532 (x : Fin 36 → ℝ) : ℝ := l531 x * l524 x

/-- `v_[342]` (HyQForwardKinJacForward.cpp:533). -/
def l533 (x : Fin 36 → ℝ) : ℝ := l530 x * l526 x + l532 x * l522 x

/-- `v_[335]` (HyQForwardKinJacForward.cpp:534). -/
def l534 (x : Fin 36 → ℝ) : ℝ := l531 x * l519 x

/-- `v_[339]` (HyQForwardKinJacForward.cpp:535). -/
def l535 (x : Fin 36 → ℝ) : ℝ := l529 x * l524 x

/-- `v_[343]` (HyQForwardKinJacForward.cpp:536). -/
def l536 (x : Fin 36 → ℝ) : ℝ := l534 x * l522 x + l535 x * l526 x

/-- `v_[344]` (HyQForwardKinJacForward.cpp:537). -/
def l537 (x : Fin 36 → ℝ) : ℝ := 2 * l536 x

/-- `v_[268]` (HyQForwardKinJacForward.cpp:538). -/
def l538 (x : Fin 36 → ℝ) : ℝ := l523 x * l519 x

/-- `v_[305]` (HyQForwardKinJacForward.cpp:539). -/
def l539 (x : Fin 36 → ℝ) : ℝ := l517 x * l524 x

/-- `v_[345]` (HyQForwardKinJacForward.cpp:540). -/
def l540 (x : Fin 36 → ℝ) : ℝ := l538 x * l526 x + l539 x * l522 x

/-- `v_[346]` (HyQForwardKinJacForward.cpp:541). -/
def l541 (x : Fin 36 → ℝ) : ℝ := l528 x * l533 x + l537 x * l540 x

/-- `v_[347]` (HyQForwardKinJacForward.cpp:542). -/
def l542 (x : Fin 36 → ℝ) : ℝ := l539 x * l526 x - l538 x * l522 x

/-- `v_[348]` (HyQForwardKinJacForward.cpp:543). -/
def l543 (x : Fin 36 → ℝ) : ℝ := 2 * l542 x

/-- `v_[339]` (HyQForwardKinJacForward.cpp:544). -/
def l544 (x : Fin 36 → ℝ) : ℝ := l534 x * l526 x - l535 x * l522 x

/-- `v_[341]` (HyQForwardKinJacForward.cpp:545). -/
def l545 (x : Fin 36 → ℝ) : ℝ := l532 x * l526 x - l530 x * l522 x

/-- `v_[340]` (HyQForwardKinJacForward.cpp:546). -/
def l546 (x : Fin 36 → ℝ) : ℝ := 2 * l545 x

/-- `v_[335]` (HyQForwardKinJacForward.cpp:547). -/
def l547 (x : Fin 36 → ℝ) : ℝ := l520 x * l526 x - l525 x * l522 x

/-- `v_[349]` (HyQForwardKinJacForward.cpp:548). -/
def l548 (x : Fin 36 → ℝ) : ℝ := l543 x * l544 x + l546 x * l547 x

/-- `v_[350]` (HyQForwardKinJacForward.cpp:549). -/
def l549 (x : Fin 36 → ℝ) : ℝ := Real.cos (x 15)

/-- `v_[351]` (HyQForwardKinJacForward.cpp:550). -/
def l550 (x : Fin 36 → ℝ) : ℝ := (33 / 100) * l549 x

/-- `v_[352]` (HyQForwardKinJacForward.cpp:551). -/
def l551 (x : Fin 36 → ℝ) : ℝ := Real.sin (x 16)

/-- `v_[353]` (HyQForwardKinJacForward.cpp:552). -/
def l552 (x : Fin 36 → ℝ) : ℝ := l550 x * l551 x

/-- `v_[354]` (HyQForwardKinJacForward.cpp:553). -/
def l553 (x : Fin 36 → ℝ) : ℝ := Real.sin (x 17)

/-- `v_[355]` (HyQForwardKinJacForward.cpp:554). -/
def l554 (x : Fin 36 → ℝ) : ℝ := (33 / 100) * l549 x

/-- `v_[356]` (HyQForwardKinJacForward.cpp:555). -/
def l555 (x : Fin 36 → ℝ) : ℝ := Real.cos (x 16)

/-- `v_[357]` (HyQForwardKinJacForward.cpp:556). -/
def l556 (x : Fin 36 → ℝ) : ℝ := l554 x * l555 x

/-- `v_[358]` (HyQForwardKinJacForward.cpp:557). -/
def l557 (x : Fin 36 → ℝ) : ℝ := Real.cos (x 17)

/-- `v_[359]` (HyQForwardKinJacForward.cpp:558). -/
def l558 (x : Fin 36 → ℝ) : ℝ := (7 / 20) * l549 x

/-- `v_[360]` (HyQForwardKinJacForward.cpp:559). -/
def l559 (x : Fin 36 → ℝ) : ℝ := l552 x * l553 x - l556 x * l557 x - l558 x * l555 x - (2 / 25) * l549 x

/-- `v_[361]` (HyQForwardKinJacForward.cpp:560). -/
def l560 (x : Fin 36 → ℝ) : ℝ := l543 x * l533 x + l546 x * l540 x

/-- `v_[362]` (HyQForwardKinJacForward.cpp:561). -/
def l561 (x : Fin 36 → ℝ) : ℝ := l528 x * l544 x + l537 x * l547 x

/-- `v_[363]` (HyQForwardKinJacForward.cpp:562). -/
def l562 (x : Fin 36 → ℝ) : ℝ := Real.sin (x 15)

/-- `v_[364]` (HyQForwardKinJacForward.cpp:563). -/
def l563 (x : Fin 36 → ℝ) : ℝ := (33 / 100) * l562 x

/-- `v_[365]` (HyQForwardKinJacForward.cpp:564). -/
def l564 (x : Fin 36 → ℝ) : ℝ := l563 x * l555 x

/-- `v_[366]` (HyQForwardKinJacForward.cpp:565). -/
def l565 (x : Fin 36 → ℝ) : ℝ := -(33 / 100) * l562 x

/-- `v_[367]` (HyQForwardKinJacForward.cpp:566). -/
def l566 (x : Fin 36 → ℝ) : ℝ := l565 x * l551 x

/-- `v_[368]` (HyQForwardKinJacForward.cpp:567). -/
def l567 (x : Fin 36 → ℝ) : ℝ := (7 / 20) * l562 x

/-- `v_[369]` (HyQForwardKinJacForward.cpp:568). -/
def l568 (x : Fin 36 → ℝ) : ℝ := -(207 / 1000) + l564 x * l557 x + l566 x * l553 x + l567 x * l555 x + (2 / 25) * l562 x

/-- `v_[343]` (HyQForwardKinJacForward.cpp:569). -/
def l569 (x : Fin 36 → ℝ) : ℝ := l528 x * l536 x + l537 x * l527 x

/-- `v_[340]` (HyQForwardKinJacForward.cpp:570). -/
def l570 (x : Fin 36 → ℝ) : ℝ := l543 x * l545 x + l546 x * l542 x

/-- `v_[370]` (HyQForwardKinJacForward.cpp:571). -/
def l571 (x : Fin 36 → ℝ) : ℝ := -(33 / 100) * l555 x

/-- `v_[371]` (HyQForwardKinJacForward.cpp:572). -/
def l572 (x : Fin 36 → ℝ) : ℝ := (33 / 100) * l551 x

/-- `v_[372]` (HyQForwardKinJacForward.cpp:573). -/
def l573 (x : Fin 36 → ℝ) : ℝ := -(747 / 2000) + l571 x * l553 x - l572 x * l557 x - (7 / 20) * l551 x

/-- `jac[18]` (HyQForwardKinJacForward.cpp:574). -/
def l574 (x : Fin 36 → ℝ) : ℝ := (l541 x + l548 x) * l559 x + (l560 x - l561 x) * l568 x + (0 - l569 x - l570 x) * l573 x

/-- `v_[341]` (HyQForwardKinJacForward.cpp:575). -/
def l575 (x : Fin 36 → ℝ) : ℝ := l528 x * l545 x + l537 x * l542 x

/-- `v_[344]` (HyQForwardKinJacForward.cpp:576). -/
def l576 (x : Fin 36 → ℝ) : ℝ := 2 * l540 x

/-- `v_[373]` (HyQForwardKinJacForward.cpp:577). -/
def l577 (x : Fin 36 → ℝ) : ℝ := 2 * l533 x

/-- `v_[339]` (HyQForwardKinJacForward.cpp:578). -/
def l578 (x : Fin 36 → ℝ) : ℝ := l576 x * l544 x + l577 x * l547 x

/-- `v_[373]` (HyQForwardKinJacForward.cpp:579). -/
def l579 (x : Fin 36 → ℝ) : ℝ := l576 x * l533 x + l577 x * l540 x

/-- `jac[19]` (HyQForwardKinJacForward.cpp:580). -/
def l580 (x : Fin 36 → ℝ) : ℝ := (l575 x - l578 x) * l559 x + (0 - l569 x - l579 x) * l568 x + (l560 x + l561 x) * l573 x

/-- `jac[20]` (HyQForwardKinJacForward.cpp:581). -/
def l581 (x : Fin 36 → ℝ) : ℝ := (0 - l570 x - l579 x) * l559 x + (l575 x + l578 x) * l568 x + (l541 x - l548 x) * l573 x

/-- `v_[373]` (HyQForwardKinJacForward.cpp:582). -/
def l582 (x : Fin 36 → ℝ) : ℝ := (1 / 2) * x 0

/-- `v_[339]` (HyQForwardKinJacForward.cpp:583). -/
def l583 (x : Fin 36 → ℝ) : ℝ := Real.cos (l582 x)

/-- `v_[341]` (HyQForwardKinJacForward.cpp:584). -/
def l584 (x : Fin 36 → ℝ) : ℝ := (1 / 2) * x 1

/-- `v_[340]` (HyQForwardKinJacForward.cpp:585). -/
def l585 (x : Fin 36 → ℝ) : ℝ := Real.cos (l584 x)

/-- `v_[349]` (HyQForwardKinJacForward.cpp:586). -/
def l586 (x : Fin 36 → ℝ) : ℝ := l583 x * l585 x

/-- `v_[346]` (HyQForwardKinJacForward.cpp:587). -/
def l587 (x : Fin 36 → ℝ) : ℝ := (1 / 2) * x 2

/-- `v_[343]` (HyQForwardKinJacForward.cpp:588). -/
def l588 (x : Fin 36 → ℝ) : ℝ := Real.sin (l587 x)

/-- `v_[362]` (HyQForwardKinJacForward.cpp:589). -/
def l589 (x : Fin 36 → ℝ) : ℝ := Real.sin (l582 x)

/-- `v_[361]` (HyQForwardKinJacForward.cpp:590). -/
def l590 (x : Fin 36 → ℝ) : ℝ := Real.sin (l584 x)

/-- `v_[342]` (HyQForwardKinJacForward.cpp:591). -/
def l591 (x : Fin 36 → ℝ) : ℝ := l589 x * l590 x

/-- `v_[374]` (HyQForwardKinJacForward.cpp:592). -/
def l592 (x : Fin 36 → ℝ) : ℝ := Real.cos (l587 x)

/-- `v_[375]` (HyQForwardKinJacForward.cpp:593). -/
def l593 (x : Fin 36 → ℝ) : ℝ := l586 x * l588 x + l591 x * l592 x

/-- `v_[376]` (HyQForwardKinJacForward.cpp:594). -/
def l594 (x : Fin 36 → ℝ) : ℝ := 2 * l593 x

/-- `v_[377]` (HyQForwardKinJacForward.cpp:595). -/
def l595 (x : Fin 36 → ℝ) : ℝ := (1 / 2) * Real.cos (l582 x)

/-- `v_[378]` (HyQForwardKinJacForward.cpp:596). -/
def l596 (x : Fin 36 → ℝ) : ℝ := l595 x * l585 x

/-- `v_[373]` (HyQForwardKinJacForward.cpp:597). -/
def l597 (x : Fin 36 → ℝ) : ℝ := -(1 / 2) * Real.sin (l582 x)

/-- `v_[379]` (HyQForwardKinJacForward.cpp:598). -/
def l598 (x : Fin 36 → ℝ) : ℝ := l597 x * l590 x

/-- `v_[380]` (HyQForwardKinJacForward.cpp:599). -/
def l599 (x : Fin 36 → ℝ) : ℝ := l596 x * l592 x + l598 x * l588 x

/-- `v_[373]` (HyQForwardKinJacForward.cpp:600). -/
def l600 (x : Fin 36 → ℝ) : ℝ := l597 x * l585 x

/-- `v_[377]` (HyQForwardKinJacForward.cpp:601). -/
def l601 (x : Fin 36 → ℝ) : ℝ := l595 x * l590 x

/-- `v_[381]` (HyQForwardKinJacForward.cpp:602). -/
def l602 (x : Fin 36 → ℝ) : ℝ := l600 x * l588 x + l601 x * l592 x

/-- `v_[382]` (HyQForwardKinJacForward.cpp:603). -/
def l603 (x : Fin 36 → ℝ) : ℝ := 2 * l602 x

/-- `v_[340]` (HyQForwardKinJacForward.cpp:604). -/
def l604 (x : Fin 36 → ℝ) : ℝ := l589 x * l585 x

/-- `v_[361]` (HyQForwardKinJacForward.cpp:605). -/
def l605 (x : Fin 36 → ℝ) : ℝ := l583 x * l590 x

/-- `v_[383]` (HyQForwardKinJacForward.cpp:606). -/
def l606 (x : Fin 36 → ℝ) : ℝ := l604 x * l592 x + l605 x * l588 x

/-- `v_[384]` (HyQForwardKinJacForward.cpp:607). -/
def l607 (x : Fin 36 → ℝ) : ℝ := l594 x * l599 x + l603 x * l606 x

/-- `v_[385]` (HyQForwardKinJacForward.cpp:608). -/
def l608 (x : Fin 36 → ℝ) : ℝ := l605 x * l592 x - l604 x * l588 x

/-- `v_[386]` (HyQForwardKinJacForward.cpp:609). -/
def l609 (x : Fin 36 → ℝ) : ℝ := 2 * l608 x

/-- `v_[377]` (HyQForwardKinJacForward.cpp:610). -/
def l610 (x : Fin 36 → ℝ) : ℝ := l600 x * l592 x - l601 x * l588 x

/-- `v_[379]` (HyQForwardKinJacForward.cpp:611). -/
def l611 (x : Fin 36 → ℝ) : ℝ := l598 x * l592 x - l596 x * l588 x

/-- `v_[378]` (HyQForwardKinJacForward.cpp:612). -/
def l612 (x : Fin 36 → ℝ) : ℝ := 2 * l611 x

/-- `v_[373]` (HyQForwardKinJacForward.cpp:613). -/
def l613 (x : Fin 36 → ℝ) : ℝ := l586 x * l592 x - l591 x * l588 x

/-- `v_[387]` (HyQForwardKinJacForward.cpp:614). -/
def l614 (x : Fin 36 → ℝ) : ℝ := l609 x * l610 x + l612 x * l613 x

/-- `v_[388]` (HyQForwardKinJacForward.cpp:615). -/
def l615 (x : Fin 36 → ℝ) : ℝ := (33 / 100) * l549 x

/-- `v_[389]` (HyQForwardKinJacForward.cpp:616). -/
def l616 (x : Fin 36 → ℝ) : ℝ := l615 x * l555 x

/-- `v_[390]` (HyQForwardKinJacForward.cpp:617). -/
def l617 (x : Fin 36 → ℝ) : ℝ := (33 / 100) * l549 x

/-- `v_[391]` (HyQForwardKinJacForward.cpp:618). -/
def l618 (x : Fin 36 → ℝ) : ℝ := l617 x * l551 x

/-- `v_[392]` (HyQForwardKinJacForward.cpp:619). -/
def l619 (x : Fin 36 → ℝ) : ℝ := l616 x * l553 x + l618 x * l557 x

/-- `v_[393]` (HyQForwardKinJacForward.cpp:620). -/
def l620 (x : Fin 36 → ℝ) : ℝ := l615 x * l551 x

/-- `v_[394]` (HyQForwardKinJacForward.cpp:621). -/
def l621 (x : Fin 36 → ℝ) : ℝ := (33 / 100) * l549 x

/-- `v_[395]` (HyQForwardKinJacForward.cpp:622). -/
def l622 (x : Fin 36 → ℝ) : ℝ := l621 x * l555 x

/-- `v_[396]` (HyQForwardKinJacForward.cpp:623). -/
def l623 (x : Fin 36 → ℝ) : ℝ := (7 / 20) * l549 x

/-- `v_[397]` (HyQForwardKinJacForward.cpp:624). -/
def l624 (x : Fin 36 → ℝ) : ℝ := l620 x * l557 x + l622 x * l553 x + l623 x * l551 x

/-- `v_[398]` (HyQForwardKinJacForward.cpp:625). -/
def l625 (x : Fin 36 → ℝ) : ℝ := (33 / 100) * l562 x

/-- `v_[399]` (HyQForwardKinJacForward.cpp:626). -/
def l626 (x : Fin 36 → ℝ) : ℝ := l625 x * l555 x

/-- `v_[400]` (HyQForwardKinJacForward.cpp:627). -/
def l627 (x : Fin 36 → ℝ) : ℝ := -(33 / 100) * l562 x

/-- `v_[401]` (HyQForwardKinJacForward.cpp:628). -/
def l628 (x : Fin 36 → ℝ) : ℝ := l627 x * l551 x

/-- `v_[402]` (HyQForwardKinJacForward.cpp:629). -/
def l629 (x : Fin 36 → ℝ) : ℝ := (7 / 20) * l562 x

/-- `v_[403]` (HyQForwardKinJacForward.cpp:630). -/
def l630 (x : Fin 36 → ℝ) : ℝ := l626 x * l557 x + l628 x * l553 x + l629 x * l555 x + (2 / 25) * l562 x

/-- `v_[404]` (HyQForwardKinJacForward.cpp:631). -/
def l631 (x : Fin 36 → ℝ) : ℝ := (33 / 100) * l562 x

/-- `v_[405]` (HyQForwardKinJacForward.cpp:632). -/
def l632 (x : Fin 36 → ℝ) : ℝ := l631 x * l555 x

/-- `v_[406]` (HyQForwardKinJacForward.cpp:633). -/
def l633 (x : Fin 36 → ℝ) : ℝ := -(33 / 100) * l562 x

/-- `v_[407]` (HyQForwardKinJacForward.cpp:634). -/
def l634 (x : Fin 36 → ℝ) : ℝ := l633 x * l551 x

/-- `v_[408]` (HyQForwardKinJacForward.cpp:635). -/
def l635 (x : Fin 36 → ℝ) : ℝ := (7 / 20) * l562 x

/-- `v_[409]` (HyQForwardKinJacForward.cpp:636). -/
def l636 (x : Fin 36 → ℝ) : ℝ := -(207 / 1000) + l632 x * l557 x + l634 x * l553 x + l635 x * l555 x + (2 / 25) * l562 x

/-- `v_[410]` (HyQForwardKinJacForward.cpp:637). -/
def l637 (x : Fin 36 → ℝ) : ℝ := -(33 / 100) * l555 x

/-- `v_[411]` (HyQForwardKinJacForward.cpp:638). -/
def l638 (x : Fin 36 → ℝ) : ℝ := (33 / 100) * l551 x

/-- `v_[412]` (HyQForwardKinJacForward.cpp:639). -/
def l639 (x : Fin 36 → ℝ) : ℝ := -(747 / 2000) + l637 x * l553 x - l638 x * l557 x - (7 / 20) * l551 x

/-- `v_[413]` (HyQForwardKinJacForward.cpp:640). -/
def l640 (x : Fin 36 → ℝ) : ℝ := l619 x * x 35 + l624 x * x 34 + l630 x * x 33 + x 23 + x 18 * l636 x - x 19 * l639 x

/-- `v_[414]` (HyQForwardKinJacForward.cpp:641). -/
def l641 (x : Fin 36 → ℝ) : ℝ := l609 x * l599 x + l612 x * l606 x

/-- `v_[415]` (HyQForwardKinJacForward.cpp:642). -/
def l642 (x : Fin 36 → ℝ) : ℝ := l594 x * l610 x + l603 x * l613 x

/-- `v_[416]` (HyQForwardKinJacForward.cpp:643). -/
def l643 (x : Fin 36 → ℝ) : ℝ := -(33 / 100) * l562 x

/-- `v_[417]` (HyQForwardKinJacForward.cpp:644). -/
def l644 (x : Fin 36 → ℝ) : ℝ := l643 x * l555 x

/-- `v_[418]` (HyQForwardKinJacForward.cpp:645). -/
def l645 (x : Fin 36 → ℝ) : ℝ := (33 / 100) * l562 x

/-- `v_[419]` (HyQForwardKinJacForward.cpp:646). -/
def l646 (x : Fin 36 → ℝ) : ℝ := l645 x * l551 x

/-- `v_[420]` (HyQForwardKinJacForward.cpp:647). -/
def l647 (x : Fin 36 → ℝ) : ℝ := l644 x * l553 x - l646 x * l557 x

/-- `v_[421]` (HyQForwardKinJacForward.cpp:648). -/
def l648 (x : Fin 36 → ℝ) : ℝ := l627 x * l555 x

/-- `v_[422]` (HyQForwardKinJacForward.cpp:649). -/
def l649 (x : Fin 36 → ℝ) : ℝ := (33 / 100) * l562 x

/-- `v_[423]` (HyQForwardKinJacForward.cpp:650). -/
def l650 (x : Fin 36 → ℝ) : ℝ := l649 x * l551 x

/-- `v_[363]` (HyQForwardKinJacForward.cpp:651). -/
def l651 (x : Fin 36 → ℝ) : ℝ := (7 / 20) * l562 x

/-- `v_[424]` (HyQForwardKinJacForward.cpp:652). -/
def l652 (x : Fin 36 → ℝ) : ℝ := l648 x * l553 x - l650 x * l557 x - l651 x * l551 x

/-- `v_[425]` (HyQForwardKinJacForward.cpp:653). -/
def l653 (x : Fin 36 → ℝ) : ℝ := (33 / 100) * l549 x

/-- `v_[426]` (HyQForwardKinJacForward.cpp:654). -/
def l654 (x : Fin 36 → ℝ) : ℝ := l653 x * l555 x

/-- `v_[427]` (HyQForwardKinJacForward.cpp:655). -/
def l655 (x : Fin 36 → ℝ) : ℝ := -(33 / 100) * l549 x

/-- `v_[428]` (HyQForwardKinJacForward.cpp:656). -/
def l656 (x : Fin 36 → ℝ) : ℝ := l655 x * l551 x

/-- `v_[429]` (HyQForwardKinJacForward.cpp:657). -/
def l657 (x : Fin 36 → ℝ) : ℝ := (7 / 20) * l549 x

/-- `v_[430]` (HyQForwardKinJacForward.cpp:658). -/
def l658 (x : Fin 36 → ℝ) : ℝ := l654 x * l557 x + l656 x * l553 x + l657 x * l555 x + (2 / 25) * l549 x

/-- `v_[431]` (HyQForwardKinJacForward.cpp:659). -/
def l659 (x : Fin 36 → ℝ) : ℝ := (33 / 100) * l549 x

/-- `v_[432]` (HyQForwardKinJacForward.cpp:660). -/
def l660 (x : Fin 36 → ℝ) : ℝ := l659 x * l551 x

/-- `v_[433]` (HyQForwardKinJacForward.cpp:661). -/
def l661 (x : Fin 36 → ℝ) : ℝ := (33 / 100) * l549 x

/-- `v_[434]` (HyQForwardKinJacForward.cpp:662). -/
def l662 (x : Fin 36 → ℝ) : ℝ := l661 x * l555 x

/-- `v_[435]` (HyQForwardKinJacForward.cpp:663). -/
def l663 (x : Fin 36 → ℝ) : ℝ := (7 / 20) * l549 x

/-- `v_[350]` (HyQForwardKinJacForward.cpp:664). -/
def l664 (x : Fin 36 → ℝ) : ℝ := l660 x * l553 x - l662 x * l557 x - l663 x * l555 x - (2 / 25) * l549 x

/-- `v_[436]` (HyQForwardKinJacForward.cpp:665). -/
def l665 (x : Fin 36 → ℝ) : ℝ := l647 x * x 35 + l652 x * x 34 + l658 x * x 33 + x 22 + x 20 * l639 x - x 18 * l664 x

/-- `v_[381]` (HyQForwardKinJacForward.cpp:666). -/
def l666 (x : Fin 36 → ℝ) : ℝ := l594 x * l602 x + l603 x * l593 x

/-- `v_[378]` (HyQForwardKinJacForward.cpp:667). -/
def l667 (x : Fin 36 → ℝ) : ℝ := l609 x * l611 x + l612 x * l608 x

/-- `v_[437]` (HyQForwardKinJacForward.cpp:668). -/
def l668 (x : Fin 36 → ℝ) : ℝ := (33 / 100) * l551 x

/-- `v_[438]` (HyQForwardKinJacForward.cpp:669). -/
def l669 (x : Fin 36 → ℝ) : ℝ := (33 / 100) * l555 x

/-- `v_[439]` (HyQForwardKinJacForward.cpp:670). -/
def l670 (x : Fin 36 → ℝ) : ℝ := l668 x * l553 x - l669 x * l557 x

/-- `v_[440]` (HyQForwardKinJacForward.cpp:671). -/
def l671 (x : Fin 36 → ℝ) : ℝ := (33 / 100) * l551 x

/-- `v_[441]` (HyQForwardKinJacForward.cpp:672). -/
def l672 (x : Fin 36 → ℝ) : ℝ := (33 / 100) * l555 x

/-- `v_[442]` (HyQForwardKinJacForward.cpp:673). -/
def l673 (x : Fin 36 → ℝ) : ℝ := l671 x * l553 x - l672 x * l557 x - (7 / 20) * l555 x

/-- `v_[443]` (HyQForwardKinJacForward.cpp:674). -/
def l674 (x : Fin 36 → ℝ) : ℝ := l670 x * x 35 + l673 x * x 34 + x 21 + x 19 * l664 x - x 20 * l636 x

/-- `jac[21]` (HyQForwardKinJacForward.cpp:675). -/
def l675 (x : Fin 36 → ℝ) : ℝ := (l607 x + l614 x) * l640 x + (l641 x - l642 x) * l665 x + (0 - l666 x - l667 x) * l674 x

/-- `v_[379]` (HyQForwardKinJacForward.cpp:676). -/
def l676 (x : Fin 36 → ℝ) : ℝ := l594 x * l611 x + l603 x * l608 x

/-- `v_[382]` (HyQForwardKinJacForward.cpp:677). -/
def l677 (x : Fin 36 → ℝ) : ℝ := 2 * l606 x

/-- `v_[444]` (HyQForwardKinJacForward.cpp:678). -/
def l678 (x : Fin 36 → ℝ) : ℝ := 2 * l599 x

/-- `v_[377]` (HyQForwardKinJacForward.cpp:679). -/
def l679 (x : Fin 36 → ℝ) : ℝ := l677 x * l610 x + l678 x * l613 x

/-- `v_[444]` (HyQForwardKinJacForward.cpp:680). -/
def l680 (x : Fin 36 → ℝ) : ℝ := l677 x * l599 x + l678 x * l606 x

/-- `jac[22]` (HyQForwardKinJacForward.cpp:681). -/
def l681 (x : Fin 36 → ℝ) : ℝ := (l676 x - l679 x) * l640 x + (0 - l666 x - l680 x) * l665 x + (l641 x + l642 x) * l674 x

/-- `jac[23]` (HyQForwardKinJacForward.cpp:682). -/
def l682 (x : Fin 36 → ℝ) : ℝ := (0 - l667 x - l680 x) * l640 x + (l676 x + l679 x) * l665 x + (l607 x - l614 x) * l674 x

/-- `v_[444]` (HyQForwardKinJacForward.cpp:683). -/
def l683 (x : Fin 36 → ℝ) : ℝ := -(1 / 2) * Real.sin (l18 x)

/-- `v_[377]` (HyQForwardKinJacForward.cpp:684). -/
def l684 (x : Fin 36 → ℝ) : ℝ := l23 x * l683 x

/-- `v_[2]` (HyQForwardKinJacForward.cpp:685). -/
def l685 (x : Fin 36 → ℝ) : ℝ := (1 / 2) * Real.cos (l18 x)

/-- `v_[379]` (HyQForwardKinJacForward.cpp:686). -/
def l686 (x : Fin 36 → ℝ) : ℝ := l17 x * l685 x

/-- `v_[378]` (HyQForwardKinJacForward.cpp:687). -/
def l687 (x : Fin 36 → ℝ) : ℝ := l684 x * l26 x + l686 x * l22 x

/-- `v_[444]` (HyQForwardKinJacForward.cpp:688). -/
def l688 (x : Fin 36 → ℝ) : ℝ := l17 x * l683 x

/-- `v_[2]` (HyQForwardKinJacForward.cpp:689). -/
def l689 (x : Fin 36 → ℝ) : ℝ := l23 x * l685 x

/-- `v_[7]` (HyQForwardKinJacForward.cpp:690). -/
def l690 (x : Fin 36 → ℝ) : ℝ := l688 x * l22 x + l689 x * l26 x

/-- `v_[1]` (HyQForwardKinJacForward.cpp:691). -/
def l691 (x : Fin 36 → ℝ) : ℝ := 2 * l690 x

/-- `v_[387]` (HyQForwardKinJacForward.cpp:692). -/
def l692 (x : Fin 36 → ℝ) : ℝ := l28 x * l687 x + l691 x * l40 x

/-- `v_[2]` (HyQForwardKinJacForward.cpp:693). -/
def l693 (x : Fin 36 → ℝ) : ℝ := l688 x * l26 x - l689 x * l22 x

/-- `v_[379]` (HyQForwardKinJacForward.cpp:694). -/
def l694 (x : Fin 36 → ℝ) : ℝ := l686 x * l26 x - l684 x * l22 x

/-- `v_[377]` (HyQForwardKinJacForward.cpp:695). -/
def l695 (x : Fin 36 → ℝ) : ℝ := 2 * l694 x

/-- `v_[10]` (HyQForwardKinJacForward.cpp:696). -/
def l696 (x : Fin 36 → ℝ) : ℝ := l43 x * l693 x + l695 x * l47 x

/-- `v_[6]` (HyQForwardKinJacForward.cpp:697). -/
def l697 (x : Fin 36 → ℝ) : ℝ := l43 x * l687 x + l695 x * l40 x

/-- `v_[444]` (HyQForwardKinJacForward.cpp:698). -/
def l698 (x : Fin 36 → ℝ) : ℝ := l28 x * l693 x + l691 x * l47 x

/-- `v_[7]` (HyQForwardKinJacForward.cpp:699). -/
def l699 (x : Fin 36 → ℝ) : ℝ := l28 x * l690 x + l691 x * l27 x

/-- `v_[377]` (HyQForwardKinJacForward.cpp:700). -/
def l700 (x : Fin 36 → ℝ) : ℝ := l43 x * l694 x + l695 x * l42 x

/-- `jac[24]` (HyQForwardKinJacForward.cpp:701). -/
def l701 (x : Fin 36 → ℝ) : ℝ := (l692 x + l696 x) * l59 x + (l697 x - l698 x) * l68 x + (0 - l699 x - l700 x) * l73 x

/-- `v_[379]` (HyQForwardKinJacForward.cpp:702). -/
def l702 (x : Fin 36 → ℝ) : ℝ := l28 x * l694 x + l691 x * l42 x

/-- `v_[1]` (HyQForwardKinJacForward.cpp:703). -/
def l703 (x : Fin 36 → ℝ) : ℝ := 2 * l687 x

/-- `v_[2]` (HyQForwardKinJacForward.cpp:704). -/
def l704 (x : Fin 36 → ℝ) : ℝ := l76 x * l693 x + l703 x * l47 x

/-- `v_[1]` (HyQForwardKinJacForward.cpp:705). -/
def l705 (x : Fin 36 → ℝ) : ℝ := l76 x * l687 x + l703 x * l40 x

/-- `jac[25]` (HyQForwardKinJacForward.cpp:706). -/
def l706 (x : Fin 36 → ℝ) : ℝ := (l702 x - l704 x) * l59 x + (0 - l699 x - l705 x) * l68 x + (l697 x + l698 x) * l73 x

/-- `jac[26]` (HyQForwardKinJacForward.cpp:707). -/
def l707 (x : Fin 36 → ℝ) : ℝ := (0 - l700 x - l705 x) * l59 x + (l702 x + l704 x) * l68 x + (l692 x - l696 x) * l73 x

/-- `v_[1]` (HyQForwardKinJacForward.cpp:708). -/
def l708 (x : Fin 36 → ℝ) : ℝ := -(1 / 2) * Real.sin (l84 x)

/-- `v_[2]` (HyQForwardKinJacForward.cpp:709). -/
def l709 (x : Fin 36 → ℝ) : ℝ := l89 x * l708 x

/-- `v_[15]` (HyQForwardKinJacForward.cpp:710). -/
def l710 (x : Fin 36 → ℝ) : ℝ := (1 / 2) * Real.cos (l84 x)

/-- `v_[379]` (HyQForwardKinJacForward.cpp:711). -/
def l711 (x : Fin 36 → ℝ) : ℝ := l83 x * l710 x

/-- `v_[377]` (HyQForwardKinJacForward.cpp:712). -/
def l712 (x : Fin 36 → ℝ) : ℝ := l709 x * l92 x + l711 x * l88 x

/-- `v_[1]` (HyQForwardKinJacForward.cpp:713). -/
def l713 (x : Fin 36 → ℝ) : ℝ := l83 x * l708 x

/-- `v_[15]` (HyQForwardKinJacForward.cpp:714). -/
def l714 (x : Fin 36 → ℝ) : ℝ := l89 x * l710 x

/-- `v_[36]` (HyQForwardKinJacForward.cpp:715). -/
def l715 (x : Fin 36 → ℝ) : ℝ := l713 x * l88 x + l714 x * l92 x

/-- `v_[13]` (HyQForwardKinJacForward.cpp:716). -/
def l716 (x : Fin 36 → ℝ) : ℝ := 2 * l715 x

/-- `v_[10]` (HyQForwardKinJacForward.cpp:717). -/
def l717 (x : Fin 36 → ℝ) : ℝ := l94 x * l712 x + l716 x * l106 x

/-- `v_[15]` (HyQForwardKinJacForward.cpp:718). -/
def l718 (x : Fin 36 → ℝ) : ℝ := l713 x * l92 x - l714 x * l88 x

/-- `v_[379]` (HyQForwardKinJacForward.cpp:719). -/
def l719 (x : Fin 36 → ℝ) : ℝ := l711 x * l92 x - l709 x * l88 x

/-- `v_[2]` (HyQForwardKinJacForward.cpp:720). -/
def l720 (x : Fin 36 → ℝ) : ℝ := 2 * l719 x

/-- `v_[48]` (HyQForwardKinJacForward.cpp:721). -/
def l721 (x : Fin 36 → ℝ) : ℝ := l109 x * l718 x + l720 x * l113 x

/-- `v_[17]` (HyQForwardKinJacForward.cpp:722). -/
def l722 (x : Fin 36 → ℝ) : ℝ := l109 x * l712 x + l720 x * l106 x

/-- `v_[1]` (HyQForwardKinJacForward.cpp:723). -/
def l723 (x : Fin 36 → ℝ) : ℝ := l94 x * l718 x + l716 x * l113 x

/-- `v_[36]` (HyQForwardKinJacForward.cpp:724). -/
def l724 (x : Fin 36 → ℝ) : ℝ := l94 x * l715 x + l716 x * l93 x

/-- `v_[2]` (HyQForwardKinJacForward.cpp:725). -/
def l725 (x : Fin 36 → ℝ) : ℝ := l109 x * l719 x + l720 x * l108 x

/-- `jac[27]` (HyQForwardKinJacForward.cpp:726). -/
def l726 (x : Fin 36 → ℝ) : ℝ := (l717 x + l721 x) * l140 x + (l722 x - l723 x) * l163 x + (0 - l724 x - l725 x) * l172 x

/-- `v_[379]` (HyQForwardKinJacForward.cpp:727). -/
def l727 (x : Fin 36 → ℝ) : ℝ := l94 x * l719 x + l716 x * l108 x

/-- `v_[13]` (HyQForwardKinJacForward.cpp:728). -/
def l728 (x : Fin 36 → ℝ) : ℝ := 2 * l712 x

/-- `v_[15]` (HyQForwardKinJacForward.cpp:729). -/
def l729 (x : Fin 36 → ℝ) : ℝ := l175 x * l718 x + l728 x * l113 x

/-- `v_[13]` (HyQForwardKinJacForward.cpp:730). -/
def l730 (x : Fin 36 → ℝ) : ℝ := l175 x * l712 x + l728 x * l106 x

/-- `jac[28]` (HyQForwardKinJacForward.cpp:731). -/
def l731 (x : Fin 36 → ℝ) : ℝ := (l727 x - l729 x) * l140 x + (0 - l724 x - l730 x) * l163 x + (l722 x + l723 x) * l172 x

/-- `jac[29]` (HyQForwardKinJacForward.cpp:732). -/
def l732 (x : Fin 36 → ℝ) : ℝ := (0 - l725 x - l730 x) * l140 x + (l727 x + l729 x) * l163 x + (l717 x - l721 x) * l172 x

/-- `v_[13]` (HyQForwardKinJacForward.cpp:733). -/
def l733 (x : Fin 36 → ℝ) : ℝ := -(1 / 2) * Real.sin (l183 x)

/-- `v_[15]` (HyQForwardKinJacForward.cpp:734). -/
def l734 (x : Fin 36 → ℝ) : ℝ := l188 x * l733 x

/-- `v_[53]` (HyQForwardKinJacForward.cpp:735). -/
def l735 (x : Fin 36 → ℝ) : ℝ := (1 / 2) * Real.cos (l183 x)

/-- `v_[379]` (HyQForwardKinJacForward.cpp:736). -/
def l736 (x : Fin 36 → ℝ) : ℝ := l182 x * l735 x

/-- `v_[2]` (HyQForwardKinJacForward.cpp:737). -/
def l737 (x : Fin 36 → ℝ) : ℝ := l734 x * l191 x + l736 x * l187 x

/-- `v_[13]` (HyQForwardKinJacForward.cpp:738). -/
def l738 (x : Fin 36 → ℝ) : ℝ := l182 x * l733 x

/-- `v_[53]` (HyQForwardKinJacForward.cpp:739). -/
def l739 (x : Fin 36 → ℝ) : ℝ := l188 x * l735 x

/-- `v_[89]` (HyQForwardKinJacForward.cpp:740). -/
def l740 (x : Fin 36 → ℝ) : ℝ := l738 x * l187 x + l739 x * l191 x

/-- `v_[51]` (HyQForwardKinJacForward.cpp:741). -/
def l741 (x : Fin 36 → ℝ) : ℝ := 2 * l740 x

/-- `v_[48]` (HyQForwardKinJacForward.cpp:742). -/
def l742 (x : Fin 36 → ℝ) : ℝ := l193 x * l737 x + l741 x * l205 x

/-- `v_[53]` (HyQForwardKinJacForward.cpp:743). -/
def l743 (x : Fin 36 → ℝ) : ℝ := l738 x * l191 x - l739 x * l187 x

/-- `v_[379]` (HyQForwardKinJacForward.cpp:744). -/
def l744 (x : Fin 36 → ℝ) : ℝ := l736 x * l191 x - l734 x * l187 x

/-- `v_[15]` (HyQForwardKinJacForward.cpp:745). -/
def l745 (x : Fin 36 → ℝ) : ℝ := 2 * l744 x

/-- `v_[117]` (HyQForwardKinJacForward.cpp:746). -/
def l746 (x : Fin 36 → ℝ) : ℝ := l208 x * l743 x + l745 x * l212 x

/-- `v_[55]` (HyQForwardKinJacForward.cpp:747). -/
def l747 (x : Fin 36 → ℝ) : ℝ := l208 x * l737 x + l745 x * l205 x

/-- `v_[13]` (HyQForwardKinJacForward.cpp:748). -/
def l748 (x : Fin 36 → ℝ) : ℝ := l193 x * l743 x + l741 x * l212 x

/-- `v_[89]` (HyQForwardKinJacForward.cpp:749). -/
def l749 (x : Fin 36 → ℝ) : ℝ := l193 x * l740 x + l741 x * l192 x

/-- `v_[15]` (HyQForwardKinJacForward.cpp:750). -/
def l750 (x : Fin 36 → ℝ) : ℝ := l208 x * l744 x + l745 x * l207 x

/-- `jac[30]` (HyQForwardKinJacForward.cpp:751). -/
def l751 (x : Fin 36 → ℝ) : ℝ := (l742 x + l746 x) * l224 x + (l747 x - l748 x) * l233 x + (0 - l749 x - l750 x) * l238 x

/-- `v_[379]` (HyQForwardKinJacForward.cpp:752). -/
def l752 (x : Fin 36 → ℝ) : ℝ := l193 x * l744 x + l741 x * l207 x

/-- `v_[51]` (HyQForwardKinJacForward.cpp:753). -/
def l753 (x : Fin 36 → ℝ) : ℝ := 2 * l737 x

/-- `v_[53]` (HyQForwardKinJacForward.cpp:754). -/
def l754 (x : Fin 36 → ℝ) : ℝ := l241 x * l743 x + l753 x * l212 x

/-- `v_[51]` (HyQForwardKinJacForward.cpp:755). -/
def l755 (x : Fin 36 → ℝ) : ℝ := l241 x * l737 x + l753 x * l205 x

/-- `jac[31]` (HyQForwardKinJacForward.cpp:756). -/
def l756 (x : Fin 36 → ℝ) : ℝ := (l752 x - l754 x) * l224 x + (0 - l749 x - l755 x) * l233 x + (l747 x + l748 x) * l238 x

/-- `jac[32]` (HyQForwardKinJacForward.cpp:757). -/
def l757 (x : Fin 36 → ℝ) : ℝ := (0 - l750 x - l755 x) * l224 x + (l752 x + l754 x) * l233 x + (l742 x - l746 x) * l238 x

/-- `v_[51]` (HyQForwardKinJacForward.cpp:758). -/
def l758 (x : Fin 36 → ℝ) : ℝ := -(1 / 2) * Real.sin (l249 x)

/-- `v_[53]` (HyQForwardKinJacForward.cpp:759). -/
def l759 (x : Fin 36 → ℝ) : ℝ := l254 x * l758 x

/-- `v_[122]` (HyQForwardKinJacForward.cpp:760). -/
def l760 (x : Fin 36 → ℝ) : ℝ := (1 / 2) * Real.cos (l249 x)

/-- `v_[379]` (HyQForwardKinJacForward.cpp:761). -/
def l761 (x : Fin 36 → ℝ) : ℝ := l248 x * l760 x

/-- `v_[15]` (HyQForwardKinJacForward.cpp:762). -/
def l762 (x : Fin 36 → ℝ) : ℝ := l759 x * l257 x + l761 x * l253 x

/-- `v_[51]` (HyQForwardKinJacForward.cpp:763). -/
def l763 (x : Fin 36 → ℝ) : ℝ := l248 x * l758 x

/-- `v_[122]` (HyQForwardKinJacForward.cpp:764). -/
def l764 (x : Fin 36 → ℝ) : ℝ := l254 x * l760 x

/-- `v_[143]` (HyQForwardKinJacForward.cpp:765). -/
def l765 (x : Fin 36 → ℝ) : ℝ := l763 x * l253 x + l764 x * l257 x

/-- `v_[120]` (HyQForwardKinJacForward.cpp:766). -/
def l766 (x : Fin 36 → ℝ) : ℝ := 2 * l765 x

/-- `v_[117]` (HyQForwardKinJacForward.cpp:767). -/
def l767 (x : Fin 36 → ℝ) : ℝ := l259 x * l762 x + l766 x * l271 x

/-- `v_[122]` (HyQForwardKinJacForward.cpp:768). -/
def l768 (x : Fin 36 → ℝ) : ℝ := l763 x * l257 x - l764 x * l253 x

/-- `v_[379]` (HyQForwardKinJacForward.cpp:769). -/
def l769 (x : Fin 36 → ℝ) : ℝ := l761 x * l257 x - l759 x * l253 x

/-- `v_[53]` (HyQForwardKinJacForward.cpp:770). -/
def l770 (x : Fin 36 → ℝ) : ℝ := 2 * l769 x

/-- `v_[155]` (HyQForwardKinJacForward.cpp:771). -/
def l771 (x : Fin 36 → ℝ) : ℝ := l274 x * l768 x + l770 x * l278 x

/-- `v_[124]` (HyQForwardKinJacForward.cpp:772). -/
def l772 (x : Fin 36 → ℝ) : ℝ := l274 x * l762 x + l770 x * l271 x

/-- `v_[51]` (HyQForwardKinJacForward.cpp:773). -/
def l773 (x : Fin 36 → ℝ) : ℝ := l259 x * l768 x + l766 x * l278 x

/-- `v_[143]` (HyQForwardKinJacForward.cpp:774). -/
def l774 (x : Fin 36 → ℝ) : ℝ := l259 x * l765 x + l766 x * l258 x

/-- `v_[53]` (HyQForwardKinJacForward.cpp:775). -/
def l775 (x : Fin 36 → ℝ) : ℝ := l274 x * l769 x + l770 x * l273 x

/-- `jac[33]` (HyQForwardKinJacForward.cpp:776). -/
def l776 (x : Fin 36 → ℝ) : ℝ := (l767 x + l771 x) * l305 x + (l772 x - l773 x) * l330 x + (0 - l774 x - l775 x) * l339 x

/-- `v_[379]` (HyQForwardKinJacForward.cpp:777). -/
def l777 (x : Fin 36 → ℝ) : ℝ := l259 x * l769 x + l766 x * l273 x

/-- `v_[120]` (HyQForwardKinJacForward.cpp:778). -/
def l778 (x : Fin 36 → ℝ) : ℝ := 2 * l762 x

/-- `v_[122]` (HyQForwardKinJacForward.cpp:779). -/
def l779 (x : Fin 36 → ℝ) : ℝ := l342 x * l768 x + l778 x * l278 x

/-- `v_[120]` (HyQForwardKinJacForward.cpp:780). -/
def l780 (x : Fin 36 → ℝ) : ℝ := l342 x * l762 x + l778 x * l271 x

/-- `jac[34]` (HyQForwardKinJacForward.cpp:781). -/
def l781 (x : Fin 36 → ℝ) : ℝ := (l777 x - l779 x) * l305 x + (0 - l774 x - l780 x) * l330 x + (l772 x + l773 x) * l339 x

/-- `jac[35]` (HyQForwardKinJacForward.cpp:782). -/
def l782 (x : Fin 36 → ℝ) : ℝ := (0 - l775 x - l780 x) * l305 x + (l777 x + l779 x) * l330 x + (l767 x - l771 x) * l339 x

/-- `v_[120]` (HyQForwardKinJacForward.cpp:783). -/
def l783 (x : Fin 36 → ℝ) : ℝ := -(1 / 2) * Real.sin (l350 x)

/-- `v_[122]` (HyQForwardKinJacForward.cpp:784). -/
def l784 (x : Fin 36 → ℝ) : ℝ := l355 x * l783 x

/-- `v_[160]` (HyQForwardKinJacForward.cpp:785). -/
def l785 (x : Fin 36 → ℝ) : ℝ := (1 / 2) * Real.cos (l350 x)

/-- `v_[379]` (HyQForwardKinJacForward.cpp:786). -/
def l786 (x : Fin 36 → ℝ) : ℝ := l349 x * l785 x

/-- `v_[53]` (HyQForwardKinJacForward.cpp:787). -/
def l787 (x : Fin 36 → ℝ) : ℝ := l784 x * l358 x + l786 x * l354 x

/-- `v_[120]` (HyQForwardKinJacForward.cpp:788). -/
def l788 (x : Fin 36 → ℝ) : ℝ := l349 x * l783 x

/-- `v_[160]` (HyQForwardKinJacForward.cpp:789). -/
def l789 (x : Fin 36 → ℝ) : ℝ := l355 x * l785 x

/-- `v_[196]` (HyQForwardKinJacForward.cpp:790). -/
def l790 (x : Fin 36 → ℝ) : ℝ := l788 x * l354 x + l789 x * l358 x

/-- `v_[158]` (HyQForwardKinJacForward.cpp:791). -/
def l791 (x : Fin 36 → ℝ) : ℝ := 2 * l790 x

/-- `v_[155]` (HyQForwardKinJacForward.cpp:792). -/
def l792 (x : Fin 36 → ℝ) : ℝ := l360 x * l787 x + l791 x * l372 x

/-- `v_[160]` (HyQForwardKinJacForward.cpp:793). -/
def l793 (x : Fin 36 → ℝ) : ℝ := l788 x * l358 x - l789 x * l354 x

/-- `v_[379]` (HyQForwardKinJacForward.cpp:794). -/
def l794 (x : Fin 36 → ℝ) : ℝ := l786 x * l358 x - l784 x * l354 x

/-- `v_[122]` (HyQForwardKinJacForward.cpp:795). -/
def l795 (x : Fin 36 → ℝ) : ℝ := 2 * l794 x

/-- `v_[226]` (HyQForwardKinJacForward.cpp:796). -/
def l796 (x : Fin 36 → ℝ) : ℝ := l375 x * l793 x + l795 x * l379 x

/-- `v_[162]` (HyQForwardKinJacForward.cpp:797). -/
def l797 (x : Fin 36 → ℝ) : ℝ := l375 x * l787 x + l795 x * l372 x

/-- `v_[120]` (HyQForwardKinJacForward.cpp:798). -/
def l798 (x : Fin 36 → ℝ) : ℝ := l360 x * l793 x + l791 x * l379 x

/-- `v_[196]` (HyQForwardKinJacForward.cpp:799). -/
def l799 (x : Fin 36 → ℝ) : ℝ := l360 x * l790 x + l791 x * l359 x

/-- `v_[122]` (HyQForwardKinJacForward.cpp:800). -/
def l800 (x : Fin 36 → ℝ) : ℝ := l375 x * l794 x + l795 x * l374 x

/-- `jac[36]` (HyQForwardKinJacForward.cpp:801). -/
def l801 (x : Fin 36 → ℝ) : ℝ := (l792 x + l796 x) * l391 x + (l797 x - l798 x) * l400 x + (0 - l799 x - l800 x) * l405 x

/-- `v_[379]` (HyQForwardKinJacForward.cpp:802). -/
def l802 (x : Fin 36 → ℝ) : ℝ := l360 x * l794 x + l791 x * l374 x

/-- `v_[158]` (HyQForwardKinJacForward.cpp:803). -/
def l803 (x : Fin 36 → ℝ) : ℝ := 2 * l787 x

/-- `v_[160]` (HyQForwardKinJacForward.cpp:804). -/
def l804 (x : Fin 36 → ℝ) : ℝ := l408 x * l793 x + l803 x * l379 x

/-- `v_[158]` (HyQForwardKinJacForward.cpp:805). -/
def l805 (x : Fin 36 → ℝ) : ℝ := l408 x * l787 x + l803 x * l372 x

/-- `jac[37]` (HyQForwardKinJacForward.cpp:806). -/
def l806 (x : Fin 36 → ℝ) : ℝ := (l802 x - l804 x) * l391 x + (0 - l799 x - l805 x) * l400 x + (l797 x + l798 x) * l405 x

/-- `jac[38]` (HyQForwardKinJacForward.cpp:807). -/
def l807 (x : Fin 36 → ℝ) : ℝ := (0 - l800 x - l805 x) * l391 x + (l802 x + l804 x) * l400 x + (l792 x - l796 x) * l405 x

/-- `v_[158]` (HyQForwardKinJacForward.cpp:808). -/
def l808 (x : Fin 36 → ℝ) : ℝ := -(1 / 2) * Real.sin (l416 x)

/-- `v_[160]` (HyQForwardKinJacForward.cpp:809). -/
def l809 (x : Fin 36 → ℝ) : ℝ := l421 x * l808 x

/-- `v_[231]` (HyQForwardKinJacForward.cpp:810). -/
def l810 (x : Fin 36 → ℝ) : ℝ := (1 / 2) * Real.cos (l416 x)

/-- `v_[379]` (HyQForwardKinJacForward.cpp:811). -/
def l811 (x : Fin 36 → ℝ) : ℝ := l415 x * l810 x

/-- `v_[122]` (HyQForwardKinJacForward.cpp:812). -/
def l812 (x : Fin 36 → ℝ) : ℝ := l809 x * l424 x + l811 x * l420 x

/-- `v_[158]` (HyQForwardKinJacForward.cpp:813). -/
def l813 (x : Fin 36 → ℝ) : ℝ := l415 x * l808 x

/-- `v_[231]` (HyQForwardKinJacForward.cpp:814). -/
def l814 (x : Fin 36 → ℝ) : ℝ := l421 x * l810 x

/-- `v_[252]` (HyQForwardKinJacForward.cpp:815). -/
def l815 (x : Fin 36 → ℝ) : ℝ := l813 x * l420 x + l814 x * l424 x

/-- `v_[229]` (HyQForwardKinJacForward.cpp:816). -/
def l816 (x : Fin 36 → ℝ) : ℝ := 2 * l815 x

/-- `v_[226]` (HyQForwardKinJacForward.cpp:817). -/
def l817 (x : Fin 36 → ℝ) : ℝ := l426 x * l812 x + l816 x * l438 x

/-- `v_[231]` (HyQForwardKinJacForward.cpp:818). -/
def l818 (x : Fin 36 → ℝ) : ℝ := l813 x * l424 x - l814 x * l420 x

/-- `v_[379]` (HyQForwardKinJacForward.cpp:819). -/
def l819 (x : Fin 36 → ℝ) : ℝ := l811 x * l424 x - l809 x * l420 x

/-- `v_[160]` (HyQForwardKinJacForward.cpp:820). -/
def l820 (x : Fin 36 → ℝ) : ℝ := 2 * l819 x

/-- `v_[264]` (HyQForwardKinJacForward.cpp:821). -/
def l821 (x : Fin 36 → ℝ) : ℝ := l441 x * l818 x + l820 x * l445 x

/-- `v_[233]` (HyQForwardKinJacForward.cpp:822). -/
def l822 (x : Fin 36 → ℝ) : ℝ := l441 x * l812 x + l820 x * l438 x

/-- `v_[158]` (HyQForwardKinJacForward.cpp:823). -/
def l823 (x : Fin 36 → ℝ) : ℝ := l426 x * l818 x + l816 x * l445 x

/-- `v_[252]` (HyQForwardKinJacForward.cpp:824). -/
def l824 (x : Fin 36 → ℝ) : ℝ := l426 x * l815 x + l816 x * l425 x

/-- `v_[160]` (HyQForwardKinJacForward.cpp:825). -/
def l825 (x : Fin 36 → ℝ) : ℝ := l441 x * l819 x + l820 x * l440 x

/-- `jac[39]` (HyQForwardKinJacForward.cpp:826). -/
def l826 (x : Fin 36 → ℝ) : ℝ := (l817 x + l821 x) * l473 x + (l822 x - l823 x) * l498 x + (0 - l824 x - l825 x) * l507 x

/-- `v_[379]` (HyQForwardKinJacForward.cpp:827). -/
def l827 (x : Fin 36 → ℝ) : ℝ := l426 x * l819 x + l816 x * l440 x

/-- `v_[229]` (HyQForwardKinJacForward.cpp:828). -/
def l828 (x : Fin 36 → ℝ) : ℝ := 2 * l812 x

/-- `v_[231]` (HyQForwardKinJacForward.cpp:829). -/
def l829 (x : Fin 36 → ℝ) : ℝ := l510 x * l818 x + l828 x * l445 x

/-- `v_[229]` (HyQForwardKinJacForward.cpp:830). -/
def l830 (x : Fin 36 → ℝ) : ℝ := l510 x * l812 x + l828 x * l438 x

/-- `jac[40]` (HyQForwardKinJacForward.cpp:831). -/
def l831 (x : Fin 36 → ℝ) : ℝ := (l827 x - l829 x) * l473 x + (0 - l824 x - l830 x) * l498 x + (l822 x + l823 x) * l507 x

/-- `jac[41]` (HyQForwardKinJacForward.cpp:832). -/
def l832 (x : Fin 36 → ℝ) : ℝ := (0 - l825 x - l830 x) * l473 x + (l827 x + l829 x) * l498 x + (l817 x - l821 x) * l507 x

/-- `v_[229]` (HyQForwardKinJacForward.cpp:833). -/
def l833 (x : Fin 36 → ℝ) : ℝ := -(1 / 2) * Real.sin (l518 x)

/-- `v_[231]` (HyQForwardKinJacForward.cpp:834). -/
def l834 (x : Fin 36 → ℝ) : ℝ := l523 x * l833 x

/-- `v_[269]` (HyQForwardKinJacForward.cpp:835). -/
def l835 (x : Fin 36 → ℝ) : ℝ := (1 / 2) * Real.cos (l518 x)

/-- `v_[379]` (HyQForwardKinJacForward.cpp:836). -/
def l836 (x : Fin 36 → ℝ) : ℝ := l517 x * l835 x

/-- `v_[160]` (HyQForwardKinJacForward.cpp:837). -/
def l837 (x : Fin 36 → ℝ) : ℝ := l834 x * l526 x + l836 x * l522 x

/-- `v_[229]` (HyQForwardKinJacForward.cpp:838). -/
def l838 (x : Fin 36 → ℝ) : ℝ := l517 x * l833 x

/-- `v_[269]` (HyQForwardKinJacForward.cpp:839). -/
def l839 (x : Fin 36 → ℝ) : ℝ := l523 x * l835 x

/-- `v_[306]` (HyQForwardKinJacForward.cpp:840). -/
def l840 (x : Fin 36 → ℝ) : ℝ := l838 x * l522 x + l839 x * l526 x

/-- `v_[267]` (HyQForwardKinJacForward.cpp:841). -/
def l841 (x : Fin 36 → ℝ) : ℝ := 2 * l840 x

/-- `v_[264]` (HyQForwardKinJacForward.cpp:842). -/
def l842 (x : Fin 36 → ℝ) : ℝ := l528 x * l837 x + l841 x * l540 x

/-- `v_[269]` (HyQForwardKinJacForward.cpp:843). -/
def l843 (x : Fin 36 → ℝ) : ℝ := l838 x * l526 x - l839 x * l522 x

/-- `v_[379]` (HyQForwardKinJacForward.cpp:844). -/
def l844 (x : Fin 36 → ℝ) : ℝ := l836 x * l526 x - l834 x * l522 x

/-- `v_[231]` (HyQForwardKinJacForward.cpp:845). -/
def l845 (x : Fin 36 → ℝ) : ℝ := 2 * l844 x

/-- `v_[336]` (HyQForwardKinJacForward.cpp:846). -/
def l846 (x : Fin 36 → ℝ) : ℝ := l543 x * l843 x + l845 x * l547 x

/-- `v_[271]` (HyQForwardKinJacForward.cpp:847). -/
def l847 (x : Fin 36 → ℝ) : ℝ := l543 x * l837 x + l845 x * l540 x

/-- `v_[229]` (HyQForwardKinJacForward.cpp:848). -/
def l848 (x : Fin 36 → ℝ) : ℝ := l528 x * l843 x + l841 x * l547 x

/-- `v_[306]` (HyQForwardKinJacForward.cpp:849). -/
def l849 (x : Fin 36 → ℝ) : ℝ := l528 x * l840 x + l841 x * l527 x

/-- `v_[231]` (HyQForwardKinJacForward.cpp:850). -/
def l850 (x : Fin 36 → ℝ) : ℝ := l543 x * l844 x + l845 x * l542 x

/-- `jac[42]` (HyQForwardKinJacForward.cpp:851). -/
def l851 (x : Fin 36 → ℝ) : ℝ := (l842 x + l846 x) * l559 x + (l847 x - l848 x) * l568 x + (0 - l849 x - l850 x) * l573 x

/-- `v_[379]` (HyQForwardKinJacForward.cpp:852). -/
def l852 (x : Fin 36 → ℝ) : ℝ := l528 x * l844 x + l841 x * l542 x

/-- `v_[267]` (HyQForwardKinJacForward.cpp:853). -/
def l853 (x : Fin 36 → ℝ) : ℝ := 2 * l837 x

/-- `v_[269]` (HyQForwardKinJacForward.cpp:854). -/
def l854 (x : Fin 36 → ℝ) : ℝ := l576 x * l843 x + l853 x * l547 x

/-- `v_[267]` (HyQForwardKinJacForward.cpp:855). -/
def l855 (x : Fin 36 → ℝ) : ℝ := l576 x * l837 x + l853 x * l540 x

/-- `jac[43]` (HyQForwardKinJacForward.cpp:856). -/
def l856 (x : Fin 36 → ℝ) : ℝ := (l852 x - l854 x) * l559 x + (0 - l849 x - l855 x) * l568 x + (l847 x + l848 x) * l573 x

/-- `jac[44]` (HyQForwardKinJacForward.cpp:857). -/
def l857 (x : Fin 36 → ℝ) : ℝ := (0 - l850 x - l855 x) * l559 x + (l852 x + l854 x) * l568 x + (l842 x - l846 x) * l573 x

/-- `v_[267]` (HyQForwardKinJacForward.cpp:858). -/
def l858 (x : Fin 36 → ℝ) : ℝ := -(1 / 2) * Real.sin (l584 x)

/-- `v_[269]` (HyQForwardKinJacForward.cpp:859). -/
def l859 (x : Fin 36 → ℝ) : ℝ := l589 x * l858 x

/-- `v_[341]` (HyQForwardKinJacForward.cpp:860). -/
def l860 (x : Fin 36 → ℝ) : ℝ := (1 / 2) * Real.cos (l584 x)

/-- `v_[379]` (HyQForwardKinJacForward.cpp:861). -/
def l861 (x : Fin 36 → ℝ) : ℝ := l583 x * l860 x

/-- `v_[231]` (HyQForwardKinJacForward.cpp:862). -/
def l862 (x : Fin 36 → ℝ) : ℝ := l859 x * l592 x + l861 x * l588 x

/-- `v_[267]` (HyQForwardKinJacForward.cpp:863). -/
def l863 (x : Fin 36 → ℝ) : ℝ := l583 x * l858 x

/-- `v_[341]` (HyQForwardKinJacForward.cpp:864). -/
def l864 (x : Fin 36 → ℝ) : ℝ := l589 x * l860 x

/-- `v_[362]` (HyQForwardKinJacForward.cpp:865). -/
def l865 (x : Fin 36 → ℝ) : ℝ := l863 x * l588 x + l864 x * l592 x

/-- `v_[339]` (HyQForwardKinJacForward.cpp:866). -/
def l866 (x : Fin 36 → ℝ) : ℝ := 2 * l865 x

/-- `v_[336]` (HyQForwardKinJacForward.cpp:867). -/
def l867 (x : Fin 36 → ℝ) : ℝ := l594 x * l862 x + l866 x * l606 x

/-- `v_[341]` (HyQForwardKinJacForward.cpp:868). -/
def l868 (x : Fin 36 → ℝ) : ℝ := l863 x * l592 x - l864 x * l588 x

/-- `v_[379]` (HyQForwardKinJacForward.cpp:869). -/
def l869 (x : Fin 36 → ℝ) : ℝ := l861 x * l592 x - l859 x * l588 x

/-- `v_[269]` (HyQForwardKinJacForward.cpp:870). -/
def l870 (x : Fin 36 → ℝ) : ℝ := 2 * l869 x

/-- `v_[374]` (HyQForwardKinJacForward.cpp:871). -/
def l871 (x : Fin 36 → ℝ) : ℝ := l609 x * l868 x + l870 x * l613 x

/-- `v_[343]` (HyQForwardKinJacForward.cpp:872). -/
def l872 (x : Fin 36 → ℝ) : ℝ := l609 x * l862 x + l870 x * l606 x

/-- `v_[267]` (HyQForwardKinJacForward.cpp:873). -/
def l873 (x : Fin 36 → ℝ) : ℝ := l594 x * l868 x + l866 x * l613 x

/-- `v_[362]` (HyQForwardKinJacForward.cpp:874). -/
def l874 (x : Fin 36 → ℝ) : ℝ := l594 x * l865 x + l866 x * l593 x

/-- `v_[269]` (HyQForwardKinJacForward.cpp:875). -/
def l875 (x : Fin 36 → ℝ) : ℝ := l609 x * l869 x + l870 x * l608 x

/-- `jac[45]` (HyQForwardKinJacForward.cpp:876). -/
def l876 (x : Fin 36 → ℝ) : ℝ := (l867 x + l871 x) * l640 x + (l872 x - l873 x) * l665 x + (0 - l874 x - l875 x) * l674 x

/-- `v_[379]` (HyQForwardKinJacForward.cpp:877). -/
def l877 (x : Fin 36 → ℝ) : ℝ := l594 x * l869 x + l866 x * l608 x

/-- `v_[339]` (HyQForwardKinJacForward.cpp:878). -/
def l878 (x : Fin 36 → ℝ) : ℝ := 2 * l862 x

/-- `v_[341]` (HyQForwardKinJacForward.cpp:879). -/
def l879 (x : Fin 36 → ℝ) : ℝ := l677 x * l868 x + l878 x * l613 x

/-- `v_[339]` (HyQForwardKinJacForward.cpp:880). -/
def l880 (x : Fin 36 → ℝ) : ℝ := l677 x * l862 x + l878 x * l606 x

/-- `jac[46]` (HyQForwardKinJacForward.cpp:881). -/
def l881 (x : Fin 36 → ℝ) : ℝ := (l877 x - l879 x) * l640 x + (0 - l874 x - l880 x) * l665 x + (l872 x + l873 x) * l674 x

/-- `jac[47]` (HyQForwardKinJacForward.cpp:882). -/
def l882 (x : Fin 36 → ℝ) : ℝ := (0 - l875 x - l880 x) * l640 x + (l877 x + l879 x) * l665 x + (l867 x - l871 x) * l674 x

/-- `v_[339]` (HyQForwardKinJacForward.cpp:883). -/
def l883 (x : Fin 36 → ℝ) : ℝ := -(1 / 2) * Real.sin (l21 x)

/-- `v_[5]` (HyQForwardKinJacForward.cpp:884). -/
def l884 (x : Fin 36 → ℝ) : ℝ := (1 / 2) * Real.cos (l21 x)

/-- `v_[341]` (HyQForwardKinJacForward.cpp:885). -/
def l885 (x : Fin 36 → ℝ) : ℝ := l38 x * l883 x + l39 x * l884 x

/-- `v_[379]` (HyQForwardKinJacForward.cpp:886). -/
def l886 (x : Fin 36 → ℝ) : ℝ := l20 x * l884 x + l25 x * l883 x

/-- `v_[269]` (HyQForwardKinJacForward.cpp:887). -/
def l887 (x : Fin 36 → ℝ) : ℝ := 2 * l886 x

/-- `v_[374]` (HyQForwardKinJacForward.cpp:888). -/
def l888 (x : Fin 36 → ℝ) : ℝ := l28 x * l885 x + l887 x * l40 x

/-- `v_[9]` (HyQForwardKinJacForward.cpp:889). -/
def l889 (x : Fin 36 → ℝ) : ℝ := l20 x * l883 x - l25 x * l884 x

/-- `v_[5]` (HyQForwardKinJacForward.cpp:890). -/
def l890 (x : Fin 36 → ℝ) : ℝ := l39 x * l883 x - l38 x * l884 x

/-- `v_[339]` (HyQForwardKinJacForward.cpp:891). -/
def l891 (x : Fin 36 → ℝ) : ℝ := 2 * l890 x

/-- `v_[8]` (HyQForwardKinJacForward.cpp:892). -/
def l892 (x : Fin 36 → ℝ) : ℝ := l43 x * l889 x + l891 x * l47 x

/-- `v_[3]` (HyQForwardKinJacForward.cpp:893). -/
def l893 (x : Fin 36 → ℝ) : ℝ := l43 x * l885 x + l891 x * l40 x

/-- `v_[4]` (HyQForwardKinJacForward.cpp:894). -/
def l894 (x : Fin 36 → ℝ) : ℝ := l28 x * l889 x + l887 x * l47 x

/-- `v_[379]` (HyQForwardKinJacForward.cpp:895). -/
def l895 (x : Fin 36 → ℝ) : ℝ := l28 x * l886 x + l887 x * l27 x

/-- `v_[339]` (HyQForwardKinJacForward.cpp:896). -/
def l896 (x : Fin 36 → ℝ) : ℝ := l43 x * l890 x + l891 x * l42 x

/-- `jac[48]` (HyQForwardKinJacForward.cpp:897). -/
def l897 (x : Fin 36 → ℝ) : ℝ := (l888 x + l892 x) * l59 x + (l893 x - l894 x) * l68 x + (0 - l895 x - l896 x) * l73 x

/-- `v_[5]` (HyQForwardKinJacForward.cpp:898). -/
def l898 (x : Fin 36 → ℝ) : ℝ := l28 x * l890 x + l887 x * l42 x

/-- `v_[269]` (HyQForwardKinJacForward.cpp:899). -/
def l899 (x : Fin 36 → ℝ) : ℝ := 2 * l885 x

/-- `v_[9]` (HyQForwardKinJacForward.cpp:900). -/
def l900 (x : Fin 36 → ℝ) : ℝ := l76 x * l889 x + l899 x * l47 x

/-- `v_[269]` (HyQForwardKinJacForward.cpp:901). -/
def l901 (x : Fin 36 → ℝ) : ℝ := l76 x * l885 x + l899 x * l40 x

/-- `jac[49]` (HyQForwardKinJacForward.cpp:902). -/
def l902 (x : Fin 36 → ℝ) : ℝ := (l898 x - l900 x) * l59 x + (0 - l895 x - l901 x) * l68 x + (l893 x + l894 x) * l73 x

/-- `jac[50]` (HyQForwardKinJacForward.cpp:903). -/
def l903 (x : Fin 36 → ℝ) : ℝ := (0 - l896 x - l901 x) * l59 x + (l898 x + l900 x) * l68 x + (l888 x - l892 x) * l73 x

/-- `v_[269]` (HyQForwardKinJacForward.cpp:904). -/
def l904 (x : Fin 36 → ℝ) : ℝ := -(1 / 2) * Real.sin (l87 x)

/-- `v_[20]` (HyQForwardKinJacForward.cpp:905). -/
def l905 (x : Fin 36 → ℝ) : ℝ := (1 / 2) * Real.cos (l87 x)

/-- `v_[9]` (HyQForwardKinJacForward.cpp:906). -/
def l906 (x : Fin 36 → ℝ) : ℝ := l104 x * l904 x + l105 x * l905 x

/-- `v_[5]` (HyQForwardKinJacForward.cpp:907). -/
def l907 (x : Fin 36 → ℝ) : ℝ := l86 x * l905 x + l91 x * l904 x

/-- `v_[339]` (HyQForwardKinJacForward.cpp:908). -/
def l908 (x : Fin 36 → ℝ) : ℝ := 2 * l907 x

/-- `v_[8]` (HyQForwardKinJacForward.cpp:909). -/
def l909 (x : Fin 36 → ℝ) : ℝ := l94 x * l906 x + l908 x * l106 x

/-- `v_[16]` (HyQForwardKinJacForward.cpp:910). -/
def l910 (x : Fin 36 → ℝ) : ℝ := l86 x * l904 x - l91 x * l905 x

/-- `v_[20]` (HyQForwardKinJacForward.cpp:911). -/
def l911 (x : Fin 36 → ℝ) : ℝ := l105 x * l904 x - l104 x * l905 x

/-- `v_[269]` (HyQForwardKinJacForward.cpp:912). -/
def l912 (x : Fin 36 → ℝ) : ℝ := 2 * l911 x

/-- `v_[35]` (HyQForwardKinJacForward.cpp:913). -/
def l913 (x : Fin 36 → ℝ) : ℝ := l109 x * l910 x + l912 x * l113 x

/-- `v_[14]` (HyQForwardKinJacForward.cpp:914). -/
def l914 (x : Fin 36 → ℝ) : ℝ := l109 x * l906 x + l912 x * l106 x

/-- `v_[23]` (HyQForwardKinJacForward.cpp:915). -/
def l915 (x : Fin 36 → ℝ) : ℝ := l94 x * l910 x + l908 x * l113 x

/-- `v_[5]` (HyQForwardKinJacForward.cpp:916). -/
def l916 (x : Fin 36 → ℝ) : ℝ := l94 x * l907 x + l908 x * l93 x

/-- `v_[269]` (HyQForwardKinJacForward.cpp:917). -/
def l917 (x : Fin 36 → ℝ) : ℝ := l109 x * l911 x + l912 x * l108 x

/-- `jac[51]` (HyQForwardKinJacForward.cpp:918). -/
def l918 (x : Fin 36 → ℝ) : ℝ := (l909 x + l913 x) * l140 x + (l914 x - l915 x) * l163 x + (0 - l916 x - l917 x) * l172 x

/-- `v_[20]` (HyQForwardKinJacForward.cpp:919). -/
def l919 (x : Fin 36 → ℝ) : ℝ := l94 x * l911 x + l908 x * l108 x

/-- `v_[339]` (HyQForwardKinJacForward.cpp:920). -/
def l920 (x : Fin 36 → ℝ) : ℝ := 2 * l906 x

/-- `v_[16]` (HyQForwardKinJacForward.cpp:921). -/
def l921 (x : Fin 36 → ℝ) : ℝ := l175 x * l910 x + l920 x * l113 x

/-- `v_[339]` (HyQForwardKinJacForward.cpp:922). -/
def l922 (x : Fin 36 → ℝ) : ℝ := l175 x * l906 x + l920 x * l106 x

/-- `jac[52]` (HyQForwardKinJacForward.cpp:923). -/
def l923 (x : Fin 36 → ℝ) : ℝ := (l919 x - l921 x) * l140 x + (0 - l916 x - l922 x) * l163 x + (l914 x + l915 x) * l172 x

/-- `jac[53]` (HyQForwardKinJacForward.cpp:924). -/
def l924 (x : Fin 36 → ℝ) : ℝ := (0 - l917 x - l922 x) * l140 x + (l919 x + l921 x) * l163 x + (l909 x - l913 x) * l172 x

/-- `v_[339]` (HyQForwardKinJacForward.cpp:925). -/
def l925 (x : Fin 36 → ℝ) : ℝ := -(1 / 2) * Real.sin (l186 x)

/-- `v_[58]` (HyQForwardKinJacForward.cpp:926). -/
def l926 (x : Fin 36 → ℝ) : ℝ := (1 / 2) * Real.cos (l186 x)

/-- `v_[16]` (HyQForwardKinJacForward.cpp:927). -/
def l927 (x : Fin 36 → ℝ) : ℝ := l203 x * l925 x + l204 x * l926 x

/-- `v_[20]` (HyQForwardKinJacForward.cpp:928). -/
def l928 (x : Fin 36 → ℝ) : ℝ := l185 x * l926 x + l190 x * l925 x

/-- `v_[269]` (HyQForwardKinJacForward.cpp:929). -/
def l929 (x : Fin 36 → ℝ) : ℝ := 2 * l928 x

/-- `v_[35]` (HyQForwardKinJacForward.cpp:930). -/
def l930 (x : Fin 36 → ℝ) : ℝ := l193 x * l927 x + l929 x * l205 x

/-- `v_[54]` (HyQForwardKinJacForward.cpp:931). -/
def l931 (x : Fin 36 → ℝ) : ℝ := l185 x * l925 x - l190 x * l926 x

/-- `v_[58]` (HyQForwardKinJacForward.cpp:932). -/
def l932 (x : Fin 36 → ℝ) : ℝ := l204 x * l925 x - l203 x * l926 x

/-- `v_[339]` (HyQForwardKinJacForward.cpp:933). -/
def l933 (x : Fin 36 → ℝ) : ℝ := 2 * l932 x

/-- `v_[88]` (HyQForwardKinJacForward.cpp:934). -/
def l934 (x : Fin 36 → ℝ) : ℝ := l208 x * l931 x + l933 x * l212 x

/-- `v_[52]` (HyQForwardKinJacForward.cpp:935). -/
def l935 (x : Fin 36 → ℝ) : ℝ := l208 x * l927 x + l933 x * l205 x

/-- `v_[61]` (HyQForwardKinJacForward.cpp:936). -/
def l936 (x : Fin 36 → ℝ) : ℝ := l193 x * l931 x + l929 x * l212 x

/-- `v_[20]` (HyQForwardKinJacForward.cpp:937). -/
def l937 (x : Fin 36 → ℝ) : ℝ := l193 x * l928 x + l929 x * l192 x

/-- `v_[339]` (HyQForwardKinJacForward.cpp:938). -/
def l938 (x : Fin 36 → ℝ) : ℝ := l208 x * l932 x + l933 x * l207 x

/-- `jac[54]` (HyQForwardKinJacForward.cpp:939). -/
def l939 (x : Fin 36 → ℝ) : ℝ := (l930 x + l934 x) * l224 x + (l935 x - l936 x) * l233 x + (0 - l937 x - l938 x) * l238 x

/-- `v_[58]` (HyQForwardKinJacForward.cpp:940). -/
def l940 (x : Fin 36 → ℝ) : ℝ := l193 x * l932 x + l929 x * l207 x

/-- `v_[269]` (HyQForwardKinJacForward.cpp:941). -/
def l941 (x : Fin 36 → ℝ) : ℝ := 2 * l927 x

/-- `v_[54]` (HyQForwardKinJacForward.cpp:942). -/
def l942 (x : Fin 36 → ℝ) : ℝ := l241 x * l931 x + l941 x * l212 x

/-- `v_[269]` (HyQForwardKinJacForward.cpp:943). -/
def l943 (x : Fin 36 → ℝ) : ℝ := l241 x * l927 x + l941 x * l205 x

/-- `jac[55]` (HyQForwardKinJacForward.cpp:944). -/
def l944 (x : Fin 36 → ℝ) : ℝ := (l940 x - l942 x) * l224 x + (0 - l937 x - l943 x) * l233 x + (l935 x + l936 x) * l238 x

/-- `jac[56]` (HyQForwardKinJacForward.cpp:945). -/
def l945 (x : Fin 36 → ℝ) : ℝ := (0 - l938 x - l943 x) * l224 x + (l940 x + l942 x) * l233 x + (l930 x - l934 x) * l238 x

/-- `v_[269]` (HyQForwardKinJacForward.cpp:946). -/
def l946 (x : Fin 36 → ℝ) : ℝ := -(1 / 2) * Real.sin (l252 x)

/-- `v_[127]` (HyQForwardKinJacForward.cpp:947). -/
def l947 (x : Fin 36 → ℝ) : ℝ := (1 / 2) * Real.cos (l252 x)

/-- `v_[54]` (HyQForwardKinJacForward.cpp:948). -/
def l948 (x : Fin 36 → ℝ) : ℝ := l269 x * l946 x + l270 x * l947 x

/-- `v_[58]` (HyQForwardKinJacForward.cpp:949). -/
def l949 (x : Fin 36 → ℝ) : ℝ := l251 x * l947 x + l256 x * l946 x

/-- `v_[339]` (HyQForwardKinJacForward.cpp:950). -/
def l950 (x : Fin 36 → ℝ) : ℝ := 2 * l949 x

/-- `v_[88]` (HyQForwardKinJacForward.cpp:951). -/
def l951 (x : Fin 36 → ℝ) : ℝ := l259 x * l948 x + l950 x * l271 x

/-- `v_[123]` (HyQForwardKinJacForward.cpp:952). -/
def l952 (x : Fin 36 → ℝ) : ℝ := l251 x * l946 x - l256 x * l947 x

/-- `v_[127]` (HyQForwardKinJacForward.cpp:953). -/
def l953 (x : Fin 36 → ℝ) : ℝ := l270 x * l946 x - l269 x * l947 x

/-- `v_[269]` (HyQForwardKinJacForward.cpp:954). -/
def l954 (x : Fin 36 → ℝ) : ℝ := 2 * l953 x

/-- `v_[142]` (HyQForwardKinJacForward.cpp:955). -/
def l955 (x : Fin 36 → ℝ) : ℝ := l274 x * l952 x + l954 x * l278 x

/-- `v_[121]` (HyQForwardKinJacForward.cpp:956). -/
def l956 (x : Fin 36 → ℝ) : ℝ := l274 x * l948 x + l954 x * l271 x

/-- `v_[130]` (HyQForwardKinJacForward.cpp:957). -/
def l957 (x : Fin 36 → ℝ) : ℝ := l259 x * l952 x + l950 x * l278 x

/-- `v_[58]` (HyQForwardKinJacForward.cpp:958). -/
def l958 (x : Fin 36 → ℝ) : ℝ := l259 x * l949 x + l950 x * l258 x

/-- `v_[269]` (HyQForwardKinJacForward.cpp:959). -/
def l959 (x : Fin 36 → ℝ) : ℝ := l274 x * l953 x + l954 x * l273 x

/-- `jac[57]` (HyQForwardKinJacForward.cpp:960). -/
def l960 (x : Fin 36 → ℝ) : ℝ := (l951 x + l955 x) * l305 x + (l956 x - l957 x) * l330 x + (0 - l958 x - l959 x) * l339 x

/-- `v_[127]` (HyQForwardKinJacForward.cpp:961). -/
def l961 (x : Fin 36 → ℝ) : ℝ := l259 x * l953 x + l950 x * l273 x

/-- `v_[339]` (HyQForwardKinJacForward.cpp:962). -/
def l962 (x : Fin 36 → ℝ) : ℝ := 2 * l948 x

/-- `v_[123]` (HyQForwardKinJacForward.cpp:963). -/
def l963 (x : Fin 36 → ℝ) : ℝ := l342 x * l952 x + l962 x * l278 x

/-- `v_[339]` (HyQForwardKinJacForward.cpp:964). -/
def l964 (x : Fin 36 → ℝ) : ℝ := l342 x * l948 x + l962 x * l271 x

/-- `jac[58]` (HyQForwardKinJacForward.cpp:965). -/
def l965 (x : Fin 36 → ℝ) : ℝ := (l961 x - l963 x) * l305 x + (0 - l958 x - l964 x) * l330 x + (l956 x + l957 x) * l339 x

/-- `jac[59]` (HyQForwardKinJacForward.cpp:966). -/
def l966 (x : Fin 36 → ℝ) : ℝ := (0 - l959 x - l964 x) * l305 x + (l961 x + l963 x) * l330 x + (l951 x - l955 x) * l339 x

/-- `v_[339]` (HyQForwardKinJacForward.cpp:967). -/
def l967 (x : Fin 36 → ℝ) : ℝ := -(1 / 2) * Real.sin (l353 x)

/-- `v_[165]` (HyQForwardKinJacForward.cpp:968). -/
def l968 (x : Fin 36 → ℝ) : ℝ := (1 / 2) * Real.cos (l353 x)

/-- `v_[123]` (HyQForwardKinJacForward.cpp:969). -/
def l969 (x : Fin 36 → ℝ) : ℝ := l370 x * l967 x + l371 x * l968 x

/-- `v_[127]` (HyQForwardKinJacForward.cpp:970). -/
def l970 (x : Fin 36 → ℝ) : ℝ := l352 x * l968 x + l357 x * l967 x

/-- `v_[269]` (HyQForwardKinJacForward.cpp:971). -/
def l971 (x : Fin 36 → ℝ) : ℝ := 2 * l970 x

/-- `v_[142]` (HyQForwardKinJacForward.cpp:972). -/
def l972 (x : Fin 36 → ℝ) : ℝ := l360 x * l969 x + l971 x * l372 x

/-- `v_[161]` (HyQForwardKinJacForward.cpp:973). -/
def l973 (x : Fin 36 → ℝ) : ℝ := l352 x * l967 x - l357 x * l968 x

/-- `v_[165]` (HyQForwardKinJacForward.cpp:974). -/
def l974 (x : Fin 36 → ℝ) : ℝ := l371 x * l967 x - l370 x * l968 x

/-- `v_[339]` (HyQForwardKinJacForward.cpp:975). -/
def l975 (x : Fin 36 → ℝ) : ℝ := 2 * l974 x

/-- `v_[195]` (HyQForwardKinJacForward.cpp:976). -/
def l976 (x : Fin 36 → ℝ) : ℝ := l375 x * l973 x + l975 x * l379 x

/-- `v_[159]` (HyQForwardKinJacForward.cpp:977). -/
def l977 (x : Fin 36 → ℝ) : ℝ := l375 x * l969 x + l975 x * l372 x

/-- `v_[168]` (HyQForwardKinJacForward.cpp:978). -/
def l978 (x : Fin 36 → ℝ) : ℝ := l360 x * l973 x + l971 x * l379 x

/-- `v_[127]` (HyQForwardKinJacForward.cpp:979). -/
def l979 (x : Fin 36 → ℝ) : ℝ := l360 x * l970 x + l971 x * l359 x

/-- `v_[339]` (HyQForwardKinJacForward.cpp:980). -/
def l980 (x : Fin 36 → ℝ) : ℝ := l375 x * l974 x + l975 x * l374 x

/-- `jac[60]` (HyQForwardKinJacForward.cpp:981). -/
def l981 (x : Fin 36 → ℝ) : ℝ := (l972 x + l976 x) * l391 x + (l977 x - l978 x) * l400 x + (0 - l979 x - l980 x) * l405 x

/-- `v_[165]` (HyQForwardKinJacForward.cpp:982). -/
def l982 (x : Fin 36 → ℝ) : ℝ := l360 x * l974 x + l971 x * l374 x

/-- `v_[269]` (HyQForwardKinJacForward.cpp:983). -/
def l983 (x : Fin 36 → ℝ) : ℝ := 2 * l969 x

/-- `v_[161]` (HyQForwardKinJacForward.cpp:984). -/
def l984 (x : Fin 36 → ℝ) : ℝ := l408 x * l973 x + l983 x * l379 x

/-- `v_[269]` (HyQForwardKinJacForward.cpp:985). -/
def l985 (x : Fin 36 → ℝ) : ℝ := l408 x * l969 x + l983 x * l372 x

/-- `jac[61]` (HyQForwardKinJacForward.cpp:986). -/
def l986 (x : Fin 36 → ℝ) : ℝ := (l982 x - l984 x) * l391 x + (0 - l979 x - l985 x) * l400 x + (l977 x + l978 x) * l405 x

/-- `jac[62]` (HyQForwardKinJacForward.cpp:987). -/
def l987 (x : Fin 36 → ℝ) : ℝ := (0 - l980 x - l985 x) * l391 x + (l982 x + l984 x) * l400 x + (l972 x - l976 x) * l405 x

/-- `v_[269]` (HyQForwardKinJacForward.cpp:988). -/
def l988 (x : Fin 36 → ℝ) : ℝ := -(1 / 2) * Real.sin (l419 x)

/-- `v_[236]` (HyQForwardKinJacForward.cpp:989). -/
def l989 (x : Fin 36 → ℝ) : ℝ := (1 / 2) * Real.cos (l419 x)

/-- `v_[161]` (HyQForwardKinJacForward.cpp:990). -/
def l990 (x : Fin 36 → ℝ) : ℝ := l436 x * l988 x + l437 x * l989 x

/-- `v_[165]` (HyQForwardKinJacForward.cpp:991). -/
def l991 (x : Fin 36 → ℝ) : ℝ := l418 x * l989 x + l423 x * l988 x

/-- `v_[339]` (HyQForwardKinJacForward.cpp:992). -/
def l992 (x : Fin 36 → ℝ) : ℝ := 2 * l991 x

/-- `v_[195]` (HyQForwardKinJacForward.cpp:993). -/
def l993 (x : Fin 36 → ℝ) : ℝ := l426 x * l990 x + l992 x * l438 x

/-- `v_[232]` (HyQForwardKinJacForward.cpp:994). -/
def l994 (x : Fin 36 → ℝ) : ℝ := l418 x * l988 x - l423 x * l989 x

/-- `v_[236]` (HyQForwardKinJacForward.cpp:995). -/
def l995 (x : Fin 36 → ℝ) : ℝ := l437 x * l988 x - l436 x * l989 x

/-- `v_[269]` (HyQForwardKinJacForward.cpp:996). -/
def l996 (x : Fin 36 → ℝ) : ℝ := 2 * l995 x

/-- `v_[251]` (HyQForwardKinJacForward.cpp:997). -/
def l997 (x : Fin 36 → ℝ) : ℝ := l441 x * l994 x + l996 x * l445 x

/-- `v_[230]` (HyQForwardKinJacForward.cpp:998). -/
def l998 (x : Fin 36 → ℝ) : ℝ := l441 x * l990 x + l996 x * l438 x

/-- `v_[239]` (HyQForwardKinJacForward.cpp:999). -/
def l999 (x : Fin 36 → ℝ) : ℝ := l426 x * l994 x + l992 x * l445 x

/-- `v_[165]` (HyQForwardKinJacForward.cpp:1000). -/
def l1000 (x : Fin 36 → ℝ) : ℝ := l426 x * l991 x + l992 x * l425 x

/-- `v_[269]` (HyQForwardKinJacForward.cpp:1001). -/
def l1001 (x : Fin 36 → ℝ) : ℝ := l441 x * l995 x + l996 x * l440 x

/-- `jac[63]` (HyQForwardKinJacForward.cpp:1002). -/
def l1002 (x : Fin 36 → ℝ) : ℝ := (l993 x + l997 x) * l473 x + (l998 x - l999 x) * l498 x + (0 - l1000 x - l1001 x) * l507 x

/-- `v_[236]` (HyQForwardKinJacForward.cpp:1003). -/
def l1003 (x : Fin 36 → ℝ) : ℝ := l426 x * l995 x + l992 x * l440 x

/-- `v_[339]` (HyQForwardKinJacForward.cpp:1004). -/
def l1004 (x : Fin 36 → ℝ) : ℝ := 2 * l990 x

/-- `v_[232]` (HyQForwardKinJacForward.cpp:1005). -/
def l1005 (x : Fin 36 → ℝ) : ℝ := l510 x * l994 x + l1004 x * l445 x

/-- `v_[339]` (HyQForwardKinJacForward.cpp:1006). -/
def l1006 (x : Fin 36 → ℝ) : ℝ := l510 x * l990 x + l1004 x * l438 x

/-- `jac[64]` (HyQForwardKinJacForward.cpp:1007). -/
def l1007 (x : Fin 36 → ℝ) : ℝ := (l1003 x - l1005 x) * l473 x + (0 - l1000 x - l1006 x) * l498 x + (l998 x + l999 x) * l507 x

/-- `jac[65]` (HyQForwardKinJacForward.cpp:1008). -/
def l1008 (x : Fin 36 → ℝ) : ℝ := (0 - l1001 x - l1006 x) * l473 x + (l1003 x + l1005 x) * l498 x + (l993 x - l997 x) * l507 x

/-- `v_[339]` (HyQForwardKinJacForward.cpp:1009). -/
def l1009 (x : Fin 36 → ℝ) : ℝ := -(1 / 2) * Real.sin (l521 x)

/-- `v_[274]` (HyQForwardKinJacForward.cpp:1010). -/
def l1010 (x : Fin 36 → ℝ) : ℝ := (1 / 2) * Real.cos (l521 x)

/-- `v_[232]` (HyQForwardKinJacForward.cpp:1011). -/
def l1011 (x : Fin 36 → ℝ) : ℝ := l538 x * l1009 x + l539 x * l1010 x

/-- `v_[236]` (HyQForwardKinJacForward.cpp:1012). -/
def l1012 (x : Fin 36 → ℝ) : ℝ := l520 x * l1010 x + l525 x * l1009 x

/-- `v_[269]` (HyQForwardKinJacForward.cpp:1013). -/
def l1013 (x : Fin 36 → ℝ) : ℝ := 2 * l1012 x

/-- `v_[251]` (HyQForwardKinJacForward.cpp:1014). -/
def l1014 (x : Fin 36 → ℝ) : ℝ := l528 x * l1011 x + l1013 x * l540 x

/-- `v_[270]` (HyQForwardKinJacForward.cpp:1015). -/
def l1015 (x : Fin 36 → ℝ) : ℝ := l520 x * l1009 x - l525 x * l1010 x

/-- `v_[274]` (HyQForwardKinJacForward.cpp:1016). -/
def l1016 (x : Fin 36 → ℝ) : ℝ := l539 x * l1009 x - l538 x * l1010 x

/-- `v_[339]` (HyQForwardKinJacForward.cpp:1017). -/
def l1017 (x : Fin 36 → ℝ) : ℝ := 2 * l1016 x

/-- `v_[305]` (HyQForwardKinJacForward.cpp:1018). -/
def l1018 (x : Fin 36 → ℝ) : ℝ := l543 x * l1015 x + l1017 x * l547 x

/-- `v_[268]` (HyQForwardKinJacForward.cpp:1019). -/
def l1019 (x : Fin 36 → ℝ) : ℝ := l543 x * l1011 x + l1017 x * l540 x

/-- `v_[277]` (HyQForwardKinJacForward.cpp:1020). -/
def l1020 (x : Fin 36 → ℝ) : ℝ := l528 x * l1015 x + l1013 x * l547 x

/-- `v_[236]` (HyQForwardKinJacForward.cpp:1021). -/
def l1021 (x : Fin 36 → ℝ) : ℝ := l528 x * l1012 x + l1013 x * l527 x

/-- `v_[339]` (HyQForwardKinJacForward.cpp:1022). -/
def l1022 (x : Fin 36 → ℝ) : ℝ := l543 x * l1016 x + l1017 x * l542 x

/-- `jac[66]` (HyQForwardKinJacForward.cpp:1023). -/
def l1023 (x : Fin 36 → ℝ) : ℝ := (l1014 x + l1018 x) * l559 x + (l1019 x - l1020 x) * l568 x + (0 - l1021 x - l1022 x) * l573 x

/-- `v_[274]` (HyQForwardKinJacForward.cpp:1024). -/
def l1024 (x : Fin 36 → ℝ) : ℝ := l528 x * l1016 x + l1013 x * l542 x

/-- `v_[269]` (HyQForwardKinJacForward.cpp:1025). -/
def l1025 (x : Fin 36 → ℝ) : ℝ := 2 * l1011 x

/-- `v_[270]` (HyQForwardKinJacForward.cpp:1026). -/
def l1026 (x : Fin 36 → ℝ) : ℝ := l576 x * l1015 x + l1025 x * l547 x

/-- `v_[269]` (HyQForwardKinJacForward.cpp:1027). -/
def l1027 (x : Fin 36 → ℝ) : ℝ := l576 x * l1011 x + l1025 x * l540 x

/-- `jac[67]` (HyQForwardKinJacForward.cpp:1028). -/
def l1028 (x : Fin 36 → ℝ) : ℝ := (l1024 x - l1026 x) * l559 x + (0 - l1021 x - l1027 x) * l568 x + (l1019 x + l1020 x) * l573 x

/-- `jac[68]` (HyQForwardKinJacForward.cpp:1029). -/
def l1029 (x : Fin 36 → ℝ) : ℝ := (0 - l1022 x - l1027 x) * l559 x + (l1024 x + l1026 x) * l568 x + (l1014 x - l1018 x) * l573 x

/-- `v_[269]` (HyQForwardKinJacForward.cpp:1030). -/
def l1030 (x : Fin 36 → ℝ) : ℝ := -(1 / 2) * Real.sin (l587 x)

/-- `v_[346]` (HyQForwardKinJacForward.cpp:1031). -/
def l1031 (x : Fin 36 → ℝ) : ℝ := (1 / 2) * Real.cos (l587 x)

/-- `v_[270]` (HyQForwardKinJacForward.cpp:1032). -/
def l1032 (x : Fin 36 → ℝ) : ℝ := l604 x * l1030 x + l605 x * l1031 x

/-- `v_[274]` (HyQForwardKinJacForward.cpp:1033). -/
def l1033 (x : Fin 36 → ℝ) : ℝ := l586 x * l1031 x + l591 x * l1030 x

/-- `v_[339]` (HyQForwardKinJacForward.cpp:1034). -/
def l1034 (x : Fin 36 → ℝ) : ℝ := 2 * l1033 x

/-- `v_[305]` (HyQForwardKinJacForward.cpp:1035). -/
def l1035 (x : Fin 36 → ℝ) : ℝ := l594 x * l1032 x + l1034 x * l606 x

/-- `v_[342]` (HyQForwardKinJacForward.cpp:1036). -/
def l1036 (x : Fin 36 → ℝ) : ℝ := l586 x * l1030 x - l591 x * l1031 x

/-- `v_[346]` (HyQForwardKinJacForward.cpp:1037). -/
def l1037 (x : Fin 36 → ℝ) : ℝ := l605 x * l1030 x - l604 x * l1031 x

/-- `v_[269]` (HyQForwardKinJacForward.cpp:1038). -/
def l1038 (x : Fin 36 → ℝ) : ℝ := 2 * l1037 x

/-- `v_[361]` (HyQForwardKinJacForward.cpp:1039). -/
def l1039 (x : Fin 36 → ℝ) : ℝ := l609 x * l1036 x + l1038 x * l613 x

/-- `v_[340]` (HyQForwardKinJacForward.cpp:1040). -/
def l1040 (x : Fin 36 → ℝ) : ℝ := l609 x * l1032 x + l1038 x * l606 x

/-- `v_[349]` (HyQForwardKinJacForward.cpp:1041). -/
def l1041 (x : Fin 36 → ℝ) : ℝ := l594 x * l1036 x + l1034 x * l613 x

/-- `v_[274]` (HyQForwardKinJacForward.cpp:1042). -/
def l1042 (x : Fin 36 → ℝ) : ℝ := l594 x * l1033 x + l1034 x * l593 x

/-- `v_[269]` (HyQForwardKinJacForward.cpp:1043). -/
def l1043 (x : Fin 36 → ℝ) : ℝ := l609 x * l1037 x + l1038 x * l608 x

/-- `jac[69]` (HyQForwardKinJacForward.cpp:1044). -/
def l1044 (x : Fin 36 → ℝ) : ℝ := (l1035 x + l1039 x) * l640 x + (l1040 x - l1041 x) * l665 x + (0 - l1042 x - l1043 x) * l674 x

/-- `v_[346]` (HyQForwardKinJacForward.cpp:1045). -/
def l1045 (x : Fin 36 → ℝ) : ℝ := l594 x * l1037 x + l1034 x * l608 x

/-- `v_[339]` (HyQForwardKinJacForward.cpp:1046). -/
def l1046 (x : Fin 36 → ℝ) : ℝ := 2 * l1032 x

/-- `v_[342]` (HyQForwardKinJacForward.cpp:1047). -/
def l1047 (x : Fin 36 → ℝ) : ℝ := l677 x * l1036 x + l1046 x * l613 x

/-- `v_[339]` (HyQForwardKinJacForward.cpp:1048). -/
def l1048 (x : Fin 36 → ℝ) : ℝ := l677 x * l1032 x + l1046 x * l606 x

/-- `jac[70]` (HyQForwardKinJacForward.cpp:1049). -/
def l1049 (x : Fin 36 → ℝ) : ℝ := (l1045 x - l1047 x) * l640 x + (0 - l1042 x - l1048 x) * l665 x + (l1040 x + l1041 x) * l674 x

/-- `jac[71]` (HyQForwardKinJacForward.cpp:1050). -/
def l1050 (x : Fin 36 → ℝ) : ℝ := (0 - l1043 x - l1048 x) * l640 x + (l1045 x + l1047 x) * l665 x + (l1035 x - l1039 x) * l674 x

/-- `v_[339]` (HyQForwardKinJacForward.cpp:1051). -/
def l1051 (x : Fin 36 → ℝ) : ℝ := l28 x * l40 x

/-- `v_[342]` (HyQForwardKinJacForward.cpp:1052). -/
def l1052 (x : Fin 36 → ℝ) : ℝ := l43 x * l47 x

/-- `v_[346]` (HyQForwardKinJacForward.cpp:1053). -/
def l1053 (x : Fin 36 → ℝ) : ℝ := l1051 x + l1052 x

/-- `v_[269]` (HyQForwardKinJacForward.cpp:1054). -/
def l1054 (x : Fin 36 → ℝ) : ℝ := -1 * Real.sin (x 6)

/-- `v_[361]` (HyQForwardKinJacForward.cpp:1055). -/
def l1055 (x : Fin 36 → ℝ) : ℝ := (33 / 100) * l1054 x * l51 x * l53 x - (33 / 100) * l1054 x * l55 x * l57 x - (7 / 20) * l1054 x * l55 x - (2 / 25) * l1054 x

/-- `v_[305]` (HyQForwardKinJacForward.cpp:1056). -/
def l1056 (x : Fin 36 → ℝ) : ℝ := l43 x * l40 x

/-- `v_[443]` (HyQForwardKinJacForward.cpp:1057). -/
def l1057 (x : Fin 36 → ℝ) : ℝ := l28 x * l47 x

/-- `v_[436]` (HyQForwardKinJacForward.cpp:1058). -/
def l1058 (x : Fin 36 → ℝ) : ℝ := l1056 x - l1057 x

/-- `v_[413]` (HyQForwardKinJacForward.cpp:1059). -/
def l1059 (x : Fin 36 → ℝ) : ℝ := Real.cos (x 6)

/-- `v_[274]` (HyQForwardKinJacForward.cpp:1060). -/
def l1060 (x : Fin 36 → ℝ) : ℝ := (33 / 100) * l1059 x * l51 x * l53 x - (33 / 100) * l1059 x * l55 x * l57 x - (7 / 20) * l1059 x * l55 x - (2 / 25) * l1059 x

/-- `jac[144]` (HyQForwardKinJacForward.cpp:1061). -/
def l1061 (x : Fin 36 → ℝ) : ℝ := l1053 x * l1055 x + l1058 x * l1060 x

/-- `v_[349]` (HyQForwardKinJacForward.cpp:1062). -/
def l1062 (x : Fin 36 → ℝ) : ℝ := l28 x * l42 x

/-- `v_[0]` (HyQForwardKinJacForward.cpp:1063). -/
def l1063 (x : Fin 36 → ℝ) : ℝ := l76 x * l47 x

/-- `v_[340]` (HyQForwardKinJacForward.cpp:1064). -/
def l1064 (x : Fin 36 → ℝ) : ℝ := l1062 x - l1063 x

/-- `v_[12]` (HyQForwardKinJacForward.cpp:1065). -/
def l1065 (x : Fin 36 → ℝ) : ℝ := l28 x * l27 x

/-- `v_[18]` (HyQForwardKinJacForward.cpp:1066). -/
def l1066 (x : Fin 36 → ℝ) : ℝ := l76 x * l40 x

/-- `v_[19]` (HyQForwardKinJacForward.cpp:1067). -/
def l1067 (x : Fin 36 → ℝ) : ℝ := 1 - l1065 x - l1066 x

/-- `jac[145]` (HyQForwardKinJacForward.cpp:1068). -/
def l1068 (x : Fin 36 → ℝ) : ℝ := l1064 x * l1055 x + l1067 x * l1060 x

/-- `v_[22]` (HyQForwardKinJacForward.cpp:1069). -/
def l1069 (x : Fin 36 → ℝ) : ℝ := l43 x * l42 x

/-- `v_[18]` (HyQForwardKinJacForward.cpp:1070). -/
def l1070 (x : Fin 36 → ℝ) : ℝ := 1 - l1069 x - l1066 x

/-- `v_[0]` (HyQForwardKinJacForward.cpp:1071). -/
def l1071 (x : Fin 36 → ℝ) : ℝ := l1062 x + l1063 x

/-- `jac[146]` (HyQForwardKinJacForward.cpp:1072). -/
def l1072 (x : Fin 36 → ℝ) : ℝ := l1070 x * l1055 x + l1071 x * l1060 x

/-- `v_[274]` (HyQForwardKinJacForward.cpp:1073). -/
def l1073 (x : Fin 36 → ℝ) : ℝ := l94 x * l106 x

/-- `v_[361]` (HyQForwardKinJacForward.cpp:1074). -/
def l1074 (x : Fin 36 → ℝ) : ℝ := l109 x * l113 x

/-- `jac[555]` (HyQForwardKinJacForward.cpp:1075). -/
def l1075 (x : Fin 36 → ℝ) : ℝ := l1073 x + l1074 x

/-- `jac[509]` (HyQForwardKinJacForward.cpp:1076). -/
def l1076 (x : Fin 36 → ℝ) : ℝ := l1073 x - l1074 x

/-- `v_[361]` (HyQForwardKinJacForward.cpp:1077). -/
def l1077 (x : Fin 36 → ℝ) : ℝ := (33 / 100) * l1054 x

/-- `v_[274]` (HyQForwardKinJacForward.cpp:1078). -/
def l1078 (x : Fin 36 → ℝ) : ℝ := (33 / 100) * l1059 x * l51 x * l53 x - (33 / 100) * l1059 x * l55 x * l57 x - (7 / 20) * l1059 x * l55 x - (2 / 25) * l1059 x

/-- `v_[361]` (HyQForwardKinJacForward.cpp:1079). -/
def l1079 (x : Fin 36 → ℝ) : ℝ := (l1077 x * l55 x * l53 x + (33 / 100) * l1054 x * l51 x * l57 x) * x 26 + (l1077 x * l51 x * l57 x + (33 / 100) * l1054 x * l55 x * l53 x + (7 / 20) * l1054 x * l51 x) * x 25 + ((33 / 100) * l1059 x * l55 x * l57 x +  - (33 / 100) * l1059 x * l51 x * l53 x + (7 / 20) * l1059 x * l55 x + (2 / 25) * l1059 x) * x 24 + x 18 * l1078 x

/-- `v_[349]` (HyQForwardKinJacForward.cpp:1080). -/
def l1080 (x : Fin 36 → ℝ) : ℝ := l109 x * l106 x

/-- `v_[21]` (HyQForwardKinJacForward.cpp:1081). -/
def l1081 (x : Fin 36 → ℝ) : ℝ := l94 x * l113 x

/-- `jac[531]` (HyQForwardKinJacForward.cpp:1082). -/
def l1082 (x : Fin 36 → ℝ) : ℝ := l1080 x - l1081 x

/-- `jac[508]` (HyQForwardKinJacForward.cpp:1083). -/
def l1083 (x : Fin 36 → ℝ) : ℝ := l1080 x + l1081 x

/-- `jac[579]` (HyQForwardKinJacForward.cpp:1084). -/
def l1084 (x : Fin 36 → ℝ) : ℝ := l1075 x * l130 x + l1082 x * l158 x

/-- `v_[21]` (HyQForwardKinJacForward.cpp:1085). -/
def l1085 (x : Fin 36 → ℝ) : ℝ := (33 / 100) * l1059 x

/-- `v_[349]` (HyQForwardKinJacForward.cpp:1086). -/
def l1086 (x : Fin 36 → ℝ) : ℝ := (33 / 100) * l1054 x * l55 x

/-- `v_[11]` (HyQForwardKinJacForward.cpp:1087). -/
def l1087 (x : Fin 36 → ℝ) : ℝ := (33 / 100) * l1054 x * l51 x * l53 x - l1086 x * l57 x - (7 / 20) * l1054 x * l55 x - (2 / 25) * l1054 x

/-- `v_[349]` (HyQForwardKinJacForward.cpp:1088). -/
def l1088 (x : Fin 36 → ℝ) : ℝ := (l1085 x * l55 x * l53 x + (33 / 100) * l1059 x * l51 x * l57 x) * x 26 + (l1085 x * l51 x * l57 x + (33 / 100) * l1059 x * l55 x * l53 x + (7 / 20) * l1059 x * l51 x) * x 25 + ((33 / 100) * l1054 x * l51 x * l53 x - l1086 x * l57 x - (7 / 20) * l1054 x * l55 x - (2 / 25) * l1054 x) * x 24 - x 18 * l1087 x

/-- `v_[49]` (HyQForwardKinJacForward.cpp:1089). -/
def l1089 (x : Fin 36 → ℝ) : ℝ := l94 x * l93 x

/-- `v_[60]` (HyQForwardKinJacForward.cpp:1090). -/
def l1090 (x : Fin 36 → ℝ) : ℝ := l109 x * l108 x

/-- `jac[507]` (HyQForwardKinJacForward.cpp:1091). -/
def l1091 (x : Fin 36 → ℝ) : ℝ := 1 - l1089 x - l1090 x

/-- `jac[603]` (HyQForwardKinJacForward.cpp:1092). -/
def l1092 (x : Fin 36 → ℝ) : ℝ := l1075 x * l124 x + l1082 x * l152 x + l1091 x * l171 x

/-- `jac[627]` (HyQForwardKinJacForward.cpp:1093). -/
def l1093 (x : Fin 36 → ℝ) : ℝ := l1075 x * l119 x + l1082 x * l147 x + l1091 x * l168 x

/-- `v_[11]` (HyQForwardKinJacForward.cpp:1094). -/
def l1094 (x : Fin 36 → ℝ) : ℝ := x 19 * l1087 x - x 20 * l1078 x

/-- `jac[147]` (HyQForwardKinJacForward.cpp:1095). -/
def l1095 (x : Fin 36 → ℝ) : ℝ := l1075 x * l1079 x + l1082 x * l1088 x + l1091 x * l1094 x

/-- `v_[59]` (HyQForwardKinJacForward.cpp:1096). -/
def l1096 (x : Fin 36 → ℝ) : ℝ := l94 x * l108 x

/-- `v_[47]` (HyQForwardKinJacForward.cpp:1097). -/
def l1097 (x : Fin 36 → ℝ) : ℝ := l175 x * l113 x

/-- `jac[556]` (HyQForwardKinJacForward.cpp:1098). -/
def l1098 (x : Fin 36 → ℝ) : ℝ := l1096 x - l1097 x

/-- `jac[533]` (HyQForwardKinJacForward.cpp:1099). -/
def l1099 (x : Fin 36 → ℝ) : ℝ := l1096 x + l1097 x

/-- `v_[56]` (HyQForwardKinJacForward.cpp:1100). -/
def l1100 (x : Fin 36 → ℝ) : ℝ := l175 x * l106 x

/-- `jac[532]` (HyQForwardKinJacForward.cpp:1101). -/
def l1101 (x : Fin 36 → ℝ) : ℝ := 1 - l1089 x - l1100 x

/-- `jac[148]` (HyQForwardKinJacForward.cpp:1102). -/
def l1102 (x : Fin 36 → ℝ) : ℝ := l1098 x * l1079 x + l1101 x * l1088 x + l1083 x * l1094 x

/-- `jac[557]` (HyQForwardKinJacForward.cpp:1103). -/
def l1103 (x : Fin 36 → ℝ) : ℝ := 1 - l1090 x - l1100 x

/-- `jac[149]` (HyQForwardKinJacForward.cpp:1104). -/
def l1104 (x : Fin 36 → ℝ) : ℝ := l1103 x * l1079 x + l1099 x * l1088 x + l1076 x * l1094 x

/-- `jac[580]` (HyQForwardKinJacForward.cpp:1105). -/
def l1105 (x : Fin 36 → ℝ) : ℝ := l1098 x * l130 x + l1101 x * l158 x

/-- `jac[581]` (HyQForwardKinJacForward.cpp:1106). -/
def l1106 (x : Fin 36 → ℝ) : ℝ := l1103 x * l130 x + l1099 x * l158 x

/-- `jac[604]` (HyQForwardKinJacForward.cpp:1107). -/
def l1107 (x : Fin 36 → ℝ) : ℝ := l1098 x * l124 x + l1101 x * l152 x + l1083 x * l171 x

/-- `jac[605]` (HyQForwardKinJacForward.cpp:1108). -/
def l1108 (x : Fin 36 → ℝ) : ℝ := l1103 x * l124 x + l1099 x * l152 x + l1076 x * l171 x

/-- `jac[628]` (HyQForwardKinJacForward.cpp:1109). -/
def l1109 (x : Fin 36 → ℝ) : ℝ := l1098 x * l119 x + l1101 x * l147 x + l1083 x * l168 x

/-- `jac[629]` (HyQForwardKinJacForward.cpp:1110). -/
def l1110 (x : Fin 36 → ℝ) : ℝ := l1103 x * l119 x + l1099 x * l147 x + l1076 x * l168 x

/-- `v_[111]` (HyQForwardKinJacForward.cpp:1111). -/
def l1111 (x : Fin 36 → ℝ) : ℝ := Real.cos (x 7)

/-- `v_[94]` (HyQForwardKinJacForward.cpp:1112). -/
def l1112 (x : Fin 36 → ℝ) : ℝ := -1 * Real.sin (x 7)

/-- `v_[33]` (HyQForwardKinJacForward.cpp:1113). -/
def l1113 (x : Fin 36 → ℝ) : ℝ := l50 x * l1111 x * l53 x - l54 x * l1112 x * l57 x - l58 x * l1112 x

/-- `v_[42]` (HyQForwardKinJacForward.cpp:1114). -/
def l1114 (x : Fin 36 → ℝ) : ℝ := l63 x * l1111 x * l53 x - l65 x * l1112 x * l57 x - l67 x * l1112 x

/-- `v_[22]` (HyQForwardKinJacForward.cpp:1115). -/
def l1115 (x : Fin 36 → ℝ) : ℝ := 1 - l1065 x - l1069 x

/-- `v_[12]` (HyQForwardKinJacForward.cpp:1116). -/
def l1116 (x : Fin 36 → ℝ) : ℝ := -(33 / 100) * l1112 x * l53 x - (33 / 100) * l1111 x * l57 x - (7 / 20) * l1111 x

/-- `jac[168]` (HyQForwardKinJacForward.cpp:1117). -/
def l1117 (x : Fin 36 → ℝ) : ℝ := l1053 x * l1113 x + l1058 x * l1114 x + l1115 x * l1116 x

/-- `v_[443]` (HyQForwardKinJacForward.cpp:1118). -/
def l1118 (x : Fin 36 → ℝ) : ℝ := l1056 x + l1057 x

/-- `jac[169]` (HyQForwardKinJacForward.cpp:1119). -/
def l1119 (x : Fin 36 → ℝ) : ℝ := l1064 x * l1113 x + l1067 x * l1114 x + l1118 x * l1116 x

/-- `v_[342]` (HyQForwardKinJacForward.cpp:1120). -/
def l1120 (x : Fin 36 → ℝ) : ℝ := l1051 x - l1052 x

/-- `jac[170]` (HyQForwardKinJacForward.cpp:1121). -/
def l1121 (x : Fin 36 → ℝ) : ℝ := l1070 x * l1113 x + l1071 x * l1114 x + l1120 x * l1116 x

/-- `v_[82]` (HyQForwardKinJacForward.cpp:1122). -/
def l1122 (x : Fin 36 → ℝ) : ℝ := l131 x * l1111 x * l53 x - l133 x * l1112 x * l57 x - l135 x * l1112 x

/-- `v_[80]` (HyQForwardKinJacForward.cpp:1123). -/
def l1123 (x : Fin 36 → ℝ) : ℝ := -(33 / 100) * l1112 x * l53 x - (33 / 100) * l1111 x * l57 x - (7 / 20) * l1111 x

/-- `v_[76]` (HyQForwardKinJacForward.cpp:1124). -/
def l1124 (x : Fin 36 → ℝ) : ℝ := (l115 x * l1112 x * l53 x + l117 x * l1111 x * l57 x) * x 26 + (l115 x * l1111 x * l57 x + l121 x * l1112 x * l53 x + l123 x * l1111 x) * x 25 + (l125 x * l1112 x * l57 x + l127 x * l1111 x * l53 x + l129 x * l1112 x) * x 24 + x 18 * l1122 x - x 19 * l1123 x

/-- `v_[101]` (HyQForwardKinJacForward.cpp:1125). -/
def l1125 (x : Fin 36 → ℝ) : ℝ := l155 x * l1112 x

/-- `v_[107]` (HyQForwardKinJacForward.cpp:1126). -/
def l1126 (x : Fin 36 → ℝ) : ℝ := l159 x * l1111 x * l53 x - l1125 x * l57 x - l161 x * l1112 x

/-- `v_[101]` (HyQForwardKinJacForward.cpp:1127). -/
def l1127 (x : Fin 36 → ℝ) : ℝ := (l143 x * l1112 x * l53 x + l145 x * l1111 x * l57 x) * x 26 + (l143 x * l1111 x * l57 x + l149 x * l1112 x * l53 x + l151 x * l1111 x) * x 25 + (l153 x * l1111 x * l53 x - l1125 x * l57 x - l157 x * l1112 x) * x 24 + x 20 * l1123 x - x 18 * l1126 x

/-- `v_[107]` (HyQForwardKinJacForward.cpp:1128). -/
def l1128 (x : Fin 36 → ℝ) : ℝ := ((33 / 100) * l1111 x * l53 x - (33 / 100) * l1112 x * l57 x) * x 26 + ((33 / 100) * l1111 x * l53 x - (33 / 100) * l1112 x * l57 x - (7 / 20) * l1112 x) * x 25 + x 19 * l1126 x - x 20 * l1122 x

/-- `jac[171]` (HyQForwardKinJacForward.cpp:1129). -/
def l1129 (x : Fin 36 → ℝ) : ℝ := l1075 x * l1124 x + l1082 x * l1127 x + l1091 x * l1128 x

/-- `jac[172]` (HyQForwardKinJacForward.cpp:1130). -/
def l1130 (x : Fin 36 → ℝ) : ℝ := l1098 x * l1124 x + l1101 x * l1127 x + l1083 x * l1128 x

/-- `jac[173]` (HyQForwardKinJacForward.cpp:1131). -/
def l1131 (x : Fin 36 → ℝ) : ℝ := l1103 x * l1124 x + l1099 x * l1127 x + l1076 x * l1128 x

/-- `v_[107]` (HyQForwardKinJacForward.cpp:1132). -/
def l1132 (x : Fin 36 → ℝ) : ℝ := Real.cos (x 8)

/-- `v_[101]` (HyQForwardKinJacForward.cpp:1133). -/
def l1133 (x : Fin 36 → ℝ) : ℝ := -1 * Real.sin (x 8)

/-- `v_[31]` (HyQForwardKinJacForward.cpp:1134). -/
def l1134 (x : Fin 36 → ℝ) : ℝ := l52 x * l1132 x - l56 x * l1133 x

/-- `v_[41]` (HyQForwardKinJacForward.cpp:1135). -/
def l1135 (x : Fin 36 → ℝ) : ℝ := l64 x * l1132 x - l66 x * l1133 x

/-- `v_[45]` (HyQForwardKinJacForward.cpp:1136). -/
def l1136 (x : Fin 36 → ℝ) : ℝ := l71 x * l1132 x - l72 x * l1133 x

/-- `jac[192]` (HyQForwardKinJacForward.cpp:1137). -/
def l1137 (x : Fin 36 → ℝ) : ℝ := l1053 x * l1134 x + l1058 x * l1135 x + l1115 x * l1136 x

/-- `jac[193]` (HyQForwardKinJacForward.cpp:1138). -/
def l1138 (x : Fin 36 → ℝ) : ℝ := l1064 x * l1134 x + l1067 x * l1135 x + l1118 x * l1136 x

/-- `jac[194]` (HyQForwardKinJacForward.cpp:1139). -/
def l1139 (x : Fin 36 → ℝ) : ℝ := l1070 x * l1134 x + l1071 x * l1135 x + l1120 x * l1136 x

/-- `v_[81]` (HyQForwardKinJacForward.cpp:1140). -/
def l1140 (x : Fin 36 → ℝ) : ℝ := l132 x * l1132 x - l134 x * l1133 x

/-- `v_[85]` (HyQForwardKinJacForward.cpp:1141). -/
def l1141 (x : Fin 36 → ℝ) : ℝ := l137 x * l1132 x - l138 x * l1133 x

/-- `v_[75]` (HyQForwardKinJacForward.cpp:1142). -/
def l1142 (x : Fin 36 → ℝ) : ℝ := (l116 x * l1132 x + l118 x * l1133 x) * x 26 + (l120 x * l1133 x + l122 x * l1132 x) * x 25 + (l126 x * l1133 x + l128 x * l1132 x) * x 24 + x 18 * l1140 x - x 19 * l1141 x

/-- `v_[106]` (HyQForwardKinJacForward.cpp:1143). -/
def l1143 (x : Fin 36 → ℝ) : ℝ := l160 x * l1132 x - l156 x * l1133 x

/-- `v_[85]` (HyQForwardKinJacForward.cpp:1144). -/
def l1144 (x : Fin 36 → ℝ) : ℝ := (l144 x * l1132 x + l146 x * l1133 x) * x 26 + (l148 x * l1133 x + l150 x * l1132 x) * x 25 + (l154 x * l1132 x - l156 x * l1133 x) * x 24 + x 20 * l1141 x - x 18 * l1143 x

/-- `v_[106]` (HyQForwardKinJacForward.cpp:1145). -/
def l1145 (x : Fin 36 → ℝ) : ℝ := (l166 x * l1132 x - l167 x * l1133 x) * x 26 + (l169 x * l1132 x - l170 x * l1133 x) * x 25 + x 19 * l1143 x - x 20 * l1140 x

/-- `jac[195]` (HyQForwardKinJacForward.cpp:1146). -/
def l1146 (x : Fin 36 → ℝ) : ℝ := l1075 x * l1142 x + l1082 x * l1144 x + l1091 x * l1145 x

/-- `jac[196]` (HyQForwardKinJacForward.cpp:1147). -/
def l1147 (x : Fin 36 → ℝ) : ℝ := l1098 x * l1142 x + l1101 x * l1144 x + l1083 x * l1145 x

/-- `jac[197]` (HyQForwardKinJacForward.cpp:1148). -/
def l1148 (x : Fin 36 → ℝ) : ℝ := l1103 x * l1142 x + l1099 x * l1144 x + l1076 x * l1145 x

/-- `v_[106]` (HyQForwardKinJacForward.cpp:1149). -/
def l1149 (x : Fin 36 → ℝ) : ℝ := l193 x * l205 x

/-- `v_[85]` (HyQForwardKinJacForward.cpp:1150). -/
def l1150 (x : Fin 36 → ℝ) : ℝ := l208 x * l212 x

/-- `v_[75]` (HyQForwardKinJacForward.cpp:1151). -/
def l1151 (x : Fin 36 → ℝ) : ℝ := l1149 x + l1150 x

/-- `v_[81]` (HyQForwardKinJacForward.cpp:1152). -/
def l1152 (x : Fin 36 → ℝ) : ℝ := -1 * Real.sin (x 9)

/-- `v_[101]` (HyQForwardKinJacForward.cpp:1153). -/
def l1153 (x : Fin 36 → ℝ) : ℝ := (33 / 100) * l1152 x * l216 x * l218 x - (33 / 100) * l1152 x * l220 x * l222 x - (7 / 20) * l1152 x * l220 x - (2 / 25) * l1152 x

/-- `v_[107]` (HyQForwardKinJacForward.cpp:1154). -/
def l1154 (x : Fin 36 → ℝ) : ℝ := l208 x * l205 x

/-- `v_[113]` (HyQForwardKinJacForward.cpp:1155). -/
def l1155 (x : Fin 36 → ℝ) : ℝ := l193 x * l212 x

/-- `v_[112]` (HyQForwardKinJacForward.cpp:1156). -/
def l1156 (x : Fin 36 → ℝ) : ℝ := l1154 x - l1155 x

/-- `v_[110]` (HyQForwardKinJacForward.cpp:1157). -/
def l1157 (x : Fin 36 → ℝ) : ℝ := Real.cos (x 9)

/-- `v_[109]` (HyQForwardKinJacForward.cpp:1158). -/
def l1158 (x : Fin 36 → ℝ) : ℝ := (33 / 100) * l1157 x * l220 x * l222 x +  - (33 / 100) * l1157 x * l216 x * l218 x + (7 / 20) * l1157 x * l220 x + (2 / 25) * l1157 x

/-- `jac[222]` (HyQForwardKinJacForward.cpp:1159). -/
def l1159 (x : Fin 36 → ℝ) : ℝ := l1151 x * l1153 x + l1156 x * l1158 x

/-- `v_[102]` (HyQForwardKinJacForward.cpp:1160). -/
def l1160 (x : Fin 36 → ℝ) : ℝ := l193 x * l207 x

/-- `v_[116]` (HyQForwardKinJacForward.cpp:1161). -/
def l1161 (x : Fin 36 → ℝ) : ℝ := l241 x * l212 x

/-- `v_[100]` (HyQForwardKinJacForward.cpp:1162). -/
def l1162 (x : Fin 36 → ℝ) : ℝ := l1160 x - l1161 x

/-- `v_[119]` (HyQForwardKinJacForward.cpp:1163). -/
def l1163 (x : Fin 36 → ℝ) : ℝ := l193 x * l192 x

/-- `v_[125]` (HyQForwardKinJacForward.cpp:1164). -/
def l1164 (x : Fin 36 → ℝ) : ℝ := l241 x * l205 x

/-- `v_[126]` (HyQForwardKinJacForward.cpp:1165). -/
def l1165 (x : Fin 36 → ℝ) : ℝ := 1 - l1163 x - l1164 x

/-- `jac[223]` (HyQForwardKinJacForward.cpp:1166). -/
def l1166 (x : Fin 36 → ℝ) : ℝ := l1162 x * l1153 x + l1165 x * l1158 x

/-- `v_[129]` (HyQForwardKinJacForward.cpp:1167). -/
def l1167 (x : Fin 36 → ℝ) : ℝ := l208 x * l207 x

/-- `v_[125]` (HyQForwardKinJacForward.cpp:1168). -/
def l1168 (x : Fin 36 → ℝ) : ℝ := 1 - l1167 x - l1164 x

/-- `v_[116]` (HyQForwardKinJacForward.cpp:1169). -/
def l1169 (x : Fin 36 → ℝ) : ℝ := l1160 x + l1161 x

/-- `jac[224]` (HyQForwardKinJacForward.cpp:1170). -/
def l1170 (x : Fin 36 → ℝ) : ℝ := l1168 x * l1153 x + l1169 x * l1158 x

/-- `v_[109]` (HyQForwardKinJacForward.cpp:1171). -/
def l1171 (x : Fin 36 → ℝ) : ℝ := l259 x * l271 x

/-- `v_[101]` (HyQForwardKinJacForward.cpp:1172). -/
def l1172 (x : Fin 36 → ℝ) : ℝ := l274 x * l278 x

/-- `jac[561]` (HyQForwardKinJacForward.cpp:1173). -/
def l1173 (x : Fin 36 → ℝ) : ℝ := l1171 x + l1172 x

/-- `jac[515]` (HyQForwardKinJacForward.cpp:1174). -/
def l1174 (x : Fin 36 → ℝ) : ℝ := l1171 x - l1172 x

/-- `v_[101]` (HyQForwardKinJacForward.cpp:1175). -/
def l1175 (x : Fin 36 → ℝ) : ℝ := (33 / 100) * l1152 x

/-- `v_[109]` (HyQForwardKinJacForward.cpp:1176). -/
def l1176 (x : Fin 36 → ℝ) : ℝ := -(33 / 100) * l1157 x

/-- `v_[102]` (HyQForwardKinJacForward.cpp:1177). -/
def l1177 (x : Fin 36 → ℝ) : ℝ := (33 / 100) * l1157 x * l220 x * l222 x +  - (33 / 100) * l1157 x * l216 x * l218 x + (7 / 20) * l1157 x * l220 x + (2 / 25) * l1157 x

/-- `v_[101]` (HyQForwardKinJacForward.cpp:1178). -/
def l1178 (x : Fin 36 → ℝ) : ℝ := (l1175 x * l220 x * l218 x + (33 / 100) * l1152 x * l216 x * l222 x) * x 29 + (l1175 x * l216 x * l222 x + (33 / 100) * l1152 x * l220 x * l218 x + (7 / 20) * l1152 x * l216 x) * x 28 + ((33 / 100) * l1157 x * l220 x * l222 x + l1176 x * l216 x * l218 x + (7 / 20) * l1157 x * l220 x + (2 / 25) * l1157 x) * x 27 + x 18 * l1177 x

/-- `v_[128]` (HyQForwardKinJacForward.cpp:1179). -/
def l1179 (x : Fin 36 → ℝ) : ℝ := l274 x * l271 x

/-- `v_[118]` (HyQForwardKinJacForward.cpp:1180). -/
def l1180 (x : Fin 36 → ℝ) : ℝ := l259 x * l278 x

/-- `jac[537]` (HyQForwardKinJacForward.cpp:1181). -/
def l1181 (x : Fin 36 → ℝ) : ℝ := l1179 x - l1180 x

/-- `jac[514]` (HyQForwardKinJacForward.cpp:1182). -/
def l1182 (x : Fin 36 → ℝ) : ℝ := l1179 x + l1180 x

/-- `jac[657]` (HyQForwardKinJacForward.cpp:1183). -/
def l1183 (x : Fin 36 → ℝ) : ℝ := l1173 x * l295 x + l1181 x * l323 x

/-- `v_[118]` (HyQForwardKinJacForward.cpp:1184). -/
def l1184 (x : Fin 36 → ℝ) : ℝ := (33 / 100) * l1152 x * l216 x * l218 x - (33 / 100) * l1152 x * l220 x * l222 x - (7 / 20) * l1152 x * l220 x - (2 / 25) * l1152 x

/-- `v_[109]` (HyQForwardKinJacForward.cpp:1185). -/
def l1185 (x : Fin 36 → ℝ) : ℝ := (-(33 / 100) * l1157 x * l220 x * l218 x - (33 / 100) * l1157 x * l216 x * l222 x) * x 29 + (l1176 x * l220 x * l218 x - (33 / 100) * l1157 x * l216 x * l222 x - (7 / 20) * l1157 x * l216 x) * x 28 + ((33 / 100) * l1152 x * l220 x * l222 x +  - (33 / 100) * l1152 x * l216 x * l218 x + (7 / 20) * l1152 x * l220 x + (2 / 25) * l1152 x) * x 27 - x 18 * l1184 x

/-- `v_[156]` (HyQForwardKinJacForward.cpp:1186). -/
def l1186 (x : Fin 36 → ℝ) : ℝ := l259 x * l258 x

/-- `v_[167]` (HyQForwardKinJacForward.cpp:1187). -/
def l1187 (x : Fin 36 → ℝ) : ℝ := l274 x * l273 x

/-- `jac[513]` (HyQForwardKinJacForward.cpp:1188). -/
def l1188 (x : Fin 36 → ℝ) : ℝ := 1 - l1186 x - l1187 x

/-- `jac[681]` (HyQForwardKinJacForward.cpp:1189). -/
def l1189 (x : Fin 36 → ℝ) : ℝ := l1173 x * l289 x + l1181 x * l317 x + l1188 x * l338 x

/-- `jac[705]` (HyQForwardKinJacForward.cpp:1190). -/
def l1190 (x : Fin 36 → ℝ) : ℝ := l1173 x * l284 x + l1181 x * l312 x + l1188 x * l335 x

/-- `v_[118]` (HyQForwardKinJacForward.cpp:1191). -/
def l1191 (x : Fin 36 → ℝ) : ℝ := x 19 * l1184 x - x 20 * l1177 x

/-- `jac[225]` (HyQForwardKinJacForward.cpp:1192). -/
def l1192 (x : Fin 36 → ℝ) : ℝ := l1173 x * l1178 x + l1181 x * l1185 x + l1188 x * l1191 x

/-- `v_[166]` (HyQForwardKinJacForward.cpp:1193). -/
def l1193 (x : Fin 36 → ℝ) : ℝ := l259 x * l273 x

/-- `v_[154]` (HyQForwardKinJacForward.cpp:1194). -/
def l1194 (x : Fin 36 → ℝ) : ℝ := l342 x * l278 x

/-- `jac[562]` (HyQForwardKinJacForward.cpp:1195). -/
def l1195 (x : Fin 36 → ℝ) : ℝ := l1193 x - l1194 x

/-- `jac[539]` (HyQForwardKinJacForward.cpp:1196). -/
def l1196 (x : Fin 36 → ℝ) : ℝ := l1193 x + l1194 x

/-- `v_[163]` (HyQForwardKinJacForward.cpp:1197). -/
def l1197 (x : Fin 36 → ℝ) : ℝ := l342 x * l271 x

/-- `jac[538]` (HyQForwardKinJacForward.cpp:1198). -/
def l1198 (x : Fin 36 → ℝ) : ℝ := 1 - l1186 x - l1197 x

/-- `jac[226]` (HyQForwardKinJacForward.cpp:1199). -/
def l1199 (x : Fin 36 → ℝ) : ℝ := l1195 x * l1178 x + l1198 x * l1185 x + l1182 x * l1191 x

/-- `jac[563]` (HyQForwardKinJacForward.cpp:1200). -/
def l1200 (x : Fin 36 → ℝ) : ℝ := 1 - l1187 x - l1197 x

/-- `jac[227]` (HyQForwardKinJacForward.cpp:1201). -/
def l1201 (x : Fin 36 → ℝ) : ℝ := l1200 x * l1178 x + l1196 x * l1185 x + l1174 x * l1191 x

/-- `jac[658]` (HyQForwardKinJacForward.cpp:1202). -/
def l1202 (x : Fin 36 → ℝ) : ℝ := l1195 x * l295 x + l1198 x * l323 x

/-- `jac[659]` (HyQForwardKinJacForward.cpp:1203). -/
def l1203 (x : Fin 36 → ℝ) : ℝ := l1200 x * l295 x + l1196 x * l323 x

/-- `jac[682]` (HyQForwardKinJacForward.cpp:1204). -/
def l1204 (x : Fin 36 → ℝ) : ℝ := l1195 x * l289 x + l1198 x * l317 x + l1182 x * l338 x

/-- `jac[683]` (HyQForwardKinJacForward.cpp:1205). -/
def l1205 (x : Fin 36 → ℝ) : ℝ := l1200 x * l289 x + l1196 x * l317 x + l1174 x * l338 x

/-- `jac[706]` (HyQForwardKinJacForward.cpp:1206). -/
def l1206 (x : Fin 36 → ℝ) : ℝ := l1195 x * l284 x + l1198 x * l312 x + l1182 x * l335 x

/-- `jac[707]` (HyQForwardKinJacForward.cpp:1207). -/
def l1207 (x : Fin 36 → ℝ) : ℝ := l1200 x * l284 x + l1196 x * l312 x + l1174 x * l335 x

/-- `v_[220]` (HyQForwardKinJacForward.cpp:1208). -/
def l1208 (x : Fin 36 → ℝ) : ℝ := Real.cos (x 10)

/-- `v_[201]` (HyQForwardKinJacForward.cpp:1209). -/
def l1209 (x : Fin 36 → ℝ) : ℝ := -1 * Real.sin (x 10)

/-- `v_[140]` (HyQForwardKinJacForward.cpp:1210). -/
def l1210 (x : Fin 36 → ℝ) : ℝ := l215 x * l1208 x * l218 x - l219 x * l1209 x * l222 x - l223 x * l1209 x

/-- `v_[149]` (HyQForwardKinJacForward.cpp:1211). -/
def l1211 (x : Fin 36 → ℝ) : ℝ := l228 x * l1209 x * l222 x + l230 x * l1208 x * l218 x + l232 x * l1209 x

/-- `v_[129]` (HyQForwardKinJacForward.cpp:1212). -/
def l1212 (x : Fin 36 → ℝ) : ℝ := 1 - l1163 x - l1167 x

/-- `v_[119]` (HyQForwardKinJacForward.cpp:1213). -/
def l1213 (x : Fin 36 → ℝ) : ℝ := -(33 / 100) * l1209 x * l218 x - (33 / 100) * l1208 x * l222 x - (7 / 20) * l1208 x

/-- `jac[246]` (HyQForwardKinJacForward.cpp:1214). -/
def l1214 (x : Fin 36 → ℝ) : ℝ := l1151 x * l1210 x + l1156 x * l1211 x + l1212 x * l1213 x

/-- `v_[113]` (HyQForwardKinJacForward.cpp:1215). -/
def l1215 (x : Fin 36 → ℝ) : ℝ := l1154 x + l1155 x

/-- `jac[247]` (HyQForwardKinJacForward.cpp:1216). -/
def l1216 (x : Fin 36 → ℝ) : ℝ := l1162 x * l1210 x + l1165 x * l1211 x + l1215 x * l1213 x

/-- `v_[85]` (HyQForwardKinJacForward.cpp:1217). -/
def l1217 (x : Fin 36 → ℝ) : ℝ := l1149 x - l1150 x

/-- `jac[248]` (HyQForwardKinJacForward.cpp:1218). -/
def l1218 (x : Fin 36 → ℝ) : ℝ := l1168 x * l1210 x + l1169 x * l1211 x + l1217 x * l1213 x

/-- `v_[189]` (HyQForwardKinJacForward.cpp:1219). -/
def l1219 (x : Fin 36 → ℝ) : ℝ := l296 x * l1209 x * l222 x + l298 x * l1208 x * l218 x + l300 x * l1209 x

/-- `v_[187]` (HyQForwardKinJacForward.cpp:1220). -/
def l1220 (x : Fin 36 → ℝ) : ℝ := -(33 / 100) * l1209 x * l218 x - (33 / 100) * l1208 x * l222 x - (7 / 20) * l1208 x

/-- `v_[183]` (HyQForwardKinJacForward.cpp:1221). -/
def l1221 (x : Fin 36 → ℝ) : ℝ := (l280 x * l1209 x * l218 x + l282 x * l1208 x * l222 x) * x 29 + (l280 x * l1208 x * l222 x + l286 x * l1209 x * l218 x + l288 x * l1208 x) * x 28 + (l290 x * l1209 x * l222 x + l292 x * l1208 x * l218 x + l294 x * l1209 x) * x 27 + x 18 * l1219 x - x 19 * l1220 x

/-- `v_[216]` (HyQForwardKinJacForward.cpp:1222). -/
def l1222 (x : Fin 36 → ℝ) : ℝ := l324 x * l1208 x * l218 x - l326 x * l1209 x * l222 x - l328 x * l1209 x

/-- `v_[187]` (HyQForwardKinJacForward.cpp:1223). -/
def l1223 (x : Fin 36 → ℝ) : ℝ := (l308 x * l1209 x * l218 x - l310 x * l1208 x * l222 x) * x 29 + (l292 x * l1209 x * l218 x - l314 x * l1208 x * l222 x - l316 x * l1208 x) * x 28 + (l318 x * l1209 x * l222 x + l320 x * l1208 x * l218 x + l322 x * l1209 x) * x 27 + x 20 * l1220 x - x 18 * l1222 x

/-- `v_[216]` (HyQForwardKinJacForward.cpp:1224). -/
def l1224 (x : Fin 36 → ℝ) : ℝ := ((33 / 100) * l1208 x * l218 x - (33 / 100) * l1209 x * l222 x) * x 29 + ((33 / 100) * l1208 x * l218 x - (33 / 100) * l1209 x * l222 x - (7 / 20) * l1209 x) * x 28 + x 19 * l1222 x - x 20 * l1219 x

/-- `jac[249]` (HyQForwardKinJacForward.cpp:1225). -/
def l1225 (x : Fin 36 → ℝ) : ℝ := l1173 x * l1221 x + l1181 x * l1223 x + l1188 x * l1224 x

/-- `jac[250]` (HyQForwardKinJacForward.cpp:1226). -/
def l1226 (x : Fin 36 → ℝ) : ℝ := l1195 x * l1221 x + l1198 x * l1223 x + l1182 x * l1224 x

/-- `jac[251]` (HyQForwardKinJacForward.cpp:1227). -/
def l1227 (x : Fin 36 → ℝ) : ℝ := l1200 x * l1221 x + l1196 x * l1223 x + l1174 x * l1224 x

/-- `v_[216]` (HyQForwardKinJacForward.cpp:1228). -/
def l1228 (x : Fin 36 → ℝ) : ℝ := Real.cos (x 11)

/-- `v_[187]` (HyQForwardKinJacForward.cpp:1229). -/
def l1229 (x : Fin 36 → ℝ) : ℝ := -1 * Real.sin (x 11)

/-- `v_[138]` (HyQForwardKinJacForward.cpp:1230). -/
def l1230 (x : Fin 36 → ℝ) : ℝ := l217 x * l1228 x - l221 x * l1229 x

/-- `v_[148]` (HyQForwardKinJacForward.cpp:1231). -/
def l1231 (x : Fin 36 → ℝ) : ℝ := l229 x * l1229 x + l231 x * l1228 x

/-- `v_[152]` (HyQForwardKinJacForward.cpp:1232). -/
def l1232 (x : Fin 36 → ℝ) : ℝ := l236 x * l1228 x - l237 x * l1229 x

/-- `jac[270]` (HyQForwardKinJacForward.cpp:1233). -/
def l1233 (x : Fin 36 → ℝ) : ℝ := l1151 x * l1230 x + l1156 x * l1231 x + l1212 x * l1232 x

/-- `jac[271]` (HyQForwardKinJacForward.cpp:1234). -/
def l1234 (x : Fin 36 → ℝ) : ℝ := l1162 x * l1230 x + l1165 x * l1231 x + l1215 x * l1232 x

/-- `jac[272]` (HyQForwardKinJacForward.cpp:1235). -/
def l1235 (x : Fin 36 → ℝ) : ℝ := l1168 x * l1230 x + l1169 x * l1231 x + l1217 x * l1232 x

/-- `v_[188]` (HyQForwardKinJacForward.cpp:1236). -/
def l1236 (x : Fin 36 → ℝ) : ℝ := l297 x * l1229 x + l299 x * l1228 x

/-- `v_[192]` (HyQForwardKinJacForward.cpp:1237). -/
def l1237 (x : Fin 36 → ℝ) : ℝ := l302 x * l1228 x - l303 x * l1229 x

/-- `v_[182]` (HyQForwardKinJacForward.cpp:1238). -/
def l1238 (x : Fin 36 → ℝ) : ℝ := (l281 x * l1228 x + l283 x * l1229 x) * x 29 + (l285 x * l1229 x + l287 x * l1228 x) * x 28 + (l291 x * l1229 x + l293 x * l1228 x) * x 27 + x 18 * l1236 x - x 19 * l1237 x

/-- `v_[215]` (HyQForwardKinJacForward.cpp:1239). -/
def l1239 (x : Fin 36 → ℝ) : ℝ := l325 x * l1228 x - l327 x * l1229 x

/-- `v_[192]` (HyQForwardKinJacForward.cpp:1240). -/
def l1240 (x : Fin 36 → ℝ) : ℝ := (l309 x * l1228 x - l311 x * l1229 x) * x 29 + (l313 x * l1228 x - l315 x * l1229 x) * x 28 + (l319 x * l1229 x + l321 x * l1228 x) * x 27 + x 20 * l1237 x - x 18 * l1239 x

/-- `v_[215]` (HyQForwardKinJacForward.cpp:1241). -/
def l1241 (x : Fin 36 → ℝ) : ℝ := (l333 x * l1228 x - l334 x * l1229 x) * x 29 + (l336 x * l1228 x - l337 x * l1229 x) * x 28 + x 19 * l1239 x - x 20 * l1236 x

/-- `jac[273]` (HyQForwardKinJacForward.cpp:1242). -/
def l1242 (x : Fin 36 → ℝ) : ℝ := l1173 x * l1238 x + l1181 x * l1240 x + l1188 x * l1241 x

/-- `jac[274]` (HyQForwardKinJacForward.cpp:1243). -/
def l1243 (x : Fin 36 → ℝ) : ℝ := l1195 x * l1238 x + l1198 x * l1240 x + l1182 x * l1241 x

/-- `jac[275]` (HyQForwardKinJacForward.cpp:1244). -/
def l1244 (x : Fin 36 → ℝ) : ℝ := l1200 x * l1238 x + l1196 x * l1240 x + l1174 x * l1241 x

/-- `v_[215]` (HyQForwardKinJacForward.cpp:1245). -/
def l1245 (x : Fin 36 → ℝ) : ℝ := l360 x * l372 x

/-- `v_[192]` (HyQForwardKinJacForward.cpp:1246). -/
def l1246 (x : Fin 36 → ℝ) : ℝ := l375 x * l379 x

/-- `v_[182]` (HyQForwardKinJacForward.cpp:1247). -/
def l1247 (x : Fin 36 → ℝ) : ℝ := l1245 x + l1246 x

/-- `v_[188]` (HyQForwardKinJacForward.cpp:1248). -/
def l1248 (x : Fin 36 → ℝ) : ℝ := -1 * Real.sin (x 12)

/-- `v_[187]` (HyQForwardKinJacForward.cpp:1249). -/
def l1249 (x : Fin 36 → ℝ) : ℝ := (33 / 100) * l1248 x * l383 x * l385 x - (33 / 100) * l1248 x * l387 x * l389 x - (7 / 20) * l1248 x * l387 x - (2 / 25) * l1248 x

/-- `v_[216]` (HyQForwardKinJacForward.cpp:1250). -/
def l1250 (x : Fin 36 → ℝ) : ℝ := l375 x * l372 x

/-- `v_[222]` (HyQForwardKinJacForward.cpp:1251). -/
def l1251 (x : Fin 36 → ℝ) : ℝ := l360 x * l379 x

/-- `v_[221]` (HyQForwardKinJacForward.cpp:1252). -/
def l1252 (x : Fin 36 → ℝ) : ℝ := l1250 x - l1251 x

/-- `v_[219]` (HyQForwardKinJacForward.cpp:1253). -/
def l1253 (x : Fin 36 → ℝ) : ℝ := Real.cos (x 12)

/-- `v_[218]` (HyQForwardKinJacForward.cpp:1254). -/
def l1254 (x : Fin 36 → ℝ) : ℝ := (33 / 100) * l1253 x * l383 x * l385 x - (33 / 100) * l1253 x * l387 x * l389 x - (7 / 20) * l1253 x * l387 x - (2 / 25) * l1253 x

/-- `jac[300]` (HyQForwardKinJacForward.cpp:1255). -/
def l1255 (x : Fin 36 → ℝ) : ℝ := l1247 x * l1249 x + l1252 x * l1254 x

/-- `v_[209]` (HyQForwardKinJacForward.cpp:1256). -/
def l1256 (x : Fin 36 → ℝ) : ℝ := l360 x * l374 x

/-- `v_[225]` (HyQForwardKinJacForward.cpp:1257). -/
def l1257 (x : Fin 36 → ℝ) : ℝ := l408 x * l379 x

/-- `v_[207]` (HyQForwardKinJacForward.cpp:1258). -/
def l1258 (x : Fin 36 → ℝ) : ℝ := l1256 x - l1257 x

/-- `v_[228]` (HyQForwardKinJacForward.cpp:1259). -/
def l1259 (x : Fin 36 → ℝ) : ℝ := l360 x * l359 x

/-- `v_[234]` (HyQForwardKinJacForward.cpp:1260). -/
def l1260 (x : Fin 36 → ℝ) : ℝ := l408 x * l372 x

/-- `v_[235]` (HyQForwardKinJacForward.cpp:1261). -/
def l1261 (x : Fin 36 → ℝ) : ℝ := 1 - l1259 x - l1260 x

/-- `jac[301]` (HyQForwardKinJacForward.cpp:1262). -/
def l1262 (x : Fin 36 → ℝ) : ℝ := l1258 x * l1249 x + l1261 x * l1254 x

/-- `v_[238]` (HyQForwardKinJacForward.cpp:1263). -/
def l1263 (x : Fin 36 → ℝ) : ℝ := l375 x * l374 x

/-- `v_[234]` (HyQForwardKinJacForward.cpp:1264). -/
def l1264 (x : Fin 36 → ℝ) : ℝ := 1 - l1263 x - l1260 x

/-- `v_[225]` (HyQForwardKinJacForward.cpp:1265). -/
def l1265 (x : Fin 36 → ℝ) : ℝ := l1256 x + l1257 x

/-- `jac[302]` (HyQForwardKinJacForward.cpp:1266). -/
def l1266 (x : Fin 36 → ℝ) : ℝ := l1264 x * l1249 x + l1265 x * l1254 x

/-- `v_[218]` (HyQForwardKinJacForward.cpp:1267). -/
def l1267 (x : Fin 36 → ℝ) : ℝ := l426 x * l438 x

/-- `v_[187]` (HyQForwardKinJacForward.cpp:1268). -/
def l1268 (x : Fin 36 → ℝ) : ℝ := l441 x * l445 x

/-- `jac[567]` (HyQForwardKinJacForward.cpp:1269). -/
def l1269 (x : Fin 36 → ℝ) : ℝ := l1267 x + l1268 x

/-- `jac[521]` (HyQForwardKinJacForward.cpp:1270). -/
def l1270 (x : Fin 36 → ℝ) : ℝ := l1267 x - l1268 x

/-- `v_[187]` (HyQForwardKinJacForward.cpp:1271). -/
def l1271 (x : Fin 36 → ℝ) : ℝ := (33 / 100) * l1248 x

/-- `v_[218]` (HyQForwardKinJacForward.cpp:1272). -/
def l1272 (x : Fin 36 → ℝ) : ℝ := (33 / 100) * l1253 x * l383 x * l465 x - (33 / 100) * l1253 x * l387 x * l389 x - (7 / 20) * l1253 x * l387 x - (2 / 25) * l1253 x

/-- `v_[187]` (HyQForwardKinJacForward.cpp:1273). -/
def l1273 (x : Fin 36 → ℝ) : ℝ := (l1271 x * l387 x * l385 x + (33 / 100) * l1248 x * l383 x * l389 x) * x 32 + (l1271 x * l383 x * l389 x + (33 / 100) * l1248 x * l387 x * l385 x + (7 / 20) * l1248 x * l383 x) * x 31 + ((33 / 100) * l1253 x * l387 x * l389 x +  - (33 / 100) * l1253 x * l383 x * l385 x + (7 / 20) * l1253 x * l387 x + (2 / 25) * l1253 x) * x 30 + x 18 * l1272 x

/-- `v_[209]` (HyQForwardKinJacForward.cpp:1274). -/
def l1274 (x : Fin 36 → ℝ) : ℝ := l441 x * l438 x

/-- `v_[237]` (HyQForwardKinJacForward.cpp:1275). -/
def l1275 (x : Fin 36 → ℝ) : ℝ := l426 x * l445 x

/-- `jac[543]` (HyQForwardKinJacForward.cpp:1276). -/
def l1276 (x : Fin 36 → ℝ) : ℝ := l1274 x - l1275 x

/-- `jac[520]` (HyQForwardKinJacForward.cpp:1277). -/
def l1277 (x : Fin 36 → ℝ) : ℝ := l1274 x + l1275 x

/-- `jac[735]` (HyQForwardKinJacForward.cpp:1278). -/
def l1278 (x : Fin 36 → ℝ) : ℝ := l1269 x * l462 x + l1276 x * l491 x

/-- `v_[237]` (HyQForwardKinJacForward.cpp:1279). -/
def l1279 (x : Fin 36 → ℝ) : ℝ := (33 / 100) * l1253 x

/-- `v_[209]` (HyQForwardKinJacForward.cpp:1280). -/
def l1280 (x : Fin 36 → ℝ) : ℝ := (33 / 100) * l1248 x * l383 x * l465 x - (33 / 100) * l1248 x * l387 x * l389 x - (7 / 20) * l1248 x * l387 x - (2 / 25) * l1248 x

/-- `v_[237]` (HyQForwardKinJacForward.cpp:1281). -/
def l1281 (x : Fin 36 → ℝ) : ℝ := (l1279 x * l387 x * l385 x + (33 / 100) * l1253 x * l383 x * l389 x) * x 32 + (l1279 x * l383 x * l389 x + (33 / 100) * l1253 x * l387 x * l385 x + (7 / 20) * l1253 x * l383 x) * x 31 + ((33 / 100) * l1248 x * l383 x * l385 x - (33 / 100) * l1248 x * l387 x * l389 x - (7 / 20) * l1248 x * l387 x - (2 / 25) * l1248 x) * x 30 - x 18 * l1280 x

/-- `v_[265]` (HyQForwardKinJacForward.cpp:1282). -/
def l1282 (x : Fin 36 → ℝ) : ℝ := l426 x * l425 x

/-- `v_[276]` (HyQForwardKinJacForward.cpp:1283). -/
def l1283 (x : Fin 36 → ℝ) : ℝ := l441 x * l440 x

/-- `jac[519]` (HyQForwardKinJacForward.cpp:1284). -/
def l1284 (x : Fin 36 → ℝ) : ℝ := 1 - l1282 x - l1283 x

/-- `jac[759]` (HyQForwardKinJacForward.cpp:1285). -/
def l1285 (x : Fin 36 → ℝ) : ℝ := l1269 x * l456 x + l1276 x * l485 x + l1284 x * l506 x

/-- `jac[783]` (HyQForwardKinJacForward.cpp:1286). -/
def l1286 (x : Fin 36 → ℝ) : ℝ := l1269 x * l451 x + l1276 x * l480 x + l1284 x * l503 x

/-- `v_[209]` (HyQForwardKinJacForward.cpp:1287). -/
def l1287 (x : Fin 36 → ℝ) : ℝ := x 19 * l1280 x - x 20 * l1272 x

/-- `jac[303]` (HyQForwardKinJacForward.cpp:1288). -/
def l1288 (x : Fin 36 → ℝ) : ℝ := l1269 x * l1273 x + l1276 x * l1281 x + l1284 x * l1287 x

/-- `v_[275]` (HyQForwardKinJacForward.cpp:1289). -/
def l1289 (x : Fin 36 → ℝ) : ℝ := l426 x * l440 x

/-- `v_[263]` (HyQForwardKinJacForward.cpp:1290). -/
def l1290 (x : Fin 36 → ℝ) : ℝ := l510 x * l445 x

/-- `jac[568]` (HyQForwardKinJacForward.cpp:1291). -/
def l1291 (x : Fin 36 → ℝ) : ℝ := l1289 x - l1290 x

/-- `jac[545]` (HyQForwardKinJacForward.cpp:1292). -/
def l1292 (x : Fin 36 → ℝ) : ℝ := l1289 x + l1290 x

/-- `v_[272]` (HyQForwardKinJacForward.cpp:1293). -/
def l1293 (x : Fin 36 → ℝ) : ℝ := l510 x * l438 x

/-- `jac[544]` (HyQForwardKinJacForward.cpp:1294). -/
def l1294 (x : Fin 36 → ℝ) : ℝ := 1 - l1282 x - l1293 x

/-- `jac[304]` (HyQForwardKinJacForward.cpp:1295). -/
def l1295 (x : Fin 36 → ℝ) : ℝ := l1291 x * l1273 x + l1294 x * l1281 x + l1277 x * l1287 x

/-- `jac[569]` (HyQForwardKinJacForward.cpp:1296). -/
def l1296 (x : Fin 36 → ℝ) : ℝ := 1 - l1283 x - l1293 x

/-- `jac[305]` (HyQForwardKinJacForward.cpp:1297). -/
def l1297 (x : Fin 36 → ℝ) : ℝ := l1296 x * l1273 x + l1292 x * l1281 x + l1270 x * l1287 x

/-- `jac[736]` (HyQForwardKinJacForward.cpp:1298). -/
def l1298 (x : Fin 36 → ℝ) : ℝ := l1291 x * l462 x + l1294 x * l491 x

/-- `jac[737]` (HyQForwardKinJacForward.cpp:1299). -/
def l1299 (x : Fin 36 → ℝ) : ℝ := l1296 x * l462 x + l1292 x * l491 x

/-- `jac[760]` (HyQForwardKinJacForward.cpp:1300). -/
def l1300 (x : Fin 36 → ℝ) : ℝ := l1291 x * l456 x + l1294 x * l485 x + l1277 x * l506 x

/-- `jac[761]` (HyQForwardKinJacForward.cpp:1301). -/
def l1301 (x : Fin 36 → ℝ) : ℝ := l1296 x * l456 x + l1292 x * l485 x + l1270 x * l506 x

/-- `jac[784]` (HyQForwardKinJacForward.cpp:1302). -/
def l1302 (x : Fin 36 → ℝ) : ℝ := l1291 x * l451 x + l1294 x * l480 x + l1277 x * l503 x

/-- `jac[785]` (HyQForwardKinJacForward.cpp:1303). -/
def l1303 (x : Fin 36 → ℝ) : ℝ := l1296 x * l451 x + l1292 x * l480 x + l1270 x * l503 x

/-- `v_[330]` (HyQForwardKinJacForward.cpp:1304). -/
def l1304 (x : Fin 36 → ℝ) : ℝ := Real.cos (x 13)

/-- `v_[311]` (HyQForwardKinJacForward.cpp:1305). -/
def l1305 (x : Fin 36 → ℝ) : ℝ := -1 * Real.sin (x 13)

/-- `v_[249]` (HyQForwardKinJacForward.cpp:1306). -/
def l1306 (x : Fin 36 → ℝ) : ℝ := l382 x * l1304 x * l385 x - l386 x * l1305 x * l389 x - l390 x * l1305 x

/-- `v_[258]` (HyQForwardKinJacForward.cpp:1307). -/
def l1307 (x : Fin 36 → ℝ) : ℝ := l395 x * l1304 x * l385 x - l397 x * l1305 x * l389 x - l399 x * l1305 x

/-- `v_[238]` (HyQForwardKinJacForward.cpp:1308). -/
def l1308 (x : Fin 36 → ℝ) : ℝ := 1 - l1259 x - l1263 x

/-- `v_[228]` (HyQForwardKinJacForward.cpp:1309). -/
def l1309 (x : Fin 36 → ℝ) : ℝ := -(33 / 100) * l1305 x * l385 x - (33 / 100) * l1304 x * l389 x - (7 / 20) * l1304 x

/-- `jac[324]` (HyQForwardKinJacForward.cpp:1310). -/
def l1310 (x : Fin 36 → ℝ) : ℝ := l1247 x * l1306 x + l1252 x * l1307 x + l1308 x * l1309 x

/-- `v_[222]` (HyQForwardKinJacForward.cpp:1311). -/
def l1311 (x : Fin 36 → ℝ) : ℝ := l1250 x + l1251 x

/-- `jac[325]` (HyQForwardKinJacForward.cpp:1312). -/
def l1312 (x : Fin 36 → ℝ) : ℝ := l1258 x * l1306 x + l1261 x * l1307 x + l1311 x * l1309 x

/-- `v_[192]` (HyQForwardKinJacForward.cpp:1313). -/
def l1313 (x : Fin 36 → ℝ) : ℝ := l1245 x - l1246 x

/-- `jac[326]` (HyQForwardKinJacForward.cpp:1314). -/
def l1314 (x : Fin 36 → ℝ) : ℝ := l1264 x * l1306 x + l1265 x * l1307 x + l1313 x * l1309 x

/-- `v_[299]` (HyQForwardKinJacForward.cpp:1315). -/
def l1315 (x : Fin 36 → ℝ) : ℝ := l463 x * l1304 x * l465 x - l466 x * l1305 x * l389 x - l468 x * l1305 x

/-- `v_[297]` (HyQForwardKinJacForward.cpp:1316). -/
def l1316 (x : Fin 36 → ℝ) : ℝ := -(33 / 100) * l1305 x * l465 x - (33 / 100) * l1304 x * l389 x - (7 / 20) * l1304 x

/-- `v_[292]` (HyQForwardKinJacForward.cpp:1317). -/
def l1317 (x : Fin 36 → ℝ) : ℝ := (l447 x * l1305 x * l385 x + l449 x * l1304 x * l389 x) * x 32 + (l447 x * l1304 x * l389 x + l453 x * l1305 x * l385 x + l455 x * l1304 x) * x 31 + (l457 x * l1305 x * l389 x + l459 x * l1304 x * l385 x + l461 x * l1305 x) * x 30 + x 18 * l1315 x - x 19 * l1316 x

/-- `v_[326]` (HyQForwardKinJacForward.cpp:1318). -/
def l1318 (x : Fin 36 → ℝ) : ℝ := l492 x * l1304 x * l465 x - l494 x * l1305 x * l389 x - l496 x * l1305 x

/-- `v_[297]` (HyQForwardKinJacForward.cpp:1319). -/
def l1319 (x : Fin 36 → ℝ) : ℝ := (l476 x * l1305 x * l385 x + l478 x * l1304 x * l389 x) * x 32 + (l476 x * l1304 x * l389 x + l482 x * l1305 x * l385 x + l484 x * l1304 x) * x 31 + (l486 x * l1304 x * l385 x - l488 x * l1305 x * l389 x - l490 x * l1305 x) * x 30 + x 20 * l1316 x - x 18 * l1318 x

/-- `v_[326]` (HyQForwardKinJacForward.cpp:1320). -/
def l1320 (x : Fin 36 → ℝ) : ℝ := ((33 / 100) * l1304 x * l385 x - (33 / 100) * l1305 x * l389 x) * x 32 + ((33 / 100) * l1304 x * l385 x - (33 / 100) * l1305 x * l389 x - (7 / 20) * l1305 x) * x 31 + x 19 * l1318 x - x 20 * l1315 x

/-- `jac[327]` (HyQForwardKinJacForward.cpp:1321). -/
def l1321 (x : Fin 36 → ℝ) : ℝ := l1269 x * l1317 x + l1276 x * l1319 x + l1284 x * l1320 x

/-- `jac[328]` (HyQForwardKinJacForward.cpp:1322). -/
def l1322 (x : Fin 36 → ℝ) : ℝ := l1291 x * l1317 x + l1294 x * l1319 x + l1277 x * l1320 x

/-- `jac[329]` (HyQForwardKinJacForward.cpp:1323). -/
def l1323 (x : Fin 36 → ℝ) : ℝ := l1296 x * l1317 x + l1292 x * l1319 x + l1270 x * l1320 x

/-- `v_[326]` (HyQForwardKinJacForward.cpp:1324). -/
def l1324 (x : Fin 36 → ℝ) : ℝ := Real.cos (x 14)

/-- `v_[297]` (HyQForwardKinJacForward.cpp:1325). -/
def l1325 (x : Fin 36 → ℝ) : ℝ := -1 * Real.sin (x 14)

/-- `v_[247]` (HyQForwardKinJacForward.cpp:1326). -/
def l1326 (x : Fin 36 → ℝ) : ℝ := l384 x * l1324 x - l388 x * l1325 x

/-- `v_[257]` (HyQForwardKinJacForward.cpp:1327). -/
def l1327 (x : Fin 36 → ℝ) : ℝ := l396 x * l1324 x - l398 x * l1325 x

/-- `v_[261]` (HyQForwardKinJacForward.cpp:1328). -/
def l1328 (x : Fin 36 → ℝ) : ℝ := l403 x * l1324 x - l404 x * l1325 x

/-- `jac[348]` (HyQForwardKinJacForward.cpp:1329). -/
def l1329 (x : Fin 36 → ℝ) : ℝ := l1247 x * l1326 x + l1252 x * l1327 x + l1308 x * l1328 x

/-- `jac[349]` (HyQForwardKinJacForward.cpp:1330). -/
def l1330 (x : Fin 36 → ℝ) : ℝ := l1258 x * l1326 x + l1261 x * l1327 x + l1311 x * l1328 x

/-- `jac[350]` (HyQForwardKinJacForward.cpp:1331). -/
def l1331 (x : Fin 36 → ℝ) : ℝ := l1264 x * l1326 x + l1265 x * l1327 x + l1313 x * l1328 x

/-- `v_[261]` (HyQForwardKinJacForward.cpp:1332). -/
def l1332 (x : Fin 36 → ℝ) : ℝ := Real.cos (x 14)

/-- `v_[298]` (HyQForwardKinJacForward.cpp:1333). -/
def l1333 (x : Fin 36 → ℝ) : ℝ := l464 x * l1332 x - l467 x * l1325 x

/-- `v_[302]` (HyQForwardKinJacForward.cpp:1334). -/
def l1334 (x : Fin 36 → ℝ) : ℝ := l470 x * l1332 x - l471 x * l1325 x

/-- `v_[291]` (HyQForwardKinJacForward.cpp:1335). -/
def l1335 (x : Fin 36 → ℝ) : ℝ := (l448 x * l1324 x + l450 x * l1325 x) * x 32 + (l452 x * l1325 x + l454 x * l1324 x) * x 31 + (l458 x * l1325 x + l460 x * l1324 x) * x 30 + x 18 * l1333 x - x 19 * l1334 x

/-- `v_[261]` (HyQForwardKinJacForward.cpp:1336). -/
def l1336 (x : Fin 36 → ℝ) : ℝ := l493 x * l1332 x - l495 x * l1325 x

/-- `v_[302]` (HyQForwardKinJacForward.cpp:1337). -/
def l1337 (x : Fin 36 → ℝ) : ℝ := (l477 x * l1324 x + l479 x * l1325 x) * x 32 + (l481 x * l1325 x + l483 x * l1324 x) * x 31 + (l487 x * l1324 x - l489 x * l1325 x) * x 30 + x 20 * l1334 x - x 18 * l1336 x

/-- `v_[261]` (HyQForwardKinJacForward.cpp:1338). -/
def l1338 (x : Fin 36 → ℝ) : ℝ := (l501 x * l1324 x - l502 x * l1325 x) * x 32 + (l504 x * l1324 x - l505 x * l1325 x) * x 31 + x 19 * l1336 x - x 20 * l1333 x

/-- `jac[351]` (HyQForwardKinJacForward.cpp:1339). -/
def l1339 (x : Fin 36 → ℝ) : ℝ := l1269 x * l1335 x + l1276 x * l1337 x + l1284 x * l1338 x

/-- `jac[352]` (HyQForwardKinJacForward.cpp:1340). -/
def l1340 (x : Fin 36 → ℝ) : ℝ := l1291 x * l1335 x + l1294 x * l1337 x + l1277 x * l1338 x

/-- `jac[353]` (HyQForwardKinJacForward.cpp:1341). -/
def l1341 (x : Fin 36 → ℝ) : ℝ := l1296 x * l1335 x + l1292 x * l1337 x + l1270 x * l1338 x

/-- `v_[261]` (HyQForwardKinJacForward.cpp:1342). -/
def l1342 (x : Fin 36 → ℝ) : ℝ := l528 x * l540 x

/-- `v_[302]` (HyQForwardKinJacForward.cpp:1343). -/
def l1343 (x : Fin 36 → ℝ) : ℝ := l543 x * l547 x

/-- `v_[291]` (HyQForwardKinJacForward.cpp:1344). -/
def l1344 (x : Fin 36 → ℝ) : ℝ := l1342 x + l1343 x

/-- `v_[298]` (HyQForwardKinJacForward.cpp:1345). -/
def l1345 (x : Fin 36 → ℝ) : ℝ := -1 * Real.sin (x 15)

/-- `v_[297]` (HyQForwardKinJacForward.cpp:1346). -/
def l1346 (x : Fin 36 → ℝ) : ℝ := (33 / 100) * l1345 x * l551 x * l553 x - (33 / 100) * l1345 x * l555 x * l557 x - (7 / 20) * l1345 x * l555 x - (2 / 25) * l1345 x

/-- `v_[326]` (HyQForwardKinJacForward.cpp:1347). -/
def l1347 (x : Fin 36 → ℝ) : ℝ := l543 x * l540 x

/-- `v_[332]` (HyQForwardKinJacForward.cpp:1348). -/
def l1348 (x : Fin 36 → ℝ) : ℝ := l528 x * l547 x

/-- `v_[331]` (HyQForwardKinJacForward.cpp:1349). -/
def l1349 (x : Fin 36 → ℝ) : ℝ := l1347 x - l1348 x

/-- `v_[329]` (HyQForwardKinJacForward.cpp:1350). -/
def l1350 (x : Fin 36 → ℝ) : ℝ := Real.cos (x 15)

/-- `v_[328]` (HyQForwardKinJacForward.cpp:1351). -/
def l1351 (x : Fin 36 → ℝ) : ℝ := (33 / 100) * l1350 x * l555 x * l557 x +  - (33 / 100) * l1350 x * l551 x * l553 x + (7 / 20) * l1350 x * l555 x + (2 / 25) * l1350 x

/-- `jac[378]` (HyQForwardKinJacForward.cpp:1352). -/
def l1352 (x : Fin 36 → ℝ) : ℝ := l1344 x * l1346 x + l1349 x * l1351 x

/-- `v_[319]` (HyQForwardKinJacForward.cpp:1353). -/
def l1353 (x : Fin 36 → ℝ) : ℝ := l528 x * l542 x

/-- `v_[335]` (HyQForwardKinJacForward.cpp:1354). -/
def l1354 (x : Fin 36 → ℝ) : ℝ := l576 x * l547 x

/-- `v_[317]` (HyQForwardKinJacForward.cpp:1355). -/
def l1355 (x : Fin 36 → ℝ) : ℝ := l1353 x - l1354 x

/-- `v_[338]` (HyQForwardKinJacForward.cpp:1356). -/
def l1356 (x : Fin 36 → ℝ) : ℝ := l528 x * l527 x

/-- `v_[344]` (HyQForwardKinJacForward.cpp:1357). -/
def l1357 (x : Fin 36 → ℝ) : ℝ := l576 x * l540 x

/-- `v_[345]` (HyQForwardKinJacForward.cpp:1358). -/
def l1358 (x : Fin 36 → ℝ) : ℝ := 1 - l1356 x - l1357 x

/-- `jac[379]` (HyQForwardKinJacForward.cpp:1359). -/
def l1359 (x : Fin 36 → ℝ) : ℝ := l1355 x * l1346 x + l1358 x * l1351 x

/-- `v_[348]` (HyQForwardKinJacForward.cpp:1360). -/
def l1360 (x : Fin 36 → ℝ) : ℝ := l543 x * l542 x

/-- `v_[344]` (HyQForwardKinJacForward.cpp:1361). -/
def l1361 (x : Fin 36 → ℝ) : ℝ := 1 - l1360 x - l1357 x

/-- `v_[335]` (HyQForwardKinJacForward.cpp:1362). -/
def l1362 (x : Fin 36 → ℝ) : ℝ := l1353 x + l1354 x

/-- `jac[380]` (HyQForwardKinJacForward.cpp:1363). -/
def l1363 (x : Fin 36 → ℝ) : ℝ := l1361 x * l1346 x + l1362 x * l1351 x

/-- `v_[328]` (HyQForwardKinJacForward.cpp:1364). -/
def l1364 (x : Fin 36 → ℝ) : ℝ := l594 x * l606 x

/-- `v_[297]` (HyQForwardKinJacForward.cpp:1365). -/
def l1365 (x : Fin 36 → ℝ) : ℝ := l609 x * l613 x

/-- `jac[573]` (HyQForwardKinJacForward.cpp:1366). -/
def l1366 (x : Fin 36 → ℝ) : ℝ := l1364 x + l1365 x

/-- `jac[527]` (HyQForwardKinJacForward.cpp:1367). -/
def l1367 (x : Fin 36 → ℝ) : ℝ := l1364 x - l1365 x

/-- `v_[297]` (HyQForwardKinJacForward.cpp:1368). -/
def l1368 (x : Fin 36 → ℝ) : ℝ := (33 / 100) * l1345 x

/-- `v_[328]` (HyQForwardKinJacForward.cpp:1369). -/
def l1369 (x : Fin 36 → ℝ) : ℝ := -(33 / 100) * l1350 x

/-- `v_[319]` (HyQForwardKinJacForward.cpp:1370). -/
def l1370 (x : Fin 36 → ℝ) : ℝ := (33 / 100) * l1350 x * l555 x * l557 x +  - (33 / 100) * l1350 x * l551 x * l553 x + (7 / 20) * l1350 x * l555 x + (2 / 25) * l1350 x

/-- `v_[297]` (HyQForwardKinJacForward.cpp:1371). -/
def l1371 (x : Fin 36 → ℝ) : ℝ := (l1368 x * l555 x * l553 x + (33 / 100) * l1345 x * l551 x * l557 x) * x 35 + (l1368 x * l551 x * l557 x + (33 / 100) * l1345 x * l555 x * l553 x + (7 / 20) * l1345 x * l551 x) * x 34 + ((33 / 100) * l1350 x * l555 x * l557 x + l1369 x * l551 x * l553 x + (7 / 20) * l1350 x * l555 x + (2 / 25) * l1350 x) * x 33 + x 18 * l1370 x

/-- `v_[347]` (HyQForwardKinJacForward.cpp:1372). -/
def l1372 (x : Fin 36 → ℝ) : ℝ := l609 x * l606 x

/-- `v_[337]` (HyQForwardKinJacForward.cpp:1373). -/
def l1373 (x : Fin 36 → ℝ) : ℝ := l594 x * l613 x

/-- `jac[549]` (HyQForwardKinJacForward.cpp:1374). -/
def l1374 (x : Fin 36 → ℝ) : ℝ := l1372 x - l1373 x

/-- `jac[526]` (HyQForwardKinJacForward.cpp:1375). -/
def l1375 (x : Fin 36 → ℝ) : ℝ := l1372 x + l1373 x

/-- `jac[813]` (HyQForwardKinJacForward.cpp:1376). -/
def l1376 (x : Fin 36 → ℝ) : ℝ := l1366 x * l630 x + l1374 x * l658 x

/-- `v_[337]` (HyQForwardKinJacForward.cpp:1377). -/
def l1377 (x : Fin 36 → ℝ) : ℝ := (33 / 100) * l1345 x * l551 x * l553 x - (33 / 100) * l1345 x * l555 x * l557 x - (7 / 20) * l1345 x * l555 x - (2 / 25) * l1345 x

/-- `v_[328]` (HyQForwardKinJacForward.cpp:1378). -/
def l1378 (x : Fin 36 → ℝ) : ℝ := (-(33 / 100) * l1350 x * l555 x * l553 x - (33 / 100) * l1350 x * l551 x * l557 x) * x 35 + (l1369 x * l555 x * l553 x - (33 / 100) * l1350 x * l551 x * l557 x - (7 / 20) * l1350 x * l551 x) * x 34 + ((33 / 100) * l1345 x * l555 x * l557 x +  - (33 / 100) * l1345 x * l551 x * l553 x + (7 / 20) * l1345 x * l555 x + (2 / 25) * l1345 x) * x 33 - x 18 * l1377 x

/-- `v_[375]` (HyQForwardKinJacForward.cpp:1379). -/
def l1379 (x : Fin 36 → ℝ) : ℝ := l594 x * l593 x

/-- `v_[386]` (HyQForwardKinJacForward.cpp:1380). -/
def l1380 (x : Fin 36 → ℝ) : ℝ := l609 x * l608 x

/-- `jac[525]` (HyQForwardKinJacForward.cpp:1381). -/
def l1381 (x : Fin 36 → ℝ) : ℝ := 1 - l1379 x - l1380 x

/-- `jac[837]` (HyQForwardKinJacForward.cpp:1382). -/
def l1382 (x : Fin 36 → ℝ) : ℝ := l1366 x * l624 x + l1374 x * l652 x + l1381 x * l673 x

/-- `jac[861]` (HyQForwardKinJacForward.cpp:1383). -/
def l1383 (x : Fin 36 → ℝ) : ℝ := l1366 x * l619 x + l1374 x * l647 x + l1381 x * l670 x

/-- `v_[337]` (HyQForwardKinJacForward.cpp:1384). -/
def l1384 (x : Fin 36 → ℝ) : ℝ := x 19 * l1377 x - x 20 * l1370 x

/-- `jac[381]` (HyQForwardKinJacForward.cpp:1385). -/
def l1385 (x : Fin 36 → ℝ) : ℝ := l1366 x * l1371 x + l1374 x * l1378 x + l1381 x * l1384 x

/-- `v_[385]` (HyQForwardKinJacForward.cpp:1386). -/
def l1386 (x : Fin 36 → ℝ) : ℝ := l594 x * l608 x

/-- `v_[373]` (HyQForwardKinJacForward.cpp:1387). -/
def l1387 (x : Fin 36 → ℝ) : ℝ := l677 x * l613 x

/-- `jac[574]` (HyQForwardKinJacForward.cpp:1388). -/
def l1388 (x : Fin 36 → ℝ) : ℝ := l1386 x - l1387 x

/-- `jac[551]` (HyQForwardKinJacForward.cpp:1389). -/
def l1389 (x : Fin 36 → ℝ) : ℝ := l1386 x + l1387 x

/-- `v_[382]` (HyQForwardKinJacForward.cpp:1390). -/
def l1390 (x : Fin 36 → ℝ) : ℝ := l677 x * l606 x

/-- `jac[550]` (HyQForwardKinJacForward.cpp:1391). -/
def l1391 (x : Fin 36 → ℝ) : ℝ := 1 - l1379 x - l1390 x

/-- `jac[382]` (HyQForwardKinJacForward.cpp:1392). -/
def l1392 (x : Fin 36 → ℝ) : ℝ := l1388 x * l1371 x + l1391 x * l1378 x + l1375 x * l1384 x

/-- `jac[575]` (HyQForwardKinJacForward.cpp:1393). -/
def l1393 (x : Fin 36 → ℝ) : ℝ := 1 - l1380 x - l1390 x

/-- `jac[383]` (HyQForwardKinJacForward.cpp:1394). -/
def l1394 (x : Fin 36 → ℝ) : ℝ := l1393 x * l1371 x + l1389 x * l1378 x + l1367 x * l1384 x

/-- `jac[814]` (HyQForwardKinJacForward.cpp:1395). -/
def l1395 (x : Fin 36 → ℝ) : ℝ := l1388 x * l630 x + l1391 x * l658 x

/-- `jac[815]` (HyQForwardKinJacForward.cpp:1396). -/
def l1396 (x : Fin 36 → ℝ) : ℝ := l1393 x * l630 x + l1389 x * l658 x

/-- `jac[838]` (HyQForwardKinJacForward.cpp:1397). -/
def l1397 (x : Fin 36 → ℝ) : ℝ := l1388 x * l624 x + l1391 x * l652 x + l1375 x * l673 x

/-- `jac[839]` (HyQForwardKinJacForward.cpp:1398). -/
def l1398 (x : Fin 36 → ℝ) : ℝ := l1393 x * l624 x + l1389 x * l652 x + l1367 x * l673 x

/-- `jac[862]` (HyQForwardKinJacForward.cpp:1399). -/
def l1399 (x : Fin 36 → ℝ) : ℝ := l1388 x * l619 x + l1391 x * l647 x + l1375 x * l670 x

/-- `jac[863]` (HyQForwardKinJacForward.cpp:1400). -/
def l1400 (x : Fin 36 → ℝ) : ℝ := l1393 x * l619 x + l1389 x * l647 x + l1367 x * l670 x

/-- `v_[439]` (HyQForwardKinJacForward.cpp:1401). -/
def l1401 (x : Fin 36 → ℝ) : ℝ := Real.cos (x 16)

/-- `v_[420]` (HyQForwardKinJacForward.cpp:1402). -/
def l1402 (x : Fin 36 → ℝ) : ℝ := -1 * Real.sin (x 16)

/-- `v_[359]` (HyQForwardKinJacForward.cpp:1403). -/
def l1403 (x : Fin 36 → ℝ) : ℝ := l550 x * l1401 x * l553 x - l554 x * l1402 x * l557 x - l558 x * l1402 x

/-- `v_[368]` (HyQForwardKinJacForward.cpp:1404). -/
def l1404 (x : Fin 36 → ℝ) : ℝ := l563 x * l1402 x * l557 x + l565 x * l1401 x * l553 x + l567 x * l1402 x

/-- `v_[348]` (HyQForwardKinJacForward.cpp:1405). -/
def l1405 (x : Fin 36 → ℝ) : ℝ := 1 - l1356 x - l1360 x

/-- `v_[338]` (HyQForwardKinJacForward.cpp:1406). -/
def l1406 (x : Fin 36 → ℝ) : ℝ := -(33 / 100) * l1402 x * l553 x - (33 / 100) * l1401 x * l557 x - (7 / 20) * l1401 x

/-- `jac[402]` (HyQForwardKinJacForward.cpp:1407). -/
def l1407 (x : Fin 36 → ℝ) : ℝ := l1344 x * l1403 x + l1349 x * l1404 x + l1405 x * l1406 x

/-- `v_[332]` (HyQForwardKinJacForward.cpp:1408). -/
def l1408 (x : Fin 36 → ℝ) : ℝ := l1347 x + l1348 x

/-- `jac[403]` (HyQForwardKinJacForward.cpp:1409). -/
def l1409 (x : Fin 36 → ℝ) : ℝ := l1355 x * l1403 x + l1358 x * l1404 x + l1408 x * l1406 x

/-- `v_[302]` (HyQForwardKinJacForward.cpp:1410). -/
def l1410 (x : Fin 36 → ℝ) : ℝ := l1342 x - l1343 x

/-- `jac[404]` (HyQForwardKinJacForward.cpp:1411). -/
def l1411 (x : Fin 36 → ℝ) : ℝ := l1361 x * l1403 x + l1362 x * l1404 x + l1410 x * l1406 x

/-- `v_[408]` (HyQForwardKinJacForward.cpp:1412). -/
def l1412 (x : Fin 36 → ℝ) : ℝ := l631 x * l1402 x * l557 x + l633 x * l1401 x * l553 x + l635 x * l1402 x

/-- `v_[406]` (HyQForwardKinJacForward.cpp:1413). -/
def l1413 (x : Fin 36 → ℝ) : ℝ := -(33 / 100) * l1402 x * l553 x - (33 / 100) * l1401 x * l557 x - (7 / 20) * l1401 x

/-- `v_[402]` (HyQForwardKinJacForward.cpp:1414). -/
def l1414 (x : Fin 36 → ℝ) : ℝ := (l615 x * l1402 x * l553 x + l617 x * l1401 x * l557 x) * x 35 + (l615 x * l1401 x * l557 x + l621 x * l1402 x * l553 x + l623 x * l1401 x) * x 34 + (l625 x * l1402 x * l557 x + l627 x * l1401 x * l553 x + l629 x * l1402 x) * x 33 + x 18 * l1412 x - x 19 * l1413 x

/-- `v_[435]` (HyQForwardKinJacForward.cpp:1415). -/
def l1415 (x : Fin 36 → ℝ) : ℝ := l659 x * l1401 x * l553 x - l661 x * l1402 x * l557 x - l663 x * l1402 x

/-- `v_[406]` (HyQForwardKinJacForward.cpp:1416). -/
def l1416 (x : Fin 36 → ℝ) : ℝ := (l643 x * l1402 x * l553 x - l645 x * l1401 x * l557 x) * x 35 + (l627 x * l1402 x * l553 x - l649 x * l1401 x * l557 x - l651 x * l1401 x) * x 34 + (l653 x * l1402 x * l557 x + l655 x * l1401 x * l553 x + l657 x * l1402 x) * x 33 + x 20 * l1413 x - x 18 * l1415 x

/-- `v_[435]` (HyQForwardKinJacForward.cpp:1417). -/
def l1417 (x : Fin 36 → ℝ) : ℝ := ((33 / 100) * l1401 x * l553 x - (33 / 100) * l1402 x * l557 x) * x 35 + ((33 / 100) * l1401 x * l553 x - (33 / 100) * l1402 x * l557 x - (7 / 20) * l1402 x) * x 34 + x 19 * l1415 x - x 20 * l1412 x

/-- `jac[405]` (HyQForwardKinJacForward.cpp:1418). -/
def l1418 (x : Fin 36 → ℝ) : ℝ := l1366 x * l1414 x + l1374 x * l1416 x + l1381 x * l1417 x

/-- `jac[406]` (HyQForwardKinJacForward.cpp:1419). -/
def l1419 (x : Fin 36 → ℝ) : ℝ := l1388 x * l1414 x + l1391 x * l1416 x + l1375 x * l1417 x

/-- `jac[407]` (HyQForwardKinJacForward.cpp:1420). -/
def l1420 (x : Fin 36 → ℝ) : ℝ := l1393 x * l1414 x + l1389 x * l1416 x + l1367 x * l1417 x

/-- `v_[435]` (HyQForwardKinJacForward.cpp:1421). -/
def l1421 (x : Fin 36 → ℝ) : ℝ := Real.cos (x 17)

/-- `v_[406]` (HyQForwardKinJacForward.cpp:1422). -/
def l1422 (x : Fin 36 → ℝ) : ℝ := -1 * Real.sin (x 17)

/-- `v_[357]` (HyQForwardKinJacForward.cpp:1423). -/
def l1423 (x : Fin 36 → ℝ) : ℝ := l552 x * l1421 x - l556 x * l1422 x

/-- `v_[367]` (HyQForwardKinJacForward.cpp:1424). -/
def l1424 (x : Fin 36 → ℝ) : ℝ := l564 x * l1422 x + l566 x * l1421 x

/-- `v_[371]` (HyQForwardKinJacForward.cpp:1425). -/
def l1425 (x : Fin 36 → ℝ) : ℝ := l571 x * l1421 x - l572 x * l1422 x

/-- `jac[426]` (HyQForwardKinJacForward.cpp:1426). -/
def l1426 (x : Fin 36 → ℝ) : ℝ := l1344 x * l1423 x + l1349 x * l1424 x + l1405 x * l1425 x

/-- `jac[427]` (HyQForwardKinJacForward.cpp:1427). -/
def l1427 (x : Fin 36 → ℝ) : ℝ := l1355 x * l1423 x + l1358 x * l1424 x + l1408 x * l1425 x

/-- `jac[428]` (HyQForwardKinJacForward.cpp:1428). -/
def l1428 (x : Fin 36 → ℝ) : ℝ := l1361 x * l1423 x + l1362 x * l1424 x + l1410 x * l1425 x

/-- `v_[407]` (HyQForwardKinJacForward.cpp:1429). -/
def l1429 (x : Fin 36 → ℝ) : ℝ := l632 x * l1422 x + l634 x * l1421 x

/-- `v_[411]` (HyQForwardKinJacForward.cpp:1430). -/
def l1430 (x : Fin 36 → ℝ) : ℝ := l637 x * l1421 x - l638 x * l1422 x

/-- `v_[401]` (HyQForwardKinJacForward.cpp:1431). -/
def l1431 (x : Fin 36 → ℝ) : ℝ := (l616 x * l1421 x + l618 x * l1422 x) * x 35 + (l620 x * l1422 x + l622 x * l1421 x) * x 34 + (l626 x * l1422 x + l628 x * l1421 x) * x 33 + x 18 * l1429 x - x 19 * l1430 x

/-- `v_[434]` (HyQForwardKinJacForward.cpp:1432). -/
def l1432 (x : Fin 36 → ℝ) : ℝ := l660 x * l1421 x - l662 x * l1422 x

/-- `v_[411]` (HyQForwardKinJacForward.cpp:1433). -/
def l1433 (x : Fin 36 → ℝ) : ℝ := (l644 x * l1421 x - l646 x * l1422 x) * x 35 + (l648 x * l1421 x - l650 x * l1422 x) * x 34 + (l654 x * l1422 x + l656 x * l1421 x) * x 33 + x 20 * l1430 x - x 18 * l1432 x

/-- `v_[434]` (HyQForwardKinJacForward.cpp:1434). -/
def l1434 (x : Fin 36 → ℝ) : ℝ := (l668 x * l1421 x - l669 x * l1422 x) * x 35 + (l671 x * l1421 x - l672 x * l1422 x) * x 34 + x 19 * l1432 x - x 20 * l1429 x

/-- `jac[429]` (HyQForwardKinJacForward.cpp:1435). -/
def l1435 (x : Fin 36 → ℝ) : ℝ := l1366 x * l1431 x + l1374 x * l1433 x + l1381 x * l1434 x

/-- `jac[430]` (HyQForwardKinJacForward.cpp:1436). -/
def l1436 (x : Fin 36 → ℝ) : ℝ := l1388 x * l1431 x + l1391 x * l1433 x + l1375 x * l1434 x

/-- `jac[431]` (HyQForwardKinJacForward.cpp:1437). -/
def l1437 (x : Fin 36 → ℝ) : ℝ := l1393 x * l1431 x + l1389 x * l1433 x + l1367 x * l1434 x

/-- `v_[434]` (HyQForwardKinJacForward.cpp:1438). -/
def l1438 (x : Fin 36 → ℝ) : ℝ := 0 - l162 x

/-- `jac[435]` (HyQForwardKinJacForward.cpp:1439). -/
def l1439 (x : Fin 36 → ℝ) : ℝ := l1075 x * l136 x + l1082 x * l1438 x

/-- `jac[436]` (HyQForwardKinJacForward.cpp:1440). -/
def l1440 (x : Fin 36 → ℝ) : ℝ := l1098 x * l136 x + l1101 x * l1438 x

/-- `jac[437]` (HyQForwardKinJacForward.cpp:1441). -/
def l1441 (x : Fin 36 → ℝ) : ℝ := l1103 x * l136 x + l1099 x * l1438 x

/-- `v_[434]` (HyQForwardKinJacForward.cpp:1442). -/
def l1442 (x : Fin 36 → ℝ) : ℝ := 0 - l329 x

/-- `jac[441]` (HyQForwardKinJacForward.cpp:1443). -/
def l1443 (x : Fin 36 → ℝ) : ℝ := l1173 x * l301 x + l1181 x * l1442 x

/-- `jac[442]` (HyQForwardKinJacForward.cpp:1444). -/
def l1444 (x : Fin 36 → ℝ) : ℝ := l1195 x * l301 x + l1198 x * l1442 x

/-- `jac[443]` (HyQForwardKinJacForward.cpp:1445). -/
def l1445 (x : Fin 36 → ℝ) : ℝ := l1200 x * l301 x + l1196 x * l1442 x

/-- `v_[434]` (HyQForwardKinJacForward.cpp:1446). -/
def l1446 (x : Fin 36 → ℝ) : ℝ := 0 - l497 x

/-- `jac[447]` (HyQForwardKinJacForward.cpp:1447). -/
def l1447 (x : Fin 36 → ℝ) : ℝ := l1269 x * l469 x + l1276 x * l1446 x

/-- `jac[448]` (HyQForwardKinJacForward.cpp:1448). -/
def l1448 (x : Fin 36 → ℝ) : ℝ := l1291 x * l469 x + l1294 x * l1446 x

/-- `jac[449]` (HyQForwardKinJacForward.cpp:1449). -/
def l1449 (x : Fin 36 → ℝ) : ℝ := l1296 x * l469 x + l1292 x * l1446 x

/-- `v_[434]` (HyQForwardKinJacForward.cpp:1450). -/
def l1450 (x : Fin 36 → ℝ) : ℝ := 0 - l664 x

/-- `jac[453]` (HyQForwardKinJacForward.cpp:1451). -/
def l1451 (x : Fin 36 → ℝ) : ℝ := l1366 x * l636 x + l1374 x * l1450 x

/-- `jac[454]` (HyQForwardKinJacForward.cpp:1452). -/
def l1452 (x : Fin 36 → ℝ) : ℝ := l1388 x * l636 x + l1391 x * l1450 x

/-- `jac[455]` (HyQForwardKinJacForward.cpp:1453). -/
def l1453 (x : Fin 36 → ℝ) : ℝ := l1393 x * l636 x + l1389 x * l1450 x

/-- `v_[434]` (HyQForwardKinJacForward.cpp:1454). -/
def l1454 (x : Fin 36 → ℝ) : ℝ := 0 - l139 x

/-- `jac[459]` (HyQForwardKinJacForward.cpp:1455). -/
def l1455 (x : Fin 36 → ℝ) : ℝ := l1075 x * l1454 x + l1091 x * l162 x

/-- `jac[460]` (HyQForwardKinJacForward.cpp:1456). -/
def l1456 (x : Fin 36 → ℝ) : ℝ := l1098 x * l1454 x + l1083 x * l162 x

/-- `jac[461]` (HyQForwardKinJacForward.cpp:1457). -/
def l1457 (x : Fin 36 → ℝ) : ℝ := l1103 x * l1454 x + l1076 x * l162 x

/-- `v_[434]` (HyQForwardKinJacForward.cpp:1458). -/
def l1458 (x : Fin 36 → ℝ) : ℝ := 0 - l304 x

/-- `jac[465]` (HyQForwardKinJacForward.cpp:1459). -/
def l1459 (x : Fin 36 → ℝ) : ℝ := l1173 x * l1458 x + l1188 x * l329 x

/-- `jac[466]` (HyQForwardKinJacForward.cpp:1460). -/
def l1460 (x : Fin 36 → ℝ) : ℝ := l1195 x * l1458 x + l1182 x * l329 x

/-- `jac[467]` (HyQForwardKinJacForward.cpp:1461). -/
def l1461 (x : Fin 36 → ℝ) : ℝ := l1200 x * l1458 x + l1174 x * l329 x

/-- `v_[434]` (HyQForwardKinJacForward.cpp:1462). -/
def l1462 (x : Fin 36 → ℝ) : ℝ := 0 - l472 x

/-- `jac[471]` (HyQForwardKinJacForward.cpp:1463). -/
def l1463 (x : Fin 36 → ℝ) : ℝ := l1269 x * l1462 x + l1284 x * l497 x

/-- `jac[472]` (HyQForwardKinJacForward.cpp:1464). -/
def l1464 (x : Fin 36 → ℝ) : ℝ := l1291 x * l1462 x + l1277 x * l497 x

/-- `jac[473]` (HyQForwardKinJacForward.cpp:1465). -/
def l1465 (x : Fin 36 → ℝ) : ℝ := l1296 x * l1462 x + l1270 x * l497 x

/-- `v_[434]` (HyQForwardKinJacForward.cpp:1466). -/
def l1466 (x : Fin 36 → ℝ) : ℝ := 0 - l639 x

/-- `jac[477]` (HyQForwardKinJacForward.cpp:1467). -/
def l1467 (x : Fin 36 → ℝ) : ℝ := l1366 x * l1466 x + l1381 x * l664 x

/-- `jac[478]` (HyQForwardKinJacForward.cpp:1468). -/
def l1468 (x : Fin 36 → ℝ) : ℝ := l1388 x * l1466 x + l1375 x * l664 x

/-- `jac[479]` (HyQForwardKinJacForward.cpp:1469). -/
def l1469 (x : Fin 36 → ℝ) : ℝ := l1393 x * l1466 x + l1367 x * l664 x

/-- `v_[83]` (HyQForwardKinJacForward.cpp:1470). -/
def l1470 (x : Fin 36 → ℝ) : ℝ := 0 - l136 x

/-- `jac[483]` (HyQForwardKinJacForward.cpp:1471). -/
def l1471 (x : Fin 36 → ℝ) : ℝ := l1082 x * l139 x + l1091 x * l1470 x

/-- `jac[484]` (HyQForwardKinJacForward.cpp:1472). -/
def l1472 (x : Fin 36 → ℝ) : ℝ := l1101 x * l139 x + l1083 x * l1470 x

/-- `jac[485]` (HyQForwardKinJacForward.cpp:1473). -/
def l1473 (x : Fin 36 → ℝ) : ℝ := l1099 x * l139 x + l1076 x * l1470 x

/-- `v_[190]` (HyQForwardKinJacForward.cpp:1474). -/
def l1474 (x : Fin 36 → ℝ) : ℝ := 0 - l301 x

/-- `jac[489]` (HyQForwardKinJacForward.cpp:1475). -/
def l1475 (x : Fin 36 → ℝ) : ℝ := l1181 x * l304 x + l1188 x * l1474 x

/-- `jac[490]` (HyQForwardKinJacForward.cpp:1476). -/
def l1476 (x : Fin 36 → ℝ) : ℝ := l1198 x * l304 x + l1182 x * l1474 x

/-- `jac[491]` (HyQForwardKinJacForward.cpp:1477). -/
def l1477 (x : Fin 36 → ℝ) : ℝ := l1196 x * l304 x + l1174 x * l1474 x

/-- `v_[300]` (HyQForwardKinJacForward.cpp:1478). -/
def l1478 (x : Fin 36 → ℝ) : ℝ := 0 - l469 x

/-- `jac[495]` (HyQForwardKinJacForward.cpp:1479). -/
def l1479 (x : Fin 36 → ℝ) : ℝ := l1276 x * l472 x + l1284 x * l1478 x

/-- `jac[496]` (HyQForwardKinJacForward.cpp:1480). -/
def l1480 (x : Fin 36 → ℝ) : ℝ := l1294 x * l472 x + l1277 x * l1478 x

/-- `jac[497]` (HyQForwardKinJacForward.cpp:1481). -/
def l1481 (x : Fin 36 → ℝ) : ℝ := l1292 x * l472 x + l1270 x * l1478 x

/-- `v_[409]` (HyQForwardKinJacForward.cpp:1482). -/
def l1482 (x : Fin 36 → ℝ) : ℝ := 0 - l636 x

/-- `jac[501]` (HyQForwardKinJacForward.cpp:1483). -/
def l1483 (x : Fin 36 → ℝ) : ℝ := l1374 x * l639 x + l1381 x * l1482 x

/-- `jac[502]` (HyQForwardKinJacForward.cpp:1484). -/
def l1484 (x : Fin 36 → ℝ) : ℝ := l1391 x * l639 x + l1375 x * l1482 x

/-- `jac[503]` (HyQForwardKinJacForward.cpp:1485). -/
def l1485 (x : Fin 36 → ℝ) : ℝ := l1389 x * l639 x + l1367 x * l1482 x

/-- `jac[72]` (HyQForwardKinJacForward.cpp:1487). -/
def l1487 (_x : Fin 36 → ℝ) : ℝ := 1

/-- `jac[78]` (HyQForwardKinJacForward.cpp:1488). -/
def l1488 (_x : Fin 36 → ℝ) : ℝ := 1

/-- `jac[84]` (HyQForwardKinJacForward.cpp:1489). -/
def l1489 (_x : Fin 36 → ℝ) : ℝ := 1

/-- `jac[90]` (HyQForwardKinJacForward.cpp:1490). -/
def l1490 (_x : Fin 36 → ℝ) : ℝ := 1

/-- `jac[97]` (HyQForwardKinJacForward.cpp:1491). -/
def l1491 (_x : Fin 36 → ℝ) : ℝ := 1

/-- `jac[103]` (HyQForwardKinJacForward.cpp:1492). -/
def l1492 (_x : Fin 36 → ℝ) : ℝ := 1

/-- `jac[109]` (HyQForwardKinJacForward.cpp:1493). -/
def l1493 (_x : Fin 36 → ℝ) : ℝ := 1

/-- `jac[115]` (HyQForwardKinJacForward.cpp:1494). -/
def l1494 (_x : Fin 36 → ℝ) : ℝ := 1

/-- `jac[122]` (HyQForwardKinJacForward.cpp:1495). -/
def l1495 (_x : Fin 36 → ℝ) : ℝ := 1

/-- `jac[128]` (HyQForwardKinJacForward.cpp:1496). -/
def l1496 (_x : Fin 36 → ℝ) : ℝ := 1

/-- `jac[134]` (HyQForwardKinJacForward.cpp:1497). -/
def l1497 (_x : Fin 36 → ℝ) : ℝ := 1

/-- `jac[140]` (HyQForwardKinJacForward.cpp:1498). -/
def l1498 (_x : Fin 36 → ℝ) : ℝ := 1

/-- Column 0 of the result: elements 0 to 23 of `jac_.data()`, which is stored by columns (HyQForwardKinJacForward.h:17, 38). -/
def col0 (x : Fin 36 → ℝ) : Fin 24 → ℝ :=
  ![l74 x, l80 x, l81 x, l173 x, l179 x, l180 x, l239 x, l245 x, l246 x, l340 x, l346 x, l347 x, l406 x, l412 x, l413 x, l508 x, l514 x, l515 x, l574 x, l580 x, l581 x, l675 x, l681 x, l682 x]

/-- Column 1 of the result: elements 24 to 47 of `jac_.data()`, which is stored by columns (HyQForwardKinJacForward.h:17, 38). -/
def col1 (x : Fin 36 → ℝ) : Fin 24 → ℝ :=
  ![l701 x, l706 x, l707 x, l726 x, l731 x, l732 x, l751 x, l756 x, l757 x, l776 x, l781 x, l782 x, l801 x, l806 x, l807 x, l826 x, l831 x, l832 x, l851 x, l856 x, l857 x, l876 x, l881 x, l882 x]

/-- Column 2 of the result: elements 48 to 71 of `jac_.data()`, which is stored by columns (HyQForwardKinJacForward.h:17, 38). -/
def col2 (x : Fin 36 → ℝ) : Fin 24 → ℝ :=
  ![l897 x, l902 x, l903 x, l918 x, l923 x, l924 x, l939 x, l944 x, l945 x, l960 x, l965 x, l966 x, l981 x, l986 x, l987 x, l1002 x, l1007 x, l1008 x, l1023 x, l1028 x, l1029 x, l1044 x, l1049 x, l1050 x]

/-- Column 3 of the result: elements 72 to 95 of `jac_.data()`, which is stored by columns (HyQForwardKinJacForward.h:17, 38). -/
def col3 (x : Fin 36 → ℝ) : Fin 24 → ℝ :=
  ![l1487 x, 0, 0, 0, 0, 0, l1488 x, 0, 0, 0, 0, 0, l1489 x, 0, 0, 0, 0, 0, l1490 x, 0, 0, 0, 0, 0]

/-- Column 4 of the result: elements 96 to 119 of `jac_.data()`, which is stored by columns (HyQForwardKinJacForward.h:17, 38). -/
def col4 (x : Fin 36 → ℝ) : Fin 24 → ℝ :=
  ![0, l1491 x, 0, 0, 0, 0, 0, l1492 x, 0, 0, 0, 0, 0, l1493 x, 0, 0, 0, 0, 0, l1494 x, 0, 0, 0, 0]

/-- Column 5 of the result: elements 120 to 143 of `jac_.data()`, which is stored by columns (HyQForwardKinJacForward.h:17, 38). -/
def col5 (x : Fin 36 → ℝ) : Fin 24 → ℝ :=
  ![0, 0, l1495 x, 0, 0, 0, 0, 0, l1496 x, 0, 0, 0, 0, 0, l1497 x, 0, 0, 0, 0, 0, l1498 x, 0, 0, 0]

/-- Column 6 of the result: elements 144 to 167 of `jac_.data()`, which is stored by columns (HyQForwardKinJacForward.h:17, 38). -/
def col6 (x : Fin 36 → ℝ) : Fin 24 → ℝ :=
  ![l1061 x, l1068 x, l1072 x, l1095 x, l1102 x, l1104 x, 0, 0, 0, 0, 0, 0, 0, 0, 0, 0, 0, 0, 0, 0, 0, 0, 0, 0]

/-- Column 7 of the result: elements 168 to 191 of `jac_.data()`, which is stored by columns (HyQForwardKinJacForward.h:17, 38). -/
def col7 (x : Fin 36 → ℝ) : Fin 24 → ℝ :=
  ![l1117 x, l1119 x, l1121 x, l1129 x, l1130 x, l1131 x, 0, 0, 0, 0, 0, 0, 0, 0, 0, 0, 0, 0, 0, 0, 0, 0, 0, 0]

/-- Column 8 of the result: elements 192 to 215 of `jac_.data()`, which is stored by columns (HyQForwardKinJacForward.h:17, 38). -/
def col8 (x : Fin 36 → ℝ) : Fin 24 → ℝ :=
  ![l1137 x, l1138 x, l1139 x, l1146 x, l1147 x, l1148 x, 0, 0, 0, 0, 0, 0, 0, 0, 0, 0, 0, 0, 0, 0, 0, 0, 0, 0]

/-- Column 9 of the result: elements 216 to 239 of `jac_.data()`, which is stored by columns (HyQForwardKinJacForward.h:17, 38). -/
def col9 (x : Fin 36 → ℝ) : Fin 24 → ℝ :=
  ![0, 0, 0, 0, 0, 0, l1159 x, l1166 x, l1170 x, l1192 x, l1199 x, l1201 x, 0, 0, 0, 0, 0, 0, 0, 0, 0, 0, 0, 0]

/-- Column 10 of the result: elements 240 to 263 of `jac_.data()`, which is stored by columns (HyQForwardKinJacForward.h:17, 38). -/
def col10 (x : Fin 36 → ℝ) : Fin 24 → ℝ :=
  ![0, 0, 0, 0, 0, 0, l1214 x, l1216 x, l1218 x, l1225 x, l1226 x, l1227 x, 0, 0, 0, 0, 0, 0, 0, 0, 0, 0, 0, 0]

/-- Column 11 of the result: elements 264 to 287 of `jac_.data()`, which is stored by columns (HyQForwardKinJacForward.h:17, 38). -/
def col11 (x : Fin 36 → ℝ) : Fin 24 → ℝ :=
  ![0, 0, 0, 0, 0, 0, l1233 x, l1234 x, l1235 x, l1242 x, l1243 x, l1244 x, 0, 0, 0, 0, 0, 0, 0, 0, 0, 0, 0, 0]

/-- Column 12 of the result: elements 288 to 311 of `jac_.data()`, which is stored by columns (HyQForwardKinJacForward.h:17, 38). -/
def col12 (x : Fin 36 → ℝ) : Fin 24 → ℝ :=
  ![0, 0, 0, 0, 0, 0, 0, 0, 0, 0, 0, 0, l1255 x, l1262 x, l1266 x, l1288 x, l1295 x, l1297 x, 0, 0, 0, 0, 0, 0]

/-- Column 13 of the result: elements 312 to 335 of `jac_.data()`, which is stored by columns (HyQForwardKinJacForward.h:17, 38). -/
def col13 (x : Fin 36 → ℝ) : Fin 24 → ℝ :=
  ![0, 0, 0, 0, 0, 0, 0, 0, 0, 0, 0, 0, l1310 x, l1312 x, l1314 x, l1321 x, l1322 x, l1323 x, 0, 0, 0, 0, 0, 0]

/-- Column 14 of the result: elements 336 to 359 of `jac_.data()`, which is stored by columns (HyQForwardKinJacForward.h:17, 38). -/
def col14 (x : Fin 36 → ℝ) : Fin 24 → ℝ :=
  ![0, 0, 0, 0, 0, 0, 0, 0, 0, 0, 0, 0, l1329 x, l1330 x, l1331 x, l1339 x, l1340 x, l1341 x, 0, 0, 0, 0, 0, 0]

/-- Column 15 of the result: elements 360 to 383 of `jac_.data()`, which is stored by columns (HyQForwardKinJacForward.h:17, 38). -/
def col15 (x : Fin 36 → ℝ) : Fin 24 → ℝ :=
  ![0, 0, 0, 0, 0, 0, 0, 0, 0, 0, 0, 0, 0, 0, 0, 0, 0, 0, l1352 x, l1359 x, l1363 x, l1385 x, l1392 x, l1394 x]

/-- Column 16 of the result: elements 384 to 407 of `jac_.data()`, which is stored by columns (HyQForwardKinJacForward.h:17, 38). -/
def col16 (x : Fin 36 → ℝ) : Fin 24 → ℝ :=
  ![0, 0, 0, 0, 0, 0, 0, 0, 0, 0, 0, 0, 0, 0, 0, 0, 0, 0, l1407 x, l1409 x, l1411 x, l1418 x, l1419 x, l1420 x]

/-- Column 17 of the result: elements 408 to 431 of `jac_.data()`, which is stored by columns (HyQForwardKinJacForward.h:17, 38). -/
def col17 (x : Fin 36 → ℝ) : Fin 24 → ℝ :=
  ![0, 0, 0, 0, 0, 0, 0, 0, 0, 0, 0, 0, 0, 0, 0, 0, 0, 0, l1426 x, l1427 x, l1428 x, l1435 x, l1436 x, l1437 x]

/-- Column 18 of the result: elements 432 to 455 of `jac_.data()`, which is stored by columns (HyQForwardKinJacForward.h:17, 38). -/
def col18 (x : Fin 36 → ℝ) : Fin 24 → ℝ :=
  ![0, 0, 0, l1439 x, l1440 x, l1441 x, 0, 0, 0, l1443 x, l1444 x, l1445 x, 0, 0, 0, l1447 x, l1448 x, l1449 x, 0, 0, 0, l1451 x, l1452 x, l1453 x]

/-- Column 19 of the result: elements 456 to 479 of `jac_.data()`, which is stored by columns (HyQForwardKinJacForward.h:17, 38). -/
def col19 (x : Fin 36 → ℝ) : Fin 24 → ℝ :=
  ![0, 0, 0, l1455 x, l1456 x, l1457 x, 0, 0, 0, l1459 x, l1460 x, l1461 x, 0, 0, 0, l1463 x, l1464 x, l1465 x, 0, 0, 0, l1467 x, l1468 x, l1469 x]

/-- Column 20 of the result: elements 480 to 503 of `jac_.data()`, which is stored by columns (HyQForwardKinJacForward.h:17, 38). -/
def col20 (x : Fin 36 → ℝ) : Fin 24 → ℝ :=
  ![0, 0, 0, l1471 x, l1472 x, l1473 x, 0, 0, 0, l1475 x, l1476 x, l1477 x, 0, 0, 0, l1479 x, l1480 x, l1481 x, 0, 0, 0, l1483 x, l1484 x, l1485 x]

/-- Column 21 of the result: elements 504 to 527 of `jac_.data()`, which is stored by columns (HyQForwardKinJacForward.h:17, 38). -/
def col21 (x : Fin 36 → ℝ) : Fin 24 → ℝ :=
  ![0, 0, 0, l1091 x, l1083 x, l1076 x, 0, 0, 0, l1188 x, l1182 x, l1174 x, 0, 0, 0, l1284 x, l1277 x, l1270 x, 0, 0, 0, l1381 x, l1375 x, l1367 x]

/-- Column 22 of the result: elements 528 to 551 of `jac_.data()`, which is stored by columns (HyQForwardKinJacForward.h:17, 38). -/
def col22 (x : Fin 36 → ℝ) : Fin 24 → ℝ :=
  ![0, 0, 0, l1082 x, l1101 x, l1099 x, 0, 0, 0, l1181 x, l1198 x, l1196 x, 0, 0, 0, l1276 x, l1294 x, l1292 x, 0, 0, 0, l1374 x, l1391 x, l1389 x]

/-- Column 23 of the result: elements 552 to 575 of `jac_.data()`, which is stored by columns (HyQForwardKinJacForward.h:17, 38). -/
def col23 (x : Fin 36 → ℝ) : Fin 24 → ℝ :=
  ![0, 0, 0, l1075 x, l1098 x, l1103 x, 0, 0, 0, l1173 x, l1195 x, l1200 x, 0, 0, 0, l1269 x, l1291 x, l1296 x, 0, 0, 0, l1366 x, l1388 x, l1393 x]

/-- Column 24 of the result: elements 576 to 599 of `jac_.data()`, which is stored by columns (HyQForwardKinJacForward.h:17, 38). -/
def col24 (x : Fin 36 → ℝ) : Fin 24 → ℝ :=
  ![0, 0, 0, l1084 x, l1105 x, l1106 x, 0, 0, 0, 0, 0, 0, 0, 0, 0, 0, 0, 0, 0, 0, 0, 0, 0, 0]

/-- Column 25 of the result: elements 600 to 623 of `jac_.data()`, which is stored by columns (HyQForwardKinJacForward.h:17, 38). -/
def col25 (x : Fin 36 → ℝ) : Fin 24 → ℝ :=
  ![0, 0, 0, l1092 x, l1107 x, l1108 x, 0, 0, 0, 0, 0, 0, 0, 0, 0, 0, 0, 0, 0, 0, 0, 0, 0, 0]

/-- Column 26 of the result: elements 624 to 647 of `jac_.data()`, which is stored by columns (HyQForwardKinJacForward.h:17, 38). -/
def col26 (x : Fin 36 → ℝ) : Fin 24 → ℝ :=
  ![0, 0, 0, l1093 x, l1109 x, l1110 x, 0, 0, 0, 0, 0, 0, 0, 0, 0, 0, 0, 0, 0, 0, 0, 0, 0, 0]

/-- Column 27 of the result: elements 648 to 671 of `jac_.data()`, which is stored by columns (HyQForwardKinJacForward.h:17, 38). -/
def col27 (x : Fin 36 → ℝ) : Fin 24 → ℝ :=
  ![0, 0, 0, 0, 0, 0, 0, 0, 0, l1183 x, l1202 x, l1203 x, 0, 0, 0, 0, 0, 0, 0, 0, 0, 0, 0, 0]

/-- Column 28 of the result: elements 672 to 695 of `jac_.data()`, which is stored by columns (HyQForwardKinJacForward.h:17, 38). -/
def col28 (x : Fin 36 → ℝ) : Fin 24 → ℝ :=
  ![0, 0, 0, 0, 0, 0, 0, 0, 0, l1189 x, l1204 x, l1205 x, 0, 0, 0, 0, 0, 0, 0, 0, 0, 0, 0, 0]

/-- Column 29 of the result: elements 696 to 719 of `jac_.data()`, which is stored by columns (HyQForwardKinJacForward.h:17, 38). -/
def col29 (x : Fin 36 → ℝ) : Fin 24 → ℝ :=
  ![0, 0, 0, 0, 0, 0, 0, 0, 0, l1190 x, l1206 x, l1207 x, 0, 0, 0, 0, 0, 0, 0, 0, 0, 0, 0, 0]

/-- Column 30 of the result: elements 720 to 743 of `jac_.data()`, which is stored by columns (HyQForwardKinJacForward.h:17, 38). -/
def col30 (x : Fin 36 → ℝ) : Fin 24 → ℝ :=
  ![0, 0, 0, 0, 0, 0, 0, 0, 0, 0, 0, 0, 0, 0, 0, l1278 x, l1298 x, l1299 x, 0, 0, 0, 0, 0, 0]

/-- Column 31 of the result: elements 744 to 767 of `jac_.data()`, which is stored by columns (HyQForwardKinJacForward.h:17, 38). -/
def col31 (x : Fin 36 → ℝ) : Fin 24 → ℝ :=
  ![0, 0, 0, 0, 0, 0, 0, 0, 0, 0, 0, 0, 0, 0, 0, l1285 x, l1300 x, l1301 x, 0, 0, 0, 0, 0, 0]

/-- Column 32 of the result: elements 768 to 791 of `jac_.data()`, which is stored by columns (HyQForwardKinJacForward.h:17, 38). -/
def col32 (x : Fin 36 → ℝ) : Fin 24 → ℝ :=
  ![0, 0, 0, 0, 0, 0, 0, 0, 0, 0, 0, 0, 0, 0, 0, l1286 x, l1302 x, l1303 x, 0, 0, 0, 0, 0, 0]

/-- Column 33 of the result: elements 792 to 815 of `jac_.data()`, which is stored by columns (HyQForwardKinJacForward.h:17, 38). -/
def col33 (x : Fin 36 → ℝ) : Fin 24 → ℝ :=
  ![0, 0, 0, 0, 0, 0, 0, 0, 0, 0, 0, 0, 0, 0, 0, 0, 0, 0, 0, 0, 0, l1376 x, l1395 x, l1396 x]

/-- Column 34 of the result: elements 816 to 839 of `jac_.data()`, which is stored by columns (HyQForwardKinJacForward.h:17, 38). -/
def col34 (x : Fin 36 → ℝ) : Fin 24 → ℝ :=
  ![0, 0, 0, 0, 0, 0, 0, 0, 0, 0, 0, 0, 0, 0, 0, 0, 0, 0, 0, 0, 0, l1382 x, l1397 x, l1398 x]

/-- Column 35 of the result: elements 840 to 863 of `jac_.data()`, which is stored by columns (HyQForwardKinJacForward.h:17, 38). -/
def col35 (x : Fin 36 → ℝ) : Fin 24 → ℝ :=
  ![0, 0, 0, 0, 0, 0, 0, 0, 0, 0, 0, 0, 0, 0, 0, 0, 0, 0, 0, 0, 0, l1383 x, l1399 x, l1400 x]

/-- `jacobian` (HyQForwardKinJacForward.cpp:12-1502). -/
def jacobian (x : Fin 36 → ℝ) (r : Fin 24) (c : Fin 36) : ℝ :=
  (![col0 x, col1 x, col2 x, col3 x, col4 x, col5 x, col6 x, col7 x, col8 x, col9 x, col10 x, col11 x, col12 x, col13 x, col14 x, col15 x, col16 x, col17 x, col18 x, col19 x, col20 x, col21 x, col22 x, col23 x, col24 x, col25 x, col26 x, col27 x, col28 x, col29 x, col30 x, col31 x, col32 x, col33 x, col34 x, col35 x] : Fin 36 → Fin 24 → ℝ) c r

end

end CT.Robots.HyQ.FootJacForward
