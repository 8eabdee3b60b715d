import Mathlib.Analysis.SpecialFunctions.Trigonometric.Basic
import Mathlib.Data.Fin.VecNotation

/-!
# Generated Jacobian of the feet of HyQ: HyQForwardKinJacReverse

Translation of `jacobian` of `ct_models/include/ct/models/HyQ/codegen/HyQForwardKinJacReverse.cpp`, statement by statement: `lN` is the value
assigned by line `N`.

Simplifications: scalars are real numbers and decimal fractions are written as fractions.  The array `v_` is replaced by the
values assigned to it; every element that is read has been assigned before in the same call, so nothing of earlier calls is used.
Every element of `jac_` is assigned at most once; the others keep the zero of the constructor (HyQForwardKinJacReverse.h:20-24).
-/

namespace CT.Robots.HyQ.FootJacReverse

noncomputable section


/-- `v_[0]` (HyQForwardKinJacReverse.cpp:16). -/
def l16 (x : Fin 36 → ℝ) : ℝ := Real.cos (x 6)

/-- `v_[1]` (HyQForwardKinJacReverse.cpp:17). -/
def l17 (x : Fin 36 → ℝ) : ℝ := (33 / 100) * l16 x

/-- `v_[2]` (HyQForwardKinJacReverse.cpp:18). -/
def l18 (x : Fin 36 → ℝ) : ℝ := Real.sin (x 7)

/-- `v_[3]` (HyQForwardKinJacReverse.cpp:19). -/
def l19 (x : Fin 36 → ℝ) : ℝ := l17 x * l18 x

/-- `v_[4]` (HyQForwardKinJacReverse.cpp:20). -/
def l20 (x : Fin 36 → ℝ) : ℝ := Real.sin (x 8)

/-- `v_[5]` (HyQForwardKinJacReverse.cpp:21). -/
def l21 (x : Fin 36 → ℝ) : ℝ := (33 / 100) * l16 x

/-- `v_[6]` (HyQForwardKinJacReverse.cpp:22). -/
def l22 (x : Fin 36 → ℝ) : ℝ := Real.cos (x 7)

/-- `v_[7]` (HyQForwardKinJacReverse.cpp:23). -/
def l23 (x : Fin 36 → ℝ) : ℝ := l21 x * l22 x

/-- `v_[8]` (HyQForwardKinJacReverse.cpp:24). -/
def l24 (x : Fin 36 → ℝ) : ℝ := Real.cos (x 8)

/-- `v_[9]` (HyQForwardKinJacReverse.cpp:25). -/
def l25 (x : Fin 36 → ℝ) : ℝ := (7 / 20) * l16 x

/-- `v_[10]` (HyQForwardKinJacReverse.cpp:26). -/
def l26 (x : Fin 36 → ℝ) : ℝ := l19 x * l20 x - l23 x * l24 x - l25 x * l22 x - (2 / 25) * l16 x

/-- `v_[11]` (HyQForwardKinJacReverse.cpp:27). -/
def l27 (x : Fin 36 → ℝ) : ℝ := (1 / 2) * x 0

/-- `v_[12]` (HyQForwardKinJacReverse.cpp:28). -/
def l28 (x : Fin 36 → ℝ) : ℝ := Real.cos (l27 x)

/-- `v_[13]` (HyQForwardKinJacReverse.cpp:29). -/
def l29 (x : Fin 36 → ℝ) : ℝ := (1 / 2) * x 1

/-- `v_[14]` (HyQForwardKinJacReverse.cpp:30). -/
def l30 (x : Fin 36 → ℝ) : ℝ := Real.cos (l29 x)

/-- `v_[15]` (HyQForwardKinJacReverse.cpp:31). -/
def l31 (x : Fin 36 → ℝ) : ℝ := l28 x * l30 x

/-- `v_[16]` (HyQForwardKinJacReverse.cpp:32). -/
def l32 (x : Fin 36 → ℝ) : ℝ := (1 / 2) * x 2

/-- `v_[17]` (HyQForwardKinJacReverse.cpp:33). -/
def l33 (x : Fin 36 → ℝ) : ℝ := Real.sin (l32 x)

/-- `v_[18]` (HyQForwardKinJacReverse.cpp:34). -/
def l34 (x : Fin 36 → ℝ) : ℝ := Real.sin (l27 x)

/-- `v_[19]` (HyQForwardKinJacReverse.cpp:35). -/
def l35 (x : Fin 36 → ℝ) : ℝ := Real.sin (l29 x)

/-- `v_[20]` (HyQForwardKinJacReverse.cpp:36). -/
def l36 (x : Fin 36 → ℝ) : ℝ := l34 x * l35 x

/-- `v_[21]` (HyQForwardKinJacReverse.cpp:37). -/
def l37 (x : Fin 36 → ℝ) : ℝ := Real.cos (l32 x)

/-- `v_[22]` (HyQForwardKinJacReverse.cpp:38). -/
def l38 (x : Fin 36 → ℝ) : ℝ := l31 x * l33 x + l36 x * l37 x

/-- `v_[23]` (HyQForwardKinJacReverse.cpp:39). -/
def l39 (x : Fin 36 → ℝ) : ℝ := 2 * l38 x

/-- `v_[24]` (HyQForwardKinJacReverse.cpp:40). -/
def l40 (x : Fin 36 → ℝ) : ℝ := Real.sin (x 6)

/-- `v_[25]` (HyQForwardKinJacReverse.cpp:41). -/
def l41 (x : Fin 36 → ℝ) : ℝ := (33 / 100) * l40 x

/-- `v_[26]` (HyQForwardKinJacReverse.cpp:42). -/
def l42 (x : Fin 36 → ℝ) : ℝ := l41 x * l18 x

/-- `v_[27]` (HyQForwardKinJacReverse.cpp:43). -/
def l43 (x : Fin 36 → ℝ) : ℝ := (33 / 100) * l40 x

/-- `v_[28]` (HyQForwardKinJacReverse.cpp:44). -/
def l44 (x : Fin 36 → ℝ) : ℝ := l43 x * l22 x

/-- `v_[29]` (HyQForwardKinJacReverse.cpp:45). -/
def l45 (x : Fin 36 → ℝ) : ℝ := (7 / 20) * l40 x

/-- `v_[30]` (HyQForwardKinJacReverse.cpp:46). -/
def l46 (x : Fin 36 → ℝ) : ℝ := (207 / 1000) + l42 x * l20 x - l44 x * l24 x - l45 x * l22 x - (2 / 25) * l40 x

/-- `v_[31]` (HyQForwardKinJacReverse.cpp:47). -/
def l47 (x : Fin 36 → ℝ) : ℝ := l28 x * l35 x

/-- `v_[32]` (HyQForwardKinJacReverse.cpp:48). -/
def l48 (x : Fin 36 → ℝ) : ℝ := l34 x * l30 x

/-- `v_[33]` (HyQForwardKinJacReverse.cpp:49). -/
def l49 (x : Fin 36 → ℝ) : ℝ := l47 x * l37 x - l48 x * l33 x

/-- `v_[34]` (HyQForwardKinJacReverse.cpp:50). -/
def l50 (x : Fin 36 → ℝ) : ℝ := 2 * l49 x

/-- `v_[35]` (HyQForwardKinJacReverse.cpp:51). -/
def l51 (x : Fin 36 → ℝ) : ℝ := l26 x * l39 x + l46 x * l50 x

/-- `v_[36]` (HyQForwardKinJacReverse.cpp:52). -/
def l52 (x : Fin 36 → ℝ) : ℝ := -(33 / 100) * l22 x

/-- `v_[37]` (HyQForwardKinJacReverse.cpp:53). -/
def l53 (x : Fin 36 → ℝ) : ℝ := (33 / 100) * l18 x

/-- `v_[38]` (HyQForwardKinJacReverse.cpp:54). -/
def l54 (x : Fin 36 → ℝ) : ℝ := (747 / 2000) + l52 x * l20 x - l53 x * l24 x - (7 / 20) * l18 x

/-- `v_[39]` (HyQForwardKinJacReverse.cpp:55). -/
def l55 (x : Fin 36 → ℝ) : ℝ := 0 - l54 x

/-- `v_[40]` (HyQForwardKinJacReverse.cpp:56). -/
def l56 (x : Fin 36 → ℝ) : ℝ := l48 x * l37 x + l47 x * l33 x

/-- `v_[41]` (HyQForwardKinJacReverse.cpp:57). -/
def l57 (x : Fin 36 → ℝ) : ℝ := l31 x * l37 x - l36 x * l33 x

/-- `v_[39]` (HyQForwardKinJacReverse.cpp:58). -/
def l58 (x : Fin 36 → ℝ) : ℝ := l55 x * l50 x + (l55 x * l49 x + l46 x * l56 x + l26 x * l57 x) * 2

/-- `v_[42]` (HyQForwardKinJacReverse.cpp:59). -/
def l59 (x : Fin 36 → ℝ) : ℝ := 0 - l58 x

/-- `v_[43]` (HyQForwardKinJacReverse.cpp:60). -/
def l60 (x : Fin 36 → ℝ) : ℝ := l51 x * l37 x + l59 x * l33 x

/-- `v_[44]` (HyQForwardKinJacReverse.cpp:61). -/
def l61 (x : Fin 36 → ℝ) : ℝ := 0 - l46 x

/-- `v_[45]` (HyQForwardKinJacReverse.cpp:62). -/
def l62 (x : Fin 36 → ℝ) : ℝ := l61 x * l39 x + l26 x * l50 x

/-- `v_[46]` (HyQForwardKinJacReverse.cpp:63). -/
def l63 (x : Fin 36 → ℝ) : ℝ := 0 - l62 x

/-- `v_[47]` (HyQForwardKinJacReverse.cpp:64). -/
def l64 (x : Fin 36 → ℝ) : ℝ := 0 - l54 x

/-- `v_[47]` (HyQForwardKinJacReverse.cpp:65). -/
def l65 (x : Fin 36 → ℝ) : ℝ := l64 x * l39 x + (l64 x * l38 x + l26 x * l56 x + l61 x * l57 x) * 2

/-- `v_[44]` (HyQForwardKinJacReverse.cpp:66). -/
def l66 (x : Fin 36 → ℝ) : ℝ := l63 x * l33 x + l65 x * l37 x

/-- `v_[48]` (HyQForwardKinJacReverse.cpp:67). -/
def l67 (x : Fin 36 → ℝ) : ℝ := Real.cos (l27 x)

/-- `v_[49]` (HyQForwardKinJacReverse.cpp:68). -/
def l68 (x : Fin 36 → ℝ) : ℝ := l62 x * l37 x + l65 x * l33 x

/-- `v_[50]` (HyQForwardKinJacReverse.cpp:69). -/
def l69 (x : Fin 36 → ℝ) : ℝ := l51 x * l33 x + l58 x * l37 x

/-- `v_[11]` (HyQForwardKinJacReverse.cpp:70). -/
def l70 (x : Fin 36 → ℝ) : ℝ := Real.sin (l27 x)

/-- `jac[0]` (HyQForwardKinJacReverse.cpp:71). -/
def l71 (x : Fin 36 → ℝ) : ℝ := ((l60 x * l30 x + l66 x * l35 x) * l67 x - (l68 x * l30 x + l69 x * l35 x) * l70 x) * (1 / 2)

/-- `v_[51]` (HyQForwardKinJacReverse.cpp:72). -/
def l72 (x : Fin 36 → ℝ) : ℝ := 0 - l46 x

/-- `v_[52]` (HyQForwardKinJacReverse.cpp:73). -/
def l73 (x : Fin 36 → ℝ) : ℝ := 2 * l56 x

/-- `v_[53]` (HyQForwardKinJacReverse.cpp:74). -/
def l74 (x : Fin 36 → ℝ) : ℝ := 0 - l26 x

/-- `v_[51]` (HyQForwardKinJacReverse.cpp:75). -/
def l75 (x : Fin 36 → ℝ) : ℝ := l54 x * l50 x + l72 x * l73 x + (l72 x * l56 x + l74 x * l57 x) * 2

/-- `v_[54]` (HyQForwardKinJacReverse.cpp:76). -/
def l76 (x : Fin 36 → ℝ) : ℝ := l26 x * l39 x + l54 x * l56 x * 2

/-- `v_[55]` (HyQForwardKinJacReverse.cpp:77). -/
def l77 (x : Fin 36 → ℝ) : ℝ := 0 - l76 x

/-- `v_[56]` (HyQForwardKinJacReverse.cpp:78). -/
def l78 (x : Fin 36 → ℝ) : ℝ := l75 x * l37 x + l77 x * l33 x

/-- `v_[53]` (HyQForwardKinJacReverse.cpp:79). -/
def l79 (x : Fin 36 → ℝ) : ℝ := l54 x * l39 x + l74 x * l73 x

/-- `v_[57]` (HyQForwardKinJacReverse.cpp:80). -/
def l80 (x : Fin 36 → ℝ) : ℝ := 0 - l79 x

/-- `v_[58]` (HyQForwardKinJacReverse.cpp:81). -/
def l81 (x : Fin 36 → ℝ) : ℝ := 0 - l46 x

/-- `v_[58]` (HyQForwardKinJacReverse.cpp:82). -/
def l82 (x : Fin 36 → ℝ) : ℝ := l81 x * l39 x + (l81 x * l38 x + l26 x * l49 x + l54 x * l57 x) * 2

/-- `v_[59]` (HyQForwardKinJacReverse.cpp:83). -/
def l83 (x : Fin 36 → ℝ) : ℝ := l80 x * l33 x + l82 x * l37 x

/-- `v_[60]` (HyQForwardKinJacReverse.cpp:84). -/
def l84 (x : Fin 36 → ℝ) : ℝ := l79 x * l37 x + l82 x * l33 x

/-- `v_[61]` (HyQForwardKinJacReverse.cpp:85). -/
def l85 (x : Fin 36 → ℝ) : ℝ := l75 x * l33 x + l76 x * l37 x

/-- `jac[1]` (HyQForwardKinJacReverse.cpp:86). -/
def l86 (x : Fin 36 → ℝ) : ℝ := ((l78 x * l30 x + l83 x * l35 x) * l67 x - (l84 x * l30 x + l85 x * l35 x) * l70 x) * (1 / 2)

/-- `v_[62]` (HyQForwardKinJacReverse.cpp:87). -/
def l87 (x : Fin 36 → ℝ) : ℝ := 0 - l26 x

/-- `v_[62]` (HyQForwardKinJacReverse.cpp:88). -/
def l88 (x : Fin 36 → ℝ) : ℝ := l54 x * l39 x + l87 x * l73 x + (l87 x * l56 x + l46 x * l57 x) * 2

/-- `v_[10]` (HyQForwardKinJacReverse.cpp:89). -/
def l89 (x : Fin 36 → ℝ) : ℝ := 0 - l26 x

/-- `v_[63]` (HyQForwardKinJacReverse.cpp:90). -/
def l90 (x : Fin 36 → ℝ) : ℝ := 0 - l54 x

/-- `v_[10]` (HyQForwardKinJacReverse.cpp:91). -/
def l91 (x : Fin 36 → ℝ) : ℝ := l46 x * l39 x + l89 x * l50 x + (l89 x * l49 x + l90 x * l57 x) * 2

/-- `v_[64]` (HyQForwardKinJacReverse.cpp:92). -/
def l92 (x : Fin 36 → ℝ) : ℝ := 0 - l91 x

/-- `v_[65]` (HyQForwardKinJacReverse.cpp:93). -/
def l93 (x : Fin 36 → ℝ) : ℝ := l88 x * l37 x + l92 x * l33 x

/-- `v_[63]` (HyQForwardKinJacReverse.cpp:94). -/
def l94 (x : Fin 36 → ℝ) : ℝ := l90 x * l50 x + l46 x * l73 x

/-- `v_[66]` (HyQForwardKinJacReverse.cpp:95). -/
def l95 (x : Fin 36 → ℝ) : ℝ := 0 - l94 x

/-- `v_[38]` (HyQForwardKinJacReverse.cpp:96). -/
def l96 (x : Fin 36 → ℝ) : ℝ := (l46 x * l49 x + l54 x * l56 x) * 2

/-- `v_[30]` (HyQForwardKinJacReverse.cpp:97). -/
def l97 (x : Fin 36 → ℝ) : ℝ := l95 x * l33 x + l96 x * l37 x

/-- `v_[67]` (HyQForwardKinJacReverse.cpp:98). -/
def l98 (x : Fin 36 → ℝ) : ℝ := l94 x * l37 x + l96 x * l33 x

/-- `v_[21]` (HyQForwardKinJacReverse.cpp:99). -/
def l99 (x : Fin 36 → ℝ) : ℝ := l88 x * l33 x + l91 x * l37 x

/-- `jac[2]` (HyQForwardKinJacReverse.cpp:100). -/
def l100 (x : Fin 36 → ℝ) : ℝ := ((l93 x * l30 x + l97 x * l35 x) * l67 x - (l98 x * l30 x + l99 x * l35 x) * l70 x) * (1 / 2)

/-- `v_[11]` (HyQForwardKinJacReverse.cpp:101). -/
def l101 (x : Fin 36 → ℝ) : ℝ := (33 / 100) * l16 x

/-- `v_[48]` (HyQForwardKinJacReverse.cpp:102). -/
def l102 (x : Fin 36 → ℝ) : ℝ := l101 x * l22 x

/-- `v_[19]` (HyQForwardKinJacReverse.cpp:103). -/
def l103 (x : Fin 36 → ℝ) : ℝ := (33 / 100) * l16 x

/-- `v_[14]` (HyQForwardKinJacReverse.cpp:104). -/
def l104 (x : Fin 36 → ℝ) : ℝ := l103 x * l18 x

/-- `v_[17]` (HyQForwardKinJacReverse.cpp:105). -/
def l105 (x : Fin 36 → ℝ) : ℝ := l102 x * l20 x + l104 x * l24 x

/-- `v_[68]` (HyQForwardKinJacReverse.cpp:106). -/
def l106 (x : Fin 36 → ℝ) : ℝ := l101 x * l18 x

/-- `v_[69]` (HyQForwardKinJacReverse.cpp:107). -/
def l107 (x : Fin 36 → ℝ) : ℝ := (33 / 100) * l16 x

/-- `v_[70]` (HyQForwardKinJacReverse.cpp:108). -/
def l108 (x : Fin 36 → ℝ) : ℝ := l107 x * l22 x

/-- `v_[71]` (HyQForwardKinJacReverse.cpp:109). -/
def l109 (x : Fin 36 → ℝ) : ℝ := (7 / 20) * l16 x

/-- `v_[72]` (HyQForwardKinJacReverse.cpp:110). -/
def l110 (x : Fin 36 → ℝ) : ℝ := l106 x * l24 x + l108 x * l20 x + l109 x * l18 x

/-- `v_[73]` (HyQForwardKinJacReverse.cpp:111). -/
def l111 (x : Fin 36 → ℝ) : ℝ := (33 / 100) * l40 x

/-- `v_[74]` (HyQForwardKinJacReverse.cpp:112). -/
def l112 (x : Fin 36 → ℝ) : ℝ := l111 x * l22 x

/-- `v_[75]` (HyQForwardKinJacReverse.cpp:113). -/
def l113 (x : Fin 36 → ℝ) : ℝ := -(33 / 100) * l40 x

/-- `v_[76]` (HyQForwardKinJacReverse.cpp:114). -/
def l114 (x : Fin 36 → ℝ) : ℝ := l113 x * l18 x

/-- `v_[77]` (HyQForwardKinJacReverse.cpp:115). -/
def l115 (x : Fin 36 → ℝ) : ℝ := (7 / 20) * l40 x

/-- `v_[78]` (HyQForwardKinJacReverse.cpp:116). -/
def l116 (x : Fin 36 → ℝ) : ℝ := l112 x * l24 x + l114 x * l20 x + l115 x * l22 x + (2 / 25) * l40 x

/-- `v_[79]` (HyQForwardKinJacReverse.cpp:117). -/
def l117 (x : Fin 36 → ℝ) : ℝ := (33 / 100) * l40 x

/-- `v_[80]` (HyQForwardKinJacReverse.cpp:118). -/
def l118 (x : Fin 36 → ℝ) : ℝ := l117 x * l18 x

/-- `v_[81]` (HyQForwardKinJacReverse.cpp:119). -/
def l119 (x : Fin 36 → ℝ) : ℝ := (33 / 100) * l40 x

/-- `v_[82]` (HyQForwardKinJacReverse.cpp:120). -/
def l120 (x : Fin 36 → ℝ) : ℝ := l119 x * l22 x

/-- `v_[83]` (HyQForwardKinJacReverse.cpp:121). -/
def l121 (x : Fin 36 → ℝ) : ℝ := (7 / 20) * l40 x

/-- `v_[84]` (HyQForwardKinJacReverse.cpp:122). -/
def l122 (x : Fin 36 → ℝ) : ℝ := (207 / 1000) + l118 x * l20 x - l120 x * l24 x - l121 x * l22 x - (2 / 25) * l40 x

/-- `v_[85]` (HyQForwardKinJacReverse.cpp:123). -/
def l123 (x : Fin 36 → ℝ) : ℝ := -(33 / 100) * l22 x

/-- `v_[86]` (HyQForwardKinJacReverse.cpp:124). -/
def l124 (x : Fin 36 → ℝ) : ℝ := (33 / 100) * l18 x

/-- `v_[87]` (HyQForwardKinJacReverse.cpp:125). -/
def l125 (x : Fin 36 → ℝ) : ℝ := (747 / 2000) + l123 x * l20 x - l124 x * l24 x - (7 / 20) * l18 x

/-- `v_[88]` (HyQForwardKinJacReverse.cpp:126). -/
def l126 (x : Fin 36 → ℝ) : ℝ := l105 x * x 26 + l110 x * x 25 + l116 x * x 24 + x 23 + x 18 * l122 x - x 19 * l125 x

/-- `v_[89]` (HyQForwardKinJacReverse.cpp:127). -/
def l127 (x : Fin 36 → ℝ) : ℝ := (1 / 2) * x 0

/-- `v_[90]` (HyQForwardKinJacReverse.cpp:128). -/
def l128 (x : Fin 36 → ℝ) : ℝ := Real.cos (l127 x)

/-- `v_[91]` (HyQForwardKinJacReverse.cpp:129). -/
def l129 (x : Fin 36 → ℝ) : ℝ := (1 / 2) * x 1

/-- `v_[92]` (HyQForwardKinJacReverse.cpp:130). -/
def l130 (x : Fin 36 → ℝ) : ℝ := Real.cos (l129 x)

/-- `v_[93]` (HyQForwardKinJacReverse.cpp:131). -/
def l131 (x : Fin 36 → ℝ) : ℝ := l128 x * l130 x

/-- `v_[94]` (HyQForwardKinJacReverse.cpp:132). -/
def l132 (x : Fin 36 → ℝ) : ℝ := (1 / 2) * x 2

/-- `v_[95]` (HyQForwardKinJacReverse.cpp:133). -/
def l133 (x : Fin 36 → ℝ) : ℝ := Real.sin (l132 x)

/-- `v_[96]` (HyQForwardKinJacReverse.cpp:134). -/
def l134 (x : Fin 36 → ℝ) : ℝ := Real.sin (l127 x)

/-- `v_[97]` (HyQForwardKinJacReverse.cpp:135). -/
def l135 (x : Fin 36 → ℝ) : ℝ := Real.sin (l129 x)

/-- `v_[98]` (HyQForwardKinJacReverse.cpp:136). -/
def l136 (x : Fin 36 → ℝ) : ℝ := l134 x * l135 x

/-- `v_[99]` (HyQForwardKinJacReverse.cpp:137). -/
def l137 (x : Fin 36 → ℝ) : ℝ := Real.cos (l132 x)

/-- `v_[100]` (HyQForwardKinJacReverse.cpp:138). -/
def l138 (x : Fin 36 → ℝ) : ℝ := l131 x * l133 x + l136 x * l137 x

/-- `v_[101]` (HyQForwardKinJacReverse.cpp:139). -/
def l139 (x : Fin 36 → ℝ) : ℝ := 2 * l138 x

/-- `v_[102]` (HyQForwardKinJacReverse.cpp:140). -/
def l140 (x : Fin 36 → ℝ) : ℝ := (33 / 100) * l40 x

/-- `v_[103]` (HyQForwardKinJacReverse.cpp:141). -/
def l141 (x : Fin 36 → ℝ) : ℝ := l140 x * l22 x

/-- `v_[104]` (HyQForwardKinJacReverse.cpp:142). -/
def l142 (x : Fin 36 → ℝ) : ℝ := (33 / 100) * l40 x

/-- `v_[105]` (HyQForwardKinJacReverse.cpp:143). -/
def l143 (x : Fin 36 → ℝ) : ℝ := l142 x * l18 x

/-- `v_[106]` (HyQForwardKinJacReverse.cpp:144). -/
def l144 (x : Fin 36 → ℝ) : ℝ := l141 x * l20 x + l143 x * l24 x

/-- `v_[107]` (HyQForwardKinJacReverse.cpp:145). -/
def l145 (x : Fin 36 → ℝ) : ℝ := l140 x * l18 x

/-- `v_[108]` (HyQForwardKinJacReverse.cpp:146). -/
def l146 (x : Fin 36 → ℝ) : ℝ := (33 / 100) * l40 x

/-- `v_[109]` (HyQForwardKinJacReverse.cpp:147). -/
def l147 (x : Fin 36 → ℝ) : ℝ := l146 x * l22 x

/-- `v_[24]` (HyQForwardKinJacReverse.cpp:148). -/
def l148 (x : Fin 36 → ℝ) : ℝ := (7 / 20) * l40 x

/-- `v_[110]` (HyQForwardKinJacReverse.cpp:149). -/
def l149 (x : Fin 36 → ℝ) : ℝ := l145 x * l24 x + l147 x * l20 x + l148 x * l18 x

/-- `v_[111]` (HyQForwardKinJacReverse.cpp:150). -/
def l150 (x : Fin 36 → ℝ) : ℝ := (33 / 100) * l16 x

/-- `v_[112]` (HyQForwardKinJacReverse.cpp:151). -/
def l151 (x : Fin 36 → ℝ) : ℝ := l150 x * l18 x

/-- `v_[113]` (HyQForwardKinJacReverse.cpp:152). -/
def l152 (x : Fin 36 → ℝ) : ℝ := (33 / 100) * l16 x

/-- `v_[114]` (HyQForwardKinJacReverse.cpp:153). -/
def l153 (x : Fin 36 → ℝ) : ℝ := l152 x * l22 x

/-- `v_[115]` (HyQForwardKinJacReverse.cpp:154). -/
def l154 (x : Fin 36 → ℝ) : ℝ := (7 / 20) * l16 x

/-- `v_[116]` (HyQForwardKinJacReverse.cpp:155). -/
def l155 (x : Fin 36 → ℝ) : ℝ := l151 x * l20 x - l153 x * l24 x - l154 x * l22 x - (2 / 25) * l16 x

/-- `v_[117]` (HyQForwardKinJacReverse.cpp:156). -/
def l156 (x : Fin 36 → ℝ) : ℝ := (33 / 100) * l16 x

/-- `v_[118]` (HyQForwardKinJacReverse.cpp:157). -/
def l157 (x : Fin 36 → ℝ) : ℝ := l156 x * l18 x

/-- `v_[119]` (HyQForwardKinJacReverse.cpp:158). -/
def l158 (x : Fin 36 → ℝ) : ℝ := (7 / 20) * l16 x

/-- `v_[0]` (HyQForwardKinJacReverse.cpp:159). -/
def l159 (x : Fin 36 → ℝ) : ℝ := l157 x * l20 x - l153 x * l24 x - l158 x * l22 x - (2 / 25) * l16 x

/-- `v_[120]` (HyQForwardKinJacReverse.cpp:160). -/
def l160 (x : Fin 36 → ℝ) : ℝ := l144 x * x 26 + l149 x * x 25 + l155 x * x 24 + x 22 + x 20 * l125 x - x 18 * l159 x

/-- `v_[121]` (HyQForwardKinJacReverse.cpp:161). -/
def l161 (x : Fin 36 → ℝ) : ℝ := l128 x * l135 x

/-- `v_[122]` (HyQForwardKinJacReverse.cpp:162). -/
def l162 (x : Fin 36 → ℝ) : ℝ := l134 x * l130 x

/-- `v_[123]` (HyQForwardKinJacReverse.cpp:163). -/
def l163 (x : Fin 36 → ℝ) : ℝ := l161 x * l137 x - l162 x * l133 x

/-- `v_[124]` (HyQForwardKinJacReverse.cpp:164). -/
def l164 (x : Fin 36 → ℝ) : ℝ := 2 * l163 x

/-- `v_[125]` (HyQForwardKinJacReverse.cpp:165). -/
def l165 (x : Fin 36 → ℝ) : ℝ := l126 x * l139 x + l160 x * l164 x

/-- `v_[126]` (HyQForwardKinJacReverse.cpp:166). -/
def l166 (x : Fin 36 → ℝ) : ℝ := (33 / 100) * l18 x

/-- `v_[127]` (HyQForwardKinJacReverse.cpp:167). -/
def l167 (x : Fin 36 → ℝ) : ℝ := (33 / 100) * l22 x

/-- `v_[128]` (HyQForwardKinJacReverse.cpp:168). -/
def l168 (x : Fin 36 → ℝ) : ℝ := l166 x * l20 x - l167 x * l24 x

/-- `v_[129]` (HyQForwardKinJacReverse.cpp:169). -/
def l169 (x : Fin 36 → ℝ) : ℝ := (33 / 100) * l18 x

/-- `v_[130]` (HyQForwardKinJacReverse.cpp:170). -/
def l170 (x : Fin 36 → ℝ) : ℝ := (33 / 100) * l22 x

/-- `v_[131]` (HyQForwardKinJacReverse.cpp:171). -/
def l171 (x : Fin 36 → ℝ) : ℝ := l169 x * l20 x - l170 x * l24 x - (7 / 20) * l22 x

/-- `v_[132]` (HyQForwardKinJacReverse.cpp:172). -/
def l172 (x : Fin 36 → ℝ) : ℝ := l168 x * x 26 + l171 x * x 25 + x 21 + x 19 * l159 x - x 20 * l122 x

/-- `v_[133]` (HyQForwardKinJacReverse.cpp:173). -/
def l173 (x : Fin 36 → ℝ) : ℝ := 0 - l172 x

/-- `v_[134]` (HyQForwardKinJacReverse.cpp:174). -/
def l174 (x : Fin 36 → ℝ) : ℝ := l162 x * l137 x + l161 x * l133 x

/-- `v_[135]` (HyQForwardKinJacReverse.cpp:175). -/
def l175 (x : Fin 36 → ℝ) : ℝ := l131 x * l137 x - l136 x * l133 x

/-- `v_[133]` (HyQForwardKinJacReverse.cpp:176). -/
def l176 (x : Fin 36 → ℝ) : ℝ := l173 x * l164 x + (l173 x * l163 x + l160 x * l174 x + l126 x * l175 x) * 2

/-- `v_[136]` (HyQForwardKinJacReverse.cpp:177). -/
def l177 (x : Fin 36 → ℝ) : ℝ := 0 - l176 x

/-- `v_[137]` (HyQForwardKinJacReverse.cpp:178). -/
def l178 (x : Fin 36 → ℝ) : ℝ := l165 x * l137 x + l177 x * l133 x

/-- `v_[138]` (HyQForwardKinJacReverse.cpp:179). -/
def l179 (x : Fin 36 → ℝ) : ℝ := 0 - l160 x

/-- `v_[139]` (HyQForwardKinJacReverse.cpp:180). -/
def l180 (x : Fin 36 → ℝ) : ℝ := l179 x * l139 x + l126 x * l164 x

/-- `v_[140]` (HyQForwardKinJacReverse.cpp:181). -/
def l181 (x : Fin 36 → ℝ) : ℝ := 0 - l180 x

/-- `v_[141]` (HyQForwardKinJacReverse.cpp:182). -/
def l182 (x : Fin 36 → ℝ) : ℝ := 0 - l172 x

/-- `v_[141]` (HyQForwardKinJacReverse.cpp:183). -/
def l183 (x : Fin 36 → ℝ) : ℝ := l182 x * l139 x + (l182 x * l138 x + l126 x * l174 x + l179 x * l175 x) * 2

/-- `v_[138]` (HyQForwardKinJacReverse.cpp:184). -/
def l184 (x : Fin 36 → ℝ) : ℝ := l181 x * l133 x + l183 x * l137 x

/-- `v_[142]` (HyQForwardKinJacReverse.cpp:185). -/
def l185 (x : Fin 36 → ℝ) : ℝ := Real.cos (l127 x)

/-- `v_[143]` (HyQForwardKinJacReverse.cpp:186). -/
def l186 (x : Fin 36 → ℝ) : ℝ := l180 x * l137 x + l183 x * l133 x

/-- `v_[144]` (HyQForwardKinJacReverse.cpp:187). -/
def l187 (x : Fin 36 → ℝ) : ℝ := l165 x * l133 x + l176 x * l137 x

/-- `v_[89]` (HyQForwardKinJacReverse.cpp:188). -/
def l188 (x : Fin 36 → ℝ) : ℝ := Real.sin (l127 x)

/-- `jac[3]` (HyQForwardKinJacReverse.cpp:189). -/
def l189 (x : Fin 36 → ℝ) : ℝ := ((l178 x * l130 x + l184 x * l135 x) * l185 x - (l186 x * l130 x + l187 x * l135 x) * l188 x) * (1 / 2)

/-- `v_[145]` (HyQForwardKinJacReverse.cpp:190). -/
def l190 (x : Fin 36 → ℝ) : ℝ := 0 - l160 x

/-- `v_[146]` (HyQForwardKinJacReverse.cpp:191). -/
def l191 (x : Fin 36 → ℝ) : ℝ := 2 * l174 x

/-- `v_[147]` (HyQForwardKinJacReverse.cpp:192). -/
def l192 (x : Fin 36 → ℝ) : ℝ := 0 - l126 x

/-- `v_[145]` (HyQForwardKinJacReverse.cpp:193). -/
def l193 (x : Fin 36 → ℝ) : ℝ := l172 x * l164 x + l190 x * l191 x + (l190 x * l174 x + l192 x * l175 x) * 2

/-- `v_[148]` (HyQForwardKinJacReverse.cpp:194). -/
def l194 (x : Fin 36 → ℝ) : ℝ := l126 x * l139 x + l172 x * l174 x * 2

/-- `v_[149]` (HyQForwardKinJacReverse.cpp:195). -/
def l195 (x : Fin 36 → ℝ) : ℝ := 0 - l194 x

/-- `v_[150]` (HyQForwardKinJacReverse.cpp:196). -/
def l196 (x : Fin 36 → ℝ) : ℝ := l193 x * l137 x + l195 x * l133 x

/-- `v_[147]` (HyQForwardKinJacReverse.cpp:197). -/
def l197 (x : Fin 36 → ℝ) : ℝ := l172 x * l139 x + l192 x * l191 x

/-- `v_[151]` (HyQForwardKinJacReverse.cpp:198). -/
def l198 (x : Fin 36 → ℝ) : ℝ := 0 - l197 x

/-- `v_[152]` (HyQForwardKinJacReverse.cpp:199). -/
def l199 (x : Fin 36 → ℝ) : ℝ := 0 - l160 x

/-- `v_[152]` (HyQForwardKinJacReverse.cpp:200). -/
def l200 (x : Fin 36 → ℝ) : ℝ := l199 x * l139 x + (l199 x * l138 x + l126 x * l163 x + l172 x * l175 x) * 2

/-- `v_[153]` (HyQForwardKinJacReverse.cpp:201). -/
def l201 (x : Fin 36 → ℝ) : ℝ := l198 x * l133 x + l200 x * l137 x

/-- `v_[154]` (HyQForwardKinJacReverse.cpp:202). -/
def l202 (x : Fin 36 → ℝ) : ℝ := l197 x * l137 x + l200 x * l133 x

/-- `v_[155]` (HyQForwardKinJacReverse.cpp:203). -/
def l203 (x : Fin 36 → ℝ) : ℝ := l193 x * l133 x + l194 x * l137 x

/-- `jac[4]` (HyQForwardKinJacReverse.cpp:204). -/
def l204 (x : Fin 36 → ℝ) : ℝ := ((l196 x * l130 x + l201 x * l135 x) * l185 x - (l202 x * l130 x + l203 x * l135 x) * l188 x) * (1 / 2)

/-- `v_[156]` (HyQForwardKinJacReverse.cpp:205). -/
def l205 (x : Fin 36 → ℝ) : ℝ := 0 - l126 x

/-- `v_[156]` (HyQForwardKinJacReverse.cpp:206). -/
def l206 (x : Fin 36 → ℝ) : ℝ := l172 x * l139 x + l205 x * l191 x + (l205 x * l174 x + l160 x * l175 x) * 2

/-- `v_[88]` (HyQForwardKinJacReverse.cpp:207). -/
def l207 (x : Fin 36 → ℝ) : ℝ := 0 - l126 x

/-- `v_[157]` (HyQForwardKinJacReverse.cpp:208). -/
def l208 (x : Fin 36 → ℝ) : ℝ := 0 - l172 x

/-- `v_[88]` (HyQForwardKinJacReverse.cpp:209). -/
def l209 (x : Fin 36 → ℝ) : ℝ := l160 x * l139 x + l207 x * l164 x + (l207 x * l163 x + l208 x * l175 x) * 2

/-- `v_[158]` (HyQForwardKinJacReverse.cpp:210). -/
def l210 (x : Fin 36 → ℝ) : ℝ := 0 - l209 x

/-- `v_[159]` (HyQForwardKinJacReverse.cpp:211). -/
def l211 (x : Fin 36 → ℝ) : ℝ := l206 x * l137 x + l210 x * l133 x

/-- `v_[157]` (HyQForwardKinJacReverse.cpp:212). -/
def l212 (x : Fin 36 → ℝ) : ℝ := l208 x * l164 x + l160 x * l191 x

/-- `v_[160]` (HyQForwardKinJacReverse.cpp:213). -/
def l213 (x : Fin 36 → ℝ) : ℝ := 0 - l212 x

/-- `v_[132]` (HyQForwardKinJacReverse.cpp:214). -/
def l214 (x : Fin 36 → ℝ) : ℝ := (l160 x * l163 x + l172 x * l174 x) * 2

/-- `v_[120]` (HyQForwardKinJacReverse.cpp:215). -/
def l215 (x : Fin 36 → ℝ) : ℝ := l213 x * l133 x + l214 x * l137 x

/-- `v_[161]` (HyQForwardKinJacReverse.cpp:216). -/
def l216 (x : Fin 36 → ℝ) : ℝ := l212 x * l137 x + l214 x * l133 x

/-- `v_[99]` (HyQForwardKinJacReverse.cpp:217). -/
def l217 (x : Fin 36 → ℝ) : ℝ := l206 x * l133 x + l209 x * l137 x

/-- `jac[5]` (HyQForwardKinJacReverse.cpp:218). -/
def l218 (x : Fin 36 → ℝ) : ℝ := ((l211 x * l130 x + l215 x * l135 x) * l185 x - (l216 x * l130 x + l217 x * l135 x) * l188 x) * (1 / 2)

/-- `v_[89]` (HyQForwardKinJacReverse.cpp:219). -/
def l219 (x : Fin 36 → ℝ) : ℝ := Real.cos (x 9)

/-- `v_[142]` (HyQForwardKinJacReverse.cpp:220). -/
def l220 (x : Fin 36 → ℝ) : ℝ := (33 / 100) * l219 x

/-- `v_[97]` (HyQForwardKinJacReverse.cpp:221). -/
def l221 (x : Fin 36 → ℝ) : ℝ := Real.sin (x 10)

/-- `v_[92]` (HyQForwardKinJacReverse.cpp:222). -/
def l222 (x : Fin 36 → ℝ) : ℝ := l220 x * l221 x

/-- `v_[95]` (HyQForwardKinJacReverse.cpp:223). -/
def l223 (x : Fin 36 → ℝ) : ℝ := Real.sin (x 11)

/-- `v_[162]` (HyQForwardKinJacReverse.cpp:224). -/
def l224 (x : Fin 36 → ℝ) : ℝ := (33 / 100) * l219 x

/-- `v_[163]` (HyQForwardKinJacReverse.cpp:225). -/
def l225 (x : Fin 36 → ℝ) : ℝ := Real.cos (x 10)

/-- `v_[164]` (HyQForwardKinJacReverse.cpp:226). -/
def l226 (x : Fin 36 → ℝ) : ℝ := l224 x * l225 x

/-- `v_[165]` (HyQForwardKinJacReverse.cpp:227). -/
def l227 (x : Fin 36 → ℝ) : ℝ := Real.cos (x 11)

/-- `v_[166]` (HyQForwardKinJacReverse.cpp:228). -/
def l228 (x : Fin 36 → ℝ) : ℝ := (7 / 20) * l219 x

/-- `v_[167]` (HyQForwardKinJacReverse.cpp:229). -/
def l229 (x : Fin 36 → ℝ) : ℝ := l222 x * l223 x - l226 x * l227 x - l228 x * l225 x - (2 / 25) * l219 x

/-- `v_[168]` (HyQForwardKinJacReverse.cpp:230). -/
def l230 (x : Fin 36 → ℝ) : ℝ := (1 / 2) * x 0

/-- `v_[169]` (HyQForwardKinJacReverse.cpp:231). -/
def l231 (x : Fin 36 → ℝ) : ℝ := Real.cos (l230 x)

/-- `v_[170]` (HyQForwardKinJacReverse.cpp:232). -/
def l232 (x : Fin 36 → ℝ) : ℝ := (1 / 2) * x 1

/-- `v_[171]` (HyQForwardKinJacReverse.cpp:233). -/
def l233 (x : Fin 36 → ℝ) : ℝ := Real.cos (l232 x)

/-- `v_[172]` (HyQForwardKinJacReverse.cpp:234). -/
def l234 (x : Fin 36 → ℝ) : ℝ := l231 x * l233 x

/-- `v_[173]` (HyQForwardKinJacReverse.cpp:235). -/
def l235 (x : Fin 36 → ℝ) : ℝ := (1 / 2) * x 2

/-- `v_[174]` (HyQForwardKinJacReverse.cpp:236). -/
def l236 (x : Fin 36 → ℝ) : ℝ := Real.sin (l235 x)

/-- `v_[175]` (HyQForwardKinJacReverse.cpp:237). -/
def l237 (x : Fin 36 → ℝ) : ℝ := Real.sin (l230 x)

/-- `v_[176]` (HyQForwardKinJacReverse.cpp:238). -/
def l238 (x : Fin 36 → ℝ) : ℝ := Real.sin (l232 x)

/-- `v_[177]` (HyQForwardKinJacReverse.cpp:239). -/
def l239 (x : Fin 36 → ℝ) : ℝ := l237 x * l238 x

/-- `v_[178]` (HyQForwardKinJacReverse.cpp:240). -/
def l240 (x : Fin 36 → ℝ) : ℝ := Real.cos (l235 x)

/-- `v_[179]` (HyQForwardKinJacReverse.cpp:241). -/
def l241 (x : Fin 36 → ℝ) : ℝ := l234 x * l236 x + l239 x * l240 x

/-- `v_[180]` (HyQForwardKinJacReverse.cpp:242). -/
def l242 (x : Fin 36 → ℝ) : ℝ := 2 * l241 x

/-- `v_[181]` (HyQForwardKinJacReverse.cpp:243). -/
def l243 (x : Fin 36 → ℝ) : ℝ := Real.sin (x 9)

/-- `v_[182]` (HyQForwardKinJacReverse.cpp:244). -/
def l244 (x : Fin 36 → ℝ) : ℝ := (33 / 100) * l243 x

/-- `v_[183]` (HyQForwardKinJacReverse.cpp:245). -/
def l245 (x : Fin 36 → ℝ) : ℝ := l244 x * l225 x

/-- `v_[184]` (HyQForwardKinJacReverse.cpp:246). -/
def l246 (x : Fin 36 → ℝ) : ℝ := -(33 / 100) * l243 x

/-- `v_[185]` (HyQForwardKinJacReverse.cpp:247). -/
def l247 (x : Fin 36 → ℝ) : ℝ := l246 x * l221 x

/-- `v_[186]` (HyQForwardKinJacReverse.cpp:248). -/
def l248 (x : Fin 36 → ℝ) : ℝ := (7 / 20) * l243 x

/-- `v_[187]` (HyQForwardKinJacReverse.cpp:249). -/
def l249 (x : Fin 36 → ℝ) : ℝ := -(207 / 1000) + l245 x * l227 x + l247 x * l223 x + l248 x * l225 x + (2 / 25) * l243 x

/-- `v_[188]` (HyQForwardKinJacReverse.cpp:250). -/
def l250 (x : Fin 36 → ℝ) : ℝ := l231 x * l238 x

/-- `v_[189]` (HyQForwardKinJacReverse.cpp:251). -/
def l251 (x : Fin 36 → ℝ) : ℝ := l237 x * l233 x

/-- `v_[190]` (HyQForwardKinJacReverse.cpp:252). -/
def l252 (x : Fin 36 → ℝ) : ℝ := l250 x * l240 x - l251 x * l236 x

/-- `v_[191]` (HyQForwardKinJacReverse.cpp:253). -/
def l253 (x : Fin 36 → ℝ) : ℝ := 2 * l252 x

/-- `v_[192]` (HyQForwardKinJacReverse.cpp:254). -/
def l254 (x : Fin 36 → ℝ) : ℝ := l229 x * l242 x + l249 x * l253 x

/-- `v_[193]` (HyQForwardKinJacReverse.cpp:255). -/
def l255 (x : Fin 36 → ℝ) : ℝ := -(33 / 100) * l225 x

/-- `v_[194]` (HyQForwardKinJacReverse.cpp:256). -/
def l256 (x : Fin 36 → ℝ) : ℝ := (33 / 100) * l221 x

/-- `v_[195]` (HyQForwardKinJacReverse.cpp:257). -/
def l257 (x : Fin 36 → ℝ) : ℝ := (747 / 2000) + l255 x * l223 x - l256 x * l227 x - (7 / 20) * l221 x

/-- `v_[196]` (HyQForwardKinJacReverse.cpp:258). -/
def l258 (x : Fin 36 → ℝ) : ℝ := 0 - l257 x

/-- `v_[197]` (HyQForwardKinJacReverse.cpp:259). -/
def l259 (x : Fin 36 → ℝ) : ℝ := l251 x * l240 x + l250 x * l236 x

/-- `v_[198]` (HyQForwardKinJacReverse.cpp:260). -/
def l260 (x : Fin 36 → ℝ) : ℝ := l234 x * l240 x - l239 x * l236 x

/-- `v_[196]` (HyQForwardKinJacReverse.cpp:261). -/
def l261 (x : Fin 36 → ℝ) : ℝ := l258 x * l253 x + (l258 x * l252 x + l249 x * l259 x + l229 x * l260 x) * 2

/-- `v_[199]` (HyQForwardKinJacReverse.cpp:262). -/
def l262 (x : Fin 36 → ℝ) : ℝ := 0 - l261 x

/-- `v_[200]` (HyQForwardKinJacReverse.cpp:263). -/
def l263 (x : Fin 36 → ℝ) : ℝ := l254 x * l240 x + l262 x * l236 x

/-- `v_[201]` (HyQForwardKinJacReverse.cpp:264). -/
def l264 (x : Fin 36 → ℝ) : ℝ := 0 - l249 x

/-- `v_[202]` (HyQForwardKinJacReverse.cpp:265). -/
def l265 (x : Fin 36 → ℝ) : ℝ := l264 x * l242 x + l229 x * l253 x

/-- `v_[203]` (HyQForwardKinJacReverse.cpp:266). -/
def l266 (x : Fin 36 → ℝ) : ℝ := 0 - l265 x

/-- `v_[204]` (HyQForwardKinJacReverse.cpp:267). -/
def l267 (x : Fin 36 → ℝ) : ℝ := 0 - l257 x

/-- `v_[204]` (HyQForwardKinJacReverse.cpp:268). -/
def l268 (x : Fin 36 → ℝ) : ℝ := l267 x * l242 x + (l267 x * l241 x + l229 x * l259 x + l264 x * l260 x) * 2

/-- `v_[201]` (HyQForwardKinJacReverse.cpp:269). -/
def l269 (x : Fin 36 → ℝ) : ℝ := l266 x * l236 x + l268 x * l240 x

/-- `v_[205]` (HyQForwardKinJacReverse.cpp:270). -/
def l270 (x : Fin 36 → ℝ) : ℝ := Real.cos (l230 x)

/-- `v_[206]` (HyQForwardKinJacReverse.cpp:271). -/
def l271 (x : Fin 36 → ℝ) : ℝ := l265 x * l240 x + l268 x * l236 x

/-- `v_[207]` (HyQForwardKinJacReverse.cpp:272). -/
def l272 (x : Fin 36 → ℝ) : ℝ := l254 x * l236 x + l261 x * l240 x

/-- `v_[168]` (HyQForwardKinJacReverse.cpp:273). -/
def l273 (x : Fin 36 → ℝ) : ℝ := Real.sin (l230 x)

/-- `jac[6]` (HyQForwardKinJacReverse.cpp:274). -/
def l274 (x : Fin 36 → ℝ) : ℝ := ((l263 x * l233 x + l269 x * l238 x) * l270 x - (l271 x * l233 x + l272 x * l238 x) * l273 x) * (1 / 2)

/-- `v_[208]` (HyQForwardKinJacReverse.cpp:275). -/
def l275 (x : Fin 36 → ℝ) : ℝ := 0 - l249 x

/-- `v_[209]` (HyQForwardKinJacReverse.cpp:276). -/
def l276 (x : Fin 36 → ℝ) : ℝ := 2 * l259 x

/-- `v_[210]` (HyQForwardKinJacReverse.cpp:277). -/
def l277 (x : Fin 36 → ℝ) : ℝ := 0 - l229 x

/-- `v_[208]` (HyQForwardKinJacReverse.cpp:278). -/
def l278 (x : Fin 36 → ℝ) : ℝ := l257 x * l253 x + l275 x * l276 x + (l275 x * l259 x + l277 x * l260 x) * 2

/-- `v_[211]` (HyQForwardKinJacReverse.cpp:279). -/
def l279 (x : Fin 36 → ℝ) : ℝ := l229 x * l242 x + l257 x * l259 x * 2

/-- `v_[212]` (HyQForwardKinJacReverse.cpp:280). -/
def l280 (x : Fin 36 → ℝ) : ℝ := 0 - l279 x

/-- `v_[213]` (HyQForwardKinJacReverse.cpp:281). -/
def l281 (x : Fin 36 → ℝ) : ℝ := l278 x * l240 x + l280 x * l236 x

/-- `v_[210]` (HyQForwardKinJacReverse.cpp:282). -/
def l282 (x : Fin 36 → ℝ) : ℝ := l257 x * l242 x + l277 x * l276 x

/-- `v_[214]` (HyQForwardKinJacReverse.cpp:283). -/
def l283 (x : Fin 36 → ℝ) : ℝ := 0 - l282 x

/-- `v_[215]` (HyQForwardKinJacReverse.cpp:284). -/
def l284 (x : Fin 36 → ℝ) : ℝ := 0 - l249 x

/-- `v_[215]` (HyQForwardKinJacReverse.cpp:285). -/
def l285 (x : Fin 36 → ℝ) : ℝ := l284 x * l242 x + (l284 x * l241 x + l229 x * l252 x + l257 x * l260 x) * 2

/-- `v_[216]` (HyQForwardKinJacReverse.cpp:286). -/
def l286 (x : Fin 36 → ℝ) : ℝ := l283 x * l236 x + l285 x * l240 x

/-- `v_[217]` (HyQForwardKinJacReverse.cpp:287). -/
def l287 (x : Fin 36 → ℝ) : ℝ := l282 x * l240 x + l285 x * l236 x

/-- `v_[218]` (HyQForwardKinJacReverse.cpp:288). -/
def l288 (x : Fin 36 → ℝ) : ℝ := l278 x * l236 x + l279 x * l240 x

/-- `jac[7]` (HyQForwardKinJacReverse.cpp:289). -/
def l289 (x : Fin 36 → ℝ) : ℝ := ((l281 x * l233 x + l286 x * l238 x) * l270 x - (l287 x * l233 x + l288 x * l238 x) * l273 x) * (1 / 2)

/-- `v_[219]` (HyQForwardKinJacReverse.cpp:290). -/
def l290 (x : Fin 36 → ℝ) : ℝ := 0 - l229 x

/-- `v_[219]` (HyQForwardKinJacReverse.cpp:291). -/
def l291 (x : Fin 36 → ℝ) : ℝ := l257 x * l242 x + l290 x * l276 x + (l290 x * l259 x + l249 x * l260 x) * 2

/-- `v_[167]` (HyQForwardKinJacReverse.cpp:292). -/
def l292 (x : Fin 36 → ℝ) : ℝ := 0 - l229 x

/-- `v_[220]` (HyQForwardKinJacReverse.cpp:293). -/
def l293 (x : Fin 36 → ℝ) : ℝ := 0 - l257 x

/-- `v_[167]` (HyQForwardKinJacReverse.cpp:294). -/
def l294 (x : Fin 36 → ℝ) : ℝ := l249 x * l242 x + l292 x * l253 x + (l292 x * l252 x + l293 x * l260 x) * 2

/-- `v_[221]` (HyQForwardKinJacReverse.cpp:295). -/
def l295 (x : Fin 36 → ℝ) : ℝ := 0 - l294 x

/-- `v_[222]` (HyQForwardKinJacReverse.cpp:296). -/
def l296 (x : Fin 36 → ℝ) : ℝ := l291 x * l240 x + l295 x * l236 x

/-- `v_[220]` (HyQForwardKinJacReverse.cpp:297). -/
def l297 (x : Fin 36 → ℝ) : ℝ := l293 x * l253 x + l249 x * l276 x

/-- `v_[223]` (HyQForwardKinJacReverse.cpp:298). -/
def l298 (x : Fin 36 → ℝ) : ℝ := 0 - l297 x

/-- `v_[195]` (HyQForwardKinJacReverse.cpp:299). -/
def l299 (x : Fin 36 → ℝ) : ℝ := (l249 x * l252 x + l257 x * l259 x) * 2

/-- `v_[187]` (HyQForwardKinJacReverse.cpp:300). -/
def l300 (x : Fin 36 → ℝ) : ℝ := l298 x * l236 x + l299 x * l240 x

/-- `v_[224]` (HyQForwardKinJacReverse.cpp:301). -/
def l301 (x : Fin 36 → ℝ) : ℝ := l297 x * l240 x + l299 x * l236 x

/-- `v_[178]` (HyQForwardKinJacReverse.cpp:302). -/
def l302 (x : Fin 36 → ℝ) : ℝ := l291 x * l236 x + l294 x * l240 x

/-- `jac[8]` (HyQForwardKinJacReverse.cpp:303). -/
def l303 (x : Fin 36 → ℝ) : ℝ := ((l296 x * l233 x + l300 x * l238 x) * l270 x - (l301 x * l233 x + l302 x * l238 x) * l273 x) * (1 / 2)

/-- `v_[168]` (HyQForwardKinJacReverse.cpp:304). -/
def l304 (x : Fin 36 → ℝ) : ℝ := (33 / 100) * l219 x

/-- `v_[205]` (HyQForwardKinJacReverse.cpp:305). -/
def l305 (x : Fin 36 → ℝ) : ℝ := l304 x * l225 x

/-- `v_[176]` (HyQForwardKinJacReverse.cpp:306). -/
def l306 (x : Fin 36 → ℝ) : ℝ := (33 / 100) * l219 x

/-- `v_[171]` (HyQForwardKinJacReverse.cpp:307). -/
def l307 (x : Fin 36 → ℝ) : ℝ := l306 x * l221 x

/-- `v_[174]` (HyQForwardKinJacReverse.cpp:308). -/
def l308 (x : Fin 36 → ℝ) : ℝ := l305 x * l223 x + l307 x * l227 x

/-- `v_[225]` (HyQForwardKinJacReverse.cpp:309). -/
def l309 (x : Fin 36 → ℝ) : ℝ := l304 x * l221 x

/-- `v_[226]` (HyQForwardKinJacReverse.cpp:310). -/
def l310 (x : Fin 36 → ℝ) : ℝ := (33 / 100) * l219 x

/-- `v_[227]` (HyQForwardKinJacReverse.cpp:311). -/
def l311 (x : Fin 36 → ℝ) : ℝ := l310 x * l225 x

/-- `v_[228]` (HyQForwardKinJacReverse.cpp:312). -/
def l312 (x : Fin 36 → ℝ) : ℝ := (7 / 20) * l219 x

/-- `v_[229]` (HyQForwardKinJacReverse.cpp:313). -/
def l313 (x : Fin 36 → ℝ) : ℝ := l309 x * l227 x + l311 x * l223 x + l312 x * l221 x

/-- `v_[230]` (HyQForwardKinJacReverse.cpp:314). -/
def l314 (x : Fin 36 → ℝ) : ℝ := (33 / 100) * l243 x

/-- `v_[231]` (HyQForwardKinJacReverse.cpp:315). -/
def l315 (x : Fin 36 → ℝ) : ℝ := l314 x * l225 x

/-- `v_[232]` (HyQForwardKinJacReverse.cpp:316). -/
def l316 (x : Fin 36 → ℝ) : ℝ := -(33 / 100) * l243 x

/-- `v_[233]` (HyQForwardKinJacReverse.cpp:317). -/
def l317 (x : Fin 36 → ℝ) : ℝ := l316 x * l221 x

/-- `v_[234]` (HyQForwardKinJacReverse.cpp:318). -/
def l318 (x : Fin 36 → ℝ) : ℝ := (7 / 20) * l243 x

/-- `v_[235]` (HyQForwardKinJacReverse.cpp:319). -/
def l319 (x : Fin 36 → ℝ) : ℝ := l315 x * l227 x + l317 x * l223 x + l318 x * l225 x + (2 / 25) * l243 x

/-- `v_[236]` (HyQForwardKinJacReverse.cpp:320). -/
def l320 (x : Fin 36 → ℝ) : ℝ := (33 / 100) * l243 x

/-- `v_[237]` (HyQForwardKinJacReverse.cpp:321). -/
def l321 (x : Fin 36 → ℝ) : ℝ := l320 x * l225 x

/-- `v_[238]` (HyQForwardKinJacReverse.cpp:322). -/
def l322 (x : Fin 36 → ℝ) : ℝ := -(33 / 100) * l243 x

/-- `v_[239]` (HyQForwardKinJacReverse.cpp:323). -/
def l323 (x : Fin 36 → ℝ) : ℝ := l322 x * l221 x

/-- `v_[240]` (HyQForwardKinJacReverse.cpp:324). -/
def l324 (x : Fin 36 → ℝ) : ℝ := (7 / 20) * l243 x

/-- `v_[241]` (HyQForwardKinJacReverse.cpp:325). -/
def l325 (x : Fin 36 → ℝ) : ℝ := -(207 / 1000) + l321 x * l227 x + l323 x * l223 x + l324 x * l225 x + (2 / 25) * l243 x

/-- `v_[242]` (HyQForwardKinJacReverse.cpp:326). -/
def l326 (x : Fin 36 → ℝ) : ℝ := -(33 / 100) * l225 x

/-- `v_[243]` (HyQForwardKinJacReverse.cpp:327). -/
def l327 (x : Fin 36 → ℝ) : ℝ := (33 / 100) * l221 x

/-- `v_[244]` (HyQForwardKinJacReverse.cpp:328). -/
def l328 (x : Fin 36 → ℝ) : ℝ := (747 / 2000) + l326 x * l223 x - l327 x * l227 x - (7 / 20) * l221 x

/-- `v_[245]` (HyQForwardKinJacReverse.cpp:329). -/
def l329 (x : Fin 36 → ℝ) : ℝ := l308 x * x 29 + l313 x * x 28 + l319 x * x 27 + x 23 + x 18 * l325 x - x 19 * l328 x

/-- `v_[246]` (HyQForwardKinJacReverse.cpp:330). -/
def l330 (x : Fin 36 → ℝ) : ℝ := (1 / 2) * x 0

/-- `v_[247]` (HyQForwardKinJacReverse.cpp:331). -/
def l331 (x : Fin 36 → ℝ) : ℝ := Real.cos (l330 x)

/-- `v_[248]` (HyQForwardKinJacReverse.cpp:332). -/
def l332 (x : Fin 36 → ℝ) : ℝ := (1 / 2) * x 1

/-- `v_[249]` (HyQForwardKinJacReverse.cpp:333). -/
def l333 (x : Fin 36 → ℝ) : ℝ := Real.cos (l332 x)

/-- `v_[250]` (HyQForwardKinJacReverse.cpp:334). -/
def l334 (x : Fin 36 → ℝ) : ℝ := l331 x * l333 x

/-- `v_[251]` (HyQForwardKinJacReverse.cpp:335). -/
def l335 (x : Fin 36 → ℝ) : ℝ := (1 / 2) * x 2

/-- `v_[252]` (HyQForwardKinJacReverse.cpp:336). -/
def l336 (x : Fin 36 → ℝ) : ℝ := Real.sin (l335 x)

/-- `v_[253]` (HyQForwardKinJacReverse.cpp:337). -/
def l337 (x : Fin 36 → ℝ) : ℝ := Real.sin (l330 x)

/-- `v_[254]` (HyQForwardKinJacReverse.cpp:338). -/
def l338 (x : Fin 36 → ℝ) : ℝ := Real.sin (l332 x)

/-- `v_[255]` (HyQForwardKinJacReverse.cpp:339). -/
def l339 (x : Fin 36 → ℝ) : ℝ := l337 x * l338 x

/-- `v_[256]` (HyQForwardKinJacReverse.cpp:340). -/
def l340 (x : Fin 36 → ℝ) : ℝ := Real.cos (l335 x)

/-- `v_[257]` (HyQForwardKinJacReverse.cpp:341). -/
def l341 (x : Fin 36 → ℝ) : ℝ := l334 x * l336 x + l339 x * l340 x

/-- `v_[258]` (HyQForwardKinJacReverse.cpp:342). -/
def l342 (x : Fin 36 → ℝ) : ℝ := 2 * l341 x

/-- `v_[259]` (HyQForwardKinJacReverse.cpp:343). -/
def l343 (x : Fin 36 → ℝ) : ℝ := -(33 / 100) * l243 x

/-- `v_[260]` (HyQForwardKinJacReverse.cpp:344). -/
def l344 (x : Fin 36 → ℝ) : ℝ := l343 x * l225 x

/-- `v_[261]` (HyQForwardKinJacReverse.cpp:345). -/
def l345 (x : Fin 36 → ℝ) : ℝ := (33 / 100) * l243 x

/-- `v_[262]` (HyQForwardKinJacReverse.cpp:346). -/
def l346 (x : Fin 36 → ℝ) : ℝ := l345 x * l221 x

/-- `v_[263]` (HyQForwardKinJacReverse.cpp:347). -/
def l347 (x : Fin 36 → ℝ) : ℝ := l344 x * l223 x - l346 x * l227 x

/-- `v_[264]` (HyQForwardKinJacReverse.cpp:348). -/
def l348 (x : Fin 36 → ℝ) : ℝ := l316 x * l225 x

/-- `v_[265]` (HyQForwardKinJacReverse.cpp:349). -/
def l349 (x : Fin 36 → ℝ) : ℝ := (33 / 100) * l243 x

/-- `v_[266]` (HyQForwardKinJacReverse.cpp:350). -/
def l350 (x : Fin 36 → ℝ) : ℝ := l349 x * l221 x

/-- `v_[181]` (HyQForwardKinJacReverse.cpp:351). -/
def l351 (x : Fin 36 → ℝ) : ℝ := (7 / 20) * l243 x

/-- `v_[267]` (HyQForwardKinJacReverse.cpp:352). -/
def l352 (x : Fin 36 → ℝ) : ℝ := l348 x * l223 x - l350 x * l227 x - l351 x * l221 x

/-- `v_[268]` (HyQForwardKinJacReverse.cpp:353). -/
def l353 (x : Fin 36 → ℝ) : ℝ := (33 / 100) * l219 x

/-- `v_[269]` (HyQForwardKinJacReverse.cpp:354). -/
def l354 (x : Fin 36 → ℝ) : ℝ := l353 x * l225 x

/-- `v_[270]` (HyQForwardKinJacReverse.cpp:355). -/
def l355 (x : Fin 36 → ℝ) : ℝ := -(33 / 100) * l219 x

/-- `v_[271]` (HyQForwardKinJacReverse.cpp:356). -/
def l356 (x : Fin 36 → ℝ) : ℝ := l355 x * l221 x

/-- `v_[272]` (HyQForwardKinJacReverse.cpp:357). -/
def l357 (x : Fin 36 → ℝ) : ℝ := (7 / 20) * l219 x

/-- `v_[273]` (HyQForwardKinJacReverse.cpp:358). -/
def l358 (x : Fin 36 → ℝ) : ℝ := l354 x * l227 x + l356 x * l223 x + l357 x * l225 x + (2 / 25) * l219 x

/-- `v_[274]` (HyQForwardKinJacReverse.cpp:359). -/
def l359 (x : Fin 36 → ℝ) : ℝ := (33 / 100) * l219 x

/-- `v_[275]` (HyQForwardKinJacReverse.cpp:360). -/
def l360 (x : Fin 36 → ℝ) : ℝ := l359 x * l221 x

/-- `v_[276]` (HyQForwardKinJacReverse.cpp:361). -/
def l361 (x : Fin 36 → ℝ) : ℝ := (33 / 100) * l219 x

/-- `v_[277]` (HyQForwardKinJacReverse.cpp:362). -/
def l362 (x : Fin 36 → ℝ) : ℝ := l361 x * l225 x

/-- `v_[278]` (HyQForwardKinJacReverse.cpp:363). -/
def l363 (x : Fin 36 → ℝ) : ℝ := (7 / 20) * l219 x

/-- `v_[89]` (HyQForwardKinJacReverse.cpp:364). -/
def l364 (x : Fin 36 → ℝ) : ℝ := l360 x * l223 x - l362 x * l227 x - l363 x * l225 x - (2 / 25) * l219 x

/-- `v_[279]` (HyQForwardKinJacReverse.cpp:365). -/
def l365 (x : Fin 36 → ℝ) : ℝ := l347 x * x 29 + l352 x * x 28 + l358 x * x 27 + x 22 + x 20 * l328 x - x 18 * l364 x

/-- `v_[280]` (HyQForwardKinJacReverse.cpp:366). -/
def l366 (x : Fin 36 → ℝ) : ℝ := l331 x * l338 x

/-- `v_[281]` (HyQForwardKinJacReverse.cpp:367). -/
def l367 (x : Fin 36 → ℝ) : ℝ := l337 x * l333 x

/-- `v_[282]` (HyQForwardKinJacReverse.cpp:368). -/
def l368 (x : Fin 36 → ℝ) : ℝ := l366 x * l340 x - l367 x * l336 x

/-- `v_[283]` (HyQForwardKinJacReverse.cpp:369). -/
def l369 (x : Fin 36 → ℝ) : ℝ := 2 * l368 x

/-- `v_[284]` (HyQForwardKinJacReverse.cpp:370). -/
def l370 (x : Fin 36 → ℝ) : ℝ := l329 x * l342 x + l365 x * l369 x

/-- `v_[285]` (HyQForwardKinJacReverse.cpp:371). -/
def l371 (x : Fin 36 → ℝ) : ℝ := (33 / 100) * l221 x

/-- `v_[286]` (HyQForwardKinJacReverse.cpp:372). -/
def l372 (x : Fin 36 → ℝ) : ℝ := (33 / 100) * l225 x

/-- `v_[287]` (HyQForwardKinJacReverse.cpp:373). -/
def l373 (x : Fin 36 → ℝ) : ℝ := l371 x * l223 x - l372 x * l227 x

/-- `v_[288]` (HyQForwardKinJacReverse.cpp:374). -/
def l374 (x : Fin 36 → ℝ) : ℝ := (33 / 100) * l221 x

/-- `v_[289]` (HyQForwardKinJacReverse.cpp:375). -/
def l375 (x : Fin 36 → ℝ) : ℝ := (33 / 100) * l225 x

/-- `v_[290]` (HyQForwardKinJacReverse.cpp:376). -/
def l376 (x : Fin 36 → ℝ) : ℝ := l374 x * l223 x - l375 x * l227 x - (7 / 20) * l225 x

/-- `v_[291]` (HyQForwardKinJacReverse.cpp:377). -/
def l377 (x : Fin 36 → ℝ) : ℝ := l373 x * x 29 + l376 x * x 28 + x 21 + x 19 * l364 x - x 20 * l325 x

/-- `v_[292]` (HyQForwardKinJacReverse.cpp:378). -/
def l378 (x : Fin 36 → ℝ) : ℝ := 0 - l377 x

/-- `v_[293]` (HyQForwardKinJacReverse.cpp:379). -/
def l379 (x : Fin 36 → ℝ) : ℝ := l367 x * l340 x + l366 x * l336 x

/-- `v_[294]` (HyQForwardKinJacReverse.cpp:380). -/
def l380 (x : Fin 36 → ℝ) : ℝ := l334 x * l340 x - l339 x * l336 x

/-- `v_[292]` (HyQForwardKinJacReverse.cpp:381). -/
def l381 (x : Fin 36 → ℝ) : ℝ := l378 x * l369 x + (l378 x * l368 x + l365 x * l379 x + l329 x * l380 x) * 2

/-- `v_[295]` (HyQForwardKinJacReverse.cpp:382). -/
def l382 (x : Fin 36 → ℝ) : ℝ := 0 - l381 x

/-- `v_[296]` (HyQForwardKinJacReverse.cpp:383). -/
def l383 (x : Fin 36 → ℝ) : ℝ := l370 x * l340 x + l382 x * l336 x

/-- `v_[297]` (HyQForwardKinJacReverse.cpp:384). -/
def l384 (x : Fin 36 → ℝ) : ℝ := 0 - l365 x

/-- `v_[298]` (HyQForwardKinJacReverse.cpp:385). -/
def l385 (x : Fin 36 → ℝ) : ℝ := l384 x * l342 x + l329 x * l369 x

/-- `v_[299]` (HyQForwardKinJacReverse.cpp:386). -/
def l386 (x : Fin 36 → ℝ) : ℝ := 0 - l385 x

/-- `v_[300]` (HyQForwardKinJacReverse.cpp:387). -/
def l387 (x : Fin 36 → ℝ) : ℝ := 0 - l377 x

/-- `v_[300]` (HyQForwardKinJacReverse.cpp:388). -/
def l388 (x : Fin 36 → ℝ) : ℝ := l387 x * l342 x + (l387 x * l341 x + l329 x * l379 x + l384 x * l380 x) * 2

/-- `v_[297]` (HyQForwardKinJacReverse.cpp:389). -/
def l389 (x : Fin 36 → ℝ) : ℝ := l386 x * l336 x + l388 x * l340 x

/-- `v_[301]` (HyQForwardKinJacReverse.cpp:390). -/
def l390 (x : Fin 36 → ℝ) : ℝ := Real.cos (l330 x)

/-- `v_[302]` (HyQForwardKinJacReverse.cpp:391). -/
def l391 (x : Fin 36 → ℝ) : ℝ := l385 x * l340 x + l388 x * l336 x

/-- `v_[303]` (HyQForwardKinJacReverse.cpp:392). -/
def l392 (x : Fin 36 → ℝ) : ℝ := l370 x * l336 x + l381 x * l340 x

/-- `v_[246]` (HyQForwardKinJacReverse.cpp:393). -/
def l393 (x : Fin 36 → ℝ) : ℝ := Real.sin (l330 x)

/-- `jac[9]` (HyQForwardKinJacReverse.cpp:394). -/
def l394 (x : Fin 36 → ℝ) : ℝ := ((l383 x * l333 x + l389 x * l338 x) * l390 x - (l391 x * l333 x + l392 x * l338 x) * l393 x) * (1 / 2)

/-- `v_[304]` (HyQForwardKinJacReverse.cpp:395). -/
def l395 (x : Fin 36 → ℝ) : ℝ := 0 - l365 x

/-- `v_[305]` (HyQForwardKinJacReverse.cpp:396). -/
def l396 (x : Fin 36 → ℝ) : ℝ := 2 * l379 x

/-- `v_[306]` (HyQForwardKinJacReverse.cpp:397). -/
def l397 (x : Fin 36 → ℝ) : ℝ := 0 - l329 x

/-- `v_[304]` (HyQForwardKinJacReverse.cpp:398). -/
def l398 (x : Fin 36 → ℝ) : ℝ := l377 x * l369 x + l395 x * l396 x + (l395 x * l379 x + l397 x * l380 x) * 2

/-- `v_[307]` (HyQForwardKinJacReverse.cpp:399). -/
def l399 (x : Fin 36 → ℝ) : ℝ := l329 x * l342 x + l377 x * l379 x * 2

/-- `v_[308]` (HyQForwardKinJacReverse.cpp:400). -/
def l400 (x : Fin 36 → ℝ) : ℝ := 0 - l399 x

/-- `v_[309]` (HyQForwardKinJacReverse.cpp:401). -/
def l401 (x : Fin 36 → ℝ) : ℝ := l398 x * l340 x + l400 x * l336 x

/-- `v_[306]` (HyQForwardKinJacReverse.cpp:402). -/
def l402 (x : Fin 36 → ℝ) : ℝ := l377 x * l342 x + l397 x * l396 x

/-- `v_[310]` (HyQForwardKinJacReverse.cpp:403). -/
def l403 (x : Fin 36 → ℝ) : ℝ := 0 - l402 x

/-- `v_[311]` (HyQForwardKinJacReverse.cpp:404). -/
def l404 (x : Fin 36 → ℝ) : ℝ := 0 - l365 x

/-- `v_[311]` (HyQForwardKinJacReverse.cpp:405). -/
def l405 (x : Fin 36 → ℝ) : ℝ := l404 x * l342 x + (l404 x * l341 x + l329 x * l368 x + l377 x * l380 x) * 2

/-- `v_[312]` (HyQForwardKinJacReverse.cpp:406). -/
def l406 (x : Fin 36 → ℝ) : ℝ := l403 x * l336 x + l405 x * l340 x

/-- `v_[313]` (HyQForwardKinJacReverse.cpp:407). -/
def l407 (x : Fin 36 → ℝ) : ℝ := l402 x * l340 x + l405 x * l336 x

/-- `v_[314]` (HyQForwardKinJacReverse.cpp:408). -/
def l408 (x : Fin 36 → ℝ) : ℝ := l398 x * l336 x + l399 x * l340 x

/-- `jac[10]` (HyQForwardKinJacReverse.cpp:409). -/
def l409 (x : Fin 36 → ℝ) : ℝ := ((l401 x * l333 x + l406 x * l338 x) * l390 x - (l407 x * l333 x + l408 x * l338 x) * l393 x) * (1 / 2)

/-- `v_[315]` (HyQForwardKinJacReverse.cpp:410). -/
def l410 (x : Fin 36 → ℝ) : ℝ := 0 - l329 x

/-- `v_[315]` (HyQForwardKinJacReverse.cpp:411). -/
def l411 (x : Fin 36 → ℝ) : ℝ := l377 x * l342 x + l410 x * l396 x + (l410 x * l379 x + l365 x * l380 x) * 2

/-- `v_[245]` (HyQForwardKinJacReverse.cpp:412). -/
def l412 (x : Fin 36 → ℝ) : ℝ := 0 - l329 x

/-- `v_[316]` (HyQForwardKinJacReverse.cpp:413). -/
def l413 (x : Fin 36 → ℝ) : ℝ := 0 - l377 x

/-- `v_[245]` (HyQForwardKinJacReverse.cpp:414). -/
def l414 (x : Fin 36 → ℝ) : ℝ := l365 x * l342 x + l412 x * l369 x + (l412 x * l368 x + l413 x * l380 x) * 2

/-- `v_[317]` (HyQForwardKinJacReverse.cpp:415). -/
def l415 (x : Fin 36 → ℝ) : ℝ := 0 - l414 x

/-- `v_[318]` (HyQForwardKinJacReverse.cpp:416). -/
def l416 (x : Fin 36 → ℝ) : ℝ := l411 x * l340 x + l415 x * l336 x

/-- `v_[316]` (HyQForwardKinJacReverse.cpp:417). -/
def l417 (x : Fin 36 → ℝ) : ℝ := l413 x * l369 x + l365 x * l396 x

/-- `v_[319]` (HyQForwardKinJacReverse.cpp:418). -/
def l418 (x : Fin 36 → ℝ) : ℝ := 0 - l417 x

/-- `v_[291]` (HyQForwardKinJacReverse.cpp:419). -/
def l419 (x : Fin 36 → ℝ) : ℝ := (l365 x * l368 x + l377 x * l379 x) * 2

/-- `v_[279]` (HyQForwardKinJacReverse.cpp:420). -/
def l420 (x : Fin 36 → ℝ) : ℝ := l418 x * l336 x + l419 x * l340 x

/-- `v_[320]` (HyQForwardKinJacReverse.cpp:421). -/
def l421 (x : Fin 36 → ℝ) : ℝ := l417 x * l340 x + l419 x * l336 x

/-- `v_[256]` (HyQForwardKinJacReverse.cpp:422). -/
def l422 (x : Fin 36 → ℝ) : ℝ := l411 x * l336 x + l414 x * l340 x

/-- `jac[11]` (HyQForwardKinJacReverse.cpp:423). -/
def l423 (x : Fin 36 → ℝ) : ℝ := ((l416 x * l333 x + l420 x * l338 x) * l390 x - (l421 x * l333 x + l422 x * l338 x) * l393 x) * (1 / 2)

/-- `v_[246]` (HyQForwardKinJacReverse.cpp:424). -/
def l424 (x : Fin 36 → ℝ) : ℝ := Real.cos (x 12)

/-- `v_[301]` (HyQForwardKinJacReverse.cpp:425). -/
def l425 (x : Fin 36 → ℝ) : ℝ := (33 / 100) * l424 x

/-- `v_[254]` (HyQForwardKinJacReverse.cpp:426). -/
def l426 (x : Fin 36 → ℝ) : ℝ := Real.sin (x 13)

/-- `v_[249]` (HyQForwardKinJacReverse.cpp:427). -/
def l427 (x : Fin 36 → ℝ) : ℝ := l425 x * l426 x

/-- `v_[252]` (HyQForwardKinJacReverse.cpp:428). -/
def l428 (x : Fin 36 → ℝ) : ℝ := Real.sin (x 14)

/-- `v_[321]` (HyQForwardKinJacReverse.cpp:429). -/
def l429 (x : Fin 36 → ℝ) : ℝ := (33 / 100) * l424 x

/-- `v_[322]` (HyQForwardKinJacReverse.cpp:430). -/
def l430 (x : Fin 36 → ℝ) : ℝ := Real.cos (x 13)

/-- `v_[323]` (HyQForwardKinJacReverse.cpp:431). -/
def l431 (x : Fin 36 → ℝ) : ℝ := l429 x * l430 x

/-- `v_[324]` (HyQForwardKinJacReverse.cpp:432). -/
def l432 (x : Fin 36 → ℝ) : ℝ := Real.cos (x 14)

/-- `v_[325]` (HyQForwardKinJacReverse.cpp:433). -/
def l433 (x : Fin 36 → ℝ) : ℝ := (7 / 20) * l424 x

/-- `v_[326]` (HyQForwardKinJacReverse.cpp:434). -/
def l434 (x : Fin 36 → ℝ) : ℝ := l427 x * l428 x - l431 x * l432 x - l433 x * l430 x - (2 / 25) * l424 x

/-- `v_[327]` (HyQForwardKinJacReverse.cpp:435). -/
def l435 (x : Fin 36 → ℝ) : ℝ := (1 / 2) * x 0

/-- `v_[328]` (HyQForwardKinJacReverse.cpp:436). -/
def l436 (x : Fin 36 → ℝ) : ℝ := Real.cos (l435 x)

/-- `v_[329]` (HyQForwardKinJacReverse.cpp:437). -/
def l437 (x : Fin 36 → ℝ) : ℝ := (1 / 2) * x 1

/-- `v_[330]` (HyQForwardKinJacReverse.cpp:438). -/
def l438 (x : Fin 36 → ℝ) : ℝ := Real.cos (l437 x)

/-- `v_[331]` (HyQForwardKinJacReverse.cpp:439). -/
def l439 (x : Fin 36 → ℝ) : ℝ := l436 x * l438 x

/-- `v_[332]` (HyQForwardKinJacReverse.cpp:440). -/
def l440 (x : Fin 36 → ℝ) : ℝ := (1 / 2) * x 2

/-- `v_[333]` (HyQForwardKinJacReverse.cpp:441). -/
def l441 (x : Fin 36 → ℝ) : ℝ := Real.sin (l440 x)

/-- `v_[334]` (HyQForwardKinJacReverse.cpp:442). -/
def l442 (x : Fin 36 → ℝ) : ℝ := Real.sin (l435 x)

/-- `v_[335]` (HyQForwardKinJacReverse.cpp:443). -/
def l443 (x : Fin 36 → ℝ) : ℝ := Real.sin (l437 x)

/-- `v_[336]` (HyQForwardKinJacReverse.cpp:444). -/
def l444 (x : Fin 36 → ℝ) : ℝ := l442 x * l443 x

/-- `v_[337]` (HyQForwardKinJacReverse.cpp:445). -/
def l445 (x : Fin 36 → ℝ) : ℝ := Real.cos (l440 x)

/-- `v_[338]` (HyQForwardKinJacReverse.cpp:446). -/
def l446 (x : Fin 36 → ℝ) : ℝ := l439 x * l441 x + l444 x * l445 x

/-- `v_[339]` (HyQForwardKinJacReverse.cpp:447). -/
def l447 (x : Fin 36 → ℝ) : ℝ := 2 * l446 x

/-- `v_[340]` (HyQForwardKinJacReverse.cpp:448). -/
def l448 (x : Fin 36 → ℝ) : ℝ := Real.sin (x 12)

/-- `v_[341]` (HyQForwardKinJacReverse.cpp:449). -/
def l449 (x : Fin 36 → ℝ) : ℝ := (33 / 100) * l448 x

/-- `v_[342]` (HyQForwardKinJacReverse.cpp:450). -/
def l450 (x : Fin 36 → ℝ) : ℝ := l449 x * l426 x

/-- `v_[343]` (HyQForwardKinJacReverse.cpp:451). -/
def l451 (x : Fin 36 → ℝ) : ℝ := (33 / 100) * l448 x

/-- `v_[344]` (HyQForwardKinJacReverse.cpp:452). -/
def l452 (x : Fin 36 → ℝ) : ℝ := l451 x * l430 x

/-- `v_[345]` (HyQForwardKinJacReverse.cpp:453). -/
def l453 (x : Fin 36 → ℝ) : ℝ := (7 / 20) * l448 x

/-- `v_[346]` (HyQForwardKinJacReverse.cpp:454). -/
def l454 (x : Fin 36 → ℝ) : ℝ := (207 / 1000) + l450 x * l428 x - l452 x * l432 x - l453 x * l430 x - (2 / 25) * l448 x

/-- `v_[347]` (HyQForwardKinJacReverse.cpp:455). -/
def l455 (x : Fin 36 → ℝ) : ℝ := l436 x * l443 x

/-- `v_[348]` (HyQForwardKinJacReverse.cpp:456). -/
def l456 (x : Fin 36 → ℝ) : ℝ := l442 x * l438 x

/-- `v_[349]` (HyQForwardKinJacReverse.cpp:457). -/
def l457 (x : Fin 36 → ℝ) : ℝ := l455 x * l445 x - l456 x * l441 x

/-- `v_[350]` (HyQForwardKinJacReverse.cpp:458). -/
def l458 (x : Fin 36 → ℝ) : ℝ := 2 * l457 x

/-- `v_[351]` (HyQForwardKinJacReverse.cpp:459). -/
def l459 (x : Fin 36 → ℝ) : ℝ := l434 x * l447 x + l454 x * l458 x

/-- `v_[352]` (HyQForwardKinJacReverse.cpp:460). -/
def l460 (x : Fin 36 → ℝ) : ℝ := -(33 / 100) * l430 x

/-- `v_[353]` (HyQForwardKinJacReverse.cpp:461). -/
def l461 (x : Fin 36 → ℝ) : ℝ := (33 / 100) * l426 x

/-- `v_[354]` (HyQForwardKinJacReverse.cpp:462). -/
def l462 (x : Fin 36 → ℝ) : ℝ := -(747 / 2000) + l460 x * l428 x - l461 x * l432 x - (7 / 20) * l426 x

/-- `v_[355]` (HyQForwardKinJacReverse.cpp:463). -/
def l463 (x : Fin 36 → ℝ) : ℝ := 0 - l462 x

/-- `v_[356]` (HyQForwardKinJacReverse.cpp:464). -/
def l464 (x : Fin 36 → ℝ) : ℝ := l456 x * l445 x + l455 x * l441 x

/-- `v_[357]` (HyQForwardKinJacReverse.cpp:465). -/
def l465 (x : Fin 36 → ℝ) : ℝ := l439 x * l445 x - l444 x * l441 x

/-- `v_[355]` (HyQForwardKinJacReverse.cpp:466). -/
def l466 (x : Fin 36 → ℝ) : ℝ := l463 x * l458 x + (l463 x * l457 x + l454 x * l464 x + l434 x * l465 x) * 2

/-- `v_[358]` (HyQForwardKinJacReverse.cpp:467). -/
def l467 (x : Fin 36 → ℝ) : ℝ := 0 - l466 x

/-- `v_[359]` (HyQForwardKinJacReverse.cpp:468). -/
def l468 (x : Fin 36 → ℝ) : ℝ := l459 x * l445 x + l467 x * l441 x

/-- `v_[360]` (HyQForwardKinJacReverse.cpp:469). -/
def l469 (x : Fin 36 → ℝ) : ℝ := 0 - l454 x

/-- `v_[361]` (HyQForwardKinJacReverse.cpp:470). -/
def l470 (x : Fin 36 → ℝ) : ℝ := l469 x * l447 x + l434 x * l458 x

/-- `v_[362]` (HyQForwardKinJacReverse.cpp:471). -/
def l471 (x : Fin 36 → ℝ) : ℝ := 0 - l470 x

/-- `v_[363]` (HyQForwardKinJacReverse.cpp:472). -/
def l472 (x : Fin 36 → ℝ) : ℝ := 0 - l462 x

/-- `v_[363]` (HyQForwardKinJacReverse.cpp:473). -/
def l473 (x : Fin 36 → ℝ) : ℝ := l472 x * l447 x + (l472 x * l446 x + l434 x * l464 x + l469 x * l465 x) * 2

/-- `v_[360]` (HyQForwardKinJacReverse.cpp:474). -/
def l474 (x : Fin 36 → ℝ) : ℝ := l471 x * l441 x + l473 x * l445 x

/-- `v_[364]` (HyQForwardKinJacReverse.cpp:475). -/
def l475 (x : Fin 36 → ℝ) : ℝ := Real.cos (l435 x)

/-- `v_[365]` (HyQForwardKinJacReverse.cpp:476). -/
def l476 (x : Fin 36 → ℝ) : ℝ := l470 x * l445 x + l473 x * l441 x

/-- `v_[366]` (HyQForwardKinJacReverse.cpp:477). -/
def l477 (x : Fin 36 → ℝ) : ℝ := l459 x * l441 x + l466 x * l445 x

/-- `v_[327]` (HyQForwardKinJacReverse.cpp:478). -/
def l478 (x : Fin 36 → ℝ) : ℝ := Real.sin (l435 x)

/-- `jac[12]` (HyQForwardKinJacReverse.cpp:479). -/
def l479 (x : Fin 36 → ℝ) : ℝ := ((l468 x * l438 x + l474 x * l443 x) * l475 x - (l476 x * l438 x + l477 x * l443 x) * l478 x) * (1 / 2)

/-- `v_[367]` (HyQForwardKinJacReverse.cpp:480). -/
def l480 (x : Fin 36 → ℝ) : ℝ := 0 - l454 x

/-- `v_[368]` (HyQForwardKinJacReverse.cpp:481). -/
def l481 (x : Fin 36 → ℝ) : ℝ := 2 * l464 x

/-- `v_[369]` (HyQForwardKinJacReverse.cpp:482). -/
def l482 (x : Fin 36 → ℝ) : ℝ := 0 - l434 x

/-- `v_[367]` (HyQForwardKinJacReverse.cpp:483). -/
def l483 (x : Fin 36 → ℝ) : ℝ := l462 x * l458 x + l480 x * l481 x + (l480 x * l464 x + l482 x * l465 x) * 2

/-- `v_[370]` (HyQForwardKinJacReverse.cpp:484). -/
def l484 (x : Fin 36 → ℝ) : ℝ := l434 x * l447 x + l462 x * l464 x * 2

/-- `v_[371]` (HyQForwardKinJacReverse.cpp:485). -/
def l485 (x : Fin 36 → ℝ) : ℝ := 0 - l484 x

/-- `v_[372]` (HyQForwardKinJacReverse.cpp:486). -/
def l486 (x : Fin 36 → ℝ) : ℝ := l483 x * l445 x + l485 x * l441 x

/-- `v_[369]` (HyQForwardKinJacReverse.cpp:487). -/
def l487 (x : Fin 36 → ℝ) : ℝ := l462 x * l447 x + l482 x * l481 x

/-- `v_[373]` (HyQForwardKinJacReverse.cpp:488). -/
def l488 (x : Fin 36 → ℝ) : ℝ := 0 - l487 x

/-- `v_[374]` (HyQForwardKinJacReverse.cpp:489). -/
def l489 (x : Fin 36 → ℝ) : ℝ := 0 - l454 x

/-- `v_[374]` (HyQForwardKinJacReverse.cpp:490). -/
def l490 (x : Fin 36 → ℝ) : ℝ := l489 x * l447 x + (l489 x * l446 x + l434 x * l457 x + l462 x * l465 x) * 2

/-- `v_[375]` (HyQForwardKinJacReverse.cpp:491). -/
def l491 (x : Fin 36 → ℝ) : ℝ := l488 x * l441 x + l490 x * l445 x

/-- `v_[376]` (HyQForwardKinJacReverse.cpp:492). -/
def l492 (x : Fin 36 → ℝ) : ℝ := l487 x * l445 x + l490 x * l441 x

/-- `v_[377]` (HyQForwardKinJacReverse.cpp:493). -/
def l493 (x : Fin 36 → ℝ) : ℝ := l483 x * l441 x + l484 x * l445 x

/-- `jac[13]` (HyQForwardKinJacReverse.cpp:494). -/
def l494 (x : Fin 36 → ℝ) : ℝ := ((l486 x * l438 x + l491 x * l443 x) * l475 x - (l492 x * l438 x + l493 x * l443 x) * l478 x) * (1 / 2)

/-- `v_[378]` (HyQForwardKinJacReverse.cpp:495). -/
def l495 (x : Fin 36 → ℝ) : ℝ := 0 - l434 x

/-- `v_[378]` (HyQForwardKinJacReverse.cpp:496). -/
def l496 (x : Fin 36 → ℝ) : ℝ := l462 x * l447 x + l495 x * l481 x + (l495 x * l464 x + l454 x * l465 x) * 2

/-- `v_[326]` (HyQForwardKinJacReverse.cpp:497). -/
def l497 (x : Fin 36 → ℝ) : ℝ := 0 - l434 x

/-- `v_[379]` (HyQForwardKinJacReverse.cpp:498). -/
def l498 (x : Fin 36 → ℝ) : ℝ := 0 - l462 x

/-- `v_[326]` (HyQForwardKinJacReverse.cpp:499). -/
def l499 (x : Fin 36 → ℝ) : ℝ := l454 x * l447 x + l497 x * l458 x + (l497 x * l457 x + l498 x * l465 x) * 2

/-- `v_[380]` (HyQForwardKinJacReverse.cpp:500). -/
def l500 (x : Fin 36 → ℝ) : ℝ := 0 - l499 x

/-- `v_[381]` (HyQForwardKinJacReverse.cpp:501). -/
def l501 (x : Fin 36 → ℝ) : ℝ := l496 x * l445 x + l500 x * l441 x

/-- `v_[379]` (HyQForwardKinJacReverse.cpp:502). -/
def l502 (x : Fin 36 → ℝ) : ℝ := l498 x * l458 x + l454 x * l481 x

/-- `v_[382]` (HyQForwardKinJacReverse.cpp:503). -/
def l503 (x : Fin 36 → ℝ) : ℝ := 0 - l502 x

/-- `v_[354]` (HyQForwardKinJacReverse.cpp:504). -/
def l504 (x : Fin 36 → ℝ) : ℝ := (l454 x * l457 x + l462 x * l464 x) * 2

/-- `v_[346]` (HyQForwardKinJacReverse.cpp:505). -/
def l505 (x : Fin 36 → ℝ) : ℝ := l503 x * l441 x + l504 x * l445 x

/-- `v_[383]` (HyQForwardKinJacReverse.cpp:506). -/
def l506 (x : Fin 36 → ℝ) : ℝ := l502 x * l445 x + l504 x * l441 x

/-- `v_[337]` (HyQForwardKinJacReverse.cpp:507). -/
def l507 (x : Fin 36 → ℝ) : ℝ := l496 x * l441 x + l499 x * l445 x

/-- `jac[14]` (HyQForwardKinJacReverse.cpp:508). -/
def l508 (x : Fin 36 → ℝ) : ℝ := ((l501 x * l438 x + l505 x * l443 x) * l475 x - (l506 x * l438 x + l507 x * l443 x) * l478 x) * (1 / 2)

/-- `v_[327]` (HyQForwardKinJacReverse.cpp:509). -/
def l509 (x : Fin 36 → ℝ) : ℝ := (33 / 100) * l424 x

/-- `v_[364]` (HyQForwardKinJacReverse.cpp:510). -/
def l510 (x : Fin 36 → ℝ) : ℝ := l509 x * l430 x

/-- `v_[335]` (HyQForwardKinJacReverse.cpp:511). -/
def l511 (x : Fin 36 → ℝ) : ℝ := (33 / 100) * l424 x

/-- `v_[330]` (HyQForwardKinJacReverse.cpp:512). -/
def l512 (x : Fin 36 → ℝ) : ℝ := l511 x * l426 x

/-- `v_[333]` (HyQForwardKinJacReverse.cpp:513). -/
def l513 (x : Fin 36 → ℝ) : ℝ := l510 x * l428 x + l512 x * l432 x

/-- `v_[384]` (HyQForwardKinJacReverse.cpp:514). -/
def l514 (x : Fin 36 → ℝ) : ℝ := l509 x * l426 x

/-- `v_[385]` (HyQForwardKinJacReverse.cpp:515). -/
def l515 (x : Fin 36 → ℝ) : ℝ := (33 / 100) * l424 x

/-- `v_[386]` (HyQForwardKinJacReverse.cpp:516). -/
def l516 (x : Fin 36 → ℝ) : ℝ := l515 x * l430 x

/-- `v_[387]` (HyQForwardKinJacReverse.cpp:517). -/
def l517 (x : Fin 36 → ℝ) : ℝ := (7 / 20) * l424 x

/-- `v_[388]` (HyQForwardKinJacReverse.cpp:518). -/
def l518 (x : Fin 36 → ℝ) : ℝ := l514 x * l432 x + l516 x * l428 x + l517 x * l426 x

/-- `v_[389]` (HyQForwardKinJacReverse.cpp:519). -/
def l519 (x : Fin 36 → ℝ) : ℝ := (33 / 100) * l448 x

/-- `v_[390]` (HyQForwardKinJacReverse.cpp:520). -/
def l520 (x : Fin 36 → ℝ) : ℝ := l519 x * l430 x

/-- `v_[391]` (HyQForwardKinJacReverse.cpp:521). -/
def l521 (x : Fin 36 → ℝ) : ℝ := -(33 / 100) * l448 x

/-- `v_[392]` (HyQForwardKinJacReverse.cpp:522). -/
def l522 (x : Fin 36 → ℝ) : ℝ := l521 x * l426 x

/-- `v_[393]` (HyQForwardKinJacReverse.cpp:523). -/
def l523 (x : Fin 36 → ℝ) : ℝ := (7 / 20) * l448 x

/-- `v_[394]` (HyQForwardKinJacReverse.cpp:524). -/
def l524 (x : Fin 36 → ℝ) : ℝ := l520 x * l432 x + l522 x * l428 x + l523 x * l430 x + (2 / 25) * l448 x

/-- `v_[395]` (HyQForwardKinJacReverse.cpp:525). -/
def l525 (x : Fin 36 → ℝ) : ℝ := (33 / 100) * l448 x

/-- `v_[396]` (HyQForwardKinJacReverse.cpp:526). -/
def l526 (x : Fin 36 → ℝ) : ℝ := l525 x * l426 x

/-- `v_[397]` (HyQForwardKinJacReverse.cpp:527). -/
def l527 (x : Fin 36 → ℝ) : ℝ := Real.sin (x 14)

/-- `v_[398]` (HyQForwardKinJacReverse.cpp:528). -/
def l528 (x : Fin 36 → ℝ) : ℝ := (33 / 100) * l448 x

/-- `v_[399]` (HyQForwardKinJacReverse.cpp:529). -/
def l529 (x : Fin 36 → ℝ) : ℝ := l528 x * l430 x

/-- `v_[400]` (HyQForwardKinJacReverse.cpp:530). -/
def l530 (x : Fin 36 → ℝ) : ℝ := (7 / 20) * l448 x

/-- `v_[401]` (HyQForwardKinJacReverse.cpp:531). -/
def l531 (x : Fin 36 → ℝ) : ℝ := (207 / 1000) + l526 x * l527 x - l529 x * l432 x - l530 x * l430 x - (2 / 25) * l448 x

/-- `v_[402]` (HyQForwardKinJacReverse.cpp:532). -/
def l532 (x : Fin 36 → ℝ) : ℝ := -(33 / 100) * l430 x

/-- `v_[403]` (HyQForwardKinJacReverse.cpp:533). -/
def l533 (x : Fin 36 → ℝ) : ℝ := (33 / 100) * l426 x

/-- `v_[404]` (HyQForwardKinJacReverse.cpp:534). -/
def l534 (x : Fin 36 → ℝ) : ℝ := -(747 / 2000) + l532 x * l527 x - l533 x * l432 x - (7 / 20) * l426 x

/-- `v_[405]` (HyQForwardKinJacReverse.cpp:535). -/
def l535 (x : Fin 36 → ℝ) : ℝ := l513 x * x 32 + l518 x * x 31 + l524 x * x 30 + x 23 + x 18 * l531 x - x 19 * l534 x

/-- `v_[406]` (HyQForwardKinJacReverse.cpp:536). -/
def l536 (x : Fin 36 → ℝ) : ℝ := (1 / 2) * x 0

/-- `v_[407]` (HyQForwardKinJacReverse.cpp:537). -/
def l537 (x : Fin 36 → ℝ) : ℝ := Real.cos (l536 x)

/-- `v_[408]` (HyQForwardKinJacReverse.cpp:538). -/
def l538 (x : Fin 36 → ℝ) : ℝ := (1 / 2) * x 1

/-- `v_[409]` (HyQForwardKinJacReverse.cpp:539). -/
def l539 (x : Fin 36 → ℝ) : ℝ := Real.cos (l538 x)

/-- `v_[410]` (HyQForwardKinJacReverse.cpp:540). -/
def l540 (x : Fin 36 → ℝ) : ℝ := l537 x * l539 x

/-- `v_[411]` (HyQForwardKinJacReverse.cpp:541). -/
def l541 (x : Fin 36 → ℝ) : ℝ := (1 / 2) * x 2

/-- `v_[412]` (HyQForwardKinJacReverse.cpp:542). -/
def l542 (x : Fin 36 → ℝ) : ℝ := Real.sin (l541 x)

/-- `v_[413]` (HyQForwardKinJacReverse.cpp:543). -/
def l543 (x : Fin 36 → ℝ) : ℝ := Real.sin (l536 x)

/-- `v_[414]` (HyQForwardKinJacReverse.cpp:544). -/
def l544 (x : Fin 36 → ℝ) : ℝ := Real.sin (l538 x)

/-- `v_[415]` (HyQForwardKinJacReverse.cpp:545). -/
def l545 (x : Fin 36 → ℝ) : ℝ := l543 x * l544 x

/-- `v_[416]` (HyQForwardKinJacReverse.cpp:546). -/
def l546 (x : Fin 36 → ℝ) : ℝ := Real.cos (l541 x)

/-- `v_[417]` (HyQForwardKinJacReverse.cpp:547). -/
def l547 (x : Fin 36 → ℝ) : ℝ := l540 x * l542 x + l545 x * l546 x

/-- `v_[418]` (HyQForwardKinJacReverse.cpp:548). -/
def l548 (x : Fin 36 → ℝ) : ℝ := 2 * l547 x

/-- `v_[419]` (HyQForwardKinJacReverse.cpp:549). -/
def l549 (x : Fin 36 → ℝ) : ℝ := (33 / 100) * l448 x

/-- `v_[420]` (HyQForwardKinJacReverse.cpp:550). -/
def l550 (x : Fin 36 → ℝ) : ℝ := l549 x * l430 x

/-- `v_[421]` (HyQForwardKinJacReverse.cpp:551). -/
def l551 (x : Fin 36 → ℝ) : ℝ := (33 / 100) * l448 x

/-- `v_[422]` (HyQForwardKinJacReverse.cpp:552). -/
def l552 (x : Fin 36 → ℝ) : ℝ := l551 x * l426 x

/-- `v_[423]` (HyQForwardKinJacReverse.cpp:553). -/
def l553 (x : Fin 36 → ℝ) : ℝ := l550 x * l428 x + l552 x * l432 x

/-- `v_[424]` (HyQForwardKinJacReverse.cpp:554). -/
def l554 (x : Fin 36 → ℝ) : ℝ := l549 x * l426 x

/-- `v_[425]` (HyQForwardKinJacReverse.cpp:555). -/
def l555 (x : Fin 36 → ℝ) : ℝ := (33 / 100) * l448 x

/-- `v_[426]` (HyQForwardKinJacReverse.cpp:556). -/
def l556 (x : Fin 36 → ℝ) : ℝ := l555 x * l430 x

/-- `v_[340]` (HyQForwardKinJacReverse.cpp:557). -/
def l557 (x : Fin 36 → ℝ) : ℝ := (7 / 20) * l448 x

/-- `v_[427]` (HyQForwardKinJacReverse.cpp:558). -/
def l558 (x : Fin 36 → ℝ) : ℝ := l554 x * l432 x + l556 x * l428 x + l557 x * l426 x

/-- `v_[428]` (HyQForwardKinJacReverse.cpp:559). -/
def l559 (x : Fin 36 → ℝ) : ℝ := (33 / 100) * l424 x

/-- `v_[429]` (HyQForwardKinJacReverse.cpp:560). -/
def l560 (x : Fin 36 → ℝ) : ℝ := l559 x * l426 x

/-- `v_[430]` (HyQForwardKinJacReverse.cpp:561). -/
def l561 (x : Fin 36 → ℝ) : ℝ := (33 / 100) * l424 x

/-- `v_[431]` (HyQForwardKinJacReverse.cpp:562). -/
def l562 (x : Fin 36 → ℝ) : ℝ := l561 x * l430 x

/-- `v_[432]` (HyQForwardKinJacReverse.cpp:563). -/
def l563 (x : Fin 36 → ℝ) : ℝ := (7 / 20) * l424 x

/-- `v_[433]` (HyQForwardKinJacReverse.cpp:564). -/
def l564 (x : Fin 36 → ℝ) : ℝ := l560 x * l428 x - l562 x * l432 x - l563 x * l430 x - (2 / 25) * l424 x

/-- `v_[434]` (HyQForwardKinJacReverse.cpp:565). -/
def l565 (x : Fin 36 → ℝ) : ℝ := (33 / 100) * l424 x

/-- `v_[435]` (HyQForwardKinJacReverse.cpp:566). -/
def l566 (x : Fin 36 → ℝ) : ℝ := l565 x * l426 x

/-- `v_[436]` (HyQForwardKinJacReverse.cpp:567). -/
def l567 (x : Fin 36 → ℝ) : ℝ := (33 / 100) * l424 x

/-- `v_[437]` (HyQForwardKinJacReverse.cpp:568). -/
def l568 (x : Fin 36 → ℝ) : ℝ := l567 x * l430 x

/-- `v_[438]` (HyQForwardKinJacReverse.cpp:569). -/
def l569 (x : Fin 36 → ℝ) : ℝ := (7 / 20) * l424 x

/-- `v_[246]` (HyQForwardKinJacReverse.cpp:570). -/
def l570 (x : Fin 36 → ℝ) : ℝ := l566 x * l527 x - l568 x * l432 x - l569 x * l430 x - (2 / 25) * l424 x

/-- `v_[439]` (HyQForwardKinJacReverse.cpp:571). -/
def l571 (x : Fin 36 → ℝ) : ℝ := l553 x * x 32 + l558 x * x 31 + l564 x * x 30 + x 22 + x 20 * l534 x - x 18 * l570 x

/-- `v_[440]` (HyQForwardKinJacReverse.cpp:572). -/
def l572 (x : Fin 36 → ℝ) : ℝ := l537 x * l544 x

/-- `v_[441]` (HyQForwardKinJacReverse.cpp:573). -/
def l573 (x : Fin 36 → ℝ) : ℝ := l543 x * l539 x

/-- `v_[442]` (HyQForwardKinJacReverse.cpp:574). -/
def l574 (x : Fin 36 → ℝ) : ℝ := l572 x * l546 x - l573 x * l542 x

/-- `v_[443]` (HyQForwardKinJacReverse.cpp:575). -/
def l575 (x : Fin 36 → ℝ) : ℝ := 2 * l574 x

/-- `v_[444]` (HyQForwardKinJacReverse.cpp:576). -/
def l576 (x : Fin 36 → ℝ) : ℝ := l535 x * l548 x + l571 x * l575 x

/-- `v_[445]` (HyQForwardKinJacReverse.cpp:577). -/
def l577 (x : Fin 36 → ℝ) : ℝ := (33 / 100) * l426 x

/-- `v_[446]` (HyQForwardKinJacReverse.cpp:578). -/
def l578 (x : Fin 36 → ℝ) : ℝ := (33 / 100) * l430 x

/-- `v_[447]` (HyQForwardKinJacReverse.cpp:579). -/
def l579 (x : Fin 36 → ℝ) : ℝ := l577 x * l428 x - l578 x * l432 x

/-- `v_[448]` (HyQForwardKinJacReverse.cpp:580). -/
def l580 (x : Fin 36 → ℝ) : ℝ := (33 / 100) * l426 x

/-- `v_[449]` (HyQForwardKinJacReverse.cpp:581). -/
def l581 (x : Fin 36 → ℝ) : ℝ := (33 / 100) * l430 x

/-- `v_[450]` (HyQForwardKinJacReverse.cpp:582). -/
def l582 (x : Fin 36 → ℝ) : ℝ := l580 x * l428 x - l581 x * l432 x - (7 / 20) * l430 x

/-- `v_[451]` (HyQForwardKinJacReverse.cpp:583). -/
def l583 (x : Fin 36 → ℝ) : ℝ := l579 x * x 32 + l582 x * x 31 + x 21 + x 19 * l570 x - x 20 * l531 x

/-- `v_[452]` (HyQForwardKinJacReverse.cpp:584). -/
def l584 (x : Fin 36 → ℝ) : ℝ := 0 - l583 x

/-- `v_[453]` (HyQForwardKinJacReverse.cpp:585). -/
def l585 (x : Fin 36 → ℝ) : ℝ := l573 x * l546 x + l572 x * l542 x

/-- `v_[454]` (HyQForwardKinJacReverse.cpp:586). -/
def l586 (x : Fin 36 → ℝ) : ℝ := l540 x * l546 x - l545 x * l542 x

/-- `v_[452]` (HyQForwardKinJacReverse.cpp:587). -/
def l587 (x : Fin 36 → ℝ) : ℝ := l584 x * l575 x + (l584 x * l574 x + l571 x * l585 x + l535 x * l586 x) * 2

/-- `v_[455]` (HyQForwardKinJacReverse.cpp:588). -/
def l588 (x : Fin 36 → ℝ) : ℝ := 0 - l587 x

/-- `v_[456]` (HyQForwardKinJacReverse.cpp:589). -/
def l589 (x : Fin 36 → ℝ) : ℝ := l576 x * l546 x + l588 x * l542 x

/-- `v_[457]` (HyQForwardKinJacReverse.cpp:590). -/
def l590 (x : Fin 36 → ℝ) : ℝ := 0 - l571 x

/-- `v_[458]` (HyQForwardKinJacReverse.cpp:591). -/
def l591 (x : Fin 36 → ℝ) : ℝ := l590 x * l548 x + l535 x * l575 x

/-- `v_[459]` (HyQForwardKinJacReverse.cpp:592). -/
def l592 (x : Fin 36 → ℝ) : ℝ := 0 - l591 x

/-- `v_[460]` (HyQForwardKinJacReverse.cpp:593). -/
def l593 (x : Fin 36 → ℝ) : ℝ := 0 - l583 x

/-- `v_[460]` (HyQForwardKinJacReverse.cpp:594). -/
def l594 (x : Fin 36 → ℝ) : ℝ := l593 x * l548 x + (l593 x * l547 x + l535 x * l585 x + l590 x * l586 x) * 2

/-- `v_[457]` (HyQForwardKinJacReverse.cpp:595). -/
def l595 (x : Fin 36 → ℝ) : ℝ := l592 x * l542 x + l594 x * l546 x

/-- `v_[461]` (HyQForwardKinJacReverse.cpp:596). -/
def l596 (x : Fin 36 → ℝ) : ℝ := Real.cos (l536 x)

/-- `v_[462]` (HyQForwardKinJacReverse.cpp:597). -/
def l597 (x : Fin 36 → ℝ) : ℝ := l591 x * l546 x + l594 x * l542 x

/-- `v_[463]` (HyQForwardKinJacReverse.cpp:598). -/
def l598 (x : Fin 36 → ℝ) : ℝ := l576 x * l542 x + l587 x * l546 x

/-- `v_[406]` (HyQForwardKinJacReverse.cpp:599). -/
def l599 (x : Fin 36 → ℝ) : ℝ := Real.sin (l536 x)

/-- `jac[15]` (HyQForwardKinJacReverse.cpp:600). -/
def l600 (x : Fin 36 → ℝ) : ℝ := ((l589 x * l539 x + l595 x * l544 x) * l596 x - (l597 x * l539 x + l598 x * l544 x) * l599 x) * (1 / 2)

/-- `v_[464]` (HyQForwardKinJacReverse.cpp:601). -/
def l601 (x : Fin 36 → ℝ) : ℝ := 0 - l571 x

/-- `v_[465]` (HyQForwardKinJacReverse.cpp:602). -/
def l602 (x : Fin 36 → ℝ) : ℝ := 2 * l585 x

/-- `v_[466]` (HyQForwardKinJacReverse.cpp:603). -/
def l603 (x : Fin 36 → ℝ) : ℝ := 0 - l535 x

/-- `v_[464]` (HyQForwardKinJacReverse.cpp:604). -/
def l604 (x : Fin 36 → ℝ) : ℝ := l583 x * l575 x + l601 x * l602 x + (l601 x * l585 x + l603 x * l586 x) * 2

/-- `v_[467]` (HyQForwardKinJacReverse.cpp:605). -/
def l605 (x : Fin 36 → ℝ) : ℝ := l535 x * l548 x + l583 x * l585 x * 2

/-- `v_[468]` (HyQForwardKinJacReverse.cpp:606). -/
def l606 (x : Fin 36 → ℝ) : ℝ := 0 - l605 x

/-- `v_[469]` (HyQForwardKinJacReverse.cpp:607). -/
def l607 (x : Fin 36 → ℝ) : ℝ := l604 x * l546 x + l606 x * l542 x

/-- `v_[466]` (HyQForwardKinJacReverse.cpp:608). -/
def l608 (x : Fin 36 → ℝ) : ℝ := l583 x * l548 x + l603 x * l602 x

/-- `v_[470]` (HyQForwardKinJacReverse.cpp:609). -/
def l609 (x : Fin 36 → ℝ) : ℝ := 0 - l608 x

/-- `v_[471]` (HyQForwardKinJacReverse.cpp:610). -/
def l610 (x : Fin 36 → ℝ) : ℝ := 0 - l571 x

/-- `v_[471]` (HyQForwardKinJacReverse.cpp:611). -/
def l611 (x : Fin 36 → ℝ) : ℝ := l610 x * l548 x + (l610 x * l547 x + l535 x * l574 x + l583 x * l586 x) * 2

/-- `v_[472]` (HyQForwardKinJacReverse.cpp:612). -/
def l612 (x : Fin 36 → ℝ) : ℝ := l609 x * l542 x + l611 x * l546 x

/-- `v_[473]` (HyQForwardKinJacReverse.cpp:613). -/
def l613 (x : Fin 36 → ℝ) : ℝ := l608 x * l546 x + l611 x * l542 x

/-- `v_[474]` (HyQForwardKinJacReverse.cpp:614). -/
def l614 (x : Fin 36 → ℝ) : ℝ := l604 x * l542 x + l605 x * l546 x

/-- `jac[16]` (HyQForwardKinJacReverse.cpp:615). -/
def l615 (x : Fin 36 → ℝ) : ℝ := ((l607 x * l539 x + l612 x * l544 x) * l596 x - (l613 x * l539 x + l614 x * l544 x) * l599 x) * (1 / 2)

/-- `v_[475]` (HyQForwardKinJacReverse.cpp:616). -/
def l616 (x : Fin 36 → ℝ) : ℝ := 0 - l535 x

/-- `v_[475]` (HyQForwardKinJacReverse.cpp:617). -/
def l617 (x : Fin 36 → ℝ) : ℝ := l583 x * l548 x + l616 x * l602 x + (l616 x * l585 x + l571 x * l586 x) * 2

/-- `v_[405]` (HyQForwardKinJacReverse.cpp:618). -/
def l618 (x : Fin 36 → ℝ) : ℝ := 0 - l535 x

/-- `v_[476]` (HyQForwardKinJacReverse.cpp:619). -/
def l619 (x : Fin 36 → ℝ) : ℝ := 0 - l583 x

/-- `v_[405]` (HyQForwardKinJacReverse.cpp:620). -/
def l620 (x : Fin 36 → ℝ) : ℝ := l571 x * l548 x + l618 x * l575 x + (l618 x * l574 x + l619 x * l586 x) * 2

/-- `v_[477]` (HyQForwardKinJacReverse.cpp:621). -/
def l621 (x : Fin 36 → ℝ) : ℝ := 0 - l620 x

/-- `v_[478]` (HyQForwardKinJacReverse.cpp:622). -/
def l622 (x : Fin 36 → ℝ) : ℝ := l617 x * l546 x + l621 x * l542 x

/-- `v_[476]` (HyQForwardKinJacReverse.cpp:623). -/
def l623 (x : Fin 36 → ℝ) : ℝ := l619 x * l575 x + l571 x * l602 x

/-- `v_[479]` (HyQForwardKinJacReverse.cpp:624). -/
def l624 (x : Fin 36 → ℝ) : ℝ := 0 - l623 x

/-- `v_[451]` (HyQForwardKinJacReverse.cpp:625). -/
def l625 (x : Fin 36 → ℝ) : ℝ := (l571 x * l574 x + l583 x * l585 x) * 2

/-- `v_[439]` (HyQForwardKinJacReverse.cpp:626). -/
def l626 (x : Fin 36 → ℝ) : ℝ := l624 x * l542 x + l625 x * l546 x

/-- `v_[480]` (HyQForwardKinJacReverse.cpp:627). -/
def l627 (x : Fin 36 → ℝ) : ℝ := l623 x * l546 x + l625 x * l542 x

/-- `v_[416]` (HyQForwardKinJacReverse.cpp:628). -/
def l628 (x : Fin 36 → ℝ) : ℝ := l617 x * l542 x + l620 x * l546 x

/-- `jac[17]` (HyQForwardKinJacReverse.cpp:629). -/
def l629 (x : Fin 36 → ℝ) : ℝ := ((l622 x * l539 x + l626 x * l544 x) * l596 x - (l627 x * l539 x + l628 x * l544 x) * l599 x) * (1 / 2)

/-- `v_[406]` (HyQForwardKinJacReverse.cpp:630). -/
def l630 (x : Fin 36 → ℝ) : ℝ := Real.cos (x 15)

/-- `v_[461]` (HyQForwardKinJacReverse.cpp:631). -/
def l631 (x : Fin 36 → ℝ) : ℝ := (33 / 100) * l630 x

/-- `v_[414]` (HyQForwardKinJacReverse.cpp:632). -/
def l632 (x : Fin 36 → ℝ) : ℝ := Real.sin (x 16)

/-- `v_[409]` (HyQForwardKinJacReverse.cpp:633). -/
def l633 (x : Fin 36 → ℝ) : ℝ := l631 x * l632 x

/-- `v_[412]` (HyQForwardKinJacReverse.cpp:634). -/
def l634 (x : Fin 36 → ℝ) : ℝ := Real.sin (x 17)

/-- `v_[481]` (HyQForwardKinJacReverse.cpp:635). -/
def l635 (x : Fin 36 → ℝ) : ℝ := (33 / 100) * l630 x

/-- `v_[482]` (HyQForwardKinJacReverse.cpp:636). -/
def l636 (x : Fin 36 → ℝ) : ℝ := Real.cos (x 16)

/-- `v_[483]` (HyQForwardKinJacReverse.cpp:637). -/
def l637 (x : Fin 36 → ℝ) : ℝ := l635 x * l636 x

/-- `v_[484]` (HyQForwardKinJacReverse.cpp:638). -/
def l638 (x : Fin 36 → ℝ) : ℝ := Real.cos (x 17)

/-- `v_[485]` (HyQForwardKinJacReverse.cpp:639). -/
def l639 (x : Fin 36 → ℝ) : ℝ := (7 / 20) * l630 x

/-- `v_[486]` (HyQForwardKinJacReverse.cpp:640). -/
def l640 (x : Fin 36 → ℝ) : ℝ := l633 x * l634 x - l637 x * l638 x - l639 x * l636 x - (2 / 25) * l630 x

/-- `v_[487]` (HyQForwardKinJacReverse.cpp:641). -/
def l641 (x : Fin 36 → ℝ) : ℝ := (1 / 2) * x 0

/-- `v_[488]` (HyQForwardKinJacReverse.cpp:642). -/
def l642 (x : Fin 36 → ℝ) : ℝ := Real.cos (l641 x)

/-- `v_[489]` (HyQForwardKinJacReverse.cpp:643). -/
def l643 (x : Fin 36 → ℝ) : ℝ := (1 / 2) * x 1

/-- `v_[490]` (HyQForwardKinJacReverse.cpp:644). -/
def l644 (x : Fin 36 → ℝ) : ℝ := Real.cos (l643 x)

/-- `v_[491]` (HyQForwardKinJacReverse.cpp:645). -/
def l645 (x : Fin 36 → ℝ) : ℝ := l642 x * l644 x

/-- `v_[492]` (HyQForwardKinJacReverse.cpp:646). -/
def l646 (x : Fin 36 → ℝ) : ℝ := (1 / 2) * x 2

/-- `v_[493]` (HyQForwardKinJacReverse.cpp:647). -/
def l647 (x : Fin 36 → ℝ) : ℝ := Real.sin (l646 x)

/-- `v_[494]` (HyQForwardKinJacReverse.cpp:648). -/
def l648 (x : Fin 36 → ℝ) : ℝ := Real.sin (l641 x)

/-- `v_[495]` (HyQForwardKinJacReverse.cpp:649). -/
def l649 (x : Fin 36 → ℝ) : ℝ := Real.sin (l643 x)

/-- `v_[496]` (HyQForwardKinJacReverse.cpp:650). -/
def l650 (x : Fin 36 → ℝ) : ℝ := l648 x * l649 x

/-- `v_[497]` (HyQForwardKinJacReverse.cpp:651). -/
def l651 (x : Fin 36 → ℝ) : ℝ := Real.cos (l646 x)

/-- `v_[498]` (HyQForwardKinJacReverse.cpp:652). -/
def l652 (x : Fin 36 → ℝ) : ℝ := l645 x * l647 x + l650 x * l651 x

/-- `v_[499]` (HyQForwardKinJacReverse.cpp:653). -/
def l653 (x : Fin 36 → ℝ) : ℝ := 2 * l652 x

/-- `v_[500]` (HyQForwardKinJacReverse.cpp:654). -/
def l654 (x : Fin 36 → ℝ) : ℝ := Real.sin (x 15)

/-- `v_[501]` (HyQForwardKinJacReverse.cpp:655). -/
def l655 (x : Fin 36 → ℝ) : ℝ := (33 / 100) * l654 x

/-- `v_[502]` (HyQForwardKinJacReverse.cpp:656). -/
def l656 (x : Fin 36 → ℝ) : ℝ := l655 x * l636 x

/-- `v_[503]` (HyQForwardKinJacReverse.cpp:657). -/
def l657 (x : Fin 36 → ℝ) : ℝ := -(33 / 100) * l654 x

/-- `v_[504]` (HyQForwardKinJacReverse.cpp:658). -/
def l658 (x : Fin 36 → ℝ) : ℝ := l657 x * l632 x

/-- `v_[505]` (HyQForwardKinJacReverse.cpp:659). -/
def l659 (x : Fin 36 → ℝ) : ℝ := (7 / 20) * l654 x

/-- `v_[506]` (HyQForwardKinJacReverse.cpp:660). -/
def l660 (x : Fin 36 → ℝ) : ℝ := -(207 / 1000) + l656 x * l638 x + l658 x * l634 x + l659 x * l636 x + (2 / 25) * l654 x

/-- `v_[507]` (HyQForwardKinJacReverse.cpp:661). -/
def l661 (x : Fin 36 → ℝ) : ℝ := l642 x * l649 x

/-- `v_[508]` (HyQForwardKinJacReverse.cpp:662). -/
def l662 (x : Fin 36 → ℝ) : ℝ := l648 x * l644 x

/-- `v_[509]` (HyQForwardKinJacReverse.cpp:663). -/
def l663 (x : Fin 36 → ℝ) : ℝ := l661 x * l651 x - l662 x * l647 x

/-- `v_[510]` (HyQForwardKinJacReverse.cpp:664). -/
def l664 (x : Fin 36 → ℝ) : ℝ := 2 * l663 x

/-- `v_[511]` (HyQForwardKinJacReverse.cpp:665). -/
def l665 (x : Fin 36 → ℝ) : ℝ := l640 x * l653 x + l660 x * l664 x

/-- `v_[512]` (HyQForwardKinJacReverse.cpp:666). -/
def l666 (x : Fin 36 → ℝ) : ℝ := -(33 / 100) * l636 x

/-- `v_[513]` (HyQForwardKinJacReverse.cpp:667). -/
def l667 (x : Fin 36 → ℝ) : ℝ := (33 / 100) * l632 x

/-- `v_[514]` (HyQForwardKinJacReverse.cpp:668). -/
def l668 (x : Fin 36 → ℝ) : ℝ := -(747 / 2000) + l666 x * l634 x - l667 x * l638 x - (7 / 20) * l632 x

/-- `v_[515]` (HyQForwardKinJacReverse.cpp:669). -/
def l669 (x : Fin 36 → ℝ) : ℝ := 0 - l668 x

/-- `v_[516]` (HyQForwardKinJacReverse.cpp:670). -/
def l670 (x : Fin 36 → ℝ) : ℝ := l662 x * l651 x + l661 x * l647 x

/-- `v_[517]` (HyQForwardKinJacReverse.cpp:671). -/
def l671 (x : Fin 36 → ℝ) : ℝ := l645 x * l651 x - l650 x * l647 x

/-- `v_[515]` (HyQForwardKinJacReverse.cpp:672). -/
def l672 (x : Fin 36 → ℝ) : ℝ := l669 x * l664 x + (l669 x * l663 x + l660 x * l670 x + l640 x * l671 x) * 2

/-- `v_[518]` (HyQForwardKinJacReverse.cpp:673). -/
def l673 (x : Fin 36 → ℝ) : ℝ := 0 - l672 x

/-- `v_[519]` (HyQForwardKinJacReverse.cpp:674). -/
def l674 (x : Fin 36 → ℝ) : ℝ := l665 x * l651 x + l673 x * l647 x

/-- `v_[520]` (HyQForwardKinJacReverse.cpp:675). -/
def l675 (x : Fin 36 → ℝ) : ℝ := 0 - l660 x

/-- `v_[521]` (HyQForwardKinJacReverse.cpp:676). -/
def l676 (x : Fin 36 → ℝ) : ℝ := l675 x * l653 x + l640 x * l664 x

/-- `v_[522]` (HyQForwardKinJacReverse.cpp:677). -/
def l677 (x : Fin 36 → ℝ) : ℝ := 0 - l676 x

/-- `v_[523]` (HyQForwardKinJacReverse.cpp:678). -/
def l678 (x : Fin 36 → ℝ) : ℝ := 0 - l668 x

/-- `v_[523]` (HyQForwardKinJacReverse.cpp:679). -/
def l679 (x : Fin 36 → ℝ) : ℝ := l678 x * l653 x + (l678 x * l652 x + l640 x * l670 x + l675 x * l671 x) * 2

/-- `v_[520]` (HyQForwardKinJacReverse.cpp:680). -/
def l680 (x : Fin 36 → ℝ) : ℝ := l677 x * l647 x + l679 x * l651 x

/-- `v_[524]` (HyQForwardKinJacReverse.cpp:681). -/
def l681 (x : Fin 36 → ℝ) : ℝ := Real.cos (l641 x)

/-- `v_[525]` (HyQForwardKinJacReverse.cpp:682). -/
def l682 (x : Fin 36 → ℝ) : ℝ := l676 x * l651 x + l679 x * l647 x

/-- `v_[526]` (HyQForwardKinJacReverse.cpp:683). -/
def l683 (x : Fin 36 → ℝ) : ℝ := l665 x * l647 x + l672 x * l651 x

/-- `v_[487]` (HyQForwardKinJacReverse.cpp:684). -/
def l684 (x : Fin 36 → ℝ) : ℝ := Real.sin (l641 x)

/-- `jac[18]` (HyQForwardKinJacReverse.cpp:685). -/
def l685 (x : Fin 36 → ℝ) : ℝ := ((l674 x * l644 x + l680 x * l649 x) * l681 x - (l682 x * l644 x + l683 x * l649 x) * l684 x) * (1 / 2)

/-- `v_[527]` (HyQForwardKinJacReverse.cpp:686). -/
def l686 (x : Fin 36 → ℝ) : ℝ := 0 - l660 x

/-- `v_[528]` (HyQForwardKinJacReverse.cpp:687). -/
def l687 (x : Fin 36 → ℝ) : ℝ := 2 * l670 x

/-- `v_[529]` (HyQForwardKinJacReverse.cpp:688). -/
def l688 (x : Fin 36 → ℝ) : ℝ := 0 - l640 x

/-- `v_[527]` (HyQForwardKinJacReverse.cpp:689). -/
def l689 (x : Fin 36 → ℝ) : ℝ := l668 x * l664 x + l686 x * l687 x + (l686 x * l670 x + l688 x * l671 x) * 2

/-- `v_[530]` (HyQForwardKinJacReverse.cpp:690). -/
def l690 (x : Fin 36 → ℝ) : ℝ := l640 x * l653 x + l668 x * l670 x * 2

/-- `v_[531]` (HyQForwardKinJacReverse.cpp:691). -/
def l691 (x : Fin 36 → ℝ) : ℝ := 0 - l690 x

/-- `v_[532]` (HyQForwardKinJacReverse.cpp:692). -/
def l692 (x : Fin 36 → ℝ) : ℝ := l689 x * l651 x + l691 x * l647 x

/-- `v_[529]` (HyQForwardKinJacReverse.cpp:693). -/
def l693 (x : Fin 36 → ℝ) : ℝ := l668 x * l653 x + l688 x * l687 x

/-- `v_[533]` (HyQForwardKinJacReverse.cpp:694). -/
def l694 (x : Fin 36 → ℝ) : ℝ := 0 - l693 x

/-- `v_[534]` (HyQForwardKinJacReverse.cpp:695). -/
def l695 (x : Fin 36 → ℝ) : ℝ := 0 - l660 x

/-- `v_[534]` (HyQForwardKinJacReverse.cpp:696). -/
def l696 (x : Fin 36 → ℝ) : ℝ := l695 x * l653 x + (l695 x * l652 x + l640 x * l663 x + l668 x * l671 x) * 2

/-- `v_[535]` (HyQForwardKinJacReverse.cpp:697). -/
def l697 (x : Fin 36 → ℝ) : ℝ := l694 x * l647 x + l696 x * l651 x

/-- `v_[536]` (HyQForwardKinJacReverse.cpp:698). -/
def l698 (x : Fin 36 → ℝ) : ℝ := l693 x * l651 x + l696 x * l647 x

/-- `v_[537]` (HyQForwardKinJacReverse.cpp:699). -/
def l699 (x : Fin 36 → ℝ) : ℝ := l689 x * l647 x + l690 x * l651 x

/-- `jac[19]` (HyQForwardKinJacReverse.cpp:700). -/
def l700 (x : Fin 36 → ℝ) : ℝ := ((l692 x * l644 x + l697 x * l649 x) * l681 x - (l698 x * l644 x + l699 x * l649 x) * l684 x) * (1 / 2)

/-- `v_[538]` (HyQForwardKinJacReverse.cpp:701). -/
def l701 (x : Fin 36 → ℝ) : ℝ := 0 - l640 x

/-- `v_[538]` (HyQForwardKinJacReverse.cpp:702). -/
def l702 (x : Fin 36 → ℝ) : ℝ := l668 x * l653 x + l701 x * l687 x + (l701 x * l670 x + l660 x * l671 x) * 2

/-- `v_[486]` (HyQForwardKinJacReverse.cpp:703). -/
def l703 (x : Fin 36 → ℝ) : ℝ := 0 - l640 x

/-- `v_[539]` (HyQForwardKinJacReverse.cpp:704). -/
def l704 (x : Fin 36 → ℝ) : ℝ := 0 - l668 x

/-- `v_[486]` (HyQForwardKinJacReverse.cpp:705). -/
def l705 (x : Fin 36 → ℝ) : ℝ := l660 x * l653 x + l703 x * l664 x + (l703 x * l663 x + l704 x * l671 x) * 2

/-- `v_[540]` (HyQForwardKinJacReverse.cpp:706). -/
def l706 (x : Fin 36 → ℝ) : ℝ := 0 - l705 x

/-- `v_[541]` (HyQForwardKinJacReverse.cpp:707). -/
def l707 (x : Fin 36 → ℝ) : ℝ := l702 x * l651 x + l706 x * l647 x

/-- `v_[539]` (HyQForwardKinJacReverse.cpp:708). -/
def l708 (x : Fin 36 → ℝ) : ℝ := l704 x * l664 x + l660 x * l687 x

/-- `v_[542]` (HyQForwardKinJacReverse.cpp:709). -/
def l709 (x : Fin 36 → ℝ) : ℝ := 0 - l708 x

/-- `v_[514]` (HyQForwardKinJacReverse.cpp:710). -/
def l710 (x : Fin 36 → ℝ) : ℝ := (l660 x * l663 x + l668 x * l670 x) * 2

/-- `v_[506]` (HyQForwardKinJacReverse.cpp:711). -/
def l711 (x : Fin 36 → ℝ) : ℝ := l709 x * l647 x + l710 x * l651 x

/-- `v_[543]` (HyQForwardKinJacReverse.cpp:712). -/
def l712 (x : Fin 36 → ℝ) : ℝ := l708 x * l651 x + l710 x * l647 x

/-- `v_[497]` (HyQForwardKinJacReverse.cpp:713). -/
def l713 (x : Fin 36 → ℝ) : ℝ := l702 x * l647 x + l705 x * l651 x

/-- `jac[20]` (HyQForwardKinJacReverse.cpp:714). -/
def l714 (x : Fin 36 → ℝ) : ℝ := ((l707 x * l644 x + l711 x * l649 x) * l681 x - (l712 x * l644 x + l713 x * l649 x) * l684 x) * (1 / 2)

/-- `v_[487]` (HyQForwardKinJacReverse.cpp:715). -/
def l715 (x : Fin 36 → ℝ) : ℝ := (33 / 100) * l630 x

/-- `v_[524]` (HyQForwardKinJacReverse.cpp:716). -/
def l716 (x : Fin 36 → ℝ) : ℝ := l715 x * l636 x

/-- `v_[495]` (HyQForwardKinJacReverse.cpp:717). -/
def l717 (x : Fin 36 → ℝ) : ℝ := (33 / 100) * l630 x

/-- `v_[490]` (HyQForwardKinJacReverse.cpp:718). -/
def l718 (x : Fin 36 → ℝ) : ℝ := l717 x * l632 x

/-- `v_[493]` (HyQForwardKinJacReverse.cpp:719). -/
def l719 (x : Fin 36 → ℝ) : ℝ := l716 x * l634 x + l718 x * l638 x

/-- `v_[544]` (HyQForwardKinJacReverse.cpp:720). -/
def l720 (x : Fin 36 → ℝ) : ℝ := l715 x * l632 x

/-- `v_[545]` (HyQForwardKinJacReverse.cpp:721). -/
def l721 (x : Fin 36 → ℝ) : ℝ := (33 / 100) * l630 x

/-- `v_[546]` (HyQForwardKinJacReverse.cpp:722). -/
def l722 (x : Fin 36 → ℝ) : ℝ := l721 x * l636 x

/-- `v_[547]` (HyQForwardKinJacReverse.cpp:723). -/
def l723 (x : Fin 36 → ℝ) : ℝ := (7 / 20) * l630 x

/-- `v_[548]` (HyQForwardKinJacReverse.cpp:724). -/
def l724 (x : Fin 36 → ℝ) : ℝ := l720 x * l638 x + l722 x * l634 x + l723 x * l632 x

/-- `v_[549]` (HyQForwardKinJacReverse.cpp:725). -/
def l725 (x : Fin 36 → ℝ) : ℝ := (33 / 100) * l654 x

/-- `v_[550]` (HyQForwardKinJacReverse.cpp:726). -/
def l726 (x : Fin 36 → ℝ) : ℝ := l725 x * l636 x

/-- `v_[551]` (HyQForwardKinJacReverse.cpp:727). -/
def l727 (x : Fin 36 → ℝ) : ℝ := -(33 / 100) * l654 x

/-- `v_[552]` (HyQForwardKinJacReverse.cpp:728). -/
def l728 (x : Fin 36 → ℝ) : ℝ := l727 x * l632 x

/-- `v_[553]` (HyQForwardKinJacReverse.cpp:729). -/
def l729 (x : Fin 36 → ℝ) : ℝ := (7 / 20) * l654 x

/-- `v_[554]` (HyQForwardKinJacReverse.cpp:730). -/
def l730 (x : Fin 36 → ℝ) : ℝ := l726 x * l638 x + l728 x * l634 x + l729 x * l636 x + (2 / 25) * l654 x

/-- `v_[555]` (HyQForwardKinJacReverse.cpp:731). -/
def l731 (x : Fin 36 → ℝ) : ℝ := (33 / 100) * l654 x

/-- `v_[556]` (HyQForwardKinJacReverse.cpp:732). -/
def l732 (x : Fin 36 → ℝ) : ℝ := l731 x * l636 x

/-- `v_[557]` (HyQForwardKinJacReverse.cpp:733). -/
def l733 (x : Fin 36 → ℝ) : ℝ := -(33 / 100) * l654 x

/-- `v_[558]` (HyQForwardKinJacReverse.cpp:734). -/
def l734 (x : Fin 36 → ℝ) : ℝ := l733 x * l632 x

/-- `v_[559]` (HyQForwardKinJacReverse.cpp:735). -/
def l735 (x : Fin 36 → ℝ) : ℝ := (7 / 20) * l654 x

/-- `v_[560]` (HyQForwardKinJacReverse.cpp:736). -/
def l736 (x : Fin 36 → ℝ) : ℝ := -(207 / 1000) + l732 x * l638 x + l734 x * l634 x + l735 x * l636 x + (2 / 25) * l654 x

/-- `v_[561]` (HyQForwardKinJacReverse.cpp:737). -/
def l737 (x : Fin 36 → ℝ) : ℝ := -(33 / 100) * l636 x

/-- `v_[562]` (HyQForwardKinJacReverse.cpp:738). -/
def l738 (x : Fin 36 → ℝ) : ℝ := (33 / 100) * l632 x

/-- `v_[563]` (HyQForwardKinJacReverse.cpp:739). -/
def l739 (x : Fin 36 → ℝ) : ℝ := -(747 / 2000) + l737 x * l634 x - l738 x * l638 x - (7 / 20) * l632 x

/-- `v_[564]` (HyQForwardKinJacReverse.cpp:740). -/
def l740 (x : Fin 36 → ℝ) : ℝ := l719 x * x 35 + l724 x * x 34 + l730 x * x 33 + x 23 + x 18 * l736 x - x 19 * l739 x

/-- `v_[565]` (HyQForwardKinJacReverse.cpp:741). -/
def l741 (x : Fin 36 → ℝ) : ℝ := (1 / 2) * x 0

/-- `v_[566]` (HyQForwardKinJacReverse.cpp:742). -/
def l742 (x : Fin 36 → ℝ) : ℝ := Real.cos (l741 x)

/-- `v_[567]` (HyQForwardKinJacReverse.cpp:743). -/
def l743 (x : Fin 36 → ℝ) : ℝ := (1 / 2) * x 1

/-- `v_[568]` (HyQForwardKinJacReverse.cpp:744). -/
def l744 (x : Fin 36 → ℝ) : ℝ := Real.cos (l743 x)

/-- `v_[569]` (HyQForwardKinJacReverse.cpp:745). -/
def l745 (x : Fin 36 → ℝ) : ℝ := l742 x * l744 x

/-- `v_[570]` (HyQForwardKinJacReverse.cpp:746). -/
def l746 (x : Fin 36 → ℝ) : ℝ := (1 / 2) * x 2

/-- `v_[571]` (HyQForwardKinJacReverse.cpp:747). -/
def l747 (x : Fin 36 → ℝ) : ℝ := Real.sin (l746 x)

/-- `v_[572]` (HyQForwardKinJacReverse.cpp:748). -/
def l748 (x : Fin 36 → ℝ) : ℝ := Real.sin (l741 x)

/-- `v_[573]` (HyQForwardKinJacReverse.cpp:749). -/
def l749 (x : Fin 36 → ℝ) : ℝ := Real.sin (l743 x)

/-- `v_[574]` (HyQForwardKinJacReverse.cpp:750). -/
def l750 (x : Fin 36 → ℝ) : ℝ := l748 x * l749 x

/-- `v_[575]` (HyQForwardKinJacReverse.cpp:751). -/
def l751 (x : Fin 36 → ℝ) : ℝ := Real.cos (l746 x)

/-- `v_[576]` (HyQForwardKinJacReverse.cpp:752). -/
def l752 (x : Fin 36 → ℝ) : ℝ := l745 x * l747 x + l750 x * l751 x

/-- `v_[577]` (HyQForwardKinJacReverse.cpp:753). -/
def l753 (x : Fin 36 → ℝ) : ℝ := 2 * l752 x

/-- `v_[578]` (HyQForwardKinJacReverse.cpp:754). -/
def l754 (x : Fin 36 → ℝ) : ℝ := -(33 / 100) * l654 x

/-- `v_[579]` (HyQForwardKinJacReverse.cpp:755). -/
def l755 (x : Fin 36 → ℝ) : ℝ := l754 x * l636 x

/-- `v_[580]` (HyQForwardKinJacReverse.cpp:756). -/
def l756 (x : Fin 36 → ℝ) : ℝ := (33 / 100) * l654 x

/-- `v_[581]` (HyQForwardKinJacReverse.cpp:757). -/
def l757 (x : Fin 36 → ℝ) : ℝ := l756 x * l632 x

/-- `v_[582]` (HyQForwardKinJacReverse.cpp:758). -/
def l758 (x : Fin 36 → ℝ) : ℝ := l755 x * l634 x - l757 x * l638 x

/-- `v_[583]` (HyQForwardKinJacReverse.cpp:759). -/
def l759 (x : Fin 36 → ℝ) : ℝ := l727 x * l636 x

/-- `v_[584]` (HyQForwardKinJacReverse.cpp:760). -/
def l760 (x : Fin 36 → ℝ) : ℝ := (33 / 100) * l654 x

/-- `v_[585]` (HyQForwardKinJacReverse.cpp:761). -/
def l761 (x : Fin 36 → ℝ) : ℝ := l760 x * l632 x

/-- `v_[500]` (HyQForwardKinJacReverse.cpp:762). -/
def l762 (x : Fin 36 → ℝ) : ℝ := (7 / 20) * l654 x

/-- `v_[586]` (HyQForwardKinJacReverse.cpp:763). -/
def l763 (x : Fin 36 → ℝ) : ℝ := l759 x * l634 x - l761 x * l638 x - l762 x * l632 x

/-- `v_[587]` (HyQForwardKinJacReverse.cpp:764). -/
def l764 (x : Fin 36 → ℝ) : ℝ := (33 / 100) * l630 x

/-- `v_[588]` (HyQForwardKinJacReverse.cpp:765). -/
def l765 (x : Fin 36 → ℝ) : ℝ := l764 x * l636 x

/-- `v_[589]` (HyQForwardKinJacReverse.cpp:766). -/
def l766 (x : Fin 36 → ℝ) : ℝ := -(33 / 100) * l630 x

/-- `v_[590]` (HyQForwardKinJacReverse.cpp:767). -/
def l767 (x : Fin 36 → ℝ) : ℝ := l766 x * l632 x

/-- `v_[591]` (HyQForwardKinJacReverse.cpp:768). -/
def l768 (x : Fin 36 → ℝ) : ℝ := (7 / 20) * l630 x

/-- `v_[592]` (HyQForwardKinJacReverse.cpp:769). -/
def l769 (x : Fin 36 → ℝ) : ℝ := l765 x * l638 x + l767 x * l634 x + l768 x * l636 x + (2 / 25) * l630 x

/-- `v_[593]` (HyQForwardKinJacReverse.cpp:770). -/
def l770 (x : Fin 36 → ℝ) : ℝ := (33 / 100) * l630 x

/-- `v_[594]` (HyQForwardKinJacReverse.cpp:771). -/
def l771 (x : Fin 36 → ℝ) : ℝ := l770 x * l632 x

/-- `v_[595]` (HyQForwardKinJacReverse.cpp:772). -/
def l772 (x : Fin 36 → ℝ) : ℝ := (33 / 100) * l630 x

/-- `v_[596]` (HyQForwardKinJacReverse.cpp:773). -/
def l773 (x : Fin 36 → ℝ) : ℝ := l772 x * l636 x

/-- `v_[597]` (HyQForwardKinJacReverse.cpp:774). -/
def l774 (x : Fin 36 → ℝ) : ℝ := (7 / 20) * l630 x

/-- `v_[406]` (HyQForwardKinJacReverse.cpp:775). -/
def l775 (x : Fin 36 → ℝ) : ℝ := l771 x * l634 x - l773 x * l638 x - l774 x * l636 x - (2 / 25) * l630 x

/-- `v_[598]` (HyQForwardKinJacReverse.cpp:776). -/
def l776 (x : Fin 36 → ℝ) : ℝ := l758 x * x 35 + l763 x * x 34 + l769 x * x 33 + x 22 + x 20 * l739 x - x 18 * l775 x

/-- `v_[599]` (HyQForwardKinJacReverse.cpp:777). -/
def l777 (x : Fin 36 → ℝ) : ℝ := l742 x * l749 x

/-- `v_[600]` (HyQForwardKinJacReverse.cpp:778). -/
def l778 (x : Fin 36 → ℝ) : ℝ := l748 x * l744 x

/-- `v_[601]` (HyQForwardKinJacReverse.cpp:779). -/
def l779 (x : Fin 36 → ℝ) : ℝ := l777 x * l751 x - l778 x * l747 x

/-- `v_[602]` (HyQForwardKinJacReverse.cpp:780). -/
def l780 (x : Fin 36 → ℝ) : ℝ := 2 * l779 x

/-- `v_[603]` (HyQForwardKinJacReverse.cpp:781). -/
def l781 (x : Fin 36 → ℝ) : ℝ := l740 x * l753 x + l776 x * l780 x

/-- `v_[604]` (HyQForwardKinJacReverse.cpp:782). -/
def l782 (x : Fin 36 → ℝ) : ℝ := (33 / 100) * l632 x

/-- `v_[605]` (HyQForwardKinJacReverse.cpp:783). -/
def l783 (x : Fin 36 → ℝ) : ℝ := (33 / 100) * l636 x

/-- `v_[606]` (HyQForwardKinJacReverse.cpp:784). -/
def l784 (x : Fin 36 → ℝ) : ℝ := l782 x * l634 x - l783 x * l638 x

/-- `v_[607]` (HyQForwardKinJacReverse.cpp:785). -/
def l785 (x : Fin 36 → ℝ) : ℝ := (33 / 100) * l632 x

/-- `v_[608]` (HyQForwardKinJacReverse.cpp:786). -/
def l786 (x : Fin 36 → ℝ) : ℝ := (33 / 100) * l636 x

/-- `v_[609]` (HyQForwardKinJacReverse.cpp:787). -/
def l787 (x : Fin 36 → ℝ) : ℝ := l785 x * l634 x - l786 x * l638 x - (7 / 20) * l636 x

/-- `v_[610]` (HyQForwardKinJacReverse.cpp:788). -/
def l788 (x : Fin 36 → ℝ) : ℝ := l784 x * x 35 + l787 x * x 34 + x 21 + x 19 * l775 x - x 20 * l736 x

/-- `v_[611]` (HyQForwardKinJacReverse.cpp:789). -/
def l789 (x : Fin 36 → ℝ) : ℝ := 0 - l788 x

/-- `v_[612]` (HyQForwardKinJacReverse.cpp:790). -/
def l790 (x : Fin 36 → ℝ) : ℝ := l778 x * l751 x + l777 x * l747 x

/-- `v_[613]` (HyQForwardKinJacReverse.cpp:791). -/
def l791 (x : Fin 36 → ℝ) : ℝ := l745 x * l751 x - l750 x * l747 x

/-- `v_[611]` (HyQForwardKinJacReverse.cpp:792). -/
def l792 (x : Fin 36 → ℝ) : ℝ := l789 x * l780 x + (l789 x * l779 x + l776 x * l790 x + l740 x * l791 x) * 2

/-- `v_[614]` (HyQForwardKinJacReverse.cpp:793). -/
def l793 (x : Fin 36 → ℝ) : ℝ := 0 - l792 x

/-- `v_[615]` (HyQForwardKinJacReverse.cpp:794). -/
def l794 (x : Fin 36 → ℝ) : ℝ := l781 x * l751 x + l793 x * l747 x

/-- `v_[616]` (HyQForwardKinJacReverse.cpp:795). -/
def l795 (x : Fin 36 → ℝ) : ℝ := 0 - l776 x

/-- `v_[617]` (HyQForwardKinJacReverse.cpp:796). -/
def l796 (x : Fin 36 → ℝ) : ℝ := l795 x * l753 x + l740 x * l780 x

/-- `v_[618]` (HyQForwardKinJacReverse.cpp:797). -/
def l797 (x : Fin 36 → ℝ) : ℝ := 0 - l796 x

/-- `v_[619]` (HyQForwardKinJacReverse.cpp:798). -/
def l798 (x : Fin 36 → ℝ) : ℝ := 0 - l788 x

/-- `v_[619]` (HyQForwardKinJacReverse.cpp:799). -/
def l799 (x : Fin 36 → ℝ) : ℝ := l798 x * l753 x + (l798 x * l752 x + l740 x * l790 x + l795 x * l791 x) * 2

/-- `v_[616]` (HyQForwardKinJacReverse.cpp:800). -/
def l800 (x : Fin 36 → ℝ) : ℝ := l797 x * l747 x + l799 x * l751 x

/-- `v_[620]` (HyQForwardKinJacReverse.cpp:801). -/
def l801 (x : Fin 36 → ℝ) : ℝ := Real.cos (l741 x)

/-- `v_[621]` (HyQForwardKinJacReverse.cpp:802). -/
def l802 (x : Fin 36 → ℝ) : ℝ := l796 x * l751 x + l799 x * l747 x

/-- `v_[622]` (HyQForwardKinJacReverse.cpp:803). -/
def l803 (x : Fin 36 → ℝ) : ℝ := l781 x * l747 x + l792 x * l751 x

/-- `v_[565]` (HyQForwardKinJacReverse.cpp:804). -/
def l804 (x : Fin 36 → ℝ) : ℝ := Real.sin (l741 x)

/-- `jac[21]` (HyQForwardKinJacReverse.cpp:805). -/
def l805 (x : Fin 36 → ℝ) : ℝ := ((l794 x * l744 x + l800 x * l749 x) * l801 x - (l802 x * l744 x + l803 x * l749 x) * l804 x) * (1 / 2)

/-- `v_[623]` (HyQForwardKinJacReverse.cpp:806). -/
def l806 (x : Fin 36 → ℝ) : ℝ := 0 - l776 x

/-- `v_[624]` (HyQForwardKinJacReverse.cpp:807). -/
def l807 (x : Fin 36 → ℝ) : ℝ := 2 * l790 x

/-- `v_[625]` (HyQForwardKinJacReverse.cpp:808). -/
def l808 (x : Fin 36 → ℝ) : ℝ := 0 - l740 x

/-- `v_[623]` (HyQForwardKinJacReverse.cpp:809). -/
def l809 (x : Fin 36 → ℝ) : ℝ := l788 x * l780 x + l806 x * l807 x + (l806 x * l790 x + l808 x * l791 x) * 2

/-- `v_[626]` (HyQForwardKinJacReverse.cpp:810). -/
def l810 (x : Fin 36 → ℝ) : ℝ := l740 x * l753 x + l788 x * l790 x * 2

/-- `v_[627]` (HyQForwardKinJacReverse.cpp:811). -/
def l811 (x : Fin 36 → ℝ) : ℝ := 0 - l810 x

/-- `v_[628]` (HyQForwardKinJacReverse.cpp:812). -/
def l812 (x : Fin 36 → ℝ) : ℝ := l809 x * l751 x + l811 x * l747 x

/-- `v_[625]` (HyQForwardKinJacReverse.cpp:813). -/
def l813 (x : Fin 36 → ℝ) : ℝ := l788 x * l753 x + l808 x * l807 x

/-- `v_[629]` (HyQForwardKinJacReverse.cpp:814). -/
def l814 (x : Fin 36 → ℝ) : ℝ := 0 - l813 x

/-- `v_[630]` (HyQForwardKinJacReverse.cpp:815). -/
def l815 (x : Fin 36 → ℝ) : ℝ := 0 - l776 x

/-- `v_[630]` (HyQForwardKinJacReverse.cpp:816). -/
def l816 (x : Fin 36 → ℝ) : ℝ := l815 x * l753 x + (l815 x * l752 x + l740 x * l779 x + l788 x * l791 x) * 2

/-- `v_[631]` (HyQForwardKinJacReverse.cpp:817). -/
def l817 (x : Fin 36 → ℝ) : ℝ := l814 x * l747 x + l816 x * l751 x

/-- `v_[632]` (HyQForwardKinJacReverse.cpp:818). -/
def l818 (x : Fin 36 → ℝ) : ℝ := l813 x * l751 x + l816 x * l747 x

/-- `v_[633]` (HyQForwardKinJacReverse.cpp:819). -/
def l819 (x : Fin 36 → ℝ) : ℝ := l809 x * l747 x + l810 x * l751 x

/-- `jac[22]` (HyQForwardKinJacReverse.cpp:820). -/
def l820 (x : Fin 36 → ℝ) : ℝ := ((l812 x * l744 x + l817 x * l749 x) * l801 x - (l818 x * l744 x + l819 x * l749 x) * l804 x) * (1 / 2)

/-- `v_[634]` (HyQForwardKinJacReverse.cpp:821). -/
def l821 (x : Fin 36 → ℝ) : ℝ := 0 - l740 x

/-- `v_[634]` (HyQForwardKinJacReverse.cpp:822). -/
def l822 (x : Fin 36 → ℝ) : ℝ := l788 x * l753 x + l821 x * l807 x + (l821 x * l790 x + l776 x * l791 x) * 2

/-- `v_[564]` (HyQForwardKinJacReverse.cpp:823). -/
def l823 (x : Fin 36 → ℝ) : ℝ := 0 - l740 x

/-- `v_[635]` (HyQForwardKinJacReverse.cpp:824). -/
def l824 (x : Fin 36 → ℝ) : ℝ := 0 - l788 x

/-- `v_[564]` (HyQForwardKinJacReverse.cpp:825). -/
def l825 (x : Fin 36 → ℝ) : ℝ := l776 x * l753 x + l823 x * l780 x + (l823 x * l779 x + l824 x * l791 x) * 2

/-- `v_[636]` (HyQForwardKinJacReverse.cpp:826). -/
def l826 (x : Fin 36 → ℝ) : ℝ := 0 - l825 x

/-- `v_[637]` (HyQForwardKinJacReverse.cpp:827). -/
def l827 (x : Fin 36 → ℝ) : ℝ := l822 x * l751 x + l826 x * l747 x

/-- `v_[635]` (HyQForwardKinJacReverse.cpp:828). -/
def l828 (x : Fin 36 → ℝ) : ℝ := l824 x * l780 x + l776 x * l807 x

/-- `v_[638]` (HyQForwardKinJacReverse.cpp:829). -/
def l829 (x : Fin 36 → ℝ) : ℝ := 0 - l828 x

/-- `v_[610]` (HyQForwardKinJacReverse.cpp:830). -/
def l830 (x : Fin 36 → ℝ) : ℝ := (l776 x * l779 x + l788 x * l790 x) * 2

/-- `v_[598]` (HyQForwardKinJacReverse.cpp:831). -/
def l831 (x : Fin 36 → ℝ) : ℝ := l829 x * l747 x + l830 x * l751 x

/-- `v_[639]` (HyQForwardKinJacReverse.cpp:832). -/
def l832 (x : Fin 36 → ℝ) : ℝ := l828 x * l751 x + l830 x * l747 x

/-- `v_[575]` (HyQForwardKinJacReverse.cpp:833). -/
def l833 (x : Fin 36 → ℝ) : ℝ := l822 x * l747 x + l825 x * l751 x

/-- `jac[23]` (HyQForwardKinJacReverse.cpp:834). -/
def l834 (x : Fin 36 → ℝ) : ℝ := ((l827 x * l744 x + l831 x * l749 x) * l801 x - (l832 x * l744 x + l833 x * l749 x) * l804 x) * (1 / 2)

/-- `v_[565]` (HyQForwardKinJacReverse.cpp:835). -/
def l835 (x : Fin 36 → ℝ) : ℝ := Real.cos (l29 x)

/-- `v_[13]` (HyQForwardKinJacReverse.cpp:836). -/
def l836 (x : Fin 36 → ℝ) : ℝ := Real.sin (l29 x)

/-- `jac[24]` (HyQForwardKinJacReverse.cpp:837). -/
def l837 (x : Fin 36 → ℝ) : ℝ := ((l69 x * l28 x + l66 x * l34 x) * l835 x - (l68 x * l28 x + l60 x * l34 x) * l836 x) * (1 / 2)

/-- `jac[25]` (HyQForwardKinJacReverse.cpp:838). -/
def l838 (x : Fin 36 → ℝ) : ℝ := ((l85 x * l28 x + l83 x * l34 x) * l835 x - (l84 x * l28 x + l78 x * l34 x) * l836 x) * (1 / 2)

/-- `jac[26]` (HyQForwardKinJacReverse.cpp:839). -/
def l839 (x : Fin 36 → ℝ) : ℝ := ((l99 x * l28 x + l97 x * l34 x) * l835 x - (l98 x * l28 x + l93 x * l34 x) * l836 x) * (1 / 2)

/-- `v_[13]` (HyQForwardKinJacReverse.cpp:840). -/
def l840 (x : Fin 36 → ℝ) : ℝ := Real.cos (l129 x)

/-- `v_[91]` (HyQForwardKinJacReverse.cpp:841). -/
def l841 (x : Fin 36 → ℝ) : ℝ := Real.sin (l129 x)

/-- `jac[27]` (HyQForwardKinJacReverse.cpp:842). -/
def l842 (x : Fin 36 → ℝ) : ℝ := ((l187 x * l128 x + l184 x * l134 x) * l840 x - (l186 x * l128 x + l178 x * l134 x) * l841 x) * (1 / 2)

/-- `jac[28]` (HyQForwardKinJacReverse.cpp:843). -/
def l843 (x : Fin 36 → ℝ) : ℝ := ((l203 x * l128 x + l201 x * l134 x) * l840 x - (l202 x * l128 x + l196 x * l134 x) * l841 x) * (1 / 2)

/-- `jac[29]` (HyQForwardKinJacReverse.cpp:844). -/
def l844 (x : Fin 36 → ℝ) : ℝ := ((l217 x * l128 x + l215 x * l134 x) * l840 x - (l216 x * l128 x + l211 x * l134 x) * l841 x) * (1 / 2)

/-- `v_[91]` (HyQForwardKinJacReverse.cpp:845). -/
def l845 (x : Fin 36 → ℝ) : ℝ := Real.cos (l232 x)

/-- `v_[170]` (HyQForwardKinJacReverse.cpp:846). -/
def l846 (x : Fin 36 → ℝ) : ℝ := Real.sin (l232 x)

/-- `jac[30]` (HyQForwardKinJacReverse.cpp:847). -/
def l847 (x : Fin 36 → ℝ) : ℝ := ((l272 x * l231 x + l269 x * l237 x) * l845 x - (l271 x * l231 x + l263 x * l237 x) * l846 x) * (1 / 2)

/-- `jac[31]` (HyQForwardKinJacReverse.cpp:848). -/
def l848 (x : Fin 36 → ℝ) : ℝ := ((l288 x * l231 x + l286 x * l237 x) * l845 x - (l287 x * l231 x + l281 x * l237 x) * l846 x) * (1 / 2)

/-- `jac[32]` (HyQForwardKinJacReverse.cpp:849). -/
def l849 (x : Fin 36 → ℝ) : ℝ := ((l302 x * l231 x + l300 x * l237 x) * l845 x - (l301 x * l231 x + l296 x * l237 x) * l846 x) * (1 / 2)

/-- `v_[170]` (HyQForwardKinJacReverse.cpp:850). -/
def l850 (x : Fin 36 → ℝ) : ℝ := Real.cos (l332 x)

/-- `v_[248]` (HyQForwardKinJacReverse.cpp:851). -/
def l851 (x : Fin 36 → ℝ) : ℝ := Real.sin (l332 x)

/-- `jac[33]` (HyQForwardKinJacReverse.cpp:852). -/
def l852 (x : Fin 36 → ℝ) : ℝ := ((l392 x * l331 x + l389 x * l337 x) * l850 x - (l391 x * l331 x + l383 x * l337 x) * l851 x) * (1 / 2)

/-- `jac[34]` (HyQForwardKinJacReverse.cpp:853). -/
def l853 (x : Fin 36 → ℝ) : ℝ := ((l408 x * l331 x + l406 x * l337 x) * l850 x - (l407 x * l331 x + l401 x * l337 x) * l851 x) * (1 / 2)

/-- `jac[35]` (HyQForwardKinJacReverse.cpp:854). -/
def l854 (x : Fin 36 → ℝ) : ℝ := ((l422 x * l331 x + l420 x * l337 x) * l850 x - (l421 x * l331 x + l416 x * l337 x) * l851 x) * (1 / 2)

/-- `v_[248]` (HyQForwardKinJacReverse.cpp:855). -/
def l855 (x : Fin 36 → ℝ) : ℝ := Real.cos (l437 x)

/-- `v_[329]` (HyQForwardKinJacReverse.cpp:856). -/
def l856 (x : Fin 36 → ℝ) : ℝ := Real.sin (l437 x)

/-- `jac[36]` (HyQForwardKinJacReverse.cpp:857). -/
def l857 (x : Fin 36 → ℝ) : ℝ := ((l477 x * l436 x + l474 x * l442 x) * l855 x - (l476 x * l436 x + l468 x * l442 x) * l856 x) * (1 / 2)

/-- `jac[37]` (HyQForwardKinJacReverse.cpp:858). -/
def l858 (x : Fin 36 → ℝ) : ℝ := ((l493 x * l436 x + l491 x * l442 x) * l855 x - (l492 x * l436 x + l486 x * l442 x) * l856 x) * (1 / 2)

/-- `jac[38]` (HyQForwardKinJacReverse.cpp:859). -/
def l859 (x : Fin 36 → ℝ) : ℝ := ((l507 x * l436 x + l505 x * l442 x) * l855 x - (l506 x * l436 x + l501 x * l442 x) * l856 x) * (1 / 2)

/-- `v_[329]` (HyQForwardKinJacReverse.cpp:860). -/
def l860 (x : Fin 36 → ℝ) : ℝ := Real.cos (l538 x)

/-- `v_[408]` (HyQForwardKinJacReverse.cpp:861). -/
def l861 (x : Fin 36 → ℝ) : ℝ := Real.sin (l538 x)

/-- `jac[39]` (HyQForwardKinJacReverse.cpp:862). -/
def l862 (x : Fin 36 → ℝ) : ℝ := ((l598 x * l537 x + l595 x * l543 x) * l860 x - (l597 x * l537 x + l589 x * l543 x) * l861 x) * (1 / 2)

/-- `jac[40]` (HyQForwardKinJacReverse.cpp:863). -/
def l863 (x : Fin 36 → ℝ) : ℝ := ((l614 x * l537 x + l612 x * l543 x) * l860 x - (l613 x * l537 x + l607 x * l543 x) * l861 x) * (1 / 2)

/-- `jac[41]` (HyQForwardKinJacReverse.cpp:864). -/
def l864 (x : Fin 36 → ℝ) : ℝ := ((l628 x * l537 x + l626 x * l543 x) * l860 x - (l627 x * l537 x + l622 x * l543 x) * l861 x) * (1 / 2)

/-- `v_[408]` (HyQForwardKinJacReverse.cpp:865). -/
def l865 (x : Fin 36 → ℝ) : ℝ := Real.cos (l643 x)

/-- `v_[489]` (HyQForwardKinJacReverse.cpp:866). -/
def l866 (x : Fin 36 → ℝ) : ℝ := Real.sin (l643 x)

/-- `jac[42]` (HyQForwardKinJacReverse.cpp:867). -/
def l867 (x : Fin 36 → ℝ) : ℝ := ((l683 x * l642 x + l680 x * l648 x) * l865 x - (l682 x * l642 x + l674 x * l648 x) * l866 x) * (1 / 2)

/-- `jac[43]` (HyQForwardKinJacReverse.cpp:868). -/
def l868 (x : Fin 36 → ℝ) : ℝ := ((l699 x * l642 x + l697 x * l648 x) * l865 x - (l698 x * l642 x + l692 x * l648 x) * l866 x) * (1 / 2)

/-- `jac[44]` (HyQForwardKinJacReverse.cpp:869). -/
def l869 (x : Fin 36 → ℝ) : ℝ := ((l713 x * l642 x + l711 x * l648 x) * l865 x - (l712 x * l642 x + l707 x * l648 x) * l866 x) * (1 / 2)

/-- `v_[489]` (HyQForwardKinJacReverse.cpp:870). -/
def l870 (x : Fin 36 → ℝ) : ℝ := Real.cos (l743 x)

/-- `v_[567]` (HyQForwardKinJacReverse.cpp:871). -/
def l871 (x : Fin 36 → ℝ) : ℝ := Real.sin (l743 x)

/-- `jac[45]` (HyQForwardKinJacReverse.cpp:872). -/
def l872 (x : Fin 36 → ℝ) : ℝ := ((l803 x * l742 x + l800 x * l748 x) * l870 x - (l802 x * l742 x + l794 x * l748 x) * l871 x) * (1 / 2)

/-- `jac[46]` (HyQForwardKinJacReverse.cpp:873). -/
def l873 (x : Fin 36 → ℝ) : ℝ := ((l819 x * l742 x + l817 x * l748 x) * l870 x - (l818 x * l742 x + l812 x * l748 x) * l871 x) * (1 / 2)

/-- `jac[47]` (HyQForwardKinJacReverse.cpp:874). -/
def l874 (x : Fin 36 → ℝ) : ℝ := ((l833 x * l742 x + l831 x * l748 x) * l870 x - (l832 x * l742 x + l827 x * l748 x) * l871 x) * (1 / 2)

/-- `v_[567]` (HyQForwardKinJacReverse.cpp:875). -/
def l875 (x : Fin 36 → ℝ) : ℝ := Real.cos (l32 x)

/-- `v_[16]` (HyQForwardKinJacReverse.cpp:876). -/
def l876 (x : Fin 36 → ℝ) : ℝ := Real.sin (l32 x)

/-- `jac[48]` (HyQForwardKinJacReverse.cpp:877). -/
def l877 (x : Fin 36 → ℝ) : ℝ := ((l63 x * l36 x + l51 x * l47 x + l59 x * l48 x + l65 x * l31 x) * l875 x - (l62 x * l31 x + l51 x * l48 x + l58 x * l47 x + l65 x * l36 x) * l876 x) * (1 / 2)

/-- `jac[49]` (HyQForwardKinJacReverse.cpp:878). -/
def l878 (x : Fin 36 → ℝ) : ℝ := ((l80 x * l36 x + l75 x * l47 x + l77 x * l48 x + l82 x * l31 x) * l875 x - (l79 x * l31 x + l75 x * l48 x + l76 x * l47 x + l82 x * l36 x) * l876 x) * (1 / 2)

/-- `jac[50]` (HyQForwardKinJacReverse.cpp:879). -/
def l879 (x : Fin 36 → ℝ) : ℝ := ((l95 x * l36 x + l88 x * l47 x + l92 x * l48 x + l96 x * l31 x) * l875 x - (l94 x * l31 x + l88 x * l48 x + l91 x * l47 x + l96 x * l36 x) * l876 x) * (1 / 2)

/-- `v_[16]` (HyQForwardKinJacReverse.cpp:880). -/
def l880 (x : Fin 36 → ℝ) : ℝ := Real.cos (l132 x)

/-- `v_[94]` (HyQForwardKinJacReverse.cpp:881). -/
def l881 (x : Fin 36 → ℝ) : ℝ := Real.sin (l132 x)

/-- `jac[51]` (HyQForwardKinJacReverse.cpp:882). -/
def l882 (x : Fin 36 → ℝ) : ℝ := ((l181 x * l136 x + l165 x * l161 x + l177 x * l162 x + l183 x * l131 x) * l880 x - (l180 x * l131 x + l165 x * l162 x + l176 x * l161 x + l183 x * l136 x) * l881 x) * (1 / 2)

/-- `jac[52]` (HyQForwardKinJacReverse.cpp:883). -/
def l883 (x : Fin 36 → ℝ) : ℝ := ((l198 x * l136 x + l193 x * l161 x + l195 x * l162 x + l200 x * l131 x) * l880 x - (l197 x * l131 x + l193 x * l162 x + l194 x * l161 x + l200 x * l136 x) * l881 x) * (1 / 2)

/-- `jac[53]` (HyQForwardKinJacReverse.cpp:884). -/
def l884 (x : Fin 36 → ℝ) : ℝ := ((l213 x * l136 x + l206 x * l161 x + l210 x * l162 x + l214 x * l131 x) * l880 x - (l212 x * l131 x + l206 x * l162 x + l209 x * l161 x + l214 x * l136 x) * l881 x) * (1 / 2)

/-- `v_[94]` (HyQForwardKinJacReverse.cpp:885). -/
def l885 (x : Fin 36 → ℝ) : ℝ := Real.cos (l235 x)

/-- `v_[173]` (HyQForwardKinJacReverse.cpp:886). -/
def l886 (x : Fin 36 → ℝ) : ℝ := Real.sin (l235 x)

/-- `jac[54]` (HyQForwardKinJacReverse.cpp:887). -/
def l887 (x : Fin 36 → ℝ) : ℝ := ((l266 x * l239 x + l254 x * l250 x + l262 x * l251 x + l268 x * l234 x) * l885 x - (l265 x * l234 x + l254 x * l251 x + l261 x * l250 x + l268 x * l239 x) * l886 x) * (1 / 2)

/-- `jac[55]` (HyQForwardKinJacReverse.cpp:888). -/
def l888 (x : Fin 36 → ℝ) : ℝ := ((l283 x * l239 x + l278 x * l250 x + l280 x * l251 x + l285 x * l234 x) * l885 x - (l282 x * l234 x + l278 x * l251 x + l279 x * l250 x + l285 x * l239 x) * l886 x) * (1 / 2)

/-- `jac[56]` (HyQForwardKinJacReverse.cpp:889). -/
def l889 (x : Fin 36 → ℝ) : ℝ := ((l298 x * l239 x + l291 x * l250 x + l295 x * l251 x + l299 x * l234 x) * l885 x - (l297 x * l234 x + l291 x * l251 x + l294 x * l250 x + l299 x * l239 x) * l886 x) * (1 / 2)

/-- `v_[173]` (HyQForwardKinJacReverse.cpp:890). -/
def l890 (x : Fin 36 → ℝ) : ℝ := Real.cos (l335 x)

/-- `v_[251]` (HyQForwardKinJacReverse.cpp:891). -/
def l891 (x : Fin 36 → ℝ) : ℝ := Real.sin (l335 x)

/-- `jac[57]` (HyQForwardKinJacReverse.cpp:892). -/
def l892 (x : Fin 36 → ℝ) : ℝ := ((l386 x * l339 x + l370 x * l366 x + l382 x * l367 x + l388 x * l334 x) * l890 x - (l385 x * l334 x + l370 x * l367 x + l381 x * l366 x + l388 x * l339 x) * l891 x) * (1 / 2)

/-- `jac[58]` (HyQForwardKinJacReverse.cpp:893). -/
def l893 (x : Fin 36 → ℝ) : ℝ := ((l403 x * l339 x + l398 x * l366 x + l400 x * l367 x + l405 x * l334 x) * l890 x - (l402 x * l334 x + l398 x * l367 x + l399 x * l366 x + l405 x * l339 x) * l891 x) * (1 / 2)

/-- `jac[59]` (HyQForwardKinJacReverse.cpp:894). -/
def l894 (x : Fin 36 → ℝ) : ℝ := ((l418 x * l339 x + l411 x * l366 x + l415 x * l367 x + l419 x * l334 x) * l890 x - (l417 x * l334 x + l411 x * l367 x + l414 x * l366 x + l419 x * l339 x) * l891 x) * (1 / 2)

/-- `v_[251]` (HyQForwardKinJacReverse.cpp:895). -/
def l895 (x : Fin 36 → ℝ) : ℝ := Real.cos (l440 x)

/-- `v_[332]` (HyQForwardKinJacReverse.cpp:896). -/
def l896 (x : Fin 36 → ℝ) : ℝ := Real.sin (l440 x)

/-- `jac[60]` (HyQForwardKinJacReverse.cpp:897). -/
def l897 (x : Fin 36 → ℝ) : ℝ := ((l471 x * l444 x + l459 x * l455 x + l467 x * l456 x + l473 x * l439 x) * l895 x - (l470 x * l439 x + l459 x * l456 x + l466 x * l455 x + l473 x * l444 x) * l896 x) * (1 / 2)

/-- `jac[61]` (HyQForwardKinJacReverse.cpp:898). -/
def l898 (x : Fin 36 → ℝ) : ℝ := ((l488 x * l444 x + l483 x * l455 x + l485 x * l456 x + l490 x * l439 x) * l895 x - (l487 x * l439 x + l483 x * l456 x + l484 x * l455 x + l490 x * l444 x) * l896 x) * (1 / 2)

/-- `jac[62]` (HyQForwardKinJacReverse.cpp:899). -/
def l899 (x : Fin 36 → ℝ) : ℝ := ((l503 x * l444 x + l496 x * l455 x + l500 x * l456 x + l504 x * l439 x) * l895 x - (l502 x * l439 x + l496 x * l456 x + l499 x * l455 x + l504 x * l444 x) * l896 x) * (1 / 2)

/-- `v_[332]` (HyQForwardKinJacReverse.cpp:900). -/
def l900 (x : Fin 36 → ℝ) : ℝ := Real.cos (l541 x)

/-- `v_[411]` (HyQForwardKinJacReverse.cpp:901). -/
def l901 (x : Fin 36 → ℝ) : ℝ := Real.sin (l541 x)

/-- `jac[63]` (HyQForwardKinJacReverse.cpp:902). -/
def l902 (x : Fin 36 → ℝ) : ℝ := ((l592 x * l545 x + l576 x * l572 x + l588 x * l573 x + l594 x * l540 x) * l900 x - (l591 x * l540 x + l576 x * l573 x + l587 x * l572 x + l594 x * l545 x) * l901 x) * (1 / 2)

/-- `jac[64]` (HyQForwardKinJacReverse.cpp:903). -/
def l903 (x : Fin 36 → ℝ) : ℝ := ((l609 x * l545 x + l604 x * l572 x + l606 x * l573 x + l611 x * l540 x) * l900 x - (l608 x * l540 x + l604 x * l573 x + l605 x * l572 x + l611 x * l545 x) * l901 x) * (1 / 2)

/-- `jac[65]` (HyQForwardKinJacReverse.cpp:904). -/
def l904 (x : Fin 36 → ℝ) : ℝ := ((l624 x * l545 x + l617 x * l572 x + l621 x * l573 x + l625 x * l540 x) * l900 x - (l623 x * l540 x + l617 x * l573 x + l620 x * l572 x + l625 x * l545 x) * l901 x) * (1 / 2)

/-- `v_[411]` (HyQForwardKinJacReverse.cpp:905). -/
def l905 (x : Fin 36 → ℝ) : ℝ := Real.cos (l646 x)

/-- `v_[492]` (HyQForwardKinJacReverse.cpp:906). -/
def l906 (x : Fin 36 → ℝ) : ℝ := Real.sin (l646 x)

/-- `jac[66]` (HyQForwardKinJacReverse.cpp:907). -/
def l907 (x : Fin 36 → ℝ) : ℝ := ((l677 x * l650 x + l665 x * l661 x + l673 x * l662 x + l679 x * l645 x) * l905 x - (l676 x * l645 x + l665 x * l662 x + l672 x * l661 x + l679 x * l650 x) * l906 x) * (1 / 2)

/-- `jac[67]` (HyQForwardKinJacReverse.cpp:908). -/
def l908 (x : Fin 36 → ℝ) : ℝ := ((l694 x * l650 x + l689 x * l661 x + l691 x * l662 x + l696 x * l645 x) * l905 x - (l693 x * l645 x + l689 x * l662 x + l690 x * l661 x + l696 x * l650 x) * l906 x) * (1 / 2)

/-- `jac[68]` (HyQForwardKinJacReverse.cpp:909). -/
def l909 (x : Fin 36 → ℝ) : ℝ := ((l709 x * l650 x + l702 x * l661 x + l706 x * l662 x + l710 x * l645 x) * l905 x - (l708 x * l645 x + l702 x * l662 x + l705 x * l661 x + l710 x * l650 x) * l906 x) * (1 / 2)

/-- `v_[492]` (HyQForwardKinJacReverse.cpp:910). -/
def l910 (x : Fin 36 → ℝ) : ℝ := Real.cos (l746 x)

/-- `v_[570]` (HyQForwardKinJacReverse.cpp:911). -/
def l911 (x : Fin 36 → ℝ) : ℝ := Real.sin (l746 x)

/-- `jac[69]` (HyQForwardKinJacReverse.cpp:912). -/
def l912 (x : Fin 36 → ℝ) : ℝ := ((l797 x * l750 x + l781 x * l777 x + l793 x * l778 x + l799 x * l745 x) * l910 x - (l796 x * l745 x + l781 x * l778 x + l792 x * l777 x + l799 x * l750 x) * l911 x) * (1 / 2)

/-- `jac[70]` (HyQForwardKinJacReverse.cpp:913). -/
def l913 (x : Fin 36 → ℝ) : ℝ := ((l814 x * l750 x + l809 x * l777 x + l811 x * l778 x + l816 x * l745 x) * l910 x - (l813 x * l745 x + l809 x * l778 x + l810 x * l777 x + l816 x * l750 x) * l911 x) * (1 / 2)

/-- `jac[71]` (HyQForwardKinJacReverse.cpp:914). -/
def l914 (x : Fin 36 → ℝ) : ℝ := ((l829 x * l750 x + l822 x * l777 x + l826 x * l778 x + l830 x * l745 x) * l910 x - (l828 x * l745 x + l822 x * l778 x + l825 x * l777 x + l830 x * l750 x) * l911 x) * (1 / 2)

/-- `v_[570]` (HyQForwardKinJacReverse.cpp:915). -/
def l915 (x : Fin 36 → ℝ) : ℝ := l39 x * l56 x

/-- `v_[492]` (HyQForwardKinJacReverse.cpp:916). -/
def l916 (x : Fin 36 → ℝ) : ℝ := l50 x * l57 x

/-- `v_[610]` (HyQForwardKinJacReverse.cpp:917). -/
def l917 (x : Fin 36 → ℝ) : ℝ := l915 x + l916 x

/-- `v_[638]` (HyQForwardKinJacReverse.cpp:918). -/
def l918 (x : Fin 36 → ℝ) : ℝ := l917 x * l20 x

/-- `v_[635]` (HyQForwardKinJacReverse.cpp:919). -/
def l919 (x : Fin 36 → ℝ) : ℝ := 0 - l917 x

/-- `v_[636]` (HyQForwardKinJacReverse.cpp:920). -/
def l920 (x : Fin 36 → ℝ) : ℝ := l919 x * l24 x

/-- `v_[564]` (HyQForwardKinJacReverse.cpp:921). -/
def l921 (x : Fin 36 → ℝ) : ℝ := 0 - l917 x

/-- `v_[634]` (HyQForwardKinJacReverse.cpp:922). -/
def l922 (x : Fin 36 → ℝ) : ℝ := Real.sin (x 6)

/-- `v_[600]` (HyQForwardKinJacReverse.cpp:923). -/
def l923 (x : Fin 36 → ℝ) : ℝ := l50 x * l56 x

/-- `v_[599]` (HyQForwardKinJacReverse.cpp:924). -/
def l924 (x : Fin 36 → ℝ) : ℝ := l39 x * l57 x

/-- `v_[574]` (HyQForwardKinJacReverse.cpp:925). -/
def l925 (x : Fin 36 → ℝ) : ℝ := l923 x - l924 x

/-- `v_[569]` (HyQForwardKinJacReverse.cpp:926). -/
def l926 (x : Fin 36 → ℝ) : ℝ := l925 x * l20 x

/-- `v_[630]` (HyQForwardKinJacReverse.cpp:927). -/
def l927 (x : Fin 36 → ℝ) : ℝ := 0 - l925 x

/-- `v_[629]` (HyQForwardKinJacReverse.cpp:928). -/
def l928 (x : Fin 36 → ℝ) : ℝ := l927 x * l24 x

/-- `v_[625]` (HyQForwardKinJacReverse.cpp:929). -/
def l929 (x : Fin 36 → ℝ) : ℝ := 0 - l925 x

/-- `v_[627]` (HyQForwardKinJacReverse.cpp:930). -/
def l930 (x : Fin 36 → ℝ) : ℝ := Real.cos (x 6)

/-- `jac[144]` (HyQForwardKinJacReverse.cpp:931). -/
def l931 (x : Fin 36 → ℝ) : ℝ := 0 - (l918 x * l18 x * (33 / 100) + l920 x * l22 x * (33 / 100) + l921 x * l22 x * (7 / 20) + (0 - l917 x) * (2 / 25)) * l922 x + (l926 x * l18 x * (33 / 100) + l928 x * l22 x * (33 / 100) + l929 x * l22 x * (7 / 20) + (0 - l925 x) * (2 / 25)) * l930 x

/-- `v_[626]` (HyQForwardKinJacReverse.cpp:932). -/
def l932 (x : Fin 36 → ℝ) : ℝ := l39 x * l49 x

/-- `v_[41]` (HyQForwardKinJacReverse.cpp:933). -/
def l933 (x : Fin 36 → ℝ) : ℝ := l73 x * l57 x

/-- `v_[623]` (HyQForwardKinJacReverse.cpp:934). -/
def l934 (x : Fin 36 → ℝ) : ℝ := l932 x - l933 x

/-- `v_[619]` (HyQForwardKinJacReverse.cpp:935). -/
def l935 (x : Fin 36 → ℝ) : ℝ := l934 x * l20 x

/-- `v_[618]` (HyQForwardKinJacReverse.cpp:936). -/
def l936 (x : Fin 36 → ℝ) : ℝ := 0 - l934 x

/-- `v_[617]` (HyQForwardKinJacReverse.cpp:937). -/
def l937 (x : Fin 36 → ℝ) : ℝ := l936 x * l24 x

/-- `v_[614]` (HyQForwardKinJacReverse.cpp:938). -/
def l938 (x : Fin 36 → ℝ) : ℝ := 0 - l934 x

/-- `v_[23]` (HyQForwardKinJacReverse.cpp:939). -/
def l939 (x : Fin 36 → ℝ) : ℝ := l39 x * l38 x

/-- `v_[52]` (HyQForwardKinJacReverse.cpp:940). -/
def l940 (x : Fin 36 → ℝ) : ℝ := l73 x * l56 x

/-- `v_[40]` (HyQForwardKinJacReverse.cpp:941). -/
def l941 (x : Fin 36 → ℝ) : ℝ := 1 - l939 x - l940 x

/-- `v_[22]` (HyQForwardKinJacReverse.cpp:942). -/
def l942 (x : Fin 36 → ℝ) : ℝ := l941 x * l20 x

/-- `v_[611]` (HyQForwardKinJacReverse.cpp:943). -/
def l943 (x : Fin 36 → ℝ) : ℝ := 0 - l941 x

/-- `v_[603]` (HyQForwardKinJacReverse.cpp:944). -/
def l944 (x : Fin 36 → ℝ) : ℝ := l943 x * l24 x

/-- `v_[411]` (HyQForwardKinJacReverse.cpp:945). -/
def l945 (x : Fin 36 → ℝ) : ℝ := 0 - l941 x

/-- `jac[145]` (HyQForwardKinJacReverse.cpp:946). -/
def l946 (x : Fin 36 → ℝ) : ℝ := 0 - (l935 x * l18 x * (33 / 100) + l937 x * l22 x * (33 / 100) + l938 x * l22 x * (7 / 20) + (0 - l934 x) * (2 / 25)) * l922 x + (l942 x * l18 x * (33 / 100) + l944 x * l22 x * (33 / 100) + l945 x * l22 x * (7 / 20) + (0 - l941 x) * (2 / 25)) * l930 x

/-- `v_[34]` (HyQForwardKinJacReverse.cpp:947). -/
def l947 (x : Fin 36 → ℝ) : ℝ := l50 x * l49 x

/-- `v_[52]` (HyQForwardKinJacReverse.cpp:948). -/
def l948 (x : Fin 36 → ℝ) : ℝ := 1 - l947 x - l940 x

/-- `v_[33]` (HyQForwardKinJacReverse.cpp:949). -/
def l949 (x : Fin 36 → ℝ) : ℝ := l948 x * l20 x

/-- `v_[514]` (HyQForwardKinJacReverse.cpp:950). -/
def l950 (x : Fin 36 → ℝ) : ℝ := 0 - l948 x

/-- `v_[542]` (HyQForwardKinJacReverse.cpp:951). -/
def l951 (x : Fin 36 → ℝ) : ℝ := l950 x * l24 x

/-- `v_[539]` (HyQForwardKinJacReverse.cpp:952). -/
def l952 (x : Fin 36 → ℝ) : ℝ := 0 - l948 x

/-- `v_[41]` (HyQForwardKinJacReverse.cpp:953). -/
def l953 (x : Fin 36 → ℝ) : ℝ := l932 x + l933 x

/-- `v_[626]` (HyQForwardKinJacReverse.cpp:954). -/
def l954 (x : Fin 36 → ℝ) : ℝ := l953 x * l20 x

/-- `v_[540]` (HyQForwardKinJacReverse.cpp:955). -/
def l955 (x : Fin 36 → ℝ) : ℝ := 0 - l953 x

/-- `v_[486]` (HyQForwardKinJacReverse.cpp:956). -/
def l956 (x : Fin 36 → ℝ) : ℝ := l955 x * l24 x

/-- `v_[538]` (HyQForwardKinJacReverse.cpp:957). -/
def l957 (x : Fin 36 → ℝ) : ℝ := 0 - l953 x

/-- `jac[146]` (HyQForwardKinJacReverse.cpp:958). -/
def l958 (x : Fin 36 → ℝ) : ℝ := 0 - (l949 x * l18 x * (33 / 100) + l951 x * l22 x * (33 / 100) + l952 x * l22 x * (7 / 20) + (0 - l948 x) * (2 / 25)) * l922 x + (l954 x * l18 x * (33 / 100) + l956 x * l22 x * (33 / 100) + l957 x * l22 x * (7 / 20) + (0 - l953 x) * (2 / 25)) * l930 x

/-- `v_[100]` (HyQForwardKinJacReverse.cpp:959). -/
def l959 (x : Fin 36 → ℝ) : ℝ := l139 x * l138 x

/-- `v_[508]` (HyQForwardKinJacReverse.cpp:960). -/
def l960 (x : Fin 36 → ℝ) : ℝ := l164 x * l163 x

/-- `jac[507]` (HyQForwardKinJacReverse.cpp:961). -/
def l961 (x : Fin 36 → ℝ) : ℝ := 1 - l959 x - l960 x

/-- `v_[507]` (HyQForwardKinJacReverse.cpp:962). -/
def l962 (x : Fin 36 → ℝ) : ℝ := l164 x * l174 x

/-- `v_[496]` (HyQForwardKinJacReverse.cpp:963). -/
def l963 (x : Fin 36 → ℝ) : ℝ := l139 x * l175 x

/-- `jac[531]` (HyQForwardKinJacReverse.cpp:964). -/
def l964 (x : Fin 36 → ℝ) : ℝ := l962 x - l963 x

/-- `jac[508]` (HyQForwardKinJacReverse.cpp:965). -/
def l965 (x : Fin 36 → ℝ) : ℝ := l962 x + l963 x

/-- `v_[496]` (HyQForwardKinJacReverse.cpp:966). -/
def l966 (x : Fin 36 → ℝ) : ℝ := 0 - l964 x

/-- `v_[507]` (HyQForwardKinJacReverse.cpp:967). -/
def l967 (x : Fin 36 → ℝ) : ℝ := l961 x * x 19 + l966 x * x 18

/-- `v_[491]` (HyQForwardKinJacReverse.cpp:968). -/
def l968 (x : Fin 36 → ℝ) : ℝ := l967 x * l20 x

/-- `v_[534]` (HyQForwardKinJacReverse.cpp:969). -/
def l969 (x : Fin 36 → ℝ) : ℝ := 0 - l967 x

/-- `v_[533]` (HyQForwardKinJacReverse.cpp:970). -/
def l970 (x : Fin 36 → ℝ) : ℝ := l139 x * l174 x

/-- `v_[124]` (HyQForwardKinJacReverse.cpp:971). -/
def l971 (x : Fin 36 → ℝ) : ℝ := l164 x * l175 x

/-- `jac[555]` (HyQForwardKinJacReverse.cpp:972). -/
def l972 (x : Fin 36 → ℝ) : ℝ := l970 x + l971 x

/-- `jac[435]` (HyQForwardKinJacReverse.cpp:973). -/
def l973 (x : Fin 36 → ℝ) : ℝ := l966 x * l159 x + l972 x * l122 x

/-- `jac[509]` (HyQForwardKinJacReverse.cpp:974). -/
def l974 (x : Fin 36 → ℝ) : ℝ := l970 x - l971 x

/-- `jac[579]` (HyQForwardKinJacReverse.cpp:975). -/
def l975 (x : Fin 36 → ℝ) : ℝ := l972 x * l116 x + l964 x * l155 x

/-- `jac[603]` (HyQForwardKinJacReverse.cpp:976). -/
def l976 (x : Fin 36 → ℝ) : ℝ := l972 x * l110 x + l964 x * l149 x + l961 x * l171 x

/-- `jac[627]` (HyQForwardKinJacReverse.cpp:977). -/
def l977 (x : Fin 36 → ℝ) : ℝ := l972 x * l105 x + l964 x * l144 x + l961 x * l168 x

/-- `v_[124]` (HyQForwardKinJacReverse.cpp:978). -/
def l978 (x : Fin 36 → ℝ) : ℝ := l972 x * x 26

/-- `v_[533]` (HyQForwardKinJacReverse.cpp:979). -/
def l979 (x : Fin 36 → ℝ) : ℝ := l978 x * l24 x

/-- `v_[496]` (HyQForwardKinJacReverse.cpp:980). -/
def l980 (x : Fin 36 → ℝ) : ℝ := l972 x * x 25

/-- `v_[529]` (HyQForwardKinJacReverse.cpp:981). -/
def l981 (x : Fin 36 → ℝ) : ℝ := l980 x * l20 x

/-- `v_[531]` (HyQForwardKinJacReverse.cpp:982). -/
def l982 (x : Fin 36 → ℝ) : ℝ := l978 x * l20 x

/-- `v_[530]` (HyQForwardKinJacReverse.cpp:983). -/
def l983 (x : Fin 36 → ℝ) : ℝ := l980 x * l24 x

/-- `v_[527]` (HyQForwardKinJacReverse.cpp:984). -/
def l984 (x : Fin 36 → ℝ) : ℝ := l964 x * x 24

/-- `v_[523]` (HyQForwardKinJacReverse.cpp:985). -/
def l985 (x : Fin 36 → ℝ) : ℝ := l984 x * l20 x

/-- `v_[522]` (HyQForwardKinJacReverse.cpp:986). -/
def l986 (x : Fin 36 → ℝ) : ℝ := 0 - l967 x

/-- `v_[521]` (HyQForwardKinJacReverse.cpp:987). -/
def l987 (x : Fin 36 → ℝ) : ℝ := 0 - l984 x

/-- `v_[518]` (HyQForwardKinJacReverse.cpp:988). -/
def l988 (x : Fin 36 → ℝ) : ℝ := l986 x * l24 x + l987 x * l24 x

/-- `v_[515]` (HyQForwardKinJacReverse.cpp:989). -/
def l989 (x : Fin 36 → ℝ) : ℝ := 0 - l984 x

/-- `v_[511]` (HyQForwardKinJacReverse.cpp:990). -/
def l990 (x : Fin 36 → ℝ) : ℝ := 0 - l961 x

/-- `jac[483]` (HyQForwardKinJacReverse.cpp:991). -/
def l991 (x : Fin 36 → ℝ) : ℝ := l990 x * l122 x + l964 x * l125 x

/-- `v_[511]` (HyQForwardKinJacReverse.cpp:992). -/
def l992 (x : Fin 36 → ℝ) : ℝ := l990 x * x 20 + l972 x * x 18

/-- `v_[332]` (HyQForwardKinJacReverse.cpp:993). -/
def l993 (x : Fin 36 → ℝ) : ℝ := l992 x * l20 x

/-- `v_[451]` (HyQForwardKinJacReverse.cpp:994). -/
def l994 (x : Fin 36 → ℝ) : ℝ := 0 - l992 x

/-- `v_[479]` (HyQForwardKinJacReverse.cpp:995). -/
def l995 (x : Fin 36 → ℝ) : ℝ := l994 x * l24 x

/-- `v_[476]` (HyQForwardKinJacReverse.cpp:996). -/
def l996 (x : Fin 36 → ℝ) : ℝ := 0 - l992 x

/-- `v_[477]` (HyQForwardKinJacReverse.cpp:997). -/
def l997 (x : Fin 36 → ℝ) : ℝ := l972 x * x 24

/-- `v_[405]` (HyQForwardKinJacReverse.cpp:998). -/
def l998 (x : Fin 36 → ℝ) : ℝ := l997 x * l20 x

/-- `v_[475]` (HyQForwardKinJacReverse.cpp:999). -/
def l999 (x : Fin 36 → ℝ) : ℝ := l997 x * l24 x

/-- `v_[441]` (HyQForwardKinJacReverse.cpp:1000). -/
def l1000 (x : Fin 36 → ℝ) : ℝ := l964 x * x 26

/-- `v_[440]` (HyQForwardKinJacReverse.cpp:1001). -/
def l1001 (x : Fin 36 → ℝ) : ℝ := l1000 x * l24 x

/-- `v_[415]` (HyQForwardKinJacReverse.cpp:1002). -/
def l1002 (x : Fin 36 → ℝ) : ℝ := l964 x * x 25

/-- `v_[410]` (HyQForwardKinJacReverse.cpp:1003). -/
def l1003 (x : Fin 36 → ℝ) : ℝ := l1002 x * l20 x

/-- `v_[471]` (HyQForwardKinJacReverse.cpp:1004). -/
def l1004 (x : Fin 36 → ℝ) : ℝ := l1000 x * l20 x

/-- `v_[470]` (HyQForwardKinJacReverse.cpp:1005). -/
def l1005 (x : Fin 36 → ℝ) : ℝ := l1002 x * l24 x

/-- `jac[147]` (HyQForwardKinJacReverse.cpp:1006). -/
def l1006 (x : Fin 36 → ℝ) : ℝ := 0 - (l968 x * l18 x * (33 / 100) + l969 x * l22 x * (7 / 20) + (0 - l967 x) * (2 / 25) + l979 x * l18 x * (33 / 100) + l981 x * l22 x * (33 / 100) + (l982 x * l22 x + l983 x * l18 x) * (33 / 100) + l980 x * l18 x * (7 / 20) + l985 x * l18 x * (33 / 100) + l988 x * l22 x * (33 / 100) + l989 x * l22 x * (7 / 20) + (0 - l984 x) * (2 / 25)) * l922 x + (l993 x * l18 x * (33 / 100) + l995 x * l22 x * (33 / 100) + l996 x * l22 x * (7 / 20) + (0 - l992 x) * (2 / 25) + l998 x * l18 x *  - (33 / 100) + l999 x * l22 x * (33 / 100) + l997 x * l22 x * (7 / 20) + l997 x * (2 / 25) + l1001 x * l18 x * (33 / 100) + l1003 x * l22 x * (33 / 100) + (l1004 x * l22 x + l1005 x * l18 x) * (33 / 100) + l1002 x * l18 x * (7 / 20)) * l930 x

/-- `v_[134]` (HyQForwardKinJacReverse.cpp:1007). -/
def l1007 (x : Fin 36 → ℝ) : ℝ := l191 x * l174 x

/-- `jac[532]` (HyQForwardKinJacReverse.cpp:1008). -/
def l1008 (x : Fin 36 → ℝ) : ℝ := 1 - l959 x - l1007 x

/-- `jac[557]` (HyQForwardKinJacReverse.cpp:1009). -/
def l1009 (x : Fin 36 → ℝ) : ℝ := 1 - l960 x - l1007 x

/-- `v_[134]` (HyQForwardKinJacReverse.cpp:1010). -/
def l1010 (x : Fin 36 → ℝ) : ℝ := 0 - l1008 x

/-- `v_[508]` (HyQForwardKinJacReverse.cpp:1011). -/
def l1011 (x : Fin 36 → ℝ) : ℝ := l965 x * x 19 + l1010 x * x 18

/-- `v_[100]` (HyQForwardKinJacReverse.cpp:1012). -/
def l1012 (x : Fin 36 → ℝ) : ℝ := l1011 x * l20 x

/-- `v_[466]` (HyQForwardKinJacReverse.cpp:1013). -/
def l1013 (x : Fin 36 → ℝ) : ℝ := 0 - l1011 x

/-- `v_[123]` (HyQForwardKinJacReverse.cpp:1014). -/
def l1014 (x : Fin 36 → ℝ) : ℝ := l139 x * l163 x

/-- `v_[146]` (HyQForwardKinJacReverse.cpp:1015). -/
def l1015 (x : Fin 36 → ℝ) : ℝ := l191 x * l175 x

/-- `jac[556]` (HyQForwardKinJacReverse.cpp:1016). -/
def l1016 (x : Fin 36 → ℝ) : ℝ := l1014 x - l1015 x

/-- `jac[436]` (HyQForwardKinJacReverse.cpp:1017). -/
def l1017 (x : Fin 36 → ℝ) : ℝ := l1010 x * l159 x + l1016 x * l122 x

/-- `jac[533]` (HyQForwardKinJacReverse.cpp:1018). -/
def l1018 (x : Fin 36 → ℝ) : ℝ := l1014 x + l1015 x

/-- `jac[580]` (HyQForwardKinJacReverse.cpp:1019). -/
def l1019 (x : Fin 36 → ℝ) : ℝ := l1016 x * l116 x + l1008 x * l155 x

/-- `jac[581]` (HyQForwardKinJacReverse.cpp:1020). -/
def l1020 (x : Fin 36 → ℝ) : ℝ := l1009 x * l116 x + l1018 x * l155 x

/-- `jac[604]` (HyQForwardKinJacReverse.cpp:1021). -/
def l1021 (x : Fin 36 → ℝ) : ℝ := l1016 x * l110 x + l1008 x * l149 x + l965 x * l171 x

/-- `jac[605]` (HyQForwardKinJacReverse.cpp:1022). -/
def l1022 (x : Fin 36 → ℝ) : ℝ := l1009 x * l110 x + l1018 x * l149 x + l974 x * l171 x

/-- `jac[628]` (HyQForwardKinJacReverse.cpp:1023). -/
def l1023 (x : Fin 36 → ℝ) : ℝ := l1016 x * l105 x + l1008 x * l144 x + l965 x * l168 x

/-- `jac[629]` (HyQForwardKinJacReverse.cpp:1024). -/
def l1024 (x : Fin 36 → ℝ) : ℝ := l1009 x * l105 x + l1018 x * l144 x + l974 x * l168 x

/-- `v_[128]` (HyQForwardKinJacReverse.cpp:1025). -/
def l1025 (x : Fin 36 → ℝ) : ℝ := l1016 x * x 26

/-- `v_[106]` (HyQForwardKinJacReverse.cpp:1026). -/
def l1026 (x : Fin 36 → ℝ) : ℝ := l1025 x * l24 x

/-- `v_[17]` (HyQForwardKinJacReverse.cpp:1027). -/
def l1027 (x : Fin 36 → ℝ) : ℝ := l1016 x * x 25

/-- `v_[131]` (HyQForwardKinJacReverse.cpp:1028). -/
def l1028 (x : Fin 36 → ℝ) : ℝ := l1027 x * l20 x

/-- `v_[110]` (HyQForwardKinJacReverse.cpp:1029). -/
def l1029 (x : Fin 36 → ℝ) : ℝ := l1025 x * l20 x

/-- `v_[72]` (HyQForwardKinJacReverse.cpp:1030). -/
def l1030 (x : Fin 36 → ℝ) : ℝ := l1027 x * l24 x

/-- `v_[116]` (HyQForwardKinJacReverse.cpp:1031). -/
def l1031 (x : Fin 36 → ℝ) : ℝ := l1008 x * x 24

/-- `v_[78]` (HyQForwardKinJacReverse.cpp:1032). -/
def l1032 (x : Fin 36 → ℝ) : ℝ := l1031 x * l20 x

/-- `v_[146]` (HyQForwardKinJacReverse.cpp:1033). -/
def l1033 (x : Fin 36 → ℝ) : ℝ := 0 - l1011 x

/-- `v_[123]` (HyQForwardKinJacReverse.cpp:1034). -/
def l1034 (x : Fin 36 → ℝ) : ℝ := 0 - l1031 x

/-- `v_[134]` (HyQForwardKinJacReverse.cpp:1035). -/
def l1035 (x : Fin 36 → ℝ) : ℝ := l1033 x * l24 x + l1034 x * l24 x

/-- `v_[135]` (HyQForwardKinJacReverse.cpp:1036). -/
def l1036 (x : Fin 36 → ℝ) : ℝ := 0 - l1031 x

/-- `v_[101]` (HyQForwardKinJacReverse.cpp:1037). -/
def l1037 (x : Fin 36 → ℝ) : ℝ := 0 - l965 x

/-- `jac[484]` (HyQForwardKinJacReverse.cpp:1038). -/
def l1038 (x : Fin 36 → ℝ) : ℝ := l1037 x * l122 x + l1008 x * l125 x

/-- `v_[101]` (HyQForwardKinJacReverse.cpp:1039). -/
def l1039 (x : Fin 36 → ℝ) : ℝ := l1037 x * x 20 + l1016 x * x 18

/-- `v_[468]` (HyQForwardKinJacReverse.cpp:1040). -/
def l1040 (x : Fin 36 → ℝ) : ℝ := l1039 x * l20 x

/-- `v_[467]` (HyQForwardKinJacReverse.cpp:1041). -/
def l1041 (x : Fin 36 → ℝ) : ℝ := 0 - l1039 x

/-- `v_[464]` (HyQForwardKinJacReverse.cpp:1042). -/
def l1042 (x : Fin 36 → ℝ) : ℝ := l1041 x * l24 x

/-- `v_[460]` (HyQForwardKinJacReverse.cpp:1043). -/
def l1043 (x : Fin 36 → ℝ) : ℝ := 0 - l1039 x

/-- `v_[459]` (HyQForwardKinJacReverse.cpp:1044). -/
def l1044 (x : Fin 36 → ℝ) : ℝ := l1016 x * x 24

/-- `v_[458]` (HyQForwardKinJacReverse.cpp:1045). -/
def l1045 (x : Fin 36 → ℝ) : ℝ := l1044 x * l20 x

/-- `v_[455]` (HyQForwardKinJacReverse.cpp:1046). -/
def l1046 (x : Fin 36 → ℝ) : ℝ := l1044 x * l24 x

/-- `v_[452]` (HyQForwardKinJacReverse.cpp:1047). -/
def l1047 (x : Fin 36 → ℝ) : ℝ := l1008 x * x 26

/-- `v_[444]` (HyQForwardKinJacReverse.cpp:1048). -/
def l1048 (x : Fin 36 → ℝ) : ℝ := l1047 x * l24 x

/-- `v_[251]` (HyQForwardKinJacReverse.cpp:1049). -/
def l1049 (x : Fin 36 → ℝ) : ℝ := l1008 x * x 25

/-- `v_[354]` (HyQForwardKinJacReverse.cpp:1050). -/
def l1050 (x : Fin 36 → ℝ) : ℝ := l1049 x * l20 x

/-- `v_[382]` (HyQForwardKinJacReverse.cpp:1051). -/
def l1051 (x : Fin 36 → ℝ) : ℝ := l1047 x * l20 x

/-- `v_[379]` (HyQForwardKinJacReverse.cpp:1052). -/
def l1052 (x : Fin 36 → ℝ) : ℝ := l1049 x * l24 x

/-- `jac[148]` (HyQForwardKinJacReverse.cpp:1053). -/
def l1053 (x : Fin 36 → ℝ) : ℝ := 0 - (l1012 x * l18 x * (33 / 100) + l1013 x * l22 x * (7 / 20) + (0 - l1011 x) * (2 / 25) + l1026 x * l18 x * (33 / 100) + l1028 x * l22 x * (33 / 100) + (l1029 x * l22 x + l1030 x * l18 x) * (33 / 100) + l1027 x * l18 x * (7 / 20) + l1032 x * l18 x * (33 / 100) + l1035 x * l22 x * (33 / 100) + l1036 x * l22 x * (7 / 20) + (0 - l1031 x) * (2 / 25)) * l922 x + (l1040 x * l18 x * (33 / 100) + l1042 x * l22 x * (33 / 100) + l1043 x * l22 x * (7 / 20) + (0 - l1039 x) * (2 / 25) + l1045 x * l18 x *  - (33 / 100) + l1046 x * l22 x * (33 / 100) + l1044 x * l22 x * (7 / 20) + l1044 x * (2 / 25) + l1048 x * l18 x * (33 / 100) + l1050 x * l22 x * (33 / 100) + (l1051 x * l22 x + l1052 x * l18 x) * (33 / 100) + l1049 x * l18 x * (7 / 20)) * l930 x

/-- `v_[380]` (HyQForwardKinJacReverse.cpp:1054). -/
def l1054 (x : Fin 36 → ℝ) : ℝ := 0 - l1018 x

/-- `v_[326]` (HyQForwardKinJacReverse.cpp:1055). -/
def l1055 (x : Fin 36 → ℝ) : ℝ := l974 x * x 19 + l1054 x * x 18

/-- `v_[378]` (HyQForwardKinJacReverse.cpp:1056). -/
def l1056 (x : Fin 36 → ℝ) : ℝ := l1055 x * l20 x

/-- `v_[348]` (HyQForwardKinJacReverse.cpp:1057). -/
def l1057 (x : Fin 36 → ℝ) : ℝ := 0 - l1055 x

/-- `jac[437]` (HyQForwardKinJacReverse.cpp:1058). -/
def l1058 (x : Fin 36 → ℝ) : ℝ := l1054 x * l159 x + l1009 x * l122 x

/-- `v_[380]` (HyQForwardKinJacReverse.cpp:1059). -/
def l1059 (x : Fin 36 → ℝ) : ℝ := l1009 x * x 26

/-- `v_[347]` (HyQForwardKinJacReverse.cpp:1060). -/
def l1060 (x : Fin 36 → ℝ) : ℝ := l1059 x * l24 x

/-- `v_[336]` (HyQForwardKinJacReverse.cpp:1061). -/
def l1061 (x : Fin 36 → ℝ) : ℝ := l1009 x * x 25

/-- `v_[331]` (HyQForwardKinJacReverse.cpp:1062). -/
def l1062 (x : Fin 36 → ℝ) : ℝ := l1061 x * l20 x

/-- `v_[374]` (HyQForwardKinJacReverse.cpp:1063). -/
def l1063 (x : Fin 36 → ℝ) : ℝ := l1059 x * l20 x

/-- `v_[373]` (HyQForwardKinJacReverse.cpp:1064). -/
def l1064 (x : Fin 36 → ℝ) : ℝ := l1061 x * l24 x

/-- `v_[369]` (HyQForwardKinJacReverse.cpp:1065). -/
def l1065 (x : Fin 36 → ℝ) : ℝ := l1018 x * x 24

/-- `v_[371]` (HyQForwardKinJacReverse.cpp:1066). -/
def l1066 (x : Fin 36 → ℝ) : ℝ := l1065 x * l20 x

/-- `v_[370]` (HyQForwardKinJacReverse.cpp:1067). -/
def l1067 (x : Fin 36 → ℝ) : ℝ := 0 - l1055 x

/-- `v_[367]` (HyQForwardKinJacReverse.cpp:1068). -/
def l1068 (x : Fin 36 → ℝ) : ℝ := 0 - l1065 x

/-- `v_[363]` (HyQForwardKinJacReverse.cpp:1069). -/
def l1069 (x : Fin 36 → ℝ) : ℝ := l1067 x * l24 x + l1068 x * l24 x

/-- `v_[362]` (HyQForwardKinJacReverse.cpp:1070). -/
def l1070 (x : Fin 36 → ℝ) : ℝ := 0 - l1065 x

/-- `v_[361]` (HyQForwardKinJacReverse.cpp:1071). -/
def l1071 (x : Fin 36 → ℝ) : ℝ := 0 - l974 x

/-- `jac[485]` (HyQForwardKinJacReverse.cpp:1072). -/
def l1072 (x : Fin 36 → ℝ) : ℝ := l1071 x * l122 x + l1018 x * l125 x

/-- `v_[361]` (HyQForwardKinJacReverse.cpp:1073). -/
def l1073 (x : Fin 36 → ℝ) : ℝ := l1071 x * x 20 + l1009 x * x 18

/-- `v_[84]` (HyQForwardKinJacReverse.cpp:1074). -/
def l1074 (x : Fin 36 → ℝ) : ℝ := l1073 x * l20 x

/-- `v_[358]` (HyQForwardKinJacReverse.cpp:1075). -/
def l1075 (x : Fin 36 → ℝ) : ℝ := 0 - l1073 x

/-- `v_[355]` (HyQForwardKinJacReverse.cpp:1076). -/
def l1076 (x : Fin 36 → ℝ) : ℝ := l1075 x * l24 x

/-- `v_[351]` (HyQForwardKinJacReverse.cpp:1077). -/
def l1077 (x : Fin 36 → ℝ) : ℝ := 0 - l1073 x

/-- `v_[173]` (HyQForwardKinJacReverse.cpp:1078). -/
def l1078 (x : Fin 36 → ℝ) : ℝ := l1009 x * x 24

/-- `v_[291]` (HyQForwardKinJacReverse.cpp:1079). -/
def l1079 (x : Fin 36 → ℝ) : ℝ := l1078 x * l20 x

/-- `v_[319]` (HyQForwardKinJacReverse.cpp:1080). -/
def l1080 (x : Fin 36 → ℝ) : ℝ := l1078 x * l24 x

/-- `v_[316]` (HyQForwardKinJacReverse.cpp:1081). -/
def l1081 (x : Fin 36 → ℝ) : ℝ := l1018 x * x 26

/-- `v_[317]` (HyQForwardKinJacReverse.cpp:1082). -/
def l1082 (x : Fin 36 → ℝ) : ℝ := l1081 x * l24 x

/-- `v_[245]` (HyQForwardKinJacReverse.cpp:1083). -/
def l1083 (x : Fin 36 → ℝ) : ℝ := l1018 x * x 25

/-- `v_[315]` (HyQForwardKinJacReverse.cpp:1084). -/
def l1084 (x : Fin 36 → ℝ) : ℝ := l1083 x * l20 x

/-- `v_[281]` (HyQForwardKinJacReverse.cpp:1085). -/
def l1085 (x : Fin 36 → ℝ) : ℝ := l1081 x * l20 x

/-- `v_[280]` (HyQForwardKinJacReverse.cpp:1086). -/
def l1086 (x : Fin 36 → ℝ) : ℝ := l1083 x * l24 x

/-- `jac[149]` (HyQForwardKinJacReverse.cpp:1087). -/
def l1087 (x : Fin 36 → ℝ) : ℝ := 0 - (l1056 x * l18 x * (33 / 100) + l1057 x * l22 x * (7 / 20) + (0 - l1055 x) * (2 / 25) + l1060 x * l18 x * (33 / 100) + l1062 x * l22 x * (33 / 100) + (l1063 x * l22 x + l1064 x * l18 x) * (33 / 100) + l1061 x * l18 x * (7 / 20) + l1066 x * l18 x * (33 / 100) + l1069 x * l22 x * (33 / 100) + l1070 x * l22 x * (7 / 20) + (0 - l1065 x) * (2 / 25)) * l922 x + (l1074 x * l18 x * (33 / 100) + l1076 x * l22 x * (33 / 100) + l1077 x * l22 x * (7 / 20) + (0 - l1073 x) * (2 / 25) + l1079 x * l18 x *  - (33 / 100) + l1080 x * l22 x * (33 / 100) + l1078 x * l22 x * (7 / 20) + l1078 x * (2 / 25) + l1082 x * l18 x * (33 / 100) + l1084 x * l22 x * (33 / 100) + (l1085 x * l22 x + l1086 x * l18 x) * (33 / 100) + l1083 x * l18 x * (7 / 20)) * l930 x

/-- `v_[34]` (HyQForwardKinJacReverse.cpp:1088). -/
def l1088 (x : Fin 36 → ℝ) : ℝ := 1 - l939 x - l947 x

/-- `v_[23]` (HyQForwardKinJacReverse.cpp:1089). -/
def l1089 (x : Fin 36 → ℝ) : ℝ := Real.sin (x 7)

/-- `v_[627]` (HyQForwardKinJacReverse.cpp:1090). -/
def l1090 (x : Fin 36 → ℝ) : ℝ := 0 - l1088 x

/-- `v_[634]` (HyQForwardKinJacReverse.cpp:1091). -/
def l1091 (x : Fin 36 → ℝ) : ℝ := Real.cos (x 7)

/-- `jac[168]` (HyQForwardKinJacReverse.cpp:1092). -/
def l1092 (x : Fin 36 → ℝ) : ℝ := 0 - (l920 x * l21 x + l921 x * l25 x + l928 x * l43 x + l929 x * l45 x + l1088 x * l20 x *  - (33 / 100)) * l1089 x + (l918 x * l17 x + l926 x * l41 x + l1090 x * l24 x * (33 / 100) + (0 - l1088 x) * (7 / 20)) * l1091 x

/-- `v_[599]` (HyQForwardKinJacReverse.cpp:1093). -/
def l1093 (x : Fin 36 → ℝ) : ℝ := l923 x + l924 x

/-- `v_[600]` (HyQForwardKinJacReverse.cpp:1094). -/
def l1094 (x : Fin 36 → ℝ) : ℝ := 0 - l1093 x

/-- `jac[169]` (HyQForwardKinJacReverse.cpp:1095). -/
def l1095 (x : Fin 36 → ℝ) : ℝ := 0 - (l937 x * l21 x + l938 x * l25 x + l944 x * l43 x + l945 x * l45 x + l1093 x * l20 x *  - (33 / 100)) * l1089 x + (l935 x * l17 x + l942 x * l41 x + l1094 x * l24 x * (33 / 100) + (0 - l1093 x) * (7 / 20)) * l1091 x

/-- `v_[492]` (HyQForwardKinJacReverse.cpp:1096). -/
def l1096 (x : Fin 36 → ℝ) : ℝ := l915 x - l916 x

/-- `v_[570]` (HyQForwardKinJacReverse.cpp:1097). -/
def l1097 (x : Fin 36 → ℝ) : ℝ := 0 - l1096 x

/-- `jac[170]` (HyQForwardKinJacReverse.cpp:1098). -/
def l1098 (x : Fin 36 → ℝ) : ℝ := 0 - (l951 x * l21 x + l952 x * l25 x + l956 x * l43 x + l957 x * l45 x + l1096 x * l20 x *  - (33 / 100)) * l1089 x + (l949 x * l17 x + l954 x * l41 x + l1097 x * l24 x * (33 / 100) + (0 - l1096 x) * (7 / 20)) * l1091 x

/-- `v_[538]` (HyQForwardKinJacReverse.cpp:1099). -/
def l1099 (x : Fin 36 → ℝ) : ℝ := 0 - l972 x

/-- `jac[459]` (HyQForwardKinJacReverse.cpp:1100). -/
def l1100 (x : Fin 36 → ℝ) : ℝ := l961 x * l159 x + l1099 x * l125 x

/-- `v_[538]` (HyQForwardKinJacReverse.cpp:1101). -/
def l1101 (x : Fin 36 → ℝ) : ℝ := l964 x * x 20 + l1099 x * x 19

/-- `v_[486]` (HyQForwardKinJacReverse.cpp:1102). -/
def l1102 (x : Fin 36 → ℝ) : ℝ := l961 x * x 26

/-- `v_[626]` (HyQForwardKinJacReverse.cpp:1103). -/
def l1103 (x : Fin 36 → ℝ) : ℝ := 0 - l1102 x

/-- `v_[539]` (HyQForwardKinJacReverse.cpp:1104). -/
def l1104 (x : Fin 36 → ℝ) : ℝ := l961 x * x 25

/-- `v_[542]` (HyQForwardKinJacReverse.cpp:1105). -/
def l1105 (x : Fin 36 → ℝ) : ℝ := 0 - l1104 x

/-- `v_[33]` (HyQForwardKinJacReverse.cpp:1106). -/
def l1106 (x : Fin 36 → ℝ) : ℝ := 0 - l1101 x

/-- `jac[171]` (HyQForwardKinJacReverse.cpp:1107). -/
def l1107 (x : Fin 36 → ℝ) : ℝ := 0 - (l969 x * l158 x + l995 x * l119 x + l996 x * l121 x + l1101 x * l20 x *  - (33 / 100) + l982 x * l101 x + l981 x * l107 x + l999 x * l111 x + l997 x * l115 x + l1004 x * l140 x + l1003 x * l146 x + l988 x * l152 x + l989 x * l154 x + l1103 x * l24 x * (33 / 100) + l1105 x * l24 x * (33 / 100) + (0 - l1104 x) * (7 / 20)) * l1089 x + (l968 x * l156 x + l993 x * l117 x + l1106 x * l24 x * (33 / 100) + (0 - l1101 x) * (7 / 20) + l979 x * l103 x + l983 x * l101 x + l980 x * l109 x + l998 x * l113 x + l1001 x * l142 x + l1005 x * l140 x + l1002 x * l148 x + l985 x * l150 x + l1102 x * l20 x * (33 / 100) + l1104 x * l20 x * (33 / 100)) * l1091 x

/-- `v_[470]` (HyQForwardKinJacReverse.cpp:1108). -/
def l1108 (x : Fin 36 → ℝ) : ℝ := 0 - l1016 x

/-- `jac[460]` (HyQForwardKinJacReverse.cpp:1109). -/
def l1109 (x : Fin 36 → ℝ) : ℝ := l965 x * l159 x + l1108 x * l125 x

/-- `v_[470]` (HyQForwardKinJacReverse.cpp:1110). -/
def l1110 (x : Fin 36 → ℝ) : ℝ := l1008 x * x 20 + l1108 x * x 19

/-- `v_[471]` (HyQForwardKinJacReverse.cpp:1111). -/
def l1111 (x : Fin 36 → ℝ) : ℝ := l965 x * x 26

/-- `v_[410]` (HyQForwardKinJacReverse.cpp:1112). -/
def l1112 (x : Fin 36 → ℝ) : ℝ := 0 - l1111 x

/-- `v_[440]` (HyQForwardKinJacReverse.cpp:1113). -/
def l1113 (x : Fin 36 → ℝ) : ℝ := l965 x * x 25

/-- `v_[475]` (HyQForwardKinJacReverse.cpp:1114). -/
def l1114 (x : Fin 36 → ℝ) : ℝ := 0 - l1113 x

/-- `v_[405]` (HyQForwardKinJacReverse.cpp:1115). -/
def l1115 (x : Fin 36 → ℝ) : ℝ := 0 - l1110 x

/-- `jac[172]` (HyQForwardKinJacReverse.cpp:1116). -/
def l1116 (x : Fin 36 → ℝ) : ℝ := 0 - (l1013 x * l158 x + l1042 x * l119 x + l1043 x * l121 x + l1110 x * l20 x *  - (33 / 100) + l1029 x * l101 x + l1028 x * l107 x + l1046 x * l111 x + l1044 x * l115 x + l1051 x * l140 x + l1050 x * l146 x + l1035 x * l152 x + l1036 x * l154 x + l1112 x * l24 x * (33 / 100) + l1114 x * l24 x * (33 / 100) + (0 - l1113 x) * (7 / 20)) * l1089 x + (l1012 x * l156 x + l1040 x * l117 x + l1115 x * l24 x * (33 / 100) + (0 - l1110 x) * (7 / 20) + l1026 x * l103 x + l1030 x * l101 x + l1027 x * l109 x + l1045 x * l113 x + l1048 x * l142 x + l1052 x * l140 x + l1049 x * l148 x + l1032 x * l150 x + l1111 x * l20 x * (33 / 100) + l1113 x * l20 x * (33 / 100)) * l1091 x

/-- `v_[379]` (HyQForwardKinJacReverse.cpp:1117). -/
def l1117 (x : Fin 36 → ℝ) : ℝ := 0 - l1009 x

/-- `jac[461]` (HyQForwardKinJacReverse.cpp:1118). -/
def l1118 (x : Fin 36 → ℝ) : ℝ := l974 x * l159 x + l1117 x * l125 x

/-- `v_[379]` (HyQForwardKinJacReverse.cpp:1119). -/
def l1119 (x : Fin 36 → ℝ) : ℝ := l1018 x * x 20 + l1117 x * x 19

/-- `v_[0]` (HyQForwardKinJacReverse.cpp:1120). -/
def l1120 (x : Fin 36 → ℝ) : ℝ := l974 x * x 26

/-- `v_[87]` (HyQForwardKinJacReverse.cpp:1121). -/
def l1121 (x : Fin 36 → ℝ) : ℝ := 0 - l1120 x

/-- `v_[382]` (HyQForwardKinJacReverse.cpp:1122). -/
def l1122 (x : Fin 36 → ℝ) : ℝ := l974 x * x 25

/-- `v_[354]` (HyQForwardKinJacReverse.cpp:1123). -/
def l1123 (x : Fin 36 → ℝ) : ℝ := 0 - l1122 x

/-- `v_[444]` (HyQForwardKinJacReverse.cpp:1124). -/
def l1124 (x : Fin 36 → ℝ) : ℝ := 0 - l1119 x

/-- `jac[173]` (HyQForwardKinJacReverse.cpp:1125). -/
def l1125 (x : Fin 36 → ℝ) : ℝ := 0 - (l1057 x * l158 x + l1076 x * l119 x + l1077 x * l121 x + l1119 x * l20 x *  - (33 / 100) + l1063 x * l101 x + l1062 x * l107 x + l1080 x * l111 x + l1078 x * l115 x + l1085 x * l140 x + l1084 x * l146 x + l1069 x * l152 x + l1070 x * l154 x + l1121 x * l24 x * (33 / 100) + l1123 x * l24 x * (33 / 100) + (0 - l1122 x) * (7 / 20)) * l1089 x + (l1056 x * l156 x + l1074 x * l117 x + l1124 x * l24 x * (33 / 100) + (0 - l1119 x) * (7 / 20) + l1060 x * l103 x + l1064 x * l101 x + l1061 x * l109 x + l1079 x * l113 x + l1082 x * l142 x + l1086 x * l140 x + l1083 x * l148 x + l1066 x * l150 x + l1120 x * l20 x * (33 / 100) + l1122 x * l20 x * (33 / 100)) * l1091 x

/-- `v_[634]` (HyQForwardKinJacReverse.cpp:1126). -/
def l1126 (x : Fin 36 → ℝ) : ℝ := Real.sin (x 8)

/-- `v_[23]` (HyQForwardKinJacReverse.cpp:1127). -/
def l1127 (x : Fin 36 → ℝ) : ℝ := Real.cos (x 8)

/-- `jac[192]` (HyQForwardKinJacReverse.cpp:1128). -/
def l1128 (x : Fin 36 → ℝ) : ℝ := 0 - (l919 x * l23 x + l927 x * l44 x + l1090 x * l53 x) * l1126 x + (l917 x * l19 x + l925 x * l42 x + l1088 x * l52 x) * l1127 x

/-- `jac[193]` (HyQForwardKinJacReverse.cpp:1129). -/
def l1129 (x : Fin 36 → ℝ) : ℝ := 0 - (l936 x * l23 x + l943 x * l44 x + l1094 x * l53 x) * l1126 x + (l934 x * l19 x + l941 x * l42 x + l1093 x * l52 x) * l1127 x

/-- `jac[194]` (HyQForwardKinJacReverse.cpp:1130). -/
def l1130 (x : Fin 36 → ℝ) : ℝ := 0 - (l950 x * l23 x + l955 x * l44 x + l1097 x * l53 x) * l1126 x + (l948 x * l19 x + l953 x * l42 x + l1096 x * l52 x) * l1127 x

/-- `jac[195]` (HyQForwardKinJacReverse.cpp:1131). -/
def l1131 (x : Fin 36 → ℝ) : ℝ := 0 - (l986 x * l153 x + l994 x * l120 x + l1106 x * l124 x + l978 x * l104 x + l980 x * l106 x + l997 x * l112 x + l1000 x * l143 x + l1002 x * l145 x + l987 x * l153 x + l1103 x * l167 x + l1105 x * l170 x) * l1126 x + (l967 x * l157 x + l992 x * l118 x + l1101 x * l123 x + l978 x * l102 x + l980 x * l108 x + l997 x * l114 x + l1000 x * l141 x + l1002 x * l147 x + l984 x * l151 x + l1102 x * l166 x + l1104 x * l169 x) * l1127 x

/-- `jac[196]` (HyQForwardKinJacReverse.cpp:1132). -/
def l1132 (x : Fin 36 → ℝ) : ℝ := 0 - (l1033 x * l153 x + l1041 x * l120 x + l1115 x * l124 x + l1025 x * l104 x + l1027 x * l106 x + l1044 x * l112 x + l1047 x * l143 x + l1049 x * l145 x + l1034 x * l153 x + l1112 x * l167 x + l1114 x * l170 x) * l1126 x + (l1011 x * l157 x + l1039 x * l118 x + l1110 x * l123 x + l1025 x * l102 x + l1027 x * l108 x + l1044 x * l114 x + l1047 x * l141 x + l1049 x * l147 x + l1031 x * l151 x + l1111 x * l166 x + l1113 x * l169 x) * l1127 x

/-- `jac[197]` (HyQForwardKinJacReverse.cpp:1133). -/
def l1133 (x : Fin 36 → ℝ) : ℝ := 0 - (l1067 x * l153 x + l1075 x * l120 x + l1124 x * l124 x + l1059 x * l104 x + l1061 x * l106 x + l1078 x * l112 x + l1081 x * l143 x + l1083 x * l145 x + l1068 x * l153 x + l1121 x * l167 x + l1123 x * l170 x) * l1126 x + (l1055 x * l157 x + l1073 x * l118 x + l1119 x * l123 x + l1059 x * l102 x + l1061 x * l108 x + l1078 x * l114 x + l1081 x * l141 x + l1083 x * l147 x + l1065 x * l151 x + l1120 x * l166 x + l1122 x * l169 x) * l1127 x

/-- `v_[23]` (HyQForwardKinJacReverse.cpp:1134). -/
def l1134 (x : Fin 36 → ℝ) : ℝ := l242 x * l259 x

/-- `v_[634]` (HyQForwardKinJacReverse.cpp:1135). -/
def l1135 (x : Fin 36 → ℝ) : ℝ := l253 x * l260 x

/-- `v_[444]` (HyQForwardKinJacReverse.cpp:1136). -/
def l1136 (x : Fin 36 → ℝ) : ℝ := l1134 x + l1135 x

/-- `v_[354]` (HyQForwardKinJacReverse.cpp:1137). -/
def l1137 (x : Fin 36 → ℝ) : ℝ := l1136 x * l223 x

/-- `v_[382]` (HyQForwardKinJacReverse.cpp:1138). -/
def l1138 (x : Fin 36 → ℝ) : ℝ := 0 - l1136 x

/-- `v_[87]` (HyQForwardKinJacReverse.cpp:1139). -/
def l1139 (x : Fin 36 → ℝ) : ℝ := l1138 x * l227 x

/-- `v_[0]` (HyQForwardKinJacReverse.cpp:1140). -/
def l1140 (x : Fin 36 → ℝ) : ℝ := 0 - l1136 x

/-- `v_[379]` (HyQForwardKinJacReverse.cpp:1141). -/
def l1141 (x : Fin 36 → ℝ) : ℝ := Real.sin (x 9)

/-- `v_[245]` (HyQForwardKinJacReverse.cpp:1142). -/
def l1142 (x : Fin 36 → ℝ) : ℝ := l253 x * l259 x

/-- `v_[316]` (HyQForwardKinJacReverse.cpp:1143). -/
def l1143 (x : Fin 36 → ℝ) : ℝ := l242 x * l260 x

/-- `v_[173]` (HyQForwardKinJacReverse.cpp:1144). -/
def l1144 (x : Fin 36 → ℝ) : ℝ := l1142 x - l1143 x

/-- `v_[358]` (HyQForwardKinJacReverse.cpp:1145). -/
def l1145 (x : Fin 36 → ℝ) : ℝ := l1144 x * l223 x

/-- `v_[361]` (HyQForwardKinJacReverse.cpp:1146). -/
def l1146 (x : Fin 36 → ℝ) : ℝ := l1144 x * l227 x

/-- `v_[367]` (HyQForwardKinJacReverse.cpp:1147). -/
def l1147 (x : Fin 36 → ℝ) : ℝ := Real.cos (x 9)

/-- `jac[222]` (HyQForwardKinJacReverse.cpp:1148). -/
def l1148 (x : Fin 36 → ℝ) : ℝ := 0 - (l1137 x * l221 x * (33 / 100) + l1139 x * l225 x * (33 / 100) + l1140 x * l225 x * (7 / 20) + (0 - l1136 x) * (2 / 25)) * l1141 x + (l1145 x * l221 x *  - (33 / 100) + l1146 x * l225 x * (33 / 100) + l1144 x * l225 x * (7 / 20) + l1144 x * (2 / 25)) * l1147 x

/-- `v_[370]` (HyQForwardKinJacReverse.cpp:1149). -/
def l1149 (x : Fin 36 → ℝ) : ℝ := l242 x * l252 x

/-- `v_[198]` (HyQForwardKinJacReverse.cpp:1150). -/
def l1150 (x : Fin 36 → ℝ) : ℝ := l276 x * l260 x

/-- `v_[369]` (HyQForwardKinJacReverse.cpp:1151). -/
def l1151 (x : Fin 36 → ℝ) : ℝ := l1149 x - l1150 x

/-- `v_[336]` (HyQForwardKinJacReverse.cpp:1152). -/
def l1152 (x : Fin 36 → ℝ) : ℝ := l1151 x * l223 x

/-- `v_[380]` (HyQForwardKinJacReverse.cpp:1153). -/
def l1153 (x : Fin 36 → ℝ) : ℝ := 0 - l1151 x

/-- `v_[326]` (HyQForwardKinJacReverse.cpp:1154). -/
def l1154 (x : Fin 36 → ℝ) : ℝ := l1153 x * l227 x

/-- `v_[130]` (HyQForwardKinJacReverse.cpp:1155). -/
def l1155 (x : Fin 36 → ℝ) : ℝ := 0 - l1151 x

/-- `v_[180]` (HyQForwardKinJacReverse.cpp:1156). -/
def l1156 (x : Fin 36 → ℝ) : ℝ := l242 x * l241 x

/-- `v_[209]` (HyQForwardKinJacReverse.cpp:1157). -/
def l1157 (x : Fin 36 → ℝ) : ℝ := l276 x * l259 x

/-- `v_[197]` (HyQForwardKinJacReverse.cpp:1158). -/
def l1158 (x : Fin 36 → ℝ) : ℝ := 1 - l1156 x - l1157 x

/-- `v_[179]` (HyQForwardKinJacReverse.cpp:1159). -/
def l1159 (x : Fin 36 → ℝ) : ℝ := l1158 x * l223 x

/-- `v_[129]` (HyQForwardKinJacReverse.cpp:1160). -/
def l1160 (x : Fin 36 → ℝ) : ℝ := l1158 x * l227 x

/-- `jac[223]` (HyQForwardKinJacReverse.cpp:1161). -/
def l1161 (x : Fin 36 → ℝ) : ℝ := 0 - (l1152 x * l221 x * (33 / 100) + l1154 x * l225 x * (33 / 100) + l1155 x * l225 x * (7 / 20) + (0 - l1151 x) * (2 / 25)) * l1141 x + (l1159 x * l221 x *  - (33 / 100) + l1160 x * l225 x * (33 / 100) + l1158 x * l225 x * (7 / 20) + l1158 x * (2 / 25)) * l1147 x

/-- `v_[191]` (HyQForwardKinJacReverse.cpp:1162). -/
def l1162 (x : Fin 36 → ℝ) : ℝ := l253 x * l252 x

/-- `v_[209]` (HyQForwardKinJacReverse.cpp:1163). -/
def l1163 (x : Fin 36 → ℝ) : ℝ := 1 - l1162 x - l1157 x

/-- `v_[190]` (HyQForwardKinJacReverse.cpp:1164). -/
def l1164 (x : Fin 36 → ℝ) : ℝ := l1163 x * l223 x

/-- `v_[127]` (HyQForwardKinJacReverse.cpp:1165). -/
def l1165 (x : Fin 36 → ℝ) : ℝ := 0 - l1163 x

/-- `v_[126]` (HyQForwardKinJacReverse.cpp:1166). -/
def l1166 (x : Fin 36 → ℝ) : ℝ := l1165 x * l227 x

/-- `v_[118]` (HyQForwardKinJacReverse.cpp:1167). -/
def l1167 (x : Fin 36 → ℝ) : ℝ := 0 - l1163 x

/-- `v_[198]` (HyQForwardKinJacReverse.cpp:1168). -/
def l1168 (x : Fin 36 → ℝ) : ℝ := l1149 x + l1150 x

/-- `v_[370]` (HyQForwardKinJacReverse.cpp:1169). -/
def l1169 (x : Fin 36 → ℝ) : ℝ := l1168 x * l223 x

/-- `v_[114]` (HyQForwardKinJacReverse.cpp:1170). -/
def l1170 (x : Fin 36 → ℝ) : ℝ := l1168 x * l227 x

/-- `jac[224]` (HyQForwardKinJacReverse.cpp:1171). -/
def l1171 (x : Fin 36 → ℝ) : ℝ := 0 - (l1164 x * l221 x * (33 / 100) + l1166 x * l225 x * (33 / 100) + l1167 x * l225 x * (7 / 20) + (0 - l1163 x) * (2 / 25)) * l1141 x + (l1169 x * l221 x *  - (33 / 100) + l1170 x * l225 x * (33 / 100) + l1168 x * l225 x * (7 / 20) + l1168 x * (2 / 25)) * l1147 x

/-- `v_[257]` (HyQForwardKinJacReverse.cpp:1172). -/
def l1172 (x : Fin 36 → ℝ) : ℝ := l342 x * l341 x

/-- `v_[112]` (HyQForwardKinJacReverse.cpp:1173). -/
def l1173 (x : Fin 36 → ℝ) : ℝ := l369 x * l368 x

/-- `jac[513]` (HyQForwardKinJacReverse.cpp:1174). -/
def l1174 (x : Fin 36 → ℝ) : ℝ := 1 - l1172 x - l1173 x

/-- `v_[109]` (HyQForwardKinJacReverse.cpp:1175). -/
def l1175 (x : Fin 36 → ℝ) : ℝ := l369 x * l379 x

/-- `v_[107]` (HyQForwardKinJacReverse.cpp:1176). -/
def l1176 (x : Fin 36 → ℝ) : ℝ := l342 x * l380 x

/-- `jac[537]` (HyQForwardKinJacReverse.cpp:1177). -/
def l1177 (x : Fin 36 → ℝ) : ℝ := l1175 x - l1176 x

/-- `jac[514]` (HyQForwardKinJacReverse.cpp:1178). -/
def l1178 (x : Fin 36 → ℝ) : ℝ := l1175 x + l1176 x

/-- `v_[107]` (HyQForwardKinJacReverse.cpp:1179). -/
def l1179 (x : Fin 36 → ℝ) : ℝ := 0 - l1177 x

/-- `v_[109]` (HyQForwardKinJacReverse.cpp:1180). -/
def l1180 (x : Fin 36 → ℝ) : ℝ := l1174 x * x 19 + l1179 x * x 18

/-- `v_[105]` (HyQForwardKinJacReverse.cpp:1181). -/
def l1181 (x : Fin 36 → ℝ) : ℝ := l1180 x * l223 x

/-- `v_[103]` (HyQForwardKinJacReverse.cpp:1182). -/
def l1182 (x : Fin 36 → ℝ) : ℝ := 0 - l1180 x

/-- `v_[86]` (HyQForwardKinJacReverse.cpp:1183). -/
def l1183 (x : Fin 36 → ℝ) : ℝ := l1182 x * l227 x

/-- `v_[85]` (HyQForwardKinJacReverse.cpp:1184). -/
def l1184 (x : Fin 36 → ℝ) : ℝ := 0 - l1180 x

/-- `v_[82]` (HyQForwardKinJacReverse.cpp:1185). -/
def l1185 (x : Fin 36 → ℝ) : ℝ := l342 x * l379 x

/-- `v_[283]` (HyQForwardKinJacReverse.cpp:1186). -/
def l1186 (x : Fin 36 → ℝ) : ℝ := l369 x * l380 x

/-- `jac[561]` (HyQForwardKinJacReverse.cpp:1187). -/
def l1187 (x : Fin 36 → ℝ) : ℝ := l1185 x + l1186 x

/-- `jac[441]` (HyQForwardKinJacReverse.cpp:1188). -/
def l1188 (x : Fin 36 → ℝ) : ℝ := l1179 x * l364 x + l1187 x * l325 x

/-- `jac[515]` (HyQForwardKinJacReverse.cpp:1189). -/
def l1189 (x : Fin 36 → ℝ) : ℝ := l1185 x - l1186 x

/-- `jac[657]` (HyQForwardKinJacReverse.cpp:1190). -/
def l1190 (x : Fin 36 → ℝ) : ℝ := l1187 x * l319 x + l1177 x * l358 x

/-- `jac[681]` (HyQForwardKinJacReverse.cpp:1191). -/
def l1191 (x : Fin 36 → ℝ) : ℝ := l1187 x * l313 x + l1177 x * l352 x + l1174 x * l376 x

/-- `jac[705]` (HyQForwardKinJacReverse.cpp:1192). -/
def l1192 (x : Fin 36 → ℝ) : ℝ := l1187 x * l308 x + l1177 x * l347 x + l1174 x * l373 x

/-- `v_[283]` (HyQForwardKinJacReverse.cpp:1193). -/
def l1193 (x : Fin 36 → ℝ) : ℝ := l1187 x * x 29

/-- `v_[82]` (HyQForwardKinJacReverse.cpp:1194). -/
def l1194 (x : Fin 36 → ℝ) : ℝ := l1193 x * l227 x

/-- `v_[107]` (HyQForwardKinJacReverse.cpp:1195). -/
def l1195 (x : Fin 36 → ℝ) : ℝ := l1187 x * x 28

/-- `v_[80]` (HyQForwardKinJacReverse.cpp:1196). -/
def l1196 (x : Fin 36 → ℝ) : ℝ := l1195 x * l223 x

/-- `v_[76]` (HyQForwardKinJacReverse.cpp:1197). -/
def l1197 (x : Fin 36 → ℝ) : ℝ := l1193 x * l223 x

/-- `v_[74]` (HyQForwardKinJacReverse.cpp:1198). -/
def l1198 (x : Fin 36 → ℝ) : ℝ := l1195 x * l227 x

/-- `v_[70]` (HyQForwardKinJacReverse.cpp:1199). -/
def l1199 (x : Fin 36 → ℝ) : ℝ := l1177 x * x 27

/-- `v_[68]` (HyQForwardKinJacReverse.cpp:1200). -/
def l1200 (x : Fin 36 → ℝ) : ℝ := l1199 x * l223 x

/-- `v_[14]` (HyQForwardKinJacReverse.cpp:1201). -/
def l1201 (x : Fin 36 → ℝ) : ℝ := l1199 x * l227 x

/-- `v_[48]` (HyQForwardKinJacReverse.cpp:1202). -/
def l1202 (x : Fin 36 → ℝ) : ℝ := 0 - l1174 x

/-- `jac[489]` (HyQForwardKinJacReverse.cpp:1203). -/
def l1203 (x : Fin 36 → ℝ) : ℝ := l1202 x * l325 x + l1177 x * l328 x

/-- `v_[48]` (HyQForwardKinJacReverse.cpp:1204). -/
def l1204 (x : Fin 36 → ℝ) : ℝ := l1202 x * x 20 + l1187 x * x 18

/-- `v_[405]` (HyQForwardKinJacReverse.cpp:1205). -/
def l1205 (x : Fin 36 → ℝ) : ℝ := l1204 x * l223 x

/-- `v_[475]` (HyQForwardKinJacReverse.cpp:1206). -/
def l1206 (x : Fin 36 → ℝ) : ℝ := l1204 x * l227 x

/-- `v_[440]` (HyQForwardKinJacReverse.cpp:1207). -/
def l1207 (x : Fin 36 → ℝ) : ℝ := l1187 x * x 27

/-- `v_[410]` (HyQForwardKinJacReverse.cpp:1208). -/
def l1208 (x : Fin 36 → ℝ) : ℝ := l1207 x * l227 x

/-- `v_[471]` (HyQForwardKinJacReverse.cpp:1209). -/
def l1209 (x : Fin 36 → ℝ) : ℝ := l1177 x * x 29

/-- `v_[470]` (HyQForwardKinJacReverse.cpp:1210). -/
def l1210 (x : Fin 36 → ℝ) : ℝ := l1209 x * l223 x

/-- `v_[251]` (HyQForwardKinJacReverse.cpp:1211). -/
def l1211 (x : Fin 36 → ℝ) : ℝ := 0 - l1209 x

/-- `v_[452]` (HyQForwardKinJacReverse.cpp:1212). -/
def l1212 (x : Fin 36 → ℝ) : ℝ := l1211 x * l227 x

/-- `v_[459]` (HyQForwardKinJacReverse.cpp:1213). -/
def l1213 (x : Fin 36 → ℝ) : ℝ := l1207 x * l223 x

/-- `v_[467]` (HyQForwardKinJacReverse.cpp:1214). -/
def l1214 (x : Fin 36 → ℝ) : ℝ := l1177 x * x 28

/-- `v_[101]` (HyQForwardKinJacReverse.cpp:1215). -/
def l1215 (x : Fin 36 → ℝ) : ℝ := l1214 x * l223 x

/-- `v_[123]` (HyQForwardKinJacReverse.cpp:1216). -/
def l1216 (x : Fin 36 → ℝ) : ℝ := 0 - l1214 x

/-- `v_[146]` (HyQForwardKinJacReverse.cpp:1217). -/
def l1217 (x : Fin 36 → ℝ) : ℝ := l1216 x * l227 x

/-- `v_[116]` (HyQForwardKinJacReverse.cpp:1218). -/
def l1218 (x : Fin 36 → ℝ) : ℝ := 0 - l1214 x

/-- `jac[225]` (HyQForwardKinJacReverse.cpp:1219). -/
def l1219 (x : Fin 36 → ℝ) : ℝ := 0 - (l1181 x * l221 x * (33 / 100) + l1183 x * l225 x * (33 / 100) + l1184 x * l225 x * (7 / 20) + (0 - l1180 x) * (2 / 25) + l1194 x * l221 x * (33 / 100) + l1196 x * l225 x * (33 / 100) + (l1197 x * l225 x + l1198 x * l221 x) * (33 / 100) + l1195 x * l221 x * (7 / 20) + l1200 x * l221 x *  - (33 / 100) + l1201 x * l225 x * (33 / 100) + l1199 x * l225 x * (7 / 20) + l1199 x * (2 / 25)) * l1141 x + (l1205 x * l221 x *  - (33 / 100) + l1206 x * l225 x * (33 / 100) + l1204 x * l225 x * (7 / 20) + l1204 x * (2 / 25) + l1208 x * l225 x * (33 / 100) + l1207 x * l225 x * (7 / 20) + l1207 x * (2 / 25) + l1210 x * l225 x *  - (33 / 100) + l1212 x * l221 x * (33 / 100) + (l1213 x * l221 x + l1215 x * l225 x) *  - (33 / 100) + l1217 x * l221 x * (33 / 100) + l1218 x * l221 x * (7 / 20)) * l1147 x

/-- `v_[293]` (HyQForwardKinJacReverse.cpp:1220). -/
def l1220 (x : Fin 36 → ℝ) : ℝ := l396 x * l379 x

/-- `jac[538]` (HyQForwardKinJacReverse.cpp:1221). -/
def l1221 (x : Fin 36 → ℝ) : ℝ := 1 - l1172 x - l1220 x

/-- `jac[563]` (HyQForwardKinJacReverse.cpp:1222). -/
def l1222 (x : Fin 36 → ℝ) : ℝ := 1 - l1173 x - l1220 x

/-- `v_[293]` (HyQForwardKinJacReverse.cpp:1223). -/
def l1223 (x : Fin 36 → ℝ) : ℝ := 0 - l1221 x

/-- `v_[112]` (HyQForwardKinJacReverse.cpp:1224). -/
def l1224 (x : Fin 36 → ℝ) : ℝ := l1178 x * x 19 + l1223 x * x 18

/-- `v_[257]` (HyQForwardKinJacReverse.cpp:1225). -/
def l1225 (x : Fin 36 → ℝ) : ℝ := l1224 x * l223 x

/-- `v_[17]` (HyQForwardKinJacReverse.cpp:1226). -/
def l1226 (x : Fin 36 → ℝ) : ℝ := 0 - l1224 x

/-- `v_[128]` (HyQForwardKinJacReverse.cpp:1227). -/
def l1227 (x : Fin 36 → ℝ) : ℝ := l1226 x * l227 x

/-- `v_[508]` (HyQForwardKinJacReverse.cpp:1228). -/
def l1228 (x : Fin 36 → ℝ) : ℝ := 0 - l1224 x

/-- `v_[282]` (HyQForwardKinJacReverse.cpp:1229). -/
def l1229 (x : Fin 36 → ℝ) : ℝ := l342 x * l368 x

/-- `v_[305]` (HyQForwardKinJacReverse.cpp:1230). -/
def l1230 (x : Fin 36 → ℝ) : ℝ := l396 x * l380 x

/-- `jac[562]` (HyQForwardKinJacReverse.cpp:1231). -/
def l1231 (x : Fin 36 → ℝ) : ℝ := l1229 x - l1230 x

/-- `jac[442]` (HyQForwardKinJacReverse.cpp:1232). -/
def l1232 (x : Fin 36 → ℝ) : ℝ := l1223 x * l364 x + l1231 x * l325 x

/-- `jac[539]` (HyQForwardKinJacReverse.cpp:1233). -/
def l1233 (x : Fin 36 → ℝ) : ℝ := l1229 x + l1230 x

/-- `jac[658]` (HyQForwardKinJacReverse.cpp:1234). -/
def l1234 (x : Fin 36 → ℝ) : ℝ := l1231 x * l319 x + l1221 x * l358 x

/-- `jac[659]` (HyQForwardKinJacReverse.cpp:1235). -/
def l1235 (x : Fin 36 → ℝ) : ℝ := l1222 x * l319 x + l1233 x * l358 x

/-- `jac[682]` (HyQForwardKinJacReverse.cpp:1236). -/
def l1236 (x : Fin 36 → ℝ) : ℝ := l1231 x * l313 x + l1221 x * l352 x + l1178 x * l376 x

/-- `jac[683]` (HyQForwardKinJacReverse.cpp:1237). -/
def l1237 (x : Fin 36 → ℝ) : ℝ := l1222 x * l313 x + l1233 x * l352 x + l1189 x * l376 x

/-- `jac[706]` (HyQForwardKinJacReverse.cpp:1238). -/
def l1238 (x : Fin 36 → ℝ) : ℝ := l1231 x * l308 x + l1221 x * l347 x + l1178 x * l373 x

/-- `jac[707]` (HyQForwardKinJacReverse.cpp:1239). -/
def l1239 (x : Fin 36 → ℝ) : ℝ := l1222 x * l308 x + l1233 x * l347 x + l1189 x * l373 x

/-- `v_[287]` (HyQForwardKinJacReverse.cpp:1240). -/
def l1240 (x : Fin 36 → ℝ) : ℝ := l1231 x * x 29

/-- `v_[263]` (HyQForwardKinJacReverse.cpp:1241). -/
def l1241 (x : Fin 36 → ℝ) : ℝ := l1240 x * l227 x

/-- `v_[174]` (HyQForwardKinJacReverse.cpp:1242). -/
def l1242 (x : Fin 36 → ℝ) : ℝ := l1231 x * x 28

/-- `v_[290]` (HyQForwardKinJacReverse.cpp:1243). -/
def l1243 (x : Fin 36 → ℝ) : ℝ := l1242 x * l223 x

/-- `v_[267]` (HyQForwardKinJacReverse.cpp:1244). -/
def l1244 (x : Fin 36 → ℝ) : ℝ := l1240 x * l223 x

/-- `v_[229]` (HyQForwardKinJacReverse.cpp:1245). -/
def l1245 (x : Fin 36 → ℝ) : ℝ := l1242 x * l227 x

/-- `v_[273]` (HyQForwardKinJacReverse.cpp:1246). -/
def l1246 (x : Fin 36 → ℝ) : ℝ := l1221 x * x 27

/-- `v_[235]` (HyQForwardKinJacReverse.cpp:1247). -/
def l1247 (x : Fin 36 → ℝ) : ℝ := l1246 x * l223 x

/-- `v_[305]` (HyQForwardKinJacReverse.cpp:1248). -/
def l1248 (x : Fin 36 → ℝ) : ℝ := l1246 x * l227 x

/-- `v_[282]` (HyQForwardKinJacReverse.cpp:1249). -/
def l1249 (x : Fin 36 → ℝ) : ℝ := 0 - l1178 x

/-- `jac[490]` (HyQForwardKinJacReverse.cpp:1250). -/
def l1250 (x : Fin 36 → ℝ) : ℝ := l1249 x * l325 x + l1221 x * l328 x

/-- `v_[282]` (HyQForwardKinJacReverse.cpp:1251). -/
def l1251 (x : Fin 36 → ℝ) : ℝ := l1249 x * x 20 + l1231 x * x 18

/-- `v_[293]` (HyQForwardKinJacReverse.cpp:1252). -/
def l1252 (x : Fin 36 → ℝ) : ℝ := l1251 x * l223 x

/-- `v_[294]` (HyQForwardKinJacReverse.cpp:1253). -/
def l1253 (x : Fin 36 → ℝ) : ℝ := l1251 x * l227 x

/-- `v_[258]` (HyQForwardKinJacReverse.cpp:1254). -/
def l1254 (x : Fin 36 → ℝ) : ℝ := l1231 x * x 27

/-- `v_[33]` (HyQForwardKinJacReverse.cpp:1255). -/
def l1255 (x : Fin 36 → ℝ) : ℝ := l1254 x * l227 x

/-- `v_[542]` (HyQForwardKinJacReverse.cpp:1256). -/
def l1256 (x : Fin 36 → ℝ) : ℝ := l1221 x * x 29

/-- `v_[539]` (HyQForwardKinJacReverse.cpp:1257). -/
def l1257 (x : Fin 36 → ℝ) : ℝ := l1256 x * l223 x

/-- `v_[626]` (HyQForwardKinJacReverse.cpp:1258). -/
def l1258 (x : Fin 36 → ℝ) : ℝ := 0 - l1256 x

/-- `v_[486]` (HyQForwardKinJacReverse.cpp:1259). -/
def l1259 (x : Fin 36 → ℝ) : ℝ := l1258 x * l227 x

/-- `v_[538]` (HyQForwardKinJacReverse.cpp:1260). -/
def l1260 (x : Fin 36 → ℝ) : ℝ := l1254 x * l223 x

/-- `v_[415]` (HyQForwardKinJacReverse.cpp:1261). -/
def l1261 (x : Fin 36 → ℝ) : ℝ := l1221 x * x 28

/-- `v_[441]` (HyQForwardKinJacReverse.cpp:1262). -/
def l1262 (x : Fin 36 → ℝ) : ℝ := l1261 x * l223 x

/-- `v_[477]` (HyQForwardKinJacReverse.cpp:1263). -/
def l1263 (x : Fin 36 → ℝ) : ℝ := 0 - l1261 x

/-- `v_[451]` (HyQForwardKinJacReverse.cpp:1264). -/
def l1264 (x : Fin 36 → ℝ) : ℝ := l1263 x * l227 x

/-- `v_[511]` (HyQForwardKinJacReverse.cpp:1265). -/
def l1265 (x : Fin 36 → ℝ) : ℝ := 0 - l1261 x

/-- `jac[226]` (HyQForwardKinJacReverse.cpp:1266). -/
def l1266 (x : Fin 36 → ℝ) : ℝ := 0 - (l1225 x * l221 x * (33 / 100) + l1227 x * l225 x * (33 / 100) + l1228 x * l225 x * (7 / 20) + (0 - l1224 x) * (2 / 25) + l1241 x * l221 x * (33 / 100) + l1243 x * l225 x * (33 / 100) + (l1244 x * l225 x + l1245 x * l221 x) * (33 / 100) + l1242 x * l221 x * (7 / 20) + l1247 x * l221 x *  - (33 / 100) + l1248 x * l225 x * (33 / 100) + l1246 x * l225 x * (7 / 20) + l1246 x * (2 / 25)) * l1141 x + (l1252 x * l221 x *  - (33 / 100) + l1253 x * l225 x * (33 / 100) + l1251 x * l225 x * (7 / 20) + l1251 x * (2 / 25) + l1255 x * l225 x * (33 / 100) + l1254 x * l225 x * (7 / 20) + l1254 x * (2 / 25) + l1257 x * l225 x *  - (33 / 100) + l1259 x * l221 x * (33 / 100) + (l1260 x * l221 x + l1262 x * l225 x) *  - (33 / 100) + l1264 x * l221 x * (33 / 100) + l1265 x * l221 x * (7 / 20)) * l1147 x

/-- `v_[521]` (HyQForwardKinJacReverse.cpp:1267). -/
def l1267 (x : Fin 36 → ℝ) : ℝ := 0 - l1233 x

/-- `v_[522]` (HyQForwardKinJacReverse.cpp:1268). -/
def l1268 (x : Fin 36 → ℝ) : ℝ := l1189 x * x 19 + l1267 x * x 18

/-- `v_[527]` (HyQForwardKinJacReverse.cpp:1269). -/
def l1269 (x : Fin 36 → ℝ) : ℝ := l1268 x * l223 x

/-- `v_[496]` (HyQForwardKinJacReverse.cpp:1270). -/
def l1270 (x : Fin 36 → ℝ) : ℝ := 0 - l1268 x

/-- `v_[124]` (HyQForwardKinJacReverse.cpp:1271). -/
def l1271 (x : Fin 36 → ℝ) : ℝ := l1270 x * l227 x

/-- `v_[507]` (HyQForwardKinJacReverse.cpp:1272). -/
def l1272 (x : Fin 36 → ℝ) : ℝ := 0 - l1268 x

/-- `jac[443]` (HyQForwardKinJacReverse.cpp:1273). -/
def l1273 (x : Fin 36 → ℝ) : ℝ := l1267 x * l364 x + l1222 x * l325 x

/-- `v_[521]` (HyQForwardKinJacReverse.cpp:1274). -/
def l1274 (x : Fin 36 → ℝ) : ℝ := l1222 x * x 29

/-- `v_[570]` (HyQForwardKinJacReverse.cpp:1275). -/
def l1275 (x : Fin 36 → ℝ) : ℝ := l1274 x * l227 x

/-- `v_[492]` (HyQForwardKinJacReverse.cpp:1276). -/
def l1276 (x : Fin 36 → ℝ) : ℝ := l1222 x * x 28

/-- `v_[540]` (HyQForwardKinJacReverse.cpp:1277). -/
def l1277 (x : Fin 36 → ℝ) : ℝ := l1276 x * l223 x

/-- `v_[41]` (HyQForwardKinJacReverse.cpp:1278). -/
def l1278 (x : Fin 36 → ℝ) : ℝ := l1274 x * l223 x

/-- `v_[514]` (HyQForwardKinJacReverse.cpp:1279). -/
def l1279 (x : Fin 36 → ℝ) : ℝ := l1276 x * l227 x

/-- `v_[52]` (HyQForwardKinJacReverse.cpp:1280). -/
def l1280 (x : Fin 36 → ℝ) : ℝ := l1233 x * x 27

/-- `v_[37]` (HyQForwardKinJacReverse.cpp:1281). -/
def l1281 (x : Fin 36 → ℝ) : ℝ := l1280 x * l223 x

/-- `v_[36]` (HyQForwardKinJacReverse.cpp:1282). -/
def l1282 (x : Fin 36 → ℝ) : ℝ := l1280 x * l227 x

/-- `v_[28]` (HyQForwardKinJacReverse.cpp:1283). -/
def l1283 (x : Fin 36 → ℝ) : ℝ := 0 - l1189 x

/-- `jac[491]` (HyQForwardKinJacReverse.cpp:1284). -/
def l1284 (x : Fin 36 → ℝ) : ℝ := l1283 x * l325 x + l1233 x * l328 x

/-- `v_[28]` (HyQForwardKinJacReverse.cpp:1285). -/
def l1285 (x : Fin 36 → ℝ) : ℝ := l1283 x * x 20 + l1222 x * x 18

/-- `v_[241]` (HyQForwardKinJacReverse.cpp:1286). -/
def l1286 (x : Fin 36 → ℝ) : ℝ := l1285 x * l223 x

/-- `v_[26]` (HyQForwardKinJacReverse.cpp:1287). -/
def l1287 (x : Fin 36 → ℝ) : ℝ := l1285 x * l227 x

/-- `v_[7]` (HyQForwardKinJacReverse.cpp:1288). -/
def l1288 (x : Fin 36 → ℝ) : ℝ := l1222 x * x 27

/-- `v_[3]` (HyQForwardKinJacReverse.cpp:1289). -/
def l1289 (x : Fin 36 → ℝ) : ℝ := l1288 x * l227 x

/-- `v_[600]` (HyQForwardKinJacReverse.cpp:1290). -/
def l1290 (x : Fin 36 → ℝ) : ℝ := l1233 x * x 29

/-- `v_[599]` (HyQForwardKinJacReverse.cpp:1291). -/
def l1291 (x : Fin 36 → ℝ) : ℝ := l1290 x * l223 x

/-- `v_[611]` (HyQForwardKinJacReverse.cpp:1292). -/
def l1292 (x : Fin 36 → ℝ) : ℝ := 0 - l1290 x

/-- `v_[40]` (HyQForwardKinJacReverse.cpp:1293). -/
def l1293 (x : Fin 36 → ℝ) : ℝ := l1292 x * l227 x

/-- `v_[618]` (HyQForwardKinJacReverse.cpp:1294). -/
def l1294 (x : Fin 36 → ℝ) : ℝ := l1288 x * l223 x

/-- `v_[623]` (HyQForwardKinJacReverse.cpp:1295). -/
def l1295 (x : Fin 36 → ℝ) : ℝ := l1233 x * x 28

/-- `v_[627]` (HyQForwardKinJacReverse.cpp:1296). -/
def l1296 (x : Fin 36 → ℝ) : ℝ := l1295 x * l223 x

/-- `v_[34]` (HyQForwardKinJacReverse.cpp:1297). -/
def l1297 (x : Fin 36 → ℝ) : ℝ := 0 - l1295 x

/-- `v_[630]` (HyQForwardKinJacReverse.cpp:1298). -/
def l1298 (x : Fin 36 → ℝ) : ℝ := l1297 x * l227 x

/-- `v_[574]` (HyQForwardKinJacReverse.cpp:1299). -/
def l1299 (x : Fin 36 → ℝ) : ℝ := 0 - l1295 x

/-- `jac[227]` (HyQForwardKinJacReverse.cpp:1300). -/
def l1300 (x : Fin 36 → ℝ) : ℝ := 0 - (l1269 x * l221 x * (33 / 100) + l1271 x * l225 x * (33 / 100) + l1272 x * l225 x * (7 / 20) + (0 - l1268 x) * (2 / 25) + l1275 x * l221 x * (33 / 100) + l1277 x * l225 x * (33 / 100) + (l1278 x * l225 x + l1279 x * l221 x) * (33 / 100) + l1276 x * l221 x * (7 / 20) + l1281 x * l221 x *  - (33 / 100) + l1282 x * l225 x * (33 / 100) + l1280 x * l225 x * (7 / 20) + l1280 x * (2 / 25)) * l1141 x + (l1286 x * l221 x *  - (33 / 100) + l1287 x * l225 x * (33 / 100) + l1285 x * l225 x * (7 / 20) + l1285 x * (2 / 25) + l1289 x * l225 x * (33 / 100) + l1288 x * l225 x * (7 / 20) + l1288 x * (2 / 25) + l1291 x * l225 x *  - (33 / 100) + l1293 x * l221 x * (33 / 100) + (l1294 x * l221 x + l1296 x * l225 x) *  - (33 / 100) + l1298 x * l221 x * (33 / 100) + l1299 x * l221 x * (7 / 20)) * l1147 x

/-- `v_[191]` (HyQForwardKinJacReverse.cpp:1301). -/
def l1301 (x : Fin 36 → ℝ) : ℝ := 1 - l1156 x - l1162 x

/-- `v_[180]` (HyQForwardKinJacReverse.cpp:1302). -/
def l1302 (x : Fin 36 → ℝ) : ℝ := Real.sin (x 10)

/-- `v_[367]` (HyQForwardKinJacReverse.cpp:1303). -/
def l1303 (x : Fin 36 → ℝ) : ℝ := 0 - l1301 x

/-- `v_[379]` (HyQForwardKinJacReverse.cpp:1304). -/
def l1304 (x : Fin 36 → ℝ) : ℝ := Real.cos (x 10)

/-- `jac[246]` (HyQForwardKinJacReverse.cpp:1305). -/
def l1305 (x : Fin 36 → ℝ) : ℝ := 0 - (l1139 x * l224 x + l1140 x * l228 x + l1146 x * l244 x + l1144 x * l248 x + l1301 x * l223 x *  - (33 / 100)) * l1302 x + (l1137 x * l220 x + l1145 x * l246 x + l1303 x * l227 x * (33 / 100) + (0 - l1301 x) * (7 / 20)) * l1304 x

/-- `v_[316]` (HyQForwardKinJacReverse.cpp:1306). -/
def l1306 (x : Fin 36 → ℝ) : ℝ := l1142 x + l1143 x

/-- `v_[245]` (HyQForwardKinJacReverse.cpp:1307). -/
def l1307 (x : Fin 36 → ℝ) : ℝ := 0 - l1306 x

/-- `jac[247]` (HyQForwardKinJacReverse.cpp:1308). -/
def l1308 (x : Fin 36 → ℝ) : ℝ := 0 - (l1154 x * l224 x + l1155 x * l228 x + l1160 x * l244 x + l1158 x * l248 x + l1306 x * l223 x *  - (33 / 100)) * l1302 x + (l1152 x * l220 x + l1159 x * l246 x + l1307 x * l227 x * (33 / 100) + (0 - l1306 x) * (7 / 20)) * l1304 x

/-- `v_[634]` (HyQForwardKinJacReverse.cpp:1309). -/
def l1309 (x : Fin 36 → ℝ) : ℝ := l1134 x - l1135 x

/-- `v_[23]` (HyQForwardKinJacReverse.cpp:1310). -/
def l1310 (x : Fin 36 → ℝ) : ℝ := 0 - l1309 x

/-- `jac[248]` (HyQForwardKinJacReverse.cpp:1311). -/
def l1311 (x : Fin 36 → ℝ) : ℝ := 0 - (l1166 x * l224 x + l1167 x * l228 x + l1170 x * l244 x + l1168 x * l248 x + l1309 x * l223 x *  - (33 / 100)) * l1302 x + (l1164 x * l220 x + l1169 x * l246 x + l1310 x * l227 x * (33 / 100) + (0 - l1309 x) * (7 / 20)) * l1304 x

/-- `v_[114]` (HyQForwardKinJacReverse.cpp:1312). -/
def l1312 (x : Fin 36 → ℝ) : ℝ := 0 - l1187 x

/-- `jac[465]` (HyQForwardKinJacReverse.cpp:1313). -/
def l1313 (x : Fin 36 → ℝ) : ℝ := l1174 x * l364 x + l1312 x * l328 x

/-- `v_[114]` (HyQForwardKinJacReverse.cpp:1314). -/
def l1314 (x : Fin 36 → ℝ) : ℝ := l1177 x * x 20 + l1312 x * x 19

/-- `v_[370]` (HyQForwardKinJacReverse.cpp:1315). -/
def l1315 (x : Fin 36 → ℝ) : ℝ := l1174 x * x 29

/-- `v_[118]` (HyQForwardKinJacReverse.cpp:1316). -/
def l1316 (x : Fin 36 → ℝ) : ℝ := 0 - l1315 x

/-- `v_[126]` (HyQForwardKinJacReverse.cpp:1317). -/
def l1317 (x : Fin 36 → ℝ) : ℝ := l1174 x * x 28

/-- `v_[190]` (HyQForwardKinJacReverse.cpp:1318). -/
def l1318 (x : Fin 36 → ℝ) : ℝ := 0 - l1317 x

/-- `v_[186]` (HyQForwardKinJacReverse.cpp:1319). -/
def l1319 (x : Fin 36 → ℝ) : ℝ := 0 - l1314 x

/-- `jac[249]` (HyQForwardKinJacReverse.cpp:1320). -/
def l1320 (x : Fin 36 → ℝ) : ℝ := 0 - (l1183 x * l361 x + l1184 x * l363 x + l1206 x * l320 x + l1204 x * l324 x + l1314 x * l223 x *  - (33 / 100) + l1197 x * l304 x + l1196 x * l310 x + l1208 x * l314 x + l1207 x * l318 x + l1210 x * l343 x + l1215 x * l316 x + l1201 x * l353 x + l1199 x * l357 x + l1316 x * l227 x * (33 / 100) + l1318 x * l227 x * (33 / 100) + (0 - l1317 x) * (7 / 20)) * l1302 x + (l1181 x * l359 x + l1205 x * l322 x + l1319 x * l227 x * (33 / 100) + (0 - l1314 x) * (7 / 20) + l1194 x * l306 x + l1198 x * l304 x + l1195 x * l312 x + l1213 x * l316 x + l1212 x * l345 x + l1217 x * l349 x + l1218 x * l351 x + l1200 x * l355 x + l1315 x * l223 x * (33 / 100) + l1317 x * l223 x * (33 / 100)) * l1304 x

/-- `v_[116]` (HyQForwardKinJacReverse.cpp:1321). -/
def l1321 (x : Fin 36 → ℝ) : ℝ := 0 - l1231 x

/-- `jac[466]` (HyQForwardKinJacReverse.cpp:1322). -/
def l1322 (x : Fin 36 → ℝ) : ℝ := l1178 x * l364 x + l1321 x * l328 x

/-- `v_[116]` (HyQForwardKinJacReverse.cpp:1323). -/
def l1323 (x : Fin 36 → ℝ) : ℝ := l1221 x * x 20 + l1321 x * x 19

/-- `v_[146]` (HyQForwardKinJacReverse.cpp:1324). -/
def l1324 (x : Fin 36 → ℝ) : ℝ := l1178 x * x 29

/-- `v_[101]` (HyQForwardKinJacReverse.cpp:1325). -/
def l1325 (x : Fin 36 → ℝ) : ℝ := 0 - l1324 x

/-- `v_[459]` (HyQForwardKinJacReverse.cpp:1326). -/
def l1326 (x : Fin 36 → ℝ) : ℝ := l1178 x * x 28

/-- `v_[452]` (HyQForwardKinJacReverse.cpp:1327). -/
def l1327 (x : Fin 36 → ℝ) : ℝ := 0 - l1326 x

/-- `v_[470]` (HyQForwardKinJacReverse.cpp:1328). -/
def l1328 (x : Fin 36 → ℝ) : ℝ := 0 - l1323 x

/-- `jac[250]` (HyQForwardKinJacReverse.cpp:1329). -/
def l1329 (x : Fin 36 → ℝ) : ℝ := 0 - (l1227 x * l361 x + l1228 x * l363 x + l1253 x * l320 x + l1251 x * l324 x + l1323 x * l223 x *  - (33 / 100) + l1244 x * l304 x + l1243 x * l310 x + l1255 x * l314 x + l1254 x * l318 x + l1257 x * l343 x + l1262 x * l316 x + l1248 x * l353 x + l1246 x * l357 x + l1325 x * l227 x * (33 / 100) + l1327 x * l227 x * (33 / 100) + (0 - l1326 x) * (7 / 20)) * l1302 x + (l1225 x * l359 x + l1252 x * l322 x + l1328 x * l227 x * (33 / 100) + (0 - l1323 x) * (7 / 20) + l1241 x * l306 x + l1245 x * l304 x + l1242 x * l312 x + l1260 x * l316 x + l1259 x * l345 x + l1264 x * l349 x + l1265 x * l351 x + l1247 x * l355 x + l1324 x * l223 x * (33 / 100) + l1326 x * l223 x * (33 / 100)) * l1304 x

/-- `v_[511]` (HyQForwardKinJacReverse.cpp:1330). -/
def l1330 (x : Fin 36 → ℝ) : ℝ := 0 - l1222 x

/-- `jac[467]` (HyQForwardKinJacReverse.cpp:1331). -/
def l1331 (x : Fin 36 → ℝ) : ℝ := l1189 x * l364 x + l1330 x * l328 x

/-- `v_[511]` (HyQForwardKinJacReverse.cpp:1332). -/
def l1332 (x : Fin 36 → ℝ) : ℝ := l1233 x * x 20 + l1330 x * x 19

/-- `v_[89]` (HyQForwardKinJacReverse.cpp:1333). -/
def l1333 (x : Fin 36 → ℝ) : ℝ := l1189 x * x 29

/-- `v_[244]` (HyQForwardKinJacReverse.cpp:1334). -/
def l1334 (x : Fin 36 → ℝ) : ℝ := 0 - l1333 x

/-- `v_[451]` (HyQForwardKinJacReverse.cpp:1335). -/
def l1335 (x : Fin 36 → ℝ) : ℝ := l1189 x * x 28

/-- `v_[441]` (HyQForwardKinJacReverse.cpp:1336). -/
def l1336 (x : Fin 36 → ℝ) : ℝ := 0 - l1335 x

/-- `v_[538]` (HyQForwardKinJacReverse.cpp:1337). -/
def l1337 (x : Fin 36 → ℝ) : ℝ := 0 - l1332 x

/-- `jac[251]` (HyQForwardKinJacReverse.cpp:1338). -/
def l1338 (x : Fin 36 → ℝ) : ℝ := 0 - (l1271 x * l361 x + l1272 x * l363 x + l1287 x * l320 x + l1285 x * l324 x + l1332 x * l223 x *  - (33 / 100) + l1278 x * l304 x + l1277 x * l310 x + l1289 x * l314 x + l1288 x * l318 x + l1291 x * l343 x + l1296 x * l316 x + l1282 x * l353 x + l1280 x * l357 x + l1334 x * l227 x * (33 / 100) + l1336 x * l227 x * (33 / 100) + (0 - l1335 x) * (7 / 20)) * l1302 x + (l1269 x * l359 x + l1286 x * l322 x + l1337 x * l227 x * (33 / 100) + (0 - l1332 x) * (7 / 20) + l1275 x * l306 x + l1279 x * l304 x + l1276 x * l312 x + l1294 x * l316 x + l1293 x * l345 x + l1298 x * l349 x + l1299 x * l351 x + l1281 x * l355 x + l1333 x * l223 x * (33 / 100) + l1335 x * l223 x * (33 / 100)) * l1304 x

/-- `v_[379]` (HyQForwardKinJacReverse.cpp:1339). -/
def l1339 (x : Fin 36 → ℝ) : ℝ := Real.sin (x 11)

/-- `v_[180]` (HyQForwardKinJacReverse.cpp:1340). -/
def l1340 (x : Fin 36 → ℝ) : ℝ := Real.cos (x 11)

/-- `jac[270]` (HyQForwardKinJacReverse.cpp:1341). -/
def l1341 (x : Fin 36 → ℝ) : ℝ := 0 - (l1138 x * l226 x + l1144 x * l245 x + l1303 x * l256 x) * l1339 x + (l1136 x * l222 x + l1144 x * l247 x + l1301 x * l255 x) * l1340 x

/-- `jac[271]` (HyQForwardKinJacReverse.cpp:1342). -/
def l1342 (x : Fin 36 → ℝ) : ℝ := 0 - (l1153 x * l226 x + l1158 x * l245 x + l1307 x * l256 x) * l1339 x + (l1151 x * l222 x + l1158 x * l247 x + l1306 x * l255 x) * l1340 x

/-- `jac[272]` (HyQForwardKinJacReverse.cpp:1343). -/
def l1343 (x : Fin 36 → ℝ) : ℝ := 0 - (l1165 x * l226 x + l1168 x * l245 x + l1310 x * l256 x) * l1339 x + (l1163 x * l222 x + l1168 x * l247 x + l1309 x * l255 x) * l1340 x

/-- `jac[273]` (HyQForwardKinJacReverse.cpp:1344). -/
def l1344 (x : Fin 36 → ℝ) : ℝ := 0 - (l1182 x * l362 x + l1204 x * l321 x + l1319 x * l327 x + l1193 x * l307 x + l1195 x * l309 x + l1207 x * l315 x + l1211 x * l346 x + l1216 x * l350 x + l1199 x * l354 x + l1316 x * l372 x + l1318 x * l375 x) * l1339 x + (l1180 x * l360 x + l1204 x * l323 x + l1314 x * l326 x + l1193 x * l305 x + l1195 x * l311 x + l1207 x * l317 x + l1209 x * l344 x + l1214 x * l348 x + l1199 x * l356 x + l1315 x * l371 x + l1317 x * l374 x) * l1340 x

/-- `jac[274]` (HyQForwardKinJacReverse.cpp:1345). -/
def l1345 (x : Fin 36 → ℝ) : ℝ := 0 - (l1226 x * l362 x + l1251 x * l321 x + l1328 x * l327 x + l1240 x * l307 x + l1242 x * l309 x + l1254 x * l315 x + l1258 x * l346 x + l1263 x * l350 x + l1246 x * l354 x + l1325 x * l372 x + l1327 x * l375 x) * l1339 x + (l1224 x * l360 x + l1251 x * l323 x + l1323 x * l326 x + l1240 x * l305 x + l1242 x * l311 x + l1254 x * l317 x + l1256 x * l344 x + l1261 x * l348 x + l1246 x * l356 x + l1324 x * l371 x + l1326 x * l374 x) * l1340 x

/-- `jac[275]` (HyQForwardKinJacReverse.cpp:1346). -/
def l1346 (x : Fin 36 → ℝ) : ℝ := 0 - (l1270 x * l362 x + l1285 x * l321 x + l1337 x * l327 x + l1274 x * l307 x + l1276 x * l309 x + l1288 x * l315 x + l1292 x * l346 x + l1297 x * l350 x + l1280 x * l354 x + l1334 x * l372 x + l1336 x * l375 x) * l1339 x + (l1268 x * l360 x + l1285 x * l323 x + l1332 x * l326 x + l1274 x * l305 x + l1276 x * l311 x + l1288 x * l317 x + l1290 x * l344 x + l1295 x * l348 x + l1280 x * l356 x + l1333 x * l371 x + l1335 x * l374 x) * l1340 x

/-- `v_[180]` (HyQForwardKinJacReverse.cpp:1347). -/
def l1347 (x : Fin 36 → ℝ) : ℝ := l447 x * l464 x

/-- `v_[379]` (HyQForwardKinJacReverse.cpp:1348). -/
def l1348 (x : Fin 36 → ℝ) : ℝ := l458 x * l465 x

/-- `v_[538]` (HyQForwardKinJacReverse.cpp:1349). -/
def l1349 (x : Fin 36 → ℝ) : ℝ := l1347 x + l1348 x

/-- `v_[441]` (HyQForwardKinJacReverse.cpp:1350). -/
def l1350 (x : Fin 36 → ℝ) : ℝ := l1349 x * l428 x

/-- `v_[451]` (HyQForwardKinJacReverse.cpp:1351). -/
def l1351 (x : Fin 36 → ℝ) : ℝ := 0 - l1349 x

/-- `v_[244]` (HyQForwardKinJacReverse.cpp:1352). -/
def l1352 (x : Fin 36 → ℝ) : ℝ := l1351 x * l432 x

/-- `v_[89]` (HyQForwardKinJacReverse.cpp:1353). -/
def l1353 (x : Fin 36 → ℝ) : ℝ := 0 - l1349 x

/-- `v_[511]` (HyQForwardKinJacReverse.cpp:1354). -/
def l1354 (x : Fin 36 → ℝ) : ℝ := Real.sin (x 12)

/-- `v_[34]` (HyQForwardKinJacReverse.cpp:1355). -/
def l1355 (x : Fin 36 → ℝ) : ℝ := l458 x * l464 x

/-- `v_[623]` (HyQForwardKinJacReverse.cpp:1356). -/
def l1356 (x : Fin 36 → ℝ) : ℝ := l447 x * l465 x

/-- `v_[611]` (HyQForwardKinJacReverse.cpp:1357). -/
def l1357 (x : Fin 36 → ℝ) : ℝ := l1355 x - l1356 x

/-- `v_[600]` (HyQForwardKinJacReverse.cpp:1358). -/
def l1358 (x : Fin 36 → ℝ) : ℝ := l1357 x * l428 x

/-- `v_[7]` (HyQForwardKinJacReverse.cpp:1359). -/
def l1359 (x : Fin 36 → ℝ) : ℝ := 0 - l1357 x

/-- `v_[28]` (HyQForwardKinJacReverse.cpp:1360). -/
def l1360 (x : Fin 36 → ℝ) : ℝ := l1359 x * l432 x

/-- `v_[52]` (HyQForwardKinJacReverse.cpp:1361). -/
def l1361 (x : Fin 36 → ℝ) : ℝ := 0 - l1357 x

/-- `v_[492]` (HyQForwardKinJacReverse.cpp:1362). -/
def l1362 (x : Fin 36 → ℝ) : ℝ := Real.cos (x 12)

/-- `jac[300]` (HyQForwardKinJacReverse.cpp:1363). -/
def l1363 (x : Fin 36 → ℝ) : ℝ := 0 - (l1350 x * l426 x * (33 / 100) + l1352 x * l430 x * (33 / 100) + l1353 x * l430 x * (7 / 20) + (0 - l1349 x) * (2 / 25)) * l1354 x + (l1358 x * l426 x * (33 / 100) + l1360 x * l430 x * (33 / 100) + l1361 x * l430 x * (7 / 20) + (0 - l1357 x) * (2 / 25)) * l1362 x

/-- `v_[521]` (HyQForwardKinJacReverse.cpp:1364). -/
def l1364 (x : Fin 36 → ℝ) : ℝ := l447 x * l457 x

/-- `v_[357]` (HyQForwardKinJacReverse.cpp:1365). -/
def l1365 (x : Fin 36 → ℝ) : ℝ := l481 x * l465 x

/-- `v_[496]` (HyQForwardKinJacReverse.cpp:1366). -/
def l1366 (x : Fin 36 → ℝ) : ℝ := l1364 x - l1365 x

/-- `v_[522]` (HyQForwardKinJacReverse.cpp:1367). -/
def l1367 (x : Fin 36 → ℝ) : ℝ := l1366 x * l428 x

/-- `v_[289]` (HyQForwardKinJacReverse.cpp:1368). -/
def l1368 (x : Fin 36 → ℝ) : ℝ := 0 - l1366 x

/-- `v_[288]` (HyQForwardKinJacReverse.cpp:1369). -/
def l1369 (x : Fin 36 → ℝ) : ℝ := l1368 x * l432 x

/-- `v_[286]` (HyQForwardKinJacReverse.cpp:1370). -/
def l1370 (x : Fin 36 → ℝ) : ℝ := 0 - l1366 x

/-- `v_[339]` (HyQForwardKinJacReverse.cpp:1371). -/
def l1371 (x : Fin 36 → ℝ) : ℝ := l447 x * l446 x

/-- `v_[368]` (HyQForwardKinJacReverse.cpp:1372). -/
def l1372 (x : Fin 36 → ℝ) : ℝ := l481 x * l464 x

/-- `v_[356]` (HyQForwardKinJacReverse.cpp:1373). -/
def l1373 (x : Fin 36 → ℝ) : ℝ := 1 - l1371 x - l1372 x

/-- `v_[338]` (HyQForwardKinJacReverse.cpp:1374). -/
def l1374 (x : Fin 36 → ℝ) : ℝ := l1373 x * l428 x

/-- `v_[285]` (HyQForwardKinJacReverse.cpp:1375). -/
def l1375 (x : Fin 36 → ℝ) : ℝ := 0 - l1373 x

/-- `v_[277]` (HyQForwardKinJacReverse.cpp:1376). -/
def l1376 (x : Fin 36 → ℝ) : ℝ := l1375 x * l432 x

/-- `v_[275]` (HyQForwardKinJacReverse.cpp:1377). -/
def l1377 (x : Fin 36 → ℝ) : ℝ := 0 - l1373 x

/-- `jac[301]` (HyQForwardKinJacReverse.cpp:1378). -/
def l1378 (x : Fin 36 → ℝ) : ℝ := 0 - (l1367 x * l426 x * (33 / 100) + l1369 x * l430 x * (33 / 100) + l1370 x * l430 x * (7 / 20) + (0 - l1366 x) * (2 / 25)) * l1354 x + (l1374 x * l426 x * (33 / 100) + l1376 x * l430 x * (33 / 100) + l1377 x * l430 x * (7 / 20) + (0 - l1373 x) * (2 / 25)) * l1362 x

/-- `v_[350]` (HyQForwardKinJacReverse.cpp:1379). -/
def l1379 (x : Fin 36 → ℝ) : ℝ := l458 x * l457 x

/-- `v_[368]` (HyQForwardKinJacReverse.cpp:1380). -/
def l1380 (x : Fin 36 → ℝ) : ℝ := 1 - l1379 x - l1372 x

/-- `v_[349]` (HyQForwardKinJacReverse.cpp:1381). -/
def l1381 (x : Fin 36 → ℝ) : ℝ := l1380 x * l428 x

/-- `v_[271]` (HyQForwardKinJacReverse.cpp:1382). -/
def l1382 (x : Fin 36 → ℝ) : ℝ := 0 - l1380 x

/-- `v_[269]` (HyQForwardKinJacReverse.cpp:1383). -/
def l1383 (x : Fin 36 → ℝ) : ℝ := l1382 x * l432 x

/-- `v_[266]` (HyQForwardKinJacReverse.cpp:1384). -/
def l1384 (x : Fin 36 → ℝ) : ℝ := 0 - l1380 x

/-- `v_[357]` (HyQForwardKinJacReverse.cpp:1385). -/
def l1385 (x : Fin 36 → ℝ) : ℝ := l1364 x + l1365 x

/-- `v_[521]` (HyQForwardKinJacReverse.cpp:1386). -/
def l1386 (x : Fin 36 → ℝ) : ℝ := l1385 x * l428 x

/-- `v_[264]` (HyQForwardKinJacReverse.cpp:1387). -/
def l1387 (x : Fin 36 → ℝ) : ℝ := 0 - l1385 x

/-- `v_[262]` (HyQForwardKinJacReverse.cpp:1388). -/
def l1388 (x : Fin 36 → ℝ) : ℝ := l1387 x * l432 x

/-- `v_[260]` (HyQForwardKinJacReverse.cpp:1389). -/
def l1389 (x : Fin 36 → ℝ) : ℝ := 0 - l1385 x

/-- `jac[302]` (HyQForwardKinJacReverse.cpp:1390). -/
def l1390 (x : Fin 36 → ℝ) : ℝ := 0 - (l1381 x * l426 x * (33 / 100) + l1383 x * l430 x * (33 / 100) + l1384 x * l430 x * (7 / 20) + (0 - l1380 x) * (2 / 25)) * l1354 x + (l1386 x * l426 x * (33 / 100) + l1388 x * l430 x * (33 / 100) + l1389 x * l430 x * (7 / 20) + (0 - l1385 x) * (2 / 25)) * l1362 x

/-- `v_[417]` (HyQForwardKinJacReverse.cpp:1391). -/
def l1391 (x : Fin 36 → ℝ) : ℝ := l548 x * l547 x

/-- `v_[243]` (HyQForwardKinJacReverse.cpp:1392). -/
def l1392 (x : Fin 36 → ℝ) : ℝ := l575 x * l574 x

/-- `jac[519]` (HyQForwardKinJacReverse.cpp:1393). -/
def l1393 (x : Fin 36 → ℝ) : ℝ := 1 - l1391 x - l1392 x

/-- `v_[242]` (HyQForwardKinJacReverse.cpp:1394). -/
def l1394 (x : Fin 36 → ℝ) : ℝ := l575 x * l585 x

/-- `v_[239]` (HyQForwardKinJacReverse.cpp:1395). -/
def l1395 (x : Fin 36 → ℝ) : ℝ := l548 x * l586 x

/-- `jac[543]` (HyQForwardKinJacReverse.cpp:1396). -/
def l1396 (x : Fin 36 → ℝ) : ℝ := l1394 x - l1395 x

/-- `jac[520]` (HyQForwardKinJacReverse.cpp:1397). -/
def l1397 (x : Fin 36 → ℝ) : ℝ := l1394 x + l1395 x

/-- `v_[239]` (HyQForwardKinJacReverse.cpp:1398). -/
def l1398 (x : Fin 36 → ℝ) : ℝ := 0 - l1396 x

/-- `v_[242]` (HyQForwardKinJacReverse.cpp:1399). -/
def l1399 (x : Fin 36 → ℝ) : ℝ := l1393 x * x 19 + l1398 x * x 18

/-- `v_[237]` (HyQForwardKinJacReverse.cpp:1400). -/
def l1400 (x : Fin 36 → ℝ) : ℝ := l1399 x * l527 x

/-- `v_[233]` (HyQForwardKinJacReverse.cpp:1401). -/
def l1401 (x : Fin 36 → ℝ) : ℝ := 0 - l1399 x

/-- `v_[231]` (HyQForwardKinJacReverse.cpp:1402). -/
def l1402 (x : Fin 36 → ℝ) : ℝ := l1401 x * l432 x

/-- `v_[227]` (HyQForwardKinJacReverse.cpp:1403). -/
def l1403 (x : Fin 36 → ℝ) : ℝ := 0 - l1399 x

/-- `v_[225]` (HyQForwardKinJacReverse.cpp:1404). -/
def l1404 (x : Fin 36 → ℝ) : ℝ := l548 x * l585 x

/-- `v_[443]` (HyQForwardKinJacReverse.cpp:1405). -/
def l1405 (x : Fin 36 → ℝ) : ℝ := l575 x * l586 x

/-- `jac[567]` (HyQForwardKinJacReverse.cpp:1406). -/
def l1406 (x : Fin 36 → ℝ) : ℝ := l1404 x + l1405 x

/-- `jac[447]` (HyQForwardKinJacReverse.cpp:1407). -/
def l1407 (x : Fin 36 → ℝ) : ℝ := l1398 x * l570 x + l1406 x * l531 x

/-- `jac[521]` (HyQForwardKinJacReverse.cpp:1408). -/
def l1408 (x : Fin 36 → ℝ) : ℝ := l1404 x - l1405 x

/-- `jac[735]` (HyQForwardKinJacReverse.cpp:1409). -/
def l1409 (x : Fin 36 → ℝ) : ℝ := l1406 x * l524 x + l1396 x * l564 x

/-- `jac[759]` (HyQForwardKinJacReverse.cpp:1410). -/
def l1410 (x : Fin 36 → ℝ) : ℝ := l1406 x * l518 x + l1396 x * l558 x + l1393 x * l582 x

/-- `jac[783]` (HyQForwardKinJacReverse.cpp:1411). -/
def l1411 (x : Fin 36 → ℝ) : ℝ := l1406 x * l513 x + l1396 x * l553 x + l1393 x * l579 x

/-- `v_[443]` (HyQForwardKinJacReverse.cpp:1412). -/
def l1412 (x : Fin 36 → ℝ) : ℝ := l1406 x * x 32

/-- `v_[225]` (HyQForwardKinJacReverse.cpp:1413). -/
def l1413 (x : Fin 36 → ℝ) : ℝ := l1412 x * l432 x

/-- `v_[239]` (HyQForwardKinJacReverse.cpp:1414). -/
def l1414 (x : Fin 36 → ℝ) : ℝ := l1406 x * x 31

/-- `v_[171]` (HyQForwardKinJacReverse.cpp:1415). -/
def l1415 (x : Fin 36 → ℝ) : ℝ := l1414 x * l428 x

/-- `v_[205]` (HyQForwardKinJacReverse.cpp:1416). -/
def l1416 (x : Fin 36 → ℝ) : ℝ := l1412 x * l428 x

/-- `v_[470]` (HyQForwardKinJacReverse.cpp:1417). -/
def l1417 (x : Fin 36 → ℝ) : ℝ := l1414 x * l432 x

/-- `v_[452]` (HyQForwardKinJacReverse.cpp:1418). -/
def l1418 (x : Fin 36 → ℝ) : ℝ := l1396 x * x 30

/-- `v_[459]` (HyQForwardKinJacReverse.cpp:1419). -/
def l1419 (x : Fin 36 → ℝ) : ℝ := l1418 x * l428 x

/-- `v_[101]` (HyQForwardKinJacReverse.cpp:1420). -/
def l1420 (x : Fin 36 → ℝ) : ℝ := 0 - l1418 x

/-- `v_[146]` (HyQForwardKinJacReverse.cpp:1421). -/
def l1421 (x : Fin 36 → ℝ) : ℝ := l1420 x * l432 x

/-- `v_[116]` (HyQForwardKinJacReverse.cpp:1422). -/
def l1422 (x : Fin 36 → ℝ) : ℝ := 0 - l1418 x

/-- `v_[477]` (HyQForwardKinJacReverse.cpp:1423). -/
def l1423 (x : Fin 36 → ℝ) : ℝ := 0 - l1393 x

/-- `jac[495]` (HyQForwardKinJacReverse.cpp:1424). -/
def l1424 (x : Fin 36 → ℝ) : ℝ := l1423 x * l531 x + l1396 x * l534 x

/-- `v_[477]` (HyQForwardKinJacReverse.cpp:1425). -/
def l1425 (x : Fin 36 → ℝ) : ℝ := l1423 x * x 20 + l1406 x * x 18

/-- `v_[415]` (HyQForwardKinJacReverse.cpp:1426). -/
def l1426 (x : Fin 36 → ℝ) : ℝ := l1425 x * l527 x

/-- `v_[626]` (HyQForwardKinJacReverse.cpp:1427). -/
def l1427 (x : Fin 36 → ℝ) : ℝ := 0 - l1425 x

/-- `v_[542]` (HyQForwardKinJacReverse.cpp:1428). -/
def l1428 (x : Fin 36 → ℝ) : ℝ := l1427 x * l432 x

/-- `v_[258]` (HyQForwardKinJacReverse.cpp:1429). -/
def l1429 (x : Fin 36 → ℝ) : ℝ := 0 - l1425 x

/-- `v_[282]` (HyQForwardKinJacReverse.cpp:1430). -/
def l1430 (x : Fin 36 → ℝ) : ℝ := l1406 x * x 30

/-- `v_[273]` (HyQForwardKinJacReverse.cpp:1431). -/
def l1431 (x : Fin 36 → ℝ) : ℝ := l1430 x * l428 x

/-- `v_[174]` (HyQForwardKinJacReverse.cpp:1432). -/
def l1432 (x : Fin 36 → ℝ) : ℝ := l1430 x * l432 x

/-- `v_[287]` (HyQForwardKinJacReverse.cpp:1433). -/
def l1433 (x : Fin 36 → ℝ) : ℝ := l1396 x * x 32

/-- `v_[17]` (HyQForwardKinJacReverse.cpp:1434). -/
def l1434 (x : Fin 36 → ℝ) : ℝ := l1433 x * l432 x

/-- `v_[112]` (HyQForwardKinJacReverse.cpp:1435). -/
def l1435 (x : Fin 36 → ℝ) : ℝ := l1396 x * x 31

/-- `v_[186]` (HyQForwardKinJacReverse.cpp:1436). -/
def l1436 (x : Fin 36 → ℝ) : ℝ := l1435 x * l428 x

/-- `v_[190]` (HyQForwardKinJacReverse.cpp:1437). -/
def l1437 (x : Fin 36 → ℝ) : ℝ := l1433 x * l428 x

/-- `v_[126]` (HyQForwardKinJacReverse.cpp:1438). -/
def l1438 (x : Fin 36 → ℝ) : ℝ := l1435 x * l432 x

/-- `jac[303]` (HyQForwardKinJacReverse.cpp:1439). -/
def l1439 (x : Fin 36 → ℝ) : ℝ := 0 - (l1400 x * l426 x * (33 / 100) + l1402 x * l430 x * (33 / 100) + l1403 x * l430 x * (7 / 20) + (0 - l1399 x) * (2 / 25) + l1413 x * l426 x * (33 / 100) + l1415 x * l430 x * (33 / 100) + (l1416 x * l430 x + l1417 x * l426 x) * (33 / 100) + l1414 x * l426 x * (7 / 20) + l1419 x * l426 x * (33 / 100) + l1421 x * l430 x * (33 / 100) + l1422 x * l430 x * (7 / 20) + (0 - l1418 x) * (2 / 25)) * l1354 x + (l1426 x * l426 x * (33 / 100) + l1428 x * l430 x * (33 / 100) + l1429 x * l430 x * (7 / 20) + (0 - l1425 x) * (2 / 25) + l1431 x * l426 x *  - (33 / 100) + l1432 x * l430 x * (33 / 100) + l1430 x * l430 x * (7 / 20) + l1430 x * (2 / 25) + l1434 x * l426 x * (33 / 100) + l1436 x * l430 x * (33 / 100) + (l1437 x * l430 x + l1438 x * l426 x) * (33 / 100) + l1435 x * l426 x * (7 / 20)) * l1362 x

/-- `v_[453]` (HyQForwardKinJacReverse.cpp:1440). -/
def l1440 (x : Fin 36 → ℝ) : ℝ := l602 x * l585 x

/-- `jac[544]` (HyQForwardKinJacReverse.cpp:1441). -/
def l1441 (x : Fin 36 → ℝ) : ℝ := 1 - l1391 x - l1440 x

/-- `jac[569]` (HyQForwardKinJacReverse.cpp:1442). -/
def l1442 (x : Fin 36 → ℝ) : ℝ := 1 - l1392 x - l1440 x

/-- `v_[453]` (HyQForwardKinJacReverse.cpp:1443). -/
def l1443 (x : Fin 36 → ℝ) : ℝ := 0 - l1441 x

/-- `v_[243]` (HyQForwardKinJacReverse.cpp:1444). -/
def l1444 (x : Fin 36 → ℝ) : ℝ := l1397 x * x 19 + l1443 x * x 18

/-- `v_[417]` (HyQForwardKinJacReverse.cpp:1445). -/
def l1445 (x : Fin 36 → ℝ) : ℝ := l1444 x * l527 x

/-- `v_[118]` (HyQForwardKinJacReverse.cpp:1446). -/
def l1446 (x : Fin 36 → ℝ) : ℝ := 0 - l1444 x

/-- `v_[370]` (HyQForwardKinJacReverse.cpp:1447). -/
def l1447 (x : Fin 36 → ℝ) : ℝ := l1446 x * l432 x

/-- `v_[114]` (HyQForwardKinJacReverse.cpp:1448). -/
def l1448 (x : Fin 36 → ℝ) : ℝ := 0 - l1444 x

/-- `v_[442]` (HyQForwardKinJacReverse.cpp:1449). -/
def l1449 (x : Fin 36 → ℝ) : ℝ := l548 x * l574 x

/-- `v_[465]` (HyQForwardKinJacReverse.cpp:1450). -/
def l1450 (x : Fin 36 → ℝ) : ℝ := l602 x * l586 x

/-- `jac[568]` (HyQForwardKinJacReverse.cpp:1451). -/
def l1451 (x : Fin 36 → ℝ) : ℝ := l1449 x - l1450 x

/-- `jac[448]` (HyQForwardKinJacReverse.cpp:1452). -/
def l1452 (x : Fin 36 → ℝ) : ℝ := l1443 x * l570 x + l1451 x * l531 x

/-- `jac[545]` (HyQForwardKinJacReverse.cpp:1453). -/
def l1453 (x : Fin 36 → ℝ) : ℝ := l1449 x + l1450 x

/-- `jac[736]` (HyQForwardKinJacReverse.cpp:1454). -/
def l1454 (x : Fin 36 → ℝ) : ℝ := l1451 x * l524 x + l1441 x * l564 x

/-- `jac[737]` (HyQForwardKinJacReverse.cpp:1455). -/
def l1455 (x : Fin 36 → ℝ) : ℝ := l1442 x * l524 x + l1453 x * l564 x

/-- `jac[760]` (HyQForwardKinJacReverse.cpp:1456). -/
def l1456 (x : Fin 36 → ℝ) : ℝ := l1451 x * l518 x + l1441 x * l558 x + l1397 x * l582 x

/-- `jac[761]` (HyQForwardKinJacReverse.cpp:1457). -/
def l1457 (x : Fin 36 → ℝ) : ℝ := l1442 x * l518 x + l1453 x * l558 x + l1408 x * l582 x

/-- `jac[784]` (HyQForwardKinJacReverse.cpp:1458). -/
def l1458 (x : Fin 36 → ℝ) : ℝ := l1451 x * l513 x + l1441 x * l553 x + l1397 x * l579 x

/-- `jac[785]` (HyQForwardKinJacReverse.cpp:1459). -/
def l1459 (x : Fin 36 → ℝ) : ℝ := l1442 x * l513 x + l1453 x * l553 x + l1408 x * l579 x

/-- `v_[447]` (HyQForwardKinJacReverse.cpp:1460). -/
def l1460 (x : Fin 36 → ℝ) : ℝ := l1451 x * x 32

/-- `v_[423]` (HyQForwardKinJacReverse.cpp:1461). -/
def l1461 (x : Fin 36 → ℝ) : ℝ := l1460 x * l432 x

/-- `v_[333]` (HyQForwardKinJacReverse.cpp:1462). -/
def l1462 (x : Fin 36 → ℝ) : ℝ := l1451 x * x 31

/-- `v_[450]` (HyQForwardKinJacReverse.cpp:1463). -/
def l1463 (x : Fin 36 → ℝ) : ℝ := l1462 x * l428 x

/-- `v_[427]` (HyQForwardKinJacReverse.cpp:1464). -/
def l1464 (x : Fin 36 → ℝ) : ℝ := l1460 x * l428 x

/-- `v_[388]` (HyQForwardKinJacReverse.cpp:1465). -/
def l1465 (x : Fin 36 → ℝ) : ℝ := l1462 x * l432 x

/-- `v_[433]` (HyQForwardKinJacReverse.cpp:1466). -/
def l1466 (x : Fin 36 → ℝ) : ℝ := l1441 x * x 30

/-- `v_[394]` (HyQForwardKinJacReverse.cpp:1467). -/
def l1467 (x : Fin 36 → ℝ) : ℝ := l1466 x * l428 x

/-- `v_[465]` (HyQForwardKinJacReverse.cpp:1468). -/
def l1468 (x : Fin 36 → ℝ) : ℝ := 0 - l1466 x

/-- `v_[442]` (HyQForwardKinJacReverse.cpp:1469). -/
def l1469 (x : Fin 36 → ℝ) : ℝ := l1468 x * l432 x

/-- `v_[453]` (HyQForwardKinJacReverse.cpp:1470). -/
def l1470 (x : Fin 36 → ℝ) : ℝ := 0 - l1466 x

/-- `v_[454]` (HyQForwardKinJacReverse.cpp:1471). -/
def l1471 (x : Fin 36 → ℝ) : ℝ := 0 - l1397 x

/-- `jac[496]` (HyQForwardKinJacReverse.cpp:1472). -/
def l1472 (x : Fin 36 → ℝ) : ℝ := l1471 x * l531 x + l1441 x * l534 x

/-- `v_[454]` (HyQForwardKinJacReverse.cpp:1473). -/
def l1473 (x : Fin 36 → ℝ) : ℝ := l1471 x * x 20 + l1451 x * x 18

/-- `v_[418]` (HyQForwardKinJacReverse.cpp:1474). -/
def l1474 (x : Fin 36 → ℝ) : ℝ := l1473 x * l527 x

/-- `v_[123]` (HyQForwardKinJacReverse.cpp:1475). -/
def l1475 (x : Fin 36 → ℝ) : ℝ := 0 - l1473 x

/-- `v_[467]` (HyQForwardKinJacReverse.cpp:1476). -/
def l1476 (x : Fin 36 → ℝ) : ℝ := l1475 x * l432 x

/-- `v_[251]` (HyQForwardKinJacReverse.cpp:1477). -/
def l1477 (x : Fin 36 → ℝ) : ℝ := 0 - l1473 x

/-- `v_[471]` (HyQForwardKinJacReverse.cpp:1478). -/
def l1478 (x : Fin 36 → ℝ) : ℝ := l1451 x * x 30

/-- `v_[440]` (HyQForwardKinJacReverse.cpp:1479). -/
def l1479 (x : Fin 36 → ℝ) : ℝ := l1478 x * l428 x

/-- `v_[48]` (HyQForwardKinJacReverse.cpp:1480). -/
def l1480 (x : Fin 36 → ℝ) : ℝ := l1478 x * l432 x

/-- `v_[70]` (HyQForwardKinJacReverse.cpp:1481). -/
def l1481 (x : Fin 36 → ℝ) : ℝ := l1441 x * x 32

/-- `v_[107]` (HyQForwardKinJacReverse.cpp:1482). -/
def l1482 (x : Fin 36 → ℝ) : ℝ := l1481 x * l432 x

/-- `v_[283]` (HyQForwardKinJacReverse.cpp:1483). -/
def l1483 (x : Fin 36 → ℝ) : ℝ := l1441 x * x 31

/-- `v_[103]` (HyQForwardKinJacReverse.cpp:1484). -/
def l1484 (x : Fin 36 → ℝ) : ℝ := l1483 x * l428 x

/-- `v_[109]` (HyQForwardKinJacReverse.cpp:1485). -/
def l1485 (x : Fin 36 → ℝ) : ℝ := l1481 x * l428 x

/-- `v_[23]` (HyQForwardKinJacReverse.cpp:1486). -/
def l1486 (x : Fin 36 → ℝ) : ℝ := l1483 x * l432 x

/-- `jac[304]` (HyQForwardKinJacReverse.cpp:1487). -/
def l1487 (x : Fin 36 → ℝ) : ℝ := 0 - (l1445 x * l426 x * (33 / 100) + l1447 x * l430 x * (33 / 100) + l1448 x * l430 x * (7 / 20) + (0 - l1444 x) * (2 / 25) + l1461 x * l426 x * (33 / 100) + l1463 x * l430 x * (33 / 100) + (l1464 x * l430 x + l1465 x * l426 x) * (33 / 100) + l1462 x * l426 x * (7 / 20) + l1467 x * l426 x * (33 / 100) + l1469 x * l430 x * (33 / 100) + l1470 x * l430 x * (7 / 20) + (0 - l1466 x) * (2 / 25)) * l1354 x + (l1474 x * l426 x * (33 / 100) + l1476 x * l430 x * (33 / 100) + l1477 x * l430 x * (7 / 20) + (0 - l1473 x) * (2 / 25) + l1479 x * l426 x *  - (33 / 100) + l1480 x * l430 x * (33 / 100) + l1478 x * l430 x * (7 / 20) + l1478 x * (2 / 25) + l1482 x * l426 x * (33 / 100) + l1484 x * l430 x * (33 / 100) + (l1485 x * l430 x + l1486 x * l426 x) * (33 / 100) + l1483 x * l426 x * (7 / 20)) * l1362 x

/-- `v_[634]` (HyQForwardKinJacReverse.cpp:1488). -/
def l1488 (x : Fin 36 → ℝ) : ℝ := 0 - l1453 x

/-- `v_[198]` (HyQForwardKinJacReverse.cpp:1489). -/
def l1489 (x : Fin 36 → ℝ) : ℝ := l1408 x * x 19 + l1488 x * x 18

/-- `v_[127]` (HyQForwardKinJacReverse.cpp:1490). -/
def l1490 (x : Fin 36 → ℝ) : ℝ := l1489 x * l527 x

/-- `v_[209]` (HyQForwardKinJacReverse.cpp:1491). -/
def l1491 (x : Fin 36 → ℝ) : ℝ := 0 - l1489 x

/-- `v_[194]` (HyQForwardKinJacReverse.cpp:1492). -/
def l1492 (x : Fin 36 → ℝ) : ℝ := l1491 x * l432 x

/-- `v_[193]` (HyQForwardKinJacReverse.cpp:1493). -/
def l1493 (x : Fin 36 → ℝ) : ℝ := 0 - l1489 x

/-- `jac[449]` (HyQForwardKinJacReverse.cpp:1494). -/
def l1494 (x : Fin 36 → ℝ) : ℝ := l1488 x * l570 x + l1442 x * l531 x

/-- `v_[634]` (HyQForwardKinJacReverse.cpp:1495). -/
def l1495 (x : Fin 36 → ℝ) : ℝ := l1442 x * x 32

/-- `v_[185]` (HyQForwardKinJacReverse.cpp:1496). -/
def l1496 (x : Fin 36 → ℝ) : ℝ := l1495 x * l432 x

/-- `v_[183]` (HyQForwardKinJacReverse.cpp:1497). -/
def l1497 (x : Fin 36 → ℝ) : ℝ := l1442 x * x 31

/-- `v_[164]` (HyQForwardKinJacReverse.cpp:1498). -/
def l1498 (x : Fin 36 → ℝ) : ℝ := l1497 x * l428 x

/-- `v_[92]` (HyQForwardKinJacReverse.cpp:1499). -/
def l1499 (x : Fin 36 → ℝ) : ℝ := l1495 x * l428 x

/-- `v_[245]` (HyQForwardKinJacReverse.cpp:1500). -/
def l1500 (x : Fin 36 → ℝ) : ℝ := l1497 x * l432 x

/-- `v_[316]` (HyQForwardKinJacReverse.cpp:1501). -/
def l1501 (x : Fin 36 → ℝ) : ℝ := l1453 x * x 30

/-- `v_[197]` (HyQForwardKinJacReverse.cpp:1502). -/
def l1502 (x : Fin 36 → ℝ) : ℝ := l1501 x * l428 x

/-- `v_[380]` (HyQForwardKinJacReverse.cpp:1503). -/
def l1503 (x : Fin 36 → ℝ) : ℝ := 0 - l1501 x

/-- `v_[369]` (HyQForwardKinJacReverse.cpp:1504). -/
def l1504 (x : Fin 36 → ℝ) : ℝ := l1503 x * l432 x

/-- `v_[367]` (HyQForwardKinJacReverse.cpp:1505). -/
def l1505 (x : Fin 36 → ℝ) : ℝ := 0 - l1501 x

/-- `v_[191]` (HyQForwardKinJacReverse.cpp:1506). -/
def l1506 (x : Fin 36 → ℝ) : ℝ := 0 - l1408 x

/-- `jac[497]` (HyQForwardKinJacReverse.cpp:1507). -/
def l1507 (x : Fin 36 → ℝ) : ℝ := l1506 x * l531 x + l1453 x * l534 x

/-- `v_[191]` (HyQForwardKinJacReverse.cpp:1508). -/
def l1508 (x : Fin 36 → ℝ) : ℝ := l1506 x * x 20 + l1442 x * x 18

/-- `v_[401]` (HyQForwardKinJacReverse.cpp:1509). -/
def l1509 (x : Fin 36 → ℝ) : ℝ := l1508 x * l527 x

/-- `v_[173]` (HyQForwardKinJacReverse.cpp:1510). -/
def l1510 (x : Fin 36 → ℝ) : ℝ := 0 - l1508 x

/-- `v_[382]` (HyQForwardKinJacReverse.cpp:1511). -/
def l1511 (x : Fin 36 → ℝ) : ℝ := l1510 x * l432 x

/-- `v_[444]` (HyQForwardKinJacReverse.cpp:1512). -/
def l1512 (x : Fin 36 → ℝ) : ℝ := 0 - l1508 x

/-- `v_[574]` (HyQForwardKinJacReverse.cpp:1513). -/
def l1513 (x : Fin 36 → ℝ) : ℝ := l1442 x * x 30

/-- `v_[630]` (HyQForwardKinJacReverse.cpp:1514). -/
def l1514 (x : Fin 36 → ℝ) : ℝ := l1513 x * l428 x

/-- `v_[627]` (HyQForwardKinJacReverse.cpp:1515). -/
def l1515 (x : Fin 36 → ℝ) : ℝ := l1513 x * l432 x

/-- `v_[618]` (HyQForwardKinJacReverse.cpp:1516). -/
def l1516 (x : Fin 36 → ℝ) : ℝ := l1453 x * x 32

/-- `v_[40]` (HyQForwardKinJacReverse.cpp:1517). -/
def l1517 (x : Fin 36 → ℝ) : ℝ := l1516 x * l432 x

/-- `v_[599]` (HyQForwardKinJacReverse.cpp:1518). -/
def l1518 (x : Fin 36 → ℝ) : ℝ := l1453 x * x 31

/-- `v_[3]` (HyQForwardKinJacReverse.cpp:1519). -/
def l1519 (x : Fin 36 → ℝ) : ℝ := l1518 x * l428 x

/-- `v_[26]` (HyQForwardKinJacReverse.cpp:1520). -/
def l1520 (x : Fin 36 → ℝ) : ℝ := l1516 x * l428 x

/-- `v_[241]` (HyQForwardKinJacReverse.cpp:1521). -/
def l1521 (x : Fin 36 → ℝ) : ℝ := l1518 x * l432 x

/-- `jac[305]` (HyQForwardKinJacReverse.cpp:1522). -/
def l1522 (x : Fin 36 → ℝ) : ℝ := 0 - (l1490 x * l426 x * (33 / 100) + l1492 x * l430 x * (33 / 100) + l1493 x * l430 x * (7 / 20) + (0 - l1489 x) * (2 / 25) + l1496 x * l426 x * (33 / 100) + l1498 x * l430 x * (33 / 100) + (l1499 x * l430 x + l1500 x * l426 x) * (33 / 100) + l1497 x * l426 x * (7 / 20) + l1502 x * l426 x * (33 / 100) + l1504 x * l430 x * (33 / 100) + l1505 x * l430 x * (7 / 20) + (0 - l1501 x) * (2 / 25)) * l1354 x + (l1509 x * l426 x * (33 / 100) + l1511 x * l430 x * (33 / 100) + l1512 x * l430 x * (7 / 20) + (0 - l1508 x) * (2 / 25) + l1514 x * l426 x *  - (33 / 100) + l1515 x * l430 x * (33 / 100) + l1513 x * l430 x * (7 / 20) + l1513 x * (2 / 25) + l1517 x * l426 x * (33 / 100) + l1519 x * l430 x * (33 / 100) + (l1520 x * l430 x + l1521 x * l426 x) * (33 / 100) + l1518 x * l426 x * (7 / 20)) * l1362 x

/-- `v_[350]` (HyQForwardKinJacReverse.cpp:1523). -/
def l1523 (x : Fin 36 → ℝ) : ℝ := 1 - l1371 x - l1379 x

/-- `v_[339]` (HyQForwardKinJacReverse.cpp:1524). -/
def l1524 (x : Fin 36 → ℝ) : ℝ := Real.sin (x 13)

/-- `v_[492]` (HyQForwardKinJacReverse.cpp:1525). -/
def l1525 (x : Fin 36 → ℝ) : ℝ := 0 - l1523 x

/-- `v_[511]` (HyQForwardKinJacReverse.cpp:1526). -/
def l1526 (x : Fin 36 → ℝ) : ℝ := Real.cos (x 13)

/-- `jac[324]` (HyQForwardKinJacReverse.cpp:1527). -/
def l1527 (x : Fin 36 → ℝ) : ℝ := 0 - (l1352 x * l429 x + l1353 x * l433 x + l1360 x * l451 x + l1361 x * l453 x + l1523 x * l428 x *  - (33 / 100)) * l1524 x + (l1350 x * l425 x + l1358 x * l449 x + l1525 x * l432 x * (33 / 100) + (0 - l1523 x) * (7 / 20)) * l1526 x

/-- `v_[623]` (HyQForwardKinJacReverse.cpp:1528). -/
def l1528 (x : Fin 36 → ℝ) : ℝ := l1355 x + l1356 x

/-- `v_[34]` (HyQForwardKinJacReverse.cpp:1529). -/
def l1529 (x : Fin 36 → ℝ) : ℝ := 0 - l1528 x

/-- `jac[325]` (HyQForwardKinJacReverse.cpp:1530). -/
def l1530 (x : Fin 36 → ℝ) : ℝ := 0 - (l1369 x * l429 x + l1370 x * l433 x + l1376 x * l451 x + l1377 x * l453 x + l1528 x * l428 x *  - (33 / 100)) * l1524 x + (l1367 x * l425 x + l1374 x * l449 x + l1529 x * l432 x * (33 / 100) + (0 - l1528 x) * (7 / 20)) * l1526 x

/-- `v_[379]` (HyQForwardKinJacReverse.cpp:1531). -/
def l1531 (x : Fin 36 → ℝ) : ℝ := l1347 x - l1348 x

/-- `v_[180]` (HyQForwardKinJacReverse.cpp:1532). -/
def l1532 (x : Fin 36 → ℝ) : ℝ := 0 - l1531 x

/-- `jac[326]` (HyQForwardKinJacReverse.cpp:1533). -/
def l1533 (x : Fin 36 → ℝ) : ℝ := 0 - (l1383 x * l429 x + l1384 x * l433 x + l1388 x * l451 x + l1389 x * l453 x + l1531 x * l428 x *  - (33 / 100)) * l1524 x + (l1381 x * l425 x + l1386 x * l449 x + l1532 x * l432 x * (33 / 100) + (0 - l1531 x) * (7 / 20)) * l1526 x

/-- `v_[260]` (HyQForwardKinJacReverse.cpp:1534). -/
def l1534 (x : Fin 36 → ℝ) : ℝ := 0 - l1406 x

/-- `jac[471]` (HyQForwardKinJacReverse.cpp:1535). -/
def l1535 (x : Fin 36 → ℝ) : ℝ := l1393 x * l570 x + l1534 x * l534 x

/-- `v_[260]` (HyQForwardKinJacReverse.cpp:1536). -/
def l1536 (x : Fin 36 → ℝ) : ℝ := l1396 x * x 20 + l1534 x * x 19

/-- `v_[262]` (HyQForwardKinJacReverse.cpp:1537). -/
def l1537 (x : Fin 36 → ℝ) : ℝ := l1393 x * x 32

/-- `v_[521]` (HyQForwardKinJacReverse.cpp:1538). -/
def l1538 (x : Fin 36 → ℝ) : ℝ := 0 - l1537 x

/-- `v_[266]` (HyQForwardKinJacReverse.cpp:1539). -/
def l1539 (x : Fin 36 → ℝ) : ℝ := l1393 x * x 31

/-- `v_[269]` (HyQForwardKinJacReverse.cpp:1540). -/
def l1540 (x : Fin 36 → ℝ) : ℝ := 0 - l1539 x

/-- `v_[349]` (HyQForwardKinJacReverse.cpp:1541). -/
def l1541 (x : Fin 36 → ℝ) : ℝ := 0 - l1536 x

/-- `jac[327]` (HyQForwardKinJacReverse.cpp:1542). -/
def l1542 (x : Fin 36 → ℝ) : ℝ := 0 - (l1402 x * l567 x + l1403 x * l569 x + l1428 x * l528 x + l1429 x * l530 x + l1536 x * l527 x *  - (33 / 100) + l1416 x * l509 x + l1415 x * l515 x + l1432 x * l519 x + l1430 x * l523 x + l1437 x * l549 x + l1436 x * l555 x + l1421 x * l561 x + l1422 x * l563 x + l1538 x * l432 x * (33 / 100) + l1540 x * l432 x * (33 / 100) + (0 - l1539 x) * (7 / 20)) * l1524 x + (l1400 x * l565 x + l1426 x * l525 x + l1541 x * l432 x * (33 / 100) + (0 - l1536 x) * (7 / 20) + l1413 x * l511 x + l1417 x * l509 x + l1414 x * l517 x + l1431 x * l521 x + l1434 x * l551 x + l1438 x * l549 x + l1435 x * l557 x + l1419 x * l559 x + l1537 x * l428 x * (33 / 100) + l1539 x * l428 x * (33 / 100)) * l1526 x

/-- `v_[126]` (HyQForwardKinJacReverse.cpp:1543). -/
def l1543 (x : Fin 36 → ℝ) : ℝ := 0 - l1451 x

/-- `jac[472]` (HyQForwardKinJacReverse.cpp:1544). -/
def l1544 (x : Fin 36 → ℝ) : ℝ := l1397 x * l570 x + l1543 x * l534 x

/-- `v_[126]` (HyQForwardKinJacReverse.cpp:1545). -/
def l1545 (x : Fin 36 → ℝ) : ℝ := l1441 x * x 20 + l1543 x * x 19

/-- `v_[190]` (HyQForwardKinJacReverse.cpp:1546). -/
def l1546 (x : Fin 36 → ℝ) : ℝ := l1397 x * x 32

/-- `v_[186]` (HyQForwardKinJacReverse.cpp:1547). -/
def l1547 (x : Fin 36 → ℝ) : ℝ := 0 - l1546 x

/-- `v_[17]` (HyQForwardKinJacReverse.cpp:1548). -/
def l1548 (x : Fin 36 → ℝ) : ℝ := l1397 x * x 31

/-- `v_[174]` (HyQForwardKinJacReverse.cpp:1549). -/
def l1549 (x : Fin 36 → ℝ) : ℝ := 0 - l1548 x

/-- `v_[273]` (HyQForwardKinJacReverse.cpp:1550). -/
def l1550 (x : Fin 36 → ℝ) : ℝ := 0 - l1545 x

/-- `jac[328]` (HyQForwardKinJacReverse.cpp:1551). -/
def l1551 (x : Fin 36 → ℝ) : ℝ := 0 - (l1447 x * l567 x + l1448 x * l569 x + l1476 x * l528 x + l1477 x * l530 x + l1545 x * l527 x *  - (33 / 100) + l1464 x * l509 x + l1463 x * l515 x + l1480 x * l519 x + l1478 x * l523 x + l1485 x * l549 x + l1484 x * l555 x + l1469 x * l561 x + l1470 x * l563 x + l1547 x * l432 x * (33 / 100) + l1549 x * l432 x * (33 / 100) + (0 - l1548 x) * (7 / 20)) * l1524 x + (l1445 x * l565 x + l1474 x * l525 x + l1550 x * l432 x * (33 / 100) + (0 - l1545 x) * (7 / 20) + l1461 x * l511 x + l1465 x * l509 x + l1462 x * l517 x + l1479 x * l521 x + l1482 x * l551 x + l1486 x * l549 x + l1483 x * l557 x + l1467 x * l559 x + l1546 x * l428 x * (33 / 100) + l1548 x * l428 x * (33 / 100)) * l1526 x

/-- `v_[23]` (HyQForwardKinJacReverse.cpp:1552). -/
def l1552 (x : Fin 36 → ℝ) : ℝ := 0 - l1442 x

/-- `jac[473]` (HyQForwardKinJacReverse.cpp:1553). -/
def l1553 (x : Fin 36 → ℝ) : ℝ := l1408 x * l570 x + l1552 x * l534 x

/-- `v_[23]` (HyQForwardKinJacReverse.cpp:1554). -/
def l1554 (x : Fin 36 → ℝ) : ℝ := l1453 x * x 20 + l1552 x * x 19

/-- `v_[246]` (HyQForwardKinJacReverse.cpp:1555). -/
def l1555 (x : Fin 36 → ℝ) : ℝ := l1408 x * x 32

/-- `v_[404]` (HyQForwardKinJacReverse.cpp:1556). -/
def l1556 (x : Fin 36 → ℝ) : ℝ := 0 - l1555 x

/-- `v_[109]` (HyQForwardKinJacReverse.cpp:1557). -/
def l1557 (x : Fin 36 → ℝ) : ℝ := l1408 x * x 31

/-- `v_[103]` (HyQForwardKinJacReverse.cpp:1558). -/
def l1558 (x : Fin 36 → ℝ) : ℝ := 0 - l1557 x

/-- `v_[107]` (HyQForwardKinJacReverse.cpp:1559). -/
def l1559 (x : Fin 36 → ℝ) : ℝ := 0 - l1554 x

/-- `jac[329]` (HyQForwardKinJacReverse.cpp:1560). -/
def l1560 (x : Fin 36 → ℝ) : ℝ := 0 - (l1492 x * l567 x + l1493 x * l569 x + l1511 x * l528 x + l1512 x * l530 x + l1554 x * l527 x *  - (33 / 100) + l1499 x * l509 x + l1498 x * l515 x + l1515 x * l519 x + l1513 x * l523 x + l1520 x * l549 x + l1519 x * l555 x + l1504 x * l561 x + l1505 x * l563 x + l1556 x * l432 x * (33 / 100) + l1558 x * l432 x * (33 / 100) + (0 - l1557 x) * (7 / 20)) * l1524 x + (l1490 x * l565 x + l1509 x * l525 x + l1559 x * l432 x * (33 / 100) + (0 - l1554 x) * (7 / 20) + l1496 x * l511 x + l1500 x * l509 x + l1497 x * l517 x + l1514 x * l521 x + l1517 x * l551 x + l1521 x * l549 x + l1518 x * l557 x + l1502 x * l559 x + l1555 x * l428 x * (33 / 100) + l1557 x * l428 x * (33 / 100)) * l1526 x

/-- `v_[511]` (HyQForwardKinJacReverse.cpp:1561). -/
def l1561 (x : Fin 36 → ℝ) : ℝ := Real.sin (x 14)

/-- `v_[339]` (HyQForwardKinJacReverse.cpp:1562). -/
def l1562 (x : Fin 36 → ℝ) : ℝ := Real.cos (x 14)

/-- `jac[348]` (HyQForwardKinJacReverse.cpp:1563). -/
def l1563 (x : Fin 36 → ℝ) : ℝ := 0 - (l1351 x * l431 x + l1359 x * l452 x + l1525 x * l461 x) * l1561 x + (l1349 x * l427 x + l1357 x * l450 x + l1523 x * l460 x) * l1562 x

/-- `jac[349]` (HyQForwardKinJacReverse.cpp:1564). -/
def l1564 (x : Fin 36 → ℝ) : ℝ := 0 - (l1368 x * l431 x + l1375 x * l452 x + l1529 x * l461 x) * l1561 x + (l1366 x * l427 x + l1373 x * l450 x + l1528 x * l460 x) * l1562 x

/-- `jac[350]` (HyQForwardKinJacReverse.cpp:1565). -/
def l1565 (x : Fin 36 → ℝ) : ℝ := 0 - (l1382 x * l431 x + l1387 x * l452 x + l1532 x * l461 x) * l1561 x + (l1380 x * l427 x + l1385 x * l450 x + l1531 x * l460 x) * l1562 x

/-- `v_[180]` (HyQForwardKinJacReverse.cpp:1566). -/
def l1566 (x : Fin 36 → ℝ) : ℝ := Real.cos (x 14)

/-- `jac[351]` (HyQForwardKinJacReverse.cpp:1567). -/
def l1567 (x : Fin 36 → ℝ) : ℝ := (l1399 x * l566 x + l1425 x * l526 x + l1536 x * l532 x) * l1566 x - (l1401 x * l568 x + l1427 x * l529 x + l1541 x * l533 x + l1412 x * l512 x + l1414 x * l514 x + l1430 x * l520 x + l1433 x * l552 x + l1435 x * l554 x + l1420 x * l562 x + l1538 x * l578 x + l1540 x * l581 x) * l1561 x + (l1412 x * l510 x + l1414 x * l516 x + l1430 x * l522 x + l1433 x * l550 x + l1435 x * l556 x + l1418 x * l560 x + l1537 x * l577 x + l1539 x * l580 x) * l1562 x

/-- `jac[352]` (HyQForwardKinJacReverse.cpp:1568). -/
def l1568 (x : Fin 36 → ℝ) : ℝ := (l1444 x * l566 x + l1473 x * l526 x + l1545 x * l532 x) * l1566 x - (l1446 x * l568 x + l1475 x * l529 x + l1550 x * l533 x + l1460 x * l512 x + l1462 x * l514 x + l1478 x * l520 x + l1481 x * l552 x + l1483 x * l554 x + l1468 x * l562 x + l1547 x * l578 x + l1549 x * l581 x) * l1561 x + (l1460 x * l510 x + l1462 x * l516 x + l1478 x * l522 x + l1481 x * l550 x + l1483 x * l556 x + l1466 x * l560 x + l1546 x * l577 x + l1548 x * l580 x) * l1562 x

/-- `jac[353]` (HyQForwardKinJacReverse.cpp:1569). -/
def l1569 (x : Fin 36 → ℝ) : ℝ := (l1489 x * l566 x + l1508 x * l526 x + l1554 x * l532 x) * l1566 x - (l1491 x * l568 x + l1510 x * l529 x + l1559 x * l533 x + l1495 x * l512 x + l1497 x * l514 x + l1513 x * l520 x + l1516 x * l552 x + l1518 x * l554 x + l1503 x * l562 x + l1556 x * l578 x + l1558 x * l581 x) * l1561 x + (l1495 x * l510 x + l1497 x * l516 x + l1513 x * l522 x + l1516 x * l550 x + l1518 x * l556 x + l1501 x * l560 x + l1555 x * l577 x + l1557 x * l580 x) * l1562 x

/-- `v_[180]` (HyQForwardKinJacReverse.cpp:1570). -/
def l1570 (x : Fin 36 → ℝ) : ℝ := l653 x * l670 x

/-- `v_[339]` (HyQForwardKinJacReverse.cpp:1571). -/
def l1571 (x : Fin 36 → ℝ) : ℝ := l664 x * l671 x

/-- `v_[511]` (HyQForwardKinJacReverse.cpp:1572). -/
def l1572 (x : Fin 36 → ℝ) : ℝ := l1570 x + l1571 x

/-- `v_[107]` (HyQForwardKinJacReverse.cpp:1573). -/
def l1573 (x : Fin 36 → ℝ) : ℝ := l1572 x * l634 x

/-- `v_[103]` (HyQForwardKinJacReverse.cpp:1574). -/
def l1574 (x : Fin 36 → ℝ) : ℝ := 0 - l1572 x

/-- `v_[109]` (HyQForwardKinJacReverse.cpp:1575). -/
def l1575 (x : Fin 36 → ℝ) : ℝ := l1574 x * l638 x

/-- `v_[404]` (HyQForwardKinJacReverse.cpp:1576). -/
def l1576 (x : Fin 36 → ℝ) : ℝ := 0 - l1572 x

/-- `v_[246]` (HyQForwardKinJacReverse.cpp:1577). -/
def l1577 (x : Fin 36 → ℝ) : ℝ := Real.sin (x 15)

/-- `v_[23]` (HyQForwardKinJacReverse.cpp:1578). -/
def l1578 (x : Fin 36 → ℝ) : ℝ := l664 x * l670 x

/-- `v_[599]` (HyQForwardKinJacReverse.cpp:1579). -/
def l1579 (x : Fin 36 → ℝ) : ℝ := l653 x * l671 x

/-- `v_[618]` (HyQForwardKinJacReverse.cpp:1580). -/
def l1580 (x : Fin 36 → ℝ) : ℝ := l1578 x - l1579 x

/-- `v_[574]` (HyQForwardKinJacReverse.cpp:1581). -/
def l1581 (x : Fin 36 → ℝ) : ℝ := l1580 x * l634 x

/-- `v_[173]` (HyQForwardKinJacReverse.cpp:1582). -/
def l1582 (x : Fin 36 → ℝ) : ℝ := l1580 x * l638 x

/-- `v_[191]` (HyQForwardKinJacReverse.cpp:1583). -/
def l1583 (x : Fin 36 → ℝ) : ℝ := Real.cos (x 15)

/-- `jac[378]` (HyQForwardKinJacReverse.cpp:1584). -/
def l1584 (x : Fin 36 → ℝ) : ℝ := 0 - (l1573 x * l632 x * (33 / 100) + l1575 x * l636 x * (33 / 100) + l1576 x * l636 x * (7 / 20) + (0 - l1572 x) * (2 / 25)) * l1577 x + (l1581 x * l632 x *  - (33 / 100) + l1582 x * l636 x * (33 / 100) + l1580 x * l636 x * (7 / 20) + l1580 x * (2 / 25)) * l1583 x

/-- `v_[380]` (HyQForwardKinJacReverse.cpp:1585). -/
def l1585 (x : Fin 36 → ℝ) : ℝ := l653 x * l663 x

/-- `v_[517]` (HyQForwardKinJacReverse.cpp:1586). -/
def l1586 (x : Fin 36 → ℝ) : ℝ := l687 x * l671 x

/-- `v_[316]` (HyQForwardKinJacReverse.cpp:1587). -/
def l1587 (x : Fin 36 → ℝ) : ℝ := l1585 x - l1586 x

/-- `v_[183]` (HyQForwardKinJacReverse.cpp:1588). -/
def l1588 (x : Fin 36 → ℝ) : ℝ := l1587 x * l634 x

/-- `v_[634]` (HyQForwardKinJacReverse.cpp:1589). -/
def l1589 (x : Fin 36 → ℝ) : ℝ := 0 - l1587 x

/-- `v_[209]` (HyQForwardKinJacReverse.cpp:1590). -/
def l1590 (x : Fin 36 → ℝ) : ℝ := l1589 x * l638 x

/-- `v_[198]` (HyQForwardKinJacReverse.cpp:1591). -/
def l1591 (x : Fin 36 → ℝ) : ℝ := 0 - l1587 x

/-- `v_[499]` (HyQForwardKinJacReverse.cpp:1592). -/
def l1592 (x : Fin 36 → ℝ) : ℝ := l653 x * l652 x

/-- `v_[528]` (HyQForwardKinJacReverse.cpp:1593). -/
def l1593 (x : Fin 36 → ℝ) : ℝ := l687 x * l670 x

/-- `v_[516]` (HyQForwardKinJacReverse.cpp:1594). -/
def l1594 (x : Fin 36 → ℝ) : ℝ := 1 - l1592 x - l1593 x

/-- `v_[498]` (HyQForwardKinJacReverse.cpp:1595). -/
def l1595 (x : Fin 36 → ℝ) : ℝ := l1594 x * l634 x

/-- `v_[449]` (HyQForwardKinJacReverse.cpp:1596). -/
def l1596 (x : Fin 36 → ℝ) : ℝ := l1594 x * l638 x

/-- `jac[379]` (HyQForwardKinJacReverse.cpp:1597). -/
def l1597 (x : Fin 36 → ℝ) : ℝ := 0 - (l1588 x * l632 x * (33 / 100) + l1590 x * l636 x * (33 / 100) + l1591 x * l636 x * (7 / 20) + (0 - l1587 x) * (2 / 25)) * l1577 x + (l1595 x * l632 x *  - (33 / 100) + l1596 x * l636 x * (33 / 100) + l1594 x * l636 x * (7 / 20) + l1594 x * (2 / 25)) * l1583 x

/-- `v_[510]` (HyQForwardKinJacReverse.cpp:1598). -/
def l1598 (x : Fin 36 → ℝ) : ℝ := l664 x * l663 x

/-- `v_[528]` (HyQForwardKinJacReverse.cpp:1599). -/
def l1599 (x : Fin 36 → ℝ) : ℝ := 1 - l1598 x - l1593 x

/-- `v_[509]` (HyQForwardKinJacReverse.cpp:1600). -/
def l1600 (x : Fin 36 → ℝ) : ℝ := l1599 x * l634 x

/-- `v_[448]` (HyQForwardKinJacReverse.cpp:1601). -/
def l1601 (x : Fin 36 → ℝ) : ℝ := 0 - l1599 x

/-- `v_[446]` (HyQForwardKinJacReverse.cpp:1602). -/
def l1602 (x : Fin 36 → ℝ) : ℝ := l1601 x * l638 x

/-- `v_[445]` (HyQForwardKinJacReverse.cpp:1603). -/
def l1603 (x : Fin 36 → ℝ) : ℝ := 0 - l1599 x

/-- `v_[517]` (HyQForwardKinJacReverse.cpp:1604). -/
def l1604 (x : Fin 36 → ℝ) : ℝ := l1585 x + l1586 x

/-- `v_[380]` (HyQForwardKinJacReverse.cpp:1605). -/
def l1605 (x : Fin 36 → ℝ) : ℝ := l1604 x * l634 x

/-- `v_[437]` (HyQForwardKinJacReverse.cpp:1606). -/
def l1606 (x : Fin 36 → ℝ) : ℝ := l1604 x * l638 x

/-- `jac[380]` (HyQForwardKinJacReverse.cpp:1607). -/
def l1607 (x : Fin 36 → ℝ) : ℝ := 0 - (l1600 x * l632 x * (33 / 100) + l1602 x * l636 x * (33 / 100) + l1603 x * l636 x * (7 / 20) + (0 - l1599 x) * (2 / 25)) * l1577 x + (l1605 x * l632 x *  - (33 / 100) + l1606 x * l636 x * (33 / 100) + l1604 x * l636 x * (7 / 20) + l1604 x * (2 / 25)) * l1583 x

/-- `v_[576]` (HyQForwardKinJacReverse.cpp:1608). -/
def l1608 (x : Fin 36 → ℝ) : ℝ := l753 x * l752 x

/-- `v_[435]` (HyQForwardKinJacReverse.cpp:1609). -/
def l1609 (x : Fin 36 → ℝ) : ℝ := l780 x * l779 x

/-- `jac[525]` (HyQForwardKinJacReverse.cpp:1610). -/
def l1610 (x : Fin 36 → ℝ) : ℝ := 1 - l1608 x - l1609 x

/-- `v_[431]` (HyQForwardKinJacReverse.cpp:1611). -/
def l1611 (x : Fin 36 → ℝ) : ℝ := l780 x * l790 x

/-- `v_[429]` (HyQForwardKinJacReverse.cpp:1612). -/
def l1612 (x : Fin 36 → ℝ) : ℝ := l753 x * l791 x

/-- `jac[549]` (HyQForwardKinJacReverse.cpp:1613). -/
def l1613 (x : Fin 36 → ℝ) : ℝ := l1611 x - l1612 x

/-- `jac[526]` (HyQForwardKinJacReverse.cpp:1614). -/
def l1614 (x : Fin 36 → ℝ) : ℝ := l1611 x + l1612 x

/-- `v_[429]` (HyQForwardKinJacReverse.cpp:1615). -/
def l1615 (x : Fin 36 → ℝ) : ℝ := 0 - l1613 x

/-- `v_[431]` (HyQForwardKinJacReverse.cpp:1616). -/
def l1616 (x : Fin 36 → ℝ) : ℝ := l1610 x * x 19 + l1615 x * x 18

/-- `v_[426]` (HyQForwardKinJacReverse.cpp:1617). -/
def l1617 (x : Fin 36 → ℝ) : ℝ := l1616 x * l634 x

/-- `v_[424]` (HyQForwardKinJacReverse.cpp:1618). -/
def l1618 (x : Fin 36 → ℝ) : ℝ := 0 - l1616 x

/-- `v_[422]` (HyQForwardKinJacReverse.cpp:1619). -/
def l1619 (x : Fin 36 → ℝ) : ℝ := l1618 x * l638 x

/-- `v_[420]` (HyQForwardKinJacReverse.cpp:1620). -/
def l1620 (x : Fin 36 → ℝ) : ℝ := 0 - l1616 x

/-- `v_[403]` (HyQForwardKinJacReverse.cpp:1621). -/
def l1621 (x : Fin 36 → ℝ) : ℝ := l753 x * l790 x

/-- `v_[602]` (HyQForwardKinJacReverse.cpp:1622). -/
def l1622 (x : Fin 36 → ℝ) : ℝ := l780 x * l791 x

/-- `jac[573]` (HyQForwardKinJacReverse.cpp:1623). -/
def l1623 (x : Fin 36 → ℝ) : ℝ := l1621 x + l1622 x

/-- `jac[453]` (HyQForwardKinJacReverse.cpp:1624). -/
def l1624 (x : Fin 36 → ℝ) : ℝ := l1615 x * l775 x + l1623 x * l736 x

/-- `jac[527]` (HyQForwardKinJacReverse.cpp:1625). -/
def l1625 (x : Fin 36 → ℝ) : ℝ := l1621 x - l1622 x

/-- `jac[813]` (HyQForwardKinJacReverse.cpp:1626). -/
def l1626 (x : Fin 36 → ℝ) : ℝ := l1623 x * l730 x + l1613 x * l769 x

/-- `jac[837]` (HyQForwardKinJacReverse.cpp:1627). -/
def l1627 (x : Fin 36 → ℝ) : ℝ := l1623 x * l724 x + l1613 x * l763 x + l1610 x * l787 x

/-- `jac[861]` (HyQForwardKinJacReverse.cpp:1628). -/
def l1628 (x : Fin 36 → ℝ) : ℝ := l1623 x * l719 x + l1613 x * l758 x + l1610 x * l784 x

/-- `v_[602]` (HyQForwardKinJacReverse.cpp:1629). -/
def l1629 (x : Fin 36 → ℝ) : ℝ := l1623 x * x 35

/-- `v_[403]` (HyQForwardKinJacReverse.cpp:1630). -/
def l1630 (x : Fin 36 → ℝ) : ℝ := l1629 x * l638 x

/-- `v_[429]` (HyQForwardKinJacReverse.cpp:1631). -/
def l1631 (x : Fin 36 → ℝ) : ℝ := l1623 x * x 34

/-- `v_[402]` (HyQForwardKinJacReverse.cpp:1632). -/
def l1632 (x : Fin 36 → ℝ) : ℝ := l1631 x * l634 x

/-- `v_[399]` (HyQForwardKinJacReverse.cpp:1633). -/
def l1633 (x : Fin 36 → ℝ) : ℝ := l1629 x * l634 x

/-- `v_[396]` (HyQForwardKinJacReverse.cpp:1634). -/
def l1634 (x : Fin 36 → ℝ) : ℝ := l1631 x * l638 x

/-- `v_[392]` (HyQForwardKinJacReverse.cpp:1635). -/
def l1635 (x : Fin 36 → ℝ) : ℝ := l1613 x * x 33

/-- `v_[390]` (HyQForwardKinJacReverse.cpp:1636). -/
def l1636 (x : Fin 36 → ℝ) : ℝ := l1635 x * l634 x

/-- `v_[386]` (HyQForwardKinJacReverse.cpp:1637). -/
def l1637 (x : Fin 36 → ℝ) : ℝ := l1635 x * l638 x

/-- `v_[384]` (HyQForwardKinJacReverse.cpp:1638). -/
def l1638 (x : Fin 36 → ℝ) : ℝ := 0 - l1610 x

/-- `jac[501]` (HyQForwardKinJacReverse.cpp:1639). -/
def l1639 (x : Fin 36 → ℝ) : ℝ := l1638 x * l736 x + l1613 x * l739 x

/-- `v_[384]` (HyQForwardKinJacReverse.cpp:1640). -/
def l1640 (x : Fin 36 → ℝ) : ℝ := l1638 x * x 20 + l1623 x * x 18

/-- `v_[330]` (HyQForwardKinJacReverse.cpp:1641). -/
def l1641 (x : Fin 36 → ℝ) : ℝ := l1640 x * l634 x

/-- `v_[364]` (HyQForwardKinJacReverse.cpp:1642). -/
def l1642 (x : Fin 36 → ℝ) : ℝ := l1640 x * l638 x

/-- `v_[273]` (HyQForwardKinJacReverse.cpp:1643). -/
def l1643 (x : Fin 36 → ℝ) : ℝ := l1623 x * x 33

/-- `v_[174]` (HyQForwardKinJacReverse.cpp:1644). -/
def l1644 (x : Fin 36 → ℝ) : ℝ := l1643 x * l638 x

/-- `v_[17]` (HyQForwardKinJacReverse.cpp:1645). -/
def l1645 (x : Fin 36 → ℝ) : ℝ := l1613 x * x 35

/-- `v_[186]` (HyQForwardKinJacReverse.cpp:1646). -/
def l1646 (x : Fin 36 → ℝ) : ℝ := l1645 x * l634 x

/-- `v_[190]` (HyQForwardKinJacReverse.cpp:1647). -/
def l1647 (x : Fin 36 → ℝ) : ℝ := 0 - l1645 x

/-- `v_[126]` (HyQForwardKinJacReverse.cpp:1648). -/
def l1648 (x : Fin 36 → ℝ) : ℝ := l1647 x * l638 x

/-- `v_[283]` (HyQForwardKinJacReverse.cpp:1649). -/
def l1649 (x : Fin 36 → ℝ) : ℝ := l1643 x * l634 x

/-- `v_[70]` (HyQForwardKinJacReverse.cpp:1650). -/
def l1650 (x : Fin 36 → ℝ) : ℝ := l1613 x * x 34

/-- `v_[471]` (HyQForwardKinJacReverse.cpp:1651). -/
def l1651 (x : Fin 36 → ℝ) : ℝ := l1650 x * l634 x

/-- `v_[123]` (HyQForwardKinJacReverse.cpp:1652). -/
def l1652 (x : Fin 36 → ℝ) : ℝ := 0 - l1650 x

/-- `v_[454]` (HyQForwardKinJacReverse.cpp:1653). -/
def l1653 (x : Fin 36 → ℝ) : ℝ := l1652 x * l638 x

/-- `v_[465]` (HyQForwardKinJacReverse.cpp:1654). -/
def l1654 (x : Fin 36 → ℝ) : ℝ := 0 - l1650 x

/-- `jac[381]` (HyQForwardKinJacReverse.cpp:1655). -/
def l1655 (x : Fin 36 → ℝ) : ℝ := 0 - (l1617 x * l632 x * (33 / 100) + l1619 x * l636 x * (33 / 100) + l1620 x * l636 x * (7 / 20) + (0 - l1616 x) * (2 / 25) + l1630 x * l632 x * (33 / 100) + l1632 x * l636 x * (33 / 100) + (l1633 x * l636 x + l1634 x * l632 x) * (33 / 100) + l1631 x * l632 x * (7 / 20) + l1636 x * l632 x *  - (33 / 100) + l1637 x * l636 x * (33 / 100) + l1635 x * l636 x * (7 / 20) + l1635 x * (2 / 25)) * l1577 x + (l1641 x * l632 x *  - (33 / 100) + l1642 x * l636 x * (33 / 100) + l1640 x * l636 x * (7 / 20) + l1640 x * (2 / 25) + l1644 x * l636 x * (33 / 100) + l1643 x * l636 x * (7 / 20) + l1643 x * (2 / 25) + l1646 x * l636 x *  - (33 / 100) + l1648 x * l632 x * (33 / 100) + (l1649 x * l632 x + l1651 x * l636 x) *  - (33 / 100) + l1653 x * l632 x * (33 / 100) + l1654 x * l632 x * (7 / 20)) * l1583 x

/-- `v_[612]` (HyQForwardKinJacReverse.cpp:1656). -/
def l1656 (x : Fin 36 → ℝ) : ℝ := l807 x * l790 x

/-- `jac[550]` (HyQForwardKinJacReverse.cpp:1657). -/
def l1657 (x : Fin 36 → ℝ) : ℝ := 1 - l1608 x - l1656 x

/-- `jac[575]` (HyQForwardKinJacReverse.cpp:1658). -/
def l1658 (x : Fin 36 → ℝ) : ℝ := 1 - l1609 x - l1656 x

/-- `v_[612]` (HyQForwardKinJacReverse.cpp:1659). -/
def l1659 (x : Fin 36 → ℝ) : ℝ := 0 - l1657 x

/-- `v_[435]` (HyQForwardKinJacReverse.cpp:1660). -/
def l1660 (x : Fin 36 → ℝ) : ℝ := l1614 x * x 19 + l1659 x * x 18

/-- `v_[576]` (HyQForwardKinJacReverse.cpp:1661). -/
def l1661 (x : Fin 36 → ℝ) : ℝ := l1660 x * l634 x

/-- `v_[433]` (HyQForwardKinJacReverse.cpp:1662). -/
def l1662 (x : Fin 36 → ℝ) : ℝ := 0 - l1660 x

/-- `v_[333]` (HyQForwardKinJacReverse.cpp:1663). -/
def l1663 (x : Fin 36 → ℝ) : ℝ := l1662 x * l638 x

/-- `v_[447]` (HyQForwardKinJacReverse.cpp:1664). -/
def l1664 (x : Fin 36 → ℝ) : ℝ := 0 - l1660 x

/-- `v_[601]` (HyQForwardKinJacReverse.cpp:1665). -/
def l1665 (x : Fin 36 → ℝ) : ℝ := l753 x * l779 x

/-- `v_[624]` (HyQForwardKinJacReverse.cpp:1666). -/
def l1666 (x : Fin 36 → ℝ) : ℝ := l807 x * l791 x

/-- `jac[574]` (HyQForwardKinJacReverse.cpp:1667). -/
def l1667 (x : Fin 36 → ℝ) : ℝ := l1665 x - l1666 x

/-- `jac[454]` (HyQForwardKinJacReverse.cpp:1668). -/
def l1668 (x : Fin 36 → ℝ) : ℝ := l1659 x * l775 x + l1667 x * l736 x

/-- `jac[551]` (HyQForwardKinJacReverse.cpp:1669). -/
def l1669 (x : Fin 36 → ℝ) : ℝ := l1665 x + l1666 x

/-- `jac[814]` (HyQForwardKinJacReverse.cpp:1670). -/
def l1670 (x : Fin 36 → ℝ) : ℝ := l1667 x * l730 x + l1657 x * l769 x

/-- `jac[815]` (HyQForwardKinJacReverse.cpp:1671). -/
def l1671 (x : Fin 36 → ℝ) : ℝ := l1658 x * l730 x + l1669 x * l769 x

/-- `jac[838]` (HyQForwardKinJacReverse.cpp:1672). -/
def l1672 (x : Fin 36 → ℝ) : ℝ := l1667 x * l724 x + l1657 x * l763 x + l1614 x * l787 x

/-- `jac[839]` (HyQForwardKinJacReverse.cpp:1673). -/
def l1673 (x : Fin 36 → ℝ) : ℝ := l1658 x * l724 x + l1669 x * l763 x + l1625 x * l787 x

/-- `jac[862]` (HyQForwardKinJacReverse.cpp:1674). -/
def l1674 (x : Fin 36 → ℝ) : ℝ := l1667 x * l719 x + l1657 x * l758 x + l1614 x * l784 x

/-- `jac[863]` (HyQForwardKinJacReverse.cpp:1675). -/
def l1675 (x : Fin 36 → ℝ) : ℝ := l1658 x * l719 x + l1669 x * l758 x + l1625 x * l784 x

/-- `v_[606]` (HyQForwardKinJacReverse.cpp:1676). -/
def l1676 (x : Fin 36 → ℝ) : ℝ := l1667 x * x 35

/-- `v_[582]` (HyQForwardKinJacReverse.cpp:1677). -/
def l1677 (x : Fin 36 → ℝ) : ℝ := l1676 x * l638 x

/-- `v_[493]` (HyQForwardKinJacReverse.cpp:1678). -/
def l1678 (x : Fin 36 → ℝ) : ℝ := l1667 x * x 34

/-- `v_[609]` (HyQForwardKinJacReverse.cpp:1679). -/
def l1679 (x : Fin 36 → ℝ) : ℝ := l1678 x * l634 x

/-- `v_[586]` (HyQForwardKinJacReverse.cpp:1680). -/
def l1680 (x : Fin 36 → ℝ) : ℝ := l1676 x * l634 x

/-- `v_[548]` (HyQForwardKinJacReverse.cpp:1681). -/
def l1681 (x : Fin 36 → ℝ) : ℝ := l1678 x * l638 x

/-- `v_[592]` (HyQForwardKinJacReverse.cpp:1682). -/
def l1682 (x : Fin 36 → ℝ) : ℝ := l1657 x * x 33

/-- `v_[554]` (HyQForwardKinJacReverse.cpp:1683). -/
def l1683 (x : Fin 36 → ℝ) : ℝ := l1682 x * l634 x

/-- `v_[624]` (HyQForwardKinJacReverse.cpp:1684). -/
def l1684 (x : Fin 36 → ℝ) : ℝ := l1682 x * l638 x

/-- `v_[601]` (HyQForwardKinJacReverse.cpp:1685). -/
def l1685 (x : Fin 36 → ℝ) : ℝ := 0 - l1614 x

/-- `jac[502]` (HyQForwardKinJacReverse.cpp:1686). -/
def l1686 (x : Fin 36 → ℝ) : ℝ := l1685 x * l736 x + l1657 x * l739 x

/-- `v_[601]` (HyQForwardKinJacReverse.cpp:1687). -/
def l1687 (x : Fin 36 → ℝ) : ℝ := l1685 x * x 20 + l1667 x * x 18

/-- `v_[612]` (HyQForwardKinJacReverse.cpp:1688). -/
def l1688 (x : Fin 36 → ℝ) : ℝ := l1687 x * l634 x

/-- `v_[613]` (HyQForwardKinJacReverse.cpp:1689). -/
def l1689 (x : Fin 36 → ℝ) : ℝ := l1687 x * l638 x

/-- `v_[577]` (HyQForwardKinJacReverse.cpp:1690). -/
def l1690 (x : Fin 36 → ℝ) : ℝ := l1667 x * x 33

/-- `v_[118]` (HyQForwardKinJacReverse.cpp:1691). -/
def l1691 (x : Fin 36 → ℝ) : ℝ := l1690 x * l638 x

/-- `v_[243]` (HyQForwardKinJacReverse.cpp:1692). -/
def l1692 (x : Fin 36 → ℝ) : ℝ := l1657 x * x 35

/-- `v_[349]` (HyQForwardKinJacReverse.cpp:1693). -/
def l1693 (x : Fin 36 → ℝ) : ℝ := l1692 x * l634 x

/-- `v_[269]` (HyQForwardKinJacReverse.cpp:1694). -/
def l1694 (x : Fin 36 → ℝ) : ℝ := 0 - l1692 x

/-- `v_[266]` (HyQForwardKinJacReverse.cpp:1695). -/
def l1695 (x : Fin 36 → ℝ) : ℝ := l1694 x * l638 x

/-- `v_[521]` (HyQForwardKinJacReverse.cpp:1696). -/
def l1696 (x : Fin 36 → ℝ) : ℝ := l1690 x * l634 x

/-- `v_[262]` (HyQForwardKinJacReverse.cpp:1697). -/
def l1697 (x : Fin 36 → ℝ) : ℝ := l1657 x * x 34

/-- `v_[260]` (HyQForwardKinJacReverse.cpp:1698). -/
def l1698 (x : Fin 36 → ℝ) : ℝ := l1697 x * l634 x

/-- `v_[112]` (HyQForwardKinJacReverse.cpp:1699). -/
def l1699 (x : Fin 36 → ℝ) : ℝ := 0 - l1697 x

/-- `v_[287]` (HyQForwardKinJacReverse.cpp:1700). -/
def l1700 (x : Fin 36 → ℝ) : ℝ := l1699 x * l638 x

/-- `v_[282]` (HyQForwardKinJacReverse.cpp:1701). -/
def l1701 (x : Fin 36 → ℝ) : ℝ := 0 - l1697 x

/-- `jac[382]` (HyQForwardKinJacReverse.cpp:1702). -/
def l1702 (x : Fin 36 → ℝ) : ℝ := 0 - (l1661 x * l632 x * (33 / 100) + l1663 x * l636 x * (33 / 100) + l1664 x * l636 x * (7 / 20) + (0 - l1660 x) * (2 / 25) + l1677 x * l632 x * (33 / 100) + l1679 x * l636 x * (33 / 100) + (l1680 x * l636 x + l1681 x * l632 x) * (33 / 100) + l1678 x * l632 x * (7 / 20) + l1683 x * l632 x *  - (33 / 100) + l1684 x * l636 x * (33 / 100) + l1682 x * l636 x * (7 / 20) + l1682 x * (2 / 25)) * l1577 x + (l1688 x * l632 x *  - (33 / 100) + l1689 x * l636 x * (33 / 100) + l1687 x * l636 x * (7 / 20) + l1687 x * (2 / 25) + l1691 x * l636 x * (33 / 100) + l1690 x * l636 x * (7 / 20) + l1690 x * (2 / 25) + l1693 x * l636 x *  - (33 / 100) + l1695 x * l632 x * (33 / 100) + (l1696 x * l632 x + l1698 x * l636 x) *  - (33 / 100) + l1700 x * l632 x * (33 / 100) + l1701 x * l632 x * (7 / 20)) * l1583 x

/-- `v_[626]` (HyQForwardKinJacReverse.cpp:1703). -/
def l1703 (x : Fin 36 → ℝ) : ℝ := 0 - l1669 x

/-- `v_[477]` (HyQForwardKinJacReverse.cpp:1704). -/
def l1704 (x : Fin 36 → ℝ) : ℝ := l1625 x * x 19 + l1703 x * x 18

/-- `v_[101]` (HyQForwardKinJacReverse.cpp:1705). -/
def l1705 (x : Fin 36 → ℝ) : ℝ := l1704 x * l634 x

/-- `v_[452]` (HyQForwardKinJacReverse.cpp:1706). -/
def l1706 (x : Fin 36 → ℝ) : ℝ := 0 - l1704 x

/-- `v_[239]` (HyQForwardKinJacReverse.cpp:1707). -/
def l1707 (x : Fin 36 → ℝ) : ℝ := l1706 x * l638 x

/-- `v_[443]` (HyQForwardKinJacReverse.cpp:1708). -/
def l1708 (x : Fin 36 → ℝ) : ℝ := 0 - l1704 x

/-- `jac[455]` (HyQForwardKinJacReverse.cpp:1709). -/
def l1709 (x : Fin 36 → ℝ) : ℝ := l1703 x * l775 x + l1658 x * l736 x

/-- `v_[626]` (HyQForwardKinJacReverse.cpp:1710). -/
def l1710 (x : Fin 36 → ℝ) : ℝ := l1658 x * x 35

/-- `v_[233]` (HyQForwardKinJacReverse.cpp:1711). -/
def l1711 (x : Fin 36 → ℝ) : ℝ := l1710 x * l638 x

/-- `v_[242]` (HyQForwardKinJacReverse.cpp:1712). -/
def l1712 (x : Fin 36 → ℝ) : ℝ := l1658 x * x 34

/-- `v_[379]` (HyQForwardKinJacReverse.cpp:1713). -/
def l1713 (x : Fin 36 → ℝ) : ℝ := l1712 x * l634 x

/-- `v_[264]` (HyQForwardKinJacReverse.cpp:1714). -/
def l1714 (x : Fin 36 → ℝ) : ℝ := l1710 x * l634 x

/-- `v_[357]` (HyQForwardKinJacReverse.cpp:1715). -/
def l1715 (x : Fin 36 → ℝ) : ℝ := l1712 x * l638 x

/-- `v_[271]` (HyQForwardKinJacReverse.cpp:1716). -/
def l1716 (x : Fin 36 → ℝ) : ℝ := l1669 x * x 33

/-- `v_[368]` (HyQForwardKinJacReverse.cpp:1717). -/
def l1717 (x : Fin 36 → ℝ) : ℝ := l1716 x * l634 x

/-- `v_[353]` (HyQForwardKinJacReverse.cpp:1718). -/
def l1718 (x : Fin 36 → ℝ) : ℝ := l1716 x * l638 x

/-- `v_[352]` (HyQForwardKinJacReverse.cpp:1719). -/
def l1719 (x : Fin 36 → ℝ) : ℝ := 0 - l1625 x

/-- `jac[503]` (HyQForwardKinJacReverse.cpp:1720). -/
def l1720 (x : Fin 36 → ℝ) : ℝ := l1719 x * l736 x + l1669 x * l739 x

/-- `v_[352]` (HyQForwardKinJacReverse.cpp:1721). -/
def l1721 (x : Fin 36 → ℝ) : ℝ := l1719 x * x 20 + l1658 x * x 18

/-- `v_[560]` (HyQForwardKinJacReverse.cpp:1722). -/
def l1722 (x : Fin 36 → ℝ) : ℝ := l1721 x * l634 x

/-- `v_[344]` (HyQForwardKinJacReverse.cpp:1723). -/
def l1723 (x : Fin 36 → ℝ) : ℝ := l1721 x * l638 x

/-- `v_[342]` (HyQForwardKinJacReverse.cpp:1724). -/
def l1724 (x : Fin 36 → ℝ) : ℝ := l1658 x * x 33

/-- `v_[323]` (HyQForwardKinJacReverse.cpp:1725). -/
def l1725 (x : Fin 36 → ℝ) : ℝ := l1724 x * l638 x

/-- `v_[249]` (HyQForwardKinJacReverse.cpp:1726). -/
def l1726 (x : Fin 36 → ℝ) : ℝ := l1669 x * x 35

/-- `v_[34]` (HyQForwardKinJacReverse.cpp:1727). -/
def l1727 (x : Fin 36 → ℝ) : ℝ := l1726 x * l634 x

/-- `v_[623]` (HyQForwardKinJacReverse.cpp:1728). -/
def l1728 (x : Fin 36 → ℝ) : ℝ := 0 - l1726 x

/-- `v_[285]` (HyQForwardKinJacReverse.cpp:1729). -/
def l1729 (x : Fin 36 → ℝ) : ℝ := l1728 x * l638 x

/-- `v_[356]` (HyQForwardKinJacReverse.cpp:1730). -/
def l1730 (x : Fin 36 → ℝ) : ℝ := l1724 x * l634 x

/-- `v_[289]` (HyQForwardKinJacReverse.cpp:1731). -/
def l1731 (x : Fin 36 → ℝ) : ℝ := l1669 x * x 34

/-- `v_[496]` (HyQForwardKinJacReverse.cpp:1732). -/
def l1732 (x : Fin 36 → ℝ) : ℝ := l1731 x * l634 x

/-- `v_[492]` (HyQForwardKinJacReverse.cpp:1733). -/
def l1733 (x : Fin 36 → ℝ) : ℝ := 0 - l1731 x

/-- `v_[350]` (HyQForwardKinJacReverse.cpp:1734). -/
def l1734 (x : Fin 36 → ℝ) : ℝ := l1733 x * l638 x

/-- `v_[7]` (HyQForwardKinJacReverse.cpp:1735). -/
def l1735 (x : Fin 36 → ℝ) : ℝ := 0 - l1731 x

/-- `jac[383]` (HyQForwardKinJacReverse.cpp:1736). -/
def l1736 (x : Fin 36 → ℝ) : ℝ := 0 - (l1705 x * l632 x * (33 / 100) + l1707 x * l636 x * (33 / 100) + l1708 x * l636 x * (7 / 20) + (0 - l1704 x) * (2 / 25) + l1711 x * l632 x * (33 / 100) + l1713 x * l636 x * (33 / 100) + (l1714 x * l636 x + l1715 x * l632 x) * (33 / 100) + l1712 x * l632 x * (7 / 20) + l1717 x * l632 x *  - (33 / 100) + l1718 x * l636 x * (33 / 100) + l1716 x * l636 x * (7 / 20) + l1716 x * (2 / 25)) * l1577 x + (l1722 x * l632 x *  - (33 / 100) + l1723 x * l636 x * (33 / 100) + l1721 x * l636 x * (7 / 20) + l1721 x * (2 / 25) + l1725 x * l636 x * (33 / 100) + l1724 x * l636 x * (7 / 20) + l1724 x * (2 / 25) + l1727 x * l636 x *  - (33 / 100) + l1729 x * l632 x * (33 / 100) + (l1730 x * l632 x + l1732 x * l636 x) *  - (33 / 100) + l1734 x * l632 x * (33 / 100) + l1735 x * l632 x * (7 / 20)) * l1583 x

/-- `v_[510]` (HyQForwardKinJacReverse.cpp:1737). -/
def l1737 (x : Fin 36 → ℝ) : ℝ := 1 - l1592 x - l1598 x

/-- `v_[499]` (HyQForwardKinJacReverse.cpp:1738). -/
def l1738 (x : Fin 36 → ℝ) : ℝ := Real.sin (x 16)

/-- `v_[191]` (HyQForwardKinJacReverse.cpp:1739). -/
def l1739 (x : Fin 36 → ℝ) : ℝ := 0 - l1737 x

/-- `v_[246]` (HyQForwardKinJacReverse.cpp:1740). -/
def l1740 (x : Fin 36 → ℝ) : ℝ := Real.cos (x 16)

/-- `jac[402]` (HyQForwardKinJacReverse.cpp:1741). -/
def l1741 (x : Fin 36 → ℝ) : ℝ := 0 - (l1575 x * l635 x + l1576 x * l639 x + l1582 x * l655 x + l1580 x * l659 x + l1737 x * l634 x *  - (33 / 100)) * l1738 x + (l1573 x * l631 x + l1581 x * l657 x + l1739 x * l638 x * (33 / 100) + (0 - l1737 x) * (7 / 20)) * l1740 x

/-- `v_[599]` (HyQForwardKinJacReverse.cpp:1742). -/
def l1742 (x : Fin 36 → ℝ) : ℝ := l1578 x + l1579 x

/-- `v_[23]` (HyQForwardKinJacReverse.cpp:1743). -/
def l1743 (x : Fin 36 → ℝ) : ℝ := 0 - l1742 x

/-- `jac[403]` (HyQForwardKinJacReverse.cpp:1744). -/
def l1744 (x : Fin 36 → ℝ) : ℝ := 0 - (l1590 x * l635 x + l1591 x * l639 x + l1596 x * l655 x + l1594 x * l659 x + l1742 x * l634 x *  - (33 / 100)) * l1738 x + (l1588 x * l631 x + l1595 x * l657 x + l1743 x * l638 x * (33 / 100) + (0 - l1742 x) * (7 / 20)) * l1740 x

/-- `v_[339]` (HyQForwardKinJacReverse.cpp:1745). -/
def l1745 (x : Fin 36 → ℝ) : ℝ := l1570 x - l1571 x

/-- `v_[180]` (HyQForwardKinJacReverse.cpp:1746). -/
def l1746 (x : Fin 36 → ℝ) : ℝ := 0 - l1745 x

/-- `jac[404]` (HyQForwardKinJacReverse.cpp:1747). -/
def l1747 (x : Fin 36 → ℝ) : ℝ := 0 - (l1602 x * l635 x + l1603 x * l639 x + l1606 x * l655 x + l1604 x * l659 x + l1745 x * l634 x *  - (33 / 100)) * l1738 x + (l1600 x * l631 x + l1605 x * l657 x + l1746 x * l638 x * (33 / 100) + (0 - l1745 x) * (7 / 20)) * l1740 x

/-- `v_[437]` (HyQForwardKinJacReverse.cpp:1748). -/
def l1748 (x : Fin 36 → ℝ) : ℝ := 0 - l1623 x

/-- `jac[477]` (HyQForwardKinJacReverse.cpp:1749). -/
def l1749 (x : Fin 36 → ℝ) : ℝ := l1610 x * l775 x + l1748 x * l739 x

/-- `v_[437]` (HyQForwardKinJacReverse.cpp:1750). -/
def l1750 (x : Fin 36 → ℝ) : ℝ := l1613 x * x 20 + l1748 x * x 19

/-- `v_[380]` (HyQForwardKinJacReverse.cpp:1751). -/
def l1751 (x : Fin 36 → ℝ) : ℝ := l1610 x * x 35

/-- `v_[445]` (HyQForwardKinJacReverse.cpp:1752). -/
def l1752 (x : Fin 36 → ℝ) : ℝ := 0 - l1751 x

/-- `v_[446]` (HyQForwardKinJacReverse.cpp:1753). -/
def l1753 (x : Fin 36 → ℝ) : ℝ := l1610 x * x 34

/-- `v_[509]` (HyQForwardKinJacReverse.cpp:1754). -/
def l1754 (x : Fin 36 → ℝ) : ℝ := 0 - l1753 x

/-- `v_[505]` (HyQForwardKinJacReverse.cpp:1755). -/
def l1755 (x : Fin 36 → ℝ) : ℝ := 0 - l1750 x

/-- `jac[405]` (HyQForwardKinJacReverse.cpp:1756). -/
def l1756 (x : Fin 36 → ℝ) : ℝ := 0 - (l1619 x * l772 x + l1620 x * l774 x + l1642 x * l731 x + l1640 x * l735 x + l1750 x * l634 x *  - (33 / 100) + l1633 x * l715 x + l1632 x * l721 x + l1644 x * l725 x + l1643 x * l729 x + l1646 x * l754 x + l1651 x * l727 x + l1637 x * l764 x + l1635 x * l768 x + l1752 x * l638 x * (33 / 100) + l1754 x * l638 x * (33 / 100) + (0 - l1753 x) * (7 / 20)) * l1738 x + (l1617 x * l770 x + l1641 x * l733 x + l1755 x * l638 x * (33 / 100) + (0 - l1750 x) * (7 / 20) + l1630 x * l717 x + l1634 x * l715 x + l1631 x * l723 x + l1649 x * l727 x + l1648 x * l756 x + l1653 x * l760 x + l1654 x * l762 x + l1636 x * l766 x + l1751 x * l634 x * (33 / 100) + l1753 x * l634 x * (33 / 100)) * l1740 x

/-- `v_[465]` (HyQForwardKinJacReverse.cpp:1757). -/
def l1757 (x : Fin 36 → ℝ) : ℝ := 0 - l1667 x

/-- `jac[478]` (HyQForwardKinJacReverse.cpp:1758). -/
def l1758 (x : Fin 36 → ℝ) : ℝ := l1614 x * l775 x + l1757 x * l739 x

/-- `v_[465]` (HyQForwardKinJacReverse.cpp:1759). -/
def l1759 (x : Fin 36 → ℝ) : ℝ := l1657 x * x 20 + l1757 x * x 19

/-- `v_[454]` (HyQForwardKinJacReverse.cpp:1760). -/
def l1760 (x : Fin 36 → ℝ) : ℝ := l1614 x * x 35

/-- `v_[471]` (HyQForwardKinJacReverse.cpp:1761). -/
def l1761 (x : Fin 36 → ℝ) : ℝ := 0 - l1760 x

/-- `v_[283]` (HyQForwardKinJacReverse.cpp:1762). -/
def l1762 (x : Fin 36 → ℝ) : ℝ := l1614 x * x 34

/-- `v_[126]` (HyQForwardKinJacReverse.cpp:1763). -/
def l1763 (x : Fin 36 → ℝ) : ℝ := 0 - l1762 x

/-- `v_[186]` (HyQForwardKinJacReverse.cpp:1764). -/
def l1764 (x : Fin 36 → ℝ) : ℝ := 0 - l1759 x

/-- `jac[406]` (HyQForwardKinJacReverse.cpp:1765). -/
def l1765 (x : Fin 36 → ℝ) : ℝ := 0 - (l1663 x * l772 x + l1664 x * l774 x + l1689 x * l731 x + l1687 x * l735 x + l1759 x * l634 x *  - (33 / 100) + l1680 x * l715 x + l1679 x * l721 x + l1691 x * l725 x + l1690 x * l729 x + l1693 x * l754 x + l1698 x * l727 x + l1684 x * l764 x + l1682 x * l768 x + l1761 x * l638 x * (33 / 100) + l1763 x * l638 x * (33 / 100) + (0 - l1762 x) * (7 / 20)) * l1738 x + (l1661 x * l770 x + l1688 x * l733 x + l1764 x * l638 x * (33 / 100) + (0 - l1759 x) * (7 / 20) + l1677 x * l717 x + l1681 x * l715 x + l1678 x * l723 x + l1696 x * l727 x + l1695 x * l756 x + l1700 x * l760 x + l1701 x * l762 x + l1683 x * l766 x + l1760 x * l634 x * (33 / 100) + l1762 x * l634 x * (33 / 100)) * l1740 x

/-- `v_[282]` (HyQForwardKinJacReverse.cpp:1766). -/
def l1766 (x : Fin 36 → ℝ) : ℝ := 0 - l1658 x

/-- `jac[479]` (HyQForwardKinJacReverse.cpp:1767). -/
def l1767 (x : Fin 36 → ℝ) : ℝ := l1625 x * l775 x + l1766 x * l739 x

/-- `v_[282]` (HyQForwardKinJacReverse.cpp:1768). -/
def l1768 (x : Fin 36 → ℝ) : ℝ := l1669 x * x 20 + l1766 x * x 19

/-- `v_[406]` (HyQForwardKinJacReverse.cpp:1769). -/
def l1769 (x : Fin 36 → ℝ) : ℝ := l1625 x * x 35

/-- `v_[563]` (HyQForwardKinJacReverse.cpp:1770). -/
def l1770 (x : Fin 36 → ℝ) : ℝ := 0 - l1769 x

/-- `v_[287]` (HyQForwardKinJacReverse.cpp:1771). -/
def l1771 (x : Fin 36 → ℝ) : ℝ := l1625 x * x 34

/-- `v_[260]` (HyQForwardKinJacReverse.cpp:1772). -/
def l1772 (x : Fin 36 → ℝ) : ℝ := 0 - l1771 x

/-- `v_[521]` (HyQForwardKinJacReverse.cpp:1773). -/
def l1773 (x : Fin 36 → ℝ) : ℝ := 0 - l1768 x

/-- `jac[407]` (HyQForwardKinJacReverse.cpp:1774). -/
def l1774 (x : Fin 36 → ℝ) : ℝ := 0 - (l1707 x * l772 x + l1708 x * l774 x + l1723 x * l731 x + l1721 x * l735 x + l1768 x * l634 x *  - (33 / 100) + l1714 x * l715 x + l1713 x * l721 x + l1725 x * l725 x + l1724 x * l729 x + l1727 x * l754 x + l1732 x * l727 x + l1718 x * l764 x + l1716 x * l768 x + l1770 x * l638 x * (33 / 100) + l1772 x * l638 x * (33 / 100) + (0 - l1771 x) * (7 / 20)) * l1738 x + (l1705 x * l770 x + l1722 x * l733 x + l1773 x * l638 x * (33 / 100) + (0 - l1768 x) * (7 / 20) + l1711 x * l717 x + l1715 x * l715 x + l1712 x * l723 x + l1730 x * l727 x + l1729 x * l756 x + l1734 x * l760 x + l1735 x * l762 x + l1717 x * l766 x + l1769 x * l634 x * (33 / 100) + l1771 x * l634 x * (33 / 100)) * l1740 x

/-- `v_[246]` (HyQForwardKinJacReverse.cpp:1775). -/
def l1775 (x : Fin 36 → ℝ) : ℝ := Real.sin (x 17)

/-- `v_[499]` (HyQForwardKinJacReverse.cpp:1776). -/
def l1776 (x : Fin 36 → ℝ) : ℝ := Real.cos (x 17)

/-- `jac[426]` (HyQForwardKinJacReverse.cpp:1777). -/
def l1777 (x : Fin 36 → ℝ) : ℝ := 0 - (l1574 x * l637 x + l1580 x * l656 x + l1739 x * l667 x) * l1775 x + (l1572 x * l633 x + l1580 x * l658 x + l1737 x * l666 x) * l1776 x

/-- `jac[427]` (HyQForwardKinJacReverse.cpp:1778). -/
def l1778 (x : Fin 36 → ℝ) : ℝ := 0 - (l1589 x * l637 x + l1594 x * l656 x + l1743 x * l667 x) * l1775 x + (l1587 x * l633 x + l1594 x * l658 x + l1742 x * l666 x) * l1776 x

/-- `jac[428]` (HyQForwardKinJacReverse.cpp:1779). -/
def l1779 (x : Fin 36 → ℝ) : ℝ := 0 - (l1601 x * l637 x + l1604 x * l656 x + l1746 x * l667 x) * l1775 x + (l1599 x * l633 x + l1604 x * l658 x + l1745 x * l666 x) * l1776 x

/-- `jac[429]` (HyQForwardKinJacReverse.cpp:1780). -/
def l1780 (x : Fin 36 → ℝ) : ℝ := 0 - (l1618 x * l773 x + l1640 x * l732 x + l1755 x * l738 x + l1629 x * l718 x + l1631 x * l720 x + l1643 x * l726 x + l1647 x * l757 x + l1652 x * l761 x + l1635 x * l765 x + l1752 x * l783 x + l1754 x * l786 x) * l1775 x + (l1616 x * l771 x + l1640 x * l734 x + l1750 x * l737 x + l1629 x * l716 x + l1631 x * l722 x + l1643 x * l728 x + l1645 x * l755 x + l1650 x * l759 x + l1635 x * l767 x + l1751 x * l782 x + l1753 x * l785 x) * l1776 x

/-- `jac[430]` (HyQForwardKinJacReverse.cpp:1781). -/
def l1781 (x : Fin 36 → ℝ) : ℝ := 0 - (l1662 x * l773 x + l1687 x * l732 x + l1764 x * l738 x + l1676 x * l718 x + l1678 x * l720 x + l1690 x * l726 x + l1694 x * l757 x + l1699 x * l761 x + l1682 x * l765 x + l1761 x * l783 x + l1763 x * l786 x) * l1775 x + (l1660 x * l771 x + l1687 x * l734 x + l1759 x * l737 x + l1676 x * l716 x + l1678 x * l722 x + l1690 x * l728 x + l1692 x * l755 x + l1697 x * l759 x + l1682 x * l767 x + l1760 x * l782 x + l1762 x * l785 x) * l1776 x

/-- `jac[431]` (HyQForwardKinJacReverse.cpp:1782). -/
def l1782 (x : Fin 36 → ℝ) : ℝ := 0 - (l1706 x * l773 x + l1721 x * l732 x + l1773 x * l738 x + l1710 x * l718 x + l1712 x * l720 x + l1724 x * l726 x + l1728 x * l757 x + l1733 x * l761 x + l1716 x * l765 x + l1770 x * l783 x + l1772 x * l786 x) * l1775 x + (l1704 x * l771 x + l1721 x * l734 x + l1768 x * l737 x + l1710 x * l716 x + l1712 x * l722 x + l1724 x * l728 x + l1726 x * l755 x + l1731 x * l759 x + l1716 x * l767 x + l1769 x * l782 x + l1771 x * l785 x) * l1776 x

/-- `jac[72]` (HyQForwardKinJacReverse.cpp:1784). -/
def l1784 (_x : Fin 36 → ℝ) : ℝ := 1

/-- `jac[78]` (HyQForwardKinJacReverse.cpp:1785). -/
def l1785 (_x : Fin 36 → ℝ) : ℝ := 1

/-- `jac[84]` (HyQForwardKinJacReverse.cpp:1786). -/
def l1786 (_x : Fin 36 → ℝ) : ℝ := 1

/-- `jac[90]` (HyQForwardKinJacReverse.cpp:1787). -/
def l1787 (_x : Fin 36 → ℝ) : ℝ := 1

/-- `jac[97]` (HyQForwardKinJacReverse.cpp:1788). -/
def l1788 (_x : Fin 36 → ℝ) : ℝ := 1

/-- `jac[103]` (HyQForwardKinJacReverse.cpp:1789). -/
def l1789 (_x : Fin 36 → ℝ) : ℝ := 1

/-- `jac[109]` (HyQForwardKinJacReverse.cpp:1790). -/
def l1790 (_x : Fin 36 → ℝ) : ℝ := 1

/-- `jac[115]` (HyQForwardKinJacReverse.cpp:1791). -/
def l1791 (_x : Fin 36 → ℝ) : ℝ := 1

/-- `jac[122]` (HyQForwardKinJacReverse.cpp:1792). -/
def l1792 (_x : Fin 36 → ℝ) : ℝ := 1

/-- `jac[128]` (HyQForwardKinJacReverse.cpp:1793). -/
def l1793 (_x : Fin 36 → ℝ) : ℝ := 1

/-- `jac[134]` (HyQForwardKinJacReverse.cpp:1794). -/
def l1794 (_x : Fin 36 → ℝ) : ℝ := 1

/-- `jac[140]` (HyQForwardKinJacReverse.cpp:1795). -/
def l1795 (_x : Fin 36 → ℝ) : ℝ := 1

/-- Column 0 of the result: elements 0 to 23 of `jac_.data()`, which is stored by columns (HyQForwardKinJacReverse.h:17, 38). -/
def col0 (x : Fin 36 → ℝ) : Fin 24 → ℝ :=
  ![l71 x, l86 x, l100 x, l189 x, l204 x, l218 x, l274 x, l289 x, l303 x, l394 x, l409 x, l423 x, l479 x, l494 x, l508 x, l600 x, l615 x, l629 x, l685 x, l700 x, l714 x, l805 x, l820 x, l834 x]

/-- Column 1 of the result: elements 24 to 47 of `jac_.data()`, which is stored by columns (HyQForwardKinJacReverse.h:17, 38). -/
def col1 (x : Fin 36 → ℝ) : Fin 24 → ℝ :=
  ![l837 x, l838 x, l839 x, l842 x, l843 x, l844 x, l847 x, l848 x, l849 x, l852 x, l853 x, l854 x, l857 x, l858 x, l859 x, l862 x, l863 x, l864 x, l867 x, l868 x, l869 x, l872 x, l873 x, l874 x]

/-- Column 2 of the result: elements 48 to 71 of `jac_.data()`, which is stored by columns (HyQForwardKinJacReverse.h:17, 38). -/
def col2 (x : Fin 36 → ℝ) : Fin 24 → ℝ :=
  ![l877 x, l878 x, l879 x, l882 x, l883 x, l884 x, l887 x, l888 x, l889 x, l892 x, l893 x, l894 x, l897 x, l898 x, l899 x, l902 x, l903 x, l904 x, l907 x, l908 x, l909 x, l912 x, l913 x, l914 x]

/-- Column 3 of the result: elements 72 to 95 of `jac_.data()`, which is stored by columns (HyQForwardKinJacReverse.h:17, 38). -/
def col3 (x : Fin 36 → ℝ) : Fin 24 → ℝ :=
  ![l1784 x, 0, 0, 0, 0, 0, l1785 x, 0, 0, 0, 0, 0, l1786 x, 0, 0, 0, 0, 0, l1787 x, 0, 0, 0, 0, 0]

/-- Column 4 of the result: elements 96 to 119 of `jac_.data()`, which is stored by columns (HyQForwardKinJacReverse.h:17, 38). -/
def col4 (x : Fin 36 → ℝ) : Fin 24 → ℝ :=
  ![0, l1788 x, 0, 0, 0, 0, 0, l1789 x, 0, 0, 0, 0, 0, l1790 x, 0, 0, 0, 0, 0, l1791 x, 0, 0, 0, 0]

/-- Column 5 of the result: elements 120 to 143 of `jac_.data()`, which is stored by columns (HyQForwardKinJacReverse.h:17, 38). -/
def col5 (x : Fin 36 → ℝ) : Fin 24 → ℝ :=
  ![0, 0, l1792 x, 0, 0, 0, 0, 0, l1793 x, 0, 0, 0, 0, 0, l1794 x, 0, 0, 0, 0, 0, l1795 x, 0, 0, 0]

/-- Column 6 of the result: elements 144 to 167 of `jac_.data()`, which is stored by columns (HyQForwardKinJacReverse.h:17, 38). -/
def col6 (x : Fin 36 → ℝ) : Fin 24 → ℝ :=
  ![l931 x, l946 x, l958 x, l1006 x, l1053 x, l1087 x, 0, 0, 0, 0, 0, 0, 0, 0, 0, 0, 0, 0, 0, 0, 0, 0, 0, 0]

/-- Column 7 of the result: elements 168 to 191 of `jac_.data()`, which is stored by columns (HyQForwardKinJacReverse.h:17, 38). -/
def col7 (x : Fin 36 → ℝ) : Fin 24 → ℝ :=
  ![l1092 x, l1095 x, l1098 x, l1107 x, l1116 x, l1125 x, 0, 0, 0, 0, 0, 0, 0, 0, 0, 0, 0, 0, 0, 0, 0, 0, 0, 0]

/-- Column 8 of the result: elements 192 to 215 of `jac_.data()`, which is stored by columns (HyQForwardKinJacReverse.h:17, 38). -/
def col8 (x : Fin 36 → ℝ) : Fin 24 → ℝ :=
  ![l1128 x, l1129 x, l1130 x, l1131 x, l1132 x, l1133 x, 0, 0, 0, 0, 0, 0, 0, 0, 0, 0, 0, 0, 0, 0, 0, 0, 0, 0]

/-- Column 9 of the result: elements 216 to 239 of `jac_.data()`, which is stored by columns (HyQForwardKinJacReverse.h:17, 38). -/
def col9 (x : Fin 36 → ℝ) : Fin 24 → ℝ :=
  ![0, 0, 0, 0, 0, 0, l1148 x, l1161 x, l1171 x, l1219 x, l1266 x, l1300 x, 0, 0, 0, 0, 0, 0, 0, 0, 0, 0, 0, 0]

/-- Column 10 of the result: elements 240 to 263 of `jac_.data()`, which is stored by columns (HyQForwardKinJacReverse.h:17, 38). -/
def col10 (x : Fin 36 → ℝ) : Fin 24 → ℝ :=
  ![0, 0, 0, 0, 0, 0, l1305 x, l1308 x, l1311 x, l1320 x, l1329 x, l1338 x, 0, 0, 0, 0, 0, 0, 0, 0, 0, 0, 0, 0]

/-- Column 11 of the result: elements 264 to 287 of `jac_.data()`, which is stored by columns (HyQForwardKinJacReverse.h:17, 38). -/
def col11 (x : Fin 36 → ℝ) : Fin 24 → ℝ :=
  ![0, 0, 0, 0, 0, 0, l1341 x, l1342 x, l1343 x, l1344 x, l1345 x, l1346 x, 0, 0, 0, 0, 0, 0, 0, 0, 0, 0, 0, 0]

/-- Column 12 of the result: elements 288 to 311 of `jac_.data()`, which is stored by columns (HyQForwardKinJacReverse.h:17, 38). -/
def col12 (x : Fin 36 → ℝ) : Fin 24 → ℝ :=
  ![0, 0, 0, 0, 0, 0, 0, 0, 0, 0, 0, 0, l1363 x, l1378 x, l1390 x, l1439 x, l1487 x, l1522 x, 0, 0, 0, 0, 0, 0]

/-- Column 13 of the result: elements 312 to 335 of `jac_.data()`, which is stored by columns (HyQForwardKinJacReverse.h:17, 38). -/
def col13 (x : Fin 36 → ℝ) : Fin 24 → ℝ :=
  ![0, 0, 0, 0, 0, 0, 0, 0, 0, 0, 0, 0, l1527 x, l1530 x, l1533 x, l1542 x, l1551 x, l1560 x, 0, 0, 0, 0, 0, 0]

/-- Column 14 of the result: elements 336 to 359 of `jac_.data()`, which is stored by columns (HyQForwardKinJacReverse.h:17, 38). -/
def col14 (x : Fin 36 → ℝ) : Fin 24 → ℝ :=
  ![0, 0, 0, 0, 0, 0, 0, 0, 0, 0, 0, 0, l1563 x, l1564 x, l1565 x, l1567 x, l1568 x, l1569 x, 0, 0, 0, 0, 0, 0]

/-- Column 15 of the result: elements 360 to 383 of `jac_.data()`, which is stored by columns (HyQForwardKinJacReverse.h:17, 38). -/
def col15 (x : Fin 36 → ℝ) : Fin 24 → ℝ :=
  ![0, 0, 0, 0, 0, 0, 0, 0, 0, 0, 0, 0, 0, 0, 0, 0, 0, 0, l1584 x, l1597 x, l1607 x, l1655 x, l1702 x, l1736 x]

/-- Column 16 of the result: elements 384 to 407 of `jac_.data()`, which is stored by columns (HyQForwardKinJacReverse.h:17, 38). -/
def col16 (x : Fin 36 → ℝ) : Fin 24 → ℝ :=
  ![0, 0, 0, 0, 0, 0, 0, 0, 0, 0, 0, 0, 0, 0, 0, 0, 0, 0, l1741 x, l1744 x, l1747 x, l1756 x, l1765 x, l1774 x]

/-- Column 17 of the result: elements 408 to 431 of `jac_.data()`, which is stored by columns (HyQForwardKinJacReverse.h:17, 38). -/
def col17 (x : Fin 36 → ℝ) : Fin 24 → ℝ :=
  ![0, 0, 0, 0, 0, 0, 0, 0, 0, 0, 0, 0, 0, 0, 0, 0, 0, 0, l1777 x, l1778 x, l1779 x, l1780 x, l1781 x, l1782 x]

/-- Column 18 of the result: elements 432 to 455 of `jac_.data()`, which is stored by columns (HyQForwardKinJacReverse.h:17, 38). -/
def col18 (x : Fin 36 → ℝ) : Fin 24 → ℝ :=
  ![0, 0, 0, l973 x, l1017 x, l1058 x, 0, 0, 0, l1188 x, l1232 x, l1273 x, 0, 0, 0, l1407 x, l1452 x, l1494 x, 0, 0, 0, l1624 x, l1668 x, l1709 x]

/-- Column 19 of the result: elements 456 to 479 of `jac_.data()`, which is stored by columns (HyQForwardKinJacReverse.h:17, 38). -/
def col19 (x : Fin 36 → ℝ) : Fin 24 → ℝ :=
  ![0, 0, 0, l1100 x, l1109 x, l1118 x, 0, 0, 0, l1313 x, l1322 x, l1331 x, 0, 0, 0, l1535 x, l1544 x, l1553 x, 0, 0, 0, l1749 x, l1758 x, l1767 x]

/-- Column 20 of the result: elements 480 to 503 of `jac_.data()`, which is stored by columns (HyQForwardKinJacReverse.h:17, 38). -/
def col20 (x : Fin 36 → ℝ) : Fin 24 → ℝ :=
  ![0, 0, 0, l991 x, l1038 x, l1072 x, 0, 0, 0, l1203 x, l1250 x, l1284 x, 0, 0, 0, l1424 x, l1472 x, l1507 x, 0, 0, 0, l1639 x, l1686 x, l1720 x]

/-- Column 21 of the result: elements 504 to 527 of `jac_.data()`, which is stored by columns (HyQForwardKinJacReverse.h:17, 38). -/
def col21 (x : Fin 36 → ℝ) : Fin 24 → ℝ :=
  ![0, 0, 0, l961 x, l965 x, l974 x, 0, 0, 0, l1174 x, l1178 x, l1189 x, 0, 0, 0, l1393 x, l1397 x, l1408 x, 0, 0, 0, l1610 x, l1614 x, l1625 x]

/-- Column 22 of the result: elements 528 to 551 of `jac_.data()`, which is stored by columns (HyQForwardKinJacReverse.h:17, 38). -/
def col22 (x : Fin 36 → ℝ) : Fin 24 → ℝ :=
  ![0, 0, 0, l964 x, l1008 x, l1018 x, 0, 0, 0, l1177 x, l1221 x, l1233 x, 0, 0, 0, l1396 x, l1441 x, l1453 x, 0, 0, 0, l1613 x, l1657 x, l1669 x]

/-- Column 23 of the result: elements 552 to 575 of `jac_.data()`, which is stored by columns (HyQForwardKinJacReverse.h:17, 38). -/
def col23 (x : Fin 36 → ℝ) : Fin 24 → ℝ :=
  ![0, 0, 0, l972 x, l1016 x, l1009 x, 0, 0, 0, l1187 x, l1231 x, l1222 x, 0, 0, 0, l1406 x, l1451 x, l1442 x, 0, 0, 0, l1623 x, l1667 x, l1658 x]

/-- Column 24 of the result: elements 576 to 599 of `jac_.data()`, which is stored by columns (HyQForwardKinJacReverse.h:17, 38). -/
def col24 (x : Fin 36 → ℝ) : Fin 24 → ℝ :=
  ![0, 0, 0, l975 x, l1019 x, l1020 x, 0, 0, 0, 0, 0, 0, 0, 0, 0, 0, 0, 0, 0, 0, 0, 0, 0, 0]

/-- Column 25 of the result: elements 600 to 623 of `jac_.data()`, which is stored by columns (HyQForwardKinJacReverse.h:17, 38). -/
def col25 (x : Fin 36 → ℝ) : Fin 24 → ℝ :=
  ![0, 0, 0, l976 x, l1021 x, l1022 x, 0, 0, 0, 0, 0, 0, 0, 0, 0, 0, 0, 0, 0, 0, 0, 0, 0, 0]

/-- Column 26 of the result: elements 624 to 647 of `jac_.data()`, which is stored by columns (HyQForwardKinJacReverse.h:17, 38). -/
def col26 (x : Fin 36 → ℝ) : Fin 24 → ℝ :=
  ![0, 0, 0, l977 x, l1023 x, l1024 x, 0, 0, 0, 0, 0, 0, 0, 0, 0, 0, 0, 0, 0, 0, 0, 0, 0, 0]

/-- Column 27 of the result: elements 648 to 671 of `jac_.data()`, which is stored by columns (HyQForwardKinJacReverse.h:17, 38). -/
def col27 (x : Fin 36 → ℝ) : Fin 24 → ℝ :=
  ![0, 0, 0, 0, 0, 0, 0, 0, 0, l1190 x, l1234 x, l1235 x, 0, 0, 0, 0, 0, 0, 0, 0, 0, 0, 0, 0]

/-- Column 28 of the result: elements 672 to 695 of `jac_.data()`, which is stored by columns (HyQForwardKinJacReverse.h:17, 38). -/
def col28 (x : Fin 36 → ℝ) : Fin 24 → ℝ :=
  ![0, 0, 0, 0, 0, 0, 0, 0, 0, l1191 x, l1236 x, l1237 x, 0, 0, 0, 0, 0, 0, 0, 0, 0, 0, 0, 0]

/-- Column 29 of the result: elements 696 to 719 of `jac_.data()`, which is stored by columns (HyQForwardKinJacReverse.h:17, 38). -/
def col29 (x : Fin 36 → ℝ) : Fin 24 → ℝ :=
  ![0, 0, 0, 0, 0, 0, 0, 0, 0, l1192 x, l1238 x, l1239 x, 0, 0, 0, 0, 0, 0, 0, 0, 0, 0, 0, 0]

/-- Column 30 of the result: elements 720 to 743 of `jac_.data()`, which is stored by columns (HyQForwardKinJacReverse.h:17, 38). -/
def col30 (x : Fin 36 → ℝ) : Fin 24 → ℝ :=
  ![0, 0, 0, 0, 0, 0, 0, 0, 0, 0, 0, 0, 0, 0, 0, l1409 x, l1454 x, l1455 x, 0, 0, 0, 0, 0, 0]

/-- Column 31 of the result: elements 744 to 767 of `jac_.data()`, which is stored by columns (HyQForwardKinJacReverse.h:17, 38). -/
def col31 (x : Fin 36 → ℝ) : Fin 24 → ℝ :=
  ![0, 0, 0, 0, 0, 0, 0, 0, 0, 0, 0, 0, 0, 0, 0, l1410 x, l1456 x, l1457 x, 0, 0, 0, 0, 0, 0]

/-- Column 32 of the result: elements 768 to 791 of `jac_.data()`, which is stored by columns (HyQForwardKinJacReverse.h:17, 38). -/
def col32 (x : Fin 36 → ℝ) : Fin 24 → ℝ :=
  ![0, 0, 0, 0, 0, 0, 0, 0, 0, 0, 0, 0, 0, 0, 0, l1411 x, l1458 x, l1459 x, 0, 0, 0, 0, 0, 0]

/-- Column 33 of the result: elements 792 to 815 of `jac_.data()`, which is stored by columns (HyQForwardKinJacReverse.h:17, 38). -/
def col33 (x : Fin 36 → ℝ) : Fin 24 → ℝ :=
  ![0, 0, 0, 0, 0, 0, 0, 0, 0, 0, 0, 0, 0, 0, 0, 0, 0, 0, 0, 0, 0, l1626 x, l1670 x, l1671 x]

/-- Column 34 of the result: elements 816 to 839 of `jac_.data()`, which is stored by columns (HyQForwardKinJacReverse.h:17, 38). -/
def col34 (x : Fin 36 → ℝ) : Fin 24 → ℝ :=
  ![0, 0, 0, 0, 0, 0, 0, 0, 0, 0, 0, 0, 0, 0, 0, 0, 0, 0, 0, 0, 0, l1627 x, l1672 x, l1673 x]

/-- Column 35 of the result: elements 840 to 863 of `jac_.data()`, which is stored by columns (HyQForwardKinJacReverse.h:17, 38). -/
def col35 (x : Fin 36 → ℝ) : Fin 24 → ℝ :=
  ![0, 0, 0, 0, 0, 0, 0, 0, 0, 0, 0, 0, 0, 0, 0, 0, 0, 0, 0, 0, 0, l1628 x, l1674 x, l1675 x]

/-- `jacobian` (HyQForwardKinJacReverse.cpp:12-1799). -/
def jacobian (x : Fin 36 → ℝ) (r : Fin 24) (c : Fin 36) : ℝ :=
  (![col0 x, col1 x, col2 x, col3 x, col4 x, col5 x, col6 x, col7 x, col8 x, col9 x, col10 x, col11 x, col12 x, col13 x, col14 x, col15 x, col16 x, col17 x, col18 x, col19 x, col20 x, col21 x, col22 x, col23 x, col24 x, col25 x, col26 x, col27 x, col28 x, col29 x, col30 x, col31 x, col32 x, col33 x, col34 x, col35 x] : Fin 36 → Fin 24 → ℝ) c r

end

end CT.Robots.HyQ.FootJacReverse
