#!/usr/bin/env python3
"""Writes lean/Verif/Model/Templates.lean: the texts of the code templates in /repo/ct_core/templates, unchanged."""
import os
src = '/repo/ct_core/templates'
names = [('linearSystemH', 'LinearSystem.tpl.h'), ('linearSystemCpp', 'LinearSystem.tpl.cpp'),
         ('discreteH', 'DiscreteLinearSystem.tpl.h'), ('discreteA', 'DiscreteLinearSystem.tplA.cpp'),
         ('discreteB', 'DiscreteLinearSystem.tplB.cpp'), ('jacobianH', 'Jacobian.tpl.h'),
         ('jacobianCpp', 'Jacobian.tpl.cpp'), ('hessianH', 'Hessian.tpl.h'), ('hessianCpp', 'Hessian.tpl.cpp'),
         ('forwardZeroH', 'ForwardZero.tpl.h'), ('forwardZeroCpp', 'ForwardZero.tpl.cpp')]
out = ['''/-!
# The code templates shipped with the library

The unchanged contents of the files in `ct_core/templates`, written by `tools/gen_templates.py`.
-/

namespace CT.CodeText.Tpl

/-- Notation: a string literal written out as the list of its characters. -/
local macro "chars!" s:str : term => do
  let cs := s.getString.toList.toArray.map fun c => Lean.Syntax.mkCharLit c
  `([$cs,*])
''']
for n, f in names:
    t = open(os.path.join(src, f), encoding='utf-8', newline='').read()
    k = t.count('\n')
    t = t.replace('\\', '\\\\').replace('"', '\\"').replace('\t', '\\t').replace('\r', '\\r')
    lines = t.split('\n')
    lines = [l + '\\n' for l in lines[:-1]] + ([lines[-1]] if lines[-1] else [])
    body = ',\n    '.join('chars! "' + l + '"' for l in lines)
    out.append(f'/-- `ct_core/templates/{f}` (lines 1-{k}) -/\ndef {n} : List Char :=\n  List.flatten [\n    {body}]\n')
out.append('end CT.CodeText.Tpl\n')
open('/verif/lean/Verif/Model/Templates.lean', 'w', encoding='utf-8').write('\n'.join(out))
