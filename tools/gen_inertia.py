#!/usr/bin/env python3
"""Writes lean/Verif/Props/RobotsInertia.lean: inertia parameters in the descriptions and in the code."""
import re
import gen_robots as G
from gen_kin import KINDSL, rat
from fractions import Fraction
from decimal import Decimal

OUT = '/verif/lean/Verif/Props/RobotsInertia.lean'
ANG = {'0.0': 0, 'PI/2.0': 1, '-PI/2.0': -1, 'PI': 2}

EPS = {'body': '0.01', 'link1': '0.00001', 'link2': '0.004'}


def parse(robot):
    path = f'/repo/ct_models/include/ct/models/{robot}/model/{KINDSL[robot]}.kindsl'
    links, frames = {}, {}
    cur = fr = None
    for n, l in enumerate(open(path), 1):
        l = l.split('//')[0]
        m = re.match(r'\s*(?:link|RobotBase)\s+(\w+)', l)
        if m:
            cur = links[m.group(1)] = dict(ref=None, lines=[n, n])
        m = re.match(r'\s*inertia_params', l)
        if m:
            cur['lines'][0] = n
        for k, v in re.findall(r'\b(mass|Ix|Iy|Iz|Ixy|Ixz|Iyz)\s*=\s*([-\d.]+)', l):
            cur[k] = Fraction(v)
            cur['lines'][1] = n
        m = re.match(r'\s*CoM\s*=\s*\((.*)\)', l)
        if m:
            cur['com'] = [Fraction(x.strip()) for x in m.group(1).split(',')]
        m = re.match(r'\s*ref_frame\s*=\s*(\w+)', l)
        if m:
            cur['ref'] = m.group(1)
            cur['lines'][1] = n
        m = re.match(r'\s*(fr_\w+)\s*\{', l)
        if m:
            fr = m.group(1)
        if re.match(r'\s*r_joint', l):
            fr = None
        m = re.match(r'\s*translation\s*=\s*\((.*)\)', l)
        if m and fr:
            frames[fr] = [[Fraction(x.strip()) for x in m.group(1).split(',')], None, n]
        m = re.match(r'\s*rotation\s*=\s*\((.*)\)', l)
        if m and fr:
            frames[fr][1] = [ANG[x.strip()] for x in m.group(1).split(',')]
    return links, frames


def r(x):
    return rat(Fraction(x))


w = ['''import Verif.Props.DescribedInertia
import Verif.Model.Robots.InvertedPendulum
import Verif.Model.Robots.DoubleInvertedPendulum
import Verif.Model.Robots.HyA
import Verif.Model.Robots.QuadrotorWithLoad

/-!
# C132: the inertia parameters of the robots (written by `tools/gen_inertia.py`)

Line numbers are those of the descriptions `<robot>/model/*.kindsl`.
-/

namespace CT.Robots

open CT.GenKin Spatial FrameJac
''']
for robot in KINDSL:
    links, frames = parse(robot)
    I = G.inertias(robot)
    w.append(f'namespace {robot}.Described\n')
    names = []
    for n, com, nums, a, b in I:
        mass, ten = nums[0], nums[1:]
        L = links[n]
        if L['ref']:
            t, q, ln = frames[L['ref']]
            ref = f'in the frame {L["ref"]}, lines {ln}-{ln + 1}'
        else:
            t, q, ref = [Fraction(0)] * 3, [0, 0, 0], 'in the frame of the link'
        s = ', '.join(r(x) for x in t) + ', ' + ', '.join(map(str, q))
        w.append(f'/-- `{n}` (lines {L["lines"][0]}-{L["lines"][1]}), {ref}. -/\ndef {n} : Body where\n  ref := ⟨0, {s}⟩\n'
                 f'  m := {r(L["mass"])}\n  cx := {r(L["com"][0])}\n  cy := {r(L["com"][1])}\n  cz := {r(L["com"][2])}\n'
                 + '\n'.join(f'  {k} := {r(L[k])}' for k in ('Ix', 'Iy', 'Iz', 'Ixy', 'Ixz', 'Iyz')) + '\n')
        names.append(n)
        cod = (f'⟨{r(mass)}, {", ".join(r(x) for x in com)}, ' + ', '.join(r(x) for x in ten) + '⟩')
        w.append(f'theorem coded_{n} (z : M6) : tensor_{n} z = Coded.matrix {cod} z := by\n'
                 f'  simp only [tensor_{n}, Coded.matrix]\n  norm_num\n')
        if robot != 'QuadrotorWithLoad':
            w.append(f'theorem ok_{n} (z : M6) : {n}.Agrees (2e-7 : ℚ) (tensor_{n} z) :=\n'
                     f'  coded_{n} z ▸ Body.agrees (by norm_num) (by decide +kernel) z\n')
    if robot == 'QuadrotorWithLoad':
        for n, e in EPS.items():
            w.append(f'theorem no_{n} (z : M6) : ¬ {n}.Agrees ({e} : ℚ) (tensor_{n} z) :=\n'
                     f'  coded_{n} z ▸ Body.not_agrees (by norm_num [{n}]) (by decide +kernel) z\n')
    w.append(f'end {robot}.Described\n')
    if robot != 'QuadrotorWithLoad':
        st = ' ∧\n    '.join(f'{robot}.Described.{n}.Agrees (2e-7 : ℚ) ({robot}.Inertias.new z).{n}' for n in names)
        pf = ', '.join(f'{robot}.Described.ok_{n} _' for n in names)
        pf = f'⟨{pf}⟩' if len(names) > 1 else pf
        w.append(f'/-- C132: the inertia parameters of the {robot} are those in its description, whatever the memory contained. -/\n'
                 f'theorem C132_{robot}_inertia (z : {robot}.Inertias) :\n    {st} :=\n  {pf}\n')
st = ' ∧\n    '.join(f'¬ QuadrotorWithLoad.Described.{n}.Agrees ({e} : ℚ) (QuadrotorWithLoad.Inertias.new z).{n}' for n, e in EPS.items())
pf = ', '.join(f'QuadrotorWithLoad.Described.no_{n} _' for n in EPS)
w.append('''/-- C132: the moments of inertia of all three links of the QuadrotorWithLoad are not those in its description.  The
largest moment of the body, 0.05, is about its z axis in the description and about its y axis in the code; the smallest
one of link1 is about z in the description and about y in the code, that of link2 about x in the description and
about z in the code. -/
theorem C132_QuadrotorWithLoad_inertia_violated (z : QuadrotorWithLoad.Inertias) :
    ''' + st + ' :=\n  ⟨' + pf + '⟩\n')
w.append('''/-- Point masses as in the definition of `Agrees` exist for every link. -/
example : ∃ (κ : Type) (_ : Fintype κ) (μ : κ → ℝ) (r : κ → V3), HyA.Described.Shoulder_AA.Masses μ r :=
  Body.exists_masses _ (by norm_num [HyA.Described.Shoulder_AA])
''')
w.append('end CT.Robots\n')
open(OUT, 'w').write('\n'.join(w))
