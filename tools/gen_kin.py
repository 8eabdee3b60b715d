#!/usr/bin/env python3
"""Writes the models of the generated kinematics and the certificates.

lean/Verif/Model/Robots/<robot>Kin.lean   translation of transforms.impl.h and jacobians.impl.h
lean/Verif/Props/Robots/<robot>Kin*.lean  one application of a rule for each pair of frames
"""
import ast
import re
import sys
from decimal import Decimal
from fractions import Fraction
import gen_robots as G

OUT = '/verif/lean/Verif'


def jacobians(robot):
    out = {}
    cur = mode = None
    for n, l in enumerate(G.read(robot, 'jacobians.impl.h'), 1):
        m = re.search(r'Jacobians<TRAIT>::Type_(\w+)::Type_(\w+)\s*\(', l)
        if m:
            assert m.group(1) == m.group(2)
            cur = out.setdefault(m.group(1), dict(ctor=[], loc=[], upd=[], cline=[n, n], uline=[n, n]))
            mode = 'ctor'
            continue
        m = re.search(r'::Type_(\w+)::update\(', l)
        if m:
            cur = out[m.group(1)]
            cur['uline'] = [n, n]
            mode = 'upd'
            continue
        if mode is None:
            continue
        if l.startswith('}'):
            cur['cline' if mode == 'ctor' else 'uline'][1] = n
            mode = None
            continue
        s = l.strip()
        m = re.match(r'\(\*this\)\((\d),(\d)\)\s*=\s*(.*);$', s)
        if m:
            cur[mode].append((int(m.group(1)), int(m.group(2)), m.group(3).strip()))
            continue
        m = re.match(r'(\w+)\s*=\s*(?:TRAIT::)?(sin|cos)\(\s*(?:jState|q)\((\w+)\)\);$', s)
        if m:
            cur['loc'].append(m.groups())
            continue
        assert s in ('', '{', 'return *this;') or re.match(r'(Scalar|SCALAR) \w+;$', s), (robot, n, s)
    return out


def jac_cols(robot):
    """The number of columns declared in jacobians.h."""
    out = {}
    for l in G.read(robot, 'jacobians.h'):
        m = re.search(r'class Type_(\w+) : public JacobianT<[^,]*,\s*(\d+)\s*,', l)
        if m:
            out[m.group(1)] = int(m.group(2))
    return out


def num(txt):
    d = Decimal(txt).normalize()
    s, dg, ex = d.as_tuple()
    m = int(''.join(map(str, dg))) * (-1 if s else 1)
    if ex > 0:
        m *= 10 ** ex
        ex = 0
    return m, -ex


def k(m, e):
    return f'.k {m} {e}' if m >= 0 else f'.k ({m}) {e}'


def expr(src, env):
    t = ast.parse(src, mode='eval').body

    def g(x):
        if isinstance(x, ast.BinOp):
            o = {'Add': '⊞', 'Sub': '⊟', 'Mult': '⊠'}[type(x.op).__name__]
            return f'({g(x.left)} {o} {g(x.right)})'
        if isinstance(x, ast.UnaryOp):
            assert isinstance(x.op, ast.USub)
            return f'(.neg {g(x.operand)})'
        if isinstance(x, ast.Name):
            a = env[x.id]
            return f'(.{a[0]} {a[1]})'
        if isinstance(x, ast.Constant):
            return f'({k(*num(ast.get_source_segment(src, x)))})'
        raise Exception(ast.dump(x))
    s = g(t)
    return s[1:-1] if s.startswith('(') and balanced(s[1:-1]) else s


def balanced(s):
    d = 0
    for c in s:
        d += (c == '(') - (c == ')')
        if d < 0:
            return False
    return True


def value0(src, loc):
    """Exact value at zero joint positions."""
    env = {a: Fraction(0 if f == 'sin' else 1) for a, f, _ in loc}
    t = ast.parse(src, mode='eval').body

    def g(x):
        if isinstance(x, ast.BinOp):
            a, b = g(x.left), g(x.right)
            return {'Add': a + b, 'Sub': a - b, 'Mult': a * b}[type(x.op).__name__]
        if isinstance(x, ast.UnaryOp):
            return -g(x.operand)
        if isinstance(x, ast.Name):
            return env[x.id]
        return Fraction(ast.get_source_segment(src, x))
    return g(t)


def dec(fr):
    """A fraction as a decimal number."""
    for e in range(40):
        if (fr * 10 ** e).denominator == 1:
            return int(fr * 10 ** e), e
    raise Exception(fr)


def asgs(l, env):
    return '[' + ',\n    '.join(f'⟨{i}, {j}, {expr(e, env)}⟩' for i, j, e in l) + ']'


def gen_def(name, doc, r, c, t, joints):
    env = {a: (f[0], joints.index(j)) for a, f, j in t['loc']}
    assert len(env) == len(t['loc'])
    return (f'/-- {doc} -/\ndef {name} : Gen where\n  rows := {r}\n  cols := {c}\n  ctor := {asgs(t["ctor"], {})}\n'
            f'  upd := {asgs(t["upd"], env)}\n')


class Robot:
    def __init__(self, robot):
        self.robot = robot
        self.T = G.transforms(robot)
        self.J = jacobians(robot)
        self.jcols = jac_cols(robot)
        self.joints, _ = G.enums(robot)[:2]
        self.pairs = [n for kd, n in self.T if kd == 'Homogeneous']
        for kd in ('Motion', 'Force'):
            assert [n for d, n in self.T if d == kd] == self.pairs, robot
        hdr = open(f'/repo/ct_models/include/ct/models/{robot}/{robot}.h').read()
        self.base = re.search(r'#define CT_BASE (\w+)', hdr).group(1)
        fix = lambda s: s if s.startswith('fr_') else 'fr_' + s
        self.links = [fix(x) for x in re.findall(r'#define CT_L\d+ (\w+)', hdr)]
        js = {}
        for n in self.pairs:
            a, b = n.split('_X_')
            if a == self.base:
                js[b] = frozenset(j for kd in ('Motion', 'Homogeneous') for _, _, j in self.T[(kd, n)]['loc'])
        self.js = js
        frames = {x for n in self.pairs for x in n.split('_X_')} - {self.base}
        assert frames == set(js), frames ^ set(js)
        self.parent, self.joint = {}, {}
        linkof = {frozenset(): self.base}
        for l in sorted(self.links, key=lambda l: (len(js[l]), self.links.index(l))):
            linkof[js[l]] = l
            cand = [(j, linkof[js[l] - {j}]) for j in js[l] if js[l] - {j} in linkof]
            # the joint of a link is the one that its parent does not have
            assert len(cand) == 1, (l, cand)
            self.joint[l], self.parent[l] = cand[0]
        self.order = self.links[:]
        for n in self.pairs:
            for f in n.split('_X_'):
                if f != self.base and f not in self.order:
                    self.order.append(f)
                    self.parent[f] = linkof[js[f]]
                    self.joint[f] = None
        self.id = {self.base: 0, **{f: i + 1 for i, f in enumerate(self.order)}}
        for f in self.order:
            assert self.id[self.parent[f]] < self.id[f]

    def at0(self, f):
        M = [[Fraction(int(i == j)) for j in range(4)] for i in range(4)]
        if f != self.base:
            t = self.T[('Homogeneous', f'{self.base}_X_{f}')]
            for i, j, e in t['ctor'] + t['upd']:
                M[i][j] = value0(e, t['loc'])
        return M

    def mount(self, f):
        A, B = self.at0(self.parent[f]), self.at0(f)
        R = [[sum(A[k][i] * B[k][j] for k in range(3)) for j in range(3)] for i in range(3)]
        p = [sum(A[k][i] * (B[k][3] - A[k][3]) for k in range(3)) for i in range(3)]
        return R, p

    def ancestors(self, f):
        out = [f]
        while f != self.base:
            f = self.parent[f]
            out.append(f)
        return out

    def path_joints(self, f):
        return [self.joints.index(self.joint[x]) for x in reversed(self.ancestors(f)) if x != self.base and self.joint[x]]

    def vars(self, a, b):
        s = set(self.path_joints(a)) ^ set(self.path_joints(b))
        return sorted(s)


def short(robot, f):
    return f


def model(r):
    robot = r.robot
    d = f'{robot}/generated'
    w = [f'''import Verif.Model.GenKin

/-!
# {robot}: generated kinematics

Translation of all coordinate transforms and Jacobians in
`ct_models/include/ct/models/{robot}/generated/transforms.impl.h` and `jacobians.impl.h`, one entry for each
assignment, written by `tools/gen_kin.py`.  Line numbers are those of these two files.
-/

namespace CT.Robots.{robot}.Kin

open CT.GenKin

/-! ### Frames, in the order of the links and then of their appearance -/
''']
    for f, i in r.id.items():
        w.append(f'abbrev {f} : ℕ := {i}')
    w.append('\n/-! ### Joints (declarations.h) -/\n')
    for i, j in enumerate(r.joints):
        w.append(f'abbrev {j} : ℕ := {i}')
    w.append('\n/-! ### Coordinate transforms -/\n')
    for n in r.pairs:
        a, b = n.split('_X_')
        for kd, pre, s in (('Homogeneous', 'hom', 4), ('Motion', 'motion', 6), ('Force', 'force', 6)):
            t = r.T[(kd, n)]
            doc = (f'`{kd}Transforms::Type_{n}` (transforms.impl.h:{t["cline"][0]}-{t["cline"][1]}, '
                   f'{t["uline"][0]}-{t["uline"][1]}).')
            w.append(gen_def(f'{pre}_{n}', doc, s, s, t, r.joints))
        w.append(f'/-- The transforms `{n}`. -/\ndef {n} : Trans := ⟨{a}, {b}, hom_{n}, motion_{n}, force_{n}⟩\n')
    w.append('/-- All pairs of frames for which transforms are generated. -/\ndef transforms : List Trans :=\n  ['
             + ',\n    '.join(r.pairs) + ']\n')
    w.append('/-! ### Jacobians -/\n')
    js = []
    for n, t in r.J.items():
        a, f = n.split('_J_')
        assert a == r.base
        doc = f'`Jacobians::Type_{n}` (jacobians.impl.h:{t["cline"][0]}-{t["cline"][1]}, {t["uline"][0]}-{t["uline"][1]}).'
        w.append(gen_def(f'gen_{n}', doc, 6, r.jcols[n], t, r.joints))
        w.append(f'/-- The Jacobian `{n}`. -/\ndef {n} : Jac := ⟨{f}, gen_{n}⟩\n')
        js.append(n)
    w.append('/-- All Jacobians. -/\ndef jacobians : List Jac :=\n  [' + ',\n    '.join(js) + ']\n')
    w.append(f'end CT.Robots.{robot}.Kin\n')
    open(f'{OUT}/Model/Robots/{robot}Kin.lean', 'w').write('\n'.join(w))


def mount_e(fr):
    return k(*dec(fr))


def steps(r):
    """The rule for each pair of frames, in an order in which the pairs used come first."""
    todo = list(r.pairs)
    done = []
    have = set()
    rules = {}
    last = None

    def chain(a, b):
        """Frames from the ancestor a down to b."""
        an = r.ancestors(b)
        return an[:an.index(a) + 1][::-1]
    while todo:
        progress = False
        for n in list(todo):
            a, b = n.split('_X_')
            rule = None
            if b in r.parent and r.parent[b] == a:
                rule = f'(mount_{b})'
            elif a in r.parent and r.parent[a] == b:
                rule = f'((mount_{a}).inv wf_ok)'
            elif a in r.ancestors(b):
                c = chain(a, b)
                if f'{a}_X_{c[-2]}' in have:
                    rule = f'((g_{a}_X_{c[-2]}).comp wf_ok mount_{b})'
                elif f'{c[1]}_X_{b}' in have:
                    rule = f'((mount_{c[1]}).comp wf_ok g_{c[1]}_X_{b})'
                elif len(todo) == last and f'{b}_X_{a}' in have:
                    rule = f'((g_{b}_X_{a}).inv wf_ok)'
            else:
                c = chain(b, a)
                if f'{c[-2]}_X_{b}' in have:
                    rule = f'(((mount_{a}).inv wf_ok).comp wf_ok g_{c[-2]}_X_{b})'
                elif f'{a}_X_{c[1]}' in have:
                    rule = f'((g_{a}_X_{c[1]}).comp wf_ok ((mount_{c[1]}).inv wf_ok))'
                elif len(todo) == last and f'{b}_X_{a}' in have:
                    rule = f'((g_{b}_X_{a}).inv wf_ok)'
            if rule:
                rules[n] = rule
                have.add(n)
                todo.remove(n)
                progress = True
        assert progress or len(todo) != last, (r.robot, todo)
        last = len(todo)
        done = list(rules)
    return [(n, rules[n]) for n in done]


def props(r, parts):
    robot = r.robot
    w = [f'''import Verif.Model.Robots.{robot}Kin
import Verif.Props.GenKinBase

/-! # {robot}: mounting poses of the frames (written by `tools/gen_kin.py`) -/

namespace CT.Robots.{robot}.Kin

open CT.GenKin
''']
    for f in r.order:
        R, p = r.mount(f)
        jo = f'some {r.joint[f]}' if r.joint[f] else 'none'
        w.append(f'def m_{f} : Mount where\n  id := {f}\n  parent := {r.parent[f]}\n  joint := {jo}\n  R := ['
                 + ', '.join(mount_e(x) for row in R for x in row) + ']\n  p := [' + ', '.join(mount_e(x) for x in p) + ']\n')
    w.append('def mountList : List Mount :=\n  [' + ',\n    '.join('m_' + f for f in r.order) + ']\n')
    w.append('theorem wf_ok : wf mountList = true := by decide +kernel\n')
    for i, f in enumerate(r.order):
        w.append(f'theorem mount_{f} : Good mountList {r.parent[f]} {f} m_{f}.tri :=\n  Good.mount wf_ok (f := m_{f}) '
                 f'(List.mem_of_getElem? (i := {i}) rfl)\n')
    w.append(f'end CT.Robots.{robot}.Kin\n')
    open(f'{OUT}/Props/Robots/{robot}Mount.lean', 'w').write('\n'.join(w))
    st = steps(r)
    return st


def certs(r, st, suffix, imports):
    robot = r.robot
    w = [''.join(f'import Verif.Props.Robots.{i}\n' for i in imports) +
         f'\n/-! # {robot}: transforms (written by `tools/gen_kin.py`) -/\n\nnamespace CT.Robots.{robot}.Kin\n\nopen CT.GenKin\n']
    for n, rule in st:
        a, b = n.split('_X_')
        vs = str(r.vars(a, b))
        w.append(f'theorem g_{n} : Good mountList {a} {b} {n}.tri :=\n  {rule}.congr {vs} (by decide +kernel)\n')
        w.append(f'theorem o_{n} : {n}.ok {vs} = true := by decide +kernel\n')
    w.append(f'end CT.Robots.{robot}.Kin\n')
    open(f'{OUT}/Props/Robots/{robot}Kin{suffix}.lean', 'w').write('\n'.join(w))


KINDSL = {'InvertedPendulum': 'ct_InvertedPendulum', 'DoubleInvertedPendulum': 'ct_DoubleInvertedPendulum',
          'HyA': 'ct_HyA', 'QuadrotorWithLoad': 'ct_quadrotor'}


def description(r):
    """Translation and rotation of every frame in the description, with its line numbers."""
    path = f'/repo/ct_models/include/ct/models/{r.robot}/model/{KINDSL[r.robot]}.kindsl'
    link = joint = name = None
    tr = {}
    on = {}
    via = {}
    t = None
    for n, l in enumerate(open(path), 1):
        l = l.split('//')[0]
        m = re.match(r'\s*(?:link|RobotBase)\s+(\w+)', l)
        if m:
            link, joint = m.group(1), None
        m = re.match(r'\s*r_joint\s+(\w+)', l)
        if m:
            joint = m.group(1)
        m = re.match(r'\s*(\w+) via (\w+)', l)
        if m:
            via[m.group(2)] = (link, m.group(1))
        m = re.match(r'\s*(fr_\w+)\s*\{', l)
        if m:
            name = m.group(1)
            on[name] = link
        m = re.match(r'\s*translation\s*=\s*\((.*)\)', l)
        if m:
            t = [Fraction(x.strip()) for x in m.group(1).split(',')]
            tl = n
        m = re.match(r'\s*rotation\s*=\s*\((.*)\)', l)
        if m:
            rot = []
            for x in m.group(1).split(','):
                x = x.strip()
                rot.append({'0.0': 0, 'PI/2.0': 1, '-PI/2.0': -1, 'PI': 2}[x])
            if joint:
                par, child = via[joint]
                for f in (f'fr_{child}', f'fr_{joint}'):
                    if f in tr:
                        assert tr[f][:2] == (t, rot), f
                    tr[f] = (t, rot, tl, n)
                on[f'fr_{joint}'] = par
                on[f'fr_{child}'] = (par, joint)
            else:
                tr[name] = (t, rot, tl, n)
    out = []
    for f in r.order:
        d = tr[f]
        if r.joint[f]:
            par, jn = on[f]
            assert jn.upper() == r.joint[f].upper(), f
        else:
            par = on[f]
        assert r.parent[f] == 'fr_' + par, (f, par)
        out.append((f, *d))
    return out


def rat(x):
    s = format(Decimal(repr(float(x))), 'f') if x.denominator != 1 else str(x.numerator)
    assert Fraction(s) == x
    return f'({s})' if x < 0 else s


def final(r):
    robot = r.robot
    descr = dstat = dproof = ''
    how = 'at fixed poses'
    if robot in KINDSL:
        ds = description(r)
        ex = [(i, *d) for i, d in enumerate(ds) if r.mount(d[0])[1] == d[1]]
        ro = [(i, *d) for i, d in enumerate(ds) if r.mount(d[0])[1] != d[1]]
        row = lambda l: '\n    '.join(f'⟨{f}, {rat(t[0])}, {rat(t[1])}, {rat(t[2])}, {q[0]}, {q[1]}, {q[2]}⟩'
                                     + (']' if i == l[-1][0] else ',') + f'  -- {a}-{b}' for i, f, t, q, a, b in l)
        descr = (f'''
/-- The poses in the description of the robot (`{robot}/model/{KINDSL[robot]}.kindsl`; the comments are line numbers). -/
def description : List Descr :=
  [''' + row(ex) + '''

theorem described_ok : ∀ d ∈ description, mounts mountList d.id = d.pose :=
  ''' + ''.join(f'List.forall_mem_cons.2 ⟨described wf_ok (m := m_{d[1]}) (List.mem_of_getElem? (i := {d[0]}) rfl) (by decide +kernel),\n    '
               for d in ex) + 'List.forall_mem_nil _' + '⟩' * len(ex) + '\n')
        dstat = ' (∀ d ∈ description, C d.id = d.pose) ∧'
        dproof = 'described_ok, '
        how = 'as described'
        if ro:
            descr += ('''
/-- The other poses in the description: the generated code has rounded these numbers. -/
def roundedDescription : List Descr :=
  [''' + row(ro) + '''

theorem rounded_ok : ∀ d ∈ roundedDescription, d.Rounded (mounts mountList d.id) :=
  ''' + ''.join(f'List.forall_mem_cons.2 ⟨rounded wf_ok (m := m_{d[1]}) (x := {rat(r.mount(d[1])[1][0])}) '
                f'(y := {rat(r.mount(d[1])[1][1])}) (z := {rat(r.mount(d[1])[1][2])})\n      '
                f'(List.mem_of_getElem? (i := {d[0]}) rfl) (by decide +kernel),\n    '
                for d in ro) + 'List.forall_mem_nil _' + '⟩' * len(ro) + '\n')
            dstat += '\n    (∀ d ∈ roundedDescription, d.Rounded (C d.id)) ∧'
            dproof += 'rounded_ok, '
            how += ' (some after rounding)'
    w = [f'''import Verif.Props.Robots.{robot}Kin
import Verif.Props.GenKinJac
import Verif.Props.GenKinDescr

/-! # {robot}: forward kinematics and Jacobians (written by `tools/gen_kin.py`) -/

namespace CT.Robots.{robot}.Kin

open CT.GenKin Spatial FrameJac

/-- The frames of the robot.  Each is mounted on the frame of a link (or of the base); the frames of the links
turn with their joint. -/
def frames : List Frame :=
  [''' + ',\n    '.join(f'⟨{f}, {r.parent[f]}, ' + (f'some {r.joint[f]}' if r.joint[f] else 'none') + '⟩' for f in r.order)
         + f''']

theorem frames_eq : mountList.map Mount.toFrame = frames := rfl
{descr}
theorem transforms_right (q : ℕ → ℝ) :
    ∀ x ∈ transforms, x.Right q (Pose.rel (poses mountList q x.A) (poses mountList q x.B)) :=
  ''']
    for n in r.pairs:
        w[-1] += f'List.forall_mem_cons.2 ⟨Trans.right o_{n} g_{n} q,\n    '
    w[-1] += 'List.forall_mem_nil _' + '⟩' * len(r.pairs) + '\n'
    w.append(f'''/-- C130: all transforms of the {robot} are those between its frames, which are mounted {how}. -/
theorem C130_{robot}_transforms :
    ∃ C : ℕ → Pose, (∀ f, IsRot (C f).R) ∧{dstat}
    ∀ q, ∃ G, Arranged frames C q G ∧ ∀ x ∈ transforms, x.Right q (Pose.rel (G x.A) (G x.B)) := by
  refine ⟨mounts mountList, mounts_rot wf_ok, {dproof}fun q => ⟨poses mountList q, ?_, transforms_right q⟩⟩
  rw [← frames_eq]
  exact arranged wf_ok q
''')
    w.append('theorem parents : ∀ g ∈ mountList, g.parent = 0 ∨ ∃ g\' ∈ mountList, g\'.id = g.parent := by decide +kernel\n')
    for n in r.J:
        a, f = n.split('_J_')
        x = f'{a}_X_{f}'
        ls = [l for l in reversed(r.ancestors(f)) if l != r.base and r.joint[l]]
        cs = '[' + ', '.join(f'({r.joint[l]}, {a}_X_{l})' for l in ls) + ']'
        hc = ''.join(f'List.forall_mem_cons.2 ⟨g_{a}_X_{l}, ' for l in ls) + 'List.forall_mem_nil _' + '⟩' * len(ls)
        w.append(f'theorem j_{n} : {n}.Right frames transforms := by\n  rw [← frames_eq]\n'
                 f'  exact Jac.right (cs := {cs}) wf_ok parents\n'
                 f'    (Or.inr ⟨m_{f}, List.mem_of_getElem? (i := {r.order.index(f)}) rfl, rfl⟩)\n'
                 f'    (List.mem_of_getElem? (i := {r.pairs.index(x)}) rfl) o_{x} g_{x}\n'
                 f'    ({hc})\n    (by decide +kernel)\n')
    w.append(f'''/-- C131: all Jacobians of the {robot} map joint velocities to the velocities of their frames. -/
theorem C131_{robot}_jacobians : ∀ j ∈ jacobians, j.Right frames transforms :=
  ''' + ''.join(f'List.forall_mem_cons.2 ⟨j_{n},\n    ' for n in r.J) + 'List.forall_mem_nil _' + '⟩' * len(r.J) + '\n')
    w.append(f'end CT.Robots.{robot}.Kin\n')
    open(f'{OUT}/Props/Robots/{robot}Frames.lean', 'w').write('\n'.join(w))


if __name__ == '__main__':
    for robot in sys.argv[1:] or G.ROBOTS:
        r = Robot(robot)
        model(r)
        st = props(r, 1)
        certs(r, st, '', [f'{robot}Mount'])
        final(r)
