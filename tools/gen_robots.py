#!/usr/bin/env python3
"""Translates the generated robot code of ct_models into Lean, statement by statement.

Reads /repo/ct_models/include/ct/models/<robot>/generated and writes
lean/Verif/Model/Robots/<robot>.lean.  Every statement of the translated functions becomes one `let`; a
statement that does not fit one of the known forms stops the translation, as does a member that a function
reads before it writes it, unless it is one of the members that the model keeps as state.
"""
import os
import re
import sys

BASE = '/repo/ct_models/include/ct/models/'
OUT = os.path.join(os.path.dirname(os.path.abspath(__file__)), '..', 'lean', 'Verif', 'Model', 'Robots')
ROBOTS = ['InvertedPendulum', 'DoubleInvertedPendulum', 'HyA', 'QuadrotorWithLoad', 'HyQ']


def read(robot, name):
    return open(BASE + robot + '/generated/' + name).read().split('\n')


# ---------------------------------------------------------------- transforms

def transforms(robot):
    out = {}
    cur = mode = None
    for n, l in enumerate(read(robot, 'transforms.impl.h'), 1):
        m = re.search(r'(Motion|Force|Homogeneous)Transforms<TRAIT>::Type_(\w+)::Type_(\w+)\s*\(', l)
        if m:
            assert m.group(2) == m.group(3)
            cur = out.setdefault((m.group(1), m.group(2)), dict(ctor=[], loc=[], upd=[], cline=[n, n], uline=[n, n]))
            mode = 'ctor'
            continue
        m = re.search(r'::Type_(\w+)::update\(', l)
        if m:
            k = re.search(r'(Motion|Force|Homogeneous)Transforms<TRAIT>::Type_' + m.group(1) + '::update', l).group(1)
            cur = out[(k, m.group(1))]
            mode = 'upd'
            cur['uline'] = [n, n]
            continue
        if mode is None:
            continue
        if l.startswith('}'):
            cur['cline' if mode == 'ctor' else 'uline'][1] = n
            mode = None
            continue
        s = l.strip()
        m = re.match(r'\(\*this\)\((\d),(\d)\)\s*=\s*(.*);$', s)
        if m:
            cur[mode].append((int(m.group(1)), int(m.group(2)), m.group(3).strip()))
            continue
        m = re.match(r'(\w+)\s*=\s*(?:TRAIT::)?(sin|cos)\(\s*q\((\w+)\)\);$', s)
        if m and mode == 'upd':
            cur['loc'].append(m.groups())
            continue
        assert s in ('', '{', 'return *this;') or re.match(r'(Scalar|SCALAR) \w+;$', s), (robot, n, s)
    return out


def scal(e):
    """Scalar expression of a transform, unchanged up to white space and redundant parentheses."""
    e = re.sub(r'\s+', ' ', e).strip()
    assert re.match(r'^[\w\s().+*-]*$', e), e
    e = e.replace('( ', '(').replace('- ', '-')
    e = re.sub(r'(?<=[\w)]) -', ' - ', e)
    e = re.sub(r'\s+', ' ', e)
    return e


def matrix(n, entries, z):
    rows = []
    for i in range(n):
        rows.append(', '.join(entries.get((i, j), '%s %d %d' % (z, i, j)) for j in range(n)))
    return '!![' + ';\n     '.join(rows) + ']'


def emit_transform(robot, kind, name, t, ty, n):
    c = {(i, j): scal(e) for i, j, e in t['ctor']}
    u = {(i, j): scal(e) for i, j, e in t['upd']}
    f = robot + '/generated/transforms.impl.h'
    pre = kind.lower() + '_' + name
    o = []
    o.append('/-- Constructor of `%sTransforms::%s` (%s:%d-%d); `z` is what the memory contained. -/' % (kind, name, f, *t['cline']))
    o.append('noncomputable def %s_new (z : %s) : %s :=\n  %s\n' % (pre, ty, ty, matrix(n, c, 'z')))
    o.append('/-- `%sTransforms::%s::update` (%s:%d-%d). -/' % (kind, name, f, *t['uline']))
    o.append('noncomputable def %s_update (z : %s) (q : Q) : %s :=' % (pre, ty, ty))
    for v, fn, j in t['loc']:
        o.append('  let %s := Real.%s (q %s)' % (v, fn, j))
    if not t['loc']:
        o[-1] = o[-1].replace('(q : Q)', '(_q : Q)')
    o.append('  %s\n' % matrix(n, u, 'z'))
    return '\n'.join(o)


# ---------------------------------------------------------------- expressions

TOK = re.compile(r'\s*(->|[A-Za-z_][\w]*(?:::\w+)*(?:<\w+>)?|\d+(?:\.\d*)?|.)')


def tokens(s):
    return [t for t in TOK.findall(s) if t.strip()]


class Tr:
    """Translation of the statements of one function."""

    def __init__(self, robot, joints, base):
        self.robot = robot
        self.joints = joints
        self.base = base
        self.assigned = {}    # name -> type
        self.state = {}       # members kept as state that have been read or written
        self.lets = []
        self.locals = {}

    def ty(self, x):
        if re.search(r'_(AI|Ic|I)$', x) or x in ('vcross', 'Ia_r', 'IaB', 'Ic_spare'):
            return 'M'
        if re.search(r'_(v|a|c|p|f|U)$', x) or x in ('pa', 'F', 'g', 'baseAccel', 'baseWrench'):
            return 'V'
        if re.search(r'_(D|u)$', x):
            return 'S'
        raise Exception('type of ' + x)

    def use(self, x):
        if x in self.assigned or x in self.params:
            return x
        if x.endswith('_I') :
            return 'i.' + x[:-2]
        if x.endswith('_Ic') and x[:-3] in self.leaves:
            return 'i.' + x[:-3]
        if x in self.members:
            self.assigned[x] = True
            return x
        raise Exception('%s: %s is read before it is written' % (self.robot, x))

    # grammar: expr = term (('+'|'-') term)*; term = unary (('*'|'/') unary)*
    def parse(self, s):
        self.t = tokens(s)
        self.k = 0
        e = self.expr()
        assert self.k == len(self.t), (s, self.t[self.k:])
        return e

    def peek(self, d=0):
        return self.t[self.k + d] if self.k + d < len(self.t) else None

    def eat(self, x=None):
        v = self.t[self.k]
        assert x is None or v == x, (v, x, self.t)
        self.k += 1
        return v

    def expr(self):
        a = self.term()
        while self.peek() in ('+', '-'):
            o = self.eat()
            b = self.term()
            assert a[0] == b[0], (a, b)
            a = (a[0], '(%s %s %s)' % (a[1], o, b[1]))
        return a

    def term(self):
        a = self.unary()
        while self.peek() in ('*', '/'):
            o = self.eat()
            b = self.unary()
            a = self.mul(a, b) if o == '*' else self.div(a, b)
        return a

    def mul(self, a, b):
        k = a[0] + b[0]
        if k == 'MV':
            return ('V', '(%s *ᵥ %s)' % (a[1], b[1]))
        if k == 'MM':
            return ('M', '(%s * %s)' % (a[1], b[1]))
        if k == 'SS':
            return ('S', '(%s * %s)' % (a[1], b[1]))
        if k == 'VS':
            return ('V', '(fun k => %s k * %s)' % (a[1], b[1]))
        if k == 'RV':
            return ('S', '(%s ⬝ᵥ %s)' % (a[1], b[1]))
        raise Exception((a, b))

    def div(self, a, b):
        assert b[0] == 'S'
        if a[0] == 'S':
            return ('S', '(%s / %s)' % (a[1], b[1]))
        return ('V', '(fun k => %s k / %s)' % (a[1], b[1]))

    def unary(self):
        if self.peek() == '-':
            self.eat()
            a = self.unary()
            return (a[0], '(-%s)' % a[1])
        return self.postfix()

    def postfix(self):
        a = self.atom()
        while True:
            if self.peek() == '.':
                self.eat()
                f = self.eat()
                self.eat('(')
                if f == 'transpose':
                    self.eat(')')
                    a = ('M', '%sᵀ' % a[1])
                elif f == 'inverse':
                    self.eat(')')
                    a = ('M', '%s⁻¹' % a[1])
                elif f in ('col', 'row'):
                    i = self.axis()
                    self.eat(')')
                    a = ('V', '(fun k => %s k %d)' % (a[1], i)) if f == 'col' else ('R', '(%s %d)' % (a[1], i))
                elif f == 'dot':
                    b = self.expr()
                    self.eat(')')
                    assert a[0] + b[0] == 'VV'
                    a = ('S', '(%s ⬝ᵥ %s)' % (a[1], b[1]))
                else:
                    raise Exception(f)
            elif self.peek() == '(' and a[0] == 'V':
                self.eat('(')
                i = self.axis()
                self.eat(')')
                a = ('S', '(%s %d)' % (a[1], i))
            elif self.peek() == '(' and a[0] == 'S' and self.peek(1) == '0':
                self.k += 3
                assert self.t[self.k - 1] == ')'
            else:
                return a

    def axis(self):
        x = self.eat().split('::')[-1]
        return ['AX', 'AY', 'AZ', 'LX', 'LY', 'LZ'].index(x)

    def atom(self):
        x = self.eat()
        if x == '(':
            e = self.expr()
            self.eat(')')
            return e
        if x in ('motionTransforms', 'xm', 'frcTransf'):
            self.eat('->')
            n = self.eat()
            return ('M', ('m.' if x != 'frcTransf' else 'ft.') + n)
        if x in ('SCALAR', 'Scalar'):
            self.eat('(')
            assert self.eat() == 'iit::rbd::g'
            self.eat(')')
            return ('S', 'grav')
        if x in ('qd', 'tau', 'qdd', 'jForces'):
            self.eat('(')
            j = self.eat()
            self.eat(')')
            assert j in self.joints
            if (x, j) in self.locals:
                return ('S', '%s_%s' % (x, j))
            assert x in self.params, x
            return ('S', '%s %s' % (x, j) if False else '(%s %s)' % (x, j))
        if x == 'fext':
            self.eat('[')
            j = self.eat()
            self.eat(']')
            return ('V', '(fext %s)' % j)
        if x in ('inertiaProps', 'linkInertias'):
            if self.peek() == '->':
                self.eat('->')
            else:
                self.eat('.')
            g = self.eat()
            self.eat('(')
            self.eat(')')
            assert g.startswith('getTensor_')
            return ('M', 'i.' + g[len('getTensor_'):])
        if x == 'iit::rbd::vxIv':
            self.eat('(')
            a = self.expr()
            self.eat(',')
            b = self.expr()
            self.eat(')')
            assert b[0] == 'M'
            return ('V', '(%s %s %s)' % ('vxIvz' if a[0] == 'S' else 'vxIv', a[1], b[1]))
        if x == 'TRAIT::solve':
            self.eat('(')
            a = self.expr()
            self.eat(',')
            b = self.expr()
            self.eat(')')
            return ('V', '(%s⁻¹ *ᵥ %s)' % (a[1], b[1]))
        if x == 'Fcol':
            self.eat('(')
            j = self.eat()
            self.eat(')')
            assert j in self.joints and ('Fcol', j) in self.locals
            return ('V', 'F_' + j)
        if x == 'F' and self.float:
            self.eat('(')
            i = self.axis()
            self.eat(',')
            j = self.eat()
            self.eat(')')
            return ('S', '(F_%s %d)' % (j, i))
        if x == 'DATA':
            a, b = self.data()
            return ('S', 'DATA_%s_%s' % (a, b))
        return (self.ty(x), self.use(x))

    def data(self):
        self.eat('(')
        r = []
        for end in (',', ')'):
            j = self.eat()
            assert j in self.joints
            if self.float:
                self.eat('+')
                self.eat('6')
            self.eat(end)
            r.append(j)
        return r

    def let(self, x, e, t=None):
        ty = {'M': 'M6', 'V': 'V6', 'S': 'ℝ'}[t]
        self.lets.append('  let %s : %s := %s' % (x, ty, e[1:-1] if self.wrapped(e) else e))

    @staticmethod
    def wrapped(e):
        if not (e.startswith('(') and e.endswith(')')):
            return False
        d = 0
        for k, c in enumerate(e):
            d += (c == '(') - (c == ')')
            if d == 0:
                return k == len(e) - 1

    def stmt(self, s):
        s = re.sub(r'//.*', '', s).strip()
        s = re.sub(r'/\*.*?\*/', '', s).strip()
        if s in ('', 'Matrix66S IaB;', 'Force pa;', 'ForceVector F;', 'return *this;'):
            return
        assert s.endswith(';'), s
        s = s[:-1].strip()
        m = re.match(r'^iit::rbd::motionCrossProductMx<(?:SCALAR|Scalar)>\((\w+), vcross\)$', s)
        if m:
            self.let('vcross', '(motionCrossProductMx %s %s)' % (self.use(m.group(1)), self.use('vcross')), 'M')
            return
        m = re.match(r'^iit::rbd::compute_Ia_revolute(?:<\w+>)?\((\w+), (\w+), (\w+), Ia_r\)$', s)
        if m:
            self.let('Ia_r', '(computeIaRevolute %s %s %s %s)' % (*[self.use(x) for x in m.groups()], self.use('Ia_r')), 'M')
            return
        m = re.match(r'^(?:iit::rbd::)?ctransform_Ia_revolute(?:<\w+>)?\(Ia_r, motionTransforms-> (\w+), IaB\)$', s)
        if m:
            self.let('IaB', '(ctransformIaRevolute %s m.%s)' % (self.use('Ia_r'), m.group(1)), 'M')
            self.assigned['IaB'] = True
            return
        m = re.match(r'^iit::rbd::transformInertia(?:<\w+>)?\((\w+), frcTransf -> (\w+), Ic_spare\)$', s)
        if m:
            self.let('Ic_spare', '(transformInertia %s ft.%s %s)' % (self.use(m.group(1)), m.group(2), self.use('Ic_spare')), 'M')
            return
        m = re.match(r'^(\w+)_Ic \+= Ic_spare$', s)
        if m:
            x = m.group(1) + '_Ic'
            self.let(x, '(Inertia.addAssign %s %s)' % (self.use(x), self.use('Ic_spare')), 'M')
            return
        m = re.match(r'^frcTransf -> (\w+)\(state\)$', s)
        if m:
            self.fts.append(m.group(1))
            return
        m = re.match(r'^(firstPass|secondPass|secondPass_fullyActuated)\(([\w, ]*)\)$', s)
        if m:
            for x in self.funs[m.group(1)]:
                self.stmt(x)
            return
        m = re.match(r'^DATA\(([\w+]+), ([\w+]+)\) = (.*)$', s)
        if m:
            self.t = tokens(s[4:])
            self.k = 0
            a, b = self.data()
            self.eat('=')
            e = self.expr()
            assert self.k == len(self.t)
            self.let('DATA_%s_%s' % (a, b), e[1], 'S')
            self.locals[('DATA', a, b)] = True
            return
        m = re.match(r'^Fcol\((\w+)\) = (.*)$', s)
        if m:
            e = self.parse(m.group(2))
            self.let('F_' + m.group(1), e[1], 'V')
            self.locals[('Fcol', m.group(1))] = True
            return
        m = re.match(r'^JSIM<TRAIT>:: template block<(\d+), 6>\(6,0\) = \(JSIM<TRAIT>:: template block<6, (\d+)>\(0,6\)\)\.transpose\(\)$', s)
        if m:
            assert m.group(1) == m.group(2) == str(len(self.joints))
            self.copied = True
            return
        m = re.match(r'^JSIM<TRAIT>:: template block<6,6>\(0,0\) = (\w+)_Ic$', s)
        if m:
            assert m.group(1) == self.base and self.copied
            self.corner = True
            return
        m = re.match(r'^(qdd|jForces)\((\w+)\) = (.*)$', s)
        if m:
            x, j, e = m.groups()
            e = self.parse(e)
            assert e[0] == 'S'
            self.let('%s_%s' % (x, j), e[1], 'S')
            self.locals[(x, j)] = True
            return
        m = re.match(r'^(\w+)\((?:iit::)?rbd::AZ\) (\+?=) (.*)$', s)
        if m:
            x, o, e = m.groups()
            e = self.parse(e)
            assert e[0] == 'S' and self.ty(x) == 'V'
            self.use(x)
            self.let(x, '(bump %s %s)' % (x, e[1]) if o == '+=' else '(Function.update %s 2 %s)' % (x, e[1]), 'V')
            return
        m = re.match(r'^(?:const )?(?:Acceleration&? )?(\w+) ([+-]?=) (.*)$', s)
        if m:
            x, o, r = m.groups()
            e = self.parse(r)
            t = self.ty(x)
            assert t == e[0], (s, e)
            if o == '=':
                if re.search('_Ic$', x) and not re.match(r'^[\w.()]*$', r):
                    assert not r.startswith('linkInertias') or True
                    self.let(x, '(Inertia.assign %s %s)' % (self.use(x), e[1]), t)
                else:
                    self.let(x, e[1], t)
            else:
                self.let(x, '(%s %s %s)' % (self.use(x), o[0], e[1]), t)
            self.assigned[x] = True
            return
        raise Exception('%s: unknown statement %r' % (self.robot, s))


def functions(robot, name):
    """Bodies of the functions of a file, with their lines."""
    L = read(robot, name)
    out = {}
    k = 0
    while k < len(L):
        m = re.search(r'TRAIT>::(\w+)\s*\($', L[k]) or re.search(r'TRAIT>::(\w+)\(([^;]*)\)?\s*\{?$', L[k])
        if m and not L[k].strip().startswith('#'):
            f = m.group(1)
            start = k + 1
            while not L[k].rstrip().endswith('{'):
                k += 1
            body = []
            k += 1
            while L[k].strip() != '}':
                body.append(L[k])
                k += 1
            out[f] = (body, start, k + 1)
        k += 1
    return out


# ---------------------------------------------------------------- robots

def enums(robot):
    s = '\n'.join(read(robot, 'declarations.h'))
    r = []
    for n in ('JointIdentifiers', 'LinkIdentifiers'):
        b = re.search(r'enum ' + n + r' \{(.*?)\}', s, re.S).group(1)
        r.append([x.split('=')[0].strip() for x in b.split(',')])
        assert re.match(r'\s*\w+ = 0', b)
    return r


def inertias(robot):
    L = '\n'.join(read(robot, 'inertia_properties.impl.h'))
    out = []
    for m in re.finditer(r'com_(\w+) = [\w:]*Vector3d\(([^)]*)\).*?tensor_\1\.fill\((.*?)\)\s*\)\s*;', L, re.S):
        nums = re.findall(r'S(?:CALAR|calar)\(([^)]*)\)', m.group(3))
        assert len(nums) == 7
        a = L[:m.start()].count('\n') + 1
        b = L[:m.end()].count('\n') + 1
        out.append((m.group(1), [x.strip() for x in m.group(2).split(',')], [x.strip() for x in nums], a, b))
    return out


def tree(robot):
    """Links in the order of setJointStatus: (link, parent, transform)."""
    s = read(robot, 'forward_dynamics.h')
    k = next(i for i, l in enumerate(s) if 'ForwardDynamics<TRAIT>::setJointStatus' in l)
    out = []
    a = k + 1
    k += 1
    while s[k].strip() != '}':
        m = re.match(r'\s*\(motionTransforms-> (fr_(\w+)_X_fr_(\w+))\)\(q\);$', s[k])
        assert m, s[k]
        out.append((m.group(2), m.group(3), m.group(1)))
        k += 1
    s2 = '\n'.join(read(robot, 'inverse_dynamics.h'))
    b = re.search(r'InverseDynamics<TRAIT>::setJointStatus\([^)]*\) const\s*\{(.*?)\}', s2, re.S)
    got = re.findall(r'\(xm->(\w+)\)\(q\);', b.group(1))
    assert got == [x[2] for x in out], robot
    assert b.group(1).count(';') == len(got)
    return out, (a, k + 1)


def joint_of(robot, links, fd_body):
    """Which joint moves which link: read off `qdd(J) = (link_u ...`."""
    r = {}
    for l in fd_body:
        m = re.match(r'\s*qdd\((\w+)\) = \((\w+)_u -', l)
        if m:
            r[m.group(2)] = m.group(1)
    assert set(r) == set(links)
    return r


def generate(robot):
    joints, linkids = enums(robot)
    T = transforms(robot)
    I = inertias(robot)
    tr, sjs = tree(robot)
    links = [x[0] for x in tr]
    parent = {x[0]: x[1] for x in tr}
    xname = {x[0]: x[2] for x in tr}
    roots = [l for l in links if parent[l] not in links]
    floating = robot in ('QuadrotorWithLoad', 'HyQ')
    base = parent[roots[0]] if floating else None
    nJ, nL = len(joints), len(linkids)
    fdF = functions(robot, 'forward_dynamics.impl.h')
    idF = functions(robot, 'inverse_dynamics.impl.h')
    jsF = functions(robot, 'jsim.impl.h')
    jof = joint_of(robot, links, fdF['fd'][0])
    leaves = [l for l in links if l not in parent.values()]
    gen = robot + '/generated/'
    o = []
    w = o.append
    w('import Mathlib.Analysis.SpecialFunctions.Trigonometric.Basic')
    w('import Verif.Model.Articulated\n')
    w('/-!')
    w('# %s: generated dynamics' % robot)
    w('')
    w('Translation of the code in `ct_models/include/ct/models/%s/generated`, one `let` for each statement, written by' % robot)
    w('`tools/gen_robots.py`.  Line numbers are those of the files in that directory.')
    w('')
    w('Simplifications: scalars are real numbers, and only the transforms that the dynamics use are here.  A')
    w('function takes and returns the members that it reads before it writes them; the other members are written')
    w('before they are read in every function and are local here.')
    w('-/\n')
    w('namespace CT.Robots.%s\n' % robot)
    w('open Matrix Spatial Articulated FrameJac\n')
    w('/-! ### Identifiers (declarations.h) -/\n')
    w('/-- `JointState`. -/\nabbrev Q := Fin %d → ℝ\n' % nJ)
    for k, j in enumerate(joints):
        w('abbrev %s : Fin %d := %d' % (j, nJ, k))
    w('')
    for k, j in enumerate(linkids):
        w('abbrev %s : Fin %d := %d' % (j, nL, k))
    w('\n/-- `ExtForces`. -/\nabbrev Ext := Fin %d → V6\n' % nL)
    # transforms
    w('/-! ### Coordinate transforms -/\n')
    for l in links:
        w(emit_transform(robot, 'Motion', xname[l], T[('Motion', xname[l])], 'M6', 6))
    jsim_ft = [m.group(1) for x in jsF['update'][0] for m in [re.match(r'\s*frcTransf -> (\w+)\(state\);', x)] if m]
    for x in jsim_ft:
        w(emit_transform(robot, 'Force', x, T[('Force', x)], 'M6', 6))
    w('/-- The motion transforms that the dynamics use. -/\nstructure MT where')
    for l in links:
        w('  %s : M6' % xname[l])
    w('\n/-- Construction; `z` is what the memory contained. -/\nnoncomputable def MT.new (z : MT) : MT where')
    for l in links:
        w('  %s := motion_%s_new z.%s' % (xname[l], xname[l], xname[l]))
    w('\n/-- `setJointStatus` (%sforward_dynamics.h:%d-%d; the one of `InverseDynamics` is the same). -/' % (gen, *sjs))
    w('noncomputable def MT.setJointStatus (m : MT) (q : Q) : MT where')
    for l in links:
        w('  %s := motion_%s_update m.%s q' % (xname[l], xname[l], xname[l]))
    w('')
    if jsim_ft:
        w('/-- The force transforms that `JSIM` uses. -/\nstructure FT where')
        for x in jsim_ft:
            w('  %s : M6' % x)
        w('\n/-- Construction; `z` is what the memory contained. -/\nnoncomputable def FT.new (z : FT) : FT where')
        for x in jsim_ft:
            w('  %s := force_%s_new z.%s' % (x, x, x))
        ls = [k for k, l in enumerate(read(robot, 'jsim.impl.h'), 1) if re.match(r'\s*frcTransf -> (\w+)\(state\);', l)]
        w('\n/-- What `JSIM::update` does first (%sjsim.impl.h:%d-%d). -/' % (gen, ls[0], ls[-1]))
        w('noncomputable def FT.set (ft : FT) (q : Q) : FT where')
        for x in jsim_ft:
            w('  %s := force_%s_update ft.%s q' % (x, x, x))
        w('')
    # inertia
    w('/-! ### Inertia parameters (%sinertia_properties.impl.h) -/\n' % gen)
    w('/-- `InertiaProperties`. -/\nstructure Inertias where')
    for n, *_ in I:
        w('  %s : M6' % n)
    w('')
    for n, c, v, a, b in I:
        w('/-- `tensor_%s` (%sinertia_properties.impl.h:%d-%d); `z` is what the memory contained. -/' % (n, gen, a, b))
        w('noncomputable def tensor_%s (z : M6) : M6 :=' % n)
        w('  Inertia.fill (Inertia.new z) (%s) ![%s]' % (v[0], ', '.join(c)))
        w('    (buildInertiaTensor %s)\n' % ' '.join('(%s)' % x for x in v[1:]))
    w('/-- Constructor of `InertiaProperties` (%sinertia_properties.impl.h:%d-%d). -/' % (gen, 1, I[-1][4] + 2))
    w('noncomputable def Inertias.new (z : Inertias) : Inertias where')
    for n, *_ in I:
        w('  %s := tensor_%s z.%s' % (n, n, n))
    w('')
    first = None if floating else roots[0] + '_v'

    def func(name, lean, body, lines, file, members, params, args, ret, doc, funs, stname):
        t = Tr(robot, joints, base)
        t.members = members
        t.params = params
        t.leaves = leaves
        t.funs = {k: v[0] for k, v in funs.items()}
        t.float = floating and name == 'update'
        t.fts = []
        t.copied = t.corner = False
        for s in join(body):
            t.stmt(s)
        w('/-- %s (%s%s:%d-%d). -/' % (doc, gen, file, *lines))
        sig = ' '.join(args)
        w('noncomputable def %s %s : %s :=' % (lean, sig, ret[0]))
        for m in members:
            w('  let %s := s.%s' % (m, m))
        for l in t.lets:
            w(l)
        return t

    def join(body):
        """Statements that extend over several lines."""
        out = []
        cur = ''
        for l in body:
            l = re.sub(r'//.*', '', l).strip()
            if not l:
                continue
            cur = (cur + ' ' + l).strip()
            if cur.endswith(';'):
                out.append(cur)
                cur = ''
        assert cur == '', cur
        return out

    def vec(x):
        return '![%s]' % ', '.join('%s_%s' % (x, j) for j in joints)

    # forward dynamics
    w('/-! ### Forward dynamics -/\n')
    fdm = ([first] if first else []) + ['vcross', 'Ia_r']
    w('/-- The members of `ForwardDynamics` that survive from one call to the next. -/\nstructure FDState where')
    for m in fdm:
        w('  %s : %s' % (m, 'V6' if m == first else 'M6'))
    body, a, b = fdF['ForwardDynamics']
    for m in fdm:
        assert any(l.strip() == m + '.setZero();' for l in body)
    w('\n/-- Constructor (%sforward_dynamics.impl.h:%d-%d). -/' % (gen, a, b))
    w('def FDState.new : FDState where')
    for m in fdm:
        w('  %s := 0' % m)
    w('')
    body, a, b = fdF['fd']
    ar = ['(s : FDState)', '(m : MT)', '(i : Inertias)']
    if floating:
        pa = [base + '_v', 'g', 'qd', 'tau', 'fext']
        ar += ['(%s_v g : V6)' % base, '(qd tau : Q)', '(fext : Ext)']
        rt = 'FDState × V6 × Q'
    else:
        pa = ['qd', 'tau', 'fext']
        ar += ['(qd tau : Q)', '(fext : Ext)']
        rt = 'FDState × Q'
    func('fd', 'fd', body, (a, b), 'forward_dynamics.impl.h', fdm, pa, ar, (rt,), '`fd`', {}, 'FDState')
    res = '{ %s }' % ', '.join('%s := %s' % (m, m) for m in fdm)
    w('  (%s, %s%s)\n' % (res, (base + '_a, ') if floating else '', vec('qdd')))
    # inverse dynamics
    w('/-! ### Inverse dynamics -/\n')
    idm = ([first] if first else []) + ['vcross']
    w('/-- The members of `InverseDynamics` that survive from one call to the next. -/\nstructure IDState where')
    for m in idm:
        w('  %s : %s' % (m, 'V6' if m == first else 'M6'))
    body, a, b = idF['InverseDynamics']
    for m in idm:
        assert any(l.strip() == m + '.setZero();' for l in body)
    w('\n/-- Constructor (%sinverse_dynamics.impl.h:%d-%d). -/' % (gen, a, b))
    w('def IDState.new : IDState where')
    for m in idm:
        w('  %s := 0' % m)
    w('')
    res = '{ %s }' % ', '.join('%s := %s' % (m, m) for m in idm)
    S, M, N = '(s : IDState)', '(m : MT)', '(i : Inertias)'
    if floating:
        bv = base + '_v'
        specs = [('id', [bv, 'g', 'qd', 'qdd', 'fext'], [S, M, N, '(g %s : V6)' % bv, '(qd qdd : Q)', '(fext : Ext)'], idm, base + '_a'),
                 ('G_terms_fully_actuated', ['g'], [M, N, '(g : V6)'], [], 'baseWrench'),
                 ('C_terms_fully_actuated', [bv, 'qd'], [S, M, N, '(%s : V6)' % bv, '(qd : Q)'], idm, 'baseWrench'),
                 ('id_fully_actuated', [bv, 'g', 'baseAccel', 'qd', 'qdd', 'fext'],
                  [S, M, N, '(g %s baseAccel : V6)' % bv, '(qd qdd : Q)', '(fext : Ext)'], idm, 'baseWrench')]
    else:
        specs = [('id', ['qd', 'qdd', 'fext'], [S, M, N, '(qd qdd : Q)', '(fext : Ext)'], idm, None),
                 ('G_terms', [], [M, N], [], None),
                 ('C_terms', ['qd'], [S, M, N, '(qd : Q)'], idm, None)]
    for f, pa, ar, mem, extra in specs:
        body, a, b = idF[f]
        rt = ('IDState × ' if mem else '') + ('V6 × Q' if extra else 'Q')
        doc = '`%s`' % f
        used = [x for x in ('firstPass', 'secondPass', 'secondPass_fullyActuated') if any(x + '(' in l for l in body)]
        if used:
            doc += ', with ' + ' and '.join('`%s` (lines %d-%d)' % (x, *idF[x][1:]) for x in used)
        t = func(f, f, body, (a, b), 'inverse_dynamics.impl.h', mem, pa, ar, (rt,), doc, {k: idF[k] for k in used}, 'IDState')
        w('  (%s%s%s)\n' % (res + ', ' if mem else '', (extra + ', ') if extra else '', vec('jForces')))
    # jsim
    w('/-! ### Joint space inertia matrix -/\n')
    body, a, b = jsF['update']
    mem = ['Ic_spare'] if jsim_ft else []
    ar = (['(Ic_spare : M6)'] if mem else []) + (['(ft : FT)'] if jsim_ft else []) + ['(i : Inertias)']
    if floating:
        ar = ['(M : Matrix (Fin 6 ⊕ Fin %d) (Fin 6 ⊕ Fin %d) ℝ)' % (nJ, nJ)] + ar
        rt = 'M6 × Matrix (Fin 6 ⊕ Fin %d) (Fin 6 ⊕ Fin %d) ℝ' % (nJ, nJ)
    else:
        ar = ['(M : Matrix (Fin %d) (Fin %d) ℝ)' % (nJ, nJ)] + ar
        rt = ('M6 × ' if mem else '') + 'Matrix (Fin %d) (Fin %d) ℝ' % (nJ, nJ)
    doc = '`JSIM::update` after the transforms are up to date; `M` is the matrix before'
    if mem:
        doc += ' and `Ic_spare`\nthe member of that name'
    if floating:
        doc += '.  Row `inl i` of the model is row `i` of the code and\nrow `inr j` is row `6 + j`'
    save = len(o)
    t = Tr(robot, joints, base)
    t.members = mem
    t.params = []
    t.leaves = leaves
    t.funs = {}
    t.float = floating
    t.fts = []
    t.copied = t.corner = False
    for s_ in join(body):
        t.stmt(s_)
    assert t.fts == jsim_ft
    allw = all(('DATA', x, y) in t.locals for x in joints for y in joints)
    if allw:
        ar[0] = ar[0].replace('(M :', '(_M :')
    w('/-- %s (%sjsim.impl.h:%d-%d). -/' % (doc, gen, a, b))
    w('noncomputable def jsim %s : %s :=' % (' '.join(ar), rt))
    for l in t.lets:
        w(l)
    def ent(x, y):
        if ('DATA', x, y) in t.locals:
            return 'DATA_%s_%s' % (x, y)
        return 'M (.inr %s) (.inr %s)' % (x, y) if floating else 'M %s %s' % (x, y)
    H = '!![' + ';\n     '.join(', '.join(ent(x, y) for y in joints) for x in joints) + ']'
    if floating:
        assert t.corner and all(('Fcol', j) in t.locals for j in joints)
        w('  let F : Matrix (Fin 6) (Fin %d) ℝ := fun k j => (![%s] : Fin %d → V6) j k' % (nJ, ', '.join('F_' + j for j in joints), nJ))
        w('  let H : Matrix (Fin %d) (Fin %d) ℝ :=\n    %s' % (nJ, nJ, H))
        w('  (Ic_spare, Matrix.fromBlocks %s_Ic F Fᵀ H)\n' % base)
    else:
        w('  %s\n' % ('(Ic_spare,\n    %s)' % H if mem else H))
    # links
    w('/-! ### Links and joints -/\n')
    brs = []
    for r in roots:
        br = [r]
        while any(parent[l] == br[-1] for l in links):
            nx = [l for l in links if parent[l] == br[-1]]
            assert len(nx) == 1
            br.append(nx[0])
        brs.append(br)

    def jt(l, force):
        X = xname[l]
        pr = parent[l]
        xf = 'fr_%s_X_fr_%s' % (pr, l)
        XF = 'ft.' + xf if force and xf in jsim_ft else 'm.%sᵀ' % X
        return '{ X := m.%s, XF := %s, I := i.%s, fext := fext %s, qd := qd %s }' % (X, XF, l, l.upper(), jof[l])
    for l in links:
        assert l.upper() in linkids
    if floating:
        brs = brs[::-1]
        w('/-- The branches of the robot, in the order in which the code adds them up. -/')
        w('def branches (m : MT) (ft : FT) (i : Inertias) (qd : Q) (fext : Ext) : List (List Joint) :=')
        w('  [' + ',\n   '.join('[' + ',\n    '.join(jt(l, True) for l in br) + ']' for br in brs) + ']\n')
    else:
        w('/-- The links of the robot, with the joints that carry them. -/')
        fta = ' (ft : FT)' if jsim_ft else ''
        w('def links (m : MT)%s (i : Inertias) (qd : Q) (fext : Ext) : List Joint :=' % fta)
        w('  [' + ',\n   '.join(jt(l, True) for l in brs[0]) + ']\n')
    # the object
    def inline(file, cls, f):
        L = read(robot, file)
        a = next(k for k, l in enumerate(L) if re.search(r'inline void %s<TRAIT>::%s\(' % (cls, f), l))
        b = next(k for k in range(a, len(L)) if L[k].strip() == '}')
        body = ' '.join(L[a:b])
        body = body[body.index('{') + 1:]
        assert re.match(r'\s*setJointStatus\(q\);\s*%s\([^;]*\);\s*$' % f, body), body
        return (a + 1, b + 1)
    w('/-! ### The robot object -/\n')
    w('/-- The members of `RobCoGenContainer` (ct_rbd/include/ct/rbd/robot/RobCoGenContainer.h:204-211) that the')
    w('dynamics use.  `H` is the joint space inertia matrix. -/\nstructure Robot where')
    mty = 'Matrix (Fin 6 ⊕ Fin %d) (Fin 6 ⊕ Fin %d) ℝ' % (nJ, nJ) if floating else 'Matrix (Fin %d) (Fin %d) ℝ' % (nJ, nJ)
    w('  m : MT')
    if jsim_ft:
        w('  ft : FT')
    w('  i : Inertias\n  fds : FDState\n  ids : IDState\n  H : %s' % mty)
    if jsim_ft:
        w('  Ic_spare : M6')
    w('\n/-- Constructor of `RobCoGenContainer` (RobCoGenContainer.h:27-35) with the one of `JSIM`')
    w('(%sjsim.impl.h:%d-%d); `z` is what the memory contained. -/' % (gen, *jsF['JSIM'][1:]))
    assert any(l.strip() == 'this->setZero();' for l in jsF['JSIM'][0])
    w('noncomputable def Robot.new (z : Robot) : Robot where')
    w('  m := MT.new z.m')
    if jsim_ft:
        w('  ft := FT.new z.ft')
    w('  i := Inertias.new z.i\n  fds := FDState.new\n  ids := IDState.new\n  H := 0')
    if jsim_ft:
        w('  Ic_spare := Inertia.new z.Ic_spare')
    w('')
    calls = []

    def api(lean, f, file, cls, args, argl, call, fld, ret):
        a, b = inline(file, cls, f)
        w('/-- `%s` with the joint positions (%s%s:%d-%d). -/' % (f, gen, file, a, b))
        w('noncomputable def Robot.%s (o : Robot) (q : Q)%s : Robot × %s :=' % (lean, args, ret))
        w('  let m := o.m.setJointStatus q')
        if fld:
            w('  let r := %s' % call)
            w('  ({ o with m := m, %s := r.1 }, r.2)\n' % fld)
        else:
            w('  ({ o with m := m }, %s)\n' % call)
        calls.append((lean, '(q : Q)' + args, argl))
    if floating:
        bv = base + '_v'
        rt = 'V6 × Q'
        api('fd', 'fd', 'forward_dynamics.h', 'ForwardDynamics', ' (%s g : V6) (qd tau : Q) (fext : Ext)' % bv, '%s g qd tau fext' % bv,
            'Robots.%s.fd o.fds m o.i %s g qd tau fext' % (robot, bv), 'fds', rt)
        api('id', 'id', 'inverse_dynamics.h', 'InverseDynamics', ' (g %s : V6) (qd qdd : Q) (fext : Ext)' % bv, 'g %s qd qdd fext' % bv,
            'Robots.%s.id o.ids m o.i g %s qd qdd fext' % (robot, bv), 'ids', rt)
        api('G_terms', 'G_terms_fully_actuated', 'inverse_dynamics.h', 'InverseDynamics', ' (g : V6)', 'g',
            'G_terms_fully_actuated m o.i g', None, rt)
        api('C_terms', 'C_terms_fully_actuated', 'inverse_dynamics.h', 'InverseDynamics', ' (%s : V6) (qd : Q)' % bv, '%s qd' % bv,
            'C_terms_fully_actuated o.ids m o.i %s qd' % bv, 'ids', rt)
        api('id_full', 'id_fully_actuated', 'inverse_dynamics.h', 'InverseDynamics',
            ' (g %s baseAccel : V6) (qd qdd : Q) (fext : Ext)' % bv, 'g %s baseAccel qd qdd fext' % bv,
            'id_fully_actuated o.ids m o.i g %s baseAccel qd qdd fext' % bv, 'ids', rt)
    else:
        api('fd', 'fd', 'forward_dynamics.h', 'ForwardDynamics', ' (qd tau : Q) (fext : Ext)', 'qd tau fext',
            'Robots.%s.fd o.fds m o.i qd tau fext' % robot, 'fds', 'Q')
        api('id', 'id', 'inverse_dynamics.h', 'InverseDynamics', ' (qd qdd : Q) (fext : Ext)', 'qd qdd fext',
            'Robots.%s.id o.ids m o.i qd qdd fext' % robot, 'ids', 'Q')
        api('G_terms', 'G_terms', 'inverse_dynamics.h', 'InverseDynamics', '', '', 'Robots.%s.G_terms m o.i' % robot, None, 'Q')
        api('C_terms', 'C_terms', 'inverse_dynamics.h', 'InverseDynamics', ' (qd : Q)', 'qd',
            'Robots.%s.C_terms o.ids m o.i qd' % robot, 'ids', 'Q')
    a, b = jsF['update'][1:]
    w('/-- `JSIM::update` (%sjsim.impl.h:%d-%d). -/' % (gen, a, b))
    w('noncomputable def Robot.jsim (o : Robot) (%s : Q) : Robot × %s :=' % ('q' if jsim_ft else '_q', mty))
    if jsim_ft:
        w('  let ft := o.ft.set q')
        w('  let r := Robots.%s.jsim o.H o.Ic_spare ft o.i' % robot)
        w('  ({ o with ft := ft, Ic_spare := r.1, H := r.2 }, r.2)\n')
    else:
        w('  let r := Robots.%s.jsim o.H o.i' % robot)
        w('  ({ o with H := r }, r)\n')
    calls.append(('jsim', '(q : Q)', ''))
    w('/-- A call of one of the functions. -/\ninductive Call where')
    for n, ar, _ in calls:
        w('  | %s %s' % (n, ar))
    w('\n/-- What a call does to the object. -/\nnoncomputable def Robot.step (o : Robot) : Call → Robot')
    for n, ar, al in calls:
        al = ' '.join(['q'] + ([al] if al else []))
        w('  | .%s %s => (o.%s %s).1' % (n, al, n, al))
    w('\n/-- The object after the given calls, `z` being what the memory contained before its construction. -/')
    w('noncomputable def Robot.after (z : Robot) (calls : List Call) : Robot := calls.foldl Robot.step (Robot.new z)\n')
    w('end CT.Robots.%s' % robot)
    os.makedirs(OUT, exist_ok=True)
    open(os.path.join(OUT, robot + '.lean'), 'w').write('\n'.join(o) + '\n')
    return dict(joints=joints, links=links, brs=brs, jof=jof, xname=xname, parent=parent, floating=floating, base=base,
                ft=jsim_ft, T=T, I=I, linkids=linkids, calls=calls)


if __name__ == '__main__':
    for r in (sys.argv[1:] or ROBOTS):
        generate(r)
