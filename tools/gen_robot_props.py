#!/usr/bin/env python3
"""Writes the proofs about the robots: lean/Verif/Props/Robots/<robot>.lean.

The statements are the same for all robots on a fixed base and for all robots with a floating base; only
the names and numbers differ.
"""
import ast
import os
import re
import sys
from fractions import Fraction

import gen_robots as g

OUT = os.path.join(os.path.dirname(os.path.abspath(__file__)), '..', 'lean', 'Verif', 'Props', 'Robots')


class Poly:
    """Polynomials in sines and cosines of joint angles, with s^2 + c^2 = 1."""

    def __init__(self, d):
        self.d = {k: v for k, v in d.items() if v != 0}

    def __add__(a, b):
        d = dict(a.d)
        for k, v in b.d.items():
            d[k] = d.get(k, 0) + v
        return Poly(d)

    def __neg__(a):
        return Poly({k: -v for k, v in a.d.items()})

    def __sub__(a, b):
        return a + (-b)

    def __mul__(a, b):
        d = {}
        for k, v in a.d.items():
            for l, w in b.d.items():
                m = tuple(sorted(k + l))
                d[m] = d.get(m, 0) + v * w
        return Poly(d).reduce()

    def reduce(a):
        for k, v in a.d.items():
            for n in set(k):
                if n.startswith('s_') and k.count(n) >= 2:
                    r = list(k)
                    r.remove(n)
                    r.remove(n)
                    c = 'c_' + n[2:]
                    rest = Poly({x: y for x, y in a.d.items() if x != k})
                    return (rest + Poly({tuple(sorted(r)): v}) + Poly({tuple(sorted(r + [c, c])): -v})).reduce()
        return a

    def lean(a):
        def mono(k, v):
            f = [('Real.sin (q %s)' if n.startswith('s_') else 'Real.cos (q %s)') % n[2:] for n in k]
            num = str(v) if v.denominator == 1 else '(%d / %d)' % (v.numerator, v.denominator)
            if not f:
                return num
            if v == 1:
                return ' * '.join(f)
            if v == -1:
                return '-' + ' * '.join(f)
            return num + ' * ' + ' * '.join(f)
        return ' + '.join(mono(k, v) for k, v in a.d.items()) or '0'


def entry(e, names):
    e = g.scal(e)
    for v, x in names.items():
        e = re.sub(r'\b' + v + r'\b', x, e)

    def go(n):
        if isinstance(n, ast.BinOp):
            a, b = go(n.left), go(n.right)
            return a + b if isinstance(n.op, ast.Add) else a - b if isinstance(n.op, ast.Sub) else a * b
        if isinstance(n, ast.UnaryOp):
            return -go(n.operand)
        if isinstance(n, ast.Constant):
            return Poly({(): Fraction(ast.get_source_segment(e, n))})
        return Poly({(n.id,): Fraction(1)})
    return go(ast.parse(e, mode='eval').body)


def frame(t):
    """Rotation `E` and origin `o` with lower left block `-E o×` of a motion transform."""
    names = {v: ('s_' if f == 'sin' else 'c_') + j for v, f, j in t['loc']}
    d = {(i, j): entry(e, names) for i, j, e in t['ctor'] + t['upd']}
    E = [[d[(i, j)] for j in range(3)] for i in range(3)]
    C = [[d[(3 + i, j)] for j in range(3)] for i in range(3)]
    X = [[-sum((E[k][i] * C[k][j] for k in range(3)), Poly({})) for j in range(3)] for i in range(3)]
    o = [X[2][1], X[0][2], X[1][0]]
    return E, o


def lemmas(robot, R, w):
    """What the two kinds of robots have in common."""
    J = R['joints']
    n = len(J)
    fl = R['floating']
    links = R['links']
    ft = R['ft']
    w('/-! ### Transforms -/\n')
    for kind, names in (('motion', [R['xname'][l] for l in links]), ('force', ft)):
        for x in names:
            w('theorem %s_%s_fresh (z : M6) (q : Q) : %s_%s_update (%s_%s_new z) q = %s_%s_update (%s_%s_new 0) q := by'
              % ((kind, x) * 5))
            w('  simp only [%s_%s_new, %s_%s_update]\n  simp\n' % ((kind, x) * 2))
            w('theorem %s_%s_again (z : M6) (p q : Q) : %s_%s_update (%s_%s_update z p) q = %s_%s_update z q := by'
              % ((kind, x) * 4))
            w('  simp only [%s_%s_update]\n  simp\n' % (kind, x))
    for l in links:
        x = R['xname'][l]
        t = R['T'][('Motion', x)]
        E, o = frame(t)
        j = t['loc'][0][2]
        assert {a[2] for a in t['loc']} == {j}
        Es = '!![' + '; '.join(', '.join(E[a][b].lean() for b in range(3)) for a in range(3)) + ']'
        os_ = '![' + ', '.join(y.lean() for y in o) + ']'
        w('theorem motion_%s_isMotion (z : M6) (q : Q) : IsMotionX (motion_%s_update (motion_%s_new z) q)' % (x, x, x))
        w('    %s\n    %s := by' % (Es, os_))
        w('  have h := Real.sin_sq_add_cos_sq (q %s)' % j)
        w('  refine isMotionX_of ⟨?_, ?_⟩ ?_')
        w('  · ext i j; fin_cases i <;> fin_cases j <;> simp [Matrix.mul_apply, Fin.sum_univ_succ] <;> linarith')
        w('  · rw [Matrix.det_fin_three]; simp; linarith')
        w('  · rw [motion_%s_new, motion_%s_update]' % (x, x))
        w('    ext i j; fin_cases i <;> fin_cases j <;> simp [blk, cpm, Matrix.mul_apply, Fin.sum_univ_succ] <;> norm_num <;> ring\n')
    for x in ft:
        a, b = re.match(r'fr_(\w+)_X_fr_(\w+)$', x).groups()
        y = 'fr_%s_X_fr_%s' % (b, a)
        w('theorem force_%s_transpose (z y : M6) (q : Q) :' % x)
        w('    force_%s_update (force_%s_new z) q = (motion_%s_update (motion_%s_new y) q)ᵀ := by' % (x, x, y, y))
        w('  rw [force_%s_new, force_%s_update, motion_%s_new, motion_%s_update]' % (x, x, y, y))
        w('  ext i j; fin_cases i <;> fin_cases j <;> simp <;> norm_num\n')
    zm = '⟨' + ', '.join('0' for _ in links) + '⟩'
    w('/-- The motion transforms at a position. -/\nnoncomputable def MT.at (q : Q) : MT := (MT.new %s).setJointStatus q\n' % zm)
    if ft:
        zf = '⟨' + ', '.join('0' for _ in ft) + '⟩'
        w('/-- The force transforms at a position. -/\nnoncomputable def FT.at (q : Q) : FT := (FT.new %s).set q\n' % zf)
    zi = '⟨' + ', '.join('0' for _ in R['I']) + '⟩'
    w('/-- The inertia parameters. -/\nnoncomputable def Inertias.std : Inertias := Inertias.new %s\n' % zi)
    w('/-! ### Inertia parameters -/\n')
    for nme, c, v, _, _ in R['I']:
        w('theorem tensor_%s_fresh (z : M6) : tensor_%s z = tensor_%s 0 := fill_fresh ..\n' % (nme, nme, nme))
        w('theorem tensor_%s_body (z : M6) : IsBody (tensor_%s z) := isBody_fill z (by norm_num) ..\n' % (nme, nme))
        if (R['robot'], nme) not in NOTPD:
            w('theorem tensor_%s_pos (z : M6) (v : V6) (hv : v ≠ 0) : 0 < v ⬝ᵥ (tensor_%s z *ᵥ v) :=' % (nme, nme))
            w('  pos_fill z (by norm_num) _ _ _ _ _ _ _ (by simp; norm_num) (by simp; norm_num) (by simp; norm_num) v hv\n')
    # invariant
    first = None if fl else R['brs'][0][0] + '_v'
    w('/-! ### State of the object -/\n')
    w('/-- What is true of the object between calls. -/\nstructure Inv (o : Robot) : Prop where')
    w('  m : ∀ q, o.m.setJointStatus q = MT.at q')
    if ft:
        w('  ft : ∀ q, o.ft.set q = FT.at q')
    w('  i : o.i = Inertias.std')
    fields = ['m'] + (['ft'] if ft else []) + ['i']
    if first:
        w('  fv : ∀ x, Function.update o.fds.%s 2 x = firstVel x' % first)
        w('  iv : ∀ x, Function.update o.ids.%s 2 x = firstVel x' % first)
        fields += ['fv', 'iv']
    w('  fc : ∀ v, motionCrossProductMx v o.fds.vcross = motionCrossProductMx v 0')
    w('  fa : ∀ A U D, computeIaRevolute A U D o.fds.Ia_r = computeIaRevolute A U D 0')
    w('  ic : ∀ v, motionCrossProductMx v o.ids.vcross = motionCrossProductMx v 0')
    fields += ['fc', 'fa', 'ic']
    if ft:
        w('  sp : ∃ junk, ∀ A X, transformInertia A X o.Ic_spare = transformInertia A X (Inertia.new junk)')
        fields += ['sp']
    blocks = fl and len(R['brs']) > 1
    if blocks:
        w('  H : ∀ a b : Fin %d, a.val / 3 ≠ b.val / 3 → o.H (.inr a) (.inr b) = 0' % n)
        fields += ['H']
    w('')
    w('theorem MT.refill (m : MT) (p q : Q) : (m.setJointStatus p).setJointStatus q = m.setJointStatus q := by')
    w('  simp only [MT.setJointStatus, %s]\n' % ', '.join('motion_%s_again' % R['xname'][l] for l in links))
    if ft:
        w('theorem FT.refill (m : FT) (p q : Q) : (m.set p).set q = m.set q := by')
        w('  simp only [FT.set, %s]\n' % ', '.join('force_%s_again' % x for x in ft))
    w('theorem inv_new (z : Robot) : Inv (Robot.new z) where')
    def fresh(lem, names, arg):
        return 'rw [' + ', '.join(lem % x + ' ' + arg % x for x in names) + ']'
    w('  m q := by\n    simp only [Robot.new, MT.at, MT.new, MT.setJointStatus]')
    w('    ' + fresh('motion_%s_fresh', [R['xname'][l] for l in links], 'z.m.%s'))
    if ft:
        w('  ft q := by\n    simp only [Robot.new, FT.at, FT.new, FT.set]')
        w('    ' + fresh('force_%s_fresh', ft, 'z.ft.%s'))
    w('  i := by\n    simp only [Robot.new, Inertias.std, Inertias.new]')
    w('    ' + fresh('tensor_%s_fresh', [x[0] for x in R['I']], 'z.i.%s'))
    if first:
        w('  fv _ := rfl\n  iv _ := rfl')
    w('  fc _ := rfl\n  fa _ _ _ := rfl\n  ic _ := rfl')
    if ft:
        w('  sp := ⟨z.Ic_spare, fun _ _ => rfl⟩')
    if blocks:
        w('  H _ _ _ := rfl')
    w('')
    w('theorem Inv.step {o : Robot} (h : Inv o) (c : Call) : Inv (o.step c) := by\n  cases c with')
    for c, args, _ in R['calls']:
        al = ' '.join(['q'] + [a for a in re.sub(r'\(|\)| : \w+', ' ', args).split() if a not in ('q',)])
        w('  | %s %s =>' % (c, al))
        up = {}
        if c == 'jsim':
            if not ft:
                w('    exact { %s }' % ', '.join('%s := h.%s' % (f, f) for f in fields))
                continue
            w('    obtain ⟨junk, hs⟩ := h.sp')
            up['ft'] = 'fun p => (FT.refill o.ft q p).trans (h.ft p)'
            up['sp'] = '⟨junk, fun A X => by simp -implicitDefEqProofs only [Robot.step, Robot.jsim, Robots.%s.jsim, transform_refill, hs]⟩' % R['robot']
            if blocks:
                up['H'] = ('fun a b hab => by\n        have h0 := h.H a b hab\n'
                           '        fin_cases a <;> fin_cases b <;> first | exact absurd rfl hab | exact h0')
        else:
            up['m'] = 'fun p => (MT.refill o.m q p).trans (h.m p)'
            defs = {'fd': 'fd', 'id': 'id', 'C_terms': 'C_terms_fully_actuated' if fl else 'C_terms', 'id_full': 'id_fully_actuated'}
            if c in defs:
                D = 'Robots.%s.%s' % (R['robot'], defs[c])
                A, B, V = ('fc', 'fa', 'fv') if c == 'fd' else ('ic', None, 'iv')
                up[A] = 'fun v => by simp -implicitDefEqProofs only [Robot.step, Robot.%s, %s, cross_refill, h.%s]' % (c, D, A)
                if B:
                    up[B] = 'fun A U D => by simp -implicitDefEqProofs only [Robot.step, Robot.%s, %s, Ia_refill, h.%s]' % (c, D, B)
                if first:
                    up[V] = 'fun x => by simp -implicitDefEqProofs only [Robot.step, Robot.%s, %s, vel_refill, firstVel_refill, h.%s]' % (c, D, V)
        w('    exact {')
        for f in fields:
            w('      %s := %s' % (f, up.get(f, 'h.' + f)))
        w('    }')
    w('')
    w('theorem inv_after (z : Robot) (calls : List Call) : Inv (Robot.after z calls) := by')
    w('  have : ∀ o, Inv o → Inv (calls.foldl Robot.step o) := by')
    w('    induction calls with')
    w('    | nil => exact fun o h => h')
    w('    | cons c cs ih => exact fun o h => ih _ (h.step c)')
    w('  exact this _ (inv_new z)\n')


NOTPD = {('QuadrotorWithLoad', 'link1'), ('QuadrotorWithLoad', 'link2')}
UNF = ('List.ofFn_succ, List.ofFn_zero, List.zip_cons_cons, List.zip_nil_left')
OPS = 'Joint.vel, Joint.cor, Joint.AI, Joint.p, Joint.lump, accel, addM, addV, firstAcc'


def fixed(robot, R):
    o = []
    w = o.append
    J = R['joints']
    n = len(J)
    ft = R['ft']
    w('import Verif.Model.Robots.%s' % robot)
    w('import Verif.Props.RobotsBase\n')
    w('/-!\n# %s: the generated dynamics agree with each other\n\nWritten by `tools/gen_robot_props.py`.\n-/\n' % robot)
    w('set_option linter.unusedSimpArgs false\nset_option linter.unusedTactic false\nset_option linter.unreachableTactic false\nset_option maxRecDepth 4000\n')
    w('namespace CT.Robots.%s\n' % robot)
    w('open Matrix Spatial Articulated FrameJac\n')
    lemmas(robot, R, w)
    w('/-! ### The recursive form -/\n')
    FTq = ' (FT.at q)' if ft else ''
    w('/-- The links at a position. -/')
    w('noncomputable def linksAt (q qd : Q) (fext : Ext) : List Joint := links (MT.at q)%s Inertias.std qd fext\n' % FTq)
    w('theorem links_rigid (q qd : Q) (fext : Ext) : ∀ j ∈ linksAt q qd fext, j.Rigid := by')
    w('  intro j hj')
    w('  simp only [linksAt, links, List.mem_cons, List.not_mem_nil, or_false] at hj')
    br = R['brs'][0]
    if n > 1:
        w('  rcases hj with %s' % ' | '.join(['rfl'] * n))
    else:
        w('  subst hj')
    for l in br:
        x = R['xname'][l]
        y = 'fr_%s_X_fr_%s' % (R['parent'][l], l)
        w('  · exact ⟨⟨_, _, motion_%s_isMotion 0 q⟩, %s, tensor_%s_body 0⟩' %
          (x, 'force_%s_transpose 0 0 q' % y if y in ft else 'rfl', l))
    w('')
    w('theorem links_ok (q qd : Q) (fext : Ext) : ∀ j ∈ linksAt q qd fext, j.Ok := by')
    w('  intro j hj')
    w('  refine (links_rigid q qd fext j hj).ok ?_')
    w('  simp only [linksAt, links, List.mem_cons, List.not_mem_nil, or_false] at hj')
    if n > 1:
        w('  rcases hj with %s' % ' | '.join(['rfl'] * n))
    else:
        w('  subst hj')
    for l in br:
        w('  · exact tensor_%s_pos 0' % l)
    w('')
    w('theorem links_length (q qd : Q) (fext : Ext) : (linksAt q qd fext).length = %d := rfl\n' % n)
    A = 'Robots.%s.' % robot
    w('theorem fd_eq {o : Robot} (h : Inv o) (q qd tau : Q) (fext : Ext) :')
    w('    List.ofFn (o.fd q qd tau fext).2 = fdFixed ((linksAt q qd fext).zip (List.ofFn tau)) := by')
    w('  simp -implicitDefEqProofs only [Robot.fd, h.m, h.i, %sfd, h.fv, h.fc, h.fa, cross_refill, Ia_refill]' % A)
    w('  simp only [linksAt, links, %s, fdFixed, up, down, %s]' % (UNF, OPS))
    w('  rfl\n')
    w('theorem id_eq {o : Robot} (h : Inv o) (q qd qdd : Q) (fext : Ext) :')
    w('    List.ofFn (o.id q qd qdd fext).2 = idFixed ((linksAt q qd fext).zip (List.ofFn qdd)) := by')
    w('  simp -implicitDefEqProofs only [Robot.id, h.m, h.i, %sid, h.iv, h.ic, cross_refill]' % A)
    w('  simp only [linksAt, links, %s, idFixed, rnea, addF, %s]' % (UNF, OPS))
    w('  rfl\n')
    w('theorem G_eq {o : Robot} (h : Inv o) (q qd : Q) (fext : Ext) : List.ofFn (o.G_terms q).2 = gFixed (linksAt q qd fext) := by')
    w('  simp -implicitDefEqProofs only [Robot.G_terms, h.m, h.i, %sG_terms]' % A)
    w('  simp only [linksAt, links, %s, gFixed, gterms, addF, firstAcc]' % UNF)
    w('  rfl\n')
    w('theorem C_eq {o : Robot} (h : Inv o) (q qd : Q) (fext : Ext) : List.ofFn (o.C_terms q qd).2 = cFixed (linksAt q qd fext) := by')
    w('  simp -implicitDefEqProofs only [Robot.C_terms, h.m, h.i, %sC_terms, h.iv, h.ic, cross_refill]' % A)
    w('  simp only [linksAt, links, %s, cFixed, cterms, cacc, addF, Joint.vel, Joint.cor]' % UNF)
    w('  rfl\n')
    w('theorem jsim_eq {o : Robot} (h : Inv o) (q qd : Q) (fext : Ext) :')
    w('    ∃ junk, List.ofFn (fun i => List.ofFn ((o.jsim q).2 i)) = jsimFixed (Inertia.new junk) (linksAt q qd fext) := by')
    if ft:
        w('  obtain ⟨junk, hs⟩ := h.sp')
        w('  refine ⟨junk, ?_⟩')
        w('  simp -implicitDefEqProofs only [Robot.jsim, h.ft, h.i, %sjsim, hs, transform_refill]' % A)
    else:
        w('  refine ⟨0, ?_⟩')
        w('  simp -implicitDefEqProofs only [Robot.jsim, h.i, %sjsim]' % A)
    w('  simp -implicitDefEqProofs only [linksAt, links, ofFn_rows, ofFn_vecCons, List.ofFn_zero, jsimFixed, crba, List.map_cons, List.map_nil, List.zipWith_cons_cons, List.zipWith_nil_left]\n')
    w('theorem jsim_symm {o : Robot} (q : Q) : (o.jsim q).2ᵀ = (o.jsim q).2 := by')
    w('  ext i j; fin_cases i <;> fin_cases j <;> rfl\n')
    w('/-! ### Theorems -/\n')
    nm = robot
    w('/-- **C124 (%s).**  The joint accelerations that `fd` computes for given joint forces are those for which' % robot)
    w('`id` computes these forces, whatever was called before on the two objects. -/')
    w('theorem C124_%s (z y : Robot) (cs ds : List Call) (q qd tau qdd : Q) (fext : Ext) :' % nm)
    w('    ((Robot.after z cs).id q qd qdd fext).2 = tau ↔ qdd = ((Robot.after y ds).fd q qd tau fext).2 := by')
    w('  have h1 := id_eq (inv_after z cs) q qd qdd fext')
    w('  have h2 := fd_eq (inv_after y ds) q qd tau fext')
    w('  have hl : (List.ofFn tau).length = (linksAt q qd fext).length := by rw [links_length, List.length_ofFn]')
    w('  have h3 := fixed_iff ((linksAt q qd fext).zip (List.ofFn tau)) (List.ofFn qdd)')
    w('    (fun e he => links_ok q qd fext _ (List.of_mem_zip (show (e.1, e.2) ∈ _ from he)).1) (by simp [links_length])')
    w('  rw [List.map_fst_zip hl.ge, List.map_snd_zip hl.le, ← h1, ← h2] at h3')
    w('  rw [List.ofFn_injective.eq_iff, List.ofFn_injective.eq_iff] at h3')
    w('  exact h3\n')
    w('/-- **C126 (%s).**  Without external forces, `id` is the product of the joint space inertia matrix and the' % robot)
    w('joint accelerations plus `C_terms` plus `G_terms`. -/')
    w('theorem C126_%s (a b c d : Robot) (ka kb kc kd : List Call) (q qd qdd : Q) :' % nm)
    w('    ((Robot.after a ka).id q qd qdd 0).2')
    w('      = ((Robot.after b kb).jsim q).2 *ᵥ qdd + ((Robot.after c kc).C_terms q qd).2 + ((Robot.after d kd).G_terms q).2 := by')
    w('  obtain ⟨junk, hj⟩ := jsim_eq (inv_after b kb) q qd 0')
    w('  have h := fixed_terms junk (linksAt q qd 0) (List.ofFn qdd) (links_rigid q qd 0)')
    w('    (by\n      intro j hj\n      simp only [linksAt, links, List.mem_cons, List.not_mem_nil, or_false] at hj')
    if n > 1:
        w('      rcases hj with %s <;> rfl)' % ' | '.join(['rfl'] * n))
    else:
        w('      subst hj; rfl)')
    w('    (by simp [links_length])')
    w('  rw [← hj, map_ofFn_ldot, ← C_eq (inv_after c kc), ← G_eq (inv_after d kd), ← id_eq (inv_after a ka), ladd_ofFn, ladd_ofFn] at h')
    w('  exact List.ofFn_injective h\n')
    w('/-- **C127 (%s).**  The joint space inertia matrix is symmetric and positive definite at every position. -/' % robot)
    w('theorem C127_%s (z : Robot) (cs : List Call) (q : Q) :' % nm)
    w('    (((Robot.after z cs).jsim q).2)ᵀ = ((Robot.after z cs).jsim q).2')
    w('    ∧ ∀ x : Q, x ≠ 0 → 0 < x ⬝ᵥ (((Robot.after z cs).jsim q).2 *ᵥ x) := by')
    w('  refine ⟨jsim_symm q, fun x hx => ?_⟩')
    w('  obtain ⟨junk, hj⟩ := jsim_eq (inv_after z cs) q 0 0')
    w('  have hne : ∃ y ∈ List.ofFn x, y ≠ 0 := by')
    w('    obtain ⟨i, hi⟩ := Function.ne_iff.mp hx')
    w('    exact ⟨x i, List.mem_ofFn.mpr ⟨i, rfl⟩, hi⟩')
    w('  have h := jsim_pos junk (linksAt q 0 0) (List.ofFn x) (links_rigid q 0 0) (links_ok q 0 0) (by simp [links_length]) hne')
    w('  rw [← hj, map_ofFn_ldot, ldot_ofFn] at h')
    w('  exact h\n')
    w('/-- **C128 (%s).**  The quadratic form of the joint space inertia matrix is twice the kinetic energy of the' % robot)
    w('links when the joints move with the given rates. -/')
    w('theorem C128_%s (z : Robot) (cs : List Call) (q qd : Q) :' % nm)
    w('    qd ⬝ᵥ (((Robot.after z cs).jsim q).2 *ᵥ qd) = energy 0 ((linksAt q qd 0).zip (List.ofFn qd)) := by')
    w('  obtain ⟨junk, hj⟩ := jsim_eq (inv_after z cs) q qd 0')
    w('  have h := fixed_energy junk (linksAt q qd 0) (List.ofFn qd) (links_rigid q qd 0) (by simp [links_length])')
    w('  rw [← hj, map_ofFn_ldot, ldot_ofFn] at h')
    w('  exact h\n')
    w('end CT.Robots.%s' % robot)
    os.makedirs(OUT, exist_ok=True)
    open(os.path.join(OUT, robot + '.lean'), 'w').write('\n'.join(o) + '\n')


def floating(robot, R):
    o = []
    w = o.append
    J = R['joints']
    n = len(J)
    ft = R['ft']
    base = R['base']
    jof = R['jof']
    brs = R['brs']
    jn = [[jof[l].upper() for l in br] for br in brs]
    pd = not any(r == robot for r, _ in NOTPD)
    w('import Verif.Model.Robots.%s' % robot)
    w('import Verif.Props.RobotsBase\n')
    w('/-!\n# %s: the generated dynamics agree with each other\n\nWritten by `tools/gen_robot_props.py`.\n-/\n' % robot)
    w('set_option linter.unusedSimpArgs false\nset_option linter.unusedTactic false\nset_option linter.unreachableTactic false\nset_option maxRecDepth 8000\n')
    w('namespace CT.Robots.%s\n' % robot)
    w('open Matrix Spatial Articulated FrameJac\n')
    lemmas(robot, R, w)
    w('/-! ### The recursive form -/\n')
    w('/-- The joints by branch. -/')
    w('def split (x : Q) : List (List ℝ) :=\n  [%s]\n' % ', '.join('[' + ', '.join('x ' + j for j in br) + ']' for br in jn))
    w('/-- The columns of a matrix by branch. -/')
    w('def cols (F : Matrix (Fin 6) (Fin %d) ℝ) : List (List V6) :=\n  [%s]\n' %
      (n, ',\n   '.join('[' + ', '.join('fun k => F k ' + j for j in br) + ']' for br in jn)))
    w('/-- The blocks on the diagonal of a matrix by branch. -/')
    w('def blocks (H : Matrix (Fin %d) (Fin %d) ℝ) : List (List (List ℝ)) :=\n  [%s]\n' %
      (n, n, ',\n   '.join('[' + ', '.join('[' + ', '.join('H %s %s' % (a, b) for b in br) + ']' for a in br) + ']' for br in jn)))
    w('theorem split_inj {x y : Q} (h : split x = split y) : x = y := by')
    w('  simp only [split, List.cons.injEq, and_true] at h')
    w('  funext i\n  fin_cases i <;> simp_all\n')
    w('theorem split_add (x y : Q) : List.zipWith ladd (split x) (split y) = split (x + y) := rfl\n')
    w('theorem split_dot (x y : Q) : (List.zipWith ldot (split x) (split y)).sum = x ⬝ᵥ y := by')
    w('  simp [split, ldot, dotProduct, Fin.sum_univ_succ]\n  try ring\n')
    w('theorem split_ne {x : Q} (h : x ≠ 0) : ∃ xs ∈ split x, ∃ y ∈ xs, y ≠ 0 := by')
    w('  by_contra hc\n  push Not at hc\n  apply h\n  simp only [split, List.mem_cons, List.not_mem_nil, or_false, forall_eq_or_imp, forall_eq] at hc')
    w('  funext i\n  fin_cases i <;> simp_all\n')
    w('theorem fsum_cols (F : Matrix (Fin 6) (Fin %d) ℝ) (x : Q) : fsum (cols F) (split x) = F *ᵥ x := by' % n)
    w('  funext k')
    w('  simp [fsum, lsum, cols, split, mulVec, dotProduct, Fin.sum_univ_succ]\n  try ring\n')
    many = len(brs) > 1
    w('theorem rows_blocks (F : Matrix (Fin 6) (Fin %d) ℝ) (H : Matrix (Fin %d) (Fin %d) ℝ) (a : V6) (x : Q)%s :' %
      (n, n, n, '\n    (h : ∀ a b : Fin %d, a.val / 3 ≠ b.val / 3 → H a b = 0)' % n if many else ''))
    w('    List.zipWith (fun (FH : List V6 × List (List ℝ)) xs => rows FH.1 FH.2 a xs) ((cols F).zip (blocks H)) (split x)')
    w('      = split (Fᵀ *ᵥ a + H *ᵥ x) := by')
    if many:
        w('  have e : ∀ i, (H *ᵥ x) i = ∑ j, if i.val / 3 = j.val / 3 then H i j * x j else 0 := by')
        w('    intro i\n    rw [mulVec, dotProduct]\n    refine Finset.sum_congr rfl fun j _ => ?_')
        w('    split_ifs with hij\n    · rfl\n    · rw [h i j hij, zero_mul]')
        w('  simp only [cols, blocks, split, rows, ladd, ldot, List.zip_cons_cons, List.zip_nil_left, List.zipWith_cons_cons, List.zipWith_nil_left, List.map_cons, List.map_nil,')
        w('    List.sum_cons, List.sum_nil, Pi.add_apply, e]')
        w('  simp [Fin.sum_univ_succ, mulVec, dotProduct]\n  try (refine ⟨?_, ?_⟩ <;> ring)\n')
    else:
        w('  simp [cols, blocks, split, rows, ladd, ldot, mulVec, dotProduct, Fin.sum_univ_succ]\n')
    w('/-- The base. -/')
    w('noncomputable def baseAt (v : V6) (fext : Ext) : Base := { I := Inertias.std.%s, fext := fext %s, v := v }\n' % (base, base.upper()))
    w('/-- The branches at a position. -/')
    w('noncomputable def branchesAt (q qd : Q) (fext : Ext) : List (List Joint) := branches (MT.at q) (FT.at q) Inertias.std qd fext\n')
    w('theorem branches_rigid (q qd : Q) (fext : Ext) : ∀ br ∈ branchesAt q qd fext, ∀ j ∈ br, j.Rigid := by')
    w('  simp only [branchesAt, branches, List.mem_cons, List.not_mem_nil, or_false, forall_eq_or_imp, forall_eq]')
    w('  refine %s' % ('⟨' + ', '.join('⟨' + ', '.join('?_' for _ in br) + '⟩' for br in brs) + '⟩' if many else '⟨' + ', '.join('?_' for _ in brs[0]) + '⟩'))
    for br in brs:
        for l in br:
            w('  · exact ⟨⟨_, _, motion_%s_isMotion 0 q⟩, force_fr_%s_X_fr_%s_transpose 0 0 q, tensor_%s_body 0⟩' %
              (R['xname'][l], R['parent'][l], l, l))
    w('')
    if pd:
        w('theorem branches_pos (q qd : Q) (fext : Ext) : ∀ br ∈ branchesAt q qd fext, ∀ j ∈ br, ∀ u : V6, u ≠ 0 → 0 < u ⬝ᵥ (j.I *ᵥ u) := by')
        w('  simp only [branchesAt, branches, List.mem_cons, List.not_mem_nil, or_false, forall_eq_or_imp, forall_eq]')
        w('  exact ⟨' + ', '.join('⟨' + ', '.join('tensor_%s_pos 0' % l for l in br) + '⟩' for br in brs) + '⟩\n')
        w('theorem pairs_good (q qd : Q) (fext : Ext) (x : Q) :')
        w('    ∀ br ∈ List.zipWith List.zip (branchesAt q qd fext) (split x), ∀ e ∈ br, e.1.Good := by')
        w('  intro br hbr e he')
        w('  obtain ⟨js, xs, hjs, rfl⟩ := mem_pairs hbr')
        w('  have hj := (List.of_mem_zip (show (e.1, e.2) ∈ _ from he)).1')
        w('  have hr := branches_rigid q qd fext js hjs _ hj')
        w('  exact ⟨hr.motion, hr.body, branches_pos q qd fext js hjs _ hj⟩\n')
        w('theorem base_good (v : V6) (fext : Ext) : (baseAt v fext).Good := ⟨tensor_%s_body 0, tensor_%s_pos 0⟩\n' % (base, base))
    A = 'Robots.%s.' % robot
    LST = 'List.zipWith_cons_cons, List.zipWith_nil_left, List.zip_cons_cons, List.zip_nil_left, List.foldl_cons, List.foldl_nil, List.map_cons, List.map_nil'
    fin = ['  rfl\n']

    def eq(name, args, call, rhs, unf, refills):
        w('theorem %s {o : Robot} (h : Inv o) %s :' % (name, args))
        w('    ((%s).2.1, split (%s).2.2) = %s := by' % (call, call, rhs))
        w('  simp -implicitDefEqProofs only [%s]' % refills)
        w('  simp -implicitDefEqProofs only [baseAt, branchesAt, branches, split, %s, %s]' % (LST, unf))
        for f in fin:
            w(f)
    B = base + '_v'
    eq('fd_eq', '(q : Q) (v g : V6) (qd tau : Q) (fext : Ext)', 'o.fd q v g qd tau fext',
       'fdFloat (baseAt v fext) g (List.zipWith List.zip (branchesAt q qd fext) (split tau))',
       'fdFloat, Base.AI, Base.p, up, down, ' + OPS, 'Robot.fd, h.m, h.i, %sfd, h.fc, h.fa, cross_refill, Ia_refill, Matrix.neg_mulVec' % A)
    eq('full_eq', '(q : Q) (g v acc : V6) (qd qdd : Q) (fext : Ext)', 'o.id_full q g v acc qd qdd fext',
       'idFull (baseAt v fext) g acc (List.zipWith List.zip (branchesAt q qd fext) (split qdd))',
       'idFull, rnea, addF, ' + OPS, 'Robot.id_full, h.m, h.i, %sid_fully_actuated, h.ic, cross_refill' % A)
    eq('id_eq', '(q : Q) (g v : V6) (qd qdd : Q) (fext : Ext)', 'o.id q g v qd qdd fext',
       'idFloat (baseAt v fext) g (List.zipWith List.zip (branchesAt q qd fext) (split qdd))',
       'idFloat, Articulated.comp, compDown, iacc, cacc, addV, ' + OPS, 'Robot.id, h.m, h.i, %sid, h.ic, cross_refill, Matrix.neg_mulVec' % A)
    eq('G_eq', '(q : Q) (g v : V6) (qd : Q) (fext : Ext)', 'o.G_terms q g',
       'gFull (baseAt v fext) g (branchesAt q qd fext)', 'gFull, gterms, addF', 'Robot.G_terms, h.m, h.i, %sG_terms_fully_actuated' % A)
    eq('C_eq', '(q : Q) (v : V6) (qd : Q) (fext : Ext)', 'o.C_terms q v qd',
       'cFull (baseAt v fext) (branchesAt q qd fext)', 'cFull, cterms, cacc, addF, Joint.vel, Joint.cor',
       'Robot.C_terms, h.m, h.i, %sC_terms_fully_actuated, h.ic, cross_refill' % A)
    w('theorem jsim_eq {o : Robot} (h : Inv o) (q qd : Q) (fext : Ext) :')
    w('    ∃ junk, jsimFloat (Inertia.new junk) Inertias.std.%s (branchesAt q qd fext)' % base)
    w('      = ((o.jsim q).2.toBlocks₁₁, cols (o.jsim q).2.toBlocks₁₂, blocks (o.jsim q).2.toBlocks₂₂) := by')
    w('  obtain ⟨junk, hs⟩ := h.sp')
    w('  refine ⟨junk, ?_⟩')
    w('  simp -implicitDefEqProofs only [Robot.jsim, h.ft, h.i, %sjsim, hs, transform_refill, toBlocks_fromBlocks₁₁, toBlocks_fromBlocks₁₂, toBlocks_fromBlocks₂₂]' % A)
    w('  simp -implicitDefEqProofs only [branchesAt, branches, cols, blocks, jsimFloat, crba, %s]' % LST)
    w('  rfl\n')
    w('theorem jsim_blocks {o : Robot} (q : Q) :')
    w('    (o.jsim q).2 = fromBlocks (o.jsim q).2.toBlocks₁₁ (o.jsim q).2.toBlocks₁₂ (o.jsim q).2.toBlocks₁₂ᵀ (o.jsim q).2.toBlocks₂₂ := blocks_of rfl\n')
    if many:
        w('theorem jsim_cross {o : Robot} (h : Inv o) (q : Q) (a b : Fin %d) (hab : a.val / 3 ≠ b.val / 3) :' % n)
        w('    (o.jsim q).2.toBlocks₂₂ a b = 0 := (h.step (.jsim q)).H a b hab\n')
    w('theorem top_symm {o : Robot} (h : Inv o) (q : Q) : (o.jsim q).2.toBlocks₁₁ᵀ = (o.jsim q).2.toBlocks₁₁ := by')
    w('  obtain ⟨junk, hj⟩ := jsim_eq h q 0 0')
    w('  have h1 : (jsimFloat _ _ _).1 = (o.jsim q).2.toBlocks₁₁ := congrArg Prod.fst hj')
    w('  rw [← h1]')
    w('  exact jsimFloat_symm junk (tensor_%s_body 0) _ (branches_rigid q 0 0)\n' % base)
    hs = '(h : Inv o) ' if many else '(_h : Inv o) '
    w('theorem jsim_symm {o : Robot} %s(q : Q) : (o.jsim q).2ᵀ = (o.jsim q).2 := by' % hs)
    w('  have hI : (o.jsim q).2.toBlocks₁₁ᵀ = (o.jsim q).2.toBlocks₁₁ := top_symm _h q' if not many else
      '  have hI : (o.jsim q).2.toBlocks₁₁ᵀ = (o.jsim q).2.toBlocks₁₁ := top_symm h q')
    w('  have hH : (o.jsim q).2.toBlocks₂₂ᵀ = (o.jsim q).2.toBlocks₂₂ := by')
    if many:
        w('    ext a b\n    by_cases hab : a.val / 3 = b.val / 3')
        w('    · fin_cases a <;> fin_cases b <;> first | exact absurd hab (by decide) | rfl')
        w('    · rw [transpose_apply, jsim_cross h q a b hab, jsim_cross h q b a (Ne.symm hab)]')
    else:
        w('    ext a b; fin_cases a <;> fin_cases b <;> rfl')
    w('  rw [jsim_blocks, fromBlocks_transpose, transpose_transpose, hI, hH]\n')
    body2(robot, R, w, n, base, many, pd)
    w('end CT.Robots.%s' % robot)
    os.makedirs(OUT, exist_ok=True)
    open(os.path.join(OUT, robot + '.lean'), 'w').write('\n'.join(o) + '\n')


def body2(robot, R, w, n, base, many, pd):
    cross = ' (jsim_cross (inv_after b kb) q)' if many else ''
    w('/-! ### Theorems -/\n')
    w('theorem terms_eq (a b c d : Robot) (ka kb kc kd : List Call) (q : Q) (g v acc : V6) (qd qdd : Q) :')
    w('    ((Robot.after a ka).id_full q g v acc qd qdd 0).2.1')
    w('      = ((Robot.after b kb).jsim q).2.toBlocks₁₁ *ᵥ acc + ((Robot.after b kb).jsim q).2.toBlocks₁₂ *ᵥ qdd')
    w('        + ((Robot.after c kc).C_terms q v qd).2.1 + ((Robot.after d kd).G_terms q g).2.1')
    w('    ∧ ((Robot.after a ka).id_full q g v acc qd qdd 0).2.2')
    w('      = ((Robot.after b kb).jsim q).2.toBlocks₁₂ᵀ *ᵥ acc + ((Robot.after b kb).jsim q).2.toBlocks₂₂ *ᵥ qdd')
    w('        + ((Robot.after c kc).C_terms q v qd).2.2 + ((Robot.after d kd).G_terms q g).2.2 := by')
    w('  obtain ⟨junk, hj⟩ := jsim_eq (inv_after b kb) q qd 0')
    w('  have h := float_terms junk (b := baseAt v 0) (tensor_%s_body 0) rfl g acc (branchesAt q qd 0) (split qdd) (branches_rigid q qd 0)' % base)
    w('    (by\n      simp only [branchesAt, branches, List.mem_cons, List.not_mem_nil, or_false, forall_eq_or_imp, forall_eq]')
    w('      simp)')
    w('    rfl')
    w('  rw [show (baseAt v 0).I = Inertias.std.%s from rfl, hj, ← full_eq (inv_after a ka), ← C_eq (inv_after c kc), ← G_eq (inv_after d kd)] at h' % base)
    w('  simp only [fsum_cols] at h')
    w('  rw [rows_blocks _ _ _ _%s, split_add, split_add] at h' % cross)
    w('  exact ⟨h.1, split_inj h.2⟩\n')
    w('/-- **C126 (%s).**  Without external forces, `id_fully_actuated` is the product of the joint space inertia' % robot)
    w('matrix and the accelerations of base and joints plus `C_terms_fully_actuated` plus `G_terms_fully_actuated`. -/')
    w('theorem C126_%s (a b c d : Robot) (ka kb kc kd : List Call) (q : Q) (g v acc : V6) (qd qdd : Q) :' % robot)
    w('    Sum.elim ((Robot.after a ka).id_full q g v acc qd qdd 0).2.1 ((Robot.after a ka).id_full q g v acc qd qdd 0).2.2')
    w('      = ((Robot.after b kb).jsim q).2 *ᵥ Sum.elim acc qdd')
    w('        + Sum.elim ((Robot.after c kc).C_terms q v qd).2.1 ((Robot.after c kc).C_terms q v qd).2.2')
    w('        + Sum.elim ((Robot.after d kd).G_terms q g).2.1 ((Robot.after d kd).G_terms q g).2.2 := by')
    w('  obtain ⟨h1, h2⟩ := terms_eq a b c d ka kb kc kd q g v acc qd qdd')
    w('  rw [jsim_blocks, fromBlocks_mulVec, h1, h2]')
    w('  funext k\n  cases k <;> rfl\n')
    cz = ' (jsim_cross (inv_after z cs) q)' if many else ''
    w('/-- **C128 (%s).**  The quadratic form of the joint space inertia matrix is twice the kinetic energy of the' % robot)
    w('base and of the links when the base and the joints move with the given rates. -/')
    w('theorem C128_%s (z : Robot) (cs : List Call) (q : Q) (v : V6) (qd : Q) :' % robot)
    w('    Sum.elim v qd ⬝ᵥ (((Robot.after z cs).jsim q).2 *ᵥ Sum.elim v qd)')
    w('      = v ⬝ᵥ (Inertias.std.%s *ᵥ v) + ((List.zipWith List.zip (branchesAt q qd 0) (split qd)).map (energy v)).sum := by' % base)
    w('  obtain ⟨junk, hj⟩ := jsim_eq (inv_after z cs) q qd 0')
    w('  have h := float_energy junk (I := Inertias.std.%s) (tensor_%s_body 0) v (branchesAt q qd 0) (split qd) (branches_rigid q qd 0) rfl' % (base, base))
    w('  rw [hj] at h')
    w('  simp only [fsum_cols] at h')
    w('  rw [rows_blocks _ _ _ _%s, split_dot] at h' % cz)
    w('  rw [jsim_blocks, fromBlocks_mulVec, dotProduct, Fintype.sum_sum_type, ← h]')
    w('  rfl\n')
    if not pd:
        w('/-- **C127 (%s), in part.**  The joint space inertia matrix is symmetric at every position.  Missing: it is' % robot)
        w('not positive definite, see `C127_%s_violated`. -/' % robot)
        w('theorem C127_%s_partial (z : Robot) (cs : List Call) (q : Q) :' % robot)
        w('    (((Robot.after z cs).jsim q).2)ᵀ = ((Robot.after z cs).jsim q).2 := jsim_symm (inv_after z cs) q\n')
        w('/-- **C127 (%s), violated.**  The joint space inertia matrix is not positive definite: the parameters of the' % robot)
        w('two links are given about their centres of mass although the code takes them about the origin of the link. -/')
        w('theorem C127_%s_violated (z : Robot) (cs : List Call) : ∃ q : Q, ∃ x,' % robot)
        w('    x ≠ 0 ∧ x ⬝ᵥ (((Robot.after z cs).jsim q).2 *ᵥ x) < 0 := by')
        w('  refine ⟨0, Sum.elim ![0, 0, 0, -0.05, 0, 0] ![0, 1], fun h => ?_, ?_⟩')
        w('  · have := congrFun h (.inr 1)\n    simp at this')
        w('  · rw [C128_%s]' % robot)
        w('    simp only [branchesAt, branches, split, List.zipWith_cons_cons, List.zipWith_nil_left, List.zip_cons_cons, List.zip_nil_left, List.map_cons, List.map_nil, energy]')
        w('    have e1 : (MT.at 0).fr_link1_X_fr_body *ᵥ ![0, 0, 0, -0.05, 0, 0] + (![0, 1] : Q) JA • axisZ = ![0, 0, 0, -0.05, 0, 0] := by')
        w('      funext k; fin_cases k <;> simp [MT.at, MT.new, MT.setJointStatus, motion_fr_link1_X_fr_body_update, motion_fr_link1_X_fr_body_new, mulVec, dotProduct, Fin.sum_univ_succ, axisZ]')
        w('    have e2 : (MT.at 0).fr_link2_X_fr_link1 *ᵥ ![0, 0, 0, -0.05, 0, 0] + (![0, 1] : Q) JB • axisZ = ![0, 0, 1, 0, -0.05, 0] := by')
        w('      funext k; fin_cases k <;> simp [MT.at, MT.new, MT.setJointStatus, motion_fr_link2_X_fr_link1_update, motion_fr_link2_X_fr_link1_new, mulVec, dotProduct, Fin.sum_univ_succ, axisZ]')
        w('    rw [e1, e2]')
        w('    simp [Inertias.std, Inertias.new, tensor_body, tensor_link1, tensor_link2, Inertia.fill, Inertia.new, buildInertiaTensor, mulVec, dotProduct, Fin.sum_univ_succ]')
        w('    norm_num\n')
        return
    w('/-- **C125 (%s).**  The accelerations of base and joints that `fd` computes for given joint forces are those' % robot)
    w('for which `id_fully_actuated` computes these forces and no force on the base, whatever was called before on')
    w('the two objects. -/')
    w('theorem C125_%s_fd (z y : Robot) (cs ds : List Call) (q : Q) (g v acc : V6) (qd tau qdd : Q) (fext : Ext) :' % robot)
    w('    ((Robot.after z cs).id_full q g v acc qd qdd fext).2 = (0, tau)')
    w('      ↔ (acc, qdd) = ((Robot.after y ds).fd q v g qd tau fext).2 := by')
    w('  have h1 := full_eq (inv_after z cs) q g v acc qd qdd fext')
    w('  have h2 := fd_eq (inv_after y ds) q v g qd tau fext')
    w('  have h3 := float_iff (base_good v fext).ok g acc (List.zipWith List.zip (branchesAt q qd fext) (split tau)) (split qdd)')
    w('    (fun br hbr e he => (pairs_good q qd fext tau br hbr e he).ok) rfl')
    w('  rw [show withJoints (List.zipWith List.zip (branchesAt q qd fext) (split tau)) (split qdd)')
    w('        = List.zipWith List.zip (branchesAt q qd fext) (split qdd) from rfl,')
    w('    show (List.zipWith List.zip (branchesAt q qd fext) (split tau)).map (List.map Prod.snd) = split tau from rfl, ← h1, ← h2] at h3')
    w('  rw [split_pair split_inj, split_pair split_inj] at h3')
    w('  exact h3\n')
    w('/-- **C125 (%s).**  The acceleration of the base and the joint forces that `id` computes for given joint' % robot)
    w('accelerations are those for which `id_fully_actuated` computes these forces and no force on the base. -/')
    w('theorem C125_%s_id (z y : Robot) (cs ds : List Call) (q : Q) (g v acc : V6) (qd tau qdd : Q) (fext : Ext) :' % robot)
    w('    ((Robot.after z cs).id_full q g v acc qd qdd fext).2 = (0, tau)')
    w('      ↔ (acc, tau) = ((Robot.after y ds).id q g v qd qdd fext).2 := by')
    w('  have h1 := full_eq (inv_after z cs) q g v acc qd qdd fext')
    w('  have h2 := id_eq (inv_after y ds) q g v qd qdd fext')
    w('  have h3 := float_id_iff (base_good v fext) g acc (List.zipWith List.zip (branchesAt q qd fext) (split qdd)) (split tau)')
    w('    (pairs_good q qd fext qdd)')
    w('  rw [← h1, ← h2, split_pair split_inj, split_pair split_inj] at h3')
    w('  exact h3\n')
    cross = ' (jsim_cross (inv_after z cs) q)' if many else ''
    w('/-- **C127 (%s).**  The joint space inertia matrix is symmetric and positive definite at every position. -/' % robot)
    w('theorem C127_%s (z : Robot) (cs : List Call) (q : Q) :' % robot)
    w('    (((Robot.after z cs).jsim q).2)ᵀ = ((Robot.after z cs).jsim q).2')
    w('    ∧ ∀ x, x ≠ 0 → 0 < x ⬝ᵥ (((Robot.after z cs).jsim q).2 *ᵥ x) := by')
    w('  refine ⟨jsim_symm (inv_after z cs) q, fun x hx => ?_⟩')
    w('  obtain ⟨junk, hj⟩ := jsim_eq (inv_after z cs) q 0 0')
    w('  have hx2 : x ∘ Sum.inl ≠ 0 ∨ ∃ xs ∈ split (x ∘ Sum.inr), ∃ y ∈ xs, y ≠ 0 := by')
    w('    by_cases h1 : x ∘ Sum.inl = 0')
    w('    · refine .inr (split_ne fun h2 => hx ?_)')
    w('      funext k\n      cases k with\n      | inl k => exact congrFun h1 k\n      | inr k => exact congrFun h2 k')
    w('    · exact .inl h1')
    w('  have h := float_pos junk (tensor_%s_body 0) (tensor_%s_pos 0) (x ∘ Sum.inl) (branchesAt q 0 0) (split (x ∘ Sum.inr))' % (base, base))
    w('    (branches_rigid q 0 0) (fun br hbr j hj => (branches_rigid q 0 0 br hbr j hj).ok (branches_pos q 0 0 br hbr j hj)) rfl hx2')
    w('  rw [show tensor_%s 0 = Inertias.std.%s from rfl, hj] at h' % (base, base))
    w('  simp only [fsum_cols] at h')
    w('  rw [rows_blocks _ _ _ _%s, split_dot] at h' % cross)
    w('  rw [jsim_blocks, fromBlocks_mulVec, dotProduct, Fintype.sum_sum_type]')
    w('  exact h\n')


if __name__ == '__main__':
    for r in (sys.argv[1:] or g.ROBOTS):
        R = g.generate(r)
        R['robot'] = r
        if not R['floating']:
            fixed(r, R)
        else:
            floating(r, R)
