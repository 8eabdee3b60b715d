#!/usr/bin/env python3
"""Translates computeL, computeLInverse and computeInverse of the generated robots into lists of statements
(lean/Verif/Model/Robots/Factor.lean).  A statement of an unknown form stops the translation."""
import os
import re

BASE = '/repo/ct_models/include/ct/models/'
OUT = os.path.join(os.path.dirname(os.path.abspath(__file__)), '..', 'lean', 'Verif', 'Model', 'Robots')
ROBOTS = ['InvertedPendulum', 'DoubleInvertedPendulum', 'HyA', 'QuadrotorWithLoad', 'HyQ']


def E(m):
    return r'\b' + m + r'\((\d+), (\d+)\)'


def pairs(body, a, b):
    out = []
    for t in re.findall(r'\(' + E(a) + r' \* ' + E(b) + r'\)', body):
        out.append('(%s, %s, %s, %s)' % t)
    rest = re.sub(r'\(' + E(a) + r' \* ' + E(b) + r'\)', 'T', body)
    return out, rest


def stmt(s):
    m = re.fullmatch(E('L') + r' = std::sqrt\(' + E('L') + r'\)', s)
    if m:
        return '.sqrt ' + ' '.join(m.groups())
    m = re.fullmatch(E('L') + ' = ' + E('L') + ' / ' + E('L'), s)
    if m:
        return '.div ' + ' '.join(m.groups())
    m = re.fullmatch(E('L') + ' = ' + E('L') + ' - ' + E('L') + r' \* ' + E('L'), s)
    if m:
        return '.sub ' + ' '.join(m.groups())
    m = re.fullmatch(E('Linv') + ' = 1 / ' + E('L'), s)
    if m:
        return '.recip ' + ' '.join(m.groups())
    m = re.fullmatch(E('Linv') + ' = - ' + E('Linv') + r' \* \((.*)\)', s)
    if m:
        ps, rest = pairs(m.group(5), 'Linv', 'L')
        assert re.fullmatch(r'(T \+ )+0', rest), rest
        return '.back ' + ' '.join(m.groups()[:4]) + ' [' + ', '.join(ps) + ']'
    m = re.fullmatch(E('inverse') + ' = ' + E('inverse'), s)
    if m:
        return '.copy ' + ' '.join(m.groups())
    m = re.fullmatch(E('inverse') + r' = ( \+ .*)', s)
    if m:
        ps, rest = pairs(m.group(3), 'Linv', 'Linv')
        assert re.fullmatch(r'( \+ T)+', rest), rest
        return '.prod ' + ' '.join(m.groups()[:2]) + ' [' + ', '.join(ps) + ']'
    raise SystemExit('unknown statement: ' + s)


def functions(robot):
    out = {}
    cur = None
    for n, l in enumerate(open(BASE + robot + '/generated/jsim.impl.h').read().split('\n'), 1):
        m = re.search(r'JSIM<TRAIT>::(computeL|computeInverse|computeLInverse)\(\) \{', l)
        if m:
            cur = out[m.group(1)] = dict(a=n, p=[])
            continue
        if cur is None:
            continue
        s = l.strip()
        if s == '}':
            cur['b'] = n
            cur = None
        elif s == 'L = this -> template triangularView<Eigen::Lower>();':
            assert not cur['p']
            cur['first'] = True
        elif s == 'computeLInverse();':
            assert not cur['p']
            cur['first'] = True
        elif s and not s.startswith('//'):
            assert s.endswith(';')
            cur['p'].append(stmt(s[:-1]))
    assert out['computeL']['first'] and out['computeInverse']['first']
    return out


def main():
    w = ['import Verif.Model.JsimFactor', '', '/-!',
         '# The statements of computeL, computeLInverse and computeInverse of the five robots', '',
         'Written by `tools/gen_factor.py` from the generated code.', '-/', '']
    for r in ROBOTS:
        f = functions(r)
        w += ['namespace CT.Robots.%s' % r, '', 'open CT.JsimFactor', '']
        for name, lean, extra in [('computeL', 'computeL_stmts', ' after its first line'), ('computeLInverse', 'computeLInverse_stmts', ''),
                                  ('computeInverse', 'computeInverse_stmts', ' after the call of `computeLInverse`')]:
            x = f[name]
            w.append('/-- The statements of `%s`%s (%s/generated/jsim.impl.h:%d-%d). -/' % (name, extra, r, x['a'], x['b']))
            w.append('def %s : List Stmt :=' % lean)
            body = x['p']
            w.append('  [' + ',\n   '.join(body) + ']')
            w.append('')
        w += ['end CT.Robots.%s' % r, '']
    open(os.path.join(OUT, 'Factor.lean'), 'w').write('\n'.join(w))


main()
