#!/usr/bin/env python3
"""Regenerate MANIFEST.json and lean/Verif.lean from the sources.

Theorem names are collected from lean/Verif/Props: every theorem named Cxx_... is listed under
property Cxx.  Status and note come from tools/status.json."""
import json, os, re, sys
root = os.path.dirname(os.path.dirname(os.path.abspath(__file__)))
props = [json.loads(l) for l in open(root + '/properties.jsonl') if l.strip()]
status = json.load(open(root + '/tools/status.json'))
names = {}
mods = []
for d, _, fs in os.walk(root + '/lean/Verif'):
    for f in sorted(fs):
        if f.endswith('.lean'):
            rel = os.path.relpath(os.path.join(d, f), root + '/lean')[:-5].replace('/', '.')
            mods.append(rel)
for m in sorted(mods):
    if '.Props.' not in m:
        continue
    ns = []
    for line in open(root + '/lean/' + m.replace('.', '/') + '.lean'):
        mm = re.match(r'namespace (\S+)', line)
        if mm: ns.append(mm.group(1))
        mm = re.match(r'end (\S+)', line)
        if mm and ns and ns[-1] == mm.group(1): ns.pop()
        mm = re.match(r'(?:@\[[^\]]*\] )?(?:protected )?theorem ((C\d+)_\S+)', line)
        if mm:
            names.setdefault(mm.group(2), []).append('.'.join(ns + [mm.group(1)]))
open(root + '/lean/Verif.lean', 'w').write(''.join('import %s\n' % m for m in sorted(mods)))
claims = []
for p in props:
    i = p['id']
    st = status.get(i)
    th = names.get(i, [])
    if st is None:
        if th:
            print('no status for', i, file=sys.stderr)
        continue
    if not th and st['status'] != 'not_applicable':
        print('status but no theorems for', i, file=sys.stderr)
    claims.append({'property': i, 'status': st['status'], 'theorems': th, 'note': st['note']})
for i in names:
    if i not in [p['id'] for p in props]:
        print('theorems for unknown property', i, file=sys.stderr)
json.dump({'claims': claims}, open(root + '/MANIFEST.json', 'w'), indent=1, ensure_ascii=False)
print(len(claims), 'claims,', sum(len(c['theorems']) for c in claims), 'theorems')
