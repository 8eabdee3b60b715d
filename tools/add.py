"""Append or replace properties and status entries.

usage: add.py FILE, where FILE holds {"properties": [...], "status": {...}}.
Properties with a known id are updated field by field, others are appended.
"""
import json, sys, os
root = os.path.dirname(os.path.dirname(os.path.abspath(__file__)))
d = json.load(open(sys.argv[1]))
p = os.path.join(root, 'properties.jsonl')
L = [json.loads(l) for l in open(p)]
D = {x['id']: x for x in L}
for x in d.get('properties', []):
    if x['id'] in D:
        D[x['id']].update(x)
    else:
        for k in ('id', 'title', 'statement', 'quantifier', 'why_tests_cant', 'anchors'):
            assert k in x, (x['id'], k)
        L.append(x)
        D[x['id']] = x
L.sort(key=lambda x: int(x['id'][1:]))
open(p, 'w').write(''.join(json.dumps(x) + '\n' for x in L))
p = os.path.join(root, 'tools', 'status.json')
S = json.load(open(p))
S.update(d.get('status', {}))
S = {k: S[k] for k in sorted(S, key=lambda k: int(k[1:]))}
open(p, 'w').write('{\n' + ',\n'.join(' %s: %s' % (json.dumps(k), json.dumps(v)) for k, v in S.items()) + '\n}\n')
