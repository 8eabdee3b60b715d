#!/usr/bin/env python3
"""Write AXIOMS.md: the axioms every theorem of the manifest depends on (needs a finished `lake build`)."""
import json, os, re, subprocess, tempfile
root = os.path.dirname(os.path.dirname(os.path.abspath(__file__)))
man = json.load(open(os.path.join(root, 'MANIFEST.json')))
names = []
for c in man['claims']:
    names += [t for t in c['theorems'] if t not in names]
src = 'import Verif\n' + ''.join(f'#print axioms {n}\n' for n in names)
with tempfile.NamedTemporaryFile('w', suffix='.lean', delete=False) as f:
    f.write(src)
out = subprocess.run(['lake', 'env', 'lean', f.name], cwd=os.path.join(root, 'lean'), capture_output=True, text=True).stdout
os.unlink(f.name)
out = re.sub(r'\s+', ' ', out)
found = {}
for m in re.finditer(r"'([^']+(?:'[^' ]*)*)' (?:depends on axioms: \[([^\]]*)\]|does not depend on any axioms)", out):
    found[m.group(1)] = m.group(2) or 'none'
missing = [n for n in names if n not in found]
groups = {}
for n in names:
    groups.setdefault(found.get(n, 'MISSING'), []).append(n)
with open(os.path.join(root, 'AXIOMS.md'), 'w') as f:
    f.write('# Axioms the theorems of the manifest depend on\n\nWritten by `tools/gen_axioms.py` from `#print axioms`.\n')
    for g in sorted(groups):
        f.write(f'\n## {g}\n\n')
        for n in sorted(groups[g]):
            f.write(f'* `{n}`\n')
print({g: len(v) for g, v in groups.items()}, missing[:5])
