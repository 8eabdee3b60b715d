#!/usr/bin/env python3
"""Rewrite the part of DESIGN.md after the marker: files modelled, outcome per property, disagreements."""
import glob, json, os, re
root = os.path.dirname(os.path.dirname(os.path.abspath(__file__)))
MARK = '<!-- generated by tools/gen_design.py -->'
path = os.path.join(root, 'DESIGN.md')
head = open(path).read().split(MARK)[0].rstrip() + '\n\n'
props = [json.loads(l) for l in open(os.path.join(root, 'properties.jsonl'))]
status = json.load(open(os.path.join(root, 'tools', 'status.json')))
out = [MARK, '', '## Parts of the code that are modelled', '',
       'Per model file, the files of the code it cites. Inside these, exactly the functions named in the comments of the',
       'definitions are modelled; everything else in `/repo` is not.', '']
for f in sorted(glob.glob(os.path.join(root, 'lean/Verif/Model/**/*.lean'), recursive=True)):
    t = open(f).read()
    cites = sorted(set(os.path.basename(x) for x in re.findall(r'[A-Za-z0-9_/.-]+\.(?:hpp|h|cpp)\b', t)))
    if cites:
        out.append(f'* `{os.path.basename(f)}`: ' + ', '.join(cites))
out += ['', '## Outcome per property', '', '| id | status | what is proved, what is not |', '|----|--------|-----------------------------|']
for p in props:
    s = status[p['id']]
    out.append(f"| {p['id']} | {s['status']} | {p['title']}. {s['note']} |".replace('\n', ' '))
out += ['', '## Disagreements between code and properties', '',
        'Each is a theorem about the model: a concrete input or history for which the property fails.', '']
found = []
for f in sorted(glob.glob(os.path.join(root, 'lean/Verif/Props/**/*.lean'), recursive=True)):
    t = open(f).read()
    for m in re.finditer(r'(?:/--((?:(?!-/).)*?)-/\s*)?(?:open [A-Za-z. ]+ in\s*)?theorem (C(\d+)_\w*(?:violated|undefined)\w*)', t, re.S):
        doc = re.sub(r'\s+', ' ', m.group(1) or '').strip()
        found.append((int(m.group(3)), m.group(2), doc))
for _, n, d in sorted(found):
    out.append(f'* `{n}`: {d}' if d else f'* `{n}`')
open(path, 'w').write(head + '\n'.join(out) + '\n')
print(len(found), [n for _, n, d in found if not d])
