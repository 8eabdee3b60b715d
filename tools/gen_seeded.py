"""Turn the raw results of the seeded-bug runs into seeded/LOG.jsonl.

usage: gen_seeded.py RAW.jsonl ...   (raw lines: file, def, edit, claim, failed, tag, tightened)
`failed` holds the theorems at which the build of the edited model stopped with an error. `dependent` holds claims (theorems named Cxx_...)
that rest on these; they are found by name in the present source, not by a run, and at most eight are listed.
Survivors that were later killed by a tightened theorem appear with that theorem.
"""
import glob, json, re, sys, os
root = os.path.dirname(os.path.dirname(os.path.abspath(__file__)))
decl = re.compile(r'^(?:@\[[^\]]*\]\s*)?(?:private |protected |noncomputable )*(?:theorem|lemma|def|abbrev)\s+([^\s:({\[]+)')
files = {}
for d in ('Model', 'Props', 'Proof', 'Spec'):
    for f in glob.glob(f'{root}/lean/Verif/{d}/**/*.lean', recursive=True):
        files[os.path.relpath(f, f'{root}/lean')[:-5].replace('/', '.')] = open(f).read()
imports = {m: [x for x in re.findall(r'^import (Verif\.\S+)', s, re.M) if x in files] for m, s in files.items()}
def closure(m, seen=None):
    seen = set() if seen is None else seen
    for x in [m] + imports[m]:
        if x not in seen:
            seen.add(x); closure(x, seen)
    return seen
reach = {m: closure(m) for m in files}
defs, bodies = {}, {}
for mod, s in files.items():
    cur = None
    for line in s.split('\n'):
        m = decl.match(line)
        if m:
            cur = (mod, m.group(1).split('.')[-1]); bodies.setdefault(cur, set()); defs.setdefault(cur[1], set()).add(mod)
            line = line[m.end():]
        elif re.match(r'^(example|end\b|section|namespace|/-|variable)', line):
            cur = None
        if cur:
            bodies[cur] |= set(re.findall(r"[A-Za-z_][\w']*", line))
users = {}
for (mod, a), rs in bodies.items():
    for r in rs:
        for m2 in defs.get(r, ()):
            if m2 in reach[mod] and (m2, r) != (mod, a):
                users.setdefault((m2, r), set()).add((mod, a))
def dependents(names, mod):
    seen, todo = set(), [(m, n.split('.')[-1]) for n in names for m in defs.get(n.split('.')[-1], ()) if mod in reach[m]]
    while todo:
        x = todo.pop()
        if x in seen: continue
        seen.add(x); todo += users.get(x, ())
    return sorted(n for m, n in seen if re.match(r'C\d+_', n))
ROBOTS = ('InvertedPendulum', 'DoubleInvertedPendulum', 'HyA', 'QuadrotorWithLoad', 'HyQ')
out = []
for p in sys.argv[1:]:
    for l in open(p):
        r = json.loads(l)
        if r['tag'] not in ('KILLED', 'SURVIVED', 'EQUIVALENT'): continue
        mod = 'Verif.' + r['file'][:-5].replace('/', '.')
        failed = [x for x in r['failed'] if x not in ('example', '?')]
        failed = [x for x in failed if any(mod in reach[m] for m in defs.get(x.split('.')[-1], ()))]
        deps = [x for x in dependents(failed, mod) if x not in failed]
        robot = next((x for x in ROBOTS if f'Robots.{x}' in mod), None)
        if robot:  # names are compared without namespaces: drop theorems about other robots
            deps = [x for x in deps if not re.match(r'C\d+_(%s)(_|$)' % '|'.join(y for y in ROBOTS if y != robot), x)]
        deps = deps[:8]
        text = re.sub(r'^C\d+\w*((?:/|, )C\d+)*\??\s*(violated)?:?\s*', '', r['claim']).strip()
        ids = r.get('ids') or sorted({re.match(r'C\d+', x).group(0) for x in failed + deps + r.get('tightened', []) if re.match(r'C\d+_', x)})
        e = {'definition': f"{r['file']}: {r['def']}", 'edit': r['edit'],
             'claim': ', '.join(ids) + (': ' + text if text else ''),
             'failed': failed, 'dependent': deps, 'tightened': r.get('tightened', [])}
        if r.get('note'): e['note'] = r['note']
        out.append(e)
open(root + '/seeded/LOG.jsonl', 'w').write(''.join(json.dumps(e, ensure_ascii=False) + '\n' for e in out))
print(len(out), 'entries')
