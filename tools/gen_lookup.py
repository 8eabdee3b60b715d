#!/usr/bin/env python3
"""Writes lean/Verif/Model/RobotLookups.lean and lean/Verif/Props/RobotLookups.lean from the macros in
/repo/ct_models/include/ct/models/<robot>/<robot>.h and the lists in lean/Verif/Model/Robots/<robot>Kin.lean."""
import os, re

HERE = os.path.dirname(os.path.abspath(__file__))
LEAN = os.path.join(HERE, '..', 'lean', 'Verif')
SRC = '/repo/ct_models/include/ct/models'
ROBOTS = ['InvertedPendulum', 'DoubleInvertedPendulum', 'HyA', 'QuadrotorWithLoad', 'HyQ']


def macros(r):
    t = open(f'{SRC}/{r}/{r}.h').read()
    lines = t.split('\n')
    first = next(i for i, l in enumerate(lines) if l.startswith('#define CT_BASE')) + 1
    last = max(i for i, l in enumerate(lines) if 'CT_EE' in l and l.startswith('#define')) + 1
    t = t.replace('\\\n', ' ')
    d = dict(re.findall(r'#define (CT_\w+)\s+(\w+)', t))
    return d, first, last


def lst(r, name):
    t = open(f'{LEAN}/Model/Robots/{r}Kin.lean').read()
    m = re.search(r'def ' + name + r' : List \w+ :=\s*\[(.*?)\]', t, re.S)
    return [x.strip() for x in m.group(1).split(',')]


def frames(r):
    t = open(f'{LEAN}/Props/Robots/{r}Frames.lean').read()
    m = re.search(r'def frames : List Frame :=\s*\[(.*?)\]', t, re.S)
    return [tuple(y.strip() for y in x.split(',')) for x in re.findall(r'⟨(.*?)⟩', m.group(1))]


def joints(r):
    t = open(f'{LEAN}/Model/Robots/{r}Kin.lean').read()
    t = t[t.index('### Joints'):]
    t = t[:t.index('### Coordinate')]
    return {a: int(b) for a, b in re.findall(r'abbrev (\w+) : ℕ := (\d+)', t)}


def mem(l, x):
    return f'List.mem_of_getElem? (i := {l.index(x)}) rfl'


model = ['''import Verif.Model.Lookup
''' + '\n'.join(f'import Verif.Model.Robots.{r}Kin' for r in ROBOTS) + '''

/-!
# The macros of the robots

Written by `tools/gen_lookup.py`.  The line numbers are those of `ct_models/include/ct/models/<robot>/<robot>.h`.
-/
''']
props = ['''import Verif.Model.RobotLookups
import Verif.Props.Lookup
''' + '\n'.join(f'import Verif.Props.Robots.{r}Frames' for r in ROBOTS) + '''

/-!
# The look-ups of the robots

Written by `tools/gen_lookup.py`.
-/

namespace CT.Lookup

open GenKin FrameJac
''']

for r in ROBOTS:
    d, a, b = macros(r)
    ts, js, fr, jn = lst(r, 'transforms'), lst(r, 'jacobians'), frames(r), joints(r)
    base = d['CT_BASE']
    nl = 0
    while f'CT_L{nl}' in d:
        nl += 1
    links = [d[f'CT_L{i}'] for i in range(nl)]
    nee = int(d['CT_N_EE'])
    assert f'CT_EE{nee}' not in d
    ees = [(d[f'CT_EE{i}'], d[f'CT_EE{i}_IS_ON_LINK'], d[f'CT_EE{i}_FIRST_JOINT'], d[f'CT_EE{i}_LAST_JOINT'])
           for i in range(nee)]
    pairs = [(f'{base}_X_{l}', f'{l}_X_{base}') for l in links]
    exist = all(x in ts and y in ts for x, y in pairs)
    note = '' if exist else f'''  There are no transforms
`{pairs[0][0]}` and so on with the names defined for the links: the look-up of links of this robot does not compile
when it is used, and it has no links here; nothing is claimed about it.'''
    if not exist:
        pairs = []
    model.append(f'''
namespace CT.Robots.{r}.Kin

/-- The macros of the {r} ({r}.h:{a}-{b}).{note} -/
def defs : Lookup.Defs where
  njoints := {len(jn)}
  links := [{(","+chr(10)+"    ").join(f"({x}, {y})" for x, y in pairs)}]
  ees := [{(","+chr(10)+"    ").join(f"⟨{base}_X_{e}, {base}_J_{e}, {l}, {p}, {q}⟩" for e, l, p, q in ees)}]

end CT.Robots.{r}.Kin''')
    ns = f'Robots.{r}.Kin'
    o = lambda s: re.sub(r'\b(\w+)', lambda m: m.group(1), s)
    # proofs
    lk = '⟨' + ', '.join([f'''⟨{mem(ts, x)},
      {mem(ts, y)}, rfl, rfl, rfl,
      _, {mem([f[0] for f in fr], x.split("_X_")[1])}, rfl, rfl⟩''' for x, y in pairs] + ['trivial']) + '⟩'
    ek = ''.join(f'List.forall_mem_cons.2 ⟨⟨{mem(ts, f"{base}_X_{e}")}, rfl⟩,\n      ' for e, *_ in ees) + \
        'List.forall_mem_nil _' + '⟩' * nee
    ef = '[' + ', '.join(e for e, *_ in ees) + ']'
    c130 = 'hC, _, ht' if r == 'HyQ' else None
    t = open(f'{LEAN}/Props/Robots/{r}Frames.lean').read()
    st = re.search(r'theorem C130_\w+_transforms :(.*?):= by', t, re.S).group(1)
    st = ' '.join(st.split())
    head, tail = st.split('∀ q, ∃ G, Arranged frames C q G ∧ ')
    nconj = head.count('∧')
    pre = ', '.join(f'c{i}' for i in range(nconj))
    keep = ', '.join(f'c{i}' for i in range(nconj))
    what = 'd.LinksRight frames G q ∧ d.EEsRight'
    lr = f'defs.LinksRight frames G q ∧ ' if exist else ''
    lrp = f'''links_right h0 ht rfl ({lk}), ''' if exist else ''
    props.append(f'''
namespace {r}

open Robots.{r}.Kin

/-- C133: the look-ups by number of the {r} are about the links and end effectors that they should be about. -/
theorem C133_{r}_lookup :
    {head}∀ q, ∃ G, Arranged frames C q G ∧ {lr}defs.EEsRight {ef} G q := by
  obtain ⟨C, {pre}, hC⟩ := C130_{r}_transforms
  refine ⟨C, {keep}, fun q => ?_⟩
  obtain ⟨G, hG, ht⟩ := hC q
  have h0 := hG.1
  exact ⟨G, hG, {lrp}ees_right h0 ht ({ek})⟩
''')
    fid = [f[0] for f in fr]
    good, bad = [], []
    for k, (e, l, p, q) in enumerate(ees):
        fe = fr[fid.index(e)]
        par = fr[fid.index(fe[1])]
        ok = par[2].startswith('some') and jn[par[2].split()[1]] + 1 == int(l) and fe[2] == 'none'
        (good if ok else bad).append((k, e, l, par))
    if good:
        assert not bad
        pf = ',\n    '.join(f'''⟨{int(l) - 1}, rfl, _, {mem(fid, par[0])}, rfl,
      _, {mem(fid, e)}, rfl, rfl, rfl⟩''' for k, e, l, par in good)
        conj = ' ∧ '.join(f'defs.EELinkRight frames {k} {e}' for k, e, l, par in good)
        if len(good) > 1:
            pf = '⟨' + pf + '⟩'
        props.append(f'''/-- C133: the end effectors of the {r} are on the links that they are declared to be on. -/
theorem C133_{r}_ee_link : {conj} :=
  {pf}
''')
    for k, e, l, par in bad:
        props.append(f'''/-- C133 is violated: end effector {k} of the {r} is declared to be on link {l} (`CT_EE{k}_IS_ON_LINK`), but its
frame is mounted on the frame that joint {jn[par[2].split()[1]]} turns, link {jn[par[2].split()[1]] + 1}. -/
theorem C133_{r}_ee_link_violated :
    defs.eeIdToLinkId {k} = .ok {l} ∧ ¬ defs.EELinkRight frames {k} {e}
    ∧ ⟨{e}, {par[0]}, none⟩ ∈ frames ∧ ⟨{par[0]}, {par[1]}, {par[2]}⟩ ∈ frames := by
  refine ⟨rfl, ?_, {mem(fid, e)}, {mem(fid, par[0])}⟩
  rintro ⟨i, h, g, hg, hj, e, he, h1, h2, _⟩
  have hi : i = {int(l) - 1} := by
    simp only [Defs.eeIdToLinkId, defs, List.getElem?_cons_zero, Res.ok.injEq] at h
    omega
  subst hi
  simp only [frames, List.mem_cons, List.not_mem_nil, or_false] at hg he
  rcases hg with rfl | rfl | rfl | rfl | rfl | rfl | rfl <;>
    rcases he with rfl | rfl | rfl | rfl | rfl | rfl | rfl <;> simp_all
''')
    props.append('''theorem ids : (∀ f ∈ frames, f.id ≠ 0) ∧ (frames.map Frame.id).Nodup := by
  rw [← frames_eq]
  decide +kernel
''')
    for k, (e, l, p, q) in enumerate(ees):
        props.append(f'''theorem path_{e} : IsPath frames {e} ((List.range ({q} + 1 - {p})).map ({p} + ·)) := by
  rw [← frames_eq]
  have := chain_path wf_ok (f := {e}) (Or.inr ⟨m_{e}, {mem(fid, e)}, rfl⟩) parents
  rwa [show (chain mountList {e}).map Prod.fst = (List.range ({q} + 1 - {p})).map ({p} + ·) by decide +kernel] at this

theorem vel_{e} : defs.EEVelRight {k} := by
  obtain ⟨C, {', '.join('_' for i in range(nconj))}, hC⟩ := C130_{r}_transforms
  exact vel_right (e := ⟨{base}_X_{e}, {base}_J_{e}, {l}, {p}, {q}⟩) hC ids.1 ids.2 rfl ({mem(ts, f"{base}_X_{e}")}) rfl rfl
    (C131_{r}_jacobians _ ({mem(js, f"{base}_J_{e}")})) path_{e} (by decide) (by decide)
''')
    props.append(f'''/-- C134: Jacobians and velocities of the end effectors of the {r}. -/
theorem C134_{r}_velocity : ∀ k < {nee}, defs.EEVelRight k := by
  intro k hk
  interval_cases k
''' + '\n'.join(f'  · exact vel_{e}' for e, *_ in ees) + f'''

end {r}
''')

props.append('''/-- C133 is violated for link 0 of every robot, the base: the look-ups return matrices that are neither the identity
nor invertible. -/
theorem C133_base_link_violated (d : Defs) (h : Hist) (q : ℕ → ℝ) :
    d.getHomogeneousTransformBaseLinkById h 0 q ≠ .ok 1 ∧ d.getForceTransformLinkBaseById h 0 q ≠ .ok 1
    ∧ ∃ T X, d.getHomogeneousTransformBaseLinkById h 0 q = .ok T ∧ T.det = 0
      ∧ d.getForceTransformLinkBaseById h 0 q = .ok X ∧ X.det = 0 := by
  refine ⟨fun e => ?_, fun e => ?_, corner 4, corner 6, rfl, ?_, rfl, ?_⟩
  · have := congrFun (congrFun (Res.ok.inj e) 3) 3
    simp [corner] at this
  · have := congrFun (congrFun (Res.ok.inj e) 5) 5
    simp [corner] at this
  · exact Matrix.det_eq_zero_of_row_eq_zero 3 fun j => by simp [corner]
  · exact Matrix.det_eq_zero_of_row_eq_zero 5 fun j => by simp [corner]

end CT.Lookup
''')
open(f'{LEAN}/Model/RobotLookups.lean', 'w').write('\n'.join(model) + '\n')
open(f'{LEAN}/Props/RobotLookups.lean', 'w').write('\n'.join(props))
