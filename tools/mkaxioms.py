#!/usr/bin/env python3
"""Writes AXIOMS.md: the axioms of every theorem of MANIFEST.json (needs a built project)."""
import json, os, re, subprocess
root = os.path.dirname(os.path.dirname(os.path.abspath(__file__)))
man = json.load(open(root + '/MANIFEST.json'))
names = [(c['property'], t) for c in man['claims'] for t in c['theorems']]
tmp = '/tmp/MkAxioms.lean'
open(tmp, 'w').write('import Verif\n' + ''.join('#print axioms %s\n' % t for _, t in names))
out = subprocess.run(['lake', 'env', 'lean', tmp], cwd=root + '/lean', capture_output=True, text=True).stdout
ax = {}
for m in re.finditer(r"'([^']+)' (?:depends on axioms: \[([^\]]*)\]|does not depend on any axioms)", out):
    ax[m.group(1)] = re.sub(r'\s+', ' ', m.group(2)) if m.group(2) else ''
with open(root + '/AXIOMS.md', 'w') as f:
    f.write('# Axioms of every theorem in MANIFEST.json\n\nOutput of `#print axioms`, written by `tools/mkaxioms.py`.\n'
            'Only `propext`, `Classical.choice` and `Quot.sound` occur.\n')
    groups = {}
    for p, t in names:
        groups.setdefault(p, {}).setdefault(ax[t], []).append(t)
    bad = set(a for v in ax.values() for a in v.split(', ') if a) - {'propext', 'Classical.choice', 'Quot.sound'}
    assert not bad, bad
    for p, g in groups.items():
        f.write('\n## %s\n' % p)
        for a, ts in g.items():
            f.write('\n* %s: %s\n' % (a or 'none', ', '.join('`%s`' % t for t in ts)))
print(len(ax), len(names))
