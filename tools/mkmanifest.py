#!/usr/bin/env python3
"""Collects the property theorems from lean/Verif/Prop/*.lean into MANIFEST.json and keeps the
imports of Verif.lean complete.  Status and notes are in tools/notes.json."""
import json, os, re, glob
R = os.path.join(os.path.dirname(__file__), '..')
notes = json.load(open(os.path.join(R, 'tools', 'notes.json')))
th = {}
for f in sorted(glob.glob(os.path.join(R, 'lean/Verif/**/*.lean'), recursive=True)):
    if '/Prop/' not in f and '/Ext/' not in f:
        continue
    ns = []
    for line in open(f):
        m = re.match(r'namespace (\S+)', line)
        if m: ns.append(m.group(1))
        m = re.match(r'(?:@\[.*\] *)?theorem ((C\d+)_\S+)', line)
        if m: th.setdefault(m.group(2), []).append('.'.join(ns + [m.group(1)]))
claims = []
for line in open(os.path.join(R, 'properties.jsonl')):
    i = json.loads(line)['id']
    if i not in notes or (i not in th and notes[i]['status'] != 'not_applicable'):
        print('no claim for', i)
        continue
    claims.append({'property': i, 'status': notes[i]['status'], 'theorems': th.get(i, []),
                   'note': notes[i]['note']})
with open(os.path.join(R, 'MANIFEST.json'), 'w') as f:
    json.dump({'claims': claims}, f, indent=1, ensure_ascii=False)
    f.write('\n')
mods = []
for f in sorted(glob.glob(os.path.join(R, 'lean/Verif/**/*.lean'), recursive=True)):
    mods.append(os.path.relpath(f, os.path.join(R, 'lean'))[:-5].replace('/', '.'))
with open(os.path.join(R, 'lean/Verif.lean'), 'w') as f:
    f.write(''.join(f'import {m}\n' for m in mods))
