#!/usr/bin/env python3
"""Regenerate MANIFEST.json and lean/Verif.lean.

Theorem names are collected from lean/Verif/Props/*.lean (`theorem Cnn_...`).  A property whose
theorems include a `_partial` one is `partial`, otherwise `proved`.  Notes: scripts/notes.json.
"""
import json, re, glob, os
root = os.path.dirname(os.path.dirname(os.path.abspath(__file__)))
props = [json.loads(l) for l in open(root + '/properties.jsonl')]
notes = json.load(open(root + '/scripts/notes.json'))
thms = {}
for f in sorted(glob.glob(root + '/lean/Verif/Props/*.lean')):
    ns = []
    for line in open(f):
        m = re.match(r'namespace (\S+)', line)
        if m: ns.append(m.group(1))
        m = re.match(r'end (\S+)', line)
        if m and ns and ns[-1] == m.group(1): ns.pop()
        m = re.match(r'theorem (C\d\d+)_(\w+\'?)', line)
        if m:
            thms.setdefault(m.group(1), []).append('.'.join(ns + [m.group(1) + '_' + m.group(2)]))
claims = []
for p in props:
    t = thms.get(p['id'], [])
    n = notes.get(p['id'], '')
    if n.startswith('N/A'):
        st = 'not_applicable'
    elif not t:
        print('no theorem for', p['id'], end=' '); continue
    else:
        st = 'partial' if any('_partial' in x or '_refuted' in x for x in t) else 'proved'
    if st == 'partial' and not n: print('no note for partial', p['id'])
    claims.append({'property': p['id'], 'status': st, 'theorems': t, 'note': n})
json.dump({'claims': claims}, open(root + '/MANIFEST.json', 'w'), indent=1)
for k in thms:
    if k not in {p['id'] for p in props}: print('theorems without property', k)
mods = []
for d, _, fs in os.walk(root + '/lean/Verif'):
    for f in fs:
        if f.endswith('.lean'):
            rel = os.path.relpath(os.path.join(d, f), root + '/lean')[:-5].replace('/', '.')
            mods.append(rel)
order = {'C': 0, 'Spec': 1, 'Model': 2, 'Lemmas': 3, 'Props': 4}
mods.sort(key=lambda m: (order.get(m.split('.')[1], 9), m))
open(root + '/lean/Verif.lean', 'w').write(''.join('import %s\n' % m for m in mods))
from collections import Counter
print(Counter(c['status'] for c in claims), len(mods), 'modules', sum(len(c['theorems']) for c in claims), 'theorems')
import subprocess
subprocess.run(['python3', root + '/scripts/design.py'], check=True)
