#!/usr/bin/env python3
"""Regenerate the section "Outcome per property" at the end of DESIGN.md from MANIFEST.json."""
import json, os
root = os.path.dirname(os.path.dirname(os.path.abspath(__file__)))
props = {p['id']: p for p in map(json.loads, open(root + '/properties.jsonl'))}
claims = json.load(open(root + '/MANIFEST.json'))['claims']
mark = '## Outcome per property\n'
s = open(root + '/DESIGN.md').read().split(mark)[0].rstrip('\n')
out = [mark, 'Generated from MANIFEST.json by scripts/design.py.  `_refuted` theorems prove that the full',
       'statement (a `def …_full` next to them) is false for the code, with a concrete witness.', '']
for c in claims:
    names = ', '.join('`%s`' % t.split('.')[-1] for t in c['theorems'])
    out.append('* **%s** %s: %s. %s%s' % (c['property'], props[c['property']]['title'], c['status'],
                                         (c['note'].rstrip('.') + '. ') if c['note'] else '', 'Theorems: ' + names + '.' if names else ''))
open(root + '/DESIGN.md', 'w').write(s + '\n\n' + '\n'.join(out) + '\n')
