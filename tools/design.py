#!/usr/bin/env python3
"""Write DESIGN.md from its parts."""
import json, os
here = os.path.dirname(os.path.abspath(__file__))
root = os.path.dirname(here)
part = lambda n: os.path.join(here, 'design', n)
plans = json.load(open(part('plans.json')))
axioms = json.load(open(part('axioms.json'))) if os.path.exists(part('axioms.json')) else {}
claims = {c['property']: c for c in json.load(open(os.path.join(root, 'MANIFEST.json')))['claims']}
out = [open(part('head.md')).read()]
for line in open(os.path.join(root, 'properties.jsonl')):
    p = json.loads(line)
    c = claims[p['id']]
    names = ', '.join('`%s`' % t.replace('Patro.', '', 1) for t in c['theorems'])
    out.append('* **%s** %s (%s). %s' % (p['id'], p['title'], c['status'], plans[p['id']]))
    out.append('  Theorems: %s.' % names)
    if c['note']:
        out.append('  %s' % c['note'])
out.append('\n## Axioms per theorem\n')
out.append('Printed by `#print axioms` for every theorem of MANIFEST.json. `C` stands for `Classical.choice`, `P` for `propext` and')
out.append('`Q` for `Quot.sound`.\n')
groups = {}
short = {'Classical.choice': 'C', 'propext': 'P', 'Quot.sound': 'Q'}
for c in claims.values():
    for t in c['theorems']:
        if t in axioms:
            groups.setdefault(tuple(sorted(short.get(a, a) for a in axioms[t])), []).append(t.replace('Patro.', '', 1))
for g in sorted(groups):
    out.append('* %s: %s.' % (' '.join(g) or 'none', ', '.join('`%s`' % t for t in sorted(set(groups[g])))))
missing = [t for c in claims.values() for t in c['theorems'] if t not in axioms]
if missing:
    out.append('* not yet printed: %d theorems' % len(missing))
open(os.path.join(root, 'DESIGN.md'), 'w').write('\n'.join(out) + '\n')
print('DESIGN.md:', len(claims), 'properties,', len(missing), 'theorems without axioms')
