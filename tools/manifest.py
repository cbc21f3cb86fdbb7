#!/usr/bin/env python3
"""Rebuild MANIFEST.json from the docstrings of lean/Verif/Props.

A theorem proves part of property Cnn when its docstring starts with `Cnn`.  The status is `partial` when
one of the theorems ends in `_partial` or when tools/status.json says so; notes come from tools/status.json.
"""
import glob, json, os, re

root = os.path.dirname(os.path.dirname(os.path.abspath(__file__)))
claims = {}
for path in sorted(glob.glob(os.path.join(root, 'lean/Verif/Props/*.lean'))):
    text = open(path).read()
    stack = []
    for m in re.finditer(r'^(namespace|end|section|noncomputable section)(?:[ \t]+([\w.]+))?[ \t]*$'
                         r'|/-- ((?:C\d+[ ,.:]*(?:and )?)+)(?:(?!-/).)*-/\s*(?:@\[[^\]]*\]\s*)?(?:theorem|lemma)\s+(\S+)',
                         text, re.M | re.S):
        kind, name, ids, thm = m.groups()
        if kind == 'namespace':
            stack.append(name)
        elif kind in ('section', 'noncomputable section'):
            stack.append(None)
        elif kind == 'end':
            if stack:
                stack.pop()
        elif thm:
            full = '.'.join([s for s in stack if s] + [thm])
            for i in re.findall(r'C\d+', ids):
                claims.setdefault(i, []).append(full)
status = json.load(open(os.path.join(root, 'tools/status.json')))
out = []
for line in open(os.path.join(root, 'properties.jsonl')):
    i = json.loads(line)['id']
    s = status.get(i, {})
    thms = claims.get(i, [])
    st = s.get('status') or ('partial' if not thms or any(t.endswith('_partial') for t in thms) else 'proved')
    note = s.get('note', '' if thms else 'not yet modelled')
    out.append({'property': i, 'status': st, 'theorems': thms, 'note': note})
json.dump({'claims': out}, open(os.path.join(root, 'MANIFEST.json'), 'w'), indent=1, ensure_ascii=False)
print(sum(1 for c in out if c['theorems']), 'of', len(out), 'claims have theorems;',
      [c['property'] for c in out if c['status'] != 'proved'])
