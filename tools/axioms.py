#!/usr/bin/env python3
"""Print the axioms of the theorems of MANIFEST.json to tools/design/axioms.json (needs a built project)."""
import json, os, re, subprocess, tempfile
here = os.path.dirname(os.path.abspath(__file__))
root = os.path.dirname(here)
claims = json.load(open(os.path.join(root, 'MANIFEST.json')))['claims']
names = sorted({t for c in claims for t in c['theorems']})
with tempfile.NamedTemporaryFile('w', suffix='.lean', delete=False) as f:
    f.write('import Verif\n' + ''.join('#print axioms %s\n' % n for n in names))
text = subprocess.run(['lake', 'env', 'lean', f.name], cwd=os.path.join(root, 'lean'), capture_output=True, text=True).stdout
os.unlink(f.name)
res = {}
for m in re.finditer(r"'([^\n]+?)' (does not depend on any axioms|depends on axioms: \[([^\]]*)\])", text):
    res[m[1]] = [a.strip() for a in (m[3] or '').split(',') if a.strip()]
json.dump(res, open(os.path.join(here, 'design', 'axioms.json'), 'w'), indent=0, sort_keys=True)
print(len(res), 'of', len(names))
