#!/usr/bin/env python3
"""Write AXIOMS.md: the axioms every theorem of MANIFEST.json depends on, as `#print axioms` reports them (needs a finished `lake build`)."""
import json, os, re, subprocess, tempfile, collections
root = os.path.dirname(os.path.dirname(os.path.abspath(__file__)))
names = [(c['property'], t) for c in json.load(open(root + '/MANIFEST.json'))['claims'] for t in c['theorems']]
with tempfile.NamedTemporaryFile('w', suffix='.lean', delete=False) as f:
    f.write('import Verif\n' + ''.join('#print axioms %s\n' % t for _, t in names))
out = subprocess.run(['lake', 'env', 'lean', f.name], cwd=root + '/lean', capture_output=True, text=True).stdout
out = re.sub(r'\n\s+', ' ', out)
ax = {}
for m in re.finditer(r"'([^']*)' (depends on axioms: \[([^\]]*)\]|does not depend on any axioms)", out):
    ax[m.group(1)] = tuple(sorted(a.strip() for a in (m.group(3) or '').split(',') if a.strip()))
missing = [t for _, t in names if t not in ax]
assert not missing, missing
groups = collections.Counter(ax[t] for _, t in names)
with open(root + '/AXIOMS.md', 'w') as f:
    f.write('# Axioms of the property theorems (output of `#print axioms`, written by tools/axioms.py)\n\n')
    for g, n in groups.most_common(): f.write('* %d theorems: %s\n' % (n, ', '.join(g) or 'none'))
    f.write('\n')
    for p, t in names: f.write('%s %s: %s\n' % (p, t, ', '.join(ax[t]) or 'none'))
print(groups)
