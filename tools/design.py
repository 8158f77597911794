#!/usr/bin/env python3
"""Fill the table of section 4 of DESIGN.md from properties.jsonl, MANIFEST.json and tools/methods.json."""
import json, os
root = os.path.dirname(os.path.dirname(os.path.abspath(__file__)))
M = json.load(open(root + '/tools/methods.json'))
cl = {c['property']: c for c in json.load(open(root + '/MANIFEST.json'))['claims']}
rows = ['| | Property | Status | Method | Theorems |', '|---|---|---|---|---|']
for l in open(root + '/properties.jsonl'):
    d = json.loads(l); c = cl[d['id']]
    rows.append('| %s | %s | %s | %s | %s |' % (d['id'], d['title'], c['status'], M[d['id']].replace('|', '/'),
        ', '.join('`' + t.replace('Verif.Props.', '') + '`' for t in c['theorems'])))
s = open(root + '/DESIGN.md').read()
a, r = s.split('<!-- table -->'); _, b = r.split('<!-- /table -->')
open(root + '/DESIGN.md', 'w').write(a + '<!-- table -->\n' + '\n'.join(rows) + '\n<!-- /table -->' + b)
