#!/usr/bin/env python3
"""Write seeded/LOG.jsonl from results of tools/seed.py (later files win). usage: log.py results.jsonl ..."""
import json, sys, os
root = os.path.dirname(os.path.dirname(os.path.abspath(__file__)))
TIGHT = json.load(open(root + '/seeded/tightened.json'))
R = {}
for f in sys.argv[1:]:
    if os.path.exists(f):
        for l in open(f):
            d = json.loads(l); R[d['id']] = d
with open(root + '/seeded/LOG.jsonl', 'w') as o:
    for k, d in R.items():
        t = TIGHT.get(k, {})
        rec = dict(id=k, definition=d['definition'], edit=d['edit'], claim_broken=d['breaks'], survived=d['ok'],
            theorems_failed=[x.replace('Verif.Props.', '') for x in d.get('failed_props', [])],
            first_failures=d['failed'], theorems_still_proved=[x.replace('Verif.Props.', '') for x in d.get('still_proved', [])],
            theorems_tightened=t.get('tightened', []), note=t.get('note', ''))
        if d.get('probe'): rec['probe'] = d['probe']
        o.write(json.dumps(rec, ensure_ascii=False) + '\n')
print(len(R), sum(d['ok'] for d in R.values()), [k for k, d in R.items() if d['ok']])
