#!/usr/bin/env python3
"""Regenerate MANIFEST.json from the theorems in lean/Verif/Props and the notes below."""
import re, json, glob, os
os.chdir(os.path.join(os.path.dirname(__file__), '..'))
notes = json.load(open('tools/notes.json'))
th = {}
for f in sorted(glob.glob('lean/Verif/Props/*.lean')):
    s = open(f).read()
    for m in re.finditer(r'^theorem (C\d\d_\w+)', s, re.M):
        th.setdefault(m.group(1)[:3], []).append('ACE.Props.' + m.group(1))
claims = []
for l in open('properties.jsonl'):
    p = json.loads(l)['id']
    if p not in th: 
        continue
    names = th[p]
    status = 'partial' if any(n.endswith('_partial') for n in names) else 'proved'
    n = notes.get(p, {})
    claims.append({'property': p, 'status': n.get('status', status), 'theorems': names, 'note': n.get('note', '')})
json.dump({'claims': claims}, open('MANIFEST.json', 'w'), indent=1)
print({c['property']: (c['status'], len(c['theorems'])) for c in claims})
