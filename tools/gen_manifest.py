#!/usr/bin/env python3
"""Writes MANIFEST.json.  Theorem names are collected from lean/Verif/Props by their C-id prefix;
status and note come from the table below."""
import json, re, glob, os
root = os.path.dirname(os.path.dirname(os.path.abspath(__file__)))
STATUS = {}
def st(cid, status, note): STATUS[cid] = (status, note)
exec(open(os.path.join(root, 'tools', 'status.py')).read())
thms = {}
for f in sorted(glob.glob(os.path.join(root, 'lean/Verif/Props/*.lean'))):
    for m in re.finditer(r'^theorem (C\d\d+_\w+)', open(f).read(), re.M):
        thms.setdefault(m.group(1).split('_')[0], []).append('Verif.' + m.group(1))
claims = []
for cid in sorted(set(thms) | set(STATUS), key=lambda c: int(c[1:])):
    s, note = STATUS.get(cid, ('partial', ''))
    claims.append({'property': cid, 'status': s, 'theorems': thms.get(cid, []), 'note': note})
json.dump({'claims': claims}, open(os.path.join(root, 'MANIFEST.json'), 'w'), indent=1)
print({c['property']: (c['status'], len(c['theorems'])) for c in claims})
