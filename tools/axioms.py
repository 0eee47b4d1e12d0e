#!/usr/bin/env python3
"""Writes AXIOMS.md: the axioms each claimed theorem depends on.  Run from /verif after `lake build`."""
import json, re, subprocess, tempfile, os
m = json.load(open('MANIFEST.json'))
ts = [(c['property'], t) for c in m['claims'] for t in c['theorems']]
with tempfile.NamedTemporaryFile('w', suffix='.lean', delete=False) as f:
    f.write('import Verif\n' + ''.join(f'#print axioms {t}\n' for _, t in ts))
out = subprocess.run(['lake', 'env', 'lean', f.name], cwd='lean', capture_output=True, text=True).stdout
os.unlink(f.name)
ax = {}
for t, a in re.findall(r"'([^']+)' depends on axioms: \[([^\]]*)\]", out): ax[t] = re.sub(r'\s+', ' ', a)
for t in re.findall(r"'([^']+)' does not depend on any axioms", out): ax[t] = '(none)'
with open('AXIOMS.md', 'w') as f:
    f.write('# Axioms of the claimed theorems\n\nOutput of `#print axioms`, written by `tools/axioms.py`.\n\n| property | theorem | axioms |\n|---|---|---|\n')
    for p, t in ts: f.write(f'| {p} | `{t}` | {ax[t]} |\n')
print(len(ts))
