#!/usr/bin/env python3
"""Writes MANIFEST.json.  Run from /verif."""
import json
C = {}
def c(p, status, thms, note):
    C[p] = dict(property=p, status=status, theorems=["Tosca." + t for t in thms.split()], note=note)
exec(open('tools/claims.py').read())
json.dump({"claims": [C[k] for k in sorted(C)]}, open('MANIFEST.json', 'w'), indent=1)
print(len(C), "claims")
