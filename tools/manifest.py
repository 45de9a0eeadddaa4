#!/usr/bin/env python3
"""Writes MANIFEST.json from the table below."""
import json
C = []
def c(p, status, theorems, note): C.append(dict(property=p, status=status, theorems=["Verif." + t for t in theorems], note=note))
exec(open('/verif/tools/claims.py').read())
json.dump({"claims": C}, open('/verif/MANIFEST.json', 'w'), indent=1, ensure_ascii=False)
print(len(C))
