#!/bin/sh
# Hygiene check: forbidden words and axioms of all theorems named in MANIFEST.json
cd "$(dirname "$0")/../lean"
grep -rn 'sorry\|admit\|^axiom \|native_decide\|bv_decide\|implemented_by\|unsafe \|maxHeartbeats 0' Verif Verif.lean
python3 - <<'PY' > /tmp/axioms.lean
import json
m=json.load(open('../MANIFEST.json'))
print("import Verif")
for c in m['claims']:
    for t in c['theorems']: print('#print axioms '+t)
PY
lake env lean /tmp/axioms.lean | tr '\n' ' ' | sed 's/\] /]\n/g' | sed "s/.*depends on axioms//" | sort | uniq -c
