#!/bin/bash
# prints the axioms of every theorem named in MANIFEST.json
cd "$(dirname "$0")/../lean"
f=$(mktemp -d)/Axioms.lean
python3 - > "$f" <<'PY'
import json
print("import Verif")
for c in json.load(open('../MANIFEST.json'))['claims']:
    for t in c['theorems']:
        print(f"#print axioms {t}")
PY
lake env lean "$f"
