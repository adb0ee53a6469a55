#!/bin/sh
# Checks that every theorem named in MANIFEST.json exists, and which axioms it uses.
cd "$(dirname "$0")/../lean" || exit 1
python3 - <<'P' > /tmp/check_manifest.lean
import json
print("import Verif")
for c in json.load(open('../MANIFEST.json'))['claims']:
    for t in c['theorems']: print(f"#print axioms {t}")
P
lake env lean /tmp/check_manifest.lean > /tmp/check_manifest.out 2>&1
grep -c "axioms" /tmp/check_manifest.out
grep -E "error|sorryAx|ofReduceBool|trustCompiler" /tmp/check_manifest.out
