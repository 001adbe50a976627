#!/bin/sh
# prints the axioms used by the property theorems, one line per distinct set
cd "$(dirname "$0")/../lean" || exit 1
{ echo "import Verif"; python3 -c "
import json
for c in json.load(open('../MANIFEST.json'))['claims']:
    for t in c['theorems']: print('#print axioms', t)"; } > /tmp/axioms_check.lean
lake env lean /tmp/axioms_check.lean | grep -v "^$" | tr '\n' ' ' | sed "s/'SkSp/\n'SkSp/g" | sed "s/.*depends on/depends on/; s/.*does not/does not/" | sed 's/  */ /g' | sort | uniq -c
