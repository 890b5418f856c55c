#!/bin/bash
# Write AXIOMS.txt: the axioms each theorem of MANIFEST.json depends on. Run from /verif after `lake build`.
cd "$(dirname "$0")/../lean" || exit 1
python3 - > /tmp/axioms_query.lean <<'P'
import json
print("import Verif")
for c in json.load(open("../MANIFEST.json"))["claims"]:
    for t in c["theorems"]:
        print("#print axioms", t)
P
lake env lean /tmp/axioms_query.lean > ../AXIOMS.txt
