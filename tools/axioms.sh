#!/bin/sh
# Print the axioms every theorem of MANIFEST.json depends on. Needs a finished `lake build`.
cd "$(dirname "$0")/../lean" || exit 1
f=$(mktemp --suffix=.lean)
python3 - > "$f" <<'EOF'
import json
print("import Verif")
for c in json.load(open("../MANIFEST.json"))["claims"]:
    for t in c["theorems"]:
        print("#print axioms", t)
EOF
lake env lean "$f"
rm -f "$f"
