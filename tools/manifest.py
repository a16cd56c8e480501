#!/usr/bin/env python3
"""Regenerate MANIFEST.json from the theorem names in lean/Verif/Props and the notes in tools/notes.json."""
import json, re, pathlib
root = pathlib.Path(__file__).resolve().parent.parent
props = [json.loads(l) for l in (root / "properties.jsonl").read_text().splitlines() if l.strip()]
notes = json.loads((root / "tools" / "notes.json").read_text())
thms = {}
for f in sorted((root / "lean" / "Verif" / "Props").glob("*.lean")):
    spaces = []
    for line in f.read_text().splitlines():
        if m := re.match(r"namespace\s+(\S+)", line):
            spaces.append(m.group(1))
        elif (m := re.match(r"end\s+(\S+)", line)) and spaces and spaces[-1] == m.group(1):
            spaces.pop()
        elif m := re.match(r"theorem\s+(C\d+_\w+)", line):
            thms.setdefault(m.group(1).split("_")[0], []).append(".".join(spaces + [m.group(1)]))
claims = []
for p in props:
    i = p["id"]
    if i not in thms:
        if i in notes and notes[i].get("status") == "not_applicable":
            claims.append({"property": i, "status": "not_applicable", "theorems": [], "note": notes[i]["note"]})
        continue
    n = notes.get(i, {})
    status = n.get("status") or ("partial" if any(t.endswith("_partial") for t in thms[i]) else "proved")
    claims.append({"property": i, "status": status, "theorems": thms[i], "note": n.get("note", "")})
lines = ",\n".join(json.dumps(c) for c in claims)
(root / "MANIFEST.json").write_text('{"claims": [\n' + lines + "\n]}\n")
print(len(claims), "claims;", len(props), "properties; missing:", [p["id"] for p in props if p["id"] not in {c["property"] for c in claims}])
