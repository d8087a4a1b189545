"""Regenerate MANIFEST.json from the theorem names in lean/Verif/Props and the notes below.

A property is `partial` when one of its theorems has suffix _partial, or when a part of its English
statement is refuted (suffix _refuted); the note says what is missing.
"""
import json
import re
from pathlib import Path

root = Path(__file__).resolve().parent.parent
ids = [json.loads(l)["id"] for l in (root / "properties.jsonl").read_text().splitlines()]
thms = {i: [] for i in ids}
for f in sorted((root / "lean" / "Verif" / "Props").rglob("*.lean")):
    scopes = []
    for line in f.read_text().splitlines():
        if m := re.match(r"(?:noncomputable )?(namespace|section|mutual)\b ?([\w.]*)", line):
            scopes.append(m.group(2) if m.group(1) == "namespace" else None)
        elif re.match(r"end\b", line):
            scopes.pop()
        elif m := re.match(r"theorem (C\d\d)(_\w+)", line):
            thms[m.group(1)].append(".".join([x for x in scopes if x] + [m.group(1) + m.group(2)]))
notes = json.loads((root / "tools" / "notes.json").read_text())
claims = []
for i in ids:
    t = thms[i]
    n = notes.get(i, {})
    if not t:
        status = n.get("status", "partial")
        note = n.get("note", "not modelled yet: no theorem")
    else:
        weak = any(x.endswith(("_partial", "_refuted")) for x in t)
        status = n.get("status", "partial" if weak else "proved")
        note = n.get("note", "")
    claims.append({"property": i, "status": status, "theorems": t, "note": note})
(root / "MANIFEST.json").write_text(json.dumps({"claims": claims}, indent=1) + "\n")
print({s: sum(c["status"] == s for c in claims) for s in ("proved", "partial", "not_applicable")})
print("no theorem:", [c["property"] for c in claims if not c["theorems"]])
