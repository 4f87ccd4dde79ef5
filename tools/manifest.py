#!/usr/bin/env python3
"""Regenerate MANIFEST.json from the theorem names in lean/Verif/Props and the notes in tools/notes.json.

A theorem belongs to property Cnn when its name starts with `Cnn_`.  A property is `partial` when one of
its theorems ends in `_partial` or when notes.json says so."""
import json, pathlib, re
root = pathlib.Path(__file__).resolve().parent.parent
props = [json.loads(l)["id"] for l in (root / "properties.jsonl").read_text().splitlines() if l.strip()]
thms = {}
for f in sorted((root / "lean/Verif/Props").rglob("*.lean")):
    ns = re.search(r"^namespace (\S+)", f.read_text(), re.M).group(1)
    for m in re.finditer(r"^theorem ((C\d\d\d?)_[\w']+)", f.read_text(), re.M):
        thms.setdefault(m.group(2), []).append(ns + "." + m.group(1))
notes = json.loads((root / "tools/notes.json").read_text())
claims = []
for p in props:
    if p not in thms:
        continue
    n = notes.get(p, {})
    status = n.get("status") or ("partial" if any(t.endswith("_partial") for t in thms[p]) else "proved")
    claims.append({"property": p, "status": status, "theorems": thms[p], "note": n.get("note", "")})
unknown = set(thms) - set(props)
assert not unknown, unknown
(root / "MANIFEST.json").write_text(json.dumps({"claims": claims}, indent=1) + "\n")
print(len(claims), "claims;", sum(c["status"] == "proved" for c in claims), "proved; missing:",
      [p for p in props if p not in thms])
