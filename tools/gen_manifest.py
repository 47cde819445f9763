#!/usr/bin/env python3
"""Write MANIFEST.json: theorems are collected from lean/Verif/Props by their Cnn_ prefix.

A property is `partial` when one of its theorems carries the suffix _partial, `proved` otherwise.
Notes come from the table below.
"""
import json, re, pathlib

root = pathlib.Path(__file__).resolve().parent.parent
NOTES = json.loads((root / "tools" / "notes.json").read_text())

found = {}
for f in sorted((root / "lean/Verif/Props").glob("*.lean")):
    text = f.read_text()
    ns = re.search(r"^namespace (\S+)", text, re.M).group(1)
    for m in re.finditer(r"^theorem (C(\d\d+)_\w+)", text, re.M):
        found.setdefault("C" + m.group(2), []).append(f"{ns}.{m.group(1)}")

claims = []
for line in (root / "properties.jsonl").read_text().splitlines():
    p = json.loads(line)["id"]
    if p not in found:
        continue
    th = found[p]
    status = "partial" if any(t.endswith("_partial") for t in th) else "proved"
    claims.append({"property": p, "status": status, "theorems": th, "note": NOTES.get(p, "")})
(root / "MANIFEST.json").write_text(json.dumps({"claims": claims}, indent=1) + "\n")
missing = [json.loads(l)["id"] for l in (root / "properties.jsonl").read_text().splitlines()
           if json.loads(l)["id"] not in found]
print(len(claims), "claims; without theorem:", " ".join(missing))
