#!/usr/bin/env python3
"""Regenerates MANIFEST.json: theorem names are collected from lean/Verif/Props by their C-prefix,
statuses and notes come from tools/notes.json."""
import json, re, pathlib
root = pathlib.Path(__file__).resolve().parent.parent
notes = json.loads((root / "tools/notes.json").read_text())
props = [json.loads(l)["id"] for l in (root / "properties.jsonl").read_text().splitlines() if l.strip()]
found = {}
for f in sorted((root / "lean/Verif/Props").glob("*.lean")):
    ns = []
    for line in f.read_text().splitlines():
        m = re.match(r"namespace\s+(\S+)", line)
        if m: ns.append(m.group(1))
        m = re.match(r"end\s+(\S+)\s*$", line)
        if m and ns and ns[-1] == m.group(1): ns.pop()
        m = re.match(r"(?:protected\s+)?theorem\s+(C\d\d+_\S+)", line)
        if m:
            cid = m.group(1).split("_")[0]
            found.setdefault(cid, []).append(".".join(ns + [m.group(1)]))
claims = []
for p in props:
    th = found.get(p, [])
    n = notes.get(p, {})
    if not th and not n: continue
    status = n.get("status", "partial" if any(t.endswith("_partial") for t in th) else "proved")
    claims.append({"property": p, "status": status, "theorems": th, "note": n.get("note", "")})
(root / "MANIFEST.json").write_text(json.dumps({"claims": claims}, indent=1) + "\n")
print(len(claims), "claims;", "missing:", [p for p in props if p not in found])
