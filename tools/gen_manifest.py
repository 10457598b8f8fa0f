#!/usr/bin/env python3
"""Writes MANIFEST.json from the theorem names in lean/Verif/Props and the notes below.

A property is "partial" when one of its theorems carries the suffix _partial or it is listed in PARTIAL.
"""
import json, os, re
root = os.path.dirname(os.path.dirname(os.path.abspath(__file__)))
notes = json.load(open(os.path.join(root, "tools", "notes.json")))
thms = {}
for f in sorted(os.listdir(os.path.join(root, "lean/Verif/Props"))):
    if not f.endswith(".lean"):
        continue
    for m in re.finditer(r"^theorem (C\d\d+_\w+)", open(os.path.join(root, "lean/Verif/Props", f)).read(), re.M):
        thms.setdefault(m.group(1).split("_")[0], []).append("Zbgp.Props." + m.group(1))
props = [json.loads(l)["id"] for l in open(os.path.join(root, "properties.jsonl"))]
claims = []
for p in props:
    n = notes.get(p, {})
    if n.get("status") == "not_applicable":
        claims.append({"property": p, "status": "not_applicable", "theorems": [], "note": n["note"]})
        continue
    if p not in thms:
        print("no theorem yet:", p)
        continue
    st = n.get("status") or ("partial" if any(t.endswith("_partial") for t in thms[p]) else "proved")
    claims.append({"property": p, "status": st, "theorems": thms[p], "note": n.get("note", "")})
    if not n.get("note"):
        print("no note:", p)
json.dump({"claims": claims}, open(os.path.join(root, "MANIFEST.json"), "w"), indent=1)
print(len(claims), "claims;", sum(c["status"] == "proved" for c in claims), "proved")
