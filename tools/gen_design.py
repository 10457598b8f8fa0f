#!/usr/bin/env python3
"""Writes DESIGN.md: tools/design_head.md, the table of properties and the axioms of the theorems.

Needs a finished build (lake build in lean/) for the axioms.
"""
import json, os, re, subprocess, tempfile
root = os.path.dirname(os.path.dirname(os.path.abspath(__file__)))
props = [json.loads(l) for l in open(os.path.join(root, "properties.jsonl"))]
claims = {c["property"]: c for c in json.load(open(os.path.join(root, "MANIFEST.json")))["claims"]}
how = json.load(open(os.path.join(root, "tools", "how.json")))
out = open(os.path.join(root, "tools", "design_head.md")).read()
out += """## 6. The properties

RT: encoding writes exactly the octets of the specification and nothing else, and decoding them gives the value back.
TOT: case analysis of every step, no panic and no endless loop. NEG: the code violates the property, see the note.

| id | property | modelled | proof | status | note |
|---|---|---|---|---|---|
"""
for p in props:
    c = claims[p["id"]]
    mod = ", ".join(sorted({a.split(":")[0].replace("src/", "") for a in p["anchors"]}))
    out += f"| {p['id']} | {p['title']} | {mod} | {how.get(p['id'], '')} | {c['status']} | {c['note']} |\n"
names = [t for p in props for t in claims[p["id"]]["theorems"]]
src = "import Verif\n" + "".join(f"#print axioms {t}\n" for t in names)
with tempfile.NamedTemporaryFile("w", suffix=".lean", delete=False) as f:
    f.write(src)
r = subprocess.run(["lake", "env", "lean", f.name], cwd=os.path.join(root, "lean"), capture_output=True, text=True)
os.unlink(f.name)
txt = re.sub(r"\s+", " ", r.stdout)
groups = {}
for t in names:
    m = re.search(r"'" + re.escape(t) + r"' (does not depend on any axioms|depends on axioms: \[([^\]]*)\])", txt)
    groups.setdefault(m.group(2) or "none", []).append(t.replace("Zbgp.Props.", ""))
out += "\n## 7. Axioms\n\nFrom `#print axioms`, for the theorems of MANIFEST.json (all in the namespace `Zbgp.Props`).\n"
for g in sorted(groups):
    out += f"\n**{g}**: " + ", ".join(groups[g]) + "\n"
open(os.path.join(root, "DESIGN.md"), "w").write(out)
print(len(names), {g: len(v) for g, v in groups.items()})
