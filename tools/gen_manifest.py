#!/usr/bin/env python3
"""Writes ../MANIFEST.json from the theorem names `Cnn_...` in lean/Verif/Props and the notes below."""
import json, os, re, glob
here = os.path.dirname(os.path.abspath(__file__))
ids = [json.loads(l)["id"] for l in open(os.path.join(here, "..", "properties.jsonl"))]
thms = {i: [] for i in ids}
for f in sorted(glob.glob(os.path.join(here, "..", "lean", "Verif", "Props", "**", "*.lean"), recursive=True)):
    ns = "Verif.Props"
    for line in open(f):
        m = re.match(r"theorem ((C\d+)_\w+)", line)
        if m:
            thms[m.group(2)].append(ns + "." + m.group(1))
notes = json.load(open(os.path.join(here, "notes.json")))
claims = []
for i in ids:
    t = thms[i]
    n = notes.get(i, {})
    if not t:
        continue
    status = n.get("status") or ("partial" if any(x.endswith("_partial") for x in t) else "proved")
    claims.append({"property": i, "status": status, "theorems": t, "note": n.get("note", "")})
json.dump({"claims": claims}, open(os.path.join(here, "..", "MANIFEST.json"), "w"), indent=1, ensure_ascii=False)
print(len(claims), "claims;", "missing:", [i for i in ids if not thms[i]])
