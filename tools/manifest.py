#!/usr/bin/env python3
"""Regenerate MANIFEST.json: theorems named Cxx_* under lean/Verif/Props, notes from notes.json."""
import glob, json, os, re
root = os.path.dirname(os.path.dirname(os.path.abspath(__file__)))
props = [json.loads(l)["id"] for l in open(root + "/properties.jsonl") if l.strip()]
notes = json.load(open(root + "/tools/notes.json"))
ths = {p: [] for p in props}
for f in sorted(glob.glob(root + "/lean/Verif/Props/*.lean")):
    for m in re.finditer(r"^theorem (?:Verif\.)?(C\d+_\w*)", open(f).read(), re.M):
        ths[m.group(1).split("_")[0]].append("Verif." + m.group(1))
claims = []
for p in props:
    if not ths[p]:
        continue
    weak = any("_partial" in t or "counterexample" in t for t in ths[p])
    claims.append({"property": p, "status": "partial" if weak else "proved",
                   "theorems": ths[p], "note": notes.get(p, "")})
json.dump({"claims": claims}, open(root + "/MANIFEST.json", "w"), indent=1)
print(len(claims), "claims;", sum(c["status"] == "proved" for c in claims), "proved;",
      "without theorem:", [p for p in props if not ths[p]])
