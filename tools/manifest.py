#!/usr/bin/env python3
"""Regenerate MANIFEST.json from the theorem names in lean/Verif/Props and tools/notes.json."""
import glob, json, os, re
root = os.path.dirname(os.path.dirname(os.path.abspath(__file__)))
ids = [json.loads(l)["id"] for l in open(root + "/properties.jsonl") if l.strip()]
thms = {}
for f in sorted(glob.glob(root + "/lean/Verif/Props/*.lean")):
    for m in re.finditer(r"^(?:protected )?theorem (C\d+_\w+'?)", open(f).read(), re.M):
        thms.setdefault(m.group(1).split("_")[0], []).append("S2N.Props." + m.group(1))
notes = json.load(open(root + "/tools/notes.json"))
claims = []
for i in ids:
    t = thms.get(i, [])
    if not t and i not in notes:
        continue
    n = notes.get(i, {})
    status = n.get("status") or ("partial" if any(x.endswith("_partial") for x in t) else "proved")
    claims.append({"property": i, "status": status, "theorems": t, "note": n.get("note", "")})
json.dump({"claims": claims}, open(root + "/MANIFEST.json", "w"), indent=1)
print(len(claims), "claims;", {s: sum(c["status"] == s for c in claims) for s in ("proved", "partial", "not_applicable")},
      "missing:", [i for i in ids if i not in {c["property"] for c in claims}])
