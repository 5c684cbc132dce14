#!/usr/bin/env python3
"""Regenerate MANIFEST.json from the theorem names in lean/Verif/Props and the notes in tools/notes.json."""
import json, os, re
root = os.path.dirname(os.path.dirname(os.path.abspath(__file__)))
props = [json.loads(l)["id"] for l in open(f"{root}/properties.jsonl") if l.strip()]
notes = json.load(open(f"{root}/tools/notes.json"))
thms = {p: [] for p in props}
d = f"{root}/lean/Verif/Props"
for f in sorted(os.listdir(d)):
    for m in re.finditer(r"^theorem (C\d\d+)_(\w+)", open(f"{d}/{f}").read(), re.M):
        thms[m.group(1)].append(f"{m.group(1)}_{m.group(2)}")
claims = []
for p in props:
    n = notes.get(p, {})
    if not thms[p]:
        if n.get("status") == "not_applicable":
            claims.append({"property": p, "status": "not_applicable", "theorems": [], "note": n.get("note", "")})
        continue
    st = n.get("status") or ("partial" if any(t.endswith("_partial") for t in thms[p]) else "proved")
    claims.append({"property": p, "status": st, "theorems": thms[p], "note": n.get("note", "")})
json.dump({"claims": claims}, open(f"{root}/MANIFEST.json", "w"), indent=1, ensure_ascii=False)
print(len(claims), "of", len(props), "properties have claims; missing:", [p for p in props if not thms[p] and not notes.get(p, {}).get("status")])
