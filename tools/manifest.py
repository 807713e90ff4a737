#!/usr/bin/env python3
"""Regenerate MANIFEST.json from the property theorems in lean/Verif/Props.

A theorem belongs to the property whose id starts its name.  The status is
"partial" when a theorem name ends in _partial or _violated, otherwise
"proved".  Notes come from tools/notes.json.
"""
import glob, json, os, re
root = os.path.dirname(os.path.dirname(os.path.abspath(__file__)))
ids = [json.loads(l)["id"] for l in open(root + "/properties.jsonl") if l.strip()]
notes = json.load(open(root + "/tools/notes.json"))
thms = {i: [] for i in ids}
for f in sorted(glob.glob(root + "/lean/Verif/Props/*.lean")):
    ns = []
    for line in open(f):
        m = re.match(r"namespace\s+(\S+)", line)
        if m:
            ns.append(m.group(1))
        m = re.match(r"end\s+(\S+)", line)
        if m and ns and ns[-1] == m.group(1):
            ns.pop()
        m = re.match(r"theorem\s+((C\d\d\d?)_\S+)", line)
        if m:
            thms[m.group(2)].append(".".join(ns + [m.group(1)]))
claims = []
for i in ids:
    if thms[i]:
        partial = any(t.endswith(("_partial", "_violated")) for t in thms[i])
        claims.append({"property": i, "status": "partial" if partial else "proved",
                       "theorems": thms[i], "note": notes.get(i, "")})
    elif i in notes:
        claims.append({"property": i, "status": "not_applicable", "theorems": [], "note": notes[i]})
json.dump({"claims": claims}, open(root + "/MANIFEST.json", "w"), indent=1)
print(len(claims), "claims;", [i for i in ids if i not in [c["property"] for c in claims]], "open")
