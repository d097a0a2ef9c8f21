#!/usr/bin/env python3
"""Regenerate MANIFEST.json: theorem names from lean/Verif/Props, status and notes from tools/status.json."""
import json, re, glob, os
root = os.path.dirname(os.path.dirname(os.path.abspath(__file__)))
props = [json.loads(l)["id"] for l in open(root + "/properties.jsonl") if l.strip()]
st = json.load(open(root + "/tools/status.json"))
thms = {p: [] for p in props}
for f in sorted(glob.glob(root + "/lean/Verif/Props/*.lean")):
    ns = []
    for line in open(f):
        m = re.match(r"namespace (\S+)", line)
        if m: ns.append(m.group(1))
        m = re.match(r"end (\S+)", line)
        if m and ns and ns[-1] == m.group(1): ns.pop()
        m = re.match(r"(?:@\[[^\]]*\] )?(?:protected )?theorem ((C\d\d\d?)_[A-Za-z0-9_'.]+)", line)
        if m:
            thms[m.group(2)].append(".".join(ns + [m.group(1)]))
claims = []
for p in props:
    s = st.get(p, {})
    status = s.get("status", "proved" if thms[p] else "partial")
    thms[p] += [t for t in s.get("also", []) if t not in thms[p]]
    claims.append({"property": p, "status": status, "theorems": thms[p], "note": s.get("note", "")})
json.dump({"claims": claims}, open(root + "/MANIFEST.json", "w"), indent=1, ensure_ascii=False)
print(sum(1 for c in claims if c["status"] == "proved"), "proved;", [c["property"] for c in claims if not c["theorems"]], "without theorems")
