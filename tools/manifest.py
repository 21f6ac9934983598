#!/usr/bin/env python3
"""Regenerates MANIFEST.json: theorem names are collected from the Lean sources (names starting with
the property id), status and note from tools/status.json."""
import json, re, glob, os
root = os.path.dirname(os.path.dirname(os.path.abspath(__file__)))
props = [json.loads(l)["id"] for l in open(f"{root}/properties.jsonl") if l.strip()]
th = {p: [] for p in props}
for f in sorted(glob.glob(f"{root}/lean/Verif/**/*.lean", recursive=True)):
    ns = []
    for l in open(f):
        m = re.match(r"namespace\s+(\S+)", l)
        if m: ns.append(m.group(1))
        m = re.match(r"end\s+(\S+)", l)
        if m and ns and ns[-1] == m.group(1): ns.pop()
        m = re.match(r"(?:private\s+)?theorem\s+(C\d\d+)_(\S+)", l)
        if m and m.group(1) in th:
            th[m.group(1)].append(".".join(ns + [f"{m.group(1)}_{m.group(2)}"]))
st = json.load(open(f"{root}/tools/status.json"))
claims = []
for p in props:
    s = st.get(p)
    if s is None:
        if th[p]: print("no status for", p, th[p])
        continue
    if s["status"] != "not_applicable" and not th[p]: print("no theorem for", p)
    claims.append({"property": p, "status": s["status"], "theorems": th[p], "note": s["note"]})
json.dump({"claims": claims}, open(f"{root}/MANIFEST.json", "w"), indent=1)
print(len(claims), "claims;", "missing:", [p for p in props if p not in st])
