#!/usr/bin/env python3
"""Lists the functions of /repo (without tests and generated .pb.go) whose lines no citation in lean/Verif/Model covers."""
import re, glob, os
root = "/repo"; here = os.path.dirname(os.path.abspath(__file__)); files = {}
for d, _, fs in os.walk(root):
    for f in fs:
        if f.endswith(".go"):
            p = os.path.join(d, f); files[os.path.relpath(p, root)] = open(p).read().split("\n")
def find(c):
    if c in files: return c
    m = [f for f in files if f.endswith("/" + c)]
    return m[0] if len(m) == 1 else None
cov = {f: set() for f in files}
for f in glob.glob(os.path.join(here, "../lean/Verif/Model/*.lean")):
    for m in re.finditer(r"([\w/]+\.go):((?:\d+(?:-\d+)?(?:,\s*)?)+)", open(f).read()):
        g = find(m.group(1))
        if not g: continue
        for r in re.findall(r"\d+(?:-\d+)?", m.group(2)):
            a, _, b = r.partition("-"); cov[g] |= set(range(int(a), int(b or a) + 1))
tot = miss = 0
for f in sorted(files):
    if f.startswith("tests/") or f.endswith("_test.go") or ".pb.go" in f or "protocol_fingerprint" in f: continue
    L = files[f]
    for i, s in enumerate(L):
        m = re.match(r"func (?:\([^)]*\) )?(\w+)\(", s)
        if not m: continue
        j = i
        while not L[j].startswith("}") and not (j == i and s.rstrip().endswith("}")): j += 1
        tot += 1
        if not (cov[f] & set(range(i + 1, j + 2))):
            miss += 1; print(f"{f}:{i+1}-{j+1} {m.group(1)}")
print(tot, "functions,", miss, "without a citation")
