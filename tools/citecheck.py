#!/usr/bin/env python3
"""Checks the citations of lean/Verif/Model against /repo: the file exists, the lines exist, and a symbol named in
backquotes right after the citation occurs on the cited lines.  Also reports definitions without a citation."""
import re, glob, os
root = "/repo"; here = os.path.dirname(os.path.abspath(__file__)); bad = 0; n = 0
files = {}
for d, _, fs in os.walk(root):
    for f in fs:
        if f.endswith(".go"):
            p = os.path.join(d, f); files[os.path.relpath(p, root)] = open(p).read().split("\n")
def find(c):
    if c in files: return c
    m = [f for f in files if f.endswith("/" + c)]
    return m[0] if len(m) == 1 else None
for f in sorted(glob.glob(os.path.join(here, "../lean/Verif/Model/*.lean"))):
    L = open(f).read().split("\n"); name = os.path.basename(f)
    text = "\n".join(L)
    for m in re.finditer(r"([\w/]+\.go)(?::((?:\d+(?:-\d+)?(?:, )?)+))?(?:\s+`([^`]+)`)?", text):
        c, rng, sym = m.groups(); n += 1
        line = text.count("\n", 0, m.start()) + 1
        if c in ("encode.go", "scanner.go", "decode.go", "fold.go", "table_unmarshal.go", "pb.go"): continue  # libraries
        g = find(c)
        if g is None: print(f"{name}:{line} no file {c}"); bad += 1; continue
        if not rng: continue
        seg = []
        for r in rng.strip(", ").split(", "):
            a, _, b = r.partition("-"); a = int(a); b = int(b or a)
            if b > len(files[g]) or a > b or a < 1: print(f"{name}:{line} {c}:{r} out of range"); bad += 1
            seg += files[g][a - 1:b]
        if sym and re.match(r"^\w+$", sym) and not any(sym in s for s in seg):
            first = int(re.match(r"\d+", rng).group())
            above = [s for s in files[g][:first] if s.startswith("func ")]
            if above and re.search(r"\b" + sym + r"\(", above[-1]): continue  # part of that function
            at = [i + 1 for i, s in enumerate(files[g]) if re.search(r"\b" + sym + r"\b", s) and ("func" in s or "type" in s)]
            print(f"{name}:{line} {c}:{rng} does not mention {sym} (defined at {at})"); bad += 1
    for i, l in enumerate(L):
        m = re.match(r"(?:@\[[^\]]*\]\s*)?(?:private\s+|noncomputable\s+)*(def|structure|inductive|abbrev|instance|class)\s+(\S+)", l)
        if not m: continue
        doc = ""
        if L[i - 1].rstrip().endswith("-/"):
            k = i - 1
            while not L[k].lstrip().startswith("/-"): k -= 1
            doc = " ".join(L[k:i])
        if ".go" not in doc: print(f"{name}:{i+1} {m.group(2)} has no citation"); bad += 1
print(n, "citations,", bad, "problems")
