#!/usr/bin/env python3
"""Applies each mutant of tools/mutants.py to a scratch copy of lean/ (outside /verif), rebuilds and
reports the theorems that no longer check.  usage: mutate.py SCRATCH OUT.jsonl [ids...]"""
import sys, os, re, json, subprocess, shutil
here = os.path.dirname(os.path.abspath(__file__)); sys.path.insert(0, here)
from mutants import M
scratch, out = sys.argv[1], sys.argv[2]; ids = set(sys.argv[3:])
src = os.path.join(os.path.dirname(here), "lean")
done = set()
if os.path.exists(out): done = {json.loads(l)["id"] for l in open(out)}
def enclosing(path, line):
    name = None
    for i, l in enumerate(open(path), 1):
        m = re.match(r"(?:@\[[^\]]*\]\s*)?(?:private\s+|protected\s+)?(theorem|lemma|def|example|instance|abbrev|structure)\s*(\S*)", l)
        if m: name = (m.group(1) + "@" + str(i)) if m.group(1) in ("example", "instance") else m.group(2)
        if i >= line: break
    return name
for (i, f, old, new, claim, why) in M:
    if ids and i not in ids: continue
    if i in done: continue
    if os.path.exists(out + ".stop"): break
    p = f"{scratch}/Verif/Model/{f}.lean"
    orig = open(f"{src}/Verif/Model/{f}.lean").read()
    if orig.count(old) < 1: print("NOT FOUND", i); continue
    if orig.count(old) > 1: print("AMBIGUOUS", i, orig.count(old)); continue
    open(p, "w").write(orig.replace(old, new, 1))
    bad, patched = [], {}
    for attempt in range(6):
        r = subprocess.run(["lake", "build"], cwd=scratch, capture_output=True, text=True)
        txt = r.stdout + r.stderr
        new_bad, ex = [], {}
        for m in re.finditer(r"error: (Verif/[^:\s]+\.lean):(\d+):\d+", txt):
            q = scratch + '/' + m.group(1); e = enclosing(q, int(m.group(2)))
            n = f"{m.group(1)[6:-5]}:{e}"
            if n not in bad and n not in new_bad: new_bad.append(n)
            if str(e).startswith("example@"): ex.setdefault(q, set()).add(int(e[8:]))
        bad += new_bad
        # when only examples fail, blank them (in the scratch copy) and look at the theorems behind them
        if r.returncode == 0 or not new_bad or any(":example@" not in n for n in new_bad): break
        for q, starts in ex.items():
            patched.setdefault(q, open(q).read())
            L = open(q).read().split("\n")
            for st in sorted(starts, reverse=True):
                k = st
                while k < len(L) and L[k].strip() != "" and not re.match(r"(end|theorem|def|section|example|/-|set_option)\b", L[k]): k += 1
                L[st - 1:k] = ["example : True := trivial"] + [""] * (k - st)
            open(q, "w").write("\n".join(L))
    for q, t in patched.items(): open(q, "w").write(t)
    open(p, "w").write(orig)
    if any(n.startswith("Model/") for n in bad):
        print(i, "INVALID", bad[:2], flush=True); continue
    rec = {"id": i, "def_file": f, "edit": f"{old} => {new}", "breaks": claim, "why": why, "failed": bad, "built": r.returncode == 0}
    open(out, "a").write(json.dumps(rec, ensure_ascii=False) + "\n")
    print(i, claim, "SURVIVED" if r.returncode == 0 else bad[:6], flush=True)
