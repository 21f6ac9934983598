#!/usr/bin/env python3
"""Like mutate.py, but restores a pristine built copy before each mutant and stops the build at the first proof
that fails: it looks for survivors.  usage: AUTOMUT=auto.json mutfast.py PRISTINE WORK OUT.jsonl [ids...]"""
import sys, os, re, json, subprocess, shutil, random, signal, time
here = os.path.dirname(os.path.abspath(__file__)); sys.path.insert(0, here)
from mutants import M
from mutate_lib import enclosing
pristine, work, out = sys.argv[1:4]; ids = set(sys.argv[4:])
done = {json.loads(l)["id"] for l in open(out)} if os.path.exists(out) else set()
L = [m for m in M if (m[0] in ids if ids else re.match(r"a\d+$", m[0]))]
random.Random(7).shuffle(L)
for (i, f, old, new, claim, why) in L:
    if i in done: continue
    if os.path.exists(out + ".stop"): break
    shutil.rmtree(work, ignore_errors=True); subprocess.run(["cp", "-a", pristine, work], check=True)
    p = f"{work}/Verif/Model/{f}.lean"; orig = open(p).read()
    if orig.count(old) != 1: print(i, "NOT FOUND/AMBIGUOUS", orig.count(old), flush=True); continue
    open(p, "w").write(orig.replace(old, new, 1))
    t0 = time.time()
    pr = subprocess.Popen(["lake", "build"], cwd=work, stdout=subprocess.PIPE, stderr=subprocess.STDOUT, text=True, start_new_session=True)
    bad = []
    for line in pr.stdout:
        m = re.match(r"error: (Verif/[^:\s]+\.lean):(\d+):\d+", line)
        if not m: continue
        e = enclosing(work + "/" + m.group(1), int(m.group(2))); n = f"{m.group(1)[6:-5]}:{e}"
        if n not in bad: bad.append(n)
        if n.startswith("Model/") or "example@" not in n: break
    time.sleep(0.2)
    rc = pr.poll()
    if rc is None and bad:
        try: os.killpg(pr.pid, signal.SIGKILL)
        except ProcessLookupError: pass
    rc = pr.wait(); dt = int(time.time() - t0)
    if any(n.startswith("Model/") for n in bad): print(i, "INVALID", bad[:2], dt, flush=True); continue
    rec = {"id": i, "def_file": f, "edit": why, "breaks": claim, "why": why.split(":")[0], "failed": bad, "built": rc == 0, "first_only": True}
    if rc != 0 and not bad: print(i, "??? rc", rc, flush=True); continue
    open(out, "a").write(json.dumps(rec, ensure_ascii=False) + "\n")
    print(i, f, claim, "SURVIVED" if rc == 0 else "ONLY EXAMPLES" if all("example@" in n for n in bad) else "", bad[:4], dt, flush=True)
