#!/usr/bin/env python3
"""Appends the results of mutate.py to seeded/LOG.jsonl.  usage: mutlog.py RESULTS.jsonl [tightened.json]
tightened.json maps a mutant id to the theorems added or tightened because of it."""
import sys, os, re, json
here = os.path.dirname(os.path.abspath(__file__)); sys.path.insert(0, here)
from mutants import M
root = os.path.dirname(here)
T = json.load(open(sys.argv[2])) if len(sys.argv) > 2 else {}
old = {i: (f, o, n, c, w) for (i, f, o, n, c, w) in M}
def enclosing(f, o):
    t = open(f"{root}/lean/Verif/Model/{f}.lean").read()
    k = t.find(o); name = "?"
    k += len(o) if o.startswith("def ") else 0
    for m in re.finditer(r"^(?:@\[[^\]]*\]\s*)?(?:private\s+|protected\s+|noncomputable\s+)*(?:def|abbrev|structure|theorem)\s+(\S+)", t, re.M):
        if k < 0 or m.start() > k: break
        name = m.group(1)
    return name
with open(f"{root}/seeded/LOG.jsonl", "a") as out:
    for l in open(sys.argv[1]):
        x = json.loads(l); f, o, n, c, w = old.get(x["id"], (x["def_file"], x["edit"].split(" => ")[0], "", x["breaks"], x["why"]))
        rec = {"id": x["id"], "definition": f"Model/{f}.lean: {enclosing(f, o)}", "edit": x["edit"],
               "claim": x["breaks"] if x["breaks"] != "-" else "none (control: an edit that breaks no claim)",
               "bug": x["why"], "survived": x["built"], "failed": x["failed"], "tightened": T.get(x["id"], [])}
        out.write(json.dumps(rec, ensure_ascii=False) + "\n")
