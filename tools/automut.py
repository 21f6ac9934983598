#!/usr/bin/env python3
"""Generates one or two small edits for every definition of lean/Verif/Model (seeded, reproducible).  usage: automut.py OUT.json"""
import re, os, sys, json, glob, random
here = os.path.dirname(os.path.abspath(__file__)); root = os.path.dirname(here)
SKIP_FILES = {"TableGen"}
OPS = [
    (r"(?<![\w.\"#x])(\d+)(?![\w.\"])", lambda m: str(int(m.group(1)) + 1), "constant increased"),
    (r" < ", lambda m: " ≤ ", "< made ≤"), (r" ≤ ", lambda m: " < ", "≤ made <"),
    (r" == ", lambda m: " != ", "== made !="),
    (r" && ", lambda m: " || ", "and made or"), (r" \|\| ", lambda m: " && ", "or made and"),
    (r"\btrue\b", lambda m: "false", "true made false"), (r"\bfalse\b", lambda m: "true", "false made true"),
    (r"\.take\b", lambda m: ".drop", "take made drop"), (r"\.drop\b", lambda m: ".take", "drop made take"),
    (r"\+\+ \[", lambda m: "++ [] ++ id [", None),
    (r"(\w+) \+\+ (\w+)(?=[\s)]|$)", lambda m: f"{m.group(2)} ++ {m.group(1)}", "concatenation swapped"),
    (r"\.1\b", lambda m: ".2", "first made second"), (r"\.2\b(?!\.)", lambda m: ".1", "second made first"),
    (r"(\w+) \+ (\w+)", lambda m: f"{m.group(1)} - {m.group(2)}", "plus made minus"),
    (r"(\w+) - (\w+)", lambda m: f"{m.group(1)} + {m.group(2)}", "minus made plus"),
    (r"\"([^\"\\]+)\"", lambda m: "\"" + m.group(1) + "x\"", "string changed"),
    (r"with (\w+) := [^,}]+ }", lambda m: "with " + m.group(1) + " := default }", None),
    (r"\bsome \((\w[\w. ]*)\)", lambda m: "none", "some made none"),
    (r"=> some (\w+)$", lambda m: "=> none", "some made none"),
    (r"\.err (\S+?)([,)]|$)", lambda m: ".panic" + m.group(2), "error made panic"),
    (r"\.panic\b", lambda m: "(.err .noSession)", "panic made error"),
    (r"if (.*) then", lambda m: f"if ¬ ({m.group(1)}) then", "condition negated"),
    (r"\(fun (\w+) => \1\.(\w+)\)", lambda m: m.group(0), None),
]
def defs(text):
    L = text.split("\n"); i = 0
    while i < len(L):
        m = re.match(r"(?:@\[[^\]]*\]\s*)?(?:noncomputable )?def\s+(\S+)", L[i])
        if not m: i += 1; continue
        j = i + 1
        while j < len(L) and L[j].strip() != "" and not re.match(r"(def|theorem|structure|inductive|/-|end|section|namespace|abbrev|@\[|instance|deriving)", L[j]): j += 1
        yield m.group(1), i, j, L; i = j
out = []; rnd = random.Random(20240611); n = 0
for f in sorted(glob.glob(f"{root}/lean/Verif/Model/*.lean")):
    mod = os.path.basename(f)[:-5]
    if mod in SKIP_FILES: continue
    text = open(f).read()
    for name, a, b, L in defs(text):
        cands = []
        for k in range(a, b):
            line = L[k]
            start = 0
            if k == a:
                p = line.find(":="); 
                q = [m.start() for m in re.finditer(r"\|", line)]
                if p < 0: continue
                start = p + 2
            elif not any(":=" in L[t] or re.match(r"\s*\|", L[t]) for t in range(a, k + 1)): continue
            if "if" in line and "fuel" in line and "fuel + 1" in line: pass
            for rx, fn, why in OPS:
                if why is None: continue
                for m in re.finditer(rx, line[start:]):
                    s, e = start + m.start(), start + m.end()
                    if "fuel" in line[max(0, s - 6):e + 6]: continue
                    if re.match(r"\s*\|", line) and "=>" in line and s < line.index("=>") and why != "string changed": continue
                    nl = line[:s] + fn(m) + line[e:]
                    if nl != line: cands.append((k, nl, why))
        rnd.shuffle(cands)
        seen = set(); picked = 0
        for k, nl, why in cands:
            if picked >= (2 if b - a > 6 else 1): break
            if why in seen: continue
            old = "\n".join(L[a:k + 1])
            if text.count(old) != 1: continue
            seen.add(why); picked += 1; n += 1
            out.append([f"a{n}", mod, old, "\n".join(L[a:k] + [nl]), "claims about " + name, f"{why}: {L[k].strip()} -> {nl.strip()}"])
json.dump(out, open(sys.argv[1], "w"), indent=0, ensure_ascii=False)
print(len(out))
