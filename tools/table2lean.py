#!/usr/bin/env python3
"""Translates the constants of /repo/ecc/edwards25519/const.go (d, d2, SqrtM1 and the table of multiples of the base
point) into Lean, with source lines.  usage: table2lean.py > lean/Verif/Model/TableGen.lean"""
import re
L = open("/repo/ecc/edwards25519/const.go").read().split("\n")
def nums(s): return [int(x) for x in re.findall(r"-?\d+", s)]
def fmt(l): return "[" + ", ".join(str(x) for x in l) + "]"
print("""/-
Generated by tools/table2lean.py from ecc/edwards25519/const.go; do not edit.
-/
namespace Verif.Limb
""")
for name, lean in (("d", "dLimbs"), ("d2", "d2Limbs"), ("SqrtM1", "sqrtM1Limbs")):
    i = next(k for k, l in enumerate(L) if l.startswith(f"var {name} = FieldElement"))
    print(f"/-- const.go:{i+1}-{i+3} `{name}` -/\ndef {lean} : List Int := {fmt(nums(L[i+1]))}\n")
i = next(k for k, l in enumerate(L) if l.startswith("var base = "))
rows, cur, depth, start = [], None, 0, 0
pos = []
for k in range(i + 1, len(L)):
    s = L[k].strip()
    if s == "{":
        depth += 1
        if depth == 1: row, rstart = [], k + 1
        if depth == 2: ent = []
    elif s == "},":
        if depth == 2: row.append(ent)
        if depth == 1: pos.append((rstart, k + 1, row))
        depth -= 1
    elif s.startswith("FieldElement{"): ent.append(nums(s))
    elif s == "}": break
assert len(pos) == 32 and all(len(r) == 8 and all(len(e) == 3 and all(len(f) == 10 for f in e) for e in r) for _, _, r in pos)
for n, (a, b, r) in enumerate(pos):
    print(f"/-- const.go:{a}-{b} `base[{n}]` -/\ndef base{n} : List (List (List Int)) := [")
    print(",\n".join("  [" + ",\n   ".join(fmt(f) for f in e) + "]" for e in r) + "]\n")
print(f"/-- const.go:{i+1}-{len(L)-1} `base` -/\ndef baseLimbs : List (List (List (List Int))) := [\n  " + ", ".join(f"base{n}" for n in range(32)) + "]\n")
print("end Verif.Limb")
