#!/usr/bin/env python3
"""Translates the straight-line network functions of sorting_networks-inl.h into lists of operations
(Verif/NetPrograms.lean). Usage: networks2lean.py > ../lean/Verif/NetPrograms.lean"""
import re
src = open("/repo/hwy/contrib/sort/sorting_networks-inl.h").read()
lines = src.split("\n")
out = ["import Verif.SortNet", "",
"/-! Generated by tools/networks2lean.py from hwy/contrib/sort/sorting_networks-inl.h; one entry per statement. -/", "",
"namespace Hwy", "namespace VQ", "namespace Net", ""]
names = ["Sort2", "Sort4", "Sort8", "Sort16", "Merge8x2", "Merge8x4", "Merge16x2", "Merge16x4", "Merge16x8", "Merge16x16"]
for n in names:
    # last definition of that name whose parameters are references (the others are the empty overloads)
    for m in re.finditer(r"HWY_INLINE void %s\(D d, Traits st, (V& [^)]*)\) \{(.*?)\n\}" % n, src, re.S):
        body = m.group(2)
        start = src.count("\n", 0, m.start()) + 1
        end = src.count("\n", 0, m.end()) + 1
    ops = []
    row = lambda s: int(s[1:], 16)
    for st in body.split(";"):
        st = re.sub(r"\s+", " ", st).strip()
        if not st: continue
        a = re.fullmatch(r"st\.Sort2\(d, (v\w), (v\w)\)", st)
        b = re.fullmatch(r"(v\w) = st\.(ReverseKeys|SortPairsDistance|SortPairsReverse)(\d+)\(d, (v\w)\)", st)
        if a: ops.append(".sort2 %d %d" % (row(a.group(1)), row(a.group(2))))
        elif b:
            assert b.group(1) == b.group(4), st
            kind = {"ReverseKeys": "reverseKeys", "SortPairsDistance": "sortPairsDistance", "SortPairsReverse": "sortPairsReverse"}[b.group(2)]
            ops.append(".%s %s %d" % (kind, b.group(3), row(b.group(1))))
        else: raise SystemExit("cannot parse: " + st)
    nm = n[0].lower() + n[1:]
    out.append("/-- `%s` (sorting_networks-inl.h:%d-%d). -/" % (n, start, end))
    out.append("def %s : List Op := [" % nm)
    for i in range(0, len(ops), 4):
        out.append("  " + ", ".join(ops[i:i+4]) + ("," if i + 4 < len(ops) else "]"))
    out.append("")
out += ["end Net", "end VQ", "end Hwy"]
print("\n".join(out))
