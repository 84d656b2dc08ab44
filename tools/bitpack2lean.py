#!/usr/bin/env python3
"""Translates the straight-line Pack8<k>/Pack16<k> bodies of hwy/contrib/bit_pack/bit_pack-inl.h into
statement lists of lean/Verif/BitPack.lean. Usage: bitpack2lean.py > lean/Verif/BitPackPrograms.lean"""
import re, sys
SRC = "/repo/hwy/contrib/bit_pack/bit_pack-inl.h"
lines = open(SRC).read().split("\n")
def strip(l): return re.sub(r"//.*", "", l)
class P:
    def __init__(s, t): s.t = t; s.i = 0
    def ws(s):
        while s.i < len(s.t) and s.t[s.i].isspace(): s.i += 1
    def ident(s):
        s.ws(); m = re.match(r"[A-Za-z_0-9]+", s.t[s.i:]); assert m, s.t[s.i:]; s.i += len(m.group()); return m.group()
    def eat(s, c):
        s.ws(); assert s.t.startswith(c, s.i), (c, s.t[s.i:]); s.i += len(c)
    def peek(s):
        s.ws(); return s.t[s.i] if s.i < len(s.t) else ""
    def expr(s):
        n = s.ident(); k = None
        if s.peek() == "<":
            s.eat("<"); k = int(s.ident(), 0); s.eat(">")
        if s.peek() == "(":
            s.eat("("); depth = 1; start = s.i; args = []
            while depth:
                c = s.t[s.i]
                if c == "(": depth += 1
                if c == ")": depth -= 1
                if (c == "," and depth == 1) or depth == 0:
                    args.append(s.t[start:s.i]); start = s.i + 1
                s.i += 1
            return (n, k, args)
        return (n, None, None)
def slot(a):
    m = re.match(r"\s*(raw|packed_in|packed_out)\s*(?:\+\s*(\w+)\s*\*\s*N8?)?\s*$", a); assert m, a
    return m.group(1), int(m.group(2), 0) if m.group(2) else 0
def conv(text, regs):
    """returns ('load', slot) or ('e', leanexpr)"""
    n, k, args = P(text).expr()
    if args is None: return ("e", "(.v %s)" % regs[n])
    if n == "BitCast": return conv(args[1], regs)
    if n == "LoadU": return ("load",) + slot(args[1])
    if n == "Set":
        return ("e", "(.c %s)" % re.sub(r"u$", "", args[1].strip()))
    sub = [conv(a, regs) for a in args]
    assert all(x[0] == "e" for x in sub), text
    sub = " ".join(x[1] for x in sub)
    name = {"And": "and", "Or": "or", "AndNot": "andNot", "Xor3": "xor3", "OrAnd": "orAnd", "Add": "add",
            "ShiftLeft": "shl", "ShiftRight": "shr"}[n]
    return ("e", "(.%s %s%s)" % (name, ("%d " % k) if k is not None else "", sub))
out = ["import Verif.BitPack", "", "/-!", "# Generated by tools/bitpack2lean.py from hwy/contrib/bit_pack/bit_pack-inl.h", "",
       "One statement per C++ statement, in source order; `let` names are the C++ variables.", "-/", "",
       "namespace Hwy", "namespace BitPack", ""]
struct = None; i = 0; names = []
while i < len(lines):
    m = re.match(r"struct (Pack8|Pack16)<(\d+)> \{", lines[i])
    if m: struct = (m.group(1), int(m.group(2)))
    if lines[i].startswith("};"): struct = None
    m = re.match(r"\s*HWY_INLINE void (Pack|Unpack)\(", lines[i])
    if struct and m:
        fn = m.group(1); start = i + 1
        while not strip(lines[i]).rstrip().endswith("{"): i += 1
        body = []; i += 1
        while lines[i] != "  }": body.append(strip(lines[i])); i += 1
        end = i + 1
        stmts = [x.strip() for x in " ".join(body).split(";") if x.strip()]
        regs = {}; code = []
        for s in stmts:
            if s.startswith("using") or "Lanes(" in s or "RepartitionToWide" in s: continue
            m2 = re.match(r"(?:const )?(?:VU16 |VU8 )?(\w+)\s*=\s*(.*)$", s, re.S)
            m3 = re.match(r"StoreU\((.*)\)$", s, re.S)
            if m3:
                _, _, args = P(s).expr()
                src = conv(args[0], regs); assert src[0] == "e"
                ptr, k = slot(args[2]); assert ptr == ("packed_out" if fn == "Pack" else "raw"), s
                code.append(".store %s %d" % (src[1], k))
            elif m2:
                e = conv(m2.group(2), regs)
                regs.setdefault(m2.group(1), m2.group(1))
                if e[0] == "load":
                    assert e[1] == ("raw" if fn == "Pack" else "packed_in"), s
                    code.append(".load %s %d" % (m2.group(1), e[2]))
                else: code.append(".set %s %s" % (m2.group(1), e[1]))
            else: raise Exception(s)
        nm = "%s_%d_%s" % (struct[0].lower(), struct[1], fn.lower()); names.append(nm)
        out.append("/-- `%s<%d>::%s` (bit_pack-inl.h:%d-%d). -/" % (struct[0], struct[1], fn, start, end))
        out.append("def %s : List Stmt :=" % nm)
        out.append("  let (%s) : %s := (%s)" % (", ".join(regs), " × ".join(["Nat"] * len(regs)), ", ".join(map(str, range(len(regs)))))
                   if False else "\n".join("  " + "; ".join("let %s := %d" % (r, j) for j, r in list(enumerate(regs))[q:q+8]) for q in range(0, len(regs), 8)))
        out.append("  [" + ",\n   ".join(code) + "]\n")
    i += 1
for w, K in (("pack8", 8), ("pack16", 16)):
    for fn in ("pack", "unpack"):
        out.append("/-- `%s<kBits>::%s` by template argument (bit_pack-inl.h). -/" % (w.capitalize(), fn.capitalize()))
        out.append("def %s%s : Nat → List Stmt" % (w, fn.capitalize()))
        for k in range(1, K + 1): out.append("  | %d => %s_%d_%s" % (k, w, k, fn))
        out.append("  | _ => []\n")
out += ["end BitPack", "end Hwy"]
print("\n".join(out))
