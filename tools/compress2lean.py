#!/usr/bin/env python3
"""Extracts the compress/expand tables of x86_128-inl.h and generic_ops-inl.h into lean/Verif/X86CompressTables.lean.

usage: tools/compress2lean.py > lean/Verif/X86CompressTables.lean
"""
import re
X = open('/repo/hwy/ops/x86_128-inl.h').read()
G = open('/repo/hwy/ops/generic_ops-inl.h').read()

out = []
def emitX(name, comment, decl, per, count, doc):
    i = X.index(comment)
    j = X.rindex(decl, 0, i)
    l0 = X[:j].count('\n') + 1
    a = X.index('{', j); b = X.index('};', a)
    body(name, X, a, b, l0, 'x86_128-inl.h', per, count, doc)
def emitG(name, comment, decl, per, count, doc):
    i = G.index(comment)
    j = G.rindex(decl, 0, i + len(comment))
    l0 = G[:j].count('\n') + 1
    a = G.index('{', j); b = G.index('};', a)
    body(name, G, a, b, l0, 'generic_ops-inl.h', per, count, doc)
def body(name, src, a, b, l0, fname, per, count, doc):
    l1 = src[:b].count('\n') + 1
    t = re.sub(r'//[^\n]*', '', re.sub(r'/\*.*?\*/', '', src[a + 1:b]))
    nums = [int(x, 0) for x in t.replace('\n', ' ').split(',') if x.strip()]
    assert len(nums) == per * count, (name, len(nums))
    out.append(f'/-- {doc}, `{fname}:{l0}-{l1}`. -/')
    if per == 1:
        out.append(f'def {name} : List Nat := [' + ', '.join(hex(n) for n in nums) + ']')
    else:
        rows = ['  [' + ', '.join(map(str, nums[per * k:per * k + per])) + ']' for k in range(count)]
        out.append(f'def {name} : List (List Nat) := [\n' + ',\n'.join(rows) + ']')

emitX('compress16', '// PrintCompress16x8Tables', 'alignas(16)', 8, 256, 'Byte indices of `IndicesFromBits128` of 16-bit lanes, by mask bits')
emitX('compressNot16', '// PrintCompressNot16x8Tables', 'alignas(16)', 8, 256, 'Byte indices of `IndicesFromNotBits128` of 16-bit lanes')
emitX('compress32', '// PrintCompress32x4Tables', 'alignas(16)', 16, 16, '`IndicesFromBits128` of 32-bit lanes')
emitX('compressNot32', '// PrintCompressNot32x4Tables', 'alignas(16)', 16, 16, '`IndicesFromNotBits128` of 32-bit lanes')
emitX('compress64', '// PrintCompress64x2Tables', 'alignas(16)', 16, 4, '`IndicesFromBits128` of 64-bit lanes')
emitG('compress8', 'HWY_ALIGN constexpr T table[2048]', 'HWY_ALIGN', 8, 256, 'The table of `CompressBitsStore` of 8-bit lanes')
emitG('expand8', '// PrintExpand8x8Tables', 'alignas(16)', 8, 256, 'The table of `IndicesForExpandFromBits`')
emitG('expand16', '// PrintExpand16x8ByteTables', 'alignas(16)', 8, 256, 'The table of `Expand` of 16-bit lanes')
emitG('expand32', '// PrintExpand64x4Nibble', 'alignas(16)', 1, 16, 'The nibbles of `Expand` of 32-bit lanes')
print('''import Verif.X86Intrin2

/-!
# The tables of `Compress` and `Expand`

Generated by `tools/compress2lean.py` from the source; row `k` is the vector loaded for mask bits `k`.
-/

namespace Hwy.X86

set_option maxRecDepth 10000
''')
print('\n'.join(out))
print('\nend Hwy.X86')
