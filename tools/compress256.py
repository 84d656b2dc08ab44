"""Generates lean/Verif/X86V256Tables.lean from the AVX2 tables of hwy/ops/x86_256-inl.h."""
import re
L = open('/repo/hwy/ops/x86_256-inl.h').read().split('\n')
def table(marker, start):
    i = next(k for k in range(start, len(L)) if marker in L[k])
    j = i
    while '}' not in L[j]: j += 1
    body = ' '.join(L[i + 1:j + 1]).split('}')[0]
    xs = [int(x, 0) for x in re.findall(r'0x[0-9a-fA-F]+|\d+', body)]
    return xs, i + 2, j + 1
T = [('compress32x8', 'PrintCompress32x8Tables', 'Nibble-packed indices of `IndicesFromBits256` of 32-bit lanes', 256),
     ('compress64x4', 'PrintCompress64x4PairTables', 'Pairs of 32-bit indices of `IndicesFromBits256` of 64-bit lanes', 128),
     ('compressNot32x8', 'PrintCompressNot32x8Tables', 'Nibble-packed indices of `IndicesFromNotBits256` of 32-bit lanes', 256),
     ('compressNot64x4', 'PrintCompressNot64x4PairTables', 'Pairs of 32-bit indices of `IndicesFromNotBits256` of 64-bit lanes', 128),
     ('expand32x8', 'PrintExpand32x8Nibble', 'Nibble-packed indices of `Expand` of 32-bit lanes', 256),
     ('expand64x4', 'PrintExpand64x4Nibble', 'Nibble-packed indices of `Expand` of 64-bit lanes', 16)]
o = ['import Verif.X86Intrin2', '', '/-!', '# The tables of `Compress` and `Expand` of 256-bit AVX2 vectors', '',
     'Generated by `tools/compress256.py` from the source.', '-/', '', 'namespace Hwy.X86.V256', '',
     'set_option maxRecDepth 10000', '']
for name, mk, doc, n in T:
    xs, a, b = table(mk, 7805)
    assert len(xs) == n, (name, len(xs))
    o.append('/-- %s, by mask bits, `x86_256-inl.h:%d-%d`. -/' % (doc, a, b))
    o.append('def %s : List Nat := [' % name)
    f = (lambda x: '0x%08x' % x) if 'Nibble' in doc else str
    for k in range(0, n, 8):
        o.append('  ' + ', '.join(f(x) for x in xs[k:k + 8]) + (',' if k + 8 < n else ']'))
    o.append('')
o.append('end Hwy.X86.V256')
open('/verif/lean/Verif/X86V256Tables.lean', 'w').write('\n'.join(o) + '\n')
