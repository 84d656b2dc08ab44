import Verif.X86Intrin2

/-!
# The tables of `Compress` and `Expand`

Generated by `tools/compress2lean.py` from the source; row `k` is the vector loaded for mask bits `k`.
-/

namespace Hwy.X86

set_option maxRecDepth 10000

/-- Byte indices of `IndicesFromBits128` of 16-bit lanes, by mask bits, `x86_128-inl.h:12811-12940`. -/
def compress16 : List (List Nat) := [
  [0, 2, 4, 6, 8, 10, 12, 14],
  [0, 2, 4, 6, 8, 10, 12, 14],
  [2, 0, 4, 6, 8, 10, 12, 14],
  [0, 2, 4, 6, 8, 10, 12, 14],
  [4, 0, 2, 6, 8, 10, 12, 14],
  [0, 4, 2, 6, 8, 10, 12, 14],
  [2, 4, 0, 6, 8, 10, 12, 14],
  [0, 2, 4, 6, 8, 10, 12, 14],
  [6, 0, 2, 4, 8, 10, 12, 14],
  [0, 6, 2, 4, 8, 10, 12, 14],
  [2, 6, 0, 4, 8, 10, 12, 14],
  [0, 2, 6, 4, 8, 10, 12, 14],
  [4, 6, 0, 2, 8, 10, 12, 14],
  [0, 4, 6, 2, 8, 10, 12, 14],
  [2, 4, 6, 0, 8, 10, 12, 14],
  [0, 2, 4, 6, 8, 10, 12, 14],
  [8, 0, 2, 4, 6, 10, 12, 14],
  [0, 8, 2, 4, 6, 10, 12, 14],
  [2, 8, 0, 4, 6, 10, 12, 14],
  [0, 2, 8, 4, 6, 10, 12, 14],
  [4, 8, 0, 2, 6, 10, 12, 14],
  [0, 4, 8, 2, 6, 10, 12, 14],
  [2, 4, 8, 0, 6, 10, 12, 14],
  [0, 2, 4, 8, 6, 10, 12, 14],
  [6, 8, 0, 2, 4, 10, 12, 14],
  [0, 6, 8, 2, 4, 10, 12, 14],
  [2, 6, 8, 0, 4, 10, 12, 14],
  [0, 2, 6, 8, 4, 10, 12, 14],
  [4, 6, 8, 0, 2, 10, 12, 14],
  [0, 4, 6, 8, 2, 10, 12, 14],
  [2, 4, 6, 8, 0, 10, 12, 14],
  [0, 2, 4, 6, 8, 10, 12, 14],
  [10, 0, 2, 4, 6, 8, 12, 14],
  [0, 10, 2, 4, 6, 8, 12, 14],
  [2, 10, 0, 4, 6, 8, 12, 14],
  [0, 2, 10, 4, 6, 8, 12, 14],
  [4, 10, 0, 2, 6, 8, 12, 14],
  [0, 4, 10, 2, 6, 8, 12, 14],
  [2, 4, 10, 0, 6, 8, 12, 14],
  [0, 2, 4, 10, 6, 8, 12, 14],
  [6, 10, 0, 2, 4, 8, 12, 14],
  [0, 6, 10, 2, 4, 8, 12, 14],
  [2, 6, 10, 0, 4, 8, 12, 14],
  [0, 2, 6, 10, 4, 8, 12, 14],
  [4, 6, 10, 0, 2, 8, 12, 14],
  [0, 4, 6, 10, 2, 8, 12, 14],
  [2, 4, 6, 10, 0, 8, 12, 14],
  [0, 2, 4, 6, 10, 8, 12, 14],
  [8, 10, 0, 2, 4, 6, 12, 14],
  [0, 8, 10, 2, 4, 6, 12, 14],
  [2, 8, 10, 0, 4, 6, 12, 14],
  [0, 2, 8, 10, 4, 6, 12, 14],
  [4, 8, 10, 0, 2, 6, 12, 14],
  [0, 4, 8, 10, 2, 6, 12, 14],
  [2, 4, 8, 10, 0, 6, 12, 14],
  [0, 2, 4, 8, 10, 6, 12, 14],
  [6, 8, 10, 0, 2, 4, 12, 14],
  [0, 6, 8, 10, 2, 4, 12, 14],
  [2, 6, 8, 10, 0, 4, 12, 14],
  [0, 2, 6, 8, 10, 4, 12, 14],
  [4, 6, 8, 10, 0, 2, 12, 14],
  [0, 4, 6, 8, 10, 2, 12, 14],
  [2, 4, 6, 8, 10, 0, 12, 14],
  [0, 2, 4, 6, 8, 10, 12, 14],
  [12, 0, 2, 4, 6, 8, 10, 14],
  [0, 12, 2, 4, 6, 8, 10, 14],
  [2, 12, 0, 4, 6, 8, 10, 14],
  [0, 2, 12, 4, 6, 8, 10, 14],
  [4, 12, 0, 2, 6, 8, 10, 14],
  [0, 4, 12, 2, 6, 8, 10, 14],
  [2, 4, 12, 0, 6, 8, 10, 14],
  [0, 2, 4, 12, 6, 8, 10, 14],
  [6, 12, 0, 2, 4, 8, 10, 14],
  [0, 6, 12, 2, 4, 8, 10, 14],
  [2, 6, 12, 0, 4, 8, 10, 14],
  [0, 2, 6, 12, 4, 8, 10, 14],
  [4, 6, 12, 0, 2, 8, 10, 14],
  [0, 4, 6, 12, 2, 8, 10, 14],
  [2, 4, 6, 12, 0, 8, 10, 14],
  [0, 2, 4, 6, 12, 8, 10, 14],
  [8, 12, 0, 2, 4, 6, 10, 14],
  [0, 8, 12, 2, 4, 6, 10, 14],
  [2, 8, 12, 0, 4, 6, 10, 14],
  [0, 2, 8, 12, 4, 6, 10, 14],
  [4, 8, 12, 0, 2, 6, 10, 14],
  [0, 4, 8, 12, 2, 6, 10, 14],
  [2, 4, 8, 12, 0, 6, 10, 14],
  [0, 2, 4, 8, 12, 6, 10, 14],
  [6, 8, 12, 0, 2, 4, 10, 14],
  [0, 6, 8, 12, 2, 4, 10, 14],
  [2, 6, 8, 12, 0, 4, 10, 14],
  [0, 2, 6, 8, 12, 4, 10, 14],
  [4, 6, 8, 12, 0, 2, 10, 14],
  [0, 4, 6, 8, 12, 2, 10, 14],
  [2, 4, 6, 8, 12, 0, 10, 14],
  [0, 2, 4, 6, 8, 12, 10, 14],
  [10, 12, 0, 2, 4, 6, 8, 14],
  [0, 10, 12, 2, 4, 6, 8, 14],
  [2, 10, 12, 0, 4, 6, 8, 14],
  [0, 2, 10, 12, 4, 6, 8, 14],
  [4, 10, 12, 0, 2, 6, 8, 14],
  [0, 4, 10, 12, 2, 6, 8, 14],
  [2, 4, 10, 12, 0, 6, 8, 14],
  [0, 2, 4, 10, 12, 6, 8, 14],
  [6, 10, 12, 0, 2, 4, 8, 14],
  [0, 6, 10, 12, 2, 4, 8, 14],
  [2, 6, 10, 12, 0, 4, 8, 14],
  [0, 2, 6, 10, 12, 4, 8, 14],
  [4, 6, 10, 12, 0, 2, 8, 14],
  [0, 4, 6, 10, 12, 2, 8, 14],
  [2, 4, 6, 10, 12, 0, 8, 14],
  [0, 2, 4, 6, 10, 12, 8, 14],
  [8, 10, 12, 0, 2, 4, 6, 14],
  [0, 8, 10, 12, 2, 4, 6, 14],
  [2, 8, 10, 12, 0, 4, 6, 14],
  [0, 2, 8, 10, 12, 4, 6, 14],
  [4, 8, 10, 12, 0, 2, 6, 14],
  [0, 4, 8, 10, 12, 2, 6, 14],
  [2, 4, 8, 10, 12, 0, 6, 14],
  [0, 2, 4, 8, 10, 12, 6, 14],
  [6, 8, 10, 12, 0, 2, 4, 14],
  [0, 6, 8, 10, 12, 2, 4, 14],
  [2, 6, 8, 10, 12, 0, 4, 14],
  [0, 2, 6, 8, 10, 12, 4, 14],
  [4, 6, 8, 10, 12, 0, 2, 14],
  [0, 4, 6, 8, 10, 12, 2, 14],
  [2, 4, 6, 8, 10, 12, 0, 14],
  [0, 2, 4, 6, 8, 10, 12, 14],
  [14, 0, 2, 4, 6, 8, 10, 12],
  [0, 14, 2, 4, 6, 8, 10, 12],
  [2, 14, 0, 4, 6, 8, 10, 12],
  [0, 2, 14, 4, 6, 8, 10, 12],
  [4, 14, 0, 2, 6, 8, 10, 12],
  [0, 4, 14, 2, 6, 8, 10, 12],
  [2, 4, 14, 0, 6, 8, 10, 12],
  [0, 2, 4, 14, 6, 8, 10, 12],
  [6, 14, 0, 2, 4, 8, 10, 12],
  [0, 6, 14, 2, 4, 8, 10, 12],
  [2, 6, 14, 0, 4, 8, 10, 12],
  [0, 2, 6, 14, 4, 8, 10, 12],
  [4, 6, 14, 0, 2, 8, 10, 12],
  [0, 4, 6, 14, 2, 8, 10, 12],
  [2, 4, 6, 14, 0, 8, 10, 12],
  [0, 2, 4, 6, 14, 8, 10, 12],
  [8, 14, 0, 2, 4, 6, 10, 12],
  [0, 8, 14, 2, 4, 6, 10, 12],
  [2, 8, 14, 0, 4, 6, 10, 12],
  [0, 2, 8, 14, 4, 6, 10, 12],
  [4, 8, 14, 0, 2, 6, 10, 12],
  [0, 4, 8, 14, 2, 6, 10, 12],
  [2, 4, 8, 14, 0, 6, 10, 12],
  [0, 2, 4, 8, 14, 6, 10, 12],
  [6, 8, 14, 0, 2, 4, 10, 12],
  [0, 6, 8, 14, 2, 4, 10, 12],
  [2, 6, 8, 14, 0, 4, 10, 12],
  [0, 2, 6, 8, 14, 4, 10, 12],
  [4, 6, 8, 14, 0, 2, 10, 12],
  [0, 4, 6, 8, 14, 2, 10, 12],
  [2, 4, 6, 8, 14, 0, 10, 12],
  [0, 2, 4, 6, 8, 14, 10, 12],
  [10, 14, 0, 2, 4, 6, 8, 12],
  [0, 10, 14, 2, 4, 6, 8, 12],
  [2, 10, 14, 0, 4, 6, 8, 12],
  [0, 2, 10, 14, 4, 6, 8, 12],
  [4, 10, 14, 0, 2, 6, 8, 12],
  [0, 4, 10, 14, 2, 6, 8, 12],
  [2, 4, 10, 14, 0, 6, 8, 12],
  [0, 2, 4, 10, 14, 6, 8, 12],
  [6, 10, 14, 0, 2, 4, 8, 12],
  [0, 6, 10, 14, 2, 4, 8, 12],
  [2, 6, 10, 14, 0, 4, 8, 12],
  [0, 2, 6, 10, 14, 4, 8, 12],
  [4, 6, 10, 14, 0, 2, 8, 12],
  [0, 4, 6, 10, 14, 2, 8, 12],
  [2, 4, 6, 10, 14, 0, 8, 12],
  [0, 2, 4, 6, 10, 14, 8, 12],
  [8, 10, 14, 0, 2, 4, 6, 12],
  [0, 8, 10, 14, 2, 4, 6, 12],
  [2, 8, 10, 14, 0, 4, 6, 12],
  [0, 2, 8, 10, 14, 4, 6, 12],
  [4, 8, 10, 14, 0, 2, 6, 12],
  [0, 4, 8, 10, 14, 2, 6, 12],
  [2, 4, 8, 10, 14, 0, 6, 12],
  [0, 2, 4, 8, 10, 14, 6, 12],
  [6, 8, 10, 14, 0, 2, 4, 12],
  [0, 6, 8, 10, 14, 2, 4, 12],
  [2, 6, 8, 10, 14, 0, 4, 12],
  [0, 2, 6, 8, 10, 14, 4, 12],
  [4, 6, 8, 10, 14, 0, 2, 12],
  [0, 4, 6, 8, 10, 14, 2, 12],
  [2, 4, 6, 8, 10, 14, 0, 12],
  [0, 2, 4, 6, 8, 10, 14, 12],
  [12, 14, 0, 2, 4, 6, 8, 10],
  [0, 12, 14, 2, 4, 6, 8, 10],
  [2, 12, 14, 0, 4, 6, 8, 10],
  [0, 2, 12, 14, 4, 6, 8, 10],
  [4, 12, 14, 0, 2, 6, 8, 10],
  [0, 4, 12, 14, 2, 6, 8, 10],
  [2, 4, 12, 14, 0, 6, 8, 10],
  [0, 2, 4, 12, 14, 6, 8, 10],
  [6, 12, 14, 0, 2, 4, 8, 10],
  [0, 6, 12, 14, 2, 4, 8, 10],
  [2, 6, 12, 14, 0, 4, 8, 10],
  [0, 2, 6, 12, 14, 4, 8, 10],
  [4, 6, 12, 14, 0, 2, 8, 10],
  [0, 4, 6, 12, 14, 2, 8, 10],
  [2, 4, 6, 12, 14, 0, 8, 10],
  [0, 2, 4, 6, 12, 14, 8, 10],
  [8, 12, 14, 0, 2, 4, 6, 10],
  [0, 8, 12, 14, 2, 4, 6, 10],
  [2, 8, 12, 14, 0, 4, 6, 10],
  [0, 2, 8, 12, 14, 4, 6, 10],
  [4, 8, 12, 14, 0, 2, 6, 10],
  [0, 4, 8, 12, 14, 2, 6, 10],
  [2, 4, 8, 12, 14, 0, 6, 10],
  [0, 2, 4, 8, 12, 14, 6, 10],
  [6, 8, 12, 14, 0, 2, 4, 10],
  [0, 6, 8, 12, 14, 2, 4, 10],
  [2, 6, 8, 12, 14, 0, 4, 10],
  [0, 2, 6, 8, 12, 14, 4, 10],
  [4, 6, 8, 12, 14, 0, 2, 10],
  [0, 4, 6, 8, 12, 14, 2, 10],
  [2, 4, 6, 8, 12, 14, 0, 10],
  [0, 2, 4, 6, 8, 12, 14, 10],
  [10, 12, 14, 0, 2, 4, 6, 8],
  [0, 10, 12, 14, 2, 4, 6, 8],
  [2, 10, 12, 14, 0, 4, 6, 8],
  [0, 2, 10, 12, 14, 4, 6, 8],
  [4, 10, 12, 14, 0, 2, 6, 8],
  [0, 4, 10, 12, 14, 2, 6, 8],
  [2, 4, 10, 12, 14, 0, 6, 8],
  [0, 2, 4, 10, 12, 14, 6, 8],
  [6, 10, 12, 14, 0, 2, 4, 8],
  [0, 6, 10, 12, 14, 2, 4, 8],
  [2, 6, 10, 12, 14, 0, 4, 8],
  [0, 2, 6, 10, 12, 14, 4, 8],
  [4, 6, 10, 12, 14, 0, 2, 8],
  [0, 4, 6, 10, 12, 14, 2, 8],
  [2, 4, 6, 10, 12, 14, 0, 8],
  [0, 2, 4, 6, 10, 12, 14, 8],
  [8, 10, 12, 14, 0, 2, 4, 6],
  [0, 8, 10, 12, 14, 2, 4, 6],
  [2, 8, 10, 12, 14, 0, 4, 6],
  [0, 2, 8, 10, 12, 14, 4, 6],
  [4, 8, 10, 12, 14, 0, 2, 6],
  [0, 4, 8, 10, 12, 14, 2, 6],
  [2, 4, 8, 10, 12, 14, 0, 6],
  [0, 2, 4, 8, 10, 12, 14, 6],
  [6, 8, 10, 12, 14, 0, 2, 4],
  [0, 6, 8, 10, 12, 14, 2, 4],
  [2, 6, 8, 10, 12, 14, 0, 4],
  [0, 2, 6, 8, 10, 12, 14, 4],
  [4, 6, 8, 10, 12, 14, 0, 2],
  [0, 4, 6, 8, 10, 12, 14, 2],
  [2, 4, 6, 8, 10, 12, 14, 0],
  [0, 2, 4, 6, 8, 10, 12, 14]]
/-- Byte indices of `IndicesFromNotBits128` of 16-bit lanes, `x86_128-inl.h:12962-13091`. -/
def compressNot16 : List (List Nat) := [
  [0, 2, 4, 6, 8, 10, 12, 14],
  [2, 4, 6, 8, 10, 12, 14, 0],
  [0, 4, 6, 8, 10, 12, 14, 2],
  [4, 6, 8, 10, 12, 14, 0, 2],
  [0, 2, 6, 8, 10, 12, 14, 4],
  [2, 6, 8, 10, 12, 14, 0, 4],
  [0, 6, 8, 10, 12, 14, 2, 4],
  [6, 8, 10, 12, 14, 0, 2, 4],
  [0, 2, 4, 8, 10, 12, 14, 6],
  [2, 4, 8, 10, 12, 14, 0, 6],
  [0, 4, 8, 10, 12, 14, 2, 6],
  [4, 8, 10, 12, 14, 0, 2, 6],
  [0, 2, 8, 10, 12, 14, 4, 6],
  [2, 8, 10, 12, 14, 0, 4, 6],
  [0, 8, 10, 12, 14, 2, 4, 6],
  [8, 10, 12, 14, 0, 2, 4, 6],
  [0, 2, 4, 6, 10, 12, 14, 8],
  [2, 4, 6, 10, 12, 14, 0, 8],
  [0, 4, 6, 10, 12, 14, 2, 8],
  [4, 6, 10, 12, 14, 0, 2, 8],
  [0, 2, 6, 10, 12, 14, 4, 8],
  [2, 6, 10, 12, 14, 0, 4, 8],
  [0, 6, 10, 12, 14, 2, 4, 8],
  [6, 10, 12, 14, 0, 2, 4, 8],
  [0, 2, 4, 10, 12, 14, 6, 8],
  [2, 4, 10, 12, 14, 0, 6, 8],
  [0, 4, 10, 12, 14, 2, 6, 8],
  [4, 10, 12, 14, 0, 2, 6, 8],
  [0, 2, 10, 12, 14, 4, 6, 8],
  [2, 10, 12, 14, 0, 4, 6, 8],
  [0, 10, 12, 14, 2, 4, 6, 8],
  [10, 12, 14, 0, 2, 4, 6, 8],
  [0, 2, 4, 6, 8, 12, 14, 10],
  [2, 4, 6, 8, 12, 14, 0, 10],
  [0, 4, 6, 8, 12, 14, 2, 10],
  [4, 6, 8, 12, 14, 0, 2, 10],
  [0, 2, 6, 8, 12, 14, 4, 10],
  [2, 6, 8, 12, 14, 0, 4, 10],
  [0, 6, 8, 12, 14, 2, 4, 10],
  [6, 8, 12, 14, 0, 2, 4, 10],
  [0, 2, 4, 8, 12, 14, 6, 10],
  [2, 4, 8, 12, 14, 0, 6, 10],
  [0, 4, 8, 12, 14, 2, 6, 10],
  [4, 8, 12, 14, 0, 2, 6, 10],
  [0, 2, 8, 12, 14, 4, 6, 10],
  [2, 8, 12, 14, 0, 4, 6, 10],
  [0, 8, 12, 14, 2, 4, 6, 10],
  [8, 12, 14, 0, 2, 4, 6, 10],
  [0, 2, 4, 6, 12, 14, 8, 10],
  [2, 4, 6, 12, 14, 0, 8, 10],
  [0, 4, 6, 12, 14, 2, 8, 10],
  [4, 6, 12, 14, 0, 2, 8, 10],
  [0, 2, 6, 12, 14, 4, 8, 10],
  [2, 6, 12, 14, 0, 4, 8, 10],
  [0, 6, 12, 14, 2, 4, 8, 10],
  [6, 12, 14, 0, 2, 4, 8, 10],
  [0, 2, 4, 12, 14, 6, 8, 10],
  [2, 4, 12, 14, 0, 6, 8, 10],
  [0, 4, 12, 14, 2, 6, 8, 10],
  [4, 12, 14, 0, 2, 6, 8, 10],
  [0, 2, 12, 14, 4, 6, 8, 10],
  [2, 12, 14, 0, 4, 6, 8, 10],
  [0, 12, 14, 2, 4, 6, 8, 10],
  [12, 14, 0, 2, 4, 6, 8, 10],
  [0, 2, 4, 6, 8, 10, 14, 12],
  [2, 4, 6, 8, 10, 14, 0, 12],
  [0, 4, 6, 8, 10, 14, 2, 12],
  [4, 6, 8, 10, 14, 0, 2, 12],
  [0, 2, 6, 8, 10, 14, 4, 12],
  [2, 6, 8, 10, 14, 0, 4, 12],
  [0, 6, 8, 10, 14, 2, 4, 12],
  [6, 8, 10, 14, 0, 2, 4, 12],
  [0, 2, 4, 8, 10, 14, 6, 12],
  [2, 4, 8, 10, 14, 0, 6, 12],
  [0, 4, 8, 10, 14, 2, 6, 12],
  [4, 8, 10, 14, 0, 2, 6, 12],
  [0, 2, 8, 10, 14, 4, 6, 12],
  [2, 8, 10, 14, 0, 4, 6, 12],
  [0, 8, 10, 14, 2, 4, 6, 12],
  [8, 10, 14, 0, 2, 4, 6, 12],
  [0, 2, 4, 6, 10, 14, 8, 12],
  [2, 4, 6, 10, 14, 0, 8, 12],
  [0, 4, 6, 10, 14, 2, 8, 12],
  [4, 6, 10, 14, 0, 2, 8, 12],
  [0, 2, 6, 10, 14, 4, 8, 12],
  [2, 6, 10, 14, 0, 4, 8, 12],
  [0, 6, 10, 14, 2, 4, 8, 12],
  [6, 10, 14, 0, 2, 4, 8, 12],
  [0, 2, 4, 10, 14, 6, 8, 12],
  [2, 4, 10, 14, 0, 6, 8, 12],
  [0, 4, 10, 14, 2, 6, 8, 12],
  [4, 10, 14, 0, 2, 6, 8, 12],
  [0, 2, 10, 14, 4, 6, 8, 12],
  [2, 10, 14, 0, 4, 6, 8, 12],
  [0, 10, 14, 2, 4, 6, 8, 12],
  [10, 14, 0, 2, 4, 6, 8, 12],
  [0, 2, 4, 6, 8, 14, 10, 12],
  [2, 4, 6, 8, 14, 0, 10, 12],
  [0, 4, 6, 8, 14, 2, 10, 12],
  [4, 6, 8, 14, 0, 2, 10, 12],
  [0, 2, 6, 8, 14, 4, 10, 12],
  [2, 6, 8, 14, 0, 4, 10, 12],
  [0, 6, 8, 14, 2, 4, 10, 12],
  [6, 8, 14, 0, 2, 4, 10, 12],
  [0, 2, 4, 8, 14, 6, 10, 12],
  [2, 4, 8, 14, 0, 6, 10, 12],
  [0, 4, 8, 14, 2, 6, 10, 12],
  [4, 8, 14, 0, 2, 6, 10, 12],
  [0, 2, 8, 14, 4, 6, 10, 12],
  [2, 8, 14, 0, 4, 6, 10, 12],
  [0, 8, 14, 2, 4, 6, 10, 12],
  [8, 14, 0, 2, 4, 6, 10, 12],
  [0, 2, 4, 6, 14, 8, 10, 12],
  [2, 4, 6, 14, 0, 8, 10, 12],
  [0, 4, 6, 14, 2, 8, 10, 12],
  [4, 6, 14, 0, 2, 8, 10, 12],
  [0, 2, 6, 14, 4, 8, 10, 12],
  [2, 6, 14, 0, 4, 8, 10, 12],
  [0, 6, 14, 2, 4, 8, 10, 12],
  [6, 14, 0, 2, 4, 8, 10, 12],
  [0, 2, 4, 14, 6, 8, 10, 12],
  [2, 4, 14, 0, 6, 8, 10, 12],
  [0, 4, 14, 2, 6, 8, 10, 12],
  [4, 14, 0, 2, 6, 8, 10, 12],
  [0, 2, 14, 4, 6, 8, 10, 12],
  [2, 14, 0, 4, 6, 8, 10, 12],
  [0, 14, 2, 4, 6, 8, 10, 12],
  [14, 0, 2, 4, 6, 8, 10, 12],
  [0, 2, 4, 6, 8, 10, 12, 14],
  [2, 4, 6, 8, 10, 12, 0, 14],
  [0, 4, 6, 8, 10, 12, 2, 14],
  [4, 6, 8, 10, 12, 0, 2, 14],
  [0, 2, 6, 8, 10, 12, 4, 14],
  [2, 6, 8, 10, 12, 0, 4, 14],
  [0, 6, 8, 10, 12, 2, 4, 14],
  [6, 8, 10, 12, 0, 2, 4, 14],
  [0, 2, 4, 8, 10, 12, 6, 14],
  [2, 4, 8, 10, 12, 0, 6, 14],
  [0, 4, 8, 10, 12, 2, 6, 14],
  [4, 8, 10, 12, 0, 2, 6, 14],
  [0, 2, 8, 10, 12, 4, 6, 14],
  [2, 8, 10, 12, 0, 4, 6, 14],
  [0, 8, 10, 12, 2, 4, 6, 14],
  [8, 10, 12, 0, 2, 4, 6, 14],
  [0, 2, 4, 6, 10, 12, 8, 14],
  [2, 4, 6, 10, 12, 0, 8, 14],
  [0, 4, 6, 10, 12, 2, 8, 14],
  [4, 6, 10, 12, 0, 2, 8, 14],
  [0, 2, 6, 10, 12, 4, 8, 14],
  [2, 6, 10, 12, 0, 4, 8, 14],
  [0, 6, 10, 12, 2, 4, 8, 14],
  [6, 10, 12, 0, 2, 4, 8, 14],
  [0, 2, 4, 10, 12, 6, 8, 14],
  [2, 4, 10, 12, 0, 6, 8, 14],
  [0, 4, 10, 12, 2, 6, 8, 14],
  [4, 10, 12, 0, 2, 6, 8, 14],
  [0, 2, 10, 12, 4, 6, 8, 14],
  [2, 10, 12, 0, 4, 6, 8, 14],
  [0, 10, 12, 2, 4, 6, 8, 14],
  [10, 12, 0, 2, 4, 6, 8, 14],
  [0, 2, 4, 6, 8, 12, 10, 14],
  [2, 4, 6, 8, 12, 0, 10, 14],
  [0, 4, 6, 8, 12, 2, 10, 14],
  [4, 6, 8, 12, 0, 2, 10, 14],
  [0, 2, 6, 8, 12, 4, 10, 14],
  [2, 6, 8, 12, 0, 4, 10, 14],
  [0, 6, 8, 12, 2, 4, 10, 14],
  [6, 8, 12, 0, 2, 4, 10, 14],
  [0, 2, 4, 8, 12, 6, 10, 14],
  [2, 4, 8, 12, 0, 6, 10, 14],
  [0, 4, 8, 12, 2, 6, 10, 14],
  [4, 8, 12, 0, 2, 6, 10, 14],
  [0, 2, 8, 12, 4, 6, 10, 14],
  [2, 8, 12, 0, 4, 6, 10, 14],
  [0, 8, 12, 2, 4, 6, 10, 14],
  [8, 12, 0, 2, 4, 6, 10, 14],
  [0, 2, 4, 6, 12, 8, 10, 14],
  [2, 4, 6, 12, 0, 8, 10, 14],
  [0, 4, 6, 12, 2, 8, 10, 14],
  [4, 6, 12, 0, 2, 8, 10, 14],
  [0, 2, 6, 12, 4, 8, 10, 14],
  [2, 6, 12, 0, 4, 8, 10, 14],
  [0, 6, 12, 2, 4, 8, 10, 14],
  [6, 12, 0, 2, 4, 8, 10, 14],
  [0, 2, 4, 12, 6, 8, 10, 14],
  [2, 4, 12, 0, 6, 8, 10, 14],
  [0, 4, 12, 2, 6, 8, 10, 14],
  [4, 12, 0, 2, 6, 8, 10, 14],
  [0, 2, 12, 4, 6, 8, 10, 14],
  [2, 12, 0, 4, 6, 8, 10, 14],
  [0, 12, 2, 4, 6, 8, 10, 14],
  [12, 0, 2, 4, 6, 8, 10, 14],
  [0, 2, 4, 6, 8, 10, 12, 14],
  [2, 4, 6, 8, 10, 0, 12, 14],
  [0, 4, 6, 8, 10, 2, 12, 14],
  [4, 6, 8, 10, 0, 2, 12, 14],
  [0, 2, 6, 8, 10, 4, 12, 14],
  [2, 6, 8, 10, 0, 4, 12, 14],
  [0, 6, 8, 10, 2, 4, 12, 14],
  [6, 8, 10, 0, 2, 4, 12, 14],
  [0, 2, 4, 8, 10, 6, 12, 14],
  [2, 4, 8, 10, 0, 6, 12, 14],
  [0, 4, 8, 10, 2, 6, 12, 14],
  [4, 8, 10, 0, 2, 6, 12, 14],
  [0, 2, 8, 10, 4, 6, 12, 14],
  [2, 8, 10, 0, 4, 6, 12, 14],
  [0, 8, 10, 2, 4, 6, 12, 14],
  [8, 10, 0, 2, 4, 6, 12, 14],
  [0, 2, 4, 6, 10, 8, 12, 14],
  [2, 4, 6, 10, 0, 8, 12, 14],
  [0, 4, 6, 10, 2, 8, 12, 14],
  [4, 6, 10, 0, 2, 8, 12, 14],
  [0, 2, 6, 10, 4, 8, 12, 14],
  [2, 6, 10, 0, 4, 8, 12, 14],
  [0, 6, 10, 2, 4, 8, 12, 14],
  [6, 10, 0, 2, 4, 8, 12, 14],
  [0, 2, 4, 10, 6, 8, 12, 14],
  [2, 4, 10, 0, 6, 8, 12, 14],
  [0, 4, 10, 2, 6, 8, 12, 14],
  [4, 10, 0, 2, 6, 8, 12, 14],
  [0, 2, 10, 4, 6, 8, 12, 14],
  [2, 10, 0, 4, 6, 8, 12, 14],
  [0, 10, 2, 4, 6, 8, 12, 14],
  [10, 0, 2, 4, 6, 8, 12, 14],
  [0, 2, 4, 6, 8, 10, 12, 14],
  [2, 4, 6, 8, 0, 10, 12, 14],
  [0, 4, 6, 8, 2, 10, 12, 14],
  [4, 6, 8, 0, 2, 10, 12, 14],
  [0, 2, 6, 8, 4, 10, 12, 14],
  [2, 6, 8, 0, 4, 10, 12, 14],
  [0, 6, 8, 2, 4, 10, 12, 14],
  [6, 8, 0, 2, 4, 10, 12, 14],
  [0, 2, 4, 8, 6, 10, 12, 14],
  [2, 4, 8, 0, 6, 10, 12, 14],
  [0, 4, 8, 2, 6, 10, 12, 14],
  [4, 8, 0, 2, 6, 10, 12, 14],
  [0, 2, 8, 4, 6, 10, 12, 14],
  [2, 8, 0, 4, 6, 10, 12, 14],
  [0, 8, 2, 4, 6, 10, 12, 14],
  [8, 0, 2, 4, 6, 10, 12, 14],
  [0, 2, 4, 6, 8, 10, 12, 14],
  [2, 4, 6, 0, 8, 10, 12, 14],
  [0, 4, 6, 2, 8, 10, 12, 14],
  [4, 6, 0, 2, 8, 10, 12, 14],
  [0, 2, 6, 4, 8, 10, 12, 14],
  [2, 6, 0, 4, 8, 10, 12, 14],
  [0, 6, 2, 4, 8, 10, 12, 14],
  [6, 0, 2, 4, 8, 10, 12, 14],
  [0, 2, 4, 6, 8, 10, 12, 14],
  [2, 4, 0, 6, 8, 10, 12, 14],
  [0, 4, 2, 6, 8, 10, 12, 14],
  [4, 0, 2, 6, 8, 10, 12, 14],
  [0, 2, 4, 6, 8, 10, 12, 14],
  [2, 0, 4, 6, 8, 10, 12, 14],
  [0, 2, 4, 6, 8, 10, 12, 14],
  [0, 2, 4, 6, 8, 10, 12, 14]]
/-- `IndicesFromBits128` of 32-bit lanes, `x86_128-inl.h:13103-13120`. -/
def compress32 : List (List Nat) := [
  [0, 1, 2, 3, 4, 5, 6, 7, 8, 9, 10, 11, 12, 13, 14, 15],
  [0, 1, 2, 3, 4, 5, 6, 7, 8, 9, 10, 11, 12, 13, 14, 15],
  [4, 5, 6, 7, 0, 1, 2, 3, 8, 9, 10, 11, 12, 13, 14, 15],
  [0, 1, 2, 3, 4, 5, 6, 7, 8, 9, 10, 11, 12, 13, 14, 15],
  [8, 9, 10, 11, 0, 1, 2, 3, 4, 5, 6, 7, 12, 13, 14, 15],
  [0, 1, 2, 3, 8, 9, 10, 11, 4, 5, 6, 7, 12, 13, 14, 15],
  [4, 5, 6, 7, 8, 9, 10, 11, 0, 1, 2, 3, 12, 13, 14, 15],
  [0, 1, 2, 3, 4, 5, 6, 7, 8, 9, 10, 11, 12, 13, 14, 15],
  [12, 13, 14, 15, 0, 1, 2, 3, 4, 5, 6, 7, 8, 9, 10, 11],
  [0, 1, 2, 3, 12, 13, 14, 15, 4, 5, 6, 7, 8, 9, 10, 11],
  [4, 5, 6, 7, 12, 13, 14, 15, 0, 1, 2, 3, 8, 9, 10, 11],
  [0, 1, 2, 3, 4, 5, 6, 7, 12, 13, 14, 15, 8, 9, 10, 11],
  [8, 9, 10, 11, 12, 13, 14, 15, 0, 1, 2, 3, 4, 5, 6, 7],
  [0, 1, 2, 3, 8, 9, 10, 11, 12, 13, 14, 15, 4, 5, 6, 7],
  [4, 5, 6, 7, 8, 9, 10, 11, 12, 13, 14, 15, 0, 1, 2, 3],
  [0, 1, 2, 3, 4, 5, 6, 7, 8, 9, 10, 11, 12, 13, 14, 15]]
/-- `IndicesFromNotBits128` of 32-bit lanes, `x86_128-inl.h:13131-13147`. -/
def compressNot32 : List (List Nat) := [
  [0, 1, 2, 3, 4, 5, 6, 7, 8, 9, 10, 11, 12, 13, 14, 15],
  [4, 5, 6, 7, 8, 9, 10, 11, 12, 13, 14, 15, 0, 1, 2, 3],
  [0, 1, 2, 3, 8, 9, 10, 11, 12, 13, 14, 15, 4, 5, 6, 7],
  [8, 9, 10, 11, 12, 13, 14, 15, 0, 1, 2, 3, 4, 5, 6, 7],
  [0, 1, 2, 3, 4, 5, 6, 7, 12, 13, 14, 15, 8, 9, 10, 11],
  [4, 5, 6, 7, 12, 13, 14, 15, 0, 1, 2, 3, 8, 9, 10, 11],
  [0, 1, 2, 3, 12, 13, 14, 15, 4, 5, 6, 7, 8, 9, 10, 11],
  [12, 13, 14, 15, 0, 1, 2, 3, 4, 5, 6, 7, 8, 9, 10, 11],
  [0, 1, 2, 3, 4, 5, 6, 7, 8, 9, 10, 11, 12, 13, 14, 15],
  [4, 5, 6, 7, 8, 9, 10, 11, 0, 1, 2, 3, 12, 13, 14, 15],
  [0, 1, 2, 3, 8, 9, 10, 11, 4, 5, 6, 7, 12, 13, 14, 15],
  [8, 9, 10, 11, 0, 1, 2, 3, 4, 5, 6, 7, 12, 13, 14, 15],
  [0, 1, 2, 3, 4, 5, 6, 7, 8, 9, 10, 11, 12, 13, 14, 15],
  [4, 5, 6, 7, 0, 1, 2, 3, 8, 9, 10, 11, 12, 13, 14, 15],
  [0, 1, 2, 3, 4, 5, 6, 7, 8, 9, 10, 11, 12, 13, 14, 15],
  [0, 1, 2, 3, 4, 5, 6, 7, 8, 9, 10, 11, 12, 13, 14, 15]]
/-- `IndicesFromBits128` of 64-bit lanes, `x86_128-inl.h:13158-13163`. -/
def compress64 : List (List Nat) := [
  [0, 1, 2, 3, 4, 5, 6, 7, 8, 9, 10, 11, 12, 13, 14, 15],
  [0, 1, 2, 3, 4, 5, 6, 7, 8, 9, 10, 11, 12, 13, 14, 15],
  [8, 9, 10, 11, 12, 13, 14, 15, 0, 1, 2, 3, 4, 5, 6, 7],
  [0, 1, 2, 3, 4, 5, 6, 7, 8, 9, 10, 11, 12, 13, 14, 15]]
/-- The table of `CompressBitsStore` of 8-bit lanes, `generic_ops-inl.h:5906-6034`. -/
def compress8 : List (List Nat) := [
  [0, 1, 2, 3, 4, 5, 6, 7],
  [0, 1, 2, 3, 4, 5, 6, 7],
  [1, 0, 2, 3, 4, 5, 6, 7],
  [0, 1, 2, 3, 4, 5, 6, 7],
  [2, 0, 1, 3, 4, 5, 6, 7],
  [0, 2, 1, 3, 4, 5, 6, 7],
  [1, 2, 0, 3, 4, 5, 6, 7],
  [0, 1, 2, 3, 4, 5, 6, 7],
  [3, 0, 1, 2, 4, 5, 6, 7],
  [0, 3, 1, 2, 4, 5, 6, 7],
  [1, 3, 0, 2, 4, 5, 6, 7],
  [0, 1, 3, 2, 4, 5, 6, 7],
  [2, 3, 0, 1, 4, 5, 6, 7],
  [0, 2, 3, 1, 4, 5, 6, 7],
  [1, 2, 3, 0, 4, 5, 6, 7],
  [0, 1, 2, 3, 4, 5, 6, 7],
  [4, 0, 1, 2, 3, 5, 6, 7],
  [0, 4, 1, 2, 3, 5, 6, 7],
  [1, 4, 0, 2, 3, 5, 6, 7],
  [0, 1, 4, 2, 3, 5, 6, 7],
  [2, 4, 0, 1, 3, 5, 6, 7],
  [0, 2, 4, 1, 3, 5, 6, 7],
  [1, 2, 4, 0, 3, 5, 6, 7],
  [0, 1, 2, 4, 3, 5, 6, 7],
  [3, 4, 0, 1, 2, 5, 6, 7],
  [0, 3, 4, 1, 2, 5, 6, 7],
  [1, 3, 4, 0, 2, 5, 6, 7],
  [0, 1, 3, 4, 2, 5, 6, 7],
  [2, 3, 4, 0, 1, 5, 6, 7],
  [0, 2, 3, 4, 1, 5, 6, 7],
  [1, 2, 3, 4, 0, 5, 6, 7],
  [0, 1, 2, 3, 4, 5, 6, 7],
  [5, 0, 1, 2, 3, 4, 6, 7],
  [0, 5, 1, 2, 3, 4, 6, 7],
  [1, 5, 0, 2, 3, 4, 6, 7],
  [0, 1, 5, 2, 3, 4, 6, 7],
  [2, 5, 0, 1, 3, 4, 6, 7],
  [0, 2, 5, 1, 3, 4, 6, 7],
  [1, 2, 5, 0, 3, 4, 6, 7],
  [0, 1, 2, 5, 3, 4, 6, 7],
  [3, 5, 0, 1, 2, 4, 6, 7],
  [0, 3, 5, 1, 2, 4, 6, 7],
  [1, 3, 5, 0, 2, 4, 6, 7],
  [0, 1, 3, 5, 2, 4, 6, 7],
  [2, 3, 5, 0, 1, 4, 6, 7],
  [0, 2, 3, 5, 1, 4, 6, 7],
  [1, 2, 3, 5, 0, 4, 6, 7],
  [0, 1, 2, 3, 5, 4, 6, 7],
  [4, 5, 0, 1, 2, 3, 6, 7],
  [0, 4, 5, 1, 2, 3, 6, 7],
  [1, 4, 5, 0, 2, 3, 6, 7],
  [0, 1, 4, 5, 2, 3, 6, 7],
  [2, 4, 5, 0, 1, 3, 6, 7],
  [0, 2, 4, 5, 1, 3, 6, 7],
  [1, 2, 4, 5, 0, 3, 6, 7],
  [0, 1, 2, 4, 5, 3, 6, 7],
  [3, 4, 5, 0, 1, 2, 6, 7],
  [0, 3, 4, 5, 1, 2, 6, 7],
  [1, 3, 4, 5, 0, 2, 6, 7],
  [0, 1, 3, 4, 5, 2, 6, 7],
  [2, 3, 4, 5, 0, 1, 6, 7],
  [0, 2, 3, 4, 5, 1, 6, 7],
  [1, 2, 3, 4, 5, 0, 6, 7],
  [0, 1, 2, 3, 4, 5, 6, 7],
  [6, 0, 1, 2, 3, 4, 5, 7],
  [0, 6, 1, 2, 3, 4, 5, 7],
  [1, 6, 0, 2, 3, 4, 5, 7],
  [0, 1, 6, 2, 3, 4, 5, 7],
  [2, 6, 0, 1, 3, 4, 5, 7],
  [0, 2, 6, 1, 3, 4, 5, 7],
  [1, 2, 6, 0, 3, 4, 5, 7],
  [0, 1, 2, 6, 3, 4, 5, 7],
  [3, 6, 0, 1, 2, 4, 5, 7],
  [0, 3, 6, 1, 2, 4, 5, 7],
  [1, 3, 6, 0, 2, 4, 5, 7],
  [0, 1, 3, 6, 2, 4, 5, 7],
  [2, 3, 6, 0, 1, 4, 5, 7],
  [0, 2, 3, 6, 1, 4, 5, 7],
  [1, 2, 3, 6, 0, 4, 5, 7],
  [0, 1, 2, 3, 6, 4, 5, 7],
  [4, 6, 0, 1, 2, 3, 5, 7],
  [0, 4, 6, 1, 2, 3, 5, 7],
  [1, 4, 6, 0, 2, 3, 5, 7],
  [0, 1, 4, 6, 2, 3, 5, 7],
  [2, 4, 6, 0, 1, 3, 5, 7],
  [0, 2, 4, 6, 1, 3, 5, 7],
  [1, 2, 4, 6, 0, 3, 5, 7],
  [0, 1, 2, 4, 6, 3, 5, 7],
  [3, 4, 6, 0, 1, 2, 5, 7],
  [0, 3, 4, 6, 1, 2, 5, 7],
  [1, 3, 4, 6, 0, 2, 5, 7],
  [0, 1, 3, 4, 6, 2, 5, 7],
  [2, 3, 4, 6, 0, 1, 5, 7],
  [0, 2, 3, 4, 6, 1, 5, 7],
  [1, 2, 3, 4, 6, 0, 5, 7],
  [0, 1, 2, 3, 4, 6, 5, 7],
  [5, 6, 0, 1, 2, 3, 4, 7],
  [0, 5, 6, 1, 2, 3, 4, 7],
  [1, 5, 6, 0, 2, 3, 4, 7],
  [0, 1, 5, 6, 2, 3, 4, 7],
  [2, 5, 6, 0, 1, 3, 4, 7],
  [0, 2, 5, 6, 1, 3, 4, 7],
  [1, 2, 5, 6, 0, 3, 4, 7],
  [0, 1, 2, 5, 6, 3, 4, 7],
  [3, 5, 6, 0, 1, 2, 4, 7],
  [0, 3, 5, 6, 1, 2, 4, 7],
  [1, 3, 5, 6, 0, 2, 4, 7],
  [0, 1, 3, 5, 6, 2, 4, 7],
  [2, 3, 5, 6, 0, 1, 4, 7],
  [0, 2, 3, 5, 6, 1, 4, 7],
  [1, 2, 3, 5, 6, 0, 4, 7],
  [0, 1, 2, 3, 5, 6, 4, 7],
  [4, 5, 6, 0, 1, 2, 3, 7],
  [0, 4, 5, 6, 1, 2, 3, 7],
  [1, 4, 5, 6, 0, 2, 3, 7],
  [0, 1, 4, 5, 6, 2, 3, 7],
  [2, 4, 5, 6, 0, 1, 3, 7],
  [0, 2, 4, 5, 6, 1, 3, 7],
  [1, 2, 4, 5, 6, 0, 3, 7],
  [0, 1, 2, 4, 5, 6, 3, 7],
  [3, 4, 5, 6, 0, 1, 2, 7],
  [0, 3, 4, 5, 6, 1, 2, 7],
  [1, 3, 4, 5, 6, 0, 2, 7],
  [0, 1, 3, 4, 5, 6, 2, 7],
  [2, 3, 4, 5, 6, 0, 1, 7],
  [0, 2, 3, 4, 5, 6, 1, 7],
  [1, 2, 3, 4, 5, 6, 0, 7],
  [0, 1, 2, 3, 4, 5, 6, 7],
  [7, 0, 1, 2, 3, 4, 5, 6],
  [0, 7, 1, 2, 3, 4, 5, 6],
  [1, 7, 0, 2, 3, 4, 5, 6],
  [0, 1, 7, 2, 3, 4, 5, 6],
  [2, 7, 0, 1, 3, 4, 5, 6],
  [0, 2, 7, 1, 3, 4, 5, 6],
  [1, 2, 7, 0, 3, 4, 5, 6],
  [0, 1, 2, 7, 3, 4, 5, 6],
  [3, 7, 0, 1, 2, 4, 5, 6],
  [0, 3, 7, 1, 2, 4, 5, 6],
  [1, 3, 7, 0, 2, 4, 5, 6],
  [0, 1, 3, 7, 2, 4, 5, 6],
  [2, 3, 7, 0, 1, 4, 5, 6],
  [0, 2, 3, 7, 1, 4, 5, 6],
  [1, 2, 3, 7, 0, 4, 5, 6],
  [0, 1, 2, 3, 7, 4, 5, 6],
  [4, 7, 0, 1, 2, 3, 5, 6],
  [0, 4, 7, 1, 2, 3, 5, 6],
  [1, 4, 7, 0, 2, 3, 5, 6],
  [0, 1, 4, 7, 2, 3, 5, 6],
  [2, 4, 7, 0, 1, 3, 5, 6],
  [0, 2, 4, 7, 1, 3, 5, 6],
  [1, 2, 4, 7, 0, 3, 5, 6],
  [0, 1, 2, 4, 7, 3, 5, 6],
  [3, 4, 7, 0, 1, 2, 5, 6],
  [0, 3, 4, 7, 1, 2, 5, 6],
  [1, 3, 4, 7, 0, 2, 5, 6],
  [0, 1, 3, 4, 7, 2, 5, 6],
  [2, 3, 4, 7, 0, 1, 5, 6],
  [0, 2, 3, 4, 7, 1, 5, 6],
  [1, 2, 3, 4, 7, 0, 5, 6],
  [0, 1, 2, 3, 4, 7, 5, 6],
  [5, 7, 0, 1, 2, 3, 4, 6],
  [0, 5, 7, 1, 2, 3, 4, 6],
  [1, 5, 7, 0, 2, 3, 4, 6],
  [0, 1, 5, 7, 2, 3, 4, 6],
  [2, 5, 7, 0, 1, 3, 4, 6],
  [0, 2, 5, 7, 1, 3, 4, 6],
  [1, 2, 5, 7, 0, 3, 4, 6],
  [0, 1, 2, 5, 7, 3, 4, 6],
  [3, 5, 7, 0, 1, 2, 4, 6],
  [0, 3, 5, 7, 1, 2, 4, 6],
  [1, 3, 5, 7, 0, 2, 4, 6],
  [0, 1, 3, 5, 7, 2, 4, 6],
  [2, 3, 5, 7, 0, 1, 4, 6],
  [0, 2, 3, 5, 7, 1, 4, 6],
  [1, 2, 3, 5, 7, 0, 4, 6],
  [0, 1, 2, 3, 5, 7, 4, 6],
  [4, 5, 7, 0, 1, 2, 3, 6],
  [0, 4, 5, 7, 1, 2, 3, 6],
  [1, 4, 5, 7, 0, 2, 3, 6],
  [0, 1, 4, 5, 7, 2, 3, 6],
  [2, 4, 5, 7, 0, 1, 3, 6],
  [0, 2, 4, 5, 7, 1, 3, 6],
  [1, 2, 4, 5, 7, 0, 3, 6],
  [0, 1, 2, 4, 5, 7, 3, 6],
  [3, 4, 5, 7, 0, 1, 2, 6],
  [0, 3, 4, 5, 7, 1, 2, 6],
  [1, 3, 4, 5, 7, 0, 2, 6],
  [0, 1, 3, 4, 5, 7, 2, 6],
  [2, 3, 4, 5, 7, 0, 1, 6],
  [0, 2, 3, 4, 5, 7, 1, 6],
  [1, 2, 3, 4, 5, 7, 0, 6],
  [0, 1, 2, 3, 4, 5, 7, 6],
  [6, 7, 0, 1, 2, 3, 4, 5],
  [0, 6, 7, 1, 2, 3, 4, 5],
  [1, 6, 7, 0, 2, 3, 4, 5],
  [0, 1, 6, 7, 2, 3, 4, 5],
  [2, 6, 7, 0, 1, 3, 4, 5],
  [0, 2, 6, 7, 1, 3, 4, 5],
  [1, 2, 6, 7, 0, 3, 4, 5],
  [0, 1, 2, 6, 7, 3, 4, 5],
  [3, 6, 7, 0, 1, 2, 4, 5],
  [0, 3, 6, 7, 1, 2, 4, 5],
  [1, 3, 6, 7, 0, 2, 4, 5],
  [0, 1, 3, 6, 7, 2, 4, 5],
  [2, 3, 6, 7, 0, 1, 4, 5],
  [0, 2, 3, 6, 7, 1, 4, 5],
  [1, 2, 3, 6, 7, 0, 4, 5],
  [0, 1, 2, 3, 6, 7, 4, 5],
  [4, 6, 7, 0, 1, 2, 3, 5],
  [0, 4, 6, 7, 1, 2, 3, 5],
  [1, 4, 6, 7, 0, 2, 3, 5],
  [0, 1, 4, 6, 7, 2, 3, 5],
  [2, 4, 6, 7, 0, 1, 3, 5],
  [0, 2, 4, 6, 7, 1, 3, 5],
  [1, 2, 4, 6, 7, 0, 3, 5],
  [0, 1, 2, 4, 6, 7, 3, 5],
  [3, 4, 6, 7, 0, 1, 2, 5],
  [0, 3, 4, 6, 7, 1, 2, 5],
  [1, 3, 4, 6, 7, 0, 2, 5],
  [0, 1, 3, 4, 6, 7, 2, 5],
  [2, 3, 4, 6, 7, 0, 1, 5],
  [0, 2, 3, 4, 6, 7, 1, 5],
  [1, 2, 3, 4, 6, 7, 0, 5],
  [0, 1, 2, 3, 4, 6, 7, 5],
  [5, 6, 7, 0, 1, 2, 3, 4],
  [0, 5, 6, 7, 1, 2, 3, 4],
  [1, 5, 6, 7, 0, 2, 3, 4],
  [0, 1, 5, 6, 7, 2, 3, 4],
  [2, 5, 6, 7, 0, 1, 3, 4],
  [0, 2, 5, 6, 7, 1, 3, 4],
  [1, 2, 5, 6, 7, 0, 3, 4],
  [0, 1, 2, 5, 6, 7, 3, 4],
  [3, 5, 6, 7, 0, 1, 2, 4],
  [0, 3, 5, 6, 7, 1, 2, 4],
  [1, 3, 5, 6, 7, 0, 2, 4],
  [0, 1, 3, 5, 6, 7, 2, 4],
  [2, 3, 5, 6, 7, 0, 1, 4],
  [0, 2, 3, 5, 6, 7, 1, 4],
  [1, 2, 3, 5, 6, 7, 0, 4],
  [0, 1, 2, 3, 5, 6, 7, 4],
  [4, 5, 6, 7, 0, 1, 2, 3],
  [0, 4, 5, 6, 7, 1, 2, 3],
  [1, 4, 5, 6, 7, 0, 2, 3],
  [0, 1, 4, 5, 6, 7, 2, 3],
  [2, 4, 5, 6, 7, 0, 1, 3],
  [0, 2, 4, 5, 6, 7, 1, 3],
  [1, 2, 4, 5, 6, 7, 0, 3],
  [0, 1, 2, 4, 5, 6, 7, 3],
  [3, 4, 5, 6, 7, 0, 1, 2],
  [0, 3, 4, 5, 6, 7, 1, 2],
  [1, 3, 4, 5, 6, 7, 0, 2],
  [0, 1, 3, 4, 5, 6, 7, 2],
  [2, 3, 4, 5, 6, 7, 0, 1],
  [0, 2, 3, 4, 5, 6, 7, 1],
  [1, 2, 3, 4, 5, 6, 7, 0],
  [0, 1, 2, 3, 4, 5, 6, 7]]
/-- The table of `IndicesForExpandFromBits`, `generic_ops-inl.h:6106-6363`. -/
def expand8 : List (List Nat) := [
  [128, 128, 128, 128, 128, 128, 128, 128],
  [0, 128, 128, 128, 128, 128, 128, 128],
  [128, 0, 128, 128, 128, 128, 128, 128],
  [0, 1, 128, 128, 128, 128, 128, 128],
  [128, 128, 0, 128, 128, 128, 128, 128],
  [0, 128, 1, 128, 128, 128, 128, 128],
  [128, 0, 1, 128, 128, 128, 128, 128],
  [0, 1, 2, 128, 128, 128, 128, 128],
  [128, 128, 128, 0, 128, 128, 128, 128],
  [0, 128, 128, 1, 128, 128, 128, 128],
  [128, 0, 128, 1, 128, 128, 128, 128],
  [0, 1, 128, 2, 128, 128, 128, 128],
  [128, 128, 0, 1, 128, 128, 128, 128],
  [0, 128, 1, 2, 128, 128, 128, 128],
  [128, 0, 1, 2, 128, 128, 128, 128],
  [0, 1, 2, 3, 128, 128, 128, 128],
  [128, 128, 128, 128, 0, 128, 128, 128],
  [0, 128, 128, 128, 1, 128, 128, 128],
  [128, 0, 128, 128, 1, 128, 128, 128],
  [0, 1, 128, 128, 2, 128, 128, 128],
  [128, 128, 0, 128, 1, 128, 128, 128],
  [0, 128, 1, 128, 2, 128, 128, 128],
  [128, 0, 1, 128, 2, 128, 128, 128],
  [0, 1, 2, 128, 3, 128, 128, 128],
  [128, 128, 128, 0, 1, 128, 128, 128],
  [0, 128, 128, 1, 2, 128, 128, 128],
  [128, 0, 128, 1, 2, 128, 128, 128],
  [0, 1, 128, 2, 3, 128, 128, 128],
  [128, 128, 0, 1, 2, 128, 128, 128],
  [0, 128, 1, 2, 3, 128, 128, 128],
  [128, 0, 1, 2, 3, 128, 128, 128],
  [0, 1, 2, 3, 4, 128, 128, 128],
  [128, 128, 128, 128, 128, 0, 128, 128],
  [0, 128, 128, 128, 128, 1, 128, 128],
  [128, 0, 128, 128, 128, 1, 128, 128],
  [0, 1, 128, 128, 128, 2, 128, 128],
  [128, 128, 0, 128, 128, 1, 128, 128],
  [0, 128, 1, 128, 128, 2, 128, 128],
  [128, 0, 1, 128, 128, 2, 128, 128],
  [0, 1, 2, 128, 128, 3, 128, 128],
  [128, 128, 128, 0, 128, 1, 128, 128],
  [0, 128, 128, 1, 128, 2, 128, 128],
  [128, 0, 128, 1, 128, 2, 128, 128],
  [0, 1, 128, 2, 128, 3, 128, 128],
  [128, 128, 0, 1, 128, 2, 128, 128],
  [0, 128, 1, 2, 128, 3, 128, 128],
  [128, 0, 1, 2, 128, 3, 128, 128],
  [0, 1, 2, 3, 128, 4, 128, 128],
  [128, 128, 128, 128, 0, 1, 128, 128],
  [0, 128, 128, 128, 1, 2, 128, 128],
  [128, 0, 128, 128, 1, 2, 128, 128],
  [0, 1, 128, 128, 2, 3, 128, 128],
  [128, 128, 0, 128, 1, 2, 128, 128],
  [0, 128, 1, 128, 2, 3, 128, 128],
  [128, 0, 1, 128, 2, 3, 128, 128],
  [0, 1, 2, 128, 3, 4, 128, 128],
  [128, 128, 128, 0, 1, 2, 128, 128],
  [0, 128, 128, 1, 2, 3, 128, 128],
  [128, 0, 128, 1, 2, 3, 128, 128],
  [0, 1, 128, 2, 3, 4, 128, 128],
  [128, 128, 0, 1, 2, 3, 128, 128],
  [0, 128, 1, 2, 3, 4, 128, 128],
  [128, 0, 1, 2, 3, 4, 128, 128],
  [0, 1, 2, 3, 4, 5, 128, 128],
  [128, 128, 128, 128, 128, 128, 0, 128],
  [0, 128, 128, 128, 128, 128, 1, 128],
  [128, 0, 128, 128, 128, 128, 1, 128],
  [0, 1, 128, 128, 128, 128, 2, 128],
  [128, 128, 0, 128, 128, 128, 1, 128],
  [0, 128, 1, 128, 128, 128, 2, 128],
  [128, 0, 1, 128, 128, 128, 2, 128],
  [0, 1, 2, 128, 128, 128, 3, 128],
  [128, 128, 128, 0, 128, 128, 1, 128],
  [0, 128, 128, 1, 128, 128, 2, 128],
  [128, 0, 128, 1, 128, 128, 2, 128],
  [0, 1, 128, 2, 128, 128, 3, 128],
  [128, 128, 0, 1, 128, 128, 2, 128],
  [0, 128, 1, 2, 128, 128, 3, 128],
  [128, 0, 1, 2, 128, 128, 3, 128],
  [0, 1, 2, 3, 128, 128, 4, 128],
  [128, 128, 128, 128, 0, 128, 1, 128],
  [0, 128, 128, 128, 1, 128, 2, 128],
  [128, 0, 128, 128, 1, 128, 2, 128],
  [0, 1, 128, 128, 2, 128, 3, 128],
  [128, 128, 0, 128, 1, 128, 2, 128],
  [0, 128, 1, 128, 2, 128, 3, 128],
  [128, 0, 1, 128, 2, 128, 3, 128],
  [0, 1, 2, 128, 3, 128, 4, 128],
  [128, 128, 128, 0, 1, 128, 2, 128],
  [0, 128, 128, 1, 2, 128, 3, 128],
  [128, 0, 128, 1, 2, 128, 3, 128],
  [0, 1, 128, 2, 3, 128, 4, 128],
  [128, 128, 0, 1, 2, 128, 3, 128],
  [0, 128, 1, 2, 3, 128, 4, 128],
  [128, 0, 1, 2, 3, 128, 4, 128],
  [0, 1, 2, 3, 4, 128, 5, 128],
  [128, 128, 128, 128, 128, 0, 1, 128],
  [0, 128, 128, 128, 128, 1, 2, 128],
  [128, 0, 128, 128, 128, 1, 2, 128],
  [0, 1, 128, 128, 128, 2, 3, 128],
  [128, 128, 0, 128, 128, 1, 2, 128],
  [0, 128, 1, 128, 128, 2, 3, 128],
  [128, 0, 1, 128, 128, 2, 3, 128],
  [0, 1, 2, 128, 128, 3, 4, 128],
  [128, 128, 128, 0, 128, 1, 2, 128],
  [0, 128, 128, 1, 128, 2, 3, 128],
  [128, 0, 128, 1, 128, 2, 3, 128],
  [0, 1, 128, 2, 128, 3, 4, 128],
  [128, 128, 0, 1, 128, 2, 3, 128],
  [0, 128, 1, 2, 128, 3, 4, 128],
  [128, 0, 1, 2, 128, 3, 4, 128],
  [0, 1, 2, 3, 128, 4, 5, 128],
  [128, 128, 128, 128, 0, 1, 2, 128],
  [0, 128, 128, 128, 1, 2, 3, 128],
  [128, 0, 128, 128, 1, 2, 3, 128],
  [0, 1, 128, 128, 2, 3, 4, 128],
  [128, 128, 0, 128, 1, 2, 3, 128],
  [0, 128, 1, 128, 2, 3, 4, 128],
  [128, 0, 1, 128, 2, 3, 4, 128],
  [0, 1, 2, 128, 3, 4, 5, 128],
  [128, 128, 128, 0, 1, 2, 3, 128],
  [0, 128, 128, 1, 2, 3, 4, 128],
  [128, 0, 128, 1, 2, 3, 4, 128],
  [0, 1, 128, 2, 3, 4, 5, 128],
  [128, 128, 0, 1, 2, 3, 4, 128],
  [0, 128, 1, 2, 3, 4, 5, 128],
  [128, 0, 1, 2, 3, 4, 5, 128],
  [0, 1, 2, 3, 4, 5, 6, 128],
  [128, 128, 128, 128, 128, 128, 128, 0],
  [0, 128, 128, 128, 128, 128, 128, 1],
  [128, 0, 128, 128, 128, 128, 128, 1],
  [0, 1, 128, 128, 128, 128, 128, 2],
  [128, 128, 0, 128, 128, 128, 128, 1],
  [0, 128, 1, 128, 128, 128, 128, 2],
  [128, 0, 1, 128, 128, 128, 128, 2],
  [0, 1, 2, 128, 128, 128, 128, 3],
  [128, 128, 128, 0, 128, 128, 128, 1],
  [0, 128, 128, 1, 128, 128, 128, 2],
  [128, 0, 128, 1, 128, 128, 128, 2],
  [0, 1, 128, 2, 128, 128, 128, 3],
  [128, 128, 0, 1, 128, 128, 128, 2],
  [0, 128, 1, 2, 128, 128, 128, 3],
  [128, 0, 1, 2, 128, 128, 128, 3],
  [0, 1, 2, 3, 128, 128, 128, 4],
  [128, 128, 128, 128, 0, 128, 128, 1],
  [0, 128, 128, 128, 1, 128, 128, 2],
  [128, 0, 128, 128, 1, 128, 128, 2],
  [0, 1, 128, 128, 2, 128, 128, 3],
  [128, 128, 0, 128, 1, 128, 128, 2],
  [0, 128, 1, 128, 2, 128, 128, 3],
  [128, 0, 1, 128, 2, 128, 128, 3],
  [0, 1, 2, 128, 3, 128, 128, 4],
  [128, 128, 128, 0, 1, 128, 128, 2],
  [0, 128, 128, 1, 2, 128, 128, 3],
  [128, 0, 128, 1, 2, 128, 128, 3],
  [0, 1, 128, 2, 3, 128, 128, 4],
  [128, 128, 0, 1, 2, 128, 128, 3],
  [0, 128, 1, 2, 3, 128, 128, 4],
  [128, 0, 1, 2, 3, 128, 128, 4],
  [0, 1, 2, 3, 4, 128, 128, 5],
  [128, 128, 128, 128, 128, 0, 128, 1],
  [0, 128, 128, 128, 128, 1, 128, 2],
  [128, 0, 128, 128, 128, 1, 128, 2],
  [0, 1, 128, 128, 128, 2, 128, 3],
  [128, 128, 0, 128, 128, 1, 128, 2],
  [0, 128, 1, 128, 128, 2, 128, 3],
  [128, 0, 1, 128, 128, 2, 128, 3],
  [0, 1, 2, 128, 128, 3, 128, 4],
  [128, 128, 128, 0, 128, 1, 128, 2],
  [0, 128, 128, 1, 128, 2, 128, 3],
  [128, 0, 128, 1, 128, 2, 128, 3],
  [0, 1, 128, 2, 128, 3, 128, 4],
  [128, 128, 0, 1, 128, 2, 128, 3],
  [0, 128, 1, 2, 128, 3, 128, 4],
  [128, 0, 1, 2, 128, 3, 128, 4],
  [0, 1, 2, 3, 128, 4, 128, 5],
  [128, 128, 128, 128, 0, 1, 128, 2],
  [0, 128, 128, 128, 1, 2, 128, 3],
  [128, 0, 128, 128, 1, 2, 128, 3],
  [0, 1, 128, 128, 2, 3, 128, 4],
  [128, 128, 0, 128, 1, 2, 128, 3],
  [0, 128, 1, 128, 2, 3, 128, 4],
  [128, 0, 1, 128, 2, 3, 128, 4],
  [0, 1, 2, 128, 3, 4, 128, 5],
  [128, 128, 128, 0, 1, 2, 128, 3],
  [0, 128, 128, 1, 2, 3, 128, 4],
  [128, 0, 128, 1, 2, 3, 128, 4],
  [0, 1, 128, 2, 3, 4, 128, 5],
  [128, 128, 0, 1, 2, 3, 128, 4],
  [0, 128, 1, 2, 3, 4, 128, 5],
  [128, 0, 1, 2, 3, 4, 128, 5],
  [0, 1, 2, 3, 4, 5, 128, 6],
  [128, 128, 128, 128, 128, 128, 0, 1],
  [0, 128, 128, 128, 128, 128, 1, 2],
  [128, 0, 128, 128, 128, 128, 1, 2],
  [0, 1, 128, 128, 128, 128, 2, 3],
  [128, 128, 0, 128, 128, 128, 1, 2],
  [0, 128, 1, 128, 128, 128, 2, 3],
  [128, 0, 1, 128, 128, 128, 2, 3],
  [0, 1, 2, 128, 128, 128, 3, 4],
  [128, 128, 128, 0, 128, 128, 1, 2],
  [0, 128, 128, 1, 128, 128, 2, 3],
  [128, 0, 128, 1, 128, 128, 2, 3],
  [0, 1, 128, 2, 128, 128, 3, 4],
  [128, 128, 0, 1, 128, 128, 2, 3],
  [0, 128, 1, 2, 128, 128, 3, 4],
  [128, 0, 1, 2, 128, 128, 3, 4],
  [0, 1, 2, 3, 128, 128, 4, 5],
  [128, 128, 128, 128, 0, 128, 1, 2],
  [0, 128, 128, 128, 1, 128, 2, 3],
  [128, 0, 128, 128, 1, 128, 2, 3],
  [0, 1, 128, 128, 2, 128, 3, 4],
  [128, 128, 0, 128, 1, 128, 2, 3],
  [0, 128, 1, 128, 2, 128, 3, 4],
  [128, 0, 1, 128, 2, 128, 3, 4],
  [0, 1, 2, 128, 3, 128, 4, 5],
  [128, 128, 128, 0, 1, 128, 2, 3],
  [0, 128, 128, 1, 2, 128, 3, 4],
  [128, 0, 128, 1, 2, 128, 3, 4],
  [0, 1, 128, 2, 3, 128, 4, 5],
  [128, 128, 0, 1, 2, 128, 3, 4],
  [0, 128, 1, 2, 3, 128, 4, 5],
  [128, 0, 1, 2, 3, 128, 4, 5],
  [0, 1, 2, 3, 4, 128, 5, 6],
  [128, 128, 128, 128, 128, 0, 1, 2],
  [0, 128, 128, 128, 128, 1, 2, 3],
  [128, 0, 128, 128, 128, 1, 2, 3],
  [0, 1, 128, 128, 128, 2, 3, 4],
  [128, 128, 0, 128, 128, 1, 2, 3],
  [0, 128, 1, 128, 128, 2, 3, 4],
  [128, 0, 1, 128, 128, 2, 3, 4],
  [0, 1, 2, 128, 128, 3, 4, 5],
  [128, 128, 128, 0, 128, 1, 2, 3],
  [0, 128, 128, 1, 128, 2, 3, 4],
  [128, 0, 128, 1, 128, 2, 3, 4],
  [0, 1, 128, 2, 128, 3, 4, 5],
  [128, 128, 0, 1, 128, 2, 3, 4],
  [0, 128, 1, 2, 128, 3, 4, 5],
  [128, 0, 1, 2, 128, 3, 4, 5],
  [0, 1, 2, 3, 128, 4, 5, 6],
  [128, 128, 128, 128, 0, 1, 2, 3],
  [0, 128, 128, 128, 1, 2, 3, 4],
  [128, 0, 128, 128, 1, 2, 3, 4],
  [0, 1, 128, 128, 2, 3, 4, 5],
  [128, 128, 0, 128, 1, 2, 3, 4],
  [0, 128, 1, 128, 2, 3, 4, 5],
  [128, 0, 1, 128, 2, 3, 4, 5],
  [0, 1, 2, 128, 3, 4, 5, 6],
  [128, 128, 128, 0, 1, 2, 3, 4],
  [0, 128, 128, 1, 2, 3, 4, 5],
  [128, 0, 128, 1, 2, 3, 4, 5],
  [0, 1, 128, 2, 3, 4, 5, 6],
  [128, 128, 0, 1, 2, 3, 4, 5],
  [0, 128, 1, 2, 3, 4, 5, 6],
  [128, 0, 1, 2, 3, 4, 5, 6],
  [0, 1, 2, 3, 4, 5, 6, 7]]
/-- The table of `Expand` of 16-bit lanes, `generic_ops-inl.h:6425-6682`. -/
def expand16 : List (List Nat) := [
  [128, 128, 128, 128, 128, 128, 128, 128],
  [0, 128, 128, 128, 128, 128, 128, 128],
  [128, 0, 128, 128, 128, 128, 128, 128],
  [0, 2, 128, 128, 128, 128, 128, 128],
  [128, 128, 0, 128, 128, 128, 128, 128],
  [0, 128, 2, 128, 128, 128, 128, 128],
  [128, 0, 2, 128, 128, 128, 128, 128],
  [0, 2, 4, 128, 128, 128, 128, 128],
  [128, 128, 128, 0, 128, 128, 128, 128],
  [0, 128, 128, 2, 128, 128, 128, 128],
  [128, 0, 128, 2, 128, 128, 128, 128],
  [0, 2, 128, 4, 128, 128, 128, 128],
  [128, 128, 0, 2, 128, 128, 128, 128],
  [0, 128, 2, 4, 128, 128, 128, 128],
  [128, 0, 2, 4, 128, 128, 128, 128],
  [0, 2, 4, 6, 128, 128, 128, 128],
  [128, 128, 128, 128, 0, 128, 128, 128],
  [0, 128, 128, 128, 2, 128, 128, 128],
  [128, 0, 128, 128, 2, 128, 128, 128],
  [0, 2, 128, 128, 4, 128, 128, 128],
  [128, 128, 0, 128, 2, 128, 128, 128],
  [0, 128, 2, 128, 4, 128, 128, 128],
  [128, 0, 2, 128, 4, 128, 128, 128],
  [0, 2, 4, 128, 6, 128, 128, 128],
  [128, 128, 128, 0, 2, 128, 128, 128],
  [0, 128, 128, 2, 4, 128, 128, 128],
  [128, 0, 128, 2, 4, 128, 128, 128],
  [0, 2, 128, 4, 6, 128, 128, 128],
  [128, 128, 0, 2, 4, 128, 128, 128],
  [0, 128, 2, 4, 6, 128, 128, 128],
  [128, 0, 2, 4, 6, 128, 128, 128],
  [0, 2, 4, 6, 8, 128, 128, 128],
  [128, 128, 128, 128, 128, 0, 128, 128],
  [0, 128, 128, 128, 128, 2, 128, 128],
  [128, 0, 128, 128, 128, 2, 128, 128],
  [0, 2, 128, 128, 128, 4, 128, 128],
  [128, 128, 0, 128, 128, 2, 128, 128],
  [0, 128, 2, 128, 128, 4, 128, 128],
  [128, 0, 2, 128, 128, 4, 128, 128],
  [0, 2, 4, 128, 128, 6, 128, 128],
  [128, 128, 128, 0, 128, 2, 128, 128],
  [0, 128, 128, 2, 128, 4, 128, 128],
  [128, 0, 128, 2, 128, 4, 128, 128],
  [0, 2, 128, 4, 128, 6, 128, 128],
  [128, 128, 0, 2, 128, 4, 128, 128],
  [0, 128, 2, 4, 128, 6, 128, 128],
  [128, 0, 2, 4, 128, 6, 128, 128],
  [0, 2, 4, 6, 128, 8, 128, 128],
  [128, 128, 128, 128, 0, 2, 128, 128],
  [0, 128, 128, 128, 2, 4, 128, 128],
  [128, 0, 128, 128, 2, 4, 128, 128],
  [0, 2, 128, 128, 4, 6, 128, 128],
  [128, 128, 0, 128, 2, 4, 128, 128],
  [0, 128, 2, 128, 4, 6, 128, 128],
  [128, 0, 2, 128, 4, 6, 128, 128],
  [0, 2, 4, 128, 6, 8, 128, 128],
  [128, 128, 128, 0, 2, 4, 128, 128],
  [0, 128, 128, 2, 4, 6, 128, 128],
  [128, 0, 128, 2, 4, 6, 128, 128],
  [0, 2, 128, 4, 6, 8, 128, 128],
  [128, 128, 0, 2, 4, 6, 128, 128],
  [0, 128, 2, 4, 6, 8, 128, 128],
  [128, 0, 2, 4, 6, 8, 128, 128],
  [0, 2, 4, 6, 8, 10, 128, 128],
  [128, 128, 128, 128, 128, 128, 0, 128],
  [0, 128, 128, 128, 128, 128, 2, 128],
  [128, 0, 128, 128, 128, 128, 2, 128],
  [0, 2, 128, 128, 128, 128, 4, 128],
  [128, 128, 0, 128, 128, 128, 2, 128],
  [0, 128, 2, 128, 128, 128, 4, 128],
  [128, 0, 2, 128, 128, 128, 4, 128],
  [0, 2, 4, 128, 128, 128, 6, 128],
  [128, 128, 128, 0, 128, 128, 2, 128],
  [0, 128, 128, 2, 128, 128, 4, 128],
  [128, 0, 128, 2, 128, 128, 4, 128],
  [0, 2, 128, 4, 128, 128, 6, 128],
  [128, 128, 0, 2, 128, 128, 4, 128],
  [0, 128, 2, 4, 128, 128, 6, 128],
  [128, 0, 2, 4, 128, 128, 6, 128],
  [0, 2, 4, 6, 128, 128, 8, 128],
  [128, 128, 128, 128, 0, 128, 2, 128],
  [0, 128, 128, 128, 2, 128, 4, 128],
  [128, 0, 128, 128, 2, 128, 4, 128],
  [0, 2, 128, 128, 4, 128, 6, 128],
  [128, 128, 0, 128, 2, 128, 4, 128],
  [0, 128, 2, 128, 4, 128, 6, 128],
  [128, 0, 2, 128, 4, 128, 6, 128],
  [0, 2, 4, 128, 6, 128, 8, 128],
  [128, 128, 128, 0, 2, 128, 4, 128],
  [0, 128, 128, 2, 4, 128, 6, 128],
  [128, 0, 128, 2, 4, 128, 6, 128],
  [0, 2, 128, 4, 6, 128, 8, 128],
  [128, 128, 0, 2, 4, 128, 6, 128],
  [0, 128, 2, 4, 6, 128, 8, 128],
  [128, 0, 2, 4, 6, 128, 8, 128],
  [0, 2, 4, 6, 8, 128, 10, 128],
  [128, 128, 128, 128, 128, 0, 2, 128],
  [0, 128, 128, 128, 128, 2, 4, 128],
  [128, 0, 128, 128, 128, 2, 4, 128],
  [0, 2, 128, 128, 128, 4, 6, 128],
  [128, 128, 0, 128, 128, 2, 4, 128],
  [0, 128, 2, 128, 128, 4, 6, 128],
  [128, 0, 2, 128, 128, 4, 6, 128],
  [0, 2, 4, 128, 128, 6, 8, 128],
  [128, 128, 128, 0, 128, 2, 4, 128],
  [0, 128, 128, 2, 128, 4, 6, 128],
  [128, 0, 128, 2, 128, 4, 6, 128],
  [0, 2, 128, 4, 128, 6, 8, 128],
  [128, 128, 0, 2, 128, 4, 6, 128],
  [0, 128, 2, 4, 128, 6, 8, 128],
  [128, 0, 2, 4, 128, 6, 8, 128],
  [0, 2, 4, 6, 128, 8, 10, 128],
  [128, 128, 128, 128, 0, 2, 4, 128],
  [0, 128, 128, 128, 2, 4, 6, 128],
  [128, 0, 128, 128, 2, 4, 6, 128],
  [0, 2, 128, 128, 4, 6, 8, 128],
  [128, 128, 0, 128, 2, 4, 6, 128],
  [0, 128, 2, 128, 4, 6, 8, 128],
  [128, 0, 2, 128, 4, 6, 8, 128],
  [0, 2, 4, 128, 6, 8, 10, 128],
  [128, 128, 128, 0, 2, 4, 6, 128],
  [0, 128, 128, 2, 4, 6, 8, 128],
  [128, 0, 128, 2, 4, 6, 8, 128],
  [0, 2, 128, 4, 6, 8, 10, 128],
  [128, 128, 0, 2, 4, 6, 8, 128],
  [0, 128, 2, 4, 6, 8, 10, 128],
  [128, 0, 2, 4, 6, 8, 10, 128],
  [0, 2, 4, 6, 8, 10, 12, 128],
  [128, 128, 128, 128, 128, 128, 128, 0],
  [0, 128, 128, 128, 128, 128, 128, 2],
  [128, 0, 128, 128, 128, 128, 128, 2],
  [0, 2, 128, 128, 128, 128, 128, 4],
  [128, 128, 0, 128, 128, 128, 128, 2],
  [0, 128, 2, 128, 128, 128, 128, 4],
  [128, 0, 2, 128, 128, 128, 128, 4],
  [0, 2, 4, 128, 128, 128, 128, 6],
  [128, 128, 128, 0, 128, 128, 128, 2],
  [0, 128, 128, 2, 128, 128, 128, 4],
  [128, 0, 128, 2, 128, 128, 128, 4],
  [0, 2, 128, 4, 128, 128, 128, 6],
  [128, 128, 0, 2, 128, 128, 128, 4],
  [0, 128, 2, 4, 128, 128, 128, 6],
  [128, 0, 2, 4, 128, 128, 128, 6],
  [0, 2, 4, 6, 128, 128, 128, 8],
  [128, 128, 128, 128, 0, 128, 128, 2],
  [0, 128, 128, 128, 2, 128, 128, 4],
  [128, 0, 128, 128, 2, 128, 128, 4],
  [0, 2, 128, 128, 4, 128, 128, 6],
  [128, 128, 0, 128, 2, 128, 128, 4],
  [0, 128, 2, 128, 4, 128, 128, 6],
  [128, 0, 2, 128, 4, 128, 128, 6],
  [0, 2, 4, 128, 6, 128, 128, 8],
  [128, 128, 128, 0, 2, 128, 128, 4],
  [0, 128, 128, 2, 4, 128, 128, 6],
  [128, 0, 128, 2, 4, 128, 128, 6],
  [0, 2, 128, 4, 6, 128, 128, 8],
  [128, 128, 0, 2, 4, 128, 128, 6],
  [0, 128, 2, 4, 6, 128, 128, 8],
  [128, 0, 2, 4, 6, 128, 128, 8],
  [0, 2, 4, 6, 8, 128, 128, 10],
  [128, 128, 128, 128, 128, 0, 128, 2],
  [0, 128, 128, 128, 128, 2, 128, 4],
  [128, 0, 128, 128, 128, 2, 128, 4],
  [0, 2, 128, 128, 128, 4, 128, 6],
  [128, 128, 0, 128, 128, 2, 128, 4],
  [0, 128, 2, 128, 128, 4, 128, 6],
  [128, 0, 2, 128, 128, 4, 128, 6],
  [0, 2, 4, 128, 128, 6, 128, 8],
  [128, 128, 128, 0, 128, 2, 128, 4],
  [0, 128, 128, 2, 128, 4, 128, 6],
  [128, 0, 128, 2, 128, 4, 128, 6],
  [0, 2, 128, 4, 128, 6, 128, 8],
  [128, 128, 0, 2, 128, 4, 128, 6],
  [0, 128, 2, 4, 128, 6, 128, 8],
  [128, 0, 2, 4, 128, 6, 128, 8],
  [0, 2, 4, 6, 128, 8, 128, 10],
  [128, 128, 128, 128, 0, 2, 128, 4],
  [0, 128, 128, 128, 2, 4, 128, 6],
  [128, 0, 128, 128, 2, 4, 128, 6],
  [0, 2, 128, 128, 4, 6, 128, 8],
  [128, 128, 0, 128, 2, 4, 128, 6],
  [0, 128, 2, 128, 4, 6, 128, 8],
  [128, 0, 2, 128, 4, 6, 128, 8],
  [0, 2, 4, 128, 6, 8, 128, 10],
  [128, 128, 128, 0, 2, 4, 128, 6],
  [0, 128, 128, 2, 4, 6, 128, 8],
  [128, 0, 128, 2, 4, 6, 128, 8],
  [0, 2, 128, 4, 6, 8, 128, 10],
  [128, 128, 0, 2, 4, 6, 128, 8],
  [0, 128, 2, 4, 6, 8, 128, 10],
  [128, 0, 2, 4, 6, 8, 128, 10],
  [0, 2, 4, 6, 8, 10, 128, 12],
  [128, 128, 128, 128, 128, 128, 0, 2],
  [0, 128, 128, 128, 128, 128, 2, 4],
  [128, 0, 128, 128, 128, 128, 2, 4],
  [0, 2, 128, 128, 128, 128, 4, 6],
  [128, 128, 0, 128, 128, 128, 2, 4],
  [0, 128, 2, 128, 128, 128, 4, 6],
  [128, 0, 2, 128, 128, 128, 4, 6],
  [0, 2, 4, 128, 128, 128, 6, 8],
  [128, 128, 128, 0, 128, 128, 2, 4],
  [0, 128, 128, 2, 128, 128, 4, 6],
  [128, 0, 128, 2, 128, 128, 4, 6],
  [0, 2, 128, 4, 128, 128, 6, 8],
  [128, 128, 0, 2, 128, 128, 4, 6],
  [0, 128, 2, 4, 128, 128, 6, 8],
  [128, 0, 2, 4, 128, 128, 6, 8],
  [0, 2, 4, 6, 128, 128, 8, 10],
  [128, 128, 128, 128, 0, 128, 2, 4],
  [0, 128, 128, 128, 2, 128, 4, 6],
  [128, 0, 128, 128, 2, 128, 4, 6],
  [0, 2, 128, 128, 4, 128, 6, 8],
  [128, 128, 0, 128, 2, 128, 4, 6],
  [0, 128, 2, 128, 4, 128, 6, 8],
  [128, 0, 2, 128, 4, 128, 6, 8],
  [0, 2, 4, 128, 6, 128, 8, 10],
  [128, 128, 128, 0, 2, 128, 4, 6],
  [0, 128, 128, 2, 4, 128, 6, 8],
  [128, 0, 128, 2, 4, 128, 6, 8],
  [0, 2, 128, 4, 6, 128, 8, 10],
  [128, 128, 0, 2, 4, 128, 6, 8],
  [0, 128, 2, 4, 6, 128, 8, 10],
  [128, 0, 2, 4, 6, 128, 8, 10],
  [0, 2, 4, 6, 8, 128, 10, 12],
  [128, 128, 128, 128, 128, 0, 2, 4],
  [0, 128, 128, 128, 128, 2, 4, 6],
  [128, 0, 128, 128, 128, 2, 4, 6],
  [0, 2, 128, 128, 128, 4, 6, 8],
  [128, 128, 0, 128, 128, 2, 4, 6],
  [0, 128, 2, 128, 128, 4, 6, 8],
  [128, 0, 2, 128, 128, 4, 6, 8],
  [0, 2, 4, 128, 128, 6, 8, 10],
  [128, 128, 128, 0, 128, 2, 4, 6],
  [0, 128, 128, 2, 128, 4, 6, 8],
  [128, 0, 128, 2, 128, 4, 6, 8],
  [0, 2, 128, 4, 128, 6, 8, 10],
  [128, 128, 0, 2, 128, 4, 6, 8],
  [0, 128, 2, 4, 128, 6, 8, 10],
  [128, 0, 2, 4, 128, 6, 8, 10],
  [0, 2, 4, 6, 128, 8, 10, 12],
  [128, 128, 128, 128, 0, 2, 4, 6],
  [0, 128, 128, 128, 2, 4, 6, 8],
  [128, 0, 128, 128, 2, 4, 6, 8],
  [0, 2, 128, 128, 4, 6, 8, 10],
  [128, 128, 0, 128, 2, 4, 6, 8],
  [0, 128, 2, 128, 4, 6, 8, 10],
  [128, 0, 2, 128, 4, 6, 8, 10],
  [0, 2, 4, 128, 6, 8, 10, 12],
  [128, 128, 128, 0, 2, 4, 6, 8],
  [0, 128, 128, 2, 4, 6, 8, 10],
  [128, 0, 128, 2, 4, 6, 8, 10],
  [0, 2, 128, 4, 6, 8, 10, 12],
  [128, 128, 0, 2, 4, 6, 8, 10],
  [0, 128, 2, 4, 6, 8, 10, 12],
  [128, 0, 2, 4, 6, 8, 10, 12],
  [0, 2, 4, 6, 8, 10, 12, 14]]
/-- The nibbles of `Expand` of 32-bit lanes, `generic_ops-inl.h:6705-6709`. -/
def expand32 : List Nat := [0xffff, 0xfff0, 0xff0f, 0xff10, 0xf0ff, 0xf1f0, 0xf10f, 0xf210, 0xfff, 0x1ff0, 0x1f0f, 0x2f10, 0x10ff, 0x21f0, 0x210f, 0x3210]

end Hwy.X86
