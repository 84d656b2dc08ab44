import Verif.GenArith
import Verif.EmuMove

/-!
# Model of the rotations of `hwy/ops/inside-inl.h` and of `BitShuffle` and `MultiRotateRight` of
`hwy/ops/generic_ops-inl.h`

Running on the reference target's operations, on a little-endian machine.
-/

namespace Hwy
namespace Emu
open CInt

/-- `ResizeBitCast` (emu128-inl.h:125-138) from a vector of `bF` bytes to one of `bT` bytes: the bytes that both have
are copied into a zeroed register. -/
def ResizeBitCast (tF tT : Ty) (bF bT : Nat) (v : List Int) : M (List Int) := do
  let bytes ← copyLanes (BitCast tF u8 v) 0 (fresh 0 16) 0 (min bF bT)
  return BitCast u8 tT bytes

/-- `Rol` (inside-inl.h:157-168, 194-205, 231-242, 260-271: 8, 16, 32 and 64 bits). -/
def Rol (ar : Bool) (t : Ty) (N : Nat) (a b : List Int) : M (List Int) := do
  let di := t.signed
  let du := t.unsigned
  let shiftAmtMask ← Set du N ((t.bits : Int) - 1)
  let shlAmt ← And du N (BitCast t du b) shiftAmtMask
  let neg ← Neg di N (BitCast t di b)
  let shrAmt ← And du N (BitCast di du neg) shiftAmtMask
  let vu := BitCast t du a
  let x ← Shl du N vu shlAmt
  let y ← Shr ar du N vu shrAmt
  let r ← Or du N x y
  return BitCast du t r

/-- `Ror` (inside-inl.h:171-182, 208-219, 245-256, 274-285). -/
def Ror (ar : Bool) (t : Ty) (N : Nat) (a b : List Int) : M (List Int) := do
  let di := t.signed
  let du := t.unsigned
  let shiftAmtMask ← Set du N ((t.bits : Int) - 1)
  let shrAmt ← And du N (BitCast t du b) shiftAmtMask
  let neg ← Neg di N (BitCast t di b)
  let shlAmt ← And du N (BitCast di du neg) shiftAmtMask
  let vu := BitCast t du a
  let x ← Shl du N vu shlAmt
  let y ← Shr ar du N vu shrAmt
  let r ← Or du N x y
  return BitCast du t r

/-- `bits & (w - 1)` in `int`, and `static_cast<int>((0u - static_cast<unsigned>(bits)) & (w - 1))`
(inside-inl.h:304-305 and the like). -/
def rotAmt (w : Nat) (bits : Int) : Int := (band ⟨i32, bits⟩ ⟨i32, (w : Int) - 1⟩).v
def negRotAmt (w : Nat) (bits : Int) : M Int := do
  let d ← sub ⟨u32, 0⟩ (CInt.cast u32 ⟨i32, bits⟩)
  return (CInt.cast i32 (band d ⟨u32, (w : Int) - 1⟩)).v

/-- `RotateLeftSame` (inside-inl.h:300-310, 337-348, 374-385, 402-413). -/
def RotateLeftSame (ar : Bool) (t : Ty) (N : Nat) (v : List Int) (bits : Int) : M (List Int) := do
  let du := t.unsigned
  let shlAmt := rotAmt t.bits bits
  let shrAmt ← negRotAmt t.bits bits
  let vu := BitCast t du v
  let x ← ShiftLeft du N shlAmt vu
  let y ← ShiftRight ar du N shrAmt vu
  let r ← Or du N x y
  return BitCast du t r

/-- `RotateRightSame` (inside-inl.h:313-323, 351-362, 388-399, 416-427). -/
def RotateRightSame (ar : Bool) (t : Ty) (N : Nat) (v : List Int) (bits : Int) : M (List Int) := do
  let du := t.unsigned
  let shrAmt := rotAmt t.bits bits
  let shlAmt ← negRotAmt t.bits bits
  let vu := BitCast t du v
  let x ← ShiftLeft du N shlAmt vu
  let y ← ShiftRight ar du N shrAmt vu
  let r ← Or du N x y
  return BitCast du t r

/-- `TableLookupBytes(v, idx)` (emu128-inl.h:2524-2541) of `n` bytes with `n` index bytes, as bytes. -/
def TableBytes (n : Nat) (v idx : List Int) : M (List Int) := TableLookupBytes 0 n n v (idx.map Int.toNat)

/-- `BitShuffle` (generic_ops-inl.h:7840-7883): `N` lanes of `t` (64 bits), indices of type `tI` (8 bits);
`Dup128VecFromValues` (emu128-inl.h:228-234) is the literal vector. -/
def BitShuffle (ar : Bool) (t tI : Ty) (N : Nat) (v idx : List Int) : M (List Int) := do
  let k7 ← Set u8 (8 * N) 0x07
  let unmaskedByteIdx ← ShiftRight ar u8 (8 * N) 3 (BitCast tI u8 idx)
  let byteIdx ← BitwiseIfThenElse u8 (8 * N) k7 unmaskedByteIdx (BitCast u64 u8 [0, 0x0808080808080808])
  let iota ← Iota u8 (8 * N) 0
  let rotateLeftBits ← Sub u8 (8 * N) iota (BitCast tI u8 idx)
  let bytes ← TableBytes (8 * N) (BitCast t u8 v) byteIdx
  let rot ← Rol ar u8 (8 * N) bytes rotateLeftBits
  let mask ← Set u64 N 0x8040201008040201
  let extractedBits ← And u8 (8 * N) rot (BitCast u64 u8 mask)
  let sums ← SumsOf8 u8 (8 * N) extractedBits
  return BitCast u64 t sums

/-- `ZipLower`, `ZipUpper` of bytes (emu128-inl.h:2583-2595). -/
def ZipLower8 (a b : List Int) : M (List Int) := do
  let r ← InterleaveLower 0 16 16 a b
  return BitCast u8 u16 r
def ZipUpper8 (a b : List Int) : M (List Int) := do
  let r ← InterleaveUpper 0 16 8 a b
  return BitCast u8 u16 r

/-- `MultiRotateRight` of one lane (generic_ops-inl.h:7929-7983). -/
def MultiRotateRight1 (ar : Bool) (t tI : Ty) (v idx : List Int) : M (List Int) := do
  let k7 ← Set u8 8 0x07
  let k63 ← Set u8 8 0x3F
  let maskedIdx ← And u8 8 k63 (BitCast tI u8 idx)
  let byteIdx ← ShiftRight ar u8 8 3 maskedIdx
  let one ← Set u8 8 1
  let hiByteIdx ← Add u8 8 byteIdx one
  let idxShift ← And u8 8 k7 maskedIdx
  let wide ← ResizeBitCast t t 8 16 v
  let evenSrc ← DupEven 2 wide
  let lo ← ResizeBitCast u8 u8 8 16 byteIdx
  let hi ← ResizeBitCast u8 u8 8 16 hiByteIdx
  let evenIdx ← InterleaveLower 0 16 16 lo hi
  let evenSegments ← TableBytes 16 (BitCast t u8 evenSrc) evenIdx
  let evenIdxShift ← PromoteInt u8 u16 8 idxShift
  let extracted ← Shr ar u16 8 (BitCast u8 u16 evenSegments) evenIdxShift
  let evenBytes ← ConcatEven 0 16 8 (zero u8) (BitCast u16 u8 extracted)
  LowerHalf 0 2 1 (BitCast u8 t evenBytes)

/-- `MultiRotateRight` of two lanes (generic_ops-inl.h:7985-8060); `InterleaveWholeLower` is `InterleaveLower` for vectors of
one block (generic_ops-inl.h:477-482). -/
def MultiRotateRight2 (ar : Bool) (t tI : Ty) (v idx : List Int) : M (List Int) := do
  let k7 ← Set u8 16 0x07
  let k63 ← Set u8 16 0x3F
  let maskedIdx ← And u8 16 k63 (BitCast tI u8 idx)
  let byteIdx ← ShiftRight ar u8 16 3 maskedIdx
  let one ← Set u8 16 1
  let hiByteIdx ← Add u8 16 byteIdx one
  let idxShift ← And u8 16 k7 maskedIdx
  let evenSrc ← DupEven 2 v
  let evenIdx ← InterleaveLower 0 16 16 byteIdx hiByteIdx
  let evenSegments ← TableBytes 16 (BitCast t u8 evenSrc) evenIdx
  let evenIdxShift ← ZipLower8 idxShift (zero u8)
  let extractedEven ← Shr ar u16 8 (BitCast u8 u16 evenSegments) evenIdxShift
  let oddSrc ← DupOdd 2 v
  let oddIdx ← InterleaveUpper 0 16 8 byteIdx hiByteIdx
  let oddSegments ← TableBytes 16 (BitCast t u8 oddSrc) oddIdx
  let oddIdxShift ← ZipUpper8 idxShift (zero u8)
  let extractedOdd ← Shr ar u16 8 (BitCast u8 u16 oddSegments) oddIdxShift
  let evenBytes ← ConcatEven 0 16 8 (zero u8) (BitCast u16 u8 extractedEven)
  let oddBytes ← ConcatEven 0 16 8 (zero u8) (BitCast u16 u8 extractedOdd)
  InterleaveLower 0 2 2 (BitCast u8 t evenBytes) (BitCast u8 t oddBytes)

/-- `MultiRotateRight` of `N` lanes. -/
def MultiRotateRight (ar : Bool) (t tI : Ty) (N : Nat) (v idx : List Int) : M (List Int) :=
  if N = 1 then MultiRotateRight1 ar t tI v idx else MultiRotateRight2 ar t tI v idx

end Emu
end Hwy
