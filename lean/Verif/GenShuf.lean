import Verif.GenRot
import Verif.GenDot
import Verif.EmuMask

/-!
# Model of the shuffles and slides of `hwy/ops/generic_ops-inl.h` that are built from other operations

Running on the reference target's operations, on a little-endian machine.
-/

namespace Hwy
namespace Emu
open CInt

/-! ### Per4LaneBlockShuffle -/

/-- `detail::U8x4Per4LaneBlkIndices` (generic_ops-inl.h:7001-7011), of arguments at most 3: nothing is shifted out of the
`uint32_t`. -/
def u8x4 (i3 i2 i1 i0 : Nat) : Nat := (i3 <<< 24) ||| (i2 <<< 16) ||| (i1 <<< 8) ||| i0

/-- `detail::TblLookupPer4LaneBlkIdxInBlk` (generic_ops-inl.h:7098-7157, with 6946-6968 and 7013-7028) of `N` unsigned lanes of 8, 16 and 32 bits;
the overload for 64 bits is not instantiated, because a 128-bit vector has at most two such lanes. -/
def idxInBlk (t : Ty) (N : Nat) (i3 i2 i1 i0 : Nat) : M (List Int) :=
  if t.bits = 8 then do
    let w ← Set u32 (N / 4) (u8x4 i3 i2 i1 i0)
    ResizeBitCast u32 u8 N N w
  else if t.bits = 16 then
    ResizeBitCast u16 u16 16 (2 * N) [(i0 : Int), i1, i2, i3, i0, i1, i2, i3]
  else ResizeBitCast u32 u32 16 (4 * N) [(i0 : Int), i1, i2, i3]

/-- `detail::TblLookupPer4LaneBlkShufIdx` (generic_ops-inl.h:7159-7182). -/
def tblIdx (t : Ty) (N : Nat) (i3 i2 i1 i0 : Nat) : M (List Int) := do
  let du := t.unsigned
  let idx0 ← idxInBlk t N i3 i2 i1 i0
  let inBlk ← if N < 4 then do
      let m ← Set du N ((N : Int) - 1)
      And du N idx0 m
    else pure idx0
  let iota ← Iota du N 0
  let m ← Set du N (du.wrap (-4))
  let blk ← And du N iota m
  let s ← Add du N inBlk blk
  IndicesFromVec t N s

/-- `detail::TblLookupPer4LaneBlkShuf` (generic_ops-inl.h:7191-7200, with 7184-7187). -/
def tblShuf (t : Ty) (N : Nat) (tag : Nat) (v : List Int) : M (List Int) := do
  let idx ← tblIdx t N ((tag >>> 6) &&& 3) ((tag >>> 4) &&& 3) ((tag >>> 2) &&& 3) (tag &&& 3)
  TableLookupLanes 0 (cap t) N v idx

/-- `detail::Per4LaneBlockShufCastToWide` (generic_ops-inl.h:7212-7238): the lane type twice as wide; which of the types of that
width it is does not change the bits. -/
def wideOf (t : Ty) : Ty := ⟨2 * t.bits, t.sgn⟩

/-- `detail::Per4LaneBlockShuffle(idx_3210_tag, v)` (generic_ops-inl.h:7203-7337): the overloads for particular tags and the
table lookup. -/
def detailPer4 (t : Ty) (N : Nat) (tag : Nat) (v : List Int) : M (List Int) :=
  if tag = 0x1B then Reverse4 0 (cap t) N v
  else if tag = 0x44 ∧ t.bits ≤ 32 then do
    let r ← DupEven (N / 2) (BitCast t (wideOf t) v)
    return BitCast (wideOf t) t r
  else if tag = 0x4E ∧ t.bits ≤ 32 then do
    let r ← Reverse2 0 (cap (wideOf t)) (N / 2) (BitCast t (wideOf t) v)
    return BitCast (wideOf t) t r
  else if tag = 0x50 ∧ ((N = 4 ∧ t.bits ≤ 16) ∨ t.bits = 32) then InterleaveLower 0 (cap t) N v v
  else if tag = 0x88 ∧ N = 4 then ConcatEven 0 (cap t) (N / 2) v v
  else if tag = 0xA0 then DupEven N v
  else if tag = 0xB1 then Reverse2 0 (cap t) N v
  else if tag = 0xDD ∧ N = 4 then ConcatOdd 0 (cap t) (N / 2) v v
  else if tag = 0xE4 then pure v
  else if tag = 0xEE ∧ t.bits ≤ 32 then do
    let r ← DupOdd (N / 2) (BitCast t (wideOf t) v)
    return BitCast (wideOf t) t r
  else if tag = 0xF5 then DupOdd N v
  else if tag = 0xFA ∧ t.bits = 32 then InterleaveUpper 0 (cap t) (N / 2) v v
  else tblShuf t N tag v

/-- `detail::Per2LaneBlockShuffle` (generic_ops-inl.h:6977-6999). -/
def detailPer2 (t : Ty) (idx10 : Nat) (v : List Int) : M (List Int) :=
  if idx10 = 0 then DupEven 2 v
  else if idx10 = 1 then Reverse2 0 (cap t) 2 v
  else if idx10 = 2 then pure v
  else DupOdd 2 v

/-- `Per4LaneBlockShuffle<kIdx3, kIdx2, kIdx1, kIdx0>` (generic_ops-inl.h:7342-7390). -/
def Per4LaneBlockShuffle (t : Ty) (N : Nat) (i3 i2 i1 i0 : Nat) (v : List Int) : M (List Int) :=
  if N = 1 then pure v
  else if N = 2 then
    let isReverse2 : Bool := (i0 == 1 || i1 == 0) && i0 != i1
    let p0 := if i0 ≤ 1 then i0 else if isReverse2 then 1 else 0
    let p1 := if i1 ≤ 1 then i1 else if isReverse2 then 0 else 1
    detailPer2 t ((p1 <<< 1) ||| p0) v
  else detailPer4 t N ((i3 <<< 6) ||| (i2 <<< 4) ||| (i1 <<< 2) ||| i0) v

/-! ### PairwiseAdd128, PairwiseSub128 -/

/-- `detail::BlockwiseConcatOddEven` (generic_ops-inl.h:7429-7474) of a full vector. -/
def BlockwiseConcatOddEven (t : Ty) (v : List Int) : M (List Int) :=
  if t.bits = 8 then do
    let r ← TableBytes 16 (BitCast t u8 v) [0, 2, 4, 6, 8, 10, 12, 14, 1, 3, 5, 7, 9, 11, 13, 15]
    return BitCast u8 t r
  else if t.bits = 16 then do
    let r ← TableBytes 16 (BitCast t u8 v) [0, 1, 4, 5, 8, 9, 12, 13, 2, 3, 6, 7, 10, 11, 14, 15]
    return BitCast u8 t r
  else if t.bits = 32 then Per4LaneBlockShuffle t 4 3 1 2 0 v
  else pure v

/-- `PairwiseAdd128`, `PairwiseSub128` (generic_ops-inl.h:7475-7478), full vectors only. -/
def PairwiseAdd128 (t : Ty) (a b : List Int) : M (List Int) := do
  let r ← PairwiseAdd t (cap t) a b
  BlockwiseConcatOddEven t r
def PairwiseSub128 (t : Ty) (a b : List Int) : M (List Int) := do
  let r ← PairwiseSub t (cap t) a b
  BlockwiseConcatOddEven t r

/-! ### Slides -/

/-- `ShiftLeftLanes<k>` (emu128-inl.h:1610-1620) of `N` lanes of `t`. -/
def ShlLanes (t : Ty) (N k : Nat) (v : List Int) : M (List Int) := do
  let r ← ShiftLeftBytes 0 (t.bits / 8 * N) (k * (t.bits / 8)) (BitCast t u8 v)
  return BitCast u8 t r
/-- `ShiftRightLanes<k>` (emu128-inl.h:1636-1642). -/
def ShrLanes (t : Ty) (N k : Nat) (v : List Int) : M (List Int) := do
  let r ← ShiftRightBytes 0 (t.bits / 8 * N) (k * (t.bits / 8)) (BitCast t u8 v)
  return BitCast u8 t r
/-- `CombineShiftRightLanes<k>` (generic_ops-inl.h:65-70). -/
def CombineShrLanes (t : Ty) (N k : Nat) (hi lo : List Int) : M (List Int) := do
  let r ← CombineShiftRightBytes 0 (t.bits / 8 * N) (k * (t.bits / 8)) (BitCast t u8 hi) (BitCast t u8 lo)
  return BitCast u8 t r

/-- `Slide1Up`, `Slide1Down` (generic_ops-inl.h:7541-7559). -/
def Slide1Up (t : Ty) (N : Nat) (v : List Int) : M (List Int) := if N = 1 then pure (zero t) else ShlLanes t N 1 v
def Slide1Down (t : Ty) (N : Nat) (v : List Int) : M (List Int) := if N = 1 then pure (zero t) else ShrLanes t N 1 v

/-- `SlideMask1Up`, `SlideMask1Down`, `SlideMaskUpLanes`, `SlideMaskDownLanes` (generic_ops-inl.h:7612-7630). -/
def SlideMask1Up (t : Ty) (N : Nat) (m : List Int) : M (List Int) := do
  let r ← Slide1Up t N (vecFromMask t m)
  return maskFromVec t r
def SlideMask1Down (t : Ty) (N : Nat) (m : List Int) : M (List Int) := do
  let r ← Slide1Down t N (vecFromMask t m)
  return maskFromVec t r
def SlideMaskUpLanes (t : Ty) (N : Nat) (m : List Int) (amt : Nat) : M (List Int) := do
  let r ← SlideUpLanes 0 (cap t) N (vecFromMask t m) amt
  return maskFromVec t r
def SlideMaskDownLanes (t : Ty) (N : Nat) (m : List Int) (amt : Nat) : M (List Int) := do
  let r ← SlideDownLanes 0 (cap t) N (vecFromMask t m) amt
  return maskFromVec t r

/-- `BroadcastLane<k>` (generic_ops-inl.h:7528-7531); `InsertBlock<0>`, `ExtractBlock<0>`, `BroadcastBlock<0>`,
`SlideUpBlocks<0>`, `SlideDownBlocks<0>` (7497-7516, 7565-7569, 7584-7588) return their (last) argument. -/
def BroadcastLane (N k : Nat) (v : List Int) : M (List Int) := Broadcast N k v

/-- `InsertIntoUpper` (generic_ops-inl.h:361-368): `N = 2 * H` lanes, `p` the memory. -/
def InsertIntoUpper (t : Ty) (H : Nat) (p a : List Int) : M (List Int) := do
  let b ← Load 0 (cap t) H p
  let lo ← LowerHalf 0 (cap t) H a
  Combine 0 (cap t) H b lo

/-! ### Constants and tests of all bits -/

/-- `MaskedSetOr`, `MaskedSet` (generic_ops-inl.h:102-114). -/
def MaskedSetOr (t : Ty) (N : Nat) (no m : List Int) (a : Int) : M (List Int) := do
  let s ← Set t N a
  IfThenElse t N m s no
def MaskedSet (t : Ty) (N : Nat) (m : List Int) (a : Int) : M (List Int) := do
  let s ← Set t N a
  IfThenElseZero t N m s
/-- `MaskedOr` (generic_ops-inl.h:7887-7890). -/
def MaskedOr (t : Ty) (N : Nat) (m a b : List Int) : M (List Int) := do
  let s ← Or t N a b
  IfThenElseZero t N m s
/-- `SignBit` (generic_ops-inl.h:75-79), with `SignMask` (base.h). -/
def SignBit (t : Ty) (N : Nat) : M (List Int) := do
  let s ← Set t.unsigned N (2 ^ (t.bits - 1))
  return BitCast t.unsigned t s
/-- `AllBits1` (generic_ops-inl.h:7899-7904). -/
def AllBits1 (t : Ty) (N : Nat) (v : List Int) : M Bool := do
  let s ← Set t.unsigned N t.unsigned.hi
  let m ← Eq t.unsigned N (BitCast t t.unsigned v) s
  AllTrue t.unsigned N m
/-- `AllBits0` (generic_ops-inl.h:7914-7917), of integers. -/
def AllBits0 (t : Ty) (N : Nat) (v : List Int) : M Bool := do
  let m ← Eq t N v (zero t)
  AllTrue t N m

/-! ### Sums of absolute differences of groups of four bytes -/

/-- `SumsOfAdjQuadAbsDiff<kA, kB>` (generic_ops-inl.h:7646-7729) of `N` bytes of type `t`; the vector `d8_interleave` has
`L = max(N, 8 << kA)` lanes. -/
def SumsOfAdjQuadAbsDiff (ar : Bool) (t : Ty) (N kA kB : Nat) (a b : List Int) : M (List Int) := do
  let L := max N (8 <<< kA)
  let d16 : Ty := ⟨16, t.sgn⟩
  let ai ← ResizeBitCast t t N L a
  let lo ← InterleaveLower 0 16 L ai ai
  let hi ← InterleaveUpper 0 16 (L / 2) ai ai
  let c01 ← CombineShiftRightBytes 0 L (kA * 8 + 1) (BitCast t u8 hi) (BitCast t u8 lo)
  let a01 ← ResizeBitCast t t L N (BitCast u8 t c01)
  let c23 ← CombineShiftRightBytes 0 L (kA * 8 + 5) (BitCast t u8 hi) (BitCast t u8 lo)
  let a23 ← ResizeBitCast t t L N (BitCast u8 t c23)
  let b01 ← Broadcast (N / 2) (kB * 2) (BitCast t d16 b)
  let b23 ← Broadcast (N / 2) (kB * 2 + 1) (BitCast t d16 b)
  let d01 ← AbsDiff t N a01 (BitCast d16 t b01)
  let s01 ← SumsOf2 ar u8 (N / 2) (BitCast t u8 d01)
  let d23 ← AbsDiff t N a23 (BitCast d16 t b23)
  let s23 ← SumsOf2 ar u8 (N / 2) (BitCast t u8 d23)
  let s ← Add u16 (N / 2) s01 s23
  return BitCast u16 d16 s

/-- `SumsOfShuffledQuadAbsDiff<i3, i2, i1, i0>` (generic_ops-inl.h:7745-7826) of `N` bytes of type `t`. -/
def SumsOfShuffledQuadAbsDiff (ar : Bool) (t : Ty) (N i3 i2 i1 i0 : Nat) (a b : List Int) : M (List Int) := do
  let d16 : Ty := ⟨16, t.sgn⟩
  let d32 : Ty := ⟨32, t.sgn⟩
  let shuf ← Per4LaneBlockShuffle d32 (N / 4) i3 i2 i1 i0 (BitCast t d32 a)
  let l2 ← ShiftLeftBytes 0 N 2 (BitCast d32 u8 shuf)
  let e ← OddEven (N / 4) (BitCast u8 d32 l2) shuf
  let l1 ← ShiftLeftBytes 0 N 1 (BitCast d32 u8 shuf)
  let r1 ← ShiftRightBytes 0 N 1 (BitCast d32 u8 shuf)
  let o ← OddEven (N / 4) (BitCast u8 d32 l1) (BitCast u8 d32 r1)
  let de ← AbsDiff t N (BitCast d32 t e) b
  let es ← SumsOf4 ar u8 (N / 4) (BitCast t u8 de)
  let dO ← AbsDiff t N (BitCast d32 t o) b
  let os ← SumsOf4 ar u8 (N / 4) (BitCast t u8 dO)
  let os ← ShiftLeft u32 (N / 4) 16 os
  OddEven (N / 2) (BitCast u32 d16 os) (BitCast u32 d16 es)

end Emu
end Hwy
