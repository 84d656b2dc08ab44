import Verif.X86V256
import Verif.X86V256Tables
import Verif.X86Mask

/-!
# Masks and bits, `Compress` and `Expand` of 256-bit AVX2 vectors

`hwy/ops/x86_256-inl.h`, the AVX2 branches. Mask bits are natural numbers below `2^32`, memory is a function from
lane or byte offsets to values, as in `X86Mask.lean`.
-/

namespace Hwy.X86.V256

/-! ### Instructions -/

/-- `_mm256_movemask_epi8/ps/pd` (`w = 8, 32, 64`), as an unsigned number. -/
def movemaskQ (w : Nat) (r : M256) : Nat := movemask w r.lo ||| (movemask w r.hi <<< (128 / w))
/-- `_pext_u32` (BMI2): the bits of `a` selected by `mask`, packed. -/
def pext32 (a mask : Nat) : Nat := (BitVec.ofBoolListLE (((List.range 32).filter mask.testBit).map a.testBit)).toNat
/-- `Set`, `x86_256-inl.h:309-339`. -/
def setQ (w : Nat) (x : BitVec w) : M256 := dup128 (set w x)
/-- `LoadU` of a whole vector at offset `p`. -/
def LoadUQ (w : Nat) (mem : Mem w) (p : Nat) : M256 := ⟨LoadU w (128 / w) mem p, LoadU w (128 / w) mem (p + 128 / w)⟩
/-- `StoreU` of a whole vector. -/
def StoreUQ (w : Nat) (v : M256) (mem : Mem w) : Mem w := fun i => if i < 256 / w then lane256 w i v else mem i
/-- `Store`/`StoreU` of a 128-bit vector at offset `p`. -/
def storeAt (w : Nat) (v : M128) (p : Nat) (mem : Mem w) : Mem w :=
  fun i => if p ≤ i ∧ i < p + 128 / w then lane w (i - p) v else mem i

/-! ### Masks and bits -/

/-- Mask `Not`, `x86_256-inl.h:1193-1197`. -/
def NotQ (m : M256) : M256 := blk1 Not m
/-- `TestBit`, `x86_256-inl.h:1520-1524`. -/
def TestBit (w : Nat) (v bit : M256) : M256 := blk2 (cmpeq w) (blk2 pand v bit) bit
/-- `detail::LoadMaskBits256`, `x86_256-inl.h:7817-7863`. -/
def LoadMaskBits256 (w mask_bits : Nat) : M256 :=
  if w = 8 then
    let vbits := setQ 32 (BitVec.ofNat 32 mask_bits)
    let kRep8 := ofLanes 64 [0x0000000000000000, 0x0101010101010101, 0x0202020202020202, 0x0303030303030303]
    let rep8 := TableLookupBytes vbits kRep8
    let bit := dup128 (ofBytes [1, 2, 4, 8, 16, 32, 64, 128, 1, 2, 4, 8, 16, 32, 64, 128])
    TestBit 8 rep8 bit
  else if w = 16 then
    TestBit 16 (setQ 16 (BitVec.ofNat 16 mask_bits))
      (ofLanes 16 [1, 2, 4, 8, 16, 32, 64, 128, 0x100, 0x200, 0x400, 0x800, 0x1000, 0x2000, 0x4000, 0x8000])
  else if w = 32 then TestBit 32 (setQ 32 (BitVec.ofNat 32 mask_bits)) (ofLanes 32 [1, 2, 4, 8, 16, 32, 64, 128])
  else TestBit 64 (setQ 64 (BitVec.ofNat 64 mask_bits)) (ofLanes 64 [1, 2, 4, 8])
/-- `CopyBytes<kNumBytes>(bits, &mask_bits)` and the masking of unused bits, `x86_256-inl.h:7873-7878, 8273-8278, 8346-8351`. -/
def bitsFromBytesQ (kN : Nat) (bits : Mem 8) : Nat :=
  let mask_bits := (List.range ((kN + 7) / 8)).foldr (fun j acc => acc ||| (bits j).toNat <<< (8 * j)) 0
  if kN < 8 then mask_bits &&& (2 ^ kN - 1) else mask_bits
/-- `LoadMaskBits`, `x86_256-inl.h:7867-7881`. -/
def LoadMaskBits (w : Nat) (bits : Mem 8) : M256 := LoadMaskBits256 w (bitsFromBytesQ (256 / w) bits)
/-- `BitsFromMask`, `x86_256-inl.h:7885-7927`; `bmi2`: neither `HWY_DISABLE_BMI2_FMA` nor `HWY_DISABLE_PEXT_ON_AVX2`. -/
def BitsFromMask (bmi2 : Bool) (w : Nat) (mask : M256) : Nat :=
  if w = 16 then
    if bmi2 then pext32 (movemaskQ 8 mask) 0xAAAAAAAA
    else
      let sign_bits := blk2 (packs 16) mask zero256
      let compressed := castsi256 (permute4x64 sign_bits (MM_SHUFFLE 3 1 2 0))
      movemask 8 compressed
  else movemaskQ w mask
/-- `StoreMaskBits`, `x86_256-inl.h:7931-7939`: the bytes written and their number. -/
def StoreMaskBits (bmi2 : Bool) (w : Nat) (mask : M256) (bits : Mem 8) : Mem 8 × Nat :=
  let kNumBytes := (256 / w + 7) / 8
  let mask_bits := BitsFromMask bmi2 w mask
  (fun i => if i < kNumBytes then BitVec.ofNat 8 (mask_bits >>> (8 * i)) else bits i, kNumBytes)
/-- `AllFalse`, `x86_256-inl.h:7945-7956`. -/
def AllFalse (bmi2 : Bool) (w : Nat) (mask : M256) : Bool :=
  if w = 16 then BitsFromMask bmi2 8 mask == 0 else BitsFromMask bmi2 w mask == 0
/-- `AllTrue`, `x86_256-inl.h:7958-7968`. -/
def AllTrue (bmi2 : Bool) (w : Nat) (mask : M256) : Bool :=
  if w = 16 then BitsFromMask bmi2 8 mask == 2 ^ 32 - 1 else BitsFromMask bmi2 w mask == 2 ^ (256 / w) - 1
/-- `CountTrue`, `x86_256-inl.h:7970-7979`. -/
def CountTrue (bmi2 : Bool) (w : Nat) (mask : M256) : Nat :=
  if w = 16 then popcnt (BitsFromMask bmi2 8 mask) >>> 1 else popcnt (BitsFromMask bmi2 w mask)
/-- `FindKnownFirstTrue`, `x86_256-inl.h:7981-7985`. -/
def FindKnownFirstTrue (bmi2 : Bool) (w : Nat) (mask : M256) : Nat := ctz (BitVec.ofNat 32 (BitsFromMask bmi2 w mask))
/-- `FindFirstTrue`, `x86_256-inl.h:7987-7991`. -/
def FindFirstTrue (bmi2 : Bool) (w : Nat) (mask : M256) : Int :=
  let mask_bits := BitsFromMask bmi2 w mask
  if mask_bits ≠ 0 then (ctz (BitVec.ofNat 32 mask_bits) : Nat) else -1
/-- `FindKnownLastTrue`, `x86_256-inl.h:7993-7997`. -/
def FindKnownLastTrue (bmi2 : Bool) (w : Nat) (mask : M256) : Nat :=
  31 - (31 - bsr (BitVec.ofNat 32 (BitsFromMask bmi2 w mask)))
/-- `FindLastTrue`, `x86_256-inl.h:7999-8004`. -/
def FindLastTrue (bmi2 : Bool) (w : Nat) (mask : M256) : Int :=
  let mask_bits := BitsFromMask bmi2 w mask
  if mask_bits ≠ 0 then ((31 - (31 - bsr (BitVec.ofNat 32 mask_bits)) : Nat) : Int) else -1
/-- `FirstN`, `x86_256-inl.h:1862-1882`: a signed comparison with `Iota0`. -/
def FirstN (w n : Nat) : M256 := blk2 (cmpgt w) (setQ w (BitVec.ofNat w (min n (256 / w)))) (Iota w 0#w)
/-- `Dup128MaskFromMaskBits`, `x86_256-inl.h:8366-8371`; `CombineMasks` is `Combine` of the mask vectors. -/
def Dup128MaskFromMaskBits (w mask_bits : Nat) : M256 :=
  let mh := X86.Dup128MaskFromMaskBits .avx2 w 16 mask_bits
  Combine mh mh
/-- `BlendedStore`, `x86_256-inl.h:3759-3809`; `VPMASKMOVD/Q` look at the top bit of each mask lane. -/
def BlendedStore (w : Nat) (v m : M256) (mem : Mem w) : Mem w :=
  if w = 8 ∨ w = 16 then fun i => if i < 256 / w ∧ lane256 w i m ≠ 0#w then lane256 w i v else mem i
  else fun i => if i < 256 / w ∧ (lane256 w i m).msb = true then lane256 w i v else mem i

/-! ### Compress -/

/-- The per-lane shifts that extract nibbles. -/
def shiftsQ (w : Nat) : M256 := ofLanes w [0, 4, 8, 12, 16, 20, 24, 28]
/-- `detail::IndicesFromBits256`, `x86_256-inl.h:8009-8089`. -/
def IndicesFromBits256 (w mask_bits : Nat) : M256 :=
  if w = 32 then blk2 (srlv 32) (setQ 32 (BitVec.ofNat 32 (compress32x8.getD mask_bits 0))) (shiftsQ 32)
  else ofLanes 32 ((compress64x4.drop (8 * mask_bits)).take 8)
/-- `detail::IndicesFromNotBits256`, `x86_256-inl.h:8091-8175`. -/
def IndicesFromNotBits256 (w mask_bits : Nat) : M256 :=
  if w = 32 then blk2 (srlv 32) (setQ 32 (BitVec.ofNat 32 (compressNot32x8.getD mask_bits 0))) (shiftsQ 32)
  else ofLanes 32 ((compressNot64x4.drop (8 * mask_bits)).take 8)
/-- `detail::Compress` of 16-bit lanes, `x86_256-inl.h:8189-8226`. -/
def Compress16 (v : M256) (mask_bits : Nat) : M256 :=
  let half0 := LowerHalf v
  let half1 := UpperHalf v
  let mask_bits0 := mask_bits &&& 0xFF
  let mask_bits1 := mask_bits >>> 8
  let compressed0 := CompressBitsInt .avx2 16 16 half0 mask_bits0
  let compressed1 := CompressBitsInt .avx2 16 16 half1 mask_bits1
  let num_true0 := popcnt mask_bits0
  let all_true := storeAt 16 compressed1 num_true0 (storeAt 16 compressed0 0 (fun _ => 0#16))
  let num_true1 := popcnt mask_bits1
  let all_false := storeAt 16 compressed0 num_true1 (storeAt 16 compressed1 8 (fun _ => 0#16))
  let mask := FirstN 16 (num_true0 + num_true1)
  IfThenElse mask (LoadUQ 16 all_true 0) (LoadUQ 16 all_false 0)
/-- `detail::Compress`, `x86_256-inl.h:8177-8226`. -/
def CompressInt (w : Nat) (v : M256) (mask_bits : Nat) : M256 :=
  if w = 16 then Compress16 v mask_bits else TableLookupLanes 32 v (IndicesFromBits256 w mask_bits)
/-- `detail::CompressNot`, `x86_256-inl.h:8228-8247`. -/
def CompressNotInt (w : Nat) (v : M256) (mask_bits : Nat) : M256 :=
  if w = 16 then CompressInt 16 v (mask_bits ^^^ 0xFFFF) else TableLookupLanes 32 v (IndicesFromNotBits256 w mask_bits)
/-- `Compress`, `x86_256-inl.h:8251-8255`. -/
def Compress (bmi2 : Bool) (w : Nat) (v m : M256) : M256 := CompressInt w v (BitsFromMask bmi2 w m)
/-- `CompressNot`, `x86_256-inl.h:8257-8261`. -/
def CompressNot (bmi2 : Bool) (w : Nat) (v m : M256) : M256 := CompressNotInt w v (BitsFromMask bmi2 w m)
/-- `CompressBlocksNot`, `x86_256-inl.h:8263-8266`. -/
def CompressBlocksNot (bmi2 : Bool) (v m : M256) : M256 := CompressNot bmi2 64 v m
/-- `CompressBits`, `x86_256-inl.h:8268-8281`. -/
def CompressBits (w : Nat) (v : M256) (bits : Mem 8) : M256 := CompressInt w v (bitsFromBytesQ (256 / w) bits)
/-- `CompressStore`, `x86_256-inl.h:8285-8293`. -/
def CompressStore (bmi2 : Bool) (w : Nat) (v m : M256) (mem : Mem w) : Mem w × Nat :=
  let mask_bits := BitsFromMask bmi2 w m
  let count := popcnt mask_bits
  (StoreUQ w (CompressInt w v mask_bits) mem, count)
/-- `CompressBlendedStore`, `x86_256-inl.h:8295-8338` (without MSAN): of 32- and 64-bit lanes the top bit of each nibble
becomes the mask of the store. -/
def CompressBlendedStore (bmi2 : Bool) (w : Nat) (v m : M256) (mem : Mem w) : Mem w × Nat :=
  let mask_bits := BitsFromMask bmi2 w m
  let count := popcnt mask_bits
  if w = 16 then
    let compressed := CompressInt w v mask_bits
    (BlendedStore w compressed (FirstN w count) mem, count)
  else
    let idx_mask := IndicesFromBits256 w mask_bits
    let mask := blk1 (slli 32 28) idx_mask
    let compressed := TableLookupLanes 32 v idx_mask
    (BlendedStore w compressed mask mem, count)
/-- `CompressBitsStore`, `x86_256-inl.h:8340-8358`. -/
def CompressBitsStore (w : Nat) (v : M256) (bits : Mem 8) (mem : Mem w) : Mem w × Nat :=
  let mask_bits := bitsFromBytesQ (256 / w) bits
  let count := popcnt mask_bits
  (StoreUQ w (CompressInt w v mask_bits) mem, count)

/-- `CompressBitsStore` of bytes, `generic_ops-inl.h:5897-6046`, on 32 lanes. -/
def CompressBitsStore8 (v : M256) (bits : Mem 8) (mem : Mem 8) : Mem 8 × Nat :=
  let lanes : Mem 8 := fun i => lane256 8 i v
  let r := (List.range 4).foldl (compress8Step .avx2 32 lanes bits) (0, mem)
  (r.2, r.1)
/-- `CompressStore` of bytes, `generic_ops-inl.h:6048-6053`; `u` is the uninitialised array. -/
def CompressStore8 (bmi2 : Bool) (v mask : M256) (u mem : Mem 8) : Mem 8 × Nat :=
  CompressBitsStore8 v (StoreMaskBits bmi2 8 mask u).1 mem
/-- `CompressBlendedStore` of bytes, `generic_ops-inl.h:6055-6062`. -/
def CompressBlendedStore8 (bmi2 : Bool) (v mask : M256) (u u2 mem : Mem 8) : Mem 8 × Nat :=
  let r := CompressStore8 bmi2 v mask u u2
  (BlendedStore 8 (LoadUQ 8 r.1 0) (FirstN 8 r.2) mem, r.2)
/-- `Compress` of bytes, `generic_ops-inl.h:6065-6071`. -/
def Compress8 (bmi2 : Bool) (v mask : M256) (u u2 : Mem 8) : M256 := LoadUQ 8 (CompressStore8 bmi2 v mask u u2).1 0
/-- `CompressBits` of bytes, `generic_ops-inl.h:6073-6079`. -/
def CompressBits8 (v : M256) (bits u : Mem 8) : M256 := LoadUQ 8 (CompressBitsStore8 v bits u).1 0
/-- `CompressNot` of bytes, `generic_ops-inl.h:6081-6084`. -/
def CompressNot8 (bmi2 : Bool) (v mask : M256) (u u2 : Mem 8) : M256 := Compress8 bmi2 v (NotQ mask) u u2

/-! ### Expand -/

/-- `Expand` of bytes, `x86_256-inl.h:8432-8458`. -/
def Expand8 (bmi2 : Bool) (v mask : M256) : M256 :=
  let mask_bits := BitsFromMask bmi2 8 mask
  let countL := popcnt (mask_bits &&& (2 ^ 16 - 1))
  let maskL := LowerHalf mask
  let expandL := X86.Expand .avx2 false 8 16 (LowerHalf v) maskL
  let lanes : Mem 8 := fun i => lane256 8 i v
  let maskH := UpperHalf mask
  let expandH := X86.Expand .avx2 false 8 16 (LoadU 8 16 lanes countL) maskH
  Combine expandH expandL
/-- `Expand` of 16-bit lanes, `x86_256-inl.h:8463-8485`. -/
def Expand16 (v mask : M256) : M256 :=
  let maskL := LowerHalf mask
  let expandL := X86.Expand .avx2 false 16 16 (LowerHalf v) maskL
  let lanes : Mem 16 := fun i => lane256 16 i v
  let vH := LoadU 16 8 lanes (X86.CountTrue 16 16 maskL)
  let maskH := UpperHalf mask
  let expandH := X86.Expand .avx2 false 16 16 vH maskH
  Combine expandH expandL
/-- `IfThenElseZero`, `x86_256-inl.h:1169-1172`. -/
def IfThenElseZero (mask yes : M256) : M256 := blk2 pand yes mask
/-- `Expand` of 32-bit lanes, `x86_256-inl.h:8489-8557`. -/
def Expand32 (bmi2 : Bool) (v mask : M256) : M256 :=
  let mask_bits := BitsFromMask bmi2 32 mask
  let packed := setQ 32 (BitVec.ofNat 32 (expand32x8.getD mask_bits 0))
  let indices := blk2 (srlv 32) packed (shiftsQ 32)
  let expand := TableLookupLanes 32 v indices
  IfThenElseZero mask expand
/-- `Expand` of 64-bit lanes, `x86_256-inl.h:8559-8593`. -/
def Expand64 (bmi2 : Bool) (v mask : M256) : M256 :=
  let mask_bits := BitsFromMask bmi2 64 mask
  let packed := setQ 64 (BitVec.ofNat 64 (expand64x4.getD mask_bits 0))
  let masked := blk2 pand (blk2 (srlv 64) packed (shiftsQ 64)) (setQ 64 3#64)
  let indices := IndicesFromVec 64 masked
  let expand := TableLookupLanes 64 v indices
  IfThenElseZero mask expand
/-- `Expand`, `x86_256-inl.h:8432-8593`. -/
def Expand (bmi2 : Bool) (w : Nat) (v mask : M256) : M256 :=
  if w = 8 then Expand8 bmi2 v mask
  else if w = 16 then Expand16 v mask
  else if w = 32 then Expand32 bmi2 v mask
  else Expand64 bmi2 v mask
/-- `LoadExpand`, `x86_256-inl.h:8597-8626`. -/
def LoadExpand (bmi2 : Bool) (w : Nat) (mask : M256) (mem : Mem w) : M256 := Expand bmi2 w (LoadUQ w mem 0) mask

end Hwy.X86.V256
