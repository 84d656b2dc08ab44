import Verif.X86CompressTables
import Verif.X86Lookup
import Verif.X86Shift
import Verif.BaseArith

/-!
# Masks and bits, `Compress` and `Expand` on the x86 128-bit targets

Mask bits are natural numbers: all of them are below `2^16`, so no 32- or 64-bit integer wraps. `sz` is the size of the
vector in bytes; `kN = sz / (w / 8)` its lanes. Memory is a function from byte or lane offsets (relative to the pointer passed
in) to values.
-/

namespace Hwy.X86

/-! ## Instructions and builtins -/

/-- `PMOVMSKB`, `MOVMSKPS`, `MOVMSKPD` (`w = 8, 32, 64`): the most significant bit of every lane. -/
def movemask (w : Nat) (r : M128) : Nat := (BitVec.ofBoolListLE ((List.range (128 / w)).map (fun i => (lane w i r).msb))).toNat
/-- `__builtin_popcount`, behind `PopCount` (`base.h:2824-2868`; the portable variants are proved equal in C06). -/
def popcnt (b : Nat) : Nat := ((List.range 64).filter b.testBit).length
/-- Memory of lanes of `w` bits. -/
abbrev Mem (w : Nat) := Nat → BitVec w
/-- `StoreU` of `n` lanes. -/
def StoreU (w n : Nat) (v : M128) (mem : Mem w) : Mem w := fun i => if i < n then lane w i v else mem i
/-- `LoadU` of `n` lanes from offset `p`; the rest of the register is zero. -/
def LoadU (w n : Nat) (mem : Mem w) (p : Nat) : M128 := mk w (fun i => if i < n then mem (p + i) else 0#w)

/-! ## Mask bits -/

/-- `detail::LoadMaskBits128`, `x86_128-inl.h:12422-12475`. -/
def LoadMaskBits128 (t : Tgt) (w : Nat) (mask_bits : Nat) : M128 :=
  if w = 8 then
    let vbits := cvtsi32 mask_bits
    let rep8 :=
      if t.val = HWY_SSE2 then
        let u := unpacklo 8 vbits vbits
        let u := unpacklo 16 u u
        unpacklo 32 u u
      else TableLookupBytes t vbits (ofBytes [0, 0, 0, 0, 0, 0, 0, 0, 1, 1, 1, 1, 1, 1, 1, 1])
    let bit := ofBytes [1, 2, 4, 8, 16, 32, 64, 128, 1, 2, 4, 8, 16, 32, 64, 128]
    TestBit t 8 rep8 bit
  else if w = 16 then TestBit t 16 (set 16 (BitVec.ofNat 16 mask_bits)) (mk 16 (fun i => BitVec.ofNat 16 ([1, 2, 4, 8, 16, 32, 64, 128].getD i 0)))
  else if w = 32 then TestBit t 32 (set 32 (BitVec.ofNat 32 mask_bits)) (mk 32 (fun i => BitVec.ofNat 32 ([1, 2, 4, 8].getD i 0)))
  else TestBit t 64 (set 64 (BitVec.ofNat 64 mask_bits)) (mk 64 (fun i => BitVec.ofNat 64 ([1, 2].getD i 0)))
/-- `CopyBytes<kNumBytes>(bits, &mask_bits)` and the masking of unused bits, `x86_128-inl.h:12492-12499, 13272-13278, 13324-13330`. -/
def bitsFromBytes (kN : Nat) (bits : Mem 8) : Nat :=
  let mask_bits := if (kN + 7) / 8 = 1 then (bits 0).toNat else (bits 0).toNat + 256 * (bits 1).toNat
  if kN < 8 then mask_bits &&& (2 ^ kN - 1) else mask_bits
/-- `LoadMaskBits`, `x86_128-inl.h:12478-12503`. -/
def LoadMaskBits (t : Tgt) (w sz : Nat) (bits : Mem 8) : M128 := LoadMaskBits128 t w (bitsFromBytes (sz / (w / 8)) bits)
/-- `Dup128MaskFromMaskBits`, `x86_128-inl.h:12505-12515`. -/
def Dup128MaskFromMaskBits (t : Tgt) (w sz : Nat) (mask_bits : Nat) : M128 :=
  let kN := sz / (w / 8)
  LoadMaskBits128 t w (if kN < 8 then mask_bits &&& (2 ^ kN - 1) else mask_bits)
/-- `detail::OnlyActive`, `x86_128-inl.h:12537-12543`. -/
def OnlyActive (w sz mask_bits : Nat) : Nat := if sz ≥ 16 then mask_bits else mask_bits &&& (2 ^ (sz / (w / 8)) - 1)
/-- `BitsFromMask`, `x86_128-inl.h:12698-12735`. -/
def BitsFromMask (w sz : Nat) (mask : M128) : Nat :=
  if w = 16 then OnlyActive 16 sz (movemask 8 (packs 16 mask zero)) else OnlyActive w sz (movemask w mask)
/-- `StoreMaskBits`, `x86_128-inl.h:12738-12745`: the bytes written and their number. -/
def StoreMaskBits (w sz : Nat) (mask : M128) (bits : Mem 8) : Mem 8 × Nat :=
  let kNumBytes := (sz / (w / 8) + 7) / 8
  let mask_bits := BitsFromMask w sz mask
  (fun i => if i < kNumBytes then BitVec.ofNat 8 (mask_bits >>> (8 * i)) else bits i, kNumBytes)
/-- `AllFalse`, `x86_128-inl.h:12749-12753`. -/
def AllFalse (w sz : Nat) (mask : M128) : Bool := BitsFromMask w sz mask == 0
/-- `AllTrue`, `x86_128-inl.h:12755-12759`. -/
def AllTrue (w sz : Nat) (mask : M128) : Bool := BitsFromMask w sz mask == 2 ^ (sz / (w / 8)) - 1
/-- `CountTrue`, `x86_128-inl.h:12761-12764`. -/
def CountTrue (w sz : Nat) (mask : M128) : Nat := popcnt (BitsFromMask w sz mask)
/-- `FindKnownFirstTrue`, `x86_128-inl.h:12766-12770`. -/
def FindKnownFirstTrue (w sz : Nat) (mask : M128) : Nat := ctz (BitVec.ofNat 32 (BitsFromMask w sz mask))
/-- `FindFirstTrue`, `x86_128-inl.h:12772-12776`. -/
def FindFirstTrue (w sz : Nat) (mask : M128) : Int :=
  let mask_bits := BitsFromMask w sz mask
  if mask_bits ≠ 0 then (ctz (BitVec.ofNat 32 mask_bits) : Nat) else -1
/-- `FindKnownLastTrue`, `x86_128-inl.h:12778-12782`: `31 - clz`. -/
def FindKnownLastTrue (w sz : Nat) (mask : M128) : Nat := 31 - (31 - bsr (BitVec.ofNat 32 (BitsFromMask w sz mask)))
/-- `FindLastTrue`, `x86_128-inl.h:12784-12789`. -/
def FindLastTrue (w sz : Nat) (mask : M128) : Int :=
  let mask_bits := BitsFromMask w sz mask
  if mask_bits ≠ 0 then ((31 - (31 - bsr (BitVec.ofNat 32 mask_bits)) : Nat) : Int) else -1

/-! ## Compress of 16, 32 and 64-bit lanes -/

/-- `detail::IndicesFromBits128`, `x86_128-inl.h:12796-12945, 13098-13124, 13153-13167`: for 16-bit lanes `kN` bytes are loaded and
widened to byte indices. -/
def IndicesFromBits128 (w sz mask_bits : Nat) : M128 :=
  if w = 16 then
    let byte_idx := ofBytes ((compress16.getD mask_bits []).take (sz / 2))
    let pairs := InterleaveLower 8 byte_idx byte_idx
    Add 16 pairs (set 16 0x0100#16)
  else if w = 32 then ofBytes ((compress32.getD mask_bits []).take sz)
  else ofBytes ((compress64.getD mask_bits []).take sz)
/-- `detail::IndicesFromNotBits128` of 16 and 32-bit lanes, `x86_128-inl.h:12947-13096, 13126-13151`. -/
def IndicesFromNotBits128 (w sz mask_bits : Nat) : M128 :=
  if w = 16 then
    let byte_idx := ofBytes ((compressNot16.getD mask_bits []).take (sz / 2))
    let pairs := InterleaveLower 8 byte_idx byte_idx
    Add 16 pairs (set 16 0x0100#16)
  else ofBytes ((compressNot32.getD mask_bits []).take sz)
/-- `detail::CompressBits` with an integer, `x86_128-inl.h:13185-13193`. -/
def CompressBitsInt (t : Tgt) (w sz : Nat) (v : M128) (mask_bits : Nat) : M128 := TableLookupBytes t v (IndicesFromBits128 w sz mask_bits)
/-- `detail::CompressNotBits`, `x86_128-inl.h:13195-13203`. -/
def CompressNotBitsInt (t : Tgt) (w sz : Nat) (v : M128) (mask_bits : Nat) : M128 := TableLookupBytes t v (IndicesFromNotBits128 w sz mask_bits)
/-- `Compress` of 16, 32 and 64-bit lanes, `x86_128-inl.h:13207-13230`. -/
def Compress (t : Tgt) (w sz : Nat) (v mask : M128) : M128 :=
  if sz / (w / 8) = 1 then v
  else if w = 64 then
    let maskL := DupEven t 64 16 mask
    let maskH := DupOdd t 64 16 mask
    let swap := AndNot maskL maskH
    IfVecThenElse t swap (Shuffle01 v) v
  else CompressBitsInt t w sz v (BitsFromMask w sz mask)
/-- `CompressNot` of 16, 32 and 64-bit lanes, `x86_128-inl.h:13234-13261`. -/
def CompressNot (t : Tgt) (w sz : Nat) (v mask : M128) : M128 :=
  if sz / (w / 8) = 1 then v
  else if w = 64 then
    let maskL := DupEven t 64 16 mask
    let maskH := DupOdd t 64 16 mask
    let swap := AndNot maskH maskL
    IfVecThenElse t swap (Shuffle01 v) v
  else if sz / (w / 8) < 128 / w then CompressBitsInt t w sz v (BitsFromMask w sz (Not mask))
  else CompressNotBitsInt t w sz v (BitsFromMask w sz mask)
/-- `CompressBits`, `x86_128-inl.h:13269-13281`. -/
def CompressBits (t : Tgt) (w sz : Nat) (v : M128) (bits : Mem 8) : M128 := CompressBitsInt t w sz v (bitsFromBytes (sz / (w / 8)) bits)
/-- `CompressStore`, `x86_128-inl.h:13284-13299`. -/
def CompressStore (t : Tgt) (w sz : Nat) (v m : M128) (mem : Mem w) : Mem w × Nat :=
  let mask_bits := BitsFromMask w sz m
  let count := popcnt mask_bits
  let compressed := TableLookupBytes t v (IndicesFromBits128 w sz mask_bits)
  (StoreU w (sz / (w / 8)) compressed mem, count)
/-- `detail::ScalarMaskedStore`, `x86_128-inl.h:3644-3658`. -/
def ScalarMaskedStore (w sz : Nat) (v m : M128) (mem : Mem w) : Mem w :=
  fun i => if i < sz / (w / 8) ∧ lane w i m ≠ 0#w then lane w i v else mem i
/-- `BlendedStore`, `x86_128-inl.h:3702-3758`; `VPMASKMOVD/Q` store the lanes of the register whose mask has its top bit set. -/
def BlendedStore (t : Tgt) (w sz : Nat) (v m : M128) (mem : Mem w) : Mem w :=
  if t.val = HWY_AVX2 ∧ (w = 32 ∨ w = 64) then
    let m := if sz < 16 then And m (FirstN t w (128 / w) (sz / (w / 8))) else m
    fun i => if i < 128 / w ∧ (lane w i m).msb = true then lane w i v else mem i
  else ScalarMaskedStore w sz v m mem
/-- `CompressBlendedStore`, `x86_128-inl.h:13301-13316`. -/
def CompressBlendedStore (t : Tgt) (w sz : Nat) (v m : M128) (mem : Mem w) : Mem w × Nat :=
  let mask_bits := BitsFromMask w sz m
  let count := popcnt mask_bits
  let compressed := TableLookupBytes t v (IndicesFromBits128 w sz mask_bits)
  (BlendedStore t w sz compressed (FirstN t w (sz / (w / 8)) count) mem, count)
/-- `CompressBitsStore`, `x86_128-inl.h:13318-13339`. -/
def CompressBitsStore (t : Tgt) (w sz : Nat) (v : M128) (bits : Mem 8) (mem : Mem w) : Mem w × Nat :=
  let mask_bits := bitsFromBytes (sz / (w / 8)) bits
  let count := popcnt mask_bits
  let compressed := TableLookupBytes t v (IndicesFromBits128 w sz mask_bits)
  (StoreU w (sz / (w / 8)) compressed mem, count)

/-! ## Compress of bytes -/

/-- One iteration of `CompressBitsStore` of bytes, `generic_ops-inl.h:6036-6044`: `st` is `pos` and the memory. -/
def compress8Step (t : Tgt) (sz : Nat) (lanes bits : Mem 8) (st : Nat × Mem 8) (b : Nat) : Nat × Mem 8 :=
  let i := 8 * b
  let bits8 := (bits (i / 8)).toNat
  let indices := ofBytes ((compress8.getD bits8 []).take (min sz 8))
  let compressed := TableLookupBytes t (LoadU 8 (min sz 8) lanes i) indices
  let pos := st.1
  (pos + popcnt bits8, fun k => if pos ≤ k ∧ k < pos + min sz 8 then lane 8 (k - pos) compressed else st.2 k)
/-- `CompressBitsStore` of bytes, `generic_ops-inl.h:5897-6046`. -/
def CompressBitsStore8 (t : Tgt) (sz : Nat) (v : M128) (bits : Mem 8) (mem : Mem 8) : Mem 8 × Nat :=
  let lanes : Mem 8 := fun i => lane 8 i v
  let r := (List.range ((sz + 7) / 8)).foldl (compress8Step t sz lanes bits) (0, mem)
  (r.2, r.1)
/-- `CompressStore` of bytes, `generic_ops-inl.h:6048-6053`; `u` is the uninitialised array. -/
def CompressStore8 (t : Tgt) (sz : Nat) (v mask : M128) (u : Mem 8) (mem : Mem 8) : Mem 8 × Nat :=
  CompressBitsStore8 t sz v (StoreMaskBits 8 sz mask u).1 mem
/-- `CompressBlendedStore` of bytes, `generic_ops-inl.h:6055-6062`. -/
def CompressBlendedStore8 (t : Tgt) (sz : Nat) (v mask : M128) (u u2 : Mem 8) (mem : Mem 8) : Mem 8 × Nat :=
  let r := CompressStore8 t sz v mask u u2
  (BlendedStore t 8 sz (LoadU 8 sz r.1 0) (FirstN t 8 sz r.2) mem, r.2)
/-- `Compress` of bytes, `generic_ops-inl.h:6065-6071`; single lanes are left alone (`x86_128-inl.h:13207-13211`). -/
def Compress8 (t : Tgt) (sz : Nat) (v mask : M128) (u u2 : Mem 8) : M128 :=
  if sz = 1 then v else LoadU 8 sz (CompressStore8 t sz v mask u u2).1 0
/-- `CompressBits` of bytes, `generic_ops-inl.h:6073-6079`. -/
def CompressBits8 (t : Tgt) (sz : Nat) (v : M128) (bits : Mem 8) (u : Mem 8) : M128 := LoadU 8 sz (CompressBitsStore8 t sz v bits u).1 0
/-- `CompressNot` of bytes, `generic_ops-inl.h:6081-6084`. -/
def CompressNot8 (t : Tgt) (sz : Nat) (v mask : M128) (u u2 : Mem 8) : M128 := Compress8 t sz v (Not mask) u u2

/-! ## Expand -/

/-- `detail::IndicesForExpandFromBits<N>`, `generic_ops-inl.h:6101-6365`. -/
def IndicesForExpandFromBits (n mask_bits : Nat) : M128 := ofBytes ((expand8.getD mask_bits []).take n)
/-- `Expand` of bytes, `generic_ops-inl.h:6369-6413`. -/
def Expand8 (t : Tgt) (sz : Nat) (v mask : M128) : M128 :=
  if sz ≤ 8 then
    let mask_bits := BitsFromMask 8 sz mask
    TableLookupBytesOr0 t v (IndicesForExpandFromBits sz mask_bits)
  else
    let mask_bits := BitsFromMask 8 16 mask
    let maskL := mask_bits &&& 0xFF
    let maskH := mask_bits >>> 8
    let iota := List.range 16 ++ List.replicate 16 128
    let shift := ofBytes ((iota.drop (popcnt maskL)).take 16)
    let vL := LowerHalf v
    let vH := LowerHalf (TableLookupBytesOr0 t v shift)
    let idxL := IndicesForExpandFromBits 8 maskL
    let idxH := IndicesForExpandFromBits 8 maskH
    let expandL := TableLookupBytesOr0 t vL idxL
    let expandH := TableLookupBytesOr0 t vH idxH
    Combine 16 expandH expandL
/-- `Expand` of 16-bit lanes, `generic_ops-inl.h:6415-6696`. -/
def Expand16 (t : Tgt) (sz : Nat) (v mask : M128) : M128 :=
  let mask_bits := BitsFromMask 16 sz mask
  let indices8 := ofBytes ((expand16.getD mask_bits []).take (sz / 2))
  let indices16 := InterleaveLower 8 indices8 indices8
  let byte_indices := Add 16 indices16 (set 16 0x0100#16)
  TableLookupBytesOr0 t v byte_indices
/-- `Expand` of 32-bit lanes, `generic_ops-inl.h:6698-6722`. -/
def Expand32 (t : Tgt) (gcc : Bool) (sz : Nat) (v mask : M128) : M128 :=
  let mask_bits := BitsFromMask 32 sz mask
  let packed := set 32 (BitVec.ofNat 32 (expand32.getD mask_bits 0))
  let indices := ShrU t gcc 32 sz packed (mk 32 (fun i => BitVec.ofNat 32 ([0, 4, 8, 12].getD i 0)))
  let indices := And indices (set 32 (BitVec.ofNat 32 (sz / 4 - 1)))
  let expand := TableLookupLanes t 32 sz v (IndicesFromVec t 32 indices)
  IfThenElseZero mask expand
/-- `Expand`, `generic_ops-inl.h:6369-6735`. -/
def Expand (t : Tgt) (gcc : Bool) (w sz : Nat) (v mask : M128) : M128 :=
  if sz / (w / 8) = 1 then IfThenElseZero mask v
  else if w = 8 then Expand8 t sz v mask
  else if w = 16 then Expand16 t sz v mask
  else if w = 32 then Expand32 t gcc sz v mask
  else IfThenElseZero mask (Compress t 64 sz v mask)
/-- `LoadExpand`, `generic_ops-inl.h:6737-6742`. -/
def LoadExpand (t : Tgt) (gcc : Bool) (w sz : Nat) (mask : M128) (mem : Mem w) : M128 :=
  Expand t gcc w sz (LoadU w (sz / (w / 8)) mem 0) mask

end Hwy.X86
