import Verif.X86Reg256

/-!
# Shifts and rotates by a count per lane on the x86 128-bit targets

`sz` is the size of the vector in bytes. `gcc`: the compiler is GCC (`HWY_COMPILER_GCC_ACTUAL`).
-/

namespace Hwy.X86

/-! ## 256-bit conversions used by AVX2 -/

/-- `PromoteTo` into a 256-bit vector, `x86_256-inl.h:6393-6445`. -/
def PromoteTo256 (signed : Bool) (f g : Nat) (v : M128) : M256 := if signed then cvtepi256 f g v else cvtepu256 f g v
/-- `detail::LookupAndConcatHalves`, `x86_256-inl.h:6942-6962`: `idx` are the eight bytes of `LO` and `HI`. -/
def LookupAndConcatHalves (idx : List Nat) (v : M256) : M128 :=
  let ff := List.replicate 8 255
  let quad := blk2 shuffle8 v ⟨ofBytes (idx ++ ff), ofBytes (ff ++ idx)⟩
  let result := permute4x64 quad 0xCC
  castsi256 result
/-- `detail::LookupAndConcatQuarters`, `x86_256-inl.h:6961-6983`. -/
def LookupAndConcatQuarters (LO HI : Nat) (v : M256) : M128 :=
  let ff := 0xFFFF
  let quad := blk2 shuffle8 v ⟨of16 [LO, ff, HI, ff, ff, ff, ff, ff], of16 [ff, ff, ff, ff, LO, ff, HI, ff]⟩
  let mixed := permute4x64 quad 0xCC
  let half := castsi256 mixed
  LowerHalf (packus 32 half half)
/-- `TruncateTo` from 256-bit `u32` to `u16` and `u8`, and from `u16` to `u8`, `x86_256-inl.h:7021-7037`. -/
def TruncateTo256 (f n : Nat) (v : M256) : M128 :=
  if f = 32 then
    if n = 8 then LookupAndConcatQuarters 0x400 0xC08 v
    else LookupAndConcatHalves [0x00, 0x01, 0x04, 0x05, 0x08, 0x09, 0x0C, 0x0D] v
  else LookupAndConcatHalves [0x00, 0x02, 0x04, 0x06, 0x08, 0x0A, 0x0C, 0x0E] v
/-- `DemoteTo` from 256-bit `i32` to `u16`, `i16`, `u8`, `i8`, `x86_256-inl.h:6535-6541, 6550-6563, 6590-6597`. -/
def DemoteI32_256 (signedTo : Bool) (n : Nat) (v : M256) : M128 :=
  if n = 16 then
    let u16 := if signedTo then blk2 (packs 32) v v else blk2 (packus 32) v v
    castsi256 (permute4x64 u16 0x88)
  else
    let i16_blocks := blk2 (packs 32) v v
    let i16_concat := permute4x64 i16_blocks 0x88
    let i16 := castsi256 i16_concat
    if signedTo then packs 16 i16 i16 else packus 16 i16 i16
/-- `DemoteTo` from 256-bit `i16` to `u8` and `i8`, `x86_256-inl.h:6577-6581, 6599-6603`. -/
def DemoteI16_256 (signedTo : Bool) (v : M256) : M128 :=
  let u8 := if signedTo then blk2 (packs 16) v v else blk2 (packus 16) v v
  castsi256 (permute4x64 u8 0x88)
/-- `OrderedDemote2To` from 256-bit `i32` to `u16` and `i16`, `x86_256-inl.h:6706-6717, 6812-6822`. -/
def OrderedDemote2I32_256 (signedTo : Bool) (a b : M256) : M256 :=
  permute4x64 (if signedTo then blk2 (packs 32) a b else blk2 (packus 32) a b) (MM_SHUFFLE 3 1 2 0)
/-- `ConcatEven` of 256-bit vectors of 16-bit lanes, `x86_256-inl.h:5174-5193`. -/
def ConcatEven16_256 (hi lo : M256) : M256 :=
  let mask : M256 := ⟨set 32 0x0000FFFF#32, set 32 0x0000FFFF#32⟩
  let uH := blk2 And hi mask
  let uL := blk2 And lo mask
  let u16 := blk2 (packus 32) uL uH
  permute4x64 u16 (MM_SHUFFLE 3 1 2 0)

/-! ## Left shifts -/

/-- `detail::Pow2ConvF32ToI32`, `x86_128-inl.h:9042-9055`: GCC truncates (`ConvertInRangeTo`,
`x86_128-inl.h:11376-11402`), other compilers round (`NearestIntInRange`, `x86_128-inl.h:11789-11817`). -/
def Pow2ConvF32ToI32 (gcc : Bool) (v : M128) : M128 := cvtps (!gcc) v
/-- `detail::Pow2` of 16-bit lanes, `x86_128-inl.h:9058-9107`. -/
def Pow2_16 (t : Tgt) (gcc : Bool) (sz : Nat) (v : M128) : M128 :=
  let exp := ShiftLeft 16 (23 - 16) v
  let upper := Add 16 exp (set 16 0x3F80#16)
  let f0 := InterleaveLower 16 zero upper
  let bits0 := Pow2ConvF32ToI32 gcc f0
  if sz = 16 then
    let f1 := InterleaveUpper t 16 16 zero upper
    let bits1 := Pow2ConvF32ToI32 gcc f1
    if t.val ≤ HWY_SSE4 then packus 32 bits0 bits1 else ConcatEven t 16 16 bits1 bits0
  else if t.val ≤ HWY_SSE4 then packus 32 bits0 bits0
  else if t.val = HWY_SSSE3 then TableLookupBytes t bits0 (of16 [0x0100, 0x0504, 0x0908, 0x0D0C])
  else
    let bits0_i32 := ShiftRightI t 32 16 (ShiftLeft 32 16 bits0)
    packs 32 bits0_i32 bits0_i32
/-- `detail::Pow2` of 32-bit lanes, `x86_128-inl.h:9110-9119`. -/
def Pow2_32 (gcc : Bool) (v : M128) : M128 :=
  let exp := ShiftLeft 32 23 v
  let f := Add 32 exp (set 32 0x3F800000#32)
  Pow2ConvF32ToI32 gcc f
/-- The count of a single 8-bit (`m = 8`) or 16-bit lane, zero-extended to 64 bits, `x86_128-inl.h:9140-9144`. -/
def count1 (t : Tgt) (m : Nat) (bits : M128) : M128 :=
  if t.val ≤ HWY_SSE4 then cvtepu m 64 bits
  else And bits (ofBytes (if m = 16 then [0xFF, 0xFF] else [0xFF]))
/-- The count of a single 32-bit lane, zero-extended to 64 bits, `x86_128-inl.h:9232-9237`. -/
def count1_32 (t : Tgt) (bits : M128) : M128 :=
  if t.val = HWY_SSE4 then cvtepu 32 64 bits else Combine 8 zero bits
/-- `detail::Shl` of 16-bit lanes, `x86_128-inl.h:9033-9038, 9123-9147`. -/
def Shl16 (t : Tgt) (gcc : Bool) (sz : Nat) (v bits : M128) : M128 :=
  if sz = 2 then sll 16 v (count1 t 16 bits)
  else if t.val = HWY_AVX2 then
    if sz ≤ 8 then
      TruncateTo t 32 16 (sz / 2) (sllv 32 (PromoteTo t false 16 32 v) (PromoteTo t false 16 32 bits))
    else TruncateTo256 32 16 (blk2 (sllv 32) (PromoteTo256 false 16 32 v) (PromoteTo256 false 16 32 bits))
  else Mul16 v (Pow2_16 t gcc sz bits)
/-- `detail::Shl` of 8-bit lanes, `x86_128-inl.h:9157-9223`. -/
def Shl8 (t : Tgt) (gcc : Bool) (sz : Nat) (v bits : M128) : M128 :=
  if sz = 1 then sll 16 v (count1 t 8 bits)
  else if t.val ≤ HWY_AVX2 then
    if sz ≤ 4 then
      TruncateTo t 32 8 sz (sllv 32 (PromoteTo t false 8 32 v) (PromoteTo t false 8 32 bits))
    else if sz ≤ 8 then
      TruncateTo256 32 8 (blk2 (sllv 32) (PromoteTo256 false 8 32 v) (PromoteTo256 false 8 32 bits))
    else
      let lo_shl_result := blk2 (sllv 32) (PromoteTo256 false 8 32 (LowerHalf v)) (PromoteTo256 false 8 32 (LowerHalf bits))
      let hi_shl_result := blk2 (sllv 32) (PromoteTo256 false 8 32 (UpperHalf t 8 8 v)) (PromoteTo256 false 8 32 (UpperHalf t 8 8 bits))
      let u16_shl_result := ConcatEven16_256 hi_shl_result lo_shl_result
      TruncateTo256 16 8 u16_shl_result
  else
    let even_mask := set 16 0x00FF#16
    let odd_mask := set 16 0xFF00#16
    let evens := Shl16 t gcc sz v (And bits even_mask)
    let odds := Shl16 t gcc sz (And v odd_mask) (ShiftRightU 16 8 bits)
    OddEven t 8 odds evens
/-- `detail::Shl` of 32-bit lanes, `x86_128-inl.h:9225-9247`. -/
def Shl32 (t : Tgt) (gcc : Bool) (sz : Nat) (v bits : M128) : M128 :=
  if t.val ≥ HWY_SSE4 then
    if sz = 4 then sll 32 v (count1_32 t bits) else Mul32 t v (Pow2_32 gcc bits)
  else sllv 32 v bits
/-- `detail::Shl` of 64-bit lanes, `x86_128-inl.h:9249-9266`. -/
def Shl64 (t : Tgt) (sz : Nat) (v bits : M128) : M128 :=
  if sz = 8 then sll 64 v bits
  else if t.val ≥ HWY_SSE4 then
    let out0 := sll 64 v bits
    let bits1 := unpackhi 64 bits bits
    let out1 := sll 64 v bits1
    ConcatUpperLower t 64 16 out1 out0
  else sllv 64 v bits
/-- `operator<<` of every integer type, `x86_128-inl.h:9268-9283`: signed lanes are shifted as unsigned ones. -/
def Shl (t : Tgt) (gcc : Bool) (w sz : Nat) (v bits : M128) : M128 :=
  if w = 8 then Shl8 t gcc sz v bits
  else if w = 16 then Shl16 t gcc sz v bits
  else if w = 32 then Shl32 t gcc sz v bits
  else Shl64 t sz v bits

/-! ## Right shifts -/

/-- `operator>>` of `u16` lanes, `x86_128-inl.h:9304-9311, 9342-9370`. -/
def ShrU16 (t : Tgt) (gcc : Bool) (sz : Nat) (in_ bits : M128) : M128 :=
  if sz = 2 then srl 16 in_ (count1 t 16 bits)
  else if t.val ≤ HWY_AVX2 then
    if sz ≤ 8 then DemoteI32U16 t (srlv 32 (PromoteTo t false 16 32 in_) (PromoteTo t false 16 32 bits))
    else DemoteI32_256 false 16 (blk2 (srlv 32) (PromoteTo256 false 16 32 in_) (PromoteTo256 false 16 32 bits))
  else
    let out := MulHigh16 false in_ (Pow2_16 t gcc sz (Sub 16 (set 16 16#16) bits))
    IfThenElse t (Eq t 16 bits zero) in_ out
/-- `operator>>` of `u8` lanes, `x86_128-inl.h:9312-9339, 9373-9404`. -/
def ShrU8 (t : Tgt) (gcc : Bool) (sz : Nat) (in_ bits : M128) : M128 :=
  if sz = 1 then
    let in8 := if t.val ≤ HWY_SSE4 then cvtepu 8 16 in_ else And in_ (ofBytes [0xFF])
    srl 16 in8 (count1 t 8 bits)
  else if t.val ≤ HWY_AVX2 then
    if sz ≤ 4 then DemoteI32U8 (srlv 32 (PromoteTo t false 8 32 in_) (PromoteTo t false 8 32 bits))
    else if sz ≤ 8 then
      DemoteI32_256 false 8 (blk2 (srlv 32) (PromoteTo256 false 8 32 in_) (PromoteTo256 false 8 32 bits))
    else
      let lo_shr_result := blk2 (srlv 32) (PromoteTo256 false 8 32 (LowerHalf in_)) (PromoteTo256 false 8 32 (LowerHalf bits))
      let hi_shr_result := blk2 (srlv 32) (PromoteTo256 false 8 32 (UpperHalf t 8 8 in_)) (PromoteTo256 false 8 32 (UpperHalf t 8 8 bits))
      let i16_shr_result := OrderedDemote2I32_256 false lo_shr_result hi_shr_result
      DemoteI16_256 false i16_shr_result
  else
    let mask := set 16 0x00FF#16
    let evens := ShrU16 t gcc sz (And in_ mask) (And bits mask)
    let odds := ShrU16 t gcc sz in_ (ShiftRightU 16 8 bits)
    OddEven t 8 odds evens
/-- `operator>>` of `u32` lanes, `x86_128-inl.h:9406-9442`. -/
def ShrU32 (t : Tgt) (gcc : Bool) (sz : Nat) (in_ bits : M128) : M128 :=
  if t.val ≥ HWY_SSE4 then
    if sz = 4 then srl 32 in_ (count1_32 t bits)
    else
      let in31 := shuffle32 in_ 0x31
      let mul := Pow2_32 gcc (Sub 32 (set 32 32#32) bits)
      let out20 := ShiftRightU 64 32 (MulEvenU32 in_ mul)
      let mul31 := shuffle32 mul 0x31
      let out31 := MulEvenU32 in31 mul31
      let out := OddEven t 32 out31 out20
      IfThenElse t (Eq t 32 bits zero) in_ out
  else srlv 32 in_ bits
/-- `operator>>` of `u64` lanes, `x86_128-inl.h:9444-9461`. -/
def ShrU64 (t : Tgt) (sz : Nat) (v bits : M128) : M128 :=
  if sz = 8 then srl 64 v bits
  else if t.val ≥ HWY_SSE4 then
    let out0 := srl 64 v bits
    let bits1 := unpackhi 64 bits bits
    let out1 := srl 64 v bits1
    ConcatUpperLower t 64 16 out1 out0
  else srlv 64 v bits
/-- `operator>>` of unsigned lanes. -/
def ShrU (t : Tgt) (gcc : Bool) (w sz : Nat) (v bits : M128) : M128 :=
  if w = 8 then ShrU8 t gcc sz v bits
  else if w = 16 then ShrU16 t gcc sz v bits
  else if w = 32 then ShrU32 t gcc sz v bits
  else ShrU64 t sz v bits
/-- `detail::SignedShr`, `x86_128-inl.h:9497-9506`. -/
def SignedShr (t : Tgt) (gcc : Bool) (w sz : Nat) (v count : M128) : M128 :=
  let sign := BroadcastSignBit t w v
  let abs := Xor v sign
  Xor (ShrU t gcc w sz abs count) sign
/-- `operator>>` of `i16` lanes, `x86_128-inl.h:9473-9478, 9517-9538`. -/
def ShrI16 (t : Tgt) (gcc : Bool) (sz : Nat) (v bits : M128) : M128 :=
  if sz = 2 then sra 16 v (count1 t 16 bits)
  else if t.val ≤ HWY_AVX2 then
    if sz ≤ 8 then DemoteI32I16 (srav 32 (PromoteTo t true 16 32 v) (PromoteTo t true 16 32 bits))
    else DemoteI32_256 true 16 (blk2 (srav 32) (PromoteTo256 true 16 32 v) (PromoteTo256 true 16 32 bits))
  else SignedShr t gcc 16 sz v bits
/-- `operator>>` of `i8` lanes, `x86_128-inl.h:9479-9497, 9540-9566`. -/
def ShrI8 (t : Tgt) (gcc : Bool) (sz : Nat) (v bits : M128) : M128 :=
  if sz = 1 then
    let vi16 := if t.val ≤ HWY_SSE4 then cvtepi 8 16 v else ShiftRightI t 16 8 (Combine 2 v v)
    sra 16 vi16 (count1 t 8 bits)
  else if t.val ≤ HWY_AVX2 then
    if sz ≤ 4 then DemoteI32I8 (srav 32 (PromoteTo t true 8 32 v) (PromoteTo t true 8 32 bits))
    else if sz ≤ 8 then
      DemoteI32_256 true 8 (blk2 (srav 32) (PromoteTo256 true 8 32 v) (PromoteTo256 true 8 32 bits))
    else
      let lo_shr_result := blk2 (srav 32) (PromoteTo256 true 8 32 (LowerHalf v)) (PromoteTo256 true 8 32 (LowerHalf bits))
      let hi_shr_result := blk2 (srav 32) (PromoteTo256 true 8 32 (UpperHalf t 8 8 v)) (PromoteTo256 true 8 32 (UpperHalf t 8 8 bits))
      let i16_shr_result := OrderedDemote2I32_256 true lo_shr_result hi_shr_result
      DemoteI16_256 true i16_shr_result
  else SignedShr t gcc 8 sz v bits
/-- `operator>>` of `i32` lanes, `x86_128-inl.h:9568-9589`. -/
def ShrI32 (t : Tgt) (gcc : Bool) (sz : Nat) (v bits : M128) : M128 :=
  if t.val > HWY_AVX2 ∧ sz = 4 then sra 32 v (count1_32 t bits)
  else if t.val ≤ HWY_AVX2 then srav 32 v bits
  else SignedShr t gcc 32 sz v bits
/-- `operator>>` of every integer type; `i64` lanes: `x86_128-inl.h:9591-9600`. -/
def Shr (t : Tgt) (gcc signed : Bool) (w sz : Nat) (v bits : M128) : M128 :=
  if signed then
    if w = 8 then ShrI8 t gcc sz v bits
    else if w = 16 then ShrI16 t gcc sz v bits
    else if w = 32 then ShrI32 t gcc sz v bits
    else SignedShr t gcc 64 sz v bits
  else ShrU t gcc w sz v bits

/-! ## Rotates -/

/-- `Rol`, `inside-inl.h:156-168, 193-205, 230-242, 259-271`. -/
def Rol (t : Tgt) (gcc : Bool) (w sz : Nat) (a b : M128) : M128 :=
  let shift_amt_mask := set w (BitVec.ofNat w (w - 1))
  let shl_amt := And b shift_amt_mask
  let shr_amt := And (Neg w b) shift_amt_mask
  Or (Shl t gcc w sz a shl_amt) (Shr t gcc false w sz a shr_amt)
/-- `Ror`, `inside-inl.h:170-182, 207-219, 244-256, 273-285`. -/
def Ror (t : Tgt) (gcc : Bool) (w sz : Nat) (a b : M128) : M128 :=
  let shift_amt_mask := set w (BitVec.ofNat w (w - 1))
  let shr_amt := And b shift_amt_mask
  let shl_amt := And (Neg w b) shift_amt_mask
  Or (Shl t gcc w sz a shl_amt) (Shr t gcc false w sz a shr_amt)
/-- `RotateLeftSame`, `inside-inl.h:299-310, 334-346, 370-382, 399-411`: `bits & 7` and the like of a 32-bit `int`. -/
def RotateLeftSame (w : Nat) (v : M128) (bits : BitVec 32) : M128 :=
  let shl_amt := (bits &&& BitVec.ofNat 32 (w - 1)).toNat
  let shr_amt := ((0#32 - bits) &&& BitVec.ofNat 32 (w - 1)).toNat
  Or (ShiftLeftSame w v shl_amt) (ShiftRightSameU w v shr_amt)
/-- `RotateRightSame`, `inside-inl.h:312-323, 348-360, 384-396, 413-425`. -/
def RotateRightSame (w : Nat) (v : M128) (bits : BitVec 32) : M128 :=
  let shr_amt := (bits &&& BitVec.ofNat 32 (w - 1)).toNat
  let shl_amt := ((0#32 - bits) &&& BitVec.ofNat 32 (w - 1)).toNat
  Or (ShiftLeftSame w v shl_amt) (ShiftRightSameU w v shr_amt)
/-- `RotateLeft<kBits>`, `generic_ops-inl.h:458-466`. -/
def RotateLeft (w k : Nat) (v : M128) : M128 := RotateRight w (if k = 0 then 0 else w - k) v

end Hwy.X86
