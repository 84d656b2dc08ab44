import Verif.X86Mul

/-!
# Integer conversions of the x86 128-bit targets

`N` is the number of lanes of the vector that is converted, where the code distinguishes it.
-/

namespace Hwy.X86

/-- `PMOVZXBW/WD/DQ/BD/BQ/WQ` (`_mm_cvtepu8_epi16` ..., SSE4.1): zero-extends the lowest lanes. Trusted. -/
def cvtepu (f g : Nat) (a : M128) : M128 := mk g (fun i => (lane f i a).setWidth g)
/-- `PMOVSXBW/WD/DQ/BD/BQ/WQ` (`_mm_cvtepi8_epi16` ..., SSE4.1): sign-extends the lowest lanes. Trusted. -/
def cvtepi (f g : Nat) (a : M128) : M128 := mk g (fun i => (lane f i a).signExtend g)

/-- `PromoteTo` of unsigned lanes of `f` bits to (un)signed lanes of `g` bits,
`x86_128-inl.h:7388-7459`. -/
def PromoteToU (t : Tgt) (f g : Nat) (v : M128) : M128 :=
  if t.val ≥ HWY_SSSE3 then
    if g = 2 * f then unpacklo f v zero
    else if f = 8 ∧ g = 32 then unpacklo 16 (unpacklo 8 v zero) zero
    else if f = 8 then
      if t.val > HWY_SSSE3 then
        let u32 := unpacklo 16 (unpacklo 8 v zero) zero
        unpacklo 32 u32 zero
      else TableLookupBytesOr0 t v
        (ofBytes [0, 255, 255, 255, 255, 255, 255, 255, 1, 255, 255, 255, 255, 255, 255, 255])
    else
      if t.val > HWY_SSSE3 then
        let u32 := unpacklo 16 v zero
        unpacklo 32 u32 zero
      else TableLookupBytesOr0 t v
        (ofBytes [0, 1, 255, 255, 255, 255, 255, 255, 2, 3, 255, 255, 255, 255, 255, 255])
  else cvtepu f g v
/-- `PromoteTo` of signed lanes, `x86_128-inl.h:7471-7529`. -/
def PromoteToI (t : Tgt) (f g : Nat) (v : M128) : M128 :=
  if t.val ≥ HWY_SSSE3 then
    if g = 2 * f then ShiftRightI t g f (unpacklo f v v)
    else if f = 8 ∧ g = 32 then
      let x2 := unpacklo 8 v v
      let x4 := unpacklo 16 x2 x2
      ShiftRightI t 32 24 x4
    else
      let x4 :=
        if f = 8 then
          let x2 := unpacklo 8 v v
          ShiftRightI t 32 24 (unpacklo 16 x2 x2)
        else ShiftRightI t 32 16 (unpacklo 16 v v)
      let s4 := shufflelo16 x4 (MM_SHUFFLE 3 3 1 1)
      InterleaveLower 32 x4 s4
  else cvtepi f g v
/-- `PromoteTo`, `x86_128-inl.h:7388-7529`: the signedness is that of the source. -/
def PromoteTo (t : Tgt) (signed : Bool) (f g : Nat) (v : M128) : M128 :=
  if signed then PromoteToI t f g v else PromoteToU t f g v

/-- `DemoteTo` from `i32` to `i16`, `x86_128-inl.h:9952-9955`. -/
def DemoteI32I16 (v : M128) : M128 := packs 32 v v
/-- The table `kLower2Bytes`, `x86_128-inl.h:9971-9972, 10000-10001`. -/
def kLower2Bytes : M128 := of16 [0x0100, 0x0504, 0x0908, 0x0D0C, 0x8080, 0x8080, 0x8080, 0x8080]
/-- `DemoteTo` from `i32` to `u16`, `x86_128-inl.h:9957-9979`. -/
def DemoteI32U16 (t : Tgt) (v : M128) : M128 :=
  if t.val ≥ HWY_SSSE3 then
    let zero_if_neg := AndNot (ShiftRightI t 32 31 v) v
    let too_big := Gt t true 32 v (set 32 0xFFFF#32)
    let clamped := Or zero_if_neg too_big
    if t.val = HWY_SSE2 then DemoteI32I16 (ShiftRightI t 32 16 (ShiftLeft 32 16 clamped))
    else TableLookupBytes t clamped kLower2Bytes
  else packus 32 v v
/-- `DemoteTo` from `u32` to `u16`, `x86_128-inl.h:9981-10008`. -/
def DemoteU32U16 (t : Tgt) (v : M128) : M128 :=
  if t.val ≥ HWY_SSSE3 then
    let too_big := Gt t true 32 (ShiftRightU 32 16 v) zero
    let clamped := Or v too_big
    if t.val = HWY_SSE2 then DemoteI32I16 (ShiftRightI t 32 16 (ShiftLeft 32 16 clamped))
    else TableLookupBytes t clamped kLower2Bytes
  else DemoteI32U16 t (MinU t 32 v (set 32 0x7FFFFFFF#32))
/-- `DemoteTo` from `i32` to `u8`, `x86_128-inl.h:10008-10012`. -/
def DemoteI32U8 (v : M128) : M128 := let i16 := packs 32 v v; packus 16 i16 i16
/-- `DemoteTo` from `i16` to `u8`, `x86_128-inl.h:10014-10017`. -/
def DemoteI16U8 (v : M128) : M128 := packus 16 v v
/-- `DemoteTo` from `i32` to `i8`, `x86_128-inl.h:10019-10023`. -/
def DemoteI32I8 (v : M128) : M128 := let i16 := packs 32 v v; packs 16 i16 i16
/-- `DemoteTo` from `i16` to `i8`, `x86_128-inl.h:10025-10028`. -/
def DemoteI16I8 (v : M128) : M128 := packs 16 v v
/-- The clamping of `u32` lanes to a nonnegative `i32`, `x86_128-inl.h:10042-10066, 10263-10276`. -/
def ClampU32 (t : Tgt) (v : M128) : M128 :=
  if t.val ≥ HWY_SSSE3 then MinU t 8 v (set 32 0x7FFFFFFF#32) else MinU t 32 v (set 32 0x7FFFFFFF#32)
/-- The clamping of `u16` lanes to a nonnegative `i16`, `x86_128-inl.h:10074-10100, 10325-10338`. -/
def ClampU16 (t : Tgt) (v : M128) : M128 :=
  if t.val ≥ HWY_SSSE3 then MinU t 8 v (set 16 0x7FFF#16) else MinU t 16 v (set 16 0x7FFF#16)
/-- `DemoteTo` from `u32` to `u8`, `x86_128-inl.h:10030-10069`. -/
def DemoteU32U8 (t : Tgt) (v : M128) : M128 := DemoteI32U8 (ClampU32 t v)
/-- `DemoteTo` from `u16` to `u8`, `x86_128-inl.h:10071-10103`. -/
def DemoteU16U8 (t : Tgt) (v : M128) : M128 := DemoteI16U8 (ClampU16 t v)

/-- `DemoteTo` from signed lanes of 16 or 32 bits, `x86_128-inl.h:9952-10030`. -/
def DemoteFromI (t : Tgt) (f : Nat) (signedTo : Bool) (n : Nat) (v : M128) : M128 :=
  if f = 32 then
    if n = 16 then if signedTo then DemoteI32I16 v else DemoteI32U16 t v
    else if signedTo then DemoteI32I8 v else DemoteI32U8 v
  else if signedTo then DemoteI16I8 v else DemoteI16U8 v
/-- `DemoteTo` from unsigned lanes of 16 or 32 bits, `x86_128-inl.h:9981-10103`; to signed lanes:
`generic_ops-inl.h:3284-3305`. -/
def DemoteFromU (t : Tgt) (f : Nat) (signedTo : Bool) (n : Nat) (v : M128) : M128 :=
  if signedTo then
    let i2i_demote_result := DemoteFromI t f true n v
    let max_signed_val := set n (BitVec.intMax n)
    MinU t n i2i_demote_result max_signed_val
  else if f = 32 then if n = 16 then DemoteU32U16 t v else DemoteU32U8 t v
  else DemoteU16U8 t v

/-- `TruncateTo` from `f`-bit lanes to `n`-bit lanes, `x86_128-inl.h:10867-10965`. -/
def TruncateTo (t : Tgt) (f n N : Nat) (v : M128) : M128 :=
  if N = 1 then v
  else if f = 64 then
    if n = 8 then
      if t.val = HWY_SSE2 then Combine 2 (unpackhi 64 v v) v
      else
        LowerHalf (LowerHalf (LowerHalf (TableLookupBytes t v
          (ofBytes [0, 8, 0, 8, 0, 8, 0, 8, 0, 8, 0, 8, 0, 8, 0, 8]))))
    else if n = 16 then
      if t.val = HWY_SSE2 then Combine 4 (unpackhi 64 v v) v
      else
        LowerHalf (LowerHalf (TableLookupBytes t v
          (of16 [0x100, 0x908, 0x100, 0x908, 0x100, 0x908, 0x100, 0x908])))
    else shuffle32 v 0x88
  else if f = 32 then
    if n = 8 then
      if t.val = HWY_SSE2 then DemoteI32U8 (ShiftRightU 32 24 (ShiftLeft 32 24 v))
      else
        LowerHalf (LowerHalf (TableLookupBytes t v
          (ofBytes [0x0, 0x4, 0x8, 0xC, 0x0, 0x4, 0x8, 0xC, 0x0, 0x4, 0x8, 0xC, 0x0, 0x4, 0x8, 0xC])))
    else
      if t.val = HWY_SSE2 then DemoteI32I16 (ShiftRightI t 32 16 (ShiftLeft 32 16 v))
      else LowerHalf (ConcatEven t 16 (4 * N) v v)
  else
    if t.val = HWY_SSE2 then DemoteI16I8 (ShiftRightI t 16 8 (ShiftLeft 16 8 v))
    else LowerHalf (ConcatEven t 8 (2 * N) v v)

/-- `detail::DemoteFromU64MaskOutResult`, `x86_128-inl.h:11018-11030`. -/
def DemoteFromU64MaskOutResult (signedTo : Bool) (n : Nat) (v : M128) : M128 :=
  if signedTo then And v (set 64 ((BitVec.intMax n).setWidth 64)) else v
/-- `detail::DemoteFromU64Saturate`, `x86_128-inl.h:11032-11044`. -/
def DemoteFromU64Saturate (t : Tgt) (signedTo : Bool) (n : Nat) (v : M128) : M128 :=
  let kShiftAmt := n - (if signedTo then 1 else 0)
  let too_big := Gt t true 64 (ShiftRightU 64 kShiftAmt v) zero
  DemoteFromU64MaskOutResult signedTo n (Or v too_big)
/-- The saturation of `i64` lanes for a signed result, `x86_128-inl.h:11060-11065, 11140-11149`. -/
def SaturateI64I (t : Tgt) (n : Nat) (v : M128) : M128 :=
  let invert_mask := BroadcastSignBit t 64 v
  Xor invert_mask (DemoteFromU64Saturate t true n (Xor invert_mask v))
/-- The saturation of `i64` lanes for an unsigned result, `x86_128-inl.h:11075-11076, 11161-11164`. -/
def SaturateI64U (t : Tgt) (n : Nat) (v : M128) : M128 :=
  DemoteFromU64Saturate t false n (AndNot (BroadcastSignBit t 64 v) v)
/-- `DemoteTo` from `i64`, `x86_128-inl.h:11053-11077`. -/
def DemoteFromI64 (t : Tgt) (signedTo : Bool) (n N : Nat) (v : M128) : M128 :=
  if signedTo then TruncateTo t 64 n N (SaturateI64I t n v) else TruncateTo t 64 n N (SaturateI64U t n v)
/-- `DemoteTo` from `u64`, `x86_128-inl.h:11079-11102`: SSE2 goes through `i32` for signed 8- and 16-bit
results. -/
def DemoteFromU64 (t : Tgt) (signedTo : Bool) (n N : Nat) (v : M128) : M128 :=
  if signedTo ∧ t.val = HWY_SSE2 ∧ n ≠ 32 then
    DemoteFromI t 32 true n (TruncateTo t 64 32 N (DemoteFromU64Saturate t true 32 v))
  else TruncateTo t 64 n N (DemoteFromU64Saturate t signedTo n v)

/-- `DemoteTo` of `N` lanes of `f` bits to lanes of `n` bits, for all integer types. -/
def DemoteTo (t : Tgt) (signedFrom : Bool) (f : Nat) (signedTo : Bool) (n N : Nat) (v : M128) : M128 :=
  if f = 64 then if signedFrom then DemoteFromI64 t signedTo n N v else DemoteFromU64 t signedTo n N v
  else if signedFrom then DemoteFromI t f signedTo n v else DemoteFromU t f signedTo n v

/-- `ReorderDemote2To` from signed lanes of `2*n` bits into a vector of `sz` bytes,
`x86_128-inl.h:10203-10253, 10288-10322`. -/
def ReorderDemote2FromI (t : Tgt) (signedTo : Bool) (n sz : Nat) (a b : M128) : M128 :=
  if n = 16 then
    if signedTo then
      if sz = 4 then DemoteI32I16 (Combine 8 b a)
      else if sz = 8 then shuffle32 (packs 32 a b) (MM_SHUFFLE 2 0 2 0)
      else packs 32 a b
    else
      if sz = 4 then DemoteI32U16 t (Combine 8 b a)
      else if sz = 8 then
        if t.val ≥ HWY_SSSE3 then DemoteI32U16 t (Combine 16 b a)
        else shuffle32 (packus 32 a b) (MM_SHUFFLE 2 0 2 0)
      else if t.val ≥ HWY_SSSE3 then
        let u16_a := DemoteI32U16 t a
        let u16_b := DemoteI32U16 t b
        Combine 16 u16_b u16_a
      else packus 32 a b
  else
    if signedTo then
      if sz ≤ 4 then DemoteI16I8 (Combine (2 * sz) b a)
      else if sz = 8 then shuffle32 (packs 16 a b) (MM_SHUFFLE 2 0 2 0)
      else packs 16 a b
    else
      if sz ≤ 4 then DemoteI16U8 (Combine (2 * sz) b a)
      else if sz = 8 then shuffle32 (packus 16 a b) (MM_SHUFFLE 2 0 2 0)
      else packus 16 a b
/-- `ReorderDemote2To` from unsigned lanes of `2*n` bits into a vector of `sz` bytes,
`x86_128-inl.h:10255-10286, 10324-10350`; to signed lanes: `generic_ops-inl.h:3307-3331`. -/
def ReorderDemote2FromU (t : Tgt) (signedTo : Bool) (n sz : Nat) (a b : M128) : M128 :=
  if signedTo then
    let i2i_demote_result := ReorderDemote2FromI t true n sz a b
    let max_signed_val := set n (BitVec.intMax n)
    MinU t n i2i_demote_result max_signed_val
  else if n = 16 then
    if sz = 16 then
      let clamped_a := ClampU32 t a
      let clamped_b := ClampU32 t b
      ReorderDemote2FromI t false 16 16 clamped_a clamped_b
    else DemoteU32U16 t (Combine (2 * sz) b a)
  else
    if sz = 16 then
      let clamped_a := ClampU16 t a
      let clamped_b := ClampU16 t b
      ReorderDemote2FromI t false 8 16 clamped_a clamped_b
    else DemoteU16U8 t (Combine (2 * sz) b a)
/-- `ReorderDemote2To` from 64-bit lanes into a vector of `sz` bytes, `x86_128-inl.h:11105-11179`
(the 16-byte result on AVX2 goes through a 32-byte vector: `V256.ReorderDemote2To128`). -/
def ReorderDemote2From64 (t : Tgt) (signedFrom signedTo : Bool) (sz : Nat) (a b : M128) : M128 :=
  if sz = 8 then DemoteTo t signedFrom 64 signedTo 32 2 (Combine 16 b a)
  else if signedFrom then
    if signedTo then ConcatEven t 32 16 (SaturateI64I t 32 b) (SaturateI64I t 32 a)
    else ConcatEven t 32 16 (SaturateI64U t 32 b) (SaturateI64U t 32 a)
  else
    let saturated_a := DemoteFromU64Saturate t signedTo 32 a
    let saturated_b := DemoteFromU64Saturate t signedTo 32 b
    ConcatEven t 32 16 saturated_b saturated_a
/-- `ReorderDemote2To` and `OrderedDemote2To` from lanes of `2*n` bits to a vector of `sz` bytes,
`x86_128-inl.h:10203-10359, 11105-11179`. -/
def ReorderDemote2To (t : Tgt) (signedFrom signedTo : Bool) (n sz : Nat) (a b : M128) : M128 :=
  if n = 32 then ReorderDemote2From64 t signedFrom signedTo sz a b
  else if signedFrom then ReorderDemote2FromI t signedTo n sz a b
  else ReorderDemote2FromU t signedTo n sz a b

/-- `PromoteLowerTo` of `f`-bit lanes to lanes of twice the width, `generic_ops-inl.h:3337-3343`. -/
def PromoteLowerTo (t : Tgt) (signed : Bool) (f : Nat) (v : M128) : M128 := PromoteTo t signed f (2 * f) (LowerHalf v)
/-- `PromoteUpperTo` of `f`-bit lanes of a vector of `sz` bytes, `generic_ops-inl.h:3356-3362`. -/
def PromoteUpperTo (t : Tgt) (signed : Bool) (f sz : Nat) (v : M128) : M128 :=
  PromoteTo t signed f (2 * f) (UpperHalf t f (sz / 2) v)
/-- `PromoteEvenTo` of a vector of `sz` bytes, `inside-inl.h:447-500`; `i32` to `i64`:
`x86_128-inl.h:9708-9724`. -/
def PromoteEvenTo (t : Tgt) (signed : Bool) (f sz : Nat) (v : M128) : M128 :=
  if signed then
    if f = 32 then
      if sz = 8 then PromoteLowerTo t true 32 v else PromoteLowerTo t true 32 (ConcatEven t 32 16 v v)
    else ShiftRightI t (2 * f) f (ShiftLeft (2 * f) f v)
  else And v (set (2 * f) ((BitVec.allOnes f).setWidth (2 * f)))
/-- `PromoteOddTo` of a vector of `sz` bytes, `inside-inl.h:502-545`; `i32` to `i64`:
`x86_128-inl.h:9726-9733`. -/
def PromoteOddTo (t : Tgt) (signed : Bool) (f sz : Nat) (v : M128) : M128 :=
  if signed then
    if f = 32 then PromoteLowerTo t true 32 (ConcatOdd t 32 sz v v)
    else ShiftRightI t (2 * f) f v
  else ShiftRightU (2 * f) f v

/-- 8-bit `operator*` of a vector of `sz` bytes, `generic_ops-inl.h:4566-4592`. AVX2 multiplies a full
vector in 256-bit registers (`HWY_MAX_BYTES = 32`): `V256.Mul8_128`. -/
def Mul8 (t : Tgt) (signed : Bool) (sz : Nat) (a b : M128) : M128 :=
  if sz ≤ 8 then
    let mul := Mul16 (PromoteTo t signed 8 16 a) (PromoteTo t signed 8 16 b)
    TruncateTo t 16 8 sz mul
  else
    let a0 := PromoteTo t signed 8 16 (LowerHalf a)
    let a1 := PromoteTo t signed 8 16 (UpperHalf t 8 8 a)
    let b0 := PromoteTo t signed 8 16 (LowerHalf b)
    let b1 := PromoteTo t signed 8 16 (UpperHalf t 8 8 b)
    let m0 := Mul16 a0 b0
    let m1 := Mul16 a1 b1
    ConcatEven t 8 16 m1 m0

/-- `SatWidenMulPairwiseAdd` of `u8` and `i8`: SSE2 `generic_ops-inl.h:5569-5584`, otherwise
`x86_128-inl.h:9797-9804` (`_mm_maddubs_epi16`). -/
def SatWidenMulPairwiseAdd (t : Tgt) (sz : Nat) (a b : M128) : M128 :=
  if t.val = HWY_SSE2 then
    let a0 := PromoteEvenTo t false 8 sz a
    let b0 := PromoteEvenTo t true 8 sz b
    let a1 := PromoteOddTo t false 8 sz a
    let b1 := PromoteOddTo t true 8 sz b
    SaturatedAdd true 16 (Mul16 a0 b0) (Mul16 a1 b1)
  else maddubs16 a b

end Hwy.X86
