import Verif.X86V256Mask
import Verif.X86Intrin3

/-!
# Lane-wise integer operations of 256-bit AVX2 vectors

`hwy/ops/x86_256-inl.h`, the AVX2 branches, and the templates of `x86_128-inl.h` that are generic for all vector lengths.
Every 256-bit instruction used here acts on the two 128-bit blocks independently (`blk1`, `blk2`). `BitCast`, `MaskFromVec`,
`VecFromMask` and `RebindMask` do not change the register. `w` is the lane width in bits.
-/

namespace Hwy.X86.V256

/-! ### Logic and masks -/

/-- `And`, `x86_256-inl.h:493-499`. -/
def AndQ (a b : M256) : M256 := blk2 pand a b
/-- `AndNot` (`~not_mask & mask`), `x86_256-inl.h:511-517`. -/
def AndNotQ (a b : M256) : M256 := blk2 pandn a b
/-- `Or`, `x86_256-inl.h:527-533`. -/
def OrQ (a b : M256) : M256 := blk2 por a b
/-- `Xor`, `x86_256-inl.h:544-550`. -/
def XorQ (a b : M256) : M256 := blk2 pxor a b
/-- `Not`, `x86_256-inl.h:560-570`. -/
def VNotQ (v : M256) : M256 := XorQ v (setQ 32 (BitVec.ofInt 32 (-1)))
/-- `Xor3`, `x86_256-inl.h:573-585`. -/
def Xor3Q (a b c : M256) : M256 := XorQ a (XorQ b c)
/-- `Or3`, `x86_256-inl.h:588-600`. -/
def Or3Q (a b c : M256) : M256 := OrQ a (OrQ b c)
/-- `OrAnd`, `x86_256-inl.h:603-615`. -/
def OrAndQ (o a1 a2 : M256) : M256 := OrQ o (AndQ a1 a2)
/-- `IfThenElseZero`, `x86_256-inl.h:1169-1173`. -/
def IfThenElseZeroQ (mask yes : M256) : M256 := AndQ yes mask
/-- `IfThenZeroElse`, `x86_256-inl.h:1176-1180`. -/
def IfThenZeroElseQ (mask no : M256) : M256 := AndNotQ mask no
/-- `ZeroIfNegative`, `x86_256-inl.h:1182-1189`; `flt`: the lanes are `float` or `double`. For integer lanes `IfThenElse` is
`_mm256_blendv_epi8`. -/
def ZeroIfNegativeQ (flt : Bool) (w : Nat) (v : M256) : M256 :=
  if flt then IfThenElseF w v zero256 v else IfThenElse v zero256 v
/-- `ExclusiveNeither`, `x86_256-inl.h:1223-1227`. -/
def ExclusiveNeitherQ (a b : M256) : M256 := AndNotQ a (VNotQ b)

/-! ### Comparisons -/

/-- `operator==`, `x86_256-inl.h:1528-1546`. -/
def EqQ (w : Nat) (a b : M256) : M256 := blk2 (cmpeq w) a b
/-- `operator!=`, `x86_256-inl.h:1558-1561`. -/
def NeQ (w : Nat) (a b : M256) : M256 := VNotQ (EqQ w a b)
/-- `detail::Gt(SignedTag)`, `x86_256-inl.h:1583-1604`. -/
def GtIQ (w : Nat) (a b : M256) : M256 := blk2 (cmpgt w) a b
/-- `detail::Gt(UnsignedTag)`, `x86_256-inl.h:1606-1612`. -/
def GtUQ (w : Nat) (a b : M256) : M256 :=
  let msb := setQ w (BitVec.ofNat w ((2 ^ w - 1) / 2 + 1))
  GtIQ w (XorQ a msb) (XorQ b msb)
/-- `operator>`, `x86_256-inl.h:1625-1628`. -/
def GtQ (signed : Bool) (w : Nat) (a b : M256) : M256 := if signed then GtIQ w a b else GtUQ w a b
/-- `operator>=`, `x86_256-inl.h:1634-1642, 1655-1658`. -/
def GeQ (signed : Bool) (w : Nat) (a b : M256) : M256 := VNotQ (GtQ signed w b a)
/-- `operator<`, `x86_256-inl.h:1664-1667`. -/
def LtQ (signed : Bool) (w : Nat) (a b : M256) : M256 := GtQ signed w b a
/-- `operator<=`, `x86_256-inl.h:1669-1672`. -/
def LeQ (signed : Bool) (w : Nat) (a b : M256) : M256 := GeQ signed w b a

/-- Unsigned `Min`, `x86_256-inl.h:1677-1699`. -/
def MinUQ (w : Nat) (a b : M256) : M256 :=
  if w = 64 then
    let msb := setQ 64 (1#64 <<< 63)
    let gt := GtIQ 64 (XorQ a msb) (XorQ b msb)
    IfThenElse gt b a
  else blk2 (minU w) a b
/-- Signed `Min`, `x86_256-inl.h:1702-1717`. -/
def MinIQ (w : Nat) (a b : M256) : M256 := if w = 64 then IfThenElse (LtQ true 64 a b) a b else blk2 (minI w) a b
/-- Unsigned `Max`, `x86_256-inl.h:1735-1757`. -/
def MaxUQ (w : Nat) (a b : M256) : M256 :=
  if w = 64 then
    let msb := setQ 64 (1#64 <<< 63)
    let gt := GtIQ 64 (XorQ a msb) (XorQ b msb)
    IfThenElse gt a b
  else blk2 (maxU w) a b
/-- Signed `Max`, `x86_256-inl.h:1760-1775`. -/
def MaxIQ (w : Nat) (a b : M256) : M256 := if w = 64 then IfThenElse (LtQ true 64 a b) b a else blk2 (maxI w) a b

/-! ### Arithmetic -/

/-- Integer `operator+`, `x86_256-inl.h:1889-1914`. -/
def AddQ (w : Nat) (a b : M256) : M256 := blk2 (addI w) a b
/-- Integer `operator-`, `x86_256-inl.h:1932-1957`. -/
def SubQ (w : Nat) (a b : M256) : M256 := blk2 (subI w) a b
/-- `Neg` of signed integers, `x86_256-inl.h:2718-2722`. -/
def NegQ (w : Nat) (v : M256) : M256 := SubQ w zero256 v
/-- `SignBit` of an integer tag, `generic_ops-inl.h:74-80`. -/
def SignBitQ (w : Nat) : M256 := setQ w (BitVec.intMin w)
/-- `SumsOf8` of unsigned bytes, `x86_256-inl.h:2023-2025`. -/
def SumsOf8UQ (v : M256) : M256 := blk2 sad8 v zero256
/-- `SumsOf8` of signed bytes, `x86_128-inl.h:3977-3991`. -/
def SumsOf8IQ (v : M256) : M256 :=
  let v_adj := XorQ v (SignBitQ 8)
  AddQ 64 (SumsOf8UQ v_adj) (setQ 64 (BitVec.ofInt 64 (-1024)))
/-- `SumsOf8AbsDiff`, `x86_256-inl.h:2027-2029`; of signed bytes `x86_128-inl.h:4006-4023`. -/
def SumsOf8AbsDiffQ (signed : Bool) (a b : M256) : M256 :=
  if signed then
    let i8_msb := SignBitQ 8
    blk2 sad8 (XorQ a i8_msb) (XorQ b i8_msb)
  else blk2 sad8 a b
/-- `SaturatedAdd` of 8- and 16-bit lanes, `x86_256-inl.h:2086-2099`. -/
def SaturatedAddQ (signed : Bool) (w : Nat) (a b : M256) : M256 := if signed then blk2 (addsI w) a b else blk2 (addsU w) a b
/-- `SaturatedSub` of 8- and 16-bit lanes, `x86_256-inl.h:2130-2143`. -/
def SaturatedSubQ (signed : Bool) (w : Nat) (a b : M256) : M256 := if signed then blk2 (subsI w) a b else blk2 (subsU w) a b
/-- `AverageRound` of 8- and 16-bit lanes, `x86_256-inl.h:2174-2179`; signed `x86_128-inl.h:4276-4285`. -/
def AverageRoundQ (signed : Bool) (w : Nat) (a b : M256) : M256 :=
  if signed then
    let sign_bit := SignBitQ w
    XorQ (blk2 (avgU w) (XorQ a sign_bit) (XorQ b sign_bit)) sign_bit
  else blk2 (avgU w) a b

/-! ### Shifts by the same count -/

/-- `ShiftLeft<kBits>`, `x86_256-inl.h:2267-2307`. -/
def ShiftLeftQ (w k : Nat) (v : M256) : M256 :=
  if w = 8 then
    let shifted := blk1 (slli 16 k) v
    if k = 1 then AddQ 8 v v else AndQ shifted (setQ 8 (BitVec.ofNat 8 ((0xFF <<< k) &&& 0xFF)))
  else blk1 (slli w k) v
/-- `ShiftRight<kBits>` of unsigned lanes, `x86_256-inl.h:2313-2326, 2340-2346`. -/
def ShiftRightUQ (w k : Nat) (v : M256) : M256 :=
  if w = 8 then
    let shifted := blk1 (srli 16 k) v
    AndQ shifted (setQ 8 (BitVec.ofNat 8 (0xFF >>> k)))
  else blk1 (srli w k) v
/-- `BroadcastSignBit`, `x86_256-inl.h:2444-2455, 2471-2475`. -/
def BroadcastSignBitQ (w : Nat) (v : M256) : M256 :=
  if w = 8 ∨ w = 64 then LtQ true w v zero256 else blk1 (srai w (w - 1)) v
/-- `ShiftRight<kBits>` of signed lanes, `x86_256-inl.h:2328-2336, 2348-2355, 2477-2484`. -/
def ShiftRightIQ (w k : Nat) (v : M256) : M256 :=
  if w = 8 then
    let shifted := ShiftRightUQ 8 k v
    let shifted_sign := setQ 8 (BitVec.ofNat 8 (0x80 >>> k))
    SubQ 8 (XorQ shifted shifted_sign) shifted_sign
  else if w = 64 then
    let right := ShiftRightUQ 64 k v
    let sign := ShiftLeftQ 64 (64 - k) (BroadcastSignBitQ 64 v)
    OrQ right sign
  else blk1 (srai w k) v
/-- `RotateRight<kBits>`, `x86_256-inl.h:2367-2408`. -/
def RotateRightQ (w k : Nat) (v : M256) : M256 :=
  if k = 0 then v else OrQ (ShiftRightUQ w k v) (ShiftLeftQ w (min (w - 1) (w - k)) v)
/-- `ShiftLeftSame`, `x86_256-inl.h:2551-2612`; `isConst`: GCC knows the count. -/
def ShiftLeftSameQ (isConst : Bool) (w : Nat) (v : M256) (bits : Nat) : M256 :=
  if w = 8 then
    let shifted := if isConst then blk1 (slli 16 bits) v else blk1 (fun x => sll 16 x (cvtsi32 bits)) v
    AndQ shifted (setQ 8 (BitVec.ofNat 8 ((0xFF <<< bits) &&& 0xFF)))
  else if isConst then blk1 (slli w bits) v else blk1 (fun x => sll w x (cvtsi32 bits)) v
/-- `ShiftRightSame` of unsigned lanes, `x86_256-inl.h:2616-2649`. -/
def ShiftRightSameUQ (isConst : Bool) (w : Nat) (v : M256) (bits : Nat) : M256 :=
  if w = 8 then
    let shifted := if isConst then blk1 (srli 16 bits) v else blk1 (fun x => srl 16 x (cvtsi32 bits)) v
    AndQ shifted (setQ 8 (BitVec.ofNat 8 (0xFF >>> bits)))
  else if isConst then blk1 (srli w bits) v else blk1 (fun x => srl w x (cvtsi32 bits)) v
/-- `ShiftRightSame` of signed lanes, `x86_256-inl.h:2651-2696`. -/
def ShiftRightSameIQ (isConst : Bool) (w : Nat) (v : M256) (bits : Nat) : M256 :=
  if w = 8 then
    let shifted := ShiftRightSameUQ isConst 8 v bits
    let shifted_sign := setQ 8 (BitVec.ofNat 8 (0x80 >>> bits))
    SubQ 8 (XorQ shifted shifted_sign) shifted_sign
  else if w = 64 then
    let right := ShiftRightSameUQ isConst 64 v bits
    let sign := ShiftLeftSameQ isConst 64 (BroadcastSignBitQ 64 v) (64 - bits)
    OrQ right sign
  else if isConst then blk1 (srai w bits) v else blk1 (fun x => sra w x (cvtsi32 bits)) v

/-! ### Signs -/

/-- `IfNegativeThenElse`, `x86_256-inl.h:2489-2526`. -/
def IfNegativeThenElseQ (w : Nat) (v yes no : M256) : M256 :=
  if w = 8 then IfThenElse v yes no
  else if w = 16 then IfThenElse (BroadcastSignBitQ 16 v) yes no
  else IfThenElseF w v yes no
/-- `IfNegativeThenNegOrUndefIfZero`, `x86_256-inl.h:2530-2543`; of 64-bit lanes `x86_128-inl.h:4923-4933`. -/
def IfNegativeThenNegOrUndefIfZeroQ (w : Nat) (mask v : M256) : M256 :=
  if w = 64 then IfNegativeThenElseQ 64 mask (NegQ 64 v) v else blk2 (signI w) v mask
/-- `Abs`, `x86_256-inl.h:2184-2199` (`msvc`: the workaround); of 64-bit lanes `x86_128-inl.h:4715-4719`. -/
def AbsQ (msvc : Bool) (w : Nat) (v : M256) : M256 :=
  if w = 64 then IfNegativeThenElseQ 64 v (SubQ 64 zero256 v) v
  else if w = 8 ∧ msvc then blk2 (maxI 8) v (SubQ 8 zero256 v)
  else blk1 (absI w) v
/-- `SaturatedAbs`, `x86_128-inl.h:4729-4762`. -/
def SaturatedAbsQ (msvc : Bool) (w : Nat) (v : M256) : M256 :=
  if w = 8 then MinUQ 8 v (SaturatedSubQ true 8 zero256 v)
  else if w = 16 then MaxIQ 16 v (SaturatedSubQ true 16 zero256 v)
  else
    let abs_v := AbsQ msvc w v
    if w = 32 then MinUQ 32 abs_v (setQ 32 (BitVec.ofNat 32 (2 ^ 31 - 1)))
    else AddQ 64 abs_v (BroadcastSignBitQ 64 abs_v)

end Hwy.X86.V256
