import Verif.X86V256Ops
import Verif.X86V256Conv
import Verif.X86Mul

/-!
# Integer multiplications and shifts by a count per lane of 256-bit AVX2 vectors

`hwy/ops/x86_256-inl.h`, and the templates of `x86_128-inl.h`, `generic_ops-inl.h`, `inside-inl.h` that are generic for all
vector lengths.
-/

namespace Hwy.X86.V256

/-! ## Multiplications -/

/-- `operator*` of 16-bit lanes, `x86_256-inl.h:2210-2212, 2223-2225`. -/
def Mul16Q (a b : M256) : M256 := blk2 (mullo 16) a b
/-- `operator*` of 32-bit lanes, `x86_256-inl.h:2213-2215, 2226-2228`. -/
def Mul32Q (a b : M256) : M256 := blk2 (mullo 32) a b
/-- `MulHigh` of 16-bit lanes, `x86_256-inl.h:2235-2241`. -/
def MulHigh16Q (signed : Bool) (a b : M256) : M256 := if signed then blk2 mulhiI16 a b else blk2 mulhiU16 a b
/-- `MulFixedPoint15`, `x86_256-inl.h:2243-2245`. -/
def MulFixedPoint15Q (a b : M256) : M256 := blk2 mulhrs16 a b
/-- `MulEven` of 32-bit lanes, `x86_256-inl.h:2249-2254`. -/
def MulEven32Q (signed : Bool) (a b : M256) : M256 := if signed then blk2 mulEpi32 a b else blk2 mulEpu32 a b
/-- `MulEven` of 8-, 16- and 32-bit lanes, `x86_128-inl.h:4332-4360`, `x86_256-inl.h:2249-2254`. -/
def MulEvenQ (signed : Bool) (w : Nat) (a b : M256) : M256 :=
  if w = 8 then
    if signed then
      Mul16Q (ShiftRightIQ 16 8 (ShiftLeftQ 16 8 a)) (ShiftRightIQ 16 8 (ShiftLeftQ 16 8 b))
    else
      let lo8_mask := setQ 16 0x00FF#16
      Mul16Q (AndQ a lo8_mask) (AndQ b lo8_mask)
  else if w = 16 then
    let lo := Mul16Q a b
    let hi := ShiftLeftQ 32 16 (MulHigh16Q signed a b)
    OddEven false 16 hi lo
  else MulEven32Q signed a b
/-- `MulOdd` of 8-, 16- and 32-bit lanes, `x86_128-inl.h:4399-4422`. -/
def MulOddQ (signed : Bool) (w : Nat) (a b : M256) : M256 :=
  if w = 8 then
    if signed then Mul16Q (ShiftRightIQ 16 8 a) (ShiftRightIQ 16 8 b)
    else Mul16Q (ShiftRightUQ 16 8 a) (ShiftRightUQ 16 8 b)
  else if w = 16 then
    let lo := ShiftRightUQ 32 16 (Mul16Q a b)
    let hi := MulHigh16Q signed a b
    OddEven false 16 hi lo
  else MulEven32Q signed (DupOdd false 32 a) (DupOdd false 32 b)
/-- `MulHigh` of 8-, 16- and 32-bit lanes, `x86_256-inl.h:2235-2241`, `x86_128-inl.h:4321-4330`. -/
def MulHighQ (signed : Bool) (w : Nat) (a b : M256) : M256 :=
  if w = 16 then MulHigh16Q signed a b
  else
    let p_even := MulEvenQ signed w a b
    let p_odd := MulOddQ signed w a b
    InterleaveOdd false w p_even p_odd
/-- `operator*` of 64-bit lanes, `generic_ops-inl.h:4616-4636`. -/
def Mul64Q (x y : M256) : M256 :=
  let lolo := MulEven32Q false x y
  let lohi := MulEven32Q false x (ShiftRightUQ 64 32 y)
  let hilo := MulEven32Q false (ShiftRightUQ 64 32 x) y
  let hi := ShiftLeftQ 64 32 (AddQ 32 lohi hilo)
  AddQ 32 lolo hi
/-- `operator*` of 16-, 32- and 64-bit lanes. -/
def MulQ (w : Nat) (a b : M256) : M256 := if w = 16 then Mul16Q a b else if w = 32 then Mul32Q a b else Mul64Q a b
/-- `detail::SSE2Mul128` of unsigned lanes, `x86_128-inl.h:9599-9625`: `(mulL, mulH)`. -/
def Mul128UQ (a b : M256) : M256 × M256 :=
  let maskL := setQ 64 0xFFFFFFFF#64
  let aH := Shuffle2301 false a
  let bH := Shuffle2301 false b
  let aLbL := MulEven32Q false a b
  let w3 := AndQ aLbL maskL
  let t2 := AddQ 64 (MulEven32Q false aH b) (ShiftRightUQ 64 32 aLbL)
  let w2 := AndQ t2 maskL
  let w1 := ShiftRightUQ 64 32 t2
  let t := AddQ 64 (MulEven32Q false a bH) w2
  let k := ShiftRightUQ 64 32 t
  (AddQ 64 (ShiftLeftQ 64 32 t) w3, AddQ 64 (AddQ 64 (MulEven32Q false aH bH) w1) k)
/-- `detail::SSE2Mul128`, `x86_128-inl.h:9599-9639`. -/
def Mul128Q (signed : Bool) (a b : M256) : M256 × M256 :=
  let r := Mul128UQ a b
  if signed then
    (r.1, SubQ 64 (SubQ 64 r.2 (AndQ (BroadcastSignBitQ 64 a) b)) (AndQ a (BroadcastSignBitQ 64 b)))
  else r
/-- `MulHigh` of 64-bit lanes, `x86_128-inl.h:9664-9670`. -/
def MulHigh64Q (signed : Bool) (a b : M256) : M256 := (Mul128Q signed a b).2
/-- `MulEven` of 64-bit lanes, `x86_128-inl.h:9645-9651`. -/
def MulEven64Q (signed : Bool) (a b : M256) : M256 :=
  let p := Mul128Q signed a b
  InterleaveLower 64 p.1 p.2
/-- `MulOdd` of 64-bit lanes, `x86_128-inl.h:9653-9660`. -/
def MulOdd64Q (signed : Bool) (a b : M256) : M256 :=
  let p := Mul128Q signed a b
  InterleaveUpper 64 p.1 p.2
/-- `WidenMulPairwiseAdd` of 16-bit lanes, `x86_256-inl.h:6291-6295`; unsigned `x86_128-inl.h:9774-9785`. -/
def WidenMulPairwiseAddQ (signed : Bool) (a b : M256) : M256 :=
  if signed then blk2 madd16 a b
  else
    let p_lo := Mul16Q a b
    let p_hi := MulHigh16Q false a b
    let p_hi1_lo0 := OddEven false 16 p_hi p_lo
    let p_hi0_lo1 := OrQ (ShiftLeftQ 32 16 p_hi) (ShiftRightUQ 32 16 p_lo)
    AddQ 32 p_hi1_lo0 p_hi0_lo1
/-- `ReorderWidenMulAccumulate` (`sum1` is not written), `x86_256-inl.h:6331-6342`; unsigned `x86_128-inl.h:9863-9871`. -/
def ReorderWidenMulAccumulateQ (signed : Bool) (a b sum0 : M256) : M256 := AddQ 32 sum0 (WidenMulPairwiseAddQ signed a b)
/-- `RearrangeToOddPlusEven`, `x86_256-inl.h:6345-6353`. -/
def RearrangeToOddPlusEvenQ (sum0 _sum1 : M256) : M256 := sum0

/-! ## Shifts by a count per lane -/

/-- `detail::AVX2ShlU16Vec256`, `x86_256-inl.h:6090-6101`. -/
def Shl16Q (v bits : M256) : M256 :=
  let lo_shl_result := blk2 (sllv 32) (PromoteTo false 16 32 (LowerHalf v)) (PromoteTo false 16 32 (LowerHalf bits))
  let hi_shl_result := blk2 (sllv 32) (PromoteTo false 16 32 (UpperHalf v)) (PromoteTo false 16 32 (UpperHalf bits))
  ConcatEven 16 hi_shl_result lo_shl_result
/-- `detail::Shl` of 8-bit lanes, `x86_256-inl.h:6113-6141`. -/
def Shl8Q (v bits : M256) : M256 :=
  let even_mask := setQ 16 0x00FF#16
  let odd_mask := setQ 16 0xFF00#16
  let evens := Shl16Q v (AndQ bits even_mask)
  let odds := Shl16Q (AndQ v odd_mask) (ShiftRightUQ 16 8 bits)
  OddEven false 8 odds evens
/-- `operator<<`, `x86_256-inl.h:6104-6111, 6143-6167`: signed lanes are shifted as unsigned ones. -/
def ShlQ (w : Nat) (v bits : M256) : M256 :=
  if w = 8 then Shl8Q v bits else if w = 16 then Shl16Q v bits else blk2 (sllv w) v bits
/-- `detail::AVX2ShrU16Vec256` and `detail::AVX2ShrI16Vec256`, `x86_256-inl.h:6174-6187, 6225-6236`. -/
def Shr16Q (signed : Bool) (v bits : M256) : M256 :=
  let shr := if signed then srav 32 else srlv 32
  let lo_shr_result := blk2 shr (PromoteTo signed 16 32 (LowerHalf v)) (PromoteTo signed 16 32 (LowerHalf bits))
  let hi_shr_result := blk2 shr (PromoteTo signed 16 32 (UpperHalf v)) (PromoteTo signed 16 32 (UpperHalf bits))
  OrderedDemote2To true signed 16 lo_shr_result hi_shr_result
/-- `operator>>` of `u8` lanes, `x86_256-inl.h:6200-6212`. -/
def ShrU8Q (v bits : M256) : M256 :=
  let mask := setQ 16 0x00FF#16
  let evens := Shr16Q false (AndQ v mask) (AndQ bits mask)
  let odds := Shr16Q false v (ShiftRightUQ 16 8 bits)
  OddEven false 8 odds evens
/-- `operator>>` of `i8` lanes, `x86_256-inl.h:6249-6262`. -/
def ShrI8Q (v bits : M256) : M256 :=
  let mask := setQ 16 0x00FF#16
  let evens := Shr16Q true (ShiftRightIQ 16 8 (ShiftLeftQ 16 8 v)) (AndQ bits mask)
  let odds := Shr16Q true v (ShiftRightUQ 16 8 bits)
  OddEven false 8 odds evens
/-- `detail::SignedShr` of 64-bit lanes, `x86_128-inl.h:9497-9506`. -/
def SignedShr64Q (v count : M256) : M256 :=
  let sign := BroadcastSignBitQ 64 v
  let abs := XorQ v sign
  XorQ (blk2 (srlv 64) abs count) sign
/-- `operator>>`, `x86_256-inl.h:6192-6198, 6214-6220, 6241-6247, 6264-6275`. -/
def ShrQ (signed : Bool) (w : Nat) (v bits : M256) : M256 :=
  if w = 8 then if signed then ShrI8Q v bits else ShrU8Q v bits
  else if w = 16 then Shr16Q signed v bits
  else if w = 32 then if signed then blk2 (srav 32) v bits else blk2 (srlv 32) v bits
  else if signed then SignedShr64Q v bits else blk2 (srlv 64) v bits
/-- `Rol`, `inside-inl.h:156-168, 193-205, 230-242, 259-271`. -/
def RolQ (w : Nat) (a b : M256) : M256 :=
  let shift_amt_mask := setQ w (BitVec.ofNat w (w - 1))
  let shl_amt := AndQ b shift_amt_mask
  let shr_amt := AndQ (NegQ w b) shift_amt_mask
  OrQ (ShlQ w a shl_amt) (ShrQ false w a shr_amt)
/-- `Ror`, `inside-inl.h:170-182, 207-219, 244-256, 273-285`. -/
def RorQ (w : Nat) (a b : M256) : M256 :=
  let shift_amt_mask := setQ w (BitVec.ofNat w (w - 1))
  let shr_amt := AndQ b shift_amt_mask
  let shl_amt := AndQ (NegQ w b) shift_amt_mask
  OrQ (ShlQ w a shl_amt) (ShrQ false w a shr_amt)

end Hwy.X86.V256
