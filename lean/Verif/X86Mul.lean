import Verif.X86Intrin3

/-!
# Integer multiplications of the x86 128-bit targets

`sz` is the size of the vector in bytes where the code distinguishes it.
-/

namespace Hwy.X86

/-- `operator*` of 16-bit lanes, `x86_128-inl.h:4289-4298`. -/
def Mul16 (a b : M128) : M128 := mullo 16 a b
/-- `MulHigh` of 16-bit lanes, `x86_128-inl.h:4300-4310`. -/
def MulHigh16 (signed : Bool) (a b : M128) : M128 := if signed then mulhiI16 a b else mulhiU16 a b
/-- `MulEven` of unsigned 32-bit lanes, `x86_128-inl.h:4365-4369`. -/
def MulEvenU32 (a b : M128) : M128 := mulEpu32 a b
/-- `MulEven` of signed 32-bit lanes, `x86_128-inl.h:4371-4400`. -/
def MulEvenI32 (t : Tgt) (a b : M128) : M128 :=
  if HWY_SSSE3 ≤ t.val then
    let neg_p_hi := ShiftLeft 64 32 (Add 32 (And (ShiftRightI t 32 31 a) b) (And (ShiftRightI t 32 31 b) a))
    let p_lo := MulEvenU32 a b
    Sub 64 p_lo neg_p_hi
  else mulEpi32 a b
/-- `MulEven` of 8-, 16- and 32-bit lanes, `x86_128-inl.h:4333-4400`. -/
def MulEven (t : Tgt) (signed : Bool) (w : Nat) (a b : M128) : M128 :=
  if w = 8 then
    if signed then
      Mul16 (ShiftRightI t 16 8 (ShiftLeft 16 8 a)) (ShiftRightI t 16 8 (ShiftLeft 16 8 b))
    else
      let lo8_mask := set 16 0x00FF#16
      Mul16 (And a lo8_mask) (And b lo8_mask)
  else if w = 16 then
    let lo := Mul16 a b
    let hi := ShiftLeft 32 16 (MulHigh16 signed a b)
    OddEven t 16 hi lo
  else if signed then MulEvenI32 t a b else MulEvenU32 a b
/-- `MulOdd` of 8-, 16- and 32-bit lanes (at least two), `x86_128-inl.h:4402-4428`. -/
def MulOdd (t : Tgt) (signed : Bool) (w sz : Nat) (a b : M128) : M128 :=
  if w = 8 then
    if signed then Mul16 (ShiftRightI t 16 8 a) (ShiftRightI t 16 8 b)
    else Mul16 (ShiftRightU 16 8 a) (ShiftRightU 16 8 b)
  else if w = 16 then
    let lo := ShiftRightU 32 16 (Mul16 a b)
    let hi := MulHigh16 signed a b
    OddEven t 16 hi lo
  else MulEven t signed 32 (DupOdd t 32 sz a) (DupOdd t 32 sz b)
/-- `operator*` of 32-bit lanes, `x86_128-inl.h:4430-4461`. -/
def Mul32 (t : Tgt) (a b : M128) : M128 :=
  if HWY_SSSE3 ≤ t.val then
    let a_x3x1 := shuffle32 a (MM_SHUFFLE 3 3 1 1)
    let mullo_x2x0 := MulEvenU32 a b
    let b_x3x1 := shuffle32 b (MM_SHUFFLE 3 3 1 1)
    let mullo_x3x1 := MulEvenU32 a_x3x1 b_x3x1
    let mul_20 := shuffle32 mullo_x2x0 (MM_SHUFFLE 2 0 2 0)
    let mul_31 := shuffle32 mullo_x3x1 (MM_SHUFFLE 2 0 2 0)
    unpacklo 32 mul_20 mul_31
  else mullo 32 a b
/-- `operator*` of 64-bit lanes, `generic_ops-inl.h:4606-4636`: a single lane is multiplied as a scalar. -/
def Mul64 (sz : Nat) (x y : M128) : M128 :=
  if sz = 8 then set 64 (lane 64 0 x * lane 64 0 y)
  else
    let lolo := MulEvenU32 x y
    let lohi := MulEvenU32 x (ShiftRightU 64 32 y)
    let hilo := MulEvenU32 (ShiftRightU 64 32 x) y
    let hi := ShiftLeft 64 32 (Add 32 lohi hilo)
    Add 32 lolo hi
/-- `operator*` of 16-, 32- and 64-bit lanes. `x86_128-inl.h:4289-4298, 4430-4461`,
`generic_ops-inl.h:4606-4636`. -/
def Mul (t : Tgt) (w sz : Nat) (a b : M128) : M128 :=
  if w = 16 then Mul16 a b else if w = 32 then Mul32 t a b else Mul64 sz a b

/-- The scalar `Mul128` of `base.h:2915-2953` (the branch with 128-bit integers): `(lower, upper)`. -/
def Mul128 (signed : Bool) (a b : BitVec 64) : BitVec 64 × BitVec 64 :=
  if signed then
    let product : BitVec 128 := a.signExtend 128 * b.signExtend 128
    (product.setWidth 64, (product.sshiftRight 64).setWidth 64)
  else
    let product : BitVec 128 := a.setWidth 128 * b.setWidth 128
    (product.setWidth 64, (product >>> 64).setWidth 64)
/-- `detail::SSE2Mul128` of unsigned lanes, `x86_128-inl.h:9598-9625`: `(mulL, mulH)`. -/
def SSE2Mul128U (a b : M128) : M128 × M128 :=
  let maskL := set 64 0xFFFFFFFF#64
  let aH := Shuffle2301 a
  let bH := Shuffle2301 b
  let aLbL := MulEvenU32 a b
  let w3 := And aLbL maskL
  let t2 := Add 64 (MulEvenU32 aH b) (ShiftRightU 64 32 aLbL)
  let w2 := And t2 maskL
  let w1 := ShiftRightU 64 32 t2
  let t := Add 64 (MulEvenU32 a bH) w2
  let k := ShiftRightU 64 32 t
  (Add 64 (ShiftLeft 64 32 t) w3, Add 64 (Add 64 (MulEvenU32 aH bH) w1) k)
/-- `detail::SSE2Mul128`, `x86_128-inl.h:9598-9641`. -/
def SSE2Mul128 (t : Tgt) (signed : Bool) (a b : M128) : M128 × M128 :=
  let r := SSE2Mul128U a b
  if signed then
    (r.1, Sub 64 (Sub 64 r.2 (And (BroadcastSignBit t 64 a) b)) (And a (BroadcastSignBit t 64 b)))
  else r
/-- `MulHigh` of 64-bit lanes, `x86_128-inl.h:9668-9675, 9695-9700`: on x86-64 a single lane goes through the
scalar `Mul128`. -/
def MulHigh64 (t : Tgt) (x64 signed : Bool) (sz : Nat) (a b : M128) : M128 :=
  if x64 ∧ sz = 8 then (Mul128 signed (lane 64 0 a) (lane 64 0 b)).2.setWidth 128
  else (SSE2Mul128 t signed a b).2
/-- `MulEven` of two 64-bit lanes, `x86_128-inl.h:9647-9653, 9679-9685`: lower and upper half of the product
of the lanes 0. -/
def MulEven64 (t : Tgt) (x64 signed : Bool) (a b : M128) : M128 :=
  if x64 then
    let p := Mul128 signed (lane 64 0 a) (lane 64 0 b)
    mk 64 (fun i => if i = 0 then p.1 else p.2)
  else
    let p := SSE2Mul128 t signed a b
    InterleaveLower 64 p.1 p.2
/-- `MulOdd` of two 64-bit lanes, `x86_128-inl.h:9655-9662, 9687-9697`. -/
def MulOdd64 (t : Tgt) (x64 signed : Bool) (a b : M128) : M128 :=
  if x64 then
    let p := Mul128 signed (lane 64 0 (UpperHalf t 64 8 a)) (lane 64 0 (UpperHalf t 64 8 b))
    mk 64 (fun i => if i = 0 then p.1 else p.2)
  else
    let p := SSE2Mul128 t signed a b
    InterleaveUpper t 64 16 p.1 p.2
/-- `Slide1Down` of more than one lane, `generic_ops-inl.h:7560-7563`. -/
def Slide1Down (t : Tgt) (w sz : Nat) (v : M128) : M128 := ShiftRightLanes t w sz 1 v
/-- `MulHigh` of 8-, 16- and 32-bit lanes, `x86_128-inl.h:4300-4331`. -/
def MulHigh (t : Tgt) (signed : Bool) (w sz : Nat) (a b : M128) : M128 :=
  if w = 16 then MulHigh16 signed a b
  else if sz = w / 8 then Slide1Down t w 16 (MulEven t signed w a b)
  else
    let p_even := MulEven t signed w a b
    let p_odd := MulOdd t signed w sz a b
    InterleaveOdd t w sz p_even p_odd

/-- `WidenMulPairwiseAdd` of 16-bit to 32-bit lanes, `x86_128-inl.h:9765-9785`. -/
def WidenMulPairwiseAdd (t : Tgt) (signed : Bool) (a b : M128) : M128 :=
  if signed then madd16 a b
  else
    let p_lo := Mul16 a b
    let p_hi := MulHigh16 false a b
    let p_hi1_lo0 := OddEven t 16 p_hi p_lo
    let p_hi0_lo1 := Or (ShiftLeft 32 16 p_hi) (ShiftRightU 32 16 p_lo)
    Add 32 p_hi1_lo0 p_hi0_lo1
/-- `ReorderWidenMulAccumulate` of 16-bit to 32-bit lanes (`sum1` is not written),
`x86_128-inl.h:9845-9867`. -/
def ReorderWidenMulAccumulate (t : Tgt) (signed : Bool) (a b sum0 : M128) : M128 :=
  Add 32 sum0 (WidenMulPairwiseAdd t signed a b)
/-- `RearrangeToOddPlusEven` of 32-bit integer lanes, `x86_128-inl.h:9870-9880`. -/
def RearrangeToOddPlusEven (sum0 _sum1 : M128) : M128 := sum0
/-- `MulFixedPoint15`, `x86_128-inl.h:10827-10865` (`ReorderDemote2To` and `DemoteTo` from `int32_t` to
`int16_t` are `packs`, `x86_128-inl.h:9952-9955, 10228-10232`). -/
def MulFixedPoint15 (t : Tgt) (sz : Nat) (a b : M128) : M128 :=
  if t.val = HWY_SSE2 then
    let lo_product := Mul16 a b
    let hi_product := MulHigh16 true a b
    let i32_product_lo := unpacklo 16 lo_product hi_product
    let round_up_incr := set 32 0x4000#32
    if sz = 16 then
      let i32_product_hi := unpackhi 16 lo_product hi_product
      packs 32 (ShiftRightI t 32 15 (Add 32 i32_product_lo round_up_incr))
        (ShiftRightI t 32 15 (Add 32 i32_product_hi round_up_incr))
    else
      let v := ShiftRightI t 32 15 (Add 32 i32_product_lo round_up_incr)
      packs 32 v v
  else mulhrs16 a b

end Hwy.X86
