import Verif.BitSet

/-!
# Model of scalar integer helpers in `hwy/base.h`

Unsigned `n`-bit integers are `BitVec n`; a signed integer is a `BitVec n` read through `toInt`
(two's complement).  Functions with a `#if` between an intrinsic and portable code are modelled in
their portable form; the intrinsics are given their documented meaning.
-/

namespace Hwy

/-! ## Bit scans -/

/-- `__builtin_clz*` / `_BitScanReverse*`: index of the highest set bit, scanning downward from bit
`k - 1` (0 if none; callers exclude 0). -/
def bsrFrom {w : Nat} (x : BitVec w) : Nat → Nat
  | 0 => 0
  | k + 1 => if x.getLsbD k then k else bsrFrom x k

/-- Bit-scan-reverse intrinsic. -/
def bsr {w : Nat} (x : BitVec w) : Nat := bsrFrom x w

/-- `Num0BitsAboveMS1Bit_Nonzero32` (base.h:2787-2796); undefined for 0. -/
def num0BitsAboveMS1Bit_Nonzero32 (x : BitVec 32) : M Nat :=
  if x = 0 then .error .ub else .ok (31 - bsr x)

/-- `Num0BitsAboveMS1Bit_Nonzero64` via the intrinsic (base.h:2798-2821). -/
def num0BitsAboveMS1Bit_Nonzero64 (x : BitVec 64) : M Nat :=
  if x = 0 then .error .ub else .ok (63 - bsr x)

/-- `Num0BitsBelowLS1Bit_Nonzero64` on targets with only a 32-bit scan (base.h:2769-2780).
`_BitScanForward` of 0 leaves the index unset, modelled as `ub`. -/
def num0BitsBelowLS1Bit_Nonzero64_via32 (x : BitVec 64) : M Nat :=
  let lsb : BitVec 32 := (x &&& 0xFFFFFFFF#64).setWidth 32
  if lsb = 0 then
    let msb : BitVec 32 := (x >>> 32).setWidth 32
    if msb = 0 then .error .ub else .ok (32 + ctz msb)
  else .ok (ctz lsb)

/-- `Num0BitsAboveMS1Bit_Nonzero64` on targets with only a 32-bit scan (base.h:2806-2817). -/
def num0BitsAboveMS1Bit_Nonzero64_via32 (x : BitVec 64) : M Nat :=
  let msb : BitVec 32 := (x >>> 32).setWidth 32
  if msb = 0 then
    let lsb : BitVec 32 := (x &&& 0xFFFFFFFF#64).setWidth 32
    if lsb = 0 then .error .ub else .ok (63 - bsr lsb)
  else .ok (31 - bsr msb)

/-! ## PopCount fallbacks -/

/-- SWAR `PopCount` for 8/16/32-bit types, after zero-extension to `u32_x` (base.h:2835-2841). -/
def popCount32 (x0 : BitVec 32) : BitVec 32 :=
  let x := x0 - ((x0 >>> 1) &&& 0x55555555#32)
  let x := ((x >>> 2) &&& 0x33333333#32) + (x &&& 0x33333333#32)
  let x := ((x >>> 4) + x) &&& 0x0F0F0F0F#32
  let x := x + (x >>> 8)
  let x := x + (x >>> 16)
  x &&& 0x3F#32

/-- SWAR `PopCount` for 64-bit types (base.h:2857-2865). -/
def popCount64 (x0 : BitVec 64) : BitVec 64 :=
  let x := x0 - ((x0 >>> 1) &&& 0x5555555555555555#64)
  let x := ((x >>> 2) &&& 0x3333333333333333#64) + (x &&& 0x3333333333333333#64)
  let x := ((x >>> 4) + x) &&& 0x0F0F0F0F0F0F0F0F#64
  let x := x + (x >>> 8)
  let x := x + (x >>> 16)
  let x := x + (x >>> 32)
  x &&& 0x7F#64

/-! ## Logarithms -/

/-- `FloorLog2` (base.h:2872-2877) on an unsigned `w`-bit type. The recursion has no base case for
0, so 0 (and fuel exhaustion) is reported as `ub`. -/
def floorLog2Fuel {w : Nat} : Nat → BitVec w → M Nat
  | 0, _ => .error .ub
  | fuel + 1, x => if x = 1 then .ok 0 else do
      let r ← floorLog2Fuel fuel (x >>> 1)
      return r + 1

/-- `FloorLog2` with enough fuel for the word size. -/
def floorLog2 {w : Nat} (x : BitVec w) : M Nat := floorLog2Fuel w x

/-- `CeilLog2` (base.h:2879-2884). -/
def ceilLog2 {w : Nat} (x : BitVec w) : M Nat :=
  if x = 1 then .ok 0 else do
    let r ← floorLog2 (x - 1)
    return r + 1

/-! ## Rounding helpers (base.h:2691-2708), on `size_t` -/

/-- `DivCeil` (base.h:2691-2697); division by zero is `ub`. -/
def divCeil (a b : BitVec 64) : M (BitVec 64) :=
  if b = 0 then .error .ub else .ok ((a + b - 1) / b)

/-- `RoundUpTo` (base.h:2700-2702). -/
def roundUpTo (what align : BitVec 64) : M (BitVec 64) := do
  let q ← divCeil what align
  return q * align

/-- `RoundDownTo` (base.h:2705-2707). -/
def roundDownTo (what align : BitVec 64) : M (BitVec 64) :=
  if align = 0 then .error .ub else .ok (what - (what % align))

/-! ## Shifts, addition -/

/-- `detail::ScalarShr(SignedTag)` (base.h:2721-2729): arithmetic shift built from logical ones. -/
def scalarShrSigned {w : Nat} (val : BitVec w) (s : Nat) : BitVec w :=
  if val.toInt < 0 then ~~~((~~~val) >>> s) else val >>> s

/-- `AddWithWraparound` for a `w ≤ 64`-bit integer type (base.h:2897-2907): widen both operands to
`unsigned long long`, by sign extension if signed, add, mask with `LimitsMax<TU>`, narrow. -/
def addWithWraparound (w : Nat) (signed : Bool) (t n : BitVec w) : BitVec w :=
  let ext : BitVec w → BitVec 64 := fun v => if signed then v.signExtend 64 else v.setWidth 64
  ((ext t + ext n) &&& ((BitVec.allOnes w).setWidth 64)).setWidth w

/-! ## 64 x 64 -> 128 multiplication -/

/-- Unsigned `Mul128` fallback; returns `(lower, upper)` (base.h:2915-2932). -/
def mul128 (a b : BitVec 64) : BitVec 64 × BitVec 64 :=
  let kLo32 : BitVec 64 := 0xFFFFFFFF#64
  let lo_lo := (a &&& kLo32) * (b &&& kLo32)
  let hi_lo := (a >>> 32) * (b &&& kLo32)
  let lo_hi := (a &&& kLo32) * (b >>> 32)
  let hi_hi := (a >>> 32) * (b >>> 32)
  let t := (lo_lo >>> 32) + (hi_lo &&& kLo32) + lo_hi
  ((t <<< 32) ||| (lo_lo &&& kLo32), (hi_lo >>> 32) + (t >>> 32) + hi_hi)

/-- Signed `Mul128` fallback; returns `(lower, upper)` (base.h:2934-2951). -/
def mul128Signed (a b : BitVec 64) : BitVec 64 × BitVec 64 :=
  let r := mul128 a b
  (r.1, r.2 - (scalarShrSigned a 63 &&& b) - (scalarShrSigned b 63 &&& a))

/-! ## Division by invariant integers -/

/-- `class Divisor` fields (base.h:2987-2990). -/
structure Divisor where
  divisor : BitVec 32
  mul : BitVec 32 := 1
  shift1 : BitVec 32 := 0
  shift2 : BitVec 32 := 0

/-- `Divisor::Truncate` (base.h:2983-2985). -/
def truncate32 (x : BitVec 64) : BitVec 32 := (x &&& 0xFFFFFFFF#64).setWidth 32

/-- `Divisor::Divisor` (base.h:2957-2968). -/
def Divisor.make (d : BitVec 32) : M Divisor :=
  if d ≤ 1 then .ok { divisor := d } else do
    let clz ← num0BitsAboveMS1Bit_Nonzero32 (d - 1)
    let len : BitVec 32 := BitVec.ofNat 32 (31 - clz)
    let u_hi : BitVec 64 := (2#64 <<< len.toNat) - d.setWidth 64
    let q := truncate32 ((u_hi <<< 32) / d.setWidth 64)
    return { divisor := d, mul := q + 1, shift1 := 1, shift2 := len }

/-- `Divisor::Divide` (base.h:2973-2977). -/
def Divisor.divide (v : Divisor) (n : BitVec 32) : BitVec 32 :=
  let t := truncate32 ((v.mul.setWidth 64 * n.setWidth 64) >>> 32)
  (t + ((n - t) >>> v.shift1.toNat)) >>> v.shift2.toNat

/-- `Divisor::Remainder` (base.h:2980). -/
def Divisor.remainder (v : Divisor) (n : BitVec 32) : BitVec 32 := n - (v.divide n * v.divisor)

/-- `class Divisor64` fields, `HWY_HAVE_DIV128` version (base.h:3064-3067). -/
structure Divisor64 where
  divisor : BitVec 64
  mul : BitVec 64 := 1
  shift1 : BitVec 64 := 0
  shift2 : BitVec 64 := 0

/-- `Divisor64::Div128` (base.h:3042-3051): `(hi * 2^64) / div` truncated to 64 bits. -/
def div128 (hi div : BitVec 64) : BitVec 64 :=
  (((hi.setWidth 128) <<< 64) / div.setWidth 128).setWidth 64

/-- `Divisor64::MulHigh` (base.h:3053-3062). -/
def mulHigh (a b : BitVec 64) : BitVec 64 :=
  ((a.setWidth 128 * b.setWidth 128) >>> 64).setWidth 64

/-- `Divisor64::Divisor64` (base.h:3015-3026). -/
def Divisor64.make (d : BitVec 64) : M Divisor64 :=
  if d ≤ 1 then .ok { divisor := d } else do
    let clz ← num0BitsAboveMS1Bit_Nonzero64 (d - 1)
    let len : BitVec 64 := BitVec.ofNat 64 (63 - clz)
    let u_hi : BitVec 64 := (2#64 <<< len.toNat) - d
    let q := div128 u_hi d
    return { divisor := d, mul := q + 1, shift1 := 1, shift2 := len }

/-- `Divisor64::Divide` (base.h:3031-3034). -/
def Divisor64.divide (v : Divisor64) (n : BitVec 64) : BitVec 64 :=
  let t := mulHigh v.mul n
  (t + ((n - t) >>> v.shift1.toNat)) >>> v.shift2.toNat

/-- `Divisor64::Remainder` (base.h:3037). -/
def Divisor64.remainder (v : Divisor64) (n : BitVec 64) : BitVec 64 :=
  n - (v.divide n * v.divisor)

/-! ## Sign and class of integers and floats -/

/-- `ScalarAbs(SignedTag)` (base.h:3100-3105). -/
def scalarAbsInt {w : Nat} (v : BitVec w) : BitVec w :=
  if v.toInt < 0 then 0 - v else v

/-- A binary interchange format: total bits and mantissa bits. -/
structure FloatFmt where
  bits : Nat
  mant : Nat

/-- `SignMask` (base.h:2434-2437). -/
def FloatFmt.signMask (f : FloatFmt) : BitVec f.bits := 1#f.bits <<< (f.bits - 1)

/-- `ExponentMask` (base.h:2440-2444): `(~(1 << M) + 1) & ~SignMask`. -/
def FloatFmt.exponentMask (f : FloatFmt) : BitVec f.bits :=
  (~~~(1#f.bits <<< f.mant) + 1) &&& ~~~f.signMask

/-- `MaxExponentTimes2` (base.h:2428-2431) as an unsigned pattern: `-(1 << (M + 1))`. -/
def FloatFmt.maxExponentTimes2 (f : FloatFmt) : BitVec f.bits := 0 - (1#f.bits <<< (f.mant + 1))

/-- `ScalarAbs(FloatTag)` on bit patterns (base.h:3087-3092). -/
def scalarAbsFloat (f : FloatFmt) (v : BitVec f.bits) : BitVec f.bits := v &&& ~~~f.signMask

/-- `ScalarIsNaN` (base.h:3123-3127). -/
def scalarIsNaN (f : FloatFmt) (v : BitVec f.bits) : Bool :=
  decide (scalarAbsFloat f v > f.exponentMask)

/-- `ScalarIsInf` (base.h:3130-3135). -/
def scalarIsInf (f : FloatFmt) (v : BitVec f.bits) : Bool :=
  decide (v <<< 1 = f.maxExponentTimes2)

/-- `ScalarIsFinite` (base.h:3140-3144). -/
def scalarIsFinite (f : FloatFmt) (v : BitVec f.bits) : Bool :=
  decide (scalarAbsFloat f v < f.exponentMask)

/-- `ScalarCopySign` (base.h:3164-3171). -/
def scalarCopySign (f : FloatFmt) (magn sign : BitVec f.bits) : BitVec f.bits :=
  (magn &&& ~~~f.signMask) ||| (sign &&& f.signMask)

/-- `ScalarSignBit` (base.h:3174-3179). -/
def scalarSignBit (f : FloatFmt) (v : BitVec f.bits) : Bool := decide (v &&& f.signMask ≠ 0)

end Hwy
