import Verif.EmuMask
import Verif.FloatRound

/-!
# Model of the floating-point lane operations of `hwy/ops/emu128-inl.h`

A `float`/`double` lane is its bit pattern, a natural number `sign * 2^(p+e) + code` (format `⟨p, e⟩`,
`Verif/Float16.lean`); a register of floats is the register of the unsigned type of the same size holding
the bit patterns (`BitCast`, emu128-inl.h:115-121).  The first section is the IEEE arithmetic the C++
expressions compile to (trusted, like `CInt` for integers): comparisons, addition, subtraction, conversion
from and to integers, all exact or rounded to nearest even.  Converting a float to an integer type that
cannot hold the truncated value is undefined behaviour.
-/

namespace Hwy
namespace Flt

/-- Bits below the sign. -/
def Fmt.w (F : Fmt) : Nat := F.p + F.e
/-- Exponent bias. -/
def Fmt.bias (F : Fmt) : Nat := 2 ^ (F.e - 1) - 1
/-- `2 ^ -unit` is the smallest positive subnormal: 149 for `float`, 1074 for `double`. -/
def Fmt.unit (F : Fmt) : Nat := F.bias + F.p - 1

/-- `SignMask<T>()` (base.h:2434-2437). -/
def Fmt.signMask (F : Fmt) : Nat := 2 ^ F.w

/-- Sign bit set? -/
def Fmt.neg (F : Fmt) (a : Nat) : Bool := decide (F.signMask ≤ a)
/-- Code: the bits below the sign. -/
def Fmt.mag (F : Fmt) (a : Nat) : Nat := a % F.signMask
/-- Sign and code to bit pattern. -/
def Fmt.pack (F : Fmt) (neg : Bool) (c : Nat) : Nat := (if neg then F.signMask else 0) + c

/-- IEEE: larger code than infinity. -/
def Fmt.nan (F : Fmt) (a : Nat) : Bool := decide (F.inf < F.mag a)
/-- Signed value in units (`F.val`); infinity counts as the next power of two, which keeps the order. -/
def Fmt.sval (F : Fmt) (a : Nat) : Int := if F.neg a then -(F.val (F.mag a) : Int) else F.val (F.mag a)

/-! ### IEEE operations -/

/-- `a < b`: false if either is NaN. -/
def flt (F : Fmt) (a b : Nat) : Bool := !F.nan a && !F.nan b && decide (F.sval a < F.sval b)
/-- `a <= b`. -/
def fle (F : Fmt) (a b : Nat) : Bool := !F.nan a && !F.nan b && decide (F.sval a ≤ F.sval b)
/-- `a == b`. -/
def feq (F : Fmt) (a b : Nat) : Bool := !F.nan a && !F.nan b && decide (F.sval a = F.sval b)

/-- Some quiet NaN (which one is left open by IEEE). -/
def Fmt.qnan (F : Fmt) : Nat := F.inf + 2 ^ (F.p - 1)

/-- `-a`. -/
def fneg (F : Fmt) (a : Nat) : Nat := F.pack (!F.neg a) (F.mag a)

/-- `a + b`: exact sum rounded to nearest even; a zero sum is `-0` only if both operands are. -/
def fadd (F : Fmt) (a b : Nat) : Nat :=
  if F.nan a || F.nan b then F.qnan
  else if F.mag a = F.inf then (if F.mag b = F.inf ∧ F.neg a ≠ F.neg b then F.qnan else a)
  else if F.mag b = F.inf then b
  else
    let s := F.sval a + F.sval b
    if s = 0 then F.pack (F.neg a && F.neg b) 0 else F.pack (decide (s < 0)) (rneEncode F 0 s.natAbs)

/-- `a - b`. -/
def fsub (F : Fmt) (a b : Nat) : Nat := fadd F a (fneg F b)

/-- Conversion of an integer. -/
def ofInt (F : Fmt) (n : Int) : Nat := F.pack (decide (n < 0)) (rneEncode F 0 (n.natAbs * 2 ^ F.unit))

/-- Conversion to integer type `t`: truncates; undefined if the result does not fit. -/
def toInt (F : Fmt) (t : CInt.Ty) (a : Nat) : M Int :=
  if F.inf ≤ F.mag a then .error .ub
  else
    let n := (F.sval a).tdiv (2 ^ F.unit)
    if t.Has n then .ok n else .error .ub

/-- The constants `0.5` and `-0.5`. -/
def Fmt.half (F : Fmt) : Nat := (F.bias - 1) <<< F.p
def Fmt.mhalf (F : Fmt) : Nat := F.signMask + (F.bias - 1) <<< F.p
/-- The constants `1.0` and `-1.0`. -/
def Fmt.one (F : Fmt) : Nat := F.bias <<< F.p
def Fmt.mone (F : Fmt) : Nat := F.signMask + F.bias <<< F.p

/-- `MakeUnsigned<T>` and `MakeSigned<T>`. -/
def Fmt.ut (F : Fmt) : CInt.Ty := ⟨F.w + 1, false⟩
def Fmt.it (F : Fmt) : CInt.Ty := ⟨F.w + 1, true⟩

/-! ### base.h -/

/-- `~x` for `x` of type `MakeUnsigned<T>`. -/
def unot (F : Fmt) (x : Nat) : Nat := 2 ^ (F.w + 1) - 1 - x

/-- `ExponentMask<T>()` (base.h:2440-2444), in unsigned arithmetic. -/
def exponentMask (F : Fmt) : Nat := (unot F (1 <<< F.p) + 1) % 2 ^ (F.w + 1) &&& unot F F.signMask

/-- `MantissaMask<T>()` (base.h:2447-2450). -/
def mantissaMask (F : Fmt) : Nat := 1 <<< F.p - 1

/-- `MaxExponentField<T>()` (base.h:2486-2489). -/
def maxExponentField (F : Fmt) : Nat := 1 <<< F.e - 1

/-- `MantissaEnd<T>()` (base.h:2454-2475): `1 << mantissa_bits` as a float. -/
def mantissaEnd (F : Fmt) : Nat := (F.bias + F.p) <<< F.p

/-- `ScalarAbs` (base.h:3086-3092). -/
def scalarAbs (F : Fmt) (a : Nat) : Nat := a &&& unot F F.signMask

/-- `ScalarIsNaN` (base.h:3122-3127). -/
def scalarIsNaN (F : Fmt) (a : Nat) : Bool := decide (scalarAbs F a > exponentMask F)

/-- `ScalarSignBit` (base.h:3173-3179). -/
def scalarSignBit (F : Fmt) (a : Nat) : Bool := (a &&& F.signMask) != 0

/-! ### emu128-inl.h, per lane -/

/-- The common part of `Round`, `NearestInt` and `DemoteToNearestInt` (emu128-inl.h:1036-1051, 1073-1087,
1112-1126): `x + copysign(0.5)` truncated, and whether the tie correction applies. -/
def biased (F : Fmt) (ti : CInt.Ty) (x : Nat) : M Int :=
  let bias := if flt F x (ofInt F 0) then F.mhalf else F.half
  toInt F ti (fadd F x bias)

/-- `(rounded & 1) && ScalarAbs(rounded_f - v) == 0.5` (emu128-inl.h:1044-1045). -/
def isTie (F : Fmt) (ti : CInt.Ty) (rounded : Int) (x : Nat) : Bool :=
  (CInt.band ⟨ti, rounded⟩ ⟨CInt.i32, 1⟩).v != 0 &&
    feq F (scalarAbs F (fsub F (ofInt F rounded) x)) F.half

/-- `Round` (emu128-inl.h:1028-1053).  `ConvertScalarTo<T>(-0)` converts the integer `-0`, i.e. 0. -/
def roundLane (F : Fmt) (x : Nat) : M Nat :=
  if !flt F (scalarAbs F x) (mantissaEnd F) then .ok x
  else do
    let rounded ← biased F F.it x
    if rounded = 0 then .ok (if flt F x (ofInt F 0) then ofInt F (-0) else ofInt F 0)
    else if isTie F F.it rounded x then do
      let r ← CInt.sub ⟨F.it, rounded⟩ ⟨CInt.i32, if flt F x (ofInt F 0) then -1 else 1⟩
      .ok (ofInt F r.v)
    else .ok (ofInt F rounded)

/-- `NearestInt` (emu128-inl.h:1056-1090). -/
def nearestIntLane (F : Fmt) (x : Nat) : M Int :=
  let signbit := scalarSignBit F x
  if !flt F (scalarAbs F x) (mantissaEnd F) then
    if !fle F (scalarAbs F x) (ofInt F F.it.hi) then .ok (if signbit then F.it.lo else F.it.hi)
    else toInt F F.it x
  else do
    let rounded ← biased F F.it x
    if rounded = 0 then .ok 0
    else if isTie F F.it rounded x then do
      let r ← CInt.sub ⟨F.it, rounded⟩ ⟨CInt.i32, if signbit then -1 else 1⟩
      .ok (CInt.cast F.it r).v
    else .ok rounded

/-- `DemoteToNearestInt` (emu128-inl.h:1093-1128): `double` (used with `F = f64` only) to `int32_t`. -/
def demoteToNearestIntLane (F : Fmt) (x : Nat) : M Int :=
  let signbit := scalarSignBit F x
  if !fle F (scalarAbs F x) (ofInt F CInt.i32.hi) then .ok (if signbit then CInt.i32.lo else CInt.i32.hi)
  else do
    let rounded ← biased F CInt.i32 x
    if rounded = 0 then .ok 0
    else if isTie F CInt.i32 rounded x then do
      let r ← CInt.sub ⟨CInt.i32, rounded⟩ ⟨CInt.i32, if signbit then -1 else 1⟩
      .ok (CInt.cast CInt.i32 r).v
    else .ok rounded

/-- `Trunc` (emu128-inl.h:1131-1146). -/
def truncLane (F : Fmt) (x : Nat) : M Nat :=
  if !fle F (scalarAbs F x) (mantissaEnd F) then .ok x
  else do
    let truncated ← toInt F F.it x
    if truncated = 0 then .ok (if flt F x (ofInt F 0) then fneg F (ofInt F 0) else ofInt F 0)
    else .ok (ofInt F truncated)

/-- Exponent of `Ceil`/`Floor` (emu128-inl.h:1161-1162, 1198-1199): a wrapping unsigned difference converted
to `int`, i.e. the signed difference. -/
def unbiasedExp (F : Fmt) (bits : Nat) : Int :=
  ((bits >>> F.p &&& maxExponentField F : Nat) : Int) - ((maxExponentField F / 2 : Nat) : Int)

/-- `Ceil` (emu128-inl.h:1149-1183). -/
def ceilLane (F : Fmt) (x : Nat) : Nat :=
  let positive := flt F (ofInt F 0) x
  let exponent := unbiasedExp F x
  if exponent ≥ F.p then x
  else if exponent < 0 then (if positive then F.one else fneg F (ofInt F 0))
  else
    let mask := mantissaMask F >>> exponent.toNat
    if x &&& mask = 0 then x
    else
      let bits := if positive then (x + (mantissaMask F + 1) >>> exponent.toNat) % 2 ^ (F.w + 1) else x
      bits &&& unot F mask

/-- `Floor` (emu128-inl.h:1186-1220). -/
def floorLane (F : Fmt) (x : Nat) : Nat :=
  let negative := flt F x (ofInt F 0)
  let exponent := unbiasedExp F x
  if exponent ≥ F.p then x
  else if exponent < 0 then (if negative then F.mone else ofInt F 0)
  else
    let mask := mantissaMask F >>> exponent.toNat
    if x &&& mask = 0 then x
    else
      let bits := if negative then (x + (mantissaMask F + 1) >>> exponent.toNat) % 2 ^ (F.w + 1) else x
      bits &&& unot F mask

/-- `HWY_MIN(a, b)`, `HWY_MAX(a, b)` (base.h:210-211) on floats. -/
def hwyMin (F : Fmt) (a b : Nat) : Nat := if flt F a b then a else b
def hwyMax (F : Fmt) (a b : Nat) : Nat := if flt F b a then a else b

/-- `Min` (emu128-inl.h:725-738). -/
def minLane (F : Fmt) (a b : Nat) : Nat :=
  if scalarIsNaN F a then b else if scalarIsNaN F b then a else hwyMin F a b

/-- `Max` (emu128-inl.h:739-752). -/
def maxLane (F : Fmt) (a b : Nat) : Nat :=
  if scalarIsNaN F a then b else if scalarIsNaN F b then a else hwyMax F a b

end Flt

namespace Emu
open CInt Flt

/-! ### Registers of floats -/

/-- In-place loop over float lanes. -/
def fmap1 (F : Fmt) (N : Nat) (f : Nat → M Nat) (v : List Int) : M (List Int) :=
  map1 F.ut N (fun x => do .ok ⟨F.ut, ((← f x.v.toNat : Nat) : Int)⟩) v

def fmap2 (F : Fmt) (N : Nat) (f : Nat → Nat → Nat) (a b : List Int) : M (List Int) :=
  map2 F.ut N (fun x y => .ok ⟨F.ut, ((f x.v.toNat y.v.toNat : Nat) : Int)⟩) a b

/-- Loop filling a fresh register with integers computed from float lanes. -/
def fconv (t : Ty) (N : Nat) (f : Nat → M Int) (v : List Int) : M (List Int) :=
  forN N (fun i ret => do
    let x ← readAt v i
    writeAt ret i (← f x.toNat)) (zero t)

/-- Loop filling a mask from float lanes. -/
def fmask1 (F : Fmt) (N : Nat) (f : Nat → Bool) (v : List Int) : M (List Int) :=
  forN N (fun i m => do
    let x ← readAt v i
    writeAt m i (fromBool F.ut (f x.toNat))) (zero F.ut.unsigned)

def fmask2 (F : Fmt) (N : Nat) (f : Nat → Nat → Bool) (a b : List Int) : M (List Int) :=
  forN N (fun i m => do
    let x ← readAt a i
    let y ← readAt b i
    writeAt m i (fromBool F.ut (f x.toNat y.toNat))) (zero F.ut.unsigned)

/-- `SignBit(d)` (generic_ops-inl.h:75-79) . -/
def FSignBit (F : Fmt) (N : Nat) : M (List Int) := Set F.ut N (F.signMask : Int)

/-- `Abs` (emu128-inl.h:695-701) on floats. -/
def FAbs (F : Fmt) (N : Nat) (v : List Int) : M (List Int) := fmap1 F N (fun x => .ok (scalarAbs F x)) v
/-- `Neg` on floats (emu128-inl.h:777-781). -/
def FNeg (F : Fmt) (N : Nat) (v : List Int) : M (List Int) := do
  Xor F.ut N v (← FSignBit F N)
/-- `CopySign` (emu128-inl.h:344-350) with `BitwiseIfThenElse` (generic_ops-inl.h:294-297). -/
def FCopySign (F : Fmt) (N : Nat) (magn sign : List Int) : M (List Int) := do
  let x ← And F.ut N (← FSignBit F N) sign
  let y ← AndNot F.ut N (← FSignBit F N) magn
  Or F.ut N x y
/-- `CopySignToAbs` (emu128-inl.h:352-358). -/
def FCopySignToAbs (F : Fmt) (N : Nat) (abs sign : List Int) : M (List Int) := do
  OrAnd F.ut N abs (← FSignBit F N) sign
/-- `Min`, `Max` on floats (emu128-inl.h:725-765). -/
def FMin (F : Fmt) (N : Nat) (a b : List Int) : M (List Int) := fmap2 F N (minLane F) a b
def FMax (F : Fmt) (N : Nat) (a b : List Int) : M (List Int) := fmap2 F N (maxLane F) a b
/-- `Round`, `Trunc`, `Ceil`, `Floor` (emu128-inl.h:1028-1220). -/
def FRound (F : Fmt) (N : Nat) (v : List Int) : M (List Int) := fmap1 F N (roundLane F) v
def FTrunc (F : Fmt) (N : Nat) (v : List Int) : M (List Int) := fmap1 F N (truncLane F) v
def FCeil (F : Fmt) (N : Nat) (v : List Int) : M (List Int) := fmap1 F N (fun x => .ok (ceilLane F x)) v
def FFloor (F : Fmt) (N : Nat) (v : List Int) : M (List Int) := fmap1 F N (fun x => .ok (floorLane F x)) v
/-- `NearestInt` (emu128-inl.h:1056-1090). -/
def NearestInt (F : Fmt) (N : Nat) (v : List Int) : M (List Int) := fconv F.it N (nearestIntLane F) v
/-- `DemoteToNearestInt` (emu128-inl.h:1093-1128). -/
def DemoteToNearestInt (N : Nat) (v : List Int) : M (List Int) := fconv i32 N (demoteToNearestIntLane f64) v
/-- `IsNaN` (emu128-inl.h:1224-1232). -/
def FIsNaN (F : Fmt) (N : Nat) (v : List Int) : M (List Int) := fmask1 F N (Flt.scalarIsNaN F) v
/-- Comparisons (emu128-inl.h:1237-1296) on floats. -/
def FEq (F : Fmt) (N : Nat) (a b : List Int) : M (List Int) := fmask2 F N (feq F) a b
def FNe (F : Fmt) (N : Nat) (a b : List Int) : M (List Int) := fmask2 F N (fun x y => !feq F x y) a b
def FLt (F : Fmt) (N : Nat) (a b : List Int) : M (List Int) := fmask2 F N (flt F) a b
def FGt (F : Fmt) (N : Nat) (a b : List Int) : M (List Int) := fmask2 F N (fun x y => flt F y x) a b
def FLe (F : Fmt) (N : Nat) (a b : List Int) : M (List Int) := fmask2 F N (fle F) a b
def FGe (F : Fmt) (N : Nat) (a b : List Int) : M (List Int) := fmask2 F N (fun x y => fle F y x) a b

end Emu
end Hwy
