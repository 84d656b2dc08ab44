import Verif.CInt
import Verif.BaseArith

/-!
# Model of the integer lane operations of `hwy/ops/emu128-inl.h`

`Vec128<T, N>` holds `raw[16 / sizeof(T)]` (emu128-inl.h:35-75): a register is a list of `128 / bits`
lane values, of which the first `N` are lanes and the others padding.  A loop `for (i < N) a.raw[i] = …`
updates the register in place, reads and writes are bounds-checked, and every C++ expression is
evaluated with the promotions, conversions and overflow rules of `CInt`.

`BitCast` between types of equal lane size (emu128-inl.h:115-121) reinterprets each lane, i.e.
`CInt.cast`.
-/

namespace Hwy
namespace Emu
open CInt

/-- `for (size_t i = 0; i < n; ++i) s = body(i, s);` -/
def forN {σ : Type} (n : Nat) (body : Nat → σ → M σ) (s : σ) : M σ :=
  (List.range n).foldlM (fun s i => body i s) s

/-- Number of array elements `16 / sizeof(T)` (emu128-inl.h:75). -/
def cap (t : Ty) : Nat := 128 / t.bits

/-- `Zero(d)` (emu128-inl.h:105-109). -/
def zero (t : Ty) : List Int := List.replicate (cap t) 0

/-- In-place loop `a.raw[i] = f(a.raw[i])` for `i < N`. -/
def map1 (t : Ty) (N : Nat) (f : Val → M Val) (a : List Int) : M (List Int) :=
  forN N (fun i a => do
    let x ← readAt a i
    let r ← f ⟨t, x⟩
    writeAt a i r.v) a

/-- In-place loop `a.raw[i] = f(a.raw[i], b.raw[i])` for `i < N`. -/
def map2 (t : Ty) (N : Nat) (f : Val → Val → M Val) (a b : List Int) : M (List Int) :=
  forN N (fun i a => do
    let x ← readAt a i
    let y ← readAt b i
    let r ← f ⟨t, x⟩ ⟨t, y⟩
    writeAt a i r.v) a

/-! ### Logical -/

/-- `Not` (emu128-inl.h:249-260). -/
def notLane (t : Ty) (x : Val) : M Val :=
  .ok (cast t (cast t.unsigned (bnot (cast t.unsigned x))))
def Not (t : Ty) (N : Nat) (v : List Int) : M (List Int) := map1 t N (notLane t) v

/-- `And` (emu128-inl.h:262-273): `au.raw[i] &= bu.raw[i]` on the unsigned view. -/
def andLane (t : Ty) (x y : Val) : M Val :=
  .ok (cast t (cast t.unsigned (band (cast t.unsigned x) (cast t.unsigned y))))
def And (t : Ty) (N : Nat) (a b : List Int) : M (List Int) := map2 t N (andLane t) a b

/-- `Or` (emu128-inl.h:285-296). -/
def orLane (t : Ty) (x y : Val) : M Val :=
  .ok (cast t (cast t.unsigned (bor (cast t.unsigned x) (cast t.unsigned y))))
def Or (t : Ty) (N : Nat) (a b : List Int) : M (List Int) := map2 t N (orLane t) a b

/-- `Xor` (emu128-inl.h:302-313). -/
def xorLane (t : Ty) (x y : Val) : M Val :=
  .ok (cast t (cast t.unsigned (bxor (cast t.unsigned x) (cast t.unsigned y))))
def Xor (t : Ty) (N : Nat) (a b : List Int) : M (List Int) := map2 t N (xorLane t) a b

/-- `AndNot` (emu128-inl.h:279-283): `And(Not(a), b)`. -/
def AndNot (t : Ty) (N : Nat) (a b : List Int) : M (List Int) := do
  And t N (← Not t N a) b

/-- `Xor3` (emu128-inl.h:319-323). -/
def Xor3 (t : Ty) (N : Nat) (x1 x2 x3 : List Int) : M (List Int) := do
  Xor t N x1 (← Xor t N x2 x3)

/-- `Or3` (emu128-inl.h:325-329). -/
def Or3 (t : Ty) (N : Nat) (o1 o2 o3 : List Int) : M (List Int) := do
  Or t N o1 (← Or t N o2 o3)

/-- `OrAnd` (emu128-inl.h:331-335). -/
def OrAnd (t : Ty) (N : Nat) (o a1 a2 : List Int) : M (List Int) := do
  Or t N o (← And t N a1 a2)

/-- `IfVecThenElse` (emu128-inl.h:337-342). -/
def IfVecThenElse (t : Ty) (N : Nat) (mask yes no : List Int) : M (List Int) := do
  let x ← And t N mask yes
  let y ← AndNot t N mask no
  Or t N x y

/-! ### Masks: lanes of the unsigned type, 0 or all ones (emu128-inl.h:77-91) -/

/-- `Mask128::FromBool` (emu128-inl.h:85-87). -/
def fromBool (t : Ty) (b : Bool) : Int := if b then (cast t.unsigned (bnot ⟨t.unsigned, 0⟩)).v else 0

/-- `VecFromMask` / `MaskFromVec` (emu128-inl.h:370-394): a byte copy. -/
def vecFromMask (t : Ty) (m : List Int) : List Int := m.map t.wrap
def maskFromVec (t : Ty) (v : List Int) : List Int := v.map t.unsigned.wrap

/-- `IfThenElse` (emu128-inl.h:414-420). -/
def IfThenElse (t : Ty) (N : Nat) (mask yes no : List Int) : M (List Int) :=
  IfVecThenElse t N (vecFromMask t mask) yes no

/-- `IfThenElseZero` (emu128-inl.h:422-426). -/
def IfThenElseZero (t : Ty) (N : Nat) (mask yes : List Int) : M (List Int) :=
  IfVecThenElse t N (vecFromMask t mask) yes (zero t)

/-- `IfThenZeroElse` (emu128-inl.h:428-432). -/
def IfThenZeroElse (t : Ty) (N : Nat) (mask no : List Int) : M (List Int) :=
  IfVecThenElse t N (vecFromMask t mask) (zero t) no

/-- `IfNegativeThenElse` (emu128-inl.h:434-445): tests the sign bit of the signed view. -/
def IfNegativeThenElse (t : Ty) (N : Nat) (v yes no : List Int) : M (List Int) :=
  let vi := v.map t.signed.wrap
  forN N (fun i v => do
    let x ← readAt vi i
    let r ← if x < 0 then readAt yes i else readAt no i
    writeAt v i r) v

/-- Mask `Not` (emu128-inl.h:449-453). -/
def MaskNot (t : Ty) (N : Nat) (m : List Int) : M (List Int) := do
  return maskFromVec t (← Not t N (vecFromMask t m))

/-- Mask `And` (emu128-inl.h:455-459). -/
def MaskAnd (t : Ty) (N : Nat) (a b : List Int) : M (List Int) := do
  return maskFromVec t (← And t N (vecFromMask t a) (vecFromMask t b))

/-- Mask `AndNot` (emu128-inl.h:461-465). -/
def MaskAndNot (t : Ty) (N : Nat) (a b : List Int) : M (List Int) := do
  return maskFromVec t (← AndNot t N (vecFromMask t a) (vecFromMask t b))

/-- Mask `Or` (emu128-inl.h:467-471). -/
def MaskOr (t : Ty) (N : Nat) (a b : List Int) : M (List Int) := do
  return maskFromVec t (← Or t N (vecFromMask t a) (vecFromMask t b))

/-- Mask `Xor` (emu128-inl.h:473-477). -/
def MaskXor (t : Ty) (N : Nat) (a b : List Int) : M (List Int) := do
  return maskFromVec t (← Xor t N (vecFromMask t a) (vecFromMask t b))

/-- `ExclusiveNeither` (emu128-inl.h:479-483). -/
def ExclusiveNeither (t : Ty) (N : Nat) (a b : List Int) : M (List Int) := do
  return maskFromVec t (← AndNot t N (vecFromMask t a) (← Not t N (vecFromMask t b)))

/-! ### Shifts -/

/-- `ScalarShr` (base.h:2714-2745).  `arithShift`: whether the compiler's `>>` on negative values is
arithmetic, in which case (and for unsigned types) the first overload is used; otherwise the second,
which never shifts a negative value. -/
def scalarShr (arithShift : Bool) (val : Val) (n : Int) : M Val :=
  if arithShift || !val.ty.sgn then do
    return cast val.ty (← shr val n)
  else
    let tu := val.ty.unsigned
    if val.v < 0 then do
      let s ← shr (cast tu (bnot (cast tu val))) n
      return cast val.ty (cast tu (bnot s))
    else do
      let s ← shr (cast tu val) n
      return cast val.ty (cast tu s)

/-- `ShiftLeft<kBits>` (emu128-inl.h:489-499); `ShiftLeftSame` (529-536) and `operator<<` (549-557)
evaluate the same expression with another source of the count. -/
def shiftLeftLane (t : Ty) (k : Int) (x : Val) : M Val := do
  return cast t (← shl (cast t.unsigned x) k)

/-- `ShiftRight<kBits>` (emu128-inl.h:501-511), `ShiftRightSame` (538-545). -/
def shiftRightLane (ar : Bool) (k : Int) (x : Val) : M Val := scalarShr ar x k

def ShiftLeft (t : Ty) (N : Nat) (k : Int) (v : List Int) : M (List Int) :=
  map1 t N (shiftLeftLane t k) v
def ShiftRight (ar : Bool) (t : Ty) (N : Nat) (k : Int) (v : List Int) : M (List Int) :=
  map1 t N (shiftRightLane ar k) v

/-- `BroadcastSignBit` (emu128-inl.h:360-367). -/
def BroadcastSignBit (ar : Bool) (t : Ty) (N : Nat) (v : List Int) : M (List Int) :=
  map1 t N (fun x => scalarShr ar x (t.bits - 1)) v

/-- `RotateRight<kBits>` (emu128-inl.h:513-525). -/
def RotateRight (ar : Bool) (t : Ty) (N : Nat) (k : Int) (v : List Int) : M (List Int) :=
  if k = 0 then .ok v
  else do
    let s ← ShiftRight ar t.unsigned N k (v.map t.unsigned.wrap)
    let l ← ShiftLeft t N (min (t.bits - 1) (t.bits - k)) v
    Or t N (s.map t.wrap) l

/-- `operator<<(v, bits)` (emu128-inl.h:549-557): the count is the promoted lane of `bits`. -/
def Shl (t : Ty) (N : Nat) (v bits : List Int) : M (List Int) :=
  map2 t N (fun x y => shiftLeftLane t y.v x) v bits

/-- `operator>>(v, bits)` (emu128-inl.h:559-566): the count is `static_cast<int>(bits.raw[i])`. -/
def Shr (ar : Bool) (t : Ty) (N : Nat) (v bits : List Int) : M (List Int) :=
  map2 t N (fun x y => scalarShr ar x (cast i32 y).v) v bits

/-! ### Arithmetic -/

/-- `Add` (emu128-inl.h:573-582). -/
def addLane (t : Ty) (x y : Val) : M Val := do
  let s ← add (cast u64 x) (cast u64 y)
  return cast t (band s (cast u64 (bnot ⟨t, 0⟩)))
def Add (t : Ty) (N : Nat) (a b : List Int) : M (List Int) := map2 t N (addLane t) a b

/-- `Sub` (emu128-inl.h:583-592). -/
def subLane (t : Ty) (x y : Val) : M Val := do
  let s ← sub (cast u64 x) (cast u64 y)
  return cast t (band s (cast u64 (bnot ⟨t, 0⟩)))
def Sub (t : Ty) (N : Nat) (a b : List Int) : M (List Int) := map2 t N (subLane t) a b

/-- `Neg` of integers (emu128-inl.h:770-775). -/
def Neg (t : Ty) (N : Nat) (v : List Int) : M (List Int) := Sub t N (zero t) v

/-- `SumsOf8` (emu128-inl.h:624-641): `sums.raw[i / 8] += v.raw[i]`; `t` is `u8` or `i8`, the result
has type `u64` or `i64`. -/
def SumsOf8 (t : Ty) (N : Nat) (v : List Int) : M (List Int) :=
  let tw : Ty := ⟨64, t.sgn⟩
  forN N (fun i sums => do
    let s ← readAt sums (i / 8)
    let x ← readAt v i
    let r ← add ⟨tw, s⟩ ⟨t, x⟩
    writeAt sums (i / 8) (cast tw r).v) (zero tw)

/-- `SaturatedAdd` for 8/16-bit lanes (emu128-inl.h:644-654). -/
def satAddLane (t : Ty) (x y : Val) : M Val := do
  let tw := t.wide.signed
  let s ← add (cast tw x) y
  return cast t (cmin (cmax ⟨t, t.lo⟩ s) ⟨t, t.hi⟩)
def SaturatedAdd (t : Ty) (N : Nat) (a b : List Int) : M (List Int) := map2 t N (satAddLane t) a b

/-- `SaturatedSub` for 8/16-bit lanes (emu128-inl.h:657-667). -/
def satSubLane (t : Ty) (x y : Val) : M Val := do
  let tw := t.wide.signed
  let s ← sub (cast tw x) y
  return cast t (cmin (cmax ⟨t, t.lo⟩ s) ⟨t, t.hi⟩)
def SaturatedSub (t : Ty) (N : Nat) (a b : List Int) : M (List Int) := map2 t N (satSubLane t) a b

/-- `AverageRound` (emu128-inl.h:683-691). -/
def averageLane (ar : Bool) (t : Ty) (x y : Val) : M Val := do
  let h ← scalarShr ar (bxor x y) 1
  let r ← sub (bor x y) h
  return cast t r
def AverageRound (ar : Bool) (t : Ty) (N : Nat) (a b : List Int) : M (List Int) :=
  map2 t N (averageLane ar t) a b

/-- `Abs` (emu128-inl.h:694-701) via `ScalarAbs` (base.h:3100-3113). -/
def absLane (t : Ty) (x : Val) : M Val :=
  if t.sgn then
    if lt x ⟨t, 0⟩ then do
      let r ← sub ⟨t.unsigned, 0⟩ (cast t.unsigned x)
      return cast t r
    else .ok x
  else .ok x
def Abs (t : Ty) (N : Nat) (a : List Int) : M (List Int) := map1 t N (absLane t) a

/-- `Min` / `Max` of integers (emu128-inl.h:707-723). -/
def Min (t : Ty) (N : Nat) (a b : List Int) : M (List Int) :=
  map2 t N (fun x y => .ok (cast t (cmin x y))) a b
def Max (t : Ty) (N : Nat) (a b : List Int) : M (List Int) :=
  map2 t N (fun x y => .ok (cast t (cmax x y))) a b

/-- Integer `operator*` (emu128-inl.h:810-827). -/
def mulLane (t : Ty) (x y : Val) : M Val := do
  return cast t (← mul (cast u64 x) (cast u64 y))
def Mul (t : Ty) (N : Nat) (a b : List Int) : M (List Int) := map2 t N (mulLane t) a b

/-- `MulHigh` for 8/16/32-bit lanes (emu128-inl.h:857-868). -/
def mulHighLane (t : Ty) (x y : Val) : M Val := do
  let p ← mul (cast t.wide x) (cast t.wide y)
  return cast t (← shr p t.bits)
def MulHigh (t : Ty) (N : Nat) (a b : List Int) : M (List Int) := map2 t N (mulHighLane t) a b

/-- `Mul128` (base.h:2916-2953) on lane values: `(lower, upper)`.  The model of its portable code is
`Hwy.mul128` / `Hwy.mul128Signed`, also used on the lanes here. -/
def mul128 (t : Ty) (x y : Int) : Int × Int :=
  if t.sgn then
    let r := Hwy.mul128Signed (BitVec.ofInt 64 x) (BitVec.ofInt 64 y)
    (r.1.toInt, r.2.toInt)
  else
    let r := Hwy.mul128 (BitVec.ofInt 64 x) (BitVec.ofInt 64 y)
    (r.1.toNat, r.2.toNat)

/-- `MulHigh` for 64-bit lanes, one lane (emu128-inl.h:870-875): `Set(Full64<T>(), hi)`. -/
def MulHigh64x1 (t : Ty) (a b : List Int) : M (List Int) := do
  let x ← readAt a 0
  let y ← readAt b 0
  return [(mul128 t x y).2, 0]

/-- `MulHigh` for 64-bit lanes, two lanes (emu128-inl.h:877-886). -/
def MulHigh64x2 (t : Ty) (a b : List Int) : M (List Int) := do
  let x0 ← readAt a 0
  let y0 ← readAt b 0
  let x1 ← readAt a 1
  let y1 ← readAt b 1
  return [(mul128 t x0 y0).2, (mul128 t x1 y1).2]

/-- `MulFixedPoint15` (emu128-inl.h:888-895). -/
def mulFixedPoint15Lane (x y : Val) : M Val := do
  let p ← mul x y
  let s ← add p ⟨i32, 16384⟩
  return cast i16 (← shr s 15)
def MulFixedPoint15 (N : Nat) (a b : List Int) : M (List Int) := map2 i16 N mulFixedPoint15Lane a b

/-- The loop of `MulEven` (`odd = 0`) and `MulOdd` (`odd = 1`) for 8/16/32-bit lanes
(emu128-inl.h:898-925): `for (i = 0; i < N; i += 2)`, so `⌈N / 2⌉` iterations. -/
def mulWiden (t : Ty) (odd N : Nat) (a b : List Int) : M (List Int) :=
  forN ((N + 1) / 2) (fun j r => do
    let i := 2 * j
    let x ← readAt a (i + odd)
    let y ← readAt b (i + odd)
    let p ← mul ⟨t.wide, t.wide.wrap x⟩ ⟨t, y⟩
    writeAt r (i / 2) (cast t.wide p).v) (zero t.wide)
def MulEven (t : Ty) (N : Nat) (a b : List Int) : M (List Int) := mulWiden t 0 N a b
def MulOdd (t : Ty) (N : Nat) (a b : List Int) : M (List Int) := mulWiden t 1 N a b

/-- `MulEven` / `MulOdd` for 64-bit lanes (emu128-inl.h:2965-2980): `mul[0]` is the lower, `mul[1]`
the upper half of the product of lane 0 (even) or 1 (odd). -/
def mulWiden64 (t : Ty) (odd : Nat) (a b : List Int) : M (List Int) := do
  let x ← readAt a odd
  let y ← readAt b odd
  let r := mul128 t x y
  return [r.1, r.2]

/-! ### Comparisons -/

/-- `operator==`, `!=`, `<`, `>`, `<=`, `>=` (emu128-inl.h:1237-1293): a mask of `FromBool(…)`. -/
def cmp (t : Ty) (N : Nat) (p : Val → Val → Bool) (a b : List Int) : M (List Int) :=
  forN N (fun i m => do
    let x ← readAt a i
    let y ← readAt b i
    writeAt m i (fromBool t (p ⟨t, x⟩ ⟨t, y⟩))) (zero t.unsigned)
def Eq (t : Ty) (N : Nat) (a b : List Int) : M (List Int) := cmp t N eq a b
def Ne (t : Ty) (N : Nat) (a b : List Int) : M (List Int) := cmp t N (fun x y => !eq x y) a b
def Lt (t : Ty) (N : Nat) (a b : List Int) : M (List Int) := cmp t N lt a b
def Gt (t : Ty) (N : Nat) (a b : List Int) : M (List Int) := cmp t N (fun x y => lt y x) a b
def Le (t : Ty) (N : Nat) (a b : List Int) : M (List Int) := cmp t N (fun x y => !lt y x) a b
def Ge (t : Ty) (N : Nat) (a b : List Int) : M (List Int) := cmp t N (fun x y => !lt x y) a b

/-- `TestBit` (emu128-inl.h:1255-1259). -/
def TestBit (t : Ty) (N : Nat) (v bit : List Int) : M (List Int) := do
  Eq t N (← And t N v bit) bit

/-- `Lt128` (emu128-inl.h:1297-1305). -/
def Lt128 (a b : List Int) : M (List Int) := do
  let a0 ← readAt a 0; let a1 ← readAt a 1; let b0 ← readAt b 0; let b1 ← readAt b 1
  let r := fromBool u64 (decide (a1 < b1) || (decide (a1 = b1) && decide (a0 < b0)))
  return [r, r]

/-- `Lt128Upper` (emu128-inl.h:1307-1314). -/
def Lt128Upper (a b : List Int) : M (List Int) := do
  let a1 ← readAt a 1; let b1 ← readAt b 1
  let r := fromBool u64 (decide (a1 < b1))
  return [r, r]

/-- `Eq128` (emu128-inl.h:1318-1325). -/
def Eq128 (a b : List Int) : M (List Int) := do
  let a0 ← readAt a 0; let a1 ← readAt a 1; let b0 ← readAt b 0; let b1 ← readAt b 1
  let r := fromBool u64 (decide (a1 = b1) && decide (a0 = b0))
  return [r, r]

/-- `Ne128` (emu128-inl.h:1327-1334). -/
def Ne128 (a b : List Int) : M (List Int) := do
  let a0 ← readAt a 0; let a1 ← readAt a 1; let b0 ← readAt b 0; let b1 ← readAt b 1
  let r := fromBool u64 (decide (a1 ≠ b1) || decide (a0 ≠ b0))
  return [r, r]

/-- `Eq128Upper` / `Ne128Upper` (emu128-inl.h:1336-1352). -/
def Eq128Upper (a b : List Int) : M (List Int) := do
  let a1 ← readAt a 1; let b1 ← readAt b 1
  let r := fromBool u64 (decide (a1 = b1))
  return [r, r]
def Ne128Upper (a b : List Int) : M (List Int) := do
  let a1 ← readAt a 1; let b1 ← readAt b 1
  let r := fromBool u64 (decide (a1 ≠ b1))
  return [r, r]

/-- `Min128`, `Max128`, `Min128Upper`, `Max128Upper` (emu128-inl.h:1356-1374). -/
def Min128 (a b : List Int) : M (List Int) := do IfThenElse u64 2 (← Lt128 a b) a b
def Max128 (a b : List Int) : M (List Int) := do IfThenElse u64 2 (← Lt128 b a) a b
def Min128Upper (a b : List Int) : M (List Int) := do IfThenElse u64 2 (← Lt128Upper a b) a b
def Max128Upper (a b : List Int) : M (List Int) := do IfThenElse u64 2 (← Lt128Upper b a) a b

/-! ### Reductions -/

/-- `ReduceSum` (emu128-inl.h:2920-2928): `sum += v.raw[i]` in type `T`. -/
def ReduceSum (t : Ty) (N : Nat) (v : List Int) : M Int :=
  forN N (fun i sum => do
    let x ← readAt v i
    let r ← add ⟨t, sum⟩ ⟨t, x⟩
    return (cast t r).v) 0

/-- `ReduceMin` (emu128-inl.h:2929-2937); for integers `PositiveInfOrHighestValue` is the maximum. -/
def ReduceMin (t : Ty) (N : Nat) (v : List Int) : M Int :=
  forN N (fun i mn => do
    let x ← readAt v i
    return (cast t (cmin ⟨t, mn⟩ ⟨t, x⟩)).v) t.hi

/-- `ReduceMax` (emu128-inl.h:2938-2945). -/
def ReduceMax (t : Ty) (N : Nat) (v : List Int) : M Int :=
  forN N (fun i mx => do
    let x ← readAt v i
    return (cast t (cmax ⟨t, mx⟩ ⟨t, x⟩)).v) t.lo

/-- `Set` (emu128-inl.h:154-162). -/
def Set (t : Ty) (N : Nat) (x : Int) : M (List Int) := forN N (fun i v => writeAt v i x) (zero t)

/-- `SumOfLanes`, `MinOfLanes`, `MaxOfLanes` (emu128-inl.h:2948-2960). -/
def SumOfLanes (t : Ty) (N : Nat) (v : List Int) : M (List Int) := do Set t N (← ReduceSum t N v)
def MinOfLanes (t : Ty) (N : Nat) (v : List Int) : M (List Int) := do Set t N (← ReduceMin t N v)
def MaxOfLanes (t : Ty) (N : Nat) (v : List Int) : M (List Int) := do Set t N (← ReduceMax t N v)

/-- `Iota` (emu128-inl.h:237-245) with `AddWithWraparound` (base.h:2895-2906). -/
def Iota (t : Ty) (N : Nat) (first : Int) : M (List Int) :=
  forN N (fun i v => do
    let s ← add (cast u64 ⟨t, t.wrap first⟩) (cast u64 ⟨u64, i⟩)
    writeAt v i (cast t (cast t.unsigned (band (cast u64 s) ⟨u64, t.unsigned.hi⟩))).v) (zero t)

end Emu
end Hwy
