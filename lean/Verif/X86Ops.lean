import Verif.X86Intrin

/-!
# Integer operations of the x86 128-bit targets (SSE2, SSSE3, SSE4, AVX2)

Each definition mirrors one overload set of `hwy/ops/x86_128-inl.h`; the preprocessor conditions on
`HWY_TARGET` become comparisons of the target constants of `hwy/detect_targets.h:74-80`.
`BitCast`, `ResizeBitCast`, `MaskFromVec`, `VecFromMask` and `RebindMask` do not change the register on
these targets and are therefore the identity (`x86_128-inl.h:250-303, 1829-1849, 2823-2829`).
Lane types are given by their width `w` (in bits) and a signedness flag where overloads differ.
-/

namespace Hwy.X86

/-- The 128-bit targets below AVX-512. -/
inductive Tgt | avx2 | sse4 | ssse3 | sse2
  deriving DecidableEq, Repr

/-- `detect_targets.h:75`. -/
def HWY_AVX2 : Nat := 2 ^ 9
/-- `detect_targets.h:77`. -/
def HWY_SSE4 : Nat := 2 ^ 11
/-- `detect_targets.h:78`. -/
def HWY_SSSE3 : Nat := 2 ^ 12
/-- `detect_targets.h:80`. -/
def HWY_SSE2 : Nat := 2 ^ 14

/-- The value of `HWY_TARGET` while compiling for a target (`detect_targets.h:74-80`; smaller is better). -/
def Tgt.val : Tgt → Nat
  | .avx2 => HWY_AVX2 | .sse4 => HWY_SSE4 | .ssse3 => HWY_SSSE3 | .sse2 => HWY_SSE2

/-- `Zero`, `x86_128-inl.h:206-230`. -/
def zero : M128 := 0
/-- `Set`, `x86_128-inl.h:306-322`. -/
def set (w : Nat) (x : BitVec w) : M128 := set1 w x
/-- `And`, `x86_128-inl.h:635-641`. -/
def And (a b : M128) : M128 := pand a b
/-- `AndNot` (`~not_mask & mask`), `x86_128-inl.h:654-660`. -/
def AndNot (a b : M128) : M128 := pandn a b
/-- `Or`, `x86_128-inl.h:674-680`. -/
def Or (a b : M128) : M128 := por a b
/-- `Xor`, `x86_128-inl.h:693-699`. -/
def Xor (a b : M128) : M128 := pxor a b
/-- `Not`, `x86_128-inl.h:711-722`. -/
def Not (v : M128) : M128 := Xor v (set1 32 (BitVec.ofInt 32 (-1)))
/-- `OrAnd`, `x86_128-inl.h:755-766`. -/
def OrAnd (o a1 a2 : M128) : M128 := Or o (And a1 a2)
/-- `Xor3`, `x86_128-inl.h:726-737`. -/
def Xor3 (a b c : M128) : M128 := Xor a (Xor b c)
/-- `Or3`, `x86_128-inl.h:741-752`. -/
def Or3 (a b c : M128) : M128 := Or a (Or b c)
/-- Integer `operator+`, `x86_128-inl.h:3766-3808`. -/
def Add (w : Nat) (a b : M128) : M128 := addI w a b
/-- Integer `operator-`, `x86_128-inl.h:3831-3873`. -/
def Sub (w : Nat) (a b : M128) : M128 := subI w a b
/-- Signed `Neg`, `x86_128-inl.h:878-881`. -/
def Neg (w : Nat) (v : M128) : M128 := Sub w zero v
/-- `SignBit` of an integer tag, `generic_ops-inl.h:74-80`: the top bit of every lane. -/
def SignBit (w : Nat) : M128 := set w (BitVec.intMin w)

/-- `IfThenElse` for integer lanes, `x86_128-inl.h:1851-1869`. -/
def IfThenElse (t : Tgt) (mask yes no : M128) : M128 :=
  if HWY_SSSE3 ≤ t.val then Or (And mask yes) (AndNot mask no) else blendv 8 no yes mask
/-- `IfThenElse` for `float` (`w = 32`) and `double` (`w = 64`), `x86_128-inl.h:1851-1880`. -/
def IfThenElseF (t : Tgt) (w : Nat) (mask yes no : M128) : M128 :=
  if HWY_SSSE3 ≤ t.val then Or (And mask yes) (AndNot mask no) else blendv w no yes mask
/-- `IfVecThenElse`, `x86_128-inl.h:770-782`. -/
def IfVecThenElse (t : Tgt) (mask yes no : M128) : M128 := IfThenElse t mask yes no
/-- `IfThenElseZero`, `x86_128-inl.h:1883-1886`. -/
def IfThenElseZero (mask yes : M128) : M128 := And yes mask
/-- `IfThenZeroElse`, `x86_128-inl.h:1889-1892`. -/
def IfThenZeroElse (mask no : M128) : M128 := AndNot mask no
/-- Mask `Not`, `x86_128-inl.h:1896-1900`. -/
def MNot (m : M128) : M128 := Not m
/-- Mask `And`, `x86_128-inl.h:1902-1906`. -/
def MAnd (a b : M128) : M128 := And a b
/-- Mask `AndNot`, `x86_128-inl.h:1908-1912`. -/
def MAndNot (a b : M128) : M128 := AndNot a b
/-- Mask `Or`, `x86_128-inl.h:1914-1918`. -/
def MOr (a b : M128) : M128 := Or a b
/-- Mask `Xor`, `x86_128-inl.h:1920-1924`. -/
def MXor (a b : M128) : M128 := Xor a b
/-- `ExclusiveNeither`, `x86_128-inl.h:1926-1930`. -/
def ExclusiveNeither (a b : M128) : M128 := AndNot a (Not b)

/-- `ShiftLeft<kBits>` of every integer type, `x86_128-inl.h:1936-1985`: 8-bit lanes go through a 16-bit
shift and a mask. -/
def ShiftLeft (w k : Nat) (v : M128) : M128 :=
  if w = 8 then
    if k = 1 then Add 8 v v
    else And (slli 16 k v) (set 8 (BitVec.ofNat 8 ((0xFF <<< k) &&& 0xFF)))
  else slli w k v
/-- `ShiftRight<kBits>` of unsigned types, `x86_128-inl.h:1989-2001, 2014-2021`. -/
def ShiftRightU (w k : Nat) (v : M128) : M128 :=
  if w = 8 then And (srli 16 k v) (set 8 (BitVec.ofNat 8 (0xFF >>> k))) else srli w k v
/-- `Shuffle2301`, `x86_128-inl.h:2350-2355`. -/
def Shuffle2301 (v : M128) : M128 := shuffle32 v 0xB1

/-- `operator==` of every integer type, `x86_128-inl.h:2841-2896`. -/
def Eq (t : Tgt) (w : Nat) (a b : M128) : M128 :=
  if w = 64 ∧ HWY_SSSE3 ≤ t.val then
    let cmp32 := cmpeq 32 a b
    And cmp32 (Shuffle2301 cmp32)
  else cmpeq w a b
/-- `operator!=`, `x86_128-inl.h:2912-2952`. -/
def Ne (t : Tgt) (w : Nat) (a b : M128) : M128 := MNot (Eq t w a b)
/-- `TestBit`, `x86_128-inl.h:2831-2835`. -/
def TestBit (t : Tgt) (w : Nat) (v bit : M128) : M128 := Eq t w (And v bit) bit
/-- `detail::Gt(SignedTag)`, `x86_128-inl.h:2965-3003`. -/
def GtI (t : Tgt) (w : Nat) (a b : M128) : M128 :=
  if w = 64 ∧ HWY_SSSE3 ≤ t.val then
    let m_eq32 := cmpeq 32 a b
    let m_gt32 := cmpgt 32 a b
    let upper := OrAnd m_gt32 m_eq32 (Sub 64 b a)
    shuffle32 upper (MM_SHUFFLE 3 3 1 1)
  else cmpgt w a b
/-- `detail::Gt(UnsignedTag)`, `x86_128-inl.h:3005-3014`. -/
def GtU (t : Tgt) (w : Nat) (a b : M128) : M128 :=
  let msb := set w (BitVec.ofNat w ((2 ^ w - 1) / 2 + 1))
  GtI t w (Xor a msb) (Xor b msb)
/-- `operator>`, `x86_128-inl.h:3029-3032`. -/
def Gt (t : Tgt) (signed : Bool) (w : Nat) (a b : M128) : M128 :=
  if signed then GtI t w a b else GtU t w a b
/-- `operator>=`, `x86_128-inl.h:3036-3065`. -/
def Ge (t : Tgt) (signed : Bool) (w : Nat) (a b : M128) : M128 := MNot (Gt t signed w b a)
/-- `operator<`, `x86_128-inl.h:3070-3073`. -/
def Lt (t : Tgt) (signed : Bool) (w : Nat) (a b : M128) : M128 := Gt t signed w b a
/-- `operator<=`, `x86_128-inl.h:3075-3078`. -/
def Le (t : Tgt) (signed : Bool) (w : Nat) (a b : M128) : M128 := Ge t signed w b a

/-- `detail::Iota0`, `x86_128-inl.h:3082-3120`. -/
def Iota0 (w : Nat) : M128 := mk w (fun i => BitVec.ofNat w i)
/-- `Iota`, `x86_128-inl.h:3167-3177`. -/
def Iota (w : Nat) (first : BitVec w) : M128 := Add w (Iota0 w) (set w first)
/-- `FirstN`, `x86_128-inl.h:3180-3200`; `kN` is the number of lanes of the tag. -/
def FirstN (t : Tgt) (w kN num : Nat) : M128 :=
  Lt t true w (Iota0 w) (set w (BitVec.ofNat w (min num kN)))

/-- `TableLookupBytes`, `x86_128-inl.h:2285-2324`: the SSE2 loop masks the index to four bits. -/
def TableLookupBytes (t : Tgt) (bytes from_ : M128) : M128 :=
  if t.val = HWY_SSE2 then mk 8 (fun i => lane 8 ((lane 8 i from_).toNat % 16) bytes)
  else shuffle8 bytes from_
/-- `TableLookupBytesOr0`, `x86_128-inl.h:2326-2339`. -/
def TableLookupBytesOr0 (t : Tgt) (bytes from_ : M128) : M128 :=
  if t.val = HWY_SSE2 then
    IfThenZeroElse (Lt t true 8 from_ zero) (TableLookupBytes t bytes from_)
  else TableLookupBytes t bytes from_

/-- `BroadcastSignBit`, `x86_128-inl.h:4637-4671`. -/
def BroadcastSignBit (t : Tgt) (w : Nat) (v : M128) : M128 :=
  if w = 8 then Lt t true 8 v zero
  else if w = 64 then
    if t.val = HWY_AVX2 ∨ t.val = HWY_SSE4 then Lt t true 64 v zero
    else shuffle32 (srai 32 31 v) (MM_SHUFFLE 3 3 1 1)
  else srai w (w - 1) v
/-- `ShiftRight<kBits>` of signed types, `x86_128-inl.h:2003-2010, 2023-2030, 4774-4787`. -/
def ShiftRightI (t : Tgt) (w k : Nat) (v : M128) : M128 :=
  if w = 8 then
    let shifted := ShiftRightU 8 k v
    let shiftedSign := set 8 (BitVec.ofNat 8 (0x80 >>> k))
    Sub 8 (Xor shifted shiftedSign) shiftedSign
  else if w = 64 then
    let right := ShiftRightU 64 k v
    let sign := ShiftLeft 64 (64 - k) (BroadcastSignBit t 64 v)
    Or right sign
  else srai w k v
/-- `RotateRight<kBits>`, `x86_128-inl.h:4478-4531`. -/
def RotateRight (w k : Nat) (v : M128) : M128 :=
  if k = 0 then v else Or (ShiftRightU w k v) (ShiftLeft w (min (w - 1) (w - k)) v)
/-- `ShiftLeftSame` (register-count path), `x86_128-inl.h:4938-5014`. -/
def ShiftLeftSame (w : Nat) (v : M128) (bits : Nat) : M128 :=
  if w = 8 then And (sll 16 v (cvtsi32 bits)) (set 8 (BitVec.ofNat 8 ((0xFF <<< bits) &&& 0xFF)))
  else sll w v (cvtsi32 bits)
/-- `ShiftRightSame` of unsigned types, `x86_128-inl.h:5018-5056`. -/
def ShiftRightSameU (w : Nat) (v : M128) (bits : Nat) : M128 :=
  if w = 8 then And (srl 16 v (cvtsi32 bits)) (set 8 (BitVec.ofNat 8 (0xFF >>> bits)))
  else srl w v (cvtsi32 bits)
/-- `ShiftRightSame` of signed types, `x86_128-inl.h:5058-5105`. -/
def ShiftRightSameI (t : Tgt) (w : Nat) (v : M128) (bits : Nat) : M128 :=
  if w = 8 then
    let shifted := ShiftRightSameU 8 v bits
    let shiftedSign := set 8 (BitVec.ofNat 8 (0x80 >>> bits))
    Sub 8 (Xor shifted shiftedSign) shiftedSign
  else if w = 64 then
    let right := ShiftRightSameU 64 v bits
    let sign := ShiftLeftSame 64 (BroadcastSignBit t 64 v) (64 - bits)
    Or right sign
  else sra w v (cvtsi32 bits)

/-- `detail::MinU`, `x86_128-inl.h:5828-5838`. -/
def MinUEmu (t : Tgt) (w : Nat) (a b : M128) : M128 :=
  let msb := set w (1#w <<< (w - 1))
  IfThenElse t (Gt t true w (Xor a msb) (Xor b msb)) b a
/-- `detail::MaxU`, `x86_128-inl.h:5925-5935`. -/
def MaxUEmu (t : Tgt) (w : Nat) (a b : M128) : M128 :=
  let msb := set w (1#w <<< (w - 1))
  IfThenElse t (Gt t true w (Xor a msb) (Xor b msb)) a b
/-- Unsigned `Min`, `x86_128-inl.h:5843-5873`. -/
def MinU (t : Tgt) (w : Nat) (a b : M128) : M128 :=
  if w = 8 then minU 8 a b
  else if w = 16 then if HWY_SSSE3 ≤ t.val then subI 16 a (subsU 16 a b) else minU 16 a b
  else if w = 32 then if HWY_SSSE3 ≤ t.val then MinUEmu t 32 a b else minU 32 a b
  else MinUEmu t w a b
/-- Unsigned `Max`, `x86_128-inl.h:5940-5970`. -/
def MaxU (t : Tgt) (w : Nat) (a b : M128) : M128 :=
  if w = 8 then maxU 8 a b
  else if w = 16 then if HWY_SSSE3 ≤ t.val then addI 16 a (subsU 16 b a) else maxU 16 a b
  else if w = 32 then if HWY_SSSE3 ≤ t.val then MaxUEmu t 32 a b else maxU 32 a b
  else MaxUEmu t w a b
/-- Signed `Min`, `x86_128-inl.h:5876-5904`. -/
def MinI (t : Tgt) (w : Nat) (a b : M128) : M128 :=
  if w = 16 then minI 16 a b
  else if w = 64 ∨ HWY_SSSE3 ≤ t.val then IfThenElse t (Lt t true w a b) a b
  else minI w a b
/-- Signed `Max`, `x86_128-inl.h:5973-6001`. -/
def MaxI (t : Tgt) (w : Nat) (a b : M128) : M128 :=
  if w = 16 then maxI 16 a b
  else if w = 64 ∨ HWY_SSSE3 ≤ t.val then IfThenElse t (Lt t true w a b) b a
  else maxI w a b

/-- `IfNegativeThenElse`, `x86_128-inl.h:4791-4849`. -/
def IfNegativeThenElse (t : Tgt) (w : Nat) (v yes no : M128) : M128 :=
  if w = 8 then
    let mask := if t.val ≤ HWY_SSE4 then v else BroadcastSignBit t 8 v
    IfThenElse t mask yes no
  else if w = 16 then IfThenElse t (BroadcastSignBit t 16 v) yes no
  else if t.val ≤ HWY_SSE4 then IfThenElseF t w v yes no
  else IfThenElse t (BroadcastSignBit t w v) yes no
/-- Integer `Abs`, `x86_128-inl.h:4675-4726`. -/
def Abs (t : Tgt) (w : Nat) (v : M128) : M128 :=
  if w = 8 then if t.val = HWY_SSE2 then MinU t 8 v (Sub 8 zero v) else absI 8 v
  else if w = 16 then if t.val = HWY_SSE2 then MaxI t 16 v (Sub 16 zero v) else absI 16 v
  else if w = 32 then
    if t.val ≤ HWY_SSSE3 then absI 32 v
    else IfThenElse t (BroadcastSignBit t 32 v) (Sub 32 zero v) v
  else IfNegativeThenElse t w v (Sub w zero v) v
/-- `SaturatedAdd` of 8- and 16-bit lanes, `x86_128-inl.h:4139-4161`. -/
def SaturatedAdd (signed : Bool) (w : Nat) (a b : M128) : M128 :=
  if signed then addsI w a b else addsU w a b
/-- `SaturatedSub` of 8- and 16-bit lanes, `x86_128-inl.h:4203-4229`. -/
def SaturatedSub (signed : Bool) (w : Nat) (a b : M128) : M128 :=
  if signed then subsI w a b else subsU w a b
/-- `SaturatedAbs`, `x86_128-inl.h:4732-4766`. -/
def SaturatedAbs (t : Tgt) (w : Nat) (v : M128) : M128 :=
  if w = 8 then MinU t 8 v (SaturatedSub true 8 zero v)
  else if w = 16 then MaxI t 16 v (SaturatedSub true 16 zero v)
  else if w = 32 ∧ t.val ≤ HWY_SSE4 then
    MinU t 32 (Abs t 32 v) (set 32 (BitVec.ofNat 32 (2 ^ 31 - 1)))
  else
    let absV := Abs t w v
    Add w absV (BroadcastSignBit t w absV)
/-- `IfNegativeThenNegOrUndefIfZero` on SSSE3 and better, `x86_128-inl.h:4904-4935`. -/
def IfNegativeThenNegOrUndefIfZero (t : Tgt) (w : Nat) (mask v : M128) : M128 :=
  if w = 64 then IfNegativeThenElse t 64 mask (Neg 64 v) v else signI w v mask
/-- Unsigned and signed `AverageRound` of 8- and 16-bit lanes, `x86_128-inl.h:4264-4286`. -/
def AverageRound (signed : Bool) (w : Nat) (a b : M128) : M128 :=
  if signed then
    let sign_bit := SignBit w
    Xor (avgU w (Xor a sign_bit) (Xor b sign_bit)) sign_bit
  else avgU w a b
/-- `SumsOf8` of unsigned bytes, `x86_128-inl.h:3971-3974`. -/
def SumsOf8U (v : M128) : M128 := sad8 v zero
/-- `SumsOf8` of signed bytes, `x86_128-inl.h:3977-3991`. -/
def SumsOf8I (v : M128) : M128 :=
  let v_adj := Xor v (SignBit 8)
  Add 64 (SumsOf8U v_adj) (set 64 (BitVec.ofInt 64 (-1024)))
/-- `SumsOf8AbsDiff`, `x86_128-inl.h:3999-4024`. -/
def SumsOf8AbsDiff (signed : Bool) (a b : M128) : M128 :=
  if signed then
    let i8_msb := SignBit 8
    sad8 (Xor a i8_msb) (Xor b i8_msb)
  else sad8 a b

end Hwy.X86
