import Verif.X86Mask

/-!
# 128-bit comparisons, and the `Set*First` mask operations, of the x86 targets below AVX-512

`x86_128-inl.h:13545-13633, 13751-13870`. `VecFromMask`, `MaskFromVec`, `BitCast`, `ResizeBitCast` and `RebindMask` do not change
the register. Lane types: `w` bits, vector of `sz` bytes.
-/

namespace Hwy.X86

/-! ## Pairs of 64-bit lanes as 128-bit numbers (`u64x2`) -/

/-- `detail::Lt128Vec`, `x86_128-inl.h:13757-13777`. -/
def Lt128Vec (t : Tgt) (a b : M128) : M128 :=
  let eqHL := Eq t 64 a b
  let ltHL := Lt t false 64 a b
  let ltLX := ShiftLeftLanes 64 1 ltHL
  let vecHx := IfThenElse t eqHL ltLX ltHL
  InterleaveUpper t 64 16 vecHx vecHx
/-- `detail::Eq128Vec`, `x86_128-inl.h:13780-13785`. -/
def Eq128Vec (t : Tgt) (a b : M128) : M128 :=
  let eqHL := Eq t 64 a b
  let eqLH := Reverse2 t 64 16 eqHL
  And eqHL eqLH
/-- `detail::Ne128Vec`, `x86_128-inl.h:13787-13792`. -/
def Ne128Vec (t : Tgt) (a b : M128) : M128 :=
  let neHL := Ne t 64 a b
  let neLH := Reverse2 t 64 16 neHL
  Or neHL neLH
/-- `detail::Lt128UpperVec`, `x86_128-inl.h:13794-13800`. -/
def Lt128UpperVec (t : Tgt) (a b : M128) : M128 :=
  let ltHL := Lt t false 64 a b
  InterleaveUpper t 64 16 ltHL ltHL
/-- `detail::Eq128UpperVec`, `x86_128-inl.h:13802-13808`. -/
def Eq128UpperVec (t : Tgt) (a b : M128) : M128 :=
  let eqHL := Eq t 64 a b
  InterleaveUpper t 64 16 eqHL eqHL
/-- `detail::Ne128UpperVec`, `x86_128-inl.h:13810-13816`. -/
def Ne128UpperVec (t : Tgt) (a b : M128) : M128 :=
  let neHL := Ne t 64 a b
  InterleaveUpper t 64 16 neHL neHL
/-- `Lt128`, `x86_128-inl.h:13820-13823`. -/
def Lt128 (t : Tgt) (a b : M128) : M128 := Lt128Vec t a b
/-- `Eq128`, `x86_128-inl.h:13825-13828`. -/
def Eq128 (t : Tgt) (a b : M128) : M128 := Eq128Vec t a b
/-- `Ne128`, `x86_128-inl.h:13830-13833`. -/
def Ne128 (t : Tgt) (a b : M128) : M128 := Ne128Vec t a b
/-- `Lt128Upper`, `x86_128-inl.h:13835-13838`. -/
def Lt128Upper (t : Tgt) (a b : M128) : M128 := Lt128UpperVec t a b
/-- `Eq128Upper`, `x86_128-inl.h:13840-13843`. -/
def Eq128Upper (t : Tgt) (a b : M128) : M128 := Eq128UpperVec t a b
/-- `Ne128Upper`, `x86_128-inl.h:13845-13848`. -/
def Ne128Upper (t : Tgt) (a b : M128) : M128 := Ne128UpperVec t a b
/-- `Min128`, `x86_128-inl.h:13853-13856`. -/
def Min128 (t : Tgt) (a b : M128) : M128 := IfVecThenElse t (Lt128Vec t a b) a b
/-- `Max128`, `x86_128-inl.h:13858-13861`. -/
def Max128 (t : Tgt) (a b : M128) : M128 := IfVecThenElse t (Lt128Vec t b a) a b
/-- `Min128Upper`, `x86_128-inl.h:13863-13866`. -/
def Min128Upper (t : Tgt) (a b : M128) : M128 := IfVecThenElse t (Lt128UpperVec t a b) a b
/-- `Max128Upper`, `x86_128-inl.h:13868-13871`. -/
def Max128Upper (t : Tgt) (a b : M128) : M128 := IfVecThenElse t (Lt128UpperVec t b a) a b

/-! ## Masks relative to the first true lane -/

/-- `SetAtOrAfterFirst`, `x86_128-inl.h:13545-13580`: by number of lanes and vector size. -/
def SetAtOrAfterFirst (t : Tgt) (w sz : Nat) (mask : M128) : M128 :=
  let kN := sz / (w / 8)
  if kN = 1 then mask
  else if kN = 2 then Or mask (InterleaveLower w mask mask)
  else if sz ≤ 8 then
    let neg_vmask := Neg 64 mask
    Or mask neg_vmask
  else
    let vmask := Or mask (Neg 64 mask)
    let vmask2 := BroadcastSignBit t 32 (shufflePs zero vmask (MM_SHUFFLE 1 1 0 0))
    Or vmask vmask2
/-- `SetBeforeFirst`, `x86_128-inl.h:13580-13583`. -/
def SetBeforeFirst (t : Tgt) (w sz : Nat) (mask : M128) : M128 := MNot (SetAtOrAfterFirst t w sz mask)
/-- `SetOnlyFirst`, `x86_128-inl.h:13587-13624`. -/
def SetOnlyFirst (t : Tgt) (w sz : Nat) (mask : M128) : M128 :=
  let kN := sz / (w / 8)
  if kN = 1 then mask
  else if kN = 2 then And mask (Eq t w (InterleaveLower w zero mask) zero)
  else if sz ≤ 8 then Neg w (And mask (Neg 64 mask))
  else
    let vmask2 := Eq t 64 (InterleaveLower 64 zero mask) zero
    let only_first_vmask := Neg w (And mask (Neg 64 mask))
    And only_first_vmask vmask2
/-- `SetAtOrBeforeFirst`, `x86_128-inl.h:13626-13639`. -/
def SetAtOrBeforeFirst (t : Tgt) (w sz : Nat) (mask : M128) : M128 :=
  let kN := sz / (w / 8)
  if kN = 1 then set w (BitVec.ofInt w (-1))
  else SetBeforeFirst t w sz (ShiftLeftLanes w 1 mask)

end Hwy.X86
