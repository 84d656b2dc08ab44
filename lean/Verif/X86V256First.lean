import Verif.X86V256Ops
import Verif.X86First

/-!
# `Set*First` and 128-bit comparisons of 256-bit AVX2 vectors

`hwy/ops/x86_256-inl.h:8777-8844`, and the `u64` templates of `x86_128-inl.h:13751-13871`, which also serve 256-bit vectors.
`VecFromMask`, `MaskFromVec`, `BitCast` and `RebindMask` do not change the register.
-/

namespace Hwy.X86.V256

/-! ## Masks relative to the first true lane -/

/-- `SetAtOrAfterFirst`, `x86_256-inl.h:8778-8802`. -/
def SetAtOrAfterFirst (mask : M256) : M256 :=
  let vmask := OrQ mask (NegQ 64 mask)
  let vmask2 := blk2 (fun z v => shufflePs z v (MM_SHUFFLE 1 1 0 0)) zero256 vmask
  let vmask := OrQ vmask (BroadcastSignBitQ 32 vmask2)
  let vmask3 := X86.BroadcastSignBit .avx2 32 (X86.Broadcast .avx2 32 3 (LowerHalf vmask))
  OrQ vmask (Combine vmask3 zero)
/-- `SetBeforeFirst`, `x86_256-inl.h:8804-8807`. -/
def SetBeforeFirst (mask : M256) : M256 := NotQ (SetAtOrAfterFirst mask)
/-- `SetOnlyFirst`, `x86_256-inl.h:8809-8831`. -/
def SetOnlyFirst (w : Nat) (mask : M256) : M256 :=
  let vmask_eq_0 := EqQ 64 mask zero256
  let vmask2_lo := LowerHalf vmask_eq_0
  let vmask2_hi := UpperHalf vmask_eq_0
  let vmask2_lo := X86.And vmask2_lo (X86.InterleaveLower 64 vmask2_lo vmask2_lo)
  let vmask2_hi := X86.And (X86.ConcatLowerUpper .avx2 64 16 vmask2_hi vmask2_lo) (X86.InterleaveUpper .avx2 64 16 vmask2_lo vmask2_lo)
  let vmask2_lo := X86.InterleaveLower 64 (set 64 (BitVec.ofInt 64 (-1))) vmask2_lo
  let vmask2 := Combine vmask2_hi vmask2_lo
  let only_first_vmask := NegQ w (AndQ mask (NegQ 64 mask))
  AndQ only_first_vmask vmask2
/-- `SetAtOrBeforeFirst`, `x86_256-inl.h:8833-8843`. -/
def SetAtOrBeforeFirst (w : Nat) (mask : M256) : M256 :=
  let kLanesPerBlock := 256 / w / 2
  let vmask_lo := ConcatLowerLower mask zero256
  SetBeforeFirst (CombineShiftRightBytes ((kLanesPerBlock - 1) * (w / 8)) mask vmask_lo)

/-! ## Pairs of 64-bit lanes as 128-bit numbers -/

/-- `ShiftLeftLanes<1>` of 64-bit lanes, `x86_128-inl.h:6314-6325`, `x86_256-inl.h:4239-4244`: within each block. -/
def ShiftLeftLanes1Q (v : M256) : M256 := ShiftLeftBytes 8 v
/-- `IfVecThenElse`, `x86_256-inl.h:618-630`: `IfThenElse(MaskFromVec(mask), …)` below AVX-512. -/
def IfVecThenElseQ (mask yes no : M256) : M256 := IfThenElse mask yes no
/-- `detail::Lt128Vec`, `x86_128-inl.h:13757-13777`. -/
def Lt128VecQ (a b : M256) : M256 :=
  let eqHL := EqQ 64 a b
  let ltHL := LtQ false 64 a b
  let ltLX := ShiftLeftLanes1Q ltHL
  let vecHx := IfThenElse eqHL ltLX ltHL
  InterleaveUpper 64 vecHx vecHx
/-- `detail::Eq128Vec`, `x86_128-inl.h:13780-13785`. -/
def Eq128VecQ (a b : M256) : M256 :=
  let eqHL := EqQ 64 a b
  let eqLH := Reverse2 false 64 eqHL
  AndQ eqHL eqLH
/-- `detail::Ne128Vec`, `x86_128-inl.h:13787-13792`. -/
def Ne128VecQ (a b : M256) : M256 :=
  let neHL := NeQ 64 a b
  let neLH := Reverse2 false 64 neHL
  OrQ neHL neLH
/-- `detail::Lt128UpperVec`, `x86_128-inl.h:13794-13800`. -/
def Lt128UpperVecQ (a b : M256) : M256 :=
  let ltHL := LtQ false 64 a b
  InterleaveUpper 64 ltHL ltHL
/-- `detail::Eq128UpperVec`, `x86_128-inl.h:13802-13808`. -/
def Eq128UpperVecQ (a b : M256) : M256 :=
  let eqHL := EqQ 64 a b
  InterleaveUpper 64 eqHL eqHL
/-- `detail::Ne128UpperVec`, `x86_128-inl.h:13810-13816`. -/
def Ne128UpperVecQ (a b : M256) : M256 :=
  let neHL := NeQ 64 a b
  InterleaveUpper 64 neHL neHL
/-- `Lt128`, `x86_128-inl.h:13820-13823`. -/
def Lt128Q (a b : M256) : M256 := Lt128VecQ a b
/-- `Eq128`, `x86_128-inl.h:13825-13828`. -/
def Eq128Q (a b : M256) : M256 := Eq128VecQ a b
/-- `Ne128`, `x86_128-inl.h:13830-13833`. -/
def Ne128Q (a b : M256) : M256 := Ne128VecQ a b
/-- `Lt128Upper`, `x86_128-inl.h:13835-13838`. -/
def Lt128UpperQ (a b : M256) : M256 := Lt128UpperVecQ a b
/-- `Eq128Upper`, `x86_128-inl.h:13840-13843`. -/
def Eq128UpperQ (a b : M256) : M256 := Eq128UpperVecQ a b
/-- `Ne128Upper`, `x86_128-inl.h:13845-13848`. -/
def Ne128UpperQ (a b : M256) : M256 := Ne128UpperVecQ a b
/-- `Min128`, `x86_128-inl.h:13853-13856`. -/
def Min128Q (a b : M256) : M256 := IfVecThenElseQ (Lt128VecQ a b) a b
/-- `Max128`, `x86_128-inl.h:13858-13861`. -/
def Max128Q (a b : M256) : M256 := IfVecThenElseQ (Lt128VecQ b a) a b
/-- `Min128Upper`, `x86_128-inl.h:13863-13866`. -/
def Min128UpperQ (a b : M256) : M256 := IfVecThenElseQ (Lt128UpperVecQ a b) a b
/-- `Max128Upper`, `x86_128-inl.h:13868-13871`. -/
def Max128UpperQ (a b : M256) : M256 := IfVecThenElseQ (Lt128UpperVecQ b a) a b

end Hwy.X86.V256
