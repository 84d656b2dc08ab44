import Verif.X86V256Reduce

/-!
# Population count, byte and bit reversal on the x86 targets

`hwy/ops/generic_ops-inl.h`, as instantiated for the 128-bit vectors of SSE2, SSSE3, SSE4 and AVX2 (`sz` bytes) and for the 256-bit
vectors of AVX2. None of these targets has a native version. `BitCast` does not change the register. `w` is the lane width in bits.
-/

namespace Hwy.X86

/-- `PopulationCount` of bytes, `generic_ops-inl.h:4502-4511, 4516-4525`: `sz` greater than 8, and the fallback for capped vectors. -/
def PopulationCount8 (t : Tgt) (sz : Nat) (v : M128) : M128 :=
  if sz > 8 then
    let lookup := ofBytes [0, 1, 1, 2, 1, 2, 2, 3, 1, 2, 2, 3, 2, 3, 3, 4]
    let lo := And v (set 8 0xF#8)
    let hi := ShiftRightU 8 4 v
    Add 8 (TableLookupBytes t lookup hi) (TableLookupBytes t lookup lo)
  else
    let k33 := set 8 0x33#8
    let v := Sub 8 v (And (ShiftRightU 8 1 v) (set 8 0x55#8))
    let v := Add 8 (And (ShiftRightU 8 2 v) k33) (And v k33)
    And (Add 8 v (ShiftRightU 8 4 v)) (set 8 0x0F#8)
/-- `PopulationCount` of 16-bit lanes, `generic_ops-inl.h:4528-4534`. -/
def PopulationCount16 (t : Tgt) (sz : Nat) (v : M128) : M128 :=
  let vals := PopulationCount8 t sz v
  Add 16 (ShiftRightU 16 8 vals) (And vals (set 16 0xFF#16))
/-- `PopulationCount` of 32-bit lanes, `generic_ops-inl.h:4536-4542`. -/
def PopulationCount32 (t : Tgt) (sz : Nat) (v : M128) : M128 :=
  let vals := PopulationCount16 t sz v
  Add 32 (ShiftRightU 32 16 vals) (And vals (set 32 0xFF#32))
/-- `PopulationCount` of 64-bit lanes, `generic_ops-inl.h:4545-4551`. -/
def PopulationCount64 (t : Tgt) (sz : Nat) (v : M128) : M128 :=
  let vals := PopulationCount32 t sz v
  Add 64 (ShiftRightU 64 32 vals) (And vals (set 64 0xFF#64))
/-- `PopulationCount`, `generic_ops-inl.h:4502-4551`. -/
def PopulationCount (t : Tgt) (w sz : Nat) (v : M128) : M128 :=
  if w = 8 then PopulationCount8 t sz v else if w = 16 then PopulationCount16 t sz v
  else if w = 32 then PopulationCount32 t sz v else PopulationCount64 t sz v

/-- `ReverseLaneBytes`, `generic_ops-inl.h:6829-6848`. -/
def ReverseLaneBytes (t : Tgt) (w sz : Nat) (v : M128) : M128 :=
  if w = 16 then Reverse2x8 t v else if w = 32 then Reverse4x8 t sz v else Reverse8x8 t sz v
/-- `detail::UI8ReverseBitsStep<kShiftAmt, kShrResultMask>`, `generic_ops-inl.h:6876-6902`: the shifts are of 16-bit lanes. -/
def UI8ReverseBitsStep (kShiftAmt : Nat) (kShrResultMask : BitVec 8) (v : M128) : M128 :=
  let shl_result := ShiftLeft 16 kShiftAmt v
  let shr_result := ShiftRightU 16 kShiftAmt v
  let shr_result_mask := set 8 kShrResultMask
  Or (And shr_result shr_result_mask) (AndNot shr_result_mask shl_result)
/-- `ReverseBits` of bytes, `generic_ops-inl.h:6907-6913`. -/
def ReverseBits8 (v : M128) : M128 :=
  let result := UI8ReverseBitsStep 1 0x55#8 v
  let result := UI8ReverseBitsStep 2 0x33#8 result
  UI8ReverseBitsStep 4 0x0F#8 result
/-- `ReverseBits`, `generic_ops-inl.h:6907-6930`. -/
def ReverseBits (t : Tgt) (w sz : Nat) (v : M128) : M128 :=
  if w = 8 then ReverseBits8 v else ReverseLaneBytes t w sz (ReverseBits8 v)

namespace V256

/-- 256-bit `PopulationCount` of bytes, `generic_ops-inl.h:4502-4511`. -/
def PopulationCount8Q (v : M256) : M256 :=
  let lookup := dup128 (ofBytes [0, 1, 1, 2, 1, 2, 2, 3, 1, 2, 2, 3, 2, 3, 3, 4])
  let lo := AndQ v (setQ 8 0xF#8)
  let hi := ShiftRightUQ 8 4 v
  AddQ 8 (TableLookupBytes lookup hi) (TableLookupBytes lookup lo)
/-- 256-bit `PopulationCount` of 16-bit lanes, `generic_ops-inl.h:4528-4534`. -/
def PopulationCount16Q (v : M256) : M256 :=
  let vals := PopulationCount8Q v
  AddQ 16 (ShiftRightUQ 16 8 vals) (AndQ vals (setQ 16 0xFF#16))
/-- 256-bit `PopulationCount` of 32-bit lanes, `generic_ops-inl.h:4536-4542`. -/
def PopulationCount32Q (v : M256) : M256 :=
  let vals := PopulationCount16Q v
  AddQ 32 (ShiftRightUQ 32 16 vals) (AndQ vals (setQ 32 0xFF#32))
/-- 256-bit `PopulationCount` of 64-bit lanes, `generic_ops-inl.h:4545-4551`. -/
def PopulationCount64Q (v : M256) : M256 :=
  let vals := PopulationCount32Q v
  AddQ 64 (ShiftRightUQ 64 32 vals) (AndQ vals (setQ 64 0xFF#64))
/-- 256-bit `PopulationCount`, `generic_ops-inl.h:4502-4551`. -/
def PopulationCountQ (w : Nat) (v : M256) : M256 :=
  if w = 8 then PopulationCount8Q v else if w = 16 then PopulationCount16Q v
  else if w = 32 then PopulationCount32Q v else PopulationCount64Q v

/-- 256-bit `ReverseLaneBytes`, `generic_ops-inl.h:6829-6848`. -/
def ReverseLaneBytesQ (w : Nat) (v : M256) : M256 :=
  if w = 16 then Reverse2x8Q v else if w = 32 then Reverse4x8Q v else Reverse8x8Q v
/-- 256-bit `detail::UI8ReverseBitsStep`, `generic_ops-inl.h:6876-6894`. -/
def UI8ReverseBitsStepQ (kShiftAmt : Nat) (kShrResultMask : BitVec 8) (v : M256) : M256 :=
  let shl_result := ShiftLeftQ 16 kShiftAmt v
  let shr_result := ShiftRightUQ 16 kShiftAmt v
  let shr_result_mask := setQ 8 kShrResultMask
  OrQ (AndQ shr_result shr_result_mask) (AndNotQ shr_result_mask shl_result)
/-- 256-bit `ReverseBits` of bytes, `generic_ops-inl.h:6907-6913`. -/
def ReverseBits8Q (v : M256) : M256 :=
  let result := UI8ReverseBitsStepQ 1 0x55#8 v
  let result := UI8ReverseBitsStepQ 2 0x33#8 result
  UI8ReverseBitsStepQ 4 0x0F#8 result
/-- 256-bit `ReverseBits`, `generic_ops-inl.h:6907-6930`. -/
def ReverseBitsQ (w : Nat) (v : M256) : M256 := if w = 8 then ReverseBits8Q v else ReverseLaneBytesQ w (ReverseBits8Q v)

end V256
end Hwy.X86
