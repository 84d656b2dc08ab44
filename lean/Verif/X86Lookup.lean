import Verif.X86Conv

/-!
# Runtime permutations of the x86 128-bit targets

Slides by a runtime amount and lookups of lanes by runtime indices. `sz` is the size of the vector in bytes.
-/

namespace Hwy.X86

/-- `VPERMILPS` with indices in a register (`_mm_permutevar_ps`, AVX): the lowest two bits of each 32-bit lane
select. Trusted. -/
def permutevarPs (a idx : M128) : M128 := mk 32 (fun i => lane 32 ((lane 32 i idx).toNat % 4) a)
/-- `VPERMILPD` with indices in a register (`_mm_permutevar_pd`, AVX): bit 1 of each 64-bit lane selects.
Trusted. -/
def permutevarPd (a idx : M128) : M128 := mk 64 (fun i => lane 64 ((lane 64 i idx).toNat / 2 % 2) a)

/-- `detail::SlideUpLanes`, `x86_128-inl.h:7709-7749`. `-static_cast<int32_t>(amt >= kNumOfLanesPerU64)` is
all-ones or zero. -/
def SlideUpLanesRt (t : Tgt) (w sz : Nat) (v : M128) (amt : Nat) : M128 :=
  if sz ≤ 8 then ShiftLeftSame 64 v (amt * (w / 8) * 8)
  else if t.val ≤ HWY_SSSE3 then
    TableLookupBytesOr0 t v (Iota 8 (BitVec.ofInt 8 (0 - (amt * (w / 8) : Nat))))
  else
    let kNumOfLanesPerU64 := 8 / (w / 8)
    let v_hi := IfVecThenElse t (set 32 (if amt ≥ kNumOfLanesPerU64 then BitVec.allOnes 32 else 0#32)) (ShiftLeftBytes 8 v) v
    let v_lo := ShiftLeftBytes 8 v_hi
    let shl_amt := (amt * (w / 8) * 8) % 64
    Or (ShiftLeftSame 64 v_hi shl_amt) (ShiftRightSameU 64 v_lo (64 - shl_amt))
/-- `SlideUpLanes`, `x86_128-inl.h:7753-7869`; `isConst`: the compiler sees that `amt` is a constant
(`__builtin_constant_p`). -/
def SlideUpLanes (t : Tgt) (isConst : Bool) (w sz : Nat) (v : M128) (amt : Nat) : M128 :=
  if sz / (w / 8) = 1 then v
  else if isConst ∧ amt < sz / (w / 8) then
    if amt = 0 then v else ShiftLeftLanes w amt v
  else SlideUpLanesRt t w sz v amt

/-- `detail::SlideDownLanes`, `x86_128-inl.h:7873-7915`. The index vector is `Iota` of `int8_t`. -/
def SlideDownLanesRt (t : Tgt) (w sz : Nat) (v : M128) (amt : Nat) : M128 :=
  if sz ≤ 8 then ShiftRightSameU (sz * 8) v (amt * (w / 8) * 8)
  else if t.val ≤ HWY_SSSE3 then
    let idx := Iota 8 (BitVec.ofNat 8 (amt * (w / 8)))
    let idx := Or idx (Gt t true 8 idx (set 8 15#8))
    TableLookupBytesOr0 t v idx
  else
    let kNumOfLanesPerU64 := 8 / (w / 8)
    let v_lo := IfVecThenElse t (set 32 (if amt ≥ kNumOfLanesPerU64 then BitVec.allOnes 32 else 0#32))
      (ShiftRightBytes t 64 16 8 v) v
    let v_hi := ShiftRightBytes t 64 16 8 v_lo
    let shr_amt := (amt * (w / 8) * 8) % 64
    Or (ShiftRightSameU 64 v_lo shr_amt) (ShiftLeftSame 64 v_hi (64 - shr_amt))
/-- `SlideDownLanes`, `x86_128-inl.h:7919-8035`. -/
def SlideDownLanes (t : Tgt) (isConst : Bool) (w sz : Nat) (v : M128) (amt : Nat) : M128 :=
  if sz / (w / 8) = 1 then v
  else if isConst ∧ amt < sz / (w / 8) then
    if amt = 0 then v else ShiftRightLanes t w sz amt v
  else SlideDownLanesRt t w sz v amt

/-- `Slide1Up`, `generic_ops-inl.h:7546-7559`. -/
def Slide1Up (w sz : Nat) (v : M128) : M128 := if sz / (w / 8) = 1 then zero else ShiftLeftLanes w 1 v
/-- `Slide1Down` of any vector (`Slide1Down` of `X86Mul.lean` for more than one lane), `generic_ops-inl.h:7550-7563`. -/
def Slide1DownD (t : Tgt) (w sz : Nat) (v : M128) : M128 :=
  if sz / (w / 8) = 1 then zero else Slide1Down t w sz v

/-- `IndicesFromVec`, `x86_128-inl.h:6882-6974`: lane indices, or byte indices where lanes are looked up with
`PSHUFB`. -/
def IndicesFromVec (t : Tgt) (w : Nat) (vec : M128) : M128 :=
  if w = 16 then
    if t.val = HWY_SSE2 then vec
    else
      let kByteOffsets := ofBytes [0, 1, 0, 1, 0, 1, 0, 1, 0, 1, 0, 1, 0, 1, 0, 1]
      let kBroadcastLaneBytes := ofBytes [0, 0, 2, 2, 4, 4, 6, 6, 8, 8, 10, 10, 12, 12, 14, 14]
      let lane_indices := TableLookupBytes t vec kBroadcastLaneBytes
      let byte_indices := ShiftLeft 16 1 lane_indices
      Add 8 byte_indices kByteOffsets
  else if w = 32 then
    if t.val ≤ HWY_AVX2 ∨ t.val = HWY_SSE2 then vec
    else
      let kByteOffsets := ofBytes [0, 1, 2, 3, 0, 1, 2, 3, 0, 1, 2, 3, 0, 1, 2, 3]
      let kBroadcastLaneBytes := ofBytes [0, 0, 0, 0, 4, 4, 4, 4, 8, 8, 8, 8, 12, 12, 12, 12]
      let lane_indices := TableLookupBytes t vec kBroadcastLaneBytes
      let byte_indices := ShiftLeft 16 2 lane_indices
      Add 8 byte_indices kByteOffsets
  else vec

/-- `TableLookupLanes` of integer vectors, `x86_128-inl.h:6984-7097`. On SSE2 the loop over lanes. -/
def TableLookupLanes (t : Tgt) (w sz : Nat) (v idx : M128) : M128 :=
  if sz / (w / 8) = 1 then v
  else if w = 8 then TableLookupBytes t v idx
  else if w = 16 then
    if t.val = HWY_SSE2 then mk 16 (fun i => lane 16 ((lane 16 i idx).toNat % 8) v)
    else TableLookupBytes t v idx
  else if w = 32 then
    if t.val ≤ HWY_AVX2 then permutevarPs v idx
    else if t.val = HWY_SSE2 then mk 32 (fun i => lane 32 ((lane 32 i idx).toNat % 4) v)
    else TableLookupBytes t v idx
  else
    if t.val ≤ HWY_AVX2 then permutevarPd v (Add 64 idx idx)
    else
      let same := Sub 64 (Xor idx (Iota 64 0#64)) (set 64 1#64)
      IfThenElse t same v (Shuffle01 v)

/-- `TwoTablesLookupLanes` of full 8-bit vectors, `x86_128-inl.h:8672-8703`. -/
def TwoTablesLookupLanes8 (t : Tgt) (a b idx : M128) : M128 :=
  let sel_hi_mask := if t.val ≤ HWY_SSE4 then ShiftLeft 16 3 idx else Gt t true 8 idx (set 8 15#8)
  let lo_lookup_result := TableLookupBytes t a idx
  let hi_lookup_result := TableLookupBytes t b idx
  IfThenElse t sel_hi_mask hi_lookup_result lo_lookup_result
/-- `TwoTablesLookupLanes` of full 16-bit vectors, `x86_128-inl.h:8705-8726`. -/
def TwoTablesLookupLanes16 (t : Tgt) (a b idx : M128) : M128 :=
  if t.val = HWY_SSE2 then
    let sel_hi_mask := Gt t true 16 idx (set 16 7#16)
    let lo_lookup_result := TableLookupLanes t 16 16 a idx
    let hi_lookup_result := TableLookupLanes t 16 16 b idx
    IfThenElse t sel_hi_mask hi_lookup_result lo_lookup_result
  else TwoTablesLookupLanes8 t a b idx
/-- `TwoTablesLookupLanes` of full 32-bit integer vectors, `x86_128-inl.h:8728-8758`. AVX2 selects as `float`. -/
def TwoTablesLookupLanes32 (t : Tgt) (a b idx : M128) : M128 :=
  if t.val ≤ HWY_AVX2 ∨ t.val = HWY_SSE2 then
    let lo_lookup_result := TableLookupLanes t 32 16 a idx
    let hi_lookup_result := TableLookupLanes t 32 16 b idx
    if t.val ≤ HWY_AVX2 then IfThenElseF t 32 (ShiftLeft 32 29 idx) hi_lookup_result lo_lookup_result
    else IfThenElse t (Gt t true 32 idx (set 32 3#32)) hi_lookup_result lo_lookup_result
  else TwoTablesLookupLanes8 t a b idx
/-- `TwoTablesLookupLanes` of full 64-bit integer vectors, `x86_128-inl.h:8794-8821`. SSE4 and AVX2 select as
`double`. -/
def TwoTablesLookupLanes64 (t : Tgt) (a b idx : M128) : M128 :=
  let idx_mod := And idx (set 64 1#64)
  let lo_lookup_result := TableLookupLanes t 64 16 a idx_mod
  let hi_lookup_result := TableLookupLanes t 64 16 b idx_mod
  if t.val ≤ HWY_SSE4 then IfThenElseF t 64 (ShiftLeft 64 62 idx) hi_lookup_result lo_lookup_result
  else
    let sel_hi_mask := Gt t true 32 (DupEven t 32 16 idx) (set 32 1#32)
    IfThenElse t sel_hi_mask hi_lookup_result lo_lookup_result
/-- `TwoTablesLookupLanes` of integer vectors, `x86_128-inl.h:8654-8821`. -/
def TwoTablesLookupLanes (t : Tgt) (w sz : Nat) (a b idx : M128) : M128 :=
  if sz ≤ 8 then LowerHalf (TableLookupLanes t w (2 * sz) (Combine (2 * sz) b a) idx)
  else if w = 8 then TwoTablesLookupLanes8 t a b idx
  else if w = 16 then TwoTablesLookupLanes16 t a b idx
  else if w = 32 then TwoTablesLookupLanes32 t a b idx
  else TwoTablesLookupLanes64 t a b idx

end Hwy.X86
