import Verif.X86V256Mask

/-!
# Integer conversions of 256-bit vectors on AVX2

Operations on each block whose AVX2 definition in `x86_256-inl.h` is the 256-bit form of the definition modelled in
`X86Ops.lean`/`X86Conv.lean` are written `blk1`/`blk2` of the latter at target AVX2.
-/

namespace Hwy.X86.V256

/-! ## Promotions -/

/-- `PromoteTo` from a half (or smaller part) of `f`-bit lanes to `g`-bit lanes, `x86_256-inl.h:6392-6444`. -/
def PromoteTo (signed : Bool) (f g : Nat) (v : M128) : M256 := PromoteTo256 signed f g v
/-- `PromoteLowerTo` of `f`-bit lanes to lanes of twice the width, `generic_ops-inl.h:3337-3343`. -/
def PromoteLowerTo (signed : Bool) (f : Nat) (v : M256) : M256 := PromoteTo signed f (2 * f) (LowerHalf v)
/-- `PromoteUpperTo`, `generic_ops-inl.h:3357-3363`. -/
def PromoteUpperTo (signed : Bool) (f : Nat) (v : M256) : M256 := PromoteTo signed f (2 * f) (UpperHalf v)
/-- `PromoteEvenTo`, `inside-inl.h:447-501`; `i32` to `i64`: `x86_256-inl.h:6514-6520`. -/
def PromoteEvenTo (signed : Bool) (f : Nat) (v : M256) : M256 :=
  if signed then
    if f = 32 then OddEven false 32 (DupEven false 32 (blk1 (BroadcastSignBit .avx2 32) v)) v
    else blk1 (ShiftRightI .avx2 (2 * f) f) (blk1 (ShiftLeft (2 * f) f) v)
  else blk2 And v (setQ (2 * f) ((BitVec.allOnes f).setWidth (2 * f)))
/-- `PromoteOddTo`, `inside-inl.h:503-545`; `i32` to `i64`: `x86_256-inl.h:6522-6528`. -/
def PromoteOddTo (signed : Bool) (f : Nat) (v : M256) : M256 :=
  if signed then
    if f = 32 then OddEven false 32 (blk1 (BroadcastSignBit .avx2 32) v) (DupOdd false 32 v)
    else blk1 (ShiftRightI .avx2 (2 * f) f) v
  else blk1 (ShiftRightU (2 * f) f) v

/-! ## Truncations -/

/-- `TruncateTo`, `x86_256-inl.h:6987-7037`; `kMap` is given by its bytes. -/
def TruncateTo (f n : Nat) (v : M256) : M128 :=
  if f = 64 then
    if n = 8 then
      let quad := TableLookupBytes v
        ⟨ofBytes ([0, 8] ++ List.replicate 14 255), ofBytes ([255, 255, 0, 8] ++ List.replicate 12 255)⟩
      let lo := LowerHalf quad
      let hi := UpperHalf quad
      let result := Or lo hi
      X86.LowerHalf (X86.LowerHalf result)
    else if n = 16 then LookupAndConcatQuarters 0x100 0x908 v
    else
      let v32 := TableLookupLanes 32 v (IndicesFromVec 32 (ofLanes 32 [0, 2, 4, 6, 0, 2, 4, 6]))
      LowerHalf v32
  else TruncateTo256 f n v
/-- `U8FromU32`, for lanes in `[0, 255]`, `x86_256-inl.h:6923-6935`; `k8From32` is given by its bytes. -/
def U8FromU32 (v : M256) : M128 :=
  let quad := TableLookupBytes v
    ⟨ofBytes ([0, 4, 8, 12] ++ List.replicate 12 255), ofBytes (List.replicate 4 255 ++ [0, 4, 8, 12] ++ List.replicate 8 255)⟩
  let lo := LowerHalf quad
  let hi := UpperHalf quad
  X86.LowerHalf (Or lo hi)

/-! ## Demotions -/

/-- `DemoteTo` from signed lanes of 16 or 32 bits, `x86_256-inl.h:6535-6541, 6550-6563, 6577-6581, 6590-6603`. -/
def DemoteFromI (f : Nat) (signedTo : Bool) (n : Nat) (v : M256) : M128 :=
  if f = 32 then DemoteI32_256 signedTo n v else DemoteI16_256 signedTo v
/-- The unsigned minimum with the largest signed value of the lane type, `x86_256-inl.h:6547, 6573, 6587, 6724-6726,
6746-6748`. -/
def ClampU (f : Nat) (v : M256) : M256 :=
  if f = 32 then blk2 (MinU .avx2 32) v (setQ 32 0x7FFFFFFF#32) else blk2 (MinU .avx2 16) v (setQ 16 0x7FFF#16)
/-- `DemoteTo` from unsigned lanes of 16 or 32 bits: to unsigned lanes `x86_256-inl.h:6543-6548, 6565-6575, 6583-6588`,
to signed lanes `generic_ops-inl.h:3284-3305`. -/
def DemoteFromU (f : Nat) (signedTo : Bool) (n : Nat) (v : M256) : M128 :=
  if signedTo then
    let i2i_demote_result := DemoteFromI f true n v
    let max_signed_val := set n (BitVec.intMax n)
    MinU .avx2 n i2i_demote_result max_signed_val
  else DemoteFromI f false n (ClampU f v)
/-- The saturation of 64-bit lanes to the range of `n`-bit lanes, `x86_128-inl.h:11018-11044, 11060-11065, 11075-11076`. -/
def Saturate64 (signedFrom signedTo : Bool) (n : Nat) (v : M256) : M256 :=
  if signedFrom then
    if signedTo then blk1 (SaturateI64I .avx2 n) v else blk1 (SaturateI64U .avx2 n) v
  else blk1 (DemoteFromU64Saturate .avx2 signedTo n) v
/-- `DemoteTo` for all integer types; from 64-bit lanes `x86_128-inl.h:11053-11087, 11098-11102`. -/
def DemoteTo (signedFrom : Bool) (f : Nat) (signedTo : Bool) (n : Nat) (v : M256) : M128 :=
  if f = 64 then TruncateTo 64 n (Saturate64 signedFrom signedTo n v)
  else if signedFrom then DemoteFromI f signedTo n v else DemoteFromU f signedTo n v

/-- `ReorderDemote2To` from signed lanes of `2*n` bits, `n` is 8 or 16, `x86_256-inl.h:6707-6717, 6729-6739`. -/
def ReorderDemote2FromI (signedTo : Bool) (n : Nat) (a b : M256) : M256 :=
  if signedTo then blk2 (packs (2 * n)) a b else blk2 (packus (2 * n)) a b
/-- `ReorderDemote2To` to `n`-bit lanes: `x86_256-inl.h:6707-6809`, unsigned to signed 8- and 16-bit lanes
`generic_ops-inl.h:3308-3330`. -/
def ReorderDemote2To (signedFrom signedTo : Bool) (n : Nat) (a b : M256) : M256 :=
  if n = 32 then
    let saturated_a := Saturate64 signedFrom signedTo 32 a
    let saturated_b := Saturate64 signedFrom signedTo 32 b
    blk2 (fun x y => shufflePs x y (MM_SHUFFLE 2 0 2 0)) saturated_a saturated_b
  else if signedFrom then ReorderDemote2FromI signedTo n a b
  else if signedTo then
    let i2i_demote_result := ReorderDemote2FromI true n a b
    let max_signed_val := setQ n (BitVec.intMax n)
    blk2 (MinU .avx2 n) i2i_demote_result max_signed_val
  else ReorderDemote2FromI false n (ClampU (2 * n) a) (ClampU (2 * n) b)
/-- `OrderedDemote2To`, `x86_256-inl.h:6812-6822`. -/
def OrderedDemote2To (signedFrom signedTo : Bool) (n : Nat) (a b : M256) : M256 :=
  permute4x64 (ReorderDemote2To signedFrom signedTo n a b) (MM_SHUFFLE 3 1 2 0)
/-- AVX2 `ReorderDemote2To` of 128-bit vectors of 64-bit lanes, `x86_128-inl.h:11105-11129`. -/
def ReorderDemote2To128 (signedFrom signedTo : Bool) (a b : M128) : M128 := DemoteTo signedFrom 64 signedTo 32 (Combine b a)

/-! ## 8-bit multiplication -/

/-- AVX2 8-bit `operator*` of 128-bit vectors, `generic_ops-inl.h:4566-4576`. -/
def Mul8_128 (signed : Bool) (a b : M128) : M128 :=
  let mul := blk2 Mul16 (PromoteTo signed 8 16 a) (PromoteTo signed 8 16 b)
  TruncateTo 16 8 mul
/-- AVX2 8-bit `operator*` of 256-bit vectors, `generic_ops-inl.h:4579-4592`. -/
def Mul8 (signed : Bool) (a b : M256) : M256 :=
  let a0 := PromoteTo signed 8 16 (LowerHalf a)
  let a1 := PromoteTo signed 8 16 (UpperHalf a)
  let b0 := PromoteTo signed 8 16 (LowerHalf b)
  let b1 := PromoteTo signed 8 16 (UpperHalf b)
  let m0 := blk2 Mul16 a0 b0
  let m1 := blk2 Mul16 a1 b1
  ConcatEven 8 m1 m0

end Hwy.X86.V256
