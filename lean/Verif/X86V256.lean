import Verif.X86Shift

/-!
# Rearranging operations of 256-bit AVX2 vectors

`hwy/ops/x86_256-inl.h`, the branches taken when `HWY_TARGET == HWY_AVX2`. A `Vec256<T>` is a register `M256`
of two 128-bit blocks; `w` is the lane width in bits. `flt` chooses the overload for `float`/`double` where its
instructions differ. The intrinsics at the top are trusted (Intel SDM vol. 2).
-/

namespace Hwy.X86.V256

/-! ### Instructions -/

/-- `_mm256_inserti128_si256`, `_mm256_insertf128_ps/pd`: replaces block `imm`. -/
def inserti128 (a : M256) (b : M128) (imm : Nat) : M256 := if imm % 2 = 0 then ⟨b, a.hi⟩ else ⟨a.lo, b⟩
/-- `_mm256_extracti128_si256`, `_mm256_extractf128_ps/pd`. -/
def extracti128 (a : M256) (imm : Nat) : M128 := if imm % 2 = 0 then a.lo else a.hi
/-- The block selected by four bits of the immediate of `VPERM2I128`. -/
def sel128 (a b : M256) (c : Nat) : M128 :=
  if c / 8 % 2 = 1 then 0#128
  else if c % 4 = 0 then a.lo else if c % 4 = 1 then a.hi else if c % 4 = 2 then b.lo else b.hi
/-- `_mm256_permute2x128_si256`, `_mm256_permute2f128_ps/pd`. -/
def permute2x128 (a b : M256) (imm : Nat) : M256 := ⟨sel128 a b (imm % 16), sel128 a b (imm / 16 % 16)⟩
/-- `_mm256_blend_epi32/ps` (`w = 32`) and `_mm256_blend_pd` (`w = 64`): one bit of the immediate per lane. -/
def blendQ (w : Nat) (a b : M256) (imm : Nat) : M256 :=
  ⟨blend w a.lo b.lo imm, blend w a.hi b.hi (imm >>> (128 / w))⟩
/-- `_mm256_shuffle_pd`: two bits of the immediate per block. -/
def shufflePdQ (a b : M256) (imm : Nat) : M256 := ⟨shufflePd a.lo b.lo imm, shufflePd a.hi b.hi (imm >>> 2)⟩
/-- `_mm256_broadcastb_epi8`, `...w_epi16`, `...d_epi32`, `...q_epi64`, `...ss_ps`, `...sd_pd`: lane 0 everywhere. -/
def bcast (w : Nat) (a : M128) : M256 := ⟨set1 w (lane w 0 a), set1 w (lane w 0 a)⟩
/-- `_mm256_permutevar8x32_epi32/ps` (`VPERMD`). -/
def permutevar8x32 (a idx : M256) : M256 :=
  ⟨mk 32 (fun i => lane256 32 ((lane 32 i idx.lo).toNat % 8) a), mk 32 (fun i => lane256 32 ((lane 32 i idx.hi).toNat % 8) a)⟩
/-- `_mm_moveldup_ps`: duplicates the even lanes; on each block. -/
def moveldup (a : M128) : M128 := mk 32 (fun i => lane 32 (i / 2 * 2) a)
/-- `_mm256_setzero_si256`. -/
def zero256 : M256 := ⟨zero, zero⟩
/-- `Load` of a 32-byte table whose halves are equal, and `Dup128VecFromValues`, `x86_256-inl.h:410-490`. -/
def dup128 (a : M128) : M256 := ⟨a, a⟩

/-! ### Halves and blocks -/

/-- `LowerHalf`, `x86_256-inl.h:4049-4078`. -/
def LowerHalf (v : M256) : M128 := castsi256 v
/-- `UpperHalf`, `x86_256-inl.h:4082-4096`. -/
def UpperHalf (v : M256) : M128 := extracti128 v 1
/-- `ExtractBlock`, `x86_256-inl.h:4130-4135`. -/
def ExtractBlock (kBlockIdx : Nat) (v : M256) : M128 := if kBlockIdx = 0 then LowerHalf v else UpperHalf v
/-- `ZeroExtendVector`, `x86_256-inl.h:4162-4204`. -/
def ZeroExtendVector (lo : M128) : M256 := inserti128 zero256 lo 0
/-- `Combine`, `x86_256-inl.h:4222-4240`. -/
def Combine (hi lo : M128) : M256 := inserti128 (ZeroExtendVector lo) hi 1
/-- `ShiftLeftBytes`, `x86_256-inl.h:4239-4244`. -/
def ShiftLeftBytes (k : Nat) (v : M256) : M256 := blk1 (fun x => slliBytes x k) v
/-- `ShiftRightBytes`, `x86_256-inl.h:4247-4252`. -/
def ShiftRightBytes (k : Nat) (v : M256) : M256 := blk1 (fun x => srliBytes x k) v
/-- `CombineShiftRightBytes`, `x86_256-inl.h:4255-4260`. -/
def CombineShiftRightBytes (k : Nat) (hi lo : M256) : M256 := blk2 (fun h l => alignr h l k) hi lo
/-- `TableLookupBytes` (both full), `x86_256-inl.h:5563-5572`. -/
def TableLookupBytes (bytes from_ : M256) : M256 := blk2 shuffle8 bytes from_
/-- `Broadcast`, `x86_256-inl.h:4268-4307`, `5600-5604`. -/
def Broadcast (flt : Bool) (w kLane : Nat) (v : M256) : M256 :=
  if w = 8 then TableLookupBytes v (dup128 (set 8 (BitVec.ofNat 8 kLane)))
  else if w = 16 then
    if kLane < 4 then
      let lo := blk1 (fun x => shufflelo16 x (0x55 * kLane % 256)) v
      blk2 (unpacklo 64) lo lo
    else
      let hi := blk1 (fun x => shufflehi16 x (0x55 * (kLane - 4) % 256)) v
      blk2 (unpackhi 64) hi hi
  else if w = 32 then
    if flt then blk2 (fun x y => shufflePs x y (0x55 * kLane)) v v else blk1 (fun x => shuffle32 x (0x55 * kLane)) v
  else if flt then shufflePdQ v v (15 * kLane)
  else blk1 (fun x => shuffle32 x (if kLane ≠ 0 then 0xEE else 0x44)) v

/-- `ConcatLowerLower`, `x86_256-inl.h:4315-4332`. -/
def ConcatLowerLower (hi lo : M256) : M256 := inserti128 lo (LowerHalf hi) 1
/-- `ConcatLowerUpper`, `x86_256-inl.h:4335-4350`. -/
def ConcatLowerUpper (hi lo : M256) : M256 := permute2x128 lo hi 0x21
/-- `ConcatUpperLower`, `x86_256-inl.h:4353-4368`. -/
def ConcatUpperLower (flt : Bool) (w : Nat) (hi lo : M256) : M256 :=
  if flt ∧ w = 64 then blendQ 64 hi lo 3 else blendQ 32 hi lo 0x0F
/-- `ConcatUpperUpper`, `x86_256-inl.h:4371-4386`. -/
def ConcatUpperUpper (hi lo : M256) : M256 := permute2x128 lo hi 0x31
/-- `BroadcastBlock`, `x86_256-inl.h:4389-4395`. -/
def BroadcastBlock (kBlockIdx : Nat) (v : M256) : M256 :=
  if kBlockIdx = 0 then ConcatLowerLower v v else ConcatUpperUpper v v
/-- `BroadcastLane`, `x86_256-inl.h:4399-4484`. -/
def BroadcastLane (flt : Bool) (w kLaneIdx : Nat) (v : M256) : M256 :=
  if kLaneIdx = 0 then bcast w (LowerHalf v)
  else if w = 64 then permute4x64 v (0x55 * kLaneIdx)
  else
    let kLanesPerBlock := 16 / (w / 8)
    let kBlockIdx := kLaneIdx / kLanesPerBlock
    let kLaneInBlkIdx := kLaneIdx &&& (kLanesPerBlock - 1)
    Broadcast flt w kLaneInBlkIdx (BroadcastBlock kBlockIdx v)
/-- `InsertBlock`, `x86_256-inl.h:5036-5044`. `up` is the unspecified upper block of `ResizeBitCast`. -/
def InsertBlock (flt : Bool) (w kBlockIdx : Nat) (v : M256) (blk up : M128) : M256 :=
  let vec_to_insert : M256 := ⟨blk, up⟩
  if kBlockIdx = 0 then ConcatUpperLower flt w v vec_to_insert else ConcatLowerLower vec_to_insert v
/-- `SwapAdjacentBlocks`, `x86_256-inl.h:4848-4866`. -/
def SwapAdjacentBlocks (v : M256) : M256 := permute4x64 v (MM_SHUFFLE 1 0 3 2)
/-- `ReverseBlocks`, `x86_256-inl.h:5546-5549`. -/
def ReverseBlocks (v : M256) : M256 := SwapAdjacentBlocks v
/-- `InterleaveEvenBlocks`, `x86_256-inl.h:4869-4872`. -/
def InterleaveEvenBlocks (a b : M256) : M256 := ConcatLowerLower b a
/-- `InterleaveOddBlocks`, `x86_256-inl.h:4875-4878`. -/
def InterleaveOddBlocks (a b : M256) : M256 := ConcatUpperUpper b a
/-- `OddEvenBlocks`, `x86_256-inl.h:5535-5551`. -/
def OddEvenBlocks (flt : Bool) (w : Nat) (odd even : M256) : M256 :=
  if flt ∧ w = 64 then blendQ 64 odd even 3 else blendQ 32 odd even 0xF

/-! ### Shuffles within blocks -/

/-- `Shuffle2301`, `x86_256-inl.h:4491-4496`. -/
def Shuffle2301 (flt : Bool) (v : M256) : M256 :=
  if flt then blk2 (fun x y => shufflePs x y 0xB1) v v else blk1 (fun x => shuffle32 x 0xB1) v
/-- `Shuffle1032`, `x86_256-inl.h:4529-4538`. -/
def Shuffle1032 (flt : Bool) (v : M256) : M256 :=
  if flt then blk2 (fun x y => shufflePs x y 0x4E) v v else blk1 (fun x => shuffle32 x 0x4E) v
/-- `Shuffle01`, `x86_256-inl.h:4539-4548`. -/
def Shuffle01 (flt : Bool) (v : M256) : M256 :=
  if flt then shufflePdQ v v 5 else blk1 (fun x => shuffle32 x 0x4E) v
/-- `Shuffle0321`, `x86_256-inl.h:4551-4559`. -/
def Shuffle0321 (flt : Bool) (v : M256) : M256 :=
  if flt then blk2 (fun x y => shufflePs x y 0x39) v v else blk1 (fun x => shuffle32 x 0x39) v
/-- `Shuffle2103`, `x86_256-inl.h:4561-4569`. -/
def Shuffle2103 (flt : Bool) (v : M256) : M256 :=
  if flt then blk2 (fun x y => shufflePs x y 0x93) v v else blk1 (fun x => shuffle32 x 0x93) v
/-- `Shuffle0123`, `x86_256-inl.h:4572-4580`. -/
def Shuffle0123 (flt : Bool) (v : M256) : M256 :=
  if flt then blk2 (fun x y => shufflePs x y 0x1B) v v else blk1 (fun x => shuffle32 x 0x1B) v
/-- `InterleaveLower`, `x86_256-inl.h:4973-5001`. -/
def InterleaveLower (w : Nat) (a b : M256) : M256 := blk2 (unpacklo w) a b
/-- `InterleaveUpper`, `x86_256-inl.h:5005-5033`. -/
def InterleaveUpper (w : Nat) (a b : M256) : M256 := blk2 (unpackhi w) a b
/-- `DupEven`, `x86_256-inl.h:5383-5396`; of 8- and 16-bit lanes `x86_128-inl.h:8539-8553`, `8564-8578`. -/
def DupEven (flt : Bool) (w : Nat) (v : M256) : M256 :=
  if w = 8 then TableLookupBytes v (dup128 (ofBytes [0, 0, 2, 2, 4, 4, 6, 6, 8, 8, 10, 10, 12, 12, 14, 14]))
  else if w = 16 then TableLookupBytes v (dup128 (of16 [0x0100, 0x0100, 0x0504, 0x0504, 0x0908, 0x0908, 0x0d0c, 0x0d0c]))
  else if w = 32 then
    if flt then blk2 (fun x y => shufflePs x y (MM_SHUFFLE 2 2 0 0)) v v
    else blk1 (fun x => shuffle32 x (MM_SHUFFLE 2 2 0 0)) v
  else InterleaveLower 64 v v
/-- `DupOdd`, `x86_256-inl.h:5400-5413`; of 8- and 16-bit lanes `x86_128-inl.h:8596-8610`, `8621-8635`. -/
def DupOdd (flt : Bool) (w : Nat) (v : M256) : M256 :=
  if w = 8 then TableLookupBytes v (dup128 (ofBytes [1, 1, 3, 3, 5, 5, 7, 7, 9, 9, 11, 11, 13, 13, 15, 15]))
  else if w = 16 then TableLookupBytes v (dup128 (of16 [0x0302, 0x0302, 0x0706, 0x0706, 0x0b0a, 0x0b0a, 0x0f0e, 0x0f0e]))
  else if w = 32 then
    if flt then blk2 (fun x y => shufflePs x y (MM_SHUFFLE 3 3 1 1)) v v
    else blk1 (fun x => shuffle32 x (MM_SHUFFLE 3 3 1 1)) v
  else InterleaveUpper 64 v v
/-- `IfThenElse` of integer lanes: `_mm256_blendv_epi8`, `x86_256-inl.h:1155-1158`. -/
def IfThenElse (mask yes no : M256) : M256 :=
  ⟨blendv 8 no.lo yes.lo mask.lo, blendv 8 no.hi yes.hi mask.hi⟩
/-- `IfThenElse` of `float` (`w = 32`) and `double` lanes: `_mm256_blendv_ps/pd`, `x86_256-inl.h:1159-1166`. -/
def IfThenElseF (w : Nat) (mask yes no : M256) : M256 :=
  ⟨blendv w no.lo yes.lo mask.lo, blendv w no.hi yes.hi mask.hi⟩
/-- `OddEven`, `x86_256-inl.h:5417-5460`. -/
def OddEven (flt : Bool) (w : Nat) (a b : M256) : M256 :=
  if w = 8 then
    IfThenElse (dup128 (ofBytes [0xFF, 0, 0xFF, 0, 0xFF, 0, 0xFF, 0, 0xFF, 0, 0xFF, 0, 0xFF, 0, 0xFF, 0])) b a
  else if w = 16 then blk2 (fun x y => blend 16 x y 0x55) a b
  else if w = 32 then blendQ 32 a b 0x55
  else if flt then blendQ 64 a b 5 else blendQ 32 a b 0x33
/-- `InterleaveEven`, `x86_256-inl.h:5479-5495`; of 8- and 16-bit lanes `x86_128-inl.h:8920-8933`. -/
def InterleaveEven (flt : Bool) (w : Nat) (a b : M256) : M256 :=
  if w = 8 then OddEven flt 8 (blk1 (slli 16 8) b) a
  else if w = 16 then OddEven flt 16 (blk1 (slli 32 16) b) a
  else if w = 32 then
    let b2_b0_a2_a0 := blk2 (fun x y => shufflePs x y (MM_SHUFFLE 2 0 2 0)) a b
    blk2 (fun x y => shufflePs x y (MM_SHUFFLE 3 1 2 0)) b2_b0_a2_a0 b2_b0_a2_a0
  else InterleaveLower 64 a b
/-- `InterleaveOdd`, `x86_256-inl.h:5514-5531`; of 8- and 16-bit lanes `x86_128-inl.h:8964-8977`. -/
def InterleaveOdd (flt : Bool) (w : Nat) (a b : M256) : M256 :=
  if w = 8 then OddEven flt 8 b (blk1 (srli 16 8) a)
  else if w = 16 then OddEven flt 16 b (blk1 (srli 32 16) a)
  else if w = 32 then
    let b3_b1_a3_a3 := blk2 (fun x y => shufflePs x y (MM_SHUFFLE 3 1 3 1)) a b
    blk2 (fun x y => shufflePs x y (MM_SHUFFLE 3 1 2 0)) b3_b1_a3_a3 b3_b1_a3_a3
  else InterleaveUpper 64 a b

/-! ### Across blocks -/

/-- `ConcatOdd`, `x86_256-inl.h:5048-5151`. -/
def ConcatOdd (w : Nat) (hi lo : M256) : M256 :=
  if w = 8 then
    let uH := blk1 (srli 16 8) hi
    let uL := blk1 (srli 16 8) lo
    permute4x64 (blk2 (packus 16) uL uH) (MM_SHUFFLE 3 1 2 0)
  else if w = 16 then
    let uH := blk1 (srli 32 16) hi
    let uL := blk1 (srli 32 16) lo
    permute4x64 (blk2 (packus 32) uL uH) (MM_SHUFFLE 3 1 2 0)
  else if w = 32 then permute4x64 (blk2 (fun x y => shufflePs x y (MM_SHUFFLE 3 1 3 1)) lo hi) (MM_SHUFFLE 3 1 2 0)
  else permute4x64 (shufflePdQ lo hi 15) (MM_SHUFFLE 3 1 2 0)
/-- `ConcatEven`, `x86_256-inl.h:5155-5259`. -/
def ConcatEven (w : Nat) (hi lo : M256) : M256 :=
  if w = 8 then
    let mask := set 16 0x00FF#16
    let uH := blk1 (fun x => And x mask) hi
    let uL := blk1 (fun x => And x mask) lo
    permute4x64 (blk2 (packus 16) uL uH) (MM_SHUFFLE 3 1 2 0)
  else if w = 16 then
    let mask := set 32 0x0000FFFF#32
    let uH := blk1 (fun x => And x mask) hi
    let uL := blk1 (fun x => And x mask) lo
    permute4x64 (blk2 (packus 32) uL uH) (MM_SHUFFLE 3 1 2 0)
  else if w = 32 then permute4x64 (blk2 (fun x y => shufflePs x y (MM_SHUFFLE 2 0 2 0)) lo hi) (MM_SHUFFLE 3 1 2 0)
  else permute4x64 (shufflePdQ lo hi 0) (MM_SHUFFLE 3 1 2 0)
/-- `InterleaveWholeLower`, `x86_256-inl.h:5315-5318`. -/
def InterleaveWholeLower (w : Nat) (a b : M256) : M256 := ConcatLowerLower (InterleaveUpper w a b) (InterleaveLower w a b)
/-- `InterleaveWholeUpper`, `x86_256-inl.h:5376-5379`. -/
def InterleaveWholeUpper (w : Nat) (a b : M256) : M256 := ConcatUpperUpper (InterleaveUpper w a b) (InterleaveLower w a b)

/-! ### Lookups by lane index -/

/-- `IndicesFromVec`, `x86_256-inl.h:4597-4671`. -/
def IndicesFromVec (w : Nat) (vec : M256) : M256 :=
  if w = 16 then
    let kByteOffsets := dup128 (ofBytes [0, 1, 0, 1, 0, 1, 0, 1, 0, 1, 0, 1, 0, 1, 0, 1])
    let kBroadcastLaneBytes := dup128 (ofBytes [0, 0, 2, 2, 4, 4, 6, 6, 8, 8, 10, 10, 12, 12, 14, 14])
    let lane_indices := TableLookupBytes vec kBroadcastLaneBytes
    let byte_indices := blk1 (slli 16 1) lane_indices
    blk2 (addI 8) byte_indices kByteOffsets
  else if w = 64 then
    let dup := blk1 moveldup vec
    blk2 (addI 64) (blk2 (addI 64) dup dup) (dup128 (set 64 (1#64 <<< 32)))
  else vec
/-- `TableLookupLanes` of bytes, `x86_256-inl.h:4679-4703`. -/
def TableLookupLanes8 (v idx : M256) : M256 :=
  let sel_hi_mask := blk1 (slli 16 3) idx
  let a := ConcatLowerLower v v
  let b := ConcatUpperUpper v v
  let lo_lookup_result := TableLookupBytes a idx
  let hi_lookup_result := TableLookupBytes b idx
  IfThenElse sel_hi_mask hi_lookup_result lo_lookup_result
/-- `TableLookupLanes`, `x86_256-inl.h:4679-4752`. -/
def TableLookupLanes (w : Nat) (v idx : M256) : M256 :=
  if w ≤ 16 then TableLookupLanes8 v idx else permutevar8x32 v idx
/-- `TwoTablesLookupLanes` of bytes, `x86_256-inl.h:4754-4767`. -/
def TwoTablesLookupLanes8 (a b idx : M256) : M256 :=
  let sel_hi_mask := blk1 (slli 16 2) idx
  let lo_lookup_result := TableLookupLanes 8 a idx
  let hi_lookup_result := TableLookupLanes 8 b idx
  IfThenElse sel_hi_mask hi_lookup_result lo_lookup_result
/-- `TwoTablesLookupLanes` of 32-bit lanes, `x86_256-inl.h:4782-4798`. -/
def TwoTablesLookupLanes32 (a b idx : M256) : M256 :=
  let sel_hi_mask := blk1 (slli 32 28) idx
  let lo_lookup_result := TableLookupLanes 32 a idx
  let hi_lookup_result := TableLookupLanes 32 b idx
  IfThenElseF 32 sel_hi_mask hi_lookup_result lo_lookup_result
/-- `TwoTablesLookupLanes`, `x86_256-inl.h:4754-4844`. -/
def TwoTablesLookupLanes (w : Nat) (a b idx : M256) : M256 :=
  if w ≤ 16 then TwoTablesLookupLanes8 a b idx else TwoTablesLookupLanes32 a b idx

/-- `Load` of a table of `int32_t` or `int64_t`. -/
def ofLanes (w : Nat) (l : List Nat) : M256 :=
  ⟨mk w (fun i => BitVec.ofNat w (l.getD i 0)), mk w (fun i => BitVec.ofNat w (l.getD (128 / w + i) 0))⟩
/-- `Reverse`, `x86_256-inl.h:4882-4926`. -/
def Reverse (w : Nat) (v : M256) : M256 :=
  if w = 8 then
    SwapAdjacentBlocks (TableLookupBytes v (dup128 (ofBytes [15, 14, 13, 12, 11, 10, 9, 8, 7, 6, 5, 4, 3, 2, 1, 0])))
  else if w = 16 then
    let shuffle := dup128 (of16 [0x0F0E, 0x0D0C, 0x0B0A, 0x0908, 0x0706, 0x0504, 0x0302, 0x0100])
    permute4x64 (TableLookupBytes v shuffle) (MM_SHUFFLE 1 0 3 2)
  else if w = 32 then TableLookupLanes 32 v (IndicesFromVec 32 (ofLanes 32 [7, 6, 5, 4, 3, 2, 1, 0]))
  else TableLookupLanes 64 v (IndicesFromVec 64 (ofLanes 64 [3, 2, 1, 0]))
/-- `Reverse2`, `x86_128-inl.h:7212-7245` (generic in the vector size). -/
def Reverse2 (flt : Bool) (w : Nat) (v : M256) : M256 :=
  if w = 16 then TableLookupBytes v (dup128 (of16 [0x0302, 0x0100, 0x0706, 0x0504, 0x0B0A, 0x0908, 0x0F0E, 0x0D0C]))
  else if w = 32 then Shuffle2301 flt v
  else Shuffle01 flt v
/-- `Reverse4`, `x86_256-inl.h:4932-4946`, of 32-bit lanes `x86_128-inl.h:7274-7277`. -/
def Reverse4 (flt : Bool) (w : Nat) (v : M256) : M256 :=
  if w = 16 then TableLookupBytes v (dup128 (of16 [0x0706, 0x0504, 0x0302, 0x0100, 0x0F0E, 0x0D0C, 0x0B0A, 0x0908]))
  else if w = 32 then Shuffle0123 flt v
  else SwapAdjacentBlocks (Shuffle01 flt v)
/-- `Reverse8` of 16- and 32-bit lanes, `x86_256-inl.h:4950-4961`. -/
def Reverse8 (w : Nat) (v : M256) : M256 :=
  if w = 16 then TableLookupBytes v (dup128 (of16 [0x0F0E, 0x0D0C, 0x0B0A, 0x0908, 0x0706, 0x0504, 0x0302, 0x0100]))
  else Reverse w v

/-! ### Slides -/

/-- `Iota`, `x86_256-inl.h:1790-1858`. -/
def Iota (w : Nat) (first : BitVec w) : M256 :=
  ⟨mk w (fun i => BitVec.ofNat w i + first), mk w (fun i => BitVec.ofNat w (128 / w + i) + first)⟩
/-- `detail::SlideUpI64Lanes`, `x86_256-inl.h:5687-5722`. -/
def SlideUpI64Lanes (flt : Bool) (k : Nat) (v : M256) : M256 :=
  let kIdx0 := (4 - k) % 4
  let kIdx1 := (4 - k + 1) % 4
  let kIdx2 := (4 - k + 2) % 4
  let kIdx3 := (4 - k + 3) % 4
  let kIdx3210 := MM_SHUFFLE kIdx3 kIdx2 kIdx1 kIdx0
  if flt then blendQ 64 (permute4x64 v kIdx3210) zero256 (2 ^ k - 1)
  else blendQ 32 (permute4x64 v kIdx3210) zero256 (2 ^ (k * 2) - 1)
/-- `detail::SlideDownI64Lanes`, `x86_256-inl.h:5892-5924`. -/
def SlideDownI64Lanes (flt : Bool) (k : Nat) (v : M256) : M256 :=
  let kIdx1 := (k + 1) % 4
  let kIdx2 := (k + 2) % 4
  let kIdx3 := (k + 3) % 4
  let kIdx3210 := MM_SHUFFLE kIdx3 kIdx2 kIdx1 k
  if flt then blendQ 64 (permute4x64 v kIdx3210) zero256 (0x0F <<< (4 - k) % 16)
  else blendQ 32 (permute4x64 v kIdx3210) zero256 (0xFF <<< ((4 - k) * 2) % 256)
/-- `SlideUpBlocks`, `x86_256-inl.h:5771-5776`. -/
def SlideUpBlocks (kBlocks : Nat) (v : M256) : M256 := if kBlocks = 1 then ConcatLowerLower v zero256 else v
/-- `SlideDownBlocks`, `x86_256-inl.h:5973-5979`. -/
def SlideDownBlocks (kBlocks : Nat) (v : M256) : M256 := if kBlocks = 1 then ZeroExtendVector (UpperHalf v) else v
/-- `detail::TableLookupSlideUpLanes` of 32-bit lanes, `x86_256-inl.h:5741-5759`. -/
def TableLookupSlideUpLanes32 (v : M256) (amt : Nat) : M256 :=
  let idx := Iota 32 (BitVec.ofInt 32 (0 - (amt : Int)))
  let masked_idx := blk2 pand idx (dup128 (set 32 7#32))
  blk2 pand (TableLookupLanes 32 v (IndicesFromVec 32 masked_idx)) (blk2 (cmpeq 32) idx masked_idx)
/-- `detail::TableLookupSlideUpLanes`, `x86_256-inl.h:5724-5767`. -/
def TableLookupSlideUpLanes (w : Nat) (v : M256) (amt : Nat) : M256 :=
  if w ≤ 16 then TableLookupLanes w v (Iota 8 (BitVec.ofInt 8 (0 - (amt * (w / 8) : Nat))))
  else if w = 32 then TableLookupSlideUpLanes32 v amt
  else TableLookupSlideUpLanes32 v (amt * 2)
/-- `SlideUpLanes` of integer lanes, `x86_256-inl.h:5778-5854`. The compiler may know `amt` (`isConst`) or only
that it is at least a block (`isConstGe`); `isConst128` is the same for the call of the 128-bit function. -/
def SlideUpLanes (isConst isConstGe isConst128 : Bool) (w : Nat) (v : M256) (amt : Nat) : M256 :=
  let bytes := amt * (w / 8)
  let v_lo := ConcatLowerLower v zero256
  if isConst = true ∧ bytes = 0 then v
  else if isConst = true ∧ bytes = 8 then SlideUpI64Lanes false 1 v
  else if isConst = true ∧ bytes < 16 then CombineShiftRightBytes (16 - bytes) v v_lo
  else if isConst = true ∧ bytes = 16 then ConcatLowerLower v zero256
  else if isConst = true ∧ bytes = 24 then SlideUpI64Lanes false 3 v
  else if isConstGe = true ∧ 16 / (w / 8) ≤ amt then
    Combine (X86.SlideUpLanes .avx2 isConst128 w 16 (LowerHalf v) (amt - 16 / (w / 8))) zero
  else TableLookupSlideUpLanes w v amt
/-- `Slide1Up`, `x86_256-inl.h:5858-5884`. -/
def Slide1Up (w : Nat) (v : M256) : M256 :=
  let v_lo := ConcatLowerLower v zero256
  if w = 8 then CombineShiftRightBytes 15 v v_lo
  else if w = 16 then CombineShiftRightBytes 14 v v_lo
  else if w = 32 then CombineShiftRightBytes 12 v v_lo
  else SlideUpI64Lanes false 1 v
/-- `detail::TableLookupSlideDownLanes` of 32-bit lanes, `x86_256-inl.h:5944-5957`. -/
def TableLookupSlideDownLanes32 (v : M256) (amt : Nat) : M256 :=
  let idx := Iota 32 (BitVec.ofNat 32 amt)
  let masked_idx := blk2 pand idx (dup128 (set 32 7#32))
  blk2 pand (TableLookupLanes 32 v (IndicesFromVec 32 masked_idx)) (blk2 (cmpeq 32) idx masked_idx)
/-- `detail::TableLookupSlideDownLanes`, `x86_256-inl.h:5926-5965`. -/
def TableLookupSlideDownLanes (w : Nat) (v : M256) (amt : Nat) : M256 :=
  if w ≤ 16 then
    let idx_vec := Iota 8 (BitVec.ofNat 8 (amt * (w / 8)))
    let idx_vec := blk2 por idx_vec (blk2 (cmpgt 8) idx_vec (dup128 (set 8 31#8)))
    TableLookupLanes w v idx_vec
  else if w = 32 then TableLookupSlideDownLanes32 v amt
  else TableLookupSlideDownLanes32 v (amt * 2)
/-- `SlideDownLanes` of integer lanes, `x86_256-inl.h:5981-6051`. -/
def SlideDownLanes (isConst isConstGe isConst128 : Bool) (w : Nat) (v : M256) (amt : Nat) : M256 :=
  let bytes := amt * (w / 8)
  let v_hi := ZeroExtendVector (UpperHalf v)
  if isConst = true ∧ bytes = 0 then v
  else if isConst = true ∧ bytes = 8 then SlideDownI64Lanes false 1 v
  else if isConst = true ∧ bytes < 16 then CombineShiftRightBytes bytes v_hi v
  else if isConst = true ∧ bytes = 16 then v_hi
  else if isConst = true ∧ bytes = 24 then SlideDownI64Lanes false 3 v
  else if isConstGe = true ∧ 16 / (w / 8) ≤ amt then
    ZeroExtendVector (X86.SlideDownLanes .avx2 isConst128 w 16 (UpperHalf v) (amt - 16 / (w / 8)))
  else TableLookupSlideDownLanes w v amt
/-- `Slide1Down`, `x86_256-inl.h:6053-6083`. -/
def Slide1Down (w : Nat) (v : M256) : M256 :=
  let v_hi := ZeroExtendVector (UpperHalf v)
  if w = 8 then CombineShiftRightBytes 1 v_hi v
  else if w = 16 then CombineShiftRightBytes 2 v_hi v
  else if w = 32 then CombineShiftRightBytes 4 v_hi v
  else SlideDownI64Lanes false 1 v

end Hwy.X86.V256
