import Verif.X86Intrin2

/-!
# Rearranging operations of the x86 128-bit targets

`sz` is the size of the vector in bytes (16, 8, 4, 2 or 1) where the code distinguishes it; partial
vectors live in the lower bytes of a register whose other bytes are arbitrary.
-/

namespace Hwy.X86

/-- `LowerHalf`, `x86_128-inl.h:6285-6294`. -/
def LowerHalf (v : M128) : M128 := v
/-- `InterleaveLower`, `x86_128-inl.h:3207-3243`. -/
def InterleaveLower (w : Nat) (a b : M128) : M128 := unpacklo w a b
/-- `ShiftLeftBytes`, `x86_128-inl.h:6298-6310`. -/
def ShiftLeftBytes (k : Nat) (v : M128) : M128 := slliBytes v k
/-- `ShiftLeftLanes`, `x86_128-inl.h:6315-6325`. -/
def ShiftLeftLanes (w k : Nat) (v : M128) : M128 := ShiftLeftBytes (k * (w / 8)) v
/-- `ShiftRightBytes`, `x86_128-inl.h:6328-6340`: partial vectors first clear the bytes above. -/
def ShiftRightBytes (t : Tgt) (w sz k : Nat) (v : M128) : M128 :=
  let v := if sz ≠ 16 then IfThenElseZero (FirstN t w (128 / w) (sz / (w / 8))) v else v
  srliBytes v k
/-- `ShiftRightLanes`, `x86_128-inl.h:6344-6349`. -/
def ShiftRightLanes (t : Tgt) (w sz k : Nat) (v : M128) : M128 := ShiftRightBytes t 8 sz (k * (w / 8)) v
/-- `UpperHalf` with a result of `sz` bytes, `x86_128-inl.h:6354-6374`. -/
def UpperHalf (t : Tgt) (w sz : Nat) (v : M128) : M128 :=
  if sz = 8 then LowerHalf (unpackhi 64 v v) else LowerHalf (ShiftRightBytes t w (2 * sz) sz v)
/-- `InterleaveUpper`, `x86_128-inl.h:7310-7345`. -/
def InterleaveUpper (t : Tgt) (w sz : Nat) (a b : M128) : M128 :=
  if sz = 16 then unpackhi w a b
  else InterleaveLower w (UpperHalf t w (sz / 2) a) (UpperHalf t w (sz / 2) b)
/-- `Combine` into a vector of `sz` bytes, `x86_128-inl.h:8171-8180`: each half is treated as one lane. -/
def Combine (sz : Nat) (hi_half lo_half : M128) : M128 := InterleaveLower (sz / 2 * 8) lo_half hi_half
/-- `ZeroExtendVector` to `sz` bytes, `x86_128-inl.h:8184-8195`. -/
def ZeroExtendVector (t : Tgt) (w sz : Nat) (lo : M128) : M128 :=
  if sz = 16 then moveEpi64 lo
  else IfThenElseZero (FirstN t w (sz / (w / 8)) (sz / 2 / (w / 8))) lo
/-- `CombineShiftRightBytes`, `x86_128-inl.h:6794-6830`. -/
def CombineShiftRightBytes (t : Tgt) (w sz k : Nat) (hi lo : M128) : M128 :=
  if t.val = HWY_SSE2 then
    if sz = 16 then Or (ShiftRightBytes t w 16 k lo) (ShiftLeftBytes (16 - k) hi)
    else ShiftRightBytes t w (2 * sz) k (Combine (2 * sz) hi lo)
  else
    if sz = 16 then alignr hi lo k
    else alignr hi (ShiftLeftBytes (16 - sz) lo) (16 - sz + k)
/-- `ConcatLowerLower`, `x86_128-inl.h:8217-8221, 8276-8280`. -/
def ConcatLowerLower (sz : Nat) (hi lo : M128) : M128 :=
  if sz = 16 then InterleaveLower 64 lo hi else Combine sz (LowerHalf hi) (LowerHalf lo)
/-- `ConcatUpperUpper`, `x86_128-inl.h:8224-8228, 8282-8286`. -/
def ConcatUpperUpper (t : Tgt) (w sz : Nat) (hi lo : M128) : M128 :=
  if sz = 16 then InterleaveUpper t 64 16 lo hi
  else Combine sz (UpperHalf t w (sz / 2) hi) (UpperHalf t w (sz / 2) lo)
/-- `ConcatLowerUpper`, `x86_128-inl.h:8231-8234, 8288-8293`. -/
def ConcatLowerUpper (t : Tgt) (w sz : Nat) (hi lo : M128) : M128 :=
  if sz = 16 then CombineShiftRightBytes t w 16 8 hi lo
  else Combine sz (LowerHalf hi) (UpperHalf t w (sz / 2) lo)
/-- `ConcatUpperLower` for integer lanes, `x86_128-inl.h:8237-8249, 8295-8299`. -/
def ConcatUpperLower (t : Tgt) (w sz : Nat) (hi lo : M128) : M128 :=
  if sz = 16 then
    if HWY_SSSE3 ≤ t.val then shufflePd lo hi (MM_SHUFFLE2 1 0) else blend 64 hi lo 1
  else Combine sz (UpperHalf t w (sz / 2) hi) (LowerHalf lo)

/-- `ConcatOdd`, `x86_128-inl.h:8304-8402`. -/
def ConcatOdd (t : Tgt) (w sz : Nat) (hi lo : M128) : M128 :=
  if sz = 2 * (w / 8) then InterleaveUpper t w sz lo hi
  else if w = 8 then
    if sz = 16 then packus 16 (ShiftRightU 16 8 lo) (ShiftRightU 16 8 hi)
    else if sz = 8 then
      if t.val = HWY_SSE2 then
        shuffle32 (packus 16 (ShiftRightU 16 8 lo) (ShiftRightU 16 8 hi)) (MM_SHUFFLE 2 0 2 0)
      else
        let shuf := ofBytes [1, 3, 5, 7]
        InterleaveLower 32 (TableLookupBytes t lo shuf) (TableLookupBytes t hi shuf)
    else
      if t.val = HWY_SSE2 then
        let uHL := Combine 8 (ShiftRightU 16 8 hi) (ShiftRightU 16 8 lo)
        packus 16 uHL uHL
      else
        let shuf := ofBytes [1, 3]
        InterleaveLower 16 (TableLookupBytes t lo shuf) (TableLookupBytes t hi shuf)
  else if w = 16 then
    if sz = 16 then packs 32 (ShiftRightI t 32 16 lo) (ShiftRightI t 32 16 hi)
    else
      if t.val = HWY_SSE2 then
        shuffle32 (packs 32 (ShiftRightI t 32 16 lo) (ShiftRightI t 32 16 hi)) (MM_SHUFFLE 2 0 2 0)
      else
        let shuf := ofBytes [2, 3, 6, 7]
        InterleaveLower 32 (TableLookupBytes t lo shuf) (TableLookupBytes t hi shuf)
  else shufflePs lo hi (MM_SHUFFLE 3 1 3 1)

/-- `ConcatEven`, `x86_128-inl.h:8407-8525`. -/
def ConcatEven (t : Tgt) (w sz : Nat) (hi lo : M128) : M128 :=
  if sz = 2 * (w / 8) then InterleaveLower w lo hi
  else if w = 8 then
    if sz = 16 then
      let mask := set 16 0x00FF#16
      packus 16 (And lo mask) (And hi mask)
    else if sz = 8 then
      if t.val = HWY_SSE2 then
        let mask := set 16 0x00FF#16
        shuffle32 (packus 16 (And lo mask) (And hi mask)) (MM_SHUFFLE 2 0 2 0)
      else
        let shuf := ofBytes [0, 2, 4, 6]
        InterleaveLower 32 (TableLookupBytes t lo shuf) (TableLookupBytes t hi shuf)
    else
      if t.val = HWY_SSE2 then
        let mask := set 16 0x00FF#16
        let uHL := Combine 8 (And hi mask) (And lo mask)
        packus 16 uHL uHL
      else
        let shuf := ofBytes [0, 2]
        InterleaveLower 16 (TableLookupBytes t lo shuf) (TableLookupBytes t hi shuf)
  else if w = 16 then
    if sz = 16 then
      if t.val ≤ HWY_SSE4 then
        let mask := set 32 0x0000FFFF#32
        packus 32 (And lo mask) (And hi mask)
      else if t.val = HWY_SSE2 then
        ConcatOdd t 16 16 (ShiftLeft 32 16 hi) (ShiftLeft 32 16 lo)
      else
        let shuf := of16 [0x0100, 0x0504, 0x0908, 0x0D0C]
        ConcatLowerLower 16 (TableLookupBytes t hi shuf) (TableLookupBytes t lo shuf)
    else
      if t.val = HWY_SSE2 then ConcatOdd t 16 8 (ShiftLeft 32 16 hi) (ShiftLeft 32 16 lo)
      else
        let shuf := ofBytes [0, 1, 4, 5]
        InterleaveLower 32 (TableLookupBytes t lo shuf) (TableLookupBytes t hi shuf)
  else shufflePs lo hi (MM_SHUFFLE 2 0 2 0)

/-- `DupEven`, `x86_128-inl.h:8529-8587`. -/
def DupEven (t : Tgt) (w sz : Nat) (v : M128) : M128 :=
  if sz = w / 8 then v
  else if sz = 2 * (w / 8) then InterleaveLower w v v
  else if w = 8 then
    if t.val ≤ HWY_SSSE3 then
      TableLookupBytes t v (ofBytes [0, 0, 2, 2, 4, 4, 6, 6, 8, 8, 10, 10, 12, 12, 14, 14])
    else IfVecThenElse t (set 16 0xFF00#16) (ShiftLeft 16 8 v) v
  else if w = 16 then
    if sz = 8 then shufflelo16 v (MM_SHUFFLE 2 2 0 0)
    else if t.val ≤ HWY_SSSE3 then
      TableLookupBytes t v (of16 [0x0100, 0x0100, 0x0504, 0x0504, 0x0908, 0x0908, 0x0d0c, 0x0d0c])
    else shufflehi16 (shufflelo16 v (MM_SHUFFLE 2 2 0 0)) (MM_SHUFFLE 2 2 0 0)
  else shuffle32 v (MM_SHUFFLE 2 2 0 0)
/-- `DupOdd` of vectors with at least two lanes, `x86_128-inl.h:8596-8650`. -/
def DupOdd (t : Tgt) (w sz : Nat) (v : M128) : M128 :=
  if w = 8 then
    if t.val ≤ HWY_SSSE3 then
      TableLookupBytes t v (ofBytes [1, 1, 3, 3, 5, 5, 7, 7, 9, 9, 11, 11, 13, 13, 15, 15])
    else IfVecThenElse t (set 16 0x00FF#16) (ShiftRightU 16 8 v) v
  else if w = 16 then
    if sz ≤ 8 then shufflelo16 v (MM_SHUFFLE 3 3 1 1)
    else if t.val ≤ HWY_SSSE3 then
      TableLookupBytes t v (of16 [0x0302, 0x0302, 0x0706, 0x0706, 0x0b0a, 0x0b0a, 0x0f0e, 0x0f0e])
    else shufflehi16 (shufflelo16 v (MM_SHUFFLE 3 3 1 1)) (MM_SHUFFLE 3 3 1 1)
  else if w = 32 then shuffle32 v (MM_SHUFFLE 3 3 1 1)
  else InterleaveUpper t 64 sz v v

/-- `OddEven` for integer lanes, `x86_128-inl.h:8844-8899`. -/
def OddEven (t : Tgt) (w : Nat) (a b : M128) : M128 :=
  if w = 8 then
    IfThenElse t (ofBytes [0xFF, 0, 0xFF, 0, 0xFF, 0, 0xFF, 0, 0xFF, 0, 0xFF, 0, 0xFF, 0, 0xFF, 0]) b a
  else if w = 16 then
    if HWY_SSSE3 ≤ t.val then
      IfThenElse t
        (ofBytes [0xFF, 0xFF, 0, 0, 0xFF, 0xFF, 0, 0, 0xFF, 0xFF, 0, 0, 0xFF, 0xFF, 0, 0]) b a
    else blend 16 a b 0x55
  else if w = 32 then
    if HWY_SSSE3 ≤ t.val then
      let odd := shuffle32 a (MM_SHUFFLE 3 1 3 1)
      let even := shuffle32 b (MM_SHUFFLE 2 0 2 0)
      unpacklo 32 even odd
    else blend 32 a b 5
  else
    if HWY_SSSE3 ≤ t.val then shufflePd b a (MM_SHUFFLE2 1 0) else blend 64 a b 1

/-- `InterleaveEven`, `x86_128-inl.h:8915-8955` (the branch without AVX-512). -/
def InterleaveEven (t : Tgt) (w sz : Nat) (a b : M128) : M128 :=
  if sz ≤ 2 * (w / 8) then ConcatEven t w sz b a
  else if w = 8 then OddEven t 8 (ShiftLeft 16 8 b) a
  else if w = 16 then OddEven t 16 (ShiftLeft 32 16 b) a
  else
    let b2_b0_a2_a0 := ConcatEven t 32 16 b a
    shufflePs b2_b0_a2_a0 b2_b0_a2_a0 (MM_SHUFFLE 3 1 2 0)
/-- `InterleaveOdd`, `x86_128-inl.h:8959-8999` (the branch without AVX-512). -/
def InterleaveOdd (t : Tgt) (w sz : Nat) (a b : M128) : M128 :=
  if sz ≤ 2 * (w / 8) then ConcatOdd t w sz b a
  else if w = 8 then OddEven t 8 b (ShiftRightU 16 8 a)
  else if w = 16 then OddEven t 16 b (ShiftRightU 32 16 a)
  else
    let b3_b1_a3_a1 := ConcatOdd t 32 16 b a
    shufflePs b3_b1_a3_a1 b3_b1_a3_a1 (MM_SHUFFLE 3 1 2 0)

/-- `Shuffle1032`, `x86_128-inl.h:2513-2521`. -/
def Shuffle1032 (v : M128) : M128 := shuffle32 v 0x4E
/-- `Shuffle01`, `x86_128-inl.h:2522-2530`. -/
def Shuffle01 (v : M128) : M128 := shuffle32 v 0x4E
/-- `Shuffle0321`, `x86_128-inl.h:2533-2541`. -/
def Shuffle0321 (v : M128) : M128 := shuffle32 v 0x39
/-- `Shuffle2103`, `x86_128-inl.h:2543-2551`. -/
def Shuffle2103 (v : M128) : M128 := shuffle32 v 0x93
/-- `Shuffle0123`, `x86_128-inl.h:2554-2562`. -/
def Shuffle0123 (v : M128) : M128 := shuffle32 v 0x1B

/-- `detail::ShuffleTwo2301`, `x86_128-inl.h:2366-2410` (for four lanes of `w` bits). -/
def ShuffleTwo2301 (t : Tgt) (w : Nat) (a b : M128) : M128 :=
  if w = 8 then
    let ba := Combine 8 b a
    if t.val = HWY_SSE2 then
      let ba_shuffled := shufflelo16 ba (MM_SHUFFLE 3 0 3 0)
      Or (ShiftLeft 16 8 ba_shuffled) (ShiftRightU 16 8 ba_shuffled)
    else TableLookupBytes t ba (ofBytes [1, 0, 7, 6])
  else if w = 16 then
    let ba := Combine 16 b a
    if t.val = HWY_SSE2 then
      let ba_shuffled := shuffle32 ba (MM_SHUFFLE 3 0 3 0)
      shufflelo16 ba_shuffled (MM_SHUFFLE 2 3 0 1)
    else TableLookupBytes t ba (of16 [0x0302, 0x0100, 0x0f0e, 0x0d0c])
  else shufflePs a b (MM_SHUFFLE 2 3 0 1)
/-- `detail::ShuffleTwo1230`, `x86_128-inl.h:2412-2460`. -/
def ShuffleTwo1230 (t : Tgt) (w : Nat) (a b : M128) : M128 :=
  if w = 8 then
    if t.val = HWY_SSE2 then
      let a_shuffled := shufflelo16 (unpacklo 8 a zero) (MM_SHUFFLE 3 0 3 0)
      let b_shuffled := shufflelo16 (unpacklo 8 b zero) (MM_SHUFFLE 1 2 1 2)
      let ba_shuffled := Combine 8 b_shuffled a_shuffled
      packus 16 ba_shuffled ba_shuffled
    else TableLookupBytes t (Combine 8 b a) (ofBytes [0, 3, 6, 5])
  else if w = 16 then
    if t.val = HWY_SSE2 then
      let a_shuffled := shufflelo16 a (MM_SHUFFLE 3 0 3 0)
      let b_shuffled := shufflelo16 b (MM_SHUFFLE 1 2 1 2)
      Combine 8 b_shuffled a_shuffled
    else TableLookupBytes t (Combine 16 b a) (of16 [0x0100, 0x0706, 0x0d0c, 0x0b0a])
  else shufflePs a b (MM_SHUFFLE 1 2 3 0)
/-- `detail::ShuffleTwo3012`, `x86_128-inl.h:2462-2509`. -/
def ShuffleTwo3012 (t : Tgt) (w : Nat) (a b : M128) : M128 :=
  if w = 8 then
    if t.val = HWY_SSE2 then
      let a_shuffled := shufflelo16 (unpacklo 8 a zero) (MM_SHUFFLE 1 2 1 2)
      let b_shuffled := shufflelo16 (unpacklo 8 b zero) (MM_SHUFFLE 3 0 3 0)
      let ba_shuffled := Combine 8 b_shuffled a_shuffled
      packus 16 ba_shuffled ba_shuffled
    else TableLookupBytes t (Combine 8 b a) (ofBytes [2, 1, 4, 7])
  else if w = 16 then
    if t.val = HWY_SSE2 then
      let a_shuffled := shufflelo16 a (MM_SHUFFLE 1 2 1 2)
      let b_shuffled := shufflelo16 b (MM_SHUFFLE 3 0 3 0)
      Combine 8 b_shuffled a_shuffled
    else TableLookupBytes t (Combine 16 b a) (of16 [0x0504, 0x0302, 0x0908, 0x0f0e])
  else shufflePs a b (MM_SHUFFLE 3 0 1 2)

/-- 16-bit `Broadcast<kLane>`, `x86_128-inl.h:6834-6849`. -/
def Broadcast16 (k : Nat) (v : M128) : M128 :=
  if k < 4 then
    let lo := shufflelo16 v (0x55 * k &&& 0xFF)
    unpacklo 64 lo lo
  else
    let hi := shufflehi16 v (0x55 * (k - 4) &&& 0xFF)
    unpackhi 64 hi hi
/-- `Broadcast<kLane>`, `x86_128-inl.h:6834-6861, 7349-7365`. -/
def Broadcast (t : Tgt) (w k : Nat) (v : M128) : M128 :=
  if w = 8 then
    if t.val = HWY_SSE2 then
      let v_interleaved := if k < 8 then InterleaveLower 8 v v else InterleaveUpper t 8 16 v v
      Broadcast16 (k &&& 7) v_interleaved
    else TableLookupBytes t v (set 8 (BitVec.ofNat 8 k))
  else if w = 16 then Broadcast16 k v
  else if w = 32 then shuffle32 v (0x55 * k)
  else shuffle32 v (if k ≠ 0 then 0xEE else 0x44)

/-- 16-bit `Reverse` with more than one lane, `x86_128-inl.h:7158-7184`. -/
def Reverse16 (t : Tgt) (sz : Nat) (v : M128) : M128 :=
  if sz = 2 then v
  else if sz = 4 then shufflelo16 v (MM_SHUFFLE 0 1 0 1)
  else if sz = 8 then shufflelo16 v (MM_SHUFFLE 0 1 2 3)
  else if t.val = HWY_SSE2 then
    let rev4 := shufflehi16 (shufflelo16 v (MM_SHUFFLE 0 1 2 3)) (MM_SHUFFLE 0 1 2 3)
    shuffle32 rev4 (MM_SHUFFLE 1 0 3 2)
  else TableLookupBytes t v (of16 [0x0F0E, 0x0D0C, 0x0B0A, 0x0908, 0x0706, 0x0504, 0x0302, 0x0100])
/-- `Reverse`, `x86_128-inl.h:7132-7202`. -/
def Reverse (t : Tgt) (w sz : Nat) (v : M128) : M128 :=
  if sz = w / 8 then v
  else if w = 8 then
    if t.val ≤ HWY_SSSE3 then
      shuffle8 v (mk 8 (fun i => if i < sz then BitVec.ofInt 8 ((sz : Int) - 1 - i) else 0#8))
    else Reverse16 t sz (RotateRight 16 8 v)
  else if w = 16 then Reverse16 t sz v
  else if w = 32 then if sz = 8 then Shuffle2301 v else Shuffle0123 v
  else Shuffle01 v
/-- `Reverse2` of at least two lanes of 16 bits or more, `x86_128-inl.h:7212-7245`. -/
def Reverse2 (t : Tgt) (w sz : Nat) (v : M128) : M128 :=
  if w = 16 then
    if t.val = HWY_SSE2 then
      let shuf_result := shufflelo16 v (MM_SHUFFLE 2 3 0 1)
      if sz > 8 then shufflehi16 shuf_result (MM_SHUFFLE 2 3 0 1) else shuf_result
    else TableLookupBytes t v (of16 [0x0302, 0x0100, 0x0706, 0x0504, 0x0B0A, 0x0908, 0x0F0E, 0x0D0C])
  else if w = 32 then Shuffle2301 v
  else Shuffle01 v
/-- `Reverse4` of at least four lanes of 16 or 32 bits, `x86_128-inl.h:7250-7277`. -/
def Reverse4 (t : Tgt) (w sz : Nat) (v : M128) : M128 :=
  if w = 16 then
    if sz ≤ 8 then shufflelo16 v (MM_SHUFFLE 0 1 2 3)
    else if t.val = HWY_SSE2 then
      shufflehi16 (shufflelo16 v (MM_SHUFFLE 0 1 2 3)) (MM_SHUFFLE 0 1 2 3)
    else TableLookupBytes t v (of16 [0x0706, 0x0504, 0x0302, 0x0100, 0x0F0E, 0x0D0C, 0x0B0A, 0x0908])
  else Shuffle0123 v
/-- `Reverse8` of eight 16-bit lanes, `x86_128-inl.h:7286-7297`. -/
def Reverse8 (t : Tgt) (v : M128) : M128 :=
  if t.val = HWY_SSE2 then Reverse2 t 16 16 (Shuffle0123 v)
  else TableLookupBytes t v (of16 [0x0F0E, 0x0D0C, 0x0B0A, 0x0908, 0x0706, 0x0504, 0x0302, 0x0100])

end Hwy.X86
