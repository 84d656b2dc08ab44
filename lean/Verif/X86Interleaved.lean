import Verif.X86Mask

/-!
# `LoadInterleaved2/3/4` and `StoreInterleaved2/3/4` on the x86 128-bit targets

The generic implementations of `generic_ops-inl.h`, which the SSE2, SSSE3, SSE4 and AVX2 targets use for vectors of up to 16
bytes. Memory is a function from lane offsets (relative to the pointer) to lanes. `sz` is the vector size in bytes.
-/

namespace Hwy.X86

/-- `StoreU` of `n` lanes at offset `off`. -/
def StoreAt (w n : Nat) (v : M128) (off : Nat) (mem : Mem w) : Mem w :=
  fun i => if off ≤ i ∧ i < off + n then lane w (i - off) v else mem i

/-! ## Loads -/

/-- `LoadInterleaved2`, `generic_ops-inl.h:1437-1451`. -/
def LoadInterleaved2 (t : Tgt) (w sz : Nat) (mem : Mem w) : M128 × M128 :=
  let kN := sz / (w / 8)
  if kN = 1 then (LoadU w kN mem 0, LoadU w kN mem 1)
  else
    let A := LoadU w kN mem 0
    let B := LoadU w kN mem kN
    (ConcatEven t w sz B A, ConcatOdd t w sz B A)
/-- The body of `LoadInterleaved3` after `LoadTransposedBlocks3` for sixteen bytes, eight bytes or eight 16-bit lanes:
`Xor3` of three lookups with the given indices, `generic_ops-inl.h:1495-1529, 1541-1574, 1587-1621`. -/
def Lookup3 (t : Tgt) (A B C : M128) (iA iB iC : List Nat) : M128 :=
  Xor3 (TableLookupBytesOr0 t A (ofBytes iA)) (TableLookupBytesOr0 t B (ofBytes iB)) (TableLookupBytesOr0 t C (ofBytes iC))
/-- The body of `LoadInterleaved3` after the loads, `generic_ops-inl.h:1486-1657`, by the number of lanes per block. `Z` is `0x80`. -/
def Deinterleave3 (t : Tgt) (w sz : Nat) (A B C : M128) : M128 × M128 × M128 :=
  let kN := sz / (w / 8)
  let Z := 0x80
  if kN = 16 then
    (Lookup3 t A B C [0, 3, 6, 9, 12, 15, Z, Z, Z, Z, Z, Z, Z, Z, Z, Z] [Z, Z, Z, Z, Z, Z, 2, 5, 8, 11, 14, Z, Z, Z, Z, Z]
      [Z, Z, Z, Z, Z, Z, Z, Z, Z, Z, Z, 1, 4, 7, 10, 13],
     Lookup3 t A B C [1, 4, 7, 10, 13, Z, Z, Z, Z, Z, Z, Z, Z, Z, Z, Z] [Z, Z, Z, Z, Z, 0, 3, 6, 9, 12, 15, Z, Z, Z, Z, Z]
      [Z, Z, Z, Z, Z, Z, Z, Z, Z, Z, Z, 2, 5, 8, 11, 14],
     Lookup3 t A B C [2, 5, 8, 11, 14, Z, Z, Z, Z, Z, Z, Z, Z, Z, Z, Z] [Z, Z, Z, Z, Z, 1, 4, 7, 10, 13, Z, Z, Z, Z, Z, Z]
      [Z, Z, Z, Z, Z, Z, Z, Z, Z, Z, 0, 3, 6, 9, 12, 15])
  else if kN = 8 then
    if w = 8 then
      (Lookup3 t A B C [0, 3, 6, Z, Z, Z, Z, Z, 0, 0, 0, 0, 0, 0, 0, 0] [Z, Z, Z, 1, 4, 7, Z, Z, 0, 0, 0, 0, 0, 0, 0, 0]
        [Z, Z, Z, Z, Z, Z, 2, 5, 0, 0, 0, 0, 0, 0, 0, 0],
       Lookup3 t A B C [1, 4, 7, Z, Z, Z, Z, Z, 0, 0, 0, 0, 0, 0, 0, 0] [Z, Z, Z, 2, 5, Z, Z, Z, 0, 0, 0, 0, 0, 0, 0, 0]
        [Z, Z, Z, Z, Z, 0, 3, 6, 0, 0, 0, 0, 0, 0, 0, 0],
       Lookup3 t A B C [2, 5, Z, Z, Z, Z, Z, Z, 0, 0, 0, 0, 0, 0, 0, 0] [Z, Z, 0, 3, 6, Z, Z, Z, 0, 0, 0, 0, 0, 0, 0, 0]
        [Z, Z, Z, Z, Z, 1, 4, 7, 0, 0, 0, 0, 0, 0, 0, 0])
    else
      (Lookup3 t A B C [0x00, 0x01, 0x06, 0x07, 0x0C, 0x0D, Z, Z, Z, Z, Z, Z, Z, Z, Z, Z]
        [Z, Z, Z, Z, Z, Z, 0x02, 0x03, 0x08, 0x09, 0x0E, 0x0F, Z, Z, Z, Z] [Z, Z, Z, Z, Z, Z, Z, Z, Z, Z, Z, Z, 0x04, 0x05, 0x0A, 0x0B],
       Lookup3 t A B C [0x02, 0x03, 0x08, 0x09, 0x0E, 0x0F, Z, Z, Z, Z, Z, Z, Z, Z, Z, Z]
        [Z, Z, Z, Z, Z, Z, 0x04, 0x05, 0x0A, 0x0B, Z, Z, Z, Z, Z, Z] [Z, Z, Z, Z, Z, Z, Z, Z, Z, Z, 0x00, 0x01, 0x06, 0x07, 0x0C, 0x0D],
       Lookup3 t A B C [0x04, 0x05, 0x0A, 0x0B, Z, Z, Z, Z, Z, Z, Z, Z, Z, Z, Z, Z]
        [Z, Z, Z, Z, 0x00, 0x01, 0x06, 0x07, 0x0C, 0x0D, Z, Z, Z, Z, Z, Z] [Z, Z, Z, Z, Z, Z, Z, Z, Z, Z, 0x02, 0x03, 0x08, 0x09, 0x0E, 0x0F])
  else if kN = 4 then
    let vxx_02_03_xx := OddEven t w C B
    let v0 := ShuffleTwo1230 t w A vxx_02_03_xx
    let vxx_xx_10_11 := OddEven t w A B
    let v12_13_xx_xx := OddEven t w B C
    let v1 := ShuffleTwo2301 t w vxx_xx_10_11 v12_13_xx_xx
    let vxx_20_21_xx := OddEven t w B A
    let v2 := ShuffleTwo3012 t w vxx_20_21_xx C
    (v0, v1, v2)
  else (OddEven t w B A, CombineShiftRightBytes t w sz (w / 8) C A, OddEven t w C B)
/-- `LoadInterleaved3`, `generic_ops-inl.h:1472-1664`. -/
def LoadInterleaved3 (t : Tgt) (w sz : Nat) (mem : Mem w) : M128 × M128 × M128 :=
  let kN := sz / (w / 8)
  if kN = 1 then (LoadU w kN mem 0, LoadU w kN mem 1, LoadU w kN mem 2)
  else Deinterleave3 t w sz (LoadU w kN mem (0 * kN)) (LoadU w kN mem (1 * kN)) (LoadU w kN mem (2 * kN))
/-- The body of `LoadInterleaved4` after the loads, `generic_ops-inl.h:1685-1793`. -/
def Deinterleave4 (t : Tgt) (w sz : Nat) (vA vB vC vD : M128) : M128 × M128 × M128 × M128 :=
  let kN := sz / (w / 8)
  if kN = 16 then
    let v5140 := InterleaveLower w vA vB
    let vd9c8 := InterleaveLower w vC vD
    let v7362 := InterleaveUpper t w sz vA vB
    let vfbea := InterleaveUpper t w sz vC vD
    let v6420 := InterleaveLower w v5140 v7362
    let veca8 := InterleaveLower w vd9c8 vfbea
    let v7531 := InterleaveUpper t w sz v5140 v7362
    let vfdb9 := InterleaveUpper t w sz vd9c8 vfbea
    let v10L := InterleaveLower w v6420 v7531
    let v10U := InterleaveLower w veca8 vfdb9
    let v32L := InterleaveUpper t w sz v6420 v7531
    let v32U := InterleaveUpper t w sz veca8 vfdb9
    (InterleaveLower 64 v10L v10U, InterleaveUpper t 64 sz v10L v10U, InterleaveLower 64 v32L v32U, InterleaveUpper t 64 sz v32L v32U)
  else if kN = 8 then
    let tw := if sz = 8 then 32 else 64
    let va820 := InterleaveLower w vA vB
    let vec64 := InterleaveLower w vC vD
    let vb931 := InterleaveUpper t w sz vA vB
    let vfd75 := InterleaveUpper t w sz vC vD
    let v10_b830 := InterleaveLower w va820 vb931
    let v10_fc74 := InterleaveLower w vec64 vfd75
    let v32_b830 := InterleaveUpper t w sz va820 vb931
    let v32_fc74 := InterleaveUpper t w sz vec64 vfd75
    (InterleaveLower tw v10_b830 v10_fc74, InterleaveUpper t tw sz v10_b830 v10_fc74,
     InterleaveLower tw v32_b830 v32_fc74, InterleaveUpper t tw sz v32_b830 v32_fc74)
  else if kN = 4 then
    let v10e := InterleaveLower w vA vC
    let v10o := InterleaveLower w vB vD
    let v32e := InterleaveUpper t w sz vA vC
    let v32o := InterleaveUpper t w sz vB vD
    (InterleaveLower w v10e v10o, InterleaveUpper t w sz v10e v10o, InterleaveLower w v32e v32o, InterleaveUpper t w sz v32e v32o)
  else (InterleaveLower w vA vC, InterleaveUpper t w sz vA vC, InterleaveLower w vB vD, InterleaveUpper t w sz vB vD)
/-- `LoadInterleaved4`, `generic_ops-inl.h:1670-1803`. -/
def LoadInterleaved4 (t : Tgt) (w sz : Nat) (mem : Mem w) : M128 × M128 × M128 × M128 :=
  let kN := sz / (w / 8)
  if kN = 1 then (LoadU w kN mem 0, LoadU w kN mem 1, LoadU w kN mem 2, LoadU w kN mem 3)
  else Deinterleave4 t w sz (LoadU w kN mem (0 * kN)) (LoadU w kN mem (1 * kN)) (LoadU w kN mem (2 * kN)) (LoadU w kN mem (3 * kN))

/-! ## Stores -/

/-- `StoreInterleaved2`, `generic_ops-inl.h:1809-1838`. -/
def StoreInterleaved2 (t : Tgt) (w sz : Nat) (v0 v1 : M128) (mem : Mem w) : Mem w :=
  let kN := sz / (w / 8)
  if sz > 8 then
    let v10L := InterleaveLower w v0 v1
    let v10U := InterleaveUpper t w sz v0 v1
    StoreAt w kN v10U (1 * kN) (StoreAt w kN v10L (0 * kN) mem)
  else
    let v0 := ZeroExtendVector t w (2 * sz) v0
    let v1 := ZeroExtendVector t w (2 * sz) v1
    StoreAt w (2 * kN) (InterleaveLower w v0 v1) 0 mem
/-- `a | b | c` of three lookups. -/
def OrLookup3 (t : Tgt) (v0 v1 v2 s0 s1 s2 : M128) : M128 :=
  Or (Or (TableLookupBytesOr0 t v0 s0) (TableLookupBytesOr0 t v1 s1)) (TableLookupBytesOr0 t v2 s2)
/-- `StoreInterleaved3` of bytes, vectors of 16 and 8 bytes, `generic_ops-inl.h:1857-1906, 1998-2044`: the blocks `A`, `B` and `C`; the
8-byte version stores `A` and half of `B`. -/
def Interleave3x8 (t : Tgt) (v0 v1 v2 : M128) : M128 × M128 × M128 :=
  let k5 := set 8 5#8
  let k6 := set 8 6#8
  let shuf_A0 := ofBytes [0, 0x80, 0x80, 1, 0x80, 0x80, 2, 0x80, 0x80, 3, 0x80, 0x80, 4, 0x80, 0x80, 5]
  let shuf_A1 := ofBytes [0x80, 0, 0x80, 0x80, 1, 0x80, 0x80, 2, 0x80, 0x80, 3, 0x80, 0x80, 4, 0x80, 0x80]
  let shuf_A2 := CombineShiftRightBytes t 8 16 15 shuf_A1 shuf_A1
  let shuf_B0 := Add 8 shuf_A2 k6
  let shuf_B1 := Add 8 shuf_A0 k5
  let shuf_B2 := Add 8 shuf_A1 k5
  let shuf_C0 := Add 8 shuf_B2 k6
  let shuf_C1 := Add 8 shuf_B0 k5
  let shuf_C2 := Add 8 shuf_B1 k5
  (OrLookup3 t v0 v1 v2 shuf_A0 shuf_A1 shuf_A2, OrLookup3 t v0 v1 v2 shuf_B0 shuf_B1 shuf_B2, OrLookup3 t v0 v1 v2 shuf_C0 shuf_C1 shuf_C2)
/-- `StoreInterleaved3` of 16-bit lanes, vectors of 16 and 8 bytes, `generic_ops-inl.h:1908-1956, 2046-2093`. -/
def Interleave3x16 (t : Tgt) (v0 v1 v2 : M128) : M128 × M128 × M128 :=
  let k2 := set 8 4#8
  let k3 := set 8 6#8
  let shuf_A1 := ofBytes [0x80, 0x80, 0, 1, 0x80, 0x80, 0x80, 0x80, 2, 3, 0x80, 0x80, 0x80, 0x80, 4, 5]
  let shuf_A2 := ofBytes [0x80, 0x80, 0x80, 0x80, 0, 1, 0x80, 0x80, 0x80, 0x80, 2, 3, 0x80, 0x80, 0x80, 0x80]
  let shuf_A0 := CombineShiftRightBytes t 8 16 2 shuf_A1 shuf_A1
  let shuf_B0 := Add 8 shuf_A1 k3
  let shuf_B1 := Add 8 shuf_A2 k3
  let shuf_B2 := Add 8 shuf_A0 k2
  let shuf_C0 := Add 8 shuf_B1 k3
  let shuf_C1 := Add 8 shuf_B2 k3
  let shuf_C2 := Add 8 shuf_B0 k2
  (OrLookup3 t v0 v1 v2 shuf_A0 shuf_A1 shuf_A2, OrLookup3 t v0 v1 v2 shuf_B0 shuf_B1 shuf_B2, OrLookup3 t v0 v1 v2 shuf_C0 shuf_C1 shuf_C2)
/-- `StoreInterleaved3` of 32-bit lanes, 16-byte vectors, `generic_ops-inl.h:1958-1986`. -/
def Interleave3x32 (t : Tgt) (v0 v1 v2 : M128) : M128 × M128 × M128 :=
  let v10_v00 := InterleaveLower 32 v0 v1
  let v01_v20 := OddEven t 32 v0 v2
  let A := InterleaveLower 64 v10_v00 v01_v20
  let v1_321 := ShiftRightLanes t 32 16 1 v1
  let v0_32 := ShiftRightLanes t 32 16 2 v0
  let v21_v11 := OddEven t 32 v2 v1_321
  let v12_v02 := OddEven t 32 v1_321 v0_32
  let B := InterleaveLower 64 v21_v11 v12_v02
  let v23_v13 := OddEven t 32 v2 v1_321
  let v03_v22 := OddEven t 32 v0 v2
  let C := InterleaveUpper t 64 16 v03_v22 v23_v13
  (A, B, C)
/-- `StoreInterleaved3` of two lanes of 32 or 64 bits, `generic_ops-inl.h:1988-1996, 2095-2108`. -/
def Interleave3x2 (t : Tgt) (w sz : Nat) (v0 v1 v2 : M128) : M128 × M128 × M128 :=
  (InterleaveLower w v0 v1, OddEven t w v0 v2, InterleaveUpper t w sz v1 v2)
/-- `StoreInterleaved3` of at most four bytes, `generic_ops-inl.h:2112-2145`. -/
def Interleave3x8s (t : Tgt) (v0 v1 v2 : M128) : M128 :=
  let shuf_A0 := ofBytes [0, 0x80, 0x80, 1, 0x80, 0x80, 2, 0x80, 0x80, 3, 0x80, 0x80, 0x80, 0x80, 0x80, 0x80]
  let shuf_A1 := CombineShiftRightBytes t 8 16 15 shuf_A0 shuf_A0
  let shuf_A2 := CombineShiftRightBytes t 8 16 14 shuf_A0 shuf_A0
  OrLookup3 t v0 v1 v2 shuf_A0 shuf_A1 shuf_A2
/-- `StoreInterleaved3` of two 16-bit lanes, `generic_ops-inl.h:2147-2181`. -/
def Interleave3x16s (t : Tgt) (v0 v1 v2 : M128) : M128 :=
  let shuf_A2 := ofBytes [0x80, 0x80, 0x80, 0x80, 0, 1, 0x80, 0x80, 0x80, 0x80, 2, 3, 0x80, 0x80, 0x80, 0x80]
  let shuf_A1 := CombineShiftRightBytes t 8 16 2 shuf_A2 shuf_A2
  let shuf_A0 := CombineShiftRightBytes t 8 16 4 shuf_A2 shuf_A2
  OrLookup3 t v0 v1 v2 shuf_A0 shuf_A1 shuf_A2
/-- `StoreInterleaved3`, `generic_ops-inl.h:1845-2190`. -/
def StoreInterleaved3 (t : Tgt) (w sz : Nat) (v0 v1 v2 : M128) (mem : Mem w) : Mem w :=
  let kN := sz / (w / 8)
  let full := 128 / w
  let blocks := fun (r : M128 × M128 × M128) =>
    StoreAt w kN r.2.2 (2 * kN) (StoreAt w kN r.2.1 (1 * kN) (StoreAt w kN r.1 (0 * kN) mem))
  let halves := fun (r : M128 × M128 × M128) => StoreAt w kN r.2.1 (1 * full) (StoreAt w full r.1 (0 * full) mem)
  if kN = 1 then StoreAt w kN v2 2 (StoreAt w kN v1 1 (StoreAt w kN v0 0 mem))
  else if sz > 8 then
    if w = 8 then blocks (Interleave3x8 t v0 v1 v2)
    else if w = 16 then blocks (Interleave3x16 t v0 v1 v2)
    else if w = 32 then blocks (Interleave3x32 t v0 v1 v2)
    else blocks (Interleave3x2 t w sz v0 v1 v2)
  else if sz = 8 then
    if w = 8 then halves (Interleave3x8 t v0 v1 v2)
    else if w = 16 then halves (Interleave3x16 t v0 v1 v2)
    else blocks (Interleave3x2 t w sz v0 v1 v2)
  else if w = 8 then StoreAt w (3 * kN) (Interleave3x8s t v0 v1 v2) 0 mem
  else StoreAt w (3 * kN) (Interleave3x16s t v0 v1 v2) 0 mem
/-- `StoreInterleaved4`, `generic_ops-inl.h:2192-2317`. -/
def StoreInterleaved4 (t : Tgt) (w sz : Nat) (v0 v1 v2 v3 : M128) (mem : Mem w) : Mem w :=
  let kN := sz / (w / 8)
  let full := 128 / w
  if sz > 8 then
    let r :=
      if w = 64 then (InterleaveLower w v0 v1, InterleaveLower w v2 v3, InterleaveUpper t w sz v0 v1, InterleaveUpper t w sz v2 v3)
      else
        let v10L := InterleaveLower w v0 v1
        let v32L := InterleaveLower w v2 v3
        let v10U := InterleaveUpper t w sz v0 v1
        let v32U := InterleaveUpper t w sz v2 v3
        (InterleaveLower (2 * w) v10L v32L, InterleaveUpper t (2 * w) sz v10L v32L, InterleaveLower (2 * w) v10U v32U,
         InterleaveUpper t (2 * w) sz v10U v32U)
    StoreAt w kN r.2.2.2 (3 * kN) (StoreAt w kN r.2.2.1 (2 * kN) (StoreAt w kN r.2.1 (1 * kN) (StoreAt w kN r.1 (0 * kN) mem)))
  else if sz = 8 then
    let r :=
      if w = 64 then (InterleaveLower w v0 v1, InterleaveLower w v2 v3)
      else
        let v10 := InterleaveLower w v0 v1
        let v32 := InterleaveLower w v2 v3
        (InterleaveLower (2 * w) v10 v32, InterleaveUpper t (2 * w) 16 v10 v32)
    StoreAt w full r.2 full (StoreAt w full r.1 0 mem)
  else
    let v10 := InterleaveLower w v0 v1
    let v32 := InterleaveLower w v2 v3
    StoreAt w (4 * kN) (InterleaveLower (2 * w) v10 v32) 0 mem

end Hwy.X86
