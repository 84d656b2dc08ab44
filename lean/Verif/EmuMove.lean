import Verif.EmuMask

/-!
# Model of the memory and data movement operations of `hwy/ops/emu128-inl.h`

Lanes are of an arbitrary type `α` (their contents do not matter); `z` is the default value of the arrays
`raw[16 / sizeof(T)] = {}`, and `c` is their size `16 / sizeof(T)`.  `CopyBytes` of whole lanes is a copy of
lanes; operations on bytes (`ShiftLeftBytes`, `CombineShiftRightBytes`, `TableLookupBytes`, …) are modelled on
arrays of 16 bytes.  All array accesses are bounds-checked.
-/

namespace Hwy
namespace Emu
open CInt

variable {α : Type}

/-- `CopyBytes(src + so, dst + d0, n * sizeof(T))` (base.h:432-455). -/
def copyLanes (src : List α) (so : Nat) (dst : List α) (d0 n : Nat) : M (List α) :=
  forN n (fun i dst => do writeAt dst (d0 + i) (← readAt src (so + i))) dst

/-- Default-initialised `raw`. -/
def fresh (z : α) (c : Nat) : List α := List.replicate c z

/-! ### Memory -/

/-- `Load` / `LoadU` / `LoadDup128` (emu128-inl.h:1380-1408). -/
def Load (z : α) (c N : Nat) (p : List α) : M (List α) := copyLanes p 0 (fresh z c) 0 N

/-- `LoadN` (emu128-inl.h:1416-1424). -/
def LoadN (z : α) (c N : Nat) (p : List α) (n : Nat) : M (List α) := copyLanes p 0 (fresh z c) 0 (min n N)

/-- `LoadNOr` (emu128-inl.h:1426-1434). -/
def LoadNOr (no : List α) (N : Nat) (p : List α) (n : Nat) : M (List α) := copyLanes p 0 no 0 (min n N)

/-- `Store` / `StoreU` / `Stream` (emu128-inl.h:1437-1446, 1747-1751). -/
def Store (N : Nat) (v p : List α) : M (List α) := copyLanes v 0 p 0 N

/-- `BlendedStore` (emu128-inl.h:1448-1454). -/
def BlendedStore (N : Nat) (v : List α) (m : List Int) (p : List α) : M (List α) :=
  forN N (fun i p => do
    let x ← readAt m i
    if x ≠ 0 then writeAt p i (← readAt v i) else .ok p) p

/-- `StoreN` (emu128-inl.h:1462-1468). -/
def StoreN (N : Nat) (v p : List α) (n : Nat) : M (List α) := copyLanes v 0 p 0 (min n N)

/-- `LoadInterleaved2/3/4` (emu128-inl.h:1665-1712) for `K` vectors: the inner statements
`bufk[i] = *unaligned++` are a loop over `k`, the pointer is the second component. -/
def LoadInterleaved (K : Nat) (z : α) (c N : Nat) (p : List α) : M (List (List α)) := do
  let s ← forN N (fun i (s : List (List α) × Nat) =>
    forN K (fun k (s : List (List α) × Nat) => do
      let x ← readAt p s.2
      let buf ← readAt s.1 k
      let buf ← writeAt buf i x
      let bufs ← writeAt s.1 k buf
      return (bufs, s.2 + 1)) s) (List.replicate K (List.replicate N z), 0)
  s.1.mapM (fun buf => Load z c N buf)

/-- `StoreInterleaved2/3/4` (emu128-inl.h:1715-1745). -/
def StoreInterleaved (K N : Nat) (vs : List (List α)) (p : List α) : M (List α) := do
  let s ← forN N (fun i (s : List α × Nat) =>
    forN K (fun k (s : List α × Nat) => do
      let v ← readAt vs k
      let x ← readAt v i
      let p ← writeAt s.1 s.2 x
      return (p, s.2 + 1)) s) (p, 0)
  return s.1

/-! ### Halves: `H` is the number of lanes of `Half<D>`, `2 * H` that of `D` -/

/-- `LowerHalf` (emu128-inl.h:1471-1482): the result type has `16 / sizeof(T)` elements, too. -/
def LowerHalf (z : α) (c H : Nat) (v : List α) : M (List α) := copyLanes v 0 (fresh z c) 0 H

/-- `UpperHalf` (emu128-inl.h:1484-1489). -/
def UpperHalf (z : α) (c H : Nat) (v : List α) : M (List α) := copyLanes v H (fresh z c) 0 H

/-- `ZeroExtendVector` (emu128-inl.h:1491-1497). -/
def ZeroExtendVector (z : α) (c H : Nat) (v : List α) : M (List α) := copyLanes v 0 (fresh z c) 0 H

/-- `Combine` (emu128-inl.h:1499-1506). -/
def Combine (z : α) (c H : Nat) (hi lo : List α) : M (List α) := do
  let ret ← copyLanes lo 0 (fresh z c) 0 H
  copyLanes hi 0 ret H H

/-- `ConcatLowerLower` (emu128-inl.h:1508-1515). -/
def ConcatLowerLower (z : α) (c H : Nat) (hi lo : List α) : M (List α) := do
  let ret ← copyLanes lo 0 (fresh z c) 0 H
  copyLanes hi 0 ret H H

/-- `ConcatUpperUpper` (emu128-inl.h:1517-1524). -/
def ConcatUpperUpper (z : α) (c H : Nat) (hi lo : List α) : M (List α) := do
  let ret ← copyLanes lo H (fresh z c) 0 H
  copyLanes hi H ret H H

/-- `ConcatLowerUpper` (emu128-inl.h:1526-1533). -/
def ConcatLowerUpper (z : α) (c H : Nat) (hi lo : List α) : M (List α) := do
  let ret ← copyLanes lo H (fresh z c) 0 H
  copyLanes hi 0 ret H H

/-- `ConcatUpperLower` (emu128-inl.h:1535-1542). -/
def ConcatUpperLower (z : α) (c H : Nat) (hi lo : List α) : M (List α) := do
  let ret ← copyLanes lo 0 (fresh z c) 0 H
  copyLanes hi H ret H H

/-- `ConcatEven` (emu128-inl.h:1544-1555) and `ConcatOdd` (1565-1576), with `odd` 0 or 1. -/
def concatStride (odd : Nat) (z : α) (c H : Nat) (hi lo : List α) : M (List α) := do
  let ret ← forN H (fun i ret => do writeAt ret i (← readAt lo (2 * i + odd))) (fresh z c)
  forN H (fun i ret => do writeAt ret (H + i) (← readAt hi (2 * i + odd))) ret
def ConcatEven (z : α) (c H : Nat) (hi lo : List α) : M (List α) := concatStride 0 z c H hi lo
def ConcatOdd (z : α) (c H : Nat) (hi lo : List α) : M (List α) := concatStride 1 z c H hi lo

/-! ### Bytes: vectors of `B = d.MaxBytes()` bytes in arrays of 16 -/

/-- `size_t` subtraction of the template arguments `CopyBytes<d.MaxBytes() - kBytes>`. -/
def wsub (a b : Nat) : Nat := (a + 2 ^ 64 - b) % 2 ^ 64

/-- `CombineShiftRightBytes<kBytes>` (emu128-inl.h:1578-1589). -/
def CombineShiftRightBytes (z : α) (B k : Nat) (hi lo : List α) : M (List α) := do
  let ret ← copyLanes lo k (fresh z 16) 0 (wsub B k)
  copyLanes hi 0 ret (wsub B k) k

/-- `ZeroBytes` (base.h:457-470). -/
def zeroBytes (z : α) (dst : List α) (d0 n : Nat) : M (List α) :=
  forN n (fun i dst => writeAt dst (d0 + i) z) dst

/-- `ShiftLeftBytes<kBytes>` (emu128-inl.h:1592-1607). -/
def ShiftLeftBytes (z : α) (B k : Nat) (v : List α) : M (List α) := do
  let ret ← zeroBytes z (fresh z 16) 0 k
  copyLanes v 0 ret k (wsub B k)

/-- `ShiftRightBytes<kBytes>` (emu128-inl.h:1622-1634). -/
def ShiftRightBytes (z : α) (B k : Nat) (v : List α) : M (List α) := do
  let ret ← copyLanes v k (fresh z 16) 0 (wsub B k)
  zeroBytes z ret (wsub B k) k

/-- `ShiftLeftLanes<kLanes>` (emu128-inl.h:1610-1620): `s` is `sizeof(T)`; the `BitCast`s do not change the
bytes. -/
def ShiftLeftLanes (z : α) (s B k : Nat) (v : List α) : M (List α) := ShiftLeftBytes z B (k * s) v

/-- `ShiftRightLanes<kLanes>` (emu128-inl.h:1636-1642). -/
def ShiftRightLanes (z : α) (s B k : Nat) (v : List α) : M (List α) := ShiftRightBytes z B (k * s) v

/-- `TableLookupBytes` (emu128-inl.h:2524-2541), `TableLookupBytesOr0` (2543-2548): `B` is
`sizeof(T) * N`, `BI` is `NI * sizeof(TI)`. -/
def TableLookupBytes (z : α) (B BI : Nat) (v : List α) (idx : List Nat) : M (List α) :=
  forN BI (fun i ret => do
    let j ← readAt idx i
    let x ← if j < B then readAt v j else .ok z
    writeAt ret i x) (fresh z 16)

/-! ### Swizzle -/

/-- `GetLane`, `InsertLane`, `ExtractLane` (emu128-inl.h:2245-2260). -/
def GetLane (v : List α) : M α := readAt v 0
def InsertLane (v : List α) (i : Nat) (x : α) : M (List α) := writeAt v i x
def ExtractLane (v : List α) (i : Nat) : M α := readAt v i

/-- `DupEven` (emu128-inl.h:2262-2268): `for (i = 0; i < N; i += 2)`. -/
def DupEven (N : Nat) (v : List α) : M (List α) :=
  forN ((N + 1) / 2) (fun j v => do writeAt v (2 * j + 1) (← readAt v (2 * j))) v

/-- `DupOdd` (emu128-inl.h:2270-2276). -/
def DupOdd (N : Nat) (v : List α) : M (List α) :=
  forN ((N + 1) / 2) (fun j v => do writeAt v (2 * j) (← readAt v (2 * j + 1))) v

/-- `OddEven` (emu128-inl.h:2278-2284). -/
def OddEven (N : Nat) (odd even : List α) : M (List α) :=
  forN ((N + 1) / 2) (fun j odd => do writeAt odd (2 * j) (← readAt even (2 * j))) odd

/-- `InterleaveEven` (emu128-inl.h:2286-2293): `for (i = 1; i < N; i += 2)`, so `N / 2` iterations. -/
def InterleaveEven (N : Nat) (a b : List α) : M (List α) :=
  forN (N / 2) (fun j a => do
    let i := 1 + 2 * j
    writeAt a i (← readAt b (i - 1))) a

/-- `InterleaveOdd` (emu128-inl.h:2295-2302). -/
def InterleaveOdd (N : Nat) (a b : List α) : M (List α) :=
  forN (N / 2) (fun j b => do
    let i := 1 + 2 * j
    writeAt b (i - 1) (← readAt a i)) b

/-- `v.raw[i]` with a signed index. -/
def readIdx (v : List α) (i : Int) : M α := if 0 ≤ i then readAt v i.toNat else .error .ub

/-- `IndicesFromVec` / `SetTableIndices` (emu128-inl.h:2328-2346): `N` index lanes as signed values of the
lane's size. -/
def IndicesFromVec (t : Ty) (N : Nat) (vec : List Int) : M (List Int) :=
  copyLanes (vec.map t.signed.wrap) 0 (List.replicate N 0) 0 N

/-- `TableLookupLanes` (emu128-inl.h:2348-2355). -/
def TableLookupLanes (z : α) (c N : Nat) (v : List α) (idx : List Int) : M (List α) :=
  forN N (fun i ret => do
    let j ← readAt idx i
    writeAt ret i (← readIdx v j)) (fresh z c)

/-- `TwoTablesLookupLanes` (emu128-inl.h:2357-2370); `t` has the lane's size. -/
def TwoTablesLookupLanes (t : Ty) (z : α) (N : Nat) (a b : List α) (idx : List Int) : M (List α) :=
  forN N (fun i ret => do
    let j ← readAt idx i
    let masked := band ⟨t.signed, j⟩ (cast t.signed (⟨u64, (N : Int) - 1⟩))
    let x ← if lt ⟨t.signed, j⟩ (cast t.signed ⟨u64, N⟩) then readIdx a masked.v else readIdx b masked.v
    writeAt ret i x) (fresh z (cap t))

/-- `Reverse` (emu128-inl.h:2379-2387). -/
def Reverse (z : α) (c N : Nat) (v : List α) : M (List α) :=
  forN N (fun i ret => do writeAt ret i (← readAt v (N - 1 - i))) (fresh z c)

/-- `Reverse2` (emu128-inl.h:2396-2404): `for (i = 0; i < N; i += 2)`. -/
def Reverse2 (z : α) (c N : Nat) (v : List α) : M (List α) :=
  forN ((N + 1) / 2) (fun j ret => do
    let i := 2 * j
    let ret ← writeAt ret (i + 0) (← readAt v (i + 1))
    writeAt ret (i + 1) (← readAt v (i + 0))) (fresh z c)

/-- `Reverse4` (emu128-inl.h:2406-2416). -/
def Reverse4 (z : α) (c N : Nat) (v : List α) : M (List α) :=
  forN ((N + 3) / 4) (fun j ret => do
    let i := 4 * j
    let ret ← writeAt ret (i + 0) (← readAt v (i + 3))
    let ret ← writeAt ret (i + 1) (← readAt v (i + 2))
    let ret ← writeAt ret (i + 2) (← readAt v (i + 1))
    writeAt ret (i + 3) (← readAt v (i + 0))) (fresh z c)

/-- `Reverse8` (emu128-inl.h:2418-2432). -/
def Reverse8 (z : α) (c N : Nat) (v : List α) : M (List α) :=
  forN ((N + 7) / 8) (fun j ret => do
    let i := 8 * j
    let ret ← writeAt ret (i + 0) (← readAt v (i + 7))
    let ret ← writeAt ret (i + 1) (← readAt v (i + 6))
    let ret ← writeAt ret (i + 2) (← readAt v (i + 5))
    let ret ← writeAt ret (i + 3) (← readAt v (i + 4))
    let ret ← writeAt ret (i + 4) (← readAt v (i + 3))
    let ret ← writeAt ret (i + 5) (← readAt v (i + 2))
    let ret ← writeAt ret (i + 6) (← readAt v (i + 1))
    writeAt ret (i + 7) (← readAt v (i + 0))) (fresh z c)

/-- `SlideUpLanes` (emu128-inl.h:2435-2444). -/
def SlideUpLanes (z : α) (c N : Nat) (v : List α) (amt : Nat) : M (List α) :=
  copyLanes v 0 (fresh z c) (min amt N) (N - min amt N)

/-- `SlideDownLanes` (emu128-inl.h:2447-2456). -/
def SlideDownLanes (z : α) (c N : Nat) (v : List α) (amt : Nat) : M (List α) :=
  copyLanes v (min amt N) (fresh z c) 0 (N - min amt N)

/-- `Shuffle2301`, `Shuffle01`, `Shuffle0123` (emu128-inl.h:2463-2485, 2509-2512). -/
def Shuffle2301 (z : α) (N : Nat) (v : List α) : M (List α) := Reverse2 z 4 N v
def Shuffle01 (z : α) (v : List α) : M (List α) := Reverse2 z 2 2 v
def Shuffle0123 (z : α) (v : List α) : M (List α) := Reverse4 z 4 4 v

/-- `Shuffle1032` (emu128-inl.h:2470-2480). -/
def Shuffle1032 (z : α) (v : List α) : M (List α) := do
  let ret ← writeAt (fresh z 4) 3 (← readAt v 1)
  let ret ← writeAt ret 2 (← readAt v 0)
  let ret ← writeAt ret 1 (← readAt v 3)
  writeAt ret 0 (← readAt v 2)

/-- `Shuffle0321` (emu128-inl.h:2487-2496). -/
def Shuffle0321 (z : α) (v : List α) : M (List α) := do
  let ret ← writeAt (fresh z 4) 3 (← readAt v 0)
  let ret ← writeAt ret 2 (← readAt v 3)
  let ret ← writeAt ret 1 (← readAt v 2)
  writeAt ret 0 (← readAt v 1)

/-- `Shuffle2103` (emu128-inl.h:2498-2507). -/
def Shuffle2103 (z : α) (v : List α) : M (List α) := do
  let ret ← writeAt (fresh z 4) 3 (← readAt v 2)
  let ret ← writeAt ret 2 (← readAt v 1)
  let ret ← writeAt ret 1 (← readAt v 0)
  writeAt ret 0 (← readAt v 3)

/-- `Broadcast<kLane>` (emu128-inl.h:2514-2521): in place. -/
def Broadcast (N k : Nat) (v : List α) : M (List α) :=
  forN N (fun i v => do writeAt v i (← readAt v k)) v

/-- `InterleaveLower` (emu128-inl.h:2551-2566). -/
def InterleaveLower (z : α) (c N : Nat) (a b : List α) : M (List α) :=
  forN (N / 2) (fun i ret => do
    let ret ← writeAt ret (2 * i + 0) (← readAt a i)
    writeAt ret (2 * i + 1) (← readAt b i)) (fresh z c)

/-- `InterleaveUpper` (emu128-inl.h:2568-2577); `H` lanes in a half. -/
def InterleaveUpper (z : α) (c H : Nat) (a b : List α) : M (List α) :=
  forN H (fun i ret => do
    let ret ← writeAt ret (2 * i + 0) (← readAt a (H + i))
    writeAt ret (2 * i + 1) (← readAt b (H + i))) (fresh z c)

end Emu
end Hwy
