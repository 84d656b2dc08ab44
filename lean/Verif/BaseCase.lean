import Verif.NetPrograms
import Verif.VecOps

/-!
# Model of `BaseCase` (hwy/contrib/sort/vqsort-inl.h)

Indices count keys (`LanesPerKey()` lanes each), see Heap.lean. `pad` is `st.LastValue(d)`. Both preprocessor
variants are modelled: `mightFault` is `HWY_MEM_OPS_MIGHT_FAULT`; `big` is `!HWY_COMPILER_MSVC &&
!HWY_IS_DEBUG_BUILD`. `N` is `Lanes(ScalableTag<T>) / LanesPerKey()`.
-/

namespace Hwy
namespace VQ

namespace Net

/-- `Sort8`, then `Merge8x2` and `Merge8x4`, which are no-ops if `kKeysPerRow < 2`, `< 4`
(sorting_networks-inl.h:200-224; vqsort-inl.h:385-389). -/
def rows8 (K : Nat) : List Op := sort8 ++ ((if K < 2 then [] else merge8x2) ++ (if K < 4 then [] else merge8x4))

/-- `Sort16` and the merges (vqsort-inl.h:515-528). -/
def rows16 (K : Nat) : List Op :=
  sort16 ++ ((if K < 2 then [] else merge16x2) ++ ((if K < 4 then [] else merge16x4) ++
    ((if K < 8 then [] else merge16x8) ++ (if K < 16 then [] else merge16x16))))

end Net

open Net

variable {α : Type}

/-- Vectors `v0, v1, ..` loaded from memory. -/
def rowsState (pad : α) (rows : List (List α)) : State α := fun r c => (rows.getD r []).getD c pad

/-- Contents of vector `r` of `P` keys. -/
def rowList (P : Nat) (s : State α) (r : Nat) : List α := (List.range P).map (s r)

/-- `StoreU(v_r, d, a + r * P)` for each listed `r`. -/
def storeRows (P : Nat) (s : State α) (a : List α) (rs : List Nat) : M (List α) :=
  rs.foldlM (fun a r => Vec.storeU (rowList P s r) a (r * P)) a

/-- `BlendedStore(v, mask, d, a + i)` (emu128-inl.h:1449-1455): writes the active lanes. -/
def blendedStore (v : List α) (mask : List Bool) (a : List α) (i : Nat) : M (List α) :=
  if (List.range v.length).all (fun j => !(mask.getD j false) || decide (i + j < a.length)) then
    .ok (a.mapIdx (fun p x => if i ≤ p ∧ p < i + v.length ∧ mask.getD (p - i) false = true then v.getD (p - i) x else x))
  else .error .ub

/-- `Sort2To2` (vqsort-inl.h:243-263). -/
def sort2To2 (lt : α → α → Bool) (pad : α) (keys : List α) : M (List α) := do
  let v0 ← Vec.loadU 1 keys 0
  let v1 ← Vec.loadU 1 keys 1
  storeRows 1 (run (first lt) (last lt) Net.sort2 (rowsState pad [v0, v1])) keys [0, 1]

/-- `LoadU(d, in_out3)` (vqsort-inl.h:284-290): the fourth key, or padding from `buf`. -/
def loadInOut3 (keys : List α) (num : Nat) (buf : List α) : M (List α) :=
  if num = 3 then Vec.loadU 1 buf 0 else Vec.loadU 1 keys 3

/-- `Sort3To4` (vqsort-inl.h:265-301). -/
def sort3To4 (lt : α → α → Bool) (pad : α) (keys : List α) (num : Nat) (buf : List α) : M (List α × List α) := do
  let buf ← Vec.storeU [pad] buf 0
  let v0 ← Vec.loadU 1 keys 0
  let v1 ← Vec.loadU 1 keys 1
  let v2 ← Vec.loadU 1 keys 2
  let v3 ← loadInOut3 keys num buf
  let s := run (first lt) (last lt) Net.sort4 (rowsState pad [v0, v1, v2, v3])
  let keys ← storeRows 1 s keys [0, 1, 2]
  if num = 3 then do
    let buf ← Vec.storeU (rowList 1 s 3) buf 0
    pure (keys, buf)
  else do
    let keys ← Vec.storeU (rowList 1 s 3) keys 3
    pure (keys, buf)

/-- First loop of `CopyHalfToPaddedBuf` (vqsort-inl.h:318-324), a `do .. while`. -/
def padLoop (pad : α) (Nmax stop : Nat) : Nat → Nat → List α → M (List α)
  | 0, _, _ => .error .abort
  | fuel + 1, i, buf => do
    let buf ← Vec.storeU (List.replicate Nmax pad) buf i
    if i + Nmax < stop then padLoop pad Nmax stop fuel (i + Nmax) buf else .ok buf

/-- Second loop (vqsort-inl.h:327-331); a negative index is undefined behaviour. -/
def copyDown (Nmax stop : Nat) (keys : List α) : Nat → Nat → List α → M (List α)
  | 0, _, _ => .error .abort
  | fuel + 1, e, buf =>
    if e < Nmax then .error .ub
    else do
      let v ← Vec.loadU Nmax keys (e - Nmax)
      let buf ← Vec.storeU v buf (e - Nmax)
      if e - Nmax > stop then copyDown Nmax stop keys fuel (e - Nmax) buf else .ok buf

/-- `CopyHalfToPaddedBuf` (vqsort-inl.h:301-331). `Nmax` is a power of two, so `num & ~(Nmax - 1)` is
`num / Nmax * Nmax`. -/
def copyHalfToPaddedBuf (pad : α) (R P N num : Nat) (keys buf : List α) : M (List α) := do
  let Nmax := min N (R / 2 * P)
  let buf ← padLoop pad Nmax ((R - 1) * P + min N P) (num + R * P + 1) (num / Nmax * Nmax) buf
  copyDown Nmax (R / 2 * P) keys (num + 1) num buf

/-- Copy of the second half from `buf` (vqsort-inl.h:407-423). -/
def copyOut (N num : Nat) (buf : List α) : Nat → Nat → List α → M (List α)
  | 0, _, _ => .error .abort
  | fuel + 1, i, keys =>
    if i + N ≤ num then do
      let v ← Vec.loadU N buf i
      let keys ← Vec.storeU v keys i
      copyOut N num buf fuel (i + N) keys
    else Vec.safeCopyN (num - i) buf keys i

/-- `Gt(vnum_lanes, kIota + ..)` (vqsort-inl.h:368-379): lane `c` of `m_r`. -/
def rowMask (P num r : Nat) : List Bool := (List.range P).map (fun c => decide (r * P + c < num))

/-- Loads of the second half (vqsort-inl.h:357-386, 441-497). -/
def loadHigh (mightFault : Bool) (pad : α) (R P N num : Nat) (keys buf : List α) : M (List (List α) × List α) :=
  if mightFault then do
    let buf ← copyHalfToPaddedBuf pad R P N num keys buf
    let hi ← (List.range' (R / 2) (R / 2)).mapM (fun r => Vec.loadU P buf (r * P))
    pure (hi, buf)
  else do
    let hi ← (List.range' (R / 2) (R / 2)).mapM (fun r => Vec.maskedLoad pad (rowMask P num r) keys ((r * P : Nat) : Int))
    pure (hi, buf)

/-- Stores of the second half (vqsort-inl.h:400-430, 540-577). -/
def storeHigh (mightFault : Bool) (R P N num : Nat) (s : State α) (keys buf : List α) : M (List α × List α) :=
  if mightFault then do
    let buf ← storeRows P s buf (List.range' (R / 2) (R / 2))
    let keys ← copyOut N num buf (num + 1) (R / 2 * P) keys
    pure (keys, buf)
  else do
    let keys ← (List.range' (R / 2) (R / 2)).foldlM (fun a r => blendedStore (rowList P s r) (rowMask P num r) a (r * P)) keys
    pure (keys, buf)

/-- `Sort8Rows<P>`, `Sort16Rows<P>` (vqsort-inl.h:336-431, 433-578): `R` rows of `P` keys. If a vector held fewer than
`P` keys (`N < P`) the code would load partial rows; this is reported as `ub` and shown not to happen. -/
def sortRows (mightFault : Bool) (lt : α → α → Bool) (pad : α) (R P N : Nat) (ops : List Op) (keys : List α) (num : Nat)
    (buf : List α) : M (List α × List α) :=
  if N < P then .error .ub
  else do
    let lo ← (List.range (R / 2)).mapM (fun r => Vec.loadU P keys (r * P))
    let (hi, buf) ← loadHigh mightFault pad R P N num keys buf
    let s := run (first lt) (last lt) ops (rowsState pad (lo ++ hi))
    let keys ← storeRows P s keys (List.range (R / 2))
    storeHigh mightFault R P N num s keys buf

/-- `Sort8Rows<kKeysPerRow>`. -/
def sort8Rows (mightFault : Bool) (lt : α → α → Bool) (pad : α) (N P : Nat) (keys : List α) (num : Nat)
    (buf : List α) : M (List α × List α) :=
  sortRows mightFault lt pad 8 P N (rows8 P) keys num buf

/-- `Sort16Rows<kKeysPerRow>`. -/
def sort16Rows (mightFault : Bool) (lt : α → α → Bool) (pad : α) (N P : Nat) (keys : List α) (num : Nat)
    (buf : List α) : M (List α × List α) :=
  sortRows mightFault lt pad 16 P N (rows16 P) keys num buf

/-- `SortConstants::kMaxCols` (shared-inl.h:49-53), in keys. -/
def maxCols (big : Bool) (lpk : Nat) : Nat := (if big then 16 else 8) / lpk

/-- `SortConstants::BaseCaseNumLanes` (shared-inl.h:62-67), in keys. -/
def baseCaseNum (big : Bool) (lpk N : Nat) : Nat := (if N ≥ 4 then 16 else 8) * min N (maxCols big lpk)

/-- `BaseCase` (vqsort-inl.h:572-607). `Kmax` is `MaxLanes(d) / kLPK`; calling a null or missing table entry is
undefined behaviour. `Num0BitsAboveMS1Bit_Nonzero32(x)` is `31 - log2 x` (base.h, see C01). -/
def baseCase (mightFault big : Bool) (lt : α → α → Bool) (pad : α) (N Kmax : Nat) (keys : List α) (num : Nat)
    (buf : List α) : M (List α × List α) :=
  if num ≤ 1 then .ok (keys, buf)
  else
    match 32 - (31 - Nat.log2 (num - 1)) with
    | 1 => do
      let keys ← sort2To2 lt pad keys
      pure (keys, buf)
    | 2 => sort3To4 lt pad keys num buf
    | 3 => sort8Rows mightFault lt pad N 1 keys num buf
    | 4 => if Kmax ≥ 2 then sort8Rows mightFault lt pad N 2 keys num buf else .error .ub
    | 5 => if Kmax ≥ 4 then sort8Rows mightFault lt pad N 4 keys num buf else .error .ub
    | 6 => if Kmax ≥ 4 then sort16Rows mightFault lt pad N 4 keys num buf else .error .ub
    | 7 => if Kmax ≥ 8 then sort16Rows mightFault lt pad N 8 keys num buf else .error .ub
    | 8 => if big && decide (Kmax ≥ 16) then sort16Rows mightFault lt pad N 16 keys num buf else .error .ub
    | _ => .error .ub

end VQ
end Hwy
