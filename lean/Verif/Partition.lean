import Verif.VecOps

/-!
# Model of `Partition` (hwy/contrib/sort/vqsort-inl.h)

Indices count keys, see Heap.lean. The list `keys` is exactly `keys[0, num)`: touching anything outside is
undefined behaviour. `Cfg` collects what differs between targets.
-/

namespace Hwy
namespace VQ

variable {α : Type}

/-- Target-dependent behaviour of the compress operations. -/
structure Cfg (α : Type) where
  /-- Keys per vector. -/
  N : Nat
  /-- `CompressIsPartition<T>::value || (HWY_MAX_BYTES == 16 && st.Is128())`. -/
  isPartition : Bool
  /-- `CompressBlendedStore` reads and rewrites a whole vector (`LoadU`, `IfThenElse`, `StoreU`). -/
  rmw : Bool
  /-- What `CompressStore` writes after the valid lanes; may depend on its arguments. -/
  junk : List α → List Bool → List α
  /-- Lanes that `LoadN` does not load. -/
  zero : α

/-- `CompressStore(v, mask, d, to)`: "lanes after the valid ones may still be overwritten" (quick_reference.md:1589). -/
def compressStore (c : Cfg α) (v : List α) (mask : List Bool) (a : List α) (i : Nat) : M (List α × Nat) :=
  if i + c.N ≤ a.length then do
    let sel := Vec.select v mask
    let a ← Vec.storeU (sel ++ (c.junk v mask).take (c.N - sel.length)) a i
    pure (a, sel.length)
  else .error .ub

/-- `CompressBlendedStore` (quick_reference.md:1595): writes only the valid lanes, but may access all. -/
def compressBlended (c : Cfg α) (v : List α) (mask : List Bool) (a : List α) (i : Nat) : M (List α × Nat) :=
  if c.rmw = true ∧ a.length < i + c.N then .error .ub
  else Vec.compressBlendedStore v mask a i

/-- `num_here` in `PartitionRightmost` (vqsort-inl.h:625-644); `kUnroll = 4`, `N` is a power of two. -/
def rightmostNum (N num : Nat) : Nat :=
  let remainder := num % (4 * N)
  let mn := remainder + (if remainder < N then 4 * N else 0)
  let here := min mn num
  if num - here < 2 * 4 * N then num else here

/-- State of the loop in `PartitionRightmost`. -/
structure RM (α : Type) where
  readR : Nat
  bufL : Nat
  bufR : Nat
  buf : List α

/-- One whole vector (vqsort-inl.h:666-676). -/
def rmStep (c : Cfg α) (lt : α → α → Bool) (pivot : α) (keys : List α) (s : RM α) : M (RM α) :=
  if s.readR < c.N then .error .ub
  else do
    let v ← Vec.loadU c.N keys (s.readR - c.N)
    let comp := v.map (lt pivot)
    let (buf, numL) ← compressStore c v (comp.map not) s.buf s.bufL
    let (buf, _) ← compressStore c v comp buf s.bufR
    pure ⟨s.readR - c.N, s.bufL + numL, s.bufR + (c.N - numL), buf⟩

/-- `for (; i <= num_here - N; i += N)` (vqsort-inl.h:664-676). -/
def rmLoop (c : Cfg α) (lt : α → α → Bool) (pivot : α) (keys : List α) (here : Nat) : Nat → Nat → RM α → M (Nat × RM α)
  | 0, _, _ => .error .abort
  | fuel + 1, i, s =>
    if i ≤ here - c.N then do
      let s ← rmStep c lt pivot keys s
      rmLoop c lt pivot keys here fuel (i + c.N) s
    else .ok (i, s)

/-- The last partial vector (vqsort-inl.h:678-691). The lanes of `comp` past `remaining` are not masked off. -/
def rmLast (c : Cfg α) (lt : α → α → Bool) (pivot : α) (keys : List α) (remaining : Nat) (s : RM α) : M (RM α) :=
  if remaining = 0 then .ok s
  else if s.readR < remaining then .error .ub
  else do
    let v ← Vec.loadN c.N c.zero keys (s.readR - remaining) remaining
    let comp := v.map (lt pivot)
    let (buf, numL) ← compressStore c v (List.zipWith (fun cm m => !cm && m) comp (Vec.firstN c.N remaining)) s.buf s.bufL
    let (buf, _) ← compressStore c v comp buf s.bufR
    pure ⟨s.readR - remaining, s.bufL + numL, s.bufR + (remaining - numL), buf⟩

/-- `PartitionRightmost` (vqsort-inl.h:617-705). Returns `num_main`, `bufL`, `writeR`, keys, buffer. -/
def partitionRightmost (c : Cfg α) (lt : α → α → Bool) (pivot : α) (keys buf : List α) :
    M (Nat × Nat × Nat × List α × List α) :=
  let num := keys.length
  let here := rightmostNum c.N num
  let maxBuf := (3 * 4 + 1) * c.N
  if num ≤ 2 * c.N ∨ here < c.N then .error .ub
  else do
    let (i, s) ← rmLoop c lt pivot keys here (here + 1) 0 ⟨num, 0, maxBuf, buf⟩
    let s ← rmLast c lt pivot keys (here - i) s
    let numWrittenR := s.bufR - maxBuf
    let v ← Vec.loadU numWrittenR s.buf maxBuf
    let keys ← Vec.storeU v keys (num - numWrittenR)
    pure (num - here, s.bufL, num - numWrittenR, keys, s.buf)

/-- `keys`, `writeL`, `remaining`. -/
structure LR (α : Type) where
  keys : List α
  writeL : Nat
  remaining : Nat

/-- `StoreLeftRight` (vqsort-inl.h:709-744). -/
def storeLeftRight (c : Cfg α) (lt : α → α → Bool) (pivot : α) (s : LR α) (v : List α) : M (LR α) :=
  let comp := v.map (lt pivot)
  if s.remaining < 2 * c.N then .error .ub
  else if c.isPartition then do
    let lr := Vec.select v (comp.map not) ++ Vec.select v comp
    let keys ← Vec.storeU lr s.keys s.writeL
    let keys ← Vec.storeU lr keys (s.remaining - c.N + s.writeL)
    pure ⟨keys, s.writeL + (c.N - comp.count true), s.remaining - c.N⟩
  else do
    let (keys, numL) ← compressStore c v (comp.map not) s.keys s.writeL
    let (keys, _) ← compressBlended c v comp keys (s.remaining - c.N + (s.writeL + numL))
    pure ⟨keys, s.writeL + numL, s.remaining - c.N⟩

/-- Consecutive `StoreLeftRight` calls (`StoreLeftRight4`, vqsort-inl.h:746-756). -/
def storeLeftRights (c : Cfg α) (lt : α → α → Bool) (pivot : α) (s : LR α) (vs : List (List α)) : M (LR α) :=
  vs.foldlM (storeLeftRight c lt pivot) s

/-- `v0 .. v3 = LoadU(d, from + 0 * N) .. LoadU(d, from + 3 * N)`. -/
def load4 (N : Nat) (keys : List α) (i : Nat) : M (List (List α)) :=
  (List.range 4).mapM (fun j => Vec.loadU N keys (i + j * N))

/-- Main loop (vqsort-inl.h:852-896). -/
def mainLoop (c : Cfg α) (lt : α → α → Bool) (pivot : α) : Nat → Nat → Nat → LR α → M (LR α)
  | 0, _, _, _ => .error .abort
  | fuel + 1, readL, readR, s =>
    if readL = readR then .ok s
    else if readL < s.writeL then .error .ub
    else if readL - s.writeL > 4 * c.N then
      if readR < 4 * c.N then .error .ub
      else do
        let vs ← load4 c.N s.keys (readR - 4 * c.N)
        let s ← storeLeftRights c lt pivot s vs
        mainLoop c lt pivot fuel readL (readR - 4 * c.N) s
    else do
      let vs ← load4 c.N s.keys readL
      let s ← storeLeftRights c lt pivot s vs
      mainLoop c lt pivot fuel (readL + 4 * c.N) readR s

/-- `keys`, `writeR`, `buf`, `bufL`. -/
structure RB (α : Type) where
  keys : List α
  writeR : Nat
  buf : List α
  bufL : Nat

/-- `StoreRightAndBuf` (vqsort-inl.h:760-772). -/
def storeRightAndBuf (c : Cfg α) (lt : α → α → Bool) (pivot : α) (s : RB α) (v : List α) : M (RB α) := do
  let comp := v.map (lt pivot)
  let (buf, numL) ← compressStore c v (comp.map not) s.buf s.bufL
  let numR := c.N - numL
  if s.writeR < numR then .error .ub
  else do
    let keys ← Vec.storeN (Vec.select v comp) s.keys (s.writeR - numR) numR
    pure ⟨keys, s.writeR - numR, buf, s.bufL + numL⟩

/-- The part of `Partition` guarded by `num_main != 0` (vqsort-inl.h:835-914). Returns `writeL` and the rest. -/
def partitionMain (c : Cfg α) (lt : α → α → Bool) (pivot : α) (numMain bufL writeR : Nat) (keys buf : List α) :
    M (Nat × RB α) := do
  let vL ← load4 c.N keys 0
  let vR ← load4 c.N keys (numMain - 4 * c.N)
  let s ← mainLoop c lt pivot (numMain + 1) (4 * c.N) (numMain - 4 * c.N) ⟨keys, 0, writeR⟩
  let s ← storeLeftRights c lt pivot s vL
  let s ← storeLeftRights c lt pivot s (vR.take 2)
  let r ← (vR.drop 2).foldlM (storeRightAndBuf c lt pivot) ⟨s.keys, s.writeL + s.remaining, buf, bufL⟩
  pure (s.writeL, r)

/-- `Partition` (vqsort-inl.h:779-922). Returns the bound, the keys and the buffer. -/
def partition (c : Cfg α) (lt : α → α → Bool) (pivot : α) (keys buf : List α) : M (Nat × List α × List α) := do
  let (numMain, bufL, writeR, keys, buf) ← partitionRightmost c lt pivot keys buf
  let (writeL, r) ← if numMain = 0 then pure (0, (⟨keys, writeR, buf, bufL⟩ : RB α))
    else partitionMain c lt pivot numMain bufL writeR keys buf
  if writeL + r.bufL ≠ r.writeR then .error .ub
  else do
    let v ← Vec.loadU r.bufL r.buf 0
    let keys ← Vec.storeU v r.keys writeL
    pure (writeL + r.bufL, keys, r.buf)

end VQ
end Hwy
