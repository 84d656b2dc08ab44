import Verif.Heap
import Verif.BaseCase
import Verif.Partition
import Verif.FastPath

/-!
# Model of pivot selection, `Recurse`, `Sort`, `PartialSort`, `Select` (hwy/contrib/sort/vqsort-inl.h)

Indices count keys (`LanesPerKey()` lanes each). The list `keys` is exactly `keys[0, num)`, `addr` its address divided by the
key size. Subarrays are sublists whose result is written back in place. A violated `HWY_DASSERT` is reported as `ub`, so a
theorem that the result is `.ok` says that debug builds do not abort either; only `num != 0` in `Recurse` depends on the
kind of build, because it can fail.
-/

namespace Hwy
namespace VQ

variable {α : Type}

/-- What the algorithm uses of `SharedTraits<Traits*<Order*>>`, per key: see Traits.lean for the instances. -/
structure Traits (α : Type) where
  /-- `Compare`, `Compare1`. `EqualKeys`, `Equal1` are `eqk lt`. -/
  lt : α → α → Bool
  /-- Comparison of `TraitsForSortingNetwork`, which includes the value of key-value types. -/
  ltNet : α → α → Bool
  isKV : Bool
  /-- `hwy::IsFloat<T>()`: selects between two implementations of the same test, see `allEqual`. -/
  isFloat : Bool
  firstValue : α
  lastValue : α
  /-- `PrevValue`. -/
  prev : α → α
  /-- `First`, `Last`. -/
  first : α → α → α
  last : α → α → α
  /-- `MedianOf3` (vqsort-inl.h:1185-1200). -/
  median : α → α → α → α

/-- Compile-time environment. -/
structure Env (α : Type) where
  c : Cfg α
  mightFault : Bool
  big : Bool
  /-- `LanesPerKey()`. -/
  lpk : Nat
  /-- `MaxLanes(d) / LanesPerKey()`. -/
  Kmax : Nat
  /-- `Constants::LanesPerChunk(sizeof(T))` in keys: 64 bytes. -/
  chunk : Nat
  /-- `kPotentiallyHuge`. -/
  potentiallyHuge : Bool
  /-- `!IsFull(d) && N < 2 && st.Is128()`. -/
  partial128 : Bool
  /-- Whether `HWY_DASSERT(num != 0)` at the start of `Recurse` is checked (debug and sanitizer builds). -/
  debug : Bool

/-- `Constants::BaseCaseNumLanes<kLPK>(N)`. -/
def Env.bcNum (e : Env α) : Nat := baseCaseNum e.big e.lpk e.c.N

/-- `SortConstants::BufNum` (shared-inl.h:97-103), in keys. -/
def Env.bufNum (e : Env α) : Nat := max (2 * e.chunk + e.bcNum + e.c.N) (2 * (3 * 4 + 1) * e.c.N)

/-! ### Random numbers -/

/-- Generator state `state[0], state[1], state[2]`. -/
structure Rng where
  s0 : BitVec 64
  s1 : BitVec 64
  s2 : BitVec 64

/-- `RandomBits` (shared-inl.h:28-39). -/
def randomBits (s : Rng) : BitVec 64 × Rng :=
  let w := s.s2 + 1
  let next := s.s0 ^^^ w
  (next, ⟨(s.s1 + (s.s1 <<< 3)) ^^^ (s.s1 >>> 11), ((s.s1 <<< 24) ||| (s.s1 >>> 40)) + next, w⟩)

/-- Six `uint32_t` from three calls (vqsort-inl.h:1232-1236), little-endian. -/
def sixBits (s : Rng) : List Nat × Rng :=
  let (a, s) := randomBits s
  let (b, s) := randomBits s
  let (c, s) := randomBits s
  ([a.toNat % 2 ^ 32, a.toNat / 2 ^ 32, b.toNat % 2 ^ 32, b.toNat / 2 ^ 32, c.toNat % 2 ^ 32, c.toNat / 2 ^ 32], s)

/-- `RandomChunkIndex` (vqsort-inl.h:1204-1208). -/
def randomChunkIndex (numChunks bits : Nat) : M Nat :=
  let i := bits * numChunks / 2 ^ 32
  if i < numChunks then .ok i else .error .ub

/-! ### Samples -/

/-- `Load(d, keys + i)`, which requires vector alignment. -/
def loadA (N addr : Nat) (keys : List α) (i : Nat) : M (List α) :=
  if (addr + i) % N = 0 then Vec.loadU N keys i else .error .ub

/-- `MedianOf3` of each lane. -/
def median3 (t : Traits α) (a b c : List α) : List α := List.zipWith (fun f x => f x) (List.zipWith t.median a b) c

/-- Loop of `DrawSamples` (vqsort-inl.h:1247-1261); `offs` are the six offsets. -/
def drawLoop (t : Traits α) (N chunk addr : Nat) (keys : List α) (offs : List Nat) : Nat → Nat → List α → M (List α)
  | 0, _, _ => .error .abort
  | fuel + 1, i, buf =>
    if i < chunk then do
      let v0 ← loadA N addr keys (offs.getD 0 0 + i)
      let v1 ← loadA N addr keys (offs.getD 1 0 + i)
      let v2 ← loadA N addr keys (offs.getD 2 0 + i)
      let buf ← Vec.storeU (median3 t v0 v1 v2) buf i
      let v3 ← loadA N addr keys (offs.getD 3 0 + i)
      let v4 ← loadA N addr keys (offs.getD 4 0 + i)
      let v5 ← loadA N addr keys (offs.getD 5 0 + i)
      let buf ← Vec.storeU (median3 t v3 v4 v5) buf (i + chunk)
      drawLoop t N chunk addr keys offs fuel (i + N) buf
    else .ok buf

/-- `DrawSamples` (vqsort-inl.h:1212-1262). -/
def drawSamples (e : Env α) (t : Traits α) (addr : Nat) (keys buf : List α) (rng : Rng) : M (List α × Rng) :=
  if keys.length < 2 * e.chunk then .error .ub
  else do
    let misalign := addr % e.chunk
    let consume := if misalign ≠ 0 then e.chunk - misalign else 0
    let (bits, rng) := sixBits rng
    let numChunks := min ((keys.length - consume) / e.chunk) 0xFFFFFFFF
    let idx ← bits.mapM (randomChunkIndex numChunks)
    let buf ← drawLoop t e.c.N e.chunk (addr + consume) (keys.drop consume) (idx.map (· * e.chunk)) (e.chunk + 1) 0 buf
    pure (buf, rng)

/-- `UnsortedSampleEqual` (vqsort-inl.h:1271-1301); the `OrXor` variant for integers is the same test by `orXor_spec`. -/
def unsortedSampleEqual (e : Env α) (t : Traits α) (buf : List α) : M Bool := do
  let first ← readAt buf 0
  let s ← Vec.loadU (2 * e.chunk) buf 0
  pure (s.all (fun x => eqk t.lt x first))

/-- `SortSamples` (vqsort-inl.h:1303-1318): `BaseCase` with the rest of `buf` as its buffer. -/
def sortSamples (e : Env α) (t : Traits α) (buf : List α) : M (List α) :=
  if e.bcNum < 2 * e.chunk then .error .ub
  else do
    let (s, b) ← baseCase e.mightFault e.big t.ltNet t.lastValue e.c.N e.Kmax (buf.take (2 * e.chunk)) (2 * e.chunk) (buf.drop (2 * e.chunk))
    pure (s ++ b)

/-! ### Pivot -/

/-- `PivotResult` (vqsort-inl.h:1322-1327). -/
inductive PivotResult
  | done
  | normal
  | isFirst
  | wasLast
  deriving DecidableEq, Repr

/-- Outcome of everything before `Partition`. -/
structure PR (α : Type) where
  result : PivotResult
  pivot : α
  keys : List α
  buf : List α

/-- `for (; Equal1(samples + rank_prev, samples + kRankMid); rank_prev -= N1)` (vqsort-inl.h:1353-1357); `none` is
`return 0`. -/
def rankPrev (lt : α → α → Bool) (samples : List α) (mid : α) : Nat → M (Option Nat)
  | 0 => do
    let x ← readAt samples 0
    pure (if eqk lt x mid then none else some 0)
  | r + 1 => do
    let x ← readAt samples (r + 1)
    if eqk lt x mid then rankPrev lt samples mid r else pure (some (r + 1))

/-- The loop for `rank_next` (vqsort-inl.h:1359-1364); `none` is `return rank_prev`. -/
def rankNext (lt : α → α → Bool) (samples : List α) (mid : α) (n : Nat) : Nat → Nat → M (Option Nat)
  | 0, _ => .error .abort
  | fuel + 1, r => do
    let x ← readAt samples r
    if eqk lt x mid then (if r = n - 1 then pure none else rankNext lt samples mid n fuel (r + 1)) else pure (some r)

/-- End of `PivotRank` (vqsort-inl.h:1359-1374). -/
def rankOf (lt : α → α → Bool) (samples : List α) (mid : α) (n rp : Nat) : M Nat := do
  match ← rankNext lt samples mid n (n + 1) (rp + 1) with
  | none => pure rp
  | some rn => pure (if rn - n / 2 < n / 2 - rp then n / 2 else rp)

/-- `PivotRank` (vqsort-inl.h:1345-1374); `n` samples. -/
def pivotRank (lt : α → α → Bool) (samples : List α) (n : Nat) : M Nat := do
  let mid ← readAt samples (n / 2)
  match ← rankPrev lt samples mid (n / 2 - 1) with
  | none => pure 0
  | some rp => rankOf lt samples mid n rp

/-- `ChoosePivotByRank` (vqsort-inl.h:1379-1400). -/
def choosePivotByRank (lt : α → α → Bool) (samples : List α) (n : Nat) : M α := do
  let r ← pivotRank lt samples n
  let pivot ← readAt samples r
  let last ← readAt samples (n - 1)
  if eqk lt pivot last then .error .ub else pure pivot

/-- `PartitionIfTwoKeys` (vqsort-inl.h:1136-1155). -/
def partitionIfTwoKeys (N : Nat) (lt : α → α → Bool) (pivot : α) (keys : List α) (idx : Nat) (second : α) (buf : List α) : M (TV α) :=
  if eqk lt second pivot then .error .ub
  else if !lt pivot second then twoValueR N lt second pivot keys buf
  else do
    let r ← twoValue N lt pivot second (keys.drop idx) buf
    pure { r with keys := keys.take idx ++ r.keys }

/-- `PartitionIfTwoSamples` (vqsort-inl.h:1160-1180); `n` samples. -/
def partitionIfTwoSamples (N : Nat) (t : Traits α) (keys buf : List α) (n : Nat) : M (TV α) := do
  let valueL ← readAt buf 0
  let valueR ← readAt buf (n - 1)
  if !t.lt valueL valueR || eqk t.lt valueL valueR then .error .ub
  else if !eqk t.lt valueL (t.prev valueR) then pure ⟨false, none, keys, buf⟩
  else do
    let r ← twoValue N t.lt valueL valueR keys (buf.drop n)
    pure { r with buf := buf.take n ++ r.buf }

/-- Common end of `ChoosePivotForEqualSamples` if there is a key before the pivot (vqsort-inl.h:1652-1665, 1684-1697). -/
def pivotIfBefore (N : Nat) (t : Traits α) (keys : List α) (pivot : α) (after : Bool) : M (PivotResult × α) := do
  let a ← if after then pure true else existsAny N t.last (fun x => t.lt pivot x) pivot keys
  if a then pure (.normal, pivot) else pure (.wasLast, t.prev pivot)

/-- Otherwise (vqsort-inl.h:1667-1672, 1699-1713). -/
def pivotIfNotBefore (N : Nat) (t : Traits α) (keys : List α) (pivot : α) : M (PivotResult × α) := do
  if ← existsAny N t.first (fun x => t.lt x pivot) pivot keys then pure (.normal, pivot) else pure (.isFirst, pivot)

/-- `ChoosePivotForEqualSamples` for plain keys (vqsort-inl.h:1673-1713). -/
def pivotPlain (N : Nat) (t : Traits α) (keys : List α) (pivot second third : α) : M (PivotResult × α) :=
  let s := t.first second third
  let th := t.last second third
  let before := t.lt s pivot
  let after := t.lt pivot th
  if !t.lt s th || !(before || after) then .error .ub
  else if before then pivotIfBefore N t keys pivot after
  else pivotIfNotBefore N t keys pivot

/-- `ChoosePivotForEqualSamples` (vqsort-inl.h:1624-1713). `pivot` is `SetKey(samples)`. -/
def choosePivotForEqualSamples (N : Nat) (t : Traits α) (keys : List α) (pivot second : α) (third : Option α) : M (PivotResult × α) :=
  if eqk t.lt pivot t.firstValue then .ok (.isFirst, pivot)
  else if eqk t.lt pivot t.lastValue then .ok (.wasLast, t.prev pivot)
  else if t.isKV then
    if t.lt second pivot then pivotIfBefore N t keys pivot false else pivotIfNotBefore N t keys pivot
  else
    match third with
    | none => .error .ub
    | some th => pivotPlain N t keys pivot second th

/-- After `AllEqual` found a mismatch (vqsort-inl.h:1790-1811). `ChoosePivotForEqualSamples` reads "the single unique sample"
again from `buf`, although `PartitionIfTwoKeys` may have overwritten it with other keys (vqsort-inl.h:982); modelled as is. -/
def pivotEqual (e : Env α) (t : Traits α) (pivot : α) (idx : Nat) (keys buf : List α) : M (PR α) := do
  let second ← readAt keys idx
  let tv ← if t.isKV then pure (⟨false, none, keys, buf⟩ : TV α) else partitionIfTwoKeys e.c.N t.lt pivot keys idx second buf
  if tv.done then pure ⟨.done, pivot, tv.keys, tv.buf⟩
  else do
    let sample ← readAt tv.buf 0
    let (result, p) ← choosePivotForEqualSamples e.c.N t tv.keys sample second tv.third
    pure ⟨result, p, tv.keys, tv.buf⟩

/-- Samples not all equal (vqsort-inl.h:1812-1823). -/
def pivotDistinct (e : Env α) (t : Traits α) (keys buf : List α) : M (PR α) := do
  let buf ← sortSamples e t buf
  let first ← readAt buf 0
  let tv ← if t.isKV then pure (⟨false, none, keys, buf⟩ : TV α) else partitionIfTwoSamples e.c.N t keys buf (2 * e.chunk)
  if tv.done then pure ⟨.done, first, tv.keys, tv.buf⟩
  else do
    let pivot ← choosePivotByRank t.lt tv.buf (2 * e.chunk)
    pure ⟨.normal, pivot, tv.keys, tv.buf⟩

/-- The part of `Recurse` that chooses the pivot (vqsort-inl.h:1780-1823). `result = done` stands for `return`. -/
def choosePivot (e : Env α) (t : Traits α) (addr : Nat) (keys buf : List α) (rng : Rng) : M (PR α × Rng) := do
  let (buf, rng) ← drawSamples e t addr keys buf rng
  if ← unsortedSampleEqual e t buf then do
    let pivot ← readAt buf 0
    match ← allEqual e.c.N t.isFloat t.lt pivot keys addr with
    | none => pure (⟨.done, pivot, keys, buf⟩, rng)
    | some idx => do
      let r ← pivotEqual e t pivot idx keys buf
      pure (r, rng)
  else do
    let r ← pivotDistinct e t keys buf
    pure (r, rng)

/-! ### Recursion -/

/-- `RecurseMode`: `sort`, or `select k`. -/
inductive Mode
  | sort
  | select (k : Nat)

/-- Keys, buffer and generator state. -/
structure St (α : Type) where
  keys : List α
  buf : List α
  rng : Rng

/-- `HeapSort(st, keys, num)` of a whole subarray. -/
def heapAll (t : Traits α) (s : St α) : M (St α) := do
  let keys ← heapSort t.lt s.keys s.keys.length
  pure { s with keys := keys }

/-- Recursion into `keys[0, bound)`; `f` is `Recurse` for the subarray. -/
def onLeft (f : St α → M (St α)) (bound : Nat) (s : St α) : M (St α) := do
  let r ← f { s with keys := s.keys.take bound }
  pure { r with keys := r.keys ++ s.keys.drop bound }

/-- Recursion into `keys[bound, num)`. -/
def onRight (f : St α → M (St α)) (bound : Nat) (s : St α) : M (St α) := do
  let r ← f { s with keys := s.keys.drop bound }
  pure { r with keys := s.keys.take bound ++ r.keys }

/-- `if (c) f(s);` -/
def orKeep (c : Prop) [Decidable c] (f : St α → M (St α)) (s : St α) : M (St α) := if c then f s else .ok s

/-- `Recurse` (vqsort-inl.h:1760-1874); the first argument is `remaining_levels`. -/
def recurse (e : Env α) (t : Traits α) : Nat → Mode → Nat → St α → M (St α)
  | levels, mode, addr, s =>
    if e.debug = true ∧ s.keys.length = 0 then .error .abort
    else if s.keys.length ≤ e.bcNum then do
      let (keys, buf) ← baseCase e.mightFault e.big t.ltNet t.lastValue e.c.N e.Kmax s.keys s.keys.length s.buf
      pure { s with keys := keys, buf := buf }
    else do
      let (p, rng) ← choosePivot e t addr s.keys s.buf s.rng
      let s : St α := ⟨p.keys, p.buf, rng⟩
      if p.result = .done then pure s
      else
        match levels with
        | 0 => heapAll t s
        | levels + 1 => do
          let (bound, keys, buf) ← partition e.c t.lt p.pivot s.keys s.buf
          let s : St α := ⟨keys, buf, rng⟩
          if bound = 0 ∨ (bound = s.keys.length ∧ p.result ≠ .wasLast) then .error .ub
          else
            match mode with
            | .select k =>
              if p.result ≠ .isFirst ∧ k < bound then onLeft (recurse e t levels (.select k) addr) bound s
              else if p.result ≠ .wasLast ∧ bound ≤ k then
                onRight (recurse e t levels (.select (k - bound)) (addr + bound)) bound s
              else pure s
            | .sort => do
              let s ← orKeep (p.result ≠ .isFirst) (onLeft (recurse e t levels .sort addr) bound) s
              if p.result ≠ .wasLast then onRight (recurse e t levels .sort (addr + bound)) bound s else pure s

/-- `HandleSpecialCases` (vqsort-inl.h:1878-1918). -/
def handleSpecialCases (e : Env α) (t : Traits α) (s : St α) : M (Bool × St α) :=
  if s.keys.length ≤ e.bcNum then do
    let (keys, buf) ← baseCase e.mightFault e.big t.ltNet t.lastValue e.c.N e.Kmax s.keys s.keys.length s.buf
    pure (true, { s with keys := keys, buf := buf })
  else if e.partial128 || (e.potentiallyHuge && decide (2 * e.c.N > e.bcNum)) then do
    let s ← heapAll t s
    pure (true, s)
  else pure (false, s)

/-- `Sort` between the NaN handling (vqsort-inl.h:1975-1991); `enabled` is `VQSORT_ENABLED`. -/
def sortKeys (enabled : Bool) (e : Env α) (t : Traits α) (addr : Nat) (s : St α) : M (St α) :=
  if enabled then do
    let (done, s) ← handleSpecialCases e t s
    if done then pure s else recurse e t 50 .sort addr s
  else heapAll t s

/-- `PartialSort` likewise (vqsort-inl.h:2017-2036). -/
def partialSortKeys (enabled : Bool) (e : Env α) (t : Traits α) (addr k : Nat) (s : St α) : M (St α) :=
  if enabled then do
    let (done, s) ← handleSpecialCases e t s
    if done then pure s
    else do
      let s ← recurse e t 50 (.select k) addr s
      onLeft (recurse e t 50 .sort addr) k s
  else do
    let keys ← heapPartialSort t.lt s.keys s.keys.length k
    pure { s with keys := keys }

/-- `Select` likewise (vqsort-inl.h:2061-2077). -/
def selectKeys (enabled : Bool) (e : Env α) (t : Traits α) (addr k : Nat) (s : St α) : M (St α) :=
  if enabled then do
    let (done, s) ← handleSpecialCases e t s
    if done then pure s else recurse e t 50 (.select k) addr s
  else do
    let keys ← heapSelect t.lt s.keys s.keys.length k
    pure { s with keys := keys }

end VQ
end Hwy
