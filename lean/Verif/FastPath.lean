import Verif.VecOps

/-!
# Model of the fast paths for few distinct keys (hwy/contrib/sort/vqsort-inl.h)

Indices count keys. `keys` is exactly `keys[0, num)`. `lt` is `st.Compare`, and `EqualKeys(a, b)` is that neither comes
before the other: for plain keys both sides compare the whole key, for key-value types only the key part.
Vectors that are broadcasts of one key are modelled by that key.
-/

namespace Hwy
namespace VQ

variable {α : Type}

/-- `st.EqualKeys` (traits-inl.h:173-176, 395-398; traits128-inl.h:137-140, 307-310) of one key. -/
def eqk (lt : α → α → Bool) (a b : α) : Bool := !lt a b && !lt b a

/-- `if (stop >= N) for (; w <= stop - N; w += N) StoreU(x, d, a + w); StoreN(x, d, a + w, stop - w);` -/
def fillTo (N : Nat) (x : α) (a : List α) (start stop : Nat) : M (List α) := do
  let (w, a) ← Vec.blocks N stop (fun w a => Vec.storeU (List.replicate N x) a w) (stop + 1) start a
  if stop < w then .error .ub
  else Vec.storeN (List.replicate N x) a w (stop - w)

/-- Result of a two-value partition: done (and the keys), or the third value. -/
structure TV (α : Type) where
  done : Bool
  third : Option α
  keys : List α
  buf : List α

/-- First loop of `MaybePartitionTwoValue` (vqsort-inl.h:935-978): stops at a vector containing a third value (`true`),
or after the last whole vector. Returns `i`, `writeL`, keys. -/
def tvLoop (N : Nat) (lt : α → α → Bool) (valueL valueR : α) : Nat → Nat → Nat → List α → M (Bool × Nat × Nat × List α)
  | 0, _, _, _ => .error .abort
  | fuel + 1, i, writeL, keys =>
    if N ≤ keys.length ∧ i ≤ keys.length - N then do
      let v ← Vec.loadU N keys i
      if v.all (fun x => eqk lt x valueL || eqk lt x valueR) then do
        let keys ← Vec.storeU (List.replicate N valueL) keys writeL
        tvLoop N lt valueL valueR fuel (i + N) (writeL + v.countP (fun x => eqk lt x valueL)) keys
      else .ok (true, i, writeL, keys)
    else .ok (false, i, writeL, keys)

/-- `third = st.SetKey(d, keys + i + lane)` (vqsort-inl.h:961, 992), then fill what was read with R. -/
def tvUndo (N : Nat) (valueR : α) (i writeL lane : Nat) (keys buf : List α) : M (TV α) := do
  let third ← readAt keys (i + lane)
  let keys ← fillTo N valueR keys writeL i
  pure ⟨false, some third, keys, buf⟩

/-- Lane of the first key that is neither value (`FindKnownFirstTrue`). -/
def firstOther (lt : α → α → Bool) (valueL valueR : α) (v : List α) : Nat :=
  v.findIdx (fun x => !(eqk lt x valueL || eqk lt x valueR))

/-- The last partial vector (vqsort-inl.h:980-1021): lanes past `remaining` are whatever `buf` contains. -/
def tvLast (N : Nat) (lt : α → α → Bool) (valueL valueR : α) (i writeL : Nat) (keys buf : List α) : M (TV α) := do
  let remaining := keys.length - i
  let part ← Vec.loadU remaining keys i
  let buf ← Vec.storeU part buf 0
  let v ← Vec.loadU N buf 0
  let valid := Vec.firstN N remaining
  let eqL := List.zipWith (fun x m => eqk lt x valueL && m) v valid
  let eq := List.zipWith (fun (l : Bool) (xm : α × Bool) => l || eqk lt xm.1 valueR || !xm.2) eqL (v.zip valid)
  if eq.all id then do
    let keys ← Vec.storeN (List.replicate N valueL) keys writeL remaining
    let keys ← fillTo N valueR keys (writeL + eqL.countP id) keys.length
    pure ⟨true, none, keys, buf⟩
  else tvUndo N valueR i writeL (eq.findIdx not) keys buf

/-- `MaybePartitionTwoValue` (vqsort-inl.h:929-1022). -/
def twoValue (N : Nat) (lt : α → α → Bool) (valueL valueR : α) (keys buf : List α) : M (TV α) := do
  let (found, i, writeL, keys) ← tvLoop N lt valueL valueR (keys.length + 1) 0 0 keys
  if found then do
    let v ← Vec.loadU N keys i
    tvUndo N valueR i writeL (firstOther lt valueL valueR v) keys buf
  else tvLast N lt valueL valueR i writeL keys buf

/-- `x - N` for `size_t`. -/
def sub64 (x N : Nat) : Nat := (x + 2 ^ 64 - N) % 2 ^ 64

/-- First loop of `MaybePartitionTwoValueR` (vqsort-inl.h:1031-1072), "terminates after unsigned wraparound". Returns
whether a third value was found, `pos`, `countR`, keys. -/
def tvrLoop (N : Nat) (lt : α → α → Bool) (valueL valueR : α) : Nat → Nat → Nat → List α → M (Bool × Nat × Nat × List α)
  | 0, _, _, _ => .error .abort
  | fuel + 1, pos, countR, keys =>
    if pos < keys.length then do
      let v ← Vec.loadU N keys pos
      if v.all (fun x => eqk lt x valueL || eqk lt x valueR) then do
        let keys ← Vec.storeU (List.replicate N valueR) keys pos
        tvrLoop N lt valueL valueR fuel (sub64 pos N) (countR + v.countP (fun x => eqk lt x valueR)) keys
      else .ok (true, pos, countR, keys)
    else .ok (false, pos, countR, keys)

/-- Report the third value, rewrite `[pos, num - countR)` to L (vqsort-inl.h:1050-1069, 1085-1104). -/
def tvrUndo (N : Nat) (valueL : α) (pos countR at' : Nat) (keys buf : List α) : M (TV α) := do
  let third ← readAt keys at'
  let keys ← fillTo N valueL keys pos (keys.length - countR)
  pure ⟨false, some third, keys, buf⟩

/-- Fill the left side (vqsort-inl.h:1111-1120): whole vectors, then a copy from `buf` of exactly the remainder. -/
def tvrFillL (N : Nat) (valueL : α) (endL : Nat) (keys buf : List α) : M (TV α) := do
  let (i, keys) ← Vec.blocks N endL (fun w a => Vec.storeU (List.replicate N valueL) a w) (endL + 1) 0 keys
  let buf ← Vec.storeU (List.replicate N valueL) buf 0
  let v ← Vec.loadU (endL - i) buf 0
  let keys ← Vec.storeU v keys i
  pure ⟨true, none, keys, buf⟩

/-- Final partial vector (vqsort-inl.h:1074-1128). `remaining` is `pos + N` after the wraparound. -/
def tvrLast (N : Nat) (lt : α → α → Bool) (valueL valueR : α) (remaining countR : Nat) (keys buf : List α) : M (TV α) := do
  let v ← Vec.loadU N keys 0
  let valid := Vec.firstN N remaining
  let eqR := List.zipWith (fun x m => eqk lt x valueR && m) v valid
  let eq := List.zipWith (fun (r : Bool) (xm : α × Bool) => eqk lt xm.1 valueL || r || !xm.2) eqR (v.zip valid)
  if eq.all id then do
    let keys ← Vec.storeU (List.replicate N valueR) keys 0
    tvrFillL N valueL (keys.length - (countR + eqR.countP id)) keys buf
  else tvrUndo N valueL remaining countR (eq.findIdx not) keys buf

/-- `MaybePartitionTwoValueR` (vqsort-inl.h:1026-1129). -/
def twoValueR (N : Nat) (lt : α → α → Bool) (valueL valueR : α) (keys buf : List α) : M (TV α) := do
  if keys.length < N then .error .ub
  else do
    let (found, pos, countR, keys) ← tvrLoop N lt valueL valueR (keys.length + 1) (keys.length - N) 0 keys
    if found then do
      let v ← Vec.loadU N keys pos
      tvrUndo N valueL (pos + N) countR (pos + firstOther lt valueL valueR v) keys buf
    else tvrLast N lt valueL valueR ((pos + N) % 2 ^ 64) countR keys buf

/-- `!AllFalse(d, diff)`, `FindKnownFirstTrue(d, diff)` for `diff = NotEqualKeys(v, pivot)`. -/
def mismatch (lt : α → α → Bool) (pivot : α) (v : List α) : Option Nat := v.findIdx? (fun x => !eqk lt x pivot)

/-- `for (;; i += N)` (vqsort-inl.h:1461-1469): find the mismatch known to be in this group. -/
def aeFind (N : Nat) (lt : α → α → Bool) (pivot : α) (keys : List α) : Nat → Nat → M Nat
  | 0, _ => .error .abort
  | fuel + 1, i => do
    let v ← Vec.loadU N keys i
    match mismatch lt pivot v with
    | some lane => .ok (i + lane)
    | none => aeFind N lt pivot keys fuel (i + N)

/-- Groups of `kLoops * 2 = 16` vectors (vqsort-inl.h:1436-1473). `OrXor` collects the differences of the whole group; it
is nonzero iff some key of the group differs (`orXor_spec` in FastPathProof.lean, with the value bits of key-value types shifted out). Returns the mismatch or the new `i`. -/
def aeGroups (N : Nat) (lt : α → α → Bool) (pivot : α) (keys : List α) : Nat → Nat → M (Nat ⊕ Nat)
  | 0, _ => .error .abort
  | fuel + 1, i =>
    if 16 * N ≤ keys.length ∧ i ≤ keys.length - 16 * N then do
      let g ← Vec.loadU (16 * N) keys i
      if g.all (fun x => eqk lt x pivot) then aeGroups N lt pivot keys fuel (i + 16 * N)
      else do
        let m ← aeFind N lt pivot keys (keys.length + 1) i
        pure (.inl m)
    else .ok (.inr i)

/-- Whole vectors (vqsort-inl.h:1475-1484). -/
def aeVecs (N : Nat) (lt : α → α → Bool) (pivot : α) (keys : List α) : Nat → Nat → M (Option Nat)
  | 0, _ => .error .abort
  | fuel + 1, i =>
    if i ≤ keys.length - N then do
      let v ← Vec.loadU N keys i
      match mismatch lt pivot v with
      | some lane => .ok (some (i + lane))
      | none => aeVecs N lt pivot keys fuel (i + N)
    else .ok none

/-- The vectors after the groups, and the last vector again (vqsort-inl.h:1475-1494). -/
def aeTail (N : Nat) (lt : α → α → Bool) (pivot : α) (keys : List α) (i : Nat) : M (Option Nat) := do
  match ← aeVecs N lt pivot keys (keys.length + 1) i with
  | some m => .ok (some m)
  | none => do
    let v ← Vec.loadU N keys (keys.length - N)
    match mismatch lt pivot v with
    | some lane => .ok (some (keys.length - N + lane))
    | none => .ok none

/-- `AllEqual` (vqsort-inl.h:1405-1499): `none` if all keys equal the pivot, else the `first_mismatch`. `addr` is the
address of `keys` divided by the key size. -/
def allEqual (N : Nat) (isFloat : Bool) (lt : α → α → Bool) (pivot : α) (keys : List α) (addr : Nat) : M (Option Nat) :=
  if keys.length < N then .error .ub
  else do
    let consume := N - addr % N
    let v ← Vec.loadU N keys 0
    match mismatch lt pivot (v.take consume) with
    | some lane => .ok (some lane)
    | none => do
      let g ← if isFloat then pure (.inr consume) else aeGroups N lt pivot keys (keys.length + 1) consume
      match g with
      | .inl m => .ok (some m)
      | .inr i => aeTail N lt pivot keys i

/-- One group of `kLoops = 16` vectors of `ExistsAnyBefore` / `ExistsAnyAfter`: accumulate `First` / `Last` lane by lane. -/
def groupAcc (N : Nat) (op : α → α → α) (keys : List α) (i : Nat) (acc : List α) : M (List α) := do
  let vs ← (List.range 16).mapM (fun l => Vec.loadU N keys (i + l * N))
  pure (vs.foldl (fun a v => List.zipWith op a v) acc)

/-- Groups (vqsort-inl.h:1519-1536, 1579-1596). Returns whether one was found, and `i`. -/
def existsGroups (N : Nat) (op : α → α → α) (test : α → Bool) (keys : List α) : Nat → Nat → List α → M (Bool × Nat)
  | 0, _, _ => .error .abort
  | fuel + 1, i, acc =>
    if 16 * N ≤ keys.length ∧ i ≤ keys.length - 16 * N then do
      let acc ← groupAcc N op keys i acc
      if acc.any test then .ok (true, i)
      else existsGroups N op test keys fuel (i + 16 * N) acc
    else .ok (false, i)

/-- Whole vectors (vqsort-inl.h:1537-1546, 1597-1606). -/
def existsVecs (N : Nat) (test : α → Bool) (keys : List α) : Nat → Nat → M (Bool × Nat)
  | 0, _ => .error .abort
  | fuel + 1, i =>
    if i ≤ keys.length - N then do
      let v ← Vec.loadU N keys i
      if v.any test then .ok (true, i) else existsVecs N test keys fuel (i + N)
    else .ok (false, i)

/-- `ExistsAnyBefore` (`op = First`, `test x = Compare(x, pivot)`, vqsort-inl.h:1503-1559) and `ExistsAnyAfter`
(`op = Last`, `test x = Compare(pivot, x)`, vqsort-inl.h:1563-1619). -/
def existsAny (N : Nat) (op : α → α → α) (test : α → Bool) (pivot : α) (keys : List α) : M Bool :=
  if keys.length < N then .error .ub
  else do
    let (f, i) ← existsGroups N op test keys (keys.length + 1) 0 (List.replicate N pivot)
    if f then pure true
    else do
      let (f, i) ← existsVecs N test keys (keys.length + 1) i
      if f then pure true
      else if i = keys.length then pure false
      else do
        let v ← Vec.loadU N keys (keys.length - N)
        pure (v.any test)

end VQ
end Hwy
