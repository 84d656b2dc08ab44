import Verif.CostDist

/-!
# Model of `NextWithSkip` and `AutoTune` (hwy/auto_tune.h:268-505)

`uint32_t` link words are `Nat` below `2^32`; `size_t` is `Nat` (all values stay below the number
of candidates or rounds).  Violated `HWY_DASSERT`s are `Fault.ub`.
-/

namespace Hwy.Tune

/-! ## NextWithSkip::Link (auto_tune.h:298-341) -/

namespace Link

/-- `kBits`, `kShift`, `kMaxNum` (auto_tune.h:302-304). -/
def kBits : Nat := 14
def kShift : Nat := 32 - kBits
def kMaxNum : Nat := 1 <<< kBits

/-- `static_cast<uint32_t>(x)`, and truncation of a 32-bit shift. -/
def u32 (x : Nat) : Nat := x % 2 ^ 32

/-- `IsRemoved` (auto_tune.h:317). -/
def isRemoved (bits : Nat) : Bool := decide (bits &&& kMaxNum ≠ 0)
/-- `Remove` (auto_tune.h:318). -/
def remove (bits : Nat) : Nat := bits ||| kMaxNum
/-- `Next` (auto_tune.h:320). -/
def next (bits : Nat) : Nat := bits >>> kShift
/-- `Prev` (auto_tune.h:321). -/
def prev (bits : Nat) : Nat := bits &&& (kMaxNum - 1)

/-- The constructor (auto_tune.h:307-315). -/
def make (pos num : Nat) : M Nat :=
  if ¬ num < kMaxNum then .error .ub else
  let p := if pos = 0 then num - 1 else pos - 1
  let n := if pos = num - 1 then 0 else pos + 1
  let bits := u32 (u32 n <<< kShift) ||| u32 p
  if next bits = n ∧ prev bits = p ∧ isRemoved bits = false then .ok bits else .error .ub

/-- `SetNext` (auto_tune.h:323-329). -/
def setNext (bits n : Nat) : M Nat :=
  if ¬ n < kMaxNum then .error .ub else
  let bits := bits &&& ((2 ^ 32 - 1) >>> kBits)
  let bits := bits ||| u32 (u32 n <<< kShift)
  if next bits = n ∧ isRemoved bits = false then .ok bits else .error .ub

/-- `SetPrev` (auto_tune.h:330-336). -/
def setPrev (bits p : Nat) : M Nat :=
  if ¬ p < kMaxNum then .error .ub else
  let bits := bits &&& (2 ^ 32 - 1 - (kMaxNum - 1))
  let bits := bits ||| u32 p
  if prev bits = p ∧ isRemoved bits = false then .ok bits else .error .ub

end Link

/-! ## NextWithSkip (auto_tune.h:268-343) -/

/-- The constructor `NextWithSkip(num)` (auto_tune.h:271-276): `links_`. -/
def makeLinks (num : Nat) : M (List Nat) := (List.range num).mapM fun i => Link.make i num

/-- `Next` (auto_tune.h:278-282). -/
def listNext (links : List Nat) (pos : Nat) : M Nat := do
  let b ← readAt links pos
  if Link.isRemoved b then .error .ub else .ok (Link.next b)

/-- `Skip` (auto_tune.h:286-294). -/
def listSkip (links : List Nat) (pos : Nat) : M (List Nat) := do
  let b ← readAt links pos
  if Link.isRemoved b then .error .ub else
  let p := Link.prev b
  let n := Link.next b
  if p = pos ∨ n = pos then .ok links else do
  let bn ← readAt links n
  let bn' ← Link.setPrev bn p
  let links ← writeAt links n bn'
  let bp ← readAt links p
  let bp' ← Link.setNext bp n
  let links ← writeAt links p bp'
  let bpos ← readAt links pos
  writeAt links pos (Link.remove bpos)

/-! ## AutoTune (auto_tune.h:400-505) -/

variable {K : Type} [Field K] [LinearOrder K]

/-- The members of `AutoTune` (auto_tune.h:493-502). `best` is the index of the candidate that
`best_` points to; `n` is `candidates_.size()`. -/
structure Tuner (K : Type) where
  n : Nat
  best : Option Nat
  costs : List (CostDist K)
  idx : Nat
  links : List Nat
  rounds : Nat
  skipIfAbove : K

/-- A new `AutoTune` after `SetCandidates` with `n` candidates (auto_tune.h:413-419); `junk` are
the uninitialised values of each new `CostDistribution`. -/
def setCandidates (junk : List (List K)) (n : Nat) : M (Tuner K) :=
  if n = 0 then .error .ub else do
    let links ← makeLinks n
    .ok { n := n, best := none, costs := junk.map CostDist.init, idx := 0, links := links, rounds := 0, skipIfAbove := 0 }

/-- The search for the lowest estimate (auto_tune.h:465-473), from candidate `i` on; `fuel` is the
number of candidates left. Returns updated distributions, `best_cost` and `idx_min`. -/
def findMin (sqrt : K → K) : List (CostDist K) → K → Nat → Nat → Nat → M (List (CostDist K) × K × Nat)
  | costs, bestCost, idxMin, _, 0 => .ok (costs, bestCost, idxMin)
  | costs, bestCost, idxMin, i, fuel + 1 => do
    let d ← readAt costs i
    let (d', est) ← d.estimateCost sqrt
    let costs ← writeAt costs i d'
    if est < bestCost then findMin sqrt costs est i (i + 1) fuel
    else findMin sqrt costs bestCost idxMin (i + 1) fuel

/-- The retrieval of `my_cost` (auto_tune.h:445-447). -/
def myCost (sqrt : K → K) (kMin rounds : Nat) (d : CostDist K) : M (CostDist K × K) :=
  if kMin ≤ rounds then d.estimateCost sqrt else .ok (d, 0)

/-- The end of a round (auto_tune.h:461-483). `highest` is `HighestValue<double>()`. -/
def endRound (sqrt : K → K) (highest : K) (kMin : Nat) (t : Tuner K) : M (Tuner K) :=
  let t := { t with rounds := t.rounds + 1 }
  if kMin ≤ t.rounds then do
    let (costs, bestCost, idxMin) ← findMin sqrt t.costs highest 0 0 t.n
    let t := { t with costs := costs, skipIfAbove := bestCost * (125 / 100) }
    if t.rounds = 3 * kMin / 2 + 1 then .ok { t with best := some idxMin } else .ok t
  else .ok t

/-- `if (my_cost > skip_if_above_) list_.Skip(my_idx);` (auto_tune.h:457-459). -/
def maybeSkip (skipIfAbove mc : K) (links : List Nat) (myIdx : Nat) : M (List Nat) :=
  if skipIfAbove < mc then listSkip links myIdx else .ok links

/-- `NotifyCost` (auto_tune.h:437-485). `uint64_t` to `double` is exact here. -/
def notifyCost (sqrt : K → K) (highest : K) (kMin : Nat) (t : Tuner K) (cost : Nat) : M (Tuner K) :=
  if t.best ≠ none ∨ t.n = 0 then .error .ub else do
  let d ← readAt t.costs t.idx
  let d ← d.notify sqrt (cost : K)
  let myIdx := t.idx
  let (d, mc) ← myCost sqrt kMin t.rounds d
  let costs ← writeAt t.costs t.idx d
  let idx ← listNext t.links t.idx
  let links ← maybeSkip t.skipIfAbove mc t.links myIdx
  let t := { t with costs := costs, idx := idx, links := links }
  if idx ≤ myIdx then endRound sqrt highest kMin t else .ok t

/-- `HasCandidates` (auto_tune.h:408-411), with its debug assertion. -/
def hasCandidates (t : Tuner K) : M Bool :=
  if t.best ≠ none then .error .ub else .ok (decide (t.n ≠ 0))

/-- `Candidates` (auto_tune.h:422-425): indices of the returned span. -/
def candidates (t : Tuner K) : M (List Nat) := do
  if ← hasCandidates t then .ok (List.range t.n) else .error .ub

/-- A caller's tuning loop: measure `NextConfig()` (auto_tune.h:431-434) and report the cost until
`Best()` is set or the supply of measurements `cs` ends.  Returns the state and the log of
`(candidate index measured, cost)`. -/
def tune (sqrt : K → K) (highest : K) (kMin : Nat) : Tuner K → List Nat → M (Tuner K × List (Nat × Nat))
  | t, [] => .ok (t, [])
  | t, c :: cs =>
    if t.best ≠ none then .ok (t, []) else do
      let t' ← notifyCost sqrt highest kMin t c
      let r ← tune sqrt highest kMin t' cs
      .ok (r.1, (t.idx, c) :: r.2)

end Hwy.Tune
