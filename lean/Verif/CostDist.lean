import Verif.Basic
import Mathlib.Algebra.Order.Field.Basic
import Mathlib.Tactic.Ring
import Mathlib.Tactic.Linarith
import Mathlib.Tactic.Positivity
import Mathlib.Tactic.FieldSimp

/-!
# Model of `CostDistribution` (hwy/auto_tune.h:39-265)

`double` is modelled by an arbitrary ordered field `K` (exact arithmetic; rounding, overflow and
NaN are not modelled); `std::sqrt` is a parameter `sqrt : K → K`.  `values_` is a list of length
`kMaxValues`, whose first slots are reused for the online state exactly as in the source.
`VQSort` is `List.mergeSort` (that VQSort sorts is C17/C18/C24).

Violated `HWY_DASSERT`s are `Fault.ub`.  The `HWY_DASSERT(M1() >= Lower())` of line 206 is *not*
modelled.
-/

namespace Hwy.Tune

variable {K : Type} [Field K] [LinearOrder K]

/-- `kMaxValues` (auto_tune.h:41). -/
def kMaxValues : Nat := 14

/-- The members of `CostDistribution` (auto_tune.h:256-263). -/
structure CostDist (K : Type) where
  num : Nat
  onlineN : K
  vals : List K

namespace CostDist

/-- A new object (auto_tune.h:256-263): `values_` is uninitialised, so any `junk`. -/
def init (junk : List K) : CostDist K := ⟨0, 0, junk⟩

/-- `M1()` .. `Upper()` (auto_tune.h:97-102). -/
def M1 (d : CostDist K) : K := d.vals.getD 0 0
def M2 (d : CostDist K) : K := d.vals.getD 1 0
def Mean (d : CostDist K) : K := d.vals.getD 2 0
def Stddev (d : CostDist K) : K := d.vals.getD 3 0
def Lower (d : CostDist K) : K := d.vals.getD 4 0
def Upper (d : CostDist K) : K := d.vals.getD 5 0

/-- Assignment to one of the references of lines 97-102. -/
def put (d : CostDist K) (i : Nat) (x : K) : CostDist K := { d with vals := d.vals.set i x }

/-- `IsOnline` (auto_tune.h:193). -/
def isOnline (d : CostDist K) : Bool := decide (0 < d.onlineN)

/-- The value `Median` returns once `to_sort` is sorted (auto_tune.h:114-116). -/
def midOf (s : List K) : K :=
  if s.length % 2 = 1 then s.getD (s.length / 2) 0
  else (s.getD (s.length / 2) 0 + s.getD (s.length / 2 - 1) 0) * (1 / 2)

/-- `Median` (auto_tune.h:105-117): sorts in place, returns sorted array and median. -/
def median (l : List K) : M (List K × K) :=
  if 2 ≤ l.length then
    let s := l.mergeSort (fun a b => decide (a ≤ b))
    .ok (s, midOf s)
  else .error .ub

/-- `MAD` (auto_tune.h:120-126). -/
def mad (l : List K) (med : K) : M K :=
  if l.length ≤ kMaxValues then do
    let r ← median (l.map fun x => |x - med|)
    .ok r.2
  else .error .ub

/-- `while (values_[right] > upper) --right;` (auto_tune.h:155); index underflow is `ub`. -/
def scanRight (s : List K) (upper : K) : Nat → M Nat
  | 0 => if upper < s.getD 0 0 then .error .ub else .ok 0
  | r + 1 => if upper < s.getD (r + 1) 0 then scanRight s upper r else .ok (r + 1)

/-- `while (left < right && values_[left] < lower) ++left;` (auto_tune.h:161); `fuel` is
`right - left`. -/
def scanLeft (s : List K) (lower : K) : Nat → Nat → Nat
  | left, 0 => left
  | left, fuel + 1 => if s.getD left 0 < lower then scanLeft s lower (left + 1) fuel else left

/-- The part of the array that `RemoveOutliers` keeps: `(left, new num_values_)`
(auto_tune.h:137-163), for sorted values `s`. -/
def keepRange (s : List K) (med md : K) : M (Nat × Nat) :=
  if md = 0 then
    let skewness := (s.getD (s.length - 1) 0 - med) - (med - s.getD 0 0)
    let trim := max (s.length / 2) 2
    let left := max (if skewness < 0 then trim * 3 / 4 else trim / 4) 1
    if 1 ≤ s.length - trim then .ok (left, s.length - trim) else .error .ub
  else do
    let right ← scanRight s (med + 5 * md) (s.length - 1)
    if ¬ s.length / 2 ≤ right then .error .ub else
    let left := scanLeft s (med - 5 * md) 0 right
    if ¬ left ≤ s.length / 2 then .error .ub else
    .ok (left, right - left + 1)

/-- `memmove(values_, values_ + left, n * sizeof)` (auto_tune.h:150, 164). -/
def moveDown (v : List K) (left n : Nat) : M (List K) :=
  if left + n ≤ v.length then .ok ((v.drop left).take n ++ v.drop n) else .error .ub

/-- `RemoveOutliers` (auto_tune.h:130-167). -/
def removeOutliers (d : CostDist K) : M (CostDist K) :=
  if d.num < 3 then .ok d
  else if ¬ d.num ≤ kMaxValues then .error .ub
  else do
    let (s, med) ← median (d.vals.take d.num)
    let md ← mad s med
    let (left, n) ← keepRange s med md
    let v ← moveDown (s ++ d.vals.drop d.num) left n
    .ok { d with num := n, vals := v }

/-- `SampleMean` (auto_tune.h:169-177). -/
def sampleMean (d : CostDist K) : M K :=
  if d.isOnline = false ∧ d.num ≠ 0 ∧ d.num ≤ kMaxValues then
    .ok ((d.vals.take d.num).sum / d.num)
  else .error .ub

/-- `SampleVariance` (auto_tune.h:180-191). -/
def sampleVariance (d : CostDist K) (m : K) : M K :=
  if 0 ≤ m ∧ d.isOnline = false ∧ d.num ≠ 0 ∧ d.num ≤ kMaxValues then
    if d.num = 1 then .ok 0
    else .ok (((d.vals.take d.num).map fun x => (x - m) * (x - m)).sum / ((d.num - 1 : Nat) : K))
  else .error .ub

/-- `OnlineNotify` (auto_tune.h:195-221). -/
def onlineNotify (sqrt : K → K) (d : CostDist K) (x : K) : CostDist K :=
  let x := min (max d.Lower x) d.Upper
  let nMinus1 := d.onlineN
  let d := { d with onlineN := d.onlineN + 1 }
  let diff := x - d.M1
  let diffDivN := diff / d.onlineN
  let d := d.put 0 (d.M1 + diffDivN)
  let d := d.put 1 (d.M2 + diff * nMinus1 * diffDivN)
  let stddev := sqrt (d.M2 / max 1 nMinus1)
  let kNew : K := 2 / 10
  let kOld : K := 1 - kNew
  let d := d.put 2 (d.M1 * kNew + d.Mean * kOld)
  let d := d.put 3 (stddev * kNew + d.Stddev * kOld)
  let d := d.put 4 (d.Mean - 35 / 10 * d.Stddev)
  d.put 5 (d.Mean + 35 / 10 * d.Stddev)

/-- Lines 232-245 of `WarmUpOnline`: initialise the online state from mean and stddev. -/
def startOnline (d : CostDist K) (mean stddev : K) : CostDist K :=
  let d := d.put 1 0
  let d := d.put 0 0
  let d := d.put 2 mean
  let d := d.put 3 stddev
  let d := if d.Stddev = 0 then d.put 3 (d.Mean / 2) else d
  let d := d.put 4 (d.Mean - 4 * d.Stddev)
  d.put 5 (d.Mean + 4 * d.Stddev)

/-- `WarmUpOnline` (auto_tune.h:223-254). -/
def warmUpOnline (sqrt : K → K) (d : CostDist K) : M (CostDist K) := do
  let d ← d.removeOutliers
  let m ← d.sampleMean
  let var ← d.sampleVariance m
  let copy := d.vals.take d.num
  let d := copy.foldl (onlineNotify sqrt) (d.startOnline m (sqrt var))
  if d.isOnline then .ok d else .error .ub

/-- `Notify` (auto_tune.h:43-59). -/
def notify (sqrt : K → K) (d : CostDist K) (x : K) : M (CostDist K) :=
  if x < 0 then .ok d
  else if d.isOnline then .ok (d.onlineNotify sqrt x)
  else do
    let v ← writeAt d.vals d.num x
    let d := { d with num := d.num + 1, vals := v }
    if ¬ d.num ≤ kMaxValues then .error .ub
    else if d.num = kMaxValues then d.warmUpOnline sqrt
    else .ok d

/-- `EstimateCost` (auto_tune.h:87-93): returns the new state and the estimate. -/
def estimateCost (sqrt : K → K) (d : CostDist K) : M (CostDist K × K) :=
  if d.isOnline then .ok (d, d.Mean)
  else do
    let d ← d.warmUpOnline sqrt
    .ok (d, d.Mean)

end CostDist
end Hwy.Tune
