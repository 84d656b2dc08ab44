import Verif.VecOps

/-!
# Model of `hwy/contrib/algo/{copy,find,transform}-inl.h`

`N = Lanes(d) ≥ 1`.  `size_t` arithmetic on `count` and `idx` is over `Nat`: `idx + N` cannot wrap for
arrays that fit in memory.  `func` is a function on whole vectors, as in the API.
-/

namespace Hwy
namespace Algo
open Vec

variable {α : Type}

/-- `Fill` (copy-inl.h:41-59). -/
def fill (N : Nat) (value : α) (count : Nat) (to : List α) : M (List α) := do
  let (idx, to) ← blocks N count (fun idx to => storeU (List.replicate N value) to idx) (count + 1) 0 to
  if idx = count then return to
  safeFillN (count - idx) value to idx

/-- `Copy` (copy-inl.h:62-80). -/
def copy (N : Nat) (src : List α) (count : Nat) (to : List α) : M (List α) := do
  let (idx, to) ← blocks N count (fun idx to => do
    let v ← loadU N src idx
    storeU v to idx) (count + 1) 0 to
  if idx = count then return to
  safeCopyN (count - idx) src to idx

/-- Single-element tail of `CopyIf` where memory operations might fault (copy-inl.h:110-125). -/
def copyIfTail (func : List α → List Bool) (src : List α) (count : Nat) :
    Nat → Nat → List α × Nat → M (List α × Nat)
  | 0, _, _ => .error .abort
  | fuel + 1, idx, (to, pos) =>
    if idx < count then do
      let v ← loadU 1 src idx
      if (func v).countP id = 0 then copyIfTail func src count fuel (idx + 1) (to, pos)
      else do
        let to ← storeU v to pos
        copyIfTail func src count fuel (idx + 1) (to, pos + 1)
    else .ok (to, pos)

/-- `CopyIf` (copy-inl.h:94-138); `pos` is the offset of `to` from its initial value. `mightFault`
selects the preprocessor branch. In the other branch `last = count - N` may wrap around to an address
before the array, and `invalid = idx - last` wraps back. -/
def copyIf (N : Nat) (mightFault : Bool) (zero : α) (func : List α → List Bool) (src : List α)
    (count : Nat) (to : List α) : M (List α × Nat) := do
  let (idx, (to, pos)) ← blocks N count (fun idx (s : List α × Nat) => do
    let v ← loadU N src idx
    let (to, n) ← compressBlendedStore v (func v) s.1 s.2
    return (to, s.2 + n)) (count + 1) 0 (to, 0)
  if idx = count then return (to, pos)
  if mightFault then copyIfTail func src count (count + 1) idx (to, pos)
  else
    let last : Int := (count : Int) - N
    let invalid := (idx - last).toNat
    if ¬ (0 < invalid ∧ invalid < N) then throw .ub
    let mask := (firstN N invalid).map (!·)
    let v ← maskedLoad zero mask src last
    let (to, n) ← compressBlendedStore v ((mask.zip (func v)).map (fun p => p.1 && p.2)) to pos
    return (to, pos + n)

/-- The whole-vector loop of `Find`/`FindIf` (find-inl.h:39-45, 81-87), with early return. -/
def findLoop (N : Nat) (func : List α → List Bool) (a : List α) (count : Nat) :
    Nat → Nat → M (Sum Nat Nat)
  | 0, _ => .error .abort
  | fuel + 1, i =>
    if N ≤ count ∧ i ≤ count - N then do
      let v ← loadU N a i
      match findFirstTrue (func v) with
      | some p => return .inl (i + p)
      | none => findLoop N func a count fuel (i + N)
    else .ok (.inr i)

/-- Scalar tail (find-inl.h:52-58, 92-97). -/
def findTail (func : List α → List Bool) (a : List α) (count : Nat) : Nat → Nat → M Nat
  | 0, _ => .error .abort
  | fuel + 1, i =>
    if i < count then do
      let v ← loadU 1 a i
      if (func v).all id then return i else findTail func a count fuel (i + 1)
    else .ok count

/-- `FindIf` (find-inl.h:73-106). -/
def findIf (N : Nat) (mightFault : Bool) (zero : α) (func : List α → List Bool) (a : List α)
    (count : Nat) : M Nat := do
  match ← findLoop N func a count (count + 1) 0 with
  | .inl r => return r
  | .inr i =>
    if i = count then return count
    if mightFault then findTail func a count (count + 1) i
    else
      let mask := firstN N (count - i)
      let v ← maskedLoad zero mask a i
      match findFirstTrue (((func v).zip mask).map (fun p => p.1 && p.2)) with
      | some p => return i + p
      | none => return count

/-- `Find` (find-inl.h:32-70): the same code with `func v = Eq(Set(d, value), v)`; `eq` is the lane
comparison of the element type. -/
def find (N : Nat) (mightFault : Bool) (zero : α) (eq : α → α → Bool) (value : α) (a : List α)
    (count : Nat) : M Nat :=
  findIf N mightFault zero (fun v => v.map (fun x => eq value x)) a count

/-- `Generate` (transform-inl.h:52-73); `bits` is the width of the index lanes, on which `Iota`/`Add`
wrap. -/
def generate (N bits : Nat) (func : List Nat → List α) (count : Nat) (out : List α) : M (List α) := do
  let (idx, (out, vidx)) ← blocks N count (fun idx (s : List α × List Nat) => do
    let out ← storeU (func s.2) s.1 idx
    return (out, s.2.map (fun x => (x + N % 2 ^ bits) % 2 ^ bits))) (count + 1) 0
    (out, (List.range N).map (fun i => i % 2 ^ bits))
  if idx = count then return out
  storeN (func vidx) out idx (count - idx)

/-- `Foreach` (transform-inl.h:77-96): the vectors passed to `func`, in order. -/
def foreach (N : Nat) (no : List α) (a : List α) (count : Nat) : M (List (List α)) := do
  let (idx, calls) ← blocks N count (fun idx (s : List (List α)) => do
    let v ← loadU N a idx
    return s ++ [v]) (count + 1) 0 []
  if idx = count then return calls
  let v ← loadNOr N no a idx (count - idx)
  return calls ++ [v]

/-- `Transform` (transform-inl.h:101-120). -/
def transform (N : Nat) (zero : α) (func : List α → List α) (inout : List α) (count : Nat) :
    M (List α) := do
  let (idx, inout) ← blocks N count (fun idx inout => do
    let v ← loadU N inout idx
    storeU (func v) inout idx) (count + 1) 0 inout
  if idx = count then return inout
  let v ← loadN N zero inout idx (count - idx)
  storeN (func v) inout idx (count - idx)

/-- `Transform1` (transform-inl.h:124-146). -/
def transform1 (N : Nat) (zero : α) (func : List α → List α → List α) (inout : List α) (count : Nat)
    (in1 : List α) : M (List α) := do
  let (idx, inout) ← blocks N count (fun idx inout => do
    let v ← loadU N inout idx
    let v1 ← loadU N in1 idx
    storeU (func v v1) inout idx) (count + 1) 0 inout
  if idx = count then return inout
  let v ← loadN N zero inout idx (count - idx)
  let v1 ← loadN N zero in1 idx (count - idx)
  storeN (func v v1) inout idx (count - idx)

/-- `Transform2` (transform-inl.h:150-175). -/
def transform2 (N : Nat) (zero : α) (func : List α → List α → List α → List α) (inout : List α)
    (count : Nat) (in1 in2 : List α) : M (List α) := do
  let (idx, inout) ← blocks N count (fun idx inout => do
    let v ← loadU N inout idx
    let v1 ← loadU N in1 idx
    let v2 ← loadU N in2 idx
    storeU (func v v1 v2) inout idx) (count + 1) 0 inout
  if idx = count then return inout
  let v ← loadN N zero inout idx (count - idx)
  let v1 ← loadN N zero in1 idx (count - idx)
  let v2 ← loadN N zero in2 idx (count - idx)
  storeN (func v v1 v2) inout idx (count - idx)

/-- `ReplaceIf` (transform-inl.h:200-221): `IfThenElse(func(d, v), new_v, v)`. -/
def replaceIf (N : Nat) (zero : α) (func : List α → List Bool) (newT : α) (inout : List α)
    (count : Nat) : M (List α) :=
  transform N zero (fun v => (v.zip (func v)).map (fun p => if p.2 then newT else p.1)) inout count

/-- `Replace` (transform-inl.h:177-197): the same with `Eq(v, old_v)`. -/
def replace (N : Nat) (zero : α) (eq : α → α → Bool) (inout : List α) (count : Nat) (newT oldT : α) :
    M (List α) :=
  replaceIf N zero (fun v => v.map (fun x => eq x oldT)) newT inout count

end Algo
end Hwy
