import Verif.EmuMove
import Verif.EmuConv

/-!
# Model of the memory operations of `hwy/ops/generic_ops-inl.h` on the reference target

Memory is an array `mem` and `base` the position in it that the pointer argument points to, so that negative
indices have a meaning.  Lanes are of an arbitrary type `α` for the index variants; the `*Offset` variants access
bytes, and their lanes are integers of type `t` in little-endian order.  `ti` is the signed type of the indices.
-/

namespace Hwy
namespace Emu
open CInt

variable {α : Type}

/-- `p[i]` for a pointer `p` to position `base` of `mem` and a signed `i`. -/
def readOff (mem : List α) (a : Int) : M α := if 0 ≤ a then readAt mem a.toNat else .error .ub

/-- `p[i] = x`. -/
def writeOff (mem : List α) (a : Int) (x : α) : M (List α) := if 0 ≤ a then writeAt mem a.toNat x else .error .ub

/-- `HWY_DASSERT(b)`. -/
def dassert (b : Bool) : M Unit := if b then .ok () else .error .ub

/-- `MaskedLoad` (emu128-inl.h:1388-1392): all `N` lanes are loaded. -/
def MaskedLoad (t : Ty) (N : Nat) (m p : List Int) : M (List Int) := do
  IfThenElseZero t N m (← Load 0 (cap t) N p)

/-- `MaskedLoadOr` (emu128-inl.h:1394-1398). -/
def MaskedLoadOr (t : Ty) (N : Nat) (v m p : List Int) : M (List Int) := do
  IfThenElse t N m (← Load 0 (cap t) N p) v

/-- `SafeFillN` (generic_ops-inl.h:187-198): `HWY_MEM_OPS_MIGHT_FAULT` is 1 for this target (set_macros-inl.h:742). -/
def SafeFillN (num : Nat) (x : α) (dst : List α) : M (List α) := forN num (fun i dst => writeAt dst i x) dst

/-- `SafeCopyN` (generic_ops-inl.h:202-214). -/
def SafeCopyN (num : Nat) (src dst : List α) : M (List α) :=
  forN num (fun i dst => do writeAt dst i (← readAt src i)) dst

/-- `TruncateStore` (generic_ops-inl.h:2920-2926). -/
def TruncateStore (tF tT : Ty) (N : Nat) (v p : List Int) : M (List Int) := do
  Store N (← TruncateTo tF tT N v) p

/-- `CopyBytes<sizeof(T)>(&x, …)`: the bytes of a lane. -/
def bytesOfLane (t : Ty) (x : Int) : List Int := (List.range (t.bits / 8)).map (fun k => x / 256 ^ k % 256)

/-- `CopyBytes<sizeof(T)>(…, &x)`: the lane made of these bytes. -/
def laneOfBytes (t : Ty) (b : List Int) : Int := t.wrap (b.foldr (fun x acc => x + 256 * acc) 0)

/-- `CopyBytes<sizeof(T)>(src, base_bytes + a)`. -/
def putBytes (b mem : List Int) (a : Int) : M (List Int) :=
  if 0 ≤ a then copyLanes b 0 mem a.toNat b.length else .error .ub

/-- `CopyBytes<sizeof(T)>(base_bytes + a, dst)`. -/
def getBytes (n : Nat) (mem : List Int) (a : Int) : M (List Int) :=
  if 0 ≤ a then copyLanes mem a.toNat (fresh 0 n) 0 n else .error .ub

/-- `ScatterOffset` (generic_ops-inl.h:2938-2955). -/
def ScatterOffset (t : Ty) (N : Nat) (v : List Int) (mem : List Int) (base : Nat) (offset : List Int) : M (List Int) := do
  let lanes ← Store N v (fresh 0 N)
  let offsetLanes ← Store N offset (fresh 0 N)
  forN N (fun i mem => do
    putBytes (bytesOfLane t (← readAt lanes i)) mem (base + (← readAt offsetLanes i))) mem

/-- `ScatterIndex` (generic_ops-inl.h:2958-2974). -/
def ScatterIndex (z : α) (N : Nat) (v : List α) (mem : List α) (base : Nat) (index : List Int) : M (List α) := do
  let lanes ← Store N v (fresh z N)
  let indexLanes ← Store N index (fresh 0 N)
  forN N (fun i mem => do writeOff mem (base + (← readAt indexLanes i)) (← readAt lanes i)) mem

/-- `MaskedScatterIndex` (generic_ops-inl.h:2974-2995); `BitCast(di, VecFromMask(d, m))` is a byte copy. -/
def MaskedScatterIndex (z : α) (ti : Ty) (N : Nat) (v : List α) (m : List Int) (mem : List α) (base : Nat)
    (index : List Int) : M (List α) := do
  let lanes ← Store N v (fresh z N)
  let indexLanes ← Store N index (fresh 0 N)
  let maskLanes ← Store N (vecFromMask ti m) (fresh 0 N)
  forN N (fun i mem => do
    if (← readAt maskLanes i) ≠ 0 then writeOff mem (base + (← readAt indexLanes i)) (← readAt lanes i)
    else return mem) mem

/-- `ScatterIndexN` (generic_ops-inl.h:2997-3008). -/
def ScatterIndexN (N : Nat) (v : List α) (mem : List α) (base : Nat) (index : List Int) (n : Nat) : M (List α) :=
  forN N (fun i mem => do
    if i < n then writeOff mem (base + (← ExtractLane index i)) (← ExtractLane v i) else return mem) mem

/-- `GatherOffset` (generic_ops-inl.h:3027-3044). -/
def GatherOffset (t : Ty) (N : Nat) (mem : List Int) (base : Nat) (offset : List Int) : M (List Int) := do
  let offsetLanes ← Store N offset (fresh 0 N)
  let lanes ← forN N (fun i lanes => do
    let o ← readAt offsetLanes i
    dassert (decide (0 ≤ o))
    writeAt lanes i (laneOfBytes t (← getBytes (t.bits / 8) mem (base + o)))) (fresh 0 N)
  Load 0 (cap t) N lanes

/-- `GatherIndex` (generic_ops-inl.h:3046-3062). -/
def GatherIndex (z : α) (c N : Nat) (mem : List α) (base : Nat) (index : List Int) : M (List α) := do
  let indexLanes ← Store N index (fresh 0 N)
  let lanes ← forN N (fun i lanes => do
    let x ← readAt indexLanes i
    dassert (decide (0 ≤ x))
    writeAt lanes i (← readOff mem (base + x))) (fresh z N)
  Load z c N lanes

/-- `MaskedGatherIndex` (generic_ops-inl.h:3064-3084): the assertion is also made for lanes whose mask is false. -/
def MaskedGatherIndex (z : α) (ti : Ty) (c N : Nat) (m : List Int) (mem : List α) (base : Nat) (index : List Int) :
    M (List α) := do
  let indexLanes ← Store N index (fresh 0 N)
  let maskLanes ← Store N (vecFromMask ti m) (fresh 0 N)
  let lanes ← forN N (fun i lanes => do
    let x ← readAt indexLanes i
    dassert (decide (0 ≤ x))
    let b ← readAt maskLanes i
    let y ← if b ≠ 0 then readOff mem (base + x) else .ok z
    writeAt lanes i y) (fresh z N)
  Load z c N lanes

/-- `MaskedGatherIndexOr` (generic_ops-inl.h:3086-3110). -/
def MaskedGatherIndexOr (z : α) (ti : Ty) (c N : Nat) (no : List α) (m : List Int) (mem : List α) (base : Nat)
    (index : List Int) : M (List α) := do
  let indexLanes ← Store N index (fresh 0 N)
  let maskLanes ← Store N (vecFromMask ti m) (fresh 0 N)
  let noLanes ← Store N no (fresh z N)
  let lanes ← forN N (fun i lanes => do
    let x ← readAt indexLanes i
    dassert (decide (0 ≤ x))
    let b ← readAt maskLanes i
    let y ← if b ≠ 0 then readOff mem (base + x) else readAt noLanes i
    writeAt lanes i y) (fresh z N)
  Load z c N lanes

/-- `GatherIndexNOr` (generic_ops-inl.h:3119-3133). -/
def GatherIndexNOr (N : Nat) (no : List α) (mem : List α) (base : Nat) (index : List Int) (n : Nat) : M (List α) :=
  forN N (fun i v => do
    if i < n then InsertLane v i (← readOff mem (base + (← ExtractLane index i))) else return v) no

/-- `GatherIndexN` (generic_ops-inl.h:3112-3117). -/
def GatherIndexN (z : α) (c N : Nat) (mem : List α) (base : Nat) (index : List Int) (n : Nat) : M (List α) :=
  GatherIndexNOr N (fresh z c) mem base index n

end Emu
end Hwy
